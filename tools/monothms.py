#!/usr/bin/env python3
"""Writes Verif/Props/C77Vec.lean: monotonicity of the vector functions in binary32."""
import os
OUT = os.path.join(os.path.dirname(__file__), '..', 'lean', 'Verif', 'Props', 'C77Vec.lean')
HEAD = '''import Verif.Props.C77
/-!
# C77: order survives rounding, vectors

Written by tools/monothms.py.  `V3.Le` compares component by component, `V3.Num` says that no component is NaN,
`V3.LeAbs` compares magnitudes.
-/
open Cglm F32
namespace Cglm
set_option linter.unusedSectionVars false
set_option linter.unusedSimpArgs false
variable [Libm]

/-- builds the comparison of two expressions of the same shape -/
macro "leN" : tactic => `(tactic| repeat' (first
  | with_reducible exact LeN.refl _ | exact LeN.of (by assumption) | with_reducible apply LeN.add
  | with_reducible apply LeN.sub | (with_reducible refine LeN.mulL ?_ ?_ <;> first | assumption | skip)
  | (with_reducible refine LeN.mulR ?_ ?_ <;> first | assumption | skip)))

theorem F32.nonneg_key {a : F32} (h : le (zero false) a = true) : 0 ≤ key a := (key_le_iff.mp h).2.2

theorem F32.le_max_of {a a' b b' : F32} (ha : le a a' = true) (hb : le b b' = true) :
    le (if lt a b = true then b else a) (if lt a' b' = true then b' else a') = true := by
  simp only [key_le_iff] at ha hb ⊢
  split_ifs with c1 c2 c2 <;> simp only [key_lt_iff] at c1 c2 <;> simp_all <;> linarith

theorem F32.le_min_of {a a' b b' : F32} (ha : le a a' = true) (hb : le b b' = true) :
    le (if lt b a = true then b else a) (if lt b' a' = true then b' else a') = true := by
  simp only [key_le_iff] at ha hb ⊢
  split_ifs with c1 c2 c2 <;> simp only [key_lt_iff] at c1 c2 <;> simp_all <;> linarith

theorem F32.max3_eq (v : V3 F32) : glm_vec3_max v = (if lt (if lt v.x v.y = true then v.y else v.x) v.z = true then v.z else (if lt v.x v.y = true then v.y else v.x)) := by
  simp only [cglm, flt_f32]
  split_ifs <;> rfl

theorem F32.max4_eq (v : V4 F32) : glm_vec4_max v =
    (if lt (if lt (if lt v.x v.y = true then v.y else v.x) v.z = true then v.z else (if lt v.x v.y = true then v.y else v.x)) v.w = true then v.w else (if lt (if lt v.x v.y = true then v.y else v.x) v.z = true then v.z else (if lt v.x v.y = true then v.y else v.x))) := by
  have h := max3_eq ⟨v.x, v.y, v.z⟩
  rw [glm_vec4_max, h]; rfl

theorem F32.min3_eq (v : V3 F32) : glm_vec3_min v = (if lt v.z (if lt v.y v.x = true then v.y else v.x) = true then v.z else (if lt v.y v.x = true then v.y else v.x)) := by
  simp only [cglm, flt_f32]
  split_ifs <;> rfl

theorem F32.min4_eq (v : V4 F32) : glm_vec4_min v =
    (if lt v.w (if lt v.z (if lt v.y v.x = true then v.y else v.x) = true then v.z else (if lt v.y v.x = true then v.y else v.x)) = true then v.w else (if lt v.z (if lt v.y v.x = true then v.y else v.x) = true then v.z else (if lt v.y v.x = true then v.y else v.x))) := by
  have h := min3_eq ⟨v.x, v.y, v.z⟩
  rw [glm_vec4_min, h]; rfl

theorem F32.abs_num {a : F32} (h : F32.abs a ≠ nan) : a ≠ nan := fun e => h (abs_eq_nan.mpr e)

'''
o = [HEAD]
C = 'xyzw'
def w(s): o.append(s)
def sums(n):
    w("  have s1 := add_nonneg_ne u0 u1 p0 p1\n  have t1 := add_nonneg_ne v0 v1 q0 q1\n  have l1 := add_le_add' m0 m1 s1.1 t1.1\n")
    for i in range(2, n):
        w(f"  have s{i} := add_nonneg_ne s{i-1}.1 u{i} s{i-1}.2 p{i}\n  have t{i} := add_nonneg_ne t{i-1}.1 v{i} t{i-1}.2 q{i}\n"
          f"  have l{i} := add_le_add' l{i-1} m{i} s{i}.1 t{i}.1\n")
EX = {2: '⟨.ofRat false 1, .ofRat false (-2)⟩', 3: '⟨.ofRat false 1, .ofRat false (-2), .ofRat false 3⟩',
      4: '⟨.ofRat false 1, .ofRat false (-2), .ofRat false 3, inf false⟩'}
EX2 = {2: '⟨.ofRat false (3 / 2), .ofRat false (-1)⟩', 3: '⟨.ofRat false (3 / 2), .ofRat false (-1), .ofRat false 3⟩',
       4: '⟨.ofRat false (3 / 2), .ofRat false (-1), .ofRat false 3, inf false⟩'}
for n in (2, 3, 4):
    V = f'V{n}'
    v = f'vec{n}'
    cs = C[:n]
    pr = ['.1'] if n == 1 else ['.2' * i + '.1' for i in range(n - 1)] + ['.2' * (n - 1)]
    w(f'/-! ### {v} -/\n')
    w(f'example : {V}.Le {EX[n]} {EX2[n]} := by\n  simp only [{V}.Le]; decide +kernel\n')
    def res(f, doc, args, hyps, e, e2, term, direct=False):
        """monotone vector-valued function"""
        if direct:
            w(f'/-- {doc} -/\ntheorem C77_{v}_{f} {args} {hyps} :\n    ({e}).Le ({e2}) := by\n'
              f'  simp only [{V}.Le, cglm] at *\n  exact ⟨{", ".join(term(i) for i in range(n))}⟩\n')
        else:
            w(f'/-- {doc} -/\ntheorem C77_{v}_{f} {args} {hyps}\n    (hn : ({e}).Num) (hn\' : ({e2}).Num) : ({e}).Le ({e2}) := by\n'
              f'  simp only [{V}.Le, {V}.Num, cglm] at *\n'
              f'  exact ⟨{", ".join("(" + term(i) + f") hn{pr[i]} hn{chr(39)}{pr[i]}" for i in range(n))}⟩\n')
    res('add', 'addition', f"(a a' b b' : {V} F32)", "(ha : a.Le a') (hb : b.Le b')", f'glm_{v}_add a b', f"glm_{v}_add a' b'",
        lambda i: f'LeN.add (.of ha{pr[i]}) (.of hb{pr[i]})')
    res('sub', 'subtraction: rises with the first, falls with the second argument', f"(a a' b b' : {V} F32)", "(ha : a.Le a') (hb : b'.Le b)",
        f'glm_{v}_sub a b', f"glm_{v}_sub a' b'", lambda i: f'LeN.sub (.of ha{pr[i]}) (.of hb{pr[i]})')
    res('adds', 'addition of a scalar', f"(a a' : {V} F32) (s s' : F32)", "(ha : a.Le a') (hs : le s s' = true)", f'glm_{v}_adds a s', f"glm_{v}_adds a' s'",
        lambda i: f'LeN.add (.of ha{pr[i]}) (.of hs)')
    res('scale', 'scaling by a factor that is not negative', f"(a a' : {V} F32) (s : F32)", "(hs : le (zero false) s = true) (ha : a.Le a')",
        f'glm_{v}_scale a s', f"glm_{v}_scale a' s", lambda i: f'LeN.mulR (nonneg_key hs) (.of ha{pr[i]})')
    res('muladds', 'multiply and accumulate', f"(a a' d d' : {V} F32) (s : F32)", "(hs : le (zero false) s = true) (ha : a.Le a') (hd : d.Le d')",
        f'glm_{v}_muladds a s d', f"glm_{v}_muladds a' s d'", lambda i: f'LeN.add (.of hd{pr[i]}) (LeN.mulR (nonneg_key hs) (.of ha{pr[i]}))')
    res('minv', 'componentwise minimum', f"(a a' b b' : {V} F32)", "(ha : a.Le a') (hb : b.Le b')", f'glm_{v}_minv a b', f"glm_{v}_minv a' b'",
        lambda i: f'leN_min ha{pr[i]} hb{pr[i]}', True)
    o[-1] = o[-1].replace(f'simp only [{V}.Le, cglm] at *', f'simp only [{V}.Le, glm_{v}_minv] at *')
    res('maxv', 'componentwise maximum', f"(a a' b b' : {V} F32)", "(ha : a.Le a') (hb : b.Le b')", f'glm_{v}_maxv a b', f"glm_{v}_maxv a' b'",
        lambda i: f'leN_max ha{pr[i]} hb{pr[i]}', True)
    o[-1] = o[-1].replace(f'simp only [{V}.Le, cglm] at *', f'simp only [{V}.Le, glm_{v}_maxv] at *')
    res('clamp', 'clamping', f"(a a' : {V} F32) (lo lo' hi hi' : F32)", "(ha : a.Le a') (h1 : le lo lo' = true) (h2 : le hi hi' = true)",
        f'glm_{v}_clamp a lo hi', f"glm_{v}_clamp a' lo' hi'", lambda i: f'C77_clamp _ _ _ _ _ _ ha{pr[i]} h1 h2', True)
    o[-1] = o[-1].replace(f'simp only [{V}.Le, cglm] at *', f'simp only [{V}.Le, glm_{v}_clamp] at *')
    if n > 1:
        res('step', 'step', f"(e e' x x' : {V} F32)", "(he : e'.Le e) (hx : x.Le x')", f'glm_{v}_step e x', f"glm_{v}_step e' x'",
            lambda i: f'C77_step _ _ _ _ he{pr[i]} hx{pr[i]}', True)
        o[-1] = o[-1].replace(f'simp only [{V}.Le, cglm] at *', f'simp only [{V}.Le, glm_{v}_step] at *')
    res('floor', 'floor', f"(a a' : {V} F32)", "(ha : a.Le a')", f'glm_{v}_floor a', f"glm_{v}_floor a'",
        lambda i: f'floor_le_floor\' ha{pr[i]}', True)
    lerp = 'glm_lerpc' if n == 2 else 'glm_lerp'
    unf = 'glm_lerpc' if n == 2 else f'glm_{v}_lerp'
    w(f"/-- interpolation between ordered ends rises with the parameter{' (the two-dimensional function clamps it)' if n == 2 else ''} -/\ntheorem C77_{v}_lerp (a b : {V} F32) (t t' : F32) (hab : a.Le b) (ht : le t t' = true)\n"
      f"    (hn : (glm_{v}_lerp a b t).Num) (hn' : (glm_{v}_lerp a b t').Num) : (glm_{v}_lerp a b t).Le (glm_{v}_lerp a b t') := by\n"
      f"  have e : ∀ s, glm_{v}_lerp a b s = ⟨{', '.join(f'{lerp} a.{c} b.{c} s' for c in cs)}⟩ := fun s => by\n"
      f"    simp only [cglm]\n"
      f"  rw [e] at hn hn' ⊢\n  rw [e]\n"
      f"  exact ⟨{', '.join(f'C77_lerp{lerp[8:]} _ _ _ _ hab{p} ht hn{p} hn{chr(39)}{p}' for p in pr)}⟩\n")
    if n > 2:
        w(f"theorem C77_{v}_lerpc (a b : {V} F32) (t t' : F32) (hab : a.Le b) (ht : le t t' = true)\n"
          f"    (hn : (glm_{v}_lerpc a b t).Num) (hn' : (glm_{v}_lerpc a b t').Num) : (glm_{v}_lerpc a b t).Le (glm_{v}_lerpc a b t') :=\n"
          f"  C77_{v}_lerp a b _ _ hab (C77_clamp_zo t t' ht) hn hn'\n")
    # scalar-valued
    w(f"/-- dot product of vectors that are not negative -/\ntheorem C77_{v}_dot (a a' b b' : {V} F32) (ha0 : a.Nonneg) (hb0 : b.Nonneg) (ha : a.Le a') (hb : b.Le b')\n"
      f"    (hn : glm_{v}_dot a b ≠ nan) (hn' : glm_{v}_dot a' b' ≠ nan) : le (glm_{v}_dot a b) (glm_{v}_dot a' b') = true := by\n"
      f"  simp only [{V}.Le, {V}.Nonneg, cglm] at *\n")
    for i in range(n):
        w(f"  have m{i} := LeN.mul (nonneg_key ha0{pr[i]}) (nonneg_key hb0{pr[i]}) (.of ha{pr[i]}) (.of hb{pr[i]})\n")
    t = 'm0'
    for i in range(1, n): t = f'(LeN.add {t} m{i})'
    w(f"  exact {t} hn hn'\n")
    w(f"example : {V}.Nonneg {'⟨' + ', '.join(['.ofRat false 2', 'zero true', 'inf false', '.ofRat false (1 / 3)'][:n]) + '⟩'} := by\n  simp only [{V}.Nonneg]; decide +kernel\n")
    for f, lem in (('max', 'le_max_of'), ('min', 'le_min_of')):
        w(f"/-- largest or smallest component -/\ntheorem C77_{v}_{f} (a b : {V} F32) (h : a.Le b) : le (glm_{v}_{f} a) (glm_{v}_{f} b) = true := by\n")
        if n == 2:
            w(f"  exact leN_{f} h.1 h.2\n")
        else:
            i1 = f"{lem} h.1 h.2.1"
            if n == 3:
                w(f"  have e := {lem} ({i1}) h.2.2\n  rw [{f}3_eq, {f}3_eq]\n  exact e\n")
            else:
                w(f"  have e := {lem} ({lem} ({i1}) h.2.2.1) h.2.2.2\n  rw [{f}4_eq, {f}4_eq]\n  exact e\n")
    for f in ('norm2', 'norm'):
        w(f"/-- the larger the components in magnitude, the larger the {'squared length' if f == 'norm2' else 'length'}; no condition is needed -/\n"
          f"theorem C77_{v}_{f} (a b : {V} F32) (h : a.LeAbs b) : le (glm_{v}_{f} a) (glm_{v}_{f} b) = true := by\n"
          f"  simp only [{V}.LeAbs, {V}.Le, {V}.map] at h\n")
        for i, c in enumerate(cs):
            w(f"  have m{i} := sq_le_sq' h{pr[i]}\n  have p{i} := sq_nonneg' a.{c}\n  have q{i} := sq_nonneg' b.{c}\n"
              f"  have u{i} := sq_ne_nan (abs_num (le_ne h{pr[i]}).1)\n  have v{i} := sq_ne_nan (abs_num (le_ne h{pr[i]}).2)\n")
        sums(n)
        w(f"  simp only [cglm, sqrtf_f32]\n")
        w(f"  exact l{n - 1}\n" if f == 'norm2' else f"  exact sqrt_le_sqrt' l{n - 1} (sqrt_ne_nan s{n - 1}.1 s{n - 1}.2)\n")
    if n > 2:
        w(f"/-- sum of magnitudes -/\ntheorem C77_{v}_norm_one (a b : {V} F32) (h : a.LeAbs b) : le (glm_{v}_norm_one a) (glm_{v}_norm_one b) = true := by\n"
          f"  simp only [{V}.LeAbs, {V}.Le, {V}.map] at h\n")
        for i, c in enumerate(cs):
            w(f"  have m{i} := h{pr[i]}\n  have p{i} : 0 ≤ key (F32.abs a.{c}) := by rw [key_abs]; exact abs_nonneg _\n"
              f"  have q{i} : 0 ≤ key (F32.abs b.{c}) := by rw [key_abs]; exact abs_nonneg _\n"
              f"  have u{i} := (le_ne h{pr[i]}).1\n  have v{i} := (le_ne h{pr[i]}).2\n")
        sums(n)
        w(f"  simp only [cglm, fabsf_f32]\n  exact l{n - 1}\n")
        w(f"/-- largest magnitude -/\ntheorem C77_{v}_norm_inf (a b : {V} F32) (h : a.LeAbs b) : le (glm_{v}_norm_inf a) (glm_{v}_norm_inf b) = true :=\n"
          f"  C77_{v}_max _ _ h\n")
open(OUT, 'w').write('\n'.join(x.rstrip('\n') for x in o) + '\n\nend Cglm\n')
