#!/usr/bin/env python3
"""Write lean/Verif/Props/C64Norm.lean: rounding error of norms, distances and normalisation."""
cs={2:'xy',3:'xyz',4:'xyzw'}
o='''import Verif.F32Norm
import Verif.Gen
/-!
# C64: rounding error of norms, distances and normalisation

`glm_vec3_norm (v.map toReal)` is the length of the vector in exact arithmetic.  The bounds on
normalisation hold on the branch the code takes for vectors whose computed length is finite and not
below `FLT_EPSILON`; the other branch returns the zero vector (C65).
-/
open Cglm F32
namespace Cglm
variable [Libm]

'''
def FIN(d):
    t='';
    if d==2: t='    obtain ⟨h0, h1⟩ := add_isFin hf\n'
    if d==3: t='    obtain ⟨h, h2⟩ := add_isFin hf\n    obtain ⟨h0, h1⟩ := add_isFin h\n'
    if d==4: t='    obtain ⟨h, h3⟩ := add_isFin hf\n    obtain ⟨h, h2⟩ := add_isFin h\n    obtain ⟨h0, h1⟩ := add_isFin h\n'
    return t+'    exact ⟨'+', '.join(f'(mul_isFin h{i}).1' for i in range(d))+'⟩'
def ABS(d):
    return '\n'.join(f'  have a{c} : |v.{c}.toReal| ≤ N := abs_le_of_sq_le_sq (by nlinarith ['+', '.join(f'mul_self_nonneg v.{e}.toReal' for e in cs[d])+']) Np.le' for c in cs[d])
def COMP(d):
    return '\n'.join(f'  have u{c} := unit_comp f{c} hfin hN hN\' hc a{c}' for c in cs[d])+f"""
  have E : ∀ {{f : F32}} {{c : ℝ}}, |f.toReal - c / N| ≤ 8 * ur * |c / N| + ηr → Err f (c * (1 / N)) (8 * ur) (|c| * (1 / N)) (1 / 2 ^ 150) := by
    intro f c h _
    rw [mul_one_div, mul_one_div, show |c| / N = |c / N| by rw [abs_div, abs_of_pos Np]]; exact h"""
def KEY(d):
    C=cs[d]
    return '\n'.join(f'    have s{c} := sq_err u{c}.2 (by rw [abs_div, abs_of_pos Np]; exact (div_le_one Np).mpr a{c})' for c in C)+f"""
    have S1 : {' + '.join(f'v.{c}.toReal / N * (v.{c}.toReal / N)' for c in C)} = 1 := by
      field_simp; linarith [NN]
    have hu : ur = 1 / 2 ^ 24 := rfl
    rw [abs_le] at {' '.join('s'+c for c in C)} ⊢
    rw [hu] at {' '.join('s'+c for c in C)} ⊢
    constructor <;> linarith [{', '.join(f's{c}.1, s{c}.2' for c in C)}]"""
def SQ(d,a='v'): return ' + '.join(f'{a}.{c}.toReal * {a}.{c}.toReal' for c in cs[d])

for d in (2,3,4):
    o+=f"""omit [Libm] in
/-- the computed length against the exact one -/
private theorem near_norm{d} [Libm] (v : V{d} F32) :
    Near (glm_vec{d}_norm v) (√({SQ(d)})) (√({SQ(d)})) {d+1} (1 / 2 ^ 72) := by
  simp only [cglm, sqrtf_f32]
  refine Near.le (Near.sqrt ((show Near _ _ _ _ _ by near).le (M' := {SQ(d)})
    (k' := {d}) (e' := 1 / 2 ^ 146) ?_ ?_ ?_)) le_rfl le_rfl sqrt_e
  · simp only [abs_mul_abs_self]; exact le_rfl
  · norm_num
  · norm_num [ur, ηr]

"""
for d in (2,3,4):
    for fn,v in ((f'vec{d}_norm','v'),)+((('quat_norm','q'),) if d==4 else ()):
        o+=f'''theorem C64_{fn} ({v} : V{d} F32) :
    Err (glm_{fn} {v}) (glm_{fn} ({v}.map toReal)) (γ {d+1}) (glm_{fn} ({v}.map toReal)) (1 / 2 ^ 72) := by
  refine (near_norm{d} {v}).err {d+1} le_rfl (by norm_num [ur]) ?_ ?_ le_rfl <;> simp only [cglm, V{d}.map, le_refl]
'''+'\n'
    df=' + '.join(f'(a.{c}.mag + b.{c}.mag) ^ 2' for c in cs[d])
for d in (2,3,4):
    comps=cs[d]
    o+=f'''/-- Normalising in binary32 is componentwise accurate to `8u`, and the result has length `1` up to `9u`. -/
theorem C64_vec{d}_normalize (v : V{d} F32) (hfin : (glm_vec{d}_norm v).isFin = true)
    (heps : 1 / 2 ^ 23 ≤ (glm_vec{d}_norm v).toReal) :
    (glm_vec{d}_normalize v).IsFin ∧
    (glm_vec{d}_normalize v).Err (glm_vec{d}_scale (v.map toReal) (1 / glm_vec{d}_norm (v.map toReal))) (8 * ur)
      (glm_vec{d}_scale (v.map mag) (1 / glm_vec{d}_norm (v.map toReal))) (1 / 2 ^ 150) ∧
    |glm_vec{d}_norm ((glm_vec{d}_normalize v).map toReal) - 1| ≤ 9 * ur := by
  obtain ⟨hN, hc⟩ := norm_close (by norm_num) (near_norm{d} v) hfin heps
  have hb := not_lt_eps hfin heps
  have hN' := N_le (N := √({SQ(d)})) (by simpa only [cglm, sqrtf_f32] using hfin) (by linarith) (by simpa only [cglm, sqrtf_f32] using hc)
  have hS : glm_vec{d}_norm (v.map toReal) = √({SQ(d)}) := by simp only [cglm, V{d}.map]
  have hf := (sqrt_isFin (a := glm_vec{d}_dot v v) (by simpa only [cglm, sqrtf_f32] using hfin)).1
  have hv : glm_vec{d}_normalize v = glm_vec{d}_scale v (lit 1 / glm_vec{d}_norm v) := by
    simp only [{'glm_vec4_normalize, glm_vec4_normalize_to' if d==4 else f'glm_vec{d}_normalize'}, hb, Bool.false_eq_true, if_false]
  rw [hv, hS]
  have Np : 0 < √({SQ(d)}) := lt_of_lt_of_le (by norm_num) hN
  have NN : √({SQ(d)}) * √({SQ(d)}) = {SQ(d)} :=
    Real.mul_self_sqrt (by nlinarith [{', '.join(f'mul_self_nonneg v.{c}.toReal' for c in comps)}])
  generalize √({SQ(d)}) = N at *
  have fin : {' ∧ '.join(f'v.{c}.isFin = true' for c in comps)} := by
    simp only [cglm] at hf
{FIN(d)}
  obtain ⟨{', '.join('f'+c for c in comps)}⟩ := fin
{ABS(d)}
{COMP(d)}
  refine ⟨⟨{', '.join(f'u{c}.1' for c in comps)}⟩, ⟨{', '.join(f'E u{c}.2' for c in comps)}⟩, ?_⟩
  have key : |({' + '.join(f'(v.{c} * (lit 1 / glm_vec{d}_norm v)).toReal * (v.{c} * (lit 1 / glm_vec{d}_norm v)).toReal' for c in comps)}) - 1| ≤ 17 * ur := by
{KEY(d)}
  have := unit_len key (by nlinarith [{', '.join(f'mul_self_nonneg (v.{c} * (lit 1 / glm_vec{d}_norm v)).toReal' for c in comps)}])
  simpa only [cglm, V{d}.map] using this

'''
i=o.index('/-- Normalising in binary32 is componentwise accurate to `8u`, and the result has length `1` up to `9u`. -/\ntheorem C64_vec4_normalize')
q=o[i:].replace('glm_vec4_normalize','glm_quat_normalize').replace('C64_vec4','C64_quat').replace('(hfin : (glm_vec4_norm v)','(hfin : (glm_quat_norm v)').replace('≤ (glm_vec4_norm v)','≤ (glm_quat_norm v)')
q=q.replace('have hb := not_lt_eps hfin heps','have hb : fle (glm_vec4_norm2 v) (lit 0) = false := not_le_zero hfin heps').replace('(near_norm4 v) hfin heps','(near_norm4 v) hfin heps')
q=q.replace('scale v (lit 1 / glm_vec4_norm v) := by\n    simp only [glm_quat_normalize, glm_quat_normalize_to,','scale v (lit 1 / glm_vec4_norm v) := by\n    simp only [glm_vec4_norm, glm_vec4_norm2, glm_quat_normalize, glm_quat_normalize_to,').replace('glm_quat_normalize_to, hb,','glm_quat_normalize_to, show fle (glm_vec4_dot v v) (lit 0) = false from hb,')
q=q.replace('  obtain ⟨hN, hc⟩','  rw [glm_quat_norm] at hfin heps\n  obtain ⟨hN, hc⟩',1)
o+=q
DSQ=lambda d,x,y:' + '.join(f'({x}.{c}.toReal - {y}.{c}.toReal) * ({x}.{c}.toReal - {y}.{c}.toReal)' for c in cs[d])
for d in (2,3,4):
    x,y=('b','a') if d==2 else ('a','b')
    S=DSQ(d,x,y)
    pr='⟨'+', '.join(f'(Near.subv {x}.{c} {y}.{c}).mul (Near.subv {x}.{c} {y}.{c})' for c in cs[d])+'⟩'
    add='((Near.subv X.x Y.x).mul (Near.subv X.x Y.x))'
    for c in cs[d][1:]: add=f'({add}.add ((Near.subv X.{c} Y.{c}).mul (Near.subv X.{c} Y.{c})))'
    add=add.replace('X',x).replace('Y',y)
    o+=f"""private theorem near_distance{d} (a b : V{d} F32) :
    Near (glm_vec{d}_distance2 a b) ({S}) ({S}) {d+2} (1 / 2 ^ 146) := by
  simp only [cglm]
  refine {add}.le ?_ ?_ ?_
  · simp only [abs_mul_abs_self]; exact le_rfl
  · norm_num
  · norm_num [ur, ηr]

/-- relative to the exact squared distance itself: cancellation does not hurt -/
theorem C64_vec{d}_distance2_rel (a b : V{d} F32) :
    Err (glm_vec{d}_distance2 a b) (glm_vec{d}_distance2 (a.map toReal) (b.map toReal)) (γ {d+2})
      (glm_vec{d}_distance2 (a.map toReal) (b.map toReal)) (1 / 2 ^ 146) := by
  refine (near_distance{d} a b).err {d+2} le_rfl (by norm_num [ur]) ?_ ?_ le_rfl <;> simp only [cglm, V{d}.map, le_refl]

theorem C64_vec{d}_distance (a b : V{d} F32) :
    Err (glm_vec{d}_distance a b) (glm_vec{d}_distance (a.map toReal) (b.map toReal)) (γ {d+3})
      (glm_vec{d}_distance (a.map toReal) (b.map toReal)) (1 / 2 ^ 72) := by
  refine ((near_distance{d} a b).sqrt.le le_rfl le_rfl sqrt_e).err {d+3} le_rfl (by norm_num [ur]) ?_ ?_ le_rfl <;> simp only [cglm, V{d}.map, le_refl]

"""
o+="""/-- `(1, -3, 5/2)`: finite entries in range, computed length finite and at least `FLT_EPSILON` -/
example : (glm_vec3_norm (⟨.ofRat false 1, .ofRat false (-3), .ofRat false (5/2)⟩ : V3 F32)).isFin = true ∧
    1 / 2 ^ 23 ≤ (glm_vec3_norm (⟨.ofRat false 1, .ofRat false (-3), .ofRat false (5/2)⟩ : V3 F32)).toReal := by
  have h : (F32.sqrt (F32.ofRat false 1 * F32.ofRat false 1 + F32.ofRat false (-3) * F32.ofRat false (-3) +
      F32.ofRat false (5/2) * F32.ofRat false (5/2))).isFin = true := by decide +kernel
  have h2 : 1 ≤ (F32.sqrt (F32.ofRat false 1 * F32.ofRat false 1 + F32.ofRat false (-3) * F32.ofRat false (-3) +
      F32.ofRat false (5/2) * F32.ofRat false (5/2))).val := by decide +kernel
  simp only [cglm, sqrtf_f32]
  refine ⟨h, ?_⟩
  have := toR h2
  push_cast at this
  unfold toReal
  exact le_trans (by norm_num) this

"""
import os
open(os.path.dirname(os.path.abspath(__file__))+'/../lean/Verif/Props/C64Norm.lean','w').write(o+'end Cglm\n')
