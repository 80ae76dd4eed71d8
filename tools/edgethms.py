#!/usr/bin/env python3
"""Write lean/Verif/Props/C65Vec.lean and C65Mat.lean: binary32 edge behaviour of vector and matrix functions."""
import os
cs={2:'xy',3:'xyz',4:'xyzw'}
P=os.path.join(os.path.dirname(os.path.abspath(__file__)),'..','lean','Verif','Props')
def head(t,doc): return f'''import Verif.F32Order
import Verif.F32Norm
import Verif.Gen
/-!
# C65: {t}

{doc}
Written by `tools/edgethms.py`.
-/
open Cglm F32
namespace Cglm
set_option linter.unusedSectionVars false
variable [Libm]

'''
o=head('floating-point edge behaviour of the vector functions','Arguments are arbitrary binary32 vectors unless a hypothesis restricts them.')
def conj(d,f,sep=' ∧ '): return sep.join(f(c) for c in cs[d])
for d in (2,3,4):
    V=f'V{d}'
    v=f'glm_vec{d}'
    o+=f'''/-! ### vec{d} -/

/-- negating twice restores every bit -/
theorem C65_vec{d}_negate_negate (v : {V} F32) : {v}_negate ({v}_negate v) = v := by
  ext <;> simp only [cglm, neg_neg']

/-- the dot product is symmetric bit for bit -/
theorem C65_vec{d}_dot_comm (a b : {V} F32) : {v}_dot a b = {v}_dot b a := by
  simp only [cglm, {conj(d,lambda c:f"mul_comm' a.{c} b.{c}",', ')}]

theorem C65_vec{d}_add_comm (a b : {V} F32) : {v}_add a b = {v}_add b a := by
  ext <;> simp only [cglm] <;> exact add_comm' _ _

theorem C65_vec{d}_mul_comm (a b : {V} F32) : {v}_mul a b = {v}_mul b a := by
  ext <;> simp only [cglm] <;> exact mul_comm' _ _

/-- distances are symmetric bit for bit, although the differences are taken in opposite directions -/
theorem C65_vec{d}_distance2_comm (a b : {V} F32) : {v}_distance2 a b = {v}_distance2 b a := by
  simp only [cglm, {conj(d,lambda c:f"sub_sq_comm a.{c} b.{c}",', ')}]

theorem C65_vec{d}_distance_comm (a b : {V} F32) : {v}_distance a b = {v}_distance b a := by
  simp only [cglm, {conj(d,lambda c:f"sub_sq_comm a.{c} b.{c}",', ')}]

/-- exact comparison of a vector with itself fails exactly when it contains a NaN -/
theorem C65_vec{d}_eqv_self (v : {V} F32) : {v}_eqv v v = true ↔ {conj(d,lambda c:f'v.{c} ≠ nan')} := by
  simp only [cglm, feq_f32, Bool.and_eq_true, key_eq_iff]
  tauto

/-- comparison within the epsilon fails on a vector itself also when it contains an infinity -/
theorem C65_vec{d}_eqv_eps_self (v : {V} F32) : {v}_eqv_eps v v = true ↔ v.IsFin := by
  have key : ∀ a : F32, fle (fabsf (a - a)) (lit 0.00001 : F32) = true ↔ a.isFin = true := by
    intro a
    by_cases h : a.isFin = true
    · rw [sub_self_fin h]
      refine ⟨fun _ => h, fun _ => ?_⟩
      show le (zero false) (ofRat false 0.00001) = true
      decide +kernel
    · refine ⟨fun e => absurd e ?_, fun e => absurd e h⟩
      rcases a with _ | s | s | ⟨q, hq⟩
      · simp [fle_f32, fabsf_f32]
      · rw [sub_self_inf]; simp [fle_f32, fabsf_f32]
      · simp at h
      · simp at h
  simp only [cglm, Bool.and_eq_true, key, V{d}.IsFin{', and_assoc' if d>2 else ''}]

/-- `+0` and `-0` compare equal -/
theorem C65_vec{d}_eqv_zeros ({' '.join('s'+c for c in cs[d])} {' '.join('t'+c for c in cs[d])} : Bool) :
    {v}_eqv (⟨{conj(d,lambda c:f'zero s{c}',', ')}⟩ : {V} F32) ⟨{conj(d,lambda c:f'zero t{c}',', ')}⟩ = true := by
  simp [cglm, feq_f32, F32.eq]

/-- `isvalid` decides whether every component is a finite number -/
theorem C65_vec{d}_isvalid (v : {V} F32) : {v}_isvalid v = true ↔ v.IsFin := by
  simp only [cglm, Bool.and_eq_true, Bool.not_eq_true', V{d}.IsFin, isFin_iff, ← Bool.not_eq_true, isnanf_iff, isinff_iff, not_or]
  tauto

theorem C65_vec{d}_isnan (v : {V} F32) : {v}_isnan v = true ↔ {conj(d,lambda c:f'v.{c} = nan',' ∨ ')} := by
  simp only [cglm, Bool.or_eq_true, isnanf_iff{', or_assoc' if d>2 else ''}]

/-- clamping a vector brings every component, NaN included, within the bounds -/
theorem C65_vec{d}_clamp (v : {V} F32) (lo hi : F32) (h : le lo hi = true) :
    {conj(d,lambda c:f'(le lo ({v}_clamp v lo hi).{c} = true ∧ le ({v}_clamp v lo hi).{c} hi = true)')} := by
  have key : ∀ x : F32, le lo (glm_clamp x lo hi) = true ∧ le (glm_clamp x lo hi) hi = true := by
    intro x
    simp only [cglm, flt_f32]
    simp only [key_le_iff] at h ⊢
    obtain ⟨h1, h2, h3⟩ := h
    split_ifs with a b b <;> simp only [key_lt_iff] at a b <;> simp_all [le_of_lt]
  exact ⟨{conj(d,lambda c:'key _',', ')}⟩

/-- every component of the fractional part lies in `[0, 1)`, for every argument -/
theorem C65_vec{d}_fract (v : {V} F32) :
    {conj(d,lambda c:f'(le (lit 0) ({v}_fract v).{c} = true ∧ lt ({v}_fract v).{c} (lit 1) = true)')} := by
  simp only [cglm, floorf_f32, fminf_f32]
  exact ⟨{conj(d,lambda c:'fract_range _',', ')}⟩

/-- the fractional part of a NaN is not a NaN but the largest number below one -/
theorem C65_vec{d}_fract_nan : {v}_fract (⟨{conj(d,lambda c:'nan',', ')}⟩ : {V} F32) = ⟨{conj(d,lambda c:'lit 0.999999940395355224609375',', ')}⟩ := by
  simp only [cglm, floorf_f32, fminf_f32]
  rfl

/-- if the length overflows, normalising returns a zero vector -/
theorem C65_vec{d}_normalize_overflow (v : {V} F32) (hv : v.IsFin) (h : {v}_norm v = inf false) :
    ({v}_normalize v).Feq ⟨{conj(d,lambda c:'lit 0',', ')}⟩ := by
  have hb : flt (inf false) (lit 0.00000011920928955078125 : F32) = false := by
    show lt (inf false) (ofRat false 0.00000011920928955078125) = false
    decide +kernel
  obtain ⟨{', '.join('h'+c for c in cs[d])}⟩ := hv
  simp only [{f'{v}_normalize, {v}_normalize_to' if d==4 else f'{v}_normalize'}, h, hb, Bool.false_eq_true, if_false, {v}_scale]
  exact ⟨{', '.join('mul_recip_inf h'+c for c in cs[d])}⟩

/-- so normalising does not give a unit vector for every finite non-zero vector: `2⁶⁴` along the first axis becomes zero -/
theorem C65_vec{d}_normalize_fails : ∃ v : {V} F32, v.IsFin ∧ v.x.val = 2 ^ 64 ∧ ({v}_normalize v).Feq ⟨{conj(d,lambda c:'lit 0',', ')}⟩ := by
  refine ⟨⟨.ofRat false (2 ^ 64), {', '.join('zero false' for c in cs[d][1:])}⟩, ⟨by decide +kernel, {', '.join('rfl' for c in cs[d][1:])}⟩, by decide +kernel,
    C65_vec{d}_normalize_overflow _ ⟨by decide +kernel, {', '.join('rfl' for c in cs[d][1:])}⟩ ?_⟩
  simp only [cglm, sqrtf_f32]
  decide +kernel

/-- a vector whose computed length is below `FLT_EPSILON` normalises to zero -/
theorem C65_vec{d}_normalize_tiny (v : {V} F32) (h : lt ({v}_norm v) (lit 0.00000011920928955078125) = true) :
    {v}_normalize v = ⟨{conj(d,lambda c:'lit 0',', ')}⟩ := by
  simp only [{f'{v}_normalize, {v}_normalize_to, glm_vec4_zero' if d==4 else f'{v}_normalize'}, flt_f32, h, if_true]

example : lt ({v}_norm (⟨.ofRat false (1 / 2 ^ 30), {', '.join('zero false' for c in cs[d][1:])}⟩ : {V} F32)) (lit 0.00000011920928955078125) = true := by
  simp only [cglm, sqrtf_f32, lit_f32]
  decide +kernel

'''
o+='''/-! ### cross products and angles -/

/-- a finite vector is exactly parallel to itself if no product overflows -/
theorem C65_vec3_cross_self (a : V3 F32) (h1 : (a.y * a.z).isFin = true) (h2 : (a.z * a.x).isFin = true)
    (h3 : (a.x * a.y).isFin = true) : glm_vec3_cross a a = ⟨zero false, zero false, zero false⟩ := by
  simp only [cglm, mul_comm' a.z a.y, mul_comm' a.x a.z, mul_comm' a.y a.x]
  rw [sub_self_fin h1, sub_self_fin h2, sub_self_fin h3]

/-- otherwise the cross product of a finite vector with itself contains a NaN -/
theorem C65_vec3_cross_self_fails : ∃ a : V3 F32, a.IsFin ∧ (glm_vec3_cross a a).x = nan :=
  ⟨⟨zero false, .ofRat false (2 ^ 64), .ofRat false (2 ^ 64)⟩, ⟨rfl, by decide +kernel, by decide +kernel⟩, by
    simp only [cglm]; decide +kernel⟩

/-- `glm_vec3_angle` never calls `acosf` outside its domain because of rounding: the argument is a NaN or in `[-1, 1]` -/
theorem C65_vec3_angle_domain (a b : V3 F32) :
    glm_vec3_angle a b = lit 0 ∨ glm_vec3_angle a b = lit 3.14159265358979323846264338327950288 ∨
      ∃ x : F32, glm_vec3_angle a b = acosf x ∧ (x = nan ∨ le (lit (-1)) x = true ∧ le x (lit 1) = true) := by
  unfold glm_vec3_angle
  dsimp only
  generalize glm_vec3_dot a b * (lit 1 / (glm_vec3_norm a * glm_vec3_norm b)) = x
  split_ifs with h1 h2
  · exact .inl rfl
  · exact .inr (.inl rfl)
  · refine .inr (.inr ⟨x, rfl, ?_⟩)
    by_cases hx : x = nan
    · exact .inl hx
    · right
      have l1 : Has (lit 1 : F32) 1 := .lit rep_one
      have l1' : Has (-(lit 1) : F32) (-1) := l1.neg
      have lm : Has (lit (-1) : F32) (-1) := .lit (rep_neg rep_one)
      rw [flt_f32, key_lt_iff, l1.key] at h1
      rw [flt_f32, key_lt_iff, l1'.key] at h2
      rw [key_le_iff, key_le_iff, l1.key, lm.key]
      have h1' : key x ≤ 1 := by by_contra hc; push Not at hc; exact h1 ⟨l1.ne_nan, hx, hc⟩
      have h2' : -1 ≤ key x := by by_contra hc; push Not at hc; exact h2 ⟨hx, l1'.ne_nan, hc⟩
      exact ⟨⟨lm.ne_nan, hx, h2'⟩, hx, l1.ne_nan, h1'⟩

/-! ### quaternions -/

/-- there is no epsilon in `glm_quat_normalize`: for tiny quaternions the squared length underflows and the result is not a
unit quaternion (here the only non-zero component becomes less than 0.8) -/
theorem C65_quat_normalize_tiny_fails : ∃ q : V4 F32, q.IsFin ∧ q.x.val ≠ 0 ∧ q.y.val = 0 ∧ q.z.val = 0 ∧ q.w.val = 0 ∧
    (glm_quat_normalize q).IsFin ∧ |(glm_quat_normalize q).x.val| < 8 / 10 ∧
    (glm_quat_normalize q).y.val = 0 ∧ (glm_quat_normalize q).z.val = 0 ∧ (glm_quat_normalize q).w.val = 0 := by
  refine ⟨⟨.ofRat false (9 / 2 ^ 78), zero false, zero false, zero false⟩, ⟨by decide +kernel, rfl, rfl, rfl⟩,
    by decide +kernel, rfl, rfl, rfl, ?_⟩
  have hb : fle (F32.ofRat false (9 / 2 ^ 78) * F32.ofRat false (9 / 2 ^ 78) + zero false * zero false + zero false * zero false +
      zero false * zero false) (lit 0 : F32) = false := by
    show le _ (F32.ofRat false 0) = false
    decide +kernel
  simp only [glm_quat_normalize, glm_quat_normalize_to, glm_vec4_norm2, glm_vec4_dot, glm_vec4_scale, hb, Bool.false_eq_true, if_false]
  simp only [V4.IsFin, sqrtf_f32, lit_f32]
  decide +kernel

'''
open(P+'/C65Vec.lean','w').write(o+'end Cglm\n')
o=head('floating-point edge behaviour of the matrix functions','`M4.Feq` is entrywise C `==`, so `-0` and `+0` count as equal.')
for d in (2,3,4):
    M=f'M{d}'; m=f'glm_mat{d}'
    hyp='⟨'+', '.join('⟨'+', '.join(f'h{i}{c}' for c in cs[d])+'⟩' for i in range(d))+'⟩'
    vh='⟨'+', '.join(f'h{c}' for c in cs[d])+'⟩'
    hole='⟨'+', '.join(['?_']*d)+'⟩'
    holes='⟨'+', '.join([hole]*d)+'⟩'
    o+=f'''/-! ### mat{d} -/

/-- transposing twice restores every bit -/
theorem C65_mat{d}_transpose_transpose (a : {M} F32) : {m}_transpose ({m}_transpose a) = a := by
  simp only [cglm]

/-- `(AB)ᵀ = BᵀAᵀ` holds bit for bit in binary32 -/
theorem C65_mat{d}_transpose_mul (a b : {M} F32) :
    {m}_transpose ({m}_mul a b) = {m}_mul ({m}_transpose b) ({m}_transpose a) := by
  ext <;> simp only [cglm] <;> simp only [mul_comm']

/-- products with the identity change no value of a finite matrix -/
theorem C65_mat{d}_mul_identity (a : {M} F32) (h : a.IsFin) : ({m}_mul a {m}_identity).Feq a := by
  obtain {hyp} := h
  simp only [cglm, {M}.Feq, V{d}.Feq]
  refine {holes} <;> refine Has.eq (by exact_has) (Has.of (by assumption)) (by simp)

theorem C65_mat{d}_identity_mul (a : {M} F32) (h : a.IsFin) : ({m}_mul {m}_identity a).Feq a := by
  obtain {hyp} := h
  simp only [cglm, {M}.Feq, V{d}.Feq]
  refine {holes} <;> refine Has.eq (by exact_has) (Has.of (by assumption)) (by simp)

theorem C65_mat{d}_identity_mulv (v : V{d} F32) (h : v.IsFin) : ({m}_mulv {m}_identity v).Feq v := by
  obtain {vh} := h
  simp only [cglm, V{d}.Feq]
  refine {hole} <;> refine Has.eq (by exact_has) (Has.of (by assumption)) (by simp)

/-- an infinite component does not survive: the other components become NaN -/
theorem C65_mat{d}_identity_mulv_inf_fails : ∃ v : V{d} F32, v.x = inf false ∧ v.y = zero false ∧
    ({m}_mulv {m}_identity v).x = inf false ∧ ({m}_mulv {m}_identity v).y = nan := by
  refine ⟨⟨inf false, {', '.join('zero false' for c in cs[d][1:])}⟩, rfl, rfl, ?_⟩
  simp only [cglm, lit_f32]
  decide +kernel

'''
o+='''/-- multiplication of finite matrices is not associative in binary32 -/
theorem C65_mat2_mul_assoc_fails : ∃ a b c : M2 F32, a.IsFin ∧ b.IsFin ∧ c.IsFin ∧
    ¬ (glm_mat2_mul (glm_mat2_mul a b) c).Feq (glm_mat2_mul a (glm_mat2_mul b c)) := by
  refine ⟨⟨⟨.ofRat false 1, .ofRat false 0⟩, ⟨.ofRat false 1, .ofRat false 1⟩⟩,
    ⟨⟨.ofRat false 1, .ofRat false (1 / 2 ^ 24)⟩, ⟨.ofRat false 0, .ofRat false 1⟩⟩,
    ⟨⟨.ofRat false 1, .ofRat false (1 / 2 ^ 24)⟩, ⟨.ofRat false 0, .ofRat false 1⟩⟩, ?_, ?_, ?_, ?_⟩
  · simp only [M2.IsFin, V2.IsFin]; decide +kernel
  · simp only [M2.IsFin, V2.IsFin]; decide +kernel
  · simp only [M2.IsFin, V2.IsFin]; decide +kernel
  · simp only [cglm, M2.Feq, V2.Feq]
    decide +kernel

'''
open(P+'/C65Mat.lean','w').write(o+'end Cglm\n')
