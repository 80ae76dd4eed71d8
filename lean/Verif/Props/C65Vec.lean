import Verif.F32Order
import Verif.F32Norm
import Verif.Gen
/-!
# C65: floating-point edge behaviour of the vector functions

Arguments are arbitrary binary32 vectors unless a hypothesis restricts them.
Written by `tools/edgethms.py`.
-/
open Cglm F32
namespace Cglm
set_option linter.unusedSectionVars false
variable [Libm]

/-! ### vec2 -/

/-- negating twice restores every bit -/
theorem C65_vec2_negate_negate (v : V2 F32) : glm_vec2_negate (glm_vec2_negate v) = v := by
  ext <;> simp only [cglm, neg_neg']

/-- the dot product is symmetric bit for bit -/
theorem C65_vec2_dot_comm (a b : V2 F32) : glm_vec2_dot a b = glm_vec2_dot b a := by
  simp only [cglm, mul_comm' a.x b.x, mul_comm' a.y b.y]

theorem C65_vec2_add_comm (a b : V2 F32) : glm_vec2_add a b = glm_vec2_add b a := by
  ext <;> simp only [cglm] <;> exact add_comm' _ _

theorem C65_vec2_mul_comm (a b : V2 F32) : glm_vec2_mul a b = glm_vec2_mul b a := by
  ext <;> simp only [cglm] <;> exact mul_comm' _ _

/-- distances are symmetric bit for bit, although the differences are taken in opposite directions -/
theorem C65_vec2_distance2_comm (a b : V2 F32) : glm_vec2_distance2 a b = glm_vec2_distance2 b a := by
  simp only [cglm, sub_sq_comm a.x b.x, sub_sq_comm a.y b.y]

theorem C65_vec2_distance_comm (a b : V2 F32) : glm_vec2_distance a b = glm_vec2_distance b a := by
  simp only [cglm, sub_sq_comm a.x b.x, sub_sq_comm a.y b.y]

/-- exact comparison of a vector with itself fails exactly when it contains a NaN -/
theorem C65_vec2_eqv_self (v : V2 F32) : glm_vec2_eqv v v = true ↔ v.x ≠ nan ∧ v.y ≠ nan := by
  simp only [cglm, feq_f32, Bool.and_eq_true, key_eq_iff]
  tauto

/-- comparison within the epsilon fails on a vector itself also when it contains an infinity -/
theorem C65_vec2_eqv_eps_self (v : V2 F32) : glm_vec2_eqv_eps v v = true ↔ v.IsFin := by
  have key : ∀ a : F32, fle (fabsf (a - a)) (lit 0.00001 : F32) = true ↔ a.isFin = true := by
    intro a
    by_cases h : a.isFin = true
    · rw [sub_self_fin h]
      refine ⟨fun _ => h, fun _ => ?_⟩
      show le (zero false) (ofRat false 0.00001) = true
      decide +kernel
    · refine ⟨fun e => absurd e ?_, fun e => absurd e h⟩
      rcases a with _ | s | s | ⟨q, hq⟩
      · simp [fle_f32, fabsf_f32]
      · rw [sub_self_inf]; simp [fle_f32, fabsf_f32]
      · simp at h
      · simp at h
  simp only [cglm, Bool.and_eq_true, key, V2.IsFin]

/-- `+0` and `-0` compare equal -/
theorem C65_vec2_eqv_zeros (sx sy tx ty : Bool) :
    glm_vec2_eqv (⟨zero sx, zero sy⟩ : V2 F32) ⟨zero tx, zero ty⟩ = true := by
  simp [cglm, feq_f32, F32.eq]

/-- `isvalid` decides whether every component is a finite number -/
theorem C65_vec2_isvalid (v : V2 F32) : glm_vec2_isvalid v = true ↔ v.IsFin := by
  simp only [cglm, Bool.and_eq_true, Bool.not_eq_true', V2.IsFin, isFin_iff, ← Bool.not_eq_true, isnanf_iff, isinff_iff, not_or]
  tauto

theorem C65_vec2_isnan (v : V2 F32) : glm_vec2_isnan v = true ↔ v.x = nan ∨ v.y = nan := by
  simp only [cglm, Bool.or_eq_true, isnanf_iff]

/-- clamping a vector brings every component, NaN included, within the bounds -/
theorem C65_vec2_clamp (v : V2 F32) (lo hi : F32) (h : le lo hi = true) :
    (le lo (glm_vec2_clamp v lo hi).x = true ∧ le (glm_vec2_clamp v lo hi).x hi = true) ∧ (le lo (glm_vec2_clamp v lo hi).y = true ∧ le (glm_vec2_clamp v lo hi).y hi = true) := by
  have key : ∀ x : F32, le lo (glm_clamp x lo hi) = true ∧ le (glm_clamp x lo hi) hi = true := by
    intro x
    simp only [cglm, flt_f32]
    simp only [key_le_iff] at h ⊢
    obtain ⟨h1, h2, h3⟩ := h
    split_ifs with a b b <;> simp only [key_lt_iff] at a b <;> simp_all [le_of_lt]
  exact ⟨key _, key _⟩

/-- every component of the fractional part lies in `[0, 1)`, for every argument -/
theorem C65_vec2_fract (v : V2 F32) :
    (le (lit 0) (glm_vec2_fract v).x = true ∧ lt (glm_vec2_fract v).x (lit 1) = true) ∧ (le (lit 0) (glm_vec2_fract v).y = true ∧ lt (glm_vec2_fract v).y (lit 1) = true) := by
  simp only [cglm, floorf_f32, fminf_f32]
  exact ⟨fract_range _, fract_range _⟩

/-- the fractional part of a NaN is not a NaN but the largest number below one -/
theorem C65_vec2_fract_nan : glm_vec2_fract (⟨nan, nan⟩ : V2 F32) = ⟨lit 0.999999940395355224609375, lit 0.999999940395355224609375⟩ := by
  simp only [cglm, floorf_f32, fminf_f32]
  rfl

/-- if the length overflows, normalising returns a zero vector -/
theorem C65_vec2_normalize_overflow (v : V2 F32) (hv : v.IsFin) (h : glm_vec2_norm v = inf false) :
    (glm_vec2_normalize v).Feq ⟨lit 0, lit 0⟩ := by
  have hb : flt (inf false) (lit 0.00000011920928955078125 : F32) = false := by
    show lt (inf false) (ofRat false 0.00000011920928955078125) = false
    decide +kernel
  obtain ⟨hx, hy⟩ := hv
  simp only [glm_vec2_normalize, h, hb, Bool.false_eq_true, if_false, glm_vec2_scale]
  exact ⟨mul_recip_inf hx, mul_recip_inf hy⟩

/-- so normalising does not give a unit vector for every finite non-zero vector: `2⁶⁴` along the first axis becomes zero -/
theorem C65_vec2_normalize_fails : ∃ v : V2 F32, v.IsFin ∧ v.x.val = 2 ^ 64 ∧ (glm_vec2_normalize v).Feq ⟨lit 0, lit 0⟩ := by
  refine ⟨⟨.ofRat false (2 ^ 64), zero false⟩, ⟨by decide +kernel, rfl⟩, by decide +kernel,
    C65_vec2_normalize_overflow _ ⟨by decide +kernel, rfl⟩ ?_⟩
  simp only [cglm, sqrtf_f32]
  decide +kernel

/-- a vector whose computed length is below `FLT_EPSILON` normalises to zero -/
theorem C65_vec2_normalize_tiny (v : V2 F32) (h : lt (glm_vec2_norm v) (lit 0.00000011920928955078125) = true) :
    glm_vec2_normalize v = ⟨lit 0, lit 0⟩ := by
  simp only [glm_vec2_normalize, flt_f32, h, if_true]

example : lt (glm_vec2_norm (⟨.ofRat false (1 / 2 ^ 30), zero false⟩ : V2 F32)) (lit 0.00000011920928955078125) = true := by
  simp only [cglm, sqrtf_f32, lit_f32]
  decide +kernel

/-! ### vec3 -/

/-- negating twice restores every bit -/
theorem C65_vec3_negate_negate (v : V3 F32) : glm_vec3_negate (glm_vec3_negate v) = v := by
  ext <;> simp only [cglm, neg_neg']

/-- the dot product is symmetric bit for bit -/
theorem C65_vec3_dot_comm (a b : V3 F32) : glm_vec3_dot a b = glm_vec3_dot b a := by
  simp only [cglm, mul_comm' a.x b.x, mul_comm' a.y b.y, mul_comm' a.z b.z]

theorem C65_vec3_add_comm (a b : V3 F32) : glm_vec3_add a b = glm_vec3_add b a := by
  ext <;> simp only [cglm] <;> exact add_comm' _ _

theorem C65_vec3_mul_comm (a b : V3 F32) : glm_vec3_mul a b = glm_vec3_mul b a := by
  ext <;> simp only [cglm] <;> exact mul_comm' _ _

/-- distances are symmetric bit for bit, although the differences are taken in opposite directions -/
theorem C65_vec3_distance2_comm (a b : V3 F32) : glm_vec3_distance2 a b = glm_vec3_distance2 b a := by
  simp only [cglm, sub_sq_comm a.x b.x, sub_sq_comm a.y b.y, sub_sq_comm a.z b.z]

theorem C65_vec3_distance_comm (a b : V3 F32) : glm_vec3_distance a b = glm_vec3_distance b a := by
  simp only [cglm, sub_sq_comm a.x b.x, sub_sq_comm a.y b.y, sub_sq_comm a.z b.z]

/-- exact comparison of a vector with itself fails exactly when it contains a NaN -/
theorem C65_vec3_eqv_self (v : V3 F32) : glm_vec3_eqv v v = true ↔ v.x ≠ nan ∧ v.y ≠ nan ∧ v.z ≠ nan := by
  simp only [cglm, feq_f32, Bool.and_eq_true, key_eq_iff]
  tauto

/-- comparison within the epsilon fails on a vector itself also when it contains an infinity -/
theorem C65_vec3_eqv_eps_self (v : V3 F32) : glm_vec3_eqv_eps v v = true ↔ v.IsFin := by
  have key : ∀ a : F32, fle (fabsf (a - a)) (lit 0.00001 : F32) = true ↔ a.isFin = true := by
    intro a
    by_cases h : a.isFin = true
    · rw [sub_self_fin h]
      refine ⟨fun _ => h, fun _ => ?_⟩
      show le (zero false) (ofRat false 0.00001) = true
      decide +kernel
    · refine ⟨fun e => absurd e ?_, fun e => absurd e h⟩
      rcases a with _ | s | s | ⟨q, hq⟩
      · simp [fle_f32, fabsf_f32]
      · rw [sub_self_inf]; simp [fle_f32, fabsf_f32]
      · simp at h
      · simp at h
  simp only [cglm, Bool.and_eq_true, key, V3.IsFin, and_assoc]

/-- `+0` and `-0` compare equal -/
theorem C65_vec3_eqv_zeros (sx sy sz tx ty tz : Bool) :
    glm_vec3_eqv (⟨zero sx, zero sy, zero sz⟩ : V3 F32) ⟨zero tx, zero ty, zero tz⟩ = true := by
  simp [cglm, feq_f32, F32.eq]

/-- `isvalid` decides whether every component is a finite number -/
theorem C65_vec3_isvalid (v : V3 F32) : glm_vec3_isvalid v = true ↔ v.IsFin := by
  simp only [cglm, Bool.and_eq_true, Bool.not_eq_true', V3.IsFin, isFin_iff, ← Bool.not_eq_true, isnanf_iff, isinff_iff, not_or]
  tauto

theorem C65_vec3_isnan (v : V3 F32) : glm_vec3_isnan v = true ↔ v.x = nan ∨ v.y = nan ∨ v.z = nan := by
  simp only [cglm, Bool.or_eq_true, isnanf_iff, or_assoc]

/-- clamping a vector brings every component, NaN included, within the bounds -/
theorem C65_vec3_clamp (v : V3 F32) (lo hi : F32) (h : le lo hi = true) :
    (le lo (glm_vec3_clamp v lo hi).x = true ∧ le (glm_vec3_clamp v lo hi).x hi = true) ∧ (le lo (glm_vec3_clamp v lo hi).y = true ∧ le (glm_vec3_clamp v lo hi).y hi = true) ∧ (le lo (glm_vec3_clamp v lo hi).z = true ∧ le (glm_vec3_clamp v lo hi).z hi = true) := by
  have key : ∀ x : F32, le lo (glm_clamp x lo hi) = true ∧ le (glm_clamp x lo hi) hi = true := by
    intro x
    simp only [cglm, flt_f32]
    simp only [key_le_iff] at h ⊢
    obtain ⟨h1, h2, h3⟩ := h
    split_ifs with a b b <;> simp only [key_lt_iff] at a b <;> simp_all [le_of_lt]
  exact ⟨key _, key _, key _⟩

/-- every component of the fractional part lies in `[0, 1)`, for every argument -/
theorem C65_vec3_fract (v : V3 F32) :
    (le (lit 0) (glm_vec3_fract v).x = true ∧ lt (glm_vec3_fract v).x (lit 1) = true) ∧ (le (lit 0) (glm_vec3_fract v).y = true ∧ lt (glm_vec3_fract v).y (lit 1) = true) ∧ (le (lit 0) (glm_vec3_fract v).z = true ∧ lt (glm_vec3_fract v).z (lit 1) = true) := by
  simp only [cglm, floorf_f32, fminf_f32]
  exact ⟨fract_range _, fract_range _, fract_range _⟩

/-- the fractional part of a NaN is not a NaN but the largest number below one -/
theorem C65_vec3_fract_nan : glm_vec3_fract (⟨nan, nan, nan⟩ : V3 F32) = ⟨lit 0.999999940395355224609375, lit 0.999999940395355224609375, lit 0.999999940395355224609375⟩ := by
  simp only [cglm, floorf_f32, fminf_f32]
  rfl

/-- if the length overflows, normalising returns a zero vector -/
theorem C65_vec3_normalize_overflow (v : V3 F32) (hv : v.IsFin) (h : glm_vec3_norm v = inf false) :
    (glm_vec3_normalize v).Feq ⟨lit 0, lit 0, lit 0⟩ := by
  have hb : flt (inf false) (lit 0.00000011920928955078125 : F32) = false := by
    show lt (inf false) (ofRat false 0.00000011920928955078125) = false
    decide +kernel
  obtain ⟨hx, hy, hz⟩ := hv
  simp only [glm_vec3_normalize, h, hb, Bool.false_eq_true, if_false, glm_vec3_scale]
  exact ⟨mul_recip_inf hx, mul_recip_inf hy, mul_recip_inf hz⟩

/-- so normalising does not give a unit vector for every finite non-zero vector: `2⁶⁴` along the first axis becomes zero -/
theorem C65_vec3_normalize_fails : ∃ v : V3 F32, v.IsFin ∧ v.x.val = 2 ^ 64 ∧ (glm_vec3_normalize v).Feq ⟨lit 0, lit 0, lit 0⟩ := by
  refine ⟨⟨.ofRat false (2 ^ 64), zero false, zero false⟩, ⟨by decide +kernel, rfl, rfl⟩, by decide +kernel,
    C65_vec3_normalize_overflow _ ⟨by decide +kernel, rfl, rfl⟩ ?_⟩
  simp only [cglm, sqrtf_f32]
  decide +kernel

/-- a vector whose computed length is below `FLT_EPSILON` normalises to zero -/
theorem C65_vec3_normalize_tiny (v : V3 F32) (h : lt (glm_vec3_norm v) (lit 0.00000011920928955078125) = true) :
    glm_vec3_normalize v = ⟨lit 0, lit 0, lit 0⟩ := by
  simp only [glm_vec3_normalize, flt_f32, h, if_true]

example : lt (glm_vec3_norm (⟨.ofRat false (1 / 2 ^ 30), zero false, zero false⟩ : V3 F32)) (lit 0.00000011920928955078125) = true := by
  simp only [cglm, sqrtf_f32, lit_f32]
  decide +kernel

/-! ### vec4 -/

/-- negating twice restores every bit -/
theorem C65_vec4_negate_negate (v : V4 F32) : glm_vec4_negate (glm_vec4_negate v) = v := by
  ext <;> simp only [cglm, neg_neg']

/-- the dot product is symmetric bit for bit -/
theorem C65_vec4_dot_comm (a b : V4 F32) : glm_vec4_dot a b = glm_vec4_dot b a := by
  simp only [cglm, mul_comm' a.x b.x, mul_comm' a.y b.y, mul_comm' a.z b.z, mul_comm' a.w b.w]

theorem C65_vec4_add_comm (a b : V4 F32) : glm_vec4_add a b = glm_vec4_add b a := by
  ext <;> simp only [cglm] <;> exact add_comm' _ _

theorem C65_vec4_mul_comm (a b : V4 F32) : glm_vec4_mul a b = glm_vec4_mul b a := by
  ext <;> simp only [cglm] <;> exact mul_comm' _ _

/-- distances are symmetric bit for bit, although the differences are taken in opposite directions -/
theorem C65_vec4_distance2_comm (a b : V4 F32) : glm_vec4_distance2 a b = glm_vec4_distance2 b a := by
  simp only [cglm, sub_sq_comm a.x b.x, sub_sq_comm a.y b.y, sub_sq_comm a.z b.z, sub_sq_comm a.w b.w]

theorem C65_vec4_distance_comm (a b : V4 F32) : glm_vec4_distance a b = glm_vec4_distance b a := by
  simp only [cglm, sub_sq_comm a.x b.x, sub_sq_comm a.y b.y, sub_sq_comm a.z b.z, sub_sq_comm a.w b.w]

/-- exact comparison of a vector with itself fails exactly when it contains a NaN -/
theorem C65_vec4_eqv_self (v : V4 F32) : glm_vec4_eqv v v = true ↔ v.x ≠ nan ∧ v.y ≠ nan ∧ v.z ≠ nan ∧ v.w ≠ nan := by
  simp only [cglm, feq_f32, Bool.and_eq_true, key_eq_iff]
  tauto

/-- comparison within the epsilon fails on a vector itself also when it contains an infinity -/
theorem C65_vec4_eqv_eps_self (v : V4 F32) : glm_vec4_eqv_eps v v = true ↔ v.IsFin := by
  have key : ∀ a : F32, fle (fabsf (a - a)) (lit 0.00001 : F32) = true ↔ a.isFin = true := by
    intro a
    by_cases h : a.isFin = true
    · rw [sub_self_fin h]
      refine ⟨fun _ => h, fun _ => ?_⟩
      show le (zero false) (ofRat false 0.00001) = true
      decide +kernel
    · refine ⟨fun e => absurd e ?_, fun e => absurd e h⟩
      rcases a with _ | s | s | ⟨q, hq⟩
      · simp [fle_f32, fabsf_f32]
      · rw [sub_self_inf]; simp [fle_f32, fabsf_f32]
      · simp at h
      · simp at h
  simp only [cglm, Bool.and_eq_true, key, V4.IsFin, and_assoc]

/-- `+0` and `-0` compare equal -/
theorem C65_vec4_eqv_zeros (sx sy sz sw tx ty tz tw : Bool) :
    glm_vec4_eqv (⟨zero sx, zero sy, zero sz, zero sw⟩ : V4 F32) ⟨zero tx, zero ty, zero tz, zero tw⟩ = true := by
  simp [cglm, feq_f32, F32.eq]

/-- `isvalid` decides whether every component is a finite number -/
theorem C65_vec4_isvalid (v : V4 F32) : glm_vec4_isvalid v = true ↔ v.IsFin := by
  simp only [cglm, Bool.and_eq_true, Bool.not_eq_true', V4.IsFin, isFin_iff, ← Bool.not_eq_true, isnanf_iff, isinff_iff, not_or]
  tauto

theorem C65_vec4_isnan (v : V4 F32) : glm_vec4_isnan v = true ↔ v.x = nan ∨ v.y = nan ∨ v.z = nan ∨ v.w = nan := by
  simp only [cglm, Bool.or_eq_true, isnanf_iff, or_assoc]

/-- clamping a vector brings every component, NaN included, within the bounds -/
theorem C65_vec4_clamp (v : V4 F32) (lo hi : F32) (h : le lo hi = true) :
    (le lo (glm_vec4_clamp v lo hi).x = true ∧ le (glm_vec4_clamp v lo hi).x hi = true) ∧ (le lo (glm_vec4_clamp v lo hi).y = true ∧ le (glm_vec4_clamp v lo hi).y hi = true) ∧ (le lo (glm_vec4_clamp v lo hi).z = true ∧ le (glm_vec4_clamp v lo hi).z hi = true) ∧ (le lo (glm_vec4_clamp v lo hi).w = true ∧ le (glm_vec4_clamp v lo hi).w hi = true) := by
  have key : ∀ x : F32, le lo (glm_clamp x lo hi) = true ∧ le (glm_clamp x lo hi) hi = true := by
    intro x
    simp only [cglm, flt_f32]
    simp only [key_le_iff] at h ⊢
    obtain ⟨h1, h2, h3⟩ := h
    split_ifs with a b b <;> simp only [key_lt_iff] at a b <;> simp_all [le_of_lt]
  exact ⟨key _, key _, key _, key _⟩

/-- every component of the fractional part lies in `[0, 1)`, for every argument -/
theorem C65_vec4_fract (v : V4 F32) :
    (le (lit 0) (glm_vec4_fract v).x = true ∧ lt (glm_vec4_fract v).x (lit 1) = true) ∧ (le (lit 0) (glm_vec4_fract v).y = true ∧ lt (glm_vec4_fract v).y (lit 1) = true) ∧ (le (lit 0) (glm_vec4_fract v).z = true ∧ lt (glm_vec4_fract v).z (lit 1) = true) ∧ (le (lit 0) (glm_vec4_fract v).w = true ∧ lt (glm_vec4_fract v).w (lit 1) = true) := by
  simp only [cglm, floorf_f32, fminf_f32]
  exact ⟨fract_range _, fract_range _, fract_range _, fract_range _⟩

/-- the fractional part of a NaN is not a NaN but the largest number below one -/
theorem C65_vec4_fract_nan : glm_vec4_fract (⟨nan, nan, nan, nan⟩ : V4 F32) = ⟨lit 0.999999940395355224609375, lit 0.999999940395355224609375, lit 0.999999940395355224609375, lit 0.999999940395355224609375⟩ := by
  simp only [cglm, floorf_f32, fminf_f32]
  rfl

/-- if the length overflows, normalising returns a zero vector -/
theorem C65_vec4_normalize_overflow (v : V4 F32) (hv : v.IsFin) (h : glm_vec4_norm v = inf false) :
    (glm_vec4_normalize v).Feq ⟨lit 0, lit 0, lit 0, lit 0⟩ := by
  have hb : flt (inf false) (lit 0.00000011920928955078125 : F32) = false := by
    show lt (inf false) (ofRat false 0.00000011920928955078125) = false
    decide +kernel
  obtain ⟨hx, hy, hz, hw⟩ := hv
  simp only [glm_vec4_normalize, glm_vec4_normalize_to, h, hb, Bool.false_eq_true, if_false, glm_vec4_scale]
  exact ⟨mul_recip_inf hx, mul_recip_inf hy, mul_recip_inf hz, mul_recip_inf hw⟩

/-- so normalising does not give a unit vector for every finite non-zero vector: `2⁶⁴` along the first axis becomes zero -/
theorem C65_vec4_normalize_fails : ∃ v : V4 F32, v.IsFin ∧ v.x.val = 2 ^ 64 ∧ (glm_vec4_normalize v).Feq ⟨lit 0, lit 0, lit 0, lit 0⟩ := by
  refine ⟨⟨.ofRat false (2 ^ 64), zero false, zero false, zero false⟩, ⟨by decide +kernel, rfl, rfl, rfl⟩, by decide +kernel,
    C65_vec4_normalize_overflow _ ⟨by decide +kernel, rfl, rfl, rfl⟩ ?_⟩
  simp only [cglm, sqrtf_f32]
  decide +kernel

/-- a vector whose computed length is below `FLT_EPSILON` normalises to zero -/
theorem C65_vec4_normalize_tiny (v : V4 F32) (h : lt (glm_vec4_norm v) (lit 0.00000011920928955078125) = true) :
    glm_vec4_normalize v = ⟨lit 0, lit 0, lit 0, lit 0⟩ := by
  simp only [glm_vec4_normalize, glm_vec4_normalize_to, glm_vec4_zero, flt_f32, h, if_true]

example : lt (glm_vec4_norm (⟨.ofRat false (1 / 2 ^ 30), zero false, zero false, zero false⟩ : V4 F32)) (lit 0.00000011920928955078125) = true := by
  simp only [cglm, sqrtf_f32, lit_f32]
  decide +kernel

/-! ### cross products and angles -/

/-- a finite vector is exactly parallel to itself if no product overflows -/
theorem C65_vec3_cross_self (a : V3 F32) (h1 : (a.y * a.z).isFin = true) (h2 : (a.z * a.x).isFin = true)
    (h3 : (a.x * a.y).isFin = true) : glm_vec3_cross a a = ⟨zero false, zero false, zero false⟩ := by
  simp only [cglm, mul_comm' a.z a.y, mul_comm' a.x a.z, mul_comm' a.y a.x]
  rw [sub_self_fin h1, sub_self_fin h2, sub_self_fin h3]

/-- otherwise the cross product of a finite vector with itself contains a NaN -/
theorem C65_vec3_cross_self_fails : ∃ a : V3 F32, a.IsFin ∧ (glm_vec3_cross a a).x = nan :=
  ⟨⟨zero false, .ofRat false (2 ^ 64), .ofRat false (2 ^ 64)⟩, ⟨rfl, by decide +kernel, by decide +kernel⟩, by
    simp only [cglm]; decide +kernel⟩

/-- `glm_vec3_angle` never calls `acosf` outside its domain because of rounding: the argument is a NaN or in `[-1, 1]` -/
theorem C65_vec3_angle_domain (a b : V3 F32) :
    glm_vec3_angle a b = lit 0 ∨ glm_vec3_angle a b = lit 3.14159265358979323846264338327950288 ∨
      ∃ x : F32, glm_vec3_angle a b = acosf x ∧ (x = nan ∨ le (lit (-1)) x = true ∧ le x (lit 1) = true) := by
  unfold glm_vec3_angle
  dsimp only
  generalize glm_vec3_dot a b * (lit 1 / (glm_vec3_norm a * glm_vec3_norm b)) = x
  split_ifs with h1 h2
  · exact .inl rfl
  · exact .inr (.inl rfl)
  · refine .inr (.inr ⟨x, rfl, ?_⟩)
    by_cases hx : x = nan
    · exact .inl hx
    · right
      have l1 : Has (lit 1 : F32) 1 := .lit rep_one
      have l1' : Has (-(lit 1) : F32) (-1) := l1.neg
      have lm : Has (lit (-1) : F32) (-1) := .lit (rep_neg rep_one)
      rw [flt_f32, key_lt_iff, l1.key] at h1
      rw [flt_f32, key_lt_iff, l1'.key] at h2
      rw [key_le_iff, key_le_iff, l1.key, lm.key]
      have h1' : key x ≤ 1 := by by_contra hc; push Not at hc; exact h1 ⟨l1.ne_nan, hx, hc⟩
      have h2' : -1 ≤ key x := by by_contra hc; push Not at hc; exact h2 ⟨hx, l1'.ne_nan, hc⟩
      exact ⟨⟨lm.ne_nan, hx, h2'⟩, hx, l1.ne_nan, h1'⟩

/-! ### quaternions -/

/-- there is no epsilon in `glm_quat_normalize`: for tiny quaternions the squared length underflows and the result is not a
unit quaternion (here the only non-zero component becomes less than 0.8) -/
theorem C65_quat_normalize_tiny_fails : ∃ q : V4 F32, q.IsFin ∧ q.x.val ≠ 0 ∧ q.y.val = 0 ∧ q.z.val = 0 ∧ q.w.val = 0 ∧
    (glm_quat_normalize q).IsFin ∧ |(glm_quat_normalize q).x.val| < 8 / 10 ∧
    (glm_quat_normalize q).y.val = 0 ∧ (glm_quat_normalize q).z.val = 0 ∧ (glm_quat_normalize q).w.val = 0 := by
  refine ⟨⟨.ofRat false (9 / 2 ^ 78), zero false, zero false, zero false⟩, ⟨by decide +kernel, rfl, rfl, rfl⟩,
    by decide +kernel, rfl, rfl, rfl, ?_⟩
  have hb : fle (F32.ofRat false (9 / 2 ^ 78) * F32.ofRat false (9 / 2 ^ 78) + zero false * zero false + zero false * zero false +
      zero false * zero false) (lit 0 : F32) = false := by
    show le _ (F32.ofRat false 0) = false
    decide +kernel
  simp only [glm_quat_normalize, glm_quat_normalize_to, glm_vec4_norm2, glm_vec4_dot, glm_vec4_scale, hb, Bool.false_eq_true, if_false]
  simp only [V4.IsFin, sqrtf_f32, lit_f32]
  decide +kernel

end Cglm
