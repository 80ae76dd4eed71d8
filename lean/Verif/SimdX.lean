import Verif.SimdTac
import Verif.Spec
import Verif.Lemmas

/-! Specifications and lemmas for the SIMD functions that do not compute the scalar function (no properties here). -/

namespace Cglm

/-- scalar multiple of a matrix, entry by entry -/
def M4.smul (k : ℝ) (m : M4 ℝ) : M4 ℝ :=
  ⟨⟨k * m.c0.x, k * m.c0.y, k * m.c0.z, k * m.c0.w⟩, ⟨k * m.c1.x, k * m.c1.y, k * m.c1.z, k * m.c1.w⟩,
   ⟨k * m.c2.x, k * m.c2.y, k * m.c2.z, k * m.c2.w⟩, ⟨k * m.c3.x, k * m.c3.y, k * m.c3.z, k * m.c3.w⟩⟩

theorem M4.smul_mat (k : ℝ) (m : M4 ℝ) : (M4.smul k m).mat = k • m.mat := by
  ext i j; fin_cases i <;> fin_cases j <;> simp [M4.smul, M4.mat]

/-- The vectors on which the normalisations with a threshold on the length and on the squared length part: long enough
for the first, too short for the second. -/
def V4.InGap (v : V4 ℝ) : Prop := FLT_EPSILON ≤ v.len ∧ v.dot v < FLT_EPSILON

/-- two Newton steps for `1 / b` from the hardware's estimate -/
def newton2 [CEst ℝ] (b : ℝ) : ℝ := (2 - (2 - recpe b * b) * recpe b * b) * ((2 - recpe b * b) * recpe b)

/-- each Newton step squares the error -/
theorem newton2_err [CEst ℝ] (b : ℝ) : b * newton2 b = 1 - (1 - b * recpe b) ^ 4 := by
  simp only [newton2]; ring

theorem norm_ge_of_dot_ge (v : V4 ℝ) (h : FLT_EPSILON ≤ v.dot v) : FLT_EPSILON ≤ v.len := by
  have h1 := v.len_sq
  have h2 := v.len_nonneg
  have h3 : FLT_EPSILON * FLT_EPSILON ≤ FLT_EPSILON := by norm_num [FLT_EPSILON]
  have h4 := FLT_EPSILON_pos
  by_contra hc
  push Not at hc
  nlinarith

theorem V4.normalize_to_real (v : V4 ℝ) :
    glm_vec4_normalize_to v = if v.len < FLT_EPSILON then ⟨0, 0, 0, 0⟩ else ⟨v.x / v.len, v.y / v.len, v.z / v.len, v.w / v.len⟩ := by
  unfold glm_vec4_normalize_to
  have e : glm_vec4_norm v = v.len := rfl
  simp only [e, flt_real, decide_eq_true_eq, lit_real]
  rw [show ((0.00000011920928955078125 : ℚ) : ℝ) = FLT_EPSILON by norm_num [FLT_EPSILON]]
  split_ifs
  · ext <;> simp [cglm]
  · ext <;> simp only [cglm] <;> ring

end Cglm
