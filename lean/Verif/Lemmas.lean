import Verif.MatTac
import Mathlib.Analysis.Quaternion
import Mathlib.LinearAlgebra.UnitaryGroup
import Mathlib.Tactic.LinearCombination
import Mathlib.Tactic.Positivity

/-! Helper lemmas about lengths, normalization and quaternions (no properties here). -/

namespace Cglm

theorem FLT_EPSILON_pos : 0 < FLT_EPSILON := by norm_num [FLT_EPSILON]
theorem eps_lit : (0.00000011920928955078125 : ℝ) = FLT_EPSILON := by norm_num [FLT_EPSILON]

theorem V2.dot_self_nonneg (v : V2 ℝ) : 0 ≤ v.dot v := by
  unfold V2.dot; nlinarith [mul_self_nonneg v.x, mul_self_nonneg v.y]
theorem V3.dot_self_nonneg (v : V3 ℝ) : 0 ≤ v.dot v := by
  unfold V3.dot; nlinarith [mul_self_nonneg v.x, mul_self_nonneg v.y, mul_self_nonneg v.z]
theorem V4.dot_self_nonneg (v : V4 ℝ) : 0 ≤ v.dot v := by
  unfold V4.dot; nlinarith [mul_self_nonneg v.x, mul_self_nonneg v.y, mul_self_nonneg v.z, mul_self_nonneg v.w]
theorem V2.len_sq (v : V2 ℝ) : v.len * v.len = v.dot v := Real.mul_self_sqrt v.dot_self_nonneg
theorem V3.len_sq (v : V3 ℝ) : v.len * v.len = v.dot v := Real.mul_self_sqrt v.dot_self_nonneg
theorem V4.len_sq (v : V4 ℝ) : v.len * v.len = v.dot v := Real.mul_self_sqrt v.dot_self_nonneg
theorem V2.len_nonneg (v : V2 ℝ) : 0 ≤ v.len := Real.sqrt_nonneg _
theorem V3.len_nonneg (v : V3 ℝ) : 0 ≤ v.len := Real.sqrt_nonneg _
theorem V4.len_nonneg (v : V4 ℝ) : 0 ≤ v.len := Real.sqrt_nonneg _
theorem V3.len_eq_one {v : V3 ℝ} : v.len = 1 ↔ v.dot v = 1 := by
  unfold V3.len; rw [Real.sqrt_eq_one]
theorem V4.len_eq_one {v : V4 ℝ} : v.len = 1 ↔ v.dot v = 1 := by
  unfold V4.len; rw [Real.sqrt_eq_one]
theorem V3.dot_self_eq_zero {v : V3 ℝ} : v.dot v = 0 ↔ v = ⟨0, 0, 0⟩ := by
  constructor
  · intro h; unfold V3.dot at h
    have hx := mul_self_nonneg v.x; have hy := mul_self_nonneg v.y; have hz := mul_self_nonneg v.z
    ext <;> simp <;> nlinarith
  · rintro rfl; simp [V3.dot]
theorem V4.dot_self_eq_zero {v : V4 ℝ} : v.dot v = 0 ↔ v = ⟨0, 0, 0, 0⟩ := by
  constructor
  · intro h; unfold V4.dot at h
    have hx := mul_self_nonneg v.x; have hy := mul_self_nonneg v.y; have hz := mul_self_nonneg v.z
    have hw := mul_self_nonneg v.w
    ext <;> simp <;> nlinarith
  · rintro rfl; simp [V4.dot]

theorem glm_vec2_norm_eq (v : V2 ℝ) : glm_vec2_norm v = v.len := by simp [cglm, V2.len, V2.dot]
theorem glm_vec3_norm_eq (v : V3 ℝ) : glm_vec3_norm v = v.len := by simp [cglm, V3.len, V3.dot]
theorem glm_vec4_norm_eq (v : V4 ℝ) : glm_vec4_norm v = v.len := by simp [cglm, V4.len, V4.dot]
theorem glm_vec3_dot_eq (a b : V3 ℝ) : glm_vec3_dot a b = a.dot b := by simp [cglm, V3.dot]
theorem glm_vec4_dot_eq (a b : V4 ℝ) : glm_vec4_dot a b = a.dot b := by simp [cglm, V4.dot]
theorem glm_vec3_cross_eq (a b : V3 ℝ) : glm_vec3_cross a b = a.cross b := by simp [cglm, V3.cross]

theorem normalize_eq (v : V3 ℝ) (h : FLT_EPSILON ≤ v.len) : glm_vec3_normalize v = v.smul (1 / v.len) := by
  unfold glm_vec3_normalize
  simp only [glm_vec3_norm_eq, flt_real, lit_scientific, eps_lit, decide_eq_true_eq, not_lt.mpr h, if_false]
  ext <;> simp [cglm, V3.smul] <;> ring
theorem normalize_to_eq (v : V3 ℝ) (h : FLT_EPSILON ≤ v.len) : glm_vec3_normalize_to v = v.smul (1 / v.len) := by
  unfold glm_vec3_normalize_to
  simp only [glm_vec3_norm_eq, flt_real, lit_scientific, eps_lit, decide_eq_true_eq, not_lt.mpr h, if_false]
  ext <;> simp [cglm, V3.smul] <;> ring
theorem normalize_small (v : V3 ℝ) (h : v.len < FLT_EPSILON) : glm_vec3_normalize v = ⟨0, 0, 0⟩ := by
  unfold glm_vec3_normalize
  simp only [glm_vec3_norm_eq, flt_real, lit_scientific, eps_lit, decide_eq_true_eq, h, if_true, lit_zero]
theorem normalize_to_small (v : V3 ℝ) (h : v.len < FLT_EPSILON) : glm_vec3_normalize_to v = ⟨0, 0, 0⟩ := by
  unfold glm_vec3_normalize_to
  simp only [glm_vec3_norm_eq, flt_real, lit_scientific, eps_lit, decide_eq_true_eq, h, if_true]
  simp [cglm]
theorem V3.smul_unit (v : V3 ℝ) (h : 0 < v.len) : (v.smul (1 / v.len)).dot (v.smul (1 / v.len)) = 1 := by
  have := v.len_sq
  unfold V3.dot V3.smul at *
  field_simp
  nlinarith
/-- a normalized vector has squared length 1 -/
theorem normalize_dot (v : V3 ℝ) (h : FLT_EPSILON ≤ v.len) :
    (glm_vec3_normalize v).dot (glm_vec3_normalize v) = 1 := by
  rw [normalize_eq v h]; exact v.smul_unit (lt_of_lt_of_le FLT_EPSILON_pos h)
theorem normalize_to_dot (v : V3 ℝ) (h : FLT_EPSILON ≤ v.len) :
    (glm_vec3_normalize_to v).dot (glm_vec3_normalize_to v) = 1 := by
  rw [normalize_to_eq v h]; exact v.smul_unit (lt_of_lt_of_le FLT_EPSILON_pos h)

theorem glm_min_eq (a b : ℝ) : glm_min a b = min a b := by
  unfold glm_min; simp only [flt_real, decide_eq_true_eq]
  split_ifs with h
  · rw [min_eq_left h.le]
  · rw [min_eq_right (not_lt.mp h)]
theorem glm_max_eq (a b : ℝ) : glm_max a b = max a b := by
  unfold glm_max; simp only [flt_real, decide_eq_true_eq]
  split_ifs with h
  · rw [max_eq_left h.le]
  · rw [max_eq_right (not_lt.mp h)]
theorem glm_clamp_eq (a lo hi : ℝ) : glm_clamp a lo hi = min (max a lo) hi := by
  unfold glm_clamp; rw [glm_min_eq, glm_max_eq]
theorem glm_clamp_zo_eq (a : ℝ) : glm_clamp_zo a = min (max a 0) 1 := by
  unfold glm_clamp_zo; rw [glm_clamp_eq, lit_zero, lit_one]

/-! block matrices -/

theorem toM4_mat_mul (a b c : M3 ℝ) : c.toM4.mat = a.toM4.mat * b.toM4.mat ↔ c.mat = a.mat * b.mat := by
  constructor
  · intro h
    have h0 := fun i j => congrFun (congrFun h i) j
    ext i j
    have e := h0 i.castSucc j.castSucc
    fin_cases i <;> fin_cases j <;>
      simp [M4.mat, M3.mat, M3.toM4, Matrix.mul_apply, Fin.sum_univ_succ] at e ⊢ <;> linarith
  · intro h
    have h0 := fun i j => congrFun (congrFun h i) j
    have e00 := h0 0 0; have e01 := h0 0 1; have e02 := h0 0 2
    have e10 := h0 1 0; have e11 := h0 1 1; have e12 := h0 1 2
    have e20 := h0 2 0; have e21 := h0 2 1; have e22 := h0 2 2
    simp [M3.mat, Matrix.mul_apply, Fin.sum_univ_succ] at e00 e01 e02 e10 e11 e12 e20 e21 e22
    ext i j
    fin_cases i <;> fin_cases j <;> simp [M4.mat, M3.toM4, Matrix.mul_apply, Fin.sum_univ_succ] <;> linarith

/-! quaternions -/

@[simp] theorem V4.quat_re (q : V4 ℝ) : q.quat.re = q.w := rfl
@[simp] theorem V4.quat_imI (q : V4 ℝ) : q.quat.imI = q.x := rfl
@[simp] theorem V4.quat_imJ (q : V4 ℝ) : q.quat.imJ = q.y := rfl
@[simp] theorem V4.quat_imK (q : V4 ℝ) : q.quat.imK = q.z := rfl

theorem V3.pure_re (v : V3 ℝ) : v.pure.re = 0 := rfl
@[simp] theorem V3.pure_imI (v : V3 ℝ) : v.pure.imI = v.x := rfl
@[simp] theorem V3.pure_imJ (v : V3 ℝ) : v.pure.imJ = v.y := rfl
@[simp] theorem V3.pure_imK (v : V3 ℝ) : v.pure.imK = v.z := rfl
theorem V3.pure_inj {a b : V3 ℝ} : a.pure = b.pure ↔ a = b := by
  constructor
  · intro h
    have h1 := congrArg QuaternionAlgebra.imI h
    have h2 := congrArg QuaternionAlgebra.imJ h; have h3 := congrArg QuaternionAlgebra.imK h
    ext <;> assumption
  · rintro rfl; rfl

theorem V4.quat_inj {a b : V4 ℝ} : a.quat = b.quat ↔ a = b := by
  constructor
  · intro h
    have h0 := congrArg QuaternionAlgebra.re h; have h1 := congrArg QuaternionAlgebra.imI h
    have h2 := congrArg QuaternionAlgebra.imJ h; have h3 := congrArg QuaternionAlgebra.imK h
    ext <;> assumption
  · rintro rfl; rfl

theorem V4.normSq_quat (q : V4 ℝ) : Quaternion.normSq q.quat = q.dot q := by
  rw [Quaternion.normSq_def']; simp only [V4.quat, V4.dot]; ring
theorem V4.norm_quat (q : V4 ℝ) : ‖q.quat‖ = q.len := by
  have h := Quaternion.normSq_eq_norm_mul_self q.quat
  rw [V4.normSq_quat] at h
  rw [V4.len, h, Real.sqrt_mul_self (norm_nonneg _)]
theorem V4.unit_iff (q : V4 ℝ) : ‖q.quat‖ = 1 ↔ q.x * q.x + q.y * q.y + q.z * q.z + q.w * q.w = 1 := by
  rw [V4.norm_quat, V4.len_eq_one]; rfl

/-- matrix of a unit quaternion -/
theorem quat_mat3_unit (q : V4 ℝ) (h : q.x * q.x + q.y * q.y + q.z * q.z + q.w * q.w = 1) :
    glm_quat_mat3 q =
      ⟨⟨1 - 2 * (q.y * q.y + q.z * q.z), 2 * (q.x * q.y + q.w * q.z), 2 * (q.x * q.z - q.w * q.y)⟩,
       ⟨2 * (q.x * q.y - q.w * q.z), 1 - 2 * (q.x * q.x + q.z * q.z), 2 * (q.y * q.z + q.w * q.x)⟩,
       ⟨2 * (q.x * q.z + q.w * q.y), 2 * (q.y * q.z - q.w * q.x), 1 - 2 * (q.x * q.x + q.y * q.y)⟩⟩ := by
  have hn : glm_quat_norm q = 1 := by
    rw [glm_quat_norm, glm_vec4_norm_eq, V4.len_eq_one]; exact h
  unfold glm_quat_mat3
  simp only [hn]
  ext <;> simp [cglm] <;> ring
/-- the same in homogeneous form -/
theorem quat_mat3_hom (q : V4 ℝ) (h : q.x * q.x + q.y * q.y + q.z * q.z + q.w * q.w = 1) :
    glm_quat_mat3 q =
      ⟨⟨q.w*q.w + q.x*q.x - q.y*q.y - q.z*q.z, 2 * (q.x * q.y + q.w * q.z), 2 * (q.x * q.z - q.w * q.y)⟩,
       ⟨2 * (q.x * q.y - q.w * q.z), q.w*q.w - q.x*q.x + q.y*q.y - q.z*q.z, 2 * (q.y * q.z + q.w * q.x)⟩,
       ⟨2 * (q.x * q.z + q.w * q.y), 2 * (q.y * q.z - q.w * q.x), q.w*q.w - q.x*q.x - q.y*q.y + q.z*q.z⟩⟩ := by
  rw [quat_mat3_unit q h]
  ext <;> simp only [] <;> first | rfl | linear_combination -h
/-- rotations by their equations -/
theorem M3.isRotation_iff (m : M3 ℝ) : m.IsRotation ↔
    (m.c0.dot m.c0 = 1 ∧ m.c1.dot m.c1 = 1 ∧ m.c2.dot m.c2 = 1 ∧ m.c0.dot m.c1 = 0 ∧ m.c0.dot m.c2 = 0 ∧
      m.c1.dot m.c2 = 0) ∧ m.c0.dot (m.c1.cross m.c2) = 1 := by
  unfold M3.IsRotation
  rw [Matrix.mem_specialOrthogonalGroup_iff, Matrix.mem_orthogonalGroup_iff']
  refine and_congr ?_ ?_
  · constructor
    · intro h
      have h0 := fun i j => congrFun (congrFun h i) j
      have a := h0 0 0; have b := h0 1 1; have c := h0 2 2; have d := h0 0 1; have e := h0 0 2; have f := h0 1 2
      simp [M3.mat, Matrix.mul_apply, Fin.sum_univ_succ] at a b c d e f
      simp only [V3.dot]
      refine ⟨?_, ?_, ?_, ?_, ?_, ?_⟩ <;> linarith
    · rintro ⟨a, b, c, d, e, f⟩
      simp only [V3.dot] at a b c d e f
      ext i j
      fin_cases i <;> fin_cases j <;> simp [M3.mat, Matrix.mul_apply, Fin.sum_univ_succ] <;> linarith
  · rw [Matrix.det_fin_three]
    simp only [M3.mat, V3.dot, V3.cross]
    constructor <;> intro h
    · simp at h; linarith
    · simp; linarith
theorem quat_mat4_pick (q : V4 ℝ) : glm_quat_mat4 q = glm_mat4_ins3 (glm_quat_mat3 q) glm_mat4_identity := by
  ext <;> simp [cglm]
theorem quat_mat3t_eq (q : V4 ℝ) : glm_quat_mat3t q = glm_mat3_transpose (glm_quat_mat3 q) := by
  ext <;> simp [cglm]
theorem quat_mat4t_eq (q : V4 ℝ) : glm_quat_mat4t q = glm_mat4_transpose (glm_quat_mat4 q) := by
  ext <;> simp [cglm]

end Cglm
