import Verif.Props.C09

/-! # C12: axis-angle quaternions

`glm_quatv` normalizes the axis; an axis shorter than `FLT_EPSILON` is normalized to zero, so the theorems about
rotations assume `FLT_EPSILON ≤ axis.len`. -/

namespace Cglm
open Quaternion

theorem V3.unit_dot (v : V3 ℝ) (h : FLT_EPSILON ≤ v.len) : v.unit.dot v.unit = 1 :=
  v.smul_unit (lt_of_lt_of_le FLT_EPSILON_pos h)

theorem C12_quatv (angle : ℝ) (axis : V3 ℝ) (h : FLT_EPSILON ≤ axis.len) :
    glm_quatv angle axis = ⟨Real.sin (angle / 2) * axis.unit.x, Real.sin (angle / 2) * axis.unit.y,
      Real.sin (angle / 2) * axis.unit.z, Real.cos (angle / 2)⟩ := by
  have ha : angle * 0.5 = angle / 2 := by norm_num; ring
  have hk : glm_normalize_to axis = axis.unit := normalize_to_eq axis h
  unfold glm_quatv
  simp only [hk, sinf_real, cosf_real, lit_scientific, ha]
/-- an axis below the threshold gives a scalar quaternion, not a rotation -/
theorem C12_quatv_small (angle : ℝ) (axis : V3 ℝ) (h : axis.len < FLT_EPSILON) :
    glm_quatv angle axis = ⟨0, 0, 0, Real.cos (angle / 2)⟩ := by
  have ha : angle * 0.5 = angle / 2 := by norm_num; ring
  have hk : glm_normalize_to axis = ⟨0, 0, 0⟩ := normalize_to_small axis h
  unfold glm_quatv
  simp only [hk, sinf_real, cosf_real, lit_scientific, ha, mul_zero]
theorem C12_quat (angle x y z : ℝ) : glm_quat angle x y z = glm_quatv angle ⟨x, y, z⟩ := rfl
theorem C12_unit (angle : ℝ) (axis : V3 ℝ) (h : FLT_EPSILON ≤ axis.len) : ‖(glm_quatv angle axis).quat‖ = 1 := by
  rw [V4.unit_iff, C12_quatv angle axis h]
  have hu := axis.unit_dot h
  simp only [V3.dot] at hu
  linear_combination Real.sin_sq_add_cos_sq (angle / 2) + Real.sin (angle / 2) ^ 2 * hu
/-- it represents the rotation by `angle` about the axis -/
theorem C12_rotation (angle : ℝ) (axis : V3 ℝ) (h : FLT_EPSILON ≤ axis.len) :
    glm_quat_mat3 (glm_quatv angle axis) = rotMat angle axis.unit := by
  rw [quat_mat3_hom _ ((V4.unit_iff _).mp (C12_unit angle axis h)), C12_quatv angle axis h]
  have hu := axis.unit_dot h
  simp only [V3.dot] at hu
  have hc : Real.cos angle = Real.cos (angle / 2) ^ 2 - Real.sin (angle / 2) ^ 2 := by
    rw [← Real.cos_two_mul']; congr 1; ring
  have hs : Real.sin angle = 2 * Real.sin (angle / 2) * Real.cos (angle / 2) := by
    rw [← Real.sin_two_mul]; congr 1; ring
  have h1 := Real.sin_sq_add_cos_sq (angle / 2)
  simp only [rotMat, rodrigues, V3.add, V3.smul, V3.cross, V3.dot, hc, hs]
  generalize Real.sin (angle / 2) = s at *
  generalize Real.cos (angle / 2) = c at *
  generalize axis.unit = u at *
  ext <;> simp only []
  · linear_combination -s^2 * hu + u.x^2 * h1
  · linear_combination u.x*u.y * h1
  · linear_combination u.x*u.z * h1
  · linear_combination u.x*u.y * h1
  · linear_combination -s^2 * hu + u.y^2 * h1
  · linear_combination u.y*u.z * h1
  · linear_combination u.x*u.z * h1
  · linear_combination u.y*u.z * h1
  · linear_combination -s^2 * hu + u.z^2 * h1

/-- rotations about one axis compose by adding angles -/
theorem C12_mul (a b : ℝ) (axis : V3 ℝ) (h : FLT_EPSILON ≤ axis.len) :
    glm_quat_mul (glm_quatv a axis) (glm_quatv b axis) = glm_quatv (a + b) axis := by
  rw [C12_quatv a axis h, C12_quatv b axis h, C12_quatv (a + b) axis h]
  have hu := axis.unit_dot h
  simp only [V3.dot] at hu
  rw [add_div, Real.sin_add, Real.cos_add]
  generalize axis.unit = u at *
  ext <;> simp [cglm]
  · ring
  · ring
  · ring
  · linear_combination - Real.sin (a / 2) * Real.sin (b / 2) * hu

/-- the imaginary part has length |sin (angle/2)| -/
theorem C12_imaglen (angle : ℝ) (axis : V3 ℝ) (h : FLT_EPSILON ≤ axis.len) :
    (⟨(glm_quatv angle axis).x, (glm_quatv angle axis).y, (glm_quatv angle axis).z⟩ : V3 ℝ).len = |Real.sin (angle / 2)| := by
  have hu := axis.unit_dot h
  simp only [V3.dot] at hu
  rw [C12_quatv angle axis h, V3.len, ← Real.sqrt_sq_eq_abs]
  congr 1
  simp only [V3.dot]
  linear_combination Real.sin (angle / 2) ^ 2 * hu
/-- the angle is recovered for angles in [0, 2π] -/
theorem C12_angle (angle : ℝ) (axis : V3 ℝ) (h : FLT_EPSILON ≤ axis.len) (h0 : 0 ≤ angle) (h1 : angle ≤ 2 * Real.pi) :
    glm_quat_angle (glm_quatv angle axis) = angle := by
  have hs : 0 ≤ Real.sin (angle / 2) := Real.sin_nonneg_of_nonneg_of_le_pi (by linarith) (by linarith)
  have e1 : glm_quat_imaglen (glm_quatv angle axis) = Real.sin (angle / 2) := by
    have := C12_imaglen angle axis h
    rw [abs_of_nonneg hs, ← glm_vec3_norm_eq] at this
    exact this
  have e2 : glm_quat_real (glm_quatv angle axis) = Real.cos (angle / 2) := by rw [C12_quatv angle axis h]; rfl
  unfold glm_quat_angle
  rw [e1, e2, atan2f_real]
  have : (⟨Real.cos (angle / 2), Real.sin (angle / 2)⟩ : ℂ) =
      Complex.cos ((angle / 2 : ℝ) : ℂ) + Complex.sin ((angle / 2 : ℝ) : ℂ) * Complex.I := by
    apply Complex.ext <;> simp [
      ← Complex.ofReal_cos, ← Complex.ofReal_sin, -Complex.ofReal_div]
  rw [this, Complex.arg_cos_add_sin_mul_I ⟨by linarith [Real.pi_pos], by linarith⟩]
  simp only [lit_2]; ring
/-- the axis is recovered when the imaginary part is above the normalization threshold -/
theorem C12_axis (angle : ℝ) (axis : V3 ℝ) (h : FLT_EPSILON ≤ axis.len) (h0 : FLT_EPSILON ≤ Real.sin (angle / 2)) :
    glm_quat_axis (glm_quatv angle axis) = axis.unit := by
  have hl := C12_imaglen angle axis h
  have hp : 0 < Real.sin (angle / 2) := lt_of_lt_of_le FLT_EPSILON_pos h0
  rw [abs_of_pos hp] at hl
  have e : glm_quat_axis (glm_quatv angle axis) =
      glm_vec3_normalize_to ⟨(glm_quatv angle axis).x, (glm_quatv angle axis).y, (glm_quatv angle axis).z⟩ := rfl
  rw [e, normalize_to_eq _ (by rw [hl]; exact h0), hl, C12_quatv angle axis h]
  have : Real.sin (angle / 2) ≠ 0 := hp.ne'
  ext <;> simp only [V3.smul] <;> field_simp

/-- `glm_quat_rotate` post-multiplies by the rotation of the quaternion -/
theorem C12_rotate (m : M4 ℝ) (q : V4 ℝ) : (glm_quat_rotate m q).mat = m.mat * (glm_quat_mat3 q).toM4.mat := by
  unfold glm_quat_rotate
  rw [C09_mat4]
  generalize glm_quat_mat3 q = r
  ext i j; fin_cases i <;> fin_cases j <;>
    simp [M4.mat, M3.toM4, Matrix.mul_apply, Fin.sum_univ_succ, cglm] <;> ring
/-- rotating about a pivot: translate, rotate, translate back -/
theorem C12_rotate_at (m : M4 ℝ) (q : V4 ℝ) (pivot : V3 ℝ) :
    (glm_quat_rotate_at m q pivot).mat =
      m.mat * transMat pivot * (glm_quat_mat3 q).toM4.mat * transMat (pivot.smul (-1)) := by
  unfold glm_quat_rotate_at glm_quat_rotate
  rw [C09_mat4]
  generalize glm_quat_mat3 q = r
  ext i j; fin_cases i <;> fin_cases j <;>
    simp [M4.mat, M3.toM4, transMat, V3.smul, Matrix.mul_apply, Fin.sum_univ_succ, cglm] <;> ring
theorem C12_rotate_atm (q : V4 ℝ) (pivot : V3 ℝ) :
    (glm_quat_rotate_atm q pivot).mat = transMat pivot * (glm_quat_mat3 q).toM4.mat * transMat (pivot.smul (-1)) := by
  unfold glm_quat_rotate_atm glm_quat_rotate
  rw [C09_mat4]
  generalize glm_quat_mat3 q = r
  ext i j; fin_cases i <;> fin_cases j <;>
    simp [M4.mat, M3.toM4, transMat, V3.smul, Matrix.mul_apply, Fin.sum_univ_succ, cglm] <;> ring

/-- an axis above the threshold -/
example : FLT_EPSILON ≤ (⟨1, 2, 2⟩ : V3 ℝ).len := by
  have : (⟨1, 2, 2⟩ : V3 ℝ).len = 3 := by
    rw [V3.len, V3.dot, show (1 * 1 + 2 * 2 + 2 * 2 : ℝ) = 3 ^ 2 by norm_num, Real.sqrt_sq (by norm_num)]
  rw [this]; norm_num [FLT_EPSILON]
/-- an angle above the axis-recovery threshold -/
example : FLT_EPSILON ≤ Real.sin (Real.pi / 2) := by rw [Real.sin_pi_div_two]; norm_num [FLT_EPSILON]

end Cglm
