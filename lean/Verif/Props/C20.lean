import Verif.Props.C12
import Verif.Props.C16

/-! # C20: axis-angle rotation matrices

`glm_rotate_make` normalizes its axis; axes shorter than `FLT_EPSILON` become zero vectors, see `C20_small`. -/

namespace Cglm

/-- `glm_rotate_make` is the matrix of Rodrigues' rotation about the normalized axis -/
theorem C20_rotate_make (angle : ℝ) (axis : V3 ℝ) (h : FLT_EPSILON ≤ axis.len) :
    glm_rotate_make angle axis = (rotMat angle axis.unit).toM4 := by
  have hk : glm_vec3_normalize_to axis = axis.unit := normalize_to_eq axis h
  unfold glm_rotate_make
  rw [hk]
  generalize axis.unit = u
  ext <;> simp [cglm, rotMat, rodrigues, M3.toM4, V3.add, V3.smul, V3.cross, V3.dot] <;> ring
/-- below the threshold it is a uniform scaling by `cos angle`, not a rotation -/
theorem C20_small (angle : ℝ) (axis : V3 ℝ) (h : axis.len < FLT_EPSILON) :
    glm_rotate_make angle axis = ⟨⟨Real.cos angle, 0, 0, 0⟩, ⟨0, Real.cos angle, 0, 0⟩, ⟨0, 0, Real.cos angle, 0⟩, ⟨0, 0, 0, 1⟩⟩ := by
  have hk : glm_vec3_normalize_to axis = ⟨0, 0, 0⟩ := normalize_to_small axis h
  unfold glm_rotate_make
  rw [hk]
  ext <;> simp [cglm]

/-- applying the matrix is Rodrigues' formula -/
theorem C20_apply (angle : ℝ) (u v : V3 ℝ) : glm_mat3_mulv (rotMat angle u) v = rodrigues angle u v := by
  ext <;> simp [cglm, rotMat, rodrigues, V3.add, V3.smul, V3.cross, V3.dot] <;> ring
/-- it is a proper rotation -/
theorem C20_rotation (angle : ℝ) (axis : V3 ℝ) (h : FLT_EPSILON ≤ axis.len) :
    (glm_rotate_make angle axis).block.IsRotation := by
  rw [C20_rotate_make angle axis h, show (rotMat angle axis.unit).toM4.block = rotMat angle axis.unit from rfl,
    ← C12_rotation angle axis h]
  exact C09_rotation _ (C12_unit angle axis h)
/-- it fixes the axis -/
theorem C20_axis_fixed (angle : ℝ) (axis : V3 ℝ) (h : FLT_EPSILON ≤ axis.len) :
    glm_mat4_mulv3 (glm_rotate_make angle axis) axis 1 = axis := by
  have hl : 0 < axis.len := lt_of_lt_of_le FLT_EPSILON_pos h
  have key : rodrigues angle axis.unit axis = axis := by
    have hd : axis.unit.dot axis = axis.len := by
      have := axis.len_sq
      simp only [V3.unit, V3.smul, V3.dot] at *
      field_simp
      linarith
    simp only [rodrigues, V3.add, V3.smul, V3.cross, hd]
    ext <;> simp only [V3.unit, V3.smul] <;> field_simp <;> ring
  have hm : glm_mat4_mulv3 (rotMat angle axis.unit).toM4 axis 1 = glm_mat3_mulv (rotMat angle axis.unit) axis := by
    generalize rotMat angle axis.unit = r
    ext <;> simp [cglm, M3.toM4]
  rw [C20_rotate_make angle axis h, hm, C20_apply, key]
/-- rotations about one axis add -/
theorem C20_add (a b : ℝ) (axis : V3 ℝ) (h : FLT_EPSILON ≤ axis.len) :
    (glm_rotate_make (a + b) axis).mat = (glm_rotate_make a axis).mat * (glm_rotate_make b axis).mat := by
  have key : (rotMat (a + b) axis.unit).mat = (rotMat a axis.unit).mat * (rotMat b axis.unit).mat := by
    rw [← C12_rotation a axis h, ← C12_rotation b axis h, ← C12_rotation (a + b) axis h, ← C12_mul a b axis h,
      C09_mat3_mul _ _ (C12_unit a axis h) (C12_unit b axis h)]
  rw [C20_rotate_make a axis h, C20_rotate_make b axis h, C20_rotate_make (a + b) axis h, toM4_mat_mul]
  exact key
/-- the three coordinate axes -/
theorem C20_axes (θ : ℝ) :
    (glm_rotate_make θ ⟨1, 0, 0⟩).block.mat = Rx θ ∧ (glm_rotate_make θ ⟨0, 1, 0⟩).block.mat = Ry θ ∧
    (glm_rotate_make θ ⟨0, 0, 1⟩).block.mat = Rz θ := by
  have hx : (⟨1, 0, 0⟩ : V3 ℝ).len = 1 := by simp [V3.len_eq_one, V3.dot]
  have hy : (⟨0, 1, 0⟩ : V3 ℝ).len = 1 := by simp [V3.len_eq_one, V3.dot]
  have hz : (⟨0, 0, 1⟩ : V3 ℝ).len = 1 := by simp [V3.len_eq_one, V3.dot]
  have e1 : FLT_EPSILON ≤ 1 := by norm_num [FLT_EPSILON]
  rw [C20_rotate_make θ _ (by rw [hx]; exact e1), C20_rotate_make θ _ (by rw [hy]; exact e1),
    C20_rotate_make θ _ (by rw [hz]; exact e1)]
  simp only [V3.unit, hx, hy, hz, V3.smul]
  refine ⟨?_, ?_, ?_⟩ <;> norm_num [Rx, Ry, Rz] <;> rfl
/-- it agrees with the quaternion of the same axis and angle -/
theorem C20_quat (angle : ℝ) (axis : V3 ℝ) (h : FLT_EPSILON ≤ axis.len) :
    glm_rotate_make angle axis = glm_quat_mat4 (glm_quatv angle axis) := by
  rw [C20_rotate_make angle axis h, C09_mat4, C12_rotation angle axis h]

example : FLT_EPSILON ≤ (⟨0, 3, 4⟩ : V3 ℝ).len := by
  have : (⟨0, 3, 4⟩ : V3 ℝ).len = 5 := by
    rw [V3.len, V3.dot, show (0 * 0 + 3 * 3 + 4 * 4 : ℝ) = 5 ^ 2 by norm_num, Real.sqrt_sq (by norm_num)]
  rw [this]; norm_num [FLT_EPSILON]

end Cglm
