import Verif.Lemmas
import Verif.Props.C08

/-! # C09: quaternion to rotation matrix -/

namespace Cglm
open Quaternion

/-- the matrix of a unit quaternion is a proper rotation -/
theorem C09_rotation (q : V4 ℝ) (h : ‖q.quat‖ = 1) : (glm_quat_mat3 q).IsRotation := by
  rw [V4.unit_iff] at h
  rw [quat_mat3_hom q h, M3.isRotation_iff]
  have h2 : (q.x * q.x + q.y * q.y + q.z * q.z + q.w * q.w) ^ 2 = 1 := by rw [h]; norm_num
  have h3 : (q.x * q.x + q.y * q.y + q.z * q.z + q.w * q.w) ^ 3 = 1 := by rw [h]; norm_num
  simp only [V3.dot, V3.cross]
  refine ⟨⟨?_, ?_, ?_, ?_, ?_, ?_⟩, ?_⟩
  · linear_combination h2
  · linear_combination h2
  · linear_combination h2
  · ring
  · ring
  · ring
  · linear_combination h3
/-- multiplication by the matrix is conjugation `v ↦ q v q*` -/
theorem C09_mat3_conj (q : V4 ℝ) (h : ‖q.quat‖ = 1) (v : V3 ℝ) :
    (glm_mat3_mulv (glm_quat_mat3 q) v).pure = q.quat * v.pure * star q.quat := by
  rw [V4.unit_iff] at h
  rw [quat_mat3_hom q h]
  ext <;> simp [V3.pure_re, cglm] <;> ring
/-- the matrix of a product is the product of the matrices -/
theorem C09_mat3_mul (p q : V4 ℝ) (hp : ‖p.quat‖ = 1) (hq : ‖q.quat‖ = 1) :
    (glm_quat_mat3 (glm_quat_mul p q)).mat = (glm_quat_mat3 p).mat * (glm_quat_mat3 q).mat := by
  have hpq : ‖(glm_quat_mul p q).quat‖ = 1 := by rw [C08_mul, norm_mul, hp, hq, one_mul]
  rw [V4.unit_iff] at hp hq hpq
  rw [quat_mat3_hom p hp, quat_mat3_hom q hq, quat_mat3_hom _ hpq]
  mat_ring
/-- the 4x4 variant is the same rotation with no translation -/
theorem C09_mat4 (q : V4 ℝ) : glm_quat_mat4 q = (glm_quat_mat3 q).toM4 := by
  ext <;> simp [cglm, M3.toM4]
/-- the `t` variants are the transposes (inverse rotations) -/
theorem C09_mat3t (q : V4 ℝ) : (glm_quat_mat3t q).mat = (glm_quat_mat3 q).mat.transpose := by
  rw [quat_mat3t_eq]; mat_entries
theorem C09_mat4t (q : V4 ℝ) : (glm_quat_mat4t q).mat = (glm_quat_mat4 q).mat.transpose := by
  rw [quat_mat4t_eq]; mat_entries
/-- conjugate quaternion, transposed matrix -/
theorem C09_mat3_conjugate (q : V4 ℝ) : glm_quat_mat3 (glm_quat_conjugate q) = glm_quat_mat3t q := by
  ext <;> simp [cglm] <;> ring

/-- `glm_quat_rotatev` is `v ↦ q v q⁻¹` for every non-zero quaternion -/
theorem C09_rotatev (q : V4 ℝ) (h : q.quat ≠ 0) (v : V3 ℝ) :
    (glm_quat_rotatev q v).pure = q.quat * v.pure * q.quat⁻¹ := by
  have e : (glm_quat_rotatev q v).pure = (glm_quat_normalize q).quat * v.pure * star (glm_quat_normalize q).quat := by
    unfold glm_quat_rotatev
    rw [C08_normalize_to]
    generalize glm_quat_normalize q = p
    ext <;> simp [V3.pure_re, cglm] <;> ring
  have hinv : q.quat⁻¹ = (‖q.quat‖⁻¹ * ‖q.quat‖⁻¹) • star q.quat := by
    rw [← mul_inv, ← Quaternion.normSq_eq_norm_mul_self]; rfl
  rw [e, (C08_normalize q h).1, hinv, Quaternion.star_smul, smul_mul_assoc, smul_mul_assoc, mul_smul_comm, mul_smul_comm,
    smul_smul]
/-- for a unit quaternion it is multiplication by the rotation matrix -/
theorem C09_rotatev_mat3 (q : V4 ℝ) (h : ‖q.quat‖ = 1) (v : V3 ℝ) :
    glm_quat_rotatev q v = glm_mat3_mulv (glm_quat_mat3 q) v := by
  have h0 : q.quat ≠ 0 := by intro h1; rw [h1, norm_zero] at h; exact zero_ne_one h
  rw [← V3.pure_inj, C09_rotatev q h0, C09_mat3_conj q h]
  congr 1
  rw [Quaternion.inv_def, Quaternion.normSq_eq_norm_mul_self, h]; simp
/-- rotating by the zero quaternion leaves the vector alone -/
theorem C09_rotatev_zero (v : V3 ℝ) : glm_quat_rotatev ⟨0, 0, 0, 0⟩ v = v := by
  unfold glm_quat_rotatev
  rw [C08_normalize_to, C08_normalize_zero _ (by rfl)]
  ext <;> simp [cglm]

/-- a unit quaternion that is no axis rotation -/
example : ‖(⟨1/2, -1/2, 1/2, 1/2⟩ : V4 ℝ).quat‖ = 1 := by rw [V4.unit_iff]; norm_num
/-- the quarter turn about z takes x to y -/
example : glm_mat3_mulv (glm_quat_mat3 (⟨0, 0, √(1/2), √(1/2)⟩ : V4 ℝ)) ⟨1, 0, 0⟩ = ⟨0, 1, 0⟩ := by
  have h : √(1/2 : ℝ) * √(1/2) = 1/2 := Real.mul_self_sqrt (by norm_num)
  rw [quat_mat3_hom _ (by simp only []; linarith)]
  ext <;> simp only [cglm] <;> linarith

end Cglm
