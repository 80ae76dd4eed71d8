import Verif.Props.C12
import Verif.Props.C16

/-! # C18: Euler angle quaternions -/

namespace Cglm
open Quaternion

theorem basis_len : (⟨1, 0, 0⟩ : V3 ℝ).len = 1 ∧ (⟨0, 1, 0⟩ : V3 ℝ).len = 1 ∧ (⟨0, 0, 1⟩ : V3 ℝ).len = 1 := by
  simp [V3.len_eq_one, V3.dot]
theorem eps_le_one : FLT_EPSILON ≤ 1 := by norm_num [FLT_EPSILON]
theorem unit_x : (⟨1, 0, 0⟩ : V3 ℝ).unit = ⟨1, 0, 0⟩ := by simp [V3.unit, basis_len, V3.smul]
theorem unit_y : (⟨0, 1, 0⟩ : V3 ℝ).unit = ⟨0, 1, 0⟩ := by simp [V3.unit, basis_len, V3.smul]
theorem unit_z : (⟨0, 0, 1⟩ : V3 ℝ).unit = ⟨0, 0, 1⟩ := by simp [V3.unit, basis_len, V3.smul]

/-- the unit quaternions of the three axis rotations -/
noncomputable def qx (θ : ℝ) : V4 ℝ := ⟨Real.sin (θ / 2), 0, 0, Real.cos (θ / 2)⟩
noncomputable def qy (θ : ℝ) : V4 ℝ := ⟨0, Real.sin (θ / 2), 0, Real.cos (θ / 2)⟩
noncomputable def qz (θ : ℝ) : V4 ℝ := ⟨0, 0, Real.sin (θ / 2), Real.cos (θ / 2)⟩

theorem qx_eq (θ : ℝ) : qx θ = glm_quatv θ ⟨1, 0, 0⟩ := by
  rw [C12_quatv θ ⟨1, 0, 0⟩ (by rw [basis_len.1]; exact eps_le_one), unit_x]; simp [qx]
theorem qx_unit (θ : ℝ) : ‖(qx θ).quat‖ = 1 := by
  rw [qx_eq]; exact C12_unit θ _ (by rw [basis_len.1]; exact eps_le_one)
theorem qx_mat (θ : ℝ) : (glm_quat_mat3 (qx θ)).mat = Rx θ := by
  rw [qx_eq, C12_rotation θ _ (by rw [basis_len.1]; exact eps_le_one), unit_x]; rfl
theorem qy_eq (θ : ℝ) : qy θ = glm_quatv θ ⟨0, 1, 0⟩ := by
  rw [C12_quatv θ ⟨0, 1, 0⟩ (by rw [basis_len.2.1]; exact eps_le_one), unit_y]; simp [qy]
theorem qy_unit (θ : ℝ) : ‖(qy θ).quat‖ = 1 := by
  rw [qy_eq]; exact C12_unit θ _ (by rw [basis_len.2.1]; exact eps_le_one)
theorem qy_mat (θ : ℝ) : (glm_quat_mat3 (qy θ)).mat = Ry θ := by
  rw [qy_eq, C12_rotation θ _ (by rw [basis_len.2.1]; exact eps_le_one), unit_y]; rfl
theorem qz_eq (θ : ℝ) : qz θ = glm_quatv θ ⟨0, 0, 1⟩ := by
  rw [C12_quatv θ ⟨0, 0, 1⟩ (by rw [basis_len.2.2]; exact eps_le_one), unit_z]; simp [qz]
theorem qz_unit (θ : ℝ) : ‖(qz θ).quat‖ = 1 := by
  rw [qz_eq]; exact C12_unit θ _ (by rw [basis_len.2.2]; exact eps_le_one)
theorem qz_mat (θ : ℝ) : (glm_quat_mat3 (qz θ)).mat = Rz θ := by
  rw [qz_eq, C12_rotation θ _ (by rw [basis_len.2.2]; exact eps_le_one), unit_z]; rfl

/-- order xyz: the product of the axis quaternions, a unit quaternion, with the matrix of `glm_euler_xyz` -/
theorem C18_xyz (a : V3 ℝ) :
    (glm_euler_xyz_quat a).quat = (qx a.x).quat * (qy a.y).quat * (qz a.z).quat ∧
    ‖(glm_euler_xyz_quat a).quat‖ = 1 ∧ glm_quat_mat4 (glm_euler_xyz_quat a) = glm_euler_xyz a := by
  have e : glm_euler_xyz_quat a = glm_quat_mul (glm_quat_mul (qx a.x) (qy a.y)) (qz a.z) := by
    have h : ∀ t : ℝ, t * 0.5 = t / 2 := by intro t; norm_num; ring
    ext <;> simp [cglm, qx, qy, qz, h] <;> ring
  have hu : ‖(glm_quat_mul (qx a.x) (qy a.y)).quat‖ = 1 := by
    rw [C08_mul, norm_mul, qx_unit, qy_unit, one_mul]
  refine ⟨by rw [e, C08_mul, C08_mul], by rw [e, C08_mul, norm_mul, hu, qz_unit, one_mul], ?_⟩
  rw [(C16_xyz a).2, C09_mat4]
  congr 1
  rw [← M3.mat_inj, (C16_xyz a).1, e, C09_mat3_mul _ _ hu (qz_unit _), C09_mat3_mul _ _ (qx_unit _) (qy_unit _),
    qx_mat, qy_mat, qz_mat]

/-- order xzy: the product of the axis quaternions, a unit quaternion, with the matrix of `glm_euler_xzy` -/
theorem C18_xzy (a : V3 ℝ) :
    (glm_euler_xzy_quat a).quat = (qx a.x).quat * (qz a.z).quat * (qy a.y).quat ∧
    ‖(glm_euler_xzy_quat a).quat‖ = 1 ∧ glm_quat_mat4 (glm_euler_xzy_quat a) = glm_euler_xzy a := by
  have e : glm_euler_xzy_quat a = glm_quat_mul (glm_quat_mul (qx a.x) (qz a.z)) (qy a.y) := by
    have h : ∀ t : ℝ, t * 0.5 = t / 2 := by intro t; norm_num; ring
    ext <;> simp [cglm, qx, qz, qy, h] <;> ring
  have hu : ‖(glm_quat_mul (qx a.x) (qz a.z)).quat‖ = 1 := by
    rw [C08_mul, norm_mul, qx_unit, qz_unit, one_mul]
  refine ⟨by rw [e, C08_mul, C08_mul], by rw [e, C08_mul, norm_mul, hu, qy_unit, one_mul], ?_⟩
  rw [(C16_xzy a).2, C09_mat4]
  congr 1
  rw [← M3.mat_inj, (C16_xzy a).1, e, C09_mat3_mul _ _ hu (qy_unit _), C09_mat3_mul _ _ (qx_unit _) (qz_unit _),
    qx_mat, qz_mat, qy_mat]

/-- order yxz: the product of the axis quaternions, a unit quaternion, with the matrix of `glm_euler_yxz` -/
theorem C18_yxz (a : V3 ℝ) :
    (glm_euler_yxz_quat a).quat = (qy a.y).quat * (qx a.x).quat * (qz a.z).quat ∧
    ‖(glm_euler_yxz_quat a).quat‖ = 1 ∧ glm_quat_mat4 (glm_euler_yxz_quat a) = glm_euler_yxz a := by
  have e : glm_euler_yxz_quat a = glm_quat_mul (glm_quat_mul (qy a.y) (qx a.x)) (qz a.z) := by
    have h : ∀ t : ℝ, t * 0.5 = t / 2 := by intro t; norm_num; ring
    ext <;> simp [cglm, qy, qx, qz, h] <;> ring
  have hu : ‖(glm_quat_mul (qy a.y) (qx a.x)).quat‖ = 1 := by
    rw [C08_mul, norm_mul, qy_unit, qx_unit, one_mul]
  refine ⟨by rw [e, C08_mul, C08_mul], by rw [e, C08_mul, norm_mul, hu, qz_unit, one_mul], ?_⟩
  rw [(C16_yxz a).2, C09_mat4]
  congr 1
  rw [← M3.mat_inj, (C16_yxz a).1, e, C09_mat3_mul _ _ hu (qz_unit _), C09_mat3_mul _ _ (qy_unit _) (qx_unit _),
    qy_mat, qx_mat, qz_mat]

/-- order yzx: the product of the axis quaternions, a unit quaternion, with the matrix of `glm_euler_yzx` -/
theorem C18_yzx (a : V3 ℝ) :
    (glm_euler_yzx_quat a).quat = (qy a.y).quat * (qz a.z).quat * (qx a.x).quat ∧
    ‖(glm_euler_yzx_quat a).quat‖ = 1 ∧ glm_quat_mat4 (glm_euler_yzx_quat a) = glm_euler_yzx a := by
  have e : glm_euler_yzx_quat a = glm_quat_mul (glm_quat_mul (qy a.y) (qz a.z)) (qx a.x) := by
    have h : ∀ t : ℝ, t * 0.5 = t / 2 := by intro t; norm_num; ring
    ext <;> simp [cglm, qy, qz, qx, h] <;> ring
  have hu : ‖(glm_quat_mul (qy a.y) (qz a.z)).quat‖ = 1 := by
    rw [C08_mul, norm_mul, qy_unit, qz_unit, one_mul]
  refine ⟨by rw [e, C08_mul, C08_mul], by rw [e, C08_mul, norm_mul, hu, qx_unit, one_mul], ?_⟩
  rw [(C16_yzx a).2, C09_mat4]
  congr 1
  rw [← M3.mat_inj, (C16_yzx a).1, e, C09_mat3_mul _ _ hu (qx_unit _), C09_mat3_mul _ _ (qy_unit _) (qz_unit _),
    qy_mat, qz_mat, qx_mat]

/-- order zxy: the product of the axis quaternions, a unit quaternion, with the matrix of `glm_euler_zxy` -/
theorem C18_zxy (a : V3 ℝ) :
    (glm_euler_zxy_quat a).quat = (qz a.z).quat * (qx a.x).quat * (qy a.y).quat ∧
    ‖(glm_euler_zxy_quat a).quat‖ = 1 ∧ glm_quat_mat4 (glm_euler_zxy_quat a) = glm_euler_zxy a := by
  have e : glm_euler_zxy_quat a = glm_quat_mul (glm_quat_mul (qz a.z) (qx a.x)) (qy a.y) := by
    have h : ∀ t : ℝ, t * 0.5 = t / 2 := by intro t; norm_num; ring
    ext <;> simp [cglm, qz, qx, qy, h] <;> ring
  have hu : ‖(glm_quat_mul (qz a.z) (qx a.x)).quat‖ = 1 := by
    rw [C08_mul, norm_mul, qz_unit, qx_unit, one_mul]
  refine ⟨by rw [e, C08_mul, C08_mul], by rw [e, C08_mul, norm_mul, hu, qy_unit, one_mul], ?_⟩
  rw [(C16_zxy a).2, C09_mat4]
  congr 1
  rw [← M3.mat_inj, (C16_zxy a).1, e, C09_mat3_mul _ _ hu (qy_unit _), C09_mat3_mul _ _ (qz_unit _) (qx_unit _),
    qz_mat, qx_mat, qy_mat]

/-- order zyx: the product of the axis quaternions, a unit quaternion, with the matrix of `glm_euler_zyx` -/
theorem C18_zyx (a : V3 ℝ) :
    (glm_euler_zyx_quat a).quat = (qz a.z).quat * (qy a.y).quat * (qx a.x).quat ∧
    ‖(glm_euler_zyx_quat a).quat‖ = 1 ∧ glm_quat_mat4 (glm_euler_zyx_quat a) = glm_euler_zyx a := by
  have e : glm_euler_zyx_quat a = glm_quat_mul (glm_quat_mul (qz a.z) (qy a.y)) (qx a.x) := by
    have h : ∀ t : ℝ, t * 0.5 = t / 2 := by intro t; norm_num; ring
    ext <;> simp [cglm, qz, qy, qx, h] <;> ring
  have hu : ‖(glm_quat_mul (qz a.z) (qy a.y)).quat‖ = 1 := by
    rw [C08_mul, norm_mul, qz_unit, qy_unit, one_mul]
  refine ⟨by rw [e, C08_mul, C08_mul], by rw [e, C08_mul, norm_mul, hu, qx_unit, one_mul], ?_⟩
  rw [(C16_zyx a).2, C09_mat4]
  congr 1
  rw [← M3.mat_inj, (C16_zyx a).1, e, C09_mat3_mul _ _ hu (qx_unit _), C09_mat3_mul _ _ (qz_unit _) (qy_unit _),
    qz_mat, qy_mat, qx_mat]

/-- the left-handed variants are the right-handed ones with the z angle negated -/
theorem C18_lh (a : V3 ℝ) :
    glm_euler_xyz_quat_lh a = glm_euler_xyz_quat_rh ⟨a.x, a.y, -a.z⟩ ∧
    glm_euler_xzy_quat_lh a = glm_euler_xzy_quat_rh ⟨a.x, a.y, -a.z⟩ ∧
    glm_euler_yxz_quat_lh a = glm_euler_yxz_quat_rh ⟨a.x, a.y, -a.z⟩ ∧
    glm_euler_yzx_quat_lh a = glm_euler_yzx_quat_rh ⟨a.x, a.y, -a.z⟩ ∧
    glm_euler_zxy_quat_lh a = glm_euler_zxy_quat_rh ⟨a.x, a.y, -a.z⟩ ∧
    glm_euler_zyx_quat_lh a = glm_euler_zyx_quat_rh ⟨a.x, a.y, -a.z⟩ := by
  refine ⟨?_, ?_, ?_, ?_, ?_, ?_⟩ <;> ext <;> simp [cglm, neg_mul]

/-- so in a left-handed build the quaternion and the matrix of the same angles differ -/
theorem C18_lh_disagrees : ∃ a : V3 ℝ, glm_quat_mat4 (glm_euler_xyz_quat_lh a) ≠ glm_euler_xyz a := by
  refine ⟨⟨0, 0, Real.pi / 2⟩, ?_⟩
  rw [(C18_lh _).1]
  have h := (C18_xyz ⟨0, 0, -(Real.pi / 2)⟩).2.2
  have h' : glm_euler_xyz_quat (⟨0, 0, -(Real.pi / 2)⟩ : V3 ℝ) = glm_euler_xyz_quat_rh ⟨0, 0, -(Real.pi / 2)⟩ := rfl
  rw [h'] at h
  simp only [] at h ⊢
  rw [h]
  intro e
  have := congrArg (fun m => m.c0.y) e
  simp [glm_euler_xyz, cglm] at this
  norm_num at this

end Cglm
