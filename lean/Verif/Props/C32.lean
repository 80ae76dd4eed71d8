import Verif.Props.C04
import Verif.Props.C27

/-! # C32: projection to the window and back -/

namespace Cglm

/-- window coordinates of a point in normalized device coordinates, viewport `(x, y, width, height)` -/
noncomputable def window (vp : V4 ℝ) (n : V3 ℝ) (depth : ℝ) : V3 ℝ :=
  ⟨vp.x + vp.z * ((n.x + 1) / 2), vp.y + vp.w * ((n.y + 1) / 2), depth⟩

theorem clipv_mulv (m : M4 ℝ) (p : V3 ℝ) : clipv m p = (glm_mat4_mulv m (p.hom 1)).vec := by
  rw [C01_mat4_mulv]; rfl
theorem half_lit' : (lit 0.5 : ℝ) = 1 / 2 := by simp only [lit_scientific]; norm_num

theorem C32_project_no (p : V3 ℝ) (m : M4 ℝ) (vp : V4 ℝ) :
    glm_project_no p m vp = window vp (ndc m p) (((ndc m p).z + 1) / 2) := by
  unfold ndc window
  rw [clipv_mulv]
  have : glm_vec4 p (lit 1) = p.hom 1 := by simp [cglm, V3.hom]
  unfold glm_project_no
  dsimp only
  rw [this]
  generalize glm_mat4_mulv m (p.hom 1) = c
  obtain ⟨x, y, z, w⟩ := c
  ext <;> simp only [V4.vec, cglm, half_lit'] <;> simp <;> ring
theorem C32_project_zo (p : V3 ℝ) (m : M4 ℝ) (vp : V4 ℝ) :
    glm_project_zo p m vp = window vp (ndc m p) (ndc m p).z := by
  unfold ndc window
  rw [clipv_mulv]
  have : glm_vec4 p (lit 1) = p.hom 1 := by simp [cglm, V3.hom]
  unfold glm_project_zo
  dsimp only
  rw [this]
  generalize glm_mat4_mulv m (p.hom 1) = c
  obtain ⟨x, y, z, w⟩ := c
  ext <;> simp only [V4.vec, cglm, half_lit'] <;> simp <;> ring

theorem C32_project_z_no (p : V3 ℝ) (m : M4 ℝ) (vp : V4 ℝ) : glm_project_z_no p m = (glm_project_no p m vp).z := by
  rw [C32_project_no]
  simp [window, ndc, clipv, M4.mat, V3.hom, V4.vec, Matrix.mulVec, dotProduct, Fin.sum_univ_succ, cglm, half_lit']
  ring
theorem C32_project_z_zo (p : V3 ℝ) (m : M4 ℝ) (vp : V4 ℝ) : glm_project_z_zo p m = (glm_project_zo p m vp).z := by
  rw [C32_project_zo]
  simp [window, ndc, clipv, M4.mat, V3.hom, V4.vec, Matrix.mulVec, dotProduct, Fin.sum_univ_succ, cglm]
  ring

/-- applying a left inverse to normalized device coordinates gives back the point, divided by clip w -/
theorem inv_ndc (m inv : M4 ℝ) (hi : inv.mat * m.mat = 1) (p : V3 ℝ) (hw : clipv m p 3 ≠ 0) :
    glm_mat4_mulv inv ((ndc m p).hom 1) = (p.hom 1).smul (1 / clipv m p 3) := by
  rw [← V4.vec_inj, C01_mat4_mulv]
  have h1 : ((ndc m p).hom 1).vec = (1 / clipv m p 3) • clipv m p := by
    ext i; fin_cases i <;> simp [ndc, V3.hom, V4.vec] <;> field_simp
  have h2 : ((p.hom 1).smul (1 / clipv m p 3)).vec = (1 / clipv m p 3) • (p.hom 1).vec := by
    ext i; fin_cases i <;> simp [V4.smul, V3.hom, V4.vec]
  rw [h1, h2, Matrix.mulVec_smul]
  congr 1
  unfold clipv
  rw [Matrix.mulVec_mulVec, hi, Matrix.one_mulVec]

theorem C32_unproject_no (m inv : M4 ℝ) (hi : inv.mat * m.mat = 1) (p : V3 ℝ) (vp : V4 ℝ) (hw : clipv m p 3 ≠ 0)
    (hz : vp.z ≠ 0) (hh : vp.w ≠ 0) : glm_unprojecti_no (glm_project_no p m vp) inv vp = p := by
  rw [C32_project_no]
  unfold glm_unprojecti_no
  have : (⟨lit 2 * ((window vp (ndc m p) (((ndc m p).z + 1) / 2)).x - vp.x) / vp.z - lit 1,
      lit 2 * ((window vp (ndc m p) (((ndc m p).z + 1) / 2)).y - vp.y) / vp.w - lit 1,
      lit 2 * (window vp (ndc m p) (((ndc m p).z + 1) / 2)).z - lit 1, lit 1⟩ : V4 ℝ) = (ndc m p).hom 1 := by
    ext <;> simp [window, V3.hom, cglm] <;> field_simp <;> ring
  rw [this, inv_ndc m inv hi p hw]
  generalize clipv m p 3 = w at *
  ext <;> simp [V4.smul, V3.hom, cglm] <;> field_simp
theorem C32_unproject_zo (m inv : M4 ℝ) (hi : inv.mat * m.mat = 1) (p : V3 ℝ) (vp : V4 ℝ) (hw : clipv m p 3 ≠ 0)
    (hz : vp.z ≠ 0) (hh : vp.w ≠ 0) : glm_unprojecti_zo (glm_project_zo p m vp) inv vp = p := by
  rw [C32_project_zo]
  unfold glm_unprojecti_zo
  have : (⟨lit 2 * ((window vp (ndc m p) (ndc m p).z).x - vp.x) / vp.z - lit 1,
      lit 2 * ((window vp (ndc m p) (ndc m p).z).y - vp.y) / vp.w - lit 1,
      (window vp (ndc m p) (ndc m p).z).z, lit 1⟩ : V4 ℝ) = (ndc m p).hom 1 := by
    ext <;> simp [window, V3.hom, cglm] <;> field_simp <;> ring
  rw [this, inv_ndc m inv hi p hw]
  generalize clipv m p 3 = w at *
  ext <;> simp [V4.smul, V3.hom, cglm] <;> field_simp

/-- the public entry point, which inverts the matrix itself -/
theorem C32_unproject (m : M4 ℝ) (hd : m.mat.det ≠ 0) (p : V3 ℝ) (vp : V4 ℝ) (hw : clipv m p 3 ≠ 0)
    (hz : vp.z ≠ 0) (hh : vp.w ≠ 0) : glm_unproject (glm_project p m vp) m vp = p :=
  C32_unproject_no m _ (C04_mat4_inv m hd).2 p vp hw hz hh

/-- the clip-space vector whose preimage un-projection computes -/
noncomputable def unwindow (vp : V4 ℝ) (q : V3 ℝ) (depth : ℝ) : V3 ℝ :=
  ⟨2 * (q.x - vp.x) / vp.z - 1, 2 * (q.y - vp.y) / vp.w - 1, depth⟩

/-- the other direction: projecting an un-projected window point gives it back -/
theorem proj_inv (m inv : M4 ℝ) (hi : m.mat * inv.mat = 1) (n : V3 ℝ) (hw : (glm_mat4_mulv inv (n.hom 1)).w ≠ 0) :
    ndc m (glm_vec3 (glm_vec4_scale (glm_mat4_mulv inv (n.hom 1)) (lit 1 / (glm_mat4_mulv inv (n.hom 1)).w))) = n ∧
    clipv m (glm_vec3 (glm_vec4_scale (glm_mat4_mulv inv (n.hom 1)) (lit 1 / (glm_mat4_mulv inv (n.hom 1)).w))) 3 =
      1 / (glm_mat4_mulv inv (n.hom 1)).w := by
  have hv : m.mat.mulVec (glm_mat4_mulv inv (n.hom 1)).vec = (n.hom 1).vec := by
    rw [C01_mat4_mulv, Matrix.mulVec_mulVec, hi, Matrix.one_mulVec]
  generalize glm_mat4_mulv inv (n.hom 1) = q at *
  have hc : clipv m (glm_vec3 (glm_vec4_scale q (lit 1 / q.w))) = (1 / q.w) • (n.hom 1).vec := by
    rw [← hv, ← Matrix.mulVec_smul]
    unfold clipv
    congr 1
    ext i; fin_cases i <;> simp [cglm, V3.hom, V4.vec] <;> field_simp
  unfold ndc
  rw [hc]
  constructor
  · ext <;> simp [V3.hom, V4.vec] <;> field_simp
  · simp [V3.hom, V4.vec]

theorem C32_project_unproject_no (m inv : M4 ℝ) (hi : m.mat * inv.mat = 1) (q : V3 ℝ) (vp : V4 ℝ)
    (hz : vp.z ≠ 0) (hh : vp.w ≠ 0) (hw : inv.mat.mulVec ((unwindow vp q (2 * q.z - 1)).hom 1).vec 3 ≠ 0) :
    glm_project_no (glm_unprojecti_no q inv vp) m vp = q := by
  rw [← C01_mat4_mulv] at hw
  rw [C32_project_no]
  unfold glm_unprojecti_no
  have : (⟨lit 2 * (q.x - vp.x) / vp.z - lit 1, lit 2 * (q.y - vp.y) / vp.w - lit 1, lit 2 * q.z - lit 1, lit 1⟩ : V4 ℝ) =
      (unwindow vp q (2 * q.z - 1)).hom 1 := by
    ext <;> simp [unwindow, V3.hom, cglm]
  rw [this, (proj_inv m inv hi _ (by simpa [V4.vec] using hw)).1]
  ext <;> simp [window, unwindow] <;> field_simp <;> ring
theorem C32_project_unproject_zo (m inv : M4 ℝ) (hi : m.mat * inv.mat = 1) (q : V3 ℝ) (vp : V4 ℝ)
    (hz : vp.z ≠ 0) (hh : vp.w ≠ 0) (hw : inv.mat.mulVec ((unwindow vp q q.z).hom 1).vec 3 ≠ 0) :
    glm_project_zo (glm_unprojecti_zo q inv vp) m vp = q := by
  rw [← C01_mat4_mulv] at hw
  rw [C32_project_zo]
  unfold glm_unprojecti_zo
  have : (⟨lit 2 * (q.x - vp.x) / vp.z - lit 1, lit 2 * (q.y - vp.y) / vp.w - lit 1, q.z, lit 1⟩ : V4 ℝ) =
      (unwindow vp q q.z).hom 1 := by
    ext <;> simp [unwindow, V3.hom, cglm]
  rw [this, (proj_inv m inv hi _ (by simpa [V4.vec] using hw)).1]
  ext <;> simp [window, unwindow] <;> field_simp <;> ring

theorem C32_variants (p : V3 ℝ) (m : M4 ℝ) (vp : V4 ℝ) :
    glm_project p m vp = glm_project_no p m vp ∧ glm_unprojecti p m vp = glm_unprojecti_no p m vp ∧
    glm_project_z p m = glm_project_z_no p m := ⟨rfl, rfl, rfl⟩

/-- a perspective projection of a point in front of the camera meets the hypotheses -/
example : clipv (glm_frustum_rh_no (-1) 1 (-1) 1 1 2) ⟨0, 0, -1⟩ 3 ≠ 0 ∧ (glm_frustum_rh_no (-1) 1 (-1) 1 1 2 : M4 ℝ).mat.det ≠ 0 := by
  constructor
  · simp [clipv, M4.mat, V3.hom, V4.vec, Matrix.mulVec, dotProduct, Fin.sum_univ_succ, cglm]
  · rw [← C03_mat4_det]
    simp [cglm]
    norm_num

end Cglm
