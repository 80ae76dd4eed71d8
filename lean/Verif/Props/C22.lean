import Verif.Props.C20
import Verif.Props.C04

/-! # C22: the inverse of a rigid transform -/

namespace Cglm

/-- rotation and translation: the rigid transforms -/
def M4.Rigid (m : M4 ℝ) : Prop := m.block.IsRotation ∧ m.Affine
/-- orthonormal 3x3 block (reflections allowed) and affine -/
def M4.Isometry (m : M4 ℝ) : Prop := m.block.mat ∈ Matrix.orthogonalGroup (Fin 3) ℝ ∧ m.Affine

theorem M4.Rigid.isometry {m : M4 ℝ} (h : m.Rigid) : m.Isometry :=
  ⟨(Matrix.mem_specialOrthogonalGroup_iff.mp h.1).1, h.2⟩

theorem C22_inv_left (m : M4 ℝ) (h : m.Isometry) : (glm_inv_tr m).mat * m.mat = 1 := by
  obtain ⟨ho, h0, h1, h2, h3⟩ := h
  rw [Matrix.mem_orthogonalGroup_iff'] at ho
  have e := fun i j => congrFun (congrFun ho i) j
  have e00 := e 0 0; have e01 := e 0 1; have e02 := e 0 2; have e11 := e 1 1; have e12 := e 1 2; have e22 := e 2 2
  simp [M3.mat, M4.block, Matrix.mul_apply, Fin.sum_univ_succ] at e00 e01 e02 e11 e12 e22
  ext i j
  fin_cases i <;> fin_cases j <;>
    simp [M4.mat, Matrix.mul_apply, Fin.sum_univ_succ, cglm, h0, h1, h2, h3] <;>
    linarith
theorem C22_inv_right (m : M4 ℝ) (h : m.Isometry) : m.mat * (glm_inv_tr m).mat = 1 :=
  mul_eq_one_comm.mp (C22_inv_left m h)
/-- it agrees with the general inverse -/
theorem C22_eq_inv (m : M4 ℝ) (h : m.Isometry) : glm_inv_tr m = glm_mat4_inv m := by
  have hd : m.mat.det ≠ 0 := by
    intro h0
    have := congrArg Matrix.det (C22_inv_left m h)
    rw [Matrix.det_mul, h0] at this
    simp at this
  have := (C04_mat4_inv m hd).1
  rw [← M4.mat_inj, ← mul_one (glm_inv_tr m).mat, ← this, ← mul_assoc, C22_inv_left m h, one_mul]
/-- the result is rigid again and inverting twice gives back the matrix -/
theorem C22_rigid (m : M4 ℝ) (h : m.Rigid) : (glm_inv_tr m).Rigid := by
  obtain ⟨hr, h0, h1, h2, h3⟩ := h
  constructor
  · have : (glm_inv_tr m).block.mat = m.block.mat.transpose := by
      ext i j; fin_cases i <;> fin_cases j <;> simp [M3.mat, M4.block, cglm]
    unfold M3.IsRotation
    rw [this]
    have hr' := Matrix.mem_specialOrthogonalGroup_iff.mp hr
    rw [Matrix.mem_specialOrthogonalGroup_iff, Matrix.det_transpose]
    refine ⟨?_, hr'.2⟩
    rw [Matrix.mem_orthogonalGroup_iff]
    have := hr'.1
    rw [Matrix.mem_orthogonalGroup_iff'] at this
    simpa [Matrix.star_eq_conjTranspose] using this
  · refine ⟨?_, ?_, ?_, ?_⟩ <;> simp [cglm, h0, h1, h2, h3]
theorem C22_involution (m : M4 ℝ) (h : m.Rigid) : glm_inv_tr (glm_inv_tr m) = m := by
  have h1 := C22_inv_left _ (C22_rigid m h).isometry
  have h2 := C22_inv_left m h.isometry
  rw [← M4.mat_inj, ← mul_one (glm_inv_tr (glm_inv_tr m)).mat, ← h2, ← mul_assoc, h1, one_mul]

/-- a quarter turn about z with a translation is rigid -/
example : (⟨⟨0, 1, 0, 0⟩, ⟨-1, 0, 0, 0⟩, ⟨0, 0, 1, 0⟩, ⟨5, 6, 7, 1⟩⟩ : M4 ℝ).Rigid := by
  refine ⟨?_, rfl, rfl, rfl, rfl⟩
  rw [M3.IsRotation, Matrix.mem_specialOrthogonalGroup_iff, Matrix.mem_orthogonalGroup_iff]
  constructor
  · ext i j
    fin_cases i <;> fin_cases j <;> simp [M4.block, M3.mat, Matrix.mul_apply, Fin.sum_univ_succ]
  · simp [M4.block, M3.mat, Matrix.det_fin_three]

end Cglm
