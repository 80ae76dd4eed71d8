import Verif.Props.C02
import Mathlib.LinearAlgebra.Matrix.Determinant.Basic

/-! # C03: determinants -/

namespace Cglm

theorem C03_mat2_det (m : M2 ℝ) : glm_mat2_det m = m.mat.det := by
  simp [cglm, M2.mat, Matrix.det_fin_two]
theorem C03_mat3_det (m : M3 ℝ) : glm_mat3_det m = m.mat.det := by
  simp [cglm, M3.mat, Matrix.det_fin_three]; ring
theorem C03_mat4_det (m : M4 ℝ) : glm_mat4_det m = m.mat.det := by
  rw [Matrix.det_succ_column_zero]
  simp [cglm, M4.mat, Fin.sum_univ_succ, Matrix.det_fin_three, Matrix.submatrix, Fin.succAbove]
  ring

theorem C03_det_mul (a b : M2 ℝ) (c d : M3 ℝ) (e f : M4 ℝ) :
    glm_mat2_det (glm_mat2_mul a b) = glm_mat2_det a * glm_mat2_det b ∧
    glm_mat3_det (glm_mat3_mul c d) = glm_mat3_det c * glm_mat3_det d ∧
    glm_mat4_det (glm_mat4_mul e f) = glm_mat4_det e * glm_mat4_det f := by
  simp only [C03_mat2_det, C03_mat3_det, C03_mat4_det, C01_mat2_mul, C01_mat3_mul, C01_mat4_mul, Matrix.det_mul, and_self]

theorem C03_det_transpose (a : M2 ℝ) (c : M3 ℝ) (e : M4 ℝ) :
    glm_mat2_det (glm_mat2_transpose a) = glm_mat2_det a ∧
    glm_mat3_det (glm_mat3_transpose c) = glm_mat3_det c ∧
    glm_mat4_det (glm_mat4_transpose e) = glm_mat4_det e := by
  simp only [C03_mat2_det, C03_mat3_det, C03_mat4_det, C02_mat2_transpose, C02_mat3_transpose, C02_mat4_transpose,
    Matrix.det_transpose, and_self]

theorem C03_det_identity : glm_mat2_det (glm_mat2_identity : M2 ℝ) = 1 ∧ glm_mat3_det (glm_mat3_identity : M3 ℝ) = 1 ∧
    glm_mat4_det (glm_mat4_identity : M4 ℝ) = 1 := by
  simp only [C03_mat2_det, C03_mat3_det, C03_mat4_det, C02_mat2_identity, C02_mat3_identity, C02_mat4_identity,
    Matrix.det_one, and_self]

example : glm_mat2_det (⟨⟨1, 2⟩, ⟨3, 4⟩⟩ : M2 ℝ) = -2 := by simp [cglm]; norm_num

end Cglm
