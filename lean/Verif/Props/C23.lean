import Verif.MatTac
import Verif.Lemmas
import Verif.Gen.AffineMat

/-! # C23: fast products of affine matrices -/

namespace Cglm

/-- the shape `glm_mul` assumes of its right operand: last row (0,0,0,·) -/
theorem C23_mul (m1 m2 : M4 ℝ) (h0 : m2.c0.w = 0) (h1 : m2.c1.w = 0) (h2 : m2.c2.w = 0) :
    (glm_mul m1 m2).mat = m1.mat * m2.mat := by
  ext i j
  fin_cases i <;> fin_cases j <;> simp [M4.mat, Matrix.mul_apply, Fin.sum_univ_succ, cglm, h0, h1, h2] <;> ring
theorem C23_mul_affine (m1 m2 : M4 ℝ) (h : m2.Affine) : glm_mul m1 m2 = glm_mat4_mul m1 m2 := by
  obtain ⟨h0, h1, h2, -⟩ := h
  ext <;> simp [cglm, h0, h1, h2]
/-- conversely the shape is needed: if the products agree for every left operand, the right operand has it -/
theorem C23_mul_shape (m2 : M4 ℝ) (h : ∀ m1, glm_mul m1 m2 = glm_mat4_mul m1 m2) :
    m2.c0.w = 0 ∧ m2.c1.w = 0 ∧ m2.c2.w = 0 := by
  have e := h ⟨⟨0, 0, 0, 0⟩, ⟨0, 0, 0, 0⟩, ⟨0, 0, 0, 0⟩, ⟨1, 0, 0, 0⟩⟩
  simp [cglm] at e
  exact ⟨e.1.symm, e.2.1.symm, e.2.2.symm⟩

/-- the shape `glm_mul_rot` assumes of its right operand: a 3x3 block and no translation -/
theorem C23_mul_rot (m1 : M4 ℝ) (r : M3 ℝ) : (glm_mul_rot m1 r.toM4).mat = m1.mat * r.toM4.mat := by
  ext i j
  fin_cases i <;> fin_cases j <;> simp [M4.mat, M3.toM4, Matrix.mul_apply, Fin.sum_univ_succ, cglm] <;> ring
theorem C23_mul_rot_eq (m1 : M4 ℝ) (r : M3 ℝ) : glm_mul_rot m1 r.toM4 = glm_mat4_mul m1 r.toM4 := by
  ext <;> simp [cglm, M3.toM4]
theorem C23_mul_rot_shape (m2 : M4 ℝ) (h : ∀ m1, glm_mul_rot m1 m2 = glm_mat4_mul m1 m2) : m2 = m2.block.toM4 := by
  have e := h ⟨⟨0, 0, 0, 0⟩, ⟨0, 0, 0, 0⟩, ⟨0, 0, 0, 0⟩, ⟨1, 0, 0, 0⟩⟩
  have e0 := h ⟨⟨1, 0, 0, 0⟩, ⟨0, 1, 0, 0⟩, ⟨0, 0, 1, 0⟩, ⟨0, 0, 0, 0⟩⟩
  simp [cglm] at e e0
  obtain ⟨a0, a1, a2, a3⟩ := e
  obtain ⟨b0, b1, b2⟩ := e0
  ext <;> simp [M4.block, M3.toM4, ← a0, ← a1, ← a2, ← a3, ← b0, ← b1, ← b2]
/-- the translation column of the right operand is ignored -/
theorem C23_mul_rot_ignores (m1 m2 : M4 ℝ) : glm_mul_rot m1 m2 = glm_mul_rot m1 ⟨m2.c0, m2.c1, m2.c2, ⟨0, 0, 0, 1⟩⟩ := rfl

example : (⟨⟨1, 2, 3, 0⟩, ⟨4, 5, 6, 0⟩, ⟨7, 8, 9, 0⟩, ⟨10, 11, 12, 1⟩⟩ : M4 ℝ).Affine := ⟨rfl, rfl, rfl, rfl⟩
example : glm_mul (⟨⟨1, 2, 3, 4⟩, ⟨0, 1, 0, 0⟩, ⟨0, 0, 1, 0⟩, ⟨5, 6, 7, 8⟩⟩ : M4 ℝ)
    ⟨⟨2, 0, 0, 0⟩, ⟨0, 3, 0, 0⟩, ⟨0, 0, 4, 0⟩, ⟨1, 1, 1, 1⟩⟩ = ⟨⟨2, 4, 6, 8⟩, ⟨0, 3, 0, 0⟩, ⟨0, 0, 4, 0⟩, ⟨6, 9, 11, 12⟩⟩ := by
  ext <;> norm_num [cglm]

end Cglm
