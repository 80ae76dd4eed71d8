import Verif.MatTac

/-! # C01: matrix products are the linear-algebra products and act by composition -/

namespace Cglm

theorem C01_mat2_mul (a b : M2 ℝ) : (glm_mat2_mul a b).mat = a.mat * b.mat := by mat_ring
theorem C01_mat3_mul (a b : M3 ℝ) : (glm_mat3_mul a b).mat = a.mat * b.mat := by mat_ring
theorem C01_mat4_mul (a b : M4 ℝ) : (glm_mat4_mul a b).mat = a.mat * b.mat := by mat_ring

theorem C01_mat2_mulv (a : M2 ℝ) (v : V2 ℝ) : (glm_mat2_mulv a v).vec = a.mat.mulVec v.vec := by vec_ring
theorem C01_mat3_mulv (a : M3 ℝ) (v : V3 ℝ) : (glm_mat3_mulv a v).vec = a.mat.mulVec v.vec := by vec_ring
theorem C01_mat4_mulv (a : M4 ℝ) (v : V4 ℝ) : (glm_mat4_mulv a v).vec = a.mat.mulVec v.vec := by vec_ring

/-- `glm_mat4_mulv3(m, v, last)` is the first three components of `m * (v, last)`. -/
theorem C01_mat4_mulv3 (a : M4 ℝ) (v : V3 ℝ) (last : ℝ) (i : Fin 3) :
    (glm_mat4_mulv3 a v last).vec i = a.mat.mulVec ![v.x, v.y, v.z, last] i.castSucc := by
  fin_cases i <;>
    simp [M4.mat, V3.vec, Matrix.mulVec, dotProduct, Fin.sum_univ_succ, cglm] <;> ring

/-- applying a product is applying the factors in turn, right factor first -/
theorem C01_mat2_compose (a b : M2 ℝ) (v : V2 ℝ) :
    glm_mat2_mulv (glm_mat2_mul a b) v = glm_mat2_mulv a (glm_mat2_mulv b v) := by
  rw [← V2.vec_inj]; simp only [C01_mat2_mulv, C01_mat2_mul, Matrix.mulVec_mulVec]
theorem C01_mat3_compose (a b : M3 ℝ) (v : V3 ℝ) :
    glm_mat3_mulv (glm_mat3_mul a b) v = glm_mat3_mulv a (glm_mat3_mulv b v) := by
  rw [← V3.vec_inj]; simp only [C01_mat3_mulv, C01_mat3_mul, Matrix.mulVec_mulVec]
theorem C01_mat4_compose (a b : M4 ℝ) (v : V4 ℝ) :
    glm_mat4_mulv (glm_mat4_mul a b) v = glm_mat4_mulv a (glm_mat4_mulv b v) := by
  rw [← V4.vec_inj]; simp only [C01_mat4_mulv, C01_mat4_mul, Matrix.mulVec_mulVec]

theorem C01_mat2_assoc (a b c : M2 ℝ) : glm_mat2_mul (glm_mat2_mul a b) c = glm_mat2_mul a (glm_mat2_mul b c) := by
  rw [← M2.mat_inj]; simp only [C01_mat2_mul, Matrix.mul_assoc]
theorem C01_mat3_assoc (a b c : M3 ℝ) : glm_mat3_mul (glm_mat3_mul a b) c = glm_mat3_mul a (glm_mat3_mul b c) := by
  rw [← M3.mat_inj]; simp only [C01_mat3_mul, Matrix.mul_assoc]
theorem C01_mat4_assoc (a b c : M4 ℝ) : glm_mat4_mul (glm_mat4_mul a b) c = glm_mat4_mul a (glm_mat4_mul b c) := by
  rw [← M4.mat_inj]; simp only [C01_mat4_mul, Matrix.mul_assoc]

/-! Rectangular products; `mat2x3` is two columns of three, so the product has the shape of its result type. -/

theorem C01_mat2x3_mul (a : M2x3 ℝ) (b : M3x2 ℝ) : (glm_mat2x3_mul a b).mat = a.mat * b.mat := by mat_ring
theorem C01_mat2x4_mul (a : M2x4 ℝ) (b : M4x2 ℝ) : (glm_mat2x4_mul a b).mat = a.mat * b.mat := by mat_ring
theorem C01_mat3x2_mul (a : M3x2 ℝ) (b : M2x3 ℝ) : (glm_mat3x2_mul a b).mat = a.mat * b.mat := by mat_ring
theorem C01_mat3x4_mul (a : M3x4 ℝ) (b : M4x3 ℝ) : (glm_mat3x4_mul a b).mat = a.mat * b.mat := by mat_ring
theorem C01_mat4x2_mul (a : M4x2 ℝ) (b : M2x4 ℝ) : (glm_mat4x2_mul a b).mat = a.mat * b.mat := by mat_ring
theorem C01_mat4x3_mul (a : M4x3 ℝ) (b : M3x4 ℝ) : (glm_mat4x3_mul a b).mat = a.mat * b.mat := by mat_ring
theorem C01_mat2x3_mulv (a : M2x3 ℝ) (v : V2 ℝ) : (glm_mat2x3_mulv a v).vec = a.mat.mulVec v.vec := by vec_ring
theorem C01_mat2x4_mulv (a : M2x4 ℝ) (v : V2 ℝ) : (glm_mat2x4_mulv a v).vec = a.mat.mulVec v.vec := by vec_ring
theorem C01_mat3x2_mulv (a : M3x2 ℝ) (v : V3 ℝ) : (glm_mat3x2_mulv a v).vec = a.mat.mulVec v.vec := by vec_ring
theorem C01_mat3x4_mulv (a : M3x4 ℝ) (v : V3 ℝ) : (glm_mat3x4_mulv a v).vec = a.mat.mulVec v.vec := by vec_ring
theorem C01_mat4x2_mulv (a : M4x2 ℝ) (v : V4 ℝ) : (glm_mat4x2_mulv a v).vec = a.mat.mulVec v.vec := by vec_ring
theorem C01_mat4x3_mulv (a : M4x3 ℝ) (v : V4 ℝ) : (glm_mat4x3_mulv a v).vec = a.mat.mulVec v.vec := by vec_ring

/-- the product does not commute: a concrete case where the operand order matters -/
example : glm_mat2_mul (⟨⟨0, 1⟩, ⟨-1, 0⟩⟩ : M2 ℝ) ⟨⟨2, 0⟩, ⟨0, 3⟩⟩ = ⟨⟨0, 2⟩, ⟨-3, 0⟩⟩ ∧
    glm_mat2_mul (⟨⟨2, 0⟩, ⟨0, 3⟩⟩ : M2 ℝ) ⟨⟨0, 1⟩, ⟨-1, 0⟩⟩ = ⟨⟨0, 3⟩, ⟨-2, 0⟩⟩ := by
  simp [cglm]

end Cglm
