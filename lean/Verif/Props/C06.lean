import Verif.Props.C01

/-! # C06: row * matrix * column -/

namespace Cglm
open Matrix

theorem C06_mat2_rmc (r c : V2 ℝ) (m : M2 ℝ) : glm_mat2_rmc r m c = r.vec ⬝ᵥ m.mat *ᵥ c.vec := by
  rw [← C01_mat2_mulv]; simp [glm_mat2_rmc, glm_vec2_dot, V2.vec, dotProduct, Fin.sum_univ_succ]
theorem C06_mat3_rmc (r c : V3 ℝ) (m : M3 ℝ) : glm_mat3_rmc r m c = r.vec ⬝ᵥ m.mat *ᵥ c.vec := by
  rw [← C01_mat3_mulv]; simp [glm_mat3_rmc, glm_vec3_dot, V3.vec, dotProduct, Fin.sum_univ_succ]; ring
theorem C06_mat4_rmc (r c : V4 ℝ) (m : M4 ℝ) : glm_mat4_rmc r m c = r.vec ⬝ᵥ m.mat *ᵥ c.vec := by
  rw [← C01_mat4_mulv]; simp [glm_mat4_rmc, glm_vec4_dot, V4.vec, dotProduct, Fin.sum_univ_succ]; ring

example : glm_mat2_rmc (⟨1, 2⟩ : V2 ℝ) ⟨⟨1, 2⟩, ⟨3, 4⟩⟩ ⟨5, 6⟩ = 91 := by simp [cglm]; norm_num

end Cglm
