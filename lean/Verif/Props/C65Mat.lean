import Verif.F32Order
import Verif.F32Norm
import Verif.Gen
/-!
# C65: floating-point edge behaviour of the matrix functions

`M4.Feq` is entrywise C `==`, so `-0` and `+0` count as equal.
Written by `tools/edgethms.py`.
-/
open Cglm F32
namespace Cglm
set_option linter.unusedSectionVars false
variable [Libm]

/-! ### mat2 -/

/-- transposing twice restores every bit -/
theorem C65_mat2_transpose_transpose (a : M2 F32) : glm_mat2_transpose (glm_mat2_transpose a) = a := by
  simp only [cglm]

/-- `(AB)ᵀ = BᵀAᵀ` holds bit for bit in binary32 -/
theorem C65_mat2_transpose_mul (a b : M2 F32) :
    glm_mat2_transpose (glm_mat2_mul a b) = glm_mat2_mul (glm_mat2_transpose b) (glm_mat2_transpose a) := by
  ext <;> simp only [cglm] <;> simp only [mul_comm']

/-- products with the identity change no value of a finite matrix -/
theorem C65_mat2_mul_identity (a : M2 F32) (h : a.IsFin) : (glm_mat2_mul a glm_mat2_identity).Feq a := by
  obtain ⟨⟨h0x, h0y⟩, ⟨h1x, h1y⟩⟩ := h
  simp only [cglm, M2.Feq, V2.Feq]
  refine ⟨⟨?_, ?_⟩, ⟨?_, ?_⟩⟩ <;> refine Has.eq (by exact_has) (Has.of (by assumption)) (by simp)

theorem C65_mat2_identity_mul (a : M2 F32) (h : a.IsFin) : (glm_mat2_mul glm_mat2_identity a).Feq a := by
  obtain ⟨⟨h0x, h0y⟩, ⟨h1x, h1y⟩⟩ := h
  simp only [cglm, M2.Feq, V2.Feq]
  refine ⟨⟨?_, ?_⟩, ⟨?_, ?_⟩⟩ <;> refine Has.eq (by exact_has) (Has.of (by assumption)) (by simp)

theorem C65_mat2_identity_mulv (v : V2 F32) (h : v.IsFin) : (glm_mat2_mulv glm_mat2_identity v).Feq v := by
  obtain ⟨hx, hy⟩ := h
  simp only [cglm, V2.Feq]
  refine ⟨?_, ?_⟩ <;> refine Has.eq (by exact_has) (Has.of (by assumption)) (by simp)

/-- an infinite component does not survive: the other components become NaN -/
theorem C65_mat2_identity_mulv_inf_fails : ∃ v : V2 F32, v.x = inf false ∧ v.y = zero false ∧
    (glm_mat2_mulv glm_mat2_identity v).x = inf false ∧ (glm_mat2_mulv glm_mat2_identity v).y = nan := by
  refine ⟨⟨inf false, zero false⟩, rfl, rfl, ?_⟩
  simp only [cglm, lit_f32]
  decide +kernel

/-! ### mat3 -/

/-- transposing twice restores every bit -/
theorem C65_mat3_transpose_transpose (a : M3 F32) : glm_mat3_transpose (glm_mat3_transpose a) = a := by
  simp only [cglm]

/-- `(AB)ᵀ = BᵀAᵀ` holds bit for bit in binary32 -/
theorem C65_mat3_transpose_mul (a b : M3 F32) :
    glm_mat3_transpose (glm_mat3_mul a b) = glm_mat3_mul (glm_mat3_transpose b) (glm_mat3_transpose a) := by
  ext <;> simp only [cglm] <;> simp only [mul_comm']

/-- products with the identity change no value of a finite matrix -/
theorem C65_mat3_mul_identity (a : M3 F32) (h : a.IsFin) : (glm_mat3_mul a glm_mat3_identity).Feq a := by
  obtain ⟨⟨h0x, h0y, h0z⟩, ⟨h1x, h1y, h1z⟩, ⟨h2x, h2y, h2z⟩⟩ := h
  simp only [cglm, M3.Feq, V3.Feq]
  refine ⟨⟨?_, ?_, ?_⟩, ⟨?_, ?_, ?_⟩, ⟨?_, ?_, ?_⟩⟩ <;> refine Has.eq (by exact_has) (Has.of (by assumption)) (by simp)

theorem C65_mat3_identity_mul (a : M3 F32) (h : a.IsFin) : (glm_mat3_mul glm_mat3_identity a).Feq a := by
  obtain ⟨⟨h0x, h0y, h0z⟩, ⟨h1x, h1y, h1z⟩, ⟨h2x, h2y, h2z⟩⟩ := h
  simp only [cglm, M3.Feq, V3.Feq]
  refine ⟨⟨?_, ?_, ?_⟩, ⟨?_, ?_, ?_⟩, ⟨?_, ?_, ?_⟩⟩ <;> refine Has.eq (by exact_has) (Has.of (by assumption)) (by simp)

theorem C65_mat3_identity_mulv (v : V3 F32) (h : v.IsFin) : (glm_mat3_mulv glm_mat3_identity v).Feq v := by
  obtain ⟨hx, hy, hz⟩ := h
  simp only [cglm, V3.Feq]
  refine ⟨?_, ?_, ?_⟩ <;> refine Has.eq (by exact_has) (Has.of (by assumption)) (by simp)

/-- an infinite component does not survive: the other components become NaN -/
theorem C65_mat3_identity_mulv_inf_fails : ∃ v : V3 F32, v.x = inf false ∧ v.y = zero false ∧
    (glm_mat3_mulv glm_mat3_identity v).x = inf false ∧ (glm_mat3_mulv glm_mat3_identity v).y = nan := by
  refine ⟨⟨inf false, zero false, zero false⟩, rfl, rfl, ?_⟩
  simp only [cglm, lit_f32]
  decide +kernel

/-! ### mat4 -/

/-- transposing twice restores every bit -/
theorem C65_mat4_transpose_transpose (a : M4 F32) : glm_mat4_transpose (glm_mat4_transpose a) = a := by
  simp only [cglm]

/-- `(AB)ᵀ = BᵀAᵀ` holds bit for bit in binary32 -/
theorem C65_mat4_transpose_mul (a b : M4 F32) :
    glm_mat4_transpose (glm_mat4_mul a b) = glm_mat4_mul (glm_mat4_transpose b) (glm_mat4_transpose a) := by
  ext <;> simp only [cglm] <;> simp only [mul_comm']

/-- products with the identity change no value of a finite matrix -/
theorem C65_mat4_mul_identity (a : M4 F32) (h : a.IsFin) : (glm_mat4_mul a glm_mat4_identity).Feq a := by
  obtain ⟨⟨h0x, h0y, h0z, h0w⟩, ⟨h1x, h1y, h1z, h1w⟩, ⟨h2x, h2y, h2z, h2w⟩, ⟨h3x, h3y, h3z, h3w⟩⟩ := h
  simp only [cglm, M4.Feq, V4.Feq]
  refine ⟨⟨?_, ?_, ?_, ?_⟩, ⟨?_, ?_, ?_, ?_⟩, ⟨?_, ?_, ?_, ?_⟩, ⟨?_, ?_, ?_, ?_⟩⟩ <;> refine Has.eq (by exact_has) (Has.of (by assumption)) (by simp)

theorem C65_mat4_identity_mul (a : M4 F32) (h : a.IsFin) : (glm_mat4_mul glm_mat4_identity a).Feq a := by
  obtain ⟨⟨h0x, h0y, h0z, h0w⟩, ⟨h1x, h1y, h1z, h1w⟩, ⟨h2x, h2y, h2z, h2w⟩, ⟨h3x, h3y, h3z, h3w⟩⟩ := h
  simp only [cglm, M4.Feq, V4.Feq]
  refine ⟨⟨?_, ?_, ?_, ?_⟩, ⟨?_, ?_, ?_, ?_⟩, ⟨?_, ?_, ?_, ?_⟩, ⟨?_, ?_, ?_, ?_⟩⟩ <;> refine Has.eq (by exact_has) (Has.of (by assumption)) (by simp)

theorem C65_mat4_identity_mulv (v : V4 F32) (h : v.IsFin) : (glm_mat4_mulv glm_mat4_identity v).Feq v := by
  obtain ⟨hx, hy, hz, hw⟩ := h
  simp only [cglm, V4.Feq]
  refine ⟨?_, ?_, ?_, ?_⟩ <;> refine Has.eq (by exact_has) (Has.of (by assumption)) (by simp)

/-- an infinite component does not survive: the other components become NaN -/
theorem C65_mat4_identity_mulv_inf_fails : ∃ v : V4 F32, v.x = inf false ∧ v.y = zero false ∧
    (glm_mat4_mulv glm_mat4_identity v).x = inf false ∧ (glm_mat4_mulv glm_mat4_identity v).y = nan := by
  refine ⟨⟨inf false, zero false, zero false, zero false⟩, rfl, rfl, ?_⟩
  simp only [cglm, lit_f32]
  decide +kernel

/-- multiplication of finite matrices is not associative in binary32 -/
theorem C65_mat2_mul_assoc_fails : ∃ a b c : M2 F32, a.IsFin ∧ b.IsFin ∧ c.IsFin ∧
    ¬ (glm_mat2_mul (glm_mat2_mul a b) c).Feq (glm_mat2_mul a (glm_mat2_mul b c)) := by
  refine ⟨⟨⟨.ofRat false 1, .ofRat false 0⟩, ⟨.ofRat false 1, .ofRat false 1⟩⟩,
    ⟨⟨.ofRat false 1, .ofRat false (1 / 2 ^ 24)⟩, ⟨.ofRat false 0, .ofRat false 1⟩⟩,
    ⟨⟨.ofRat false 1, .ofRat false (1 / 2 ^ 24)⟩, ⟨.ofRat false 0, .ofRat false 1⟩⟩, ?_, ?_, ?_, ?_⟩
  · simp only [M2.IsFin, V2.IsFin]; decide +kernel
  · simp only [M2.IsFin, V2.IsFin]; decide +kernel
  · simp only [M2.IsFin, V2.IsFin]; decide +kernel
  · simp only [cglm, M2.Feq, V2.Feq]
    decide +kernel

end Cglm
