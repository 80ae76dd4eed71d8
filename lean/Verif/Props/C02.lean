import Verif.Props.C01

/-! # C02: identity, zero, transpose, scale, copy, make -/

namespace Cglm

theorem C02_mat2_identity : (glm_mat2_identity : M2 ℝ).mat = 1 := by mat_entries
theorem C02_mat3_identity : (glm_mat3_identity : M3 ℝ).mat = 1 := by mat_entries
theorem C02_mat4_identity : (glm_mat4_identity : M4 ℝ).mat = 1 := by mat_entries

theorem C02_mat2_identity_mul (m : M2 ℝ) :
    glm_mat2_mul glm_mat2_identity m = m ∧ glm_mat2_mul m glm_mat2_identity = m := by
  simp only [← M2.mat_inj, C01_mat2_mul, C02_mat2_identity, one_mul, mul_one, and_self]
theorem C02_mat3_identity_mul (m : M3 ℝ) :
    glm_mat3_mul glm_mat3_identity m = m ∧ glm_mat3_mul m glm_mat3_identity = m := by
  simp only [← M3.mat_inj, C01_mat3_mul, C02_mat3_identity, one_mul, mul_one, and_self]
theorem C02_mat4_identity_mul (m : M4 ℝ) :
    glm_mat4_mul glm_mat4_identity m = m ∧ glm_mat4_mul m glm_mat4_identity = m := by
  simp only [← M4.mat_inj, C01_mat4_mul, C02_mat4_identity, one_mul, mul_one, and_self]
theorem C02_mat2_identity_mulv (v : V2 ℝ) : glm_mat2_mulv glm_mat2_identity v = v := by
  simp only [← V2.vec_inj, C01_mat2_mulv, C02_mat2_identity, Matrix.one_mulVec]
theorem C02_mat3_identity_mulv (v : V3 ℝ) : glm_mat3_mulv glm_mat3_identity v = v := by
  simp only [← V3.vec_inj, C01_mat3_mulv, C02_mat3_identity, Matrix.one_mulVec]
theorem C02_mat4_identity_mulv (v : V4 ℝ) : glm_mat4_mulv glm_mat4_identity v = v := by
  simp only [← V4.vec_inj, C01_mat4_mulv, C02_mat4_identity, Matrix.one_mulVec]

theorem C02_mat2_zero : (glm_mat2_zero : M2 ℝ).mat = 0 := by mat_entries
theorem C02_mat3_zero : (glm_mat3_zero : M3 ℝ).mat = 0 := by mat_entries
theorem C02_mat4_zero : (glm_mat4_zero : M4 ℝ).mat = 0 := by mat_entries
theorem C02_mat2x3_zero : (glm_mat2x3_zero : M2x3 ℝ).mat = 0 := by mat_entries
theorem C02_mat2x4_zero : (glm_mat2x4_zero : M2x4 ℝ).mat = 0 := by mat_entries
theorem C02_mat3x2_zero : (glm_mat3x2_zero : M3x2 ℝ).mat = 0 := by mat_entries
theorem C02_mat3x4_zero : (glm_mat3x4_zero : M3x4 ℝ).mat = 0 := by mat_entries
theorem C02_mat4x2_zero : (glm_mat4x2_zero : M4x2 ℝ).mat = 0 := by mat_entries
theorem C02_mat4x3_zero : (glm_mat4x3_zero : M4x3 ℝ).mat = 0 := by mat_entries

/-! Transpose: exact for every scalar type, so these are stated over an arbitrary one. -/

section generic
variable {α : Type}


theorem C02_mat2_transpose_to (m : M2 α) : (glm_mat2_transpose_to m).mat = m.mat.transpose := by mat_entries
theorem C02_mat2_transpose (m : M2 α) : (glm_mat2_transpose m).mat = m.mat.transpose := by mat_entries
theorem C02_mat3_transpose_to (m : M3 α) : (glm_mat3_transpose_to m).mat = m.mat.transpose := by mat_entries
theorem C02_mat3_transpose (m : M3 α) : (glm_mat3_transpose m).mat = m.mat.transpose := by mat_entries
theorem C02_mat4_transpose_to (m : M4 α) : (glm_mat4_transpose_to m).mat = m.mat.transpose := by mat_entries
theorem C02_mat4_transpose (m : M4 α) : (glm_mat4_transpose m).mat = m.mat.transpose := by mat_entries
theorem C02_mat2x3_transpose (m : M2x3 α) : (glm_mat2x3_transpose m).mat = m.mat.transpose := by mat_entries
theorem C02_mat2x4_transpose (m : M2x4 α) : (glm_mat2x4_transpose m).mat = m.mat.transpose := by mat_entries
theorem C02_mat3x2_transpose (m : M3x2 α) : (glm_mat3x2_transpose m).mat = m.mat.transpose := by mat_entries
theorem C02_mat3x4_transpose (m : M3x4 α) : (glm_mat3x4_transpose m).mat = m.mat.transpose := by mat_entries
theorem C02_mat4x2_transpose (m : M4x2 α) : (glm_mat4x2_transpose m).mat = m.mat.transpose := by mat_entries
theorem C02_mat4x3_transpose (m : M4x3 α) : (glm_mat4x3_transpose m).mat = m.mat.transpose := by mat_entries

/-- transposing twice gives the matrix back, for every scalar type -/
theorem C02_transpose_involutive (a : M2 α) (b : M3 α) (c : M4 α) :
    glm_mat2_transpose (glm_mat2_transpose a) = a ∧ glm_mat3_transpose (glm_mat3_transpose b) = b ∧
      glm_mat4_transpose (glm_mat4_transpose c) = c := by
  simp [cglm]

theorem C02_copy (a : M2 α) (b : M3 α) (c : M4 α) (d : M2x3 α) (e : M2x4 α) (f : M3x2 α) (g : M3x4 α) (h : M4x2 α)
    (i : M4x3 α) :
    glm_mat2_copy a = a ∧ glm_mat3_copy b = b ∧ glm_mat4_copy c = c ∧ glm_mat4_ucopy c = c ∧ glm_mat2x3_copy d = d ∧
      glm_mat2x4_copy e = e ∧ glm_mat3x2_copy f = f ∧ glm_mat3x4_copy g = g ∧ glm_mat4x2_copy h = h ∧
      glm_mat4x3_copy i = i := by
  simp [cglm]

/-- `make` reads the buffer column by column: entry (r, c) is element `c * rows + r`. -/
theorem C02_mat2_make (s : V4 α) : (glm_mat2_make s).mat = !![s.x, s.z; s.y, s.w] := by mat_entries
theorem C02_mat3_make (s : V9 α) :
    (glm_mat3_make s).mat = Matrix.of fun r c => ![s.e0, s.e1, s.e2, s.e3, s.e4, s.e5, s.e6, s.e7, s.e8]
      (Fin.ofNat 9 (c.val * 3 + r.val)) := by mat_entries <;> rfl
theorem C02_mat4_make (s : V16 α) :
    (glm_mat4_make s).mat = Matrix.of fun r c => ![s.e0, s.e1, s.e2, s.e3, s.e4, s.e5, s.e6, s.e7, s.e8, s.e9, s.e10,
      s.e11, s.e12, s.e13, s.e14, s.e15] (Fin.ofNat 16 (c.val * 4 + r.val)) := by mat_entries <;> rfl
theorem C02_mat2x3_make (s : V6 α) :
    (glm_mat2x3_make s).mat = Matrix.of fun r c => ![s.e0, s.e1, s.e2, s.e3, s.e4, s.e5]
      (Fin.ofNat 6 (c.val * 3 + r.val)) := by mat_entries <;> rfl
theorem C02_mat3x2_make (s : V6 α) :
    (glm_mat3x2_make s).mat = Matrix.of fun r c => ![s.e0, s.e1, s.e2, s.e3, s.e4, s.e5]
      (Fin.ofNat 6 (c.val * 2 + r.val)) := by mat_entries <;> rfl
theorem C02_mat2x4_make (s : V8 α) :
    (glm_mat2x4_make s).mat = Matrix.of fun r c => ![s.e0, s.e1, s.e2, s.e3, s.e4, s.e5, s.e6, s.e7]
      (Fin.ofNat 8 (c.val * 4 + r.val)) := by mat_entries <;> rfl
theorem C02_mat4x2_make (s : V8 α) :
    (glm_mat4x2_make s).mat = Matrix.of fun r c => ![s.e0, s.e1, s.e2, s.e3, s.e4, s.e5, s.e6, s.e7]
      (Fin.ofNat 8 (c.val * 2 + r.val)) := by mat_entries <;> rfl
theorem C02_mat3x4_make (s : V12 α) :
    (glm_mat3x4_make s).mat = Matrix.of fun r c => ![s.e0, s.e1, s.e2, s.e3, s.e4, s.e5, s.e6, s.e7, s.e8, s.e9, s.e10,
      s.e11] (Fin.ofNat 12 (c.val * 4 + r.val)) := by mat_entries <;> rfl
theorem C02_mat4x3_make (s : V12 α) :
    (glm_mat4x3_make s).mat = Matrix.of fun r c => ![s.e0, s.e1, s.e2, s.e3, s.e4, s.e5, s.e6, s.e7, s.e8, s.e9, s.e10,
      s.e11] (Fin.ofNat 12 (c.val * 3 + r.val)) := by mat_entries <;> rfl
end generic

/-- transposition reverses products -/
theorem C02_mat2_transpose_mul (a b : M2 ℝ) : glm_mat2_transpose (glm_mat2_mul a b) =
    glm_mat2_mul (glm_mat2_transpose b) (glm_mat2_transpose a) := by
  simp only [← M2.mat_inj, C01_mat2_mul, C02_mat2_transpose, Matrix.transpose_mul]
theorem C02_mat3_transpose_mul (a b : M3 ℝ) : glm_mat3_transpose (glm_mat3_mul a b) =
    glm_mat3_mul (glm_mat3_transpose b) (glm_mat3_transpose a) := by
  simp only [← M3.mat_inj, C01_mat3_mul, C02_mat3_transpose, Matrix.transpose_mul]
theorem C02_mat4_transpose_mul (a b : M4 ℝ) : glm_mat4_transpose (glm_mat4_mul a b) =
    glm_mat4_mul (glm_mat4_transpose b) (glm_mat4_transpose a) := by
  simp only [← M4.mat_inj, C01_mat4_mul, C02_mat4_transpose, Matrix.transpose_mul]

theorem C02_mat2_scale (m : M2 ℝ) (s : ℝ) : (glm_mat2_scale m s).mat = s • m.mat := by mat_ring
theorem C02_mat3_scale (m : M3 ℝ) (s : ℝ) : (glm_mat3_scale m s).mat = s • m.mat := by mat_ring
theorem C02_mat4_scale (m : M4 ℝ) (s : ℝ) : (glm_mat4_scale m s).mat = s • m.mat := by mat_ring
theorem C02_mat4_scale_p (m : M4 ℝ) (s : ℝ) : (glm_mat4_scale_p m s).mat = s • m.mat := by mat_ring
theorem C02_mat2x3_scale (m : M2x3 ℝ) (s : ℝ) : (glm_mat2x3_scale m s).mat = s • m.mat := by mat_ring
theorem C02_mat2x4_scale (m : M2x4 ℝ) (s : ℝ) : (glm_mat2x4_scale m s).mat = s • m.mat := by mat_ring
theorem C02_mat3x2_scale (m : M3x2 ℝ) (s : ℝ) : (glm_mat3x2_scale m s).mat = s • m.mat := by mat_ring
theorem C02_mat3x4_scale (m : M3x4 ℝ) (s : ℝ) : (glm_mat3x4_scale m s).mat = s • m.mat := by mat_ring
theorem C02_mat4x2_scale (m : M4x2 ℝ) (s : ℝ) : (glm_mat4x2_scale m s).mat = s • m.mat := by mat_ring
theorem C02_mat4x3_scale (m : M4x3 ℝ) (s : ℝ) : (glm_mat4x3_scale m s).mat = s • m.mat := by mat_ring

example : glm_mat2_transpose (⟨⟨1, 2⟩, ⟨3, 4⟩⟩ : M2 ℝ) = ⟨⟨1, 3⟩, ⟨2, 4⟩⟩ := by simp [cglm]

end Cglm
