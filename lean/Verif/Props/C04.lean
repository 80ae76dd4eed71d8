import Verif.Props.C03
import Mathlib.LinearAlgebra.Matrix.NonsingularInverse

/-! # C04: inverses -/

namespace Cglm

/-- for a non-singular matrix the result is a two-sided inverse -/
theorem C04_mat2_inv (m : M2 ℝ) (h : m.mat.det ≠ 0) :
    m.mat * (glm_mat2_inv m).mat = 1 ∧ (glm_mat2_inv m).mat * m.mat = 1 := by
  have key : m.mat * (glm_mat2_inv m).mat = 1 := by
    rw [← C03_mat2_det] at h
    obtain ⟨⟨a, b⟩, ⟨c, d⟩⟩ := m
    simp only [cglm] at h ⊢
    have hx : 1 / (a * d - b * c) * (a * d - c * b) = 1 := by
      rw [show a * d - b * c = a * d - c * b by ring]; field_simp
    generalize 1 / (a * d - b * c) = x at *
    mat_entries <;> first | linear_combination hx | ring
  exact ⟨key, mul_eq_one_comm.mp key⟩

theorem C04_mat3_inv (m : M3 ℝ) (h : m.mat.det ≠ 0) :
    m.mat * (glm_mat3_inv m).mat = 1 ∧ (glm_mat3_inv m).mat * m.mat = 1 := by
  have key : m.mat * (glm_mat3_inv m).mat = 1 := by
    rw [← C03_mat3_det] at h
    obtain ⟨⟨a, b, c⟩, ⟨d, e, f⟩, ⟨g, i, j⟩⟩ := m
    simp only [cglm] at h ⊢
    have hx : 1 / (a * (e * j - f * i) - b * (d * j - g * f) + c * (d * i - g * e)) *
        (a * (e * j - f * i) - b * (d * j - g * f) + c * (d * i - g * e)) = 1 :=
      one_div_mul_cancel (by convert h using 1; ring)
    generalize 1 / (a * (e * j - f * i) - b * (d * j - g * f) + c * (d * i - g * e)) = x at *
    mat_entries <;> first | linear_combination hx | ring
  exact ⟨key, mul_eq_one_comm.mp key⟩

theorem C04_mat4_inv (m : M4 ℝ) (h : m.mat.det ≠ 0) :
    m.mat * (glm_mat4_inv m).mat = 1 ∧ (glm_mat4_inv m).mat * m.mat = 1 := by
  have key : m.mat * (glm_mat4_inv m).mat = 1 := by
    rw [← C03_mat4_det] at h
    obtain ⟨⟨a, b, c, d⟩, ⟨e, f, g, h'⟩, ⟨i, j, k, l⟩, ⟨m, n, o, p⟩⟩ := m
    simp only [cglm] at h ⊢
    have hx := one_div_mul_cancel (a := (a * f - b * e) * (k * p - l * o) + (a * h' - d * e) * (j * o - k * n) +
      (b * g - c * f) * (i * p - l * m) + (c * h' - d * g) * (i * n - j * m) - (a * g - c * e) * (j * p - l * n) -
      (b * h' - d * f) * (i * o - k * m)) (by convert h using 1; ring)
    generalize 1 / ((a * f - b * e) * (k * p - l * o) + (a * h' - d * e) * (j * o - k * n) +
      (b * g - c * f) * (i * p - l * m) + (c * h' - d * g) * (i * n - j * m) - (a * g - c * e) * (j * p - l * n) -
      (b * h' - d * f) * (i * o - k * m)) = x at *
    mat_entries <;> first | linear_combination hx | ring
  exact ⟨key, mul_eq_one_comm.mp key⟩

/-- the fast variant is the same function of the exact inputs (scalar build) -/
theorem C04_mat4_inv_fast (m : M4 ℝ) (h : m.mat.det ≠ 0) :
    m.mat * (glm_mat4_inv_fast m).mat = 1 ∧ (glm_mat4_inv_fast m).mat * m.mat = 1 := C04_mat4_inv m h

/-- the results are Mathlib's inverse matrix: there is no other two-sided inverse -/
theorem C04_inv_unique (a : M2 ℝ) (b : M3 ℝ) (c : M4 ℝ) :
    (a.mat.det ≠ 0 → (glm_mat2_inv a).mat = a.mat⁻¹) ∧ (b.mat.det ≠ 0 → (glm_mat3_inv b).mat = b.mat⁻¹) ∧
      (c.mat.det ≠ 0 → (glm_mat4_inv c).mat = c.mat⁻¹) :=
  ⟨fun h => (Matrix.inv_eq_right_inv (C04_mat2_inv a h).1).symm, fun h => (Matrix.inv_eq_right_inv (C04_mat3_inv b h).1).symm,
    fun h => (Matrix.inv_eq_right_inv (C04_mat4_inv c h).1).symm⟩

/-- the inverse of a product is the product of the inverses in the other order -/
theorem C04_mat4_inv_mul (a b : M4 ℝ) (ha : a.mat.det ≠ 0) (hb : b.mat.det ≠ 0) :
    glm_mat4_inv (glm_mat4_mul a b) = glm_mat4_mul (glm_mat4_inv b) (glm_mat4_inv a) := by
  have hab : (glm_mat4_mul a b).mat.det ≠ 0 := by rw [C01_mat4_mul, Matrix.det_mul]; exact mul_ne_zero ha hb
  rw [← M4.mat_inj, (C04_inv_unique ⟨⟨0, 0⟩, ⟨0, 0⟩⟩ ⟨⟨0, 0, 0⟩, ⟨0, 0, 0⟩, ⟨0, 0, 0⟩⟩ _).2.2 hab, C01_mat4_mul, C01_mat4_mul,
    Matrix.mul_inv_rev, (C04_inv_unique ⟨⟨0, 0⟩, ⟨0, 0⟩⟩ ⟨⟨0, 0, 0⟩, ⟨0, 0, 0⟩, ⟨0, 0, 0⟩⟩ a).2.2 ha,
    (C04_inv_unique ⟨⟨0, 0⟩, ⟨0, 0⟩⟩ ⟨⟨0, 0, 0⟩, ⟨0, 0, 0⟩, ⟨0, 0, 0⟩⟩ b).2.2 hb]

/-- a matrix that meets the hypotheses, and its inverse -/
example : (⟨⟨1, 2⟩, ⟨3, 4⟩⟩ : M2 ℝ).mat.det ≠ 0 ∧ glm_mat2_inv (⟨⟨1, 2⟩, ⟨3, 4⟩⟩ : M2 ℝ) = ⟨⟨-2, 1⟩, ⟨3 / 2, -1 / 2⟩⟩ := by
  constructor
  · rw [← C03_mat2_det]; simp [cglm]; norm_num
  · simp [cglm]; norm_num
example : (⟨⟨2, 0, 0, 0⟩, ⟨0, 3, 0, 0⟩, ⟨0, 0, 4, 0⟩, ⟨1, 2, 3, 1⟩⟩ : M4 ℝ).mat.det ≠ 0 := by
  rw [← C03_mat4_det]; simp [cglm]

end Cglm
