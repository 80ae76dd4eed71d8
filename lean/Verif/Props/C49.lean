import Verif.Props.C48
import Mathlib.LinearAlgebra.CrossProduct
import Mathlib.Data.Matrix.Mul

/-! # C49: dot and cross products -/

namespace Cglm
open Matrix

/-! agreement with Mathlib's products -/
theorem C49_dot2 (a b : V2 ℝ) : glm_vec2_dot a b = a.vec ⬝ᵥ b.vec := by simp [cglm, V2.vec, dotProduct, Fin.sum_univ_succ]
theorem C49_dot3 (a b : V3 ℝ) : glm_vec3_dot a b = a.vec ⬝ᵥ b.vec := by simp [cglm, V3.vec, dotProduct, Fin.sum_univ_succ]; ring
theorem C49_dot4 (a b : V4 ℝ) : glm_vec4_dot a b = a.vec ⬝ᵥ b.vec := by simp [cglm, V4.vec, dotProduct, Fin.sum_univ_succ]; ring
theorem C49_cross3 (a b : V3 ℝ) : (glm_vec3_cross a b).vec = crossProduct a.vec b.vec := by
  rw [cross_apply]; simp [cglm, V3.vec]
/-- the 2D cross product is the determinant of the two vectors -/
theorem C49_cross2 (a b : V2 ℝ) : glm_vec2_cross a b = Matrix.det !![a.x, b.x; a.y, b.y] := by
  rw [Matrix.det_fin_two_of]; simp only [cglm]; ring
theorem C49_wrappers (a b : V3 ℝ) : glm_dot a b = glm_vec3_dot a b ∧ glm_cross a b = glm_vec3_cross a b := ⟨rfl, rfl⟩

/-! symmetry and bilinearity -/
theorem C49_dot2_comm (a b : V2 ℝ) : glm_vec2_dot a b = glm_vec2_dot b a := by simp only [cglm]; ring
theorem C49_dot3_comm (a b : V3 ℝ) : glm_vec3_dot a b = glm_vec3_dot b a := by simp only [cglm]; ring
theorem C49_dot4_comm (a b : V4 ℝ) : glm_vec4_dot a b = glm_vec4_dot b a := by simp only [cglm]; ring
theorem C49_dot2_linear (a b c : V2 ℝ) (s : ℝ) : glm_vec2_dot (glm_vec2_add (glm_vec2_scale a s) b) c = s * glm_vec2_dot a c + glm_vec2_dot b c := by
  simp only [cglm]; ring
theorem C49_dot3_linear (a b c : V3 ℝ) (s : ℝ) : glm_vec3_dot (glm_vec3_add (glm_vec3_scale a s) b) c = s * glm_vec3_dot a c + glm_vec3_dot b c := by
  simp only [cglm]; ring
theorem C49_dot4_linear (a b c : V4 ℝ) (s : ℝ) : glm_vec4_dot (glm_vec4_add (glm_vec4_scale a s) b) c = s * glm_vec4_dot a c + glm_vec4_dot b c := by
  simp only [cglm]; ring
theorem C49_cross2_anti (a b : V2 ℝ) : glm_vec2_cross a b = -glm_vec2_cross b a := by simp only [cglm]; ring
theorem C49_cross_anti (a b : V3 ℝ) : glm_vec3_cross a b = glm_vec3_negate_to (glm_vec3_cross b a) := by
  ext <;> simp only [cglm] <;> ring
theorem C49_cross_self (a : V3 ℝ) : glm_vec3_cross a a = ⟨0, 0, 0⟩ := by ext <;> simp only [cglm] <;> ring
theorem C49_cross_linear (a b c : V3 ℝ) (s : ℝ) :
    glm_vec3_cross (glm_vec3_add (glm_vec3_scale a s) b) c = glm_vec3_add (glm_vec3_scale (glm_vec3_cross a c) s) (glm_vec3_cross b c) := by
  ext <;> simp only [cglm] <;> ring

/-! identities -/
theorem C49_cross_orthogonal (a b : V3 ℝ) : glm_vec3_dot (glm_vec3_cross a b) a = 0 ∧ glm_vec3_dot (glm_vec3_cross a b) b = 0 := by
  constructor <;> simp only [cglm] <;> ring
theorem C49_triple (a b c : V3 ℝ) : glm_vec3_dot a (glm_vec3_cross b c) = glm_vec3_dot b (glm_vec3_cross c a) := by simp only [cglm]; ring
/-- the triple product is the determinant of the matrix with these columns -/
theorem C49_triple_det (a b c : V3 ℝ) : glm_vec3_dot a (glm_vec3_cross b c) = (M3.mk a b c).mat.det := by
  rw [Matrix.det_fin_three]; simp [cglm, M3.mat]; ring
theorem C49_lagrange (a b : V3 ℝ) : glm_vec3_norm2 (glm_vec3_cross a b) + glm_vec3_dot a b ^ 2 = glm_vec3_norm2 a * glm_vec3_norm2 b := by
  simp only [cglm]; ring
theorem C49_jacobi (a b c : V3 ℝ) : glm_vec3_add (glm_vec3_add (glm_vec3_cross a (glm_vec3_cross b c)) (glm_vec3_cross b (glm_vec3_cross c a)))
    (glm_vec3_cross c (glm_vec3_cross a b)) = ⟨0, 0, 0⟩ := by ext <;> simp only [cglm] <;> ring
theorem C49_bac_cab (a b c : V3 ℝ) : glm_vec3_cross a (glm_vec3_cross b c) =
    glm_vec3_sub (glm_vec3_scale b (glm_vec3_dot a c)) (glm_vec3_scale c (glm_vec3_dot a b)) := by ext <;> simp only [cglm] <;> ring

/-- crossn: the unit normal of the two vectors, orthogonal to both and right-handed, unless they are nearly parallel -/
theorem C49_crossn (a b : V3 ℝ) (h : FLT_EPSILON ≤ (a.cross b).len) : (glm_vec3_crossn a b).len = 1 ∧
    (glm_vec3_crossn a b).dot a = 0 ∧ (glm_vec3_crossn a b).dot b = 0 ∧ 0 < (M3.mk a b (glm_vec3_crossn a b)).mat.det := by
  have hp : 0 < (a.cross b).len := lt_of_lt_of_le FLT_EPSILON_pos h
  obtain ⟨h1, ⟨k, hk, e⟩, -⟩ := C48_vec3_normalize (a.cross b) h
  have e' : glm_vec3_crossn a b = (a.cross b).smul k := by unfold glm_vec3_crossn; rw [glm_vec3_cross_eq]; exact e
  refine ⟨?_, ?_, ?_, ?_⟩
  · unfold glm_vec3_crossn; rw [glm_vec3_cross_eq]; exact h1
  · rw [e']; simp only [V3.dot, V3.smul, V3.cross]; ring
  · rw [e']; simp only [V3.dot, V3.smul, V3.cross]; ring
  · have hd : (M3.mk a b ((a.cross b).smul k)).mat.det = k * ((a.cross b).len * (a.cross b).len) := by
      rw [Matrix.det_fin_three, V3.len_sq]; simp [M3.mat, V3.smul, V3.dot, V3.cross]; ring
    rw [e', hd]; positivity
example : FLT_EPSILON ≤ ((⟨2, 0, 0⟩ : V3 ℝ).cross ⟨1, 1, 0⟩).len := by
  rw [show ((⟨2, 0, 0⟩ : V3 ℝ).cross ⟨1, 1, 0⟩).len = 2 by
    unfold V3.len V3.dot V3.cross; rw [show (2 : ℝ) = √(2 ^ 2) by rw [Real.sqrt_sq]; norm_num]; congr 1; norm_num]
  norm_num [FLT_EPSILON]
theorem C49_crossn_parallel (a b : V3 ℝ) (h : (a.cross b).len < FLT_EPSILON) : glm_vec3_crossn a b = ⟨0, 0, 0⟩ := by
  unfold glm_vec3_crossn; rw [glm_vec3_cross_eq]; exact (C48_vec3_normalize_small _ h).1

/-- angle: for two non-zero vectors it is the angle between them (the clamped branches never change it over ℝ) -/
theorem C49_angle (a b : V3 ℝ) (ha : a ≠ ⟨0, 0, 0⟩) (hb : b ≠ ⟨0, 0, 0⟩) :
    glm_vec3_angle a b = Real.arccos (a.dot b / (a.len * b.len)) ∧ a.dot b = a.len * b.len * Real.cos (glm_vec3_angle a b) := by
  have h1 : 0 < a.len := lt_of_le_of_ne a.len_nonneg (fun e => ha (V3.len_eq_zero.mp e.symm))
  have h2 : 0 < b.len := lt_of_le_of_ne b.len_nonneg (fun e => hb (V3.len_eq_zero.mp e.symm))
  have hc := V3.cauchy a b
  have hc' : -(a.len * b.len) ≤ a.dot b := by
    have := V3.cauchy (a.smul (-1)) b
    rw [V3.len_smul] at this; norm_num at this
    have e : (a.smul (-1)).dot b = -a.dot b := by simp only [V3.dot, V3.smul]; ring
    rw [e] at this; linarith
  have l1 : a.dot b / (a.len * b.len) ≤ 1 := by rw [div_le_one (by positivity)]; exact hc
  have l2 : -1 ≤ a.dot b / (a.len * b.len) := by rw [le_div_iff₀ (by positivity)]; linarith
  have e : glm_vec3_angle a b = Real.arccos (a.dot b / (a.len * b.len)) := by
    unfold glm_vec3_angle
    simp only [glm_vec3_norm_eq, glm_vec3_dot_eq, lit_one, flt_real, decide_eq_true_eq, mul_one_div, not_lt.mpr l1, not_lt.mpr l2, if_false, acosf_real]
  refine ⟨e, ?_⟩
  rw [e, Real.cos_arccos l2 l1]; field_simp
example : (⟨1, 2, 3⟩ : V3 ℝ) ≠ ⟨0, 0, 0⟩ := by simp
theorem C49_angle_right (a b : V3 ℝ) (ha : a ≠ ⟨0, 0, 0⟩) (hb : b ≠ ⟨0, 0, 0⟩) : glm_vec3_angle a b = Real.pi / 2 ↔ a.dot b = 0 := by
  have h1 : 0 < a.len := lt_of_le_of_ne a.len_nonneg (fun e => ha (V3.len_eq_zero.mp e.symm))
  have h2 : 0 < b.len := lt_of_le_of_ne b.len_nonneg (fun e => hb (V3.len_eq_zero.mp e.symm))
  rw [(C49_angle a b ha hb).1, Real.arccos_eq_pi_div_two, div_eq_zero_iff]
  constructor
  · rintro (h | h)
    · exact h
    · exact absurd h (by positivity)
  · exact .inl

end Cglm
