import Verif.Lemmas

/-! # C08: quaternion algebra, against Mathlib's `Quaternion ℝ` -/

namespace Cglm
open Quaternion

/-- the product is the Hamilton product -/
theorem C08_mul (p q : V4 ℝ) : (glm_quat_mul p q).quat = p.quat * q.quat := by
  ext <;> simp [cglm] <;> ring
theorem C08_add (p q : V4 ℝ) : (glm_quat_add p q).quat = p.quat + q.quat := by
  ext <;> simp [cglm]
theorem C08_sub (p q : V4 ℝ) : (glm_quat_sub p q).quat = p.quat - q.quat := by
  ext <;> simp [cglm]
theorem C08_conjugate (q : V4 ℝ) : (glm_quat_conjugate q).quat = star q.quat := by
  ext <;> simp [cglm]
theorem C08_identity : (glm_quat_identity : V4 ℝ).quat = 1 := by
  ext <;> simp [cglm]
theorem C08_init (x y z w : ℝ) : (glm_quat_init x y z w).quat = ⟨w, x, y, z⟩ := rfl
theorem C08_make (x y z w : ℝ) : (glm_quat_make ⟨x, y, z, w⟩).quat = ⟨w, x, y, z⟩ := rfl
theorem C08_real_imag (q : V4 ℝ) : glm_quat_real q = q.quat.re ∧
    glm_quat_imag q = ⟨q.quat.imI, q.quat.imJ, q.quat.imK⟩ := ⟨rfl, rfl⟩
theorem C08_norm (q : V4 ℝ) : glm_quat_norm q = ‖q.quat‖ := by
  rw [V4.norm_quat, ← glm_vec4_norm_eq]; rfl
theorem C08_dot (p q : V4 ℝ) : glm_quat_dot p q = (p.quat * star q.quat).re := by
  simp [cglm]; ring
theorem C08_imaglen (q : V4 ℝ) : glm_quat_imaglen q = ‖q.quat.im‖ := by
  have : q.quat.im = (⟨q.x, q.y, q.z, 0⟩ : V4 ℝ).quat := by ext <;> simp
  rw [this, V4.norm_quat, V4.len, V4.dot]; simp [cglm]

theorem C08_mul_assoc (p q r : V4 ℝ) : glm_quat_mul (glm_quat_mul p q) r = glm_quat_mul p (glm_quat_mul q r) := by
  simp only [← V4.quat_inj, C08_mul, mul_assoc]
theorem C08_mul_identity (q : V4 ℝ) : glm_quat_mul glm_quat_identity q = q ∧ glm_quat_mul q glm_quat_identity = q := by
  simp only [← V4.quat_inj, C08_mul, C08_identity, one_mul, mul_one, and_self]
theorem C08_norm_mul (p q : V4 ℝ) : glm_quat_norm (glm_quat_mul p q) = glm_quat_norm p * glm_quat_norm q := by
  simp only [C08_norm, C08_mul, norm_mul]
theorem C08_conjugate_mul (p q : V4 ℝ) : glm_quat_conjugate (glm_quat_mul p q) =
    glm_quat_mul (glm_quat_conjugate q) (glm_quat_conjugate p) := by
  simp only [← V4.quat_inj, C08_mul, C08_conjugate, star_mul]

/-- the inverse of a non-zero quaternion (the code divides by the squared norm, so zero is excluded) -/
theorem C08_inv (q : V4 ℝ) (_h : q.quat ≠ 0) : (glm_quat_inv q).quat = q.quat⁻¹ := by
  have e : (glm_quat_inv q).quat = (Quaternion.normSq q.quat)⁻¹ • star q.quat := by
    rw [V4.normSq_quat]
    ext <;> simp [cglm, V4.dot] <;> ring
  exact e
theorem C08_inv_mul (q : V4 ℝ) (h : q.quat ≠ 0) :
    glm_quat_mul q (glm_quat_inv q) = glm_quat_identity ∧ glm_quat_mul (glm_quat_inv q) q = glm_quat_identity := by
  simp only [← V4.quat_inj, C08_mul, C08_inv q h, C08_identity, mul_inv_cancel₀ h, inv_mul_cancel₀ h, and_self]

/-- normalizing a non-zero quaternion gives the unit quaternion in its direction -/
theorem C08_normalize (q : V4 ℝ) (h : q.quat ≠ 0) :
    (glm_quat_normalize q).quat = ‖q.quat‖⁻¹ • q.quat ∧ ‖(glm_quat_normalize q).quat‖ = 1 := by
  have hn : ‖q.quat‖ ≠ 0 := norm_ne_zero_iff.mpr h
  have e : (glm_quat_normalize q).quat = ‖q.quat‖⁻¹ • q.quat := by
    have hpos : 0 < q.dot q := by
      rw [← V4.normSq_quat]; exact lt_of_le_of_ne Quaternion.normSq_nonneg (Ne.symm (Quaternion.normSq_ne_zero.mpr h))
    unfold glm_quat_normalize glm_quat_normalize_to glm_vec4_norm2
    rw [V4.norm_quat]
    simp only [glm_vec4_dot_eq, fle_real, lit_zero, decide_eq_true_eq, not_le.mpr hpos, if_false, sqrtf_real]
    ext <;> simp [cglm, V4.len] <;> ring
  refine ⟨e, ?_⟩
  rw [e, norm_smul, norm_inv, norm_norm, inv_mul_cancel₀ hn]
/-- the zero quaternion normalizes to the identity -/
theorem C08_normalize_zero (q : V4 ℝ) (h : q.quat = 0) : glm_quat_normalize q = glm_quat_identity := by
  have h0 : q.dot q = 0 := by rw [← V4.normSq_quat, h]; simp
  unfold glm_quat_normalize glm_quat_normalize_to glm_vec4_norm2
  simp [glm_vec4_dot_eq, h0, fle_real, lit_zero]
theorem C08_normalize_to (q : V4 ℝ) : glm_quat_normalize_to q = glm_quat_normalize q := rfl

example : (⟨1, 2, 3, 4⟩ : V4 ℝ).quat ≠ 0 := by
  intro h; have := congrArg QuaternionAlgebra.re h; simp at this
/-- i * j = k and j * i = -k -/
example : glm_quat_mul (⟨1, 0, 0, 0⟩ : V4 ℝ) ⟨0, 1, 0, 0⟩ = ⟨0, 0, 1, 0⟩ ∧
    glm_quat_mul (⟨0, 1, 0, 0⟩ : V4 ℝ) ⟨1, 0, 0, 0⟩ = ⟨0, 0, -1, 0⟩ := by simp [cglm]

end Cglm
