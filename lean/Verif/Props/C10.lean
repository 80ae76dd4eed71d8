import Verif.Props.C09

/-! # C10: matrix of a non-unit quaternion

The property "the matrix of `q` is the rotation of the normalized quaternion" fails: the code scales by `2 / norm`
where `2 / norm²` is needed (include/cglm/quat.h:582-583, and the same in mat3t, mat4, mat4t).  It holds exactly for
unit quaternions and for quaternions whose vector part is zero. -/

namespace Cglm
open Quaternion

/-- the counterexample: 2i should give the half turn about x, but the code returns diag(1, -3, -3) -/
theorem C10_refuted : ∃ q : V4 ℝ, q.quat ≠ 0 ∧ glm_quat_mat3 q ≠ glm_quat_mat3 (glm_quat_normalize q) ∧
    ¬ (glm_quat_mat3 q).IsRotation := by
  have hn : glm_quat_norm (⟨2, 0, 0, 0⟩ : V4 ℝ) = 2 := by
    rw [glm_quat_norm, glm_vec4_norm_eq, V4.len, V4.dot]
    have : (2 * 2 + 0 * 0 + 0 * 0 + 0 * 0 : ℝ) = 2 ^ 2 := by norm_num
    rw [this, Real.sqrt_sq (by norm_num)]
  have hm : glm_quat_mat3 (⟨2, 0, 0, 0⟩ : V4 ℝ) = ⟨⟨1, 0, 0⟩, ⟨0, -3, 0⟩, ⟨0, 0, -3⟩⟩ := by
    unfold glm_quat_mat3
    simp only [hn]
    ext <;> simp [cglm] <;> norm_num
  have h0 : (⟨2, 0, 0, 0⟩ : V4 ℝ).quat ≠ 0 := by
    intro h; have := congrArg QuaternionAlgebra.imI h; simp at this
  have hr : ¬ (glm_quat_mat3 (⟨2, 0, 0, 0⟩ : V4 ℝ)).IsRotation := by
    rw [hm, M3.isRotation_iff]; simp [V3.dot]; norm_num
  refine ⟨_, h0, ?_, hr⟩
  intro h
  exact hr (h ▸ C09_rotation _ (C08_normalize _ h0).2)

/-- what does hold: exactly the unit quaternions and those with zero vector part are handled correctly -/
theorem C10_partial (q : V4 ℝ) (h : q.quat ≠ 0) :
    glm_quat_mat3 q = glm_quat_mat3 (glm_quat_normalize q) ↔ ‖q.quat‖ = 1 ∨ (q.x = 0 ∧ q.y = 0 ∧ q.z = 0) := by
  obtain ⟨hn, hu⟩ := C08_normalize q h
  have hpos : 0 < ‖q.quat‖ := norm_pos_iff.mpr h
  have hx : (glm_quat_normalize q).x = ‖q.quat‖⁻¹ * q.x := by
    have := congrArg QuaternionAlgebra.imI hn; simpa using this
  have hy : (glm_quat_normalize q).y = ‖q.quat‖⁻¹ * q.y := by
    have := congrArg QuaternionAlgebra.imJ hn; simpa using this
  have hz : (glm_quat_normalize q).z = ‖q.quat‖⁻¹ * q.z := by
    have := congrArg QuaternionAlgebra.imK hn; simpa using this
  have hw : (glm_quat_normalize q).w = ‖q.quat‖⁻¹ * q.w := by
    have := congrArg QuaternionAlgebra.re hn; simpa using this
  have hm : glm_quat_mat3 q =
      ⟨⟨1 - 2 * ‖q.quat‖⁻¹ * (q.y * q.y + q.z * q.z), 2 * ‖q.quat‖⁻¹ * (q.x * q.y + q.w * q.z), 2 * ‖q.quat‖⁻¹ * (q.x * q.z - q.w * q.y)⟩,
       ⟨2 * ‖q.quat‖⁻¹ * (q.x * q.y - q.w * q.z), 1 - 2 * ‖q.quat‖⁻¹ * (q.x * q.x + q.z * q.z), 2 * ‖q.quat‖⁻¹ * (q.y * q.z + q.w * q.x)⟩,
       ⟨2 * ‖q.quat‖⁻¹ * (q.x * q.z + q.w * q.y), 2 * ‖q.quat‖⁻¹ * (q.y * q.z - q.w * q.x), 1 - 2 * ‖q.quat‖⁻¹ * (q.x * q.x + q.y * q.y)⟩⟩ := by
    unfold glm_quat_mat3
    rw [C08_norm]
    simp only [flt_real, lit_zero, decide_eq_true_eq, hpos, if_true]
    ext <;> simp [cglm] <;> ring
  rw [hm, quat_mat3_unit _ ((V4.unit_iff _).mp hu), hx, hy, hz, hw]
  have hN : ‖q.quat‖ ≠ 0 := hpos.ne'
  generalize hNN : ‖q.quat‖ = N at *
  constructor
  · intro e
    simp only [M3.mk.injEq, V3.mk.injEq] at e
    by_contra hc
    push Not at hc
    obtain ⟨hN1, hv⟩ := hc
    have key : ∀ s : ℝ, 1 - 2 * N⁻¹ * s = 1 - 2 * (N⁻¹ * N⁻¹ * s) → s = 0 := by
      intro s hs
      have : N⁻¹ * (1 - N⁻¹) * s = 0 := by linear_combination (-1/2) * hs
      rcases mul_eq_zero.mp this with h1 | h1
      · rcases mul_eq_zero.mp h1 with h2 | h2
        · exact absurd h2 (inv_ne_zero hN)
        · exact absurd (by rw [sub_eq_zero] at h2; exact (inv_eq_one.mp h2.symm)) hN1
      · exact h1
    have a := key (q.y * q.y + q.z * q.z) (by linear_combination e.1.1)
    have b := key (q.x * q.x + q.z * q.z) (by linear_combination e.2.1.2.1)
    have hx0 : q.x = 0 := mul_self_eq_zero.mp (by linarith [mul_self_nonneg q.x, mul_self_nonneg q.y, mul_self_nonneg q.z])
    have hy0 : q.y = 0 := mul_self_eq_zero.mp (by linarith [mul_self_nonneg q.x, mul_self_nonneg q.y, mul_self_nonneg q.z])
    have hz0 : q.z = 0 := mul_self_eq_zero.mp (by linarith [mul_self_nonneg q.x, mul_self_nonneg q.y, mul_self_nonneg q.z])
    exact hv hx0 hy0 hz0
  · rintro (h1 | ⟨h1, h2, h3⟩)
    · rw [h1]; ext <;> simp
    · rw [h1, h2, h3]; ext <;> simp
/-- the zero quaternion gives the identity matrix -/
theorem C10_zero : (glm_quat_mat3 (⟨0, 0, 0, 0⟩ : V4 ℝ)).mat = 1 := by mat_entries

example : (⟨1, 2, 3, 4⟩ : V4 ℝ).quat ≠ 0 := by
  intro h; have := congrArg QuaternionAlgebra.re h; simp at this

end Cglm
