import Verif.Props.C34

/-! # C43: plane normalization -/

namespace Cglm

/-- a plane with normal length ≥ FLT_EPSILON: unit normal afterwards, same points on it, same positive and negative side -/
theorem C43_normalize (q : V4 ℝ) (h : FLT_EPSILON ≤ q.xyz.len) :
    (glm_plane_normalize q).xyz.len = 1 ∧
    ∀ p, (planeAt (glm_plane_normalize q) p = 0 ↔ planeAt q p = 0) ∧
      (0 < planeAt (glm_plane_normalize q) p ↔ 0 < planeAt q p) ∧ (planeAt (glm_plane_normalize q) p < 0 ↔ planeAt q p < 0) := by
  have hl : 0 < q.xyz.len := lt_of_lt_of_le FLT_EPSILON_pos h
  refine ⟨(C34_plane_normalize q h).1, fun p => ?_⟩
  rw [C34_plane_side q h]
  refine ⟨?_, ?_, ?_⟩
  · rw [div_eq_zero_iff]; simp [hl.ne']
  · rw [lt_div_iff₀ hl, zero_mul]
  · rw [div_lt_iff₀ hl, zero_mul]
/-- the value is then the signed distance: moving along the normal by `t` changes it by `t` -/
theorem C43_distance (q : V4 ℝ) (h : FLT_EPSILON ≤ q.xyz.len) (p : V3 ℝ) (t : ℝ) :
    planeAt (glm_plane_normalize q) (p.add ((glm_plane_normalize q).xyz.smul t)) = planeAt (glm_plane_normalize q) p + t := by
  have := (C34_plane_normalize q h).1
  rw [V3.len_eq_one] at this
  generalize glm_plane_normalize q = r at *
  simp only [V3.dot, V4.xyz] at this
  simp only [planeAt, V3.add, V3.smul, V4.xyz]
  linear_combination t * this
theorem C43_degenerate (q : V4 ℝ) (h : q.xyz.len < FLT_EPSILON) : glm_plane_normalize q = ⟨0, 0, 0, 0⟩ := C34_plane_degenerate q h
theorem C43_idempotent (q : V4 ℝ) (h : q.xyz.len = 1) : glm_plane_normalize q = q := by
  rw [(C34_plane_normalize q (by rw [h]; norm_num [FLT_EPSILON])).2, h]
  ext <;> simp [V4.smul]

example : FLT_EPSILON ≤ (⟨0, 3, 4, 5⟩ : V4 ℝ).xyz.len := by
  have : (⟨0, 3, 4, 5⟩ : V4 ℝ).xyz.len = 5 := by
    simp only [V4.xyz, V3.len, V3.dot]
    rw [show (0 * 0 + 3 * 3 + 4 * 4 : ℝ) = 5 ^ 2 by norm_num, Real.sqrt_sq (by norm_num)]
  rw [this]; norm_num [FLT_EPSILON]

end Cglm
