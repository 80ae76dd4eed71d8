import Verif.Props.C27

/-! # C29: orthographic projections -/

namespace Cglm

/-! ## right-handed, depth [-1,1] -/

theorem C29_clip_rh_no (l r b t n f : ℝ) (p : V3 ℝ) :
    clipv (glm_ortho_rh_no l r b t n f) p =
      ![(2 * p.x - (r + l)) / (r - l), (2 * p.y - (t + b)) / (t - b), (2 * (-p.z) - (f + n)) / (f - n), 1] := by
  ext i
  fin_cases i <;> simp [clipv, M4.mat, V3.hom, V4.vec, Matrix.mulVec, dotProduct, Fin.sum_univ_succ, cglm] <;> ring
/-- the point at the fractions `u`, `v`, `w` of the box goes to the same fractions of the clip cube -/
theorem C29_ortho_rh_no (l r b t n f : ℝ) (hx : l ≠ r) (hy : b ≠ t) (hz : n ≠ f) (u v w : ℝ) :
    clipv (glm_ortho_rh_no l r b t n f) ⟨l + u * (r - l), b + v * (t - b), -(n + w * (f - n))⟩ =
      ![2 * u - 1, 2 * v - 1, 2 * w - 1, 1] := by
  have h3 : r - l ≠ 0 := sub_ne_zero.mpr hx.symm
  have h4 : t - b ≠ 0 := sub_ne_zero.mpr hy.symm
  have h2 : f - n ≠ 0 := sub_ne_zero.mpr hz.symm
  rw [C29_clip_rh_no]
  ext i
  fin_cases i <;> simp <;> field_simp <;> ring
/-- exactly: a point is in the box iff its image is in the clip cube -/
theorem C29_volume_rh_no (l r b t n f : ℝ) (hx : l < r) (hy : b < t) (hz : n < f) (p : V3 ℝ) (x y z w : ℝ)
    (hc : clipv (glm_ortho_rh_no l r b t n f) p = ![x, y, z, w]) :
    w = 1 ∧ ((-1 ≤ x ∧ x ≤ 1 ∧ -1 ≤ y ∧ y ≤ 1 ∧ -1 ≤ z ∧ z ≤ 1) ↔
      (l ≤ p.x ∧ p.x ≤ r ∧ b ≤ p.y ∧ p.y ≤ t ∧ n ≤ -p.z ∧ -p.z ≤ f)) := by
  rw [C29_clip_rh_no] at hc
  have e0 := congrFun hc 0; have e1 := congrFun hc 1; have e2 := congrFun hc 2; have e3 := congrFun hc 3
  simp at e0 e1 e2 e3
  subst e0 e1 e2 e3
  have h3 : 0 < r - l := by linarith
  have h4 : 0 < t - b := by linarith
  have h2 : 0 < f - n := by linarith
  refine ⟨rfl, ?_⟩
  rw [le_div_iff₀ h3, div_le_iff₀ h3, le_div_iff₀ h4, div_le_iff₀ h4, le_div_iff₀ h2, div_le_iff₀ h2]
  constructor
  · rintro ⟨a, b, c, d, e, f⟩
    exact ⟨by linarith, by linarith, by linarith, by linarith, by linarith, by linarith⟩
  · rintro ⟨a, b, c, d, e, f⟩
    exact ⟨by linarith, by linarith, by linarith, by linarith, by linarith, by linarith⟩
theorem C29_default_rh_no (aspect size : ℝ) :
    (1 ≤ aspect → glm_ortho_default_rh_no aspect = glm_ortho_rh_no (-aspect) aspect (-1) 1 (-100) 100) ∧
    (aspect < 1 → glm_ortho_default_rh_no aspect = glm_ortho_rh_no (-1) 1 (-(1 / aspect)) (1 / aspect) (-100) 100) ∧
    (1 ≤ aspect → glm_ortho_default_s_rh_no aspect size =
      glm_ortho_rh_no (-size * aspect) (size * aspect) (-size) size (-size - 100) (size + 100)) ∧
    (aspect < 1 → glm_ortho_default_s_rh_no aspect size =
      glm_ortho_rh_no (-size) size (-size / aspect) (size / aspect) (-size - 100) (size + 100)) := by
  unfold glm_ortho_default_rh_no glm_ortho_default_s_rh_no
  simp only [fle_real, lit_one, lit_100, decide_eq_true_eq]
  exact ⟨fun h => if_pos h, fun h => if_neg (not_le.mpr h), fun h => if_pos h, fun h => if_neg (not_le.mpr h)⟩
/-- the box helpers: a view-space point is in the box (resp. the box padded by `p` on all sides, on the z sides) iff its
image is in the clip cube -/
theorem C29_aabb_rh_no (box : M2x3 ℝ) (hx : box.c0.x < box.c1.x) (hy : box.c0.y < box.c1.y) (hz : box.c0.z < box.c1.z)
    (p : V3 ℝ) (x y z w : ℝ) (hc : clipv (glm_ortho_aabb_rh_no box) p = ![x, y, z, w]) :
    (-1 ≤ x ∧ x ≤ 1 ∧ -1 ≤ y ∧ y ≤ 1 ∧ -1 ≤ z ∧ z ≤ 1) ↔
      (box.c0.x ≤ p.x ∧ p.x ≤ box.c1.x ∧ box.c0.y ≤ p.y ∧ p.y ≤ box.c1.y ∧ box.c0.z ≤ p.z ∧ p.z ≤ box.c1.z) := by
  have := (C29_volume_rh_no _ _ _ _ _ _ hx hy (neg_lt_neg hz) p x y z w hc).2
  rw [this, neg_le_neg_iff, neg_le_neg_iff]
  tauto
theorem C29_aabb_p_rh_no (box : M2x3 ℝ) (pad : ℝ) (hx : box.c0.x - pad < box.c1.x + pad)
    (hy : box.c0.y - pad < box.c1.y + pad) (hz : box.c0.z - pad < box.c1.z + pad)
    (p : V3 ℝ) (x y z w : ℝ) (hc : clipv (glm_ortho_aabb_p_rh_no box pad) p = ![x, y, z, w]) :
    (-1 ≤ x ∧ x ≤ 1 ∧ -1 ≤ y ∧ y ≤ 1 ∧ -1 ≤ z ∧ z ≤ 1) ↔
      (box.c0.x - pad ≤ p.x ∧ p.x ≤ box.c1.x + pad ∧ box.c0.y - pad ≤ p.y ∧ p.y ≤ box.c1.y + pad ∧
        box.c0.z - pad ≤ p.z ∧ p.z ≤ box.c1.z + pad) := by
  have := (C29_volume_rh_no _ _ _ _ _ _ hx hy (neg_lt_neg hz) p x y z w hc).2
  rw [this, neg_le_neg_iff, neg_le_neg_iff]
  tauto
theorem C29_aabb_pz_rh_no (box : M2x3 ℝ) (pad : ℝ) (hx : box.c0.x < box.c1.x)
    (hy : box.c0.y < box.c1.y) (hz : box.c0.z - pad < box.c1.z + pad)
    (p : V3 ℝ) (x y z w : ℝ) (hc : clipv (glm_ortho_aabb_pz_rh_no box pad) p = ![x, y, z, w]) :
    (-1 ≤ x ∧ x ≤ 1 ∧ -1 ≤ y ∧ y ≤ 1 ∧ -1 ≤ z ∧ z ≤ 1) ↔
      (box.c0.x ≤ p.x ∧ p.x ≤ box.c1.x ∧ box.c0.y ≤ p.y ∧ p.y ≤ box.c1.y ∧
        box.c0.z - pad ≤ p.z ∧ p.z ≤ box.c1.z + pad) := by
  have := (C29_volume_rh_no _ _ _ _ _ _ hx hy (neg_lt_neg hz) p x y z w hc).2
  rw [this, neg_le_neg_iff, neg_le_neg_iff]
  tauto

/-! ## right-handed, depth [0,1] -/

theorem C29_clip_rh_zo (l r b t n f : ℝ) (p : V3 ℝ) :
    clipv (glm_ortho_rh_zo l r b t n f) p =
      ![(2 * p.x - (r + l)) / (r - l), (2 * p.y - (t + b)) / (t - b), ((-p.z) - n) / (f - n), 1] := by
  ext i
  fin_cases i <;> simp [clipv, M4.mat, V3.hom, V4.vec, Matrix.mulVec, dotProduct, Fin.sum_univ_succ, cglm] <;> ring
/-- the point at the fractions `u`, `v`, `w` of the box goes to the same fractions of the clip cube -/
theorem C29_ortho_rh_zo (l r b t n f : ℝ) (hx : l ≠ r) (hy : b ≠ t) (hz : n ≠ f) (u v w : ℝ) :
    clipv (glm_ortho_rh_zo l r b t n f) ⟨l + u * (r - l), b + v * (t - b), -(n + w * (f - n))⟩ =
      ![2 * u - 1, 2 * v - 1, w, 1] := by
  have h3 : r - l ≠ 0 := sub_ne_zero.mpr hx.symm
  have h4 : t - b ≠ 0 := sub_ne_zero.mpr hy.symm
  have h2 : f - n ≠ 0 := sub_ne_zero.mpr hz.symm
  rw [C29_clip_rh_zo]
  ext i
  fin_cases i <;> simp <;> field_simp <;> ring
/-- exactly: a point is in the box iff its image is in the clip cube -/
theorem C29_volume_rh_zo (l r b t n f : ℝ) (hx : l < r) (hy : b < t) (hz : n < f) (p : V3 ℝ) (x y z w : ℝ)
    (hc : clipv (glm_ortho_rh_zo l r b t n f) p = ![x, y, z, w]) :
    w = 1 ∧ ((-1 ≤ x ∧ x ≤ 1 ∧ -1 ≤ y ∧ y ≤ 1 ∧ 0 ≤ z ∧ z ≤ 1) ↔
      (l ≤ p.x ∧ p.x ≤ r ∧ b ≤ p.y ∧ p.y ≤ t ∧ n ≤ -p.z ∧ -p.z ≤ f)) := by
  rw [C29_clip_rh_zo] at hc
  have e0 := congrFun hc 0; have e1 := congrFun hc 1; have e2 := congrFun hc 2; have e3 := congrFun hc 3
  simp at e0 e1 e2 e3
  subst e0 e1 e2 e3
  have h3 : 0 < r - l := by linarith
  have h4 : 0 < t - b := by linarith
  have h2 : 0 < f - n := by linarith
  refine ⟨rfl, ?_⟩
  rw [le_div_iff₀ h3, div_le_iff₀ h3, le_div_iff₀ h4, div_le_iff₀ h4, le_div_iff₀ h2, div_le_iff₀ h2]
  constructor
  · rintro ⟨a, b, c, d, e, f⟩
    exact ⟨by linarith, by linarith, by linarith, by linarith, by linarith, by linarith⟩
  · rintro ⟨a, b, c, d, e, f⟩
    exact ⟨by linarith, by linarith, by linarith, by linarith, by linarith, by linarith⟩
theorem C29_default_rh_zo (aspect size : ℝ) :
    (1 ≤ aspect → glm_ortho_default_rh_zo aspect = glm_ortho_rh_zo (-aspect) aspect (-1) 1 (-100) 100) ∧
    (aspect < 1 → glm_ortho_default_rh_zo aspect = glm_ortho_rh_zo (-1) 1 (-(1 / aspect)) (1 / aspect) (-100) 100) ∧
    (1 ≤ aspect → glm_ortho_default_s_rh_zo aspect size =
      glm_ortho_rh_zo (-size * aspect) (size * aspect) (-size) size (-size - 100) (size + 100)) ∧
    (aspect < 1 → glm_ortho_default_s_rh_zo aspect size =
      glm_ortho_rh_zo (-size) size (-size / aspect) (size / aspect) (-size - 100) (size + 100)) := by
  unfold glm_ortho_default_rh_zo glm_ortho_default_s_rh_zo
  simp only [fle_real, lit_one, lit_100, decide_eq_true_eq]
  exact ⟨fun h => if_pos h, fun h => if_neg (not_le.mpr h), fun h => if_pos h, fun h => if_neg (not_le.mpr h)⟩
/-- the box helpers: a view-space point is in the box (resp. the box padded by `p` on all sides, on the z sides) iff its
image is in the clip cube -/
theorem C29_aabb_rh_zo (box : M2x3 ℝ) (hx : box.c0.x < box.c1.x) (hy : box.c0.y < box.c1.y) (hz : box.c0.z < box.c1.z)
    (p : V3 ℝ) (x y z w : ℝ) (hc : clipv (glm_ortho_aabb_rh_zo box) p = ![x, y, z, w]) :
    (-1 ≤ x ∧ x ≤ 1 ∧ -1 ≤ y ∧ y ≤ 1 ∧ 0 ≤ z ∧ z ≤ 1) ↔
      (box.c0.x ≤ p.x ∧ p.x ≤ box.c1.x ∧ box.c0.y ≤ p.y ∧ p.y ≤ box.c1.y ∧ box.c0.z ≤ p.z ∧ p.z ≤ box.c1.z) := by
  have := (C29_volume_rh_zo _ _ _ _ _ _ hx hy (neg_lt_neg hz) p x y z w hc).2
  rw [this, neg_le_neg_iff, neg_le_neg_iff]
  tauto
theorem C29_aabb_p_rh_zo (box : M2x3 ℝ) (pad : ℝ) (hx : box.c0.x - pad < box.c1.x + pad)
    (hy : box.c0.y - pad < box.c1.y + pad) (hz : box.c0.z - pad < box.c1.z + pad)
    (p : V3 ℝ) (x y z w : ℝ) (hc : clipv (glm_ortho_aabb_p_rh_zo box pad) p = ![x, y, z, w]) :
    (-1 ≤ x ∧ x ≤ 1 ∧ -1 ≤ y ∧ y ≤ 1 ∧ 0 ≤ z ∧ z ≤ 1) ↔
      (box.c0.x - pad ≤ p.x ∧ p.x ≤ box.c1.x + pad ∧ box.c0.y - pad ≤ p.y ∧ p.y ≤ box.c1.y + pad ∧
        box.c0.z - pad ≤ p.z ∧ p.z ≤ box.c1.z + pad) := by
  have := (C29_volume_rh_zo _ _ _ _ _ _ hx hy (neg_lt_neg hz) p x y z w hc).2
  rw [this, neg_le_neg_iff, neg_le_neg_iff]
  tauto
theorem C29_aabb_pz_rh_zo (box : M2x3 ℝ) (pad : ℝ) (hx : box.c0.x < box.c1.x)
    (hy : box.c0.y < box.c1.y) (hz : box.c0.z - pad < box.c1.z + pad)
    (p : V3 ℝ) (x y z w : ℝ) (hc : clipv (glm_ortho_aabb_pz_rh_zo box pad) p = ![x, y, z, w]) :
    (-1 ≤ x ∧ x ≤ 1 ∧ -1 ≤ y ∧ y ≤ 1 ∧ 0 ≤ z ∧ z ≤ 1) ↔
      (box.c0.x ≤ p.x ∧ p.x ≤ box.c1.x ∧ box.c0.y ≤ p.y ∧ p.y ≤ box.c1.y ∧
        box.c0.z - pad ≤ p.z ∧ p.z ≤ box.c1.z + pad) := by
  have := (C29_volume_rh_zo _ _ _ _ _ _ hx hy (neg_lt_neg hz) p x y z w hc).2
  rw [this, neg_le_neg_iff, neg_le_neg_iff]
  tauto

/-! ## left-handed, depth [-1,1] -/

theorem C29_clip_lh_no (l r b t n f : ℝ) (p : V3 ℝ) :
    clipv (glm_ortho_lh_no l r b t n f) p =
      ![(2 * p.x - (r + l)) / (r - l), (2 * p.y - (t + b)) / (t - b), (2 * (p.z) - (f + n)) / (f - n), 1] := by
  ext i
  fin_cases i <;> simp [clipv, M4.mat, V3.hom, V4.vec, Matrix.mulVec, dotProduct, Fin.sum_univ_succ, cglm] <;> ring
/-- the point at the fractions `u`, `v`, `w` of the box goes to the same fractions of the clip cube -/
theorem C29_ortho_lh_no (l r b t n f : ℝ) (hx : l ≠ r) (hy : b ≠ t) (hz : n ≠ f) (u v w : ℝ) :
    clipv (glm_ortho_lh_no l r b t n f) ⟨l + u * (r - l), b + v * (t - b), (n + w * (f - n))⟩ =
      ![2 * u - 1, 2 * v - 1, 2 * w - 1, 1] := by
  have h3 : r - l ≠ 0 := sub_ne_zero.mpr hx.symm
  have h4 : t - b ≠ 0 := sub_ne_zero.mpr hy.symm
  have h2 : f - n ≠ 0 := sub_ne_zero.mpr hz.symm
  rw [C29_clip_lh_no]
  ext i
  fin_cases i <;> simp <;> field_simp <;> ring
/-- exactly: a point is in the box iff its image is in the clip cube -/
theorem C29_volume_lh_no (l r b t n f : ℝ) (hx : l < r) (hy : b < t) (hz : n < f) (p : V3 ℝ) (x y z w : ℝ)
    (hc : clipv (glm_ortho_lh_no l r b t n f) p = ![x, y, z, w]) :
    w = 1 ∧ ((-1 ≤ x ∧ x ≤ 1 ∧ -1 ≤ y ∧ y ≤ 1 ∧ -1 ≤ z ∧ z ≤ 1) ↔
      (l ≤ p.x ∧ p.x ≤ r ∧ b ≤ p.y ∧ p.y ≤ t ∧ n ≤ p.z ∧ p.z ≤ f)) := by
  rw [C29_clip_lh_no] at hc
  have e0 := congrFun hc 0; have e1 := congrFun hc 1; have e2 := congrFun hc 2; have e3 := congrFun hc 3
  simp at e0 e1 e2 e3
  subst e0 e1 e2 e3
  have h3 : 0 < r - l := by linarith
  have h4 : 0 < t - b := by linarith
  have h2 : 0 < f - n := by linarith
  refine ⟨rfl, ?_⟩
  rw [le_div_iff₀ h3, div_le_iff₀ h3, le_div_iff₀ h4, div_le_iff₀ h4, le_div_iff₀ h2, div_le_iff₀ h2]
  constructor
  · rintro ⟨a, b, c, d, e, f⟩
    exact ⟨by linarith, by linarith, by linarith, by linarith, by linarith, by linarith⟩
  · rintro ⟨a, b, c, d, e, f⟩
    exact ⟨by linarith, by linarith, by linarith, by linarith, by linarith, by linarith⟩
theorem C29_default_lh_no (aspect size : ℝ) :
    (1 ≤ aspect → glm_ortho_default_lh_no aspect = glm_ortho_lh_no (-aspect) aspect (-1) 1 (-100) 100) ∧
    (aspect < 1 → glm_ortho_default_lh_no aspect = glm_ortho_lh_no (-1) 1 (-(1 / aspect)) (1 / aspect) (-100) 100) ∧
    (1 ≤ aspect → glm_ortho_default_s_lh_no aspect size =
      glm_ortho_lh_no (-size * aspect) (size * aspect) (-size) size (-size - 100) (size + 100)) ∧
    (aspect < 1 → glm_ortho_default_s_lh_no aspect size =
      glm_ortho_lh_no (-size) size (-size / aspect) (size / aspect) (-size - 100) (size + 100)) := by
  unfold glm_ortho_default_lh_no glm_ortho_default_s_lh_no
  simp only [fle_real, lit_one, lit_100, decide_eq_true_eq]
  exact ⟨fun h => if_pos h, fun h => if_neg (not_le.mpr h), fun h => if_pos h, fun h => if_neg (not_le.mpr h)⟩
/-- The box helpers negate the z range of the box also in the left-handed conventions, where view-space depth is +z:
the clip cube is the image of the box mirrored in z. -/
theorem C29_aabb_lh_no_partial (box : M2x3 ℝ) (hx : box.c0.x < box.c1.x) (hy : box.c0.y < box.c1.y) (hz : box.c0.z < box.c1.z)
    (p : V3 ℝ) (x y z w : ℝ) (hc : clipv (glm_ortho_aabb_lh_no box) p = ![x, y, z, w]) :
    (-1 ≤ x ∧ x ≤ 1 ∧ -1 ≤ y ∧ y ≤ 1 ∧ -1 ≤ z ∧ z ≤ 1) ↔
      (box.c0.x ≤ p.x ∧ p.x ≤ box.c1.x ∧ box.c0.y ≤ p.y ∧ p.y ≤ box.c1.y ∧ box.c0.z ≤ -p.z ∧ -p.z ≤ box.c1.z) := by
  have := (C29_volume_lh_no _ _ _ _ _ _ hx hy (neg_lt_neg hz) p x y z w hc).2
  rw [this, neg_le, le_neg]
  tauto
theorem C29_aabb_p_lh_no_partial (box : M2x3 ℝ) (pad : ℝ) (hx : box.c0.x - pad < box.c1.x + pad)
    (hy : box.c0.y - pad < box.c1.y + pad) (hz : box.c0.z - pad < box.c1.z + pad)
    (p : V3 ℝ) (x y z w : ℝ) (hc : clipv (glm_ortho_aabb_p_lh_no box pad) p = ![x, y, z, w]) :
    (-1 ≤ x ∧ x ≤ 1 ∧ -1 ≤ y ∧ y ≤ 1 ∧ -1 ≤ z ∧ z ≤ 1) ↔
      (box.c0.x - pad ≤ p.x ∧ p.x ≤ box.c1.x + pad ∧ box.c0.y - pad ≤ p.y ∧ p.y ≤ box.c1.y + pad ∧
        box.c0.z - pad ≤ -p.z ∧ -p.z ≤ box.c1.z + pad) := by
  have := (C29_volume_lh_no _ _ _ _ _ _ hx hy (neg_lt_neg hz) p x y z w hc).2
  rw [this, neg_le, le_neg]
  tauto
theorem C29_aabb_pz_lh_no_partial (box : M2x3 ℝ) (pad : ℝ) (hx : box.c0.x < box.c1.x)
    (hy : box.c0.y < box.c1.y) (hz : box.c0.z - pad < box.c1.z + pad)
    (p : V3 ℝ) (x y z w : ℝ) (hc : clipv (glm_ortho_aabb_pz_lh_no box pad) p = ![x, y, z, w]) :
    (-1 ≤ x ∧ x ≤ 1 ∧ -1 ≤ y ∧ y ≤ 1 ∧ -1 ≤ z ∧ z ≤ 1) ↔
      (box.c0.x ≤ p.x ∧ p.x ≤ box.c1.x ∧ box.c0.y ≤ p.y ∧ p.y ≤ box.c1.y ∧
        box.c0.z - pad ≤ -p.z ∧ -p.z ≤ box.c1.z + pad) := by
  have := (C29_volume_lh_no _ _ _ _ _ _ hx hy (neg_lt_neg hz) p x y z w hc).2
  rw [this, neg_le, le_neg]
  tauto
/-- so the full claim is false.  Witness: the box [0,1]x[0,1]x[1,2] and its corner (0,0,1), which is clipped. -/
theorem C29_aabb_lh_no_refuted : ¬ ∀ (box : M2x3 ℝ) (p : V3 ℝ), box.c0.x < box.c1.x → box.c0.y < box.c1.y →
    box.c0.z < box.c1.z →
    (box.c0.x ≤ p.x ∧ p.x ≤ box.c1.x ∧ box.c0.y ≤ p.y ∧ p.y ≤ box.c1.y ∧ box.c0.z ≤ p.z ∧ p.z ≤ box.c1.z) →
    clipv (glm_ortho_aabb_lh_no box) p 2 ≤ 1 := by
  intro h
  have := h ⟨⟨0, 0, 1⟩, ⟨1, 1, 2⟩⟩ ⟨0, 0, 1⟩ (by norm_num) (by norm_num) (by norm_num) (by norm_num)
  unfold glm_ortho_aabb_lh_no at this
  rw [C29_clip_lh_no] at this
  simp at this
  norm_num at this

/-! ## left-handed, depth [0,1] -/

theorem C29_clip_lh_zo (l r b t n f : ℝ) (p : V3 ℝ) :
    clipv (glm_ortho_lh_zo l r b t n f) p =
      ![(2 * p.x - (r + l)) / (r - l), (2 * p.y - (t + b)) / (t - b), ((p.z) - n) / (f - n), 1] := by
  ext i
  fin_cases i <;> simp [clipv, M4.mat, V3.hom, V4.vec, Matrix.mulVec, dotProduct, Fin.sum_univ_succ, cglm] <;> ring
/-- the point at the fractions `u`, `v`, `w` of the box goes to the same fractions of the clip cube -/
theorem C29_ortho_lh_zo (l r b t n f : ℝ) (hx : l ≠ r) (hy : b ≠ t) (hz : n ≠ f) (u v w : ℝ) :
    clipv (glm_ortho_lh_zo l r b t n f) ⟨l + u * (r - l), b + v * (t - b), (n + w * (f - n))⟩ =
      ![2 * u - 1, 2 * v - 1, w, 1] := by
  have h3 : r - l ≠ 0 := sub_ne_zero.mpr hx.symm
  have h4 : t - b ≠ 0 := sub_ne_zero.mpr hy.symm
  have h2 : f - n ≠ 0 := sub_ne_zero.mpr hz.symm
  rw [C29_clip_lh_zo]
  ext i
  fin_cases i <;> simp <;> field_simp <;> ring
/-- exactly: a point is in the box iff its image is in the clip cube -/
theorem C29_volume_lh_zo (l r b t n f : ℝ) (hx : l < r) (hy : b < t) (hz : n < f) (p : V3 ℝ) (x y z w : ℝ)
    (hc : clipv (glm_ortho_lh_zo l r b t n f) p = ![x, y, z, w]) :
    w = 1 ∧ ((-1 ≤ x ∧ x ≤ 1 ∧ -1 ≤ y ∧ y ≤ 1 ∧ 0 ≤ z ∧ z ≤ 1) ↔
      (l ≤ p.x ∧ p.x ≤ r ∧ b ≤ p.y ∧ p.y ≤ t ∧ n ≤ p.z ∧ p.z ≤ f)) := by
  rw [C29_clip_lh_zo] at hc
  have e0 := congrFun hc 0; have e1 := congrFun hc 1; have e2 := congrFun hc 2; have e3 := congrFun hc 3
  simp at e0 e1 e2 e3
  subst e0 e1 e2 e3
  have h3 : 0 < r - l := by linarith
  have h4 : 0 < t - b := by linarith
  have h2 : 0 < f - n := by linarith
  refine ⟨rfl, ?_⟩
  rw [le_div_iff₀ h3, div_le_iff₀ h3, le_div_iff₀ h4, div_le_iff₀ h4, le_div_iff₀ h2, div_le_iff₀ h2]
  constructor
  · rintro ⟨a, b, c, d, e, f⟩
    exact ⟨by linarith, by linarith, by linarith, by linarith, by linarith, by linarith⟩
  · rintro ⟨a, b, c, d, e, f⟩
    exact ⟨by linarith, by linarith, by linarith, by linarith, by linarith, by linarith⟩
theorem C29_default_lh_zo (aspect size : ℝ) :
    (1 ≤ aspect → glm_ortho_default_lh_zo aspect = glm_ortho_lh_zo (-aspect) aspect (-1) 1 (-100) 100) ∧
    (aspect < 1 → glm_ortho_default_lh_zo aspect = glm_ortho_lh_zo (-1) 1 (-(1 / aspect)) (1 / aspect) (-100) 100) ∧
    (1 ≤ aspect → glm_ortho_default_s_lh_zo aspect size =
      glm_ortho_lh_zo (-size * aspect) (size * aspect) (-size) size (-size - 100) (size + 100)) ∧
    (aspect < 1 → glm_ortho_default_s_lh_zo aspect size =
      glm_ortho_lh_zo (-size) size (-size / aspect) (size / aspect) (-size - 100) (size + 100)) := by
  unfold glm_ortho_default_lh_zo glm_ortho_default_s_lh_zo
  simp only [fle_real, lit_one, lit_100, decide_eq_true_eq]
  exact ⟨fun h => if_pos h, fun h => if_neg (not_le.mpr h), fun h => if_pos h, fun h => if_neg (not_le.mpr h)⟩
/-- The box helpers negate the z range of the box also in the left-handed conventions, where view-space depth is +z:
the clip cube is the image of the box mirrored in z. -/
theorem C29_aabb_lh_zo_partial (box : M2x3 ℝ) (hx : box.c0.x < box.c1.x) (hy : box.c0.y < box.c1.y) (hz : box.c0.z < box.c1.z)
    (p : V3 ℝ) (x y z w : ℝ) (hc : clipv (glm_ortho_aabb_lh_zo box) p = ![x, y, z, w]) :
    (-1 ≤ x ∧ x ≤ 1 ∧ -1 ≤ y ∧ y ≤ 1 ∧ 0 ≤ z ∧ z ≤ 1) ↔
      (box.c0.x ≤ p.x ∧ p.x ≤ box.c1.x ∧ box.c0.y ≤ p.y ∧ p.y ≤ box.c1.y ∧ box.c0.z ≤ -p.z ∧ -p.z ≤ box.c1.z) := by
  have := (C29_volume_lh_zo _ _ _ _ _ _ hx hy (neg_lt_neg hz) p x y z w hc).2
  rw [this, neg_le, le_neg]
  tauto
theorem C29_aabb_p_lh_zo_partial (box : M2x3 ℝ) (pad : ℝ) (hx : box.c0.x - pad < box.c1.x + pad)
    (hy : box.c0.y - pad < box.c1.y + pad) (hz : box.c0.z - pad < box.c1.z + pad)
    (p : V3 ℝ) (x y z w : ℝ) (hc : clipv (glm_ortho_aabb_p_lh_zo box pad) p = ![x, y, z, w]) :
    (-1 ≤ x ∧ x ≤ 1 ∧ -1 ≤ y ∧ y ≤ 1 ∧ 0 ≤ z ∧ z ≤ 1) ↔
      (box.c0.x - pad ≤ p.x ∧ p.x ≤ box.c1.x + pad ∧ box.c0.y - pad ≤ p.y ∧ p.y ≤ box.c1.y + pad ∧
        box.c0.z - pad ≤ -p.z ∧ -p.z ≤ box.c1.z + pad) := by
  have := (C29_volume_lh_zo _ _ _ _ _ _ hx hy (neg_lt_neg hz) p x y z w hc).2
  rw [this, neg_le, le_neg]
  tauto
theorem C29_aabb_pz_lh_zo_partial (box : M2x3 ℝ) (pad : ℝ) (hx : box.c0.x < box.c1.x)
    (hy : box.c0.y < box.c1.y) (hz : box.c0.z - pad < box.c1.z + pad)
    (p : V3 ℝ) (x y z w : ℝ) (hc : clipv (glm_ortho_aabb_pz_lh_zo box pad) p = ![x, y, z, w]) :
    (-1 ≤ x ∧ x ≤ 1 ∧ -1 ≤ y ∧ y ≤ 1 ∧ 0 ≤ z ∧ z ≤ 1) ↔
      (box.c0.x ≤ p.x ∧ p.x ≤ box.c1.x ∧ box.c0.y ≤ p.y ∧ p.y ≤ box.c1.y ∧
        box.c0.z - pad ≤ -p.z ∧ -p.z ≤ box.c1.z + pad) := by
  have := (C29_volume_lh_zo _ _ _ _ _ _ hx hy (neg_lt_neg hz) p x y z w hc).2
  rw [this, neg_le, le_neg]
  tauto
/-- so the full claim is false.  Witness: the box [0,1]x[0,1]x[1,2] and its corner (0,0,1), which is clipped. -/
theorem C29_aabb_lh_zo_refuted : ¬ ∀ (box : M2x3 ℝ) (p : V3 ℝ), box.c0.x < box.c1.x → box.c0.y < box.c1.y →
    box.c0.z < box.c1.z →
    (box.c0.x ≤ p.x ∧ p.x ≤ box.c1.x ∧ box.c0.y ≤ p.y ∧ p.y ≤ box.c1.y ∧ box.c0.z ≤ p.z ∧ p.z ≤ box.c1.z) →
    clipv (glm_ortho_aabb_lh_zo box) p 2 ≤ 1 := by
  intro h
  have := h ⟨⟨0, 0, 1⟩, ⟨1, 1, 2⟩⟩ ⟨0, 0, 1⟩ (by norm_num) (by norm_num) (by norm_num) (by norm_num)
  unfold glm_ortho_aabb_lh_zo at this
  rw [C29_clip_lh_zo] at this
  simp at this
  norm_num at this

theorem C29_variants (a b c d e f : ℝ) (box : M2x3 ℝ) :
    glm_ortho a b c d e f = glm_ortho_rh_no a b c d e f ∧ glm_ortho_aabb box = glm_ortho_aabb_rh_no box ∧
    glm_ortho_aabb_p box a = glm_ortho_aabb_p_rh_no box a ∧ glm_ortho_aabb_pz box a = glm_ortho_aabb_pz_rh_no box a ∧
    glm_ortho_default a = glm_ortho_default_rh_no a ∧ glm_ortho_default_s a b = glm_ortho_default_s_rh_no a b :=
  ⟨rfl, rfl, rfl, rfl, rfl, rfl⟩

/-- a concrete image: the corner (0,0,-1) of the box [0,2]x[0,4]x[-3,-1] -/
example : clipv (glm_ortho_aabb_rh_no ⟨⟨0, 0, -3⟩, ⟨2, 4, -1⟩⟩) ⟨0, 0, -1⟩ = ![-1, -1, -1, 1] := by
  unfold glm_ortho_aabb_rh_no
  rw [C29_clip_rh_no]
  norm_num

end Cglm
