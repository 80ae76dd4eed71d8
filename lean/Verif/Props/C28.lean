import Verif.Props.C27

/-! # C28: off-centre frusta -/

namespace Cglm

/-! ## right-handed, depth [-1,1] -/

private theorem fclip_rh_no (l r b t n f : ℝ) (p : V3 ℝ) :
    clipv (glm_frustum_rh_no l r b t n f) p = ![2 * n * p.x / (r - l) + (r + l) / (r - l) * p.z,
      2 * n * p.y / (t - b) + (t + b) / (t - b) * p.z, -((f + n) / (f - n)) * p.z - 2 * f * n / (f - n), -p.z] := by
  ext i
  fin_cases i <;> simp [clipv, M4.mat, V3.hom, V4.vec, Matrix.mulVec, dotProduct, Fin.sum_univ_succ, cglm] <;> ring

/-- Where every point in front of the camera lands.  A ray through the near-plane rectangle at the fractions `u`, `v` of
its sides (0: left/bottom, 1: right/top) has device coordinates 2u-1, 2v-1 at every depth `d`. -/
theorem C28_frustum_rh_no (l r b t n f : ℝ) (hx : l ≠ r) (hy : b ≠ t) (hn : n ≠ 0) (hf : n ≠ f) (d : ℝ) (hd : 0 < d)
    (u v : ℝ) :
    ndc (glm_frustum_rh_no l r b t n f) ⟨(l + u * (r - l)) * (d / n), (b + v * (t - b)) * (d / n), -d⟩ =
      ⟨2 * u - 1, 2 * v - 1, depthNo n f d⟩ := by
  have h2 : f - n ≠ 0 := sub_ne_zero.mpr (Ne.symm hf)
  have h3 : r - l ≠ 0 := sub_ne_zero.mpr (Ne.symm hx)
  have h4 : t - b ≠ 0 := sub_ne_zero.mpr (Ne.symm hy)
  unfold ndc
  rw [fclip_rh_no]
  ext <;> simp [depthNo] <;> field_simp <;> ring
/-- in particular the corners of the near rectangle are the corners of the square, on the near side of the depth range -/
theorem C28_corners_rh_no (l r b t n f : ℝ) (hx : l ≠ r) (hy : b ≠ t) (hn : 0 < n) (hf : n < f) :
    ndc (glm_frustum_rh_no l r b t n f) ⟨l, b, -n⟩ = ⟨-1, -1, -1⟩ ∧
    ndc (glm_frustum_rh_no l r b t n f) ⟨r, b, -n⟩ = ⟨1, -1, -1⟩ ∧
    ndc (glm_frustum_rh_no l r b t n f) ⟨l, t, -n⟩ = ⟨-1, 1, -1⟩ ∧
    ndc (glm_frustum_rh_no l r b t n f) ⟨r, t, -n⟩ = ⟨1, 1, -1⟩ := by
  have h := C28_frustum_rh_no l r b t n f hx hy hn.ne' hf.ne n hn
  have hd := (C27_depthNo n f hn hf).1
  have e := hn.ne'
  have a := h 0 0; have a1 := h 1 0; have a2 := h 0 1; have a3 := h 1 1
  rw [hd] at a a1 a2 a3
  norm_num [div_self e] at a a1 a2 a3
  exact ⟨a, a1, a2, a3⟩

/-! ## right-handed, depth [0,1] -/

private theorem fclip_rh_zo (l r b t n f : ℝ) (p : V3 ℝ) :
    clipv (glm_frustum_rh_zo l r b t n f) p = ![2 * n * p.x / (r - l) + (r + l) / (r - l) * p.z,
      2 * n * p.y / (t - b) + (t + b) / (t - b) * p.z, -(f / (f - n)) * p.z - f * n / (f - n), -p.z] := by
  ext i
  fin_cases i <;> simp [clipv, M4.mat, V3.hom, V4.vec, Matrix.mulVec, dotProduct, Fin.sum_univ_succ, cglm] <;> ring

/-- Where every point in front of the camera lands.  A ray through the near-plane rectangle at the fractions `u`, `v` of
its sides (0: left/bottom, 1: right/top) has device coordinates 2u-1, 2v-1 at every depth `d`. -/
theorem C28_frustum_rh_zo (l r b t n f : ℝ) (hx : l ≠ r) (hy : b ≠ t) (hn : n ≠ 0) (hf : n ≠ f) (d : ℝ) (hd : 0 < d)
    (u v : ℝ) :
    ndc (glm_frustum_rh_zo l r b t n f) ⟨(l + u * (r - l)) * (d / n), (b + v * (t - b)) * (d / n), -d⟩ =
      ⟨2 * u - 1, 2 * v - 1, depthZo n f d⟩ := by
  have h2 : f - n ≠ 0 := sub_ne_zero.mpr (Ne.symm hf)
  have h3 : r - l ≠ 0 := sub_ne_zero.mpr (Ne.symm hx)
  have h4 : t - b ≠ 0 := sub_ne_zero.mpr (Ne.symm hy)
  unfold ndc
  rw [fclip_rh_zo]
  ext <;> simp [depthZo] <;> field_simp <;> ring
/-- in particular the corners of the near rectangle are the corners of the square, on the near side of the depth range -/
theorem C28_corners_rh_zo (l r b t n f : ℝ) (hx : l ≠ r) (hy : b ≠ t) (hn : 0 < n) (hf : n < f) :
    ndc (glm_frustum_rh_zo l r b t n f) ⟨l, b, -n⟩ = ⟨-1, -1, 0⟩ ∧
    ndc (glm_frustum_rh_zo l r b t n f) ⟨r, b, -n⟩ = ⟨1, -1, 0⟩ ∧
    ndc (glm_frustum_rh_zo l r b t n f) ⟨l, t, -n⟩ = ⟨-1, 1, 0⟩ ∧
    ndc (glm_frustum_rh_zo l r b t n f) ⟨r, t, -n⟩ = ⟨1, 1, 0⟩ := by
  have h := C28_frustum_rh_zo l r b t n f hx hy hn.ne' hf.ne n hn
  have hd := (C27_depthZo n f hn hf).1
  have e := hn.ne'
  have a := h 0 0; have a1 := h 1 0; have a2 := h 0 1; have a3 := h 1 1
  rw [hd] at a a1 a2 a3
  norm_num [div_self e] at a a1 a2 a3
  exact ⟨a, a1, a2, a3⟩

/-! ## left-handed, depth [-1,1] -/

private theorem fclip_lh_no (l r b t n f : ℝ) (p : V3 ℝ) :
    clipv (glm_frustum_lh_no l r b t n f) p = ![2 * n * p.x / (r - l) + (r + l) / (r - l) * p.z,
      2 * n * p.y / (t - b) + (t + b) / (t - b) * p.z, (f + n) / (f - n) * p.z - 2 * f * n / (f - n), p.z] := by
  ext i
  fin_cases i <;> simp [clipv, M4.mat, V3.hom, V4.vec, Matrix.mulVec, dotProduct, Fin.sum_univ_succ, cglm] <;> ring

/-- Symmetric frusta only (l = -r, b = -t): where every point in front of the camera lands.  The off-centre entries
of the left-handed matrix have the wrong sign, see `C28_refuted_lh_no`. -/
theorem C28_frustum_lh_no_partial (r t n f : ℝ) (hx : r ≠ 0) (hy : t ≠ 0) (hn : n ≠ 0) (hf : n ≠ f) (d : ℝ) (hd : 0 < d)
    (u v : ℝ) :
    ndc (glm_frustum_lh_no (-r) r (-t) t n f) ⟨(-r + u * (r - -r)) * (d / n), (-t + v * (t - -t)) * (d / n), d⟩ =
      ⟨2 * u - 1, 2 * v - 1, depthNo n f d⟩ := by
  have h2 : f - n ≠ 0 := sub_ne_zero.mpr (Ne.symm hf)
  unfold ndc
  rw [fclip_lh_no]
  ext <;> simp [depthNo] <;> field_simp <;> ring
/-- what it computes for off-centre frusta: the image of the window is shifted by twice the off-centre ratio -/
theorem C28_actual_lh_no (l r b t n f : ℝ) (hx : l ≠ r) (hy : b ≠ t) (hn : n ≠ 0) (hf : n ≠ f) (d : ℝ) (hd : 0 < d)
    (u v : ℝ) :
    ndc (glm_frustum_lh_no l r b t n f) ⟨(l + u * (r - l)) * (d / n), (b + v * (t - b)) * (d / n), d⟩ =
      ⟨2 * u - 1 + 2 * ((r + l) / (r - l)), 2 * v - 1 + 2 * ((t + b) / (t - b)), depthNo n f d⟩ := by
  have h2 : f - n ≠ 0 := sub_ne_zero.mpr (Ne.symm hf)
  have h3 : r - l ≠ 0 := sub_ne_zero.mpr (Ne.symm hx)
  have h4 : t - b ≠ 0 := sub_ne_zero.mpr (Ne.symm hy)
  unfold ndc
  rw [fclip_lh_no]
  ext <;> simp [depthNo] <;> field_simp <;> ring
/-- The full claim is false of the code.  Witness: l = 0, r = 1, b = -1, t = 1, n = 1, f = 2; the lower left corner of
the near rectangle goes to x = 1 instead of x = -1. -/
theorem C28_refuted_lh_no : ¬ ∀ l r b t n f : ℝ, l < r → b < t → 0 < n → n < f →
    ndc (glm_frustum_lh_no l r b t n f) ⟨l, b, n⟩ = ⟨-1, -1, -1⟩ := by
  intro h
  have e := congrArg V3.x (h 0 1 (-1) 1 1 2 (by norm_num) (by norm_num) (by norm_num) (by norm_num))
  unfold ndc at e
  rw [fclip_lh_no] at e
  simp at e
  norm_num at e

/-! ## left-handed, depth [0,1] -/

private theorem fclip_lh_zo (l r b t n f : ℝ) (p : V3 ℝ) :
    clipv (glm_frustum_lh_zo l r b t n f) p = ![2 * n * p.x / (r - l) + (r + l) / (r - l) * p.z,
      2 * n * p.y / (t - b) + (t + b) / (t - b) * p.z, f / (f - n) * p.z - f * n / (f - n), p.z] := by
  ext i
  fin_cases i <;> simp [clipv, M4.mat, V3.hom, V4.vec, Matrix.mulVec, dotProduct, Fin.sum_univ_succ, cglm] <;> ring

/-- Symmetric frusta only (l = -r, b = -t): where every point in front of the camera lands.  The off-centre entries
of the left-handed matrix have the wrong sign, see `C28_refuted_lh_zo`. -/
theorem C28_frustum_lh_zo_partial (r t n f : ℝ) (hx : r ≠ 0) (hy : t ≠ 0) (hn : n ≠ 0) (hf : n ≠ f) (d : ℝ) (hd : 0 < d)
    (u v : ℝ) :
    ndc (glm_frustum_lh_zo (-r) r (-t) t n f) ⟨(-r + u * (r - -r)) * (d / n), (-t + v * (t - -t)) * (d / n), d⟩ =
      ⟨2 * u - 1, 2 * v - 1, depthZo n f d⟩ := by
  have h2 : f - n ≠ 0 := sub_ne_zero.mpr (Ne.symm hf)
  unfold ndc
  rw [fclip_lh_zo]
  ext <;> simp [depthZo] <;> field_simp <;> ring
/-- what it computes for off-centre frusta: the image of the window is shifted by twice the off-centre ratio -/
theorem C28_actual_lh_zo (l r b t n f : ℝ) (hx : l ≠ r) (hy : b ≠ t) (hn : n ≠ 0) (hf : n ≠ f) (d : ℝ) (hd : 0 < d)
    (u v : ℝ) :
    ndc (glm_frustum_lh_zo l r b t n f) ⟨(l + u * (r - l)) * (d / n), (b + v * (t - b)) * (d / n), d⟩ =
      ⟨2 * u - 1 + 2 * ((r + l) / (r - l)), 2 * v - 1 + 2 * ((t + b) / (t - b)), depthZo n f d⟩ := by
  have h2 : f - n ≠ 0 := sub_ne_zero.mpr (Ne.symm hf)
  have h3 : r - l ≠ 0 := sub_ne_zero.mpr (Ne.symm hx)
  have h4 : t - b ≠ 0 := sub_ne_zero.mpr (Ne.symm hy)
  unfold ndc
  rw [fclip_lh_zo]
  ext <;> simp [depthZo] <;> field_simp <;> ring
/-- The full claim is false of the code.  Witness: l = 0, r = 1, b = -1, t = 1, n = 1, f = 2; the lower left corner of
the near rectangle goes to x = 1 instead of x = -1. -/
theorem C28_refuted_lh_zo : ¬ ∀ l r b t n f : ℝ, l < r → b < t → 0 < n → n < f →
    ndc (glm_frustum_lh_zo l r b t n f) ⟨l, b, n⟩ = ⟨-1, -1, 0⟩ := by
  intro h
  have e := congrArg V3.x (h 0 1 (-1) 1 1 2 (by norm_num) (by norm_num) (by norm_num) (by norm_num))
  unfold ndc at e
  rw [fclip_lh_zo] at e
  simp at e
  norm_num at e

theorem C28_variants (a b c d e f : ℝ) : glm_frustum a b c d e f = glm_frustum_rh_no a b c d e f := rfl

/-- an off-centre instance of the hypotheses -/
example : (0:ℝ) ≠ 1 ∧ (-1:ℝ) ≠ 3 ∧ (0:ℝ) < 1 ∧ (1:ℝ) < 2 := by norm_num

end Cglm
