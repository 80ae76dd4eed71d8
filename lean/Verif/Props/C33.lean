import Verif.Props.C32

/-! # C33: pick matrix -/

namespace Cglm

/-- Multiplying clip coordinates by the pick matrix turns normalized device x, y into the position within the pick
rectangle: -1 and 1 on its borders.  Depth and w are untouched. -/
theorem C33_pick (center size : V2 ℝ) (vp : V4 ℝ) (d : M4 ℝ) (hx : 0 < size.x) (hy : 0 < size.y) (hz : vp.z ≠ 0) (hh : vp.w ≠ 0)
    (X Y z w : ℝ) :
    (glm_pickmatrix center size vp d).mat.mulVec
        ![w * (2 * (X - vp.x) / vp.z - 1), w * (2 * (Y - vp.y) / vp.w - 1), z, w] =
      ![w * ((X - center.x) / (size.x / 2)), w * ((Y - center.y) / (size.y / 2)), z, w] := by
  have h1 : ¬ size.x ≤ 0 := not_le.mpr hx
  have h2 : ¬ size.y ≤ 0 := not_le.mpr hy
  unfold glm_pickmatrix
  simp only [fle_real, lit_zero, h1, h2, decide_false, Bool.or_self, Bool.false_eq_true, if_false]
  ext i
  fin_cases i <;> simp [M4.mat, Matrix.mulVec, dotProduct, Fin.sum_univ_succ, cglm] <;> field_simp <;> ring

/-- the window rectangle `center ± size/2` is exactly what survives clipping: for a point whose window position under the
projection `m` is (X, Y), the picked coordinates are in the square iff (X, Y) is in the rectangle -/
theorem C33_rectangle (center size : V2 ℝ) (vp : V4 ℝ) (d m : M4 ℝ) (hx : 0 < size.x) (hy : 0 < size.y)
    (hz : vp.z ≠ 0) (hh : vp.w ≠ 0) (p : V3 ℝ) (hw : 0 < clipv m p 3) (x y z w : ℝ)
    (hc : clipv (glm_mat4_mul (glm_pickmatrix center size vp d) m) p = ![x, y, z, w]) :
    z = clipv m p 2 ∧ w = clipv m p 3 ∧
    ((-w ≤ x ∧ x ≤ w ∧ -w ≤ y ∧ y ≤ w) ↔
      (|(glm_project p m vp).x - center.x| ≤ size.x / 2 ∧ |(glm_project p m vp).y - center.y| ≤ size.y / 2)) := by
  have hp : glm_project p m vp = window vp (ndc m p) (((ndc m p).z + 1) / 2) := C32_project_no p m vp
  have e : clipv m p = ![clipv m p 3 * (2 * ((glm_project p m vp).x - vp.x) / vp.z - 1),
      clipv m p 3 * (2 * ((glm_project p m vp).y - vp.y) / vp.w - 1), clipv m p 2, clipv m p 3] := by
    rw [hp]
    have := hw.ne'
    ext i
    fin_cases i <;> simp [window, ndc] <;> field_simp <;> ring
  have hc2 := C33_pick center size vp d hx hy hz hh (glm_project p m vp).x (glm_project p m vp).y (clipv m p 2) (clipv m p 3)
  rw [← e] at hc2
  have hc3 : clipv (glm_mat4_mul (glm_pickmatrix center size vp d) m) p =
      (glm_pickmatrix center size vp d).mat.mulVec (clipv m p) := by
    unfold clipv; rw [C01_mat4_mul, Matrix.mulVec_mulVec]
  rw [hc3, hc2] at hc
  have e0 := congrFun hc 0; have e1 := congrFun hc 1; have e2 := congrFun hc 2; have e3 := congrFun hc 3
  simp only [Matrix.cons_val] at e0 e1 e2 e3
  subst e0 e1 e2 e3
  refine ⟨rfl, rfl, ?_⟩
  generalize (glm_project p m vp).x - center.x = a
  generalize (glm_project p m vp).y - center.y = b
  generalize clipv m p 3 = w at *
  have k : ∀ (a s : ℝ), 0 < s → ((-w ≤ w * (a / (s / 2)) ∧ w * (a / (s / 2)) ≤ w) ↔ |a| ≤ s / 2) := by
    intro a s hs
    have hs2 : 0 < s / 2 := by linarith
    rw [abs_le]
    constructor
    · rintro ⟨h1, h2⟩
      have h1 : -1 ≤ a / (s / 2) := by by_contra h; push Not at h; nlinarith
      have h2 : a / (s / 2) ≤ 1 := by by_contra h; push Not at h; nlinarith
      rw [le_div_iff₀ hs2] at h1; rw [div_le_iff₀ hs2] at h2
      exact ⟨by linarith, by linarith⟩
    · rintro ⟨h1, h2⟩
      have h1 : -1 ≤ a / (s / 2) := by rw [le_div_iff₀ hs2]; linarith
      have h2 : a / (s / 2) ≤ 1 := by rw [div_le_iff₀ hs2]; linarith
      constructor <;> nlinarith
  have k1 := k a size.x hx
  have k2 := k b size.y hy
  tauto

theorem C33_untouched (center size : V2 ℝ) (vp : V4 ℝ) (d : M4 ℝ) (h : size.x ≤ 0 ∨ size.y ≤ 0) :
    glm_pickmatrix center size vp d = d := by
  unfold glm_pickmatrix
  rcases h with h | h <;> simp [fle_real, lit_zero, h]

example : clipv (glm_mat4_identity : M4 ℝ) ⟨0, 0, 0⟩ 3 > 0 := by
  simp [clipv, M4.mat, V3.hom, V4.vec, Matrix.mulVec, dotProduct, Fin.sum_univ_succ, cglm]

end Cglm
