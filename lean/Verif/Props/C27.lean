import Verif.MatTac
import Verif.Lemmas
import Mathlib.Analysis.SpecialFunctions.Trigonometric.Arctan

/-! # C27: perspective projections

A point at depth `d` in front of the camera has z = -d (right-handed) or z = d (left-handed). -/

namespace Cglm

/-- homogeneous clip coordinates of a point -/
def clipv (m : M4 ℝ) (p : V3 ℝ) : Fin 4 → ℝ := m.mat.mulVec (p.hom 1).vec
/-- normalized device coordinates, where clip w is not zero -/
noncomputable def ndc (m : M4 ℝ) (p : V3 ℝ) : V3 ℝ :=
  ⟨clipv m p 0 / clipv m p 3, clipv m p 1 / clipv m p 3, clipv m p 2 / clipv m p 3⟩
/-- depth in [-1,1] of a point at distance `d` -/
noncomputable def depthNo (n f d : ℝ) : ℝ := (f + n) / (f - n) - 2 * f * n / ((f - n) * d)
/-- depth in [0,1] of a point at distance `d` -/
noncomputable def depthZo (n f d : ℝ) : ℝ := f / (f - n) - f * n / ((f - n) * d)

theorem half_lit (x : ℝ) : x * (lit 0.5 : ℝ) = x / 2 := by
  have : (lit 0.5 : ℝ) = 1 / 2 := by simp only [lit_scientific]; norm_num
  rw [this]; ring
theorem tan_half_pos {fovy : ℝ} (h0 : 0 < fovy) (h1 : fovy < Real.pi) : 0 < Real.tan (fovy / 2) :=
  Real.tan_pos_of_pos_of_lt_pi_div_two (by linarith) (by linarith)

/-! the documented depth ranges: end points and strict monotonicity -/
theorem C27_depthNo (n f : ℝ) (hn : 0 < n) (hf : n < f) :
    depthNo n f n = -1 ∧ depthNo n f f = 1 ∧ StrictMonoOn (depthNo n f) (Set.Ioi 0) := by
  have h : 0 < f - n := by linarith
  have hf' : 0 < f := by linarith
  refine ⟨?_, ?_, ?_⟩
  · unfold depthNo; field_simp; ring
  · unfold depthNo; field_simp; ring
  · intro a ha b hb hab
    have ha : 0 < a := ha
    have hb : 0 < b := hb
    have : depthNo n f b - depthNo n f a = 2 * f * n * (b - a) / ((f - n) * (a * b)) := by
      unfold depthNo; field_simp; ring
    have : 0 < depthNo n f b - depthNo n f a := by
      rw [this]
      have : 0 < b - a := by linarith
      positivity
    linarith
theorem C27_depthZo (n f : ℝ) (hn : 0 < n) (hf : n < f) :
    depthZo n f n = 0 ∧ depthZo n f f = 1 ∧ StrictMonoOn (depthZo n f) (Set.Ioi 0) := by
  have h : 0 < f - n := by linarith
  have hf' : 0 < f := by linarith
  refine ⟨?_, ?_, ?_⟩
  · unfold depthZo; field_simp; ring
  · unfold depthZo; field_simp
  · intro a ha b hb hab
    have ha : 0 < a := ha
    have hb : 0 < b := hb
    have : depthZo n f b - depthZo n f a = f * n * (b - a) / ((f - n) * (a * b)) := by
      unfold depthZo; field_simp; ring
    have : 0 < depthZo n f b - depthZo n f a := by
      rw [this]
      have : 0 < b - a := by linarith
      positivity
    linarith

/-! ## right-handed, depth [-1,1] -/

private theorem clip_rh_no (fovy aspect n f : ℝ) (p : V3 ℝ) :
    clipv (glm_perspective_rh_no fovy aspect n f) p = ![1 / Real.tan (fovy / 2) / aspect * p.x, 1 / Real.tan (fovy / 2) * p.y,
      (f + n) / (n - f) * p.z + 2 * n * f / (n - f), -p.z] := by
  unfold glm_perspective_rh_no
  rw [half_lit, tanf_real]
  generalize Real.tan (fovy / 2) = T
  ext i
  fin_cases i <;> simp [clipv, M4.mat, V3.hom, V4.vec, Matrix.mulVec, dotProduct, Fin.sum_univ_succ, cglm] <;> ring_nf <;> simp
/-- Where every point in front of the camera lands: the point at depth `d` that is at the fraction `u`, `v` of the half
width and half height of the frustum there has device coordinates `u`, `v` and the documented depth. -/
theorem C27_perspective_rh_no (fovy aspect n f : ℝ) (h0 : 0 < fovy) (h1 : fovy < Real.pi) (ha : aspect ≠ 0) (hf : n ≠ f)
    (d : ℝ) (hd : 0 < d) (u v : ℝ) :
    ndc (glm_perspective_rh_no fovy aspect n f) ⟨u * (aspect * Real.tan (fovy / 2) * d), v * (Real.tan (fovy / 2) * d), -d⟩ =
      ⟨u, v, depthNo n f d⟩ := by
  have ht := (tan_half_pos h0 h1).ne'
  have h2 : f - n ≠ 0 := sub_ne_zero.mpr (Ne.symm hf)
  have h3 : n - f ≠ 0 := sub_ne_zero.mpr hf
  unfold ndc
  rw [clip_rh_no]
  generalize Real.tan (fovy / 2) = T at *
  ext <;> simp [depthNo]
  · field_simp
  · field_simp
  · rw [show n - f = -(f - n) by ring]; field_simp; ring
/-- The clip volume is exactly the view frustum. -/
theorem C27_volume_rh_no (fovy aspect n f : ℝ) (h0 : 0 < fovy) (h1 : fovy < Real.pi) (ha : 0 < aspect) (hn : 0 < n)
    (hf : n < f) (p : V3 ℝ) (x y z w : ℝ) (hc : clipv (glm_perspective_rh_no fovy aspect n f) p = ![x, y, z, w]) :
    (|x| ≤ w ∧ |y| ≤ w ∧ -w ≤ z ∧ z ≤ w) ↔
      (n ≤ -p.z ∧ -p.z ≤ f ∧ |p.x| ≤ aspect * Real.tan (fovy / 2) * -p.z ∧ |p.y| ≤ Real.tan (fovy / 2) * -p.z) := by
  have ht := tan_half_pos h0 h1
  rw [clip_rh_no] at hc
  generalize Real.tan (fovy / 2) = T at *
  have e0 := congrFun hc 0; have e1 := congrFun hc 1; have e2 := congrFun hc 2; have e3 := congrFun hc 3
  simp at e0 e1 e2 e3
  subst e0 e1 e2 e3
  have hnf : 0 < f - n := by linarith
  have hf0 : 0 < f := by linarith
  have ex : |T⁻¹ / aspect * p.x| ≤ -p.z ↔ |p.x| ≤ aspect * T * -p.z := by
    rw [abs_mul, abs_of_pos (by positivity : (0:ℝ) < T⁻¹ / aspect), show T⁻¹ / aspect = (aspect * T)⁻¹ by field_simp,
      inv_mul_le_iff₀ (by positivity)]
  have ey : |T⁻¹ * p.y| ≤ -p.z ↔ |p.y| ≤ T * -p.z := by
    rw [abs_mul, abs_of_pos (by positivity : (0:ℝ) < T⁻¹), inv_mul_le_iff₀ ht]
  have ez : (f + n) / (n - f) * p.z + 2 * n * f / (n - f) = ((f + n) * (-p.z) - 2 * n * f) / (f - n) := by
    rw [show n - f = -(f - n) by ring]; field_simp; ring
  rw [ex, ey, ez, le_div_iff₀ hnf, div_le_iff₀ hnf]
  constructor
  · rintro ⟨a, b, c, d⟩
    exact ⟨by nlinarith, by nlinarith, a, b⟩
  · rintro ⟨a, b, c, d⟩
    exact ⟨c, d, by nlinarith, by nlinarith⟩

/-! ## right-handed, depth [0,1] -/

private theorem clip_rh_zo (fovy aspect n f : ℝ) (p : V3 ℝ) :
    clipv (glm_perspective_rh_zo fovy aspect n f) p = ![1 / Real.tan (fovy / 2) / aspect * p.x, 1 / Real.tan (fovy / 2) * p.y,
      f / (n - f) * p.z + n * f / (n - f), -p.z] := by
  unfold glm_perspective_rh_zo
  rw [half_lit, tanf_real]
  generalize Real.tan (fovy / 2) = T
  ext i
  fin_cases i <;> simp [clipv, M4.mat, V3.hom, V4.vec, Matrix.mulVec, dotProduct, Fin.sum_univ_succ, cglm] <;> ring_nf <;> simp
/-- Where every point in front of the camera lands: the point at depth `d` that is at the fraction `u`, `v` of the half
width and half height of the frustum there has device coordinates `u`, `v` and the documented depth. -/
theorem C27_perspective_rh_zo (fovy aspect n f : ℝ) (h0 : 0 < fovy) (h1 : fovy < Real.pi) (ha : aspect ≠ 0) (hf : n ≠ f)
    (d : ℝ) (hd : 0 < d) (u v : ℝ) :
    ndc (glm_perspective_rh_zo fovy aspect n f) ⟨u * (aspect * Real.tan (fovy / 2) * d), v * (Real.tan (fovy / 2) * d), -d⟩ =
      ⟨u, v, depthZo n f d⟩ := by
  have ht := (tan_half_pos h0 h1).ne'
  have h2 : f - n ≠ 0 := sub_ne_zero.mpr (Ne.symm hf)
  have h3 : n - f ≠ 0 := sub_ne_zero.mpr hf
  unfold ndc
  rw [clip_rh_zo]
  generalize Real.tan (fovy / 2) = T at *
  ext <;> simp [depthZo]
  · field_simp
  · field_simp
  · rw [show n - f = -(f - n) by ring]; field_simp; ring
/-- The clip volume is exactly the view frustum. -/
theorem C27_volume_rh_zo (fovy aspect n f : ℝ) (h0 : 0 < fovy) (h1 : fovy < Real.pi) (ha : 0 < aspect) (hn : 0 < n)
    (hf : n < f) (p : V3 ℝ) (x y z w : ℝ) (hc : clipv (glm_perspective_rh_zo fovy aspect n f) p = ![x, y, z, w]) :
    (|x| ≤ w ∧ |y| ≤ w ∧ 0 ≤ z ∧ z ≤ w) ↔
      (n ≤ -p.z ∧ -p.z ≤ f ∧ |p.x| ≤ aspect * Real.tan (fovy / 2) * -p.z ∧ |p.y| ≤ Real.tan (fovy / 2) * -p.z) := by
  have ht := tan_half_pos h0 h1
  rw [clip_rh_zo] at hc
  generalize Real.tan (fovy / 2) = T at *
  have e0 := congrFun hc 0; have e1 := congrFun hc 1; have e2 := congrFun hc 2; have e3 := congrFun hc 3
  simp at e0 e1 e2 e3
  subst e0 e1 e2 e3
  have hnf : 0 < f - n := by linarith
  have hf0 : 0 < f := by linarith
  have ex : |T⁻¹ / aspect * p.x| ≤ -p.z ↔ |p.x| ≤ aspect * T * -p.z := by
    rw [abs_mul, abs_of_pos (by positivity : (0:ℝ) < T⁻¹ / aspect), show T⁻¹ / aspect = (aspect * T)⁻¹ by field_simp,
      inv_mul_le_iff₀ (by positivity)]
  have ey : |T⁻¹ * p.y| ≤ -p.z ↔ |p.y| ≤ T * -p.z := by
    rw [abs_mul, abs_of_pos (by positivity : (0:ℝ) < T⁻¹), inv_mul_le_iff₀ ht]
  have ez : f / (n - f) * p.z + n * f / (n - f) = (f * (-p.z) - n * f) / (f - n) := by
    rw [show n - f = -(f - n) by ring]; field_simp; ring
  rw [ex, ey, ez, le_div_iff₀ hnf, div_le_iff₀ hnf]
  constructor
  · rintro ⟨a, b, c, d⟩
    exact ⟨by nlinarith, by nlinarith, a, b⟩
  · rintro ⟨a, b, c, d⟩
    exact ⟨c, d, by nlinarith, by nlinarith⟩

/-! ## left-handed, depth [-1,1] -/

private theorem clip_lh_no (fovy aspect n f : ℝ) (p : V3 ℝ) :
    clipv (glm_perspective_lh_no fovy aspect n f) p = ![1 / Real.tan (fovy / 2) / aspect * p.x, 1 / Real.tan (fovy / 2) * p.y,
      -((f + n) / (n - f) * p.z) + 2 * n * f / (n - f), p.z] := by
  unfold glm_perspective_lh_no
  rw [half_lit, tanf_real]
  generalize Real.tan (fovy / 2) = T
  ext i
  fin_cases i <;> simp [clipv, M4.mat, V3.hom, V4.vec, Matrix.mulVec, dotProduct, Fin.sum_univ_succ, cglm] <;> ring_nf <;> simp
/-- Where every point in front of the camera lands: the point at depth `d` that is at the fraction `u`, `v` of the half
width and half height of the frustum there has device coordinates `u`, `v` and the documented depth. -/
theorem C27_perspective_lh_no (fovy aspect n f : ℝ) (h0 : 0 < fovy) (h1 : fovy < Real.pi) (ha : aspect ≠ 0) (hf : n ≠ f)
    (d : ℝ) (hd : 0 < d) (u v : ℝ) :
    ndc (glm_perspective_lh_no fovy aspect n f) ⟨u * (aspect * Real.tan (fovy / 2) * d), v * (Real.tan (fovy / 2) * d), d⟩ =
      ⟨u, v, depthNo n f d⟩ := by
  have ht := (tan_half_pos h0 h1).ne'
  have h2 : f - n ≠ 0 := sub_ne_zero.mpr (Ne.symm hf)
  have h3 : n - f ≠ 0 := sub_ne_zero.mpr hf
  unfold ndc
  rw [clip_lh_no]
  generalize Real.tan (fovy / 2) = T at *
  ext <;> simp [depthNo]
  · field_simp
  · field_simp
  · rw [show n - f = -(f - n) by ring]; field_simp; ring
/-- The clip volume is exactly the view frustum. -/
theorem C27_volume_lh_no (fovy aspect n f : ℝ) (h0 : 0 < fovy) (h1 : fovy < Real.pi) (ha : 0 < aspect) (hn : 0 < n)
    (hf : n < f) (p : V3 ℝ) (x y z w : ℝ) (hc : clipv (glm_perspective_lh_no fovy aspect n f) p = ![x, y, z, w]) :
    (|x| ≤ w ∧ |y| ≤ w ∧ -w ≤ z ∧ z ≤ w) ↔
      (n ≤ p.z ∧ p.z ≤ f ∧ |p.x| ≤ aspect * Real.tan (fovy / 2) * p.z ∧ |p.y| ≤ Real.tan (fovy / 2) * p.z) := by
  have ht := tan_half_pos h0 h1
  rw [clip_lh_no] at hc
  generalize Real.tan (fovy / 2) = T at *
  have e0 := congrFun hc 0; have e1 := congrFun hc 1; have e2 := congrFun hc 2; have e3 := congrFun hc 3
  simp at e0 e1 e2 e3
  subst e0 e1 e2 e3
  have hnf : 0 < f - n := by linarith
  have hf0 : 0 < f := by linarith
  have ex : |T⁻¹ / aspect * p.x| ≤ p.z ↔ |p.x| ≤ aspect * T * p.z := by
    rw [abs_mul, abs_of_pos (by positivity : (0:ℝ) < T⁻¹ / aspect), show T⁻¹ / aspect = (aspect * T)⁻¹ by field_simp,
      inv_mul_le_iff₀ (by positivity)]
  have ey : |T⁻¹ * p.y| ≤ p.z ↔ |p.y| ≤ T * p.z := by
    rw [abs_mul, abs_of_pos (by positivity : (0:ℝ) < T⁻¹), inv_mul_le_iff₀ ht]
  have ez : -((f + n) / (n - f) * p.z) + 2 * n * f / (n - f) = ((f + n) * (p.z) - 2 * n * f) / (f - n) := by
    rw [show n - f = -(f - n) by ring]; field_simp; ring
  rw [ex, ey, ez, le_div_iff₀ hnf, div_le_iff₀ hnf]
  constructor
  · rintro ⟨a, b, c, d⟩
    exact ⟨by nlinarith, by nlinarith, a, b⟩
  · rintro ⟨a, b, c, d⟩
    exact ⟨c, d, by nlinarith, by nlinarith⟩

/-! ## left-handed, depth [0,1] -/

private theorem clip_lh_zo (fovy aspect n f : ℝ) (p : V3 ℝ) :
    clipv (glm_perspective_lh_zo fovy aspect n f) p = ![1 / Real.tan (fovy / 2) / aspect * p.x, 1 / Real.tan (fovy / 2) * p.y,
      -(f / (n - f) * p.z) + n * f / (n - f), p.z] := by
  unfold glm_perspective_lh_zo
  rw [half_lit, tanf_real]
  generalize Real.tan (fovy / 2) = T
  ext i
  fin_cases i <;> simp [clipv, M4.mat, V3.hom, V4.vec, Matrix.mulVec, dotProduct, Fin.sum_univ_succ, cglm] <;> ring_nf <;> simp
/-- Where every point in front of the camera lands: the point at depth `d` that is at the fraction `u`, `v` of the half
width and half height of the frustum there has device coordinates `u`, `v` and the documented depth. -/
theorem C27_perspective_lh_zo (fovy aspect n f : ℝ) (h0 : 0 < fovy) (h1 : fovy < Real.pi) (ha : aspect ≠ 0) (hf : n ≠ f)
    (d : ℝ) (hd : 0 < d) (u v : ℝ) :
    ndc (glm_perspective_lh_zo fovy aspect n f) ⟨u * (aspect * Real.tan (fovy / 2) * d), v * (Real.tan (fovy / 2) * d), d⟩ =
      ⟨u, v, depthZo n f d⟩ := by
  have ht := (tan_half_pos h0 h1).ne'
  have h2 : f - n ≠ 0 := sub_ne_zero.mpr (Ne.symm hf)
  have h3 : n - f ≠ 0 := sub_ne_zero.mpr hf
  unfold ndc
  rw [clip_lh_zo]
  generalize Real.tan (fovy / 2) = T at *
  ext <;> simp [depthZo]
  · field_simp
  · field_simp
  · rw [show n - f = -(f - n) by ring]; field_simp; ring
/-- The clip volume is exactly the view frustum. -/
theorem C27_volume_lh_zo (fovy aspect n f : ℝ) (h0 : 0 < fovy) (h1 : fovy < Real.pi) (ha : 0 < aspect) (hn : 0 < n)
    (hf : n < f) (p : V3 ℝ) (x y z w : ℝ) (hc : clipv (glm_perspective_lh_zo fovy aspect n f) p = ![x, y, z, w]) :
    (|x| ≤ w ∧ |y| ≤ w ∧ 0 ≤ z ∧ z ≤ w) ↔
      (n ≤ p.z ∧ p.z ≤ f ∧ |p.x| ≤ aspect * Real.tan (fovy / 2) * p.z ∧ |p.y| ≤ Real.tan (fovy / 2) * p.z) := by
  have ht := tan_half_pos h0 h1
  rw [clip_lh_zo] at hc
  generalize Real.tan (fovy / 2) = T at *
  have e0 := congrFun hc 0; have e1 := congrFun hc 1; have e2 := congrFun hc 2; have e3 := congrFun hc 3
  simp at e0 e1 e2 e3
  subst e0 e1 e2 e3
  have hnf : 0 < f - n := by linarith
  have hf0 : 0 < f := by linarith
  have ex : |T⁻¹ / aspect * p.x| ≤ p.z ↔ |p.x| ≤ aspect * T * p.z := by
    rw [abs_mul, abs_of_pos (by positivity : (0:ℝ) < T⁻¹ / aspect), show T⁻¹ / aspect = (aspect * T)⁻¹ by field_simp,
      inv_mul_le_iff₀ (by positivity)]
  have ey : |T⁻¹ * p.y| ≤ p.z ↔ |p.y| ≤ T * p.z := by
    rw [abs_mul, abs_of_pos (by positivity : (0:ℝ) < T⁻¹), inv_mul_le_iff₀ ht]
  have ez : -(f / (n - f) * p.z) + n * f / (n - f) = (f * (p.z) - n * f) / (f - n) := by
    rw [show n - f = -(f - n) by ring]; field_simp; ring
  rw [ex, ey, ez, le_div_iff₀ hnf, div_le_iff₀ hnf]
  constructor
  · rintro ⟨a, b, c, d⟩
    exact ⟨by nlinarith, by nlinarith, a, b⟩
  · rintro ⟨a, b, c, d⟩
    exact ⟨c, d, by nlinarith, by nlinarith⟩

/-- the default projection: field of view 45 degrees (the literal is within 1e-30 of π/4), near 0.01, far 100 -/
theorem C27_default (aspect : ℝ) (K : ℝ) (hK : K = 0.785398163397448309615660845819875721) :
    glm_perspective_default_rh_no aspect = glm_perspective_rh_no K aspect 0.01 100 ∧
    glm_perspective_default_rh_zo aspect = glm_perspective_rh_zo K aspect 0.01 100 ∧
    glm_perspective_default_lh_no aspect = glm_perspective_lh_no K aspect 0.01 100 ∧
    glm_perspective_default_lh_zo aspect = glm_perspective_lh_zo K aspect 0.01 100 ∧
    glm_perspective_default aspect = glm_perspective_rh_no K aspect 0.01 100 := by
  have h1 : (lit 0.785398163397448309615660845819875721 : ℝ) = K := by rw [hK]; simp only [lit_scientific]
  have h2 : (lit 0.01 : ℝ) = 0.01 := by simp only [lit_scientific]
  unfold glm_perspective_default glm_perspective_default_rh_no glm_perspective_default_rh_zo glm_perspective_default_lh_no
    glm_perspective_default_lh_zo
  rw [h1, h2, lit_100]
  exact ⟨rfl, rfl, rfl, rfl, rfl⟩
theorem C27_variants (a b c d : ℝ) : glm_perspective a b c d = glm_perspective_rh_no a b c d := rfl

/-- non-trivial instances of the hypotheses: 90 degrees, 16:9, near 1, far 3 -/
example : 0 < Real.pi / 2 ∧ Real.pi / 2 < Real.pi ∧ (0:ℝ) < 16 / 9 ∧ (0:ℝ) < 1 ∧ (1:ℝ) < 3 :=
  ⟨by positivity, by linarith [Real.pi_pos], by norm_num, by norm_num, by norm_num⟩

end Cglm
