import Verif.MatTac
import Verif.Lemmas
import Verif.Hand

/-! # C44: cubic curves -/

namespace Cglm

/-- cubic Bernstein form -/
def bernstein (p0 c0 c1 p1 s : ℝ) : ℝ :=
  (1 - s) ^ 3 * p0 + 3 * s * (1 - s) ^ 2 * c0 + 3 * s ^ 2 * (1 - s) * c1 + s ^ 3 * p1
/-- cubic Hermite form: end points p0, p1 with slopes t0, t1 -/
def hermite (p0 t0 t1 p1 s : ℝ) : ℝ :=
  (2 * s ^ 3 - 3 * s ^ 2 + 1) * p0 + (s ^ 3 - 2 * s ^ 2 + s) * t0 + (s ^ 3 - s ^ 2) * t1 + (3 * s ^ 2 - 2 * s ^ 3) * p1

theorem C44_bezier (s p0 c0 c1 p1 : ℝ) : glm_bezier s p0 c0 c1 p1 = bernstein p0 c0 c1 p1 s := by
  simp [cglm, bernstein]; ring
theorem C44_hermite (s p0 t0 t1 p1 : ℝ) : glm_hermite s p0 t0 t1 p1 = hermite p0 t0 t1 p1 s := by
  simp [cglm, hermite]; ring
/-- row vector (s³, s², s, 1) times the matrix times the coefficient vector -/
theorem C44_smc (s : ℝ) (m : M4 ℝ) (c : V4 ℝ) :
    glm_smc s m c = ![s ^ 3, s ^ 2, s, 1] ⬝ᵥ m.mat.mulVec c.vec := by
  simp [cglm, M4.mat, V4.vec, Matrix.mulVec, dotProduct, Fin.sum_univ_succ]; ring
theorem C44_smc_bezier (s p0 c0 c1 p1 : ℝ) :
    glm_smc s GLM_BEZIER_MAT ⟨p0, c0, c1, p1⟩ = glm_bezier s p0 c0 c1 p1 := by
  simp [cglm, GLM_BEZIER_MAT]; ring
/-- the Hermite matrix takes the coefficients in the order p0, p1, t0, t1 -/
theorem C44_smc_hermite (s p0 t0 t1 p1 : ℝ) :
    glm_smc s GLM_HERMITE_MAT ⟨p0, p1, t0, t1⟩ = glm_hermite s p0 t0 t1 p1 := by
  simp [cglm, GLM_HERMITE_MAT]; ring

theorem C44_bezier_ends (p0 c0 c1 p1 : ℝ) : glm_bezier 0 p0 c0 c1 p1 = p0 ∧ glm_bezier 1 p0 c0 c1 p1 = p1 := by
  simp only [C44_bezier, bernstein]; constructor <;> ring
theorem C44_hermite_ends (p0 t0 t1 p1 : ℝ) : glm_hermite 0 p0 t0 t1 p1 = p0 ∧ glm_hermite 1 p0 t0 t1 p1 = p1 := by
  simp only [C44_hermite, hermite]; constructor <;> ring
/-- slopes at the ends, as the exact first-order coefficients -/
theorem C44_hermite_slopes (p0 t0 t1 p1 h : ℝ) :
    (∃ r, glm_hermite h p0 t0 t1 p1 = p0 + t0 * h + r * h ^ 2) ∧ (∃ r, glm_hermite (1 + h) p0 t0 t1 p1 = p1 + t1 * h + r * h ^ 2) := by
  simp only [C44_hermite, hermite]
  constructor
  · exact ⟨(2 * h - 3) * p0 + (h - 2) * t0 + (h - 1) * t1 + (3 - 2 * h) * p1, by ring⟩
  · exact ⟨(2 * h + 3) * p0 + (h + 1) * t0 + (h + 2) * t1 + (-3 - 2 * h) * p1, by ring⟩
theorem C44_hermite_deriv (p0 t0 t1 p1 : ℝ) :
    (∃ c, ∀ h, |h| ≤ 1 → |glm_hermite h p0 t0 t1 p1 - p0 - t0 * h| ≤ c * h ^ 2) ∧
    (∃ c, ∀ h, |h| ≤ 1 → |glm_hermite (1 + h) p0 t0 t1 p1 - p1 - t1 * h| ≤ c * h ^ 2) := by
  simp only [C44_hermite, hermite]
  constructor
  · refine ⟨5 * |p0| + 3 * |t0| + 2 * |t1| + 5 * |p1|, fun h hh => ?_⟩
    have e : (2 * h ^ 3 - 3 * h ^ 2 + 1) * p0 + (h ^ 3 - 2 * h ^ 2 + h) * t0 + (h ^ 3 - h ^ 2) * t1 + (3 * h ^ 2 - 2 * h ^ 3) * p1 - p0 - t0 * h
      = ((2 * h - 3) * p0 + (h - 2) * t0 + (h - 1) * t1 + (3 - 2 * h) * p1) * h ^ 2 := by ring
    rw [e, abs_mul, abs_of_nonneg (sq_nonneg h)]
    apply mul_le_mul_of_nonneg_right _ (sq_nonneg h)
    obtain ⟨h1, h2⟩ := abs_le.mp hh
    have a1 : |(2 * h - 3) * p0| ≤ 5 * |p0| := by rw [abs_mul]; exact mul_le_mul_of_nonneg_right (abs_le.mpr ⟨by linarith, by linarith⟩) (abs_nonneg _)
    have a2 : |(h - 2) * t0| ≤ 3 * |t0| := by rw [abs_mul]; exact mul_le_mul_of_nonneg_right (abs_le.mpr ⟨by linarith, by linarith⟩) (abs_nonneg _)
    have a3 : |(h - 1) * t1| ≤ 2 * |t1| := by rw [abs_mul]; exact mul_le_mul_of_nonneg_right (abs_le.mpr ⟨by linarith, by linarith⟩) (abs_nonneg _)
    have a4 : |(3 - 2 * h) * p1| ≤ 5 * |p1| := by rw [abs_mul]; exact mul_le_mul_of_nonneg_right (abs_le.mpr ⟨by linarith, by linarith⟩) (abs_nonneg _)
    rw [abs_le] at *
    constructor <;> linarith [a1.1, a1.2, a2.1, a2.2, a3.1, a3.2, a4.1, a4.2]
  · refine ⟨5 * |p0| + 2 * |t0| + 3 * |t1| + 5 * |p1|, fun h hh => ?_⟩
    have e : (2 * (1 + h) ^ 3 - 3 * (1 + h) ^ 2 + 1) * p0 + ((1 + h) ^ 3 - 2 * (1 + h) ^ 2 + (1 + h)) * t0 +
        ((1 + h) ^ 3 - (1 + h) ^ 2) * t1 + (3 * (1 + h) ^ 2 - 2 * (1 + h) ^ 3) * p1 - p1 - t1 * h
      = ((2 * h + 3) * p0 + (h + 1) * t0 + (h + 2) * t1 + (-3 - 2 * h) * p1) * h ^ 2 := by ring
    rw [e, abs_mul, abs_of_nonneg (sq_nonneg h)]
    apply mul_le_mul_of_nonneg_right _ (sq_nonneg h)
    obtain ⟨h1, h2⟩ := abs_le.mp hh
    have a1 : |(2 * h + 3) * p0| ≤ 5 * |p0| := by rw [abs_mul]; exact mul_le_mul_of_nonneg_right (abs_le.mpr ⟨by linarith, by linarith⟩) (abs_nonneg _)
    have a2 : |(h + 1) * t0| ≤ 2 * |t0| := by rw [abs_mul]; exact mul_le_mul_of_nonneg_right (abs_le.mpr ⟨by linarith, by linarith⟩) (abs_nonneg _)
    have a3 : |(h + 2) * t1| ≤ 3 * |t1| := by rw [abs_mul]; exact mul_le_mul_of_nonneg_right (abs_le.mpr ⟨by linarith, by linarith⟩) (abs_nonneg _)
    have a4 : |(-3 - 2 * h) * p1| ≤ 5 * |p1| := by rw [abs_mul]; exact mul_le_mul_of_nonneg_right (abs_le.mpr ⟨by linarith, by linarith⟩) (abs_nonneg _)
    rw [abs_le] at *
    constructor <;> linarith [a1.1, a1.2, a2.1, a2.2, a3.1, a3.2, a4.1, a4.2]

/-- convex hull: on [0,1] the curve stays between the smallest and largest control value -/
theorem C44_bezier_hull (s p0 c0 c1 p1 lo hi : ℝ) (h0 : 0 ≤ s) (h1 : s ≤ 1)
    (hl : lo ≤ p0 ∧ lo ≤ c0 ∧ lo ≤ c1 ∧ lo ≤ p1) (hh : p0 ≤ hi ∧ c0 ≤ hi ∧ c1 ≤ hi ∧ p1 ≤ hi) :
    lo ≤ glm_bezier s p0 c0 c1 p1 ∧ glm_bezier s p0 c0 c1 p1 ≤ hi := by
  rw [C44_bezier]
  unfold bernstein
  have hs : 0 ≤ 1 - s := by linarith
  have w0 : 0 ≤ (1 - s) ^ 3 := by positivity
  have w1 : 0 ≤ 3 * s * (1 - s) ^ 2 := by positivity
  have w2 : 0 ≤ 3 * s ^ 2 * (1 - s) := by positivity
  have w3 : 0 ≤ s ^ 3 := by positivity
  have sum : (1 - s) ^ 3 + 3 * s * (1 - s) ^ 2 + 3 * s ^ 2 * (1 - s) + s ^ 3 = 1 := by ring
  obtain ⟨a, b, c, d⟩ := hl
  obtain ⟨a', b', c', d'⟩ := hh
  constructor
  · have e := mul_le_mul_of_nonneg_left a w0; have f := mul_le_mul_of_nonneg_left b w1
    have g := mul_le_mul_of_nonneg_left c w2; have i := mul_le_mul_of_nonneg_left d w3
    have : lo = (1 - s) ^ 3 * lo + 3 * s * (1 - s) ^ 2 * lo + 3 * s ^ 2 * (1 - s) * lo + s ^ 3 * lo := by linear_combination -lo * sum
    linarith
  · have e := mul_le_mul_of_nonneg_left a' w0; have f := mul_le_mul_of_nonneg_left b' w1
    have g := mul_le_mul_of_nonneg_left c' w2; have i := mul_le_mul_of_nonneg_left d' w3
    have : hi = (1 - s) ^ 3 * hi + 3 * s * (1 - s) ^ 2 * hi + 3 * s ^ 2 * (1 - s) * hi + s ^ 3 * hi := by linear_combination -hi * sum
    linarith

/-- a Hermite curve is the Bezier curve with control points a third of the slope away -/
theorem C44_hermite_bezier (s p0 t0 t1 p1 : ℝ) : glm_hermite s p0 t0 t1 p1 = glm_bezier s p0 (p0 + t0 / 3) (p1 - t1 / 3) p1 := by
  rw [C44_hermite, C44_bezier, hermite, bernstein]; ring
/-- reversing the control points reverses the curve -/
theorem C44_bezier_reverse (s p0 c0 c1 p1 : ℝ) : glm_bezier (1 - s) p1 c1 c0 p0 = glm_bezier s p0 c0 c1 p1 := by
  rw [C44_bezier, C44_bezier, bernstein, bernstein]; ring

/-- a concrete case of the hull bound -/
example : (-1 : ℝ) ≤ glm_bezier (1/3) 0 2 (-1) 1 ∧ glm_bezier (1/3) 0 2 (-1) 1 ≤ (2 : ℝ) :=
  C44_bezier_hull _ _ _ _ _ _ _ (by norm_num) (by norm_num) (by norm_num) (by norm_num)

end Cglm
