import Verif.Gen
import Verif.Real
/-!
# C46: an in-out easing is its in and out easings at double speed

`Halves i o k`: on the first half `k` runs through `i` at double speed and half height, on the second half through `o`.
-/
open Cglm
namespace Cglm

/-- `k` is `i` squeezed into the first half of the unit square and `o` into the second -/
def Halves (i o k : ℝ → ℝ) : Prop :=
  (∀ t, t < 1 / 2 → k t = i (2 * t) / 2) ∧ (∀ t, 1 / 2 ≤ t → k t = (o (2 * t - 1) + 1) / 2)

theorem C46_halves_quad : Halves glm_ease_quad_in glm_ease_quad_out glm_ease_quad_inout := by
  refine ⟨fun t h => ?_, fun t h => ?_⟩ <;> simp only [cglm]
  · rw [if_pos (by norm_num; linarith)]; ring
  · rw [if_neg (by norm_num; linarith)]; ring
theorem C46_halves_cubic : Halves glm_ease_cubic_in glm_ease_cubic_out glm_ease_cubic_inout := by
  refine ⟨fun t h => ?_, fun t h => ?_⟩ <;> simp only [cglm]
  · rw [if_pos (by norm_num; linarith)]; ring
  · rw [if_neg (by norm_num; linarith)]; ring
theorem C46_halves_quart : Halves glm_ease_quart_in glm_ease_quart_out glm_ease_quart_inout := by
  refine ⟨fun t h => ?_, fun t h => ?_⟩ <;> simp only [cglm]
  · rw [if_pos (by norm_num; linarith)]; ring
  · rw [if_neg (by norm_num; linarith)]; ring
theorem C46_halves_quint : Halves glm_ease_quint_in glm_ease_quint_out glm_ease_quint_inout := by
  refine ⟨fun t h => ?_, fun t h => ?_⟩ <;> simp only [cglm]
  · rw [if_pos (by norm_num; linarith)]; ring
  · rw [if_neg (by norm_num; linarith)]; ring
theorem C46_halves_circ : Halves glm_ease_circ_in glm_ease_circ_out glm_ease_circ_inout := by
  refine ⟨fun t h => ?_, fun t h => ?_⟩ <;> simp only [cglm]
  · rw [if_pos (by norm_num; linarith), show 2 * t * (2 * t) = 4 * (t * t) by ring]; ring
  · rw [if_neg (by norm_num; linarith), show -(2 * t - 3) = 3 - 2 * t by ring, show (2 - (2 * t - 1)) * (2 * t - 1) = (3 - 2 * t) * (2 * t - 1) by ring]; ring
theorem C46_halves_exp : Halves glm_ease_exp_in glm_ease_exp_out glm_ease_exp_inout := by
  refine ⟨fun t h => ?_, fun t h => ?_⟩ <;> simp only [cglm]
  · by_cases h0 : t = 0
    · subst h0; norm_num
    · have e1 : t ≠ 1 := by intro e; rw [e] at h; norm_num at h
      rw [if_neg (by simp [h0, e1]), if_pos (by norm_num; linarith), if_neg (by simpa using h0),
        show (10 : ℝ) * (2 * t - 1) = 20 * t - 10 by ring]
      ring
  · by_cases h1 : t = 1
    · subst h1; norm_num
    · have e0 : t ≠ 0 := by intro e; rw [e] at h; norm_num at h
      rw [if_neg (by simp [e0, h1]), if_neg (by norm_num; linarith), if_neg (by intro e; exact h1 (by linarith)),
        show (-10 : ℝ) * (2 * t - 1) = -20 * t + 10 by ring]
      ring
theorem C46_halves_elast : Halves glm_ease_elast_in glm_ease_elast_out glm_ease_elast_inout := by
  refine ⟨fun t h => ?_, fun t h => ?_⟩ <;> simp only [cglm]
  · rw [if_pos (by norm_num; linarith)]; ring
  · rw [if_neg (by norm_num; linarith), show 2 * t - 1 + 1 = 2 * t by ring]; ring

/-- `glm_ease_back_*` are the cubics `(s+1)t³ - st²` with overshoot `s`; in-out uses `1.525` times the overshoot -/
def backCurve (s t : ℝ) : ℝ := (s + 1) * t ^ 3 - s * t ^ 2

theorem C46_back_in_curve (t : ℝ) : glm_ease_back_in t = backCurve 1.70158 t := by
  simp only [cglm, backCurve]; norm_num; ring
theorem C46_back_out_curve (t : ℝ) : glm_ease_back_out t = 1 - backCurve 1.70158 (1 - t) := by
  simp only [cglm, backCurve]; norm_num; ring
theorem C46_halves_back : Halves (backCurve (1.70158 * 1.525)) (fun t => 1 - backCurve (1.70158 * 1.525) (1 - t)) glm_ease_back_inout := by
  refine ⟨fun t h => ?_, fun t h => ?_⟩ <;> simp only [cglm, backCurve]
  · rw [if_pos (by norm_num; linarith)]; norm_num; ring
  · rw [if_neg (by norm_num; linarith)]; norm_num; ring

/-- both halves are non-empty and meet in the middle -/
example : glm_ease_quad_in (2 * (1 / 4 : ℝ)) / 2 = 1 / 8 ∧ (glm_ease_quad_out (2 * (1 / 2 : ℝ) - 1) + 1) / 2 = 1 / 2 := by
  constructor <;> simp only [cglm] <;> norm_num

end Cglm
