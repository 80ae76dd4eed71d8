import Verif.Lemmas
import Verif.Gen.Color

/-! # C69: luminance -/

namespace Cglm

theorem C69_weights (c : V3 ℝ) : glm_luminance c = 0.212671 * c.x + 0.71516 * c.y + 0.072169 * c.z := by
  simp only [cglm]; ring
theorem C69_add (a b : V3 ℝ) : glm_luminance (a.add b) = glm_luminance a + glm_luminance b := by
  simp only [C69_weights, V3.add]; ring
theorem C69_smul (s : ℝ) (a : V3 ℝ) : glm_luminance (a.smul s) = s * glm_luminance a := by
  simp only [C69_weights, V3.smul]; ring
theorem C69_white : glm_luminance (⟨1, 1, 1⟩ : V3 ℝ) = 1 := by rw [C69_weights]; norm_num
theorem C69_gray (g : ℝ) : glm_luminance (⟨g, g, g⟩ : V3 ℝ) = g := by rw [C69_weights]; ring
/-- more of any channel is brighter -/
theorem C69_strictMono (c : V3 ℝ) : StrictMono (fun r => glm_luminance ⟨r, c.y, c.z⟩) ∧
    StrictMono (fun g => glm_luminance ⟨c.x, g, c.z⟩) ∧ StrictMono (fun b => glm_luminance ⟨c.x, c.y, b⟩) := by
  refine ⟨fun a b h => ?_, fun a b h => ?_, fun a b h => ?_⟩ <;> simp only [C69_weights] <;> linarith
/-- green counts most, then red, then blue -/
theorem C69_order : glm_luminance (⟨0, 0, 1⟩ : V3 ℝ) < glm_luminance (⟨1, 0, 0⟩ : V3 ℝ) ∧
    glm_luminance (⟨1, 0, 0⟩ : V3 ℝ) < glm_luminance (⟨0, 1, 0⟩ : V3 ℝ) := by
  simp only [C69_weights]; norm_num
/-- colors in the unit cube have luminance in [0, 1] -/
theorem C69_range (c : V3 ℝ) (hx : 0 ≤ c.x ∧ c.x ≤ 1) (hy : 0 ≤ c.y ∧ c.y ≤ 1) (hz : 0 ≤ c.z ∧ c.z ≤ 1) :
    0 ≤ glm_luminance c ∧ glm_luminance c ≤ 1 := by
  rw [C69_weights]; constructor <;> linarith

example : 0 ≤ glm_luminance (⟨0.2, 0.9, 0.5⟩ : V3 ℝ) ∧ glm_luminance (⟨0.2, 0.9, 0.5⟩ : V3 ℝ) ≤ 1 :=
  C69_range _ (by norm_num) (by norm_num) (by norm_num)

end Cglm
