import Verif.Props.C71
import Mathlib.Data.Rat.Floor

/-! # C71: the noise is bounded -/

namespace Cglm
open Perlin

theorem weight_sum (t : ℝ) : weight 0 t + weight 1 t = 1 := by simp [weight]
theorem weight_nonneg (c : Fin 2) (x : ℝ) : 0 ≤ weight c (fr x) := by
  have := fade_range (fr_nonneg x) (fr_lt_one x).le
  unfold weight; split_ifs <;> linarith
/-- An average of two numbers of size at most `B`, weighted by the fade of a coordinate. -/
theorem weight_avg {B u v : ℝ} (x : ℝ) (hu : |u| ≤ B) (hv : |v| ≤ B) :
    |weight 0 (fr x) * u + weight 1 (fr x) * v| ≤ B := by
  have h0 := weight_nonneg 0 x
  have h1 := weight_nonneg 1 x
  have hs := weight_sum (fr x)
  rw [abs_le] at *
  constructor <;> nlinarith [hu.1, hu.2, hv.1, hv.2]
theorem offset_le (x : ℝ) (c : Fin 2) : |fr x - (c : ℕ)| ≤ 1 := by
  have h0 := fr_nonneg x
  have h1 := fr_lt_one x
  rw [abs_le]; fin_cases c <;> simp <;> constructor <;> linarith

theorem tis_bound {s : ℝ} (h0 : 0 ≤ s) (h1 : s ≤ 2) : |tis s| ≤ 1.8 := by
  unfold tis; rw [abs_le]; constructor <;> linarith
theorem mul_offset {g d B : ℝ} (h : |g| ≤ B) (hd : |d| ≤ 1) : |g * d| ≤ B := by
  rw [abs_mul]; nlinarith [abs_nonneg g, abs_nonneg d]
theorem abs_fold {x s : ℝ} (h : |x| ≤ 1 / 2) (hs : s = 0 ∨ s = 1) :
    |x - s * (step 0 x - 1 / 2)| ≤ 1 / 2 := by
  rw [abs_le] at *
  unfold step
  rcases hs with rfl | rfl <;> split_ifs <;> constructor <;> linarith
theorem step_01 (e x : ℝ) : step e x = 0 ∨ step e x = 1 := by
  unfold step; split_ifs <;> simp
theorem fr_half (x : ℝ) : |fr x - 1 / 2| ≤ 1 / 2 := by
  have h0 := fr_nonneg x
  have h1 := fr_lt_one x
  rw [abs_le]; constructor <;> linarith

theorem raw2_bound (h : ℝ) : |(raw2 h).x| ≤ 1 / 2 ∧ |(raw2 h).y| ≤ 1 / 2 := by
  have h0 := fr_nonneg (h / 41)
  have h1 := fr_lt_one (h / 41)
  unfold raw2
  dsimp only
  generalize fr (h / 41) = t at *
  have f1 := Int.floor_le (2 * t - 1 + 1 / 2)
  have f2 := Int.lt_floor_add_one (2 * t - 1 + 1 / 2)
  refine ⟨abs_le.2 ⟨by linarith, by linarith⟩, ?_⟩
  have : |2 * t - 1| ≤ 1 := abs_le.2 ⟨by linarith, by linarith⟩
  exact abs_le.2 ⟨by linarith [abs_nonneg (2 * t - 1)], by linarith⟩
theorem raw3_bound (h : ℝ) :
    |(raw3 h).x| ≤ 1 / 2 ∧ |(raw3 h).y| ≤ 1 / 2 ∧ |(raw3 h).z| ≤ 1 := by
  have h0 := fr_nonneg (h / 7)
  have h1 := fr_lt_one (h / 7)
  have hy := fr_half (⌊h / 7⌋ / 7)
  unfold raw3
  dsimp only
  generalize fr (h / 7) = x at *
  generalize fr (⌊h / 7⌋ / 7) - 1 / 2 = y at *
  have hx : |x| = x := abs_of_nonneg h0
  have hy0 := abs_nonneg y
  refine ⟨?_, abs_fold hy (step_01 _ _), abs_le.2 ⟨by linarith, by linarith⟩⟩
  rw [abs_le]
  simp only [step, hx]
  rw [if_neg (not_lt.2 h0)]
  split_ifs <;> constructor <;> linarith
theorem raw4_bound (h : ℝ) : |(raw4 h).x| ≤ 1 / 2 ∧ |(raw4 h).y| ≤ 1 / 2 ∧ |(raw4 h).z| ≤ 1 / 2 ∧
    |(raw4 h).w| ≤ 3 / 4 := by
  have hx := fr_half (h / 7)
  have hy := fr_half (⌊h / 7⌋ / 7)
  have hz := fr_half (⌊(⌊h / 7⌋ : ℝ) / 7⌋ / 6)
  unfold raw4
  dsimp only
  generalize fr (h / 7) - 1 / 2 = x at *
  generalize fr (⌊h / 7⌋ / 7) - 1 / 2 = y at *
  generalize fr (⌊(⌊h / 7⌋ : ℝ) / 7⌋ / 6) - 1 / 2 = z at *
  refine ⟨abs_fold hx (step_01 _ _), abs_fold hy (step_01 _ _), hz, abs_le.2 ⟨by linarith, ?_⟩⟩
  linarith [abs_nonneg x, abs_nonneg y, abs_nonneg z]

theorem sq_le_of_abs {x B : ℝ} (h : |x| ≤ B) : x ^ 2 ≤ B ^ 2 := by
  rw [← sq_abs]; exact pow_le_pow_left₀ (abs_nonneg x) h 2
theorem scaled {g n B : ℝ} (hg : |g| ≤ B) (hn : |n| ≤ 1.8) : |g * n| ≤ B * 1.8 := by
  rw [abs_mul]; exact mul_le_mul hg hn (abs_nonneg n) ((abs_nonneg g).trans hg)

theorem grad2_ramp (h : ℝ) {dx dy : ℝ} (hx : |dx| ≤ 1) (hy : |dy| ≤ 1) :
    |ramp2 (grad2 h) dx dy| ≤ 1.8 := by
  obtain ⟨h1, h2⟩ := raw2_bound h
  have hn := tis_bound (s := (raw2 h).x ^ 2 + (raw2 h).y ^ 2) (by positivity)
    (by linarith [sq_le_of_abs h1, sq_le_of_abs h2])
  unfold ramp2 grad2
  dsimp only
  refine (abs_add_le _ _).trans ?_
  linarith [mul_offset (scaled h1 hn) hx, mul_offset (scaled h2 hn) hy]
theorem grad3_ramp (h : ℝ) {dx dy dz : ℝ} (hx : |dx| ≤ 1) (hy : |dy| ≤ 1) (hz : |dz| ≤ 1) :
    |ramp3 (grad3 h) dx dy dz| ≤ 3.6 := by
  obtain ⟨h1, h2, h3⟩ := raw3_bound h
  have hn := tis_bound (s := (raw3 h).x ^ 2 + (raw3 h).y ^ 2 + (raw3 h).z ^ 2)
    (by positivity) (by linarith [sq_le_of_abs h1, sq_le_of_abs h2, sq_le_of_abs h3])
  unfold ramp3 grad3
  dsimp only
  refine (abs_add_le _ _).trans ((add_le_add_left (abs_add_le _ _) _).trans ?_)
  linarith [mul_offset (scaled h1 hn) hx, mul_offset (scaled h2 hn) hy, mul_offset (scaled h3 hn) hz]
theorem grad4_ramp (h : ℝ) {dx dy dz dw : ℝ} (hx : |dx| ≤ 1) (hy : |dy| ≤ 1) (hz : |dz| ≤ 1)
    (hw : |dw| ≤ 1) : |ramp4 (grad4 h) dx dy dz dw| ≤ 4.05 := by
  obtain ⟨h1, h2, h3, h4⟩ := raw4_bound h
  have hn := tis_bound
    (s := (raw4 h).x ^ 2 + (raw4 h).y ^ 2 + (raw4 h).z ^ 2 + (raw4 h).w ^ 2)
    (by positivity)
    (by linarith [sq_le_of_abs h1, sq_le_of_abs h2, sq_le_of_abs h3, sq_le_of_abs h4])
  unfold ramp4 grad4
  dsimp only
  refine (abs_add_le _ _).trans ((add_le_add_left ((abs_add_le _ _).trans
    (add_le_add_left (abs_add_le _ _) _)) _).trans ?_)
  linarith [mul_offset (scaled h1 hn) hx, mul_offset (scaled h2 hn) hy,
    mul_offset (scaled h3 hn) hz, mul_offset (scaled h4 hn) hw]

theorem avg2 {B : ℝ} {t : Fin 2 → Fin 2 → ℝ} (x y : ℝ) (h : ∀ a b, |t a b| ≤ B) :
    |∑ a, ∑ b, weight a (fr x) * weight b (fr y) * t a b| ≤ B := by
  have := weight_avg x (weight_avg y (h 0 0) (h 0 1)) (weight_avg y (h 1 0) (h 1 1))
  refine le_of_eq_of_le (congrArg abs ?_) this
  simp only [Fin.sum_univ_two]; ring
theorem avg3 {B : ℝ} {t : Fin 2 → Fin 2 → Fin 2 → ℝ} (x y z : ℝ) (h : ∀ a b c, |t a b c| ≤ B) :
    |∑ a, ∑ b, ∑ c, weight a (fr x) * weight b (fr y) * weight c (fr z) * t a b c| ≤ B := by
  have := weight_avg x (avg2 y z (h 0)) (avg2 y z (h 1))
  refine le_of_eq_of_le (congrArg abs ?_) this
  simp only [Fin.sum_univ_two]; ring
theorem avg4 {B : ℝ} {t : Fin 2 → Fin 2 → Fin 2 → Fin 2 → ℝ} (x y z w : ℝ)
    (h : ∀ a b c d, |t a b c d| ≤ B) :
    |∑ a, ∑ b, ∑ c, ∑ d, weight a (fr x) * weight b (fr y) * weight c (fr z) * weight d (fr w) *
      t a b c d| ≤ B := by
  have := weight_avg x (avg3 y z w (h 0)) (avg3 y z w (h 1))
  refine le_of_eq_of_le (congrArg abs ?_) this
  simp only [Fin.sum_univ_two]; ring

/-- The constants are not the least ones. -/
theorem C71_bounded_vec2 (p : V2 ℝ) : |glm_perlin_vec2 p| ≤ 4.14 := by
  have := avg2 (B := 1.8) p.x p.y fun a b => grad2_ramp
    (hash2 (⌊p.x⌋ + (a : ℕ)) (⌊p.y⌋ + (b : ℕ))) (offset_le p.x a) (offset_le p.y b)
  rw [C71_perlin_vec2, abs_mul, noise2, abs_of_pos (by norm_num)]
  linarith
theorem C71_bounded_vec3 (p : V3 ℝ) : |glm_perlin_vec3 p| ≤ 7.92 := by
  have := avg3 (B := 3.6) p.x p.y p.z fun a b c => grad3_ramp
    (hash3 (⌊p.x⌋ + (a : ℕ)) (⌊p.y⌋ + (b : ℕ)) (⌊p.z⌋ + (c : ℕ)))
    (offset_le p.x a) (offset_le p.y b) (offset_le p.z c)
  rw [C71_perlin_vec3, abs_mul, noise3, abs_of_pos (by norm_num)]
  linarith
theorem C71_bounded_vec4 (p : V4 ℝ) : |glm_perlin_vec4 p| ≤ 8.91 := by
  have := avg4 (B := 4.05) p.x p.y p.z p.w fun a b c d => grad4_ramp
    (hash4 (⌊p.x⌋ + (a : ℕ)) (⌊p.y⌋ + (b : ℕ)) (⌊p.z⌋ + (c : ℕ)) (⌊p.w⌋ + (d : ℕ)))
    (offset_le p.x a) (offset_le p.y b) (offset_le p.z c) (offset_le p.w d)
  rw [C71_perlin_vec4, abs_mul, noise4, abs_of_pos (by norm_num)]
  linarith

/-! The noise is not confined to `[-1, 1]`: the three- and four-dimensional functions leave that
interval at the points below. -/

theorem C71_exceeds_one_vec3 : 1 < glm_perlin_vec3 (⟨46 + 1 / 6, 154 + 12 / 25, 58 + 3 / 5⟩ : V3 ℝ) := by
  have hx : ⌊(46 + 1 / 6 : ℝ)⌋ = 46 := by norm_num
  have hy : ⌊(154 + 12 / 25 : ℝ)⌋ = 154 := by norm_num
  have hz : ⌊(58 + 3 / 5 : ℝ)⌋ = 58 := by norm_num
  have fx : fr (46 + 1 / 6 : ℝ) = 1 / 6 := by norm_num [fr]
  have fy : fr (154 + 12 / 25 : ℝ) = 12 / 25 := by norm_num [fr]
  have fz : fr (58 + 3 / 5 : ℝ) = 3 / 5 := by norm_num [fr]
  rw [C71_perlin_vec3]
  simp only [noise3, Fin.sum_univ_two, hx, hy, hz, fx, fy, fz]
  norm_num [weight, fade, ramp3, grad3, raw3, tis, hash3, hash2, perm, rem289, rtrunc, fr, step]
theorem C71_exceeds_one_vec4 :
    1 < glm_perlin_vec4 (⟨198 + 3 / 5, 161 + 1 / 5, 85 + 2 / 5, 49 + 1 / 30⟩ : V4 ℝ) := by
  have hx : ⌊(198 + 3 / 5 : ℝ)⌋ = 198 := by norm_num
  have hy : ⌊(161 + 1 / 5 : ℝ)⌋ = 161 := by norm_num
  have hz : ⌊(85 + 2 / 5 : ℝ)⌋ = 85 := by norm_num
  have hw : ⌊(49 + 1 / 30 : ℝ)⌋ = 49 := by norm_num
  have fx : fr (198 + 3 / 5 : ℝ) = 3 / 5 := by norm_num [fr]
  have fy : fr (161 + 1 / 5 : ℝ) = 1 / 5 := by norm_num [fr]
  have fz : fr (85 + 2 / 5 : ℝ) = 2 / 5 := by norm_num [fr]
  have fw : fr (49 + 1 / 30 : ℝ) = 1 / 30 := by norm_num [fr]
  rw [C71_perlin_vec4]
  simp only [noise4, Fin.sum_univ_two, hx, hy, hz, hw, fx, fy, fz, fw]
  norm_num [weight, fade, ramp4, grad4, raw4, tis, hash4, hash3, hash2, perm, rem289, rtrunc, fr,
    step]

end Cglm
