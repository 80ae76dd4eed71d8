import Verif.Lemmas
import Verif.PiBounds

/-! # C47: scalar utilities -/

namespace Cglm

/-! min, max -/
theorem C47_min (a b : ℝ) : glm_min a b = min a b := glm_min_eq a b
theorem C47_max (a b : ℝ) : glm_max a b = max a b := glm_max_eq a b
theorem C47_imin (a b : ℤ) : glm_imin a b = min a b := by
  simp only [glm_imin, ilt, decide_eq_true_eq]; split_ifs <;> omega
theorem C47_imax (a b : ℤ) : glm_imax a b = max a b := by
  simp only [glm_imax, igt, decide_eq_true_eq]; split_ifs <;> omega

/-! clamp -/

/-- clamp is the nearest point of the interval: in range, and the value itself when that is in range -/
theorem C47_clamp (v lo hi : ℝ) (h : lo ≤ hi) : lo ≤ glm_clamp v lo hi ∧ glm_clamp v lo hi ≤ hi ∧
    (lo ≤ v → v ≤ hi → glm_clamp v lo hi = v) ∧ (v ≤ lo → glm_clamp v lo hi = lo) ∧ (hi ≤ v → glm_clamp v lo hi = hi) := by
  rw [glm_clamp_eq]
  refine ⟨le_min (le_max_right _ _) h, min_le_right _ _, fun h1 h2 => by rw [max_eq_left h1, min_eq_left h2],
    fun h1 => by rw [max_eq_right h1, min_eq_left h], fun h1 => by rw [max_eq_left (h.trans h1), min_eq_right h1]⟩
example : (2 : ℝ) ≤ 3 := by norm_num
/-- with crossed bounds the result is the upper bound, whatever the value -/
theorem C47_clamp_crossed (v lo hi : ℝ) (h : hi ≤ lo) : glm_clamp v lo hi = hi := by
  rw [glm_clamp_eq, min_eq_right (h.trans (le_max_right _ _))]
theorem C47_clamp_idem (v lo hi : ℝ) : glm_clamp (glm_clamp v lo hi) lo hi = glm_clamp v lo hi := by
  rcases le_total lo hi with h | h
  · have := C47_clamp v lo hi h
    exact (C47_clamp _ lo hi h).2.2.1 this.1 this.2.1
  · rw [C47_clamp_crossed _ _ _ h, C47_clamp_crossed _ _ _ h]
theorem C47_clamp_mono (v w lo hi : ℝ) (h : v ≤ w) : glm_clamp v lo hi ≤ glm_clamp w lo hi := by
  rw [glm_clamp_eq, glm_clamp_eq]; exact min_le_min_right _ (max_le_max_right _ h)
theorem C47_clamp_zo (v : ℝ) : 0 ≤ glm_clamp_zo v ∧ glm_clamp_zo v ≤ 1 ∧
    (0 ≤ v → v ≤ 1 → glm_clamp_zo v = v) ∧ (v ≤ 0 → glm_clamp_zo v = 0) ∧ (1 ≤ v → glm_clamp_zo v = 1) := by
  unfold glm_clamp_zo; rw [lit_zero, lit_one]; exact C47_clamp v 0 1 zero_le_one

/-! interpolation -/
theorem C47_lerp_start (a b : ℝ) : glm_lerp a b 0 = a := by simp only [cglm]; ring
theorem C47_lerp_end (a b : ℝ) : glm_lerp a b 1 = b := by simp only [cglm]; ring
/-- affine in t: equal steps of t give equal steps of the value -/
theorem C47_lerp_affine (a b s t u : ℝ) : glm_lerp a b (s + u * (t - s)) = glm_lerp a b s + u * (glm_lerp a b t - glm_lerp a b s) := by
  simp only [cglm]; ring
theorem C47_lerp_convex (a b t : ℝ) : glm_lerp a b t = (1 - t) * a + t * b := by simp only [cglm]; ring
theorem C47_lerp_swap (a b t : ℝ) : glm_lerp a b (1 - t) = glm_lerp b a t := by simp only [cglm]; ring
/-- in [0,1] the value stays between the end points -/
theorem C47_lerp_between (a b t : ℝ) (h0 : 0 ≤ t) (h1 : t ≤ 1) : min a b ≤ glm_lerp a b t ∧ glm_lerp a b t ≤ max a b := by
  rw [C47_lerp_convex]
  constructor
  · nlinarith [min_le_left a b, min_le_right a b]
  · nlinarith [le_max_left a b, le_max_right a b]
theorem C47_lerpc (a b t : ℝ) : glm_lerpc a b t = glm_lerp a b (min (max t 0) 1) := by unfold glm_lerpc; rw [glm_clamp_zo_eq]
theorem C47_lerpc_between (a b t : ℝ) : min a b ≤ glm_lerpc a b t ∧ glm_lerpc a b t ≤ max a b := by
  unfold glm_lerpc; exact C47_lerp_between _ _ _ (C47_clamp_zo t).1 (C47_clamp_zo t).2.1

/-! step and smooth step -/
theorem C47_step (e x : ℝ) : glm_step e x = if e ≤ x then 1 else 0 := by
  simp only [cglm, ← not_le]; split_ifs <;> rfl
theorem C47_step_mono (e x y : ℝ) (h : x ≤ y) : glm_step e x ≤ glm_step e y := by
  rw [C47_step, C47_step]; split_ifs <;> linarith
/-- the Hermite polynomial: ends, zero slopes, point symmetry, monotone on [0,1] -/
theorem C47_smooth_ends : glm_smooth (0 : ℝ) = 0 ∧ glm_smooth (1 : ℝ) = 1 ∧ glm_smooth (1 / 2 : ℝ) = 1 / 2 := by
  refine ⟨?_, ?_, ?_⟩ <;> simp only [cglm] <;> norm_num
theorem C47_smooth_sym (t : ℝ) : glm_smooth t + glm_smooth (1 - t) = 1 := by simp only [cglm]; ring
theorem C47_smooth_mono (s t : ℝ) (h0 : 0 ≤ s) (h : s ≤ t) (h1 : t ≤ 1) : glm_smooth s ≤ glm_smooth t := by
  simp only [cglm]
  have e : 0 ≤ (t - s) * (3 * (t + s) - 2 * (t * t + t * s + s * s)) := by
    apply mul_nonneg (by linarith)
    nlinarith [mul_nonneg h0 (h0.trans h), mul_nonneg h0 (show 0 ≤ 1 - s by linarith), mul_nonneg (h0.trans h) (show 0 ≤ 1 - t by linarith), mul_nonneg h0 (show 0 ≤ 1 - t by linarith)]
  nlinarith
theorem C47_smooth_range (t : ℝ) (h0 : 0 ≤ t) (h1 : t ≤ 1) : 0 ≤ glm_smooth t ∧ glm_smooth t ≤ 1 := by
  have a := C47_smooth_mono 0 t le_rfl h0 h1
  have b := C47_smooth_mono t 1 h0 h1 le_rfl
  rw [C47_smooth_ends.1] at a; rw [C47_smooth_ends.2.1] at b; exact ⟨a, b⟩
/-- the slope is 6 t (1-t): the error of the linear approximation is quadratic, so the curve is flat at both ends -/
theorem C47_smooth_slope (t d : ℝ) : glm_smooth (t + d) = glm_smooth t + 6 * t * (1 - t) * d + d ^ 2 * (3 - 6 * t - 2 * d) := by
  simp only [cglm]; ring
theorem C47_smoothstep (e0 e1 x : ℝ) (h : e0 < e1) : (x ≤ e0 → glm_smoothstep e0 e1 x = 0) ∧ (e1 ≤ x → glm_smoothstep e0 e1 x = 1) ∧
    0 ≤ glm_smoothstep e0 e1 x ∧ glm_smoothstep e0 e1 x ≤ 1 := by
  have hd : 0 < e1 - e0 := sub_pos.mpr h
  unfold glm_smoothstep
  refine ⟨fun hx => ?_, fun hx => ?_, ?_⟩
  · rw [(C47_clamp_zo _).2.2.2.1 (div_nonpos_of_nonpos_of_nonneg (by linarith) hd.le), C47_smooth_ends.1]
  · rw [(C47_clamp_zo _).2.2.2.2 ((one_le_div hd).mpr (by linarith)), C47_smooth_ends.2.1]
  · exact C47_smooth_range _ (C47_clamp_zo _).1 (C47_clamp_zo _).2.1
example : (1 : ℝ) < 2 := by norm_num
theorem C47_smoothstep_mono (e0 e1 x y : ℝ) (h : e0 < e1) (hx : x ≤ y) : glm_smoothstep e0 e1 x ≤ glm_smoothstep e0 e1 y := by
  have hd : 0 < e1 - e0 := sub_pos.mpr h
  unfold glm_smoothstep
  refine C47_smooth_mono _ _ (C47_clamp_zo _).1 ?_ (C47_clamp_zo _).2.1
  unfold glm_clamp_zo; apply C47_clamp_mono
  gcongr
theorem C47_smoothinterp (a b t : ℝ) : glm_smoothinterp a b t = glm_lerp a b (glm_smooth t) := by simp only [cglm]
theorem C47_smoothinterpc (a b t : ℝ) : glm_smoothinterpc a b t = glm_lerp a b (glm_smooth (min (max t 0) 1)) := by
  unfold glm_smoothinterpc; rw [C47_smoothinterp, glm_clamp_zo_eq]
theorem C47_smoothinterpc_between (a b t : ℝ) : min a b ≤ glm_smoothinterpc a b t ∧ glm_smoothinterpc a b t ≤ max a b := by
  unfold glm_smoothinterpc; rw [C47_smoothinterp]
  have := C47_smooth_range _ (C47_clamp_zo t).1 (C47_clamp_zo t).2.1
  exact C47_lerp_between _ _ _ this.1 this.2

/-! percent is the inverse of lerp -/
theorem C47_percent_lerp (a b t : ℝ) (h : a ≠ b) : glm_percent a b (glm_lerp a b t) = t := by
  have : b - a ≠ 0 := sub_ne_zero.mpr (Ne.symm h)
  simp only [cglm, if_neg this]; field_simp; ring
theorem C47_lerp_percent (a b x : ℝ) (h : a ≠ b) : glm_lerp a b (glm_percent a b x) = x := by
  have : b - a ≠ 0 := sub_ne_zero.mpr (Ne.symm h)
  simp only [cglm, if_neg this]; field_simp; ring
example : (1 : ℝ) ≠ 2 := by norm_num
/-- an empty interval counts as complete -/
theorem C47_percent_empty (a x : ℝ) : glm_percent a a x = 1 := by simp [cglm]
theorem C47_percentc (a b x : ℝ) : glm_percentc a b x = min (max (glm_percent a b x) 0) 1 := by unfold glm_percentc; rw [glm_clamp_zo_eq]

/-! the rest -/
theorem C47_pow2 (x : ℝ) : glm_pow2 x = x ^ 2 := by simp only [cglm]; ring
/-- over every scalar type: the two values change places -/
theorem C47_swapf {α : Type} [Add α] [Sub α] [Mul α] [Div α] [Neg α] [CFloat α] (a b : α) : glm_swapf a b = (b, a) := rfl
theorem C47_eq (a b : ℝ) : glm_eq a b = true ↔ |a - b| ≤ 1 / 10 ^ 5 := by
  simp only [cglm]; norm_num
theorem C47_eq_symm (a b : ℝ) : glm_eq a b = glm_eq b a := by
  simp only [cglm]; rw [abs_sub_comm]
theorem C47_eq_refl (a : ℝ) : glm_eq a a = true := by rw [C47_eq]; norm_num
/-- the tolerance relation is not transitive -/
theorem C47_eq_not_transitive : glm_eq (0 : ℝ) (1 / 10 ^ 5) = true ∧ glm_eq (1 / 10 ^ 5 : ℝ) (2 / 10 ^ 5) = true ∧ ¬ glm_eq (0 : ℝ) (2 / 10 ^ 5) = true := by
  simp only [C47_eq]; refine ⟨?_, ?_, ?_⟩ <;> norm_num
theorem C47_rad_deg (x : ℝ) : glm_rad (glm_deg x) = x ∧ glm_deg (glm_rad x) = x := by
  constructor <;> simp only [cglm] <;> field_simp
theorem C47_make (x : ℝ) : glm_make_rad x = glm_rad x ∧ glm_make_deg x = glm_deg x := by constructor <;> simp only [cglm]
/-- degrees to radians, within the rounding of the π literal -/
theorem C47_rad (d : ℝ) : |glm_rad d - d * Real.pi / 180| ≤ |d| / 10 ^ 35 := by
  have h1 := pi_gt_d35; have h2 := pi_lt_d35
  simp only [cglm]
  generalize hP : (3.14159265358979323846264338327950288 : ℝ) = P at *
  have h3 : Real.pi < P + 1 / 10 ^ 35 := by rw [← hP]; norm_num at *; linarith
  rw [show d * P / 180 - d * Real.pi / 180 = d * ((P - Real.pi) / 180) by ring, abs_mul, div_eq_mul_inv |d|]
  refine mul_le_mul_of_nonneg_left ?_ (abs_nonneg d)
  rw [abs_le]; constructor <;> norm_num at * <;> linarith
theorem C47_signf (x : ℝ) : glm_signf x = SignType.sign x := by
  rcases lt_trichotomy x 0 with h | h | h
  · simp [cglm, b2i, h, h.not_gt]
  · simp [cglm, b2i, h]
  · simp [cglm, b2i, h, h.not_gt]
theorem C47_signf_trichotomy (x : ℝ) : (0 < x ∧ glm_signf x = 1) ∨ (x = 0 ∧ glm_signf x = 0) ∨ (x < 0 ∧ glm_signf x = -1) := by
  rw [C47_signf]
  rcases lt_trichotomy x 0 with h | h | h
  · right; right; simp [h]
  · right; left; simp [h]
  · left; simp [h]
theorem C47_signf_abs (x : ℝ) : glm_signf x * |x| = x := by rw [C47_signf]; exact sign_mul_abs x

end Cglm
