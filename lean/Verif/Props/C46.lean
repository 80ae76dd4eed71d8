import Verif.Real
import Verif.Gen.Ease
import Verif.PiBounds
import Mathlib.Tactic.LinearCombination

/-! # C46: easing functions

Specification: `EaseEnds f` (starts at 0, ends at 1), `Mirror i o` (`o` is `i` turned by half a turn about the centre of
the unit square), `PointSym f` (`f` is its own mirror image) and `EaseMono f` (monotone from [0,1] into [0,1]). -/

namespace Cglm

def EaseEnds (f : ℝ → ℝ) : Prop := f 0 = 0 ∧ f 1 = 1
def EaseEndsUpTo (ε : ℝ) (f : ℝ → ℝ) : Prop := |f 0| ≤ ε ∧ |f 1 - 1| ≤ ε
def Mirror (i o : ℝ → ℝ) : Prop := ∀ t, o t = 1 - i (1 - t)
def PointSym (f : ℝ → ℝ) : Prop := ∀ t, f t + f (1 - t) = 1
def EaseMono (f : ℝ → ℝ) : Prop := MonotoneOn f (Set.Icc 0 1) ∧ Set.MapsTo f (Set.Icc 0 1) (Set.Icc 0 1)

theorem easeMono_of {f : ℝ → ℝ} (h : ∀ s t, 0 ≤ s → s ≤ t → t ≤ 1 → f s ≤ f t) (h0 : 0 ≤ f 0) (h1 : f 1 ≤ 1) : EaseMono f :=
  ⟨fun s hs t ht hst => h s t hs.1 hst ht.2, fun t ht => ⟨h0.trans (h 0 t le_rfl ht.1 ht.2), (h t 1 ht.1 ht.2 le_rfl).trans h1⟩⟩

/-- gluing two monotone halves -/
theorem ease_glue {f g k : ℝ → ℝ} (hk : ∀ t, k t = if t < 1 / 2 then f t else g t)
    (hf : ∀ s t, 0 ≤ s → s ≤ t → t ≤ 1 / 2 → f s ≤ f t) (hg : ∀ s t, 1 / 2 ≤ s → s ≤ t → t ≤ 1 → g s ≤ g t)
    (hj : f (1 / 2) ≤ g (1 / 2)) (h0 : 0 ≤ f 0) (h1 : g 1 ≤ 1) : EaseMono k := by
  refine easeMono_of (fun s t hs hst ht => ?_) ?_ ?_
  · rw [hk, hk]
    split_ifs with a b b
    · exact hf s t hs hst b.le
    · exact (hf s (1 / 2) hs a.le le_rfl).trans (hj.trans (hg (1 / 2) t le_rfl (not_lt.mp b) ht))
    · linarith
    · exact hg s t (not_lt.mp a) hst ht
  · rw [hk, if_pos (by norm_num)]; exact h0
  · rw [hk, if_neg (by norm_num)]; exact h1

/-- a polynomial-like map of a monotone map: mirror images of monotone maps are monotone -/
theorem Mirror.mono {i o : ℝ → ℝ} (h : Mirror i o) (hi : EaseMono i) : EaseMono o := by
  refine ⟨fun s hs t ht hst => ?_, fun t ht => ?_⟩
  · rw [h s, h t]
    have hm : MonotoneOn i (Set.Icc 0 1) := hi.1
    have := hm (show 1 - t ∈ Set.Icc (0 : ℝ) 1 from ⟨by linarith [ht.2], by linarith [ht.1]⟩)
      (show 1 - s ∈ Set.Icc (0 : ℝ) 1 from ⟨by linarith [hs.2], by linarith [hs.1]⟩) (by linarith)
    linarith
  · have := hi.2 (show 1 - t ∈ Set.Icc (0 : ℝ) 1 from ⟨by linarith [ht.2], by linarith [ht.1]⟩)
    rw [h t]; exact ⟨by linarith [this.2], by linarith [this.1]⟩

/-! ## end values -/

local macro "ends" : tactic => `(tactic| (constructor <;> simp [cglm] <;> norm_num))

theorem C46_ends_linear : EaseEnds glm_ease_linear := by ends
theorem C46_ends_quad_in : EaseEnds glm_ease_quad_in := by ends
theorem C46_ends_quad_out : EaseEnds glm_ease_quad_out := by ends
theorem C46_ends_quad_inout : EaseEnds glm_ease_quad_inout := by ends
theorem C46_ends_cubic_in : EaseEnds glm_ease_cubic_in := by ends
theorem C46_ends_cubic_out : EaseEnds glm_ease_cubic_out := by ends
theorem C46_ends_cubic_inout : EaseEnds glm_ease_cubic_inout := by ends
theorem C46_ends_quart_in : EaseEnds glm_ease_quart_in := by ends
theorem C46_ends_quart_out : EaseEnds glm_ease_quart_out := by ends
theorem C46_ends_quart_inout : EaseEnds glm_ease_quart_inout := by ends
theorem C46_ends_quint_in : EaseEnds glm_ease_quint_in := by ends
theorem C46_ends_quint_out : EaseEnds glm_ease_quint_out := by ends
theorem C46_ends_quint_inout : EaseEnds glm_ease_quint_inout := by ends
theorem C46_ends_exp_in : EaseEnds glm_ease_exp_in := by ends
theorem C46_ends_exp_out : EaseEnds glm_ease_exp_out := by ends
theorem C46_ends_exp_inout : EaseEnds glm_ease_exp_inout := by ends
theorem C46_ends_circ_in : EaseEnds glm_ease_circ_in := by ends
theorem C46_ends_circ_out : EaseEnds glm_ease_circ_out := by ends
theorem C46_ends_circ_inout : EaseEnds glm_ease_circ_inout := by ends
theorem C46_ends_back_in : EaseEnds glm_ease_back_in := by ends
theorem C46_ends_back_out : EaseEnds glm_ease_back_out := by ends
theorem C46_ends_back_inout : EaseEnds glm_ease_back_inout := by ends
theorem C46_ends_bounce_in : EaseEnds glm_ease_bounce_in := by ends
theorem C46_ends_bounce_out : EaseEnds glm_ease_bounce_out := by ends

/-- the code's π/2 and π literals fall short of the real values by less than 10⁻³⁵ -/
theorem halfpi_lit : (1.57079632679489661923132169163975144 : ℝ) < Real.pi / 2 ∧
    Real.pi / 2 < 1.57079632679489661923132169163975144 + 1 / 10 ^ 35 := by
  constructor <;> [have := pi_gt_d35; have := pi_lt_d35] <;> norm_num at * <;> linarith
theorem pi_lit : (3.14159265358979323846264338327950288 : ℝ) < Real.pi ∧
    Real.pi < 3.14159265358979323846264338327950288 + 1 / 10 ^ 35 := by
  constructor <;> [have := pi_gt_d35; have := pi_lt_d35] <;> norm_num at * <;> linarith

/-- cos of a small angle -/
theorem one_sub_cos_le (x : ℝ) : 1 - Real.cos x ≤ x ^ 2 / 2 := by linarith [Real.one_sub_sq_div_two_le_cos (x := x)]

theorem sin_halfpi_lit : |Real.sin 1.57079632679489661923132169163975144 - 1| ≤ 1 / 10 ^ 70 := by
  have h := halfpi_lit
  generalize (1.57079632679489661923132169163975144 : ℝ) = P at *
  have e : Real.sin P = Real.cos (Real.pi / 2 - P) := (Real.cos_pi_div_two_sub P).symm
  have h1 := one_sub_cos_le (Real.pi / 2 - P)
  have h2 := Real.cos_le_one (Real.pi / 2 - P)
  have h3 : (Real.pi / 2 - P) ^ 2 ≤ (1 / 10 ^ 35) ^ 2 := by
    apply pow_le_pow_left₀ <;> linarith
  rw [e, abs_le]; constructor <;> norm_num at * <;> linarith

theorem C46_ends_sine_in : EaseEndsUpTo (1 / 10 ^ 70) glm_ease_sine_in := by
  have h := sin_halfpi_lit
  constructor <;> simp only [cglm]
  · rw [show ((0 : ℝ) - 1) * 1.57079632679489661923132169163975144 = -1.57079632679489661923132169163975144 by ring, Real.sin_neg, ← abs_neg]
    convert h using 2; ring
  · norm_num
theorem C46_ends_sine_out : EaseEndsUpTo (1 / 10 ^ 70) glm_ease_sine_out := by
  have h := sin_halfpi_lit
  constructor <;> simp only [cglm]
  · simp
  · rw [one_mul]; exact h
theorem C46_ends_sine_inout : EaseEndsUpTo (1 / 10 ^ 70) glm_ease_sine_inout := by
  have h := pi_lit
  constructor <;> simp only [cglm]
  · simp
  · rw [one_mul]
    generalize (3.14159265358979323846264338327950288 : ℝ) = P at *
    have e : Real.cos P = -Real.cos (Real.pi - P) := by rw [Real.cos_pi_sub]; ring
    have h1 := one_sub_cos_le (Real.pi - P)
    have h2 := Real.cos_le_one (Real.pi - P)
    have h3 : (Real.pi - P) ^ 2 ≤ (1 / 10 ^ 35) ^ 2 := by
      apply pow_le_pow_left₀ <;> linarith
    rw [e, abs_le]; constructor <;> norm_num at * <;> linarith

/-- 13 half turns of the code's π/2: sine is 1 and cosine 0 up to rounding -/
theorem elast_lit (P : ℝ) (h : P < Real.pi / 2 ∧ Real.pi / 2 < P + 1 / 10 ^ 35) :
    |Real.sin (13 * P) - 1| ≤ 1 / 10 ^ 60 ∧ |Real.cos (13 * P)| ≤ 2 / 10 ^ 34 ∧ |Real.sin (26 * P)| ≤ 3 / 10 ^ 34 := by
  obtain ⟨h1, h2⟩ := h
  set d := Real.pi / 2 - P with hd
  have d0 : 0 < d := by linarith
  have d1 : d < 1 / 10 ^ 35 := by linarith
  have e1 : 13 * P = (Real.pi / 2 - 13 * d) + (3 : ℕ) * (2 * Real.pi) := by rw [hd]; push_cast; ring
  have e2 : 26 * P = (Real.pi - 26 * d) + (6 : ℕ) * (2 * Real.pi) := by rw [hd]; push_cast; ring
  refine ⟨?_, ?_, ?_⟩
  · rw [e1, Real.sin_add_nat_mul_two_pi, Real.sin_pi_div_two_sub]
    have a := one_sub_cos_le (13 * d)
    have b := Real.cos_le_one (13 * d)
    have c : (13 * d) ^ 2 ≤ (13 * (1 / 10 ^ 35)) ^ 2 := by apply pow_le_pow_left₀ <;> linarith
    rw [abs_le]; constructor <;> norm_num at * <;> linarith
  · rw [e1, Real.cos_add_nat_mul_two_pi, Real.cos_pi_div_two_sub]
    refine (Real.abs_sin_le_abs (x := 13 * d)).trans ?_
    rw [abs_of_pos (by linarith)]; norm_num at *; linarith
  · rw [e2, Real.sin_add_nat_mul_two_pi, Real.sin_pi_sub]
    refine (Real.abs_sin_le_abs (x := 26 * d)).trans ?_
    rw [abs_of_pos (by linarith)]; norm_num at *; linarith

theorem two_rpow_neg10 : (2 : ℝ) ^ (-10 : ℝ) = 1 / 1024 := by
  rw [show (-10 : ℝ) = ((-10 : ℤ) : ℝ) by norm_num, Real.rpow_intCast]; norm_num

theorem C46_ends_elast_in : EaseEndsUpTo (1 / 10 ^ 60) glm_ease_elast_in := by
  have h := (elast_lit _ halfpi_lit).1
  constructor <;> simp only [cglm]
  · simp
  · rw [mul_one, sub_self, mul_zero, Real.rpow_zero, mul_one]; exact h
theorem C46_ends_elast_out : EaseEndsUpTo (1 / 10 ^ 34) glm_ease_elast_out := by
  obtain ⟨h, -, h2⟩ := elast_lit _ halfpi_lit
  constructor <;> simp only [cglm]
  · rw [zero_add, mul_zero, Real.rpow_zero, mul_one, mul_one, neg_mul, Real.sin_neg, ← abs_neg]
    refine le_trans (le_of_eq ?_) (h.trans (by norm_num)); congr 1; ring
  · rw [mul_one, two_rpow_neg10, add_sub_cancel_right, abs_mul,
      show (-13 : ℝ) * 1.57079632679489661923132169163975144 * (1 + 1) = -(26 * 1.57079632679489661923132169163975144) by ring, Real.sin_neg, abs_neg,
      abs_of_pos (show (0 : ℝ) < 1 / 1024 by norm_num)]
    norm_num at *; linarith
theorem C46_ends_elast_inout : EaseEndsUpTo (1 / 10 ^ 34) glm_ease_elast_inout := by
  obtain ⟨-, -, h2⟩ := elast_lit _ halfpi_lit
  constructor
  · simp [cglm]; norm_num
  · unfold glm_ease_elast_inout
    rw [if_neg (by simp [cglm]; norm_num)]
    simp only [cglm]
    rw [show (-13 : ℝ) * 1.57079632679489661923132169163975144 * (2 * 1) = -(26 * 1.57079632679489661923132169163975144) by ring, Real.sin_neg,
      show (-10 : ℝ) * (2 * 1 - 1) = -10 by norm_num, two_rpow_neg10]
    rw [abs_le] at *; constructor <;> norm_num at * <;> linarith

/-- glm_ease_bounce_inout does not start at 0: it starts at 1/2, comes down to 0 at 1/2 and jumps to 1/2 -/
theorem C46_bounce_inout_refuted : glm_ease_bounce_inout (0 : ℝ) = 1 / 2 ∧ ¬ EaseEnds glm_ease_bounce_inout := by
  have h : glm_ease_bounce_inout (0 : ℝ) = 1 / 2 := by simp [cglm]; norm_num
  exact ⟨h, fun e => by have := e.1; rw [h] at this; norm_num at this⟩
theorem C46_ends_bounce_inout_partial : glm_ease_bounce_inout (1 : ℝ) = 1 ∧ glm_ease_bounce_inout (1 / 2 : ℝ) = 1 / 2 := by
  constructor <;> simp [cglm] <;> norm_num
/-- the second half of bounce_inout is bounce_out scaled into the upper right quarter, the first half is the falling
`1 - bounce_out` scaled into the lower left quarter (a rising start would need `bounce_out (1 - 2 t)`) -/
theorem C46_bounce_inout_halves (t : ℝ) :
    glm_ease_bounce_inout t = if t < 1 / 2 then (1 - glm_ease_bounce_out (2 * t)) / 2 else (1 + glm_ease_bounce_out (2 * t - 1)) / 2 := by
  unfold glm_ease_bounce_inout
  simp only [flt_real, lit_scientific, lit_one, lit_2, decide_eq_true_eq]
  rw [show (0.5 : ℝ) = 1 / 2 by norm_num]
  split_ifs
  · rw [mul_comm t 2]; ring
  · rw [mul_comm t 2]; ring

/-! ## mirror images -/

theorem C46_mirror_quad : Mirror glm_ease_quad_in glm_ease_quad_out := fun t => by simp only [cglm]; ring
theorem C46_mirror_cubic : Mirror glm_ease_cubic_in glm_ease_cubic_out := fun t => by simp only [cglm]; ring
theorem C46_mirror_quart : Mirror glm_ease_quart_in glm_ease_quart_out := fun t => by simp only [cglm]; ring
theorem C46_mirror_quint : Mirror glm_ease_quint_in glm_ease_quint_out := fun t => by simp only [cglm]; ring
theorem C46_mirror_sine : Mirror glm_ease_sine_in glm_ease_sine_out := fun t => by
  simp only [cglm]
  rw [show (1 - t - 1) * (1.57079632679489661923132169163975144 : ℝ) = -(t * 1.57079632679489661923132169163975144) by ring, Real.sin_neg]; ring
theorem C46_mirror_exp : Mirror glm_ease_exp_in glm_ease_exp_out := fun t => by
  simp only [cglm]
  by_cases h : t = 1
  · simp [h]
  · rw [if_neg h, if_neg (fun e => h (by linarith))]; congr 2; ring
theorem C46_mirror_circ : Mirror glm_ease_circ_in glm_ease_circ_out := fun t => by
  simp only [cglm]; rw [sub_sub_cancel]; congr 1; ring
theorem C46_mirror_back : Mirror glm_ease_back_in glm_ease_back_out := fun t => by simp only [cglm]; ring
theorem C46_mirror_bounce : Mirror glm_ease_bounce_in glm_ease_bounce_out := fun t => by
  unfold glm_ease_bounce_in; rw [lit_one, sub_sub_cancel, sub_sub_cancel]
/-- up to the rounding of the π/2 literal -/
theorem C46_mirror_elast (t : ℝ) (h : 0 ≤ t) : |glm_ease_elast_out t - (1 - glm_ease_elast_in (1 - t))| ≤ 4 / 10 ^ 34 := by
  obtain ⟨-, h1, -⟩ := elast_lit _ halfpi_lit
  simp only [cglm]
  generalize (1.57079632679489661923132169163975144 : ℝ) = P at *
  rw [show (10 : ℝ) * (1 - t - 1) = -10 * t by ring]
  have e1 : Real.sin (-13 * P * (t + 1)) + Real.sin (13 * P * (1 - t)) = -2 * Real.cos (13 * P) * Real.sin (13 * P * t) := by
    rw [show -13 * P * (t + 1) = -(13 * P * t + 13 * P) by ring, show 13 * P * (1 - t) = 13 * P - 13 * P * t by ring,
      Real.sin_neg, Real.sin_add, Real.sin_sub]; ring
  have e2 : (2 : ℝ) ^ (-10 * t) ≤ 1 := Real.rpow_le_one_of_one_le_of_nonpos (by norm_num) (by linarith)
  have e3 : 0 < (2 : ℝ) ^ (-10 * t) := by positivity
  have e4 := Real.abs_sin_le_one (13 * P * t)
  rw [show Real.sin (-13 * P * (t + 1)) * (2 : ℝ) ^ (-10 * t) + 1 - (1 - Real.sin (13 * P * (1 - t)) * (2 : ℝ) ^ (-10 * t)) =
    (Real.sin (-13 * P * (t + 1)) + Real.sin (13 * P * (1 - t))) * (2 : ℝ) ^ (-10 * t) by ring, e1, abs_mul, abs_mul, abs_mul, abs_of_pos e3]
  calc |(-2 : ℝ)| * |Real.cos (13 * P)| * |Real.sin (13 * P * t)| * 2 ^ (-10 * t)
      ≤ |(-2 : ℝ)| * (2 / 10 ^ 34) * 1 * 1 := by gcongr
    _ = 4 / 10 ^ 34 := by norm_num

/-! ## point symmetry of the in-out functions -/

theorem half_cases (t : ℝ) : (t < 1 / 2 ∧ ¬ (1 - t < 1 / 2)) ∨ (¬ t < 1 / 2 ∧ 1 - t < 1 / 2) ∨ t = 1 / 2 := by
  rcases lt_trichotomy t (1 / 2) with h | h | h
  · exact .inl ⟨h, by linarith⟩
  · exact .inr (.inr h)
  · exact .inr (.inl ⟨by linarith, by linarith⟩)

local macro "psym" t:ident : tactic => `(tactic| (
  simp only [cglm]
  rw [show (0.5 : ℝ) = 1 / 2 by norm_num]
  rcases half_cases $t with ⟨h1, h2⟩ | ⟨h1, h2⟩ | h
  · rw [if_pos h1, if_neg h2]; ring
  · rw [if_neg h1, if_pos h2]; ring
  · rw [h]; norm_num))

theorem C46_sym_linear : PointSym glm_ease_linear := fun t => by simp only [cglm]; ring
theorem C46_sym_quad : PointSym glm_ease_quad_inout := fun t => by psym t
theorem C46_sym_cubic : PointSym glm_ease_cubic_inout := fun t => by psym t
theorem C46_sym_quart : PointSym glm_ease_quart_inout := fun t => by psym t
theorem C46_sym_quint : PointSym glm_ease_quint_inout := fun t => by psym t
theorem C46_sym_back : PointSym glm_ease_back_inout := fun t => by
  simp only [cglm]
  rw [show (0.5 : ℝ) = 1 / 2 by norm_num]
  rcases half_cases t with ⟨h1, h2⟩ | ⟨h1, h2⟩ | h
  · rw [if_pos (by linarith), if_neg (by linarith)]; ring
  · rw [if_neg (by linarith), if_pos (by linarith)]; ring
  · rw [h]; norm_num
theorem C46_sym_circ : PointSym glm_ease_circ_inout := fun t => by
  simp only [cglm]
  rw [show (0.5 : ℝ) = 1 / 2 by norm_num]
  rcases half_cases t with ⟨h1, h2⟩ | ⟨h1, h2⟩ | h
  · rw [if_pos h1, if_neg h2, show -(2 * (1 - t) - 3) * (2 * (1 - t) - 1) = 1 - 4 * (t * t) by ring]; ring
  · rw [if_neg h1, if_pos h2, show 1 - 4 * ((1 - t) * (1 - t)) = -(2 * t - 3) * (2 * t - 1) by ring]; ring
  · rw [h]; norm_num
theorem C46_sym_exp : PointSym glm_ease_exp_inout := fun t => by
  simp only [cglm]
  rw [show (0.5 : ℝ) = 1 / 2 by norm_num]
  by_cases h0 : t = 0
  · simp [h0]
  by_cases h1 : t = 1
  · simp [h1]
  rw [if_neg (show ¬ (t = 0 ∨ t = 1) by tauto),
    if_neg (show ¬ (1 - t = 0 ∨ 1 - t = 1) by rintro (h | h) <;> [apply h1; apply h0] <;> linarith)]
  rcases half_cases t with ⟨h1, h2⟩ | ⟨h1, h2⟩ | h
  · rw [if_pos h1, if_neg h2, show -20 * (1 - t) + 10 = 20 * t - 10 by ring]; ring
  · rw [if_neg h1, if_pos h2, show 20 * (1 - t) - 10 = -20 * t + 10 by ring]; ring
  · rw [h]; norm_num

/-! ## monotone into [0,1] -/

theorem C46_mono_linear : EaseMono glm_ease_linear := by
  apply easeMono_of <;> simp [cglm]
  intros; linarith
theorem C46_mono_quad_in : EaseMono glm_ease_quad_in := by
  apply easeMono_of <;> simp [cglm]
  intro s t h0 h h1; exact mul_le_mul h h h0 (by linarith)
theorem C46_mono_quad_out : EaseMono glm_ease_quad_out := C46_mirror_quad.mono C46_mono_quad_in
theorem C46_mono_cubic_in : EaseMono glm_ease_cubic_in := by
  apply easeMono_of <;> simp [cglm]
  intro s t h0 h h1; have : 0 ≤ t := h0.trans h; gcongr
theorem C46_mono_cubic_out : EaseMono glm_ease_cubic_out := C46_mirror_cubic.mono C46_mono_cubic_in
theorem C46_mono_quart_in : EaseMono glm_ease_quart_in := by
  apply easeMono_of <;> simp [cglm]
  intro s t h0 h h1; have : 0 ≤ t := h0.trans h; gcongr
theorem C46_mono_quart_out : EaseMono glm_ease_quart_out := C46_mirror_quart.mono C46_mono_quart_in
theorem C46_mono_quint_in : EaseMono glm_ease_quint_in := by
  apply easeMono_of <;> simp [cglm]
  intro s t h0 h h1; have : 0 ≤ t := h0.trans h; gcongr
theorem C46_mono_quint_out : EaseMono glm_ease_quint_out := C46_mirror_quint.mono C46_mono_quint_in

/-- in the in-out functions the second half is the point reflection of the first -/
theorem inout_mono {k f : ℝ → ℝ} (hs : PointSym k) (hk : ∀ t, t < 1 / 2 → k t = f t) (hf : ∀ s t, 0 ≤ s → s ≤ t → t ≤ 1 / 2 → f s ≤ f t)
    (h0 : 0 ≤ f 0) (hj : f (1 / 2) ≤ 1 / 2) : EaseMono k := by
  have hh : k (1 / 2) = 1 / 2 := by have := hs (1 / 2); norm_num at this; linarith
  have le : ∀ s, 0 ≤ s → s ≤ 1 / 2 → k s ≤ 1 / 2 := fun s h1 h2 => by
    rcases h2.lt_or_eq with h | h
    · rw [hk s h]; exact (hf s (1 / 2) h1 h2 le_rfl).trans hj
    · rw [h, hh]
  have mono : ∀ s t, 0 ≤ s → s ≤ t → t ≤ 1 / 2 → k s ≤ k t := fun s t h1 h2 h3 => by
    rcases h3.lt_or_eq with h | h
    · rw [hk s (by linarith), hk t h]; exact hf s t h1 h2 h3
    · rw [h, hh]; exact le s h1 (by linarith)
  have r : ∀ t, k t = 1 - k (1 - t) := fun t => by linarith [hs t]
  refine easeMono_of (fun s t h1 h2 h3 => ?_) ?_ ?_
  · by_cases a : t ≤ 1 / 2
    · exact mono s t h1 h2 a
    · have e : k (1 - t) ≤ 1 / 2 := le _ (by linarith) (by linarith)
      by_cases b : s ≤ 1 / 2
      · have := le s h1 b; rw [r t]; linarith
      · have := mono (1 - t) (1 - s) (by linarith) (by linarith) (by linarith)
        rw [r t, r s]; linarith
  · rw [hk 0 (by norm_num)]; exact h0
  · rw [r 1, sub_self, hk 0 (by norm_num)]; linarith

local macro "firsthalf" : tactic => `(tactic| (
  intro t h; simp only [cglm]; rw [show (0.5 : ℝ) = 1 / 2 by norm_num, if_pos h]))

theorem C46_mono_quad_inout : EaseMono glm_ease_quad_inout := by
  refine inout_mono (f := fun t => 2 * (t * t)) C46_sym_quad (by firsthalf) ?_ (by norm_num) (by norm_num)
  intro s t h0 h h1; have : 0 ≤ t := h0.trans h; gcongr
theorem C46_mono_cubic_inout : EaseMono glm_ease_cubic_inout := by
  refine inout_mono (f := fun t => 4 * t * t * t) C46_sym_cubic (by firsthalf) ?_ (by norm_num) (by norm_num)
  intro s t h0 h h1; have : 0 ≤ t := h0.trans h; gcongr
theorem C46_mono_quart_inout : EaseMono glm_ease_quart_inout := by
  refine inout_mono (f := fun t => 8 * (t * t) * (t * t)) C46_sym_quart (by firsthalf) ?_ (by norm_num) (by norm_num)
  intro s t h0 h h1; have : 0 ≤ t := h0.trans h; gcongr
theorem C46_mono_quint_inout : EaseMono glm_ease_quint_inout := by
  refine inout_mono (f := fun t => 16 * (t * t) * (t * t) * t) C46_sym_quint (by firsthalf) ?_ (by norm_num) (by norm_num)
  intro s t h0 h h1; have : 0 ≤ t := h0.trans h; gcongr
theorem C46_mono_circ_in : EaseMono glm_ease_circ_in := by
  apply easeMono_of <;> simp only [cglm]
  rotate_left
  · norm_num
  · norm_num
  intro s t h0 h h1; have : 0 ≤ t := h0.trans h; gcongr
theorem C46_mono_circ_out : EaseMono glm_ease_circ_out := C46_mirror_circ.mono C46_mono_circ_in
theorem C46_mono_circ_inout : EaseMono glm_ease_circ_inout := by
  refine inout_mono (f := fun t => 1 / 2 * (1 - √(1 - 4 * (t * t)))) C46_sym_circ (by firsthalf) ?_ (by norm_num) (by norm_num)
  intro s t h0 h h1; have : 0 ≤ t := h0.trans h; gcongr
/-- the circle functions never take the square root of a negative number on [0,1] -/
theorem C46_circ_domain (t : ℝ) (h0 : 0 ≤ t) (h1 : t ≤ 1) :
    0 ≤ 1 - t * t ∧ 0 ≤ (2 - t) * t ∧ (t < 1 / 2 → 0 ≤ 1 - 4 * (t * t)) ∧ (¬ t < 1 / 2 → 0 ≤ -(2 * t - 3) * (2 * t - 1)) := by
  refine ⟨by nlinarith, by nlinarith, fun h => by nlinarith, fun h => mul_nonneg (by linarith) (by linarith)⟩
theorem C46_mono_sine_out : EaseMono glm_ease_sine_out := by
  have hp := halfpi_lit
  have hP : (0 : ℝ) < 1.57079632679489661923132169163975144 := by norm_num
  apply easeMono_of <;> simp only [cglm] <;> generalize (1.57079632679489661923132169163975144 : ℝ) = P at *
  · intro s t h0 h h1
    have b : t * P ≤ P := by nlinarith
    have a : s * P ≤ t * P := by gcongr
    have c : 0 ≤ s * P := by positivity
    exact Real.strictMonoOn_sin.monotoneOn ⟨by linarith, by linarith⟩ ⟨by linarith, by linarith⟩ a
  · simp
  · exact Real.sin_le_one _
theorem C46_mono_sine_in : EaseMono glm_ease_sine_in := by
  refine Mirror.mono (i := glm_ease_sine_out) (fun t => ?_) C46_mono_sine_out
  rw [C46_mirror_sine, sub_sub_cancel, sub_sub_cancel]
theorem C46_mono_sine_inout : EaseMono glm_ease_sine_inout := by
  have hp := pi_lit
  have hP : (0 : ℝ) < 3.14159265358979323846264338327950288 := by norm_num
  apply easeMono_of <;> simp only [cglm] <;> generalize (3.14159265358979323846264338327950288 : ℝ) = P at *
  · intro s t h0 h h1
    have b : t * P ≤ P := by nlinarith
    have a : s * P ≤ t * P := by gcongr
    have c : 0 ≤ s * P := by positivity
    have := Real.strictAntiOn_cos.antitoneOn ⟨c, by linarith⟩ ⟨by linarith, by linarith⟩ a
    norm_num; linarith
  · simp
  · have := Real.neg_one_le_cos (1 * P); norm_num; norm_num at this; linarith
/-- also the exponential functions (with a jump of 2⁻¹⁰ at the end where the code returns t itself) -/
theorem C46_mono_exp_in : EaseMono glm_ease_exp_in := by
  apply easeMono_of <;> simp only [cglm]
  · intro s t h0 h h1
    split_ifs with a b b
    · linarith
    · rw [a]; positivity
    · exact absurd (by linarith) a
    · exact Real.rpow_le_rpow_of_exponent_le (by norm_num) (by linarith)
  · simp
  · simp
theorem C46_mono_exp_out : EaseMono glm_ease_exp_out := C46_mirror_exp.mono C46_mono_exp_in
theorem C46_mono_exp_inout : EaseMono glm_ease_exp_inout := by
  refine inout_mono (f := fun t => if t = 0 then 0 else 1 / 2 * (2 : ℝ) ^ (20 * t - 10)) C46_sym_exp ?_ ?_ (by norm_num) (by norm_num)
  · intro t h
    simp only [cglm]
    rw [show (0.5 : ℝ) = 1 / 2 by norm_num]
    by_cases h0 : t = 0
    · simp [h0]
    · rw [if_neg (by rintro (e | e) <;> [exact h0 e; linarith]), if_pos h, if_neg h0]
  · intro s t h0 h h1
    split_ifs with a b b
    · exact le_rfl
    · positivity
    · exact absurd (by linarith) a
    · have := Real.rpow_le_rpow_of_exponent_le (x := 2) (by norm_num) (show 20 * s - 10 ≤ 20 * t - 10 by linarith)
      linarith

/-! ## bounce and back -/

/-- bounce stays in [0,1], although it is not monotone -/
theorem C46_bounce_out_range (t : ℝ) (h0 : 0 ≤ t) (h1 : t ≤ 1) : 0 ≤ glm_ease_bounce_out t ∧ glm_ease_bounce_out t ≤ 1 := by
  simp only [cglm]
  split_ifs with a b c
  · constructor
    · positivity
    · nlinarith
  · push Not at a
    constructor
    · nlinarith [sq_nonneg (t - 6 / 11)]
    · nlinarith [mul_nonneg (sub_nonneg.mpr a) (sub_nonneg.mpr b.le)]
  · push Not at a b
    constructor
    · nlinarith [sq_nonneg (t - 179 / 220)]
    · nlinarith [mul_nonneg (sub_nonneg.mpr b) (sub_nonneg.mpr c.le)]
  · push Not at a b c
    constructor
    · nlinarith [sq_nonneg (t - 19 / 20)]
    · nlinarith [mul_nonneg (sub_nonneg.mpr c) (sub_nonneg.mpr h1)]
theorem C46_bounce_in_range (t : ℝ) (h0 : 0 ≤ t) (h1 : t ≤ 1) : 0 ≤ glm_ease_bounce_in t ∧ glm_ease_bounce_in t ≤ 1 := by
  have := C46_bounce_out_range (1 - t) (by linarith) (by linarith)
  unfold glm_ease_bounce_in; rw [lit_one]; constructor <;> linarith [this.1, this.2]
theorem C46_bounce_inout_range (t : ℝ) (h0 : 0 ≤ t) (h1 : t ≤ 1) : 0 ≤ glm_ease_bounce_inout t ∧ glm_ease_bounce_inout t ≤ 1 := by
  rw [C46_bounce_inout_halves]
  split_ifs with h
  · have := C46_bounce_out_range (2 * t) (by linarith) (by linarith); constructor <;> linarith [this.1, this.2]
  · have := C46_bounce_out_range (2 * t - 1) (by linarith) (by linarith); constructor <;> linarith [this.1, this.2]
/-- the four pieces of bounce_out meet: it reaches 1 at each of the three joins, from both sides -/
theorem C46_bounce_joins : glm_ease_bounce_out (4 / 11 : ℝ) = 1 ∧ glm_ease_bounce_out (8 / 11 : ℝ) = 1 ∧ glm_ease_bounce_out (9 / 10 : ℝ) = 1 ∧
    (121 * (4 / 11 : ℝ) ^ 2 / 16 = 1) ∧ (363 / 40 * (8 / 11 : ℝ) ^ 2 - 99 / 10 * (8 / 11) + 17 / 5 = 1) ∧
    (4356 / 361 * (9 / 10 : ℝ) ^ 2 - 35442 / 1805 * (9 / 10) + 16061 / 1805 = 1) := by
  refine ⟨?_, ?_, ?_, by norm_num, by norm_num, by norm_num⟩ <;> simp [cglm] <;> norm_num
/-- back overshoots by design: it is negative just after the start -/
theorem C46_back_overshoots (t : ℝ) (h0 : 0 < t) (h1 : t < 1 / 2) : glm_ease_back_in t < 0 := by
  simp only [cglm]
  have : 0 < t * t := by positivity
  have h2 : (1.70158 + 1 : ℝ) * t - 1.70158 < 0 := by norm_num; linarith
  exact mul_neg_of_pos_of_neg this h2

/-! concrete values: the functions are not constant or linear -/
example : glm_ease_quad_in (1 / 2 : ℝ) = 1 / 4 := by simp only [cglm]; norm_num
example : glm_ease_quint_inout (3 / 4 : ℝ) = 63 / 64 := by simp [cglm]; norm_num
example : glm_ease_circ_out (1 / 5 : ℝ) = 3 / 5 := by
  simp only [cglm]; rw [show ((2 : ℝ) - 1 / 5) * (1 / 5) = (3 / 5) ^ 2 by norm_num]; exact Real.sqrt_sq (by norm_num)

end Cglm
