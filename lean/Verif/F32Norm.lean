import Verif.F32Map
/-!
# Helper lemmas for the rounding error of the normalising functions
-/
open Cglm F32
namespace Cglm.F32

/-- a difference of two inputs is relatively accurate, whatever cancels -/
theorem Near.subv (a b : F32) : Near (a - b) (a.toReal - b.toReal) |a.toReal - b.toReal| 1 0 := by
  intro h
  have := add_err (a := a) (b := -b) h
  rw [toReal_neg, ← sub_eq_add_neg] at this
  refine ⟨?_, le_rfl, le_rfl⟩
  rw [pow_one, add_sub_cancel_left, add_zero]; exact this

theorem toReal_lit_one [Libm] : (lit 1 : F32).isFin = true ∧ (lit 1 : F32).toReal = 1 := by
  have h : (F32.ofRat false 1).isFin = true := by decide +kernel
  have h2 : (F32.ofRat false 1).val = 1 := by decide +kernel
  exact ⟨h, by rw [lit_f32]; unfold toReal; rw [h2]; norm_num⟩

/-- `1 / n` in binary32 when `n` is a good approximation of a real `N` of moderate size -/
theorem recip_err [Libm] {n : F32} {N : ℝ} (hn : n.isFin = true) (hN : 1 / 2 ^ 24 ≤ N) (hN' : N ≤ 2 ^ 65)
    (h : |n.toReal - N| ≤ 51 / 10 * ur * N) :
    ((lit 1 : F32) / n).isFin = true ∧ |((lit 1 : F32) / n).toReal * N - 1| ≤ 13 / 2 * ur := by
  have hu : ur = 1 / 2 ^ 24 := rfl
  have hη : ηr = 1 / 2 ^ 150 := rfl
  have Np : 0 < N := lt_of_lt_of_le (by norm_num) hN
  rw [abs_le] at h
  have n1 : (1 - 51 / 10 * ur) * N ≤ n.toReal := by linarith [h.1]
  have n2 : n.toReal ≤ (1 + 51 / 10 * ur) * N := by linarith [h.2]
  have np : 0 < n.toReal := lt_of_lt_of_le (by rw [hu]; positivity) n1
  have n0 : n.val ≠ 0 := by
    intro h0; unfold toReal at np; rw [h0] at np; simp at np
  obtain ⟨o1, o2⟩ := toReal_lit_one
  have e := rnd_err ((lit 1 : F32).val / n.val)
  have e' : |((rnd ((lit 1 : F32).val / n.val) : ℚ) : ℝ) - 1 / n.toReal| ≤ ur * |1 / n.toReal| + ηr := by
    rw [← o2]; unfold toReal; rw [ur_eq, ηr_eq]; exact_mod_cast e
  have ip : 0 < 1 / n.toReal := by positivity
  have ile : 1 / n.toReal ≤ 2 ^ 25 := by
    rw [div_le_iff₀ np]; rw [hu] at n1; nlinarith
  have ige : 1 / 2 ^ 66 ≤ 1 / n.toReal := by
    apply one_div_le_one_div_of_le np; rw [hu] at n2; nlinarith
  rw [abs_of_pos ip] at e'
  have hfin : ((lit 1 : F32) / n).isFin = true := by
    refine ((div_fin o1 hn n0).1).mpr (abs_rnd_toReal _ (B := 2 ^ 26) ?_ (by norm_num))
    rw [abs_le] at e' ⊢
    rw [hu, hη] at e'
    constructor <;> nlinarith [e'.1, e'.2]
  refine ⟨hfin, ?_⟩
  have hv : ((lit 1 : F32) / n).toReal = ((rnd ((lit 1 : F32).val / n.val) : ℚ) : ℝ) := by
    unfold toReal; rw [div_val hn hfin]
  rw [← hv] at e'
  generalize ((lit 1 : F32) / n).toReal = r at e' ⊢
  -- `t = N / n` is within `5.11 u` of `1`
  set t := N / n.toReal with ht
  have ti : 1 / n.toReal * N = t := by rw [ht]; ring
  have t1 : t * (1 - 51 / 10 * ur) ≤ 1 := by
    rw [ht, div_mul_eq_mul_div, div_le_one np]; linarith
  have t2 : 1 ≤ t * (1 + 51 / 10 * ur) := by
    rw [ht, div_mul_eq_mul_div, one_le_div np]; linarith
  have tp : 0 < t := by positivity
  have hηN : ηr * N ≤ 1 / 2 ^ 84 := by rw [hη]; nlinarith
  have key : |r * N - t| ≤ ur * t + 1 / 2 ^ 84 := by
    rw [← ti, show r * N - 1 / n.toReal * N = (r - 1 / n.toReal) * N by ring, abs_mul, abs_of_pos Np]
    nlinarith
  rw [abs_le] at key ⊢
  rw [hu] at *
  constructor <;> nlinarith [key.1, key.2]

/-- one component of `v * (1 / |v|)` -/
theorem unit_comp [Libm] {c n : F32} {N : ℝ} (hc : c.isFin = true) (hn : n.isFin = true) (hN : 1 / 2 ^ 24 ≤ N)
    (hN' : N ≤ 2 ^ 65) (h : |n.toReal - N| ≤ 51 / 10 * ur * N) (hcN : |c.toReal| ≤ N) :
    (c * ((lit 1 : F32) / n)).isFin = true ∧
      |(c * ((lit 1 : F32) / n)).toReal - c.toReal / N| ≤ 8 * ur * |c.toReal / N| + ηr := by
  obtain ⟨r1, r2⟩ := recip_err hn hN hN' h
  have hu : ur = 1 / 2 ^ 24 := rfl
  have hη : ηr = 1 / 2 ^ 150 := rfl
  have Np : 0 < N := lt_of_lt_of_le (by norm_num) hN
  generalize (lit 1 : F32) / n = r at r1 r2 ⊢
  have e := rnd_err (c.val * r.val)
  have e' : |((rnd (c.val * r.val) : ℚ) : ℝ) - c.toReal * r.toReal| ≤ ur * |c.toReal * r.toReal| + ηr := by
    unfold toReal; rw [ur_eq, ηr_eq]; exact_mod_cast e
  have hg : c.toReal * r.toReal = c.toReal / N * (r.toReal * N) := by field_simp
  rw [hg] at e'
  set g := c.toReal / N with hgd
  have g1 : |g| ≤ 1 := by rw [hgd, abs_div, abs_of_pos Np]; exact (div_le_one Np).mpr hcN
  have key : |((rnd (c.val * r.val) : ℚ) : ℝ) - g| ≤ 8 * ur * |g| + ηr := by
    generalize r.toReal * N = s at *
    have a1 : |g * s - g| ≤ 13 / 2 * ur * |g| := by
      rw [show g * s - g = (s - 1) * g by ring, abs_mul]
      exact mul_le_mul_of_nonneg_right r2 (abs_nonneg _)
    have a2 : |g * s| ≤ (1 + 13 / 2 * ur) * |g| := by
      have := abs_add_le (g * s - g) g
      rw [sub_add_cancel] at this; linarith
    have a3 := abs_add_le (((rnd (c.val * r.val) : ℚ) : ℝ) - g * s) (g * s - g)
    rw [sub_add_sub_cancel] at a3
    have := abs_nonneg g
    rw [hu] at *
    nlinarith
  have hfin : (c * r).isFin = true := by
    refine ((mul_fin hc r1).1).mpr (abs_rnd_toReal _ (B := 2) ?_ (by norm_num))
    have := abs_add_le (((rnd (c.val * r.val) : ℚ) : ℝ) - g) g
    rw [sub_add_cancel] at this
    rw [hu, hη] at key
    linarith
  refine ⟨hfin, ?_⟩
  have hv : (c * r).toReal = ((rnd (c.val * r.val) : ℚ) : ℝ) := by unfold toReal; rw [mul_val hfin]
  rw [hv]; exact key

/-- length of a vector whose components are close to those of a unit vector -/
theorem unit_len {s : ℝ} (h : |s - 1| ≤ 17 * ur) (h0 : 0 ≤ s) : |√s - 1| ≤ 9 * ur := by
  have hu : ur = 1 / 2 ^ 24 := rfl
  have := Real.sq_sqrt h0
  have := Real.sqrt_nonneg s
  rw [hu, abs_le] at h ⊢
  constructor <;> nlinarith

theorem sq_err {f g : ℝ} (h : |f - g| ≤ 8 * ur * |g| + ηr) (hg : |g| ≤ 1) :
    |f * f - g * g| ≤ 33 / 2 * ur * (g * g) + 1 / 2 ^ 147 := by
  have hu : ur = 1 / 2 ^ 24 := rfl
  have hη : ηr = 1 / 2 ^ 150 := rfl
  rw [show f * f - g * g = (f - g) * (f - g) + 2 * (g * (f - g)) by ring]
  have t := abs_add_le ((f - g) * (f - g)) (2 * (g * (f - g)))
  have t2 : |2 * (g * (f - g))| = 2 * (|g| * |f - g|) := by rw [abs_mul, abs_mul]; norm_num
  have t3 : |(f - g) * (f - g)| = |f - g| * |f - g| := abs_mul _ _
  have t4 : g * g = |g| * |g| := (abs_mul_abs_self g).symm
  rw [t2, t3] at t
  rw [t4]
  have := abs_nonneg g
  have := abs_nonneg (f - g)
  generalize |g| = G at *
  generalize |f - g| = D at *
  rw [hu, hη] at *
  have h1 : D * D ≤ (8 * (1 / 2 ^ 24) * G + 1 / 2 ^ 150) * (8 * (1 / 2 ^ 24) * G + 1 / 2 ^ 150) := mul_self_le_mul_self this h
  have h2 : G * D ≤ G * (8 * (1 / 2 ^ 24) * G + 1 / 2 ^ 150) := mul_le_mul_of_nonneg_left h ‹_›
  nlinarith

/-- the computed norm is a good approximation once it is at least `2⁻²³` -/
theorem norm_close {n : F32} {N : ℝ} {k : ℕ} (hk : k ≤ 5) (h : Near n N N k (1 / 2 ^ 72)) (hn : n.isFin = true)
    (hb : 1 / 2 ^ 23 ≤ n.toReal) : 1 / 2 ^ 24 ≤ N ∧ |n.toReal - N| ≤ 51 / 10 * ur * N := by
  have hu : ur = 1 / 2 ^ 24 := rfl
  obtain ⟨h1, h2, -⟩ := h.le le_rfl hk le_rfl hn
  have N0 : 0 ≤ N := (abs_nonneg _).trans h2
  have p : (1 + ur) ^ 5 - 1 ≤ 501 / 100 * ur := by rw [hu]; norm_num
  have h3 : |n.toReal - N| ≤ 501 / 100 * ur * N + 1 / 2 ^ 72 := h1.trans (by nlinarith)
  have hN : 1 / 2 ^ 24 ≤ N := by
    rw [abs_le, hu] at h3; nlinarith [h3.2]
  refine ⟨hN, h3.trans ?_⟩
  rw [hu]; nlinarith

theorem sqrt_le {a : F32} (h : (sqrt a).isFin = true) : (sqrt a).toReal ≤ 2 ^ 64 * (1 + ur) := by
  have e := sqrt_err h
  have v := val_lt a
  have v' : a.toReal ≤ (2 ^ 64) ^ 2 := by
    have : |a.toReal| < 2 ^ 128 := by unfold toReal; exact_mod_cast v
    have := (abs_lt.mp this).2
    norm_num at this ⊢; linarith
  have s : √a.toReal ≤ 2 ^ 64 := by
    rw [← Real.sqrt_sq (show (0 : ℝ) ≤ 2 ^ 64 by norm_num)]; exact Real.sqrt_le_sqrt v'
  have := (abs_le.mp e).2
  nlinarith [ur_pos]

theorem N_le {a : F32} {N : ℝ} (h : (sqrt a).isFin = true) (hN : 0 ≤ N) (hc : |(sqrt a).toReal - N| ≤ 51 / 10 * ur * N) :
    N ≤ 2 ^ 65 := by
  have := sqrt_le h
  have h1 := (abs_le.mp hc).1
  have hu : ur = 1 / 2 ^ 24 := rfl
  rw [hu] at this h1
  nlinarith

theorem sqrt_e : (1 + ur) * √(1 / 2 ^ 146 : ℝ) ≤ 1 / 2 ^ 72 := by
  have : √(1 / 2 ^ 146 : ℝ) = 1 / 2 ^ 73 := by
    rw [show (1 / 2 ^ 146 : ℝ) = (1 / 2 ^ 73) ^ 2 by norm_num, Real.sqrt_sq (by norm_num)]
  rw [this]; norm_num [ur]

theorem not_le_zero [Libm] {a : F32} (hn : (sqrt a).isFin = true) (h : 1 / 2 ^ 23 ≤ (sqrt a).toReal) :
    fle a (lit 0 : F32) = false := by
  have h1 : (F32.ofRat false 0).isFin = true := by decide +kernel
  have h2 : (F32.ofRat false 0).val = 0 := by decide +kernel
  have : ¬ F32.le a (F32.ofRat false 0) = true := by
    rw [le_fin (sqrt_isFin hn).1 h1, h2]
    intro h0
    have h0' : a.toReal ≤ 0 := by unfold toReal; exact_mod_cast h0
    have e := sqrt_err hn
    rw [Real.sqrt_eq_zero_of_nonpos h0', mul_zero, sub_zero] at e
    have := (abs_le.mp e).2
    linarith [show (0 : ℝ) < 1 / 2 ^ 23 by norm_num]
  exact Bool.eq_false_iff.mpr this

theorem not_lt_eps [Libm] {n : F32} (hn : n.isFin = true) (h : 1 / 2 ^ 23 ≤ n.toReal) :
    flt n (lit 0.00000011920928955078125 : F32) = false := by
  have h1 : (F32.ofRat false 0.00000011920928955078125).isFin = true := by decide +kernel
  have h2 : (F32.ofRat false 0.00000011920928955078125).val = 1 / 2 ^ 23 := by decide +kernel
  have : ¬ F32.lt n (F32.ofRat false 0.00000011920928955078125) = true := by
    rw [lt_fin hn h1, h2, not_lt]
    have h' : ((1 / 2 ^ 23 : ℚ) : ℝ) ≤ (n.val : ℝ) := by push_cast; exact h
    exact_mod_cast h'
  exact Bool.eq_false_iff.mpr this

end Cglm.F32
