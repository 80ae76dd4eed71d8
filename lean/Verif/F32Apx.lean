import Verif.F32Norm

/-!
# Rounding of longer expressions of moderate size

`Near` with a bound on the magnitude, so that products of approximations stay manageable and nothing overflows.
-/

namespace Cglm.F32

/-- The float `f` is finite and approximates `x` to a relative factor `(1+u)^k` of the magnitude `M ≤ A` of the expression, plus
`c` units of underflow. -/
structure Apx (f : F32) (x M : ℝ) (k : ℕ) (A c : ℝ) : Prop where
  fin : f.isFin = true
  err : |f.toReal - x| ≤ ((1 + ur) ^ k - 1) * M + c * ηr
  mag : |x| ≤ M
  le : M ≤ A
  c0 : 0 ≤ c

namespace Apx

variable {f g : F32} {x y M N A B c d : ℝ} {k l : ℕ}

theorem M0 (h : Apx f x M k A c) : 0 ≤ M := (abs_nonneg _).trans h.mag
theorem A0 (h : Apx f x M k A c) : 0 ≤ A := h.M0.trans h.le

theorem near (h : Apx f x M k A c) : Near f x M k (c * ηr) :=
  fun _ => ⟨h.err, h.mag, mul_nonneg h.c0 (by norm_num [ηr])⟩

theorem le_pow (k : ℕ) : k * ur ≤ (1 + ur) ^ k - 1 := by
  have := one_add_mul_le_pow (a := ur) (by linarith [ur_pos]) k
  linarith

theorem pow_le (hk : k ≤ 1000) : (1 + ur) ^ k - 1 ≤ 1001 / 1000 * k * ur := by
  have hk' : (k : ℝ) ≤ 1000 := by exact_mod_cast hk
  have k0 : (0 : ℝ) ≤ k := Nat.cast_nonneg k
  have h : (k : ℝ) * ur ≤ 1000 / 2 ^ 24 := by rw [ur, mul_one_div]; exact div_le_div_of_nonneg_right hk' (by norm_num)
  refine (pow_le_γ k (lt_of_le_of_lt h (by norm_num))).trans ?_
  unfold γ
  have hu := ur_pos
  have : 0 ≤ k * ur := by positivity
  rw [div_le_iff₀ (by norm_num at h ⊢; linarith)]
  norm_num at h
  nlinarith

theorem fine (h : Apx f x M k A c) (hk : k ≤ 1000) : Fine f (1001 / 1000 * A + c) := by
  refine ⟨h.fin, ?_⟩
  have e := h.err
  have p := pow_le hk
  have hk' : (k : ℝ) ≤ 1000 := by exact_mod_cast hk
  have p' : (1 + ur) ^ k - 1 ≤ 1 / 1000 := p.trans (by rw [ur]; norm_num; linarith)
  have t := abs_add_le (f.toReal - x) x
  rw [sub_add_cancel] at t
  have := mul_le_mul_of_nonneg_right p' h.M0
  have hη : c * ηr ≤ c := mul_le_of_le_one_right h.c0 (by norm_num [ηr])
  linarith [h.mag, h.le, h.c0]

theorem add (hf : Apx f x M k A c) (hg : Apx g y N l B d) (hk : max k l ≤ 1000 := by norm_num) (h : A + B + c + d ≤ 2 ^ 100) :
    Apx (f + g) (x + y) (M + N) (max k l + 1) (A + B) (101 / 100 * (c + d)) := by
  have u2 := ur_pos
  have u1 : ur ≤ 1 / 100 := by norm_num [ur]
  have n := hf.near.add hg.near
  have F := (hf.fine (le_of_max_le_left hk)).add (hg.fine (le_of_max_le_right hk)) (by norm_num at h ⊢; nlinarith [hf.A0, hg.A0, hf.c0, hg.c0])
  obtain ⟨n1, n2, -⟩ := n F.1
  refine ⟨F.1, n1.trans ?_, n2, add_le_add hf.le hg.le, by linarith [hf.c0, hg.c0]⟩
  have : 0 ≤ ηr := by norm_num [ηr]
  have : 0 ≤ c * ηr + d * ηr := by nlinarith [hf.c0, hg.c0]
  nlinarith

theorem neg (hf : Apx f x M k A c) : Apx (-f) (-x) M k A c := by
  obtain ⟨n1, n2, -⟩ := hf.near.neg (by rw [neg_isFin]; exact hf.fin)
  exact ⟨by rw [neg_isFin]; exact hf.fin, n1, n2, hf.le, hf.c0⟩

theorem sub (hf : Apx f x M k A c) (hg : Apx g y N l B d) (hk : max k l ≤ 1000 := by norm_num) (h : A + B + c + d ≤ 2 ^ 100) :
    Apx (f - g) (x - y) (M + N) (max k l + 1) (A + B) (101 / 100 * (c + d)) := by
  rw [show f - g = f + -g from rfl, sub_eq_add_neg x]
  exact hf.add hg.neg hk h

theorem mul (hf : Apx f x M k A c) (hg : Apx g y N l B d) (hk : max k l ≤ 1000 := by norm_num) (h : (A + c) * (B + d) ≤ 2 ^ 100) :
    Apx (f * g) (x * y) (M * N) (k + l + 1) (A * B) (101 / 100 * (A * d + B * c + c * d) + 1) := by
  have u2 := ur_pos
  have n := hf.near.mul hg.near
  have a0 := hf.A0
  have b0 := hg.A0
  have c0 := hf.c0
  have d0 := hg.c0
  have F := (hf.fine (le_of_max_le_left hk)).mul (hg.fine (le_of_max_le_right hk)) (by
    have : (1001 / 1000 * A + c) * (1001 / 1000 * B + d) ≤ 2 * 2 ^ 100 := by nlinarith [mul_nonneg a0 b0, mul_nonneg a0 d0, mul_nonneg c0 b0, mul_nonneg c0 d0]
    have : (1001 / 1000 * A + c) * (1001 / 1000 * B + d) * (1 + ur) ≤ 2 * 2 ^ 100 * (1 + ur) := mul_le_mul_of_nonneg_right this (by linarith)
    refine lt_of_le_of_lt (add_le_add this le_rfl) ?_
    norm_num [ur, ηr])
  obtain ⟨n1, n2, -⟩ := n F.1
  refine ⟨F.1, n1.trans (add_le_add le_rfl ?_), n2, mul_le_mul hf.le hg.le hg.M0 a0, by positivity⟩
  have η0 : 0 ≤ ηr := by norm_num [ηr]
  have η1 : ηr ≤ 1 := by norm_num [ηr]
  have pk : (1 + ur) ^ k ≤ 1001 / 1000 := by
    have := pow_le (le_of_max_le_left hk)
    have hk' : (k : ℝ) ≤ 1000 := by exact_mod_cast le_of_max_le_left hk
    have : 1001 / 1000 * k * ur ≤ 1 / 1000 := by rw [ur]; norm_num; linarith
    linarith
  have pl : (1 + ur) ^ l ≤ 1001 / 1000 := by
    have := pow_le (le_of_max_le_right hk)
    have hk' : (l : ℝ) ≤ 1000 := by exact_mod_cast le_of_max_le_right hk
    have : 1001 / 1000 * l * ur ≤ 1 / 1000 := by rw [ur]; norm_num; linarith
    linarith
  have q1 : (1 + ur) ^ k * M ≤ 1001 / 1000 * A := mul_le_mul pk hf.le hf.M0 (by norm_num)
  have q2 : (1 + ur) ^ l * N ≤ 1001 / 1000 * B := mul_le_mul pl hg.le hg.M0 (by norm_num)
  have r1 : (1 + ur) ^ k * M * (d * ηr) ≤ 1001 / 1000 * A * (d * ηr) := mul_le_mul_of_nonneg_right q1 (by positivity)
  have r2 : (1 + ur) ^ l * N * (c * ηr) ≤ 1001 / 1000 * B * (c * ηr) := mul_le_mul_of_nonneg_right q2 (by positivity)
  have r3 : c * ηr * (d * ηr) ≤ c * d * ηr := by
    have := mul_le_mul_of_nonneg_left η1 (by positivity : 0 ≤ c * d * ηr)
    linarith
  have t : (1 + ur) ^ k * M * (d * ηr) + (1 + ur) ^ l * N * (c * ηr) + c * ηr * (d * ηr) ≤ 1001 / 1000 * ((A * d + B * c + c * d) * ηr) := by
    have : 0 ≤ c * d * ηr := by positivity
    linarith
  have s0 : 0 ≤ (A * d + B * c + c * d) * ηr := by positivity
  rw [show (101 / 100 * (A * d + B * c + c * d) + 1) * ηr = 101 / 100 * ((A * d + B * c + c * d) * ηr) + ηr by ring]
  generalize (A * d + B * c + c * d) * ηr = S at *
  generalize (1 + ur) ^ k * M * (d * ηr) + (1 + ur) ^ l * N * (c * ηr) + c * ηr * (d * ηr) = T at *
  have : (1 + ur) * T ≤ (1 + ur) * (1001 / 1000 * S) := mul_le_mul_of_nonneg_left t (by linarith)
  have : ur * S ≤ 1 / 1000 * S := mul_le_mul_of_nonneg_right (by norm_num [ur]) s0
  linarith

/-- the sum of two floats: no cancellation of errors, because they have none -/
theorem addv (hf : Fine f A) (hg : Fine g B) (h : A + B ≤ 2 ^ 100) : Apx (f + g) (f.toReal + g.toReal) |f.toReal + g.toReal| 1 (A + B) 0 := by
  have F := hf.add hg (by
    have : ur ≤ 1 := by norm_num [ur]
    have := (abs_nonneg _).trans hf.2
    have := (abs_nonneg _).trans hg.2
    norm_num at h ⊢; nlinarith)
  refine ⟨F.1, ?_, le_rfl, (abs_add_le _ _).trans (add_le_add hf.2 hg.2), le_rfl⟩
  rw [pow_one, add_sub_cancel_left, zero_mul, add_zero]
  exact add_err F.1

theorem subv (hf : Fine f A) (hg : Fine g B) (h : A + B ≤ 2 ^ 100) : Apx (f - g) (f.toReal - g.toReal) |f.toReal - g.toReal| 1 (A + B) 0 := by
  have := addv hf (hg.neg) h
  rw [show f - g = f + -g from rfl, sub_eq_add_neg f.toReal]
  rwa [toReal_neg] at this

/-- a quotient; the divisor has a relative error only -/
theorem div (b : ℝ) (hf : Apx f x M k A c) (hg : Apx g y |y| l B 0) (hb : 0 < b) (hy : b ≤ |y|) (hk : max k l ≤ 900) (h : (A + c) / b ≤ 2 ^ 100) :
    Apx (f / g) (x / y) (M / |y|) (k + l + 2) (A / b) (2 * c / b + 1) := by
  have u2 := ur_pos
  have η0 : 0 ≤ ηr := by norm_num [ηr]
  have hu : ur = 1 / 2 ^ 24 := rfl
  have yp : 0 < |y| := lt_of_lt_of_le hb hy
  have y0 : y ≠ 0 := abs_pos.mp yp
  have c0 := hf.c0
  have M0 := hf.M0
  have gl := hg.err
  rw [zero_mul, add_zero] at gl
  have pl := pow_le (k := l) ((le_of_max_le_right hk).trans (by norm_num))
  have l' : (l : ℝ) ≤ 900 := by exact_mod_cast le_of_max_le_right hk
  have p1 := one_le_pow_ur l
  have q1 := one_le_pow_ur k
  have qk := pow_le (k := k) ((le_of_max_le_left hk).trans (by norm_num))
  have k' : (k : ℝ) ≤ 900 := by exact_mod_cast le_of_max_le_left hk
  set p := (1 + ur) ^ l with hp
  set q := (1 + ur) ^ k with hq
  have pe : p - 1 ≤ 901 * ur := by refine pl.trans ?_; nlinarith
  have qe : q - 1 ≤ 901 * ur := by refine qk.trans ?_; nlinarith
  have g1 : (2 - p) * |y| ≤ |g.toReal| := by
    have := abs_sub_abs_le_abs_sub y g.toReal
    rw [abs_sub_comm] at this
    nlinarith
  have p2 : 0 < 2 - p := by rw [hu] at pe; linarith
  have gp : 0 < |g.toReal| := lt_of_lt_of_le (mul_pos p2 yp) g1
  have g0 : g.toReal ≠ 0 := abs_pos.mp gp
  have gv : g.val ≠ 0 := by intro h0; apply g0; unfold toReal; rw [h0]; simp
  have r : |y / g.toReal - 1| ≤ p * (1 + ur) - 1 := by
    rw [div_sub_one g0, abs_div, div_le_iff₀ gp, abs_sub_comm]
    refine gl.trans (le_trans ?_ (mul_le_mul_of_nonneg_left g1 (by nlinarith)))
    rw [← mul_assoc]
    refine mul_le_mul_of_nonneg_right ?_ yp.le
    have e0 : 0 ≤ p - 1 := by linarith
    have : (p - 1) * (p - 1) ≤ 901 * ur * (901 * ur) := mul_le_mul pe pe e0 (by positivity)
    have : (p - 1) * (p - 1) * (1 + ur) ≤ 901 * ur * (901 * ur) * (1 + ur) := mul_le_mul_of_nonneg_right this (by linarith)
    have : 901 * ur * (901 * ur) * (1 + ur) ≤ ur := by norm_num [ur]
    nlinarith
  set P := p * (1 + ur) with hP
  have P1 : 1 ≤ P := by nlinarith
  have ae : |y / g.toReal| ≤ P := by
    have := abs_add_le (y / g.toReal - 1) 1
    rw [sub_add_cancel, abs_one] at this
    linarith
  have fe := hf.err
  have fm : |f.toReal| ≤ q * M + c * ηr := by
    have := abs_add_le (f.toReal - x) x
    rw [sub_add_cancel] at this
    linarith [hf.mag]
  have cη : 0 ≤ c * ηr := by positivity
  -- everything over `|y|`
  set j := 1 / |y| with hj
  have j0 : 0 < j := by positivity
  have fy : |f.toReal / y| ≤ (q * M + c * ηr) * j := by
    rw [abs_div, div_eq_mul_one_div]; exact mul_le_mul_of_nonneg_right fm j0.le
  have dy : |(f.toReal - x) / y| ≤ ((q - 1) * M + c * ηr) * j := by
    rw [abs_div, div_eq_mul_one_div]; exact mul_le_mul_of_nonneg_right fe j0.le
  have split : f.toReal / g.toReal = f.toReal / y * (y / g.toReal) := by field_simp
  have s0 : 0 ≤ (q * M + c * ηr) * j := (abs_nonneg _).trans fy
  have fg : |f.toReal / g.toReal| ≤ (q * M + c * ηr) * j * P := by
    rw [split, abs_mul]; exact mul_le_mul fy ae (abs_nonneg _) s0
  have d1 : |f.toReal / g.toReal - x / y| ≤ (q * M + c * ηr) * j * (P - 1) + ((q - 1) * M + c * ηr) * j := by
    have : f.toReal / g.toReal - x / y = f.toReal / y * (y / g.toReal - 1) + (f.toReal - x) / y := by rw [split]; ring
    rw [this]
    refine (abs_add_le _ _).trans (add_le_add ?_ dy)
    rw [abs_mul]; exact mul_le_mul fy r (abs_nonneg _) s0
  have e' : |((rnd (f.val / g.val) : ℚ) : ℝ) - f.toReal / g.toReal| ≤ ur * |f.toReal / g.toReal| + ηr := by
    unfold toReal; rw [ur_eq, ηr_eq]; exact_mod_cast rnd_err (f.val / g.val)
  have P2 : P * (1 + ur) ≤ 11 / 10 := by
    have : P = p + p * ur := by rw [hP]; ring
    have : p ≤ 101 / 100 := by rw [hu] at pe; linarith
    have : p * (1 + ur) ≤ 101 / 100 * (1 + ur) := mul_le_mul_of_nonneg_right this (by linarith)
    have : P * (1 + ur) ≤ 101 / 100 * (1 + ur) * (1 + ur) := mul_le_mul_of_nonneg_right this (by linarith)
    exact this.trans (by norm_num [ur])
  have jb : j ≤ 1 / b := one_div_le_one_div_of_le hb hy
  have key : |((rnd (f.val / g.val) : ℚ) : ℝ) - x / y| ≤ ((1 + ur) ^ (k + l + 2) - 1) * (M / |y|) + (2 * c / b + 1) * ηr := by
    have t := abs_sub_le ((rnd (f.val / g.val) : ℚ) : ℝ) (f.toReal / g.toReal) (x / y)
    have w : (1 + ur) ^ (k + l + 2) = q * (P * (1 + ur)) := by rw [hP, hp, hq]; ring
    have m : ur * |f.toReal / g.toReal| ≤ ur * ((q * M + c * ηr) * j * P) := mul_le_mul_of_nonneg_left fg u2.le
    have cc : c * ηr * j * (P * (1 + ur)) ≤ c * ηr * j * 2 := mul_le_mul_of_nonneg_left (by linarith) (by positivity)
    have cb : c * ηr * j ≤ c * ηr * (1 / b) := mul_le_mul_of_nonneg_left jb cη
    rw [w, show M / |y| = M * j by rw [hj]; ring, show (2 * c / b + 1) * ηr = 2 * (c * ηr * (1 / b)) + ηr by ring]
    have id : ur * ((q * M + c * ηr) * j * P) + ((q * M + c * ηr) * j * (P - 1) + ((q - 1) * M + c * ηr) * j) =
      (q * (P * (1 + ur)) - 1) * (M * j) + c * ηr * j * (P * (1 + ur)) := by ring
    linarith
  have xy : |x / y| ≤ M / |y| := by rw [abs_div]; exact div_le_div_of_nonneg_right hf.mag yp.le
  have MA : M / |y| ≤ A / b := div_le_div₀ hf.A0 hf.le hb hy
  have hfin : (f / g).isFin = true := by
    refine ((div_fin hf.fin hg.fin gv).1).mpr (abs_rnd_toReal _ (B := 2 ^ 102) ?_ (by norm_num))
    have t := abs_add_le (((rnd (f.val / g.val) : ℚ) : ℝ) - f.toReal / g.toReal) (f.toReal / g.toReal)
    rw [sub_add_cancel] at t
    have b1 : (q * M + c * ηr) * j ≤ 2 * 2 ^ 100 := by
      have η1 : ηr ≤ 1 := by norm_num [ηr]
      have : q * M + c * ηr ≤ 2 * (A + c) := by
        have : q ≤ 2 := by rw [hu] at qe; linarith
        have h1 : q * M ≤ 2 * A := mul_le_mul this hf.le M0 (by norm_num)
        have h2 : c * ηr ≤ c := mul_le_of_le_one_right c0 η1
        linarith
      calc (q * M + c * ηr) * j ≤ 2 * (A + c) * (1 / b) := mul_le_mul this jb j0.le (by linarith [hf.A0])
        _ = 2 * ((A + c) / b) := by ring
        _ ≤ _ := by linarith
    have : |f.toReal / g.toReal| ≤ 11 / 10 * (2 * 2 ^ 100) := by
      refine fg.trans ?_
      rw [mul_comm]
      exact mul_le_mul ((le_mul_of_one_le_right (by linarith) (by linarith)).trans P2) b1 s0 (by norm_num)
    have u1 : ur ≤ 1 / 100 := by norm_num [ur]
    have η1 : ηr ≤ 1 := by norm_num [ηr]
    have h1 := mul_le_mul_of_nonneg_right u1 (abs_nonneg (f.toReal / g.toReal))
    norm_num at this ⊢
    linarith
  refine ⟨hfin, ?_, xy, MA, by positivity⟩
  rw [show (f / g).toReal = ((rnd (f.val / g.val) : ℚ) : ℝ) by unfold toReal; rw [div_val hg.fin hfin]]
  exact key

theorem var (h : Fine f A) : Apx f f.toReal |f.toReal| 0 A 0 := ⟨h.1, by simp, le_rfl, h.2, le_rfl⟩

theorem exact {q : ℝ} (hf : f.isFin = true) (hv : f.toReal = q) : Apx f q |q| 0 |q| 0 := ⟨hf, by simp [hv], le_rfl, le_rfl, le_rfl⟩

theorem one [Libm] : Apx (lit 1 : F32) 1 1 0 1 0 := ⟨toReal_lit_one.1, by simp [toReal_lit_one.2], by norm_num, le_rfl, le_rfl⟩

theorem zero [Libm] : Apx (lit 0 : F32) 0 0 0 0 0 := by
  have h : (F32.ofRat false 0).isFin = true := by decide +kernel
  have h2 : (F32.ofRat false 0).val = 0 := by decide +kernel
  exact ⟨h, by rw [lit_f32]; unfold toReal; rw [h2]; norm_num, by norm_num, le_rfl, le_rfl⟩

theorem two [Libm] : Apx (lit 2 : F32) 2 2 0 2 0 := by
  have h : (F32.ofRat false 2).isFin = true := by decide +kernel
  have h2 : (F32.ofRat false 2).val = 2 := by decide +kernel
  exact ⟨h, by rw [lit_f32]; unfold toReal; rw [h2]; norm_num, by norm_num, le_rfl, le_rfl⟩

theorem bound (K : ℕ) (m : ℝ) (h : Apx f x M k A c) {X E : ℝ} (hx : x = X) (hk : k ≤ K) (hK : K ≤ 1000) (hm : M ≤ m)
    (hE : 1001 / 1000 * K * ur * m + c * ηr ≤ E) : f.isFin = true ∧ |f.toReal - X| ≤ E := by
  subst hx
  have hk' : (k : ℝ) ≤ K := by exact_mod_cast hk
  refine ⟨h.fin, h.err.trans (le_trans (add_le_add ?_ le_rfl) hE)⟩
  refine (mul_le_mul_of_nonneg_right (pow_le (hk.trans hK)) h.M0).trans (mul_le_mul ?_ hm h.M0 (mul_nonneg (by positivity) ur_pos.le))
  exact mul_le_mul_of_nonneg_right (mul_le_mul_of_nonneg_left hk' (by norm_num)) ur_pos.le

/-- find the approximation of an expression from those of its parts in the context -/
macro "apx" : tactic => `(tactic| repeat' first
  | assumption
  | exact Apx.zero
  | exact Apx.one
  | exact Apx.two
  | with_reducible apply Apx.add
  | with_reducible apply Apx.sub
  | with_reducible apply Apx.mul
  | with_reducible apply Apx.neg)

end Apx
end Cglm.F32
