import Verif.F32Lemmas
import Mathlib.Analysis.Real.Sqrt

/-!
# Forward error analysis of binary32 expressions

`Near f x M k e`: if the computed number `f` is finite, it differs from the exact value `x` by at most
`((1 + 2^-24)^k - 1) * M + e`, where `M` bounds `|x|`.  `k` counts roundings on the longest path, `e` collects the
absolute errors of underflow.
-/

namespace Cglm
namespace F32

/-- the real value of a finite number -/
noncomputable def toReal (a : F32) : ℝ := (a.val : ℝ)

/-- unit roundoff `2^-24`, as a real number -/
noncomputable def ur : ℝ := 1 / 2 ^ 24
/-- half the smallest positive number, `2^-150` -/
noncomputable def ηr : ℝ := 1 / 2 ^ 150

theorem ur_eq : ur = ((u : ℚ) : ℝ) := by norm_num [ur, u]
theorem ηr_eq : ηr = ((η : ℚ) : ℝ) := by norm_num [ηr, η]
theorem ur_pos : 0 < ur := by norm_num [ur]
theorem ηr_pos : 0 < ηr := by norm_num [ηr]

def Near (f : F32) (x M : ℝ) (k : ℕ) (e : ℝ) : Prop :=
  f.isFin = true → |f.toReal - x| ≤ ((1 + ur) ^ k - 1) * M + e ∧ |x| ≤ M ∧ 0 ≤ e

theorem one_le_pow_ur (k : ℕ) : 1 ≤ (1 + ur) ^ k := one_le_pow₀ (by linarith [ur_pos])

theorem Near.le {f : F32} {x M M' : ℝ} {k k' : ℕ} {e e' : ℝ} (h : Near f x M k e) (hM : M ≤ M') (hk : k ≤ k')
    (he : e ≤ e') : Near f x M' k' e' := by
  intro hf
  obtain ⟨h1, h2, h3⟩ := h hf
  refine ⟨h1.trans ?_, h2.trans hM, h3.trans he⟩
  have hp : (1 + ur) ^ k ≤ (1 + ur) ^ k' := pow_le_pow_right₀ (by linarith [ur_pos]) hk
  have h0 := one_le_pow_ur k
  have hM0 : 0 ≤ M := (abs_nonneg x).trans h2
  have : ((1 + ur) ^ k - 1) * M ≤ ((1 + ur) ^ k' - 1) * M' :=
    mul_le_mul (by linarith) hM hM0 (by linarith)
  linarith

/-- an input is exact -/
theorem Near.var (a : F32) : Near a a.toReal |a.toReal| 0 0 := by
  intro _; simp

theorem toReal_neg (a : F32) : (-a).toReal = -a.toReal := by simp [toReal]

theorem Near.neg {f : F32} {x M : ℝ} {k : ℕ} {e : ℝ} (h : Near f x M k e) : Near (-f) (-x) M k e := by
  intro hf
  rw [neg_isFin] at hf
  obtain ⟨h1, h2, h3⟩ := h hf
  refine ⟨?_, by rwa [abs_neg], h3⟩
  rw [toReal_neg, show -f.toReal - -x = -(f.toReal - x) by ring, abs_neg]; exact h1

theorem add_err {a b : F32} (h : (a + b).isFin = true) :
    |(a + b).toReal - (a.toReal + b.toReal)| ≤ ur * |a.toReal + b.toReal| := by
  have := rnd_add_err (rep_val a) (rep_val b)
  rw [← add_val h] at this
  unfold toReal
  rw [ur_eq]
  exact_mod_cast this

theorem mul_err {a b : F32} (h : (a * b).isFin = true) :
    |(a * b).toReal - a.toReal * b.toReal| ≤ ur * |a.toReal * b.toReal| + ηr := by
  have := rnd_err (a.val * b.val)
  rw [← mul_val h] at this
  unfold toReal
  rw [ur_eq, ηr_eq]
  exact_mod_cast this

theorem div_err {a b : F32} (hb : b.isFin = true) (h : (a / b).isFin = true) :
    |(a / b).toReal - a.toReal / b.toReal| ≤ ur * |a.toReal / b.toReal| + ηr := by
  have := rnd_err (a.val / b.val)
  rw [← div_val hb h] at this
  unfold toReal
  rw [ur_eq, ηr_eq]
  exact_mod_cast this

theorem Near.add {f g : F32} {x y M N : ℝ} {k l : ℕ} {e e' : ℝ} (hf : Near f x M k e) (hg : Near g y N l e') :
    Near (f + g) (x + y) (M + N) (max k l + 1) ((1 + ur) * (e + e')) := by
  intro h
  obtain ⟨ff, gf⟩ := add_isFin h
  obtain ⟨h1, h2, h3⟩ := hf.le le_rfl (le_max_left k l) le_rfl ff
  obtain ⟨g1, g2, g3⟩ := hg.le le_rfl (le_max_right k l) le_rfl gf
  have hu := ur_pos
  have er := add_err h
  refine ⟨?_, (abs_add_le x y).trans (add_le_add h2 g2), by positivity⟩
  have hp := one_le_pow_ur (max k l)
  rw [pow_succ]
  generalize (1 + ur) ^ max k l = p at *
  have d : |f.toReal + g.toReal - (x + y)| ≤ (p - 1) * (M + N) + (e + e') := by
    have := abs_add_le (f.toReal - x) (g.toReal - y)
    rw [show f.toReal + g.toReal - (x + y) = f.toReal - x + (g.toReal - y) by ring]
    linarith
  have b : |f.toReal + g.toReal| ≤ p * (M + N) + (e + e') := by
    have t := abs_add_le (f.toReal + g.toReal - (x + y)) (x + y)
    have t' := abs_add_le x y
    rw [sub_add_cancel] at t
    linarith
  have t := abs_add_le ((f + g).toReal - (f.toReal + g.toReal)) (f.toReal + g.toReal - (x + y))
  rw [sub_add_sub_cancel] at t
  have := mul_le_mul_of_nonneg_left b hu.le
  nlinarith

theorem Near.sub {f g : F32} {x y M N : ℝ} {k l : ℕ} {e e' : ℝ} (hf : Near f x M k e) (hg : Near g y N l e') :
    Near (f - g) (x - y) (M + N) (max k l + 1) ((1 + ur) * (e + e')) := by
  rw [sub_def, sub_eq_add_neg]
  exact hf.add hg.neg

theorem Near.mul {f g : F32} {x y M N : ℝ} {k l : ℕ} {e e' : ℝ} (hf : Near f x M k e) (hg : Near g y N l e') :
    Near (f * g) (x * y) (M * N) (k + l + 1)
      ((1 + ur) * ((1 + ur) ^ k * M * e' + (1 + ur) ^ l * N * e + e * e') + ηr) := by
  intro h
  obtain ⟨ff, gf⟩ := mul_isFin h
  obtain ⟨h1, h2, h3⟩ := hf ff
  obtain ⟨g1, g2, g3⟩ := hg gf
  have hu := ur_pos
  have hη := ηr_pos
  have er := mul_err h
  have hM : 0 ≤ M := (abs_nonneg x).trans h2
  have hN : 0 ≤ N := (abs_nonneg y).trans g2
  have hp := one_le_pow_ur k
  have hq := one_le_pow_ur l
  refine ⟨?_, by rw [abs_mul]; exact mul_le_mul h2 g2 (abs_nonneg _) hM, by positivity⟩
  rw [pow_succ, pow_add]
  generalize (1 + ur) ^ k = p at *
  generalize (1 + ur) ^ l = q at *
  have bf : |f.toReal| ≤ p * M + e := by
    have t := abs_add_le (f.toReal - x) x
    rw [sub_add_cancel] at t; linarith
  have bg : |g.toReal| ≤ q * N + e' := by
    have t := abs_add_le (g.toReal - y) y
    rw [sub_add_cancel] at t; linarith
  have d : |f.toReal * g.toReal - x * y| ≤ (p * q - 1) * (M * N) + (p * M * e' + q * N * e + e * e') := by
    have t := abs_add_le (f.toReal * (g.toReal - y)) ((f.toReal - x) * y)
    rw [show f.toReal * (g.toReal - y) + (f.toReal - x) * y = f.toReal * g.toReal - x * y by ring, abs_mul, abs_mul] at t
    have t1 : |f.toReal| * |g.toReal - y| ≤ (p * M + e) * ((q - 1) * N + e') :=
      mul_le_mul bf g1 (abs_nonneg _) (by positivity)
    have t2 : |f.toReal - x| * |y| ≤ ((p - 1) * M + e) * N :=
      mul_le_mul h1 g2 (abs_nonneg _) (by have := mul_nonneg (sub_nonneg.mpr hp) hM; linarith)
    nlinarith
  have b : |f.toReal * g.toReal| ≤ p * q * (M * N) + (p * M * e' + q * N * e + e * e') := by
    rw [abs_mul]
    have := mul_le_mul bf bg (abs_nonneg _) (by positivity : (0 : ℝ) ≤ p * M + e)
    nlinarith
  have t := abs_add_le ((f * g).toReal - f.toReal * g.toReal) (f.toReal * g.toReal - x * y)
  rw [sub_add_sub_cancel] at t
  have := mul_le_mul_of_nonneg_left b hu.le
  nlinarith

/-- product of two inputs -/
theorem Near.prod (a b : F32) : Near (a * b) (a.toReal * b.toReal) |a.toReal * b.toReal| 1 ηr := by
  have := (Near.var a).mul (Near.var b)
  rw [← abs_mul] at this
  exact this.le le_rfl le_rfl (by simp)

/-- a literal without rounding -/
theorem Near.exact {f : F32} {x : ℝ} (h : f.toReal = x) : Near f x |x| 0 0 := by
  subst h; exact Near.var f

/-! ### Square root -/

theorem toR {a b : ℚ} (h : a ≤ b) : (a : ℝ) ≤ b := by exact_mod_cast h
theorem toR_lt {a b : ℚ} (h : a < b) : (a : ℝ) < b := by exact_mod_cast h

theorem sqrt_bits {q : ℚ} (hq : 0 < q) : ∃ m : ℕ, m ≤ 2 ^ 24 ∧ rndSqrt q = m * 2 ^ sqrtExp q ∧
    |(rndSqrt q : ℝ) - √(q : ℝ)| ≤ 2 ^ sqrtExp q / 2 := by
  have hw := two_zpow_pos (sqrtExp q)
  have hlog1 : (2 : ℚ) ^ Int.log 2 q ≤ q := by exact_mod_cast Int.zpow_log_le_self (b := 2) (by norm_num) hq
  have hlog2 : q < (2 : ℚ) ^ (Int.log 2 q + 1) := by
    exact_mod_cast Int.lt_zpow_succ_log_self (b := 2) (by norm_num) q
  have h4 : (4 : ℚ) ^ sqrtExp q = 2 ^ sqrtExp q * 2 ^ sqrtExp q := by
    rw [← mul_zpow]; norm_num
  have hx : q / 4 ^ sqrtExp q < 2 ^ 48 := by
    rw [h4, div_lt_iff₀ (mul_pos hw hw)]
    refine lt_of_lt_of_le hlog2 ?_
    rw [← zpow_add₀ (by norm_num)]
    have : (2 : ℚ) ^ 48 * 2 ^ (sqrtExp q + sqrtExp q) = 2 ^ (48 + (sqrtExp q + sqrtExp q)) := by
      rw [zpow_add₀ (by norm_num) 48]; norm_num
    rw [this]
    apply zpow_le_zpow_right₀ (by norm_num)
    unfold sqrtExp; omega
  have hx0 : 0 < q / 4 ^ sqrtExp q := div_pos hq (by rw [h4]; exact mul_pos hw hw)
  unfold rndSqrt
  simp only
  have hqx : q = q / 4 ^ sqrtExp q * (2 ^ sqrtExp q * 2 ^ sqrtExp q) := by
    rw [← h4]; field_simp
  generalize q / 4 ^ sqrtExp q = x at *
  generalize sqrtExp q = e at *
  have hf0 : 0 ≤ ⌊x⌋ := Int.floor_nonneg.mpr hx0.le
  have hfl : ((⌊x⌋.toNat : ℕ) : ℚ) = (⌊x⌋ : ℚ) := by
    exact_mod_cast congrArg (Int.cast : ℤ → ℚ) (Int.toNat_of_nonneg hf0)
  have k1 := Nat.sqrt_le' ⌊x⌋.toNat
  have k2 := Nat.lt_succ_sqrt' ⌊x⌋.toNat
  generalize Nat.sqrt ⌊x⌋.toNat = k at *
  have c1 : ((k : ℚ)) ^ 2 ≤ x := by
    have : ((k ^ 2 : ℕ) : ℚ) ≤ ((⌊x⌋.toNat : ℕ) : ℚ) := by exact_mod_cast k1
    rw [hfl] at this; push_cast at this
    exact this.trans (Int.floor_le x)
  have c2 : x < ((k : ℚ) + 1) ^ 2 := by
    have : ((⌊x⌋.toNat + 1 : ℕ) : ℚ) ≤ (((k + 1) ^ 2 : ℕ) : ℚ) := by exact_mod_cast k2
    push_cast at this
    rw [hfl] at this
    exact lt_of_lt_of_le (Int.lt_floor_add_one x) this
  have hkq : (k : ℚ) < 2 ^ 24 := by
    by_contra hc
    push Not at hc
    nlinarith
  have hk : k < 2 ^ 24 := by exact_mod_cast hkq
  have hwR : (0 : ℝ) < 2 ^ e := zpow_pos (by norm_num) e
  have hsq : √(q : ℝ) = √(x : ℝ) * 2 ^ e := by
    rw [hqx]; push_cast
    rw [Real.sqrt_mul (by exact_mod_cast hx0.le), Real.sqrt_mul_self hwR.le]
  have r1 : (k : ℝ) ≤ √(x : ℝ) := Real.le_sqrt_of_sq_le (by have := toR c1; push_cast at this; exact this)
  have r2 : √(x : ℝ) < (k : ℝ) + 1 := by
    rw [Real.sqrt_lt' (by positivity)]; have := toR_lt c2; push_cast at this; exact this
  rw [hsq]
  split_ifs with h
  · refine ⟨k, hk.le, rfl, ?_⟩
    have r3 : √(x : ℝ) ≤ (k : ℝ) + 1 / 2 := by
      rw [Real.sqrt_le_left (by positivity)]; have := toR h; push_cast at this; exact this
    push_cast
    rw [← sub_mul, abs_mul, abs_of_pos hwR]
    have : |(k : ℝ) - √(x : ℝ)| ≤ 1 / 2 := by rw [abs_le]; constructor <;> linarith
    nlinarith
  · refine ⟨k + 1, hk, by push_cast; rfl, ?_⟩
    push Not at h
    have r3 : (k : ℝ) + 1 / 2 ≤ √(x : ℝ) := Real.le_sqrt_of_sq_le (by have := toR h.le; push_cast at this; exact this)
    push_cast
    rw [← sub_mul, abs_mul, abs_of_pos hwR]
    have : |(k : ℝ) + 1 - √(x : ℝ)| ≤ 1 / 2 := by rw [abs_le]; constructor <;> linarith
    nlinarith

/-- `sqrtf` is correctly rounded: half a unit in the last place, so at most `2^-24` relative -/
theorem rndSqrt_err {q : ℚ} (hq : 0 < q) : |(rndSqrt q : ℝ) - √(q : ℝ)| ≤ ur * √(q : ℝ) := by
  obtain ⟨m, -, -, h⟩ := sqrt_bits hq
  refine h.trans ?_
  have hlog1 : (2 : ℚ) ^ Int.log 2 q ≤ q := by exact_mod_cast Int.zpow_log_le_self (b := 2) (by norm_num) hq
  have h2 : (2 : ℝ) ^ (Int.log 2 q / 2) ≤ √(q : ℝ) := by
    apply Real.le_sqrt_of_sq_le
    have e : ((2 : ℝ) ^ (Int.log 2 q / 2)) ^ 2 = 2 ^ (2 * (Int.log 2 q / 2)) := by
      rw [← zpow_natCast, ← zpow_mul]; congr 1; push_cast; ring
    rw [e]
    have h3 : (2 : ℝ) ^ (2 * (Int.log 2 q / 2)) ≤ 2 ^ Int.log 2 q := zpow_le_zpow_right₀ (by norm_num) (by omega)
    exact h3.trans (by have := toR hlog1; push_cast at this; exact this)
  have e2 : (2 : ℝ) ^ sqrtExp q / 2 = ur * 2 ^ (Int.log 2 q / 2) := by
    unfold sqrtExp ur
    rw [zpow_sub₀ (by norm_num)]; norm_num; ring
  rw [e2]
  exact mul_le_mul_of_nonneg_left h2 ur_pos.le

theorem sqrt_val {q : ℚ} (h : q ≠ 0 ∧ Rep q) (hq : 0 < q) :
    (sqrt (fin q h)).isFin = true ∧ (sqrt (fin q h)).val = rndSqrt q := by
  obtain ⟨m, hm, e, -⟩ := sqrt_bits hq
  have hlo : (2 : ℚ) ^ (-149 : ℤ) ≤ q := by
    obtain ⟨n, hn⟩ := rep_grid h.2
    rw [hn] at hq ⊢
    have : (0 : ℚ) < n := by
      by_contra hc; push Not at hc
      have := mul_nonpos_of_nonpos_of_nonneg hc (two_zpow_pos (-149)).le
      linarith
    have : (1 : ℚ) ≤ n := by exact_mod_cast (show (0 : ℤ) < n by exact_mod_cast this)
    nlinarith [two_zpow_pos (-149)]
  have hlog : -149 ≤ Int.log 2 q := by
    rw [← Int.zpow_le_iff_le_log (by norm_num) hq]; exact_mod_cast hlo
  have hlog' : Int.log 2 q < 128 := by
    rw [← Int.lt_zpow_iff_log_lt (by norm_num) hq]
    have := rep_lt h.2
    rw [abs_of_pos hq] at this; exact_mod_cast this
  have hr : rnd (rndSqrt q) = rndSqrt q := by
    rw [e, show ((m : ℕ) : ℚ) = ((m : ℤ) : ℚ) by norm_cast]
    apply rnd_of_bits
    · rw [abs_of_nonneg (by positivity)]; exact_mod_cast hm
    · unfold sqrtExp; omega
  have hb : |rndSqrt q| < 2 ^ 128 := by
    rw [e, abs_of_nonneg (mul_nonneg (by positivity) (two_zpow_pos _).le)]
    have h1 : (m : ℚ) ≤ 2 ^ 24 := by exact_mod_cast hm
    have h2 : (2 : ℚ) ^ sqrtExp q ≤ 2 ^ (40 : ℤ) := zpow_le_zpow_right₀ (by norm_num) (by unfold sqrtExp; omega)
    calc (m : ℚ) * 2 ^ sqrtExp q ≤ 2 ^ 24 * 2 ^ (40 : ℤ) := mul_le_mul h1 h2 (two_zpow_pos _).le (by norm_num)
      _ < 2 ^ 128 := by norm_num
  have hfin : (ofRat false (rndSqrt q)).isFin = true := by rw [ofRat_isFin, hr]; exact hb
  have e1 : sqrt (fin q h) = ofRat false (rndSqrt q) := by
    show (if q < 0 then nan else ofRat false (rndSqrt q)) = _
    rw [if_neg (not_lt.mpr hq.le)]
  rw [e1]
  exact ⟨hfin, by rw [ofRat_val hfin, hr]⟩

/-- for a finite result the argument is finite and not negative -/
theorem sqrt_isFin {a : F32} (h : (sqrt a).isFin = true) : a.isFin = true ∧ 0 ≤ a.val := by
  rcases a with _ | s | s | ⟨q, hq⟩
  · simp [sqrt] at h
  · cases s <;> simp [sqrt] at h
  · simp
  · refine ⟨rfl, ?_⟩
    by_contra hc
    push Not at hc
    change (if q < 0 then nan else ofRat false (rndSqrt q)).isFin = true at h
    rw [if_pos (show q < 0 from hc)] at h
    simp at h

theorem sqrt_err {a : F32} (h : (sqrt a).isFin = true) : |(sqrt a).toReal - √a.toReal| ≤ ur * √a.toReal := by
  obtain ⟨-, h0⟩ := sqrt_isFin h
  rcases a with _ | s | s | ⟨q, hq⟩
  · simp [sqrt, toReal]
  · cases s <;> simp [sqrt] at h
  · simp [sqrt, toReal]
  · have hp : 0 < q := lt_of_le_of_ne h0 (Ne.symm hq.1)
    have := rndSqrt_err hp
    unfold toReal
    rw [(sqrt_val hq hp).2]
    exact this

/-- square root of a number that was computed by adding non-negative terms -/
theorem Near.sqrt {f : F32} {x : ℝ} {k : ℕ} {e : ℝ} (hf : Near f x x k e) :
    Near (sqrt f) (√x) (√x) (k + 1) ((1 + ur) * √e) := by
  intro h
  obtain ⟨ff, f0⟩ := sqrt_isFin h
  obtain ⟨h1, h2, h3⟩ := hf ff
  have hx : 0 ≤ x := (abs_nonneg x).trans h2
  have hu := ur_pos
  have er := sqrt_err h
  have f0' : 0 ≤ f.toReal := by unfold toReal; exact_mod_cast f0
  refine ⟨?_, by rw [abs_of_nonneg (Real.sqrt_nonneg _)], by positivity⟩
  have hp := one_le_pow_ur k
  rw [pow_succ]
  generalize (1 + ur) ^ k = p at *
  generalize f.toReal = v at *
  have sx := Real.sqrt_nonneg x
  have se := Real.sqrt_nonneg e
  have sv := Real.sqrt_nonneg v
  obtain ⟨l, r⟩ := abs_le.mp h1
  have up : √v ≤ p * √x + √e := by
    rw [Real.sqrt_le_left (by positivity)]
    have q1 : √x ^ 2 = x := Real.sq_sqrt hx
    have q2 : √e ^ 2 = e := Real.sq_sqrt h3
    have e1 : (p * √x + √e) ^ 2 = p ^ 2 * x + 2 * (p * √x * √e) + e := by
      rw [add_sq, mul_pow, q1, q2]; ring
    rw [e1]
    nlinarith [mul_nonneg (mul_nonneg (by linarith : (0 : ℝ) ≤ p) sx) se,
      mul_nonneg (mul_nonneg (by linarith : (0 : ℝ) ≤ p - 1) (by linarith : (0 : ℝ) ≤ p)) hx]
  have lo : (2 - p) * √x - √e ≤ √v := by
    rcases le_or_gt p 2 with hp2 | hp2
    · have q : (2 - p) * √x ≤ √v + √e := by
        have a1 : √((2 - p) * x) ≤ √v + √e := by
          rw [Real.sqrt_le_left (by positivity)]
          have q1 : √v ^ 2 = v := Real.sq_sqrt f0'
          have q2 : √e ^ 2 = e := Real.sq_sqrt h3
          nlinarith [mul_nonneg sv se]
        refine le_trans ?_ a1
        apply Real.le_sqrt_of_sq_le
        have q1 : √x ^ 2 = x := Real.sq_sqrt hx
        rw [mul_pow, q1]
        nlinarith [mul_nonneg (mul_nonneg (by linarith : (0 : ℝ) ≤ p - 1) (by linarith : (0 : ℝ) ≤ 2 - p)) hx]
      linarith
    · nlinarith
  have d : |√v - √x| ≤ (p - 1) * √x + √e := by rw [abs_le]; constructor <;> nlinarith
  have t := abs_add_le ((F32.sqrt f).toReal - √v) (√v - √x)
  rw [sub_add_sub_cancel] at t
  have := mul_le_mul_of_nonneg_left up hu.le
  nlinarith

/-- the textbook constant `γ n = n u / (1 - n u)` -/
noncomputable def γ (n : ℕ) : ℝ := n * ur / (1 - n * ur)

theorem pow_le_γ (n : ℕ) (h : n * ur < 1) : (1 + ur) ^ n - 1 ≤ γ n := by
  have key : (1 + ur) ^ n * (1 - n * ur) ≤ 1 := by
    have hu := ur_pos
    have h2 : 1 - n * ur ≤ (1 - ur) ^ n := by
      have := one_add_mul_le_pow (a := -ur) (by norm_num [ur]) n
      rw [show (1 : ℝ) + -ur = 1 - ur by ring] at this
      linarith
    calc (1 + ur) ^ n * (1 - n * ur) ≤ (1 + ur) ^ n * (1 - ur) ^ n :=
          mul_le_mul_of_nonneg_left h2 (by positivity)
      _ = ((1 + ur) * (1 - ur)) ^ n := (mul_pow _ _ _).symm
      _ ≤ 1 := pow_le_one₀ (by norm_num [ur]) (by norm_num [ur])
  unfold γ
  rw [le_div_iff₀ (by linarith)]
  nlinarith

/-- From a derivation to a bound. -/
theorem Near.bound {f : F32} {x M : ℝ} {k : ℕ} {e : ℝ} (h : Near f x M k e) (hf : f.isFin = true) (n : ℕ) (hk : k ≤ n)
    (hn : n * ur < 1) {X B E : ℝ} (hx : x = X) (hM : M ≤ B) (he : e ≤ E) : |f.toReal - X| ≤ γ n * B + E := by
  subst hx
  obtain ⟨h1, h2, -⟩ := h.le hM hk he hf
  have := mul_le_mul_of_nonneg_right (pow_le_γ n hn) ((abs_nonneg _).trans h2)
  linarith

end F32
end Cglm
