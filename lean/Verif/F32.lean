import Verif.Base
import Mathlib.Data.Int.Log
import Mathlib.Data.Rat.Floor
import Mathlib.Algebra.Order.Round
import Mathlib.Tactic.Ring
import Mathlib.Tactic.Linarith
import Mathlib.Tactic.NormNum
import Mathlib.Tactic.Positivity
import Mathlib.Tactic.FieldSimp

/-!
# IEEE-754 binary32

The data are those of the standard with all NaNs identified: NaN, two infinities, two zeros, and the non-zero finite
numbers, given by their value.  Arithmetic is the exact rational result rounded to nearest, ties to even, with gradual
underflow and overflow to infinity.  `sqrtf` is correctly rounded.  The transcendental functions of libm are not
specified by IEEE-754: they are the parameters `Libm`, and theorems that do not fix them hold for every choice.

Not modelled: NaN payloads and signs, exception flags, other rounding modes, flush-to-zero.
-/

namespace Cglm

/-- The finite binary32 values: `m * 2^e` with a 24-bit significand and `-149 ≤ e ≤ 104`. -/
def Rep (q : ℚ) : Prop := ∃ m e : ℤ, |m| < 2 ^ 24 ∧ -149 ≤ e ∧ e ≤ 104 ∧ q = m * 2 ^ e

/-- A binary32 datum (`float`). -/
inductive F32 where
  | nan
  | inf (neg : Bool)
  | zero (neg : Bool)
  | fin (q : ℚ) (h : q ≠ 0 ∧ Rep q)
deriving DecidableEq

namespace F32

/-- round to the nearest integer, ties to even -/
def rne (x : ℚ) : ℤ :=
  if x - ⌊x⌋ < 1 / 2 then ⌊x⌋ else if 1 / 2 < x - ⌊x⌋ then ⌊x⌋ + 1 else if ⌊x⌋ % 2 = 0 then ⌊x⌋ else ⌊x⌋ + 1

/-- exponent of the unit in the last place at magnitude `q`, with gradual underflow -/
def ulpExp (q : ℚ) : ℤ := max (Int.log 2 |q| - 23) (-149)

/-- rounding to 24 significant bits with no upper limit on the exponent -/
def rnd (q : ℚ) : ℚ := rne (q / 2 ^ ulpExp q) * 2 ^ ulpExp q

theorem rne_le_add (x : ℚ) : (rne x : ℚ) ≤ x + 1 / 2 := by
  have h := Int.floor_le x
  have h' := Int.lt_floor_add_one x
  unfold rne
  split_ifs <;> push_cast <;> linarith

theorem sub_le_rne (x : ℚ) : x - 1 / 2 ≤ (rne x : ℚ) := by
  have h := Int.floor_le x
  have h' := Int.lt_floor_add_one x
  unfold rne
  split_ifs <;> push_cast <;> linarith

theorem rne_err (x : ℚ) : |(rne x : ℚ) - x| ≤ 1 / 2 := by
  rw [abs_le]; constructor <;> linarith [rne_le_add x, sub_le_rne x]

theorem rne_int (n : ℤ) : rne (n : ℚ) = n := by
  unfold rne; simp

theorem rne_mono {x y : ℚ} (h : x ≤ y) : rne x ≤ rne y := by
  rcases lt_or_eq_of_le (Int.floor_mono h) with hf | hf
  · have h1 : rne x ≤ ⌊x⌋ + 1 := by unfold rne; split_ifs <;> omega
    have h2 : ⌊y⌋ ≤ rne y := by unfold rne; split_ifs <;> omega
    omega
  · unfold rne
    rw [← hf]
    split_ifs <;> first | omega | (exfalso; linarith)

theorem rne_neg (x : ℚ) : rne (-x) = -rne x := by
  by_cases hx : ((⌊x⌋ : ℤ) : ℚ) = x
  · rw [← hx, rne_int, ← Int.cast_neg, rne_int]
  · have hf : ⌊-x⌋ = -⌊x⌋ - 1 := by
      rw [Int.floor_eq_iff]
      have h1 := lt_of_le_of_ne (Int.floor_le x) hx
      have h2 := Int.lt_floor_add_one x
      push_cast
      constructor <;> linarith
    unfold rne
    rw [hf]
    push_cast
    split_ifs <;> first | omega | (exfalso; linarith)

theorem two_zpow_pos (e : ℤ) : (0 : ℚ) < 2 ^ e := zpow_pos (by norm_num) e

theorem ulpExp_ge (q : ℚ) : -149 ≤ ulpExp q := le_max_right _ _

theorem ulpExp_neg (q : ℚ) : ulpExp (-q) = ulpExp q := by unfold ulpExp; rw [abs_neg]

theorem rnd_neg (q : ℚ) : rnd (-q) = -rnd q := by
  unfold rnd
  rw [ulpExp_neg, neg_div, rne_neg]
  push_cast; ring

theorem rnd_zero : rnd 0 = 0 := by
  unfold rnd; rw [zero_div, show (0 : ℚ) = ((0 : ℤ) : ℚ) by norm_num, rne_int]; simp

/-- the magnitude is below 24 bits at its own exponent -/
theorem abs_lt_ulp (q : ℚ) : |q| < 2 ^ 24 * 2 ^ ulpExp q := by
  have h := Int.lt_zpow_succ_log_self (b := 2) (by norm_num) |q|
  have h2 : (2 : ℚ) ^ (Int.log 2 |q| + 1) ≤ 2 ^ ((24 : ℤ) + ulpExp q) := by
    apply zpow_le_zpow_right₀ (by norm_num)
    unfold ulpExp; omega
  have h3 : (2 : ℚ) ^ ((24 : ℤ) + ulpExp q) = 2 ^ 24 * 2 ^ ulpExp q := by rw [zpow_add₀ (by norm_num)]; norm_num
  rw [h3] at h2
  exact lt_of_lt_of_le (by exact_mod_cast h) h2

theorem rnd_err_ulp (q : ℚ) : |rnd q - q| ≤ 2 ^ ulpExp q / 2 := by
  unfold rnd
  have hp := two_zpow_pos (ulpExp q)
  have h := rne_err (q / 2 ^ ulpExp q)
  generalize (2 : ℚ) ^ ulpExp q = w at *
  have e : (rne (q / w) : ℚ) * w - q = ((rne (q / w) : ℚ) - q / w) * w := by field_simp
  rw [e, abs_mul, abs_of_pos hp]
  nlinarith

/-- the unit roundoff `2^-24` -/
def u : ℚ := 1 / 2 ^ 24

/-- half the smallest positive number -/
def η : ℚ := 1 / 2 ^ 150

theorem u_pos : 0 < u := by norm_num [u]
theorem η_pos : 0 < η := by norm_num [η]

/-- the error of one rounding: relative `2^-24`, or absolute `2^-150` below the normal range -/
theorem rnd_err (q : ℚ) : |rnd q - q| ≤ u * |q| + η := by
  by_cases hq : q = 0
  · subst hq; rw [rnd_zero]; simp [η_pos.le]
  refine (rnd_err_ulp q).trans ?_
  unfold ulpExp
  rcases le_total (-149) (Int.log 2 |q| - 23) with h | h
  · rw [max_eq_left h]
    have h1 : (2 : ℚ) ^ Int.log 2 |q| ≤ |q| := by exact_mod_cast Int.zpow_log_le_self (b := 2) (by norm_num) (abs_pos.mpr hq)
    rw [zpow_sub₀ (by norm_num)]
    have := η_pos
    unfold u
    norm_num
    linarith
  · rw [max_eq_right h]
    have := mul_nonneg u_pos.le (abs_nonneg q)
    have e : (2 : ℚ) ^ (-149 : ℤ) / 2 = η := by norm_num [η]
    rw [e]; linarith

/-- above the underflow threshold the error is relative -/
theorem rnd_err_normal (q : ℚ) (h : (2 : ℚ) ^ (-126 : ℤ) ≤ |q|) : |rnd q - q| ≤ u * |q| := by
  refine (rnd_err_ulp q).trans ?_
  have hq : 0 < |q| := lt_of_lt_of_le (two_zpow_pos _) h
  have hl : -126 ≤ Int.log 2 |q| := by
    rw [← Int.zpow_le_iff_le_log (by norm_num) hq]; exact_mod_cast h
  unfold ulpExp
  rw [max_eq_left (by omega)]
  have h1 : (2 : ℚ) ^ Int.log 2 |q| ≤ |q| := by exact_mod_cast Int.zpow_log_le_self (b := 2) (by norm_num) hq
  rw [zpow_sub₀ (by norm_num)]
  unfold u
  norm_num
  linarith

/-- a number with at most 24 bits at an exponent `≥ -149` is not changed by rounding -/
theorem rnd_of_bits (m e : ℤ) (hm : |m| ≤ 2 ^ 24) (he : -149 ≤ e) : rnd (m * 2 ^ e) = m * 2 ^ e := by
  by_cases h0 : m = 0
  · subst h0; simp [rnd_zero]
  have hpos : (0 : ℚ) < |(m : ℚ) * 2 ^ e| := abs_pos.mpr (mul_ne_zero (by exact_mod_cast h0) (two_zpow_pos e).ne')
  have key : ∃ n : ℤ, (m : ℚ) * 2 ^ e = n * 2 ^ ulpExp ((m : ℚ) * 2 ^ e) := by
    by_cases hc : ulpExp ((m : ℚ) * 2 ^ e) ≤ e
    · refine ⟨m * 2 ^ (e - ulpExp ((m : ℚ) * 2 ^ e)).toNat, ?_⟩
      push_cast
      rw [mul_assoc, ← zpow_natCast, Int.toNat_of_nonneg (by omega), ← zpow_add₀ (by norm_num)]
      congr 2; omega
    · -- only possible when |m| = 2^24
      push Not at hc
      have hl : e + 23 < Int.log 2 |(m : ℚ) * 2 ^ e| := by
        unfold ulpExp at hc; omega
      have h1 : (2 : ℚ) ^ Int.log 2 |(m : ℚ) * 2 ^ e| ≤ |(m : ℚ) * 2 ^ e| := by
        exact_mod_cast Int.zpow_log_le_self (b := 2) (by norm_num) hpos
      have h2 : |(m : ℚ) * 2 ^ e| ≤ 2 ^ (24 + e) := by
        rw [abs_mul, abs_of_pos (two_zpow_pos e), zpow_add₀ (by norm_num)]
        have : |(m : ℚ)| ≤ 2 ^ 24 := by exact_mod_cast hm
        exact mul_le_mul_of_nonneg_right (by exact_mod_cast this) (two_zpow_pos e).le
      have h3 : (2 : ℚ) ^ (24 + e) ≤ 2 ^ Int.log 2 |(m : ℚ) * 2 ^ e| :=
        zpow_le_zpow_right₀ (by norm_num) (by omega)
      have heq : |(m : ℚ) * 2 ^ e| = 2 ^ (24 + e) := le_antisymm h2 (h3.trans h1)
      have hlog : Int.log 2 |(m : ℚ) * 2 ^ e| = 24 + e := by
        rw [heq]; exact_mod_cast Int.log_zpow (b := 2) (R := ℚ) (by norm_num) (24 + e)
      have hu : ulpExp ((m : ℚ) * 2 ^ e) = e + 1 := by unfold ulpExp; rw [hlog]; omega
      have hm' : |(m : ℚ)| = 2 ^ 24 := by
        rw [abs_mul, abs_of_pos (two_zpow_pos e), zpow_add₀ (by norm_num)] at heq
        have := mul_right_cancel₀ (two_zpow_pos e).ne' heq
        exact_mod_cast this
      rw [hu]
      rcases abs_choice (m : ℚ) with hs | hs
      · refine ⟨2 ^ 23, ?_⟩
        rw [hs] at hm'; rw [hm', zpow_add₀ (by norm_num)]; push_cast; ring
      · refine ⟨-2 ^ 23, ?_⟩
        rw [hs] at hm'
        rw [show (m : ℚ) = -2 ^ 24 by linarith, zpow_add₀ (by norm_num)]; push_cast; ring
  obtain ⟨n, hn⟩ := key
  unfold rnd
  conv_lhs => rw [hn]
  rw [← hn, show (m : ℚ) * 2 ^ e / 2 ^ ulpExp ((m : ℚ) * 2 ^ e) = n by
    rw [div_eq_iff (two_zpow_pos _).ne']; exact hn, rne_int]
  exact hn.symm

theorem rnd_rep {q : ℚ} (h : Rep q) : rnd q = q := by
  obtain ⟨m, e, hm, he, -, rfl⟩ := h
  exact rnd_of_bits m e hm.le he

theorem rne_abs_le {x : ℚ} {n : ℤ} (h : |x| ≤ n) : |rne x| ≤ n := by
  have h1 := abs_le.mp h
  have a := rne_mono h1.1
  have b := rne_mono h1.2
  rw [← Int.cast_neg, rne_int] at a
  rw [rne_int] at b
  exact abs_le.mpr ⟨a, b⟩

theorem rnd_bits (q : ℚ) : ∃ m : ℤ, |m| ≤ 2 ^ 24 ∧ rnd q = m * 2 ^ ulpExp q := by
  refine ⟨_, ?_, rfl⟩
  apply rne_abs_le
  rw [abs_div, abs_of_pos (two_zpow_pos _), div_le_iff₀ (two_zpow_pos _)]
  exact_mod_cast (abs_lt_ulp q).le

/-- the rounded value is a binary32 value unless it overflows -/
theorem rep_rnd {q : ℚ} (h : |rnd q| < 2 ^ 128) : Rep (rnd q) := by
  obtain ⟨m, hm, e⟩ := rnd_bits q
  by_cases h0 : m = 0
  · refine ⟨0, 0, by norm_num, by norm_num, by norm_num, ?_⟩; rw [e, h0]; simp
  have hge := ulpExp_ge q
  generalize ulpExp q = k at *
  have hm1 : (1 : ℚ) ≤ |(m : ℚ)| := by
    have : 1 ≤ |m| := Int.one_le_abs h0
    exact_mod_cast this
  -- normalise: shift small significands so that the exponent is within range
  have main : ∀ (n : ℕ) (m : ℤ) (k : ℤ), m ≠ 0 → |m| ≤ 2 ^ 24 → -149 ≤ k → k ≤ 104 + n → |(m : ℚ) * 2 ^ k| < 2 ^ 128 →
      Rep ((m : ℚ) * 2 ^ k) := by
    intro n
    induction n with
    | zero =>
      intro m k h0 hm hk hk' hb
      rcases lt_or_eq_of_le hm with hm | hm
      · exact ⟨m, k, hm, hk, by omega, rfl⟩
      · -- significand 2^24
        have hk104 : k ≤ 103 := by
          by_contra hc
          have : k = 104 := by omega
          rw [this, abs_mul, ← Int.cast_abs, hm] at hb
          norm_num at hb
        rcases abs_choice m with hs | hs
        · refine ⟨2 ^ 23, k + 1, by norm_num, by omega, by omega, ?_⟩
          rw [show m = 2 ^ 24 by omega, zpow_add₀ (by norm_num)]; push_cast; ring
        · refine ⟨-2 ^ 23, k + 1, by norm_num, by omega, by omega, ?_⟩
          rw [show m = -2 ^ 24 by omega, zpow_add₀ (by norm_num)]; push_cast; ring
    | succ n ih =>
      intro m k h0 hm hk hk' hb
      by_cases hc : k ≤ 104
      · exact ih m k h0 hm hk (by omega) hb
      · have hmm : (1 : ℚ) ≤ |(m : ℚ)| := by
          have : 1 ≤ |m| := Int.one_le_abs h0
          exact_mod_cast this
        have hsmall : |(m * 2 : ℤ)| ≤ 2 ^ 24 := by
          rw [abs_mul, abs_of_pos (two_zpow_pos k)] at hb
          have h1 : (2 : ℚ) ^ (105 : ℤ) ≤ 2 ^ k := zpow_le_zpow_right₀ (by norm_num) (by omega)
          have h2 : |(m : ℚ)| * 2 ^ (105 : ℤ) < 2 ^ 128 :=
            lt_of_le_of_lt (mul_le_mul_of_nonneg_left h1 (abs_nonneg _)) hb
          have h3 : |(m : ℚ)| < 2 ^ 23 := by
            have e1 : (2 : ℚ) ^ 128 = 2 ^ 23 * 2 ^ (105 : ℤ) := by norm_num
            rw [e1] at h2
            exact lt_of_mul_lt_mul_right h2 (two_zpow_pos _).le
          have h4 : |m| < 2 ^ 23 := by exact_mod_cast h3
          rw [abs_mul]
          norm_num
          omega
        have e2 : (m : ℚ) * 2 ^ k = ((m * 2 : ℤ) : ℚ) * 2 ^ (k - 1) := by
          rw [zpow_sub₀ (by norm_num)]; push_cast; ring
        rw [e2]
        rw [e2] at hb
        exact ih (m * 2) (k - 1) (by omega) hsmall (by omega) (by omega) hb
  rw [e]
  rw [e] at h
  exact main (k - 104).toNat m k h0 hm hge (by omega) h

/-- Rounding to a binary32 datum; `neg` is the sign of an exact zero. -/
def ofRat (neg : Bool) (q : ℚ) : F32 :=
  if h0 : rnd q = 0 then zero (if q = 0 then neg else decide (q < 0))
  else if h : |rnd q| < 2 ^ 128 then fin (rnd q) ⟨h0, rep_rnd h⟩
  else inf (decide (q < 0))

/-- numerical value; 0 for infinities and NaN -/
def val : F32 → ℚ
  | fin q _ => q
  | _ => 0

/-- neither infinite nor NaN -/
def isFin : F32 → Bool
  | fin _ _ => true
  | zero _ => true
  | _ => false

/-- sign bit (of a number that is not NaN) -/
def sgn : F32 → Bool
  | nan => false
  | inf s => s
  | zero s => s
  | fin q _ => decide (q < 0)

protected def neg : F32 → F32
  | nan => nan
  | inf s => inf (!s)
  | zero s => zero (!s)
  | fin q h => fin (-q) ⟨neg_ne_zero.mpr h.1, by
      obtain ⟨m, e, hm, h1, h2, rfl⟩ := h.2
      exact ⟨-m, e, by rwa [abs_neg], h1, h2, by push_cast; ring⟩⟩

protected def add : F32 → F32 → F32
  | nan, _ => nan
  | _, nan => nan
  | inf s, inf t => if s = t then inf s else nan
  | inf s, _ => inf s
  | _, inf t => inf t
  | zero s, zero t => zero (s && t)
  | a, b => ofRat false (a.val + b.val)

protected def mul : F32 → F32 → F32
  | nan, _ => nan
  | _, nan => nan
  | inf _, zero _ => nan
  | zero _, inf _ => nan
  | inf s, b => inf (s != b.sgn)
  | a, inf t => inf (a.sgn != t)
  | a, b => ofRat (a.sgn != b.sgn) (a.val * b.val)

protected def div : F32 → F32 → F32
  | nan, _ => nan
  | _, nan => nan
  | inf _, inf _ => nan
  | zero _, zero _ => nan
  | inf s, b => inf (s != b.sgn)
  | a, inf t => zero (a.sgn != t)
  | a, zero t => inf (a.sgn != t)
  | a, b => ofRat (a.sgn != b.sgn) (a.val / b.val)

instance : Neg F32 := ⟨F32.neg⟩
instance : Add F32 := ⟨F32.add⟩
/-- subtraction is addition of the negated number -/
instance : Sub F32 := ⟨fun a b => a + -b⟩
instance : Mul F32 := ⟨F32.mul⟩
instance : Div F32 := ⟨F32.div⟩

/-- `a < b`; false when an operand is NaN -/
def lt : F32 → F32 → Bool
  | nan, _ => false
  | _, nan => false
  | inf s, inf t => s && !t
  | inf s, _ => s
  | _, inf t => !t
  | a, b => decide (a.val < b.val)

/-- `a == b`; false when an operand is NaN, and `-0 == +0` -/
def eq : F32 → F32 → Bool
  | nan, _ => false
  | _, nan => false
  | inf s, inf t => s == t
  | inf _, _ => false
  | _, inf _ => false
  | a, b => decide (a.val = b.val)

/-- `a <= b`; false when an operand is NaN -/
def le (a b : F32) : Bool := lt a b || eq a b

/-- exponent of the unit in the last place of `√q` -/
def sqrtExp (q : ℚ) : ℤ := Int.log 2 q / 2 - 23

/-- `√q` rounded to nearest, for positive `q`: the integer square root at the right scale, corrected by comparing with
the midpoint -/
def rndSqrt (q : ℚ) : ℚ :=
  let x := q / 4 ^ sqrtExp q
  let k := Nat.sqrt ⌊x⌋.toNat
  (if x ≤ ((k : ℚ) + 1 / 2) ^ 2 then (k : ℚ) else (k : ℚ) + 1) * 2 ^ sqrtExp q

def sqrt : F32 → F32
  | nan => nan
  | inf s => if s then nan else inf false
  | zero s => zero s
  | fin q _ => if q < 0 then nan else ofRat false (rndSqrt q)

def abs : F32 → F32
  | nan => nan
  | inf _ => inf false
  | zero _ => zero false
  | fin q h => if q < 0 then -fin q h else fin q h

/-- truncation of a rational toward zero -/
def truncQ (q : ℚ) : ℤ := if 0 ≤ q then ⌊q⌋ else ⌈q⌉

def floor : F32 → F32
  | fin q _ => ofRat false (⌊q⌋ : ℚ)
  | a => a

def modfFrac : F32 → F32
  | nan => nan
  | inf s => zero s
  | zero s => zero s
  | fin q _ => ofRat (decide (q < 0)) (q - truncQ q)

def fmod : F32 → F32 → F32
  | nan, _ => nan
  | _, nan => nan
  | inf _, _ => nan
  | _, zero _ => nan
  | a, inf _ => a
  | a, b => ofRat a.sgn (a.val - b.val * truncQ (a.val / b.val))

/-- C `fminf`: a NaN operand is ignored -/
def fmin : F32 → F32 → F32
  | nan, b => b
  | a, nan => a
  | a, b => if lt a b then a else b

end F32

/-- The libm functions IEEE-754 does not determine. -/
class Libm where
  sinf : F32 → F32
  cosf : F32 → F32
  tanf : F32 → F32
  asinf : F32 → F32
  acosf : F32 → F32
  atanf : F32 → F32
  atan2f : F32 → F32 → F32
  powf : F32 → F32 → F32

instance [Libm] : CFloat F32 where
  lit q := F32.ofRat false q
  flt := F32.lt
  fle := F32.le
  feq := F32.eq
  sqrtf := F32.sqrt
  sinf := Libm.sinf
  cosf := Libm.cosf
  tanf := Libm.tanf
  asinf := Libm.asinf
  acosf := Libm.acosf
  atanf := Libm.atanf
  atan2f := Libm.atan2f
  floorf := F32.floor
  fabsf := F32.abs
  fmodf := F32.fmod
  powf := Libm.powf
  fminf := F32.fmin
  modfFrac := F32.modfFrac
  isnanf a := decide (a = F32.nan)
  isinff a := decide (a = F32.inf false) || decide (a = F32.inf true)

end Cglm
