import Verif.Contract
import Mathlib.Tactic.IntervalCases
/-!
# Excess precision

A C implementation may evaluate operations and constants of type `float` in a wider format (`FLT_EVAL_METHOD` 1 or 2, C11 5.2.4.2.2),
and an assignment rounds a second time.  Here a run of the code is evaluated with an arbitrary method: for every operation it sees
the whole expression and the exact result, may round it to the nearest number of some format with at least 53 bits, and may round
that to the nearest binary32 number.  Ties may go either way.  Without any rounding of a product this is also a fused operation.

Simplified: no number overflows; two occurrences of the same expression over the same inputs are evaluated in the same way.
-/

namespace Cglm
namespace Wide

/-- numbers of a binary format with `p` bits and smallest exponent `m` -/
def Fmt (p : ℕ) (m : ℤ) (x : ℝ) : Prop := ∃ n e : ℤ, |n| ≤ 2 ^ p ∧ m ≤ e ∧ x = n * 2 ^ e

/-- `y` is a number of the format, and none is nearer to `x` -/
def Nearest (p : ℕ) (m : ℤ) (x y : ℝ) : Prop := Fmt p m y ∧ ∀ z, Fmt p m z → |y - x| ≤ |z - x|

/-- what may be kept of the exact result `x`: at most one rounding to a wide format, then at most one to binary32 -/
def Kept (x z : ℝ) : Prop :=
  ∃ y, (y = x ∨ ∃ p m, 53 ≤ p ∧ m ≤ -150 ∧ Nearest p m x y) ∧ (z = y ∨ Nearest 24 (-149) y z)

end Wide

open Wide

/-- an evaluation method -/
structure Method where
  keep : Tree → ℝ → ℝ
  ok : ∀ t x, Kept x (keep t x)

/-- a number during the run: its value and its expression -/
structure Wide (E : Method) where
  val : ℝ
  tree : Tree

variable {E : Method}

/-- load an input -/
noncomputable def Named.wide (E : Method) (a : Named) : Wide E := ⟨a.val.toReal, .input a.name⟩

/-- the result of an operation -/
def Wide.op (t : Tree) (x : ℝ) : Wide E := ⟨E.keep t x, t⟩

noncomputable instance : Neg (Wide E) := ⟨fun a => ⟨-a.val, .op1 0 a.tree⟩⟩
noncomputable instance : Add (Wide E) := ⟨fun a b => .op (.op2 0 a.tree b.tree) (a.val + b.val)⟩
noncomputable instance : Sub (Wide E) := ⟨fun a b => .op (.op2 1 a.tree b.tree) (a.val - b.val)⟩
noncomputable instance : Mul (Wide E) := ⟨fun a b => .op (.op2 2 a.tree b.tree) (a.val * b.val)⟩
noncomputable instance : Div (Wide E) := ⟨fun a b => .op (.op2 3 a.tree b.tree) (a.val / b.val)⟩

/-- a function of one argument, correctly rounded to what is kept -/
def Wide.fn1 (n : ℕ) (f : ℝ → ℝ) (a : Wide E) : Wide E := .op (.op1 n a.tree) (f a.val)
/-- a function of two arguments -/
def Wide.fn2 (n : ℕ) (f : ℝ → ℝ → ℝ) (a b : Wide E) : Wide E := .op (.op2 n a.tree b.tree) (f a.val b.val)

noncomputable instance : CFloat (Wide E) where
  lit q := .op (.const q) q
  flt a b := CFloat.flt a.val b.val
  fle a b := CFloat.fle a.val b.val
  feq a b := CFloat.feq a.val b.val
  sqrtf := Wide.fn1 1 CFloat.sqrtf
  sinf := Wide.fn1 2 CFloat.sinf
  cosf := Wide.fn1 3 CFloat.cosf
  tanf := Wide.fn1 4 CFloat.tanf
  asinf := Wide.fn1 5 CFloat.asinf
  acosf := Wide.fn1 6 CFloat.acosf
  atanf := Wide.fn1 7 CFloat.atanf
  atan2f := Wide.fn2 8 CFloat.atan2f
  floorf := Wide.fn1 9 CFloat.floorf
  fabsf := Wide.fn1 10 CFloat.fabsf
  fmodf := Wide.fn2 11 CFloat.fmodf
  powf := Wide.fn2 12 CFloat.powf
  fminf := Wide.fn2 13 CFloat.fminf
  modfFrac := Wide.fn1 14 CFloat.modfFrac
  isnanf a := CFloat.isnanf a.val
  isinff a := CFloat.isinff a.val

namespace Wide

/-! ### rounding -/

theorem Fmt.wider {p q : ℕ} {m k : ℤ} {x : ℝ} (h : Fmt p m x) (hp : p ≤ q) (hm : k ≤ m) : Fmt q k x := by
  obtain ⟨n, e, hn, he, rfl⟩ := h
  exact ⟨n, e, hn.trans (pow_le_pow_right₀ (by norm_num) hp), hm.trans he, rfl⟩

theorem Nearest.self {p : ℕ} {m : ℤ} {x y : ℝ} (h : Nearest p m x y) (hx : Fmt p m x) : y = x := by
  have := h.2 x hx
  rw [sub_self, abs_zero] at this
  exact sub_eq_zero.mp (abs_nonpos_iff.mp this)

/-- numbers of binary32 are kept as they are -/
theorem Kept.self {x z : ℝ} (h : Kept x z) (hx : Fmt 24 (-149) x) : z = x := by
  obtain ⟨y, hy, hz⟩ := h
  have hy' : y = x := by
    rcases hy with h | ⟨p, m, hp, hm, h⟩
    · exact h
    · exact h.self (hx.wider (by omega) (by omega))
  subst hy'
  rcases hz with h | h
  · exact h
  · exact h.self hx

/-- the exponent of the last bit of the numbers near `x` -/
noncomputable def lastBit (p : ℕ) (m : ℤ) (x : ℝ) : ℤ := max (Int.log 2 |x| - p + 1) m

theorem two_zpow_pos (e : ℤ) : (0 : ℝ) < 2 ^ e := zpow_pos (by norm_num) e

theorem lt_lastBit (p : ℕ) (m : ℤ) (x : ℝ) : |x| < 2 ^ (lastBit p m x + p) := by
  have h := Int.lt_zpow_succ_log_self (R := ℝ) (b := 2) (by norm_num) |x|
  refine h.trans_le ?_
  refine zpow_le_zpow_right₀ (by norm_num) ?_
  have := le_max_left (Int.log 2 |x| - p + 1) m
  unfold lastBit; omega

/-- rounding on the grid of the last bit -/
noncomputable def toGrid (p : ℕ) (m : ℤ) (x : ℝ) : ℝ := round (x / 2 ^ lastBit p m x) * 2 ^ lastBit p m x

theorem toGrid_fmt (p : ℕ) (m : ℤ) (x : ℝ) : Fmt p m (toGrid p m x) := by
  refine ⟨_, _, ?_, le_max_right _ _, rfl⟩
  have h := lt_lastBit p m x
  generalize lastBit p m x = e at *
  have he := two_zpow_pos e
  have hb : |x / 2 ^ e| < 2 ^ p := by
    rw [abs_div, abs_of_pos he, div_lt_iff₀ he, mul_comm, ← zpow_natCast, ← zpow_add₀ (by norm_num)]
    exact h
  obtain ⟨h1, h2⟩ := abs_lt.mp hb
  rw [abs_le]
  constructor
  · have : ((-2 ^ p : ℤ) : ℝ) - 1 < (round (x / 2 ^ e) : ℝ) := by
      have := (abs_le.mp (abs_sub_round (x / 2 ^ e))).2
      push_cast; linarith
    have : (-2 ^ p : ℤ) - 1 < round (x / 2 ^ e) := by exact_mod_cast this
    omega
  · have : (round (x / 2 ^ e) : ℝ) < ((2 ^ p : ℤ) : ℝ) + 1 := by
      have := (abs_le.mp (abs_sub_round (x / 2 ^ e))).1
      push_cast; linarith
    have : round (x / 2 ^ e) < (2 ^ p : ℤ) + 1 := by exact_mod_cast this
    omega

theorem toGrid_le (p : ℕ) (m : ℤ) (x : ℝ) (n : ℤ) : |toGrid p m x - x| ≤ |n * 2 ^ lastBit p m x - x| := by
  unfold toGrid
  generalize lastBit p m x = e
  have he := two_zpow_pos e
  have := round_le (x / 2 ^ e) n
  have s : ∀ k : ℝ, |k * 2 ^ e - x| = |x / 2 ^ e - k| * 2 ^ e := fun k => by
    rw [← abs_of_pos he, ← abs_mul, abs_of_pos he, abs_sub_comm]
    congr 1; field_simp
  rw [s, s]
  exact mul_le_mul_of_nonneg_right this he.le

theorem toGrid_err (p : ℕ) (m : ℤ) (x : ℝ) : |toGrid p m x - x| ≤ 2 ^ lastBit p m x / 2 := by
  unfold toGrid
  generalize lastBit p m x = e
  have he := two_zpow_pos e
  have := abs_sub_round (x / 2 ^ e)
  have s : |round (x / 2 ^ e) * 2 ^ e - x| = |x / 2 ^ e - round (x / 2 ^ e)| * 2 ^ e := by
    rw [← abs_of_pos he, ← abs_mul, abs_of_pos he, abs_sub_comm]
    congr 1; field_simp
  rw [s]
  nlinarith

/-- a nearest number always exists -/
theorem nearest_toGrid {p : ℕ} (hp : 1 ≤ p) (m : ℤ) (x : ℝ) : Nearest p m x (toGrid p m x) := by
  refine ⟨toGrid_fmt p m x, ?_⟩
  rintro z ⟨n, e, hn, hm, rfl⟩
  by_cases hx : x = 0
  · subst hx
    rw [show toGrid p m 0 - 0 = 0 by simp [toGrid], abs_zero]; exact abs_nonneg _
  have key := toGrid_le p m x
  by_cases h : lastBit p m x ≤ e
  · have := key (n * 2 ^ (e - lastBit p m x).toNat)
    convert this using 3
    push_cast
    rw [mul_assoc, ← zpow_natCast, ← zpow_add₀ (by norm_num : (2 : ℝ) ≠ 0)]
    congr 2; omega
  · push Not at h
    have hE : lastBit p m x = Int.log 2 |x| - p + 1 := by
      unfold lastBit at *
      rcases max_cases (Int.log 2 |x| - p + 1) m with ⟨h1, -⟩ | ⟨h1, -⟩ <;> omega
    have hl := Int.zpow_log_le_self (R := ℝ) (b := 2) (r := |x|) (by norm_num) (abs_pos.mpr hx)
    rw [show Int.log 2 |x| = lastBit p m x + (p - 1 : ℕ) by omega, zpow_add₀ (by norm_num), zpow_natCast] at hl
    push_cast at hl
    generalize lastBit p m x = E at *
    have hz : |(n : ℝ) * 2 ^ e| ≤ 2 ^ E * 2 ^ (p - 1) := by
      rw [abs_mul, abs_of_pos (two_zpow_pos e)]
      have h1 : |(n : ℝ)| ≤ 2 ^ p := by exact_mod_cast hn
      have h2 : (2 : ℝ) ^ e ≤ 2 ^ (E - 1) := zpow_le_zpow_right₀ (by norm_num) (by omega)
      have h3 : (2 : ℝ) ^ E = 2 * 2 ^ (E - 1) := by rw [← zpow_one_add₀ (by norm_num)]; congr 1; ring
      have h4 : (2 : ℝ) ^ p = 2 * 2 ^ (p - 1) := by rw [← pow_succ']; congr 1; omega
      rw [h3]
      calc |(n : ℝ)| * 2 ^ e ≤ 2 ^ p * 2 ^ (E - 1) := mul_le_mul h1 h2 (two_zpow_pos e).le (by positivity)
        _ = _ := by rw [h4]; ring
    have t := abs_sub_abs_le_abs_sub x (n * 2 ^ e)
    rw [abs_sub_comm] at t
    rcases le_or_gt 0 x with h0 | h0
    · have k := key (2 ^ (p - 1))
      push_cast at k
      rw [abs_of_nonneg h0] at hl t
      have q : |(2 : ℝ) ^ (p - 1) * 2 ^ E - x| = x - 2 ^ E * 2 ^ (p - 1) := by
        rw [abs_sub_comm, mul_comm, abs_of_nonneg (by linarith)]
      linarith
    · have k := key (-2 ^ (p - 1))
      push_cast at k
      rw [abs_of_neg h0] at hl t
      have q : |-(2 : ℝ) ^ (p - 1) * 2 ^ E - x| = -x - 2 ^ E * 2 ^ (p - 1) := by
        rw [show -(2 : ℝ) ^ (p - 1) * 2 ^ E - x = -x - 2 ^ E * 2 ^ (p - 1) by ring, abs_of_nonneg (by linarith)]
      linarith

theorem Nearest.err {p : ℕ} {m : ℤ} {x y : ℝ} (h : Nearest p m x y) : |y - x| ≤ |x| / 2 ^ p + 2 ^ m / 2 := by
  have hm := two_zpow_pos m
  by_cases hx : x = 0
  · subst hx
    rw [h.self ⟨0, m, by positivity, le_rfl, by simp⟩]
    simp only [sub_self, abs_zero, zero_div, zero_add]; positivity
  refine ((h.2 _ (toGrid_fmt p m x)).trans (toGrid_err p m x)).trans ?_
  unfold lastBit
  have hl := Int.zpow_log_le_self (R := ℝ) (b := 2) (r := |x|) (by norm_num) (abs_pos.mpr hx)
  rcases max_cases (Int.log 2 |x| - p + 1) m with ⟨h1, -⟩ | ⟨h1, -⟩
  · rw [h1, zpow_add₀ (by norm_num), zpow_sub₀ (by norm_num), zpow_one, zpow_natCast]
    push_cast at hl
    have := div_le_div_of_nonneg_right hl (by positivity : (0 : ℝ) ≤ 2 ^ p)
    linarith
  · rw [h1]
    have : 0 ≤ |x| / 2 ^ p := by positivity
    linarith

/-- relative error of one operation: binary32 after a wide format -/
noncomputable def w : ℝ := 1 / 2 ^ 24 + 1 / 2 ^ 52
/-- absolute error of one operation, from underflow -/
noncomputable def tiny : ℝ := 1 / 2 ^ 149

theorem w_pos : 0 < w := by norm_num [w]
theorem tiny_pos : 0 < tiny := by norm_num [tiny]

theorem Kept.err {x z : ℝ} (h : Kept x z) : |z - x| ≤ w * |x| + tiny := by
  obtain ⟨y, hy, hz⟩ := h
  have h1 : |y - x| ≤ |x| / 2 ^ 53 + 1 / 2 ^ 151 := by
    rcases hy with rfl | ⟨p, m, hp, hm, h⟩
    · rw [sub_self, abs_zero]; positivity
    · refine h.err.trans (add_le_add ?_ ?_)
      · exact div_le_div_of_nonneg_left (abs_nonneg _) (by norm_num) (pow_le_pow_right₀ (by norm_num) hp)
      · have : (2 : ℝ) ^ m ≤ 2 ^ (-150 : ℤ) := zpow_le_zpow_right₀ (by norm_num) hm
        norm_num at this ⊢
        linarith
  have h2 : |z - y| ≤ |y| / 2 ^ 24 + 1 / 2 ^ 150 := by
    rcases hz with rfl | h
    · rw [sub_self, abs_zero]; positivity
    · refine h.err.trans (add_le_add le_rfl ?_)
      norm_num
  have h3 := abs_sub_le z y x
  have h4 : |y| ≤ |y - x| + |x| := by have := abs_add_le (y - x) x; rwa [sub_add_cancel] at this
  have h5 := abs_nonneg x
  unfold w tiny
  norm_num at h1 h2 ⊢
  linarith

/-! ### error of runs -/

/-- error of a number during a run -/
def NearW (v : Wide E) (x M : ℝ) (k : ℕ) (e : ℝ) : Prop := |v.val - x| ≤ ((1 + w) ^ k - 1) * M + e ∧ |x| ≤ M ∧ 0 ≤ e

theorem one_le_pow_w (k : ℕ) : 1 ≤ (1 + w) ^ k := one_le_pow₀ (by linarith [w_pos])

theorem NearW.le {v : Wide E} {x M M' : ℝ} {k k' : ℕ} {e e' : ℝ} (h : NearW v x M k e) (hM : M ≤ M') (hk : k ≤ k')
    (he : e ≤ e') : NearW v x M' k' e' := by
  obtain ⟨h1, h2, h3⟩ := h
  refine ⟨h1.trans ?_, h2.trans hM, h3.trans he⟩
  have hp : (1 + w) ^ k ≤ (1 + w) ^ k' := pow_le_pow_right₀ (by linarith [w_pos]) hk
  have h0 := one_le_pow_w k
  have hM0 : 0 ≤ M := (abs_nonneg x).trans h2
  have : ((1 + w) ^ k - 1) * M ≤ ((1 + w) ^ k' - 1) * M' := mul_le_mul (by linarith) hM hM0 (by linarith)
  linarith

theorem NearW.var (a : Named) : NearW (a.wide E) a.real a.mag 0 0 := by
  refine ⟨?_, le_rfl, le_rfl⟩
  show |a.val.toReal - a.val.toReal| ≤ _
  simp

theorem NearW.neg {v : Wide E} {x M : ℝ} {k : ℕ} {e : ℝ} (h : NearW v x M k e) : NearW (-v) (-x) M k e := by
  refine ⟨?_, by rw [abs_neg]; exact h.2.1, h.2.2⟩
  show |-v.val - -x| ≤ _
  rw [← neg_sub', abs_neg]; exact h.1

/-- one operation on numbers whose exact result `y` is near `x` -/
theorem near_op (t : Tree) {y x M : ℝ} {k : ℕ} {e : ℝ} (h : |y - x| ≤ ((1 + w) ^ k - 1) * M + e) (hx : |x| ≤ M) (he : 0 ≤ e) :
    NearW (Wide.op t y : Wide E) x M (k + 1) ((1 + w) * e + tiny) := by
  have hw := w_pos
  have ht := tiny_pos
  refine ⟨?_, hx, by positivity⟩
  have k1 := (E.ok t y).err
  show |E.keep t y - x| ≤ _
  have t1 := abs_sub_le (E.keep t y) y x
  have t2 : |y| ≤ |y - x| + |x| := by have := abs_add_le (y - x) x; rwa [sub_add_cancel] at this
  rw [pow_succ]
  generalize (1 + w) ^ k = r at *
  have := mul_le_mul_of_nonneg_left (t2.trans (add_le_add h hx)) hw.le
  nlinarith

theorem NearW.add {v u : Wide E} {x y M N : ℝ} {k l : ℕ} {e e' : ℝ} (hv : NearW v x M k e) (hu : NearW u y N l e') :
    NearW (v + u) (x + y) (M + N) (max k l + 1) ((1 + w) * (e + e') + tiny) := by
  obtain ⟨a1, a2, a3⟩ := hv.le le_rfl (le_max_left k l) le_rfl
  obtain ⟨b1, b2, b3⟩ := hu.le le_rfl (le_max_right k l) le_rfl
  refine near_op _ ?_ ((abs_add_le x y).trans (add_le_add a2 b2)) (by positivity)
  have := abs_add_le (v.val - x) (u.val - y)
  rw [show v.val + u.val - (x + y) = v.val - x + (u.val - y) by ring]
  linarith

theorem NearW.sub {v u : Wide E} {x y M N : ℝ} {k l : ℕ} {e e' : ℝ} (hv : NearW v x M k e) (hu : NearW u y N l e') :
    NearW (v - u) (x - y) (M + N) (max k l + 1) ((1 + w) * (e + e') + tiny) := by
  obtain ⟨a1, a2, a3⟩ := hv.le le_rfl (le_max_left k l) le_rfl
  obtain ⟨b1, b2, b3⟩ := hu.le le_rfl (le_max_right k l) le_rfl
  refine near_op _ ?_ ((abs_sub x y).trans (add_le_add a2 b2)) (by positivity)
  have := abs_sub (v.val - x) (u.val - y)
  rw [show v.val - u.val - (x - y) = v.val - x - (u.val - y) by ring]
  linarith

theorem NearW.mul {v u : Wide E} {x y M N : ℝ} {k l : ℕ} {e e' : ℝ} (hv : NearW v x M k e) (hu : NearW u y N l e') :
    NearW (v * u) (x * y) (M * N) (k + l + 1)
      ((1 + w) * ((1 + w) ^ k * M * e' + (1 + w) ^ l * N * e + e * e') + tiny) := by
  obtain ⟨h1, h2, h3⟩ := hv
  obtain ⟨g1, g2, g3⟩ := hu
  have hM : 0 ≤ M := (abs_nonneg x).trans h2
  have hN : 0 ≤ N := (abs_nonneg y).trans g2
  have hp := one_le_pow_w k
  have hq := one_le_pow_w l
  refine near_op _ ?_ (by rw [abs_mul]; exact mul_le_mul h2 g2 (abs_nonneg _) hM) (by positivity)
  rw [pow_add]
  generalize (1 + w) ^ k = p at *
  generalize (1 + w) ^ l = q at *
  have bf : |v.val| ≤ p * M + e := by
    have t := abs_add_le (v.val - x) x
    rw [sub_add_cancel] at t; linarith
  have t := abs_add_le (v.val * (u.val - y)) ((v.val - x) * y)
  rw [show v.val * (u.val - y) + (v.val - x) * y = v.val * u.val - x * y by ring, abs_mul, abs_mul] at t
  have t1 : |v.val| * |u.val - y| ≤ (p * M + e) * ((q - 1) * N + e') :=
    mul_le_mul bf g1 (abs_nonneg _) (by positivity)
  have t2 : |v.val - x| * |y| ≤ ((p - 1) * M + e) * N :=
    mul_le_mul h1 g2 (abs_nonneg _) (by have := mul_nonneg (sub_nonneg.mpr hp) hM; linarith)
  nlinarith

theorem NearW.lit (q : ℚ) : NearW (CFloat.lit q : Wide E) (q : ℝ) |(q : ℝ)| 1 ((1 + w) * 0 + tiny) :=
  near_op (k := 0) _ (by simp) le_rfl le_rfl

/-- the bound of `k` roundings -/
noncomputable def unit (k : ℕ) : ℝ := k * (1 / 2 ^ 24 + 1 / 2 ^ 43)

theorem pow_le_unit {k : ℕ} (h : k ≤ 8) : (1 + w) ^ k - 1 ≤ unit k := by
  unfold w unit
  interval_cases k <;> norm_num

/-- within `c·B + e` of `x` -/
def Within (f x c B e : ℝ) : Prop := |f - x| ≤ c * B + e

theorem NearW.within {f : Wide E} {x M : ℝ} {k : ℕ} {e : ℝ} (h : NearW f x M k e) (n : ℕ) (hk : k ≤ n) (hn : n ≤ 8)
    {X B D : ℝ} (hx : x = X) (hM : M ≤ B) (he : e ≤ D) : Within f.val X (unit n) B D := by
  obtain ⟨h1, h2, -⟩ := h.le hM hk he
  subst hx
  have := mul_le_mul_of_nonneg_right (pow_le_unit hn) ((abs_nonneg _).trans h2)
  unfold Within; linarith

/-! ### exact results -/

/-- an exact number during a run -/
def ExactW (v : Wide E) (x : ℝ) (e : ℤ) (K : ℕ) : Prop := v.val = x ∧ ∃ n : ℤ, |n| ≤ K ∧ x = n * 2 ^ e

theorem ExactW.to {v : Wide E} {x y : ℝ} {e : ℤ} {K : ℕ} (h : ExactW v x e K) (hx : x = y) : v.val = y := h.1.trans hx

theorem ExactW.var {a : Named} {e : ℤ} {K : ℕ} (h : a.val.On e K) : ExactW (a.wide E) a.real e K := by
  obtain ⟨-, n, hn, hv⟩ := h
  refine ⟨rfl, n, hn, ?_⟩
  show ((a.val.val : ℚ) : ℝ) = _
  rw [hv]; push_cast; rfl

theorem exact_op (t : Tree) {x : ℝ} {e : ℤ} {K : ℕ} (h : ∃ n : ℤ, |n| ≤ K ∧ x = n * 2 ^ e) (hK : K ≤ 2 ^ 24) (he : -149 ≤ e) :
    ExactW (Wide.op t x : Wide E) x e K := by
  refine ⟨?_, h⟩
  obtain ⟨n, hn, rfl⟩ := h
  exact (E.ok t _).self ⟨n, e, hn.trans (by exact_mod_cast hK), he, rfl⟩

theorem ExactW.neg {v : Wide E} {x : ℝ} {e : ℤ} {K : ℕ} (h : ExactW v x e K) : ExactW (-v) (-x) e K := by
  obtain ⟨rfl, n, hn, hx⟩ := h
  exact ⟨rfl, -n, by rwa [abs_neg], by rw [hx]; push_cast; ring⟩

theorem ExactW.add {v u : Wide E} {x y : ℝ} {e e' : ℤ} {K L : ℕ} (hv : ExactW v x e K) (hu : ExactW u y e' L)
    (he : e' = e) (h1 : -149 ≤ e) (h : K + L ≤ 2 ^ 24) : ExactW (v + u) (x + y) e (K + L) := by
  subst he
  obtain ⟨rfl, n, hn, hx⟩ := hv
  obtain ⟨rfl, m, hm, hy⟩ := hu
  exact exact_op _ ⟨n + m, (abs_add_le n m).trans (by push_cast; exact add_le_add hn hm), by rw [hx, hy]; push_cast; ring⟩ h h1

theorem ExactW.sub {v u : Wide E} {x y : ℝ} {e e' : ℤ} {K L : ℕ} (hv : ExactW v x e K) (hu : ExactW u y e' L)
    (he : e' = e) (h1 : -149 ≤ e) (h : K + L ≤ 2 ^ 24) : ExactW (v - u) (x - y) e (K + L) := by
  subst he
  obtain ⟨rfl, n, hn, hx⟩ := hv
  obtain ⟨rfl, m, hm, hy⟩ := hu
  exact exact_op _ ⟨n - m, (abs_sub n m).trans (by push_cast; exact add_le_add hn hm), by rw [hx, hy]; push_cast; ring⟩ h h1

theorem ExactW.mul {v u : Wide E} {x y : ℝ} {e e' : ℤ} {K L : ℕ} (hv : ExactW v x e K) (hu : ExactW u y e' L)
    (h1 : -149 ≤ e + e') (h : K * L ≤ 2 ^ 24) : ExactW (v * u) (x * y) (e + e') (K * L) := by
  obtain ⟨rfl, n, hn, hx⟩ := hv
  obtain ⟨rfl, m, hm, hy⟩ := hu
  refine exact_op _ ⟨n * m, ?_, ?_⟩ h h1
  · rw [abs_mul]; push_cast; exact mul_le_mul hn hm (abs_nonneg _) (by positivity)
  · rw [hx, hy, zpow_add₀ (by norm_num)]; push_cast; ring

theorem ExactW.lit (q : ℚ) {x : ℝ} (n e : ℤ) {K : ℕ} (hq : (q : ℝ) = x) (hx : x = n * 2 ^ e) (hn : |n| ≤ K) (hK : K ≤ 2 ^ 24)
    (he : -149 ≤ e) : ExactW (CFloat.lit q : Wide E) x e K := by
  subst hq
  exact exact_op (.const q) ⟨n, hn, hx⟩ hK he
theorem ExactW.zero (e : ℤ) : ExactW (CFloat.lit 0 : Wide E) 0 e 0 := by
  obtain ⟨h, -⟩ := ExactW.lit (E := E) 0 (x := 0) 0 0 (K := 0) (by norm_num) (by norm_num) (by norm_num) (by norm_num) (by norm_num)
  exact ⟨h, 0, by simp, by simp⟩
theorem ExactW.one : ExactW (CFloat.lit 1 : Wide E) 1 0 1 :=
  .lit 1 1 0 (by norm_num) (by norm_num) (by norm_num) (by norm_num) (by norm_num)
theorem ExactW.two : ExactW (CFloat.lit 2 : Wide E) 2 0 2 :=
  .lit 2 2 0 (by norm_num) (by norm_num) (by norm_num) (by norm_num) (by norm_num)
theorem ExactW.half : ExactW (CFloat.lit 0.5 : Wide E) (1 / 2) (-1) 1 :=
  .lit 0.5 1 (-1) (by norm_num) (by norm_num) (by norm_num) (by norm_num) (by norm_num)

end Wide

/-- every component within `c·B + e` of `x` -/
def V2.WithinW (f x : V2 ℝ) (c : ℝ) (B : V2 ℝ) (e : ℝ) : Prop :=
  Wide.Within f.x x.x c B.x e ∧ Wide.Within f.y x.y c B.y e
@[inherit_doc V2.WithinW] def V3.WithinW (f x : V3 ℝ) (c : ℝ) (B : V3 ℝ) (e : ℝ) : Prop :=
  Wide.Within f.x x.x c B.x e ∧ Wide.Within f.y x.y c B.y e ∧ Wide.Within f.z x.z c B.z e
@[inherit_doc V2.WithinW] def V4.WithinW (f x : V4 ℝ) (c : ℝ) (B : V4 ℝ) (e : ℝ) : Prop :=
  Wide.Within f.x x.x c B.x e ∧ Wide.Within f.y x.y c B.y e ∧ Wide.Within f.z x.z c B.z e ∧ Wide.Within f.w x.w c B.w e
@[inherit_doc V2.WithinW] def M2.WithinW (f x : M2 ℝ) (c : ℝ) (B : M2 ℝ) (e : ℝ) : Prop :=
  f.c0.WithinW x.c0 c B.c0 e ∧ f.c1.WithinW x.c1 c B.c1 e
@[inherit_doc V2.WithinW] def M3.WithinW (f x : M3 ℝ) (c : ℝ) (B : M3 ℝ) (e : ℝ) : Prop :=
  f.c0.WithinW x.c0 c B.c0 e ∧ f.c1.WithinW x.c1 c B.c1 e ∧ f.c2.WithinW x.c2 c B.c2 e
@[inherit_doc V2.WithinW] def M4.WithinW (f x : M4 ℝ) (c : ℝ) (B : M4 ℝ) (e : ℝ) : Prop :=
  f.c0.WithinW x.c0 c B.c0 e ∧ f.c1.WithinW x.c1 c B.c1 e ∧ f.c2.WithinW x.c2 c B.c2 e ∧ f.c3.WithinW x.c3 c B.c3 e

/-- derive an error bound for an expression in sums, differences and products -/
macro "nearw" : tactic => `(tactic| repeat' first
  | with_reducible apply NearW.add
  | with_reducible apply NearW.sub
  | with_reducible apply NearW.mul
  | with_reducible apply NearW.neg
  | with_reducible exact NearW.lit _
  | with_reducible exact NearW.var _)

/-- error bound of a scalar expression with `n` roundings -/
macro "errw" n:num : tactic => `(tactic|
  (refine NearW.within (by nearw) $n ?_ ?_ ?_ ?_ ?_
   · norm_num
   · norm_num
   · first | (simp only [Named.real]; done) | rfl | (push_cast; ring)
   · apply le_of_eq; push_cast; ring
   · norm_num [w, tiny]))

/-- derive exactness of an expression in sums, differences and products of numbers on grids -/
macro "gridw_tree" : tactic => `(tactic| repeat' first
  | with_reducible apply ExactW.add
  | with_reducible apply ExactW.sub
  | with_reducible apply ExactW.mul
  | with_reducible apply ExactW.neg
  | with_reducible apply ExactW.zero
  | with_reducible exact ExactW.one
  | with_reducible exact ExactW.two
  | with_reducible exact ExactW.half
  | (with_reducible apply ExactW.var; assumption))

/-- exactness of a scalar expression -/
macro "gridw" : tactic => `(tactic|
  (refine ExactW.to (by gridw_tree <;> first | with_reducible rfl | omega) ?_ <;>
    first | rfl | (push_cast; ring) | fail "gridw"))

end Cglm
