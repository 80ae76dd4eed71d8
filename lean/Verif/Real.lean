import Verif.Base
import Verif.Attr
import Mathlib.Analysis.Real.Sqrt
import Mathlib.Analysis.SpecialFunctions.Complex.Arg
import Mathlib.Analysis.SpecialFunctions.Trigonometric.Inverse
import Mathlib.Analysis.SpecialFunctions.Trigonometric.Arctan
import Mathlib.Analysis.SpecialFunctions.Pow.Real
import Mathlib.Tactic.Ring
import Mathlib.Tactic.FieldSimp
import Mathlib.Tactic.Linarith
import Mathlib.Tactic.NormNum

/-!
# The exact-arithmetic reading: `float` as `ℝ`

The operations are the mathematical ones.  Outside their mathematical domain (division by zero, square root of a
negative number, `acos` outside `[-1,1]`, `tan` at a pole) Mathlib's total functions return conventional values; every
theorem about code that can leave the domain carries a hypothesis excluding it, see DESIGN.md.
-/

namespace Cglm

/-- truncation toward zero -/
noncomputable def rtrunc (x : ℝ) : ℝ := if 0 ≤ x then ⌊x⌋ else ⌈x⌉

noncomputable instance : CFloat ℝ where
  lit q := (q : ℝ)
  flt a b := decide (a < b)
  fle a b := decide (a ≤ b)
  feq a b := decide (a = b)
  sqrtf := Real.sqrt
  sinf := Real.sin
  cosf := Real.cos
  tanf := Real.tan
  asinf := Real.arcsin
  acosf := Real.arccos
  atanf := Real.arctan
  atan2f y x := Complex.arg ⟨x, y⟩
  floorf x := (⌊x⌋ : ℝ)
  fabsf x := |x|
  fmodf x y := x - y * rtrunc (x / y)
  powf x y := x ^ y
  fminf := min
  modfFrac x := x - rtrunc x
  isnanf _ := false
  isinff _ := false

theorem lit_real (q : ℚ) : (lit q : ℝ) = (q : ℝ) := rfl
@[cglm] theorem lit_zero : (lit 0 : ℝ) = 0 := by simp [lit_real]
@[cglm] theorem lit_one : (lit 1 : ℝ) = 1 := by simp [lit_real]
theorem lit_ofNat (n : ℕ) [n.AtLeastTwo] : (lit (OfNat.ofNat n) : ℝ) = OfNat.ofNat n := by simp [lit_real]
-- one lemma per integer literal of the code: simp does not match `lit_ofNat` on literals
@[cglm] theorem lit_2 : (lit 2 : ℝ) = 2 := lit_ofNat 2
@[cglm] theorem lit_3 : (lit 3 : ℝ) = 3 := lit_ofNat 3
@[cglm] theorem lit_4 : (lit 4 : ℝ) = 4 := lit_ofNat 4
@[cglm] theorem lit_5 : (lit 5 : ℝ) = 5 := lit_ofNat 5
@[cglm] theorem lit_6 : (lit 6 : ℝ) = 6 := lit_ofNat 6
@[cglm] theorem lit_7 : (lit 7 : ℝ) = 7 := lit_ofNat 7
@[cglm] theorem lit_8 : (lit 8 : ℝ) = 8 := lit_ofNat 8
@[cglm] theorem lit_9 : (lit 9 : ℝ) = 9 := lit_ofNat 9
@[cglm] theorem lit_10 : (lit 10 : ℝ) = 10 := lit_ofNat 10
@[cglm] theorem lit_11 : (lit 11 : ℝ) = 11 := lit_ofNat 11
@[cglm] theorem lit_13 : (lit 13 : ℝ) = 13 := lit_ofNat 13
@[cglm] theorem lit_15 : (lit 15 : ℝ) = 15 := lit_ofNat 15
@[cglm] theorem lit_16 : (lit 16 : ℝ) = 16 := lit_ofNat 16
@[cglm] theorem lit_17 : (lit 17 : ℝ) = 17 := lit_ofNat 17
@[cglm] theorem lit_20 : (lit 20 : ℝ) = 20 := lit_ofNat 20
@[cglm] theorem lit_25 : (lit 25 : ℝ) = 25 := lit_ofNat 25
@[cglm] theorem lit_34 : (lit 34 : ℝ) = 34 := lit_ofNat 34
@[cglm] theorem lit_35 : (lit 35 : ℝ) = 35 := lit_ofNat 35
@[cglm] theorem lit_40 : (lit 40 : ℝ) = 40 := lit_ofNat 40
@[cglm] theorem lit_41 : (lit 41 : ℝ) = 41 := lit_ofNat 41
@[cglm] theorem lit_54 : (lit 54 : ℝ) = 54 := lit_ofNat 54
@[cglm] theorem lit_99 : (lit 99 : ℝ) = 99 := lit_ofNat 99
@[cglm] theorem lit_100 : (lit 100 : ℝ) = 100 := lit_ofNat 100
@[cglm] theorem lit_121 : (lit 121 : ℝ) = 121 := lit_ofNat 121
@[cglm] theorem lit_180 : (lit 180 : ℝ) = 180 := lit_ofNat 180
@[cglm] theorem lit_268 : (lit 268 : ℝ) = 268 := lit_ofNat 268
@[cglm] theorem lit_289 : (lit 289 : ℝ) = 289 := lit_ofNat 289
@[cglm] theorem lit_361 : (lit 361 : ℝ) = 361 := lit_ofNat 361
@[cglm] theorem lit_363 : (lit 363 : ℝ) = 363 := lit_ofNat 363
@[cglm] theorem lit_513 : (lit 513 : ℝ) = 513 := lit_ofNat 513
@[cglm] theorem lit_1805 : (lit 1805 : ℝ) = 1805 := lit_ofNat 1805
@[cglm] theorem lit_4356 : (lit 4356 : ℝ) = 4356 := lit_ofNat 4356
@[cglm] theorem lit_16061 : (lit 16061 : ℝ) = 16061 := lit_ofNat 16061
@[cglm] theorem lit_35442 : (lit 35442 : ℝ) = 35442 := lit_ofNat 35442
@[cglm] theorem lit_FLT_MAX : (lit 340282346638528859811704183484516925440 : ℝ) = 340282346638528859811704183484516925440 := lit_ofNat 340282346638528859811704183484516925440
@[cglm] theorem lit_scientific (m : ℕ) (s : Bool) (e : ℕ) :
    (lit (OfScientific.ofScientific m s e) : ℝ) = OfScientific.ofScientific m s e := by
  rw [lit_real]; exact Rat.cast_ofScientific (K := ℝ) m s e
@[cglm] theorem lit_neg (q : ℚ) : (lit (-q) : ℝ) = -lit q := by simp [lit_real]
@[cglm] theorem lit_div (p q : ℚ) : (lit (p / q) : ℝ) = lit p / lit q := by simp [lit_real]
@[cglm] theorem lit_pow (p : ℚ) (n : ℕ) : (lit (p ^ n) : ℝ) = lit p ^ n := by simp [lit_real]
@[cglm] theorem ofInt_real (i : ℤ) : (ofInt i : ℝ) = (i : ℝ) := by simp [ofInt, lit_real]
@[cglm] theorem flt_real (a b : ℝ) : flt a b = decide (a < b) := rfl
@[cglm] theorem fle_real (a b : ℝ) : fle a b = decide (a ≤ b) := rfl
@[cglm] theorem feq_real (a b : ℝ) : feq a b = decide (a = b) := rfl
@[cglm] theorem sqrtf_real (a : ℝ) : sqrtf a = Real.sqrt a := rfl
@[cglm] theorem sinf_real (a : ℝ) : sinf a = Real.sin a := rfl
@[cglm] theorem cosf_real (a : ℝ) : cosf a = Real.cos a := rfl
@[cglm] theorem tanf_real (a : ℝ) : tanf a = Real.tan a := rfl
@[cglm] theorem asinf_real (a : ℝ) : asinf a = Real.arcsin a := rfl
@[cglm] theorem acosf_real (a : ℝ) : acosf a = Real.arccos a := rfl
@[cglm] theorem atanf_real (a : ℝ) : atanf a = Real.arctan a := rfl
@[cglm] theorem atan2f_real (y x : ℝ) : atan2f y x = Complex.arg ⟨x, y⟩ := rfl
@[cglm] theorem floorf_real (a : ℝ) : floorf a = (⌊a⌋ : ℝ) := rfl
@[cglm] theorem fabsf_real (a : ℝ) : fabsf a = |a| := rfl
@[cglm] theorem fmodf_real (a b : ℝ) : fmodf a b = a - b * rtrunc (a / b) := rfl
@[cglm] theorem powf_real (a b : ℝ) : powf a b = a ^ b := rfl
@[cglm] theorem fminf_real (a b : ℝ) : fminf a b = min a b := rfl
@[cglm] theorem modfFrac_real (a : ℝ) : modfFrac a = a - rtrunc a := rfl
@[cglm] theorem isnanf_real (a : ℝ) : isnanf a = false := rfl
@[cglm] theorem isinff_real (a : ℝ) : isinff a = false := rfl

attribute [cglm] decide_eq_true_eq Bool.and_eq_true Bool.or_eq_true Bool.not_eq_true' decide_eq_false_iff_not

end Cglm
