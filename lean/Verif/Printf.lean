import Verif.F32
import Mathlib.Data.Nat.Digits.Lemmas

/-!
# The conversions of `printf` used by `io.h`

C11 7.21.6.1.  A text is a list of characters.  Conversions are correctly rounded, ties to even, as recommended there and as done in the
default rounding mode.  The conversion of the argument to `double` is exact.

Simplifications: a NaN is printed without a sign and without a payload; locale "C".
-/

namespace Cglm

abbrev Text := List Char

namespace Printf

def digit (n : ℕ) : Char := Char.ofNat (48 + n)

/-- decimal numeral without leading zeros -/
def natText (n : ℕ) : Text := if n = 0 then ['0'] else (Nat.digits 10 n).reverse.map digit

/-- the last `p` decimal digits of `n` -/
def padText : ℕ → ℕ → Text
  | 0, _ => []
  | p + 1, n => padText p (n / 10) ++ [digit (n % 10)]

/-- integer part and fractional part with the point between, and no point if there is no fractional part -/
def decText (ip fp : Text) : Text := ip ++ if fp = [] then [] else '.' :: fp

/-- the number `n / 10^p` with `p` decimals -/
def fixedText (p n : ℕ) : Text := decText (natText (n / 10 ^ p)) (padText p n)

/-- remove trailing zeros -/
def strip (t : Text) : Text := (t.reverse.dropWhile (· == '0')).reverse

/-- sign and at least two digits -/
def expText (x : ℤ) : Text := 'e' :: (if x < 0 then '-' else '+') :: (if x.natAbs < 10 then padText 2 x.natAbs else natText x.natAbs)

/-- the significand with `p` decimals and the decimal exponent of a positive number, rounded to nearest -/
def sci (p : ℕ) (q : ℚ) : ℕ × ℤ :=
  let n := (F32.rne (q / 10 ^ (Int.log 10 q - p))).toNat
  if n < 10 ^ (p + 1) then (n, Int.log 10 q) else (10 ^ p, Int.log 10 q + 1)

/-- `%.pf` of a number that is not negative -/
def fAbs (p : ℕ) (q : ℚ) : Text := fixedText p (F32.rne (q * 10 ^ p)).toNat

/-- `%g` of a positive number: six significant digits, trailing zeros removed -/
def gAbs (q : ℚ) : Text :=
  let n := (sci 5 q).1
  let x := (sci 5 q).2
  if -4 ≤ x ∧ x < 6 then
    decText (natText (n / 10 ^ (5 - x).toNat)) (strip (padText (5 - x).toNat n))
  else decText (natText (n / 10 ^ 5)) (strip (padText 5 n)) ++ expText x

/-- the space flag: a minus sign or a space -/
def sign (neg : Bool) : Char := if neg then '-' else ' '

/-- `"% d"` -/
def d (z : ℤ) : Text := sign (decide (z < 0)) :: natText z.natAbs

/-- `"% .*f"` -/
def f (p : ℕ) : F32 → Text
  | .nan => sign false :: ['n', 'a', 'n']
  | .inf s => sign s :: ['i', 'n', 'f']
  | .zero s => sign s :: fAbs p 0
  | .fin q _ => sign (decide (q < 0)) :: fAbs p |q|

/-- `"% g"` -/
def g : F32 → Text
  | .nan => sign false :: ['n', 'a', 'n']
  | .inf s => sign s :: ['i', 'n', 'f']
  | .zero s => sign s :: ['0']
  | .fin q _ => sign (decide (q < 0)) :: gAbs |q|

/-- a field width: blanks on the left -/
def width (w : ℕ) (t : Text) : Text := List.replicate (w - t.length) ' ' ++ t

/-- `snprintf`: what is stored in the buffer (with the final null character), and the result, which is the length of the whole text -/
def snprintf (size : ℕ) (t : Text) : Text × ℕ := (if size = 0 then [] else t.take (size - 1) ++ ['\x00'], t.length)

end Printf

end Cglm
