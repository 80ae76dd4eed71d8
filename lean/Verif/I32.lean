import Verif.Base

/-!
# Checked 32-bit integer arithmetic

C `int` is taken to be 32 bits (as on every platform cglm supports).  Signed overflow, division by zero and
`INT_MIN / -1` are undefined behaviour in C (C99 6.5p5, 6.5.5p5-6), represented by `none`.  Right shift of a negative
value is implementation-defined (C99 6.5.7p5); it is modelled as the arithmetic shift all supported compilers use.
-/

namespace Cglm

/-- The `int` with value `z` when `z` is representable; otherwise overflow, `none`. -/
def chk (z : Int) : Option Int32 :=
  if -2147483648 ≤ z ∧ z ≤ 2147483647 then some (Int32.ofInt z) else none

namespace I32

def add (a b : Int32) : Option Int32 := chk (a.toInt + b.toInt)
def sub (a b : Int32) : Option Int32 := chk (a.toInt - b.toInt)
def mul (a b : Int32) : Option Int32 := chk (a.toInt * b.toInt)
def neg (a : Int32) : Option Int32 := chk (-a.toInt)
/-- C division truncates toward zero. -/
def div (a b : Int32) : Option Int32 := if b.toInt = 0 then none else chk (a.toInt.tdiv b.toInt)
/-- `a % b` is undefined whenever `a / b` is (C99 6.5.5p6, C11 6.5.5p6). -/
def mod (a b : Int32) : Option Int32 :=
  if b.toInt = 0 then none
  else if a.toInt = -2147483648 ∧ b.toInt = -1 then none
  else chk (a.toInt.tmod b.toInt)
/-- libc `abs`; undefined when the result cannot be represented (C99 7.20.6.1). -/
def abs (a : Int32) : Option Int32 := chk a.toInt.natAbs
/-- `a >> k` for `0 ≤ k < 32`, arithmetic. -/
def sar (a : Int32) (k : Nat) : Int32 := Int32.ofInt (a.toInt >>> k)

def lt (a b : Int32) : Bool := decide (a.toInt < b.toInt)
def le (a b : Int32) : Bool := decide (a.toInt ≤ b.toInt)
def gt (a b : Int32) : Bool := decide (b.toInt < a.toInt)
def ge (a b : Int32) : Bool := decide (b.toInt ≤ a.toInt)
def eq (a b : Int32) : Bool := decide (a.toInt = b.toInt)
def ne (a b : Int32) : Bool := decide (a.toInt ≠ b.toInt)

end I32

/-- Conversions between `int` and `float`. -/
class CIntConv (α : Type) where
  /-- `(float)i` -/
  ofI32 : Int32 → α
  /-- `(int)x`: truncation; undefined (`none`) when the truncated value is not representable (C99 6.3.1.4). -/
  toI32 : α → Option Int32

export CIntConv (ofI32 toI32)

end Cglm
