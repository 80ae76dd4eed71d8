import Verif.Simd
import Verif.SimdAttr
import Verif.Real
import Verif.MatTac

/-!
# SIMD operations over the reals, and scalar types with commutative arithmetic

`CommArith` is what a theorem needs to call a SIMD function bit-identical to the scalar one although the operands of
some product or sum are exchanged: addition and multiplication are commutative.  It says nothing about
associativity or distributivity, so it holds for IEEE-754 numbers (up to the payload of a NaN) as well as for `ℝ`.
-/

namespace Cglm

/-- Addition and multiplication are commutative. -/
class CommArith (α : Type) [Add α] [Mul α] : Prop where
  add_comm : ∀ a b : α, a + b = b + a
  mul_comm : ∀ a b : α, a * b = b * a

instance : CommArith ℝ := ⟨_root_.add_comm, _root_.mul_comm⟩

/-- Over the reals the fused operation is exact, and NEON's minimum and maximum are the mathematical ones. -/
noncomputable instance : CSimd ℝ where
  fma a b c := a * b + c
  vmin := min
  vmax := max

@[cglm] theorem fma_real (a b c : ℝ) : fma a b c = a * b + c := rfl
@[cglm] theorem vmin_real (a b : ℝ) : vmin a b = min a b := rfl
@[cglm] theorem vmax_real (a b : ℝ) : vmax a b = max a b := rfl

end Cglm
