import Verif.CMemEntry
import Verif.CMemISafe

/-!
# Integer-vector functions with the sizes of their arguments
-/

namespace Cglm.CMem

/-- a function with its arguments and its result -/
structure IEntry where
  fn : IFn
  args : List Shape
  ret : Ret

/-- the analysis of `CMemISafe` accepts the function -/
def IEntry.ok (e : IEntry) : Bool := e.fn.safe (Shape.arrays e.args) (Shape.avs 0 e.args) == some (e.ret.av, Shape.done e.args)

variable {α : Type}

theorem IEntry.safe {e : IEntry} (he : e.ok = true) (l : List (Arg α)) (hl : l.map Arg.shape = e.args) :
    e.fn.safe (Arg.arrays l) (Arg.avs 0 l) = some (e.ret.av, Arg.done l) := by
  rw [Arg.arrays_shape, Arg.avs_shape, Arg.done_shape, hl]
  simpa [IEntry.ok] using he

variable [Add α] [Sub α] [Mul α] [Div α] [Neg α] [CFloat α] [CIntConv α]

/-- Calls of a function the analysis accepts make safe memory accesses, however the arguments overlap. -/
theorem isafe_entry {e : IEntry} (he : e.ok = true) (l : List (Arg α)) {m : Mem α} (hl : Arg.AllOk IsI m l) (hs : l.map Arg.shape = e.args) :
    SafeMem m (Arg.outs l) e.ret e.fn (l.map Arg.val) := isafe_run l hl _ (e.safe he l hs)

end Cglm.CMem
