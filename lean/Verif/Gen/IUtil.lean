/- Generated from include/cglm/util.h by tools/gen.py (value semantics); do not edit by hand. -/
import Verif.I32
import Verif.Attr

set_option linter.unusedVariables false
set_option linter.unusedSectionVars false

namespace Cglm.I

variable {α : Type} [Add α] [Sub α] [Mul α] [Div α] [Neg α] [CFloat α] [CIntConv α]

/-- `glm_sign`: include/cglm/util.h:48-52. -/
@[cglmi]
def glm_sign (val : Int32) : Option (Int32) := do
  let t ← I32.neg val
  let t_1 ← I32.sub (I32.sar val 31) (I32.sar t 31)
  pure t_1

/-- `glm_imin`: include/cglm/util.h:158-164. -/
@[cglmi]
def glm_imin (a : Int32) (b : Int32) : Option (Int32) := do
  if I32.lt a b then
    pure a
  else
    pure b

/-- `glm_imax`: include/cglm/util.h:174-180. -/
@[cglmi]
def glm_imax (a : Int32) (b : Int32) : Option (Int32) := do
  if I32.gt a b then
    pure a
  else
    pure b

end Cglm.I
