/- Generated from include/cglm/color.h by tools/gen.py (value semantics); do not edit by hand. -/
import Verif.Base
import Verif.Attr
import Verif.Gen.Vec3

set_option linter.unusedVariables false
set_option linter.unusedSectionVars false

namespace Cglm

variable {α : Type} [Add α] [Sub α] [Mul α] [Div α] [Neg α] [CFloat α]

/-- `glm_luminance`: include/cglm/color.h:19-24. -/
@[cglm]
def glm_luminance (rgb : V3 α) : α :=
  glm_dot rgb ⟨lit 0.212671, lit 0.71516, lit 0.072169⟩

end Cglm
