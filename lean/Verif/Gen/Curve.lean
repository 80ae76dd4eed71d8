/- Generated from include/cglm/curve.h by tools/gen.py (value semantics); do not edit by hand. -/
import Verif.Base
import Verif.Attr
import Verif.Gen.Mat4
import Verif.Gen.Vec4

set_option linter.unusedVariables false
set_option linter.unusedSectionVars false

namespace Cglm

variable {α : Type} [Add α] [Sub α] [Mul α] [Div α] [Neg α] [CFloat α]

/-- `glm_smc`: include/cglm/curve.h:32-38. -/
@[cglm]
def glm_smc (s : α) (m : M4 α) (c : V4 α) : α :=
  glm_mat4_rmc (glm_vec4_cubic s) m c

end Cglm
