/- Generated from include/cglm/clipspace/persp.h by tools/gen.py (value semantics); do not edit by hand. -/
import Verif.Base
import Verif.Attr

set_option linter.unusedVariables false
set_option linter.unusedSectionVars false

namespace Cglm

variable {α : Type} [Add α] [Sub α] [Mul α] [Div α] [Neg α] [CFloat α]

/-- `glm_persp_fovy`: include/cglm/clipspace/persp.h:31-35. -/
@[cglm]
def glm_persp_fovy (proj : M4 α) : α :=
  (lit 2) * atanf ((lit 1) / proj.c1.y)

/-- `glm_persp_aspect`: include/cglm/clipspace/persp.h:42-46. -/
@[cglm]
def glm_persp_aspect (proj : M4 α) : α :=
  proj.c1.y / proj.c0.x

end Cglm
