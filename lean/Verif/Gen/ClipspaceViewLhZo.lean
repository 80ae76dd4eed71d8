/- Generated from include/cglm/clipspace/view_lh_zo.h by tools/gen.py (value semantics); do not edit by hand. -/
import Verif.Base
import Verif.Attr
import Verif.Gen.ClipspaceViewLh

set_option linter.unusedVariables false
set_option linter.unusedSectionVars false

namespace Cglm

variable {α : Type} [Add α] [Sub α] [Mul α] [Div α] [Neg α] [CFloat α]

/-- `glm_lookat_lh_zo`: include/cglm/clipspace/view_lh_zo.h:32-36. -/
@[cglm]
def glm_lookat_lh_zo (eye : V3 α) (center : V3 α) (up : V3 α) : M4 α :=
  glm_lookat_lh eye center up

/-- `glm_look_lh_zo`: include/cglm/clipspace/view_lh_zo.h:52-56. -/
@[cglm]
def glm_look_lh_zo (eye : V3 α) (dir : V3 α) (up : V3 α) : M4 α :=
  glm_look_lh eye dir up

/-- `glm_look_anyup_lh_zo`: include/cglm/clipspace/view_lh_zo.h:68-72. -/
@[cglm]
def glm_look_anyup_lh_zo (eye : V3 α) (dir : V3 α) : M4 α :=
  glm_look_anyup_lh eye dir

end Cglm
