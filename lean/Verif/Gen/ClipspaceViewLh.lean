/- Generated from include/cglm/clipspace/view_lh.h by tools/gen.py (value semantics); do not edit by hand. -/
import Verif.Base
import Verif.Attr
import Verif.Gen.Vec3

set_option linter.unusedVariables false
set_option linter.unusedSectionVars false

namespace Cglm

variable {α : Type} [Add α] [Sub α] [Mul α] [Div α] [Neg α] [CFloat α]

/-- `glm_lookat_lh`: include/cglm/clipspace/view_lh.h:32-57. -/
@[cglm]
def glm_lookat_lh (eye : V3 α) (center : V3 α) (up : V3 α) : M4 α :=
  let f := glm_vec3_sub center eye
  let f_1 := glm_vec3_normalize f
  let s := glm_vec3_crossn up f_1
  let u := glm_vec3_cross f_1 s
  ⟨⟨s.x, u.x, f_1.x, lit 0⟩, ⟨s.y, u.y, f_1.y, lit 0⟩, ⟨s.z, u.z, f_1.z, lit 0⟩, ⟨-glm_vec3_dot s eye, -glm_vec3_dot u eye, -glm_vec3_dot f_1 eye, lit 1⟩⟩

/-- `glm_look_lh`: include/cglm/clipspace/view_lh.h:73-79. -/
@[cglm]
def glm_look_lh (eye : V3 α) (dir : V3 α) (up : V3 α) : M4 α :=
  let target := glm_vec3_add eye dir
  glm_lookat_lh eye target up

/-- `glm_look_anyup_lh`: include/cglm/clipspace/view_lh.h:91-97. -/
@[cglm]
def glm_look_anyup_lh (eye : V3 α) (dir : V3 α) : M4 α :=
  let up := glm_vec3_ortho dir
  glm_look_lh eye dir up

end Cglm
