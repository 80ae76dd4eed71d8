/- Generated from include/cglm/plane.h by tools/gen.py (value semantics); do not edit by hand. -/
import Verif.Base
import Verif.Attr
import Verif.Gen.Vec3
import Verif.Gen.Vec4

set_option linter.unusedVariables false
set_option linter.unusedSectionVars false

namespace Cglm

variable {α : Type} [Add α] [Sub α] [Mul α] [Div α] [Neg α] [CFloat α]

/-- `glm_plane_normalize`: include/cglm/plane.h:31-42. -/
@[cglm]
def glm_plane_normalize (plane : V4 α) : V4 α :=
  let norm := glm_vec3_norm ⟨plane.x, plane.y, plane.z⟩
  if flt norm (lit 0.00000011920928955078125) then
    glm_vec4_zero
  else
    glm_vec4_scale plane ((lit 1) / norm)

end Cglm
