/- Generated by tools/gen.py, joined by tools/merge.py; do not edit by hand. -/
import Verif.Base
import Verif.Attr
import Verif.Gen.Noise

section StructNoise

/- Generated from include/cglm/struct/noise.h by tools/gen.py (value semantics); do not edit by hand. -/

set_option linter.unusedVariables false
set_option linter.unusedSectionVars false

namespace Cglm

variable {α : Type} [Add α] [Sub α] [Mul α] [Div α] [Neg α] [CFloat α]

/-- `glms_perlin_vec4`: include/cglm/struct/noise.h:27-31. -/
@[cglm]
def glms_perlin_vec4 (point : V4 α) : α :=
  glm_perlin_vec4 point

/-- `glms_perlin_vec3`: include/cglm/struct/noise.h:39-43. -/
@[cglm]
def glms_perlin_vec3 (point : V3 α) : α :=
  glm_perlin_vec3 point

/-- `glms_perlin_vec2`: include/cglm/struct/noise.h:51-55. -/
@[cglm]
def glms_perlin_vec2 (point : V2 α) : α :=
  glm_perlin_vec2 point

end Cglm

end StructNoise
