/- Generated by tools/gen.py, joined by tools/merge.py; do not edit by hand. -/
import Verif.Base
import Verif.Attr
import Verif.Gen.Noise

section SrcNoise

/- Generated from src/noise.c by tools/gen.py (value semantics); do not edit by hand. -/

set_option linter.unusedVariables false
set_option linter.unusedSectionVars false

namespace Cglm

variable {α : Type} [Add α] [Sub α] [Mul α] [Div α] [Neg α] [CFloat α]

/-- `glmc_perlin_vec4`: src/noise.c:11-15. -/
@[cglm]
def glmc_perlin_vec4 (p : V4 α) : α :=
  glm_perlin_vec4 p

/-- `glmc_perlin_vec3`: src/noise.c:17-21. -/
@[cglm]
def glmc_perlin_vec3 (p : V3 α) : α :=
  glm_perlin_vec3 p

/-- `glmc_perlin_vec2`: src/noise.c:23-27. -/
@[cglm]
def glmc_perlin_vec2 (p : V2 α) : α :=
  glm_perlin_vec2 p

end Cglm

end SrcNoise
