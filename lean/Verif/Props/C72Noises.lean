/- Generated by tools/defdthms.py, joined by tools/merge.py; do not edit by hand. -/
import Verif.DefdTac
import Verif.Gen.Noise
import Verif.Props.C72Vecs

section C72Noise

/-! # C72: defined arithmetic, Noise

Generated by tools/defdthms.py.  On defined arguments the function evaluated over `Dfd o`, where division by zero and
the like are visible, gives the (defined) result of the function over ℝ.  Where arguments are excluded, the
hypotheses say which. -/

namespace Cglm
open Dfd
variable {o : Orc}


@[dfd] theorem C72_perlin_vec4 (point : V4 ℝ) :
    (glm_perlin_vec4 (point.map ret) : Dfd o) = ret (glm_perlin_vec4 point) := by
  dfd_step glm_perlin_vec4

@[dfd] theorem C72_perlin_vec3 (point : V3 ℝ) :
    (glm_perlin_vec3 (point.map ret) : Dfd o) = ret (glm_perlin_vec3 point) := by
  dfd_step glm_perlin_vec3

@[dfd] theorem C72_perlin_vec2 (point : V2 ℝ) :
    (glm_perlin_vec2 (point.map ret) : Dfd o) = ret (glm_perlin_vec2 point) := by
  dfd_step glm_perlin_vec2

end Cglm

end C72Noise
