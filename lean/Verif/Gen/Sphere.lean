/- Generated from include/cglm/sphere.h by tools/gen.py (value semantics); do not edit by hand. -/
import Verif.Base
import Verif.Attr
import Verif.Gen.Mat4
import Verif.Gen.Util
import Verif.Gen.Vec3

set_option linter.unusedVariables false
set_option linter.unusedSectionVars false

namespace Cglm

variable {α : Type} [Add α] [Sub α] [Mul α] [Div α] [Neg α] [CFloat α]

/-- `glm_sphere_radii`: include/cglm/sphere.h:28-32. -/
@[cglm]
def glm_sphere_radii (s : V4 α) : α :=
  s.w

/-- `glm_sphere_transform`: include/cglm/sphere.h:41-46. -/
@[cglm]
def glm_sphere_transform (s : V4 α) (m : M4 α) : V4 α :=
  let dest_0 := glm_mat4_mulv3 m ⟨s.x, s.y, s.z⟩ (lit 1)
  ⟨dest_0.x, dest_0.y, dest_0.z, s.w⟩

/-- `glm_sphere_merge`: include/cglm/sphere.h:58-71. -/
@[cglm]
def glm_sphere_merge (s1 : V4 α) (s2 : V4 α) : V4 α :=
  let dist := glm_vec3_distance ⟨s1.x, s1.y, s1.z⟩ ⟨s2.x, s2.y, s2.z⟩
  let radii := dist + s1.w + s2.w
  let radii_1 := glm_max radii s1.w
  let radii_2 := glm_max radii_1 s2.w
  let dest_0 := glm_vec3_center ⟨s1.x, s1.y, s1.z⟩ ⟨s2.x, s2.y, s2.z⟩
  ⟨dest_0.x, dest_0.y, dest_0.z, radii_2⟩

/-- `glm_sphere_sphere`: include/cglm/sphere.h:79-83. -/
@[cglm]
def glm_sphere_sphere (s1 : V4 α) (s2 : V4 α) : Bool :=
  fle (glm_vec3_distance2 ⟨s1.x, s1.y, s1.z⟩ ⟨s2.x, s2.y, s2.z⟩) (glm_pow2 (s1.w + s2.w))

/-- `glm_sphere_point`: include/cglm/sphere.h:91-97. -/
@[cglm]
def glm_sphere_point (s : V4 α) (point : V3 α) : Bool :=
  fle (glm_vec3_distance2 point ⟨s.x, s.y, s.z⟩) (s.w * s.w)

end Cglm
