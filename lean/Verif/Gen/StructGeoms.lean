/- Generated by tools/gen.py, joined by tools/merge.py; do not edit by hand. -/
import Verif.Base
import Verif.Attr
import Verif.Gen.Aabb2d
import Verif.Gen.StructVecs
import Verif.Gen.Box
import Verif.Gen.Vec3
import Verif.Gen.Color
import Verif.Gen.Curve
import Verif.Gen.Frustum
import Verif.Gen.Plane
import Verif.Gen.Ray
import Verif.Gen.Sphere

section StructAabb2d

/- Generated from include/cglm/struct/aabb2d.h by tools/gen.py (value semantics); do not edit by hand. -/

set_option linter.unusedVariables false
set_option linter.unusedSectionVars false

namespace Cglm

variable {α : Type} [Add α] [Sub α] [Mul α] [Div α] [Neg α] [CFloat α]

/-- `glms_aabb2d_transform`: include/cglm/struct/aabb2d.h:28-37. -/
@[cglm]
def glms_aabb2d_transform (aabb : M2 α) (m : M3 α) : M2 α :=
  glm_aabb2d_transform aabb m

/-- `glms_aabb2d_merge`: include/cglm/struct/aabb2d.h:49-60. -/
@[cglm]
def glms_aabb2d_merge (aabb1 : M2 α) (aabb2 : M2 α) : M2 α :=
  glm_aabb2d_merge aabb1 aabb2

/-- `glms_aabb2d_crop`: include/cglm/struct/aabb2d.h:73-84. -/
@[cglm]
def glms_aabb2d_crop (aabb : M2 α) (cropAabb : M2 α) : M2 α :=
  glm_aabb2d_crop aabb cropAabb

/-- `glms_aabb2d_crop_until`: include/cglm/struct/aabb2d.h:98-106. -/
@[cglm]
def glms_aabb2d_crop_until (aabb : M2 α) (cropAabb : M2 α) (clampAabb : M2 α) : M2 α :=
  let dest_1 := glms_aabb2d_crop aabb cropAabb
  glms_aabb2d_merge clampAabb dest_1

/-- `glms_aabb2d_invalidate`: include/cglm/struct/aabb2d.h:113-118. -/
@[cglm]
def glms_aabb2d_invalidate : M2 α :=
  let r := glms_vec2_fill (lit 340282346638528859811704183484516925440)
  ⟨r, glms_vec2_fill (-(lit 340282346638528859811704183484516925440))⟩

/-- `glms_aabb2d_isvalid`: include/cglm/struct/aabb2d.h:125-131. -/
@[cglm]
def glms_aabb2d_isvalid (aabb : M2 α) : Bool :=
  glm_aabb2d_isvalid aabb

/-- `glms_aabb2d_diag`: include/cglm/struct/aabb2d.h:138-144. -/
@[cglm]
def glms_aabb2d_diag (aabb : M2 α) : α :=
  glm_aabb2d_diag aabb

/-- `glms_aabb2d_sizev`: include/cglm/struct/aabb2d.h:153-161. -/
@[cglm]
def glms_aabb2d_sizev (aabb : M2 α) : V2 α :=
  glm_aabb2d_sizev aabb

/-- `glms_aabb2d_center`: include/cglm/struct/aabb2d.h:180-184. -/
@[cglm]
def glms_aabb2d_center (aabb : M2 α) : V2 α :=
  glms_vec2_center aabb.c0 aabb.c1

/-- `glms_aabb2d_aabb`: include/cglm/struct/aabb2d.h:192-201. -/
@[cglm]
def glms_aabb2d_aabb (aabb : M2 α) (other : M2 α) : Bool :=
  glm_aabb2d_aabb aabb other

/-- `glms_aabb2d_circle`: include/cglm/struct/aabb2d.h:212-219. -/
@[cglm]
def glms_aabb2d_circle (aabb : M2 α) (c : V3 α) : Bool :=
  glm_aabb2d_circle aabb c

/-- `glms_aabb2d_point`: include/cglm/struct/aabb2d.h:227-234. -/
@[cglm]
def glms_aabb2d_point (aabb : M2 α) (point : V2 α) : Bool :=
  glm_aabb2d_point aabb point

/-- `glms_aabb2d_contains`: include/cglm/struct/aabb2d.h:242-251. -/
@[cglm]
def glms_aabb2d_contains (aabb : M2 α) (other : M2 α) : Bool :=
  glm_aabb2d_contains aabb other

end Cglm

end StructAabb2d

section StructBox

/- Generated from include/cglm/struct/box.h by tools/gen.py (value semantics); do not edit by hand. -/

set_option linter.unusedVariables false
set_option linter.unusedSectionVars false

namespace Cglm

variable {α : Type} [Add α] [Sub α] [Mul α] [Div α] [Neg α] [CFloat α]

/-- `glms_aabb_transform`: include/cglm/struct/box.h:28-37. -/
@[cglm]
def glms_aabb_transform (box : M2x3 α) (m : M4 α) : M2x3 α :=
  glm_aabb_transform box m

/-- `glms_aabb_merge`: include/cglm/struct/box.h:49-60. -/
@[cglm]
def glms_aabb_merge (box1 : M2x3 α) (box2 : M2x3 α) : M2x3 α :=
  glm_aabb_merge box1 box2

/-- `glms_aabb_crop`: include/cglm/struct/box.h:73-84. -/
@[cglm]
def glms_aabb_crop (box : M2x3 α) (cropBox : M2x3 α) : M2x3 α :=
  glm_aabb_crop box cropBox

/-- `glms_aabb_crop_until`: include/cglm/struct/box.h:98-106. -/
@[cglm]
def glms_aabb_crop_until (box : M2x3 α) (cropBox : M2x3 α) (clampBox : M2x3 α) : M2x3 α :=
  let dest_1 := glms_aabb_crop box cropBox
  glms_aabb_merge clampBox dest_1

/-- `glms_aabb_frustum`: include/cglm/struct/box.h:122-131. -/
@[cglm]
def glms_aabb_frustum (box : M2x3 α) (planes : M6x4 α) : Bool :=
  glm_aabb_frustum box planes

/-- `glms_aabb_invalidate`: include/cglm/struct/box.h:138-143. -/
@[cglm]
def glms_aabb_invalidate : M2x3 α :=
  let r := glms_vec3_broadcast (lit 340282346638528859811704183484516925440)
  ⟨r, glms_vec3_broadcast (-(lit 340282346638528859811704183484516925440))⟩

/-- `glms_aabb_isvalid`: include/cglm/struct/box.h:150-156. -/
@[cglm]
def glms_aabb_isvalid (box : M2x3 α) : Bool :=
  glm_aabb_isvalid box

/-- `glms_aabb_size`: include/cglm/struct/box.h:163-167. -/
@[cglm]
def glms_aabb_size (box : M2x3 α) : α :=
  glm_vec3_distance box.c0 box.c1

/-- `glms_aabb_radius`: include/cglm/struct/box.h:174-178. -/
@[cglm]
def glms_aabb_radius (box : M2x3 α) : α :=
  glms_aabb_size box * (lit 0.5)

/-- `glms_aabb_center`: include/cglm/struct/box.h:186-190. -/
@[cglm]
def glms_aabb_center (box : M2x3 α) : V3 α :=
  glms_vec3_center box.c0 box.c1

/-- `glms_aabb_aabb`: include/cglm/struct/box.h:198-207. -/
@[cglm]
def glms_aabb_aabb (box : M2x3 α) (other : M2x3 α) : Bool :=
  glm_aabb_aabb box other

/-- `glms_aabb_sphere`: include/cglm/struct/box.h:218-225. -/
@[cglm]
def glms_aabb_sphere (box : M2x3 α) (s : V4 α) : Bool :=
  glm_aabb_sphere box s

/-- `glms_aabb_point`: include/cglm/struct/box.h:233-240. -/
@[cglm]
def glms_aabb_point (box : M2x3 α) (point : V3 α) : Bool :=
  glm_aabb_point box point

/-- `glms_aabb_contains`: include/cglm/struct/box.h:248-257. -/
@[cglm]
def glms_aabb_contains (box : M2x3 α) (other : M2x3 α) : Bool :=
  glm_aabb_contains box other

end Cglm

end StructBox

section StructColor

/- Generated from include/cglm/struct/color.h by tools/gen.py (value semantics); do not edit by hand. -/

set_option linter.unusedVariables false
set_option linter.unusedSectionVars false

namespace Cglm

variable {α : Type} [Add α] [Sub α] [Mul α] [Div α] [Neg α] [CFloat α]

/-- `glms_luminance`: include/cglm/struct/color.h:21-25. -/
@[cglm]
def glms_luminance (rgb : V3 α) : α :=
  glm_luminance rgb

end Cglm

end StructColor

section StructCurve

/- Generated from include/cglm/struct/curve.h by tools/gen.py (value semantics); do not edit by hand. -/

set_option linter.unusedVariables false
set_option linter.unusedSectionVars false

namespace Cglm

variable {α : Type} [Add α] [Sub α] [Mul α] [Div α] [Neg α] [CFloat α]

/-- `glms_smc`: include/cglm/struct/curve.h:34-38. -/
@[cglm]
def glms_smc (s : α) (m : M4 α) (c : V4 α) : α :=
  glm_smc s m c

end Cglm

end StructCurve

section StructFrustum

/- Generated from include/cglm/struct/frustum.h by tools/gen.py (value semantics); do not edit by hand. -/

set_option linter.unusedVariables false
set_option linter.unusedSectionVars false

namespace Cglm

variable {α : Type} [Add α] [Sub α] [Mul α] [Div α] [Neg α] [CFloat α]

/-- `glms_frustum_planes`: include/cglm/struct/frustum.h:55-61. -/
@[cglm]
def glms_frustum_planes (m : M4 α) : M6x4 α :=
  glm_frustum_planes m

/-- `glms_frustum_corners`: include/cglm/struct/frustum.h:86-92. -/
@[cglm]
def glms_frustum_corners (invMat : M4 α) : M8x4 α :=
  glm_frustum_corners invMat

/-- `glms_frustum_center`: include/cglm/struct/frustum.h:100-109. -/
@[cglm]
def glms_frustum_center (corners : M8x4 α) : V4 α :=
  glm_frustum_center corners

/-- `glms_frustum_box`: include/cglm/struct/frustum.h:118-127. -/
@[cglm]
def glms_frustum_box (corners : M8x4 α) (m : M4 α) : M2x3 α :=
  glm_frustum_box corners m

end Cglm

end StructFrustum

section StructPlane

/- Generated from include/cglm/struct/plane.h by tools/gen.py (value semantics); do not edit by hand. -/

set_option linter.unusedVariables false
set_option linter.unusedSectionVars false

namespace Cglm

variable {α : Type} [Add α] [Sub α] [Mul α] [Div α] [Neg α] [CFloat α]

/-- `glms_plane_normalize`: include/cglm/struct/plane.h:33-38. -/
@[cglm]
def glms_plane_normalize (plane : V4 α) : V4 α :=
  glm_plane_normalize plane

end Cglm

end StructPlane

section StructRay

/- Generated from include/cglm/struct/ray.h by tools/gen.py (value semantics); do not edit by hand. -/

set_option linter.unusedVariables false
set_option linter.unusedSectionVars false

namespace Cglm

variable {α : Type} [Add α] [Sub α] [Mul α] [Div α] [Neg α] [CFloat α]

/-- `glms_ray_triangle`: include/cglm/struct/ray.h:29-38. -/
@[cglm]
def glms_ray_triangle (origin : V3 α) (direction : V3 α) (v0 : V3 α) (v1 : V3 α) (v2 : V3 α) (d : α) : Bool × α :=
  let r := glm_ray_triangle origin direction v0 v1 v2 d
  (r.1, r.2)

/-- `glms_ray_sphere`: include/cglm/struct/ray.h:60-68. -/
@[cglm]
def glms_ray_sphere (origin : V3 α) (dir : V3 α) (s : V4 α) (t1 : α) (t2 : α) : Bool × α × α :=
  let r := glm_ray_sphere origin dir s t1 t2
  (r.1, r.2.1, r.2.2)

/-- `glms_ray_at`: include/cglm/struct/ray.h:78-84. -/
@[cglm]
def glms_ray_at (orig : V3 α) (dir : V3 α) (t : α) : V3 α :=
  glm_ray_at orig dir t

end Cglm

end StructRay

section StructSphere

/- Generated from include/cglm/struct/sphere.h by tools/gen.py (value semantics); do not edit by hand. -/

set_option linter.unusedVariables false
set_option linter.unusedSectionVars false

namespace Cglm

variable {α : Type} [Add α] [Sub α] [Mul α] [Div α] [Neg α] [CFloat α]

/-- `glms_sphere_radii`: include/cglm/struct/sphere.h:30-34. -/
@[cglm]
def glms_sphere_radii (s : V4 α) : α :=
  glm_sphere_radii s

/-- `glms_sphere_transform`: include/cglm/struct/sphere.h:43-49. -/
@[cglm]
def glms_sphere_transform (s : V4 α) (m : M4 α) : V4 α :=
  glm_sphere_transform s m

/-- `glms_sphere_merge`: include/cglm/struct/sphere.h:61-67. -/
@[cglm]
def glms_sphere_merge (s1 : V4 α) (s2 : V4 α) : V4 α :=
  glm_sphere_merge s1 s2

/-- `glms_sphere_sphere`: include/cglm/struct/sphere.h:75-79. -/
@[cglm]
def glms_sphere_sphere (s1 : V4 α) (s2 : V4 α) : Bool :=
  glm_sphere_sphere s1 s2

/-- `glms_sphere_point`: include/cglm/struct/sphere.h:87-91. -/
@[cglm]
def glms_sphere_point (s : V4 α) (point : V3 α) : Bool :=
  glm_sphere_point s point

end Cglm

end StructSphere
