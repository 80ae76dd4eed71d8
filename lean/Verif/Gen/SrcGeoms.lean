/- Generated by tools/gen.py, joined by tools/merge.py; do not edit by hand. -/
import Verif.Base
import Verif.Attr
import Verif.Gen.Aabb2d
import Verif.Gen.Bezier
import Verif.Gen.Box
import Verif.Gen.Curve
import Verif.Gen.Ease
import Verif.Gen.Frustum
import Verif.Gen.Plane
import Verif.Gen.Ray
import Verif.Gen.Sphere

section SrcAabb2d

/- Generated from src/aabb2d.c by tools/gen.py (value semantics); do not edit by hand. -/

set_option linter.unusedVariables false
set_option linter.unusedSectionVars false

namespace Cglm

variable {α : Type} [Add α] [Sub α] [Mul α] [Div α] [Neg α] [CFloat α]

/-- `glmc_aabb2d_zero`: src/aabb2d.c:11-15. -/
@[cglm]
def glmc_aabb2d_zero : M2 α :=
  glm_aabb2d_zero

/-- `glmc_aabb2d_copy`: src/aabb2d.c:17-21. -/
@[cglm]
def glmc_aabb2d_copy (aabb : M2 α) : M2 α :=
  glm_aabb2d_copy aabb

/-- `glmc_aabb2d_transform`: src/aabb2d.c:23-27. -/
@[cglm]
def glmc_aabb2d_transform (aabb : M2 α) (m : M3 α) : M2 α :=
  glm_aabb2d_transform aabb m

/-- `glmc_aabb2d_merge`: src/aabb2d.c:29-33. -/
@[cglm]
def glmc_aabb2d_merge (aabb1 : M2 α) (aabb2 : M2 α) : M2 α :=
  glm_aabb2d_merge aabb1 aabb2

/-- `glmc_aabb2d_crop`: src/aabb2d.c:35-39. -/
@[cglm]
def glmc_aabb2d_crop (aabb : M2 α) (cropAabb : M2 α) : M2 α :=
  glm_aabb2d_crop aabb cropAabb

/-- `glmc_aabb2d_crop_until`: src/aabb2d.c:41-48. -/
@[cglm]
def glmc_aabb2d_crop_until (aabb : M2 α) (cropAabb : M2 α) (clampAabb : M2 α) : M2 α :=
  glm_aabb2d_crop_until aabb cropAabb clampAabb

/-- `glmc_aabb2d_invalidate`: src/aabb2d.c:50-54. -/
@[cglm]
def glmc_aabb2d_invalidate : M2 α :=
  glm_aabb2d_invalidate

/-- `glmc_aabb2d_isvalid`: src/aabb2d.c:56-60. -/
@[cglm]
def glmc_aabb2d_isvalid (aabb : M2 α) : Bool :=
  glm_aabb2d_isvalid aabb

/-- `glmc_aabb2d_diag`: src/aabb2d.c:62-66. -/
@[cglm]
def glmc_aabb2d_diag (aabb : M2 α) : α :=
  glm_aabb2d_diag aabb

/-- `glmc_aabb2d_sizev`: src/aabb2d.c:68-72. -/
@[cglm]
def glmc_aabb2d_sizev (aabb : M2 α) : V2 α :=
  glm_aabb2d_sizev aabb

/-- `glmc_aabb2d_radius`: src/aabb2d.c:74-78. -/
@[cglm]
def glmc_aabb2d_radius (aabb : M2 α) : α :=
  glm_aabb2d_radius aabb

/-- `glmc_aabb2d_center`: src/aabb2d.c:80-84. -/
@[cglm]
def glmc_aabb2d_center (aabb : M2 α) : V2 α :=
  glm_aabb2d_center aabb

/-- `glmc_aabb2d_aabb`: src/aabb2d.c:86-90. -/
@[cglm]
def glmc_aabb2d_aabb (aabb : M2 α) (other : M2 α) : Bool :=
  glm_aabb2d_aabb aabb other

/-- `glmc_aabb2d_point`: src/aabb2d.c:92-96. -/
@[cglm]
def glmc_aabb2d_point (aabb : M2 α) (point : V2 α) : Bool :=
  glm_aabb2d_point aabb point

/-- `glmc_aabb2d_contains`: src/aabb2d.c:98-102. -/
@[cglm]
def glmc_aabb2d_contains (aabb : M2 α) (other : M2 α) : Bool :=
  glm_aabb2d_contains aabb other

/-- `glmc_aabb2d_circle`: src/aabb2d.c:104-108. -/
@[cglm]
def glmc_aabb2d_circle (aabb : M2 α) (s : V3 α) : Bool :=
  glm_aabb2d_circle aabb s

end Cglm

end SrcAabb2d

section SrcBezier

/- Generated from src/bezier.c by tools/gen.py (value semantics); do not edit by hand. -/

set_option linter.unusedVariables false
set_option linter.unusedSectionVars false

namespace Cglm

variable {α : Type} [Add α] [Sub α] [Mul α] [Div α] [Neg α] [CFloat α]

/-- `glmc_bezier`: src/bezier.c:11-15. -/
@[cglm]
def glmc_bezier (s : α) (p0 : α) (c0 : α) (c1 : α) (p1 : α) : α :=
  glm_bezier s p0 c0 c1 p1

/-- `glmc_hermite`: src/bezier.c:17-21. -/
@[cglm]
def glmc_hermite (s : α) (p0 : α) (t0 : α) (t1 : α) (p1 : α) : α :=
  glm_hermite s p0 t0 t1 p1

end Cglm

end SrcBezier

section SrcBox

/- Generated from src/box.c by tools/gen.py (value semantics); do not edit by hand. -/

set_option linter.unusedVariables false
set_option linter.unusedSectionVars false

namespace Cglm

variable {α : Type} [Add α] [Sub α] [Mul α] [Div α] [Neg α] [CFloat α]

/-- `glmc_aabb_transform`: src/box.c:11-15. -/
@[cglm]
def glmc_aabb_transform (box : M2x3 α) (m : M4 α) : M2x3 α :=
  glm_aabb_transform box m

/-- `glmc_aabb_merge`: src/box.c:17-21. -/
@[cglm]
def glmc_aabb_merge (box1 : M2x3 α) (box2 : M2x3 α) : M2x3 α :=
  glm_aabb_merge box1 box2

/-- `glmc_aabb_crop`: src/box.c:23-27. -/
@[cglm]
def glmc_aabb_crop (box : M2x3 α) (cropBox : M2x3 α) : M2x3 α :=
  glm_aabb_crop box cropBox

/-- `glmc_aabb_crop_until`: src/box.c:29-36. -/
@[cglm]
def glmc_aabb_crop_until (box : M2x3 α) (cropBox : M2x3 α) (clampBox : M2x3 α) : M2x3 α :=
  glm_aabb_crop_until box cropBox clampBox

/-- `glmc_aabb_frustum`: src/box.c:38-42. -/
@[cglm]
def glmc_aabb_frustum (box : M2x3 α) (planes : M6x4 α) : Bool :=
  glm_aabb_frustum box planes

/-- `glmc_aabb_invalidate`: src/box.c:44-48. -/
@[cglm]
def glmc_aabb_invalidate : M2x3 α :=
  glm_aabb_invalidate

/-- `glmc_aabb_isvalid`: src/box.c:50-54. -/
@[cglm]
def glmc_aabb_isvalid (box : M2x3 α) : Bool :=
  glm_aabb_isvalid box

/-- `glmc_aabb_size`: src/box.c:56-60. -/
@[cglm]
def glmc_aabb_size (box : M2x3 α) : α :=
  glm_aabb_size box

/-- `glmc_aabb_radius`: src/box.c:62-66. -/
@[cglm]
def glmc_aabb_radius (box : M2x3 α) : α :=
  glm_aabb_radius box

/-- `glmc_aabb_center`: src/box.c:68-72. -/
@[cglm]
def glmc_aabb_center (box : M2x3 α) : V3 α :=
  glm_aabb_center box

/-- `glmc_aabb_aabb`: src/box.c:74-78. -/
@[cglm]
def glmc_aabb_aabb (box : M2x3 α) (other : M2x3 α) : Bool :=
  glm_aabb_aabb box other

/-- `glmc_aabb_point`: src/box.c:80-84. -/
@[cglm]
def glmc_aabb_point (box : M2x3 α) (point : V3 α) : Bool :=
  glm_aabb_point box point

/-- `glmc_aabb_contains`: src/box.c:86-90. -/
@[cglm]
def glmc_aabb_contains (box : M2x3 α) (other : M2x3 α) : Bool :=
  glm_aabb_contains box other

/-- `glmc_aabb_sphere`: src/box.c:92-96. -/
@[cglm]
def glmc_aabb_sphere (box : M2x3 α) (s : V4 α) : Bool :=
  glm_aabb_sphere box s

end Cglm

end SrcBox

section SrcCurve

/- Generated from src/curve.c by tools/gen.py (value semantics); do not edit by hand. -/

set_option linter.unusedVariables false
set_option linter.unusedSectionVars false

namespace Cglm

variable {α : Type} [Add α] [Sub α] [Mul α] [Div α] [Neg α] [CFloat α]

/-- `glmc_smc`: src/curve.c:11-15. -/
@[cglm]
def glmc_smc (s : α) (m : M4 α) (c : V4 α) : α :=
  glm_smc s m c

end Cglm

end SrcCurve

section SrcEase

/- Generated from src/ease.c by tools/gen.py (value semantics); do not edit by hand. -/

set_option linter.unusedVariables false
set_option linter.unusedSectionVars false

namespace Cglm

variable {α : Type} [Add α] [Sub α] [Mul α] [Div α] [Neg α] [CFloat α]

/-- `glmc_ease_linear`: src/ease.c:11-15. -/
@[cglm]
def glmc_ease_linear (t : α) : α :=
  glm_ease_linear t

/-- `glmc_ease_sine_in`: src/ease.c:17-21. -/
@[cglm]
def glmc_ease_sine_in (t : α) : α :=
  glm_ease_sine_in t

/-- `glmc_ease_sine_out`: src/ease.c:23-27. -/
@[cglm]
def glmc_ease_sine_out (t : α) : α :=
  glm_ease_sine_out t

/-- `glmc_ease_sine_inout`: src/ease.c:29-33. -/
@[cglm]
def glmc_ease_sine_inout (t : α) : α :=
  glm_ease_sine_inout t

/-- `glmc_ease_quad_in`: src/ease.c:35-39. -/
@[cglm]
def glmc_ease_quad_in (t : α) : α :=
  glm_ease_quad_in t

/-- `glmc_ease_quad_out`: src/ease.c:41-45. -/
@[cglm]
def glmc_ease_quad_out (t : α) : α :=
  glm_ease_quad_out t

/-- `glmc_ease_quad_inout`: src/ease.c:47-51. -/
@[cglm]
def glmc_ease_quad_inout (t : α) : α :=
  glm_ease_quad_inout t

/-- `glmc_ease_cubic_in`: src/ease.c:53-57. -/
@[cglm]
def glmc_ease_cubic_in (t : α) : α :=
  glm_ease_cubic_in t

/-- `glmc_ease_cubic_out`: src/ease.c:59-63. -/
@[cglm]
def glmc_ease_cubic_out (t : α) : α :=
  glm_ease_cubic_out t

/-- `glmc_ease_cubic_inout`: src/ease.c:65-69. -/
@[cglm]
def glmc_ease_cubic_inout (t : α) : α :=
  glm_ease_cubic_inout t

/-- `glmc_ease_quart_in`: src/ease.c:71-75. -/
@[cglm]
def glmc_ease_quart_in (t : α) : α :=
  glm_ease_quart_in t

/-- `glmc_ease_quart_out`: src/ease.c:77-81. -/
@[cglm]
def glmc_ease_quart_out (t : α) : α :=
  glm_ease_quart_out t

/-- `glmc_ease_quart_inout`: src/ease.c:83-87. -/
@[cglm]
def glmc_ease_quart_inout (t : α) : α :=
  glm_ease_quart_inout t

/-- `glmc_ease_quint_in`: src/ease.c:89-93. -/
@[cglm]
def glmc_ease_quint_in (t : α) : α :=
  glm_ease_quint_in t

/-- `glmc_ease_quint_out`: src/ease.c:95-99. -/
@[cglm]
def glmc_ease_quint_out (t : α) : α :=
  glm_ease_quint_out t

/-- `glmc_ease_quint_inout`: src/ease.c:101-105. -/
@[cglm]
def glmc_ease_quint_inout (t : α) : α :=
  glm_ease_quint_inout t

/-- `glmc_ease_exp_in`: src/ease.c:107-111. -/
@[cglm]
def glmc_ease_exp_in (t : α) : α :=
  glm_ease_exp_in t

/-- `glmc_ease_exp_out`: src/ease.c:113-117. -/
@[cglm]
def glmc_ease_exp_out (t : α) : α :=
  glm_ease_exp_out t

/-- `glmc_ease_exp_inout`: src/ease.c:119-123. -/
@[cglm]
def glmc_ease_exp_inout (t : α) : α :=
  glm_ease_exp_inout t

/-- `glmc_ease_circ_in`: src/ease.c:125-129. -/
@[cglm]
def glmc_ease_circ_in (t : α) : α :=
  glm_ease_circ_in t

/-- `glmc_ease_circ_out`: src/ease.c:131-135. -/
@[cglm]
def glmc_ease_circ_out (t : α) : α :=
  glm_ease_circ_out t

/-- `glmc_ease_circ_inout`: src/ease.c:137-141. -/
@[cglm]
def glmc_ease_circ_inout (t : α) : α :=
  glm_ease_circ_inout t

/-- `glmc_ease_back_in`: src/ease.c:143-147. -/
@[cglm]
def glmc_ease_back_in (t : α) : α :=
  glm_ease_back_in t

/-- `glmc_ease_back_out`: src/ease.c:149-153. -/
@[cglm]
def glmc_ease_back_out (t : α) : α :=
  glm_ease_back_out t

/-- `glmc_ease_back_inout`: src/ease.c:155-159. -/
@[cglm]
def glmc_ease_back_inout (t : α) : α :=
  glm_ease_back_inout t

/-- `glmc_ease_elast_in`: src/ease.c:161-165. -/
@[cglm]
def glmc_ease_elast_in (t : α) : α :=
  glm_ease_elast_in t

/-- `glmc_ease_elast_out`: src/ease.c:167-171. -/
@[cglm]
def glmc_ease_elast_out (t : α) : α :=
  glm_ease_elast_out t

/-- `glmc_ease_elast_inout`: src/ease.c:173-177. -/
@[cglm]
def glmc_ease_elast_inout (t : α) : α :=
  glm_ease_elast_inout t

/-- `glmc_ease_bounce_out`: src/ease.c:179-183. -/
@[cglm]
def glmc_ease_bounce_out (t : α) : α :=
  glm_ease_bounce_out t

/-- `glmc_ease_bounce_in`: src/ease.c:185-189. -/
@[cglm]
def glmc_ease_bounce_in (t : α) : α :=
  glm_ease_bounce_in t

/-- `glmc_ease_bounce_inout`: src/ease.c:191-195. -/
@[cglm]
def glmc_ease_bounce_inout (t : α) : α :=
  glm_ease_bounce_inout t

end Cglm

end SrcEase

section SrcFrustum

/- Generated from src/frustum.c by tools/gen.py (value semantics); do not edit by hand. -/

set_option linter.unusedVariables false
set_option linter.unusedSectionVars false

namespace Cglm

variable {α : Type} [Add α] [Sub α] [Mul α] [Div α] [Neg α] [CFloat α]

/-- `glmc_frustum_planes`: src/frustum.c:11-15. -/
@[cglm]
def glmc_frustum_planes (m : M4 α) : M6x4 α :=
  glm_frustum_planes m

/-- `glmc_frustum_corners`: src/frustum.c:17-21. -/
@[cglm]
def glmc_frustum_corners (invMat : M4 α) : M8x4 α :=
  glm_frustum_corners invMat

/-- `glmc_frustum_center`: src/frustum.c:23-27. -/
@[cglm]
def glmc_frustum_center (corners : M8x4 α) : V4 α :=
  glm_frustum_center corners

/-- `glmc_frustum_box`: src/frustum.c:29-33. -/
@[cglm]
def glmc_frustum_box (corners : M8x4 α) (m : M4 α) : M2x3 α :=
  glm_frustum_box corners m

/-- `glmc_frustum_corners_at`: src/frustum.c:35-42. -/
@[cglm]
def glmc_frustum_corners_at (corners : M8x4 α) (splitDist : α) (farDist : α) : M4 α :=
  glm_frustum_corners_at corners splitDist farDist

end Cglm

end SrcFrustum

section SrcPlane

/- Generated from src/plane.c by tools/gen.py (value semantics); do not edit by hand. -/

set_option linter.unusedVariables false
set_option linter.unusedSectionVars false

namespace Cglm

variable {α : Type} [Add α] [Sub α] [Mul α] [Div α] [Neg α] [CFloat α]

/-- `glmc_plane_normalize`: src/plane.c:11-15. -/
@[cglm]
def glmc_plane_normalize (plane : V4 α) : V4 α :=
  glm_plane_normalize plane

end Cglm

end SrcPlane

section SrcRay

/- Generated from src/ray.c by tools/gen.py (value semantics); do not edit by hand. -/

set_option linter.unusedVariables false
set_option linter.unusedSectionVars false

namespace Cglm

variable {α : Type} [Add α] [Sub α] [Mul α] [Div α] [Neg α] [CFloat α]

/-- `glmc_ray_triangle`: src/ray.c:4-13. -/
@[cglm]
def glmc_ray_triangle (origin : V3 α) (direction : V3 α) (v0 : V3 α) (v1 : V3 α) (v2 : V3 α) (d : α) : Bool × α :=
  let r := glm_ray_triangle origin direction v0 v1 v2 d
  (r.1, r.2)

/-- `glmc_ray_sphere`: src/ray.c:15-23. -/
@[cglm]
def glmc_ray_sphere (origin : V3 α) (dir : V3 α) (s : V4 α) (t1 : α) (t2 : α) : Bool × α × α :=
  let r := glm_ray_sphere origin dir s t1 t2
  (r.1, r.2.1, r.2.2)

/-- `glmc_ray_at`: src/ray.c:25-29. -/
@[cglm]
def glmc_ray_at (orig : V3 α) (dir : V3 α) (t : α) : V3 α :=
  glm_ray_at orig dir t

end Cglm

end SrcRay

section SrcSphere

/- Generated from src/sphere.c by tools/gen.py (value semantics); do not edit by hand. -/

set_option linter.unusedVariables false
set_option linter.unusedSectionVars false

namespace Cglm

variable {α : Type} [Add α] [Sub α] [Mul α] [Div α] [Neg α] [CFloat α]

/-- `glmc_sphere_radii`: src/sphere.c:11-15. -/
@[cglm]
def glmc_sphere_radii (s : V4 α) : α :=
  glm_sphere_radii s

/-- `glmc_sphere_transform`: src/sphere.c:17-21. -/
@[cglm]
def glmc_sphere_transform (s : V4 α) (m : M4 α) : V4 α :=
  glm_sphere_transform s m

/-- `glmc_sphere_merge`: src/sphere.c:23-27. -/
@[cglm]
def glmc_sphere_merge (s1 : V4 α) (s2 : V4 α) : V4 α :=
  glm_sphere_merge s1 s2

/-- `glmc_sphere_sphere`: src/sphere.c:29-33. -/
@[cglm]
def glmc_sphere_sphere (s1 : V4 α) (s2 : V4 α) : Bool :=
  glm_sphere_sphere s1 s2

/-- `glmc_sphere_point`: src/sphere.c:35-39. -/
@[cglm]
def glmc_sphere_point (s : V4 α) (point : V3 α) : Bool :=
  glm_sphere_point s point

end Cglm

end SrcSphere
