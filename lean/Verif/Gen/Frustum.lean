/- Generated from include/cglm/frustum.h by tools/gen.py (value semantics); do not edit by hand. -/
import Verif.Base
import Verif.Attr
import Verif.Gen.Mat4
import Verif.Gen.Plane
import Verif.Gen.Util
import Verif.Gen.Vec3
import Verif.Gen.Vec3Ext
import Verif.Gen.Vec4

set_option linter.unusedVariables false
set_option linter.unusedSectionVars false

namespace Cglm

variable {α : Type} [Add α] [Sub α] [Mul α] [Div α] [Neg α] [CFloat α]

/-- `glm_frustum_planes`: include/cglm/frustum.h:70-90. -/
@[cglm]
def glm_frustum_planes (m : M4 α) : M6x4 α :=
  let t := glm_mat4_transpose_to m
  let dest_0 := glm_vec4_add t.c3 t.c0
  let dest_4 := glm_vec4_sub t.c3 t.c0
  let dest_8 := glm_vec4_add t.c3 t.c1
  let dest_12 := glm_vec4_sub t.c3 t.c1
  let dest_16 := glm_vec4_add t.c3 t.c2
  let dest_20 := glm_vec4_sub t.c3 t.c2
  let dest_0_1 := glm_plane_normalize dest_0
  let dest_4_1 := glm_plane_normalize dest_4
  let dest_8_1 := glm_plane_normalize dest_8
  let dest_12_1 := glm_plane_normalize dest_12
  let dest_16_1 := glm_plane_normalize dest_16
  ⟨dest_0_1, dest_4_1, dest_8_1, dest_12_1, dest_16_1, glm_plane_normalize dest_20⟩

/-- `glm_frustum_corners`: include/cglm/frustum.h:115-150. -/
@[cglm]
def glm_frustum_corners (invMat : M4 α) : M8x4 α :=
  let c_0 := glm_mat4_mulv invMat ⟨-(lit 1), -(lit 1), -(lit 1), lit 1⟩
  let c_4 := glm_mat4_mulv invMat ⟨-(lit 1), lit 1, -(lit 1), lit 1⟩
  let c_8 := glm_mat4_mulv invMat ⟨lit 1, lit 1, -(lit 1), lit 1⟩
  let c_12 := glm_mat4_mulv invMat ⟨lit 1, -(lit 1), -(lit 1), lit 1⟩
  let c_16 := glm_mat4_mulv invMat ⟨-(lit 1), -(lit 1), lit 1, lit 1⟩
  let c_20 := glm_mat4_mulv invMat ⟨-(lit 1), lit 1, lit 1, lit 1⟩
  let c_24 := glm_mat4_mulv invMat ⟨lit 1, lit 1, lit 1, lit 1⟩
  let c_28 := glm_mat4_mulv invMat ⟨lit 1, -(lit 1), lit 1, lit 1⟩
  let dest_0 := glm_vec4_scale c_0 ((lit 1) / c_0.w)
  let dest_4 := glm_vec4_scale c_4 ((lit 1) / c_4.w)
  let dest_8 := glm_vec4_scale c_8 ((lit 1) / c_8.w)
  let dest_12 := glm_vec4_scale c_12 ((lit 1) / c_12.w)
  let dest_16 := glm_vec4_scale c_16 ((lit 1) / c_16.w)
  let dest_20 := glm_vec4_scale c_20 ((lit 1) / c_20.w)
  let dest_24 := glm_vec4_scale c_24 ((lit 1) / c_24.w)
  ⟨dest_0, dest_4, dest_8, dest_12, dest_16, dest_20, dest_24, glm_vec4_scale c_28 ((lit 1) / c_28.w)⟩

/-- `glm_frustum_center`: include/cglm/frustum.h:158-174. -/
@[cglm]
def glm_frustum_center (corners : M8x4 α) : V4 α :=
  let center := glm_vec4_copy corners.c0
  let center_1 := glm_vec4_add corners.c1 center
  let center_2 := glm_vec4_add corners.c2 center_1
  let center_3 := glm_vec4_add corners.c3 center_2
  let center_4 := glm_vec4_add corners.c4 center_3
  let center_5 := glm_vec4_add corners.c5 center_4
  let center_6 := glm_vec4_add corners.c6 center_5
  let center_7 := glm_vec4_add corners.c7 center_6
  glm_vec4_scale center_7 (lit 0.125)

/-- `glm_frustum_box`: include/cglm/frustum.h:183-207. -/
@[cglm]
def glm_frustum_box (corners : M8x4 α) (m : M4 α) : M2x3 α :=
  let min := glm_vec3_broadcast (lit 340282346638528859811704183484516925440)
  let max := glm_vec3_broadcast (-(lit 340282346638528859811704183484516925440))
  let v := glm_mat4_mulv m corners.c0
  let v_1 := glm_mat4_mulv m corners.c1
  let v_2 := glm_mat4_mulv m corners.c2
  let v_3 := glm_mat4_mulv m corners.c3
  let v_4 := glm_mat4_mulv m corners.c4
  let v_5 := glm_mat4_mulv m corners.c5
  let v_6 := glm_mat4_mulv m corners.c6
  let v_7 := glm_mat4_mulv m corners.c7
  let box_0 := glm_vec3_copy ⟨glm_min (glm_min (glm_min (glm_min (glm_min (glm_min (glm_min (glm_min min.x v.x) v_1.x) v_2.x) v_3.x) v_4.x) v_5.x) v_6.x) v_7.x, glm_min (glm_min (glm_min (glm_min (glm_min (glm_min (glm_min (glm_min min.y v.y) v_1.y) v_2.y) v_3.y) v_4.y) v_5.y) v_6.y) v_7.y, glm_min (glm_min (glm_min (glm_min (glm_min (glm_min (glm_min (glm_min min.z v.z) v_1.z) v_2.z) v_3.z) v_4.z) v_5.z) v_6.z) v_7.z⟩
  ⟨box_0, glm_vec3_copy ⟨glm_max (glm_max (glm_max (glm_max (glm_max (glm_max (glm_max (glm_max max.x v.x) v_1.x) v_2.x) v_3.x) v_4.x) v_5.x) v_6.x) v_7.x, glm_max (glm_max (glm_max (glm_max (glm_max (glm_max (glm_max (glm_max max.y v.y) v_1.y) v_2.y) v_3.y) v_4.y) v_5.y) v_6.y) v_7.y, glm_max (glm_max (glm_max (glm_max (glm_max (glm_max (glm_max (glm_max max.z v.z) v_1.z) v_2.z) v_3.z) v_4.z) v_5.z) v_6.z) v_7.z⟩⟩

/-- `glm_frustum_corners_at`: include/cglm/frustum.h:221-253. -/
@[cglm]
def glm_frustum_corners_at (corners : M8x4 α) (splitDist : α) (farDist : α) : M4 α :=
  let dist := glm_vec3_distance ⟨corners.c6.x, corners.c6.y, corners.c6.z⟩ ⟨corners.c2.x, corners.c2.y, corners.c2.z⟩
  let sc := dist * (splitDist / farDist)
  let corner := glm_vec4_sub corners.c4 corners.c0
  let corner_1 := glm_vec4_scale_as corner sc
  let planeCorners_0 := glm_vec4_add corners.c0 corner_1
  let corner_2 := glm_vec4_sub corners.c5 corners.c1
  let corner_3 := glm_vec4_scale_as corner_2 sc
  let planeCorners_4 := glm_vec4_add corners.c1 corner_3
  let corner_4 := glm_vec4_sub corners.c6 corners.c2
  let corner_5 := glm_vec4_scale_as corner_4 sc
  let planeCorners_8 := glm_vec4_add corners.c2 corner_5
  let corner_6 := glm_vec4_sub corners.c7 corners.c3
  let corner_7 := glm_vec4_scale_as corner_6 sc
  ⟨planeCorners_0, planeCorners_4, planeCorners_8, glm_vec4_add corners.c3 corner_7⟩

end Cglm
