/- Generated by tools/gen.py, joined by tools/merge.py; do not edit by hand. -/
import Verif.Base
import Verif.Attr
import Verif.Gen.Affine
import Verif.Gen.AffinePre
import Verif.Gen.Affine2d
import Verif.Gen.AffineMat
import Verif.Gen.AffinePost
import Verif.Gen.ClipspaceOrthoRhNo
import Verif.Gen.ClipspacePerspRhNo
import Verif.Gen.ClipspaceViewRhNo
import Verif.Gen.ClipspaceOrthoLhNo
import Verif.Gen.ClipspaceOrthoLhZo
import Verif.Gen.ClipspaceOrthoRhZo
import Verif.Gen.ClipspacePerspLhNo
import Verif.Gen.ClipspacePerspLhZo
import Verif.Gen.ClipspacePerspRhZo
import Verif.Gen.ClipspaceProjectNo
import Verif.Gen.ClipspaceProjectZo
import Verif.Gen.ClipspaceViewLhNo
import Verif.Gen.ClipspaceViewLhZo
import Verif.Gen.ClipspaceViewRhZo
import Verif.Gen.Project

section StructAffine

/- Generated from include/cglm/struct/affine.h by tools/gen.py (value semantics); do not edit by hand. -/

set_option linter.unusedVariables false
set_option linter.unusedSectionVars false

namespace Cglm

variable {α : Type} [Add α] [Sub α] [Mul α] [Div α] [Neg α] [CFloat α]

/-- `glms_translate_make`: include/cglm/struct/affine.h:50-56. -/
@[cglm]
def glms_translate_make (v : V3 α) : M4 α :=
  glm_translate_make v

/-- `glms_scale_make`: include/cglm/struct/affine.h:64-70. -/
@[cglm]
def glms_scale_make (v : V3 α) : M4 α :=
  glm_scale_make v

/-- `glms_scale`: include/cglm/struct/affine.h:80-86. -/
@[cglm]
def glms_scale (m : M4 α) (v : V3 α) : M4 α :=
  glm_scale_to m v

/-- `glms_scale_uni`: include/cglm/struct/affine.h:96-101. -/
@[cglm]
def glms_scale_uni (m : M4 α) (s : α) : M4 α :=
  glm_scale_uni m s

/-- `glms_rotate_make`: include/cglm/struct/affine.h:112-118. -/
@[cglm]
def glms_rotate_make (angle : α) (axis : V3 α) : M4 α :=
  glm_rotate_make angle axis

/-- `glms_rotate_atm`: include/cglm/struct/affine.h:133-139. -/
@[cglm]
def glms_rotate_atm (pivot : V3 α) (angle : α) (axis : V3 α) : M4 α :=
  glm_rotate_atm pivot angle axis

/-- `glms_decompose_scalev`: include/cglm/struct/affine.h:147-153. -/
@[cglm]
def glms_decompose_scalev (m : M4 α) : V3 α :=
  glm_decompose_scalev m

/-- `glms_uniscaled`: include/cglm/struct/affine.h:163-167. -/
@[cglm]
def glms_uniscaled (m : M4 α) : Bool :=
  glm_uniscaled m

/-- `glms_decompose_rs`: include/cglm/struct/affine.h:177-181. -/
@[cglm]
def glms_decompose_rs (m : M4 α) : M4 α × V3 α :=
  let r_1 := glm_decompose_rs m
  (r_1.1, r_1.2)

/-- `glms_decompose`: include/cglm/struct/affine.h:192-196. -/
@[cglm]
def glms_decompose (m : M4 α) : V4 α × M4 α × V3 α :=
  let r_1 := glm_decompose m
  (r_1.1, r_1.2.1, r_1.2.2)

end Cglm

end StructAffine

section StructAffine2d

/- Generated from include/cglm/struct/affine2d.h by tools/gen.py (value semantics); do not edit by hand. -/

set_option linter.unusedVariables false
set_option linter.unusedSectionVars false

namespace Cglm

variable {α : Type} [Add α] [Sub α] [Mul α] [Div α] [Neg α] [CFloat α]

/-- `glms_translate2d`: include/cglm/struct/affine2d.h:39-44. -/
@[cglm]
def glms_translate2d (m : M3 α) (v : V2 α) : M3 α :=
  glm_translate2d m v

/-- `glms_translate2d_x`: include/cglm/struct/affine2d.h:53-58. -/
@[cglm]
def glms_translate2d_x (m : M3 α) (x : α) : M3 α :=
  glm_translate2d_x m x

/-- `glms_translate2d_y`: include/cglm/struct/affine2d.h:67-72. -/
@[cglm]
def glms_translate2d_y (m : M3 α) (y : α) : M3 α :=
  glm_translate2d_y m y

/-- `glms_translate2d_make`: include/cglm/struct/affine2d.h:80-86. -/
@[cglm]
def glms_translate2d_make (v : V2 α) : M3 α :=
  glm_translate2d_make v

/-- `glms_scale2d_make`: include/cglm/struct/affine2d.h:94-100. -/
@[cglm]
def glms_scale2d_make (v : V2 α) : M3 α :=
  glm_scale2d_make v

/-- `glms_scale2d`: include/cglm/struct/affine2d.h:110-116. -/
@[cglm]
def glms_scale2d (m : M3 α) (v : V2 α) : M3 α :=
  glm_scale2d_to m v

/-- `glms_scale2d_uni`: include/cglm/struct/affine2d.h:126-131. -/
@[cglm]
def glms_scale2d_uni (m : M3 α) (s : α) : M3 α :=
  glm_scale2d_uni m s

/-- `glms_rotate2d_make`: include/cglm/struct/affine2d.h:141-147. -/
@[cglm]
def glms_rotate2d_make (angle : α) : M3 α :=
  glm_rotate2d_make angle

/-- `glms_rotate2d`: include/cglm/struct/affine2d.h:156-161. -/
@[cglm]
def glms_rotate2d (m : M3 α) (angle : α) : M3 α :=
  glm_rotate2d m angle

/-- `glms_rotate2d_to`: include/cglm/struct/affine2d.h:170-175. -/
@[cglm]
def glms_rotate2d_to (m : M3 α) (angle : α) : M3 α :=
  glm_rotate2d m angle

end Cglm

end StructAffine2d

section StructAffineMat

/- Generated from include/cglm/struct/affine-mat.h by tools/gen.py (value semantics); do not edit by hand. -/

set_option linter.unusedVariables false
set_option linter.unusedSectionVars false

namespace Cglm

variable {α : Type} [Add α] [Sub α] [Mul α] [Div α] [Neg α] [CFloat α]

/-- `glms_mul`: include/cglm/struct/affine-mat.h:41-47. -/
@[cglm]
def glms_mul (m1 : M4 α) (m2 : M4 α) : M4 α :=
  glm_mul m1 m2

/-- `glms_mul_rot`: include/cglm/struct/affine-mat.h:65-71. -/
@[cglm]
def glms_mul_rot (m1 : M4 α) (m2 : M4 α) : M4 α :=
  glm_mul_rot m1 m2

/-- `glms_inv_tr`: include/cglm/struct/affine-mat.h:84-89. -/
@[cglm]
def glms_inv_tr (m : M4 α) : M4 α :=
  glm_inv_tr m

end Cglm

end StructAffineMat

section StructAffinePost

/- Generated from include/cglm/struct/affine-post.h by tools/gen.py (value semantics); do not edit by hand. -/

set_option linter.unusedVariables false
set_option linter.unusedSectionVars false

namespace Cglm

variable {α : Type} [Add α] [Sub α] [Mul α] [Div α] [Neg α] [CFloat α]

/-- `glms_translated`: include/cglm/struct/affine-post.h:40-45. -/
@[cglm]
def glms_translated (m : M4 α) (v : V3 α) : M4 α :=
  glm_translated m v

/-- `glms_translated_x`: include/cglm/struct/affine-post.h:54-59. -/
@[cglm]
def glms_translated_x (m : M4 α) (x : α) : M4 α :=
  glm_translated_x m x

/-- `glms_translated_y`: include/cglm/struct/affine-post.h:68-73. -/
@[cglm]
def glms_translated_y (m : M4 α) (y : α) : M4 α :=
  glm_translated_y m y

/-- `glms_translated_z`: include/cglm/struct/affine-post.h:82-87. -/
@[cglm]
def glms_translated_z (m : M4 α) (z : α) : M4 α :=
  glm_translated_z m z

/-- `glms_rotated_x`: include/cglm/struct/affine-post.h:97-103. -/
@[cglm]
def glms_rotated_x (m : M4 α) (angle : α) : M4 α :=
  glm_rotated_x m angle

/-- `glms_rotated_y`: include/cglm/struct/affine-post.h:113-119. -/
@[cglm]
def glms_rotated_y (m : M4 α) (angle : α) : M4 α :=
  glm_rotated_y m angle

/-- `glms_rotated_z`: include/cglm/struct/affine-post.h:129-135. -/
@[cglm]
def glms_rotated_z (m : M4 α) (angle : α) : M4 α :=
  glm_rotated_z m angle

/-- `glms_rotated`: include/cglm/struct/affine-post.h:145-150. -/
@[cglm]
def glms_rotated (m : M4 α) (angle : α) (axis : V3 α) : M4 α :=
  glm_rotated m angle axis

/-- `glms_rotated_at`: include/cglm/struct/affine-post.h:162-167. -/
@[cglm]
def glms_rotated_at (m : M4 α) (pivot : V3 α) (angle : α) (axis : V3 α) : M4 α :=
  glm_rotated_at m pivot angle axis

/-- `glms_spinned`: include/cglm/struct/affine-post.h:177-182. -/
@[cglm]
def glms_spinned (m : M4 α) (angle : α) (axis : V3 α) : M4 α :=
  glm_spinned m angle axis

end Cglm

end StructAffinePost

section StructAffinePre

/- Generated from include/cglm/struct/affine-pre.h by tools/gen.py (value semantics); do not edit by hand. -/

set_option linter.unusedVariables false
set_option linter.unusedSectionVars false

namespace Cglm

variable {α : Type} [Add α] [Sub α] [Mul α] [Div α] [Neg α] [CFloat α]

/-- `glms_translate`: include/cglm/struct/affine-pre.h:40-45. -/
@[cglm]
def glms_translate (m : M4 α) (v : V3 α) : M4 α :=
  glm_translate m v

/-- `glms_translate_x`: include/cglm/struct/affine-pre.h:54-59. -/
@[cglm]
def glms_translate_x (m : M4 α) (x : α) : M4 α :=
  glm_translate_x m x

/-- `glms_translate_y`: include/cglm/struct/affine-pre.h:68-73. -/
@[cglm]
def glms_translate_y (m : M4 α) (y : α) : M4 α :=
  glm_translate_y m y

/-- `glms_translate_z`: include/cglm/struct/affine-pre.h:82-87. -/
@[cglm]
def glms_translate_z (m : M4 α) (z : α) : M4 α :=
  glm_translate_z m z

/-- `glms_rotate_x`: include/cglm/struct/affine-pre.h:97-103. -/
@[cglm]
def glms_rotate_x (m : M4 α) (angle : α) : M4 α :=
  glm_rotate_x m angle

/-- `glms_rotate_y`: include/cglm/struct/affine-pre.h:113-119. -/
@[cglm]
def glms_rotate_y (m : M4 α) (angle : α) : M4 α :=
  glm_rotate_y m angle

/-- `glms_rotate_z`: include/cglm/struct/affine-pre.h:129-135. -/
@[cglm]
def glms_rotate_z (m : M4 α) (angle : α) : M4 α :=
  glm_rotate_z m angle

/-- `glms_rotate`: include/cglm/struct/affine-pre.h:145-150. -/
@[cglm]
def glms_rotate (m : M4 α) (angle : α) (axis : V3 α) : M4 α :=
  glm_rotate m angle axis

/-- `glms_rotate_at`: include/cglm/struct/affine-pre.h:162-167. -/
@[cglm]
def glms_rotate_at (m : M4 α) (pivot : V3 α) (angle : α) (axis : V3 α) : M4 α :=
  glm_rotate_at m pivot angle axis

/-- `glms_spin`: include/cglm/struct/affine-pre.h:177-182. -/
@[cglm]
def glms_spin (m : M4 α) (angle : α) (axis : V3 α) : M4 α :=
  glm_spin m angle axis

end Cglm

end StructAffinePre

section StructClipspaceOrthoRhNo

/- Generated from include/cglm/struct/clipspace/ortho_rh_no.h by tools/gen.py (value semantics); do not edit by hand. -/

set_option linter.unusedVariables false
set_option linter.unusedSectionVars false

namespace Cglm

variable {α : Type} [Add α] [Sub α] [Mul α] [Div α] [Neg α] [CFloat α]

/-- `glms_ortho_rh_no`: include/cglm/struct/clipspace/ortho_rh_no.h:43-51. -/
@[cglm]
def glms_ortho_rh_no (left : α) (right : α) (bottom : α) (top : α) (nearZ : α) (farZ : α) : M4 α :=
  glm_ortho_rh_no left right bottom top nearZ farZ

/-- `glms_ortho_aabb_rh_no`: include/cglm/struct/clipspace/ortho_rh_no.h:63-73. -/
@[cglm]
def glms_ortho_aabb_rh_no (box : M2x3 α) : M4 α :=
  glm_ortho_aabb_rh_no box

/-- `glms_ortho_aabb_p_rh_no`: include/cglm/struct/clipspace/ortho_rh_no.h:86-96. -/
@[cglm]
def glms_ortho_aabb_p_rh_no (box : M2x3 α) (padding : α) : M4 α :=
  glm_ortho_aabb_p_rh_no box padding

/-- `glms_ortho_aabb_pz_rh_no`: include/cglm/struct/clipspace/ortho_rh_no.h:109-119. -/
@[cglm]
def glms_ortho_aabb_pz_rh_no (box : M2x3 α) (padding : α) : M4 α :=
  glm_ortho_aabb_pz_rh_no box padding

/-- `glms_ortho_default_rh_no`: include/cglm/struct/clipspace/ortho_rh_no.h:129-135. -/
@[cglm]
def glms_ortho_default_rh_no (aspect : α) : M4 α :=
  glm_ortho_default_rh_no aspect

/-- `glms_ortho_default_s_rh_no`: include/cglm/struct/clipspace/ortho_rh_no.h:146-152. -/
@[cglm]
def glms_ortho_default_s_rh_no (aspect : α) (size : α) : M4 α :=
  glm_ortho_default_s_rh_no aspect size

end Cglm

end StructClipspaceOrthoRhNo

section StructClipspacePerspRhNo

/- Generated from include/cglm/struct/clipspace/persp_rh_no.h by tools/gen.py (value semantics); do not edit by hand. -/

set_option linter.unusedVariables false
set_option linter.unusedSectionVars false

namespace Cglm

variable {α : Type} [Add α] [Sub α] [Mul α] [Div α] [Neg α] [CFloat α]

/-- `glms_frustum_rh_no`: include/cglm/struct/clipspace/persp_rh_no.h:57-65. -/
@[cglm]
def glms_frustum_rh_no (left : α) (right : α) (bottom : α) (top : α) (nearZ : α) (farZ : α) : M4 α :=
  glm_frustum_rh_no left right bottom top nearZ farZ

/-- `glms_perspective_rh_no`: include/cglm/struct/clipspace/persp_rh_no.h:78-84. -/
@[cglm]
def glms_perspective_rh_no (fovy : α) (aspect : α) (nearZ : α) (farZ : α) : M4 α :=
  glm_perspective_rh_no fovy aspect nearZ farZ

/-- `glms_persp_move_far_rh_no`: include/cglm/struct/clipspace/persp_rh_no.h:100-107. -/
@[cglm]
def glms_persp_move_far_rh_no (proj : M4 α) (deltaFar : α) : M4 α :=
  glm_persp_move_far_rh_no proj deltaFar

/-- `glms_perspective_default_rh_no`: include/cglm/struct/clipspace/persp_rh_no.h:117-123. -/
@[cglm]
def glms_perspective_default_rh_no (aspect : α) : M4 α :=
  glm_perspective_default_rh_no aspect

/-- `glms_perspective_resize_rh_no`: include/cglm/struct/clipspace/persp_rh_no.h:138-145. -/
@[cglm]
def glms_perspective_resize_rh_no (proj : M4 α) (aspect : α) : M4 α :=
  glm_perspective_resize_rh_no aspect proj

/-- `glms_persp_decomp_rh_no`: include/cglm/struct/clipspace/persp_rh_no.h:160-167. -/
@[cglm]
def glms_persp_decomp_rh_no (proj : M4 α) : α × α × α × α × α × α :=
  let r := glm_persp_decomp_rh_no proj
  (r.1, r.2.1, r.2.2.1, r.2.2.2.1, r.2.2.2.2.1, r.2.2.2.2.2)

/-- `glms_persp_decompv_rh_no`: include/cglm/struct/clipspace/persp_rh_no.h:178-182. -/
@[cglm]
def glms_persp_decompv_rh_no (proj : M4 α) : V6 α :=
  glm_persp_decompv_rh_no proj

/-- `glms_persp_decomp_x_rh_no`: include/cglm/struct/clipspace/persp_rh_no.h:194-200. -/
@[cglm]
def glms_persp_decomp_x_rh_no (proj : M4 α) : α × α :=
  let r := glm_persp_decomp_x_rh_no proj
  (r.1, r.2)

/-- `glms_persp_decomp_y_rh_no`: include/cglm/struct/clipspace/persp_rh_no.h:212-218. -/
@[cglm]
def glms_persp_decomp_y_rh_no (proj : M4 α) : α × α :=
  let r := glm_persp_decomp_y_rh_no proj
  (r.1, r.2)

/-- `glms_persp_decomp_z_rh_no`: include/cglm/struct/clipspace/persp_rh_no.h:230-236. -/
@[cglm]
def glms_persp_decomp_z_rh_no (proj : M4 α) : α × α :=
  let r := glm_persp_decomp_z_rh_no proj
  (r.1, r.2)

/-- `glms_persp_decomp_far_rh_no`: include/cglm/struct/clipspace/persp_rh_no.h:246-250. -/
@[cglm]
def glms_persp_decomp_far_rh_no (proj : M4 α) : α :=
  glm_persp_decomp_far_rh_no proj

/-- `glms_persp_decomp_near_rh_no`: include/cglm/struct/clipspace/persp_rh_no.h:260-264. -/
@[cglm]
def glms_persp_decomp_near_rh_no (proj : M4 α) : α :=
  glm_persp_decomp_near_rh_no proj

/-- `glms_persp_fovy_rh_no`: include/cglm/struct/clipspace/persp_rh_no.h:276-280. -/
@[cglm]
def glms_persp_fovy_rh_no (proj : M4 α) : α :=
  glm_persp_fovy_rh_no proj

/-- `glms_persp_aspect_rh_no`: include/cglm/struct/clipspace/persp_rh_no.h:289-293. -/
@[cglm]
def glms_persp_aspect_rh_no (proj : M4 α) : α :=
  glm_persp_aspect_rh_no proj

/-- `glms_persp_sizes_rh_no`: include/cglm/struct/clipspace/persp_rh_no.h:304-310. -/
@[cglm]
def glms_persp_sizes_rh_no (proj : M4 α) (fovy : α) : V4 α :=
  glm_persp_sizes_rh_no proj fovy

end Cglm

end StructClipspacePerspRhNo

section StructClipspaceViewRhNo

/- Generated from include/cglm/struct/clipspace/view_rh_no.h by tools/gen.py (value semantics); do not edit by hand. -/

set_option linter.unusedVariables false
set_option linter.unusedSectionVars false

namespace Cglm

variable {α : Type} [Add α] [Sub α] [Mul α] [Div α] [Neg α] [CFloat α]

/-- `glms_lookat_rh_no`: include/cglm/struct/clipspace/view_rh_no.h:37-43. -/
@[cglm]
def glms_lookat_rh_no (eye : V3 α) (center : V3 α) (up : V3 α) : M4 α :=
  glm_lookat_rh_no eye center up

/-- `glms_look_rh_no`: include/cglm/struct/clipspace/view_rh_no.h:61-67. -/
@[cglm]
def glms_look_rh_no (eye : V3 α) (dir : V3 α) (up : V3 α) : M4 α :=
  glm_look_rh_no eye dir up

/-- `glms_look_anyup_rh_no`: include/cglm/struct/clipspace/view_rh_no.h:81-87. -/
@[cglm]
def glms_look_anyup_rh_no (eye : V3 α) (dir : V3 α) : M4 α :=
  glm_look_anyup_rh_no eye dir

end Cglm

end StructClipspaceViewRhNo

section StructCam

/- Generated from include/cglm/struct/cam.h by tools/gen.py (value semantics); do not edit by hand. -/

set_option linter.unusedVariables false
set_option linter.unusedSectionVars false

namespace Cglm

variable {α : Type} [Add α] [Sub α] [Mul α] [Div α] [Neg α] [CFloat α]

/-- `glms_frustum`: include/cglm/struct/cam.h:98-112. -/
@[cglm]
def glms_frustum (left : α) (right : α) (bottom : α) (top : α) (nearZ : α) (farZ : α) : M4 α :=
  glms_frustum_rh_no left right bottom top nearZ farZ

/-- `glms_ortho`: include/cglm/struct/cam.h:125-139. -/
@[cglm]
def glms_ortho (left : α) (right : α) (bottom : α) (top : α) (nearZ : α) (farZ : α) : M4 α :=
  glms_ortho_rh_no left right bottom top nearZ farZ

/-- `glms_ortho_aabb`: include/cglm/struct/cam.h:149-161. -/
@[cglm]
def glms_ortho_aabb (box : M2x3 α) : M4 α :=
  glms_ortho_aabb_rh_no box

/-- `glms_ortho_aabb_p`: include/cglm/struct/cam.h:172-184. -/
@[cglm]
def glms_ortho_aabb_p (box : M2x3 α) (padding : α) : M4 α :=
  glms_ortho_aabb_p_rh_no box padding

/-- `glms_ortho_aabb_pz`: include/cglm/struct/cam.h:195-207. -/
@[cglm]
def glms_ortho_aabb_pz (box : M2x3 α) (padding : α) : M4 α :=
  glms_ortho_aabb_pz_rh_no box padding

/-- `glms_ortho_default`: include/cglm/struct/cam.h:215-227. -/
@[cglm]
def glms_ortho_default (aspect : α) : M4 α :=
  glms_ortho_default_rh_no aspect

/-- `glms_ortho_default_s`: include/cglm/struct/cam.h:236-248. -/
@[cglm]
def glms_ortho_default_s (aspect : α) (size : α) : M4 α :=
  glms_ortho_default_s_rh_no aspect size

/-- `glms_perspective`: include/cglm/struct/cam.h:259-271. -/
@[cglm]
def glms_perspective (fovy : α) (aspect : α) (nearZ : α) (farZ : α) : M4 α :=
  glms_perspective_rh_no fovy aspect nearZ farZ

/-- `glms_persp_move_far`: include/cglm/struct/cam.h:285-297. -/
@[cglm]
def glms_persp_move_far (proj : M4 α) (deltaFar : α) : M4 α :=
  glms_persp_move_far_rh_no proj deltaFar

/-- `glms_perspective_default`: include/cglm/struct/cam.h:306-318. -/
@[cglm]
def glms_perspective_default (aspect : α) : M4 α :=
  glms_perspective_default_rh_no aspect

/-- `glms_perspective_resize`: include/cglm/struct/cam.h:332-344. -/
@[cglm]
def glms_perspective_resize (proj : M4 α) (aspect : α) : M4 α :=
  glms_perspective_resize_rh_no proj aspect

/-- `glms_lookat`: include/cglm/struct/cam.h:357-369. -/
@[cglm]
def glms_lookat (eye : V3 α) (center : V3 α) (up : V3 α) : M4 α :=
  glms_lookat_rh_no eye center up

/-- `glms_look`: include/cglm/struct/cam.h:385-397. -/
@[cglm]
def glms_look (eye : V3 α) (dir : V3 α) (up : V3 α) : M4 α :=
  glms_look_rh_no eye dir up

/-- `glms_look_anyup`: include/cglm/struct/cam.h:409-421. -/
@[cglm]
def glms_look_anyup (eye : V3 α) (dir : V3 α) : M4 α :=
  glms_look_anyup_rh_no eye dir

/-- `glms_persp_decomp`: include/cglm/struct/cam.h:434-449. -/
@[cglm]
def glms_persp_decomp (proj : M4 α) : α × α × α × α × α × α :=
  let r := glms_persp_decomp_rh_no proj
  (r.1, r.2.1, r.2.2.1, r.2.2.2.1, r.2.2.2.2.1, r.2.2.2.2.2)

/-- `glms_persp_decompv`: include/cglm/struct/cam.h:458-470. -/
@[cglm]
def glms_persp_decompv (proj : M4 α) : V6 α :=
  glms_persp_decompv_rh_no proj

/-- `glms_persp_decomp_x`: include/cglm/struct/cam.h:480-494. -/
@[cglm]
def glms_persp_decomp_x (proj : M4 α) : α × α :=
  let r := glms_persp_decomp_x_rh_no proj
  (r.1, r.2)

/-- `glms_persp_decomp_y`: include/cglm/struct/cam.h:504-518. -/
@[cglm]
def glms_persp_decomp_y (proj : M4 α) : α × α :=
  let r := glms_persp_decomp_y_rh_no proj
  (r.1, r.2)

/-- `glms_persp_decomp_z`: include/cglm/struct/cam.h:528-542. -/
@[cglm]
def glms_persp_decomp_z (proj : M4 α) : α × α :=
  let r := glms_persp_decomp_z_rh_no proj
  (r.1, r.2)

/-- `glms_persp_decomp_far`: include/cglm/struct/cam.h:550-562. -/
@[cglm]
def glms_persp_decomp_far (proj : M4 α) : α :=
  glms_persp_decomp_far_rh_no proj

/-- `glms_persp_decomp_near`: include/cglm/struct/cam.h:570-582. -/
@[cglm]
def glms_persp_decomp_near (proj : M4 α) : α :=
  glms_persp_decomp_near_rh_no proj

/-- `glms_persp_fovy`: include/cglm/struct/cam.h:592-604. -/
@[cglm]
def glms_persp_fovy (proj : M4 α) : α :=
  glms_persp_fovy_rh_no proj

/-- `glms_persp_aspect`: include/cglm/struct/cam.h:611-623. -/
@[cglm]
def glms_persp_aspect (proj : M4 α) : α :=
  glms_persp_aspect_rh_no proj

/-- `glms_persp_sizes`: include/cglm/struct/cam.h:632-644. -/
@[cglm]
def glms_persp_sizes (proj : M4 α) (fovy : α) : V4 α :=
  glms_persp_sizes_rh_no proj fovy

end Cglm

end StructCam

section StructClipspaceOrthoLhNo

/- Generated from include/cglm/struct/clipspace/ortho_lh_no.h by tools/gen.py (value semantics); do not edit by hand. -/

set_option linter.unusedVariables false
set_option linter.unusedSectionVars false

namespace Cglm

variable {α : Type} [Add α] [Sub α] [Mul α] [Div α] [Neg α] [CFloat α]

/-- `glms_ortho_lh_no`: include/cglm/struct/clipspace/ortho_lh_no.h:43-51. -/
@[cglm]
def glms_ortho_lh_no (left : α) (right : α) (bottom : α) (top : α) (nearZ : α) (farZ : α) : M4 α :=
  glm_ortho_lh_no left right bottom top nearZ farZ

/-- `glms_ortho_aabb_lh_no`: include/cglm/struct/clipspace/ortho_lh_no.h:63-73. -/
@[cglm]
def glms_ortho_aabb_lh_no (box : M2x3 α) : M4 α :=
  glm_ortho_aabb_lh_no box

/-- `glms_ortho_aabb_p_lh_no`: include/cglm/struct/clipspace/ortho_lh_no.h:86-96. -/
@[cglm]
def glms_ortho_aabb_p_lh_no (box : M2x3 α) (padding : α) : M4 α :=
  glm_ortho_aabb_p_lh_no box padding

/-- `glms_ortho_aabb_pz_lh_no`: include/cglm/struct/clipspace/ortho_lh_no.h:109-119. -/
@[cglm]
def glms_ortho_aabb_pz_lh_no (box : M2x3 α) (padding : α) : M4 α :=
  glm_ortho_aabb_pz_lh_no box padding

/-- `glms_ortho_default_lh_no`: include/cglm/struct/clipspace/ortho_lh_no.h:129-135. -/
@[cglm]
def glms_ortho_default_lh_no (aspect : α) : M4 α :=
  glm_ortho_default_lh_no aspect

/-- `glms_ortho_default_s_lh_no`: include/cglm/struct/clipspace/ortho_lh_no.h:146-152. -/
@[cglm]
def glms_ortho_default_s_lh_no (aspect : α) (size : α) : M4 α :=
  glm_ortho_default_s_lh_no aspect size

end Cglm

end StructClipspaceOrthoLhNo

section StructClipspaceOrthoLhZo

/- Generated from include/cglm/struct/clipspace/ortho_lh_zo.h by tools/gen.py (value semantics); do not edit by hand. -/

set_option linter.unusedVariables false
set_option linter.unusedSectionVars false

namespace Cglm

variable {α : Type} [Add α] [Sub α] [Mul α] [Div α] [Neg α] [CFloat α]

/-- `glms_ortho_lh_zo`: include/cglm/struct/clipspace/ortho_lh_zo.h:43-51. -/
@[cglm]
def glms_ortho_lh_zo (left : α) (right : α) (bottom : α) (top : α) (nearZ : α) (farZ : α) : M4 α :=
  glm_ortho_lh_zo left right bottom top nearZ farZ

/-- `glms_ortho_aabb_lh_zo`: include/cglm/struct/clipspace/ortho_lh_zo.h:63-73. -/
@[cglm]
def glms_ortho_aabb_lh_zo (box : M2x3 α) : M4 α :=
  glm_ortho_aabb_lh_zo box

/-- `glms_ortho_aabb_p_lh_zo`: include/cglm/struct/clipspace/ortho_lh_zo.h:86-96. -/
@[cglm]
def glms_ortho_aabb_p_lh_zo (box : M2x3 α) (padding : α) : M4 α :=
  glm_ortho_aabb_p_lh_zo box padding

/-- `glms_ortho_aabb_pz_lh_zo`: include/cglm/struct/clipspace/ortho_lh_zo.h:109-119. -/
@[cglm]
def glms_ortho_aabb_pz_lh_zo (box : M2x3 α) (padding : α) : M4 α :=
  glm_ortho_aabb_pz_lh_zo box padding

/-- `glms_ortho_default_lh_zo`: include/cglm/struct/clipspace/ortho_lh_zo.h:129-135. -/
@[cglm]
def glms_ortho_default_lh_zo (aspect : α) : M4 α :=
  glm_ortho_default_lh_zo aspect

/-- `glms_ortho_default_s_lh_zo`: include/cglm/struct/clipspace/ortho_lh_zo.h:146-152. -/
@[cglm]
def glms_ortho_default_s_lh_zo (aspect : α) (size : α) : M4 α :=
  glm_ortho_default_s_lh_zo aspect size

end Cglm

end StructClipspaceOrthoLhZo

section StructClipspaceOrthoRhZo

/- Generated from include/cglm/struct/clipspace/ortho_rh_zo.h by tools/gen.py (value semantics); do not edit by hand. -/

set_option linter.unusedVariables false
set_option linter.unusedSectionVars false

namespace Cglm

variable {α : Type} [Add α] [Sub α] [Mul α] [Div α] [Neg α] [CFloat α]

/-- `glms_ortho_rh_zo`: include/cglm/struct/clipspace/ortho_rh_zo.h:43-51. -/
@[cglm]
def glms_ortho_rh_zo (left : α) (right : α) (bottom : α) (top : α) (nearZ : α) (farZ : α) : M4 α :=
  glm_ortho_rh_zo left right bottom top nearZ farZ

/-- `glms_ortho_aabb_rh_zo`: include/cglm/struct/clipspace/ortho_rh_zo.h:63-73. -/
@[cglm]
def glms_ortho_aabb_rh_zo (box : M2x3 α) : M4 α :=
  glm_ortho_aabb_rh_zo box

/-- `glms_ortho_aabb_p_rh_zo`: include/cglm/struct/clipspace/ortho_rh_zo.h:86-96. -/
@[cglm]
def glms_ortho_aabb_p_rh_zo (box : M2x3 α) (padding : α) : M4 α :=
  glm_ortho_aabb_p_rh_zo box padding

/-- `glms_ortho_aabb_pz_rh_zo`: include/cglm/struct/clipspace/ortho_rh_zo.h:109-119. -/
@[cglm]
def glms_ortho_aabb_pz_rh_zo (box : M2x3 α) (padding : α) : M4 α :=
  glm_ortho_aabb_pz_rh_zo box padding

/-- `glms_ortho_default_rh_zo`: include/cglm/struct/clipspace/ortho_rh_zo.h:129-135. -/
@[cglm]
def glms_ortho_default_rh_zo (aspect : α) : M4 α :=
  glm_ortho_default_rh_zo aspect

/-- `glms_ortho_default_s_rh_zo`: include/cglm/struct/clipspace/ortho_rh_zo.h:146-152. -/
@[cglm]
def glms_ortho_default_s_rh_zo (aspect : α) (size : α) : M4 α :=
  glm_ortho_default_s_rh_zo aspect size

end Cglm

end StructClipspaceOrthoRhZo

section StructClipspacePerspLhNo

/- Generated from include/cglm/struct/clipspace/persp_lh_no.h by tools/gen.py (value semantics); do not edit by hand. -/

set_option linter.unusedVariables false
set_option linter.unusedSectionVars false

namespace Cglm

variable {α : Type} [Add α] [Sub α] [Mul α] [Div α] [Neg α] [CFloat α]

/-- `glms_frustum_lh_no`: include/cglm/struct/clipspace/persp_lh_no.h:57-65. -/
@[cglm]
def glms_frustum_lh_no (left : α) (right : α) (bottom : α) (top : α) (nearZ : α) (farZ : α) : M4 α :=
  glm_frustum_lh_no left right bottom top nearZ farZ

/-- `glms_perspective_lh_no`: include/cglm/struct/clipspace/persp_lh_no.h:78-84. -/
@[cglm]
def glms_perspective_lh_no (fovy : α) (aspect : α) (nearZ : α) (farZ : α) : M4 α :=
  glm_perspective_lh_no fovy aspect nearZ farZ

/-- `glms_persp_move_far_lh_no`: include/cglm/struct/clipspace/persp_lh_no.h:100-107. -/
@[cglm]
def glms_persp_move_far_lh_no (proj : M4 α) (deltaFar : α) : M4 α :=
  glm_persp_move_far_lh_no proj deltaFar

/-- `glms_perspective_default_lh_no`: include/cglm/struct/clipspace/persp_lh_no.h:117-123. -/
@[cglm]
def glms_perspective_default_lh_no (aspect : α) : M4 α :=
  glm_perspective_default_lh_no aspect

/-- `glms_perspective_resize_lh_no`: include/cglm/struct/clipspace/persp_lh_no.h:138-145. -/
@[cglm]
def glms_perspective_resize_lh_no (proj : M4 α) (aspect : α) : M4 α :=
  glm_perspective_resize_lh_no aspect proj

/-- `glms_persp_decomp_lh_no`: include/cglm/struct/clipspace/persp_lh_no.h:160-167. -/
@[cglm]
def glms_persp_decomp_lh_no (proj : M4 α) : α × α × α × α × α × α :=
  let r := glm_persp_decomp_lh_no proj
  (r.1, r.2.1, r.2.2.1, r.2.2.2.1, r.2.2.2.2.1, r.2.2.2.2.2)

/-- `glms_persp_decompv_lh_no`: include/cglm/struct/clipspace/persp_lh_no.h:178-182. -/
@[cglm]
def glms_persp_decompv_lh_no (proj : M4 α) : V6 α :=
  glm_persp_decompv_lh_no proj

/-- `glms_persp_decomp_x_lh_no`: include/cglm/struct/clipspace/persp_lh_no.h:194-200. -/
@[cglm]
def glms_persp_decomp_x_lh_no (proj : M4 α) : α × α :=
  let r := glm_persp_decomp_x_lh_no proj
  (r.1, r.2)

/-- `glms_persp_decomp_y_lh_no`: include/cglm/struct/clipspace/persp_lh_no.h:212-218. -/
@[cglm]
def glms_persp_decomp_y_lh_no (proj : M4 α) : α × α :=
  let r := glm_persp_decomp_y_lh_no proj
  (r.1, r.2)

/-- `glms_persp_decomp_z_lh_no`: include/cglm/struct/clipspace/persp_lh_no.h:230-236. -/
@[cglm]
def glms_persp_decomp_z_lh_no (proj : M4 α) : α × α :=
  let r := glm_persp_decomp_z_lh_no proj
  (r.1, r.2)

/-- `glms_persp_decomp_far_lh_no`: include/cglm/struct/clipspace/persp_lh_no.h:246-250. -/
@[cglm]
def glms_persp_decomp_far_lh_no (proj : M4 α) : α :=
  glm_persp_decomp_far_lh_no proj

/-- `glms_persp_decomp_near_lh_no`: include/cglm/struct/clipspace/persp_lh_no.h:260-264. -/
@[cglm]
def glms_persp_decomp_near_lh_no (proj : M4 α) : α :=
  glm_persp_decomp_near_lh_no proj

/-- `glms_persp_fovy_lh_no`: include/cglm/struct/clipspace/persp_lh_no.h:276-280. -/
@[cglm]
def glms_persp_fovy_lh_no (proj : M4 α) : α :=
  glm_persp_fovy_lh_no proj

/-- `glms_persp_aspect_lh_no`: include/cglm/struct/clipspace/persp_lh_no.h:289-293. -/
@[cglm]
def glms_persp_aspect_lh_no (proj : M4 α) : α :=
  glm_persp_aspect_lh_no proj

/-- `glms_persp_sizes_lh_no`: include/cglm/struct/clipspace/persp_lh_no.h:304-310. -/
@[cglm]
def glms_persp_sizes_lh_no (proj : M4 α) (fovy : α) : V4 α :=
  glm_persp_sizes_lh_no proj fovy

end Cglm

end StructClipspacePerspLhNo

section StructClipspacePerspLhZo

/- Generated from include/cglm/struct/clipspace/persp_lh_zo.h by tools/gen.py (value semantics); do not edit by hand. -/

set_option linter.unusedVariables false
set_option linter.unusedSectionVars false

namespace Cglm

variable {α : Type} [Add α] [Sub α] [Mul α] [Div α] [Neg α] [CFloat α]

/-- `glms_frustum_lh_zo`: include/cglm/struct/clipspace/persp_lh_zo.h:57-65. -/
@[cglm]
def glms_frustum_lh_zo (left : α) (right : α) (bottom : α) (top : α) (nearZ : α) (farZ : α) : M4 α :=
  glm_frustum_lh_zo left right bottom top nearZ farZ

/-- `glms_perspective_lh_zo`: include/cglm/struct/clipspace/persp_lh_zo.h:78-84. -/
@[cglm]
def glms_perspective_lh_zo (fovy : α) (aspect : α) (nearZ : α) (farZ : α) : M4 α :=
  glm_perspective_lh_zo fovy aspect nearZ farZ

/-- `glms_persp_move_far_lh_zo`: include/cglm/struct/clipspace/persp_lh_zo.h:100-107. -/
@[cglm]
def glms_persp_move_far_lh_zo (proj : M4 α) (deltaFar : α) : M4 α :=
  glm_persp_move_far_lh_zo proj deltaFar

/-- `glms_perspective_default_lh_zo`: include/cglm/struct/clipspace/persp_lh_zo.h:117-123. -/
@[cglm]
def glms_perspective_default_lh_zo (aspect : α) : M4 α :=
  glm_perspective_default_lh_zo aspect

/-- `glms_perspective_resize_lh_zo`: include/cglm/struct/clipspace/persp_lh_zo.h:138-145. -/
@[cglm]
def glms_perspective_resize_lh_zo (proj : M4 α) (aspect : α) : M4 α :=
  glm_perspective_resize_lh_zo aspect proj

/-- `glms_persp_decomp_lh_zo`: include/cglm/struct/clipspace/persp_lh_zo.h:160-167. -/
@[cglm]
def glms_persp_decomp_lh_zo (proj : M4 α) : α × α × α × α × α × α :=
  let r := glm_persp_decomp_lh_zo proj
  (r.1, r.2.1, r.2.2.1, r.2.2.2.1, r.2.2.2.2.1, r.2.2.2.2.2)

/-- `glms_persp_decompv_lh_zo`: include/cglm/struct/clipspace/persp_lh_zo.h:178-182. -/
@[cglm]
def glms_persp_decompv_lh_zo (proj : M4 α) : V6 α :=
  glm_persp_decompv_lh_zo proj

/-- `glms_persp_decomp_x_lh_zo`: include/cglm/struct/clipspace/persp_lh_zo.h:194-200. -/
@[cglm]
def glms_persp_decomp_x_lh_zo (proj : M4 α) : α × α :=
  let r := glm_persp_decomp_x_lh_zo proj
  (r.1, r.2)

/-- `glms_persp_decomp_y_lh_zo`: include/cglm/struct/clipspace/persp_lh_zo.h:212-218. -/
@[cglm]
def glms_persp_decomp_y_lh_zo (proj : M4 α) : α × α :=
  let r := glm_persp_decomp_y_lh_zo proj
  (r.1, r.2)

/-- `glms_persp_decomp_z_lh_zo`: include/cglm/struct/clipspace/persp_lh_zo.h:230-236. -/
@[cglm]
def glms_persp_decomp_z_lh_zo (proj : M4 α) : α × α :=
  let r := glm_persp_decomp_z_lh_zo proj
  (r.1, r.2)

/-- `glms_persp_decomp_far_lh_zo`: include/cglm/struct/clipspace/persp_lh_zo.h:246-250. -/
@[cglm]
def glms_persp_decomp_far_lh_zo (proj : M4 α) : α :=
  glm_persp_decomp_far_lh_zo proj

/-- `glms_persp_decomp_near_lh_zo`: include/cglm/struct/clipspace/persp_lh_zo.h:260-264. -/
@[cglm]
def glms_persp_decomp_near_lh_zo (proj : M4 α) : α :=
  glm_persp_decomp_near_lh_zo proj

/-- `glms_persp_fovy_lh_zo`: include/cglm/struct/clipspace/persp_lh_zo.h:276-280. -/
@[cglm]
def glms_persp_fovy_lh_zo (proj : M4 α) : α :=
  glm_persp_fovy_lh_zo proj

/-- `glms_persp_aspect_lh_zo`: include/cglm/struct/clipspace/persp_lh_zo.h:289-293. -/
@[cglm]
def glms_persp_aspect_lh_zo (proj : M4 α) : α :=
  glm_persp_aspect_lh_zo proj

/-- `glms_persp_sizes_lh_zo`: include/cglm/struct/clipspace/persp_lh_zo.h:304-310. -/
@[cglm]
def glms_persp_sizes_lh_zo (proj : M4 α) (fovy : α) : V4 α :=
  glm_persp_sizes_lh_zo proj fovy

end Cglm

end StructClipspacePerspLhZo

section StructClipspacePerspRhZo

/- Generated from include/cglm/struct/clipspace/persp_rh_zo.h by tools/gen.py (value semantics); do not edit by hand. -/

set_option linter.unusedVariables false
set_option linter.unusedSectionVars false

namespace Cglm

variable {α : Type} [Add α] [Sub α] [Mul α] [Div α] [Neg α] [CFloat α]

/-- `glms_frustum_rh_zo`: include/cglm/struct/clipspace/persp_rh_zo.h:57-65. -/
@[cglm]
def glms_frustum_rh_zo (left : α) (right : α) (bottom : α) (top : α) (nearZ : α) (farZ : α) : M4 α :=
  glm_frustum_rh_zo left right bottom top nearZ farZ

/-- `glms_perspective_rh_zo`: include/cglm/struct/clipspace/persp_rh_zo.h:78-84. -/
@[cglm]
def glms_perspective_rh_zo (fovy : α) (aspect : α) (nearZ : α) (farZ : α) : M4 α :=
  glm_perspective_rh_zo fovy aspect nearZ farZ

/-- `glms_persp_move_far_rh_zo`: include/cglm/struct/clipspace/persp_rh_zo.h:100-107. -/
@[cglm]
def glms_persp_move_far_rh_zo (proj : M4 α) (deltaFar : α) : M4 α :=
  glm_persp_move_far_rh_zo proj deltaFar

/-- `glms_perspective_default_rh_zo`: include/cglm/struct/clipspace/persp_rh_zo.h:117-123. -/
@[cglm]
def glms_perspective_default_rh_zo (aspect : α) : M4 α :=
  glm_perspective_default_rh_zo aspect

/-- `glms_perspective_resize_rh_zo`: include/cglm/struct/clipspace/persp_rh_zo.h:138-145. -/
@[cglm]
def glms_perspective_resize_rh_zo (proj : M4 α) (aspect : α) : M4 α :=
  glm_perspective_resize_rh_zo aspect proj

/-- `glms_persp_decomp_rh_zo`: include/cglm/struct/clipspace/persp_rh_zo.h:160-167. -/
@[cglm]
def glms_persp_decomp_rh_zo (proj : M4 α) : α × α × α × α × α × α :=
  let r := glm_persp_decomp_rh_zo proj
  (r.1, r.2.1, r.2.2.1, r.2.2.2.1, r.2.2.2.2.1, r.2.2.2.2.2)

/-- `glms_persp_decompv_rh_zo`: include/cglm/struct/clipspace/persp_rh_zo.h:178-182. -/
@[cglm]
def glms_persp_decompv_rh_zo (proj : M4 α) : V6 α :=
  glm_persp_decompv_rh_zo proj

/-- `glms_persp_decomp_x_rh_zo`: include/cglm/struct/clipspace/persp_rh_zo.h:194-200. -/
@[cglm]
def glms_persp_decomp_x_rh_zo (proj : M4 α) : α × α :=
  let r := glm_persp_decomp_x_rh_zo proj
  (r.1, r.2)

/-- `glms_persp_decomp_y_rh_zo`: include/cglm/struct/clipspace/persp_rh_zo.h:212-218. -/
@[cglm]
def glms_persp_decomp_y_rh_zo (proj : M4 α) : α × α :=
  let r := glm_persp_decomp_y_rh_zo proj
  (r.1, r.2)

/-- `glms_persp_decomp_z_rh_zo`: include/cglm/struct/clipspace/persp_rh_zo.h:230-236. -/
@[cglm]
def glms_persp_decomp_z_rh_zo (proj : M4 α) : α × α :=
  let r := glm_persp_decomp_z_rh_zo proj
  (r.1, r.2)

/-- `glms_persp_decomp_far_rh_zo`: include/cglm/struct/clipspace/persp_rh_zo.h:246-250. -/
@[cglm]
def glms_persp_decomp_far_rh_zo (proj : M4 α) : α :=
  glm_persp_decomp_far_rh_zo proj

/-- `glms_persp_decomp_near_rh_zo`: include/cglm/struct/clipspace/persp_rh_zo.h:260-264. -/
@[cglm]
def glms_persp_decomp_near_rh_zo (proj : M4 α) : α :=
  glm_persp_decomp_near_rh_zo proj

/-- `glms_persp_fovy_rh_zo`: include/cglm/struct/clipspace/persp_rh_zo.h:276-280. -/
@[cglm]
def glms_persp_fovy_rh_zo (proj : M4 α) : α :=
  glm_persp_fovy_rh_zo proj

/-- `glms_persp_aspect_rh_zo`: include/cglm/struct/clipspace/persp_rh_zo.h:289-293. -/
@[cglm]
def glms_persp_aspect_rh_zo (proj : M4 α) : α :=
  glm_persp_aspect_rh_zo proj

/-- `glms_persp_sizes_rh_zo`: include/cglm/struct/clipspace/persp_rh_zo.h:304-310. -/
@[cglm]
def glms_persp_sizes_rh_zo (proj : M4 α) (fovy : α) : V4 α :=
  glm_persp_sizes_rh_zo proj fovy

end Cglm

end StructClipspacePerspRhZo

section StructClipspaceProjectNo

/- Generated from include/cglm/struct/clipspace/project_no.h by tools/gen.py (value semantics); do not edit by hand. -/

set_option linter.unusedVariables false
set_option linter.unusedSectionVars false

namespace Cglm

variable {α : Type} [Add α] [Sub α] [Mul α] [Div α] [Neg α] [CFloat α]

/-- `glms_unprojecti_no`: include/cglm/struct/clipspace/project_no.h:51-57. -/
@[cglm]
def glms_unprojecti_no (pos : V3 α) (invMat : M4 α) (vp : V4 α) : V3 α :=
  glm_unprojecti_no pos invMat vp

/-- `glms_project_no`: include/cglm/struct/clipspace/project_no.h:72-78. -/
@[cglm]
def glms_project_no (pos : V3 α) (m : M4 α) (vp : V4 α) : V3 α :=
  glm_project_no pos m vp

/-- `glms_project_z_no`: include/cglm/struct/clipspace/project_no.h:92-96. -/
@[cglm]
def glms_project_z_no (v : V3 α) (m : M4 α) : α :=
  glm_project_z_no v m

end Cglm

end StructClipspaceProjectNo

section StructClipspaceProjectZo

/- Generated from include/cglm/struct/clipspace/project_zo.h by tools/gen.py (value semantics); do not edit by hand. -/

set_option linter.unusedVariables false
set_option linter.unusedSectionVars false

namespace Cglm

variable {α : Type} [Add α] [Sub α] [Mul α] [Div α] [Neg α] [CFloat α]

/-- `glms_unprojecti_zo`: include/cglm/struct/clipspace/project_zo.h:51-57. -/
@[cglm]
def glms_unprojecti_zo (pos : V3 α) (invMat : M4 α) (vp : V4 α) : V3 α :=
  glm_unprojecti_zo pos invMat vp

/-- `glms_project_zo`: include/cglm/struct/clipspace/project_zo.h:72-78. -/
@[cglm]
def glms_project_zo (pos : V3 α) (m : M4 α) (vp : V4 α) : V3 α :=
  glm_project_zo pos m vp

/-- `glms_project_z_zo`: include/cglm/struct/clipspace/project_zo.h:92-96. -/
@[cglm]
def glms_project_z_zo (v : V3 α) (m : M4 α) : α :=
  glm_project_z_zo v m

end Cglm

end StructClipspaceProjectZo

section StructClipspaceViewLhNo

/- Generated from include/cglm/struct/clipspace/view_lh_no.h by tools/gen.py (value semantics); do not edit by hand. -/

set_option linter.unusedVariables false
set_option linter.unusedSectionVars false

namespace Cglm

variable {α : Type} [Add α] [Sub α] [Mul α] [Div α] [Neg α] [CFloat α]

/-- `glms_lookat_lh_no`: include/cglm/struct/clipspace/view_lh_no.h:37-43. -/
@[cglm]
def glms_lookat_lh_no (eye : V3 α) (center : V3 α) (up : V3 α) : M4 α :=
  glm_lookat_lh_no eye center up

/-- `glms_look_lh_no`: include/cglm/struct/clipspace/view_lh_no.h:61-67. -/
@[cglm]
def glms_look_lh_no (eye : V3 α) (dir : V3 α) (up : V3 α) : M4 α :=
  glm_look_lh_no eye dir up

/-- `glms_look_anyup_lh_no`: include/cglm/struct/clipspace/view_lh_no.h:81-87. -/
@[cglm]
def glms_look_anyup_lh_no (eye : V3 α) (dir : V3 α) : M4 α :=
  glm_look_anyup_lh_no eye dir

end Cglm

end StructClipspaceViewLhNo

section StructClipspaceViewLhZo

/- Generated from include/cglm/struct/clipspace/view_lh_zo.h by tools/gen.py (value semantics); do not edit by hand. -/

set_option linter.unusedVariables false
set_option linter.unusedSectionVars false

namespace Cglm

variable {α : Type} [Add α] [Sub α] [Mul α] [Div α] [Neg α] [CFloat α]

/-- `glms_lookat_lh_zo`: include/cglm/struct/clipspace/view_lh_zo.h:37-43. -/
@[cglm]
def glms_lookat_lh_zo (eye : V3 α) (center : V3 α) (up : V3 α) : M4 α :=
  glm_lookat_lh_zo eye center up

/-- `glms_look_lh_zo`: include/cglm/struct/clipspace/view_lh_zo.h:61-67. -/
@[cglm]
def glms_look_lh_zo (eye : V3 α) (dir : V3 α) (up : V3 α) : M4 α :=
  glm_look_lh_zo eye dir up

/-- `glms_look_anyup_lh_zo`: include/cglm/struct/clipspace/view_lh_zo.h:81-87. -/
@[cglm]
def glms_look_anyup_lh_zo (eye : V3 α) (dir : V3 α) : M4 α :=
  glm_look_anyup_lh_zo eye dir

end Cglm

end StructClipspaceViewLhZo

section StructClipspaceViewRhZo

/- Generated from include/cglm/struct/clipspace/view_rh_zo.h by tools/gen.py (value semantics); do not edit by hand. -/

set_option linter.unusedVariables false
set_option linter.unusedSectionVars false

namespace Cglm

variable {α : Type} [Add α] [Sub α] [Mul α] [Div α] [Neg α] [CFloat α]

/-- `glms_lookat_rh_zo`: include/cglm/struct/clipspace/view_rh_zo.h:37-43. -/
@[cglm]
def glms_lookat_rh_zo (eye : V3 α) (center : V3 α) (up : V3 α) : M4 α :=
  glm_lookat_rh_zo eye center up

/-- `glms_look_rh_zo`: include/cglm/struct/clipspace/view_rh_zo.h:61-67. -/
@[cglm]
def glms_look_rh_zo (eye : V3 α) (dir : V3 α) (up : V3 α) : M4 α :=
  glm_look_rh_zo eye dir up

/-- `glms_look_anyup_rh_zo`: include/cglm/struct/clipspace/view_rh_zo.h:81-87. -/
@[cglm]
def glms_look_anyup_rh_zo (eye : V3 α) (dir : V3 α) : M4 α :=
  glm_look_anyup_rh_zo eye dir

end Cglm

end StructClipspaceViewRhZo

section StructProject

/- Generated from include/cglm/struct/project.h by tools/gen.py (value semantics); do not edit by hand. -/

set_option linter.unusedVariables false
set_option linter.unusedSectionVars false

namespace Cglm

variable {α : Type} [Add α] [Sub α] [Mul α] [Div α] [Neg α] [CFloat α]

/-- `glms_unprojecti`: include/cglm/struct/project.h:55-61. -/
@[cglm]
def glms_unprojecti (pos : V3 α) (invMat : M4 α) (vp : V4 α) : V3 α :=
  glm_unprojecti pos invMat vp

/-- `glms_unproject`: include/cglm/struct/project.h:90-96. -/
@[cglm]
def glms_unproject (pos : V3 α) (m : M4 α) (vp : V4 α) : V3 α :=
  glm_unproject pos m vp

/-- `glms_project`: include/cglm/struct/project.h:113-119. -/
@[cglm]
def glms_project (pos : V3 α) (m : M4 α) (vp : V4 α) : V3 α :=
  glm_project pos m vp

/-- `glms_project_z`: include/cglm/struct/project.h:136-144. -/
@[cglm]
def glms_project_z (v : V3 α) (m : M4 α) : α :=
  glms_project_z_no v m

/-- `glms_pickmatrix`: include/cglm/struct/project.h:154-160. -/
@[cglm]
def glms_pickmatrix (center : V2 α) (size : V2 α) (vp : V4 α) (uninit_res : M4 α) : M4 α :=
  glm_pickmatrix center size vp uninit_res

end Cglm

end StructProject
