/- Generated by tools/gen.py, joined by tools/merge.py; do not edit by hand. -/
import Verif.Base
import Verif.Attr
import Verif.Gen.Affine
import Verif.Gen.AffineMat
import Verif.Gen.AffinePost
import Verif.Gen.AffinePre
import Verif.Gen.Affine2d
import Verif.Gen.Cam
import Verif.Gen.ClipspacePersp
import Verif.Gen.ClipspaceOrthoLhNo
import Verif.Gen.ClipspaceOrthoLhZo
import Verif.Gen.ClipspaceOrthoRhNo
import Verif.Gen.ClipspaceOrthoRhZo
import Verif.Gen.ClipspacePerspLhNo
import Verif.Gen.ClipspacePerspLhZo
import Verif.Gen.ClipspacePerspRhNo
import Verif.Gen.ClipspacePerspRhZo
import Verif.Gen.ClipspaceProjectNo
import Verif.Gen.ClipspaceProjectZo
import Verif.Gen.ClipspaceViewLhNo
import Verif.Gen.ClipspaceViewLhZo
import Verif.Gen.ClipspaceViewRhNo
import Verif.Gen.ClipspaceViewRhZo
import Verif.Gen.Project

section SrcAffine

/- Generated from src/affine.c by tools/gen.py (value semantics); do not edit by hand. -/

set_option linter.unusedVariables false
set_option linter.unusedSectionVars false

namespace Cglm

variable {α : Type} [Add α] [Sub α] [Mul α] [Div α] [Neg α] [CFloat α]

/-- `glmc_translate_make`: src/affine.c:11-15. -/
@[cglm]
def glmc_translate_make (v : V3 α) : M4 α :=
  glm_translate_make v

/-- `glmc_translate_to`: src/affine.c:17-21. -/
@[cglm]
def glmc_translate_to (m : M4 α) (v : V3 α) : M4 α :=
  glm_translate_to m v

/-- `glmc_translate`: src/affine.c:23-27. -/
@[cglm]
def glmc_translate (m : M4 α) (v : V3 α) : M4 α :=
  glm_translate m v

/-- `glmc_translate_x`: src/affine.c:29-33. -/
@[cglm]
def glmc_translate_x (m : M4 α) (to : α) : M4 α :=
  glm_translate_x m to

/-- `glmc_translate_y`: src/affine.c:35-39. -/
@[cglm]
def glmc_translate_y (m : M4 α) (to : α) : M4 α :=
  glm_translate_y m to

/-- `glmc_translate_z`: src/affine.c:41-45. -/
@[cglm]
def glmc_translate_z (m : M4 α) (to : α) : M4 α :=
  glm_translate_z m to

/-- `glmc_scale_make`: src/affine.c:47-51. -/
@[cglm]
def glmc_scale_make (v : V3 α) : M4 α :=
  glm_scale_make v

/-- `glmc_scale_to`: src/affine.c:53-57. -/
@[cglm]
def glmc_scale_to (m : M4 α) (v : V3 α) : M4 α :=
  glm_scale_to m v

/-- `glmc_scale`: src/affine.c:59-63. -/
@[cglm]
def glmc_scale (m : M4 α) (v : V3 α) : M4 α :=
  glm_scale m v

/-- `glmc_scale_uni`: src/affine.c:65-69. -/
@[cglm]
def glmc_scale_uni (m : M4 α) (s : α) : M4 α :=
  glm_scale_uni m s

/-- `glmc_rotate_x`: src/affine.c:71-75. -/
@[cglm]
def glmc_rotate_x (m : M4 α) (rad : α) : M4 α :=
  glm_rotate_x m rad

/-- `glmc_rotate_y`: src/affine.c:77-81. -/
@[cglm]
def glmc_rotate_y (m : M4 α) (rad : α) : M4 α :=
  glm_rotate_y m rad

/-- `glmc_rotate_z`: src/affine.c:83-87. -/
@[cglm]
def glmc_rotate_z (m : M4 α) (rad : α) : M4 α :=
  glm_rotate_z m rad

/-- `glmc_rotate_make`: src/affine.c:89-93. -/
@[cglm]
def glmc_rotate_make (angle : α) (axis : V3 α) : M4 α :=
  glm_rotate_make angle axis

/-- `glmc_rotate`: src/affine.c:95-99. -/
@[cglm]
def glmc_rotate (m : M4 α) (angle : α) (axis : V3 α) : M4 α :=
  glm_rotate m angle axis

/-- `glmc_rotate_at`: src/affine.c:101-105. -/
@[cglm]
def glmc_rotate_at (m : M4 α) (pivot : V3 α) (angle : α) (axis : V3 α) : M4 α :=
  glm_rotate_at m pivot angle axis

/-- `glmc_rotate_atm`: src/affine.c:107-111. -/
@[cglm]
def glmc_rotate_atm (pivot : V3 α) (angle : α) (axis : V3 α) : M4 α :=
  glm_rotate_atm pivot angle axis

/-- `glmc_spin`: src/affine.c:113-117. -/
@[cglm]
def glmc_spin (m : M4 α) (angle : α) (axis : V3 α) : M4 α :=
  glm_spin m angle axis

/-- `glmc_decompose_scalev`: src/affine.c:119-123. -/
@[cglm]
def glmc_decompose_scalev (m : M4 α) : V3 α :=
  glm_decompose_scalev m

/-- `glmc_uniscaled`: src/affine.c:125-129. -/
@[cglm]
def glmc_uniscaled (m : M4 α) : Bool :=
  glm_uniscaled m

/-- `glmc_decompose_rs`: src/affine.c:131-135. -/
@[cglm]
def glmc_decompose_rs (m : M4 α) : M4 α × V3 α :=
  let r_1 := glm_decompose_rs m
  (r_1.1, r_1.2)

/-- `glmc_translated`: src/affine.c:137-141. -/
@[cglm]
def glmc_translated (m : M4 α) (v : V3 α) : M4 α :=
  glm_translated m v

/-- `glmc_translated_to`: src/affine.c:143-147. -/
@[cglm]
def glmc_translated_to (m : M4 α) (v : V3 α) : M4 α :=
  glm_translated_to m v

/-- `glmc_translated_x`: src/affine.c:149-153. -/
@[cglm]
def glmc_translated_x (m : M4 α) (x : α) : M4 α :=
  glm_translated_x m x

/-- `glmc_translated_y`: src/affine.c:155-159. -/
@[cglm]
def glmc_translated_y (m : M4 α) (y : α) : M4 α :=
  glm_translated_y m y

/-- `glmc_translated_z`: src/affine.c:161-165. -/
@[cglm]
def glmc_translated_z (m : M4 α) (z : α) : M4 α :=
  glm_translated_z m z

/-- `glmc_rotated_x`: src/affine.c:167-171. -/
@[cglm]
def glmc_rotated_x (m : M4 α) (angle : α) : M4 α :=
  glm_rotated_x m angle

/-- `glmc_rotated_y`: src/affine.c:173-177. -/
@[cglm]
def glmc_rotated_y (m : M4 α) (angle : α) : M4 α :=
  glm_rotated_y m angle

/-- `glmc_rotated_z`: src/affine.c:179-183. -/
@[cglm]
def glmc_rotated_z (m : M4 α) (angle : α) : M4 α :=
  glm_rotated_z m angle

/-- `glmc_rotated`: src/affine.c:185-189. -/
@[cglm]
def glmc_rotated (m : M4 α) (angle : α) (axis : V3 α) : M4 α :=
  glm_rotated m angle axis

/-- `glmc_rotated_at`: src/affine.c:191-195. -/
@[cglm]
def glmc_rotated_at (m : M4 α) (pivot : V3 α) (angle : α) (axis : V3 α) : M4 α :=
  glm_rotated_at m pivot angle axis

/-- `glmc_spinned`: src/affine.c:197-201. -/
@[cglm]
def glmc_spinned (m : M4 α) (angle : α) (axis : V3 α) : M4 α :=
  glm_spinned m angle axis

/-- `glmc_decompose`: src/affine.c:203-207. -/
@[cglm]
def glmc_decompose (m : M4 α) : V4 α × M4 α × V3 α :=
  let r_1 := glm_decompose m
  (r_1.1, r_1.2.1, r_1.2.2)

/-- `glmc_mul`: src/affine.c:209-213. -/
@[cglm]
def glmc_mul (m1 : M4 α) (m2 : M4 α) : M4 α :=
  glm_mul m1 m2

/-- `glmc_mul_rot`: src/affine.c:215-219. -/
@[cglm]
def glmc_mul_rot (m1 : M4 α) (m2 : M4 α) : M4 α :=
  glm_mul_rot m1 m2

/-- `glmc_inv_tr`: src/affine.c:221-225. -/
@[cglm]
def glmc_inv_tr (mat : M4 α) : M4 α :=
  glm_inv_tr mat

end Cglm

end SrcAffine

section SrcAffine2d

/- Generated from src/affine2d.c by tools/gen.py (value semantics); do not edit by hand. -/

set_option linter.unusedVariables false
set_option linter.unusedSectionVars false

namespace Cglm

variable {α : Type} [Add α] [Sub α] [Mul α] [Div α] [Neg α] [CFloat α]

/-- `glmc_translate2d_make`: src/affine2d.c:11-15. -/
@[cglm]
def glmc_translate2d_make (v : V2 α) : M3 α :=
  glm_translate2d_make v

/-- `glmc_translate2d_to`: src/affine2d.c:17-21. -/
@[cglm]
def glmc_translate2d_to (m : M3 α) (v : V2 α) : M3 α :=
  glm_translate2d_to m v

/-- `glmc_translate2d`: src/affine2d.c:23-27. -/
@[cglm]
def glmc_translate2d (m : M3 α) (v : V2 α) : M3 α :=
  glm_translate2d m v

/-- `glmc_translate2d_x`: src/affine2d.c:29-33. -/
@[cglm]
def glmc_translate2d_x (m : M3 α) (to : α) : M3 α :=
  glm_translate2d_x m to

/-- `glmc_translate2d_y`: src/affine2d.c:35-39. -/
@[cglm]
def glmc_translate2d_y (m : M3 α) (to : α) : M3 α :=
  glm_translate2d_y m to

/-- `glmc_scale2d_to`: src/affine2d.c:41-45. -/
@[cglm]
def glmc_scale2d_to (m : M3 α) (v : V2 α) : M3 α :=
  glm_scale2d_to m v

/-- `glmc_scale2d_make`: src/affine2d.c:47-51. -/
@[cglm]
def glmc_scale2d_make (v : V2 α) : M3 α :=
  glm_scale2d_make v

/-- `glmc_scale2d`: src/affine2d.c:53-57. -/
@[cglm]
def glmc_scale2d (m : M3 α) (v : V2 α) : M3 α :=
  glm_scale2d m v

/-- `glmc_scale2d_uni`: src/affine2d.c:59-63. -/
@[cglm]
def glmc_scale2d_uni (m : M3 α) (s : α) : M3 α :=
  glm_scale2d_uni m s

/-- `glmc_rotate2d_make`: src/affine2d.c:65-69. -/
@[cglm]
def glmc_rotate2d_make (angle : α) : M3 α :=
  glm_rotate2d_make angle

/-- `glmc_rotate2d`: src/affine2d.c:71-75. -/
@[cglm]
def glmc_rotate2d (m : M3 α) (angle : α) : M3 α :=
  glm_rotate2d m angle

/-- `glmc_rotate2d_to`: src/affine2d.c:77-81. -/
@[cglm]
def glmc_rotate2d_to (m : M3 α) (angle : α) : M3 α :=
  glm_rotate2d_to m angle

end Cglm

end SrcAffine2d

section SrcCam

/- Generated from src/cam.c by tools/gen.py (value semantics); do not edit by hand. -/

set_option linter.unusedVariables false
set_option linter.unusedSectionVars false

namespace Cglm

variable {α : Type} [Add α] [Sub α] [Mul α] [Div α] [Neg α] [CFloat α]

/-- `glmc_frustum`: src/cam.c:11-18. -/
@[cglm]
def glmc_frustum (left : α) (right : α) (bottom : α) (top : α) (nearZ : α) (farZ : α) : M4 α :=
  glm_frustum left right bottom top nearZ farZ

/-- `glmc_ortho`: src/cam.c:20-27. -/
@[cglm]
def glmc_ortho (left : α) (right : α) (bottom : α) (top : α) (nearZ : α) (farZ : α) : M4 α :=
  glm_ortho left right bottom top nearZ farZ

/-- `glmc_ortho_aabb`: src/cam.c:29-33. -/
@[cglm]
def glmc_ortho_aabb (box : M2x3 α) : M4 α :=
  glm_ortho_aabb box

/-- `glmc_ortho_aabb_p`: src/cam.c:35-39. -/
@[cglm]
def glmc_ortho_aabb_p (box : M2x3 α) (padding : α) : M4 α :=
  glm_ortho_aabb_p box padding

/-- `glmc_ortho_aabb_pz`: src/cam.c:41-45. -/
@[cglm]
def glmc_ortho_aabb_pz (box : M2x3 α) (padding : α) : M4 α :=
  glm_ortho_aabb_pz box padding

/-- `glmc_ortho_default`: src/cam.c:47-51. -/
@[cglm]
def glmc_ortho_default (aspect : α) : M4 α :=
  glm_ortho_default aspect

/-- `glmc_ortho_default_s`: src/cam.c:53-57. -/
@[cglm]
def glmc_ortho_default_s (aspect : α) (size : α) : M4 α :=
  glm_ortho_default_s aspect size

/-- `glmc_perspective`: src/cam.c:59-63. -/
@[cglm]
def glmc_perspective (fovy : α) (aspect : α) (nearZ : α) (farZ : α) : M4 α :=
  glm_perspective fovy aspect nearZ farZ

/-- `glmc_persp_move_far`: src/cam.c:65-69. -/
@[cglm]
def glmc_persp_move_far (proj : M4 α) (deltaFar : α) : M4 α :=
  glm_persp_move_far proj deltaFar

/-- `glmc_perspective_default`: src/cam.c:71-75. -/
@[cglm]
def glmc_perspective_default (aspect : α) : M4 α :=
  glm_perspective_default aspect

/-- `glmc_perspective_resize`: src/cam.c:77-81. -/
@[cglm]
def glmc_perspective_resize (aspect : α) (proj : M4 α) : M4 α :=
  glm_perspective_resize aspect proj

/-- `glmc_lookat`: src/cam.c:83-87. -/
@[cglm]
def glmc_lookat (eye : V3 α) (center : V3 α) (up : V3 α) : M4 α :=
  glm_lookat eye center up

/-- `glmc_look`: src/cam.c:89-93. -/
@[cglm]
def glmc_look (eye : V3 α) (dir : V3 α) (up : V3 α) : M4 α :=
  glm_look eye dir up

/-- `glmc_look_anyup`: src/cam.c:95-99. -/
@[cglm]
def glmc_look_anyup (eye : V3 α) (dir : V3 α) : M4 α :=
  glm_look_anyup eye dir

/-- `glmc_persp_decomp`: src/cam.c:101-111. -/
@[cglm]
def glmc_persp_decomp (proj : M4 α) : α × α × α × α × α × α :=
  let r := glm_persp_decomp proj
  (r.1, r.2.1, r.2.2.1, r.2.2.2.1, r.2.2.2.2.1, r.2.2.2.2.2)

/-- `glmc_persp_decompv`: src/cam.c:113-117. -/
@[cglm]
def glmc_persp_decompv (proj : M4 α) : V6 α :=
  glm_persp_decompv proj

/-- `glmc_persp_decomp_x`: src/cam.c:119-125. -/
@[cglm]
def glmc_persp_decomp_x (proj : M4 α) : α × α :=
  let r := glm_persp_decomp_x proj
  (r.1, r.2)

/-- `glmc_persp_decomp_y`: src/cam.c:127-133. -/
@[cglm]
def glmc_persp_decomp_y (proj : M4 α) : α × α :=
  let r := glm_persp_decomp_y proj
  (r.1, r.2)

/-- `glmc_persp_decomp_z`: src/cam.c:135-141. -/
@[cglm]
def glmc_persp_decomp_z (proj : M4 α) : α × α :=
  let r := glm_persp_decomp_z proj
  (r.1, r.2)

/-- `glmc_persp_decomp_far`: src/cam.c:143-147. -/
@[cglm]
def glmc_persp_decomp_far (proj : M4 α) : α :=
  glm_persp_decomp_far proj

/-- `glmc_persp_decomp_near`: src/cam.c:149-153. -/
@[cglm]
def glmc_persp_decomp_near (proj : M4 α) : α :=
  glm_persp_decomp_near proj

/-- `glmc_persp_fovy`: src/cam.c:155-159. -/
@[cglm]
def glmc_persp_fovy (proj : M4 α) : α :=
  glm_persp_fovy proj

/-- `glmc_persp_aspect`: src/cam.c:161-165. -/
@[cglm]
def glmc_persp_aspect (proj : M4 α) : α :=
  glm_persp_aspect proj

/-- `glmc_persp_sizes`: src/cam.c:167-171. -/
@[cglm]
def glmc_persp_sizes (proj : M4 α) (fovy : α) : V4 α :=
  glm_persp_sizes proj fovy

end Cglm

end SrcCam

section SrcClipspaceOrthoLhNo

/- Generated from src/clipspace/ortho_lh_no.c by tools/gen.py (value semantics); do not edit by hand. -/

set_option linter.unusedVariables false
set_option linter.unusedSectionVars false

namespace Cglm

variable {α : Type} [Add α] [Sub α] [Mul α] [Div α] [Neg α] [CFloat α]

/-- `glmc_ortho_lh_no`: src/clipspace/ortho_lh_no.c:11-21. -/
@[cglm]
def glmc_ortho_lh_no (left : α) (right : α) (bottom : α) (top : α) (nearZ : α) (farZ : α) : M4 α :=
  glm_ortho_lh_no left right bottom top nearZ farZ

/-- `glmc_ortho_aabb_lh_no`: src/clipspace/ortho_lh_no.c:23-27. -/
@[cglm]
def glmc_ortho_aabb_lh_no (box : M2x3 α) : M4 α :=
  glm_ortho_aabb_lh_no box

/-- `glmc_ortho_aabb_p_lh_no`: src/clipspace/ortho_lh_no.c:29-33. -/
@[cglm]
def glmc_ortho_aabb_p_lh_no (box : M2x3 α) (padding : α) : M4 α :=
  glm_ortho_aabb_p_lh_no box padding

/-- `glmc_ortho_aabb_pz_lh_no`: src/clipspace/ortho_lh_no.c:35-39. -/
@[cglm]
def glmc_ortho_aabb_pz_lh_no (box : M2x3 α) (padding : α) : M4 α :=
  glm_ortho_aabb_pz_lh_no box padding

/-- `glmc_ortho_default_lh_no`: src/clipspace/ortho_lh_no.c:41-45. -/
@[cglm]
def glmc_ortho_default_lh_no (aspect : α) : M4 α :=
  glm_ortho_default_lh_no aspect

/-- `glmc_ortho_default_s_lh_no`: src/clipspace/ortho_lh_no.c:47-51. -/
@[cglm]
def glmc_ortho_default_s_lh_no (aspect : α) (size : α) : M4 α :=
  glm_ortho_default_s_lh_no aspect size

end Cglm

end SrcClipspaceOrthoLhNo

section SrcClipspaceOrthoLhZo

/- Generated from src/clipspace/ortho_lh_zo.c by tools/gen.py (value semantics); do not edit by hand. -/

set_option linter.unusedVariables false
set_option linter.unusedSectionVars false

namespace Cglm

variable {α : Type} [Add α] [Sub α] [Mul α] [Div α] [Neg α] [CFloat α]

/-- `glmc_ortho_lh_zo`: src/clipspace/ortho_lh_zo.c:11-21. -/
@[cglm]
def glmc_ortho_lh_zo (left : α) (right : α) (bottom : α) (top : α) (nearZ : α) (farZ : α) : M4 α :=
  glm_ortho_lh_zo left right bottom top nearZ farZ

/-- `glmc_ortho_aabb_lh_zo`: src/clipspace/ortho_lh_zo.c:23-27. -/
@[cglm]
def glmc_ortho_aabb_lh_zo (box : M2x3 α) : M4 α :=
  glm_ortho_aabb_lh_zo box

/-- `glmc_ortho_aabb_p_lh_zo`: src/clipspace/ortho_lh_zo.c:29-33. -/
@[cglm]
def glmc_ortho_aabb_p_lh_zo (box : M2x3 α) (padding : α) : M4 α :=
  glm_ortho_aabb_p_lh_zo box padding

/-- `glmc_ortho_aabb_pz_lh_zo`: src/clipspace/ortho_lh_zo.c:35-39. -/
@[cglm]
def glmc_ortho_aabb_pz_lh_zo (box : M2x3 α) (padding : α) : M4 α :=
  glm_ortho_aabb_pz_lh_zo box padding

/-- `glmc_ortho_default_lh_zo`: src/clipspace/ortho_lh_zo.c:41-45. -/
@[cglm]
def glmc_ortho_default_lh_zo (aspect : α) : M4 α :=
  glm_ortho_default_lh_zo aspect

/-- `glmc_ortho_default_s_lh_zo`: src/clipspace/ortho_lh_zo.c:47-51. -/
@[cglm]
def glmc_ortho_default_s_lh_zo (aspect : α) (size : α) : M4 α :=
  glm_ortho_default_s_lh_zo aspect size

end Cglm

end SrcClipspaceOrthoLhZo

section SrcClipspaceOrthoRhNo

/- Generated from src/clipspace/ortho_rh_no.c by tools/gen.py (value semantics); do not edit by hand. -/

set_option linter.unusedVariables false
set_option linter.unusedSectionVars false

namespace Cglm

variable {α : Type} [Add α] [Sub α] [Mul α] [Div α] [Neg α] [CFloat α]

/-- `glmc_ortho_rh_no`: src/clipspace/ortho_rh_no.c:11-21. -/
@[cglm]
def glmc_ortho_rh_no (left : α) (right : α) (bottom : α) (top : α) (nearZ : α) (farZ : α) : M4 α :=
  glm_ortho_rh_no left right bottom top nearZ farZ

/-- `glmc_ortho_aabb_rh_no`: src/clipspace/ortho_rh_no.c:23-27. -/
@[cglm]
def glmc_ortho_aabb_rh_no (box : M2x3 α) : M4 α :=
  glm_ortho_aabb_rh_no box

/-- `glmc_ortho_aabb_p_rh_no`: src/clipspace/ortho_rh_no.c:29-33. -/
@[cglm]
def glmc_ortho_aabb_p_rh_no (box : M2x3 α) (padding : α) : M4 α :=
  glm_ortho_aabb_p_rh_no box padding

/-- `glmc_ortho_aabb_pz_rh_no`: src/clipspace/ortho_rh_no.c:35-39. -/
@[cglm]
def glmc_ortho_aabb_pz_rh_no (box : M2x3 α) (padding : α) : M4 α :=
  glm_ortho_aabb_pz_rh_no box padding

/-- `glmc_ortho_default_rh_no`: src/clipspace/ortho_rh_no.c:41-45. -/
@[cglm]
def glmc_ortho_default_rh_no (aspect : α) : M4 α :=
  glm_ortho_default_rh_no aspect

/-- `glmc_ortho_default_s_rh_no`: src/clipspace/ortho_rh_no.c:47-51. -/
@[cglm]
def glmc_ortho_default_s_rh_no (aspect : α) (size : α) : M4 α :=
  glm_ortho_default_s_rh_no aspect size

end Cglm

end SrcClipspaceOrthoRhNo

section SrcClipspaceOrthoRhZo

/- Generated from src/clipspace/ortho_rh_zo.c by tools/gen.py (value semantics); do not edit by hand. -/

set_option linter.unusedVariables false
set_option linter.unusedSectionVars false

namespace Cglm

variable {α : Type} [Add α] [Sub α] [Mul α] [Div α] [Neg α] [CFloat α]

/-- `glmc_ortho_rh_zo`: src/clipspace/ortho_rh_zo.c:11-21. -/
@[cglm]
def glmc_ortho_rh_zo (left : α) (right : α) (bottom : α) (top : α) (nearZ : α) (farZ : α) : M4 α :=
  glm_ortho_rh_zo left right bottom top nearZ farZ

/-- `glmc_ortho_aabb_rh_zo`: src/clipspace/ortho_rh_zo.c:23-27. -/
@[cglm]
def glmc_ortho_aabb_rh_zo (box : M2x3 α) : M4 α :=
  glm_ortho_aabb_rh_zo box

/-- `glmc_ortho_aabb_p_rh_zo`: src/clipspace/ortho_rh_zo.c:29-33. -/
@[cglm]
def glmc_ortho_aabb_p_rh_zo (box : M2x3 α) (padding : α) : M4 α :=
  glm_ortho_aabb_p_rh_zo box padding

/-- `glmc_ortho_aabb_pz_rh_zo`: src/clipspace/ortho_rh_zo.c:35-39. -/
@[cglm]
def glmc_ortho_aabb_pz_rh_zo (box : M2x3 α) (padding : α) : M4 α :=
  glm_ortho_aabb_pz_rh_zo box padding

/-- `glmc_ortho_default_rh_zo`: src/clipspace/ortho_rh_zo.c:41-45. -/
@[cglm]
def glmc_ortho_default_rh_zo (aspect : α) : M4 α :=
  glm_ortho_default_rh_zo aspect

/-- `glmc_ortho_default_s_rh_zo`: src/clipspace/ortho_rh_zo.c:47-51. -/
@[cglm]
def glmc_ortho_default_s_rh_zo (aspect : α) (size : α) : M4 α :=
  glm_ortho_default_s_rh_zo aspect size

end Cglm

end SrcClipspaceOrthoRhZo

section SrcClipspacePerspLhNo

/- Generated from src/clipspace/persp_lh_no.c by tools/gen.py (value semantics); do not edit by hand. -/

set_option linter.unusedVariables false
set_option linter.unusedSectionVars false

namespace Cglm

variable {α : Type} [Add α] [Sub α] [Mul α] [Div α] [Neg α] [CFloat α]

/-- `glmc_frustum_lh_no`: src/clipspace/persp_lh_no.c:11-21. -/
@[cglm]
def glmc_frustum_lh_no (left : α) (right : α) (bottom : α) (top : α) (nearZ : α) (farZ : α) : M4 α :=
  glm_frustum_lh_no left right bottom top nearZ farZ

/-- `glmc_perspective_lh_no`: src/clipspace/persp_lh_no.c:23-35. -/
@[cglm]
def glmc_perspective_lh_no (fovy : α) (aspect : α) (nearVal : α) (farVal : α) : M4 α :=
  glm_perspective_lh_no fovy aspect nearVal farVal

/-- `glmc_persp_move_far_lh_no`: src/clipspace/persp_lh_no.c:37-41. -/
@[cglm]
def glmc_persp_move_far_lh_no (proj : M4 α) (deltaFar : α) : M4 α :=
  glm_persp_move_far_lh_no proj deltaFar

/-- `glmc_persp_decomp_lh_no`: src/clipspace/persp_lh_no.c:43-50. -/
@[cglm]
def glmc_persp_decomp_lh_no (proj : M4 α) : α × α × α × α × α × α :=
  let r := glm_persp_decomp_lh_no proj
  (r.1, r.2.1, r.2.2.1, r.2.2.2.1, r.2.2.2.2.1, r.2.2.2.2.2)

/-- `glmc_persp_decompv_lh_no`: src/clipspace/persp_lh_no.c:52-56. -/
@[cglm]
def glmc_persp_decompv_lh_no (proj : M4 α) : V6 α :=
  glm_persp_decompv_lh_no proj

/-- `glmc_persp_decomp_x_lh_no`: src/clipspace/persp_lh_no.c:58-64. -/
@[cglm]
def glmc_persp_decomp_x_lh_no (proj : M4 α) : α × α :=
  let r := glm_persp_decomp_x_lh_no proj
  (r.1, r.2)

/-- `glmc_persp_decomp_y_lh_no`: src/clipspace/persp_lh_no.c:66-72. -/
@[cglm]
def glmc_persp_decomp_y_lh_no (proj : M4 α) : α × α :=
  let r := glm_persp_decomp_y_lh_no proj
  (r.1, r.2)

/-- `glmc_persp_decomp_z_lh_no`: src/clipspace/persp_lh_no.c:74-80. -/
@[cglm]
def glmc_persp_decomp_z_lh_no (proj : M4 α) : α × α :=
  let r := glm_persp_decomp_z_lh_no proj
  (r.1, r.2)

/-- `glmc_persp_decomp_far_lh_no`: src/clipspace/persp_lh_no.c:82-86. -/
@[cglm]
def glmc_persp_decomp_far_lh_no (proj : M4 α) : α :=
  glm_persp_decomp_far_lh_no proj

/-- `glmc_persp_decomp_near_lh_no`: src/clipspace/persp_lh_no.c:88-92. -/
@[cglm]
def glmc_persp_decomp_near_lh_no (proj : M4 α) : α :=
  glm_persp_decomp_near_lh_no proj

/-- `glmc_persp_sizes_lh_no`: src/clipspace/persp_lh_no.c:94-98. -/
@[cglm]
def glmc_persp_sizes_lh_no (proj : M4 α) (fovy : α) : V4 α :=
  glm_persp_sizes_lh_no proj fovy

/-- `glmc_persp_fovy_lh_no`: src/clipspace/persp_lh_no.c:100-104. -/
@[cglm]
def glmc_persp_fovy_lh_no (proj : M4 α) : α :=
  glm_persp_fovy_lh_no proj

/-- `glmc_persp_aspect_lh_no`: src/clipspace/persp_lh_no.c:106-110. -/
@[cglm]
def glmc_persp_aspect_lh_no (proj : M4 α) : α :=
  glm_persp_aspect_lh_no proj

end Cglm

end SrcClipspacePerspLhNo

section SrcClipspacePerspLhZo

/- Generated from src/clipspace/persp_lh_zo.c by tools/gen.py (value semantics); do not edit by hand. -/

set_option linter.unusedVariables false
set_option linter.unusedSectionVars false

namespace Cglm

variable {α : Type} [Add α] [Sub α] [Mul α] [Div α] [Neg α] [CFloat α]

/-- `glmc_frustum_lh_zo`: src/clipspace/persp_lh_zo.c:11-21. -/
@[cglm]
def glmc_frustum_lh_zo (left : α) (right : α) (bottom : α) (top : α) (nearZ : α) (farZ : α) : M4 α :=
  glm_frustum_lh_zo left right bottom top nearZ farZ

/-- `glmc_perspective_lh_zo`: src/clipspace/persp_lh_zo.c:23-35. -/
@[cglm]
def glmc_perspective_lh_zo (fovy : α) (aspect : α) (nearVal : α) (farVal : α) : M4 α :=
  glm_perspective_lh_zo fovy aspect nearVal farVal

/-- `glmc_persp_move_far_lh_zo`: src/clipspace/persp_lh_zo.c:37-41. -/
@[cglm]
def glmc_persp_move_far_lh_zo (proj : M4 α) (deltaFar : α) : M4 α :=
  glm_persp_move_far_lh_zo proj deltaFar

/-- `glmc_persp_decomp_lh_zo`: src/clipspace/persp_lh_zo.c:43-50. -/
@[cglm]
def glmc_persp_decomp_lh_zo (proj : M4 α) : α × α × α × α × α × α :=
  let r := glm_persp_decomp_lh_zo proj
  (r.1, r.2.1, r.2.2.1, r.2.2.2.1, r.2.2.2.2.1, r.2.2.2.2.2)

/-- `glmc_persp_decompv_lh_zo`: src/clipspace/persp_lh_zo.c:52-56. -/
@[cglm]
def glmc_persp_decompv_lh_zo (proj : M4 α) : V6 α :=
  glm_persp_decompv_lh_zo proj

/-- `glmc_persp_decomp_x_lh_zo`: src/clipspace/persp_lh_zo.c:58-64. -/
@[cglm]
def glmc_persp_decomp_x_lh_zo (proj : M4 α) : α × α :=
  let r := glm_persp_decomp_x_lh_zo proj
  (r.1, r.2)

/-- `glmc_persp_decomp_y_lh_zo`: src/clipspace/persp_lh_zo.c:66-72. -/
@[cglm]
def glmc_persp_decomp_y_lh_zo (proj : M4 α) : α × α :=
  let r := glm_persp_decomp_y_lh_zo proj
  (r.1, r.2)

/-- `glmc_persp_decomp_z_lh_zo`: src/clipspace/persp_lh_zo.c:74-80. -/
@[cglm]
def glmc_persp_decomp_z_lh_zo (proj : M4 α) : α × α :=
  let r := glm_persp_decomp_z_lh_zo proj
  (r.1, r.2)

/-- `glmc_persp_decomp_far_lh_zo`: src/clipspace/persp_lh_zo.c:82-86. -/
@[cglm]
def glmc_persp_decomp_far_lh_zo (proj : M4 α) : α :=
  glm_persp_decomp_far_lh_zo proj

/-- `glmc_persp_decomp_near_lh_zo`: src/clipspace/persp_lh_zo.c:88-92. -/
@[cglm]
def glmc_persp_decomp_near_lh_zo (proj : M4 α) : α :=
  glm_persp_decomp_near_lh_zo proj

/-- `glmc_persp_sizes_lh_zo`: src/clipspace/persp_lh_zo.c:94-98. -/
@[cglm]
def glmc_persp_sizes_lh_zo (proj : M4 α) (fovy : α) : V4 α :=
  glm_persp_sizes_lh_zo proj fovy

/-- `glmc_persp_fovy_lh_zo`: src/clipspace/persp_lh_zo.c:100-104. -/
@[cglm]
def glmc_persp_fovy_lh_zo (proj : M4 α) : α :=
  glm_persp_fovy_lh_zo proj

/-- `glmc_persp_aspect_lh_zo`: src/clipspace/persp_lh_zo.c:106-110. -/
@[cglm]
def glmc_persp_aspect_lh_zo (proj : M4 α) : α :=
  glm_persp_aspect_lh_zo proj

end Cglm

end SrcClipspacePerspLhZo

section SrcClipspacePerspRhNo

/- Generated from src/clipspace/persp_rh_no.c by tools/gen.py (value semantics); do not edit by hand. -/

set_option linter.unusedVariables false
set_option linter.unusedSectionVars false

namespace Cglm

variable {α : Type} [Add α] [Sub α] [Mul α] [Div α] [Neg α] [CFloat α]

/-- `glmc_frustum_rh_no`: src/clipspace/persp_rh_no.c:11-21. -/
@[cglm]
def glmc_frustum_rh_no (left : α) (right : α) (bottom : α) (top : α) (nearZ : α) (farZ : α) : M4 α :=
  glm_frustum_rh_no left right bottom top nearZ farZ

/-- `glmc_perspective_rh_no`: src/clipspace/persp_rh_no.c:23-35. -/
@[cglm]
def glmc_perspective_rh_no (fovy : α) (aspect : α) (nearVal : α) (farVal : α) : M4 α :=
  glm_perspective_rh_no fovy aspect nearVal farVal

/-- `glmc_persp_move_far_rh_no`: src/clipspace/persp_rh_no.c:37-41. -/
@[cglm]
def glmc_persp_move_far_rh_no (proj : M4 α) (deltaFar : α) : M4 α :=
  glm_persp_move_far_rh_no proj deltaFar

/-- `glmc_persp_decomp_rh_no`: src/clipspace/persp_rh_no.c:43-50. -/
@[cglm]
def glmc_persp_decomp_rh_no (proj : M4 α) : α × α × α × α × α × α :=
  let r := glm_persp_decomp_rh_no proj
  (r.1, r.2.1, r.2.2.1, r.2.2.2.1, r.2.2.2.2.1, r.2.2.2.2.2)

/-- `glmc_persp_decompv_rh_no`: src/clipspace/persp_rh_no.c:52-56. -/
@[cglm]
def glmc_persp_decompv_rh_no (proj : M4 α) : V6 α :=
  glm_persp_decompv_rh_no proj

/-- `glmc_persp_decomp_x_rh_no`: src/clipspace/persp_rh_no.c:58-64. -/
@[cglm]
def glmc_persp_decomp_x_rh_no (proj : M4 α) : α × α :=
  let r := glm_persp_decomp_x_rh_no proj
  (r.1, r.2)

/-- `glmc_persp_decomp_y_rh_no`: src/clipspace/persp_rh_no.c:66-72. -/
@[cglm]
def glmc_persp_decomp_y_rh_no (proj : M4 α) : α × α :=
  let r := glm_persp_decomp_y_rh_no proj
  (r.1, r.2)

/-- `glmc_persp_decomp_z_rh_no`: src/clipspace/persp_rh_no.c:74-80. -/
@[cglm]
def glmc_persp_decomp_z_rh_no (proj : M4 α) : α × α :=
  let r := glm_persp_decomp_z_rh_no proj
  (r.1, r.2)

/-- `glmc_persp_decomp_far_rh_no`: src/clipspace/persp_rh_no.c:82-86. -/
@[cglm]
def glmc_persp_decomp_far_rh_no (proj : M4 α) : α :=
  glm_persp_decomp_far_rh_no proj

/-- `glmc_persp_decomp_near_rh_no`: src/clipspace/persp_rh_no.c:88-92. -/
@[cglm]
def glmc_persp_decomp_near_rh_no (proj : M4 α) : α :=
  glm_persp_decomp_near_rh_no proj

/-- `glmc_persp_sizes_rh_no`: src/clipspace/persp_rh_no.c:94-98. -/
@[cglm]
def glmc_persp_sizes_rh_no (proj : M4 α) (fovy : α) : V4 α :=
  glm_persp_sizes_rh_no proj fovy

/-- `glmc_persp_fovy_rh_no`: src/clipspace/persp_rh_no.c:100-104. -/
@[cglm]
def glmc_persp_fovy_rh_no (proj : M4 α) : α :=
  glm_persp_fovy_rh_no proj

/-- `glmc_persp_aspect_rh_no`: src/clipspace/persp_rh_no.c:106-110. -/
@[cglm]
def glmc_persp_aspect_rh_no (proj : M4 α) : α :=
  glm_persp_aspect_rh_no proj

end Cglm

end SrcClipspacePerspRhNo

section SrcClipspacePerspRhZo

/- Generated from src/clipspace/persp_rh_zo.c by tools/gen.py (value semantics); do not edit by hand. -/

set_option linter.unusedVariables false
set_option linter.unusedSectionVars false

namespace Cglm

variable {α : Type} [Add α] [Sub α] [Mul α] [Div α] [Neg α] [CFloat α]

/-- `glmc_frustum_rh_zo`: src/clipspace/persp_rh_zo.c:11-21. -/
@[cglm]
def glmc_frustum_rh_zo (left : α) (right : α) (bottom : α) (top : α) (nearZ : α) (farZ : α) : M4 α :=
  glm_frustum_rh_zo left right bottom top nearZ farZ

/-- `glmc_perspective_rh_zo`: src/clipspace/persp_rh_zo.c:23-35. -/
@[cglm]
def glmc_perspective_rh_zo (fovy : α) (aspect : α) (nearVal : α) (farVal : α) : M4 α :=
  glm_perspective_rh_zo fovy aspect nearVal farVal

/-- `glmc_persp_move_far_rh_zo`: src/clipspace/persp_rh_zo.c:37-41. -/
@[cglm]
def glmc_persp_move_far_rh_zo (proj : M4 α) (deltaFar : α) : M4 α :=
  glm_persp_move_far_rh_zo proj deltaFar

/-- `glmc_persp_decomp_rh_zo`: src/clipspace/persp_rh_zo.c:43-50. -/
@[cglm]
def glmc_persp_decomp_rh_zo (proj : M4 α) : α × α × α × α × α × α :=
  let r := glm_persp_decomp_rh_zo proj
  (r.1, r.2.1, r.2.2.1, r.2.2.2.1, r.2.2.2.2.1, r.2.2.2.2.2)

/-- `glmc_persp_decompv_rh_zo`: src/clipspace/persp_rh_zo.c:52-56. -/
@[cglm]
def glmc_persp_decompv_rh_zo (proj : M4 α) : V6 α :=
  glm_persp_decompv_rh_zo proj

/-- `glmc_persp_decomp_x_rh_zo`: src/clipspace/persp_rh_zo.c:58-64. -/
@[cglm]
def glmc_persp_decomp_x_rh_zo (proj : M4 α) : α × α :=
  let r := glm_persp_decomp_x_rh_zo proj
  (r.1, r.2)

/-- `glmc_persp_decomp_y_rh_zo`: src/clipspace/persp_rh_zo.c:66-72. -/
@[cglm]
def glmc_persp_decomp_y_rh_zo (proj : M4 α) : α × α :=
  let r := glm_persp_decomp_y_rh_zo proj
  (r.1, r.2)

/-- `glmc_persp_decomp_z_rh_zo`: src/clipspace/persp_rh_zo.c:74-80. -/
@[cglm]
def glmc_persp_decomp_z_rh_zo (proj : M4 α) : α × α :=
  let r := glm_persp_decomp_z_rh_zo proj
  (r.1, r.2)

/-- `glmc_persp_decomp_far_rh_zo`: src/clipspace/persp_rh_zo.c:82-86. -/
@[cglm]
def glmc_persp_decomp_far_rh_zo (proj : M4 α) : α :=
  glm_persp_decomp_far_rh_zo proj

/-- `glmc_persp_decomp_near_rh_zo`: src/clipspace/persp_rh_zo.c:88-92. -/
@[cglm]
def glmc_persp_decomp_near_rh_zo (proj : M4 α) : α :=
  glm_persp_decomp_near_rh_zo proj

/-- `glmc_persp_sizes_rh_zo`: src/clipspace/persp_rh_zo.c:94-98. -/
@[cglm]
def glmc_persp_sizes_rh_zo (proj : M4 α) (fovy : α) : V4 α :=
  glm_persp_sizes_rh_zo proj fovy

/-- `glmc_persp_fovy_rh_zo`: src/clipspace/persp_rh_zo.c:100-104. -/
@[cglm]
def glmc_persp_fovy_rh_zo (proj : M4 α) : α :=
  glm_persp_fovy_rh_zo proj

/-- `glmc_persp_aspect_rh_zo`: src/clipspace/persp_rh_zo.c:106-110. -/
@[cglm]
def glmc_persp_aspect_rh_zo (proj : M4 α) : α :=
  glm_persp_aspect_rh_zo proj

end Cglm

end SrcClipspacePerspRhZo

section SrcClipspaceProjectNo

/- Generated from src/clipspace/project_no.c by tools/gen.py (value semantics); do not edit by hand. -/

set_option linter.unusedVariables false
set_option linter.unusedSectionVars false

namespace Cglm

variable {α : Type} [Add α] [Sub α] [Mul α] [Div α] [Neg α] [CFloat α]

/-- `glmc_unprojecti_no`: src/clipspace/project_no.c:11-15. -/
@[cglm]
def glmc_unprojecti_no (pos : V3 α) (invMat : M4 α) (vp : V4 α) : V3 α :=
  glm_unprojecti_no pos invMat vp

/-- `glmc_project_no`: src/clipspace/project_no.c:17-21. -/
@[cglm]
def glmc_project_no (pos : V3 α) (m : M4 α) (vp : V4 α) : V3 α :=
  glm_project_no pos m vp

/-- `glmc_project_z_no`: src/clipspace/project_no.c:23-27. -/
@[cglm]
def glmc_project_z_no (pos : V3 α) (m : M4 α) : α :=
  glm_project_z_no pos m

end Cglm

end SrcClipspaceProjectNo

section SrcClipspaceProjectZo

/- Generated from src/clipspace/project_zo.c by tools/gen.py (value semantics); do not edit by hand. -/

set_option linter.unusedVariables false
set_option linter.unusedSectionVars false

namespace Cglm

variable {α : Type} [Add α] [Sub α] [Mul α] [Div α] [Neg α] [CFloat α]

/-- `glmc_unprojecti_zo`: src/clipspace/project_zo.c:11-15. -/
@[cglm]
def glmc_unprojecti_zo (pos : V3 α) (invMat : M4 α) (vp : V4 α) : V3 α :=
  glm_unprojecti_zo pos invMat vp

/-- `glmc_project_zo`: src/clipspace/project_zo.c:17-21. -/
@[cglm]
def glmc_project_zo (pos : V3 α) (m : M4 α) (vp : V4 α) : V3 α :=
  glm_project_zo pos m vp

/-- `glmc_project_z_zo`: src/clipspace/project_zo.c:23-27. -/
@[cglm]
def glmc_project_z_zo (pos : V3 α) (m : M4 α) : α :=
  glm_project_z_zo pos m

end Cglm

end SrcClipspaceProjectZo

section SrcClipspaceViewLhNo

/- Generated from src/clipspace/view_lh_no.c by tools/gen.py (value semantics); do not edit by hand. -/

set_option linter.unusedVariables false
set_option linter.unusedSectionVars false

namespace Cglm

variable {α : Type} [Add α] [Sub α] [Mul α] [Div α] [Neg α] [CFloat α]

/-- `glmc_lookat_lh_no`: src/clipspace/view_lh_no.c:11-15. -/
@[cglm]
def glmc_lookat_lh_no (eye : V3 α) (center : V3 α) (up : V3 α) : M4 α :=
  glm_lookat_lh_no eye center up

/-- `glmc_look_lh_no`: src/clipspace/view_lh_no.c:17-21. -/
@[cglm]
def glmc_look_lh_no (eye : V3 α) (dir : V3 α) (up : V3 α) : M4 α :=
  glm_look_lh_no eye dir up

/-- `glmc_look_anyup_lh_no`: src/clipspace/view_lh_no.c:23-27. -/
@[cglm]
def glmc_look_anyup_lh_no (eye : V3 α) (dir : V3 α) : M4 α :=
  glm_look_anyup_lh_no eye dir

end Cglm

end SrcClipspaceViewLhNo

section SrcClipspaceViewLhZo

/- Generated from src/clipspace/view_lh_zo.c by tools/gen.py (value semantics); do not edit by hand. -/

set_option linter.unusedVariables false
set_option linter.unusedSectionVars false

namespace Cglm

variable {α : Type} [Add α] [Sub α] [Mul α] [Div α] [Neg α] [CFloat α]

/-- `glmc_lookat_lh_zo`: src/clipspace/view_lh_zo.c:11-15. -/
@[cglm]
def glmc_lookat_lh_zo (eye : V3 α) (center : V3 α) (up : V3 α) : M4 α :=
  glm_lookat_lh_zo eye center up

/-- `glmc_look_lh_zo`: src/clipspace/view_lh_zo.c:17-21. -/
@[cglm]
def glmc_look_lh_zo (eye : V3 α) (dir : V3 α) (up : V3 α) : M4 α :=
  glm_look_lh_zo eye dir up

/-- `glmc_look_anyup_lh_zo`: src/clipspace/view_lh_zo.c:23-27. -/
@[cglm]
def glmc_look_anyup_lh_zo (eye : V3 α) (dir : V3 α) : M4 α :=
  glm_look_anyup_lh_zo eye dir

end Cglm

end SrcClipspaceViewLhZo

section SrcClipspaceViewRhNo

/- Generated from src/clipspace/view_rh_no.c by tools/gen.py (value semantics); do not edit by hand. -/

set_option linter.unusedVariables false
set_option linter.unusedSectionVars false

namespace Cglm

variable {α : Type} [Add α] [Sub α] [Mul α] [Div α] [Neg α] [CFloat α]

/-- `glmc_lookat_rh_no`: src/clipspace/view_rh_no.c:11-15. -/
@[cglm]
def glmc_lookat_rh_no (eye : V3 α) (center : V3 α) (up : V3 α) : M4 α :=
  glm_lookat_rh_no eye center up

/-- `glmc_look_rh_no`: src/clipspace/view_rh_no.c:17-21. -/
@[cglm]
def glmc_look_rh_no (eye : V3 α) (dir : V3 α) (up : V3 α) : M4 α :=
  glm_look_rh_no eye dir up

/-- `glmc_look_anyup_rh_no`: src/clipspace/view_rh_no.c:23-27. -/
@[cglm]
def glmc_look_anyup_rh_no (eye : V3 α) (dir : V3 α) : M4 α :=
  glm_look_anyup_rh_no eye dir

end Cglm

end SrcClipspaceViewRhNo

section SrcClipspaceViewRhZo

/- Generated from src/clipspace/view_rh_zo.c by tools/gen.py (value semantics); do not edit by hand. -/

set_option linter.unusedVariables false
set_option linter.unusedSectionVars false

namespace Cglm

variable {α : Type} [Add α] [Sub α] [Mul α] [Div α] [Neg α] [CFloat α]

/-- `glmc_lookat_rh_zo`: src/clipspace/view_rh_zo.c:11-15. -/
@[cglm]
def glmc_lookat_rh_zo (eye : V3 α) (center : V3 α) (up : V3 α) : M4 α :=
  glm_lookat_rh_zo eye center up

/-- `glmc_look_rh_zo`: src/clipspace/view_rh_zo.c:17-21. -/
@[cglm]
def glmc_look_rh_zo (eye : V3 α) (dir : V3 α) (up : V3 α) : M4 α :=
  glm_look_rh_zo eye dir up

/-- `glmc_look_anyup_rh_zo`: src/clipspace/view_rh_zo.c:23-27. -/
@[cglm]
def glmc_look_anyup_rh_zo (eye : V3 α) (dir : V3 α) : M4 α :=
  glm_look_anyup_rh_zo eye dir

end Cglm

end SrcClipspaceViewRhZo

section SrcProject

/- Generated from src/project.c by tools/gen.py (value semantics); do not edit by hand. -/

set_option linter.unusedVariables false
set_option linter.unusedSectionVars false

namespace Cglm

variable {α : Type} [Add α] [Sub α] [Mul α] [Div α] [Neg α] [CFloat α]

/-- `glmc_unprojecti`: src/project.c:11-15. -/
@[cglm]
def glmc_unprojecti (pos : V3 α) (invMat : M4 α) (vp : V4 α) : V3 α :=
  glm_unprojecti pos invMat vp

/-- `glmc_unproject`: src/project.c:17-21. -/
@[cglm]
def glmc_unproject (pos : V3 α) (m : M4 α) (vp : V4 α) : V3 α :=
  glm_unproject pos m vp

/-- `glmc_project`: src/project.c:23-27. -/
@[cglm]
def glmc_project (pos : V3 α) (m : M4 α) (vp : V4 α) : V3 α :=
  glm_project pos m vp

/-- `glmc_project_z`: src/project.c:29-33. -/
@[cglm]
def glmc_project_z (pos : V3 α) (m : M4 α) : α :=
  glm_project_z pos m

/-- `glmc_pickmatrix`: src/project.c:35-39. -/
@[cglm]
def glmc_pickmatrix (center : V2 α) (size : V2 α) (vp : V4 α) (dest : M4 α) : M4 α :=
  glm_pickmatrix center size vp dest

end Cglm

end SrcProject
