/- Generated from the headers and src with CGLM_FORCE_LEFT_HANDED defined (functions that differ from the default configuration) by tools/gen.py (value semantics); do not edit by hand. -/
import Verif.Base
import Verif.Attr
import Verif.Gen.ClipspaceOrthoLhNo
import Verif.Gen.ClipspacePerspLhNo
import Verif.Gen.ClipspaceViewLh
import Verif.Gen.HandedEulerToQuatLh
import Verif.Gen.StructAffines

set_option linter.unusedVariables false
set_option linter.unusedSectionVars false

namespace Cglm.LhNo

variable {α : Type} [Add α] [Sub α] [Mul α] [Div α] [Neg α] [CFloat α]

/-- `glm_frustum`: include/cglm/cam.h:100-115. -/
@[cglm]
def glm_frustum (left : α) (right : α) (bottom : α) (top : α) (nearZ : α) (farZ : α) : M4 α :=
  glm_frustum_lh_no left right bottom top nearZ farZ

/-- `glm_ortho`: include/cglm/cam.h:128-143. -/
@[cglm]
def glm_ortho (left : α) (right : α) (bottom : α) (top : α) (nearZ : α) (farZ : α) : M4 α :=
  glm_ortho_lh_no left right bottom top nearZ farZ

/-- `glm_ortho_aabb`: include/cglm/cam.h:153-165. -/
@[cglm]
def glm_ortho_aabb (box : M2x3 α) : M4 α :=
  glm_ortho_aabb_lh_no box

/-- `glm_ortho_aabb_p`: include/cglm/cam.h:176-188. -/
@[cglm]
def glm_ortho_aabb_p (box : M2x3 α) (padding : α) : M4 α :=
  glm_ortho_aabb_p_lh_no box padding

/-- `glm_ortho_aabb_pz`: include/cglm/cam.h:199-211. -/
@[cglm]
def glm_ortho_aabb_pz (box : M2x3 α) (padding : α) : M4 α :=
  glm_ortho_aabb_pz_lh_no box padding

/-- `glm_ortho_default`: include/cglm/cam.h:219-231. -/
@[cglm]
def glm_ortho_default (aspect : α) : M4 α :=
  glm_ortho_default_lh_no aspect

/-- `glm_ortho_default_s`: include/cglm/cam.h:240-252. -/
@[cglm]
def glm_ortho_default_s (aspect : α) (size : α) : M4 α :=
  glm_ortho_default_s_lh_no aspect size

/-- `glm_perspective`: include/cglm/cam.h:263-275. -/
@[cglm]
def glm_perspective (fovy : α) (aspect : α) (nearZ : α) (farZ : α) : M4 α :=
  glm_perspective_lh_no fovy aspect nearZ farZ

/-- `glm_persp_move_far`: include/cglm/cam.h:285-297. -/
@[cglm]
def glm_persp_move_far (proj : M4 α) (deltaFar : α) : M4 α :=
  glm_persp_move_far_lh_no proj deltaFar

/-- `glm_perspective_default`: include/cglm/cam.h:306-318. -/
@[cglm]
def glm_perspective_default (aspect : α) : M4 α :=
  glm_perspective_default_lh_no aspect

/-- `glm_lookat`: include/cglm/cam.h:348-356. -/
@[cglm]
def glm_lookat (eye : V3 α) (center : V3 α) (up : V3 α) : M4 α :=
  glm_lookat_lh eye center up

/-- `glm_look`: include/cglm/cam.h:372-380. -/
@[cglm]
def glm_look (eye : V3 α) (dir : V3 α) (up : V3 α) : M4 α :=
  glm_look_lh eye dir up

/-- `glm_look_anyup`: include/cglm/cam.h:392-400. -/
@[cglm]
def glm_look_anyup (eye : V3 α) (dir : V3 α) : M4 α :=
  glm_look_anyup_lh eye dir

/-- `glm_persp_decomp`: include/cglm/cam.h:413-428. -/
@[cglm]
def glm_persp_decomp (proj : M4 α) : α × α × α × α × α × α :=
  let r := glm_persp_decomp_lh_no proj
  (r.1, r.2.1, r.2.2.1, r.2.2.2.1, r.2.2.2.2.1, r.2.2.2.2.2)

/-- `glm_persp_decompv`: include/cglm/cam.h:437-449. -/
@[cglm]
def glm_persp_decompv (proj : M4 α) : V6 α :=
  glm_persp_decompv_lh_no proj

/-- `glm_persp_decomp_x`: include/cglm/cam.h:459-473. -/
@[cglm]
def glm_persp_decomp_x (proj : M4 α) : α × α :=
  let r := glm_persp_decomp_x_lh_no proj
  (r.1, r.2)

/-- `glm_persp_decomp_y`: include/cglm/cam.h:483-497. -/
@[cglm]
def glm_persp_decomp_y (proj : M4 α) : α × α :=
  let r := glm_persp_decomp_y_lh_no proj
  (r.1, r.2)

/-- `glm_persp_decomp_z`: include/cglm/cam.h:507-519. -/
@[cglm]
def glm_persp_decomp_z (proj : M4 α) : α × α :=
  let r := glm_persp_decomp_z_lh_no proj
  (r.1, r.2)

/-- `glm_persp_decomp_far`: include/cglm/cam.h:527-539. -/
@[cglm]
def glm_persp_decomp_far (proj : M4 α) : α :=
  glm_persp_decomp_far_lh_no proj

/-- `glm_persp_decomp_near`: include/cglm/cam.h:547-559. -/
@[cglm]
def glm_persp_decomp_near (proj : M4 α) : α :=
  glm_persp_decomp_near_lh_no proj

/-- `glm_persp_sizes`: include/cglm/cam.h:568-580. -/
@[cglm]
def glm_persp_sizes (proj : M4 α) (fovy : α) : V4 α :=
  glm_persp_sizes_lh_no proj fovy

/-- `glm_euler_xyz_quat`: include/cglm/euler.h:505-513. -/
@[cglm]
def glm_euler_xyz_quat (angles : V3 α) : V4 α :=
  glm_euler_xyz_quat_lh angles

/-- `glm_euler_xzy_quat`: include/cglm/euler.h:522-530. -/
@[cglm]
def glm_euler_xzy_quat (angles : V3 α) : V4 α :=
  glm_euler_xzy_quat_lh angles

/-- `glm_euler_yxz_quat`: include/cglm/euler.h:539-547. -/
@[cglm]
def glm_euler_yxz_quat (angles : V3 α) : V4 α :=
  glm_euler_yxz_quat_lh angles

/-- `glm_euler_yzx_quat`: include/cglm/euler.h:556-564. -/
@[cglm]
def glm_euler_yzx_quat (angles : V3 α) : V4 α :=
  glm_euler_yzx_quat_lh angles

/-- `glm_euler_zxy_quat`: include/cglm/euler.h:573-581. -/
@[cglm]
def glm_euler_zxy_quat (angles : V3 α) : V4 α :=
  glm_euler_zxy_quat_lh angles

/-- `glm_euler_zyx_quat`: include/cglm/euler.h:590-598. -/
@[cglm]
def glm_euler_zyx_quat (angles : V3 α) : V4 α :=
  glm_euler_zyx_quat_lh angles

/-- `glms_frustum`: include/cglm/struct/cam.h:98-112. -/
@[cglm]
def glms_frustum (left : α) (right : α) (bottom : α) (top : α) (nearZ : α) (farZ : α) : M4 α :=
  glms_frustum_lh_no left right bottom top nearZ farZ

/-- `glms_ortho`: include/cglm/struct/cam.h:125-139. -/
@[cglm]
def glms_ortho (left : α) (right : α) (bottom : α) (top : α) (nearZ : α) (farZ : α) : M4 α :=
  glms_ortho_lh_no left right bottom top nearZ farZ

/-- `glms_ortho_aabb`: include/cglm/struct/cam.h:149-161. -/
@[cglm]
def glms_ortho_aabb (box : M2x3 α) : M4 α :=
  glms_ortho_aabb_lh_no box

/-- `glms_ortho_aabb_p`: include/cglm/struct/cam.h:172-184. -/
@[cglm]
def glms_ortho_aabb_p (box : M2x3 α) (padding : α) : M4 α :=
  glms_ortho_aabb_p_lh_no box padding

/-- `glms_ortho_aabb_pz`: include/cglm/struct/cam.h:195-207. -/
@[cglm]
def glms_ortho_aabb_pz (box : M2x3 α) (padding : α) : M4 α :=
  glms_ortho_aabb_pz_lh_no box padding

/-- `glms_ortho_default`: include/cglm/struct/cam.h:215-227. -/
@[cglm]
def glms_ortho_default (aspect : α) : M4 α :=
  glms_ortho_default_lh_no aspect

/-- `glms_ortho_default_s`: include/cglm/struct/cam.h:236-248. -/
@[cglm]
def glms_ortho_default_s (aspect : α) (size : α) : M4 α :=
  glms_ortho_default_s_lh_no aspect size

/-- `glms_perspective`: include/cglm/struct/cam.h:259-271. -/
@[cglm]
def glms_perspective (fovy : α) (aspect : α) (nearZ : α) (farZ : α) : M4 α :=
  glms_perspective_lh_no fovy aspect nearZ farZ

/-- `glms_persp_move_far`: include/cglm/struct/cam.h:285-297. -/
@[cglm]
def glms_persp_move_far (proj : M4 α) (deltaFar : α) : M4 α :=
  glms_persp_move_far_lh_no proj deltaFar

/-- `glms_perspective_default`: include/cglm/struct/cam.h:306-318. -/
@[cglm]
def glms_perspective_default (aspect : α) : M4 α :=
  glms_perspective_default_lh_no aspect

/-- `glms_perspective_resize`: include/cglm/struct/cam.h:332-344. -/
@[cglm]
def glms_perspective_resize (proj : M4 α) (aspect : α) : M4 α :=
  glms_perspective_resize_lh_no proj aspect

/-- `glms_lookat`: include/cglm/struct/cam.h:357-369. -/
@[cglm]
def glms_lookat (eye : V3 α) (center : V3 α) (up : V3 α) : M4 α :=
  glms_lookat_lh_no eye center up

/-- `glms_look`: include/cglm/struct/cam.h:385-397. -/
@[cglm]
def glms_look (eye : V3 α) (dir : V3 α) (up : V3 α) : M4 α :=
  glms_look_lh_no eye dir up

/-- `glms_look_anyup`: include/cglm/struct/cam.h:409-421. -/
@[cglm]
def glms_look_anyup (eye : V3 α) (dir : V3 α) : M4 α :=
  glms_look_anyup_lh_no eye dir

/-- `glms_persp_decomp`: include/cglm/struct/cam.h:434-449. -/
@[cglm]
def glms_persp_decomp (proj : M4 α) : α × α × α × α × α × α :=
  let r := glms_persp_decomp_lh_no proj
  (r.1, r.2.1, r.2.2.1, r.2.2.2.1, r.2.2.2.2.1, r.2.2.2.2.2)

/-- `glms_persp_decompv`: include/cglm/struct/cam.h:458-470. -/
@[cglm]
def glms_persp_decompv (proj : M4 α) : V6 α :=
  glms_persp_decompv_lh_no proj

/-- `glms_persp_decomp_x`: include/cglm/struct/cam.h:480-494. -/
@[cglm]
def glms_persp_decomp_x (proj : M4 α) : α × α :=
  let r := glms_persp_decomp_x_lh_no proj
  (r.1, r.2)

/-- `glms_persp_decomp_y`: include/cglm/struct/cam.h:504-518. -/
@[cglm]
def glms_persp_decomp_y (proj : M4 α) : α × α :=
  let r := glms_persp_decomp_y_lh_no proj
  (r.1, r.2)

/-- `glms_persp_decomp_z`: include/cglm/struct/cam.h:528-542. -/
@[cglm]
def glms_persp_decomp_z (proj : M4 α) : α × α :=
  let r := glms_persp_decomp_z_lh_no proj
  (r.1, r.2)

/-- `glms_persp_decomp_far`: include/cglm/struct/cam.h:550-562. -/
@[cglm]
def glms_persp_decomp_far (proj : M4 α) : α :=
  glms_persp_decomp_far_lh_no proj

/-- `glms_persp_decomp_near`: include/cglm/struct/cam.h:570-582. -/
@[cglm]
def glms_persp_decomp_near (proj : M4 α) : α :=
  glms_persp_decomp_near_lh_no proj

/-- `glms_persp_fovy`: include/cglm/struct/cam.h:592-604. -/
@[cglm]
def glms_persp_fovy (proj : M4 α) : α :=
  glms_persp_fovy_lh_no proj

/-- `glms_persp_aspect`: include/cglm/struct/cam.h:611-623. -/
@[cglm]
def glms_persp_aspect (proj : M4 α) : α :=
  glms_persp_aspect_lh_no proj

/-- `glms_persp_sizes`: include/cglm/struct/cam.h:632-644. -/
@[cglm]
def glms_persp_sizes (proj : M4 α) (fovy : α) : V4 α :=
  glms_persp_sizes_lh_no proj fovy

/-- `glms_euler_xyz_quat`: include/cglm/struct/euler.h:165-171. -/
@[cglm]
def glms_euler_xyz_quat (angles : V3 α) : V4 α :=
  glm_euler_xyz_quat angles

/-- `glms_euler_xzy_quat`: include/cglm/struct/euler.h:180-186. -/
@[cglm]
def glms_euler_xzy_quat (angles : V3 α) : V4 α :=
  glm_euler_xzy_quat angles

/-- `glms_euler_yxz_quat`: include/cglm/struct/euler.h:195-201. -/
@[cglm]
def glms_euler_yxz_quat (angles : V3 α) : V4 α :=
  glm_euler_yxz_quat angles

/-- `glms_euler_yzx_quat`: include/cglm/struct/euler.h:210-216. -/
@[cglm]
def glms_euler_yzx_quat (angles : V3 α) : V4 α :=
  glm_euler_yzx_quat angles

/-- `glms_euler_zxy_quat`: include/cglm/struct/euler.h:225-231. -/
@[cglm]
def glms_euler_zxy_quat (angles : V3 α) : V4 α :=
  glm_euler_zxy_quat angles

/-- `glms_euler_zyx_quat`: include/cglm/struct/euler.h:240-246. -/
@[cglm]
def glms_euler_zyx_quat (angles : V3 α) : V4 α :=
  glm_euler_zyx_quat angles

/-- `glmc_frustum`: src/cam.c:11-18. -/
@[cglm]
def glmc_frustum (left : α) (right : α) (bottom : α) (top : α) (nearZ : α) (farZ : α) : M4 α :=
  glm_frustum left right bottom top nearZ farZ

/-- `glmc_ortho`: src/cam.c:20-27. -/
@[cglm]
def glmc_ortho (left : α) (right : α) (bottom : α) (top : α) (nearZ : α) (farZ : α) : M4 α :=
  glm_ortho left right bottom top nearZ farZ

/-- `glmc_ortho_aabb`: src/cam.c:29-33. -/
@[cglm]
def glmc_ortho_aabb (box : M2x3 α) : M4 α :=
  glm_ortho_aabb box

/-- `glmc_ortho_aabb_p`: src/cam.c:35-39. -/
@[cglm]
def glmc_ortho_aabb_p (box : M2x3 α) (padding : α) : M4 α :=
  glm_ortho_aabb_p box padding

/-- `glmc_ortho_aabb_pz`: src/cam.c:41-45. -/
@[cglm]
def glmc_ortho_aabb_pz (box : M2x3 α) (padding : α) : M4 α :=
  glm_ortho_aabb_pz box padding

/-- `glmc_ortho_default`: src/cam.c:47-51. -/
@[cglm]
def glmc_ortho_default (aspect : α) : M4 α :=
  glm_ortho_default aspect

/-- `glmc_ortho_default_s`: src/cam.c:53-57. -/
@[cglm]
def glmc_ortho_default_s (aspect : α) (size : α) : M4 α :=
  glm_ortho_default_s aspect size

/-- `glmc_perspective`: src/cam.c:59-63. -/
@[cglm]
def glmc_perspective (fovy : α) (aspect : α) (nearZ : α) (farZ : α) : M4 α :=
  glm_perspective fovy aspect nearZ farZ

/-- `glmc_persp_move_far`: src/cam.c:65-69. -/
@[cglm]
def glmc_persp_move_far (proj : M4 α) (deltaFar : α) : M4 α :=
  glm_persp_move_far proj deltaFar

/-- `glmc_perspective_default`: src/cam.c:71-75. -/
@[cglm]
def glmc_perspective_default (aspect : α) : M4 α :=
  glm_perspective_default aspect

/-- `glmc_lookat`: src/cam.c:83-87. -/
@[cglm]
def glmc_lookat (eye : V3 α) (center : V3 α) (up : V3 α) : M4 α :=
  glm_lookat eye center up

/-- `glmc_look`: src/cam.c:89-93. -/
@[cglm]
def glmc_look (eye : V3 α) (dir : V3 α) (up : V3 α) : M4 α :=
  glm_look eye dir up

/-- `glmc_look_anyup`: src/cam.c:95-99. -/
@[cglm]
def glmc_look_anyup (eye : V3 α) (dir : V3 α) : M4 α :=
  glm_look_anyup eye dir

/-- `glmc_persp_decomp`: src/cam.c:101-111. -/
@[cglm]
def glmc_persp_decomp (proj : M4 α) : α × α × α × α × α × α :=
  let r := glm_persp_decomp proj
  (r.1, r.2.1, r.2.2.1, r.2.2.2.1, r.2.2.2.2.1, r.2.2.2.2.2)

/-- `glmc_persp_decompv`: src/cam.c:113-117. -/
@[cglm]
def glmc_persp_decompv (proj : M4 α) : V6 α :=
  glm_persp_decompv proj

/-- `glmc_persp_decomp_x`: src/cam.c:119-125. -/
@[cglm]
def glmc_persp_decomp_x (proj : M4 α) : α × α :=
  let r := glm_persp_decomp_x proj
  (r.1, r.2)

/-- `glmc_persp_decomp_y`: src/cam.c:127-133. -/
@[cglm]
def glmc_persp_decomp_y (proj : M4 α) : α × α :=
  let r := glm_persp_decomp_y proj
  (r.1, r.2)

/-- `glmc_persp_decomp_z`: src/cam.c:135-141. -/
@[cglm]
def glmc_persp_decomp_z (proj : M4 α) : α × α :=
  let r := glm_persp_decomp_z proj
  (r.1, r.2)

/-- `glmc_persp_decomp_far`: src/cam.c:143-147. -/
@[cglm]
def glmc_persp_decomp_far (proj : M4 α) : α :=
  glm_persp_decomp_far proj

/-- `glmc_persp_decomp_near`: src/cam.c:149-153. -/
@[cglm]
def glmc_persp_decomp_near (proj : M4 α) : α :=
  glm_persp_decomp_near proj

/-- `glmc_persp_sizes`: src/cam.c:167-171. -/
@[cglm]
def glmc_persp_sizes (proj : M4 α) (fovy : α) : V4 α :=
  glm_persp_sizes proj fovy

/-- `glmc_euler_xyz_quat`: src/euler.c:65-69. -/
@[cglm]
def glmc_euler_xyz_quat (angles : V3 α) : V4 α :=
  glm_euler_xyz_quat angles

/-- `glmc_euler_xzy_quat`: src/euler.c:71-75. -/
@[cglm]
def glmc_euler_xzy_quat (angles : V3 α) : V4 α :=
  glm_euler_xzy_quat angles

/-- `glmc_euler_yxz_quat`: src/euler.c:77-81. -/
@[cglm]
def glmc_euler_yxz_quat (angles : V3 α) : V4 α :=
  glm_euler_yxz_quat angles

/-- `glmc_euler_yzx_quat`: src/euler.c:83-87. -/
@[cglm]
def glmc_euler_yzx_quat (angles : V3 α) : V4 α :=
  glm_euler_yzx_quat angles

/-- `glmc_euler_zxy_quat`: src/euler.c:89-93. -/
@[cglm]
def glmc_euler_zxy_quat (angles : V3 α) : V4 α :=
  glm_euler_zxy_quat angles

/-- `glmc_euler_zyx_quat`: src/euler.c:95-99. -/
@[cglm]
def glmc_euler_zyx_quat (angles : V3 α) : V4 α :=
  glm_euler_zyx_quat angles

end Cglm.LhNo
