/- Generated from the headers and src with CGLM_FORCE_DEPTH_ZERO_TO_ONE defined (functions that differ from the default configuration) by tools/gen.py (value semantics); do not edit by hand. -/
import Verif.Base
import Verif.Attr
import Verif.Gen.ClipspaceOrthoRhZo
import Verif.Gen.ClipspacePerspRhZo
import Verif.Gen.ClipspaceProjectZo
import Verif.Gen.Mat4
import Verif.Gen.StructAffines

set_option linter.unusedVariables false
set_option linter.unusedSectionVars false

namespace Cglm.RhZo

variable {α : Type} [Add α] [Sub α] [Mul α] [Div α] [Neg α] [CFloat α]

/-- `glm_frustum`: include/cglm/cam.h:100-115. -/
@[cglm]
def glm_frustum (left : α) (right : α) (bottom : α) (top : α) (nearZ : α) (farZ : α) : M4 α :=
  glm_frustum_rh_zo left right bottom top nearZ farZ

/-- `glm_ortho`: include/cglm/cam.h:128-143. -/
@[cglm]
def glm_ortho (left : α) (right : α) (bottom : α) (top : α) (nearZ : α) (farZ : α) : M4 α :=
  glm_ortho_rh_zo left right bottom top nearZ farZ

/-- `glm_ortho_aabb`: include/cglm/cam.h:153-165. -/
@[cglm]
def glm_ortho_aabb (box : M2x3 α) : M4 α :=
  glm_ortho_aabb_rh_zo box

/-- `glm_ortho_aabb_p`: include/cglm/cam.h:176-188. -/
@[cglm]
def glm_ortho_aabb_p (box : M2x3 α) (padding : α) : M4 α :=
  glm_ortho_aabb_p_rh_zo box padding

/-- `glm_ortho_aabb_pz`: include/cglm/cam.h:199-211. -/
@[cglm]
def glm_ortho_aabb_pz (box : M2x3 α) (padding : α) : M4 α :=
  glm_ortho_aabb_pz_rh_zo box padding

/-- `glm_ortho_default`: include/cglm/cam.h:219-231. -/
@[cglm]
def glm_ortho_default (aspect : α) : M4 α :=
  glm_ortho_default_rh_zo aspect

/-- `glm_ortho_default_s`: include/cglm/cam.h:240-252. -/
@[cglm]
def glm_ortho_default_s (aspect : α) (size : α) : M4 α :=
  glm_ortho_default_s_rh_zo aspect size

/-- `glm_perspective`: include/cglm/cam.h:263-275. -/
@[cglm]
def glm_perspective (fovy : α) (aspect : α) (nearZ : α) (farZ : α) : M4 α :=
  glm_perspective_rh_zo fovy aspect nearZ farZ

/-- `glm_persp_move_far`: include/cglm/cam.h:285-297. -/
@[cglm]
def glm_persp_move_far (proj : M4 α) (deltaFar : α) : M4 α :=
  glm_persp_move_far_rh_zo proj deltaFar

/-- `glm_perspective_default`: include/cglm/cam.h:306-318. -/
@[cglm]
def glm_perspective_default (aspect : α) : M4 α :=
  glm_perspective_default_rh_zo aspect

/-- `glm_persp_decomp`: include/cglm/cam.h:413-428. -/
@[cglm]
def glm_persp_decomp (proj : M4 α) : α × α × α × α × α × α :=
  let r := glm_persp_decomp_rh_zo proj
  (r.1, r.2.1, r.2.2.1, r.2.2.2.1, r.2.2.2.2.1, r.2.2.2.2.2)

/-- `glm_persp_decompv`: include/cglm/cam.h:437-449. -/
@[cglm]
def glm_persp_decompv (proj : M4 α) : V6 α :=
  glm_persp_decompv_rh_zo proj

/-- `glm_persp_decomp_x`: include/cglm/cam.h:459-473. -/
@[cglm]
def glm_persp_decomp_x (proj : M4 α) : α × α :=
  let r := glm_persp_decomp_x_rh_zo proj
  (r.1, r.2)

/-- `glm_persp_decomp_y`: include/cglm/cam.h:483-497. -/
@[cglm]
def glm_persp_decomp_y (proj : M4 α) : α × α :=
  let r := glm_persp_decomp_y_rh_zo proj
  (r.1, r.2)

/-- `glm_persp_decomp_z`: include/cglm/cam.h:507-519. -/
@[cglm]
def glm_persp_decomp_z (proj : M4 α) : α × α :=
  let r := glm_persp_decomp_z_rh_zo proj
  (r.1, r.2)

/-- `glm_persp_decomp_far`: include/cglm/cam.h:527-539. -/
@[cglm]
def glm_persp_decomp_far (proj : M4 α) : α :=
  glm_persp_decomp_far_rh_zo proj

/-- `glm_persp_decomp_near`: include/cglm/cam.h:547-559. -/
@[cglm]
def glm_persp_decomp_near (proj : M4 α) : α :=
  glm_persp_decomp_near_rh_zo proj

/-- `glm_persp_sizes`: include/cglm/cam.h:568-580. -/
@[cglm]
def glm_persp_sizes (proj : M4 α) (fovy : α) : V4 α :=
  glm_persp_sizes_rh_zo proj fovy

/-- `glm_unprojecti`: include/cglm/project.h:53-61. -/
@[cglm]
def glm_unprojecti (pos : V3 α) (invMat : M4 α) (vp : V4 α) : V3 α :=
  glm_unprojecti_zo pos invMat vp

/-- `glm_unproject`: include/cglm/project.h:87-93. -/
@[cglm]
def glm_unproject (pos : V3 α) (m : M4 α) (vp : V4 α) : V3 α :=
  let inv := glm_mat4_inv m
  glm_unprojecti pos inv vp

/-- `glm_project`: include/cglm/project.h:107-115. -/
@[cglm]
def glm_project (pos : V3 α) (m : M4 α) (vp : V4 α) : V3 α :=
  glm_project_zo pos m vp

/-- `glm_project_z`: include/cglm/project.h:129-137. -/
@[cglm]
def glm_project_z (v : V3 α) (m : M4 α) : α :=
  glm_project_z_zo v m

/-- `glms_frustum`: include/cglm/struct/cam.h:98-112. -/
@[cglm]
def glms_frustum (left : α) (right : α) (bottom : α) (top : α) (nearZ : α) (farZ : α) : M4 α :=
  glms_frustum_rh_zo left right bottom top nearZ farZ

/-- `glms_ortho`: include/cglm/struct/cam.h:125-139. -/
@[cglm]
def glms_ortho (left : α) (right : α) (bottom : α) (top : α) (nearZ : α) (farZ : α) : M4 α :=
  glms_ortho_rh_zo left right bottom top nearZ farZ

/-- `glms_ortho_aabb`: include/cglm/struct/cam.h:149-161. -/
@[cglm]
def glms_ortho_aabb (box : M2x3 α) : M4 α :=
  glms_ortho_aabb_rh_zo box

/-- `glms_ortho_aabb_p`: include/cglm/struct/cam.h:172-184. -/
@[cglm]
def glms_ortho_aabb_p (box : M2x3 α) (padding : α) : M4 α :=
  glms_ortho_aabb_p_rh_zo box padding

/-- `glms_ortho_aabb_pz`: include/cglm/struct/cam.h:195-207. -/
@[cglm]
def glms_ortho_aabb_pz (box : M2x3 α) (padding : α) : M4 α :=
  glms_ortho_aabb_pz_rh_zo box padding

/-- `glms_ortho_default`: include/cglm/struct/cam.h:215-227. -/
@[cglm]
def glms_ortho_default (aspect : α) : M4 α :=
  glms_ortho_default_rh_zo aspect

/-- `glms_ortho_default_s`: include/cglm/struct/cam.h:236-248. -/
@[cglm]
def glms_ortho_default_s (aspect : α) (size : α) : M4 α :=
  glms_ortho_default_s_rh_zo aspect size

/-- `glms_perspective`: include/cglm/struct/cam.h:259-271. -/
@[cglm]
def glms_perspective (fovy : α) (aspect : α) (nearZ : α) (farZ : α) : M4 α :=
  glms_perspective_rh_zo fovy aspect nearZ farZ

/-- `glms_persp_move_far`: include/cglm/struct/cam.h:285-297. -/
@[cglm]
def glms_persp_move_far (proj : M4 α) (deltaFar : α) : M4 α :=
  glms_persp_move_far_rh_zo proj deltaFar

/-- `glms_perspective_default`: include/cglm/struct/cam.h:306-318. -/
@[cglm]
def glms_perspective_default (aspect : α) : M4 α :=
  glms_perspective_default_rh_zo aspect

/-- `glms_perspective_resize`: include/cglm/struct/cam.h:332-344. -/
@[cglm]
def glms_perspective_resize (proj : M4 α) (aspect : α) : M4 α :=
  glms_perspective_resize_rh_zo proj aspect

/-- `glms_lookat`: include/cglm/struct/cam.h:357-369. -/
@[cglm]
def glms_lookat (eye : V3 α) (center : V3 α) (up : V3 α) : M4 α :=
  glms_lookat_rh_zo eye center up

/-- `glms_look`: include/cglm/struct/cam.h:385-397. -/
@[cglm]
def glms_look (eye : V3 α) (dir : V3 α) (up : V3 α) : M4 α :=
  glms_look_rh_zo eye dir up

/-- `glms_look_anyup`: include/cglm/struct/cam.h:409-421. -/
@[cglm]
def glms_look_anyup (eye : V3 α) (dir : V3 α) : M4 α :=
  glms_look_anyup_rh_zo eye dir

/-- `glms_persp_decomp`: include/cglm/struct/cam.h:434-449. -/
@[cglm]
def glms_persp_decomp (proj : M4 α) : α × α × α × α × α × α :=
  let r := glms_persp_decomp_rh_zo proj
  (r.1, r.2.1, r.2.2.1, r.2.2.2.1, r.2.2.2.2.1, r.2.2.2.2.2)

/-- `glms_persp_decompv`: include/cglm/struct/cam.h:458-470. -/
@[cglm]
def glms_persp_decompv (proj : M4 α) : V6 α :=
  glms_persp_decompv_rh_zo proj

/-- `glms_persp_decomp_x`: include/cglm/struct/cam.h:480-494. -/
@[cglm]
def glms_persp_decomp_x (proj : M4 α) : α × α :=
  let r := glms_persp_decomp_x_rh_zo proj
  (r.1, r.2)

/-- `glms_persp_decomp_y`: include/cglm/struct/cam.h:504-518. -/
@[cglm]
def glms_persp_decomp_y (proj : M4 α) : α × α :=
  let r := glms_persp_decomp_y_rh_zo proj
  (r.1, r.2)

/-- `glms_persp_decomp_z`: include/cglm/struct/cam.h:528-542. -/
@[cglm]
def glms_persp_decomp_z (proj : M4 α) : α × α :=
  let r := glms_persp_decomp_z_rh_zo proj
  (r.1, r.2)

/-- `glms_persp_decomp_far`: include/cglm/struct/cam.h:550-562. -/
@[cglm]
def glms_persp_decomp_far (proj : M4 α) : α :=
  glms_persp_decomp_far_rh_zo proj

/-- `glms_persp_decomp_near`: include/cglm/struct/cam.h:570-582. -/
@[cglm]
def glms_persp_decomp_near (proj : M4 α) : α :=
  glms_persp_decomp_near_rh_zo proj

/-- `glms_persp_fovy`: include/cglm/struct/cam.h:592-604. -/
@[cglm]
def glms_persp_fovy (proj : M4 α) : α :=
  glms_persp_fovy_rh_zo proj

/-- `glms_persp_aspect`: include/cglm/struct/cam.h:611-623. -/
@[cglm]
def glms_persp_aspect (proj : M4 α) : α :=
  glms_persp_aspect_rh_zo proj

/-- `glms_persp_sizes`: include/cglm/struct/cam.h:632-644. -/
@[cglm]
def glms_persp_sizes (proj : M4 α) (fovy : α) : V4 α :=
  glms_persp_sizes_rh_zo proj fovy

/-- `glms_unprojecti`: include/cglm/struct/project.h:55-61. -/
@[cglm]
def glms_unprojecti (pos : V3 α) (invMat : M4 α) (vp : V4 α) : V3 α :=
  glm_unprojecti pos invMat vp

/-- `glms_unproject`: include/cglm/struct/project.h:90-96. -/
@[cglm]
def glms_unproject (pos : V3 α) (m : M4 α) (vp : V4 α) : V3 α :=
  glm_unproject pos m vp

/-- `glms_project`: include/cglm/struct/project.h:113-119. -/
@[cglm]
def glms_project (pos : V3 α) (m : M4 α) (vp : V4 α) : V3 α :=
  glm_project pos m vp

/-- `glms_project_z`: include/cglm/struct/project.h:136-144. -/
@[cglm]
def glms_project_z (v : V3 α) (m : M4 α) : α :=
  glms_project_z_zo v m

/-- `glmc_frustum`: src/cam.c:11-18. -/
@[cglm]
def glmc_frustum (left : α) (right : α) (bottom : α) (top : α) (nearZ : α) (farZ : α) : M4 α :=
  glm_frustum left right bottom top nearZ farZ

/-- `glmc_ortho`: src/cam.c:20-27. -/
@[cglm]
def glmc_ortho (left : α) (right : α) (bottom : α) (top : α) (nearZ : α) (farZ : α) : M4 α :=
  glm_ortho left right bottom top nearZ farZ

/-- `glmc_ortho_aabb`: src/cam.c:29-33. -/
@[cglm]
def glmc_ortho_aabb (box : M2x3 α) : M4 α :=
  glm_ortho_aabb box

/-- `glmc_ortho_aabb_p`: src/cam.c:35-39. -/
@[cglm]
def glmc_ortho_aabb_p (box : M2x3 α) (padding : α) : M4 α :=
  glm_ortho_aabb_p box padding

/-- `glmc_ortho_aabb_pz`: src/cam.c:41-45. -/
@[cglm]
def glmc_ortho_aabb_pz (box : M2x3 α) (padding : α) : M4 α :=
  glm_ortho_aabb_pz box padding

/-- `glmc_ortho_default`: src/cam.c:47-51. -/
@[cglm]
def glmc_ortho_default (aspect : α) : M4 α :=
  glm_ortho_default aspect

/-- `glmc_ortho_default_s`: src/cam.c:53-57. -/
@[cglm]
def glmc_ortho_default_s (aspect : α) (size : α) : M4 α :=
  glm_ortho_default_s aspect size

/-- `glmc_perspective`: src/cam.c:59-63. -/
@[cglm]
def glmc_perspective (fovy : α) (aspect : α) (nearZ : α) (farZ : α) : M4 α :=
  glm_perspective fovy aspect nearZ farZ

/-- `glmc_persp_move_far`: src/cam.c:65-69. -/
@[cglm]
def glmc_persp_move_far (proj : M4 α) (deltaFar : α) : M4 α :=
  glm_persp_move_far proj deltaFar

/-- `glmc_perspective_default`: src/cam.c:71-75. -/
@[cglm]
def glmc_perspective_default (aspect : α) : M4 α :=
  glm_perspective_default aspect

/-- `glmc_persp_decomp`: src/cam.c:101-111. -/
@[cglm]
def glmc_persp_decomp (proj : M4 α) : α × α × α × α × α × α :=
  let r := glm_persp_decomp proj
  (r.1, r.2.1, r.2.2.1, r.2.2.2.1, r.2.2.2.2.1, r.2.2.2.2.2)

/-- `glmc_persp_decompv`: src/cam.c:113-117. -/
@[cglm]
def glmc_persp_decompv (proj : M4 α) : V6 α :=
  glm_persp_decompv proj

/-- `glmc_persp_decomp_x`: src/cam.c:119-125. -/
@[cglm]
def glmc_persp_decomp_x (proj : M4 α) : α × α :=
  let r := glm_persp_decomp_x proj
  (r.1, r.2)

/-- `glmc_persp_decomp_y`: src/cam.c:127-133. -/
@[cglm]
def glmc_persp_decomp_y (proj : M4 α) : α × α :=
  let r := glm_persp_decomp_y proj
  (r.1, r.2)

/-- `glmc_persp_decomp_z`: src/cam.c:135-141. -/
@[cglm]
def glmc_persp_decomp_z (proj : M4 α) : α × α :=
  let r := glm_persp_decomp_z proj
  (r.1, r.2)

/-- `glmc_persp_decomp_far`: src/cam.c:143-147. -/
@[cglm]
def glmc_persp_decomp_far (proj : M4 α) : α :=
  glm_persp_decomp_far proj

/-- `glmc_persp_decomp_near`: src/cam.c:149-153. -/
@[cglm]
def glmc_persp_decomp_near (proj : M4 α) : α :=
  glm_persp_decomp_near proj

/-- `glmc_persp_sizes`: src/cam.c:167-171. -/
@[cglm]
def glmc_persp_sizes (proj : M4 α) (fovy : α) : V4 α :=
  glm_persp_sizes proj fovy

/-- `glmc_unprojecti`: src/project.c:11-15. -/
@[cglm]
def glmc_unprojecti (pos : V3 α) (invMat : M4 α) (vp : V4 α) : V3 α :=
  glm_unprojecti pos invMat vp

/-- `glmc_unproject`: src/project.c:17-21. -/
@[cglm]
def glmc_unproject (pos : V3 α) (m : M4 α) (vp : V4 α) : V3 α :=
  glm_unproject pos m vp

/-- `glmc_project`: src/project.c:23-27. -/
@[cglm]
def glmc_project (pos : V3 α) (m : M4 α) (vp : V4 α) : V3 α :=
  glm_project pos m vp

/-- `glmc_project_z`: src/project.c:29-33. -/
@[cglm]
def glmc_project_z (pos : V3 α) (m : M4 α) : α :=
  glm_project_z pos m

end Cglm.RhZo
