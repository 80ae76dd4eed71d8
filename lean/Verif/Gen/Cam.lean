/- Generated from include/cglm/cam.h by tools/gen.py (value semantics); do not edit by hand. -/
import Verif.Base
import Verif.Attr
import Verif.Gen.ClipspaceOrthoRhNo
import Verif.Gen.ClipspacePerspRhNo
import Verif.Gen.ClipspaceViewRh

set_option linter.unusedVariables false
set_option linter.unusedSectionVars false

namespace Cglm

variable {α : Type} [Add α] [Sub α] [Mul α] [Div α] [Neg α] [CFloat α]

/-- `glm_frustum`: include/cglm/cam.h:100-115. -/
@[cglm]
def glm_frustum (left : α) (right : α) (bottom : α) (top : α) (nearZ : α) (farZ : α) : M4 α :=
  glm_frustum_rh_no left right bottom top nearZ farZ

/-- `glm_ortho`: include/cglm/cam.h:128-143. -/
@[cglm]
def glm_ortho (left : α) (right : α) (bottom : α) (top : α) (nearZ : α) (farZ : α) : M4 α :=
  glm_ortho_rh_no left right bottom top nearZ farZ

/-- `glm_ortho_aabb`: include/cglm/cam.h:153-165. -/
@[cglm]
def glm_ortho_aabb (box : M2x3 α) : M4 α :=
  glm_ortho_aabb_rh_no box

/-- `glm_ortho_aabb_p`: include/cglm/cam.h:176-188. -/
@[cglm]
def glm_ortho_aabb_p (box : M2x3 α) (padding : α) : M4 α :=
  glm_ortho_aabb_p_rh_no box padding

/-- `glm_ortho_aabb_pz`: include/cglm/cam.h:199-211. -/
@[cglm]
def glm_ortho_aabb_pz (box : M2x3 α) (padding : α) : M4 α :=
  glm_ortho_aabb_pz_rh_no box padding

/-- `glm_ortho_default`: include/cglm/cam.h:219-231. -/
@[cglm]
def glm_ortho_default (aspect : α) : M4 α :=
  glm_ortho_default_rh_no aspect

/-- `glm_ortho_default_s`: include/cglm/cam.h:240-252. -/
@[cglm]
def glm_ortho_default_s (aspect : α) (size : α) : M4 α :=
  glm_ortho_default_s_rh_no aspect size

/-- `glm_perspective`: include/cglm/cam.h:263-275. -/
@[cglm]
def glm_perspective (fovy : α) (aspect : α) (nearZ : α) (farZ : α) : M4 α :=
  glm_perspective_rh_no fovy aspect nearZ farZ

/-- `glm_persp_move_far`: include/cglm/cam.h:285-297. -/
@[cglm]
def glm_persp_move_far (proj : M4 α) (deltaFar : α) : M4 α :=
  glm_persp_move_far_rh_no proj deltaFar

/-- `glm_perspective_default`: include/cglm/cam.h:306-318. -/
@[cglm]
def glm_perspective_default (aspect : α) : M4 α :=
  glm_perspective_default_rh_no aspect

/-- `glm_perspective_resize`: include/cglm/cam.h:328-335. -/
@[cglm]
def glm_perspective_resize (aspect : α) (proj : M4 α) : M4 α :=
  if feq proj.c0.x (lit 0) then
    proj
  else
    ⟨⟨proj.c1.y / aspect, proj.c0.y, proj.c0.z, proj.c0.w⟩, proj.c1, proj.c2, proj.c3⟩

/-- `glm_lookat`: include/cglm/cam.h:348-356. -/
@[cglm]
def glm_lookat (eye : V3 α) (center : V3 α) (up : V3 α) : M4 α :=
  glm_lookat_rh eye center up

/-- `glm_look`: include/cglm/cam.h:372-380. -/
@[cglm]
def glm_look (eye : V3 α) (dir : V3 α) (up : V3 α) : M4 α :=
  glm_look_rh eye dir up

/-- `glm_look_anyup`: include/cglm/cam.h:392-400. -/
@[cglm]
def glm_look_anyup (eye : V3 α) (dir : V3 α) : M4 α :=
  glm_look_anyup_rh eye dir

/-- `glm_persp_decomp`: include/cglm/cam.h:413-428. -/
@[cglm]
def glm_persp_decomp (proj : M4 α) : α × α × α × α × α × α :=
  let r := glm_persp_decomp_rh_no proj
  (r.1, r.2.1, r.2.2.1, r.2.2.2.1, r.2.2.2.2.1, r.2.2.2.2.2)

/-- `glm_persp_decompv`: include/cglm/cam.h:437-449. -/
@[cglm]
def glm_persp_decompv (proj : M4 α) : V6 α :=
  glm_persp_decompv_rh_no proj

/-- `glm_persp_decomp_x`: include/cglm/cam.h:459-473. -/
@[cglm]
def glm_persp_decomp_x (proj : M4 α) : α × α :=
  let r := glm_persp_decomp_x_rh_no proj
  (r.1, r.2)

/-- `glm_persp_decomp_y`: include/cglm/cam.h:483-497. -/
@[cglm]
def glm_persp_decomp_y (proj : M4 α) : α × α :=
  let r := glm_persp_decomp_y_rh_no proj
  (r.1, r.2)

/-- `glm_persp_decomp_z`: include/cglm/cam.h:507-519. -/
@[cglm]
def glm_persp_decomp_z (proj : M4 α) : α × α :=
  let r := glm_persp_decomp_z_rh_no proj
  (r.1, r.2)

/-- `glm_persp_decomp_far`: include/cglm/cam.h:527-539. -/
@[cglm]
def glm_persp_decomp_far (proj : M4 α) : α :=
  glm_persp_decomp_far_rh_no proj

/-- `glm_persp_decomp_near`: include/cglm/cam.h:547-559. -/
@[cglm]
def glm_persp_decomp_near (proj : M4 α) : α :=
  glm_persp_decomp_near_rh_no proj

/-- `glm_persp_sizes`: include/cglm/cam.h:568-580. -/
@[cglm]
def glm_persp_sizes (proj : M4 α) (fovy : α) : V4 α :=
  glm_persp_sizes_rh_no proj fovy

end Cglm
