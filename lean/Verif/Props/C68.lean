import Verif.Gen
import Verif.GenStruct
import Verif.GenCall
import Verif.Gen.CfgRhZo
import Verif.Gen.CfgLhNo
import Verif.Gen.CfgLhZo

/-!
# C68: clip-control dispatch

Generated by tools/cfgthms.py.  The model is generated once per configuration: `Cglm` is the default (right-handed, depth -1..1),
`Cglm.RhZo`, `Cglm.LhNo` and `Cglm.LhZo` hold the functions that come out differently when `CGLM_FORCE_DEPTH_ZERO_TO_ONE`
and `CGLM_FORCE_LEFT_HANDED` are defined.  Each theorem says that the generic function is the variant of the configuration.
Generic functions that are the same in all configurations are covered too (they equal every variant).
-/

set_option linter.unusedSectionVars false

namespace Cglm

variable {α : Type} [Add α] [Sub α] [Mul α] [Div α] [Neg α] [CFloat α]

/-! ## right-handed, depth -1..1 -/

theorem C68_RhNo_glm_persp_fovy : glm_persp_fovy (α := α) = glm_persp_fovy_rh_no := rfl
theorem C68_RhNo_glm_persp_aspect : glm_persp_aspect (α := α) = glm_persp_aspect_rh_no := rfl
theorem C68_RhNo_glm_frustum : glm_frustum (α := α) = glm_frustum_rh_no := rfl
theorem C68_RhNo_glm_ortho : glm_ortho (α := α) = glm_ortho_rh_no := rfl
theorem C68_RhNo_glm_ortho_aabb : glm_ortho_aabb (α := α) = glm_ortho_aabb_rh_no := rfl
theorem C68_RhNo_glm_ortho_aabb_p : glm_ortho_aabb_p (α := α) = glm_ortho_aabb_p_rh_no := rfl
theorem C68_RhNo_glm_ortho_aabb_pz : glm_ortho_aabb_pz (α := α) = glm_ortho_aabb_pz_rh_no := rfl
theorem C68_RhNo_glm_ortho_default : glm_ortho_default (α := α) = glm_ortho_default_rh_no := rfl
theorem C68_RhNo_glm_ortho_default_s : glm_ortho_default_s (α := α) = glm_ortho_default_s_rh_no := rfl
theorem C68_RhNo_glm_perspective : glm_perspective (α := α) = glm_perspective_rh_no := rfl
theorem C68_RhNo_glm_persp_move_far : glm_persp_move_far (α := α) = glm_persp_move_far_rh_no := rfl
theorem C68_RhNo_glm_perspective_default : glm_perspective_default (α := α) = glm_perspective_default_rh_no := rfl
theorem C68_RhNo_glm_perspective_resize : glm_perspective_resize (α := α) = glm_perspective_resize_rh_no := rfl
theorem C68_RhNo_glm_lookat : glm_lookat (α := α) = glm_lookat_rh_no := rfl
theorem C68_RhNo_glm_look : glm_look (α := α) = glm_look_rh_no := rfl
theorem C68_RhNo_glm_look_anyup : glm_look_anyup (α := α) = glm_look_anyup_rh_no := rfl
theorem C68_RhNo_glm_persp_decomp : glm_persp_decomp (α := α) = glm_persp_decomp_rh_no := rfl
theorem C68_RhNo_glm_persp_decompv : glm_persp_decompv (α := α) = glm_persp_decompv_rh_no := rfl
theorem C68_RhNo_glm_persp_decomp_x : glm_persp_decomp_x (α := α) = glm_persp_decomp_x_rh_no := rfl
theorem C68_RhNo_glm_persp_decomp_y : glm_persp_decomp_y (α := α) = glm_persp_decomp_y_rh_no := rfl
theorem C68_RhNo_glm_persp_decomp_z : glm_persp_decomp_z (α := α) = glm_persp_decomp_z_rh_no := rfl
theorem C68_RhNo_glm_persp_decomp_far : glm_persp_decomp_far (α := α) = glm_persp_decomp_far_rh_no := rfl
theorem C68_RhNo_glm_persp_decomp_near : glm_persp_decomp_near (α := α) = glm_persp_decomp_near_rh_no := rfl
theorem C68_RhNo_glm_persp_sizes : glm_persp_sizes (α := α) = glm_persp_sizes_rh_no := rfl
theorem C68_RhNo_glm_euler_xyz_quat : glm_euler_xyz_quat (α := α) = glm_euler_xyz_quat_rh := rfl
theorem C68_RhNo_glm_euler_xzy_quat : glm_euler_xzy_quat (α := α) = glm_euler_xzy_quat_rh := rfl
theorem C68_RhNo_glm_euler_yxz_quat : glm_euler_yxz_quat (α := α) = glm_euler_yxz_quat_rh := rfl
theorem C68_RhNo_glm_euler_yzx_quat : glm_euler_yzx_quat (α := α) = glm_euler_yzx_quat_rh := rfl
theorem C68_RhNo_glm_euler_zxy_quat : glm_euler_zxy_quat (α := α) = glm_euler_zxy_quat_rh := rfl
theorem C68_RhNo_glm_euler_zyx_quat : glm_euler_zyx_quat (α := α) = glm_euler_zyx_quat_rh := rfl
theorem C68_RhNo_glm_unprojecti : glm_unprojecti (α := α) = glm_unprojecti_no := rfl
theorem C68_RhNo_glm_project : glm_project (α := α) = glm_project_no := rfl
theorem C68_RhNo_glm_project_z : glm_project_z (α := α) = glm_project_z_no := rfl
theorem C68_RhNo_glms_frustum : glms_frustum (α := α) = glms_frustum_rh_no := rfl
theorem C68_RhNo_glms_ortho : glms_ortho (α := α) = glms_ortho_rh_no := rfl
theorem C68_RhNo_glms_ortho_aabb : glms_ortho_aabb (α := α) = glms_ortho_aabb_rh_no := rfl
theorem C68_RhNo_glms_ortho_aabb_p : glms_ortho_aabb_p (α := α) = glms_ortho_aabb_p_rh_no := rfl
theorem C68_RhNo_glms_ortho_aabb_pz : glms_ortho_aabb_pz (α := α) = glms_ortho_aabb_pz_rh_no := rfl
theorem C68_RhNo_glms_ortho_default : glms_ortho_default (α := α) = glms_ortho_default_rh_no := rfl
theorem C68_RhNo_glms_ortho_default_s : glms_ortho_default_s (α := α) = glms_ortho_default_s_rh_no := rfl
theorem C68_RhNo_glms_perspective : glms_perspective (α := α) = glms_perspective_rh_no := rfl
theorem C68_RhNo_glms_persp_move_far : glms_persp_move_far (α := α) = glms_persp_move_far_rh_no := rfl
theorem C68_RhNo_glms_perspective_default : glms_perspective_default (α := α) = glms_perspective_default_rh_no := rfl
theorem C68_RhNo_glms_perspective_resize : glms_perspective_resize (α := α) = glms_perspective_resize_rh_no := rfl
theorem C68_RhNo_glms_lookat : glms_lookat (α := α) = glms_lookat_rh_no := rfl
theorem C68_RhNo_glms_look : glms_look (α := α) = glms_look_rh_no := rfl
theorem C68_RhNo_glms_look_anyup : glms_look_anyup (α := α) = glms_look_anyup_rh_no := rfl
theorem C68_RhNo_glms_persp_decomp : glms_persp_decomp (α := α) = glms_persp_decomp_rh_no := rfl
theorem C68_RhNo_glms_persp_decompv : glms_persp_decompv (α := α) = glms_persp_decompv_rh_no := rfl
theorem C68_RhNo_glms_persp_decomp_x : glms_persp_decomp_x (α := α) = glms_persp_decomp_x_rh_no := rfl
theorem C68_RhNo_glms_persp_decomp_y : glms_persp_decomp_y (α := α) = glms_persp_decomp_y_rh_no := rfl
theorem C68_RhNo_glms_persp_decomp_z : glms_persp_decomp_z (α := α) = glms_persp_decomp_z_rh_no := rfl
theorem C68_RhNo_glms_persp_decomp_far : glms_persp_decomp_far (α := α) = glms_persp_decomp_far_rh_no := rfl
theorem C68_RhNo_glms_persp_decomp_near : glms_persp_decomp_near (α := α) = glms_persp_decomp_near_rh_no := rfl
theorem C68_RhNo_glms_persp_fovy : glms_persp_fovy (α := α) = glms_persp_fovy_rh_no := rfl
theorem C68_RhNo_glms_persp_aspect : glms_persp_aspect (α := α) = glms_persp_aspect_rh_no := rfl
theorem C68_RhNo_glms_persp_sizes : glms_persp_sizes (α := α) = glms_persp_sizes_rh_no := rfl
theorem C68_RhNo_glms_unprojecti : glms_unprojecti (α := α) = glms_unprojecti_no := rfl
theorem C68_RhNo_glms_project : glms_project (α := α) = glms_project_no := rfl
theorem C68_RhNo_glms_project_z : glms_project_z (α := α) = glms_project_z_no := rfl
theorem C68_RhNo_glmc_frustum : glmc_frustum (α := α) = glmc_frustum_rh_no := rfl
theorem C68_RhNo_glmc_ortho : glmc_ortho (α := α) = glmc_ortho_rh_no := rfl
theorem C68_RhNo_glmc_ortho_aabb : glmc_ortho_aabb (α := α) = glmc_ortho_aabb_rh_no := rfl
theorem C68_RhNo_glmc_ortho_aabb_p : glmc_ortho_aabb_p (α := α) = glmc_ortho_aabb_p_rh_no := rfl
theorem C68_RhNo_glmc_ortho_aabb_pz : glmc_ortho_aabb_pz (α := α) = glmc_ortho_aabb_pz_rh_no := rfl
theorem C68_RhNo_glmc_ortho_default : glmc_ortho_default (α := α) = glmc_ortho_default_rh_no := rfl
theorem C68_RhNo_glmc_ortho_default_s : glmc_ortho_default_s (α := α) = glmc_ortho_default_s_rh_no := rfl
theorem C68_RhNo_glmc_perspective : glmc_perspective (α := α) = glmc_perspective_rh_no := rfl
theorem C68_RhNo_glmc_persp_move_far : glmc_persp_move_far (α := α) = glmc_persp_move_far_rh_no := rfl
theorem C68_RhNo_glmc_lookat : glmc_lookat (α := α) = glmc_lookat_rh_no := rfl
theorem C68_RhNo_glmc_look : glmc_look (α := α) = glmc_look_rh_no := rfl
theorem C68_RhNo_glmc_look_anyup : glmc_look_anyup (α := α) = glmc_look_anyup_rh_no := rfl
theorem C68_RhNo_glmc_persp_decomp : glmc_persp_decomp (α := α) = glmc_persp_decomp_rh_no := rfl
theorem C68_RhNo_glmc_persp_decompv : glmc_persp_decompv (α := α) = glmc_persp_decompv_rh_no := rfl
theorem C68_RhNo_glmc_persp_decomp_x : glmc_persp_decomp_x (α := α) = glmc_persp_decomp_x_rh_no := rfl
theorem C68_RhNo_glmc_persp_decomp_y : glmc_persp_decomp_y (α := α) = glmc_persp_decomp_y_rh_no := rfl
theorem C68_RhNo_glmc_persp_decomp_z : glmc_persp_decomp_z (α := α) = glmc_persp_decomp_z_rh_no := rfl
theorem C68_RhNo_glmc_persp_decomp_far : glmc_persp_decomp_far (α := α) = glmc_persp_decomp_far_rh_no := rfl
theorem C68_RhNo_glmc_persp_decomp_near : glmc_persp_decomp_near (α := α) = glmc_persp_decomp_near_rh_no := rfl
theorem C68_RhNo_glmc_persp_fovy : glmc_persp_fovy (α := α) = glmc_persp_fovy_rh_no := rfl
theorem C68_RhNo_glmc_persp_aspect : glmc_persp_aspect (α := α) = glmc_persp_aspect_rh_no := rfl
theorem C68_RhNo_glmc_persp_sizes : glmc_persp_sizes (α := α) = glmc_persp_sizes_rh_no := rfl
theorem C68_RhNo_glmc_unprojecti : glmc_unprojecti (α := α) = glmc_unprojecti_no := rfl
theorem C68_RhNo_glmc_project : glmc_project (α := α) = glmc_project_no := rfl
theorem C68_RhNo_glmc_project_z : glmc_project_z (α := α) = glmc_project_z_no := rfl
theorem C68_RhNo_glm_unproject (pos : V3 α) (m : M4 α) (vp : V4 α) :
    glm_unproject pos m vp = glm_unprojecti_no pos (glm_mat4_inv m) vp := rfl
theorem C68_RhNo_glms_unproject (pos : V3 α) (m : M4 α) (vp : V4 α) :
    glms_unproject pos m vp = glm_unprojecti_no pos (glm_mat4_inv m) vp := rfl
theorem C68_RhNo_glmc_unproject (pos : V3 α) (m : M4 α) (vp : V4 α) :
    glmc_unproject pos m vp = glm_unprojecti_no pos (glm_mat4_inv m) vp := rfl

/-! ## right-handed, depth 0..1 -/

theorem C68_RhZo_glm_persp_fovy : glm_persp_fovy (α := α) = glm_persp_fovy_rh_zo := rfl
theorem C68_RhZo_glm_persp_aspect : glm_persp_aspect (α := α) = glm_persp_aspect_rh_zo := rfl
theorem C68_RhZo_glm_frustum : RhZo.glm_frustum (α := α) = glm_frustum_rh_zo := rfl
theorem C68_RhZo_glm_ortho : RhZo.glm_ortho (α := α) = glm_ortho_rh_zo := rfl
theorem C68_RhZo_glm_ortho_aabb : RhZo.glm_ortho_aabb (α := α) = glm_ortho_aabb_rh_zo := rfl
theorem C68_RhZo_glm_ortho_aabb_p : RhZo.glm_ortho_aabb_p (α := α) = glm_ortho_aabb_p_rh_zo := rfl
theorem C68_RhZo_glm_ortho_aabb_pz : RhZo.glm_ortho_aabb_pz (α := α) = glm_ortho_aabb_pz_rh_zo := rfl
theorem C68_RhZo_glm_ortho_default : RhZo.glm_ortho_default (α := α) = glm_ortho_default_rh_zo := rfl
theorem C68_RhZo_glm_ortho_default_s : RhZo.glm_ortho_default_s (α := α) = glm_ortho_default_s_rh_zo := rfl
theorem C68_RhZo_glm_perspective : RhZo.glm_perspective (α := α) = glm_perspective_rh_zo := rfl
theorem C68_RhZo_glm_persp_move_far : RhZo.glm_persp_move_far (α := α) = glm_persp_move_far_rh_zo := rfl
theorem C68_RhZo_glm_perspective_default : RhZo.glm_perspective_default (α := α) = glm_perspective_default_rh_zo := rfl
theorem C68_RhZo_glm_perspective_resize : glm_perspective_resize (α := α) = glm_perspective_resize_rh_zo := rfl
theorem C68_RhZo_glm_lookat : glm_lookat (α := α) = glm_lookat_rh_zo := rfl
theorem C68_RhZo_glm_look : glm_look (α := α) = glm_look_rh_zo := rfl
theorem C68_RhZo_glm_look_anyup : glm_look_anyup (α := α) = glm_look_anyup_rh_zo := rfl
theorem C68_RhZo_glm_persp_decomp : RhZo.glm_persp_decomp (α := α) = glm_persp_decomp_rh_zo := rfl
theorem C68_RhZo_glm_persp_decompv : RhZo.glm_persp_decompv (α := α) = glm_persp_decompv_rh_zo := rfl
theorem C68_RhZo_glm_persp_decomp_x : RhZo.glm_persp_decomp_x (α := α) = glm_persp_decomp_x_rh_zo := rfl
theorem C68_RhZo_glm_persp_decomp_y : RhZo.glm_persp_decomp_y (α := α) = glm_persp_decomp_y_rh_zo := rfl
theorem C68_RhZo_glm_persp_decomp_z : RhZo.glm_persp_decomp_z (α := α) = glm_persp_decomp_z_rh_zo := rfl
theorem C68_RhZo_glm_persp_decomp_far : RhZo.glm_persp_decomp_far (α := α) = glm_persp_decomp_far_rh_zo := rfl
theorem C68_RhZo_glm_persp_decomp_near : RhZo.glm_persp_decomp_near (α := α) = glm_persp_decomp_near_rh_zo := rfl
theorem C68_RhZo_glm_persp_sizes : RhZo.glm_persp_sizes (α := α) = glm_persp_sizes_rh_zo := rfl
theorem C68_RhZo_glm_euler_xyz_quat : glm_euler_xyz_quat (α := α) = glm_euler_xyz_quat_rh := rfl
theorem C68_RhZo_glm_euler_xzy_quat : glm_euler_xzy_quat (α := α) = glm_euler_xzy_quat_rh := rfl
theorem C68_RhZo_glm_euler_yxz_quat : glm_euler_yxz_quat (α := α) = glm_euler_yxz_quat_rh := rfl
theorem C68_RhZo_glm_euler_yzx_quat : glm_euler_yzx_quat (α := α) = glm_euler_yzx_quat_rh := rfl
theorem C68_RhZo_glm_euler_zxy_quat : glm_euler_zxy_quat (α := α) = glm_euler_zxy_quat_rh := rfl
theorem C68_RhZo_glm_euler_zyx_quat : glm_euler_zyx_quat (α := α) = glm_euler_zyx_quat_rh := rfl
theorem C68_RhZo_glm_unprojecti : RhZo.glm_unprojecti (α := α) = glm_unprojecti_zo := rfl
theorem C68_RhZo_glm_project : RhZo.glm_project (α := α) = glm_project_zo := rfl
theorem C68_RhZo_glm_project_z : RhZo.glm_project_z (α := α) = glm_project_z_zo := rfl
theorem C68_RhZo_glms_frustum : RhZo.glms_frustum (α := α) = glms_frustum_rh_zo := rfl
theorem C68_RhZo_glms_ortho : RhZo.glms_ortho (α := α) = glms_ortho_rh_zo := rfl
theorem C68_RhZo_glms_ortho_aabb : RhZo.glms_ortho_aabb (α := α) = glms_ortho_aabb_rh_zo := rfl
theorem C68_RhZo_glms_ortho_aabb_p : RhZo.glms_ortho_aabb_p (α := α) = glms_ortho_aabb_p_rh_zo := rfl
theorem C68_RhZo_glms_ortho_aabb_pz : RhZo.glms_ortho_aabb_pz (α := α) = glms_ortho_aabb_pz_rh_zo := rfl
theorem C68_RhZo_glms_ortho_default : RhZo.glms_ortho_default (α := α) = glms_ortho_default_rh_zo := rfl
theorem C68_RhZo_glms_ortho_default_s : RhZo.glms_ortho_default_s (α := α) = glms_ortho_default_s_rh_zo := rfl
theorem C68_RhZo_glms_perspective : RhZo.glms_perspective (α := α) = glms_perspective_rh_zo := rfl
theorem C68_RhZo_glms_persp_move_far : RhZo.glms_persp_move_far (α := α) = glms_persp_move_far_rh_zo := rfl
theorem C68_RhZo_glms_perspective_default : RhZo.glms_perspective_default (α := α) = glms_perspective_default_rh_zo := rfl
theorem C68_RhZo_glms_perspective_resize : RhZo.glms_perspective_resize (α := α) = glms_perspective_resize_rh_zo := rfl
theorem C68_RhZo_glms_lookat : RhZo.glms_lookat (α := α) = glms_lookat_rh_zo := rfl
theorem C68_RhZo_glms_look : RhZo.glms_look (α := α) = glms_look_rh_zo := rfl
theorem C68_RhZo_glms_look_anyup : RhZo.glms_look_anyup (α := α) = glms_look_anyup_rh_zo := rfl
theorem C68_RhZo_glms_persp_decomp : RhZo.glms_persp_decomp (α := α) = glms_persp_decomp_rh_zo := rfl
theorem C68_RhZo_glms_persp_decompv : RhZo.glms_persp_decompv (α := α) = glms_persp_decompv_rh_zo := rfl
theorem C68_RhZo_glms_persp_decomp_x : RhZo.glms_persp_decomp_x (α := α) = glms_persp_decomp_x_rh_zo := rfl
theorem C68_RhZo_glms_persp_decomp_y : RhZo.glms_persp_decomp_y (α := α) = glms_persp_decomp_y_rh_zo := rfl
theorem C68_RhZo_glms_persp_decomp_z : RhZo.glms_persp_decomp_z (α := α) = glms_persp_decomp_z_rh_zo := rfl
theorem C68_RhZo_glms_persp_decomp_far : RhZo.glms_persp_decomp_far (α := α) = glms_persp_decomp_far_rh_zo := rfl
theorem C68_RhZo_glms_persp_decomp_near : RhZo.glms_persp_decomp_near (α := α) = glms_persp_decomp_near_rh_zo := rfl
theorem C68_RhZo_glms_persp_fovy : RhZo.glms_persp_fovy (α := α) = glms_persp_fovy_rh_zo := rfl
theorem C68_RhZo_glms_persp_aspect : RhZo.glms_persp_aspect (α := α) = glms_persp_aspect_rh_zo := rfl
theorem C68_RhZo_glms_persp_sizes : RhZo.glms_persp_sizes (α := α) = glms_persp_sizes_rh_zo := rfl
theorem C68_RhZo_glms_unprojecti : RhZo.glms_unprojecti (α := α) = glms_unprojecti_zo := rfl
theorem C68_RhZo_glms_project : RhZo.glms_project (α := α) = glms_project_zo := rfl
theorem C68_RhZo_glms_project_z : RhZo.glms_project_z (α := α) = glms_project_z_zo := rfl
theorem C68_RhZo_glmc_frustum : RhZo.glmc_frustum (α := α) = glmc_frustum_rh_zo := rfl
theorem C68_RhZo_glmc_ortho : RhZo.glmc_ortho (α := α) = glmc_ortho_rh_zo := rfl
theorem C68_RhZo_glmc_ortho_aabb : RhZo.glmc_ortho_aabb (α := α) = glmc_ortho_aabb_rh_zo := rfl
theorem C68_RhZo_glmc_ortho_aabb_p : RhZo.glmc_ortho_aabb_p (α := α) = glmc_ortho_aabb_p_rh_zo := rfl
theorem C68_RhZo_glmc_ortho_aabb_pz : RhZo.glmc_ortho_aabb_pz (α := α) = glmc_ortho_aabb_pz_rh_zo := rfl
theorem C68_RhZo_glmc_ortho_default : RhZo.glmc_ortho_default (α := α) = glmc_ortho_default_rh_zo := rfl
theorem C68_RhZo_glmc_ortho_default_s : RhZo.glmc_ortho_default_s (α := α) = glmc_ortho_default_s_rh_zo := rfl
theorem C68_RhZo_glmc_perspective : RhZo.glmc_perspective (α := α) = glmc_perspective_rh_zo := rfl
theorem C68_RhZo_glmc_persp_move_far : RhZo.glmc_persp_move_far (α := α) = glmc_persp_move_far_rh_zo := rfl
theorem C68_RhZo_glmc_lookat : glmc_lookat (α := α) = glmc_lookat_rh_zo := rfl
theorem C68_RhZo_glmc_look : glmc_look (α := α) = glmc_look_rh_zo := rfl
theorem C68_RhZo_glmc_look_anyup : glmc_look_anyup (α := α) = glmc_look_anyup_rh_zo := rfl
theorem C68_RhZo_glmc_persp_decomp : RhZo.glmc_persp_decomp (α := α) = glmc_persp_decomp_rh_zo := rfl
theorem C68_RhZo_glmc_persp_decompv : RhZo.glmc_persp_decompv (α := α) = glmc_persp_decompv_rh_zo := rfl
theorem C68_RhZo_glmc_persp_decomp_x : RhZo.glmc_persp_decomp_x (α := α) = glmc_persp_decomp_x_rh_zo := rfl
theorem C68_RhZo_glmc_persp_decomp_y : RhZo.glmc_persp_decomp_y (α := α) = glmc_persp_decomp_y_rh_zo := rfl
theorem C68_RhZo_glmc_persp_decomp_z : RhZo.glmc_persp_decomp_z (α := α) = glmc_persp_decomp_z_rh_zo := rfl
theorem C68_RhZo_glmc_persp_decomp_far : RhZo.glmc_persp_decomp_far (α := α) = glmc_persp_decomp_far_rh_zo := rfl
theorem C68_RhZo_glmc_persp_decomp_near : RhZo.glmc_persp_decomp_near (α := α) = glmc_persp_decomp_near_rh_zo := rfl
theorem C68_RhZo_glmc_persp_fovy : glmc_persp_fovy (α := α) = glmc_persp_fovy_rh_zo := rfl
theorem C68_RhZo_glmc_persp_aspect : glmc_persp_aspect (α := α) = glmc_persp_aspect_rh_zo := rfl
theorem C68_RhZo_glmc_persp_sizes : RhZo.glmc_persp_sizes (α := α) = glmc_persp_sizes_rh_zo := rfl
theorem C68_RhZo_glmc_unprojecti : RhZo.glmc_unprojecti (α := α) = glmc_unprojecti_zo := rfl
theorem C68_RhZo_glmc_project : RhZo.glmc_project (α := α) = glmc_project_zo := rfl
theorem C68_RhZo_glmc_project_z : RhZo.glmc_project_z (α := α) = glmc_project_z_zo := rfl
theorem C68_RhZo_glmc_perspective_default : RhZo.glmc_perspective_default (α := α) = RhZo.glm_perspective_default := rfl
theorem C68_RhZo_glm_unproject (pos : V3 α) (m : M4 α) (vp : V4 α) :
    RhZo.glm_unproject pos m vp = glm_unprojecti_zo pos (glm_mat4_inv m) vp := rfl
theorem C68_RhZo_glms_unproject (pos : V3 α) (m : M4 α) (vp : V4 α) :
    RhZo.glms_unproject pos m vp = glm_unprojecti_zo pos (glm_mat4_inv m) vp := rfl
theorem C68_RhZo_glmc_unproject (pos : V3 α) (m : M4 α) (vp : V4 α) :
    RhZo.glmc_unproject pos m vp = glm_unprojecti_zo pos (glm_mat4_inv m) vp := rfl

/-! ## left-handed, depth -1..1 -/

theorem C68_LhNo_glm_persp_fovy : glm_persp_fovy (α := α) = glm_persp_fovy_lh_no := rfl
theorem C68_LhNo_glm_persp_aspect : glm_persp_aspect (α := α) = glm_persp_aspect_lh_no := rfl
theorem C68_LhNo_glm_frustum : LhNo.glm_frustum (α := α) = glm_frustum_lh_no := rfl
theorem C68_LhNo_glm_ortho : LhNo.glm_ortho (α := α) = glm_ortho_lh_no := rfl
theorem C68_LhNo_glm_ortho_aabb : LhNo.glm_ortho_aabb (α := α) = glm_ortho_aabb_lh_no := rfl
theorem C68_LhNo_glm_ortho_aabb_p : LhNo.glm_ortho_aabb_p (α := α) = glm_ortho_aabb_p_lh_no := rfl
theorem C68_LhNo_glm_ortho_aabb_pz : LhNo.glm_ortho_aabb_pz (α := α) = glm_ortho_aabb_pz_lh_no := rfl
theorem C68_LhNo_glm_ortho_default : LhNo.glm_ortho_default (α := α) = glm_ortho_default_lh_no := rfl
theorem C68_LhNo_glm_ortho_default_s : LhNo.glm_ortho_default_s (α := α) = glm_ortho_default_s_lh_no := rfl
theorem C68_LhNo_glm_perspective : LhNo.glm_perspective (α := α) = glm_perspective_lh_no := rfl
theorem C68_LhNo_glm_persp_move_far : LhNo.glm_persp_move_far (α := α) = glm_persp_move_far_lh_no := rfl
theorem C68_LhNo_glm_perspective_default : LhNo.glm_perspective_default (α := α) = glm_perspective_default_lh_no := rfl
theorem C68_LhNo_glm_perspective_resize : glm_perspective_resize (α := α) = glm_perspective_resize_lh_no := rfl
theorem C68_LhNo_glm_lookat : LhNo.glm_lookat (α := α) = glm_lookat_lh_no := rfl
theorem C68_LhNo_glm_look : LhNo.glm_look (α := α) = glm_look_lh_no := rfl
theorem C68_LhNo_glm_look_anyup : LhNo.glm_look_anyup (α := α) = glm_look_anyup_lh_no := rfl
theorem C68_LhNo_glm_persp_decomp : LhNo.glm_persp_decomp (α := α) = glm_persp_decomp_lh_no := rfl
theorem C68_LhNo_glm_persp_decompv : LhNo.glm_persp_decompv (α := α) = glm_persp_decompv_lh_no := rfl
theorem C68_LhNo_glm_persp_decomp_x : LhNo.glm_persp_decomp_x (α := α) = glm_persp_decomp_x_lh_no := rfl
theorem C68_LhNo_glm_persp_decomp_y : LhNo.glm_persp_decomp_y (α := α) = glm_persp_decomp_y_lh_no := rfl
theorem C68_LhNo_glm_persp_decomp_z : LhNo.glm_persp_decomp_z (α := α) = glm_persp_decomp_z_lh_no := rfl
theorem C68_LhNo_glm_persp_decomp_far : LhNo.glm_persp_decomp_far (α := α) = glm_persp_decomp_far_lh_no := rfl
theorem C68_LhNo_glm_persp_decomp_near : LhNo.glm_persp_decomp_near (α := α) = glm_persp_decomp_near_lh_no := rfl
theorem C68_LhNo_glm_persp_sizes : LhNo.glm_persp_sizes (α := α) = glm_persp_sizes_lh_no := rfl
theorem C68_LhNo_glm_euler_xyz_quat : LhNo.glm_euler_xyz_quat (α := α) = glm_euler_xyz_quat_lh := rfl
theorem C68_LhNo_glm_euler_xzy_quat : LhNo.glm_euler_xzy_quat (α := α) = glm_euler_xzy_quat_lh := rfl
theorem C68_LhNo_glm_euler_yxz_quat : LhNo.glm_euler_yxz_quat (α := α) = glm_euler_yxz_quat_lh := rfl
theorem C68_LhNo_glm_euler_yzx_quat : LhNo.glm_euler_yzx_quat (α := α) = glm_euler_yzx_quat_lh := rfl
theorem C68_LhNo_glm_euler_zxy_quat : LhNo.glm_euler_zxy_quat (α := α) = glm_euler_zxy_quat_lh := rfl
theorem C68_LhNo_glm_euler_zyx_quat : LhNo.glm_euler_zyx_quat (α := α) = glm_euler_zyx_quat_lh := rfl
theorem C68_LhNo_glm_unprojecti : glm_unprojecti (α := α) = glm_unprojecti_no := rfl
theorem C68_LhNo_glm_project : glm_project (α := α) = glm_project_no := rfl
theorem C68_LhNo_glm_project_z : glm_project_z (α := α) = glm_project_z_no := rfl
theorem C68_LhNo_glms_frustum : LhNo.glms_frustum (α := α) = glms_frustum_lh_no := rfl
theorem C68_LhNo_glms_ortho : LhNo.glms_ortho (α := α) = glms_ortho_lh_no := rfl
theorem C68_LhNo_glms_ortho_aabb : LhNo.glms_ortho_aabb (α := α) = glms_ortho_aabb_lh_no := rfl
theorem C68_LhNo_glms_ortho_aabb_p : LhNo.glms_ortho_aabb_p (α := α) = glms_ortho_aabb_p_lh_no := rfl
theorem C68_LhNo_glms_ortho_aabb_pz : LhNo.glms_ortho_aabb_pz (α := α) = glms_ortho_aabb_pz_lh_no := rfl
theorem C68_LhNo_glms_ortho_default : LhNo.glms_ortho_default (α := α) = glms_ortho_default_lh_no := rfl
theorem C68_LhNo_glms_ortho_default_s : LhNo.glms_ortho_default_s (α := α) = glms_ortho_default_s_lh_no := rfl
theorem C68_LhNo_glms_perspective : LhNo.glms_perspective (α := α) = glms_perspective_lh_no := rfl
theorem C68_LhNo_glms_persp_move_far : LhNo.glms_persp_move_far (α := α) = glms_persp_move_far_lh_no := rfl
theorem C68_LhNo_glms_perspective_default : LhNo.glms_perspective_default (α := α) = glms_perspective_default_lh_no := rfl
theorem C68_LhNo_glms_perspective_resize : LhNo.glms_perspective_resize (α := α) = glms_perspective_resize_lh_no := rfl
theorem C68_LhNo_glms_lookat : LhNo.glms_lookat (α := α) = glms_lookat_lh_no := rfl
theorem C68_LhNo_glms_look : LhNo.glms_look (α := α) = glms_look_lh_no := rfl
theorem C68_LhNo_glms_look_anyup : LhNo.glms_look_anyup (α := α) = glms_look_anyup_lh_no := rfl
theorem C68_LhNo_glms_persp_decomp : LhNo.glms_persp_decomp (α := α) = glms_persp_decomp_lh_no := rfl
theorem C68_LhNo_glms_persp_decompv : LhNo.glms_persp_decompv (α := α) = glms_persp_decompv_lh_no := rfl
theorem C68_LhNo_glms_persp_decomp_x : LhNo.glms_persp_decomp_x (α := α) = glms_persp_decomp_x_lh_no := rfl
theorem C68_LhNo_glms_persp_decomp_y : LhNo.glms_persp_decomp_y (α := α) = glms_persp_decomp_y_lh_no := rfl
theorem C68_LhNo_glms_persp_decomp_z : LhNo.glms_persp_decomp_z (α := α) = glms_persp_decomp_z_lh_no := rfl
theorem C68_LhNo_glms_persp_decomp_far : LhNo.glms_persp_decomp_far (α := α) = glms_persp_decomp_far_lh_no := rfl
theorem C68_LhNo_glms_persp_decomp_near : LhNo.glms_persp_decomp_near (α := α) = glms_persp_decomp_near_lh_no := rfl
theorem C68_LhNo_glms_persp_fovy : LhNo.glms_persp_fovy (α := α) = glms_persp_fovy_lh_no := rfl
theorem C68_LhNo_glms_persp_aspect : LhNo.glms_persp_aspect (α := α) = glms_persp_aspect_lh_no := rfl
theorem C68_LhNo_glms_persp_sizes : LhNo.glms_persp_sizes (α := α) = glms_persp_sizes_lh_no := rfl
theorem C68_LhNo_glms_unprojecti : glms_unprojecti (α := α) = glms_unprojecti_no := rfl
theorem C68_LhNo_glms_project : glms_project (α := α) = glms_project_no := rfl
theorem C68_LhNo_glms_project_z : glms_project_z (α := α) = glms_project_z_no := rfl
theorem C68_LhNo_glmc_frustum : LhNo.glmc_frustum (α := α) = glmc_frustum_lh_no := rfl
theorem C68_LhNo_glmc_ortho : LhNo.glmc_ortho (α := α) = glmc_ortho_lh_no := rfl
theorem C68_LhNo_glmc_ortho_aabb : LhNo.glmc_ortho_aabb (α := α) = glmc_ortho_aabb_lh_no := rfl
theorem C68_LhNo_glmc_ortho_aabb_p : LhNo.glmc_ortho_aabb_p (α := α) = glmc_ortho_aabb_p_lh_no := rfl
theorem C68_LhNo_glmc_ortho_aabb_pz : LhNo.glmc_ortho_aabb_pz (α := α) = glmc_ortho_aabb_pz_lh_no := rfl
theorem C68_LhNo_glmc_ortho_default : LhNo.glmc_ortho_default (α := α) = glmc_ortho_default_lh_no := rfl
theorem C68_LhNo_glmc_ortho_default_s : LhNo.glmc_ortho_default_s (α := α) = glmc_ortho_default_s_lh_no := rfl
theorem C68_LhNo_glmc_perspective : LhNo.glmc_perspective (α := α) = glmc_perspective_lh_no := rfl
theorem C68_LhNo_glmc_persp_move_far : LhNo.glmc_persp_move_far (α := α) = glmc_persp_move_far_lh_no := rfl
theorem C68_LhNo_glmc_lookat : LhNo.glmc_lookat (α := α) = glmc_lookat_lh_no := rfl
theorem C68_LhNo_glmc_look : LhNo.glmc_look (α := α) = glmc_look_lh_no := rfl
theorem C68_LhNo_glmc_look_anyup : LhNo.glmc_look_anyup (α := α) = glmc_look_anyup_lh_no := rfl
theorem C68_LhNo_glmc_persp_decomp : LhNo.glmc_persp_decomp (α := α) = glmc_persp_decomp_lh_no := rfl
theorem C68_LhNo_glmc_persp_decompv : LhNo.glmc_persp_decompv (α := α) = glmc_persp_decompv_lh_no := rfl
theorem C68_LhNo_glmc_persp_decomp_x : LhNo.glmc_persp_decomp_x (α := α) = glmc_persp_decomp_x_lh_no := rfl
theorem C68_LhNo_glmc_persp_decomp_y : LhNo.glmc_persp_decomp_y (α := α) = glmc_persp_decomp_y_lh_no := rfl
theorem C68_LhNo_glmc_persp_decomp_z : LhNo.glmc_persp_decomp_z (α := α) = glmc_persp_decomp_z_lh_no := rfl
theorem C68_LhNo_glmc_persp_decomp_far : LhNo.glmc_persp_decomp_far (α := α) = glmc_persp_decomp_far_lh_no := rfl
theorem C68_LhNo_glmc_persp_decomp_near : LhNo.glmc_persp_decomp_near (α := α) = glmc_persp_decomp_near_lh_no := rfl
theorem C68_LhNo_glmc_persp_fovy : glmc_persp_fovy (α := α) = glmc_persp_fovy_lh_no := rfl
theorem C68_LhNo_glmc_persp_aspect : glmc_persp_aspect (α := α) = glmc_persp_aspect_lh_no := rfl
theorem C68_LhNo_glmc_persp_sizes : LhNo.glmc_persp_sizes (α := α) = glmc_persp_sizes_lh_no := rfl
theorem C68_LhNo_glmc_unprojecti : glmc_unprojecti (α := α) = glmc_unprojecti_no := rfl
theorem C68_LhNo_glmc_project : glmc_project (α := α) = glmc_project_no := rfl
theorem C68_LhNo_glmc_project_z : glmc_project_z (α := α) = glmc_project_z_no := rfl
theorem C68_LhNo_glms_euler_xyz_quat : LhNo.glms_euler_xyz_quat (α := α) = LhNo.glm_euler_xyz_quat := rfl
theorem C68_LhNo_glms_euler_xzy_quat : LhNo.glms_euler_xzy_quat (α := α) = LhNo.glm_euler_xzy_quat := rfl
theorem C68_LhNo_glms_euler_yxz_quat : LhNo.glms_euler_yxz_quat (α := α) = LhNo.glm_euler_yxz_quat := rfl
theorem C68_LhNo_glms_euler_yzx_quat : LhNo.glms_euler_yzx_quat (α := α) = LhNo.glm_euler_yzx_quat := rfl
theorem C68_LhNo_glms_euler_zxy_quat : LhNo.glms_euler_zxy_quat (α := α) = LhNo.glm_euler_zxy_quat := rfl
theorem C68_LhNo_glms_euler_zyx_quat : LhNo.glms_euler_zyx_quat (α := α) = LhNo.glm_euler_zyx_quat := rfl
theorem C68_LhNo_glmc_perspective_default : LhNo.glmc_perspective_default (α := α) = LhNo.glm_perspective_default := rfl
theorem C68_LhNo_glmc_euler_xyz_quat : LhNo.glmc_euler_xyz_quat (α := α) = LhNo.glm_euler_xyz_quat := rfl
theorem C68_LhNo_glmc_euler_xzy_quat : LhNo.glmc_euler_xzy_quat (α := α) = LhNo.glm_euler_xzy_quat := rfl
theorem C68_LhNo_glmc_euler_yxz_quat : LhNo.glmc_euler_yxz_quat (α := α) = LhNo.glm_euler_yxz_quat := rfl
theorem C68_LhNo_glmc_euler_yzx_quat : LhNo.glmc_euler_yzx_quat (α := α) = LhNo.glm_euler_yzx_quat := rfl
theorem C68_LhNo_glmc_euler_zxy_quat : LhNo.glmc_euler_zxy_quat (α := α) = LhNo.glm_euler_zxy_quat := rfl
theorem C68_LhNo_glmc_euler_zyx_quat : LhNo.glmc_euler_zyx_quat (α := α) = LhNo.glm_euler_zyx_quat := rfl
theorem C68_LhNo_glm_unproject (pos : V3 α) (m : M4 α) (vp : V4 α) :
    glm_unproject pos m vp = glm_unprojecti_no pos (glm_mat4_inv m) vp := rfl
theorem C68_LhNo_glms_unproject (pos : V3 α) (m : M4 α) (vp : V4 α) :
    glms_unproject pos m vp = glm_unprojecti_no pos (glm_mat4_inv m) vp := rfl
theorem C68_LhNo_glmc_unproject (pos : V3 α) (m : M4 α) (vp : V4 α) :
    glmc_unproject pos m vp = glm_unprojecti_no pos (glm_mat4_inv m) vp := rfl

/-! ## left-handed, depth 0..1 -/

theorem C68_LhZo_glm_persp_fovy : glm_persp_fovy (α := α) = glm_persp_fovy_lh_zo := rfl
theorem C68_LhZo_glm_persp_aspect : glm_persp_aspect (α := α) = glm_persp_aspect_lh_zo := rfl
theorem C68_LhZo_glm_frustum : LhZo.glm_frustum (α := α) = glm_frustum_lh_zo := rfl
theorem C68_LhZo_glm_ortho : LhZo.glm_ortho (α := α) = glm_ortho_lh_zo := rfl
theorem C68_LhZo_glm_ortho_aabb : LhZo.glm_ortho_aabb (α := α) = glm_ortho_aabb_lh_zo := rfl
theorem C68_LhZo_glm_ortho_aabb_p : LhZo.glm_ortho_aabb_p (α := α) = glm_ortho_aabb_p_lh_zo := rfl
theorem C68_LhZo_glm_ortho_aabb_pz : LhZo.glm_ortho_aabb_pz (α := α) = glm_ortho_aabb_pz_lh_zo := rfl
theorem C68_LhZo_glm_ortho_default : LhZo.glm_ortho_default (α := α) = glm_ortho_default_lh_zo := rfl
theorem C68_LhZo_glm_ortho_default_s : LhZo.glm_ortho_default_s (α := α) = glm_ortho_default_s_lh_zo := rfl
theorem C68_LhZo_glm_perspective : LhZo.glm_perspective (α := α) = glm_perspective_lh_zo := rfl
theorem C68_LhZo_glm_persp_move_far : LhZo.glm_persp_move_far (α := α) = glm_persp_move_far_lh_zo := rfl
theorem C68_LhZo_glm_perspective_default : LhZo.glm_perspective_default (α := α) = glm_perspective_default_lh_zo := rfl
theorem C68_LhZo_glm_perspective_resize : glm_perspective_resize (α := α) = glm_perspective_resize_lh_zo := rfl
theorem C68_LhZo_glm_lookat : LhZo.glm_lookat (α := α) = glm_lookat_lh_zo := rfl
theorem C68_LhZo_glm_look : LhZo.glm_look (α := α) = glm_look_lh_zo := rfl
theorem C68_LhZo_glm_look_anyup : LhZo.glm_look_anyup (α := α) = glm_look_anyup_lh_zo := rfl
theorem C68_LhZo_glm_persp_decomp : LhZo.glm_persp_decomp (α := α) = glm_persp_decomp_lh_zo := rfl
theorem C68_LhZo_glm_persp_decompv : LhZo.glm_persp_decompv (α := α) = glm_persp_decompv_lh_zo := rfl
theorem C68_LhZo_glm_persp_decomp_x : LhZo.glm_persp_decomp_x (α := α) = glm_persp_decomp_x_lh_zo := rfl
theorem C68_LhZo_glm_persp_decomp_y : LhZo.glm_persp_decomp_y (α := α) = glm_persp_decomp_y_lh_zo := rfl
theorem C68_LhZo_glm_persp_decomp_z : LhZo.glm_persp_decomp_z (α := α) = glm_persp_decomp_z_lh_zo := rfl
theorem C68_LhZo_glm_persp_decomp_far : LhZo.glm_persp_decomp_far (α := α) = glm_persp_decomp_far_lh_zo := rfl
theorem C68_LhZo_glm_persp_decomp_near : LhZo.glm_persp_decomp_near (α := α) = glm_persp_decomp_near_lh_zo := rfl
theorem C68_LhZo_glm_persp_sizes : LhZo.glm_persp_sizes (α := α) = glm_persp_sizes_lh_zo := rfl
theorem C68_LhZo_glm_euler_xyz_quat : LhZo.glm_euler_xyz_quat (α := α) = glm_euler_xyz_quat_lh := rfl
theorem C68_LhZo_glm_euler_xzy_quat : LhZo.glm_euler_xzy_quat (α := α) = glm_euler_xzy_quat_lh := rfl
theorem C68_LhZo_glm_euler_yxz_quat : LhZo.glm_euler_yxz_quat (α := α) = glm_euler_yxz_quat_lh := rfl
theorem C68_LhZo_glm_euler_yzx_quat : LhZo.glm_euler_yzx_quat (α := α) = glm_euler_yzx_quat_lh := rfl
theorem C68_LhZo_glm_euler_zxy_quat : LhZo.glm_euler_zxy_quat (α := α) = glm_euler_zxy_quat_lh := rfl
theorem C68_LhZo_glm_euler_zyx_quat : LhZo.glm_euler_zyx_quat (α := α) = glm_euler_zyx_quat_lh := rfl
theorem C68_LhZo_glm_unprojecti : LhZo.glm_unprojecti (α := α) = glm_unprojecti_zo := rfl
theorem C68_LhZo_glm_project : LhZo.glm_project (α := α) = glm_project_zo := rfl
theorem C68_LhZo_glm_project_z : LhZo.glm_project_z (α := α) = glm_project_z_zo := rfl
theorem C68_LhZo_glms_frustum : LhZo.glms_frustum (α := α) = glms_frustum_lh_zo := rfl
theorem C68_LhZo_glms_ortho : LhZo.glms_ortho (α := α) = glms_ortho_lh_zo := rfl
theorem C68_LhZo_glms_ortho_aabb : LhZo.glms_ortho_aabb (α := α) = glms_ortho_aabb_lh_zo := rfl
theorem C68_LhZo_glms_ortho_aabb_p : LhZo.glms_ortho_aabb_p (α := α) = glms_ortho_aabb_p_lh_zo := rfl
theorem C68_LhZo_glms_ortho_aabb_pz : LhZo.glms_ortho_aabb_pz (α := α) = glms_ortho_aabb_pz_lh_zo := rfl
theorem C68_LhZo_glms_ortho_default : LhZo.glms_ortho_default (α := α) = glms_ortho_default_lh_zo := rfl
theorem C68_LhZo_glms_ortho_default_s : LhZo.glms_ortho_default_s (α := α) = glms_ortho_default_s_lh_zo := rfl
theorem C68_LhZo_glms_perspective : LhZo.glms_perspective (α := α) = glms_perspective_lh_zo := rfl
theorem C68_LhZo_glms_persp_move_far : LhZo.glms_persp_move_far (α := α) = glms_persp_move_far_lh_zo := rfl
theorem C68_LhZo_glms_perspective_default : LhZo.glms_perspective_default (α := α) = glms_perspective_default_lh_zo := rfl
theorem C68_LhZo_glms_perspective_resize : LhZo.glms_perspective_resize (α := α) = glms_perspective_resize_lh_zo := rfl
theorem C68_LhZo_glms_lookat : LhZo.glms_lookat (α := α) = glms_lookat_lh_zo := rfl
theorem C68_LhZo_glms_look : LhZo.glms_look (α := α) = glms_look_lh_zo := rfl
theorem C68_LhZo_glms_look_anyup : LhZo.glms_look_anyup (α := α) = glms_look_anyup_lh_zo := rfl
theorem C68_LhZo_glms_persp_decomp : LhZo.glms_persp_decomp (α := α) = glms_persp_decomp_lh_zo := rfl
theorem C68_LhZo_glms_persp_decompv : LhZo.glms_persp_decompv (α := α) = glms_persp_decompv_lh_zo := rfl
theorem C68_LhZo_glms_persp_decomp_x : LhZo.glms_persp_decomp_x (α := α) = glms_persp_decomp_x_lh_zo := rfl
theorem C68_LhZo_glms_persp_decomp_y : LhZo.glms_persp_decomp_y (α := α) = glms_persp_decomp_y_lh_zo := rfl
theorem C68_LhZo_glms_persp_decomp_z : LhZo.glms_persp_decomp_z (α := α) = glms_persp_decomp_z_lh_zo := rfl
theorem C68_LhZo_glms_persp_decomp_far : LhZo.glms_persp_decomp_far (α := α) = glms_persp_decomp_far_lh_zo := rfl
theorem C68_LhZo_glms_persp_decomp_near : LhZo.glms_persp_decomp_near (α := α) = glms_persp_decomp_near_lh_zo := rfl
theorem C68_LhZo_glms_persp_fovy : LhZo.glms_persp_fovy (α := α) = glms_persp_fovy_lh_zo := rfl
theorem C68_LhZo_glms_persp_aspect : LhZo.glms_persp_aspect (α := α) = glms_persp_aspect_lh_zo := rfl
theorem C68_LhZo_glms_persp_sizes : LhZo.glms_persp_sizes (α := α) = glms_persp_sizes_lh_zo := rfl
theorem C68_LhZo_glms_unprojecti : LhZo.glms_unprojecti (α := α) = glms_unprojecti_zo := rfl
theorem C68_LhZo_glms_project : LhZo.glms_project (α := α) = glms_project_zo := rfl
theorem C68_LhZo_glms_project_z : LhZo.glms_project_z (α := α) = glms_project_z_zo := rfl
theorem C68_LhZo_glmc_frustum : LhZo.glmc_frustum (α := α) = glmc_frustum_lh_zo := rfl
theorem C68_LhZo_glmc_ortho : LhZo.glmc_ortho (α := α) = glmc_ortho_lh_zo := rfl
theorem C68_LhZo_glmc_ortho_aabb : LhZo.glmc_ortho_aabb (α := α) = glmc_ortho_aabb_lh_zo := rfl
theorem C68_LhZo_glmc_ortho_aabb_p : LhZo.glmc_ortho_aabb_p (α := α) = glmc_ortho_aabb_p_lh_zo := rfl
theorem C68_LhZo_glmc_ortho_aabb_pz : LhZo.glmc_ortho_aabb_pz (α := α) = glmc_ortho_aabb_pz_lh_zo := rfl
theorem C68_LhZo_glmc_ortho_default : LhZo.glmc_ortho_default (α := α) = glmc_ortho_default_lh_zo := rfl
theorem C68_LhZo_glmc_ortho_default_s : LhZo.glmc_ortho_default_s (α := α) = glmc_ortho_default_s_lh_zo := rfl
theorem C68_LhZo_glmc_perspective : LhZo.glmc_perspective (α := α) = glmc_perspective_lh_zo := rfl
theorem C68_LhZo_glmc_persp_move_far : LhZo.glmc_persp_move_far (α := α) = glmc_persp_move_far_lh_zo := rfl
theorem C68_LhZo_glmc_lookat : LhZo.glmc_lookat (α := α) = glmc_lookat_lh_zo := rfl
theorem C68_LhZo_glmc_look : LhZo.glmc_look (α := α) = glmc_look_lh_zo := rfl
theorem C68_LhZo_glmc_look_anyup : LhZo.glmc_look_anyup (α := α) = glmc_look_anyup_lh_zo := rfl
theorem C68_LhZo_glmc_persp_decomp : LhZo.glmc_persp_decomp (α := α) = glmc_persp_decomp_lh_zo := rfl
theorem C68_LhZo_glmc_persp_decompv : LhZo.glmc_persp_decompv (α := α) = glmc_persp_decompv_lh_zo := rfl
theorem C68_LhZo_glmc_persp_decomp_x : LhZo.glmc_persp_decomp_x (α := α) = glmc_persp_decomp_x_lh_zo := rfl
theorem C68_LhZo_glmc_persp_decomp_y : LhZo.glmc_persp_decomp_y (α := α) = glmc_persp_decomp_y_lh_zo := rfl
theorem C68_LhZo_glmc_persp_decomp_z : LhZo.glmc_persp_decomp_z (α := α) = glmc_persp_decomp_z_lh_zo := rfl
theorem C68_LhZo_glmc_persp_decomp_far : LhZo.glmc_persp_decomp_far (α := α) = glmc_persp_decomp_far_lh_zo := rfl
theorem C68_LhZo_glmc_persp_decomp_near : LhZo.glmc_persp_decomp_near (α := α) = glmc_persp_decomp_near_lh_zo := rfl
theorem C68_LhZo_glmc_persp_fovy : glmc_persp_fovy (α := α) = glmc_persp_fovy_lh_zo := rfl
theorem C68_LhZo_glmc_persp_aspect : glmc_persp_aspect (α := α) = glmc_persp_aspect_lh_zo := rfl
theorem C68_LhZo_glmc_persp_sizes : LhZo.glmc_persp_sizes (α := α) = glmc_persp_sizes_lh_zo := rfl
theorem C68_LhZo_glmc_unprojecti : LhZo.glmc_unprojecti (α := α) = glmc_unprojecti_zo := rfl
theorem C68_LhZo_glmc_project : LhZo.glmc_project (α := α) = glmc_project_zo := rfl
theorem C68_LhZo_glmc_project_z : LhZo.glmc_project_z (α := α) = glmc_project_z_zo := rfl
theorem C68_LhZo_glms_euler_xyz_quat : LhZo.glms_euler_xyz_quat (α := α) = LhZo.glm_euler_xyz_quat := rfl
theorem C68_LhZo_glms_euler_xzy_quat : LhZo.glms_euler_xzy_quat (α := α) = LhZo.glm_euler_xzy_quat := rfl
theorem C68_LhZo_glms_euler_yxz_quat : LhZo.glms_euler_yxz_quat (α := α) = LhZo.glm_euler_yxz_quat := rfl
theorem C68_LhZo_glms_euler_yzx_quat : LhZo.glms_euler_yzx_quat (α := α) = LhZo.glm_euler_yzx_quat := rfl
theorem C68_LhZo_glms_euler_zxy_quat : LhZo.glms_euler_zxy_quat (α := α) = LhZo.glm_euler_zxy_quat := rfl
theorem C68_LhZo_glms_euler_zyx_quat : LhZo.glms_euler_zyx_quat (α := α) = LhZo.glm_euler_zyx_quat := rfl
theorem C68_LhZo_glmc_perspective_default : LhZo.glmc_perspective_default (α := α) = LhZo.glm_perspective_default := rfl
theorem C68_LhZo_glmc_euler_xyz_quat : LhZo.glmc_euler_xyz_quat (α := α) = LhZo.glm_euler_xyz_quat := rfl
theorem C68_LhZo_glmc_euler_xzy_quat : LhZo.glmc_euler_xzy_quat (α := α) = LhZo.glm_euler_xzy_quat := rfl
theorem C68_LhZo_glmc_euler_yxz_quat : LhZo.glmc_euler_yxz_quat (α := α) = LhZo.glm_euler_yxz_quat := rfl
theorem C68_LhZo_glmc_euler_yzx_quat : LhZo.glmc_euler_yzx_quat (α := α) = LhZo.glm_euler_yzx_quat := rfl
theorem C68_LhZo_glmc_euler_zxy_quat : LhZo.glmc_euler_zxy_quat (α := α) = LhZo.glm_euler_zxy_quat := rfl
theorem C68_LhZo_glmc_euler_zyx_quat : LhZo.glmc_euler_zyx_quat (α := α) = LhZo.glm_euler_zyx_quat := rfl
theorem C68_LhZo_glm_unproject (pos : V3 α) (m : M4 α) (vp : V4 α) :
    LhZo.glm_unproject pos m vp = glm_unprojecti_zo pos (glm_mat4_inv m) vp := rfl
theorem C68_LhZo_glms_unproject (pos : V3 α) (m : M4 α) (vp : V4 α) :
    LhZo.glms_unproject pos m vp = glm_unprojecti_zo pos (glm_mat4_inv m) vp := rfl
theorem C68_LhZo_glmc_unproject (pos : V3 α) (m : M4 α) (vp : V4 α) :
    LhZo.glmc_unproject pos m vp = glm_unprojecti_zo pos (glm_mat4_inv m) vp := rfl

end Cglm
