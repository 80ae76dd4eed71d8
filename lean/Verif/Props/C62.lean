import Verif.Gen
import Verif.GenCall
import Verif.GenInt

/-!
# C62: the compiled-call API equals the inline API

Generated by tools/wrapthms.py.  Each theorem equates a generated wrapper with the generated array function of the same
name, as functions, for every scalar type `α`: `float` may be read as `ℝ`, as IEEE binary32 or as anything else with the operations of
`CFloat`.
-/

set_option linter.unusedSectionVars false

namespace Cglm

variable {α : Type} [Add α] [Sub α] [Mul α] [Div α] [Neg α] [CFloat α]

theorem C62_aabb2d_zero : glmc_aabb2d_zero (α := α) = glm_aabb2d_zero := rfl
theorem C62_aabb2d_copy : glmc_aabb2d_copy (α := α) = glm_aabb2d_copy := rfl
theorem C62_aabb2d_transform : glmc_aabb2d_transform (α := α) = glm_aabb2d_transform := rfl
theorem C62_aabb2d_merge : glmc_aabb2d_merge (α := α) = glm_aabb2d_merge := rfl
theorem C62_aabb2d_crop : glmc_aabb2d_crop (α := α) = glm_aabb2d_crop := rfl
theorem C62_aabb2d_crop_until : glmc_aabb2d_crop_until (α := α) = glm_aabb2d_crop_until := rfl
theorem C62_aabb2d_invalidate : glmc_aabb2d_invalidate (α := α) = glm_aabb2d_invalidate := rfl
theorem C62_aabb2d_isvalid : glmc_aabb2d_isvalid (α := α) = glm_aabb2d_isvalid := rfl
theorem C62_aabb2d_diag : glmc_aabb2d_diag (α := α) = glm_aabb2d_diag := rfl
theorem C62_aabb2d_sizev : glmc_aabb2d_sizev (α := α) = glm_aabb2d_sizev := rfl
theorem C62_aabb2d_radius : glmc_aabb2d_radius (α := α) = glm_aabb2d_radius := rfl
theorem C62_aabb2d_center : glmc_aabb2d_center (α := α) = glm_aabb2d_center := rfl
theorem C62_aabb2d_aabb : glmc_aabb2d_aabb (α := α) = glm_aabb2d_aabb := rfl
theorem C62_aabb2d_point : glmc_aabb2d_point (α := α) = glm_aabb2d_point := rfl
theorem C62_aabb2d_contains : glmc_aabb2d_contains (α := α) = glm_aabb2d_contains := rfl
theorem C62_aabb2d_circle : glmc_aabb2d_circle (α := α) = glm_aabb2d_circle := rfl
theorem C62_translate_make : glmc_translate_make (α := α) = glm_translate_make := rfl
theorem C62_translate_to : glmc_translate_to (α := α) = glm_translate_to := rfl
theorem C62_translate : glmc_translate (α := α) = glm_translate := rfl
theorem C62_translate_x : glmc_translate_x (α := α) = glm_translate_x := rfl
theorem C62_translate_y : glmc_translate_y (α := α) = glm_translate_y := rfl
theorem C62_translate_z : glmc_translate_z (α := α) = glm_translate_z := rfl
theorem C62_scale_make : glmc_scale_make (α := α) = glm_scale_make := rfl
theorem C62_scale_to : glmc_scale_to (α := α) = glm_scale_to := rfl
theorem C62_scale : glmc_scale (α := α) = glm_scale := rfl
theorem C62_scale_uni : glmc_scale_uni (α := α) = glm_scale_uni := rfl
theorem C62_rotate_x : glmc_rotate_x (α := α) = glm_rotate_x := rfl
theorem C62_rotate_y : glmc_rotate_y (α := α) = glm_rotate_y := rfl
theorem C62_rotate_z : glmc_rotate_z (α := α) = glm_rotate_z := rfl
theorem C62_rotate_make : glmc_rotate_make (α := α) = glm_rotate_make := rfl
theorem C62_rotate : glmc_rotate (α := α) = glm_rotate := rfl
theorem C62_rotate_at : glmc_rotate_at (α := α) = glm_rotate_at := rfl
theorem C62_rotate_atm : glmc_rotate_atm (α := α) = glm_rotate_atm := rfl
theorem C62_spin : glmc_spin (α := α) = glm_spin := rfl
theorem C62_decompose_scalev : glmc_decompose_scalev (α := α) = glm_decompose_scalev := rfl
theorem C62_uniscaled : glmc_uniscaled (α := α) = glm_uniscaled := rfl
theorem C62_decompose_rs : glmc_decompose_rs (α := α) = glm_decompose_rs := rfl
theorem C62_translated : glmc_translated (α := α) = glm_translated := rfl
theorem C62_translated_to : glmc_translated_to (α := α) = glm_translated_to := rfl
theorem C62_translated_x : glmc_translated_x (α := α) = glm_translated_x := rfl
theorem C62_translated_y : glmc_translated_y (α := α) = glm_translated_y := rfl
theorem C62_translated_z : glmc_translated_z (α := α) = glm_translated_z := rfl
theorem C62_rotated_x : glmc_rotated_x (α := α) = glm_rotated_x := rfl
theorem C62_rotated_y : glmc_rotated_y (α := α) = glm_rotated_y := rfl
theorem C62_rotated_z : glmc_rotated_z (α := α) = glm_rotated_z := rfl
theorem C62_rotated : glmc_rotated (α := α) = glm_rotated := rfl
theorem C62_rotated_at : glmc_rotated_at (α := α) = glm_rotated_at := rfl
theorem C62_spinned : glmc_spinned (α := α) = glm_spinned := rfl
theorem C62_decompose : glmc_decompose (α := α) = glm_decompose := rfl
theorem C62_mul : glmc_mul (α := α) = glm_mul := rfl
theorem C62_mul_rot : glmc_mul_rot (α := α) = glm_mul_rot := rfl
theorem C62_inv_tr : glmc_inv_tr (α := α) = glm_inv_tr := rfl
theorem C62_translate2d_make : glmc_translate2d_make (α := α) = glm_translate2d_make := rfl
theorem C62_translate2d_to : glmc_translate2d_to (α := α) = glm_translate2d_to := rfl
theorem C62_translate2d : glmc_translate2d (α := α) = glm_translate2d := rfl
theorem C62_translate2d_x : glmc_translate2d_x (α := α) = glm_translate2d_x := rfl
theorem C62_translate2d_y : glmc_translate2d_y (α := α) = glm_translate2d_y := rfl
theorem C62_scale2d_to : glmc_scale2d_to (α := α) = glm_scale2d_to := rfl
theorem C62_scale2d_make : glmc_scale2d_make (α := α) = glm_scale2d_make := rfl
theorem C62_scale2d : glmc_scale2d (α := α) = glm_scale2d := rfl
theorem C62_scale2d_uni : glmc_scale2d_uni (α := α) = glm_scale2d_uni := rfl
theorem C62_rotate2d_make : glmc_rotate2d_make (α := α) = glm_rotate2d_make := rfl
theorem C62_rotate2d : glmc_rotate2d (α := α) = glm_rotate2d := rfl
theorem C62_rotate2d_to : glmc_rotate2d_to (α := α) = glm_rotate2d_to := rfl
theorem C62_bezier : glmc_bezier (α := α) = glm_bezier := rfl
theorem C62_hermite : glmc_hermite (α := α) = glm_hermite := rfl
theorem C62_aabb_transform : glmc_aabb_transform (α := α) = glm_aabb_transform := rfl
theorem C62_aabb_merge : glmc_aabb_merge (α := α) = glm_aabb_merge := rfl
theorem C62_aabb_crop : glmc_aabb_crop (α := α) = glm_aabb_crop := rfl
theorem C62_aabb_crop_until : glmc_aabb_crop_until (α := α) = glm_aabb_crop_until := rfl
theorem C62_aabb_frustum : glmc_aabb_frustum (α := α) = glm_aabb_frustum := rfl
theorem C62_aabb_invalidate : glmc_aabb_invalidate (α := α) = glm_aabb_invalidate := rfl
theorem C62_aabb_isvalid : glmc_aabb_isvalid (α := α) = glm_aabb_isvalid := rfl
theorem C62_aabb_size : glmc_aabb_size (α := α) = glm_aabb_size := rfl
theorem C62_aabb_radius : glmc_aabb_radius (α := α) = glm_aabb_radius := rfl
theorem C62_aabb_center : glmc_aabb_center (α := α) = glm_aabb_center := rfl
theorem C62_aabb_aabb : glmc_aabb_aabb (α := α) = glm_aabb_aabb := rfl
theorem C62_aabb_point : glmc_aabb_point (α := α) = glm_aabb_point := rfl
theorem C62_aabb_contains : glmc_aabb_contains (α := α) = glm_aabb_contains := rfl
theorem C62_aabb_sphere : glmc_aabb_sphere (α := α) = glm_aabb_sphere := rfl
theorem C62_frustum : glmc_frustum (α := α) = glm_frustum := rfl
theorem C62_ortho : glmc_ortho (α := α) = glm_ortho := rfl
theorem C62_ortho_aabb : glmc_ortho_aabb (α := α) = glm_ortho_aabb := rfl
theorem C62_ortho_aabb_p : glmc_ortho_aabb_p (α := α) = glm_ortho_aabb_p := rfl
theorem C62_ortho_aabb_pz : glmc_ortho_aabb_pz (α := α) = glm_ortho_aabb_pz := rfl
theorem C62_ortho_default : glmc_ortho_default (α := α) = glm_ortho_default := rfl
theorem C62_ortho_default_s : glmc_ortho_default_s (α := α) = glm_ortho_default_s := rfl
theorem C62_perspective : glmc_perspective (α := α) = glm_perspective := rfl
theorem C62_persp_move_far : glmc_persp_move_far (α := α) = glm_persp_move_far := rfl
theorem C62_perspective_default : glmc_perspective_default (α := α) = glm_perspective_default := rfl
theorem C62_perspective_resize : glmc_perspective_resize (α := α) = glm_perspective_resize := rfl
theorem C62_lookat : glmc_lookat (α := α) = glm_lookat := rfl
theorem C62_look : glmc_look (α := α) = glm_look := rfl
theorem C62_look_anyup : glmc_look_anyup (α := α) = glm_look_anyup := rfl
theorem C62_persp_decomp : glmc_persp_decomp (α := α) = glm_persp_decomp := rfl
theorem C62_persp_decompv : glmc_persp_decompv (α := α) = glm_persp_decompv := rfl
theorem C62_persp_decomp_x : glmc_persp_decomp_x (α := α) = glm_persp_decomp_x := rfl
theorem C62_persp_decomp_y : glmc_persp_decomp_y (α := α) = glm_persp_decomp_y := rfl
theorem C62_persp_decomp_z : glmc_persp_decomp_z (α := α) = glm_persp_decomp_z := rfl
theorem C62_persp_decomp_far : glmc_persp_decomp_far (α := α) = glm_persp_decomp_far := rfl
theorem C62_persp_decomp_near : glmc_persp_decomp_near (α := α) = glm_persp_decomp_near := rfl
theorem C62_persp_fovy : glmc_persp_fovy (α := α) = glm_persp_fovy := rfl
theorem C62_persp_aspect : glmc_persp_aspect (α := α) = glm_persp_aspect := rfl
theorem C62_persp_sizes : glmc_persp_sizes (α := α) = glm_persp_sizes := rfl
theorem C62_smc : glmc_smc (α := α) = glm_smc := rfl
theorem C62_ease_linear : glmc_ease_linear (α := α) = glm_ease_linear := rfl
theorem C62_ease_sine_in : glmc_ease_sine_in (α := α) = glm_ease_sine_in := rfl
theorem C62_ease_sine_out : glmc_ease_sine_out (α := α) = glm_ease_sine_out := rfl
theorem C62_ease_sine_inout : glmc_ease_sine_inout (α := α) = glm_ease_sine_inout := rfl
theorem C62_ease_quad_in : glmc_ease_quad_in (α := α) = glm_ease_quad_in := rfl
theorem C62_ease_quad_out : glmc_ease_quad_out (α := α) = glm_ease_quad_out := rfl
theorem C62_ease_quad_inout : glmc_ease_quad_inout (α := α) = glm_ease_quad_inout := rfl
theorem C62_ease_cubic_in : glmc_ease_cubic_in (α := α) = glm_ease_cubic_in := rfl
theorem C62_ease_cubic_out : glmc_ease_cubic_out (α := α) = glm_ease_cubic_out := rfl
theorem C62_ease_cubic_inout : glmc_ease_cubic_inout (α := α) = glm_ease_cubic_inout := rfl
theorem C62_ease_quart_in : glmc_ease_quart_in (α := α) = glm_ease_quart_in := rfl
theorem C62_ease_quart_out : glmc_ease_quart_out (α := α) = glm_ease_quart_out := rfl
theorem C62_ease_quart_inout : glmc_ease_quart_inout (α := α) = glm_ease_quart_inout := rfl
theorem C62_ease_quint_in : glmc_ease_quint_in (α := α) = glm_ease_quint_in := rfl
theorem C62_ease_quint_out : glmc_ease_quint_out (α := α) = glm_ease_quint_out := rfl
theorem C62_ease_quint_inout : glmc_ease_quint_inout (α := α) = glm_ease_quint_inout := rfl
theorem C62_ease_exp_in : glmc_ease_exp_in (α := α) = glm_ease_exp_in := rfl
theorem C62_ease_exp_out : glmc_ease_exp_out (α := α) = glm_ease_exp_out := rfl
theorem C62_ease_exp_inout : glmc_ease_exp_inout (α := α) = glm_ease_exp_inout := rfl
theorem C62_ease_circ_in : glmc_ease_circ_in (α := α) = glm_ease_circ_in := rfl
theorem C62_ease_circ_out : glmc_ease_circ_out (α := α) = glm_ease_circ_out := rfl
theorem C62_ease_circ_inout : glmc_ease_circ_inout (α := α) = glm_ease_circ_inout := rfl
theorem C62_ease_back_in : glmc_ease_back_in (α := α) = glm_ease_back_in := rfl
theorem C62_ease_back_out : glmc_ease_back_out (α := α) = glm_ease_back_out := rfl
theorem C62_ease_back_inout : glmc_ease_back_inout (α := α) = glm_ease_back_inout := rfl
theorem C62_ease_elast_in : glmc_ease_elast_in (α := α) = glm_ease_elast_in := rfl
theorem C62_ease_elast_out : glmc_ease_elast_out (α := α) = glm_ease_elast_out := rfl
theorem C62_ease_elast_inout : glmc_ease_elast_inout (α := α) = glm_ease_elast_inout := rfl
theorem C62_ease_bounce_out : glmc_ease_bounce_out (α := α) = glm_ease_bounce_out := rfl
theorem C62_ease_bounce_in : glmc_ease_bounce_in (α := α) = glm_ease_bounce_in := rfl
theorem C62_ease_bounce_inout : glmc_ease_bounce_inout (α := α) = glm_ease_bounce_inout := rfl
theorem C62_euler_angles : glmc_euler_angles (α := α) = glm_euler_angles := rfl
theorem C62_euler : glmc_euler (α := α) = glm_euler := rfl
theorem C62_euler_xyz : glmc_euler_xyz (α := α) = glm_euler_xyz := rfl
theorem C62_euler_zyx : glmc_euler_zyx (α := α) = glm_euler_zyx := rfl
theorem C62_euler_zxy : glmc_euler_zxy (α := α) = glm_euler_zxy := rfl
theorem C62_euler_xzy : glmc_euler_xzy (α := α) = glm_euler_xzy := rfl
theorem C62_euler_yzx : glmc_euler_yzx (α := α) = glm_euler_yzx := rfl
theorem C62_euler_yxz : glmc_euler_yxz (α := α) = glm_euler_yxz := rfl
theorem C62_euler_by_order : glmc_euler_by_order (α := α) = glm_euler_by_order := rfl
theorem C62_euler_xyz_quat : glmc_euler_xyz_quat (α := α) = glm_euler_xyz_quat := rfl
theorem C62_euler_xzy_quat : glmc_euler_xzy_quat (α := α) = glm_euler_xzy_quat := rfl
theorem C62_euler_yxz_quat : glmc_euler_yxz_quat (α := α) = glm_euler_yxz_quat := rfl
theorem C62_euler_yzx_quat : glmc_euler_yzx_quat (α := α) = glm_euler_yzx_quat := rfl
theorem C62_euler_zxy_quat : glmc_euler_zxy_quat (α := α) = glm_euler_zxy_quat := rfl
theorem C62_euler_zyx_quat : glmc_euler_zyx_quat (α := α) = glm_euler_zyx_quat := rfl
theorem C62_frustum_planes : glmc_frustum_planes (α := α) = glm_frustum_planes := rfl
theorem C62_frustum_corners : glmc_frustum_corners (α := α) = glm_frustum_corners := rfl
theorem C62_frustum_center : glmc_frustum_center (α := α) = glm_frustum_center := rfl
theorem C62_frustum_box : glmc_frustum_box (α := α) = glm_frustum_box := rfl
theorem C62_frustum_corners_at : glmc_frustum_corners_at (α := α) = glm_frustum_corners_at := rfl
theorem C62_mat2_make : glmc_mat2_make (α := α) = glm_mat2_make := rfl
theorem C62_mat2_copy : glmc_mat2_copy (α := α) = glm_mat2_copy := rfl
theorem C62_mat2_identity : glmc_mat2_identity (α := α) = glm_mat2_identity := rfl
theorem C62_mat2_zero : glmc_mat2_zero (α := α) = glm_mat2_zero := rfl
theorem C62_mat2_mul : glmc_mat2_mul (α := α) = glm_mat2_mul := rfl
theorem C62_mat2_mulv : glmc_mat2_mulv (α := α) = glm_mat2_mulv := rfl
theorem C62_mat2_transpose_to : glmc_mat2_transpose_to (α := α) = glm_mat2_transpose_to := rfl
theorem C62_mat2_transpose : glmc_mat2_transpose (α := α) = glm_mat2_transpose := rfl
theorem C62_mat2_scale : glmc_mat2_scale (α := α) = glm_mat2_scale := rfl
theorem C62_mat2_inv : glmc_mat2_inv (α := α) = glm_mat2_inv := rfl
theorem C62_mat2_det : glmc_mat2_det (α := α) = glm_mat2_det := rfl
theorem C62_mat2_trace : glmc_mat2_trace (α := α) = glm_mat2_trace := rfl
theorem C62_mat2_rmc : glmc_mat2_rmc (α := α) = glm_mat2_rmc := rfl
theorem C62_mat2x3_copy : glmc_mat2x3_copy (α := α) = glm_mat2x3_copy := rfl
theorem C62_mat2x3_zero : glmc_mat2x3_zero (α := α) = glm_mat2x3_zero := rfl
theorem C62_mat2x3_make : glmc_mat2x3_make (α := α) = glm_mat2x3_make := rfl
theorem C62_mat2x3_mul : glmc_mat2x3_mul (α := α) = glm_mat2x3_mul := rfl
theorem C62_mat2x3_mulv : glmc_mat2x3_mulv (α := α) = glm_mat2x3_mulv := rfl
theorem C62_mat2x3_transpose : glmc_mat2x3_transpose (α := α) = glm_mat2x3_transpose := rfl
theorem C62_mat2x3_scale : glmc_mat2x3_scale (α := α) = glm_mat2x3_scale := rfl
theorem C62_mat2x4_copy : glmc_mat2x4_copy (α := α) = glm_mat2x4_copy := rfl
theorem C62_mat2x4_zero : glmc_mat2x4_zero (α := α) = glm_mat2x4_zero := rfl
theorem C62_mat2x4_make : glmc_mat2x4_make (α := α) = glm_mat2x4_make := rfl
theorem C62_mat2x4_mul : glmc_mat2x4_mul (α := α) = glm_mat2x4_mul := rfl
theorem C62_mat2x4_mulv : glmc_mat2x4_mulv (α := α) = glm_mat2x4_mulv := rfl
theorem C62_mat2x4_transpose : glmc_mat2x4_transpose (α := α) = glm_mat2x4_transpose := rfl
theorem C62_mat2x4_scale : glmc_mat2x4_scale (α := α) = glm_mat2x4_scale := rfl
theorem C62_mat3_copy : glmc_mat3_copy (α := α) = glm_mat3_copy := rfl
theorem C62_mat3_identity : glmc_mat3_identity (α := α) = glm_mat3_identity := rfl
theorem C62_mat3_zero : glmc_mat3_zero (α := α) = glm_mat3_zero := rfl
theorem C62_mat3_mul : glmc_mat3_mul (α := α) = glm_mat3_mul := rfl
theorem C62_mat3_transpose_to : glmc_mat3_transpose_to (α := α) = glm_mat3_transpose_to := rfl
theorem C62_mat3_transpose : glmc_mat3_transpose (α := α) = glm_mat3_transpose := rfl
theorem C62_mat3_mulv : glmc_mat3_mulv (α := α) = glm_mat3_mulv := rfl
theorem C62_mat3_trace : glmc_mat3_trace (α := α) = glm_mat3_trace := rfl
theorem C62_mat3_quat : glmc_mat3_quat (α := α) = glm_mat3_quat := rfl
theorem C62_mat3_scale : glmc_mat3_scale (α := α) = glm_mat3_scale := rfl
theorem C62_mat3_det : glmc_mat3_det (α := α) = glm_mat3_det := rfl
theorem C62_mat3_inv : glmc_mat3_inv (α := α) = glm_mat3_inv := rfl
theorem C62_mat3_rmc : glmc_mat3_rmc (α := α) = glm_mat3_rmc := rfl
theorem C62_mat3_make : glmc_mat3_make (α := α) = glm_mat3_make := rfl
theorem C62_mat3_textrans : glmc_mat3_textrans (α := α) = glm_mat3_textrans := rfl
theorem C62_mat3x2_copy : glmc_mat3x2_copy (α := α) = glm_mat3x2_copy := rfl
theorem C62_mat3x2_zero : glmc_mat3x2_zero (α := α) = glm_mat3x2_zero := rfl
theorem C62_mat3x2_make : glmc_mat3x2_make (α := α) = glm_mat3x2_make := rfl
theorem C62_mat3x2_mul : glmc_mat3x2_mul (α := α) = glm_mat3x2_mul := rfl
theorem C62_mat3x2_mulv : glmc_mat3x2_mulv (α := α) = glm_mat3x2_mulv := rfl
theorem C62_mat3x2_transpose : glmc_mat3x2_transpose (α := α) = glm_mat3x2_transpose := rfl
theorem C62_mat3x2_scale : glmc_mat3x2_scale (α := α) = glm_mat3x2_scale := rfl
theorem C62_mat3x4_copy : glmc_mat3x4_copy (α := α) = glm_mat3x4_copy := rfl
theorem C62_mat3x4_zero : glmc_mat3x4_zero (α := α) = glm_mat3x4_zero := rfl
theorem C62_mat3x4_make : glmc_mat3x4_make (α := α) = glm_mat3x4_make := rfl
theorem C62_mat3x4_mul : glmc_mat3x4_mul (α := α) = glm_mat3x4_mul := rfl
theorem C62_mat3x4_mulv : glmc_mat3x4_mulv (α := α) = glm_mat3x4_mulv := rfl
theorem C62_mat3x4_transpose : glmc_mat3x4_transpose (α := α) = glm_mat3x4_transpose := rfl
theorem C62_mat3x4_scale : glmc_mat3x4_scale (α := α) = glm_mat3x4_scale := rfl
theorem C62_mat4_ucopy : glmc_mat4_ucopy (α := α) = glm_mat4_ucopy := rfl
theorem C62_mat4_copy : glmc_mat4_copy (α := α) = glm_mat4_copy := rfl
theorem C62_mat4_identity : glmc_mat4_identity (α := α) = glm_mat4_identity := rfl
theorem C62_mat4_zero : glmc_mat4_zero (α := α) = glm_mat4_zero := rfl
theorem C62_mat4_pick3 : glmc_mat4_pick3 (α := α) = glm_mat4_pick3 := rfl
theorem C62_mat4_pick3t : glmc_mat4_pick3t (α := α) = glm_mat4_pick3t := rfl
theorem C62_mat4_ins3 : glmc_mat4_ins3 (α := α) = glm_mat4_ins3 := rfl
theorem C62_mat4_mul : glmc_mat4_mul (α := α) = glm_mat4_mul := rfl
theorem C62_mat4_mulv : glmc_mat4_mulv (α := α) = glm_mat4_mulv := rfl
theorem C62_mat4_mulv3 : glmc_mat4_mulv3 (α := α) = glm_mat4_mulv3 := rfl
theorem C62_mat4_trace : glmc_mat4_trace (α := α) = glm_mat4_trace := rfl
theorem C62_mat4_trace3 : glmc_mat4_trace3 (α := α) = glm_mat4_trace3 := rfl
theorem C62_mat4_quat : glmc_mat4_quat (α := α) = glm_mat4_quat := rfl
theorem C62_mat4_transpose_to : glmc_mat4_transpose_to (α := α) = glm_mat4_transpose_to := rfl
theorem C62_mat4_transpose : glmc_mat4_transpose (α := α) = glm_mat4_transpose := rfl
theorem C62_mat4_scale_p : glmc_mat4_scale_p (α := α) = glm_mat4_scale_p := rfl
theorem C62_mat4_scale : glmc_mat4_scale (α := α) = glm_mat4_scale := rfl
theorem C62_mat4_det : glmc_mat4_det (α := α) = glm_mat4_det := rfl
theorem C62_mat4_inv : glmc_mat4_inv (α := α) = glm_mat4_inv := rfl
theorem C62_mat4_inv_precise : glmc_mat4_inv_precise (α := α) = glm_mat4_inv := rfl
theorem C62_mat4_inv_fast : glmc_mat4_inv_fast (α := α) = glm_mat4_inv_fast := rfl
theorem C62_mat4_rmc : glmc_mat4_rmc (α := α) = glm_mat4_rmc := rfl
theorem C62_mat4_make : glmc_mat4_make (α := α) = glm_mat4_make := rfl
theorem C62_mat4_textrans : glmc_mat4_textrans (α := α) = glm_mat4_textrans := rfl
theorem C62_mat4x2_copy : glmc_mat4x2_copy (α := α) = glm_mat4x2_copy := rfl
theorem C62_mat4x2_zero : glmc_mat4x2_zero (α := α) = glm_mat4x2_zero := rfl
theorem C62_mat4x2_make : glmc_mat4x2_make (α := α) = glm_mat4x2_make := rfl
theorem C62_mat4x2_mul : glmc_mat4x2_mul (α := α) = glm_mat4x2_mul := rfl
theorem C62_mat4x2_mulv : glmc_mat4x2_mulv (α := α) = glm_mat4x2_mulv := rfl
theorem C62_mat4x2_transpose : glmc_mat4x2_transpose (α := α) = glm_mat4x2_transpose := rfl
theorem C62_mat4x2_scale : glmc_mat4x2_scale (α := α) = glm_mat4x2_scale := rfl
theorem C62_mat4x3_copy : glmc_mat4x3_copy (α := α) = glm_mat4x3_copy := rfl
theorem C62_mat4x3_zero : glmc_mat4x3_zero (α := α) = glm_mat4x3_zero := rfl
theorem C62_mat4x3_make : glmc_mat4x3_make (α := α) = glm_mat4x3_make := rfl
theorem C62_mat4x3_mul : glmc_mat4x3_mul (α := α) = glm_mat4x3_mul := rfl
theorem C62_mat4x3_mulv : glmc_mat4x3_mulv (α := α) = glm_mat4x3_mulv := rfl
theorem C62_mat4x3_transpose : glmc_mat4x3_transpose (α := α) = glm_mat4x3_transpose := rfl
theorem C62_mat4x3_scale : glmc_mat4x3_scale (α := α) = glm_mat4x3_scale := rfl
theorem C62_perlin_vec4 : glmc_perlin_vec4 (α := α) = glm_perlin_vec4 := rfl
theorem C62_perlin_vec3 : glmc_perlin_vec3 (α := α) = glm_perlin_vec3 := rfl
theorem C62_perlin_vec2 : glmc_perlin_vec2 (α := α) = glm_perlin_vec2 := rfl
theorem C62_plane_normalize : glmc_plane_normalize (α := α) = glm_plane_normalize := rfl
theorem C62_unprojecti : glmc_unprojecti (α := α) = glm_unprojecti := rfl
theorem C62_unproject : glmc_unproject (α := α) = glm_unproject := rfl
theorem C62_project : glmc_project (α := α) = glm_project := rfl
theorem C62_project_z : glmc_project_z (α := α) = glm_project_z := rfl
theorem C62_pickmatrix : glmc_pickmatrix (α := α) = glm_pickmatrix := rfl
theorem C62_quat_identity : glmc_quat_identity (α := α) = glm_quat_identity := rfl
theorem C62_quat_init : glmc_quat_init (α := α) = glm_quat_init := rfl
theorem C62_quat : glmc_quat (α := α) = glm_quat := rfl
theorem C62_quatv : glmc_quatv (α := α) = glm_quatv := rfl
theorem C62_quat_copy : glmc_quat_copy (α := α) = glm_quat_copy := rfl
theorem C62_quat_norm : glmc_quat_norm (α := α) = glm_quat_norm := rfl
theorem C62_quat_normalize_to : glmc_quat_normalize_to (α := α) = glm_quat_normalize_to := rfl
theorem C62_quat_normalize : glmc_quat_normalize (α := α) = glm_quat_normalize := rfl
theorem C62_quat_dot : glmc_quat_dot (α := α) = glm_quat_dot := rfl
theorem C62_quat_conjugate : glmc_quat_conjugate (α := α) = glm_quat_conjugate := rfl
theorem C62_quat_inv : glmc_quat_inv (α := α) = glm_quat_inv := rfl
theorem C62_quat_add : glmc_quat_add (α := α) = glm_quat_add := rfl
theorem C62_quat_sub : glmc_quat_sub (α := α) = glm_quat_sub := rfl
theorem C62_quat_real : glmc_quat_real (α := α) = glm_quat_real := rfl
theorem C62_quat_imag : glmc_quat_imag (α := α) = glm_quat_imag := rfl
theorem C62_quat_imagn : glmc_quat_imagn (α := α) = glm_quat_imagn := rfl
theorem C62_quat_imaglen : glmc_quat_imaglen (α := α) = glm_quat_imaglen := rfl
theorem C62_quat_angle : glmc_quat_angle (α := α) = glm_quat_angle := rfl
theorem C62_quat_axis : glmc_quat_axis (α := α) = glm_quat_axis := rfl
theorem C62_quat_mul : glmc_quat_mul (α := α) = glm_quat_mul := rfl
theorem C62_quat_mat4 : glmc_quat_mat4 (α := α) = glm_quat_mat4 := rfl
theorem C62_quat_mat4t : glmc_quat_mat4t (α := α) = glm_quat_mat4t := rfl
theorem C62_quat_mat3 : glmc_quat_mat3 (α := α) = glm_quat_mat3 := rfl
theorem C62_quat_mat3t : glmc_quat_mat3t (α := α) = glm_quat_mat3t := rfl
theorem C62_quat_lerp : glmc_quat_lerp (α := α) = glm_quat_lerp := rfl
theorem C62_quat_lerpc : glmc_quat_lerpc (α := α) = glm_quat_lerpc := rfl
theorem C62_quat_nlerp : glmc_quat_nlerp (α := α) = glm_quat_nlerp := rfl
theorem C62_quat_slerp : glmc_quat_slerp (α := α) = glm_quat_slerp := rfl
theorem C62_quat_slerp_longest : glmc_quat_slerp_longest (α := α) = glm_quat_slerp_longest := rfl
theorem C62_quat_look : glmc_quat_look (α := α) = glm_quat_look := rfl
theorem C62_quat_for : glmc_quat_for (α := α) = glm_quat_for := rfl
theorem C62_quat_forp : glmc_quat_forp (α := α) = glm_quat_forp := rfl
theorem C62_quat_rotatev : glmc_quat_rotatev (α := α) = glm_quat_rotatev := rfl
theorem C62_quat_rotate : glmc_quat_rotate (α := α) = glm_quat_rotate := rfl
theorem C62_quat_rotate_at : glmc_quat_rotate_at (α := α) = glm_quat_rotate_at := rfl
theorem C62_quat_rotate_atm : glmc_quat_rotate_atm (α := α) = glm_quat_rotate_atm := rfl
theorem C62_quat_make : glmc_quat_make (α := α) = glm_quat_make := rfl
theorem C62_ray_triangle : glmc_ray_triangle (α := α) = glm_ray_triangle := rfl
theorem C62_ray_sphere : glmc_ray_sphere (α := α) = glm_ray_sphere := rfl
theorem C62_ray_at : glmc_ray_at (α := α) = glm_ray_at := rfl
theorem C62_sphere_radii : glmc_sphere_radii (α := α) = glm_sphere_radii := rfl
theorem C62_sphere_transform : glmc_sphere_transform (α := α) = glm_sphere_transform := rfl
theorem C62_sphere_merge : glmc_sphere_merge (α := α) = glm_sphere_merge := rfl
theorem C62_sphere_sphere : glmc_sphere_sphere (α := α) = glm_sphere_sphere := rfl
theorem C62_sphere_point : glmc_sphere_point (α := α) = glm_sphere_point := rfl
theorem C62_vec2 : glmc_vec2 (α := α) = glm_vec2 := rfl
theorem C62_vec2_fill : glmc_vec2_fill (α := α) = glm_vec2_fill := rfl
theorem C62_vec2_eq : glmc_vec2_eq (α := α) = glm_vec2_eq := rfl
theorem C62_vec2_eqv : glmc_vec2_eqv (α := α) = glm_vec2_eqv := rfl
theorem C62_vec2_copy : glmc_vec2_copy (α := α) = glm_vec2_copy := rfl
theorem C62_vec2_zero : glmc_vec2_zero (α := α) = glm_vec2_zero := rfl
theorem C62_vec2_one : glmc_vec2_one (α := α) = glm_vec2_one := rfl
theorem C62_vec2_dot : glmc_vec2_dot (α := α) = glm_vec2_dot := rfl
theorem C62_vec2_cross : glmc_vec2_cross (α := α) = glm_vec2_cross := rfl
theorem C62_vec2_norm2 : glmc_vec2_norm2 (α := α) = glm_vec2_norm2 := rfl
theorem C62_vec2_norm : glmc_vec2_norm (α := α) = glm_vec2_norm := rfl
theorem C62_vec2_add : glmc_vec2_add (α := α) = glm_vec2_add := rfl
theorem C62_vec2_adds : glmc_vec2_adds (α := α) = glm_vec2_adds := rfl
theorem C62_vec2_sub : glmc_vec2_sub (α := α) = glm_vec2_sub := rfl
theorem C62_vec2_subs : glmc_vec2_subs (α := α) = glm_vec2_subs := rfl
theorem C62_vec2_mul : glmc_vec2_mul (α := α) = glm_vec2_mul := rfl
theorem C62_vec2_scale : glmc_vec2_scale (α := α) = glm_vec2_scale := rfl
theorem C62_vec2_scale_as : glmc_vec2_scale_as (α := α) = glm_vec2_scale_as := rfl
theorem C62_vec2_div : glmc_vec2_div (α := α) = glm_vec2_div := rfl
theorem C62_vec2_divs : glmc_vec2_divs (α := α) = glm_vec2_divs := rfl
theorem C62_vec2_addadd : glmc_vec2_addadd (α := α) = glm_vec2_addadd := rfl
theorem C62_vec2_subadd : glmc_vec2_subadd (α := α) = glm_vec2_subadd := rfl
theorem C62_vec2_muladd : glmc_vec2_muladd (α := α) = glm_vec2_muladd := rfl
theorem C62_vec2_muladds : glmc_vec2_muladds (α := α) = glm_vec2_muladds := rfl
theorem C62_vec2_maxadd : glmc_vec2_maxadd (α := α) = glm_vec2_maxadd := rfl
theorem C62_vec2_minadd : glmc_vec2_minadd (α := α) = glm_vec2_minadd := rfl
theorem C62_vec2_subsub : glmc_vec2_subsub (α := α) = glm_vec2_subsub := rfl
theorem C62_vec2_addsub : glmc_vec2_addsub (α := α) = glm_vec2_addsub := rfl
theorem C62_vec2_mulsub : glmc_vec2_mulsub (α := α) = glm_vec2_mulsub := rfl
theorem C62_vec2_mulsubs : glmc_vec2_mulsubs (α := α) = glm_vec2_mulsubs := rfl
theorem C62_vec2_maxsub : glmc_vec2_maxsub (α := α) = glm_vec2_maxsub := rfl
theorem C62_vec2_minsub : glmc_vec2_minsub (α := α) = glm_vec2_minsub := rfl
theorem C62_vec2_negate_to : glmc_vec2_negate_to (α := α) = glm_vec2_negate_to := rfl
theorem C62_vec2_negate : glmc_vec2_negate (α := α) = glm_vec2_negate := rfl
theorem C62_vec2_normalize : glmc_vec2_normalize (α := α) = glm_vec2_normalize := rfl
theorem C62_vec2_normalize_to : glmc_vec2_normalize_to (α := α) = glm_vec2_normalize_to := rfl
theorem C62_vec2_rotate : glmc_vec2_rotate (α := α) = glm_vec2_rotate := rfl
theorem C62_vec2_center : glmc_vec2_center (α := α) = glm_vec2_center := rfl
theorem C62_vec2_distance2 : glmc_vec2_distance2 (α := α) = glm_vec2_distance2 := rfl
theorem C62_vec2_distance : glmc_vec2_distance (α := α) = glm_vec2_distance := rfl
theorem C62_vec2_maxv : glmc_vec2_maxv (α := α) = glm_vec2_maxv := rfl
theorem C62_vec2_minv : glmc_vec2_minv (α := α) = glm_vec2_minv := rfl
theorem C62_vec2_clamp : glmc_vec2_clamp (α := α) = glm_vec2_clamp := rfl
theorem C62_vec2_abs : glmc_vec2_abs (α := α) = glm_vec2_abs := rfl
theorem C62_vec2_fract : glmc_vec2_fract (α := α) = glm_vec2_fract := rfl
theorem C62_vec2_floor : glmc_vec2_floor (α := α) = glm_vec2_floor := rfl
theorem C62_vec2_mods : glmc_vec2_mods (α := α) = glm_vec2_mods := rfl
theorem C62_vec2_step : glmc_vec2_step (α := α) = glm_vec2_step := rfl
theorem C62_vec2_steps : glmc_vec2_steps (α := α) = glm_vec2_steps := rfl
theorem C62_vec2_stepr : glmc_vec2_stepr (α := α) = glm_vec2_stepr := rfl
theorem C62_vec2_lerp : glmc_vec2_lerp (α := α) = glm_vec2_lerp := rfl
theorem C62_vec2_complex_mul : glmc_vec2_complex_mul (α := α) = glm_vec2_complex_mul := rfl
theorem C62_vec2_complex_div : glmc_vec2_complex_div (α := α) = glm_vec2_complex_div := rfl
theorem C62_vec2_complex_conjugate : glmc_vec2_complex_conjugate (α := α) = glm_vec2_complex_conjugate := rfl
theorem C62_vec2_make : glmc_vec2_make (α := α) = glm_vec2_make := rfl
theorem C62_vec2_reflect : glmc_vec2_reflect (α := α) = glm_vec2_reflect := rfl
theorem C62_vec2_refract : glmc_vec2_refract (α := α) = glm_vec2_refract := rfl
theorem C62_vec3 : glmc_vec3 (α := α) = glm_vec3 := rfl
theorem C62_vec3_copy : glmc_vec3_copy (α := α) = glm_vec3_copy := rfl
theorem C62_vec3_zero : glmc_vec3_zero (α := α) = glm_vec3_zero := rfl
theorem C62_vec3_one : glmc_vec3_one (α := α) = glm_vec3_one := rfl
theorem C62_vec3_dot : glmc_vec3_dot (α := α) = glm_vec3_dot := rfl
theorem C62_vec3_cross : glmc_vec3_cross (α := α) = glm_vec3_cross := rfl
theorem C62_vec3_crossn : glmc_vec3_crossn (α := α) = glm_vec3_crossn := rfl
theorem C62_vec3_norm : glmc_vec3_norm (α := α) = glm_vec3_norm := rfl
theorem C62_vec3_normalize_to : glmc_vec3_normalize_to (α := α) = glm_vec3_normalize_to := rfl
theorem C62_vec3_normalize : glmc_vec3_normalize (α := α) = glm_vec3_normalize := rfl
theorem C62_vec3_norm2 : glmc_vec3_norm2 (α := α) = glm_vec3_norm2 := rfl
theorem C62_vec3_norm_one : glmc_vec3_norm_one (α := α) = glm_vec3_norm_one := rfl
theorem C62_vec3_norm_inf : glmc_vec3_norm_inf (α := α) = glm_vec3_norm_inf := rfl
theorem C62_vec3_add : glmc_vec3_add (α := α) = glm_vec3_add := rfl
theorem C62_vec3_adds : glmc_vec3_adds (α := α) = glm_vec3_adds := rfl
theorem C62_vec3_sub : glmc_vec3_sub (α := α) = glm_vec3_sub := rfl
theorem C62_vec3_subs : glmc_vec3_subs (α := α) = glm_vec3_subs := rfl
theorem C62_vec3_mul : glmc_vec3_mul (α := α) = glm_vec3_mul := rfl
theorem C62_vec3_scale : glmc_vec3_scale (α := α) = glm_vec3_scale := rfl
theorem C62_vec3_scale_as : glmc_vec3_scale_as (α := α) = glm_vec3_scale_as := rfl
theorem C62_vec3_div : glmc_vec3_div (α := α) = glm_vec3_div := rfl
theorem C62_vec3_divs : glmc_vec3_divs (α := α) = glm_vec3_divs := rfl
theorem C62_vec3_addadd : glmc_vec3_addadd (α := α) = glm_vec3_addadd := rfl
theorem C62_vec3_subadd : glmc_vec3_subadd (α := α) = glm_vec3_subadd := rfl
theorem C62_vec3_muladd : glmc_vec3_muladd (α := α) = glm_vec3_muladd := rfl
theorem C62_vec3_muladds : glmc_vec3_muladds (α := α) = glm_vec3_muladds := rfl
theorem C62_vec3_maxadd : glmc_vec3_maxadd (α := α) = glm_vec3_maxadd := rfl
theorem C62_vec3_minadd : glmc_vec3_minadd (α := α) = glm_vec3_minadd := rfl
theorem C62_vec3_subsub : glmc_vec3_subsub (α := α) = glm_vec3_subsub := rfl
theorem C62_vec3_addsub : glmc_vec3_addsub (α := α) = glm_vec3_addsub := rfl
theorem C62_vec3_mulsub : glmc_vec3_mulsub (α := α) = glm_vec3_mulsub := rfl
theorem C62_vec3_mulsubs : glmc_vec3_mulsubs (α := α) = glm_vec3_mulsubs := rfl
theorem C62_vec3_maxsub : glmc_vec3_maxsub (α := α) = glm_vec3_maxsub := rfl
theorem C62_vec3_minsub : glmc_vec3_minsub (α := α) = glm_vec3_minsub := rfl
theorem C62_vec3_negate : glmc_vec3_negate (α := α) = glm_vec3_negate := rfl
theorem C62_vec3_negate_to : glmc_vec3_negate_to (α := α) = glm_vec3_negate_to := rfl
theorem C62_vec3_angle : glmc_vec3_angle (α := α) = glm_vec3_angle := rfl
theorem C62_vec3_rotate : glmc_vec3_rotate (α := α) = glm_vec3_rotate := rfl
theorem C62_vec3_rotate_m4 : glmc_vec3_rotate_m4 (α := α) = glm_vec3_rotate_m4 := rfl
theorem C62_vec3_rotate_m3 : glmc_vec3_rotate_m3 (α := α) = glm_vec3_rotate_m3 := rfl
theorem C62_vec3_proj : glmc_vec3_proj (α := α) = glm_vec3_proj := rfl
theorem C62_vec3_center : glmc_vec3_center (α := α) = glm_vec3_center := rfl
theorem C62_vec3_distance : glmc_vec3_distance (α := α) = glm_vec3_distance := rfl
theorem C62_vec3_distance2 : glmc_vec3_distance2 (α := α) = glm_vec3_distance2 := rfl
theorem C62_vec3_maxv : glmc_vec3_maxv (α := α) = glm_vec3_maxv := rfl
theorem C62_vec3_minv : glmc_vec3_minv (α := α) = glm_vec3_minv := rfl
theorem C62_vec3_clamp : glmc_vec3_clamp (α := α) = glm_vec3_clamp := rfl
theorem C62_vec3_ortho : glmc_vec3_ortho (α := α) = glm_vec3_ortho := rfl
theorem C62_vec3_lerp : glmc_vec3_lerp (α := α) = glm_vec3_lerp := rfl
theorem C62_vec3_lerpc : glmc_vec3_lerpc (α := α) = glm_vec3_lerpc := rfl
theorem C62_vec3_step : glmc_vec3_step (α := α) = glm_vec3_step := rfl
theorem C62_vec3_smoothstep_uni : glmc_vec3_smoothstep_uni (α := α) = glm_vec3_smoothstep_uni := rfl
theorem C62_vec3_smoothstep : glmc_vec3_smoothstep (α := α) = glm_vec3_smoothstep := rfl
theorem C62_vec3_smoothinterp : glmc_vec3_smoothinterp (α := α) = glm_vec3_smoothinterp := rfl
theorem C62_vec3_smoothinterpc : glmc_vec3_smoothinterpc (α := α) = glm_vec3_smoothinterpc := rfl
theorem C62_vec3_mulv : glmc_vec3_mulv (α := α) = glm_vec3_mul := rfl
theorem C62_vec3_broadcast : glmc_vec3_broadcast (α := α) = glm_vec3_broadcast := rfl
theorem C62_vec3_fill : glmc_vec3_fill (α := α) = glm_vec3_fill := rfl
theorem C62_vec3_eq : glmc_vec3_eq (α := α) = glm_vec3_eq := rfl
theorem C62_vec3_eq_eps : glmc_vec3_eq_eps (α := α) = glm_vec3_eq_eps := rfl
theorem C62_vec3_eq_all : glmc_vec3_eq_all (α := α) = glm_vec3_eq_all := rfl
theorem C62_vec3_eqv : glmc_vec3_eqv (α := α) = glm_vec3_eqv := rfl
theorem C62_vec3_eqv_eps : glmc_vec3_eqv_eps (α := α) = glm_vec3_eqv_eps := rfl
theorem C62_vec3_max : glmc_vec3_max (α := α) = glm_vec3_max := rfl
theorem C62_vec3_min : glmc_vec3_min (α := α) = glm_vec3_min := rfl
theorem C62_vec3_isnan : glmc_vec3_isnan (α := α) = glm_vec3_isnan := rfl
theorem C62_vec3_isinf : glmc_vec3_isinf (α := α) = glm_vec3_isinf := rfl
theorem C62_vec3_isvalid : glmc_vec3_isvalid (α := α) = glm_vec3_isvalid := rfl
theorem C62_vec3_sign : glmc_vec3_sign (α := α) = glm_vec3_sign := rfl
theorem C62_vec3_abs : glmc_vec3_abs (α := α) = glm_vec3_abs := rfl
theorem C62_vec3_fract : glmc_vec3_fract (α := α) = glm_vec3_fract := rfl
theorem C62_vec3_floor : glmc_vec3_floor (α := α) = glm_vec3_floor := rfl
theorem C62_vec3_mods : glmc_vec3_mods (α := α) = glm_vec3_mods := rfl
theorem C62_vec3_steps : glmc_vec3_steps (α := α) = glm_vec3_steps := rfl
theorem C62_vec3_stepr : glmc_vec3_stepr (α := α) = glm_vec3_stepr := rfl
theorem C62_vec3_hadd : glmc_vec3_hadd (α := α) = glm_vec3_hadd := rfl
theorem C62_vec3_sqrt : glmc_vec3_sqrt (α := α) = glm_vec3_sqrt := rfl
theorem C62_vec3_make : glmc_vec3_make (α := α) = glm_vec3_make := rfl
theorem C62_vec3_faceforward : glmc_vec3_faceforward (α := α) = glm_vec3_faceforward := rfl
theorem C62_vec3_reflect : glmc_vec3_reflect (α := α) = glm_vec3_reflect := rfl
theorem C62_vec3_refract : glmc_vec3_refract (α := α) = glm_vec3_refract := rfl
theorem C62_vec4 : glmc_vec4 (α := α) = glm_vec4 := rfl
theorem C62_vec4_zero : glmc_vec4_zero (α := α) = glm_vec4_zero := rfl
theorem C62_vec4_one : glmc_vec4_one (α := α) = glm_vec4_one := rfl
theorem C62_vec4_copy3 : glmc_vec4_copy3 (α := α) = glm_vec4_copy3 := rfl
theorem C62_vec4_copy : glmc_vec4_copy (α := α) = glm_vec4_copy := rfl
theorem C62_vec4_ucopy : glmc_vec4_ucopy (α := α) = glm_vec4_ucopy := rfl
theorem C62_vec4_dot : glmc_vec4_dot (α := α) = glm_vec4_dot := rfl
theorem C62_vec4_norm : glmc_vec4_norm (α := α) = glm_vec4_norm := rfl
theorem C62_vec4_normalize_to : glmc_vec4_normalize_to (α := α) = glm_vec4_normalize_to := rfl
theorem C62_vec4_normalize : glmc_vec4_normalize (α := α) = glm_vec4_normalize := rfl
theorem C62_vec4_norm2 : glmc_vec4_norm2 (α := α) = glm_vec4_norm2 := rfl
theorem C62_vec4_norm_one : glmc_vec4_norm_one (α := α) = glm_vec4_norm_one := rfl
theorem C62_vec4_norm_inf : glmc_vec4_norm_inf (α := α) = glm_vec4_norm_inf := rfl
theorem C62_vec4_add : glmc_vec4_add (α := α) = glm_vec4_add := rfl
theorem C62_vec4_adds : glmc_vec4_adds (α := α) = glm_vec4_adds := rfl
theorem C62_vec4_sub : glmc_vec4_sub (α := α) = glm_vec4_sub := rfl
theorem C62_vec4_subs : glmc_vec4_subs (α := α) = glm_vec4_subs := rfl
theorem C62_vec4_mul : glmc_vec4_mul (α := α) = glm_vec4_mul := rfl
theorem C62_vec4_scale : glmc_vec4_scale (α := α) = glm_vec4_scale := rfl
theorem C62_vec4_scale_as : glmc_vec4_scale_as (α := α) = glm_vec4_scale_as := rfl
theorem C62_vec4_div : glmc_vec4_div (α := α) = glm_vec4_div := rfl
theorem C62_vec4_divs : glmc_vec4_divs (α := α) = glm_vec4_divs := rfl
theorem C62_vec4_addadd : glmc_vec4_addadd (α := α) = glm_vec4_addadd := rfl
theorem C62_vec4_subadd : glmc_vec4_subadd (α := α) = glm_vec4_subadd := rfl
theorem C62_vec4_muladd : glmc_vec4_muladd (α := α) = glm_vec4_muladd := rfl
theorem C62_vec4_muladds : glmc_vec4_muladds (α := α) = glm_vec4_muladds := rfl
theorem C62_vec4_maxadd : glmc_vec4_maxadd (α := α) = glm_vec4_maxadd := rfl
theorem C62_vec4_minadd : glmc_vec4_minadd (α := α) = glm_vec4_minadd := rfl
theorem C62_vec4_subsub : glmc_vec4_subsub (α := α) = glm_vec4_subsub := rfl
theorem C62_vec4_addsub : glmc_vec4_addsub (α := α) = glm_vec4_addsub := rfl
theorem C62_vec4_mulsub : glmc_vec4_mulsub (α := α) = glm_vec4_mulsub := rfl
theorem C62_vec4_mulsubs : glmc_vec4_mulsubs (α := α) = glm_vec4_mulsubs := rfl
theorem C62_vec4_maxsub : glmc_vec4_maxsub (α := α) = glm_vec4_maxsub := rfl
theorem C62_vec4_minsub : glmc_vec4_minsub (α := α) = glm_vec4_minsub := rfl
theorem C62_vec4_negate : glmc_vec4_negate (α := α) = glm_vec4_negate := rfl
theorem C62_vec4_negate_to : glmc_vec4_negate_to (α := α) = glm_vec4_negate_to := rfl
theorem C62_vec4_distance : glmc_vec4_distance (α := α) = glm_vec4_distance := rfl
theorem C62_vec4_distance2 : glmc_vec4_distance2 (α := α) = glm_vec4_distance2 := rfl
theorem C62_vec4_maxv : glmc_vec4_maxv (α := α) = glm_vec4_maxv := rfl
theorem C62_vec4_minv : glmc_vec4_minv (α := α) = glm_vec4_minv := rfl
theorem C62_vec4_clamp : glmc_vec4_clamp (α := α) = glm_vec4_clamp := rfl
theorem C62_vec4_lerp : glmc_vec4_lerp (α := α) = glm_vec4_lerp := rfl
theorem C62_vec4_lerpc : glmc_vec4_lerpc (α := α) = glm_vec4_lerpc := rfl
theorem C62_vec4_step : glmc_vec4_step (α := α) = glm_vec4_step := rfl
theorem C62_vec4_smoothstep_uni : glmc_vec4_smoothstep_uni (α := α) = glm_vec4_smoothstep_uni := rfl
theorem C62_vec4_smoothstep : glmc_vec4_smoothstep (α := α) = glm_vec4_smoothstep := rfl
theorem C62_vec4_smoothinterp : glmc_vec4_smoothinterp (α := α) = glm_vec4_smoothinterp := rfl
theorem C62_vec4_smoothinterpc : glmc_vec4_smoothinterpc (α := α) = glm_vec4_smoothinterpc := rfl
theorem C62_vec4_cubic : glmc_vec4_cubic (α := α) = glm_vec4_cubic := rfl
theorem C62_vec4_mulv : glmc_vec4_mulv (α := α) = glm_vec4_mul := rfl
theorem C62_vec4_broadcast : glmc_vec4_broadcast (α := α) = glm_vec4_broadcast := rfl
theorem C62_vec4_fill : glmc_vec4_fill (α := α) = glm_vec4_fill := rfl
theorem C62_vec4_eq : glmc_vec4_eq (α := α) = glm_vec4_eq := rfl
theorem C62_vec4_eq_eps : glmc_vec4_eq_eps (α := α) = glm_vec4_eq_eps := rfl
theorem C62_vec4_eq_all : glmc_vec4_eq_all (α := α) = glm_vec4_eq_all := rfl
theorem C62_vec4_eqv : glmc_vec4_eqv (α := α) = glm_vec4_eqv := rfl
theorem C62_vec4_eqv_eps : glmc_vec4_eqv_eps (α := α) = glm_vec4_eqv_eps := rfl
theorem C62_vec4_max : glmc_vec4_max (α := α) = glm_vec4_max := rfl
theorem C62_vec4_min : glmc_vec4_min (α := α) = glm_vec4_min := rfl
theorem C62_vec4_isnan : glmc_vec4_isnan (α := α) = glm_vec4_isnan := rfl
theorem C62_vec4_isinf : glmc_vec4_isinf (α := α) = glm_vec4_isinf := rfl
theorem C62_vec4_isvalid : glmc_vec4_isvalid (α := α) = glm_vec4_isvalid := rfl
theorem C62_vec4_sign : glmc_vec4_sign (α := α) = glm_vec4_sign := rfl
theorem C62_vec4_abs : glmc_vec4_abs (α := α) = glm_vec4_abs := rfl
theorem C62_vec4_fract : glmc_vec4_fract (α := α) = glm_vec4_fract := rfl
theorem C62_vec4_floor : glmc_vec4_floor (α := α) = glm_vec4_floor := rfl
theorem C62_vec4_mods : glmc_vec4_mods (α := α) = glm_vec4_mods := rfl
theorem C62_vec4_steps : glmc_vec4_steps (α := α) = glm_vec4_steps := rfl
theorem C62_vec4_stepr : glmc_vec4_stepr (α := α) = glm_vec4_stepr := rfl
theorem C62_vec4_hadd : glmc_vec4_hadd (α := α) = glm_vec4_hadd := rfl
theorem C62_vec4_sqrt : glmc_vec4_sqrt (α := α) = glm_vec4_sqrt := rfl
theorem C62_vec4_make : glmc_vec4_make (α := α) = glm_vec4_make := rfl
theorem C62_vec4_reflect : glmc_vec4_reflect (α := α) = glm_vec4_reflect := rfl
theorem C62_vec4_refract : glmc_vec4_refract (α := α) = glm_vec4_refract := rfl
theorem C62_ortho_lh_no : glmc_ortho_lh_no (α := α) = glm_ortho_lh_no := rfl
theorem C62_ortho_aabb_lh_no : glmc_ortho_aabb_lh_no (α := α) = glm_ortho_aabb_lh_no := rfl
theorem C62_ortho_aabb_p_lh_no : glmc_ortho_aabb_p_lh_no (α := α) = glm_ortho_aabb_p_lh_no := rfl
theorem C62_ortho_aabb_pz_lh_no : glmc_ortho_aabb_pz_lh_no (α := α) = glm_ortho_aabb_pz_lh_no := rfl
theorem C62_ortho_default_lh_no : glmc_ortho_default_lh_no (α := α) = glm_ortho_default_lh_no := rfl
theorem C62_ortho_default_s_lh_no : glmc_ortho_default_s_lh_no (α := α) = glm_ortho_default_s_lh_no := rfl
theorem C62_ortho_lh_zo : glmc_ortho_lh_zo (α := α) = glm_ortho_lh_zo := rfl
theorem C62_ortho_aabb_lh_zo : glmc_ortho_aabb_lh_zo (α := α) = glm_ortho_aabb_lh_zo := rfl
theorem C62_ortho_aabb_p_lh_zo : glmc_ortho_aabb_p_lh_zo (α := α) = glm_ortho_aabb_p_lh_zo := rfl
theorem C62_ortho_aabb_pz_lh_zo : glmc_ortho_aabb_pz_lh_zo (α := α) = glm_ortho_aabb_pz_lh_zo := rfl
theorem C62_ortho_default_lh_zo : glmc_ortho_default_lh_zo (α := α) = glm_ortho_default_lh_zo := rfl
theorem C62_ortho_default_s_lh_zo : glmc_ortho_default_s_lh_zo (α := α) = glm_ortho_default_s_lh_zo := rfl
theorem C62_ortho_rh_no : glmc_ortho_rh_no (α := α) = glm_ortho_rh_no := rfl
theorem C62_ortho_aabb_rh_no : glmc_ortho_aabb_rh_no (α := α) = glm_ortho_aabb_rh_no := rfl
theorem C62_ortho_aabb_p_rh_no : glmc_ortho_aabb_p_rh_no (α := α) = glm_ortho_aabb_p_rh_no := rfl
theorem C62_ortho_aabb_pz_rh_no : glmc_ortho_aabb_pz_rh_no (α := α) = glm_ortho_aabb_pz_rh_no := rfl
theorem C62_ortho_default_rh_no : glmc_ortho_default_rh_no (α := α) = glm_ortho_default_rh_no := rfl
theorem C62_ortho_default_s_rh_no : glmc_ortho_default_s_rh_no (α := α) = glm_ortho_default_s_rh_no := rfl
theorem C62_ortho_rh_zo : glmc_ortho_rh_zo (α := α) = glm_ortho_rh_zo := rfl
theorem C62_ortho_aabb_rh_zo : glmc_ortho_aabb_rh_zo (α := α) = glm_ortho_aabb_rh_zo := rfl
theorem C62_ortho_aabb_p_rh_zo : glmc_ortho_aabb_p_rh_zo (α := α) = glm_ortho_aabb_p_rh_zo := rfl
theorem C62_ortho_aabb_pz_rh_zo : glmc_ortho_aabb_pz_rh_zo (α := α) = glm_ortho_aabb_pz_rh_zo := rfl
theorem C62_ortho_default_rh_zo : glmc_ortho_default_rh_zo (α := α) = glm_ortho_default_rh_zo := rfl
theorem C62_ortho_default_s_rh_zo : glmc_ortho_default_s_rh_zo (α := α) = glm_ortho_default_s_rh_zo := rfl
theorem C62_frustum_lh_no : glmc_frustum_lh_no (α := α) = glm_frustum_lh_no := rfl
theorem C62_perspective_lh_no : glmc_perspective_lh_no (α := α) = glm_perspective_lh_no := rfl
theorem C62_persp_move_far_lh_no : glmc_persp_move_far_lh_no (α := α) = glm_persp_move_far_lh_no := rfl
theorem C62_persp_decomp_lh_no : glmc_persp_decomp_lh_no (α := α) = glm_persp_decomp_lh_no := rfl
theorem C62_persp_decompv_lh_no : glmc_persp_decompv_lh_no (α := α) = glm_persp_decompv_lh_no := rfl
theorem C62_persp_decomp_x_lh_no : glmc_persp_decomp_x_lh_no (α := α) = glm_persp_decomp_x_lh_no := rfl
theorem C62_persp_decomp_y_lh_no : glmc_persp_decomp_y_lh_no (α := α) = glm_persp_decomp_y_lh_no := rfl
theorem C62_persp_decomp_z_lh_no : glmc_persp_decomp_z_lh_no (α := α) = glm_persp_decomp_z_lh_no := rfl
theorem C62_persp_decomp_far_lh_no : glmc_persp_decomp_far_lh_no (α := α) = glm_persp_decomp_far_lh_no := rfl
theorem C62_persp_decomp_near_lh_no : glmc_persp_decomp_near_lh_no (α := α) = glm_persp_decomp_near_lh_no := rfl
theorem C62_persp_sizes_lh_no : glmc_persp_sizes_lh_no (α := α) = glm_persp_sizes_lh_no := rfl
theorem C62_persp_fovy_lh_no : glmc_persp_fovy_lh_no (α := α) = glm_persp_fovy_lh_no := rfl
theorem C62_persp_aspect_lh_no : glmc_persp_aspect_lh_no (α := α) = glm_persp_aspect_lh_no := rfl
theorem C62_frustum_lh_zo : glmc_frustum_lh_zo (α := α) = glm_frustum_lh_zo := rfl
theorem C62_perspective_lh_zo : glmc_perspective_lh_zo (α := α) = glm_perspective_lh_zo := rfl
theorem C62_persp_move_far_lh_zo : glmc_persp_move_far_lh_zo (α := α) = glm_persp_move_far_lh_zo := rfl
theorem C62_persp_decomp_lh_zo : glmc_persp_decomp_lh_zo (α := α) = glm_persp_decomp_lh_zo := rfl
theorem C62_persp_decompv_lh_zo : glmc_persp_decompv_lh_zo (α := α) = glm_persp_decompv_lh_zo := rfl
theorem C62_persp_decomp_x_lh_zo : glmc_persp_decomp_x_lh_zo (α := α) = glm_persp_decomp_x_lh_zo := rfl
theorem C62_persp_decomp_y_lh_zo : glmc_persp_decomp_y_lh_zo (α := α) = glm_persp_decomp_y_lh_zo := rfl
theorem C62_persp_decomp_z_lh_zo : glmc_persp_decomp_z_lh_zo (α := α) = glm_persp_decomp_z_lh_zo := rfl
theorem C62_persp_decomp_far_lh_zo : glmc_persp_decomp_far_lh_zo (α := α) = glm_persp_decomp_far_lh_zo := rfl
theorem C62_persp_decomp_near_lh_zo : glmc_persp_decomp_near_lh_zo (α := α) = glm_persp_decomp_near_lh_zo := rfl
theorem C62_persp_sizes_lh_zo : glmc_persp_sizes_lh_zo (α := α) = glm_persp_sizes_lh_zo := rfl
theorem C62_persp_fovy_lh_zo : glmc_persp_fovy_lh_zo (α := α) = glm_persp_fovy_lh_zo := rfl
theorem C62_persp_aspect_lh_zo : glmc_persp_aspect_lh_zo (α := α) = glm_persp_aspect_lh_zo := rfl
theorem C62_frustum_rh_no : glmc_frustum_rh_no (α := α) = glm_frustum_rh_no := rfl
theorem C62_perspective_rh_no : glmc_perspective_rh_no (α := α) = glm_perspective_rh_no := rfl
theorem C62_persp_move_far_rh_no : glmc_persp_move_far_rh_no (α := α) = glm_persp_move_far_rh_no := rfl
theorem C62_persp_decomp_rh_no : glmc_persp_decomp_rh_no (α := α) = glm_persp_decomp_rh_no := rfl
theorem C62_persp_decompv_rh_no : glmc_persp_decompv_rh_no (α := α) = glm_persp_decompv_rh_no := rfl
theorem C62_persp_decomp_x_rh_no : glmc_persp_decomp_x_rh_no (α := α) = glm_persp_decomp_x_rh_no := rfl
theorem C62_persp_decomp_y_rh_no : glmc_persp_decomp_y_rh_no (α := α) = glm_persp_decomp_y_rh_no := rfl
theorem C62_persp_decomp_z_rh_no : glmc_persp_decomp_z_rh_no (α := α) = glm_persp_decomp_z_rh_no := rfl
theorem C62_persp_decomp_far_rh_no : glmc_persp_decomp_far_rh_no (α := α) = glm_persp_decomp_far_rh_no := rfl
theorem C62_persp_decomp_near_rh_no : glmc_persp_decomp_near_rh_no (α := α) = glm_persp_decomp_near_rh_no := rfl
theorem C62_persp_sizes_rh_no : glmc_persp_sizes_rh_no (α := α) = glm_persp_sizes_rh_no := rfl
theorem C62_persp_fovy_rh_no : glmc_persp_fovy_rh_no (α := α) = glm_persp_fovy_rh_no := rfl
theorem C62_persp_aspect_rh_no : glmc_persp_aspect_rh_no (α := α) = glm_persp_aspect_rh_no := rfl
theorem C62_frustum_rh_zo : glmc_frustum_rh_zo (α := α) = glm_frustum_rh_zo := rfl
theorem C62_perspective_rh_zo : glmc_perspective_rh_zo (α := α) = glm_perspective_rh_zo := rfl
theorem C62_persp_move_far_rh_zo : glmc_persp_move_far_rh_zo (α := α) = glm_persp_move_far_rh_zo := rfl
theorem C62_persp_decomp_rh_zo : glmc_persp_decomp_rh_zo (α := α) = glm_persp_decomp_rh_zo := rfl
theorem C62_persp_decompv_rh_zo : glmc_persp_decompv_rh_zo (α := α) = glm_persp_decompv_rh_zo := rfl
theorem C62_persp_decomp_x_rh_zo : glmc_persp_decomp_x_rh_zo (α := α) = glm_persp_decomp_x_rh_zo := rfl
theorem C62_persp_decomp_y_rh_zo : glmc_persp_decomp_y_rh_zo (α := α) = glm_persp_decomp_y_rh_zo := rfl
theorem C62_persp_decomp_z_rh_zo : glmc_persp_decomp_z_rh_zo (α := α) = glm_persp_decomp_z_rh_zo := rfl
theorem C62_persp_decomp_far_rh_zo : glmc_persp_decomp_far_rh_zo (α := α) = glm_persp_decomp_far_rh_zo := rfl
theorem C62_persp_decomp_near_rh_zo : glmc_persp_decomp_near_rh_zo (α := α) = glm_persp_decomp_near_rh_zo := rfl
theorem C62_persp_sizes_rh_zo : glmc_persp_sizes_rh_zo (α := α) = glm_persp_sizes_rh_zo := rfl
theorem C62_persp_fovy_rh_zo : glmc_persp_fovy_rh_zo (α := α) = glm_persp_fovy_rh_zo := rfl
theorem C62_persp_aspect_rh_zo : glmc_persp_aspect_rh_zo (α := α) = glm_persp_aspect_rh_zo := rfl
theorem C62_unprojecti_no : glmc_unprojecti_no (α := α) = glm_unprojecti_no := rfl
theorem C62_project_no : glmc_project_no (α := α) = glm_project_no := rfl
theorem C62_project_z_no : glmc_project_z_no (α := α) = glm_project_z_no := rfl
theorem C62_unprojecti_zo : glmc_unprojecti_zo (α := α) = glm_unprojecti_zo := rfl
theorem C62_project_zo : glmc_project_zo (α := α) = glm_project_zo := rfl
theorem C62_project_z_zo : glmc_project_z_zo (α := α) = glm_project_z_zo := rfl
theorem C62_lookat_lh_no : glmc_lookat_lh_no (α := α) = glm_lookat_lh_no := rfl
theorem C62_look_lh_no : glmc_look_lh_no (α := α) = glm_look_lh_no := rfl
theorem C62_look_anyup_lh_no : glmc_look_anyup_lh_no (α := α) = glm_look_anyup_lh_no := rfl
theorem C62_lookat_lh_zo : glmc_lookat_lh_zo (α := α) = glm_lookat_lh_zo := rfl
theorem C62_look_lh_zo : glmc_look_lh_zo (α := α) = glm_look_lh_zo := rfl
theorem C62_look_anyup_lh_zo : glmc_look_anyup_lh_zo (α := α) = glm_look_anyup_lh_zo := rfl
theorem C62_lookat_rh_no : glmc_lookat_rh_no (α := α) = glm_lookat_rh_no := rfl
theorem C62_look_rh_no : glmc_look_rh_no (α := α) = glm_look_rh_no := rfl
theorem C62_look_anyup_rh_no : glmc_look_anyup_rh_no (α := α) = glm_look_anyup_rh_no := rfl
theorem C62_lookat_rh_zo : glmc_lookat_rh_zo (α := α) = glm_lookat_rh_zo := rfl
theorem C62_look_rh_zo : glmc_look_rh_zo (α := α) = glm_look_rh_zo := rfl
theorem C62_look_anyup_rh_zo : glmc_look_anyup_rh_zo (α := α) = glm_look_anyup_rh_zo := rfl
theorem C62_quat_from_vecs : glmc_quat_from_vecs (α := α) = glm_quat_from_vecs := rfl

end Cglm

namespace Cglm.I

variable {α : Type} [Add α] [Sub α] [Mul α] [Div α] [Neg α] [CFloat α] [CIntConv α]

theorem C62_ivec2 : glmc_ivec2 = glm_ivec2 := rfl
theorem C62_ivec2_copy : glmc_ivec2_copy = glm_ivec2_copy := rfl
theorem C62_ivec2_zero : glmc_ivec2_zero = glm_ivec2_zero := rfl
theorem C62_ivec2_one : glmc_ivec2_one = glm_ivec2_one := rfl
theorem C62_ivec2_dot : glmc_ivec2_dot = glm_ivec2_dot := rfl
theorem C62_ivec2_cross : glmc_ivec2_cross = glm_ivec2_cross := rfl
theorem C62_ivec2_add : glmc_ivec2_add = glm_ivec2_add := rfl
theorem C62_ivec2_adds : glmc_ivec2_adds = glm_ivec2_adds := rfl
theorem C62_ivec2_sub : glmc_ivec2_sub = glm_ivec2_sub := rfl
theorem C62_ivec2_subs : glmc_ivec2_subs = glm_ivec2_subs := rfl
theorem C62_ivec2_mul : glmc_ivec2_mul = glm_ivec2_mul := rfl
theorem C62_ivec2_scale : glmc_ivec2_scale = glm_ivec2_scale := rfl
theorem C62_ivec2_div : glmc_ivec2_div = glm_ivec2_div := rfl
theorem C62_ivec2_divs : glmc_ivec2_divs = glm_ivec2_divs := rfl
theorem C62_ivec2_mod : glmc_ivec2_mod = glm_ivec2_mod := rfl
theorem C62_ivec2_addadd : glmc_ivec2_addadd = glm_ivec2_addadd := rfl
theorem C62_ivec2_addadds : glmc_ivec2_addadds = glm_ivec2_addadds := rfl
theorem C62_ivec2_subadd : glmc_ivec2_subadd = glm_ivec2_subadd := rfl
theorem C62_ivec2_subadds : glmc_ivec2_subadds = glm_ivec2_subadds := rfl
theorem C62_ivec2_muladd : glmc_ivec2_muladd = glm_ivec2_muladd := rfl
theorem C62_ivec2_muladds : glmc_ivec2_muladds = glm_ivec2_muladds := rfl
theorem C62_ivec2_maxadd : glmc_ivec2_maxadd = glm_ivec2_maxadd := rfl
theorem C62_ivec2_minadd : glmc_ivec2_minadd = glm_ivec2_minadd := rfl
theorem C62_ivec2_subsub : glmc_ivec2_subsub = glm_ivec2_subsub := rfl
theorem C62_ivec2_subsubs : glmc_ivec2_subsubs = glm_ivec2_subsubs := rfl
theorem C62_ivec2_addsub : glmc_ivec2_addsub = glm_ivec2_addsub := rfl
theorem C62_ivec2_addsubs : glmc_ivec2_addsubs = glm_ivec2_addsubs := rfl
theorem C62_ivec2_mulsub : glmc_ivec2_mulsub = glm_ivec2_mulsub := rfl
theorem C62_ivec2_mulsubs : glmc_ivec2_mulsubs = glm_ivec2_mulsubs := rfl
theorem C62_ivec2_maxsub : glmc_ivec2_maxsub = glm_ivec2_maxsub := rfl
theorem C62_ivec2_minsub : glmc_ivec2_minsub = glm_ivec2_minsub := rfl
theorem C62_ivec2_distance2 : glmc_ivec2_distance2 = glm_ivec2_distance2 := rfl
theorem C62_ivec2_distance : glmc_ivec2_distance (α := α) = glm_ivec2_distance (α := α) := rfl
theorem C62_ivec2_fill : glmc_ivec2_fill = glm_ivec2_fill := rfl
theorem C62_ivec2_eq : glmc_ivec2_eq = glm_ivec2_eq := rfl
theorem C62_ivec2_eqv : glmc_ivec2_eqv = glm_ivec2_eqv := rfl
theorem C62_ivec2_maxv : glmc_ivec2_maxv = glm_ivec2_maxv := rfl
theorem C62_ivec2_minv : glmc_ivec2_minv = glm_ivec2_minv := rfl
theorem C62_ivec2_clamp : glmc_ivec2_clamp = glm_ivec2_clamp := rfl
theorem C62_ivec2_abs : glmc_ivec2_abs = glm_ivec2_abs := rfl
theorem C62_ivec3 : glmc_ivec3 = glm_ivec3 := rfl
theorem C62_ivec3_copy : glmc_ivec3_copy = glm_ivec3_copy := rfl
theorem C62_ivec3_zero : glmc_ivec3_zero = glm_ivec3_zero := rfl
theorem C62_ivec3_one : glmc_ivec3_one = glm_ivec3_one := rfl
theorem C62_ivec3_dot : glmc_ivec3_dot = glm_ivec3_dot := rfl
theorem C62_ivec3_norm2 : glmc_ivec3_norm2 = glm_ivec3_norm2 := rfl
theorem C62_ivec3_norm : glmc_ivec3_norm (α := α) = glm_ivec3_norm (α := α) := rfl
theorem C62_ivec3_add : glmc_ivec3_add = glm_ivec3_add := rfl
theorem C62_ivec3_adds : glmc_ivec3_adds = glm_ivec3_adds := rfl
theorem C62_ivec3_sub : glmc_ivec3_sub = glm_ivec3_sub := rfl
theorem C62_ivec3_subs : glmc_ivec3_subs = glm_ivec3_subs := rfl
theorem C62_ivec3_mul : glmc_ivec3_mul = glm_ivec3_mul := rfl
theorem C62_ivec3_scale : glmc_ivec3_scale = glm_ivec3_scale := rfl
theorem C62_ivec3_div : glmc_ivec3_div = glm_ivec3_div := rfl
theorem C62_ivec3_divs : glmc_ivec3_divs = glm_ivec3_divs := rfl
theorem C62_ivec3_mod : glmc_ivec3_mod = glm_ivec3_mod := rfl
theorem C62_ivec3_addadd : glmc_ivec3_addadd = glm_ivec3_addadd := rfl
theorem C62_ivec3_addadds : glmc_ivec3_addadds = glm_ivec3_addadds := rfl
theorem C62_ivec3_subadd : glmc_ivec3_subadd = glm_ivec3_subadd := rfl
theorem C62_ivec3_subadds : glmc_ivec3_subadds = glm_ivec3_subadds := rfl
theorem C62_ivec3_muladd : glmc_ivec3_muladd = glm_ivec3_muladd := rfl
theorem C62_ivec3_muladds : glmc_ivec3_muladds = glm_ivec3_muladds := rfl
theorem C62_ivec3_maxadd : glmc_ivec3_maxadd = glm_ivec3_maxadd := rfl
theorem C62_ivec3_minadd : glmc_ivec3_minadd = glm_ivec3_minadd := rfl
theorem C62_ivec3_subsub : glmc_ivec3_subsub = glm_ivec3_subsub := rfl
theorem C62_ivec3_subsubs : glmc_ivec3_subsubs = glm_ivec3_subsubs := rfl
theorem C62_ivec3_addsub : glmc_ivec3_addsub = glm_ivec3_addsub := rfl
theorem C62_ivec3_addsubs : glmc_ivec3_addsubs = glm_ivec3_addsubs := rfl
theorem C62_ivec3_mulsub : glmc_ivec3_mulsub = glm_ivec3_mulsub := rfl
theorem C62_ivec3_mulsubs : glmc_ivec3_mulsubs = glm_ivec3_mulsubs := rfl
theorem C62_ivec3_maxsub : glmc_ivec3_maxsub = glm_ivec3_maxsub := rfl
theorem C62_ivec3_minsub : glmc_ivec3_minsub = glm_ivec3_minsub := rfl
theorem C62_ivec3_distance2 : glmc_ivec3_distance2 = glm_ivec3_distance2 := rfl
theorem C62_ivec3_distance : glmc_ivec3_distance (α := α) = glm_ivec3_distance (α := α) := rfl
theorem C62_ivec3_fill : glmc_ivec3_fill = glm_ivec3_fill := rfl
theorem C62_ivec3_eq : glmc_ivec3_eq = glm_ivec3_eq := rfl
theorem C62_ivec3_eqv : glmc_ivec3_eqv = glm_ivec3_eqv := rfl
theorem C62_ivec3_maxv : glmc_ivec3_maxv = glm_ivec3_maxv := rfl
theorem C62_ivec3_minv : glmc_ivec3_minv = glm_ivec3_minv := rfl
theorem C62_ivec3_clamp : glmc_ivec3_clamp = glm_ivec3_clamp := rfl
theorem C62_ivec3_abs : glmc_ivec3_abs = glm_ivec3_abs := rfl
theorem C62_ivec4 : glmc_ivec4 = glm_ivec4 := rfl
theorem C62_ivec4_copy : glmc_ivec4_copy = glm_ivec4_copy := rfl
theorem C62_ivec4_zero : glmc_ivec4_zero = glm_ivec4_zero := rfl
theorem C62_ivec4_one : glmc_ivec4_one = glm_ivec4_one := rfl
theorem C62_ivec4_add : glmc_ivec4_add = glm_ivec4_add := rfl
theorem C62_ivec4_adds : glmc_ivec4_adds = glm_ivec4_adds := rfl
theorem C62_ivec4_sub : glmc_ivec4_sub = glm_ivec4_sub := rfl
theorem C62_ivec4_subs : glmc_ivec4_subs = glm_ivec4_subs := rfl
theorem C62_ivec4_mul : glmc_ivec4_mul = glm_ivec4_mul := rfl
theorem C62_ivec4_scale : glmc_ivec4_scale = glm_ivec4_scale := rfl
theorem C62_ivec4_addadd : glmc_ivec4_addadd = glm_ivec4_addadd := rfl
theorem C62_ivec4_addadds : glmc_ivec4_addadds = glm_ivec4_addadds := rfl
theorem C62_ivec4_subadd : glmc_ivec4_subadd = glm_ivec4_subadd := rfl
theorem C62_ivec4_subadds : glmc_ivec4_subadds = glm_ivec4_subadds := rfl
theorem C62_ivec4_muladd : glmc_ivec4_muladd = glm_ivec4_muladd := rfl
theorem C62_ivec4_muladds : glmc_ivec4_muladds = glm_ivec4_muladds := rfl
theorem C62_ivec4_maxadd : glmc_ivec4_maxadd = glm_ivec4_maxadd := rfl
theorem C62_ivec4_minadd : glmc_ivec4_minadd = glm_ivec4_minadd := rfl
theorem C62_ivec4_subsub : glmc_ivec4_subsub = glm_ivec4_subsub := rfl
theorem C62_ivec4_subsubs : glmc_ivec4_subsubs = glm_ivec4_subsubs := rfl
theorem C62_ivec4_addsub : glmc_ivec4_addsub = glm_ivec4_addsub := rfl
theorem C62_ivec4_addsubs : glmc_ivec4_addsubs = glm_ivec4_addsubs := rfl
theorem C62_ivec4_mulsub : glmc_ivec4_mulsub = glm_ivec4_mulsub := rfl
theorem C62_ivec4_mulsubs : glmc_ivec4_mulsubs = glm_ivec4_mulsubs := rfl
theorem C62_ivec4_maxsub : glmc_ivec4_maxsub = glm_ivec4_maxsub := rfl
theorem C62_ivec4_minsub : glmc_ivec4_minsub = glm_ivec4_minsub := rfl
theorem C62_ivec4_distance2 : glmc_ivec4_distance2 = glm_ivec4_distance2 := rfl
theorem C62_ivec4_distance : glmc_ivec4_distance (α := α) = glm_ivec4_distance (α := α) := rfl
theorem C62_ivec4_maxv : glmc_ivec4_maxv = glm_ivec4_maxv := rfl
theorem C62_ivec4_minv : glmc_ivec4_minv = glm_ivec4_minv := rfl
theorem C62_ivec4_clamp : glmc_ivec4_clamp = glm_ivec4_clamp := rfl
theorem C62_ivec4_abs : glmc_ivec4_abs = glm_ivec4_abs := rfl

end Cglm.I

namespace Cglm

end Cglm
