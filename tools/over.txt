glm_vec2_sign	below
glm_vec2_abs	below
glm_vec2_fract	below
glm_vec2_floor	below
glm_vec2_mods	below
glm_vec2_sqrt	below
glm_vec2_complex_mul	any
glm_vec2_steps	below
glm_vec2_stepr	below
glm_vec2_complex_div	any
glm_vec2_complex_conjugate	below
glm_vec2	below
glm_vec2_copy	below
glm_vec2_add	below
glm_vec2_adds	below
glm_vec2_sub	below
glm_vec2_subs	below
glm_vec2_mul	below
glm_vec2_scale	below
glm_vec2_scale_as	below
glm_vec2_div	below
glm_vec2_divs	below
glm_vec2_addadd	below
glm_vec2_subadd	below
glm_vec2_muladd	below
glm_vec2_muladds	below
glm_vec2_maxadd	below
glm_vec2_minadd	below
glm_vec2_subsub	below
glm_vec2_addsub	below
glm_vec2_mulsub	below
glm_vec2_mulsubs	below
glm_vec2_maxsub	below
glm_vec2_minsub	below
glm_vec2_negate_to	below
glm_vec2_normalize_to	below
glm_vec2_rotate	any
glm_vec2_center	below
glm_vec2_maxv	below
glm_vec2_minv	below
glm_vec2_lerp	below
glm_vec2_step	below
glm_vec2_make	below
glm_vec2_reflect	below
glm_vec3_sign	below
glm_vec3_abs	below
glm_vec3_fract	below
glm_vec3_floor	below
glm_vec3_mods	below
glm_vec3_steps	below
glm_vec3_stepr	below
glm_vec3_sqrt	below
glm_vec4_sign	below
glm_vec4_abs	below
glm_vec4_fract	below
glm_vec4_floor	below
glm_vec4_mods	below
glm_vec4_steps	below
glm_vec4_stepr	below
glm_vec4_sqrt	below
glm_vec4	below
glm_vec4_copy3	below
glm_vec4_copy	below
glm_vec4_ucopy	below
glm_vec4_add	below
glm_vec4_adds	below
glm_vec4_sub	below
glm_vec4_subs	below
glm_vec4_mul	below
glm_vec4_scale	below
glm_vec4_scale_as	below
glm_vec4_div	below
glm_vec4_divs	below
glm_vec4_addadd	below
glm_vec4_subadd	below
glm_vec4_muladd	below
glm_vec4_muladds	below
glm_vec4_maxadd	below
glm_vec4_minadd	below
glm_vec4_subsub	below
glm_vec4_addsub	below
glm_vec4_mulsub	below
glm_vec4_mulsubs	below
glm_vec4_maxsub	below
glm_vec4_minsub	below
glm_vec4_negate_to	below
glm_vec4_normalize_to	below
glm_vec4_maxv	below
glm_vec4_minv	below
glm_vec4_lerp	below
glm_vec4_lerpc	below
glm_vec4_mix	below
glm_vec4_mixc	below
glm_vec4_step	below
glm_vec4_smoothstep_uni	below
glm_vec4_smoothstep	below
glm_vec4_smoothinterp	below
glm_vec4_smoothinterpc	below
glm_vec4_make	below
glm_vec3	below
glm_vec3_copy	below
glm_vec3_add	below
glm_vec3_adds	below
glm_vec3_sub	below
glm_vec3_subs	below
glm_vec3_mul	below
glm_vec3_scale	below
glm_vec3_scale_as	below
glm_vec3_div	below
glm_vec3_divs	below
glm_vec3_addadd	below
glm_vec3_subadd	below
glm_vec3_muladd	below
glm_vec3_muladds	below
glm_vec3_maxadd	below
glm_vec3_minadd	below
glm_vec3_subsub	below
glm_vec3_addsub	below
glm_vec3_mulsub	below
glm_vec3_mulsubs	below
glm_vec3_maxsub	below
glm_vec3_minsub	below
glm_vec3_negate_to	below
glm_vec3_normalize_to	below
glm_vec3_cross	any
glm_vec3_crossn	any
glm_vec3_rotate	any
glm_vec3_rotate_m4	any
glm_vec3_rotate_m3	any
glm_vec3_proj	below
glm_vec3_center	below
glm_vec3_maxv	below
glm_vec3_minv	below
glm_vec3_ortho	any
glm_vec3_lerp	below
glm_vec3_lerpc	below
glm_vec3_mix	below
glm_vec3_mixc	below
glm_vec3_step	below
glm_vec3_smoothstep_uni	below
glm_vec3_smoothstep	below
glm_vec3_smoothinterp	below
glm_vec3_smoothinterpc	below
glm_cross	any
glm_normalize_to	below
glm_vec3_make	below
glm_vec3_faceforward	below
glm_vec3_reflect	below
glm_mat4_pick3	below
glm_mat4_mul	any
glm_mat4_mulv	any
glm_mat4_mulv3	any
glm_mat4_inv	any
glm_mat4_inv_fast	any
glm_mat4x2_copy	below
glm_mat4x2_make	below
glm_mat4x2_mul	any
glm_mat4x2_mulv	below
glm_mat4x3_copy	below
glm_mat4x3_make	below
glm_mat4x3_mul	any
glm_mat4x3_mulv	below
glm_mat3_copy	below
glm_mat3_mul	any
glm_mat3_mulv	any
glm_mat3_inv	any
glm_mat3_make	below
glm_mat3x2_copy	below
glm_mat3x2_make	below
glm_mat3x2_mul	any
glm_mat3x2_mulv	below
glm_mat3x4_copy	below
glm_mat3x4_make	below
glm_mat3x4_mul	any
glm_mat3x4_mulv	below
glm_mat2_make	below
glm_mat2_copy	below
glm_mat2_mul	any
glm_mat2_inv	any
glm_mat2x3_copy	below
glm_mat2x3_make	below
glm_mat2x3_mul	any
glm_mat2x3_mulv	below
glm_mat2x4_copy	below
glm_mat2x4_make	below
glm_mat2x4_mul	any
glm_mat2x4_mulv	below
glm_quatv	any
glm_quat_copy	below
glm_quat_normalize_to	below
glm_quat_conjugate	below
glm_quat_inv	any
glm_quat_add	below
glm_quat_sub	below
glm_quat_imag	below
glm_quat_imagn	below
glm_quat_axis	below
glm_quat_mat4	any
glm_quat_mat4t	any
glm_quat_mat3	any
glm_quat_mat3t	any
glm_quat_lerp	below
glm_quat_lerpc	below
glm_quat_nlerp	below
glm_quat_slerp	below
glm_quat_slerp_longest	below
glm_quat_for	any
glm_quat_forp	any
glm_quat_rotatev	any
glm_quat_rotate	any
glm_quat_make	below
glm_quat_from_vecs	any
glm_euler_xyz_quat_rh	any
glm_euler_xzy_quat_rh	any
glm_euler_yxz_quat_rh	any
glm_euler_yzx_quat_rh	any
glm_euler_zxy_quat_rh	any
glm_euler_zyx_quat_rh	any
glm_euler_angles	any
glm_euler_xyz	any
glm_euler	any
glm_euler_xzy	any
glm_euler_yxz	any
glm_euler_yzx	any
glm_euler_zxy	any
glm_euler_zyx	any
glm_euler_by_order	any
glm_euler_xyz_quat	any
glm_euler_xzy_quat	any
glm_euler_yxz_quat	any
glm_euler_yzx_quat	any
glm_euler_zxy_quat	any
glm_euler_zyx_quat	any
glm_euler_xyz_quat_lh	any
glm_euler_xzy_quat_lh	any
glm_euler_yxz_quat_lh	any
glm_euler_yzx_quat_lh	any
glm_euler_zxy_quat_lh	any
glm_euler_zyx_quat_lh	any
glm_mul	any
glm_mul_rot	any
glm_rotate_make	any
glm_decompose_scalev	below
glm_rotate_x	any
glm_rotate_y	any
glm_rotate_z	any
glm_rotate	any
glm_spin	any
glm_rotated_x	any
glm_rotated_y	any
glm_rotated_z	any
glm_rotated	any
glm_spinned	any
glm_rotate2d_to	below
glm_ortho_aabb	any
glm_ortho_aabb_p	any
glm_ortho_aabb_pz	any
glm_persp_decomp	any
glm_persp_decompv	any
glm_persp_decomp_x	any
glm_persp_decomp_y	any
glm_persp_decomp_z	any
glm_persp_decomp_far	any
glm_persp_decomp_near	any
glm_persp_sizes	any
glm_frustum_planes	any
glm_frustum_corners	any
glm_frustum_center	any
glm_frustum_box	any
glm_frustum_corners_at	below
glm_aabb2d_copy	below
glm_aabb2d_transform	any
glm_aabb2d_merge	below
glm_aabb2d_crop	below
glm_aabb2d_sizev	below
glm_aabb2d_center	below
glm_aabb_transform	any
glm_aabb_merge	below
glm_aabb_crop	below
glm_aabb_center	below
glm_unprojecti	any
glm_unproject	any
glm_project	below
glm_pickmatrix	any
glm_sphere_transform	below
glm_sphere_merge	below
glm_ray_triangle	any
glm_ray_sphere	any
glm_ray_at	below
glm_ortho_aabb_lh_zo	any
glm_ortho_aabb_p_lh_zo	any
glm_ortho_aabb_pz_lh_zo	any
glm_persp_decomp_lh_zo	any
glm_persp_decompv_lh_zo	any
glm_persp_decomp_x_lh_zo	any
glm_persp_decomp_y_lh_zo	any
glm_persp_decomp_z_lh_zo	any
glm_persp_decomp_far_lh_zo	any
glm_persp_decomp_near_lh_zo	any
glm_persp_sizes_lh_zo	any
glm_ortho_aabb_lh_no	any
glm_ortho_aabb_p_lh_no	any
glm_ortho_aabb_pz_lh_no	any
glm_persp_decomp_lh_no	any
glm_persp_decompv_lh_no	any
glm_persp_decomp_x_lh_no	any
glm_persp_decomp_y_lh_no	any
glm_persp_decomp_z_lh_no	any
glm_persp_decomp_far_lh_no	any
glm_persp_decomp_near_lh_no	any
glm_persp_sizes_lh_no	any
glm_ortho_aabb_rh_zo	any
glm_ortho_aabb_p_rh_zo	any
glm_ortho_aabb_pz_rh_zo	any
glm_persp_decomp_rh_zo	any
glm_persp_decompv_rh_zo	any
glm_persp_decomp_x_rh_zo	any
glm_persp_decomp_y_rh_zo	any
glm_persp_decomp_z_rh_zo	any
glm_persp_decomp_far_rh_zo	any
glm_persp_decomp_near_rh_zo	any
glm_persp_sizes_rh_zo	any
glm_ortho_aabb_rh_no	any
glm_ortho_aabb_p_rh_no	any
glm_ortho_aabb_pz_rh_no	any
glm_persp_decomp_rh_no	any
glm_persp_decompv_rh_no	any
glm_persp_decomp_x_rh_no	any
glm_persp_decomp_y_rh_no	any
glm_persp_decomp_z_rh_no	any
glm_persp_decomp_far_rh_no	any
glm_persp_decomp_near_rh_no	any
glm_persp_sizes_rh_no	any
glm_unprojecti_zo	any
glm_unprojecti_no	any
glm_project_no	below
