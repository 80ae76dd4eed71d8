Sse	glmm_abs	exact
Sse	glmm_min	exact
Sse	glmm_max	exact
Sse	glmm_vhadd	real
Sse	glmm_vhadds	real
Sse	glmm_hadd	real
Sse	glmm_vhmin	order
Sse	glmm_hmin	order
Sse	glmm_vhmax	order
Sse	glmm_hmax	order
Sse	glmm_vdots	real
Sse	glmm_vdot	real
Sse	glmm_dot	real
Sse	glmm_norm	real
Sse	glmm_norm2	real
Sse	glmm_norm_one	real
Sse	glmm_norm_inf	order
Sse	glmm_div	exact
Sse	glmm_fmadd	comm
Sse	glmm_fnmadd	exact
Sse	glmm_fmsub	exact
Sse	glmm_fnmsub	real
Sse	glm_vec4_broadcast	exact
Sse	glm_vec4_fill	exact
Sse	glm_vec4_sign	-
Sse	glm_vec4_abs	exact
Sse	glm_vec4_hadd	real
Sse	glm_vec4_sqrt	exact
Sse	glm_vec4_zero	exact
Sse	glm_vec4_one	exact
Sse	glm_vec4_dot	real
Sse	glm_vec4_norm2	real
Sse	glm_vec4_norm	real
Sse	glm_vec4_norm_one	real
Sse	glm_vec4_norm_inf	order
Sse	glm_vec4_add	exact
Sse	glm_vec4_adds	exact
Sse	glm_vec4_sub	exact
Sse	glm_vec4_subs	exact
Sse	glm_vec4_mul	exact
Sse	glm_vec4_scale	exact
Sse	glm_vec4_scale_as	real
Sse	glm_vec4_div	exact
Sse	glm_vec4_divs	real
Sse	glm_vec4_addadd	exact
Sse	glm_vec4_subadd	exact
Sse	glm_vec4_muladd	exact
Sse	glm_vec4_muladds	exact
Sse	glm_vec4_maxadd	exact
Sse	glm_vec4_minadd	exact
Sse	glm_vec4_subsub	exact
Sse	glm_vec4_addsub	exact
Sse	glm_vec4_mulsub	exact
Sse	glm_vec4_mulsubs	exact
Sse	glm_vec4_maxsub	exact
Sse	glm_vec4_minsub	exact
Sse	glm_vec4_negate_to	exact
Sse	glm_vec4_negate	exact
Sse	glm_vec4_normalize_to	-
Sse	glm_vec4_normalize	-
Sse	glm_vec4_distance	real
Sse	glm_vec4_distance2	real
Sse	glm_vec4_maxv	exact
Sse	glm_vec4_minv	exact
Sse	glm_vec4_clamp	real
Sse	glm_vec4_lerp	exact
Sse	glm_vec4_lerpc	exact
Sse	glm_vec4_mix	exact
Sse	glm_vec4_mixc	exact
Sse	glm_vec4_smoothinterp	exact
Sse	glm_vec4_smoothinterpc	exact
Sse	glm_vec4_reflect	real
Sse	glm_vec4_refract	real
Sse	glm_vec3_rotate_m4	-
Sse	glm_vec3_rotate_m3	-
Sse	glm_mat4_scale_sse2	exact
Sse	glm_mat4_transp_sse2	exact
Sse	glm_mat4_mul_sse2	comm
Sse	glm_mat4_mulv_sse2	real
Sse	glm_mat4_det_sse2	real
Sse	glm_mat4_inv_fast_sse2	-
Sse	glm_mat4_inv_sse2	real
Sse	glm_mat4_copy	exact
Sse	glm_mat4_identity	exact
Sse	glm_mat4_zero	exact
Sse	glm_mat4_mul	comm
Sse	glm_mat4_mulv	real
Sse	glm_mat4_mulv3	real
Sse	glm_mat4_transpose_to	exact
Sse	glm_mat4_transpose	exact
Sse	glm_mat4_scale	exact
Sse	glm_mat4_det	real
Sse	glm_mat4_inv	real
Sse	glm_mat4_inv_fast	-
Sse	glm_mat4_rmc	real
Sse	glm_mat4_textrans	exact
Sse	glm_mat3_mul_sse2	real
Sse	glm_mat3_mul	real
Sse	glm_mat2_mul_sse2	comm
Sse	glm_mat2_transp_sse2	exact
Sse	glm_mat2_mul	comm
Sse	glm_mat2_transpose_to	exact
Sse	glm_mat2_scale	exact
Sse	glm_mul_sse2	comm
Sse	glm_mul_rot_sse2	comm
Sse	glm_inv_tr_sse2	-
Sse	glm_mul	comm
Sse	glm_mul_rot	comm
Sse	glm_inv_tr	-
Sse	glm_translate_make	exact
Sse	glm_scale_to	exact
Sse	glm_scale_make	exact
Sse	glm_scale	exact
Sse	glm_scale_uni	exact
Sse	glm_decompose_rs	exact
Sse	glm_decompose	exact
Sse	glm_translate	real
Sse	glm_translate_to	real
Sse	glm_translate_x	comm
Sse	glm_translate_y	comm
Sse	glm_translate_z	comm
Sse	glm_rotate_x	comm
Sse	glm_rotate_y	comm
Sse	glm_rotate_z	comm
Sse	glm_rotate	comm
Sse	glm_rotate_at	real
Sse	glm_rotate_atm	real
Sse	glm_spin	real
Sse	glm_translated_to	exact
Sse	glm_rotated_x	comm
Sse	glm_rotated_y	comm
Sse	glm_rotated_z	comm
Sse	glm_rotated	comm
Sse	glm_rotated_at	comm
Sse	glm_spinned	real
Sse	glm_plane_normalize	exact
Sse	glm_ortho_lh_zo	exact
Sse	glm_ortho_aabb_lh_zo	exact
Sse	glm_ortho_aabb_p_lh_zo	exact
Sse	glm_ortho_aabb_pz_lh_zo	exact
Sse	glm_ortho_default_lh_zo	exact
Sse	glm_ortho_default_s_lh_zo	exact
Sse	glm_frustum_lh_zo	exact
Sse	glm_perspective_lh_zo	exact
Sse	glm_perspective_default_lh_zo	exact
Sse	glm_ortho_lh_no	exact
Sse	glm_ortho_aabb_lh_no	exact
Sse	glm_ortho_aabb_p_lh_no	exact
Sse	glm_ortho_aabb_pz_lh_no	exact
Sse	glm_ortho_default_lh_no	exact
Sse	glm_ortho_default_s_lh_no	exact
Sse	glm_frustum_lh_no	exact
Sse	glm_perspective_lh_no	exact
Sse	glm_perspective_default_lh_no	exact
Sse	glm_ortho_rh_zo	exact
Sse	glm_ortho_aabb_rh_zo	exact
Sse	glm_ortho_aabb_p_rh_zo	exact
Sse	glm_ortho_aabb_pz_rh_zo	exact
Sse	glm_ortho_default_rh_zo	exact
Sse	glm_ortho_default_s_rh_zo	exact
Sse	glm_frustum_rh_zo	exact
Sse	glm_perspective_rh_zo	exact
Sse	glm_perspective_default_rh_zo	exact
Sse	glm_ortho_rh_no	exact
Sse	glm_ortho_aabb_rh_no	exact
Sse	glm_ortho_aabb_p_rh_no	exact
Sse	glm_ortho_aabb_pz_rh_no	exact
Sse	glm_ortho_default_rh_no	exact
Sse	glm_ortho_default_s_rh_no	exact
Sse	glm_frustum_rh_no	exact
Sse	glm_perspective_rh_no	exact
Sse	glm_perspective_default_rh_no	exact
Sse	glm_frustum	exact
Sse	glm_ortho	exact
Sse	glm_ortho_aabb	exact
Sse	glm_ortho_aabb_p	exact
Sse	glm_ortho_aabb_pz	exact
Sse	glm_ortho_default	exact
Sse	glm_ortho_default_s	exact
Sse	glm_perspective	exact
Sse	glm_perspective_default	exact
Sse	glm_frustum_planes	exact
Sse	glm_frustum_corners	real
Sse	glm_frustum_center	exact
Sse	glm_frustum_box	real
Sse	glm_frustum_corners_at	real
Sse	glm_quat_mul_sse2	real
Sse	glm_quat_norm	real
Sse	glm_quat_normalize_to	nf
Sse	glm_quat_normalize	nf
Sse	glm_quat_dot	real
Sse	glm_quat_conjugate	exact
Sse	glm_quat_inv	real
Sse	glm_quat_add	exact
Sse	glm_quat_sub	exact
Sse	glm_quat_mul	real
Sse	glm_quat_mat4	real
Sse	glm_quat_mat4t	real
Sse	glm_quat_mat3	real
Sse	glm_quat_mat3t	real
Sse	glm_quat_lerp	exact
Sse	glm_quat_lerpc	exact
Sse	glm_quat_nlerp	nf
Sse	glm_quat_slerp	real
Sse	glm_quat_slerp_longest	real
Sse	glm_quat_look	real
Sse	glm_quat_rotatev	nf
Sse	glm_quat_rotate	real
Sse	glm_quat_rotate_at	real
Sse	glm_quat_rotate_atm	real
Sse	glm_perlin_vec4	real
Sse	glm_perlin_vec3	exact
Sse	glm_perlin_vec2	real
Sse	glm_unprojecti_zo	real
Sse	glm_project_zo	real
Sse	glm_unprojecti_no	real
Sse	glm_project_no	real
Sse	glm_unprojecti	real
Sse	glm_unproject	real
Sse	glm_project	real
Sse	glm_pickmatrix	exact
Sse	glm_sphere_transform	real
Sse	glm_smc	real
Sse	glm_quat_from_vecs	nf
Sse2	glmm_abs	exact
Sse2	glmm_min	exact
Sse2	glmm_max	exact
Sse2	glmm_vhadd	real
Sse2	glmm_vhadds	real
Sse2	glmm_hadd	real
Sse2	glmm_vhmin	order
Sse2	glmm_hmin	order
Sse2	glmm_vhmax	order
Sse2	glmm_hmax	order
Sse2	glmm_vdots	real
Sse2	glmm_vdot	real
Sse2	glmm_dot	real
Sse2	glmm_norm	real
Sse2	glmm_norm2	real
Sse2	glmm_norm_one	real
Sse2	glmm_norm_inf	order
Sse2	glmm_load3	exact
Sse2	glmm_store3	exact
Sse2	glmm_div	exact
Sse2	glmm_fmadd	comm
Sse2	glmm_fnmadd	exact
Sse2	glmm_fmsub	exact
Sse2	glmm_fnmsub	real
Sse2	glm_vec4_broadcast	exact
Sse2	glm_vec4_fill	exact
Sse2	glm_vec4_sign	-
Sse2	glm_vec4_abs	exact
Sse2	glm_vec4_hadd	real
Sse2	glm_vec4_sqrt	exact
Sse2	glm_vec4_zero	exact
Sse2	glm_vec4_one	exact
Sse2	glm_vec4_dot	real
Sse2	glm_vec4_norm2	real
Sse2	glm_vec4_norm	real
Sse2	glm_vec4_norm_one	real
Sse2	glm_vec4_norm_inf	order
Sse2	glm_vec4_add	exact
Sse2	glm_vec4_adds	exact
Sse2	glm_vec4_sub	exact
Sse2	glm_vec4_subs	exact
Sse2	glm_vec4_mul	exact
Sse2	glm_vec4_scale	exact
Sse2	glm_vec4_scale_as	real
Sse2	glm_vec4_div	exact
Sse2	glm_vec4_divs	real
Sse2	glm_vec4_addadd	exact
Sse2	glm_vec4_subadd	exact
Sse2	glm_vec4_muladd	exact
Sse2	glm_vec4_muladds	exact
Sse2	glm_vec4_maxadd	exact
Sse2	glm_vec4_minadd	exact
Sse2	glm_vec4_subsub	exact
Sse2	glm_vec4_addsub	exact
Sse2	glm_vec4_mulsub	exact
Sse2	glm_vec4_mulsubs	exact
Sse2	glm_vec4_maxsub	exact
Sse2	glm_vec4_minsub	exact
Sse2	glm_vec4_negate_to	exact
Sse2	glm_vec4_negate	exact
Sse2	glm_vec4_normalize_to	-
Sse2	glm_vec4_normalize	-
Sse2	glm_vec4_distance	real
Sse2	glm_vec4_distance2	real
Sse2	glm_vec4_maxv	exact
Sse2	glm_vec4_minv	exact
Sse2	glm_vec4_clamp	real
Sse2	glm_vec4_lerp	exact
Sse2	glm_vec4_lerpc	exact
Sse2	glm_vec4_mix	exact
Sse2	glm_vec4_mixc	exact
Sse2	glm_vec4_smoothinterp	exact
Sse2	glm_vec4_smoothinterpc	exact
Sse2	glm_vec4_reflect	real
Sse2	glm_vec4_refract	real
Sse2	glm_vec3_rotate_m4	-
Sse2	glm_vec3_rotate_m3	-
Sse2	glm_mat4_scale_sse2	exact
Sse2	glm_mat4_transp_sse2	exact
Sse2	glm_mat4_mul_sse2	comm
Sse2	glm_mat4_mulv_sse2	real
Sse2	glm_mat4_det_sse2	real
Sse2	glm_mat4_inv_fast_sse2	-
Sse2	glm_mat4_inv_sse2	real
Sse2	glm_mat4_copy	exact
Sse2	glm_mat4_identity	exact
Sse2	glm_mat4_zero	exact
Sse2	glm_mat4_mul	comm
Sse2	glm_mat4_mulv	real
Sse2	glm_mat4_mulv3	real
Sse2	glm_mat4_transpose_to	exact
Sse2	glm_mat4_transpose	exact
Sse2	glm_mat4_scale	exact
Sse2	glm_mat4_det	real
Sse2	glm_mat4_inv	real
Sse2	glm_mat4_inv_fast	-
Sse2	glm_mat4_rmc	real
Sse2	glm_mat4_textrans	exact
Sse2	glm_mat3_mul_sse2	real
Sse2	glm_mat3_mul	real
Sse2	glm_mat2_mul_sse2	comm
Sse2	glm_mat2_transp_sse2	exact
Sse2	glm_mat2_mul	comm
Sse2	glm_mat2_transpose_to	exact
Sse2	glm_mat2_scale	exact
Sse2	glm_mul_sse2	comm
Sse2	glm_mul_rot_sse2	comm
Sse2	glm_inv_tr_sse2	-
Sse2	glm_mul	comm
Sse2	glm_mul_rot	comm
Sse2	glm_inv_tr	-
Sse2	glm_translate_make	exact
Sse2	glm_scale_to	exact
Sse2	glm_scale_make	exact
Sse2	glm_scale	exact
Sse2	glm_scale_uni	exact
Sse2	glm_decompose_rs	exact
Sse2	glm_decompose	exact
Sse2	glm_translate	real
Sse2	glm_translate_to	real
Sse2	glm_translate_x	comm
Sse2	glm_translate_y	comm
Sse2	glm_translate_z	comm
Sse2	glm_rotate_x	comm
Sse2	glm_rotate_y	comm
Sse2	glm_rotate_z	comm
Sse2	glm_rotate	comm
Sse2	glm_rotate_at	real
Sse2	glm_rotate_atm	real
Sse2	glm_spin	real
Sse2	glm_translated_to	exact
Sse2	glm_rotated_x	comm
Sse2	glm_rotated_y	comm
Sse2	glm_rotated_z	comm
Sse2	glm_rotated	comm
Sse2	glm_rotated_at	comm
Sse2	glm_spinned	real
Sse2	glm_plane_normalize	exact
Sse2	glm_ortho_lh_zo	exact
Sse2	glm_ortho_aabb_lh_zo	exact
Sse2	glm_ortho_aabb_p_lh_zo	exact
Sse2	glm_ortho_aabb_pz_lh_zo	exact
Sse2	glm_ortho_default_lh_zo	exact
Sse2	glm_ortho_default_s_lh_zo	exact
Sse2	glm_frustum_lh_zo	exact
Sse2	glm_perspective_lh_zo	exact
Sse2	glm_perspective_default_lh_zo	exact
Sse2	glm_ortho_lh_no	exact
Sse2	glm_ortho_aabb_lh_no	exact
Sse2	glm_ortho_aabb_p_lh_no	exact
Sse2	glm_ortho_aabb_pz_lh_no	exact
Sse2	glm_ortho_default_lh_no	exact
Sse2	glm_ortho_default_s_lh_no	exact
Sse2	glm_frustum_lh_no	exact
Sse2	glm_perspective_lh_no	exact
Sse2	glm_perspective_default_lh_no	exact
Sse2	glm_ortho_rh_zo	exact
Sse2	glm_ortho_aabb_rh_zo	exact
Sse2	glm_ortho_aabb_p_rh_zo	exact
Sse2	glm_ortho_aabb_pz_rh_zo	exact
Sse2	glm_ortho_default_rh_zo	exact
Sse2	glm_ortho_default_s_rh_zo	exact
Sse2	glm_frustum_rh_zo	exact
Sse2	glm_perspective_rh_zo	exact
Sse2	glm_perspective_default_rh_zo	exact
Sse2	glm_ortho_rh_no	exact
Sse2	glm_ortho_aabb_rh_no	exact
Sse2	glm_ortho_aabb_p_rh_no	exact
Sse2	glm_ortho_aabb_pz_rh_no	exact
Sse2	glm_ortho_default_rh_no	exact
Sse2	glm_ortho_default_s_rh_no	exact
Sse2	glm_frustum_rh_no	exact
Sse2	glm_perspective_rh_no	exact
Sse2	glm_perspective_default_rh_no	exact
Sse2	glm_frustum	exact
Sse2	glm_ortho	exact
Sse2	glm_ortho_aabb	exact
Sse2	glm_ortho_aabb_p	exact
Sse2	glm_ortho_aabb_pz	exact
Sse2	glm_ortho_default	exact
Sse2	glm_ortho_default_s	exact
Sse2	glm_perspective	exact
Sse2	glm_perspective_default	exact
Sse2	glm_frustum_planes	exact
Sse2	glm_frustum_corners	real
Sse2	glm_frustum_center	exact
Sse2	glm_frustum_box	real
Sse2	glm_frustum_corners_at	real
Sse2	glm_quat_mul_sse2	real
Sse2	glm_quat_norm	real
Sse2	glm_quat_normalize_to	nf
Sse2	glm_quat_normalize	nf
Sse2	glm_quat_dot	real
Sse2	glm_quat_conjugate	exact
Sse2	glm_quat_inv	real
Sse2	glm_quat_add	exact
Sse2	glm_quat_sub	exact
Sse2	glm_quat_mul	real
Sse2	glm_quat_mat4	real
Sse2	glm_quat_mat4t	real
Sse2	glm_quat_mat3	real
Sse2	glm_quat_mat3t	real
Sse2	glm_quat_lerp	exact
Sse2	glm_quat_lerpc	exact
Sse2	glm_quat_nlerp	nf
Sse2	glm_quat_slerp	real
Sse2	glm_quat_slerp_longest	real
Sse2	glm_quat_look	real
Sse2	glm_quat_rotatev	nf
Sse2	glm_quat_rotate	real
Sse2	glm_quat_rotate_at	real
Sse2	glm_quat_rotate_atm	real
Sse2	glm_perlin_vec4	real
Sse2	glm_perlin_vec3	exact
Sse2	glm_perlin_vec2	real
Sse2	glm_unprojecti_zo	real
Sse2	glm_project_zo	real
Sse2	glm_unprojecti_no	real
Sse2	glm_project_no	real
Sse2	glm_unprojecti	real
Sse2	glm_unproject	real
Sse2	glm_project	real
Sse2	glm_pickmatrix	exact
Sse2	glm_sphere_transform	real
Sse2	glm_smc	real
Sse2	glm_quat_from_vecs	nf
Sse3	glmm_abs	exact
Sse3	glmm_min	exact
Sse3	glmm_max	exact
Sse3	glmm_vhadd	real
Sse3	glmm_vhadds	real
Sse3	glmm_hadd	real
Sse3	glmm_vhmin	order
Sse3	glmm_hmin	order
Sse3	glmm_vhmax	order
Sse3	glmm_hmax	order
Sse3	glmm_vdots	real
Sse3	glmm_vdot	real
Sse3	glmm_dot	real
Sse3	glmm_norm	real
Sse3	glmm_norm2	real
Sse3	glmm_norm_one	real
Sse3	glmm_norm_inf	order
Sse3	glmm_load3	exact
Sse3	glmm_store3	exact
Sse3	glmm_div	exact
Sse3	glmm_fmadd	comm
Sse3	glmm_fnmadd	exact
Sse3	glmm_fmsub	exact
Sse3	glmm_fnmsub	real
Sse3	glm_vec4_broadcast	exact
Sse3	glm_vec4_fill	exact
Sse3	glm_vec4_sign	-
Sse3	glm_vec4_abs	exact
Sse3	glm_vec4_hadd	real
Sse3	glm_vec4_sqrt	exact
Sse3	glm_vec4_zero	exact
Sse3	glm_vec4_one	exact
Sse3	glm_vec4_dot	real
Sse3	glm_vec4_norm2	real
Sse3	glm_vec4_norm	real
Sse3	glm_vec4_norm_one	real
Sse3	glm_vec4_norm_inf	order
Sse3	glm_vec4_add	exact
Sse3	glm_vec4_adds	exact
Sse3	glm_vec4_sub	exact
Sse3	glm_vec4_subs	exact
Sse3	glm_vec4_mul	exact
Sse3	glm_vec4_scale	exact
Sse3	glm_vec4_scale_as	real
Sse3	glm_vec4_div	exact
Sse3	glm_vec4_divs	real
Sse3	glm_vec4_addadd	exact
Sse3	glm_vec4_subadd	exact
Sse3	glm_vec4_muladd	exact
Sse3	glm_vec4_muladds	exact
Sse3	glm_vec4_maxadd	exact
Sse3	glm_vec4_minadd	exact
Sse3	glm_vec4_subsub	exact
Sse3	glm_vec4_addsub	exact
Sse3	glm_vec4_mulsub	exact
Sse3	glm_vec4_mulsubs	exact
Sse3	glm_vec4_maxsub	exact
Sse3	glm_vec4_minsub	exact
Sse3	glm_vec4_negate_to	exact
Sse3	glm_vec4_negate	exact
Sse3	glm_vec4_normalize_to	-
Sse3	glm_vec4_normalize	-
Sse3	glm_vec4_distance	real
Sse3	glm_vec4_distance2	real
Sse3	glm_vec4_maxv	exact
Sse3	glm_vec4_minv	exact
Sse3	glm_vec4_clamp	real
Sse3	glm_vec4_lerp	exact
Sse3	glm_vec4_lerpc	exact
Sse3	glm_vec4_mix	exact
Sse3	glm_vec4_mixc	exact
Sse3	glm_vec4_smoothinterp	exact
Sse3	glm_vec4_smoothinterpc	exact
Sse3	glm_vec4_reflect	real
Sse3	glm_vec4_refract	real
Sse3	glm_vec3_rotate_m4	-
Sse3	glm_vec3_rotate_m3	-
Sse3	glm_mat4_scale_sse2	exact
Sse3	glm_mat4_transp_sse2	exact
Sse3	glm_mat4_mul_sse2	comm
Sse3	glm_mat4_mulv_sse2	real
Sse3	glm_mat4_det_sse2	real
Sse3	glm_mat4_inv_fast_sse2	-
Sse3	glm_mat4_inv_sse2	real
Sse3	glm_mat4_copy	exact
Sse3	glm_mat4_identity	exact
Sse3	glm_mat4_zero	exact
Sse3	glm_mat4_mul	comm
Sse3	glm_mat4_mulv	real
Sse3	glm_mat4_mulv3	real
Sse3	glm_mat4_transpose_to	exact
Sse3	glm_mat4_transpose	exact
Sse3	glm_mat4_scale	exact
Sse3	glm_mat4_det	real
Sse3	glm_mat4_inv	real
Sse3	glm_mat4_inv_fast	-
Sse3	glm_mat4_rmc	real
Sse3	glm_mat4_textrans	exact
Sse3	glm_mat3_mul_sse2	real
Sse3	glm_mat3_mul	real
Sse3	glm_mat2_mul_sse2	comm
Sse3	glm_mat2_transp_sse2	exact
Sse3	glm_mat2_mul	comm
Sse3	glm_mat2_transpose_to	exact
Sse3	glm_mat2_scale	exact
Sse3	glm_mul_sse2	comm
Sse3	glm_mul_rot_sse2	comm
Sse3	glm_inv_tr_sse2	-
Sse3	glm_mul	comm
Sse3	glm_mul_rot	comm
Sse3	glm_inv_tr	-
Sse3	glm_translate_make	exact
Sse3	glm_scale_to	exact
Sse3	glm_scale_make	exact
Sse3	glm_scale	exact
Sse3	glm_scale_uni	exact
Sse3	glm_decompose_rs	exact
Sse3	glm_decompose	exact
Sse3	glm_translate	real
Sse3	glm_translate_to	real
Sse3	glm_translate_x	comm
Sse3	glm_translate_y	comm
Sse3	glm_translate_z	comm
Sse3	glm_rotate_x	comm
Sse3	glm_rotate_y	comm
Sse3	glm_rotate_z	comm
Sse3	glm_rotate	comm
Sse3	glm_rotate_at	real
Sse3	glm_rotate_atm	real
Sse3	glm_spin	real
Sse3	glm_translated_to	exact
Sse3	glm_rotated_x	comm
Sse3	glm_rotated_y	comm
Sse3	glm_rotated_z	comm
Sse3	glm_rotated	comm
Sse3	glm_rotated_at	comm
Sse3	glm_spinned	real
Sse3	glm_plane_normalize	exact
Sse3	glm_ortho_lh_zo	exact
Sse3	glm_ortho_aabb_lh_zo	exact
Sse3	glm_ortho_aabb_p_lh_zo	exact
Sse3	glm_ortho_aabb_pz_lh_zo	exact
Sse3	glm_ortho_default_lh_zo	exact
Sse3	glm_ortho_default_s_lh_zo	exact
Sse3	glm_frustum_lh_zo	exact
Sse3	glm_perspective_lh_zo	exact
Sse3	glm_perspective_default_lh_zo	exact
Sse3	glm_ortho_lh_no	exact
Sse3	glm_ortho_aabb_lh_no	exact
Sse3	glm_ortho_aabb_p_lh_no	exact
Sse3	glm_ortho_aabb_pz_lh_no	exact
Sse3	glm_ortho_default_lh_no	exact
Sse3	glm_ortho_default_s_lh_no	exact
Sse3	glm_frustum_lh_no	exact
Sse3	glm_perspective_lh_no	exact
Sse3	glm_perspective_default_lh_no	exact
Sse3	glm_ortho_rh_zo	exact
Sse3	glm_ortho_aabb_rh_zo	exact
Sse3	glm_ortho_aabb_p_rh_zo	exact
Sse3	glm_ortho_aabb_pz_rh_zo	exact
Sse3	glm_ortho_default_rh_zo	exact
Sse3	glm_ortho_default_s_rh_zo	exact
Sse3	glm_frustum_rh_zo	exact
Sse3	glm_perspective_rh_zo	exact
Sse3	glm_perspective_default_rh_zo	exact
Sse3	glm_ortho_rh_no	exact
Sse3	glm_ortho_aabb_rh_no	exact
Sse3	glm_ortho_aabb_p_rh_no	exact
Sse3	glm_ortho_aabb_pz_rh_no	exact
Sse3	glm_ortho_default_rh_no	exact
Sse3	glm_ortho_default_s_rh_no	exact
Sse3	glm_frustum_rh_no	exact
Sse3	glm_perspective_rh_no	exact
Sse3	glm_perspective_default_rh_no	exact
Sse3	glm_frustum	exact
Sse3	glm_ortho	exact
Sse3	glm_ortho_aabb	exact
Sse3	glm_ortho_aabb_p	exact
Sse3	glm_ortho_aabb_pz	exact
Sse3	glm_ortho_default	exact
Sse3	glm_ortho_default_s	exact
Sse3	glm_perspective	exact
Sse3	glm_perspective_default	exact
Sse3	glm_frustum_planes	exact
Sse3	glm_frustum_corners	real
Sse3	glm_frustum_center	exact
Sse3	glm_frustum_box	real
Sse3	glm_frustum_corners_at	real
Sse3	glm_quat_mul_sse2	real
Sse3	glm_quat_norm	real
Sse3	glm_quat_normalize_to	nf
Sse3	glm_quat_normalize	nf
Sse3	glm_quat_dot	real
Sse3	glm_quat_conjugate	exact
Sse3	glm_quat_inv	real
Sse3	glm_quat_add	exact
Sse3	glm_quat_sub	exact
Sse3	glm_quat_mul	real
Sse3	glm_quat_mat4	real
Sse3	glm_quat_mat4t	real
Sse3	glm_quat_mat3	real
Sse3	glm_quat_mat3t	real
Sse3	glm_quat_lerp	exact
Sse3	glm_quat_lerpc	exact
Sse3	glm_quat_nlerp	nf
Sse3	glm_quat_slerp	real
Sse3	glm_quat_slerp_longest	real
Sse3	glm_quat_look	real
Sse3	glm_quat_rotatev	nf
Sse3	glm_quat_rotate	real
Sse3	glm_quat_rotate_at	real
Sse3	glm_quat_rotate_atm	real
Sse3	glm_perlin_vec4	real
Sse3	glm_perlin_vec3	exact
Sse3	glm_perlin_vec2	real
Sse3	glm_unprojecti_zo	real
Sse3	glm_project_zo	real
Sse3	glm_unprojecti_no	real
Sse3	glm_project_no	real
Sse3	glm_unprojecti	real
Sse3	glm_unproject	real
Sse3	glm_project	real
Sse3	glm_pickmatrix	exact
Sse3	glm_sphere_transform	real
Sse3	glm_smc	real
Sse3	glm_quat_from_vecs	nf
Sse4	glmm_abs	exact
Sse4	glmm_min	exact
Sse4	glmm_max	exact
Sse4	glmm_vhadd	real
Sse4	glmm_vhadds	real
Sse4	glmm_hadd	real
Sse4	glmm_vhmin	order
Sse4	glmm_hmin	order
Sse4	glmm_vhmax	order
Sse4	glmm_hmax	order
Sse4	glmm_vdots	real
Sse4	glmm_vdot	real
Sse4	glmm_dot	real
Sse4	glmm_norm	real
Sse4	glmm_norm2	real
Sse4	glmm_norm_one	real
Sse4	glmm_norm_inf	order
Sse4	glmm_load3	exact
Sse4	glmm_store3	exact
Sse4	glmm_div	exact
Sse4	glmm_fmadd	comm
Sse4	glmm_fnmadd	exact
Sse4	glmm_fmsub	exact
Sse4	glmm_fnmsub	real
Sse4	glm_vec4_broadcast	exact
Sse4	glm_vec4_fill	exact
Sse4	glm_vec4_sign	-
Sse4	glm_vec4_abs	exact
Sse4	glm_vec4_hadd	real
Sse4	glm_vec4_sqrt	exact
Sse4	glm_vec4_zero	exact
Sse4	glm_vec4_one	exact
Sse4	glm_vec4_dot	real
Sse4	glm_vec4_norm2	real
Sse4	glm_vec4_norm	real
Sse4	glm_vec4_norm_one	real
Sse4	glm_vec4_norm_inf	order
Sse4	glm_vec4_add	exact
Sse4	glm_vec4_adds	exact
Sse4	glm_vec4_sub	exact
Sse4	glm_vec4_subs	exact
Sse4	glm_vec4_mul	exact
Sse4	glm_vec4_scale	exact
Sse4	glm_vec4_scale_as	real
Sse4	glm_vec4_div	exact
Sse4	glm_vec4_divs	real
Sse4	glm_vec4_addadd	exact
Sse4	glm_vec4_subadd	exact
Sse4	glm_vec4_muladd	exact
Sse4	glm_vec4_muladds	exact
Sse4	glm_vec4_maxadd	exact
Sse4	glm_vec4_minadd	exact
Sse4	glm_vec4_subsub	exact
Sse4	glm_vec4_addsub	exact
Sse4	glm_vec4_mulsub	exact
Sse4	glm_vec4_mulsubs	exact
Sse4	glm_vec4_maxsub	exact
Sse4	glm_vec4_minsub	exact
Sse4	glm_vec4_negate_to	exact
Sse4	glm_vec4_negate	exact
Sse4	glm_vec4_normalize_to	-
Sse4	glm_vec4_normalize	-
Sse4	glm_vec4_distance	real
Sse4	glm_vec4_distance2	real
Sse4	glm_vec4_maxv	exact
Sse4	glm_vec4_minv	exact
Sse4	glm_vec4_clamp	real
Sse4	glm_vec4_lerp	exact
Sse4	glm_vec4_lerpc	exact
Sse4	glm_vec4_mix	exact
Sse4	glm_vec4_mixc	exact
Sse4	glm_vec4_smoothinterp	exact
Sse4	glm_vec4_smoothinterpc	exact
Sse4	glm_vec4_reflect	real
Sse4	glm_vec4_refract	real
Sse4	glm_vec3_rotate_m4	-
Sse4	glm_vec3_rotate_m3	-
Sse4	glm_mat4_scale_sse2	exact
Sse4	glm_mat4_transp_sse2	exact
Sse4	glm_mat4_mul_sse2	comm
Sse4	glm_mat4_mulv_sse2	real
Sse4	glm_mat4_det_sse2	real
Sse4	glm_mat4_inv_fast_sse2	-
Sse4	glm_mat4_inv_sse2	real
Sse4	glm_mat4_copy	exact
Sse4	glm_mat4_identity	exact
Sse4	glm_mat4_zero	exact
Sse4	glm_mat4_mul	comm
Sse4	glm_mat4_mulv	real
Sse4	glm_mat4_mulv3	real
Sse4	glm_mat4_transpose_to	exact
Sse4	glm_mat4_transpose	exact
Sse4	glm_mat4_scale	exact
Sse4	glm_mat4_det	real
Sse4	glm_mat4_inv	real
Sse4	glm_mat4_inv_fast	-
Sse4	glm_mat4_rmc	real
Sse4	glm_mat4_textrans	exact
Sse4	glm_mat3_mul_sse2	real
Sse4	glm_mat3_mul	real
Sse4	glm_mat2_mul_sse2	comm
Sse4	glm_mat2_transp_sse2	exact
Sse4	glm_mat2_mul	comm
Sse4	glm_mat2_transpose_to	exact
Sse4	glm_mat2_scale	exact
Sse4	glm_mul_sse2	comm
Sse4	glm_mul_rot_sse2	comm
Sse4	glm_inv_tr_sse2	-
Sse4	glm_mul	comm
Sse4	glm_mul_rot	comm
Sse4	glm_inv_tr	-
Sse4	glm_translate_make	exact
Sse4	glm_scale_to	exact
Sse4	glm_scale_make	exact
Sse4	glm_scale	exact
Sse4	glm_scale_uni	exact
Sse4	glm_decompose_rs	exact
Sse4	glm_decompose	exact
Sse4	glm_translate	real
Sse4	glm_translate_to	real
Sse4	glm_translate_x	comm
Sse4	glm_translate_y	comm
Sse4	glm_translate_z	comm
Sse4	glm_rotate_x	comm
Sse4	glm_rotate_y	comm
Sse4	glm_rotate_z	comm
Sse4	glm_rotate	comm
Sse4	glm_rotate_at	real
Sse4	glm_rotate_atm	real
Sse4	glm_spin	real
Sse4	glm_translated_to	exact
Sse4	glm_rotated_x	comm
Sse4	glm_rotated_y	comm
Sse4	glm_rotated_z	comm
Sse4	glm_rotated	comm
Sse4	glm_rotated_at	comm
Sse4	glm_spinned	real
Sse4	glm_plane_normalize	exact
Sse4	glm_ortho_lh_zo	exact
Sse4	glm_ortho_aabb_lh_zo	exact
Sse4	glm_ortho_aabb_p_lh_zo	exact
Sse4	glm_ortho_aabb_pz_lh_zo	exact
Sse4	glm_ortho_default_lh_zo	exact
Sse4	glm_ortho_default_s_lh_zo	exact
Sse4	glm_frustum_lh_zo	exact
Sse4	glm_perspective_lh_zo	exact
Sse4	glm_perspective_default_lh_zo	exact
Sse4	glm_ortho_lh_no	exact
Sse4	glm_ortho_aabb_lh_no	exact
Sse4	glm_ortho_aabb_p_lh_no	exact
Sse4	glm_ortho_aabb_pz_lh_no	exact
Sse4	glm_ortho_default_lh_no	exact
Sse4	glm_ortho_default_s_lh_no	exact
Sse4	glm_frustum_lh_no	exact
Sse4	glm_perspective_lh_no	exact
Sse4	glm_perspective_default_lh_no	exact
Sse4	glm_ortho_rh_zo	exact
Sse4	glm_ortho_aabb_rh_zo	exact
Sse4	glm_ortho_aabb_p_rh_zo	exact
Sse4	glm_ortho_aabb_pz_rh_zo	exact
Sse4	glm_ortho_default_rh_zo	exact
Sse4	glm_ortho_default_s_rh_zo	exact
Sse4	glm_frustum_rh_zo	exact
Sse4	glm_perspective_rh_zo	exact
Sse4	glm_perspective_default_rh_zo	exact
Sse4	glm_ortho_rh_no	exact
Sse4	glm_ortho_aabb_rh_no	exact
Sse4	glm_ortho_aabb_p_rh_no	exact
Sse4	glm_ortho_aabb_pz_rh_no	exact
Sse4	glm_ortho_default_rh_no	exact
Sse4	glm_ortho_default_s_rh_no	exact
Sse4	glm_frustum_rh_no	exact
Sse4	glm_perspective_rh_no	exact
Sse4	glm_perspective_default_rh_no	exact
Sse4	glm_frustum	exact
Sse4	glm_ortho	exact
Sse4	glm_ortho_aabb	exact
Sse4	glm_ortho_aabb_p	exact
Sse4	glm_ortho_aabb_pz	exact
Sse4	glm_ortho_default	exact
Sse4	glm_ortho_default_s	exact
Sse4	glm_perspective	exact
Sse4	glm_perspective_default	exact
Sse4	glm_frustum_planes	exact
Sse4	glm_frustum_corners	real
Sse4	glm_frustum_center	exact
Sse4	glm_frustum_box	real
Sse4	glm_frustum_corners_at	real
Sse4	glm_quat_mul_sse2	real
Sse4	glm_quat_norm	real
Sse4	glm_quat_normalize_to	nf
Sse4	glm_quat_normalize	nf
Sse4	glm_quat_dot	real
Sse4	glm_quat_conjugate	exact
Sse4	glm_quat_inv	real
Sse4	glm_quat_add	exact
Sse4	glm_quat_sub	exact
Sse4	glm_quat_mul	real
Sse4	glm_quat_mat4	real
Sse4	glm_quat_mat4t	real
Sse4	glm_quat_mat3	real
Sse4	glm_quat_mat3t	real
Sse4	glm_quat_lerp	exact
Sse4	glm_quat_lerpc	exact
Sse4	glm_quat_nlerp	nf
Sse4	glm_quat_slerp	real
Sse4	glm_quat_slerp_longest	real
Sse4	glm_quat_look	real
Sse4	glm_quat_rotatev	nf
Sse4	glm_quat_rotate	real
Sse4	glm_quat_rotate_at	real
Sse4	glm_quat_rotate_atm	real
Sse4	glm_perlin_vec4	real
Sse4	glm_perlin_vec3	exact
Sse4	glm_perlin_vec2	real
Sse4	glm_unprojecti_zo	real
Sse4	glm_project_zo	real
Sse4	glm_unprojecti_no	real
Sse4	glm_project_no	real
Sse4	glm_unprojecti	real
Sse4	glm_unproject	real
Sse4	glm_project	real
Sse4	glm_pickmatrix	exact
Sse4	glm_sphere_transform	real
Sse4	glm_smc	real
Sse4	glm_quat_from_vecs	nf
Avx	glmm_abs	exact
Avx	glmm_min	exact
Avx	glmm_max	exact
Avx	glmm_vhadd	real
Avx	glmm_vhadds	real
Avx	glmm_hadd	real
Avx	glmm_vhmin	order
Avx	glmm_hmin	order
Avx	glmm_vhmax	order
Avx	glmm_hmax	order
Avx	glmm_vdots	real
Avx	glmm_vdot	real
Avx	glmm_dot	real
Avx	glmm_norm	real
Avx	glmm_norm2	real
Avx	glmm_norm_one	real
Avx	glmm_norm_inf	order
Avx	glmm_load3	exact
Avx	glmm_store3	exact
Avx	glmm_div	exact
Avx	glmm_fmadd	comm
Avx	glmm_fnmadd	exact
Avx	glmm_fmsub	exact
Avx	glmm_fnmsub	real
Avx	glmm256_fmadd	comm
Avx	glmm256_fnmadd	exact
Avx	glmm256_fmsub	exact
Avx	glmm256_fnmsub	-
Avx	glm_vec4_broadcast	exact
Avx	glm_vec4_fill	exact
Avx	glm_vec4_sign	-
Avx	glm_vec4_abs	exact
Avx	glm_vec4_hadd	real
Avx	glm_vec4_sqrt	exact
Avx	glm_vec4_zero	exact
Avx	glm_vec4_one	exact
Avx	glm_vec4_dot	real
Avx	glm_vec4_norm2	real
Avx	glm_vec4_norm	real
Avx	glm_vec4_norm_one	real
Avx	glm_vec4_norm_inf	order
Avx	glm_vec4_add	exact
Avx	glm_vec4_adds	exact
Avx	glm_vec4_sub	exact
Avx	glm_vec4_subs	exact
Avx	glm_vec4_mul	exact
Avx	glm_vec4_scale	exact
Avx	glm_vec4_scale_as	real
Avx	glm_vec4_div	exact
Avx	glm_vec4_divs	real
Avx	glm_vec4_addadd	exact
Avx	glm_vec4_subadd	exact
Avx	glm_vec4_muladd	exact
Avx	glm_vec4_muladds	exact
Avx	glm_vec4_maxadd	exact
Avx	glm_vec4_minadd	exact
Avx	glm_vec4_subsub	exact
Avx	glm_vec4_addsub	exact
Avx	glm_vec4_mulsub	exact
Avx	glm_vec4_mulsubs	exact
Avx	glm_vec4_maxsub	exact
Avx	glm_vec4_minsub	exact
Avx	glm_vec4_negate_to	exact
Avx	glm_vec4_negate	exact
Avx	glm_vec4_normalize_to	-
Avx	glm_vec4_normalize	-
Avx	glm_vec4_distance	real
Avx	glm_vec4_distance2	real
Avx	glm_vec4_maxv	exact
Avx	glm_vec4_minv	exact
Avx	glm_vec4_clamp	real
Avx	glm_vec4_lerp	exact
Avx	glm_vec4_lerpc	exact
Avx	glm_vec4_mix	exact
Avx	glm_vec4_mixc	exact
Avx	glm_vec4_smoothinterp	exact
Avx	glm_vec4_smoothinterpc	exact
Avx	glm_vec4_reflect	real
Avx	glm_vec4_refract	real
Avx	glm_vec3_rotate_m4	-
Avx	glm_vec3_rotate_m3	-
Avx	glm_mat4_scale_sse2	exact
Avx	glm_mat4_transp_sse2	exact
Avx	glm_mat4_mul_sse2	comm
Avx	glm_mat4_mulv_sse2	real
Avx	glm_mat4_det_sse2	real
Avx	glm_mat4_inv_fast_sse2	-
Avx	glm_mat4_inv_sse2	real
Avx	glm_mat4_scale_avx	exact
Avx	glm_mat4_transp_avx	exact
Avx	glm_mat4_mul_avx	real
Avx	glm_mat4_copy	exact
Avx	glm_mat4_identity	exact
Avx	glm_mat4_zero	exact
Avx	glm_mat4_mul	real
Avx	glm_mat4_mulv	real
Avx	glm_mat4_mulv3	real
Avx	glm_mat4_transpose_to	exact
Avx	glm_mat4_transpose	exact
Avx	glm_mat4_scale	exact
Avx	glm_mat4_det	real
Avx	glm_mat4_inv	real
Avx	glm_mat4_inv_fast	-
Avx	glm_mat4_rmc	real
Avx	glm_mat4_textrans	exact
Avx	glm_mat3_mul_sse2	real
Avx	glm_mat3_mul	real
Avx	glm_mat2_mul_sse2	comm
Avx	glm_mat2_transp_sse2	exact
Avx	glm_mat2_mul	comm
Avx	glm_mat2_transpose_to	exact
Avx	glm_mat2_scale	exact
Avx	glm_mul_sse2	comm
Avx	glm_mul_rot_sse2	comm
Avx	glm_inv_tr_sse2	-
Avx	glm_mul_avx	-
Avx	glm_mul	-
Avx	glm_mul_rot	comm
Avx	glm_inv_tr	-
Avx	glm_translate_make	exact
Avx	glm_scale_to	exact
Avx	glm_scale_make	exact
Avx	glm_scale	exact
Avx	glm_scale_uni	exact
Avx	glm_decompose_rs	exact
Avx	glm_decompose	exact
Avx	glm_translate	real
Avx	glm_translate_to	real
Avx	glm_translate_x	comm
Avx	glm_translate_y	comm
Avx	glm_translate_z	comm
Avx	glm_rotate_x	comm
Avx	glm_rotate_y	comm
Avx	glm_rotate_z	comm
Avx	glm_rotate	comm
Avx	glm_rotate_at	real
Avx	glm_rotate_atm	real
Avx	glm_spin	real
Avx	glm_translated_to	exact
Avx	glm_rotated_x	comm
Avx	glm_rotated_y	comm
Avx	glm_rotated_z	comm
Avx	glm_rotated	comm
Avx	glm_rotated_at	comm
Avx	glm_spinned	real
Avx	glm_plane_normalize	exact
Avx	glm_ortho_lh_zo	exact
Avx	glm_ortho_aabb_lh_zo	exact
Avx	glm_ortho_aabb_p_lh_zo	exact
Avx	glm_ortho_aabb_pz_lh_zo	exact
Avx	glm_ortho_default_lh_zo	exact
Avx	glm_ortho_default_s_lh_zo	exact
Avx	glm_frustum_lh_zo	exact
Avx	glm_perspective_lh_zo	exact
Avx	glm_perspective_default_lh_zo	exact
Avx	glm_ortho_lh_no	exact
Avx	glm_ortho_aabb_lh_no	exact
Avx	glm_ortho_aabb_p_lh_no	exact
Avx	glm_ortho_aabb_pz_lh_no	exact
Avx	glm_ortho_default_lh_no	exact
Avx	glm_ortho_default_s_lh_no	exact
Avx	glm_frustum_lh_no	exact
Avx	glm_perspective_lh_no	exact
Avx	glm_perspective_default_lh_no	exact
Avx	glm_ortho_rh_zo	exact
Avx	glm_ortho_aabb_rh_zo	exact
Avx	glm_ortho_aabb_p_rh_zo	exact
Avx	glm_ortho_aabb_pz_rh_zo	exact
Avx	glm_ortho_default_rh_zo	exact
Avx	glm_ortho_default_s_rh_zo	exact
Avx	glm_frustum_rh_zo	exact
Avx	glm_perspective_rh_zo	exact
Avx	glm_perspective_default_rh_zo	exact
Avx	glm_ortho_rh_no	exact
Avx	glm_ortho_aabb_rh_no	exact
Avx	glm_ortho_aabb_p_rh_no	exact
Avx	glm_ortho_aabb_pz_rh_no	exact
Avx	glm_ortho_default_rh_no	exact
Avx	glm_ortho_default_s_rh_no	exact
Avx	glm_frustum_rh_no	exact
Avx	glm_perspective_rh_no	exact
Avx	glm_perspective_default_rh_no	exact
Avx	glm_frustum	exact
Avx	glm_ortho	exact
Avx	glm_ortho_aabb	exact
Avx	glm_ortho_aabb_p	exact
Avx	glm_ortho_aabb_pz	exact
Avx	glm_ortho_default	exact
Avx	glm_ortho_default_s	exact
Avx	glm_perspective	exact
Avx	glm_perspective_default	exact
Avx	glm_frustum_planes	exact
Avx	glm_frustum_corners	real
Avx	glm_frustum_center	exact
Avx	glm_frustum_box	real
Avx	glm_frustum_corners_at	real
Avx	glm_quat_mul_sse2	real
Avx	glm_quat_norm	real
Avx	glm_quat_normalize_to	nf
Avx	glm_quat_normalize	nf
Avx	glm_quat_dot	real
Avx	glm_quat_conjugate	exact
Avx	glm_quat_inv	real
Avx	glm_quat_add	exact
Avx	glm_quat_sub	exact
Avx	glm_quat_mul	real
Avx	glm_quat_mat4	real
Avx	glm_quat_mat4t	real
Avx	glm_quat_mat3	real
Avx	glm_quat_mat3t	real
Avx	glm_quat_lerp	exact
Avx	glm_quat_lerpc	exact
Avx	glm_quat_nlerp	nf
Avx	glm_quat_slerp	real
Avx	glm_quat_slerp_longest	real
Avx	glm_quat_look	real
Avx	glm_quat_rotatev	nf
Avx	glm_quat_rotate	real
Avx	glm_quat_rotate_at	real
Avx	glm_quat_rotate_atm	real
Avx	glm_perlin_vec4	real
Avx	glm_perlin_vec3	exact
Avx	glm_perlin_vec2	real
Avx	glm_unprojecti_zo	real
Avx	glm_project_zo	real
Avx	glm_unprojecti_no	real
Avx	glm_project_no	real
Avx	glm_unprojecti	real
Avx	glm_unproject	real
Avx	glm_project	real
Avx	glm_pickmatrix	exact
Avx	glm_sphere_transform	real
Avx	glm_smc	real
Avx	glm_quat_from_vecs	nf
Fma	glmm_abs	exact
Fma	glmm_min	exact
Fma	glmm_max	exact
Fma	glmm_vhadd	real
Fma	glmm_vhadds	real
Fma	glmm_hadd	real
Fma	glmm_vhmin	order
Fma	glmm_hmin	order
Fma	glmm_vhmax	order
Fma	glmm_hmax	order
Fma	glmm_vdots	real
Fma	glmm_vdot	real
Fma	glmm_dot	real
Fma	glmm_norm	real
Fma	glmm_norm2	real
Fma	glmm_norm_one	real
Fma	glmm_norm_inf	order
Fma	glmm_load3	exact
Fma	glmm_store3	exact
Fma	glmm_div	exact
Fma	glmm_fmadd	real
Fma	glmm_fnmadd	real
Fma	glmm_fmsub	real
Fma	glmm_fnmsub	real
Fma	glmm256_fmadd	real
Fma	glmm256_fnmadd	real
Fma	glmm256_fmsub	real
Fma	glmm256_fnmsub	-
Fma	glm_vec4_broadcast	exact
Fma	glm_vec4_fill	exact
Fma	glm_vec4_sign	-
Fma	glm_vec4_abs	exact
Fma	glm_vec4_hadd	real
Fma	glm_vec4_sqrt	exact
Fma	glm_vec4_zero	exact
Fma	glm_vec4_one	exact
Fma	glm_vec4_dot	real
Fma	glm_vec4_norm2	real
Fma	glm_vec4_norm	real
Fma	glm_vec4_norm_one	real
Fma	glm_vec4_norm_inf	order
Fma	glm_vec4_add	exact
Fma	glm_vec4_adds	exact
Fma	glm_vec4_sub	exact
Fma	glm_vec4_subs	exact
Fma	glm_vec4_mul	exact
Fma	glm_vec4_scale	exact
Fma	glm_vec4_scale_as	real
Fma	glm_vec4_div	exact
Fma	glm_vec4_divs	real
Fma	glm_vec4_addadd	exact
Fma	glm_vec4_subadd	exact
Fma	glm_vec4_muladd	real
Fma	glm_vec4_muladds	real
Fma	glm_vec4_maxadd	exact
Fma	glm_vec4_minadd	exact
Fma	glm_vec4_subsub	exact
Fma	glm_vec4_addsub	exact
Fma	glm_vec4_mulsub	real
Fma	glm_vec4_mulsubs	real
Fma	glm_vec4_maxsub	exact
Fma	glm_vec4_minsub	exact
Fma	glm_vec4_negate_to	exact
Fma	glm_vec4_negate	exact
Fma	glm_vec4_normalize_to	-
Fma	glm_vec4_normalize	-
Fma	glm_vec4_distance	real
Fma	glm_vec4_distance2	real
Fma	glm_vec4_maxv	exact
Fma	glm_vec4_minv	exact
Fma	glm_vec4_clamp	real
Fma	glm_vec4_lerp	exact
Fma	glm_vec4_lerpc	exact
Fma	glm_vec4_mix	exact
Fma	glm_vec4_mixc	exact
Fma	glm_vec4_smoothinterp	exact
Fma	glm_vec4_smoothinterpc	exact
Fma	glm_vec4_reflect	real
Fma	glm_vec4_refract	real
Fma	glm_vec3_rotate_m4	-
Fma	glm_vec3_rotate_m3	-
Fma	glm_mat4_scale_sse2	exact
Fma	glm_mat4_transp_sse2	exact
Fma	glm_mat4_mul_sse2	real
Fma	glm_mat4_mulv_sse2	real
Fma	glm_mat4_det_sse2	real
Fma	glm_mat4_inv_fast_sse2	-
Fma	glm_mat4_inv_sse2	real
Fma	glm_mat4_scale_avx	exact
Fma	glm_mat4_transp_avx	exact
Fma	glm_mat4_mul_avx	real
Fma	glm_mat4_copy	exact
Fma	glm_mat4_identity	exact
Fma	glm_mat4_zero	exact
Fma	glm_mat4_mul	real
Fma	glm_mat4_mulv	real
Fma	glm_mat4_mulv3	real
Fma	glm_mat4_transpose_to	exact
Fma	glm_mat4_transpose	exact
Fma	glm_mat4_scale	exact
Fma	glm_mat4_det	real
Fma	glm_mat4_inv	real
Fma	glm_mat4_inv_fast	-
Fma	glm_mat4_rmc	real
Fma	glm_mat4_textrans	exact
Fma	glm_mat3_mul_sse2	real
Fma	glm_mat3_mul	real
Fma	glm_mat2_mul_sse2	real
Fma	glm_mat2_transp_sse2	exact
Fma	glm_mat2_mul	real
Fma	glm_mat2_transpose_to	exact
Fma	glm_mat2_scale	exact
Fma	glm_mul_sse2	real
Fma	glm_mul_rot_sse2	real
Fma	glm_inv_tr_sse2	-
Fma	glm_mul_avx	-
Fma	glm_mul	-
Fma	glm_mul_rot	real
Fma	glm_inv_tr	-
Fma	glm_translate_make	exact
Fma	glm_scale_to	exact
Fma	glm_scale_make	exact
Fma	glm_scale	exact
Fma	glm_scale_uni	exact
Fma	glm_decompose_rs	exact
Fma	glm_decompose	exact
Fma	glm_translate	real
Fma	glm_translate_to	real
Fma	glm_translate_x	real
Fma	glm_translate_y	real
Fma	glm_translate_z	real
Fma	glm_rotate_x	real
Fma	glm_rotate_y	real
Fma	glm_rotate_z	real
Fma	glm_rotate	real
Fma	glm_rotate_at	real
Fma	glm_rotate_atm	real
Fma	glm_spin	real
Fma	glm_translated_to	exact
Fma	glm_rotated_x	real
Fma	glm_rotated_y	real
Fma	glm_rotated_z	real
Fma	glm_rotated	real
Fma	glm_rotated_at	real
Fma	glm_spinned	real
Fma	glm_plane_normalize	exact
Fma	glm_ortho_lh_zo	exact
Fma	glm_ortho_aabb_lh_zo	exact
Fma	glm_ortho_aabb_p_lh_zo	exact
Fma	glm_ortho_aabb_pz_lh_zo	exact
Fma	glm_ortho_default_lh_zo	exact
Fma	glm_ortho_default_s_lh_zo	exact
Fma	glm_frustum_lh_zo	exact
Fma	glm_perspective_lh_zo	exact
Fma	glm_perspective_default_lh_zo	exact
Fma	glm_ortho_lh_no	exact
Fma	glm_ortho_aabb_lh_no	exact
Fma	glm_ortho_aabb_p_lh_no	exact
Fma	glm_ortho_aabb_pz_lh_no	exact
Fma	glm_ortho_default_lh_no	exact
Fma	glm_ortho_default_s_lh_no	exact
Fma	glm_frustum_lh_no	exact
Fma	glm_perspective_lh_no	exact
Fma	glm_perspective_default_lh_no	exact
Fma	glm_ortho_rh_zo	exact
Fma	glm_ortho_aabb_rh_zo	exact
Fma	glm_ortho_aabb_p_rh_zo	exact
Fma	glm_ortho_aabb_pz_rh_zo	exact
Fma	glm_ortho_default_rh_zo	exact
Fma	glm_ortho_default_s_rh_zo	exact
Fma	glm_frustum_rh_zo	exact
Fma	glm_perspective_rh_zo	exact
Fma	glm_perspective_default_rh_zo	exact
Fma	glm_ortho_rh_no	exact
Fma	glm_ortho_aabb_rh_no	exact
Fma	glm_ortho_aabb_p_rh_no	exact
Fma	glm_ortho_aabb_pz_rh_no	exact
Fma	glm_ortho_default_rh_no	exact
Fma	glm_ortho_default_s_rh_no	exact
Fma	glm_frustum_rh_no	exact
Fma	glm_perspective_rh_no	exact
Fma	glm_perspective_default_rh_no	exact
Fma	glm_frustum	exact
Fma	glm_ortho	exact
Fma	glm_ortho_aabb	exact
Fma	glm_ortho_aabb_p	exact
Fma	glm_ortho_aabb_pz	exact
Fma	glm_ortho_default	exact
Fma	glm_ortho_default_s	exact
Fma	glm_perspective	exact
Fma	glm_perspective_default	exact
Fma	glm_frustum_planes	exact
Fma	glm_frustum_corners	real
Fma	glm_frustum_center	exact
Fma	glm_frustum_box	real
Fma	glm_frustum_corners_at	real
Fma	glm_quat_mul_sse2	real
Fma	glm_quat_norm	real
Fma	glm_quat_normalize_to	nf
Fma	glm_quat_normalize	nf
Fma	glm_quat_dot	real
Fma	glm_quat_conjugate	exact
Fma	glm_quat_inv	real
Fma	glm_quat_add	exact
Fma	glm_quat_sub	exact
Fma	glm_quat_mul	real
Fma	glm_quat_mat4	real
Fma	glm_quat_mat4t	real
Fma	glm_quat_mat3	real
Fma	glm_quat_mat3t	real
Fma	glm_quat_lerp	exact
Fma	glm_quat_lerpc	exact
Fma	glm_quat_nlerp	nf
Fma	glm_quat_slerp	real
Fma	glm_quat_slerp_longest	real
Fma	glm_quat_look	real
Fma	glm_quat_rotatev	nf
Fma	glm_quat_rotate	real
Fma	glm_quat_rotate_at	real
Fma	glm_quat_rotate_atm	real
Fma	glm_perlin_vec4	real
Fma	glm_perlin_vec3	exact
Fma	glm_perlin_vec2	real
Fma	glm_unprojecti_zo	real
Fma	glm_project_zo	real
Fma	glm_unprojecti_no	real
Fma	glm_project_no	real
Fma	glm_unprojecti	real
Fma	glm_unproject	real
Fma	glm_project	real
Fma	glm_pickmatrix	exact
Fma	glm_sphere_transform	real
Fma	glm_smc	real
Fma	glm_quat_from_vecs	nf
Neon64	glmm_abs	exact
Neon64	glmm_min	order
Neon64	glmm_max	order
Neon64	glmm_vhadd	real
Neon64	glmm_hadd	real
Neon64	glmm_hmin	order
Neon64	glmm_hmax	order
Neon64	glmm_dot	real
Neon64	glmm_vdot	real
Neon64	glmm_norm	real
Neon64	glmm_norm2	real
Neon64	glmm_norm_one	real
Neon64	glmm_norm_inf	order
Neon64	glmm_div	exact
Neon64	glmm_fmadd	real
Neon64	glmm_fnmadd	real
Neon64	glmm_fmsub	real
Neon64	glmm_fnmsub	real
Neon64	glm_vec4_abs	exact
Neon64	glm_vec4_zero	exact
Neon64	glm_vec4_one	exact
Neon64	glm_vec4_dot	real
Neon64	glm_vec4_norm2	real
Neon64	glm_vec4_norm	real
Neon64	glm_vec4_norm_one	real
Neon64	glm_vec4_norm_inf	order
Neon64	glm_vec4_add	exact
Neon64	glm_vec4_adds	exact
Neon64	glm_vec4_sub	exact
Neon64	glm_vec4_subs	exact
Neon64	glm_vec4_mul	exact
Neon64	glm_vec4_scale	exact
Neon64	glm_vec4_scale_as	real
Neon64	glm_vec4_div	exact
Neon64	glm_vec4_divs	real
Neon64	glm_vec4_addadd	exact
Neon64	glm_vec4_subadd	exact
Neon64	glm_vec4_muladd	real
Neon64	glm_vec4_muladds	real
Neon64	glm_vec4_maxadd	order
Neon64	glm_vec4_minadd	order
Neon64	glm_vec4_subsub	exact
Neon64	glm_vec4_addsub	exact
Neon64	glm_vec4_mulsub	real
Neon64	glm_vec4_mulsubs	real
Neon64	glm_vec4_maxsub	order
Neon64	glm_vec4_minsub	order
Neon64	glm_vec4_negate_to	exact
Neon64	glm_vec4_negate	exact
Neon64	glm_vec4_normalize_to	real
Neon64	glm_vec4_normalize	real
Neon64	glm_vec4_distance	real
Neon64	glm_vec4_distance2	real
Neon64	glm_vec4_maxv	order
Neon64	glm_vec4_minv	order
Neon64	glm_vec4_clamp	order
Neon64	glm_vec4_lerp	exact
Neon64	glm_vec4_lerpc	exact
Neon64	glm_vec4_mix	exact
Neon64	glm_vec4_mixc	exact
Neon64	glm_vec4_smoothinterp	exact
Neon64	glm_vec4_smoothinterpc	exact
Neon64	glm_vec4_reflect	real
Neon64	glm_vec4_refract	real
Neon64	glm_vec3_rotate_m4	real
Neon64	glm_vec3_rotate_m3	real
Neon64	glm_mat4_scale_neon	exact
Neon64	glm_mat4_transp_neon	exact
Neon64	glm_mat4_mul_neon	real
Neon64	glm_mat4_mulv_neon	exact
Neon64	glm_mat4_det_neon	real
Neon64	glm_mat4_inv_neon	real
Neon64	glm_mat4_copy	exact
Neon64	glm_mat4_identity	exact
Neon64	glm_mat4_zero	exact
Neon64	glm_mat4_mul	real
Neon64	glm_mat4_mulv	exact
Neon64	glm_mat4_mulv3	exact
Neon64	glm_mat4_transpose_to	exact
Neon64	glm_mat4_transpose	exact
Neon64	glm_mat4_scale	exact
Neon64	glm_mat4_det	real
Neon64	glm_mat4_inv	real
Neon64	glm_mat4_inv_fast	real
Neon64	glm_mat4_rmc	real
Neon64	glm_mat4_textrans	exact
Neon64	glm_mat2_mul_neon	real
Neon64	glm_mat2_mul	real
Neon64	glm_mat2_scale	exact
Neon64	glm_mul_neon	real
Neon64	glm_mul_rot_neon	real
Neon64	glm_inv_tr_neon	-
Neon64	glm_mul	real
Neon64	glm_mul_rot	real
Neon64	glm_inv_tr	-
Neon64	glm_translate_make	exact
Neon64	glm_scale_to	exact
Neon64	glm_scale_make	exact
Neon64	glm_scale	exact
Neon64	glm_scale_uni	exact
Neon64	glm_decompose_rs	exact
Neon64	glm_decompose	exact
Neon64	glm_translate	real
Neon64	glm_translate_to	real
Neon64	glm_translate_x	real
Neon64	glm_translate_y	real
Neon64	glm_translate_z	real
Neon64	glm_rotate_x	real
Neon64	glm_rotate_y	real
Neon64	glm_rotate_z	real
Neon64	glm_rotate	real
Neon64	glm_rotate_at	real
Neon64	glm_rotate_atm	real
Neon64	glm_spin	real
Neon64	glm_translated_to	exact
Neon64	glm_rotated_x	real
Neon64	glm_rotated_y	real
Neon64	glm_rotated_z	real
Neon64	glm_rotated	real
Neon64	glm_rotated_at	real
Neon64	glm_spinned	real
Neon64	glm_plane_normalize	exact
Neon64	glm_ortho_lh_zo	exact
Neon64	glm_ortho_aabb_lh_zo	exact
Neon64	glm_ortho_aabb_p_lh_zo	exact
Neon64	glm_ortho_aabb_pz_lh_zo	exact
Neon64	glm_ortho_default_lh_zo	exact
Neon64	glm_ortho_default_s_lh_zo	exact
Neon64	glm_frustum_lh_zo	exact
Neon64	glm_perspective_lh_zo	exact
Neon64	glm_perspective_default_lh_zo	exact
Neon64	glm_ortho_lh_no	exact
Neon64	glm_ortho_aabb_lh_no	exact
Neon64	glm_ortho_aabb_p_lh_no	exact
Neon64	glm_ortho_aabb_pz_lh_no	exact
Neon64	glm_ortho_default_lh_no	exact
Neon64	glm_ortho_default_s_lh_no	exact
Neon64	glm_frustum_lh_no	exact
Neon64	glm_perspective_lh_no	exact
Neon64	glm_perspective_default_lh_no	exact
Neon64	glm_ortho_rh_zo	exact
Neon64	glm_ortho_aabb_rh_zo	exact
Neon64	glm_ortho_aabb_p_rh_zo	exact
Neon64	glm_ortho_aabb_pz_rh_zo	exact
Neon64	glm_ortho_default_rh_zo	exact
Neon64	glm_ortho_default_s_rh_zo	exact
Neon64	glm_frustum_rh_zo	exact
Neon64	glm_perspective_rh_zo	exact
Neon64	glm_perspective_default_rh_zo	exact
Neon64	glm_ortho_rh_no	exact
Neon64	glm_ortho_aabb_rh_no	exact
Neon64	glm_ortho_aabb_p_rh_no	exact
Neon64	glm_ortho_aabb_pz_rh_no	exact
Neon64	glm_ortho_default_rh_no	exact
Neon64	glm_ortho_default_s_rh_no	exact
Neon64	glm_frustum_rh_no	exact
Neon64	glm_perspective_rh_no	exact
Neon64	glm_perspective_default_rh_no	exact
Neon64	glm_frustum	exact
Neon64	glm_ortho	exact
Neon64	glm_ortho_aabb	exact
Neon64	glm_ortho_aabb_p	exact
Neon64	glm_ortho_aabb_pz	exact
Neon64	glm_ortho_default	exact
Neon64	glm_ortho_default_s	exact
Neon64	glm_perspective	exact
Neon64	glm_perspective_default	exact
Neon64	glm_frustum_planes	exact
Neon64	glm_frustum_corners	exact
Neon64	glm_frustum_center	exact
Neon64	glm_frustum_box	exact
Neon64	glm_frustum_corners_at	real
Neon64	glm_quat_mul_neon	real
Neon64	glm_quat_norm	real
Neon64	glm_quat_normalize_to	real
Neon64	glm_quat_normalize	real
Neon64	glm_quat_dot	real
Neon64	glm_quat_conjugate	exact
Neon64	glm_quat_inv	real
Neon64	glm_quat_add	exact
Neon64	glm_quat_sub	exact
Neon64	glm_quat_mul	real
Neon64	glm_quat_mat4	real
Neon64	glm_quat_mat4t	real
Neon64	glm_quat_mat3	real
Neon64	glm_quat_mat3t	real
Neon64	glm_quat_lerp	exact
Neon64	glm_quat_lerpc	exact
Neon64	glm_quat_nlerp	real
Neon64	glm_quat_slerp	real
Neon64	glm_quat_slerp_longest	real
Neon64	glm_quat_look	real
Neon64	glm_quat_rotatev	real
Neon64	glm_quat_rotate	real
Neon64	glm_quat_rotate_at	real
Neon64	glm_quat_rotate_atm	real
Neon64	glm_perlin_vec4	real
Neon64	glm_perlin_vec3	exact
Neon64	glm_perlin_vec2	real
Neon64	glm_unprojecti_zo	exact
Neon64	glm_project_zo	exact
Neon64	glm_unprojecti_no	exact
Neon64	glm_project_no	exact
Neon64	glm_unprojecti	exact
Neon64	glm_unproject	real
Neon64	glm_project	exact
Neon64	glm_pickmatrix	exact
Neon64	glm_sphere_transform	exact
Neon64	glm_smc	real
Neon64	glm_quat_from_vecs	real
Neon32	glmm_abs	exact
Neon32	glmm_min	order
Neon32	glmm_max	order
Neon32	glmm_vhadd	real
Neon32	glmm_hadd	real
Neon32	glmm_hmin	order
Neon32	glmm_hmax	order
Neon32	glmm_dot	real
Neon32	glmm_vdot	real
Neon32	glmm_norm	real
Neon32	glmm_norm2	real
Neon32	glmm_norm_one	real
Neon32	glmm_norm_inf	order
Neon32	glmm_div	-
Neon32	glmm_fmadd	comm
Neon32	glmm_fnmadd	exact
Neon32	glmm_fmsub	real
Neon32	glmm_fnmsub	real
Neon32	glm_vec4_abs	exact
Neon32	glm_vec4_zero	exact
Neon32	glm_vec4_one	exact
Neon32	glm_vec4_dot	real
Neon32	glm_vec4_norm2	real
Neon32	glm_vec4_norm	real
Neon32	glm_vec4_norm_one	real
Neon32	glm_vec4_norm_inf	order
Neon32	glm_vec4_add	exact
Neon32	glm_vec4_adds	exact
Neon32	glm_vec4_sub	exact
Neon32	glm_vec4_subs	exact
Neon32	glm_vec4_mul	exact
Neon32	glm_vec4_scale	exact
Neon32	glm_vec4_scale_as	real
Neon32	glm_vec4_div	-
Neon32	glm_vec4_divs	-
Neon32	glm_vec4_addadd	exact
Neon32	glm_vec4_subadd	exact
Neon32	glm_vec4_muladd	exact
Neon32	glm_vec4_muladds	exact
Neon32	glm_vec4_maxadd	order
Neon32	glm_vec4_minadd	order
Neon32	glm_vec4_subsub	exact
Neon32	glm_vec4_addsub	exact
Neon32	glm_vec4_mulsub	exact
Neon32	glm_vec4_mulsubs	exact
Neon32	glm_vec4_maxsub	order
Neon32	glm_vec4_minsub	order
Neon32	glm_vec4_negate_to	exact
Neon32	glm_vec4_negate	exact
Neon32	glm_vec4_normalize_to	real
Neon32	glm_vec4_normalize	real
Neon32	glm_vec4_distance	real
Neon32	glm_vec4_distance2	real
Neon32	glm_vec4_maxv	order
Neon32	glm_vec4_minv	order
Neon32	glm_vec4_clamp	order
Neon32	glm_vec4_lerp	exact
Neon32	glm_vec4_lerpc	exact
Neon32	glm_vec4_mix	exact
Neon32	glm_vec4_mixc	exact
Neon32	glm_vec4_smoothinterp	exact
Neon32	glm_vec4_smoothinterpc	exact
Neon32	glm_vec4_reflect	real
Neon32	glm_vec4_refract	real
Neon32	glm_vec3_rotate_m4	real
Neon32	glm_vec3_rotate_m3	real
Neon32	glm_mat4_scale_neon	exact
Neon32	glm_mat4_transp_neon	exact
Neon32	glm_mat4_mul_neon	comm
Neon32	glm_mat4_mulv_neon	exact
Neon32	glm_mat4_det_neon	real
Neon32	glm_mat4_inv_neon	-
Neon32	glm_mat4_copy	exact
Neon32	glm_mat4_identity	exact
Neon32	glm_mat4_zero	exact
Neon32	glm_mat4_mul	comm
Neon32	glm_mat4_mulv	exact
Neon32	glm_mat4_mulv3	exact
Neon32	glm_mat4_transpose_to	exact
Neon32	glm_mat4_transpose	exact
Neon32	glm_mat4_scale	exact
Neon32	glm_mat4_det	real
Neon32	glm_mat4_inv	-
Neon32	glm_mat4_inv_fast	-
Neon32	glm_mat4_rmc	real
Neon32	glm_mat4_textrans	exact
Neon32	glm_mat2_mul_neon	comm
Neon32	glm_mat2_mul	comm
Neon32	glm_mat2_scale	exact
Neon32	glm_mul_neon	comm
Neon32	glm_mul_rot_neon	comm
Neon32	glm_inv_tr_neon	-
Neon32	glm_mul	comm
Neon32	glm_mul_rot	comm
Neon32	glm_inv_tr	-
Neon32	glm_translate_make	exact
Neon32	glm_scale_to	exact
Neon32	glm_scale_make	exact
Neon32	glm_scale	exact
Neon32	glm_scale_uni	exact
Neon32	glm_decompose_rs	exact
Neon32	glm_decompose	exact
Neon32	glm_translate	real
Neon32	glm_translate_to	real
Neon32	glm_translate_x	comm
Neon32	glm_translate_y	comm
Neon32	glm_translate_z	comm
Neon32	glm_rotate_x	comm
Neon32	glm_rotate_y	comm
Neon32	glm_rotate_z	comm
Neon32	glm_rotate	comm
Neon32	glm_rotate_at	real
Neon32	glm_rotate_atm	real
Neon32	glm_spin	real
Neon32	glm_translated_to	exact
Neon32	glm_rotated_x	comm
Neon32	glm_rotated_y	comm
Neon32	glm_rotated_z	comm
Neon32	glm_rotated	comm
Neon32	glm_rotated_at	comm
Neon32	glm_spinned	real
Neon32	glm_plane_normalize	exact
Neon32	glm_ortho_lh_zo	exact
Neon32	glm_ortho_aabb_lh_zo	exact
Neon32	glm_ortho_aabb_p_lh_zo	exact
Neon32	glm_ortho_aabb_pz_lh_zo	exact
Neon32	glm_ortho_default_lh_zo	exact
Neon32	glm_ortho_default_s_lh_zo	exact
Neon32	glm_frustum_lh_zo	exact
Neon32	glm_perspective_lh_zo	exact
Neon32	glm_perspective_default_lh_zo	exact
Neon32	glm_ortho_lh_no	exact
Neon32	glm_ortho_aabb_lh_no	exact
Neon32	glm_ortho_aabb_p_lh_no	exact
Neon32	glm_ortho_aabb_pz_lh_no	exact
Neon32	glm_ortho_default_lh_no	exact
Neon32	glm_ortho_default_s_lh_no	exact
Neon32	glm_frustum_lh_no	exact
Neon32	glm_perspective_lh_no	exact
Neon32	glm_perspective_default_lh_no	exact
Neon32	glm_ortho_rh_zo	exact
Neon32	glm_ortho_aabb_rh_zo	exact
Neon32	glm_ortho_aabb_p_rh_zo	exact
Neon32	glm_ortho_aabb_pz_rh_zo	exact
Neon32	glm_ortho_default_rh_zo	exact
Neon32	glm_ortho_default_s_rh_zo	exact
Neon32	glm_frustum_rh_zo	exact
Neon32	glm_perspective_rh_zo	exact
Neon32	glm_perspective_default_rh_zo	exact
Neon32	glm_ortho_rh_no	exact
Neon32	glm_ortho_aabb_rh_no	exact
Neon32	glm_ortho_aabb_p_rh_no	exact
Neon32	glm_ortho_aabb_pz_rh_no	exact
Neon32	glm_ortho_default_rh_no	exact
Neon32	glm_ortho_default_s_rh_no	exact
Neon32	glm_frustum_rh_no	exact
Neon32	glm_perspective_rh_no	exact
Neon32	glm_perspective_default_rh_no	exact
Neon32	glm_frustum	exact
Neon32	glm_ortho	exact
Neon32	glm_ortho_aabb	exact
Neon32	glm_ortho_aabb_p	exact
Neon32	glm_ortho_aabb_pz	exact
Neon32	glm_ortho_default	exact
Neon32	glm_ortho_default_s	exact
Neon32	glm_perspective	exact
Neon32	glm_perspective_default	exact
Neon32	glm_frustum_planes	exact
Neon32	glm_frustum_corners	exact
Neon32	glm_frustum_center	exact
Neon32	glm_frustum_box	exact
Neon32	glm_frustum_corners_at	real
Neon32	glm_quat_mul_neon	real
Neon32	glm_quat_norm	real
Neon32	glm_quat_normalize_to	real
Neon32	glm_quat_normalize	real
Neon32	glm_quat_dot	real
Neon32	glm_quat_conjugate	exact
Neon32	glm_quat_inv	real
Neon32	glm_quat_add	exact
Neon32	glm_quat_sub	exact
Neon32	glm_quat_mul	real
Neon32	glm_quat_mat4	real
Neon32	glm_quat_mat4t	real
Neon32	glm_quat_mat3	real
Neon32	glm_quat_mat3t	real
Neon32	glm_quat_lerp	exact
Neon32	glm_quat_lerpc	exact
Neon32	glm_quat_nlerp	real
Neon32	glm_quat_slerp	real
Neon32	glm_quat_slerp_longest	real
Neon32	glm_quat_look	real
Neon32	glm_quat_rotatev	real
Neon32	glm_quat_rotate	real
Neon32	glm_quat_rotate_at	real
Neon32	glm_quat_rotate_atm	real
Neon32	glm_perlin_vec4	-
Neon32	glm_perlin_vec3	exact
Neon32	glm_perlin_vec2	-
Neon32	glm_unprojecti_zo	exact
Neon32	glm_project_zo	exact
Neon32	glm_unprojecti_no	exact
Neon32	glm_project_no	exact
Neon32	glm_unprojecti	exact
Neon32	glm_unproject	-
Neon32	glm_project	exact
Neon32	glm_pickmatrix	exact
Neon32	glm_sphere_transform	exact
Neon32	glm_smc	real
Neon32	glm_quat_from_vecs	real
Wasm	glmm_abs	exact
Wasm	glmm_min	exact
Wasm	glmm_max	exact
Wasm	glmm_vhadd	real
Wasm	glmm_vhadds	real
Wasm	glmm_hadd	real
Wasm	glmm_vhmin	order
Wasm	glmm_hmin	order
Wasm	glmm_vhmax	order
Wasm	glmm_hmax	order
Wasm	glmm_vdots	real
Wasm	glmm_vdot	real
Wasm	glmm_dot	real
Wasm	glmm_norm	real
Wasm	glmm_norm2	real
Wasm	glmm_norm_one	real
Wasm	glmm_norm_inf	order
Wasm	glmm_load3	exact
Wasm	glmm_store3	exact
Wasm	glmm_div	exact
Wasm	glmm_fmadd	comm
Wasm	glmm_fnmadd	exact
Wasm	glmm_fmsub	exact
Wasm	glmm_fnmsub	real
Wasm	glm_vec4_broadcast	exact
Wasm	glm_vec4_fill	exact
Wasm	glm_vec4_abs	exact
Wasm	glm_vec4_hadd	real
Wasm	glm_vec4_sqrt	exact
Wasm	glm_vec4_zero	exact
Wasm	glm_vec4_one	exact
Wasm	glm_vec4_dot	real
Wasm	glm_vec4_norm2	real
Wasm	glm_vec4_norm	real
Wasm	glm_vec4_norm_one	real
Wasm	glm_vec4_norm_inf	order
Wasm	glm_vec4_add	exact
Wasm	glm_vec4_adds	exact
Wasm	glm_vec4_sub	exact
Wasm	glm_vec4_subs	exact
Wasm	glm_vec4_mul	exact
Wasm	glm_vec4_scale	exact
Wasm	glm_vec4_scale_as	real
Wasm	glm_vec4_div	exact
Wasm	glm_vec4_divs	real
Wasm	glm_vec4_addadd	exact
Wasm	glm_vec4_subadd	exact
Wasm	glm_vec4_muladd	exact
Wasm	glm_vec4_muladds	exact
Wasm	glm_vec4_maxadd	exact
Wasm	glm_vec4_minadd	exact
Wasm	glm_vec4_subsub	exact
Wasm	glm_vec4_addsub	exact
Wasm	glm_vec4_mulsub	exact
Wasm	glm_vec4_mulsubs	exact
Wasm	glm_vec4_maxsub	exact
Wasm	glm_vec4_minsub	exact
Wasm	glm_vec4_negate_to	exact
Wasm	glm_vec4_negate	exact
Wasm	glm_vec4_normalize_to	-
Wasm	glm_vec4_normalize	-
Wasm	glm_vec4_distance	real
Wasm	glm_vec4_distance2	real
Wasm	glm_vec4_maxv	exact
Wasm	glm_vec4_minv	exact
Wasm	glm_vec4_clamp	real
Wasm	glm_vec4_lerp	exact
Wasm	glm_vec4_lerpc	exact
Wasm	glm_vec4_mix	exact
Wasm	glm_vec4_mixc	exact
Wasm	glm_vec4_smoothinterp	exact
Wasm	glm_vec4_smoothinterpc	exact
Wasm	glm_vec4_reflect	real
Wasm	glm_vec4_refract	real
Wasm	glm_vec3_rotate_m4	-
Wasm	glm_vec3_rotate_m3	-
Wasm	glm_mat4_scale_wasm	exact
Wasm	glm_mat4_transp_wasm	exact
Wasm	glm_mat4_mul_wasm	comm
Wasm	glm_mat4_mulv_wasm	real
Wasm	glm_mat4_det_wasm	real
Wasm	glm_mat4_inv_fast_wasm	real
Wasm	glm_mat4_inv_wasm	real
Wasm	glm_mat4_copy	exact
Wasm	glm_mat4_identity	exact
Wasm	glm_mat4_zero	exact
Wasm	glm_mat4_mul	comm
Wasm	glm_mat4_mulv	real
Wasm	glm_mat4_mulv3	real
Wasm	glm_mat4_transpose_to	exact
Wasm	glm_mat4_transpose	exact
Wasm	glm_mat4_scale	exact
Wasm	glm_mat4_det	real
Wasm	glm_mat4_inv	real
Wasm	glm_mat4_inv_fast	real
Wasm	glm_mat4_rmc	real
Wasm	glm_mat4_textrans	exact
Wasm	glm_mat3_mul_wasm	real
Wasm	glm_mat3_mul	real
Wasm	glm_mat2_mul_wasm	comm
Wasm	glm_mat2_transp_wasm	exact
Wasm	glm_mat2_mul	comm
Wasm	glm_mat2_transpose_to	exact
Wasm	glm_mat2_scale	exact
Wasm	glm_mul_wasm	comm
Wasm	glm_mul_rot_wasm	comm
Wasm	glm_inv_tr_wasm	-
Wasm	glm_mul	comm
Wasm	glm_mul_rot	comm
Wasm	glm_inv_tr	-
Wasm	glm_translate_make	exact
Wasm	glm_scale_to	exact
Wasm	glm_scale_make	exact
Wasm	glm_scale	exact
Wasm	glm_scale_uni	exact
Wasm	glm_decompose_rs	exact
Wasm	glm_decompose	exact
Wasm	glm_translate	real
Wasm	glm_translate_to	real
Wasm	glm_translate_x	comm
Wasm	glm_translate_y	comm
Wasm	glm_translate_z	comm
Wasm	glm_rotate_x	comm
Wasm	glm_rotate_y	comm
Wasm	glm_rotate_z	comm
Wasm	glm_rotate	comm
Wasm	glm_rotate_at	real
Wasm	glm_rotate_atm	real
Wasm	glm_spin	real
Wasm	glm_translated_to	exact
Wasm	glm_rotated_x	comm
Wasm	glm_rotated_y	comm
Wasm	glm_rotated_z	comm
Wasm	glm_rotated	comm
Wasm	glm_rotated_at	comm
Wasm	glm_spinned	real
Wasm	glm_plane_normalize	exact
Wasm	glm_ortho_lh_zo	exact
Wasm	glm_ortho_aabb_lh_zo	exact
Wasm	glm_ortho_aabb_p_lh_zo	exact
Wasm	glm_ortho_aabb_pz_lh_zo	exact
Wasm	glm_ortho_default_lh_zo	exact
Wasm	glm_ortho_default_s_lh_zo	exact
Wasm	glm_frustum_lh_zo	exact
Wasm	glm_perspective_lh_zo	exact
Wasm	glm_perspective_default_lh_zo	exact
Wasm	glm_ortho_lh_no	exact
Wasm	glm_ortho_aabb_lh_no	exact
Wasm	glm_ortho_aabb_p_lh_no	exact
Wasm	glm_ortho_aabb_pz_lh_no	exact
Wasm	glm_ortho_default_lh_no	exact
Wasm	glm_ortho_default_s_lh_no	exact
Wasm	glm_frustum_lh_no	exact
Wasm	glm_perspective_lh_no	exact
Wasm	glm_perspective_default_lh_no	exact
Wasm	glm_ortho_rh_zo	exact
Wasm	glm_ortho_aabb_rh_zo	exact
Wasm	glm_ortho_aabb_p_rh_zo	exact
Wasm	glm_ortho_aabb_pz_rh_zo	exact
Wasm	glm_ortho_default_rh_zo	exact
Wasm	glm_ortho_default_s_rh_zo	exact
Wasm	glm_frustum_rh_zo	exact
Wasm	glm_perspective_rh_zo	exact
Wasm	glm_perspective_default_rh_zo	exact
Wasm	glm_ortho_rh_no	exact
Wasm	glm_ortho_aabb_rh_no	exact
Wasm	glm_ortho_aabb_p_rh_no	exact
Wasm	glm_ortho_aabb_pz_rh_no	exact
Wasm	glm_ortho_default_rh_no	exact
Wasm	glm_ortho_default_s_rh_no	exact
Wasm	glm_frustum_rh_no	exact
Wasm	glm_perspective_rh_no	exact
Wasm	glm_perspective_default_rh_no	exact
Wasm	glm_frustum	exact
Wasm	glm_ortho	exact
Wasm	glm_ortho_aabb	exact
Wasm	glm_ortho_aabb_p	exact
Wasm	glm_ortho_aabb_pz	exact
Wasm	glm_ortho_default	exact
Wasm	glm_ortho_default_s	exact
Wasm	glm_perspective	exact
Wasm	glm_perspective_default	exact
Wasm	glm_frustum_planes	exact
Wasm	glm_frustum_corners	real
Wasm	glm_frustum_center	exact
Wasm	glm_frustum_box	real
Wasm	glm_frustum_corners_at	real
Wasm	glm_quat_mul_wasm	real
Wasm	glm_quat_norm	real
Wasm	glm_quat_normalize_to	nf
Wasm	glm_quat_normalize	nf
Wasm	glm_quat_dot	real
Wasm	glm_quat_conjugate	exact
Wasm	glm_quat_inv	real
Wasm	glm_quat_add	exact
Wasm	glm_quat_sub	exact
Wasm	glm_quat_mul	real
Wasm	glm_quat_mat4	real
Wasm	glm_quat_mat4t	real
Wasm	glm_quat_mat3	real
Wasm	glm_quat_mat3t	real
Wasm	glm_quat_lerp	exact
Wasm	glm_quat_lerpc	exact
Wasm	glm_quat_nlerp	real
Wasm	glm_quat_slerp	real
Wasm	glm_quat_slerp_longest	real
Wasm	glm_quat_look	real
Wasm	glm_quat_rotatev	nf
Wasm	glm_quat_rotate	real
Wasm	glm_quat_rotate_at	real
Wasm	glm_quat_rotate_atm	real
Wasm	glm_perlin_vec4	real
Wasm	glm_perlin_vec3	exact
Wasm	glm_perlin_vec2	real
Wasm	glm_unprojecti_zo	real
Wasm	glm_project_zo	real
Wasm	glm_unprojecti_no	real
Wasm	glm_project_no	real
Wasm	glm_unprojecti	real
Wasm	glm_unproject	real
Wasm	glm_project	real
Wasm	glm_pickmatrix	exact
Wasm	glm_sphere_transform	real
Wasm	glm_smc	real
Wasm	glm_quat_from_vecs	nf
