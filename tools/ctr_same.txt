glm_aabb2d_aabb
glm_aabb2d_center
glm_aabb2d_contains
glm_aabb2d_crop
glm_aabb2d_crop_until
glm_aabb2d_isvalid
glm_aabb2d_merge
glm_aabb2d_point
glm_aabb2d_sizev
glm_aabb_aabb
glm_aabb_center
glm_aabb_contains
glm_aabb_crop
glm_aabb_crop_until
glm_aabb_isvalid
glm_aabb_merge
glm_aabb_point
glm_clamp
glm_clamp_zo
glm_deg
glm_ease_circ_out
glm_ease_cubic_in
glm_ease_elast_in
glm_ease_exp_in
glm_ease_linear
glm_ease_quad_in
glm_ease_quad_out
glm_ease_quart_in
glm_ease_quint_in
glm_ease_sine_in
glm_ease_sine_inout
glm_ease_sine_out
glm_eq
glm_euler_angles
glm_frustum
glm_frustum_lh_no
glm_frustum_lh_zo
glm_frustum_rh_no
glm_frustum_rh_zo
glm_make_deg
glm_make_rad
glm_mat2_scale
glm_mat2_trace
glm_mat2x3_scale
glm_mat2x4_scale
glm_mat3_quat
glm_mat3_scale
glm_mat3_textrans
glm_mat3_trace
glm_mat3x2_scale
glm_mat3x4_scale
glm_mat4_quat
glm_mat4_scale
glm_mat4_scale_p
glm_mat4_textrans
glm_mat4_trace
glm_mat4_trace3
glm_mat4x2_scale
glm_mat4x3_scale
glm_max
glm_min
glm_ortho
glm_ortho_aabb
glm_ortho_aabb_lh_no
glm_ortho_aabb_lh_zo
glm_ortho_aabb_p
glm_ortho_aabb_p_lh_no
glm_ortho_aabb_p_lh_zo
glm_ortho_aabb_p_rh_no
glm_ortho_aabb_p_rh_zo
glm_ortho_aabb_pz
glm_ortho_aabb_pz_lh_no
glm_ortho_aabb_pz_lh_zo
glm_ortho_aabb_pz_rh_no
glm_ortho_aabb_pz_rh_zo
glm_ortho_aabb_rh_no
glm_ortho_aabb_rh_zo
glm_ortho_default
glm_ortho_default_lh_no
glm_ortho_default_lh_zo
glm_ortho_default_rh_no
glm_ortho_default_rh_zo
glm_ortho_lh_no
glm_ortho_lh_zo
glm_ortho_rh_no
glm_ortho_rh_zo
glm_percent
glm_percentc
glm_persp_aspect
glm_persp_aspect_lh_no
glm_persp_aspect_lh_zo
glm_persp_aspect_rh_no
glm_persp_aspect_rh_zo
glm_persp_decomp_far
glm_persp_decomp_far_lh_no
glm_persp_decomp_far_lh_zo
glm_persp_decomp_far_rh_no
glm_persp_decomp_far_rh_zo
glm_persp_decomp_near
glm_persp_decomp_near_lh_no
glm_persp_decomp_near_lh_zo
glm_persp_decomp_near_rh_no
glm_persp_decomp_near_rh_zo
glm_persp_fovy
glm_persp_fovy_lh_no
glm_persp_fovy_lh_zo
glm_persp_fovy_rh_no
glm_persp_fovy_rh_zo
glm_persp_move_far
glm_persp_move_far_lh_no
glm_persp_move_far_lh_zo
glm_persp_move_far_rh_no
glm_persp_move_far_rh_zo
glm_persp_sizes
glm_persp_sizes_lh_no
glm_persp_sizes_lh_zo
glm_persp_sizes_rh_no
glm_persp_sizes_rh_zo
glm_perspective
glm_perspective_default
glm_perspective_default_lh_no
glm_perspective_default_lh_zo
glm_perspective_default_rh_no
glm_perspective_default_rh_zo
glm_perspective_lh_no
glm_perspective_lh_zo
glm_perspective_resize
glm_perspective_resize_lh_no
glm_perspective_resize_lh_zo
glm_perspective_resize_rh_no
glm_perspective_resize_rh_zo
glm_perspective_rh_no
glm_perspective_rh_zo
glm_pow2
glm_quat_add
glm_quat_conjugate
glm_quat_sub
glm_rad
glm_scale
glm_scale2d
glm_scale2d_to
glm_scale2d_uni
glm_scale_to
glm_scale_uni
glm_scaled2d
glm_scaled2d_uni
glm_signf
glm_sphere_radii
glm_step
glm_translated
glm_translated2d
glm_translated2d_x
glm_translated2d_y
glm_translated_to
glm_translated_x
glm_translated_y
glm_translated_z
glm_vec2_abs
glm_vec2_add
glm_vec2_addadd
glm_vec2_adds
glm_vec2_addsub
glm_vec2_center
glm_vec2_clamp
glm_vec2_complex_conjugate
glm_vec2_div
glm_vec2_divs
glm_vec2_eq
glm_vec2_eq_all
glm_vec2_eq_eps
glm_vec2_eqv
glm_vec2_eqv_eps
glm_vec2_floor
glm_vec2_fract
glm_vec2_isinf
glm_vec2_isnan
glm_vec2_isvalid
glm_vec2_max
glm_vec2_maxadd
glm_vec2_maxsub
glm_vec2_maxv
glm_vec2_min
glm_vec2_minadd
glm_vec2_minsub
glm_vec2_minv
glm_vec2_mods
glm_vec2_mul
glm_vec2_negate
glm_vec2_negate_to
glm_vec2_scale
glm_vec2_sign
glm_vec2_sqrt
glm_vec2_step
glm_vec2_stepr
glm_vec2_steps
glm_vec2_sub
glm_vec2_subadd
glm_vec2_subs
glm_vec2_subsub
glm_vec3_abs
glm_vec3_add
glm_vec3_addadd
glm_vec3_adds
glm_vec3_addsub
glm_vec3_center
glm_vec3_clamp
glm_vec3_div
glm_vec3_divs
glm_vec3_eq
glm_vec3_eq_all
glm_vec3_eq_eps
glm_vec3_eqv
glm_vec3_eqv_eps
glm_vec3_floor
glm_vec3_fract
glm_vec3_hadd
glm_vec3_isinf
glm_vec3_isnan
glm_vec3_isvalid
glm_vec3_max
glm_vec3_maxadd
glm_vec3_maxsub
glm_vec3_maxv
glm_vec3_min
glm_vec3_minadd
glm_vec3_minsub
glm_vec3_minv
glm_vec3_mods
glm_vec3_mul
glm_vec3_negate
glm_vec3_negate_to
glm_vec3_norm_inf
glm_vec3_norm_one
glm_vec3_scale
glm_vec3_sign
glm_vec3_sqrt
glm_vec3_step
glm_vec3_stepr
glm_vec3_steps
glm_vec3_sub
glm_vec3_subadd
glm_vec3_subs
glm_vec3_subsub
glm_vec4_abs
glm_vec4_add
glm_vec4_addadd
glm_vec4_adds
glm_vec4_addsub
glm_vec4_clamp
glm_vec4_cubic
glm_vec4_div
glm_vec4_divs
glm_vec4_eq
glm_vec4_eq_all
glm_vec4_eq_eps
glm_vec4_eqv
glm_vec4_eqv_eps
glm_vec4_floor
glm_vec4_fract
glm_vec4_hadd
glm_vec4_isinf
glm_vec4_isnan
glm_vec4_isvalid
glm_vec4_max
glm_vec4_maxadd
glm_vec4_maxsub
glm_vec4_maxv
glm_vec4_min
glm_vec4_minadd
glm_vec4_minsub
glm_vec4_minv
glm_vec4_mods
glm_vec4_mul
glm_vec4_negate
glm_vec4_negate_to
glm_vec4_norm_inf
glm_vec4_norm_one
glm_vec4_scale
glm_vec4_sign
glm_vec4_sqrt
glm_vec4_step
glm_vec4_stepr
glm_vec4_steps
glm_vec4_sub
glm_vec4_subadd
glm_vec4_subs
glm_vec4_subsub
