vec2_sign	[(1, 1)]
vec2_abs	[(1, 0)]
vec2_floor	[(1, 0)]
vec2_mods	[(1, 0)]
vec2_sqrt	[(1, 0)]
vec2_steps	[(1, 1)]
vec2_stepr	[(1, 1)]
vec2_complex_conjugate	[(1, 0)]
vec2	[(1, 0)]
vec2_copy	[(1, 0)]
vec2_add_a	[(1, 0)]
vec2_add_b	[(1, 0)]
vec2_adds	[(1, 0)]
vec2_sub_a	[(1, 0)]
vec2_sub_b	[(1, 0)]
vec2_subs	[(1, 0)]
vec2_mul_a	[(1, 0)]
vec2_mul_b	[(1, 0)]
vec2_scale	[(1, 0)]
vec2_scale_as	[(1, 0)]
vec2_div_a	[(1, 0)]
vec2_divs	[(1, 0)]
vec2_addadd_a	[(1, 0)]
vec2_addadd_b	[(1, 0)]
vec2_subadd_a	[(1, 0)]
vec2_subadd_b	[(1, 0)]
vec2_muladd_a	[(1, 0)]
vec2_muladd_b	[(1, 0)]
vec2_muladds	[(1, 0)]
vec2_maxadd_a	[(1, 2)]
vec2_maxadd_b	[(1, 2)]
vec2_minadd_a	[(1, 0)]
vec2_minadd_b	[(1, 0)]
vec2_subsub_a	[(1, 0)]
vec2_subsub_b	[(1, 0)]
vec2_addsub_a	[(1, 0)]
vec2_addsub_b	[(1, 0)]
vec2_mulsub_a	[(1, 0)]
vec2_mulsub_b	[(1, 0)]
vec2_mulsubs	[(1, 0)]
vec2_maxsub_a	[(1, 2)]
vec2_maxsub_b	[(1, 2)]
vec2_minsub_a	[(1, 0)]
vec2_minsub_b	[(1, 0)]
vec2_negate_to	[(1, 0)]
vec2_normalize_to	[(1, 0)]
vec2_center_a	[(1, 0)]
vec2_center_b	[(1, 0)]
vec2_maxv_a	[(1, 1)]
vec2_maxv_b	[(1, 1)]
vec2_minv_a	[(1, 0)]
vec2_minv_b	[(1, 0)]
vec2_lerp_frm	[(1, 0)]
vec2_step_edge	[(1, 2)]
vec2_step_x	[(1, 1)]
vec2_make	[(1, 0)]
vec2_reflect_v	[(1, 0)]
vec3_sign	[(1, 2), (2, 1)]
vec3_abs	[(1, 0), (2, 0)]
vec3_floor	[(1, 0), (2, 0)]
vec3_mods	[(1, 0), (2, 0)]
vec3_steps	[(1, 1), (2, 1)]
vec3_stepr	[(1, 2), (2, 2)]
vec3_sqrt	[(1, 0), (2, 0)]
vec4_sign	[(1, 1), (2, 1), (3, 1)]
vec4_abs	[(1, 0), (2, 0), (3, 0)]
vec4_floor	[(1, 0), (2, 0), (3, 0)]
vec4_mods	[(1, 0), (2, 0), (3, 0)]
vec4_steps	[(1, 4), (2, 3), (3, 3)]
vec4_stepr	[(1, 4), (2, 3), (3, 3)]
vec4_sqrt	[(1, 0), (2, 0), (3, 0)]
vec4	[(1, 0), (2, 0)]
vec4_copy3	[(2, 0), (3, 0)]
vec4_copy	[(1, 0), (2, 0), (3, 0)]
vec4_ucopy	[(1, 0), (2, 0), (3, 0)]
vec4_add_a	[(1, 0), (2, 0), (3, 0)]
vec4_add_b	[(1, 0), (2, 0), (3, 0)]
vec4_adds	[(1, 0), (2, 0), (3, 0)]
vec4_sub_a	[(1, 0), (2, 0), (3, 0)]
vec4_sub_b	[(1, 0), (2, 0), (3, 0)]
vec4_subs	[(1, 0), (2, 0), (3, 0)]
vec4_mul_a	[(1, 0), (2, 0), (3, 0)]
vec4_mul_b	[(1, 0), (2, 0), (3, 0)]
vec4_scale	[(1, 0), (2, 0), (3, 0)]
vec4_scale_as	[(1, 0), (2, 0), (3, 0)]
vec4_div_a	[(1, 0), (2, 0), (3, 0)]
vec4_div_b	[(1, 0), (2, 0), (3, 0)]
vec4_divs	[(1, 0), (2, 0), (3, 0)]
vec4_addadd_a	[(1, 0), (2, 0), (3, 0)]
vec4_addadd_b	[(1, 0), (2, 0), (3, 0)]
vec4_subadd_a	[(1, 0), (2, 0), (3, 0)]
vec4_subadd_b	[(1, 0), (2, 0), (3, 0)]
vec4_muladd_a	[(1, 0), (2, 0), (3, 0)]
vec4_muladd_b	[(1, 0), (2, 0), (3, 0)]
vec4_muladds	[(1, 0), (2, 0), (3, 0)]
vec4_maxadd_a	[(1, 2), (2, 1), (3, 0)]
vec4_maxadd_b	[(1, 2), (2, 1), (3, 0)]
vec4_minadd_a	[(1, 0), (2, 0), (3, 0)]
vec4_minadd_b	[(1, 0), (2, 0), (3, 0)]
vec4_subsub_a	[(1, 0), (2, 0), (3, 0)]
vec4_subsub_b	[(1, 0), (2, 0), (3, 0)]
vec4_addsub_a	[(1, 0), (2, 0), (3, 0)]
vec4_addsub_b	[(1, 0), (2, 0), (3, 0)]
vec4_mulsub_a	[(1, 0), (2, 0), (3, 0)]
vec4_mulsub_b	[(1, 0), (2, 0), (3, 0)]
vec4_mulsubs	[(1, 0), (2, 0), (3, 0)]
vec4_maxsub_a	[(1, 2), (2, 1), (3, 1)]
vec4_maxsub_b	[(1, 2), (2, 1), (3, 1)]
vec4_minsub_a	[(1, 0), (2, 0), (3, 0)]
vec4_minsub_b	[(1, 0), (2, 0), (3, 0)]
vec4_negate_to	[(1, 0), (2, 0), (3, 0)]
vec4_normalize_to	[(1, 0), (2, 0), (3, 0)]
vec4_maxv_a	[(1, 2), (2, 1), (3, 1)]
vec4_maxv_b	[(1, 2), (2, 1), (3, 1)]
vec4_minv_a	[(1, 0), (2, 0), (3, 0)]
vec4_minv_b	[(1, 0), (2, 0), (3, 0)]
vec4_lerp_frm	[(1, 0), (2, 0), (3, 0)]
vec4_lerpc_frm	[(1, 0), (2, 0), (3, 0)]
vec4_mix_frm	[(1, 0), (2, 0), (3, 0)]
vec4_mixc_frm	[(1, 0), (2, 0), (3, 0)]
vec4_step_edge	[(1, 2), (2, 3), (3, 3)]
vec4_step_x	[(1, 2), (2, 2), (3, 2)]
vec4_smoothstep_uni	[(1, 2), (2, 2), (3, 2)]
vec4_smoothstep_x	[(1, 2), (2, 1), (3, 2)]
vec4_smoothinterp_frm	[(1, 0), (2, 0), (3, 0)]
vec4_smoothinterpc_frm	[(1, 0), (2, 0), (3, 0)]
vec4_make	[(1, 0), (2, 0), (3, 0)]
vec3	[(2, 0), (3, 0)]
vec3_copy	[(1, 0), (2, 0)]
vec3_add_a	[(1, 0), (2, 0)]
vec3_add_b	[(1, 0), (2, 0)]
vec3_adds	[(1, 0), (2, 0)]
vec3_sub_a	[(1, 0), (2, 0)]
vec3_sub_b	[(1, 0), (2, 0)]
vec3_subs	[(1, 0), (2, 0)]
vec3_mul_a	[(1, 0), (2, 0)]
vec3_mul_b	[(1, 0), (2, 0)]
vec3_scale	[(1, 0), (2, 0)]
vec3_scale_as	[(1, 0), (2, 0)]
vec3_div_a	[(1, 0), (2, 0)]
vec3_div_b	[(1, 0), (2, 0)]
vec3_divs	[(1, 0), (2, 0)]
vec3_addadd_a	[(1, 0), (2, 0)]
vec3_addadd_b	[(1, 0), (2, 0)]
vec3_subadd_a	[(1, 0), (2, 0)]
vec3_subadd_b	[(1, 0), (2, 0)]
vec3_muladd_a	[(1, 0), (2, 0)]
vec3_muladd_b	[(1, 0), (2, 0)]
vec3_muladds	[(1, 0), (2, 0)]
vec3_maxadd_a	[(1, 1), (2, 0)]
vec3_maxadd_b	[(1, 1), (2, 0)]
vec3_minadd_a	[(1, 0), (2, 0)]
vec3_minadd_b	[(1, 0), (2, 0)]
vec3_subsub_a	[(1, 0), (2, 0)]
vec3_subsub_b	[(1, 0), (2, 0)]
vec3_addsub_a	[(1, 0), (2, 0)]
vec3_addsub_b	[(1, 0), (2, 0)]
vec3_mulsub_a	[(1, 0), (2, 0)]
vec3_mulsub_b	[(1, 0), (2, 0)]
vec3_mulsubs	[(1, 0), (2, 0)]
vec3_maxsub_a	[(1, 1), (2, 1)]
vec3_maxsub_b	[(1, 1), (2, 1)]
vec3_minsub_a	[(1, 0), (2, 0)]
vec3_minsub_b	[(1, 0), (2, 0)]
vec3_negate_to	[(1, 0), (2, 0)]
vec3_normalize_to	[(1, 0), (2, 0)]
vec3_proj_b	[(1, 0), (2, 0)]
vec3_center_a	[(1, 0), (2, 0)]
vec3_center_b	[(1, 0), (2, 0)]
vec3_maxv_a	[(1, 2), (2, 1)]
vec3_maxv_b	[(1, 2), (2, 1)]
vec3_minv_a	[(1, 0), (2, 0)]
vec3_minv_b	[(1, 0), (2, 0)]
vec3_lerp_frm	[(1, 0), (2, 0)]
vec3_lerpc_frm	[(1, 0), (2, 0)]
vec3_mix_frm	[(1, 0), (2, 0)]
vec3_mixc_frm	[(1, 0), (2, 0)]
vec3_step_edge	[(1, 1), (2, 3)]
vec3_step_x	[(1, 1), (2, 3)]
vec3_smoothstep_uni	[(1, 1), (2, 1)]
vec3_smoothstep_edge0	[(1, 1), (2, 1)]
vec3_smoothstep_edge1	[(1, 1), (2, 1)]
vec3_smoothstep_x	[(1, 1), (2, 3)]
vec3_smoothinterp_frm	[(1, 0), (2, 0)]
vec3_smoothinterpc_frm	[(1, 0), (2, 0)]
normalize_to	[(1, 0), (2, 0)]
vec3_make	[(1, 0), (2, 0)]
vec3_faceforward_n	[(1, 0), (2, 0)]
vec3_reflect_v	[(1, 0), (2, 0)]
mat4_pick3	[(6, 0), (7, 0), (8, 0), (9, 0), (10, 0), (11, 0), (12, 0), (13, 0), (14, 0), (15, 0)]
mat4x2_copy	[(1, 0), (2, 0), (3, 0), (4, 0), (5, 0), (6, 0), (7, 0)]
mat4x2_make	[(1, 0), (2, 0), (3, 0), (4, 0), (5, 0), (6, 0), (7, 0)]
mat4x2_mulv_m	[(1, 0), (3, 0), (5, 0), (7, 0)]
mat4x3_copy	[(1, 0), (2, 0), (3, 0), (4, 0), (5, 0), (6, 0), (7, 0), (8, 0), (9, 0), (10, 0), (11, 0)]
mat4x3_make	[(1, 0), (2, 0), (3, 0), (4, 0), (5, 0), (6, 0), (7, 0), (8, 0), (9, 0), (10, 0), (11, 0)]
mat3_copy	[(1, 0), (2, 0), (3, 0), (4, 0), (5, 0), (6, 0), (7, 0), (8, 0)]
mat3_make	[(1, 0), (2, 0), (3, 0), (4, 0), (5, 0), (6, 0), (7, 0), (8, 0)]
mat3x2_copy	[(1, 0), (2, 0), (3, 0), (4, 0), (5, 0)]
mat3x2_make	[(1, 0), (2, 0), (3, 0), (4, 0), (5, 0)]
mat3x2_mulv_m	[(1, 0), (3, 0), (5, 0)]
mat3x4_make	[(1, 0), (2, 0), (3, 0), (4, 0), (5, 0), (6, 0), (7, 0), (8, 0), (9, 0), (10, 0), (11, 0)]
mat2_make	[(1, 0), (2, 0), (3, 0)]
mat2_copy	[(1, 0), (2, 0), (3, 0)]
mat2x3_copy	[(1, 0), (2, 0), (3, 0), (4, 0), (5, 0)]
mat2x3_make	[(1, 0), (2, 0), (3, 0), (4, 0), (5, 0)]
mat2x3_mulv_m	[(1, 0), (2, 0), (4, 0), (5, 0)]
mat2x4_copy	[(1, 0), (2, 0), (3, 0), (4, 0), (5, 0), (6, 0), (7, 0)]
mat2x4_make	[(1, 0), (2, 0), (3, 0), (4, 0), (5, 0), (6, 0), (7, 0)]
quat_copy	[(1, 0), (2, 0), (3, 0)]
quat_normalize_to	[(1, 0), (2, 0), (3, 0)]
quat_conjugate	[(1, 0), (2, 0), (3, 0)]
quat_add_p	[(1, 0), (2, 0), (3, 0)]
quat_add_q	[(1, 0), (2, 0), (3, 0)]
quat_sub_p	[(1, 0), (2, 0), (3, 0)]
quat_sub_q	[(1, 0), (2, 0), (3, 0)]
quat_imag	[(2, 0), (3, 0)]
quat_imagn	[(2, 0), (3, 0)]
quat_axis	[(2, 0), (3, 0)]
quat_lerp_frm	[(1, 0), (2, 0), (3, 0)]
quat_lerpc_frm	[(1, 0), (2, 0), (3, 0)]
quat_make	[(1, 0), (2, 0), (3, 0)]
aabb2d_copy	[(1, 0), (2, 0), (3, 0)]
aabb2d_merge_aabb1	[(1, 2), (2, 2), (3, 0)]
aabb2d_merge_aabb2	[(1, 2), (2, 2), (3, 0)]
aabb2d_crop_aabb	[(1, 0), (2, 0), (3, 0)]
aabb2d_crop_cropAabb	[(1, 0), (2, 0), (3, 0)]
aabb2d_sizev	[(1, 0), (3, 0)]
aabb2d_center	[(1, 0), (3, 0)]
aabb_merge_box1	[(1, 1), (2, 1), (3, 1), (4, 0), (5, 0)]
aabb_merge_box2	[(1, 1), (2, 1), (3, 1), (4, 0), (5, 0)]
aabb_crop_box	[(1, 0), (2, 0), (3, 0), (4, 0), (5, 0)]
aabb_crop_cropBox	[(1, 0), (2, 0), (3, 0), (4, 0), (5, 0)]
aabb_center	[(1, 0), (2, 0), (4, 0), (5, 0)]
sphere_transform_s	[(1, 0), (2, 0), (3, 0)]
sphere_merge_s1	[(2, 0), (3, 0)]
sphere_merge_s2	[(2, 0), (3, 0)]
ray_at_orig	[(1, 0), (2, 0)]
project_no_vp	[(1, 0), (3, 0)]
aabb2d_crop_until_aabb	[(1, 1), (2, 1), (3, 1)]
aabb2d_crop_until_cropAabb	[(1, 1), (2, 1), (3, 1)]
aabb2d_crop_until_clampAabb	[(1, 2), (2, 1), (3, 0), (4, 0), (5, 0), (6, 0), (7, 0)]
aabb_crop_until_box	[(1, 2), (2, 2), (3, 1), (4, 1), (5, 1)]
aabb_crop_until_cropBox	[(1, 2), (2, 2), (3, 1), (4, 1), (5, 1)]
mat2_mulv_m	[(1, 0), (3, 0)]
mat2_mulv_v	[(1, 0), (2, 0)]
mat2_transpose_to	[(1, 0), (2, 0), (3, 0), (4, 0)]
mat2x3_transpose	[(1, 0), (2, 0), (3, 0), (4, 0), (5, 0), (6, 0), (7, 0)]
mat2x4_transpose	[(1, 0), (2, 0), (3, 0), (4, 0), (5, 0), (6, 0), (7, 0), (8, 0), (9, 0), (10, 0)]
mat3_transpose_to	[(1, 0), (2, 0), (3, 0), (4, 0), (5, 0), (6, 0), (7, 0), (8, 0), (9, 0), (10, 0), (11, 0), (12, 0)]
mat3x2_transpose	[(1, 0), (2, 0), (3, 0), (4, 0), (5, 0), (6, 0), (7, 0)]
mat4_ins3	[(1, 0), (2, 0), (3, 0), (4, 0), (5, 0), (6, 0), (7, 0), (8, 0), (9, 0), (10, 0)]
mat4_pick3t	[(6, 0), (7, 0), (8, 0), (9, 0), (10, 0), (11, 0), (12, 0), (13, 0), (14, 0), (15, 0), (16, 0), (17, 0), (18, 0), (19, 0)]
mat4x2_transpose	[(1, 0), (2, 0), (3, 0), (4, 0), (5, 0), (6, 0), (7, 0), (8, 0), (9, 0), (10, 0)]
quat_mul_q	[(1, 0), (2, 0), (3, 0), (4, 0), (5, 0), (6, 0)]
scale2d	[(1, 0), (2, 0), (3, 0), (4, 0), (5, 0)]
scale2d_make	[(1, 0), (2, 0), (3, 0), (4, 0), (5, 0), (6, 0), (7, 0), (8, 0), (9, 0), (10, 0)]
scale2d_to_m	[(1, 0), (2, 0), (3, 0), (4, 0), (5, 0), (6, 0), (7, 0), (8, 0)]
scale2d_to_v	[(1, 0), (2, 0), (3, 0), (4, 0), (5, 0)]
scaled2d	[(1, 0), (2, 0), (4, 0), (5, 0), (7, 0)]
translate	[(13, 0), (14, 0), (15, 0), (16, 0), (17, 0)]
translate2d	[(7, 0), (8, 0), (9, 0)]
translate2d_make	[(1, 0), (2, 0), (3, 0), (4, 0), (5, 0), (6, 0), (7, 0), (8, 0), (9, 0), (10, 0)]
translate2d_to_m	[(1, 0), (2, 0), (3, 0), (4, 0), (5, 0), (6, 0), (7, 0), (8, 0)]
translated	[(13, 0), (14, 0)]
translated2d	[(7, 0)]
vec4_reflect_v	[(1, 0), (2, 0), (3, 0), (4, 0)]
