glm_vec4_copy3	0	3
glm_vec3	0	3
glm_vec3_rotate_m4	0	12,13,14,15
glm_mat4_pick3	0	3,7,11,12,13,14,15
glm_mat4_pick3t	0	3,7,11,12,13,14,15
glm_mat4_ins3	1	0,1,2,4,5,6,8,9,10
glm_mat4_trace	0	1,2,3,4,6,7,8,9,11,12,13,14
glm_mat4_trace3	0	1,2,3,4,6,7,8,9,11,12,13,14,15
glm_mat4_quat	0	3,7,11,12,13,14,15
glm_mat3_trace	0	1,2,3,5,6,7
glm_mat2_trace	0	1,2
glm_quat_real	0	0,1,2
glm_quat_imag	0	3
glm_quat_imagn	0	3
glm_quat_imaglen	0	3
glm_quat_axis	0	3
glm_euler_angles	0	2,3,6,7,11,12,13,14,15
glm_euler_by_order	1	3,7,11,12,13,14,15
glm_mul	1	3,7,11
glm_mul_rot	1	3,7,11,12,13,14,15
glm_decompose_scalev	0	3,7,11,12,13,14,15
glm_uniscaled	0	3,7,11,12,13,14,15
glm_decompose_rs	0	12,13,14,15
glm_rotated_x	0	3,7,11,12,13,14,15
glm_rotated_y	0	3,7,11,12,13,14,15
glm_rotated_z	0	3,7,11,12,13,14,15
glm_rotated	0	3,7,11,12,13,14,15
glm_rotated_at	0	3,7,11,15
glm_persp_fovy	0	0,1,2,3,4,6,7,8,9,10,11,12,13,14,15
glm_persp_aspect	0	1,2,3,4,6,7,8,9,10,11,12,13,14,15
glm_persp_decomp_lh_zo	0	1,2,3,4,6,7,11,12,13,15
glm_persp_decompv_lh_zo	0	1,2,3,4,6,7,11,12,13,15
glm_persp_decomp_x_lh_zo	0	1,2,3,4,5,6,7,9,10,11,12,13
glm_persp_decomp_y_lh_zo	0	0,1,2,3,4,6,7,8,10,11,12,13
glm_persp_decomp_z_lh_zo	0	0,1,2,3,4,5,6,7,8,9,11,12,13,15
glm_persp_decomp_far_lh_zo	0	0,1,2,3,4,5,6,7,8,9,11,12,13,15
glm_persp_decomp_near_lh_zo	0	0,1,2,3,4,5,6,7,8,9,11,12,13,15
glm_persp_sizes_lh_zo	0	1,2,3,4,6,7,8,9,11,12,13,15
glm_persp_fovy_lh_zo	0	0,1,2,3,4,6,7,8,9,10,11,12,13,14,15
glm_persp_aspect_lh_zo	0	1,2,3,4,6,7,8,9,10,11,12,13,14,15
glm_persp_decomp_lh_no	0	1,2,3,4,6,7,11,12,13,15
glm_persp_decompv_lh_no	0	1,2,3,4,6,7,11,12,13,15
glm_persp_decomp_x_lh_no	0	1,2,3,4,5,6,7,9,11,12,13,15
glm_persp_decomp_y_lh_no	0	0,1,2,3,4,6,7,8,11,12,13,15
glm_persp_decomp_z_lh_no	0	0,1,2,3,4,5,6,7,8,9,11,12,13,15
glm_persp_decomp_far_lh_no	0	0,1,2,3,4,5,6,7,8,9,11,12,13,15
glm_persp_decomp_near_lh_no	0	0,1,2,3,4,5,6,7,8,9,11,12,13,15
glm_persp_sizes_lh_no	0	1,2,3,4,6,7,8,9,11,12,13,15
glm_persp_fovy_lh_no	0	0,1,2,3,4,6,7,8,9,10,11,12,13,14,15
glm_persp_aspect_lh_no	0	1,2,3,4,6,7,8,9,10,11,12,13,14,15
glm_persp_decomp_rh_zo	0	1,2,3,4,6,7,11,12,13,15
glm_persp_decompv_rh_zo	0	1,2,3,4,6,7,11,12,13,15
glm_persp_decomp_x_rh_zo	0	1,2,3,4,5,6,7,9,11,12,13,15
glm_persp_decomp_y_rh_zo	0	0,1,2,3,4,6,7,8,11,12,13,15
glm_persp_decomp_z_rh_zo	0	0,1,2,3,4,5,6,7,8,9,11,12,13,15
glm_persp_decomp_far_rh_zo	0	0,1,2,3,4,5,6,7,8,9,11,12,13,15
glm_persp_decomp_near_rh_zo	0	0,1,2,3,4,5,6,7,8,9,11,12,13,15
glm_persp_sizes_rh_zo	0	1,2,3,4,6,7,8,9,11,12,13,15
glm_persp_fovy_rh_zo	0	0,1,2,3,4,6,7,8,9,10,11,12,13,14,15
glm_persp_aspect_rh_zo	0	1,2,3,4,6,7,8,9,10,11,12,13,14,15
glm_persp_decomp_rh_no	0	1,2,3,4,6,7,11,12,13,15
glm_persp_decompv_rh_no	0	1,2,3,4,6,7,11,12,13,15
glm_persp_decomp_x_rh_no	0	1,2,3,4,5,6,7,9,11,12,13,15
glm_persp_decomp_y_rh_no	0	0,1,2,3,4,6,7,8,11,12,13,15
glm_persp_decomp_z_rh_no	0	0,1,2,3,4,5,6,7,8,9,11,12,13,15
glm_persp_decomp_far_rh_no	0	0,1,2,3,4,5,6,7,8,9,11,12,13,15
glm_persp_decomp_near_rh_no	0	0,1,2,3,4,5,6,7,8,9,11,12,13,15
glm_persp_sizes_rh_no	0	1,2,3,4,6,7,8,9,11,12,13,15
glm_persp_fovy_rh_no	0	0,1,2,3,4,6,7,8,9,10,11,12,13,14,15
glm_persp_aspect_rh_no	0	1,2,3,4,6,7,8,9,10,11,12,13,14,15
glm_project_z_zo	1	0,1,4,5,8,9,12,13
glm_project_z_no	1	0,1,4,5,8,9,12,13
glm_persp_decomp	0	1,2,3,4,6,7,11,12,13,15
glm_persp_decompv	0	1,2,3,4,6,7,11,12,13,15
glm_persp_decomp_x	0	1,2,3,4,5,6,7,9,11,12,13,15
glm_persp_decomp_y	0	0,1,2,3,4,6,7,8,11,12,13,15
glm_persp_decomp_z	0	0,1,2,3,4,5,6,7,8,9,11,12,13,15
glm_persp_decomp_far	0	0,1,2,3,4,5,6,7,8,9,11,12,13,15
glm_persp_decomp_near	0	0,1,2,3,4,5,6,7,8,9,11,12,13,15
glm_persp_sizes	0	1,2,3,4,6,7,8,9,11,12,13,15
glm_aabb2d_transform	1	2,5,8
glm_aabb_transform	1	3,7,11,15
glm_project_z	1	0,1,4,5,8,9,12,13
glm_sphere_radii	0	0,1,2
