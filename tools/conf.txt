glm_aabb2d_crop_until	3	0	0:1,2,3 1:2,3 2:3
glm_aabb2d_crop_until	3	1	0:1,2,3 1:2,3 2:3
glm_aabb2d_crop_until	3	2	0:0,1,2,3 1:0,1,2,3 2:0,1,2,3 3:0,1,2,3
glm_aabb_crop_until	3	0	0:1,2,3,4,5 1:2,3,4,5 2:3,4,5 3:4,5 4:5
glm_aabb_crop_until	3	1	0:1,2,3,4,5 1:2,3,4,5 2:3,4,5 3:4,5 4:5
glm_aabb_crop_until	3	2	0:0,1,2,3,4,5 1:0,1,2,3,4,5 2:0,1,2,3,4,5 3:0,1,2,3,4,5 4:0,1,2,3,4,5 5:0,1,2,3,4,5
glm_decompose	1	0	0:0,1,2,3,4,5,6,7,8,9,10,11,13,14,15 1:0,1,2,3,4,5,6,7,8,9,10,11,14,15 2:0,1,2,3,4,5,6,7,8,9,10,11,15 3:0,1,2,3,4,5,6,7,8,9,10,11
glm_decompose	2	0	0:0,1,2,3,4,5,6,7,8,9,10,11 1:0,1,2,3,4,5,6,7,8,9,10,11 2:0,1,2,3,4,5,6,7,8,9,10,11 3:0,1,2,4,5,6,7,8,9,10,11 4:0,1,2,4,5,6,7,8,9,10,11 5:0,1,2,4,5,6,7,8,9,10,11 6:0,1,2,4,5,6,7,8,9,10,11 7:0,1,2,4,5,6,8,9,10,11 8:0,1,2,4,5,6,8,9,10,11 9:0,1,2,4,5,6,8,9,10,11 10:0,1,2,4,5,6,8,9,10,11 11:0,1,2,4,5,6,8,9,10 12:0,1,2,4,5,6,8,9,10 13:0,1,2,4,5,6,8,9,10 14:0,1,2,4,5,6,8,9,10 15:0,1,2,4,5,6,8,9,10
glm_decompose	3	0	0:0,1,2,4,5,6,8,9,10 1:0,1,2,4,5,6,8,9,10 2:0,1,2,4,5,6,8,9,10
glm_decompose_rs	1	0	0:0,1,2,3,4,5,6,7,8,9,10,11 1:0,1,2,3,4,5,6,7,8,9,10,11 2:0,1,2,3,4,5,6,7,8,9,10,11 3:0,1,2,4,5,6,7,8,9,10,11 4:0,1,2,4,5,6,7,8,9,10,11 5:0,1,2,4,5,6,7,8,9,10,11 6:0,1,2,4,5,6,7,8,9,10,11 7:0,1,2,4,5,6,8,9,10,11 8:0,1,2,4,5,6,8,9,10,11 9:0,1,2,4,5,6,8,9,10,11 10:0,1,2,4,5,6,8,9,10,11 11:0,1,2,4,5,6,8,9,10 12:0,1,2,4,5,6,8,9,10 13:0,1,2,4,5,6,8,9,10 14:0,1,2,4,5,6,8,9,10 15:0,1,2,4,5,6,8,9,10
glm_decompose_rs	2	0	0:0,1,2,4,5,6,8,9,10 1:0,1,2,4,5,6,8,9,10 2:0,1,2,4,5,6,8,9,10
glm_look	3	0	0:0,1,2 1:0,1,2 2:0,1,2 4:0,1,2 5:0,1,2 6:0,1,2 8:0,1,2 9:0,1,2 10:0,1,2 12:0,1,2 13:0,1,2
glm_look_anyup	2	0	0:0,1,2 1:0,1,2 2:0,1,2 4:0,1,2 5:0,1,2 6:0,1,2 8:0,1,2 9:0,1,2 10:0,1,2 12:0,1,2 13:0,1,2
glm_look_anyup_lh	2	0	0:0,1,2 1:0,1,2 2:0,1,2 4:0,1,2 5:0,1,2 6:0,1,2 8:0,1,2 9:0,1,2 10:0,1,2 12:0,1,2 13:0,1,2
glm_look_anyup_lh_no	2	0	0:0,1,2 1:0,1,2 2:0,1,2 4:0,1,2 5:0,1,2 6:0,1,2 8:0,1,2 9:0,1,2 10:0,1,2 12:0,1,2 13:0,1,2
glm_look_anyup_lh_zo	2	0	0:0,1,2 1:0,1,2 2:0,1,2 4:0,1,2 5:0,1,2 6:0,1,2 8:0,1,2 9:0,1,2 10:0,1,2 12:0,1,2 13:0,1,2
glm_look_anyup_rh	2	0	0:0,1,2 1:0,1,2 2:0,1,2 4:0,1,2 5:0,1,2 6:0,1,2 8:0,1,2 9:0,1,2 10:0,1,2 12:0,1,2 13:0,1,2
glm_look_anyup_rh_no	2	0	0:0,1,2 1:0,1,2 2:0,1,2 4:0,1,2 5:0,1,2 6:0,1,2 8:0,1,2 9:0,1,2 10:0,1,2 12:0,1,2 13:0,1,2
glm_look_anyup_rh_zo	2	0	0:0,1,2 1:0,1,2 2:0,1,2 4:0,1,2 5:0,1,2 6:0,1,2 8:0,1,2 9:0,1,2 10:0,1,2 12:0,1,2 13:0,1,2
glm_look_lh	3	0	0:0,1,2 1:0,1,2 2:0,1,2 4:0,1,2 5:0,1,2 6:0,1,2 8:0,1,2 9:0,1,2 10:0,1,2 12:0,1,2 13:0,1,2
glm_look_lh_no	3	0	0:0,1,2 1:0,1,2 2:0,1,2 4:0,1,2 5:0,1,2 6:0,1,2 8:0,1,2 9:0,1,2 10:0,1,2 12:0,1,2 13:0,1,2
glm_look_lh_zo	3	0	0:0,1,2 1:0,1,2 2:0,1,2 4:0,1,2 5:0,1,2 6:0,1,2 8:0,1,2 9:0,1,2 10:0,1,2 12:0,1,2 13:0,1,2
glm_look_rh	3	0	0:0,1,2 1:0,1,2 2:0,1,2 4:0,1,2 5:0,1,2 6:0,1,2 8:0,1,2 9:0,1,2 10:0,1,2 12:0,1,2 13:0,1,2
glm_look_rh_no	3	0	0:0,1,2 1:0,1,2 2:0,1,2 4:0,1,2 5:0,1,2 6:0,1,2 8:0,1,2 9:0,1,2 10:0,1,2 12:0,1,2 13:0,1,2
glm_look_rh_zo	3	0	0:0,1,2 1:0,1,2 2:0,1,2 4:0,1,2 5:0,1,2 6:0,1,2 8:0,1,2 9:0,1,2 10:0,1,2 12:0,1,2 13:0,1,2
glm_lookat	3	0	0:0,1,2 1:0,1,2 2:0,1,2 4:0,1,2 5:0,1,2 6:0,1,2 8:0,1,2 9:0,1,2 10:0,1,2 12:0,1,2 13:0,1,2
glm_lookat_lh	3	0	0:0,1,2 1:0,1,2 2:0,1,2 4:0,1,2 5:0,1,2 6:0,1,2 8:0,1,2 9:0,1,2 10:0,1,2 12:0,1,2 13:0,1,2
glm_lookat_lh_no	3	0	0:0,1,2 1:0,1,2 2:0,1,2 4:0,1,2 5:0,1,2 6:0,1,2 8:0,1,2 9:0,1,2 10:0,1,2 12:0,1,2 13:0,1,2
glm_lookat_lh_zo	3	0	0:0,1,2 1:0,1,2 2:0,1,2 4:0,1,2 5:0,1,2 6:0,1,2 8:0,1,2 9:0,1,2 10:0,1,2 12:0,1,2 13:0,1,2
glm_lookat_rh	3	0	0:0,1,2 1:0,1,2 2:0,1,2 4:0,1,2 5:0,1,2 6:0,1,2 8:0,1,2 9:0,1,2 10:0,1,2 12:0,1,2 13:0,1,2
glm_lookat_rh_no	3	0	0:0,1,2 1:0,1,2 2:0,1,2 4:0,1,2 5:0,1,2 6:0,1,2 8:0,1,2 9:0,1,2 10:0,1,2 12:0,1,2 13:0,1,2
glm_lookat_rh_zo	3	0	0:0,1,2 1:0,1,2 2:0,1,2 4:0,1,2 5:0,1,2 6:0,1,2 8:0,1,2 9:0,1,2 10:0,1,2 12:0,1,2 13:0,1,2
glm_mat2_mulv	2	0	0:1,3
glm_mat2_mulv	2	1	0:0,1
glm_mat2_transpose_to	1	0	0:1,2,3 1:1,3 2:3
glm_mat2x3_transpose	1	0	0:1,2,3,4,5 1:1,2,4,5 2:2,4,5 3:2,5 4:5
glm_mat2x4_transpose	1	0	0:1,2,3,4,5,6,7 1:1,2,3,5,6,7 2:2,3,5,6,7 3:2,3,6,7 4:3,6,7 5:3,7 6:7
glm_mat3_quat	1	0	0:1,2,3,5,6,7 1:1,2,3,5,6,7 2:1,2,3,5,6,7
glm_mat3_transpose_to	1	0	0:1,2,3,4,5,6,7,8 1:1,2,4,5,6,7,8 2:1,2,4,5,7,8 3:2,4,5,7,8 4:2,5,7,8 5:2,5,8 6:5,8 7:8
glm_mat3x2_transpose	1	0	0:1,2,3,4,5 1:1,3,4,5 2:1,3,5 3:3,5 4:5
glm_mat3x4_transpose	1	0	0:1,2,3,4,5,6,7,8,9,10,11 1:1,2,3,5,6,7,8,9,10,11 2:1,2,3,5,6,7,9,10,11 3:2,3,5,6,7,9,10,11 4:2,3,6,7,9,10,11 5:2,3,6,7,10,11 6:3,6,7,10,11 7:3,7,10,11 8:3,7,11 9:7,11 10:11
glm_mat4_copy	1	0	0:1,2,3,4,5,6,7,8,9,10,11,12,13,14,15 1:2,3,5,6,7,8,9,10,11,12,13,14,15 2:3,6,7,8,9,10,11,12,13,14,15 3:7,8,9,10,11,12,13,14,15 4:1,2,3,5,6,7,8,9,10,11,12,13,14,15 5:2,3,6,7,8,9,10,11,12,13,14,15 6:3,7,8,9,10,11,12,13,14,15 7:8,9,10,11,12,13,14,15 8:9,10,11,12,13,14,15 9:10,11,13,14,15 10:11,14,15 11:15 12:9,10,11,13,14,15 13:10,11,14,15 14:11,15
glm_mat4_ins3	1	0	0:1,2,3,4,5,6,7,8 1:2,3,4,5,6,7,8 2:3,4,5,6,7,8 4:4,5,6,7,8 5:5,6,7,8 6:6,7,8 8:7,8 9:8
glm_mat4_make	1	0	0:1,2,3,4,5,6,7,8,9,10,11,12,13,14,15 1:2,3,5,6,7,8,9,10,11,12,13,14,15 2:3,6,7,8,9,10,11,12,13,14,15 3:7,8,9,10,11,12,13,14,15 4:1,2,3,5,6,7,8,9,10,11,12,13,14,15 5:2,3,6,7,8,9,10,11,12,13,14,15 6:3,7,8,9,10,11,12,13,14,15 7:8,9,10,11,12,13,14,15 8:9,10,11,12,13,14,15 9:10,11,13,14,15 10:11,14,15 11:15 12:9,10,11,13,14,15 13:10,11,14,15 14:11,15
glm_mat4_pick3t	1	0	0:1,2,4,5,6,8,9,10 1:1,2,5,6,8,9,10 2:1,2,5,6,9,10 3:2,5,6,9,10 4:2,6,9,10 5:2,6,10 6:6,10 7:10
glm_mat4_quat	1	0	0:1,2,4,6,8,9 1:1,2,4,6,8,9 2:1,2,4,6,8,9
glm_mat4_transpose_to	1	0	0:1,2,3,4,5,6,7,8,9,10,11,12,13,14,15 1:2,3,5,6,7,8,9,10,11,12,13,14,15 2:2,3,6,7,9,10,11,12,13,14,15 3:2,3,6,7,10,11,13,14,15 4:2,3,4,5,6,7,8,9,10,11,12,13,14,15 5:2,3,6,7,8,9,10,11,12,13,14,15 6:2,3,6,7,10,11,12,13,14,15 7:2,3,6,7,10,11,14,15 8:3,6,7,10,11,14,15 9:7,10,11,14,15 10:11,14,15 11:15 12:6,7,10,11,14,15 13:10,11,14,15 14:14,15
glm_mat4_ucopy	1	0	0:1,2,3,4,5,6,7,8,9,10,11,12,13,14,15 1:2,3,5,6,7,8,9,10,11,12,13,14,15 2:3,6,7,8,9,10,11,12,13,14,15 3:7,8,9,10,11,12,13,14,15 4:1,2,3,5,6,7,8,9,10,11,12,13,14,15 5:2,3,6,7,8,9,10,11,12,13,14,15 6:3,7,8,9,10,11,12,13,14,15 7:8,9,10,11,12,13,14,15 8:9,10,11,12,13,14,15 9:10,11,13,14,15 10:11,14,15 11:15 12:9,10,11,13,14,15 13:10,11,14,15 14:11,15
glm_mat4x2_transpose	1	0	0:1,2,3,4,5,6,7 1:1,3,4,5,6,7 2:1,3,5,6,7 3:1,3,5,7 4:3,5,7 5:5,7 6:7
glm_mat4x3_transpose	1	0	0:1,2,3,4,5,6,7,8,9,10,11 1:1,2,4,5,6,7,8,9,10,11 2:1,2,4,5,7,8,9,10,11 3:1,2,4,5,7,8,10,11 4:2,4,5,7,8,10,11 5:2,5,7,8,10,11 6:2,5,8,10,11 7:2,5,8,11 8:5,8,11 9:8,11 10:11
glm_project_zo	3	2	0:1,3 2:0,1,2,3
glm_quat_look	2	0	0:0,1,2 1:0,1,2 2:0,1,2 3:0,1,2 4:0,1,2 5:0,1,2 6:0,1,2 7:0,1,2 8:0,1,2 9:0,1,2 10:0,1,2 11:0,1,2 12:0,1,2 13:0,1,2 14:0,1,2 15:0,1,2
glm_quat_mul	2	0	0:0,1,2,3 1:0,1,2,3 2:0,1,2,3
glm_quat_mul	2	1	0:0,1,2,3 1:0,1,2,3 2:0,1,2,3
glm_quat_rotate_at	0	1	12:0,1,2,3 13:0,1,2,3 14:0,1,2,3 15:0,1,2,3
glm_quat_rotate_at	0	2	12:1,2 13:1,2 14:1,2 15:1,2
glm_quat_rotate_atm	0	1	0:0,1,2,3 1:0,1,2,3 2:0,1,2,3 3:0,1,2,3 4:0,1,2,3 5:0,1,2,3 6:0,1,2,3 7:0,1,2,3 8:0,1,2,3 9:0,1,2,3 10:0,1,2,3 11:0,1,2,3 12:0,1,2,3 13:0,1,2,3 14:0,1,2,3 15:0,1,2,3
glm_quat_rotate_atm	0	2	0:0,1,2 1:0,1,2 2:0,1,2 3:0,1,2 4:0,1,2 5:0,1,2 6:0,1,2 7:0,1,2 8:0,1,2 9:0,1,2 10:0,1,2 11:0,1,2 12:0,1,2 13:0,1,2 14:0,1,2 15:0,1,2
glm_rotate_at	0	1	12:1,2 13:1,2 14:1,2 15:1,2
glm_rotate_at	0	2	12:0,1,2 13:0,1,2 14:0,1,2 15:0,1,2
glm_rotate_atm	0	1	0:0,1,2 1:0,1,2 2:0,1,2 3:0,1,2 4:0,1,2 5:0,1,2 6:0,1,2 7:0,1,2 8:0,1,2 9:0,1,2 10:0,1,2 11:0,1,2 12:0,1,2 13:0,1,2 14:0,1,2 15:0,1,2
glm_rotate_atm	0	2	0:0,1,2 1:0,1,2 2:0,1,2 3:0,1,2 4:0,1,2 5:0,1,2 6:0,1,2 7:0,1,2 8:0,1,2 9:0,1,2 10:0,1,2 11:0,1,2 12:0,1,2 13:0,1,2 14:0,1,2 15:0,1,2
glm_rotated_at	0	1	12:1,2 13:2
glm_rotated_at	0	2	12:0,1,2 13:0,1,2 14:0,1,2
glm_scale	0	1	0:1,2 1:1,2 2:1,2 3:1,2 4:2 5:2 6:2 7:2
glm_scale2d	0	1	0:0,1 1:0,1 2:1 3:1 4:1
glm_scale2d_make	0	1	0:0,1 1:0,1 2:0,1 3:0,1 4:0,1 5:0,1 6:0,1 7:0,1 8:0,1
glm_scale2d_to	2	0	0:1,2,3,4,5,6,7,8 1:2,3,4,5,6,7,8 2:3,4,5,6,7,8 3:4,5,6,7,8 4:5,6,7,8 5:6,7,8 6:7,8 7:8
glm_scale2d_to	2	1	0:0,1 1:0,1 2:1 3:1 4:1
glm_scale_make	0	1	0:0,1,2 1:0,1,2 2:0,1,2 3:0,1,2 4:0,1,2 5:0,1,2 6:0,1,2 7:0,1,2 8:0,1,2 9:0,1,2 10:0,1,2 11:0,1,2 12:0,1,2 13:0,1,2 14:0,1,2 15:0,1,2
glm_scale_to	2	0	0:1,2,3,4,5,6,7,8,9,10,11,12,13,14,15 1:2,3,4,5,6,7,8,9,10,11,12,13,14,15 2:3,4,5,6,7,8,9,10,11,12,13,14,15 3:4,5,6,7,8,9,10,11,12,13,14,15 4:5,6,7,8,9,10,11,12,13,14,15 5:6,7,8,9,10,11,12,13,14,15 6:7,8,9,10,11,12,13,14,15 7:8,9,10,11,12,13,14,15 8:9,10,11,12,13,14,15 9:10,11,12,13,14,15 10:11,12,13,14,15 11:12,13,14,15 12:13,14,15 13:14,15 14:15
glm_scale_to	2	1	0:1,2 1:1,2 2:1,2 3:1,2 4:2 5:2 6:2 7:2
glm_scaled2d	0	1	0:0,1 1:1 3:0,1 4:1 6:1
glm_translate	0	1	12:1,2 13:1,2 14:1,2 15:1,2
glm_translate2d	0	1	6:0,1 7:0,1
glm_translate2d_make	0	1	0:0,1 1:0,1 2:0,1 3:0,1 4:0,1 5:0,1 6:0,1 7:0,1 8:0,1
glm_translate2d_to	2	0	0:1,2,3,4,5,6,7,8 1:2,3,4,5,6,7,8 2:3,4,5,6,7,8 3:4,5,6,7,8 4:5,6,7,8 5:6,7,8 6:7,8 7:8
glm_translate2d_to	2	1	0:0,1 1:0,1 2:0,1 3:0,1 4:0,1 5:0,1 6:0,1 7:0,1 8:0,1
glm_translate_make	0	1	0:0,1,2 1:0,1,2 2:0,1,2 3:0,1,2 4:0,1,2 5:0,1,2 6:0,1,2 7:0,1,2 8:0,1,2 9:0,1,2 10:0,1,2 11:0,1,2 12:0,1,2 13:0,1,2 14:0,1,2 15:0,1,2
glm_translate_to	2	0	0:1,2,3,4,5,6,7,8,9,10,11,12,13,14,15 1:2,3,5,6,7,8,9,10,11,12,13,14,15 2:3,6,7,8,9,10,11,12,13,14,15 3:7,8,9,10,11,12,13,14,15 4:1,2,3,5,6,7,8,9,10,11,12,13,14,15 5:2,3,6,7,8,9,10,11,12,13,14,15 6:3,7,8,9,10,11,12,13,14,15 7:8,9,10,11,12,13,14,15 8:9,10,11,12,13,14,15 9:10,11,13,14,15 10:11,14,15 11:15 12:9,10,11,13,14,15 13:10,11,14,15 14:11,15
glm_translate_to	2	1	0:0,1,2 1:0,1,2 2:0,1,2 3:0,1,2 4:0,1,2 5:0,1,2 6:0,1,2 7:0,1,2 8:0,1,2 9:0,1,2 10:0,1,2 11:0,1,2 12:0,1,2 13:0,1,2 14:0,1,2 15:0,1,2
glm_translated	0	1	12:1,2 13:2
glm_translated2d	0	1	6:1
glm_translated_to	2	0	0:1,2,3,4,5,6,7,8,9,10,11,12,13,14,15 1:2,3,5,6,7,8,9,10,11,12,13,14,15 2:3,6,7,8,9,10,11,12,13,14,15 3:7,8,9,10,11,12,13,14,15 4:1,2,3,5,6,7,8,9,10,11,12,13,14,15 5:2,3,6,7,8,9,10,11,12,13,14,15 6:3,7,8,9,10,11,12,13,14,15 7:8,9,10,11,12,13,14,15 8:9,10,11,12,13,14,15 9:10,11,13,14,15 10:11,14,15 11:15 12:9,10,11,13,14,15 13:10,11,14,15 14:11,15
glm_translated_to	2	1	0:0,1,2 1:0,1,2 2:0,1,2 3:0,1,2 4:0,1,2 5:0,1,2 6:0,1,2 7:0,1,2 8:0,1,2 9:0,1,2 10:0,1,2 11:0,1,2 12:0,1,2 13:0,1,2 14:0,1,2 15:0,1,2
glm_vec2_refract	2	0	0:1
glm_vec2_refract	2	1	0:0,1 1:0,1
glm_vec3_refract	2	0	0:1,2 1:2
glm_vec3_refract	2	1	0:0,1,2 1:0,1,2 2:0,1,2
glm_vec4_reflect	2	0	0:1,2,3 1:2,3 2:3 3:3
glm_vec4_refract	2	0	0:1,2,3 1:2,3 2:3
glm_vec4_refract	2	1	0:0,1,2,3 1:0,1,2,3 2:0,1,2,3 3:0,1,2,3
