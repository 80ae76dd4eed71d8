# function, input, output: the function does not compute its value-level result when input == output
glm_aabb2d_crop_until	clampAabb	dest
glm_aabb_crop_until	clampBox	dest
glm_decompose	m	r
glm_decompose_rs	m	r
glm_mat2_mulv	v	dest
glm_mat2_transpose_to	mat	dest
glm_mat3_transpose_to	m	dest
glm_mat4_transpose_to	m	dest
glm_quat_mul	p	dest
glm_quat_mul	q	dest
glm_vec2_refract	n	dest
glm_vec3_refract	n	dest
glm_vec4_reflect	v	dest
glm_vec4_refract	n	dest
