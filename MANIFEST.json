{
 "claims": [
  {
   "property": "C01",
   "status": "proved",
   "theorems": [
    "Cglm.C01_mat2_mul",
    "Cglm.C01_mat3_mul",
    "Cglm.C01_mat4_mul",
    "Cglm.C01_mat2_mulv",
    "Cglm.C01_mat3_mulv",
    "Cglm.C01_mat4_mulv",
    "Cglm.C01_mat4_mulv3",
    "Cglm.C01_mat2_compose",
    "Cglm.C01_mat3_compose",
    "Cglm.C01_mat4_compose",
    "Cglm.C01_mat2_assoc",
    "Cglm.C01_mat3_assoc",
    "Cglm.C01_mat4_assoc",
    "Cglm.C01_mat2x3_mul",
    "Cglm.C01_mat2x4_mul",
    "Cglm.C01_mat3x2_mul",
    "Cglm.C01_mat3x4_mul",
    "Cglm.C01_mat4x2_mul",
    "Cglm.C01_mat4x3_mul",
    "Cglm.C01_mat2x3_mulv",
    "Cglm.C01_mat2x4_mulv",
    "Cglm.C01_mat3x2_mulv",
    "Cglm.C01_mat3x4_mulv",
    "Cglm.C01_mat4x2_mulv",
    "Cglm.C01_mat4x3_mulv"
   ],
   "note": "square and rectangular products, over the reals"
  },
  {
   "property": "C02",
   "status": "proved",
   "theorems": [
    "Cglm.C02_mat2_identity",
    "Cglm.C02_mat3_identity",
    "Cglm.C02_mat4_identity",
    "Cglm.C02_mat2_identity_mul",
    "Cglm.C02_mat3_identity_mul",
    "Cglm.C02_mat4_identity_mul",
    "Cglm.C02_mat2_identity_mulv",
    "Cglm.C02_mat3_identity_mulv",
    "Cglm.C02_mat4_identity_mulv",
    "Cglm.C02_mat2_zero",
    "Cglm.C02_mat3_zero",
    "Cglm.C02_mat4_zero",
    "Cglm.C02_mat2x3_zero",
    "Cglm.C02_mat2x4_zero",
    "Cglm.C02_mat3x2_zero",
    "Cglm.C02_mat3x4_zero",
    "Cglm.C02_mat4x2_zero",
    "Cglm.C02_mat4x3_zero",
    "Cglm.C02_mat2_transpose_to",
    "Cglm.C02_mat2_transpose",
    "Cglm.C02_mat3_transpose_to",
    "Cglm.C02_mat3_transpose",
    "Cglm.C02_mat4_transpose_to",
    "Cglm.C02_mat4_transpose",
    "Cglm.C02_mat2x3_transpose",
    "Cglm.C02_mat2x4_transpose",
    "Cglm.C02_mat3x2_transpose",
    "Cglm.C02_mat3x4_transpose",
    "Cglm.C02_mat4x2_transpose",
    "Cglm.C02_mat4x3_transpose",
    "Cglm.C02_transpose_involutive",
    "Cglm.C02_copy",
    "Cglm.C02_mat2_make",
    "Cglm.C02_mat3_make",
    "Cglm.C02_mat4_make",
    "Cglm.C02_mat2x3_make",
    "Cglm.C02_mat3x2_make",
    "Cglm.C02_mat2x4_make",
    "Cglm.C02_mat4x2_make",
    "Cglm.C02_mat3x4_make",
    "Cglm.C02_mat4x3_make",
    "Cglm.C02_mat2_transpose_mul",
    "Cglm.C02_mat3_transpose_mul",
    "Cglm.C02_mat4_transpose_mul",
    "Cglm.C02_mat2_scale",
    "Cglm.C02_mat3_scale",
    "Cglm.C02_mat4_scale",
    "Cglm.C02_mat4_scale_p",
    "Cglm.C02_mat2x3_scale",
    "Cglm.C02_mat2x4_scale",
    "Cglm.C02_mat3x2_scale",
    "Cglm.C02_mat3x4_scale",
    "Cglm.C02_mat4x2_scale",
    "Cglm.C02_mat4x3_scale"
   ],
   "note": ""
  },
  {
   "property": "C03",
   "status": "proved",
   "theorems": [
    "Cglm.C03_mat2_det",
    "Cglm.C03_mat3_det",
    "Cglm.C03_mat4_det",
    "Cglm.C03_det_mul",
    "Cglm.C03_det_transpose",
    "Cglm.C03_det_identity"
   ],
   "note": ""
  },
  {
   "property": "C04",
   "status": "proved",
   "theorems": [
    "Cglm.C04_mat2_inv",
    "Cglm.C04_mat3_inv",
    "Cglm.C04_mat4_inv",
    "Cglm.C04_mat4_inv_fast",
    "Cglm.C04_inv_unique",
    "Cglm.C04_mat4_inv_mul"
   ],
   "note": "non-zero determinant is the stated precondition"
  },
  {
   "property": "C05",
   "status": "proved",
   "theorems": [
    "Cglm.C05_mulN",
    "Cglm.C05_mulN_undefined_short",
    "Cglm.C05_mulN_undefined_long",
    "Cglm.C05_mulN_count_one"
   ],
   "note": "len < 2 is modelled as undefined behaviour"
  },
  {
   "property": "C06",
   "status": "proved",
   "theorems": [
    "Cglm.C06_mat2_rmc",
    "Cglm.C06_mat3_rmc",
    "Cglm.C06_mat4_rmc"
   ],
   "note": ""
  },
  {
   "property": "C07",
   "status": "proved",
   "theorems": [
    "Cglm.C07_trace",
    "Cglm.C07_mat4_swap_col",
    "Cglm.C07_mat3_swap_col",
    "Cglm.C07_mat2_swap_col",
    "Cglm.C07_mat4_swap_row",
    "Cglm.C07_mat3_swap_row",
    "Cglm.C07_mat2_swap_row",
    "Cglm.C07_swap_involutive",
    "Cglm.C07_mat4_swap_undefined",
    "Cglm.C07_pick3",
    "Cglm.C07_ins3",
    "Cglm.C07_pick3_ins3"
   ],
   "note": ""
  },
  {
   "property": "C08",
   "status": "proved",
   "theorems": [
    "Cglm.C08_mul",
    "Cglm.C08_add",
    "Cglm.C08_sub",
    "Cglm.C08_conjugate",
    "Cglm.C08_identity",
    "Cglm.C08_init",
    "Cglm.C08_make",
    "Cglm.C08_real_imag",
    "Cglm.C08_norm",
    "Cglm.C08_dot",
    "Cglm.C08_imaglen",
    "Cglm.C08_mul_assoc",
    "Cglm.C08_mul_identity",
    "Cglm.C08_norm_mul",
    "Cglm.C08_conjugate_mul",
    "Cglm.C08_inv",
    "Cglm.C08_inv_mul",
    "Cglm.C08_normalize",
    "Cglm.C08_normalize_zero",
    "Cglm.C08_normalize_to"
   ],
   "note": "against Mathlib quaternions"
  },
  {
   "property": "C09",
   "status": "proved",
   "theorems": [
    "Cglm.C09_rotation",
    "Cglm.C09_mat3_conj",
    "Cglm.C09_mat3_mul",
    "Cglm.C09_mat4",
    "Cglm.C09_mat3t",
    "Cglm.C09_mat4t",
    "Cglm.C09_mat3_conjugate",
    "Cglm.C09_rotatev",
    "Cglm.C09_rotatev_mat3",
    "Cglm.C09_rotatev_zero"
   ],
   "note": ""
  },
  {
   "property": "C10",
   "status": "partial",
   "theorems": [
    "Cglm.C10_refuted",
    "Cglm.C10_partial",
    "Cglm.C10_zero"
   ],
   "note": "refuted as stated (C10_refuted); C10_partial characterises exactly the inputs for which it holds"
  },
  {
   "property": "C11",
   "status": "proved",
   "theorems": [
    "Cglm.C11_mat3",
    "Cglm.C11_mat4_block",
    "Cglm.C11_mat4",
    "Cglm.C11_double_cover",
    "Cglm.C11_quat"
   ],
   "note": ""
  },
  {
   "property": "C12",
   "status": "proved",
   "theorems": [
    "Cglm.C12_quatv",
    "Cglm.C12_quatv_small",
    "Cglm.C12_quat",
    "Cglm.C12_unit",
    "Cglm.C12_rotation",
    "Cglm.C12_mul",
    "Cglm.C12_imaglen",
    "Cglm.C12_angle",
    "Cglm.C12_axis",
    "Cglm.C12_rotate",
    "Cglm.C12_rotate_at",
    "Cglm.C12_rotate_atm"
   ],
   "note": "axis at least FLT_EPSILON long; shorter axes are covered by C12_quatv_small"
  },
  {
   "property": "C13",
   "status": "partial",
   "theorems": [
    "Cglm.C13_formula",
    "Cglm.C13_fallback",
    "Cglm.C13_parallel",
    "Cglm.C13_unit_partial",
    "Cglm.C13_end",
    "Cglm.C13_end_rotation",
    "Cglm.C13_start_partial",
    "Cglm.C13_start_refuted",
    "Cglm.C13_fallback_bound",
    "Cglm.C13_unit_refuted",
    "Cglm.C13_longest"
   ],
   "note": "start sign and unit length fail in the code (C13_start_refuted, C13_unit_refuted); proved elsewhere"
  },
  {
   "property": "C14",
   "status": "proved",
   "theorems": [
    "Cglm.C14_lerp",
    "Cglm.C14_lerp_ends",
    "Cglm.C14_lerpc",
    "Cglm.C14_nlerp",
    "Cglm.C14_nlerp_unit"
   ],
   "note": ""
  },
  {
   "property": "C15",
   "status": "proved",
   "theorems": [
    "Cglm.C15_exact",
    "Cglm.C15_parallel",
    "Cglm.C15_opposite",
    "Cglm.C15_all",
    "Cglm.C15_equal_opposite"
   ],
   "note": "exact between the thresholds and at equal/opposite vectors, within sqrt(2e-5) everywhere"
  },
  {
   "property": "C16",
   "status": "proved",
   "theorems": [
    "Cglm.C16_xyz",
    "Cglm.C16_xzy",
    "Cglm.C16_yxz",
    "Cglm.C16_yzx",
    "Cglm.C16_zxy",
    "Cglm.C16_zyx",
    "Cglm.C16_euler",
    "Cglm.C16_rotation",
    "Cglm.C16_by_order",
    "Cglm.C16_by_order_other"
   ],
   "note": ""
  },
  {
   "property": "C17",
   "status": "proved",
   "theorems": [
    "Cglm.C17_matrix",
    "Cglm.C17_principal",
    "Cglm.C17_gimbal",
    "Cglm.C17_any_rotation"
   ],
   "note": "gimbal lock within 1e-20 per entry, because the pi/2 literal is not exact"
  },
  {
   "property": "C18",
   "status": "proved",
   "theorems": [
    "Cglm.C18_xyz",
    "Cglm.C18_xzy",
    "Cglm.C18_yxz",
    "Cglm.C18_yzx",
    "Cglm.C18_zxy",
    "Cglm.C18_zyx",
    "Cglm.C18_lh",
    "Cglm.C18_lh_disagrees"
   ],
   "note": "the left-handed variants negate the z angle; C18_lh_disagrees records the mismatch with the matrices"
  },
  {
   "property": "C19",
   "status": "partial",
   "theorems": [
    "Cglm.C19_translate_make",
    "Cglm.C19_scale_make",
    "Cglm.C19_translate",
    "Cglm.C19_translate_to",
    "Cglm.C19_translate_x",
    "Cglm.C19_translate_y",
    "Cglm.C19_translate_z",
    "Cglm.C19_scale",
    "Cglm.C19_scale_to",
    "Cglm.C19_scale_uni",
    "Cglm.C19_rotate_x",
    "Cglm.C19_rotate_y",
    "Cglm.C19_rotate_z",
    "Cglm.C19_rotate",
    "Cglm.C19_translated",
    "Cglm.C19_translated_to",
    "Cglm.C19_translated_x",
    "Cglm.C19_translated_y",
    "Cglm.C19_translated_z",
    "Cglm.C19_translated_iff",
    "Cglm.C19_rotated_partial",
    "Cglm.C19_rotated_x_partial",
    "Cglm.C19_rotated_y_partial",
    "Cglm.C19_rotated_z_partial",
    "Cglm.C19_rotated_loses_translation",
    "Cglm.C19_rotated_refuted"
   ],
   "note": "glm_translate/scale/rotate families and _make/_to proved for all matrices. glm_translated* equals T*m exactly for affine m (iff proved). glm_rotated* discards the translation of m (C19_rotated_refuted); proved for matrices without translation only."
  },
  {
   "property": "C20",
   "status": "proved",
   "theorems": [
    "Cglm.C20_rotate_make",
    "Cglm.C20_small",
    "Cglm.C20_apply",
    "Cglm.C20_rotation",
    "Cglm.C20_axis_fixed",
    "Cglm.C20_add",
    "Cglm.C20_axes",
    "Cglm.C20_quat"
   ],
   "note": "Axes shorter than FLT_EPSILON are treated as zero by the code (C20_small)."
  },
  {
   "property": "C21",
   "status": "proved",
   "theorems": [
    "Cglm.C21_decompose",
    "Cglm.C21_decompose_neg",
    "Cglm.C21_recompose",
    "Cglm.C21_rotation",
    "Cglm.C21_scalev",
    "Cglm.C21_uniscaled"
   ],
   "note": ""
  },
  {
   "property": "C22",
   "status": "proved",
   "theorems": [
    "Cglm.C22_inv_left",
    "Cglm.C22_inv_right",
    "Cglm.C22_eq_inv",
    "Cglm.C22_rigid",
    "Cglm.C22_involution"
   ],
   "note": ""
  },
  {
   "property": "C23",
   "status": "proved",
   "theorems": [
    "Cglm.C23_mul",
    "Cglm.C23_mul_affine",
    "Cglm.C23_mul_shape",
    "Cglm.C23_mul_rot",
    "Cglm.C23_mul_rot_eq",
    "Cglm.C23_mul_rot_shape",
    "Cglm.C23_mul_rot_ignores"
   ],
   "note": "Includes the converse: the operand shapes are necessary."
  },
  {
   "property": "C24",
   "status": "partial",
   "theorems": [
    "Cglm.C24_rotate_at",
    "Cglm.C24_rotate_atm",
    "Cglm.C24_rotate_atm_apply",
    "Cglm.C24_pivot_fixed",
    "Cglm.C24_pivot_image",
    "Cglm.C24_spinned",
    "Cglm.C24_spinned_pos",
    "Cglm.C24_spin",
    "Cglm.C24_spin_pos",
    "Cglm.C24_spin_pos_partial",
    "Cglm.C24_spin_refuted",
    "Cglm.C24_rotated_at_refuted",
    "Cglm.C24_rotated_at_partial"
   ],
   "note": "glm_rotate_at, glm_rotate_atm, glm_spinned proved. glm_spin does not keep the position (C24_spin_refuted) and glm_rotated_at is not the documented map (C24_rotated_at_refuted); what they compute is proved instead."
  },
  {
   "property": "C25",
   "status": "proved",
   "theorems": [
    "Cglm.C25_translate2d_make",
    "Cglm.C25_scale2d_make",
    "Cglm.C25_rotate2d_make",
    "Cglm.C25_translate2d",
    "Cglm.C25_translate2d_to",
    "Cglm.C25_translate2d_x",
    "Cglm.C25_translate2d_y",
    "Cglm.C25_scale2d",
    "Cglm.C25_scale2d_to",
    "Cglm.C25_scale2d_uni",
    "Cglm.C25_rotate2d",
    "Cglm.C25_rotate2d_to",
    "Cglm.C25_scaled2d",
    "Cglm.C25_scaled2d_uni",
    "Cglm.C25_rotated2d",
    "Cglm.C25_translated2d",
    "Cglm.C25_translated2d_x",
    "Cglm.C25_translated2d_y",
    "Cglm.C25_translated2d_iff",
    "Cglm.C25_rotate2d_add",
    "Cglm.C25_mat3_textrans",
    "Cglm.C25_mat4_textrans"
   ],
   "note": "glm_translated2d* for affine m (iff proved)."
  },
  {
   "property": "C26",
   "status": "partial",
   "theorems": [
    "Cglm.C26_lookat_rh_rows",
    "Cglm.C26_lookat_lh_rows",
    "Cglm.C26_eye_rh",
    "Cglm.C26_eye_lh",
    "Cglm.C26_rigid_rh",
    "Cglm.C26_rigid_lh",
    "Cglm.C26_center_rh",
    "Cglm.C26_center_lh",
    "Cglm.C26_up_rh",
    "Cglm.C26_up_lh",
    "Cglm.C26_look",
    "Cglm.C26_look",
    "Cglm.C26_anyup",
    "Cglm.C26_anyup_refuted",
    "Cglm.C26_variants"
   ],
   "note": "The anyup variants return a degenerate matrix for some directions (C26_anyup_refuted); everything else proved."
  },
  {
   "property": "C27",
   "status": "proved",
   "theorems": [
    "Cglm.C27_depthNo",
    "Cglm.C27_depthZo",
    "Cglm.C27_perspective_rh_no",
    "Cglm.C27_volume_rh_no",
    "Cglm.C27_perspective_rh_zo",
    "Cglm.C27_volume_rh_zo",
    "Cglm.C27_perspective_lh_no",
    "Cglm.C27_volume_lh_no",
    "Cglm.C27_perspective_lh_zo",
    "Cglm.C27_volume_lh_zo",
    "Cglm.C27_default",
    "Cglm.C27_variants"
   ],
   "note": ""
  },
  {
   "property": "C28",
   "status": "partial",
   "theorems": [
    "Cglm.C28_frustum_rh_no",
    "Cglm.C28_corners_rh_no",
    "Cglm.C28_frustum_rh_zo",
    "Cglm.C28_corners_rh_zo",
    "Cglm.C28_frustum_lh_no_partial",
    "Cglm.C28_actual_lh_no",
    "Cglm.C28_refuted_lh_no",
    "Cglm.C28_frustum_lh_zo_partial",
    "Cglm.C28_actual_lh_zo",
    "Cglm.C28_refuted_lh_zo",
    "Cglm.C28_variants"
   ],
   "note": "Right-handed conventions proved in full. The left-handed matrices use the wrong sign for off-center frusta (C28_refuted_lh_no, C28_refuted_lh_zo); proved for symmetric frusta, and what they compute is proved in general."
  },
  {
   "property": "C29",
   "status": "partial",
   "theorems": [
    "Cglm.C29_clip_rh_no",
    "Cglm.C29_ortho_rh_no",
    "Cglm.C29_volume_rh_no",
    "Cglm.C29_default_rh_no",
    "Cglm.C29_aabb_rh_no",
    "Cglm.C29_aabb_p_rh_no",
    "Cglm.C29_aabb_pz_rh_no",
    "Cglm.C29_clip_rh_zo",
    "Cglm.C29_ortho_rh_zo",
    "Cglm.C29_volume_rh_zo",
    "Cglm.C29_default_rh_zo",
    "Cglm.C29_aabb_rh_zo",
    "Cglm.C29_aabb_p_rh_zo",
    "Cglm.C29_aabb_pz_rh_zo",
    "Cglm.C29_clip_lh_no",
    "Cglm.C29_ortho_lh_no",
    "Cglm.C29_volume_lh_no",
    "Cglm.C29_default_lh_no",
    "Cglm.C29_aabb_lh_no_partial",
    "Cglm.C29_aabb_p_lh_no_partial",
    "Cglm.C29_aabb_pz_lh_no_partial",
    "Cglm.C29_aabb_lh_no_refuted",
    "Cglm.C29_clip_lh_zo",
    "Cglm.C29_ortho_lh_zo",
    "Cglm.C29_volume_lh_zo",
    "Cglm.C29_default_lh_zo",
    "Cglm.C29_aabb_lh_zo_partial",
    "Cglm.C29_aabb_p_lh_zo_partial",
    "Cglm.C29_aabb_pz_lh_zo_partial",
    "Cglm.C29_aabb_lh_zo_refuted",
    "Cglm.C29_variants"
   ],
   "note": "All matrices proved. The glm_ortho_aabb* helpers use the mirrored z range in the left-handed conventions (C29_aabb_lh_no_refuted, C29_aabb_lh_zo_refuted); right-handed ones proved."
  },
  {
   "property": "C30",
   "status": "partial",
   "theorems": [
    "Cglm.C30_perspective_is_frustum",
    "Cglm.C30_decomp_z_rh_no",
    "Cglm.C30_decomp_rh_no",
    "Cglm.C30_decompv_rh_no",
    "Cglm.C30_decomp_x_rh_no",
    "Cglm.C30_decomp_y_rh_no",
    "Cglm.C30_decomp_z_rh_zo",
    "Cglm.C30_decomp_rh_zo",
    "Cglm.C30_decompv_rh_zo",
    "Cglm.C30_decomp_x_rh_zo",
    "Cglm.C30_decomp_y_rh_zo",
    "Cglm.C30_decomp_z_lh_no",
    "Cglm.C30_decomp_lh_no",
    "Cglm.C30_decompv_lh_no",
    "Cglm.C30_decomp_x_lh_no",
    "Cglm.C30_decomp_y_lh_no",
    "Cglm.C30_decomp_z_lh_zo",
    "Cglm.C30_decomp_lh_zo",
    "Cglm.C30_decompv_lh_zo",
    "Cglm.C30_decomp_xy_lh_zo_refuted",
    "Cglm.C30_variants"
   ],
   "note": "glm_persp_decomp_x/y_lh_zo fail on every perspective matrix (C30_decomp_xy_lh_zo_refuted); the rest proved."
  },
  {
   "property": "C31",
   "status": "proved",
   "theorems": [
    "Cglm.C31_fovy_rh_no",
    "Cglm.C31_aspect_rh_no",
    "Cglm.C31_sizes_rh_no",
    "Cglm.C31_resize_rh_no",
    "Cglm.C31_resize_zero_rh_no",
    "Cglm.C31_move_far_rh_no",
    "Cglm.C31_move_far_perspective_rh_no",
    "Cglm.C31_fovy_rh_zo",
    "Cglm.C31_aspect_rh_zo",
    "Cglm.C31_sizes_rh_zo",
    "Cglm.C31_resize_rh_zo",
    "Cglm.C31_resize_zero_rh_zo",
    "Cglm.C31_move_far_rh_zo",
    "Cglm.C31_move_far_perspective_rh_zo",
    "Cglm.C31_fovy_lh_no",
    "Cglm.C31_aspect_lh_no",
    "Cglm.C31_sizes_lh_no",
    "Cglm.C31_resize_lh_no",
    "Cglm.C31_resize_zero_lh_no",
    "Cglm.C31_move_far_lh_no",
    "Cglm.C31_move_far_perspective_lh_no",
    "Cglm.C31_fovy_lh_zo",
    "Cglm.C31_aspect_lh_zo",
    "Cglm.C31_sizes_lh_zo",
    "Cglm.C31_resize_lh_zo",
    "Cglm.C31_resize_zero_lh_zo",
    "Cglm.C31_move_far_lh_zo",
    "Cglm.C31_move_far_perspective_lh_zo",
    "Cglm.C31_variants",
    "Cglm.C31_move_far_frame_rh_no",
    "Cglm.C31_resize_frame_rh_no",
    "Cglm.C31_move_far_frame_rh_zo",
    "Cglm.C31_resize_frame_rh_zo",
    "Cglm.C31_move_far_frame_lh_no",
    "Cglm.C31_resize_frame_lh_no",
    "Cglm.C31_move_far_frame_lh_zo",
    "Cglm.C31_resize_frame_lh_zo",
    "Cglm.C31_move_far_frame",
    "Cglm.C31_resize_frame"
   ],
   "note": ""
  },
  {
   "property": "C32",
   "status": "proved",
   "theorems": [
    "Cglm.C32_project_no",
    "Cglm.C32_project_zo",
    "Cglm.C32_project_z_no",
    "Cglm.C32_project_z_zo",
    "Cglm.C32_unproject_no",
    "Cglm.C32_unproject_zo",
    "Cglm.C32_unproject",
    "Cglm.C32_project_unproject_no",
    "Cglm.C32_project_unproject_zo",
    "Cglm.C32_variants"
   ],
   "note": "Both directions, both depth conventions."
  },
  {
   "property": "C33",
   "status": "proved",
   "theorems": [
    "Cglm.C33_pick",
    "Cglm.C33_rectangle",
    "Cglm.C33_untouched"
   ],
   "note": ""
  },
  {
   "property": "C34",
   "status": "proved",
   "theorems": [
    "Cglm.C34_plane_normalize",
    "Cglm.C34_plane_degenerate",
    "Cglm.C34_plane_side",
    "Cglm.C34_planes",
    "Cglm.C34_inside",
    "Cglm.C34_conservative"
   ],
   "note": "Also: no point inside the clip volume is rejected even with degenerate planes."
  },
  {
   "property": "C35",
   "status": "partial",
   "theorems": [
    "Cglm.C35_corners",
    "Cglm.C35_center",
    "Cglm.C35_box",
    "Cglm.C35_actual_corners_at",
    "Cglm.C35_corners_at_partial",
    "Cglm.C35_corners_at_refuted"
   ],
   "note": "Corners, center and box proved. glm_frustum_corners_at scales all edges by the length of one of them: proved for equal edge lengths, refuted in general (C35_corners_at_refuted)."
  },
  {
   "property": "C36",
   "status": "proved",
   "theorems": [
    "Cglm.C36_aabb_point",
    "Cglm.C36_aabb_contains",
    "Cglm.C36_aabb_aabb",
    "Cglm.C36_aabb_merge",
    "Cglm.C36_aabb_crop",
    "Cglm.C36_aabb_crop_until",
    "Cglm.C36_aabb_invalidate",
    "Cglm.C36_aabb_center",
    "Cglm.C36_aabb2d_point",
    "Cglm.C36_aabb2d_contains",
    "Cglm.C36_aabb2d_aabb",
    "Cglm.C36_aabb2d_merge",
    "Cglm.C36_aabb2d_crop",
    "Cglm.C36_aabb2d_crop_until",
    "Cglm.C36_aabb2d_invalidate",
    "Cglm.C36_aabb2d_center",
    "Cglm.C36_aabb2d_sizev",
    "Cglm.C36_aabb2d_zero",
    "Cglm.C36_aabb2d_copy"
   ],
   "note": ""
  },
  {
   "property": "C37",
   "status": "proved",
   "theorems": [
    "Cglm.C37_aabb_contains",
    "Cglm.C37_aabb2d_contains",
    "Cglm.C37_aabb_faces",
    "Cglm.C37_aabb2d_faces",
    "Cglm.C37_aabb_smallest",
    "Cglm.C37_aabb2d_smallest"
   ],
   "note": "Holds for every matrix, using its upper three rows."
  },
  {
   "property": "C38",
   "status": "proved",
   "theorems": [
    "Cglm.C38_exact",
    "Cglm.C38_conservative",
    "Cglm.C38_visible"
   ],
   "note": ""
  },
  {
   "property": "C39",
   "status": "partial",
   "theorems": [
    "Cglm.C39_sphere_sound_partial",
    "Cglm.C39_sphere_exact_partial",
    "Cglm.C39_sphere_refuted",
    "Cglm.C39_circle_sound_partial",
    "Cglm.C39_circle_exact_partial",
    "Cglm.C39_circle_refuted"
   ],
   "note": "The tests are sound, and exact when the center is not below the minimum corner; otherwise they miss intersections (C39_sphere_refuted, C39_circle_refuted)."
  },
  {
   "property": "C40",
   "status": "proved",
   "theorems": [
    "Cglm.C40_sphere_sphere",
    "Cglm.C40_sphere_point",
    "Cglm.C40_sphere_merge",
    "Cglm.C40_merge_not_smallest",
    "Cglm.C40_sphere_transform",
    "Cglm.C40_sphere_radii",
    "Cglm.C40_transform_rigid"
   ],
   "note": ""
  },
  {
   "property": "C41",
   "status": "proved",
   "theorems": [
    "Cglm.C41_ray_at",
    "Cglm.C41_sound",
    "Cglm.C41_complete",
    "Cglm.C41_parallel",
    "Cglm.C41_ray_triangle_null"
   ],
   "note": "The call with NULL for the distance is modelled separately."
  },
  {
   "property": "C42",
   "status": "proved",
   "theorems": [
    "Cglm.C42_roots",
    "Cglm.C42_miss",
    "Cglm.C42_hit",
    "Cglm.C42_zero_divisor",
    "Cglm.C42_zero_divisor_reachable"
   ],
   "note": "Except where the code divides 0 by 0 (a line touching the sphere exactly at the ray origin), see C42_zero_divisor."
  },
  {
   "property": "C43",
   "status": "proved",
   "theorems": [
    "Cglm.C43_normalize",
    "Cglm.C43_distance",
    "Cglm.C43_degenerate",
    "Cglm.C43_idempotent"
   ],
   "note": ""
  },
  {
   "property": "C44",
   "status": "proved",
   "theorems": [
    "Cglm.C44_bezier",
    "Cglm.C44_hermite",
    "Cglm.C44_smc",
    "Cglm.C44_smc_bezier",
    "Cglm.C44_smc_hermite",
    "Cglm.C44_bezier_ends",
    "Cglm.C44_hermite_ends",
    "Cglm.C44_hermite_slopes",
    "Cglm.C44_hermite_deriv",
    "Cglm.C44_bezier_hull",
    "Cglm.C44_hermite_bezier",
    "Cglm.C44_bezier_reverse"
   ],
   "note": ""
  },
  {
   "property": "C45",
   "status": "proved",
   "theorems": [
    "Cglm.C45_decasteljau",
    "Cglm.C45_outside",
    "Cglm.C45_identity"
   ],
   "note": ""
  },
  {
   "property": "C46",
   "status": "partial",
   "theorems": [
    "Cglm.C46_ends_linear",
    "Cglm.C46_ends_quad_in",
    "Cglm.C46_ends_quad_out",
    "Cglm.C46_ends_quad_inout",
    "Cglm.C46_ends_cubic_in",
    "Cglm.C46_ends_cubic_out",
    "Cglm.C46_ends_cubic_inout",
    "Cglm.C46_ends_quart_in",
    "Cglm.C46_ends_quart_out",
    "Cglm.C46_ends_quart_inout",
    "Cglm.C46_ends_quint_in",
    "Cglm.C46_ends_quint_out",
    "Cglm.C46_ends_quint_inout",
    "Cglm.C46_ends_exp_in",
    "Cglm.C46_ends_exp_out",
    "Cglm.C46_ends_exp_inout",
    "Cglm.C46_ends_circ_in",
    "Cglm.C46_ends_circ_out",
    "Cglm.C46_ends_circ_inout",
    "Cglm.C46_ends_back_in",
    "Cglm.C46_ends_back_out",
    "Cglm.C46_ends_back_inout",
    "Cglm.C46_ends_bounce_in",
    "Cglm.C46_ends_bounce_out",
    "Cglm.C46_ends_sine_in",
    "Cglm.C46_ends_sine_out",
    "Cglm.C46_ends_sine_inout",
    "Cglm.C46_ends_elast_in",
    "Cglm.C46_ends_elast_out",
    "Cglm.C46_ends_elast_inout",
    "Cglm.C46_bounce_inout_refuted",
    "Cglm.C46_ends_bounce_inout_partial",
    "Cglm.C46_bounce_inout_halves",
    "Cglm.C46_mirror_quad",
    "Cglm.C46_mirror_cubic",
    "Cglm.C46_mirror_quart",
    "Cglm.C46_mirror_quint",
    "Cglm.C46_mirror_sine",
    "Cglm.C46_mirror_exp",
    "Cglm.C46_mirror_circ",
    "Cglm.C46_mirror_back",
    "Cglm.C46_mirror_bounce",
    "Cglm.C46_mirror_elast",
    "Cglm.C46_sym_linear",
    "Cglm.C46_sym_quad",
    "Cglm.C46_sym_cubic",
    "Cglm.C46_sym_quart",
    "Cglm.C46_sym_quint",
    "Cglm.C46_sym_back",
    "Cglm.C46_sym_circ",
    "Cglm.C46_sym_exp",
    "Cglm.C46_mono_linear",
    "Cglm.C46_mono_quad_in",
    "Cglm.C46_mono_quad_out",
    "Cglm.C46_mono_cubic_in",
    "Cglm.C46_mono_cubic_out",
    "Cglm.C46_mono_quart_in",
    "Cglm.C46_mono_quart_out",
    "Cglm.C46_mono_quint_in",
    "Cglm.C46_mono_quint_out",
    "Cglm.C46_mono_quad_inout",
    "Cglm.C46_mono_cubic_inout",
    "Cglm.C46_mono_quart_inout",
    "Cglm.C46_mono_quint_inout",
    "Cglm.C46_mono_circ_in",
    "Cglm.C46_mono_circ_out",
    "Cglm.C46_mono_circ_inout",
    "Cglm.C46_circ_domain",
    "Cglm.C46_mono_sine_out",
    "Cglm.C46_mono_sine_in",
    "Cglm.C46_mono_sine_inout",
    "Cglm.C46_mono_exp_in",
    "Cglm.C46_mono_exp_out",
    "Cglm.C46_mono_exp_inout",
    "Cglm.C46_bounce_out_range",
    "Cglm.C46_bounce_in_range",
    "Cglm.C46_bounce_inout_range",
    "Cglm.C46_bounce_joins",
    "Cglm.C46_back_overshoots",
    "Cglm.C46_halves_quad",
    "Cglm.C46_halves_cubic",
    "Cglm.C46_halves_quart",
    "Cglm.C46_halves_quint",
    "Cglm.C46_halves_circ",
    "Cglm.C46_halves_exp",
    "Cglm.C46_halves_elast",
    "Cglm.C46_back_in_curve",
    "Cglm.C46_back_out_curve",
    "Cglm.C46_halves_back"
   ],
   "note": "Every curve except glm_ease_bounce_inout starts at 0 and ends at 1 (sine and elastic up to the rounding of the pi constant); glm_ease_bounce_inout starts at 1/2 (C46_bounce_inout_refuted)."
  },
  {
   "property": "C47",
   "status": "proved",
   "theorems": [
    "Cglm.C47_min",
    "Cglm.C47_max",
    "Cglm.C47_imin",
    "Cglm.C47_imax",
    "Cglm.C47_clamp",
    "Cglm.C47_clamp_crossed",
    "Cglm.C47_clamp_idem",
    "Cglm.C47_clamp_mono",
    "Cglm.C47_clamp_zo",
    "Cglm.C47_lerp_start",
    "Cglm.C47_lerp_end",
    "Cglm.C47_lerp_affine",
    "Cglm.C47_lerp_convex",
    "Cglm.C47_lerp_swap",
    "Cglm.C47_lerp_between",
    "Cglm.C47_lerpc",
    "Cglm.C47_lerpc_between",
    "Cglm.C47_step",
    "Cglm.C47_step_mono",
    "Cglm.C47_smooth_ends",
    "Cglm.C47_smooth_sym",
    "Cglm.C47_smooth_mono",
    "Cglm.C47_smooth_range",
    "Cglm.C47_smooth_slope",
    "Cglm.C47_smoothstep",
    "Cglm.C47_smoothstep_mono",
    "Cglm.C47_smoothinterp",
    "Cglm.C47_smoothinterpc",
    "Cglm.C47_smoothinterpc_between",
    "Cglm.C47_percent_lerp",
    "Cglm.C47_lerp_percent",
    "Cglm.C47_percent_empty",
    "Cglm.C47_percentc",
    "Cglm.C47_pow2",
    "Cglm.C47_swapf",
    "Cglm.C47_eq",
    "Cglm.C47_eq_symm",
    "Cglm.C47_eq_refl",
    "Cglm.C47_eq_not_transitive",
    "Cglm.C47_rad_deg",
    "Cglm.C47_make",
    "Cglm.C47_rad",
    "Cglm.C47_signf",
    "Cglm.C47_signf_trichotomy",
    "Cglm.C47_signf_abs"
   ],
   "note": ""
  },
  {
   "property": "C48",
   "status": "proved",
   "theorems": [
    "Cglm.C48_vec2_norm2",
    "Cglm.C48_vec2_norm",
    "Cglm.C48_vec2_norm_zero",
    "Cglm.C48_vec2_norm_scale",
    "Cglm.C48_vec2_norm_triangle",
    "Cglm.C48_vec2_cauchy",
    "Cglm.C48_vec2_normalize",
    "Cglm.C48_vec2_normalize_small",
    "Cglm.C48_vec2_scale_as",
    "Cglm.C48_vec2_scale_as_small",
    "Cglm.C48_vec2_distance",
    "Cglm.C48_vec2_distance2",
    "Cglm.C48_vec2_distance_zero",
    "Cglm.C48_vec2_distance_comm",
    "Cglm.C48_vec2_distance_triangle",
    "Cglm.C48_vec2_center",
    "Cglm.C48_vec3_norm2",
    "Cglm.C48_vec3_norm",
    "Cglm.C48_vec3_norm_zero",
    "Cglm.C48_vec3_norm_scale",
    "Cglm.C48_vec3_norm_triangle",
    "Cglm.C48_vec3_cauchy",
    "Cglm.C48_vec3_normalize",
    "Cglm.C48_vec3_normalize_small",
    "Cglm.C48_normalize_alias",
    "Cglm.C48_vec3_scale_as",
    "Cglm.C48_vec3_scale_as_small",
    "Cglm.C48_vec3_distance",
    "Cglm.C48_vec3_distance2",
    "Cglm.C48_vec3_distance_zero",
    "Cglm.C48_vec3_distance_comm",
    "Cglm.C48_vec3_distance_triangle",
    "Cglm.C48_vec3_center",
    "Cglm.C48_vec3_norm_one",
    "Cglm.C48_vec3_norm_inf",
    "Cglm.C48_vec3_norm_order",
    "Cglm.C48_vec3_norm_one_triangle",
    "Cglm.C48_vec3_norm_inf_triangle",
    "Cglm.C48_vec3_norm_one_zero",
    "Cglm.C48_vec3_norm_inf_zero",
    "Cglm.C48_vec4_norm2",
    "Cglm.C48_vec4_norm",
    "Cglm.C48_vec4_norm_zero",
    "Cglm.C48_vec4_norm_scale",
    "Cglm.C48_vec4_norm_triangle",
    "Cglm.C48_vec4_cauchy",
    "Cglm.C48_vec4_normalize",
    "Cglm.C48_vec4_normalize_small",
    "Cglm.C48_vec4_scale_as",
    "Cglm.C48_vec4_scale_as_small",
    "Cglm.C48_vec4_distance",
    "Cglm.C48_vec4_distance2",
    "Cglm.C48_vec4_distance_zero",
    "Cglm.C48_vec4_distance_comm",
    "Cglm.C48_vec4_distance_triangle",
    "Cglm.C48_vec4_norm_one",
    "Cglm.C48_vec4_norm_inf",
    "Cglm.C48_vec4_norm_order",
    "Cglm.C48_vec4_norm_one_triangle",
    "Cglm.C48_vec4_norm_inf_triangle",
    "Cglm.C48_vec4_norm_one_zero",
    "Cglm.C48_vec4_norm_inf_zero"
   ],
   "note": ""
  },
  {
   "property": "C49",
   "status": "proved",
   "theorems": [
    "Cglm.C49_dot2",
    "Cglm.C49_dot3",
    "Cglm.C49_dot4",
    "Cglm.C49_cross3",
    "Cglm.C49_cross2",
    "Cglm.C49_wrappers",
    "Cglm.C49_dot2_comm",
    "Cglm.C49_dot3_comm",
    "Cglm.C49_dot4_comm",
    "Cglm.C49_dot2_linear",
    "Cglm.C49_dot3_linear",
    "Cglm.C49_dot4_linear",
    "Cglm.C49_cross2_anti",
    "Cglm.C49_cross_anti",
    "Cglm.C49_cross_self",
    "Cglm.C49_cross_linear",
    "Cglm.C49_cross_orthogonal",
    "Cglm.C49_triple",
    "Cglm.C49_triple_det",
    "Cglm.C49_lagrange",
    "Cglm.C49_jacobi",
    "Cglm.C49_bac_cab",
    "Cglm.C49_crossn",
    "Cglm.C49_crossn_parallel",
    "Cglm.C49_angle",
    "Cglm.C49_angle_right"
   ],
   "note": ""
  },
  {
   "property": "C50",
   "status": "proved",
   "theorems": [
    "Cglm.C50_rotate",
    "Cglm.C50_rotate_short",
    "Cglm.C50_rotate_mat4",
    "Cglm.C50_rotate_mat3",
    "Cglm.C50_rotate_quat",
    "Cglm.C50_rotate_dot",
    "Cglm.C50_rotate_len",
    "Cglm.C50_rotate_add",
    "Cglm.C50_rotate_zero",
    "Cglm.C50_rotate_m3",
    "Cglm.C50_rotate_m4",
    "Cglm.C50_rotate_m3_scaled",
    "Cglm.C50_rotate_m3_len",
    "Cglm.C50_rotate2",
    "Cglm.C50_rotate2_complex",
    "Cglm.C50_rotate2_len",
    "Cglm.C50_rotate2_add",
    "Cglm.C50_rotate2_mat3"
   ],
   "note": "For an axis at least FLT_EPSILON long; C50_rotate_short says what shorter axes give."
  },
  {
   "property": "C51",
   "status": "partial",
   "theorems": [
    "Cglm.C51_proj",
    "Cglm.C51_proj_nearest",
    "Cglm.C51_proj_idem",
    "Cglm.C51_ortho",
    "Cglm.C51_ortho_refuted",
    "Cglm.C51_ortho_nonzero_partial",
    "Cglm.C51_faceforward",
    "Cglm.C51_faceforward_side",
    "Cglm.C51_vec2_reflect",
    "Cglm.C51_vec2_reflect_involution",
    "Cglm.C51_vec2_reflect_len",
    "Cglm.C51_vec2_reflect_parts",
    "Cglm.C51_vec2_refract_fails",
    "Cglm.C51_vec2_refract",
    "Cglm.C51_vec3_reflect",
    "Cglm.C51_vec3_reflect_involution",
    "Cglm.C51_vec3_reflect_len",
    "Cglm.C51_vec3_reflect_parts",
    "Cglm.C51_vec3_refract_fails",
    "Cglm.C51_vec3_refract",
    "Cglm.C51_vec4_reflect_w",
    "Cglm.C51_vec4_reflect",
    "Cglm.C51_vec4_reflect_involution",
    "Cglm.C51_vec4_reflect_len",
    "Cglm.C51_vec4_reflect_parts",
    "Cglm.C51_vec4_refract_fails",
    "Cglm.C51_vec4_refract",
    "Cglm.C51_vec4_reflect_refuted"
   ],
   "note": "ortho is perpendicular but may be zero (C51_ortho_refuted); glm_vec4_reflect keeps the fourth component, so it is the reflection only when n.w = 0 (C51_vec4_reflect_refuted)."
  },
  {
   "property": "C52",
   "status": "proved",
   "theorems": [
    "Cglm.C52_vec2_add",
    "Cglm.C52_vec2_adds",
    "Cglm.C52_vec2_sub",
    "Cglm.C52_vec2_subs",
    "Cglm.C52_vec2_mul",
    "Cglm.C52_vec2_scale",
    "Cglm.C52_vec2_div",
    "Cglm.C52_vec2_divs",
    "Cglm.C52_vec2_addadd",
    "Cglm.C52_vec2_subadd",
    "Cglm.C52_vec2_muladd",
    "Cglm.C52_vec2_maxadd",
    "Cglm.C52_vec2_minadd",
    "Cglm.C52_vec2_subsub",
    "Cglm.C52_vec2_addsub",
    "Cglm.C52_vec2_mulsub",
    "Cglm.C52_vec2_maxsub",
    "Cglm.C52_vec2_minsub",
    "Cglm.C52_vec2_muladds",
    "Cglm.C52_vec2_mulsubs",
    "Cglm.C52_vec2_negate",
    "Cglm.C52_vec2_negate_to",
    "Cglm.C52_vec2_copy",
    "Cglm.C52_vec2_make",
    "Cglm.C52_vec2_zero",
    "Cglm.C52_vec2_one",
    "Cglm.C52_vec2_fill",
    "Cglm.C52_vec2_maxv",
    "Cglm.C52_vec2_minv",
    "Cglm.C52_vec2_clamp",
    "Cglm.C52_vec2_lerp",
    "Cglm.C52_vec2_step",
    "Cglm.C52_vec2_steps",
    "Cglm.C52_vec2_stepr",
    "Cglm.C52_vec2_sign",
    "Cglm.C52_vec2_abs",
    "Cglm.C52_vec2_floor",
    "Cglm.C52_vec2_mods",
    "Cglm.C52_vec2_sqrt",
    "Cglm.C52_vec2_fract",
    "Cglm.C52_vec3_add",
    "Cglm.C52_vec3_adds",
    "Cglm.C52_vec3_sub",
    "Cglm.C52_vec3_subs",
    "Cglm.C52_vec3_mul",
    "Cglm.C52_vec3_scale",
    "Cglm.C52_vec3_div",
    "Cglm.C52_vec3_divs",
    "Cglm.C52_vec3_addadd",
    "Cglm.C52_vec3_subadd",
    "Cglm.C52_vec3_muladd",
    "Cglm.C52_vec3_maxadd",
    "Cglm.C52_vec3_minadd",
    "Cglm.C52_vec3_subsub",
    "Cglm.C52_vec3_addsub",
    "Cglm.C52_vec3_mulsub",
    "Cglm.C52_vec3_maxsub",
    "Cglm.C52_vec3_minsub",
    "Cglm.C52_vec3_muladds",
    "Cglm.C52_vec3_mulsubs",
    "Cglm.C52_vec3_negate",
    "Cglm.C52_vec3_negate_to",
    "Cglm.C52_vec3_copy",
    "Cglm.C52_vec3_make",
    "Cglm.C52_vec3_zero",
    "Cglm.C52_vec3_one",
    "Cglm.C52_vec3_fill",
    "Cglm.C52_vec3_broadcast",
    "Cglm.C52_vec3_maxv",
    "Cglm.C52_vec3_minv",
    "Cglm.C52_vec3_clamp",
    "Cglm.C52_vec3_lerp",
    "Cglm.C52_vec3_lerpc",
    "Cglm.C52_vec3_mix",
    "Cglm.C52_vec3_mixc",
    "Cglm.C52_vec3_step",
    "Cglm.C52_vec3_steps",
    "Cglm.C52_vec3_stepr",
    "Cglm.C52_vec3_smoothstep",
    "Cglm.C52_vec3_smoothstep_uni",
    "Cglm.C52_vec3_smoothinterp",
    "Cglm.C52_vec3_smoothinterpc",
    "Cglm.C52_vec3_sign",
    "Cglm.C52_vec3_abs",
    "Cglm.C52_vec3_floor",
    "Cglm.C52_vec3_mods",
    "Cglm.C52_vec3_sqrt",
    "Cglm.C52_vec3_fract",
    "Cglm.C52_vec4_add",
    "Cglm.C52_vec4_adds",
    "Cglm.C52_vec4_sub",
    "Cglm.C52_vec4_subs",
    "Cglm.C52_vec4_mul",
    "Cglm.C52_vec4_scale",
    "Cglm.C52_vec4_div",
    "Cglm.C52_vec4_divs",
    "Cglm.C52_vec4_addadd",
    "Cglm.C52_vec4_subadd",
    "Cglm.C52_vec4_muladd",
    "Cglm.C52_vec4_maxadd",
    "Cglm.C52_vec4_minadd",
    "Cglm.C52_vec4_subsub",
    "Cglm.C52_vec4_addsub",
    "Cglm.C52_vec4_mulsub",
    "Cglm.C52_vec4_maxsub",
    "Cglm.C52_vec4_minsub",
    "Cglm.C52_vec4_muladds",
    "Cglm.C52_vec4_mulsubs",
    "Cglm.C52_vec4_negate",
    "Cglm.C52_vec4_negate_to",
    "Cglm.C52_vec4_copy",
    "Cglm.C52_vec4_make",
    "Cglm.C52_vec4_zero",
    "Cglm.C52_vec4_one",
    "Cglm.C52_vec4_fill",
    "Cglm.C52_vec4_broadcast",
    "Cglm.C52_vec4_maxv",
    "Cglm.C52_vec4_minv",
    "Cglm.C52_vec4_clamp",
    "Cglm.C52_vec4_lerp",
    "Cglm.C52_vec4_lerpc",
    "Cglm.C52_vec4_mix",
    "Cglm.C52_vec4_mixc",
    "Cglm.C52_vec4_step",
    "Cglm.C52_vec4_steps",
    "Cglm.C52_vec4_stepr",
    "Cglm.C52_vec4_smoothstep",
    "Cglm.C52_vec4_smoothstep_uni",
    "Cglm.C52_vec4_smoothinterp",
    "Cglm.C52_vec4_smoothinterpc",
    "Cglm.C52_vec4_sign",
    "Cglm.C52_vec4_abs",
    "Cglm.C52_vec4_floor",
    "Cglm.C52_vec4_mods",
    "Cglm.C52_vec4_sqrt",
    "Cglm.C52_vec4_fract",
    "Cglm.C52_vec2_isnan",
    "Cglm.C52_vec2_isinf",
    "Cglm.C52_vec2_isvalid",
    "Cglm.C52_vec2_eqv",
    "Cglm.C52_vec2_eqv_eps",
    "Cglm.C52_vec2_eq_eps",
    "Cglm.C52_vec3_isnan",
    "Cglm.C52_vec3_isinf",
    "Cglm.C52_vec3_isvalid",
    "Cglm.C52_vec3_eqv",
    "Cglm.C52_vec3_eqv_eps",
    "Cglm.C52_vec3_eq_eps",
    "Cglm.C52_vec4_isnan",
    "Cglm.C52_vec4_isinf",
    "Cglm.C52_vec4_isvalid",
    "Cglm.C52_vec4_eqv",
    "Cglm.C52_vec4_eqv_eps",
    "Cglm.C52_vec4_eq_eps",
    "Cglm.C52_vec3_of_vec4",
    "Cglm.C52_vec4_of_vec3",
    "Cglm.C52_vec2_of_vec3",
    "Cglm.C52_vec4_ucopy",
    "Cglm.C52_vec3_hadd",
    "Cglm.C52_vec4_hadd",
    "Cglm.C52_vec2_eq",
    "Cglm.C52_vec2_eqv_real",
    "Cglm.C52_vec2_eq_all",
    "Cglm.C52_vec2_max",
    "Cglm.C52_vec2_min",
    "Cglm.C52_vec2_fract_real",
    "Cglm.C52_vec3_eq",
    "Cglm.C52_vec3_eqv_real",
    "Cglm.C52_vec3_eq_all",
    "Cglm.C52_vec3_max",
    "Cglm.C52_vec3_min",
    "Cglm.C52_vec3_fract_real",
    "Cglm.C52_vec4_eq",
    "Cglm.C52_vec4_eqv_real",
    "Cglm.C52_vec4_eq_all",
    "Cglm.C52_vec4_max",
    "Cglm.C52_vec4_min",
    "Cglm.C52_vec4_fract_real",
    "Cglm.C52_eq_all_refuted",
    "Cglm.C52_complex_mul",
    "Cglm.C52_complex_div",
    "Cglm.C52_complex_conjugate"
   ],
   "note": "eq_all compares with a tolerance (C52_eq_all_refuted)."
  },
  {
   "property": "C53",
   "status": "proved",
   "theorems": [
    "Cglm.C53_imin_imax",
    "Cglm.C53_ivec2",
    "Cglm.C53_ivec2_copy",
    "Cglm.C53_ivec2_zero_one",
    "Cglm.C53_ivec2_fill",
    "Cglm.C53_ivec2_add",
    "Cglm.C53_ivec2_sub",
    "Cglm.C53_ivec2_mul",
    "Cglm.C53_ivec2_adds",
    "Cglm.C53_ivec2_subs",
    "Cglm.C53_ivec2_scale",
    "Cglm.C53_ivec2_div",
    "Cglm.C53_ivec2_divs",
    "Cglm.C53_ivec2_mod",
    "Cglm.C53_ivec2_abs",
    "Cglm.C53_ivec2_addadd",
    "Cglm.C53_ivec2_addadds",
    "Cglm.C53_ivec2_subadd",
    "Cglm.C53_ivec2_subadds",
    "Cglm.C53_ivec2_muladd",
    "Cglm.C53_ivec2_muladds",
    "Cglm.C53_ivec2_maxadd",
    "Cglm.C53_ivec2_minadd",
    "Cglm.C53_ivec2_addsub",
    "Cglm.C53_ivec2_addsubs",
    "Cglm.C53_ivec2_subsub",
    "Cglm.C53_ivec2_subsubs",
    "Cglm.C53_ivec2_mulsub",
    "Cglm.C53_ivec2_mulsubs",
    "Cglm.C53_ivec2_maxsub",
    "Cglm.C53_ivec2_minsub",
    "Cglm.C53_ivec2_maxv",
    "Cglm.C53_ivec2_minv",
    "Cglm.C53_ivec2_clamp",
    "Cglm.C53_ivec2_eq",
    "Cglm.C53_ivec2_eqv",
    "Cglm.C53_ivec2_distance2",
    "Cglm.C53_ivec2_distance",
    "Cglm.C53_ivec2_dot",
    "Cglm.C53_ivec2_cross",
    "Cglm.C53_ivec3",
    "Cglm.C53_ivec3_copy",
    "Cglm.C53_ivec3_zero_one",
    "Cglm.C53_ivec3_fill",
    "Cglm.C53_ivec3_add",
    "Cglm.C53_ivec3_sub",
    "Cglm.C53_ivec3_mul",
    "Cglm.C53_ivec3_adds",
    "Cglm.C53_ivec3_subs",
    "Cglm.C53_ivec3_scale",
    "Cglm.C53_ivec3_div",
    "Cglm.C53_ivec3_divs",
    "Cglm.C53_ivec3_mod",
    "Cglm.C53_ivec3_abs",
    "Cglm.C53_ivec3_addadd",
    "Cglm.C53_ivec3_addadds",
    "Cglm.C53_ivec3_subadd",
    "Cglm.C53_ivec3_subadds",
    "Cglm.C53_ivec3_muladd",
    "Cglm.C53_ivec3_muladds",
    "Cglm.C53_ivec3_maxadd",
    "Cglm.C53_ivec3_minadd",
    "Cglm.C53_ivec3_addsub",
    "Cglm.C53_ivec3_addsubs",
    "Cglm.C53_ivec3_subsub",
    "Cglm.C53_ivec3_subsubs",
    "Cglm.C53_ivec3_mulsub",
    "Cglm.C53_ivec3_mulsubs",
    "Cglm.C53_ivec3_maxsub",
    "Cglm.C53_ivec3_minsub",
    "Cglm.C53_ivec3_maxv",
    "Cglm.C53_ivec3_minv",
    "Cglm.C53_ivec3_clamp",
    "Cglm.C53_ivec3_eq",
    "Cglm.C53_ivec3_eqv",
    "Cglm.C53_ivec3_distance2",
    "Cglm.C53_ivec3_distance",
    "Cglm.C53_ivec3_dot",
    "Cglm.C53_ivec3_norm2",
    "Cglm.C53_ivec3_norm",
    "Cglm.C53_ivec4",
    "Cglm.C53_ivec4_copy",
    "Cglm.C53_ivec4_zero_one",
    "Cglm.C53_ivec4_add",
    "Cglm.C53_ivec4_sub",
    "Cglm.C53_ivec4_mul",
    "Cglm.C53_ivec4_adds",
    "Cglm.C53_ivec4_subs",
    "Cglm.C53_ivec4_scale",
    "Cglm.C53_ivec4_abs",
    "Cglm.C53_ivec4_addadd",
    "Cglm.C53_ivec4_addadds",
    "Cglm.C53_ivec4_subadd",
    "Cglm.C53_ivec4_subadds",
    "Cglm.C53_ivec4_muladd",
    "Cglm.C53_ivec4_muladds",
    "Cglm.C53_ivec4_maxadd",
    "Cglm.C53_ivec4_minadd",
    "Cglm.C53_ivec4_addsub",
    "Cglm.C53_ivec4_addsubs",
    "Cglm.C53_ivec4_subsub",
    "Cglm.C53_ivec4_subsubs",
    "Cglm.C53_ivec4_mulsub",
    "Cglm.C53_ivec4_mulsubs",
    "Cglm.C53_ivec4_maxsub",
    "Cglm.C53_ivec4_minsub",
    "Cglm.C53_ivec4_maxv",
    "Cglm.C53_ivec4_minv",
    "Cglm.C53_ivec4_clamp",
    "Cglm.C53_ivec4_distance2",
    "Cglm.C53_ivec4_distance"
   ],
   "note": "Checked 32-bit arithmetic: every theorem is an iff that gives the exact integer result and characterises undefined inputs. Length and distance use exact real square roots for the float conversion."
  },
  {
   "property": "C54",
   "status": "partial",
   "theorems": [
    "Cglm.C54_sign_partial",
    "Cglm.C54_refuted",
    "Cglm.C54_undefined_iff"
   ],
   "note": "Proved for every int except INT_MIN; for INT_MIN the negation overflows (C54_refuted), and C54_undefined_iff shows it is the only undefined input."
  },
  {
   "property": "C55",
   "status": "partial",
   "theorems": [
    "Cglm.C55_scale_to",
    "Cglm.C55_translate2d_to",
    "Cglm.C55_scale2d_to",
    "Cglm.C55_rotate2d_to",
    "Cglm.C55_mul",
    "Cglm.C55_mul_rot",
    "Cglm.C55_translated_to",
    "Cglm.C55_rotated_x",
    "Cglm.C55_rotated_y",
    "Cglm.C55_rotated_z",
    "Cglm.C55_translate_to",
    "Cglm.C55_rotate_x",
    "Cglm.C55_rotate_y",
    "Cglm.C55_rotate_z",
    "Cglm.C55_unprojecti_no",
    "Cglm.C55_project_no",
    "Cglm.C55_unprojecti_zo",
    "Cglm.C55_project_zo",
    "Cglm.C55_unprojecti",
    "Cglm.C55_unproject",
    "Cglm.C55_project",
    "Cglm.C55_aabb2d_copy",
    "Cglm.C55_aabb2d_transform",
    "Cglm.C55_aabb2d_merge",
    "Cglm.C55_aabb2d_crop",
    "Cglm.C55_aabb2d_crop_until",
    "Cglm.C55_aabb_transform",
    "Cglm.C55_aabb_merge",
    "Cglm.C55_aabb_crop",
    "Cglm.C55_aabb_crop_until",
    "Cglm.C55_decompose_rs_inplace",
    "Cglm.C55_decompose_inplace",
    "Cglm.C55_ray_at",
    "Cglm.C55_sphere_transform",
    "Cglm.C55_sphere_merge",
    "Cglm.C55_ivec2",
    "Cglm.C55_ivec2_copy",
    "Cglm.C55_ivec2_add",
    "Cglm.C55_ivec2_adds",
    "Cglm.C55_ivec2_sub",
    "Cglm.C55_ivec2_subs",
    "Cglm.C55_ivec2_mul",
    "Cglm.C55_ivec2_scale",
    "Cglm.C55_ivec2_div",
    "Cglm.C55_ivec2_divs",
    "Cglm.C55_ivec2_mod",
    "Cglm.C55_ivec2_addadd",
    "Cglm.C55_ivec2_addadds",
    "Cglm.C55_ivec2_subadd",
    "Cglm.C55_ivec2_subadds",
    "Cglm.C55_ivec2_muladd",
    "Cglm.C55_ivec2_muladds",
    "Cglm.C55_ivec2_maxadd",
    "Cglm.C55_ivec2_minadd",
    "Cglm.C55_ivec2_subsub",
    "Cglm.C55_ivec2_subsubs",
    "Cglm.C55_ivec2_addsub",
    "Cglm.C55_ivec2_addsubs",
    "Cglm.C55_ivec2_mulsub",
    "Cglm.C55_ivec2_mulsubs",
    "Cglm.C55_ivec2_maxsub",
    "Cglm.C55_ivec2_minsub",
    "Cglm.C55_ivec2_maxv",
    "Cglm.C55_ivec2_minv",
    "Cglm.C55_ivec2_abs",
    "Cglm.C55_ivec3_copy",
    "Cglm.C55_ivec3_add",
    "Cglm.C55_ivec3_adds",
    "Cglm.C55_ivec3_sub",
    "Cglm.C55_ivec3_subs",
    "Cglm.C55_ivec3_mul",
    "Cglm.C55_ivec3_scale",
    "Cglm.C55_ivec3_div",
    "Cglm.C55_ivec3_divs",
    "Cglm.C55_ivec3_mod",
    "Cglm.C55_ivec3_addadd",
    "Cglm.C55_ivec3_addadds",
    "Cglm.C55_ivec3_subadd",
    "Cglm.C55_ivec3_subadds",
    "Cglm.C55_ivec3_muladd",
    "Cglm.C55_ivec3_muladds",
    "Cglm.C55_ivec3_maxadd",
    "Cglm.C55_ivec3_minadd",
    "Cglm.C55_ivec3_subsub",
    "Cglm.C55_ivec3_subsubs",
    "Cglm.C55_ivec3_addsub",
    "Cglm.C55_ivec3_addsubs",
    "Cglm.C55_ivec3_mulsub",
    "Cglm.C55_ivec3_mulsubs",
    "Cglm.C55_ivec3_maxsub",
    "Cglm.C55_ivec3_minsub",
    "Cglm.C55_ivec3_maxv",
    "Cglm.C55_ivec3_minv",
    "Cglm.C55_ivec3_abs",
    "Cglm.C55_ivec4_copy",
    "Cglm.C55_ivec4_add",
    "Cglm.C55_ivec4_adds",
    "Cglm.C55_ivec4_sub",
    "Cglm.C55_ivec4_subs",
    "Cglm.C55_ivec4_mul",
    "Cglm.C55_ivec4_scale",
    "Cglm.C55_ivec4_addadd",
    "Cglm.C55_ivec4_addadds",
    "Cglm.C55_ivec4_subadd",
    "Cglm.C55_ivec4_subadds",
    "Cglm.C55_ivec4_muladd",
    "Cglm.C55_ivec4_muladds",
    "Cglm.C55_ivec4_maxadd",
    "Cglm.C55_ivec4_minadd",
    "Cglm.C55_ivec4_subsub",
    "Cglm.C55_ivec4_subsubs",
    "Cglm.C55_ivec4_addsub",
    "Cglm.C55_ivec4_addsubs",
    "Cglm.C55_ivec4_mulsub",
    "Cglm.C55_ivec4_mulsubs",
    "Cglm.C55_ivec4_maxsub",
    "Cglm.C55_ivec4_minsub",
    "Cglm.C55_ivec4_maxv",
    "Cglm.C55_ivec4_minv",
    "Cglm.C55_ivec4_abs",
    "Cglm.C55_mat2_copy",
    "Cglm.C55_mat2_mul",
    "Cglm.C55_mat2_inv",
    "Cglm.C55_mat2x3_copy",
    "Cglm.C55_mat2x4_copy",
    "Cglm.C55_mat3_copy",
    "Cglm.C55_mat3_mul",
    "Cglm.C55_mat3_mulv",
    "Cglm.C55_mat3_inv",
    "Cglm.C55_mat3x2_copy",
    "Cglm.C55_mat3x4_copy",
    "Cglm.C55_mat4_ucopy",
    "Cglm.C55_mat4_copy",
    "Cglm.C55_mat4_mul",
    "Cglm.C55_mat4_mulv",
    "Cglm.C55_mat4_mulv3",
    "Cglm.C55_mat4_inv",
    "Cglm.C55_mat4_inv_fast",
    "Cglm.C55_mat4x2_copy",
    "Cglm.C55_mat4x3_copy",
    "Cglm.C55_quat_copy",
    "Cglm.C55_quat_normalize_to",
    "Cglm.C55_quat_conjugate",
    "Cglm.C55_quat_inv",
    "Cglm.C55_quat_add",
    "Cglm.C55_quat_sub",
    "Cglm.C55_quat_lerp",
    "Cglm.C55_quat_lerpc",
    "Cglm.C55_quat_nlerp",
    "Cglm.C55_quat_slerp",
    "Cglm.C55_quat_slerp_longest",
    "Cglm.C55_quat_rotatev",
    "Cglm.C55_quat_rotate",
    "Cglm.C55_quat_make",
    "Cglm.C55_mat2_mulv_inplace",
    "Cglm.C55_mat2_transpose_to_inplace",
    "Cglm.C55_mat3_transpose_to_inplace",
    "Cglm.C55_mat4_transpose_to_inplace",
    "Cglm.C55_quat_mul_p_inplace",
    "Cglm.C55_quat_mul_q_inplace",
    "Cglm.C55_vec4_reflect_inplace",
    "Cglm.C55_vec2_refract_inplace",
    "Cglm.C55_vec3_refract_inplace",
    "Cglm.C55_vec4_refract_inplace",
    "Cglm.C55_aabb_crop_until_inplace",
    "Cglm.C55_aabb2d_crop_until_inplace",
    "Cglm.C55_mat2_mulv_refuted",
    "Cglm.C55_mat2_transpose_to_refuted",
    "Cglm.C55_mat3_transpose_to_refuted",
    "Cglm.C55_mat4_transpose_to_refuted",
    "Cglm.C55_quat_mul_p_refuted",
    "Cglm.C55_quat_mul_q_refuted",
    "Cglm.C55_vec4_reflect_refuted",
    "Cglm.C55_vec2_refract_refuted",
    "Cglm.C55_vec3_refract_refuted",
    "Cglm.C55_vec4_refract_refuted",
    "Cglm.C55_aabb_crop_until_refuted",
    "Cglm.C55_aabb2d_crop_until_refuted",
    "Cglm.C55_vec2",
    "Cglm.C55_vec2_copy",
    "Cglm.C55_vec2_add",
    "Cglm.C55_vec2_adds",
    "Cglm.C55_vec2_sub",
    "Cglm.C55_vec2_subs",
    "Cglm.C55_vec2_mul",
    "Cglm.C55_vec2_scale",
    "Cglm.C55_vec2_scale_as",
    "Cglm.C55_vec2_div",
    "Cglm.C55_vec2_divs",
    "Cglm.C55_vec2_addadd",
    "Cglm.C55_vec2_subadd",
    "Cglm.C55_vec2_muladd",
    "Cglm.C55_vec2_muladds",
    "Cglm.C55_vec2_maxadd",
    "Cglm.C55_vec2_minadd",
    "Cglm.C55_vec2_subsub",
    "Cglm.C55_vec2_addsub",
    "Cglm.C55_vec2_mulsub",
    "Cglm.C55_vec2_mulsubs",
    "Cglm.C55_vec2_maxsub",
    "Cglm.C55_vec2_minsub",
    "Cglm.C55_vec2_negate_to",
    "Cglm.C55_vec2_normalize_to",
    "Cglm.C55_vec2_rotate",
    "Cglm.C55_vec2_center",
    "Cglm.C55_vec2_maxv",
    "Cglm.C55_vec2_minv",
    "Cglm.C55_vec2_lerp",
    "Cglm.C55_vec2_step",
    "Cglm.C55_vec2_make",
    "Cglm.C55_vec2_reflect",
    "Cglm.C55_vec2_refract",
    "Cglm.C55_vec2_sign",
    "Cglm.C55_vec2_abs",
    "Cglm.C55_vec2_fract",
    "Cglm.C55_vec2_floor",
    "Cglm.C55_vec2_mods",
    "Cglm.C55_vec2_sqrt",
    "Cglm.C55_vec2_complex_mul",
    "Cglm.C55_vec2_steps",
    "Cglm.C55_vec2_stepr",
    "Cglm.C55_vec2_complex_div",
    "Cglm.C55_vec2_complex_conjugate",
    "Cglm.C55_vec3_copy",
    "Cglm.C55_vec3_add",
    "Cglm.C55_vec3_adds",
    "Cglm.C55_vec3_sub",
    "Cglm.C55_vec3_subs",
    "Cglm.C55_vec3_mul",
    "Cglm.C55_vec3_scale",
    "Cglm.C55_vec3_scale_as",
    "Cglm.C55_vec3_div",
    "Cglm.C55_vec3_divs",
    "Cglm.C55_vec3_addadd",
    "Cglm.C55_vec3_subadd",
    "Cglm.C55_vec3_muladd",
    "Cglm.C55_vec3_muladds",
    "Cglm.C55_vec3_maxadd",
    "Cglm.C55_vec3_minadd",
    "Cglm.C55_vec3_subsub",
    "Cglm.C55_vec3_addsub",
    "Cglm.C55_vec3_mulsub",
    "Cglm.C55_vec3_mulsubs",
    "Cglm.C55_vec3_maxsub",
    "Cglm.C55_vec3_minsub",
    "Cglm.C55_vec3_negate_to",
    "Cglm.C55_vec3_normalize_to",
    "Cglm.C55_vec3_cross",
    "Cglm.C55_vec3_crossn",
    "Cglm.C55_vec3_rotate",
    "Cglm.C55_vec3_rotate_m4",
    "Cglm.C55_vec3_rotate_m3",
    "Cglm.C55_vec3_proj",
    "Cglm.C55_vec3_center",
    "Cglm.C55_vec3_maxv",
    "Cglm.C55_vec3_minv",
    "Cglm.C55_vec3_ortho",
    "Cglm.C55_vec3_lerp",
    "Cglm.C55_vec3_lerpc",
    "Cglm.C55_vec3_mix",
    "Cglm.C55_vec3_mixc",
    "Cglm.C55_vec3_step",
    "Cglm.C55_vec3_smoothstep_uni",
    "Cglm.C55_vec3_smoothstep",
    "Cglm.C55_vec3_smoothinterp",
    "Cglm.C55_vec3_smoothinterpc",
    "Cglm.C55_cross",
    "Cglm.C55_normalize_to",
    "Cglm.C55_vec3_make",
    "Cglm.C55_vec3_faceforward",
    "Cglm.C55_vec3_reflect",
    "Cglm.C55_vec3_refract",
    "Cglm.C55_vec3_sign",
    "Cglm.C55_vec3_abs",
    "Cglm.C55_vec3_fract",
    "Cglm.C55_vec3_floor",
    "Cglm.C55_vec3_mods",
    "Cglm.C55_vec3_steps",
    "Cglm.C55_vec3_stepr",
    "Cglm.C55_vec3_sqrt",
    "Cglm.C55_vec4_copy",
    "Cglm.C55_vec4_ucopy",
    "Cglm.C55_vec4_add",
    "Cglm.C55_vec4_adds",
    "Cglm.C55_vec4_sub",
    "Cglm.C55_vec4_subs",
    "Cglm.C55_vec4_mul",
    "Cglm.C55_vec4_scale",
    "Cglm.C55_vec4_scale_as",
    "Cglm.C55_vec4_div",
    "Cglm.C55_vec4_divs",
    "Cglm.C55_vec4_addadd",
    "Cglm.C55_vec4_subadd",
    "Cglm.C55_vec4_muladd",
    "Cglm.C55_vec4_muladds",
    "Cglm.C55_vec4_maxadd",
    "Cglm.C55_vec4_minadd",
    "Cglm.C55_vec4_subsub",
    "Cglm.C55_vec4_addsub",
    "Cglm.C55_vec4_mulsub",
    "Cglm.C55_vec4_mulsubs",
    "Cglm.C55_vec4_maxsub",
    "Cglm.C55_vec4_minsub",
    "Cglm.C55_vec4_negate_to",
    "Cglm.C55_vec4_normalize_to",
    "Cglm.C55_vec4_maxv",
    "Cglm.C55_vec4_minv",
    "Cglm.C55_vec4_lerp",
    "Cglm.C55_vec4_lerpc",
    "Cglm.C55_vec4_mix",
    "Cglm.C55_vec4_mixc",
    "Cglm.C55_vec4_step",
    "Cglm.C55_vec4_smoothstep_uni",
    "Cglm.C55_vec4_smoothstep",
    "Cglm.C55_vec4_smoothinterp",
    "Cglm.C55_vec4_smoothinterpc",
    "Cglm.C55_vec4_make",
    "Cglm.C55_vec4_reflect",
    "Cglm.C55_vec4_refract",
    "Cglm.C55_vec4_sign",
    "Cglm.C55_vec4_abs",
    "Cglm.C55_vec4_fract",
    "Cglm.C55_vec4_floor",
    "Cglm.C55_vec4_mods",
    "Cglm.C55_vec4_steps",
    "Cglm.C55_vec4_stepr",
    "Cglm.C55_vec4_sqrt"
   ],
   "note": "For every function with inputs of the same type as an output, the in-place call equals the out-of-place one in the memory model, for every scalar type; likewise for the integer vectors. Exceptions proved by a witness (C55_*_refuted), with the exact in-place result (C55_*_inplace): mat2_mulv, mat2/3/4_transpose_to, quat_mul, vec4_reflect, vec2/3/4_refract, aabb_crop_until and aabb2d_crop_until on the clamp box. glm_decompose and glm_decompose_rs in place are proved over the reals. With partial overlap the call stays memory safe (C56_any_*); its value is described in C98."
  },
  {
   "property": "C56",
   "status": "proved",
   "theorems": [
    "Cglm.C56_translate_make",
    "Cglm.C56_scale_to",
    "Cglm.C56_scale_make",
    "Cglm.C56_scale",
    "Cglm.C56_scale_uni",
    "Cglm.C56_rotate_make",
    "Cglm.C56_decompose_scalev",
    "Cglm.C56_uniscaled",
    "Cglm.C56_decompose_rs",
    "Cglm.C56_decompose",
    "Cglm.C56_translate2d",
    "Cglm.C56_translate2d_to",
    "Cglm.C56_translate2d_x",
    "Cglm.C56_translate2d_y",
    "Cglm.C56_translate2d_make",
    "Cglm.C56_scale2d_to",
    "Cglm.C56_scale2d_make",
    "Cglm.C56_scale2d",
    "Cglm.C56_scale2d_uni",
    "Cglm.C56_rotate2d_make",
    "Cglm.C56_rotate2d",
    "Cglm.C56_rotate2d_to",
    "Cglm.C56_translated2d",
    "Cglm.C56_translated2d_x",
    "Cglm.C56_translated2d_y",
    "Cglm.C56_rotated2d",
    "Cglm.C56_scaled2d",
    "Cglm.C56_scaled2d_uni",
    "Cglm.C56_mul",
    "Cglm.C56_mul_rot",
    "Cglm.C56_inv_tr",
    "Cglm.C56_translated",
    "Cglm.C56_translated_to",
    "Cglm.C56_translated_x",
    "Cglm.C56_translated_y",
    "Cglm.C56_translated_z",
    "Cglm.C56_rotated_x",
    "Cglm.C56_rotated_y",
    "Cglm.C56_rotated_z",
    "Cglm.C56_rotated",
    "Cglm.C56_rotated_at",
    "Cglm.C56_spinned",
    "Cglm.C56_translate",
    "Cglm.C56_translate_to",
    "Cglm.C56_translate_x",
    "Cglm.C56_translate_y",
    "Cglm.C56_translate_z",
    "Cglm.C56_rotate_x",
    "Cglm.C56_rotate_y",
    "Cglm.C56_rotate_z",
    "Cglm.C56_rotate",
    "Cglm.C56_rotate_at",
    "Cglm.C56_rotate_atm",
    "Cglm.C56_spin",
    "Cglm.C56_frustum",
    "Cglm.C56_ortho",
    "Cglm.C56_ortho_aabb",
    "Cglm.C56_ortho_aabb_p",
    "Cglm.C56_ortho_aabb_pz",
    "Cglm.C56_ortho_default",
    "Cglm.C56_ortho_default_s",
    "Cglm.C56_perspective",
    "Cglm.C56_persp_move_far",
    "Cglm.C56_perspective_default",
    "Cglm.C56_perspective_resize",
    "Cglm.C56_lookat",
    "Cglm.C56_look",
    "Cglm.C56_look_anyup",
    "Cglm.C56_persp_decomp",
    "Cglm.C56_persp_decompv",
    "Cglm.C56_persp_decomp_x",
    "Cglm.C56_persp_decomp_y",
    "Cglm.C56_persp_decomp_z",
    "Cglm.C56_persp_decomp_far",
    "Cglm.C56_persp_decomp_near",
    "Cglm.C56_persp_sizes",
    "Cglm.C56_ortho_lh_no",
    "Cglm.C56_ortho_aabb_lh_no",
    "Cglm.C56_ortho_aabb_p_lh_no",
    "Cglm.C56_ortho_aabb_pz_lh_no",
    "Cglm.C56_ortho_default_lh_no",
    "Cglm.C56_ortho_default_s_lh_no",
    "Cglm.C56_ortho_lh_zo",
    "Cglm.C56_ortho_aabb_lh_zo",
    "Cglm.C56_ortho_aabb_p_lh_zo",
    "Cglm.C56_ortho_aabb_pz_lh_zo",
    "Cglm.C56_ortho_default_lh_zo",
    "Cglm.C56_ortho_default_s_lh_zo",
    "Cglm.C56_ortho_rh_no",
    "Cglm.C56_ortho_aabb_rh_no",
    "Cglm.C56_ortho_aabb_p_rh_no",
    "Cglm.C56_ortho_aabb_pz_rh_no",
    "Cglm.C56_ortho_default_rh_no",
    "Cglm.C56_ortho_default_s_rh_no",
    "Cglm.C56_ortho_rh_zo",
    "Cglm.C56_ortho_aabb_rh_zo",
    "Cglm.C56_ortho_aabb_p_rh_zo",
    "Cglm.C56_ortho_aabb_pz_rh_zo",
    "Cglm.C56_ortho_default_rh_zo",
    "Cglm.C56_ortho_default_s_rh_zo",
    "Cglm.C56_persp_fovy",
    "Cglm.C56_persp_aspect",
    "Cglm.C56_frustum_lh_no",
    "Cglm.C56_perspective_lh_no",
    "Cglm.C56_perspective_default_lh_no",
    "Cglm.C56_perspective_resize_lh_no",
    "Cglm.C56_persp_move_far_lh_no",
    "Cglm.C56_persp_decomp_lh_no",
    "Cglm.C56_persp_decompv_lh_no",
    "Cglm.C56_persp_decomp_x_lh_no",
    "Cglm.C56_persp_decomp_y_lh_no",
    "Cglm.C56_persp_decomp_z_lh_no",
    "Cglm.C56_persp_decomp_far_lh_no",
    "Cglm.C56_persp_decomp_near_lh_no",
    "Cglm.C56_persp_sizes_lh_no",
    "Cglm.C56_persp_fovy_lh_no",
    "Cglm.C56_persp_aspect_lh_no",
    "Cglm.C56_frustum_lh_zo",
    "Cglm.C56_perspective_lh_zo",
    "Cglm.C56_persp_move_far_lh_zo",
    "Cglm.C56_perspective_default_lh_zo",
    "Cglm.C56_perspective_resize_lh_zo",
    "Cglm.C56_persp_decomp_lh_zo",
    "Cglm.C56_persp_decompv_lh_zo",
    "Cglm.C56_persp_decomp_x_lh_zo",
    "Cglm.C56_persp_decomp_y_lh_zo",
    "Cglm.C56_persp_decomp_z_lh_zo",
    "Cglm.C56_persp_decomp_far_lh_zo",
    "Cglm.C56_persp_decomp_near_lh_zo",
    "Cglm.C56_persp_sizes_lh_zo",
    "Cglm.C56_persp_fovy_lh_zo",
    "Cglm.C56_persp_aspect_lh_zo",
    "Cglm.C56_frustum_rh_no",
    "Cglm.C56_perspective_rh_no",
    "Cglm.C56_perspective_default_rh_no",
    "Cglm.C56_perspective_resize_rh_no",
    "Cglm.C56_persp_move_far_rh_no",
    "Cglm.C56_persp_decomp_rh_no",
    "Cglm.C56_persp_decompv_rh_no",
    "Cglm.C56_persp_decomp_x_rh_no",
    "Cglm.C56_persp_decomp_y_rh_no",
    "Cglm.C56_persp_decomp_z_rh_no",
    "Cglm.C56_persp_decomp_far_rh_no",
    "Cglm.C56_persp_decomp_near_rh_no",
    "Cglm.C56_persp_sizes_rh_no",
    "Cglm.C56_persp_fovy_rh_no",
    "Cglm.C56_persp_aspect_rh_no",
    "Cglm.C56_frustum_rh_zo",
    "Cglm.C56_perspective_rh_zo",
    "Cglm.C56_perspective_default_rh_zo",
    "Cglm.C56_perspective_resize_rh_zo",
    "Cglm.C56_persp_move_far_rh_zo",
    "Cglm.C56_persp_decomp_rh_zo",
    "Cglm.C56_persp_decompv_rh_zo",
    "Cglm.C56_persp_decomp_x_rh_zo",
    "Cglm.C56_persp_decomp_y_rh_zo",
    "Cglm.C56_persp_decomp_z_rh_zo",
    "Cglm.C56_persp_decomp_far_rh_zo",
    "Cglm.C56_persp_decomp_near_rh_zo",
    "Cglm.C56_persp_sizes_rh_zo",
    "Cglm.C56_persp_fovy_rh_zo",
    "Cglm.C56_persp_aspect_rh_zo",
    "Cglm.C56_unprojecti_no",
    "Cglm.C56_project_no",
    "Cglm.C56_project_z_no",
    "Cglm.C56_unprojecti_zo",
    "Cglm.C56_project_zo",
    "Cglm.C56_project_z_zo",
    "Cglm.C56_lookat_lh",
    "Cglm.C56_look_lh",
    "Cglm.C56_look_anyup_lh",
    "Cglm.C56_lookat_lh_no",
    "Cglm.C56_look_lh_no",
    "Cglm.C56_look_anyup_lh_no",
    "Cglm.C56_lookat_lh_zo",
    "Cglm.C56_look_lh_zo",
    "Cglm.C56_look_anyup_lh_zo",
    "Cglm.C56_lookat_rh",
    "Cglm.C56_look_rh",
    "Cglm.C56_look_anyup_rh",
    "Cglm.C56_lookat_rh_no",
    "Cglm.C56_look_rh_no",
    "Cglm.C56_look_anyup_rh_no",
    "Cglm.C56_lookat_rh_zo",
    "Cglm.C56_look_rh_zo",
    "Cglm.C56_look_anyup_rh_zo",
    "Cglm.C56_unprojecti",
    "Cglm.C56_unproject",
    "Cglm.C56_project",
    "Cglm.C56_project_z",
    "Cglm.C56_pickmatrix",
    "Cglm.C56_any_mul",
    "Cglm.C56_any_mul_rot",
    "Cglm.C56_any_inv_tr",
    "Cglm.C56_any_translate_make",
    "Cglm.C56_any_scale_to",
    "Cglm.C56_any_scale_make",
    "Cglm.C56_any_scale",
    "Cglm.C56_any_scale_uni",
    "Cglm.C56_any_rotate_make",
    "Cglm.C56_any_decompose_scalev",
    "Cglm.C56_any_uniscaled",
    "Cglm.C56_any_decompose_rs",
    "Cglm.C56_any_decompose",
    "Cglm.C56_any_translate",
    "Cglm.C56_any_translate_to",
    "Cglm.C56_any_translate_x",
    "Cglm.C56_any_translate_y",
    "Cglm.C56_any_translate_z",
    "Cglm.C56_any_rotate_x",
    "Cglm.C56_any_rotate_y",
    "Cglm.C56_any_rotate_z",
    "Cglm.C56_any_rotate",
    "Cglm.C56_any_rotate_at",
    "Cglm.C56_any_rotate_atm",
    "Cglm.C56_any_spin",
    "Cglm.C56_any_translated",
    "Cglm.C56_any_translated_to",
    "Cglm.C56_any_translated_x",
    "Cglm.C56_any_translated_y",
    "Cglm.C56_any_translated_z",
    "Cglm.C56_any_rotated_x",
    "Cglm.C56_any_rotated_y",
    "Cglm.C56_any_rotated_z",
    "Cglm.C56_any_rotated",
    "Cglm.C56_any_rotated_at",
    "Cglm.C56_any_spinned",
    "Cglm.C56_any_translate2d",
    "Cglm.C56_any_translate2d_to",
    "Cglm.C56_any_translate2d_x",
    "Cglm.C56_any_translate2d_y",
    "Cglm.C56_any_translate2d_make",
    "Cglm.C56_any_scale2d_to",
    "Cglm.C56_any_scale2d_make",
    "Cglm.C56_any_scale2d",
    "Cglm.C56_any_scale2d_uni",
    "Cglm.C56_any_rotate2d_make",
    "Cglm.C56_any_rotate2d",
    "Cglm.C56_any_rotate2d_to",
    "Cglm.C56_any_translated2d",
    "Cglm.C56_any_translated2d_x",
    "Cglm.C56_any_translated2d_y",
    "Cglm.C56_any_rotated2d",
    "Cglm.C56_any_scaled2d",
    "Cglm.C56_any_scaled2d_uni",
    "Cglm.C56_any_persp_fovy",
    "Cglm.C56_any_persp_aspect",
    "Cglm.C56_any_ortho_lh_zo",
    "Cglm.C56_any_ortho_aabb_lh_zo",
    "Cglm.C56_any_ortho_aabb_p_lh_zo",
    "Cglm.C56_any_ortho_aabb_pz_lh_zo",
    "Cglm.C56_any_ortho_default_lh_zo",
    "Cglm.C56_any_ortho_default_s_lh_zo",
    "Cglm.C56_any_frustum_lh_zo",
    "Cglm.C56_any_perspective_lh_zo",
    "Cglm.C56_any_persp_move_far_lh_zo",
    "Cglm.C56_any_perspective_default_lh_zo",
    "Cglm.C56_any_perspective_resize_lh_zo",
    "Cglm.C56_any_persp_decomp_lh_zo",
    "Cglm.C56_any_persp_decompv_lh_zo",
    "Cglm.C56_any_persp_decomp_x_lh_zo",
    "Cglm.C56_any_persp_decomp_y_lh_zo",
    "Cglm.C56_any_persp_decomp_z_lh_zo",
    "Cglm.C56_any_persp_decomp_far_lh_zo",
    "Cglm.C56_any_persp_decomp_near_lh_zo",
    "Cglm.C56_any_persp_sizes_lh_zo",
    "Cglm.C56_any_persp_fovy_lh_zo",
    "Cglm.C56_any_persp_aspect_lh_zo",
    "Cglm.C56_any_ortho_lh_no",
    "Cglm.C56_any_ortho_aabb_lh_no",
    "Cglm.C56_any_ortho_aabb_p_lh_no",
    "Cglm.C56_any_ortho_aabb_pz_lh_no",
    "Cglm.C56_any_ortho_default_lh_no",
    "Cglm.C56_any_ortho_default_s_lh_no",
    "Cglm.C56_any_frustum_lh_no",
    "Cglm.C56_any_perspective_lh_no",
    "Cglm.C56_any_perspective_default_lh_no",
    "Cglm.C56_any_perspective_resize_lh_no",
    "Cglm.C56_any_persp_move_far_lh_no",
    "Cglm.C56_any_persp_decomp_lh_no",
    "Cglm.C56_any_persp_decompv_lh_no",
    "Cglm.C56_any_persp_decomp_x_lh_no",
    "Cglm.C56_any_persp_decomp_y_lh_no",
    "Cglm.C56_any_persp_decomp_z_lh_no",
    "Cglm.C56_any_persp_decomp_far_lh_no",
    "Cglm.C56_any_persp_decomp_near_lh_no",
    "Cglm.C56_any_persp_sizes_lh_no",
    "Cglm.C56_any_persp_fovy_lh_no",
    "Cglm.C56_any_persp_aspect_lh_no",
    "Cglm.C56_any_ortho_rh_zo",
    "Cglm.C56_any_ortho_aabb_rh_zo",
    "Cglm.C56_any_ortho_aabb_p_rh_zo",
    "Cglm.C56_any_ortho_aabb_pz_rh_zo",
    "Cglm.C56_any_ortho_default_rh_zo",
    "Cglm.C56_any_ortho_default_s_rh_zo",
    "Cglm.C56_any_frustum_rh_zo",
    "Cglm.C56_any_perspective_rh_zo",
    "Cglm.C56_any_perspective_default_rh_zo",
    "Cglm.C56_any_perspective_resize_rh_zo",
    "Cglm.C56_any_persp_move_far_rh_zo",
    "Cglm.C56_any_persp_decomp_rh_zo",
    "Cglm.C56_any_persp_decompv_rh_zo",
    "Cglm.C56_any_persp_decomp_x_rh_zo",
    "Cglm.C56_any_persp_decomp_y_rh_zo",
    "Cglm.C56_any_persp_decomp_z_rh_zo",
    "Cglm.C56_any_persp_decomp_far_rh_zo",
    "Cglm.C56_any_persp_decomp_near_rh_zo",
    "Cglm.C56_any_persp_sizes_rh_zo",
    "Cglm.C56_any_persp_fovy_rh_zo",
    "Cglm.C56_any_persp_aspect_rh_zo",
    "Cglm.C56_any_ortho_rh_no",
    "Cglm.C56_any_ortho_aabb_rh_no",
    "Cglm.C56_any_ortho_aabb_p_rh_no",
    "Cglm.C56_any_ortho_aabb_pz_rh_no",
    "Cglm.C56_any_ortho_default_rh_no",
    "Cglm.C56_any_ortho_default_s_rh_no",
    "Cglm.C56_any_frustum_rh_no",
    "Cglm.C56_any_perspective_rh_no",
    "Cglm.C56_any_perspective_default_rh_no",
    "Cglm.C56_any_perspective_resize_rh_no",
    "Cglm.C56_any_persp_move_far_rh_no",
    "Cglm.C56_any_persp_decomp_rh_no",
    "Cglm.C56_any_persp_decompv_rh_no",
    "Cglm.C56_any_persp_decomp_x_rh_no",
    "Cglm.C56_any_persp_decomp_y_rh_no",
    "Cglm.C56_any_persp_decomp_z_rh_no",
    "Cglm.C56_any_persp_decomp_far_rh_no",
    "Cglm.C56_any_persp_decomp_near_rh_no",
    "Cglm.C56_any_persp_sizes_rh_no",
    "Cglm.C56_any_persp_fovy_rh_no",
    "Cglm.C56_any_persp_aspect_rh_no",
    "Cglm.C56_any_lookat_lh",
    "Cglm.C56_any_look_lh",
    "Cglm.C56_any_look_anyup_lh",
    "Cglm.C56_any_lookat_lh_zo",
    "Cglm.C56_any_look_lh_zo",
    "Cglm.C56_any_look_anyup_lh_zo",
    "Cglm.C56_any_lookat_lh_no",
    "Cglm.C56_any_look_lh_no",
    "Cglm.C56_any_look_anyup_lh_no",
    "Cglm.C56_any_lookat_rh",
    "Cglm.C56_any_look_rh",
    "Cglm.C56_any_look_anyup_rh",
    "Cglm.C56_any_lookat_rh_zo",
    "Cglm.C56_any_look_rh_zo",
    "Cglm.C56_any_look_anyup_rh_zo",
    "Cglm.C56_any_lookat_rh_no",
    "Cglm.C56_any_look_rh_no",
    "Cglm.C56_any_look_anyup_rh_no",
    "Cglm.C56_any_unprojecti_zo",
    "Cglm.C56_any_project_zo",
    "Cglm.C56_any_project_z_zo",
    "Cglm.C56_any_unprojecti_no",
    "Cglm.C56_any_project_no",
    "Cglm.C56_any_project_z_no",
    "Cglm.C56_any_signf",
    "Cglm.C56_any_rad",
    "Cglm.C56_any_deg",
    "Cglm.C56_any_make_rad",
    "Cglm.C56_any_make_deg",
    "Cglm.C56_any_pow2",
    "Cglm.C56_any_min",
    "Cglm.C56_any_max",
    "Cglm.C56_any_imin",
    "Cglm.C56_any_imax",
    "Cglm.C56_any_clamp",
    "Cglm.C56_any_clamp_zo",
    "Cglm.C56_any_lerp",
    "Cglm.C56_any_lerpc",
    "Cglm.C56_any_step",
    "Cglm.C56_any_smooth",
    "Cglm.C56_any_smoothstep",
    "Cglm.C56_any_smoothinterp",
    "Cglm.C56_any_smoothinterpc",
    "Cglm.C56_any_eq",
    "Cglm.C56_any_percent",
    "Cglm.C56_any_percentc",
    "Cglm.C56_any_swapf",
    "Cglm.C56_any_plane_normalize",
    "Cglm.C56_any_frustum",
    "Cglm.C56_any_ortho",
    "Cglm.C56_any_ortho_aabb",
    "Cglm.C56_any_ortho_aabb_p",
    "Cglm.C56_any_ortho_aabb_pz",
    "Cglm.C56_any_ortho_default",
    "Cglm.C56_any_ortho_default_s",
    "Cglm.C56_any_perspective",
    "Cglm.C56_any_persp_move_far",
    "Cglm.C56_any_perspective_default",
    "Cglm.C56_any_perspective_resize",
    "Cglm.C56_any_lookat",
    "Cglm.C56_any_look",
    "Cglm.C56_any_look_anyup",
    "Cglm.C56_any_persp_decomp",
    "Cglm.C56_any_persp_decompv",
    "Cglm.C56_any_persp_decomp_x",
    "Cglm.C56_any_persp_decomp_y",
    "Cglm.C56_any_persp_decomp_z",
    "Cglm.C56_any_persp_decomp_far",
    "Cglm.C56_any_persp_decomp_near",
    "Cglm.C56_any_persp_sizes",
    "Cglm.C56_any_frustum_planes",
    "Cglm.C56_any_frustum_corners",
    "Cglm.C56_any_frustum_center",
    "Cglm.C56_any_frustum_box",
    "Cglm.C56_any_frustum_corners_at",
    "Cglm.C56_any_perlin_vec4",
    "Cglm.C56_any_perlin_vec3",
    "Cglm.C56_any_perlin_vec2",
    "Cglm.C56_any_aabb2d_zero",
    "Cglm.C56_any_aabb2d_copy",
    "Cglm.C56_any_aabb2d_transform",
    "Cglm.C56_any_aabb2d_merge",
    "Cglm.C56_any_aabb2d_crop",
    "Cglm.C56_any_aabb2d_crop_until",
    "Cglm.C56_any_aabb2d_invalidate",
    "Cglm.C56_any_aabb2d_isvalid",
    "Cglm.C56_any_aabb2d_diag",
    "Cglm.C56_any_aabb2d_sizev",
    "Cglm.C56_any_aabb2d_radius",
    "Cglm.C56_any_aabb2d_center",
    "Cglm.C56_any_aabb2d_aabb",
    "Cglm.C56_any_aabb2d_circle",
    "Cglm.C56_any_aabb2d_point",
    "Cglm.C56_any_aabb2d_contains",
    "Cglm.C56_any_aabb_transform",
    "Cglm.C56_any_aabb_merge",
    "Cglm.C56_any_aabb_crop",
    "Cglm.C56_any_aabb_crop_until",
    "Cglm.C56_any_aabb_frustum",
    "Cglm.C56_any_aabb_invalidate",
    "Cglm.C56_any_aabb_isvalid",
    "Cglm.C56_any_aabb_size",
    "Cglm.C56_any_aabb_radius",
    "Cglm.C56_any_aabb_center",
    "Cglm.C56_any_aabb_aabb",
    "Cglm.C56_any_aabb_sphere",
    "Cglm.C56_any_aabb_point",
    "Cglm.C56_any_aabb_contains",
    "Cglm.C56_any_luminance",
    "Cglm.C56_any_unprojecti",
    "Cglm.C56_any_unproject",
    "Cglm.C56_any_project",
    "Cglm.C56_any_project_z",
    "Cglm.C56_any_pickmatrix",
    "Cglm.C56_any_sphere_radii",
    "Cglm.C56_any_sphere_transform",
    "Cglm.C56_any_sphere_merge",
    "Cglm.C56_any_sphere_sphere",
    "Cglm.C56_any_sphere_point",
    "Cglm.C56_any_ease_linear",
    "Cglm.C56_any_ease_sine_in",
    "Cglm.C56_any_ease_sine_out",
    "Cglm.C56_any_ease_sine_inout",
    "Cglm.C56_any_ease_quad_in",
    "Cglm.C56_any_ease_quad_out",
    "Cglm.C56_any_ease_quad_inout",
    "Cglm.C56_any_ease_cubic_in",
    "Cglm.C56_any_ease_cubic_out",
    "Cglm.C56_any_ease_cubic_inout",
    "Cglm.C56_any_ease_quart_in",
    "Cglm.C56_any_ease_quart_out",
    "Cglm.C56_any_ease_quart_inout",
    "Cglm.C56_any_ease_quint_in",
    "Cglm.C56_any_ease_quint_out",
    "Cglm.C56_any_ease_quint_inout",
    "Cglm.C56_any_ease_exp_in",
    "Cglm.C56_any_ease_exp_out",
    "Cglm.C56_any_ease_exp_inout",
    "Cglm.C56_any_ease_circ_in",
    "Cglm.C56_any_ease_circ_out",
    "Cglm.C56_any_ease_circ_inout",
    "Cglm.C56_any_ease_back_in",
    "Cglm.C56_any_ease_back_out",
    "Cglm.C56_any_ease_back_inout",
    "Cglm.C56_any_ease_elast_in",
    "Cglm.C56_any_ease_elast_out",
    "Cglm.C56_any_ease_elast_inout",
    "Cglm.C56_any_ease_bounce_out",
    "Cglm.C56_any_ease_bounce_in",
    "Cglm.C56_any_ease_bounce_inout",
    "Cglm.C56_any_smc",
    "Cglm.C56_any_bezier",
    "Cglm.C56_any_hermite",
    "Cglm.C56_any_ray_triangle",
    "Cglm.C56_any_ray_sphere",
    "Cglm.C56_any_ray_at",
    "Cglm.C56_any_vec2_swizzle",
    "Cglm.C56_any_vec3_swizzle",
    "Cglm.C56_any_vec4_swizzle",
    "Cglm.C56_any_mat4_mulN",
    "Cglm.C56_any_mat4_ucopy",
    "Cglm.C56_any_mat4_copy",
    "Cglm.C56_any_mat4_identity",
    "Cglm.C56_any_mat4_zero",
    "Cglm.C56_any_mat4_pick3",
    "Cglm.C56_any_mat4_pick3t",
    "Cglm.C56_any_mat4_ins3",
    "Cglm.C56_any_mat4_mul",
    "Cglm.C56_any_mat4_mulv",
    "Cglm.C56_any_mat4_trace",
    "Cglm.C56_any_mat4_trace3",
    "Cglm.C56_any_mat4_quat",
    "Cglm.C56_any_mat4_mulv3",
    "Cglm.C56_any_mat4_transpose_to",
    "Cglm.C56_any_mat4_transpose",
    "Cglm.C56_any_mat4_scale_p",
    "Cglm.C56_any_mat4_scale",
    "Cglm.C56_any_mat4_det",
    "Cglm.C56_any_mat4_inv",
    "Cglm.C56_any_mat4_inv_fast",
    "Cglm.C56_any_mat4_rmc",
    "Cglm.C56_any_mat4_make",
    "Cglm.C56_any_mat4_textrans",
    "Cglm.C56_any_mat4x2_copy",
    "Cglm.C56_any_mat4x2_zero",
    "Cglm.C56_any_mat4x2_make",
    "Cglm.C56_any_mat4x2_mul",
    "Cglm.C56_any_mat4x2_mulv",
    "Cglm.C56_any_mat4x2_transpose",
    "Cglm.C56_any_mat4x2_scale",
    "Cglm.C56_any_mat4x3_copy",
    "Cglm.C56_any_mat4x3_zero",
    "Cglm.C56_any_mat4x3_make",
    "Cglm.C56_any_mat4x3_mul",
    "Cglm.C56_any_mat4x3_mulv",
    "Cglm.C56_any_mat4x3_transpose",
    "Cglm.C56_any_mat4x3_scale",
    "Cglm.C56_any_mat3_copy",
    "Cglm.C56_any_mat3_identity",
    "Cglm.C56_any_mat3_zero",
    "Cglm.C56_any_mat3_mul",
    "Cglm.C56_any_mat3_transpose_to",
    "Cglm.C56_any_mat3_transpose",
    "Cglm.C56_any_mat3_mulv",
    "Cglm.C56_any_mat3_trace",
    "Cglm.C56_any_mat3_quat",
    "Cglm.C56_any_mat3_scale",
    "Cglm.C56_any_mat3_det",
    "Cglm.C56_any_mat3_inv",
    "Cglm.C56_any_mat3_rmc",
    "Cglm.C56_any_mat3_make",
    "Cglm.C56_any_mat3_textrans",
    "Cglm.C56_any_mat3x2_copy",
    "Cglm.C56_any_mat3x2_zero",
    "Cglm.C56_any_mat3x2_make",
    "Cglm.C56_any_mat3x2_mul",
    "Cglm.C56_any_mat3x2_mulv",
    "Cglm.C56_any_mat3x2_transpose",
    "Cglm.C56_any_mat3x2_scale",
    "Cglm.C56_any_mat3x4_copy",
    "Cglm.C56_any_mat3x4_zero",
    "Cglm.C56_any_mat3x4_make",
    "Cglm.C56_any_mat3x4_mul",
    "Cglm.C56_any_mat3x4_mulv",
    "Cglm.C56_any_mat3x4_transpose",
    "Cglm.C56_any_mat3x4_scale",
    "Cglm.C56_any_mat2_make",
    "Cglm.C56_any_mat2_copy",
    "Cglm.C56_any_mat2_identity",
    "Cglm.C56_any_mat2_zero",
    "Cglm.C56_any_mat2_mul",
    "Cglm.C56_any_mat2_mulv",
    "Cglm.C56_any_mat2_transpose_to",
    "Cglm.C56_any_mat2_transpose",
    "Cglm.C56_any_mat2_scale",
    "Cglm.C56_any_mat2_inv",
    "Cglm.C56_any_mat2_det",
    "Cglm.C56_any_mat2_trace",
    "Cglm.C56_any_mat2_rmc",
    "Cglm.C56_any_mat2x3_copy",
    "Cglm.C56_any_mat2x3_zero",
    "Cglm.C56_any_mat2x3_make",
    "Cglm.C56_any_mat2x3_mul",
    "Cglm.C56_any_mat2x3_mulv",
    "Cglm.C56_any_mat2x3_transpose",
    "Cglm.C56_any_mat2x3_scale",
    "Cglm.C56_any_mat2x4_copy",
    "Cglm.C56_any_mat2x4_zero",
    "Cglm.C56_any_mat2x4_make",
    "Cglm.C56_any_mat2x4_mul",
    "Cglm.C56_any_mat2x4_mulv",
    "Cglm.C56_any_mat2x4_transpose",
    "Cglm.C56_any_mat2x4_scale",
    "Cglm.C56_any_quat_identity",
    "Cglm.C56_any_quat_init",
    "Cglm.C56_any_quatv",
    "Cglm.C56_any_quat",
    "Cglm.C56_any_quat_copy",
    "Cglm.C56_any_quat_norm",
    "Cglm.C56_any_quat_normalize_to",
    "Cglm.C56_any_quat_normalize",
    "Cglm.C56_any_quat_dot",
    "Cglm.C56_any_quat_conjugate",
    "Cglm.C56_any_quat_inv",
    "Cglm.C56_any_quat_add",
    "Cglm.C56_any_quat_sub",
    "Cglm.C56_any_quat_real",
    "Cglm.C56_any_quat_imag",
    "Cglm.C56_any_quat_imagn",
    "Cglm.C56_any_quat_imaglen",
    "Cglm.C56_any_quat_angle",
    "Cglm.C56_any_quat_axis",
    "Cglm.C56_any_quat_mul",
    "Cglm.C56_any_quat_mat4",
    "Cglm.C56_any_quat_mat4t",
    "Cglm.C56_any_quat_mat3",
    "Cglm.C56_any_quat_mat3t",
    "Cglm.C56_any_quat_lerp",
    "Cglm.C56_any_quat_lerpc",
    "Cglm.C56_any_quat_nlerp",
    "Cglm.C56_any_quat_slerp",
    "Cglm.C56_any_quat_slerp_longest",
    "Cglm.C56_any_quat_look",
    "Cglm.C56_any_quat_for",
    "Cglm.C56_any_quat_forp",
    "Cglm.C56_any_quat_rotatev",
    "Cglm.C56_any_quat_rotate",
    "Cglm.C56_any_quat_rotate_at",
    "Cglm.C56_any_quat_rotate_atm",
    "Cglm.C56_any_quat_make",
    "Cglm.C56_any_quat_from_vecs",
    "Cglm.C56_any_euler_xyz_quat_rh",
    "Cglm.C56_any_euler_xzy_quat_rh",
    "Cglm.C56_any_euler_yxz_quat_rh",
    "Cglm.C56_any_euler_yzx_quat_rh",
    "Cglm.C56_any_euler_zxy_quat_rh",
    "Cglm.C56_any_euler_zyx_quat_rh",
    "Cglm.C56_any_euler_angles",
    "Cglm.C56_any_euler_xyz",
    "Cglm.C56_any_euler",
    "Cglm.C56_any_euler_xzy",
    "Cglm.C56_any_euler_yxz",
    "Cglm.C56_any_euler_yzx",
    "Cglm.C56_any_euler_zxy",
    "Cglm.C56_any_euler_zyx",
    "Cglm.C56_any_euler_by_order",
    "Cglm.C56_any_euler_xyz_quat",
    "Cglm.C56_any_euler_xzy_quat",
    "Cglm.C56_any_euler_yxz_quat",
    "Cglm.C56_any_euler_yzx_quat",
    "Cglm.C56_any_euler_zxy_quat",
    "Cglm.C56_any_euler_zyx_quat",
    "Cglm.C56_any_euler_xyz_quat_lh",
    "Cglm.C56_any_euler_xzy_quat_lh",
    "Cglm.C56_any_euler_yxz_quat_lh",
    "Cglm.C56_any_euler_yzx_quat_lh",
    "Cglm.C56_any_euler_zxy_quat_lh",
    "Cglm.C56_any_euler_zyx_quat_lh",
    "Cglm.C56_any_vec2_fill",
    "Cglm.C56_any_vec2_eq",
    "Cglm.C56_any_vec2_eq_eps",
    "Cglm.C56_any_vec2_eq_all",
    "Cglm.C56_any_vec2_eqv",
    "Cglm.C56_any_vec2_eqv_eps",
    "Cglm.C56_any_vec2_max",
    "Cglm.C56_any_vec2_min",
    "Cglm.C56_any_vec2_isnan",
    "Cglm.C56_any_vec2_isinf",
    "Cglm.C56_any_vec2_isvalid",
    "Cglm.C56_any_vec2_sign",
    "Cglm.C56_any_vec2_abs",
    "Cglm.C56_any_vec2_fract",
    "Cglm.C56_any_vec2_floor",
    "Cglm.C56_any_vec2_mods",
    "Cglm.C56_any_vec2_sqrt",
    "Cglm.C56_any_vec2_complex_mul",
    "Cglm.C56_any_vec2_steps",
    "Cglm.C56_any_vec2_stepr",
    "Cglm.C56_any_vec2_complex_div",
    "Cglm.C56_any_vec2_complex_conjugate",
    "Cglm.C56_any_vec2",
    "Cglm.C56_any_vec2_copy",
    "Cglm.C56_any_vec2_zero",
    "Cglm.C56_any_vec2_one",
    "Cglm.C56_any_vec2_dot",
    "Cglm.C56_any_vec2_cross",
    "Cglm.C56_any_vec2_norm2",
    "Cglm.C56_any_vec2_norm",
    "Cglm.C56_any_vec2_add",
    "Cglm.C56_any_vec2_adds",
    "Cglm.C56_any_vec2_sub",
    "Cglm.C56_any_vec2_subs",
    "Cglm.C56_any_vec2_mul",
    "Cglm.C56_any_vec2_scale",
    "Cglm.C56_any_vec2_scale_as",
    "Cglm.C56_any_vec2_div",
    "Cglm.C56_any_vec2_divs",
    "Cglm.C56_any_vec2_addadd",
    "Cglm.C56_any_vec2_subadd",
    "Cglm.C56_any_vec2_muladd",
    "Cglm.C56_any_vec2_muladds",
    "Cglm.C56_any_vec2_maxadd",
    "Cglm.C56_any_vec2_minadd",
    "Cglm.C56_any_vec2_subsub",
    "Cglm.C56_any_vec2_addsub",
    "Cglm.C56_any_vec2_mulsub",
    "Cglm.C56_any_vec2_mulsubs",
    "Cglm.C56_any_vec2_maxsub",
    "Cglm.C56_any_vec2_minsub",
    "Cglm.C56_any_vec2_negate_to",
    "Cglm.C56_any_vec2_negate",
    "Cglm.C56_any_vec2_normalize",
    "Cglm.C56_any_vec2_normalize_to",
    "Cglm.C56_any_vec2_rotate",
    "Cglm.C56_any_vec2_center",
    "Cglm.C56_any_vec2_distance2",
    "Cglm.C56_any_vec2_distance",
    "Cglm.C56_any_vec2_maxv",
    "Cglm.C56_any_vec2_minv",
    "Cglm.C56_any_vec2_clamp",
    "Cglm.C56_any_vec2_lerp",
    "Cglm.C56_any_vec2_step",
    "Cglm.C56_any_vec2_make",
    "Cglm.C56_any_vec2_reflect",
    "Cglm.C56_any_vec2_refract",
    "Cglm.C56_any_vec3_broadcast",
    "Cglm.C56_any_vec3_fill",
    "Cglm.C56_any_vec3_eq",
    "Cglm.C56_any_vec3_eq_eps",
    "Cglm.C56_any_vec3_eq_all",
    "Cglm.C56_any_vec3_eqv",
    "Cglm.C56_any_vec3_eqv_eps",
    "Cglm.C56_any_vec3_max",
    "Cglm.C56_any_vec3_min",
    "Cglm.C56_any_vec3_isnan",
    "Cglm.C56_any_vec3_isinf",
    "Cglm.C56_any_vec3_isvalid",
    "Cglm.C56_any_vec3_sign",
    "Cglm.C56_any_vec3_abs",
    "Cglm.C56_any_vec3_fract",
    "Cglm.C56_any_vec3_floor",
    "Cglm.C56_any_vec3_mods",
    "Cglm.C56_any_vec3_steps",
    "Cglm.C56_any_vec3_stepr",
    "Cglm.C56_any_vec3_hadd",
    "Cglm.C56_any_vec3_sqrt",
    "Cglm.C56_any_vec4_broadcast",
    "Cglm.C56_any_vec4_fill",
    "Cglm.C56_any_vec4_eq",
    "Cglm.C56_any_vec4_eq_eps",
    "Cglm.C56_any_vec4_eq_all",
    "Cglm.C56_any_vec4_eqv",
    "Cglm.C56_any_vec4_eqv_eps",
    "Cglm.C56_any_vec4_max",
    "Cglm.C56_any_vec4_min",
    "Cglm.C56_any_vec4_isnan",
    "Cglm.C56_any_vec4_isinf",
    "Cglm.C56_any_vec4_isvalid",
    "Cglm.C56_any_vec4_sign",
    "Cglm.C56_any_vec4_abs",
    "Cglm.C56_any_vec4_fract",
    "Cglm.C56_any_vec4_floor",
    "Cglm.C56_any_vec4_mods",
    "Cglm.C56_any_vec4_steps",
    "Cglm.C56_any_vec4_stepr",
    "Cglm.C56_any_vec4_hadd",
    "Cglm.C56_any_vec4_sqrt",
    "Cglm.C56_any_vec4",
    "Cglm.C56_any_vec4_copy3",
    "Cglm.C56_any_vec4_copy",
    "Cglm.C56_any_vec4_ucopy",
    "Cglm.C56_any_vec4_zero",
    "Cglm.C56_any_vec4_one",
    "Cglm.C56_any_vec4_dot",
    "Cglm.C56_any_vec4_norm2",
    "Cglm.C56_any_vec4_norm",
    "Cglm.C56_any_vec4_norm_one",
    "Cglm.C56_any_vec4_norm_inf",
    "Cglm.C56_any_vec4_add",
    "Cglm.C56_any_vec4_adds",
    "Cglm.C56_any_vec4_sub",
    "Cglm.C56_any_vec4_subs",
    "Cglm.C56_any_vec4_mul",
    "Cglm.C56_any_vec4_scale",
    "Cglm.C56_any_vec4_scale_as",
    "Cglm.C56_any_vec4_div",
    "Cglm.C56_any_vec4_divs",
    "Cglm.C56_any_vec4_addadd",
    "Cglm.C56_any_vec4_subadd",
    "Cglm.C56_any_vec4_muladd",
    "Cglm.C56_any_vec4_muladds",
    "Cglm.C56_any_vec4_maxadd",
    "Cglm.C56_any_vec4_minadd",
    "Cglm.C56_any_vec4_subsub",
    "Cglm.C56_any_vec4_addsub",
    "Cglm.C56_any_vec4_mulsub",
    "Cglm.C56_any_vec4_mulsubs",
    "Cglm.C56_any_vec4_maxsub",
    "Cglm.C56_any_vec4_minsub",
    "Cglm.C56_any_vec4_negate_to",
    "Cglm.C56_any_vec4_negate",
    "Cglm.C56_any_vec4_normalize_to",
    "Cglm.C56_any_vec4_normalize",
    "Cglm.C56_any_vec4_distance",
    "Cglm.C56_any_vec4_distance2",
    "Cglm.C56_any_vec4_maxv",
    "Cglm.C56_any_vec4_minv",
    "Cglm.C56_any_vec4_clamp",
    "Cglm.C56_any_vec4_lerp",
    "Cglm.C56_any_vec4_lerpc",
    "Cglm.C56_any_vec4_mix",
    "Cglm.C56_any_vec4_mixc",
    "Cglm.C56_any_vec4_step",
    "Cglm.C56_any_vec4_smoothstep_uni",
    "Cglm.C56_any_vec4_smoothstep",
    "Cglm.C56_any_vec4_smoothinterp",
    "Cglm.C56_any_vec4_smoothinterpc",
    "Cglm.C56_any_vec4_cubic",
    "Cglm.C56_any_vec4_make",
    "Cglm.C56_any_vec4_reflect",
    "Cglm.C56_any_vec4_refract",
    "Cglm.C56_any_vec3",
    "Cglm.C56_any_vec3_copy",
    "Cglm.C56_any_vec3_zero",
    "Cglm.C56_any_vec3_one",
    "Cglm.C56_any_vec3_dot",
    "Cglm.C56_any_vec3_norm2",
    "Cglm.C56_any_vec3_norm",
    "Cglm.C56_any_vec3_norm_one",
    "Cglm.C56_any_vec3_norm_inf",
    "Cglm.C56_any_vec3_add",
    "Cglm.C56_any_vec3_adds",
    "Cglm.C56_any_vec3_sub",
    "Cglm.C56_any_vec3_subs",
    "Cglm.C56_any_vec3_mul",
    "Cglm.C56_any_vec3_scale",
    "Cglm.C56_any_vec3_scale_as",
    "Cglm.C56_any_vec3_div",
    "Cglm.C56_any_vec3_divs",
    "Cglm.C56_any_vec3_addadd",
    "Cglm.C56_any_vec3_subadd",
    "Cglm.C56_any_vec3_muladd",
    "Cglm.C56_any_vec3_muladds",
    "Cglm.C56_any_vec3_maxadd",
    "Cglm.C56_any_vec3_minadd",
    "Cglm.C56_any_vec3_subsub",
    "Cglm.C56_any_vec3_addsub",
    "Cglm.C56_any_vec3_mulsub",
    "Cglm.C56_any_vec3_mulsubs",
    "Cglm.C56_any_vec3_maxsub",
    "Cglm.C56_any_vec3_minsub",
    "Cglm.C56_any_vec3_negate_to",
    "Cglm.C56_any_vec3_negate",
    "Cglm.C56_any_vec3_normalize",
    "Cglm.C56_any_vec3_normalize_to",
    "Cglm.C56_any_vec3_cross",
    "Cglm.C56_any_vec3_crossn",
    "Cglm.C56_any_vec3_angle",
    "Cglm.C56_any_vec3_rotate",
    "Cglm.C56_any_vec3_rotate_m4",
    "Cglm.C56_any_vec3_rotate_m3",
    "Cglm.C56_any_vec3_proj",
    "Cglm.C56_any_vec3_center",
    "Cglm.C56_any_vec3_distance2",
    "Cglm.C56_any_vec3_distance",
    "Cglm.C56_any_vec3_maxv",
    "Cglm.C56_any_vec3_minv",
    "Cglm.C56_any_vec3_ortho",
    "Cglm.C56_any_vec3_clamp",
    "Cglm.C56_any_vec3_lerp",
    "Cglm.C56_any_vec3_lerpc",
    "Cglm.C56_any_vec3_mix",
    "Cglm.C56_any_vec3_mixc",
    "Cglm.C56_any_vec3_step",
    "Cglm.C56_any_vec3_smoothstep_uni",
    "Cglm.C56_any_vec3_smoothstep",
    "Cglm.C56_any_vec3_smoothinterp",
    "Cglm.C56_any_vec3_smoothinterpc",
    "Cglm.C56_any_cross",
    "Cglm.C56_any_dot",
    "Cglm.C56_any_normalize",
    "Cglm.C56_any_normalize_to",
    "Cglm.C56_any_vec3_make",
    "Cglm.C56_any_vec3_faceforward",
    "Cglm.C56_any_vec3_reflect",
    "Cglm.C56_any_vec3_refract",
    "Cglm.C56_aabb2d_zero",
    "Cglm.C56_aabb2d_copy",
    "Cglm.C56_aabb2d_transform",
    "Cglm.C56_aabb2d_merge",
    "Cglm.C56_aabb2d_crop",
    "Cglm.C56_aabb2d_crop_until",
    "Cglm.C56_aabb2d_invalidate",
    "Cglm.C56_aabb2d_isvalid",
    "Cglm.C56_aabb2d_diag",
    "Cglm.C56_aabb2d_sizev",
    "Cglm.C56_aabb2d_radius",
    "Cglm.C56_aabb2d_center",
    "Cglm.C56_aabb2d_aabb",
    "Cglm.C56_aabb2d_circle",
    "Cglm.C56_aabb2d_point",
    "Cglm.C56_aabb2d_contains",
    "Cglm.C56_bezier",
    "Cglm.C56_hermite",
    "Cglm.C56_aabb_transform",
    "Cglm.C56_aabb_merge",
    "Cglm.C56_aabb_crop",
    "Cglm.C56_aabb_crop_until",
    "Cglm.C56_aabb_frustum",
    "Cglm.C56_aabb_invalidate",
    "Cglm.C56_aabb_isvalid",
    "Cglm.C56_aabb_size",
    "Cglm.C56_aabb_radius",
    "Cglm.C56_aabb_center",
    "Cglm.C56_aabb_aabb",
    "Cglm.C56_aabb_sphere",
    "Cglm.C56_aabb_point",
    "Cglm.C56_aabb_contains",
    "Cglm.C56_luminance",
    "Cglm.C56_smc",
    "Cglm.C56_ease_linear",
    "Cglm.C56_ease_sine_in",
    "Cglm.C56_ease_sine_out",
    "Cglm.C56_ease_sine_inout",
    "Cglm.C56_ease_quad_in",
    "Cglm.C56_ease_quad_out",
    "Cglm.C56_ease_quad_inout",
    "Cglm.C56_ease_cubic_in",
    "Cglm.C56_ease_cubic_out",
    "Cglm.C56_ease_cubic_inout",
    "Cglm.C56_ease_quart_in",
    "Cglm.C56_ease_quart_out",
    "Cglm.C56_ease_quart_inout",
    "Cglm.C56_ease_quint_in",
    "Cglm.C56_ease_quint_out",
    "Cglm.C56_ease_quint_inout",
    "Cglm.C56_ease_exp_in",
    "Cglm.C56_ease_exp_out",
    "Cglm.C56_ease_exp_inout",
    "Cglm.C56_ease_circ_in",
    "Cglm.C56_ease_circ_out",
    "Cglm.C56_ease_circ_inout",
    "Cglm.C56_ease_back_in",
    "Cglm.C56_ease_back_out",
    "Cglm.C56_ease_back_inout",
    "Cglm.C56_ease_elast_in",
    "Cglm.C56_ease_elast_out",
    "Cglm.C56_ease_elast_inout",
    "Cglm.C56_ease_bounce_out",
    "Cglm.C56_ease_bounce_in",
    "Cglm.C56_ease_bounce_inout",
    "Cglm.C56_frustum_planes",
    "Cglm.C56_frustum_corners",
    "Cglm.C56_frustum_center",
    "Cglm.C56_frustum_box",
    "Cglm.C56_frustum_corners_at",
    "Cglm.C56_plane_normalize",
    "Cglm.C56_ray_triangle",
    "Cglm.C56_ray_sphere",
    "Cglm.C56_ray_at",
    "Cglm.C56_sphere_radii",
    "Cglm.C56_sphere_transform",
    "Cglm.C56_sphere_merge",
    "Cglm.C56_sphere_sphere",
    "Cglm.C56_sphere_point",
    "Cglm.C56_mat4_swap_col",
    "Cglm.C56_mat4_swap_row",
    "Cglm.C56_mat3_swap_col",
    "Cglm.C56_mat3_swap_row",
    "Cglm.C56_mat2_swap_col",
    "Cglm.C56_mat2_swap_row",
    "Cglm.C56_any_sign",
    "Cglm.C56_any_imin_checked",
    "Cglm.C56_any_imax_checked",
    "Cglm.C56_any_ivec2",
    "Cglm.C56_any_ivec2_copy",
    "Cglm.C56_any_ivec2_zero",
    "Cglm.C56_any_ivec2_one",
    "Cglm.C56_any_ivec2_dot",
    "Cglm.C56_any_ivec2_cross",
    "Cglm.C56_any_ivec2_add",
    "Cglm.C56_any_ivec2_adds",
    "Cglm.C56_any_ivec2_sub",
    "Cglm.C56_any_ivec2_subs",
    "Cglm.C56_any_ivec2_mul",
    "Cglm.C56_any_ivec2_scale",
    "Cglm.C56_any_ivec2_div",
    "Cglm.C56_any_ivec2_divs",
    "Cglm.C56_any_ivec2_mod",
    "Cglm.C56_any_ivec2_addadd",
    "Cglm.C56_any_ivec2_addadds",
    "Cglm.C56_any_ivec2_subadd",
    "Cglm.C56_any_ivec2_subadds",
    "Cglm.C56_any_ivec2_muladd",
    "Cglm.C56_any_ivec2_muladds",
    "Cglm.C56_any_ivec2_maxadd",
    "Cglm.C56_any_ivec2_minadd",
    "Cglm.C56_any_ivec2_subsub",
    "Cglm.C56_any_ivec2_subsubs",
    "Cglm.C56_any_ivec2_addsub",
    "Cglm.C56_any_ivec2_addsubs",
    "Cglm.C56_any_ivec2_mulsub",
    "Cglm.C56_any_ivec2_mulsubs",
    "Cglm.C56_any_ivec2_maxsub",
    "Cglm.C56_any_ivec2_minsub",
    "Cglm.C56_any_ivec2_distance2",
    "Cglm.C56_any_ivec2_distance",
    "Cglm.C56_any_ivec2_fill",
    "Cglm.C56_any_ivec2_eq",
    "Cglm.C56_any_ivec2_eqv",
    "Cglm.C56_any_ivec2_maxv",
    "Cglm.C56_any_ivec2_minv",
    "Cglm.C56_any_ivec2_clamp",
    "Cglm.C56_any_ivec2_abs",
    "Cglm.C56_any_ivec3",
    "Cglm.C56_any_ivec3_copy",
    "Cglm.C56_any_ivec3_zero",
    "Cglm.C56_any_ivec3_one",
    "Cglm.C56_any_ivec3_dot",
    "Cglm.C56_any_ivec3_norm2",
    "Cglm.C56_any_ivec3_norm",
    "Cglm.C56_any_ivec3_add",
    "Cglm.C56_any_ivec3_adds",
    "Cglm.C56_any_ivec3_sub",
    "Cglm.C56_any_ivec3_subs",
    "Cglm.C56_any_ivec3_mul",
    "Cglm.C56_any_ivec3_scale",
    "Cglm.C56_any_ivec3_div",
    "Cglm.C56_any_ivec3_divs",
    "Cglm.C56_any_ivec3_mod",
    "Cglm.C56_any_ivec3_addadd",
    "Cglm.C56_any_ivec3_addadds",
    "Cglm.C56_any_ivec3_subadd",
    "Cglm.C56_any_ivec3_subadds",
    "Cglm.C56_any_ivec3_muladd",
    "Cglm.C56_any_ivec3_muladds",
    "Cglm.C56_any_ivec3_maxadd",
    "Cglm.C56_any_ivec3_minadd",
    "Cglm.C56_any_ivec3_subsub",
    "Cglm.C56_any_ivec3_subsubs",
    "Cglm.C56_any_ivec3_addsub",
    "Cglm.C56_any_ivec3_addsubs",
    "Cglm.C56_any_ivec3_mulsub",
    "Cglm.C56_any_ivec3_mulsubs",
    "Cglm.C56_any_ivec3_maxsub",
    "Cglm.C56_any_ivec3_minsub",
    "Cglm.C56_any_ivec3_distance2",
    "Cglm.C56_any_ivec3_distance",
    "Cglm.C56_any_ivec3_fill",
    "Cglm.C56_any_ivec3_eq",
    "Cglm.C56_any_ivec3_eqv",
    "Cglm.C56_any_ivec3_maxv",
    "Cglm.C56_any_ivec3_minv",
    "Cglm.C56_any_ivec3_clamp",
    "Cglm.C56_any_ivec3_abs",
    "Cglm.C56_any_ivec4",
    "Cglm.C56_any_ivec4_copy",
    "Cglm.C56_any_ivec4_zero",
    "Cglm.C56_any_ivec4_one",
    "Cglm.C56_any_ivec4_add",
    "Cglm.C56_any_ivec4_adds",
    "Cglm.C56_any_ivec4_sub",
    "Cglm.C56_any_ivec4_subs",
    "Cglm.C56_any_ivec4_mul",
    "Cglm.C56_any_ivec4_scale",
    "Cglm.C56_any_ivec4_addadd",
    "Cglm.C56_any_ivec4_addadds",
    "Cglm.C56_any_ivec4_subadd",
    "Cglm.C56_any_ivec4_subadds",
    "Cglm.C56_any_ivec4_muladd",
    "Cglm.C56_any_ivec4_muladds",
    "Cglm.C56_any_ivec4_maxadd",
    "Cglm.C56_any_ivec4_minadd",
    "Cglm.C56_any_ivec4_subsub",
    "Cglm.C56_any_ivec4_subsubs",
    "Cglm.C56_any_ivec4_addsub",
    "Cglm.C56_any_ivec4_addsubs",
    "Cglm.C56_any_ivec4_mulsub",
    "Cglm.C56_any_ivec4_mulsubs",
    "Cglm.C56_any_ivec4_maxsub",
    "Cglm.C56_any_ivec4_minsub",
    "Cglm.C56_any_ivec4_distance2",
    "Cglm.C56_any_ivec4_distance",
    "Cglm.C56_any_ivec4_maxv",
    "Cglm.C56_any_ivec4_minv",
    "Cglm.C56_any_ivec4_clamp",
    "Cglm.C56_any_ivec4_abs",
    "Cglm.C56_ivec2",
    "Cglm.C56_ivec2_copy",
    "Cglm.C56_ivec2_zero",
    "Cglm.C56_ivec2_one",
    "Cglm.C56_ivec2_dot",
    "Cglm.C56_ivec2_cross",
    "Cglm.C56_ivec2_add",
    "Cglm.C56_ivec2_adds",
    "Cglm.C56_ivec2_sub",
    "Cglm.C56_ivec2_subs",
    "Cglm.C56_ivec2_mul",
    "Cglm.C56_ivec2_scale",
    "Cglm.C56_ivec2_div",
    "Cglm.C56_ivec2_divs",
    "Cglm.C56_ivec2_mod",
    "Cglm.C56_ivec2_addadd",
    "Cglm.C56_ivec2_addadds",
    "Cglm.C56_ivec2_subadd",
    "Cglm.C56_ivec2_subadds",
    "Cglm.C56_ivec2_muladd",
    "Cglm.C56_ivec2_muladds",
    "Cglm.C56_ivec2_maxadd",
    "Cglm.C56_ivec2_minadd",
    "Cglm.C56_ivec2_subsub",
    "Cglm.C56_ivec2_subsubs",
    "Cglm.C56_ivec2_addsub",
    "Cglm.C56_ivec2_addsubs",
    "Cglm.C56_ivec2_mulsub",
    "Cglm.C56_ivec2_mulsubs",
    "Cglm.C56_ivec2_maxsub",
    "Cglm.C56_ivec2_minsub",
    "Cglm.C56_ivec2_distance2",
    "Cglm.C56_ivec2_distance",
    "Cglm.C56_ivec2_fill",
    "Cglm.C56_ivec2_eq",
    "Cglm.C56_ivec2_eqv",
    "Cglm.C56_ivec2_maxv",
    "Cglm.C56_ivec2_minv",
    "Cglm.C56_ivec2_clamp",
    "Cglm.C56_ivec2_abs",
    "Cglm.C56_ivec3",
    "Cglm.C56_ivec3_copy",
    "Cglm.C56_ivec3_zero",
    "Cglm.C56_ivec3_one",
    "Cglm.C56_ivec3_dot",
    "Cglm.C56_ivec3_norm2",
    "Cglm.C56_ivec3_norm",
    "Cglm.C56_ivec3_add",
    "Cglm.C56_ivec3_adds",
    "Cglm.C56_ivec3_sub",
    "Cglm.C56_ivec3_subs",
    "Cglm.C56_ivec3_mul",
    "Cglm.C56_ivec3_scale",
    "Cglm.C56_ivec3_div",
    "Cglm.C56_ivec3_divs",
    "Cglm.C56_ivec3_mod",
    "Cglm.C56_ivec3_addadd",
    "Cglm.C56_ivec3_addadds",
    "Cglm.C56_ivec3_subadd",
    "Cglm.C56_ivec3_subadds",
    "Cglm.C56_ivec3_muladd",
    "Cglm.C56_ivec3_muladds",
    "Cglm.C56_ivec3_maxadd",
    "Cglm.C56_ivec3_minadd",
    "Cglm.C56_ivec3_subsub",
    "Cglm.C56_ivec3_subsubs",
    "Cglm.C56_ivec3_addsub",
    "Cglm.C56_ivec3_addsubs",
    "Cglm.C56_ivec3_mulsub",
    "Cglm.C56_ivec3_mulsubs",
    "Cglm.C56_ivec3_maxsub",
    "Cglm.C56_ivec3_minsub",
    "Cglm.C56_ivec3_distance2",
    "Cglm.C56_ivec3_distance",
    "Cglm.C56_ivec3_fill",
    "Cglm.C56_ivec3_eq",
    "Cglm.C56_ivec3_eqv",
    "Cglm.C56_ivec3_maxv",
    "Cglm.C56_ivec3_minv",
    "Cglm.C56_ivec3_clamp",
    "Cglm.C56_ivec3_abs",
    "Cglm.C56_ivec4",
    "Cglm.C56_ivec4_copy",
    "Cglm.C56_ivec4_zero",
    "Cglm.C56_ivec4_one",
    "Cglm.C56_ivec4_add",
    "Cglm.C56_ivec4_adds",
    "Cglm.C56_ivec4_sub",
    "Cglm.C56_ivec4_subs",
    "Cglm.C56_ivec4_mul",
    "Cglm.C56_ivec4_scale",
    "Cglm.C56_ivec4_addadd",
    "Cglm.C56_ivec4_addadds",
    "Cglm.C56_ivec4_subadd",
    "Cglm.C56_ivec4_subadds",
    "Cglm.C56_ivec4_muladd",
    "Cglm.C56_ivec4_muladds",
    "Cglm.C56_ivec4_maxadd",
    "Cglm.C56_ivec4_minadd",
    "Cglm.C56_ivec4_subsub",
    "Cglm.C56_ivec4_subsubs",
    "Cglm.C56_ivec4_addsub",
    "Cglm.C56_ivec4_addsubs",
    "Cglm.C56_ivec4_mulsub",
    "Cglm.C56_ivec4_mulsubs",
    "Cglm.C56_ivec4_maxsub",
    "Cglm.C56_ivec4_minsub",
    "Cglm.C56_ivec4_distance2",
    "Cglm.C56_ivec4_distance",
    "Cglm.C56_ivec4_maxv",
    "Cglm.C56_ivec4_minv",
    "Cglm.C56_ivec4_clamp",
    "Cglm.C56_ivec4_abs",
    "Cglm.C56_sign",
    "Cglm.C56_imin_checked",
    "Cglm.C56_imax_checked",
    "Cglm.C56_mat4_identity_array",
    "Cglm.C56_mat3_identity_array",
    "Cglm.C56_mat2_identity_array",
    "Cglm.C56_quat_identity_array",
    "Cglm.C56_mat4_mulN",
    "Cglm.C56_euler_order",
    "Cglm.C56_decasteljau",
    "Cglm.C56_mat2_make",
    "Cglm.C56_mat2_copy",
    "Cglm.C56_mat2_identity",
    "Cglm.C56_mat2_zero",
    "Cglm.C56_mat2_mul",
    "Cglm.C56_mat2_mulv",
    "Cglm.C56_mat2_transpose_to",
    "Cglm.C56_mat2_transpose",
    "Cglm.C56_mat2_scale",
    "Cglm.C56_mat2_inv",
    "Cglm.C56_mat2_det",
    "Cglm.C56_mat2_trace",
    "Cglm.C56_mat2_rmc",
    "Cglm.C56_mat2x3_copy",
    "Cglm.C56_mat2x3_zero",
    "Cglm.C56_mat2x3_make",
    "Cglm.C56_mat2x3_mul",
    "Cglm.C56_mat2x3_mulv",
    "Cglm.C56_mat2x3_transpose",
    "Cglm.C56_mat2x3_scale",
    "Cglm.C56_mat2x4_copy",
    "Cglm.C56_mat2x4_zero",
    "Cglm.C56_mat2x4_make",
    "Cglm.C56_mat2x4_mul",
    "Cglm.C56_mat2x4_mulv",
    "Cglm.C56_mat2x4_transpose",
    "Cglm.C56_mat2x4_scale",
    "Cglm.C56_mat3_copy",
    "Cglm.C56_mat3_identity",
    "Cglm.C56_mat3_zero",
    "Cglm.C56_mat3_mul",
    "Cglm.C56_mat3_transpose_to",
    "Cglm.C56_mat3_transpose",
    "Cglm.C56_mat3_mulv",
    "Cglm.C56_mat3_trace",
    "Cglm.C56_mat3_quat",
    "Cglm.C56_mat3_scale",
    "Cglm.C56_mat3_det",
    "Cglm.C56_mat3_inv",
    "Cglm.C56_mat3_rmc",
    "Cglm.C56_mat3_make",
    "Cglm.C56_mat3_textrans",
    "Cglm.C56_mat3x2_copy",
    "Cglm.C56_mat3x2_zero",
    "Cglm.C56_mat3x2_make",
    "Cglm.C56_mat3x2_mul",
    "Cglm.C56_mat3x2_mulv",
    "Cglm.C56_mat3x2_transpose",
    "Cglm.C56_mat3x2_scale",
    "Cglm.C56_mat3x4_copy",
    "Cglm.C56_mat3x4_zero",
    "Cglm.C56_mat3x4_make",
    "Cglm.C56_mat3x4_mul",
    "Cglm.C56_mat3x4_mulv",
    "Cglm.C56_mat3x4_transpose",
    "Cglm.C56_mat3x4_scale",
    "Cglm.C56_mat4_ucopy",
    "Cglm.C56_mat4_copy",
    "Cglm.C56_mat4_identity",
    "Cglm.C56_mat4_zero",
    "Cglm.C56_mat4_pick3",
    "Cglm.C56_mat4_pick3t",
    "Cglm.C56_mat4_ins3",
    "Cglm.C56_mat4_mul",
    "Cglm.C56_mat4_mulv",
    "Cglm.C56_mat4_trace",
    "Cglm.C56_mat4_trace3",
    "Cglm.C56_mat4_quat",
    "Cglm.C56_mat4_mulv3",
    "Cglm.C56_mat4_transpose_to",
    "Cglm.C56_mat4_transpose",
    "Cglm.C56_mat4_scale_p",
    "Cglm.C56_mat4_scale",
    "Cglm.C56_mat4_det",
    "Cglm.C56_mat4_inv",
    "Cglm.C56_mat4_inv_fast",
    "Cglm.C56_mat4_rmc",
    "Cglm.C56_mat4_make",
    "Cglm.C56_mat4_textrans",
    "Cglm.C56_mat4x2_copy",
    "Cglm.C56_mat4x2_zero",
    "Cglm.C56_mat4x2_make",
    "Cglm.C56_mat4x2_mul",
    "Cglm.C56_mat4x2_mulv",
    "Cglm.C56_mat4x2_transpose",
    "Cglm.C56_mat4x2_scale",
    "Cglm.C56_mat4x3_copy",
    "Cglm.C56_mat4x3_zero",
    "Cglm.C56_mat4x3_make",
    "Cglm.C56_mat4x3_mul",
    "Cglm.C56_mat4x3_mulv",
    "Cglm.C56_mat4x3_transpose",
    "Cglm.C56_mat4x3_scale",
    "Cglm.C56_perlin_vec4",
    "Cglm.C56_perlin_vec3",
    "Cglm.C56_perlin_vec2",
    "Cglm.C56_ray_triangle_null",
    "Cglm.C56_euler_angles",
    "Cglm.C56_euler_xyz",
    "Cglm.C56_euler",
    "Cglm.C56_euler_xzy",
    "Cglm.C56_euler_yxz",
    "Cglm.C56_euler_yzx",
    "Cglm.C56_euler_zxy",
    "Cglm.C56_euler_zyx",
    "Cglm.C56_euler_by_order",
    "Cglm.C56_euler_xyz_quat",
    "Cglm.C56_euler_xzy_quat",
    "Cglm.C56_euler_yxz_quat",
    "Cglm.C56_euler_yzx_quat",
    "Cglm.C56_euler_zxy_quat",
    "Cglm.C56_euler_zyx_quat",
    "Cglm.C56_euler_xyz_quat_lh",
    "Cglm.C56_euler_xzy_quat_lh",
    "Cglm.C56_euler_yxz_quat_lh",
    "Cglm.C56_euler_yzx_quat_lh",
    "Cglm.C56_euler_zxy_quat_lh",
    "Cglm.C56_euler_zyx_quat_lh",
    "Cglm.C56_euler_xyz_quat_rh",
    "Cglm.C56_euler_xzy_quat_rh",
    "Cglm.C56_euler_yxz_quat_rh",
    "Cglm.C56_euler_yzx_quat_rh",
    "Cglm.C56_euler_zxy_quat_rh",
    "Cglm.C56_euler_zyx_quat_rh",
    "Cglm.C56_quat_identity",
    "Cglm.C56_quat_init",
    "Cglm.C56_quatv",
    "Cglm.C56_quat",
    "Cglm.C56_quat_copy",
    "Cglm.C56_quat_norm",
    "Cglm.C56_quat_normalize_to",
    "Cglm.C56_quat_normalize",
    "Cglm.C56_quat_dot",
    "Cglm.C56_quat_conjugate",
    "Cglm.C56_quat_inv",
    "Cglm.C56_quat_add",
    "Cglm.C56_quat_sub",
    "Cglm.C56_quat_real",
    "Cglm.C56_quat_imag",
    "Cglm.C56_quat_imagn",
    "Cglm.C56_quat_imaglen",
    "Cglm.C56_quat_angle",
    "Cglm.C56_quat_axis",
    "Cglm.C56_quat_mul",
    "Cglm.C56_quat_mat4",
    "Cglm.C56_quat_mat4t",
    "Cglm.C56_quat_mat3",
    "Cglm.C56_quat_mat3t",
    "Cglm.C56_quat_lerp",
    "Cglm.C56_quat_lerpc",
    "Cglm.C56_quat_nlerp",
    "Cglm.C56_quat_slerp",
    "Cglm.C56_quat_slerp_longest",
    "Cglm.C56_quat_look",
    "Cglm.C56_quat_for",
    "Cglm.C56_quat_forp",
    "Cglm.C56_quat_rotatev",
    "Cglm.C56_quat_rotate",
    "Cglm.C56_quat_rotate_at",
    "Cglm.C56_quat_rotate_atm",
    "Cglm.C56_quat_make",
    "Cglm.C56_quat_from_vecs",
    "Cglm.C56_vec2_swizzle",
    "Cglm.C56_vec3_swizzle",
    "Cglm.C56_vec4_swizzle",
    "Cglm.C56_signf",
    "Cglm.C56_rad",
    "Cglm.C56_deg",
    "Cglm.C56_make_rad",
    "Cglm.C56_make_deg",
    "Cglm.C56_pow2",
    "Cglm.C56_min",
    "Cglm.C56_max",
    "Cglm.C56_imin",
    "Cglm.C56_imax",
    "Cglm.C56_clamp",
    "Cglm.C56_clamp_zo",
    "Cglm.C56_lerp",
    "Cglm.C56_lerpc",
    "Cglm.C56_step",
    "Cglm.C56_smooth",
    "Cglm.C56_smoothstep",
    "Cglm.C56_smoothinterp",
    "Cglm.C56_smoothinterpc",
    "Cglm.C56_eq",
    "Cglm.C56_percent",
    "Cglm.C56_percentc",
    "Cglm.C56_swapf",
    "Cglm.C56_vec2",
    "Cglm.C56_vec2_copy",
    "Cglm.C56_vec2_zero",
    "Cglm.C56_vec2_one",
    "Cglm.C56_vec2_dot",
    "Cglm.C56_vec2_cross",
    "Cglm.C56_vec2_norm2",
    "Cglm.C56_vec2_norm",
    "Cglm.C56_vec2_add",
    "Cglm.C56_vec2_adds",
    "Cglm.C56_vec2_sub",
    "Cglm.C56_vec2_subs",
    "Cglm.C56_vec2_mul",
    "Cglm.C56_vec2_scale",
    "Cglm.C56_vec2_scale_as",
    "Cglm.C56_vec2_div",
    "Cglm.C56_vec2_divs",
    "Cglm.C56_vec2_addadd",
    "Cglm.C56_vec2_subadd",
    "Cglm.C56_vec2_muladd",
    "Cglm.C56_vec2_muladds",
    "Cglm.C56_vec2_maxadd",
    "Cglm.C56_vec2_minadd",
    "Cglm.C56_vec2_subsub",
    "Cglm.C56_vec2_addsub",
    "Cglm.C56_vec2_mulsub",
    "Cglm.C56_vec2_mulsubs",
    "Cglm.C56_vec2_maxsub",
    "Cglm.C56_vec2_minsub",
    "Cglm.C56_vec2_negate_to",
    "Cglm.C56_vec2_negate",
    "Cglm.C56_vec2_normalize",
    "Cglm.C56_vec2_normalize_to",
    "Cglm.C56_vec2_rotate",
    "Cglm.C56_vec2_center",
    "Cglm.C56_vec2_distance2",
    "Cglm.C56_vec2_distance",
    "Cglm.C56_vec2_maxv",
    "Cglm.C56_vec2_minv",
    "Cglm.C56_vec2_clamp",
    "Cglm.C56_vec2_lerp",
    "Cglm.C56_vec2_step",
    "Cglm.C56_vec2_make",
    "Cglm.C56_vec2_reflect",
    "Cglm.C56_vec2_refract",
    "Cglm.C56_vec2_fill",
    "Cglm.C56_vec2_eq",
    "Cglm.C56_vec2_eq_eps",
    "Cglm.C56_vec2_eq_all",
    "Cglm.C56_vec2_eqv",
    "Cglm.C56_vec2_eqv_eps",
    "Cglm.C56_vec2_max",
    "Cglm.C56_vec2_min",
    "Cglm.C56_vec2_isnan",
    "Cglm.C56_vec2_isinf",
    "Cglm.C56_vec2_isvalid",
    "Cglm.C56_vec2_sign",
    "Cglm.C56_vec2_abs",
    "Cglm.C56_vec2_fract",
    "Cglm.C56_vec2_floor",
    "Cglm.C56_vec2_mods",
    "Cglm.C56_vec2_sqrt",
    "Cglm.C56_vec2_complex_mul",
    "Cglm.C56_vec2_steps",
    "Cglm.C56_vec2_stepr",
    "Cglm.C56_vec2_complex_div",
    "Cglm.C56_vec2_complex_conjugate",
    "Cglm.C56_vec3",
    "Cglm.C56_vec3_copy",
    "Cglm.C56_vec3_zero",
    "Cglm.C56_vec3_one",
    "Cglm.C56_vec3_dot",
    "Cglm.C56_vec3_norm2",
    "Cglm.C56_vec3_norm",
    "Cglm.C56_vec3_norm_one",
    "Cglm.C56_vec3_norm_inf",
    "Cglm.C56_vec3_add",
    "Cglm.C56_vec3_adds",
    "Cglm.C56_vec3_sub",
    "Cglm.C56_vec3_subs",
    "Cglm.C56_vec3_mul",
    "Cglm.C56_vec3_scale",
    "Cglm.C56_vec3_scale_as",
    "Cglm.C56_vec3_div",
    "Cglm.C56_vec3_divs",
    "Cglm.C56_vec3_addadd",
    "Cglm.C56_vec3_subadd",
    "Cglm.C56_vec3_muladd",
    "Cglm.C56_vec3_muladds",
    "Cglm.C56_vec3_maxadd",
    "Cglm.C56_vec3_minadd",
    "Cglm.C56_vec3_subsub",
    "Cglm.C56_vec3_addsub",
    "Cglm.C56_vec3_mulsub",
    "Cglm.C56_vec3_mulsubs",
    "Cglm.C56_vec3_maxsub",
    "Cglm.C56_vec3_minsub",
    "Cglm.C56_vec3_negate_to",
    "Cglm.C56_vec3_negate",
    "Cglm.C56_vec3_normalize",
    "Cglm.C56_vec3_normalize_to",
    "Cglm.C56_vec3_cross",
    "Cglm.C56_vec3_crossn",
    "Cglm.C56_vec3_angle",
    "Cglm.C56_vec3_rotate",
    "Cglm.C56_vec3_rotate_m4",
    "Cglm.C56_vec3_rotate_m3",
    "Cglm.C56_vec3_proj",
    "Cglm.C56_vec3_center",
    "Cglm.C56_vec3_distance2",
    "Cglm.C56_vec3_distance",
    "Cglm.C56_vec3_maxv",
    "Cglm.C56_vec3_minv",
    "Cglm.C56_vec3_ortho",
    "Cglm.C56_vec3_clamp",
    "Cglm.C56_vec3_lerp",
    "Cglm.C56_vec3_lerpc",
    "Cglm.C56_vec3_mix",
    "Cglm.C56_vec3_mixc",
    "Cglm.C56_vec3_step",
    "Cglm.C56_vec3_smoothstep_uni",
    "Cglm.C56_vec3_smoothstep",
    "Cglm.C56_vec3_smoothinterp",
    "Cglm.C56_vec3_smoothinterpc",
    "Cglm.C56_cross",
    "Cglm.C56_dot",
    "Cglm.C56_normalize",
    "Cglm.C56_normalize_to",
    "Cglm.C56_vec3_make",
    "Cglm.C56_vec3_faceforward",
    "Cglm.C56_vec3_reflect",
    "Cglm.C56_vec3_refract",
    "Cglm.C56_vec3_broadcast",
    "Cglm.C56_vec3_fill",
    "Cglm.C56_vec3_eq",
    "Cglm.C56_vec3_eq_eps",
    "Cglm.C56_vec3_eq_all",
    "Cglm.C56_vec3_eqv",
    "Cglm.C56_vec3_eqv_eps",
    "Cglm.C56_vec3_max",
    "Cglm.C56_vec3_min",
    "Cglm.C56_vec3_isnan",
    "Cglm.C56_vec3_isinf",
    "Cglm.C56_vec3_isvalid",
    "Cglm.C56_vec3_sign",
    "Cglm.C56_vec3_abs",
    "Cglm.C56_vec3_fract",
    "Cglm.C56_vec3_floor",
    "Cglm.C56_vec3_mods",
    "Cglm.C56_vec3_steps",
    "Cglm.C56_vec3_stepr",
    "Cglm.C56_vec3_hadd",
    "Cglm.C56_vec3_sqrt",
    "Cglm.C56_vec4",
    "Cglm.C56_vec4_copy3",
    "Cglm.C56_vec4_copy",
    "Cglm.C56_vec4_ucopy",
    "Cglm.C56_vec4_zero",
    "Cglm.C56_vec4_one",
    "Cglm.C56_vec4_dot",
    "Cglm.C56_vec4_norm2",
    "Cglm.C56_vec4_norm",
    "Cglm.C56_vec4_norm_one",
    "Cglm.C56_vec4_norm_inf",
    "Cglm.C56_vec4_add",
    "Cglm.C56_vec4_adds",
    "Cglm.C56_vec4_sub",
    "Cglm.C56_vec4_subs",
    "Cglm.C56_vec4_mul",
    "Cglm.C56_vec4_scale",
    "Cglm.C56_vec4_scale_as",
    "Cglm.C56_vec4_div",
    "Cglm.C56_vec4_divs",
    "Cglm.C56_vec4_addadd",
    "Cglm.C56_vec4_subadd",
    "Cglm.C56_vec4_muladd",
    "Cglm.C56_vec4_muladds",
    "Cglm.C56_vec4_maxadd",
    "Cglm.C56_vec4_minadd",
    "Cglm.C56_vec4_subsub",
    "Cglm.C56_vec4_addsub",
    "Cglm.C56_vec4_mulsub",
    "Cglm.C56_vec4_mulsubs",
    "Cglm.C56_vec4_maxsub",
    "Cglm.C56_vec4_minsub",
    "Cglm.C56_vec4_negate_to",
    "Cglm.C56_vec4_negate",
    "Cglm.C56_vec4_normalize_to",
    "Cglm.C56_vec4_normalize",
    "Cglm.C56_vec4_distance",
    "Cglm.C56_vec4_distance2",
    "Cglm.C56_vec4_maxv",
    "Cglm.C56_vec4_minv",
    "Cglm.C56_vec4_clamp",
    "Cglm.C56_vec4_lerp",
    "Cglm.C56_vec4_lerpc",
    "Cglm.C56_vec4_mix",
    "Cglm.C56_vec4_mixc",
    "Cglm.C56_vec4_step",
    "Cglm.C56_vec4_smoothstep_uni",
    "Cglm.C56_vec4_smoothstep",
    "Cglm.C56_vec4_smoothinterp",
    "Cglm.C56_vec4_smoothinterpc",
    "Cglm.C56_vec4_cubic",
    "Cglm.C56_vec4_make",
    "Cglm.C56_vec4_reflect",
    "Cglm.C56_vec4_refract",
    "Cglm.C56_vec4_broadcast",
    "Cglm.C56_vec4_fill",
    "Cglm.C56_vec4_eq",
    "Cglm.C56_vec4_eq_eps",
    "Cglm.C56_vec4_eq_all",
    "Cglm.C56_vec4_eqv",
    "Cglm.C56_vec4_eqv_eps",
    "Cglm.C56_vec4_max",
    "Cglm.C56_vec4_min",
    "Cglm.C56_vec4_isnan",
    "Cglm.C56_vec4_isinf",
    "Cglm.C56_vec4_isvalid",
    "Cglm.C56_vec4_sign",
    "Cglm.C56_vec4_abs",
    "Cglm.C56_vec4_fract",
    "Cglm.C56_vec4_floor",
    "Cglm.C56_vec4_mods",
    "Cglm.C56_vec4_steps",
    "Cglm.C56_vec4_stepr",
    "Cglm.C56_vec4_hadd",
    "Cglm.C56_vec4_sqrt"
   ],
   "note": "Each of the 682 generated functions, run on memory with pairwise disjoint arguments, is defined and changes exactly the output regions, for every scalar type. With arguments that overlap in any way (C56_any_*) each call is still defined, changes no cell outside its outputs and initialises these: a static analysis proved sound accepts every function. The functions with run-time indices or loops (swizzles, row and column swaps, identity arrays, mulN, euler_order, decasteljau) are run in the extended language of CMemX: undefined exactly when an index is out of range, terminating, and changing only the destination; swizzles and mulN also with overlapping arguments (the pointer array of mulN must lie outside the destination). The 116 integer-vector functions are run in CMemI with checked arithmetic: whenever the value-level function is defined, so is the call, with the same result and no other change; with overlapping arguments the only undefined behaviour is an arithmetic operation out of range."
  },
  {
   "property": "C57",
   "status": "partial",
   "theorems": [
    "Cglm.C57_Sse_glmm_abs",
    "Cglm.C57_Sse_glmm_min",
    "Cglm.C57_Sse_glmm_max",
    "Cglm.C57_Sse_glmm_vhadd",
    "Cglm.C57_Sse_glmm_vhadds",
    "Cglm.C57_Sse_glmm_hadd",
    "Cglm.C57_Sse_glmm_vhmin",
    "Cglm.C57_Sse_glmm_hmin",
    "Cglm.C57_Sse_glmm_vhmax",
    "Cglm.C57_Sse_glmm_hmax",
    "Cglm.C57_Sse_glmm_vdots",
    "Cglm.C57_Sse_glmm_vdot",
    "Cglm.C57_Sse_glmm_dot",
    "Cglm.C57_Sse_glmm_norm",
    "Cglm.C57_Sse_glmm_norm2",
    "Cglm.C57_Sse_glmm_norm_one",
    "Cglm.C57_Sse_glmm_norm_inf",
    "Cglm.C57_Sse_glmm_div",
    "Cglm.C57_Sse_glmm_fmadd",
    "Cglm.C57_Sse_glmm_fnmadd",
    "Cglm.C57_Sse_glmm_fmsub",
    "Cglm.C57_Sse_glmm_fnmsub",
    "Cglm.C57_Sse_glm_vec4_broadcast",
    "Cglm.C57_Sse_glm_vec4_fill",
    "Cglm.C57_Sse_glm_vec4_abs",
    "Cglm.C57_Sse_glm_vec4_hadd",
    "Cglm.C57_Sse_glm_vec4_sqrt",
    "Cglm.C57_Sse_glm_vec4_zero",
    "Cglm.C57_Sse_glm_vec4_one",
    "Cglm.C57_Sse_glm_vec4_dot",
    "Cglm.C57_Sse_glm_vec4_norm2",
    "Cglm.C57_Sse_glm_vec4_norm",
    "Cglm.C57_Sse_glm_vec4_norm_one",
    "Cglm.C57_Sse_glm_vec4_norm_inf",
    "Cglm.C57_Sse_glm_vec4_add",
    "Cglm.C57_Sse_glm_vec4_adds",
    "Cglm.C57_Sse_glm_vec4_sub",
    "Cglm.C57_Sse_glm_vec4_subs",
    "Cglm.C57_Sse_glm_vec4_mul",
    "Cglm.C57_Sse_glm_vec4_scale",
    "Cglm.C57_Sse_glm_vec4_scale_as",
    "Cglm.C57_Sse_glm_vec4_div",
    "Cglm.C57_Sse_glm_vec4_divs",
    "Cglm.C57_Sse_glm_vec4_addadd",
    "Cglm.C57_Sse_glm_vec4_subadd",
    "Cglm.C57_Sse_glm_vec4_muladd",
    "Cglm.C57_Sse_glm_vec4_muladds",
    "Cglm.C57_Sse_glm_vec4_maxadd",
    "Cglm.C57_Sse_glm_vec4_minadd",
    "Cglm.C57_Sse_glm_vec4_subsub",
    "Cglm.C57_Sse_glm_vec4_addsub",
    "Cglm.C57_Sse_glm_vec4_mulsub",
    "Cglm.C57_Sse_glm_vec4_mulsubs",
    "Cglm.C57_Sse_glm_vec4_maxsub",
    "Cglm.C57_Sse_glm_vec4_minsub",
    "Cglm.C57_Sse_glm_vec4_negate_to",
    "Cglm.C57_Sse_glm_vec4_negate",
    "Cglm.C57_Sse_glm_vec4_distance",
    "Cglm.C57_Sse_glm_vec4_distance2",
    "Cglm.C57_Sse_glm_vec4_maxv",
    "Cglm.C57_Sse_glm_vec4_minv",
    "Cglm.C57_Sse_glm_vec4_clamp",
    "Cglm.C57_Sse_glm_vec4_lerp",
    "Cglm.C57_Sse_glm_vec4_lerpc",
    "Cglm.C57_Sse_glm_vec4_mix",
    "Cglm.C57_Sse_glm_vec4_mixc",
    "Cglm.C57_Sse_glm_vec4_smoothinterp",
    "Cglm.C57_Sse_glm_vec4_smoothinterpc",
    "Cglm.C57_Sse_glm_vec4_reflect",
    "Cglm.C57_Sse_glm_vec4_refract",
    "Cglm.C57_Sse_glm_mat4_scale_sse2",
    "Cglm.C57_Sse_glm_mat4_transp_sse2",
    "Cglm.C57_Sse_glm_mat4_mul_sse2",
    "Cglm.C57_Sse_glm_mat4_mulv_sse2",
    "Cglm.C57_Sse_glm_mat4_det_sse2",
    "Cglm.C57_Sse_glm_mat4_inv_sse2",
    "Cglm.C57_Sse_glm_mat4_copy",
    "Cglm.C57_Sse_glm_mat4_identity",
    "Cglm.C57_Sse_glm_mat4_zero",
    "Cglm.C57_Sse_glm_mat4_mul",
    "Cglm.C57_Sse_glm_mat4_mulv",
    "Cglm.C57_Sse_glm_mat4_mulv3",
    "Cglm.C57_Sse_glm_mat4_transpose_to",
    "Cglm.C57_Sse_glm_mat4_transpose",
    "Cglm.C57_Sse_glm_mat4_scale",
    "Cglm.C57_Sse_glm_mat4_det",
    "Cglm.C57_Sse_glm_mat4_inv",
    "Cglm.C57_Sse_glm_mat4_rmc",
    "Cglm.C57_Sse_glm_mat4_textrans",
    "Cglm.C57_Sse_glm_mat3_mul_sse2",
    "Cglm.C57_Sse_glm_mat3_mul",
    "Cglm.C57_Sse_glm_mat2_mul_sse2",
    "Cglm.C57_Sse_glm_mat2_transp_sse2",
    "Cglm.C57_Sse_glm_mat2_mul",
    "Cglm.C57_Sse_glm_mat2_transpose_to",
    "Cglm.C57_Sse_glm_mat2_scale",
    "Cglm.C57_Sse_glm_mul_sse2",
    "Cglm.C57_Sse_glm_mul_rot_sse2",
    "Cglm.C57_Sse_glm_mul",
    "Cglm.C57_Sse_glm_mul_rot",
    "Cglm.C57_Sse_glm_translate_make",
    "Cglm.C57_Sse_glm_scale_to",
    "Cglm.C57_Sse_glm_scale_make",
    "Cglm.C57_Sse_glm_scale",
    "Cglm.C57_Sse_glm_scale_uni",
    "Cglm.C57_Sse_glm_decompose_rs",
    "Cglm.C57_Sse_glm_decompose",
    "Cglm.C57_Sse_glm_translate",
    "Cglm.C57_Sse_glm_translate_to",
    "Cglm.C57_Sse_glm_translate_x",
    "Cglm.C57_Sse_glm_translate_y",
    "Cglm.C57_Sse_glm_translate_z",
    "Cglm.C57_Sse_glm_rotate_x",
    "Cglm.C57_Sse_glm_rotate_y",
    "Cglm.C57_Sse_glm_rotate_z",
    "Cglm.C57_Sse_glm_rotate",
    "Cglm.C57_Sse_glm_rotate_at",
    "Cglm.C57_Sse_glm_rotate_atm",
    "Cglm.C57_Sse_glm_spin",
    "Cglm.C57_Sse_glm_translated_to",
    "Cglm.C57_Sse_glm_rotated_x",
    "Cglm.C57_Sse_glm_rotated_y",
    "Cglm.C57_Sse_glm_rotated_z",
    "Cglm.C57_Sse_glm_rotated",
    "Cglm.C57_Sse_glm_rotated_at",
    "Cglm.C57_Sse_glm_spinned",
    "Cglm.C57_Sse_glm_plane_normalize",
    "Cglm.C57_Sse_glm_ortho_lh_zo",
    "Cglm.C57_Sse_glm_ortho_aabb_lh_zo",
    "Cglm.C57_Sse_glm_ortho_aabb_p_lh_zo",
    "Cglm.C57_Sse_glm_ortho_aabb_pz_lh_zo",
    "Cglm.C57_Sse_glm_ortho_default_lh_zo",
    "Cglm.C57_Sse_glm_ortho_default_s_lh_zo",
    "Cglm.C57_Sse_glm_frustum_lh_zo",
    "Cglm.C57_Sse_glm_perspective_lh_zo",
    "Cglm.C57_Sse_glm_perspective_default_lh_zo",
    "Cglm.C57_Sse_glm_ortho_lh_no",
    "Cglm.C57_Sse_glm_ortho_aabb_lh_no",
    "Cglm.C57_Sse_glm_ortho_aabb_p_lh_no",
    "Cglm.C57_Sse_glm_ortho_aabb_pz_lh_no",
    "Cglm.C57_Sse_glm_ortho_default_lh_no",
    "Cglm.C57_Sse_glm_ortho_default_s_lh_no",
    "Cglm.C57_Sse_glm_frustum_lh_no",
    "Cglm.C57_Sse_glm_perspective_lh_no",
    "Cglm.C57_Sse_glm_perspective_default_lh_no",
    "Cglm.C57_Sse_glm_ortho_rh_zo",
    "Cglm.C57_Sse_glm_ortho_aabb_rh_zo",
    "Cglm.C57_Sse_glm_ortho_aabb_p_rh_zo",
    "Cglm.C57_Sse_glm_ortho_aabb_pz_rh_zo",
    "Cglm.C57_Sse_glm_ortho_default_rh_zo",
    "Cglm.C57_Sse_glm_ortho_default_s_rh_zo",
    "Cglm.C57_Sse_glm_frustum_rh_zo",
    "Cglm.C57_Sse_glm_perspective_rh_zo",
    "Cglm.C57_Sse_glm_perspective_default_rh_zo",
    "Cglm.C57_Sse_glm_ortho_rh_no",
    "Cglm.C57_Sse_glm_ortho_aabb_rh_no",
    "Cglm.C57_Sse_glm_ortho_aabb_p_rh_no",
    "Cglm.C57_Sse_glm_ortho_aabb_pz_rh_no",
    "Cglm.C57_Sse_glm_ortho_default_rh_no",
    "Cglm.C57_Sse_glm_ortho_default_s_rh_no",
    "Cglm.C57_Sse_glm_frustum_rh_no",
    "Cglm.C57_Sse_glm_perspective_rh_no",
    "Cglm.C57_Sse_glm_perspective_default_rh_no",
    "Cglm.C57_Sse_glm_frustum",
    "Cglm.C57_Sse_glm_ortho",
    "Cglm.C57_Sse_glm_ortho_aabb",
    "Cglm.C57_Sse_glm_ortho_aabb_p",
    "Cglm.C57_Sse_glm_ortho_aabb_pz",
    "Cglm.C57_Sse_glm_ortho_default",
    "Cglm.C57_Sse_glm_ortho_default_s",
    "Cglm.C57_Sse_glm_perspective",
    "Cglm.C57_Sse_glm_perspective_default",
    "Cglm.C57_Sse_glm_frustum_planes",
    "Cglm.C57_Sse_glm_frustum_corners",
    "Cglm.C57_Sse_glm_frustum_center",
    "Cglm.C57_Sse_glm_frustum_box",
    "Cglm.C57_Sse_glm_frustum_corners_at",
    "Cglm.C57_Sse_glm_quat_mul_sse2",
    "Cglm.C57_Sse_glm_quat_norm",
    "Cglm.C57_Sse_glm_quat_normalize_to",
    "Cglm.C57_Sse_glm_quat_normalize",
    "Cglm.C57_Sse_glm_quat_dot",
    "Cglm.C57_Sse_glm_quat_conjugate",
    "Cglm.C57_Sse_glm_quat_inv",
    "Cglm.C57_Sse_glm_quat_add",
    "Cglm.C57_Sse_glm_quat_sub",
    "Cglm.C57_Sse_glm_quat_mul",
    "Cglm.C57_Sse_glm_quat_mat4",
    "Cglm.C57_Sse_glm_quat_mat4t",
    "Cglm.C57_Sse_glm_quat_mat3",
    "Cglm.C57_Sse_glm_quat_mat3t",
    "Cglm.C57_Sse_glm_quat_lerp",
    "Cglm.C57_Sse_glm_quat_lerpc",
    "Cglm.C57_Sse_glm_quat_nlerp",
    "Cglm.C57_Sse_glm_quat_slerp",
    "Cglm.C57_Sse_glm_quat_slerp_longest",
    "Cglm.C57_Sse_glm_quat_look",
    "Cglm.C57_Sse_glm_quat_rotatev",
    "Cglm.C57_Sse_glm_quat_rotate",
    "Cglm.C57_Sse_glm_quat_rotate_at",
    "Cglm.C57_Sse_glm_quat_rotate_atm",
    "Cglm.C57_Sse_glm_perlin_vec4",
    "Cglm.C57_Sse_glm_perlin_vec3",
    "Cglm.C57_Sse_glm_perlin_vec2",
    "Cglm.C57_Sse_glm_unprojecti_zo",
    "Cglm.C57_Sse_glm_project_zo",
    "Cglm.C57_Sse_glm_unprojecti_no",
    "Cglm.C57_Sse_glm_project_no",
    "Cglm.C57_Sse_glm_unprojecti",
    "Cglm.C57_Sse_glm_unproject",
    "Cglm.C57_Sse_glm_project",
    "Cglm.C57_Sse_glm_pickmatrix",
    "Cglm.C57_Sse_glm_sphere_transform",
    "Cglm.C57_Sse_glm_smc",
    "Cglm.C57_Sse_glm_quat_from_vecs",
    "Cglm.C57_Sse2_glmm_abs",
    "Cglm.C57_Sse2_glmm_min",
    "Cglm.C57_Sse2_glmm_max",
    "Cglm.C57_Sse2_glmm_vhadd",
    "Cglm.C57_Sse2_glmm_vhadds",
    "Cglm.C57_Sse2_glmm_hadd",
    "Cglm.C57_Sse2_glmm_vhmin",
    "Cglm.C57_Sse2_glmm_hmin",
    "Cglm.C57_Sse2_glmm_vhmax",
    "Cglm.C57_Sse2_glmm_hmax",
    "Cglm.C57_Sse2_glmm_vdots",
    "Cglm.C57_Sse2_glmm_vdot",
    "Cglm.C57_Sse2_glmm_dot",
    "Cglm.C57_Sse2_glmm_norm",
    "Cglm.C57_Sse2_glmm_norm2",
    "Cglm.C57_Sse2_glmm_norm_one",
    "Cglm.C57_Sse2_glmm_norm_inf",
    "Cglm.C57_Sse2_glmm_load3",
    "Cglm.C57_Sse2_glmm_store3",
    "Cglm.C57_Sse2_glmm_div",
    "Cglm.C57_Sse2_glmm_fmadd",
    "Cglm.C57_Sse2_glmm_fnmadd",
    "Cglm.C57_Sse2_glmm_fmsub",
    "Cglm.C57_Sse2_glmm_fnmsub",
    "Cglm.C57_Sse2_glm_vec4_broadcast",
    "Cglm.C57_Sse2_glm_vec4_fill",
    "Cglm.C57_Sse2_glm_vec4_abs",
    "Cglm.C57_Sse2_glm_vec4_hadd",
    "Cglm.C57_Sse2_glm_vec4_sqrt",
    "Cglm.C57_Sse2_glm_vec4_zero",
    "Cglm.C57_Sse2_glm_vec4_one",
    "Cglm.C57_Sse2_glm_vec4_dot",
    "Cglm.C57_Sse2_glm_vec4_norm2",
    "Cglm.C57_Sse2_glm_vec4_norm",
    "Cglm.C57_Sse2_glm_vec4_norm_one",
    "Cglm.C57_Sse2_glm_vec4_norm_inf",
    "Cglm.C57_Sse2_glm_vec4_add",
    "Cglm.C57_Sse2_glm_vec4_adds",
    "Cglm.C57_Sse2_glm_vec4_sub",
    "Cglm.C57_Sse2_glm_vec4_subs",
    "Cglm.C57_Sse2_glm_vec4_mul",
    "Cglm.C57_Sse2_glm_vec4_scale",
    "Cglm.C57_Sse2_glm_vec4_scale_as",
    "Cglm.C57_Sse2_glm_vec4_div",
    "Cglm.C57_Sse2_glm_vec4_divs",
    "Cglm.C57_Sse2_glm_vec4_addadd",
    "Cglm.C57_Sse2_glm_vec4_subadd",
    "Cglm.C57_Sse2_glm_vec4_muladd",
    "Cglm.C57_Sse2_glm_vec4_muladds",
    "Cglm.C57_Sse2_glm_vec4_maxadd",
    "Cglm.C57_Sse2_glm_vec4_minadd",
    "Cglm.C57_Sse2_glm_vec4_subsub",
    "Cglm.C57_Sse2_glm_vec4_addsub",
    "Cglm.C57_Sse2_glm_vec4_mulsub",
    "Cglm.C57_Sse2_glm_vec4_mulsubs",
    "Cglm.C57_Sse2_glm_vec4_maxsub",
    "Cglm.C57_Sse2_glm_vec4_minsub",
    "Cglm.C57_Sse2_glm_vec4_negate_to",
    "Cglm.C57_Sse2_glm_vec4_negate",
    "Cglm.C57_Sse2_glm_vec4_distance",
    "Cglm.C57_Sse2_glm_vec4_distance2",
    "Cglm.C57_Sse2_glm_vec4_maxv",
    "Cglm.C57_Sse2_glm_vec4_minv",
    "Cglm.C57_Sse2_glm_vec4_clamp",
    "Cglm.C57_Sse2_glm_vec4_lerp",
    "Cglm.C57_Sse2_glm_vec4_lerpc",
    "Cglm.C57_Sse2_glm_vec4_mix",
    "Cglm.C57_Sse2_glm_vec4_mixc",
    "Cglm.C57_Sse2_glm_vec4_smoothinterp",
    "Cglm.C57_Sse2_glm_vec4_smoothinterpc",
    "Cglm.C57_Sse2_glm_vec4_reflect",
    "Cglm.C57_Sse2_glm_vec4_refract",
    "Cglm.C57_Sse2_glm_mat4_scale_sse2",
    "Cglm.C57_Sse2_glm_mat4_transp_sse2",
    "Cglm.C57_Sse2_glm_mat4_mul_sse2",
    "Cglm.C57_Sse2_glm_mat4_mulv_sse2",
    "Cglm.C57_Sse2_glm_mat4_det_sse2",
    "Cglm.C57_Sse2_glm_mat4_inv_sse2",
    "Cglm.C57_Sse2_glm_mat4_copy",
    "Cglm.C57_Sse2_glm_mat4_identity",
    "Cglm.C57_Sse2_glm_mat4_zero",
    "Cglm.C57_Sse2_glm_mat4_mul",
    "Cglm.C57_Sse2_glm_mat4_mulv",
    "Cglm.C57_Sse2_glm_mat4_mulv3",
    "Cglm.C57_Sse2_glm_mat4_transpose_to",
    "Cglm.C57_Sse2_glm_mat4_transpose",
    "Cglm.C57_Sse2_glm_mat4_scale",
    "Cglm.C57_Sse2_glm_mat4_det",
    "Cglm.C57_Sse2_glm_mat4_inv",
    "Cglm.C57_Sse2_glm_mat4_rmc",
    "Cglm.C57_Sse2_glm_mat4_textrans",
    "Cglm.C57_Sse2_glm_mat3_mul_sse2",
    "Cglm.C57_Sse2_glm_mat3_mul",
    "Cglm.C57_Sse2_glm_mat2_mul_sse2",
    "Cglm.C57_Sse2_glm_mat2_transp_sse2",
    "Cglm.C57_Sse2_glm_mat2_mul",
    "Cglm.C57_Sse2_glm_mat2_transpose_to",
    "Cglm.C57_Sse2_glm_mat2_scale",
    "Cglm.C57_Sse2_glm_mul_sse2",
    "Cglm.C57_Sse2_glm_mul_rot_sse2",
    "Cglm.C57_Sse2_glm_mul",
    "Cglm.C57_Sse2_glm_mul_rot",
    "Cglm.C57_Sse2_glm_translate_make",
    "Cglm.C57_Sse2_glm_scale_to",
    "Cglm.C57_Sse2_glm_scale_make",
    "Cglm.C57_Sse2_glm_scale",
    "Cglm.C57_Sse2_glm_scale_uni",
    "Cglm.C57_Sse2_glm_decompose_rs",
    "Cglm.C57_Sse2_glm_decompose",
    "Cglm.C57_Sse2_glm_translate",
    "Cglm.C57_Sse2_glm_translate_to",
    "Cglm.C57_Sse2_glm_translate_x",
    "Cglm.C57_Sse2_glm_translate_y",
    "Cglm.C57_Sse2_glm_translate_z",
    "Cglm.C57_Sse2_glm_rotate_x",
    "Cglm.C57_Sse2_glm_rotate_y",
    "Cglm.C57_Sse2_glm_rotate_z",
    "Cglm.C57_Sse2_glm_rotate",
    "Cglm.C57_Sse2_glm_rotate_at",
    "Cglm.C57_Sse2_glm_rotate_atm",
    "Cglm.C57_Sse2_glm_spin",
    "Cglm.C57_Sse2_glm_translated_to",
    "Cglm.C57_Sse2_glm_rotated_x",
    "Cglm.C57_Sse2_glm_rotated_y",
    "Cglm.C57_Sse2_glm_rotated_z",
    "Cglm.C57_Sse2_glm_rotated",
    "Cglm.C57_Sse2_glm_rotated_at",
    "Cglm.C57_Sse2_glm_spinned",
    "Cglm.C57_Sse2_glm_plane_normalize",
    "Cglm.C57_Sse2_glm_ortho_lh_zo",
    "Cglm.C57_Sse2_glm_ortho_aabb_lh_zo",
    "Cglm.C57_Sse2_glm_ortho_aabb_p_lh_zo",
    "Cglm.C57_Sse2_glm_ortho_aabb_pz_lh_zo",
    "Cglm.C57_Sse2_glm_ortho_default_lh_zo",
    "Cglm.C57_Sse2_glm_ortho_default_s_lh_zo",
    "Cglm.C57_Sse2_glm_frustum_lh_zo",
    "Cglm.C57_Sse2_glm_perspective_lh_zo",
    "Cglm.C57_Sse2_glm_perspective_default_lh_zo",
    "Cglm.C57_Sse2_glm_ortho_lh_no",
    "Cglm.C57_Sse2_glm_ortho_aabb_lh_no",
    "Cglm.C57_Sse2_glm_ortho_aabb_p_lh_no",
    "Cglm.C57_Sse2_glm_ortho_aabb_pz_lh_no",
    "Cglm.C57_Sse2_glm_ortho_default_lh_no",
    "Cglm.C57_Sse2_glm_ortho_default_s_lh_no",
    "Cglm.C57_Sse2_glm_frustum_lh_no",
    "Cglm.C57_Sse2_glm_perspective_lh_no",
    "Cglm.C57_Sse2_glm_perspective_default_lh_no",
    "Cglm.C57_Sse2_glm_ortho_rh_zo",
    "Cglm.C57_Sse2_glm_ortho_aabb_rh_zo",
    "Cglm.C57_Sse2_glm_ortho_aabb_p_rh_zo",
    "Cglm.C57_Sse2_glm_ortho_aabb_pz_rh_zo",
    "Cglm.C57_Sse2_glm_ortho_default_rh_zo",
    "Cglm.C57_Sse2_glm_ortho_default_s_rh_zo",
    "Cglm.C57_Sse2_glm_frustum_rh_zo",
    "Cglm.C57_Sse2_glm_perspective_rh_zo",
    "Cglm.C57_Sse2_glm_perspective_default_rh_zo",
    "Cglm.C57_Sse2_glm_ortho_rh_no",
    "Cglm.C57_Sse2_glm_ortho_aabb_rh_no",
    "Cglm.C57_Sse2_glm_ortho_aabb_p_rh_no",
    "Cglm.C57_Sse2_glm_ortho_aabb_pz_rh_no",
    "Cglm.C57_Sse2_glm_ortho_default_rh_no",
    "Cglm.C57_Sse2_glm_ortho_default_s_rh_no",
    "Cglm.C57_Sse2_glm_frustum_rh_no",
    "Cglm.C57_Sse2_glm_perspective_rh_no",
    "Cglm.C57_Sse2_glm_perspective_default_rh_no",
    "Cglm.C57_Sse2_glm_frustum",
    "Cglm.C57_Sse2_glm_ortho",
    "Cglm.C57_Sse2_glm_ortho_aabb",
    "Cglm.C57_Sse2_glm_ortho_aabb_p",
    "Cglm.C57_Sse2_glm_ortho_aabb_pz",
    "Cglm.C57_Sse2_glm_ortho_default",
    "Cglm.C57_Sse2_glm_ortho_default_s",
    "Cglm.C57_Sse2_glm_perspective",
    "Cglm.C57_Sse2_glm_perspective_default",
    "Cglm.C57_Sse2_glm_frustum_planes",
    "Cglm.C57_Sse2_glm_frustum_corners",
    "Cglm.C57_Sse2_glm_frustum_center",
    "Cglm.C57_Sse2_glm_frustum_box",
    "Cglm.C57_Sse2_glm_frustum_corners_at",
    "Cglm.C57_Sse2_glm_quat_mul_sse2",
    "Cglm.C57_Sse2_glm_quat_norm",
    "Cglm.C57_Sse2_glm_quat_normalize_to",
    "Cglm.C57_Sse2_glm_quat_normalize",
    "Cglm.C57_Sse2_glm_quat_dot",
    "Cglm.C57_Sse2_glm_quat_conjugate",
    "Cglm.C57_Sse2_glm_quat_inv",
    "Cglm.C57_Sse2_glm_quat_add",
    "Cglm.C57_Sse2_glm_quat_sub",
    "Cglm.C57_Sse2_glm_quat_mul",
    "Cglm.C57_Sse2_glm_quat_mat4",
    "Cglm.C57_Sse2_glm_quat_mat4t",
    "Cglm.C57_Sse2_glm_quat_mat3",
    "Cglm.C57_Sse2_glm_quat_mat3t",
    "Cglm.C57_Sse2_glm_quat_lerp",
    "Cglm.C57_Sse2_glm_quat_lerpc",
    "Cglm.C57_Sse2_glm_quat_nlerp",
    "Cglm.C57_Sse2_glm_quat_slerp",
    "Cglm.C57_Sse2_glm_quat_slerp_longest",
    "Cglm.C57_Sse2_glm_quat_look",
    "Cglm.C57_Sse2_glm_quat_rotatev",
    "Cglm.C57_Sse2_glm_quat_rotate",
    "Cglm.C57_Sse2_glm_quat_rotate_at",
    "Cglm.C57_Sse2_glm_quat_rotate_atm",
    "Cglm.C57_Sse2_glm_perlin_vec4",
    "Cglm.C57_Sse2_glm_perlin_vec3",
    "Cglm.C57_Sse2_glm_perlin_vec2",
    "Cglm.C57_Sse2_glm_unprojecti_zo",
    "Cglm.C57_Sse2_glm_project_zo",
    "Cglm.C57_Sse2_glm_unprojecti_no",
    "Cglm.C57_Sse2_glm_project_no",
    "Cglm.C57_Sse2_glm_unprojecti",
    "Cglm.C57_Sse2_glm_unproject",
    "Cglm.C57_Sse2_glm_project",
    "Cglm.C57_Sse2_glm_pickmatrix",
    "Cglm.C57_Sse2_glm_sphere_transform",
    "Cglm.C57_Sse2_glm_smc",
    "Cglm.C57_Sse2_glm_quat_from_vecs",
    "Cglm.C57_Sse2_glm_vec4_normalize_to",
    "Cglm.C57_Sse2_glm_vec4_normalize",
    "Cglm.C57_Sse2_glm_vec4_normalize_to_partial",
    "Cglm.C57_Sse2_glm_vec4_normalize_to_refuted",
    "Cglm.C57_Sse2_glm_vec3_rotate_m4_partial",
    "Cglm.C57_Sse2_glm_vec3_rotate_m3_partial",
    "Cglm.C57_Sse2_glm_inv_tr_partial",
    "Cglm.C57_Sse2_glm_inv_tr_refuted",
    "Cglm.C57_Sse2_glm_vec4_sign",
    "Cglm.C57_Sse2_glm_mat4_inv_fast",
    "Cglm.C57_Sse2_glm_mat4_inv_fast_bound",
    "Cglm.C57_Sse3_glmm_abs",
    "Cglm.C57_Sse3_glmm_min",
    "Cglm.C57_Sse3_glmm_max",
    "Cglm.C57_Sse3_glmm_vhadd",
    "Cglm.C57_Sse3_glmm_vhadds",
    "Cglm.C57_Sse3_glmm_hadd",
    "Cglm.C57_Sse3_glmm_vhmin",
    "Cglm.C57_Sse3_glmm_hmin",
    "Cglm.C57_Sse3_glmm_vhmax",
    "Cglm.C57_Sse3_glmm_hmax",
    "Cglm.C57_Sse3_glmm_vdots",
    "Cglm.C57_Sse3_glmm_vdot",
    "Cglm.C57_Sse3_glmm_dot",
    "Cglm.C57_Sse3_glmm_norm",
    "Cglm.C57_Sse3_glmm_norm2",
    "Cglm.C57_Sse3_glmm_norm_one",
    "Cglm.C57_Sse3_glmm_norm_inf",
    "Cglm.C57_Sse3_glmm_load3",
    "Cglm.C57_Sse3_glmm_store3",
    "Cglm.C57_Sse3_glmm_div",
    "Cglm.C57_Sse3_glmm_fmadd",
    "Cglm.C57_Sse3_glmm_fnmadd",
    "Cglm.C57_Sse3_glmm_fmsub",
    "Cglm.C57_Sse3_glmm_fnmsub",
    "Cglm.C57_Sse3_glm_vec4_broadcast",
    "Cglm.C57_Sse3_glm_vec4_fill",
    "Cglm.C57_Sse3_glm_vec4_abs",
    "Cglm.C57_Sse3_glm_vec4_hadd",
    "Cglm.C57_Sse3_glm_vec4_sqrt",
    "Cglm.C57_Sse3_glm_vec4_zero",
    "Cglm.C57_Sse3_glm_vec4_one",
    "Cglm.C57_Sse3_glm_vec4_dot",
    "Cglm.C57_Sse3_glm_vec4_norm2",
    "Cglm.C57_Sse3_glm_vec4_norm",
    "Cglm.C57_Sse3_glm_vec4_norm_one",
    "Cglm.C57_Sse3_glm_vec4_norm_inf",
    "Cglm.C57_Sse3_glm_vec4_add",
    "Cglm.C57_Sse3_glm_vec4_adds",
    "Cglm.C57_Sse3_glm_vec4_sub",
    "Cglm.C57_Sse3_glm_vec4_subs",
    "Cglm.C57_Sse3_glm_vec4_mul",
    "Cglm.C57_Sse3_glm_vec4_scale",
    "Cglm.C57_Sse3_glm_vec4_scale_as",
    "Cglm.C57_Sse3_glm_vec4_div",
    "Cglm.C57_Sse3_glm_vec4_divs",
    "Cglm.C57_Sse3_glm_vec4_addadd",
    "Cglm.C57_Sse3_glm_vec4_subadd",
    "Cglm.C57_Sse3_glm_vec4_muladd",
    "Cglm.C57_Sse3_glm_vec4_muladds",
    "Cglm.C57_Sse3_glm_vec4_maxadd",
    "Cglm.C57_Sse3_glm_vec4_minadd",
    "Cglm.C57_Sse3_glm_vec4_subsub",
    "Cglm.C57_Sse3_glm_vec4_addsub",
    "Cglm.C57_Sse3_glm_vec4_mulsub",
    "Cglm.C57_Sse3_glm_vec4_mulsubs",
    "Cglm.C57_Sse3_glm_vec4_maxsub",
    "Cglm.C57_Sse3_glm_vec4_minsub",
    "Cglm.C57_Sse3_glm_vec4_negate_to",
    "Cglm.C57_Sse3_glm_vec4_negate",
    "Cglm.C57_Sse3_glm_vec4_distance",
    "Cglm.C57_Sse3_glm_vec4_distance2",
    "Cglm.C57_Sse3_glm_vec4_maxv",
    "Cglm.C57_Sse3_glm_vec4_minv",
    "Cglm.C57_Sse3_glm_vec4_clamp",
    "Cglm.C57_Sse3_glm_vec4_lerp",
    "Cglm.C57_Sse3_glm_vec4_lerpc",
    "Cglm.C57_Sse3_glm_vec4_mix",
    "Cglm.C57_Sse3_glm_vec4_mixc",
    "Cglm.C57_Sse3_glm_vec4_smoothinterp",
    "Cglm.C57_Sse3_glm_vec4_smoothinterpc",
    "Cglm.C57_Sse3_glm_vec4_reflect",
    "Cglm.C57_Sse3_glm_vec4_refract",
    "Cglm.C57_Sse3_glm_mat4_scale_sse2",
    "Cglm.C57_Sse3_glm_mat4_transp_sse2",
    "Cglm.C57_Sse3_glm_mat4_mul_sse2",
    "Cglm.C57_Sse3_glm_mat4_mulv_sse2",
    "Cglm.C57_Sse3_glm_mat4_det_sse2",
    "Cglm.C57_Sse3_glm_mat4_inv_sse2",
    "Cglm.C57_Sse3_glm_mat4_copy",
    "Cglm.C57_Sse3_glm_mat4_identity",
    "Cglm.C57_Sse3_glm_mat4_zero",
    "Cglm.C57_Sse3_glm_mat4_mul",
    "Cglm.C57_Sse3_glm_mat4_mulv",
    "Cglm.C57_Sse3_glm_mat4_mulv3",
    "Cglm.C57_Sse3_glm_mat4_transpose_to",
    "Cglm.C57_Sse3_glm_mat4_transpose",
    "Cglm.C57_Sse3_glm_mat4_scale",
    "Cglm.C57_Sse3_glm_mat4_det",
    "Cglm.C57_Sse3_glm_mat4_inv",
    "Cglm.C57_Sse3_glm_mat4_rmc",
    "Cglm.C57_Sse3_glm_mat4_textrans",
    "Cglm.C57_Sse3_glm_mat3_mul_sse2",
    "Cglm.C57_Sse3_glm_mat3_mul",
    "Cglm.C57_Sse3_glm_mat2_mul_sse2",
    "Cglm.C57_Sse3_glm_mat2_transp_sse2",
    "Cglm.C57_Sse3_glm_mat2_mul",
    "Cglm.C57_Sse3_glm_mat2_transpose_to",
    "Cglm.C57_Sse3_glm_mat2_scale",
    "Cglm.C57_Sse3_glm_mul_sse2",
    "Cglm.C57_Sse3_glm_mul_rot_sse2",
    "Cglm.C57_Sse3_glm_mul",
    "Cglm.C57_Sse3_glm_mul_rot",
    "Cglm.C57_Sse3_glm_translate_make",
    "Cglm.C57_Sse3_glm_scale_to",
    "Cglm.C57_Sse3_glm_scale_make",
    "Cglm.C57_Sse3_glm_scale",
    "Cglm.C57_Sse3_glm_scale_uni",
    "Cglm.C57_Sse3_glm_decompose_rs",
    "Cglm.C57_Sse3_glm_decompose",
    "Cglm.C57_Sse3_glm_translate",
    "Cglm.C57_Sse3_glm_translate_to",
    "Cglm.C57_Sse3_glm_translate_x",
    "Cglm.C57_Sse3_glm_translate_y",
    "Cglm.C57_Sse3_glm_translate_z",
    "Cglm.C57_Sse3_glm_rotate_x",
    "Cglm.C57_Sse3_glm_rotate_y",
    "Cglm.C57_Sse3_glm_rotate_z",
    "Cglm.C57_Sse3_glm_rotate",
    "Cglm.C57_Sse3_glm_rotate_at",
    "Cglm.C57_Sse3_glm_rotate_atm",
    "Cglm.C57_Sse3_glm_spin",
    "Cglm.C57_Sse3_glm_translated_to",
    "Cglm.C57_Sse3_glm_rotated_x",
    "Cglm.C57_Sse3_glm_rotated_y",
    "Cglm.C57_Sse3_glm_rotated_z",
    "Cglm.C57_Sse3_glm_rotated",
    "Cglm.C57_Sse3_glm_rotated_at",
    "Cglm.C57_Sse3_glm_spinned",
    "Cglm.C57_Sse3_glm_plane_normalize",
    "Cglm.C57_Sse3_glm_ortho_lh_zo",
    "Cglm.C57_Sse3_glm_ortho_aabb_lh_zo",
    "Cglm.C57_Sse3_glm_ortho_aabb_p_lh_zo",
    "Cglm.C57_Sse3_glm_ortho_aabb_pz_lh_zo",
    "Cglm.C57_Sse3_glm_ortho_default_lh_zo",
    "Cglm.C57_Sse3_glm_ortho_default_s_lh_zo",
    "Cglm.C57_Sse3_glm_frustum_lh_zo",
    "Cglm.C57_Sse3_glm_perspective_lh_zo",
    "Cglm.C57_Sse3_glm_perspective_default_lh_zo",
    "Cglm.C57_Sse3_glm_ortho_lh_no",
    "Cglm.C57_Sse3_glm_ortho_aabb_lh_no",
    "Cglm.C57_Sse3_glm_ortho_aabb_p_lh_no",
    "Cglm.C57_Sse3_glm_ortho_aabb_pz_lh_no",
    "Cglm.C57_Sse3_glm_ortho_default_lh_no",
    "Cglm.C57_Sse3_glm_ortho_default_s_lh_no",
    "Cglm.C57_Sse3_glm_frustum_lh_no",
    "Cglm.C57_Sse3_glm_perspective_lh_no",
    "Cglm.C57_Sse3_glm_perspective_default_lh_no",
    "Cglm.C57_Sse3_glm_ortho_rh_zo",
    "Cglm.C57_Sse3_glm_ortho_aabb_rh_zo",
    "Cglm.C57_Sse3_glm_ortho_aabb_p_rh_zo",
    "Cglm.C57_Sse3_glm_ortho_aabb_pz_rh_zo",
    "Cglm.C57_Sse3_glm_ortho_default_rh_zo",
    "Cglm.C57_Sse3_glm_ortho_default_s_rh_zo",
    "Cglm.C57_Sse3_glm_frustum_rh_zo",
    "Cglm.C57_Sse3_glm_perspective_rh_zo",
    "Cglm.C57_Sse3_glm_perspective_default_rh_zo",
    "Cglm.C57_Sse3_glm_ortho_rh_no",
    "Cglm.C57_Sse3_glm_ortho_aabb_rh_no",
    "Cglm.C57_Sse3_glm_ortho_aabb_p_rh_no",
    "Cglm.C57_Sse3_glm_ortho_aabb_pz_rh_no",
    "Cglm.C57_Sse3_glm_ortho_default_rh_no",
    "Cglm.C57_Sse3_glm_ortho_default_s_rh_no",
    "Cglm.C57_Sse3_glm_frustum_rh_no",
    "Cglm.C57_Sse3_glm_perspective_rh_no",
    "Cglm.C57_Sse3_glm_perspective_default_rh_no",
    "Cglm.C57_Sse3_glm_frustum",
    "Cglm.C57_Sse3_glm_ortho",
    "Cglm.C57_Sse3_glm_ortho_aabb",
    "Cglm.C57_Sse3_glm_ortho_aabb_p",
    "Cglm.C57_Sse3_glm_ortho_aabb_pz",
    "Cglm.C57_Sse3_glm_ortho_default",
    "Cglm.C57_Sse3_glm_ortho_default_s",
    "Cglm.C57_Sse3_glm_perspective",
    "Cglm.C57_Sse3_glm_perspective_default",
    "Cglm.C57_Sse3_glm_frustum_planes",
    "Cglm.C57_Sse3_glm_frustum_corners",
    "Cglm.C57_Sse3_glm_frustum_center",
    "Cglm.C57_Sse3_glm_frustum_box",
    "Cglm.C57_Sse3_glm_frustum_corners_at",
    "Cglm.C57_Sse3_glm_quat_mul_sse2",
    "Cglm.C57_Sse3_glm_quat_norm",
    "Cglm.C57_Sse3_glm_quat_normalize_to",
    "Cglm.C57_Sse3_glm_quat_normalize",
    "Cglm.C57_Sse3_glm_quat_dot",
    "Cglm.C57_Sse3_glm_quat_conjugate",
    "Cglm.C57_Sse3_glm_quat_inv",
    "Cglm.C57_Sse3_glm_quat_add",
    "Cglm.C57_Sse3_glm_quat_sub",
    "Cglm.C57_Sse3_glm_quat_mul",
    "Cglm.C57_Sse3_glm_quat_mat4",
    "Cglm.C57_Sse3_glm_quat_mat4t",
    "Cglm.C57_Sse3_glm_quat_mat3",
    "Cglm.C57_Sse3_glm_quat_mat3t",
    "Cglm.C57_Sse3_glm_quat_lerp",
    "Cglm.C57_Sse3_glm_quat_lerpc",
    "Cglm.C57_Sse3_glm_quat_nlerp",
    "Cglm.C57_Sse3_glm_quat_slerp",
    "Cglm.C57_Sse3_glm_quat_slerp_longest",
    "Cglm.C57_Sse3_glm_quat_look",
    "Cglm.C57_Sse3_glm_quat_rotatev",
    "Cglm.C57_Sse3_glm_quat_rotate",
    "Cglm.C57_Sse3_glm_quat_rotate_at",
    "Cglm.C57_Sse3_glm_quat_rotate_atm",
    "Cglm.C57_Sse3_glm_perlin_vec4",
    "Cglm.C57_Sse3_glm_perlin_vec3",
    "Cglm.C57_Sse3_glm_perlin_vec2",
    "Cglm.C57_Sse3_glm_unprojecti_zo",
    "Cglm.C57_Sse3_glm_project_zo",
    "Cglm.C57_Sse3_glm_unprojecti_no",
    "Cglm.C57_Sse3_glm_project_no",
    "Cglm.C57_Sse3_glm_unprojecti",
    "Cglm.C57_Sse3_glm_unproject",
    "Cglm.C57_Sse3_glm_project",
    "Cglm.C57_Sse3_glm_pickmatrix",
    "Cglm.C57_Sse3_glm_sphere_transform",
    "Cglm.C57_Sse3_glm_smc",
    "Cglm.C57_Sse3_glm_quat_from_vecs",
    "Cglm.C57_Sse3_glm_vec4_normalize_to",
    "Cglm.C57_Sse3_glm_vec4_normalize",
    "Cglm.C57_Sse3_glm_vec4_normalize_to_partial",
    "Cglm.C57_Sse3_glm_vec4_normalize_to_refuted",
    "Cglm.C57_Sse3_glm_vec3_rotate_m4_partial",
    "Cglm.C57_Sse3_glm_vec3_rotate_m3_partial",
    "Cglm.C57_Sse3_glm_inv_tr_partial",
    "Cglm.C57_Sse3_glm_inv_tr_refuted",
    "Cglm.C57_Sse3_glm_vec4_sign",
    "Cglm.C57_Sse3_glm_mat4_inv_fast",
    "Cglm.C57_Sse3_glm_mat4_inv_fast_bound",
    "Cglm.C57_Sse4_glmm_abs",
    "Cglm.C57_Sse4_glmm_min",
    "Cglm.C57_Sse4_glmm_max",
    "Cglm.C57_Sse4_glmm_vhadd",
    "Cglm.C57_Sse4_glmm_vhadds",
    "Cglm.C57_Sse4_glmm_hadd",
    "Cglm.C57_Sse4_glmm_vhmin",
    "Cglm.C57_Sse4_glmm_hmin",
    "Cglm.C57_Sse4_glmm_vhmax",
    "Cglm.C57_Sse4_glmm_hmax",
    "Cglm.C57_Sse4_glmm_vdots",
    "Cglm.C57_Sse4_glmm_vdot",
    "Cglm.C57_Sse4_glmm_dot",
    "Cglm.C57_Sse4_glmm_norm",
    "Cglm.C57_Sse4_glmm_norm2",
    "Cglm.C57_Sse4_glmm_norm_one",
    "Cglm.C57_Sse4_glmm_norm_inf",
    "Cglm.C57_Sse4_glmm_load3",
    "Cglm.C57_Sse4_glmm_store3",
    "Cglm.C57_Sse4_glmm_div",
    "Cglm.C57_Sse4_glmm_fmadd",
    "Cglm.C57_Sse4_glmm_fnmadd",
    "Cglm.C57_Sse4_glmm_fmsub",
    "Cglm.C57_Sse4_glmm_fnmsub",
    "Cglm.C57_Sse4_glm_vec4_broadcast",
    "Cglm.C57_Sse4_glm_vec4_fill",
    "Cglm.C57_Sse4_glm_vec4_abs",
    "Cglm.C57_Sse4_glm_vec4_hadd",
    "Cglm.C57_Sse4_glm_vec4_sqrt",
    "Cglm.C57_Sse4_glm_vec4_zero",
    "Cglm.C57_Sse4_glm_vec4_one",
    "Cglm.C57_Sse4_glm_vec4_dot",
    "Cglm.C57_Sse4_glm_vec4_norm2",
    "Cglm.C57_Sse4_glm_vec4_norm",
    "Cglm.C57_Sse4_glm_vec4_norm_one",
    "Cglm.C57_Sse4_glm_vec4_norm_inf",
    "Cglm.C57_Sse4_glm_vec4_add",
    "Cglm.C57_Sse4_glm_vec4_adds",
    "Cglm.C57_Sse4_glm_vec4_sub",
    "Cglm.C57_Sse4_glm_vec4_subs",
    "Cglm.C57_Sse4_glm_vec4_mul",
    "Cglm.C57_Sse4_glm_vec4_scale",
    "Cglm.C57_Sse4_glm_vec4_scale_as",
    "Cglm.C57_Sse4_glm_vec4_div",
    "Cglm.C57_Sse4_glm_vec4_divs",
    "Cglm.C57_Sse4_glm_vec4_addadd",
    "Cglm.C57_Sse4_glm_vec4_subadd",
    "Cglm.C57_Sse4_glm_vec4_muladd",
    "Cglm.C57_Sse4_glm_vec4_muladds",
    "Cglm.C57_Sse4_glm_vec4_maxadd",
    "Cglm.C57_Sse4_glm_vec4_minadd",
    "Cglm.C57_Sse4_glm_vec4_subsub",
    "Cglm.C57_Sse4_glm_vec4_addsub",
    "Cglm.C57_Sse4_glm_vec4_mulsub",
    "Cglm.C57_Sse4_glm_vec4_mulsubs",
    "Cglm.C57_Sse4_glm_vec4_maxsub",
    "Cglm.C57_Sse4_glm_vec4_minsub",
    "Cglm.C57_Sse4_glm_vec4_negate_to",
    "Cglm.C57_Sse4_glm_vec4_negate",
    "Cglm.C57_Sse4_glm_vec4_distance",
    "Cglm.C57_Sse4_glm_vec4_distance2",
    "Cglm.C57_Sse4_glm_vec4_maxv",
    "Cglm.C57_Sse4_glm_vec4_minv",
    "Cglm.C57_Sse4_glm_vec4_clamp",
    "Cglm.C57_Sse4_glm_vec4_lerp",
    "Cglm.C57_Sse4_glm_vec4_lerpc",
    "Cglm.C57_Sse4_glm_vec4_mix",
    "Cglm.C57_Sse4_glm_vec4_mixc",
    "Cglm.C57_Sse4_glm_vec4_smoothinterp",
    "Cglm.C57_Sse4_glm_vec4_smoothinterpc",
    "Cglm.C57_Sse4_glm_vec4_reflect",
    "Cglm.C57_Sse4_glm_vec4_refract",
    "Cglm.C57_Sse4_glm_mat4_scale_sse2",
    "Cglm.C57_Sse4_glm_mat4_transp_sse2",
    "Cglm.C57_Sse4_glm_mat4_mul_sse2",
    "Cglm.C57_Sse4_glm_mat4_mulv_sse2",
    "Cglm.C57_Sse4_glm_mat4_det_sse2",
    "Cglm.C57_Sse4_glm_mat4_inv_sse2",
    "Cglm.C57_Sse4_glm_mat4_copy",
    "Cglm.C57_Sse4_glm_mat4_identity",
    "Cglm.C57_Sse4_glm_mat4_zero",
    "Cglm.C57_Sse4_glm_mat4_mul",
    "Cglm.C57_Sse4_glm_mat4_mulv",
    "Cglm.C57_Sse4_glm_mat4_mulv3",
    "Cglm.C57_Sse4_glm_mat4_transpose_to",
    "Cglm.C57_Sse4_glm_mat4_transpose",
    "Cglm.C57_Sse4_glm_mat4_scale",
    "Cglm.C57_Sse4_glm_mat4_det",
    "Cglm.C57_Sse4_glm_mat4_inv",
    "Cglm.C57_Sse4_glm_mat4_rmc",
    "Cglm.C57_Sse4_glm_mat4_textrans",
    "Cglm.C57_Sse4_glm_mat3_mul_sse2",
    "Cglm.C57_Sse4_glm_mat3_mul",
    "Cglm.C57_Sse4_glm_mat2_mul_sse2",
    "Cglm.C57_Sse4_glm_mat2_transp_sse2",
    "Cglm.C57_Sse4_glm_mat2_mul",
    "Cglm.C57_Sse4_glm_mat2_transpose_to",
    "Cglm.C57_Sse4_glm_mat2_scale",
    "Cglm.C57_Sse4_glm_mul_sse2",
    "Cglm.C57_Sse4_glm_mul_rot_sse2",
    "Cglm.C57_Sse4_glm_mul",
    "Cglm.C57_Sse4_glm_mul_rot",
    "Cglm.C57_Sse4_glm_translate_make",
    "Cglm.C57_Sse4_glm_scale_to",
    "Cglm.C57_Sse4_glm_scale_make",
    "Cglm.C57_Sse4_glm_scale",
    "Cglm.C57_Sse4_glm_scale_uni",
    "Cglm.C57_Sse4_glm_decompose_rs",
    "Cglm.C57_Sse4_glm_decompose",
    "Cglm.C57_Sse4_glm_translate",
    "Cglm.C57_Sse4_glm_translate_to",
    "Cglm.C57_Sse4_glm_translate_x",
    "Cglm.C57_Sse4_glm_translate_y",
    "Cglm.C57_Sse4_glm_translate_z",
    "Cglm.C57_Sse4_glm_rotate_x",
    "Cglm.C57_Sse4_glm_rotate_y",
    "Cglm.C57_Sse4_glm_rotate_z",
    "Cglm.C57_Sse4_glm_rotate",
    "Cglm.C57_Sse4_glm_rotate_at",
    "Cglm.C57_Sse4_glm_rotate_atm",
    "Cglm.C57_Sse4_glm_spin",
    "Cglm.C57_Sse4_glm_translated_to",
    "Cglm.C57_Sse4_glm_rotated_x",
    "Cglm.C57_Sse4_glm_rotated_y",
    "Cglm.C57_Sse4_glm_rotated_z",
    "Cglm.C57_Sse4_glm_rotated",
    "Cglm.C57_Sse4_glm_rotated_at",
    "Cglm.C57_Sse4_glm_spinned",
    "Cglm.C57_Sse4_glm_plane_normalize",
    "Cglm.C57_Sse4_glm_ortho_lh_zo",
    "Cglm.C57_Sse4_glm_ortho_aabb_lh_zo",
    "Cglm.C57_Sse4_glm_ortho_aabb_p_lh_zo",
    "Cglm.C57_Sse4_glm_ortho_aabb_pz_lh_zo",
    "Cglm.C57_Sse4_glm_ortho_default_lh_zo",
    "Cglm.C57_Sse4_glm_ortho_default_s_lh_zo",
    "Cglm.C57_Sse4_glm_frustum_lh_zo",
    "Cglm.C57_Sse4_glm_perspective_lh_zo",
    "Cglm.C57_Sse4_glm_perspective_default_lh_zo",
    "Cglm.C57_Sse4_glm_ortho_lh_no",
    "Cglm.C57_Sse4_glm_ortho_aabb_lh_no",
    "Cglm.C57_Sse4_glm_ortho_aabb_p_lh_no",
    "Cglm.C57_Sse4_glm_ortho_aabb_pz_lh_no",
    "Cglm.C57_Sse4_glm_ortho_default_lh_no",
    "Cglm.C57_Sse4_glm_ortho_default_s_lh_no",
    "Cglm.C57_Sse4_glm_frustum_lh_no",
    "Cglm.C57_Sse4_glm_perspective_lh_no",
    "Cglm.C57_Sse4_glm_perspective_default_lh_no",
    "Cglm.C57_Sse4_glm_ortho_rh_zo",
    "Cglm.C57_Sse4_glm_ortho_aabb_rh_zo",
    "Cglm.C57_Sse4_glm_ortho_aabb_p_rh_zo",
    "Cglm.C57_Sse4_glm_ortho_aabb_pz_rh_zo",
    "Cglm.C57_Sse4_glm_ortho_default_rh_zo",
    "Cglm.C57_Sse4_glm_ortho_default_s_rh_zo",
    "Cglm.C57_Sse4_glm_frustum_rh_zo",
    "Cglm.C57_Sse4_glm_perspective_rh_zo",
    "Cglm.C57_Sse4_glm_perspective_default_rh_zo",
    "Cglm.C57_Sse4_glm_ortho_rh_no",
    "Cglm.C57_Sse4_glm_ortho_aabb_rh_no",
    "Cglm.C57_Sse4_glm_ortho_aabb_p_rh_no",
    "Cglm.C57_Sse4_glm_ortho_aabb_pz_rh_no",
    "Cglm.C57_Sse4_glm_ortho_default_rh_no",
    "Cglm.C57_Sse4_glm_ortho_default_s_rh_no",
    "Cglm.C57_Sse4_glm_frustum_rh_no",
    "Cglm.C57_Sse4_glm_perspective_rh_no",
    "Cglm.C57_Sse4_glm_perspective_default_rh_no",
    "Cglm.C57_Sse4_glm_frustum",
    "Cglm.C57_Sse4_glm_ortho",
    "Cglm.C57_Sse4_glm_ortho_aabb",
    "Cglm.C57_Sse4_glm_ortho_aabb_p",
    "Cglm.C57_Sse4_glm_ortho_aabb_pz",
    "Cglm.C57_Sse4_glm_ortho_default",
    "Cglm.C57_Sse4_glm_ortho_default_s",
    "Cglm.C57_Sse4_glm_perspective",
    "Cglm.C57_Sse4_glm_perspective_default",
    "Cglm.C57_Sse4_glm_frustum_planes",
    "Cglm.C57_Sse4_glm_frustum_corners",
    "Cglm.C57_Sse4_glm_frustum_center",
    "Cglm.C57_Sse4_glm_frustum_box",
    "Cglm.C57_Sse4_glm_frustum_corners_at",
    "Cglm.C57_Sse4_glm_quat_mul_sse2",
    "Cglm.C57_Sse4_glm_quat_norm",
    "Cglm.C57_Sse4_glm_quat_normalize_to",
    "Cglm.C57_Sse4_glm_quat_normalize",
    "Cglm.C57_Sse4_glm_quat_dot",
    "Cglm.C57_Sse4_glm_quat_conjugate",
    "Cglm.C57_Sse4_glm_quat_inv",
    "Cglm.C57_Sse4_glm_quat_add",
    "Cglm.C57_Sse4_glm_quat_sub",
    "Cglm.C57_Sse4_glm_quat_mul",
    "Cglm.C57_Sse4_glm_quat_mat4",
    "Cglm.C57_Sse4_glm_quat_mat4t",
    "Cglm.C57_Sse4_glm_quat_mat3",
    "Cglm.C57_Sse4_glm_quat_mat3t",
    "Cglm.C57_Sse4_glm_quat_lerp",
    "Cglm.C57_Sse4_glm_quat_lerpc",
    "Cglm.C57_Sse4_glm_quat_nlerp",
    "Cglm.C57_Sse4_glm_quat_slerp",
    "Cglm.C57_Sse4_glm_quat_slerp_longest",
    "Cglm.C57_Sse4_glm_quat_look",
    "Cglm.C57_Sse4_glm_quat_rotatev",
    "Cglm.C57_Sse4_glm_quat_rotate",
    "Cglm.C57_Sse4_glm_quat_rotate_at",
    "Cglm.C57_Sse4_glm_quat_rotate_atm",
    "Cglm.C57_Sse4_glm_perlin_vec4",
    "Cglm.C57_Sse4_glm_perlin_vec3",
    "Cglm.C57_Sse4_glm_perlin_vec2",
    "Cglm.C57_Sse4_glm_unprojecti_zo",
    "Cglm.C57_Sse4_glm_project_zo",
    "Cglm.C57_Sse4_glm_unprojecti_no",
    "Cglm.C57_Sse4_glm_project_no",
    "Cglm.C57_Sse4_glm_unprojecti",
    "Cglm.C57_Sse4_glm_unproject",
    "Cglm.C57_Sse4_glm_project",
    "Cglm.C57_Sse4_glm_pickmatrix",
    "Cglm.C57_Sse4_glm_sphere_transform",
    "Cglm.C57_Sse4_glm_smc",
    "Cglm.C57_Sse4_glm_quat_from_vecs",
    "Cglm.C57_Sse4_glm_vec4_normalize_to",
    "Cglm.C57_Sse4_glm_vec4_normalize",
    "Cglm.C57_Sse4_glm_vec4_normalize_to_partial",
    "Cglm.C57_Sse4_glm_vec4_normalize_to_refuted",
    "Cglm.C57_Sse4_glm_vec3_rotate_m4_partial",
    "Cglm.C57_Sse4_glm_vec3_rotate_m3_partial",
    "Cglm.C57_Sse4_glm_inv_tr_partial",
    "Cglm.C57_Sse4_glm_inv_tr_refuted",
    "Cglm.C57_Sse4_glm_vec4_sign",
    "Cglm.C57_Sse4_glm_mat4_inv_fast",
    "Cglm.C57_Sse4_glm_mat4_inv_fast_bound",
    "Cglm.C57_Sse_glm_vec4_normalize_to",
    "Cglm.C57_Sse_glm_vec4_normalize",
    "Cglm.C57_Sse_glm_vec4_normalize_to_partial",
    "Cglm.C57_Sse_glm_vec4_normalize_to_refuted",
    "Cglm.C57_Sse_glm_vec3_rotate_m4_partial",
    "Cglm.C57_Sse_glm_vec3_rotate_m3_partial",
    "Cglm.C57_Sse_glm_inv_tr_partial",
    "Cglm.C57_Sse_glm_inv_tr_refuted",
    "Cglm.C57_Sse_glm_vec4_sign",
    "Cglm.C57_Sse_glm_mat4_inv_fast",
    "Cglm.C57_Sse_glm_mat4_inv_fast_bound"
   ],
   "note": "Sse, Sse2, Sse3 and Sse4 configurations: every function whose code depends on the configuration equals the scalar one; theorem statements say whether for every scalar type, for every commutative arithmetic, or over the reals. Exceptions, each with the exact result and a refuting witness: vec4_normalize_to (zero threshold on the norm vs its square) and the functions calling it, inv_tr on non-affine matrices. mat4_inv_fast is the inverse times d*rcp(d), with the documented estimate bound."
  },
  {
   "property": "C58",
   "status": "partial",
   "theorems": [
    "Cglm.C58_Avx_glmm_abs",
    "Cglm.C58_Avx_glmm_min",
    "Cglm.C58_Avx_glmm_max",
    "Cglm.C58_Avx_glmm_vhadd",
    "Cglm.C58_Avx_glmm_vhadds",
    "Cglm.C58_Avx_glmm_hadd",
    "Cglm.C58_Avx_glmm_vhmin",
    "Cglm.C58_Avx_glmm_hmin",
    "Cglm.C58_Avx_glmm_vhmax",
    "Cglm.C58_Avx_glmm_hmax",
    "Cglm.C58_Avx_glmm_vdots",
    "Cglm.C58_Avx_glmm_vdot",
    "Cglm.C58_Avx_glmm_dot",
    "Cglm.C58_Avx_glmm_norm",
    "Cglm.C58_Avx_glmm_norm2",
    "Cglm.C58_Avx_glmm_norm_one",
    "Cglm.C58_Avx_glmm_norm_inf",
    "Cglm.C58_Avx_glmm_load3",
    "Cglm.C58_Avx_glmm_store3",
    "Cglm.C58_Avx_glmm_div",
    "Cglm.C58_Avx_glmm_fmadd",
    "Cglm.C58_Avx_glmm_fnmadd",
    "Cglm.C58_Avx_glmm_fmsub",
    "Cglm.C58_Avx_glmm_fnmsub",
    "Cglm.C58_Avx_glmm256_fmadd",
    "Cglm.C58_Avx_glmm256_fnmadd",
    "Cglm.C58_Avx_glmm256_fmsub",
    "Cglm.C58_Avx_glm_vec4_broadcast",
    "Cglm.C58_Avx_glm_vec4_fill",
    "Cglm.C58_Avx_glm_vec4_abs",
    "Cglm.C58_Avx_glm_vec4_hadd",
    "Cglm.C58_Avx_glm_vec4_sqrt",
    "Cglm.C58_Avx_glm_vec4_zero",
    "Cglm.C58_Avx_glm_vec4_one",
    "Cglm.C58_Avx_glm_vec4_dot",
    "Cglm.C58_Avx_glm_vec4_norm2",
    "Cglm.C58_Avx_glm_vec4_norm",
    "Cglm.C58_Avx_glm_vec4_norm_one",
    "Cglm.C58_Avx_glm_vec4_norm_inf",
    "Cglm.C58_Avx_glm_vec4_add",
    "Cglm.C58_Avx_glm_vec4_adds",
    "Cglm.C58_Avx_glm_vec4_sub",
    "Cglm.C58_Avx_glm_vec4_subs",
    "Cglm.C58_Avx_glm_vec4_mul",
    "Cglm.C58_Avx_glm_vec4_scale",
    "Cglm.C58_Avx_glm_vec4_scale_as",
    "Cglm.C58_Avx_glm_vec4_div",
    "Cglm.C58_Avx_glm_vec4_divs",
    "Cglm.C58_Avx_glm_vec4_addadd",
    "Cglm.C58_Avx_glm_vec4_subadd",
    "Cglm.C58_Avx_glm_vec4_muladd",
    "Cglm.C58_Avx_glm_vec4_muladds",
    "Cglm.C58_Avx_glm_vec4_maxadd",
    "Cglm.C58_Avx_glm_vec4_minadd",
    "Cglm.C58_Avx_glm_vec4_subsub",
    "Cglm.C58_Avx_glm_vec4_addsub",
    "Cglm.C58_Avx_glm_vec4_mulsub",
    "Cglm.C58_Avx_glm_vec4_mulsubs",
    "Cglm.C58_Avx_glm_vec4_maxsub",
    "Cglm.C58_Avx_glm_vec4_minsub",
    "Cglm.C58_Avx_glm_vec4_negate_to",
    "Cglm.C58_Avx_glm_vec4_negate",
    "Cglm.C58_Avx_glm_vec4_distance",
    "Cglm.C58_Avx_glm_vec4_distance2",
    "Cglm.C58_Avx_glm_vec4_maxv",
    "Cglm.C58_Avx_glm_vec4_minv",
    "Cglm.C58_Avx_glm_vec4_clamp",
    "Cglm.C58_Avx_glm_vec4_lerp",
    "Cglm.C58_Avx_glm_vec4_lerpc",
    "Cglm.C58_Avx_glm_vec4_mix",
    "Cglm.C58_Avx_glm_vec4_mixc",
    "Cglm.C58_Avx_glm_vec4_smoothinterp",
    "Cglm.C58_Avx_glm_vec4_smoothinterpc",
    "Cglm.C58_Avx_glm_vec4_reflect",
    "Cglm.C58_Avx_glm_vec4_refract",
    "Cglm.C58_Avx_glm_mat4_scale_sse2",
    "Cglm.C58_Avx_glm_mat4_transp_sse2",
    "Cglm.C58_Avx_glm_mat4_mul_sse2",
    "Cglm.C58_Avx_glm_mat4_mulv_sse2",
    "Cglm.C58_Avx_glm_mat4_det_sse2",
    "Cglm.C58_Avx_glm_mat4_inv_sse2",
    "Cglm.C58_Avx_glm_mat4_scale_avx",
    "Cglm.C58_Avx_glm_mat4_transp_avx",
    "Cglm.C58_Avx_glm_mat4_mul_avx",
    "Cglm.C58_Avx_glm_mat4_copy",
    "Cglm.C58_Avx_glm_mat4_identity",
    "Cglm.C58_Avx_glm_mat4_zero",
    "Cglm.C58_Avx_glm_mat4_mul",
    "Cglm.C58_Avx_glm_mat4_mulv",
    "Cglm.C58_Avx_glm_mat4_mulv3",
    "Cglm.C58_Avx_glm_mat4_transpose_to",
    "Cglm.C58_Avx_glm_mat4_transpose",
    "Cglm.C58_Avx_glm_mat4_scale",
    "Cglm.C58_Avx_glm_mat4_det",
    "Cglm.C58_Avx_glm_mat4_inv",
    "Cglm.C58_Avx_glm_mat4_rmc",
    "Cglm.C58_Avx_glm_mat4_textrans",
    "Cglm.C58_Avx_glm_mat3_mul_sse2",
    "Cglm.C58_Avx_glm_mat3_mul",
    "Cglm.C58_Avx_glm_mat2_mul_sse2",
    "Cglm.C58_Avx_glm_mat2_transp_sse2",
    "Cglm.C58_Avx_glm_mat2_mul",
    "Cglm.C58_Avx_glm_mat2_transpose_to",
    "Cglm.C58_Avx_glm_mat2_scale",
    "Cglm.C58_Avx_glm_mul_sse2",
    "Cglm.C58_Avx_glm_mul_rot_sse2",
    "Cglm.C58_Avx_glm_mul_rot",
    "Cglm.C58_Avx_glm_translate_make",
    "Cglm.C58_Avx_glm_scale_to",
    "Cglm.C58_Avx_glm_scale_make",
    "Cglm.C58_Avx_glm_scale",
    "Cglm.C58_Avx_glm_scale_uni",
    "Cglm.C58_Avx_glm_decompose_rs",
    "Cglm.C58_Avx_glm_decompose",
    "Cglm.C58_Avx_glm_translate",
    "Cglm.C58_Avx_glm_translate_to",
    "Cglm.C58_Avx_glm_translate_x",
    "Cglm.C58_Avx_glm_translate_y",
    "Cglm.C58_Avx_glm_translate_z",
    "Cglm.C58_Avx_glm_rotate_x",
    "Cglm.C58_Avx_glm_rotate_y",
    "Cglm.C58_Avx_glm_rotate_z",
    "Cglm.C58_Avx_glm_rotate",
    "Cglm.C58_Avx_glm_rotate_at",
    "Cglm.C58_Avx_glm_rotate_atm",
    "Cglm.C58_Avx_glm_spin",
    "Cglm.C58_Avx_glm_translated_to",
    "Cglm.C58_Avx_glm_rotated_x",
    "Cglm.C58_Avx_glm_rotated_y",
    "Cglm.C58_Avx_glm_rotated_z",
    "Cglm.C58_Avx_glm_rotated",
    "Cglm.C58_Avx_glm_rotated_at",
    "Cglm.C58_Avx_glm_spinned",
    "Cglm.C58_Avx_glm_plane_normalize",
    "Cglm.C58_Avx_glm_ortho_lh_zo",
    "Cglm.C58_Avx_glm_ortho_aabb_lh_zo",
    "Cglm.C58_Avx_glm_ortho_aabb_p_lh_zo",
    "Cglm.C58_Avx_glm_ortho_aabb_pz_lh_zo",
    "Cglm.C58_Avx_glm_ortho_default_lh_zo",
    "Cglm.C58_Avx_glm_ortho_default_s_lh_zo",
    "Cglm.C58_Avx_glm_frustum_lh_zo",
    "Cglm.C58_Avx_glm_perspective_lh_zo",
    "Cglm.C58_Avx_glm_perspective_default_lh_zo",
    "Cglm.C58_Avx_glm_ortho_lh_no",
    "Cglm.C58_Avx_glm_ortho_aabb_lh_no",
    "Cglm.C58_Avx_glm_ortho_aabb_p_lh_no",
    "Cglm.C58_Avx_glm_ortho_aabb_pz_lh_no",
    "Cglm.C58_Avx_glm_ortho_default_lh_no",
    "Cglm.C58_Avx_glm_ortho_default_s_lh_no",
    "Cglm.C58_Avx_glm_frustum_lh_no",
    "Cglm.C58_Avx_glm_perspective_lh_no",
    "Cglm.C58_Avx_glm_perspective_default_lh_no",
    "Cglm.C58_Avx_glm_ortho_rh_zo",
    "Cglm.C58_Avx_glm_ortho_aabb_rh_zo",
    "Cglm.C58_Avx_glm_ortho_aabb_p_rh_zo",
    "Cglm.C58_Avx_glm_ortho_aabb_pz_rh_zo",
    "Cglm.C58_Avx_glm_ortho_default_rh_zo",
    "Cglm.C58_Avx_glm_ortho_default_s_rh_zo",
    "Cglm.C58_Avx_glm_frustum_rh_zo",
    "Cglm.C58_Avx_glm_perspective_rh_zo",
    "Cglm.C58_Avx_glm_perspective_default_rh_zo",
    "Cglm.C58_Avx_glm_ortho_rh_no",
    "Cglm.C58_Avx_glm_ortho_aabb_rh_no",
    "Cglm.C58_Avx_glm_ortho_aabb_p_rh_no",
    "Cglm.C58_Avx_glm_ortho_aabb_pz_rh_no",
    "Cglm.C58_Avx_glm_ortho_default_rh_no",
    "Cglm.C58_Avx_glm_ortho_default_s_rh_no",
    "Cglm.C58_Avx_glm_frustum_rh_no",
    "Cglm.C58_Avx_glm_perspective_rh_no",
    "Cglm.C58_Avx_glm_perspective_default_rh_no",
    "Cglm.C58_Avx_glm_frustum",
    "Cglm.C58_Avx_glm_ortho",
    "Cglm.C58_Avx_glm_ortho_aabb",
    "Cglm.C58_Avx_glm_ortho_aabb_p",
    "Cglm.C58_Avx_glm_ortho_aabb_pz",
    "Cglm.C58_Avx_glm_ortho_default",
    "Cglm.C58_Avx_glm_ortho_default_s",
    "Cglm.C58_Avx_glm_perspective",
    "Cglm.C58_Avx_glm_perspective_default",
    "Cglm.C58_Avx_glm_frustum_planes",
    "Cglm.C58_Avx_glm_frustum_corners",
    "Cglm.C58_Avx_glm_frustum_center",
    "Cglm.C58_Avx_glm_frustum_box",
    "Cglm.C58_Avx_glm_frustum_corners_at",
    "Cglm.C58_Avx_glm_quat_mul_sse2",
    "Cglm.C58_Avx_glm_quat_norm",
    "Cglm.C58_Avx_glm_quat_normalize_to",
    "Cglm.C58_Avx_glm_quat_normalize",
    "Cglm.C58_Avx_glm_quat_dot",
    "Cglm.C58_Avx_glm_quat_conjugate",
    "Cglm.C58_Avx_glm_quat_inv",
    "Cglm.C58_Avx_glm_quat_add",
    "Cglm.C58_Avx_glm_quat_sub",
    "Cglm.C58_Avx_glm_quat_mul",
    "Cglm.C58_Avx_glm_quat_mat4",
    "Cglm.C58_Avx_glm_quat_mat4t",
    "Cglm.C58_Avx_glm_quat_mat3",
    "Cglm.C58_Avx_glm_quat_mat3t",
    "Cglm.C58_Avx_glm_quat_lerp",
    "Cglm.C58_Avx_glm_quat_lerpc",
    "Cglm.C58_Avx_glm_quat_nlerp",
    "Cglm.C58_Avx_glm_quat_slerp",
    "Cglm.C58_Avx_glm_quat_slerp_longest",
    "Cglm.C58_Avx_glm_quat_look",
    "Cglm.C58_Avx_glm_quat_rotatev",
    "Cglm.C58_Avx_glm_quat_rotate",
    "Cglm.C58_Avx_glm_quat_rotate_at",
    "Cglm.C58_Avx_glm_quat_rotate_atm",
    "Cglm.C58_Avx_glm_perlin_vec4",
    "Cglm.C58_Avx_glm_perlin_vec3",
    "Cglm.C58_Avx_glm_perlin_vec2",
    "Cglm.C58_Avx_glm_unprojecti_zo",
    "Cglm.C58_Avx_glm_project_zo",
    "Cglm.C58_Avx_glm_unprojecti_no",
    "Cglm.C58_Avx_glm_project_no",
    "Cglm.C58_Avx_glm_unprojecti",
    "Cglm.C58_Avx_glm_unproject",
    "Cglm.C58_Avx_glm_project",
    "Cglm.C58_Avx_glm_pickmatrix",
    "Cglm.C58_Avx_glm_sphere_transform",
    "Cglm.C58_Avx_glm_smc",
    "Cglm.C58_Avx_glm_quat_from_vecs",
    "Cglm.C58_Avx_glm_vec4_normalize_to",
    "Cglm.C58_Avx_glm_vec4_normalize",
    "Cglm.C58_Avx_glm_vec4_normalize_to_partial",
    "Cglm.C58_Avx_glm_vec4_normalize_to_refuted",
    "Cglm.C58_Avx_glm_vec3_rotate_m4_partial",
    "Cglm.C58_Avx_glm_vec3_rotate_m3_partial",
    "Cglm.C58_Avx_glm_inv_tr_partial",
    "Cglm.C58_Avx_glm_inv_tr_refuted",
    "Cglm.C58_Avx_glm_vec4_sign",
    "Cglm.C58_Avx_glm_mat4_inv_fast",
    "Cglm.C58_Avx_glm_mat4_inv_fast_bound",
    "Cglm.C58_Avx_glm_mul_full",
    "Cglm.C58_Avx_glm_mul_partial",
    "Cglm.C58_Avx_glm_mul_refuted",
    "Cglm.C58_Avx_glmm256_fnmsub_refuted",
    "Cglm.C58_Avx_glmm256_fnmsub_actual",
    "Cglm.C58_Fma_glmm_abs",
    "Cglm.C58_Fma_glmm_min",
    "Cglm.C58_Fma_glmm_max",
    "Cglm.C58_Fma_glmm_vhadd",
    "Cglm.C58_Fma_glmm_vhadds",
    "Cglm.C58_Fma_glmm_hadd",
    "Cglm.C58_Fma_glmm_vhmin",
    "Cglm.C58_Fma_glmm_hmin",
    "Cglm.C58_Fma_glmm_vhmax",
    "Cglm.C58_Fma_glmm_hmax",
    "Cglm.C58_Fma_glmm_vdots",
    "Cglm.C58_Fma_glmm_vdot",
    "Cglm.C58_Fma_glmm_dot",
    "Cglm.C58_Fma_glmm_norm",
    "Cglm.C58_Fma_glmm_norm2",
    "Cglm.C58_Fma_glmm_norm_one",
    "Cglm.C58_Fma_glmm_norm_inf",
    "Cglm.C58_Fma_glmm_load3",
    "Cglm.C58_Fma_glmm_store3",
    "Cglm.C58_Fma_glmm_div",
    "Cglm.C58_Fma_glmm_fmadd",
    "Cglm.C58_Fma_glmm_fnmadd",
    "Cglm.C58_Fma_glmm_fmsub",
    "Cglm.C58_Fma_glmm_fnmsub",
    "Cglm.C58_Fma_glmm256_fmadd",
    "Cglm.C58_Fma_glmm256_fnmadd",
    "Cglm.C58_Fma_glmm256_fmsub",
    "Cglm.C58_Fma_glm_vec4_broadcast",
    "Cglm.C58_Fma_glm_vec4_fill",
    "Cglm.C58_Fma_glm_vec4_abs",
    "Cglm.C58_Fma_glm_vec4_hadd",
    "Cglm.C58_Fma_glm_vec4_sqrt",
    "Cglm.C58_Fma_glm_vec4_zero",
    "Cglm.C58_Fma_glm_vec4_one",
    "Cglm.C58_Fma_glm_vec4_dot",
    "Cglm.C58_Fma_glm_vec4_norm2",
    "Cglm.C58_Fma_glm_vec4_norm",
    "Cglm.C58_Fma_glm_vec4_norm_one",
    "Cglm.C58_Fma_glm_vec4_norm_inf",
    "Cglm.C58_Fma_glm_vec4_add",
    "Cglm.C58_Fma_glm_vec4_adds",
    "Cglm.C58_Fma_glm_vec4_sub",
    "Cglm.C58_Fma_glm_vec4_subs",
    "Cglm.C58_Fma_glm_vec4_mul",
    "Cglm.C58_Fma_glm_vec4_scale",
    "Cglm.C58_Fma_glm_vec4_scale_as",
    "Cglm.C58_Fma_glm_vec4_div",
    "Cglm.C58_Fma_glm_vec4_divs",
    "Cglm.C58_Fma_glm_vec4_addadd",
    "Cglm.C58_Fma_glm_vec4_subadd",
    "Cglm.C58_Fma_glm_vec4_muladd",
    "Cglm.C58_Fma_glm_vec4_muladds",
    "Cglm.C58_Fma_glm_vec4_maxadd",
    "Cglm.C58_Fma_glm_vec4_minadd",
    "Cglm.C58_Fma_glm_vec4_subsub",
    "Cglm.C58_Fma_glm_vec4_addsub",
    "Cglm.C58_Fma_glm_vec4_mulsub",
    "Cglm.C58_Fma_glm_vec4_mulsubs",
    "Cglm.C58_Fma_glm_vec4_maxsub",
    "Cglm.C58_Fma_glm_vec4_minsub",
    "Cglm.C58_Fma_glm_vec4_negate_to",
    "Cglm.C58_Fma_glm_vec4_negate",
    "Cglm.C58_Fma_glm_vec4_distance",
    "Cglm.C58_Fma_glm_vec4_distance2",
    "Cglm.C58_Fma_glm_vec4_maxv",
    "Cglm.C58_Fma_glm_vec4_minv",
    "Cglm.C58_Fma_glm_vec4_clamp",
    "Cglm.C58_Fma_glm_vec4_lerp",
    "Cglm.C58_Fma_glm_vec4_lerpc",
    "Cglm.C58_Fma_glm_vec4_mix",
    "Cglm.C58_Fma_glm_vec4_mixc",
    "Cglm.C58_Fma_glm_vec4_smoothinterp",
    "Cglm.C58_Fma_glm_vec4_smoothinterpc",
    "Cglm.C58_Fma_glm_vec4_reflect",
    "Cglm.C58_Fma_glm_vec4_refract",
    "Cglm.C58_Fma_glm_mat4_scale_sse2",
    "Cglm.C58_Fma_glm_mat4_transp_sse2",
    "Cglm.C58_Fma_glm_mat4_mul_sse2",
    "Cglm.C58_Fma_glm_mat4_mulv_sse2",
    "Cglm.C58_Fma_glm_mat4_det_sse2",
    "Cglm.C58_Fma_glm_mat4_inv_sse2",
    "Cglm.C58_Fma_glm_mat4_scale_avx",
    "Cglm.C58_Fma_glm_mat4_transp_avx",
    "Cglm.C58_Fma_glm_mat4_mul_avx",
    "Cglm.C58_Fma_glm_mat4_copy",
    "Cglm.C58_Fma_glm_mat4_identity",
    "Cglm.C58_Fma_glm_mat4_zero",
    "Cglm.C58_Fma_glm_mat4_mul",
    "Cglm.C58_Fma_glm_mat4_mulv",
    "Cglm.C58_Fma_glm_mat4_mulv3",
    "Cglm.C58_Fma_glm_mat4_transpose_to",
    "Cglm.C58_Fma_glm_mat4_transpose",
    "Cglm.C58_Fma_glm_mat4_scale",
    "Cglm.C58_Fma_glm_mat4_det",
    "Cglm.C58_Fma_glm_mat4_inv",
    "Cglm.C58_Fma_glm_mat4_rmc",
    "Cglm.C58_Fma_glm_mat4_textrans",
    "Cglm.C58_Fma_glm_mat3_mul_sse2",
    "Cglm.C58_Fma_glm_mat3_mul",
    "Cglm.C58_Fma_glm_mat2_mul_sse2",
    "Cglm.C58_Fma_glm_mat2_transp_sse2",
    "Cglm.C58_Fma_glm_mat2_mul",
    "Cglm.C58_Fma_glm_mat2_transpose_to",
    "Cglm.C58_Fma_glm_mat2_scale",
    "Cglm.C58_Fma_glm_mul_sse2",
    "Cglm.C58_Fma_glm_mul_rot_sse2",
    "Cglm.C58_Fma_glm_mul_rot",
    "Cglm.C58_Fma_glm_translate_make",
    "Cglm.C58_Fma_glm_scale_to",
    "Cglm.C58_Fma_glm_scale_make",
    "Cglm.C58_Fma_glm_scale",
    "Cglm.C58_Fma_glm_scale_uni",
    "Cglm.C58_Fma_glm_decompose_rs",
    "Cglm.C58_Fma_glm_decompose",
    "Cglm.C58_Fma_glm_translate",
    "Cglm.C58_Fma_glm_translate_to",
    "Cglm.C58_Fma_glm_translate_x",
    "Cglm.C58_Fma_glm_translate_y",
    "Cglm.C58_Fma_glm_translate_z",
    "Cglm.C58_Fma_glm_rotate_x",
    "Cglm.C58_Fma_glm_rotate_y",
    "Cglm.C58_Fma_glm_rotate_z",
    "Cglm.C58_Fma_glm_rotate",
    "Cglm.C58_Fma_glm_rotate_at",
    "Cglm.C58_Fma_glm_rotate_atm",
    "Cglm.C58_Fma_glm_spin",
    "Cglm.C58_Fma_glm_translated_to",
    "Cglm.C58_Fma_glm_rotated_x",
    "Cglm.C58_Fma_glm_rotated_y",
    "Cglm.C58_Fma_glm_rotated_z",
    "Cglm.C58_Fma_glm_rotated",
    "Cglm.C58_Fma_glm_rotated_at",
    "Cglm.C58_Fma_glm_spinned",
    "Cglm.C58_Fma_glm_plane_normalize",
    "Cglm.C58_Fma_glm_ortho_lh_zo",
    "Cglm.C58_Fma_glm_ortho_aabb_lh_zo",
    "Cglm.C58_Fma_glm_ortho_aabb_p_lh_zo",
    "Cglm.C58_Fma_glm_ortho_aabb_pz_lh_zo",
    "Cglm.C58_Fma_glm_ortho_default_lh_zo",
    "Cglm.C58_Fma_glm_ortho_default_s_lh_zo",
    "Cglm.C58_Fma_glm_frustum_lh_zo",
    "Cglm.C58_Fma_glm_perspective_lh_zo",
    "Cglm.C58_Fma_glm_perspective_default_lh_zo",
    "Cglm.C58_Fma_glm_ortho_lh_no",
    "Cglm.C58_Fma_glm_ortho_aabb_lh_no",
    "Cglm.C58_Fma_glm_ortho_aabb_p_lh_no",
    "Cglm.C58_Fma_glm_ortho_aabb_pz_lh_no",
    "Cglm.C58_Fma_glm_ortho_default_lh_no",
    "Cglm.C58_Fma_glm_ortho_default_s_lh_no",
    "Cglm.C58_Fma_glm_frustum_lh_no",
    "Cglm.C58_Fma_glm_perspective_lh_no",
    "Cglm.C58_Fma_glm_perspective_default_lh_no",
    "Cglm.C58_Fma_glm_ortho_rh_zo",
    "Cglm.C58_Fma_glm_ortho_aabb_rh_zo",
    "Cglm.C58_Fma_glm_ortho_aabb_p_rh_zo",
    "Cglm.C58_Fma_glm_ortho_aabb_pz_rh_zo",
    "Cglm.C58_Fma_glm_ortho_default_rh_zo",
    "Cglm.C58_Fma_glm_ortho_default_s_rh_zo",
    "Cglm.C58_Fma_glm_frustum_rh_zo",
    "Cglm.C58_Fma_glm_perspective_rh_zo",
    "Cglm.C58_Fma_glm_perspective_default_rh_zo",
    "Cglm.C58_Fma_glm_ortho_rh_no",
    "Cglm.C58_Fma_glm_ortho_aabb_rh_no",
    "Cglm.C58_Fma_glm_ortho_aabb_p_rh_no",
    "Cglm.C58_Fma_glm_ortho_aabb_pz_rh_no",
    "Cglm.C58_Fma_glm_ortho_default_rh_no",
    "Cglm.C58_Fma_glm_ortho_default_s_rh_no",
    "Cglm.C58_Fma_glm_frustum_rh_no",
    "Cglm.C58_Fma_glm_perspective_rh_no",
    "Cglm.C58_Fma_glm_perspective_default_rh_no",
    "Cglm.C58_Fma_glm_frustum",
    "Cglm.C58_Fma_glm_ortho",
    "Cglm.C58_Fma_glm_ortho_aabb",
    "Cglm.C58_Fma_glm_ortho_aabb_p",
    "Cglm.C58_Fma_glm_ortho_aabb_pz",
    "Cglm.C58_Fma_glm_ortho_default",
    "Cglm.C58_Fma_glm_ortho_default_s",
    "Cglm.C58_Fma_glm_perspective",
    "Cglm.C58_Fma_glm_perspective_default",
    "Cglm.C58_Fma_glm_frustum_planes",
    "Cglm.C58_Fma_glm_frustum_corners",
    "Cglm.C58_Fma_glm_frustum_center",
    "Cglm.C58_Fma_glm_frustum_box",
    "Cglm.C58_Fma_glm_frustum_corners_at",
    "Cglm.C58_Fma_glm_quat_mul_sse2",
    "Cglm.C58_Fma_glm_quat_norm",
    "Cglm.C58_Fma_glm_quat_normalize_to",
    "Cglm.C58_Fma_glm_quat_normalize",
    "Cglm.C58_Fma_glm_quat_dot",
    "Cglm.C58_Fma_glm_quat_conjugate",
    "Cglm.C58_Fma_glm_quat_inv",
    "Cglm.C58_Fma_glm_quat_add",
    "Cglm.C58_Fma_glm_quat_sub",
    "Cglm.C58_Fma_glm_quat_mul",
    "Cglm.C58_Fma_glm_quat_mat4",
    "Cglm.C58_Fma_glm_quat_mat4t",
    "Cglm.C58_Fma_glm_quat_mat3",
    "Cglm.C58_Fma_glm_quat_mat3t",
    "Cglm.C58_Fma_glm_quat_lerp",
    "Cglm.C58_Fma_glm_quat_lerpc",
    "Cglm.C58_Fma_glm_quat_nlerp",
    "Cglm.C58_Fma_glm_quat_slerp",
    "Cglm.C58_Fma_glm_quat_slerp_longest",
    "Cglm.C58_Fma_glm_quat_look",
    "Cglm.C58_Fma_glm_quat_rotatev",
    "Cglm.C58_Fma_glm_quat_rotate",
    "Cglm.C58_Fma_glm_quat_rotate_at",
    "Cglm.C58_Fma_glm_quat_rotate_atm",
    "Cglm.C58_Fma_glm_perlin_vec4",
    "Cglm.C58_Fma_glm_perlin_vec3",
    "Cglm.C58_Fma_glm_perlin_vec2",
    "Cglm.C58_Fma_glm_unprojecti_zo",
    "Cglm.C58_Fma_glm_project_zo",
    "Cglm.C58_Fma_glm_unprojecti_no",
    "Cglm.C58_Fma_glm_project_no",
    "Cglm.C58_Fma_glm_unprojecti",
    "Cglm.C58_Fma_glm_unproject",
    "Cglm.C58_Fma_glm_project",
    "Cglm.C58_Fma_glm_pickmatrix",
    "Cglm.C58_Fma_glm_sphere_transform",
    "Cglm.C58_Fma_glm_smc",
    "Cglm.C58_Fma_glm_quat_from_vecs",
    "Cglm.C58_Fma_glm_vec4_normalize_to",
    "Cglm.C58_Fma_glm_vec4_normalize",
    "Cglm.C58_Fma_glm_vec4_normalize_to_partial",
    "Cglm.C58_Fma_glm_vec4_normalize_to_refuted",
    "Cglm.C58_Fma_glm_vec3_rotate_m4_partial",
    "Cglm.C58_Fma_glm_vec3_rotate_m3_partial",
    "Cglm.C58_Fma_glm_inv_tr_partial",
    "Cglm.C58_Fma_glm_inv_tr_refuted",
    "Cglm.C58_Fma_glm_vec4_sign",
    "Cglm.C58_Fma_glm_mat4_inv_fast",
    "Cglm.C58_Fma_glm_mat4_inv_fast_bound",
    "Cglm.C58_Fma_glm_mul_full",
    "Cglm.C58_Fma_glm_mul_partial",
    "Cglm.C58_Fma_glm_mul_refuted",
    "Cglm.C58_Fma_glmm256_fnmsub_refuted",
    "Cglm.C58_Fma_glmm256_fnmsub_actual"
   ],
   "note": "As C57 for AVX and AVX+FMA. In addition glm_mul on AVX is the full 4x4 product, so it differs from the scalar one when the second matrix is not affine, and glmm256_fnmsub computes -(a*b)-c neither with FMA nor without."
  },
  {
   "property": "C59",
   "status": "partial",
   "theorems": [
    "Cglm.C59_Neon32_glmm_abs",
    "Cglm.C59_Neon32_glmm_min",
    "Cglm.C59_Neon32_glmm_max",
    "Cglm.C59_Neon32_glmm_vhadd",
    "Cglm.C59_Neon32_glmm_hadd",
    "Cglm.C59_Neon32_glmm_hmin",
    "Cglm.C59_Neon32_glmm_hmax",
    "Cglm.C59_Neon32_glmm_dot",
    "Cglm.C59_Neon32_glmm_vdot",
    "Cglm.C59_Neon32_glmm_norm",
    "Cglm.C59_Neon32_glmm_norm2",
    "Cglm.C59_Neon32_glmm_norm_one",
    "Cglm.C59_Neon32_glmm_norm_inf",
    "Cglm.C59_Neon32_glmm_fmadd",
    "Cglm.C59_Neon32_glmm_fnmadd",
    "Cglm.C59_Neon32_glmm_fmsub",
    "Cglm.C59_Neon32_glmm_fnmsub",
    "Cglm.C59_Neon32_glm_vec4_abs",
    "Cglm.C59_Neon32_glm_vec4_zero",
    "Cglm.C59_Neon32_glm_vec4_one",
    "Cglm.C59_Neon32_glm_vec4_dot",
    "Cglm.C59_Neon32_glm_vec4_norm2",
    "Cglm.C59_Neon32_glm_vec4_norm",
    "Cglm.C59_Neon32_glm_vec4_norm_one",
    "Cglm.C59_Neon32_glm_vec4_norm_inf",
    "Cglm.C59_Neon32_glm_vec4_add",
    "Cglm.C59_Neon32_glm_vec4_adds",
    "Cglm.C59_Neon32_glm_vec4_sub",
    "Cglm.C59_Neon32_glm_vec4_subs",
    "Cglm.C59_Neon32_glm_vec4_mul",
    "Cglm.C59_Neon32_glm_vec4_scale",
    "Cglm.C59_Neon32_glm_vec4_scale_as",
    "Cglm.C59_Neon32_glm_vec4_addadd",
    "Cglm.C59_Neon32_glm_vec4_subadd",
    "Cglm.C59_Neon32_glm_vec4_muladd",
    "Cglm.C59_Neon32_glm_vec4_muladds",
    "Cglm.C59_Neon32_glm_vec4_maxadd",
    "Cglm.C59_Neon32_glm_vec4_minadd",
    "Cglm.C59_Neon32_glm_vec4_subsub",
    "Cglm.C59_Neon32_glm_vec4_addsub",
    "Cglm.C59_Neon32_glm_vec4_mulsub",
    "Cglm.C59_Neon32_glm_vec4_mulsubs",
    "Cglm.C59_Neon32_glm_vec4_maxsub",
    "Cglm.C59_Neon32_glm_vec4_minsub",
    "Cglm.C59_Neon32_glm_vec4_negate_to",
    "Cglm.C59_Neon32_glm_vec4_negate",
    "Cglm.C59_Neon32_glm_vec4_normalize_to",
    "Cglm.C59_Neon32_glm_vec4_normalize",
    "Cglm.C59_Neon32_glm_vec4_distance",
    "Cglm.C59_Neon32_glm_vec4_distance2",
    "Cglm.C59_Neon32_glm_vec4_maxv",
    "Cglm.C59_Neon32_glm_vec4_minv",
    "Cglm.C59_Neon32_glm_vec4_clamp",
    "Cglm.C59_Neon32_glm_vec4_lerp",
    "Cglm.C59_Neon32_glm_vec4_lerpc",
    "Cglm.C59_Neon32_glm_vec4_mix",
    "Cglm.C59_Neon32_glm_vec4_mixc",
    "Cglm.C59_Neon32_glm_vec4_smoothinterp",
    "Cglm.C59_Neon32_glm_vec4_smoothinterpc",
    "Cglm.C59_Neon32_glm_vec4_reflect",
    "Cglm.C59_Neon32_glm_vec4_refract",
    "Cglm.C59_Neon32_glm_vec3_rotate_m4",
    "Cglm.C59_Neon32_glm_vec3_rotate_m3",
    "Cglm.C59_Neon32_glm_mat4_scale_neon",
    "Cglm.C59_Neon32_glm_mat4_transp_neon",
    "Cglm.C59_Neon32_glm_mat4_mul_neon",
    "Cglm.C59_Neon32_glm_mat4_mulv_neon",
    "Cglm.C59_Neon32_glm_mat4_det_neon",
    "Cglm.C59_Neon32_glm_mat4_copy",
    "Cglm.C59_Neon32_glm_mat4_identity",
    "Cglm.C59_Neon32_glm_mat4_zero",
    "Cglm.C59_Neon32_glm_mat4_mul",
    "Cglm.C59_Neon32_glm_mat4_mulv",
    "Cglm.C59_Neon32_glm_mat4_mulv3",
    "Cglm.C59_Neon32_glm_mat4_transpose_to",
    "Cglm.C59_Neon32_glm_mat4_transpose",
    "Cglm.C59_Neon32_glm_mat4_scale",
    "Cglm.C59_Neon32_glm_mat4_det",
    "Cglm.C59_Neon32_glm_mat4_rmc",
    "Cglm.C59_Neon32_glm_mat4_textrans",
    "Cglm.C59_Neon32_glm_mat2_mul_neon",
    "Cglm.C59_Neon32_glm_mat2_mul",
    "Cglm.C59_Neon32_glm_mat2_scale",
    "Cglm.C59_Neon32_glm_mul_neon",
    "Cglm.C59_Neon32_glm_mul_rot_neon",
    "Cglm.C59_Neon32_glm_mul",
    "Cglm.C59_Neon32_glm_mul_rot",
    "Cglm.C59_Neon32_glm_translate_make",
    "Cglm.C59_Neon32_glm_scale_to",
    "Cglm.C59_Neon32_glm_scale_make",
    "Cglm.C59_Neon32_glm_scale",
    "Cglm.C59_Neon32_glm_scale_uni",
    "Cglm.C59_Neon32_glm_decompose_rs",
    "Cglm.C59_Neon32_glm_decompose",
    "Cglm.C59_Neon32_glm_translate",
    "Cglm.C59_Neon32_glm_translate_to",
    "Cglm.C59_Neon32_glm_translate_x",
    "Cglm.C59_Neon32_glm_translate_y",
    "Cglm.C59_Neon32_glm_translate_z",
    "Cglm.C59_Neon32_glm_rotate_x",
    "Cglm.C59_Neon32_glm_rotate_y",
    "Cglm.C59_Neon32_glm_rotate_z",
    "Cglm.C59_Neon32_glm_rotate",
    "Cglm.C59_Neon32_glm_rotate_at",
    "Cglm.C59_Neon32_glm_rotate_atm",
    "Cglm.C59_Neon32_glm_spin",
    "Cglm.C59_Neon32_glm_translated_to",
    "Cglm.C59_Neon32_glm_rotated_x",
    "Cglm.C59_Neon32_glm_rotated_y",
    "Cglm.C59_Neon32_glm_rotated_z",
    "Cglm.C59_Neon32_glm_rotated",
    "Cglm.C59_Neon32_glm_rotated_at",
    "Cglm.C59_Neon32_glm_spinned",
    "Cglm.C59_Neon32_glm_plane_normalize",
    "Cglm.C59_Neon32_glm_ortho_lh_zo",
    "Cglm.C59_Neon32_glm_ortho_aabb_lh_zo",
    "Cglm.C59_Neon32_glm_ortho_aabb_p_lh_zo",
    "Cglm.C59_Neon32_glm_ortho_aabb_pz_lh_zo",
    "Cglm.C59_Neon32_glm_ortho_default_lh_zo",
    "Cglm.C59_Neon32_glm_ortho_default_s_lh_zo",
    "Cglm.C59_Neon32_glm_frustum_lh_zo",
    "Cglm.C59_Neon32_glm_perspective_lh_zo",
    "Cglm.C59_Neon32_glm_perspective_default_lh_zo",
    "Cglm.C59_Neon32_glm_ortho_lh_no",
    "Cglm.C59_Neon32_glm_ortho_aabb_lh_no",
    "Cglm.C59_Neon32_glm_ortho_aabb_p_lh_no",
    "Cglm.C59_Neon32_glm_ortho_aabb_pz_lh_no",
    "Cglm.C59_Neon32_glm_ortho_default_lh_no",
    "Cglm.C59_Neon32_glm_ortho_default_s_lh_no",
    "Cglm.C59_Neon32_glm_frustum_lh_no",
    "Cglm.C59_Neon32_glm_perspective_lh_no",
    "Cglm.C59_Neon32_glm_perspective_default_lh_no",
    "Cglm.C59_Neon32_glm_ortho_rh_zo",
    "Cglm.C59_Neon32_glm_ortho_aabb_rh_zo",
    "Cglm.C59_Neon32_glm_ortho_aabb_p_rh_zo",
    "Cglm.C59_Neon32_glm_ortho_aabb_pz_rh_zo",
    "Cglm.C59_Neon32_glm_ortho_default_rh_zo",
    "Cglm.C59_Neon32_glm_ortho_default_s_rh_zo",
    "Cglm.C59_Neon32_glm_frustum_rh_zo",
    "Cglm.C59_Neon32_glm_perspective_rh_zo",
    "Cglm.C59_Neon32_glm_perspective_default_rh_zo",
    "Cglm.C59_Neon32_glm_ortho_rh_no",
    "Cglm.C59_Neon32_glm_ortho_aabb_rh_no",
    "Cglm.C59_Neon32_glm_ortho_aabb_p_rh_no",
    "Cglm.C59_Neon32_glm_ortho_aabb_pz_rh_no",
    "Cglm.C59_Neon32_glm_ortho_default_rh_no",
    "Cglm.C59_Neon32_glm_ortho_default_s_rh_no",
    "Cglm.C59_Neon32_glm_frustum_rh_no",
    "Cglm.C59_Neon32_glm_perspective_rh_no",
    "Cglm.C59_Neon32_glm_perspective_default_rh_no",
    "Cglm.C59_Neon32_glm_frustum",
    "Cglm.C59_Neon32_glm_ortho",
    "Cglm.C59_Neon32_glm_ortho_aabb",
    "Cglm.C59_Neon32_glm_ortho_aabb_p",
    "Cglm.C59_Neon32_glm_ortho_aabb_pz",
    "Cglm.C59_Neon32_glm_ortho_default",
    "Cglm.C59_Neon32_glm_ortho_default_s",
    "Cglm.C59_Neon32_glm_perspective",
    "Cglm.C59_Neon32_glm_perspective_default",
    "Cglm.C59_Neon32_glm_frustum_planes",
    "Cglm.C59_Neon32_glm_frustum_corners",
    "Cglm.C59_Neon32_glm_frustum_center",
    "Cglm.C59_Neon32_glm_frustum_box",
    "Cglm.C59_Neon32_glm_frustum_corners_at",
    "Cglm.C59_Neon32_glm_quat_mul_neon",
    "Cglm.C59_Neon32_glm_quat_norm",
    "Cglm.C59_Neon32_glm_quat_normalize_to",
    "Cglm.C59_Neon32_glm_quat_normalize",
    "Cglm.C59_Neon32_glm_quat_dot",
    "Cglm.C59_Neon32_glm_quat_conjugate",
    "Cglm.C59_Neon32_glm_quat_inv",
    "Cglm.C59_Neon32_glm_quat_add",
    "Cglm.C59_Neon32_glm_quat_sub",
    "Cglm.C59_Neon32_glm_quat_mul",
    "Cglm.C59_Neon32_glm_quat_mat4",
    "Cglm.C59_Neon32_glm_quat_mat4t",
    "Cglm.C59_Neon32_glm_quat_mat3",
    "Cglm.C59_Neon32_glm_quat_mat3t",
    "Cglm.C59_Neon32_glm_quat_lerp",
    "Cglm.C59_Neon32_glm_quat_lerpc",
    "Cglm.C59_Neon32_glm_quat_nlerp",
    "Cglm.C59_Neon32_glm_quat_slerp",
    "Cglm.C59_Neon32_glm_quat_slerp_longest",
    "Cglm.C59_Neon32_glm_quat_look",
    "Cglm.C59_Neon32_glm_quat_rotatev",
    "Cglm.C59_Neon32_glm_quat_rotate",
    "Cglm.C59_Neon32_glm_quat_rotate_at",
    "Cglm.C59_Neon32_glm_quat_rotate_atm",
    "Cglm.C59_Neon32_glm_perlin_vec3",
    "Cglm.C59_Neon32_glm_unprojecti_zo",
    "Cglm.C59_Neon32_glm_project_zo",
    "Cglm.C59_Neon32_glm_unprojecti_no",
    "Cglm.C59_Neon32_glm_project_no",
    "Cglm.C59_Neon32_glm_unprojecti",
    "Cglm.C59_Neon32_glm_project",
    "Cglm.C59_Neon32_glm_pickmatrix",
    "Cglm.C59_Neon32_glm_sphere_transform",
    "Cglm.C59_Neon32_glm_smc",
    "Cglm.C59_Neon32_glm_quat_from_vecs",
    "Cglm.C59_Neon32_glm_inv_tr_partial",
    "Cglm.C59_Neon32_glm_inv_tr_refuted",
    "Cglm.C59_Neon32_glm_vec4_div",
    "Cglm.C59_Neon32_glm_vec4_div_bound",
    "Cglm.C59_Neon32_glm_vec4_divs",
    "Cglm.C59_Neon32_glm_mat4_inv",
    "Cglm.C59_Neon32_glm_mat4_inv_fast",
    "Cglm.C59_Neon32_glm_unproject_partial",
    "Cglm.C59_Neon32_glm_perlin_vec2_partial",
    "Cglm.C59_Neon32_glm_perlin_vec4_partial",
    "Cglm.C59_Neon64_glmm_abs",
    "Cglm.C59_Neon64_glmm_min",
    "Cglm.C59_Neon64_glmm_max",
    "Cglm.C59_Neon64_glmm_vhadd",
    "Cglm.C59_Neon64_glmm_hadd",
    "Cglm.C59_Neon64_glmm_hmin",
    "Cglm.C59_Neon64_glmm_hmax",
    "Cglm.C59_Neon64_glmm_dot",
    "Cglm.C59_Neon64_glmm_vdot",
    "Cglm.C59_Neon64_glmm_norm",
    "Cglm.C59_Neon64_glmm_norm2",
    "Cglm.C59_Neon64_glmm_norm_one",
    "Cglm.C59_Neon64_glmm_norm_inf",
    "Cglm.C59_Neon64_glmm_div",
    "Cglm.C59_Neon64_glmm_fmadd",
    "Cglm.C59_Neon64_glmm_fnmadd",
    "Cglm.C59_Neon64_glmm_fmsub",
    "Cglm.C59_Neon64_glmm_fnmsub",
    "Cglm.C59_Neon64_glm_vec4_abs",
    "Cglm.C59_Neon64_glm_vec4_zero",
    "Cglm.C59_Neon64_glm_vec4_one",
    "Cglm.C59_Neon64_glm_vec4_dot",
    "Cglm.C59_Neon64_glm_vec4_norm2",
    "Cglm.C59_Neon64_glm_vec4_norm",
    "Cglm.C59_Neon64_glm_vec4_norm_one",
    "Cglm.C59_Neon64_glm_vec4_norm_inf",
    "Cglm.C59_Neon64_glm_vec4_add",
    "Cglm.C59_Neon64_glm_vec4_adds",
    "Cglm.C59_Neon64_glm_vec4_sub",
    "Cglm.C59_Neon64_glm_vec4_subs",
    "Cglm.C59_Neon64_glm_vec4_mul",
    "Cglm.C59_Neon64_glm_vec4_scale",
    "Cglm.C59_Neon64_glm_vec4_scale_as",
    "Cglm.C59_Neon64_glm_vec4_div",
    "Cglm.C59_Neon64_glm_vec4_divs",
    "Cglm.C59_Neon64_glm_vec4_addadd",
    "Cglm.C59_Neon64_glm_vec4_subadd",
    "Cglm.C59_Neon64_glm_vec4_muladd",
    "Cglm.C59_Neon64_glm_vec4_muladds",
    "Cglm.C59_Neon64_glm_vec4_maxadd",
    "Cglm.C59_Neon64_glm_vec4_minadd",
    "Cglm.C59_Neon64_glm_vec4_subsub",
    "Cglm.C59_Neon64_glm_vec4_addsub",
    "Cglm.C59_Neon64_glm_vec4_mulsub",
    "Cglm.C59_Neon64_glm_vec4_mulsubs",
    "Cglm.C59_Neon64_glm_vec4_maxsub",
    "Cglm.C59_Neon64_glm_vec4_minsub",
    "Cglm.C59_Neon64_glm_vec4_negate_to",
    "Cglm.C59_Neon64_glm_vec4_negate",
    "Cglm.C59_Neon64_glm_vec4_normalize_to",
    "Cglm.C59_Neon64_glm_vec4_normalize",
    "Cglm.C59_Neon64_glm_vec4_distance",
    "Cglm.C59_Neon64_glm_vec4_distance2",
    "Cglm.C59_Neon64_glm_vec4_maxv",
    "Cglm.C59_Neon64_glm_vec4_minv",
    "Cglm.C59_Neon64_glm_vec4_clamp",
    "Cglm.C59_Neon64_glm_vec4_lerp",
    "Cglm.C59_Neon64_glm_vec4_lerpc",
    "Cglm.C59_Neon64_glm_vec4_mix",
    "Cglm.C59_Neon64_glm_vec4_mixc",
    "Cglm.C59_Neon64_glm_vec4_smoothinterp",
    "Cglm.C59_Neon64_glm_vec4_smoothinterpc",
    "Cglm.C59_Neon64_glm_vec4_reflect",
    "Cglm.C59_Neon64_glm_vec4_refract",
    "Cglm.C59_Neon64_glm_vec3_rotate_m4",
    "Cglm.C59_Neon64_glm_vec3_rotate_m3",
    "Cglm.C59_Neon64_glm_mat4_scale_neon",
    "Cglm.C59_Neon64_glm_mat4_transp_neon",
    "Cglm.C59_Neon64_glm_mat4_mul_neon",
    "Cglm.C59_Neon64_glm_mat4_mulv_neon",
    "Cglm.C59_Neon64_glm_mat4_det_neon",
    "Cglm.C59_Neon64_glm_mat4_inv_neon",
    "Cglm.C59_Neon64_glm_mat4_copy",
    "Cglm.C59_Neon64_glm_mat4_identity",
    "Cglm.C59_Neon64_glm_mat4_zero",
    "Cglm.C59_Neon64_glm_mat4_mul",
    "Cglm.C59_Neon64_glm_mat4_mulv",
    "Cglm.C59_Neon64_glm_mat4_mulv3",
    "Cglm.C59_Neon64_glm_mat4_transpose_to",
    "Cglm.C59_Neon64_glm_mat4_transpose",
    "Cglm.C59_Neon64_glm_mat4_scale",
    "Cglm.C59_Neon64_glm_mat4_det",
    "Cglm.C59_Neon64_glm_mat4_inv",
    "Cglm.C59_Neon64_glm_mat4_inv_fast",
    "Cglm.C59_Neon64_glm_mat4_rmc",
    "Cglm.C59_Neon64_glm_mat4_textrans",
    "Cglm.C59_Neon64_glm_mat2_mul_neon",
    "Cglm.C59_Neon64_glm_mat2_mul",
    "Cglm.C59_Neon64_glm_mat2_scale",
    "Cglm.C59_Neon64_glm_mul_neon",
    "Cglm.C59_Neon64_glm_mul_rot_neon",
    "Cglm.C59_Neon64_glm_mul",
    "Cglm.C59_Neon64_glm_mul_rot",
    "Cglm.C59_Neon64_glm_translate_make",
    "Cglm.C59_Neon64_glm_scale_to",
    "Cglm.C59_Neon64_glm_scale_make",
    "Cglm.C59_Neon64_glm_scale",
    "Cglm.C59_Neon64_glm_scale_uni",
    "Cglm.C59_Neon64_glm_decompose_rs",
    "Cglm.C59_Neon64_glm_decompose",
    "Cglm.C59_Neon64_glm_translate",
    "Cglm.C59_Neon64_glm_translate_to",
    "Cglm.C59_Neon64_glm_translate_x",
    "Cglm.C59_Neon64_glm_translate_y",
    "Cglm.C59_Neon64_glm_translate_z",
    "Cglm.C59_Neon64_glm_rotate_x",
    "Cglm.C59_Neon64_glm_rotate_y",
    "Cglm.C59_Neon64_glm_rotate_z",
    "Cglm.C59_Neon64_glm_rotate",
    "Cglm.C59_Neon64_glm_rotate_at",
    "Cglm.C59_Neon64_glm_rotate_atm",
    "Cglm.C59_Neon64_glm_spin",
    "Cglm.C59_Neon64_glm_translated_to",
    "Cglm.C59_Neon64_glm_rotated_x",
    "Cglm.C59_Neon64_glm_rotated_y",
    "Cglm.C59_Neon64_glm_rotated_z",
    "Cglm.C59_Neon64_glm_rotated",
    "Cglm.C59_Neon64_glm_rotated_at",
    "Cglm.C59_Neon64_glm_spinned",
    "Cglm.C59_Neon64_glm_plane_normalize",
    "Cglm.C59_Neon64_glm_ortho_lh_zo",
    "Cglm.C59_Neon64_glm_ortho_aabb_lh_zo",
    "Cglm.C59_Neon64_glm_ortho_aabb_p_lh_zo",
    "Cglm.C59_Neon64_glm_ortho_aabb_pz_lh_zo",
    "Cglm.C59_Neon64_glm_ortho_default_lh_zo",
    "Cglm.C59_Neon64_glm_ortho_default_s_lh_zo",
    "Cglm.C59_Neon64_glm_frustum_lh_zo",
    "Cglm.C59_Neon64_glm_perspective_lh_zo",
    "Cglm.C59_Neon64_glm_perspective_default_lh_zo",
    "Cglm.C59_Neon64_glm_ortho_lh_no",
    "Cglm.C59_Neon64_glm_ortho_aabb_lh_no",
    "Cglm.C59_Neon64_glm_ortho_aabb_p_lh_no",
    "Cglm.C59_Neon64_glm_ortho_aabb_pz_lh_no",
    "Cglm.C59_Neon64_glm_ortho_default_lh_no",
    "Cglm.C59_Neon64_glm_ortho_default_s_lh_no",
    "Cglm.C59_Neon64_glm_frustum_lh_no",
    "Cglm.C59_Neon64_glm_perspective_lh_no",
    "Cglm.C59_Neon64_glm_perspective_default_lh_no",
    "Cglm.C59_Neon64_glm_ortho_rh_zo",
    "Cglm.C59_Neon64_glm_ortho_aabb_rh_zo",
    "Cglm.C59_Neon64_glm_ortho_aabb_p_rh_zo",
    "Cglm.C59_Neon64_glm_ortho_aabb_pz_rh_zo",
    "Cglm.C59_Neon64_glm_ortho_default_rh_zo",
    "Cglm.C59_Neon64_glm_ortho_default_s_rh_zo",
    "Cglm.C59_Neon64_glm_frustum_rh_zo",
    "Cglm.C59_Neon64_glm_perspective_rh_zo",
    "Cglm.C59_Neon64_glm_perspective_default_rh_zo",
    "Cglm.C59_Neon64_glm_ortho_rh_no",
    "Cglm.C59_Neon64_glm_ortho_aabb_rh_no",
    "Cglm.C59_Neon64_glm_ortho_aabb_p_rh_no",
    "Cglm.C59_Neon64_glm_ortho_aabb_pz_rh_no",
    "Cglm.C59_Neon64_glm_ortho_default_rh_no",
    "Cglm.C59_Neon64_glm_ortho_default_s_rh_no",
    "Cglm.C59_Neon64_glm_frustum_rh_no",
    "Cglm.C59_Neon64_glm_perspective_rh_no",
    "Cglm.C59_Neon64_glm_perspective_default_rh_no",
    "Cglm.C59_Neon64_glm_frustum",
    "Cglm.C59_Neon64_glm_ortho",
    "Cglm.C59_Neon64_glm_ortho_aabb",
    "Cglm.C59_Neon64_glm_ortho_aabb_p",
    "Cglm.C59_Neon64_glm_ortho_aabb_pz",
    "Cglm.C59_Neon64_glm_ortho_default",
    "Cglm.C59_Neon64_glm_ortho_default_s",
    "Cglm.C59_Neon64_glm_perspective",
    "Cglm.C59_Neon64_glm_perspective_default",
    "Cglm.C59_Neon64_glm_frustum_planes",
    "Cglm.C59_Neon64_glm_frustum_corners",
    "Cglm.C59_Neon64_glm_frustum_center",
    "Cglm.C59_Neon64_glm_frustum_box",
    "Cglm.C59_Neon64_glm_frustum_corners_at",
    "Cglm.C59_Neon64_glm_quat_mul_neon",
    "Cglm.C59_Neon64_glm_quat_norm",
    "Cglm.C59_Neon64_glm_quat_normalize_to",
    "Cglm.C59_Neon64_glm_quat_normalize",
    "Cglm.C59_Neon64_glm_quat_dot",
    "Cglm.C59_Neon64_glm_quat_conjugate",
    "Cglm.C59_Neon64_glm_quat_inv",
    "Cglm.C59_Neon64_glm_quat_add",
    "Cglm.C59_Neon64_glm_quat_sub",
    "Cglm.C59_Neon64_glm_quat_mul",
    "Cglm.C59_Neon64_glm_quat_mat4",
    "Cglm.C59_Neon64_glm_quat_mat4t",
    "Cglm.C59_Neon64_glm_quat_mat3",
    "Cglm.C59_Neon64_glm_quat_mat3t",
    "Cglm.C59_Neon64_glm_quat_lerp",
    "Cglm.C59_Neon64_glm_quat_lerpc",
    "Cglm.C59_Neon64_glm_quat_nlerp",
    "Cglm.C59_Neon64_glm_quat_slerp",
    "Cglm.C59_Neon64_glm_quat_slerp_longest",
    "Cglm.C59_Neon64_glm_quat_look",
    "Cglm.C59_Neon64_glm_quat_rotatev",
    "Cglm.C59_Neon64_glm_quat_rotate",
    "Cglm.C59_Neon64_glm_quat_rotate_at",
    "Cglm.C59_Neon64_glm_quat_rotate_atm",
    "Cglm.C59_Neon64_glm_perlin_vec4",
    "Cglm.C59_Neon64_glm_perlin_vec3",
    "Cglm.C59_Neon64_glm_perlin_vec2",
    "Cglm.C59_Neon64_glm_unprojecti_zo",
    "Cglm.C59_Neon64_glm_project_zo",
    "Cglm.C59_Neon64_glm_unprojecti_no",
    "Cglm.C59_Neon64_glm_project_no",
    "Cglm.C59_Neon64_glm_unprojecti",
    "Cglm.C59_Neon64_glm_unproject",
    "Cglm.C59_Neon64_glm_project",
    "Cglm.C59_Neon64_glm_pickmatrix",
    "Cglm.C59_Neon64_glm_sphere_transform",
    "Cglm.C59_Neon64_glm_smc",
    "Cglm.C59_Neon64_glm_quat_from_vecs",
    "Cglm.C59_Neon64_glm_inv_tr_partial",
    "Cglm.C59_Neon64_glm_inv_tr_refuted"
   ],
   "note": "As C57 for NEON on 64 and 32 bit Arm. inv_tr differs on non-affine matrices. On 32 bit, division is an estimate with two Newton steps: div, divs, inv and their callers carry the exact factor 1-(1-b*recpe b)^4 and a 2^-32 bound in exact arithmetic; perlin noise is compared only for an exact estimate."
  },
  {
   "property": "C60",
   "status": "partial",
   "theorems": [
    "Cglm.C60_Wasm_glmm_abs",
    "Cglm.C60_Wasm_glmm_min",
    "Cglm.C60_Wasm_glmm_max",
    "Cglm.C60_Wasm_glmm_vhadd",
    "Cglm.C60_Wasm_glmm_vhadds",
    "Cglm.C60_Wasm_glmm_hadd",
    "Cglm.C60_Wasm_glmm_vhmin",
    "Cglm.C60_Wasm_glmm_hmin",
    "Cglm.C60_Wasm_glmm_vhmax",
    "Cglm.C60_Wasm_glmm_hmax",
    "Cglm.C60_Wasm_glmm_vdots",
    "Cglm.C60_Wasm_glmm_vdot",
    "Cglm.C60_Wasm_glmm_dot",
    "Cglm.C60_Wasm_glmm_norm",
    "Cglm.C60_Wasm_glmm_norm2",
    "Cglm.C60_Wasm_glmm_norm_one",
    "Cglm.C60_Wasm_glmm_norm_inf",
    "Cglm.C60_Wasm_glmm_load3",
    "Cglm.C60_Wasm_glmm_store3",
    "Cglm.C60_Wasm_glmm_div",
    "Cglm.C60_Wasm_glmm_fmadd",
    "Cglm.C60_Wasm_glmm_fnmadd",
    "Cglm.C60_Wasm_glmm_fmsub",
    "Cglm.C60_Wasm_glmm_fnmsub",
    "Cglm.C60_Wasm_glm_vec4_broadcast",
    "Cglm.C60_Wasm_glm_vec4_fill",
    "Cglm.C60_Wasm_glm_vec4_abs",
    "Cglm.C60_Wasm_glm_vec4_hadd",
    "Cglm.C60_Wasm_glm_vec4_sqrt",
    "Cglm.C60_Wasm_glm_vec4_zero",
    "Cglm.C60_Wasm_glm_vec4_one",
    "Cglm.C60_Wasm_glm_vec4_dot",
    "Cglm.C60_Wasm_glm_vec4_norm2",
    "Cglm.C60_Wasm_glm_vec4_norm",
    "Cglm.C60_Wasm_glm_vec4_norm_one",
    "Cglm.C60_Wasm_glm_vec4_norm_inf",
    "Cglm.C60_Wasm_glm_vec4_add",
    "Cglm.C60_Wasm_glm_vec4_adds",
    "Cglm.C60_Wasm_glm_vec4_sub",
    "Cglm.C60_Wasm_glm_vec4_subs",
    "Cglm.C60_Wasm_glm_vec4_mul",
    "Cglm.C60_Wasm_glm_vec4_scale",
    "Cglm.C60_Wasm_glm_vec4_scale_as",
    "Cglm.C60_Wasm_glm_vec4_div",
    "Cglm.C60_Wasm_glm_vec4_divs",
    "Cglm.C60_Wasm_glm_vec4_addadd",
    "Cglm.C60_Wasm_glm_vec4_subadd",
    "Cglm.C60_Wasm_glm_vec4_muladd",
    "Cglm.C60_Wasm_glm_vec4_muladds",
    "Cglm.C60_Wasm_glm_vec4_maxadd",
    "Cglm.C60_Wasm_glm_vec4_minadd",
    "Cglm.C60_Wasm_glm_vec4_subsub",
    "Cglm.C60_Wasm_glm_vec4_addsub",
    "Cglm.C60_Wasm_glm_vec4_mulsub",
    "Cglm.C60_Wasm_glm_vec4_mulsubs",
    "Cglm.C60_Wasm_glm_vec4_maxsub",
    "Cglm.C60_Wasm_glm_vec4_minsub",
    "Cglm.C60_Wasm_glm_vec4_negate_to",
    "Cglm.C60_Wasm_glm_vec4_negate",
    "Cglm.C60_Wasm_glm_vec4_distance",
    "Cglm.C60_Wasm_glm_vec4_distance2",
    "Cglm.C60_Wasm_glm_vec4_maxv",
    "Cglm.C60_Wasm_glm_vec4_minv",
    "Cglm.C60_Wasm_glm_vec4_clamp",
    "Cglm.C60_Wasm_glm_vec4_lerp",
    "Cglm.C60_Wasm_glm_vec4_lerpc",
    "Cglm.C60_Wasm_glm_vec4_mix",
    "Cglm.C60_Wasm_glm_vec4_mixc",
    "Cglm.C60_Wasm_glm_vec4_smoothinterp",
    "Cglm.C60_Wasm_glm_vec4_smoothinterpc",
    "Cglm.C60_Wasm_glm_vec4_reflect",
    "Cglm.C60_Wasm_glm_vec4_refract",
    "Cglm.C60_Wasm_glm_mat4_scale_wasm",
    "Cglm.C60_Wasm_glm_mat4_transp_wasm",
    "Cglm.C60_Wasm_glm_mat4_mul_wasm",
    "Cglm.C60_Wasm_glm_mat4_mulv_wasm",
    "Cglm.C60_Wasm_glm_mat4_det_wasm",
    "Cglm.C60_Wasm_glm_mat4_inv_fast_wasm",
    "Cglm.C60_Wasm_glm_mat4_inv_wasm",
    "Cglm.C60_Wasm_glm_mat4_copy",
    "Cglm.C60_Wasm_glm_mat4_identity",
    "Cglm.C60_Wasm_glm_mat4_zero",
    "Cglm.C60_Wasm_glm_mat4_mul",
    "Cglm.C60_Wasm_glm_mat4_mulv",
    "Cglm.C60_Wasm_glm_mat4_mulv3",
    "Cglm.C60_Wasm_glm_mat4_transpose_to",
    "Cglm.C60_Wasm_glm_mat4_transpose",
    "Cglm.C60_Wasm_glm_mat4_scale",
    "Cglm.C60_Wasm_glm_mat4_det",
    "Cglm.C60_Wasm_glm_mat4_inv",
    "Cglm.C60_Wasm_glm_mat4_inv_fast",
    "Cglm.C60_Wasm_glm_mat4_rmc",
    "Cglm.C60_Wasm_glm_mat4_textrans",
    "Cglm.C60_Wasm_glm_mat3_mul_wasm",
    "Cglm.C60_Wasm_glm_mat3_mul",
    "Cglm.C60_Wasm_glm_mat2_mul_wasm",
    "Cglm.C60_Wasm_glm_mat2_transp_wasm",
    "Cglm.C60_Wasm_glm_mat2_mul",
    "Cglm.C60_Wasm_glm_mat2_transpose_to",
    "Cglm.C60_Wasm_glm_mat2_scale",
    "Cglm.C60_Wasm_glm_mul_wasm",
    "Cglm.C60_Wasm_glm_mul_rot_wasm",
    "Cglm.C60_Wasm_glm_mul",
    "Cglm.C60_Wasm_glm_mul_rot",
    "Cglm.C60_Wasm_glm_translate_make",
    "Cglm.C60_Wasm_glm_scale_to",
    "Cglm.C60_Wasm_glm_scale_make",
    "Cglm.C60_Wasm_glm_scale",
    "Cglm.C60_Wasm_glm_scale_uni",
    "Cglm.C60_Wasm_glm_decompose_rs",
    "Cglm.C60_Wasm_glm_decompose",
    "Cglm.C60_Wasm_glm_translate",
    "Cglm.C60_Wasm_glm_translate_to",
    "Cglm.C60_Wasm_glm_translate_x",
    "Cglm.C60_Wasm_glm_translate_y",
    "Cglm.C60_Wasm_glm_translate_z",
    "Cglm.C60_Wasm_glm_rotate_x",
    "Cglm.C60_Wasm_glm_rotate_y",
    "Cglm.C60_Wasm_glm_rotate_z",
    "Cglm.C60_Wasm_glm_rotate",
    "Cglm.C60_Wasm_glm_rotate_at",
    "Cglm.C60_Wasm_glm_rotate_atm",
    "Cglm.C60_Wasm_glm_spin",
    "Cglm.C60_Wasm_glm_translated_to",
    "Cglm.C60_Wasm_glm_rotated_x",
    "Cglm.C60_Wasm_glm_rotated_y",
    "Cglm.C60_Wasm_glm_rotated_z",
    "Cglm.C60_Wasm_glm_rotated",
    "Cglm.C60_Wasm_glm_rotated_at",
    "Cglm.C60_Wasm_glm_spinned",
    "Cglm.C60_Wasm_glm_plane_normalize",
    "Cglm.C60_Wasm_glm_ortho_lh_zo",
    "Cglm.C60_Wasm_glm_ortho_aabb_lh_zo",
    "Cglm.C60_Wasm_glm_ortho_aabb_p_lh_zo",
    "Cglm.C60_Wasm_glm_ortho_aabb_pz_lh_zo",
    "Cglm.C60_Wasm_glm_ortho_default_lh_zo",
    "Cglm.C60_Wasm_glm_ortho_default_s_lh_zo",
    "Cglm.C60_Wasm_glm_frustum_lh_zo",
    "Cglm.C60_Wasm_glm_perspective_lh_zo",
    "Cglm.C60_Wasm_glm_perspective_default_lh_zo",
    "Cglm.C60_Wasm_glm_ortho_lh_no",
    "Cglm.C60_Wasm_glm_ortho_aabb_lh_no",
    "Cglm.C60_Wasm_glm_ortho_aabb_p_lh_no",
    "Cglm.C60_Wasm_glm_ortho_aabb_pz_lh_no",
    "Cglm.C60_Wasm_glm_ortho_default_lh_no",
    "Cglm.C60_Wasm_glm_ortho_default_s_lh_no",
    "Cglm.C60_Wasm_glm_frustum_lh_no",
    "Cglm.C60_Wasm_glm_perspective_lh_no",
    "Cglm.C60_Wasm_glm_perspective_default_lh_no",
    "Cglm.C60_Wasm_glm_ortho_rh_zo",
    "Cglm.C60_Wasm_glm_ortho_aabb_rh_zo",
    "Cglm.C60_Wasm_glm_ortho_aabb_p_rh_zo",
    "Cglm.C60_Wasm_glm_ortho_aabb_pz_rh_zo",
    "Cglm.C60_Wasm_glm_ortho_default_rh_zo",
    "Cglm.C60_Wasm_glm_ortho_default_s_rh_zo",
    "Cglm.C60_Wasm_glm_frustum_rh_zo",
    "Cglm.C60_Wasm_glm_perspective_rh_zo",
    "Cglm.C60_Wasm_glm_perspective_default_rh_zo",
    "Cglm.C60_Wasm_glm_ortho_rh_no",
    "Cglm.C60_Wasm_glm_ortho_aabb_rh_no",
    "Cglm.C60_Wasm_glm_ortho_aabb_p_rh_no",
    "Cglm.C60_Wasm_glm_ortho_aabb_pz_rh_no",
    "Cglm.C60_Wasm_glm_ortho_default_rh_no",
    "Cglm.C60_Wasm_glm_ortho_default_s_rh_no",
    "Cglm.C60_Wasm_glm_frustum_rh_no",
    "Cglm.C60_Wasm_glm_perspective_rh_no",
    "Cglm.C60_Wasm_glm_perspective_default_rh_no",
    "Cglm.C60_Wasm_glm_frustum",
    "Cglm.C60_Wasm_glm_ortho",
    "Cglm.C60_Wasm_glm_ortho_aabb",
    "Cglm.C60_Wasm_glm_ortho_aabb_p",
    "Cglm.C60_Wasm_glm_ortho_aabb_pz",
    "Cglm.C60_Wasm_glm_ortho_default",
    "Cglm.C60_Wasm_glm_ortho_default_s",
    "Cglm.C60_Wasm_glm_perspective",
    "Cglm.C60_Wasm_glm_perspective_default",
    "Cglm.C60_Wasm_glm_frustum_planes",
    "Cglm.C60_Wasm_glm_frustum_corners",
    "Cglm.C60_Wasm_glm_frustum_center",
    "Cglm.C60_Wasm_glm_frustum_box",
    "Cglm.C60_Wasm_glm_frustum_corners_at",
    "Cglm.C60_Wasm_glm_quat_mul_wasm",
    "Cglm.C60_Wasm_glm_quat_norm",
    "Cglm.C60_Wasm_glm_quat_normalize_to",
    "Cglm.C60_Wasm_glm_quat_normalize",
    "Cglm.C60_Wasm_glm_quat_dot",
    "Cglm.C60_Wasm_glm_quat_conjugate",
    "Cglm.C60_Wasm_glm_quat_inv",
    "Cglm.C60_Wasm_glm_quat_add",
    "Cglm.C60_Wasm_glm_quat_sub",
    "Cglm.C60_Wasm_glm_quat_mul",
    "Cglm.C60_Wasm_glm_quat_mat4",
    "Cglm.C60_Wasm_glm_quat_mat4t",
    "Cglm.C60_Wasm_glm_quat_mat3",
    "Cglm.C60_Wasm_glm_quat_mat3t",
    "Cglm.C60_Wasm_glm_quat_lerp",
    "Cglm.C60_Wasm_glm_quat_lerpc",
    "Cglm.C60_Wasm_glm_quat_nlerp",
    "Cglm.C60_Wasm_glm_quat_slerp",
    "Cglm.C60_Wasm_glm_quat_slerp_longest",
    "Cglm.C60_Wasm_glm_quat_look",
    "Cglm.C60_Wasm_glm_quat_rotatev",
    "Cglm.C60_Wasm_glm_quat_rotate",
    "Cglm.C60_Wasm_glm_quat_rotate_at",
    "Cglm.C60_Wasm_glm_quat_rotate_atm",
    "Cglm.C60_Wasm_glm_perlin_vec4",
    "Cglm.C60_Wasm_glm_perlin_vec3",
    "Cglm.C60_Wasm_glm_perlin_vec2",
    "Cglm.C60_Wasm_glm_unprojecti_zo",
    "Cglm.C60_Wasm_glm_project_zo",
    "Cglm.C60_Wasm_glm_unprojecti_no",
    "Cglm.C60_Wasm_glm_project_no",
    "Cglm.C60_Wasm_glm_unprojecti",
    "Cglm.C60_Wasm_glm_unproject",
    "Cglm.C60_Wasm_glm_project",
    "Cglm.C60_Wasm_glm_pickmatrix",
    "Cglm.C60_Wasm_glm_sphere_transform",
    "Cglm.C60_Wasm_glm_smc",
    "Cglm.C60_Wasm_glm_quat_from_vecs",
    "Cglm.C60_Wasm_glm_vec4_normalize_to",
    "Cglm.C60_Wasm_glm_vec4_normalize",
    "Cglm.C60_Wasm_glm_vec4_normalize_to_partial",
    "Cglm.C60_Wasm_glm_vec4_normalize_to_refuted",
    "Cglm.C60_Wasm_glm_vec3_rotate_m4_partial",
    "Cglm.C60_Wasm_glm_vec3_rotate_m3_partial",
    "Cglm.C60_Wasm_glm_inv_tr_partial",
    "Cglm.C60_Wasm_glm_inv_tr_refuted"
   ],
   "note": "As C57 for WebAssembly SIMD128, with the same exceptions."
  },
  {
   "property": "C61",
   "status": "partial",
   "theorems": [
    "Cglm.C61_vec2_fill",
    "Cglm.C61_vec2_eq",
    "Cglm.C61_vec2_eq_eps",
    "Cglm.C61_vec2_eq_all",
    "Cglm.C61_vec2_eqv",
    "Cglm.C61_vec2_eqv_eps",
    "Cglm.C61_vec2_max",
    "Cglm.C61_vec2_min",
    "Cglm.C61_vec2_isnan",
    "Cglm.C61_vec2_isinf",
    "Cglm.C61_vec2_isvalid",
    "Cglm.C61_vec2_sign",
    "Cglm.C61_vec2_abs",
    "Cglm.C61_vec2_fract",
    "Cglm.C61_vec2_floor",
    "Cglm.C61_vec2_mods",
    "Cglm.C61_vec2_steps",
    "Cglm.C61_vec2_stepr",
    "Cglm.C61_vec2_sqrt",
    "Cglm.C61_vec2_complex_mul",
    "Cglm.C61_vec2_complex_div",
    "Cglm.C61_vec2_complex_conjugate",
    "Cglm.C61_vec2",
    "Cglm.C61_vec2_zero",
    "Cglm.C61_vec2_one",
    "Cglm.C61_vec2_dot",
    "Cglm.C61_vec2_cross",
    "Cglm.C61_vec2_norm2",
    "Cglm.C61_vec2_norm",
    "Cglm.C61_vec2_add",
    "Cglm.C61_vec2_adds",
    "Cglm.C61_vec2_sub",
    "Cglm.C61_vec2_subs",
    "Cglm.C61_vec2_mul",
    "Cglm.C61_vec2_scale",
    "Cglm.C61_vec2_scale_as",
    "Cglm.C61_vec2_div",
    "Cglm.C61_vec2_divs",
    "Cglm.C61_vec2_addadd",
    "Cglm.C61_vec2_subadd",
    "Cglm.C61_vec2_muladd",
    "Cglm.C61_vec2_muladds",
    "Cglm.C61_vec2_maxadd",
    "Cglm.C61_vec2_minadd",
    "Cglm.C61_vec2_subsub",
    "Cglm.C61_vec2_addsub",
    "Cglm.C61_vec2_mulsub",
    "Cglm.C61_vec2_mulsubs",
    "Cglm.C61_vec2_maxsub",
    "Cglm.C61_vec2_minsub",
    "Cglm.C61_vec2_negate",
    "Cglm.C61_vec2_normalize",
    "Cglm.C61_vec2_rotate",
    "Cglm.C61_vec2_center",
    "Cglm.C61_vec2_distance",
    "Cglm.C61_vec2_distance2",
    "Cglm.C61_vec2_maxv",
    "Cglm.C61_vec2_minv",
    "Cglm.C61_vec2_clamp",
    "Cglm.C61_vec2_lerp",
    "Cglm.C61_vec2_step",
    "Cglm.C61_vec2_make",
    "Cglm.C61_vec2_reflect",
    "Cglm.C61_vec2_refract",
    "Cglm.C61_vec3_broadcast",
    "Cglm.C61_vec3_fill",
    "Cglm.C61_vec3_eq",
    "Cglm.C61_vec3_eq_eps",
    "Cglm.C61_vec3_eq_all",
    "Cglm.C61_vec3_eqv",
    "Cglm.C61_vec3_eqv_eps",
    "Cglm.C61_vec3_max",
    "Cglm.C61_vec3_min",
    "Cglm.C61_vec3_isnan",
    "Cglm.C61_vec3_isinf",
    "Cglm.C61_vec3_isvalid",
    "Cglm.C61_vec3_sign",
    "Cglm.C61_vec3_abs",
    "Cglm.C61_vec3_fract",
    "Cglm.C61_vec3_floor",
    "Cglm.C61_vec3_mods",
    "Cglm.C61_vec3_steps",
    "Cglm.C61_vec3_stepr",
    "Cglm.C61_vec3_hadd",
    "Cglm.C61_vec3_sqrt",
    "Cglm.C61_vec3",
    "Cglm.C61_vec3_zero",
    "Cglm.C61_vec3_one",
    "Cglm.C61_vec3_dot",
    "Cglm.C61_vec3_norm2",
    "Cglm.C61_vec3_norm",
    "Cglm.C61_vec3_norm_one",
    "Cglm.C61_vec3_norm_inf",
    "Cglm.C61_vec3_add",
    "Cglm.C61_vec3_adds",
    "Cglm.C61_vec3_sub",
    "Cglm.C61_vec3_subs",
    "Cglm.C61_vec3_mul",
    "Cglm.C61_vec3_scale",
    "Cglm.C61_vec3_scale_as",
    "Cglm.C61_vec3_div",
    "Cglm.C61_vec3_divs",
    "Cglm.C61_vec3_addadd",
    "Cglm.C61_vec3_subadd",
    "Cglm.C61_vec3_muladd",
    "Cglm.C61_vec3_muladds",
    "Cglm.C61_vec3_maxadd",
    "Cglm.C61_vec3_minadd",
    "Cglm.C61_vec3_subsub",
    "Cglm.C61_vec3_addsub",
    "Cglm.C61_vec3_mulsub",
    "Cglm.C61_vec3_mulsubs",
    "Cglm.C61_vec3_maxsub",
    "Cglm.C61_vec3_minsub",
    "Cglm.C61_vec3_flipsign",
    "Cglm.C61_vec3_negate",
    "Cglm.C61_vec3_normalize",
    "Cglm.C61_vec3_cross",
    "Cglm.C61_vec3_crossn",
    "Cglm.C61_vec3_angle",
    "Cglm.C61_vec3_rotate",
    "Cglm.C61_vec3_rotate_m4",
    "Cglm.C61_vec3_rotate_m3",
    "Cglm.C61_vec3_proj",
    "Cglm.C61_vec3_center",
    "Cglm.C61_vec3_distance",
    "Cglm.C61_vec3_distance2",
    "Cglm.C61_vec3_maxv",
    "Cglm.C61_vec3_minv",
    "Cglm.C61_vec3_ortho",
    "Cglm.C61_vec3_clamp",
    "Cglm.C61_vec3_lerp",
    "Cglm.C61_vec3_lerpc",
    "Cglm.C61_vec3_mix",
    "Cglm.C61_vec3_mixc",
    "Cglm.C61_vec3_step",
    "Cglm.C61_vec3_smoothstep_uni",
    "Cglm.C61_vec3_smoothstep",
    "Cglm.C61_vec3_smoothinterp",
    "Cglm.C61_vec3_smoothinterpc",
    "Cglm.C61_cross",
    "Cglm.C61_dot",
    "Cglm.C61_normalize",
    "Cglm.C61_vec3_make",
    "Cglm.C61_vec3_faceforward",
    "Cglm.C61_vec3_reflect",
    "Cglm.C61_vec3_refract",
    "Cglm.C61_vec4_broadcast",
    "Cglm.C61_vec4_fill",
    "Cglm.C61_vec4_eq",
    "Cglm.C61_vec4_eq_eps",
    "Cglm.C61_vec4_eq_all",
    "Cglm.C61_vec4_eqv",
    "Cglm.C61_vec4_eqv_eps",
    "Cglm.C61_vec4_max",
    "Cglm.C61_vec4_min",
    "Cglm.C61_vec4_isnan",
    "Cglm.C61_vec4_isinf",
    "Cglm.C61_vec4_isvalid",
    "Cglm.C61_vec4_sign",
    "Cglm.C61_vec4_abs",
    "Cglm.C61_vec4_fract",
    "Cglm.C61_vec4_floor",
    "Cglm.C61_vec4_mods",
    "Cglm.C61_vec4_steps",
    "Cglm.C61_vec4_stepr",
    "Cglm.C61_vec4_hadd",
    "Cglm.C61_vec4_sqrt",
    "Cglm.C61_vec4",
    "Cglm.C61_vec4_copy3",
    "Cglm.C61_vec4_copy",
    "Cglm.C61_vec4_ucopy",
    "Cglm.C61_vec4_zero",
    "Cglm.C61_vec4_one",
    "Cglm.C61_vec4_dot",
    "Cglm.C61_vec4_norm2",
    "Cglm.C61_vec4_norm",
    "Cglm.C61_vec4_norm_one",
    "Cglm.C61_vec4_norm_inf",
    "Cglm.C61_vec4_add",
    "Cglm.C61_vec4_adds",
    "Cglm.C61_vec4_sub",
    "Cglm.C61_vec4_subs",
    "Cglm.C61_vec4_mul",
    "Cglm.C61_vec4_scale",
    "Cglm.C61_vec4_scale_as",
    "Cglm.C61_vec4_div",
    "Cglm.C61_vec4_divs",
    "Cglm.C61_vec4_addadd",
    "Cglm.C61_vec4_subadd",
    "Cglm.C61_vec4_muladd",
    "Cglm.C61_vec4_muladds",
    "Cglm.C61_vec4_maxadd",
    "Cglm.C61_vec4_minadd",
    "Cglm.C61_vec4_subsub",
    "Cglm.C61_vec4_addsub",
    "Cglm.C61_vec4_mulsub",
    "Cglm.C61_vec4_mulsubs",
    "Cglm.C61_vec4_maxsub",
    "Cglm.C61_vec4_minsub",
    "Cglm.C61_vec4_negate",
    "Cglm.C61_vec4_normalize",
    "Cglm.C61_vec4_distance",
    "Cglm.C61_vec4_distance2",
    "Cglm.C61_vec4_maxv",
    "Cglm.C61_vec4_minv",
    "Cglm.C61_vec4_clamp",
    "Cglm.C61_vec4_lerp",
    "Cglm.C61_vec4_lerpc",
    "Cglm.C61_vec4_mix",
    "Cglm.C61_vec4_mixc",
    "Cglm.C61_vec4_step",
    "Cglm.C61_vec4_smoothstep_uni",
    "Cglm.C61_vec4_smoothstep",
    "Cglm.C61_vec4_smoothinterp",
    "Cglm.C61_vec4_smoothinterpc",
    "Cglm.C61_vec4_cubic",
    "Cglm.C61_vec4_make",
    "Cglm.C61_vec4_reflect",
    "Cglm.C61_vec4_refract",
    "Cglm.C61_mat2_make",
    "Cglm.C61_mat2_identity",
    "Cglm.C61_mat2_zero",
    "Cglm.C61_mat2_mul",
    "Cglm.C61_mat2_mulv",
    "Cglm.C61_mat2_transpose",
    "Cglm.C61_mat2_scale",
    "Cglm.C61_mat2_inv",
    "Cglm.C61_mat2_det",
    "Cglm.C61_mat2_trace",
    "Cglm.C61_mat2_rmc",
    "Cglm.C61_mat2x3_zero",
    "Cglm.C61_mat2x3_make",
    "Cglm.C61_mat2x3_mul",
    "Cglm.C61_mat2x3_mulv",
    "Cglm.C61_mat2x3_transpose",
    "Cglm.C61_mat2x3_scale",
    "Cglm.C61_mat2x4_zero",
    "Cglm.C61_mat2x4_make",
    "Cglm.C61_mat2x4_mul",
    "Cglm.C61_mat2x4_mulv",
    "Cglm.C61_mat2x4_transpose",
    "Cglm.C61_mat2x4_scale",
    "Cglm.C61_mat3_copy",
    "Cglm.C61_mat3_identity",
    "Cglm.C61_mat3_zero",
    "Cglm.C61_mat3_mul",
    "Cglm.C61_mat3_transpose",
    "Cglm.C61_mat3_mulv",
    "Cglm.C61_mat3_trace",
    "Cglm.C61_mat3_quat",
    "Cglm.C61_mat3_scale",
    "Cglm.C61_mat3_det",
    "Cglm.C61_mat3_inv",
    "Cglm.C61_mat3_rmc",
    "Cglm.C61_mat3_make",
    "Cglm.C61_mat3_textrans",
    "Cglm.C61_mat3x2_zero",
    "Cglm.C61_mat3x2_make",
    "Cglm.C61_mat3x2_mul",
    "Cglm.C61_mat3x2_mulv",
    "Cglm.C61_mat3x2_transpose",
    "Cglm.C61_mat3x2_scale",
    "Cglm.C61_mat3x4_zero",
    "Cglm.C61_mat3x4_make",
    "Cglm.C61_mat3x4_mul",
    "Cglm.C61_mat3x4_mulv",
    "Cglm.C61_mat3x4_transpose",
    "Cglm.C61_mat3x4_scale",
    "Cglm.C61_mat4_ucopy",
    "Cglm.C61_mat4_copy",
    "Cglm.C61_mat4_identity",
    "Cglm.C61_mat4_zero",
    "Cglm.C61_mat4_pick3",
    "Cglm.C61_mat4_pick3t",
    "Cglm.C61_mat4_ins3",
    "Cglm.C61_mat4_mul",
    "Cglm.C61_mat4_mulv",
    "Cglm.C61_mat4_trace",
    "Cglm.C61_mat4_trace3",
    "Cglm.C61_mat4_quat",
    "Cglm.C61_mat4_mulv3",
    "Cglm.C61_mat4_transpose",
    "Cglm.C61_mat4_scale_p",
    "Cglm.C61_mat4_scale",
    "Cglm.C61_mat4_det",
    "Cglm.C61_mat4_inv",
    "Cglm.C61_mat4_inv_fast",
    "Cglm.C61_mat4_rmc",
    "Cglm.C61_mat4_make",
    "Cglm.C61_mat4_textrans",
    "Cglm.C61_mat4x2_zero",
    "Cglm.C61_mat4x2_make",
    "Cglm.C61_mat4x2_mul",
    "Cglm.C61_mat4x2_mulv",
    "Cglm.C61_mat4x2_transpose",
    "Cglm.C61_mat4x2_scale",
    "Cglm.C61_mat4x3_zero",
    "Cglm.C61_mat4x3_make",
    "Cglm.C61_mat4x3_mul",
    "Cglm.C61_mat4x3_mulv",
    "Cglm.C61_mat4x3_transpose",
    "Cglm.C61_mat4x3_scale",
    "Cglm.C61_mul",
    "Cglm.C61_mul_rot",
    "Cglm.C61_inv_tr",
    "Cglm.C61_translate_make",
    "Cglm.C61_scale_make",
    "Cglm.C61_scale",
    "Cglm.C61_scale_uni",
    "Cglm.C61_rotate_make",
    "Cglm.C61_rotate_atm",
    "Cglm.C61_decompose_scalev",
    "Cglm.C61_uniscaled",
    "Cglm.C61_decompose_rs",
    "Cglm.C61_decompose",
    "Cglm.C61_translate",
    "Cglm.C61_translate_x",
    "Cglm.C61_translate_y",
    "Cglm.C61_translate_z",
    "Cglm.C61_rotate_x",
    "Cglm.C61_rotate_y",
    "Cglm.C61_rotate_z",
    "Cglm.C61_rotate",
    "Cglm.C61_rotate_at",
    "Cglm.C61_spin",
    "Cglm.C61_translated",
    "Cglm.C61_translated_x",
    "Cglm.C61_translated_y",
    "Cglm.C61_translated_z",
    "Cglm.C61_rotated_x",
    "Cglm.C61_rotated_y",
    "Cglm.C61_rotated_z",
    "Cglm.C61_rotated",
    "Cglm.C61_rotated_at",
    "Cglm.C61_spinned",
    "Cglm.C61_plane_normalize",
    "Cglm.C61_frustum_planes",
    "Cglm.C61_frustum_corners",
    "Cglm.C61_frustum_center",
    "Cglm.C61_frustum_box",
    "Cglm.C61_perlin_vec4",
    "Cglm.C61_perlin_vec3",
    "Cglm.C61_perlin_vec2",
    "Cglm.C61_aabb_transform",
    "Cglm.C61_aabb_merge",
    "Cglm.C61_aabb_crop",
    "Cglm.C61_aabb_crop_until",
    "Cglm.C61_aabb_frustum",
    "Cglm.C61_aabb_invalidate",
    "Cglm.C61_aabb_isvalid",
    "Cglm.C61_aabb_size",
    "Cglm.C61_aabb_radius",
    "Cglm.C61_aabb_center",
    "Cglm.C61_aabb_aabb",
    "Cglm.C61_aabb_sphere",
    "Cglm.C61_aabb_point",
    "Cglm.C61_aabb_contains",
    "Cglm.C61_luminance",
    "Cglm.C61_ortho_lh_zo",
    "Cglm.C61_ortho_aabb_lh_zo",
    "Cglm.C61_ortho_aabb_p_lh_zo",
    "Cglm.C61_ortho_aabb_pz_lh_zo",
    "Cglm.C61_ortho_default_lh_zo",
    "Cglm.C61_ortho_default_s_lh_zo",
    "Cglm.C61_frustum_lh_zo",
    "Cglm.C61_perspective_lh_zo",
    "Cglm.C61_persp_move_far_lh_zo",
    "Cglm.C61_perspective_default_lh_zo",
    "Cglm.C61_perspective_resize_lh_zo",
    "Cglm.C61_persp_decomp_lh_zo",
    "Cglm.C61_persp_decompv_lh_zo",
    "Cglm.C61_persp_decomp_x_lh_zo",
    "Cglm.C61_persp_decomp_y_lh_zo",
    "Cglm.C61_persp_decomp_z_lh_zo",
    "Cglm.C61_persp_decomp_far_lh_zo",
    "Cglm.C61_persp_decomp_near_lh_zo",
    "Cglm.C61_persp_fovy_lh_zo",
    "Cglm.C61_persp_aspect_lh_zo",
    "Cglm.C61_persp_sizes_lh_zo",
    "Cglm.C61_ortho_lh_no",
    "Cglm.C61_ortho_aabb_lh_no",
    "Cglm.C61_ortho_aabb_p_lh_no",
    "Cglm.C61_ortho_aabb_pz_lh_no",
    "Cglm.C61_ortho_default_lh_no",
    "Cglm.C61_ortho_default_s_lh_no",
    "Cglm.C61_frustum_lh_no",
    "Cglm.C61_perspective_lh_no",
    "Cglm.C61_persp_move_far_lh_no",
    "Cglm.C61_perspective_default_lh_no",
    "Cglm.C61_perspective_resize_lh_no",
    "Cglm.C61_persp_decomp_lh_no",
    "Cglm.C61_persp_decompv_lh_no",
    "Cglm.C61_persp_decomp_x_lh_no",
    "Cglm.C61_persp_decomp_y_lh_no",
    "Cglm.C61_persp_decomp_z_lh_no",
    "Cglm.C61_persp_decomp_far_lh_no",
    "Cglm.C61_persp_decomp_near_lh_no",
    "Cglm.C61_persp_fovy_lh_no",
    "Cglm.C61_persp_aspect_lh_no",
    "Cglm.C61_persp_sizes_lh_no",
    "Cglm.C61_ortho_rh_zo",
    "Cglm.C61_ortho_aabb_rh_zo",
    "Cglm.C61_ortho_aabb_p_rh_zo",
    "Cglm.C61_ortho_aabb_pz_rh_zo",
    "Cglm.C61_ortho_default_rh_zo",
    "Cglm.C61_ortho_default_s_rh_zo",
    "Cglm.C61_frustum_rh_zo",
    "Cglm.C61_perspective_rh_zo",
    "Cglm.C61_persp_move_far_rh_zo",
    "Cglm.C61_perspective_default_rh_zo",
    "Cglm.C61_perspective_resize_rh_zo",
    "Cglm.C61_persp_decomp_rh_zo",
    "Cglm.C61_persp_decompv_rh_zo",
    "Cglm.C61_persp_decomp_x_rh_zo",
    "Cglm.C61_persp_decomp_y_rh_zo",
    "Cglm.C61_persp_decomp_z_rh_zo",
    "Cglm.C61_persp_decomp_far_rh_zo",
    "Cglm.C61_persp_decomp_near_rh_zo",
    "Cglm.C61_persp_fovy_rh_zo",
    "Cglm.C61_persp_aspect_rh_zo",
    "Cglm.C61_persp_sizes_rh_zo",
    "Cglm.C61_ortho_rh_no",
    "Cglm.C61_ortho_aabb_rh_no",
    "Cglm.C61_ortho_aabb_p_rh_no",
    "Cglm.C61_ortho_aabb_pz_rh_no",
    "Cglm.C61_ortho_default_rh_no",
    "Cglm.C61_ortho_default_s_rh_no",
    "Cglm.C61_frustum_rh_no",
    "Cglm.C61_perspective_rh_no",
    "Cglm.C61_persp_move_far_rh_no",
    "Cglm.C61_perspective_default_rh_no",
    "Cglm.C61_perspective_resize_rh_no",
    "Cglm.C61_persp_decomp_rh_no",
    "Cglm.C61_persp_decompv_rh_no",
    "Cglm.C61_persp_decomp_x_rh_no",
    "Cglm.C61_persp_decomp_y_rh_no",
    "Cglm.C61_persp_decomp_z_rh_no",
    "Cglm.C61_persp_decomp_far_rh_no",
    "Cglm.C61_persp_decomp_near_rh_no",
    "Cglm.C61_persp_fovy_rh_no",
    "Cglm.C61_persp_aspect_rh_no",
    "Cglm.C61_persp_sizes_rh_no",
    "Cglm.C61_lookat_lh_zo",
    "Cglm.C61_look_lh_zo",
    "Cglm.C61_look_anyup_lh_zo",
    "Cglm.C61_lookat_lh_no",
    "Cglm.C61_look_lh_no",
    "Cglm.C61_look_anyup_lh_no",
    "Cglm.C61_lookat_rh_zo",
    "Cglm.C61_look_rh_zo",
    "Cglm.C61_look_anyup_rh_zo",
    "Cglm.C61_lookat_rh_no",
    "Cglm.C61_look_rh_no",
    "Cglm.C61_look_anyup_rh_no",
    "Cglm.C61_frustum",
    "Cglm.C61_ortho",
    "Cglm.C61_ortho_aabb",
    "Cglm.C61_ortho_aabb_p",
    "Cglm.C61_ortho_aabb_pz",
    "Cglm.C61_ortho_default",
    "Cglm.C61_ortho_default_s",
    "Cglm.C61_perspective",
    "Cglm.C61_persp_move_far",
    "Cglm.C61_perspective_default",
    "Cglm.C61_perspective_resize",
    "Cglm.C61_lookat",
    "Cglm.C61_look",
    "Cglm.C61_look_anyup",
    "Cglm.C61_persp_decomp",
    "Cglm.C61_persp_decompv",
    "Cglm.C61_persp_decomp_x",
    "Cglm.C61_persp_decomp_y",
    "Cglm.C61_persp_decomp_z",
    "Cglm.C61_persp_decomp_far",
    "Cglm.C61_persp_decomp_near",
    "Cglm.C61_persp_fovy",
    "Cglm.C61_persp_aspect",
    "Cglm.C61_persp_sizes",
    "Cglm.C61_quat_identity",
    "Cglm.C61_quat_init",
    "Cglm.C61_quatv",
    "Cglm.C61_quat",
    "Cglm.C61_quat_norm",
    "Cglm.C61_quat_normalize",
    "Cglm.C61_quat_dot",
    "Cglm.C61_quat_conjugate",
    "Cglm.C61_quat_inv",
    "Cglm.C61_quat_add",
    "Cglm.C61_quat_sub",
    "Cglm.C61_quat_imagn",
    "Cglm.C61_quat_imaglen",
    "Cglm.C61_quat_angle",
    "Cglm.C61_quat_axis",
    "Cglm.C61_quat_mul",
    "Cglm.C61_quat_mat4",
    "Cglm.C61_quat_mat4t",
    "Cglm.C61_quat_mat3",
    "Cglm.C61_quat_mat3t",
    "Cglm.C61_quat_lerp",
    "Cglm.C61_quat_lerpc",
    "Cglm.C61_quat_nlerp",
    "Cglm.C61_quat_slerp",
    "Cglm.C61_quat_slerp_longest",
    "Cglm.C61_quat_look",
    "Cglm.C61_quat_for",
    "Cglm.C61_quat_forp",
    "Cglm.C61_quat_rotatev",
    "Cglm.C61_quat_rotate",
    "Cglm.C61_quat_rotate_at",
    "Cglm.C61_quat_rotate_atm",
    "Cglm.C61_quat_make",
    "Cglm.C61_euler_angles",
    "Cglm.C61_euler_xyz",
    "Cglm.C61_euler_xzy",
    "Cglm.C61_euler_yxz",
    "Cglm.C61_euler_yzx",
    "Cglm.C61_euler_zxy",
    "Cglm.C61_euler_zyx",
    "Cglm.C61_euler_by_order",
    "Cglm.C61_euler_xyz_quat",
    "Cglm.C61_euler_xzy_quat",
    "Cglm.C61_euler_yxz_quat",
    "Cglm.C61_euler_yzx_quat",
    "Cglm.C61_euler_zxy_quat",
    "Cglm.C61_euler_zyx_quat",
    "Cglm.C61_unprojecti_zo",
    "Cglm.C61_project_zo",
    "Cglm.C61_project_z_zo",
    "Cglm.C61_unprojecti_no",
    "Cglm.C61_project_no",
    "Cglm.C61_project_z_no",
    "Cglm.C61_unprojecti",
    "Cglm.C61_unproject",
    "Cglm.C61_project",
    "Cglm.C61_project_z",
    "Cglm.C61_pickmatrix",
    "Cglm.C61_sphere_radii",
    "Cglm.C61_sphere_transform",
    "Cglm.C61_sphere_merge",
    "Cglm.C61_sphere_sphere",
    "Cglm.C61_sphere_point",
    "Cglm.C61_smc",
    "Cglm.C61_translate2d",
    "Cglm.C61_translate2d_x",
    "Cglm.C61_translate2d_y",
    "Cglm.C61_translate2d_make",
    "Cglm.C61_scale2d_make",
    "Cglm.C61_scale2d",
    "Cglm.C61_scale2d_uni",
    "Cglm.C61_rotate2d_make",
    "Cglm.C61_rotate2d",
    "Cglm.C61_rotate2d_to",
    "Cglm.C61_ray_triangle",
    "Cglm.C61_ray_sphere",
    "Cglm.C61_ray_at",
    "Cglm.C61_aabb2d_transform",
    "Cglm.C61_aabb2d_merge",
    "Cglm.C61_aabb2d_crop",
    "Cglm.C61_aabb2d_crop_until",
    "Cglm.C61_aabb2d_invalidate",
    "Cglm.C61_aabb2d_isvalid",
    "Cglm.C61_aabb2d_diag",
    "Cglm.C61_aabb2d_sizev",
    "Cglm.C61_aabb2d_center",
    "Cglm.C61_aabb2d_aabb",
    "Cglm.C61_aabb2d_circle",
    "Cglm.C61_aabb2d_point",
    "Cglm.C61_aabb2d_contains",
    "Cglm.C61_quat_from_vecs",
    "Cglm.I.C61_ivec2",
    "Cglm.I.C61_ivec2_zero",
    "Cglm.I.C61_ivec2_one",
    "Cglm.I.C61_ivec2_dot",
    "Cglm.I.C61_ivec2_cross",
    "Cglm.I.C61_ivec2_add",
    "Cglm.I.C61_ivec2_adds",
    "Cglm.I.C61_ivec2_sub",
    "Cglm.I.C61_ivec2_subs",
    "Cglm.I.C61_ivec2_mul",
    "Cglm.I.C61_ivec2_scale",
    "Cglm.I.C61_ivec2_div",
    "Cglm.I.C61_ivec2_divs",
    "Cglm.I.C61_ivec2_mod",
    "Cglm.I.C61_ivec2_addadd",
    "Cglm.I.C61_ivec2_addadds",
    "Cglm.I.C61_ivec2_subadd",
    "Cglm.I.C61_ivec2_subadds",
    "Cglm.I.C61_ivec2_muladd",
    "Cglm.I.C61_ivec2_muladds",
    "Cglm.I.C61_ivec2_maxadd",
    "Cglm.I.C61_ivec2_minadd",
    "Cglm.I.C61_ivec2_subsub",
    "Cglm.I.C61_ivec2_subsubs",
    "Cglm.I.C61_ivec2_addsub",
    "Cglm.I.C61_ivec2_addsubs",
    "Cglm.I.C61_ivec2_mulsub",
    "Cglm.I.C61_ivec2_mulsubs",
    "Cglm.I.C61_ivec2_maxsub",
    "Cglm.I.C61_ivec2_minsub",
    "Cglm.I.C61_ivec2_distance2",
    "Cglm.I.C61_ivec2_distance",
    "Cglm.I.C61_ivec2_fill",
    "Cglm.I.C61_ivec2_eq",
    "Cglm.I.C61_ivec2_eqv",
    "Cglm.I.C61_ivec2_maxv",
    "Cglm.I.C61_ivec2_minv",
    "Cglm.I.C61_ivec2_clamp",
    "Cglm.I.C61_ivec2_abs",
    "Cglm.I.C61_ivec3",
    "Cglm.I.C61_ivec3_zero",
    "Cglm.I.C61_ivec3_one",
    "Cglm.I.C61_ivec3_dot",
    "Cglm.I.C61_ivec3_norm2",
    "Cglm.I.C61_ivec3_norm",
    "Cglm.I.C61_ivec3_add",
    "Cglm.I.C61_ivec3_adds",
    "Cglm.I.C61_ivec3_sub",
    "Cglm.I.C61_ivec3_subs",
    "Cglm.I.C61_ivec3_mul",
    "Cglm.I.C61_ivec3_scale",
    "Cglm.I.C61_ivec3_div",
    "Cglm.I.C61_ivec3_divs",
    "Cglm.I.C61_ivec3_mod",
    "Cglm.I.C61_ivec3_addadd",
    "Cglm.I.C61_ivec3_addadds",
    "Cglm.I.C61_ivec3_subadd",
    "Cglm.I.C61_ivec3_subadds",
    "Cglm.I.C61_ivec3_muladd",
    "Cglm.I.C61_ivec3_muladds",
    "Cglm.I.C61_ivec3_maxadd",
    "Cglm.I.C61_ivec3_minadd",
    "Cglm.I.C61_ivec3_subsub",
    "Cglm.I.C61_ivec3_subsubs",
    "Cglm.I.C61_ivec3_addsub",
    "Cglm.I.C61_ivec3_addsubs",
    "Cglm.I.C61_ivec3_mulsub",
    "Cglm.I.C61_ivec3_mulsubs",
    "Cglm.I.C61_ivec3_maxsub",
    "Cglm.I.C61_ivec3_minsub",
    "Cglm.I.C61_ivec3_distance2",
    "Cglm.I.C61_ivec3_distance",
    "Cglm.I.C61_ivec3_fill",
    "Cglm.I.C61_ivec3_eq",
    "Cglm.I.C61_ivec3_eqv",
    "Cglm.I.C61_ivec3_maxv",
    "Cglm.I.C61_ivec3_minv",
    "Cglm.I.C61_ivec3_clamp",
    "Cglm.I.C61_ivec3_abs",
    "Cglm.I.C61_ivec4",
    "Cglm.I.C61_ivec4_zero",
    "Cglm.I.C61_ivec4_one",
    "Cglm.I.C61_ivec4_add",
    "Cglm.I.C61_ivec4_adds",
    "Cglm.I.C61_ivec4_sub",
    "Cglm.I.C61_ivec4_subs",
    "Cglm.I.C61_ivec4_mul",
    "Cglm.I.C61_ivec4_scale",
    "Cglm.I.C61_ivec4_addadd",
    "Cglm.I.C61_ivec4_addadds",
    "Cglm.I.C61_ivec4_subadd",
    "Cglm.I.C61_ivec4_subadds",
    "Cglm.I.C61_ivec4_muladd",
    "Cglm.I.C61_ivec4_muladds",
    "Cglm.I.C61_ivec4_maxadd",
    "Cglm.I.C61_ivec4_minadd",
    "Cglm.I.C61_ivec4_subsub",
    "Cglm.I.C61_ivec4_subsubs",
    "Cglm.I.C61_ivec4_addsub",
    "Cglm.I.C61_ivec4_addsubs",
    "Cglm.I.C61_ivec4_mulsub",
    "Cglm.I.C61_ivec4_mulsubs",
    "Cglm.I.C61_ivec4_maxsub",
    "Cglm.I.C61_ivec4_minsub",
    "Cglm.I.C61_ivec4_distance2",
    "Cglm.I.C61_ivec4_distance",
    "Cglm.I.C61_ivec4_maxv",
    "Cglm.I.C61_ivec4_minv",
    "Cglm.I.C61_ivec4_clamp",
    "Cglm.I.C61_ivec4_abs",
    "Cglm.C61_mat2_swap_col",
    "Cglm.C61_mat2_swap_row",
    "Cglm.C61_mat3_swap_col",
    "Cglm.C61_mat3_swap_row",
    "Cglm.C61_mat4_swap_col",
    "Cglm.C61_mat4_swap_row",
    "Cglm.C61_vec3_swizzle",
    "Cglm.C61_vec4_swizzle",
    "Cglm.C61_mat2_identity_array",
    "Cglm.C61_mat3_identity_array",
    "Cglm.C61_mat4_identity_array",
    "Cglm.C61_quat_identity_array",
    "Cglm.C61_vec2_pack",
    "Cglm.C61_vec2_pack_overrun",
    "Cglm.C61_vec2_unpack",
    "Cglm.C61_vec2_unpack_overrun",
    "Cglm.C61_vec3_pack",
    "Cglm.C61_vec3_pack_overrun",
    "Cglm.C61_vec3_unpack",
    "Cglm.C61_vec3_unpack_overrun",
    "Cglm.C61_vec4_pack",
    "Cglm.C61_vec4_pack_overrun",
    "Cglm.C61_vec4_unpack",
    "Cglm.C61_vec4_unpack_overrun",
    "Cglm.C61_frustum_corners_at_refuted",
    "Cglm.C61_mat4_mulN",
    "Cglm.C61_mat4_mulN_eq",
    "Cglm.C61_pickmatrix_defined",
    "Cglm.C61_pickmatrix_indeterminate",
    "Cglm.C61_euler_by_order_defined",
    "Cglm.C61_euler_by_order_indeterminate"
   ],
   "note": "Every struct wrapper equals its array function for every scalar type, except: glms_frustum_corners_at overruns its arrays on every call (C61_frustum_corners_at_refuted); glms_pickmatrix and glms_euler_by_order return an indeterminate value for an empty region or an unknown order; glms_perspective_resize takes its arguments in the other order; glms_mat4_mulN agrees in exact arithmetic for two or more matrices."
  },
  {
   "property": "C62",
   "status": "proved",
   "theorems": [
    "Cglm.C62_mat2_swap_col",
    "Cglm.C62_mat2_swap_row",
    "Cglm.C62_mat3_swap_col",
    "Cglm.C62_mat3_swap_row",
    "Cglm.C62_mat4_swap_col",
    "Cglm.C62_mat4_swap_row",
    "Cglm.C62_vec2_swizzle",
    "Cglm.C62_vec3_swizzle",
    "Cglm.C62_vec4_swizzle",
    "Cglm.C62_mat2_identity_array",
    "Cglm.C62_mat3_identity_array",
    "Cglm.C62_mat4_identity_array",
    "Cglm.C62_quat_identity_array",
    "Cglm.C62_mat4_mulN",
    "Cglm.C62_decasteljau",
    "Cglm.C62_aabb2d_zero",
    "Cglm.C62_aabb2d_copy",
    "Cglm.C62_aabb2d_transform",
    "Cglm.C62_aabb2d_merge",
    "Cglm.C62_aabb2d_crop",
    "Cglm.C62_aabb2d_crop_until",
    "Cglm.C62_aabb2d_invalidate",
    "Cglm.C62_aabb2d_isvalid",
    "Cglm.C62_aabb2d_diag",
    "Cglm.C62_aabb2d_sizev",
    "Cglm.C62_aabb2d_radius",
    "Cglm.C62_aabb2d_center",
    "Cglm.C62_aabb2d_aabb",
    "Cglm.C62_aabb2d_point",
    "Cglm.C62_aabb2d_contains",
    "Cglm.C62_aabb2d_circle",
    "Cglm.C62_translate_make",
    "Cglm.C62_translate_to",
    "Cglm.C62_translate",
    "Cglm.C62_translate_x",
    "Cglm.C62_translate_y",
    "Cglm.C62_translate_z",
    "Cglm.C62_scale_make",
    "Cglm.C62_scale_to",
    "Cglm.C62_scale",
    "Cglm.C62_scale_uni",
    "Cglm.C62_rotate_x",
    "Cglm.C62_rotate_y",
    "Cglm.C62_rotate_z",
    "Cglm.C62_rotate_make",
    "Cglm.C62_rotate",
    "Cglm.C62_rotate_at",
    "Cglm.C62_rotate_atm",
    "Cglm.C62_spin",
    "Cglm.C62_decompose_scalev",
    "Cglm.C62_uniscaled",
    "Cglm.C62_decompose_rs",
    "Cglm.C62_translated",
    "Cglm.C62_translated_to",
    "Cglm.C62_translated_x",
    "Cglm.C62_translated_y",
    "Cglm.C62_translated_z",
    "Cglm.C62_rotated_x",
    "Cglm.C62_rotated_y",
    "Cglm.C62_rotated_z",
    "Cglm.C62_rotated",
    "Cglm.C62_rotated_at",
    "Cglm.C62_spinned",
    "Cglm.C62_decompose",
    "Cglm.C62_mul",
    "Cglm.C62_mul_rot",
    "Cglm.C62_inv_tr",
    "Cglm.C62_translate2d_make",
    "Cglm.C62_translate2d_to",
    "Cglm.C62_translate2d",
    "Cglm.C62_translate2d_x",
    "Cglm.C62_translate2d_y",
    "Cglm.C62_scale2d_to",
    "Cglm.C62_scale2d_make",
    "Cglm.C62_scale2d",
    "Cglm.C62_scale2d_uni",
    "Cglm.C62_rotate2d_make",
    "Cglm.C62_rotate2d",
    "Cglm.C62_rotate2d_to",
    "Cglm.C62_bezier",
    "Cglm.C62_hermite",
    "Cglm.C62_aabb_transform",
    "Cglm.C62_aabb_merge",
    "Cglm.C62_aabb_crop",
    "Cglm.C62_aabb_crop_until",
    "Cglm.C62_aabb_frustum",
    "Cglm.C62_aabb_invalidate",
    "Cglm.C62_aabb_isvalid",
    "Cglm.C62_aabb_size",
    "Cglm.C62_aabb_radius",
    "Cglm.C62_aabb_center",
    "Cglm.C62_aabb_aabb",
    "Cglm.C62_aabb_point",
    "Cglm.C62_aabb_contains",
    "Cglm.C62_aabb_sphere",
    "Cglm.C62_frustum",
    "Cglm.C62_ortho",
    "Cglm.C62_ortho_aabb",
    "Cglm.C62_ortho_aabb_p",
    "Cglm.C62_ortho_aabb_pz",
    "Cglm.C62_ortho_default",
    "Cglm.C62_ortho_default_s",
    "Cglm.C62_perspective",
    "Cglm.C62_persp_move_far",
    "Cglm.C62_perspective_default",
    "Cglm.C62_perspective_resize",
    "Cglm.C62_lookat",
    "Cglm.C62_look",
    "Cglm.C62_look_anyup",
    "Cglm.C62_persp_decomp",
    "Cglm.C62_persp_decompv",
    "Cglm.C62_persp_decomp_x",
    "Cglm.C62_persp_decomp_y",
    "Cglm.C62_persp_decomp_z",
    "Cglm.C62_persp_decomp_far",
    "Cglm.C62_persp_decomp_near",
    "Cglm.C62_persp_fovy",
    "Cglm.C62_persp_aspect",
    "Cglm.C62_persp_sizes",
    "Cglm.C62_smc",
    "Cglm.C62_ease_linear",
    "Cglm.C62_ease_sine_in",
    "Cglm.C62_ease_sine_out",
    "Cglm.C62_ease_sine_inout",
    "Cglm.C62_ease_quad_in",
    "Cglm.C62_ease_quad_out",
    "Cglm.C62_ease_quad_inout",
    "Cglm.C62_ease_cubic_in",
    "Cglm.C62_ease_cubic_out",
    "Cglm.C62_ease_cubic_inout",
    "Cglm.C62_ease_quart_in",
    "Cglm.C62_ease_quart_out",
    "Cglm.C62_ease_quart_inout",
    "Cglm.C62_ease_quint_in",
    "Cglm.C62_ease_quint_out",
    "Cglm.C62_ease_quint_inout",
    "Cglm.C62_ease_exp_in",
    "Cglm.C62_ease_exp_out",
    "Cglm.C62_ease_exp_inout",
    "Cglm.C62_ease_circ_in",
    "Cglm.C62_ease_circ_out",
    "Cglm.C62_ease_circ_inout",
    "Cglm.C62_ease_back_in",
    "Cglm.C62_ease_back_out",
    "Cglm.C62_ease_back_inout",
    "Cglm.C62_ease_elast_in",
    "Cglm.C62_ease_elast_out",
    "Cglm.C62_ease_elast_inout",
    "Cglm.C62_ease_bounce_out",
    "Cglm.C62_ease_bounce_in",
    "Cglm.C62_ease_bounce_inout",
    "Cglm.C62_euler_angles",
    "Cglm.C62_euler",
    "Cglm.C62_euler_xyz",
    "Cglm.C62_euler_zyx",
    "Cglm.C62_euler_zxy",
    "Cglm.C62_euler_xzy",
    "Cglm.C62_euler_yzx",
    "Cglm.C62_euler_yxz",
    "Cglm.C62_euler_by_order",
    "Cglm.C62_euler_xyz_quat",
    "Cglm.C62_euler_xzy_quat",
    "Cglm.C62_euler_yxz_quat",
    "Cglm.C62_euler_yzx_quat",
    "Cglm.C62_euler_zxy_quat",
    "Cglm.C62_euler_zyx_quat",
    "Cglm.C62_frustum_planes",
    "Cglm.C62_frustum_corners",
    "Cglm.C62_frustum_center",
    "Cglm.C62_frustum_box",
    "Cglm.C62_frustum_corners_at",
    "Cglm.C62_mat2_make",
    "Cglm.C62_mat2_copy",
    "Cglm.C62_mat2_identity",
    "Cglm.C62_mat2_zero",
    "Cglm.C62_mat2_mul",
    "Cglm.C62_mat2_mulv",
    "Cglm.C62_mat2_transpose_to",
    "Cglm.C62_mat2_transpose",
    "Cglm.C62_mat2_scale",
    "Cglm.C62_mat2_inv",
    "Cglm.C62_mat2_det",
    "Cglm.C62_mat2_trace",
    "Cglm.C62_mat2_rmc",
    "Cglm.C62_mat2x3_copy",
    "Cglm.C62_mat2x3_zero",
    "Cglm.C62_mat2x3_make",
    "Cglm.C62_mat2x3_mul",
    "Cglm.C62_mat2x3_mulv",
    "Cglm.C62_mat2x3_transpose",
    "Cglm.C62_mat2x3_scale",
    "Cglm.C62_mat2x4_copy",
    "Cglm.C62_mat2x4_zero",
    "Cglm.C62_mat2x4_make",
    "Cglm.C62_mat2x4_mul",
    "Cglm.C62_mat2x4_mulv",
    "Cglm.C62_mat2x4_transpose",
    "Cglm.C62_mat2x4_scale",
    "Cglm.C62_mat3_copy",
    "Cglm.C62_mat3_identity",
    "Cglm.C62_mat3_zero",
    "Cglm.C62_mat3_mul",
    "Cglm.C62_mat3_transpose_to",
    "Cglm.C62_mat3_transpose",
    "Cglm.C62_mat3_mulv",
    "Cglm.C62_mat3_trace",
    "Cglm.C62_mat3_quat",
    "Cglm.C62_mat3_scale",
    "Cglm.C62_mat3_det",
    "Cglm.C62_mat3_inv",
    "Cglm.C62_mat3_rmc",
    "Cglm.C62_mat3_make",
    "Cglm.C62_mat3_textrans",
    "Cglm.C62_mat3x2_copy",
    "Cglm.C62_mat3x2_zero",
    "Cglm.C62_mat3x2_make",
    "Cglm.C62_mat3x2_mul",
    "Cglm.C62_mat3x2_mulv",
    "Cglm.C62_mat3x2_transpose",
    "Cglm.C62_mat3x2_scale",
    "Cglm.C62_mat3x4_copy",
    "Cglm.C62_mat3x4_zero",
    "Cglm.C62_mat3x4_make",
    "Cglm.C62_mat3x4_mul",
    "Cglm.C62_mat3x4_mulv",
    "Cglm.C62_mat3x4_transpose",
    "Cglm.C62_mat3x4_scale",
    "Cglm.C62_mat4_ucopy",
    "Cglm.C62_mat4_copy",
    "Cglm.C62_mat4_identity",
    "Cglm.C62_mat4_zero",
    "Cglm.C62_mat4_pick3",
    "Cglm.C62_mat4_pick3t",
    "Cglm.C62_mat4_ins3",
    "Cglm.C62_mat4_mul",
    "Cglm.C62_mat4_mulv",
    "Cglm.C62_mat4_mulv3",
    "Cglm.C62_mat4_trace",
    "Cglm.C62_mat4_trace3",
    "Cglm.C62_mat4_quat",
    "Cglm.C62_mat4_transpose_to",
    "Cglm.C62_mat4_transpose",
    "Cglm.C62_mat4_scale_p",
    "Cglm.C62_mat4_scale",
    "Cglm.C62_mat4_det",
    "Cglm.C62_mat4_inv",
    "Cglm.C62_mat4_inv_precise",
    "Cglm.C62_mat4_inv_fast",
    "Cglm.C62_mat4_rmc",
    "Cglm.C62_mat4_make",
    "Cglm.C62_mat4_textrans",
    "Cglm.C62_mat4x2_copy",
    "Cglm.C62_mat4x2_zero",
    "Cglm.C62_mat4x2_make",
    "Cglm.C62_mat4x2_mul",
    "Cglm.C62_mat4x2_mulv",
    "Cglm.C62_mat4x2_transpose",
    "Cglm.C62_mat4x2_scale",
    "Cglm.C62_mat4x3_copy",
    "Cglm.C62_mat4x3_zero",
    "Cglm.C62_mat4x3_make",
    "Cglm.C62_mat4x3_mul",
    "Cglm.C62_mat4x3_mulv",
    "Cglm.C62_mat4x3_transpose",
    "Cglm.C62_mat4x3_scale",
    "Cglm.C62_perlin_vec4",
    "Cglm.C62_perlin_vec3",
    "Cglm.C62_perlin_vec2",
    "Cglm.C62_plane_normalize",
    "Cglm.C62_unprojecti",
    "Cglm.C62_unproject",
    "Cglm.C62_project",
    "Cglm.C62_project_z",
    "Cglm.C62_pickmatrix",
    "Cglm.C62_quat_identity",
    "Cglm.C62_quat_init",
    "Cglm.C62_quat",
    "Cglm.C62_quatv",
    "Cglm.C62_quat_copy",
    "Cglm.C62_quat_norm",
    "Cglm.C62_quat_normalize_to",
    "Cglm.C62_quat_normalize",
    "Cglm.C62_quat_dot",
    "Cglm.C62_quat_conjugate",
    "Cglm.C62_quat_inv",
    "Cglm.C62_quat_add",
    "Cglm.C62_quat_sub",
    "Cglm.C62_quat_real",
    "Cglm.C62_quat_imag",
    "Cglm.C62_quat_imagn",
    "Cglm.C62_quat_imaglen",
    "Cglm.C62_quat_angle",
    "Cglm.C62_quat_axis",
    "Cglm.C62_quat_mul",
    "Cglm.C62_quat_mat4",
    "Cglm.C62_quat_mat4t",
    "Cglm.C62_quat_mat3",
    "Cglm.C62_quat_mat3t",
    "Cglm.C62_quat_lerp",
    "Cglm.C62_quat_lerpc",
    "Cglm.C62_quat_nlerp",
    "Cglm.C62_quat_slerp",
    "Cglm.C62_quat_slerp_longest",
    "Cglm.C62_quat_look",
    "Cglm.C62_quat_for",
    "Cglm.C62_quat_forp",
    "Cglm.C62_quat_rotatev",
    "Cglm.C62_quat_rotate",
    "Cglm.C62_quat_rotate_at",
    "Cglm.C62_quat_rotate_atm",
    "Cglm.C62_quat_make",
    "Cglm.C62_ray_triangle",
    "Cglm.C62_ray_sphere",
    "Cglm.C62_ray_at",
    "Cglm.C62_sphere_radii",
    "Cglm.C62_sphere_transform",
    "Cglm.C62_sphere_merge",
    "Cglm.C62_sphere_sphere",
    "Cglm.C62_sphere_point",
    "Cglm.C62_vec2",
    "Cglm.C62_vec2_fill",
    "Cglm.C62_vec2_eq",
    "Cglm.C62_vec2_eqv",
    "Cglm.C62_vec2_copy",
    "Cglm.C62_vec2_zero",
    "Cglm.C62_vec2_one",
    "Cglm.C62_vec2_dot",
    "Cglm.C62_vec2_cross",
    "Cglm.C62_vec2_norm2",
    "Cglm.C62_vec2_norm",
    "Cglm.C62_vec2_add",
    "Cglm.C62_vec2_adds",
    "Cglm.C62_vec2_sub",
    "Cglm.C62_vec2_subs",
    "Cglm.C62_vec2_mul",
    "Cglm.C62_vec2_scale",
    "Cglm.C62_vec2_scale_as",
    "Cglm.C62_vec2_div",
    "Cglm.C62_vec2_divs",
    "Cglm.C62_vec2_addadd",
    "Cglm.C62_vec2_subadd",
    "Cglm.C62_vec2_muladd",
    "Cglm.C62_vec2_muladds",
    "Cglm.C62_vec2_maxadd",
    "Cglm.C62_vec2_minadd",
    "Cglm.C62_vec2_subsub",
    "Cglm.C62_vec2_addsub",
    "Cglm.C62_vec2_mulsub",
    "Cglm.C62_vec2_mulsubs",
    "Cglm.C62_vec2_maxsub",
    "Cglm.C62_vec2_minsub",
    "Cglm.C62_vec2_negate_to",
    "Cglm.C62_vec2_negate",
    "Cglm.C62_vec2_normalize",
    "Cglm.C62_vec2_normalize_to",
    "Cglm.C62_vec2_rotate",
    "Cglm.C62_vec2_center",
    "Cglm.C62_vec2_distance2",
    "Cglm.C62_vec2_distance",
    "Cglm.C62_vec2_maxv",
    "Cglm.C62_vec2_minv",
    "Cglm.C62_vec2_clamp",
    "Cglm.C62_vec2_abs",
    "Cglm.C62_vec2_fract",
    "Cglm.C62_vec2_floor",
    "Cglm.C62_vec2_mods",
    "Cglm.C62_vec2_step",
    "Cglm.C62_vec2_steps",
    "Cglm.C62_vec2_stepr",
    "Cglm.C62_vec2_lerp",
    "Cglm.C62_vec2_complex_mul",
    "Cglm.C62_vec2_complex_div",
    "Cglm.C62_vec2_complex_conjugate",
    "Cglm.C62_vec2_make",
    "Cglm.C62_vec2_reflect",
    "Cglm.C62_vec2_refract",
    "Cglm.C62_vec3",
    "Cglm.C62_vec3_copy",
    "Cglm.C62_vec3_zero",
    "Cglm.C62_vec3_one",
    "Cglm.C62_vec3_dot",
    "Cglm.C62_vec3_cross",
    "Cglm.C62_vec3_crossn",
    "Cglm.C62_vec3_norm",
    "Cglm.C62_vec3_normalize_to",
    "Cglm.C62_vec3_normalize",
    "Cglm.C62_vec3_norm2",
    "Cglm.C62_vec3_norm_one",
    "Cglm.C62_vec3_norm_inf",
    "Cglm.C62_vec3_add",
    "Cglm.C62_vec3_adds",
    "Cglm.C62_vec3_sub",
    "Cglm.C62_vec3_subs",
    "Cglm.C62_vec3_mul",
    "Cglm.C62_vec3_scale",
    "Cglm.C62_vec3_scale_as",
    "Cglm.C62_vec3_div",
    "Cglm.C62_vec3_divs",
    "Cglm.C62_vec3_addadd",
    "Cglm.C62_vec3_subadd",
    "Cglm.C62_vec3_muladd",
    "Cglm.C62_vec3_muladds",
    "Cglm.C62_vec3_maxadd",
    "Cglm.C62_vec3_minadd",
    "Cglm.C62_vec3_subsub",
    "Cglm.C62_vec3_addsub",
    "Cglm.C62_vec3_mulsub",
    "Cglm.C62_vec3_mulsubs",
    "Cglm.C62_vec3_maxsub",
    "Cglm.C62_vec3_minsub",
    "Cglm.C62_vec3_negate",
    "Cglm.C62_vec3_negate_to",
    "Cglm.C62_vec3_angle",
    "Cglm.C62_vec3_rotate",
    "Cglm.C62_vec3_rotate_m4",
    "Cglm.C62_vec3_rotate_m3",
    "Cglm.C62_vec3_proj",
    "Cglm.C62_vec3_center",
    "Cglm.C62_vec3_distance",
    "Cglm.C62_vec3_distance2",
    "Cglm.C62_vec3_maxv",
    "Cglm.C62_vec3_minv",
    "Cglm.C62_vec3_clamp",
    "Cglm.C62_vec3_ortho",
    "Cglm.C62_vec3_lerp",
    "Cglm.C62_vec3_lerpc",
    "Cglm.C62_vec3_step",
    "Cglm.C62_vec3_smoothstep_uni",
    "Cglm.C62_vec3_smoothstep",
    "Cglm.C62_vec3_smoothinterp",
    "Cglm.C62_vec3_smoothinterpc",
    "Cglm.C62_vec3_mulv",
    "Cglm.C62_vec3_broadcast",
    "Cglm.C62_vec3_fill",
    "Cglm.C62_vec3_eq",
    "Cglm.C62_vec3_eq_eps",
    "Cglm.C62_vec3_eq_all",
    "Cglm.C62_vec3_eqv",
    "Cglm.C62_vec3_eqv_eps",
    "Cglm.C62_vec3_max",
    "Cglm.C62_vec3_min",
    "Cglm.C62_vec3_isnan",
    "Cglm.C62_vec3_isinf",
    "Cglm.C62_vec3_isvalid",
    "Cglm.C62_vec3_sign",
    "Cglm.C62_vec3_abs",
    "Cglm.C62_vec3_fract",
    "Cglm.C62_vec3_floor",
    "Cglm.C62_vec3_mods",
    "Cglm.C62_vec3_steps",
    "Cglm.C62_vec3_stepr",
    "Cglm.C62_vec3_hadd",
    "Cglm.C62_vec3_sqrt",
    "Cglm.C62_vec3_make",
    "Cglm.C62_vec3_faceforward",
    "Cglm.C62_vec3_reflect",
    "Cglm.C62_vec3_refract",
    "Cglm.C62_vec4",
    "Cglm.C62_vec4_zero",
    "Cglm.C62_vec4_one",
    "Cglm.C62_vec4_copy3",
    "Cglm.C62_vec4_copy",
    "Cglm.C62_vec4_ucopy",
    "Cglm.C62_vec4_dot",
    "Cglm.C62_vec4_norm",
    "Cglm.C62_vec4_normalize_to",
    "Cglm.C62_vec4_normalize",
    "Cglm.C62_vec4_norm2",
    "Cglm.C62_vec4_norm_one",
    "Cglm.C62_vec4_norm_inf",
    "Cglm.C62_vec4_add",
    "Cglm.C62_vec4_adds",
    "Cglm.C62_vec4_sub",
    "Cglm.C62_vec4_subs",
    "Cglm.C62_vec4_mul",
    "Cglm.C62_vec4_scale",
    "Cglm.C62_vec4_scale_as",
    "Cglm.C62_vec4_div",
    "Cglm.C62_vec4_divs",
    "Cglm.C62_vec4_addadd",
    "Cglm.C62_vec4_subadd",
    "Cglm.C62_vec4_muladd",
    "Cglm.C62_vec4_muladds",
    "Cglm.C62_vec4_maxadd",
    "Cglm.C62_vec4_minadd",
    "Cglm.C62_vec4_subsub",
    "Cglm.C62_vec4_addsub",
    "Cglm.C62_vec4_mulsub",
    "Cglm.C62_vec4_mulsubs",
    "Cglm.C62_vec4_maxsub",
    "Cglm.C62_vec4_minsub",
    "Cglm.C62_vec4_negate",
    "Cglm.C62_vec4_negate_to",
    "Cglm.C62_vec4_distance",
    "Cglm.C62_vec4_distance2",
    "Cglm.C62_vec4_maxv",
    "Cglm.C62_vec4_minv",
    "Cglm.C62_vec4_clamp",
    "Cglm.C62_vec4_lerp",
    "Cglm.C62_vec4_lerpc",
    "Cglm.C62_vec4_step",
    "Cglm.C62_vec4_smoothstep_uni",
    "Cglm.C62_vec4_smoothstep",
    "Cglm.C62_vec4_smoothinterp",
    "Cglm.C62_vec4_smoothinterpc",
    "Cglm.C62_vec4_cubic",
    "Cglm.C62_vec4_mulv",
    "Cglm.C62_vec4_broadcast",
    "Cglm.C62_vec4_fill",
    "Cglm.C62_vec4_eq",
    "Cglm.C62_vec4_eq_eps",
    "Cglm.C62_vec4_eq_all",
    "Cglm.C62_vec4_eqv",
    "Cglm.C62_vec4_eqv_eps",
    "Cglm.C62_vec4_max",
    "Cglm.C62_vec4_min",
    "Cglm.C62_vec4_isnan",
    "Cglm.C62_vec4_isinf",
    "Cglm.C62_vec4_isvalid",
    "Cglm.C62_vec4_sign",
    "Cglm.C62_vec4_abs",
    "Cglm.C62_vec4_fract",
    "Cglm.C62_vec4_floor",
    "Cglm.C62_vec4_mods",
    "Cglm.C62_vec4_steps",
    "Cglm.C62_vec4_stepr",
    "Cglm.C62_vec4_hadd",
    "Cglm.C62_vec4_sqrt",
    "Cglm.C62_vec4_make",
    "Cglm.C62_vec4_reflect",
    "Cglm.C62_vec4_refract",
    "Cglm.C62_ortho_lh_no",
    "Cglm.C62_ortho_aabb_lh_no",
    "Cglm.C62_ortho_aabb_p_lh_no",
    "Cglm.C62_ortho_aabb_pz_lh_no",
    "Cglm.C62_ortho_default_lh_no",
    "Cglm.C62_ortho_default_s_lh_no",
    "Cglm.C62_ortho_lh_zo",
    "Cglm.C62_ortho_aabb_lh_zo",
    "Cglm.C62_ortho_aabb_p_lh_zo",
    "Cglm.C62_ortho_aabb_pz_lh_zo",
    "Cglm.C62_ortho_default_lh_zo",
    "Cglm.C62_ortho_default_s_lh_zo",
    "Cglm.C62_ortho_rh_no",
    "Cglm.C62_ortho_aabb_rh_no",
    "Cglm.C62_ortho_aabb_p_rh_no",
    "Cglm.C62_ortho_aabb_pz_rh_no",
    "Cglm.C62_ortho_default_rh_no",
    "Cglm.C62_ortho_default_s_rh_no",
    "Cglm.C62_ortho_rh_zo",
    "Cglm.C62_ortho_aabb_rh_zo",
    "Cglm.C62_ortho_aabb_p_rh_zo",
    "Cglm.C62_ortho_aabb_pz_rh_zo",
    "Cglm.C62_ortho_default_rh_zo",
    "Cglm.C62_ortho_default_s_rh_zo",
    "Cglm.C62_frustum_lh_no",
    "Cglm.C62_perspective_lh_no",
    "Cglm.C62_persp_move_far_lh_no",
    "Cglm.C62_persp_decomp_lh_no",
    "Cglm.C62_persp_decompv_lh_no",
    "Cglm.C62_persp_decomp_x_lh_no",
    "Cglm.C62_persp_decomp_y_lh_no",
    "Cglm.C62_persp_decomp_z_lh_no",
    "Cglm.C62_persp_decomp_far_lh_no",
    "Cglm.C62_persp_decomp_near_lh_no",
    "Cglm.C62_persp_sizes_lh_no",
    "Cglm.C62_persp_fovy_lh_no",
    "Cglm.C62_persp_aspect_lh_no",
    "Cglm.C62_frustum_lh_zo",
    "Cglm.C62_perspective_lh_zo",
    "Cglm.C62_persp_move_far_lh_zo",
    "Cglm.C62_persp_decomp_lh_zo",
    "Cglm.C62_persp_decompv_lh_zo",
    "Cglm.C62_persp_decomp_x_lh_zo",
    "Cglm.C62_persp_decomp_y_lh_zo",
    "Cglm.C62_persp_decomp_z_lh_zo",
    "Cglm.C62_persp_decomp_far_lh_zo",
    "Cglm.C62_persp_decomp_near_lh_zo",
    "Cglm.C62_persp_sizes_lh_zo",
    "Cglm.C62_persp_fovy_lh_zo",
    "Cglm.C62_persp_aspect_lh_zo",
    "Cglm.C62_frustum_rh_no",
    "Cglm.C62_perspective_rh_no",
    "Cglm.C62_persp_move_far_rh_no",
    "Cglm.C62_persp_decomp_rh_no",
    "Cglm.C62_persp_decompv_rh_no",
    "Cglm.C62_persp_decomp_x_rh_no",
    "Cglm.C62_persp_decomp_y_rh_no",
    "Cglm.C62_persp_decomp_z_rh_no",
    "Cglm.C62_persp_decomp_far_rh_no",
    "Cglm.C62_persp_decomp_near_rh_no",
    "Cglm.C62_persp_sizes_rh_no",
    "Cglm.C62_persp_fovy_rh_no",
    "Cglm.C62_persp_aspect_rh_no",
    "Cglm.C62_frustum_rh_zo",
    "Cglm.C62_perspective_rh_zo",
    "Cglm.C62_persp_move_far_rh_zo",
    "Cglm.C62_persp_decomp_rh_zo",
    "Cglm.C62_persp_decompv_rh_zo",
    "Cglm.C62_persp_decomp_x_rh_zo",
    "Cglm.C62_persp_decomp_y_rh_zo",
    "Cglm.C62_persp_decomp_z_rh_zo",
    "Cglm.C62_persp_decomp_far_rh_zo",
    "Cglm.C62_persp_decomp_near_rh_zo",
    "Cglm.C62_persp_sizes_rh_zo",
    "Cglm.C62_persp_fovy_rh_zo",
    "Cglm.C62_persp_aspect_rh_zo",
    "Cglm.C62_unprojecti_no",
    "Cglm.C62_project_no",
    "Cglm.C62_project_z_no",
    "Cglm.C62_unprojecti_zo",
    "Cglm.C62_project_zo",
    "Cglm.C62_project_z_zo",
    "Cglm.C62_lookat_lh_no",
    "Cglm.C62_look_lh_no",
    "Cglm.C62_look_anyup_lh_no",
    "Cglm.C62_lookat_lh_zo",
    "Cglm.C62_look_lh_zo",
    "Cglm.C62_look_anyup_lh_zo",
    "Cglm.C62_lookat_rh_no",
    "Cglm.C62_look_rh_no",
    "Cglm.C62_look_anyup_rh_no",
    "Cglm.C62_lookat_rh_zo",
    "Cglm.C62_look_rh_zo",
    "Cglm.C62_look_anyup_rh_zo",
    "Cglm.C62_quat_from_vecs",
    "Cglm.I.C62_ivec2",
    "Cglm.I.C62_ivec2_copy",
    "Cglm.I.C62_ivec2_zero",
    "Cglm.I.C62_ivec2_one",
    "Cglm.I.C62_ivec2_dot",
    "Cglm.I.C62_ivec2_cross",
    "Cglm.I.C62_ivec2_add",
    "Cglm.I.C62_ivec2_adds",
    "Cglm.I.C62_ivec2_sub",
    "Cglm.I.C62_ivec2_subs",
    "Cglm.I.C62_ivec2_mul",
    "Cglm.I.C62_ivec2_scale",
    "Cglm.I.C62_ivec2_div",
    "Cglm.I.C62_ivec2_divs",
    "Cglm.I.C62_ivec2_mod",
    "Cglm.I.C62_ivec2_addadd",
    "Cglm.I.C62_ivec2_addadds",
    "Cglm.I.C62_ivec2_subadd",
    "Cglm.I.C62_ivec2_subadds",
    "Cglm.I.C62_ivec2_muladd",
    "Cglm.I.C62_ivec2_muladds",
    "Cglm.I.C62_ivec2_maxadd",
    "Cglm.I.C62_ivec2_minadd",
    "Cglm.I.C62_ivec2_subsub",
    "Cglm.I.C62_ivec2_subsubs",
    "Cglm.I.C62_ivec2_addsub",
    "Cglm.I.C62_ivec2_addsubs",
    "Cglm.I.C62_ivec2_mulsub",
    "Cglm.I.C62_ivec2_mulsubs",
    "Cglm.I.C62_ivec2_maxsub",
    "Cglm.I.C62_ivec2_minsub",
    "Cglm.I.C62_ivec2_distance2",
    "Cglm.I.C62_ivec2_distance",
    "Cglm.I.C62_ivec2_fill",
    "Cglm.I.C62_ivec2_eq",
    "Cglm.I.C62_ivec2_eqv",
    "Cglm.I.C62_ivec2_maxv",
    "Cglm.I.C62_ivec2_minv",
    "Cglm.I.C62_ivec2_clamp",
    "Cglm.I.C62_ivec2_abs",
    "Cglm.I.C62_ivec3",
    "Cglm.I.C62_ivec3_copy",
    "Cglm.I.C62_ivec3_zero",
    "Cglm.I.C62_ivec3_one",
    "Cglm.I.C62_ivec3_dot",
    "Cglm.I.C62_ivec3_norm2",
    "Cglm.I.C62_ivec3_norm",
    "Cglm.I.C62_ivec3_add",
    "Cglm.I.C62_ivec3_adds",
    "Cglm.I.C62_ivec3_sub",
    "Cglm.I.C62_ivec3_subs",
    "Cglm.I.C62_ivec3_mul",
    "Cglm.I.C62_ivec3_scale",
    "Cglm.I.C62_ivec3_div",
    "Cglm.I.C62_ivec3_divs",
    "Cglm.I.C62_ivec3_mod",
    "Cglm.I.C62_ivec3_addadd",
    "Cglm.I.C62_ivec3_addadds",
    "Cglm.I.C62_ivec3_subadd",
    "Cglm.I.C62_ivec3_subadds",
    "Cglm.I.C62_ivec3_muladd",
    "Cglm.I.C62_ivec3_muladds",
    "Cglm.I.C62_ivec3_maxadd",
    "Cglm.I.C62_ivec3_minadd",
    "Cglm.I.C62_ivec3_subsub",
    "Cglm.I.C62_ivec3_subsubs",
    "Cglm.I.C62_ivec3_addsub",
    "Cglm.I.C62_ivec3_addsubs",
    "Cglm.I.C62_ivec3_mulsub",
    "Cglm.I.C62_ivec3_mulsubs",
    "Cglm.I.C62_ivec3_maxsub",
    "Cglm.I.C62_ivec3_minsub",
    "Cglm.I.C62_ivec3_distance2",
    "Cglm.I.C62_ivec3_distance",
    "Cglm.I.C62_ivec3_fill",
    "Cglm.I.C62_ivec3_eq",
    "Cglm.I.C62_ivec3_eqv",
    "Cglm.I.C62_ivec3_maxv",
    "Cglm.I.C62_ivec3_minv",
    "Cglm.I.C62_ivec3_clamp",
    "Cglm.I.C62_ivec3_abs",
    "Cglm.I.C62_ivec4",
    "Cglm.I.C62_ivec4_copy",
    "Cglm.I.C62_ivec4_zero",
    "Cglm.I.C62_ivec4_one",
    "Cglm.I.C62_ivec4_add",
    "Cglm.I.C62_ivec4_adds",
    "Cglm.I.C62_ivec4_sub",
    "Cglm.I.C62_ivec4_subs",
    "Cglm.I.C62_ivec4_mul",
    "Cglm.I.C62_ivec4_scale",
    "Cglm.I.C62_ivec4_addadd",
    "Cglm.I.C62_ivec4_addadds",
    "Cglm.I.C62_ivec4_subadd",
    "Cglm.I.C62_ivec4_subadds",
    "Cglm.I.C62_ivec4_muladd",
    "Cglm.I.C62_ivec4_muladds",
    "Cglm.I.C62_ivec4_maxadd",
    "Cglm.I.C62_ivec4_minadd",
    "Cglm.I.C62_ivec4_subsub",
    "Cglm.I.C62_ivec4_subsubs",
    "Cglm.I.C62_ivec4_addsub",
    "Cglm.I.C62_ivec4_addsubs",
    "Cglm.I.C62_ivec4_mulsub",
    "Cglm.I.C62_ivec4_mulsubs",
    "Cglm.I.C62_ivec4_maxsub",
    "Cglm.I.C62_ivec4_minsub",
    "Cglm.I.C62_ivec4_distance2",
    "Cglm.I.C62_ivec4_distance",
    "Cglm.I.C62_ivec4_maxv",
    "Cglm.I.C62_ivec4_minv",
    "Cglm.I.C62_ivec4_clamp",
    "Cglm.I.C62_ivec4_abs"
   ],
   "note": "Every compiled-call wrapper equals the inline function it wraps, for every scalar type."
  },
  {
   "property": "C63",
   "status": "proved",
   "theorems": [
    "Cglm.C63_vec2",
    "Cglm.C63_vec3",
    "Cglm.C63_vec4",
    "Cglm.C63_period_vec2",
    "Cglm.C63_period_vec3",
    "Cglm.C63_period_vec4"
   ],
   "note": "Also: the noise repeats with period 289 along every axis."
  },
  {
   "property": "C64",
   "status": "proved",
   "theorems": [
    "Cglm.C64_vec2_dot",
    "Cglm.C64_vec2_norm2",
    "Cglm.C64_vec2_muladd",
    "Cglm.C64_vec2_muladds",
    "Cglm.C64_vec2_mulsub",
    "Cglm.C64_vec2_mulsubs",
    "Cglm.C64_vec2_addadd",
    "Cglm.C64_vec2_subadd",
    "Cglm.C64_vec2_addsub",
    "Cglm.C64_vec2_subsub",
    "Cglm.C64_vec2_distance2",
    "Cglm.C64_vec3_dot",
    "Cglm.C64_vec3_norm2",
    "Cglm.C64_vec3_muladd",
    "Cglm.C64_vec3_muladds",
    "Cglm.C64_vec3_mulsub",
    "Cglm.C64_vec3_mulsubs",
    "Cglm.C64_vec3_addadd",
    "Cglm.C64_vec3_subadd",
    "Cglm.C64_vec3_addsub",
    "Cglm.C64_vec3_subsub",
    "Cglm.C64_vec3_distance2",
    "Cglm.C64_vec4_dot",
    "Cglm.C64_vec4_norm2",
    "Cglm.C64_vec4_muladd",
    "Cglm.C64_vec4_muladds",
    "Cglm.C64_vec4_mulsub",
    "Cglm.C64_vec4_mulsubs",
    "Cglm.C64_vec4_addadd",
    "Cglm.C64_vec4_subadd",
    "Cglm.C64_vec4_addsub",
    "Cglm.C64_vec4_subsub",
    "Cglm.C64_vec4_distance2",
    "Cglm.C64_vec2_cross",
    "Cglm.C64_vec3_cross",
    "Cglm.C64_vec2_complex_mul",
    "Cglm.C64_quat_mul",
    "Cglm.C64_quat_dot",
    "Cglm.C64_lerp",
    "Cglm.C64_luminance",
    "Cglm.C64_vec3_lerp",
    "Cglm.C64_vec4_lerp",
    "Cglm.C64_vec2_dot_finite",
    "Cglm.C64_vec2_norm2_finite",
    "Cglm.C64_vec2_muladd_finite",
    "Cglm.C64_vec2_muladds_finite",
    "Cglm.C64_vec2_mulsub_finite",
    "Cglm.C64_vec2_mulsubs_finite",
    "Cglm.C64_vec2_addadd_finite",
    "Cglm.C64_vec2_subadd_finite",
    "Cglm.C64_vec2_addsub_finite",
    "Cglm.C64_vec2_subsub_finite",
    "Cglm.C64_vec2_distance2_finite",
    "Cglm.C64_mat2_mulv_finite",
    "Cglm.C64_mat2_mul_finite",
    "Cglm.C64_mat2_trace_finite",
    "Cglm.C64_vec3_dot_finite",
    "Cglm.C64_vec3_norm2_finite",
    "Cglm.C64_vec3_muladd_finite",
    "Cglm.C64_vec3_muladds_finite",
    "Cglm.C64_vec3_mulsub_finite",
    "Cglm.C64_vec3_mulsubs_finite",
    "Cglm.C64_vec3_addadd_finite",
    "Cglm.C64_vec3_subadd_finite",
    "Cglm.C64_vec3_addsub_finite",
    "Cglm.C64_vec3_subsub_finite",
    "Cglm.C64_vec3_distance2_finite",
    "Cglm.C64_mat3_mulv_finite",
    "Cglm.C64_mat3_mul_finite",
    "Cglm.C64_mat3_trace_finite",
    "Cglm.C64_vec4_dot_finite",
    "Cglm.C64_vec4_norm2_finite",
    "Cglm.C64_vec4_muladd_finite",
    "Cglm.C64_vec4_muladds_finite",
    "Cglm.C64_vec4_mulsub_finite",
    "Cglm.C64_vec4_mulsubs_finite",
    "Cglm.C64_vec4_addadd_finite",
    "Cglm.C64_vec4_subadd_finite",
    "Cglm.C64_vec4_addsub_finite",
    "Cglm.C64_vec4_subsub_finite",
    "Cglm.C64_vec4_distance2_finite",
    "Cglm.C64_mat4_mulv_finite",
    "Cglm.C64_mat4_mul_finite",
    "Cglm.C64_mat4_trace_finite",
    "Cglm.C64_vec2_cross_finite",
    "Cglm.C64_vec3_cross_finite",
    "Cglm.C64_vec2_complex_mul_finite",
    "Cglm.C64_quat_mul_finite",
    "Cglm.C64_quat_dot_finite",
    "Cglm.C64_mat2_det_finite",
    "Cglm.C64_mat2x3_mulv_finite",
    "Cglm.C64_mat2x4_mulv_finite",
    "Cglm.C64_mat3x2_mulv_finite",
    "Cglm.C64_mat3x4_mulv_finite",
    "Cglm.C64_mat4x2_mulv_finite",
    "Cglm.C64_mat4x3_mulv_finite",
    "Cglm.C64_mat2x3_mul_finite",
    "Cglm.C64_mat2x4_mul_finite",
    "Cglm.C64_mat3x2_mul_finite",
    "Cglm.C64_mat3x4_mul_finite",
    "Cglm.C64_mat4x2_mul_finite",
    "Cglm.C64_mat4x3_mul_finite",
    "Cglm.C64_mat4_mulv3_finite",
    "Cglm.C64_mul_finite",
    "Cglm.C64_mul_rot_finite",
    "Cglm.C64_translate_finite",
    "Cglm.C64_scale_to_finite",
    "Cglm.C64_lerp_finite",
    "Cglm.C64_luminance_finite",
    "Cglm.C64_vec3_lerp_finite",
    "Cglm.C64_vec4_lerp_finite",
    "Cglm.C64_mat2_mulv",
    "Cglm.C64_mat2_mul",
    "Cglm.C64_mat2_trace",
    "Cglm.C64_mat3_mulv",
    "Cglm.C64_mat3_mul",
    "Cglm.C64_mat3_trace",
    "Cglm.C64_mat4_mulv",
    "Cglm.C64_mat4_mul",
    "Cglm.C64_mat4_trace",
    "Cglm.C64_mat2_det",
    "Cglm.C64_mat2x3_mulv",
    "Cglm.C64_mat2x4_mulv",
    "Cglm.C64_mat3x2_mulv",
    "Cglm.C64_mat3x4_mulv",
    "Cglm.C64_mat4x2_mulv",
    "Cglm.C64_mat4x3_mulv",
    "Cglm.C64_mat2x3_mul",
    "Cglm.C64_mat2x4_mul",
    "Cglm.C64_mat3x2_mul",
    "Cglm.C64_mat3x4_mul",
    "Cglm.C64_mat4x2_mul",
    "Cglm.C64_mat4x3_mul",
    "Cglm.C64_mat4_mulv3",
    "Cglm.C64_mul",
    "Cglm.C64_mul_rot",
    "Cglm.C64_translate",
    "Cglm.C64_scale_to",
    "Cglm.C64_vec2_norm",
    "Cglm.C64_vec3_norm",
    "Cglm.C64_vec4_norm",
    "Cglm.C64_quat_norm",
    "Cglm.C64_vec2_normalize",
    "Cglm.C64_vec3_normalize",
    "Cglm.C64_vec4_normalize",
    "Cglm.C64_quat_normalize",
    "Cglm.C64_vec2_distance2_rel",
    "Cglm.C64_vec2_distance",
    "Cglm.C64_vec3_distance2_rel",
    "Cglm.C64_vec3_distance",
    "Cglm.C64_vec4_distance2_rel",
    "Cglm.C64_vec4_distance"
   ],
   "note": "In binary32, whenever a computed result is finite it is within gamma_n times the same expression over magnitudes, plus an explicit underflow term, of the exact result: dot products, norms, distances, cross and quaternion products, every matrix-vector and matrix-matrix product, lerp and the multiply-add family. No overflow for arguments up to 2^60. Normalisation is accurate to 8u per component and 9u in length."
  },
  {
   "property": "C65",
   "status": "partial",
   "theorems": [
    "Cglm.C65_min_nan_left",
    "Cglm.C65_min_nan_right",
    "Cglm.C65_max_nan_left",
    "Cglm.C65_max_nan_right",
    "Cglm.C65_min",
    "Cglm.C65_max",
    "Cglm.C65_clamp_range",
    "Cglm.C65_clamp_nan",
    "Cglm.C65_clamp_id",
    "Cglm.C65_clamp_idem",
    "Cglm.C65_clamp_zo_range",
    "Cglm.C65_clamp_zo_nan",
    "Cglm.C65_step_nan",
    "Cglm.C65_eq_nan",
    "Cglm.C65_eq_refl",
    "Cglm.C65_eq_inf",
    "Cglm.C65_lerp_zero",
    "Cglm.C65_lerp_zero_overflow",
    "Cglm.C65_lerp_zero_fails",
    "Cglm.C65_lerp_one_partial",
    "Cglm.C65_lerp_one_fails",
    "Cglm.C65_lerp_same",
    "Cglm.C65_lerp_mono",
    "Cglm.C65_smooth_range",
    "Cglm.C65_smoothstep_range",
    "Cglm.C65_percentc_range",
    "Cglm.C65_mat2_transpose_transpose",
    "Cglm.C65_mat2_transpose_mul",
    "Cglm.C65_mat2_mul_identity",
    "Cglm.C65_mat2_identity_mul",
    "Cglm.C65_mat2_identity_mulv",
    "Cglm.C65_mat2_identity_mulv_inf_fails",
    "Cglm.C65_mat3_transpose_transpose",
    "Cglm.C65_mat3_transpose_mul",
    "Cglm.C65_mat3_mul_identity",
    "Cglm.C65_mat3_identity_mul",
    "Cglm.C65_mat3_identity_mulv",
    "Cglm.C65_mat3_identity_mulv_inf_fails",
    "Cglm.C65_mat4_transpose_transpose",
    "Cglm.C65_mat4_transpose_mul",
    "Cglm.C65_mat4_mul_identity",
    "Cglm.C65_mat4_identity_mul",
    "Cglm.C65_mat4_identity_mulv",
    "Cglm.C65_mat4_identity_mulv_inf_fails",
    "Cglm.C65_mat2_mul_assoc_fails",
    "Cglm.C65_vec2_negate_negate",
    "Cglm.C65_vec2_dot_comm",
    "Cglm.C65_vec2_add_comm",
    "Cglm.C65_vec2_mul_comm",
    "Cglm.C65_vec2_distance2_comm",
    "Cglm.C65_vec2_distance_comm",
    "Cglm.C65_vec2_eqv_self",
    "Cglm.C65_vec2_eqv_eps_self",
    "Cglm.C65_vec2_eqv_zeros",
    "Cglm.C65_vec2_isvalid",
    "Cglm.C65_vec2_isnan",
    "Cglm.C65_vec2_clamp",
    "Cglm.C65_vec2_fract",
    "Cglm.C65_vec2_fract_nan",
    "Cglm.C65_vec2_normalize_overflow",
    "Cglm.C65_vec2_normalize_fails",
    "Cglm.C65_vec2_normalize_tiny",
    "Cglm.C65_vec3_negate_negate",
    "Cglm.C65_vec3_dot_comm",
    "Cglm.C65_vec3_add_comm",
    "Cglm.C65_vec3_mul_comm",
    "Cglm.C65_vec3_distance2_comm",
    "Cglm.C65_vec3_distance_comm",
    "Cglm.C65_vec3_eqv_self",
    "Cglm.C65_vec3_eqv_eps_self",
    "Cglm.C65_vec3_eqv_zeros",
    "Cglm.C65_vec3_isvalid",
    "Cglm.C65_vec3_isnan",
    "Cglm.C65_vec3_clamp",
    "Cglm.C65_vec3_fract",
    "Cglm.C65_vec3_fract_nan",
    "Cglm.C65_vec3_normalize_overflow",
    "Cglm.C65_vec3_normalize_fails",
    "Cglm.C65_vec3_normalize_tiny",
    "Cglm.C65_vec4_negate_negate",
    "Cglm.C65_vec4_dot_comm",
    "Cglm.C65_vec4_add_comm",
    "Cglm.C65_vec4_mul_comm",
    "Cglm.C65_vec4_distance2_comm",
    "Cglm.C65_vec4_distance_comm",
    "Cglm.C65_vec4_eqv_self",
    "Cglm.C65_vec4_eqv_eps_self",
    "Cglm.C65_vec4_eqv_zeros",
    "Cglm.C65_vec4_isvalid",
    "Cglm.C65_vec4_isnan",
    "Cglm.C65_vec4_clamp",
    "Cglm.C65_vec4_fract",
    "Cglm.C65_vec4_fract_nan",
    "Cglm.C65_vec4_normalize_overflow",
    "Cglm.C65_vec4_normalize_fails",
    "Cglm.C65_vec4_normalize_tiny",
    "Cglm.C65_vec3_cross_self",
    "Cglm.C65_vec3_cross_self_fails",
    "Cglm.C65_vec3_angle_domain",
    "Cglm.C65_quat_normalize_tiny_fails"
   ],
   "note": "min/max/clamp/step/eq/smoothstep/fract with every datum, bit-exact negate, transpose, symmetry and (AB)^T, products with the identity, isvalid, angle domain. lerp is exact at the ends only under stated conditions; the unconditional claims are refuted by witnesses, as is normalisation of very long vectors."
  },
  {
   "property": "C66",
   "status": "proved",
   "theorems": [
    "Cglm.C66_vec4",
    "Cglm.C66_vec3",
    "Cglm.C66_vec3_defined",
    "Cglm.C66_vec2",
    "Cglm.C66_vec2_defined",
    "Cglm.C66_shuffle4",
    "Cglm.C66_shuffle3",
    "Cglm.C66_shuffle2"
   ],
   "note": ""
  },
  {
   "property": "C67",
   "status": "proved",
   "theorems": [
    "Cglm.C67_mat4",
    "Cglm.C67_mat3",
    "Cglm.C67_mat2",
    "Cglm.C67_quat",
    "Cglm.C67_overrun",
    "Cglm.C67_identities"
   ],
   "note": ""
  },
  {
   "property": "C68",
   "status": "proved",
   "theorems": [
    "Cglm.C68_RhNo_glm_persp_fovy",
    "Cglm.C68_RhNo_glm_persp_aspect",
    "Cglm.C68_RhNo_glm_frustum",
    "Cglm.C68_RhNo_glm_ortho",
    "Cglm.C68_RhNo_glm_ortho_aabb",
    "Cglm.C68_RhNo_glm_ortho_aabb_p",
    "Cglm.C68_RhNo_glm_ortho_aabb_pz",
    "Cglm.C68_RhNo_glm_ortho_default",
    "Cglm.C68_RhNo_glm_ortho_default_s",
    "Cglm.C68_RhNo_glm_perspective",
    "Cglm.C68_RhNo_glm_persp_move_far",
    "Cglm.C68_RhNo_glm_perspective_default",
    "Cglm.C68_RhNo_glm_perspective_resize",
    "Cglm.C68_RhNo_glm_lookat",
    "Cglm.C68_RhNo_glm_look",
    "Cglm.C68_RhNo_glm_look_anyup",
    "Cglm.C68_RhNo_glm_persp_decomp",
    "Cglm.C68_RhNo_glm_persp_decompv",
    "Cglm.C68_RhNo_glm_persp_decomp_x",
    "Cglm.C68_RhNo_glm_persp_decomp_y",
    "Cglm.C68_RhNo_glm_persp_decomp_z",
    "Cglm.C68_RhNo_glm_persp_decomp_far",
    "Cglm.C68_RhNo_glm_persp_decomp_near",
    "Cglm.C68_RhNo_glm_persp_sizes",
    "Cglm.C68_RhNo_glm_euler_xyz_quat",
    "Cglm.C68_RhNo_glm_euler_xzy_quat",
    "Cglm.C68_RhNo_glm_euler_yxz_quat",
    "Cglm.C68_RhNo_glm_euler_yzx_quat",
    "Cglm.C68_RhNo_glm_euler_zxy_quat",
    "Cglm.C68_RhNo_glm_euler_zyx_quat",
    "Cglm.C68_RhNo_glm_unprojecti",
    "Cglm.C68_RhNo_glm_project",
    "Cglm.C68_RhNo_glm_project_z",
    "Cglm.C68_RhNo_glms_frustum",
    "Cglm.C68_RhNo_glms_ortho",
    "Cglm.C68_RhNo_glms_ortho_aabb",
    "Cglm.C68_RhNo_glms_ortho_aabb_p",
    "Cglm.C68_RhNo_glms_ortho_aabb_pz",
    "Cglm.C68_RhNo_glms_ortho_default",
    "Cglm.C68_RhNo_glms_ortho_default_s",
    "Cglm.C68_RhNo_glms_perspective",
    "Cglm.C68_RhNo_glms_persp_move_far",
    "Cglm.C68_RhNo_glms_perspective_default",
    "Cglm.C68_RhNo_glms_perspective_resize",
    "Cglm.C68_RhNo_glms_lookat",
    "Cglm.C68_RhNo_glms_look",
    "Cglm.C68_RhNo_glms_look_anyup",
    "Cglm.C68_RhNo_glms_persp_decomp",
    "Cglm.C68_RhNo_glms_persp_decompv",
    "Cglm.C68_RhNo_glms_persp_decomp_x",
    "Cglm.C68_RhNo_glms_persp_decomp_y",
    "Cglm.C68_RhNo_glms_persp_decomp_z",
    "Cglm.C68_RhNo_glms_persp_decomp_far",
    "Cglm.C68_RhNo_glms_persp_decomp_near",
    "Cglm.C68_RhNo_glms_persp_fovy",
    "Cglm.C68_RhNo_glms_persp_aspect",
    "Cglm.C68_RhNo_glms_persp_sizes",
    "Cglm.C68_RhNo_glms_unprojecti",
    "Cglm.C68_RhNo_glms_project",
    "Cglm.C68_RhNo_glms_project_z",
    "Cglm.C68_RhNo_glmc_frustum",
    "Cglm.C68_RhNo_glmc_ortho",
    "Cglm.C68_RhNo_glmc_ortho_aabb",
    "Cglm.C68_RhNo_glmc_ortho_aabb_p",
    "Cglm.C68_RhNo_glmc_ortho_aabb_pz",
    "Cglm.C68_RhNo_glmc_ortho_default",
    "Cglm.C68_RhNo_glmc_ortho_default_s",
    "Cglm.C68_RhNo_glmc_perspective",
    "Cglm.C68_RhNo_glmc_persp_move_far",
    "Cglm.C68_RhNo_glmc_lookat",
    "Cglm.C68_RhNo_glmc_look",
    "Cglm.C68_RhNo_glmc_look_anyup",
    "Cglm.C68_RhNo_glmc_persp_decomp",
    "Cglm.C68_RhNo_glmc_persp_decompv",
    "Cglm.C68_RhNo_glmc_persp_decomp_x",
    "Cglm.C68_RhNo_glmc_persp_decomp_y",
    "Cglm.C68_RhNo_glmc_persp_decomp_z",
    "Cglm.C68_RhNo_glmc_persp_decomp_far",
    "Cglm.C68_RhNo_glmc_persp_decomp_near",
    "Cglm.C68_RhNo_glmc_persp_fovy",
    "Cglm.C68_RhNo_glmc_persp_aspect",
    "Cglm.C68_RhNo_glmc_persp_sizes",
    "Cglm.C68_RhNo_glmc_unprojecti",
    "Cglm.C68_RhNo_glmc_project",
    "Cglm.C68_RhNo_glmc_project_z",
    "Cglm.C68_RhNo_glm_unproject",
    "Cglm.C68_RhNo_glms_unproject",
    "Cglm.C68_RhNo_glmc_unproject",
    "Cglm.C68_RhZo_glm_persp_fovy",
    "Cglm.C68_RhZo_glm_persp_aspect",
    "Cglm.C68_RhZo_glm_frustum",
    "Cglm.C68_RhZo_glm_ortho",
    "Cglm.C68_RhZo_glm_ortho_aabb",
    "Cglm.C68_RhZo_glm_ortho_aabb_p",
    "Cglm.C68_RhZo_glm_ortho_aabb_pz",
    "Cglm.C68_RhZo_glm_ortho_default",
    "Cglm.C68_RhZo_glm_ortho_default_s",
    "Cglm.C68_RhZo_glm_perspective",
    "Cglm.C68_RhZo_glm_persp_move_far",
    "Cglm.C68_RhZo_glm_perspective_default",
    "Cglm.C68_RhZo_glm_perspective_resize",
    "Cglm.C68_RhZo_glm_lookat",
    "Cglm.C68_RhZo_glm_look",
    "Cglm.C68_RhZo_glm_look_anyup",
    "Cglm.C68_RhZo_glm_persp_decomp",
    "Cglm.C68_RhZo_glm_persp_decompv",
    "Cglm.C68_RhZo_glm_persp_decomp_x",
    "Cglm.C68_RhZo_glm_persp_decomp_y",
    "Cglm.C68_RhZo_glm_persp_decomp_z",
    "Cglm.C68_RhZo_glm_persp_decomp_far",
    "Cglm.C68_RhZo_glm_persp_decomp_near",
    "Cglm.C68_RhZo_glm_persp_sizes",
    "Cglm.C68_RhZo_glm_euler_xyz_quat",
    "Cglm.C68_RhZo_glm_euler_xzy_quat",
    "Cglm.C68_RhZo_glm_euler_yxz_quat",
    "Cglm.C68_RhZo_glm_euler_yzx_quat",
    "Cglm.C68_RhZo_glm_euler_zxy_quat",
    "Cglm.C68_RhZo_glm_euler_zyx_quat",
    "Cglm.C68_RhZo_glm_unprojecti",
    "Cglm.C68_RhZo_glm_project",
    "Cglm.C68_RhZo_glm_project_z",
    "Cglm.C68_RhZo_glms_frustum",
    "Cglm.C68_RhZo_glms_ortho",
    "Cglm.C68_RhZo_glms_ortho_aabb",
    "Cglm.C68_RhZo_glms_ortho_aabb_p",
    "Cglm.C68_RhZo_glms_ortho_aabb_pz",
    "Cglm.C68_RhZo_glms_ortho_default",
    "Cglm.C68_RhZo_glms_ortho_default_s",
    "Cglm.C68_RhZo_glms_perspective",
    "Cglm.C68_RhZo_glms_persp_move_far",
    "Cglm.C68_RhZo_glms_perspective_default",
    "Cglm.C68_RhZo_glms_perspective_resize",
    "Cglm.C68_RhZo_glms_lookat",
    "Cglm.C68_RhZo_glms_look",
    "Cglm.C68_RhZo_glms_look_anyup",
    "Cglm.C68_RhZo_glms_persp_decomp",
    "Cglm.C68_RhZo_glms_persp_decompv",
    "Cglm.C68_RhZo_glms_persp_decomp_x",
    "Cglm.C68_RhZo_glms_persp_decomp_y",
    "Cglm.C68_RhZo_glms_persp_decomp_z",
    "Cglm.C68_RhZo_glms_persp_decomp_far",
    "Cglm.C68_RhZo_glms_persp_decomp_near",
    "Cglm.C68_RhZo_glms_persp_fovy",
    "Cglm.C68_RhZo_glms_persp_aspect",
    "Cglm.C68_RhZo_glms_persp_sizes",
    "Cglm.C68_RhZo_glms_unprojecti",
    "Cglm.C68_RhZo_glms_project",
    "Cglm.C68_RhZo_glms_project_z",
    "Cglm.C68_RhZo_glmc_frustum",
    "Cglm.C68_RhZo_glmc_ortho",
    "Cglm.C68_RhZo_glmc_ortho_aabb",
    "Cglm.C68_RhZo_glmc_ortho_aabb_p",
    "Cglm.C68_RhZo_glmc_ortho_aabb_pz",
    "Cglm.C68_RhZo_glmc_ortho_default",
    "Cglm.C68_RhZo_glmc_ortho_default_s",
    "Cglm.C68_RhZo_glmc_perspective",
    "Cglm.C68_RhZo_glmc_persp_move_far",
    "Cglm.C68_RhZo_glmc_lookat",
    "Cglm.C68_RhZo_glmc_look",
    "Cglm.C68_RhZo_glmc_look_anyup",
    "Cglm.C68_RhZo_glmc_persp_decomp",
    "Cglm.C68_RhZo_glmc_persp_decompv",
    "Cglm.C68_RhZo_glmc_persp_decomp_x",
    "Cglm.C68_RhZo_glmc_persp_decomp_y",
    "Cglm.C68_RhZo_glmc_persp_decomp_z",
    "Cglm.C68_RhZo_glmc_persp_decomp_far",
    "Cglm.C68_RhZo_glmc_persp_decomp_near",
    "Cglm.C68_RhZo_glmc_persp_fovy",
    "Cglm.C68_RhZo_glmc_persp_aspect",
    "Cglm.C68_RhZo_glmc_persp_sizes",
    "Cglm.C68_RhZo_glmc_unprojecti",
    "Cglm.C68_RhZo_glmc_project",
    "Cglm.C68_RhZo_glmc_project_z",
    "Cglm.C68_RhZo_glmc_perspective_default",
    "Cglm.C68_RhZo_glm_unproject",
    "Cglm.C68_RhZo_glms_unproject",
    "Cglm.C68_RhZo_glmc_unproject",
    "Cglm.C68_LhNo_glm_persp_fovy",
    "Cglm.C68_LhNo_glm_persp_aspect",
    "Cglm.C68_LhNo_glm_frustum",
    "Cglm.C68_LhNo_glm_ortho",
    "Cglm.C68_LhNo_glm_ortho_aabb",
    "Cglm.C68_LhNo_glm_ortho_aabb_p",
    "Cglm.C68_LhNo_glm_ortho_aabb_pz",
    "Cglm.C68_LhNo_glm_ortho_default",
    "Cglm.C68_LhNo_glm_ortho_default_s",
    "Cglm.C68_LhNo_glm_perspective",
    "Cglm.C68_LhNo_glm_persp_move_far",
    "Cglm.C68_LhNo_glm_perspective_default",
    "Cglm.C68_LhNo_glm_perspective_resize",
    "Cglm.C68_LhNo_glm_lookat",
    "Cglm.C68_LhNo_glm_look",
    "Cglm.C68_LhNo_glm_look_anyup",
    "Cglm.C68_LhNo_glm_persp_decomp",
    "Cglm.C68_LhNo_glm_persp_decompv",
    "Cglm.C68_LhNo_glm_persp_decomp_x",
    "Cglm.C68_LhNo_glm_persp_decomp_y",
    "Cglm.C68_LhNo_glm_persp_decomp_z",
    "Cglm.C68_LhNo_glm_persp_decomp_far",
    "Cglm.C68_LhNo_glm_persp_decomp_near",
    "Cglm.C68_LhNo_glm_persp_sizes",
    "Cglm.C68_LhNo_glm_euler_xyz_quat",
    "Cglm.C68_LhNo_glm_euler_xzy_quat",
    "Cglm.C68_LhNo_glm_euler_yxz_quat",
    "Cglm.C68_LhNo_glm_euler_yzx_quat",
    "Cglm.C68_LhNo_glm_euler_zxy_quat",
    "Cglm.C68_LhNo_glm_euler_zyx_quat",
    "Cglm.C68_LhNo_glm_unprojecti",
    "Cglm.C68_LhNo_glm_project",
    "Cglm.C68_LhNo_glm_project_z",
    "Cglm.C68_LhNo_glms_frustum",
    "Cglm.C68_LhNo_glms_ortho",
    "Cglm.C68_LhNo_glms_ortho_aabb",
    "Cglm.C68_LhNo_glms_ortho_aabb_p",
    "Cglm.C68_LhNo_glms_ortho_aabb_pz",
    "Cglm.C68_LhNo_glms_ortho_default",
    "Cglm.C68_LhNo_glms_ortho_default_s",
    "Cglm.C68_LhNo_glms_perspective",
    "Cglm.C68_LhNo_glms_persp_move_far",
    "Cglm.C68_LhNo_glms_perspective_default",
    "Cglm.C68_LhNo_glms_perspective_resize",
    "Cglm.C68_LhNo_glms_lookat",
    "Cglm.C68_LhNo_glms_look",
    "Cglm.C68_LhNo_glms_look_anyup",
    "Cglm.C68_LhNo_glms_persp_decomp",
    "Cglm.C68_LhNo_glms_persp_decompv",
    "Cglm.C68_LhNo_glms_persp_decomp_x",
    "Cglm.C68_LhNo_glms_persp_decomp_y",
    "Cglm.C68_LhNo_glms_persp_decomp_z",
    "Cglm.C68_LhNo_glms_persp_decomp_far",
    "Cglm.C68_LhNo_glms_persp_decomp_near",
    "Cglm.C68_LhNo_glms_persp_fovy",
    "Cglm.C68_LhNo_glms_persp_aspect",
    "Cglm.C68_LhNo_glms_persp_sizes",
    "Cglm.C68_LhNo_glms_unprojecti",
    "Cglm.C68_LhNo_glms_project",
    "Cglm.C68_LhNo_glms_project_z",
    "Cglm.C68_LhNo_glmc_frustum",
    "Cglm.C68_LhNo_glmc_ortho",
    "Cglm.C68_LhNo_glmc_ortho_aabb",
    "Cglm.C68_LhNo_glmc_ortho_aabb_p",
    "Cglm.C68_LhNo_glmc_ortho_aabb_pz",
    "Cglm.C68_LhNo_glmc_ortho_default",
    "Cglm.C68_LhNo_glmc_ortho_default_s",
    "Cglm.C68_LhNo_glmc_perspective",
    "Cglm.C68_LhNo_glmc_persp_move_far",
    "Cglm.C68_LhNo_glmc_lookat",
    "Cglm.C68_LhNo_glmc_look",
    "Cglm.C68_LhNo_glmc_look_anyup",
    "Cglm.C68_LhNo_glmc_persp_decomp",
    "Cglm.C68_LhNo_glmc_persp_decompv",
    "Cglm.C68_LhNo_glmc_persp_decomp_x",
    "Cglm.C68_LhNo_glmc_persp_decomp_y",
    "Cglm.C68_LhNo_glmc_persp_decomp_z",
    "Cglm.C68_LhNo_glmc_persp_decomp_far",
    "Cglm.C68_LhNo_glmc_persp_decomp_near",
    "Cglm.C68_LhNo_glmc_persp_fovy",
    "Cglm.C68_LhNo_glmc_persp_aspect",
    "Cglm.C68_LhNo_glmc_persp_sizes",
    "Cglm.C68_LhNo_glmc_unprojecti",
    "Cglm.C68_LhNo_glmc_project",
    "Cglm.C68_LhNo_glmc_project_z",
    "Cglm.C68_LhNo_glms_euler_xyz_quat",
    "Cglm.C68_LhNo_glms_euler_xzy_quat",
    "Cglm.C68_LhNo_glms_euler_yxz_quat",
    "Cglm.C68_LhNo_glms_euler_yzx_quat",
    "Cglm.C68_LhNo_glms_euler_zxy_quat",
    "Cglm.C68_LhNo_glms_euler_zyx_quat",
    "Cglm.C68_LhNo_glmc_perspective_default",
    "Cglm.C68_LhNo_glmc_euler_xyz_quat",
    "Cglm.C68_LhNo_glmc_euler_xzy_quat",
    "Cglm.C68_LhNo_glmc_euler_yxz_quat",
    "Cglm.C68_LhNo_glmc_euler_yzx_quat",
    "Cglm.C68_LhNo_glmc_euler_zxy_quat",
    "Cglm.C68_LhNo_glmc_euler_zyx_quat",
    "Cglm.C68_LhNo_glm_unproject",
    "Cglm.C68_LhNo_glms_unproject",
    "Cglm.C68_LhNo_glmc_unproject",
    "Cglm.C68_LhZo_glm_persp_fovy",
    "Cglm.C68_LhZo_glm_persp_aspect",
    "Cglm.C68_LhZo_glm_frustum",
    "Cglm.C68_LhZo_glm_ortho",
    "Cglm.C68_LhZo_glm_ortho_aabb",
    "Cglm.C68_LhZo_glm_ortho_aabb_p",
    "Cglm.C68_LhZo_glm_ortho_aabb_pz",
    "Cglm.C68_LhZo_glm_ortho_default",
    "Cglm.C68_LhZo_glm_ortho_default_s",
    "Cglm.C68_LhZo_glm_perspective",
    "Cglm.C68_LhZo_glm_persp_move_far",
    "Cglm.C68_LhZo_glm_perspective_default",
    "Cglm.C68_LhZo_glm_perspective_resize",
    "Cglm.C68_LhZo_glm_lookat",
    "Cglm.C68_LhZo_glm_look",
    "Cglm.C68_LhZo_glm_look_anyup",
    "Cglm.C68_LhZo_glm_persp_decomp",
    "Cglm.C68_LhZo_glm_persp_decompv",
    "Cglm.C68_LhZo_glm_persp_decomp_x",
    "Cglm.C68_LhZo_glm_persp_decomp_y",
    "Cglm.C68_LhZo_glm_persp_decomp_z",
    "Cglm.C68_LhZo_glm_persp_decomp_far",
    "Cglm.C68_LhZo_glm_persp_decomp_near",
    "Cglm.C68_LhZo_glm_persp_sizes",
    "Cglm.C68_LhZo_glm_euler_xyz_quat",
    "Cglm.C68_LhZo_glm_euler_xzy_quat",
    "Cglm.C68_LhZo_glm_euler_yxz_quat",
    "Cglm.C68_LhZo_glm_euler_yzx_quat",
    "Cglm.C68_LhZo_glm_euler_zxy_quat",
    "Cglm.C68_LhZo_glm_euler_zyx_quat",
    "Cglm.C68_LhZo_glm_unprojecti",
    "Cglm.C68_LhZo_glm_project",
    "Cglm.C68_LhZo_glm_project_z",
    "Cglm.C68_LhZo_glms_frustum",
    "Cglm.C68_LhZo_glms_ortho",
    "Cglm.C68_LhZo_glms_ortho_aabb",
    "Cglm.C68_LhZo_glms_ortho_aabb_p",
    "Cglm.C68_LhZo_glms_ortho_aabb_pz",
    "Cglm.C68_LhZo_glms_ortho_default",
    "Cglm.C68_LhZo_glms_ortho_default_s",
    "Cglm.C68_LhZo_glms_perspective",
    "Cglm.C68_LhZo_glms_persp_move_far",
    "Cglm.C68_LhZo_glms_perspective_default",
    "Cglm.C68_LhZo_glms_perspective_resize",
    "Cglm.C68_LhZo_glms_lookat",
    "Cglm.C68_LhZo_glms_look",
    "Cglm.C68_LhZo_glms_look_anyup",
    "Cglm.C68_LhZo_glms_persp_decomp",
    "Cglm.C68_LhZo_glms_persp_decompv",
    "Cglm.C68_LhZo_glms_persp_decomp_x",
    "Cglm.C68_LhZo_glms_persp_decomp_y",
    "Cglm.C68_LhZo_glms_persp_decomp_z",
    "Cglm.C68_LhZo_glms_persp_decomp_far",
    "Cglm.C68_LhZo_glms_persp_decomp_near",
    "Cglm.C68_LhZo_glms_persp_fovy",
    "Cglm.C68_LhZo_glms_persp_aspect",
    "Cglm.C68_LhZo_glms_persp_sizes",
    "Cglm.C68_LhZo_glms_unprojecti",
    "Cglm.C68_LhZo_glms_project",
    "Cglm.C68_LhZo_glms_project_z",
    "Cglm.C68_LhZo_glmc_frustum",
    "Cglm.C68_LhZo_glmc_ortho",
    "Cglm.C68_LhZo_glmc_ortho_aabb",
    "Cglm.C68_LhZo_glmc_ortho_aabb_p",
    "Cglm.C68_LhZo_glmc_ortho_aabb_pz",
    "Cglm.C68_LhZo_glmc_ortho_default",
    "Cglm.C68_LhZo_glmc_ortho_default_s",
    "Cglm.C68_LhZo_glmc_perspective",
    "Cglm.C68_LhZo_glmc_persp_move_far",
    "Cglm.C68_LhZo_glmc_lookat",
    "Cglm.C68_LhZo_glmc_look",
    "Cglm.C68_LhZo_glmc_look_anyup",
    "Cglm.C68_LhZo_glmc_persp_decomp",
    "Cglm.C68_LhZo_glmc_persp_decompv",
    "Cglm.C68_LhZo_glmc_persp_decomp_x",
    "Cglm.C68_LhZo_glmc_persp_decomp_y",
    "Cglm.C68_LhZo_glmc_persp_decomp_z",
    "Cglm.C68_LhZo_glmc_persp_decomp_far",
    "Cglm.C68_LhZo_glmc_persp_decomp_near",
    "Cglm.C68_LhZo_glmc_persp_fovy",
    "Cglm.C68_LhZo_glmc_persp_aspect",
    "Cglm.C68_LhZo_glmc_persp_sizes",
    "Cglm.C68_LhZo_glmc_unprojecti",
    "Cglm.C68_LhZo_glmc_project",
    "Cglm.C68_LhZo_glmc_project_z",
    "Cglm.C68_LhZo_glms_euler_xyz_quat",
    "Cglm.C68_LhZo_glms_euler_xzy_quat",
    "Cglm.C68_LhZo_glms_euler_yxz_quat",
    "Cglm.C68_LhZo_glms_euler_yzx_quat",
    "Cglm.C68_LhZo_glms_euler_zxy_quat",
    "Cglm.C68_LhZo_glms_euler_zyx_quat",
    "Cglm.C68_LhZo_glmc_perspective_default",
    "Cglm.C68_LhZo_glmc_euler_xyz_quat",
    "Cglm.C68_LhZo_glmc_euler_xzy_quat",
    "Cglm.C68_LhZo_glmc_euler_yxz_quat",
    "Cglm.C68_LhZo_glmc_euler_yzx_quat",
    "Cglm.C68_LhZo_glmc_euler_zxy_quat",
    "Cglm.C68_LhZo_glmc_euler_zyx_quat",
    "Cglm.C68_LhZo_glm_unproject",
    "Cglm.C68_LhZo_glms_unproject",
    "Cglm.C68_LhZo_glmc_unproject"
   ],
   "note": "The model is generated for all four configurations; every generic function equals the selected variant, for every scalar type, in all three APIs."
  },
  {
   "property": "C69",
   "status": "proved",
   "theorems": [
    "Cglm.C69_weights",
    "Cglm.C69_add",
    "Cglm.C69_smul",
    "Cglm.C69_white",
    "Cglm.C69_gray",
    "Cglm.C69_strictMono",
    "Cglm.C69_order",
    "Cglm.C69_range"
   ],
   "note": ""
  },
  {
   "property": "C70",
   "status": "proved",
   "theorems": [
    "Cglm.C70_look_eye",
    "Cglm.C70_look_inverse",
    "Cglm.C70_for",
    "Cglm.C70_for_axes",
    "Cglm.C70_for_up",
    "Cglm.C70_forp",
    "Cglm.C70_look_for"
   ],
   "note": "When the direction and up are not nearly parallel (ViewFrame)."
  },
  {
   "property": "C71",
   "status": "proved",
   "theorems": [
    "Cglm.C71_perlin_vec2",
    "Cglm.C71_perlin_vec3",
    "Cglm.C71_perlin_vec4",
    "Cglm.C71_bounded_vec2",
    "Cglm.C71_bounded_vec3",
    "Cglm.C71_bounded_vec4",
    "Cglm.C71_exceeds_one_vec3",
    "Cglm.C71_exceeds_one_vec4",
    "Cglm.C71_continuous_vec2",
    "Cglm.C71_continuous_vec3",
    "Cglm.C71_continuous_vec4",
    "Cglm.C71_agree_vec2",
    "Cglm.C71_agree_vec3",
    "Cglm.C71_agree_vec4"
   ],
   "note": "Over the reals. The bounds 4.14, 7.92 and 8.91 are not the least ones; the three- and four-dimensional noise provably exceeds 1 at some points. glm_vec*_fract cuts off at 0.99999994, so the code itself is continuous only up to that cut-off."
  },
  {
   "property": "C72",
   "status": "proved",
   "theorems": [
    "Cglm.C72_translate_make",
    "Cglm.C72_scale_to",
    "Cglm.C72_scale_make",
    "Cglm.C72_scale",
    "Cglm.C72_scale_uni",
    "Cglm.C72_rotate_make",
    "Cglm.C72_decompose_scalev",
    "Cglm.C72_uniscaled",
    "Cglm.C72_decompose_rs",
    "Cglm.C72_decompose",
    "Cglm.C72_translate2d",
    "Cglm.C72_translate2d_to",
    "Cglm.C72_translate2d_x",
    "Cglm.C72_translate2d_y",
    "Cglm.C72_translate2d_make",
    "Cglm.C72_scale2d_to",
    "Cglm.C72_scale2d_make",
    "Cglm.C72_scale2d",
    "Cglm.C72_scale2d_uni",
    "Cglm.C72_rotate2d_make",
    "Cglm.C72_rotate2d",
    "Cglm.C72_rotate2d_to",
    "Cglm.C72_translated2d",
    "Cglm.C72_translated2d_x",
    "Cglm.C72_translated2d_y",
    "Cglm.C72_rotated2d",
    "Cglm.C72_scaled2d",
    "Cglm.C72_scaled2d_uni",
    "Cglm.C72_mul",
    "Cglm.C72_mul_rot",
    "Cglm.C72_inv_tr",
    "Cglm.C72_translate",
    "Cglm.C72_translate_to",
    "Cglm.C72_translate_x",
    "Cglm.C72_translate_y",
    "Cglm.C72_translate_z",
    "Cglm.C72_rotate_x",
    "Cglm.C72_rotate_y",
    "Cglm.C72_rotate_z",
    "Cglm.C72_rotate",
    "Cglm.C72_rotate_at",
    "Cglm.C72_rotate_atm",
    "Cglm.C72_spin",
    "Cglm.C72_translated",
    "Cglm.C72_translated_to",
    "Cglm.C72_translated_x",
    "Cglm.C72_translated_y",
    "Cglm.C72_translated_z",
    "Cglm.C72_rotated_x",
    "Cglm.C72_rotated_y",
    "Cglm.C72_rotated_z",
    "Cglm.C72_rotated",
    "Cglm.C72_rotated_at",
    "Cglm.C72_spinned",
    "Cglm.C72_ortho_rh_no",
    "Cglm.C72_ortho_aabb_rh_no",
    "Cglm.C72_ortho_aabb_p_rh_no",
    "Cglm.C72_ortho_aabb_pz_rh_no",
    "Cglm.C72_ortho_default_rh_no",
    "Cglm.C72_ortho_default_s_rh_no",
    "Cglm.C72_persp_fovy",
    "Cglm.C72_persp_aspect",
    "Cglm.C72_frustum_rh_no",
    "Cglm.C72_perspective_rh_no",
    "Cglm.C72_perspective_default_rh_no",
    "Cglm.C72_perspective_resize_rh_no",
    "Cglm.C72_persp_move_far_rh_no",
    "Cglm.C72_persp_decomp_rh_no",
    "Cglm.C72_persp_decompv_rh_no",
    "Cglm.C72_persp_decomp_x_rh_no",
    "Cglm.C72_persp_decomp_y_rh_no",
    "Cglm.C72_persp_decomp_z_rh_no",
    "Cglm.C72_persp_decomp_far_rh_no",
    "Cglm.C72_persp_decomp_near_rh_no",
    "Cglm.C72_persp_sizes_rh_no",
    "Cglm.C72_persp_fovy_rh_no",
    "Cglm.C72_persp_aspect_rh_no",
    "Cglm.C72_lookat_rh",
    "Cglm.C72_look_rh",
    "Cglm.C72_look_anyup_rh",
    "Cglm.C72_frustum",
    "Cglm.C72_ortho",
    "Cglm.C72_ortho_aabb",
    "Cglm.C72_ortho_aabb_p",
    "Cglm.C72_ortho_aabb_pz",
    "Cglm.C72_ortho_default",
    "Cglm.C72_ortho_default_s",
    "Cglm.C72_perspective",
    "Cglm.C72_persp_move_far",
    "Cglm.C72_perspective_default",
    "Cglm.C72_perspective_resize",
    "Cglm.C72_lookat",
    "Cglm.C72_look",
    "Cglm.C72_look_anyup",
    "Cglm.C72_persp_decomp",
    "Cglm.C72_persp_decompv",
    "Cglm.C72_persp_decomp_x",
    "Cglm.C72_persp_decomp_y",
    "Cglm.C72_persp_decomp_z",
    "Cglm.C72_persp_decomp_far",
    "Cglm.C72_persp_decomp_near",
    "Cglm.C72_persp_sizes",
    "Cglm.C72_ortho_lh_no",
    "Cglm.C72_ortho_aabb_lh_no",
    "Cglm.C72_ortho_aabb_p_lh_no",
    "Cglm.C72_ortho_aabb_pz_lh_no",
    "Cglm.C72_ortho_default_lh_no",
    "Cglm.C72_ortho_default_s_lh_no",
    "Cglm.C72_ortho_lh_zo",
    "Cglm.C72_ortho_aabb_lh_zo",
    "Cglm.C72_ortho_aabb_p_lh_zo",
    "Cglm.C72_ortho_aabb_pz_lh_zo",
    "Cglm.C72_ortho_default_lh_zo",
    "Cglm.C72_ortho_default_s_lh_zo",
    "Cglm.C72_ortho_rh_zo",
    "Cglm.C72_ortho_aabb_rh_zo",
    "Cglm.C72_ortho_aabb_p_rh_zo",
    "Cglm.C72_ortho_aabb_pz_rh_zo",
    "Cglm.C72_ortho_default_rh_zo",
    "Cglm.C72_ortho_default_s_rh_zo",
    "Cglm.C72_frustum_lh_no",
    "Cglm.C72_perspective_lh_no",
    "Cglm.C72_perspective_default_lh_no",
    "Cglm.C72_perspective_resize_lh_no",
    "Cglm.C72_persp_move_far_lh_no",
    "Cglm.C72_persp_decomp_lh_no",
    "Cglm.C72_persp_decompv_lh_no",
    "Cglm.C72_persp_decomp_x_lh_no",
    "Cglm.C72_persp_decomp_y_lh_no",
    "Cglm.C72_persp_decomp_z_lh_no",
    "Cglm.C72_persp_decomp_far_lh_no",
    "Cglm.C72_persp_decomp_near_lh_no",
    "Cglm.C72_persp_sizes_lh_no",
    "Cglm.C72_persp_fovy_lh_no",
    "Cglm.C72_persp_aspect_lh_no",
    "Cglm.C72_frustum_lh_zo",
    "Cglm.C72_perspective_lh_zo",
    "Cglm.C72_persp_move_far_lh_zo",
    "Cglm.C72_perspective_default_lh_zo",
    "Cglm.C72_perspective_resize_lh_zo",
    "Cglm.C72_persp_decomp_lh_zo",
    "Cglm.C72_persp_decompv_lh_zo",
    "Cglm.C72_persp_decomp_x_lh_zo",
    "Cglm.C72_persp_decomp_y_lh_zo",
    "Cglm.C72_persp_decomp_z_lh_zo",
    "Cglm.C72_persp_decomp_far_lh_zo",
    "Cglm.C72_persp_decomp_near_lh_zo",
    "Cglm.C72_persp_sizes_lh_zo",
    "Cglm.C72_persp_fovy_lh_zo",
    "Cglm.C72_persp_aspect_lh_zo",
    "Cglm.C72_frustum_rh_zo",
    "Cglm.C72_perspective_rh_zo",
    "Cglm.C72_perspective_default_rh_zo",
    "Cglm.C72_perspective_resize_rh_zo",
    "Cglm.C72_persp_move_far_rh_zo",
    "Cglm.C72_persp_decomp_rh_zo",
    "Cglm.C72_persp_decompv_rh_zo",
    "Cglm.C72_persp_decomp_x_rh_zo",
    "Cglm.C72_persp_decomp_y_rh_zo",
    "Cglm.C72_persp_decomp_z_rh_zo",
    "Cglm.C72_persp_decomp_far_rh_zo",
    "Cglm.C72_persp_decomp_near_rh_zo",
    "Cglm.C72_persp_sizes_rh_zo",
    "Cglm.C72_persp_fovy_rh_zo",
    "Cglm.C72_persp_aspect_rh_zo",
    "Cglm.C72_unprojecti_no",
    "Cglm.C72_project_no",
    "Cglm.C72_project_z_no",
    "Cglm.C72_unprojecti_zo",
    "Cglm.C72_project_zo",
    "Cglm.C72_project_z_zo",
    "Cglm.C72_lookat_lh",
    "Cglm.C72_look_lh",
    "Cglm.C72_look_anyup_lh",
    "Cglm.C72_lookat_lh_no",
    "Cglm.C72_look_lh_no",
    "Cglm.C72_look_anyup_lh_no",
    "Cglm.C72_lookat_lh_zo",
    "Cglm.C72_look_lh_zo",
    "Cglm.C72_look_anyup_lh_zo",
    "Cglm.C72_lookat_rh_no",
    "Cglm.C72_look_rh_no",
    "Cglm.C72_look_anyup_rh_no",
    "Cglm.C72_lookat_rh_zo",
    "Cglm.C72_look_rh_zo",
    "Cglm.C72_look_anyup_rh_zo",
    "Cglm.C72_unprojecti",
    "Cglm.C72_unproject",
    "Cglm.C72_project",
    "Cglm.C72_project_z",
    "Cglm.C72_pickmatrix",
    "Cglm.C72_decomp_frustum_rh_no",
    "Cglm.C72_decomp_frustum_lh_no",
    "Cglm.C72_decomp_frustum_rh_zo",
    "Cglm.C72_decomp_frustum_lh_zo",
    "Cglm.C72_decomp_x_lh_zo_undefined",
    "Cglm.C72_decomp_y_lh_zo_undefined",
    "Cglm.C72_decomp_x_perspective_lh_zo_undefined",
    "Cglm.C72_ray_sphere_undefined",
    "Cglm.C72_vec3_angle_undefined",
    "Cglm.C72_decompose_undefined",
    "Cglm.C72_frustum_corners_at_iff",
    "Cglm.C72_aabb2d_zero",
    "Cglm.C72_aabb2d_copy",
    "Cglm.C72_aabb2d_transform",
    "Cglm.C72_aabb2d_merge",
    "Cglm.C72_aabb2d_crop",
    "Cglm.C72_aabb2d_crop_until",
    "Cglm.C72_aabb2d_invalidate",
    "Cglm.C72_aabb2d_isvalid",
    "Cglm.C72_aabb2d_diag",
    "Cglm.C72_aabb2d_sizev",
    "Cglm.C72_aabb2d_radius",
    "Cglm.C72_aabb2d_center",
    "Cglm.C72_aabb2d_aabb",
    "Cglm.C72_aabb2d_circle",
    "Cglm.C72_aabb2d_point",
    "Cglm.C72_aabb2d_contains",
    "Cglm.C72_bezier",
    "Cglm.C72_hermite",
    "Cglm.C72_aabb_transform",
    "Cglm.C72_aabb_merge",
    "Cglm.C72_aabb_crop",
    "Cglm.C72_aabb_crop_until",
    "Cglm.C72_aabb_frustum",
    "Cglm.C72_aabb_invalidate",
    "Cglm.C72_aabb_isvalid",
    "Cglm.C72_aabb_size",
    "Cglm.C72_aabb_radius",
    "Cglm.C72_aabb_center",
    "Cglm.C72_aabb_aabb",
    "Cglm.C72_aabb_sphere",
    "Cglm.C72_aabb_point",
    "Cglm.C72_aabb_contains",
    "Cglm.C72_luminance",
    "Cglm.C72_smc",
    "Cglm.C72_ease_linear",
    "Cglm.C72_ease_sine_in",
    "Cglm.C72_ease_sine_out",
    "Cglm.C72_ease_sine_inout",
    "Cglm.C72_ease_quad_in",
    "Cglm.C72_ease_quad_out",
    "Cglm.C72_ease_quad_inout",
    "Cglm.C72_ease_cubic_in",
    "Cglm.C72_ease_cubic_out",
    "Cglm.C72_ease_cubic_inout",
    "Cglm.C72_ease_quart_in",
    "Cglm.C72_ease_quart_out",
    "Cglm.C72_ease_quart_inout",
    "Cglm.C72_ease_quint_in",
    "Cglm.C72_ease_quint_out",
    "Cglm.C72_ease_quint_inout",
    "Cglm.C72_ease_exp_in",
    "Cglm.C72_ease_exp_out",
    "Cglm.C72_ease_exp_inout",
    "Cglm.C72_ease_circ_in",
    "Cglm.C72_ease_circ_out",
    "Cglm.C72_ease_circ_inout",
    "Cglm.C72_ease_back_in",
    "Cglm.C72_ease_back_out",
    "Cglm.C72_ease_back_inout",
    "Cglm.C72_ease_elast_in",
    "Cglm.C72_ease_elast_out",
    "Cglm.C72_ease_elast_inout",
    "Cglm.C72_ease_bounce_out",
    "Cglm.C72_ease_bounce_in",
    "Cglm.C72_ease_bounce_inout",
    "Cglm.C72_plane_normalize",
    "Cglm.C72_frustum_planes",
    "Cglm.C72_frustum_corners",
    "Cglm.C72_frustum_center",
    "Cglm.C72_frustum_box",
    "Cglm.C72_frustum_corners_at",
    "Cglm.C72_ray_triangle",
    "Cglm.C72_ray_sphere",
    "Cglm.C72_ray_at",
    "Cglm.C72_sphere_radii",
    "Cglm.C72_sphere_transform",
    "Cglm.C72_sphere_merge",
    "Cglm.C72_sphere_sphere",
    "Cglm.C72_sphere_point",
    "Cglm.C72_decompose_rs_iff",
    "Cglm.C72_decompose_iff",
    "Cglm.C72_unprojecti_no_iff",
    "Cglm.C72_project_no_iff",
    "Cglm.C72_project_z_no_iff",
    "Cglm.C72_unprojecti_zo_iff",
    "Cglm.C72_project_zo_iff",
    "Cglm.C72_project_z_zo_iff",
    "Cglm.C72_ease_circ_in_iff",
    "Cglm.C72_ease_circ_out_iff",
    "Cglm.C72_ease_circ_inout_iff",
    "Cglm.C72_euler_angles_iff",
    "Cglm.C72_frustum_corners_iff",
    "Cglm.C72_mat2_inv_iff",
    "Cglm.C72_mat3_inv_iff",
    "Cglm.C72_mat4_inv_iff",
    "Cglm.C72_mat4_inv_fast_iff",
    "Cglm.C72_unprojecti_iff",
    "Cglm.C72_unproject_iff",
    "Cglm.C72_project_iff",
    "Cglm.C72_project_z_iff",
    "Cglm.C72_quat_inv_iff",
    "Cglm.C72_quat_angle_iff",
    "Cglm.C72_ray_sphere_iff",
    "Cglm.C72_smoothstep_iff",
    "Cglm.C72_vec2_div_iff",
    "Cglm.C72_vec2_divs_iff",
    "Cglm.C72_vec2_mods_iff",
    "Cglm.C72_vec2_sqrt_iff",
    "Cglm.C72_vec2_complex_div_iff",
    "Cglm.C72_vec3_div_iff",
    "Cglm.C72_vec3_divs_iff",
    "Cglm.C72_vec3_angle_iff",
    "Cglm.C72_vec3_proj_iff",
    "Cglm.C72_vec3_smoothstep_uni_iff",
    "Cglm.C72_vec3_smoothstep_iff",
    "Cglm.C72_vec3_mods_iff",
    "Cglm.C72_vec3_sqrt_iff",
    "Cglm.C72_vec4_div_iff",
    "Cglm.C72_vec4_divs_iff",
    "Cglm.C72_vec4_smoothstep_uni_iff",
    "Cglm.C72_vec4_smoothstep_iff",
    "Cglm.C72_vec4_mods_iff",
    "Cglm.C72_vec4_sqrt_iff",
    "Cglm.C72_ortho_iff",
    "Cglm.C72_ortho_aabb_iff",
    "Cglm.C72_ortho_aabb_p_iff",
    "Cglm.C72_ortho_aabb_pz_iff",
    "Cglm.C72_ortho_default_iff",
    "Cglm.C72_ortho_default_s_iff",
    "Cglm.C72_ortho_lh_no_iff",
    "Cglm.C72_ortho_aabb_lh_no_iff",
    "Cglm.C72_ortho_aabb_p_lh_no_iff",
    "Cglm.C72_ortho_aabb_pz_lh_no_iff",
    "Cglm.C72_ortho_default_lh_no_iff",
    "Cglm.C72_ortho_default_s_lh_no_iff",
    "Cglm.C72_ortho_lh_zo_iff",
    "Cglm.C72_ortho_aabb_lh_zo_iff",
    "Cglm.C72_ortho_aabb_p_lh_zo_iff",
    "Cglm.C72_ortho_aabb_pz_lh_zo_iff",
    "Cglm.C72_ortho_default_lh_zo_iff",
    "Cglm.C72_ortho_default_s_lh_zo_iff",
    "Cglm.C72_ortho_rh_no_iff",
    "Cglm.C72_ortho_aabb_rh_no_iff",
    "Cglm.C72_ortho_aabb_p_rh_no_iff",
    "Cglm.C72_ortho_aabb_pz_rh_no_iff",
    "Cglm.C72_ortho_default_rh_no_iff",
    "Cglm.C72_ortho_default_s_rh_no_iff",
    "Cglm.C72_ortho_rh_zo_iff",
    "Cglm.C72_ortho_aabb_rh_zo_iff",
    "Cglm.C72_ortho_aabb_p_rh_zo_iff",
    "Cglm.C72_ortho_aabb_pz_rh_zo_iff",
    "Cglm.C72_ortho_default_rh_zo_iff",
    "Cglm.C72_ortho_default_s_rh_zo_iff",
    "Cglm.C72_frustum_iff",
    "Cglm.C72_perspective_iff",
    "Cglm.C72_persp_move_far_iff",
    "Cglm.C72_perspective_default_iff",
    "Cglm.C72_perspective_resize_iff",
    "Cglm.C72_persp_decomp_iff",
    "Cglm.C72_persp_decompv_iff",
    "Cglm.C72_persp_decomp_x_iff",
    "Cglm.C72_persp_decomp_y_iff",
    "Cglm.C72_persp_decomp_z_iff",
    "Cglm.C72_persp_decomp_far_iff",
    "Cglm.C72_persp_decomp_near_iff",
    "Cglm.C72_persp_sizes_iff",
    "Cglm.C72_persp_fovy_iff",
    "Cglm.C72_persp_aspect_iff",
    "Cglm.C72_frustum_lh_no_iff",
    "Cglm.C72_perspective_lh_no_iff",
    "Cglm.C72_perspective_default_lh_no_iff",
    "Cglm.C72_perspective_resize_lh_no_iff",
    "Cglm.C72_persp_move_far_lh_no_iff",
    "Cglm.C72_persp_decomp_lh_no_iff",
    "Cglm.C72_persp_decompv_lh_no_iff",
    "Cglm.C72_persp_decomp_x_lh_no_iff",
    "Cglm.C72_persp_decomp_y_lh_no_iff",
    "Cglm.C72_persp_decomp_z_lh_no_iff",
    "Cglm.C72_persp_decomp_far_lh_no_iff",
    "Cglm.C72_persp_decomp_near_lh_no_iff",
    "Cglm.C72_persp_sizes_lh_no_iff",
    "Cglm.C72_persp_fovy_lh_no_iff",
    "Cglm.C72_persp_aspect_lh_no_iff",
    "Cglm.C72_frustum_lh_zo_iff",
    "Cglm.C72_perspective_lh_zo_iff",
    "Cglm.C72_persp_move_far_lh_zo_iff",
    "Cglm.C72_perspective_default_lh_zo_iff",
    "Cglm.C72_perspective_resize_lh_zo_iff",
    "Cglm.C72_persp_decomp_lh_zo_iff",
    "Cglm.C72_persp_decompv_lh_zo_iff",
    "Cglm.C72_persp_decomp_x_lh_zo_iff",
    "Cglm.C72_persp_decomp_y_lh_zo_iff",
    "Cglm.C72_persp_decomp_z_lh_zo_iff",
    "Cglm.C72_persp_decomp_far_lh_zo_iff",
    "Cglm.C72_persp_decomp_near_lh_zo_iff",
    "Cglm.C72_persp_sizes_lh_zo_iff",
    "Cglm.C72_persp_fovy_lh_zo_iff",
    "Cglm.C72_persp_aspect_lh_zo_iff",
    "Cglm.C72_frustum_rh_no_iff",
    "Cglm.C72_perspective_rh_no_iff",
    "Cglm.C72_perspective_default_rh_no_iff",
    "Cglm.C72_perspective_resize_rh_no_iff",
    "Cglm.C72_persp_move_far_rh_no_iff",
    "Cglm.C72_persp_decomp_rh_no_iff",
    "Cglm.C72_persp_decompv_rh_no_iff",
    "Cglm.C72_persp_decomp_x_rh_no_iff",
    "Cglm.C72_persp_decomp_y_rh_no_iff",
    "Cglm.C72_persp_decomp_z_rh_no_iff",
    "Cglm.C72_persp_decomp_far_rh_no_iff",
    "Cglm.C72_persp_decomp_near_rh_no_iff",
    "Cglm.C72_persp_sizes_rh_no_iff",
    "Cglm.C72_persp_fovy_rh_no_iff",
    "Cglm.C72_persp_aspect_rh_no_iff",
    "Cglm.C72_frustum_rh_zo_iff",
    "Cglm.C72_perspective_rh_zo_iff",
    "Cglm.C72_perspective_default_rh_zo_iff",
    "Cglm.C72_perspective_resize_rh_zo_iff",
    "Cglm.C72_persp_move_far_rh_zo_iff",
    "Cglm.C72_persp_decomp_rh_zo_iff",
    "Cglm.C72_persp_decompv_rh_zo_iff",
    "Cglm.C72_persp_decomp_x_rh_zo_iff",
    "Cglm.C72_persp_decomp_y_rh_zo_iff",
    "Cglm.C72_persp_decomp_z_rh_zo_iff",
    "Cglm.C72_persp_decomp_far_rh_zo_iff",
    "Cglm.C72_persp_decomp_near_rh_zo_iff",
    "Cglm.C72_persp_sizes_rh_zo_iff",
    "Cglm.C72_persp_fovy_rh_zo_iff",
    "Cglm.C72_persp_aspect_rh_zo_iff",
    "Cglm.C72_mat2_make",
    "Cglm.C72_mat2_copy",
    "Cglm.C72_mat2_identity",
    "Cglm.C72_mat2_zero",
    "Cglm.C72_mat2_mul",
    "Cglm.C72_mat2_mulv",
    "Cglm.C72_mat2_transpose_to",
    "Cglm.C72_mat2_transpose",
    "Cglm.C72_mat2_scale",
    "Cglm.C72_mat2_inv",
    "Cglm.C72_mat2_det",
    "Cglm.C72_mat2_trace",
    "Cglm.C72_mat2_rmc",
    "Cglm.C72_mat2x3_copy",
    "Cglm.C72_mat2x3_zero",
    "Cglm.C72_mat2x3_make",
    "Cglm.C72_mat2x3_mul",
    "Cglm.C72_mat2x3_mulv",
    "Cglm.C72_mat2x3_transpose",
    "Cglm.C72_mat2x3_scale",
    "Cglm.C72_mat2x4_copy",
    "Cglm.C72_mat2x4_zero",
    "Cglm.C72_mat2x4_make",
    "Cglm.C72_mat2x4_mul",
    "Cglm.C72_mat2x4_mulv",
    "Cglm.C72_mat2x4_transpose",
    "Cglm.C72_mat2x4_scale",
    "Cglm.C72_mat3_copy",
    "Cglm.C72_mat3_identity",
    "Cglm.C72_mat3_zero",
    "Cglm.C72_mat3_mul",
    "Cglm.C72_mat3_transpose_to",
    "Cglm.C72_mat3_transpose",
    "Cglm.C72_mat3_mulv",
    "Cglm.C72_mat3_trace",
    "Cglm.C72_mat3_quat",
    "Cglm.C72_mat3_scale",
    "Cglm.C72_mat3_det",
    "Cglm.C72_mat3_inv",
    "Cglm.C72_mat3_rmc",
    "Cglm.C72_mat3_make",
    "Cglm.C72_mat3_textrans",
    "Cglm.C72_mat3x2_copy",
    "Cglm.C72_mat3x2_zero",
    "Cglm.C72_mat3x2_make",
    "Cglm.C72_mat3x2_mul",
    "Cglm.C72_mat3x2_mulv",
    "Cglm.C72_mat3x2_transpose",
    "Cglm.C72_mat3x2_scale",
    "Cglm.C72_mat3x4_copy",
    "Cglm.C72_mat3x4_zero",
    "Cglm.C72_mat3x4_make",
    "Cglm.C72_mat3x4_mul",
    "Cglm.C72_mat3x4_mulv",
    "Cglm.C72_mat3x4_transpose",
    "Cglm.C72_mat3x4_scale",
    "Cglm.C72_mat4_ucopy",
    "Cglm.C72_mat4_copy",
    "Cglm.C72_mat4_identity",
    "Cglm.C72_mat4_zero",
    "Cglm.C72_mat4_pick3",
    "Cglm.C72_mat4_pick3t",
    "Cglm.C72_mat4_ins3",
    "Cglm.C72_mat4_mul",
    "Cglm.C72_mat4_mulv",
    "Cglm.C72_mat4_trace",
    "Cglm.C72_mat4_trace3",
    "Cglm.C72_mat4_quat",
    "Cglm.C72_mat4_mulv3",
    "Cglm.C72_mat4_transpose_to",
    "Cglm.C72_mat4_transpose",
    "Cglm.C72_mat4_scale_p",
    "Cglm.C72_mat4_scale",
    "Cglm.C72_mat4_det",
    "Cglm.C72_mat4_inv",
    "Cglm.C72_mat4_inv_fast",
    "Cglm.C72_mat4_rmc",
    "Cglm.C72_mat4_make",
    "Cglm.C72_mat4_textrans",
    "Cglm.C72_mat4x2_copy",
    "Cglm.C72_mat4x2_zero",
    "Cglm.C72_mat4x2_make",
    "Cglm.C72_mat4x2_mul",
    "Cglm.C72_mat4x2_mulv",
    "Cglm.C72_mat4x2_transpose",
    "Cglm.C72_mat4x2_scale",
    "Cglm.C72_mat4x3_copy",
    "Cglm.C72_mat4x3_zero",
    "Cglm.C72_mat4x3_make",
    "Cglm.C72_mat4x3_mul",
    "Cglm.C72_mat4x3_mulv",
    "Cglm.C72_mat4x3_transpose",
    "Cglm.C72_mat4x3_scale",
    "Cglm.C72_perlin_vec4",
    "Cglm.C72_perlin_vec3",
    "Cglm.C72_perlin_vec2",
    "Cglm.C72_euler_xyz_quat_rh",
    "Cglm.C72_euler_xzy_quat_rh",
    "Cglm.C72_euler_yxz_quat_rh",
    "Cglm.C72_euler_yzx_quat_rh",
    "Cglm.C72_euler_zxy_quat_rh",
    "Cglm.C72_euler_zyx_quat_rh",
    "Cglm.C72_euler_angles",
    "Cglm.C72_euler_xyz",
    "Cglm.C72_euler",
    "Cglm.C72_euler_xzy",
    "Cglm.C72_euler_yxz",
    "Cglm.C72_euler_yzx",
    "Cglm.C72_euler_zxy",
    "Cglm.C72_euler_zyx",
    "Cglm.C72_euler_xyz_quat",
    "Cglm.C72_euler_xzy_quat",
    "Cglm.C72_euler_yxz_quat",
    "Cglm.C72_euler_yzx_quat",
    "Cglm.C72_euler_zxy_quat",
    "Cglm.C72_euler_zyx_quat",
    "Cglm.C72_euler_xyz_quat_lh",
    "Cglm.C72_euler_xzy_quat_lh",
    "Cglm.C72_euler_yxz_quat_lh",
    "Cglm.C72_euler_yzx_quat_lh",
    "Cglm.C72_euler_zxy_quat_lh",
    "Cglm.C72_euler_zyx_quat_lh",
    "Cglm.C72_quat_identity",
    "Cglm.C72_quat_init",
    "Cglm.C72_quatv",
    "Cglm.C72_quat",
    "Cglm.C72_quat_copy",
    "Cglm.C72_quat_norm",
    "Cglm.C72_quat_normalize_to",
    "Cglm.C72_quat_normalize",
    "Cglm.C72_quat_dot",
    "Cglm.C72_quat_conjugate",
    "Cglm.C72_quat_inv",
    "Cglm.C72_quat_add",
    "Cglm.C72_quat_sub",
    "Cglm.C72_quat_real",
    "Cglm.C72_quat_imag",
    "Cglm.C72_quat_imagn",
    "Cglm.C72_quat_imaglen",
    "Cglm.C72_quat_angle",
    "Cglm.C72_quat_axis",
    "Cglm.C72_quat_mul",
    "Cglm.C72_quat_mat4",
    "Cglm.C72_quat_mat4t",
    "Cglm.C72_quat_mat3",
    "Cglm.C72_quat_mat3t",
    "Cglm.C72_quat_lerp",
    "Cglm.C72_quat_lerpc",
    "Cglm.C72_quat_nlerp",
    "Cglm.C72_quat_slerp",
    "Cglm.C72_quat_slerp_longest",
    "Cglm.C72_quat_look",
    "Cglm.C72_quat_for",
    "Cglm.C72_quat_forp",
    "Cglm.C72_quat_rotatev",
    "Cglm.C72_quat_rotate",
    "Cglm.C72_quat_rotate_at",
    "Cglm.C72_quat_rotate_atm",
    "Cglm.C72_quat_make",
    "Cglm.C72_quat_from_vecs",
    "Cglm.C72_signf",
    "Cglm.C72_rad",
    "Cglm.C72_deg",
    "Cglm.C72_make_rad",
    "Cglm.C72_make_deg",
    "Cglm.C72_pow2",
    "Cglm.C72_min",
    "Cglm.C72_max",
    "Cglm.C72_clamp",
    "Cglm.C72_clamp_zo",
    "Cglm.C72_lerp",
    "Cglm.C72_lerpc",
    "Cglm.C72_step",
    "Cglm.C72_smooth",
    "Cglm.C72_smoothstep",
    "Cglm.C72_smoothinterp",
    "Cglm.C72_smoothinterpc",
    "Cglm.C72_eq",
    "Cglm.C72_percent",
    "Cglm.C72_percentc",
    "Cglm.C72_swapf",
    "Cglm.C72_vec2_fill",
    "Cglm.C72_vec2_eq",
    "Cglm.C72_vec2_eq_eps",
    "Cglm.C72_vec2_eq_all",
    "Cglm.C72_vec2_eqv",
    "Cglm.C72_vec2_eqv_eps",
    "Cglm.C72_vec2_max",
    "Cglm.C72_vec2_min",
    "Cglm.C72_vec2_isnan",
    "Cglm.C72_vec2_isinf",
    "Cglm.C72_vec2_isvalid",
    "Cglm.C72_vec2_sign",
    "Cglm.C72_vec2_abs",
    "Cglm.C72_vec2_fract",
    "Cglm.C72_vec2_floor",
    "Cglm.C72_vec2_mods",
    "Cglm.C72_vec2_sqrt",
    "Cglm.C72_vec2_complex_mul",
    "Cglm.C72_vec2_steps",
    "Cglm.C72_vec2_stepr",
    "Cglm.C72_vec2_complex_div",
    "Cglm.C72_vec2_complex_conjugate",
    "Cglm.C72_vec2",
    "Cglm.C72_vec2_copy",
    "Cglm.C72_vec2_zero",
    "Cglm.C72_vec2_one",
    "Cglm.C72_vec2_dot",
    "Cglm.C72_vec2_cross",
    "Cglm.C72_vec2_norm2",
    "Cglm.C72_vec2_norm",
    "Cglm.C72_vec2_add",
    "Cglm.C72_vec2_adds",
    "Cglm.C72_vec2_sub",
    "Cglm.C72_vec2_subs",
    "Cglm.C72_vec2_mul",
    "Cglm.C72_vec2_scale",
    "Cglm.C72_vec2_scale_as",
    "Cglm.C72_vec2_div",
    "Cglm.C72_vec2_divs",
    "Cglm.C72_vec2_addadd",
    "Cglm.C72_vec2_subadd",
    "Cglm.C72_vec2_muladd",
    "Cglm.C72_vec2_muladds",
    "Cglm.C72_vec2_maxadd",
    "Cglm.C72_vec2_minadd",
    "Cglm.C72_vec2_subsub",
    "Cglm.C72_vec2_addsub",
    "Cglm.C72_vec2_mulsub",
    "Cglm.C72_vec2_mulsubs",
    "Cglm.C72_vec2_maxsub",
    "Cglm.C72_vec2_minsub",
    "Cglm.C72_vec2_negate_to",
    "Cglm.C72_vec2_negate",
    "Cglm.C72_vec2_normalize",
    "Cglm.C72_vec2_normalize_to",
    "Cglm.C72_vec2_rotate",
    "Cglm.C72_vec2_center",
    "Cglm.C72_vec2_distance2",
    "Cglm.C72_vec2_distance",
    "Cglm.C72_vec2_maxv",
    "Cglm.C72_vec2_minv",
    "Cglm.C72_vec2_clamp",
    "Cglm.C72_vec2_lerp",
    "Cglm.C72_vec2_step",
    "Cglm.C72_vec2_make",
    "Cglm.C72_vec2_reflect",
    "Cglm.C72_vec2_refract",
    "Cglm.C72_vec3_broadcast",
    "Cglm.C72_vec3_fill",
    "Cglm.C72_vec3_eq",
    "Cglm.C72_vec3_eq_eps",
    "Cglm.C72_vec3_eq_all",
    "Cglm.C72_vec3_eqv",
    "Cglm.C72_vec3_eqv_eps",
    "Cglm.C72_vec3_max",
    "Cglm.C72_vec3_min",
    "Cglm.C72_vec3_isnan",
    "Cglm.C72_vec3_isinf",
    "Cglm.C72_vec3_isvalid",
    "Cglm.C72_vec3_sign",
    "Cglm.C72_vec3_abs",
    "Cglm.C72_vec3_fract",
    "Cglm.C72_vec3_floor",
    "Cglm.C72_vec3_mods",
    "Cglm.C72_vec3_steps",
    "Cglm.C72_vec3_stepr",
    "Cglm.C72_vec3_hadd",
    "Cglm.C72_vec3_sqrt",
    "Cglm.C72_vec4_broadcast",
    "Cglm.C72_vec4_fill",
    "Cglm.C72_vec4_eq",
    "Cglm.C72_vec4_eq_eps",
    "Cglm.C72_vec4_eq_all",
    "Cglm.C72_vec4_eqv",
    "Cglm.C72_vec4_eqv_eps",
    "Cglm.C72_vec4_max",
    "Cglm.C72_vec4_min",
    "Cglm.C72_vec4_isnan",
    "Cglm.C72_vec4_isinf",
    "Cglm.C72_vec4_isvalid",
    "Cglm.C72_vec4_sign",
    "Cglm.C72_vec4_abs",
    "Cglm.C72_vec4_fract",
    "Cglm.C72_vec4_floor",
    "Cglm.C72_vec4_mods",
    "Cglm.C72_vec4_steps",
    "Cglm.C72_vec4_stepr",
    "Cglm.C72_vec4_hadd",
    "Cglm.C72_vec4_sqrt",
    "Cglm.C72_vec4",
    "Cglm.C72_vec4_copy3",
    "Cglm.C72_vec4_copy",
    "Cglm.C72_vec4_ucopy",
    "Cglm.C72_vec4_zero",
    "Cglm.C72_vec4_one",
    "Cglm.C72_vec4_dot",
    "Cglm.C72_vec4_norm2",
    "Cglm.C72_vec4_norm",
    "Cglm.C72_vec4_norm_one",
    "Cglm.C72_vec4_norm_inf",
    "Cglm.C72_vec4_add",
    "Cglm.C72_vec4_adds",
    "Cglm.C72_vec4_sub",
    "Cglm.C72_vec4_subs",
    "Cglm.C72_vec4_mul",
    "Cglm.C72_vec4_scale",
    "Cglm.C72_vec4_scale_as",
    "Cglm.C72_vec4_div",
    "Cglm.C72_vec4_divs",
    "Cglm.C72_vec4_addadd",
    "Cglm.C72_vec4_subadd",
    "Cglm.C72_vec4_muladd",
    "Cglm.C72_vec4_muladds",
    "Cglm.C72_vec4_maxadd",
    "Cglm.C72_vec4_minadd",
    "Cglm.C72_vec4_subsub",
    "Cglm.C72_vec4_addsub",
    "Cglm.C72_vec4_mulsub",
    "Cglm.C72_vec4_mulsubs",
    "Cglm.C72_vec4_maxsub",
    "Cglm.C72_vec4_minsub",
    "Cglm.C72_vec4_negate_to",
    "Cglm.C72_vec4_negate",
    "Cglm.C72_vec4_normalize_to",
    "Cglm.C72_vec4_normalize",
    "Cglm.C72_vec4_distance",
    "Cglm.C72_vec4_distance2",
    "Cglm.C72_vec4_maxv",
    "Cglm.C72_vec4_minv",
    "Cglm.C72_vec4_clamp",
    "Cglm.C72_vec4_lerp",
    "Cglm.C72_vec4_lerpc",
    "Cglm.C72_vec4_mix",
    "Cglm.C72_vec4_mixc",
    "Cglm.C72_vec4_step",
    "Cglm.C72_vec4_smoothstep_uni",
    "Cglm.C72_vec4_smoothstep",
    "Cglm.C72_vec4_smoothinterp",
    "Cglm.C72_vec4_smoothinterpc",
    "Cglm.C72_vec4_cubic",
    "Cglm.C72_vec4_make",
    "Cglm.C72_vec4_reflect",
    "Cglm.C72_vec4_refract",
    "Cglm.C72_vec3",
    "Cglm.C72_vec3_copy",
    "Cglm.C72_vec3_zero",
    "Cglm.C72_vec3_one",
    "Cglm.C72_vec3_dot",
    "Cglm.C72_vec3_norm2",
    "Cglm.C72_vec3_norm",
    "Cglm.C72_vec3_norm_one",
    "Cglm.C72_vec3_norm_inf",
    "Cglm.C72_vec3_add",
    "Cglm.C72_vec3_adds",
    "Cglm.C72_vec3_sub",
    "Cglm.C72_vec3_subs",
    "Cglm.C72_vec3_mul",
    "Cglm.C72_vec3_scale",
    "Cglm.C72_vec3_scale_as",
    "Cglm.C72_vec3_div",
    "Cglm.C72_vec3_divs",
    "Cglm.C72_vec3_addadd",
    "Cglm.C72_vec3_subadd",
    "Cglm.C72_vec3_muladd",
    "Cglm.C72_vec3_muladds",
    "Cglm.C72_vec3_maxadd",
    "Cglm.C72_vec3_minadd",
    "Cglm.C72_vec3_subsub",
    "Cglm.C72_vec3_addsub",
    "Cglm.C72_vec3_mulsub",
    "Cglm.C72_vec3_mulsubs",
    "Cglm.C72_vec3_maxsub",
    "Cglm.C72_vec3_minsub",
    "Cglm.C72_vec3_negate_to",
    "Cglm.C72_vec3_negate",
    "Cglm.C72_vec3_normalize",
    "Cglm.C72_vec3_normalize_to",
    "Cglm.C72_vec3_cross",
    "Cglm.C72_vec3_crossn",
    "Cglm.C72_vec3_angle",
    "Cglm.C72_vec3_rotate",
    "Cglm.C72_vec3_rotate_m4",
    "Cglm.C72_vec3_rotate_m3",
    "Cglm.C72_vec3_proj",
    "Cglm.C72_vec3_center",
    "Cglm.C72_vec3_distance2",
    "Cglm.C72_vec3_distance",
    "Cglm.C72_vec3_maxv",
    "Cglm.C72_vec3_minv",
    "Cglm.C72_vec3_ortho",
    "Cglm.C72_vec3_clamp",
    "Cglm.C72_vec3_lerp",
    "Cglm.C72_vec3_lerpc",
    "Cglm.C72_vec3_mix",
    "Cglm.C72_vec3_mixc",
    "Cglm.C72_vec3_step",
    "Cglm.C72_vec3_smoothstep_uni",
    "Cglm.C72_vec3_smoothstep",
    "Cglm.C72_vec3_smoothinterp",
    "Cglm.C72_vec3_smoothinterpc",
    "Cglm.C72_cross",
    "Cglm.C72_dot",
    "Cglm.C72_normalize",
    "Cglm.C72_normalize_to",
    "Cglm.C72_vec3_make",
    "Cglm.C72_vec3_faceforward",
    "Cglm.C72_vec3_reflect",
    "Cglm.C72_vec3_refract"
   ],
   "note": "All 679 float functions of the scalar model. The preconditions of the 150 functions that have one are exact (_iff theorems). Real arithmetic; overflow and rounding are C64/C65."
  },
  {
   "property": "C73",
   "status": "partial",
   "theorems": [
    "Cglm.C73_exact_rh_no",
    "Cglm.C73_exact_lh_no",
    "Cglm.C73_exact_rh_zo",
    "Cglm.C73_exact_lh_zo",
    "Cglm.C73_camera_rh_no",
    "Cglm.C73_camera_lh_no",
    "Cglm.C73_camera_rh_zo_partial",
    "Cglm.C73_camera_lh_zo_partial",
    "Cglm.C73_near_zo",
    "Cglm.C73_cull_rh",
    "Cglm.C73_cull_lh",
    "Cglm.C73_refuted_zo",
    "Cglm.C73_refuted_far",
    "Cglm.C73_corners_rh_no",
    "Cglm.C73_corners_lh_no",
    "Cglm.C73_corners_rh_zo_partial",
    "Cglm.C73_corners_lh_zo_partial",
    "Cglm.C73_split",
    "Cglm.C73_split_depth",
    "Cglm.C73_ortho_rh_no",
    "Cglm.C73_ortho_lh_no",
    "Cglm.C73_ortho_rh_zo_partial",
    "Cglm.C73_ortho_lh_zo_partial",
    "Cglm.C73_ortho_refuted_zo"
   ],
   "note": "Exact for depth range [-1,1] while the far plane is not dropped (FLT_EPSILON \u2264 2n/(f-n)). Refuted for depth range [0,1]: planes and corners use z = -w, so the near plane is at f n/(2f-n) (perspective) or 2n-f (orthographic). Refuted for far planes that plane normalization drops. Culling never loses a visible box in any case. glm_frustum_corners_at cuts at depth n + (f-n) split/f."
  },
  {
   "property": "C74",
   "status": "proved",
   "theorems": [
    "Cglm.C74_history",
    "Cglm.C74_rigid",
    "Cglm.C74_undo",
    "Cglm.C74_distance",
    "Cglm.C74_bounds",
    "Cglm.C74_bounds_isvalid",
    "Cglm.C74_bounds_order",
    "Cglm.C74_bounds_again",
    "Cglm.C74_bounds2d",
    "Cglm.C74_bounds2d_isvalid",
    "Cglm.C74_bounds2d_order",
    "Cglm.C74_bounds2d_again",
    "Cglm.C74_cull_mono",
    "Cglm.C74_cull_bounds",
    "Cglm.C74_crop",
    "Cglm.C74_crop2d",
    "Cglm.C74_sphere",
    "Cglm.C74_flat",
    "Cglm.C74_flat_identity",
    "Cglm.C74_flat_area",
    "Cglm.C74_lens_rh_no",
    "Cglm.C74_lens_rh_zo",
    "Cglm.C74_lens_lh_no",
    "Cglm.C74_lens_lh_zo",
    "Cglm.C74_turns",
    "Cglm.C74_turns_identity",
    "Cglm.C74_turns_unit",
    "Cglm.C74_turns_normalized",
    "Cglm.C74_turns_mat3",
    "Cglm.C74_turns_undo"
   ],
   "note": "Arbitrary histories of 19 calls on 4x4 matrices, 12 on 3x3, five on quaternions, merges and crops of boxes, merges of spheres, resizes and far-plane moves in the four depth/handedness conventions."
  },
  {
   "property": "C75",
   "status": "partial",
   "theorems": [
    "Cglm.C75_ivec2",
    "Cglm.C75_ivec3",
    "Cglm.C75_ivec4",
    "Cglm.C75_ivec4_injective",
    "Cglm.C75_vec2",
    "Cglm.C75_vec3",
    "Cglm.C75_vec4",
    "Cglm.C75_versor",
    "Cglm.C75_aabb",
    "Cglm.C75_append",
    "Cglm.C75_mat4",
    "Cglm.C75_mat3",
    "Cglm.C75_mat2",
    "Cglm.C75_mat4_aligned_partial",
    "Cglm.C75_mat3_aligned_partial",
    "Cglm.C75_mat2_aligned_partial",
    "Cglm.C75_aligned_refuted",
    "Cglm.C75_arch_partial",
    "Cglm.C75_neon_refuted",
    "Cglm.C75_arch_name",
    "Cglm.C75_switch",
    "Cglm.C75_release",
    "Cglm.C75_glms_mat4",
    "Cglm.C75_glms_mat3",
    "Cglm.C75_glms_vec4",
    "Cglm.C75_glms_ivec4",
    "Cglm.C75_glms_vec3",
    "Cglm.C75_glms_ivec3",
    "Cglm.C75_glms_vec2",
    "Cglm.C75_glms_ivec2",
    "Cglm.C75_glms_versor",
    "Cglm.C75_glms_aabb",
    "Cglm.C75_glmc_mat4",
    "Cglm.C75_glmc_mat3",
    "Cglm.C75_glmc_vec4",
    "Cglm.C75_glmc_vec3",
    "Cglm.C75_glmc_versor"
   ],
   "note": "Vectors, quaternions, boxes and the values in matrices proved. The format of a matrix element is chosen by looking at the element across the diagonal, so columns are misaligned when only one of the two exceeds the limit (C75_aligned_refuted); proved otherwise. glm_arch_print mentions NEON_FP exactly when it is not available (C75_neon_refuted)."
  },
  {
   "property": "C76",
   "status": "proved",
   "theorems": [
    "Cglm.C76_vec2_add",
    "Cglm.C76_vec2_adds",
    "Cglm.C76_vec2_sub",
    "Cglm.C76_vec2_subs",
    "Cglm.C76_vec2_mul",
    "Cglm.C76_vec2_scale",
    "Cglm.C76_vec2_dot",
    "Cglm.C76_vec2_norm2",
    "Cglm.C76_vec2_muladd",
    "Cglm.C76_vec2_muladds",
    "Cglm.C76_vec2_mulsub",
    "Cglm.C76_vec2_mulsubs",
    "Cglm.C76_vec2_addadd",
    "Cglm.C76_vec2_subadd",
    "Cglm.C76_vec2_addsub",
    "Cglm.C76_vec2_subsub",
    "Cglm.C76_vec2_center",
    "Cglm.C76_vec2_distance2",
    "Cglm.C76_vec3_add",
    "Cglm.C76_vec3_adds",
    "Cglm.C76_vec3_sub",
    "Cglm.C76_vec3_subs",
    "Cglm.C76_vec3_mul",
    "Cglm.C76_vec3_scale",
    "Cglm.C76_vec3_dot",
    "Cglm.C76_vec3_norm2",
    "Cglm.C76_vec3_muladd",
    "Cglm.C76_vec3_muladds",
    "Cglm.C76_vec3_mulsub",
    "Cglm.C76_vec3_mulsubs",
    "Cglm.C76_vec3_addadd",
    "Cglm.C76_vec3_subadd",
    "Cglm.C76_vec3_addsub",
    "Cglm.C76_vec3_subsub",
    "Cglm.C76_vec3_center",
    "Cglm.C76_vec3_distance2",
    "Cglm.C76_vec3_hadd",
    "Cglm.C76_vec4_add",
    "Cglm.C76_vec4_adds",
    "Cglm.C76_vec4_sub",
    "Cglm.C76_vec4_subs",
    "Cglm.C76_vec4_mul",
    "Cglm.C76_vec4_scale",
    "Cglm.C76_vec4_dot",
    "Cglm.C76_vec4_norm2",
    "Cglm.C76_vec4_muladd",
    "Cglm.C76_vec4_muladds",
    "Cglm.C76_vec4_mulsub",
    "Cglm.C76_vec4_mulsubs",
    "Cglm.C76_vec4_addadd",
    "Cglm.C76_vec4_subadd",
    "Cglm.C76_vec4_addsub",
    "Cglm.C76_vec4_subsub",
    "Cglm.C76_vec4_distance2",
    "Cglm.C76_vec4_hadd",
    "Cglm.C76_vec2_cross",
    "Cglm.C76_vec3_cross",
    "Cglm.C76_vec2_complex_mul",
    "Cglm.C76_quat_mul",
    "Cglm.C76_quat_dot",
    "Cglm.C76_aabb_center",
    "Cglm.C76_aabb2d_center",
    "Cglm.C76_agree_vec4_dot",
    "Cglm.C76_agree_mat4_mulv",
    "Cglm.C76_agree_mat4_mul",
    "Cglm.C76_agree_quat_mul",
    "Cglm.C76_agree_mat4_det",
    "Cglm.C76_Avx_vec4_dot",
    "Cglm.C76_Avx_vec4_norm2",
    "Cglm.C76_Avx_vec4_distance2",
    "Cglm.C76_Avx_vec4_hadd",
    "Cglm.C76_Avx_vec4_muladd",
    "Cglm.C76_Avx_vec4_muladds",
    "Cglm.C76_Avx_vec4_mulsub",
    "Cglm.C76_Avx_vec4_mulsubs",
    "Cglm.C76_Avx_mat2_mul",
    "Cglm.C76_Avx_mat3_mul",
    "Cglm.C76_Avx_mat4_mul",
    "Cglm.C76_Avx_mat4_mulv",
    "Cglm.C76_Avx_mat4_mulv3",
    "Cglm.C76_Avx_mat4_det",
    "Cglm.C76_Avx_mat4_rmc",
    "Cglm.C76_Avx_quat_mul",
    "Cglm.C76_Avx_mul",
    "Cglm.C76_Avx_mul_rot",
    "Cglm.C76_Avx_translate",
    "Cglm.C76_chain",
    "Cglm.C76_walk",
    "Cglm.C76_axes",
    "Cglm.C76_vec2_norm",
    "Cglm.C76_vec3_norm",
    "Cglm.C76_vec4_norm",
    "Cglm.C76_vec3_distance",
    "Cglm.C76_limit",
    "Cglm.C76_Fma_vec4_dot",
    "Cglm.C76_Fma_vec4_norm2",
    "Cglm.C76_Fma_vec4_distance2",
    "Cglm.C76_Fma_vec4_hadd",
    "Cglm.C76_Fma_vec4_muladd",
    "Cglm.C76_Fma_vec4_muladds",
    "Cglm.C76_Fma_vec4_mulsub",
    "Cglm.C76_Fma_vec4_mulsubs",
    "Cglm.C76_Fma_mat2_mul",
    "Cglm.C76_Fma_mat3_mul",
    "Cglm.C76_Fma_mat4_mul",
    "Cglm.C76_Fma_mat4_mulv",
    "Cglm.C76_Fma_mat4_mulv3",
    "Cglm.C76_Fma_mat4_det",
    "Cglm.C76_Fma_mat4_rmc",
    "Cglm.C76_Fma_quat_mul",
    "Cglm.C76_Fma_mul",
    "Cglm.C76_Fma_mul_rot",
    "Cglm.C76_Fma_translate",
    "Cglm.C76_mat2_mulv",
    "Cglm.C76_mat2_mul",
    "Cglm.C76_mat2_scale",
    "Cglm.C76_mat2_trace",
    "Cglm.C76_mat2_rmc",
    "Cglm.C76_mat3_mulv",
    "Cglm.C76_mat3_mul",
    "Cglm.C76_mat3_scale",
    "Cglm.C76_mat3_trace",
    "Cglm.C76_mat3_rmc",
    "Cglm.C76_mat4_mulv",
    "Cglm.C76_mat4_mul",
    "Cglm.C76_mat4_scale",
    "Cglm.C76_mat4_trace",
    "Cglm.C76_mat4_rmc",
    "Cglm.C76_mat2_det",
    "Cglm.C76_mat3_det",
    "Cglm.C76_mat4_det",
    "Cglm.C76_mat2x3_mulv",
    "Cglm.C76_mat2x3_mul",
    "Cglm.C76_mat2x4_mulv",
    "Cglm.C76_mat2x4_mul",
    "Cglm.C76_mat3x2_mulv",
    "Cglm.C76_mat3x2_mul",
    "Cglm.C76_mat3x4_mulv",
    "Cglm.C76_mat3x4_mul",
    "Cglm.C76_mat4x2_mulv",
    "Cglm.C76_mat4x2_mul",
    "Cglm.C76_mat4x3_mulv",
    "Cglm.C76_mat4x3_mul",
    "Cglm.C76_mat4_mulv3",
    "Cglm.C76_mul",
    "Cglm.C76_mul_rot",
    "Cglm.C76_translate",
    "Cglm.C76_translate_to",
    "Cglm.C76_translate2d",
    "Cglm.C76_scale_to",
    "Cglm.C76_Neon32_vec4_dot",
    "Cglm.C76_Neon32_vec4_norm2",
    "Cglm.C76_Neon32_vec4_distance2",
    "Cglm.C76_Neon32_vec4_muladd",
    "Cglm.C76_Neon32_vec4_muladds",
    "Cglm.C76_Neon32_vec4_mulsub",
    "Cglm.C76_Neon32_vec4_mulsubs",
    "Cglm.C76_Neon32_mat2_mul",
    "Cglm.C76_Neon32_mat4_mul",
    "Cglm.C76_Neon32_mat4_mulv",
    "Cglm.C76_Neon32_mat4_mulv3",
    "Cglm.C76_Neon32_mat4_det",
    "Cglm.C76_Neon32_mat4_rmc",
    "Cglm.C76_Neon32_quat_mul",
    "Cglm.C76_Neon32_mul",
    "Cglm.C76_Neon32_mul_rot",
    "Cglm.C76_Neon32_translate",
    "Cglm.C76_Neon64_vec4_dot",
    "Cglm.C76_Neon64_vec4_norm2",
    "Cglm.C76_Neon64_vec4_distance2",
    "Cglm.C76_Neon64_vec4_muladd",
    "Cglm.C76_Neon64_vec4_muladds",
    "Cglm.C76_Neon64_vec4_mulsub",
    "Cglm.C76_Neon64_vec4_mulsubs",
    "Cglm.C76_Neon64_mat2_mul",
    "Cglm.C76_Neon64_mat4_mul",
    "Cglm.C76_Neon64_mat4_mulv",
    "Cglm.C76_Neon64_mat4_mulv3",
    "Cglm.C76_Neon64_mat4_det",
    "Cglm.C76_Neon64_mat4_rmc",
    "Cglm.C76_Neon64_quat_mul",
    "Cglm.C76_Neon64_mul",
    "Cglm.C76_Neon64_mul_rot",
    "Cglm.C76_Neon64_translate",
    "Cglm.C76_Sse_vec4_dot",
    "Cglm.C76_Sse_vec4_norm2",
    "Cglm.C76_Sse_vec4_distance2",
    "Cglm.C76_Sse_vec4_hadd",
    "Cglm.C76_Sse_vec4_muladd",
    "Cglm.C76_Sse_vec4_muladds",
    "Cglm.C76_Sse_vec4_mulsub",
    "Cglm.C76_Sse_vec4_mulsubs",
    "Cglm.C76_Sse_mat2_mul",
    "Cglm.C76_Sse_mat3_mul",
    "Cglm.C76_Sse_mat4_mul",
    "Cglm.C76_Sse_mat4_mulv",
    "Cglm.C76_Sse_mat4_mulv3",
    "Cglm.C76_Sse_mat4_det",
    "Cglm.C76_Sse_mat4_rmc",
    "Cglm.C76_Sse_quat_mul",
    "Cglm.C76_Sse_mul",
    "Cglm.C76_Sse_mul_rot",
    "Cglm.C76_Sse_translate",
    "Cglm.C76_Sse2_vec4_dot",
    "Cglm.C76_Sse2_vec4_norm2",
    "Cglm.C76_Sse2_vec4_distance2",
    "Cglm.C76_Sse2_vec4_hadd",
    "Cglm.C76_Sse2_vec4_muladd",
    "Cglm.C76_Sse2_vec4_muladds",
    "Cglm.C76_Sse2_vec4_mulsub",
    "Cglm.C76_Sse2_vec4_mulsubs",
    "Cglm.C76_Sse2_mat2_mul",
    "Cglm.C76_Sse2_mat3_mul",
    "Cglm.C76_Sse2_mat4_mul",
    "Cglm.C76_Sse2_mat4_mulv",
    "Cglm.C76_Sse2_mat4_mulv3",
    "Cglm.C76_Sse2_mat4_det",
    "Cglm.C76_Sse2_mat4_rmc",
    "Cglm.C76_Sse2_quat_mul",
    "Cglm.C76_Sse2_mul",
    "Cglm.C76_Sse2_mul_rot",
    "Cglm.C76_Sse2_translate",
    "Cglm.C76_Sse3_vec4_dot",
    "Cglm.C76_Sse3_vec4_norm2",
    "Cglm.C76_Sse3_vec4_distance2",
    "Cglm.C76_Sse3_vec4_hadd",
    "Cglm.C76_Sse3_vec4_muladd",
    "Cglm.C76_Sse3_vec4_muladds",
    "Cglm.C76_Sse3_vec4_mulsub",
    "Cglm.C76_Sse3_vec4_mulsubs",
    "Cglm.C76_Sse3_mat2_mul",
    "Cglm.C76_Sse3_mat3_mul",
    "Cglm.C76_Sse3_mat4_mul",
    "Cglm.C76_Sse3_mat4_mulv",
    "Cglm.C76_Sse3_mat4_mulv3",
    "Cglm.C76_Sse3_mat4_det",
    "Cglm.C76_Sse3_mat4_rmc",
    "Cglm.C76_Sse3_quat_mul",
    "Cglm.C76_Sse3_mul",
    "Cglm.C76_Sse3_mul_rot",
    "Cglm.C76_Sse3_translate",
    "Cglm.C76_Sse4_vec4_dot",
    "Cglm.C76_Sse4_vec4_norm2",
    "Cglm.C76_Sse4_vec4_distance2",
    "Cglm.C76_Sse4_vec4_hadd",
    "Cglm.C76_Sse4_vec4_muladd",
    "Cglm.C76_Sse4_vec4_muladds",
    "Cglm.C76_Sse4_vec4_mulsub",
    "Cglm.C76_Sse4_vec4_mulsubs",
    "Cglm.C76_Sse4_mat2_mul",
    "Cglm.C76_Sse4_mat3_mul",
    "Cglm.C76_Sse4_mat4_mul",
    "Cglm.C76_Sse4_mat4_mulv",
    "Cglm.C76_Sse4_mat4_mulv3",
    "Cglm.C76_Sse4_mat4_det",
    "Cglm.C76_Sse4_mat4_rmc",
    "Cglm.C76_Sse4_quat_mul",
    "Cglm.C76_Sse4_mul",
    "Cglm.C76_Sse4_mul_rot",
    "Cglm.C76_Sse4_translate",
    "Cglm.C76_Wasm_vec4_dot",
    "Cglm.C76_Wasm_vec4_norm2",
    "Cglm.C76_Wasm_vec4_distance2",
    "Cglm.C76_Wasm_vec4_hadd",
    "Cglm.C76_Wasm_vec4_muladd",
    "Cglm.C76_Wasm_vec4_muladds",
    "Cglm.C76_Wasm_vec4_mulsub",
    "Cglm.C76_Wasm_vec4_mulsubs",
    "Cglm.C76_Wasm_mat2_mul",
    "Cglm.C76_Wasm_mat3_mul",
    "Cglm.C76_Wasm_mat4_mul",
    "Cglm.C76_Wasm_mat4_mulv",
    "Cglm.C76_Wasm_mat4_mulv3",
    "Cglm.C76_Wasm_mat4_det",
    "Cglm.C76_Wasm_mat4_rmc",
    "Cglm.C76_Wasm_quat_mul",
    "Cglm.C76_Wasm_mul",
    "Cglm.C76_Wasm_mul_rot",
    "Cglm.C76_Wasm_translate"
   ],
   "note": "Scalar code and nine SIMD configurations. Bounds are symbolic for sums and products of two arguments, numeric for determinants and row-matrix-column products."
  },
  {
   "property": "C77",
   "status": "partial",
   "theorems": [
    "Cglm.C77_min",
    "Cglm.C77_max",
    "Cglm.C77_clamp",
    "Cglm.C77_clamp_zo",
    "Cglm.C77_step",
    "Cglm.C77_lerp",
    "Cglm.C77_lerp_down",
    "Cglm.C77_lerpc",
    "Cglm.C77_lerpc_lower",
    "Cglm.C77_lerpc_upper_fails",
    "Cglm.C77_percent",
    "Cglm.C77_percent_range",
    "Cglm.C77_percentc",
    "Cglm.C77_rad",
    "Cglm.C77_deg",
    "Cglm.C77_smooth_fails",
    "Cglm.C77_aabb_point_exact",
    "Cglm.C77_aabb_aabb_exact",
    "Cglm.C77_aabb_contains_exact",
    "Cglm.C77_aabb2d_point_exact",
    "Cglm.C77_aabb2d_aabb_exact",
    "Cglm.C77_aabb2d_contains_exact",
    "Cglm.C77_aabb_merge",
    "Cglm.C77_aabb_crop",
    "Cglm.C77_aabb_frustum",
    "Cglm.C77_sphere_point",
    "Cglm.C77_aabb_sphere",
    "Cglm.C77_aabb2d_circle",
    "Cglm.C77_sphere_sphere",
    "Cglm.C77_aabb_size",
    "Cglm.C77_aabb_radius",
    "Cglm.C77_aabb_transform",
    "Cglm.C77_aabb_transform_point_fails",
    "Cglm.C77_mat3_mulv",
    "Cglm.C77_mat4_mulv",
    "Cglm.C77_ease_linear",
    "Cglm.C77_ease_quad_in",
    "Cglm.C77_ease_cubic_in",
    "Cglm.C77_ease_cubic_out",
    "Cglm.C77_ease_quart_in",
    "Cglm.C77_ease_quart_out",
    "Cglm.C77_ease_quint_in",
    "Cglm.C77_ease_quint_out",
    "Cglm.C77_ease_cubic_inout",
    "Cglm.C77_ease_quart_inout",
    "Cglm.C77_ease_quint_inout",
    "Cglm.C77_ease_circ_in",
    "Cglm.C77_ease_quad_out_fails",
    "Cglm.C77_ease_circ_out_fails",
    "Cglm.C77_follow_step",
    "Cglm.C77_follow",
    "Cglm.C77_follow_rests",
    "Cglm.C77_follow_arrives_fails",
    "Cglm.C77_follow_vec3",
    "Cglm.C77_follow_vec4",
    "Cglm.C77_ease_quad_out_range",
    "Cglm.C77_ease_circ_out_range",
    "Cglm.C77_ease_quad_inout_range",
    "Cglm.C77_ease_circ_inout_range",
    "Cglm.C77_vec2_add",
    "Cglm.C77_vec2_sub",
    "Cglm.C77_vec2_adds",
    "Cglm.C77_vec2_scale",
    "Cglm.C77_vec2_muladds",
    "Cglm.C77_vec2_minv",
    "Cglm.C77_vec2_maxv",
    "Cglm.C77_vec2_clamp",
    "Cglm.C77_vec2_step",
    "Cglm.C77_vec2_floor",
    "Cglm.C77_vec2_lerp",
    "Cglm.C77_vec2_dot",
    "Cglm.C77_vec2_max",
    "Cglm.C77_vec2_min",
    "Cglm.C77_vec2_norm2",
    "Cglm.C77_vec2_norm",
    "Cglm.C77_vec3_add",
    "Cglm.C77_vec3_sub",
    "Cglm.C77_vec3_adds",
    "Cglm.C77_vec3_scale",
    "Cglm.C77_vec3_muladds",
    "Cglm.C77_vec3_minv",
    "Cglm.C77_vec3_maxv",
    "Cglm.C77_vec3_clamp",
    "Cglm.C77_vec3_step",
    "Cglm.C77_vec3_floor",
    "Cglm.C77_vec3_lerp",
    "Cglm.C77_vec3_lerpc",
    "Cglm.C77_vec3_dot",
    "Cglm.C77_vec3_max",
    "Cglm.C77_vec3_min",
    "Cglm.C77_vec3_norm2",
    "Cglm.C77_vec3_norm",
    "Cglm.C77_vec3_norm_one",
    "Cglm.C77_vec3_norm_inf",
    "Cglm.C77_vec4_add",
    "Cglm.C77_vec4_sub",
    "Cglm.C77_vec4_adds",
    "Cglm.C77_vec4_scale",
    "Cglm.C77_vec4_muladds",
    "Cglm.C77_vec4_minv",
    "Cglm.C77_vec4_maxv",
    "Cglm.C77_vec4_clamp",
    "Cglm.C77_vec4_step",
    "Cglm.C77_vec4_floor",
    "Cglm.C77_vec4_lerp",
    "Cglm.C77_vec4_lerpc",
    "Cglm.C77_vec4_dot",
    "Cglm.C77_vec4_max",
    "Cglm.C77_vec4_min",
    "Cglm.C77_vec4_norm2",
    "Cglm.C77_vec4_norm",
    "Cglm.C77_vec4_norm_one",
    "Cglm.C77_vec4_norm_inf"
   ],
   "note": "Refuted: the smooth step and the easing curves quad_out and circ_out reverse some neighbouring inputs (C77_smooth_fails, C77_ease_quad_out_fails, C77_ease_circ_out_fails); their ranges are proved. Interpolation at the end point can pass it (C77_lerpc_upper_fails). A following value may rest before the target (C77_follow_arrives_fails). A transformed point can lie outside the transformed box (C77_aabb_transform_point_fails)."
  },
  {
   "property": "C78",
   "status": "proved",
   "theorems": [
    "Cglm.C78_vec3_normalize",
    "Cglm.C78_vec3_normalize_to",
    "Cglm.C78_vec3_crossn",
    "Cglm.C78_vec3_scale_as",
    "Cglm.C78_vec3_faceforward",
    "Cglm.C78_vec3_refract",
    "Cglm.C78_vec3_proj",
    "Cglm.C78_vec3_rotate",
    "Cglm.C78_rotate_make",
    "Cglm.C78_rotate",
    "Cglm.C78_rotate_at",
    "Cglm.C78_quatv",
    "Cglm.C78_quat_normalize_to",
    "Cglm.C78_quat_normalize",
    "Cglm.C78_quat_inv",
    "Cglm.C78_quat_nlerp",
    "Cglm.C78_quat_rotatev",
    "Cglm.C78_quat_mat3",
    "Cglm.C78_quat_mat4",
    "Cglm.C78_quat_rotate",
    "Cglm.C78_quat_rotate_at",
    "Cglm.C78_mat3_inv",
    "Cglm.C78_mat4_inv",
    "Cglm.C78_rotate_atm",
    "Cglm.C78_spin",
    "Cglm.C78_spinned",
    "Cglm.C78_rotated",
    "Cglm.C78_sphere_merge",
    "Cglm.C78_sphere_sphere",
    "Cglm.C78_sphere_point",
    "Cglm.C78_plane_normalize",
    "Cglm.C78_ray_triangle",
    "Cglm.C78_ray_sphere",
    "Cglm.C78_vec3_rotate_m4",
    "Cglm.C78_vec3_rotate_m3",
    "Cglm.C78_decompose_scalev",
    "Cglm.C78_decompose_rs",
    "Cglm.C78_mat3_quat",
    "Cglm.C78_mat4_quat",
    "Cglm.C78_history",
    "Cglm.C78_mat3_inv_singular_fails",
    "Cglm.C78_vec3_add",
    "Cglm.C78_vec3_sub",
    "Cglm.C78_vec3_scale",
    "Cglm.C78_vec3_negate",
    "Cglm.C78_vec3_negate_to",
    "Cglm.C78_vec3_dot",
    "Cglm.C78_vec3_cross",
    "Cglm.C78_vec3_norm2",
    "Cglm.C78_vec3_norm",
    "Cglm.C78_vec3_distance2",
    "Cglm.C78_vec3_distance",
    "Cglm.C78_vec3_lerp",
    "Cglm.C78_vec3_center",
    "Cglm.C78_vec3_muladds",
    "Cglm.C78_vec3_mulsubs",
    "Cglm.C78_vec3_reflect",
    "Cglm.C78_vec3_divs",
    "Cglm.C78_vec3_norm_one",
    "Cglm.C78_mat3_mulv",
    "Cglm.C78_mat3_mul",
    "Cglm.C78_mat3_transpose_to",
    "Cglm.C78_mat3_scale",
    "Cglm.C78_mat3_trace",
    "Cglm.C78_mat3_det",
    "Cglm.C78_mat3_rmc",
    "Cglm.C78_mat4_mulv",
    "Cglm.C78_mat4_mul",
    "Cglm.C78_mat4_transpose_to",
    "Cglm.C78_mat4_scale",
    "Cglm.C78_mat4_trace",
    "Cglm.C78_mat4_trace3",
    "Cglm.C78_mat4_det",
    "Cglm.C78_mat4_rmc",
    "Cglm.C78_mat4_mulv3",
    "Cglm.C78_mat4_pick3",
    "Cglm.C78_mat4_pick3t",
    "Cglm.C78_mat4_ins3",
    "Cglm.C78_mul",
    "Cglm.C78_mul_rot",
    "Cglm.C78_inv_tr",
    "Cglm.C78_translate",
    "Cglm.C78_translate_to",
    "Cglm.C78_translate_make",
    "Cglm.C78_scale",
    "Cglm.C78_scale_to",
    "Cglm.C78_scale_make",
    "Cglm.C78_scale_uni",
    "Cglm.C78_quat_mul",
    "Cglm.C78_quat_conjugate",
    "Cglm.C78_quat_dot",
    "Cglm.C78_quat_norm",
    "Cglm.C78_quat_add",
    "Cglm.C78_quat_sub",
    "Cglm.C78_quat_lerp",
    "Cglm.C78_quat_imag",
    "Cglm.C78_quat_real",
    "Cglm.C78_quat_imaglen",
    "Cglm.C78_ray_at",
    "Cglm.C78_sphere_transform",
    "Cglm.C78_mat4_copy",
    "Cglm.C78_mat3_copy",
    "Cglm.C78_mat4_identity",
    "Cglm.C78_mat3_identity",
    "Cglm.C78_quat_identity"
   ],
   "note": "Functions that call libm on computed values other than the given angle are left out, since libm is arbitrary in the model. The need for a finite inverse is shown by C78_mat3_inv_singular_fails."
  },
  {
   "property": "C79",
   "status": "proved",
   "theorems": [
    "Cglm.C79_vec2_dot",
    "Cglm.C79_vec2_norm2",
    "Cglm.C79_vec2_muladd",
    "Cglm.C79_vec2_muladds",
    "Cglm.C79_vec2_mulsub",
    "Cglm.C79_vec2_mulsubs",
    "Cglm.C79_vec2_addadd",
    "Cglm.C79_vec2_subadd",
    "Cglm.C79_vec2_addsub",
    "Cglm.C79_vec2_subsub",
    "Cglm.C79_vec2_distance2",
    "Cglm.C79_vec3_dot",
    "Cglm.C79_vec3_norm2",
    "Cglm.C79_vec3_muladd",
    "Cglm.C79_vec3_muladds",
    "Cglm.C79_vec3_mulsub",
    "Cglm.C79_vec3_mulsubs",
    "Cglm.C79_vec3_addadd",
    "Cglm.C79_vec3_subadd",
    "Cglm.C79_vec3_addsub",
    "Cglm.C79_vec3_subsub",
    "Cglm.C79_vec3_distance2",
    "Cglm.C79_vec4_dot",
    "Cglm.C79_vec4_norm2",
    "Cglm.C79_vec4_muladd",
    "Cglm.C79_vec4_muladds",
    "Cglm.C79_vec4_mulsub",
    "Cglm.C79_vec4_mulsubs",
    "Cglm.C79_vec4_addadd",
    "Cglm.C79_vec4_subadd",
    "Cglm.C79_vec4_addsub",
    "Cglm.C79_vec4_subsub",
    "Cglm.C79_vec4_distance2",
    "Cglm.C79_vec2_cross",
    "Cglm.C79_vec3_cross",
    "Cglm.C79_vec2_complex_mul",
    "Cglm.C79_quat_mul",
    "Cglm.C79_quat_dot",
    "Cglm.C79_lerp",
    "Cglm.C79_luminance",
    "Cglm.C79_vec3_lerp",
    "Cglm.C79_vec4_lerp",
    "Cglm.C79_grid_vec2_add",
    "Cglm.C79_grid_vec2_adds",
    "Cglm.C79_grid_vec2_sub",
    "Cglm.C79_grid_vec2_subs",
    "Cglm.C79_grid_vec2_mul",
    "Cglm.C79_grid_vec2_scale",
    "Cglm.C79_grid_vec2_dot",
    "Cglm.C79_grid_vec2_norm2",
    "Cglm.C79_grid_vec2_muladd",
    "Cglm.C79_grid_vec2_muladds",
    "Cglm.C79_grid_vec2_mulsub",
    "Cglm.C79_grid_vec2_mulsubs",
    "Cglm.C79_grid_vec2_addadd",
    "Cglm.C79_grid_vec2_subadd",
    "Cglm.C79_grid_vec2_addsub",
    "Cglm.C79_grid_vec2_subsub",
    "Cglm.C79_grid_vec2_center",
    "Cglm.C79_grid_vec2_distance2",
    "Cglm.C79_grid_vec3_add",
    "Cglm.C79_grid_vec3_adds",
    "Cglm.C79_grid_vec3_sub",
    "Cglm.C79_grid_vec3_subs",
    "Cglm.C79_grid_vec3_mul",
    "Cglm.C79_grid_vec3_scale",
    "Cglm.C79_grid_vec3_dot",
    "Cglm.C79_grid_vec3_norm2",
    "Cglm.C79_grid_vec3_muladd",
    "Cglm.C79_grid_vec3_muladds",
    "Cglm.C79_grid_vec3_mulsub",
    "Cglm.C79_grid_vec3_mulsubs",
    "Cglm.C79_grid_vec3_addadd",
    "Cglm.C79_grid_vec3_subadd",
    "Cglm.C79_grid_vec3_addsub",
    "Cglm.C79_grid_vec3_subsub",
    "Cglm.C79_grid_vec3_center",
    "Cglm.C79_grid_vec3_distance2",
    "Cglm.C79_grid_vec3_hadd",
    "Cglm.C79_grid_vec4_add",
    "Cglm.C79_grid_vec4_adds",
    "Cglm.C79_grid_vec4_sub",
    "Cglm.C79_grid_vec4_subs",
    "Cglm.C79_grid_vec4_mul",
    "Cglm.C79_grid_vec4_scale",
    "Cglm.C79_grid_vec4_dot",
    "Cglm.C79_grid_vec4_norm2",
    "Cglm.C79_grid_vec4_muladd",
    "Cglm.C79_grid_vec4_muladds",
    "Cglm.C79_grid_vec4_mulsub",
    "Cglm.C79_grid_vec4_mulsubs",
    "Cglm.C79_grid_vec4_addadd",
    "Cglm.C79_grid_vec4_subadd",
    "Cglm.C79_grid_vec4_addsub",
    "Cglm.C79_grid_vec4_subsub",
    "Cglm.C79_grid_vec4_distance2",
    "Cglm.C79_grid_vec4_hadd",
    "Cglm.C79_grid_vec2_cross",
    "Cglm.C79_grid_vec3_cross",
    "Cglm.C79_grid_vec2_complex_mul",
    "Cglm.C79_grid_quat_mul",
    "Cglm.C79_grid_quat_dot",
    "Cglm.C79_grid_aabb_center",
    "Cglm.C79_grid_aabb2d_center",
    "Cglm.C79_grid_mat2_mulv",
    "Cglm.C79_grid_mat2_mul",
    "Cglm.C79_grid_mat2_scale",
    "Cglm.C79_grid_mat2_trace",
    "Cglm.C79_grid_mat2_rmc",
    "Cglm.C79_grid_mat3_mulv",
    "Cglm.C79_grid_mat3_mul",
    "Cglm.C79_grid_mat3_scale",
    "Cglm.C79_grid_mat3_trace",
    "Cglm.C79_grid_mat3_rmc",
    "Cglm.C79_grid_mat4_mulv",
    "Cglm.C79_grid_mat4_mul",
    "Cglm.C79_grid_mat4_scale",
    "Cglm.C79_grid_mat4_trace",
    "Cglm.C79_grid_mat4_rmc",
    "Cglm.C79_grid_mat2_det",
    "Cglm.C79_grid_mat3_det",
    "Cglm.C79_grid_mat4_det",
    "Cglm.C79_grid_mat2x3_mulv",
    "Cglm.C79_grid_mat2x3_mul",
    "Cglm.C79_grid_mat2x4_mulv",
    "Cglm.C79_grid_mat2x4_mul",
    "Cglm.C79_grid_mat3x2_mulv",
    "Cglm.C79_grid_mat3x2_mul",
    "Cglm.C79_grid_mat3x4_mulv",
    "Cglm.C79_grid_mat3x4_mul",
    "Cglm.C79_grid_mat4x2_mulv",
    "Cglm.C79_grid_mat4x2_mul",
    "Cglm.C79_grid_mat4x3_mulv",
    "Cglm.C79_grid_mat4x3_mul",
    "Cglm.C79_grid_mat4_mulv3",
    "Cglm.C79_grid_mul",
    "Cglm.C79_grid_mul_rot",
    "Cglm.C79_grid_translate",
    "Cglm.C79_grid_translate_to",
    "Cglm.C79_grid_translate2d",
    "Cglm.C79_grid_scale_to",
    "Cglm.C79_mat2_mulv",
    "Cglm.C79_mat2_mul",
    "Cglm.C79_mat2_trace",
    "Cglm.C79_mat3_mulv",
    "Cglm.C79_mat3_mul",
    "Cglm.C79_mat3_trace",
    "Cglm.C79_mat4_mulv",
    "Cglm.C79_mat4_mul",
    "Cglm.C79_mat4_trace",
    "Cglm.C79_mat2_det",
    "Cglm.C79_mat2x3_mulv",
    "Cglm.C79_mat2x4_mulv",
    "Cglm.C79_mat3x2_mulv",
    "Cglm.C79_mat3x4_mulv",
    "Cglm.C79_mat4x2_mulv",
    "Cglm.C79_mat4x3_mulv",
    "Cglm.C79_mat2x3_mul",
    "Cglm.C79_mat2x4_mul",
    "Cglm.C79_mat3x2_mul",
    "Cglm.C79_mat3x4_mul",
    "Cglm.C79_mat4x2_mul",
    "Cglm.C79_mat4x3_mul",
    "Cglm.C79_mat4_mulv3",
    "Cglm.C79_mul",
    "Cglm.C79_mul_rot",
    "Cglm.C79_translate",
    "Cglm.C79_scale_to",
    "Cglm.C79_noFuse",
    "Cglm.C79_noFuse_vec3_dot",
    "Cglm.C79_vec2_norm2_nonneg",
    "Cglm.C79_vec2_norm_nonneg",
    "Cglm.C79_vec2_distance2_nonneg",
    "Cglm.C79_vec2_distance_nonneg",
    "Cglm.C79_vec3_norm2_nonneg",
    "Cglm.C79_vec3_norm_nonneg",
    "Cglm.C79_vec3_distance2_nonneg",
    "Cglm.C79_vec3_distance_nonneg",
    "Cglm.C79_vec4_norm2_nonneg",
    "Cglm.C79_vec4_norm_nonneg",
    "Cglm.C79_vec4_distance2_nonneg",
    "Cglm.C79_vec4_distance_nonneg",
    "Cglm.C79_vec2_norm",
    "Cglm.C79_vec3_norm",
    "Cglm.C79_vec4_norm",
    "Cglm.C79_quat_norm",
    "Cglm.C79_cross_self_fails",
    "Cglm.C79_mat2_det_singular_fails",
    "Cglm.C79_sign_fails",
    "Cglm.C79_same_aabb2d_merge",
    "Cglm.C79_same_aabb2d_crop",
    "Cglm.C79_same_aabb2d_crop_until",
    "Cglm.C79_same_aabb2d_isvalid",
    "Cglm.C79_same_aabb2d_sizev",
    "Cglm.C79_same_aabb2d_center",
    "Cglm.C79_same_aabb2d_aabb",
    "Cglm.C79_same_aabb2d_point",
    "Cglm.C79_same_aabb2d_contains",
    "Cglm.C79_same_scale_to",
    "Cglm.C79_same_scale",
    "Cglm.C79_same_scale_uni",
    "Cglm.C79_same_scale2d_to",
    "Cglm.C79_same_scale2d",
    "Cglm.C79_same_scale2d_uni",
    "Cglm.C79_same_translated2d",
    "Cglm.C79_same_translated2d_x",
    "Cglm.C79_same_translated2d_y",
    "Cglm.C79_same_scaled2d",
    "Cglm.C79_same_scaled2d_uni",
    "Cglm.C79_same_translated",
    "Cglm.C79_same_translated_to",
    "Cglm.C79_same_translated_x",
    "Cglm.C79_same_translated_y",
    "Cglm.C79_same_translated_z",
    "Cglm.C79_same_aabb_merge",
    "Cglm.C79_same_aabb_crop",
    "Cglm.C79_same_aabb_crop_until",
    "Cglm.C79_same_aabb_isvalid",
    "Cglm.C79_same_aabb_center",
    "Cglm.C79_same_aabb_aabb",
    "Cglm.C79_same_aabb_point",
    "Cglm.C79_same_aabb_contains",
    "Cglm.C79_same_frustum",
    "Cglm.C79_same_ortho",
    "Cglm.C79_same_ortho_aabb",
    "Cglm.C79_same_ortho_aabb_p",
    "Cglm.C79_same_ortho_aabb_pz",
    "Cglm.C79_same_ortho_default",
    "Cglm.C79_same_perspective",
    "Cglm.C79_same_persp_move_far",
    "Cglm.C79_same_perspective_default",
    "Cglm.C79_same_perspective_resize",
    "Cglm.C79_same_persp_decomp_far",
    "Cglm.C79_same_persp_decomp_near",
    "Cglm.C79_same_persp_sizes",
    "Cglm.C79_same_ortho_lh_no",
    "Cglm.C79_same_ortho_aabb_lh_no",
    "Cglm.C79_same_ortho_aabb_p_lh_no",
    "Cglm.C79_same_ortho_aabb_pz_lh_no",
    "Cglm.C79_same_ortho_default_lh_no",
    "Cglm.C79_same_ortho_lh_zo",
    "Cglm.C79_same_ortho_aabb_lh_zo",
    "Cglm.C79_same_ortho_aabb_p_lh_zo",
    "Cglm.C79_same_ortho_aabb_pz_lh_zo",
    "Cglm.C79_same_ortho_default_lh_zo",
    "Cglm.C79_same_ortho_rh_no",
    "Cglm.C79_same_ortho_aabb_rh_no",
    "Cglm.C79_same_ortho_aabb_p_rh_no",
    "Cglm.C79_same_ortho_aabb_pz_rh_no",
    "Cglm.C79_same_ortho_default_rh_no",
    "Cglm.C79_same_ortho_rh_zo",
    "Cglm.C79_same_ortho_aabb_rh_zo",
    "Cglm.C79_same_ortho_aabb_p_rh_zo",
    "Cglm.C79_same_ortho_aabb_pz_rh_zo",
    "Cglm.C79_same_ortho_default_rh_zo",
    "Cglm.C79_same_persp_fovy",
    "Cglm.C79_same_persp_aspect",
    "Cglm.C79_same_frustum_lh_no",
    "Cglm.C79_same_perspective_lh_no",
    "Cglm.C79_same_perspective_default_lh_no",
    "Cglm.C79_same_perspective_resize_lh_no",
    "Cglm.C79_same_persp_move_far_lh_no",
    "Cglm.C79_same_persp_decomp_far_lh_no",
    "Cglm.C79_same_persp_decomp_near_lh_no",
    "Cglm.C79_same_persp_sizes_lh_no",
    "Cglm.C79_same_persp_fovy_lh_no",
    "Cglm.C79_same_persp_aspect_lh_no",
    "Cglm.C79_same_frustum_lh_zo",
    "Cglm.C79_same_perspective_lh_zo",
    "Cglm.C79_same_persp_move_far_lh_zo",
    "Cglm.C79_same_perspective_default_lh_zo",
    "Cglm.C79_same_perspective_resize_lh_zo",
    "Cglm.C79_same_persp_decomp_far_lh_zo",
    "Cglm.C79_same_persp_decomp_near_lh_zo",
    "Cglm.C79_same_persp_sizes_lh_zo",
    "Cglm.C79_same_persp_fovy_lh_zo",
    "Cglm.C79_same_persp_aspect_lh_zo",
    "Cglm.C79_same_frustum_rh_no",
    "Cglm.C79_same_perspective_rh_no",
    "Cglm.C79_same_perspective_default_rh_no",
    "Cglm.C79_same_perspective_resize_rh_no",
    "Cglm.C79_same_persp_move_far_rh_no",
    "Cglm.C79_same_persp_decomp_far_rh_no",
    "Cglm.C79_same_persp_decomp_near_rh_no",
    "Cglm.C79_same_persp_sizes_rh_no",
    "Cglm.C79_same_persp_fovy_rh_no",
    "Cglm.C79_same_persp_aspect_rh_no",
    "Cglm.C79_same_frustum_rh_zo",
    "Cglm.C79_same_perspective_rh_zo",
    "Cglm.C79_same_perspective_default_rh_zo",
    "Cglm.C79_same_perspective_resize_rh_zo",
    "Cglm.C79_same_persp_move_far_rh_zo",
    "Cglm.C79_same_persp_decomp_far_rh_zo",
    "Cglm.C79_same_persp_decomp_near_rh_zo",
    "Cglm.C79_same_persp_sizes_rh_zo",
    "Cglm.C79_same_persp_fovy_rh_zo",
    "Cglm.C79_same_persp_aspect_rh_zo",
    "Cglm.C79_same_ease_linear",
    "Cglm.C79_same_ease_sine_in",
    "Cglm.C79_same_ease_sine_out",
    "Cglm.C79_same_ease_sine_inout",
    "Cglm.C79_same_ease_quad_in",
    "Cglm.C79_same_ease_quad_out",
    "Cglm.C79_same_ease_cubic_in",
    "Cglm.C79_same_ease_quart_in",
    "Cglm.C79_same_ease_quint_in",
    "Cglm.C79_same_ease_exp_in",
    "Cglm.C79_same_ease_circ_out",
    "Cglm.C79_same_ease_elast_in",
    "Cglm.C79_same_euler_angles",
    "Cglm.C79_same_mat2_scale",
    "Cglm.C79_same_mat2_trace",
    "Cglm.C79_same_mat2x3_scale",
    "Cglm.C79_same_mat2x4_scale",
    "Cglm.C79_same_mat3_trace",
    "Cglm.C79_same_mat3_quat",
    "Cglm.C79_same_mat3_scale",
    "Cglm.C79_same_mat3_textrans",
    "Cglm.C79_same_mat3x2_scale",
    "Cglm.C79_same_mat3x4_scale",
    "Cglm.C79_same_mat4_trace",
    "Cglm.C79_same_mat4_trace3",
    "Cglm.C79_same_mat4_quat",
    "Cglm.C79_same_mat4_scale_p",
    "Cglm.C79_same_mat4_scale",
    "Cglm.C79_same_mat4_textrans",
    "Cglm.C79_same_mat4x2_scale",
    "Cglm.C79_same_mat4x3_scale",
    "Cglm.C79_same_quat_conjugate",
    "Cglm.C79_same_quat_add",
    "Cglm.C79_same_quat_sub",
    "Cglm.C79_same_sphere_radii",
    "Cglm.C79_same_signf",
    "Cglm.C79_same_rad",
    "Cglm.C79_same_deg",
    "Cglm.C79_same_make_rad",
    "Cglm.C79_same_make_deg",
    "Cglm.C79_same_pow2",
    "Cglm.C79_same_min",
    "Cglm.C79_same_max",
    "Cglm.C79_same_clamp",
    "Cglm.C79_same_clamp_zo",
    "Cglm.C79_same_step",
    "Cglm.C79_same_eq",
    "Cglm.C79_same_percent",
    "Cglm.C79_same_percentc",
    "Cglm.C79_same_vec2_add",
    "Cglm.C79_same_vec2_adds",
    "Cglm.C79_same_vec2_sub",
    "Cglm.C79_same_vec2_subs",
    "Cglm.C79_same_vec2_mul",
    "Cglm.C79_same_vec2_scale",
    "Cglm.C79_same_vec2_div",
    "Cglm.C79_same_vec2_divs",
    "Cglm.C79_same_vec2_addadd",
    "Cglm.C79_same_vec2_subadd",
    "Cglm.C79_same_vec2_maxadd",
    "Cglm.C79_same_vec2_minadd",
    "Cglm.C79_same_vec2_subsub",
    "Cglm.C79_same_vec2_addsub",
    "Cglm.C79_same_vec2_maxsub",
    "Cglm.C79_same_vec2_minsub",
    "Cglm.C79_same_vec2_negate_to",
    "Cglm.C79_same_vec2_negate",
    "Cglm.C79_same_vec2_center",
    "Cglm.C79_same_vec2_maxv",
    "Cglm.C79_same_vec2_minv",
    "Cglm.C79_same_vec2_clamp",
    "Cglm.C79_same_vec2_step",
    "Cglm.C79_same_vec2_eq",
    "Cglm.C79_same_vec2_eq_eps",
    "Cglm.C79_same_vec2_eq_all",
    "Cglm.C79_same_vec2_eqv",
    "Cglm.C79_same_vec2_eqv_eps",
    "Cglm.C79_same_vec2_max",
    "Cglm.C79_same_vec2_min",
    "Cglm.C79_same_vec2_isnan",
    "Cglm.C79_same_vec2_isinf",
    "Cglm.C79_same_vec2_isvalid",
    "Cglm.C79_same_vec2_sign",
    "Cglm.C79_same_vec2_abs",
    "Cglm.C79_same_vec2_fract",
    "Cglm.C79_same_vec2_floor",
    "Cglm.C79_same_vec2_mods",
    "Cglm.C79_same_vec2_sqrt",
    "Cglm.C79_same_vec2_steps",
    "Cglm.C79_same_vec2_stepr",
    "Cglm.C79_same_vec2_complex_conjugate",
    "Cglm.C79_same_vec3_norm_one",
    "Cglm.C79_same_vec3_norm_inf",
    "Cglm.C79_same_vec3_add",
    "Cglm.C79_same_vec3_adds",
    "Cglm.C79_same_vec3_sub",
    "Cglm.C79_same_vec3_subs",
    "Cglm.C79_same_vec3_mul",
    "Cglm.C79_same_vec3_scale",
    "Cglm.C79_same_vec3_div",
    "Cglm.C79_same_vec3_divs",
    "Cglm.C79_same_vec3_addadd",
    "Cglm.C79_same_vec3_subadd",
    "Cglm.C79_same_vec3_maxadd",
    "Cglm.C79_same_vec3_minadd",
    "Cglm.C79_same_vec3_subsub",
    "Cglm.C79_same_vec3_addsub",
    "Cglm.C79_same_vec3_maxsub",
    "Cglm.C79_same_vec3_minsub",
    "Cglm.C79_same_vec3_negate_to",
    "Cglm.C79_same_vec3_negate",
    "Cglm.C79_same_vec3_center",
    "Cglm.C79_same_vec3_maxv",
    "Cglm.C79_same_vec3_minv",
    "Cglm.C79_same_vec3_clamp",
    "Cglm.C79_same_vec3_step",
    "Cglm.C79_same_vec3_eq",
    "Cglm.C79_same_vec3_eq_eps",
    "Cglm.C79_same_vec3_eq_all",
    "Cglm.C79_same_vec3_eqv",
    "Cglm.C79_same_vec3_eqv_eps",
    "Cglm.C79_same_vec3_max",
    "Cglm.C79_same_vec3_min",
    "Cglm.C79_same_vec3_isnan",
    "Cglm.C79_same_vec3_isinf",
    "Cglm.C79_same_vec3_isvalid",
    "Cglm.C79_same_vec3_sign",
    "Cglm.C79_same_vec3_abs",
    "Cglm.C79_same_vec3_fract",
    "Cglm.C79_same_vec3_floor",
    "Cglm.C79_same_vec3_mods",
    "Cglm.C79_same_vec3_steps",
    "Cglm.C79_same_vec3_stepr",
    "Cglm.C79_same_vec3_hadd",
    "Cglm.C79_same_vec3_sqrt",
    "Cglm.C79_same_vec4_norm_one",
    "Cglm.C79_same_vec4_norm_inf",
    "Cglm.C79_same_vec4_add",
    "Cglm.C79_same_vec4_adds",
    "Cglm.C79_same_vec4_sub",
    "Cglm.C79_same_vec4_subs",
    "Cglm.C79_same_vec4_mul",
    "Cglm.C79_same_vec4_scale",
    "Cglm.C79_same_vec4_div",
    "Cglm.C79_same_vec4_divs",
    "Cglm.C79_same_vec4_addadd",
    "Cglm.C79_same_vec4_subadd",
    "Cglm.C79_same_vec4_maxadd",
    "Cglm.C79_same_vec4_minadd",
    "Cglm.C79_same_vec4_subsub",
    "Cglm.C79_same_vec4_addsub",
    "Cglm.C79_same_vec4_maxsub",
    "Cglm.C79_same_vec4_minsub",
    "Cglm.C79_same_vec4_negate_to",
    "Cglm.C79_same_vec4_negate",
    "Cglm.C79_same_vec4_maxv",
    "Cglm.C79_same_vec4_minv",
    "Cglm.C79_same_vec4_clamp",
    "Cglm.C79_same_vec4_step",
    "Cglm.C79_same_vec4_cubic",
    "Cglm.C79_same_vec4_eq",
    "Cglm.C79_same_vec4_eq_eps",
    "Cglm.C79_same_vec4_eq_all",
    "Cglm.C79_same_vec4_eqv",
    "Cglm.C79_same_vec4_eqv_eps",
    "Cglm.C79_same_vec4_max",
    "Cglm.C79_same_vec4_min",
    "Cglm.C79_same_vec4_isnan",
    "Cglm.C79_same_vec4_isinf",
    "Cglm.C79_same_vec4_isvalid",
    "Cglm.C79_same_vec4_sign",
    "Cglm.C79_same_vec4_abs",
    "Cglm.C79_same_vec4_fract",
    "Cglm.C79_same_vec4_floor",
    "Cglm.C79_same_vec4_mods",
    "Cglm.C79_same_vec4_steps",
    "Cglm.C79_same_vec4_stepr",
    "Cglm.C79_same_vec4_hadd",
    "Cglm.C79_same_vec4_sqrt"
   ],
   "note": "Two occurrences of the same expression over the same inputs are contracted alike; products that are stored and loaded again are not fused. What contraction breaks is shown by C79_cross_self_fails, C79_mat2_det_singular_fails and C79_sign_fails."
  },
  {
   "property": "C80",
   "status": "partial",
   "theorems": [
    "Cglm.Layout.C80_vec2",
    "Cglm.Layout.C80_vec2s_names",
    "Cglm.Layout.C80_vec3",
    "Cglm.Layout.C80_vec3s_names",
    "Cglm.Layout.C80_vec4",
    "Cglm.Layout.C80_vec4s_names",
    "Cglm.Layout.C80_versor",
    "Cglm.Layout.C80_versors_names",
    "Cglm.Layout.C80_ivec2",
    "Cglm.Layout.C80_ivec2s_names",
    "Cglm.Layout.C80_ivec3",
    "Cglm.Layout.C80_ivec3s_names",
    "Cglm.Layout.C80_ivec4",
    "Cglm.Layout.C80_ivec4s_names",
    "Cglm.Layout.C80_mat2",
    "Cglm.Layout.C80_mat2s_names",
    "Cglm.Layout.C80_mat2x3",
    "Cglm.Layout.C80_mat2x3s_names",
    "Cglm.Layout.C80_mat2x4",
    "Cglm.Layout.C80_mat2x4s_names",
    "Cglm.Layout.C80_mat3",
    "Cglm.Layout.C80_mat3s_names",
    "Cglm.Layout.C80_mat3x2",
    "Cglm.Layout.C80_mat3x2s_names",
    "Cglm.Layout.C80_mat3x4",
    "Cglm.Layout.C80_mat3x4s_names",
    "Cglm.Layout.C80_mat4",
    "Cglm.Layout.C80_mat4s_names",
    "Cglm.Layout.C80_mat4x2",
    "Cglm.Layout.C80_mat4x2s_names",
    "Cglm.Layout.C80_mat4x3",
    "Cglm.Layout.C80_mat4x3s_names",
    "Cglm.Layout.C80_part_inside",
    "Cglm.Layout.C80_align_dvd_size",
    "Cglm.Layout.C80_array",
    "Cglm.Layout.C80_vec3_array",
    "Cglm.Layout.C80_mat4_array",
    "Cglm.Layout.C80_align",
    "Cglm.Layout.C80_mat4_columns",
    "Cglm.Layout.C80_size_any_config",
    "Cglm.Layout.C80_anon_compatible",
    "Cglm.Layout.C80_same_layout_struct",
    "Cglm.Layout.C80_avx_incompatible",
    "Cglm.Layout.C80_all_unaligned_partial",
    "Cglm.Layout.C80_all_unaligned_fails"
   ],
   "note": "The last sentence is false for mat4 and mat4s, which use CGLM_ALIGN_MAT whatever CGLM_ALL_UNALIGNED says (C80_all_unaligned_fails); C80_all_unaligned_partial covers all other types. Everything else is proved. float and int are taken to have four bytes and alignment 4."
  },
  {
   "property": "C81",
   "status": "partial",
   "theorems": [
    "Cglm.Acc.C81_Scalar",
    "Cglm.Acc.C81_Neon64",
    "Cglm.Acc.C81_Neon32",
    "Cglm.Acc.C81_Wasm",
    "Cglm.Acc.C81_Sse",
    "Cglm.Acc.C81_SseU",
    "Cglm.Acc.C81_Sse2_partial",
    "Cglm.Acc.C81_Sse2U_partial",
    "Cglm.Acc.C81_Sse3_partial",
    "Cglm.Acc.C81_Sse3U_partial",
    "Cglm.Acc.C81_Sse4_partial",
    "Cglm.Acc.C81_Sse4U_partial",
    "Cglm.Acc.C81_Avx_partial",
    "Cglm.Acc.C81_AvxU_partial",
    "Cglm.Acc.C81_Fma_partial",
    "Cglm.Acc.C81_FmaU_partial",
    "Cglm.Acc.C81_types",
    "Cglm.Acc.C81_mat4_mul_avx",
    "Cglm.Acc.C81_mat4_mul_needs_32",
    "Cglm.Acc.C81_load3_fails",
    "Cglm.Acc.C81_store3_fails"
   ],
   "note": "False for two functions, glmm_load3 and glmm_store3 of the x86 builds from SSE2 on, which promise the compiler alignments of 16 and 8 for a vector of alignment 4 (C81_load3_fails, C81_store3_fails; nothing in the library calls them). The _partial theorems cover all other functions of those builds; the other builds are complete."
  },
  {
   "property": "C82",
   "status": "proved",
   "theorems": [
    "Cglm.C82_any_schedule",
    "Cglm.C82_one_outcome",
    "Cglm.C82_race_without"
   ],
   "note": "For the 682 functions of the array interface whose arrays have a fixed length and the 116 integer-vector functions; an integer call must be one in which no operation overflows or divides by zero. One access to one cell is the step; locals belong to the thread."
  },
  {
   "property": "C83",
   "status": "proved",
   "theorems": [
    "Cglm.C83_normalized",
    "Cglm.C83_normalized_points",
    "Cglm.C83_plain",
    "Cglm.C83_mat3",
    "Cglm.C83_mat4",
    "Cglm.C83_sum_vec2",
    "Cglm.C83_sum_vec3",
    "Cglm.C83_sum_vec4",
    "Cglm.C83_move_vec2",
    "Cglm.C83_move_vec3",
    "Cglm.C83_move_vec4",
    "Cglm.C83_stalls"
   ],
   "note": "Products of quaternions and of 3x3 and 4x4 matrices, and sums and velocity steps of vectors, for histories of any length. Portable code, without contraction."
  },
  {
   "property": "C84",
   "status": "proved",
   "theorems": [
    "Cglm.C84_quat_rotatev",
    "Cglm.C84_vec3_rotate",
    "Cglm.C84_rotate_make",
    "Cglm.C84_quatv",
    "Cglm.C84_quat_mat3",
    "Cglm.C84_quat_mat3t",
    "Cglm.C84_normalized_mat3",
    "Cglm.C84_orthogonal",
    "Cglm.C84_handedness",
    "Cglm.C84_quat_rotatev_length"
   ],
   "note": "Accuracy of rotations of vectors, of matrices and quaternions of an axis and angle, and of matrices of quaternions. The accuracy of the C library is a hypothesis (SinCosOk). Portable code, without contraction."
  },
  {
   "property": "C85",
   "status": "proved",
   "theorems": [
    "Cglm.C85_ortho_rh_no",
    "Cglm.C85_frustum_rh_no",
    "Cglm.C85_ortho_rh_zo",
    "Cglm.C85_frustum_rh_zo",
    "Cglm.C85_ortho_lh_no",
    "Cglm.C85_frustum_lh_no",
    "Cglm.C85_ortho_lh_zo",
    "Cglm.C85_frustum_lh_zo",
    "Cglm.C85_perspective_rh_no",
    "Cglm.C85_perspective_rh_zo",
    "Cglm.C85_perspective_lh_no",
    "Cglm.C85_perspective_lh_zo",
    "Cglm.C85_depth_rh_no",
    "Cglm.C85_depth_rh_zo",
    "Cglm.C85_depth_lh_no",
    "Cglm.C85_depth_lh_zo"
   ],
   "note": "All four conventions of ortho, frustum and perspective. The accuracy of the C library is a hypothesis (TanOk). The products with the point and the division by w are exact in the depth theorems. Portable code."
  },
  {
   "property": "C86",
   "status": "proved",
   "theorems": [
    "Cglm.C86_mat2_det",
    "Cglm.C86_mat2_det_sign",
    "Cglm.C86_mat2_inv",
    "Cglm.C86_mat3_det",
    "Cglm.C86_mat3_det_sign",
    "Cglm.C86_mat3_inv",
    "Cglm.C86_mat4_det",
    "Cglm.C86_mat4_det_sign",
    "Cglm.C86_mat4_inv",
    "Cglm.C86_det_cancels"
   ],
   "note": "Portable code. The 2^-60 covers underflow."
  },
  {
   "property": "C87",
   "status": "proved",
   "theorems": [
    "Cglm.C87_lookat_rh",
    "Cglm.C87_lookat_lh",
    "Cglm.C87_orthogonal_rh",
    "Cglm.C87_orthogonal_lh",
    "Cglm.C87_look",
    "Cglm.C87_look_refuted"
   ],
   "note": "Portable code. For look only the direction is bounded; with the rounded target the theorems about lookat apply to the rest. C87_look_refuted is the witness for the lost direction."
  },
  {
   "property": "C88",
   "status": "proved",
   "theorems": [
    "Cglm.C88_cull_kept",
    "Cglm.C88_cull_rejected",
    "Cglm.C88_sphere_sphere",
    "Cglm.C88_sphere_point",
    "Cglm.C88_aabb_sphere",
    "Cglm.C88_aabb2d_circle",
    "Cglm.C88_sphere_point_refuted"
   ],
   "note": "Portable code. C88_sphere_point_refuted shows that the margin is needed. The restriction to centers not below the minimum corner is C39, a fault of the code without rounding."
  },
  {
   "property": "C89",
   "status": "proved",
   "theorems": [
    "Cglm.C89_hit",
    "Cglm.C89_miss",
    "Cglm.C89_gap_refuted"
   ],
   "note": "Portable code. C89_gap_refuted is the witness for the last sentence (two triangles with a common edge, a ray through one of them, no hit reported)."
  },
  {
   "property": "C90",
   "status": "proved",
   "theorems": [
    "Cglm.C90_project_no",
    "Cglm.C90_project_zo",
    "Cglm.C90_project_z_no",
    "Cglm.C90_project_z_zo",
    "Cglm.C90_unprojecti_no",
    "Cglm.C90_unprojecti_zo",
    "Cglm.C90_cancel_refuted"
   ],
   "note": "Portable code. The two clip-space variants of projection, depth and un-projection with a given inverse matrix. C90_cancel_refuted is the witness for the last sentence."
  },
  {
   "property": "C91",
   "status": "proved",
   "theorems": [
    "Cglm.C91_bezier",
    "Cglm.C91_bezier_hull",
    "Cglm.C91_hermite",
    "Cglm.C91_smc",
    "Cglm.C91_bezier_start",
    "Cglm.C91_bezier_end",
    "Cglm.C91_hermite_start",
    "Cglm.C91_hermite_end",
    "Cglm.C91_hull_refuted"
   ],
   "note": "Portable code. C91_hull_refuted is the witness for the last sentence."
  },
  {
   "property": "C92",
   "status": "proved",
   "theorems": [
    "Cglm.C92_linear",
    "Cglm.C92_quad_in",
    "Cglm.C92_quad_out",
    "Cglm.C92_quad_inout",
    "Cglm.C92_cubic_in",
    "Cglm.C92_cubic_out",
    "Cglm.C92_cubic_inout",
    "Cglm.C92_quart_in",
    "Cglm.C92_quart_out",
    "Cglm.C92_quart_inout",
    "Cglm.C92_quint_in",
    "Cglm.C92_quint_out",
    "Cglm.C92_quint_inout",
    "Cglm.C92_back_in",
    "Cglm.C92_back_out",
    "Cglm.C92_back_inout",
    "Cglm.C92_circ_in",
    "Cglm.C92_circ_out",
    "Cglm.C92_circ_inout",
    "Cglm.C92_ends_quad_in",
    "Cglm.C92_ends_quad_out",
    "Cglm.C92_ends_quad_inout",
    "Cglm.C92_ends_cubic_in",
    "Cglm.C92_ends_cubic_out",
    "Cglm.C92_ends_cubic_inout",
    "Cglm.C92_ends_quart_in",
    "Cglm.C92_ends_quart_out",
    "Cglm.C92_ends_quart_inout",
    "Cglm.C92_ends_quint_in",
    "Cglm.C92_ends_quint_out",
    "Cglm.C92_ends_quint_inout",
    "Cglm.C92_ends_circ_in",
    "Cglm.C92_ends_circ_out",
    "Cglm.C92_ends_circ_inout",
    "Cglm.C92_ends_back_in",
    "Cglm.C92_ends_back_out",
    "Cglm.C92_ends_back_inout",
    "Cglm.C92_ends_bounce_in",
    "Cglm.C92_ends_bounce_out",
    "Cglm.C92_bounce_refuted"
   ],
   "note": "Portable code. Not covered: the functions that call sinf or powf, and the accuracy of the bounce functions. C92_bounce_refuted is the witness for the last sentence."
  },
  {
   "property": "C93",
   "status": "proved",
   "theorems": [
    "Cglm.C93_miss",
    "Cglm.C93_hit",
    "Cglm.C93_behind",
    "Cglm.C93_distance",
    "Cglm.C93_lineDist",
    "Cglm.C93_miss_refuted"
   ],
   "note": "Portable code. C93_miss_refuted is the witness for the last sentence. Nothing is claimed about the distances of chords shorter than rho/32."
  },
  {
   "property": "C94",
   "status": "partial",
   "theorems": [
    "Cglm.Apple.C94_mat4",
    "Cglm.Apple.C94_mat3",
    "Cglm.Apple.C94_vec4",
    "Cglm.Apple.C94_vec3",
    "Cglm.Apple.C94_bounds",
    "Cglm.Apple.C94_injective",
    "Cglm.Apple.C94_struct",
    "Cglm.Apple.C94_macro_partial",
    "Cglm.Apple.C94_macro_refuted",
    "Cglm.Apple.C94_macro_arrays"
   ],
   "note": "The conversions are proved. The macro selects correctly for the struct types only: with array arguments, its documented use, it does not compile (C94_macro_refuted, for every array type C94_macro_arrays)."
  },
  {
   "property": "C95",
   "status": "proved",
   "theorems": [
    "Cglm.C95_vec2_dot",
    "Cglm.C95_vec2_norm2",
    "Cglm.C95_vec2_muladd",
    "Cglm.C95_vec2_muladds",
    "Cglm.C95_vec2_mulsub",
    "Cglm.C95_vec2_mulsubs",
    "Cglm.C95_vec2_addadd",
    "Cglm.C95_vec2_subadd",
    "Cglm.C95_vec2_addsub",
    "Cglm.C95_vec2_subsub",
    "Cglm.C95_vec3_dot",
    "Cglm.C95_vec3_norm2",
    "Cglm.C95_vec3_muladd",
    "Cglm.C95_vec3_muladds",
    "Cglm.C95_vec3_mulsub",
    "Cglm.C95_vec3_mulsubs",
    "Cglm.C95_vec3_addadd",
    "Cglm.C95_vec3_subadd",
    "Cglm.C95_vec3_addsub",
    "Cglm.C95_vec3_subsub",
    "Cglm.C95_vec4_dot",
    "Cglm.C95_vec4_norm2",
    "Cglm.C95_vec4_muladd",
    "Cglm.C95_vec4_muladds",
    "Cglm.C95_vec4_mulsub",
    "Cglm.C95_vec4_mulsubs",
    "Cglm.C95_vec4_addadd",
    "Cglm.C95_vec4_subadd",
    "Cglm.C95_vec4_addsub",
    "Cglm.C95_vec4_subsub",
    "Cglm.C95_vec2_cross",
    "Cglm.C95_vec3_cross",
    "Cglm.C95_vec2_complex_mul",
    "Cglm.C95_quat_mul",
    "Cglm.C95_quat_dot",
    "Cglm.C95_mat2_mulv",
    "Cglm.C95_mat2_mul",
    "Cglm.C95_mat2_trace",
    "Cglm.C95_mat3_mulv",
    "Cglm.C95_mat3_mul",
    "Cglm.C95_mat3_trace",
    "Cglm.C95_mat4_mulv",
    "Cglm.C95_mat4_mul",
    "Cglm.C95_mat4_trace",
    "Cglm.C95_mat2_det",
    "Cglm.C95_mat2x3_mulv",
    "Cglm.C95_mat2x4_mulv",
    "Cglm.C95_mat3x2_mulv",
    "Cglm.C95_mat3x4_mulv",
    "Cglm.C95_mat4x2_mulv",
    "Cglm.C95_mat4x3_mulv",
    "Cglm.C95_mat2x3_mul",
    "Cglm.C95_mat2x4_mul",
    "Cglm.C95_mat3x2_mul",
    "Cglm.C95_mat3x4_mul",
    "Cglm.C95_mat4x2_mul",
    "Cglm.C95_mat4x3_mul",
    "Cglm.C95_mat4_mulv3",
    "Cglm.C95_mul",
    "Cglm.C95_mul_rot",
    "Cglm.C95_translate",
    "Cglm.C95_scale_to",
    "Cglm.C95_exact_vec2_add",
    "Cglm.C95_exact_vec2_adds",
    "Cglm.C95_exact_vec2_sub",
    "Cglm.C95_exact_vec2_subs",
    "Cglm.C95_exact_vec2_mul",
    "Cglm.C95_exact_vec2_scale",
    "Cglm.C95_exact_vec2_dot",
    "Cglm.C95_exact_vec2_norm2",
    "Cglm.C95_exact_vec2_muladd",
    "Cglm.C95_exact_vec2_muladds",
    "Cglm.C95_exact_vec2_mulsub",
    "Cglm.C95_exact_vec2_mulsubs",
    "Cglm.C95_exact_vec2_addadd",
    "Cglm.C95_exact_vec2_subadd",
    "Cglm.C95_exact_vec2_addsub",
    "Cglm.C95_exact_vec2_subsub",
    "Cglm.C95_exact_vec2_center",
    "Cglm.C95_exact_vec2_distance2",
    "Cglm.C95_exact_vec3_add",
    "Cglm.C95_exact_vec3_adds",
    "Cglm.C95_exact_vec3_sub",
    "Cglm.C95_exact_vec3_subs",
    "Cglm.C95_exact_vec3_mul",
    "Cglm.C95_exact_vec3_scale",
    "Cglm.C95_exact_vec3_dot",
    "Cglm.C95_exact_vec3_norm2",
    "Cglm.C95_exact_vec3_muladd",
    "Cglm.C95_exact_vec3_muladds",
    "Cglm.C95_exact_vec3_mulsub",
    "Cglm.C95_exact_vec3_mulsubs",
    "Cglm.C95_exact_vec3_addadd",
    "Cglm.C95_exact_vec3_subadd",
    "Cglm.C95_exact_vec3_addsub",
    "Cglm.C95_exact_vec3_subsub",
    "Cglm.C95_exact_vec3_center",
    "Cglm.C95_exact_vec3_distance2",
    "Cglm.C95_exact_vec3_hadd",
    "Cglm.C95_exact_vec4_add",
    "Cglm.C95_exact_vec4_adds",
    "Cglm.C95_exact_vec4_sub",
    "Cglm.C95_exact_vec4_subs",
    "Cglm.C95_exact_vec4_mul",
    "Cglm.C95_exact_vec4_scale",
    "Cglm.C95_exact_vec4_dot",
    "Cglm.C95_exact_vec4_norm2",
    "Cglm.C95_exact_vec4_muladd",
    "Cglm.C95_exact_vec4_muladds",
    "Cglm.C95_exact_vec4_mulsub",
    "Cglm.C95_exact_vec4_mulsubs",
    "Cglm.C95_exact_vec4_addadd",
    "Cglm.C95_exact_vec4_subadd",
    "Cglm.C95_exact_vec4_addsub",
    "Cglm.C95_exact_vec4_subsub",
    "Cglm.C95_exact_vec4_distance2",
    "Cglm.C95_exact_vec4_hadd",
    "Cglm.C95_exact_vec2_cross",
    "Cglm.C95_exact_vec3_cross",
    "Cglm.C95_exact_vec2_complex_mul",
    "Cglm.C95_exact_quat_mul",
    "Cglm.C95_exact_quat_dot",
    "Cglm.C95_exact_aabb_center",
    "Cglm.C95_exact_aabb2d_center",
    "Cglm.C95_exact_mat2_mulv",
    "Cglm.C95_exact_mat2_mul",
    "Cglm.C95_exact_mat2_scale",
    "Cglm.C95_exact_mat2_trace",
    "Cglm.C95_exact_mat2_rmc",
    "Cglm.C95_exact_mat3_mulv",
    "Cglm.C95_exact_mat3_mul",
    "Cglm.C95_exact_mat3_scale",
    "Cglm.C95_exact_mat3_trace",
    "Cglm.C95_exact_mat3_rmc",
    "Cglm.C95_exact_mat4_mulv",
    "Cglm.C95_exact_mat4_mul",
    "Cglm.C95_exact_mat4_scale",
    "Cglm.C95_exact_mat4_trace",
    "Cglm.C95_exact_mat4_rmc",
    "Cglm.C95_exact_mat2_det",
    "Cglm.C95_exact_mat3_det",
    "Cglm.C95_exact_mat4_det",
    "Cglm.C95_exact_mat2x3_mulv",
    "Cglm.C95_exact_mat2x3_mul",
    "Cglm.C95_exact_mat2x4_mulv",
    "Cglm.C95_exact_mat2x4_mul",
    "Cglm.C95_exact_mat3x2_mulv",
    "Cglm.C95_exact_mat3x2_mul",
    "Cglm.C95_exact_mat3x4_mulv",
    "Cglm.C95_exact_mat3x4_mul",
    "Cglm.C95_exact_mat4x2_mulv",
    "Cglm.C95_exact_mat4x2_mul",
    "Cglm.C95_exact_mat4x3_mulv",
    "Cglm.C95_exact_mat4x3_mul",
    "Cglm.C95_exact_mat4_mulv3",
    "Cglm.C95_exact_mul",
    "Cglm.C95_exact_mul_rot",
    "Cglm.C95_exact_translate",
    "Cglm.C95_exact_translate_to",
    "Cglm.C95_exact_translate2d",
    "Cglm.C95_exact_scale_to",
    "Cglm.C95_binary32",
    "Cglm.C95_method0",
    "Cglm.C95_method12",
    "Cglm.C95_differ"
   ],
   "note": "Portable code. C95_binary32, C95_method0 and C95_method12 show that the evaluation methods of C are among those quantified over; C95_differ is the witness for the last sentence. Linear interpolation, squared distances and luminance have exact results but no error bound here."
  },
  {
   "property": "C96",
   "status": "proved",
   "theorems": [
    "Cglm.C96_vec2_dot",
    "Cglm.C96_vec2_norm2",
    "Cglm.C96_vec2_muladd",
    "Cglm.C96_vec2_muladds",
    "Cglm.C96_vec2_mulsub",
    "Cglm.C96_vec2_mulsubs",
    "Cglm.C96_vec2_addadd",
    "Cglm.C96_vec2_subadd",
    "Cglm.C96_vec2_addsub",
    "Cglm.C96_vec2_subsub",
    "Cglm.C96_mat2_mulv",
    "Cglm.C96_mat2_mul",
    "Cglm.C96_mat2_trace",
    "Cglm.C96_vec3_dot",
    "Cglm.C96_vec3_norm2",
    "Cglm.C96_vec3_muladd",
    "Cglm.C96_vec3_muladds",
    "Cglm.C96_vec3_mulsub",
    "Cglm.C96_vec3_mulsubs",
    "Cglm.C96_vec3_addadd",
    "Cglm.C96_vec3_subadd",
    "Cglm.C96_vec3_addsub",
    "Cglm.C96_vec3_subsub",
    "Cglm.C96_mat3_mulv",
    "Cglm.C96_mat3_mul",
    "Cglm.C96_mat3_trace",
    "Cglm.C96_vec4_dot",
    "Cglm.C96_vec4_norm2",
    "Cglm.C96_vec4_muladd",
    "Cglm.C96_vec4_muladds",
    "Cglm.C96_vec4_mulsub",
    "Cglm.C96_vec4_mulsubs",
    "Cglm.C96_vec4_addadd",
    "Cglm.C96_vec4_subadd",
    "Cglm.C96_vec4_addsub",
    "Cglm.C96_vec4_subsub",
    "Cglm.C96_mat4_mulv",
    "Cglm.C96_mat4_mul",
    "Cglm.C96_mat4_trace",
    "Cglm.C96_vec2_cross",
    "Cglm.C96_vec3_cross",
    "Cglm.C96_vec2_complex_mul",
    "Cglm.C96_quat_mul",
    "Cglm.C96_quat_dot",
    "Cglm.C96_mat2_det",
    "Cglm.C96_mat2x3_mulv",
    "Cglm.C96_mat2x4_mulv",
    "Cglm.C96_mat3x2_mulv",
    "Cglm.C96_mat3x4_mulv",
    "Cglm.C96_mat4x2_mulv",
    "Cglm.C96_mat4x3_mulv",
    "Cglm.C96_mat2x3_mul",
    "Cglm.C96_mat2x4_mul",
    "Cglm.C96_mat3x2_mul",
    "Cglm.C96_mat3x4_mul",
    "Cglm.C96_mat4x2_mul",
    "Cglm.C96_mat4x3_mul",
    "Cglm.C96_mat4_mulv3",
    "Cglm.C96_mul",
    "Cglm.C96_mul_rot",
    "Cglm.C96_translate",
    "Cglm.C96_scale_to",
    "Cglm.C96_exact_vec2_add",
    "Cglm.C96_exact_vec2_adds",
    "Cglm.C96_exact_vec2_sub",
    "Cglm.C96_exact_vec2_subs",
    "Cglm.C96_exact_vec2_mul",
    "Cglm.C96_exact_vec2_scale",
    "Cglm.C96_exact_vec2_dot",
    "Cglm.C96_exact_vec2_norm2",
    "Cglm.C96_exact_vec2_muladd",
    "Cglm.C96_exact_vec2_muladds",
    "Cglm.C96_exact_vec2_mulsub",
    "Cglm.C96_exact_vec2_mulsubs",
    "Cglm.C96_exact_vec2_addadd",
    "Cglm.C96_exact_vec2_subadd",
    "Cglm.C96_exact_vec2_addsub",
    "Cglm.C96_exact_vec2_subsub",
    "Cglm.C96_exact_vec3_add",
    "Cglm.C96_exact_vec3_adds",
    "Cglm.C96_exact_vec3_sub",
    "Cglm.C96_exact_vec3_subs",
    "Cglm.C96_exact_vec3_mul",
    "Cglm.C96_exact_vec3_scale",
    "Cglm.C96_exact_vec3_dot",
    "Cglm.C96_exact_vec3_norm2",
    "Cglm.C96_exact_vec3_muladd",
    "Cglm.C96_exact_vec3_muladds",
    "Cglm.C96_exact_vec3_mulsub",
    "Cglm.C96_exact_vec3_mulsubs",
    "Cglm.C96_exact_vec3_addadd",
    "Cglm.C96_exact_vec3_subadd",
    "Cglm.C96_exact_vec3_addsub",
    "Cglm.C96_exact_vec3_subsub",
    "Cglm.C96_exact_vec3_hadd",
    "Cglm.C96_exact_vec4_add",
    "Cglm.C96_exact_vec4_adds",
    "Cglm.C96_exact_vec4_sub",
    "Cglm.C96_exact_vec4_subs",
    "Cglm.C96_exact_vec4_mul",
    "Cglm.C96_exact_vec4_scale",
    "Cglm.C96_exact_vec4_dot",
    "Cglm.C96_exact_vec4_norm2",
    "Cglm.C96_exact_vec4_muladd",
    "Cglm.C96_exact_vec4_muladds",
    "Cglm.C96_exact_vec4_mulsub",
    "Cglm.C96_exact_vec4_mulsubs",
    "Cglm.C96_exact_vec4_addadd",
    "Cglm.C96_exact_vec4_subadd",
    "Cglm.C96_exact_vec4_addsub",
    "Cglm.C96_exact_vec4_subsub",
    "Cglm.C96_exact_vec4_hadd",
    "Cglm.C96_exact_vec2_cross",
    "Cglm.C96_exact_vec3_cross",
    "Cglm.C96_exact_vec2_complex_mul",
    "Cglm.C96_exact_quat_mul",
    "Cglm.C96_exact_quat_dot",
    "Cglm.C96_exact_mat2_mulv",
    "Cglm.C96_exact_mat2_mul",
    "Cglm.C96_exact_mat2_scale",
    "Cglm.C96_exact_mat2_trace",
    "Cglm.C96_exact_mat3_mulv",
    "Cglm.C96_exact_mat3_mul",
    "Cglm.C96_exact_mat3_scale",
    "Cglm.C96_exact_mat3_trace",
    "Cglm.C96_exact_mat4_mulv",
    "Cglm.C96_exact_mat4_mul",
    "Cglm.C96_exact_mat4_scale",
    "Cglm.C96_exact_mat4_trace",
    "Cglm.C96_exact_mat2_det",
    "Cglm.C96_exact_mat2x3_mulv",
    "Cglm.C96_exact_mat2x3_mul",
    "Cglm.C96_exact_mat2x4_mulv",
    "Cglm.C96_exact_mat2x4_mul",
    "Cglm.C96_exact_mat3x2_mulv",
    "Cglm.C96_exact_mat3x2_mul",
    "Cglm.C96_exact_mat3x4_mulv",
    "Cglm.C96_exact_mat3x4_mul",
    "Cglm.C96_exact_mat4x2_mulv",
    "Cglm.C96_exact_mat4x2_mul",
    "Cglm.C96_exact_mat4x3_mulv",
    "Cglm.C96_exact_mat4x3_mul",
    "Cglm.C96_exact_mat4_mulv3",
    "Cglm.C96_exact_mul",
    "Cglm.C96_exact_mul_rot",
    "Cglm.C96_exact_scale_to",
    "Cglm.C96_as_written",
    "Cglm.C96_pairwise",
    "Cglm.C96_orders_agree",
    "Cglm.C96_differ"
   ],
   "note": "Portable code. C96_as_written shows that the order in the code is among those quantified over, C96_pairwise that the order of vector instructions is; C96_differ is the witness for the last sentence. Not covered: distributing or factoring out products, reciprocals instead of quotients."
  },
  {
   "property": "C97",
   "status": "proved",
   "theorems": [
    "Cglm.C97_vec2_dot",
    "Cglm.C97_vec2_norm2",
    "Cglm.C97_vec2_muladd",
    "Cglm.C97_vec2_muladds",
    "Cglm.C97_vec2_mulsub",
    "Cglm.C97_vec2_mulsubs",
    "Cglm.C97_vec2_addadd",
    "Cglm.C97_vec2_subadd",
    "Cglm.C97_vec2_addsub",
    "Cglm.C97_vec2_subsub",
    "Cglm.C97_mat2_mulv",
    "Cglm.C97_mat2_mul",
    "Cglm.C97_mat2_trace",
    "Cglm.C97_vec3_dot",
    "Cglm.C97_vec3_norm2",
    "Cglm.C97_vec3_muladd",
    "Cglm.C97_vec3_muladds",
    "Cglm.C97_vec3_mulsub",
    "Cglm.C97_vec3_mulsubs",
    "Cglm.C97_vec3_addadd",
    "Cglm.C97_vec3_subadd",
    "Cglm.C97_vec3_addsub",
    "Cglm.C97_vec3_subsub",
    "Cglm.C97_mat3_mulv",
    "Cglm.C97_mat3_mul",
    "Cglm.C97_mat3_trace",
    "Cglm.C97_vec4_dot",
    "Cglm.C97_vec4_norm2",
    "Cglm.C97_vec4_muladd",
    "Cglm.C97_vec4_muladds",
    "Cglm.C97_vec4_mulsub",
    "Cglm.C97_vec4_mulsubs",
    "Cglm.C97_vec4_addadd",
    "Cglm.C97_vec4_subadd",
    "Cglm.C97_vec4_addsub",
    "Cglm.C97_vec4_subsub",
    "Cglm.C97_mat4_mulv",
    "Cglm.C97_mat4_mul",
    "Cglm.C97_mat4_trace",
    "Cglm.C97_vec2_cross",
    "Cglm.C97_vec3_cross",
    "Cglm.C97_vec2_complex_mul",
    "Cglm.C97_quat_mul",
    "Cglm.C97_quat_dot",
    "Cglm.C97_mat2_det",
    "Cglm.C97_mat2x3_mulv",
    "Cglm.C97_mat2x4_mulv",
    "Cglm.C97_mat3x2_mulv",
    "Cglm.C97_mat3x4_mulv",
    "Cglm.C97_mat4x2_mulv",
    "Cglm.C97_mat4x3_mulv",
    "Cglm.C97_mat2x3_mul",
    "Cglm.C97_mat2x4_mul",
    "Cglm.C97_mat3x2_mul",
    "Cglm.C97_mat3x4_mul",
    "Cglm.C97_mat4x2_mul",
    "Cglm.C97_mat4x3_mul",
    "Cglm.C97_mat4_mulv3",
    "Cglm.C97_mul",
    "Cglm.C97_mul_rot",
    "Cglm.C97_translate",
    "Cglm.C97_scale_to",
    "Cglm.C97_lower_vec2_dot",
    "Cglm.C97_upper_vec2_dot",
    "Cglm.C97_lower_vec2_norm2",
    "Cglm.C97_upper_vec2_norm2",
    "Cglm.C97_lower_vec2_muladd",
    "Cglm.C97_upper_vec2_muladd",
    "Cglm.C97_lower_vec2_muladds",
    "Cglm.C97_upper_vec2_muladds",
    "Cglm.C97_lower_vec2_addadd",
    "Cglm.C97_upper_vec2_addadd",
    "Cglm.C97_lower_mat2_mulv",
    "Cglm.C97_upper_mat2_mulv",
    "Cglm.C97_lower_mat2_mul",
    "Cglm.C97_upper_mat2_mul",
    "Cglm.C97_lower_mat2_trace",
    "Cglm.C97_upper_mat2_trace",
    "Cglm.C97_lower_vec3_dot",
    "Cglm.C97_upper_vec3_dot",
    "Cglm.C97_lower_vec3_norm2",
    "Cglm.C97_upper_vec3_norm2",
    "Cglm.C97_lower_vec3_muladd",
    "Cglm.C97_upper_vec3_muladd",
    "Cglm.C97_lower_vec3_muladds",
    "Cglm.C97_upper_vec3_muladds",
    "Cglm.C97_lower_vec3_addadd",
    "Cglm.C97_upper_vec3_addadd",
    "Cglm.C97_lower_mat3_mulv",
    "Cglm.C97_upper_mat3_mulv",
    "Cglm.C97_lower_mat3_mul",
    "Cglm.C97_upper_mat3_mul",
    "Cglm.C97_lower_mat3_trace",
    "Cglm.C97_upper_mat3_trace",
    "Cglm.C97_lower_vec4_dot",
    "Cglm.C97_upper_vec4_dot",
    "Cglm.C97_lower_vec4_norm2",
    "Cglm.C97_upper_vec4_norm2",
    "Cglm.C97_lower_vec4_muladd",
    "Cglm.C97_upper_vec4_muladd",
    "Cglm.C97_lower_vec4_muladds",
    "Cglm.C97_upper_vec4_muladds",
    "Cglm.C97_lower_vec4_addadd",
    "Cglm.C97_upper_vec4_addadd",
    "Cglm.C97_lower_mat4_mulv",
    "Cglm.C97_upper_mat4_mulv",
    "Cglm.C97_lower_mat4_mul",
    "Cglm.C97_upper_mat4_mul",
    "Cglm.C97_lower_mat4_trace",
    "Cglm.C97_upper_mat4_trace",
    "Cglm.C97_lower_quat_dot",
    "Cglm.C97_upper_quat_dot",
    "Cglm.C97_lower_mat2x3_mulv",
    "Cglm.C97_upper_mat2x3_mulv",
    "Cglm.C97_lower_mat2x4_mulv",
    "Cglm.C97_upper_mat2x4_mulv",
    "Cglm.C97_lower_mat3x2_mulv",
    "Cglm.C97_upper_mat3x2_mulv",
    "Cglm.C97_lower_mat3x4_mulv",
    "Cglm.C97_upper_mat3x4_mulv",
    "Cglm.C97_lower_mat4x2_mulv",
    "Cglm.C97_upper_mat4x2_mulv",
    "Cglm.C97_lower_mat4x3_mulv",
    "Cglm.C97_upper_mat4x3_mulv",
    "Cglm.C97_lower_mat2x3_mul",
    "Cglm.C97_upper_mat2x3_mul",
    "Cglm.C97_lower_mat2x4_mul",
    "Cglm.C97_upper_mat2x4_mul",
    "Cglm.C97_lower_mat3x2_mul",
    "Cglm.C97_upper_mat3x2_mul",
    "Cglm.C97_lower_mat3x4_mul",
    "Cglm.C97_upper_mat3x4_mul",
    "Cglm.C97_lower_mat4x2_mul",
    "Cglm.C97_upper_mat4x2_mul",
    "Cglm.C97_lower_mat4x3_mul",
    "Cglm.C97_upper_mat4x3_mul",
    "Cglm.C97_lower_mat4_mulv3",
    "Cglm.C97_upper_mat4_mulv3",
    "Cglm.C97_lower_mul",
    "Cglm.C97_upper_mul",
    "Cglm.C97_lower_mul_rot",
    "Cglm.C97_upper_mul_rot",
    "Cglm.C97_lower_translate",
    "Cglm.C97_upper_translate",
    "Cglm.C97_lower_scale_to",
    "Cglm.C97_upper_scale_to",
    "Cglm.C97_exists",
    "Cglm.C97_binary32",
    "Cglm.C97_modes_differ",
    "Cglm.C97_flush_differs",
    "Cglm.C97_exact_vec2_add",
    "Cglm.C97_exact_vec2_adds",
    "Cglm.C97_exact_vec2_sub",
    "Cglm.C97_exact_vec2_subs",
    "Cglm.C97_exact_vec2_mul",
    "Cglm.C97_exact_vec2_scale",
    "Cglm.C97_exact_vec2_dot",
    "Cglm.C97_exact_vec2_norm2",
    "Cglm.C97_exact_vec2_muladd",
    "Cglm.C97_exact_vec2_muladds",
    "Cglm.C97_exact_vec2_mulsub",
    "Cglm.C97_exact_vec2_mulsubs",
    "Cglm.C97_exact_vec2_addadd",
    "Cglm.C97_exact_vec2_subadd",
    "Cglm.C97_exact_vec2_addsub",
    "Cglm.C97_exact_vec2_subsub",
    "Cglm.C97_exact_vec3_add",
    "Cglm.C97_exact_vec3_adds",
    "Cglm.C97_exact_vec3_sub",
    "Cglm.C97_exact_vec3_subs",
    "Cglm.C97_exact_vec3_mul",
    "Cglm.C97_exact_vec3_scale",
    "Cglm.C97_exact_vec3_dot",
    "Cglm.C97_exact_vec3_norm2",
    "Cglm.C97_exact_vec3_muladd",
    "Cglm.C97_exact_vec3_muladds",
    "Cglm.C97_exact_vec3_mulsub",
    "Cglm.C97_exact_vec3_mulsubs",
    "Cglm.C97_exact_vec3_addadd",
    "Cglm.C97_exact_vec3_subadd",
    "Cglm.C97_exact_vec3_addsub",
    "Cglm.C97_exact_vec3_subsub",
    "Cglm.C97_exact_vec3_hadd",
    "Cglm.C97_exact_vec4_add",
    "Cglm.C97_exact_vec4_adds",
    "Cglm.C97_exact_vec4_sub",
    "Cglm.C97_exact_vec4_subs",
    "Cglm.C97_exact_vec4_mul",
    "Cglm.C97_exact_vec4_scale",
    "Cglm.C97_exact_vec4_dot",
    "Cglm.C97_exact_vec4_norm2",
    "Cglm.C97_exact_vec4_muladd",
    "Cglm.C97_exact_vec4_muladds",
    "Cglm.C97_exact_vec4_mulsub",
    "Cglm.C97_exact_vec4_mulsubs",
    "Cglm.C97_exact_vec4_addadd",
    "Cglm.C97_exact_vec4_subadd",
    "Cglm.C97_exact_vec4_addsub",
    "Cglm.C97_exact_vec4_subsub",
    "Cglm.C97_exact_vec4_hadd",
    "Cglm.C97_exact_vec2_cross",
    "Cglm.C97_exact_vec3_cross",
    "Cglm.C97_exact_vec2_complex_mul",
    "Cglm.C97_exact_quat_mul",
    "Cglm.C97_exact_quat_dot",
    "Cglm.C97_exact_mat2_mulv",
    "Cglm.C97_exact_mat2_mul",
    "Cglm.C97_exact_mat2_scale",
    "Cglm.C97_exact_mat2_trace",
    "Cglm.C97_exact_mat3_mulv",
    "Cglm.C97_exact_mat3_mul",
    "Cglm.C97_exact_mat3_scale",
    "Cglm.C97_exact_mat3_trace",
    "Cglm.C97_exact_mat4_mulv",
    "Cglm.C97_exact_mat4_mul",
    "Cglm.C97_exact_mat4_scale",
    "Cglm.C97_exact_mat4_trace",
    "Cglm.C97_exact_mat2_det",
    "Cglm.C97_exact_mat2x3_mulv",
    "Cglm.C97_exact_mat2x3_mul",
    "Cglm.C97_exact_mat2x4_mulv",
    "Cglm.C97_exact_mat2x4_mul",
    "Cglm.C97_exact_mat3x2_mulv",
    "Cglm.C97_exact_mat3x2_mul",
    "Cglm.C97_exact_mat3x4_mulv",
    "Cglm.C97_exact_mat3x4_mul",
    "Cglm.C97_exact_mat4x2_mulv",
    "Cglm.C97_exact_mat4x2_mul",
    "Cglm.C97_exact_mat4x3_mulv",
    "Cglm.C97_exact_mat4x3_mul",
    "Cglm.C97_exact_mat4_mulv3",
    "Cglm.C97_exact_mul",
    "Cglm.C97_exact_mul_rot",
    "Cglm.C97_exact_scale_to"
   ],
   "note": "Portable code. C97_exists and C97_binary32 show that runs exist and that binary32 as in the other claims is one of them; C97_modes_differ and C97_flush_differs are the witnesses for the last sentence."
  },
  {
   "property": "C98",
   "status": "proved",
   "theorems": [
    "Cglm.C98_mul",
    "Cglm.C98_mul_rot",
    "Cglm.C98_rotate_make",
    "Cglm.C98_decompose_scalev",
    "Cglm.C98_rotate_x",
    "Cglm.C98_rotate_y",
    "Cglm.C98_rotate_z",
    "Cglm.C98_rotate",
    "Cglm.C98_spin",
    "Cglm.C98_rotated_x",
    "Cglm.C98_rotated_y",
    "Cglm.C98_rotated_z",
    "Cglm.C98_rotated",
    "Cglm.C98_spinned",
    "Cglm.C98_rotate2d_to",
    "Cglm.C98_translate_make",
    "Cglm.C98_scale_to",
    "Cglm.C98_scale_make",
    "Cglm.C98_scale",
    "Cglm.C98_decompose_rs",
    "Cglm.C98_decompose",
    "Cglm.C98_translate",
    "Cglm.C98_translate_to",
    "Cglm.C98_rotate_at",
    "Cglm.C98_rotate_atm",
    "Cglm.C98_translated",
    "Cglm.C98_translated_to",
    "Cglm.C98_rotated_at",
    "Cglm.C98_translate2d",
    "Cglm.C98_translate2d_to",
    "Cglm.C98_translate2d_make",
    "Cglm.C98_scale2d_to",
    "Cglm.C98_scale2d_make",
    "Cglm.C98_scale2d",
    "Cglm.C98_translated2d",
    "Cglm.C98_scaled2d",
    "Cglm.C98_lookat_lh",
    "Cglm.C98_look_lh",
    "Cglm.C98_look_anyup_lh",
    "Cglm.C98_lookat_lh_zo",
    "Cglm.C98_look_lh_zo",
    "Cglm.C98_look_anyup_lh_zo",
    "Cglm.C98_lookat_lh_no",
    "Cglm.C98_look_lh_no",
    "Cglm.C98_look_anyup_lh_no",
    "Cglm.C98_lookat_rh",
    "Cglm.C98_look_rh",
    "Cglm.C98_look_anyup_rh",
    "Cglm.C98_lookat_rh_zo",
    "Cglm.C98_look_rh_zo",
    "Cglm.C98_look_anyup_rh_zo",
    "Cglm.C98_lookat_rh_no",
    "Cglm.C98_look_rh_no",
    "Cglm.C98_look_anyup_rh_no",
    "Cglm.C98_project_zo",
    "Cglm.C98_lookat",
    "Cglm.C98_look",
    "Cglm.C98_look_anyup",
    "Cglm.C98_aabb2d_crop_until",
    "Cglm.C98_aabb_crop_until",
    "Cglm.C98_mat4_ucopy",
    "Cglm.C98_mat4_copy",
    "Cglm.C98_mat4_pick3t",
    "Cglm.C98_mat4_ins3",
    "Cglm.C98_mat4_quat",
    "Cglm.C98_mat4_transpose_to",
    "Cglm.C98_mat4_make",
    "Cglm.C98_mat4x2_transpose",
    "Cglm.C98_mat4x3_transpose",
    "Cglm.C98_mat3_transpose_to",
    "Cglm.C98_mat3_quat",
    "Cglm.C98_mat3x2_transpose",
    "Cglm.C98_mat3x4_transpose",
    "Cglm.C98_mat2_mulv",
    "Cglm.C98_mat2_transpose_to",
    "Cglm.C98_mat2x3_transpose",
    "Cglm.C98_mat2x4_transpose",
    "Cglm.C98_quat_mul",
    "Cglm.C98_quat_look",
    "Cglm.C98_quat_rotate_at",
    "Cglm.C98_quat_rotate_atm",
    "Cglm.C98_vec2_refract",
    "Cglm.C98_vec4_reflect",
    "Cglm.C98_vec4_refract",
    "Cglm.C98_vec3_refract",
    "Cglm.C98_ortho_aabb_lh_zo",
    "Cglm.C98_ortho_aabb_p_lh_zo",
    "Cglm.C98_ortho_aabb_pz_lh_zo",
    "Cglm.C98_persp_decomp_lh_zo",
    "Cglm.C98_persp_decompv_lh_zo",
    "Cglm.C98_persp_decomp_x_lh_zo",
    "Cglm.C98_persp_decomp_y_lh_zo",
    "Cglm.C98_persp_decomp_z_lh_zo",
    "Cglm.C98_persp_decomp_far_lh_zo",
    "Cglm.C98_persp_decomp_near_lh_zo",
    "Cglm.C98_persp_sizes_lh_zo",
    "Cglm.C98_ortho_aabb_lh_no",
    "Cglm.C98_ortho_aabb_p_lh_no",
    "Cglm.C98_ortho_aabb_pz_lh_no",
    "Cglm.C98_persp_decomp_lh_no",
    "Cglm.C98_persp_decompv_lh_no",
    "Cglm.C98_persp_decomp_x_lh_no",
    "Cglm.C98_persp_decomp_y_lh_no",
    "Cglm.C98_persp_decomp_z_lh_no",
    "Cglm.C98_persp_decomp_far_lh_no",
    "Cglm.C98_persp_decomp_near_lh_no",
    "Cglm.C98_persp_sizes_lh_no",
    "Cglm.C98_ortho_aabb_rh_zo",
    "Cglm.C98_ortho_aabb_p_rh_zo",
    "Cglm.C98_ortho_aabb_pz_rh_zo",
    "Cglm.C98_persp_decomp_rh_zo",
    "Cglm.C98_persp_decompv_rh_zo",
    "Cglm.C98_persp_decomp_x_rh_zo",
    "Cglm.C98_persp_decomp_y_rh_zo",
    "Cglm.C98_persp_decomp_z_rh_zo",
    "Cglm.C98_persp_decomp_far_rh_zo",
    "Cglm.C98_persp_decomp_near_rh_zo",
    "Cglm.C98_persp_sizes_rh_zo",
    "Cglm.C98_ortho_aabb_rh_no",
    "Cglm.C98_ortho_aabb_p_rh_no",
    "Cglm.C98_ortho_aabb_pz_rh_no",
    "Cglm.C98_persp_decomp_rh_no",
    "Cglm.C98_persp_decompv_rh_no",
    "Cglm.C98_persp_decomp_x_rh_no",
    "Cglm.C98_persp_decomp_y_rh_no",
    "Cglm.C98_persp_decomp_z_rh_no",
    "Cglm.C98_persp_decomp_far_rh_no",
    "Cglm.C98_persp_decomp_near_rh_no",
    "Cglm.C98_persp_sizes_rh_no",
    "Cglm.C98_unprojecti_zo",
    "Cglm.C98_unprojecti_no",
    "Cglm.C98_project_no",
    "Cglm.C98_translate_by_right",
    "Cglm.C98_translate_by_up",
    "Cglm.C98_translate_by_forward",
    "Cglm.C98_scale_by_position",
    "Cglm.C98_decompose_position",
    "Cglm.C98_lookat_refuted",
    "Cglm.C98_translate_exact",
    "Cglm.C98_translated_exact",
    "Cglm.C98_translate2d_exact",
    "Cglm.C98_translate2d_to_m_exact",
    "Cglm.C98_translate2d_make_exact",
    "Cglm.C98_scale2d_to_m_exact",
    "Cglm.C98_scale2d_to_v_exact",
    "Cglm.C98_scale2d_make_exact",
    "Cglm.C98_scale2d_exact",
    "Cglm.C98_translated2d_exact",
    "Cglm.C98_scaled2d_exact",
    "Cglm.C98_project_no_vp_wrong",
    "Cglm.C98_aabb2d_copy_exact",
    "Cglm.C98_aabb2d_merge_aabb1_exact",
    "Cglm.C98_aabb2d_merge_aabb2_exact",
    "Cglm.C98_aabb2d_crop_aabb_exact",
    "Cglm.C98_aabb2d_crop_cropAabb_exact",
    "Cglm.C98_aabb2d_crop_until_aabb_exact",
    "Cglm.C98_aabb2d_crop_until_cropAabb_exact",
    "Cglm.C98_aabb2d_crop_until_clampAabb_exact",
    "Cglm.C98_aabb2d_sizev_wrong",
    "Cglm.C98_aabb2d_center_wrong",
    "Cglm.C98_aabb_merge_box1_exact",
    "Cglm.C98_aabb_merge_box2_exact",
    "Cglm.C98_aabb_crop_box_exact",
    "Cglm.C98_aabb_crop_cropBox_exact",
    "Cglm.C98_aabb_crop_until_box_exact",
    "Cglm.C98_aabb_crop_until_cropBox_exact",
    "Cglm.C98_aabb_center_wrong",
    "Cglm.C98_sphere_transform_s_exact",
    "Cglm.C98_sphere_merge_s1_wrong",
    "Cglm.C98_sphere_merge_s2_wrong",
    "Cglm.C98_ray_at_orig_exact",
    "Cglm.C98_mat4_pick3_wrong",
    "Cglm.C98_mat4_pick3t_exact",
    "Cglm.C98_mat4_ins3_exact",
    "Cglm.C98_mat4x2_copy_exact",
    "Cglm.C98_mat4x2_make_exact",
    "Cglm.C98_mat4x2_mulv_m_wrong",
    "Cglm.C98_mat4x2_transpose_exact",
    "Cglm.C98_mat4x3_copy_exact",
    "Cglm.C98_mat4x3_make_exact",
    "Cglm.C98_mat3_copy_exact",
    "Cglm.C98_mat3_transpose_to_exact",
    "Cglm.C98_mat3_make_exact",
    "Cglm.C98_mat3x2_copy_exact",
    "Cglm.C98_mat3x2_make_exact",
    "Cglm.C98_mat3x2_mulv_m_wrong",
    "Cglm.C98_mat3x2_transpose_exact",
    "Cglm.C98_mat3x4_make_exact",
    "Cglm.C98_mat2_make_exact",
    "Cglm.C98_mat2_copy_exact",
    "Cglm.C98_mat2_mulv_m_exact",
    "Cglm.C98_mat2_mulv_v_exact",
    "Cglm.C98_mat2_transpose_to_exact",
    "Cglm.C98_mat2x3_copy_exact",
    "Cglm.C98_mat2x3_make_exact",
    "Cglm.C98_mat2x3_mulv_m_wrong",
    "Cglm.C98_mat2x3_transpose_exact",
    "Cglm.C98_mat2x4_copy_exact",
    "Cglm.C98_mat2x4_make_exact",
    "Cglm.C98_mat2x4_transpose_exact",
    "Cglm.C98_quat_copy_exact",
    "Cglm.C98_quat_normalize_to_exact",
    "Cglm.C98_quat_conjugate_exact",
    "Cglm.C98_quat_add_p_exact",
    "Cglm.C98_quat_add_q_exact",
    "Cglm.C98_quat_sub_p_exact",
    "Cglm.C98_quat_sub_q_exact",
    "Cglm.C98_quat_imag_wrong",
    "Cglm.C98_quat_imagn_wrong",
    "Cglm.C98_quat_axis_wrong",
    "Cglm.C98_quat_mul_q_exact",
    "Cglm.C98_quat_lerp_frm_exact",
    "Cglm.C98_quat_lerpc_frm_exact",
    "Cglm.C98_quat_make_exact",
    "Cglm.C98_vec2_sign_exact",
    "Cglm.C98_vec2_abs_exact",
    "Cglm.C98_vec2_floor_exact",
    "Cglm.C98_vec2_mods_exact",
    "Cglm.C98_vec2_sqrt_exact",
    "Cglm.C98_vec2_steps_exact",
    "Cglm.C98_vec2_stepr_exact",
    "Cglm.C98_vec2_complex_conjugate_exact",
    "Cglm.C98_vec2_exact",
    "Cglm.C98_vec2_copy_exact",
    "Cglm.C98_vec2_add_a_exact",
    "Cglm.C98_vec2_add_b_exact",
    "Cglm.C98_vec2_adds_exact",
    "Cglm.C98_vec2_sub_a_exact",
    "Cglm.C98_vec2_sub_b_exact",
    "Cglm.C98_vec2_subs_exact",
    "Cglm.C98_vec2_mul_a_exact",
    "Cglm.C98_vec2_mul_b_exact",
    "Cglm.C98_vec2_scale_exact",
    "Cglm.C98_vec2_scale_as_exact",
    "Cglm.C98_vec2_div_a_exact",
    "Cglm.C98_vec2_divs_exact",
    "Cglm.C98_vec2_addadd_a_exact",
    "Cglm.C98_vec2_addadd_b_exact",
    "Cglm.C98_vec2_subadd_a_exact",
    "Cglm.C98_vec2_subadd_b_exact",
    "Cglm.C98_vec2_muladd_a_exact",
    "Cglm.C98_vec2_muladd_b_exact",
    "Cglm.C98_vec2_muladds_exact",
    "Cglm.C98_vec2_maxadd_a_exact",
    "Cglm.C98_vec2_maxadd_b_exact",
    "Cglm.C98_vec2_minadd_a_exact",
    "Cglm.C98_vec2_minadd_b_exact",
    "Cglm.C98_vec2_subsub_a_exact",
    "Cglm.C98_vec2_subsub_b_exact",
    "Cglm.C98_vec2_addsub_a_exact",
    "Cglm.C98_vec2_addsub_b_exact",
    "Cglm.C98_vec2_mulsub_a_exact",
    "Cglm.C98_vec2_mulsub_b_exact",
    "Cglm.C98_vec2_mulsubs_exact",
    "Cglm.C98_vec2_maxsub_a_exact",
    "Cglm.C98_vec2_maxsub_b_exact",
    "Cglm.C98_vec2_minsub_a_exact",
    "Cglm.C98_vec2_minsub_b_exact",
    "Cglm.C98_vec2_negate_to_exact",
    "Cglm.C98_vec2_normalize_to_exact",
    "Cglm.C98_vec2_center_a_exact",
    "Cglm.C98_vec2_center_b_exact",
    "Cglm.C98_vec2_maxv_a_exact",
    "Cglm.C98_vec2_maxv_b_exact",
    "Cglm.C98_vec2_minv_a_exact",
    "Cglm.C98_vec2_minv_b_exact",
    "Cglm.C98_vec2_lerp_frm_exact",
    "Cglm.C98_vec2_step_edge_exact",
    "Cglm.C98_vec2_step_x_exact",
    "Cglm.C98_vec2_make_exact",
    "Cglm.C98_vec2_reflect_v_exact",
    "Cglm.C98_vec3_sign_exact",
    "Cglm.C98_vec3_abs_exact",
    "Cglm.C98_vec3_floor_exact",
    "Cglm.C98_vec3_mods_exact",
    "Cglm.C98_vec3_steps_exact",
    "Cglm.C98_vec3_stepr_exact",
    "Cglm.C98_vec3_sqrt_exact",
    "Cglm.C98_vec4_sign_exact",
    "Cglm.C98_vec4_abs_exact",
    "Cglm.C98_vec4_floor_exact",
    "Cglm.C98_vec4_mods_exact",
    "Cglm.C98_vec4_steps_exact",
    "Cglm.C98_vec4_stepr_exact",
    "Cglm.C98_vec4_sqrt_exact",
    "Cglm.C98_vec4_exact",
    "Cglm.C98_vec4_copy3_wrong",
    "Cglm.C98_vec4_copy_exact",
    "Cglm.C98_vec4_ucopy_exact",
    "Cglm.C98_vec4_add_a_exact",
    "Cglm.C98_vec4_add_b_exact",
    "Cglm.C98_vec4_adds_exact",
    "Cglm.C98_vec4_sub_a_exact",
    "Cglm.C98_vec4_sub_b_exact",
    "Cglm.C98_vec4_subs_exact",
    "Cglm.C98_vec4_mul_a_exact",
    "Cglm.C98_vec4_mul_b_exact",
    "Cglm.C98_vec4_scale_exact",
    "Cglm.C98_vec4_scale_as_exact",
    "Cglm.C98_vec4_div_a_exact",
    "Cglm.C98_vec4_div_b_exact",
    "Cglm.C98_vec4_divs_exact",
    "Cglm.C98_vec4_addadd_a_exact",
    "Cglm.C98_vec4_addadd_b_exact",
    "Cglm.C98_vec4_subadd_a_exact",
    "Cglm.C98_vec4_subadd_b_exact",
    "Cglm.C98_vec4_muladd_a_exact",
    "Cglm.C98_vec4_muladd_b_exact",
    "Cglm.C98_vec4_muladds_exact",
    "Cglm.C98_vec4_maxadd_a_exact",
    "Cglm.C98_vec4_maxadd_b_exact",
    "Cglm.C98_vec4_minadd_a_exact",
    "Cglm.C98_vec4_minadd_b_exact",
    "Cglm.C98_vec4_subsub_a_exact",
    "Cglm.C98_vec4_subsub_b_exact",
    "Cglm.C98_vec4_addsub_a_exact",
    "Cglm.C98_vec4_addsub_b_exact",
    "Cglm.C98_vec4_mulsub_a_exact",
    "Cglm.C98_vec4_mulsub_b_exact",
    "Cglm.C98_vec4_mulsubs_exact",
    "Cglm.C98_vec4_maxsub_a_exact",
    "Cglm.C98_vec4_maxsub_b_exact",
    "Cglm.C98_vec4_minsub_a_exact",
    "Cglm.C98_vec4_minsub_b_exact",
    "Cglm.C98_vec4_negate_to_exact",
    "Cglm.C98_vec4_normalize_to_exact",
    "Cglm.C98_vec4_maxv_a_exact",
    "Cglm.C98_vec4_maxv_b_exact",
    "Cglm.C98_vec4_minv_a_exact",
    "Cglm.C98_vec4_minv_b_exact",
    "Cglm.C98_vec4_lerp_frm_exact",
    "Cglm.C98_vec4_lerpc_frm_exact",
    "Cglm.C98_vec4_mix_frm_exact",
    "Cglm.C98_vec4_mixc_frm_exact",
    "Cglm.C98_vec4_step_edge_exact",
    "Cglm.C98_vec4_step_x_exact",
    "Cglm.C98_vec4_smoothstep_uni_exact",
    "Cglm.C98_vec4_smoothstep_x_exact",
    "Cglm.C98_vec4_smoothinterp_frm_exact",
    "Cglm.C98_vec4_smoothinterpc_frm_exact",
    "Cglm.C98_vec4_make_exact",
    "Cglm.C98_vec4_reflect_v_exact",
    "Cglm.C98_vec3_wrong",
    "Cglm.C98_vec3_copy_exact",
    "Cglm.C98_vec3_add_a_exact",
    "Cglm.C98_vec3_add_b_exact",
    "Cglm.C98_vec3_adds_exact",
    "Cglm.C98_vec3_sub_a_exact",
    "Cglm.C98_vec3_sub_b_exact",
    "Cglm.C98_vec3_subs_exact",
    "Cglm.C98_vec3_mul_a_exact",
    "Cglm.C98_vec3_mul_b_exact",
    "Cglm.C98_vec3_scale_exact",
    "Cglm.C98_vec3_scale_as_exact",
    "Cglm.C98_vec3_div_a_exact",
    "Cglm.C98_vec3_div_b_exact",
    "Cglm.C98_vec3_divs_exact",
    "Cglm.C98_vec3_addadd_a_exact",
    "Cglm.C98_vec3_addadd_b_exact",
    "Cglm.C98_vec3_subadd_a_exact",
    "Cglm.C98_vec3_subadd_b_exact",
    "Cglm.C98_vec3_muladd_a_exact",
    "Cglm.C98_vec3_muladd_b_exact",
    "Cglm.C98_vec3_muladds_exact",
    "Cglm.C98_vec3_maxadd_a_exact",
    "Cglm.C98_vec3_maxadd_b_exact",
    "Cglm.C98_vec3_minadd_a_exact",
    "Cglm.C98_vec3_minadd_b_exact",
    "Cglm.C98_vec3_subsub_a_exact",
    "Cglm.C98_vec3_subsub_b_exact",
    "Cglm.C98_vec3_addsub_a_exact",
    "Cglm.C98_vec3_addsub_b_exact",
    "Cglm.C98_vec3_mulsub_a_exact",
    "Cglm.C98_vec3_mulsub_b_exact",
    "Cglm.C98_vec3_mulsubs_exact",
    "Cglm.C98_vec3_maxsub_a_exact",
    "Cglm.C98_vec3_maxsub_b_exact",
    "Cglm.C98_vec3_minsub_a_exact",
    "Cglm.C98_vec3_minsub_b_exact",
    "Cglm.C98_vec3_negate_to_exact",
    "Cglm.C98_vec3_normalize_to_exact",
    "Cglm.C98_vec3_proj_b_exact",
    "Cglm.C98_vec3_center_a_exact",
    "Cglm.C98_vec3_center_b_exact",
    "Cglm.C98_vec3_maxv_a_exact",
    "Cglm.C98_vec3_maxv_b_exact",
    "Cglm.C98_vec3_minv_a_exact",
    "Cglm.C98_vec3_minv_b_exact",
    "Cglm.C98_vec3_lerp_frm_exact",
    "Cglm.C98_vec3_lerpc_frm_exact",
    "Cglm.C98_vec3_mix_frm_exact",
    "Cglm.C98_vec3_mixc_frm_exact",
    "Cglm.C98_vec3_step_edge_exact",
    "Cglm.C98_vec3_step_x_exact",
    "Cglm.C98_vec3_smoothstep_uni_exact",
    "Cglm.C98_vec3_smoothstep_edge0_exact",
    "Cglm.C98_vec3_smoothstep_edge1_exact",
    "Cglm.C98_vec3_smoothstep_x_exact",
    "Cglm.C98_vec3_smoothinterp_frm_exact",
    "Cglm.C98_vec3_smoothinterpc_frm_exact",
    "Cglm.C98_normalize_to_exact",
    "Cglm.C98_vec3_make_exact",
    "Cglm.C98_vec3_faceforward_n_exact",
    "Cglm.C98_vec3_reflect_v_exact",
    "Cglm.C98_ortho_aabb",
    "Cglm.C98_ortho_aabb_p",
    "Cglm.C98_ortho_aabb_pz",
    "Cglm.C98_persp_decomp",
    "Cglm.C98_persp_decompv",
    "Cglm.C98_persp_decomp_x",
    "Cglm.C98_persp_decomp_y",
    "Cglm.C98_persp_decomp_z",
    "Cglm.C98_persp_decomp_far",
    "Cglm.C98_persp_decomp_near",
    "Cglm.C98_persp_sizes",
    "Cglm.C98_frustum_planes",
    "Cglm.C98_frustum_corners",
    "Cglm.C98_frustum_center",
    "Cglm.C98_frustum_box",
    "Cglm.C98_frustum_corners_at",
    "Cglm.C98_aabb2d_copy",
    "Cglm.C98_aabb2d_transform",
    "Cglm.C98_aabb2d_merge",
    "Cglm.C98_aabb2d_crop",
    "Cglm.C98_aabb2d_sizev",
    "Cglm.C98_aabb2d_center",
    "Cglm.C98_aabb_transform",
    "Cglm.C98_aabb_merge",
    "Cglm.C98_aabb_crop",
    "Cglm.C98_aabb_center",
    "Cglm.C98_unprojecti",
    "Cglm.C98_unproject",
    "Cglm.C98_project",
    "Cglm.C98_pickmatrix",
    "Cglm.C98_sphere_transform",
    "Cglm.C98_sphere_merge",
    "Cglm.C98_ray_triangle",
    "Cglm.C98_ray_sphere",
    "Cglm.C98_ray_at",
    "Cglm.C98_ivec2",
    "Cglm.C98_ivec2_copy",
    "Cglm.C98_ivec2_add",
    "Cglm.C98_ivec2_adds",
    "Cglm.C98_ivec2_sub",
    "Cglm.C98_ivec2_subs",
    "Cglm.C98_ivec2_mul",
    "Cglm.C98_ivec2_scale",
    "Cglm.C98_ivec2_div",
    "Cglm.C98_ivec2_divs",
    "Cglm.C98_ivec2_mod",
    "Cglm.C98_ivec2_addadd",
    "Cglm.C98_ivec2_addadds",
    "Cglm.C98_ivec2_subadd",
    "Cglm.C98_ivec2_subadds",
    "Cglm.C98_ivec2_muladd",
    "Cglm.C98_ivec2_muladds",
    "Cglm.C98_ivec2_maxadd",
    "Cglm.C98_ivec2_minadd",
    "Cglm.C98_ivec2_subsub",
    "Cglm.C98_ivec2_subsubs",
    "Cglm.C98_ivec2_addsub",
    "Cglm.C98_ivec2_addsubs",
    "Cglm.C98_ivec2_mulsub",
    "Cglm.C98_ivec2_mulsubs",
    "Cglm.C98_ivec2_maxsub",
    "Cglm.C98_ivec2_minsub",
    "Cglm.C98_ivec2_maxv",
    "Cglm.C98_ivec2_minv",
    "Cglm.C98_ivec2_abs",
    "Cglm.C98_ivec3",
    "Cglm.C98_ivec3_copy",
    "Cglm.C98_ivec3_add",
    "Cglm.C98_ivec3_adds",
    "Cglm.C98_ivec3_sub",
    "Cglm.C98_ivec3_subs",
    "Cglm.C98_ivec3_mul",
    "Cglm.C98_ivec3_scale",
    "Cglm.C98_ivec3_div",
    "Cglm.C98_ivec3_divs",
    "Cglm.C98_ivec3_mod",
    "Cglm.C98_ivec3_addadd",
    "Cglm.C98_ivec3_addadds",
    "Cglm.C98_ivec3_subadd",
    "Cglm.C98_ivec3_subadds",
    "Cglm.C98_ivec3_muladd",
    "Cglm.C98_ivec3_muladds",
    "Cglm.C98_ivec3_maxadd",
    "Cglm.C98_ivec3_minadd",
    "Cglm.C98_ivec3_subsub",
    "Cglm.C98_ivec3_subsubs",
    "Cglm.C98_ivec3_addsub",
    "Cglm.C98_ivec3_addsubs",
    "Cglm.C98_ivec3_mulsub",
    "Cglm.C98_ivec3_mulsubs",
    "Cglm.C98_ivec3_maxsub",
    "Cglm.C98_ivec3_minsub",
    "Cglm.C98_ivec3_maxv",
    "Cglm.C98_ivec3_minv",
    "Cglm.C98_ivec3_abs",
    "Cglm.C98_ivec4",
    "Cglm.C98_ivec4_copy",
    "Cglm.C98_ivec4_add",
    "Cglm.C98_ivec4_adds",
    "Cglm.C98_ivec4_sub",
    "Cglm.C98_ivec4_subs",
    "Cglm.C98_ivec4_mul",
    "Cglm.C98_ivec4_scale",
    "Cglm.C98_ivec4_addadd",
    "Cglm.C98_ivec4_addadds",
    "Cglm.C98_ivec4_subadd",
    "Cglm.C98_ivec4_subadds",
    "Cglm.C98_ivec4_muladd",
    "Cglm.C98_ivec4_muladds",
    "Cglm.C98_ivec4_maxadd",
    "Cglm.C98_ivec4_minadd",
    "Cglm.C98_ivec4_subsub",
    "Cglm.C98_ivec4_subsubs",
    "Cglm.C98_ivec4_addsub",
    "Cglm.C98_ivec4_addsubs",
    "Cglm.C98_ivec4_mulsub",
    "Cglm.C98_ivec4_mulsubs",
    "Cglm.C98_ivec4_maxsub",
    "Cglm.C98_ivec4_minsub",
    "Cglm.C98_ivec4_maxv",
    "Cglm.C98_ivec4_minv",
    "Cglm.C98_ivec4_abs",
    "Cglm.C98_mat4_pick3",
    "Cglm.C98_mat4_mul",
    "Cglm.C98_mat4_mulv",
    "Cglm.C98_mat4_mulv3",
    "Cglm.C98_mat4_inv",
    "Cglm.C98_mat4_inv_fast",
    "Cglm.C98_mat4x2_copy",
    "Cglm.C98_mat4x2_make",
    "Cglm.C98_mat4x2_mul",
    "Cglm.C98_mat4x2_mulv",
    "Cglm.C98_mat4x3_copy",
    "Cglm.C98_mat4x3_make",
    "Cglm.C98_mat4x3_mul",
    "Cglm.C98_mat4x3_mulv",
    "Cglm.C98_mat3_copy",
    "Cglm.C98_mat3_mul",
    "Cglm.C98_mat3_mulv",
    "Cglm.C98_mat3_inv",
    "Cglm.C98_mat3_make",
    "Cglm.C98_mat3x2_copy",
    "Cglm.C98_mat3x2_make",
    "Cglm.C98_mat3x2_mul",
    "Cglm.C98_mat3x2_mulv",
    "Cglm.C98_mat3x4_copy",
    "Cglm.C98_mat3x4_make",
    "Cglm.C98_mat3x4_mul",
    "Cglm.C98_mat3x4_mulv",
    "Cglm.C98_mat2_make",
    "Cglm.C98_mat2_copy",
    "Cglm.C98_mat2_mul",
    "Cglm.C98_mat2_inv",
    "Cglm.C98_mat2x3_copy",
    "Cglm.C98_mat2x3_make",
    "Cglm.C98_mat2x3_mul",
    "Cglm.C98_mat2x3_mulv",
    "Cglm.C98_mat2x4_copy",
    "Cglm.C98_mat2x4_make",
    "Cglm.C98_mat2x4_mul",
    "Cglm.C98_mat2x4_mulv",
    "Cglm.C98_quatv",
    "Cglm.C98_quat_copy",
    "Cglm.C98_quat_normalize_to",
    "Cglm.C98_quat_conjugate",
    "Cglm.C98_quat_inv",
    "Cglm.C98_quat_add",
    "Cglm.C98_quat_sub",
    "Cglm.C98_quat_imag",
    "Cglm.C98_quat_imagn",
    "Cglm.C98_quat_axis",
    "Cglm.C98_quat_mat4",
    "Cglm.C98_quat_mat4t",
    "Cglm.C98_quat_mat3",
    "Cglm.C98_quat_mat3t",
    "Cglm.C98_quat_lerp",
    "Cglm.C98_quat_lerpc",
    "Cglm.C98_quat_nlerp",
    "Cglm.C98_quat_slerp",
    "Cglm.C98_quat_slerp_longest",
    "Cglm.C98_quat_for",
    "Cglm.C98_quat_forp",
    "Cglm.C98_quat_rotatev",
    "Cglm.C98_quat_rotate",
    "Cglm.C98_quat_make",
    "Cglm.C98_quat_from_vecs",
    "Cglm.C98_euler_xyz_quat_rh",
    "Cglm.C98_euler_xzy_quat_rh",
    "Cglm.C98_euler_yxz_quat_rh",
    "Cglm.C98_euler_yzx_quat_rh",
    "Cglm.C98_euler_zxy_quat_rh",
    "Cglm.C98_euler_zyx_quat_rh",
    "Cglm.C98_euler_angles",
    "Cglm.C98_euler_xyz",
    "Cglm.C98_euler",
    "Cglm.C98_euler_xzy",
    "Cglm.C98_euler_yxz",
    "Cglm.C98_euler_yzx",
    "Cglm.C98_euler_zxy",
    "Cglm.C98_euler_zyx",
    "Cglm.C98_euler_by_order",
    "Cglm.C98_euler_xyz_quat",
    "Cglm.C98_euler_xzy_quat",
    "Cglm.C98_euler_yxz_quat",
    "Cglm.C98_euler_yzx_quat",
    "Cglm.C98_euler_zxy_quat",
    "Cglm.C98_euler_zyx_quat",
    "Cglm.C98_euler_xyz_quat_lh",
    "Cglm.C98_euler_xzy_quat_lh",
    "Cglm.C98_euler_yxz_quat_lh",
    "Cglm.C98_euler_yzx_quat_lh",
    "Cglm.C98_euler_zxy_quat_lh",
    "Cglm.C98_euler_zyx_quat_lh",
    "Cglm.C98_vec3_copy_shifted",
    "Cglm.C98_vec3_add_shifted",
    "Cglm.C98_mat4_copy_below",
    "Cglm.C98_mat4_mulv3_column",
    "Cglm.C98_translate_column",
    "Cglm.C98_scale_column",
    "Cglm.C98_ivec3_copy_shifted",
    "Cglm.C98_vec3_copy_refuted",
    "Cglm.C98_vec3_add_refuted",
    "Cglm.C98_translate_refuted",
    "Cglm.C98_scale_refuted",
    "Cglm.C98_ivec3_copy_refuted",
    "Cglm.C98_mat4_copy_refuted",
    "Cglm.C98_vec2_sign",
    "Cglm.C98_vec2_abs",
    "Cglm.C98_vec2_fract",
    "Cglm.C98_vec2_floor",
    "Cglm.C98_vec2_mods",
    "Cglm.C98_vec2_sqrt",
    "Cglm.C98_vec2_complex_mul",
    "Cglm.C98_vec2_steps",
    "Cglm.C98_vec2_stepr",
    "Cglm.C98_vec2_complex_div",
    "Cglm.C98_vec2_complex_conjugate",
    "Cglm.C98_vec2",
    "Cglm.C98_vec2_copy",
    "Cglm.C98_vec2_add",
    "Cglm.C98_vec2_adds",
    "Cglm.C98_vec2_sub",
    "Cglm.C98_vec2_subs",
    "Cglm.C98_vec2_mul",
    "Cglm.C98_vec2_scale",
    "Cglm.C98_vec2_scale_as",
    "Cglm.C98_vec2_div",
    "Cglm.C98_vec2_divs",
    "Cglm.C98_vec2_addadd",
    "Cglm.C98_vec2_subadd",
    "Cglm.C98_vec2_muladd",
    "Cglm.C98_vec2_muladds",
    "Cglm.C98_vec2_maxadd",
    "Cglm.C98_vec2_minadd",
    "Cglm.C98_vec2_subsub",
    "Cglm.C98_vec2_addsub",
    "Cglm.C98_vec2_mulsub",
    "Cglm.C98_vec2_mulsubs",
    "Cglm.C98_vec2_maxsub",
    "Cglm.C98_vec2_minsub",
    "Cglm.C98_vec2_negate_to",
    "Cglm.C98_vec2_normalize_to",
    "Cglm.C98_vec2_rotate",
    "Cglm.C98_vec2_center",
    "Cglm.C98_vec2_maxv",
    "Cglm.C98_vec2_minv",
    "Cglm.C98_vec2_lerp",
    "Cglm.C98_vec2_step",
    "Cglm.C98_vec2_make",
    "Cglm.C98_vec2_reflect",
    "Cglm.C98_vec3_sign",
    "Cglm.C98_vec3_abs",
    "Cglm.C98_vec3_fract",
    "Cglm.C98_vec3_floor",
    "Cglm.C98_vec3_mods",
    "Cglm.C98_vec3_steps",
    "Cglm.C98_vec3_stepr",
    "Cglm.C98_vec3_sqrt",
    "Cglm.C98_vec4_sign",
    "Cglm.C98_vec4_abs",
    "Cglm.C98_vec4_fract",
    "Cglm.C98_vec4_floor",
    "Cglm.C98_vec4_mods",
    "Cglm.C98_vec4_steps",
    "Cglm.C98_vec4_stepr",
    "Cglm.C98_vec4_sqrt",
    "Cglm.C98_vec4",
    "Cglm.C98_vec4_copy3",
    "Cglm.C98_vec4_copy",
    "Cglm.C98_vec4_ucopy",
    "Cglm.C98_vec4_add",
    "Cglm.C98_vec4_adds",
    "Cglm.C98_vec4_sub",
    "Cglm.C98_vec4_subs",
    "Cglm.C98_vec4_mul",
    "Cglm.C98_vec4_scale",
    "Cglm.C98_vec4_scale_as",
    "Cglm.C98_vec4_div",
    "Cglm.C98_vec4_divs",
    "Cglm.C98_vec4_addadd",
    "Cglm.C98_vec4_subadd",
    "Cglm.C98_vec4_muladd",
    "Cglm.C98_vec4_muladds",
    "Cglm.C98_vec4_maxadd",
    "Cglm.C98_vec4_minadd",
    "Cglm.C98_vec4_subsub",
    "Cglm.C98_vec4_addsub",
    "Cglm.C98_vec4_mulsub",
    "Cglm.C98_vec4_mulsubs",
    "Cglm.C98_vec4_maxsub",
    "Cglm.C98_vec4_minsub",
    "Cglm.C98_vec4_negate_to",
    "Cglm.C98_vec4_normalize_to",
    "Cglm.C98_vec4_maxv",
    "Cglm.C98_vec4_minv",
    "Cglm.C98_vec4_lerp",
    "Cglm.C98_vec4_lerpc",
    "Cglm.C98_vec4_mix",
    "Cglm.C98_vec4_mixc",
    "Cglm.C98_vec4_step",
    "Cglm.C98_vec4_smoothstep_uni",
    "Cglm.C98_vec4_smoothstep",
    "Cglm.C98_vec4_smoothinterp",
    "Cglm.C98_vec4_smoothinterpc",
    "Cglm.C98_vec4_make",
    "Cglm.C98_vec3",
    "Cglm.C98_vec3_copy",
    "Cglm.C98_vec3_add",
    "Cglm.C98_vec3_adds",
    "Cglm.C98_vec3_sub",
    "Cglm.C98_vec3_subs",
    "Cglm.C98_vec3_mul",
    "Cglm.C98_vec3_scale",
    "Cglm.C98_vec3_scale_as",
    "Cglm.C98_vec3_div",
    "Cglm.C98_vec3_divs",
    "Cglm.C98_vec3_addadd",
    "Cglm.C98_vec3_subadd",
    "Cglm.C98_vec3_muladd",
    "Cglm.C98_vec3_muladds",
    "Cglm.C98_vec3_maxadd",
    "Cglm.C98_vec3_minadd",
    "Cglm.C98_vec3_subsub",
    "Cglm.C98_vec3_addsub",
    "Cglm.C98_vec3_mulsub",
    "Cglm.C98_vec3_mulsubs",
    "Cglm.C98_vec3_maxsub",
    "Cglm.C98_vec3_minsub",
    "Cglm.C98_vec3_negate_to",
    "Cglm.C98_vec3_normalize_to",
    "Cglm.C98_vec3_cross",
    "Cglm.C98_vec3_crossn",
    "Cglm.C98_vec3_rotate",
    "Cglm.C98_vec3_rotate_m4",
    "Cglm.C98_vec3_rotate_m3",
    "Cglm.C98_vec3_proj",
    "Cglm.C98_vec3_center",
    "Cglm.C98_vec3_maxv",
    "Cglm.C98_vec3_minv",
    "Cglm.C98_vec3_ortho",
    "Cglm.C98_vec3_lerp",
    "Cglm.C98_vec3_lerpc",
    "Cglm.C98_vec3_mix",
    "Cglm.C98_vec3_mixc",
    "Cglm.C98_vec3_step",
    "Cglm.C98_vec3_smoothstep_uni",
    "Cglm.C98_vec3_smoothstep",
    "Cglm.C98_vec3_smoothinterp",
    "Cglm.C98_vec3_smoothinterpc",
    "Cglm.C98_cross",
    "Cglm.C98_normalize_to",
    "Cglm.C98_vec3_make",
    "Cglm.C98_vec3_faceforward",
    "Cglm.C98_vec3_reflect"
   ],
   "note": "Portable code, memory model of C56. 145 functions with any overlap, 191 and the 87 integer-vector functions (checked arithmetic) with destinations that do not begin inside an input (Over); the other 70 functions with array inputs and outputs as long as the listed cells do not coincide (Clear, Apart or Over for each pair of an output and an input; files C98Cells*). The conditions are sufficient. For 251 pairs of an output and an input C98_*_exact shows that they are also necessary: each excluded position gives a wrong result for some binary32 contents. For 15 more pairs C98_*_wrong shows this for some of the positions. For the rest necessity is not shown, except where C55_*_refuted or C98_*_refuted gives a witness. The vector instructions are not covered. C98_translate_column and C98_scale_column are exact results for overlaps outside the lists. C98_*_refuted are the witnesses for the last sentence; C98_mat4_mulv3_column is the example of the first. C98_translate_by_right, _up, _forward, C98_scale_by_position and C98_decompose_position are calls with a column of the matrix; C98_lookat_refuted is a binary32 witness."
  },
  {
   "property": "C99",
   "status": "proved",
   "theorems": [
    "Cglm.C99_mul",
    "Cglm.C99_mul_rot",
    "Cglm.C99_decompose_scalev",
    "Cglm.C99_uniscaled",
    "Cglm.C99_decompose_rs",
    "Cglm.C99_rotated_x",
    "Cglm.C99_rotated_y",
    "Cglm.C99_rotated_z",
    "Cglm.C99_rotated",
    "Cglm.C99_rotated_at",
    "Cglm.C99_persp_fovy",
    "Cglm.C99_persp_aspect",
    "Cglm.C99_persp_decomp_lh_zo",
    "Cglm.C99_persp_decompv_lh_zo",
    "Cglm.C99_persp_decomp_x_lh_zo",
    "Cglm.C99_persp_decomp_y_lh_zo",
    "Cglm.C99_persp_decomp_z_lh_zo",
    "Cglm.C99_persp_decomp_far_lh_zo",
    "Cglm.C99_persp_decomp_near_lh_zo",
    "Cglm.C99_persp_sizes_lh_zo",
    "Cglm.C99_persp_fovy_lh_zo",
    "Cglm.C99_persp_aspect_lh_zo",
    "Cglm.C99_persp_decomp_lh_no",
    "Cglm.C99_persp_decompv_lh_no",
    "Cglm.C99_persp_decomp_x_lh_no",
    "Cglm.C99_persp_decomp_y_lh_no",
    "Cglm.C99_persp_decomp_z_lh_no",
    "Cglm.C99_persp_decomp_far_lh_no",
    "Cglm.C99_persp_decomp_near_lh_no",
    "Cglm.C99_persp_sizes_lh_no",
    "Cglm.C99_persp_fovy_lh_no",
    "Cglm.C99_persp_aspect_lh_no",
    "Cglm.C99_persp_decomp_rh_zo",
    "Cglm.C99_persp_decompv_rh_zo",
    "Cglm.C99_persp_decomp_x_rh_zo",
    "Cglm.C99_persp_decomp_y_rh_zo",
    "Cglm.C99_persp_decomp_z_rh_zo",
    "Cglm.C99_persp_decomp_far_rh_zo",
    "Cglm.C99_persp_decomp_near_rh_zo",
    "Cglm.C99_persp_sizes_rh_zo",
    "Cglm.C99_persp_fovy_rh_zo",
    "Cglm.C99_persp_aspect_rh_zo",
    "Cglm.C99_persp_decomp_rh_no",
    "Cglm.C99_persp_decompv_rh_no",
    "Cglm.C99_persp_decomp_x_rh_no",
    "Cglm.C99_persp_decomp_y_rh_no",
    "Cglm.C99_persp_decomp_z_rh_no",
    "Cglm.C99_persp_decomp_far_rh_no",
    "Cglm.C99_persp_decomp_near_rh_no",
    "Cglm.C99_persp_sizes_rh_no",
    "Cglm.C99_persp_fovy_rh_no",
    "Cglm.C99_persp_aspect_rh_no",
    "Cglm.C99_project_z_zo",
    "Cglm.C99_project_z_no",
    "Cglm.C99_persp_decomp",
    "Cglm.C99_persp_decompv",
    "Cglm.C99_persp_decomp_x",
    "Cglm.C99_persp_decomp_y",
    "Cglm.C99_persp_decomp_z",
    "Cglm.C99_persp_decomp_far",
    "Cglm.C99_persp_decomp_near",
    "Cglm.C99_persp_sizes",
    "Cglm.C99_aabb2d_transform",
    "Cglm.C99_aabb_transform",
    "Cglm.C99_project_z",
    "Cglm.C99_sphere_radii",
    "Cglm.C99_mat4_pick3",
    "Cglm.C99_mat4_pick3t",
    "Cglm.C99_mat4_ins3",
    "Cglm.C99_mat4_trace",
    "Cglm.C99_mat4_trace3",
    "Cglm.C99_mat4_quat",
    "Cglm.C99_mat3_trace",
    "Cglm.C99_mat2_trace",
    "Cglm.C99_quat_real",
    "Cglm.C99_quat_imag",
    "Cglm.C99_quat_imagn",
    "Cglm.C99_quat_imaglen",
    "Cglm.C99_quat_axis",
    "Cglm.C99_euler_angles",
    "Cglm.C99_euler_by_order",
    "Cglm.C99_vec4_copy3",
    "Cglm.C99_vec3",
    "Cglm.C99_vec3_rotate_m4"
   ],
   "note": "Portable code, memory model of C56, for every scalar type. Part mem p l vs says that the array at p holds vs except at the cells l, which may hold anything; the result is that of vs, so it is the same for all vs that agree outside l. The lists are not shown to be the largest possible. The vector instructions read whole columns and are not covered."
  }
 ]
}