C01	proved	square and rectangular products, over the reals
C02	proved	
C03	proved	
C04	proved	non-zero determinant is the stated precondition
C05	proved	len < 2 is modelled as undefined behaviour
C06	proved	
C07	proved	
C08	proved	against Mathlib quaternions
C09	proved	
C10	partial	refuted as stated (C10_refuted); C10_partial characterises exactly the inputs for which it holds
C11	proved	
C12	proved	axis at least FLT_EPSILON long; shorter axes are covered by C12_quatv_small
C13	partial	start sign and unit length fail in the code (C13_start_refuted, C13_unit_refuted); proved elsewhere
C14	proved	
C15	proved	exact between the thresholds and at equal/opposite vectors, within sqrt(2e-5) everywhere
C16	proved	
C17	proved	gimbal lock within 1e-20 per entry, because the pi/2 literal is not exact
C18	proved	the left-handed variants negate the z angle; C18_lh_disagrees records the mismatch with the matrices
C19	partial	glm_translate/scale/rotate families and _make/_to proved for all matrices. glm_translated* equals T*m exactly for affine m (iff proved). glm_rotated* discards the translation of m (C19_rotated_refuted); proved for matrices without translation only.
C20	proved	Axes shorter than FLT_EPSILON are treated as zero by the code (C20_small).
C21	proved	
C22	proved	
C23	proved	Includes the converse: the operand shapes are necessary.
C24	partial	glm_rotate_at, glm_rotate_atm, glm_spinned proved. glm_spin does not keep the position (C24_spin_refuted) and glm_rotated_at is not the documented map (C24_rotated_at_refuted); what they compute is proved instead.
C25	proved	glm_translated2d* for affine m (iff proved).
C26	partial	The anyup variants return a degenerate matrix for some directions (C26_anyup_refuted); everything else proved.
C27	proved	
C28	partial	Right-handed conventions proved in full. The left-handed matrices use the wrong sign for off-center frusta (C28_refuted_lh_no, C28_refuted_lh_zo); proved for symmetric frusta, and what they compute is proved in general.
C29	partial	All matrices proved. The glm_ortho_aabb* helpers use the mirrored z range in the left-handed conventions (C29_aabb_lh_no_refuted, C29_aabb_lh_zo_refuted); right-handed ones proved.
C30	partial	glm_persp_decomp_x/y_lh_zo fail on every perspective matrix (C30_decomp_xy_lh_zo_refuted); the rest proved.
C31	proved	
C32	proved	Both directions, both depth conventions.
C33	proved	
C34	proved	Also: no point inside the clip volume is rejected even with degenerate planes.
C35	partial	Corners, center and box proved. glm_frustum_corners_at scales all edges by the length of one of them: proved for equal edge lengths, refuted in general (C35_corners_at_refuted).
C36	proved	
C37	proved	Holds for every matrix, using its upper three rows.
C38	proved	
C39	partial	The tests are sound, and exact when the center is not below the minimum corner; otherwise they miss intersections (C39_sphere_refuted, C39_circle_refuted).
C40	proved	
C41	proved	The call with NULL for the distance is modelled separately.
C42	proved	Except where the code divides 0 by 0 (a line touching the sphere exactly at the ray origin), see C42_zero_divisor.
C43	proved	
C44	proved	
C45	proved	
C46	partial	Every curve except glm_ease_bounce_inout starts at 0 and ends at 1 (sine and elastic up to the rounding of the pi constant); glm_ease_bounce_inout starts at 1/2 (C46_bounce_inout_refuted).
C47	proved	
C48	proved	
C49	proved	
C50	proved	For an axis at least FLT_EPSILON long; C50_rotate_short says what shorter axes give.
C51	partial	ortho is perpendicular but may be zero (C51_ortho_refuted); glm_vec4_reflect keeps the fourth component, so it is the reflection only when n.w = 0 (C51_vec4_reflect_refuted).
C52	proved	eq_all compares with a tolerance (C52_eq_all_refuted).
C53	proved	Checked 32-bit arithmetic: every theorem is an iff that gives the exact integer result and characterises undefined inputs. Length and distance use exact real square roots for the float conversion.
C54	partial	Proved for every int except INT_MIN; for INT_MIN the negation overflows (C54_refuted), and C54_undefined_iff shows it is the only undefined input.
C55	partial	For every function with inputs of the same type as an output, the in-place call equals the out-of-place one in the memory model, for every scalar type; likewise for the integer vectors. Exceptions proved by a witness (C55_*_refuted), with the exact in-place result (C55_*_inplace): mat2_mulv, mat2/3/4_transpose_to, quat_mul, vec4_reflect, vec2/3/4_refract, aabb_crop_until and aabb2d_crop_until on the clamp box. glm_decompose and glm_decompose_rs in place are proved over the reals. With partial overlap the call stays memory safe (C56_any_*); its value is described in C98.
C56	proved	Each of the 682 generated functions, run on memory with pairwise disjoint arguments, is defined and changes exactly the output regions, for every scalar type. With arguments that overlap in any way (C56_any_*) each call is still defined, changes no cell outside its outputs and initialises these: a static analysis proved sound accepts every function. The functions with run-time indices or loops (swizzles, row and column swaps, identity arrays, mulN, euler_order, decasteljau) are run in the extended language of CMemX: undefined exactly when an index is out of range, terminating, and changing only the destination; swizzles and mulN also with overlapping arguments (the pointer array of mulN must lie outside the destination). The 116 integer-vector functions are run in CMemI with checked arithmetic: whenever the value-level function is defined, so is the call, with the same result and no other change; with overlapping arguments the only undefined behaviour is an arithmetic operation out of range.
C57	partial	Sse, Sse2, Sse3 and Sse4 configurations: every function whose code depends on the configuration equals the scalar one; theorem statements say whether for every scalar type, for every commutative arithmetic, or over the reals. Exceptions, each with the exact result and a refuting witness: vec4_normalize_to (zero threshold on the norm vs its square) and the functions calling it, inv_tr on non-affine matrices. mat4_inv_fast is the inverse times d*rcp(d), with the documented estimate bound.
C58	partial	As C57 for AVX and AVX+FMA. In addition glm_mul on AVX is the full 4x4 product, so it differs from the scalar one when the second matrix is not affine, and glmm256_fnmsub computes -(a*b)-c neither with FMA nor without.
C59	partial	As C57 for NEON on 64 and 32 bit Arm. inv_tr differs on non-affine matrices. On 32 bit, division is an estimate with two Newton steps: div, divs, inv and their callers carry the exact factor 1-(1-b*recpe b)^4 and a 2^-32 bound in exact arithmetic; perlin noise is compared only for an exact estimate.
C60	partial	As C57 for WebAssembly SIMD128, with the same exceptions.
C61	partial	Every struct wrapper equals its array function for every scalar type, except: glms_frustum_corners_at overruns its arrays on every call (C61_frustum_corners_at_refuted); glms_pickmatrix and glms_euler_by_order return an indeterminate value for an empty region or an unknown order; glms_perspective_resize takes its arguments in the other order; glms_mat4_mulN agrees in exact arithmetic for two or more matrices.
C62	proved	Every compiled-call wrapper equals the inline function it wraps, for every scalar type.
C63	proved	Also: the noise repeats with period 289 along every axis.
C64	proved	In binary32, whenever a computed result is finite it is within gamma_n times the same expression over magnitudes, plus an explicit underflow term, of the exact result: dot products, norms, distances, cross and quaternion products, every matrix-vector and matrix-matrix product, lerp and the multiply-add family. No overflow for arguments up to 2^60. Normalisation is accurate to 8u per component and 9u in length.
C65	partial	min/max/clamp/step/eq/smoothstep/fract with every datum, bit-exact negate, transpose, symmetry and (AB)^T, products with the identity, isvalid, angle domain. lerp is exact at the ends only under stated conditions; the unconditional claims are refuted by witnesses, as is normalisation of very long vectors.
C66	proved	
C67	proved	
C68	proved	The model is generated for all four configurations; every generic function equals the selected variant, for every scalar type, in all three APIs.
C69	proved	
C70	proved	When the direction and up are not nearly parallel (ViewFrame).
C71	proved	Over the reals. The bounds 4.14, 7.92 and 8.91 are not the least ones; the three- and four-dimensional noise provably exceeds 1 at some points. glm_vec*_fract cuts off at 0.99999994, so the code itself is continuous only up to that cut-off.
C72	proved	All 679 float functions of the scalar model. The preconditions of the 150 functions that have one are exact (_iff theorems). Real arithmetic; overflow and rounding are C64/C65.
C73	partial	Exact for depth range [-1,1] while the far plane is not dropped (FLT_EPSILON ≤ 2n/(f-n)). Refuted for depth range [0,1]: planes and corners use z = -w, so the near plane is at f n/(2f-n) (perspective) or 2n-f (orthographic). Refuted for far planes that plane normalization drops. Culling never loses a visible box in any case. glm_frustum_corners_at cuts at depth n + (f-n) split/f.
C74	proved	Arbitrary histories of 19 calls on 4x4 matrices, 12 on 3x3, five on quaternions, merges and crops of boxes, merges of spheres, resizes and far-plane moves in the four depth/handedness conventions.
C75	partial	Vectors, quaternions, boxes and the values in matrices proved. The format of a matrix element is chosen by looking at the element across the diagonal, so columns are misaligned when only one of the two exceeds the limit (C75_aligned_refuted); proved otherwise. glm_arch_print mentions NEON_FP exactly when it is not available (C75_neon_refuted).
C76	proved	Scalar code and nine SIMD configurations. Bounds are symbolic for sums and products of two arguments, numeric for determinants and row-matrix-column products.
C77	partial	Refuted: the smooth step and the easing curves quad_out and circ_out reverse some neighbouring inputs (C77_smooth_fails, C77_ease_quad_out_fails, C77_ease_circ_out_fails); their ranges are proved. Interpolation at the end point can pass it (C77_lerpc_upper_fails). A following value may rest before the target (C77_follow_arrives_fails). A transformed point can lie outside the transformed box (C77_aabb_transform_point_fails).
C78	proved	Functions that call libm on computed values other than the given angle are left out, since libm is arbitrary in the model. The need for a finite inverse is shown by C78_mat3_inv_singular_fails.
C79	proved	Two occurrences of the same expression over the same inputs are contracted alike; products that are stored and loaded again are not fused. What contraction breaks is shown by C79_cross_self_fails, C79_mat2_det_singular_fails and C79_sign_fails.
C80	partial	The last sentence is false for mat4 and mat4s, which use CGLM_ALIGN_MAT whatever CGLM_ALL_UNALIGNED says (C80_all_unaligned_fails); C80_all_unaligned_partial covers all other types. Everything else is proved. float and int are taken to have four bytes and alignment 4.
C81	partial	False for two functions, glmm_load3 and glmm_store3 of the x86 builds from SSE2 on, which promise the compiler alignments of 16 and 8 for a vector of alignment 4 (C81_load3_fails, C81_store3_fails; nothing in the library calls them). The _partial theorems cover all other functions of those builds; the other builds are complete.
C82	proved	For the 682 functions of the array interface whose arrays have a fixed length and the 116 integer-vector functions; an integer call must be one in which no operation overflows or divides by zero. One access to one cell is the step; locals belong to the thread.
C83	proved	Products of quaternions and of 3x3 and 4x4 matrices, and sums and velocity steps of vectors, for histories of any length. Portable code, without contraction.
C84	proved	Accuracy of rotations of vectors, of matrices and quaternions of an axis and angle, and of matrices of quaternions. The accuracy of the C library is a hypothesis (SinCosOk). Portable code, without contraction.
C85	proved	All four conventions of ortho, frustum and perspective. The accuracy of the C library is a hypothesis (TanOk). The products with the point and the division by w are exact in the depth theorems. Portable code.
C86	proved	Portable code. The 2^-60 covers underflow.
C87	proved	Portable code. For look only the direction is bounded; with the rounded target the theorems about lookat apply to the rest. C87_look_refuted is the witness for the lost direction.
C88	proved	Portable code. C88_sphere_point_refuted shows that the margin is needed. The restriction to centers not below the minimum corner is C39, a fault of the code without rounding.
C89	proved	Portable code. C89_gap_refuted is the witness for the last sentence (two triangles with a common edge, a ray through one of them, no hit reported).
C90	proved	Portable code. The two clip-space variants of projection, depth and un-projection with a given inverse matrix. C90_cancel_refuted is the witness for the last sentence.
C91	proved	Portable code. C91_hull_refuted is the witness for the last sentence.
C92	proved	Portable code. Not covered: the functions that call sinf or powf, and the accuracy of the bounce functions. C92_bounce_refuted is the witness for the last sentence.
C93	proved	Portable code. C93_miss_refuted is the witness for the last sentence. Nothing is claimed about the distances of chords shorter than rho/32.
C94	partial	The conversions are proved. The macro selects correctly for the struct types only: with array arguments, its documented use, it does not compile (C94_macro_refuted, for every array type C94_macro_arrays).
C95	proved	Portable code. C95_binary32, C95_method0 and C95_method12 show that the evaluation methods of C are among those quantified over; C95_differ is the witness for the last sentence. Linear interpolation, squared distances and luminance have exact results but no error bound here.
C96	proved	Portable code. C96_as_written shows that the order in the code is among those quantified over, C96_pairwise that the order of vector instructions is; C96_differ is the witness for the last sentence. Not covered: distributing or factoring out products, reciprocals instead of quotients.
C97	proved	Portable code. C97_exists and C97_binary32 show that runs exist and that binary32 as in the other claims is one of them; C97_modes_differ and C97_flush_differs are the witnesses for the last sentence.
C98	proved	Portable code, memory model of C56. 145 functions with any overlap, 191 and the 87 integer-vector functions (checked arithmetic) with destinations that do not begin inside an input (Over); the other 70 functions with array inputs and outputs as long as the listed cells do not coincide (Clear, Apart or Over for each pair of an output and an input; files C98Cells*). The conditions are sufficient. For 251 pairs of an output and an input C98_*_exact shows that they are also necessary: each excluded position gives a wrong result for some binary32 contents. For 15 more pairs C98_*_wrong shows this for some of the positions. For the rest necessity is not shown, except where C55_*_refuted or C98_*_refuted gives a witness. The vector instructions are not covered. C98_translate_column and C98_scale_column are exact results for overlaps outside the lists. C98_*_refuted are the witnesses for the last sentence; C98_mat4_mulv3_column is the example of the first. C98_translate_by_right, _up, _forward, C98_scale_by_position and C98_decompose_position are calls with a column of the matrix; C98_lookat_refuted is a binary32 witness.
C99	proved	Portable code, memory model of C56, for every scalar type. Part mem p l vs says that the array at p holds vs except at the cells l, which may hold anything; the result is that of vs, so it is the same for all vs that agree outside l. The lists are not shown to be the largest possible. The vector instructions read whole columns and are not covered.
