{"id": "C01", "title": "Matrix product is composition", "statement": "glm_mat{2,3,4}_mul(A,B) is the linear-algebra product A*B (column-major), and glm_mat{2,3,4}_mulv(A*B, v) equals mulv(A, mulv(B, v)); the rectangular products (mat2x3, mat2x4, mat3x2, mat3x4, mat4x2, mat4x3) are the corresponding m-by-n products.", "quantifier": "all matrices and vectors over the reals (exact arithmetic)", "why_tests_cant": "A swapped index or a transposed factor can agree on symmetric, diagonal or identity samples; the law is about every matrix.", "anchors": ["include/cglm/mat2.h glm_mat2_mul glm_mat2_mulv", "include/cglm/mat3.h glm_mat3_mul glm_mat3_mulv", "include/cglm/mat4.h glm_mat4_mul glm_mat4_mulv", "include/cglm/mat{2x3,2x4,3x2,3x4,4x2,4x3}.h"]}
{"id": "C02", "title": "Identity, zero, transpose and scale are the linear-algebra ones", "statement": "The identity matrices are two-sided units for mul and fix every vector; transpose is an involution, reverses products and turns rows into columns; glm_mat*_scale multiplies every entry by s; copy and make reproduce all entries.", "quantifier": "all matrices", "why_tests_cant": "Each law ranges over all entries; a single misplaced entry is invisible on symmetric samples.", "anchors": ["include/cglm/mat2.h", "include/cglm/mat3.h", "include/cglm/mat4.h glm_mat4_identity glm_mat4_transpose_to glm_mat4_scale_p"]}
{"id": "C03", "title": "Determinant", "statement": "glm_mat{2,3,4}_det is the determinant (Leibniz formula), hence multiplicative and invariant under transpose.", "quantifier": "all matrices over the reals", "why_tests_cant": "16 free variables; sign errors in one cofactor survive sparse test matrices.", "anchors": ["include/cglm/mat2.h glm_mat2_det", "include/cglm/mat3.h glm_mat3_det", "include/cglm/mat4.h glm_mat4_det"]}
{"id": "C04", "title": "Inverse", "statement": "For every matrix with non-zero determinant, glm_mat{2,3,4}_inv (and glm_mat4_inv_fast in exact arithmetic) returns the two-sided inverse; no other matrix has this property, and for a singular matrix the code divides by zero.", "quantifier": "all matrices; hypothesis det != 0", "why_tests_cant": "Tests invert a handful of matrices with tolerance; a wrong cofactor multiplying a zero entry passes.", "anchors": ["include/cglm/mat2.h glm_mat2_inv", "include/cglm/mat3.h glm_mat3_inv", "include/cglm/mat4.h glm_mat4_inv glm_mat4_inv_precise glm_mat4_inv_fast"]}
{"id": "C05", "title": "Product of N matrices", "statement": "glm_mat4_mulN(ms, len, dest) is ms[0]*ms[1]*...*ms[len-1] for every len >= 2, associated to the left; for len < 2 with assertions disabled it reads outside the array.", "quantifier": "every list length and content", "why_tests_cant": "Unbounded length.", "anchors": ["include/cglm/mat4.h glm_mat4_mulN"]}
{"id": "C06", "title": "Row-matrix-column form", "statement": "glm_mat{2,3,4}_rmc and the rectangular rmc functions return the bilinear form r*M*c.", "quantifier": "all r, M, c", "why_tests_cant": "Index errors survive symmetric matrices.", "anchors": ["include/cglm/mat2.h glm_mat2_rmc", "include/cglm/mat3.h glm_mat3_rmc", "include/cglm/mat4.h glm_mat4_rmc"]}
{"id": "C07", "title": "Trace, row and column swaps, sub-matrix picks", "statement": "trace is the sum of the diagonal; swap_col/swap_row exchange exactly the two named lines and are involutions; pick3/pick3t/ins3 move exactly the 3x3 block.", "quantifier": "all matrices, all index pairs in range", "why_tests_cant": "Every index pair and every entry must be right.", "anchors": ["include/cglm/mat3.h glm_mat3_swap_col glm_mat3_swap_row", "include/cglm/mat4.h glm_mat4_swap_col glm_mat4_pick3 glm_mat4_ins3"]}
{"id": "C08", "title": "Quaternion algebra", "statement": "glm_quat_mul is the Hamilton product (associative, norm-multiplicative); conjugate, inverse, add, sub, dot, norm, real/imag parts are those of the quaternions; inv is a two-sided inverse of every non-zero quaternion; normalize gives a unit quaternion for every non-zero input and identity for the zero quaternion.", "quantifier": "all quaternions over the reals", "why_tests_cant": "Identities over 8-12 real variables.", "anchors": ["include/cglm/quat.h glm_quat_mul glm_quat_conjugate glm_quat_inv glm_quat_normalize_to glm_quat_dot"]}
{"id": "C09", "title": "Quaternion to rotation matrix", "statement": "For every unit quaternion, glm_quat_mat3/mat4 is a proper rotation (orthogonal, determinant 1), the matrix of a product is the product of matrices, the *t variants are the transposes, and glm_quat_rotatev equals multiplying by that matrix and equals q v q*.", "quantifier": "all unit quaternions, all vectors", "why_tests_cant": "Holds on a 3-sphere of inputs.", "anchors": ["include/cglm/quat.h glm_quat_mat4 glm_quat_mat4t glm_quat_mat3 glm_quat_mat3t glm_quat_rotatev"]}
{"id": "C10", "title": "Quaternion to matrix for non-unit input", "statement": "The documentation does not require the quaternion passed to glm_quat_mat3/mat4 to be normalized and the code divides by the norm; the result should be the rotation of the normalized quaternion.", "quantifier": "all non-zero quaternions", "why_tests_cant": "Tests use unit quaternions only.", "anchors": ["include/cglm/quat.h glm_quat_mat4 glm_quat_mat3"]}
{"id": "C11", "title": "Rotation matrix to quaternion round trip", "statement": "For every proper rotation matrix R, glm_mat{3,4}_quat(R) is a unit quaternion whose matrix is R; for every unit q, converting to a matrix and back gives q or -q.", "quantifier": "all rotation matrices (all four branches of the algorithm)", "why_tests_cant": "Branch choice depends on the trace and on comparisons; each branch is a measure-positive region.", "anchors": ["include/cglm/mat4.h glm_mat4_quat", "include/cglm/mat3.h glm_mat3_quat"]}
{"id": "C12", "title": "Axis-angle quaternions", "statement": "glm_quatv(angle, axis) for any axis not shorter than FLT_EPSILON is the unit quaternion (sin(angle/2) u, cos(angle/2)); glm_quat_angle and glm_quat_axis recover angle and axis; glm_quat(angle,x,y,z) agrees; glm_quat_rotate multiplies a matrix by that rotation; composition of same-axis rotations adds angles.", "quantifier": "all angles, all axes", "why_tests_cant": "Trigonometric identity over a continuum.", "anchors": ["include/cglm/quat.h glm_quat glm_quatv glm_quat_angle glm_quat_axis glm_quat_rotate"]}
{"id": "C13", "title": "Spherical interpolation", "statement": "glm_quat_slerp(p,q,t) gives p at t=0 and a quaternion representing the same rotation as q at t=1, and is a unit quaternion for unit inputs and all t.", "quantifier": "all unit quaternions, all t", "why_tests_cant": "Branches on |cos| >= 1 and small sin; the bad region is tiny and tests do not hit it.", "anchors": ["include/cglm/quat.h glm_quat_slerp glm_quat_slerp_longest"]}
{"id": "C14", "title": "Linear and normalized interpolation of quaternions", "statement": "glm_quat_lerp endpoints and affinity; lerpc clamps; glm_quat_nlerp is a unit quaternion unless the blend vanishes, and takes the shorter arc.", "quantifier": "all quaternions and parameters", "why_tests_cant": "Continuum of inputs.", "anchors": ["include/cglm/quat.h glm_quat_lerp glm_quat_lerpc glm_quat_nlerp"]}
{"id": "C15", "title": "Quaternion between two directions", "statement": "For all unit vectors a, b, glm_quat_from_vecs(a,b) is a unit quaternion that rotates a onto b (away from the near-antiparallel threshold; and for exactly opposite vectors).", "quantifier": "all pairs of unit vectors", "why_tests_cant": "Branch on the dot product.", "anchors": ["include/cglm/quat.h glm_quat_from_vecs"]}
{"id": "C16", "title": "Euler angle matrices", "statement": "glm_euler_xyz/xzy/yxz/yzx/zxy/zyx are the products of the three axis rotations in the stated order, hence proper rotations, and glm_euler_by_order selects the one named.", "quantifier": "all angle triples, all six orders", "why_tests_cant": "9 trigonometric entries times 6 orders.", "anchors": ["include/cglm/euler.h"]}
{"id": "C17", "title": "Euler angle extraction", "statement": "glm_euler_angles recovers from glm_euler_xyz(a) an angle triple whose matrix is the same (and the same triple inside the principal range).", "quantifier": "all rotations of the form Rx Ry Rz, including gimbal lock", "why_tests_cant": "Singular branches.", "anchors": ["include/cglm/euler.h glm_euler_angles glm_euler_xyz"]}
{"id": "C18", "title": "Euler angle quaternions agree with Euler matrices", "statement": "glm_euler_*_quat (right-handed build) is a unit quaternion whose rotation matrix is glm_euler_*; the left-handed variants are the right-handed ones with the sign convention stated in the code.", "quantifier": "all angle triples, all six orders", "why_tests_cant": "Continuum, six formulas, two handedness variants.", "anchors": ["include/cglm/handed/euler_to_quat_rh.h", "include/cglm/handed/euler_to_quat_lh.h", "include/cglm/euler.h"]}
{"id": "C19", "title": "Affine transforms compose as documented", "statement": "glm_translate/scale/rotate* (m, ...) equals m * T (post-multiplication), the *d variants equal T * m (pre-multiplication), *_make produce T, and the _to variants agree with the in-place ones.", "quantifier": "all matrices, vectors and angles", "why_tests_cant": "Must hold for every m, including non-affine ones where shortcuts break.", "anchors": ["include/cglm/affine.h", "include/cglm/affine-pre.h", "include/cglm/affine-post.h"]}
{"id": "C20", "title": "Axis-angle rotation matrix", "statement": "glm_rotate_make(angle, axis) for any axis not shorter than FLT_EPSILON is the Rodrigues rotation: orthogonal, determinant 1, fixes the axis, angles about one axis add, glm_rotate_x/y/z are special cases.", "quantifier": "all angles and non-zero axes", "why_tests_cant": "Continuum.", "anchors": ["include/cglm/affine.h glm_rotate_make glm_rotate", "include/cglm/affine-pre.h glm_rotate_x"]}
{"id": "C21", "title": "Decomposition of affine transforms", "statement": "glm_decompose(T*R*S) returns T, R, S for positive scale (and flips sign when the determinant is negative); recomposition returns the original matrix; glm_decompose_scalev and glm_uniscaled agree.", "quantifier": "all T, all rotations R, all non-zero scales", "why_tests_cant": "Continuum; sign branch.", "anchors": ["include/cglm/affine.h glm_decompose glm_decompose_rs glm_decompose_scalev glm_uniscaled"]}
{"id": "C22", "title": "Rigid inverse", "statement": "glm_inv_tr inverts every rigid transform (orthonormal 3x3 plus translation) and agrees with glm_mat4_inv there.", "quantifier": "all rigid transforms", "why_tests_cant": "Continuum; fails silently off the domain.", "anchors": ["include/cglm/affine-mat.h glm_inv_tr"]}
{"id": "C23", "title": "Affine fast products", "statement": "glm_mul and glm_mul_rot equal glm_mat4_mul whenever the right operand has the affine (resp. pure rotation) shape they assume.", "quantifier": "all m1; all m2 of the required shape", "why_tests_cant": "The saved multiplications are exactly those a sparse test cannot see.", "anchors": ["include/cglm/affine-mat.h glm_mul glm_mul_rot"]}
{"id": "C24", "title": "Rotation about a point and spin", "statement": "glm_rotate_at keeps the pivot fixed and equals translate, rotate, translate back; glm_spin and glm_spinned rotate about the object position.", "quantifier": "all matrices, pivots, angles, axes", "why_tests_cant": "Continuum.", "anchors": ["include/cglm/affine.h glm_rotate_at glm_rotate_atm glm_spin", "include/cglm/affine-post.h glm_spinned"]}
{"id": "C25", "title": "2D affine transforms", "statement": "glm_translate2d/scale2d/rotate2d (and _x, _y, _to, _make, uni, and pre-multiplied variants) and glm_mat3_textrans equal multiplication of 3x3 homogeneous matrices on the stated side.", "quantifier": "all mat3, vectors, angles", "why_tests_cant": "Continuum.", "anchors": ["include/cglm/affine2d.h", "include/cglm/affine2d-post.h"]}
{"id": "C26", "title": "View matrices", "statement": "glm_lookat_{rh,lh}: maps eye to the origin, is a rigid transform, maps the viewing direction to -z (rh) or +z (lh), and agrees with glm_look with dir = center - eye; zero-length directions are the excluded point.", "quantifier": "all eye, center, up with a non-degenerate frame", "why_tests_cant": "Continuum; degenerate cases.", "anchors": ["include/cglm/clipspace/view_rh.h", "include/cglm/clipspace/view_lh.h", "include/cglm/cam.h glm_lookat"]}
{"id": "C27", "title": "Perspective projection", "statement": "For fovy, aspect, near, far in range, glm_perspective_{rh,lh}_{no,zo} maps the near and far planes to the documented depth range, the frustum edges to +-1, and depth is strictly monotone between them.", "quantifier": "all parameters and all points of the view frustum; four conventions", "why_tests_cant": "Continuum.", "anchors": ["include/cglm/clipspace/persp_rh_no.h", "persp_rh_zo.h", "persp_lh_no.h", "persp_lh_zo.h"]}
{"id": "C28", "title": "Off-centre frustum projection", "statement": "glm_frustum_{rh,lh}_{no,zo}(l,r,b,t,n,f) maps the near-plane rectangle [l,r]x[b,t] onto [-1,1]^2.", "quantifier": "all l<r, b<t, 0<n<f; four conventions", "why_tests_cant": "Symmetric frusta (the ones tested) hide a sign error in the off-centre terms.", "anchors": ["include/cglm/clipspace/persp_*.h glm_frustum_*"]}
{"id": "C29", "title": "Orthographic projection", "statement": "glm_ortho_{rh,lh}_{no,zo} maps the box [l,r]x[b,t]x[n,f] exactly onto the clip cube of the convention; the aabb, aabb_p, aabb_pz, default and default_s helpers produce the ortho matrix of the stated box.", "quantifier": "all non-degenerate boxes; four conventions", "why_tests_cant": "Continuum.", "anchors": ["include/cglm/clipspace/ortho_*.h"]}
{"id": "C30", "title": "Decomposition of a projection", "statement": "glm_persp_decomp* recovers near, far, top, bottom, left, right of a projection built by glm_frustum/glm_perspective of the same convention.", "quantifier": "all parameters; four conventions; all decomp entry points", "why_tests_cant": "Each entry point has its own formula per convention.", "anchors": ["include/cglm/clipspace/persp_*.h glm_persp_decomp_*"]}
{"id": "C31", "title": "Projection queries and updates", "statement": "glm_persp_fovy, glm_persp_aspect, glm_persp_sizes recover what built the matrix; glm_perspective_resize changes only the aspect; glm_persp_move_far moves only the far plane.", "quantifier": "all parameters; four conventions", "why_tests_cant": "Continuum.", "anchors": ["include/cglm/clipspace/persp.h", "include/cglm/clipspace/persp_*.h"]}
{"id": "C32", "title": "Project and unproject are inverse", "statement": "glm_unproject(glm_project(p)) = p for every point with non-zero clip w, invertible matrix and non-degenerate viewport, in both depth conventions; glm_project_z is the depth component of glm_project.", "quantifier": "all points, matrices, viewports", "why_tests_cant": "Continuum; excluded points are exactly the division-by-zero ones.", "anchors": ["include/cglm/project.h", "include/cglm/clipspace/project_no.h", "project_zo.h"]}
{"id": "C33", "title": "Pick matrix", "statement": "glm_pickmatrix maps the pick rectangle onto the whole clip square, and leaves dest untouched for non-positive sizes.", "quantifier": "all centers, sizes, viewports", "why_tests_cant": "Continuum.", "anchors": ["include/cglm/project.h glm_pickmatrix"]}
{"id": "C34", "title": "Frustum planes", "statement": "A point is inside the clip volume -w<=x,y,z<=w of the matrix iff it is on the non-negative side of all six planes returned by glm_frustum_planes; the planes are normalized.", "quantifier": "all matrices with non-degenerate planes, all points", "why_tests_cant": "Continuum.", "anchors": ["include/cglm/frustum.h glm_frustum_planes", "include/cglm/plane.h"]}
{"id": "C35", "title": "Frustum corners, center and box", "statement": "glm_frustum_corners returns the un-projected clip cube corners (w = 1), center their mean, and glm_frustum_box is the smallest axis-aligned box containing the eight transformed corners; glm_frustum_corners_at interpolates along the edges.", "quantifier": "all invertible matrices, all corner sets", "why_tests_cant": "Continuum; a fold over 8 corners.", "anchors": ["include/cglm/frustum.h"]}
{"id": "C36", "title": "Axis-aligned boxes are point sets", "statement": "For 3D and 2D boxes: point/contains/aabb tests decide membership, inclusion and non-empty intersection of the point sets; merge is the least box containing both; crop is the intersection; crop_until is merge(clamp, crop).", "quantifier": "all boxes and points", "why_tests_cant": "Boundary and degenerate boxes.", "anchors": ["include/cglm/box.h", "include/cglm/aabb2d.h"]}
{"id": "C37", "title": "Box transform", "statement": "glm_aabb_transform(box, m) (affine m) contains the image of every point of the box and every face of the result is attained by the image of a corner (smallest enclosing box); same in 2D.", "quantifier": "all valid boxes, all affine matrices", "why_tests_cant": "Sign patterns of 9 coefficients.", "anchors": ["include/cglm/box.h glm_aabb_transform", "include/cglm/aabb2d.h glm_aabb2d_transform"]}
{"id": "C38", "title": "Box/frustum culling is conservative", "statement": "If glm_aabb_frustum returns false then no point of the box is inside all six planes; for each single plane the test is exact.", "quantifier": "all boxes, all plane sets", "why_tests_cant": "A false negative removes visible geometry; only needs one bad configuration.", "anchors": ["include/cglm/box.h glm_aabb_frustum"]}
{"id": "C39", "title": "Box/sphere and box/circle tests are exact", "statement": "glm_aabb_sphere (2D: glm_aabb2d_circle) returns true iff some point of the (valid) box is within the radius of the center.", "quantifier": "all valid boxes, all spheres", "why_tests_cant": "27 regions around a box.", "anchors": ["include/cglm/box.h glm_aabb_sphere", "include/cglm/aabb2d.h glm_aabb2d_circle"]}
{"id": "C40", "title": "Sphere operations", "statement": "sphere_sphere decides intersection of balls, sphere_point membership, sphere_merge contains both balls, sphere_transform moves the center and keeps the radius.", "quantifier": "all spheres with non-negative radius", "why_tests_cant": "Continuum.", "anchors": ["include/cglm/sphere.h"]}
{"id": "C41", "title": "Ray/triangle intersection", "statement": "glm_ray_triangle returns true with distance d only if origin + d*direction lies in the triangle and d > epsilon, and returns true whenever such an intersection exists and the ray is not within the parallel threshold.", "quantifier": "all rays and triangles", "why_tests_cant": "Boundary conditions on barycentric coordinates.", "anchors": ["include/cglm/ray.h glm_ray_triangle"]}
{"id": "C42", "title": "Ray/sphere intersection", "statement": "For unit direction, glm_ray_sphere returns true iff the ray (t >= 0) meets the sphere; t1 <= t2 are the two parameters where the line meets the surface.", "quantifier": "all rays with unit direction, all spheres", "why_tests_cant": "Division by q at tangential or surface points.", "anchors": ["include/cglm/ray.h glm_ray_sphere glm_ray_at"]}
{"id": "C43", "title": "Plane normalization", "statement": "glm_plane_normalize keeps the plane (and its orientation) and makes the normal unit, or zeroes a degenerate plane.", "quantifier": "all planes", "why_tests_cant": "Continuum; threshold branch.", "anchors": ["include/cglm/plane.h"]}
{"id": "C44", "title": "Bezier, Hermite and cubic curves", "statement": "glm_bezier is the cubic Bernstein form, glm_hermite the cubic Hermite form; glm_smc with the Bezier/Hermite matrices gives the same value; end points and convex-hull bounds hold.", "quantifier": "all parameters and control values", "why_tests_cant": "Polynomial identity in five variables.", "anchors": ["include/cglm/bezier.h", "include/cglm/curve.h"]}
{"id": "C45", "title": "De Casteljau solver", "statement": "glm_decasteljau(x, p0,c0,c1,p1) with p0 <= x <= p1 returns t in [0,1] such that either |B(t)-x| < 1e-9 or t is within 2^-1000 of an exact root of B = x (early exits: within 1e-20 of an end point).", "quantifier": "all control values and targets", "why_tests_cant": "Up to 1000 iterations; loop invariant.", "anchors": ["include/cglm/bezier.h glm_decasteljau"]}
{"id": "C46", "title": "Easing functions", "statement": "Every easing function starts at 0 and ends at 1, the in/out pairs are mirror images, and the polynomial, sine, circ ones are monotone into [0,1].", "quantifier": "all t in [0,1], 31 functions", "why_tests_cant": "Continuum; piecewise joins.", "anchors": ["include/cglm/ease.h"]}
{"id": "C47", "title": "Scalar utilities", "statement": "clamp/clamp_zo range and idempotence, lerp/lerpc end points and affinity, step/smoothstep/smooth/smoothinterp range and monotonicity, percent inverse of lerp, swap exchanges, eq tolerance symmetric, deg/rad inverse, sign trichotomy.", "quantifier": "all scalars", "why_tests_cant": "Continuum.", "anchors": ["include/cglm/util.h"]}
{"id": "C48", "title": "Norms and normalization", "statement": "normalize returns a vector of length 1 with the same direction for every vector of length >= FLT_EPSILON and the zero vector otherwise; norm2, norm_one, norm_inf, distance, scale_as satisfy their definitions (positivity, triangle inequality).", "quantifier": "all vectors", "why_tests_cant": "Threshold branch, continuum.", "anchors": ["include/cglm/vec2.h", "include/cglm/vec3.h", "include/cglm/vec4.h"]}
{"id": "C49", "title": "Dot and cross product identities", "statement": "Bilinearity, symmetry / antisymmetry, orthogonality of the cross product, Lagrange identity, Jacobi identity, agreement with the standard products.", "quantifier": "all vectors", "why_tests_cant": "Polynomial identities.", "anchors": ["include/cglm/vec3.h glm_vec3_dot glm_vec3_cross", "include/cglm/vec2.h glm_vec2_cross"]}
{"id": "C50", "title": "Rotating vectors", "statement": "glm_vec3_rotate (Rodrigues), glm_vec3_rotate_m3/m4, glm_vec2_rotate preserve length and agree with the matrix and quaternion forms for the same angle and the same axis of length at least FLT_EPSILON.", "quantifier": "all vectors, axes, angles", "why_tests_cant": "Continuum.", "anchors": ["include/cglm/vec3.h glm_vec3_rotate", "include/cglm/vec2.h glm_vec2_rotate"]}
{"id": "C51", "title": "Projection, reflection, refraction", "statement": "proj lands on the line and the residual is orthogonal; ortho returns an orthogonal vector; reflect is an involution and preserves length for unit normals; refract satisfies Snell law or reports total internal reflection with zero output; faceforward chooses the side.", "quantifier": "all vectors", "why_tests_cant": "Continuum and branch.", "anchors": ["include/cglm/vec3.h", "include/cglm/vec3-ext.h", "include/cglm/vec2-ext.h", "include/cglm/vec4-ext.h"]}
{"id": "C52", "title": "Component-wise vector functions", "statement": "add/sub/mul/div and their scalar, accumulate, min/max and step/lerp variants act on each component exactly as the scalar function; min/max/hadd/eq_all/eq/eqv/isnan/sign reduce over all components.", "quantifier": "all vectors over every scalar type", "why_tests_cant": "Each component must be wired to the same index.", "anchors": ["include/cglm/vec2.h", "include/cglm/vec3.h", "include/cglm/vec4.h", "*-ext.h"]}
{"id": "C53", "title": "Integer vectors are defined exactly when in range", "statement": "glm_ivec{2,3,4}_* compute the exact integer result when it fits in 32 bits; signed overflow, division by zero and INT_MIN / -1 are exactly the undefined inputs.", "quantifier": "all 32-bit integer vectors", "why_tests_cant": "2^64 inputs per component pair; UB is not observable by a test.", "anchors": ["include/cglm/ivec2.h", "include/cglm/ivec3.h", "include/cglm/ivec4.h"]}
{"id": "C54", "title": "Integer sign", "statement": "glm_sign returns -1, 0 or 1 for every int and has no undefined behaviour.", "quantifier": "all 32-bit integers", "why_tests_cant": "Only INT_MIN is problematic.", "anchors": ["include/cglm/util.h glm_sign"]}
{"id": "C55", "title": "Destination may alias an argument", "statement": "Functions documented as (or used with) dest equal to an input give the same result as with a separate destination; those that do not are listed with a concrete witness.", "quantifier": "every memory, every pointer assignment where arguments are equal or disjoint, every scalar type", "why_tests_cant": "Depends on pointer identity combined with all values.", "anchors": ["include/cglm/*.h"]}
{"id": "C56", "title": "Memory safety and framing", "statement": "Called with pointers to arrays of the declared size, each function reads no uninitialised or out-of-range cell and changes no memory except its output arguments.", "quantifier": "every memory and pointer assignment", "why_tests_cant": "A stray write is only visible if the test looks at that address.", "anchors": ["include/cglm/*.h"]}
{"id": "C57", "title": "SSE2 backend equals scalar backend", "statement": "Built for SSE, SSE2, SSE3 or SSE4, every function computes the same result as in a scalar build in exact arithmetic; functions that perform the same operations on each lane give identical results for every float semantics, up to operand order of commutative operations where stated. mat4_inv_fast is the inverse up to the relative error of the hardware reciprocal estimate.", "quantifier": "all inputs, all four x86 SSE levels", "why_tests_cant": "A wrong shuffle mask affects particular lanes and inputs only, and each build has its own code.", "anchors": ["include/cglm/simd/sse2/*.h", "include/cglm/simd/x86.h"]}
{"id": "C58", "title": "AVX backend equals scalar backend", "statement": "As C57 for builds with AVX, with and without FMA (fused multiply-add taken as exact in exact arithmetic).", "quantifier": "all inputs", "why_tests_cant": "As C57.", "anchors": ["include/cglm/simd/avx/*.h"]}
{"id": "C59", "title": "NEON backend equals scalar backend", "statement": "As C57 for NEON builds on 64-bit and 32-bit Arm; on 32-bit Arm division is a refined reciprocal estimate and agrees up to a stated relative error.", "quantifier": "all inputs", "why_tests_cant": "As C57; test machines usually are x86.", "anchors": ["include/cglm/simd/neon/*.h", "include/cglm/simd/arm.h"]}
{"id": "C60", "title": "WASM SIMD backend equals scalar backend", "statement": "As C57 for WASM SIMD128.", "quantifier": "all inputs", "why_tests_cant": "As C57.", "anchors": ["include/cglm/simd/wasm/*.h", "include/cglm/simd/wasm.h"]}
{"id": "C61", "title": "Struct API equals array API", "statement": "Every glms_* function returns what the corresponding glm_* function writes.", "quantifier": "all inputs of every wrapper, every scalar type", "why_tests_cant": "Hundreds of hand-written wrappers; swapped arguments survive symmetric samples.", "anchors": ["include/cglm/struct/*.h"]}
{"id": "C62", "title": "Compiled-call API equals inline API", "statement": "Every glmc_* function behaves as the inline glm_* function of the same name.", "quantifier": "all inputs of every wrapper, every scalar type", "why_tests_cant": "Hundreds of hand-written forwards.", "anchors": ["src/*.c", "include/cglm/call/*.h"]}
{"id": "C63", "title": "Gradient noise vanishes on the lattice", "statement": "glm_perlin_vec2/3/4 is 0 at every integer lattice point, and has period 289 in every coordinate.", "quantifier": "all integer points", "why_tests_cant": "Unbounded lattice.", "anchors": ["include/cglm/noise.h"]}
{"id": "C64", "title": "Rounding error bounds", "statement": "In binary32 round-to-nearest arithmetic without overflow/underflow, dot products, matrix-vector and matrix products have the standard forward error bound gamma_n * sum |a||b|.", "quantifier": "all inputs in range", "why_tests_cant": "Error depends on all operands and roundings.", "anchors": ["include/cglm/vec3.h glm_vec3_dot", "include/cglm/vec4.h glm_vec4_dot", "include/cglm/mat4.h glm_mat4_mulv glm_mat4_mul"]}
{"id": "C65", "title": "Floating-point edge behaviour", "statement": "In IEEE-754 binary32: min/max/clamp with NaN, lerp exactness at end points, copy/negate/transpose are bit-exact, products with the identity, eq/eq_eps with NaN and signed zero.", "quantifier": "all binary32 values including NaN, infinities, signed zeros", "why_tests_cant": "2^64+ operand pairs.", "anchors": ["include/cglm/util.h", "include/cglm/vec3.h", "include/cglm/vec3-ext.h"]}
{"id": "C66", "title": "Swizzle", "statement": "glm_vec{3,4}_swizzle applies the mask lane by lane; masks naming a lane the source does not have read out of bounds.", "quantifier": "all masks, all vectors", "why_tests_cant": "All 4^4 masks times all vectors.", "anchors": ["include/cglm/vec3.h glm_vec3_swizzle", "include/cglm/vec4.h glm_vec4_swizzle", "include/cglm/vec2.h glm_vec2_swizzle"]}
{"id": "C67", "title": "Array initialisers", "statement": "glm_mat*_identity_array / glm_quat_identity_array set exactly the first count entries.", "quantifier": "every count", "why_tests_cant": "Unbounded count.", "anchors": ["include/cglm/mat4.h glm_mat4_identity_array", "include/cglm/quat.h glm_quat_identity_array"]}
{"id": "C68", "title": "Clip-control dispatch", "statement": "Each generic camera/projection function behaves as the variant selected by the configured depth range and handedness, for all four configurations.", "quantifier": "all inputs, all four configurations", "why_tests_cant": "Tests are compiled under one configuration at a time.", "anchors": ["include/cglm/cam.h", "include/cglm/project.h", "include/cglm/common.h"]}
{"id": "C69", "title": "Luminance is a fixed linear functional", "statement": "glm_luminance is linear, monotone in each channel and maps white to 1.", "quantifier": "all colors", "why_tests_cant": "Continuum.", "anchors": ["include/cglm/color.h"]}
{"id": "C70", "title": "Quaternion look and view", "statement": "glm_quat_look, glm_quat_for, glm_quat_forp: build the view transform of an orientation; view of eye is the origin; forp faces from -> to.", "quantifier": "all unit orientations, positions", "why_tests_cant": "Continuum.", "anchors": ["include/cglm/quat.h glm_quat_look glm_quat_for glm_quat_forp"]}
{"id": "C71", "title": "Noise functions are gradient noise without seams", "statement": "glm_perlin_vec2/3/4 at p is a constant (2.3 or 2.2) times the sum over the corners of the lattice cell of p of the fade weight of the corner times the inner product of the corner's gradient with p minus the corner; the gradient depends only on the lattice point modulo 289. With the exact fractional part the function is continuous everywhere, the code agrees with it wherever no fractional part exceeds 0.99999994, and the value is bounded for all p.", "quantifier": "all points, including negative coordinates", "why_tests_cant": "A sample of points does not show that every corner uses its own gradient and offset, nor that no cell boundary has a jump.", "anchors": ["include/cglm/noise.h: glm_perlin_vec2, glm_perlin_vec3, glm_perlin_vec4"]}
{"id": "C72", "title": "No undefined operation is used", "statement": "For every function over float vectors, matrices and quaternions: when the documented (or listed) precondition holds, no division by zero, square root of a negative number, or other operation without a real value contributes to the result or to a branch that affects the result. For functions with a precondition, the precondition is exact: when it fails, some such operation reaches the result. Normalisation, rotation, look-at, slerp, quaternion-from-matrix, frustum-plane and culling functions have no precondition.", "quantifier": "all real arguments; all results of comparisons that involve an undefined value", "why_tests_cant": "A test shows that one argument causes no division by zero; whether a guard excludes every zero divisor, and which arguments are excluded, is a statement about all arguments.", "anchors": ["include/cglm/vec3.h: glm_vec3_normalize, glm_vec3_angle, glm_vec3_proj", "include/cglm/mat4.h: glm_mat4_inv, glm_mat4_quat", "include/cglm/quat.h: glm_quat_slerp, glm_quat_inv", "include/cglm/clipspace/persp_rh_no.h: glm_perspective_rh_no, glm_persp_decomp_rh_no", "include/cglm/ray.h: glm_ray_sphere, glm_ray_triangle"]}
{"id": "C73", "title": "View volume of a camera", "statement": "For a perspective (or orthographic) projection times a look-at or other distance-preserving view matrix: a world point passes the six planes of glm_frustum_planes exactly when it lies in the camera's view volume (depth between near and far along the viewing direction, side and up offsets within the field of view); glm_frustum_corners of the inverse gives the eight corners of that volume in world space in the documented order; a box that contains a visible point is never culled by glm_aabb_frustum; glm_frustum_corners_at gives the corners of a cross-section of the volume.", "quantifier": "all field-of-view angles in (0,pi), aspect ratios, near < far, eye, center and up with a proper frame, all points and boxes; left- and right-handed, depth ranges [-1,1] and [0,1]", "why_tests_cant": "Culling must hold for every point, camera and projection; a wrong near plane or a dropped far plane only shows for points near those planes.", "anchors": ["include/cglm/frustum.h: glm_frustum_planes, glm_frustum_corners, glm_frustum_corners_at", "include/cglm/box.h: glm_aabb_frustum", "include/cglm/clipspace/persp_rh_no.h: glm_perspective_rh_no", "include/cglm/clipspace/persp_rh_zo.h: glm_perspective_rh_zo", "include/cglm/clipspace/view_rh.h: glm_lookat_rh"]}
{"id": "C74", "title": "Histories of updates", "statement": "A value that is updated in place by any sequence of calls stays correct. A transform matrix (3D or 2D) after any sequence of translate, scale, rotate, spin and multiply calls moves points by the composition of the steps (local calls act before the motion so far, world calls after it), stays affine, stays rigid if no step scales, and its inverse undoes the history. An orientation quaternion after any sequence of turns and normalizations turns vectors by the composition of the turns and keeps norm one. A running bounding box contains every box merged into it and is the smallest such box, whatever the order; it is valid exactly when something was merged; if it is culled so is every part. A perspective matrix after any sequence of resizes and far-plane moves is the projection with the last aspect ratio and the accumulated far distance.", "quantifier": "all histories (lists of calls of any length) and all arguments with rotation axes no shorter than FLT_EPSILON, affine factors, boxes within FLT_MAX, non-degenerate lenses", "why_tests_cant": "A test runs one history; composition order, drift out of the rigid or affine class and order dependence show only for particular sequences.", "anchors": ["include/cglm/affine.h: glm_rotate, glm_spinned, glm_rotate_at, glm_scale", "include/cglm/affine-pre.h: glm_translate", "include/cglm/affine-post.h: glm_translated", "include/cglm/affine2d.h: glm_translate2d, glm_rotate2d, glm_scale2d", "include/cglm/affine2d-post.h: glm_translated2d, glm_rotated2d, glm_scaled2d", "include/cglm/quat.h: glm_quat_mul, glm_quat_normalize, glm_quat_rotatev", "include/cglm/box.h: glm_aabb_merge, glm_aabb_invalidate, glm_aabb_frustum", "include/cglm/aabb2d.h: glm_aabb2d_merge", "include/cglm/sphere.h: glm_sphere_merge", "include/cglm/clipspace/persp_rh_no.h: glm_perspective_resize_rh_no, glm_persp_move_far_rh_no"]}
{"id": "C75", "title": "Printed text shows the value", "statement": "The text written by the glm_*_print functions can be read back: an integer vector exactly, and so different vectors are printed differently; a float vector, quaternion or box corner in order, each component with the configured number of decimals (error at most half a unit of the last one) below CGLM_PRINT_MAX_TO_SHORT and with six significant digits above, with a minus sign exactly for the sign bit, and inf and nan as such; row i of a printed matrix shows row i of the matrix from left to right in the same formats, and all rows are of the same length. Printing only adds to the stream. glm_arch_print names the backend in use.", "quantifier": "all vectors, quaternions, boxes and matrices of binary32 data (including zeros, infinities and NaN), all integer vectors, all values of the user-definable print macros whose colour codes do not end the line, all configurations", "why_tests_cant": "A test compares the text for a few matrices; a format chosen by looking at the wrong element shows only for particular magnitudes off the diagonal.", "anchors": ["include/cglm/io.h: glm_mat4_print, glm_mat3_print, glm_mat2_print, glm_vec4_print, glm_vec3_print, glm_vec2_print, glm_ivec4_print, glm_ivec3_print, glm_ivec2_print, glm_versor_print, glm_aabb_print, glm_arch_print, glm_arch_print_name"]}
{"id": "C76", "title": "Small integers and fixed-point numbers are computed exactly", "statement": "Sums, products, dot and cross products, squared lengths and distances, centers, matrix-vector and matrix-matrix products, traces, determinants, quaternion and complex products and translations of binary32 data that are integer multiples of a power of two are computed without any rounding error as long as the exact results fit 24 bits, and the result is again such a multiple; lengths and distances are exact when they are integers. So chains of any number of products of integer matrices, or of integer steps, are exact while the exact partial results stay in range, quarter turns and mirrors compose exactly for ever, and every SIMD configuration gives the same numbers as the scalar code. The limit 2^24 cannot be raised.", "quantifier": "all binary32 vectors, matrices and quaternions on the grids n*2^e with bounded n, all exponents in range, all lists of matrices or steps, all nine SIMD configurations", "why_tests_cant": "A test checks a few integers; exactness for every value up to the limit, every grid and every length of chain, in each order of summation the configurations use, needs a proof that no intermediate result is rounded.", "anchors": ["include/cglm/vec3.h: glm_vec3_dot, glm_vec3_cross, glm_vec3_add, glm_vec3_norm, glm_vec3_distance", "include/cglm/vec4.h: glm_vec4_dot", "include/cglm/mat4.h: glm_mat4_mul, glm_mat4_mulv, glm_mat4_det, glm_mat4_rmc", "include/cglm/mat3.h: glm_mat3_mul, glm_mat3_det", "include/cglm/quat.h: glm_quat_mul", "include/cglm/affine-pre.h: glm_translate", "include/cglm/simd/sse2/mat4.h: glm_mat4_mulv_sse2, glm_mat4_det_sse2", "include/cglm/simd/neon/mat4.h: glm_mat4_mulv_neon"]}
{"id": "C77", "title": "Order survives rounding", "statement": "In binary32 with rounding, overflow and signed zeros: minima, maxima, clamps, steps, interpolations, percentages, angle conversions, the polynomial easing curves without cancellation, sums, dot products with non-negative factors, squared lengths, lengths, box sizes and products with non-negative matrices never reverse the order of their inputs. Easing curves map [0,1] into [0,1]. Comparisons of boxes are exact; the merged box is the smallest around both; a box that is not culled by a view volume is not culled after it grows; a growing sphere keeps its contacts; transforming boxes keeps containment. A value that follows a target through repeated interpolation approaches it from one side, never passes it and comes to rest, for any number of steps.", "quantifier": "all binary32 arguments that meet the stated order, including infinities where the result is a number, all boxes, planes and matrices with finite coefficients, all numbers of steps", "why_tests_cant": "Rounding is not algebraic: whether some pair of neighbouring floats is reversed depends on each of 2^32 inputs (2^64 pairs or more), and the loop of a following value has no bound on its length.", "anchors": ["include/cglm/util.h: glm_lerp, glm_lerpc, glm_clamp, glm_smooth, glm_percent, glm_percentc, glm_rad, glm_deg", "include/cglm/ease.h: glm_ease_cubic_in, glm_ease_quart_out, glm_ease_quint_inout, glm_ease_circ_in, glm_ease_quad_out, glm_ease_circ_out", "include/cglm/vec3.h: glm_vec3_lerp, glm_vec3_norm, glm_vec3_dot, glm_vec3_minv, glm_vec3_clamp", "include/cglm/box.h: glm_aabb_frustum, glm_aabb_transform, glm_aabb_merge, glm_aabb_crop, glm_aabb_size, glm_aabb_point", "include/cglm/sphere.h: glm_sphere_point, glm_sphere_sphere", "include/cglm/mat4.h: glm_mat4_mulv"]}
{"id": "C78", "title": "Mirrored scenes give mirrored results", "statement": "In binary32, changing the sign of any choice of coordinate axes throughout the inputs (points, directions, rotation axes, quaternions, matrices, spheres, planes, rays) changes exactly the corresponding signs of the results and no other bit, except that a zero may come with either sign: for products, lengths, interpolations, normalisations, cross products, reflection and refraction, rotations by axis, quaternion or matrix, matrix products and inverses, decompositions, sphere merging, and for any sequence of edits of a transform. Decisions (total reflection, contact of spheres, hits of rays on triangles and spheres, the presence of a reflection in a matrix) are the same, and so are distances. The inverse of a matrix must be finite: the infinities of the inverse of a singular matrix show the sign of a zero.", "quantifier": "all eight choices of axes, all binary32 inputs including NaN, infinities, subnormals and signed zeros, all lists of edits", "why_tests_cant": "A left-right difference appears only for particular roundings of particular inputs; a test can compare a few mirrored pairs, while symmetry for every input and every chain of edits needs that each operation commutes with the sign changes.", "anchors": ["include/cglm/vec3.h: glm_vec3_cross, glm_vec3_normalize, glm_vec3_rotate, glm_vec3_refract, glm_vec3_proj", "include/cglm/mat3.h: glm_mat3_inv, glm_mat3_quat", "include/cglm/mat4.h: glm_mat4_mul, glm_mat4_inv, glm_mat4_quat", "include/cglm/quat.h: glm_quatv, glm_quat_mul, glm_quat_rotatev, glm_quat_mat4, glm_quat_nlerp", "include/cglm/affine.h: glm_rotate_make, glm_decompose_rs", "include/cglm/affine-pre.h: glm_translate, glm_rotate, glm_rotate_at, glm_spin", "include/cglm/ray.h: glm_ray_triangle, glm_ray_sphere", "include/cglm/sphere.h: glm_sphere_merge, glm_sphere_sphere", "include/cglm/plane.h: glm_plane_normalize"]}
{"id": "C79", "title": "Results under any contraction a compiler may choose", "statement": "A C compiler may fuse a product and a sum into one operation with a single rounding, anywhere it likes. Whatever it chooses: the rounding error of sums, dot and cross products, interpolations, matrix and quaternion products, lengths and distances stays within the bounds of C64; on small integers and fixed-point numbers the results are exact; squared lengths are never negative and lengths never NaN for input without NaN. Functions in which no product is an operand of a sum (component-wise arithmetic, comparisons, boxes, clamping, projection matrices, conversion of matrices to quaternions) give the same result bit for bit. What does not survive is also stated: the cross product of a vector with itself and the determinant of a matrix with equal columns need not be zero.", "quantifier": "all policies for contracting the sums of an expression, all binary32 inputs", "why_tests_cant": "A test runs one compiler with one set of flags; the choice differs with compiler, version, target and surrounding code, and the number of combinations grows exponentially with the number of sums.", "anchors": ["include/cglm/vec3.h: glm_vec3_dot, glm_vec3_cross, glm_vec3_norm2, glm_vec3_lerp", "include/cglm/mat4.h: glm_mat4_mul, glm_mat4_mulv", "include/cglm/quat.h: glm_quat_mul", "include/cglm/box.h: glm_aabb_merge, glm_aabb_contains", "include/cglm/clipspace/persp_rh_no.h: glm_perspective_rh_no"]}
{"id": "C80", "title": "Where the elements are in memory", "statement": "In every configuration of the headers the array types and the structure types have no padding, the same size and the same alignment, and every way to name an element (index, raw, col, x/y/z/w, m00..m33, imag/real) gives the place of column-major storage, so that arrays of vectors and matrices of any length are plain sequences of floats. In any structure or array a program builds from these types, each part lies inside its object and is aligned when the object is; in particular a column of an aligned matrix can be used as an aligned vector. Enabling or disabling the anonymous structures changes no size, alignment or place, also inside a program's own structures. With CGLM_ALL_UNALIGNED every type can stand wherever a float can.", "quantifier": "all configurations of the headers, all types built from the library's types, all array lengths and indices, all addresses", "why_tests_cant": "A test sees the layout one compiler gives for one configuration and for the structures the test declares; programs combine these types in structures and arrays of their own, in parts compiled with different settings.", "anchors": ["include/cglm/types.h: CGLM_ALIGN, CGLM_ALIGN_IF, CGLM_ALIGN_MAT, vec2, vec3, vec4, mat2, mat3, mat4", "include/cglm/types-struct.h: vec2s, vec3s, vec4s, versors, mat2s, mat3s, mat4s, CGLM_USE_ANONYMOUS_STRUCT"]}
{"id": "C81", "title": "No misaligned access, no access outside an object, no write to an input", "statement": "In every build of the library (scalar, each x86 level, NEON 32 and 64 bit, WebAssembly; with and without CGLM_ALL_UNALIGNED on x86), call any function of the array, structure or compiled interface with arguments that have the size and alignment of their declared types. Then every access the function makes, itself or through the functions it calls, lies inside the object its argument points to or inside a local variable, has the alignment the instruction or the promise to the compiler requires, and is a read unless the parameter is an output. With CGLM_ALL_UNALIGNED the alignment of a float is enough for all arguments.", "quantifier": "all functions, all builds, all addresses of the arguments that satisfy their types, all values, all overlaps of the arguments", "why_tests_cant": "Arrays in a test are usually aligned by accident, an unaligned access faults only on some machines and compilers, and a read past the end of a vector is silent; whether an access is wrong depends on the address the caller happens to have.", "anchors": ["include/cglm/simd/intrin.h: glmm_load, glmm_store, glmm_load256, CGLM_ALL_UNALIGNED", "include/cglm/simd/x86.h: glmm_load3, glmm_store3", "include/cglm/simd/sse2/mat4.h", "include/cglm/simd/avx/mat4.h: glm_mat4_mul_avx", "include/cglm/simd/neon/mat4.h", "include/cglm/simd/wasm/mat4.h", "include/cglm/types.h: CGLM_ALIGN"]}
{"id": "C82", "title": "Calls from several threads", "statement": "Let any number of threads call functions of the array interface on a shared memory, each thread one call after another, and let the single memory accesses of the threads happen in any order. If the arguments of every call are valid and no thread writes into an array another thread reads or writes, then there is no data race and no access fails, every thread can always go on until it has finished, and all orders need the same number of accesses. Each thread returns what it returns when it runs alone, its outputs hold what it leaves there when it runs alone, and no other memory changes. Threads may share arrays they only read. Without the condition on outputs there are calls that race.", "quantifier": "all 682 functions of the array interface with arrays of fixed length and all 116 integer-vector functions (in calls where no integer operation overflows), any number of threads, any sequence of calls per thread, any memory, any interleaving of accesses", "why_tests_cant": "The number of interleavings grows without bound, a run shows one of them, and a hidden shared variable or a write into an input shows up only under a rare schedule.", "anchors": ["include/cglm/*.h: static inline functions without static variables", "include/cglm/common.h: CGLM_INLINE", "include/cglm/call/*.h: glmc_ functions"]}
{"id": "C83", "title": "Drift of long histories in binary32", "statement": "An orientation kept as a quaternion of floats is multiplied by turns, each within delta of a turn of length one, from the left or from the right, any number of times. If it is normalised after every product it stays finite, its length stays within 9u of one for ever (u = 2^-24), and its distance from the exact orientation grows by at most 33u + 2 delta per turn; the points it rotates deviate by at most twice that. Without normalisation the distance is at most (1+d)(1+9u+2 delta)^n - 1 while that is below 2^50. The same holds for products of 3x3 and 4x4 matrices near orthogonal ones with 13u and 17u. A position moved by n vectors, or by n velocities times times, deviates from the exact sum by at most gamma_n times the sum of the magnitudes. A position of 2^24 to which one is added never moves.", "quantifier": "all histories of turns and steps of any length, all finite floats, all real delta in the stated range", "why_tests_cant": "Drift shows up only after many steps and depends on how the roundings of one history happen to fall; no finite set of histories bounds it for all.", "anchors": ["include/cglm/quat.h: glm_quat_mul, glm_quat_normalize", "include/cglm/mat3.h: glm_mat3_mul", "include/cglm/mat4.h: glm_mat4_mul", "include/cglm/vec2.h, vec3.h, vec4.h: glm_vec*_add, glm_vec*_muladds, glm_vec3_adds"]}
{"id": "C84", "title": "Rotations in binary32", "statement": "The calls that rotate leave floats near the true rotation, with u = 2^-24 and a C library whose sine and cosine are within 2u. Rotating a vector by a quaternion of any length is within 93u times the length of the vector of q v q^-1 in every component and keeps its length up to 163u. Rotating a vector about an axis of any length is within 101u times its length of Rodrigues' formula. The matrix made from an angle and an axis is within 67u of the rotation in every entry, the quaternion made from them within 12u. The matrix of a quaternion is within 41u plus twice the error of its length of the rotation v -> q v q^-1; after normalising, within 59u. All results are finite. Matrices this near a rotation have columns that are unit and perpendicular up to 4 times the bound and a determinant near one, so rounding never turns a rotation into a reflection.", "quantifier": "all finite floats whose computed axis or quaternion length is finite and at least 2^-23 (for matrices of quaternions: whose length is within 1/8 of one), all vectors up to 2^60, all angles for which the library meets its bound", "why_tests_cant": "A rotation composes a normalisation, sines, cosines and dozens of rounded products whose errors depend on every argument; a bound over all axes, angles and vectors cannot be sampled.", "anchors": ["include/cglm/quat.h: glm_quat_rotatev, glm_quatv, glm_quat_mat3, glm_quat_mat3t, glm_quat_mat4, glm_quat_mat4t, glm_quat_normalize", "include/cglm/vec3.h: glm_vec3_rotate", "include/cglm/affine.h, affine-mat.h: glm_rotate_make"]}
{"id": "C85", "title": "Projection matrices in binary32", "statement": "Every entry of the matrix that an orthographic, frustum or perspective call leaves in memory is finite and within 7u of the entry of the exact matrix, relative to that entry (u = 2^-24, plus 2^-60 for underflow); the C library's tangent is taken to be within 2u. With the rounded perspective matrix a point at distance d in front of the camera gets w = d exactly, its depth is within 14u f/(f-n) (28u for depths from -1 to 1) of the exact depth between the planes, and a nearer point always gets a strictly smaller depth.", "quantifier": "all finite floats up to 2^30 with each pair of planes at least 2^-30 apart, all four conventions of handedness and depth range", "why_tests_cant": "Whether rounding can reverse the order of two depths, or lose digits by cancellation for some choice of planes, depends on all six arguments.", "anchors": ["include/cglm/clipspace/ortho_rh_no.h, ortho_rh_zo.h, ortho_lh_no.h, ortho_lh_zo.h: glm_ortho_*", "include/cglm/clipspace/persp_rh_no.h, persp_rh_zo.h, persp_lh_no.h, persp_lh_zo.h: glm_frustum_*, glm_perspective_*"]}
{"id": "C86", "title": "Determinants and inverses in binary32", "statement": "The computed determinant of a 2x2, 3x3 or 4x4 matrix is finite and within 11u P of the determinant, where u = 2^-24 and P is the determinant's own sum of products with every sign plus (the permanent of the magnitudes). So its sign is right whenever |det| > 11u P. Every entry of the computed inverse is finite and within 42u (P/|det|)(p/|det|) + 2^-60 of the entry of the true inverse, where p is the same sum for the minor of that entry. No bound in terms of the determinant alone holds: a matrix of determinant 1 can have the computed determinant 0.", "quantifier": "all matrices of finite floats up to 2^20 with |det| at least 2^-20; for the inverse also P at most 2^18 |det|", "why_tests_cant": "Cancellation depends on all sixteen entries at once: tests on well-conditioned matrices never show how the error grows, and no sample shows that every ill-conditioned one stays within a bound.", "anchors": ["include/cglm/mat2.h: glm_mat2_det, glm_mat2_inv", "include/cglm/mat3.h: glm_mat3_det, glm_mat3_inv", "include/cglm/mat4.h: glm_mat4_det, glm_mat4_inv"]}
{"id": "C87", "title": "View matrices in binary32", "statement": "Every number of the matrix that a lookat call leaves in memory is finite. The nine direction numbers are within 270u/s of those of the exact view matrix, where u = 2^-24 and s is a lower bound for the sine of the angle between the viewing direction and up; the translation is within 270u/s times the sum of the magnitudes of the eye's coordinates. The directions are perpendicular and of length one to within 1080u/s and the determinant is within 6480u/s of one. The direction in the matrix of a look call, which takes a direction instead of a target, is within (5 r + 20)u, where r is the length of the eye vector over the length of the direction; when r exceeds 2^24 the direction can be lost entirely, and all nine direction numbers are zero.", "quantifier": "all eyes, targets and up vectors of finite floats up to 2^20 with a target at least 2^-20 away, an up vector at least 2^-10 long and s at least 2^-10; both handednesses", "why_tests_cant": "The error of the frame depends on the angle between the direction and up and on the distance of the eye from the origin; a test has a few frames near the origin.", "anchors": ["include/cglm/clipspace/view_rh.h: glm_lookat_rh, glm_look_rh", "include/cglm/clipspace/view_lh.h: glm_lookat_lh, glm_look_lh"]}
{"id": "C88", "title": "Geometric tests in binary32", "statement": "Rounding changes the answer of a test only near the boundary. A box that reaches past each of the six planes by the margin is not culled, and a box that stays behind a plane by the margin is culled; the margin of a plane is 4u times the sum of the products of the normal's coefficients and the largest coordinates of the box, plus 2^-100. Two spheres, or a point and a sphere, are reported as meeting when the distance is at most r(1-5u) and as apart when it is at least r(1+5u). A box and a ball (or a disk) reported as meeting do meet once the radius is enlarged by 5u; if they meet with the radius reduced by 5u they are reported as meeting, provided that the center is not below the minimum corner. Without the margin the claims are false.", "quantifier": "all boxes, planes, spheres, disks and points of finite floats up to 2^30, radii at least 2^-40", "why_tests_cant": "The inputs where rounding decides lie in a thin shell around the boundary; a test has a few inputs well inside or outside.", "anchors": ["include/cglm/box.h: glm_aabb_frustum, glm_aabb_sphere", "include/cglm/aabb2d.h: glm_aabb2d_circle", "include/cglm/sphere.h: glm_sphere_sphere, glm_sphere_point"]}
{"id": "C89", "title": "Ray and triangle in binary32", "statement": "Let m = 256u G/|D|, where u = 2^-24, D is the exact determinant of the ray and the triangle and G the product of the bounds d, e, e+s for the coordinates of the direction, of the edges and of the origin seen from the first vertex. If the ray meets the triangle in a point whose three weights are at least m, at a distance beyond the code's threshold, a hit is reported, and the returned distance t is within 80u e^2 s/|D| + m t + 2^-50 of the exact one. If one weight is at most -m, or the plane lies behind the origin by that error, no hit is reported. Between these bounds rounding decides: a ray through the common edge of two triangles can miss both.", "quantifier": "all rays and triangles of finite floats up to 2^20 with |D| at least 2*10^-6 and m at most 1/4", "why_tests_cant": "The rays where rounding decides pass within 2^-16 of an edge; whether a reported distance is accurate depends on the angle between the ray and the triangle.", "anchors": ["include/cglm/ray.h: glm_ray_triangle"]}
{"id": "C90", "title": "Window coordinates in binary32", "statement": "Let u = 2^-24, let w be the exact clip coordinate of the point, S the sums of the magnitudes of the terms of the clip coordinates and k a bound for S_w/|w|. The projected window coordinates are finite and differ from the exact ones by at most 5k+13 rounding units of (S/|w| + 1)/2 times the size of the viewport plus its offset (and 2^-60), the depth by at most 5k+11 units; a point brought back from the window by a given inverse matrix by 10k+14 units of S/|w|, where S belongs to the inverse matrix and the viewport is at least one pixel. For a perspective matrix k = 1. A bound for k is needed: with w = 1 the code can divide by zero.", "quantifier": "all points, matrices and viewports of finite floats up to 2^20 with |w| at least 2^-20 and k at most 50", "why_tests_cant": "The error depends on the cancellation in w; a test with a perspective matrix has none.", "anchors": ["include/cglm/clipspace/project_no.h", "include/cglm/clipspace/project_zo.h"]}
{"id": "C91", "title": "Cubic curves in binary32", "statement": "For a float s in [0,1] a cubic Bezier curve with control values of magnitude at most P is computed to within 81 rounding units of P (u = 2^-24, plus 2^-60), so it leaves the hull of its control values by no more than that; a Hermite curve to within 100 units of the bound for its end points plus 55 of the bound for its slopes; a curve given by a matrix of entries up to Q and coefficients up to C to within 161 units of QC. At s = 0 and s = 1 Bezier and Hermite curves return their end points exactly. A margin is needed: a constant curve does not stay constant.", "quantifier": "all finite s in [0,1] and all finite control values up to 2^80 (2^40 for the matrix form)", "why_tests_cant": "Four control values and a parameter are 160 bits of input.", "anchors": ["include/cglm/bezier.h: glm_bezier, glm_hermite", "include/cglm/curve.h: glm_smc"]}
{"id": "C92", "title": "Easing in binary32", "statement": "For every float t in [0,1] the polynomial easing functions (quad, cubic, quart, quint, back; in, out, inout) are finite and within at most 55 rounding units (u = 2^-24, plus 2^-60) of the same function over the real numbers, each with its own bound; circ out within 7 units; circ in and circ inout never take the root of a negative number and are within 2^-17. All of them, and bounce in and out, start at 0 and end at 1 exactly. Bounce out exceeds 1 near the end.", "quantifier": "all floats in [0,1]", "why_tests_cant": "There are about a billion floats in [0,1]; the circular functions lose up to half their digits near 1 before the lost part is bounded by the spacing of the floats.", "anchors": ["include/cglm/ease.h"]}
{"id": "C93", "title": "Ray and sphere in binary32", "statement": "Let rho bound the radius and the coordinates of the center seen from the origin of the ray, with a direction of length one up to rounding. If the line of the ray passes the sphere at more than rho/2^17, no intersection is reported and the outputs are not written. If it passes inside by more than that and the center is ahead of the origin, or the origin is inside, by more than that, an intersection is reported. If the center is behind and the origin is outside by more than that, none is reported. If the chord from a to b is at least rho/32 long, both distances are returned in order, each within rho^2/(2^14 (b-a)) of a and b, and a hit is reported when b exceeds this error. A margin is needed: a sphere that is barely missed is reported as hit.", "quantifier": "all finite origins and spheres with coordinates up to 2^20, all directions with squared length within 2^-20 of 1, rho between 2^-20 and 2^21", "why_tests_cant": "The input is ten floats, and the interesting cases are the grazing rays, whose discriminant is a difference of nearly equal numbers.", "anchors": ["include/cglm/ray.h: glm_ray_sphere"]}
{"id": "C94", "title": "Conversion to Apple's vector types", "statement": "The conversions of mat4, mat3, vec4 and vec3 write every lane of the result with the component in the same column and row, write nothing else, and lose nothing; the struct versions give the same result. The generic macro selects the conversion for the type of its argument.", "quantifier": "all matrices and vectors, whatever their components; all argument types of the macro", "why_tests_cant": "The header is compiled only on Apple platforms, the result starts uninitialised, and the macro fails at compile time, where a test cannot observe it.", "anchors": ["include/cglm/applesimd.h: glm_mat4_applesimd, glm_mat3_applesimd, glm_vec4_applesimd, glm_vec3_applesimd, applesimd", "include/cglm/types.h: vec3, vec4, mat3, mat4"]}
{"id": "C95", "title": "Excess precision", "statement": "However an implementation evaluates float expressions, in binary32 or in a wider format, and wherever it rounds intermediate results back to binary32, the sums, products, dot and cross products, matrix products and determinants are within k (2^-24 + 2^-43) B + 2^-140 of the exact result, with the roundings k and magnitudes B of C64, and they are exact on small integers and fixed-point numbers within the bounds of C76. The results of different methods may differ within this bound.", "quantifier": "all evaluation methods that round each operation to nearest in any format with at least 53 bits, in binary32, in both one after the other, or not at all, chosen per expression; all finite arguments whose results do not overflow", "why_tests_cant": "The evaluation method is a choice of compiler, target and optimisation level for each expression; a test sees one of them.", "anchors": ["include/cglm/vec2.h", "include/cglm/vec3.h", "include/cglm/vec4.h", "include/cglm/mat2.h", "include/cglm/mat3.h", "include/cglm/mat4.h", "include/cglm/quat.h: glm_quat_mul", "include/cglm/affine.h: glm_translate"]}
{"id": "C96", "title": "Reordered sums and products", "statement": "If a compiler is allowed to reorder sums and products and to move signs (-fassociative-math, part of -ffast-math), then whatever order it chooses, the sums, differences, products, dot and cross products, matrix-vector, matrix and quaternion products and traces are within gamma_n B + 2^-146 of the exact result, with the magnitudes B of C64 and the number n of operations in the expression, and they are exact, hence independent of the order, on small integers and fixed-point numbers within the bounds of C76. Elsewhere the order may change the result.", "quantifier": "all expressions reachable by commutativity and associativity of sums and of products and by the laws of signs, applied anywhere any number of times; all binary32 arguments whose results do not overflow", "why_tests_cant": "The order is chosen by the compiler for each expression, target and optimisation level; a test sees one of them.", "anchors": ["include/cglm/vec2.h", "include/cglm/vec3.h", "include/cglm/vec4.h", "include/cglm/mat2.h", "include/cglm/mat3.h", "include/cglm/mat4.h", "include/cglm/quat.h: glm_quat_mul"]}
{"id": "C97", "title": "Rounding modes and flushing to zero", "statement": "In every rounding mode of fesetround, with subnormal results flushed to zero or not, and also if the compiler reorders sums and products as in C96, the sums, differences, products, dot and cross products, matrix-vector, matrix and quaternion products and traces are within k (2^-23 + 2^-43) B + 2^-122 of the exact result, with the magnitudes B of C64 and the number k of operations; on small integers and fixed-point numbers on a grid of normal numbers they are exact. For data without negative numbers, rounding down or towards zero gives a lower bound of the exact sum of products, with or without flushing, and rounding up without flushing an upper bound. Modes do give different results, and with flushing the upper bound fails.", "quantifier": "the four rounding modes, flushing on or off, with the decision of what is subnormal taken before or after rounding; all reorderings of C96; all finite arguments whose results do not overflow", "why_tests_cant": "The floating-point environment belongs to the thread and is set by other libraries, start-up code and compiler flags; tests run in the default one.", "anchors": ["include/cglm/vec2.h", "include/cglm/vec3.h", "include/cglm/vec4.h", "include/cglm/mat2.h", "include/cglm/mat3.h", "include/cglm/mat4.h", "include/cglm/quat.h: glm_quat_mul"]}
{"id": "C98", "title": "Outputs that overlap inputs", "statement": "Functions that read all their inputs before they write (products and inverses of matrices, products of a matrix and a vector, cross products, rotations of vectors and matrices, conversions between quaternions, Euler angles and matrices, frustum, projection and ray functions) give the same result as with separate memory when outputs overlap inputs in any way, for example when the destination is a column of the matrix argument. Functions that work component by component (sums, copies, interpolations and other operations on vectors, all operations on integer vectors, copies of small matrices) do so as long as the destination does not begin inside an input, so data may be moved towards lower addresses. The remaining functions (transpositions, the quaternion product, look-at matrices, decomposition, translations and scalings of a matrix, reflection and refraction and a few others) do so as long as certain cells of an output are not certain cells of an input; the cells are listed for each function, for example translating a matrix by its own first column is right. Outputs must not overlap each other. Nothing outside the outputs changes. A destination that begins inside an input gives a wrong sum or copy, and glm_mat4_copy fails in both directions. Translating a matrix by its own last column, scaling it by its own first column, or a look-at matrix whose eye position is the last column of the destination also gives a wrong result. For most of the component-wise functions the condition is also necessary: every position of an input that it excludes gives a wrong result for some values.", "quantifier": "493 functions (all with array inputs and outputs), all memories, all positions of the arguments, all contents and every scalar type, in the portable code", "why_tests_cant": "There are unboundedly many placements of the arguments, and the result depends on the order of every read and write.", "anchors": ["include/cglm/mat4.h: glm_mat4_mul, glm_mat4_mulv3, glm_mat4_inv, glm_mat4_copy", "include/cglm/mat3.h: glm_mat3_mul", "include/cglm/vec3.h: glm_vec3_cross, glm_vec3_add, glm_vec3_copy, glm_vec3_rotate", "include/cglm/quat.h: glm_quat_mat4", "include/cglm/euler.h", "include/cglm/affine.h: glm_rotate, glm_scale", "include/cglm/affine-pre.h: glm_translate", "include/cglm/frustum.h", "include/cglm/project.h", "include/cglm/ivec2.h", "include/cglm/ivec3.h", "include/cglm/ivec4.h", "include/cglm/cam.h: glm_lookat", "include/cglm/vec4.h: glm_vec4_reflect"]}
{"id": "C99", "title": "Components that need not be initialised", "statement": "Some functions use only part of an argument, and the rest may be left uninitialised: the call is defined and its result does not depend on what is there. The 3x3 part of a matrix suffices for glm_mat4_quat, glm_mat4_pick3, glm_mat4_pick3t, glm_euler_angles (which needs seven of its entries), glm_decompose_scalev, glm_uniscaled, the glm_rotated functions and, as the second factor, glm_mul_rot; the first three rows suffice for the matrix of glm_aabb_transform and, with the corner element, for the second factor of glm_mul, the first two rows for glm_aabb2d_transform; the first three columns for glm_decompose_rs and glm_vec3_rotate_m4; the diagonal for the traces; the entries that hold the answer for the queries on perspective matrices (field of view, aspect ratio, planes, sizes); the last two rows for the depth of a projected point. glm_mat4_ins3 and glm_euler_by_order do not read the entries they replace. Copies of the first three components ignore the fourth, the imaginary part and the axis of a quaternion do not depend on its real part, and the radius of a sphere is read without its center.", "quantifier": "84 functions, all memories, all positions of the arguments (overlap as in C98), all contents, every scalar type, in the portable code", "why_tests_cant": "A test cannot observe that an uninitialised value is not read, and the result would have to be compared for every value of the unused components.", "anchors": ["include/cglm/affine-mat.h: glm_mul, glm_mul_rot", "include/cglm/affine.h: glm_decompose_scalev, glm_decompose_rs, glm_uniscaled", "include/cglm/mat4.h: glm_mat4_pick3, glm_mat4_ins3, glm_mat4_quat, glm_mat4_trace", "include/cglm/euler.h: glm_euler_angles", "include/cglm/clipspace/persp_rh_no.h", "include/cglm/project.h: glm_project_z", "include/cglm/box.h: glm_aabb_transform", "include/cglm/quat.h: glm_quat_imag", "include/cglm/sphere.h: glm_sphere_radii"]}
