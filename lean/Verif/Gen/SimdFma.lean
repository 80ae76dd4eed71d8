/- Generated from the headers with __SSE__, __SSE2__, __SSE3__, __SSE4_1__, __SSE4_2__, __AVX__, __AVX2__, __FMA__ defined (functions that differ from the scalar build, and their callers) by tools/simdgen.py (value semantics); do not edit by hand. -/
import Verif.Simd
import Verif.Gen.Affine
import Verif.Gen.AffinePost
import Verif.Gen.Quat
import Verif.Gen.Util
import Verif.Gen.Vec2
import Verif.Gen.Vec3
import Verif.Gen.Vec3Ext
import Verif.Gen.Vec4
import Verif.Gen.Vec4Ext

set_option linter.unusedVariables false
set_option linter.unusedSectionVars false

namespace Cglm.Fma

variable {α : Type} [Add α] [Sub α] [Mul α] [Div α] [Neg α] [CFloat α]

/-- `glmm_abs`: include/cglm/simd/x86.h:109-113. -/
@[cglm]
def glmm_abs (x : V4 α) : V4 α :=
  mm_andnot_ps (mm_castsi128_ps_sign (mm_set1_epi32 2147483648)) x

/-- `glmm_min`: include/cglm/simd/x86.h:115-115. -/
@[cglm]
def glmm_min (a : V4 α) (b : V4 α) : V4 α :=
  mm_min_ps a b

/-- `glmm_max`: include/cglm/simd/x86.h:116-116. -/
@[cglm]
def glmm_max (a : V4 α) (b : V4 α) : V4 α :=
  mm_max_ps a b

/-- `glmm_vhadd`: include/cglm/simd/x86.h:118-125. -/
@[cglm]
def glmm_vhadd (v : V4 α) : V4 α :=
  let x0 := mm_add_ps v (mm_permute_ps v 27)
  mm_add_ps x0 (mm_permute_ps x0 65)

/-- `glmm_vhadds`: include/cglm/simd/x86.h:127-145. -/
@[cglm]
def glmm_vhadds (v : V4 α) : V4 α :=
  let shuf := mm_movehdup_ps v
  let sums := mm_add_ps v shuf
  let shuf_1 := mm_movehl_ps shuf sums
  mm_add_ss sums shuf_1

/-- `glmm_hadd`: include/cglm/simd/x86.h:147-151. -/
@[cglm]
def glmm_hadd (v : V4 α) : α :=
  mm_cvtss_f32 (glmm_vhadds v)

/-- `glmm_vhmin`: include/cglm/simd/x86.h:153-161. -/
@[cglm]
def glmm_vhmin (v : V4 α) : V4 α :=
  let x0 := mm_movehl_ps v v
  let x1 := mm_min_ps x0 v
  mm_min_ss x1 (mm_permute_ps x1 85)

/-- `glmm_hmin`: include/cglm/simd/x86.h:163-167. -/
@[cglm]
def glmm_hmin (v : V4 α) : α :=
  mm_cvtss_f32 (glmm_vhmin v)

/-- `glmm_vhmax`: include/cglm/simd/x86.h:169-177. -/
@[cglm]
def glmm_vhmax (v : V4 α) : V4 α :=
  let x0 := mm_movehl_ps v v
  let x1 := mm_max_ps x0 v
  mm_max_ss x1 (mm_permute_ps x1 85)

/-- `glmm_hmax`: include/cglm/simd/x86.h:179-183. -/
@[cglm]
def glmm_hmax (v : V4 α) : α :=
  mm_cvtss_f32 (glmm_vhmax v)

/-- `glmm_vdots`: include/cglm/simd/x86.h:185-198. -/
@[cglm]
def glmm_vdots (a : V4 α) (b : V4 α) : V4 α :=
  glmm_vhadds (mm_mul_ps a b)

/-- `glmm_vdot`: include/cglm/simd/x86.h:200-216. -/
@[cglm]
def glmm_vdot (a : V4 α) (b : V4 α) : V4 α :=
  let x0 := mm_mul_ps a b
  let x0_1 := mm_add_ps x0 (mm_permute_ps x0 78)
  mm_add_ps x0_1 (mm_permute_ps x0_1 17)

/-- `glmm_dot`: include/cglm/simd/x86.h:218-222. -/
@[cglm]
def glmm_dot (a : V4 α) (b : V4 α) : α :=
  mm_cvtss_f32 (glmm_vdots a b)

/-- `glmm_norm`: include/cglm/simd/x86.h:224-228. -/
@[cglm]
def glmm_norm (a : V4 α) : α :=
  mm_cvtss_f32 (mm_sqrt_ss (glmm_vhadds (mm_mul_ps a a)))

/-- `glmm_norm2`: include/cglm/simd/x86.h:230-234. -/
@[cglm]
def glmm_norm2 (a : V4 α) : α :=
  mm_cvtss_f32 (glmm_vhadds (mm_mul_ps a a))

/-- `glmm_norm_one`: include/cglm/simd/x86.h:236-240. -/
@[cglm]
def glmm_norm_one (a : V4 α) : α :=
  mm_cvtss_f32 (glmm_vhadds (glmm_abs a))

/-- `glmm_norm_inf`: include/cglm/simd/x86.h:242-246. -/
@[cglm]
def glmm_norm_inf (a : V4 α) : α :=
  mm_cvtss_f32 (glmm_vhmax (glmm_abs a))

/-- `glmm_load3`: include/cglm/simd/x86.h:249-259. -/
@[cglm]
def glmm_load3 (v : V3 α) : V4 α :=
  let xy := V4.mk v.x v.y (lit 0) (lit 0)
  mm_movelh_ps (mm_castsi128_ps xy) (V4.mk v.z (lit 0) (lit 0) (lit 0))

/-- `glmm_store3`: include/cglm/simd/x86.h:261-266. -/
@[cglm]
def glmm_store3 (vx : V4 α) : V3 α :=
  ⟨vx.x, vx.y, (mm_permute_ps vx 170).x⟩

/-- `glmm_div`: include/cglm/simd/x86.h:269-273. -/
@[cglm]
def glmm_div (a : V4 α) (b : V4 α) : V4 α :=
  mm_div_ps a b

/-- `glmm_fmadd`: include/cglm/simd/x86.h:280-288. -/
@[cglm]
def glmm_fmadd [CSimd α] (a : V4 α) (b : V4 α) (c : V4 α) : V4 α :=
  mm_fmadd_ps a b c

/-- `glmm_fnmadd`: include/cglm/simd/x86.h:290-298. -/
@[cglm]
def glmm_fnmadd [CSimd α] (a : V4 α) (b : V4 α) (c : V4 α) : V4 α :=
  mm_fnmadd_ps a b c

/-- `glmm_fmsub`: include/cglm/simd/x86.h:300-308. -/
@[cglm]
def glmm_fmsub [CSimd α] (a : V4 α) (b : V4 α) (c : V4 α) : V4 α :=
  mm_fmsub_ps a b c

/-- `glmm_fnmsub`: include/cglm/simd/x86.h:310-319. -/
@[cglm]
def glmm_fnmsub [CSimd α] (a : V4 α) (b : V4 α) (c : V4 α) : V4 α :=
  mm_fnmsub_ps a b c

/-- `glmm256_fmadd`: include/cglm/simd/x86.h:322-330. -/
@[cglm]
def glmm256_fmadd [CSimd α] (a : V8 α) (b : V8 α) (c : V8 α) : V8 α :=
  mm256_fmadd_ps a b c

/-- `glmm256_fnmadd`: include/cglm/simd/x86.h:332-340. -/
@[cglm]
def glmm256_fnmadd [CSimd α] (a : V8 α) (b : V8 α) (c : V8 α) : V8 α :=
  mm256_fnmadd_ps a b c

/-- `glmm256_fmsub`: include/cglm/simd/x86.h:342-350. -/
@[cglm]
def glmm256_fmsub [CSimd α] (a : V8 α) (b : V8 α) (c : V8 α) : V8 α :=
  mm256_fmsub_ps a b c

/-- `glmm256_fnmsub`: include/cglm/simd/x86.h:352-361. -/
@[cglm]
def glmm256_fnmsub [CSimd α] (a : V8 α) (b : V8 α) (c : V8 α) : V8 α :=
  mm256_fmsub_ps a b c

/-- `glm_vec4_broadcast`: include/cglm/vec4-ext.h:49-59. -/
@[cglm]
def glm_vec4_broadcast (val : α) : V4 α :=
  splat4 val

/-- `glm_vec4_fill`: include/cglm/vec4-ext.h:67-77. -/
@[cglm]
def glm_vec4_fill (val : α) : V4 α :=
  splat4 val

/-- `glm_vec4_sign`: include/cglm/vec4-ext.h:235-255. -/
@[cglm]
def glm_vec4_sign [CEst α] (v : V4 α) : V4 α :=
  let x0 := v
  let x1 := mm_set_ps (lit 0) (lit 0) (lit 1) (-(lit 1))
  let x2 := mm_permute_ps x1 170
  let x3 := mm_and_ps (mm_cmpgt_ps x0 x2) (mm_permute_ps x1 85)
  let x4 := mm_and_ps (mm_cmplt_ps x0 x2) (mm_permute_ps x1 0)
  mm_or_ps x3 x4

/-- `glm_vec4_abs`: include/cglm/vec4-ext.h:263-278. -/
@[cglm]
def glm_vec4_abs (v : V4 α) : V4 α :=
  glmm_abs v

/-- `glm_vec4_hadd`: include/cglm/vec4-ext.h:367-377. -/
@[cglm]
def glm_vec4_hadd (v : V4 α) : α :=
  glmm_hadd v

/-- `glm_vec4_sqrt`: include/cglm/vec4-ext.h:385-398. -/
@[cglm]
def glm_vec4_sqrt (v : V4 α) : V4 α :=
  mm_sqrt_ps v

/-- `glm_vec4_zero`: include/cglm/vec4.h:191-206. -/
@[cglm]
def glm_vec4_zero : V4 α :=
  splat4 (lit 0)

/-- `glm_vec4_one`: include/cglm/vec4.h:213-228. -/
@[cglm]
def glm_vec4_one : V4 α :=
  splat4 (lit 1)

/-- `glm_vec4_dot`: include/cglm/vec4.h:238-246. -/
@[cglm]
def glm_vec4_dot (a : V4 α) (b : V4 α) : α :=
  glmm_dot a b

/-- `glm_vec4_norm2`: include/cglm/vec4.h:259-263. -/
@[cglm]
def glm_vec4_norm2 (v : V4 α) : α :=
  glm_vec4_dot v v

/-- `glm_vec4_norm`: include/cglm/vec4.h:273-281. -/
@[cglm]
def glm_vec4_norm (v : V4 α) : α :=
  glmm_norm v

/-- `glm_vec4_norm_one`: include/cglm/vec4.h:297-307. -/
@[cglm]
def glm_vec4_norm_one (v : V4 α) : α :=
  glmm_norm_one v

/-- `glm_vec4_norm_inf`: include/cglm/vec4.h:322-332. -/
@[cglm]
def glm_vec4_norm_inf (v : V4 α) : α :=
  glmm_norm_inf v

/-- `glm_vec4_add`: include/cglm/vec4.h:341-356. -/
@[cglm]
def glm_vec4_add (a : V4 α) (b : V4 α) : V4 α :=
  mm_add_ps a b

/-- `glm_vec4_adds`: include/cglm/vec4.h:365-380. -/
@[cglm]
def glm_vec4_adds (v : V4 α) (s : α) : V4 α :=
  mm_add_ps v (splat4 s)

/-- `glm_vec4_sub`: include/cglm/vec4.h:389-404. -/
@[cglm]
def glm_vec4_sub (a : V4 α) (b : V4 α) : V4 α :=
  mm_sub_ps a b

/-- `glm_vec4_subs`: include/cglm/vec4.h:413-428. -/
@[cglm]
def glm_vec4_subs (v : V4 α) (s : α) : V4 α :=
  mm_sub_ps v (splat4 s)

/-- `glm_vec4_mul`: include/cglm/vec4.h:437-452. -/
@[cglm]
def glm_vec4_mul (a : V4 α) (b : V4 α) : V4 α :=
  mm_mul_ps a b

/-- `glm_vec4_scale`: include/cglm/vec4.h:461-476. -/
@[cglm]
def glm_vec4_scale (v : V4 α) (s : α) : V4 α :=
  mm_mul_ps v (splat4 s)

/-- `glm_vec4_scale_as`: include/cglm/vec4.h:485-497. -/
@[cglm]
def glm_vec4_scale_as (v : V4 α) (s : α) : V4 α :=
  let norm := glm_vec4_norm v
  if flt norm (lit 0.00000011920928955078125) then
    glm_vec4_zero
  else
    glm_vec4_scale v (s / norm)

/-- `glm_vec4_div`: include/cglm/vec4.h:506-517. -/
@[cglm]
def glm_vec4_div (a : V4 α) (b : V4 α) : V4 α :=
  glmm_div a b

/-- `glm_vec4_divs`: include/cglm/vec4.h:526-534. -/
@[cglm]
def glm_vec4_divs (v : V4 α) (s : α) : V4 α :=
  glmm_div v (splat4 s)

/-- `glm_vec4_addadd`: include/cglm/vec4.h:545-566. -/
@[cglm]
def glm_vec4_addadd (a : V4 α) (b : V4 α) (dest : V4 α) : V4 α :=
  mm_add_ps dest (mm_add_ps a b)

/-- `glm_vec4_subadd`: include/cglm/vec4.h:577-598. -/
@[cglm]
def glm_vec4_subadd (a : V4 α) (b : V4 α) (dest : V4 α) : V4 α :=
  mm_add_ps dest (mm_sub_ps a b)

/-- `glm_vec4_muladd`: include/cglm/vec4.h:609-620. -/
@[cglm]
def glm_vec4_muladd [CSimd α] (a : V4 α) (b : V4 α) (dest : V4 α) : V4 α :=
  glmm_fmadd a b dest

/-- `glm_vec4_muladds`: include/cglm/vec4.h:631-642. -/
@[cglm]
def glm_vec4_muladds [CSimd α] (a : V4 α) (s : α) (dest : V4 α) : V4 α :=
  glmm_fmadd a (splat4 s) dest

/-- `glm_vec4_maxadd`: include/cglm/vec4.h:653-671. -/
@[cglm]
def glm_vec4_maxadd (a : V4 α) (b : V4 α) (dest : V4 α) : V4 α :=
  mm_add_ps dest (glmm_max a b)

/-- `glm_vec4_minadd`: include/cglm/vec4.h:682-700. -/
@[cglm]
def glm_vec4_minadd (a : V4 α) (b : V4 α) (dest : V4 α) : V4 α :=
  mm_add_ps dest (glmm_min a b)

/-- `glm_vec4_subsub`: include/cglm/vec4.h:711-732. -/
@[cglm]
def glm_vec4_subsub (a : V4 α) (b : V4 α) (dest : V4 α) : V4 α :=
  mm_sub_ps dest (mm_sub_ps a b)

/-- `glm_vec4_addsub`: include/cglm/vec4.h:743-764. -/
@[cglm]
def glm_vec4_addsub (a : V4 α) (b : V4 α) (dest : V4 α) : V4 α :=
  mm_sub_ps dest (mm_add_ps a b)

/-- `glm_vec4_mulsub`: include/cglm/vec4.h:775-786. -/
@[cglm]
def glm_vec4_mulsub [CSimd α] (a : V4 α) (b : V4 α) (dest : V4 α) : V4 α :=
  glmm_fnmadd a b dest

/-- `glm_vec4_mulsubs`: include/cglm/vec4.h:797-808. -/
@[cglm]
def glm_vec4_mulsubs [CSimd α] (a : V4 α) (s : α) (dest : V4 α) : V4 α :=
  glmm_fnmadd a (splat4 s) dest

/-- `glm_vec4_maxsub`: include/cglm/vec4.h:819-837. -/
@[cglm]
def glm_vec4_maxsub (a : V4 α) (b : V4 α) (dest : V4 α) : V4 α :=
  mm_sub_ps dest (glmm_max a b)

/-- `glm_vec4_minsub`: include/cglm/vec4.h:848-866. -/
@[cglm]
def glm_vec4_minsub (a : V4 α) (b : V4 α) (dest : V4 α) : V4 α :=
  mm_sub_ps dest (glmm_min a b)

/-- `glm_vec4_negate_to`: include/cglm/vec4.h:874-889. -/
@[cglm]
def glm_vec4_negate_to (v : V4 α) : V4 α :=
  mm_xor_ps v (mm_castsi128_ps_sign (mm_set1_epi32 2147483648))

/-- `glm_vec4_negate`: include/cglm/vec4.h:896-900. -/
@[cglm]
def glm_vec4_negate (v : V4 α) : V4 α :=
  glm_vec4_negate_to v

/-- `glm_vec4_normalize_to`: include/cglm/vec4.h:908-952. -/
@[cglm]
def glm_vec4_normalize_to (v : V4 α) : V4 α :=
  let x0 := v
  let xdot := glmm_vdot x0 x0
  let dot := mm_cvtss_f32 xdot
  if flt dot (lit 0.00000011920928955078125) then
    splat4 (lit 0)
  else
    glmm_div x0 (mm_sqrt_ps xdot)

/-- `glm_vec4_normalize`: include/cglm/vec4.h:959-963. -/
@[cglm]
def glm_vec4_normalize (v : V4 α) : V4 α :=
  glm_vec4_normalize_to v

/-- `glm_vec4_distance`: include/cglm/vec4.h:972-987. -/
@[cglm]
def glm_vec4_distance (a : V4 α) (b : V4 α) : α :=
  glmm_norm (mm_sub_ps a b)

/-- `glm_vec4_distance2`: include/cglm/vec4.h:996-1011. -/
@[cglm]
def glm_vec4_distance2 (a : V4 α) (b : V4 α) : α :=
  glmm_norm2 (mm_sub_ps a b)

/-- `glm_vec4_maxv`: include/cglm/vec4.h:1020-1031. -/
@[cglm]
def glm_vec4_maxv (a : V4 α) (b : V4 α) : V4 α :=
  glmm_max a b

/-- `glm_vec4_minv`: include/cglm/vec4.h:1040-1051. -/
@[cglm]
def glm_vec4_minv (a : V4 α) (b : V4 α) : V4 α :=
  glmm_min a b

/-- `glm_vec4_clamp`: include/cglm/vec4.h:1060-1078. -/
@[cglm]
def glm_vec4_clamp (v : V4 α) (minVal : α) (maxVal : α) : V4 α :=
  glmm_min (glmm_max v (splat4 minVal)) (splat4 maxVal)

/-- `glm_vec4_lerp`: include/cglm/vec4.h:1090-1100. -/
@[cglm]
def glm_vec4_lerp (frm : V4 α) (to : V4 α) (t : α) : V4 α :=
  let s := glm_vec4_broadcast t
  let v := glm_vec4_sub to frm
  let v_1 := glm_vec4_mul s v
  glm_vec4_add frm v_1

/-- `glm_vec4_lerpc`: include/cglm/vec4.h:1112-1116. -/
@[cglm]
def glm_vec4_lerpc (frm : V4 α) (to : V4 α) (t : α) : V4 α :=
  glm_vec4_lerp frm to (glm_clamp_zo t)

/-- `glm_vec4_mix`: include/cglm/vec4.h:1128-1132. -/
@[cglm]
def glm_vec4_mix (frm : V4 α) (to : V4 α) (t : α) : V4 α :=
  glm_vec4_lerp frm to t

/-- `glm_vec4_mixc`: include/cglm/vec4.h:1144-1148. -/
@[cglm]
def glm_vec4_mixc (frm : V4 α) (to : V4 α) (t : α) : V4 α :=
  glm_vec4_lerpc frm to t

/-- `glm_vec4_smoothinterp`: include/cglm/vec4.h:1210-1220. -/
@[cglm]
def glm_vec4_smoothinterp (frm : V4 α) (to : V4 α) (t : α) : V4 α :=
  let s := glm_vec4_broadcast (glm_smooth t)
  let v := glm_vec4_sub to frm
  let v_1 := glm_vec4_mul s v
  glm_vec4_add frm v_1

/-- `glm_vec4_smoothinterpc`: include/cglm/vec4.h:1232-1236. -/
@[cglm]
def glm_vec4_smoothinterpc (frm : V4 α) (to : V4 α) (t : α) : V4 α :=
  glm_vec4_smoothinterp frm to (glm_clamp_zo t)

/-- `glm_vec4_reflect`: include/cglm/vec4.h:1299-1309. -/
@[cglm]
def glm_vec4_reflect (v : V4 α) (n : V4 α) : V4 α :=
  let temp := glm_vec4_scale n ((lit 2) * glm_vec4_dot v n)
  let dest_1 := glm_vec4_sub v temp
  ⟨dest_1.x, dest_1.y, dest_1.z, v.w⟩

/-- `glm_vec4_refract`: include/cglm/vec4.h:1329-1346. -/
@[cglm]
def glm_vec4_refract [CSimd α] (v : V4 α) (n : V4 α) (eta : α) : Bool × V4 α :=
  let ndi := glm_vec4_dot n v
  let eni := eta * ndi
  let k := (lit 1) - eta * eta + eni * eni
  if flt k (lit 0) then
    (false, glm_vec4_zero)
  else
    let dest_1 := glm_vec4_scale v eta
    (true, glm_vec4_mulsubs n (eni + sqrtf k) dest_1)

/-- `glm_vec3_rotate_m4`: include/cglm/vec3.h:786-800. -/
@[cglm]
def glm_vec3_rotate_m4 [CSimd α] (m : M4 α) (v : V3 α) : V3 α :=
  let x := glm_vec4_normalize_to m.c0
  let y := glm_vec4_normalize_to m.c1
  let z := glm_vec4_normalize_to m.c2
  let res := glm_vec4_scale x v.x
  let res_1 := glm_vec4_muladds y v.y res
  let res_2 := glm_vec4_muladds z v.z res_1
  glm_vec3 res_2

/-- `glm_vec3_rotate_m3`: include/cglm/vec3.h:809-827. -/
@[cglm]
def glm_vec3_rotate_m3 [CSimd α] (m : M3 α) (v : V3 α) : V3 α :=
  let x := glm_vec4 m.c0 (lit 0)
  let y := glm_vec4 m.c1 (lit 0)
  let z := glm_vec4 m.c2 (lit 0)
  let x_1 := glm_vec4_normalize x
  let y_1 := glm_vec4_normalize y
  let z_1 := glm_vec4_normalize z
  let res := glm_vec4_scale x_1 v.x
  let res_1 := glm_vec4_muladds y_1 v.y res
  let res_2 := glm_vec4_muladds z_1 v.z res_1
  glm_vec3 res_2

/-- `glm_mat4_scale_sse2`: include/cglm/simd/sse2/mat4.h:17-27. -/
@[cglm]
def glm_mat4_scale_sse2 (m : M4 α) (s : α) : M4 α :=
  let x0 := splat4 s
  let s_1 := mm_mul_ps m.c0 x0
  let s_2 := mm_mul_ps m.c1 x0
  let s_3 := mm_mul_ps m.c2 x0
  ⟨s_1, s_2, s_3, mm_mul_ps m.c3 x0⟩

/-- `glm_mat4_transp_sse2`: include/cglm/simd/sse2/mat4.h:29-45. -/
@[cglm]
def glm_mat4_transp_sse2 (m : M4 α) : M4 α :=
  let r0 := m.c0
  let r1 := m.c1
  let r2 := m.c2
  let r3 := m.c3
  let tr := mm_transpose4_ps r0 r1 r2 r3
  let r0_1 := tr.c0
  let r1_1 := tr.c1
  let r2_1 := tr.c2
  ⟨r0_1, r1_1, r2_1, tr.c3⟩

/-- `glm_mat4_mul_sse2`: include/cglm/simd/sse2/mat4.h:47-87. -/
@[cglm]
def glm_mat4_mul_sse2 [CSimd α] (m1 : M4 α) (m2 : M4 α) : M4 α :=
  let l := m1.c0
  let r0 := m2.c0
  let r1 := m2.c1
  let r2 := m2.c2
  let r3 := m2.c3
  let v0 := mm_mul_ps (mm_broadcastss_ps r0) l
  let v1 := mm_mul_ps (mm_broadcastss_ps r1) l
  let v2 := mm_mul_ps (mm_broadcastss_ps r2) l
  let v3 := mm_mul_ps (mm_broadcastss_ps r3) l
  let l_1 := m1.c1
  let v0_1 := glmm_fmadd (mm_permute_ps r0 85) l_1 v0
  let v1_1 := glmm_fmadd (mm_permute_ps r1 85) l_1 v1
  let v2_1 := glmm_fmadd (mm_permute_ps r2 85) l_1 v2
  let v3_1 := glmm_fmadd (mm_permute_ps r3 85) l_1 v3
  let l_2 := m1.c2
  let v0_2 := glmm_fmadd (mm_permute_ps r0 170) l_2 v0_1
  let v1_2 := glmm_fmadd (mm_permute_ps r1 170) l_2 v1_1
  let v2_2 := glmm_fmadd (mm_permute_ps r2 170) l_2 v2_1
  let v3_2 := glmm_fmadd (mm_permute_ps r3 170) l_2 v3_1
  let l_3 := m1.c3
  let v0_3 := glmm_fmadd (mm_permute_ps r0 255) l_3 v0_2
  let v1_3 := glmm_fmadd (mm_permute_ps r1 255) l_3 v1_2
  let v2_3 := glmm_fmadd (mm_permute_ps r2 255) l_3 v2_2
  ⟨v0_3, v1_3, v2_3, glmm_fmadd (mm_permute_ps r3 255) l_3 v3_2⟩

/-- `glm_mat4_mulv_sse2`: include/cglm/simd/sse2/mat4.h:89-111. -/
@[cglm]
def glm_mat4_mulv_sse2 [CSimd α] (m : M4 α) (v : V4 α) : V4 α :=
  let m0 := m.c0
  let m1 := m.c1
  let m2 := m.c2
  let m3 := m.c3
  let x0 := v
  let v0 := mm_broadcastss_ps x0
  let v1 := mm_permute_ps x0 85
  let v2 := mm_permute_ps x0 170
  let v3 := mm_permute_ps x0 255
  let x1 := mm_mul_ps m3 v3
  let x1_1 := glmm_fmadd m2 v2 x1
  let x1_2 := glmm_fmadd m1 v1 x1_1
  glmm_fmadd m0 v0 x1_2

/-- `glm_mat4_det_sse2`: include/cglm/simd/sse2/mat4.h:113-159. -/
@[cglm]
def glm_mat4_det_sse2 [CSimd α] (mat : M4 α) : α :=
  let r0 := mat.c0
  let r1 := mat.c1
  let r2 := mat.c2
  let r3 := mat.c3
  let x0 := glmm_fnmadd (mm_permute_ps r3 5) (mm_permute_ps r2 187) (mm_mul_ps (mm_permute_ps r2 5) (mm_permute_ps r3 187))
  let x1 := glmm_fnmadd (mm_permute_ps r3 10) (mm_permute_ps r2 95) (mm_mul_ps (mm_permute_ps r2 10) (mm_permute_ps r3 95))
  let x2 := glmm_fnmadd (mm_permute_ps r1 90) (mm_permute_ps x0 232) (mm_mul_ps (mm_permute_ps r1 1) (mm_shuffle_ps x1 x0 64))
  let x2_1 := glmm_fmadd (mm_permute_ps r1 191) (mm_shuffle_ps x0 x1 173) x2
  glmm_hadd (mm_mul_ps (mm_xor_ps x2_1 (mm_castsi128_ps_sign (mm_set_epi32 2147483648 0 2147483648 0))) r0)

/-- `glm_mat4_inv_fast_sse2`: include/cglm/simd/sse2/mat4.h:161-296. -/
@[cglm]
def glm_mat4_inv_fast_sse2 [CEst α] [CSimd α] (mat : M4 α) : M4 α :=
  let x8 := mm_castsi128_ps_sign (mm_set_epi32 2147483648 0 2147483648 0)
  let x9 := mm_permute_ps x8 153
  let r0 := mat.c0
  let r1 := mat.c1
  let r2 := mat.c2
  let r3 := mat.c3
  let x0 := mm_movehl_ps r3 r2
  let x3 := mm_movelh_ps r2 r3
  let x1 := mm_permute_ps x0 127
  let x2 := mm_permute_ps x0 42
  let x4 := mm_permute_ps x3 127
  let x7 := mm_permute_ps x3 42
  let x6 := mm_shuffle_ps r2 r1 0
  let x5 := mm_shuffle_ps r2 r1 85
  let x3_1 := mm_shuffle_ps r2 r1 170
  let x0_1 := mm_shuffle_ps r2 r1 255
  let t0 := mm_mul_ps x3_1 x1
  let t1 := mm_mul_ps x5 x1
  let t2 := mm_mul_ps x5 x2
  let t3 := mm_mul_ps x6 x1
  let t4 := mm_mul_ps x6 x2
  let t5 := mm_mul_ps x6 x4
  let t0_1 := glmm_fnmadd x2 x0_1 t0
  let t1_1 := glmm_fnmadd x4 x0_1 t1
  let t2_1 := glmm_fnmadd x4 x3_1 t2
  let t3_1 := glmm_fnmadd x7 x0_1 t3
  let t4_1 := glmm_fnmadd x7 x3_1 t4
  let t5_1 := glmm_fnmadd x7 x5 t5
  let x4_1 := mm_movelh_ps r0 r1
  let x5_1 := mm_movehl_ps r1 r0
  let x0_2 := mm_permute_ps x4_1 2
  let x1_1 := mm_permute_ps x4_1 87
  let x2_1 := mm_permute_ps x5_1 2
  let x3_2 := mm_permute_ps x5_1 87
  let v2 := mm_mul_ps x0_2 t1_1
  let v1 := mm_mul_ps x0_2 t0_1
  let v3 := mm_mul_ps x0_2 t2_1
  let v0 := mm_mul_ps x1_1 t0_1
  let v2_1 := glmm_fnmadd x1_1 t3_1 v2
  let v3_1 := glmm_fnmadd x1_1 t4_1 v3
  let v0_1 := glmm_fnmadd x2_1 t1_1 v0
  let v1_1 := glmm_fnmadd x2_1 t3_1 v1
  let v3_2 := glmm_fmadd x2_1 t5_1 v3_1
  let v0_2 := glmm_fmadd x3_2 t2_1 v0_1
  let v2_2 := glmm_fmadd x3_2 t5_1 v2_1
  let v1_2 := glmm_fmadd x3_2 t4_1 v1_1
  let v0_3 := mm_xor_ps v0_2 x8
  let v2_3 := mm_xor_ps v2_2 x8
  let v1_3 := mm_xor_ps v1_2 x9
  let v3_3 := mm_xor_ps v3_2 x9
  let x0_3 := mm_shuffle_ps v0_3 v1_3 0
  let x1_2 := mm_shuffle_ps v2_3 v3_3 0
  let x0_4 := mm_shuffle_ps x0_3 x1_2 136
  let x0_5 := mm_rcp_ps (glmm_vhadd (mm_mul_ps x0_4 r0))
  let s := mm_mul_ps v0_3 x0_5
  let s_1 := mm_mul_ps v1_3 x0_5
  let s_2 := mm_mul_ps v2_3 x0_5
  ⟨s, s_1, s_2, mm_mul_ps v3_3 x0_5⟩

/-- `glm_mat4_inv_sse2`: include/cglm/simd/sse2/mat4.h:438-571. -/
@[cglm]
def glm_mat4_inv_sse2 [CSimd α] (mat : M4 α) : M4 α :=
  let s1 := mm_castsi128_ps_sign (mm_set_epi32 2147483648 0 2147483648 0)
  let s2 := mm_permute_ps s1 153
  let r1 := mat.c1
  let r0 := mat.c0
  let r3 := mat.c3
  let r2 := mat.c2
  let x4 := mm_unpackhi_ps r0 r2
  let x5 := mm_unpacklo_ps r0 r2
  let x6 := mm_unpackhi_ps r1 r3
  let x7 := mm_unpacklo_ps r1 r3
  let x0 := mm_unpackhi_ps x7 x5
  let x1 := mm_unpacklo_ps x7 x5
  let x2 := mm_unpackhi_ps x6 x4
  let x3 := mm_unpacklo_ps x6 x4
  let x8 := mm_shuffle_ps x0 x3 221
  let x9 := mm_shuffle_ps x0 x3 136
  let x10 := mm_permute_ps x2 136
  let x11 := mm_permute_ps x2 221
  let x12 := mm_movelh_ps x4 x5
  let x13 := mm_movelh_ps x6 x7
  let t0 := mm_mul_ps x12 x10
  let t1 := mm_mul_ps x5 x6
  let t2 := mm_mul_ps x5 x9
  let t0_1 := glmm_fnmadd x11 x13 t0
  let t1_1 := glmm_fnmadd x4 x7 t1
  let t2_1 := glmm_fnmadd x8 x7 t2
  let v5 := splat4 (lit 1)
  let v0 := mm_permute_ps t2_1 177
  let v1 := mm_permute_ps t1_1 27
  let v0_1 := mm_mul_ps t0_1 v0
  let v1_1 := mm_mul_ps t1_1 v1
  let v2 := mm_permute_ps v1_1 65
  let v3 := mm_permute_ps v0_1 27
  let v1_2 := mm_add_ps v1_1 v2
  let v0_2 := mm_add_ps v0_1 v3
  let v2_1 := mm_permute_ps v0_2 65
  let v0_3 := mm_add_ps v0_2 v2_1
  let v0_4 := mm_sub_ps v0_3 v1_2
  let v0_5 := mm_div_ps v5 v0_4
  let t0_2 := mm_mul_ps t0_1 v0_5
  let t1_2 := mm_mul_ps t1_1 v0_5
  let t2_2 := mm_mul_ps t2_1 v0_5
  let v0_6 := mm_permute_ps t0_2 5
  let v1_3 := mm_permute_ps t0_2 175
  let v2_2 := mm_permute_ps t1_2 5
  let v3_1 := mm_permute_ps t1_2 175
  let v4 := mm_permute_ps t2_2 5
  let v5_1 := mm_permute_ps t2_2 175
  let r0_1 := mm_mul_ps x0 v0_6
  let r1_1 := mm_mul_ps x1 v0_6
  let r2_1 := mm_mul_ps x1 v3_1
  let r3_1 := mm_mul_ps x1 v5_1
  let r0_2 := glmm_fnmadd x3 v3_1 r0_1
  let r1_2 := glmm_fnmadd x3 v1_3 r1_1
  let r2_2 := glmm_fnmadd x0 v1_3 r2_1
  let r3_2 := glmm_fnmadd x0 v2_2 r3_1
  let r0_3 := glmm_fmadd x2 v5_1 r0_2
  let r1_3 := glmm_fmadd x2 v2_2 r1_2
  let r2_3 := glmm_fmadd x2 v4 r2_2
  let r3_3 := glmm_fmadd x3 v4 r3_2
  let r0_4 := mm_xor_ps r0_3 s1
  let r1_4 := mm_xor_ps r1_3 s2
  let r2_4 := mm_xor_ps r2_3 s1
  ⟨r0_4, r1_4, r2_4, mm_xor_ps r3_3 s2⟩

/-- `glm_mat4_scale_avx`: include/cglm/simd/avx/mat4.h:15-30. -/
@[cglm]
def glm_mat4_scale_avx (m : M4 α) (s : α) : M4 α :=
  let y0 := V8.mk m.c0.x m.c0.y m.c0.z m.c0.w m.c1.x m.c1.y m.c1.z m.c1.w
  let y1 := V8.mk m.c2.x m.c2.y m.c2.z m.c2.w m.c3.x m.c3.y m.c3.z m.c3.w
  let y2 := splat8 s
  let y3 := mm256_mul_ps y0 y2
  let y4 := mm256_mul_ps y1 y2
  ⟨⟨y3.e0, y3.e1, y3.e2, y3.e3⟩, ⟨y3.e4, y3.e5, y3.e6, y3.e7⟩, ⟨y4.e0, y4.e1, y4.e2, y4.e3⟩, ⟨y4.e4, y4.e5, y4.e6, y4.e7⟩⟩

/-- `glm_mat4_transp_avx`: include/cglm/simd/avx/mat4.h:33-55. -/
@[cglm]
def glm_mat4_transp_avx (m : M4 α) : M4 α :=
  let y0 := V8.mk m.c0.x m.c0.y m.c0.z m.c0.w m.c1.x m.c1.y m.c1.z m.c1.w
  let y1 := V8.mk m.c2.x m.c2.y m.c2.z m.c2.w m.c3.x m.c3.y m.c3.z m.c3.w
  let y2 := mm256_unpacklo_ps y0 y1
  let y3 := mm256_unpackhi_ps y0 y1
  let y0_1 := mm256_permute2f128_ps y2 y3 32
  let y1_1 := mm256_permute2f128_ps y2 y3 49
  let y2_1 := mm256_unpacklo_ps y0_1 y1_1
  let y3_1 := mm256_unpackhi_ps y0_1 y1_1
  let y0_2 := mm256_permute2f128_ps y2_1 y3_1 32
  let y1_2 := mm256_permute2f128_ps y2_1 y3_1 49
  ⟨⟨y0_2.e0, y0_2.e1, y0_2.e2, y0_2.e3⟩, ⟨y0_2.e4, y0_2.e5, y0_2.e6, y0_2.e7⟩, ⟨y1_2.e0, y1_2.e1, y1_2.e2, y1_2.e3⟩, ⟨y1_2.e4, y1_2.e5, y1_2.e6, y1_2.e7⟩⟩

/-- `glm_mat4_mul_avx`: include/cglm/simd/avx/mat4.h:57-112. -/
@[cglm]
def glm_mat4_mul_avx [CSimd α] (m1 : M4 α) (m2 : M4 α) : M4 α :=
  let y0 := V8.mk m2.c0.x m2.c0.y m2.c0.z m2.c0.w m2.c1.x m2.c1.y m2.c1.z m2.c1.w
  let y1 := V8.mk m2.c2.x m2.c2.y m2.c2.z m2.c2.w m2.c3.x m2.c3.y m2.c3.z m2.c3.w
  let y2 := V8.mk m1.c0.x m1.c0.y m1.c0.z m1.c0.w m1.c1.x m1.c1.y m1.c1.z m1.c1.w
  let y3 := V8.mk m1.c2.x m1.c2.y m1.c2.z m1.c2.w m1.c3.x m1.c3.y m1.c3.z m1.c3.w
  let y4 := mm256_permute2f128_ps y2 y2 3
  let y5 := mm256_permute2f128_ps y3 y3 3
  let yi0 := mm256_set_epi32 1 1 1 1 0 0 0 0
  let yi1 := mm256_set_epi32 3 3 3 3 2 2 2 2
  let yi2 := mm256_set_epi32 0 0 0 0 1 1 1 1
  let yi3 := mm256_set_epi32 2 2 2 2 3 3 3 3
  let y6 := mm256_permutevar_ps y0 yi0
  let y7 := mm256_permutevar_ps y0 yi1
  let y8 := mm256_permutevar_ps y0 yi2
  let y9 := mm256_permutevar_ps y0 yi3
  let y10 := mm256_permutevar_ps y1 yi0
  let y11 := mm256_permutevar_ps y1 yi1
  let y12 := mm256_permutevar_ps y1 yi2
  let y13 := mm256_permutevar_ps y1 yi3
  let y0_1 := mm256_mul_ps y2 y6
  let y1_1 := mm256_mul_ps y2 y10
  let y0_2 := glmm256_fmadd y3 y7 y0_1
  let y1_2 := glmm256_fmadd y3 y11 y1_1
  let y0_3 := glmm256_fmadd y4 y8 y0_2
  let y1_3 := glmm256_fmadd y4 y12 y1_2
  let y0_4 := glmm256_fmadd y5 y9 y0_3
  let y1_4 := glmm256_fmadd y5 y13 y1_3
  ⟨⟨y0_4.e0, y0_4.e1, y0_4.e2, y0_4.e3⟩, ⟨y0_4.e4, y0_4.e5, y0_4.e6, y0_4.e7⟩, ⟨y1_4.e0, y1_4.e1, y1_4.e2, y1_4.e3⟩, ⟨y1_4.e4, y1_4.e5, y1_4.e6, y1_4.e7⟩⟩

/-- `glm_mat4_copy`: include/cglm/mat4.h:127-151. -/
@[cglm]
def glm_mat4_copy (mat : M4 α) : M4 α :=
  let s := V8.mk mat.c0.x mat.c0.y mat.c0.z mat.c0.w mat.c1.x mat.c1.y mat.c1.z mat.c1.w
  let s_1 := V8.mk mat.c2.x mat.c2.y mat.c2.z mat.c2.w mat.c3.x mat.c3.y mat.c3.z mat.c3.w
  ⟨⟨s.e0, s.e1, s.e2, s.e3⟩, ⟨s.e4, s.e5, s.e6, s.e7⟩, ⟨s_1.e0, s_1.e1, s_1.e2, s_1.e3⟩, ⟨s_1.e4, s_1.e5, s_1.e6, s_1.e7⟩⟩

/-- `glm_mat4_identity`: include/cglm/mat4.h:167-172. -/
@[cglm]
def glm_mat4_identity : M4 α :=
  glm_mat4_copy ⟨⟨lit 1, lit 0, lit 0, lit 0⟩, ⟨lit 0, lit 1, lit 0, lit 0⟩, ⟨lit 0, lit 0, lit 1, lit 0⟩, ⟨lit 0, lit 0, lit 0, lit 1⟩⟩

/-- `glm_mat4_zero`: include/cglm/mat4.h:198-231. -/
@[cglm]
def glm_mat4_zero : M4 α :=
  let y0 := splat8 (lit 0)
  ⟨⟨y0.e0, y0.e1, y0.e2, y0.e3⟩, ⟨y0.e4, y0.e5, y0.e6, y0.e7⟩, ⟨y0.e0, y0.e1, y0.e2, y0.e3⟩, ⟨y0.e4, y0.e5, y0.e6, y0.e7⟩⟩

/-- `glm_mat4_mul`: include/cglm/mat4.h:315-354. -/
@[cglm]
def glm_mat4_mul [CSimd α] (m1 : M4 α) (m2 : M4 α) : M4 α :=
  glm_mat4_mul_avx m1 m2

/-- `glm_mat4_mulv`: include/cglm/mat4.h:397-414. -/
@[cglm]
def glm_mat4_mulv [CSimd α] (m : M4 α) (v : V4 α) : V4 α :=
  glm_mat4_mulv_sse2 m v

/-- `glm_mat4_mulv3`: include/cglm/mat4.h:502-509. -/
@[cglm]
def glm_mat4_mulv3 [CSimd α] (m : M4 α) (v : V3 α) (last : α) : V3 α :=
  let res := glm_vec4 v last
  let res_1 := glm_mat4_mulv m res
  glm_vec3 res_1

/-- `glm_mat4_transpose_to`: include/cglm/mat4.h:519-540. -/
@[cglm]
def glm_mat4_transpose_to (m : M4 α) : M4 α :=
  glm_mat4_transp_avx m

/-- `glm_mat4_transpose`: include/cglm/mat4.h:547-563. -/
@[cglm]
def glm_mat4_transpose (m : M4 α) : M4 α :=
  glm_mat4_transp_avx m

/-- `glm_mat4_scale`: include/cglm/mat4.h:590-604. -/
@[cglm]
def glm_mat4_scale (m : M4 α) (s : α) : M4 α :=
  glm_mat4_scale_avx m s

/-- `glm_mat4_det`: include/cglm/mat4.h:613-642. -/
@[cglm]
def glm_mat4_det [CSimd α] (mat : M4 α) : α :=
  glm_mat4_det_sse2 mat

/-- `glm_mat4_inv`: include/cglm/mat4.h:650-692. -/
@[cglm]
def glm_mat4_inv [CSimd α] (mat : M4 α) : M4 α :=
  glm_mat4_inv_sse2 mat

/-- `glm_mat4_inv_fast`: include/cglm/mat4.h:706-716. -/
@[cglm]
def glm_mat4_inv_fast [CEst α] [CSimd α] (mat : M4 α) : M4 α :=
  glm_mat4_inv_fast_sse2 mat

/-- `glm_mat4_rmc`: include/cglm/mat4.h:775-781. -/
@[cglm]
def glm_mat4_rmc [CSimd α] (r : V4 α) (m : M4 α) (c : V4 α) : α :=
  glm_vec4_dot r (glm_mat4_mulv m c)

/-- `glm_mat4_textrans`: include/cglm/mat4.h:813-829. -/
@[cglm]
def glm_mat4_textrans (sx : α) (sy : α) (rot : α) (tx : α) (ty : α) : M4 α :=
  let c := cosf rot
  let s := sinf rot
  let dest_1 := glm_mat4_identity
  ⟨⟨c * sx, (-s) * sy, dest_1.c0.z, dest_1.c0.w⟩, ⟨s * sx, c * sy, dest_1.c1.z, dest_1.c1.w⟩, dest_1.c2, ⟨tx, ty, dest_1.c3.z, dest_1.c3.w⟩⟩

/-- `glm_mat3_mul_sse2`: include/cglm/simd/sse2/mat3.h:15-73. -/
@[cglm]
def glm_mat3_mul_sse2 [CSimd α] (m1 : M3 α) (m2 : M3 α) : M3 α :=
  let l0 := V4.mk m1.c0.x m1.c0.y m1.c0.z m1.c1.x
  let l1 := V4.mk m1.c1.y m1.c1.z m1.c2.x m1.c2.y
  let r0 := V4.mk m2.c0.x m2.c0.y m2.c0.z m2.c1.x
  let r1 := V4.mk m2.c1.y m2.c1.z m2.c2.x m2.c2.y
  let x8 := mm_permute_ps l0 36
  let x1 := mm_permute_ps r0 192
  let x2 := mm_shuffle_ps l0 l1 79
  let x3 := mm_shuffle_ps r0 r1 141
  let x0 := mm_mul_ps x8 x1
  let x6 := mm_permute_ps l0 73
  let x7 := mm_permute_ps x3 245
  let l2 := V4.mk m1.c2.z (lit 0) (lit 0) (lit 0)
  let r2 := V4.mk m2.c2.z (lit 0) (lit 0) (lit 0)
  let x1_1 := mm_mul_ps x6 x7
  let l2_1 := mm_permute_ps l2 4
  let r2_1 := mm_permute_ps r2 4
  let x4 := mm_permute_ps x2 56
  let x5 := mm_permute_ps x2 142
  let x6_1 := mm_permute_ps x3 128
  let x2_1 := mm_permute_ps r1 240
  let x8_1 := mm_unpackhi_ps x8 x4
  let x9 := mm_unpackhi_ps x7 x2_1
  let x0_1 := glmm_fmadd x4 x6_1 x0
  let x1_2 := glmm_fmadd x5 x2_1 x1_1
  let x2_2 := mm_movehl_ps l2_1 l1
  let x3_1 := mm_permute_ps x2_2 36
  let x2_3 := mm_permute_ps x2_2 73
  let x4_1 := mm_shuffle_ps r0 r1 90
  let x5_1 := mm_permute_ps x4_1 192
  let x4_2 := mm_movehl_ps r2_1 x4_1
  let x0_2 := glmm_fmadd x3_1 x5_1 x0_1
  let x1_3 := glmm_fmadd x2_3 x4_2 x1_2
  let x2_4 := mm_movelh_ps x8_1 l2_1
  let x3_2 := mm_movelh_ps x9 r2_1
  ⟨⟨x0_2.x, x0_2.y, x0_2.z⟩, ⟨x0_2.w, x1_3.x, x1_3.y⟩, ⟨x1_3.z, x1_3.w, (glmm_vdots x2_4 x3_2).x⟩⟩

/-- `glm_mat3_mul`: include/cglm/mat3.h:154-180. -/
@[cglm]
def glm_mat3_mul [CSimd α] (m1 : M3 α) (m2 : M3 α) : M3 α :=
  glm_mat3_mul_sse2 m1 m2

/-- `glm_mat2_mul_sse2`: include/cglm/simd/sse2/mat2.h:15-37. -/
@[cglm]
def glm_mat2_mul_sse2 [CSimd α] (m1 : M2 α) (m2 : M2 α) : M2 α :=
  let x1 := V4.mk m1.c0.x m1.c0.y m1.c1.x m1.c1.y
  let x2 := V4.mk m2.c0.x m2.c0.y m2.c1.x m2.c1.y
  let x3 := mm_permute_ps x2 160
  let x4 := mm_permute_ps x2 245
  let x0 := mm_movelh_ps x1 x1
  let x2_1 := mm_movehl_ps x1 x1
  let x0_1 := glmm_fmadd x0 x3 (mm_mul_ps x2_1 x4)
  ⟨⟨x0_1.x, x0_1.y⟩, ⟨x0_1.z, x0_1.w⟩⟩

/-- `glm_mat2_transp_sse2`: include/cglm/simd/sse2/mat2.h:39-45. -/
@[cglm]
def glm_mat2_transp_sse2 (m : M2 α) : M2 α :=
  let s := mm_permute_ps (V4.mk m.c0.x m.c0.y m.c1.x m.c1.y) 216
  ⟨⟨s.x, s.y⟩, ⟨s.z, s.w⟩⟩

/-- `glm_mat2_mul`: include/cglm/mat2.h:152-172. -/
@[cglm]
def glm_mat2_mul [CSimd α] (m1 : M2 α) (m2 : M2 α) : M2 α :=
  glm_mat2_mul_sse2 m1 m2

/-- `glm_mat2_transpose_to`: include/cglm/mat2.h:194-207. -/
@[cglm]
def glm_mat2_transpose_to (mat : M2 α) : M2 α :=
  glm_mat2_transp_sse2 mat

/-- `glm_mat2_scale`: include/cglm/mat2.h:229-245. -/
@[cglm]
def glm_mat2_scale (m : M2 α) (s : α) : M2 α :=
  let s_1 := mm_mul_ps (V4.mk m.c0.x m.c0.y m.c1.x m.c1.y) (splat4 s)
  ⟨⟨s_1.x, s_1.y⟩, ⟨s_1.z, s_1.w⟩⟩

/-- `glm_mul_sse2`: include/cglm/simd/sse2/affine.h:15-51. -/
@[cglm]
def glm_mul_sse2 [CSimd α] (m1 : M4 α) (m2 : M4 α) : M4 α :=
  let l := m1.c0
  let r0 := m2.c0
  let r1 := m2.c1
  let r2 := m2.c2
  let r3 := m2.c3
  let v0 := mm_mul_ps (mm_broadcastss_ps r0) l
  let v1 := mm_mul_ps (mm_broadcastss_ps r1) l
  let v2 := mm_mul_ps (mm_broadcastss_ps r2) l
  let v3 := mm_mul_ps (mm_broadcastss_ps r3) l
  let l_1 := m1.c1
  let v0_1 := glmm_fmadd (mm_permute_ps r0 85) l_1 v0
  let v1_1 := glmm_fmadd (mm_permute_ps r1 85) l_1 v1
  let v2_1 := glmm_fmadd (mm_permute_ps r2 85) l_1 v2
  let v3_1 := glmm_fmadd (mm_permute_ps r3 85) l_1 v3
  let l_2 := m1.c2
  let v0_2 := glmm_fmadd (mm_permute_ps r0 170) l_2 v0_1
  let v1_2 := glmm_fmadd (mm_permute_ps r1 170) l_2 v1_1
  let v2_2 := glmm_fmadd (mm_permute_ps r2 170) l_2 v2_1
  let v3_2 := glmm_fmadd (mm_permute_ps r3 170) l_2 v3_1
  let l_3 := m1.c3
  ⟨v0_2, v1_2, v2_2, glmm_fmadd (mm_permute_ps r3 255) l_3 v3_2⟩

/-- `glm_mul_rot_sse2`: include/cglm/simd/sse2/affine.h:53-83. -/
@[cglm]
def glm_mul_rot_sse2 [CSimd α] (m1 : M4 α) (m2 : M4 α) : M4 α :=
  let l := m1.c0
  let r0 := m2.c0
  let r1 := m2.c1
  let r2 := m2.c2
  let v0 := mm_mul_ps (mm_broadcastss_ps r0) l
  let v1 := mm_mul_ps (mm_broadcastss_ps r1) l
  let v2 := mm_mul_ps (mm_broadcastss_ps r2) l
  let l_1 := m1.c1
  let v0_1 := glmm_fmadd (mm_permute_ps r0 85) l_1 v0
  let v1_1 := glmm_fmadd (mm_permute_ps r1 85) l_1 v1
  let v2_1 := glmm_fmadd (mm_permute_ps r2 85) l_1 v2
  let l_2 := m1.c2
  let v0_2 := glmm_fmadd (mm_permute_ps r0 170) l_2 v0_1
  let v1_2 := glmm_fmadd (mm_permute_ps r1 170) l_2 v1_1
  let v2_2 := glmm_fmadd (mm_permute_ps r2 170) l_2 v2_1
  ⟨v0_2, v1_2, v2_2, m1.c3⟩

/-- `glm_inv_tr_sse2`: include/cglm/simd/sse2/affine.h:85-112. -/
@[cglm]
def glm_inv_tr_sse2 [CSimd α] (mat : M4 α) : M4 α :=
  let r0 := mat.c0
  let r1 := mat.c1
  let r2 := mat.c2
  let r3 := mat.c3
  let x1 := mm_set_ps (lit 1) (lit 0) (lit 0) (lit 0)
  let tr := mm_transpose4_ps r0 r1 r2 x1
  let r0_1 := tr.c0
  let r1_1 := tr.c1
  let r2_1 := tr.c2
  let x1_1 := tr.c3
  let x2 := mm_permute_ps r3 0
  let x3 := mm_permute_ps r3 85
  let x4 := mm_permute_ps r3 170
  let x5 := mm_castsi128_ps_sign (mm_set1_epi32 2147483648)
  let x0 := glmm_fmadd r0_1 x2 (glmm_fmadd r1_1 x3 (mm_mul_ps r2_1 x4))
  let x0_1 := mm_xor_ps x0 x5
  ⟨r0_1, r1_1, r2_1, mm_add_ps x0_1 x1_1⟩

/-- `glm_mul_avx`: include/cglm/simd/avx/affine.h:17-63. -/
@[cglm]
def glm_mul_avx (m1 : M4 α) (m2 : M4 α) : M4 α :=
  let y0 := V8.mk m2.c0.x m2.c0.y m2.c0.z m2.c0.w m2.c1.x m2.c1.y m2.c1.z m2.c1.w
  let y1 := V8.mk m2.c2.x m2.c2.y m2.c2.z m2.c2.w m2.c3.x m2.c3.y m2.c3.z m2.c3.w
  let y2 := V8.mk m1.c0.x m1.c0.y m1.c0.z m1.c0.w m1.c1.x m1.c1.y m1.c1.z m1.c1.w
  let y3 := V8.mk m1.c2.x m1.c2.y m1.c2.z m1.c2.w m1.c3.x m1.c3.y m1.c3.z m1.c3.w
  let y4 := mm256_permute2f128_ps y2 y2 3
  let y5 := mm256_permute2f128_ps y3 y3 3
  let y6 := mm256_permutevar_ps y0 (mm256_set_epi32 1 1 1 1 0 0 0 0)
  let y7 := mm256_permutevar_ps y0 (mm256_set_epi32 3 3 3 3 2 2 2 2)
  let y8 := mm256_permutevar_ps y0 (mm256_set_epi32 0 0 0 0 1 1 1 1)
  let y9 := mm256_permutevar_ps y0 (mm256_set_epi32 2 2 2 2 3 3 3 3)
  let s := mm256_add_ps (mm256_add_ps (mm256_mul_ps y2 y6) (mm256_mul_ps y3 y7)) (mm256_add_ps (mm256_mul_ps y4 y8) (mm256_mul_ps y5 y9))
  let y6_1 := mm256_permutevar_ps y1 (mm256_set_epi32 1 1 1 1 0 0 0 0)
  let y7_1 := mm256_permutevar_ps y1 (mm256_set_epi32 3 3 3 3 2 2 2 2)
  let y8_1 := mm256_permutevar_ps y1 (mm256_set_epi32 0 0 0 0 1 1 1 1)
  let y9_1 := mm256_permutevar_ps y1 (mm256_set_epi32 2 2 2 2 3 3 3 3)
  let s_1 := mm256_add_ps (mm256_add_ps (mm256_mul_ps y2 y6_1) (mm256_mul_ps y3 y7_1)) (mm256_add_ps (mm256_mul_ps y4 y8_1) (mm256_mul_ps y5 y9_1))
  ⟨⟨s.e0, s.e1, s.e2, s.e3⟩, ⟨s.e4, s.e5, s.e6, s.e7⟩, ⟨s_1.e0, s_1.e1, s_1.e2, s_1.e3⟩, ⟨s_1.e4, s_1.e5, s_1.e6, s_1.e7⟩⟩

/-- `glm_mul`: include/cglm/affine-mat.h:54-96. -/
@[cglm]
def glm_mul (m1 : M4 α) (m2 : M4 α) : M4 α :=
  glm_mul_avx m1 m2

/-- `glm_mul_rot`: include/cglm/affine-mat.h:114-153. -/
@[cglm]
def glm_mul_rot [CSimd α] (m1 : M4 α) (m2 : M4 α) : M4 α :=
  glm_mul_rot_sse2 m1 m2

/-- `glm_inv_tr`: include/cglm/affine-mat.h:165-187. -/
@[cglm]
def glm_inv_tr [CSimd α] (mat : M4 α) : M4 α :=
  glm_inv_tr_sse2 mat

/-- `glm_translate_make`: include/cglm/affine.h:50-55. -/
@[cglm]
def glm_translate_make (v : V3 α) : M4 α :=
  let m_1 := glm_mat4_identity
  let m_12 := glm_vec3_copy v
  ⟨m_1.c0, m_1.c1, m_1.c2, ⟨m_12.x, m_12.y, m_12.z, m_1.c3.w⟩⟩

/-- `glm_scale_to`: include/cglm/affine.h:65-73. -/
@[cglm]
def glm_scale_to (m : M4 α) (v : V3 α) : M4 α :=
  let dest_0 := glm_vec4_scale m.c0 v.x
  let dest_4 := glm_vec4_scale m.c1 v.y
  let dest_8 := glm_vec4_scale m.c2 v.z
  ⟨dest_0, dest_4, dest_8, glm_vec4_copy m.c3⟩

/-- `glm_scale_make`: include/cglm/affine.h:81-88. -/
@[cglm]
def glm_scale_make (v : V3 α) : M4 α :=
  let m_1 := glm_mat4_identity
  ⟨⟨v.x, m_1.c0.y, m_1.c0.z, m_1.c0.w⟩, ⟨m_1.c1.x, v.y, m_1.c1.z, m_1.c1.w⟩, ⟨m_1.c2.x, m_1.c2.y, v.z, m_1.c2.w⟩, m_1.c3⟩

/-- `glm_scale`: include/cglm/affine.h:97-101. -/
@[cglm]
def glm_scale (m : M4 α) (v : V3 α) : M4 α :=
  glm_scale_to m v

/-- `glm_scale_uni`: include/cglm/affine.h:110-115. -/
@[cglm]
def glm_scale_uni (m : M4 α) (s : α) : M4 α :=
  glm_scale_to m ⟨s, s, s⟩

/-- `glm_decompose_rs`: include/cglm/affine.h:188-217. -/
@[cglm]
def glm_decompose_rs (m : M4 α) : M4 α × V3 α :=
  let r_0 := glm_vec4_copy m.c0
  let r_4 := glm_vec4_copy m.c1
  let r_8 := glm_vec4_copy m.c2
  let r_12 := glm_vec4_copy ⟨lit 0, lit 0, lit 0, lit 1⟩
  let s_0 := glm_vec3_norm ⟨m.c0.x, m.c0.y, m.c0.z⟩
  let s_1 := glm_vec3_norm ⟨m.c1.x, m.c1.y, m.c1.z⟩
  let s_2 := glm_vec3_norm ⟨m.c2.x, m.c2.y, m.c2.z⟩
  let r_0_1 := glm_vec4_scale r_0 ((lit 1) / s_0)
  let r_4_1 := glm_vec4_scale r_4 ((lit 1) / s_1)
  let r_8_1 := glm_vec4_scale r_8 ((lit 1) / s_2)
  let v := glm_vec3_cross ⟨m.c0.x, m.c0.y, m.c0.z⟩ ⟨m.c1.x, m.c1.y, m.c1.z⟩
  if flt (glm_vec3_dot v ⟨m.c2.x, m.c2.y, m.c2.z⟩) (lit 0) then
    let r_0_2 := glm_vec4_negate r_0_1
    let r_4_2 := glm_vec4_negate r_4_1
    let r_8_2 := glm_vec4_negate r_8_1
    (⟨r_0_2, r_4_2, r_8_2, r_12⟩, glm_vec3_negate ⟨s_0, s_1, s_2⟩)
  else
    (⟨r_0_1, r_4_1, r_8_1, r_12⟩, ⟨s_0, s_1, s_2⟩)

/-- `glm_decompose`: include/cglm/affine.h:228-233. -/
@[cglm]
def glm_decompose (m : M4 α) : V4 α × M4 α × V3 α :=
  let t_1 := glm_vec4_copy m.c3
  let r_1 := glm_decompose_rs m
  (t_1, r_1.1, r_1.2)

/-- `glm_translate`: include/cglm/affine-pre.h:41-61. -/
@[cglm]
def glm_translate [CSimd α] (m : M4 α) (v : V3 α) : M4 α :=
  let m0 := m.c0
  let m1 := m.c1
  let m2 := m.c2
  let m3 := m.c3
  ⟨m.c0, m.c1, m.c2, glmm_fmadd m0 (splat4 v.x) (glmm_fmadd m1 (splat4 v.y) (glmm_fmadd m2 (splat4 v.z) m3))⟩

/-- `glm_translate_to`: include/cglm/affine-pre.h:73-78. -/
@[cglm]
def glm_translate_to [CSimd α] (m : M4 α) (v : V3 α) : M4 α :=
  let dest_1 := glm_mat4_copy m
  glm_translate dest_1 v

/-- `glm_translate_x`: include/cglm/affine-pre.h:86-96. -/
@[cglm]
def glm_translate_x [CSimd α] (m : M4 α) (x : α) : M4 α :=
  ⟨m.c0, m.c1, m.c2, glmm_fmadd m.c0 (splat4 x) m.c3⟩

/-- `glm_translate_y`: include/cglm/affine-pre.h:104-114. -/
@[cglm]
def glm_translate_y [CSimd α] (m : M4 α) (y : α) : M4 α :=
  ⟨m.c0, m.c1, m.c2, glmm_fmadd m.c1 (splat4 y) m.c3⟩

/-- `glm_translate_z`: include/cglm/affine-pre.h:122-132. -/
@[cglm]
def glm_translate_z [CSimd α] (m : M4 α) (z : α) : M4 α :=
  ⟨m.c0, m.c1, m.c2, glmm_fmadd m.c2 (splat4 z) m.c3⟩

/-- `glm_rotate_x`: include/cglm/affine-pre.h:142-157. -/
@[cglm]
def glm_rotate_x [CSimd α] (m : M4 α) (angle : α) : M4 α :=
  let c := cosf angle
  let s := sinf angle
  glm_mul_rot m ⟨⟨lit 1, lit 0, lit 0, lit 0⟩, ⟨lit 0, c, s, lit 0⟩, ⟨lit 0, -s, c, lit 0⟩, ⟨lit 0, lit 0, lit 0, lit 1⟩⟩

/-- `glm_rotate_y`: include/cglm/affine-pre.h:167-182. -/
@[cglm]
def glm_rotate_y [CSimd α] (m : M4 α) (angle : α) : M4 α :=
  let c := cosf angle
  let s := sinf angle
  glm_mul_rot m ⟨⟨c, lit 0, -s, lit 0⟩, ⟨lit 0, lit 1, lit 0, lit 0⟩, ⟨s, lit 0, c, lit 0⟩, ⟨lit 0, lit 0, lit 0, lit 1⟩⟩

/-- `glm_rotate_z`: include/cglm/affine-pre.h:192-207. -/
@[cglm]
def glm_rotate_z [CSimd α] (m : M4 α) (angle : α) : M4 α :=
  let c := cosf angle
  let s := sinf angle
  glm_mul_rot m ⟨⟨c, s, lit 0, lit 0⟩, ⟨-s, c, lit 0, lit 0⟩, ⟨lit 0, lit 0, lit 1, lit 0⟩, ⟨lit 0, lit 0, lit 0, lit 1⟩⟩

/-- `glm_rotate`: include/cglm/affine-pre.h:234-240. -/
@[cglm]
def glm_rotate [CSimd α] (m : M4 α) (angle : α) (axis : V3 α) : M4 α :=
  let rot := glm_rotate_make angle axis
  glm_mul_rot m rot

/-- `glm_rotate_at`: include/cglm/affine-pre.h:251-261. -/
@[cglm]
def glm_rotate_at [CSimd α] (m : M4 α) (pivot : V3 α) (angle : α) (axis : V3 α) : M4 α :=
  let pivotInv := glm_vec3_negate_to pivot
  let m_1 := glm_translate m pivot
  let m_2 := glm_rotate m_1 angle axis
  glm_translate m_2 pivotInv

/-- `glm_rotate_atm`: include/cglm/affine-pre.h:276-286. -/
@[cglm]
def glm_rotate_atm [CSimd α] (pivot : V3 α) (angle : α) (axis : V3 α) : M4 α :=
  let pivotInv := glm_vec3_negate_to pivot
  let m_1 := glm_translate_make pivot
  let m_2 := glm_rotate m_1 angle axis
  glm_translate m_2 pivotInv

/-- `glm_spin`: include/cglm/affine-pre.h:296-302. -/
@[cglm]
def glm_spin [CSimd α] (m : M4 α) (angle : α) (axis : V3 α) : M4 α :=
  let rot := glm_rotate_atm ⟨m.c3.x, m.c3.y, m.c3.z⟩ angle axis
  glm_mat4_mul m rot

/-- `glm_translated_to`: include/cglm/affine-post.h:60-65. -/
@[cglm]
def glm_translated_to (m : M4 α) (v : V3 α) : M4 α :=
  let dest_1 := glm_mat4_copy m
  glm_translated dest_1 v

/-- `glm_rotated_x`: include/cglm/affine-post.h:119-134. -/
@[cglm]
def glm_rotated_x [CSimd α] (m : M4 α) (angle : α) : M4 α :=
  let c := cosf angle
  let s := sinf angle
  glm_mul_rot ⟨⟨lit 1, lit 0, lit 0, lit 0⟩, ⟨lit 0, c, s, lit 0⟩, ⟨lit 0, -s, c, lit 0⟩, ⟨lit 0, lit 0, lit 0, lit 1⟩⟩ m

/-- `glm_rotated_y`: include/cglm/affine-post.h:146-161. -/
@[cglm]
def glm_rotated_y [CSimd α] (m : M4 α) (angle : α) : M4 α :=
  let c := cosf angle
  let s := sinf angle
  glm_mul_rot ⟨⟨c, lit 0, -s, lit 0⟩, ⟨lit 0, lit 1, lit 0, lit 0⟩, ⟨s, lit 0, c, lit 0⟩, ⟨lit 0, lit 0, lit 0, lit 1⟩⟩ m

/-- `glm_rotated_z`: include/cglm/affine-post.h:173-188. -/
@[cglm]
def glm_rotated_z [CSimd α] (m : M4 α) (angle : α) : M4 α :=
  let c := cosf angle
  let s := sinf angle
  glm_mul_rot ⟨⟨c, s, lit 0, lit 0⟩, ⟨-s, c, lit 0, lit 0⟩, ⟨lit 0, lit 0, lit 1, lit 0⟩, ⟨lit 0, lit 0, lit 0, lit 1⟩⟩ m

/-- `glm_rotated`: include/cglm/affine-post.h:199-205. -/
@[cglm]
def glm_rotated [CSimd α] (m : M4 α) (angle : α) (axis : V3 α) : M4 α :=
  let rot := glm_rotate_make angle axis
  glm_mul_rot rot m

/-- `glm_rotated_at`: include/cglm/affine-post.h:218-228. -/
@[cglm]
def glm_rotated_at [CSimd α] (m : M4 α) (pivot : V3 α) (angle : α) (axis : V3 α) : M4 α :=
  let pivotInv := glm_vec3_negate_to pivot
  let m_1 := glm_translated m pivot
  let m_2 := glm_rotated m_1 angle axis
  glm_translated m_2 pivotInv

/-- `glm_spinned`: include/cglm/affine-post.h:239-245. -/
@[cglm]
def glm_spinned [CSimd α] (m : M4 α) (angle : α) (axis : V3 α) : M4 α :=
  let rot := glm_rotate_atm ⟨m.c3.x, m.c3.y, m.c3.z⟩ angle axis
  glm_mat4_mul rot m

/-- `glm_plane_normalize`: include/cglm/plane.h:31-42. -/
@[cglm]
def glm_plane_normalize (plane : V4 α) : V4 α :=
  let norm := glm_vec3_norm ⟨plane.x, plane.y, plane.z⟩
  if flt norm (lit 0.00000011920928955078125) then
    glm_vec4_zero
  else
    glm_vec4_scale plane ((lit 1) / norm)

/-- `glm_ortho_lh_zo`: include/cglm/clipspace/ortho_lh_zo.h:47-68. -/
@[cglm]
def glm_ortho_lh_zo (left : α) (right : α) (bottom : α) (top : α) (nearZ : α) (farZ : α) : M4 α :=
  let dest_1 := glm_mat4_zero
  let rl := (lit 1) / (right - left)
  let tb := (lit 1) / (top - bottom)
  let fn := (-(lit 1)) / (farZ - nearZ)
  ⟨⟨(lit 2) * rl, dest_1.c0.y, dest_1.c0.z, dest_1.c0.w⟩, ⟨dest_1.c1.x, (lit 2) * tb, dest_1.c1.z, dest_1.c1.w⟩, ⟨dest_1.c2.x, dest_1.c2.y, -fn, dest_1.c2.w⟩, ⟨(-(right + left)) * rl, (-(top + bottom)) * tb, nearZ * fn, lit 1⟩⟩

/-- `glm_ortho_aabb_lh_zo`: include/cglm/clipspace/ortho_lh_zo.h:79-86. -/
@[cglm]
def glm_ortho_aabb_lh_zo (box : M2x3 α) : M4 α :=
  glm_ortho_lh_zo box.c0.x box.c1.x box.c0.y box.c1.y (-box.c1.z) (-box.c0.z)

/-- `glm_ortho_aabb_p_lh_zo`: include/cglm/clipspace/ortho_lh_zo.h:98-105. -/
@[cglm]
def glm_ortho_aabb_p_lh_zo (box : M2x3 α) (padding : α) : M4 α :=
  glm_ortho_lh_zo (box.c0.x - padding) (box.c1.x + padding) (box.c0.y - padding) (box.c1.y + padding) (-(box.c1.z + padding)) (-(box.c0.z - padding))

/-- `glm_ortho_aabb_pz_lh_zo`: include/cglm/clipspace/ortho_lh_zo.h:117-124. -/
@[cglm]
def glm_ortho_aabb_pz_lh_zo (box : M2x3 α) (padding : α) : M4 α :=
  glm_ortho_lh_zo box.c0.x box.c1.x box.c0.y box.c1.y (-(box.c1.z + padding)) (-(box.c0.z - padding))

/-- `glm_ortho_default_lh_zo`: include/cglm/clipspace/ortho_lh_zo.h:133-144. -/
@[cglm]
def glm_ortho_default_lh_zo (aspect : α) : M4 α :=
  if fle (lit 1) aspect then
    glm_ortho_lh_zo (-aspect) aspect (-(lit 1)) (lit 1) (-(lit 100)) (lit 100)
  else
    let aspect_1 := (lit 1) / aspect
    glm_ortho_lh_zo (-(lit 1)) (lit 1) (-aspect_1) aspect_1 (-(lit 100)) (lit 100)

/-- `glm_ortho_default_s_lh_zo`: include/cglm/clipspace/ortho_lh_zo.h:154-175. -/
@[cglm]
def glm_ortho_default_s_lh_zo (aspect : α) (size : α) : M4 α :=
  if fle (lit 1) aspect then
    glm_ortho_lh_zo ((-size) * aspect) (size * aspect) (-size) size (-size - (lit 100)) (size + (lit 100))
  else
    glm_ortho_lh_zo (-size) size ((-size) / aspect) (size / aspect) (-size - (lit 100)) (size + (lit 100))

/-- `glm_frustum_lh_zo`: include/cglm/clipspace/persp_lh_zo.h:64-86. -/
@[cglm]
def glm_frustum_lh_zo (left : α) (right : α) (bottom : α) (top : α) (nearZ : α) (farZ : α) : M4 α :=
  let dest_1 := glm_mat4_zero
  let rl := (lit 1) / (right - left)
  let tb := (lit 1) / (top - bottom)
  let fn := (-(lit 1)) / (farZ - nearZ)
  let nv := (lit 2) * nearZ
  ⟨⟨nv * rl, dest_1.c0.y, dest_1.c0.z, dest_1.c0.w⟩, ⟨dest_1.c1.x, nv * tb, dest_1.c1.z, dest_1.c1.w⟩, ⟨(right + left) * rl, (top + bottom) * tb, (-farZ) * fn, lit 1⟩, ⟨dest_1.c3.x, dest_1.c3.y, farZ * nearZ * fn, dest_1.c3.w⟩⟩

/-- `glm_perspective_lh_zo`: include/cglm/clipspace/persp_lh_zo.h:98-117. -/
@[cglm]
def glm_perspective_lh_zo (fovy : α) (aspect : α) (nearZ : α) (farZ : α) : M4 α :=
  let dest_1 := glm_mat4_zero
  let f := (lit 1) / tanf (fovy * (lit 0.5))
  let fn := (lit 1) / (nearZ - farZ)
  ⟨⟨f / aspect, dest_1.c0.y, dest_1.c0.z, dest_1.c0.w⟩, ⟨dest_1.c1.x, f, dest_1.c1.z, dest_1.c1.w⟩, ⟨dest_1.c2.x, dest_1.c2.y, (-farZ) * fn, lit 1⟩, ⟨dest_1.c3.x, dest_1.c3.y, nearZ * farZ * fn, dest_1.c3.w⟩⟩

/-- `glm_perspective_default_lh_zo`: include/cglm/clipspace/persp_lh_zo.h:153-157. -/
@[cglm]
def glm_perspective_default_lh_zo (aspect : α) : M4 α :=
  glm_perspective_lh_zo (lit 0.785398163397448309615660845819875721) aspect (lit 0.01) (lit 100)

/-- `glm_ortho_lh_no`: include/cglm/clipspace/ortho_lh_no.h:48-69. -/
@[cglm]
def glm_ortho_lh_no (left : α) (right : α) (bottom : α) (top : α) (nearZ : α) (farZ : α) : M4 α :=
  let dest_1 := glm_mat4_zero
  let rl := (lit 1) / (right - left)
  let tb := (lit 1) / (top - bottom)
  let fn := (-(lit 1)) / (farZ - nearZ)
  ⟨⟨(lit 2) * rl, dest_1.c0.y, dest_1.c0.z, dest_1.c0.w⟩, ⟨dest_1.c1.x, (lit 2) * tb, dest_1.c1.z, dest_1.c1.w⟩, ⟨dest_1.c2.x, dest_1.c2.y, (-(lit 2)) * fn, dest_1.c2.w⟩, ⟨(-(right + left)) * rl, (-(top + bottom)) * tb, (farZ + nearZ) * fn, lit 1⟩⟩

/-- `glm_ortho_aabb_lh_no`: include/cglm/clipspace/ortho_lh_no.h:81-88. -/
@[cglm]
def glm_ortho_aabb_lh_no (box : M2x3 α) : M4 α :=
  glm_ortho_lh_no box.c0.x box.c1.x box.c0.y box.c1.y (-box.c1.z) (-box.c0.z)

/-- `glm_ortho_aabb_p_lh_no`: include/cglm/clipspace/ortho_lh_no.h:101-108. -/
@[cglm]
def glm_ortho_aabb_p_lh_no (box : M2x3 α) (padding : α) : M4 α :=
  glm_ortho_lh_no (box.c0.x - padding) (box.c1.x + padding) (box.c0.y - padding) (box.c1.y + padding) (-(box.c1.z + padding)) (-(box.c0.z - padding))

/-- `glm_ortho_aabb_pz_lh_no`: include/cglm/clipspace/ortho_lh_no.h:121-128. -/
@[cglm]
def glm_ortho_aabb_pz_lh_no (box : M2x3 α) (padding : α) : M4 α :=
  glm_ortho_lh_no box.c0.x box.c1.x box.c0.y box.c1.y (-(box.c1.z + padding)) (-(box.c0.z - padding))

/-- `glm_ortho_default_lh_no`: include/cglm/clipspace/ortho_lh_no.h:138-149. -/
@[cglm]
def glm_ortho_default_lh_no (aspect : α) : M4 α :=
  if fle (lit 1) aspect then
    glm_ortho_lh_no (-aspect) aspect (-(lit 1)) (lit 1) (-(lit 100)) (lit 100)
  else
    let aspect_1 := (lit 1) / aspect
    glm_ortho_lh_no (-(lit 1)) (lit 1) (-aspect_1) aspect_1 (-(lit 100)) (lit 100)

/-- `glm_ortho_default_s_lh_no`: include/cglm/clipspace/ortho_lh_no.h:160-181. -/
@[cglm]
def glm_ortho_default_s_lh_no (aspect : α) (size : α) : M4 α :=
  if fle (lit 1) aspect then
    glm_ortho_lh_no ((-size) * aspect) (size * aspect) (-size) size (-size - (lit 100)) (size + (lit 100))
  else
    glm_ortho_lh_no (-size) size ((-size) / aspect) (size / aspect) (-size - (lit 100)) (size + (lit 100))

/-- `glm_frustum_lh_no`: include/cglm/clipspace/persp_lh_no.h:65-87. -/
@[cglm]
def glm_frustum_lh_no (left : α) (right : α) (bottom : α) (top : α) (nearZ : α) (farZ : α) : M4 α :=
  let dest_1 := glm_mat4_zero
  let rl := (lit 1) / (right - left)
  let tb := (lit 1) / (top - bottom)
  let fn := (-(lit 1)) / (farZ - nearZ)
  let nv := (lit 2) * nearZ
  ⟨⟨nv * rl, dest_1.c0.y, dest_1.c0.z, dest_1.c0.w⟩, ⟨dest_1.c1.x, nv * tb, dest_1.c1.z, dest_1.c1.w⟩, ⟨(right + left) * rl, (top + bottom) * tb, (-(farZ + nearZ)) * fn, lit 1⟩, ⟨dest_1.c3.x, dest_1.c3.y, farZ * nv * fn, dest_1.c3.w⟩⟩

/-- `glm_perspective_lh_no`: include/cglm/clipspace/persp_lh_no.h:100-120. -/
@[cglm]
def glm_perspective_lh_no (fovy : α) (aspect : α) (nearZ : α) (farZ : α) : M4 α :=
  let dest_1 := glm_mat4_zero
  let f := (lit 1) / tanf (fovy * (lit 0.5))
  let fn := (lit 1) / (nearZ - farZ)
  ⟨⟨f / aspect, dest_1.c0.y, dest_1.c0.z, dest_1.c0.w⟩, ⟨dest_1.c1.x, f, dest_1.c1.z, dest_1.c1.w⟩, ⟨dest_1.c2.x, dest_1.c2.y, (-(nearZ + farZ)) * fn, lit 1⟩, ⟨dest_1.c3.x, dest_1.c3.y, (lit 2) * nearZ * farZ * fn, dest_1.c3.w⟩⟩

/-- `glm_perspective_default_lh_no`: include/cglm/clipspace/persp_lh_no.h:130-134. -/
@[cglm]
def glm_perspective_default_lh_no (aspect : α) : M4 α :=
  glm_perspective_lh_no (lit 0.785398163397448309615660845819875721) aspect (lit 0.01) (lit 100)

/-- `glm_ortho_rh_zo`: include/cglm/clipspace/ortho_rh_zo.h:47-68. -/
@[cglm]
def glm_ortho_rh_zo (left : α) (right : α) (bottom : α) (top : α) (nearZ : α) (farZ : α) : M4 α :=
  let dest_1 := glm_mat4_zero
  let rl := (lit 1) / (right - left)
  let tb := (lit 1) / (top - bottom)
  let fn := (-(lit 1)) / (farZ - nearZ)
  ⟨⟨(lit 2) * rl, dest_1.c0.y, dest_1.c0.z, dest_1.c0.w⟩, ⟨dest_1.c1.x, (lit 2) * tb, dest_1.c1.z, dest_1.c1.w⟩, ⟨dest_1.c2.x, dest_1.c2.y, fn, dest_1.c2.w⟩, ⟨(-(right + left)) * rl, (-(top + bottom)) * tb, nearZ * fn, lit 1⟩⟩

/-- `glm_ortho_aabb_rh_zo`: include/cglm/clipspace/ortho_rh_zo.h:80-87. -/
@[cglm]
def glm_ortho_aabb_rh_zo (box : M2x3 α) : M4 α :=
  glm_ortho_rh_zo box.c0.x box.c1.x box.c0.y box.c1.y (-box.c1.z) (-box.c0.z)

/-- `glm_ortho_aabb_p_rh_zo`: include/cglm/clipspace/ortho_rh_zo.h:100-107. -/
@[cglm]
def glm_ortho_aabb_p_rh_zo (box : M2x3 α) (padding : α) : M4 α :=
  glm_ortho_rh_zo (box.c0.x - padding) (box.c1.x + padding) (box.c0.y - padding) (box.c1.y + padding) (-(box.c1.z + padding)) (-(box.c0.z - padding))

/-- `glm_ortho_aabb_pz_rh_zo`: include/cglm/clipspace/ortho_rh_zo.h:120-127. -/
@[cglm]
def glm_ortho_aabb_pz_rh_zo (box : M2x3 α) (padding : α) : M4 α :=
  glm_ortho_rh_zo box.c0.x box.c1.x box.c0.y box.c1.y (-(box.c1.z + padding)) (-(box.c0.z - padding))

/-- `glm_ortho_default_rh_zo`: include/cglm/clipspace/ortho_rh_zo.h:136-147. -/
@[cglm]
def glm_ortho_default_rh_zo (aspect : α) : M4 α :=
  if fle (lit 1) aspect then
    glm_ortho_rh_zo (-aspect) aspect (-(lit 1)) (lit 1) (-(lit 100)) (lit 100)
  else
    let aspect_1 := (lit 1) / aspect
    glm_ortho_rh_zo (-(lit 1)) (lit 1) (-aspect_1) aspect_1 (-(lit 100)) (lit 100)

/-- `glm_ortho_default_s_rh_zo`: include/cglm/clipspace/ortho_rh_zo.h:158-179. -/
@[cglm]
def glm_ortho_default_s_rh_zo (aspect : α) (size : α) : M4 α :=
  if fle (lit 1) aspect then
    glm_ortho_rh_zo ((-size) * aspect) (size * aspect) (-size) size (-size - (lit 100)) (size + (lit 100))
  else
    glm_ortho_rh_zo (-size) size ((-size) / aspect) (size / aspect) (-size - (lit 100)) (size + (lit 100))

/-- `glm_frustum_rh_zo`: include/cglm/clipspace/persp_rh_zo.h:64-86. -/
@[cglm]
def glm_frustum_rh_zo (left : α) (right : α) (bottom : α) (top : α) (nearZ : α) (farZ : α) : M4 α :=
  let dest_1 := glm_mat4_zero
  let rl := (lit 1) / (right - left)
  let tb := (lit 1) / (top - bottom)
  let fn := (-(lit 1)) / (farZ - nearZ)
  let nv := (lit 2) * nearZ
  ⟨⟨nv * rl, dest_1.c0.y, dest_1.c0.z, dest_1.c0.w⟩, ⟨dest_1.c1.x, nv * tb, dest_1.c1.z, dest_1.c1.w⟩, ⟨(right + left) * rl, (top + bottom) * tb, farZ * fn, -(lit 1)⟩, ⟨dest_1.c3.x, dest_1.c3.y, farZ * nearZ * fn, dest_1.c3.w⟩⟩

/-- `glm_perspective_rh_zo`: include/cglm/clipspace/persp_rh_zo.h:98-117. -/
@[cglm]
def glm_perspective_rh_zo (fovy : α) (aspect : α) (nearZ : α) (farZ : α) : M4 α :=
  let dest_1 := glm_mat4_zero
  let f := (lit 1) / tanf (fovy * (lit 0.5))
  let fn := (lit 1) / (nearZ - farZ)
  ⟨⟨f / aspect, dest_1.c0.y, dest_1.c0.z, dest_1.c0.w⟩, ⟨dest_1.c1.x, f, dest_1.c1.z, dest_1.c1.w⟩, ⟨dest_1.c2.x, dest_1.c2.y, farZ * fn, -(lit 1)⟩, ⟨dest_1.c3.x, dest_1.c3.y, nearZ * farZ * fn, dest_1.c3.w⟩⟩

/-- `glm_perspective_default_rh_zo`: include/cglm/clipspace/persp_rh_zo.h:127-131. -/
@[cglm]
def glm_perspective_default_rh_zo (aspect : α) : M4 α :=
  glm_perspective_rh_zo (lit 0.785398163397448309615660845819875721) aspect (lit 0.01) (lit 100)

/-- `glm_ortho_rh_no`: include/cglm/clipspace/ortho_rh_no.h:48-69. -/
@[cglm]
def glm_ortho_rh_no (left : α) (right : α) (bottom : α) (top : α) (nearZ : α) (farZ : α) : M4 α :=
  let dest_1 := glm_mat4_zero
  let rl := (lit 1) / (right - left)
  let tb := (lit 1) / (top - bottom)
  let fn := (-(lit 1)) / (farZ - nearZ)
  ⟨⟨(lit 2) * rl, dest_1.c0.y, dest_1.c0.z, dest_1.c0.w⟩, ⟨dest_1.c1.x, (lit 2) * tb, dest_1.c1.z, dest_1.c1.w⟩, ⟨dest_1.c2.x, dest_1.c2.y, (lit 2) * fn, dest_1.c2.w⟩, ⟨(-(right + left)) * rl, (-(top + bottom)) * tb, (farZ + nearZ) * fn, lit 1⟩⟩

/-- `glm_ortho_aabb_rh_no`: include/cglm/clipspace/ortho_rh_no.h:81-88. -/
@[cglm]
def glm_ortho_aabb_rh_no (box : M2x3 α) : M4 α :=
  glm_ortho_rh_no box.c0.x box.c1.x box.c0.y box.c1.y (-box.c1.z) (-box.c0.z)

/-- `glm_ortho_aabb_p_rh_no`: include/cglm/clipspace/ortho_rh_no.h:101-108. -/
@[cglm]
def glm_ortho_aabb_p_rh_no (box : M2x3 α) (padding : α) : M4 α :=
  glm_ortho_rh_no (box.c0.x - padding) (box.c1.x + padding) (box.c0.y - padding) (box.c1.y + padding) (-(box.c1.z + padding)) (-(box.c0.z - padding))

/-- `glm_ortho_aabb_pz_rh_no`: include/cglm/clipspace/ortho_rh_no.h:121-128. -/
@[cglm]
def glm_ortho_aabb_pz_rh_no (box : M2x3 α) (padding : α) : M4 α :=
  glm_ortho_rh_no box.c0.x box.c1.x box.c0.y box.c1.y (-(box.c1.z + padding)) (-(box.c0.z - padding))

/-- `glm_ortho_default_rh_no`: include/cglm/clipspace/ortho_rh_no.h:138-149. -/
@[cglm]
def glm_ortho_default_rh_no (aspect : α) : M4 α :=
  if fle (lit 1) aspect then
    glm_ortho_rh_no (-aspect) aspect (-(lit 1)) (lit 1) (-(lit 100)) (lit 100)
  else
    let aspect_1 := (lit 1) / aspect
    glm_ortho_rh_no (-(lit 1)) (lit 1) (-aspect_1) aspect_1 (-(lit 100)) (lit 100)

/-- `glm_ortho_default_s_rh_no`: include/cglm/clipspace/ortho_rh_no.h:160-181. -/
@[cglm]
def glm_ortho_default_s_rh_no (aspect : α) (size : α) : M4 α :=
  if fle (lit 1) aspect then
    glm_ortho_rh_no ((-size) * aspect) (size * aspect) (-size) size (-size - (lit 100)) (size + (lit 100))
  else
    glm_ortho_rh_no (-size) size ((-size) / aspect) (size / aspect) (-size - (lit 100)) (size + (lit 100))

/-- `glm_frustum_rh_no`: include/cglm/clipspace/persp_rh_no.h:65-87. -/
@[cglm]
def glm_frustum_rh_no (left : α) (right : α) (bottom : α) (top : α) (nearZ : α) (farZ : α) : M4 α :=
  let dest_1 := glm_mat4_zero
  let rl := (lit 1) / (right - left)
  let tb := (lit 1) / (top - bottom)
  let fn := (-(lit 1)) / (farZ - nearZ)
  let nv := (lit 2) * nearZ
  ⟨⟨nv * rl, dest_1.c0.y, dest_1.c0.z, dest_1.c0.w⟩, ⟨dest_1.c1.x, nv * tb, dest_1.c1.z, dest_1.c1.w⟩, ⟨(right + left) * rl, (top + bottom) * tb, (farZ + nearZ) * fn, -(lit 1)⟩, ⟨dest_1.c3.x, dest_1.c3.y, farZ * nv * fn, dest_1.c3.w⟩⟩

/-- `glm_perspective_rh_no`: include/cglm/clipspace/persp_rh_no.h:100-120. -/
@[cglm]
def glm_perspective_rh_no (fovy : α) (aspect : α) (nearZ : α) (farZ : α) : M4 α :=
  let dest_1 := glm_mat4_zero
  let f := (lit 1) / tanf (fovy * (lit 0.5))
  let fn := (lit 1) / (nearZ - farZ)
  ⟨⟨f / aspect, dest_1.c0.y, dest_1.c0.z, dest_1.c0.w⟩, ⟨dest_1.c1.x, f, dest_1.c1.z, dest_1.c1.w⟩, ⟨dest_1.c2.x, dest_1.c2.y, (nearZ + farZ) * fn, -(lit 1)⟩, ⟨dest_1.c3.x, dest_1.c3.y, (lit 2) * nearZ * farZ * fn, dest_1.c3.w⟩⟩

/-- `glm_perspective_default_rh_no`: include/cglm/clipspace/persp_rh_no.h:130-134. -/
@[cglm]
def glm_perspective_default_rh_no (aspect : α) : M4 α :=
  glm_perspective_rh_no (lit 0.785398163397448309615660845819875721) aspect (lit 0.01) (lit 100)

/-- `glm_frustum`: include/cglm/cam.h:100-115. -/
@[cglm]
def glm_frustum (left : α) (right : α) (bottom : α) (top : α) (nearZ : α) (farZ : α) : M4 α :=
  glm_frustum_rh_no left right bottom top nearZ farZ

/-- `glm_ortho`: include/cglm/cam.h:128-143. -/
@[cglm]
def glm_ortho (left : α) (right : α) (bottom : α) (top : α) (nearZ : α) (farZ : α) : M4 α :=
  glm_ortho_rh_no left right bottom top nearZ farZ

/-- `glm_ortho_aabb`: include/cglm/cam.h:153-165. -/
@[cglm]
def glm_ortho_aabb (box : M2x3 α) : M4 α :=
  glm_ortho_aabb_rh_no box

/-- `glm_ortho_aabb_p`: include/cglm/cam.h:176-188. -/
@[cglm]
def glm_ortho_aabb_p (box : M2x3 α) (padding : α) : M4 α :=
  glm_ortho_aabb_p_rh_no box padding

/-- `glm_ortho_aabb_pz`: include/cglm/cam.h:199-211. -/
@[cglm]
def glm_ortho_aabb_pz (box : M2x3 α) (padding : α) : M4 α :=
  glm_ortho_aabb_pz_rh_no box padding

/-- `glm_ortho_default`: include/cglm/cam.h:219-231. -/
@[cglm]
def glm_ortho_default (aspect : α) : M4 α :=
  glm_ortho_default_rh_no aspect

/-- `glm_ortho_default_s`: include/cglm/cam.h:240-252. -/
@[cglm]
def glm_ortho_default_s (aspect : α) (size : α) : M4 α :=
  glm_ortho_default_s_rh_no aspect size

/-- `glm_perspective`: include/cglm/cam.h:263-275. -/
@[cglm]
def glm_perspective (fovy : α) (aspect : α) (nearZ : α) (farZ : α) : M4 α :=
  glm_perspective_rh_no fovy aspect nearZ farZ

/-- `glm_perspective_default`: include/cglm/cam.h:306-318. -/
@[cglm]
def glm_perspective_default (aspect : α) : M4 α :=
  glm_perspective_default_rh_no aspect

/-- `glm_frustum_planes`: include/cglm/frustum.h:70-90. -/
@[cglm]
def glm_frustum_planes (m : M4 α) : M6x4 α :=
  let t := glm_mat4_transpose_to m
  let dest_0 := glm_vec4_add t.c3 t.c0
  let dest_4 := glm_vec4_sub t.c3 t.c0
  let dest_8 := glm_vec4_add t.c3 t.c1
  let dest_12 := glm_vec4_sub t.c3 t.c1
  let dest_16 := glm_vec4_add t.c3 t.c2
  let dest_20 := glm_vec4_sub t.c3 t.c2
  let dest_0_1 := glm_plane_normalize dest_0
  let dest_4_1 := glm_plane_normalize dest_4
  let dest_8_1 := glm_plane_normalize dest_8
  let dest_12_1 := glm_plane_normalize dest_12
  let dest_16_1 := glm_plane_normalize dest_16
  ⟨dest_0_1, dest_4_1, dest_8_1, dest_12_1, dest_16_1, glm_plane_normalize dest_20⟩

/-- `glm_frustum_corners`: include/cglm/frustum.h:115-150. -/
@[cglm]
def glm_frustum_corners [CSimd α] (invMat : M4 α) : M8x4 α :=
  let c_0 := glm_mat4_mulv invMat ⟨-(lit 1), -(lit 1), -(lit 1), lit 1⟩
  let c_4 := glm_mat4_mulv invMat ⟨-(lit 1), lit 1, -(lit 1), lit 1⟩
  let c_8 := glm_mat4_mulv invMat ⟨lit 1, lit 1, -(lit 1), lit 1⟩
  let c_12 := glm_mat4_mulv invMat ⟨lit 1, -(lit 1), -(lit 1), lit 1⟩
  let c_16 := glm_mat4_mulv invMat ⟨-(lit 1), -(lit 1), lit 1, lit 1⟩
  let c_20 := glm_mat4_mulv invMat ⟨-(lit 1), lit 1, lit 1, lit 1⟩
  let c_24 := glm_mat4_mulv invMat ⟨lit 1, lit 1, lit 1, lit 1⟩
  let c_28 := glm_mat4_mulv invMat ⟨lit 1, -(lit 1), lit 1, lit 1⟩
  let dest_0 := glm_vec4_scale c_0 ((lit 1) / c_0.w)
  let dest_4 := glm_vec4_scale c_4 ((lit 1) / c_4.w)
  let dest_8 := glm_vec4_scale c_8 ((lit 1) / c_8.w)
  let dest_12 := glm_vec4_scale c_12 ((lit 1) / c_12.w)
  let dest_16 := glm_vec4_scale c_16 ((lit 1) / c_16.w)
  let dest_20 := glm_vec4_scale c_20 ((lit 1) / c_20.w)
  let dest_24 := glm_vec4_scale c_24 ((lit 1) / c_24.w)
  ⟨dest_0, dest_4, dest_8, dest_12, dest_16, dest_20, dest_24, glm_vec4_scale c_28 ((lit 1) / c_28.w)⟩

/-- `glm_frustum_center`: include/cglm/frustum.h:158-174. -/
@[cglm]
def glm_frustum_center (corners : M8x4 α) : V4 α :=
  let center := glm_vec4_copy corners.c0
  let center_1 := glm_vec4_add corners.c1 center
  let center_2 := glm_vec4_add corners.c2 center_1
  let center_3 := glm_vec4_add corners.c3 center_2
  let center_4 := glm_vec4_add corners.c4 center_3
  let center_5 := glm_vec4_add corners.c5 center_4
  let center_6 := glm_vec4_add corners.c6 center_5
  let center_7 := glm_vec4_add corners.c7 center_6
  glm_vec4_scale center_7 (lit 0.125)

/-- `glm_frustum_box`: include/cglm/frustum.h:183-207. -/
@[cglm]
def glm_frustum_box [CSimd α] (corners : M8x4 α) (m : M4 α) : M2x3 α :=
  let min := glm_vec3_broadcast (lit 340282346638528859811704183484516925440)
  let max := glm_vec3_broadcast (-(lit 340282346638528859811704183484516925440))
  let v := glm_mat4_mulv m corners.c0
  let v_1 := glm_mat4_mulv m corners.c1
  let v_2 := glm_mat4_mulv m corners.c2
  let v_3 := glm_mat4_mulv m corners.c3
  let v_4 := glm_mat4_mulv m corners.c4
  let v_5 := glm_mat4_mulv m corners.c5
  let v_6 := glm_mat4_mulv m corners.c6
  let v_7 := glm_mat4_mulv m corners.c7
  let box_0 := glm_vec3_copy ⟨glm_min (glm_min (glm_min (glm_min (glm_min (glm_min (glm_min (glm_min min.x v.x) v_1.x) v_2.x) v_3.x) v_4.x) v_5.x) v_6.x) v_7.x, glm_min (glm_min (glm_min (glm_min (glm_min (glm_min (glm_min (glm_min min.y v.y) v_1.y) v_2.y) v_3.y) v_4.y) v_5.y) v_6.y) v_7.y, glm_min (glm_min (glm_min (glm_min (glm_min (glm_min (glm_min (glm_min min.z v.z) v_1.z) v_2.z) v_3.z) v_4.z) v_5.z) v_6.z) v_7.z⟩
  ⟨box_0, glm_vec3_copy ⟨glm_max (glm_max (glm_max (glm_max (glm_max (glm_max (glm_max (glm_max max.x v.x) v_1.x) v_2.x) v_3.x) v_4.x) v_5.x) v_6.x) v_7.x, glm_max (glm_max (glm_max (glm_max (glm_max (glm_max (glm_max (glm_max max.y v.y) v_1.y) v_2.y) v_3.y) v_4.y) v_5.y) v_6.y) v_7.y, glm_max (glm_max (glm_max (glm_max (glm_max (glm_max (glm_max (glm_max max.z v.z) v_1.z) v_2.z) v_3.z) v_4.z) v_5.z) v_6.z) v_7.z⟩⟩

/-- `glm_frustum_corners_at`: include/cglm/frustum.h:221-253. -/
@[cglm]
def glm_frustum_corners_at (corners : M8x4 α) (splitDist : α) (farDist : α) : M4 α :=
  let dist := glm_vec3_distance ⟨corners.c6.x, corners.c6.y, corners.c6.z⟩ ⟨corners.c2.x, corners.c2.y, corners.c2.z⟩
  let sc := dist * (splitDist / farDist)
  let corner := glm_vec4_sub corners.c4 corners.c0
  let corner_1 := glm_vec4_scale_as corner sc
  let planeCorners_0 := glm_vec4_add corners.c0 corner_1
  let corner_2 := glm_vec4_sub corners.c5 corners.c1
  let corner_3 := glm_vec4_scale_as corner_2 sc
  let planeCorners_4 := glm_vec4_add corners.c1 corner_3
  let corner_4 := glm_vec4_sub corners.c6 corners.c2
  let corner_5 := glm_vec4_scale_as corner_4 sc
  let planeCorners_8 := glm_vec4_add corners.c2 corner_5
  let corner_6 := glm_vec4_sub corners.c7 corners.c3
  let corner_7 := glm_vec4_scale_as corner_6 sc
  ⟨planeCorners_0, planeCorners_4, planeCorners_8, glm_vec4_add corners.c3 corner_7⟩

/-- `glm_quat_mul_sse2`: include/cglm/simd/sse2/quat.h:15-51. -/
@[cglm]
def glm_quat_mul_sse2 [CSimd α] (p : V4 α) (q : V4 α) : V4 α :=
  let xp := p
  let xq := q
  let x1 := mm_castsi128_ps_sign (mm_set_epi32 2147483648 0 2147483648 0)
  let r := mm_mul_ps (mm_permute_ps xp 255) xq
  let x2 := mm_unpackhi_ps x1 x1
  let x3 := mm_permute_ps x1 225
  let x := mm_broadcastss_ps xp
  let y := mm_permute_ps xp 85
  let z := mm_permute_ps xp 170
  let x_1 := mm_xor_ps x x1
  let y_1 := mm_xor_ps y x2
  let z_1 := mm_xor_ps z x3
  let x1_1 := mm_permute_ps xq 27
  let x2_1 := mm_permute_ps xq 78
  let x3_1 := mm_permute_ps xq 177
  let r_1 := glmm_fmadd x_1 x1_1 r
  let r_2 := glmm_fmadd y_1 x2_1 r_1
  glmm_fmadd z_1 x3_1 r_2

/-- `glm_quat_norm`: include/cglm/quat.h:232-236. -/
@[cglm]
def glm_quat_norm (q : V4 α) : α :=
  glm_vec4_norm q

/-- `glm_quat_normalize_to`: include/cglm/quat.h:244-288. -/
@[cglm]
def glm_quat_normalize_to (q : V4 α) : V4 α :=
  let x0 := q
  let xdot := glmm_vdot x0 x0
  let dot := mm_cvtss_f32 xdot
  if fle dot (lit 0) then
    glm_quat_identity
  else
    mm_div_ps x0 (mm_sqrt_ps xdot)

/-- `glm_quat_normalize`: include/cglm/quat.h:295-299. -/
@[cglm]
def glm_quat_normalize (q : V4 α) : V4 α :=
  glm_quat_normalize_to q

/-- `glm_quat_dot`: include/cglm/quat.h:307-311. -/
@[cglm]
def glm_quat_dot (p : V4 α) (q : V4 α) : α :=
  glm_vec4_dot p q

/-- `glm_quat_conjugate`: include/cglm/quat.h:319-324. -/
@[cglm]
def glm_quat_conjugate (q : V4 α) : V4 α :=
  let dest_1 := glm_vec4_negate_to q
  ⟨dest_1.x, dest_1.y, dest_1.z, -dest_1.w⟩

/-- `glm_quat_inv`: include/cglm/quat.h:332-338. -/
@[cglm]
def glm_quat_inv (q : V4 α) : V4 α :=
  let conj := glm_quat_conjugate q
  glm_vec4_scale conj ((lit 1) / glm_vec4_norm2 q)

/-- `glm_quat_add`: include/cglm/quat.h:347-351. -/
@[cglm]
def glm_quat_add (p : V4 α) (q : V4 α) : V4 α :=
  glm_vec4_add p q

/-- `glm_quat_sub`: include/cglm/quat.h:360-364. -/
@[cglm]
def glm_quat_sub (p : V4 α) (q : V4 α) : V4 α :=
  glm_vec4_sub p q

/-- `glm_quat_mul`: include/cglm/quat.h:453-474. -/
@[cglm]
def glm_quat_mul [CSimd α] (p : V4 α) (q : V4 α) : V4 α :=
  glm_quat_mul_sse2 p q

/-- `glm_quat_mat4`: include/cglm/quat.h:482-521. -/
@[cglm]
def glm_quat_mat4 (q : V4 α) : M4 α :=
  let norm := glm_quat_norm q
  let s := if flt (lit 0) norm then (lit 2) / norm else lit 0
  let x := q.x
  let y := q.y
  let z := q.z
  let w := q.w
  let xx := s * x * x
  let xy := s * x * y
  let wx := s * w * x
  let yy := s * y * y
  let yz := s * y * z
  let wy := s * w * y
  let zz := s * z * z
  let xz := s * x * z
  let wz := s * w * z
  ⟨⟨(lit 1) - yy - zz, xy + wz, xz - wy, lit 0⟩, ⟨xy - wz, (lit 1) - xx - zz, yz + wx, lit 0⟩, ⟨xz + wy, yz - wx, (lit 1) - xx - yy, lit 0⟩, ⟨lit 0, lit 0, lit 0, lit 1⟩⟩

/-- `glm_quat_mat4t`: include/cglm/quat.h:529-568. -/
@[cglm]
def glm_quat_mat4t (q : V4 α) : M4 α :=
  let norm := glm_quat_norm q
  let s := if flt (lit 0) norm then (lit 2) / norm else lit 0
  let x := q.x
  let y := q.y
  let z := q.z
  let w := q.w
  let xx := s * x * x
  let xy := s * x * y
  let wx := s * w * x
  let yy := s * y * y
  let yz := s * y * z
  let wy := s * w * y
  let zz := s * z * z
  let xz := s * x * z
  let wz := s * w * z
  ⟨⟨(lit 1) - yy - zz, xy - wz, xz + wy, lit 0⟩, ⟨xy + wz, (lit 1) - xx - zz, yz - wx, lit 0⟩, ⟨xz - wy, yz + wx, (lit 1) - xx - yy, lit 0⟩, ⟨lit 0, lit 0, lit 0, lit 1⟩⟩

/-- `glm_quat_mat3`: include/cglm/quat.h:576-607. -/
@[cglm]
def glm_quat_mat3 (q : V4 α) : M3 α :=
  let norm := glm_quat_norm q
  let s := if flt (lit 0) norm then (lit 2) / norm else lit 0
  let x := q.x
  let y := q.y
  let z := q.z
  let w := q.w
  let xx := s * x * x
  let xy := s * x * y
  let wx := s * w * x
  let yy := s * y * y
  let yz := s * y * z
  let wy := s * w * y
  let zz := s * z * z
  let xz := s * x * z
  let wz := s * w * z
  ⟨⟨(lit 1) - yy - zz, xy + wz, xz - wy⟩, ⟨xy - wz, (lit 1) - xx - zz, yz + wx⟩, ⟨xz + wy, yz - wx, (lit 1) - xx - yy⟩⟩

/-- `glm_quat_mat3t`: include/cglm/quat.h:615-646. -/
@[cglm]
def glm_quat_mat3t (q : V4 α) : M3 α :=
  let norm := glm_quat_norm q
  let s := if flt (lit 0) norm then (lit 2) / norm else lit 0
  let x := q.x
  let y := q.y
  let z := q.z
  let w := q.w
  let xx := s * x * x
  let xy := s * x * y
  let wx := s * w * x
  let yy := s * y * y
  let yz := s * y * z
  let wy := s * w * y
  let zz := s * z * z
  let xz := s * x * z
  let wz := s * w * z
  ⟨⟨(lit 1) - yy - zz, xy - wz, xz + wy⟩, ⟨xy + wz, (lit 1) - xx - zz, yz - wx⟩, ⟨xz - wy, yz + wx, (lit 1) - xx - yy⟩⟩

/-- `glm_quat_lerp`: include/cglm/quat.h:657-661. -/
@[cglm]
def glm_quat_lerp (frm : V4 α) (to : V4 α) (t : α) : V4 α :=
  glm_vec4_lerp frm to t

/-- `glm_quat_lerpc`: include/cglm/quat.h:672-676. -/
@[cglm]
def glm_quat_lerpc (frm : V4 α) (to : V4 α) (t : α) : V4 α :=
  glm_vec4_lerpc frm to t

/-- `glm_quat_nlerp`: include/cglm/quat.h:688-699. -/
@[cglm]
def glm_quat_nlerp (frm : V4 α) (to : V4 α) (t : α) : V4 α :=
  let dot := glm_vec4_dot frm to
  let target := glm_vec4_scale to (if fle (lit 0) dot then lit 1 else -(lit 1))
  let dest_1 := glm_quat_lerp frm target t
  glm_quat_normalize dest_1

/-- `glm_quat_slerp`: include/cglm/quat.h:710-744. -/
@[cglm]
def glm_quat_slerp (frm : V4 α) (to : V4 α) (t : α) : V4 α :=
  let cosTheta := glm_quat_dot frm to
  let q1 := glm_quat_copy frm
  if fle (lit 1) (fabsf cosTheta) then
    glm_quat_copy q1
  else
    if flt cosTheta (lit 0) then
      let q1_1 := glm_vec4_negate q1
      let cosTheta_1 := -cosTheta
      let sinTheta := sqrtf ((lit 1) - cosTheta_1 * cosTheta_1)
      if flt (fabsf sinTheta) (lit 0.001) then
        glm_quat_lerp frm to t
      else
        let angle := acosf cosTheta_1
        let q1_2 := glm_vec4_scale q1_1 (sinf (((lit 1) - t) * angle))
        let q2 := glm_vec4_scale to (sinf (t * angle))
        let q1_3 := glm_vec4_add q1_2 q2
        glm_vec4_scale q1_3 ((lit 1) / sinTheta)
    else
      let sinTheta := sqrtf ((lit 1) - cosTheta * cosTheta)
      if flt (fabsf sinTheta) (lit 0.001) then
        glm_quat_lerp frm to t
      else
        let angle := acosf cosTheta
        let q1_1 := glm_vec4_scale q1 (sinf (((lit 1) - t) * angle))
        let q2 := glm_vec4_scale to (sinf (t * angle))
        let q1_2 := glm_vec4_add q1_1 q2
        glm_vec4_scale q1_2 ((lit 1) / sinTheta)

/-- `glm_quat_slerp_longest`: include/cglm/quat.h:755-790. -/
@[cglm]
def glm_quat_slerp_longest (frm : V4 α) (to : V4 α) (t : α) : V4 α :=
  let cosTheta := glm_quat_dot frm to
  let q1 := glm_quat_copy frm
  if fle (lit 1) (fabsf cosTheta) then
    glm_quat_copy q1
  else
    if !(flt cosTheta (lit 0)) then
      let q1_1 := glm_vec4_negate q1
      let cosTheta_1 := -cosTheta
      let sinTheta := sqrtf ((lit 1) - cosTheta_1 * cosTheta_1)
      if flt (fabsf sinTheta) (lit 0.001) then
        glm_quat_lerp frm to t
      else
        let angle := acosf cosTheta_1
        let q1_2 := glm_vec4_scale q1_1 (sinf (((lit 1) - t) * angle))
        let q2 := glm_vec4_scale to (sinf (t * angle))
        let q1_3 := glm_vec4_add q1_2 q2
        glm_vec4_scale q1_3 ((lit 1) / sinTheta)
    else
      let sinTheta := sqrtf ((lit 1) - cosTheta * cosTheta)
      if flt (fabsf sinTheta) (lit 0.001) then
        glm_quat_lerp frm to t
      else
        let angle := acosf cosTheta
        let q1_1 := glm_vec4_scale q1 (sinf (((lit 1) - t) * angle))
        let q2 := glm_vec4_scale to (sinf (t * angle))
        let q1_2 := glm_vec4_add q1_1 q2
        glm_vec4_scale q1_2 ((lit 1) / sinTheta)

/-- `glm_quat_look`: include/cglm/quat.h:799-808. -/
@[cglm]
def glm_quat_look [CSimd α] (eye : V3 α) (ori : V4 α) : M4 α :=
  let dest_1 := glm_quat_mat4t ori
  let dest_12 := glm_mat4_mulv3 dest_1 eye (lit 1)
  let dest_12_1 := glm_vec3_negate dest_12
  ⟨dest_1.c0, dest_1.c1, dest_1.c2, ⟨dest_12_1.x, dest_12_1.y, dest_12_1.z, dest_1.c3.w⟩⟩

/-- `glm_quat_rotatev`: include/cglm/quat.h:857-876. -/
@[cglm]
def glm_quat_rotatev (q : V4 α) (v : V3 α) : V3 α :=
  let p := glm_quat_normalize_to q
  let u := glm_quat_imag p
  let s := glm_quat_real p
  let v1 := glm_vec3_scale u ((lit 2) * glm_vec3_dot u v)
  let v2 := glm_vec3_scale v (s * s - glm_vec3_dot u u)
  let v1_1 := glm_vec3_add v1 v2
  let v2_1 := glm_vec3_cross u v
  let v2_2 := glm_vec3_scale v2_1 ((lit 2) * s)
  glm_vec3_add v1_1 v2_2

/-- `glm_quat_rotate`: include/cglm/quat.h:885-891. -/
@[cglm]
def glm_quat_rotate [CSimd α] (m : M4 α) (q : V4 α) : M4 α :=
  let rot := glm_quat_mat4 q
  glm_mul_rot m rot

/-- `glm_quat_rotate_at`: include/cglm/quat.h:900-910. -/
@[cglm]
def glm_quat_rotate_at [CSimd α] (m : M4 α) (q : V4 α) (pivot : V3 α) : M4 α :=
  let pivotInv := glm_vec3_negate_to pivot
  let m_1 := glm_translate m pivot
  let m_2 := glm_quat_rotate m_1 q
  glm_translate m_2 pivotInv

/-- `glm_quat_rotate_atm`: include/cglm/quat.h:924-934. -/
@[cglm]
def glm_quat_rotate_atm [CSimd α] (q : V4 α) (pivot : V3 α) : M4 α :=
  let pivotInv := glm_vec3_negate_to pivot
  let m_1 := glm_translate_make pivot
  let m_2 := glm_quat_rotate m_1 q
  glm_translate m_2 pivotInv

/-- `glm_perlin_vec4`: include/cglm/noise.h:296-497. -/
@[cglm]
def glm_perlin_vec4 (point : V4 α) : α :=
  let Pi0 := glm_vec4_floor point
  let Pi1 := glm_vec4_adds Pi0 (lit 1)
  let Pi0_1 := glm_vec4_mods Pi0 (lit 289)
  let Pi1_1 := glm_vec4_mods Pi1 (lit 289)
  let Pf0 := glm_vec4_fract point
  let Pf1 := glm_vec4_subs Pf0 (lit 1)
  let ixy := glm_vec4_add ⟨(Pi0_1.x * (lit 34) + (lit 1)) * Pi0_1.x - floorf ((Pi0_1.x * (lit 34) + (lit 1)) * Pi0_1.x * ((lit 1) / (lit 289))) * (lit 289), (Pi1_1.x * (lit 34) + (lit 1)) * Pi1_1.x - floorf ((Pi1_1.x * (lit 34) + (lit 1)) * Pi1_1.x * ((lit 1) / (lit 289))) * (lit 289), (Pi0_1.x * (lit 34) + (lit 1)) * Pi0_1.x - floorf ((Pi0_1.x * (lit 34) + (lit 1)) * Pi0_1.x * ((lit 1) / (lit 289))) * (lit 289), (Pi1_1.x * (lit 34) + (lit 1)) * Pi1_1.x - floorf ((Pi1_1.x * (lit 34) + (lit 1)) * Pi1_1.x * ((lit 1) / (lit 289))) * (lit 289)⟩ ⟨Pi0_1.y, Pi0_1.y, Pi1_1.y, Pi1_1.y⟩
  let ixy_0_1 := (ixy.x * (lit 34) + (lit 1)) * ixy.x - floorf ((ixy.x * (lit 34) + (lit 1)) * ixy.x * ((lit 1) / (lit 289))) * (lit 289)
  let ixy_1_1 := (ixy.y * (lit 34) + (lit 1)) * ixy.y - floorf ((ixy.y * (lit 34) + (lit 1)) * ixy.y * ((lit 1) / (lit 289))) * (lit 289)
  let ixy_2_1 := (ixy.z * (lit 34) + (lit 1)) * ixy.z - floorf ((ixy.z * (lit 34) + (lit 1)) * ixy.z * ((lit 1) / (lit 289))) * (lit 289)
  let ixy_3_1 := (ixy.w * (lit 34) + (lit 1)) * ixy.w - floorf ((ixy.w * (lit 34) + (lit 1)) * ixy.w * ((lit 1) / (lit 289))) * (lit 289)
  let ixy0 := glm_vec4_add ⟨ixy_0_1, ixy_1_1, ixy_2_1, ixy_3_1⟩ ⟨Pi0_1.z, Pi0_1.z, Pi0_1.z, Pi0_1.z⟩
  let ixy0_0 := (ixy0.x * (lit 34) + (lit 1)) * ixy0.x - floorf ((ixy0.x * (lit 34) + (lit 1)) * ixy0.x * ((lit 1) / (lit 289))) * (lit 289)
  let ixy0_1 := (ixy0.y * (lit 34) + (lit 1)) * ixy0.y - floorf ((ixy0.y * (lit 34) + (lit 1)) * ixy0.y * ((lit 1) / (lit 289))) * (lit 289)
  let ixy0_2 := (ixy0.z * (lit 34) + (lit 1)) * ixy0.z - floorf ((ixy0.z * (lit 34) + (lit 1)) * ixy0.z * ((lit 1) / (lit 289))) * (lit 289)
  let ixy0_3 := (ixy0.w * (lit 34) + (lit 1)) * ixy0.w - floorf ((ixy0.w * (lit 34) + (lit 1)) * ixy0.w * ((lit 1) / (lit 289))) * (lit 289)
  let ixy1 := glm_vec4_add ⟨ixy_0_1, ixy_1_1, ixy_2_1, ixy_3_1⟩ ⟨Pi1_1.z, Pi1_1.z, Pi1_1.z, Pi1_1.z⟩
  let ixy1_0 := (ixy1.x * (lit 34) + (lit 1)) * ixy1.x - floorf ((ixy1.x * (lit 34) + (lit 1)) * ixy1.x * ((lit 1) / (lit 289))) * (lit 289)
  let ixy1_1 := (ixy1.y * (lit 34) + (lit 1)) * ixy1.y - floorf ((ixy1.y * (lit 34) + (lit 1)) * ixy1.y * ((lit 1) / (lit 289))) * (lit 289)
  let ixy1_2 := (ixy1.z * (lit 34) + (lit 1)) * ixy1.z - floorf ((ixy1.z * (lit 34) + (lit 1)) * ixy1.z * ((lit 1) / (lit 289))) * (lit 289)
  let ixy1_3 := (ixy1.w * (lit 34) + (lit 1)) * ixy1.w - floorf ((ixy1.w * (lit 34) + (lit 1)) * ixy1.w * ((lit 1) / (lit 289))) * (lit 289)
  let ixy00 := glm_vec4_add ⟨ixy0_0, ixy0_1, ixy0_2, ixy0_3⟩ ⟨Pi0_1.w, Pi0_1.w, Pi0_1.w, Pi0_1.w⟩
  let ixy01 := glm_vec4_add ⟨ixy0_0, ixy0_1, ixy0_2, ixy0_3⟩ ⟨Pi1_1.w, Pi1_1.w, Pi1_1.w, Pi1_1.w⟩
  let ixy10 := glm_vec4_add ⟨ixy1_0, ixy1_1, ixy1_2, ixy1_3⟩ ⟨Pi0_1.w, Pi0_1.w, Pi0_1.w, Pi0_1.w⟩
  let ixy11 := glm_vec4_add ⟨ixy1_0, ixy1_1, ixy1_2, ixy1_3⟩ ⟨Pi1_1.w, Pi1_1.w, Pi1_1.w, Pi1_1.w⟩
  let gx00 := glm_vec4_divs ⟨(ixy00.x * (lit 34) + (lit 1)) * ixy00.x - floorf ((ixy00.x * (lit 34) + (lit 1)) * ixy00.x * ((lit 1) / (lit 289))) * (lit 289), (ixy00.y * (lit 34) + (lit 1)) * ixy00.y - floorf ((ixy00.y * (lit 34) + (lit 1)) * ixy00.y * ((lit 1) / (lit 289))) * (lit 289), (ixy00.z * (lit 34) + (lit 1)) * ixy00.z - floorf ((ixy00.z * (lit 34) + (lit 1)) * ixy00.z * ((lit 1) / (lit 289))) * (lit 289), (ixy00.w * (lit 34) + (lit 1)) * ixy00.w - floorf ((ixy00.w * (lit 34) + (lit 1)) * ixy00.w * ((lit 1) / (lit 289))) * (lit 289)⟩ (lit 7)
  let gy00 := glm_vec4_floor gx00
  let gy00_1 := glm_vec4_divs gy00 (lit 7)
  let gz00 := glm_vec4_floor gy00_1
  let gz00_1 := glm_vec4_divs gz00 (lit 6)
  let gx00_1 := glm_vec4_fract gx00
  let gx00_2 := glm_vec4_subs gx00_1 (lit 0.5)
  let gy00_2 := glm_vec4_fract gy00_1
  let gy00_3 := glm_vec4_subs gy00_2 (lit 0.5)
  let gz00_2 := glm_vec4_fract gz00_1
  let gz00_3 := glm_vec4_subs gz00_2 (lit 0.5)
  let gxa := glm_vec4_abs gx00_2
  let gya := glm_vec4_abs gy00_3
  let gza := glm_vec4_abs gz00_3
  let gw00 := glm_vec4_fill (lit 0.75)
  let gw00_1 := glm_vec4_sub gw00 gxa
  let gw00_2 := glm_vec4_sub gw00_1 gza
  let gw00_3 := glm_vec4_sub gw00_2 gya
  let sw := glm_vec4_stepr gw00_3 (lit 0)
  let temp := glm_vec4_step ⟨lit 0, lit 0, lit 0, lit 0⟩ gx00_2
  let temp_1 := glm_vec4_subs temp (lit 0.5)
  let temp_2 := glm_vec4_mul sw temp_1
  let gx00_3 := glm_vec4_sub gx00_2 temp_2
  let temp_3 := glm_vec4_zero
  let temp_4 := glm_vec4_step temp_3 gy00_3
  let temp_5 := glm_vec4_subs temp_4 (lit 0.5)
  let temp_6 := glm_vec4_mul sw temp_5
  let gy00_4 := glm_vec4_sub gy00_3 temp_6
  let gx01 := glm_vec4_divs ⟨(ixy01.x * (lit 34) + (lit 1)) * ixy01.x - floorf ((ixy01.x * (lit 34) + (lit 1)) * ixy01.x * ((lit 1) / (lit 289))) * (lit 289), (ixy01.y * (lit 34) + (lit 1)) * ixy01.y - floorf ((ixy01.y * (lit 34) + (lit 1)) * ixy01.y * ((lit 1) / (lit 289))) * (lit 289), (ixy01.z * (lit 34) + (lit 1)) * ixy01.z - floorf ((ixy01.z * (lit 34) + (lit 1)) * ixy01.z * ((lit 1) / (lit 289))) * (lit 289), (ixy01.w * (lit 34) + (lit 1)) * ixy01.w - floorf ((ixy01.w * (lit 34) + (lit 1)) * ixy01.w * ((lit 1) / (lit 289))) * (lit 289)⟩ (lit 7)
  let gy01 := glm_vec4_floor gx01
  let gy01_1 := glm_vec4_divs gy01 (lit 7)
  let gz01 := glm_vec4_floor gy01_1
  let gz01_1 := glm_vec4_divs gz01 (lit 6)
  let gx01_1 := glm_vec4_fract gx01
  let gx01_2 := glm_vec4_subs gx01_1 (lit 0.5)
  let gy01_2 := glm_vec4_fract gy01_1
  let gy01_3 := glm_vec4_subs gy01_2 (lit 0.5)
  let gz01_2 := glm_vec4_fract gz01_1
  let gz01_3 := glm_vec4_subs gz01_2 (lit 0.5)
  let gxa_1 := glm_vec4_abs gx01_2
  let gya_1 := glm_vec4_abs gy01_3
  let gza_1 := glm_vec4_abs gz01_3
  let gw01 := glm_vec4_fill (lit 0.75)
  let gw01_1 := glm_vec4_sub gw01 gxa_1
  let gw01_2 := glm_vec4_sub gw01_1 gza_1
  let gw01_3 := glm_vec4_sub gw01_2 gya_1
  let sw_1 := glm_vec4_stepr gw01_3 (lit 0)
  let temp_7 := glm_vec4_step ⟨lit 0, lit 0, lit 0, lit 0⟩ gx01_2
  let temp_8 := glm_vec4_subs temp_7 (lit 0.5)
  let temp_9 := glm_vec4_mul sw_1 temp_8
  let gx01_3 := glm_vec4_sub gx01_2 temp_9
  let temp_10 := glm_vec4_zero
  let temp_11 := glm_vec4_step temp_10 gy01_3
  let temp_12 := glm_vec4_subs temp_11 (lit 0.5)
  let temp_13 := glm_vec4_mul sw_1 temp_12
  let gy01_4 := glm_vec4_sub gy01_3 temp_13
  let gx10 := glm_vec4_divs ⟨(ixy10.x * (lit 34) + (lit 1)) * ixy10.x - floorf ((ixy10.x * (lit 34) + (lit 1)) * ixy10.x * ((lit 1) / (lit 289))) * (lit 289), (ixy10.y * (lit 34) + (lit 1)) * ixy10.y - floorf ((ixy10.y * (lit 34) + (lit 1)) * ixy10.y * ((lit 1) / (lit 289))) * (lit 289), (ixy10.z * (lit 34) + (lit 1)) * ixy10.z - floorf ((ixy10.z * (lit 34) + (lit 1)) * ixy10.z * ((lit 1) / (lit 289))) * (lit 289), (ixy10.w * (lit 34) + (lit 1)) * ixy10.w - floorf ((ixy10.w * (lit 34) + (lit 1)) * ixy10.w * ((lit 1) / (lit 289))) * (lit 289)⟩ (lit 7)
  let gy10 := glm_vec4_floor gx10
  let gy10_1 := glm_vec4_divs gy10 (lit 7)
  let gz10 := glm_vec4_floor gy10_1
  let gz10_1 := glm_vec4_divs gz10 (lit 6)
  let gx10_1 := glm_vec4_fract gx10
  let gx10_2 := glm_vec4_subs gx10_1 (lit 0.5)
  let gy10_2 := glm_vec4_fract gy10_1
  let gy10_3 := glm_vec4_subs gy10_2 (lit 0.5)
  let gz10_2 := glm_vec4_fract gz10_1
  let gz10_3 := glm_vec4_subs gz10_2 (lit 0.5)
  let gxa_2 := glm_vec4_abs gx10_2
  let gya_2 := glm_vec4_abs gy10_3
  let gza_2 := glm_vec4_abs gz10_3
  let gw10 := glm_vec4_fill (lit 0.75)
  let gw10_1 := glm_vec4_sub gw10 gxa_2
  let gw10_2 := glm_vec4_sub gw10_1 gza_2
  let gw10_3 := glm_vec4_sub gw10_2 gya_2
  let sw_2 := glm_vec4_stepr gw10_3 (lit 0)
  let temp_14 := glm_vec4_step ⟨lit 0, lit 0, lit 0, lit 0⟩ gx10_2
  let temp_15 := glm_vec4_subs temp_14 (lit 0.5)
  let temp_16 := glm_vec4_mul sw_2 temp_15
  let gx10_3 := glm_vec4_sub gx10_2 temp_16
  let temp_17 := glm_vec4_zero
  let temp_18 := glm_vec4_step temp_17 gy10_3
  let temp_19 := glm_vec4_subs temp_18 (lit 0.5)
  let temp_20 := glm_vec4_mul sw_2 temp_19
  let gy10_4 := glm_vec4_sub gy10_3 temp_20
  let gx11 := glm_vec4_divs ⟨(ixy11.x * (lit 34) + (lit 1)) * ixy11.x - floorf ((ixy11.x * (lit 34) + (lit 1)) * ixy11.x * ((lit 1) / (lit 289))) * (lit 289), (ixy11.y * (lit 34) + (lit 1)) * ixy11.y - floorf ((ixy11.y * (lit 34) + (lit 1)) * ixy11.y * ((lit 1) / (lit 289))) * (lit 289), (ixy11.z * (lit 34) + (lit 1)) * ixy11.z - floorf ((ixy11.z * (lit 34) + (lit 1)) * ixy11.z * ((lit 1) / (lit 289))) * (lit 289), (ixy11.w * (lit 34) + (lit 1)) * ixy11.w - floorf ((ixy11.w * (lit 34) + (lit 1)) * ixy11.w * ((lit 1) / (lit 289))) * (lit 289)⟩ (lit 7)
  let gy11 := glm_vec4_floor gx11
  let gy11_1 := glm_vec4_divs gy11 (lit 7)
  let gz11 := glm_vec4_floor gy11_1
  let gz11_1 := glm_vec4_divs gz11 (lit 6)
  let gx11_1 := glm_vec4_fract gx11
  let gx11_2 := glm_vec4_subs gx11_1 (lit 0.5)
  let gy11_2 := glm_vec4_fract gy11_1
  let gy11_3 := glm_vec4_subs gy11_2 (lit 0.5)
  let gz11_2 := glm_vec4_fract gz11_1
  let gz11_3 := glm_vec4_subs gz11_2 (lit 0.5)
  let gxa_3 := glm_vec4_abs gx11_2
  let gya_3 := glm_vec4_abs gy11_3
  let gza_3 := glm_vec4_abs gz11_3
  let gw11 := glm_vec4_fill (lit 0.75)
  let gw11_1 := glm_vec4_sub gw11 gxa_3
  let gw11_2 := glm_vec4_sub gw11_1 gza_3
  let gw11_3 := glm_vec4_sub gw11_2 gya_3
  let sw_3 := glm_vec4_stepr gw11_3 (lit 0)
  let temp_21 := glm_vec4_step ⟨lit 0, lit 0, lit 0, lit 0⟩ gx11_2
  let temp_22 := glm_vec4_subs temp_21 (lit 0.5)
  let temp_23 := glm_vec4_mul sw_3 temp_22
  let gx11_3 := glm_vec4_sub gx11_2 temp_23
  let temp_24 := glm_vec4_zero
  let temp_25 := glm_vec4_step temp_24 gy11_3
  let temp_26 := glm_vec4_subs temp_25 (lit 0.5)
  let temp_27 := glm_vec4_mul sw_3 temp_26
  let gy11_4 := glm_vec4_sub gy11_3 temp_27
  let temp_28 := glm_vec4_scale ⟨glm_vec4_dot ⟨gx00_3.x, gy00_4.x, gz00_3.x, gw00_3.x⟩ ⟨gx00_3.x, gy00_4.x, gz00_3.x, gw00_3.x⟩, glm_vec4_dot ⟨gx00_3.z, gy00_4.z, gz00_3.z, gw00_3.z⟩ ⟨gx00_3.z, gy00_4.z, gz00_3.z, gw00_3.z⟩, glm_vec4_dot ⟨gx00_3.y, gy00_4.y, gz00_3.y, gw00_3.y⟩ ⟨gx00_3.y, gy00_4.y, gz00_3.y, gw00_3.y⟩, glm_vec4_dot ⟨gx00_3.w, gy00_4.w, gz00_3.w, gw00_3.w⟩ ⟨gx00_3.w, gy00_4.w, gz00_3.w, gw00_3.w⟩⟩ (lit 0.85373472095314)
  let norm := glm_vec4_fill (lit 1.79284291400159)
  let norm_4 := glm_vec4_sub norm temp_28
  let g0000 := glm_vec4_scale ⟨gx00_3.x, gy00_4.x, gz00_3.x, gw00_3.x⟩ norm_4.x
  let g0100 := glm_vec4_scale ⟨gx00_3.z, gy00_4.z, gz00_3.z, gw00_3.z⟩ norm_4.y
  let g1000 := glm_vec4_scale ⟨gx00_3.y, gy00_4.y, gz00_3.y, gw00_3.y⟩ norm_4.z
  let g1100 := glm_vec4_scale ⟨gx00_3.w, gy00_4.w, gz00_3.w, gw00_3.w⟩ norm_4.w
  let temp_29 := glm_vec4_scale ⟨glm_vec4_dot ⟨gx01_3.x, gy01_4.x, gz01_3.x, gw01_3.x⟩ ⟨gx01_3.x, gy01_4.x, gz01_3.x, gw01_3.x⟩, glm_vec4_dot ⟨gx01_3.z, gy01_4.z, gz01_3.z, gw01_3.z⟩ ⟨gx01_3.z, gy01_4.z, gz01_3.z, gw01_3.z⟩, glm_vec4_dot ⟨gx01_3.y, gy01_4.y, gz01_3.y, gw01_3.y⟩ ⟨gx01_3.y, gy01_4.y, gz01_3.y, gw01_3.y⟩, glm_vec4_dot ⟨gx01_3.w, gy01_4.w, gz01_3.w, gw01_3.w⟩ ⟨gx01_3.w, gy01_4.w, gz01_3.w, gw01_3.w⟩⟩ (lit 0.85373472095314)
  let norm_5 := glm_vec4_fill (lit 1.79284291400159)
  let norm_6 := glm_vec4_sub norm_5 temp_29
  let g0001 := glm_vec4_scale ⟨gx01_3.x, gy01_4.x, gz01_3.x, gw01_3.x⟩ norm_6.x
  let g0101 := glm_vec4_scale ⟨gx01_3.z, gy01_4.z, gz01_3.z, gw01_3.z⟩ norm_6.y
  let g1001 := glm_vec4_scale ⟨gx01_3.y, gy01_4.y, gz01_3.y, gw01_3.y⟩ norm_6.z
  let g1101 := glm_vec4_scale ⟨gx01_3.w, gy01_4.w, gz01_3.w, gw01_3.w⟩ norm_6.w
  let temp_30 := glm_vec4_scale ⟨glm_vec4_dot ⟨gx10_3.x, gy10_4.x, gz10_3.x, gw10_3.x⟩ ⟨gx10_3.x, gy10_4.x, gz10_3.x, gw10_3.x⟩, glm_vec4_dot ⟨gx10_3.z, gy10_4.z, gz10_3.z, gw10_3.z⟩ ⟨gx10_3.z, gy10_4.z, gz10_3.z, gw10_3.z⟩, glm_vec4_dot ⟨gx10_3.y, gy10_4.y, gz10_3.y, gw10_3.y⟩ ⟨gx10_3.y, gy10_4.y, gz10_3.y, gw10_3.y⟩, glm_vec4_dot ⟨gx10_3.w, gy10_4.w, gz10_3.w, gw10_3.w⟩ ⟨gx10_3.w, gy10_4.w, gz10_3.w, gw10_3.w⟩⟩ (lit 0.85373472095314)
  let norm_7 := glm_vec4_fill (lit 1.79284291400159)
  let norm_8 := glm_vec4_sub norm_7 temp_30
  let g0010 := glm_vec4_scale ⟨gx10_3.x, gy10_4.x, gz10_3.x, gw10_3.x⟩ norm_8.x
  let g0110 := glm_vec4_scale ⟨gx10_3.z, gy10_4.z, gz10_3.z, gw10_3.z⟩ norm_8.y
  let g1010 := glm_vec4_scale ⟨gx10_3.y, gy10_4.y, gz10_3.y, gw10_3.y⟩ norm_8.z
  let g1110 := glm_vec4_scale ⟨gx10_3.w, gy10_4.w, gz10_3.w, gw10_3.w⟩ norm_8.w
  let temp_31 := glm_vec4_scale ⟨glm_vec4_dot ⟨gx11_3.x, gy11_4.x, gz11_3.x, gw11_3.x⟩ ⟨gx11_3.x, gy11_4.x, gz11_3.x, gw11_3.x⟩, glm_vec4_dot ⟨gx11_3.z, gy11_4.z, gz11_3.z, gw11_3.z⟩ ⟨gx11_3.z, gy11_4.z, gz11_3.z, gw11_3.z⟩, glm_vec4_dot ⟨gx11_3.y, gy11_4.y, gz11_3.y, gw11_3.y⟩ ⟨gx11_3.y, gy11_4.y, gz11_3.y, gw11_3.y⟩, glm_vec4_dot ⟨gx11_3.w, gy11_4.w, gz11_3.w, gw11_3.w⟩ ⟨gx11_3.w, gy11_4.w, gz11_3.w, gw11_3.w⟩⟩ (lit 0.85373472095314)
  let norm_9 := glm_vec4_fill (lit 1.79284291400159)
  let norm_10 := glm_vec4_sub norm_9 temp_31
  let g0011 := glm_vec4_scale ⟨gx11_3.x, gy11_4.x, gz11_3.x, gw11_3.x⟩ norm_10.x
  let g0111 := glm_vec4_scale ⟨gx11_3.z, gy11_4.z, gz11_3.z, gw11_3.z⟩ norm_10.y
  let g1011 := glm_vec4_scale ⟨gx11_3.y, gy11_4.y, gz11_3.y, gw11_3.y⟩ norm_10.z
  let g1111 := glm_vec4_scale ⟨gx11_3.w, gy11_4.w, gz11_3.w, gw11_3.w⟩ norm_10.w
  let n0000 := glm_vec4_dot g0000 Pf0
  let n1000 := glm_vec4_dot g1000 ⟨Pf1.x, Pf0.y, Pf0.z, Pf0.w⟩
  let n0100 := glm_vec4_dot g0100 ⟨Pf0.x, Pf1.y, Pf0.z, Pf0.w⟩
  let n1100 := glm_vec4_dot g1100 ⟨Pf1.x, Pf1.y, Pf0.z, Pf0.w⟩
  let n0010 := glm_vec4_dot g0010 ⟨Pf0.x, Pf0.y, Pf1.z, Pf0.w⟩
  let n1010 := glm_vec4_dot g1010 ⟨Pf1.x, Pf0.y, Pf1.z, Pf0.w⟩
  let n0110 := glm_vec4_dot g0110 ⟨Pf0.x, Pf1.y, Pf1.z, Pf0.w⟩
  let n1110 := glm_vec4_dot g1110 ⟨Pf1.x, Pf1.y, Pf1.z, Pf0.w⟩
  let n0001 := glm_vec4_dot g0001 ⟨Pf0.x, Pf0.y, Pf0.z, Pf1.w⟩
  let n1001 := glm_vec4_dot g1001 ⟨Pf1.x, Pf0.y, Pf0.z, Pf1.w⟩
  let n0101 := glm_vec4_dot g0101 ⟨Pf0.x, Pf1.y, Pf0.z, Pf1.w⟩
  let n1101 := glm_vec4_dot g1101 ⟨Pf1.x, Pf1.y, Pf0.z, Pf1.w⟩
  let n0011 := glm_vec4_dot g0011 ⟨Pf0.x, Pf0.y, Pf1.z, Pf1.w⟩
  let n1011 := glm_vec4_dot g1011 ⟨Pf1.x, Pf0.y, Pf1.z, Pf1.w⟩
  let n0111 := glm_vec4_dot g0111 ⟨Pf0.x, Pf1.y, Pf1.z, Pf1.w⟩
  let n1111 := glm_vec4_dot g1111 Pf1
  let temp_32 := glm_vec4_mul Pf0 Pf0
  let temp_33 := glm_vec4_mul temp_32 Pf0
  let fade_xyzw := glm_vec4_scale Pf0 (lit 6)
  let fade_xyzw_1 := glm_vec4_subs fade_xyzw (lit 15)
  let fade_xyzw_2 := glm_vec4_mul Pf0 fade_xyzw_1
  let fade_xyzw_3 := glm_vec4_adds fade_xyzw_2 (lit 10)
  let fade_xyzw_4 := glm_vec4_mul temp_33 fade_xyzw_3
  let n_0w := glm_vec4_lerp ⟨n0000, n1000, n0100, n1100⟩ ⟨n0001, n1001, n0101, n1101⟩ fade_xyzw_4.w
  let n_1w := glm_vec4_lerp ⟨n0010, n1010, n0110, n1110⟩ ⟨n0011, n1011, n0111, n1111⟩ fade_xyzw_4.w
  let n_zw := glm_vec4_lerp n_0w n_1w fade_xyzw_4.z
  let n_yzw := glm_vec2_lerp ⟨n_zw.x, n_zw.y⟩ ⟨n_zw.z, n_zw.w⟩ fade_xyzw_4.y
  glm_lerp n_yzw.x n_yzw.y fade_xyzw_4.x * (lit 2.2)

/-- `glm_perlin_vec3`: include/cglm/noise.h:506-625. -/
@[cglm]
def glm_perlin_vec3 (point : V3 α) : α :=
  let Pi0 := glm_vec3_floor point
  let Pi1 := glm_vec3_adds Pi0 (lit 1)
  let Pi0_1 := glm_vec3_mods Pi0 (lit 289)
  let Pi1_1 := glm_vec3_mods Pi1 (lit 289)
  let Pf0 := glm_vec3_fract point
  let Pf1 := glm_vec3_subs Pf0 (lit 1)
  let ixy := glm_vec4_add ⟨(Pi0_1.x * (lit 34) + (lit 1)) * Pi0_1.x - floorf ((Pi0_1.x * (lit 34) + (lit 1)) * Pi0_1.x * ((lit 1) / (lit 289))) * (lit 289), (Pi1_1.x * (lit 34) + (lit 1)) * Pi1_1.x - floorf ((Pi1_1.x * (lit 34) + (lit 1)) * Pi1_1.x * ((lit 1) / (lit 289))) * (lit 289), (Pi0_1.x * (lit 34) + (lit 1)) * Pi0_1.x - floorf ((Pi0_1.x * (lit 34) + (lit 1)) * Pi0_1.x * ((lit 1) / (lit 289))) * (lit 289), (Pi1_1.x * (lit 34) + (lit 1)) * Pi1_1.x - floorf ((Pi1_1.x * (lit 34) + (lit 1)) * Pi1_1.x * ((lit 1) / (lit 289))) * (lit 289)⟩ ⟨Pi0_1.y, Pi0_1.y, Pi1_1.y, Pi1_1.y⟩
  let ixy_0_1 := (ixy.x * (lit 34) + (lit 1)) * ixy.x - floorf ((ixy.x * (lit 34) + (lit 1)) * ixy.x * ((lit 1) / (lit 289))) * (lit 289)
  let ixy_1_1 := (ixy.y * (lit 34) + (lit 1)) * ixy.y - floorf ((ixy.y * (lit 34) + (lit 1)) * ixy.y * ((lit 1) / (lit 289))) * (lit 289)
  let ixy_2_1 := (ixy.z * (lit 34) + (lit 1)) * ixy.z - floorf ((ixy.z * (lit 34) + (lit 1)) * ixy.z * ((lit 1) / (lit 289))) * (lit 289)
  let ixy_3_1 := (ixy.w * (lit 34) + (lit 1)) * ixy.w - floorf ((ixy.w * (lit 34) + (lit 1)) * ixy.w * ((lit 1) / (lit 289))) * (lit 289)
  let ixy0 := glm_vec4_add ⟨ixy_0_1, ixy_1_1, ixy_2_1, ixy_3_1⟩ ⟨Pi0_1.z, Pi0_1.z, Pi0_1.z, Pi0_1.z⟩
  let ixy1 := glm_vec4_add ⟨ixy_0_1, ixy_1_1, ixy_2_1, ixy_3_1⟩ ⟨Pi1_1.z, Pi1_1.z, Pi1_1.z, Pi1_1.z⟩
  let gx0 := glm_vec4_scale ⟨(ixy0.x * (lit 34) + (lit 1)) * ixy0.x - floorf ((ixy0.x * (lit 34) + (lit 1)) * ixy0.x * ((lit 1) / (lit 289))) * (lit 289), (ixy0.y * (lit 34) + (lit 1)) * ixy0.y - floorf ((ixy0.y * (lit 34) + (lit 1)) * ixy0.y * ((lit 1) / (lit 289))) * (lit 289), (ixy0.z * (lit 34) + (lit 1)) * ixy0.z - floorf ((ixy0.z * (lit 34) + (lit 1)) * ixy0.z * ((lit 1) / (lit 289))) * (lit 289), (ixy0.w * (lit 34) + (lit 1)) * ixy0.w - floorf ((ixy0.w * (lit 34) + (lit 1)) * ixy0.w * ((lit 1) / (lit 289))) * (lit 289)⟩ ((lit 1) / (lit 7))
  let gy0 := glm_vec4_floor gx0
  let gy0_1 := glm_vec4_scale gy0 ((lit 1) / (lit 7))
  let gy0_2 := glm_vec4_fract gy0_1
  let gy0_3 := glm_vec4_subs gy0_2 (lit 0.5)
  let gx0_1 := glm_vec4_fract gx0
  let gxa := glm_vec4_abs gx0_1
  let gya := glm_vec4_abs gy0_3
  let gz0 := glm_vec4_fill (lit 0.5)
  let gz0_1 := glm_vec4_sub gz0 gxa
  let gz0_2 := glm_vec4_sub gz0_1 gya
  let sz := glm_vec4_stepr gz0_2 (lit 0)
  let temp := glm_vec4_step ⟨lit 0, lit 0, lit 0, lit 0⟩ gx0_1
  let temp_1 := glm_vec4_subs temp (lit 0.5)
  let temp_2 := glm_vec4_mul sz temp_1
  let gx0_2 := glm_vec4_sub gx0_1 temp_2
  let temp_3 := glm_vec4_zero
  let temp_4 := glm_vec4_step temp_3 gy0_3
  let temp_5 := glm_vec4_subs temp_4 (lit 0.5)
  let temp_6 := glm_vec4_mul sz temp_5
  let gy0_4 := glm_vec4_sub gy0_3 temp_6
  let gx1 := glm_vec4_scale ⟨(ixy1.x * (lit 34) + (lit 1)) * ixy1.x - floorf ((ixy1.x * (lit 34) + (lit 1)) * ixy1.x * ((lit 1) / (lit 289))) * (lit 289), (ixy1.y * (lit 34) + (lit 1)) * ixy1.y - floorf ((ixy1.y * (lit 34) + (lit 1)) * ixy1.y * ((lit 1) / (lit 289))) * (lit 289), (ixy1.z * (lit 34) + (lit 1)) * ixy1.z - floorf ((ixy1.z * (lit 34) + (lit 1)) * ixy1.z * ((lit 1) / (lit 289))) * (lit 289), (ixy1.w * (lit 34) + (lit 1)) * ixy1.w - floorf ((ixy1.w * (lit 34) + (lit 1)) * ixy1.w * ((lit 1) / (lit 289))) * (lit 289)⟩ ((lit 1) / (lit 7))
  let gy1 := glm_vec4_floor gx1
  let gy1_1 := glm_vec4_scale gy1 ((lit 1) / (lit 7))
  let gy1_2 := glm_vec4_fract gy1_1
  let gy1_3 := glm_vec4_subs gy1_2 (lit 0.5)
  let gx1_1 := glm_vec4_fract gx1
  let gxa_1 := glm_vec4_abs gx1_1
  let gya_1 := glm_vec4_abs gy1_3
  let gz1 := glm_vec4_fill (lit 0.5)
  let gz1_1 := glm_vec4_sub gz1 gxa_1
  let gz1_2 := glm_vec4_sub gz1_1 gya_1
  let sz_1 := glm_vec4_stepr gz1_2 (lit 0)
  let temp_7 := glm_vec4_step ⟨lit 0, lit 0, lit 0, lit 0⟩ gx1_1
  let temp_8 := glm_vec4_subs temp_7 (lit 0.5)
  let temp_9 := glm_vec4_mul sz_1 temp_8
  let gx1_2 := glm_vec4_sub gx1_1 temp_9
  let temp_10 := glm_vec4_zero
  let temp_11 := glm_vec4_step temp_10 gy1_3
  let temp_12 := glm_vec4_subs temp_11 (lit 0.5)
  let temp_13 := glm_vec4_mul sz_1 temp_12
  let gy1_4 := glm_vec4_sub gy1_3 temp_13
  let temp_14 := glm_vec4_scale ⟨glm_vec3_dot ⟨gx0_2.x, gy0_4.x, gz0_2.x⟩ ⟨gx0_2.x, gy0_4.x, gz0_2.x⟩, glm_vec3_dot ⟨gx0_2.z, gy0_4.z, gz0_2.z⟩ ⟨gx0_2.z, gy0_4.z, gz0_2.z⟩, glm_vec3_dot ⟨gx0_2.y, gy0_4.y, gz0_2.y⟩ ⟨gx0_2.y, gy0_4.y, gz0_2.y⟩, glm_vec3_dot ⟨gx0_2.w, gy0_4.w, gz0_2.w⟩ ⟨gx0_2.w, gy0_4.w, gz0_2.w⟩⟩ (lit 0.85373472095314)
  let norm := glm_vec4_fill (lit 1.79284291400159)
  let norm_4 := glm_vec4_sub norm temp_14
  let g000 := glm_vec3_scale ⟨gx0_2.x, gy0_4.x, gz0_2.x⟩ norm_4.x
  let g010 := glm_vec3_scale ⟨gx0_2.z, gy0_4.z, gz0_2.z⟩ norm_4.y
  let g100 := glm_vec3_scale ⟨gx0_2.y, gy0_4.y, gz0_2.y⟩ norm_4.z
  let g110 := glm_vec3_scale ⟨gx0_2.w, gy0_4.w, gz0_2.w⟩ norm_4.w
  let temp_15 := glm_vec4_scale ⟨glm_vec3_dot ⟨gx1_2.x, gy1_4.x, gz1_2.x⟩ ⟨gx1_2.x, gy1_4.x, gz1_2.x⟩, glm_vec3_dot ⟨gx1_2.z, gy1_4.z, gz1_2.z⟩ ⟨gx1_2.z, gy1_4.z, gz1_2.z⟩, glm_vec3_dot ⟨gx1_2.y, gy1_4.y, gz1_2.y⟩ ⟨gx1_2.y, gy1_4.y, gz1_2.y⟩, glm_vec3_dot ⟨gx1_2.w, gy1_4.w, gz1_2.w⟩ ⟨gx1_2.w, gy1_4.w, gz1_2.w⟩⟩ (lit 0.85373472095314)
  let norm_5 := glm_vec4_fill (lit 1.79284291400159)
  let norm_6 := glm_vec4_sub norm_5 temp_15
  let g001 := glm_vec3_scale ⟨gx1_2.x, gy1_4.x, gz1_2.x⟩ norm_6.x
  let g011 := glm_vec3_scale ⟨gx1_2.z, gy1_4.z, gz1_2.z⟩ norm_6.y
  let g101 := glm_vec3_scale ⟨gx1_2.y, gy1_4.y, gz1_2.y⟩ norm_6.z
  let g111 := glm_vec3_scale ⟨gx1_2.w, gy1_4.w, gz1_2.w⟩ norm_6.w
  let n000 := glm_vec3_dot g000 Pf0
  let n100 := glm_vec3_dot g100 ⟨Pf1.x, Pf0.y, Pf0.z⟩
  let n010 := glm_vec3_dot g010 ⟨Pf0.x, Pf1.y, Pf0.z⟩
  let n110 := glm_vec3_dot g110 ⟨Pf1.x, Pf1.y, Pf0.z⟩
  let n001 := glm_vec3_dot g001 ⟨Pf0.x, Pf0.y, Pf1.z⟩
  let n101 := glm_vec3_dot g101 ⟨Pf1.x, Pf0.y, Pf1.z⟩
  let n011 := glm_vec3_dot g011 ⟨Pf0.x, Pf1.y, Pf1.z⟩
  let n111 := glm_vec3_dot g111 Pf1
  let temp_16 := glm_vec3_mul Pf0 Pf0
  let temp_17 := glm_vec3_mul temp_16 Pf0
  let fade_xyz := glm_vec3_scale Pf0 (lit 6)
  let fade_xyz_1 := glm_vec3_subs fade_xyz (lit 15)
  let fade_xyz_2 := glm_vec3_mul Pf0 fade_xyz_1
  let fade_xyz_3 := glm_vec3_adds fade_xyz_2 (lit 10)
  let fade_xyz_4 := glm_vec3_mul temp_17 fade_xyz_3
  let n_z := glm_vec4_lerp ⟨n000, n100, n010, n110⟩ ⟨n001, n101, n011, n111⟩ fade_xyz_4.z
  let n_yz := glm_vec2_lerp ⟨n_z.x, n_z.y⟩ ⟨n_z.z, n_z.w⟩ fade_xyz_4.y
  glm_lerp n_yz.x n_yz.y fade_xyz_4.x * (lit 2.2)

/-- `glm_perlin_vec2`: include/cglm/noise.h:633-717. -/
@[cglm]
def glm_perlin_vec2 (point : V2 α) : α :=
  let Pi := glm_vec4_floor ⟨point.x, point.y, point.x, point.y⟩
  let Pf := glm_vec4_fract ⟨point.x, point.y, point.x, point.y⟩
  let Pf_2 := Pf.z - (lit 1)
  let Pf_3 := Pf.w - (lit 1)
  let Pi_1 := glm_vec4_mods ⟨Pi.x, Pi.y, Pi.z + (lit 1), Pi.w + (lit 1)⟩ (lit 289)
  let i := glm_vec4_add ⟨(Pi_1.x * (lit 34) + (lit 1)) * Pi_1.x - floorf ((Pi_1.x * (lit 34) + (lit 1)) * Pi_1.x * ((lit 1) / (lit 289))) * (lit 289), (Pi_1.z * (lit 34) + (lit 1)) * Pi_1.z - floorf ((Pi_1.z * (lit 34) + (lit 1)) * Pi_1.z * ((lit 1) / (lit 289))) * (lit 289), (Pi_1.x * (lit 34) + (lit 1)) * Pi_1.x - floorf ((Pi_1.x * (lit 34) + (lit 1)) * Pi_1.x * ((lit 1) / (lit 289))) * (lit 289), (Pi_1.z * (lit 34) + (lit 1)) * Pi_1.z - floorf ((Pi_1.z * (lit 34) + (lit 1)) * Pi_1.z * ((lit 1) / (lit 289))) * (lit 289)⟩ ⟨Pi_1.y, Pi_1.y, Pi_1.w, Pi_1.w⟩
  let gx := glm_vec4_divs ⟨(i.x * (lit 34) + (lit 1)) * i.x - floorf ((i.x * (lit 34) + (lit 1)) * i.x * ((lit 1) / (lit 289))) * (lit 289), (i.y * (lit 34) + (lit 1)) * i.y - floorf ((i.y * (lit 34) + (lit 1)) * i.y * ((lit 1) / (lit 289))) * (lit 289), (i.z * (lit 34) + (lit 1)) * i.z - floorf ((i.z * (lit 34) + (lit 1)) * i.z * ((lit 1) / (lit 289))) * (lit 289), (i.w * (lit 34) + (lit 1)) * i.w - floorf ((i.w * (lit 34) + (lit 1)) * i.w * ((lit 1) / (lit 289))) * (lit 289)⟩ (lit 41)
  let gx_1 := glm_vec4_fract gx
  let gx_2 := glm_vec4_scale gx_1 (lit 2)
  let gx_3 := glm_vec4_subs gx_2 (lit 1)
  let gy := glm_vec4_abs gx_3
  let gy_1 := glm_vec4_subs gy (lit 0.5)
  let tx := glm_vec4_adds gx_3 (lit 0.5)
  let tx_1 := glm_vec4_floor tx
  let gx_4 := glm_vec4_sub gx_3 tx_1
  let temp := glm_vec4_scale ⟨glm_vec2_dot ⟨gx_4.x, gy_1.x⟩ ⟨gx_4.x, gy_1.x⟩, glm_vec2_dot ⟨gx_4.z, gy_1.z⟩ ⟨gx_4.z, gy_1.z⟩, glm_vec2_dot ⟨gx_4.y, gy_1.y⟩ ⟨gx_4.y, gy_1.y⟩, glm_vec2_dot ⟨gx_4.w, gy_1.w⟩ ⟨gx_4.w, gy_1.w⟩⟩ (lit 0.85373472095314)
  let norm := glm_vec4_fill (lit 1.79284291400159)
  let norm_4 := glm_vec4_sub norm temp
  let g00 := glm_vec2_scale ⟨gx_4.x, gy_1.x⟩ norm_4.x
  let g01 := glm_vec2_scale ⟨gx_4.z, gy_1.z⟩ norm_4.y
  let g10 := glm_vec2_scale ⟨gx_4.y, gy_1.y⟩ norm_4.z
  let g11 := glm_vec2_scale ⟨gx_4.w, gy_1.w⟩ norm_4.w
  let n00 := glm_vec2_dot g00 ⟨Pf.x, Pf.y⟩
  let n10 := glm_vec2_dot g10 ⟨Pf_2, Pf.y⟩
  let n01 := glm_vec2_dot g01 ⟨Pf.x, Pf_3⟩
  let n11 := glm_vec2_dot g11 ⟨Pf_2, Pf_3⟩
  let temp_1 := glm_vec2_mul ⟨Pf.x, Pf.y⟩ ⟨Pf.x, Pf.y⟩
  let temp_2 := glm_vec2_mul temp_1 ⟨Pf.x, Pf.y⟩
  let fade_xy := glm_vec2_scale ⟨Pf.x, Pf.y⟩ (lit 6)
  let fade_xy_1 := glm_vec2_subs fade_xy (lit 15)
  let fade_xy_2 := glm_vec2_mul ⟨Pf.x, Pf.y⟩ fade_xy_1
  let fade_xy_3 := glm_vec2_adds fade_xy_2 (lit 10)
  let fade_xy_4 := glm_vec2_mul temp_2 fade_xy_3
  let n_x := glm_vec2_lerp ⟨n00, n01⟩ ⟨n10, n11⟩ fade_xy_4.x
  glm_lerp n_x.x n_x.y fade_xy_4.y * (lit 2.3)

/-- `glm_unprojecti_zo`: include/cglm/clipspace/project_zo.h:42-55. -/
@[cglm]
def glm_unprojecti_zo [CSimd α] (pos : V3 α) (invMat : M4 α) (vp : V4 α) : V3 α :=
  let v := glm_mat4_mulv invMat ⟨(lit 2) * (pos.x - vp.x) / vp.z - (lit 1), (lit 2) * (pos.y - vp.y) / vp.w - (lit 1), pos.z, lit 1⟩
  let v_2 := glm_vec4_scale v ((lit 1) / v.w)
  glm_vec3 v_2

/-- `glm_project_zo`: include/cglm/clipspace/project_zo.h:69-86. -/
@[cglm]
def glm_project_zo [CSimd α] (pos : V3 α) (m : M4 α) (vp : V4 α) : V3 α :=
  let pos4 := glm_vec4 pos (lit 1)
  let pos4_1 := glm_mat4_mulv m pos4
  let pos4_2 := glm_vec4_scale pos4_1 ((lit 1) / pos4_1.w)
  let pos4_3 := glm_vec4_scale pos4_2 (lit 0.5)
  let pos4_4 := glm_vec4_adds pos4_3 (lit 0.5)
  ⟨pos4_4.x * vp.z + vp.x, pos4_4.y * vp.w + vp.y, pos4_2.z⟩

/-- `glm_unprojecti_no`: include/cglm/clipspace/project_no.h:42-55. -/
@[cglm]
def glm_unprojecti_no [CSimd α] (pos : V3 α) (invMat : M4 α) (vp : V4 α) : V3 α :=
  let v := glm_mat4_mulv invMat ⟨(lit 2) * (pos.x - vp.x) / vp.z - (lit 1), (lit 2) * (pos.y - vp.y) / vp.w - (lit 1), (lit 2) * pos.z - (lit 1), lit 1⟩
  let v_3 := glm_vec4_scale v ((lit 1) / v.w)
  glm_vec3 v_3

/-- `glm_project_no`: include/cglm/clipspace/project_no.h:69-84. -/
@[cglm]
def glm_project_no [CSimd α] (pos : V3 α) (m : M4 α) (vp : V4 α) : V3 α :=
  let pos4 := glm_vec4 pos (lit 1)
  let pos4_1 := glm_mat4_mulv m pos4
  let pos4_2 := glm_vec4_scale pos4_1 ((lit 1) / pos4_1.w)
  let pos4_3 := glm_vec4_scale pos4_2 (lit 0.5)
  let pos4_4 := glm_vec4_adds pos4_3 (lit 0.5)
  ⟨pos4_4.x * vp.z + vp.x, pos4_4.y * vp.w + vp.y, pos4_4.z⟩

/-- `glm_unprojecti`: include/cglm/project.h:53-61. -/
@[cglm]
def glm_unprojecti [CSimd α] (pos : V3 α) (invMat : M4 α) (vp : V4 α) : V3 α :=
  glm_unprojecti_no pos invMat vp

/-- `glm_unproject`: include/cglm/project.h:87-93. -/
@[cglm]
def glm_unproject [CSimd α] (pos : V3 α) (m : M4 α) (vp : V4 α) : V3 α :=
  let inv := glm_mat4_inv m
  glm_unprojecti pos inv vp

/-- `glm_project`: include/cglm/project.h:107-115. -/
@[cglm]
def glm_project [CSimd α] (pos : V3 α) (m : M4 α) (vp : V4 α) : V3 α :=
  glm_project_no pos m vp

/-- `glm_pickmatrix`: include/cglm/project.h:147-170. -/
@[cglm]
def glm_pickmatrix (center : V2 α) (size : V2 α) (vp : V4 α) (dest : M4 α) : M4 α :=
  if fle size.x (lit 0) || fle size.y (lit 0) then
    dest
  else
    let res := glm_translate_make ⟨(vp.z - (lit 2) * (center.x - vp.x)) / size.x, (vp.w - (lit 2) * (center.y - vp.y)) / size.y, lit 0⟩
    let res_1 := glm_scale res ⟨vp.z / size.x, vp.w / size.y, lit 1⟩
    glm_mat4_copy res_1

/-- `glm_sphere_transform`: include/cglm/sphere.h:41-46. -/
@[cglm]
def glm_sphere_transform [CSimd α] (s : V4 α) (m : M4 α) : V4 α :=
  let dest_0 := glm_mat4_mulv3 m ⟨s.x, s.y, s.z⟩ (lit 1)
  ⟨dest_0.x, dest_0.y, dest_0.z, s.w⟩

/-- `glm_smc`: include/cglm/curve.h:32-38. -/
@[cglm]
def glm_smc [CSimd α] (s : α) (m : M4 α) (c : V4 α) : α :=
  glm_mat4_rmc (glm_vec4_cubic s) m c

/-- `glm_quat_from_vecs`: include/cglm/quat.h:203-225. -/
@[cglm]
def glm_quat_from_vecs (a : V3 α) (b : V3 α) : V4 α :=
  let cos_theta := glm_vec3_dot a b
  if fle ((lit 1) - (lit 0.00001)) cos_theta then
    glm_quat_identity
  else
    if flt cos_theta (-(lit 1) + (lit 0.00001)) then
      let axis := glm_vec3_ortho a
      let dest_1 := glm_quat_init axis.x axis.y axis.z (lit 0)
      glm_quat_normalize dest_1
    else
      let axis := glm_vec3_cross a b
      let cos_half_theta := (lit 1) + cos_theta
      let dest_1 := glm_quat_init axis.x axis.y axis.z cos_half_theta
      glm_quat_normalize dest_1

end Cglm.Fma
