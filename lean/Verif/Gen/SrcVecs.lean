/- Generated by tools/gen.py, joined by tools/merge.py; do not edit by hand. -/
import Verif.Base
import Verif.Attr
import Verif.Gen.Vec2
import Verif.Gen.Vec2Ext
import Verif.Gen.Vec3
import Verif.Gen.Vec3Ext
import Verif.Gen.Vec4
import Verif.Gen.Vec4Ext

section SrcVec2

/- Generated from src/vec2.c by tools/gen.py (value semantics); do not edit by hand. -/

set_option linter.unusedVariables false
set_option linter.unusedSectionVars false

namespace Cglm

variable {α : Type} [Add α] [Sub α] [Mul α] [Div α] [Neg α] [CFloat α]

/-- `glmc_vec2`: src/vec2.c:11-15. -/
@[cglm]
def glmc_vec2 (v : V2 α) : V2 α :=
  glm_vec2 v

/-- `glmc_vec2_fill`: src/vec2.c:17-21. -/
@[cglm]
def glmc_vec2_fill (val : α) : V2 α :=
  glm_vec2_fill val

/-- `glmc_vec2_eq`: src/vec2.c:23-27. -/
@[cglm]
def glmc_vec2_eq (v : V2 α) (val : α) : Bool :=
  glm_vec2_eq v val

/-- `glmc_vec2_eqv`: src/vec2.c:29-33. -/
@[cglm]
def glmc_vec2_eqv (a : V2 α) (b : V2 α) : Bool :=
  glm_vec2_eqv a b

/-- `glmc_vec2_copy`: src/vec2.c:35-39. -/
@[cglm]
def glmc_vec2_copy (a : V2 α) : V2 α :=
  glm_vec2_copy a

/-- `glmc_vec2_zero`: src/vec2.c:41-45. -/
@[cglm]
def glmc_vec2_zero : V2 α :=
  glm_vec2_zero

/-- `glmc_vec2_one`: src/vec2.c:47-51. -/
@[cglm]
def glmc_vec2_one : V2 α :=
  glm_vec2_one

/-- `glmc_vec2_dot`: src/vec2.c:53-57. -/
@[cglm]
def glmc_vec2_dot (a : V2 α) (b : V2 α) : α :=
  glm_vec2_dot a b

/-- `glmc_vec2_cross`: src/vec2.c:59-63. -/
@[cglm]
def glmc_vec2_cross (a : V2 α) (b : V2 α) : α :=
  glm_vec2_cross a b

/-- `glmc_vec2_norm2`: src/vec2.c:65-69. -/
@[cglm]
def glmc_vec2_norm2 (v : V2 α) : α :=
  glm_vec2_norm2 v

/-- `glmc_vec2_norm`: src/vec2.c:71-75. -/
@[cglm]
def glmc_vec2_norm (v : V2 α) : α :=
  glm_vec2_norm v

/-- `glmc_vec2_add`: src/vec2.c:77-81. -/
@[cglm]
def glmc_vec2_add (a : V2 α) (b : V2 α) : V2 α :=
  glm_vec2_add a b

/-- `glmc_vec2_adds`: src/vec2.c:83-87. -/
@[cglm]
def glmc_vec2_adds (v : V2 α) (s : α) : V2 α :=
  glm_vec2_adds v s

/-- `glmc_vec2_sub`: src/vec2.c:89-93. -/
@[cglm]
def glmc_vec2_sub (a : V2 α) (b : V2 α) : V2 α :=
  glm_vec2_sub a b

/-- `glmc_vec2_subs`: src/vec2.c:95-99. -/
@[cglm]
def glmc_vec2_subs (v : V2 α) (s : α) : V2 α :=
  glm_vec2_subs v s

/-- `glmc_vec2_mul`: src/vec2.c:101-105. -/
@[cglm]
def glmc_vec2_mul (a : V2 α) (b : V2 α) : V2 α :=
  glm_vec2_mul a b

/-- `glmc_vec2_scale`: src/vec2.c:107-111. -/
@[cglm]
def glmc_vec2_scale (v : V2 α) (s : α) : V2 α :=
  glm_vec2_scale v s

/-- `glmc_vec2_scale_as`: src/vec2.c:113-117. -/
@[cglm]
def glmc_vec2_scale_as (v : V2 α) (s : α) : V2 α :=
  glm_vec2_scale_as v s

/-- `glmc_vec2_div`: src/vec2.c:119-123. -/
@[cglm]
def glmc_vec2_div (a : V2 α) (b : V2 α) : V2 α :=
  glm_vec2_div a b

/-- `glmc_vec2_divs`: src/vec2.c:125-129. -/
@[cglm]
def glmc_vec2_divs (v : V2 α) (s : α) : V2 α :=
  glm_vec2_divs v s

/-- `glmc_vec2_addadd`: src/vec2.c:131-135. -/
@[cglm]
def glmc_vec2_addadd (a : V2 α) (b : V2 α) (dest : V2 α) : V2 α :=
  glm_vec2_addadd a b dest

/-- `glmc_vec2_subadd`: src/vec2.c:137-141. -/
@[cglm]
def glmc_vec2_subadd (a : V2 α) (b : V2 α) (dest : V2 α) : V2 α :=
  glm_vec2_subadd a b dest

/-- `glmc_vec2_muladd`: src/vec2.c:143-147. -/
@[cglm]
def glmc_vec2_muladd (a : V2 α) (b : V2 α) (dest : V2 α) : V2 α :=
  glm_vec2_muladd a b dest

/-- `glmc_vec2_muladds`: src/vec2.c:149-153. -/
@[cglm]
def glmc_vec2_muladds (a : V2 α) (s : α) (dest : V2 α) : V2 α :=
  glm_vec2_muladds a s dest

/-- `glmc_vec2_maxadd`: src/vec2.c:155-159. -/
@[cglm]
def glmc_vec2_maxadd (a : V2 α) (b : V2 α) (dest : V2 α) : V2 α :=
  glm_vec2_maxadd a b dest

/-- `glmc_vec2_minadd`: src/vec2.c:161-165. -/
@[cglm]
def glmc_vec2_minadd (a : V2 α) (b : V2 α) (dest : V2 α) : V2 α :=
  glm_vec2_minadd a b dest

/-- `glmc_vec2_subsub`: src/vec2.c:167-171. -/
@[cglm]
def glmc_vec2_subsub (a : V2 α) (b : V2 α) (dest : V2 α) : V2 α :=
  glm_vec2_subsub a b dest

/-- `glmc_vec2_addsub`: src/vec2.c:173-177. -/
@[cglm]
def glmc_vec2_addsub (a : V2 α) (b : V2 α) (dest : V2 α) : V2 α :=
  glm_vec2_addsub a b dest

/-- `glmc_vec2_mulsub`: src/vec2.c:179-183. -/
@[cglm]
def glmc_vec2_mulsub (a : V2 α) (b : V2 α) (dest : V2 α) : V2 α :=
  glm_vec2_mulsub a b dest

/-- `glmc_vec2_mulsubs`: src/vec2.c:185-189. -/
@[cglm]
def glmc_vec2_mulsubs (a : V2 α) (s : α) (dest : V2 α) : V2 α :=
  glm_vec2_mulsubs a s dest

/-- `glmc_vec2_maxsub`: src/vec2.c:191-195. -/
@[cglm]
def glmc_vec2_maxsub (a : V2 α) (b : V2 α) (dest : V2 α) : V2 α :=
  glm_vec2_maxsub a b dest

/-- `glmc_vec2_minsub`: src/vec2.c:197-201. -/
@[cglm]
def glmc_vec2_minsub (a : V2 α) (b : V2 α) (dest : V2 α) : V2 α :=
  glm_vec2_minsub a b dest

/-- `glmc_vec2_negate_to`: src/vec2.c:204-208. -/
@[cglm]
def glmc_vec2_negate_to (v : V2 α) : V2 α :=
  glm_vec2_negate_to v

/-- `glmc_vec2_negate`: src/vec2.c:210-214. -/
@[cglm]
def glmc_vec2_negate (v : V2 α) : V2 α :=
  glm_vec2_negate v

/-- `glmc_vec2_normalize`: src/vec2.c:216-220. -/
@[cglm]
def glmc_vec2_normalize (v : V2 α) : V2 α :=
  glm_vec2_normalize v

/-- `glmc_vec2_normalize_to`: src/vec2.c:222-226. -/
@[cglm]
def glmc_vec2_normalize_to (v : V2 α) : V2 α :=
  glm_vec2_normalize_to v

/-- `glmc_vec2_rotate`: src/vec2.c:228-232. -/
@[cglm]
def glmc_vec2_rotate (v : V2 α) (angle : α) : V2 α :=
  glm_vec2_rotate v angle

/-- `glmc_vec2_center`: src/vec2.c:234-238. -/
@[cglm]
def glmc_vec2_center (a : V2 α) (b : V2 α) : V2 α :=
  glm_vec2_center a b

/-- `glmc_vec2_distance2`: src/vec2.c:240-244. -/
@[cglm]
def glmc_vec2_distance2 (a : V2 α) (b : V2 α) : α :=
  glm_vec2_distance2 a b

/-- `glmc_vec2_distance`: src/vec2.c:246-250. -/
@[cglm]
def glmc_vec2_distance (a : V2 α) (b : V2 α) : α :=
  glm_vec2_distance a b

/-- `glmc_vec2_maxv`: src/vec2.c:252-256. -/
@[cglm]
def glmc_vec2_maxv (a : V2 α) (b : V2 α) : V2 α :=
  glm_vec2_maxv a b

/-- `glmc_vec2_minv`: src/vec2.c:258-262. -/
@[cglm]
def glmc_vec2_minv (a : V2 α) (b : V2 α) : V2 α :=
  glm_vec2_minv a b

/-- `glmc_vec2_clamp`: src/vec2.c:264-268. -/
@[cglm]
def glmc_vec2_clamp (v : V2 α) (minval : α) (maxval : α) : V2 α :=
  glm_vec2_clamp v minval maxval

/-- `glmc_vec2_abs`: src/vec2.c:270-274. -/
@[cglm]
def glmc_vec2_abs (v : V2 α) : V2 α :=
  glm_vec2_abs v

/-- `glmc_vec2_fract`: src/vec2.c:276-280. -/
@[cglm]
def glmc_vec2_fract (v : V2 α) : V2 α :=
  glm_vec2_fract v

/-- `glmc_vec2_floor`: src/vec2.c:282-286. -/
@[cglm]
def glmc_vec2_floor (v : V2 α) : V2 α :=
  glm_vec2_floor v

/-- `glmc_vec2_mods`: src/vec2.c:288-292. -/
@[cglm]
def glmc_vec2_mods (v : V2 α) (s : α) : V2 α :=
  glm_vec2_mods v s

/-- `glmc_vec2_step`: src/vec2.c:294-298. -/
@[cglm]
def glmc_vec2_step (edge : V2 α) (v : V2 α) : V2 α :=
  glm_vec2_step edge v

/-- `glmc_vec2_steps`: src/vec2.c:300-304. -/
@[cglm]
def glmc_vec2_steps (edge : α) (v : V2 α) : V2 α :=
  glm_vec2_steps edge v

/-- `glmc_vec2_stepr`: src/vec2.c:306-310. -/
@[cglm]
def glmc_vec2_stepr (edge : V2 α) (v : α) : V2 α :=
  glm_vec2_stepr edge v

/-- `glmc_vec2_lerp`: src/vec2.c:318-322. -/
@[cglm]
def glmc_vec2_lerp (frm : V2 α) (to : V2 α) (t : α) : V2 α :=
  glm_vec2_lerp frm to t

/-- `glmc_vec2_complex_mul`: src/vec2.c:324-328. -/
@[cglm]
def glmc_vec2_complex_mul (a : V2 α) (b : V2 α) : V2 α :=
  glm_vec2_complex_mul a b

/-- `glmc_vec2_complex_div`: src/vec2.c:330-334. -/
@[cglm]
def glmc_vec2_complex_div (a : V2 α) (b : V2 α) : V2 α :=
  glm_vec2_complex_div a b

/-- `glmc_vec2_complex_conjugate`: src/vec2.c:336-340. -/
@[cglm]
def glmc_vec2_complex_conjugate (a : V2 α) : V2 α :=
  glm_vec2_complex_conjugate a

/-- `glmc_vec2_make`: src/vec2.c:342-346. -/
@[cglm]
def glmc_vec2_make (src : V2 α) : V2 α :=
  glm_vec2_make src

/-- `glmc_vec2_reflect`: src/vec2.c:348-352. -/
@[cglm]
def glmc_vec2_reflect (v : V2 α) (n : V2 α) : V2 α :=
  glm_vec2_reflect v n

/-- `glmc_vec2_refract`: src/vec2.c:354-358. -/
@[cglm]
def glmc_vec2_refract (v : V2 α) (n : V2 α) (eta : α) : Bool × V2 α :=
  let r := glm_vec2_refract v n eta
  (r.1, r.2)

end Cglm

end SrcVec2

section SrcVec3

/- Generated from src/vec3.c by tools/gen.py (value semantics); do not edit by hand. -/

set_option linter.unusedVariables false
set_option linter.unusedSectionVars false

namespace Cglm

variable {α : Type} [Add α] [Sub α] [Mul α] [Div α] [Neg α] [CFloat α]

/-- `glmc_vec3`: src/vec3.c:11-15. -/
@[cglm]
def glmc_vec3 (v4 : V4 α) : V3 α :=
  glm_vec3 v4

/-- `glmc_vec3_copy`: src/vec3.c:17-21. -/
@[cglm]
def glmc_vec3_copy (a : V3 α) : V3 α :=
  glm_vec3_copy a

/-- `glmc_vec3_zero`: src/vec3.c:23-27. -/
@[cglm]
def glmc_vec3_zero : V3 α :=
  glm_vec3_zero

/-- `glmc_vec3_one`: src/vec3.c:29-33. -/
@[cglm]
def glmc_vec3_one : V3 α :=
  glm_vec3_one

/-- `glmc_vec3_dot`: src/vec3.c:35-39. -/
@[cglm]
def glmc_vec3_dot (a : V3 α) (b : V3 α) : α :=
  glm_vec3_dot a b

/-- `glmc_vec3_cross`: src/vec3.c:41-45. -/
@[cglm]
def glmc_vec3_cross (a : V3 α) (b : V3 α) : V3 α :=
  glm_vec3_cross a b

/-- `glmc_vec3_crossn`: src/vec3.c:47-51. -/
@[cglm]
def glmc_vec3_crossn (a : V3 α) (b : V3 α) : V3 α :=
  glm_vec3_crossn a b

/-- `glmc_vec3_norm`: src/vec3.c:53-57. -/
@[cglm]
def glmc_vec3_norm (v : V3 α) : α :=
  glm_vec3_norm v

/-- `glmc_vec3_normalize_to`: src/vec3.c:59-63. -/
@[cglm]
def glmc_vec3_normalize_to (v : V3 α) : V3 α :=
  glm_vec3_normalize_to v

/-- `glmc_vec3_normalize`: src/vec3.c:65-69. -/
@[cglm]
def glmc_vec3_normalize (v : V3 α) : V3 α :=
  glm_vec3_normalize v

/-- `glmc_vec3_norm2`: src/vec3.c:71-75. -/
@[cglm]
def glmc_vec3_norm2 (v : V3 α) : α :=
  glm_vec3_norm2 v

/-- `glmc_vec3_norm_one`: src/vec3.c:77-81. -/
@[cglm]
def glmc_vec3_norm_one (v : V3 α) : α :=
  glm_vec3_norm_one v

/-- `glmc_vec3_norm_inf`: src/vec3.c:83-87. -/
@[cglm]
def glmc_vec3_norm_inf (v : V3 α) : α :=
  glm_vec3_norm_inf v

/-- `glmc_vec3_add`: src/vec3.c:89-93. -/
@[cglm]
def glmc_vec3_add (a : V3 α) (b : V3 α) : V3 α :=
  glm_vec3_add a b

/-- `glmc_vec3_adds`: src/vec3.c:95-99. -/
@[cglm]
def glmc_vec3_adds (v : V3 α) (s : α) : V3 α :=
  glm_vec3_adds v s

/-- `glmc_vec3_sub`: src/vec3.c:101-105. -/
@[cglm]
def glmc_vec3_sub (a : V3 α) (b : V3 α) : V3 α :=
  glm_vec3_sub a b

/-- `glmc_vec3_subs`: src/vec3.c:107-111. -/
@[cglm]
def glmc_vec3_subs (v : V3 α) (s : α) : V3 α :=
  glm_vec3_subs v s

/-- `glmc_vec3_mul`: src/vec3.c:113-117. -/
@[cglm]
def glmc_vec3_mul (a : V3 α) (b : V3 α) : V3 α :=
  glm_vec3_mul a b

/-- `glmc_vec3_scale`: src/vec3.c:119-123. -/
@[cglm]
def glmc_vec3_scale (v : V3 α) (s : α) : V3 α :=
  glm_vec3_scale v s

/-- `glmc_vec3_scale_as`: src/vec3.c:125-129. -/
@[cglm]
def glmc_vec3_scale_as (v : V3 α) (s : α) : V3 α :=
  glm_vec3_scale_as v s

/-- `glmc_vec3_div`: src/vec3.c:131-135. -/
@[cglm]
def glmc_vec3_div (a : V3 α) (b : V3 α) : V3 α :=
  glm_vec3_div a b

/-- `glmc_vec3_divs`: src/vec3.c:137-141. -/
@[cglm]
def glmc_vec3_divs (a : V3 α) (s : α) : V3 α :=
  glm_vec3_divs a s

/-- `glmc_vec3_addadd`: src/vec3.c:143-147. -/
@[cglm]
def glmc_vec3_addadd (a : V3 α) (b : V3 α) (dest : V3 α) : V3 α :=
  glm_vec3_addadd a b dest

/-- `glmc_vec3_subadd`: src/vec3.c:149-153. -/
@[cglm]
def glmc_vec3_subadd (a : V3 α) (b : V3 α) (dest : V3 α) : V3 α :=
  glm_vec3_subadd a b dest

/-- `glmc_vec3_muladd`: src/vec3.c:155-159. -/
@[cglm]
def glmc_vec3_muladd (a : V3 α) (b : V3 α) (dest : V3 α) : V3 α :=
  glm_vec3_muladd a b dest

/-- `glmc_vec3_muladds`: src/vec3.c:161-165. -/
@[cglm]
def glmc_vec3_muladds (a : V3 α) (s : α) (dest : V3 α) : V3 α :=
  glm_vec3_muladds a s dest

/-- `glmc_vec3_maxadd`: src/vec3.c:167-171. -/
@[cglm]
def glmc_vec3_maxadd (a : V3 α) (b : V3 α) (dest : V3 α) : V3 α :=
  glm_vec3_maxadd a b dest

/-- `glmc_vec3_minadd`: src/vec3.c:173-177. -/
@[cglm]
def glmc_vec3_minadd (a : V3 α) (b : V3 α) (dest : V3 α) : V3 α :=
  glm_vec3_minadd a b dest

/-- `glmc_vec3_subsub`: src/vec3.c:179-183. -/
@[cglm]
def glmc_vec3_subsub (a : V3 α) (b : V3 α) (dest : V3 α) : V3 α :=
  glm_vec3_subsub a b dest

/-- `glmc_vec3_addsub`: src/vec3.c:185-189. -/
@[cglm]
def glmc_vec3_addsub (a : V3 α) (b : V3 α) (dest : V3 α) : V3 α :=
  glm_vec3_addsub a b dest

/-- `glmc_vec3_mulsub`: src/vec3.c:191-195. -/
@[cglm]
def glmc_vec3_mulsub (a : V3 α) (b : V3 α) (dest : V3 α) : V3 α :=
  glm_vec3_mulsub a b dest

/-- `glmc_vec3_mulsubs`: src/vec3.c:197-201. -/
@[cglm]
def glmc_vec3_mulsubs (a : V3 α) (s : α) (dest : V3 α) : V3 α :=
  glm_vec3_mulsubs a s dest

/-- `glmc_vec3_maxsub`: src/vec3.c:203-207. -/
@[cglm]
def glmc_vec3_maxsub (a : V3 α) (b : V3 α) (dest : V3 α) : V3 α :=
  glm_vec3_maxsub a b dest

/-- `glmc_vec3_minsub`: src/vec3.c:209-213. -/
@[cglm]
def glmc_vec3_minsub (a : V3 α) (b : V3 α) (dest : V3 α) : V3 α :=
  glm_vec3_minsub a b dest

/-- `glmc_vec3_negate`: src/vec3.c:215-219. -/
@[cglm]
def glmc_vec3_negate (v : V3 α) : V3 α :=
  glm_vec3_negate v

/-- `glmc_vec3_negate_to`: src/vec3.c:221-225. -/
@[cglm]
def glmc_vec3_negate_to (v : V3 α) : V3 α :=
  glm_vec3_negate_to v

/-- `glmc_vec3_angle`: src/vec3.c:227-231. -/
@[cglm]
def glmc_vec3_angle (a : V3 α) (b : V3 α) : α :=
  glm_vec3_angle a b

/-- `glmc_vec3_rotate`: src/vec3.c:233-237. -/
@[cglm]
def glmc_vec3_rotate (v : V3 α) (angle : α) (axis : V3 α) : V3 α :=
  glm_vec3_rotate v angle axis

/-- `glmc_vec3_rotate_m4`: src/vec3.c:239-243. -/
@[cglm]
def glmc_vec3_rotate_m4 (m : M4 α) (v : V3 α) : V3 α :=
  glm_vec3_rotate_m4 m v

/-- `glmc_vec3_rotate_m3`: src/vec3.c:245-249. -/
@[cglm]
def glmc_vec3_rotate_m3 (m : M3 α) (v : V3 α) : V3 α :=
  glm_vec3_rotate_m3 m v

/-- `glmc_vec3_proj`: src/vec3.c:251-255. -/
@[cglm]
def glmc_vec3_proj (a : V3 α) (b : V3 α) : V3 α :=
  glm_vec3_proj a b

/-- `glmc_vec3_center`: src/vec3.c:257-261. -/
@[cglm]
def glmc_vec3_center (a : V3 α) (b : V3 α) : V3 α :=
  glm_vec3_center a b

/-- `glmc_vec3_distance`: src/vec3.c:263-267. -/
@[cglm]
def glmc_vec3_distance (a : V3 α) (b : V3 α) : α :=
  glm_vec3_distance a b

/-- `glmc_vec3_distance2`: src/vec3.c:269-273. -/
@[cglm]
def glmc_vec3_distance2 (a : V3 α) (b : V3 α) : α :=
  glm_vec3_distance2 a b

/-- `glmc_vec3_maxv`: src/vec3.c:275-279. -/
@[cglm]
def glmc_vec3_maxv (a : V3 α) (b : V3 α) : V3 α :=
  glm_vec3_maxv a b

/-- `glmc_vec3_minv`: src/vec3.c:281-285. -/
@[cglm]
def glmc_vec3_minv (a : V3 α) (b : V3 α) : V3 α :=
  glm_vec3_minv a b

/-- `glmc_vec3_clamp`: src/vec3.c:287-291. -/
@[cglm]
def glmc_vec3_clamp (v : V3 α) (minVal : α) (maxVal : α) : V3 α :=
  glm_vec3_clamp v minVal maxVal

/-- `glmc_vec3_ortho`: src/vec3.c:293-297. -/
@[cglm]
def glmc_vec3_ortho (v : V3 α) : V3 α :=
  glm_vec3_ortho v

/-- `glmc_vec3_lerp`: src/vec3.c:299-303. -/
@[cglm]
def glmc_vec3_lerp (frm : V3 α) (to : V3 α) (t : α) : V3 α :=
  glm_vec3_lerp frm to t

/-- `glmc_vec3_lerpc`: src/vec3.c:305-309. -/
@[cglm]
def glmc_vec3_lerpc (frm : V3 α) (to : V3 α) (t : α) : V3 α :=
  glm_vec3_lerpc frm to t

/-- `glmc_vec3_step`: src/vec3.c:311-315. -/
@[cglm]
def glmc_vec3_step (edge : V3 α) (x : V3 α) : V3 α :=
  glm_vec3_step edge x

/-- `glmc_vec3_smoothstep_uni`: src/vec3.c:317-321. -/
@[cglm]
def glmc_vec3_smoothstep_uni (edge0 : α) (edge1 : α) (x : V3 α) : V3 α :=
  glm_vec3_smoothstep_uni edge0 edge1 x

/-- `glmc_vec3_smoothstep`: src/vec3.c:323-327. -/
@[cglm]
def glmc_vec3_smoothstep (edge0 : V3 α) (edge1 : V3 α) (x : V3 α) : V3 α :=
  glm_vec3_smoothstep edge0 edge1 x

/-- `glmc_vec3_smoothinterp`: src/vec3.c:329-333. -/
@[cglm]
def glmc_vec3_smoothinterp (frm : V3 α) (to : V3 α) (t : α) : V3 α :=
  glm_vec3_smoothinterp frm to t

/-- `glmc_vec3_smoothinterpc`: src/vec3.c:335-339. -/
@[cglm]
def glmc_vec3_smoothinterpc (frm : V3 α) (to : V3 α) (t : α) : V3 α :=
  glm_vec3_smoothinterpc frm to t

/-- `glmc_vec3_mulv`: src/vec3.c:349-353. -/
@[cglm]
def glmc_vec3_mulv (a : V3 α) (b : V3 α) : V3 α :=
  glm_vec3_mul a b

/-- `glmc_vec3_broadcast`: src/vec3.c:355-359. -/
@[cglm]
def glmc_vec3_broadcast (val : α) : V3 α :=
  glm_vec3_broadcast val

/-- `glmc_vec3_fill`: src/vec3.c:361-365. -/
@[cglm]
def glmc_vec3_fill (val : α) : V3 α :=
  glm_vec3_fill val

/-- `glmc_vec3_eq`: src/vec3.c:367-371. -/
@[cglm]
def glmc_vec3_eq (v : V3 α) (val : α) : Bool :=
  glm_vec3_eq v val

/-- `glmc_vec3_eq_eps`: src/vec3.c:373-377. -/
@[cglm]
def glmc_vec3_eq_eps (v : V3 α) (val : α) : Bool :=
  glm_vec3_eq_eps v val

/-- `glmc_vec3_eq_all`: src/vec3.c:379-383. -/
@[cglm]
def glmc_vec3_eq_all (v : V3 α) : Bool :=
  glm_vec3_eq_all v

/-- `glmc_vec3_eqv`: src/vec3.c:385-389. -/
@[cglm]
def glmc_vec3_eqv (a : V3 α) (b : V3 α) : Bool :=
  glm_vec3_eqv a b

/-- `glmc_vec3_eqv_eps`: src/vec3.c:391-395. -/
@[cglm]
def glmc_vec3_eqv_eps (a : V3 α) (b : V3 α) : Bool :=
  glm_vec3_eqv_eps a b

/-- `glmc_vec3_max`: src/vec3.c:397-401. -/
@[cglm]
def glmc_vec3_max (v : V3 α) : α :=
  glm_vec3_max v

/-- `glmc_vec3_min`: src/vec3.c:403-407. -/
@[cglm]
def glmc_vec3_min (v : V3 α) : α :=
  glm_vec3_min v

/-- `glmc_vec3_isnan`: src/vec3.c:409-413. -/
@[cglm]
def glmc_vec3_isnan (v : V3 α) : Bool :=
  glm_vec3_isnan v

/-- `glmc_vec3_isinf`: src/vec3.c:415-419. -/
@[cglm]
def glmc_vec3_isinf (v : V3 α) : Bool :=
  glm_vec3_isinf v

/-- `glmc_vec3_isvalid`: src/vec3.c:421-425. -/
@[cglm]
def glmc_vec3_isvalid (v : V3 α) : Bool :=
  glm_vec3_isvalid v

/-- `glmc_vec3_sign`: src/vec3.c:427-431. -/
@[cglm]
def glmc_vec3_sign (v : V3 α) : V3 α :=
  glm_vec3_sign v

/-- `glmc_vec3_abs`: src/vec3.c:433-437. -/
@[cglm]
def glmc_vec3_abs (v : V3 α) : V3 α :=
  glm_vec3_abs v

/-- `glmc_vec3_fract`: src/vec3.c:439-443. -/
@[cglm]
def glmc_vec3_fract (v : V3 α) : V3 α :=
  glm_vec3_fract v

/-- `glmc_vec3_floor`: src/vec3.c:445-449. -/
@[cglm]
def glmc_vec3_floor (v : V3 α) : V3 α :=
  glm_vec3_floor v

/-- `glmc_vec3_mods`: src/vec3.c:451-455. -/
@[cglm]
def glmc_vec3_mods (v : V3 α) (s : α) : V3 α :=
  glm_vec3_mods v s

/-- `glmc_vec3_steps`: src/vec3.c:457-461. -/
@[cglm]
def glmc_vec3_steps (edge : α) (v : V3 α) : V3 α :=
  glm_vec3_steps edge v

/-- `glmc_vec3_stepr`: src/vec3.c:463-467. -/
@[cglm]
def glmc_vec3_stepr (edge : V3 α) (v : α) : V3 α :=
  glm_vec3_stepr edge v

/-- `glmc_vec3_hadd`: src/vec3.c:469-473. -/
@[cglm]
def glmc_vec3_hadd (v : V3 α) : α :=
  glm_vec3_hadd v

/-- `glmc_vec3_sqrt`: src/vec3.c:475-479. -/
@[cglm]
def glmc_vec3_sqrt (v : V3 α) : V3 α :=
  glm_vec3_sqrt v

/-- `glmc_vec3_make`: src/vec3.c:481-485. -/
@[cglm]
def glmc_vec3_make (src : V3 α) : V3 α :=
  glm_vec3_make src

/-- `glmc_vec3_faceforward`: src/vec3.c:487-491. -/
@[cglm]
def glmc_vec3_faceforward (n : V3 α) (v : V3 α) (nref : V3 α) : V3 α :=
  glm_vec3_faceforward n v nref

/-- `glmc_vec3_reflect`: src/vec3.c:493-497. -/
@[cglm]
def glmc_vec3_reflect (v : V3 α) (n : V3 α) : V3 α :=
  glm_vec3_reflect v n

/-- `glmc_vec3_refract`: src/vec3.c:499-503. -/
@[cglm]
def glmc_vec3_refract (v : V3 α) (n : V3 α) (eta : α) : Bool × V3 α :=
  let r := glm_vec3_refract v n eta
  (r.1, r.2)

end Cglm

end SrcVec3

section SrcVec4

/- Generated from src/vec4.c by tools/gen.py (value semantics); do not edit by hand. -/

set_option linter.unusedVariables false
set_option linter.unusedSectionVars false

namespace Cglm

variable {α : Type} [Add α] [Sub α] [Mul α] [Div α] [Neg α] [CFloat α]

/-- `glmc_vec4`: src/vec4.c:11-15. -/
@[cglm]
def glmc_vec4 (v3 : V3 α) (last : α) : V4 α :=
  glm_vec4 v3 last

/-- `glmc_vec4_zero`: src/vec4.c:17-21. -/
@[cglm]
def glmc_vec4_zero : V4 α :=
  glm_vec4_zero

/-- `glmc_vec4_one`: src/vec4.c:23-27. -/
@[cglm]
def glmc_vec4_one : V4 α :=
  glm_vec4_one

/-- `glmc_vec4_copy3`: src/vec4.c:29-33. -/
@[cglm]
def glmc_vec4_copy3 (v : V4 α) : V3 α :=
  glm_vec4_copy3 v

/-- `glmc_vec4_copy`: src/vec4.c:35-39. -/
@[cglm]
def glmc_vec4_copy (v : V4 α) : V4 α :=
  glm_vec4_copy v

/-- `glmc_vec4_ucopy`: src/vec4.c:41-45. -/
@[cglm]
def glmc_vec4_ucopy (v : V4 α) : V4 α :=
  glm_vec4_ucopy v

/-- `glmc_vec4_dot`: src/vec4.c:47-51. -/
@[cglm]
def glmc_vec4_dot (a : V4 α) (b : V4 α) : α :=
  glm_vec4_dot a b

/-- `glmc_vec4_norm`: src/vec4.c:53-57. -/
@[cglm]
def glmc_vec4_norm (v : V4 α) : α :=
  glm_vec4_norm v

/-- `glmc_vec4_normalize_to`: src/vec4.c:59-63. -/
@[cglm]
def glmc_vec4_normalize_to (v : V4 α) : V4 α :=
  glm_vec4_normalize_to v

/-- `glmc_vec4_normalize`: src/vec4.c:65-69. -/
@[cglm]
def glmc_vec4_normalize (v : V4 α) : V4 α :=
  glm_vec4_normalize v

/-- `glmc_vec4_norm2`: src/vec4.c:71-75. -/
@[cglm]
def glmc_vec4_norm2 (v : V4 α) : α :=
  glm_vec4_norm2 v

/-- `glmc_vec4_norm_one`: src/vec4.c:77-81. -/
@[cglm]
def glmc_vec4_norm_one (v : V4 α) : α :=
  glm_vec4_norm_one v

/-- `glmc_vec4_norm_inf`: src/vec4.c:83-87. -/
@[cglm]
def glmc_vec4_norm_inf (v : V4 α) : α :=
  glm_vec4_norm_inf v

/-- `glmc_vec4_add`: src/vec4.c:89-93. -/
@[cglm]
def glmc_vec4_add (a : V4 α) (b : V4 α) : V4 α :=
  glm_vec4_add a b

/-- `glmc_vec4_adds`: src/vec4.c:95-99. -/
@[cglm]
def glmc_vec4_adds (v : V4 α) (s : α) : V4 α :=
  glm_vec4_adds v s

/-- `glmc_vec4_sub`: src/vec4.c:101-105. -/
@[cglm]
def glmc_vec4_sub (a : V4 α) (b : V4 α) : V4 α :=
  glm_vec4_sub a b

/-- `glmc_vec4_subs`: src/vec4.c:107-111. -/
@[cglm]
def glmc_vec4_subs (v : V4 α) (s : α) : V4 α :=
  glm_vec4_subs v s

/-- `glmc_vec4_mul`: src/vec4.c:113-117. -/
@[cglm]
def glmc_vec4_mul (a : V4 α) (b : V4 α) : V4 α :=
  glm_vec4_mul a b

/-- `glmc_vec4_scale`: src/vec4.c:119-123. -/
@[cglm]
def glmc_vec4_scale (v : V4 α) (s : α) : V4 α :=
  glm_vec4_scale v s

/-- `glmc_vec4_scale_as`: src/vec4.c:125-129. -/
@[cglm]
def glmc_vec4_scale_as (v : V4 α) (s : α) : V4 α :=
  glm_vec4_scale_as v s

/-- `glmc_vec4_div`: src/vec4.c:131-135. -/
@[cglm]
def glmc_vec4_div (a : V4 α) (b : V4 α) : V4 α :=
  glm_vec4_div a b

/-- `glmc_vec4_divs`: src/vec4.c:137-141. -/
@[cglm]
def glmc_vec4_divs (v : V4 α) (s : α) : V4 α :=
  glm_vec4_divs v s

/-- `glmc_vec4_addadd`: src/vec4.c:143-147. -/
@[cglm]
def glmc_vec4_addadd (a : V4 α) (b : V4 α) (dest : V4 α) : V4 α :=
  glm_vec4_addadd a b dest

/-- `glmc_vec4_subadd`: src/vec4.c:149-153. -/
@[cglm]
def glmc_vec4_subadd (a : V4 α) (b : V4 α) (dest : V4 α) : V4 α :=
  glm_vec4_subadd a b dest

/-- `glmc_vec4_muladd`: src/vec4.c:155-159. -/
@[cglm]
def glmc_vec4_muladd (a : V4 α) (b : V4 α) (dest : V4 α) : V4 α :=
  glm_vec4_muladd a b dest

/-- `glmc_vec4_muladds`: src/vec4.c:161-165. -/
@[cglm]
def glmc_vec4_muladds (a : V4 α) (s : α) (dest : V4 α) : V4 α :=
  glm_vec4_muladds a s dest

/-- `glmc_vec4_maxadd`: src/vec4.c:167-171. -/
@[cglm]
def glmc_vec4_maxadd (a : V4 α) (b : V4 α) (dest : V4 α) : V4 α :=
  glm_vec4_maxadd a b dest

/-- `glmc_vec4_minadd`: src/vec4.c:173-177. -/
@[cglm]
def glmc_vec4_minadd (a : V4 α) (b : V4 α) (dest : V4 α) : V4 α :=
  glm_vec4_minadd a b dest

/-- `glmc_vec4_subsub`: src/vec4.c:179-183. -/
@[cglm]
def glmc_vec4_subsub (a : V4 α) (b : V4 α) (dest : V4 α) : V4 α :=
  glm_vec4_subsub a b dest

/-- `glmc_vec4_addsub`: src/vec4.c:185-189. -/
@[cglm]
def glmc_vec4_addsub (a : V4 α) (b : V4 α) (dest : V4 α) : V4 α :=
  glm_vec4_addsub a b dest

/-- `glmc_vec4_mulsub`: src/vec4.c:191-195. -/
@[cglm]
def glmc_vec4_mulsub (a : V4 α) (b : V4 α) (dest : V4 α) : V4 α :=
  glm_vec4_mulsub a b dest

/-- `glmc_vec4_mulsubs`: src/vec4.c:197-201. -/
@[cglm]
def glmc_vec4_mulsubs (a : V4 α) (s : α) (dest : V4 α) : V4 α :=
  glm_vec4_mulsubs a s dest

/-- `glmc_vec4_maxsub`: src/vec4.c:203-207. -/
@[cglm]
def glmc_vec4_maxsub (a : V4 α) (b : V4 α) (dest : V4 α) : V4 α :=
  glm_vec4_maxsub a b dest

/-- `glmc_vec4_minsub`: src/vec4.c:209-213. -/
@[cglm]
def glmc_vec4_minsub (a : V4 α) (b : V4 α) (dest : V4 α) : V4 α :=
  glm_vec4_minsub a b dest

/-- `glmc_vec4_negate`: src/vec4.c:215-219. -/
@[cglm]
def glmc_vec4_negate (v : V4 α) : V4 α :=
  glm_vec4_negate v

/-- `glmc_vec4_negate_to`: src/vec4.c:221-225. -/
@[cglm]
def glmc_vec4_negate_to (v : V4 α) : V4 α :=
  glm_vec4_negate_to v

/-- `glmc_vec4_distance`: src/vec4.c:227-231. -/
@[cglm]
def glmc_vec4_distance (a : V4 α) (b : V4 α) : α :=
  glm_vec4_distance a b

/-- `glmc_vec4_distance2`: src/vec4.c:233-237. -/
@[cglm]
def glmc_vec4_distance2 (a : V4 α) (b : V4 α) : α :=
  glm_vec4_distance2 a b

/-- `glmc_vec4_maxv`: src/vec4.c:239-243. -/
@[cglm]
def glmc_vec4_maxv (a : V4 α) (b : V4 α) : V4 α :=
  glm_vec4_maxv a b

/-- `glmc_vec4_minv`: src/vec4.c:245-249. -/
@[cglm]
def glmc_vec4_minv (a : V4 α) (b : V4 α) : V4 α :=
  glm_vec4_minv a b

/-- `glmc_vec4_clamp`: src/vec4.c:251-255. -/
@[cglm]
def glmc_vec4_clamp (v : V4 α) (minVal : α) (maxVal : α) : V4 α :=
  glm_vec4_clamp v minVal maxVal

/-- `glmc_vec4_lerp`: src/vec4.c:257-261. -/
@[cglm]
def glmc_vec4_lerp (frm : V4 α) (to : V4 α) (t : α) : V4 α :=
  glm_vec4_lerp frm to t

/-- `glmc_vec4_lerpc`: src/vec4.c:263-267. -/
@[cglm]
def glmc_vec4_lerpc (frm : V4 α) (to : V4 α) (t : α) : V4 α :=
  glm_vec4_lerpc frm to t

/-- `glmc_vec4_step`: src/vec4.c:269-273. -/
@[cglm]
def glmc_vec4_step (edge : V4 α) (x : V4 α) : V4 α :=
  glm_vec4_step edge x

/-- `glmc_vec4_smoothstep_uni`: src/vec4.c:275-279. -/
@[cglm]
def glmc_vec4_smoothstep_uni (edge0 : α) (edge1 : α) (x : V4 α) : V4 α :=
  glm_vec4_smoothstep_uni edge0 edge1 x

/-- `glmc_vec4_smoothstep`: src/vec4.c:281-285. -/
@[cglm]
def glmc_vec4_smoothstep (edge0 : V4 α) (edge1 : V4 α) (x : V4 α) : V4 α :=
  glm_vec4_smoothstep edge0 edge1 x

/-- `glmc_vec4_smoothinterp`: src/vec4.c:287-291. -/
@[cglm]
def glmc_vec4_smoothinterp (frm : V4 α) (to : V4 α) (t : α) : V4 α :=
  glm_vec4_smoothinterp frm to t

/-- `glmc_vec4_smoothinterpc`: src/vec4.c:293-297. -/
@[cglm]
def glmc_vec4_smoothinterpc (frm : V4 α) (to : V4 α) (t : α) : V4 α :=
  glm_vec4_smoothinterpc frm to t

/-- `glmc_vec4_cubic`: src/vec4.c:299-303. -/
@[cglm]
def glmc_vec4_cubic (s : α) : V4 α :=
  glm_vec4_cubic s

/-- `glmc_vec4_mulv`: src/vec4.c:313-317. -/
@[cglm]
def glmc_vec4_mulv (a : V4 α) (b : V4 α) : V4 α :=
  glm_vec4_mul a b

/-- `glmc_vec4_broadcast`: src/vec4.c:319-323. -/
@[cglm]
def glmc_vec4_broadcast (val : α) : V4 α :=
  glm_vec4_broadcast val

/-- `glmc_vec4_fill`: src/vec4.c:325-329. -/
@[cglm]
def glmc_vec4_fill (val : α) : V4 α :=
  glm_vec4_fill val

/-- `glmc_vec4_eq`: src/vec4.c:331-335. -/
@[cglm]
def glmc_vec4_eq (v : V4 α) (val : α) : Bool :=
  glm_vec4_eq v val

/-- `glmc_vec4_eq_eps`: src/vec4.c:337-341. -/
@[cglm]
def glmc_vec4_eq_eps (v : V4 α) (val : α) : Bool :=
  glm_vec4_eq_eps v val

/-- `glmc_vec4_eq_all`: src/vec4.c:343-347. -/
@[cglm]
def glmc_vec4_eq_all (v : V4 α) : Bool :=
  glm_vec4_eq_all v

/-- `glmc_vec4_eqv`: src/vec4.c:349-353. -/
@[cglm]
def glmc_vec4_eqv (a : V4 α) (b : V4 α) : Bool :=
  glm_vec4_eqv a b

/-- `glmc_vec4_eqv_eps`: src/vec4.c:355-359. -/
@[cglm]
def glmc_vec4_eqv_eps (a : V4 α) (b : V4 α) : Bool :=
  glm_vec4_eqv_eps a b

/-- `glmc_vec4_max`: src/vec4.c:361-365. -/
@[cglm]
def glmc_vec4_max (v : V4 α) : α :=
  glm_vec4_max v

/-- `glmc_vec4_min`: src/vec4.c:367-371. -/
@[cglm]
def glmc_vec4_min (v : V4 α) : α :=
  glm_vec4_min v

/-- `glmc_vec4_isnan`: src/vec4.c:373-377. -/
@[cglm]
def glmc_vec4_isnan (v : V4 α) : Bool :=
  glm_vec4_isnan v

/-- `glmc_vec4_isinf`: src/vec4.c:379-383. -/
@[cglm]
def glmc_vec4_isinf (v : V4 α) : Bool :=
  glm_vec4_isinf v

/-- `glmc_vec4_isvalid`: src/vec4.c:385-389. -/
@[cglm]
def glmc_vec4_isvalid (v : V4 α) : Bool :=
  glm_vec4_isvalid v

/-- `glmc_vec4_sign`: src/vec4.c:391-395. -/
@[cglm]
def glmc_vec4_sign (v : V4 α) : V4 α :=
  glm_vec4_sign v

/-- `glmc_vec4_abs`: src/vec4.c:397-401. -/
@[cglm]
def glmc_vec4_abs (v : V4 α) : V4 α :=
  glm_vec4_abs v

/-- `glmc_vec4_fract`: src/vec4.c:403-407. -/
@[cglm]
def glmc_vec4_fract (v : V4 α) : V4 α :=
  glm_vec4_fract v

/-- `glmc_vec4_floor`: src/vec4.c:409-413. -/
@[cglm]
def glmc_vec4_floor (v : V4 α) : V4 α :=
  glm_vec4_floor v

/-- `glmc_vec4_mods`: src/vec4.c:415-419. -/
@[cglm]
def glmc_vec4_mods (v : V4 α) (s : α) : V4 α :=
  glm_vec4_mods v s

/-- `glmc_vec4_steps`: src/vec4.c:421-425. -/
@[cglm]
def glmc_vec4_steps (edge : α) (v : V4 α) : V4 α :=
  glm_vec4_steps edge v

/-- `glmc_vec4_stepr`: src/vec4.c:427-431. -/
@[cglm]
def glmc_vec4_stepr (edge : V4 α) (v : α) : V4 α :=
  glm_vec4_stepr edge v

/-- `glmc_vec4_hadd`: src/vec4.c:433-437. -/
@[cglm]
def glmc_vec4_hadd (v : V4 α) : α :=
  glm_vec4_hadd v

/-- `glmc_vec4_sqrt`: src/vec4.c:439-443. -/
@[cglm]
def glmc_vec4_sqrt (v : V4 α) : V4 α :=
  glm_vec4_sqrt v

/-- `glmc_vec4_make`: src/vec4.c:445-449. -/
@[cglm]
def glmc_vec4_make (src : V4 α) : V4 α :=
  glm_vec4_make src

/-- `glmc_vec4_reflect`: src/vec4.c:451-455. -/
@[cglm]
def glmc_vec4_reflect (v : V4 α) (n : V4 α) : V4 α :=
  glm_vec4_reflect v n

/-- `glmc_vec4_refract`: src/vec4.c:457-461. -/
@[cglm]
def glmc_vec4_refract (v : V4 α) (n : V4 α) (eta : α) : Bool × V4 α :=
  let r := glm_vec4_refract v n eta
  (r.1, r.2)

end Cglm

end SrcVec4
