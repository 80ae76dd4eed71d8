/- Generated by tools/gen.py, joined by tools/merge.py; do not edit by hand. -/
import Verif.Base
import Verif.Attr
import Verif.Gen.Vec2
import Verif.Gen.Vec2Ext
import Verif.Gen.Vec3
import Verif.Gen.Vec3Ext
import Verif.Gen.Vec4
import Verif.Gen.Vec4Ext

section StructVec2

/- Generated from include/cglm/struct/vec2.h by tools/gen.py (value semantics); do not edit by hand. -/

set_option linter.unusedVariables false
set_option linter.unusedSectionVars false

namespace Cglm

variable {α : Type} [Add α] [Sub α] [Mul α] [Div α] [Neg α] [CFloat α]

/-- `glms_vec2`: include/cglm/struct/vec2.h:83-89. -/
@[cglm]
def glms_vec2 (v3 : V3 α) : V2 α :=
  glm_vec2 ⟨v3.x, v3.y⟩

/-- `glms_vec2_zero`: include/cglm/struct/vec2.h:130-136. -/
@[cglm]
def glms_vec2_zero : V2 α :=
  glm_vec2_zero

/-- `glms_vec2_one`: include/cglm/struct/vec2.h:143-149. -/
@[cglm]
def glms_vec2_one : V2 α :=
  glm_vec2_one

/-- `glms_vec2_dot`: include/cglm/struct/vec2.h:159-163. -/
@[cglm]
def glms_vec2_dot (a : V2 α) (b : V2 α) : α :=
  glm_vec2_dot a b

/-- `glms_vec2_cross`: include/cglm/struct/vec2.h:175-179. -/
@[cglm]
def glms_vec2_cross (a : V2 α) (b : V2 α) : α :=
  glm_vec2_cross a b

/-- `glms_vec2_norm2`: include/cglm/struct/vec2.h:192-196. -/
@[cglm]
def glms_vec2_norm2 (v : V2 α) : α :=
  glm_vec2_norm2 v

/-- `glms_vec2_norm`: include/cglm/struct/vec2.h:205-209. -/
@[cglm]
def glms_vec2_norm (v : V2 α) : α :=
  glm_vec2_norm v

/-- `glms_vec2_add`: include/cglm/struct/vec2.h:218-224. -/
@[cglm]
def glms_vec2_add (a : V2 α) (b : V2 α) : V2 α :=
  glm_vec2_add a b

/-- `glms_vec2_adds`: include/cglm/struct/vec2.h:233-239. -/
@[cglm]
def glms_vec2_adds (a : V2 α) (s : α) : V2 α :=
  glm_vec2_adds a s

/-- `glms_vec2_sub`: include/cglm/struct/vec2.h:248-254. -/
@[cglm]
def glms_vec2_sub (a : V2 α) (b : V2 α) : V2 α :=
  glm_vec2_sub a b

/-- `glms_vec2_subs`: include/cglm/struct/vec2.h:263-269. -/
@[cglm]
def glms_vec2_subs (a : V2 α) (s : α) : V2 α :=
  glm_vec2_subs a s

/-- `glms_vec2_mul`: include/cglm/struct/vec2.h:278-284. -/
@[cglm]
def glms_vec2_mul (a : V2 α) (b : V2 α) : V2 α :=
  glm_vec2_mul a b

/-- `glms_vec2_scale`: include/cglm/struct/vec2.h:293-299. -/
@[cglm]
def glms_vec2_scale (v : V2 α) (s : α) : V2 α :=
  glm_vec2_scale v s

/-- `glms_vec2_scale_as`: include/cglm/struct/vec2.h:308-314. -/
@[cglm]
def glms_vec2_scale_as (v : V2 α) (s : α) : V2 α :=
  glm_vec2_scale_as v s

/-- `glms_vec2_div`: include/cglm/struct/vec2.h:323-329. -/
@[cglm]
def glms_vec2_div (a : V2 α) (b : V2 α) : V2 α :=
  glm_vec2_div a b

/-- `glms_vec2_divs`: include/cglm/struct/vec2.h:338-344. -/
@[cglm]
def glms_vec2_divs (a : V2 α) (s : α) : V2 α :=
  glm_vec2_divs a s

/-- `glms_vec2_addadd`: include/cglm/struct/vec2.h:355-360. -/
@[cglm]
def glms_vec2_addadd (a : V2 α) (b : V2 α) (dest : V2 α) : V2 α :=
  glm_vec2_addadd a b dest

/-- `glms_vec2_subadd`: include/cglm/struct/vec2.h:371-376. -/
@[cglm]
def glms_vec2_subadd (a : V2 α) (b : V2 α) (dest : V2 α) : V2 α :=
  glm_vec2_subadd a b dest

/-- `glms_vec2_muladd`: include/cglm/struct/vec2.h:387-392. -/
@[cglm]
def glms_vec2_muladd (a : V2 α) (b : V2 α) (dest : V2 α) : V2 α :=
  glm_vec2_muladd a b dest

/-- `glms_vec2_muladds`: include/cglm/struct/vec2.h:403-408. -/
@[cglm]
def glms_vec2_muladds (a : V2 α) (s : α) (dest : V2 α) : V2 α :=
  glm_vec2_muladds a s dest

/-- `glms_vec2_maxadd`: include/cglm/struct/vec2.h:419-424. -/
@[cglm]
def glms_vec2_maxadd (a : V2 α) (b : V2 α) (dest : V2 α) : V2 α :=
  glm_vec2_maxadd a b dest

/-- `glms_vec2_minadd`: include/cglm/struct/vec2.h:435-440. -/
@[cglm]
def glms_vec2_minadd (a : V2 α) (b : V2 α) (dest : V2 α) : V2 α :=
  glm_vec2_minadd a b dest

/-- `glms_vec2_subsub`: include/cglm/struct/vec2.h:451-456. -/
@[cglm]
def glms_vec2_subsub (a : V2 α) (b : V2 α) (dest : V2 α) : V2 α :=
  glm_vec2_subsub a b dest

/-- `glms_vec2_addsub`: include/cglm/struct/vec2.h:467-472. -/
@[cglm]
def glms_vec2_addsub (a : V2 α) (b : V2 α) (dest : V2 α) : V2 α :=
  glm_vec2_addsub a b dest

/-- `glms_vec2_mulsub`: include/cglm/struct/vec2.h:483-488. -/
@[cglm]
def glms_vec2_mulsub (a : V2 α) (b : V2 α) (dest : V2 α) : V2 α :=
  glm_vec2_mulsub a b dest

/-- `glms_vec2_mulsubs`: include/cglm/struct/vec2.h:499-504. -/
@[cglm]
def glms_vec2_mulsubs (a : V2 α) (s : α) (dest : V2 α) : V2 α :=
  glm_vec2_mulsubs a s dest

/-- `glms_vec2_maxsub`: include/cglm/struct/vec2.h:515-520. -/
@[cglm]
def glms_vec2_maxsub (a : V2 α) (b : V2 α) (dest : V2 α) : V2 α :=
  glm_vec2_maxsub a b dest

/-- `glms_vec2_minsub`: include/cglm/struct/vec2.h:531-536. -/
@[cglm]
def glms_vec2_minsub (a : V2 α) (b : V2 α) (dest : V2 α) : V2 α :=
  glm_vec2_minsub a b dest

/-- `glms_vec2_negate`: include/cglm/struct/vec2.h:544-549. -/
@[cglm]
def glms_vec2_negate (v : V2 α) : V2 α :=
  glm_vec2_negate v

/-- `glms_vec2_normalize`: include/cglm/struct/vec2.h:557-562. -/
@[cglm]
def glms_vec2_normalize (v : V2 α) : V2 α :=
  glm_vec2_normalize v

/-- `glms_vec2_rotate`: include/cglm/struct/vec2.h:571-577. -/
@[cglm]
def glms_vec2_rotate (v : V2 α) (angle : α) : V2 α :=
  glm_vec2_rotate v angle

/-- `glms_vec2_center`: include/cglm/struct/vec2.h:586-592. -/
@[cglm]
def glms_vec2_center (a : V2 α) (b : V2 α) : V2 α :=
  glm_vec2_center a b

/-- `glms_vec2_distance`: include/cglm/struct/vec2.h:601-605. -/
@[cglm]
def glms_vec2_distance (a : V2 α) (b : V2 α) : α :=
  glm_vec2_distance a b

/-- `glms_vec2_distance2`: include/cglm/struct/vec2.h:614-618. -/
@[cglm]
def glms_vec2_distance2 (a : V2 α) (b : V2 α) : α :=
  glm_vec2_distance2 a b

/-- `glms_vec2_maxv`: include/cglm/struct/vec2.h:627-633. -/
@[cglm]
def glms_vec2_maxv (a : V2 α) (b : V2 α) : V2 α :=
  glm_vec2_maxv a b

/-- `glms_vec2_minv`: include/cglm/struct/vec2.h:642-648. -/
@[cglm]
def glms_vec2_minv (a : V2 α) (b : V2 α) : V2 α :=
  glm_vec2_minv a b

/-- `glms_vec2_clamp`: include/cglm/struct/vec2.h:658-663. -/
@[cglm]
def glms_vec2_clamp (v : V2 α) (minVal : α) (maxVal : α) : V2 α :=
  glm_vec2_clamp v minVal maxVal

/-- `glms_vec2_lerp`: include/cglm/struct/vec2.h:675-681. -/
@[cglm]
def glms_vec2_lerp (frm : V2 α) (to : V2 α) (t : α) : V2 α :=
  glm_vec2_lerp frm to t

/-- `glms_vec2_step`: include/cglm/struct/vec2.h:690-696. -/
@[cglm]
def glms_vec2_step (edge : V2 α) (x : V2 α) : V2 α :=
  glm_vec2_step edge x

/-- `glms_vec2_make`: include/cglm/struct/vec2.h:704-710. -/
@[cglm]
def glms_vec2_make (src : V2 α) : V2 α :=
  glm_vec2_make src

/-- `glms_vec2_reflect`: include/cglm/struct/vec2.h:719-725. -/
@[cglm]
def glms_vec2_reflect (v : V2 α) (n : V2 α) : V2 α :=
  glm_vec2_reflect v n

/-- `glms_vec2_refract`: include/cglm/struct/vec2.h:741-745. -/
@[cglm]
def glms_vec2_refract (v : V2 α) (n : V2 α) (eta : α) : Bool × V2 α :=
  let r := glm_vec2_refract v n eta
  (r.1, r.2)

end Cglm

end StructVec2

section StructVec2Ext

/- Generated from include/cglm/struct/vec2-ext.h by tools/gen.py (value semantics); do not edit by hand. -/

set_option linter.unusedVariables false
set_option linter.unusedSectionVars false

namespace Cglm

variable {α : Type} [Add α] [Sub α] [Mul α] [Div α] [Neg α] [CFloat α]

/-- `glms_vec2_fill`: include/cglm/struct/vec2-ext.h:52-58. -/
@[cglm]
def glms_vec2_fill (val : α) : V2 α :=
  glm_vec2_fill val

/-- `glms_vec2_eq`: include/cglm/struct/vec2-ext.h:66-70. -/
@[cglm]
def glms_vec2_eq (v : V2 α) (val : α) : Bool :=
  glm_vec2_eq v val

/-- `glms_vec2_eq_eps`: include/cglm/struct/vec2-ext.h:78-82. -/
@[cglm]
def glms_vec2_eq_eps (v : V2 α) (val : α) : Bool :=
  glm_vec2_eq_eps v val

/-- `glms_vec2_eq_all`: include/cglm/struct/vec2-ext.h:89-93. -/
@[cglm]
def glms_vec2_eq_all (v : V2 α) : Bool :=
  glm_vec2_eq_all v

/-- `glms_vec2_eqv`: include/cglm/struct/vec2-ext.h:101-105. -/
@[cglm]
def glms_vec2_eqv (a : V2 α) (b : V2 α) : Bool :=
  glm_vec2_eqv a b

/-- `glms_vec2_eqv_eps`: include/cglm/struct/vec2-ext.h:113-117. -/
@[cglm]
def glms_vec2_eqv_eps (a : V2 α) (b : V2 α) : Bool :=
  glm_vec2_eqv_eps a b

/-- `glms_vec2_max`: include/cglm/struct/vec2-ext.h:124-128. -/
@[cglm]
def glms_vec2_max (v : V2 α) : α :=
  glm_vec2_max v

/-- `glms_vec2_min`: include/cglm/struct/vec2-ext.h:135-139. -/
@[cglm]
def glms_vec2_min (v : V2 α) : α :=
  glm_vec2_min v

/-- `glms_vec2_isnan`: include/cglm/struct/vec2-ext.h:147-151. -/
@[cglm]
def glms_vec2_isnan (v : V2 α) : Bool :=
  glm_vec2_isnan v

/-- `glms_vec2_isinf`: include/cglm/struct/vec2-ext.h:159-163. -/
@[cglm]
def glms_vec2_isinf (v : V2 α) : Bool :=
  glm_vec2_isinf v

/-- `glms_vec2_isvalid`: include/cglm/struct/vec2-ext.h:171-175. -/
@[cglm]
def glms_vec2_isvalid (v : V2 α) : Bool :=
  glm_vec2_isvalid v

/-- `glms_vec2_sign`: include/cglm/struct/vec2-ext.h:185-191. -/
@[cglm]
def glms_vec2_sign (v : V2 α) : V2 α :=
  glm_vec2_sign v

/-- `glms_vec2_abs`: include/cglm/struct/vec2-ext.h:199-205. -/
@[cglm]
def glms_vec2_abs (v : V2 α) : V2 α :=
  glm_vec2_abs v

/-- `glms_vec2_fract`: include/cglm/struct/vec2-ext.h:213-219. -/
@[cglm]
def glms_vec2_fract (v : V2 α) : V2 α :=
  glm_vec2_fract v

/-- `glms_vec2_floor`: include/cglm/struct/vec2-ext.h:227-233. -/
@[cglm]
def glms_vec2_floor (v : V2 α) : V2 α :=
  glm_vec2_floor v

/-- `glms_vec2_mods`: include/cglm/struct/vec2-ext.h:242-248. -/
@[cglm]
def glms_vec2_mods (v : V2 α) (s : α) : V2 α :=
  glm_vec2_mods v s

/-- `glms_vec2_steps`: include/cglm/struct/vec2-ext.h:258-264. -/
@[cglm]
def glms_vec2_steps (edge : α) (x : V2 α) : V2 α :=
  glm_vec2_steps edge x

/-- `glms_vec2_stepr`: include/cglm/struct/vec2-ext.h:274-280. -/
@[cglm]
def glms_vec2_stepr (edge : V2 α) (x : α) : V2 α :=
  glm_vec2_stepr edge x

/-- `glms_vec2_sqrt`: include/cglm/struct/vec2-ext.h:288-294. -/
@[cglm]
def glms_vec2_sqrt (v : V2 α) : V2 α :=
  glm_vec2_sqrt v

/-- `glms_vec2_complex_mul`: include/cglm/struct/vec2-ext.h:303-308. -/
@[cglm]
def glms_vec2_complex_mul (a : V2 α) (b : V2 α) (dest : V2 α) : V2 α :=
  glm_vec2_complex_mul a b

/-- `glms_vec2_complex_div`: include/cglm/struct/vec2-ext.h:317-322. -/
@[cglm]
def glms_vec2_complex_div (a : V2 α) (b : V2 α) (dest : V2 α) : V2 α :=
  glm_vec2_complex_div a b

/-- `glms_vec2_complex_conjugate`: include/cglm/struct/vec2-ext.h:330-335. -/
@[cglm]
def glms_vec2_complex_conjugate (a : V2 α) (dest : V2 α) : V2 α :=
  glm_vec2_complex_conjugate a

end Cglm

end StructVec2Ext

section StructVec3

/- Generated from include/cglm/struct/vec3.h by tools/gen.py (value semantics); do not edit by hand. -/

set_option linter.unusedVariables false
set_option linter.unusedSectionVars false

namespace Cglm

variable {α : Type} [Add α] [Sub α] [Mul α] [Div α] [Neg α] [CFloat α]

/-- `glms_vec3`: include/cglm/struct/vec3.h:119-125. -/
@[cglm]
def glms_vec3 (v4 : V4 α) : V3 α :=
  glm_vec3 v4

/-- `glms_vec3_zero`: include/cglm/struct/vec3.h:166-172. -/
@[cglm]
def glms_vec3_zero : V3 α :=
  glm_vec3_zero

/-- `glms_vec3_one`: include/cglm/struct/vec3.h:179-185. -/
@[cglm]
def glms_vec3_one : V3 α :=
  glm_vec3_one

/-- `glms_vec3_dot`: include/cglm/struct/vec3.h:195-199. -/
@[cglm]
def glms_vec3_dot (a : V3 α) (b : V3 α) : α :=
  glm_vec3_dot a b

/-- `glms_vec3_norm2`: include/cglm/struct/vec3.h:212-216. -/
@[cglm]
def glms_vec3_norm2 (v : V3 α) : α :=
  glm_vec3_norm2 v

/-- `glms_vec3_norm`: include/cglm/struct/vec3.h:225-229. -/
@[cglm]
def glms_vec3_norm (v : V3 α) : α :=
  glm_vec3_norm v

/-- `glms_vec3_norm_one`: include/cglm/struct/vec3.h:245-249. -/
@[cglm]
def glms_vec3_norm_one (v : V3 α) : α :=
  glm_vec3_norm_one v

/-- `glms_vec3_norm_inf`: include/cglm/struct/vec3.h:264-268. -/
@[cglm]
def glms_vec3_norm_inf (v : V3 α) : α :=
  glm_vec3_norm_inf v

/-- `glms_vec3_add`: include/cglm/struct/vec3.h:277-283. -/
@[cglm]
def glms_vec3_add (a : V3 α) (b : V3 α) : V3 α :=
  glm_vec3_add a b

/-- `glms_vec3_adds`: include/cglm/struct/vec3.h:292-298. -/
@[cglm]
def glms_vec3_adds (a : V3 α) (s : α) : V3 α :=
  glm_vec3_adds a s

/-- `glms_vec3_sub`: include/cglm/struct/vec3.h:307-313. -/
@[cglm]
def glms_vec3_sub (a : V3 α) (b : V3 α) : V3 α :=
  glm_vec3_sub a b

/-- `glms_vec3_subs`: include/cglm/struct/vec3.h:322-328. -/
@[cglm]
def glms_vec3_subs (a : V3 α) (s : α) : V3 α :=
  glm_vec3_subs a s

/-- `glms_vec3_mul`: include/cglm/struct/vec3.h:337-343. -/
@[cglm]
def glms_vec3_mul (a : V3 α) (b : V3 α) : V3 α :=
  glm_vec3_mul a b

/-- `glms_vec3_scale`: include/cglm/struct/vec3.h:352-358. -/
@[cglm]
def glms_vec3_scale (v : V3 α) (s : α) : V3 α :=
  glm_vec3_scale v s

/-- `glms_vec3_scale_as`: include/cglm/struct/vec3.h:367-373. -/
@[cglm]
def glms_vec3_scale_as (v : V3 α) (s : α) : V3 α :=
  glm_vec3_scale_as v s

/-- `glms_vec3_div`: include/cglm/struct/vec3.h:382-388. -/
@[cglm]
def glms_vec3_div (a : V3 α) (b : V3 α) : V3 α :=
  glm_vec3_div a b

/-- `glms_vec3_divs`: include/cglm/struct/vec3.h:397-403. -/
@[cglm]
def glms_vec3_divs (a : V3 α) (s : α) : V3 α :=
  glm_vec3_divs a s

/-- `glms_vec3_addadd`: include/cglm/struct/vec3.h:414-419. -/
@[cglm]
def glms_vec3_addadd (a : V3 α) (b : V3 α) (dest : V3 α) : V3 α :=
  glm_vec3_addadd a b dest

/-- `glms_vec3_subadd`: include/cglm/struct/vec3.h:430-435. -/
@[cglm]
def glms_vec3_subadd (a : V3 α) (b : V3 α) (dest : V3 α) : V3 α :=
  glm_vec3_subadd a b dest

/-- `glms_vec3_muladd`: include/cglm/struct/vec3.h:446-451. -/
@[cglm]
def glms_vec3_muladd (a : V3 α) (b : V3 α) (dest : V3 α) : V3 α :=
  glm_vec3_muladd a b dest

/-- `glms_vec3_muladds`: include/cglm/struct/vec3.h:462-467. -/
@[cglm]
def glms_vec3_muladds (a : V3 α) (s : α) (dest : V3 α) : V3 α :=
  glm_vec3_muladds a s dest

/-- `glms_vec3_maxadd`: include/cglm/struct/vec3.h:478-483. -/
@[cglm]
def glms_vec3_maxadd (a : V3 α) (b : V3 α) (dest : V3 α) : V3 α :=
  glm_vec3_maxadd a b dest

/-- `glms_vec3_minadd`: include/cglm/struct/vec3.h:494-499. -/
@[cglm]
def glms_vec3_minadd (a : V3 α) (b : V3 α) (dest : V3 α) : V3 α :=
  glm_vec3_minadd a b dest

/-- `glms_vec3_subsub`: include/cglm/struct/vec3.h:510-515. -/
@[cglm]
def glms_vec3_subsub (a : V3 α) (b : V3 α) (dest : V3 α) : V3 α :=
  glm_vec3_subsub a b dest

/-- `glms_vec3_addsub`: include/cglm/struct/vec3.h:526-531. -/
@[cglm]
def glms_vec3_addsub (a : V3 α) (b : V3 α) (dest : V3 α) : V3 α :=
  glm_vec3_addsub a b dest

/-- `glms_vec3_mulsub`: include/cglm/struct/vec3.h:542-547. -/
@[cglm]
def glms_vec3_mulsub (a : V3 α) (b : V3 α) (dest : V3 α) : V3 α :=
  glm_vec3_mulsub a b dest

/-- `glms_vec3_mulsubs`: include/cglm/struct/vec3.h:558-563. -/
@[cglm]
def glms_vec3_mulsubs (a : V3 α) (s : α) (dest : V3 α) : V3 α :=
  glm_vec3_mulsubs a s dest

/-- `glms_vec3_maxsub`: include/cglm/struct/vec3.h:574-579. -/
@[cglm]
def glms_vec3_maxsub (a : V3 α) (b : V3 α) (dest : V3 α) : V3 α :=
  glm_vec3_maxsub a b dest

/-- `glms_vec3_minsub`: include/cglm/struct/vec3.h:590-595. -/
@[cglm]
def glms_vec3_minsub (a : V3 α) (b : V3 α) (dest : V3 α) : V3 α :=
  glm_vec3_minsub a b dest

/-- `glms_vec3_flipsign`: include/cglm/struct/vec3.h:603-608. -/
@[cglm]
def glms_vec3_flipsign (v : V3 α) : V3 α :=
  glm_vec3_negate v

/-- `glms_vec3_negate`: include/cglm/struct/vec3.h:616-621. -/
@[cglm]
def glms_vec3_negate (v : V3 α) : V3 α :=
  glm_vec3_negate v

/-- `glms_vec3_normalize`: include/cglm/struct/vec3.h:629-634. -/
@[cglm]
def glms_vec3_normalize (v : V3 α) : V3 α :=
  glm_vec3_normalize v

/-- `glms_vec3_cross`: include/cglm/struct/vec3.h:643-649. -/
@[cglm]
def glms_vec3_cross (a : V3 α) (b : V3 α) : V3 α :=
  glm_vec3_cross a b

/-- `glms_vec3_crossn`: include/cglm/struct/vec3.h:658-664. -/
@[cglm]
def glms_vec3_crossn (a : V3 α) (b : V3 α) : V3 α :=
  glm_vec3_crossn a b

/-- `glms_vec3_angle`: include/cglm/struct/vec3.h:674-678. -/
@[cglm]
def glms_vec3_angle (a : V3 α) (b : V3 α) : α :=
  glm_vec3_angle a b

/-- `glms_vec3_rotate`: include/cglm/struct/vec3.h:688-693. -/
@[cglm]
def glms_vec3_rotate (v : V3 α) (angle : α) (axis : V3 α) : V3 α :=
  glm_vec3_rotate v angle axis

/-- `glms_vec3_rotate_m4`: include/cglm/struct/vec3.h:708-714. -/
@[cglm]
def glms_vec3_rotate_m4 (m : M4 α) (v : V3 α) : V3 α :=
  glm_vec3_rotate_m4 m v

/-- `glms_vec3_rotate_m3`: include/cglm/struct/vec3.h:723-729. -/
@[cglm]
def glms_vec3_rotate_m3 (m : M3 α) (v : V3 α) : V3 α :=
  glm_vec3_rotate_m3 m v

/-- `glms_vec3_proj`: include/cglm/struct/vec3.h:738-744. -/
@[cglm]
def glms_vec3_proj (a : V3 α) (b : V3 α) : V3 α :=
  glm_vec3_proj a b

/-- `glms_vec3_center`: include/cglm/struct/vec3.h:753-759. -/
@[cglm]
def glms_vec3_center (a : V3 α) (b : V3 α) : V3 α :=
  glm_vec3_center a b

/-- `glms_vec3_distance`: include/cglm/struct/vec3.h:768-772. -/
@[cglm]
def glms_vec3_distance (a : V3 α) (b : V3 α) : α :=
  glm_vec3_distance a b

/-- `glms_vec3_distance2`: include/cglm/struct/vec3.h:781-785. -/
@[cglm]
def glms_vec3_distance2 (a : V3 α) (b : V3 α) : α :=
  glm_vec3_distance2 a b

/-- `glms_vec3_maxv`: include/cglm/struct/vec3.h:794-800. -/
@[cglm]
def glms_vec3_maxv (a : V3 α) (b : V3 α) : V3 α :=
  glm_vec3_maxv a b

/-- `glms_vec3_minv`: include/cglm/struct/vec3.h:809-815. -/
@[cglm]
def glms_vec3_minv (a : V3 α) (b : V3 α) : V3 α :=
  glm_vec3_minv a b

/-- `glms_vec3_ortho`: include/cglm/struct/vec3.h:823-829. -/
@[cglm]
def glms_vec3_ortho (v : V3 α) : V3 α :=
  glm_vec3_ortho v

/-- `glms_vec3_clamp`: include/cglm/struct/vec3.h:839-844. -/
@[cglm]
def glms_vec3_clamp (v : V3 α) (minVal : α) (maxVal : α) : V3 α :=
  glm_vec3_clamp v minVal maxVal

/-- `glms_vec3_lerp`: include/cglm/struct/vec3.h:856-862. -/
@[cglm]
def glms_vec3_lerp (frm : V3 α) (to : V3 α) (t : α) : V3 α :=
  glm_vec3_lerp frm to t

/-- `glms_vec3_lerpc`: include/cglm/struct/vec3.h:874-880. -/
@[cglm]
def glms_vec3_lerpc (frm : V3 α) (to : V3 α) (t : α) : V3 α :=
  glm_vec3_lerpc frm to t

/-- `glms_vec3_mix`: include/cglm/struct/vec3.h:892-898. -/
@[cglm]
def glms_vec3_mix (frm : V3 α) (to : V3 α) (t : α) : V3 α :=
  glm_vec3_mix frm to t

/-- `glms_vec3_mixc`: include/cglm/struct/vec3.h:910-916. -/
@[cglm]
def glms_vec3_mixc (frm : V3 α) (to : V3 α) (t : α) : V3 α :=
  glm_vec3_mixc frm to t

/-- `glms_vec3_step`: include/cglm/struct/vec3.h:925-931. -/
@[cglm]
def glms_vec3_step (edge : V3 α) (x : V3 α) : V3 α :=
  glm_vec3_step edge x

/-- `glms_vec3_smoothstep_uni`: include/cglm/struct/vec3.h:941-947. -/
@[cglm]
def glms_vec3_smoothstep_uni (edge0 : α) (edge1 : α) (x : V3 α) : V3 α :=
  glm_vec3_smoothstep_uni edge0 edge1 x

/-- `glms_vec3_smoothstep`: include/cglm/struct/vec3.h:957-963. -/
@[cglm]
def glms_vec3_smoothstep (edge0 : V3 α) (edge1 : V3 α) (x : V3 α) : V3 α :=
  glm_vec3_smoothstep edge0 edge1 x

/-- `glms_vec3_smoothinterp`: include/cglm/struct/vec3.h:975-981. -/
@[cglm]
def glms_vec3_smoothinterp (frm : V3 α) (to : V3 α) (t : α) : V3 α :=
  glm_vec3_smoothinterp frm to t

/-- `glms_vec3_smoothinterpc`: include/cglm/struct/vec3.h:993-999. -/
@[cglm]
def glms_vec3_smoothinterpc (frm : V3 α) (to : V3 α) (t : α) : V3 α :=
  glm_vec3_smoothinterpc frm to t

/-- `glms_cross`: include/cglm/struct/vec3.h:1010-1016. -/
@[cglm]
def glms_cross (a : V3 α) (b : V3 α) : V3 α :=
  glm_cross a b

/-- `glms_dot`: include/cglm/struct/vec3.h:1027-1031. -/
@[cglm]
def glms_dot (a : V3 α) (b : V3 α) : α :=
  glm_dot a b

/-- `glms_normalize`: include/cglm/struct/vec3.h:1041-1046. -/
@[cglm]
def glms_normalize (v : V3 α) : V3 α :=
  glm_normalize v

/-- `glms_vec3_make`: include/cglm/struct/vec3.h:1071-1077. -/
@[cglm]
def glms_vec3_make (src : V3 α) : V3 α :=
  glm_vec3_make src

/-- `glms_vec3_faceforward`: include/cglm/struct/vec3.h:1089-1095. -/
@[cglm]
def glms_vec3_faceforward (n : V3 α) (v : V3 α) (nref : V3 α) : V3 α :=
  glm_vec3_faceforward n v nref

/-- `glms_vec3_reflect`: include/cglm/struct/vec3.h:1104-1110. -/
@[cglm]
def glms_vec3_reflect (v : V3 α) (n : V3 α) : V3 α :=
  glm_vec3_reflect v n

/-- `glms_vec3_refract`: include/cglm/struct/vec3.h:1126-1130. -/
@[cglm]
def glms_vec3_refract (v : V3 α) (n : V3 α) (eta : α) : Bool × V3 α :=
  let r := glm_vec3_refract v n eta
  (r.1, r.2)

end Cglm

end StructVec3

section StructVec3Ext

/- Generated from include/cglm/struct/vec3-ext.h by tools/gen.py (value semantics); do not edit by hand. -/

set_option linter.unusedVariables false
set_option linter.unusedSectionVars false

namespace Cglm

variable {α : Type} [Add α] [Sub α] [Mul α] [Div α] [Neg α] [CFloat α]

/-- `glms_vec3_broadcast`: include/cglm/struct/vec3-ext.h:54-60. -/
@[cglm]
def glms_vec3_broadcast (val : α) : V3 α :=
  glm_vec3_broadcast val

/-- `glms_vec3_fill`: include/cglm/struct/vec3-ext.h:68-74. -/
@[cglm]
def glms_vec3_fill (val : α) : V3 α :=
  glm_vec3_fill val

/-- `glms_vec3_eq`: include/cglm/struct/vec3-ext.h:82-86. -/
@[cglm]
def glms_vec3_eq (v : V3 α) (val : α) : Bool :=
  glm_vec3_eq v val

/-- `glms_vec3_eq_eps`: include/cglm/struct/vec3-ext.h:94-98. -/
@[cglm]
def glms_vec3_eq_eps (v : V3 α) (val : α) : Bool :=
  glm_vec3_eq_eps v val

/-- `glms_vec3_eq_all`: include/cglm/struct/vec3-ext.h:105-109. -/
@[cglm]
def glms_vec3_eq_all (v : V3 α) : Bool :=
  glm_vec3_eq_all v

/-- `glms_vec3_eqv`: include/cglm/struct/vec3-ext.h:117-121. -/
@[cglm]
def glms_vec3_eqv (a : V3 α) (b : V3 α) : Bool :=
  glm_vec3_eqv a b

/-- `glms_vec3_eqv_eps`: include/cglm/struct/vec3-ext.h:129-133. -/
@[cglm]
def glms_vec3_eqv_eps (a : V3 α) (b : V3 α) : Bool :=
  glm_vec3_eqv_eps a b

/-- `glms_vec3_max`: include/cglm/struct/vec3-ext.h:140-144. -/
@[cglm]
def glms_vec3_max (v : V3 α) : α :=
  glm_vec3_max v

/-- `glms_vec3_min`: include/cglm/struct/vec3-ext.h:151-155. -/
@[cglm]
def glms_vec3_min (v : V3 α) : α :=
  glm_vec3_min v

/-- `glms_vec3_isnan`: include/cglm/struct/vec3-ext.h:163-167. -/
@[cglm]
def glms_vec3_isnan (v : V3 α) : Bool :=
  glm_vec3_isnan v

/-- `glms_vec3_isinf`: include/cglm/struct/vec3-ext.h:175-179. -/
@[cglm]
def glms_vec3_isinf (v : V3 α) : Bool :=
  glm_vec3_isinf v

/-- `glms_vec3_isvalid`: include/cglm/struct/vec3-ext.h:187-191. -/
@[cglm]
def glms_vec3_isvalid (v : V3 α) : Bool :=
  glm_vec3_isvalid v

/-- `glms_vec3_sign`: include/cglm/struct/vec3-ext.h:201-207. -/
@[cglm]
def glms_vec3_sign (v : V3 α) : V3 α :=
  glm_vec3_sign v

/-- `glms_vec3_abs`: include/cglm/struct/vec3-ext.h:215-221. -/
@[cglm]
def glms_vec3_abs (v : V3 α) : V3 α :=
  glm_vec3_abs v

/-- `glms_vec3_fract`: include/cglm/struct/vec3-ext.h:229-235. -/
@[cglm]
def glms_vec3_fract (v : V3 α) : V3 α :=
  glm_vec3_fract v

/-- `glms_vec3_floor`: include/cglm/struct/vec3-ext.h:243-249. -/
@[cglm]
def glms_vec3_floor (v : V3 α) : V3 α :=
  glm_vec3_floor v

/-- `glms_vec3_mods`: include/cglm/struct/vec3-ext.h:258-264. -/
@[cglm]
def glms_vec3_mods (v : V3 α) (s : α) : V3 α :=
  glm_vec3_mods v s

/-- `glms_vec3_steps`: include/cglm/struct/vec3-ext.h:274-280. -/
@[cglm]
def glms_vec3_steps (edge : α) (x : V3 α) : V3 α :=
  glm_vec3_steps edge x

/-- `glms_vec3_stepr`: include/cglm/struct/vec3-ext.h:290-296. -/
@[cglm]
def glms_vec3_stepr (edge : V3 α) (x : α) : V3 α :=
  glm_vec3_stepr edge x

/-- `glms_vec3_hadd`: include/cglm/struct/vec3-ext.h:305-309. -/
@[cglm]
def glms_vec3_hadd (v : V3 α) : α :=
  glm_vec3_hadd v

/-- `glms_vec3_sqrt`: include/cglm/struct/vec3-ext.h:317-323. -/
@[cglm]
def glms_vec3_sqrt (v : V3 α) : V3 α :=
  glm_vec3_sqrt v

end Cglm

end StructVec3Ext

section StructVec4

/- Generated from include/cglm/struct/vec4.h by tools/gen.py (value semantics); do not edit by hand. -/

set_option linter.unusedVariables false
set_option linter.unusedSectionVars false

namespace Cglm

variable {α : Type} [Add α] [Sub α] [Mul α] [Div α] [Neg α] [CFloat α]

/-- `glms_vec4`: include/cglm/struct/vec4.h:103-109. -/
@[cglm]
def glms_vec4 (v3 : V3 α) (last : α) : V4 α :=
  glm_vec4 v3 last

/-- `glms_vec4_copy3`: include/cglm/struct/vec4.h:117-123. -/
@[cglm]
def glms_vec4_copy3 (v : V4 α) : V3 α :=
  glm_vec4_copy3 v

/-- `glms_vec4_copy`: include/cglm/struct/vec4.h:131-137. -/
@[cglm]
def glms_vec4_copy (v : V4 α) : V4 α :=
  glm_vec4_copy v

/-- `glms_vec4_ucopy`: include/cglm/struct/vec4.h:147-153. -/
@[cglm]
def glms_vec4_ucopy (v : V4 α) : V4 α :=
  glm_vec4_ucopy v

/-- `glms_vec4_zero`: include/cglm/struct/vec4.h:194-200. -/
@[cglm]
def glms_vec4_zero : V4 α :=
  glm_vec4_zero

/-- `glms_vec4_one`: include/cglm/struct/vec4.h:207-213. -/
@[cglm]
def glms_vec4_one : V4 α :=
  glm_vec4_one

/-- `glms_vec4_dot`: include/cglm/struct/vec4.h:223-227. -/
@[cglm]
def glms_vec4_dot (a : V4 α) (b : V4 α) : α :=
  glm_vec4_dot a b

/-- `glms_vec4_norm2`: include/cglm/struct/vec4.h:240-244. -/
@[cglm]
def glms_vec4_norm2 (v : V4 α) : α :=
  glm_vec4_norm2 v

/-- `glms_vec4_norm`: include/cglm/struct/vec4.h:253-257. -/
@[cglm]
def glms_vec4_norm (v : V4 α) : α :=
  glm_vec4_norm v

/-- `glms_vec4_norm_one`: include/cglm/struct/vec4.h:273-277. -/
@[cglm]
def glms_vec4_norm_one (v : V4 α) : α :=
  glm_vec4_norm_one v

/-- `glms_vec4_norm_inf`: include/cglm/struct/vec4.h:292-296. -/
@[cglm]
def glms_vec4_norm_inf (v : V4 α) : α :=
  glm_vec4_norm_inf v

/-- `glms_vec4_add`: include/cglm/struct/vec4.h:305-311. -/
@[cglm]
def glms_vec4_add (a : V4 α) (b : V4 α) : V4 α :=
  glm_vec4_add a b

/-- `glms_vec4_adds`: include/cglm/struct/vec4.h:320-326. -/
@[cglm]
def glms_vec4_adds (v : V4 α) (s : α) : V4 α :=
  glm_vec4_adds v s

/-- `glms_vec4_sub`: include/cglm/struct/vec4.h:335-341. -/
@[cglm]
def glms_vec4_sub (a : V4 α) (b : V4 α) : V4 α :=
  glm_vec4_sub a b

/-- `glms_vec4_subs`: include/cglm/struct/vec4.h:350-356. -/
@[cglm]
def glms_vec4_subs (v : V4 α) (s : α) : V4 α :=
  glm_vec4_subs v s

/-- `glms_vec4_mul`: include/cglm/struct/vec4.h:365-371. -/
@[cglm]
def glms_vec4_mul (a : V4 α) (b : V4 α) : V4 α :=
  glm_vec4_mul a b

/-- `glms_vec4_scale`: include/cglm/struct/vec4.h:380-386. -/
@[cglm]
def glms_vec4_scale (v : V4 α) (s : α) : V4 α :=
  glm_vec4_scale v s

/-- `glms_vec4_scale_as`: include/cglm/struct/vec4.h:395-401. -/
@[cglm]
def glms_vec4_scale_as (v : V4 α) (s : α) : V4 α :=
  glm_vec4_scale_as v s

/-- `glms_vec4_div`: include/cglm/struct/vec4.h:410-416. -/
@[cglm]
def glms_vec4_div (a : V4 α) (b : V4 α) : V4 α :=
  glm_vec4_div a b

/-- `glms_vec4_divs`: include/cglm/struct/vec4.h:425-431. -/
@[cglm]
def glms_vec4_divs (v : V4 α) (s : α) : V4 α :=
  glm_vec4_divs v s

/-- `glms_vec4_addadd`: include/cglm/struct/vec4.h:442-447. -/
@[cglm]
def glms_vec4_addadd (a : V4 α) (b : V4 α) (dest : V4 α) : V4 α :=
  glm_vec4_addadd a b dest

/-- `glms_vec4_subadd`: include/cglm/struct/vec4.h:458-463. -/
@[cglm]
def glms_vec4_subadd (a : V4 α) (b : V4 α) (dest : V4 α) : V4 α :=
  glm_vec4_subadd a b dest

/-- `glms_vec4_muladd`: include/cglm/struct/vec4.h:474-479. -/
@[cglm]
def glms_vec4_muladd (a : V4 α) (b : V4 α) (dest : V4 α) : V4 α :=
  glm_vec4_muladd a b dest

/-- `glms_vec4_muladds`: include/cglm/struct/vec4.h:490-495. -/
@[cglm]
def glms_vec4_muladds (a : V4 α) (s : α) (dest : V4 α) : V4 α :=
  glm_vec4_muladds a s dest

/-- `glms_vec4_maxadd`: include/cglm/struct/vec4.h:506-511. -/
@[cglm]
def glms_vec4_maxadd (a : V4 α) (b : V4 α) (dest : V4 α) : V4 α :=
  glm_vec4_maxadd a b dest

/-- `glms_vec4_minadd`: include/cglm/struct/vec4.h:522-527. -/
@[cglm]
def glms_vec4_minadd (a : V4 α) (b : V4 α) (dest : V4 α) : V4 α :=
  glm_vec4_minadd a b dest

/-- `glms_vec4_subsub`: include/cglm/struct/vec4.h:538-543. -/
@[cglm]
def glms_vec4_subsub (a : V4 α) (b : V4 α) (dest : V4 α) : V4 α :=
  glm_vec4_subsub a b dest

/-- `glms_vec4_addsub`: include/cglm/struct/vec4.h:554-559. -/
@[cglm]
def glms_vec4_addsub (a : V4 α) (b : V4 α) (dest : V4 α) : V4 α :=
  glm_vec4_addsub a b dest

/-- `glms_vec4_mulsub`: include/cglm/struct/vec4.h:570-575. -/
@[cglm]
def glms_vec4_mulsub (a : V4 α) (b : V4 α) (dest : V4 α) : V4 α :=
  glm_vec4_mulsub a b dest

/-- `glms_vec4_mulsubs`: include/cglm/struct/vec4.h:586-591. -/
@[cglm]
def glms_vec4_mulsubs (a : V4 α) (s : α) (dest : V4 α) : V4 α :=
  glm_vec4_mulsubs a s dest

/-- `glms_vec4_maxsub`: include/cglm/struct/vec4.h:602-607. -/
@[cglm]
def glms_vec4_maxsub (a : V4 α) (b : V4 α) (dest : V4 α) : V4 α :=
  glm_vec4_maxsub a b dest

/-- `glms_vec4_minsub`: include/cglm/struct/vec4.h:618-623. -/
@[cglm]
def glms_vec4_minsub (a : V4 α) (b : V4 α) (dest : V4 α) : V4 α :=
  glm_vec4_minsub a b dest

/-- `glms_vec4_negate`: include/cglm/struct/vec4.h:631-636. -/
@[cglm]
def glms_vec4_negate (v : V4 α) : V4 α :=
  glm_vec4_negate v

/-- `glms_vec4_normalize`: include/cglm/struct/vec4.h:644-649. -/
@[cglm]
def glms_vec4_normalize (v : V4 α) : V4 α :=
  glm_vec4_normalize v

/-- `glms_vec4_distance`: include/cglm/struct/vec4.h:658-662. -/
@[cglm]
def glms_vec4_distance (a : V4 α) (b : V4 α) : α :=
  glm_vec4_distance a b

/-- `glms_vec4_distance2`: include/cglm/struct/vec4.h:671-675. -/
@[cglm]
def glms_vec4_distance2 (a : V4 α) (b : V4 α) : α :=
  glm_vec4_distance2 a b

/-- `glms_vec4_maxv`: include/cglm/struct/vec4.h:684-690. -/
@[cglm]
def glms_vec4_maxv (a : V4 α) (b : V4 α) : V4 α :=
  glm_vec4_maxv a b

/-- `glms_vec4_minv`: include/cglm/struct/vec4.h:699-705. -/
@[cglm]
def glms_vec4_minv (a : V4 α) (b : V4 α) : V4 α :=
  glm_vec4_minv a b

/-- `glms_vec4_clamp`: include/cglm/struct/vec4.h:715-720. -/
@[cglm]
def glms_vec4_clamp (v : V4 α) (minVal : α) (maxVal : α) : V4 α :=
  glm_vec4_clamp v minVal maxVal

/-- `glms_vec4_lerp`: include/cglm/struct/vec4.h:732-738. -/
@[cglm]
def glms_vec4_lerp (frm : V4 α) (to : V4 α) (t : α) : V4 α :=
  glm_vec4_lerp frm to t

/-- `glms_vec4_lerpc`: include/cglm/struct/vec4.h:750-756. -/
@[cglm]
def glms_vec4_lerpc (frm : V4 α) (to : V4 α) (t : α) : V4 α :=
  glm_vec4_lerpc frm to t

/-- `glms_vec4_mix`: include/cglm/struct/vec4.h:768-774. -/
@[cglm]
def glms_vec4_mix (frm : V4 α) (to : V4 α) (t : α) : V4 α :=
  glm_vec4_mix frm to t

/-- `glms_vec4_mixc`: include/cglm/struct/vec4.h:786-792. -/
@[cglm]
def glms_vec4_mixc (frm : V4 α) (to : V4 α) (t : α) : V4 α :=
  glm_vec4_mixc frm to t

/-- `glms_vec4_step`: include/cglm/struct/vec4.h:801-807. -/
@[cglm]
def glms_vec4_step (edge : V4 α) (x : V4 α) : V4 α :=
  glm_vec4_step edge x

/-- `glms_vec4_smoothstep_uni`: include/cglm/struct/vec4.h:817-823. -/
@[cglm]
def glms_vec4_smoothstep_uni (edge0 : α) (edge1 : α) (x : V4 α) : V4 α :=
  glm_vec4_smoothstep_uni edge0 edge1 x

/-- `glms_vec4_smoothstep`: include/cglm/struct/vec4.h:833-839. -/
@[cglm]
def glms_vec4_smoothstep (edge0 : V4 α) (edge1 : V4 α) (x : V4 α) : V4 α :=
  glm_vec4_smoothstep edge0 edge1 x

/-- `glms_vec4_smoothinterp`: include/cglm/struct/vec4.h:851-857. -/
@[cglm]
def glms_vec4_smoothinterp (frm : V4 α) (to : V4 α) (t : α) : V4 α :=
  glm_vec4_smoothinterp frm to t

/-- `glms_vec4_smoothinterpc`: include/cglm/struct/vec4.h:869-875. -/
@[cglm]
def glms_vec4_smoothinterpc (frm : V4 α) (to : V4 α) (t : α) : V4 α :=
  glm_vec4_smoothinterpc frm to t

/-- `glms_vec4_cubic`: include/cglm/struct/vec4.h:883-889. -/
@[cglm]
def glms_vec4_cubic (s : α) : V4 α :=
  glm_vec4_cubic s

/-- `glms_vec4_make`: include/cglm/struct/vec4.h:914-920. -/
@[cglm]
def glms_vec4_make (src : V4 α) : V4 α :=
  glm_vec4_make src

/-- `glms_vec4_reflect`: include/cglm/struct/vec4.h:929-935. -/
@[cglm]
def glms_vec4_reflect (v : V4 α) (n : V4 α) : V4 α :=
  glm_vec4_reflect v n

/-- `glms_vec4_refract`: include/cglm/struct/vec4.h:955-959. -/
@[cglm]
def glms_vec4_refract (v : V4 α) (n : V4 α) (eta : α) : Bool × V4 α :=
  let r := glm_vec4_refract v n eta
  (r.1, r.2)

end Cglm

end StructVec4

section StructVec4Ext

/- Generated from include/cglm/struct/vec4-ext.h by tools/gen.py (value semantics); do not edit by hand. -/

set_option linter.unusedVariables false
set_option linter.unusedSectionVars false

namespace Cglm

variable {α : Type} [Add α] [Sub α] [Mul α] [Div α] [Neg α] [CFloat α]

/-- `glms_vec4_broadcast`: include/cglm/struct/vec4-ext.h:54-60. -/
@[cglm]
def glms_vec4_broadcast (val : α) : V4 α :=
  glm_vec4_broadcast val

/-- `glms_vec4_fill`: include/cglm/struct/vec4-ext.h:68-74. -/
@[cglm]
def glms_vec4_fill (val : α) : V4 α :=
  glm_vec4_fill val

/-- `glms_vec4_eq`: include/cglm/struct/vec4-ext.h:82-86. -/
@[cglm]
def glms_vec4_eq (v : V4 α) (val : α) : Bool :=
  glm_vec4_eq v val

/-- `glms_vec4_eq_eps`: include/cglm/struct/vec4-ext.h:94-98. -/
@[cglm]
def glms_vec4_eq_eps (v : V4 α) (val : α) : Bool :=
  glm_vec4_eq_eps v val

/-- `glms_vec4_eq_all`: include/cglm/struct/vec4-ext.h:105-109. -/
@[cglm]
def glms_vec4_eq_all (v : V4 α) : Bool :=
  glm_vec4_eq_all v

/-- `glms_vec4_eqv`: include/cglm/struct/vec4-ext.h:117-121. -/
@[cglm]
def glms_vec4_eqv (a : V4 α) (b : V4 α) : Bool :=
  glm_vec4_eqv a b

/-- `glms_vec4_eqv_eps`: include/cglm/struct/vec4-ext.h:129-133. -/
@[cglm]
def glms_vec4_eqv_eps (a : V4 α) (b : V4 α) : Bool :=
  glm_vec4_eqv_eps a b

/-- `glms_vec4_max`: include/cglm/struct/vec4-ext.h:140-144. -/
@[cglm]
def glms_vec4_max (v : V4 α) : α :=
  glm_vec4_max v

/-- `glms_vec4_min`: include/cglm/struct/vec4-ext.h:151-155. -/
@[cglm]
def glms_vec4_min (v : V4 α) : α :=
  glm_vec4_min v

/-- `glms_vec4_isnan`: include/cglm/struct/vec4-ext.h:163-167. -/
@[cglm]
def glms_vec4_isnan (v : V4 α) : Bool :=
  glm_vec4_isnan v

/-- `glms_vec4_isinf`: include/cglm/struct/vec4-ext.h:175-179. -/
@[cglm]
def glms_vec4_isinf (v : V4 α) : Bool :=
  glm_vec4_isinf v

/-- `glms_vec4_isvalid`: include/cglm/struct/vec4-ext.h:187-191. -/
@[cglm]
def glms_vec4_isvalid (v : V4 α) : Bool :=
  glm_vec4_isvalid v

/-- `glms_vec4_sign`: include/cglm/struct/vec4-ext.h:201-207. -/
@[cglm]
def glms_vec4_sign (v : V4 α) : V4 α :=
  glm_vec4_sign v

/-- `glms_vec4_abs`: include/cglm/struct/vec4-ext.h:215-221. -/
@[cglm]
def glms_vec4_abs (v : V4 α) : V4 α :=
  glm_vec4_abs v

/-- `glms_vec4_fract`: include/cglm/struct/vec4-ext.h:229-235. -/
@[cglm]
def glms_vec4_fract (v : V4 α) : V4 α :=
  glm_vec4_fract v

/-- `glms_vec4_floor`: include/cglm/struct/vec4-ext.h:243-249. -/
@[cglm]
def glms_vec4_floor (v : V4 α) : V4 α :=
  glm_vec4_floor v

/-- `glms_vec4_mods`: include/cglm/struct/vec4-ext.h:258-264. -/
@[cglm]
def glms_vec4_mods (v : V4 α) (s : α) : V4 α :=
  glm_vec4_mods v s

/-- `glms_vec4_steps`: include/cglm/struct/vec4-ext.h:274-280. -/
@[cglm]
def glms_vec4_steps (edge : α) (x : V4 α) : V4 α :=
  glm_vec4_steps edge x

/-- `glms_vec4_stepr`: include/cglm/struct/vec4-ext.h:290-296. -/
@[cglm]
def glms_vec4_stepr (edge : V4 α) (x : α) : V4 α :=
  glm_vec4_stepr edge x

/-- `glms_vec4_hadd`: include/cglm/struct/vec4-ext.h:305-309. -/
@[cglm]
def glms_vec4_hadd (v : V4 α) : α :=
  glm_vec4_hadd v

/-- `glms_vec4_sqrt`: include/cglm/struct/vec4-ext.h:317-323. -/
@[cglm]
def glms_vec4_sqrt (v : V4 α) : V4 α :=
  glm_vec4_sqrt v

end Cglm

end StructVec4Ext
