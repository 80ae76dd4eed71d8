/- Generated from include/cglm/vec4.h by tools/gen.py (value semantics); do not edit by hand. -/
import Verif.Base
import Verif.Attr
import Verif.Gen.Util
import Verif.Gen.Vec4Ext

set_option linter.unusedVariables false
set_option linter.unusedSectionVars false

namespace Cglm

variable {α : Type} [Add α] [Sub α] [Mul α] [Div α] [Neg α] [CFloat α]

/-- `glm_vec4`: include/cglm/vec4.h:118-125. -/
@[cglm]
def glm_vec4 (v3 : V3 α) (last : α) : V4 α :=
  ⟨v3.x, v3.y, v3.z, last⟩

/-- `glm_vec4_copy3`: include/cglm/vec4.h:133-139. -/
@[cglm]
def glm_vec4_copy3 (a : V4 α) : V3 α :=
  ⟨a.x, a.y, a.z⟩

/-- `glm_vec4_copy`: include/cglm/vec4.h:147-162. -/
@[cglm]
def glm_vec4_copy (v : V4 α) : V4 α :=
  v

/-- `glm_vec4_ucopy`: include/cglm/vec4.h:172-184. -/
@[cglm]
def glm_vec4_ucopy (v : V4 α) : V4 α :=
  v

/-- `glm_vec4_zero`: include/cglm/vec4.h:191-206. -/
@[cglm]
def glm_vec4_zero : V4 α :=
  ⟨lit 0, lit 0, lit 0, lit 0⟩

/-- `glm_vec4_one`: include/cglm/vec4.h:213-228. -/
@[cglm]
def glm_vec4_one : V4 α :=
  ⟨lit 1, lit 1, lit 1, lit 1⟩

/-- `glm_vec4_dot`: include/cglm/vec4.h:238-246. -/
@[cglm]
def glm_vec4_dot (a : V4 α) (b : V4 α) : α :=
  a.x * b.x + a.y * b.y + a.z * b.z + a.w * b.w

/-- `glm_vec4_norm2`: include/cglm/vec4.h:259-263. -/
@[cglm]
def glm_vec4_norm2 (v : V4 α) : α :=
  glm_vec4_dot v v

/-- `glm_vec4_norm`: include/cglm/vec4.h:273-281. -/
@[cglm]
def glm_vec4_norm (v : V4 α) : α :=
  sqrtf (glm_vec4_dot v v)

/-- `glm_vec4_norm_one`: include/cglm/vec4.h:297-307. -/
@[cglm]
def glm_vec4_norm_one (v : V4 α) : α :=
  glm_vec4_hadd (glm_vec4_abs v)

/-- `glm_vec4_norm_inf`: include/cglm/vec4.h:322-332. -/
@[cglm]
def glm_vec4_norm_inf (v : V4 α) : α :=
  glm_vec4_max (glm_vec4_abs v)

/-- `glm_vec4_add`: include/cglm/vec4.h:341-356. -/
@[cglm]
def glm_vec4_add (a : V4 α) (b : V4 α) : V4 α :=
  ⟨a.x + b.x, a.y + b.y, a.z + b.z, a.w + b.w⟩

/-- `glm_vec4_adds`: include/cglm/vec4.h:365-380. -/
@[cglm]
def glm_vec4_adds (v : V4 α) (s : α) : V4 α :=
  ⟨v.x + s, v.y + s, v.z + s, v.w + s⟩

/-- `glm_vec4_sub`: include/cglm/vec4.h:389-404. -/
@[cglm]
def glm_vec4_sub (a : V4 α) (b : V4 α) : V4 α :=
  ⟨a.x - b.x, a.y - b.y, a.z - b.z, a.w - b.w⟩

/-- `glm_vec4_subs`: include/cglm/vec4.h:413-428. -/
@[cglm]
def glm_vec4_subs (v : V4 α) (s : α) : V4 α :=
  ⟨v.x - s, v.y - s, v.z - s, v.w - s⟩

/-- `glm_vec4_mul`: include/cglm/vec4.h:437-452. -/
@[cglm]
def glm_vec4_mul (a : V4 α) (b : V4 α) : V4 α :=
  ⟨a.x * b.x, a.y * b.y, a.z * b.z, a.w * b.w⟩

/-- `glm_vec4_scale`: include/cglm/vec4.h:461-476. -/
@[cglm]
def glm_vec4_scale (v : V4 α) (s : α) : V4 α :=
  ⟨v.x * s, v.y * s, v.z * s, v.w * s⟩

/-- `glm_vec4_scale_as`: include/cglm/vec4.h:485-497. -/
@[cglm]
def glm_vec4_scale_as (v : V4 α) (s : α) : V4 α :=
  let norm := glm_vec4_norm v
  if flt norm (lit 0.00000011920928955078125) then
    glm_vec4_zero
  else
    glm_vec4_scale v (s / norm)

/-- `glm_vec4_div`: include/cglm/vec4.h:506-517. -/
@[cglm]
def glm_vec4_div (a : V4 α) (b : V4 α) : V4 α :=
  ⟨a.x / b.x, a.y / b.y, a.z / b.z, a.w / b.w⟩

/-- `glm_vec4_divs`: include/cglm/vec4.h:526-534. -/
@[cglm]
def glm_vec4_divs (v : V4 α) (s : α) : V4 α :=
  glm_vec4_scale v ((lit 1) / s)

/-- `glm_vec4_addadd`: include/cglm/vec4.h:545-566. -/
@[cglm]
def glm_vec4_addadd (a : V4 α) (b : V4 α) (dest : V4 α) : V4 α :=
  ⟨dest.x + (a.x + b.x), dest.y + (a.y + b.y), dest.z + (a.z + b.z), dest.w + (a.w + b.w)⟩

/-- `glm_vec4_subadd`: include/cglm/vec4.h:577-598. -/
@[cglm]
def glm_vec4_subadd (a : V4 α) (b : V4 α) (dest : V4 α) : V4 α :=
  ⟨dest.x + (a.x - b.x), dest.y + (a.y - b.y), dest.z + (a.z - b.z), dest.w + (a.w - b.w)⟩

/-- `glm_vec4_muladd`: include/cglm/vec4.h:609-620. -/
@[cglm]
def glm_vec4_muladd (a : V4 α) (b : V4 α) (dest : V4 α) : V4 α :=
  ⟨dest.x + a.x * b.x, dest.y + a.y * b.y, dest.z + a.z * b.z, dest.w + a.w * b.w⟩

/-- `glm_vec4_muladds`: include/cglm/vec4.h:631-642. -/
@[cglm]
def glm_vec4_muladds (a : V4 α) (s : α) (dest : V4 α) : V4 α :=
  ⟨dest.x + a.x * s, dest.y + a.y * s, dest.z + a.z * s, dest.w + a.w * s⟩

/-- `glm_vec4_maxadd`: include/cglm/vec4.h:653-671. -/
@[cglm]
def glm_vec4_maxadd (a : V4 α) (b : V4 α) (dest : V4 α) : V4 α :=
  ⟨dest.x + glm_max a.x b.x, dest.y + glm_max a.y b.y, dest.z + glm_max a.z b.z, dest.w + glm_max a.w b.w⟩

/-- `glm_vec4_minadd`: include/cglm/vec4.h:682-700. -/
@[cglm]
def glm_vec4_minadd (a : V4 α) (b : V4 α) (dest : V4 α) : V4 α :=
  ⟨dest.x + glm_min a.x b.x, dest.y + glm_min a.y b.y, dest.z + glm_min a.z b.z, dest.w + glm_min a.w b.w⟩

/-- `glm_vec4_subsub`: include/cglm/vec4.h:711-732. -/
@[cglm]
def glm_vec4_subsub (a : V4 α) (b : V4 α) (dest : V4 α) : V4 α :=
  ⟨dest.x - (a.x - b.x), dest.y - (a.y - b.y), dest.z - (a.z - b.z), dest.w - (a.w - b.w)⟩

/-- `glm_vec4_addsub`: include/cglm/vec4.h:743-764. -/
@[cglm]
def glm_vec4_addsub (a : V4 α) (b : V4 α) (dest : V4 α) : V4 α :=
  ⟨dest.x - (a.x + b.x), dest.y - (a.y + b.y), dest.z - (a.z + b.z), dest.w - (a.w + b.w)⟩

/-- `glm_vec4_mulsub`: include/cglm/vec4.h:775-786. -/
@[cglm]
def glm_vec4_mulsub (a : V4 α) (b : V4 α) (dest : V4 α) : V4 α :=
  ⟨dest.x - a.x * b.x, dest.y - a.y * b.y, dest.z - a.z * b.z, dest.w - a.w * b.w⟩

/-- `glm_vec4_mulsubs`: include/cglm/vec4.h:797-808. -/
@[cglm]
def glm_vec4_mulsubs (a : V4 α) (s : α) (dest : V4 α) : V4 α :=
  ⟨dest.x - a.x * s, dest.y - a.y * s, dest.z - a.z * s, dest.w - a.w * s⟩

/-- `glm_vec4_maxsub`: include/cglm/vec4.h:819-837. -/
@[cglm]
def glm_vec4_maxsub (a : V4 α) (b : V4 α) (dest : V4 α) : V4 α :=
  ⟨dest.x - glm_max a.x b.x, dest.y - glm_max a.y b.y, dest.z - glm_max a.z b.z, dest.w - glm_max a.w b.w⟩

/-- `glm_vec4_minsub`: include/cglm/vec4.h:848-866. -/
@[cglm]
def glm_vec4_minsub (a : V4 α) (b : V4 α) (dest : V4 α) : V4 α :=
  ⟨dest.x - glm_min a.x b.x, dest.y - glm_min a.y b.y, dest.z - glm_min a.z b.z, dest.w - glm_min a.w b.w⟩

/-- `glm_vec4_negate_to`: include/cglm/vec4.h:874-889. -/
@[cglm]
def glm_vec4_negate_to (v : V4 α) : V4 α :=
  ⟨-v.x, -v.y, -v.z, -v.w⟩

/-- `glm_vec4_negate`: include/cglm/vec4.h:896-900. -/
@[cglm]
def glm_vec4_negate (v : V4 α) : V4 α :=
  glm_vec4_negate_to v

/-- `glm_vec4_normalize_to`: include/cglm/vec4.h:908-952. -/
@[cglm]
def glm_vec4_normalize_to (v : V4 α) : V4 α :=
  let norm := glm_vec4_norm v
  if flt norm (lit 0.00000011920928955078125) then
    glm_vec4_zero
  else
    glm_vec4_scale v ((lit 1) / norm)

/-- `glm_vec4_normalize`: include/cglm/vec4.h:959-963. -/
@[cglm]
def glm_vec4_normalize (v : V4 α) : V4 α :=
  glm_vec4_normalize_to v

/-- `glm_vec4_distance`: include/cglm/vec4.h:972-987. -/
@[cglm]
def glm_vec4_distance (a : V4 α) (b : V4 α) : α :=
  sqrtf (glm_pow2 (a.x - b.x) + glm_pow2 (a.y - b.y) + glm_pow2 (a.z - b.z) + glm_pow2 (a.w - b.w))

/-- `glm_vec4_distance2`: include/cglm/vec4.h:996-1011. -/
@[cglm]
def glm_vec4_distance2 (a : V4 α) (b : V4 α) : α :=
  glm_pow2 (a.x - b.x) + glm_pow2 (a.y - b.y) + glm_pow2 (a.z - b.z) + glm_pow2 (a.w - b.w)

/-- `glm_vec4_maxv`: include/cglm/vec4.h:1020-1031. -/
@[cglm]
def glm_vec4_maxv (a : V4 α) (b : V4 α) : V4 α :=
  ⟨glm_max a.x b.x, glm_max a.y b.y, glm_max a.z b.z, glm_max a.w b.w⟩

/-- `glm_vec4_minv`: include/cglm/vec4.h:1040-1051. -/
@[cglm]
def glm_vec4_minv (a : V4 α) (b : V4 α) : V4 α :=
  ⟨glm_min a.x b.x, glm_min a.y b.y, glm_min a.z b.z, glm_min a.w b.w⟩

/-- `glm_vec4_clamp`: include/cglm/vec4.h:1060-1078. -/
@[cglm]
def glm_vec4_clamp (v : V4 α) (minVal : α) (maxVal : α) : V4 α :=
  ⟨glm_clamp v.x minVal maxVal, glm_clamp v.y minVal maxVal, glm_clamp v.z minVal maxVal, glm_clamp v.w minVal maxVal⟩

/-- `glm_vec4_lerp`: include/cglm/vec4.h:1090-1100. -/
@[cglm]
def glm_vec4_lerp (frm : V4 α) (to : V4 α) (t : α) : V4 α :=
  let s := glm_vec4_broadcast t
  let v := glm_vec4_sub to frm
  let v_1 := glm_vec4_mul s v
  glm_vec4_add frm v_1

/-- `glm_vec4_lerpc`: include/cglm/vec4.h:1112-1116. -/
@[cglm]
def glm_vec4_lerpc (frm : V4 α) (to : V4 α) (t : α) : V4 α :=
  glm_vec4_lerp frm to (glm_clamp_zo t)

/-- `glm_vec4_mix`: include/cglm/vec4.h:1128-1132. -/
@[cglm]
def glm_vec4_mix (frm : V4 α) (to : V4 α) (t : α) : V4 α :=
  glm_vec4_lerp frm to t

/-- `glm_vec4_mixc`: include/cglm/vec4.h:1144-1148. -/
@[cglm]
def glm_vec4_mixc (frm : V4 α) (to : V4 α) (t : α) : V4 α :=
  glm_vec4_lerpc frm to t

/-- `glm_vec4_step`: include/cglm/vec4.h:1157-1164. -/
@[cglm]
def glm_vec4_step (edge : V4 α) (x : V4 α) : V4 α :=
  ⟨glm_step edge.x x.x, glm_step edge.y x.y, glm_step edge.z x.z, glm_step edge.w x.w⟩

/-- `glm_vec4_smoothstep_uni`: include/cglm/vec4.h:1174-1181. -/
@[cglm]
def glm_vec4_smoothstep_uni (edge0 : α) (edge1 : α) (x : V4 α) : V4 α :=
  ⟨glm_smoothstep edge0 edge1 x.x, glm_smoothstep edge0 edge1 x.y, glm_smoothstep edge0 edge1 x.z, glm_smoothstep edge0 edge1 x.w⟩

/-- `glm_vec4_smoothstep`: include/cglm/vec4.h:1191-1198. -/
@[cglm]
def glm_vec4_smoothstep (edge0 : V4 α) (edge1 : V4 α) (x : V4 α) : V4 α :=
  ⟨glm_smoothstep edge0.x edge1.x x.x, glm_smoothstep edge0.y edge1.y x.y, glm_smoothstep edge0.z edge1.z x.z, glm_smoothstep edge0.w edge1.w x.w⟩

/-- `glm_vec4_smoothinterp`: include/cglm/vec4.h:1210-1220. -/
@[cglm]
def glm_vec4_smoothinterp (frm : V4 α) (to : V4 α) (t : α) : V4 α :=
  let s := glm_vec4_broadcast (glm_smooth t)
  let v := glm_vec4_sub to frm
  let v_1 := glm_vec4_mul s v
  glm_vec4_add frm v_1

/-- `glm_vec4_smoothinterpc`: include/cglm/vec4.h:1232-1236. -/
@[cglm]
def glm_vec4_smoothinterpc (frm : V4 α) (to : V4 α) (t : α) : V4 α :=
  glm_vec4_smoothinterp frm to (glm_clamp_zo t)

/-- `glm_vec4_cubic`: include/cglm/vec4.h:1244-1255. -/
@[cglm]
def glm_vec4_cubic (s : α) : V4 α :=
  let ss := s * s
  ⟨ss * s, ss, s, lit 1⟩

/-- `glm_vec4_make`: include/cglm/vec4.h:1285-1290. -/
@[cglm]
def glm_vec4_make (src : V4 α) : V4 α :=
  src

/-- `glm_vec4_reflect`: include/cglm/vec4.h:1299-1309. -/
@[cglm]
def glm_vec4_reflect (v : V4 α) (n : V4 α) : V4 α :=
  let temp := glm_vec4_scale n ((lit 2) * glm_vec4_dot v n)
  let dest_1 := glm_vec4_sub v temp
  ⟨dest_1.x, dest_1.y, dest_1.z, v.w⟩

/-- `glm_vec4_refract`: include/cglm/vec4.h:1329-1346. -/
@[cglm]
def glm_vec4_refract (v : V4 α) (n : V4 α) (eta : α) : Bool × V4 α :=
  let ndi := glm_vec4_dot n v
  let eni := eta * ndi
  let k := (lit 1) - eta * eta + eni * eni
  if flt k (lit 0) then
    (false, glm_vec4_zero)
  else
    let dest_1 := glm_vec4_scale v eta
    (true, glm_vec4_mulsubs n (eni + sqrtf k) dest_1)

end Cglm
