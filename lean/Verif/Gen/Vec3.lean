/- Generated from include/cglm/vec3.h by tools/gen.py (value semantics); do not edit by hand. -/
import Verif.Base
import Verif.Attr
import Verif.Gen.Util
import Verif.Gen.Vec3Ext
import Verif.Gen.Vec4

set_option linter.unusedVariables false
set_option linter.unusedSectionVars false

namespace Cglm

variable {α : Type} [Add α] [Sub α] [Mul α] [Div α] [Neg α] [CFloat α]

/-- `glm_vec3`: include/cglm/vec3.h:141-147. -/
@[cglm]
def glm_vec3 (v4 : V4 α) : V3 α :=
  ⟨v4.x, v4.y, v4.z⟩

/-- `glm_vec3_copy`: include/cglm/vec3.h:155-161. -/
@[cglm]
def glm_vec3_copy (a : V3 α) : V3 α :=
  a

/-- `glm_vec3_zero`: include/cglm/vec3.h:168-172. -/
@[cglm]
def glm_vec3_zero : V3 α :=
  ⟨lit 0, lit 0, lit 0⟩

/-- `glm_vec3_one`: include/cglm/vec3.h:179-183. -/
@[cglm]
def glm_vec3_one : V3 α :=
  ⟨lit 1, lit 1, lit 1⟩

/-- `glm_vec3_dot`: include/cglm/vec3.h:193-197. -/
@[cglm]
def glm_vec3_dot (a : V3 α) (b : V3 α) : α :=
  a.x * b.x + a.y * b.y + a.z * b.z

/-- `glm_vec3_norm2`: include/cglm/vec3.h:210-214. -/
@[cglm]
def glm_vec3_norm2 (v : V3 α) : α :=
  glm_vec3_dot v v

/-- `glm_vec3_norm`: include/cglm/vec3.h:224-228. -/
@[cglm]
def glm_vec3_norm (v : V3 α) : α :=
  sqrtf (glm_vec3_norm2 v)

/-- `glm_vec3_norm_one`: include/cglm/vec3.h:244-250. -/
@[cglm]
def glm_vec3_norm_one (v : V3 α) : α :=
  glm_vec3_hadd (glm_vec3_abs v)

/-- `glm_vec3_norm_inf`: include/cglm/vec3.h:265-271. -/
@[cglm]
def glm_vec3_norm_inf (v : V3 α) : α :=
  glm_vec3_max (glm_vec3_abs v)

/-- `glm_vec3_add`: include/cglm/vec3.h:280-286. -/
@[cglm]
def glm_vec3_add (a : V3 α) (b : V3 α) : V3 α :=
  ⟨a.x + b.x, a.y + b.y, a.z + b.z⟩

/-- `glm_vec3_adds`: include/cglm/vec3.h:295-301. -/
@[cglm]
def glm_vec3_adds (v : V3 α) (s : α) : V3 α :=
  ⟨v.x + s, v.y + s, v.z + s⟩

/-- `glm_vec3_sub`: include/cglm/vec3.h:310-316. -/
@[cglm]
def glm_vec3_sub (a : V3 α) (b : V3 α) : V3 α :=
  ⟨a.x - b.x, a.y - b.y, a.z - b.z⟩

/-- `glm_vec3_subs`: include/cglm/vec3.h:325-331. -/
@[cglm]
def glm_vec3_subs (v : V3 α) (s : α) : V3 α :=
  ⟨v.x - s, v.y - s, v.z - s⟩

/-- `glm_vec3_mul`: include/cglm/vec3.h:340-346. -/
@[cglm]
def glm_vec3_mul (a : V3 α) (b : V3 α) : V3 α :=
  ⟨a.x * b.x, a.y * b.y, a.z * b.z⟩

/-- `glm_vec3_scale`: include/cglm/vec3.h:355-361. -/
@[cglm]
def glm_vec3_scale (v : V3 α) (s : α) : V3 α :=
  ⟨v.x * s, v.y * s, v.z * s⟩

/-- `glm_vec3_scale_as`: include/cglm/vec3.h:370-382. -/
@[cglm]
def glm_vec3_scale_as (v : V3 α) (s : α) : V3 α :=
  let norm := glm_vec3_norm v
  if flt norm (lit 0.00000011920928955078125) then
    glm_vec3_zero
  else
    glm_vec3_scale v (s / norm)

/-- `glm_vec3_div`: include/cglm/vec3.h:391-397. -/
@[cglm]
def glm_vec3_div (a : V3 α) (b : V3 α) : V3 α :=
  ⟨a.x / b.x, a.y / b.y, a.z / b.z⟩

/-- `glm_vec3_divs`: include/cglm/vec3.h:406-412. -/
@[cglm]
def glm_vec3_divs (v : V3 α) (s : α) : V3 α :=
  ⟨v.x / s, v.y / s, v.z / s⟩

/-- `glm_vec3_addadd`: include/cglm/vec3.h:423-429. -/
@[cglm]
def glm_vec3_addadd (a : V3 α) (b : V3 α) (dest : V3 α) : V3 α :=
  ⟨dest.x + (a.x + b.x), dest.y + (a.y + b.y), dest.z + (a.z + b.z)⟩

/-- `glm_vec3_subadd`: include/cglm/vec3.h:440-446. -/
@[cglm]
def glm_vec3_subadd (a : V3 α) (b : V3 α) (dest : V3 α) : V3 α :=
  ⟨dest.x + (a.x - b.x), dest.y + (a.y - b.y), dest.z + (a.z - b.z)⟩

/-- `glm_vec3_muladd`: include/cglm/vec3.h:457-463. -/
@[cglm]
def glm_vec3_muladd (a : V3 α) (b : V3 α) (dest : V3 α) : V3 α :=
  ⟨dest.x + a.x * b.x, dest.y + a.y * b.y, dest.z + a.z * b.z⟩

/-- `glm_vec3_muladds`: include/cglm/vec3.h:474-480. -/
@[cglm]
def glm_vec3_muladds (a : V3 α) (s : α) (dest : V3 α) : V3 α :=
  ⟨dest.x + a.x * s, dest.y + a.y * s, dest.z + a.z * s⟩

/-- `glm_vec3_maxadd`: include/cglm/vec3.h:491-497. -/
@[cglm]
def glm_vec3_maxadd (a : V3 α) (b : V3 α) (dest : V3 α) : V3 α :=
  ⟨dest.x + glm_max a.x b.x, dest.y + glm_max a.y b.y, dest.z + glm_max a.z b.z⟩

/-- `glm_vec3_minadd`: include/cglm/vec3.h:508-514. -/
@[cglm]
def glm_vec3_minadd (a : V3 α) (b : V3 α) (dest : V3 α) : V3 α :=
  ⟨dest.x + glm_min a.x b.x, dest.y + glm_min a.y b.y, dest.z + glm_min a.z b.z⟩

/-- `glm_vec3_subsub`: include/cglm/vec3.h:525-531. -/
@[cglm]
def glm_vec3_subsub (a : V3 α) (b : V3 α) (dest : V3 α) : V3 α :=
  ⟨dest.x - (a.x - b.x), dest.y - (a.y - b.y), dest.z - (a.z - b.z)⟩

/-- `glm_vec3_addsub`: include/cglm/vec3.h:542-548. -/
@[cglm]
def glm_vec3_addsub (a : V3 α) (b : V3 α) (dest : V3 α) : V3 α :=
  ⟨dest.x - (a.x + b.x), dest.y - (a.y + b.y), dest.z - (a.z + b.z)⟩

/-- `glm_vec3_mulsub`: include/cglm/vec3.h:559-565. -/
@[cglm]
def glm_vec3_mulsub (a : V3 α) (b : V3 α) (dest : V3 α) : V3 α :=
  ⟨dest.x - a.x * b.x, dest.y - a.y * b.y, dest.z - a.z * b.z⟩

/-- `glm_vec3_mulsubs`: include/cglm/vec3.h:576-582. -/
@[cglm]
def glm_vec3_mulsubs (a : V3 α) (s : α) (dest : V3 α) : V3 α :=
  ⟨dest.x - a.x * s, dest.y - a.y * s, dest.z - a.z * s⟩

/-- `glm_vec3_maxsub`: include/cglm/vec3.h:593-599. -/
@[cglm]
def glm_vec3_maxsub (a : V3 α) (b : V3 α) (dest : V3 α) : V3 α :=
  ⟨dest.x - glm_max a.x b.x, dest.y - glm_max a.y b.y, dest.z - glm_max a.z b.z⟩

/-- `glm_vec3_minsub`: include/cglm/vec3.h:610-616. -/
@[cglm]
def glm_vec3_minsub (a : V3 α) (b : V3 α) (dest : V3 α) : V3 α :=
  ⟨dest.x - glm_min a.x b.x, dest.y - glm_min a.y b.y, dest.z - glm_min a.z b.z⟩

/-- `glm_vec3_negate_to`: include/cglm/vec3.h:624-630. -/
@[cglm]
def glm_vec3_negate_to (v : V3 α) : V3 α :=
  ⟨-v.x, -v.y, -v.z⟩

/-- `glm_vec3_negate`: include/cglm/vec3.h:637-641. -/
@[cglm]
def glm_vec3_negate (v : V3 α) : V3 α :=
  glm_vec3_negate_to v

/-- `glm_vec3_normalize`: include/cglm/vec3.h:648-661. -/
@[cglm]
def glm_vec3_normalize (v : V3 α) : V3 α :=
  let norm := glm_vec3_norm v
  if flt norm (lit 0.00000011920928955078125) then
    ⟨lit 0, lit 0, lit 0⟩
  else
    glm_vec3_scale v ((lit 1) / norm)

/-- `glm_vec3_normalize_to`: include/cglm/vec3.h:669-682. -/
@[cglm]
def glm_vec3_normalize_to (v : V3 α) : V3 α :=
  let norm := glm_vec3_norm v
  if flt norm (lit 0.00000011920928955078125) then
    glm_vec3_zero
  else
    glm_vec3_scale v ((lit 1) / norm)

/-- `glm_vec3_cross`: include/cglm/vec3.h:691-700. -/
@[cglm]
def glm_vec3_cross (a : V3 α) (b : V3 α) : V3 α :=
  glm_vec3_copy ⟨a.y * b.z - a.z * b.y, a.z * b.x - a.x * b.z, a.x * b.y - a.y * b.x⟩

/-- `glm_vec3_crossn`: include/cglm/vec3.h:709-714. -/
@[cglm]
def glm_vec3_crossn (a : V3 α) (b : V3 α) : V3 α :=
  let dest_1 := glm_vec3_cross a b
  glm_vec3_normalize dest_1

/-- `glm_vec3_angle`: include/cglm/vec3.h:724-739. -/
@[cglm]
def glm_vec3_angle (a : V3 α) (b : V3 α) : α :=
  let norm := (lit 1) / (glm_vec3_norm a * glm_vec3_norm b)
  let dot := glm_vec3_dot a b * norm
  if flt (lit 1) dot then
    lit 0
  else
    if flt dot (-(lit 1)) then
      lit 3.14159265358979323846264338327950288
    else
      acosf dot

/-- `glm_vec3_rotate`: include/cglm/vec3.h:748-771. -/
@[cglm]
def glm_vec3_rotate (v : V3 α) (angle : α) (axis : V3 α) : V3 α :=
  let c := cosf angle
  let s := sinf angle
  let k := glm_vec3_normalize_to axis
  let v1 := glm_vec3_scale v c
  let v2 := glm_vec3_cross k v
  let v2_1 := glm_vec3_scale v2 s
  let v1_1 := glm_vec3_add v1 v2_1
  let v2_2 := glm_vec3_scale k (glm_vec3_dot k v * ((lit 1) - c))
  glm_vec3_add v1_1 v2_2

/-- `glm_vec3_rotate_m4`: include/cglm/vec3.h:786-800. -/
@[cglm]
def glm_vec3_rotate_m4 (m : M4 α) (v : V3 α) : V3 α :=
  let x := glm_vec4_normalize_to m.c0
  let y := glm_vec4_normalize_to m.c1
  let z := glm_vec4_normalize_to m.c2
  let res := glm_vec4_scale x v.x
  let res_1 := glm_vec4_muladds y v.y res
  let res_2 := glm_vec4_muladds z v.z res_1
  glm_vec3 res_2

/-- `glm_vec3_rotate_m3`: include/cglm/vec3.h:809-827. -/
@[cglm]
def glm_vec3_rotate_m3 (m : M3 α) (v : V3 α) : V3 α :=
  let x := glm_vec4 m.c0 (lit 0)
  let y := glm_vec4 m.c1 (lit 0)
  let z := glm_vec4 m.c2 (lit 0)
  let x_1 := glm_vec4_normalize x
  let y_1 := glm_vec4_normalize y
  let z_1 := glm_vec4_normalize z
  let res := glm_vec4_scale x_1 v.x
  let res_1 := glm_vec4_muladds y_1 v.y res
  let res_2 := glm_vec4_muladds z_1 v.z res_1
  glm_vec3 res_2

/-- `glm_vec3_proj`: include/cglm/vec3.h:836-842. -/
@[cglm]
def glm_vec3_proj (a : V3 α) (b : V3 α) : V3 α :=
  glm_vec3_scale b (glm_vec3_dot a b / glm_vec3_norm2 b)

/-- `glm_vec3_center`: include/cglm/vec3.h:851-856. -/
@[cglm]
def glm_vec3_center (a : V3 α) (b : V3 α) : V3 α :=
  let dest_1 := glm_vec3_add a b
  glm_vec3_scale dest_1 (lit 0.5)

/-- `glm_vec3_distance2`: include/cglm/vec3.h:865-871. -/
@[cglm]
def glm_vec3_distance2 (a : V3 α) (b : V3 α) : α :=
  glm_pow2 (a.x - b.x) + glm_pow2 (a.y - b.y) + glm_pow2 (a.z - b.z)

/-- `glm_vec3_distance`: include/cglm/vec3.h:880-884. -/
@[cglm]
def glm_vec3_distance (a : V3 α) (b : V3 α) : α :=
  sqrtf (glm_vec3_distance2 a b)

/-- `glm_vec3_maxv`: include/cglm/vec3.h:893-899. -/
@[cglm]
def glm_vec3_maxv (a : V3 α) (b : V3 α) : V3 α :=
  ⟨glm_max a.x b.x, glm_max a.y b.y, glm_max a.z b.z⟩

/-- `glm_vec3_minv`: include/cglm/vec3.h:908-914. -/
@[cglm]
def glm_vec3_minv (a : V3 α) (b : V3 α) : V3 α :=
  ⟨glm_min a.x b.x, glm_min a.y b.y, glm_min a.z b.z⟩

/-- `glm_vec3_ortho`: include/cglm/vec3.h:922-929. -/
@[cglm]
def glm_vec3_ortho (v : V3 α) : V3 α :=
  let f := modfFrac (fabsf v.x + (lit 0.5))
  glm_vec3_copy ⟨-v.y, v.x - f * v.z, f * v.y⟩

/-- `glm_vec3_clamp`: include/cglm/vec3.h:938-944. -/
@[cglm]
def glm_vec3_clamp (v : V3 α) (minVal : α) (maxVal : α) : V3 α :=
  ⟨glm_clamp v.x minVal maxVal, glm_clamp v.y minVal maxVal, glm_clamp v.z minVal maxVal⟩

/-- `glm_vec3_lerp`: include/cglm/vec3.h:956-966. -/
@[cglm]
def glm_vec3_lerp (frm : V3 α) (to : V3 α) (t : α) : V3 α :=
  let s := glm_vec3_broadcast t
  let v := glm_vec3_sub to frm
  let v_1 := glm_vec3_mul s v
  glm_vec3_add frm v_1

/-- `glm_vec3_lerpc`: include/cglm/vec3.h:978-982. -/
@[cglm]
def glm_vec3_lerpc (frm : V3 α) (to : V3 α) (t : α) : V3 α :=
  glm_vec3_lerp frm to (glm_clamp_zo t)

/-- `glm_vec3_mix`: include/cglm/vec3.h:994-998. -/
@[cglm]
def glm_vec3_mix (frm : V3 α) (to : V3 α) (t : α) : V3 α :=
  glm_vec3_lerp frm to t

/-- `glm_vec3_mixc`: include/cglm/vec3.h:1010-1014. -/
@[cglm]
def glm_vec3_mixc (frm : V3 α) (to : V3 α) (t : α) : V3 α :=
  glm_vec3_lerpc frm to t

/-- `glm_vec3_step`: include/cglm/vec3.h:1023-1029. -/
@[cglm]
def glm_vec3_step (edge : V3 α) (x : V3 α) : V3 α :=
  ⟨glm_step edge.x x.x, glm_step edge.y x.y, glm_step edge.z x.z⟩

/-- `glm_vec3_smoothstep_uni`: include/cglm/vec3.h:1039-1045. -/
@[cglm]
def glm_vec3_smoothstep_uni (edge0 : α) (edge1 : α) (x : V3 α) : V3 α :=
  ⟨glm_smoothstep edge0 edge1 x.x, glm_smoothstep edge0 edge1 x.y, glm_smoothstep edge0 edge1 x.z⟩

/-- `glm_vec3_smoothstep`: include/cglm/vec3.h:1055-1061. -/
@[cglm]
def glm_vec3_smoothstep (edge0 : V3 α) (edge1 : V3 α) (x : V3 α) : V3 α :=
  ⟨glm_smoothstep edge0.x edge1.x x.x, glm_smoothstep edge0.y edge1.y x.y, glm_smoothstep edge0.z edge1.z x.z⟩

/-- `glm_vec3_smoothinterp`: include/cglm/vec3.h:1073-1083. -/
@[cglm]
def glm_vec3_smoothinterp (frm : V3 α) (to : V3 α) (t : α) : V3 α :=
  let s := glm_vec3_broadcast (glm_smooth t)
  let v := glm_vec3_sub to frm
  let v_1 := glm_vec3_mul s v
  glm_vec3_add frm v_1

/-- `glm_vec3_smoothinterpc`: include/cglm/vec3.h:1095-1099. -/
@[cglm]
def glm_vec3_smoothinterpc (frm : V3 α) (to : V3 α) (t : α) : V3 α :=
  glm_vec3_smoothinterp frm to (glm_clamp_zo t)

/-- `glm_cross`: include/cglm/vec3.h:1131-1135. -/
@[cglm]
def glm_cross (a : V3 α) (b : V3 α) : V3 α :=
  glm_vec3_cross a b

/-- `glm_dot`: include/cglm/vec3.h:1147-1151. -/
@[cglm]
def glm_dot (a : V3 α) (b : V3 α) : α :=
  glm_vec3_dot a b

/-- `glm_normalize`: include/cglm/vec3.h:1160-1164. -/
@[cglm]
def glm_normalize (v : V3 α) : V3 α :=
  glm_vec3_normalize v

/-- `glm_normalize_to`: include/cglm/vec3.h:1174-1178. -/
@[cglm]
def glm_normalize_to (v : V3 α) : V3 α :=
  glm_vec3_normalize_to v

/-- `glm_vec3_make`: include/cglm/vec3.h:1186-1192. -/
@[cglm]
def glm_vec3_make (src : V3 α) : V3 α :=
  src

/-- `glm_vec3_faceforward`: include/cglm/vec3.h:1204-1214. -/
@[cglm]
def glm_vec3_faceforward (n : V3 α) (v : V3 α) (nref : V3 α) : V3 α :=
  if flt (glm_vec3_dot v nref) (lit 0) then
    glm_vec3_copy n
  else
    glm_vec3_negate_to n

/-- `glm_vec3_reflect`: include/cglm/vec3.h:1223-1229. -/
@[cglm]
def glm_vec3_reflect (v : V3 α) (n : V3 α) : V3 α :=
  let temp := glm_vec3_scale n ((lit 2) * glm_vec3_dot v n)
  glm_vec3_sub v temp

/-- `glm_vec3_refract`: include/cglm/vec3.h:1245-1262. -/
@[cglm]
def glm_vec3_refract (v : V3 α) (n : V3 α) (eta : α) : Bool × V3 α :=
  let ndi := glm_vec3_dot n v
  let eni := eta * ndi
  let k := (lit 1) - eta * eta + eni * eni
  if flt k (lit 0) then
    (false, glm_vec3_zero)
  else
    let dest_1 := glm_vec3_scale v eta
    (true, glm_vec3_mulsubs n (eni + sqrtf k) dest_1)

end Cglm
