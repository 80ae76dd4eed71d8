/- Generated from include/cglm/vec4-ext.h by tools/gen.py (value semantics); do not edit by hand. -/
import Verif.Base
import Verif.Attr
import Verif.Gen.Util
import Verif.Gen.Vec3Ext

set_option linter.unusedVariables false
set_option linter.unusedSectionVars false

namespace Cglm

variable {α : Type} [Add α] [Sub α] [Mul α] [Div α] [Neg α] [CFloat α]

/-- `glm_vec4_broadcast`: include/cglm/vec4-ext.h:49-59. -/
@[cglm]
def glm_vec4_broadcast (val : α) : V4 α :=
  ⟨val, val, val, val⟩

/-- `glm_vec4_fill`: include/cglm/vec4-ext.h:67-77. -/
@[cglm]
def glm_vec4_fill (val : α) : V4 α :=
  ⟨val, val, val, val⟩

/-- `glm_vec4_eq`: include/cglm/vec4-ext.h:85-92. -/
@[cglm]
def glm_vec4_eq (v : V4 α) (val : α) : Bool :=
  feq v.x val && feq v.x v.y && feq v.x v.z && feq v.x v.w

/-- `glm_vec4_eq_eps`: include/cglm/vec4-ext.h:100-107. -/
@[cglm]
def glm_vec4_eq_eps (v : V4 α) (val : α) : Bool :=
  fle (fabsf (v.x - val)) (lit 0.00001) && fle (fabsf (v.y - val)) (lit 0.00001) && fle (fabsf (v.z - val)) (lit 0.00001) && fle (fabsf (v.w - val)) (lit 0.00001)

/-- `glm_vec4_eq_all`: include/cglm/vec4-ext.h:114-118. -/
@[cglm]
def glm_vec4_eq_all (v : V4 α) : Bool :=
  glm_vec4_eq_eps v v.x

/-- `glm_vec4_eqv`: include/cglm/vec4-ext.h:126-133. -/
@[cglm]
def glm_vec4_eqv (a : V4 α) (b : V4 α) : Bool :=
  feq a.x b.x && feq a.y b.y && feq a.z b.z && feq a.w b.w

/-- `glm_vec4_eqv_eps`: include/cglm/vec4-ext.h:141-148. -/
@[cglm]
def glm_vec4_eqv_eps (a : V4 α) (b : V4 α) : Bool :=
  fle (fabsf (a.x - b.x)) (lit 0.00001) && fle (fabsf (a.y - b.y)) (lit 0.00001) && fle (fabsf (a.z - b.z)) (lit 0.00001) && fle (fabsf (a.w - b.w)) (lit 0.00001)

/-- `glm_vec4_max`: include/cglm/vec4-ext.h:155-165. -/
@[cglm]
def glm_vec4_max (v : V4 α) : α :=
  let max := glm_vec3_max ⟨v.x, v.y, v.z⟩
  if flt max v.w then
    v.w
  else
    max

/-- `glm_vec4_min`: include/cglm/vec4-ext.h:172-182. -/
@[cglm]
def glm_vec4_min (v : V4 α) : α :=
  let min := glm_vec3_min ⟨v.x, v.y, v.z⟩
  if flt v.w min then
    v.w
  else
    min

/-- `glm_vec4_isnan`: include/cglm/vec4-ext.h:190-198. -/
@[cglm]
def glm_vec4_isnan (v : V4 α) : Bool :=
  isnanf v.x || isnanf v.y || isnanf v.z || isnanf v.w

/-- `glm_vec4_isinf`: include/cglm/vec4-ext.h:206-214. -/
@[cglm]
def glm_vec4_isinf (v : V4 α) : Bool :=
  isinff v.x || isinff v.y || isinff v.z || isinff v.w

/-- `glm_vec4_isvalid`: include/cglm/vec4-ext.h:222-226. -/
@[cglm]
def glm_vec4_isvalid (v : V4 α) : Bool :=
  !(glm_vec4_isnan v) && !(glm_vec4_isinf v)

/-- `glm_vec4_sign`: include/cglm/vec4-ext.h:235-255. -/
@[cglm]
def glm_vec4_sign (v : V4 α) : V4 α :=
  ⟨glm_signf v.x, glm_signf v.y, glm_signf v.z, glm_signf v.w⟩

/-- `glm_vec4_abs`: include/cglm/vec4-ext.h:263-278. -/
@[cglm]
def glm_vec4_abs (v : V4 α) : V4 α :=
  ⟨fabsf v.x, fabsf v.y, fabsf v.z, fabsf v.w⟩

/-- `glm_vec4_fract`: include/cglm/vec4-ext.h:286-293. -/
@[cglm]
def glm_vec4_fract (v : V4 α) : V4 α :=
  ⟨fminf (v.x - floorf v.x) (lit 0.999999940395355224609375), fminf (v.y - floorf v.y) (lit 0.999999940395355224609375), fminf (v.z - floorf v.z) (lit 0.999999940395355224609375), fminf (v.w - floorf v.w) (lit 0.999999940395355224609375)⟩

/-- `glm_vec4_floor`: include/cglm/vec4-ext.h:301-308. -/
@[cglm]
def glm_vec4_floor (v : V4 α) : V4 α :=
  ⟨floorf v.x, floorf v.y, floorf v.z, floorf v.w⟩

/-- `glm_vec4_mods`: include/cglm/vec4-ext.h:317-324. -/
@[cglm]
def glm_vec4_mods (v : V4 α) (s : α) : V4 α :=
  ⟨fmodf v.x s, fmodf v.y s, fmodf v.z s, fmodf v.w s⟩

/-- `glm_vec4_steps`: include/cglm/vec4-ext.h:334-341. -/
@[cglm]
def glm_vec4_steps (edge : α) (x : V4 α) : V4 α :=
  ⟨glm_step edge x.x, glm_step edge x.y, glm_step edge x.z, glm_step edge x.w⟩

/-- `glm_vec4_stepr`: include/cglm/vec4-ext.h:351-358. -/
@[cglm]
def glm_vec4_stepr (edge : V4 α) (x : α) : V4 α :=
  ⟨glm_step edge.x x, glm_step edge.y x, glm_step edge.z x, glm_step edge.w x⟩

/-- `glm_vec4_hadd`: include/cglm/vec4-ext.h:367-377. -/
@[cglm]
def glm_vec4_hadd (v : V4 α) : α :=
  v.x + v.y + v.z + v.w

/-- `glm_vec4_sqrt`: include/cglm/vec4-ext.h:385-398. -/
@[cglm]
def glm_vec4_sqrt (v : V4 α) : V4 α :=
  ⟨sqrtf v.x, sqrtf v.y, sqrtf v.z, sqrtf v.w⟩

end Cglm
