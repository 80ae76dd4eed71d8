/- Generated from include/cglm/vec3-ext.h by tools/gen.py (value semantics); do not edit by hand. -/
import Verif.Base
import Verif.Attr
import Verif.Gen.Util

set_option linter.unusedVariables false
set_option linter.unusedSectionVars false

namespace Cglm

variable {α : Type} [Add α] [Sub α] [Mul α] [Div α] [Neg α] [CFloat α]

/-- `glm_vec3_broadcast`: include/cglm/vec3-ext.h:49-53. -/
@[cglm]
def glm_vec3_broadcast (val : α) : V3 α :=
  ⟨val, val, val⟩

/-- `glm_vec3_fill`: include/cglm/vec3-ext.h:61-65. -/
@[cglm]
def glm_vec3_fill (val : α) : V3 α :=
  ⟨val, val, val⟩

/-- `glm_vec3_eq`: include/cglm/vec3-ext.h:73-77. -/
@[cglm]
def glm_vec3_eq (v : V3 α) (val : α) : Bool :=
  feq v.x val && feq v.x v.y && feq v.x v.z

/-- `glm_vec3_eq_eps`: include/cglm/vec3-ext.h:85-91. -/
@[cglm]
def glm_vec3_eq_eps (v : V3 α) (val : α) : Bool :=
  fle (fabsf (v.x - val)) (lit 0.00001) && fle (fabsf (v.y - val)) (lit 0.00001) && fle (fabsf (v.z - val)) (lit 0.00001)

/-- `glm_vec3_eq_all`: include/cglm/vec3-ext.h:98-102. -/
@[cglm]
def glm_vec3_eq_all (v : V3 α) : Bool :=
  glm_vec3_eq_eps v v.x

/-- `glm_vec3_eqv`: include/cglm/vec3-ext.h:110-116. -/
@[cglm]
def glm_vec3_eqv (a : V3 α) (b : V3 α) : Bool :=
  feq a.x b.x && feq a.y b.y && feq a.z b.z

/-- `glm_vec3_eqv_eps`: include/cglm/vec3-ext.h:124-130. -/
@[cglm]
def glm_vec3_eqv_eps (a : V3 α) (b : V3 α) : Bool :=
  fle (fabsf (a.x - b.x)) (lit 0.00001) && fle (fabsf (a.y - b.y)) (lit 0.00001) && fle (fabsf (a.z - b.z)) (lit 0.00001)

/-- `glm_vec3_max`: include/cglm/vec3-ext.h:137-149. -/
@[cglm]
def glm_vec3_max (v : V3 α) : α :=
  let max := v.x
  if flt max v.y then
    let max_1 := v.y
    if flt max_1 v.z then
      v.z
    else
      max_1
  else
    if flt max v.z then
      v.z
    else
      max

/-- `glm_vec3_min`: include/cglm/vec3-ext.h:156-168. -/
@[cglm]
def glm_vec3_min (v : V3 α) : α :=
  let min := v.x
  if flt v.y min then
    let min_1 := v.y
    if flt v.z min_1 then
      v.z
    else
      min_1
  else
    if flt v.z min then
      v.z
    else
      min

/-- `glm_vec3_isnan`: include/cglm/vec3-ext.h:176-184. -/
@[cglm]
def glm_vec3_isnan (v : V3 α) : Bool :=
  isnanf v.x || isnanf v.y || isnanf v.z

/-- `glm_vec3_isinf`: include/cglm/vec3-ext.h:192-200. -/
@[cglm]
def glm_vec3_isinf (v : V3 α) : Bool :=
  isinff v.x || isinff v.y || isinff v.z

/-- `glm_vec3_isvalid`: include/cglm/vec3-ext.h:208-212. -/
@[cglm]
def glm_vec3_isvalid (v : V3 α) : Bool :=
  !(glm_vec3_isnan v) && !(glm_vec3_isinf v)

/-- `glm_vec3_sign`: include/cglm/vec3-ext.h:221-227. -/
@[cglm]
def glm_vec3_sign (v : V3 α) : V3 α :=
  ⟨glm_signf v.x, glm_signf v.y, glm_signf v.z⟩

/-- `glm_vec3_abs`: include/cglm/vec3-ext.h:235-241. -/
@[cglm]
def glm_vec3_abs (v : V3 α) : V3 α :=
  ⟨fabsf v.x, fabsf v.y, fabsf v.z⟩

/-- `glm_vec3_fract`: include/cglm/vec3-ext.h:249-255. -/
@[cglm]
def glm_vec3_fract (v : V3 α) : V3 α :=
  ⟨fminf (v.x - floorf v.x) (lit 0.999999940395355224609375), fminf (v.y - floorf v.y) (lit 0.999999940395355224609375), fminf (v.z - floorf v.z) (lit 0.999999940395355224609375)⟩

/-- `glm_vec3_floor`: include/cglm/vec3-ext.h:263-269. -/
@[cglm]
def glm_vec3_floor (v : V3 α) : V3 α :=
  ⟨floorf v.x, floorf v.y, floorf v.z⟩

/-- `glm_vec3_mods`: include/cglm/vec3-ext.h:278-284. -/
@[cglm]
def glm_vec3_mods (v : V3 α) (s : α) : V3 α :=
  ⟨fmodf v.x s, fmodf v.y s, fmodf v.z s⟩

/-- `glm_vec3_steps`: include/cglm/vec3-ext.h:294-300. -/
@[cglm]
def glm_vec3_steps (edge : α) (x : V3 α) : V3 α :=
  ⟨glm_step edge x.x, glm_step edge x.y, glm_step edge x.z⟩

/-- `glm_vec3_stepr`: include/cglm/vec3-ext.h:310-316. -/
@[cglm]
def glm_vec3_stepr (edge : V3 α) (x : α) : V3 α :=
  ⟨glm_step edge.x x, glm_step edge.y x, glm_step edge.z x⟩

/-- `glm_vec3_hadd`: include/cglm/vec3-ext.h:325-329. -/
@[cglm]
def glm_vec3_hadd (v : V3 α) : α :=
  v.x + v.y + v.z

/-- `glm_vec3_sqrt`: include/cglm/vec3-ext.h:337-343. -/
@[cglm]
def glm_vec3_sqrt (v : V3 α) : V3 α :=
  ⟨sqrtf v.x, sqrtf v.y, sqrtf v.z⟩

end Cglm
