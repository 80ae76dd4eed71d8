/- Generated from include/cglm/vec2-ext.h by tools/gen.py (value semantics); do not edit by hand. -/
import Verif.Base
import Verif.Attr
import Verif.Gen.Util

set_option linter.unusedVariables false
set_option linter.unusedSectionVars false

namespace Cglm

variable {α : Type} [Add α] [Sub α] [Mul α] [Div α] [Neg α] [CFloat α]

/-- `glm_vec2_fill`: include/cglm/vec2-ext.h:46-50. -/
@[cglm]
def glm_vec2_fill (val : α) : V2 α :=
  ⟨val, val⟩

/-- `glm_vec2_eq`: include/cglm/vec2-ext.h:58-62. -/
@[cglm]
def glm_vec2_eq (v : V2 α) (val : α) : Bool :=
  feq v.x val && feq v.x v.y

/-- `glm_vec2_eq_eps`: include/cglm/vec2-ext.h:70-75. -/
@[cglm]
def glm_vec2_eq_eps (v : V2 α) (val : α) : Bool :=
  fle (fabsf (v.x - val)) (lit 0.00001) && fle (fabsf (v.y - val)) (lit 0.00001)

/-- `glm_vec2_eq_all`: include/cglm/vec2-ext.h:82-86. -/
@[cglm]
def glm_vec2_eq_all (v : V2 α) : Bool :=
  glm_vec2_eq_eps v v.x

/-- `glm_vec2_eqv`: include/cglm/vec2-ext.h:94-98. -/
@[cglm]
def glm_vec2_eqv (a : V2 α) (b : V2 α) : Bool :=
  feq a.x b.x && feq a.y b.y

/-- `glm_vec2_eqv_eps`: include/cglm/vec2-ext.h:106-111. -/
@[cglm]
def glm_vec2_eqv_eps (a : V2 α) (b : V2 α) : Bool :=
  fle (fabsf (a.x - b.x)) (lit 0.00001) && fle (fabsf (a.y - b.y)) (lit 0.00001)

/-- `glm_vec2_max`: include/cglm/vec2-ext.h:118-122. -/
@[cglm]
def glm_vec2_max (v : V2 α) : α :=
  glm_max v.x v.y

/-- `glm_vec2_min`: include/cglm/vec2-ext.h:129-133. -/
@[cglm]
def glm_vec2_min (v : V2 α) : α :=
  glm_min v.x v.y

/-- `glm_vec2_isnan`: include/cglm/vec2-ext.h:141-149. -/
@[cglm]
def glm_vec2_isnan (v : V2 α) : Bool :=
  isnanf v.x || isnanf v.y

/-- `glm_vec2_isinf`: include/cglm/vec2-ext.h:157-165. -/
@[cglm]
def glm_vec2_isinf (v : V2 α) : Bool :=
  isinff v.x || isinff v.y

/-- `glm_vec2_isvalid`: include/cglm/vec2-ext.h:173-177. -/
@[cglm]
def glm_vec2_isvalid (v : V2 α) : Bool :=
  !(glm_vec2_isnan v) && !(glm_vec2_isinf v)

/-- `glm_vec2_sign`: include/cglm/vec2-ext.h:186-191. -/
@[cglm]
def glm_vec2_sign (v : V2 α) : V2 α :=
  ⟨glm_signf v.x, glm_signf v.y⟩

/-- `glm_vec2_abs`: include/cglm/vec2-ext.h:199-204. -/
@[cglm]
def glm_vec2_abs (v : V2 α) : V2 α :=
  ⟨fabsf v.x, fabsf v.y⟩

/-- `glm_vec2_fract`: include/cglm/vec2-ext.h:212-217. -/
@[cglm]
def glm_vec2_fract (v : V2 α) : V2 α :=
  ⟨fminf (v.x - floorf v.x) (lit 0.999999940395355224609375), fminf (v.y - floorf v.y) (lit 0.999999940395355224609375)⟩

/-- `glm_vec2_floor`: include/cglm/vec2-ext.h:225-230. -/
@[cglm]
def glm_vec2_floor (v : V2 α) : V2 α :=
  ⟨floorf v.x, floorf v.y⟩

/-- `glm_vec2_mods`: include/cglm/vec2-ext.h:239-244. -/
@[cglm]
def glm_vec2_mods (v : V2 α) (s : α) : V2 α :=
  ⟨fmodf v.x s, fmodf v.y s⟩

/-- `glm_vec2_sqrt`: include/cglm/vec2-ext.h:252-257. -/
@[cglm]
def glm_vec2_sqrt (v : V2 α) : V2 α :=
  ⟨sqrtf v.x, sqrtf v.y⟩

/-- `glm_vec2_complex_mul`: include/cglm/vec2-ext.h:266-274. -/
@[cglm]
def glm_vec2_complex_mul (a : V2 α) (b : V2 α) : V2 α :=
  let tr := a.x * b.x - a.y * b.y
  ⟨tr, a.x * b.y + a.y * b.x⟩

/-- `glm_vec2_steps`: include/cglm/vec2-ext.h:284-289. -/
@[cglm]
def glm_vec2_steps (edge : α) (x : V2 α) : V2 α :=
  ⟨glm_step edge x.x, glm_step edge x.y⟩

/-- `glm_vec2_stepr`: include/cglm/vec2-ext.h:299-304. -/
@[cglm]
def glm_vec2_stepr (edge : V2 α) (x : α) : V2 α :=
  ⟨glm_step edge.x x, glm_step edge.y x⟩

/-- `glm_vec2_complex_div`: include/cglm/vec2-ext.h:313-322. -/
@[cglm]
def glm_vec2_complex_div (a : V2 α) (b : V2 α) : V2 α :=
  let ibnorm2 := (lit 1) / (b.x * b.x + b.y * b.y)
  let tr := ibnorm2 * (a.x * b.x + a.y * b.y)
  ⟨tr, ibnorm2 * (a.y * b.x - a.x * b.y)⟩

/-- `glm_vec2_complex_conjugate`: include/cglm/vec2-ext.h:330-335. -/
@[cglm]
def glm_vec2_complex_conjugate (a : V2 α) : V2 α :=
  ⟨a.x, -a.y⟩

end Cglm
