/- Generated from include/cglm/ease.h by tools/gen.py (value semantics); do not edit by hand. -/
import Verif.Base
import Verif.Attr

set_option linter.unusedVariables false
set_option linter.unusedSectionVars false

namespace Cglm

variable {α : Type} [Add α] [Sub α] [Mul α] [Div α] [Neg α] [CFloat α]

/-- `glm_ease_linear`: include/cglm/ease.h:13-17. -/
@[cglm]
def glm_ease_linear (t : α) : α :=
  t

/-- `glm_ease_sine_in`: include/cglm/ease.h:19-23. -/
@[cglm]
def glm_ease_sine_in (t : α) : α :=
  sinf ((t - (lit 1)) * (lit 1.57079632679489661923132169163975144)) + (lit 1)

/-- `glm_ease_sine_out`: include/cglm/ease.h:25-29. -/
@[cglm]
def glm_ease_sine_out (t : α) : α :=
  sinf (t * (lit 1.57079632679489661923132169163975144))

/-- `glm_ease_sine_inout`: include/cglm/ease.h:31-35. -/
@[cglm]
def glm_ease_sine_inout (t : α) : α :=
  (lit 0.5) * ((lit 1) - cosf (t * (lit 3.14159265358979323846264338327950288)))

/-- `glm_ease_quad_in`: include/cglm/ease.h:37-41. -/
@[cglm]
def glm_ease_quad_in (t : α) : α :=
  t * t

/-- `glm_ease_quad_out`: include/cglm/ease.h:43-47. -/
@[cglm]
def glm_ease_quad_out (t : α) : α :=
  -(t * (t - (lit 2)))

/-- `glm_ease_quad_inout`: include/cglm/ease.h:49-59. -/
@[cglm]
def glm_ease_quad_inout (t : α) : α :=
  let tt := t * t
  if flt t (lit 0.5) then
    (lit 2) * tt
  else
    (-(lit 2)) * tt + (lit 4) * t - (lit 1)

/-- `glm_ease_cubic_in`: include/cglm/ease.h:61-65. -/
@[cglm]
def glm_ease_cubic_in (t : α) : α :=
  t * t * t

/-- `glm_ease_cubic_out`: include/cglm/ease.h:67-73. -/
@[cglm]
def glm_ease_cubic_out (t : α) : α :=
  let f := t - (lit 1)
  f * f * f + (lit 1)

/-- `glm_ease_cubic_inout`: include/cglm/ease.h:75-86. -/
@[cglm]
def glm_ease_cubic_inout (t : α) : α :=
  if flt t (lit 0.5) then
    (lit 4) * t * t * t
  else
    let f := (lit 2) * t - (lit 2)
    (lit 0.5) * f * f * f + (lit 1)

/-- `glm_ease_quart_in`: include/cglm/ease.h:88-94. -/
@[cglm]
def glm_ease_quart_in (t : α) : α :=
  let f := t * t
  f * f

/-- `glm_ease_quart_out`: include/cglm/ease.h:96-104. -/
@[cglm]
def glm_ease_quart_out (t : α) : α :=
  let f := t - (lit 1)
  f * f * f * ((lit 1) - t) + (lit 1)

/-- `glm_ease_quart_inout`: include/cglm/ease.h:106-120. -/
@[cglm]
def glm_ease_quart_inout (t : α) : α :=
  if flt t (lit 0.5) then
    let f := t * t
    (lit 8) * f * f
  else
    let f := t - (lit 1)
    let g := f * f
    (-(lit 8)) * g * g + (lit 1)

/-- `glm_ease_quint_in`: include/cglm/ease.h:122-128. -/
@[cglm]
def glm_ease_quint_in (t : α) : α :=
  let f := t * t
  f * f * t

/-- `glm_ease_quint_out`: include/cglm/ease.h:130-139. -/
@[cglm]
def glm_ease_quint_out (t : α) : α :=
  let f := t - (lit 1)
  let g := f * f
  g * g * f + (lit 1)

/-- `glm_ease_quint_inout`: include/cglm/ease.h:141-155. -/
@[cglm]
def glm_ease_quint_inout (t : α) : α :=
  if flt t (lit 0.5) then
    let f := t * t
    (lit 16) * f * f * t
  else
    let f := (lit 2) * t - (lit 2)
    let g := f * f
    (lit 0.5) * g * g * f + (lit 1)

/-- `glm_ease_exp_in`: include/cglm/ease.h:157-164. -/
@[cglm]
def glm_ease_exp_in (t : α) : α :=
  if feq t (lit 0) then
    t
  else
    powf (lit 2) ((lit 10) * (t - (lit 1)))

/-- `glm_ease_exp_out`: include/cglm/ease.h:166-173. -/
@[cglm]
def glm_ease_exp_out (t : α) : α :=
  if feq t (lit 1) then
    t
  else
    (lit 1) - powf (lit 2) ((-(lit 10)) * t)

/-- `glm_ease_exp_inout`: include/cglm/ease.h:175-185. -/
@[cglm]
def glm_ease_exp_inout (t : α) : α :=
  if feq t (lit 0) || feq t (lit 1) then
    t
  else
    if flt t (lit 0.5) then
      (lit 0.5) * powf (lit 2) ((lit 20) * t - (lit 10))
    else
      (-(lit 0.5)) * powf (lit 2) ((-(lit 20)) * t + (lit 10)) + (lit 1)

/-- `glm_ease_circ_in`: include/cglm/ease.h:187-191. -/
@[cglm]
def glm_ease_circ_in (t : α) : α :=
  (lit 1) - sqrtf ((lit 1) - t * t)

/-- `glm_ease_circ_out`: include/cglm/ease.h:193-197. -/
@[cglm]
def glm_ease_circ_out (t : α) : α :=
  sqrtf (((lit 2) - t) * t)

/-- `glm_ease_circ_inout`: include/cglm/ease.h:199-206. -/
@[cglm]
def glm_ease_circ_inout (t : α) : α :=
  if flt t (lit 0.5) then
    (lit 0.5) * ((lit 1) - sqrtf ((lit 1) - (lit 4) * (t * t)))
  else
    (lit 0.5) * (sqrtf ((-((lit 2) * t - (lit 3))) * ((lit 2) * t - (lit 1))) + (lit 1))

/-- `glm_ease_back_in`: include/cglm/ease.h:208-217. -/
@[cglm]
def glm_ease_back_in (t : α) : α :=
  t * t * (((lit 1.70158) + (lit 1)) * t - (lit 1.70158))

/-- `glm_ease_back_out`: include/cglm/ease.h:219-229. -/
@[cglm]
def glm_ease_back_out (t : α) : α :=
  let n := t - (lit 1)
  n * n * (((lit 1.70158) + (lit 1)) * n + (lit 1.70158)) + (lit 1)

/-- `glm_ease_back_inout`: include/cglm/ease.h:231-252. -/
@[cglm]
def glm_ease_back_inout (t : α) : α :=
  let s := (lit 1.70158) * (lit 1.525)
  let n := t / (lit 0.5)
  if flt n (lit 1) then
    let z := (s + (lit 1)) * n - s
    (lit 0.5) * (n * n * z)
  else
    let n_1 := n - (lit 2)
    let z := (s + (lit 1)) * n_1 + s
    (lit 0.5) * (n_1 * n_1 * z + (lit 2))

/-- `glm_ease_elast_in`: include/cglm/ease.h:254-258. -/
@[cglm]
def glm_ease_elast_in (t : α) : α :=
  sinf ((lit 13) * (lit 1.57079632679489661923132169163975144) * t) * powf (lit 2) ((lit 10) * (t - (lit 1)))

/-- `glm_ease_elast_out`: include/cglm/ease.h:260-264. -/
@[cglm]
def glm_ease_elast_out (t : α) : α :=
  sinf ((-(lit 13)) * (lit 1.57079632679489661923132169163975144) * (t + (lit 1))) * powf (lit 2) ((-(lit 10)) * t) + (lit 1)

/-- `glm_ease_elast_inout`: include/cglm/ease.h:266-279. -/
@[cglm]
def glm_ease_elast_inout (t : α) : α :=
  let a := (lit 2) * t
  if flt t (lit 0.5) then
    (lit 0.5) * sinf ((lit 13) * (lit 1.57079632679489661923132169163975144) * a) * powf (lit 2) ((lit 10) * (a - (lit 1)))
  else
    (lit 0.5) * (sinf ((-(lit 13)) * (lit 1.57079632679489661923132169163975144) * a) * powf (lit 2) ((-(lit 10)) * (a - (lit 1))) + (lit 2))

/-- `glm_ease_bounce_out`: include/cglm/ease.h:281-300. -/
@[cglm]
def glm_ease_bounce_out (t : α) : α :=
  let tt := t * t
  if flt t ((lit 4) / (lit 11)) then
    (lit 121) * tt / (lit 16)
  else
    if flt t ((lit 8) / (lit 11)) then
      (lit 363) / (lit 40) * tt - (lit 99) / (lit 10) * t + (lit 17) / (lit 5)
    else
      if flt t ((lit 9) / (lit 10)) then
        (lit 4356) / (lit 361) * tt - (lit 35442) / (lit 1805) * t + (lit 16061) / (lit 1805)
      else
        (lit 54) / (lit 5) * tt - (lit 513) / (lit 25) * t + (lit 268) / (lit 25)

/-- `glm_ease_bounce_in`: include/cglm/ease.h:302-306. -/
@[cglm]
def glm_ease_bounce_in (t : α) : α :=
  (lit 1) - glm_ease_bounce_out ((lit 1) - t)

/-- `glm_ease_bounce_inout`: include/cglm/ease.h:308-315. -/
@[cglm]
def glm_ease_bounce_inout (t : α) : α :=
  if flt t (lit 0.5) then
    (lit 0.5) * ((lit 1) - glm_ease_bounce_out (t * (lit 2)))
  else
    (lit 0.5) * glm_ease_bounce_out (t * (lit 2) - (lit 1)) + (lit 0.5)

end Cglm
