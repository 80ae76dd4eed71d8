/- Generated from include/cglm/util.h by tools/gen.py (value semantics); do not edit by hand. -/
import Verif.Base
import Verif.Attr

set_option linter.unusedVariables false
set_option linter.unusedSectionVars false

namespace Cglm

variable {α : Type} [Add α] [Sub α] [Mul α] [Div α] [Neg α] [CFloat α]

/-- `glm_signf`: include/cglm/util.h:61-65. -/
@[cglm]
def glm_signf (val : α) : α :=
  ofInt (b2i (flt (lit 0) val) - b2i (flt val (lit 0)))

/-- `glm_rad`: include/cglm/util.h:72-76. -/
@[cglm]
def glm_rad (deg : α) : α :=
  deg * (lit 3.14159265358979323846264338327950288) / (lit 180)

/-- `glm_deg`: include/cglm/util.h:83-87. -/
@[cglm]
def glm_deg (rad : α) : α :=
  rad * (lit 180) / (lit 3.14159265358979323846264338327950288)

/-- `glm_make_rad`: include/cglm/util.h:94-98. -/
@[cglm]
def glm_make_rad (deg : α) : α :=
  deg * (lit 3.14159265358979323846264338327950288) / (lit 180)

/-- `glm_make_deg`: include/cglm/util.h:105-109. -/
@[cglm]
def glm_make_deg (rad : α) : α :=
  rad * (lit 180) / (lit 3.14159265358979323846264338327950288)

/-- `glm_pow2`: include/cglm/util.h:116-120. -/
@[cglm]
def glm_pow2 (x : α) : α :=
  x * x

/-- `glm_min`: include/cglm/util.h:128-134. -/
@[cglm]
def glm_min (a : α) (b : α) : α :=
  if flt a b then
    a
  else
    b

/-- `glm_max`: include/cglm/util.h:142-148. -/
@[cglm]
def glm_max (a : α) (b : α) : α :=
  if flt b a then
    a
  else
    b

/-- `glm_imin`: include/cglm/util.h:158-164. -/
@[cglm]
def glm_imin (a : Int) (b : Int) : Int :=
  if ilt a b then
    a
  else
    b

/-- `glm_imax`: include/cglm/util.h:174-180. -/
@[cglm]
def glm_imax (a : Int) (b : Int) : Int :=
  if igt a b then
    a
  else
    b

/-- `glm_clamp`: include/cglm/util.h:189-193. -/
@[cglm]
def glm_clamp (val : α) (minVal : α) (maxVal : α) : α :=
  glm_min (glm_max val minVal) maxVal

/-- `glm_clamp_zo`: include/cglm/util.h:200-204. -/
@[cglm]
def glm_clamp_zo (val : α) : α :=
  glm_clamp val (lit 0) (lit 1)

/-- `glm_lerp`: include/cglm/util.h:215-219. -/
@[cglm]
def glm_lerp (frm : α) (to : α) (t : α) : α :=
  frm + t * (to - frm)

/-- `glm_lerpc`: include/cglm/util.h:230-234. -/
@[cglm]
def glm_lerpc (frm : α) (to : α) (t : α) : α :=
  glm_lerp frm to (glm_clamp_zo t)

/-- `glm_step`: include/cglm/util.h:243-253. -/
@[cglm]
def glm_step (edge : α) (x : α) : α :=
  if flt x edge then lit 0 else lit 1

/-- `glm_smooth`: include/cglm/util.h:262-266. -/
@[cglm]
def glm_smooth (t : α) : α :=
  t * t * ((lit 3) - (lit 2) * t)

/-- `glm_smoothstep`: include/cglm/util.h:277-283. -/
@[cglm]
def glm_smoothstep (edge0 : α) (edge1 : α) (x : α) : α :=
  glm_smooth (glm_clamp_zo ((x - edge0) / (edge1 - edge0)))

/-- `glm_smoothinterp`: include/cglm/util.h:294-298. -/
@[cglm]
def glm_smoothinterp (frm : α) (to : α) (t : α) : α :=
  frm + glm_smooth t * (to - frm)

/-- `glm_smoothinterpc`: include/cglm/util.h:309-313. -/
@[cglm]
def glm_smoothinterpc (frm : α) (to : α) (t : α) : α :=
  glm_smoothinterp frm to (glm_clamp_zo t)

/-- `glm_eq`: include/cglm/util.h:321-325. -/
@[cglm]
def glm_eq (a : α) (b : α) : Bool :=
  fle (fabsf (a - b)) (lit 0.00001)

/-- `glm_percent`: include/cglm/util.h:336-345. -/
@[cglm]
def glm_percent (frm : α) (to : α) (current : α) : α :=
  let t := to - frm
  if feq t (lit 0) then
    lit 1
  else
    (current - frm) / t

/-- `glm_percentc`: include/cglm/util.h:354-358. -/
@[cglm]
def glm_percentc (frm : α) (to : α) (current : α) : α :=
  glm_clamp_zo (glm_percent frm to current)

/-- `glm_swapf`: include/cglm/util.h:366-373. -/
@[cglm]
def glm_swapf (a : α) (b : α) : α × α :=
  (b, a)

end Cglm
