/- Generated from include/cglm/struct/ivec4.h by tools/gen.py (value semantics); do not edit by hand. -/
import Verif.I32
import Verif.Attr
import Verif.Gen.IIvec4

set_option linter.unusedVariables false
set_option linter.unusedSectionVars false

namespace Cglm.I

variable {α : Type} [Add α] [Sub α] [Mul α] [Div α] [Neg α] [CFloat α] [CIntConv α]

/-- `glms_ivec4`: include/cglm/struct/ivec4.h:73-79. -/
@[cglmi]
def glms_ivec4 (v3 : V3 Int32) (last : Int32) : Option (V4 Int32) := do
  let r ← glm_ivec4 v3 last
  pure r

/-- `glms_ivec4_zero`: include/cglm/struct/ivec4.h:120-126. -/
@[cglmi]
def glms_ivec4_zero : Option (V4 Int32) := do
  let r ← glm_ivec4_zero
  pure r

/-- `glms_ivec4_one`: include/cglm/struct/ivec4.h:133-139. -/
@[cglmi]
def glms_ivec4_one : Option (V4 Int32) := do
  let r ← glm_ivec4_one
  pure r

/-- `glms_ivec4_add`: include/cglm/struct/ivec4.h:148-154. -/
@[cglmi]
def glms_ivec4_add (a : V4 Int32) (b : V4 Int32) : Option (V4 Int32) := do
  let r ← glm_ivec4_add a b
  pure r

/-- `glms_ivec4_adds`: include/cglm/struct/ivec4.h:163-169. -/
@[cglmi]
def glms_ivec4_adds (v : V4 Int32) (s : Int32) : Option (V4 Int32) := do
  let r ← glm_ivec4_adds v s
  pure r

/-- `glms_ivec4_sub`: include/cglm/struct/ivec4.h:178-184. -/
@[cglmi]
def glms_ivec4_sub (a : V4 Int32) (b : V4 Int32) : Option (V4 Int32) := do
  let r ← glm_ivec4_sub a b
  pure r

/-- `glms_ivec4_subs`: include/cglm/struct/ivec4.h:193-199. -/
@[cglmi]
def glms_ivec4_subs (v : V4 Int32) (s : Int32) : Option (V4 Int32) := do
  let r ← glm_ivec4_subs v s
  pure r

/-- `glms_ivec4_mul`: include/cglm/struct/ivec4.h:208-214. -/
@[cglmi]
def glms_ivec4_mul (a : V4 Int32) (b : V4 Int32) : Option (V4 Int32) := do
  let r ← glm_ivec4_mul a b
  pure r

/-- `glms_ivec4_scale`: include/cglm/struct/ivec4.h:223-229. -/
@[cglmi]
def glms_ivec4_scale (v : V4 Int32) (s : Int32) : Option (V4 Int32) := do
  let r ← glm_ivec4_scale v s
  pure r

/-- `glms_ivec4_addadd`: include/cglm/struct/ivec4.h:241-246. -/
@[cglmi]
def glms_ivec4_addadd (a : V4 Int32) (b : V4 Int32) (dest : V4 Int32) : Option (V4 Int32) := do
  let dest_1 ← glm_ivec4_addadd a b dest
  pure dest_1

/-- `glms_ivec4_addadds`: include/cglm/struct/ivec4.h:258-263. -/
@[cglmi]
def glms_ivec4_addadds (a : V4 Int32) (s : Int32) (dest : V4 Int32) : Option (V4 Int32) := do
  let dest_1 ← glm_ivec4_addadds a s dest
  pure dest_1

/-- `glms_ivec4_subadd`: include/cglm/struct/ivec4.h:275-280. -/
@[cglmi]
def glms_ivec4_subadd (a : V4 Int32) (b : V4 Int32) (dest : V4 Int32) : Option (V4 Int32) := do
  let dest_1 ← glm_ivec4_subadd a b dest
  pure dest_1

/-- `glms_ivec4_subadds`: include/cglm/struct/ivec4.h:292-297. -/
@[cglmi]
def glms_ivec4_subadds (a : V4 Int32) (s : Int32) (dest : V4 Int32) : Option (V4 Int32) := do
  let dest_1 ← glm_ivec4_subadds a s dest
  pure dest_1

/-- `glms_ivec4_muladd`: include/cglm/struct/ivec4.h:309-314. -/
@[cglmi]
def glms_ivec4_muladd (a : V4 Int32) (b : V4 Int32) (dest : V4 Int32) : Option (V4 Int32) := do
  let dest_1 ← glm_ivec4_muladd a b dest
  pure dest_1

/-- `glms_ivec4_muladds`: include/cglm/struct/ivec4.h:326-331. -/
@[cglmi]
def glms_ivec4_muladds (a : V4 Int32) (s : Int32) (dest : V4 Int32) : Option (V4 Int32) := do
  let dest_1 ← glm_ivec4_muladds a s dest
  pure dest_1

/-- `glms_ivec4_maxadd`: include/cglm/struct/ivec4.h:343-348. -/
@[cglmi]
def glms_ivec4_maxadd (a : V4 Int32) (b : V4 Int32) (dest : V4 Int32) : Option (V4 Int32) := do
  let dest_1 ← glm_ivec4_maxadd a b dest
  pure dest_1

/-- `glms_ivec4_minadd`: include/cglm/struct/ivec4.h:360-365. -/
@[cglmi]
def glms_ivec4_minadd (a : V4 Int32) (b : V4 Int32) (dest : V4 Int32) : Option (V4 Int32) := do
  let dest_1 ← glm_ivec4_minadd a b dest
  pure dest_1

/-- `glms_ivec4_subsub`: include/cglm/struct/ivec4.h:377-382. -/
@[cglmi]
def glms_ivec4_subsub (a : V4 Int32) (b : V4 Int32) (dest : V4 Int32) : Option (V4 Int32) := do
  let dest_1 ← glm_ivec4_subsub a b dest
  pure dest_1

/-- `glms_ivec4_subsubs`: include/cglm/struct/ivec4.h:394-399. -/
@[cglmi]
def glms_ivec4_subsubs (a : V4 Int32) (s : Int32) (dest : V4 Int32) : Option (V4 Int32) := do
  let dest_1 ← glm_ivec4_subsubs a s dest
  pure dest_1

/-- `glms_ivec4_addsub`: include/cglm/struct/ivec4.h:411-416. -/
@[cglmi]
def glms_ivec4_addsub (a : V4 Int32) (b : V4 Int32) (dest : V4 Int32) : Option (V4 Int32) := do
  let dest_1 ← glm_ivec4_addsub a b dest
  pure dest_1

/-- `glms_ivec4_addsubs`: include/cglm/struct/ivec4.h:428-433. -/
@[cglmi]
def glms_ivec4_addsubs (a : V4 Int32) (s : Int32) (dest : V4 Int32) : Option (V4 Int32) := do
  let dest_1 ← glm_ivec4_addsubs a s dest
  pure dest_1

/-- `glms_ivec4_mulsub`: include/cglm/struct/ivec4.h:445-450. -/
@[cglmi]
def glms_ivec4_mulsub (a : V4 Int32) (b : V4 Int32) (dest : V4 Int32) : Option (V4 Int32) := do
  let dest_1 ← glm_ivec4_mulsub a b dest
  pure dest_1

/-- `glms_ivec4_mulsubs`: include/cglm/struct/ivec4.h:462-467. -/
@[cglmi]
def glms_ivec4_mulsubs (a : V4 Int32) (s : Int32) (dest : V4 Int32) : Option (V4 Int32) := do
  let dest_1 ← glm_ivec4_mulsubs a s dest
  pure dest_1

/-- `glms_ivec4_maxsub`: include/cglm/struct/ivec4.h:479-484. -/
@[cglmi]
def glms_ivec4_maxsub (a : V4 Int32) (b : V4 Int32) (dest : V4 Int32) : Option (V4 Int32) := do
  let dest_1 ← glm_ivec4_maxsub a b dest
  pure dest_1

/-- `glms_ivec4_minsub`: include/cglm/struct/ivec4.h:496-501. -/
@[cglmi]
def glms_ivec4_minsub (a : V4 Int32) (b : V4 Int32) (dest : V4 Int32) : Option (V4 Int32) := do
  let dest_1 ← glm_ivec4_minsub a b dest
  pure dest_1

/-- `glms_ivec4_distance2`: include/cglm/struct/ivec4.h:510-514. -/
@[cglmi]
def glms_ivec4_distance2 (a : V4 Int32) (b : V4 Int32) : Option (Int32) := do
  let t ← glm_ivec4_distance2 a b
  pure t

/-- `glms_ivec4_distance`: include/cglm/struct/ivec4.h:523-527. -/
@[cglmi]
def glms_ivec4_distance (a : V4 Int32) (b : V4 Int32) : Option (α) := do
  let t ← glm_ivec4_distance a b
  pure t

/-- `glms_ivec4_maxv`: include/cglm/struct/ivec4.h:536-542. -/
@[cglmi]
def glms_ivec4_maxv (a : V4 Int32) (b : V4 Int32) : Option (V4 Int32) := do
  let r ← glm_ivec4_maxv a b
  pure r

/-- `glms_ivec4_minv`: include/cglm/struct/ivec4.h:551-557. -/
@[cglmi]
def glms_ivec4_minv (a : V4 Int32) (b : V4 Int32) : Option (V4 Int32) := do
  let r ← glm_ivec4_minv a b
  pure r

/-- `glms_ivec4_clamp`: include/cglm/struct/ivec4.h:567-572. -/
@[cglmi]
def glms_ivec4_clamp (v : V4 Int32) (minVal : Int32) (maxVal : Int32) : Option (V4 Int32) := do
  let v_1 ← glm_ivec4_clamp v minVal maxVal
  pure v_1

/-- `glms_ivec4_abs`: include/cglm/struct/ivec4.h:580-586. -/
@[cglmi]
def glms_ivec4_abs (v : V4 Int32) : Option (V4 Int32) := do
  let r ← glm_ivec4_abs v
  pure r

end Cglm.I
