/- Generated from include/cglm/struct/ivec3.h by tools/gen.py (value semantics); do not edit by hand. -/
import Verif.I32
import Verif.Attr
import Verif.Gen.IIvec3

set_option linter.unusedVariables false
set_option linter.unusedSectionVars false

namespace Cglm.I

variable {α : Type} [Add α] [Sub α] [Mul α] [Div α] [Neg α] [CFloat α] [CIntConv α]

/-- `glms_ivec3`: include/cglm/struct/ivec3.h:80-86. -/
@[cglmi]
def glms_ivec3 (v4 : V4 Int32) : Option (V3 Int32) := do
  let r ← glm_ivec3 v4
  pure r

/-- `glms_ivec3_zero`: include/cglm/struct/ivec3.h:127-133. -/
@[cglmi]
def glms_ivec3_zero : Option (V3 Int32) := do
  let r ← glm_ivec3_zero
  pure r

/-- `glms_ivec3_one`: include/cglm/struct/ivec3.h:140-146. -/
@[cglmi]
def glms_ivec3_one : Option (V3 Int32) := do
  let r ← glm_ivec3_one
  pure r

/-- `glms_ivec3_dot`: include/cglm/struct/ivec3.h:156-160. -/
@[cglmi]
def glms_ivec3_dot (a : V3 Int32) (b : V3 Int32) : Option (Int32) := do
  let t ← glm_ivec3_dot a b
  pure t

/-- `glms_ivec3_norm2`: include/cglm/struct/ivec3.h:173-177. -/
@[cglmi]
def glms_ivec3_norm2 (v : V3 Int32) : Option (Int32) := do
  let t ← glm_ivec3_norm2 v
  pure t

/-- `glms_ivec3_norm`: include/cglm/struct/ivec3.h:187-191. -/
@[cglmi]
def glms_ivec3_norm (v : V3 Int32) : Option (Int32) := do
  let t ← glm_ivec3_norm (α := α) v
  pure t

/-- `glms_ivec3_add`: include/cglm/struct/ivec3.h:200-206. -/
@[cglmi]
def glms_ivec3_add (a : V3 Int32) (b : V3 Int32) : Option (V3 Int32) := do
  let r ← glm_ivec3_add a b
  pure r

/-- `glms_ivec3_adds`: include/cglm/struct/ivec3.h:215-221. -/
@[cglmi]
def glms_ivec3_adds (v : V3 Int32) (s : Int32) : Option (V3 Int32) := do
  let r ← glm_ivec3_adds v s
  pure r

/-- `glms_ivec3_sub`: include/cglm/struct/ivec3.h:230-236. -/
@[cglmi]
def glms_ivec3_sub (a : V3 Int32) (b : V3 Int32) : Option (V3 Int32) := do
  let r ← glm_ivec3_sub a b
  pure r

/-- `glms_ivec3_subs`: include/cglm/struct/ivec3.h:245-251. -/
@[cglmi]
def glms_ivec3_subs (v : V3 Int32) (s : Int32) : Option (V3 Int32) := do
  let r ← glm_ivec3_subs v s
  pure r

/-- `glms_ivec3_mul`: include/cglm/struct/ivec3.h:260-266. -/
@[cglmi]
def glms_ivec3_mul (a : V3 Int32) (b : V3 Int32) : Option (V3 Int32) := do
  let r ← glm_ivec3_mul a b
  pure r

/-- `glms_ivec3_scale`: include/cglm/struct/ivec3.h:275-281. -/
@[cglmi]
def glms_ivec3_scale (v : V3 Int32) (s : Int32) : Option (V3 Int32) := do
  let r ← glm_ivec3_scale v s
  pure r

/-- `glms_ivec3_div`: include/cglm/struct/ivec3.h:290-296. -/
@[cglmi]
def glms_ivec3_div (a : V3 Int32) (b : V3 Int32) : Option (V3 Int32) := do
  let r ← glm_ivec3_div a b
  pure r

/-- `glms_ivec3_divs`: include/cglm/struct/ivec3.h:305-311. -/
@[cglmi]
def glms_ivec3_divs (v : V3 Int32) (s : Int32) : Option (V3 Int32) := do
  let r ← glm_ivec3_divs v s
  pure r

/-- `glms_ivec3_mod`: include/cglm/struct/ivec3.h:322-328. -/
@[cglmi]
def glms_ivec3_mod (a : V3 Int32) (b : V3 Int32) : Option (V3 Int32) := do
  let r ← glm_ivec3_mod a b
  pure r

/-- `glms_ivec3_addadd`: include/cglm/struct/ivec3.h:340-345. -/
@[cglmi]
def glms_ivec3_addadd (a : V3 Int32) (b : V3 Int32) (dest : V3 Int32) : Option (V3 Int32) := do
  let dest_1 ← glm_ivec3_addadd a b dest
  pure dest_1

/-- `glms_ivec3_addadds`: include/cglm/struct/ivec3.h:357-362. -/
@[cglmi]
def glms_ivec3_addadds (a : V3 Int32) (s : Int32) (dest : V3 Int32) : Option (V3 Int32) := do
  let dest_1 ← glm_ivec3_addadds a s dest
  pure dest_1

/-- `glms_ivec3_subadd`: include/cglm/struct/ivec3.h:374-379. -/
@[cglmi]
def glms_ivec3_subadd (a : V3 Int32) (b : V3 Int32) (dest : V3 Int32) : Option (V3 Int32) := do
  let dest_1 ← glm_ivec3_subadd a b dest
  pure dest_1

/-- `glms_ivec3_subadds`: include/cglm/struct/ivec3.h:391-396. -/
@[cglmi]
def glms_ivec3_subadds (a : V3 Int32) (s : Int32) (dest : V3 Int32) : Option (V3 Int32) := do
  let dest_1 ← glm_ivec3_subadds a s dest
  pure dest_1

/-- `glms_ivec3_muladd`: include/cglm/struct/ivec3.h:408-413. -/
@[cglmi]
def glms_ivec3_muladd (a : V3 Int32) (b : V3 Int32) (dest : V3 Int32) : Option (V3 Int32) := do
  let dest_1 ← glm_ivec3_muladd a b dest
  pure dest_1

/-- `glms_ivec3_muladds`: include/cglm/struct/ivec3.h:425-430. -/
@[cglmi]
def glms_ivec3_muladds (a : V3 Int32) (s : Int32) (dest : V3 Int32) : Option (V3 Int32) := do
  let dest_1 ← glm_ivec3_muladds a s dest
  pure dest_1

/-- `glms_ivec3_maxadd`: include/cglm/struct/ivec3.h:442-447. -/
@[cglmi]
def glms_ivec3_maxadd (a : V3 Int32) (b : V3 Int32) (dest : V3 Int32) : Option (V3 Int32) := do
  let dest_1 ← glm_ivec3_maxadd a b dest
  pure dest_1

/-- `glms_ivec3_minadd`: include/cglm/struct/ivec3.h:459-464. -/
@[cglmi]
def glms_ivec3_minadd (a : V3 Int32) (b : V3 Int32) (dest : V3 Int32) : Option (V3 Int32) := do
  let dest_1 ← glm_ivec3_minadd a b dest
  pure dest_1

/-- `glms_ivec3_subsub`: include/cglm/struct/ivec3.h:476-481. -/
@[cglmi]
def glms_ivec3_subsub (a : V3 Int32) (b : V3 Int32) (dest : V3 Int32) : Option (V3 Int32) := do
  let dest_1 ← glm_ivec3_subsub a b dest
  pure dest_1

/-- `glms_ivec3_subsubs`: include/cglm/struct/ivec3.h:493-498. -/
@[cglmi]
def glms_ivec3_subsubs (a : V3 Int32) (s : Int32) (dest : V3 Int32) : Option (V3 Int32) := do
  let dest_1 ← glm_ivec3_subsubs a s dest
  pure dest_1

/-- `glms_ivec3_addsub`: include/cglm/struct/ivec3.h:510-515. -/
@[cglmi]
def glms_ivec3_addsub (a : V3 Int32) (b : V3 Int32) (dest : V3 Int32) : Option (V3 Int32) := do
  let dest_1 ← glm_ivec3_addsub a b dest
  pure dest_1

/-- `glms_ivec3_addsubs`: include/cglm/struct/ivec3.h:527-532. -/
@[cglmi]
def glms_ivec3_addsubs (a : V3 Int32) (s : Int32) (dest : V3 Int32) : Option (V3 Int32) := do
  let dest_1 ← glm_ivec3_addsubs a s dest
  pure dest_1

/-- `glms_ivec3_mulsub`: include/cglm/struct/ivec3.h:544-549. -/
@[cglmi]
def glms_ivec3_mulsub (a : V3 Int32) (b : V3 Int32) (dest : V3 Int32) : Option (V3 Int32) := do
  let dest_1 ← glm_ivec3_mulsub a b dest
  pure dest_1

/-- `glms_ivec3_mulsubs`: include/cglm/struct/ivec3.h:561-566. -/
@[cglmi]
def glms_ivec3_mulsubs (a : V3 Int32) (s : Int32) (dest : V3 Int32) : Option (V3 Int32) := do
  let dest_1 ← glm_ivec3_mulsubs a s dest
  pure dest_1

/-- `glms_ivec3_maxsub`: include/cglm/struct/ivec3.h:578-583. -/
@[cglmi]
def glms_ivec3_maxsub (a : V3 Int32) (b : V3 Int32) (dest : V3 Int32) : Option (V3 Int32) := do
  let dest_1 ← glm_ivec3_maxsub a b dest
  pure dest_1

/-- `glms_ivec3_minsub`: include/cglm/struct/ivec3.h:595-600. -/
@[cglmi]
def glms_ivec3_minsub (a : V3 Int32) (b : V3 Int32) (dest : V3 Int32) : Option (V3 Int32) := do
  let dest_1 ← glm_ivec3_minsub a b dest
  pure dest_1

/-- `glms_ivec3_distance2`: include/cglm/struct/ivec3.h:609-613. -/
@[cglmi]
def glms_ivec3_distance2 (a : V3 Int32) (b : V3 Int32) : Option (Int32) := do
  let t ← glm_ivec3_distance2 a b
  pure t

/-- `glms_ivec3_distance`: include/cglm/struct/ivec3.h:622-626. -/
@[cglmi]
def glms_ivec3_distance (a : V3 Int32) (b : V3 Int32) : Option (α) := do
  let t ← glm_ivec3_distance a b
  pure t

/-- `glms_ivec3_fill`: include/cglm/struct/ivec3.h:634-640. -/
@[cglmi]
def glms_ivec3_fill (val : Int32) : Option (V3 Int32) := do
  let r ← glm_ivec3_fill val
  pure r

/-- `glms_ivec3_eq`: include/cglm/struct/ivec3.h:648-652. -/
@[cglmi]
def glms_ivec3_eq (v : V3 Int32) (val : Int32) : Option (Bool) := do
  let t ← glm_ivec3_eq v val
  pure t

/-- `glms_ivec3_eqv`: include/cglm/struct/ivec3.h:660-664. -/
@[cglmi]
def glms_ivec3_eqv (a : V3 Int32) (b : V3 Int32) : Option (Bool) := do
  let t ← glm_ivec3_eqv a b
  pure t

/-- `glms_ivec3_maxv`: include/cglm/struct/ivec3.h:673-679. -/
@[cglmi]
def glms_ivec3_maxv (a : V3 Int32) (b : V3 Int32) : Option (V3 Int32) := do
  let r ← glm_ivec3_maxv a b
  pure r

/-- `glms_ivec3_minv`: include/cglm/struct/ivec3.h:688-694. -/
@[cglmi]
def glms_ivec3_minv (a : V3 Int32) (b : V3 Int32) : Option (V3 Int32) := do
  let r ← glm_ivec3_minv a b
  pure r

/-- `glms_ivec3_clamp`: include/cglm/struct/ivec3.h:704-709. -/
@[cglmi]
def glms_ivec3_clamp (v : V3 Int32) (minVal : Int32) (maxVal : Int32) : Option (V3 Int32) := do
  let v_1 ← glm_ivec3_clamp v minVal maxVal
  pure v_1

/-- `glms_ivec3_abs`: include/cglm/struct/ivec3.h:717-723. -/
@[cglmi]
def glms_ivec3_abs (v : V3 Int32) : Option (V3 Int32) := do
  let r ← glm_ivec3_abs v
  pure r

end Cglm.I
