/- Generated from include/cglm/struct/ivec2.h by tools/gen.py (value semantics); do not edit by hand. -/
import Verif.I32
import Verif.Attr
import Verif.Gen.IIvec2

set_option linter.unusedVariables false
set_option linter.unusedSectionVars false

namespace Cglm.I

variable {α : Type} [Add α] [Sub α] [Mul α] [Div α] [Neg α] [CFloat α] [CIntConv α]

/-- `glms_ivec2`: include/cglm/struct/ivec2.h:80-86. -/
@[cglmi]
def glms_ivec2 (v : V2 Int32) : Option (V2 Int32) := do
  let r ← glm_ivec2 v
  pure r

/-- `glms_ivec2_zero`: include/cglm/struct/ivec2.h:127-133. -/
@[cglmi]
def glms_ivec2_zero : Option (V2 Int32) := do
  let r ← glm_ivec2_zero
  pure r

/-- `glms_ivec2_one`: include/cglm/struct/ivec2.h:140-146. -/
@[cglmi]
def glms_ivec2_one : Option (V2 Int32) := do
  let r ← glm_ivec2_one
  pure r

/-- `glms_ivec2_dot`: include/cglm/struct/ivec2.h:156-160. -/
@[cglmi]
def glms_ivec2_dot (a : V2 Int32) (b : V2 Int32) : Option (Int32) := do
  let t ← glm_ivec2_dot a b
  pure t

/-- `glms_ivec2_cross`: include/cglm/struct/ivec2.h:172-176. -/
@[cglmi]
def glms_ivec2_cross (a : V2 Int32) (b : V2 Int32) : Option (Int32) := do
  let t ← glm_ivec2_cross a b
  pure t

/-- `glms_ivec2_add`: include/cglm/struct/ivec2.h:185-191. -/
@[cglmi]
def glms_ivec2_add (a : V2 Int32) (b : V2 Int32) : Option (V2 Int32) := do
  let r ← glm_ivec2_add a b
  pure r

/-- `glms_ivec2_adds`: include/cglm/struct/ivec2.h:200-206. -/
@[cglmi]
def glms_ivec2_adds (v : V2 Int32) (s : Int32) : Option (V2 Int32) := do
  let r ← glm_ivec2_adds v s
  pure r

/-- `glms_ivec2_sub`: include/cglm/struct/ivec2.h:215-221. -/
@[cglmi]
def glms_ivec2_sub (a : V2 Int32) (b : V2 Int32) : Option (V2 Int32) := do
  let r ← glm_ivec2_sub a b
  pure r

/-- `glms_ivec2_subs`: include/cglm/struct/ivec2.h:230-236. -/
@[cglmi]
def glms_ivec2_subs (v : V2 Int32) (s : Int32) : Option (V2 Int32) := do
  let r ← glm_ivec2_subs v s
  pure r

/-- `glms_ivec2_mul`: include/cglm/struct/ivec2.h:245-251. -/
@[cglmi]
def glms_ivec2_mul (a : V2 Int32) (b : V2 Int32) : Option (V2 Int32) := do
  let r ← glm_ivec2_mul a b
  pure r

/-- `glms_ivec2_scale`: include/cglm/struct/ivec2.h:260-266. -/
@[cglmi]
def glms_ivec2_scale (v : V2 Int32) (s : Int32) : Option (V2 Int32) := do
  let r ← glm_ivec2_scale v s
  pure r

/-- `glms_ivec2_div`: include/cglm/struct/ivec2.h:275-281. -/
@[cglmi]
def glms_ivec2_div (a : V2 Int32) (b : V2 Int32) : Option (V2 Int32) := do
  let r ← glm_ivec2_div a b
  pure r

/-- `glms_ivec2_divs`: include/cglm/struct/ivec2.h:290-296. -/
@[cglmi]
def glms_ivec2_divs (v : V2 Int32) (s : Int32) : Option (V2 Int32) := do
  let r ← glm_ivec2_divs v s
  pure r

/-- `glms_ivec2_mod`: include/cglm/struct/ivec2.h:305-311. -/
@[cglmi]
def glms_ivec2_mod (a : V2 Int32) (b : V2 Int32) : Option (V2 Int32) := do
  let r ← glm_ivec2_mod a b
  pure r

/-- `glms_ivec2_addadd`: include/cglm/struct/ivec2.h:323-328. -/
@[cglmi]
def glms_ivec2_addadd (a : V2 Int32) (b : V2 Int32) (dest : V2 Int32) : Option (V2 Int32) := do
  let dest_1 ← glm_ivec2_addadd a b dest
  pure dest_1

/-- `glms_ivec2_addadds`: include/cglm/struct/ivec2.h:340-345. -/
@[cglmi]
def glms_ivec2_addadds (a : V2 Int32) (s : Int32) (dest : V2 Int32) : Option (V2 Int32) := do
  let dest_1 ← glm_ivec2_addadds a s dest
  pure dest_1

/-- `glms_ivec2_subadd`: include/cglm/struct/ivec2.h:357-362. -/
@[cglmi]
def glms_ivec2_subadd (a : V2 Int32) (b : V2 Int32) (dest : V2 Int32) : Option (V2 Int32) := do
  let dest_1 ← glm_ivec2_subadd a b dest
  pure dest_1

/-- `glms_ivec2_subadds`: include/cglm/struct/ivec2.h:374-379. -/
@[cglmi]
def glms_ivec2_subadds (a : V2 Int32) (s : Int32) (dest : V2 Int32) : Option (V2 Int32) := do
  let dest_1 ← glm_ivec2_subadds a s dest
  pure dest_1

/-- `glms_ivec2_muladd`: include/cglm/struct/ivec2.h:391-396. -/
@[cglmi]
def glms_ivec2_muladd (a : V2 Int32) (b : V2 Int32) (dest : V2 Int32) : Option (V2 Int32) := do
  let dest_1 ← glm_ivec2_muladd a b dest
  pure dest_1

/-- `glms_ivec2_muladds`: include/cglm/struct/ivec2.h:408-413. -/
@[cglmi]
def glms_ivec2_muladds (a : V2 Int32) (s : Int32) (dest : V2 Int32) : Option (V2 Int32) := do
  let dest_1 ← glm_ivec2_muladds a s dest
  pure dest_1

/-- `glms_ivec2_maxadd`: include/cglm/struct/ivec2.h:425-430. -/
@[cglmi]
def glms_ivec2_maxadd (a : V2 Int32) (b : V2 Int32) (dest : V2 Int32) : Option (V2 Int32) := do
  let dest_1 ← glm_ivec2_maxadd a b dest
  pure dest_1

/-- `glms_ivec2_minadd`: include/cglm/struct/ivec2.h:442-447. -/
@[cglmi]
def glms_ivec2_minadd (a : V2 Int32) (b : V2 Int32) (dest : V2 Int32) : Option (V2 Int32) := do
  let dest_1 ← glm_ivec2_minadd a b dest
  pure dest_1

/-- `glms_ivec2_subsub`: include/cglm/struct/ivec2.h:459-464. -/
@[cglmi]
def glms_ivec2_subsub (a : V2 Int32) (b : V2 Int32) (dest : V2 Int32) : Option (V2 Int32) := do
  let dest_1 ← glm_ivec2_subsub a b dest
  pure dest_1

/-- `glms_ivec2_subsubs`: include/cglm/struct/ivec2.h:476-481. -/
@[cglmi]
def glms_ivec2_subsubs (a : V2 Int32) (s : Int32) (dest : V2 Int32) : Option (V2 Int32) := do
  let dest_1 ← glm_ivec2_subsubs a s dest
  pure dest_1

/-- `glms_ivec2_addsub`: include/cglm/struct/ivec2.h:493-498. -/
@[cglmi]
def glms_ivec2_addsub (a : V2 Int32) (b : V2 Int32) (dest : V2 Int32) : Option (V2 Int32) := do
  let dest_1 ← glm_ivec2_addsub a b dest
  pure dest_1

/-- `glms_ivec2_addsubs`: include/cglm/struct/ivec2.h:510-515. -/
@[cglmi]
def glms_ivec2_addsubs (a : V2 Int32) (s : Int32) (dest : V2 Int32) : Option (V2 Int32) := do
  let dest_1 ← glm_ivec2_addsubs a s dest
  pure dest_1

/-- `glms_ivec2_mulsub`: include/cglm/struct/ivec2.h:527-532. -/
@[cglmi]
def glms_ivec2_mulsub (a : V2 Int32) (b : V2 Int32) (dest : V2 Int32) : Option (V2 Int32) := do
  let dest_1 ← glm_ivec2_mulsub a b dest
  pure dest_1

/-- `glms_ivec2_mulsubs`: include/cglm/struct/ivec2.h:544-549. -/
@[cglmi]
def glms_ivec2_mulsubs (a : V2 Int32) (s : Int32) (dest : V2 Int32) : Option (V2 Int32) := do
  let dest_1 ← glm_ivec2_mulsubs a s dest
  pure dest_1

/-- `glms_ivec2_maxsub`: include/cglm/struct/ivec2.h:561-566. -/
@[cglmi]
def glms_ivec2_maxsub (a : V2 Int32) (b : V2 Int32) (dest : V2 Int32) : Option (V2 Int32) := do
  let dest_1 ← glm_ivec2_maxsub a b dest
  pure dest_1

/-- `glms_ivec2_minsub`: include/cglm/struct/ivec2.h:578-583. -/
@[cglmi]
def glms_ivec2_minsub (a : V2 Int32) (b : V2 Int32) (dest : V2 Int32) : Option (V2 Int32) := do
  let dest_1 ← glm_ivec2_minsub a b dest
  pure dest_1

/-- `glms_ivec2_distance2`: include/cglm/struct/ivec2.h:592-596. -/
@[cglmi]
def glms_ivec2_distance2 (a : V2 Int32) (b : V2 Int32) : Option (Int32) := do
  let t ← glm_ivec2_distance2 a b
  pure t

/-- `glms_ivec2_distance`: include/cglm/struct/ivec2.h:605-609. -/
@[cglmi]
def glms_ivec2_distance (a : V2 Int32) (b : V2 Int32) : Option (α) := do
  let t ← glm_ivec2_distance a b
  pure t

/-- `glms_ivec2_fill`: include/cglm/struct/ivec2.h:617-623. -/
@[cglmi]
def glms_ivec2_fill (val : Int32) : Option (V2 Int32) := do
  let r ← glm_ivec2_fill val
  pure r

/-- `glms_ivec2_eq`: include/cglm/struct/ivec2.h:631-635. -/
@[cglmi]
def glms_ivec2_eq (v : V2 Int32) (val : Int32) : Option (Bool) := do
  let t ← glm_ivec2_eq v val
  pure t

/-- `glms_ivec2_eqv`: include/cglm/struct/ivec2.h:643-647. -/
@[cglmi]
def glms_ivec2_eqv (a : V2 Int32) (b : V2 Int32) : Option (Bool) := do
  let t ← glm_ivec2_eqv a b
  pure t

/-- `glms_ivec2_maxv`: include/cglm/struct/ivec2.h:656-662. -/
@[cglmi]
def glms_ivec2_maxv (a : V2 Int32) (b : V2 Int32) : Option (V2 Int32) := do
  let r ← glm_ivec2_maxv a b
  pure r

/-- `glms_ivec2_minv`: include/cglm/struct/ivec2.h:671-677. -/
@[cglmi]
def glms_ivec2_minv (a : V2 Int32) (b : V2 Int32) : Option (V2 Int32) := do
  let r ← glm_ivec2_minv a b
  pure r

/-- `glms_ivec2_clamp`: include/cglm/struct/ivec2.h:687-692. -/
@[cglmi]
def glms_ivec2_clamp (v : V2 Int32) (minVal : Int32) (maxVal : Int32) : Option (V2 Int32) := do
  let v_1 ← glm_ivec2_clamp v minVal maxVal
  pure v_1

/-- `glms_ivec2_abs`: include/cglm/struct/ivec2.h:700-706. -/
@[cglmi]
def glms_ivec2_abs (v : V2 Int32) : Option (V2 Int32) := do
  let r ← glm_ivec2_abs v
  pure r

end Cglm.I
