/- Generated from src/ivec2.c by tools/gen.py (value semantics); do not edit by hand. -/
import Verif.I32
import Verif.Attr
import Verif.Gen.IIvec2

set_option linter.unusedVariables false
set_option linter.unusedSectionVars false

namespace Cglm.I

variable {α : Type} [Add α] [Sub α] [Mul α] [Div α] [Neg α] [CFloat α] [CIntConv α]

/-- `glmc_ivec2`: src/ivec2.c:11-15. -/
@[cglmi]
def glmc_ivec2 (v : V2 Int32) : Option (V2 Int32) := do
  let dest_1 ← glm_ivec2 v
  pure dest_1

/-- `glmc_ivec2_copy`: src/ivec2.c:17-21. -/
@[cglmi]
def glmc_ivec2_copy (a : V2 Int32) : Option (V2 Int32) := do
  let dest_1 ← glm_ivec2_copy a
  pure dest_1

/-- `glmc_ivec2_zero`: src/ivec2.c:23-27. -/
@[cglmi]
def glmc_ivec2_zero : Option (V2 Int32) := do
  let v_1 ← glm_ivec2_zero
  pure v_1

/-- `glmc_ivec2_one`: src/ivec2.c:29-33. -/
@[cglmi]
def glmc_ivec2_one : Option (V2 Int32) := do
  let v_1 ← glm_ivec2_one
  pure v_1

/-- `glmc_ivec2_dot`: src/ivec2.c:35-39. -/
@[cglmi]
def glmc_ivec2_dot (a : V2 Int32) (b : V2 Int32) : Option (Int32) := do
  let t ← glm_ivec2_dot a b
  pure t

/-- `glmc_ivec2_cross`: src/ivec2.c:41-45. -/
@[cglmi]
def glmc_ivec2_cross (a : V2 Int32) (b : V2 Int32) : Option (Int32) := do
  let t ← glm_ivec2_cross a b
  pure t

/-- `glmc_ivec2_add`: src/ivec2.c:47-51. -/
@[cglmi]
def glmc_ivec2_add (a : V2 Int32) (b : V2 Int32) : Option (V2 Int32) := do
  let dest_1 ← glm_ivec2_add a b
  pure dest_1

/-- `glmc_ivec2_adds`: src/ivec2.c:53-57. -/
@[cglmi]
def glmc_ivec2_adds (v : V2 Int32) (s : Int32) : Option (V2 Int32) := do
  let dest_1 ← glm_ivec2_adds v s
  pure dest_1

/-- `glmc_ivec2_sub`: src/ivec2.c:59-63. -/
@[cglmi]
def glmc_ivec2_sub (a : V2 Int32) (b : V2 Int32) : Option (V2 Int32) := do
  let dest_1 ← glm_ivec2_sub a b
  pure dest_1

/-- `glmc_ivec2_subs`: src/ivec2.c:65-69. -/
@[cglmi]
def glmc_ivec2_subs (v : V2 Int32) (s : Int32) : Option (V2 Int32) := do
  let dest_1 ← glm_ivec2_subs v s
  pure dest_1

/-- `glmc_ivec2_mul`: src/ivec2.c:71-75. -/
@[cglmi]
def glmc_ivec2_mul (a : V2 Int32) (b : V2 Int32) : Option (V2 Int32) := do
  let dest_1 ← glm_ivec2_mul a b
  pure dest_1

/-- `glmc_ivec2_scale`: src/ivec2.c:77-81. -/
@[cglmi]
def glmc_ivec2_scale (v : V2 Int32) (s : Int32) : Option (V2 Int32) := do
  let dest_1 ← glm_ivec2_scale v s
  pure dest_1

/-- `glmc_ivec2_div`: src/ivec2.c:83-87. -/
@[cglmi]
def glmc_ivec2_div (a : V2 Int32) (b : V2 Int32) : Option (V2 Int32) := do
  let dest_1 ← glm_ivec2_div a b
  pure dest_1

/-- `glmc_ivec2_divs`: src/ivec2.c:89-93. -/
@[cglmi]
def glmc_ivec2_divs (v : V2 Int32) (s : Int32) : Option (V2 Int32) := do
  let dest_1 ← glm_ivec2_divs v s
  pure dest_1

/-- `glmc_ivec2_mod`: src/ivec2.c:95-99. -/
@[cglmi]
def glmc_ivec2_mod (a : V2 Int32) (b : V2 Int32) : Option (V2 Int32) := do
  let dest_1 ← glm_ivec2_mod a b
  pure dest_1

/-- `glmc_ivec2_addadd`: src/ivec2.c:101-105. -/
@[cglmi]
def glmc_ivec2_addadd (a : V2 Int32) (b : V2 Int32) (dest : V2 Int32) : Option (V2 Int32) := do
  let dest_1 ← glm_ivec2_addadd a b dest
  pure dest_1

/-- `glmc_ivec2_addadds`: src/ivec2.c:107-111. -/
@[cglmi]
def glmc_ivec2_addadds (a : V2 Int32) (s : Int32) (dest : V2 Int32) : Option (V2 Int32) := do
  let dest_1 ← glm_ivec2_addadds a s dest
  pure dest_1

/-- `glmc_ivec2_subadd`: src/ivec2.c:113-117. -/
@[cglmi]
def glmc_ivec2_subadd (a : V2 Int32) (b : V2 Int32) (dest : V2 Int32) : Option (V2 Int32) := do
  let dest_1 ← glm_ivec2_subadd a b dest
  pure dest_1

/-- `glmc_ivec2_subadds`: src/ivec2.c:119-123. -/
@[cglmi]
def glmc_ivec2_subadds (a : V2 Int32) (s : Int32) (dest : V2 Int32) : Option (V2 Int32) := do
  let dest_1 ← glm_ivec2_subadds a s dest
  pure dest_1

/-- `glmc_ivec2_muladd`: src/ivec2.c:125-129. -/
@[cglmi]
def glmc_ivec2_muladd (a : V2 Int32) (b : V2 Int32) (dest : V2 Int32) : Option (V2 Int32) := do
  let dest_1 ← glm_ivec2_muladd a b dest
  pure dest_1

/-- `glmc_ivec2_muladds`: src/ivec2.c:131-135. -/
@[cglmi]
def glmc_ivec2_muladds (a : V2 Int32) (s : Int32) (dest : V2 Int32) : Option (V2 Int32) := do
  let dest_1 ← glm_ivec2_muladds a s dest
  pure dest_1

/-- `glmc_ivec2_maxadd`: src/ivec2.c:137-141. -/
@[cglmi]
def glmc_ivec2_maxadd (a : V2 Int32) (b : V2 Int32) (dest : V2 Int32) : Option (V2 Int32) := do
  let dest_1 ← glm_ivec2_maxadd a b dest
  pure dest_1

/-- `glmc_ivec2_minadd`: src/ivec2.c:143-147. -/
@[cglmi]
def glmc_ivec2_minadd (a : V2 Int32) (b : V2 Int32) (dest : V2 Int32) : Option (V2 Int32) := do
  let dest_1 ← glm_ivec2_minadd a b dest
  pure dest_1

/-- `glmc_ivec2_subsub`: src/ivec2.c:149-153. -/
@[cglmi]
def glmc_ivec2_subsub (a : V2 Int32) (b : V2 Int32) (dest : V2 Int32) : Option (V2 Int32) := do
  let dest_1 ← glm_ivec2_subsub a b dest
  pure dest_1

/-- `glmc_ivec2_subsubs`: src/ivec2.c:155-159. -/
@[cglmi]
def glmc_ivec2_subsubs (a : V2 Int32) (s : Int32) (dest : V2 Int32) : Option (V2 Int32) := do
  let dest_1 ← glm_ivec2_subsubs a s dest
  pure dest_1

/-- `glmc_ivec2_addsub`: src/ivec2.c:161-165. -/
@[cglmi]
def glmc_ivec2_addsub (a : V2 Int32) (b : V2 Int32) (dest : V2 Int32) : Option (V2 Int32) := do
  let dest_1 ← glm_ivec2_addsub a b dest
  pure dest_1

/-- `glmc_ivec2_addsubs`: src/ivec2.c:167-171. -/
@[cglmi]
def glmc_ivec2_addsubs (a : V2 Int32) (s : Int32) (dest : V2 Int32) : Option (V2 Int32) := do
  let dest_1 ← glm_ivec2_addsubs a s dest
  pure dest_1

/-- `glmc_ivec2_mulsub`: src/ivec2.c:173-177. -/
@[cglmi]
def glmc_ivec2_mulsub (a : V2 Int32) (b : V2 Int32) (dest : V2 Int32) : Option (V2 Int32) := do
  let dest_1 ← glm_ivec2_mulsub a b dest
  pure dest_1

/-- `glmc_ivec2_mulsubs`: src/ivec2.c:179-183. -/
@[cglmi]
def glmc_ivec2_mulsubs (a : V2 Int32) (s : Int32) (dest : V2 Int32) : Option (V2 Int32) := do
  let dest_1 ← glm_ivec2_mulsubs a s dest
  pure dest_1

/-- `glmc_ivec2_maxsub`: src/ivec2.c:185-189. -/
@[cglmi]
def glmc_ivec2_maxsub (a : V2 Int32) (b : V2 Int32) (dest : V2 Int32) : Option (V2 Int32) := do
  let dest_1 ← glm_ivec2_maxsub a b dest
  pure dest_1

/-- `glmc_ivec2_minsub`: src/ivec2.c:191-195. -/
@[cglmi]
def glmc_ivec2_minsub (a : V2 Int32) (b : V2 Int32) (dest : V2 Int32) : Option (V2 Int32) := do
  let dest_1 ← glm_ivec2_minsub a b dest
  pure dest_1

/-- `glmc_ivec2_distance2`: src/ivec2.c:197-201. -/
@[cglmi]
def glmc_ivec2_distance2 (a : V2 Int32) (b : V2 Int32) : Option (Int32) := do
  let t ← glm_ivec2_distance2 a b
  pure t

/-- `glmc_ivec2_distance`: src/ivec2.c:203-207. -/
@[cglmi]
def glmc_ivec2_distance (a : V2 Int32) (b : V2 Int32) : Option (α) := do
  let t ← glm_ivec2_distance a b
  pure t

/-- `glmc_ivec2_fill`: src/ivec2.c:209-213. -/
@[cglmi]
def glmc_ivec2_fill (val : Int32) : Option (V2 Int32) := do
  let v_1 ← glm_ivec2_fill val
  pure v_1

/-- `glmc_ivec2_eq`: src/ivec2.c:215-219. -/
@[cglmi]
def glmc_ivec2_eq (v : V2 Int32) (val : Int32) : Option (Bool) := do
  let t ← glm_ivec2_eq v val
  pure t

/-- `glmc_ivec2_eqv`: src/ivec2.c:221-225. -/
@[cglmi]
def glmc_ivec2_eqv (a : V2 Int32) (b : V2 Int32) : Option (Bool) := do
  let t ← glm_ivec2_eqv a b
  pure t

/-- `glmc_ivec2_maxv`: src/ivec2.c:227-231. -/
@[cglmi]
def glmc_ivec2_maxv (a : V2 Int32) (b : V2 Int32) : Option (V2 Int32) := do
  let dest_1 ← glm_ivec2_maxv a b
  pure dest_1

/-- `glmc_ivec2_minv`: src/ivec2.c:233-237. -/
@[cglmi]
def glmc_ivec2_minv (a : V2 Int32) (b : V2 Int32) : Option (V2 Int32) := do
  let dest_1 ← glm_ivec2_minv a b
  pure dest_1

/-- `glmc_ivec2_clamp`: src/ivec2.c:239-243. -/
@[cglmi]
def glmc_ivec2_clamp (v : V2 Int32) (minVal : Int32) (maxVal : Int32) : Option (V2 Int32) := do
  let v_1 ← glm_ivec2_clamp v minVal maxVal
  pure v_1

/-- `glmc_ivec2_abs`: src/ivec2.c:245-249. -/
@[cglmi]
def glmc_ivec2_abs (v : V2 Int32) : Option (V2 Int32) := do
  let dest_1 ← glm_ivec2_abs v
  pure dest_1

end Cglm.I
