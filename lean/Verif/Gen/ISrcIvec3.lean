/- Generated from src/ivec3.c by tools/gen.py (value semantics); do not edit by hand. -/
import Verif.I32
import Verif.Attr
import Verif.Gen.IIvec3

set_option linter.unusedVariables false
set_option linter.unusedSectionVars false

namespace Cglm.I

variable {α : Type} [Add α] [Sub α] [Mul α] [Div α] [Neg α] [CFloat α] [CIntConv α]

/-- `glmc_ivec3`: src/ivec3.c:11-15. -/
@[cglmi]
def glmc_ivec3 (v4 : V4 Int32) : Option (V3 Int32) := do
  let dest_1 ← glm_ivec3 v4
  pure dest_1

/-- `glmc_ivec3_copy`: src/ivec3.c:17-21. -/
@[cglmi]
def glmc_ivec3_copy (a : V3 Int32) : Option (V3 Int32) := do
  let dest_1 ← glm_ivec3_copy a
  pure dest_1

/-- `glmc_ivec3_zero`: src/ivec3.c:23-27. -/
@[cglmi]
def glmc_ivec3_zero : Option (V3 Int32) := do
  let v_1 ← glm_ivec3_zero
  pure v_1

/-- `glmc_ivec3_one`: src/ivec3.c:29-33. -/
@[cglmi]
def glmc_ivec3_one : Option (V3 Int32) := do
  let v_1 ← glm_ivec3_one
  pure v_1

/-- `glmc_ivec3_dot`: src/ivec3.c:35-39. -/
@[cglmi]
def glmc_ivec3_dot (a : V3 Int32) (b : V3 Int32) : Option (Int32) := do
  let t ← glm_ivec3_dot a b
  pure t

/-- `glmc_ivec3_norm2`: src/ivec3.c:41-45. -/
@[cglmi]
def glmc_ivec3_norm2 (v : V3 Int32) : Option (Int32) := do
  let t ← glm_ivec3_norm2 v
  pure t

/-- `glmc_ivec3_norm`: src/ivec3.c:47-51. -/
@[cglmi]
def glmc_ivec3_norm (v : V3 Int32) : Option (Int32) := do
  let t ← glm_ivec3_norm (α := α) v
  pure t

/-- `glmc_ivec3_add`: src/ivec3.c:53-57. -/
@[cglmi]
def glmc_ivec3_add (a : V3 Int32) (b : V3 Int32) : Option (V3 Int32) := do
  let dest_1 ← glm_ivec3_add a b
  pure dest_1

/-- `glmc_ivec3_adds`: src/ivec3.c:59-63. -/
@[cglmi]
def glmc_ivec3_adds (v : V3 Int32) (s : Int32) : Option (V3 Int32) := do
  let dest_1 ← glm_ivec3_adds v s
  pure dest_1

/-- `glmc_ivec3_sub`: src/ivec3.c:65-69. -/
@[cglmi]
def glmc_ivec3_sub (a : V3 Int32) (b : V3 Int32) : Option (V3 Int32) := do
  let dest_1 ← glm_ivec3_sub a b
  pure dest_1

/-- `glmc_ivec3_subs`: src/ivec3.c:71-75. -/
@[cglmi]
def glmc_ivec3_subs (v : V3 Int32) (s : Int32) : Option (V3 Int32) := do
  let dest_1 ← glm_ivec3_subs v s
  pure dest_1

/-- `glmc_ivec3_mul`: src/ivec3.c:77-81. -/
@[cglmi]
def glmc_ivec3_mul (a : V3 Int32) (b : V3 Int32) : Option (V3 Int32) := do
  let dest_1 ← glm_ivec3_mul a b
  pure dest_1

/-- `glmc_ivec3_scale`: src/ivec3.c:83-87. -/
@[cglmi]
def glmc_ivec3_scale (v : V3 Int32) (s : Int32) : Option (V3 Int32) := do
  let dest_1 ← glm_ivec3_scale v s
  pure dest_1

/-- `glmc_ivec3_div`: src/ivec3.c:89-93. -/
@[cglmi]
def glmc_ivec3_div (a : V3 Int32) (b : V3 Int32) : Option (V3 Int32) := do
  let dest_1 ← glm_ivec3_div a b
  pure dest_1

/-- `glmc_ivec3_divs`: src/ivec3.c:95-99. -/
@[cglmi]
def glmc_ivec3_divs (v : V3 Int32) (s : Int32) : Option (V3 Int32) := do
  let dest_1 ← glm_ivec3_divs v s
  pure dest_1

/-- `glmc_ivec3_mod`: src/ivec3.c:101-105. -/
@[cglmi]
def glmc_ivec3_mod (a : V3 Int32) (b : V3 Int32) : Option (V3 Int32) := do
  let dest_1 ← glm_ivec3_mod a b
  pure dest_1

/-- `glmc_ivec3_addadd`: src/ivec3.c:107-111. -/
@[cglmi]
def glmc_ivec3_addadd (a : V3 Int32) (b : V3 Int32) (dest : V3 Int32) : Option (V3 Int32) := do
  let dest_1 ← glm_ivec3_addadd a b dest
  pure dest_1

/-- `glmc_ivec3_addadds`: src/ivec3.c:113-117. -/
@[cglmi]
def glmc_ivec3_addadds (a : V3 Int32) (s : Int32) (dest : V3 Int32) : Option (V3 Int32) := do
  let dest_1 ← glm_ivec3_addadds a s dest
  pure dest_1

/-- `glmc_ivec3_subadd`: src/ivec3.c:119-123. -/
@[cglmi]
def glmc_ivec3_subadd (a : V3 Int32) (b : V3 Int32) (dest : V3 Int32) : Option (V3 Int32) := do
  let dest_1 ← glm_ivec3_subadd a b dest
  pure dest_1

/-- `glmc_ivec3_subadds`: src/ivec3.c:125-129. -/
@[cglmi]
def glmc_ivec3_subadds (a : V3 Int32) (s : Int32) (dest : V3 Int32) : Option (V3 Int32) := do
  let dest_1 ← glm_ivec3_subadds a s dest
  pure dest_1

/-- `glmc_ivec3_muladd`: src/ivec3.c:131-135. -/
@[cglmi]
def glmc_ivec3_muladd (a : V3 Int32) (b : V3 Int32) (dest : V3 Int32) : Option (V3 Int32) := do
  let dest_1 ← glm_ivec3_muladd a b dest
  pure dest_1

/-- `glmc_ivec3_muladds`: src/ivec3.c:137-141. -/
@[cglmi]
def glmc_ivec3_muladds (a : V3 Int32) (s : Int32) (dest : V3 Int32) : Option (V3 Int32) := do
  let dest_1 ← glm_ivec3_muladds a s dest
  pure dest_1

/-- `glmc_ivec3_maxadd`: src/ivec3.c:143-147. -/
@[cglmi]
def glmc_ivec3_maxadd (a : V3 Int32) (b : V3 Int32) (dest : V3 Int32) : Option (V3 Int32) := do
  let dest_1 ← glm_ivec3_maxadd a b dest
  pure dest_1

/-- `glmc_ivec3_minadd`: src/ivec3.c:149-153. -/
@[cglmi]
def glmc_ivec3_minadd (a : V3 Int32) (b : V3 Int32) (dest : V3 Int32) : Option (V3 Int32) := do
  let dest_1 ← glm_ivec3_minadd a b dest
  pure dest_1

/-- `glmc_ivec3_subsub`: src/ivec3.c:155-159. -/
@[cglmi]
def glmc_ivec3_subsub (a : V3 Int32) (b : V3 Int32) (dest : V3 Int32) : Option (V3 Int32) := do
  let dest_1 ← glm_ivec3_subsub a b dest
  pure dest_1

/-- `glmc_ivec3_subsubs`: src/ivec3.c:161-165. -/
@[cglmi]
def glmc_ivec3_subsubs (a : V3 Int32) (s : Int32) (dest : V3 Int32) : Option (V3 Int32) := do
  let dest_1 ← glm_ivec3_subsubs a s dest
  pure dest_1

/-- `glmc_ivec3_addsub`: src/ivec3.c:167-171. -/
@[cglmi]
def glmc_ivec3_addsub (a : V3 Int32) (b : V3 Int32) (dest : V3 Int32) : Option (V3 Int32) := do
  let dest_1 ← glm_ivec3_addsub a b dest
  pure dest_1

/-- `glmc_ivec3_addsubs`: src/ivec3.c:173-177. -/
@[cglmi]
def glmc_ivec3_addsubs (a : V3 Int32) (s : Int32) (dest : V3 Int32) : Option (V3 Int32) := do
  let dest_1 ← glm_ivec3_addsubs a s dest
  pure dest_1

/-- `glmc_ivec3_mulsub`: src/ivec3.c:179-183. -/
@[cglmi]
def glmc_ivec3_mulsub (a : V3 Int32) (b : V3 Int32) (dest : V3 Int32) : Option (V3 Int32) := do
  let dest_1 ← glm_ivec3_mulsub a b dest
  pure dest_1

/-- `glmc_ivec3_mulsubs`: src/ivec3.c:185-189. -/
@[cglmi]
def glmc_ivec3_mulsubs (a : V3 Int32) (s : Int32) (dest : V3 Int32) : Option (V3 Int32) := do
  let dest_1 ← glm_ivec3_mulsubs a s dest
  pure dest_1

/-- `glmc_ivec3_maxsub`: src/ivec3.c:191-195. -/
@[cglmi]
def glmc_ivec3_maxsub (a : V3 Int32) (b : V3 Int32) (dest : V3 Int32) : Option (V3 Int32) := do
  let dest_1 ← glm_ivec3_maxsub a b dest
  pure dest_1

/-- `glmc_ivec3_minsub`: src/ivec3.c:197-201. -/
@[cglmi]
def glmc_ivec3_minsub (a : V3 Int32) (b : V3 Int32) (dest : V3 Int32) : Option (V3 Int32) := do
  let dest_1 ← glm_ivec3_minsub a b dest
  pure dest_1

/-- `glmc_ivec3_distance2`: src/ivec3.c:203-207. -/
@[cglmi]
def glmc_ivec3_distance2 (a : V3 Int32) (b : V3 Int32) : Option (Int32) := do
  let t ← glm_ivec3_distance2 a b
  pure t

/-- `glmc_ivec3_distance`: src/ivec3.c:209-213. -/
@[cglmi]
def glmc_ivec3_distance (a : V3 Int32) (b : V3 Int32) : Option (α) := do
  let t ← glm_ivec3_distance a b
  pure t

/-- `glmc_ivec3_fill`: src/ivec3.c:215-219. -/
@[cglmi]
def glmc_ivec3_fill (val : Int32) : Option (V3 Int32) := do
  let v_1 ← glm_ivec3_fill val
  pure v_1

/-- `glmc_ivec3_eq`: src/ivec3.c:221-225. -/
@[cglmi]
def glmc_ivec3_eq (v : V3 Int32) (val : Int32) : Option (Bool) := do
  let t ← glm_ivec3_eq v val
  pure t

/-- `glmc_ivec3_eqv`: src/ivec3.c:227-231. -/
@[cglmi]
def glmc_ivec3_eqv (a : V3 Int32) (b : V3 Int32) : Option (Bool) := do
  let t ← glm_ivec3_eqv a b
  pure t

/-- `glmc_ivec3_maxv`: src/ivec3.c:233-237. -/
@[cglmi]
def glmc_ivec3_maxv (a : V3 Int32) (b : V3 Int32) : Option (V3 Int32) := do
  let dest_1 ← glm_ivec3_maxv a b
  pure dest_1

/-- `glmc_ivec3_minv`: src/ivec3.c:239-243. -/
@[cglmi]
def glmc_ivec3_minv (a : V3 Int32) (b : V3 Int32) : Option (V3 Int32) := do
  let dest_1 ← glm_ivec3_minv a b
  pure dest_1

/-- `glmc_ivec3_clamp`: src/ivec3.c:245-249. -/
@[cglmi]
def glmc_ivec3_clamp (v : V3 Int32) (minVal : Int32) (maxVal : Int32) : Option (V3 Int32) := do
  let v_1 ← glm_ivec3_clamp v minVal maxVal
  pure v_1

/-- `glmc_ivec3_abs`: src/ivec3.c:251-255. -/
@[cglmi]
def glmc_ivec3_abs (v : V3 Int32) : Option (V3 Int32) := do
  let dest_1 ← glm_ivec3_abs v
  pure dest_1

end Cglm.I
