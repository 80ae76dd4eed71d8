/- Generated from src/ivec4.c by tools/gen.py (value semantics); do not edit by hand. -/
import Verif.I32
import Verif.Attr
import Verif.Gen.IIvec4

set_option linter.unusedVariables false
set_option linter.unusedSectionVars false

namespace Cglm.I

variable {α : Type} [Add α] [Sub α] [Mul α] [Div α] [Neg α] [CFloat α] [CIntConv α]

/-- `glmc_ivec4`: src/ivec4.c:11-15. -/
@[cglmi]
def glmc_ivec4 (v3 : V3 Int32) (last : Int32) : Option (V4 Int32) := do
  let dest_1 ← glm_ivec4 v3 last
  pure dest_1

/-- `glmc_ivec4_copy`: src/ivec4.c:17-21. -/
@[cglmi]
def glmc_ivec4_copy (a : V4 Int32) : Option (V4 Int32) := do
  let dest_1 ← glm_ivec4_copy a
  pure dest_1

/-- `glmc_ivec4_zero`: src/ivec4.c:23-27. -/
@[cglmi]
def glmc_ivec4_zero : Option (V4 Int32) := do
  let v_1 ← glm_ivec4_zero
  pure v_1

/-- `glmc_ivec4_one`: src/ivec4.c:29-33. -/
@[cglmi]
def glmc_ivec4_one : Option (V4 Int32) := do
  let v_1 ← glm_ivec4_one
  pure v_1

/-- `glmc_ivec4_add`: src/ivec4.c:35-39. -/
@[cglmi]
def glmc_ivec4_add (a : V4 Int32) (b : V4 Int32) : Option (V4 Int32) := do
  let dest_1 ← glm_ivec4_add a b
  pure dest_1

/-- `glmc_ivec4_adds`: src/ivec4.c:41-45. -/
@[cglmi]
def glmc_ivec4_adds (v : V4 Int32) (s : Int32) : Option (V4 Int32) := do
  let dest_1 ← glm_ivec4_adds v s
  pure dest_1

/-- `glmc_ivec4_sub`: src/ivec4.c:47-51. -/
@[cglmi]
def glmc_ivec4_sub (a : V4 Int32) (b : V4 Int32) : Option (V4 Int32) := do
  let dest_1 ← glm_ivec4_sub a b
  pure dest_1

/-- `glmc_ivec4_subs`: src/ivec4.c:53-57. -/
@[cglmi]
def glmc_ivec4_subs (v : V4 Int32) (s : Int32) : Option (V4 Int32) := do
  let dest_1 ← glm_ivec4_subs v s
  pure dest_1

/-- `glmc_ivec4_mul`: src/ivec4.c:59-63. -/
@[cglmi]
def glmc_ivec4_mul (a : V4 Int32) (b : V4 Int32) : Option (V4 Int32) := do
  let dest_1 ← glm_ivec4_mul a b
  pure dest_1

/-- `glmc_ivec4_scale`: src/ivec4.c:65-69. -/
@[cglmi]
def glmc_ivec4_scale (v : V4 Int32) (s : Int32) : Option (V4 Int32) := do
  let dest_1 ← glm_ivec4_scale v s
  pure dest_1

/-- `glmc_ivec4_addadd`: src/ivec4.c:71-75. -/
@[cglmi]
def glmc_ivec4_addadd (a : V4 Int32) (b : V4 Int32) (dest : V4 Int32) : Option (V4 Int32) := do
  let dest_1 ← glm_ivec4_addadd a b dest
  pure dest_1

/-- `glmc_ivec4_addadds`: src/ivec4.c:77-81. -/
@[cglmi]
def glmc_ivec4_addadds (a : V4 Int32) (s : Int32) (dest : V4 Int32) : Option (V4 Int32) := do
  let dest_1 ← glm_ivec4_addadds a s dest
  pure dest_1

/-- `glmc_ivec4_subadd`: src/ivec4.c:83-87. -/
@[cglmi]
def glmc_ivec4_subadd (a : V4 Int32) (b : V4 Int32) (dest : V4 Int32) : Option (V4 Int32) := do
  let dest_1 ← glm_ivec4_subadd a b dest
  pure dest_1

/-- `glmc_ivec4_subadds`: src/ivec4.c:89-93. -/
@[cglmi]
def glmc_ivec4_subadds (a : V4 Int32) (s : Int32) (dest : V4 Int32) : Option (V4 Int32) := do
  let dest_1 ← glm_ivec4_subadds a s dest
  pure dest_1

/-- `glmc_ivec4_muladd`: src/ivec4.c:95-99. -/
@[cglmi]
def glmc_ivec4_muladd (a : V4 Int32) (b : V4 Int32) (dest : V4 Int32) : Option (V4 Int32) := do
  let dest_1 ← glm_ivec4_muladd a b dest
  pure dest_1

/-- `glmc_ivec4_muladds`: src/ivec4.c:101-105. -/
@[cglmi]
def glmc_ivec4_muladds (a : V4 Int32) (s : Int32) (dest : V4 Int32) : Option (V4 Int32) := do
  let dest_1 ← glm_ivec4_muladds a s dest
  pure dest_1

/-- `glmc_ivec4_maxadd`: src/ivec4.c:107-111. -/
@[cglmi]
def glmc_ivec4_maxadd (a : V4 Int32) (b : V4 Int32) (dest : V4 Int32) : Option (V4 Int32) := do
  let dest_1 ← glm_ivec4_maxadd a b dest
  pure dest_1

/-- `glmc_ivec4_minadd`: src/ivec4.c:113-117. -/
@[cglmi]
def glmc_ivec4_minadd (a : V4 Int32) (b : V4 Int32) (dest : V4 Int32) : Option (V4 Int32) := do
  let dest_1 ← glm_ivec4_minadd a b dest
  pure dest_1

/-- `glmc_ivec4_subsub`: src/ivec4.c:119-123. -/
@[cglmi]
def glmc_ivec4_subsub (a : V4 Int32) (b : V4 Int32) (dest : V4 Int32) : Option (V4 Int32) := do
  let dest_1 ← glm_ivec4_subsub a b dest
  pure dest_1

/-- `glmc_ivec4_subsubs`: src/ivec4.c:125-129. -/
@[cglmi]
def glmc_ivec4_subsubs (a : V4 Int32) (s : Int32) (dest : V4 Int32) : Option (V4 Int32) := do
  let dest_1 ← glm_ivec4_subsubs a s dest
  pure dest_1

/-- `glmc_ivec4_addsub`: src/ivec4.c:131-135. -/
@[cglmi]
def glmc_ivec4_addsub (a : V4 Int32) (b : V4 Int32) (dest : V4 Int32) : Option (V4 Int32) := do
  let dest_1 ← glm_ivec4_addsub a b dest
  pure dest_1

/-- `glmc_ivec4_addsubs`: src/ivec4.c:137-141. -/
@[cglmi]
def glmc_ivec4_addsubs (a : V4 Int32) (s : Int32) (dest : V4 Int32) : Option (V4 Int32) := do
  let dest_1 ← glm_ivec4_addsubs a s dest
  pure dest_1

/-- `glmc_ivec4_mulsub`: src/ivec4.c:143-147. -/
@[cglmi]
def glmc_ivec4_mulsub (a : V4 Int32) (b : V4 Int32) (dest : V4 Int32) : Option (V4 Int32) := do
  let dest_1 ← glm_ivec4_mulsub a b dest
  pure dest_1

/-- `glmc_ivec4_mulsubs`: src/ivec4.c:149-153. -/
@[cglmi]
def glmc_ivec4_mulsubs (a : V4 Int32) (s : Int32) (dest : V4 Int32) : Option (V4 Int32) := do
  let dest_1 ← glm_ivec4_mulsubs a s dest
  pure dest_1

/-- `glmc_ivec4_maxsub`: src/ivec4.c:155-159. -/
@[cglmi]
def glmc_ivec4_maxsub (a : V4 Int32) (b : V4 Int32) (dest : V4 Int32) : Option (V4 Int32) := do
  let dest_1 ← glm_ivec4_maxsub a b dest
  pure dest_1

/-- `glmc_ivec4_minsub`: src/ivec4.c:161-165. -/
@[cglmi]
def glmc_ivec4_minsub (a : V4 Int32) (b : V4 Int32) (dest : V4 Int32) : Option (V4 Int32) := do
  let dest_1 ← glm_ivec4_minsub a b dest
  pure dest_1

/-- `glmc_ivec4_distance2`: src/ivec4.c:167-171. -/
@[cglmi]
def glmc_ivec4_distance2 (a : V4 Int32) (b : V4 Int32) : Option (Int32) := do
  let t ← glm_ivec4_distance2 a b
  pure t

/-- `glmc_ivec4_distance`: src/ivec4.c:173-177. -/
@[cglmi]
def glmc_ivec4_distance (a : V4 Int32) (b : V4 Int32) : Option (α) := do
  let t ← glm_ivec4_distance a b
  pure t

/-- `glmc_ivec4_maxv`: src/ivec4.c:179-183. -/
@[cglmi]
def glmc_ivec4_maxv (a : V4 Int32) (b : V4 Int32) : Option (V4 Int32) := do
  let dest_1 ← glm_ivec4_maxv a b
  pure dest_1

/-- `glmc_ivec4_minv`: src/ivec4.c:185-189. -/
@[cglmi]
def glmc_ivec4_minv (a : V4 Int32) (b : V4 Int32) : Option (V4 Int32) := do
  let dest_1 ← glm_ivec4_minv a b
  pure dest_1

/-- `glmc_ivec4_clamp`: src/ivec4.c:191-195. -/
@[cglmi]
def glmc_ivec4_clamp (v : V4 Int32) (minVal : Int32) (maxVal : Int32) : Option (V4 Int32) := do
  let v_1 ← glm_ivec4_clamp v minVal maxVal
  pure v_1

/-- `glmc_ivec4_abs`: src/ivec4.c:197-201. -/
@[cglmi]
def glmc_ivec4_abs (v : V4 Int32) : Option (V4 Int32) := do
  let dest_1 ← glm_ivec4_abs v
  pure dest_1

end Cglm.I
