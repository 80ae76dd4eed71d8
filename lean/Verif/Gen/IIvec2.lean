/- Generated from include/cglm/ivec2.h by tools/gen.py (value semantics); do not edit by hand. -/
import Verif.I32
import Verif.Attr
import Verif.Gen.IUtil

set_option linter.unusedVariables false
set_option linter.unusedSectionVars false

namespace Cglm.I

variable {α : Type} [Add α] [Sub α] [Mul α] [Div α] [Neg α] [CFloat α] [CIntConv α]

/-- `glm_ivec2`: include/cglm/ivec2.h:76-81. -/
@[cglmi]
def glm_ivec2 (v : V2 Int32) : Option (V2 Int32) := do
  pure v

/-- `glm_ivec2_copy`: include/cglm/ivec2.h:89-94. -/
@[cglmi]
def glm_ivec2_copy (a : V2 Int32) : Option (V2 Int32) := do
  pure a

/-- `glm_ivec2_zero`: include/cglm/ivec2.h:101-105. -/
@[cglmi]
def glm_ivec2_zero : Option (V2 Int32) := do
  let v_1 := 0
  pure ⟨v_1, v_1⟩

/-- `glm_ivec2_one`: include/cglm/ivec2.h:112-116. -/
@[cglmi]
def glm_ivec2_one : Option (V2 Int32) := do
  let v_1 := 1
  pure ⟨v_1, v_1⟩

/-- `glm_ivec2_dot`: include/cglm/ivec2.h:126-130. -/
@[cglmi]
def glm_ivec2_dot (a : V2 Int32) (b : V2 Int32) : Option (Int32) := do
  let t ← I32.mul a.x b.x
  let t_1 ← I32.mul a.y b.y
  let t_2 ← I32.add t t_1
  pure t_2

/-- `glm_ivec2_cross`: include/cglm/ivec2.h:142-146. -/
@[cglmi]
def glm_ivec2_cross (a : V2 Int32) (b : V2 Int32) : Option (Int32) := do
  let t ← I32.mul a.x b.y
  let t_1 ← I32.mul a.y b.x
  let t_2 ← I32.sub t t_1
  pure t_2

/-- `glm_ivec2_add`: include/cglm/ivec2.h:155-160. -/
@[cglmi]
def glm_ivec2_add (a : V2 Int32) (b : V2 Int32) : Option (V2 Int32) := do
  let t ← I32.add a.x b.x
  let t_1 ← I32.add a.y b.y
  pure ⟨t, t_1⟩

/-- `glm_ivec2_adds`: include/cglm/ivec2.h:169-174. -/
@[cglmi]
def glm_ivec2_adds (v : V2 Int32) (s : Int32) : Option (V2 Int32) := do
  let t ← I32.add v.x s
  let t_1 ← I32.add v.y s
  pure ⟨t, t_1⟩

/-- `glm_ivec2_sub`: include/cglm/ivec2.h:183-188. -/
@[cglmi]
def glm_ivec2_sub (a : V2 Int32) (b : V2 Int32) : Option (V2 Int32) := do
  let t ← I32.sub a.x b.x
  let t_1 ← I32.sub a.y b.y
  pure ⟨t, t_1⟩

/-- `glm_ivec2_subs`: include/cglm/ivec2.h:197-202. -/
@[cglmi]
def glm_ivec2_subs (v : V2 Int32) (s : Int32) : Option (V2 Int32) := do
  let t ← I32.sub v.x s
  let t_1 ← I32.sub v.y s
  pure ⟨t, t_1⟩

/-- `glm_ivec2_mul`: include/cglm/ivec2.h:211-216. -/
@[cglmi]
def glm_ivec2_mul (a : V2 Int32) (b : V2 Int32) : Option (V2 Int32) := do
  let t ← I32.mul a.x b.x
  let t_1 ← I32.mul a.y b.y
  pure ⟨t, t_1⟩

/-- `glm_ivec2_scale`: include/cglm/ivec2.h:225-230. -/
@[cglmi]
def glm_ivec2_scale (v : V2 Int32) (s : Int32) : Option (V2 Int32) := do
  let t ← I32.mul v.x s
  let t_1 ← I32.mul v.y s
  pure ⟨t, t_1⟩

/-- `glm_ivec2_div`: include/cglm/ivec2.h:239-244. -/
@[cglmi]
def glm_ivec2_div (a : V2 Int32) (b : V2 Int32) : Option (V2 Int32) := do
  let t ← I32.div a.x b.x
  let t_1 ← I32.div a.y b.y
  pure ⟨t, t_1⟩

/-- `glm_ivec2_divs`: include/cglm/ivec2.h:253-258. -/
@[cglmi]
def glm_ivec2_divs (v : V2 Int32) (s : Int32) : Option (V2 Int32) := do
  let t ← I32.div v.x s
  let t_1 ← I32.div v.y s
  pure ⟨t, t_1⟩

/-- `glm_ivec2_mod`: include/cglm/ivec2.h:267-272. -/
@[cglmi]
def glm_ivec2_mod (a : V2 Int32) (b : V2 Int32) : Option (V2 Int32) := do
  let t ← I32.mod a.x b.x
  let t_1 ← I32.mod a.y b.y
  pure ⟨t, t_1⟩

/-- `glm_ivec2_addadd`: include/cglm/ivec2.h:283-288. -/
@[cglmi]
def glm_ivec2_addadd (a : V2 Int32) (b : V2 Int32) (dest : V2 Int32) : Option (V2 Int32) := do
  let t ← I32.add a.x b.x
  let t_1 ← I32.add dest.x t
  let t_2 ← I32.add a.y b.y
  let t_3 ← I32.add dest.y t_2
  pure ⟨t_1, t_3⟩

/-- `glm_ivec2_addadds`: include/cglm/ivec2.h:299-304. -/
@[cglmi]
def glm_ivec2_addadds (a : V2 Int32) (s : Int32) (dest : V2 Int32) : Option (V2 Int32) := do
  let t ← I32.add a.x s
  let t_1 ← I32.add dest.x t
  let t_2 ← I32.add a.y s
  let t_3 ← I32.add dest.y t_2
  pure ⟨t_1, t_3⟩

/-- `glm_ivec2_subadd`: include/cglm/ivec2.h:315-320. -/
@[cglmi]
def glm_ivec2_subadd (a : V2 Int32) (b : V2 Int32) (dest : V2 Int32) : Option (V2 Int32) := do
  let t ← I32.sub a.x b.x
  let t_1 ← I32.add dest.x t
  let t_2 ← I32.sub a.y b.y
  let t_3 ← I32.add dest.y t_2
  pure ⟨t_1, t_3⟩

/-- `glm_ivec2_subadds`: include/cglm/ivec2.h:331-336. -/
@[cglmi]
def glm_ivec2_subadds (a : V2 Int32) (s : Int32) (dest : V2 Int32) : Option (V2 Int32) := do
  let t ← I32.sub a.x s
  let t_1 ← I32.add dest.x t
  let t_2 ← I32.sub a.y s
  let t_3 ← I32.add dest.y t_2
  pure ⟨t_1, t_3⟩

/-- `glm_ivec2_muladd`: include/cglm/ivec2.h:347-352. -/
@[cglmi]
def glm_ivec2_muladd (a : V2 Int32) (b : V2 Int32) (dest : V2 Int32) : Option (V2 Int32) := do
  let t ← I32.mul a.x b.x
  let t_1 ← I32.add dest.x t
  let t_2 ← I32.mul a.y b.y
  let t_3 ← I32.add dest.y t_2
  pure ⟨t_1, t_3⟩

/-- `glm_ivec2_muladds`: include/cglm/ivec2.h:363-368. -/
@[cglmi]
def glm_ivec2_muladds (a : V2 Int32) (s : Int32) (dest : V2 Int32) : Option (V2 Int32) := do
  let t ← I32.mul a.x s
  let t_1 ← I32.add dest.x t
  let t_2 ← I32.mul a.y s
  let t_3 ← I32.add dest.y t_2
  pure ⟨t_1, t_3⟩

/-- `glm_ivec2_maxadd`: include/cglm/ivec2.h:379-384. -/
@[cglmi]
def glm_ivec2_maxadd (a : V2 Int32) (b : V2 Int32) (dest : V2 Int32) : Option (V2 Int32) := do
  let t ← glm_imax a.x b.x
  let t_1 ← I32.add dest.x t
  let t_2 ← glm_imax a.y b.y
  let t_3 ← I32.add dest.y t_2
  pure ⟨t_1, t_3⟩

/-- `glm_ivec2_minadd`: include/cglm/ivec2.h:395-400. -/
@[cglmi]
def glm_ivec2_minadd (a : V2 Int32) (b : V2 Int32) (dest : V2 Int32) : Option (V2 Int32) := do
  let t ← glm_imin a.x b.x
  let t_1 ← I32.add dest.x t
  let t_2 ← glm_imin a.y b.y
  let t_3 ← I32.add dest.y t_2
  pure ⟨t_1, t_3⟩

/-- `glm_ivec2_subsub`: include/cglm/ivec2.h:411-416. -/
@[cglmi]
def glm_ivec2_subsub (a : V2 Int32) (b : V2 Int32) (dest : V2 Int32) : Option (V2 Int32) := do
  let t ← I32.sub a.x b.x
  let t_1 ← I32.sub dest.x t
  let t_2 ← I32.sub a.y b.y
  let t_3 ← I32.sub dest.y t_2
  pure ⟨t_1, t_3⟩

/-- `glm_ivec2_subsubs`: include/cglm/ivec2.h:427-432. -/
@[cglmi]
def glm_ivec2_subsubs (a : V2 Int32) (s : Int32) (dest : V2 Int32) : Option (V2 Int32) := do
  let t ← I32.sub a.x s
  let t_1 ← I32.sub dest.x t
  let t_2 ← I32.sub a.y s
  let t_3 ← I32.sub dest.y t_2
  pure ⟨t_1, t_3⟩

/-- `glm_ivec2_addsub`: include/cglm/ivec2.h:443-448. -/
@[cglmi]
def glm_ivec2_addsub (a : V2 Int32) (b : V2 Int32) (dest : V2 Int32) : Option (V2 Int32) := do
  let t ← I32.add a.x b.x
  let t_1 ← I32.sub dest.x t
  let t_2 ← I32.add a.y b.y
  let t_3 ← I32.sub dest.y t_2
  pure ⟨t_1, t_3⟩

/-- `glm_ivec2_addsubs`: include/cglm/ivec2.h:459-464. -/
@[cglmi]
def glm_ivec2_addsubs (a : V2 Int32) (s : Int32) (dest : V2 Int32) : Option (V2 Int32) := do
  let t ← I32.add a.x s
  let t_1 ← I32.sub dest.x t
  let t_2 ← I32.add a.y s
  let t_3 ← I32.sub dest.y t_2
  pure ⟨t_1, t_3⟩

/-- `glm_ivec2_mulsub`: include/cglm/ivec2.h:475-480. -/
@[cglmi]
def glm_ivec2_mulsub (a : V2 Int32) (b : V2 Int32) (dest : V2 Int32) : Option (V2 Int32) := do
  let t ← I32.mul a.x b.x
  let t_1 ← I32.sub dest.x t
  let t_2 ← I32.mul a.y b.y
  let t_3 ← I32.sub dest.y t_2
  pure ⟨t_1, t_3⟩

/-- `glm_ivec2_mulsubs`: include/cglm/ivec2.h:491-496. -/
@[cglmi]
def glm_ivec2_mulsubs (a : V2 Int32) (s : Int32) (dest : V2 Int32) : Option (V2 Int32) := do
  let t ← I32.mul a.x s
  let t_1 ← I32.sub dest.x t
  let t_2 ← I32.mul a.y s
  let t_3 ← I32.sub dest.y t_2
  pure ⟨t_1, t_3⟩

/-- `glm_ivec2_maxsub`: include/cglm/ivec2.h:507-512. -/
@[cglmi]
def glm_ivec2_maxsub (a : V2 Int32) (b : V2 Int32) (dest : V2 Int32) : Option (V2 Int32) := do
  let t ← glm_imax a.x b.x
  let t_1 ← I32.sub dest.x t
  let t_2 ← glm_imax a.y b.y
  let t_3 ← I32.sub dest.y t_2
  pure ⟨t_1, t_3⟩

/-- `glm_ivec2_minsub`: include/cglm/ivec2.h:523-528. -/
@[cglmi]
def glm_ivec2_minsub (a : V2 Int32) (b : V2 Int32) (dest : V2 Int32) : Option (V2 Int32) := do
  let t ← glm_imin a.x b.x
  let t_1 ← I32.sub dest.x t
  let t_2 ← glm_imin a.y b.y
  let t_3 ← I32.sub dest.y t_2
  pure ⟨t_1, t_3⟩

/-- `glm_ivec2_distance2`: include/cglm/ivec2.h:537-544. -/
@[cglmi]
def glm_ivec2_distance2 (a : V2 Int32) (b : V2 Int32) : Option (Int32) := do
  let t ← I32.sub a.x b.x
  let xd := t
  let t_1 ← I32.sub a.y b.y
  let yd := t_1
  let t_2 ← I32.mul xd xd
  let t_3 ← I32.mul yd yd
  let t_4 ← I32.add t_2 t_3
  pure t_4

/-- `glm_ivec2_distance`: include/cglm/ivec2.h:553-557. -/
@[cglmi]
def glm_ivec2_distance (a : V2 Int32) (b : V2 Int32) : Option (α) := do
  let t ← glm_ivec2_distance2 a b
  pure (sqrtf (ofI32 (α := α) t))

/-- `glm_ivec2_fill`: include/cglm/ivec2.h:566-570. -/
@[cglmi]
def glm_ivec2_fill (val : Int32) : Option (V2 Int32) := do
  pure ⟨val, val⟩

/-- `glm_ivec2_eq`: include/cglm/ivec2.h:578-582. -/
@[cglmi]
def glm_ivec2_eq (v : V2 Int32) (val : Int32) : Option (Bool) := do
  pure (I32.eq v.x val && I32.eq v.x v.y)

/-- `glm_ivec2_eqv`: include/cglm/ivec2.h:590-595. -/
@[cglmi]
def glm_ivec2_eqv (a : V2 Int32) (b : V2 Int32) : Option (Bool) := do
  pure (I32.eq a.x b.x && I32.eq a.y b.y)

/-- `glm_ivec2_maxv`: include/cglm/ivec2.h:604-609. -/
@[cglmi]
def glm_ivec2_maxv (a : V2 Int32) (b : V2 Int32) : Option (V2 Int32) := do
  pure ⟨if I32.gt a.x b.x then a.x else b.x, if I32.gt a.y b.y then a.y else b.y⟩

/-- `glm_ivec2_minv`: include/cglm/ivec2.h:618-623. -/
@[cglmi]
def glm_ivec2_minv (a : V2 Int32) (b : V2 Int32) : Option (V2 Int32) := do
  pure ⟨if I32.lt a.x b.x then a.x else b.x, if I32.lt a.y b.y then a.y else b.y⟩

/-- `glm_ivec2_clamp`: include/cglm/ivec2.h:632-644. -/
@[cglmi]
def glm_ivec2_clamp (v : V2 Int32) (minVal : Int32) (maxVal : Int32) : Option (V2 Int32) := do
  if I32.lt v.x minVal then
    if I32.lt v.y minVal then
      pure ⟨minVal, minVal⟩
    else
      if I32.gt v.y maxVal then
        pure ⟨minVal, maxVal⟩
      else
        pure ⟨minVal, v.y⟩
  else
    if I32.gt v.x maxVal then
      if I32.lt v.y minVal then
        pure ⟨maxVal, minVal⟩
      else
        if I32.gt v.y maxVal then
          pure ⟨maxVal, maxVal⟩
        else
          pure ⟨maxVal, v.y⟩
    else
      if I32.lt v.y minVal then
        pure ⟨v.x, minVal⟩
      else
        if I32.gt v.y maxVal then
          pure ⟨v.x, maxVal⟩
        else
          pure v

/-- `glm_ivec2_abs`: include/cglm/ivec2.h:652-657. -/
@[cglmi]
def glm_ivec2_abs (v : V2 Int32) : Option (V2 Int32) := do
  let t ← I32.abs v.x
  let t_1 ← I32.abs v.y
  pure ⟨t, t_1⟩

end Cglm.I
