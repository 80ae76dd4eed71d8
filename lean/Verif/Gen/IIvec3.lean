/- Generated from include/cglm/ivec3.h by tools/gen.py (value semantics); do not edit by hand. -/
import Verif.I32
import Verif.Attr
import Verif.Gen.IUtil

set_option linter.unusedVariables false
set_option linter.unusedSectionVars false

namespace Cglm.I

variable {α : Type} [Add α] [Sub α] [Mul α] [Div α] [Neg α] [CFloat α] [CIntConv α]

/-- `glm_ivec3`: include/cglm/ivec3.h:77-83. -/
@[cglmi]
def glm_ivec3 (v4 : V4 Int32) : Option (V3 Int32) := do
  pure ⟨v4.x, v4.y, v4.z⟩

/-- `glm_ivec3_copy`: include/cglm/ivec3.h:91-97. -/
@[cglmi]
def glm_ivec3_copy (a : V3 Int32) : Option (V3 Int32) := do
  pure a

/-- `glm_ivec3_zero`: include/cglm/ivec3.h:104-108. -/
@[cglmi]
def glm_ivec3_zero : Option (V3 Int32) := do
  let v_2 := 0
  pure ⟨v_2, v_2, v_2⟩

/-- `glm_ivec3_one`: include/cglm/ivec3.h:115-119. -/
@[cglmi]
def glm_ivec3_one : Option (V3 Int32) := do
  let v_2 := 1
  pure ⟨v_2, v_2, v_2⟩

/-- `glm_ivec3_dot`: include/cglm/ivec3.h:129-133. -/
@[cglmi]
def glm_ivec3_dot (a : V3 Int32) (b : V3 Int32) : Option (Int32) := do
  let t ← I32.mul a.x b.x
  let t_1 ← I32.mul a.y b.y
  let t_2 ← I32.add t t_1
  let t_3 ← I32.mul a.z b.z
  let t_4 ← I32.add t_2 t_3
  pure t_4

/-- `glm_ivec3_norm2`: include/cglm/ivec3.h:146-150. -/
@[cglmi]
def glm_ivec3_norm2 (v : V3 Int32) : Option (Int32) := do
  let t ← glm_ivec3_dot v v
  pure t

/-- `glm_ivec3_norm`: include/cglm/ivec3.h:160-164. -/
@[cglmi]
def glm_ivec3_norm (v : V3 Int32) : Option (Int32) := do
  let t ← glm_ivec3_norm2 v
  let t_1 ← toI32 (sqrtf (ofI32 (α := α) t))
  pure t_1

/-- `glm_ivec3_add`: include/cglm/ivec3.h:173-179. -/
@[cglmi]
def glm_ivec3_add (a : V3 Int32) (b : V3 Int32) : Option (V3 Int32) := do
  let t ← I32.add a.x b.x
  let t_1 ← I32.add a.y b.y
  let t_2 ← I32.add a.z b.z
  pure ⟨t, t_1, t_2⟩

/-- `glm_ivec3_adds`: include/cglm/ivec3.h:188-194. -/
@[cglmi]
def glm_ivec3_adds (v : V3 Int32) (s : Int32) : Option (V3 Int32) := do
  let t ← I32.add v.x s
  let t_1 ← I32.add v.y s
  let t_2 ← I32.add v.z s
  pure ⟨t, t_1, t_2⟩

/-- `glm_ivec3_sub`: include/cglm/ivec3.h:203-209. -/
@[cglmi]
def glm_ivec3_sub (a : V3 Int32) (b : V3 Int32) : Option (V3 Int32) := do
  let t ← I32.sub a.x b.x
  let t_1 ← I32.sub a.y b.y
  let t_2 ← I32.sub a.z b.z
  pure ⟨t, t_1, t_2⟩

/-- `glm_ivec3_subs`: include/cglm/ivec3.h:218-224. -/
@[cglmi]
def glm_ivec3_subs (v : V3 Int32) (s : Int32) : Option (V3 Int32) := do
  let t ← I32.sub v.x s
  let t_1 ← I32.sub v.y s
  let t_2 ← I32.sub v.z s
  pure ⟨t, t_1, t_2⟩

/-- `glm_ivec3_mul`: include/cglm/ivec3.h:233-239. -/
@[cglmi]
def glm_ivec3_mul (a : V3 Int32) (b : V3 Int32) : Option (V3 Int32) := do
  let t ← I32.mul a.x b.x
  let t_1 ← I32.mul a.y b.y
  let t_2 ← I32.mul a.z b.z
  pure ⟨t, t_1, t_2⟩

/-- `glm_ivec3_scale`: include/cglm/ivec3.h:248-254. -/
@[cglmi]
def glm_ivec3_scale (v : V3 Int32) (s : Int32) : Option (V3 Int32) := do
  let t ← I32.mul v.x s
  let t_1 ← I32.mul v.y s
  let t_2 ← I32.mul v.z s
  pure ⟨t, t_1, t_2⟩

/-- `glm_ivec3_div`: include/cglm/ivec3.h:263-269. -/
@[cglmi]
def glm_ivec3_div (a : V3 Int32) (b : V3 Int32) : Option (V3 Int32) := do
  let t ← I32.div a.x b.x
  let t_1 ← I32.div a.y b.y
  let t_2 ← I32.div a.z b.z
  pure ⟨t, t_1, t_2⟩

/-- `glm_ivec3_divs`: include/cglm/ivec3.h:278-284. -/
@[cglmi]
def glm_ivec3_divs (v : V3 Int32) (s : Int32) : Option (V3 Int32) := do
  let t ← I32.div v.x s
  let t_1 ← I32.div v.y s
  let t_2 ← I32.div v.z s
  pure ⟨t, t_1, t_2⟩

/-- `glm_ivec3_mod`: include/cglm/ivec3.h:295-301. -/
@[cglmi]
def glm_ivec3_mod (a : V3 Int32) (b : V3 Int32) : Option (V3 Int32) := do
  let t ← I32.mod a.x b.x
  let t_1 ← I32.mod a.y b.y
  let t_2 ← I32.mod a.z b.z
  pure ⟨t, t_1, t_2⟩

/-- `glm_ivec3_addadd`: include/cglm/ivec3.h:312-318. -/
@[cglmi]
def glm_ivec3_addadd (a : V3 Int32) (b : V3 Int32) (dest : V3 Int32) : Option (V3 Int32) := do
  let t ← I32.add a.x b.x
  let t_1 ← I32.add dest.x t
  let t_2 ← I32.add a.y b.y
  let t_3 ← I32.add dest.y t_2
  let t_4 ← I32.add a.z b.z
  let t_5 ← I32.add dest.z t_4
  pure ⟨t_1, t_3, t_5⟩

/-- `glm_ivec3_addadds`: include/cglm/ivec3.h:329-335. -/
@[cglmi]
def glm_ivec3_addadds (a : V3 Int32) (s : Int32) (dest : V3 Int32) : Option (V3 Int32) := do
  let t ← I32.add a.x s
  let t_1 ← I32.add dest.x t
  let t_2 ← I32.add a.y s
  let t_3 ← I32.add dest.y t_2
  let t_4 ← I32.add a.z s
  let t_5 ← I32.add dest.z t_4
  pure ⟨t_1, t_3, t_5⟩

/-- `glm_ivec3_subadd`: include/cglm/ivec3.h:346-352. -/
@[cglmi]
def glm_ivec3_subadd (a : V3 Int32) (b : V3 Int32) (dest : V3 Int32) : Option (V3 Int32) := do
  let t ← I32.sub a.x b.x
  let t_1 ← I32.add dest.x t
  let t_2 ← I32.sub a.y b.y
  let t_3 ← I32.add dest.y t_2
  let t_4 ← I32.sub a.z b.z
  let t_5 ← I32.add dest.z t_4
  pure ⟨t_1, t_3, t_5⟩

/-- `glm_ivec3_subadds`: include/cglm/ivec3.h:363-369. -/
@[cglmi]
def glm_ivec3_subadds (a : V3 Int32) (s : Int32) (dest : V3 Int32) : Option (V3 Int32) := do
  let t ← I32.sub a.x s
  let t_1 ← I32.add dest.x t
  let t_2 ← I32.sub a.y s
  let t_3 ← I32.add dest.y t_2
  let t_4 ← I32.sub a.z s
  let t_5 ← I32.add dest.z t_4
  pure ⟨t_1, t_3, t_5⟩

/-- `glm_ivec3_muladd`: include/cglm/ivec3.h:380-386. -/
@[cglmi]
def glm_ivec3_muladd (a : V3 Int32) (b : V3 Int32) (dest : V3 Int32) : Option (V3 Int32) := do
  let t ← I32.mul a.x b.x
  let t_1 ← I32.add dest.x t
  let t_2 ← I32.mul a.y b.y
  let t_3 ← I32.add dest.y t_2
  let t_4 ← I32.mul a.z b.z
  let t_5 ← I32.add dest.z t_4
  pure ⟨t_1, t_3, t_5⟩

/-- `glm_ivec3_muladds`: include/cglm/ivec3.h:397-403. -/
@[cglmi]
def glm_ivec3_muladds (a : V3 Int32) (s : Int32) (dest : V3 Int32) : Option (V3 Int32) := do
  let t ← I32.mul a.x s
  let t_1 ← I32.add dest.x t
  let t_2 ← I32.mul a.y s
  let t_3 ← I32.add dest.y t_2
  let t_4 ← I32.mul a.z s
  let t_5 ← I32.add dest.z t_4
  pure ⟨t_1, t_3, t_5⟩

/-- `glm_ivec3_maxadd`: include/cglm/ivec3.h:414-420. -/
@[cglmi]
def glm_ivec3_maxadd (a : V3 Int32) (b : V3 Int32) (dest : V3 Int32) : Option (V3 Int32) := do
  let t ← glm_imax a.x b.x
  let t_1 ← I32.add dest.x t
  let t_2 ← glm_imax a.y b.y
  let t_3 ← I32.add dest.y t_2
  let t_4 ← glm_imax a.z b.z
  let t_5 ← I32.add dest.z t_4
  pure ⟨t_1, t_3, t_5⟩

/-- `glm_ivec3_minadd`: include/cglm/ivec3.h:431-437. -/
@[cglmi]
def glm_ivec3_minadd (a : V3 Int32) (b : V3 Int32) (dest : V3 Int32) : Option (V3 Int32) := do
  let t ← glm_imin a.x b.x
  let t_1 ← I32.add dest.x t
  let t_2 ← glm_imin a.y b.y
  let t_3 ← I32.add dest.y t_2
  let t_4 ← glm_imin a.z b.z
  let t_5 ← I32.add dest.z t_4
  pure ⟨t_1, t_3, t_5⟩

/-- `glm_ivec3_subsub`: include/cglm/ivec3.h:448-454. -/
@[cglmi]
def glm_ivec3_subsub (a : V3 Int32) (b : V3 Int32) (dest : V3 Int32) : Option (V3 Int32) := do
  let t ← I32.sub a.x b.x
  let t_1 ← I32.sub dest.x t
  let t_2 ← I32.sub a.y b.y
  let t_3 ← I32.sub dest.y t_2
  let t_4 ← I32.sub a.z b.z
  let t_5 ← I32.sub dest.z t_4
  pure ⟨t_1, t_3, t_5⟩

/-- `glm_ivec3_subsubs`: include/cglm/ivec3.h:465-471. -/
@[cglmi]
def glm_ivec3_subsubs (a : V3 Int32) (s : Int32) (dest : V3 Int32) : Option (V3 Int32) := do
  let t ← I32.sub a.x s
  let t_1 ← I32.sub dest.x t
  let t_2 ← I32.sub a.y s
  let t_3 ← I32.sub dest.y t_2
  let t_4 ← I32.sub a.z s
  let t_5 ← I32.sub dest.z t_4
  pure ⟨t_1, t_3, t_5⟩

/-- `glm_ivec3_addsub`: include/cglm/ivec3.h:482-488. -/
@[cglmi]
def glm_ivec3_addsub (a : V3 Int32) (b : V3 Int32) (dest : V3 Int32) : Option (V3 Int32) := do
  let t ← I32.add a.x b.x
  let t_1 ← I32.sub dest.x t
  let t_2 ← I32.add a.y b.y
  let t_3 ← I32.sub dest.y t_2
  let t_4 ← I32.add a.z b.z
  let t_5 ← I32.sub dest.z t_4
  pure ⟨t_1, t_3, t_5⟩

/-- `glm_ivec3_addsubs`: include/cglm/ivec3.h:499-505. -/
@[cglmi]
def glm_ivec3_addsubs (a : V3 Int32) (s : Int32) (dest : V3 Int32) : Option (V3 Int32) := do
  let t ← I32.add a.x s
  let t_1 ← I32.sub dest.x t
  let t_2 ← I32.add a.y s
  let t_3 ← I32.sub dest.y t_2
  let t_4 ← I32.add a.z s
  let t_5 ← I32.sub dest.z t_4
  pure ⟨t_1, t_3, t_5⟩

/-- `glm_ivec3_mulsub`: include/cglm/ivec3.h:516-522. -/
@[cglmi]
def glm_ivec3_mulsub (a : V3 Int32) (b : V3 Int32) (dest : V3 Int32) : Option (V3 Int32) := do
  let t ← I32.mul a.x b.x
  let t_1 ← I32.sub dest.x t
  let t_2 ← I32.mul a.y b.y
  let t_3 ← I32.sub dest.y t_2
  let t_4 ← I32.mul a.z b.z
  let t_5 ← I32.sub dest.z t_4
  pure ⟨t_1, t_3, t_5⟩

/-- `glm_ivec3_mulsubs`: include/cglm/ivec3.h:533-539. -/
@[cglmi]
def glm_ivec3_mulsubs (a : V3 Int32) (s : Int32) (dest : V3 Int32) : Option (V3 Int32) := do
  let t ← I32.mul a.x s
  let t_1 ← I32.sub dest.x t
  let t_2 ← I32.mul a.y s
  let t_3 ← I32.sub dest.y t_2
  let t_4 ← I32.mul a.z s
  let t_5 ← I32.sub dest.z t_4
  pure ⟨t_1, t_3, t_5⟩

/-- `glm_ivec3_maxsub`: include/cglm/ivec3.h:550-556. -/
@[cglmi]
def glm_ivec3_maxsub (a : V3 Int32) (b : V3 Int32) (dest : V3 Int32) : Option (V3 Int32) := do
  let t ← glm_imax a.x b.x
  let t_1 ← I32.sub dest.x t
  let t_2 ← glm_imax a.y b.y
  let t_3 ← I32.sub dest.y t_2
  let t_4 ← glm_imax a.z b.z
  let t_5 ← I32.sub dest.z t_4
  pure ⟨t_1, t_3, t_5⟩

/-- `glm_ivec3_minsub`: include/cglm/ivec3.h:567-573. -/
@[cglmi]
def glm_ivec3_minsub (a : V3 Int32) (b : V3 Int32) (dest : V3 Int32) : Option (V3 Int32) := do
  let t ← glm_imin a.x b.x
  let t_1 ← I32.sub dest.x t
  let t_2 ← glm_imin a.y b.y
  let t_3 ← I32.sub dest.y t_2
  let t_4 ← glm_imin a.z b.z
  let t_5 ← I32.sub dest.z t_4
  pure ⟨t_1, t_3, t_5⟩

/-- `glm_ivec3_distance2`: include/cglm/ivec3.h:582-590. -/
@[cglmi]
def glm_ivec3_distance2 (a : V3 Int32) (b : V3 Int32) : Option (Int32) := do
  let t ← I32.sub a.x b.x
  let xd := t
  let t_1 ← I32.sub a.y b.y
  let yd := t_1
  let t_2 ← I32.sub a.z b.z
  let zd := t_2
  let t_3 ← I32.mul xd xd
  let t_4 ← I32.mul yd yd
  let t_5 ← I32.add t_3 t_4
  let t_6 ← I32.mul zd zd
  let t_7 ← I32.add t_5 t_6
  pure t_7

/-- `glm_ivec3_distance`: include/cglm/ivec3.h:599-603. -/
@[cglmi]
def glm_ivec3_distance (a : V3 Int32) (b : V3 Int32) : Option (α) := do
  let t ← glm_ivec3_distance2 a b
  pure (sqrtf (ofI32 (α := α) t))

/-- `glm_ivec3_fill`: include/cglm/ivec3.h:611-615. -/
@[cglmi]
def glm_ivec3_fill (val : Int32) : Option (V3 Int32) := do
  pure ⟨val, val, val⟩

/-- `glm_ivec3_eq`: include/cglm/ivec3.h:623-627. -/
@[cglmi]
def glm_ivec3_eq (v : V3 Int32) (val : Int32) : Option (Bool) := do
  pure (I32.eq v.x val && I32.eq v.x v.y && I32.eq v.x v.z)

/-- `glm_ivec3_eqv`: include/cglm/ivec3.h:635-641. -/
@[cglmi]
def glm_ivec3_eqv (a : V3 Int32) (b : V3 Int32) : Option (Bool) := do
  pure (I32.eq a.x b.x && I32.eq a.y b.y && I32.eq a.z b.z)

/-- `glm_ivec3_maxv`: include/cglm/ivec3.h:650-656. -/
@[cglmi]
def glm_ivec3_maxv (a : V3 Int32) (b : V3 Int32) : Option (V3 Int32) := do
  pure ⟨if I32.gt a.x b.x then a.x else b.x, if I32.gt a.y b.y then a.y else b.y, if I32.gt a.z b.z then a.z else b.z⟩

/-- `glm_ivec3_minv`: include/cglm/ivec3.h:665-671. -/
@[cglmi]
def glm_ivec3_minv (a : V3 Int32) (b : V3 Int32) : Option (V3 Int32) := do
  pure ⟨if I32.lt a.x b.x then a.x else b.x, if I32.lt a.y b.y then a.y else b.y, if I32.lt a.z b.z then a.z else b.z⟩

/-- `glm_ivec3_clamp`: include/cglm/ivec3.h:680-697. -/
@[cglmi]
def glm_ivec3_clamp (v : V3 Int32) (minVal : Int32) (maxVal : Int32) : Option (V3 Int32) := do
  if I32.lt v.x minVal then
    if I32.lt v.y minVal then
      if I32.lt v.z minVal then
        pure ⟨minVal, minVal, minVal⟩
      else
        if I32.gt v.z maxVal then
          pure ⟨minVal, minVal, maxVal⟩
        else
          pure ⟨minVal, minVal, v.z⟩
    else
      if I32.gt v.y maxVal then
        if I32.lt v.z minVal then
          pure ⟨minVal, maxVal, minVal⟩
        else
          if I32.gt v.z maxVal then
            pure ⟨minVal, maxVal, maxVal⟩
          else
            pure ⟨minVal, maxVal, v.z⟩
      else
        if I32.lt v.z minVal then
          pure ⟨minVal, v.y, minVal⟩
        else
          if I32.gt v.z maxVal then
            pure ⟨minVal, v.y, maxVal⟩
          else
            pure ⟨minVal, v.y, v.z⟩
  else
    if I32.gt v.x maxVal then
      if I32.lt v.y minVal then
        if I32.lt v.z minVal then
          pure ⟨maxVal, minVal, minVal⟩
        else
          if I32.gt v.z maxVal then
            pure ⟨maxVal, minVal, maxVal⟩
          else
            pure ⟨maxVal, minVal, v.z⟩
      else
        if I32.gt v.y maxVal then
          if I32.lt v.z minVal then
            pure ⟨maxVal, maxVal, minVal⟩
          else
            if I32.gt v.z maxVal then
              pure ⟨maxVal, maxVal, maxVal⟩
            else
              pure ⟨maxVal, maxVal, v.z⟩
        else
          if I32.lt v.z minVal then
            pure ⟨maxVal, v.y, minVal⟩
          else
            if I32.gt v.z maxVal then
              pure ⟨maxVal, v.y, maxVal⟩
            else
              pure ⟨maxVal, v.y, v.z⟩
    else
      if I32.lt v.y minVal then
        if I32.lt v.z minVal then
          pure ⟨v.x, minVal, minVal⟩
        else
          if I32.gt v.z maxVal then
            pure ⟨v.x, minVal, maxVal⟩
          else
            pure ⟨v.x, minVal, v.z⟩
      else
        if I32.gt v.y maxVal then
          if I32.lt v.z minVal then
            pure ⟨v.x, maxVal, minVal⟩
          else
            if I32.gt v.z maxVal then
              pure ⟨v.x, maxVal, maxVal⟩
            else
              pure ⟨v.x, maxVal, v.z⟩
        else
          if I32.lt v.z minVal then
            pure ⟨v.x, v.y, minVal⟩
          else
            if I32.gt v.z maxVal then
              pure ⟨v.x, v.y, maxVal⟩
            else
              pure v

/-- `glm_ivec3_abs`: include/cglm/ivec3.h:705-711. -/
@[cglmi]
def glm_ivec3_abs (v : V3 Int32) : Option (V3 Int32) := do
  let t ← I32.abs v.x
  let t_1 ← I32.abs v.y
  let t_2 ← I32.abs v.z
  pure ⟨t, t_1, t_2⟩

end Cglm.I
