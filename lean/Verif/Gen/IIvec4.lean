/- Generated from include/cglm/ivec4.h by tools/gen.py (value semantics); do not edit by hand. -/
import Verif.I32
import Verif.Attr
import Verif.Gen.IUtil

set_option linter.unusedVariables false
set_option linter.unusedSectionVars false

namespace Cglm.I

variable {α : Type} [Add α] [Sub α] [Mul α] [Div α] [Neg α] [CFloat α] [CIntConv α]

/-- `glm_ivec4`: include/cglm/ivec4.h:69-76. -/
@[cglmi]
def glm_ivec4 (v3 : V3 Int32) (last : Int32) : Option (V4 Int32) := do
  pure ⟨v3.x, v3.y, v3.z, last⟩

/-- `glm_ivec4_copy`: include/cglm/ivec4.h:84-91. -/
@[cglmi]
def glm_ivec4_copy (a : V4 Int32) : Option (V4 Int32) := do
  pure a

/-- `glm_ivec4_zero`: include/cglm/ivec4.h:98-102. -/
@[cglmi]
def glm_ivec4_zero : Option (V4 Int32) := do
  let v_3 := 0
  pure ⟨v_3, v_3, v_3, v_3⟩

/-- `glm_ivec4_one`: include/cglm/ivec4.h:109-113. -/
@[cglmi]
def glm_ivec4_one : Option (V4 Int32) := do
  let v_3 := 1
  pure ⟨v_3, v_3, v_3, v_3⟩

/-- `glm_ivec4_add`: include/cglm/ivec4.h:122-129. -/
@[cglmi]
def glm_ivec4_add (a : V4 Int32) (b : V4 Int32) : Option (V4 Int32) := do
  let t ← I32.add a.x b.x
  let t_1 ← I32.add a.y b.y
  let t_2 ← I32.add a.z b.z
  let t_3 ← I32.add a.w b.w
  pure ⟨t, t_1, t_2, t_3⟩

/-- `glm_ivec4_adds`: include/cglm/ivec4.h:138-145. -/
@[cglmi]
def glm_ivec4_adds (v : V4 Int32) (s : Int32) : Option (V4 Int32) := do
  let t ← I32.add v.x s
  let t_1 ← I32.add v.y s
  let t_2 ← I32.add v.z s
  let t_3 ← I32.add v.w s
  pure ⟨t, t_1, t_2, t_3⟩

/-- `glm_ivec4_sub`: include/cglm/ivec4.h:154-161. -/
@[cglmi]
def glm_ivec4_sub (a : V4 Int32) (b : V4 Int32) : Option (V4 Int32) := do
  let t ← I32.sub a.x b.x
  let t_1 ← I32.sub a.y b.y
  let t_2 ← I32.sub a.z b.z
  let t_3 ← I32.sub a.w b.w
  pure ⟨t, t_1, t_2, t_3⟩

/-- `glm_ivec4_subs`: include/cglm/ivec4.h:170-177. -/
@[cglmi]
def glm_ivec4_subs (v : V4 Int32) (s : Int32) : Option (V4 Int32) := do
  let t ← I32.sub v.x s
  let t_1 ← I32.sub v.y s
  let t_2 ← I32.sub v.z s
  let t_3 ← I32.sub v.w s
  pure ⟨t, t_1, t_2, t_3⟩

/-- `glm_ivec4_mul`: include/cglm/ivec4.h:186-193. -/
@[cglmi]
def glm_ivec4_mul (a : V4 Int32) (b : V4 Int32) : Option (V4 Int32) := do
  let t ← I32.mul a.x b.x
  let t_1 ← I32.mul a.y b.y
  let t_2 ← I32.mul a.z b.z
  let t_3 ← I32.mul a.w b.w
  pure ⟨t, t_1, t_2, t_3⟩

/-- `glm_ivec4_scale`: include/cglm/ivec4.h:202-209. -/
@[cglmi]
def glm_ivec4_scale (v : V4 Int32) (s : Int32) : Option (V4 Int32) := do
  let t ← I32.mul v.x s
  let t_1 ← I32.mul v.y s
  let t_2 ← I32.mul v.z s
  let t_3 ← I32.mul v.w s
  pure ⟨t, t_1, t_2, t_3⟩

/-- `glm_ivec4_addadd`: include/cglm/ivec4.h:220-227. -/
@[cglmi]
def glm_ivec4_addadd (a : V4 Int32) (b : V4 Int32) (dest : V4 Int32) : Option (V4 Int32) := do
  let t ← I32.add a.x b.x
  let t_1 ← I32.add dest.x t
  let t_2 ← I32.add a.y b.y
  let t_3 ← I32.add dest.y t_2
  let t_4 ← I32.add a.z b.z
  let t_5 ← I32.add dest.z t_4
  let t_6 ← I32.add a.w b.w
  let t_7 ← I32.add dest.w t_6
  pure ⟨t_1, t_3, t_5, t_7⟩

/-- `glm_ivec4_addadds`: include/cglm/ivec4.h:238-245. -/
@[cglmi]
def glm_ivec4_addadds (a : V4 Int32) (s : Int32) (dest : V4 Int32) : Option (V4 Int32) := do
  let t ← I32.add a.x s
  let t_1 ← I32.add dest.x t
  let t_2 ← I32.add a.y s
  let t_3 ← I32.add dest.y t_2
  let t_4 ← I32.add a.z s
  let t_5 ← I32.add dest.z t_4
  let t_6 ← I32.add a.w s
  let t_7 ← I32.add dest.w t_6
  pure ⟨t_1, t_3, t_5, t_7⟩

/-- `glm_ivec4_subadd`: include/cglm/ivec4.h:256-263. -/
@[cglmi]
def glm_ivec4_subadd (a : V4 Int32) (b : V4 Int32) (dest : V4 Int32) : Option (V4 Int32) := do
  let t ← I32.sub a.x b.x
  let t_1 ← I32.add dest.x t
  let t_2 ← I32.sub a.y b.y
  let t_3 ← I32.add dest.y t_2
  let t_4 ← I32.sub a.z b.z
  let t_5 ← I32.add dest.z t_4
  let t_6 ← I32.sub a.w b.w
  let t_7 ← I32.add dest.w t_6
  pure ⟨t_1, t_3, t_5, t_7⟩

/-- `glm_ivec4_subadds`: include/cglm/ivec4.h:274-281. -/
@[cglmi]
def glm_ivec4_subadds (a : V4 Int32) (s : Int32) (dest : V4 Int32) : Option (V4 Int32) := do
  let t ← I32.sub a.x s
  let t_1 ← I32.add dest.x t
  let t_2 ← I32.sub a.y s
  let t_3 ← I32.add dest.y t_2
  let t_4 ← I32.sub a.z s
  let t_5 ← I32.add dest.z t_4
  let t_6 ← I32.sub a.w s
  let t_7 ← I32.add dest.w t_6
  pure ⟨t_1, t_3, t_5, t_7⟩

/-- `glm_ivec4_muladd`: include/cglm/ivec4.h:292-299. -/
@[cglmi]
def glm_ivec4_muladd (a : V4 Int32) (b : V4 Int32) (dest : V4 Int32) : Option (V4 Int32) := do
  let t ← I32.mul a.x b.x
  let t_1 ← I32.add dest.x t
  let t_2 ← I32.mul a.y b.y
  let t_3 ← I32.add dest.y t_2
  let t_4 ← I32.mul a.z b.z
  let t_5 ← I32.add dest.z t_4
  let t_6 ← I32.mul a.w b.w
  let t_7 ← I32.add dest.w t_6
  pure ⟨t_1, t_3, t_5, t_7⟩

/-- `glm_ivec4_muladds`: include/cglm/ivec4.h:310-317. -/
@[cglmi]
def glm_ivec4_muladds (a : V4 Int32) (s : Int32) (dest : V4 Int32) : Option (V4 Int32) := do
  let t ← I32.mul a.x s
  let t_1 ← I32.add dest.x t
  let t_2 ← I32.mul a.y s
  let t_3 ← I32.add dest.y t_2
  let t_4 ← I32.mul a.z s
  let t_5 ← I32.add dest.z t_4
  let t_6 ← I32.mul a.w s
  let t_7 ← I32.add dest.w t_6
  pure ⟨t_1, t_3, t_5, t_7⟩

/-- `glm_ivec4_maxadd`: include/cglm/ivec4.h:328-335. -/
@[cglmi]
def glm_ivec4_maxadd (a : V4 Int32) (b : V4 Int32) (dest : V4 Int32) : Option (V4 Int32) := do
  let t ← glm_imax a.x b.x
  let t_1 ← I32.add dest.x t
  let t_2 ← glm_imax a.y b.y
  let t_3 ← I32.add dest.y t_2
  let t_4 ← glm_imax a.z b.z
  let t_5 ← I32.add dest.z t_4
  let t_6 ← glm_imax a.w b.w
  let t_7 ← I32.add dest.w t_6
  pure ⟨t_1, t_3, t_5, t_7⟩

/-- `glm_ivec4_minadd`: include/cglm/ivec4.h:346-353. -/
@[cglmi]
def glm_ivec4_minadd (a : V4 Int32) (b : V4 Int32) (dest : V4 Int32) : Option (V4 Int32) := do
  let t ← glm_imin a.x b.x
  let t_1 ← I32.add dest.x t
  let t_2 ← glm_imin a.y b.y
  let t_3 ← I32.add dest.y t_2
  let t_4 ← glm_imin a.z b.z
  let t_5 ← I32.add dest.z t_4
  let t_6 ← glm_imin a.w b.w
  let t_7 ← I32.add dest.w t_6
  pure ⟨t_1, t_3, t_5, t_7⟩

/-- `glm_ivec4_subsub`: include/cglm/ivec4.h:364-371. -/
@[cglmi]
def glm_ivec4_subsub (a : V4 Int32) (b : V4 Int32) (dest : V4 Int32) : Option (V4 Int32) := do
  let t ← I32.sub a.x b.x
  let t_1 ← I32.sub dest.x t
  let t_2 ← I32.sub a.y b.y
  let t_3 ← I32.sub dest.y t_2
  let t_4 ← I32.sub a.z b.z
  let t_5 ← I32.sub dest.z t_4
  let t_6 ← I32.sub a.w b.w
  let t_7 ← I32.sub dest.w t_6
  pure ⟨t_1, t_3, t_5, t_7⟩

/-- `glm_ivec4_subsubs`: include/cglm/ivec4.h:382-389. -/
@[cglmi]
def glm_ivec4_subsubs (a : V4 Int32) (s : Int32) (dest : V4 Int32) : Option (V4 Int32) := do
  let t ← I32.sub a.x s
  let t_1 ← I32.sub dest.x t
  let t_2 ← I32.sub a.y s
  let t_3 ← I32.sub dest.y t_2
  let t_4 ← I32.sub a.z s
  let t_5 ← I32.sub dest.z t_4
  let t_6 ← I32.sub a.w s
  let t_7 ← I32.sub dest.w t_6
  pure ⟨t_1, t_3, t_5, t_7⟩

/-- `glm_ivec4_addsub`: include/cglm/ivec4.h:400-407. -/
@[cglmi]
def glm_ivec4_addsub (a : V4 Int32) (b : V4 Int32) (dest : V4 Int32) : Option (V4 Int32) := do
  let t ← I32.add a.x b.x
  let t_1 ← I32.sub dest.x t
  let t_2 ← I32.add a.y b.y
  let t_3 ← I32.sub dest.y t_2
  let t_4 ← I32.add a.z b.z
  let t_5 ← I32.sub dest.z t_4
  let t_6 ← I32.add a.w b.w
  let t_7 ← I32.sub dest.w t_6
  pure ⟨t_1, t_3, t_5, t_7⟩

/-- `glm_ivec4_addsubs`: include/cglm/ivec4.h:418-425. -/
@[cglmi]
def glm_ivec4_addsubs (a : V4 Int32) (s : Int32) (dest : V4 Int32) : Option (V4 Int32) := do
  let t ← I32.add a.x s
  let t_1 ← I32.sub dest.x t
  let t_2 ← I32.add a.y s
  let t_3 ← I32.sub dest.y t_2
  let t_4 ← I32.add a.z s
  let t_5 ← I32.sub dest.z t_4
  let t_6 ← I32.add a.w s
  let t_7 ← I32.sub dest.w t_6
  pure ⟨t_1, t_3, t_5, t_7⟩

/-- `glm_ivec4_mulsub`: include/cglm/ivec4.h:436-443. -/
@[cglmi]
def glm_ivec4_mulsub (a : V4 Int32) (b : V4 Int32) (dest : V4 Int32) : Option (V4 Int32) := do
  let t ← I32.mul a.x b.x
  let t_1 ← I32.sub dest.x t
  let t_2 ← I32.mul a.y b.y
  let t_3 ← I32.sub dest.y t_2
  let t_4 ← I32.mul a.z b.z
  let t_5 ← I32.sub dest.z t_4
  let t_6 ← I32.mul a.w b.w
  let t_7 ← I32.sub dest.w t_6
  pure ⟨t_1, t_3, t_5, t_7⟩

/-- `glm_ivec4_mulsubs`: include/cglm/ivec4.h:454-461. -/
@[cglmi]
def glm_ivec4_mulsubs (a : V4 Int32) (s : Int32) (dest : V4 Int32) : Option (V4 Int32) := do
  let t ← I32.mul a.x s
  let t_1 ← I32.sub dest.x t
  let t_2 ← I32.mul a.y s
  let t_3 ← I32.sub dest.y t_2
  let t_4 ← I32.mul a.z s
  let t_5 ← I32.sub dest.z t_4
  let t_6 ← I32.mul a.w s
  let t_7 ← I32.sub dest.w t_6
  pure ⟨t_1, t_3, t_5, t_7⟩

/-- `glm_ivec4_maxsub`: include/cglm/ivec4.h:472-479. -/
@[cglmi]
def glm_ivec4_maxsub (a : V4 Int32) (b : V4 Int32) (dest : V4 Int32) : Option (V4 Int32) := do
  let t ← glm_imax a.x b.x
  let t_1 ← I32.sub dest.x t
  let t_2 ← glm_imax a.y b.y
  let t_3 ← I32.sub dest.y t_2
  let t_4 ← glm_imax a.z b.z
  let t_5 ← I32.sub dest.z t_4
  let t_6 ← glm_imax a.w b.w
  let t_7 ← I32.sub dest.w t_6
  pure ⟨t_1, t_3, t_5, t_7⟩

/-- `glm_ivec4_minsub`: include/cglm/ivec4.h:490-497. -/
@[cglmi]
def glm_ivec4_minsub (a : V4 Int32) (b : V4 Int32) (dest : V4 Int32) : Option (V4 Int32) := do
  let t ← glm_imin a.x b.x
  let t_1 ← I32.sub dest.x t
  let t_2 ← glm_imin a.y b.y
  let t_3 ← I32.sub dest.y t_2
  let t_4 ← glm_imin a.z b.z
  let t_5 ← I32.sub dest.z t_4
  let t_6 ← glm_imin a.w b.w
  let t_7 ← I32.sub dest.w t_6
  pure ⟨t_1, t_3, t_5, t_7⟩

/-- `glm_ivec4_distance2`: include/cglm/ivec4.h:506-515. -/
@[cglmi]
def glm_ivec4_distance2 (a : V4 Int32) (b : V4 Int32) : Option (Int32) := do
  let t ← I32.sub a.x b.x
  let xd := t
  let t_1 ← I32.sub a.y b.y
  let yd := t_1
  let t_2 ← I32.sub a.z b.z
  let zd := t_2
  let t_3 ← I32.sub a.w b.w
  let wd := t_3
  let t_4 ← I32.mul xd xd
  let t_5 ← I32.mul yd yd
  let t_6 ← I32.add t_4 t_5
  let t_7 ← I32.mul zd zd
  let t_8 ← I32.add t_6 t_7
  let t_9 ← I32.mul wd wd
  let t_10 ← I32.add t_8 t_9
  pure t_10

/-- `glm_ivec4_distance`: include/cglm/ivec4.h:524-528. -/
@[cglmi]
def glm_ivec4_distance (a : V4 Int32) (b : V4 Int32) : Option (α) := do
  let t ← glm_ivec4_distance2 a b
  pure (sqrtf (ofI32 (α := α) t))

/-- `glm_ivec4_maxv`: include/cglm/ivec4.h:537-544. -/
@[cglmi]
def glm_ivec4_maxv (a : V4 Int32) (b : V4 Int32) : Option (V4 Int32) := do
  pure ⟨if I32.gt a.x b.x then a.x else b.x, if I32.gt a.y b.y then a.y else b.y, if I32.gt a.z b.z then a.z else b.z, if I32.gt a.w b.w then a.w else b.w⟩

/-- `glm_ivec4_minv`: include/cglm/ivec4.h:553-560. -/
@[cglmi]
def glm_ivec4_minv (a : V4 Int32) (b : V4 Int32) : Option (V4 Int32) := do
  pure ⟨if I32.lt a.x b.x then a.x else b.x, if I32.lt a.y b.y then a.y else b.y, if I32.lt a.z b.z then a.z else b.z, if I32.lt a.w b.w then a.w else b.w⟩

/-- `glm_ivec4_clamp`: include/cglm/ivec4.h:569-591. -/
@[cglmi]
def glm_ivec4_clamp (v : V4 Int32) (minVal : Int32) (maxVal : Int32) : Option (V4 Int32) := do
  if I32.lt v.x minVal then
    if I32.lt v.y minVal then
      if I32.lt v.z minVal then
        if I32.lt v.w minVal then
          pure ⟨minVal, minVal, minVal, minVal⟩
        else
          if I32.gt v.w maxVal then
            pure ⟨minVal, minVal, minVal, maxVal⟩
          else
            pure ⟨minVal, minVal, minVal, v.w⟩
      else
        if I32.gt v.z maxVal then
          if I32.lt v.w minVal then
            pure ⟨minVal, minVal, maxVal, minVal⟩
          else
            if I32.gt v.w maxVal then
              pure ⟨minVal, minVal, maxVal, maxVal⟩
            else
              pure ⟨minVal, minVal, maxVal, v.w⟩
        else
          if I32.lt v.w minVal then
            pure ⟨minVal, minVal, v.z, minVal⟩
          else
            if I32.gt v.w maxVal then
              pure ⟨minVal, minVal, v.z, maxVal⟩
            else
              pure ⟨minVal, minVal, v.z, v.w⟩
    else
      if I32.gt v.y maxVal then
        if I32.lt v.z minVal then
          if I32.lt v.w minVal then
            pure ⟨minVal, maxVal, minVal, minVal⟩
          else
            if I32.gt v.w maxVal then
              pure ⟨minVal, maxVal, minVal, maxVal⟩
            else
              pure ⟨minVal, maxVal, minVal, v.w⟩
        else
          if I32.gt v.z maxVal then
            if I32.lt v.w minVal then
              pure ⟨minVal, maxVal, maxVal, minVal⟩
            else
              if I32.gt v.w maxVal then
                pure ⟨minVal, maxVal, maxVal, maxVal⟩
              else
                pure ⟨minVal, maxVal, maxVal, v.w⟩
          else
            if I32.lt v.w minVal then
              pure ⟨minVal, maxVal, v.z, minVal⟩
            else
              if I32.gt v.w maxVal then
                pure ⟨minVal, maxVal, v.z, maxVal⟩
              else
                pure ⟨minVal, maxVal, v.z, v.w⟩
      else
        if I32.lt v.z minVal then
          if I32.lt v.w minVal then
            pure ⟨minVal, v.y, minVal, minVal⟩
          else
            if I32.gt v.w maxVal then
              pure ⟨minVal, v.y, minVal, maxVal⟩
            else
              pure ⟨minVal, v.y, minVal, v.w⟩
        else
          if I32.gt v.z maxVal then
            if I32.lt v.w minVal then
              pure ⟨minVal, v.y, maxVal, minVal⟩
            else
              if I32.gt v.w maxVal then
                pure ⟨minVal, v.y, maxVal, maxVal⟩
              else
                pure ⟨minVal, v.y, maxVal, v.w⟩
          else
            if I32.lt v.w minVal then
              pure ⟨minVal, v.y, v.z, minVal⟩
            else
              if I32.gt v.w maxVal then
                pure ⟨minVal, v.y, v.z, maxVal⟩
              else
                pure ⟨minVal, v.y, v.z, v.w⟩
  else
    if I32.gt v.x maxVal then
      if I32.lt v.y minVal then
        if I32.lt v.z minVal then
          if I32.lt v.w minVal then
            pure ⟨maxVal, minVal, minVal, minVal⟩
          else
            if I32.gt v.w maxVal then
              pure ⟨maxVal, minVal, minVal, maxVal⟩
            else
              pure ⟨maxVal, minVal, minVal, v.w⟩
        else
          if I32.gt v.z maxVal then
            if I32.lt v.w minVal then
              pure ⟨maxVal, minVal, maxVal, minVal⟩
            else
              if I32.gt v.w maxVal then
                pure ⟨maxVal, minVal, maxVal, maxVal⟩
              else
                pure ⟨maxVal, minVal, maxVal, v.w⟩
          else
            if I32.lt v.w minVal then
              pure ⟨maxVal, minVal, v.z, minVal⟩
            else
              if I32.gt v.w maxVal then
                pure ⟨maxVal, minVal, v.z, maxVal⟩
              else
                pure ⟨maxVal, minVal, v.z, v.w⟩
      else
        if I32.gt v.y maxVal then
          if I32.lt v.z minVal then
            if I32.lt v.w minVal then
              pure ⟨maxVal, maxVal, minVal, minVal⟩
            else
              if I32.gt v.w maxVal then
                pure ⟨maxVal, maxVal, minVal, maxVal⟩
              else
                pure ⟨maxVal, maxVal, minVal, v.w⟩
          else
            if I32.gt v.z maxVal then
              if I32.lt v.w minVal then
                pure ⟨maxVal, maxVal, maxVal, minVal⟩
              else
                if I32.gt v.w maxVal then
                  pure ⟨maxVal, maxVal, maxVal, maxVal⟩
                else
                  pure ⟨maxVal, maxVal, maxVal, v.w⟩
            else
              if I32.lt v.w minVal then
                pure ⟨maxVal, maxVal, v.z, minVal⟩
              else
                if I32.gt v.w maxVal then
                  pure ⟨maxVal, maxVal, v.z, maxVal⟩
                else
                  pure ⟨maxVal, maxVal, v.z, v.w⟩
        else
          if I32.lt v.z minVal then
            if I32.lt v.w minVal then
              pure ⟨maxVal, v.y, minVal, minVal⟩
            else
              if I32.gt v.w maxVal then
                pure ⟨maxVal, v.y, minVal, maxVal⟩
              else
                pure ⟨maxVal, v.y, minVal, v.w⟩
          else
            if I32.gt v.z maxVal then
              if I32.lt v.w minVal then
                pure ⟨maxVal, v.y, maxVal, minVal⟩
              else
                if I32.gt v.w maxVal then
                  pure ⟨maxVal, v.y, maxVal, maxVal⟩
                else
                  pure ⟨maxVal, v.y, maxVal, v.w⟩
            else
              if I32.lt v.w minVal then
                pure ⟨maxVal, v.y, v.z, minVal⟩
              else
                if I32.gt v.w maxVal then
                  pure ⟨maxVal, v.y, v.z, maxVal⟩
                else
                  pure ⟨maxVal, v.y, v.z, v.w⟩
    else
      if I32.lt v.y minVal then
        if I32.lt v.z minVal then
          if I32.lt v.w minVal then
            pure ⟨v.x, minVal, minVal, minVal⟩
          else
            if I32.gt v.w maxVal then
              pure ⟨v.x, minVal, minVal, maxVal⟩
            else
              pure ⟨v.x, minVal, minVal, v.w⟩
        else
          if I32.gt v.z maxVal then
            if I32.lt v.w minVal then
              pure ⟨v.x, minVal, maxVal, minVal⟩
            else
              if I32.gt v.w maxVal then
                pure ⟨v.x, minVal, maxVal, maxVal⟩
              else
                pure ⟨v.x, minVal, maxVal, v.w⟩
          else
            if I32.lt v.w minVal then
              pure ⟨v.x, minVal, v.z, minVal⟩
            else
              if I32.gt v.w maxVal then
                pure ⟨v.x, minVal, v.z, maxVal⟩
              else
                pure ⟨v.x, minVal, v.z, v.w⟩
      else
        if I32.gt v.y maxVal then
          if I32.lt v.z minVal then
            if I32.lt v.w minVal then
              pure ⟨v.x, maxVal, minVal, minVal⟩
            else
              if I32.gt v.w maxVal then
                pure ⟨v.x, maxVal, minVal, maxVal⟩
              else
                pure ⟨v.x, maxVal, minVal, v.w⟩
          else
            if I32.gt v.z maxVal then
              if I32.lt v.w minVal then
                pure ⟨v.x, maxVal, maxVal, minVal⟩
              else
                if I32.gt v.w maxVal then
                  pure ⟨v.x, maxVal, maxVal, maxVal⟩
                else
                  pure ⟨v.x, maxVal, maxVal, v.w⟩
            else
              if I32.lt v.w minVal then
                pure ⟨v.x, maxVal, v.z, minVal⟩
              else
                if I32.gt v.w maxVal then
                  pure ⟨v.x, maxVal, v.z, maxVal⟩
                else
                  pure ⟨v.x, maxVal, v.z, v.w⟩
        else
          if I32.lt v.z minVal then
            if I32.lt v.w minVal then
              pure ⟨v.x, v.y, minVal, minVal⟩
            else
              if I32.gt v.w maxVal then
                pure ⟨v.x, v.y, minVal, maxVal⟩
              else
                pure ⟨v.x, v.y, minVal, v.w⟩
          else
            if I32.gt v.z maxVal then
              if I32.lt v.w minVal then
                pure ⟨v.x, v.y, maxVal, minVal⟩
              else
                if I32.gt v.w maxVal then
                  pure ⟨v.x, v.y, maxVal, maxVal⟩
                else
                  pure ⟨v.x, v.y, maxVal, v.w⟩
            else
              if I32.lt v.w minVal then
                pure ⟨v.x, v.y, v.z, minVal⟩
              else
                if I32.gt v.w maxVal then
                  pure ⟨v.x, v.y, v.z, maxVal⟩
                else
                  pure v

/-- `glm_ivec4_abs`: include/cglm/ivec4.h:599-606. -/
@[cglmi]
def glm_ivec4_abs (v : V4 Int32) : Option (V4 Int32) := do
  let t ← I32.abs v.x
  let t_1 ← I32.abs v.y
  let t_2 ← I32.abs v.z
  let t_3 ← I32.abs v.w
  pure ⟨t, t_1, t_2, t_3⟩

end Cglm.I
