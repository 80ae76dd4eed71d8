/- Generated from include/cglm/vec2.h by tools/gen.py (value semantics); do not edit by hand. -/
import Verif.Base
import Verif.Attr
import Verif.Gen.Util
import Verif.Gen.Vec2Ext

set_option linter.unusedVariables false
set_option linter.unusedSectionVars false

namespace Cglm

variable {α : Type} [Add α] [Sub α] [Mul α] [Div α] [Neg α] [CFloat α]

/-- `glm_vec2`: include/cglm/vec2.h:83-88. -/
@[cglm]
def glm_vec2 (v : V2 α) : V2 α :=
  v

/-- `glm_vec2_copy`: include/cglm/vec2.h:96-101. -/
@[cglm]
def glm_vec2_copy (a : V2 α) : V2 α :=
  a

/-- `glm_vec2_zero`: include/cglm/vec2.h:108-112. -/
@[cglm]
def glm_vec2_zero : V2 α :=
  ⟨lit 0, lit 0⟩

/-- `glm_vec2_one`: include/cglm/vec2.h:119-123. -/
@[cglm]
def glm_vec2_one : V2 α :=
  ⟨lit 1, lit 1⟩

/-- `glm_vec2_dot`: include/cglm/vec2.h:133-137. -/
@[cglm]
def glm_vec2_dot (a : V2 α) (b : V2 α) : α :=
  a.x * b.x + a.y * b.y

/-- `glm_vec2_cross`: include/cglm/vec2.h:149-154. -/
@[cglm]
def glm_vec2_cross (a : V2 α) (b : V2 α) : α :=
  a.x * b.y - a.y * b.x

/-- `glm_vec2_norm2`: include/cglm/vec2.h:167-171. -/
@[cglm]
def glm_vec2_norm2 (v : V2 α) : α :=
  glm_vec2_dot v v

/-- `glm_vec2_norm`: include/cglm/vec2.h:180-184. -/
@[cglm]
def glm_vec2_norm (vec : V2 α) : α :=
  sqrtf (glm_vec2_norm2 vec)

/-- `glm_vec2_add`: include/cglm/vec2.h:193-198. -/
@[cglm]
def glm_vec2_add (a : V2 α) (b : V2 α) : V2 α :=
  ⟨a.x + b.x, a.y + b.y⟩

/-- `glm_vec2_adds`: include/cglm/vec2.h:207-212. -/
@[cglm]
def glm_vec2_adds (v : V2 α) (s : α) : V2 α :=
  ⟨v.x + s, v.y + s⟩

/-- `glm_vec2_sub`: include/cglm/vec2.h:221-226. -/
@[cglm]
def glm_vec2_sub (a : V2 α) (b : V2 α) : V2 α :=
  ⟨a.x - b.x, a.y - b.y⟩

/-- `glm_vec2_subs`: include/cglm/vec2.h:235-240. -/
@[cglm]
def glm_vec2_subs (v : V2 α) (s : α) : V2 α :=
  ⟨v.x - s, v.y - s⟩

/-- `glm_vec2_mul`: include/cglm/vec2.h:249-254. -/
@[cglm]
def glm_vec2_mul (a : V2 α) (b : V2 α) : V2 α :=
  ⟨a.x * b.x, a.y * b.y⟩

/-- `glm_vec2_scale`: include/cglm/vec2.h:263-268. -/
@[cglm]
def glm_vec2_scale (v : V2 α) (s : α) : V2 α :=
  ⟨v.x * s, v.y * s⟩

/-- `glm_vec2_scale_as`: include/cglm/vec2.h:277-289. -/
@[cglm]
def glm_vec2_scale_as (v : V2 α) (s : α) : V2 α :=
  let norm := glm_vec2_norm v
  if flt norm (lit 0.00000011920928955078125) then
    glm_vec2_zero
  else
    glm_vec2_scale v (s / norm)

/-- `glm_vec2_div`: include/cglm/vec2.h:298-303. -/
@[cglm]
def glm_vec2_div (a : V2 α) (b : V2 α) : V2 α :=
  ⟨a.x / b.x, a.y / b.y⟩

/-- `glm_vec2_divs`: include/cglm/vec2.h:312-317. -/
@[cglm]
def glm_vec2_divs (v : V2 α) (s : α) : V2 α :=
  ⟨v.x / s, v.y / s⟩

/-- `glm_vec2_addadd`: include/cglm/vec2.h:328-333. -/
@[cglm]
def glm_vec2_addadd (a : V2 α) (b : V2 α) (dest : V2 α) : V2 α :=
  ⟨dest.x + (a.x + b.x), dest.y + (a.y + b.y)⟩

/-- `glm_vec2_subadd`: include/cglm/vec2.h:344-349. -/
@[cglm]
def glm_vec2_subadd (a : V2 α) (b : V2 α) (dest : V2 α) : V2 α :=
  ⟨dest.x + (a.x - b.x), dest.y + (a.y - b.y)⟩

/-- `glm_vec2_muladd`: include/cglm/vec2.h:360-365. -/
@[cglm]
def glm_vec2_muladd (a : V2 α) (b : V2 α) (dest : V2 α) : V2 α :=
  ⟨dest.x + a.x * b.x, dest.y + a.y * b.y⟩

/-- `glm_vec2_muladds`: include/cglm/vec2.h:376-381. -/
@[cglm]
def glm_vec2_muladds (a : V2 α) (s : α) (dest : V2 α) : V2 α :=
  ⟨dest.x + a.x * s, dest.y + a.y * s⟩

/-- `glm_vec2_maxadd`: include/cglm/vec2.h:392-397. -/
@[cglm]
def glm_vec2_maxadd (a : V2 α) (b : V2 α) (dest : V2 α) : V2 α :=
  ⟨dest.x + glm_max a.x b.x, dest.y + glm_max a.y b.y⟩

/-- `glm_vec2_minadd`: include/cglm/vec2.h:408-413. -/
@[cglm]
def glm_vec2_minadd (a : V2 α) (b : V2 α) (dest : V2 α) : V2 α :=
  ⟨dest.x + glm_min a.x b.x, dest.y + glm_min a.y b.y⟩

/-- `glm_vec2_subsub`: include/cglm/vec2.h:424-429. -/
@[cglm]
def glm_vec2_subsub (a : V2 α) (b : V2 α) (dest : V2 α) : V2 α :=
  ⟨dest.x - (a.x - b.x), dest.y - (a.y - b.y)⟩

/-- `glm_vec2_addsub`: include/cglm/vec2.h:440-445. -/
@[cglm]
def glm_vec2_addsub (a : V2 α) (b : V2 α) (dest : V2 α) : V2 α :=
  ⟨dest.x - (a.x + b.x), dest.y - (a.y + b.y)⟩

/-- `glm_vec2_mulsub`: include/cglm/vec2.h:456-461. -/
@[cglm]
def glm_vec2_mulsub (a : V2 α) (b : V2 α) (dest : V2 α) : V2 α :=
  ⟨dest.x - a.x * b.x, dest.y - a.y * b.y⟩

/-- `glm_vec2_mulsubs`: include/cglm/vec2.h:472-477. -/
@[cglm]
def glm_vec2_mulsubs (a : V2 α) (s : α) (dest : V2 α) : V2 α :=
  ⟨dest.x - a.x * s, dest.y - a.y * s⟩

/-- `glm_vec2_maxsub`: include/cglm/vec2.h:488-493. -/
@[cglm]
def glm_vec2_maxsub (a : V2 α) (b : V2 α) (dest : V2 α) : V2 α :=
  ⟨dest.x - glm_max a.x b.x, dest.y - glm_max a.y b.y⟩

/-- `glm_vec2_minsub`: include/cglm/vec2.h:504-509. -/
@[cglm]
def glm_vec2_minsub (a : V2 α) (b : V2 α) (dest : V2 α) : V2 α :=
  ⟨dest.x - glm_min a.x b.x, dest.y - glm_min a.y b.y⟩

/-- `glm_vec2_negate_to`: include/cglm/vec2.h:517-522. -/
@[cglm]
def glm_vec2_negate_to (v : V2 α) : V2 α :=
  ⟨-v.x, -v.y⟩

/-- `glm_vec2_negate`: include/cglm/vec2.h:529-533. -/
@[cglm]
def glm_vec2_negate (v : V2 α) : V2 α :=
  glm_vec2_negate_to v

/-- `glm_vec2_normalize`: include/cglm/vec2.h:540-553. -/
@[cglm]
def glm_vec2_normalize (v : V2 α) : V2 α :=
  let norm := glm_vec2_norm v
  if flt norm (lit 0.00000011920928955078125) then
    ⟨lit 0, lit 0⟩
  else
    glm_vec2_scale v ((lit 1) / norm)

/-- `glm_vec2_normalize_to`: include/cglm/vec2.h:561-574. -/
@[cglm]
def glm_vec2_normalize_to (v : V2 α) : V2 α :=
  let norm := glm_vec2_norm v
  if flt norm (lit 0.00000011920928955078125) then
    glm_vec2_zero
  else
    glm_vec2_scale v ((lit 1) / norm)

/-- `glm_vec2_rotate`: include/cglm/vec2.h:587-600. -/
@[cglm]
def glm_vec2_rotate (v : V2 α) (angle : α) : V2 α :=
  let c := cosf angle
  let s := sinf angle
  let x1 := v.x
  let y1 := v.y
  ⟨c * x1 - s * y1, s * x1 + c * y1⟩

/-- `glm_vec2_center`: include/cglm/vec2.h:609-614. -/
@[cglm]
def glm_vec2_center (a : V2 α) (b : V2 α) : V2 α :=
  let dest_1 := glm_vec2_add a b
  glm_vec2_scale dest_1 (lit 0.5)

/-- `glm_vec2_distance2`: include/cglm/vec2.h:623-627. -/
@[cglm]
def glm_vec2_distance2 (a : V2 α) (b : V2 α) : α :=
  glm_pow2 (b.x - a.x) + glm_pow2 (b.y - a.y)

/-- `glm_vec2_distance`: include/cglm/vec2.h:636-640. -/
@[cglm]
def glm_vec2_distance (a : V2 α) (b : V2 α) : α :=
  sqrtf (glm_vec2_distance2 a b)

/-- `glm_vec2_maxv`: include/cglm/vec2.h:649-654. -/
@[cglm]
def glm_vec2_maxv (a : V2 α) (b : V2 α) : V2 α :=
  ⟨glm_max a.x b.x, glm_max a.y b.y⟩

/-- `glm_vec2_minv`: include/cglm/vec2.h:663-668. -/
@[cglm]
def glm_vec2_minv (a : V2 α) (b : V2 α) : V2 α :=
  ⟨glm_min a.x b.x, glm_min a.y b.y⟩

/-- `glm_vec2_clamp`: include/cglm/vec2.h:677-682. -/
@[cglm]
def glm_vec2_clamp (v : V2 α) (minval : α) (maxval : α) : V2 α :=
  ⟨glm_clamp v.x minval maxval, glm_clamp v.y minval maxval⟩

/-- `glm_vec2_lerp`: include/cglm/vec2.h:712-722. -/
@[cglm]
def glm_vec2_lerp (frm : V2 α) (to : V2 α) (t : α) : V2 α :=
  let s := glm_vec2_fill (glm_clamp_zo t)
  let v := glm_vec2_sub to frm
  let v_1 := glm_vec2_mul s v
  glm_vec2_add frm v_1

/-- `glm_vec2_step`: include/cglm/vec2.h:731-736. -/
@[cglm]
def glm_vec2_step (edge : V2 α) (x : V2 α) : V2 α :=
  ⟨glm_step edge.x x.x, glm_step edge.y x.y⟩

/-- `glm_vec2_make`: include/cglm/vec2.h:744-748. -/
@[cglm]
def glm_vec2_make (src : V2 α) : V2 α :=
  src

/-- `glm_vec2_reflect`: include/cglm/vec2.h:757-763. -/
@[cglm]
def glm_vec2_reflect (v : V2 α) (n : V2 α) : V2 α :=
  let temp := glm_vec2_scale n ((lit 2) * glm_vec2_dot v n)
  glm_vec2_sub v temp

/-- `glm_vec2_refract`: include/cglm/vec2.h:779-796. -/
@[cglm]
def glm_vec2_refract (v : V2 α) (n : V2 α) (eta : α) : Bool × V2 α :=
  let ndi := glm_vec2_dot n v
  let eni := eta * ndi
  let k := (lit 1) - eta * eta + eni * eni
  if flt k (lit 0) then
    (false, glm_vec2_zero)
  else
    let dest_1 := glm_vec2_scale v eta
    (true, glm_vec2_mulsubs n (eni + sqrtf k) dest_1)

end Cglm
