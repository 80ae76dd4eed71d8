/- Generated from include/cglm/aabb2d.h by tools/gen.py (value semantics); do not edit by hand. -/
import Verif.Base
import Verif.Attr
import Verif.Gen.Util
import Verif.Gen.Vec2
import Verif.Gen.Vec2Ext

set_option linter.unusedVariables false
set_option linter.unusedSectionVars false

namespace Cglm

variable {α : Type} [Add α] [Sub α] [Mul α] [Div α] [Neg α] [CFloat α]

/-- `glm_aabb2d_zero`: include/cglm/aabb2d.h:23-28. -/
@[cglm]
def glm_aabb2d_zero : M2 α :=
  let aabb_0 := glm_vec2_zero
  ⟨aabb_0, glm_vec2_zero⟩

/-- `glm_aabb2d_copy`: include/cglm/aabb2d.h:36-41. -/
@[cglm]
def glm_aabb2d_copy (aabb : M2 α) : M2 α :=
  let dest_0 := glm_vec2_copy aabb.c0
  ⟨dest_0, glm_vec2_copy aabb.c1⟩

/-- `glm_aabb2d_transform`: include/cglm/aabb2d.h:50-73. -/
@[cglm]
def glm_aabb2d_transform (aabb : M2 α) (m : M3 α) : M2 α :=
  let xa := glm_vec2_scale ⟨m.c0.x, m.c0.y⟩ aabb.c0.x
  let xb := glm_vec2_scale ⟨m.c0.x, m.c0.y⟩ aabb.c1.x
  let ya := glm_vec2_scale ⟨m.c1.x, m.c1.y⟩ aabb.c0.y
  let yb := glm_vec2_scale ⟨m.c1.x, m.c1.y⟩ aabb.c1.y
  let v_0 := glm_vec2 ⟨m.c2.x, m.c2.y⟩
  let v_0_1 := glm_vec2_minadd xa xb v_0
  let v_0_2 := glm_vec2_minadd ya yb v_0_1
  let v_2 := glm_vec2 ⟨m.c2.x, m.c2.y⟩
  let v_2_1 := glm_vec2_maxadd xa xb v_2
  let v_2_2 := glm_vec2_maxadd ya yb v_2_1
  let dest_0 := glm_vec2_copy v_0_2
  ⟨dest_0, glm_vec2_copy v_2_2⟩

/-- `glm_aabb2d_merge`: include/cglm/aabb2d.h:85-93. -/
@[cglm]
def glm_aabb2d_merge (aabb1 : M2 α) (aabb2 : M2 α) : M2 α :=
  ⟨⟨glm_min aabb1.c0.x aabb2.c0.x, glm_min aabb1.c0.y aabb2.c0.y⟩, ⟨glm_max aabb1.c1.x aabb2.c1.x, glm_max aabb1.c1.y aabb2.c1.y⟩⟩

/-- `glm_aabb2d_crop`: include/cglm/aabb2d.h:106-114. -/
@[cglm]
def glm_aabb2d_crop (aabb : M2 α) (cropAabb : M2 α) : M2 α :=
  ⟨⟨glm_max aabb.c0.x cropAabb.c0.x, glm_max aabb.c0.y cropAabb.c0.y⟩, ⟨glm_min aabb.c1.x cropAabb.c1.x, glm_min aabb.c1.y cropAabb.c1.y⟩⟩

/-- `glm_aabb2d_crop_until`: include/cglm/aabb2d.h:128-136. -/
@[cglm]
def glm_aabb2d_crop_until (aabb : M2 α) (cropAabb : M2 α) (clampAabb : M2 α) : M2 α :=
  let dest_1 := glm_aabb2d_crop aabb cropAabb
  glm_aabb2d_merge clampAabb dest_1

/-- `glm_aabb2d_invalidate`: include/cglm/aabb2d.h:143-148. -/
@[cglm]
def glm_aabb2d_invalidate : M2 α :=
  let aabb_0 := glm_vec2_fill (lit 340282346638528859811704183484516925440)
  ⟨aabb_0, glm_vec2_fill (-(lit 340282346638528859811704183484516925440))⟩

/-- `glm_aabb2d_isvalid`: include/cglm/aabb2d.h:155-160. -/
@[cglm]
def glm_aabb2d_isvalid (aabb : M2 α) : Bool :=
  !(feq (glm_vec2_max aabb.c0) (lit 340282346638528859811704183484516925440)) && !(feq (glm_vec2_min aabb.c1) (-(lit 340282346638528859811704183484516925440)))

/-- `glm_aabb2d_diag`: include/cglm/aabb2d.h:167-171. -/
@[cglm]
def glm_aabb2d_diag (aabb : M2 α) : α :=
  glm_vec2_distance aabb.c0 aabb.c1

/-- `glm_aabb2d_sizev`: include/cglm/aabb2d.h:179-183. -/
@[cglm]
def glm_aabb2d_sizev (aabb : M2 α) : V2 α :=
  glm_vec2_sub aabb.c1 aabb.c0

/-- `glm_aabb2d_radius`: include/cglm/aabb2d.h:190-194. -/
@[cglm]
def glm_aabb2d_radius (aabb : M2 α) : α :=
  glm_aabb2d_diag aabb * (lit 0.5)

/-- `glm_aabb2d_center`: include/cglm/aabb2d.h:202-206. -/
@[cglm]
def glm_aabb2d_center (aabb : M2 α) : V2 α :=
  glm_vec2_center aabb.c0 aabb.c1

/-- `glm_aabb2d_aabb`: include/cglm/aabb2d.h:214-219. -/
@[cglm]
def glm_aabb2d_aabb (aabb : M2 α) (other : M2 α) : Bool :=
  fle aabb.c0.x other.c1.x && fle other.c0.x aabb.c1.x && (fle aabb.c0.y other.c1.y && fle other.c0.y aabb.c1.y)

/-- `glm_aabb2d_circle`: include/cglm/aabb2d.h:229-242. -/
@[cglm]
def glm_aabb2d_circle (aabb : M2 α) (c : V3 α) : Bool :=
  let a := b2i (flt c.x aabb.c0.x) + b2i (flt aabb.c1.x c.x)
  let b := b2i (flt c.y aabb.c0.y) + b2i (flt aabb.c1.y c.y)
  fle (glm_pow2 ((c.x - (if !(ine (a - 1) 0) then aabb.c1.x else aabb.c0.x)) * ofInt (b2i (ine a 0))) + glm_pow2 ((c.y - (if !(ine (b - 1) 0) then aabb.c1.y else aabb.c0.y)) * ofInt (b2i (ine b 0)))) (glm_pow2 c.z)

/-- `glm_aabb2d_point`: include/cglm/aabb2d.h:250-255. -/
@[cglm]
def glm_aabb2d_point (aabb : M2 α) (point : V2 α) : Bool :=
  fle aabb.c0.x point.x && fle point.x aabb.c1.x && (fle aabb.c0.y point.y && fle point.y aabb.c1.y)

/-- `glm_aabb2d_contains`: include/cglm/aabb2d.h:263-268. -/
@[cglm]
def glm_aabb2d_contains (aabb : M2 α) (other : M2 α) : Bool :=
  fle aabb.c0.x other.c0.x && fle other.c1.x aabb.c1.x && (fle aabb.c0.y other.c0.y && fle other.c1.y aabb.c1.y)

end Cglm
