/- Generated from include/cglm/affine-pre.h by tools/gen.py (value semantics); do not edit by hand. -/
import Verif.Base
import Verif.Attr
import Verif.Gen.Affine
import Verif.Gen.AffineMat
import Verif.Gen.Mat4
import Verif.Gen.Vec3
import Verif.Gen.Vec4

set_option linter.unusedVariables false
set_option linter.unusedSectionVars false

namespace Cglm

variable {α : Type} [Add α] [Sub α] [Mul α] [Div α] [Neg α] [CFloat α]

/-- `glm_translate`: include/cglm/affine-pre.h:41-61. -/
@[cglm]
def glm_translate (m : M4 α) (v : V3 α) : M4 α :=
  let m_12 := glm_vec4_muladds m.c0 v.x m.c3
  let m_12_1 := glm_vec4_muladds m.c1 v.y m_12
  ⟨m.c0, m.c1, m.c2, glm_vec4_muladds m.c2 v.z m_12_1⟩

/-- `glm_translate_to`: include/cglm/affine-pre.h:73-78. -/
@[cglm]
def glm_translate_to (m : M4 α) (v : V3 α) : M4 α :=
  let dest_1 := glm_mat4_copy m
  glm_translate dest_1 v

/-- `glm_translate_x`: include/cglm/affine-pre.h:86-96. -/
@[cglm]
def glm_translate_x (m : M4 α) (x : α) : M4 α :=
  let v1 := glm_vec4_scale m.c0 x
  ⟨m.c0, m.c1, m.c2, glm_vec4_add v1 m.c3⟩

/-- `glm_translate_y`: include/cglm/affine-pre.h:104-114. -/
@[cglm]
def glm_translate_y (m : M4 α) (y : α) : M4 α :=
  let v1 := glm_vec4_scale m.c1 y
  ⟨m.c0, m.c1, m.c2, glm_vec4_add v1 m.c3⟩

/-- `glm_translate_z`: include/cglm/affine-pre.h:122-132. -/
@[cglm]
def glm_translate_z (m : M4 α) (z : α) : M4 α :=
  let v1 := glm_vec4_scale m.c2 z
  ⟨m.c0, m.c1, m.c2, glm_vec4_add v1 m.c3⟩

/-- `glm_rotate_x`: include/cglm/affine-pre.h:142-157. -/
@[cglm]
def glm_rotate_x (m : M4 α) (angle : α) : M4 α :=
  let c := cosf angle
  let s := sinf angle
  glm_mul_rot m ⟨⟨lit 1, lit 0, lit 0, lit 0⟩, ⟨lit 0, c, s, lit 0⟩, ⟨lit 0, -s, c, lit 0⟩, ⟨lit 0, lit 0, lit 0, lit 1⟩⟩

/-- `glm_rotate_y`: include/cglm/affine-pre.h:167-182. -/
@[cglm]
def glm_rotate_y (m : M4 α) (angle : α) : M4 α :=
  let c := cosf angle
  let s := sinf angle
  glm_mul_rot m ⟨⟨c, lit 0, -s, lit 0⟩, ⟨lit 0, lit 1, lit 0, lit 0⟩, ⟨s, lit 0, c, lit 0⟩, ⟨lit 0, lit 0, lit 0, lit 1⟩⟩

/-- `glm_rotate_z`: include/cglm/affine-pre.h:192-207. -/
@[cglm]
def glm_rotate_z (m : M4 α) (angle : α) : M4 α :=
  let c := cosf angle
  let s := sinf angle
  glm_mul_rot m ⟨⟨c, s, lit 0, lit 0⟩, ⟨-s, c, lit 0, lit 0⟩, ⟨lit 0, lit 0, lit 1, lit 0⟩, ⟨lit 0, lit 0, lit 0, lit 1⟩⟩

/-- `glm_rotate`: include/cglm/affine-pre.h:234-240. -/
@[cglm]
def glm_rotate (m : M4 α) (angle : α) (axis : V3 α) : M4 α :=
  let rot := glm_rotate_make angle axis
  glm_mul_rot m rot

/-- `glm_rotate_at`: include/cglm/affine-pre.h:251-261. -/
@[cglm]
def glm_rotate_at (m : M4 α) (pivot : V3 α) (angle : α) (axis : V3 α) : M4 α :=
  let pivotInv := glm_vec3_negate_to pivot
  let m_1 := glm_translate m pivot
  let m_2 := glm_rotate m_1 angle axis
  glm_translate m_2 pivotInv

/-- `glm_rotate_atm`: include/cglm/affine-pre.h:276-286. -/
@[cglm]
def glm_rotate_atm (pivot : V3 α) (angle : α) (axis : V3 α) : M4 α :=
  let pivotInv := glm_vec3_negate_to pivot
  let m_1 := glm_translate_make pivot
  let m_2 := glm_rotate m_1 angle axis
  glm_translate m_2 pivotInv

/-- `glm_spin`: include/cglm/affine-pre.h:296-302. -/
@[cglm]
def glm_spin (m : M4 α) (angle : α) (axis : V3 α) : M4 α :=
  let rot := glm_rotate_atm ⟨m.c3.x, m.c3.y, m.c3.z⟩ angle axis
  glm_mat4_mul m rot

end Cglm
