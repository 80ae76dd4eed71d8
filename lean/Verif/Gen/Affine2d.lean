/- Generated from include/cglm/affine2d.h by tools/gen.py (value semantics); do not edit by hand. -/
import Verif.Base
import Verif.Attr
import Verif.Gen.Mat3

set_option linter.unusedVariables false
set_option linter.unusedSectionVars false

namespace Cglm

variable {α : Type} [Add α] [Sub α] [Mul α] [Div α] [Neg α] [CFloat α]

/-- `glm_translate2d`: include/cglm/affine2d.h:39-45. -/
@[cglm]
def glm_translate2d (m : M3 α) (v : V2 α) : M3 α :=
  ⟨m.c0, m.c1, ⟨m.c0.x * v.x + m.c1.x * v.y + m.c2.x, m.c0.y * v.x + m.c1.y * v.y + m.c2.y, m.c0.z * v.x + m.c1.z * v.y + m.c2.z⟩⟩

/-- `glm_translate2d_to`: include/cglm/affine2d.h:57-62. -/
@[cglm]
def glm_translate2d_to (m : M3 α) (v : V2 α) : M3 α :=
  let dest_1 := glm_mat3_copy m
  glm_translate2d dest_1 v

/-- `glm_translate2d_x`: include/cglm/affine2d.h:70-76. -/
@[cglm]
def glm_translate2d_x (m : M3 α) (x : α) : M3 α :=
  ⟨m.c0, m.c1, ⟨m.c0.x * x + m.c2.x, m.c0.y * x + m.c2.y, m.c0.z * x + m.c2.z⟩⟩

/-- `glm_translate2d_y`: include/cglm/affine2d.h:84-90. -/
@[cglm]
def glm_translate2d_y (m : M3 α) (y : α) : M3 α :=
  ⟨m.c0, m.c1, ⟨m.c1.x * y + m.c2.x, m.c1.y * y + m.c2.y, m.c1.z * y + m.c2.z⟩⟩

/-- `glm_translate2d_make`: include/cglm/affine2d.h:98-104. -/
@[cglm]
def glm_translate2d_make (v : V2 α) : M3 α :=
  let m_1 := glm_mat3_identity
  ⟨m_1.c0, m_1.c1, ⟨v.x, v.y, m_1.c2.z⟩⟩

/-- `glm_scale2d_to`: include/cglm/affine2d.h:114-128. -/
@[cglm]
def glm_scale2d_to (m : M3 α) (v : V2 α) : M3 α :=
  ⟨⟨m.c0.x * v.x, m.c0.y * v.x, m.c0.z * v.x⟩, ⟨m.c1.x * v.y, m.c1.y * v.y, m.c1.z * v.y⟩, m.c2⟩

/-- `glm_scale2d_make`: include/cglm/affine2d.h:136-142. -/
@[cglm]
def glm_scale2d_make (v : V2 α) : M3 α :=
  let m_1 := glm_mat3_identity
  ⟨⟨v.x, m_1.c0.y, m_1.c0.z⟩, ⟨m_1.c1.x, v.y, m_1.c1.z⟩, m_1.c2⟩

/-- `glm_scale2d`: include/cglm/affine2d.h:151-161. -/
@[cglm]
def glm_scale2d (m : M3 α) (v : V2 α) : M3 α :=
  ⟨⟨m.c0.x * v.x, m.c0.y * v.x, m.c0.z * v.x⟩, ⟨m.c1.x * v.y, m.c1.y * v.y, m.c1.z * v.y⟩, m.c2⟩

/-- `glm_scale2d_uni`: include/cglm/affine2d.h:170-180. -/
@[cglm]
def glm_scale2d_uni (m : M3 α) (s : α) : M3 α :=
  ⟨⟨m.c0.x * s, m.c0.y * s, m.c0.z * s⟩, ⟨m.c1.x * s, m.c1.y * s, m.c1.z * s⟩, m.c2⟩

/-- `glm_rotate2d_make`: include/cglm/affine2d.h:188-207. -/
@[cglm]
def glm_rotate2d_make (angle : α) : M3 α :=
  let s := sinf angle
  let c := cosf angle
  ⟨⟨c, s, lit 0⟩, ⟨-s, c, lit 0⟩, ⟨lit 0, lit 0, lit 1⟩⟩

/-- `glm_rotate2d`: include/cglm/affine2d.h:216-234. -/
@[cglm]
def glm_rotate2d (m : M3 α) (angle : α) : M3 α :=
  let m00 := m.c0.x
  let m10 := m.c1.x
  let m01 := m.c0.y
  let m11 := m.c1.y
  let m02 := m.c0.z
  let m12 := m.c1.z
  let s := sinf angle
  let c := cosf angle
  ⟨⟨m00 * c + m10 * s, m01 * c + m11 * s, m02 * c + m12 * s⟩, ⟨m00 * (-s) + m10 * c, m01 * (-s) + m11 * c, m02 * (-s) + m12 * c⟩, m.c2⟩

/-- `glm_rotate2d_to`: include/cglm/affine2d.h:244-266. -/
@[cglm]
def glm_rotate2d_to (m : M3 α) (angle : α) : M3 α :=
  let m00 := m.c0.x
  let m10 := m.c1.x
  let m01 := m.c0.y
  let m11 := m.c1.y
  let m02 := m.c0.z
  let m12 := m.c1.z
  let s := sinf angle
  let c := cosf angle
  ⟨⟨m00 * c + m10 * s, m01 * c + m11 * s, m02 * c + m12 * s⟩, ⟨m00 * (-s) + m10 * c, m01 * (-s) + m11 * c, m02 * (-s) + m12 * c⟩, m.c2⟩

end Cglm
