/- Generated from include/cglm/mat4x2.h by tools/gen.py (value semantics); do not edit by hand. -/
import Verif.Base
import Verif.Attr
import Verif.Gen.Vec2

set_option linter.unusedVariables false
set_option linter.unusedSectionVars false

namespace Cglm

variable {α : Type} [Add α] [Sub α] [Mul α] [Div α] [Neg α] [CFloat α]

/-- `glm_mat4x2_copy`: include/cglm/mat4x2.h:39-46. -/
@[cglm]
def glm_mat4x2_copy (src : M4x2 α) : M4x2 α :=
  let dest_0 := glm_vec2_copy src.c0
  let dest_2 := glm_vec2_copy src.c1
  let dest_4 := glm_vec2_copy src.c2
  ⟨dest_0, dest_2, dest_4, glm_vec2_copy src.c3⟩

/-- `glm_mat4x2_zero`: include/cglm/mat4x2.h:53-58. -/
@[cglm]
def glm_mat4x2_zero : M4x2 α :=
  glm_mat4x2_copy ⟨⟨lit 0, lit 0⟩, ⟨lit 0, lit 0⟩, ⟨lit 0, lit 0⟩, ⟨lit 0, lit 0⟩⟩

/-- `glm_mat4x2_make`: include/cglm/mat4x2.h:66-80. -/
@[cglm]
def glm_mat4x2_make (src : V8 α) : M4x2 α :=
  ⟨⟨src.e0, src.e1⟩, ⟨src.e2, src.e3⟩, ⟨src.e4, src.e5⟩, ⟨src.e6, src.e7⟩⟩

/-- `glm_mat4x2_mul`: include/cglm/mat4x2.h:93-109. -/
@[cglm]
def glm_mat4x2_mul (m1 : M4x2 α) (m2 : M2x4 α) : M2 α :=
  let a00 := m1.c0.x
  let a01 := m1.c0.y
  let a10 := m1.c1.x
  let a11 := m1.c1.y
  let a20 := m1.c2.x
  let a21 := m1.c2.y
  let a30 := m1.c3.x
  let a31 := m1.c3.y
  let b00 := m2.c0.x
  let b01 := m2.c0.y
  let b02 := m2.c0.z
  let b03 := m2.c0.w
  let b10 := m2.c1.x
  let b11 := m2.c1.y
  let b12 := m2.c1.z
  let b13 := m2.c1.w
  ⟨⟨a00 * b00 + a10 * b01 + a20 * b02 + a30 * b03, a01 * b00 + a11 * b01 + a21 * b02 + a31 * b03⟩, ⟨a00 * b10 + a10 * b11 + a20 * b12 + a30 * b13, a01 * b10 + a11 * b11 + a21 * b12 + a31 * b13⟩⟩

/-- `glm_mat4x2_mulv`: include/cglm/mat4x2.h:118-125. -/
@[cglm]
def glm_mat4x2_mulv (m : M4x2 α) (v : V4 α) : V2 α :=
  let v0 := v.x
  let v1 := v.y
  let v2 := v.z
  let v3 := v.w
  ⟨m.c0.x * v0 + m.c1.x * v1 + m.c2.x * v2 + m.c3.x * v3, m.c0.y * v0 + m.c1.y * v1 + m.c2.y * v2 + m.c3.y * v3⟩

/-- `glm_mat4x2_transpose`: include/cglm/mat4x2.h:133-138. -/
@[cglm]
def glm_mat4x2_transpose (m : M4x2 α) : M2x4 α :=
  ⟨⟨m.c0.x, m.c1.x, m.c2.x, m.c3.x⟩, ⟨m.c0.y, m.c1.y, m.c2.y, m.c3.y⟩⟩

/-- `glm_mat4x2_scale`: include/cglm/mat4x2.h:146-151. -/
@[cglm]
def glm_mat4x2_scale (m : M4x2 α) (s : α) : M4x2 α :=
  ⟨⟨m.c0.x * s, m.c0.y * s⟩, ⟨m.c1.x * s, m.c1.y * s⟩, ⟨m.c2.x * s, m.c2.y * s⟩, ⟨m.c3.x * s, m.c3.y * s⟩⟩

end Cglm
