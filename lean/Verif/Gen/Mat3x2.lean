/- Generated from include/cglm/mat3x2.h by tools/gen.py (value semantics); do not edit by hand. -/
import Verif.Base
import Verif.Attr
import Verif.Gen.Vec2

set_option linter.unusedVariables false
set_option linter.unusedSectionVars false

namespace Cglm

variable {α : Type} [Add α] [Sub α] [Mul α] [Div α] [Neg α] [CFloat α]

/-- `glm_mat3x2_copy`: include/cglm/mat3x2.h:39-45. -/
@[cglm]
def glm_mat3x2_copy (src : M3x2 α) : M3x2 α :=
  let dest_0 := glm_vec2_copy src.c0
  let dest_2 := glm_vec2_copy src.c1
  ⟨dest_0, dest_2, glm_vec2_copy src.c2⟩

/-- `glm_mat3x2_zero`: include/cglm/mat3x2.h:52-57. -/
@[cglm]
def glm_mat3x2_zero : M3x2 α :=
  glm_mat3x2_copy ⟨⟨lit 0, lit 0⟩, ⟨lit 0, lit 0⟩, ⟨lit 0, lit 0⟩⟩

/-- `glm_mat3x2_make`: include/cglm/mat3x2.h:65-76. -/
@[cglm]
def glm_mat3x2_make (src : V6 α) : M3x2 α :=
  ⟨⟨src.e0, src.e1⟩, ⟨src.e2, src.e3⟩, ⟨src.e4, src.e5⟩⟩

/-- `glm_mat3x2_mul`: include/cglm/mat3x2.h:89-104. -/
@[cglm]
def glm_mat3x2_mul (m1 : M3x2 α) (m2 : M2x3 α) : M2 α :=
  let a00 := m1.c0.x
  let a01 := m1.c0.y
  let a10 := m1.c1.x
  let a11 := m1.c1.y
  let a20 := m1.c2.x
  let a21 := m1.c2.y
  let b00 := m2.c0.x
  let b01 := m2.c0.y
  let b02 := m2.c0.z
  let b10 := m2.c1.x
  let b11 := m2.c1.y
  let b12 := m2.c1.z
  ⟨⟨a00 * b00 + a10 * b01 + a20 * b02, a01 * b00 + a11 * b01 + a21 * b02⟩, ⟨a00 * b10 + a10 * b11 + a20 * b12, a01 * b10 + a11 * b11 + a21 * b12⟩⟩

/-- `glm_mat3x2_mulv`: include/cglm/mat3x2.h:113-120. -/
@[cglm]
def glm_mat3x2_mulv (m : M3x2 α) (v : V3 α) : V2 α :=
  let v0 := v.x
  let v1 := v.y
  let v2 := v.z
  ⟨m.c0.x * v0 + m.c1.x * v1 + m.c2.x * v2, m.c0.y * v0 + m.c1.y * v1 + m.c2.y * v2⟩

/-- `glm_mat3x2_transpose`: include/cglm/mat3x2.h:128-133. -/
@[cglm]
def glm_mat3x2_transpose (src : M3x2 α) : M2x3 α :=
  ⟨⟨src.c0.x, src.c1.x, src.c2.x⟩, ⟨src.c0.y, src.c1.y, src.c2.y⟩⟩

/-- `glm_mat3x2_scale`: include/cglm/mat3x2.h:141-146. -/
@[cglm]
def glm_mat3x2_scale (m : M3x2 α) (s : α) : M3x2 α :=
  ⟨⟨m.c0.x * s, m.c0.y * s⟩, ⟨m.c1.x * s, m.c1.y * s⟩, ⟨m.c2.x * s, m.c2.y * s⟩⟩

end Cglm
