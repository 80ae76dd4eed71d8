/- Generated from include/cglm/mat3x4.h by tools/gen.py (value semantics); do not edit by hand. -/
import Verif.Base
import Verif.Attr
import Verif.Gen.Vec4

set_option linter.unusedVariables false
set_option linter.unusedSectionVars false

namespace Cglm

variable {α : Type} [Add α] [Sub α] [Mul α] [Div α] [Neg α] [CFloat α]

/-- `glm_mat3x4_copy`: include/cglm/mat3x4.h:41-47. -/
@[cglm]
def glm_mat3x4_copy (src : M3x4 α) : M3x4 α :=
  let dest_0 := glm_vec4_ucopy src.c0
  let dest_4 := glm_vec4_ucopy src.c1
  ⟨dest_0, dest_4, glm_vec4_ucopy src.c2⟩

/-- `glm_mat3x4_zero`: include/cglm/mat3x4.h:54-59. -/
@[cglm]
def glm_mat3x4_zero : M3x4 α :=
  glm_mat3x4_copy ⟨⟨lit 0, lit 0, lit 0, lit 0⟩, ⟨lit 0, lit 0, lit 0, lit 0⟩, ⟨lit 0, lit 0, lit 0, lit 0⟩⟩

/-- `glm_mat3x4_make`: include/cglm/mat3x4.h:67-84. -/
@[cglm]
def glm_mat3x4_make (src : V12 α) : M3x4 α :=
  ⟨⟨src.e0, src.e1, src.e2, src.e3⟩, ⟨src.e4, src.e5, src.e6, src.e7⟩, ⟨src.e8, src.e9, src.e10, src.e11⟩⟩

/-- `glm_mat3x4_mul`: include/cglm/mat3x4.h:97-128. -/
@[cglm]
def glm_mat3x4_mul (m1 : M3x4 α) (m2 : M4x3 α) : M4 α :=
  let a00 := m1.c0.x
  let a01 := m1.c0.y
  let a02 := m1.c0.z
  let a03 := m1.c0.w
  let a10 := m1.c1.x
  let a11 := m1.c1.y
  let a12 := m1.c1.z
  let a13 := m1.c1.w
  let a20 := m1.c2.x
  let a21 := m1.c2.y
  let a22 := m1.c2.z
  let a23 := m1.c2.w
  let b00 := m2.c0.x
  let b01 := m2.c0.y
  let b02 := m2.c0.z
  let b10 := m2.c1.x
  let b11 := m2.c1.y
  let b12 := m2.c1.z
  let b20 := m2.c2.x
  let b21 := m2.c2.y
  let b22 := m2.c2.z
  let b30 := m2.c3.x
  let b31 := m2.c3.y
  let b32 := m2.c3.z
  ⟨⟨a00 * b00 + a10 * b01 + a20 * b02, a01 * b00 + a11 * b01 + a21 * b02, a02 * b00 + a12 * b01 + a22 * b02, a03 * b00 + a13 * b01 + a23 * b02⟩, ⟨a00 * b10 + a10 * b11 + a20 * b12, a01 * b10 + a11 * b11 + a21 * b12, a02 * b10 + a12 * b11 + a22 * b12, a03 * b10 + a13 * b11 + a23 * b12⟩, ⟨a00 * b20 + a10 * b21 + a20 * b22, a01 * b20 + a11 * b21 + a21 * b22, a02 * b20 + a12 * b21 + a22 * b22, a03 * b20 + a13 * b21 + a23 * b22⟩, ⟨a00 * b30 + a10 * b31 + a20 * b32, a01 * b30 + a11 * b31 + a21 * b32, a02 * b30 + a12 * b31 + a22 * b32, a03 * b30 + a13 * b31 + a23 * b32⟩⟩

/-- `glm_mat3x4_mulv`: include/cglm/mat3x4.h:137-146. -/
@[cglm]
def glm_mat3x4_mulv (m : M3x4 α) (v : V3 α) : V4 α :=
  let v0 := v.x
  let v1 := v.y
  let v2 := v.z
  ⟨m.c0.x * v0 + m.c1.x * v1 + m.c2.x * v2, m.c0.y * v0 + m.c1.y * v1 + m.c2.y * v2, m.c0.z * v0 + m.c1.z * v1 + m.c2.z * v2, m.c0.w * v0 + m.c1.w * v1 + m.c2.w * v2⟩

/-- `glm_mat3x4_transpose`: include/cglm/mat3x4.h:154-161. -/
@[cglm]
def glm_mat3x4_transpose (src : M3x4 α) : M4x3 α :=
  ⟨⟨src.c0.x, src.c1.x, src.c2.x⟩, ⟨src.c0.y, src.c1.y, src.c2.y⟩, ⟨src.c0.z, src.c1.z, src.c2.z⟩, ⟨src.c0.w, src.c1.w, src.c2.w⟩⟩

/-- `glm_mat3x4_scale`: include/cglm/mat3x4.h:169-175. -/
@[cglm]
def glm_mat3x4_scale (m : M3x4 α) (s : α) : M3x4 α :=
  ⟨⟨m.c0.x * s, m.c0.y * s, m.c0.z * s, m.c0.w * s⟩, ⟨m.c1.x * s, m.c1.y * s, m.c1.z * s, m.c1.w * s⟩, ⟨m.c2.x * s, m.c2.y * s, m.c2.z * s, m.c2.w * s⟩⟩

end Cglm
