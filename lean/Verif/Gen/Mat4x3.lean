/- Generated from include/cglm/mat4x3.h by tools/gen.py (value semantics); do not edit by hand. -/
import Verif.Base
import Verif.Attr
import Verif.Gen.Vec3

set_option linter.unusedVariables false
set_option linter.unusedSectionVars false

namespace Cglm

variable {α : Type} [Add α] [Sub α] [Mul α] [Div α] [Neg α] [CFloat α]

/-- `glm_mat4x3_copy`: include/cglm/mat4x3.h:40-47. -/
@[cglm]
def glm_mat4x3_copy (src : M4x3 α) : M4x3 α :=
  let dest_0 := glm_vec3_copy src.c0
  let dest_3 := glm_vec3_copy src.c1
  let dest_6 := glm_vec3_copy src.c2
  ⟨dest_0, dest_3, dest_6, glm_vec3_copy src.c3⟩

/-- `glm_mat4x3_zero`: include/cglm/mat4x3.h:54-59. -/
@[cglm]
def glm_mat4x3_zero : M4x3 α :=
  glm_mat4x3_copy ⟨⟨lit 0, lit 0, lit 0⟩, ⟨lit 0, lit 0, lit 0⟩, ⟨lit 0, lit 0, lit 0⟩, ⟨lit 0, lit 0, lit 0⟩⟩

/-- `glm_mat4x3_make`: include/cglm/mat4x3.h:67-85. -/
@[cglm]
def glm_mat4x3_make (src : V12 α) : M4x3 α :=
  ⟨⟨src.e0, src.e1, src.e2⟩, ⟨src.e3, src.e4, src.e5⟩, ⟨src.e6, src.e7, src.e8⟩, ⟨src.e9, src.e10, src.e11⟩⟩

/-- `glm_mat4x3_mul`: include/cglm/mat4x3.h:98-121. -/
@[cglm]
def glm_mat4x3_mul (m1 : M4x3 α) (m2 : M3x4 α) : M3 α :=
  let a00 := m1.c0.x
  let a01 := m1.c0.y
  let a02 := m1.c0.z
  let a10 := m1.c1.x
  let a11 := m1.c1.y
  let a12 := m1.c1.z
  let a20 := m1.c2.x
  let a21 := m1.c2.y
  let a22 := m1.c2.z
  let a30 := m1.c3.x
  let a31 := m1.c3.y
  let a32 := m1.c3.z
  let b00 := m2.c0.x
  let b01 := m2.c0.y
  let b02 := m2.c0.z
  let b03 := m2.c0.w
  let b10 := m2.c1.x
  let b11 := m2.c1.y
  let b12 := m2.c1.z
  let b13 := m2.c1.w
  let b20 := m2.c2.x
  let b21 := m2.c2.y
  let b22 := m2.c2.z
  let b23 := m2.c2.w
  ⟨⟨a00 * b00 + a10 * b01 + a20 * b02 + a30 * b03, a01 * b00 + a11 * b01 + a21 * b02 + a31 * b03, a02 * b00 + a12 * b01 + a22 * b02 + a32 * b03⟩, ⟨a00 * b10 + a10 * b11 + a20 * b12 + a30 * b13, a01 * b10 + a11 * b11 + a21 * b12 + a31 * b13, a02 * b10 + a12 * b11 + a22 * b12 + a32 * b13⟩, ⟨a00 * b20 + a10 * b21 + a20 * b22 + a30 * b23, a01 * b20 + a11 * b21 + a21 * b22 + a31 * b23, a02 * b20 + a12 * b21 + a22 * b22 + a32 * b23⟩⟩

/-- `glm_mat4x3_mulv`: include/cglm/mat4x3.h:130-138. -/
@[cglm]
def glm_mat4x3_mulv (m : M4x3 α) (v : V4 α) : V3 α :=
  let v0 := v.x
  let v1 := v.y
  let v2 := v.z
  let v3 := v.w
  ⟨m.c0.x * v0 + m.c1.x * v1 + m.c2.x * v2 + m.c3.x * v3, m.c0.y * v0 + m.c1.y * v1 + m.c2.y * v2 + m.c3.y * v3, m.c0.z * v0 + m.c1.z * v1 + m.c2.z * v2 + m.c3.z * v3⟩

/-- `glm_mat4x3_transpose`: include/cglm/mat4x3.h:146-152. -/
@[cglm]
def glm_mat4x3_transpose (src : M4x3 α) : M3x4 α :=
  ⟨⟨src.c0.x, src.c1.x, src.c2.x, src.c3.x⟩, ⟨src.c0.y, src.c1.y, src.c2.y, src.c3.y⟩, ⟨src.c0.z, src.c1.z, src.c2.z, src.c3.z⟩⟩

/-- `glm_mat4x3_scale`: include/cglm/mat4x3.h:160-166. -/
@[cglm]
def glm_mat4x3_scale (m : M4x3 α) (s : α) : M4x3 α :=
  ⟨⟨m.c0.x * s, m.c0.y * s, m.c0.z * s⟩, ⟨m.c1.x * s, m.c1.y * s, m.c1.z * s⟩, ⟨m.c2.x * s, m.c2.y * s, m.c2.z * s⟩, ⟨m.c3.x * s, m.c3.y * s, m.c3.z * s⟩⟩

end Cglm
