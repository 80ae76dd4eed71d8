/- Generated from include/cglm/mat2x4.h by tools/gen.py (value semantics); do not edit by hand. -/
import Verif.Base
import Verif.Attr
import Verif.Gen.Vec4

set_option linter.unusedVariables false
set_option linter.unusedSectionVars false

namespace Cglm

variable {α : Type} [Add α] [Sub α] [Mul α] [Div α] [Neg α] [CFloat α]

/-- `glm_mat2x4_copy`: include/cglm/mat2x4.h:40-45. -/
@[cglm]
def glm_mat2x4_copy (src : M2x4 α) : M2x4 α :=
  let dest_0 := glm_vec4_ucopy src.c0
  ⟨dest_0, glm_vec4_ucopy src.c1⟩

/-- `glm_mat2x4_zero`: include/cglm/mat2x4.h:52-57. -/
@[cglm]
def glm_mat2x4_zero : M2x4 α :=
  glm_mat2x4_copy ⟨⟨lit 0, lit 0, lit 0, lit 0⟩, ⟨lit 0, lit 0, lit 0, lit 0⟩⟩

/-- `glm_mat2x4_make`: include/cglm/mat2x4.h:65-77. -/
@[cglm]
def glm_mat2x4_make (src : V8 α) : M2x4 α :=
  ⟨⟨src.e0, src.e1, src.e2, src.e3⟩, ⟨src.e4, src.e5, src.e6, src.e7⟩⟩

/-- `glm_mat2x4_mul`: include/cglm/mat2x4.h:90-120. -/
@[cglm]
def glm_mat2x4_mul (m1 : M2x4 α) (m2 : M4x2 α) : M4 α :=
  let a00 := m1.c0.x
  let a01 := m1.c0.y
  let a02 := m1.c0.z
  let a03 := m1.c0.w
  let a10 := m1.c1.x
  let a11 := m1.c1.y
  let a12 := m1.c1.z
  let a13 := m1.c1.w
  let b00 := m2.c0.x
  let b01 := m2.c0.y
  let b10 := m2.c1.x
  let b11 := m2.c1.y
  let b20 := m2.c2.x
  let b21 := m2.c2.y
  let b30 := m2.c3.x
  let b31 := m2.c3.y
  ⟨⟨a00 * b00 + a10 * b01, a01 * b00 + a11 * b01, a02 * b00 + a12 * b01, a03 * b00 + a13 * b01⟩, ⟨a00 * b10 + a10 * b11, a01 * b10 + a11 * b11, a02 * b10 + a12 * b11, a03 * b10 + a13 * b11⟩, ⟨a00 * b20 + a10 * b21, a01 * b20 + a11 * b21, a02 * b20 + a12 * b21, a03 * b20 + a13 * b21⟩, ⟨a00 * b30 + a10 * b31, a01 * b30 + a11 * b31, a02 * b30 + a12 * b31, a03 * b30 + a13 * b31⟩⟩

/-- `glm_mat2x4_mulv`: include/cglm/mat2x4.h:129-138. -/
@[cglm]
def glm_mat2x4_mulv (m : M2x4 α) (v : V2 α) : V4 α :=
  let v0 := v.x
  let v1 := v.y
  ⟨m.c0.x * v0 + m.c1.x * v1, m.c0.y * v0 + m.c1.y * v1, m.c0.z * v0 + m.c1.z * v1, m.c0.w * v0 + m.c1.w * v1⟩

/-- `glm_mat2x4_transpose`: include/cglm/mat2x4.h:146-153. -/
@[cglm]
def glm_mat2x4_transpose (src : M2x4 α) : M4x2 α :=
  ⟨⟨src.c0.x, src.c1.x⟩, ⟨src.c0.y, src.c1.y⟩, ⟨src.c0.z, src.c1.z⟩, ⟨src.c0.w, src.c1.w⟩⟩

/-- `glm_mat2x4_scale`: include/cglm/mat2x4.h:161-166. -/
@[cglm]
def glm_mat2x4_scale (m : M2x4 α) (s : α) : M2x4 α :=
  ⟨⟨m.c0.x * s, m.c0.y * s, m.c0.z * s, m.c0.w * s⟩, ⟨m.c1.x * s, m.c1.y * s, m.c1.z * s, m.c1.w * s⟩⟩

end Cglm
