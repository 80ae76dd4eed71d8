/- Generated from include/cglm/mat2x3.h by tools/gen.py (value semantics); do not edit by hand. -/
import Verif.Base
import Verif.Attr
import Verif.Gen.Vec3

set_option linter.unusedVariables false
set_option linter.unusedSectionVars false

namespace Cglm

variable {α : Type} [Add α] [Sub α] [Mul α] [Div α] [Neg α] [CFloat α]

/-- `glm_mat2x3_copy`: include/cglm/mat2x3.h:39-44. -/
@[cglm]
def glm_mat2x3_copy (src : M2x3 α) : M2x3 α :=
  let dest_0 := glm_vec3_copy src.c0
  ⟨dest_0, glm_vec3_copy src.c1⟩

/-- `glm_mat2x3_zero`: include/cglm/mat2x3.h:51-56. -/
@[cglm]
def glm_mat2x3_zero : M2x3 α :=
  glm_mat2x3_copy ⟨⟨lit 0, lit 0, lit 0⟩, ⟨lit 0, lit 0, lit 0⟩⟩

/-- `glm_mat2x3_make`: include/cglm/mat2x3.h:64-74. -/
@[cglm]
def glm_mat2x3_make (src : V6 α) : M2x3 α :=
  ⟨⟨src.e0, src.e1, src.e2⟩, ⟨src.e3, src.e4, src.e5⟩⟩

/-- `glm_mat2x3_mul`: include/cglm/mat2x3.h:87-108. -/
@[cglm]
def glm_mat2x3_mul (m1 : M2x3 α) (m2 : M3x2 α) : M3 α :=
  let a00 := m1.c0.x
  let a01 := m1.c0.y
  let a02 := m1.c0.z
  let a10 := m1.c1.x
  let a11 := m1.c1.y
  let a12 := m1.c1.z
  let b00 := m2.c0.x
  let b01 := m2.c0.y
  let b10 := m2.c1.x
  let b11 := m2.c1.y
  let b20 := m2.c2.x
  let b21 := m2.c2.y
  ⟨⟨a00 * b00 + a10 * b01, a01 * b00 + a11 * b01, a02 * b00 + a12 * b01⟩, ⟨a00 * b10 + a10 * b11, a01 * b10 + a11 * b11, a02 * b10 + a12 * b11⟩, ⟨a00 * b20 + a10 * b21, a01 * b20 + a11 * b21, a02 * b20 + a12 * b21⟩⟩

/-- `glm_mat2x3_mulv`: include/cglm/mat2x3.h:117-125. -/
@[cglm]
def glm_mat2x3_mulv (m : M2x3 α) (v : V2 α) : V3 α :=
  let v0 := v.x
  let v1 := v.y
  ⟨m.c0.x * v0 + m.c1.x * v1, m.c0.y * v0 + m.c1.y * v1, m.c0.z * v0 + m.c1.z * v1⟩

/-- `glm_mat2x3_transpose`: include/cglm/mat2x3.h:133-139. -/
@[cglm]
def glm_mat2x3_transpose (src : M2x3 α) : M3x2 α :=
  ⟨⟨src.c0.x, src.c1.x⟩, ⟨src.c0.y, src.c1.y⟩, ⟨src.c0.z, src.c1.z⟩⟩

/-- `glm_mat2x3_scale`: include/cglm/mat2x3.h:147-152. -/
@[cglm]
def glm_mat2x3_scale (m : M2x3 α) (s : α) : M2x3 α :=
  ⟨⟨m.c0.x * s, m.c0.y * s, m.c0.z * s⟩, ⟨m.c1.x * s, m.c1.y * s, m.c1.z * s⟩⟩

end Cglm
