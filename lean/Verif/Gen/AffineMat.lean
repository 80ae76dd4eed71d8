/- Generated from include/cglm/affine-mat.h by tools/gen.py (value semantics); do not edit by hand. -/
import Verif.Base
import Verif.Attr
import Verif.Gen.Mat3
import Verif.Gen.Mat4
import Verif.Gen.Vec3

set_option linter.unusedVariables false
set_option linter.unusedSectionVars false

namespace Cglm

variable {α : Type} [Add α] [Sub α] [Mul α] [Div α] [Neg α] [CFloat α]

/-- `glm_mul`: include/cglm/affine-mat.h:54-96. -/
@[cglm]
def glm_mul (m1 : M4 α) (m2 : M4 α) : M4 α :=
  let a00 := m1.c0.x
  let a01 := m1.c0.y
  let a02 := m1.c0.z
  let a03 := m1.c0.w
  let a10 := m1.c1.x
  let a11 := m1.c1.y
  let a12 := m1.c1.z
  let a13 := m1.c1.w
  let a20 := m1.c2.x
  let a21 := m1.c2.y
  let a22 := m1.c2.z
  let a23 := m1.c2.w
  let a30 := m1.c3.x
  let a31 := m1.c3.y
  let a32 := m1.c3.z
  let a33 := m1.c3.w
  let b00 := m2.c0.x
  let b01 := m2.c0.y
  let b02 := m2.c0.z
  let b10 := m2.c1.x
  let b11 := m2.c1.y
  let b12 := m2.c1.z
  let b20 := m2.c2.x
  let b21 := m2.c2.y
  let b22 := m2.c2.z
  let b30 := m2.c3.x
  let b31 := m2.c3.y
  let b32 := m2.c3.z
  let b33 := m2.c3.w
  ⟨⟨a00 * b00 + a10 * b01 + a20 * b02, a01 * b00 + a11 * b01 + a21 * b02, a02 * b00 + a12 * b01 + a22 * b02, a03 * b00 + a13 * b01 + a23 * b02⟩, ⟨a00 * b10 + a10 * b11 + a20 * b12, a01 * b10 + a11 * b11 + a21 * b12, a02 * b10 + a12 * b11 + a22 * b12, a03 * b10 + a13 * b11 + a23 * b12⟩, ⟨a00 * b20 + a10 * b21 + a20 * b22, a01 * b20 + a11 * b21 + a21 * b22, a02 * b20 + a12 * b21 + a22 * b22, a03 * b20 + a13 * b21 + a23 * b22⟩, ⟨a00 * b30 + a10 * b31 + a20 * b32 + a30 * b33, a01 * b30 + a11 * b31 + a21 * b32 + a31 * b33, a02 * b30 + a12 * b31 + a22 * b32 + a32 * b33, a03 * b30 + a13 * b31 + a23 * b32 + a33 * b33⟩⟩

/-- `glm_mul_rot`: include/cglm/affine-mat.h:114-153. -/
@[cglm]
def glm_mul_rot (m1 : M4 α) (m2 : M4 α) : M4 α :=
  let a00 := m1.c0.x
  let a01 := m1.c0.y
  let a02 := m1.c0.z
  let a03 := m1.c0.w
  let a10 := m1.c1.x
  let a11 := m1.c1.y
  let a12 := m1.c1.z
  let a13 := m1.c1.w
  let a20 := m1.c2.x
  let a21 := m1.c2.y
  let a22 := m1.c2.z
  let a23 := m1.c2.w
  let a30 := m1.c3.x
  let a31 := m1.c3.y
  let a32 := m1.c3.z
  let a33 := m1.c3.w
  let b00 := m2.c0.x
  let b01 := m2.c0.y
  let b02 := m2.c0.z
  let b10 := m2.c1.x
  let b11 := m2.c1.y
  let b12 := m2.c1.z
  let b20 := m2.c2.x
  let b21 := m2.c2.y
  let b22 := m2.c2.z
  ⟨⟨a00 * b00 + a10 * b01 + a20 * b02, a01 * b00 + a11 * b01 + a21 * b02, a02 * b00 + a12 * b01 + a22 * b02, a03 * b00 + a13 * b01 + a23 * b02⟩, ⟨a00 * b10 + a10 * b11 + a20 * b12, a01 * b10 + a11 * b11 + a21 * b12, a02 * b10 + a12 * b11 + a22 * b12, a03 * b10 + a13 * b11 + a23 * b12⟩, ⟨a00 * b20 + a10 * b21 + a20 * b22, a01 * b20 + a11 * b21 + a21 * b22, a02 * b20 + a12 * b21 + a22 * b22, a03 * b20 + a13 * b21 + a23 * b22⟩, ⟨a30, a31, a32, a33⟩⟩

/-- `glm_inv_tr`: include/cglm/affine-mat.h:165-187. -/
@[cglm]
def glm_inv_tr (mat : M4 α) : M4 α :=
  let r := glm_mat4_pick3t mat
  let mat_1 := glm_mat4_ins3 r mat
  let t := glm_mat3_mulv r ⟨mat_1.c3.x, mat_1.c3.y, mat_1.c3.z⟩
  let t_1 := glm_vec3_negate t
  let mat_12 := glm_vec3_copy t_1
  ⟨mat_1.c0, mat_1.c1, mat_1.c2, ⟨mat_12.x, mat_12.y, mat_12.z, mat_1.c3.w⟩⟩

end Cglm
