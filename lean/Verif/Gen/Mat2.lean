/- Generated from include/cglm/mat2.h by tools/gen.py (value semantics); do not edit by hand. -/
import Verif.Base
import Verif.Attr
import Verif.Gen.Vec2
import Verif.Gen.Vec4

set_option linter.unusedVariables false
set_option linter.unusedSectionVars false

namespace Cglm

variable {α : Type} [Add α] [Sub α] [Mul α] [Div α] [Neg α] [CFloat α]

/-- `glm_mat2_make`: include/cglm/mat2.h:65-72. -/
@[cglm]
def glm_mat2_make (src : V4 α) : M2 α :=
  ⟨⟨src.x, src.y⟩, ⟨src.z, src.w⟩⟩

/-- `glm_mat2_copy`: include/cglm/mat2.h:80-84. -/
@[cglm]
def glm_mat2_copy (mat : M2 α) : M2 α :=
  let dest_1 := glm_vec4_ucopy ⟨mat.c0.x, mat.c0.y, mat.c1.x, mat.c1.y⟩
  ⟨⟨dest_1.x, dest_1.y⟩, ⟨dest_1.z, dest_1.w⟩⟩

/-- `glm_mat2_identity`: include/cglm/mat2.h:102-107. -/
@[cglm]
def glm_mat2_identity : M2 α :=
  glm_mat2_copy ⟨⟨lit 1, lit 0⟩, ⟨lit 0, lit 1⟩⟩

/-- `glm_mat2_zero`: include/cglm/mat2.h:131-136. -/
@[cglm]
def glm_mat2_zero : M2 α :=
  glm_mat2_copy ⟨⟨lit 0, lit 0⟩, ⟨lit 0, lit 0⟩⟩

/-- `glm_mat2_mul`: include/cglm/mat2.h:152-172. -/
@[cglm]
def glm_mat2_mul (m1 : M2 α) (m2 : M2 α) : M2 α :=
  let a00 := m1.c0.x
  let a01 := m1.c0.y
  let a10 := m1.c1.x
  let a11 := m1.c1.y
  let b00 := m2.c0.x
  let b01 := m2.c0.y
  let b10 := m2.c1.x
  let b11 := m2.c1.y
  ⟨⟨a00 * b00 + a10 * b01, a01 * b00 + a11 * b01⟩, ⟨a00 * b10 + a10 * b11, a01 * b10 + a11 * b11⟩⟩

/-- `glm_mat2_mulv`: include/cglm/mat2.h:181-186. -/
@[cglm]
def glm_mat2_mulv (m : M2 α) (v : V2 α) : V2 α :=
  ⟨m.c0.x * v.x + m.c1.x * v.y, m.c0.y * v.x + m.c1.y * v.y⟩

/-- `glm_mat2_transpose_to`: include/cglm/mat2.h:194-207. -/
@[cglm]
def glm_mat2_transpose_to (mat : M2 α) : M2 α :=
  ⟨⟨mat.c0.x, mat.c1.x⟩, ⟨mat.c0.y, mat.c1.y⟩⟩

/-- `glm_mat2_transpose`: include/cglm/mat2.h:214-221. -/
@[cglm]
def glm_mat2_transpose (m : M2 α) : M2 α :=
  ⟨⟨m.c0.x, m.c1.x⟩, ⟨m.c0.y, m.c1.y⟩⟩

/-- `glm_mat2_scale`: include/cglm/mat2.h:229-245. -/
@[cglm]
def glm_mat2_scale (m : M2 α) (s : α) : M2 α :=
  ⟨⟨m.c0.x * s, m.c0.y * s⟩, ⟨m.c1.x * s, m.c1.y * s⟩⟩

/-- `glm_mat2_inv`: include/cglm/mat2.h:253-266. -/
@[cglm]
def glm_mat2_inv (mat : M2 α) : M2 α :=
  let a := mat.c0.x
  let b := mat.c0.y
  let c := mat.c1.x
  let d := mat.c1.y
  let det := (lit 1) / (a * d - b * c)
  ⟨⟨d * det, (-b) * det⟩, ⟨(-c) * det, a * det⟩⟩

/-- `glm_mat2_det`: include/cglm/mat2.h:319-323. -/
@[cglm]
def glm_mat2_det (m : M2 α) : α :=
  m.c0.x * m.c1.y - m.c1.x * m.c0.y

/-- `glm_mat2_trace`: include/cglm/mat2.h:335-339. -/
@[cglm]
def glm_mat2_trace (m : M2 α) : α :=
  m.c0.x + m.c1.y

/-- `glm_mat2_rmc`: include/cglm/mat2.h:355-361. -/
@[cglm]
def glm_mat2_rmc (r : V2 α) (m : M2 α) (c : V2 α) : α :=
  glm_vec2_dot r (glm_mat2_mulv m c)

end Cglm
