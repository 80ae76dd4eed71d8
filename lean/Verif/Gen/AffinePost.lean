/- Generated from include/cglm/affine-post.h by tools/gen.py (value semantics); do not edit by hand. -/
import Verif.Base
import Verif.Attr
import Verif.Gen.Affine
import Verif.Gen.AffineMat
import Verif.Gen.AffinePre
import Verif.Gen.Mat4
import Verif.Gen.Vec3

set_option linter.unusedVariables false
set_option linter.unusedSectionVars false

namespace Cglm

variable {α : Type} [Add α] [Sub α] [Mul α] [Div α] [Neg α] [CFloat α]

/-- `glm_translated`: include/cglm/affine-post.h:42-46. -/
@[cglm]
def glm_translated (m : M4 α) (v : V3 α) : M4 α :=
  let m_12 := glm_vec3_add ⟨m.c3.x, m.c3.y, m.c3.z⟩ v
  ⟨m.c0, m.c1, m.c2, ⟨m_12.x, m_12.y, m_12.z, m.c3.w⟩⟩

/-- `glm_translated_to`: include/cglm/affine-post.h:60-65. -/
@[cglm]
def glm_translated_to (m : M4 α) (v : V3 α) : M4 α :=
  let dest_1 := glm_mat4_copy m
  glm_translated dest_1 v

/-- `glm_translated_x`: include/cglm/affine-post.h:75-79. -/
@[cglm]
def glm_translated_x (m : M4 α) (x : α) : M4 α :=
  ⟨m.c0, m.c1, m.c2, ⟨m.c3.x + x, m.c3.y, m.c3.z, m.c3.w⟩⟩

/-- `glm_translated_y`: include/cglm/affine-post.h:89-93. -/
@[cglm]
def glm_translated_y (m : M4 α) (y : α) : M4 α :=
  ⟨m.c0, m.c1, m.c2, ⟨m.c3.x, m.c3.y + y, m.c3.z, m.c3.w⟩⟩

/-- `glm_translated_z`: include/cglm/affine-post.h:103-107. -/
@[cglm]
def glm_translated_z (m : M4 α) (z : α) : M4 α :=
  ⟨m.c0, m.c1, m.c2, ⟨m.c3.x, m.c3.y, m.c3.z + z, m.c3.w⟩⟩

/-- `glm_rotated_x`: include/cglm/affine-post.h:119-134. -/
@[cglm]
def glm_rotated_x (m : M4 α) (angle : α) : M4 α :=
  let c := cosf angle
  let s := sinf angle
  glm_mul_rot ⟨⟨lit 1, lit 0, lit 0, lit 0⟩, ⟨lit 0, c, s, lit 0⟩, ⟨lit 0, -s, c, lit 0⟩, ⟨lit 0, lit 0, lit 0, lit 1⟩⟩ m

/-- `glm_rotated_y`: include/cglm/affine-post.h:146-161. -/
@[cglm]
def glm_rotated_y (m : M4 α) (angle : α) : M4 α :=
  let c := cosf angle
  let s := sinf angle
  glm_mul_rot ⟨⟨c, lit 0, -s, lit 0⟩, ⟨lit 0, lit 1, lit 0, lit 0⟩, ⟨s, lit 0, c, lit 0⟩, ⟨lit 0, lit 0, lit 0, lit 1⟩⟩ m

/-- `glm_rotated_z`: include/cglm/affine-post.h:173-188. -/
@[cglm]
def glm_rotated_z (m : M4 α) (angle : α) : M4 α :=
  let c := cosf angle
  let s := sinf angle
  glm_mul_rot ⟨⟨c, s, lit 0, lit 0⟩, ⟨-s, c, lit 0, lit 0⟩, ⟨lit 0, lit 0, lit 1, lit 0⟩, ⟨lit 0, lit 0, lit 0, lit 1⟩⟩ m

/-- `glm_rotated`: include/cglm/affine-post.h:199-205. -/
@[cglm]
def glm_rotated (m : M4 α) (angle : α) (axis : V3 α) : M4 α :=
  let rot := glm_rotate_make angle axis
  glm_mul_rot rot m

/-- `glm_rotated_at`: include/cglm/affine-post.h:218-228. -/
@[cglm]
def glm_rotated_at (m : M4 α) (pivot : V3 α) (angle : α) (axis : V3 α) : M4 α :=
  let pivotInv := glm_vec3_negate_to pivot
  let m_1 := glm_translated m pivot
  let m_2 := glm_rotated m_1 angle axis
  glm_translated m_2 pivotInv

/-- `glm_spinned`: include/cglm/affine-post.h:239-245. -/
@[cglm]
def glm_spinned (m : M4 α) (angle : α) (axis : V3 α) : M4 α :=
  let rot := glm_rotate_atm ⟨m.c3.x, m.c3.y, m.c3.z⟩ angle axis
  glm_mat4_mul rot m

end Cglm
