/- Generated from include/cglm/affine2d-post.h by tools/gen.py (value semantics); do not edit by hand. -/
import Verif.Base
import Verif.Attr
import Verif.Gen.Vec2

set_option linter.unusedVariables false
set_option linter.unusedSectionVars false

namespace Cglm

variable {α : Type} [Add α] [Sub α] [Mul α] [Div α] [Neg α] [CFloat α]

/-- `glm_translated2d`: include/cglm/affine2d-post.h:32-36. -/
@[cglm]
def glm_translated2d (m : M3 α) (v : V2 α) : M3 α :=
  let m_6 := glm_vec2_add ⟨m.c2.x, m.c2.y⟩ v
  ⟨m.c0, m.c1, ⟨m_6.x, m_6.y, m.c2.z⟩⟩

/-- `glm_translated2d_x`: include/cglm/affine2d-post.h:46-50. -/
@[cglm]
def glm_translated2d_x (m : M3 α) (x : α) : M3 α :=
  ⟨m.c0, m.c1, ⟨m.c2.x + x, m.c2.y, m.c2.z⟩⟩

/-- `glm_translated2d_y`: include/cglm/affine2d-post.h:60-64. -/
@[cglm]
def glm_translated2d_y (m : M3 α) (y : α) : M3 α :=
  ⟨m.c0, m.c1, ⟨m.c2.x, m.c2.y + y, m.c2.z⟩⟩

/-- `glm_rotated2d`: include/cglm/affine2d-post.h:74-90. -/
@[cglm]
def glm_rotated2d (m : M3 α) (angle : α) : M3 α :=
  let c := cosf angle
  let s := sinf angle
  let m00 := m.c0.x
  let m10 := m.c1.x
  let m20 := m.c2.x
  let m01 := m.c0.y
  let m11 := m.c1.y
  let m21 := m.c2.y
  ⟨⟨c * m00 - s * m01, s * m00 + c * m01, m.c0.z⟩, ⟨c * m10 - s * m11, s * m10 + c * m11, m.c1.z⟩, ⟨c * m20 - s * m21, s * m20 + c * m21, m.c2.z⟩⟩

/-- `glm_scaled2d`: include/cglm/affine2d-post.h:100-110. -/
@[cglm]
def glm_scaled2d (m : M3 α) (v : V2 α) : M3 α :=
  ⟨⟨m.c0.x * v.x, m.c0.y * v.y, m.c0.z⟩, ⟨m.c1.x * v.x, m.c1.y * v.y, m.c1.z⟩, ⟨m.c2.x * v.x, m.c2.y * v.y, m.c2.z⟩⟩

/-- `glm_scaled2d_uni`: include/cglm/affine2d-post.h:120-130. -/
@[cglm]
def glm_scaled2d_uni (m : M3 α) (s : α) : M3 α :=
  ⟨⟨m.c0.x * s, m.c0.y * s, m.c0.z⟩, ⟨m.c1.x * s, m.c1.y * s, m.c1.z⟩, ⟨m.c2.x * s, m.c2.y * s, m.c2.z⟩⟩

end Cglm
