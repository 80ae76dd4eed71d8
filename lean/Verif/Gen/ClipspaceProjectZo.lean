/- Generated from include/cglm/clipspace/project_zo.h by tools/gen.py (value semantics); do not edit by hand. -/
import Verif.Base
import Verif.Attr
import Verif.Gen.Mat4
import Verif.Gen.Vec3
import Verif.Gen.Vec4

set_option linter.unusedVariables false
set_option linter.unusedSectionVars false

namespace Cglm

variable {α : Type} [Add α] [Sub α] [Mul α] [Div α] [Neg α] [CFloat α]

/-- `glm_unprojecti_zo`: include/cglm/clipspace/project_zo.h:42-55. -/
@[cglm]
def glm_unprojecti_zo (pos : V3 α) (invMat : M4 α) (vp : V4 α) : V3 α :=
  let v := glm_mat4_mulv invMat ⟨(lit 2) * (pos.x - vp.x) / vp.z - (lit 1), (lit 2) * (pos.y - vp.y) / vp.w - (lit 1), pos.z, lit 1⟩
  let v_2 := glm_vec4_scale v ((lit 1) / v.w)
  glm_vec3 v_2

/-- `glm_project_zo`: include/cglm/clipspace/project_zo.h:69-86. -/
@[cglm]
def glm_project_zo (pos : V3 α) (m : M4 α) (vp : V4 α) : V3 α :=
  let pos4 := glm_vec4 pos (lit 1)
  let pos4_1 := glm_mat4_mulv m pos4
  let pos4_2 := glm_vec4_scale pos4_1 ((lit 1) / pos4_1.w)
  let pos4_3 := glm_vec4_scale pos4_2 (lit 0.5)
  let pos4_4 := glm_vec4_adds pos4_3 (lit 0.5)
  ⟨pos4_4.x * vp.z + vp.x, pos4_4.y * vp.w + vp.y, pos4_2.z⟩

/-- `glm_project_z_zo`: include/cglm/clipspace/project_zo.h:100-109. -/
@[cglm]
def glm_project_z_zo (v : V3 α) (m : M4 α) : α :=
  let z := m.c0.z * v.x + m.c1.z * v.y + m.c2.z * v.z + m.c3.z
  z / (m.c0.w * v.x + m.c1.w * v.y + m.c2.w * v.z + m.c3.w)

end Cglm
