/- Generated from include/cglm/project.h by tools/gen.py (value semantics); do not edit by hand. -/
import Verif.Base
import Verif.Attr
import Verif.Gen.Affine
import Verif.Gen.ClipspaceProjectNo
import Verif.Gen.Mat4

set_option linter.unusedVariables false
set_option linter.unusedSectionVars false

namespace Cglm

variable {α : Type} [Add α] [Sub α] [Mul α] [Div α] [Neg α] [CFloat α]

/-- `glm_unprojecti`: include/cglm/project.h:53-61. -/
@[cglm]
def glm_unprojecti (pos : V3 α) (invMat : M4 α) (vp : V4 α) : V3 α :=
  glm_unprojecti_no pos invMat vp

/-- `glm_unproject`: include/cglm/project.h:87-93. -/
@[cglm]
def glm_unproject (pos : V3 α) (m : M4 α) (vp : V4 α) : V3 α :=
  let inv := glm_mat4_inv m
  glm_unprojecti pos inv vp

/-- `glm_project`: include/cglm/project.h:107-115. -/
@[cglm]
def glm_project (pos : V3 α) (m : M4 α) (vp : V4 α) : V3 α :=
  glm_project_no pos m vp

/-- `glm_project_z`: include/cglm/project.h:129-137. -/
@[cglm]
def glm_project_z (v : V3 α) (m : M4 α) : α :=
  glm_project_z_no v m

/-- `glm_pickmatrix`: include/cglm/project.h:147-170. -/
@[cglm]
def glm_pickmatrix (center : V2 α) (size : V2 α) (vp : V4 α) (dest : M4 α) : M4 α :=
  if fle size.x (lit 0) || fle size.y (lit 0) then
    dest
  else
    let res := glm_translate_make ⟨(vp.z - (lit 2) * (center.x - vp.x)) / size.x, (vp.w - (lit 2) * (center.y - vp.y)) / size.y, lit 0⟩
    let res_1 := glm_scale res ⟨vp.z / size.x, vp.w / size.y, lit 1⟩
    glm_mat4_copy res_1

end Cglm
