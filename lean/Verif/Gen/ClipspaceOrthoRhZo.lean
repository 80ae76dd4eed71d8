/- Generated from include/cglm/clipspace/ortho_rh_zo.h by tools/gen.py (value semantics); do not edit by hand. -/
import Verif.Base
import Verif.Attr
import Verif.Gen.Mat4

set_option linter.unusedVariables false
set_option linter.unusedSectionVars false

namespace Cglm

variable {α : Type} [Add α] [Sub α] [Mul α] [Div α] [Neg α] [CFloat α]

/-- `glm_ortho_rh_zo`: include/cglm/clipspace/ortho_rh_zo.h:47-68. -/
@[cglm]
def glm_ortho_rh_zo (left : α) (right : α) (bottom : α) (top : α) (nearZ : α) (farZ : α) : M4 α :=
  let dest_1 := glm_mat4_zero
  let rl := (lit 1) / (right - left)
  let tb := (lit 1) / (top - bottom)
  let fn := (-(lit 1)) / (farZ - nearZ)
  ⟨⟨(lit 2) * rl, dest_1.c0.y, dest_1.c0.z, dest_1.c0.w⟩, ⟨dest_1.c1.x, (lit 2) * tb, dest_1.c1.z, dest_1.c1.w⟩, ⟨dest_1.c2.x, dest_1.c2.y, fn, dest_1.c2.w⟩, ⟨(-(right + left)) * rl, (-(top + bottom)) * tb, nearZ * fn, lit 1⟩⟩

/-- `glm_ortho_aabb_rh_zo`: include/cglm/clipspace/ortho_rh_zo.h:80-87. -/
@[cglm]
def glm_ortho_aabb_rh_zo (box : M2x3 α) : M4 α :=
  glm_ortho_rh_zo box.c0.x box.c1.x box.c0.y box.c1.y (-box.c1.z) (-box.c0.z)

/-- `glm_ortho_aabb_p_rh_zo`: include/cglm/clipspace/ortho_rh_zo.h:100-107. -/
@[cglm]
def glm_ortho_aabb_p_rh_zo (box : M2x3 α) (padding : α) : M4 α :=
  glm_ortho_rh_zo (box.c0.x - padding) (box.c1.x + padding) (box.c0.y - padding) (box.c1.y + padding) (-(box.c1.z + padding)) (-(box.c0.z - padding))

/-- `glm_ortho_aabb_pz_rh_zo`: include/cglm/clipspace/ortho_rh_zo.h:120-127. -/
@[cglm]
def glm_ortho_aabb_pz_rh_zo (box : M2x3 α) (padding : α) : M4 α :=
  glm_ortho_rh_zo box.c0.x box.c1.x box.c0.y box.c1.y (-(box.c1.z + padding)) (-(box.c0.z - padding))

/-- `glm_ortho_default_rh_zo`: include/cglm/clipspace/ortho_rh_zo.h:136-147. -/
@[cglm]
def glm_ortho_default_rh_zo (aspect : α) : M4 α :=
  if fle (lit 1) aspect then
    glm_ortho_rh_zo (-aspect) aspect (-(lit 1)) (lit 1) (-(lit 100)) (lit 100)
  else
    let aspect_1 := (lit 1) / aspect
    glm_ortho_rh_zo (-(lit 1)) (lit 1) (-aspect_1) aspect_1 (-(lit 100)) (lit 100)

/-- `glm_ortho_default_s_rh_zo`: include/cglm/clipspace/ortho_rh_zo.h:158-179. -/
@[cglm]
def glm_ortho_default_s_rh_zo (aspect : α) (size : α) : M4 α :=
  if fle (lit 1) aspect then
    glm_ortho_rh_zo ((-size) * aspect) (size * aspect) (-size) size (-size - (lit 100)) (size + (lit 100))
  else
    glm_ortho_rh_zo (-size) size ((-size) / aspect) (size / aspect) (-size - (lit 100)) (size + (lit 100))

end Cglm
