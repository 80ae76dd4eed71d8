/- Generated from include/cglm/clipspace/persp_lh_zo.h by tools/gen.py (value semantics); do not edit by hand. -/
import Verif.Base
import Verif.Attr
import Verif.Gen.ClipspacePersp
import Verif.Gen.Mat4

set_option linter.unusedVariables false
set_option linter.unusedSectionVars false

namespace Cglm

variable {α : Type} [Add α] [Sub α] [Mul α] [Div α] [Neg α] [CFloat α]

/-- `glm_frustum_lh_zo`: include/cglm/clipspace/persp_lh_zo.h:64-86. -/
@[cglm]
def glm_frustum_lh_zo (left : α) (right : α) (bottom : α) (top : α) (nearZ : α) (farZ : α) : M4 α :=
  let dest_1 := glm_mat4_zero
  let rl := (lit 1) / (right - left)
  let tb := (lit 1) / (top - bottom)
  let fn := (-(lit 1)) / (farZ - nearZ)
  let nv := (lit 2) * nearZ
  ⟨⟨nv * rl, dest_1.c0.y, dest_1.c0.z, dest_1.c0.w⟩, ⟨dest_1.c1.x, nv * tb, dest_1.c1.z, dest_1.c1.w⟩, ⟨(right + left) * rl, (top + bottom) * tb, (-farZ) * fn, lit 1⟩, ⟨dest_1.c3.x, dest_1.c3.y, farZ * nearZ * fn, dest_1.c3.w⟩⟩

/-- `glm_perspective_lh_zo`: include/cglm/clipspace/persp_lh_zo.h:98-117. -/
@[cglm]
def glm_perspective_lh_zo (fovy : α) (aspect : α) (nearZ : α) (farZ : α) : M4 α :=
  let dest_1 := glm_mat4_zero
  let f := (lit 1) / tanf (fovy * (lit 0.5))
  let fn := (lit 1) / (nearZ - farZ)
  ⟨⟨f / aspect, dest_1.c0.y, dest_1.c0.z, dest_1.c0.w⟩, ⟨dest_1.c1.x, f, dest_1.c1.z, dest_1.c1.w⟩, ⟨dest_1.c2.x, dest_1.c2.y, (-farZ) * fn, lit 1⟩, ⟨dest_1.c3.x, dest_1.c3.y, nearZ * farZ * fn, dest_1.c3.w⟩⟩

/-- `glm_persp_move_far_lh_zo`: include/cglm/clipspace/persp_lh_zo.h:129-143. -/
@[cglm]
def glm_persp_move_far_lh_zo (proj : M4 α) (deltaFar : α) : M4 α :=
  let p22 := -proj.c2.z
  let p32 := proj.c3.z
  let nearZ := p32 / p22
  let farZ := p32 / (p22 + (lit 1)) + deltaFar
  let fn := (lit 1) / (nearZ - farZ)
  ⟨proj.c0, proj.c1, ⟨proj.c2.x, proj.c2.y, (-farZ) * fn, proj.c2.w⟩, ⟨proj.c3.x, proj.c3.y, nearZ * farZ * fn, proj.c3.w⟩⟩

/-- `glm_perspective_default_lh_zo`: include/cglm/clipspace/persp_lh_zo.h:153-157. -/
@[cglm]
def glm_perspective_default_lh_zo (aspect : α) : M4 α :=
  glm_perspective_lh_zo (lit 0.785398163397448309615660845819875721) aspect (lit 0.01) (lit 100)

/-- `glm_perspective_resize_lh_zo`: include/cglm/clipspace/persp_lh_zo.h:167-174. -/
@[cglm]
def glm_perspective_resize_lh_zo (aspect : α) (proj : M4 α) : M4 α :=
  if feq proj.c0.x (lit 0) then
    proj
  else
    ⟨⟨proj.c1.y / aspect, proj.c0.y, proj.c0.z, proj.c0.w⟩, proj.c1, proj.c2, proj.c3⟩

/-- `glm_persp_decomp_lh_zo`: include/cglm/clipspace/persp_lh_zo.h:189-217. -/
@[cglm]
def glm_persp_decomp_lh_zo (proj : M4 α) : α × α × α × α × α × α :=
  let m00 := proj.c0.x
  let m11 := proj.c1.y
  let m20 := proj.c2.x
  let m21 := proj.c2.y
  let m22 := -proj.c2.z
  let m32 := proj.c3.z
  let n := m32 / m22
  let f := m32 / (m22 + (lit 1))
  let n_m11 := n / m11
  let n_m00 := n / m00
  (n, f, n_m11 * (m21 + (lit 1)), n_m11 * (m21 - (lit 1)), n_m00 * (m20 - (lit 1)), n_m00 * (m20 + (lit 1)))

/-- `glm_persp_decompv_lh_zo`: include/cglm/clipspace/persp_lh_zo.h:228-233. -/
@[cglm]
def glm_persp_decompv_lh_zo (proj : M4 α) : V6 α :=
  let r := glm_persp_decomp_lh_zo proj
  ⟨r.1, r.2.1, r.2.2.1, r.2.2.2.1, r.2.2.2.2.1, r.2.2.2.2.2⟩

/-- `glm_persp_decomp_x_lh_zo`: include/cglm/clipspace/persp_lh_zo.h:243-256. -/
@[cglm]
def glm_persp_decomp_x_lh_zo (proj : M4 α) : α × α :=
  let m00 := proj.c0.x
  let m20 := proj.c2.x
  let nearZ := proj.c3.z / proj.c3.w
  (nearZ * (m20 - (lit 1)) / m00, nearZ * (m20 + (lit 1)) / m00)

/-- `glm_persp_decomp_y_lh_zo`: include/cglm/clipspace/persp_lh_zo.h:268-281. -/
@[cglm]
def glm_persp_decomp_y_lh_zo (proj : M4 α) : α × α :=
  let m21 := proj.c2.y
  let m11 := proj.c1.y
  let nearZ := proj.c3.z / proj.c3.w
  (nearZ * (m21 + (lit 1)) / m11, nearZ * (m21 - (lit 1)) / m11)

/-- `glm_persp_decomp_z_lh_zo`: include/cglm/clipspace/persp_lh_zo.h:293-305. -/
@[cglm]
def glm_persp_decomp_z_lh_zo (proj : M4 α) : α × α :=
  let m32 := proj.c3.z
  let m22 := -proj.c2.z
  (m32 / m22, m32 / (m22 + (lit 1)))

/-- `glm_persp_decomp_far_lh_zo`: include/cglm/clipspace/persp_lh_zo.h:315-319. -/
@[cglm]
def glm_persp_decomp_far_lh_zo (proj : M4 α) : α :=
  proj.c3.z / (-proj.c2.z + (lit 1))

/-- `glm_persp_decomp_near_lh_zo`: include/cglm/clipspace/persp_lh_zo.h:329-333. -/
@[cglm]
def glm_persp_decomp_near_lh_zo (proj : M4 α) : α :=
  proj.c3.z / (-proj.c2.z)

/-- `glm_persp_sizes_lh_zo`: include/cglm/clipspace/persp_lh_zo.h:344-358. -/
@[cglm]
def glm_persp_sizes_lh_zo (proj : M4 α) (fovy : α) : V4 α :=
  let t := (lit 2) * tanf (fovy * (lit 0.5))
  let a := glm_persp_aspect proj
  let r := glm_persp_decomp_z_lh_zo proj
  let dest_1 := t * r.1
  let dest_3 := t * r.2
  ⟨a * dest_1, dest_1, a * dest_3, dest_3⟩

/-- `glm_persp_fovy_lh_zo`: include/cglm/clipspace/persp_lh_zo.h:369-373. -/
@[cglm]
def glm_persp_fovy_lh_zo (proj : M4 α) : α :=
  glm_persp_fovy proj

/-- `glm_persp_aspect_lh_zo`: include/cglm/clipspace/persp_lh_zo.h:381-385. -/
@[cglm]
def glm_persp_aspect_lh_zo (proj : M4 α) : α :=
  glm_persp_aspect proj

end Cglm
