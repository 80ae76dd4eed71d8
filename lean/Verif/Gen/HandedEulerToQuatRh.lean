/- Generated from include/cglm/handed/euler_to_quat_rh.h by tools/gen.py (value semantics); do not edit by hand. -/
import Verif.Base
import Verif.Attr

set_option linter.unusedVariables false
set_option linter.unusedSectionVars false

namespace Cglm

variable {α : Type} [Add α] [Sub α] [Mul α] [Div α] [Neg α] [CFloat α]

/-- `glm_euler_xyz_quat_rh`: include/cglm/handed/euler_to_quat_rh.h:35-50. -/
@[cglm]
def glm_euler_xyz_quat_rh (angles : V3 α) : V4 α :=
  let xs := sinf (angles.x * (lit 0.5))
  let xc := cosf (angles.x * (lit 0.5))
  let ys := sinf (angles.y * (lit 0.5))
  let yc := cosf (angles.y * (lit 0.5))
  let zs := sinf (angles.z * (lit 0.5))
  let zc := cosf (angles.z * (lit 0.5))
  ⟨xc * ys * zs + xs * yc * zc, xc * ys * zc - xs * yc * zs, xc * yc * zs + xs * ys * zc, xc * yc * zc - xs * ys * zs⟩

/-- `glm_euler_xzy_quat_rh`: include/cglm/handed/euler_to_quat_rh.h:59-74. -/
@[cglm]
def glm_euler_xzy_quat_rh (angles : V3 α) : V4 α :=
  let xs := sinf (angles.x * (lit 0.5))
  let xc := cosf (angles.x * (lit 0.5))
  let ys := sinf (angles.y * (lit 0.5))
  let yc := cosf (angles.y * (lit 0.5))
  let zs := sinf (angles.z * (lit 0.5))
  let zc := cosf (angles.z * (lit 0.5))
  ⟨(-xc) * zs * ys + xs * zc * yc, xc * zc * ys - xs * zs * yc, xc * zs * yc + xs * zc * ys, xc * zc * yc + xs * zs * ys⟩

/-- `glm_euler_yxz_quat_rh`: include/cglm/handed/euler_to_quat_rh.h:83-97. -/
@[cglm]
def glm_euler_yxz_quat_rh (angles : V3 α) : V4 α :=
  let xs := sinf (angles.x * (lit 0.5))
  let xc := cosf (angles.x * (lit 0.5))
  let ys := sinf (angles.y * (lit 0.5))
  let yc := cosf (angles.y * (lit 0.5))
  let zs := sinf (angles.z * (lit 0.5))
  let zc := cosf (angles.z * (lit 0.5))
  ⟨yc * xs * zc + ys * xc * zs, (-yc) * xs * zs + ys * xc * zc, yc * xc * zs - ys * xs * zc, yc * xc * zc + ys * xs * zs⟩

/-- `glm_euler_yzx_quat_rh`: include/cglm/handed/euler_to_quat_rh.h:106-121. -/
@[cglm]
def glm_euler_yzx_quat_rh (angles : V3 α) : V4 α :=
  let xs := sinf (angles.x * (lit 0.5))
  let xc := cosf (angles.x * (lit 0.5))
  let ys := sinf (angles.y * (lit 0.5))
  let yc := cosf (angles.y * (lit 0.5))
  let zs := sinf (angles.z * (lit 0.5))
  let zc := cosf (angles.z * (lit 0.5))
  ⟨yc * zc * xs + ys * zs * xc, yc * zs * xs + ys * zc * xc, yc * zs * xc - ys * zc * xs, yc * zc * xc - ys * zs * xs⟩

/-- `glm_euler_zxy_quat_rh`: include/cglm/handed/euler_to_quat_rh.h:130-144. -/
@[cglm]
def glm_euler_zxy_quat_rh (angles : V3 α) : V4 α :=
  let xs := sinf (angles.x * (lit 0.5))
  let xc := cosf (angles.x * (lit 0.5))
  let ys := sinf (angles.y * (lit 0.5))
  let yc := cosf (angles.y * (lit 0.5))
  let zs := sinf (angles.z * (lit 0.5))
  let zc := cosf (angles.z * (lit 0.5))
  ⟨zc * xs * yc - zs * xc * ys, zc * xc * ys + zs * xs * yc, zc * xs * ys + zs * xc * yc, zc * xc * yc - zs * xs * ys⟩

/-- `glm_euler_zyx_quat_rh`: include/cglm/handed/euler_to_quat_rh.h:153-167. -/
@[cglm]
def glm_euler_zyx_quat_rh (angles : V3 α) : V4 α :=
  let xs := sinf (angles.x * (lit 0.5))
  let xc := cosf (angles.x * (lit 0.5))
  let ys := sinf (angles.y * (lit 0.5))
  let yc := cosf (angles.y * (lit 0.5))
  let zs := sinf (angles.z * (lit 0.5))
  let zc := cosf (angles.z * (lit 0.5))
  ⟨zc * yc * xs - zs * ys * xc, zc * ys * xc + zs * yc * xs, (-zc) * ys * xs + zs * yc * xc, zc * yc * xc + zs * ys * xs⟩

end Cglm
