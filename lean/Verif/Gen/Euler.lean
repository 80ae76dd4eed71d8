/- Generated from include/cglm/euler.h by tools/gen.py (value semantics); do not edit by hand. -/
import Verif.Base
import Verif.Attr
import Verif.Gen.HandedEulerToQuatRh

set_option linter.unusedVariables false
set_option linter.unusedSectionVars false

namespace Cglm

variable {α : Type} [Add α] [Sub α] [Mul α] [Div α] [Neg α] [CFloat α]

/-- `glm_euler_angles`: include/cglm/euler.h:117-147. -/
@[cglm]
def glm_euler_angles (m : M4 α) : V3 α :=
  let m00 := m.c0.x
  let m10 := m.c1.x
  let m20 := m.c2.x
  let m01 := m.c0.y
  let m11 := m.c1.y
  let m21 := m.c2.y
  let m22 := m.c2.z
  if flt m20 (lit 1) then
    if flt (-(lit 1)) m20 then
      let thetaY := asinf m20
      let thetaX := atan2f (-m21) m22
      ⟨thetaX, thetaY, atan2f (-m10) m00⟩
    else
      let thetaY := -(lit 1.57079632679489661923132169163975144)
      ⟨-atan2f m01 m11, thetaY, lit 0⟩
  else
    ⟨atan2f m01 m11, lit 1.57079632679489661923132169163975144, lit 0⟩

/-- `glm_euler_xyz`: include/cglm/euler.h:155-185. -/
@[cglm]
def glm_euler_xyz (angles : V3 α) : M4 α :=
  let sx := sinf angles.x
  let cx := cosf angles.x
  let sy := sinf angles.y
  let cy := cosf angles.y
  let sz := sinf angles.z
  let cz := cosf angles.z
  let czsx := cz * sx
  let cxcz := cx * cz
  let sysz := sy * sz
  ⟨⟨cy * cz, czsx * sy + cx * sz, (-cxcz) * sy + sx * sz, lit 0⟩, ⟨(-cy) * sz, cxcz - sx * sysz, czsx + cx * sysz, lit 0⟩, ⟨sy, (-cy) * sx, cx * cy, lit 0⟩, ⟨lit 0, lit 0, lit 0, lit 1⟩⟩

/-- `glm_euler`: include/cglm/euler.h:193-197. -/
@[cglm]
def glm_euler (angles : V3 α) : M4 α :=
  glm_euler_xyz angles

/-- `glm_euler_xzy`: include/cglm/euler.h:205-236. -/
@[cglm]
def glm_euler_xzy (angles : V3 α) : M4 α :=
  let sx := sinf angles.x
  let cx := cosf angles.x
  let sy := sinf angles.y
  let cy := cosf angles.y
  let sz := sinf angles.z
  let cz := cosf angles.z
  let sxsy := sx * sy
  let cysx := cy * sx
  let cxsy := cx * sy
  let cxcy := cx * cy
  ⟨⟨cy * cz, sxsy + cxcy * sz, -cxsy + cysx * sz, lit 0⟩, ⟨-sz, cx * cz, cz * sx, lit 0⟩, ⟨cz * sy, -cysx + cxsy * sz, cxcy + sxsy * sz, lit 0⟩, ⟨lit 0, lit 0, lit 0, lit 1⟩⟩

/-- `glm_euler_yxz`: include/cglm/euler.h:244-275. -/
@[cglm]
def glm_euler_yxz (angles : V3 α) : M4 α :=
  let sx := sinf angles.x
  let cx := cosf angles.x
  let sy := sinf angles.y
  let cy := cosf angles.y
  let sz := sinf angles.z
  let cz := cosf angles.z
  let cycz := cy * cz
  let sysz := sy * sz
  let czsy := cz * sy
  let cysz := cy * sz
  ⟨⟨cycz + sx * sysz, cx * sz, -czsy + cysz * sx, lit 0⟩, ⟨-cysz + czsy * sx, cx * cz, cycz * sx + sysz, lit 0⟩, ⟨cx * sy, -sx, cx * cy, lit 0⟩, ⟨lit 0, lit 0, lit 0, lit 1⟩⟩

/-- `glm_euler_yzx`: include/cglm/euler.h:283-314. -/
@[cglm]
def glm_euler_yzx (angles : V3 α) : M4 α :=
  let sx := sinf angles.x
  let cx := cosf angles.x
  let sy := sinf angles.y
  let cy := cosf angles.y
  let sz := sinf angles.z
  let cz := cosf angles.z
  let sxsy := sx * sy
  let cxcy := cx * cy
  let cysx := cy * sx
  let cxsy := cx * sy
  ⟨⟨cy * cz, sz, (-cz) * sy, lit 0⟩, ⟨sxsy - cxcy * sz, cx * cz, cysx + cxsy * sz, lit 0⟩, ⟨cxsy + cysx * sz, (-cz) * sx, cxcy - sxsy * sz, lit 0⟩, ⟨lit 0, lit 0, lit 0, lit 1⟩⟩

/-- `glm_euler_zxy`: include/cglm/euler.h:322-352. -/
@[cglm]
def glm_euler_zxy (angles : V3 α) : M4 α :=
  let sx := sinf angles.x
  let cx := cosf angles.x
  let sy := sinf angles.y
  let cy := cosf angles.y
  let sz := sinf angles.z
  let cz := cosf angles.z
  let cycz := cy * cz
  let sxsy := sx * sy
  let cysz := cy * sz
  ⟨⟨cycz - sxsy * sz, cz * sxsy + cysz, (-cx) * sy, lit 0⟩, ⟨(-cx) * sz, cx * cz, sx, lit 0⟩, ⟨cz * sy + cysz * sx, (-cycz) * sx + sy * sz, cx * cy, lit 0⟩, ⟨lit 0, lit 0, lit 0, lit 1⟩⟩

/-- `glm_euler_zyx`: include/cglm/euler.h:360-390. -/
@[cglm]
def glm_euler_zyx (angles : V3 α) : M4 α :=
  let sx := sinf angles.x
  let cx := cosf angles.x
  let sy := sinf angles.y
  let cy := cosf angles.y
  let sz := sinf angles.z
  let cz := cosf angles.z
  let czsx := cz * sx
  let cxcz := cx * cz
  let sysz := sy * sz
  ⟨⟨cy * cz, cy * sz, -sy, lit 0⟩, ⟨czsx * sy - cx * sz, cxcz + sx * sysz, cy * sx, lit 0⟩, ⟨cxcz * sy + sx * sz, -czsx + cx * sysz, cx * cy, lit 0⟩, ⟨lit 0, lit 0, lit 0, lit 1⟩⟩

/-- `glm_euler_by_order`: include/cglm/euler.h:399-495. -/
@[cglm]
def glm_euler_by_order (angles : V3 α) (ord : Int) (dest : M4 α) : M4 α :=
  let sx := sinf angles.x
  let cx := cosf angles.x
  let sy := sinf angles.y
  let cy := cosf angles.y
  let sz := sinf angles.z
  let cz := cosf angles.z
  let cycz := cy * cz
  let cysz := cy * sz
  let cysx := cy * sx
  let cxcy := cx * cy
  let czsy := cz * sy
  let cxcz := cx * cz
  let czsx := cz * sx
  let cxsz := cx * sz
  let sysz := sy * sz
  if ieq ord 24 then
    ⟨⟨cycz, sx * sy + cx * cysz, (-cx) * sy + cysx * sz, lit 0⟩, ⟨-sz, cxcz, czsx, lit 0⟩, ⟨czsy, -cysx + cx * sysz, cxcy + sx * sysz, lit 0⟩, ⟨lit 0, lit 0, lit 0, lit 1⟩⟩
  else
    if ieq ord 36 then
      ⟨⟨cycz, czsx * sy + cxsz, (-cx) * czsy + sx * sz, lit 0⟩, ⟨-cysz, cxcz - sx * sysz, czsx + cx * sysz, lit 0⟩, ⟨sy, -cysx, cxcy, lit 0⟩, ⟨lit 0, lit 0, lit 0, lit 1⟩⟩
    else
      if ieq ord 33 then
        ⟨⟨cycz + sx * sysz, cxsz, -czsy + cysx * sz, lit 0⟩, ⟨czsx * sy - cysz, cxcz, cycz * sx + sysz, lit 0⟩, ⟨cx * sy, -sx, cxcy, lit 0⟩, ⟨lit 0, lit 0, lit 0, lit 1⟩⟩
      else
        if ieq ord 9 then
          ⟨⟨cycz, sz, -czsy, lit 0⟩, ⟨sx * sy - cx * cysz, cxcz, cysx + cx * sysz, lit 0⟩, ⟨cx * sy + cysx * sz, -czsx, cxcy - sx * sysz, lit 0⟩, ⟨lit 0, lit 0, lit 0, lit 1⟩⟩
        else
          if ieq ord 18 then
            ⟨⟨cycz - sx * sysz, czsx * sy + cysz, (-cx) * sy, lit 0⟩, ⟨-cxsz, cxcz, sx, lit 0⟩, ⟨czsy + cysx * sz, (-cycz) * sx + sysz, cxcy, lit 0⟩, ⟨lit 0, lit 0, lit 0, lit 1⟩⟩
          else
            if ieq ord 6 then
              ⟨⟨cycz, cysz, -sy, lit 0⟩, ⟨czsx * sy - cxsz, cxcz + sx * sysz, cysx, lit 0⟩, ⟨cx * czsy + sx * sz, -czsx + cx * sysz, cxcy, lit 0⟩, ⟨lit 0, lit 0, lit 0, lit 1⟩⟩
            else
              ⟨⟨dest.c0.x, dest.c0.y, dest.c0.z, lit 0⟩, ⟨dest.c1.x, dest.c1.y, dest.c1.z, lit 0⟩, ⟨dest.c2.x, dest.c2.y, dest.c2.z, lit 0⟩, ⟨lit 0, lit 0, lit 0, lit 1⟩⟩

/-- `glm_euler_xyz_quat`: include/cglm/euler.h:505-513. -/
@[cglm]
def glm_euler_xyz_quat (angles : V3 α) : V4 α :=
  glm_euler_xyz_quat_rh angles

/-- `glm_euler_xzy_quat`: include/cglm/euler.h:522-530. -/
@[cglm]
def glm_euler_xzy_quat (angles : V3 α) : V4 α :=
  glm_euler_xzy_quat_rh angles

/-- `glm_euler_yxz_quat`: include/cglm/euler.h:539-547. -/
@[cglm]
def glm_euler_yxz_quat (angles : V3 α) : V4 α :=
  glm_euler_yxz_quat_rh angles

/-- `glm_euler_yzx_quat`: include/cglm/euler.h:556-564. -/
@[cglm]
def glm_euler_yzx_quat (angles : V3 α) : V4 α :=
  glm_euler_yzx_quat_rh angles

/-- `glm_euler_zxy_quat`: include/cglm/euler.h:573-581. -/
@[cglm]
def glm_euler_zxy_quat (angles : V3 α) : V4 α :=
  glm_euler_zxy_quat_rh angles

/-- `glm_euler_zyx_quat`: include/cglm/euler.h:590-598. -/
@[cglm]
def glm_euler_zyx_quat (angles : V3 α) : V4 α :=
  glm_euler_zyx_quat_rh angles

end Cglm
