/- Generated by tools/memgen.py, joined by tools/merge.py; do not edit by hand. -/
import Verif.CMemTypes
import Verif.Gen.HandedEulerToQuatRh
import Verif.Mem.Quats
import Verif.Gen.Euler
import Verif.Gen.HandedEulerToQuatLh
import Verif.Gen.Quat
import Verif.Mem.AffinesRun
import Verif.Mem.MatsRun
import Verif.Mem.VecsRun

section HandedEulerToQuatRhRun

/-! Runs of the functions of include/cglm/handed/euler_to_quat_rh.h on canonical memories. -/

set_option linter.unusedVariables false
set_option linter.unusedSectionVars false

namespace Cglm
open CMem

variable {α : Type} [Add α] [Sub α] [Mul α] [Div α] [Neg α] [CFloat α]

theorem glm_euler_xyz_quat_rh_run (angles : V3 α) :
    C.glm_euler_xyz_quat_rh.runT (α := α) [⟨false, angles.list.map .f⟩, ⟨true, List.replicate 4 .undef⟩] [.p 0 0, .p 1 0] =
      .done (some (none, [⟨false, angles.list.map .f⟩, ⟨true, (Cglm.glm_euler_xyz_quat_rh angles).list.map .f⟩])) := by kernel_rfl
theorem glm_euler_xzy_quat_rh_run (angles : V3 α) :
    C.glm_euler_xzy_quat_rh.runT (α := α) [⟨false, angles.list.map .f⟩, ⟨true, List.replicate 4 .undef⟩] [.p 0 0, .p 1 0] =
      .done (some (none, [⟨false, angles.list.map .f⟩, ⟨true, (Cglm.glm_euler_xzy_quat_rh angles).list.map .f⟩])) := by kernel_rfl
theorem glm_euler_yxz_quat_rh_run (angles : V3 α) :
    C.glm_euler_yxz_quat_rh.runT (α := α) [⟨false, angles.list.map .f⟩, ⟨true, List.replicate 4 .undef⟩] [.p 0 0, .p 1 0] =
      .done (some (none, [⟨false, angles.list.map .f⟩, ⟨true, (Cglm.glm_euler_yxz_quat_rh angles).list.map .f⟩])) := by kernel_rfl
theorem glm_euler_yzx_quat_rh_run (angles : V3 α) :
    C.glm_euler_yzx_quat_rh.runT (α := α) [⟨false, angles.list.map .f⟩, ⟨true, List.replicate 4 .undef⟩] [.p 0 0, .p 1 0] =
      .done (some (none, [⟨false, angles.list.map .f⟩, ⟨true, (Cglm.glm_euler_yzx_quat_rh angles).list.map .f⟩])) := by kernel_rfl
theorem glm_euler_zxy_quat_rh_run (angles : V3 α) :
    C.glm_euler_zxy_quat_rh.runT (α := α) [⟨false, angles.list.map .f⟩, ⟨true, List.replicate 4 .undef⟩] [.p 0 0, .p 1 0] =
      .done (some (none, [⟨false, angles.list.map .f⟩, ⟨true, (Cglm.glm_euler_zxy_quat_rh angles).list.map .f⟩])) := by kernel_rfl
theorem glm_euler_zyx_quat_rh_run (angles : V3 α) :
    C.glm_euler_zyx_quat_rh.runT (α := α) [⟨false, angles.list.map .f⟩, ⟨true, List.replicate 4 .undef⟩] [.p 0 0, .p 1 0] =
      .done (some (none, [⟨false, angles.list.map .f⟩, ⟨true, (Cglm.glm_euler_zyx_quat_rh angles).list.map .f⟩])) := by kernel_rfl

end Cglm

end HandedEulerToQuatRhRun

section EulerRun

/-! Runs of the functions of include/cglm/euler.h on canonical memories. -/

set_option linter.unusedVariables false
set_option linter.unusedSectionVars false

namespace Cglm
open CMem

variable {α : Type} [Add α] [Sub α] [Mul α] [Div α] [Neg α] [CFloat α]

/-- `glm_euler_angles` with its branches as a tree -/
def glm_euler_angles_dt (m : M4 α) : DT (V3 α) :=
  let m00 := m.c0.x
  let m10 := m.c1.x
  let m20 := m.c2.x
  let m01 := m.c0.y
  let m11 := m.c1.y
  let m21 := m.c2.y
  let m22 := m.c2.z
  .br (flt m20 (lit 1)) (
    .br (flt (-(lit 1)) m20) (
      let thetaY := asinf m20
      let thetaX := atan2f (-m21) m22
      .done ⟨thetaX, thetaY, atan2f (-m10) m00⟩) (
      let thetaY := -(lit 1.57079632679489661923132169163975144)
      .done ⟨-atan2f m01 m11, thetaY, lit 0⟩)) (
    .done ⟨atan2f m01 m11, lit 1.57079632679489661923132169163975144, lit 0⟩)
theorem glm_euler_angles_dt_val (m : M4 α) : (glm_euler_angles_dt m).val = Cglm.glm_euler_angles m := by
  unfold glm_euler_angles_dt
  simp only [DT.val]
  kernel_rfl
theorem glm_euler_angles_run (m : M4 α) :
    C.glm_euler_angles.runT (α := α) [⟨false, m.list.map .f⟩, ⟨true, List.replicate 3 .undef⟩] [.p 0 0, .p 1 0] =
      (Cglm.glm_euler_angles_dt m).map fun r => some (none, [⟨false, m.list.map .f⟩, ⟨true, r.list.map .f⟩]) := by kernel_rfl
theorem glm_euler_xyz_run (angles : V3 α) :
    C.glm_euler_xyz.runT (α := α) [⟨false, angles.list.map .f⟩, ⟨true, List.replicate 16 .undef⟩] [.p 0 0, .p 1 0] =
      .done (some (none, [⟨false, angles.list.map .f⟩, ⟨true, (Cglm.glm_euler_xyz angles).list.map .f⟩])) := by kernel_rfl
theorem glm_euler_run (angles : V3 α) :
    C.glm_euler.runT (α := α) [⟨false, angles.list.map .f⟩, ⟨true, List.replicate 16 .undef⟩] [.p 0 0, .p 1 0] =
      .done (some (none, [⟨false, angles.list.map .f⟩, ⟨true, (Cglm.glm_euler angles).list.map .f⟩])) := by kernel_rfl
theorem glm_euler_xzy_run (angles : V3 α) :
    C.glm_euler_xzy.runT (α := α) [⟨false, angles.list.map .f⟩, ⟨true, List.replicate 16 .undef⟩] [.p 0 0, .p 1 0] =
      .done (some (none, [⟨false, angles.list.map .f⟩, ⟨true, (Cglm.glm_euler_xzy angles).list.map .f⟩])) := by kernel_rfl
theorem glm_euler_yxz_run (angles : V3 α) :
    C.glm_euler_yxz.runT (α := α) [⟨false, angles.list.map .f⟩, ⟨true, List.replicate 16 .undef⟩] [.p 0 0, .p 1 0] =
      .done (some (none, [⟨false, angles.list.map .f⟩, ⟨true, (Cglm.glm_euler_yxz angles).list.map .f⟩])) := by kernel_rfl
theorem glm_euler_yzx_run (angles : V3 α) :
    C.glm_euler_yzx.runT (α := α) [⟨false, angles.list.map .f⟩, ⟨true, List.replicate 16 .undef⟩] [.p 0 0, .p 1 0] =
      .done (some (none, [⟨false, angles.list.map .f⟩, ⟨true, (Cglm.glm_euler_yzx angles).list.map .f⟩])) := by kernel_rfl
theorem glm_euler_zxy_run (angles : V3 α) :
    C.glm_euler_zxy.runT (α := α) [⟨false, angles.list.map .f⟩, ⟨true, List.replicate 16 .undef⟩] [.p 0 0, .p 1 0] =
      .done (some (none, [⟨false, angles.list.map .f⟩, ⟨true, (Cglm.glm_euler_zxy angles).list.map .f⟩])) := by kernel_rfl
theorem glm_euler_zyx_run (angles : V3 α) :
    C.glm_euler_zyx.runT (α := α) [⟨false, angles.list.map .f⟩, ⟨true, List.replicate 16 .undef⟩] [.p 0 0, .p 1 0] =
      .done (some (none, [⟨false, angles.list.map .f⟩, ⟨true, (Cglm.glm_euler_zyx angles).list.map .f⟩])) := by kernel_rfl
/-- `glm_euler_by_order` with its branches as a tree -/
def glm_euler_by_order_dt (angles : V3 α) (ord : Int) (dest : M4 α) : DT (M4 α) :=
  let sx := sinf angles.x
  let cx := cosf angles.x
  let sy := sinf angles.y
  let cy := cosf angles.y
  let sz := sinf angles.z
  let cz := cosf angles.z
  let cycz := cy * cz
  let cysz := cy * sz
  let cysx := cy * sx
  let cxcy := cx * cy
  let czsy := cz * sy
  let cxcz := cx * cz
  let czsx := cz * sx
  let cxsz := cx * sz
  let sysz := sy * sz
  .br (ieq ord 24) (
    .done ⟨⟨cycz, sx * sy + cx * cysz, (-cx) * sy + cysx * sz, lit 0⟩, ⟨-sz, cxcz, czsx, lit 0⟩, ⟨czsy, -cysx + cx * sysz, cxcy + sx * sysz, lit 0⟩, ⟨lit 0, lit 0, lit 0, lit 1⟩⟩) (
    .br (ieq ord 36) (
      .done ⟨⟨cycz, czsx * sy + cxsz, (-cx) * czsy + sx * sz, lit 0⟩, ⟨-cysz, cxcz - sx * sysz, czsx + cx * sysz, lit 0⟩, ⟨sy, -cysx, cxcy, lit 0⟩, ⟨lit 0, lit 0, lit 0, lit 1⟩⟩) (
      .br (ieq ord 33) (
        .done ⟨⟨cycz + sx * sysz, cxsz, -czsy + cysx * sz, lit 0⟩, ⟨czsx * sy - cysz, cxcz, cycz * sx + sysz, lit 0⟩, ⟨cx * sy, -sx, cxcy, lit 0⟩, ⟨lit 0, lit 0, lit 0, lit 1⟩⟩) (
        .br (ieq ord 9) (
          .done ⟨⟨cycz, sz, -czsy, lit 0⟩, ⟨sx * sy - cx * cysz, cxcz, cysx + cx * sysz, lit 0⟩, ⟨cx * sy + cysx * sz, -czsx, cxcy - sx * sysz, lit 0⟩, ⟨lit 0, lit 0, lit 0, lit 1⟩⟩) (
          .br (ieq ord 18) (
            .done ⟨⟨cycz - sx * sysz, czsx * sy + cysz, (-cx) * sy, lit 0⟩, ⟨-cxsz, cxcz, sx, lit 0⟩, ⟨czsy + cysx * sz, (-cycz) * sx + sysz, cxcy, lit 0⟩, ⟨lit 0, lit 0, lit 0, lit 1⟩⟩) (
            .br (ieq ord 6) (
              .done ⟨⟨cycz, cysz, -sy, lit 0⟩, ⟨czsx * sy - cxsz, cxcz + sx * sysz, cysx, lit 0⟩, ⟨cx * czsy + sx * sz, -czsx + cx * sysz, cxcy, lit 0⟩, ⟨lit 0, lit 0, lit 0, lit 1⟩⟩) (
              .done ⟨⟨dest.c0.x, dest.c0.y, dest.c0.z, lit 0⟩, ⟨dest.c1.x, dest.c1.y, dest.c1.z, lit 0⟩, ⟨dest.c2.x, dest.c2.y, dest.c2.z, lit 0⟩, ⟨lit 0, lit 0, lit 0, lit 1⟩⟩))))))
theorem glm_euler_by_order_dt_val (angles : V3 α) (ord : Int) (dest : M4 α) : (glm_euler_by_order_dt angles ord dest).val = Cglm.glm_euler_by_order angles ord dest := by
  unfold glm_euler_by_order_dt
  simp only [DT.val]
  kernel_rfl
theorem glm_euler_by_order_run (angles : V3 α) (ord : Int) (dest : M4 α) :
    C.glm_euler_by_order.runT (α := α) [⟨false, angles.list.map .f⟩, ⟨true, dest.list.map .f⟩] [.p 0 0, .i ord, .p 1 0] =
      (Cglm.glm_euler_by_order_dt angles ord dest).map fun r => some (none, [⟨false, angles.list.map .f⟩, ⟨true, r.list.map .f⟩]) := by kernel_rfl
theorem glm_euler_xyz_quat_run (angles : V3 α) :
    C.glm_euler_xyz_quat.runT (α := α) [⟨false, angles.list.map .f⟩, ⟨true, List.replicate 4 .undef⟩] [.p 0 0, .p 1 0] =
      .done (some (none, [⟨false, angles.list.map .f⟩, ⟨true, (Cglm.glm_euler_xyz_quat angles).list.map .f⟩])) := by kernel_rfl
theorem glm_euler_xzy_quat_run (angles : V3 α) :
    C.glm_euler_xzy_quat.runT (α := α) [⟨false, angles.list.map .f⟩, ⟨true, List.replicate 4 .undef⟩] [.p 0 0, .p 1 0] =
      .done (some (none, [⟨false, angles.list.map .f⟩, ⟨true, (Cglm.glm_euler_xzy_quat angles).list.map .f⟩])) := by kernel_rfl
theorem glm_euler_yxz_quat_run (angles : V3 α) :
    C.glm_euler_yxz_quat.runT (α := α) [⟨false, angles.list.map .f⟩, ⟨true, List.replicate 4 .undef⟩] [.p 0 0, .p 1 0] =
      .done (some (none, [⟨false, angles.list.map .f⟩, ⟨true, (Cglm.glm_euler_yxz_quat angles).list.map .f⟩])) := by kernel_rfl
theorem glm_euler_yzx_quat_run (angles : V3 α) :
    C.glm_euler_yzx_quat.runT (α := α) [⟨false, angles.list.map .f⟩, ⟨true, List.replicate 4 .undef⟩] [.p 0 0, .p 1 0] =
      .done (some (none, [⟨false, angles.list.map .f⟩, ⟨true, (Cglm.glm_euler_yzx_quat angles).list.map .f⟩])) := by kernel_rfl
theorem glm_euler_zxy_quat_run (angles : V3 α) :
    C.glm_euler_zxy_quat.runT (α := α) [⟨false, angles.list.map .f⟩, ⟨true, List.replicate 4 .undef⟩] [.p 0 0, .p 1 0] =
      .done (some (none, [⟨false, angles.list.map .f⟩, ⟨true, (Cglm.glm_euler_zxy_quat angles).list.map .f⟩])) := by kernel_rfl
theorem glm_euler_zyx_quat_run (angles : V3 α) :
    C.glm_euler_zyx_quat.runT (α := α) [⟨false, angles.list.map .f⟩, ⟨true, List.replicate 4 .undef⟩] [.p 0 0, .p 1 0] =
      .done (some (none, [⟨false, angles.list.map .f⟩, ⟨true, (Cglm.glm_euler_zyx_quat angles).list.map .f⟩])) := by kernel_rfl

end Cglm

end EulerRun

section HandedEulerToQuatLhRun

/-! Runs of the functions of include/cglm/handed/euler_to_quat_lh.h on canonical memories. -/

set_option linter.unusedVariables false
set_option linter.unusedSectionVars false

namespace Cglm
open CMem

variable {α : Type} [Add α] [Sub α] [Mul α] [Div α] [Neg α] [CFloat α]

theorem glm_euler_xyz_quat_lh_run (angles : V3 α) :
    C.glm_euler_xyz_quat_lh.runT (α := α) [⟨false, angles.list.map .f⟩, ⟨true, List.replicate 4 .undef⟩] [.p 0 0, .p 1 0] =
      .done (some (none, [⟨false, angles.list.map .f⟩, ⟨true, (Cglm.glm_euler_xyz_quat_lh angles).list.map .f⟩])) := by kernel_rfl
theorem glm_euler_xzy_quat_lh_run (angles : V3 α) :
    C.glm_euler_xzy_quat_lh.runT (α := α) [⟨false, angles.list.map .f⟩, ⟨true, List.replicate 4 .undef⟩] [.p 0 0, .p 1 0] =
      .done (some (none, [⟨false, angles.list.map .f⟩, ⟨true, (Cglm.glm_euler_xzy_quat_lh angles).list.map .f⟩])) := by kernel_rfl
theorem glm_euler_yxz_quat_lh_run (angles : V3 α) :
    C.glm_euler_yxz_quat_lh.runT (α := α) [⟨false, angles.list.map .f⟩, ⟨true, List.replicate 4 .undef⟩] [.p 0 0, .p 1 0] =
      .done (some (none, [⟨false, angles.list.map .f⟩, ⟨true, (Cglm.glm_euler_yxz_quat_lh angles).list.map .f⟩])) := by kernel_rfl
theorem glm_euler_yzx_quat_lh_run (angles : V3 α) :
    C.glm_euler_yzx_quat_lh.runT (α := α) [⟨false, angles.list.map .f⟩, ⟨true, List.replicate 4 .undef⟩] [.p 0 0, .p 1 0] =
      .done (some (none, [⟨false, angles.list.map .f⟩, ⟨true, (Cglm.glm_euler_yzx_quat_lh angles).list.map .f⟩])) := by kernel_rfl
theorem glm_euler_zxy_quat_lh_run (angles : V3 α) :
    C.glm_euler_zxy_quat_lh.runT (α := α) [⟨false, angles.list.map .f⟩, ⟨true, List.replicate 4 .undef⟩] [.p 0 0, .p 1 0] =
      .done (some (none, [⟨false, angles.list.map .f⟩, ⟨true, (Cglm.glm_euler_zxy_quat_lh angles).list.map .f⟩])) := by kernel_rfl
theorem glm_euler_zyx_quat_lh_run (angles : V3 α) :
    C.glm_euler_zyx_quat_lh.runT (α := α) [⟨false, angles.list.map .f⟩, ⟨true, List.replicate 4 .undef⟩] [.p 0 0, .p 1 0] =
      .done (some (none, [⟨false, angles.list.map .f⟩, ⟨true, (Cglm.glm_euler_zyx_quat_lh angles).list.map .f⟩])) := by kernel_rfl

end Cglm

end HandedEulerToQuatLhRun

section QuatRun

/-! Runs of the functions of include/cglm/quat.h on canonical memories. -/

set_option linter.unusedVariables false
set_option linter.unusedSectionVars false

namespace Cglm
open CMem

variable {α : Type} [Add α] [Sub α] [Mul α] [Div α] [Neg α] [CFloat α]

theorem glm_quat_identity_run :
    C.glm_quat_identity.runT (α := α) [⟨true, List.replicate 4 .undef⟩] [.p 0 0] =
      .done (some (none, [⟨true, (Cglm.glm_quat_identity).list.map .f⟩])) := by kernel_rfl
theorem glm_quat_init_run (x : α) (y : α) (z : α) (w : α) :
    C.glm_quat_init.runT (α := α) [⟨true, List.replicate 4 .undef⟩] [.p 0 0, .f x, .f y, .f z, .f w] =
      .done (some (none, [⟨true, (Cglm.glm_quat_init x y z w).list.map .f⟩])) := by kernel_rfl
/-- `glm_quatv` with its branches as a tree -/
def glm_quatv_dt (angle : α) (axis : V3 α) : DT (V4 α) :=
  let a := angle * (lit 0.5)
  let c := cosf a
  let s := sinf a
  DT.bind (glm_normalize_to_dt axis) fun k =>
  .done ⟨s * k.x, s * k.y, s * k.z, c⟩
theorem glm_quatv_dt_val (angle : α) (axis : V3 α) : (glm_quatv_dt angle axis).val = Cglm.glm_quatv angle axis := by
  unfold glm_quatv_dt
  simp only [DT.val_bind, DT.val, glm_normalize_to_dt_val]
  kernel_rfl
theorem glm_quatv_run (angle : α) (axis : V3 α) :
    C.glm_quatv.runT (α := α) [⟨true, List.replicate 4 .undef⟩, ⟨false, axis.list.map .f⟩] [.p 0 0, .f angle, .p 1 0] =
      (Cglm.glm_quatv_dt angle axis).map fun r => some (none, [⟨true, r.list.map .f⟩, ⟨false, axis.list.map .f⟩]) := by kernel_rfl
/-- `glm_quat` with its branches as a tree -/
def glm_quat_dt (angle : α) (x : α) (y : α) (z : α) : DT (V4 α) :=
  DT.bind (glm_quatv_dt angle ⟨x, y, z⟩) fun q_1 =>
  .done q_1
theorem glm_quat_dt_val (angle : α) (x : α) (y : α) (z : α) : (glm_quat_dt angle x y z).val = Cglm.glm_quat angle x y z := by
  unfold glm_quat_dt
  simp only [DT.val_bind, DT.val, glm_quatv_dt_val]
  kernel_rfl
theorem glm_quat_run (angle : α) (x : α) (y : α) (z : α) :
    C.glm_quat.runT (α := α) [⟨true, List.replicate 4 .undef⟩] [.p 0 0, .f angle, .f x, .f y, .f z] =
      (Cglm.glm_quat_dt angle x y z).map fun r => some (none, [⟨true, r.list.map .f⟩]) := by kernel_rfl
theorem glm_quat_copy_run (q : V4 α) :
    C.glm_quat_copy.runT (α := α) [⟨false, q.list.map .f⟩, ⟨true, List.replicate 4 .undef⟩] [.p 0 0, .p 1 0] =
      .done (some (none, [⟨false, q.list.map .f⟩, ⟨true, (Cglm.glm_quat_copy q).list.map .f⟩])) := by kernel_rfl
theorem glm_quat_copy_run_q (q : V4 α) :
    C.glm_quat_copy.runT (α := α) [⟨true, q.list.map .f⟩] [.p 0 0, .p 0 0] =
      .done (some (none, [⟨true, (Cglm.glm_quat_copy q).list.map .f⟩])) := by kernel_rfl
theorem glm_quat_norm_run (q : V4 α) :
    C.glm_quat_norm.runT (α := α) [⟨false, q.list.map .f⟩] [.p 0 0] =
      .done (some (some (.f (Cglm.glm_quat_norm q)), [⟨false, q.list.map .f⟩])) := by kernel_rfl
/-- `glm_quat_normalize_to` with its branches as a tree -/
def glm_quat_normalize_to_dt (q : V4 α) : DT (V4 α) :=
  let dot := glm_vec4_norm2 q
  .br (fle dot (lit 0)) (
    .done glm_quat_identity) (
    .done (glm_vec4_scale q ((lit 1) / sqrtf dot)))
theorem glm_quat_normalize_to_dt_val (q : V4 α) : (glm_quat_normalize_to_dt q).val = Cglm.glm_quat_normalize_to q := by
  unfold glm_quat_normalize_to_dt
  simp only [DT.val]
  kernel_rfl
theorem glm_quat_normalize_to_run (q : V4 α) :
    C.glm_quat_normalize_to.runT (α := α) [⟨false, q.list.map .f⟩, ⟨true, List.replicate 4 .undef⟩] [.p 0 0, .p 1 0] =
      (Cglm.glm_quat_normalize_to_dt q).map fun r => some (none, [⟨false, q.list.map .f⟩, ⟨true, r.list.map .f⟩]) := by kernel_rfl
theorem glm_quat_normalize_to_run_q (q : V4 α) :
    C.glm_quat_normalize_to.runT (α := α) [⟨true, q.list.map .f⟩] [.p 0 0, .p 0 0] =
      (Cglm.glm_quat_normalize_to_dt q).map fun r => some (none, [⟨true, r.list.map .f⟩]) := by kernel_rfl
/-- `glm_quat_normalize` with its branches as a tree -/
def glm_quat_normalize_dt (q : V4 α) : DT (V4 α) :=
  DT.bind (glm_quat_normalize_to_dt q) fun q_1 =>
  .done q_1
theorem glm_quat_normalize_dt_val (q : V4 α) : (glm_quat_normalize_dt q).val = Cglm.glm_quat_normalize q := by
  unfold glm_quat_normalize_dt
  simp only [DT.val_bind, DT.val, glm_quat_normalize_to_dt_val]
  kernel_rfl
theorem glm_quat_normalize_run (q : V4 α) :
    C.glm_quat_normalize.runT (α := α) [⟨true, q.list.map .f⟩] [.p 0 0] =
      (Cglm.glm_quat_normalize_dt q).map fun r => some (none, [⟨true, r.list.map .f⟩]) := by kernel_rfl
theorem glm_quat_dot_run (p : V4 α) (q : V4 α) :
    C.glm_quat_dot.runT (α := α) [⟨false, p.list.map .f⟩, ⟨false, q.list.map .f⟩] [.p 0 0, .p 1 0] =
      .done (some (some (.f (Cglm.glm_quat_dot p q)), [⟨false, p.list.map .f⟩, ⟨false, q.list.map .f⟩])) := by kernel_rfl
theorem glm_quat_conjugate_run (q : V4 α) :
    C.glm_quat_conjugate.runT (α := α) [⟨false, q.list.map .f⟩, ⟨true, List.replicate 4 .undef⟩] [.p 0 0, .p 1 0] =
      .done (some (none, [⟨false, q.list.map .f⟩, ⟨true, (Cglm.glm_quat_conjugate q).list.map .f⟩])) := by kernel_rfl
theorem glm_quat_conjugate_run_q (q : V4 α) :
    C.glm_quat_conjugate.runT (α := α) [⟨true, q.list.map .f⟩] [.p 0 0, .p 0 0] =
      .done (some (none, [⟨true, (Cglm.glm_quat_conjugate q).list.map .f⟩])) := by kernel_rfl
theorem glm_quat_inv_run (q : V4 α) :
    C.glm_quat_inv.runT (α := α) [⟨false, q.list.map .f⟩, ⟨true, List.replicate 4 .undef⟩] [.p 0 0, .p 1 0] =
      .done (some (none, [⟨false, q.list.map .f⟩, ⟨true, (Cglm.glm_quat_inv q).list.map .f⟩])) := by kernel_rfl
theorem glm_quat_inv_run_q (q : V4 α) :
    C.glm_quat_inv.runT (α := α) [⟨true, q.list.map .f⟩] [.p 0 0, .p 0 0] =
      .done (some (none, [⟨true, (Cglm.glm_quat_inv q).list.map .f⟩])) := by kernel_rfl
theorem glm_quat_add_run (p : V4 α) (q : V4 α) :
    C.glm_quat_add.runT (α := α) [⟨false, p.list.map .f⟩, ⟨false, q.list.map .f⟩, ⟨true, List.replicate 4 .undef⟩] [.p 0 0, .p 1 0, .p 2 0] =
      .done (some (none, [⟨false, p.list.map .f⟩, ⟨false, q.list.map .f⟩, ⟨true, (Cglm.glm_quat_add p q).list.map .f⟩])) := by kernel_rfl
theorem glm_quat_add_run_q (p : V4 α) (q : V4 α) :
    C.glm_quat_add.runT (α := α) [⟨false, p.list.map .f⟩, ⟨true, q.list.map .f⟩] [.p 0 0, .p 1 0, .p 1 0] =
      .done (some (none, [⟨false, p.list.map .f⟩, ⟨true, (Cglm.glm_quat_add p q).list.map .f⟩])) := by kernel_rfl
theorem glm_quat_add_run_p (p : V4 α) (q : V4 α) :
    C.glm_quat_add.runT (α := α) [⟨false, q.list.map .f⟩, ⟨true, p.list.map .f⟩] [.p 1 0, .p 0 0, .p 1 0] =
      .done (some (none, [⟨false, q.list.map .f⟩, ⟨true, (Cglm.glm_quat_add p q).list.map .f⟩])) := by kernel_rfl
theorem glm_quat_add_run_p_q (p : V4 α) :
    C.glm_quat_add.runT (α := α) [⟨true, p.list.map .f⟩] [.p 0 0, .p 0 0, .p 0 0] =
      .done (some (none, [⟨true, (Cglm.glm_quat_add p p).list.map .f⟩])) := by kernel_rfl
theorem glm_quat_sub_run (p : V4 α) (q : V4 α) :
    C.glm_quat_sub.runT (α := α) [⟨false, p.list.map .f⟩, ⟨false, q.list.map .f⟩, ⟨true, List.replicate 4 .undef⟩] [.p 0 0, .p 1 0, .p 2 0] =
      .done (some (none, [⟨false, p.list.map .f⟩, ⟨false, q.list.map .f⟩, ⟨true, (Cglm.glm_quat_sub p q).list.map .f⟩])) := by kernel_rfl
theorem glm_quat_sub_run_q (p : V4 α) (q : V4 α) :
    C.glm_quat_sub.runT (α := α) [⟨false, p.list.map .f⟩, ⟨true, q.list.map .f⟩] [.p 0 0, .p 1 0, .p 1 0] =
      .done (some (none, [⟨false, p.list.map .f⟩, ⟨true, (Cglm.glm_quat_sub p q).list.map .f⟩])) := by kernel_rfl
theorem glm_quat_sub_run_p (p : V4 α) (q : V4 α) :
    C.glm_quat_sub.runT (α := α) [⟨false, q.list.map .f⟩, ⟨true, p.list.map .f⟩] [.p 1 0, .p 0 0, .p 1 0] =
      .done (some (none, [⟨false, q.list.map .f⟩, ⟨true, (Cglm.glm_quat_sub p q).list.map .f⟩])) := by kernel_rfl
theorem glm_quat_sub_run_p_q (p : V4 α) :
    C.glm_quat_sub.runT (α := α) [⟨true, p.list.map .f⟩] [.p 0 0, .p 0 0, .p 0 0] =
      .done (some (none, [⟨true, (Cglm.glm_quat_sub p p).list.map .f⟩])) := by kernel_rfl
theorem glm_quat_real_run (q : V4 α) :
    C.glm_quat_real.runT (α := α) [⟨false, q.list.map .f⟩] [.p 0 0] =
      .done (some (some (.f (Cglm.glm_quat_real q)), [⟨false, q.list.map .f⟩])) := by kernel_rfl
theorem glm_quat_imag_run (q : V4 α) :
    C.glm_quat_imag.runT (α := α) [⟨false, q.list.map .f⟩, ⟨true, List.replicate 3 .undef⟩] [.p 0 0, .p 1 0] =
      .done (some (none, [⟨false, q.list.map .f⟩, ⟨true, (Cglm.glm_quat_imag q).list.map .f⟩])) := by kernel_rfl
/-- `glm_quat_imagn` with its branches as a tree -/
def glm_quat_imagn_dt (q : V4 α) : DT (V3 α) :=
  DT.bind (glm_normalize_to_dt ⟨q.x, q.y, q.z⟩) fun dest_1 =>
  .done dest_1
theorem glm_quat_imagn_dt_val (q : V4 α) : (glm_quat_imagn_dt q).val = Cglm.glm_quat_imagn q := by
  unfold glm_quat_imagn_dt
  simp only [DT.val_bind, DT.val, glm_normalize_to_dt_val]
  kernel_rfl
theorem glm_quat_imagn_run (q : V4 α) :
    C.glm_quat_imagn.runT (α := α) [⟨false, q.list.map .f⟩, ⟨true, List.replicate 3 .undef⟩] [.p 0 0, .p 1 0] =
      (Cglm.glm_quat_imagn_dt q).map fun r => some (none, [⟨false, q.list.map .f⟩, ⟨true, r.list.map .f⟩]) := by kernel_rfl
theorem glm_quat_imaglen_run (q : V4 α) :
    C.glm_quat_imaglen.runT (α := α) [⟨false, q.list.map .f⟩] [.p 0 0] =
      .done (some (some (.f (Cglm.glm_quat_imaglen q)), [⟨false, q.list.map .f⟩])) := by kernel_rfl
theorem glm_quat_angle_run (q : V4 α) :
    C.glm_quat_angle.runT (α := α) [⟨false, q.list.map .f⟩] [.p 0 0] =
      .done (some (some (.f (Cglm.glm_quat_angle q)), [⟨false, q.list.map .f⟩])) := by kernel_rfl
/-- `glm_quat_axis` with its branches as a tree -/
def glm_quat_axis_dt (q : V4 α) : DT (V3 α) :=
  DT.bind (glm_quat_imagn_dt q) fun dest_1 =>
  .done dest_1
theorem glm_quat_axis_dt_val (q : V4 α) : (glm_quat_axis_dt q).val = Cglm.glm_quat_axis q := by
  unfold glm_quat_axis_dt
  simp only [DT.val_bind, DT.val, glm_quat_imagn_dt_val]
  kernel_rfl
theorem glm_quat_axis_run (q : V4 α) :
    C.glm_quat_axis.runT (α := α) [⟨false, q.list.map .f⟩, ⟨true, List.replicate 3 .undef⟩] [.p 0 0, .p 1 0] =
      (Cglm.glm_quat_axis_dt q).map fun r => some (none, [⟨false, q.list.map .f⟩, ⟨true, r.list.map .f⟩]) := by kernel_rfl
theorem glm_quat_mul_run (p : V4 α) (q : V4 α) :
    C.glm_quat_mul.runT (α := α) [⟨false, p.list.map .f⟩, ⟨false, q.list.map .f⟩, ⟨true, List.replicate 4 .undef⟩] [.p 0 0, .p 1 0, .p 2 0] =
      .done (some (none, [⟨false, p.list.map .f⟩, ⟨false, q.list.map .f⟩, ⟨true, (Cglm.glm_quat_mul p q).list.map .f⟩])) := by kernel_rfl
theorem glm_quat_mat4_run (q : V4 α) :
    C.glm_quat_mat4.runT (α := α) [⟨false, q.list.map .f⟩, ⟨true, List.replicate 16 .undef⟩] [.p 0 0, .p 1 0] =
      .done (some (none, [⟨false, q.list.map .f⟩, ⟨true, (Cglm.glm_quat_mat4 q).list.map .f⟩])) := by kernel_rfl
theorem glm_quat_mat4t_run (q : V4 α) :
    C.glm_quat_mat4t.runT (α := α) [⟨false, q.list.map .f⟩, ⟨true, List.replicate 16 .undef⟩] [.p 0 0, .p 1 0] =
      .done (some (none, [⟨false, q.list.map .f⟩, ⟨true, (Cglm.glm_quat_mat4t q).list.map .f⟩])) := by kernel_rfl
theorem glm_quat_mat3_run (q : V4 α) :
    C.glm_quat_mat3.runT (α := α) [⟨false, q.list.map .f⟩, ⟨true, List.replicate 9 .undef⟩] [.p 0 0, .p 1 0] =
      .done (some (none, [⟨false, q.list.map .f⟩, ⟨true, (Cglm.glm_quat_mat3 q).list.map .f⟩])) := by kernel_rfl
theorem glm_quat_mat3t_run (q : V4 α) :
    C.glm_quat_mat3t.runT (α := α) [⟨false, q.list.map .f⟩, ⟨true, List.replicate 9 .undef⟩] [.p 0 0, .p 1 0] =
      .done (some (none, [⟨false, q.list.map .f⟩, ⟨true, (Cglm.glm_quat_mat3t q).list.map .f⟩])) := by kernel_rfl
theorem glm_quat_lerp_run (frm : V4 α) («to» : V4 α) (t : α) :
    C.glm_quat_lerp.runT (α := α) [⟨false, frm.list.map .f⟩, ⟨false, «to».list.map .f⟩, ⟨true, List.replicate 4 .undef⟩] [.p 0 0, .p 1 0, .f t, .p 2 0] =
      .done (some (none, [⟨false, frm.list.map .f⟩, ⟨false, «to».list.map .f⟩, ⟨true, (Cglm.glm_quat_lerp frm «to» t).list.map .f⟩])) := by kernel_rfl
theorem glm_quat_lerp_run_to (frm : V4 α) («to» : V4 α) (t : α) :
    C.glm_quat_lerp.runT (α := α) [⟨false, frm.list.map .f⟩, ⟨true, «to».list.map .f⟩] [.p 0 0, .p 1 0, .f t, .p 1 0] =
      .done (some (none, [⟨false, frm.list.map .f⟩, ⟨true, (Cglm.glm_quat_lerp frm «to» t).list.map .f⟩])) := by kernel_rfl
theorem glm_quat_lerp_run_from (frm : V4 α) («to» : V4 α) (t : α) :
    C.glm_quat_lerp.runT (α := α) [⟨false, «to».list.map .f⟩, ⟨true, frm.list.map .f⟩] [.p 1 0, .p 0 0, .f t, .p 1 0] =
      .done (some (none, [⟨false, «to».list.map .f⟩, ⟨true, (Cglm.glm_quat_lerp frm «to» t).list.map .f⟩])) := by kernel_rfl
theorem glm_quat_lerp_run_from_to (frm : V4 α) (t : α) :
    C.glm_quat_lerp.runT (α := α) [⟨true, frm.list.map .f⟩] [.p 0 0, .p 0 0, .f t, .p 0 0] =
      .done (some (none, [⟨true, (Cglm.glm_quat_lerp frm frm t).list.map .f⟩])) := by kernel_rfl
theorem glm_quat_lerpc_run (frm : V4 α) («to» : V4 α) (t : α) :
    C.glm_quat_lerpc.runT (α := α) [⟨false, frm.list.map .f⟩, ⟨false, «to».list.map .f⟩, ⟨true, List.replicate 4 .undef⟩] [.p 0 0, .p 1 0, .f t, .p 2 0] =
      .done (some (none, [⟨false, frm.list.map .f⟩, ⟨false, «to».list.map .f⟩, ⟨true, (Cglm.glm_quat_lerpc frm «to» t).list.map .f⟩])) := by kernel_rfl
theorem glm_quat_lerpc_run_to (frm : V4 α) («to» : V4 α) (t : α) :
    C.glm_quat_lerpc.runT (α := α) [⟨false, frm.list.map .f⟩, ⟨true, «to».list.map .f⟩] [.p 0 0, .p 1 0, .f t, .p 1 0] =
      .done (some (none, [⟨false, frm.list.map .f⟩, ⟨true, (Cglm.glm_quat_lerpc frm «to» t).list.map .f⟩])) := by kernel_rfl
theorem glm_quat_lerpc_run_from (frm : V4 α) («to» : V4 α) (t : α) :
    C.glm_quat_lerpc.runT (α := α) [⟨false, «to».list.map .f⟩, ⟨true, frm.list.map .f⟩] [.p 1 0, .p 0 0, .f t, .p 1 0] =
      .done (some (none, [⟨false, «to».list.map .f⟩, ⟨true, (Cglm.glm_quat_lerpc frm «to» t).list.map .f⟩])) := by kernel_rfl
theorem glm_quat_lerpc_run_from_to (frm : V4 α) (t : α) :
    C.glm_quat_lerpc.runT (α := α) [⟨true, frm.list.map .f⟩] [.p 0 0, .p 0 0, .f t, .p 0 0] =
      .done (some (none, [⟨true, (Cglm.glm_quat_lerpc frm frm t).list.map .f⟩])) := by kernel_rfl
/-- `glm_quat_nlerp` with its branches as a tree -/
def glm_quat_nlerp_dt (frm : V4 α) («to» : V4 α) (t : α) : DT (V4 α) :=
  let dot := glm_vec4_dot frm «to»
  let target := glm_vec4_scale «to» (if fle (lit 0) dot then lit 1 else -(lit 1))
  let dest_1 := glm_quat_lerp frm target t
  DT.bind (glm_quat_normalize_dt dest_1) fun dest_2 =>
  .done dest_2
theorem glm_quat_nlerp_dt_val (frm : V4 α) («to» : V4 α) (t : α) : (glm_quat_nlerp_dt frm «to» t).val = Cglm.glm_quat_nlerp frm «to» t := by
  unfold glm_quat_nlerp_dt
  simp only [DT.val_bind, DT.val, glm_quat_normalize_dt_val]
  kernel_rfl
theorem glm_quat_nlerp_run (frm : V4 α) («to» : V4 α) (t : α) :
    C.glm_quat_nlerp.runT (α := α) [⟨false, frm.list.map .f⟩, ⟨false, «to».list.map .f⟩, ⟨true, List.replicate 4 .undef⟩] [.p 0 0, .p 1 0, .f t, .p 2 0] =
      (Cglm.glm_quat_nlerp_dt frm «to» t).map fun r => some (none, [⟨false, frm.list.map .f⟩, ⟨false, «to».list.map .f⟩, ⟨true, r.list.map .f⟩]) := by kernel_rfl
theorem glm_quat_nlerp_run_to (frm : V4 α) («to» : V4 α) (t : α) :
    C.glm_quat_nlerp.runT (α := α) [⟨false, frm.list.map .f⟩, ⟨true, «to».list.map .f⟩] [.p 0 0, .p 1 0, .f t, .p 1 0] =
      (Cglm.glm_quat_nlerp_dt frm «to» t).map fun r => some (none, [⟨false, frm.list.map .f⟩, ⟨true, r.list.map .f⟩]) := by kernel_rfl
theorem glm_quat_nlerp_run_from (frm : V4 α) («to» : V4 α) (t : α) :
    C.glm_quat_nlerp.runT (α := α) [⟨false, «to».list.map .f⟩, ⟨true, frm.list.map .f⟩] [.p 1 0, .p 0 0, .f t, .p 1 0] =
      (Cglm.glm_quat_nlerp_dt frm «to» t).map fun r => some (none, [⟨false, «to».list.map .f⟩, ⟨true, r.list.map .f⟩]) := by kernel_rfl
theorem glm_quat_nlerp_run_from_to (frm : V4 α) (t : α) :
    C.glm_quat_nlerp.runT (α := α) [⟨true, frm.list.map .f⟩] [.p 0 0, .p 0 0, .f t, .p 0 0] =
      (Cglm.glm_quat_nlerp_dt frm frm t).map fun r => some (none, [⟨true, r.list.map .f⟩]) := by kernel_rfl
/-- `glm_quat_slerp` with its branches as a tree -/
def glm_quat_slerp_dt (frm : V4 α) («to» : V4 α) (t : α) : DT (V4 α) :=
  let cosTheta := glm_quat_dot frm «to»
  let q1 := glm_quat_copy frm
  .br (fle (lit 1) (fabsf cosTheta)) (
    .done (glm_quat_copy q1)) (
    .br (flt cosTheta (lit 0)) (
      let q1_1 := glm_vec4_negate q1
      let cosTheta_1 := -cosTheta
      let sinTheta := sqrtf ((lit 1) - cosTheta_1 * cosTheta_1)
      .br (flt (fabsf sinTheta) (lit 0.001)) (
        .done (glm_quat_lerp frm «to» t)) (
        let angle := acosf cosTheta_1
        let q1_2 := glm_vec4_scale q1_1 (sinf (((lit 1) - t) * angle))
        let q2 := glm_vec4_scale «to» (sinf (t * angle))
        let q1_3 := glm_vec4_add q1_2 q2
        .done (glm_vec4_scale q1_3 ((lit 1) / sinTheta)))) (
      let sinTheta := sqrtf ((lit 1) - cosTheta * cosTheta)
      .br (flt (fabsf sinTheta) (lit 0.001)) (
        .done (glm_quat_lerp frm «to» t)) (
        let angle := acosf cosTheta
        let q1_1 := glm_vec4_scale q1 (sinf (((lit 1) - t) * angle))
        let q2 := glm_vec4_scale «to» (sinf (t * angle))
        let q1_2 := glm_vec4_add q1_1 q2
        .done (glm_vec4_scale q1_2 ((lit 1) / sinTheta)))))
theorem glm_quat_slerp_dt_val (frm : V4 α) («to» : V4 α) (t : α) : (glm_quat_slerp_dt frm «to» t).val = Cglm.glm_quat_slerp frm «to» t := by
  unfold glm_quat_slerp_dt
  simp only [DT.val]
  kernel_rfl
theorem glm_quat_slerp_run (frm : V4 α) («to» : V4 α) (t : α) :
    C.glm_quat_slerp.runT (α := α) [⟨false, frm.list.map .f⟩, ⟨false, «to».list.map .f⟩, ⟨true, List.replicate 4 .undef⟩] [.p 0 0, .p 1 0, .f t, .p 2 0] =
      (Cglm.glm_quat_slerp_dt frm «to» t).map fun r => some (none, [⟨false, frm.list.map .f⟩, ⟨false, «to».list.map .f⟩, ⟨true, r.list.map .f⟩]) := by kernel_rfl
theorem glm_quat_slerp_run_to (frm : V4 α) («to» : V4 α) (t : α) :
    C.glm_quat_slerp.runT (α := α) [⟨false, frm.list.map .f⟩, ⟨true, «to».list.map .f⟩] [.p 0 0, .p 1 0, .f t, .p 1 0] =
      (Cglm.glm_quat_slerp_dt frm «to» t).map fun r => some (none, [⟨false, frm.list.map .f⟩, ⟨true, r.list.map .f⟩]) := by kernel_rfl
theorem glm_quat_slerp_run_from (frm : V4 α) («to» : V4 α) (t : α) :
    C.glm_quat_slerp.runT (α := α) [⟨false, «to».list.map .f⟩, ⟨true, frm.list.map .f⟩] [.p 1 0, .p 0 0, .f t, .p 1 0] =
      (Cglm.glm_quat_slerp_dt frm «to» t).map fun r => some (none, [⟨false, «to».list.map .f⟩, ⟨true, r.list.map .f⟩]) := by kernel_rfl
theorem glm_quat_slerp_run_from_to (frm : V4 α) (t : α) :
    C.glm_quat_slerp.runT (α := α) [⟨true, frm.list.map .f⟩] [.p 0 0, .p 0 0, .f t, .p 0 0] =
      (Cglm.glm_quat_slerp_dt frm frm t).map fun r => some (none, [⟨true, r.list.map .f⟩]) := by kernel_rfl
/-- `glm_quat_slerp_longest` with its branches as a tree -/
def glm_quat_slerp_longest_dt (frm : V4 α) («to» : V4 α) (t : α) : DT (V4 α) :=
  let cosTheta := glm_quat_dot frm «to»
  let q1 := glm_quat_copy frm
  .br (fle (lit 1) (fabsf cosTheta)) (
    .done (glm_quat_copy q1)) (
    .br (!(flt cosTheta (lit 0))) (
      let q1_1 := glm_vec4_negate q1
      let cosTheta_1 := -cosTheta
      let sinTheta := sqrtf ((lit 1) - cosTheta_1 * cosTheta_1)
      .br (flt (fabsf sinTheta) (lit 0.001)) (
        .done (glm_quat_lerp frm «to» t)) (
        let angle := acosf cosTheta_1
        let q1_2 := glm_vec4_scale q1_1 (sinf (((lit 1) - t) * angle))
        let q2 := glm_vec4_scale «to» (sinf (t * angle))
        let q1_3 := glm_vec4_add q1_2 q2
        .done (glm_vec4_scale q1_3 ((lit 1) / sinTheta)))) (
      let sinTheta := sqrtf ((lit 1) - cosTheta * cosTheta)
      .br (flt (fabsf sinTheta) (lit 0.001)) (
        .done (glm_quat_lerp frm «to» t)) (
        let angle := acosf cosTheta
        let q1_1 := glm_vec4_scale q1 (sinf (((lit 1) - t) * angle))
        let q2 := glm_vec4_scale «to» (sinf (t * angle))
        let q1_2 := glm_vec4_add q1_1 q2
        .done (glm_vec4_scale q1_2 ((lit 1) / sinTheta)))))
theorem glm_quat_slerp_longest_dt_val (frm : V4 α) («to» : V4 α) (t : α) : (glm_quat_slerp_longest_dt frm «to» t).val = Cglm.glm_quat_slerp_longest frm «to» t := by
  unfold glm_quat_slerp_longest_dt
  simp only [DT.val]
  kernel_rfl
theorem glm_quat_slerp_longest_run (frm : V4 α) («to» : V4 α) (t : α) :
    C.glm_quat_slerp_longest.runT (α := α) [⟨false, frm.list.map .f⟩, ⟨false, «to».list.map .f⟩, ⟨true, List.replicate 4 .undef⟩] [.p 0 0, .p 1 0, .f t, .p 2 0] =
      (Cglm.glm_quat_slerp_longest_dt frm «to» t).map fun r => some (none, [⟨false, frm.list.map .f⟩, ⟨false, «to».list.map .f⟩, ⟨true, r.list.map .f⟩]) := by kernel_rfl
theorem glm_quat_slerp_longest_run_to (frm : V4 α) («to» : V4 α) (t : α) :
    C.glm_quat_slerp_longest.runT (α := α) [⟨false, frm.list.map .f⟩, ⟨true, «to».list.map .f⟩] [.p 0 0, .p 1 0, .f t, .p 1 0] =
      (Cglm.glm_quat_slerp_longest_dt frm «to» t).map fun r => some (none, [⟨false, frm.list.map .f⟩, ⟨true, r.list.map .f⟩]) := by kernel_rfl
theorem glm_quat_slerp_longest_run_from (frm : V4 α) («to» : V4 α) (t : α) :
    C.glm_quat_slerp_longest.runT (α := α) [⟨false, «to».list.map .f⟩, ⟨true, frm.list.map .f⟩] [.p 1 0, .p 0 0, .f t, .p 1 0] =
      (Cglm.glm_quat_slerp_longest_dt frm «to» t).map fun r => some (none, [⟨false, «to».list.map .f⟩, ⟨true, r.list.map .f⟩]) := by kernel_rfl
theorem glm_quat_slerp_longest_run_from_to (frm : V4 α) (t : α) :
    C.glm_quat_slerp_longest.runT (α := α) [⟨true, frm.list.map .f⟩] [.p 0 0, .p 0 0, .f t, .p 0 0] =
      (Cglm.glm_quat_slerp_longest_dt frm frm t).map fun r => some (none, [⟨true, r.list.map .f⟩]) := by kernel_rfl
theorem glm_quat_look_run (eye : V3 α) (ori : V4 α) :
    C.glm_quat_look.runT (α := α) [⟨false, eye.list.map .f⟩, ⟨false, ori.list.map .f⟩, ⟨true, List.replicate 16 .undef⟩] [.p 0 0, .p 1 0, .p 2 0] =
      .done (some (none, [⟨false, eye.list.map .f⟩, ⟨false, ori.list.map .f⟩, ⟨true, (Cglm.glm_quat_look eye ori).list.map .f⟩])) := by kernel_rfl
/-- `glm_quat_for` with its branches as a tree -/
def glm_quat_for_dt (dir : V3 α) (up : V3 α) : DT (V4 α) :=
  DT.bind (glm_vec3_normalize_to_dt dir) fun m_6 =>
  let m_6_1 := glm_vec3_negate m_6
  DT.bind (glm_vec3_crossn_dt up m_6_1) fun m_0 =>
  let m_3 := glm_vec3_cross m_6_1 m_0
  DT.bind (glm_mat3_quat_dt ⟨m_0, m_3, m_6_1⟩) fun dest_1 =>
  .done dest_1
theorem glm_quat_for_dt_val (dir : V3 α) (up : V3 α) : (glm_quat_for_dt dir up).val = Cglm.glm_quat_for dir up := by
  unfold glm_quat_for_dt
  simp only [DT.val_bind, DT.val, glm_mat3_quat_dt_val, glm_vec3_crossn_dt_val, glm_vec3_normalize_to_dt_val]
  kernel_rfl
theorem glm_quat_for_run (dir : V3 α) (up : V3 α) :
    C.glm_quat_for.runT (α := α) [⟨false, dir.list.map .f⟩, ⟨false, up.list.map .f⟩, ⟨true, List.replicate 4 .undef⟩] [.p 0 0, .p 1 0, .p 2 0] =
      (Cglm.glm_quat_for_dt dir up).map fun r => some (none, [⟨false, dir.list.map .f⟩, ⟨false, up.list.map .f⟩, ⟨true, r.list.map .f⟩]) := by kernel_rfl
/-- `glm_quat_forp` with its branches as a tree -/
def glm_quat_forp_dt (frm : V3 α) («to» : V3 α) (up : V3 α) : DT (V4 α) :=
  let dir := glm_vec3_sub «to» frm
  DT.bind (glm_quat_for_dt dir up) fun dest_1 =>
  .done dest_1
theorem glm_quat_forp_dt_val (frm : V3 α) («to» : V3 α) (up : V3 α) : (glm_quat_forp_dt frm «to» up).val = Cglm.glm_quat_forp frm «to» up := by
  unfold glm_quat_forp_dt
  simp only [DT.val_bind, DT.val, glm_quat_for_dt_val]
  kernel_rfl
theorem glm_quat_forp_run (frm : V3 α) («to» : V3 α) (up : V3 α) :
    C.glm_quat_forp.runT (α := α) [⟨false, frm.list.map .f⟩, ⟨false, «to».list.map .f⟩, ⟨false, up.list.map .f⟩, ⟨true, List.replicate 4 .undef⟩] [.p 0 0, .p 1 0, .p 2 0, .p 3 0] =
      (Cglm.glm_quat_forp_dt frm «to» up).map fun r => some (none, [⟨false, frm.list.map .f⟩, ⟨false, «to».list.map .f⟩, ⟨false, up.list.map .f⟩, ⟨true, r.list.map .f⟩]) := by kernel_rfl
/-- `glm_quat_rotatev` with its branches as a tree -/
def glm_quat_rotatev_dt (q : V4 α) (v : V3 α) : DT (V3 α) :=
  DT.bind (glm_quat_normalize_to_dt q) fun p =>
  let u := glm_quat_imag p
  let s := glm_quat_real p
  let v1 := glm_vec3_scale u ((lit 2) * glm_vec3_dot u v)
  let v2 := glm_vec3_scale v (s * s - glm_vec3_dot u u)
  let v1_1 := glm_vec3_add v1 v2
  let v2_1 := glm_vec3_cross u v
  let v2_2 := glm_vec3_scale v2_1 ((lit 2) * s)
  .done (glm_vec3_add v1_1 v2_2)
theorem glm_quat_rotatev_dt_val (q : V4 α) (v : V3 α) : (glm_quat_rotatev_dt q v).val = Cglm.glm_quat_rotatev q v := by
  unfold glm_quat_rotatev_dt
  simp only [DT.val_bind, DT.val, glm_quat_normalize_to_dt_val]
  kernel_rfl
theorem glm_quat_rotatev_run (q : V4 α) (v : V3 α) :
    C.glm_quat_rotatev.runT (α := α) [⟨false, q.list.map .f⟩, ⟨false, v.list.map .f⟩, ⟨true, List.replicate 3 .undef⟩] [.p 0 0, .p 1 0, .p 2 0] =
      (Cglm.glm_quat_rotatev_dt q v).map fun r => some (none, [⟨false, q.list.map .f⟩, ⟨false, v.list.map .f⟩, ⟨true, r.list.map .f⟩]) := by kernel_rfl
theorem glm_quat_rotatev_run_v (q : V4 α) (v : V3 α) :
    C.glm_quat_rotatev.runT (α := α) [⟨false, q.list.map .f⟩, ⟨true, v.list.map .f⟩] [.p 0 0, .p 1 0, .p 1 0] =
      (Cglm.glm_quat_rotatev_dt q v).map fun r => some (none, [⟨false, q.list.map .f⟩, ⟨true, r.list.map .f⟩]) := by kernel_rfl
theorem glm_quat_rotate_run (m : M4 α) (q : V4 α) :
    C.glm_quat_rotate.runT (α := α) [⟨false, m.list.map .f⟩, ⟨false, q.list.map .f⟩, ⟨true, List.replicate 16 .undef⟩] [.p 0 0, .p 1 0, .p 2 0] =
      .done (some (none, [⟨false, m.list.map .f⟩, ⟨false, q.list.map .f⟩, ⟨true, (Cglm.glm_quat_rotate m q).list.map .f⟩])) := by kernel_rfl
theorem glm_quat_rotate_run_m (m : M4 α) (q : V4 α) :
    C.glm_quat_rotate.runT (α := α) [⟨false, q.list.map .f⟩, ⟨true, m.list.map .f⟩] [.p 1 0, .p 0 0, .p 1 0] =
      .done (some (none, [⟨false, q.list.map .f⟩, ⟨true, (Cglm.glm_quat_rotate m q).list.map .f⟩])) := by kernel_rfl
theorem glm_quat_rotate_at_run (m : M4 α) (q : V4 α) (pivot : V3 α) :
    C.glm_quat_rotate_at.runT (α := α) [⟨true, m.list.map .f⟩, ⟨false, q.list.map .f⟩, ⟨false, pivot.list.map .f⟩] [.p 0 0, .p 1 0, .p 2 0] =
      .done (some (none, [⟨true, (Cglm.glm_quat_rotate_at m q pivot).list.map .f⟩, ⟨false, q.list.map .f⟩, ⟨false, pivot.list.map .f⟩])) := by kernel_rfl
theorem glm_quat_rotate_atm_run (q : V4 α) (pivot : V3 α) :
    C.glm_quat_rotate_atm.runT (α := α) [⟨true, List.replicate 16 .undef⟩, ⟨false, q.list.map .f⟩, ⟨false, pivot.list.map .f⟩] [.p 0 0, .p 1 0, .p 2 0] =
      .done (some (none, [⟨true, (Cglm.glm_quat_rotate_atm q pivot).list.map .f⟩, ⟨false, q.list.map .f⟩, ⟨false, pivot.list.map .f⟩])) := by kernel_rfl
theorem glm_quat_make_run (src : V4 α) :
    C.glm_quat_make.runT (α := α) [⟨false, src.list.map .f⟩, ⟨true, List.replicate 4 .undef⟩] [.p 0 0, .p 1 0] =
      .done (some (none, [⟨false, src.list.map .f⟩, ⟨true, (Cglm.glm_quat_make src).list.map .f⟩])) := by kernel_rfl
theorem glm_quat_make_run_src (src : V4 α) :
    C.glm_quat_make.runT (α := α) [⟨true, src.list.map .f⟩] [.p 0 0, .p 0 0] =
      .done (some (none, [⟨true, (Cglm.glm_quat_make src).list.map .f⟩])) := by kernel_rfl
/-- `glm_quat_from_vecs` with its branches as a tree -/
def glm_quat_from_vecs_dt (a : V3 α) (b : V3 α) : DT (V4 α) :=
  let cos_theta := glm_vec3_dot a b
  .br (fle ((lit 1) - (lit 0.00001)) cos_theta) (
    .done glm_quat_identity) (
    .br (flt cos_theta (-(lit 1) + (lit 0.00001))) (
      let axis := glm_vec3_ortho a
      let dest_1 := glm_quat_init axis.x axis.y axis.z (lit 0)
      DT.bind (glm_quat_normalize_dt dest_1) fun dest_2 =>
      .done dest_2) (
      let axis := glm_vec3_cross a b
      let cos_half_theta := (lit 1) + cos_theta
      let dest_1 := glm_quat_init axis.x axis.y axis.z cos_half_theta
      DT.bind (glm_quat_normalize_dt dest_1) fun dest_2 =>
      .done dest_2))
theorem glm_quat_from_vecs_dt_val (a : V3 α) (b : V3 α) : (glm_quat_from_vecs_dt a b).val = Cglm.glm_quat_from_vecs a b := by
  unfold glm_quat_from_vecs_dt
  simp only [DT.val_bind, DT.val, glm_quat_normalize_dt_val]
  kernel_rfl
theorem glm_quat_from_vecs_run (a : V3 α) (b : V3 α) :
    C.glm_quat_from_vecs.runT (α := α) [⟨false, a.list.map .f⟩, ⟨false, b.list.map .f⟩, ⟨true, List.replicate 4 .undef⟩] [.p 0 0, .p 1 0, .p 2 0] =
      (Cglm.glm_quat_from_vecs_dt a b).map fun r => some (none, [⟨false, a.list.map .f⟩, ⟨false, b.list.map .f⟩, ⟨true, r.list.map .f⟩]) := by kernel_rfl

end Cglm

end QuatRun
