/- Generated by tools/memgen.py, joined by tools/merge.py; do not edit by hand. -/
import Verif.CMemTypes
import Verif.Gen.Affine2dPost
import Verif.Mem.Affines
import Verif.Mem.VecsRun
import Verif.Gen.Affine2d
import Verif.Mem.MatsRun
import Verif.Gen.AffineMat
import Verif.Gen.Affine
import Verif.Gen.AffinePre
import Verif.Gen.AffinePost
import Verif.Gen.ClipspaceOrthoRhNo
import Verif.Gen.ClipspacePersp
import Verif.Gen.ClipspacePerspRhNo
import Verif.Gen.ClipspaceViewRh
import Verif.Gen.Cam
import Verif.Gen.ClipspaceOrthoLhNo
import Verif.Gen.ClipspaceOrthoLhZo
import Verif.Gen.ClipspaceOrthoRhZo
import Verif.Gen.ClipspacePerspLhNo
import Verif.Gen.ClipspacePerspLhZo
import Verif.Gen.ClipspacePerspRhZo
import Verif.Gen.ClipspaceProjectNo
import Verif.Gen.ClipspaceProjectZo
import Verif.Gen.ClipspaceViewLh
import Verif.Gen.ClipspaceViewLhNo
import Verif.Gen.ClipspaceViewLhZo
import Verif.Gen.ClipspaceViewRhNo
import Verif.Gen.ClipspaceViewRhZo
import Verif.Gen.Project

section Affine2dPostRun

/-! Runs of the functions of include/cglm/affine2d-post.h on canonical memories. -/

set_option linter.unusedVariables false
set_option linter.unusedSectionVars false

namespace Cglm
open CMem

variable {α : Type} [Add α] [Sub α] [Mul α] [Div α] [Neg α] [CFloat α]

theorem glm_translated2d_run (m : M3 α) (v : V2 α) :
    C.glm_translated2d.runT (α := α) [⟨true, m.list.map .f⟩, ⟨false, v.list.map .f⟩] [.p 0 0, .p 1 0] =
      .done (some (none, [⟨true, (Cglm.glm_translated2d m v).list.map .f⟩, ⟨false, v.list.map .f⟩])) := by kernel_rfl
theorem glm_translated2d_x_run (m : M3 α) (x : α) :
    C.glm_translated2d_x.runT (α := α) [⟨true, m.list.map .f⟩] [.p 0 0, .f x] =
      .done (some (none, [⟨true, (Cglm.glm_translated2d_x m x).list.map .f⟩])) := by kernel_rfl
theorem glm_translated2d_y_run (m : M3 α) (y : α) :
    C.glm_translated2d_y.runT (α := α) [⟨true, m.list.map .f⟩] [.p 0 0, .f y] =
      .done (some (none, [⟨true, (Cglm.glm_translated2d_y m y).list.map .f⟩])) := by kernel_rfl
theorem glm_rotated2d_run (m : M3 α) (angle : α) :
    C.glm_rotated2d.runT (α := α) [⟨true, m.list.map .f⟩] [.p 0 0, .f angle] =
      .done (some (none, [⟨true, (Cglm.glm_rotated2d m angle).list.map .f⟩])) := by kernel_rfl
theorem glm_scaled2d_run (m : M3 α) (v : V2 α) :
    C.glm_scaled2d.runT (α := α) [⟨true, m.list.map .f⟩, ⟨false, v.list.map .f⟩] [.p 0 0, .p 1 0] =
      .done (some (none, [⟨true, (Cglm.glm_scaled2d m v).list.map .f⟩, ⟨false, v.list.map .f⟩])) := by kernel_rfl
theorem glm_scaled2d_uni_run (m : M3 α) (s : α) :
    C.glm_scaled2d_uni.runT (α := α) [⟨true, m.list.map .f⟩] [.p 0 0, .f s] =
      .done (some (none, [⟨true, (Cglm.glm_scaled2d_uni m s).list.map .f⟩])) := by kernel_rfl

end Cglm

end Affine2dPostRun

section Affine2dRun

/-! Runs of the functions of include/cglm/affine2d.h on canonical memories. -/

set_option linter.unusedVariables false
set_option linter.unusedSectionVars false

namespace Cglm
open CMem

variable {α : Type} [Add α] [Sub α] [Mul α] [Div α] [Neg α] [CFloat α]

theorem glm_translate2d_run (m : M3 α) (v : V2 α) :
    C.glm_translate2d.runT (α := α) [⟨true, m.list.map .f⟩, ⟨false, v.list.map .f⟩] [.p 0 0, .p 1 0] =
      .done (some (none, [⟨true, (Cglm.glm_translate2d m v).list.map .f⟩, ⟨false, v.list.map .f⟩])) := by kernel_rfl
theorem glm_translate2d_to_run (m : M3 α) (v : V2 α) :
    C.glm_translate2d_to.runT (α := α) [⟨false, m.list.map .f⟩, ⟨false, v.list.map .f⟩, ⟨true, List.replicate 9 .undef⟩] [.p 0 0, .p 1 0, .p 2 0] =
      .done (some (none, [⟨false, m.list.map .f⟩, ⟨false, v.list.map .f⟩, ⟨true, (Cglm.glm_translate2d_to m v).list.map .f⟩])) := by kernel_rfl
theorem glm_translate2d_to_run_m (m : M3 α) (v : V2 α) :
    C.glm_translate2d_to.runT (α := α) [⟨false, v.list.map .f⟩, ⟨true, m.list.map .f⟩] [.p 1 0, .p 0 0, .p 1 0] =
      .done (some (none, [⟨false, v.list.map .f⟩, ⟨true, (Cglm.glm_translate2d_to m v).list.map .f⟩])) := by kernel_rfl
theorem glm_translate2d_x_run (m : M3 α) (x : α) :
    C.glm_translate2d_x.runT (α := α) [⟨true, m.list.map .f⟩] [.p 0 0, .f x] =
      .done (some (none, [⟨true, (Cglm.glm_translate2d_x m x).list.map .f⟩])) := by kernel_rfl
theorem glm_translate2d_y_run (m : M3 α) (y : α) :
    C.glm_translate2d_y.runT (α := α) [⟨true, m.list.map .f⟩] [.p 0 0, .f y] =
      .done (some (none, [⟨true, (Cglm.glm_translate2d_y m y).list.map .f⟩])) := by kernel_rfl
theorem glm_translate2d_make_run (v : V2 α) :
    C.glm_translate2d_make.runT (α := α) [⟨true, List.replicate 9 .undef⟩, ⟨false, v.list.map .f⟩] [.p 0 0, .p 1 0] =
      .done (some (none, [⟨true, (Cglm.glm_translate2d_make v).list.map .f⟩, ⟨false, v.list.map .f⟩])) := by kernel_rfl
theorem glm_scale2d_to_run (m : M3 α) (v : V2 α) :
    C.glm_scale2d_to.runT (α := α) [⟨false, m.list.map .f⟩, ⟨false, v.list.map .f⟩, ⟨true, List.replicate 9 .undef⟩] [.p 0 0, .p 1 0, .p 2 0] =
      .done (some (none, [⟨false, m.list.map .f⟩, ⟨false, v.list.map .f⟩, ⟨true, (Cglm.glm_scale2d_to m v).list.map .f⟩])) := by kernel_rfl
theorem glm_scale2d_to_run_m (m : M3 α) (v : V2 α) :
    C.glm_scale2d_to.runT (α := α) [⟨false, v.list.map .f⟩, ⟨true, m.list.map .f⟩] [.p 1 0, .p 0 0, .p 1 0] =
      .done (some (none, [⟨false, v.list.map .f⟩, ⟨true, (Cglm.glm_scale2d_to m v).list.map .f⟩])) := by kernel_rfl
theorem glm_scale2d_make_run (v : V2 α) :
    C.glm_scale2d_make.runT (α := α) [⟨true, List.replicate 9 .undef⟩, ⟨false, v.list.map .f⟩] [.p 0 0, .p 1 0] =
      .done (some (none, [⟨true, (Cglm.glm_scale2d_make v).list.map .f⟩, ⟨false, v.list.map .f⟩])) := by kernel_rfl
theorem glm_scale2d_run (m : M3 α) (v : V2 α) :
    C.glm_scale2d.runT (α := α) [⟨true, m.list.map .f⟩, ⟨false, v.list.map .f⟩] [.p 0 0, .p 1 0] =
      .done (some (none, [⟨true, (Cglm.glm_scale2d m v).list.map .f⟩, ⟨false, v.list.map .f⟩])) := by kernel_rfl
theorem glm_scale2d_uni_run (m : M3 α) (s : α) :
    C.glm_scale2d_uni.runT (α := α) [⟨true, m.list.map .f⟩] [.p 0 0, .f s] =
      .done (some (none, [⟨true, (Cglm.glm_scale2d_uni m s).list.map .f⟩])) := by kernel_rfl
theorem glm_rotate2d_make_run (angle : α) :
    C.glm_rotate2d_make.runT (α := α) [⟨true, List.replicate 9 .undef⟩] [.p 0 0, .f angle] =
      .done (some (none, [⟨true, (Cglm.glm_rotate2d_make angle).list.map .f⟩])) := by kernel_rfl
theorem glm_rotate2d_run (m : M3 α) (angle : α) :
    C.glm_rotate2d.runT (α := α) [⟨true, m.list.map .f⟩] [.p 0 0, .f angle] =
      .done (some (none, [⟨true, (Cglm.glm_rotate2d m angle).list.map .f⟩])) := by kernel_rfl
theorem glm_rotate2d_to_run (m : M3 α) (angle : α) :
    C.glm_rotate2d_to.runT (α := α) [⟨false, m.list.map .f⟩, ⟨true, List.replicate 9 .undef⟩] [.p 0 0, .f angle, .p 1 0] =
      .done (some (none, [⟨false, m.list.map .f⟩, ⟨true, (Cglm.glm_rotate2d_to m angle).list.map .f⟩])) := by kernel_rfl
theorem glm_rotate2d_to_run_m (m : M3 α) (angle : α) :
    C.glm_rotate2d_to.runT (α := α) [⟨true, m.list.map .f⟩] [.p 0 0, .f angle, .p 0 0] =
      .done (some (none, [⟨true, (Cglm.glm_rotate2d_to m angle).list.map .f⟩])) := by kernel_rfl

end Cglm

end Affine2dRun

section AffineMatRun

/-! Runs of the functions of include/cglm/affine-mat.h on canonical memories. -/

set_option linter.unusedVariables false
set_option linter.unusedSectionVars false

namespace Cglm
open CMem

variable {α : Type} [Add α] [Sub α] [Mul α] [Div α] [Neg α] [CFloat α]

theorem glm_mul_run (m1 : M4 α) (m2 : M4 α) :
    C.glm_mul.runT (α := α) [⟨false, m1.list.map .f⟩, ⟨false, m2.list.map .f⟩, ⟨true, List.replicate 16 .undef⟩] [.p 0 0, .p 1 0, .p 2 0] =
      .done (some (none, [⟨false, m1.list.map .f⟩, ⟨false, m2.list.map .f⟩, ⟨true, (Cglm.glm_mul m1 m2).list.map .f⟩])) := by kernel_rfl
theorem glm_mul_run_m2 (m1 : M4 α) (m2 : M4 α) :
    C.glm_mul.runT (α := α) [⟨false, m1.list.map .f⟩, ⟨true, m2.list.map .f⟩] [.p 0 0, .p 1 0, .p 1 0] =
      .done (some (none, [⟨false, m1.list.map .f⟩, ⟨true, (Cglm.glm_mul m1 m2).list.map .f⟩])) := by kernel_rfl
theorem glm_mul_run_m1 (m1 : M4 α) (m2 : M4 α) :
    C.glm_mul.runT (α := α) [⟨false, m2.list.map .f⟩, ⟨true, m1.list.map .f⟩] [.p 1 0, .p 0 0, .p 1 0] =
      .done (some (none, [⟨false, m2.list.map .f⟩, ⟨true, (Cglm.glm_mul m1 m2).list.map .f⟩])) := by kernel_rfl
theorem glm_mul_run_m1_m2 (m1 : M4 α) :
    C.glm_mul.runT (α := α) [⟨true, m1.list.map .f⟩] [.p 0 0, .p 0 0, .p 0 0] =
      .done (some (none, [⟨true, (Cglm.glm_mul m1 m1).list.map .f⟩])) := by kernel_rfl
theorem glm_mul_rot_run (m1 : M4 α) (m2 : M4 α) :
    C.glm_mul_rot.runT (α := α) [⟨false, m1.list.map .f⟩, ⟨false, m2.list.map .f⟩, ⟨true, List.replicate 16 .undef⟩] [.p 0 0, .p 1 0, .p 2 0] =
      .done (some (none, [⟨false, m1.list.map .f⟩, ⟨false, m2.list.map .f⟩, ⟨true, (Cglm.glm_mul_rot m1 m2).list.map .f⟩])) := by kernel_rfl
theorem glm_mul_rot_run_m2 (m1 : M4 α) (m2 : M4 α) :
    C.glm_mul_rot.runT (α := α) [⟨false, m1.list.map .f⟩, ⟨true, m2.list.map .f⟩] [.p 0 0, .p 1 0, .p 1 0] =
      .done (some (none, [⟨false, m1.list.map .f⟩, ⟨true, (Cglm.glm_mul_rot m1 m2).list.map .f⟩])) := by kernel_rfl
theorem glm_mul_rot_run_m1 (m1 : M4 α) (m2 : M4 α) :
    C.glm_mul_rot.runT (α := α) [⟨false, m2.list.map .f⟩, ⟨true, m1.list.map .f⟩] [.p 1 0, .p 0 0, .p 1 0] =
      .done (some (none, [⟨false, m2.list.map .f⟩, ⟨true, (Cglm.glm_mul_rot m1 m2).list.map .f⟩])) := by kernel_rfl
theorem glm_mul_rot_run_m1_m2 (m1 : M4 α) :
    C.glm_mul_rot.runT (α := α) [⟨true, m1.list.map .f⟩] [.p 0 0, .p 0 0, .p 0 0] =
      .done (some (none, [⟨true, (Cglm.glm_mul_rot m1 m1).list.map .f⟩])) := by kernel_rfl
theorem glm_inv_tr_run (mat : M4 α) :
    C.glm_inv_tr.runT (α := α) [⟨true, mat.list.map .f⟩] [.p 0 0] =
      .done (some (none, [⟨true, (Cglm.glm_inv_tr mat).list.map .f⟩])) := by kernel_rfl

end Cglm

end AffineMatRun

section AffineRun

/-! Runs of the functions of include/cglm/affine.h on canonical memories. -/

set_option linter.unusedVariables false
set_option linter.unusedSectionVars false

namespace Cglm
open CMem

variable {α : Type} [Add α] [Sub α] [Mul α] [Div α] [Neg α] [CFloat α]

theorem glm_translate_make_run (v : V3 α) :
    C.glm_translate_make.runT (α := α) [⟨true, List.replicate 16 .undef⟩, ⟨false, v.list.map .f⟩] [.p 0 0, .p 1 0] =
      .done (some (none, [⟨true, (Cglm.glm_translate_make v).list.map .f⟩, ⟨false, v.list.map .f⟩])) := by kernel_rfl
theorem glm_scale_to_run (m : M4 α) (v : V3 α) :
    C.glm_scale_to.runT (α := α) [⟨false, m.list.map .f⟩, ⟨false, v.list.map .f⟩, ⟨true, List.replicate 16 .undef⟩] [.p 0 0, .p 1 0, .p 2 0] =
      .done (some (none, [⟨false, m.list.map .f⟩, ⟨false, v.list.map .f⟩, ⟨true, (Cglm.glm_scale_to m v).list.map .f⟩])) := by kernel_rfl
theorem glm_scale_to_run_m (m : M4 α) (v : V3 α) :
    C.glm_scale_to.runT (α := α) [⟨false, v.list.map .f⟩, ⟨true, m.list.map .f⟩] [.p 1 0, .p 0 0, .p 1 0] =
      .done (some (none, [⟨false, v.list.map .f⟩, ⟨true, (Cglm.glm_scale_to m v).list.map .f⟩])) := by kernel_rfl
theorem glm_scale_make_run (v : V3 α) :
    C.glm_scale_make.runT (α := α) [⟨true, List.replicate 16 .undef⟩, ⟨false, v.list.map .f⟩] [.p 0 0, .p 1 0] =
      .done (some (none, [⟨true, (Cglm.glm_scale_make v).list.map .f⟩, ⟨false, v.list.map .f⟩])) := by kernel_rfl
theorem glm_scale_run (m : M4 α) (v : V3 α) :
    C.glm_scale.runT (α := α) [⟨true, m.list.map .f⟩, ⟨false, v.list.map .f⟩] [.p 0 0, .p 1 0] =
      .done (some (none, [⟨true, (Cglm.glm_scale m v).list.map .f⟩, ⟨false, v.list.map .f⟩])) := by kernel_rfl
theorem glm_scale_uni_run (m : M4 α) (s : α) :
    C.glm_scale_uni.runT (α := α) [⟨true, m.list.map .f⟩] [.p 0 0, .f s] =
      .done (some (none, [⟨true, (Cglm.glm_scale_uni m s).list.map .f⟩])) := by kernel_rfl
/-- `glm_rotate_make` with its branches as a tree -/
def glm_rotate_make_dt (angle : α) (axis : V3 α) : DT (M4 α) :=
  let c := cosf angle
  DT.bind (glm_vec3_normalize_to_dt axis) fun axisn =>
  let v := glm_vec3_scale axisn ((lit 1) - c)
  let vs := glm_vec3_scale axisn (sinf angle)
  let m_0 := glm_vec3_scale axisn v.x
  let m_4 := glm_vec3_scale axisn v.y
  let m_8 := glm_vec3_scale axisn v.z
  .done ⟨⟨m_0.x + c, m_0.y + vs.z, m_0.z - vs.y, lit 0⟩, ⟨m_4.x - vs.z, m_4.y + c, m_4.z + vs.x, lit 0⟩, ⟨m_8.x + vs.y, m_8.y - vs.x, m_8.z + c, lit 0⟩, ⟨lit 0, lit 0, lit 0, lit 1⟩⟩
theorem glm_rotate_make_dt_val (angle : α) (axis : V3 α) : (glm_rotate_make_dt angle axis).val = Cglm.glm_rotate_make angle axis := by
  unfold glm_rotate_make_dt
  simp only [DT.val_bind, DT.val, glm_vec3_normalize_to_dt_val]
  kernel_rfl
theorem glm_rotate_make_run (angle : α) (axis : V3 α) :
    C.glm_rotate_make.runT (α := α) [⟨true, List.replicate 16 .undef⟩, ⟨false, axis.list.map .f⟩] [.p 0 0, .f angle, .p 1 0] =
      (Cglm.glm_rotate_make_dt angle axis).map fun r => some (none, [⟨true, r.list.map .f⟩, ⟨false, axis.list.map .f⟩]) := by kernel_rfl
theorem glm_decompose_scalev_run (m : M4 α) :
    C.glm_decompose_scalev.runT (α := α) [⟨false, m.list.map .f⟩, ⟨true, List.replicate 3 .undef⟩] [.p 0 0, .p 1 0] =
      .done (some (none, [⟨false, m.list.map .f⟩, ⟨true, (Cglm.glm_decompose_scalev m).list.map .f⟩])) := by kernel_rfl
theorem glm_uniscaled_run (m : M4 α) :
    C.glm_uniscaled.runT (α := α) [⟨false, m.list.map .f⟩] [.p 0 0] =
      .done (some (some (.b (Cglm.glm_uniscaled m)), [⟨false, m.list.map .f⟩])) := by kernel_rfl
/-- `glm_decompose_rs` with its branches as a tree -/
def glm_decompose_rs_dt (m : M4 α) : DT (M4 α × V3 α) :=
  let r_0 := glm_vec4_copy m.c0
  let r_4 := glm_vec4_copy m.c1
  let r_8 := glm_vec4_copy m.c2
  let r_12 := glm_vec4_copy ⟨lit 0, lit 0, lit 0, lit 1⟩
  let s_0 := glm_vec3_norm ⟨m.c0.x, m.c0.y, m.c0.z⟩
  let s_1 := glm_vec3_norm ⟨m.c1.x, m.c1.y, m.c1.z⟩
  let s_2 := glm_vec3_norm ⟨m.c2.x, m.c2.y, m.c2.z⟩
  let r_0_1 := glm_vec4_scale r_0 ((lit 1) / s_0)
  let r_4_1 := glm_vec4_scale r_4 ((lit 1) / s_1)
  let r_8_1 := glm_vec4_scale r_8 ((lit 1) / s_2)
  let v := glm_vec3_cross ⟨m.c0.x, m.c0.y, m.c0.z⟩ ⟨m.c1.x, m.c1.y, m.c1.z⟩
  .br (flt (glm_vec3_dot v ⟨m.c2.x, m.c2.y, m.c2.z⟩) (lit 0)) (
    let r_0_2 := glm_vec4_negate r_0_1
    let r_4_2 := glm_vec4_negate r_4_1
    let r_8_2 := glm_vec4_negate r_8_1
    .done (⟨r_0_2, r_4_2, r_8_2, r_12⟩, glm_vec3_negate ⟨s_0, s_1, s_2⟩)) (
    .done (⟨r_0_1, r_4_1, r_8_1, r_12⟩, ⟨s_0, s_1, s_2⟩))
theorem glm_decompose_rs_dt_val (m : M4 α) : (glm_decompose_rs_dt m).val = Cglm.glm_decompose_rs m := by
  unfold glm_decompose_rs_dt
  simp only [DT.val]
  kernel_rfl
theorem glm_decompose_rs_run (m : M4 α) :
    C.glm_decompose_rs.runT (α := α) [⟨false, m.list.map .f⟩, ⟨true, List.replicate 16 .undef⟩, ⟨true, List.replicate 3 .undef⟩] [.p 0 0, .p 1 0, .p 2 0] =
      (Cglm.glm_decompose_rs_dt m).map fun r => some (none, [⟨false, m.list.map .f⟩, ⟨true, r.1.list.map .f⟩, ⟨true, r.2.list.map .f⟩]) := by kernel_rfl
/-- `glm_decompose` with its branches as a tree -/
def glm_decompose_dt (m : M4 α) : DT (V4 α × M4 α × V3 α) :=
  let t_1 := glm_vec4_copy m.c3
  DT.bind (glm_decompose_rs_dt m) fun r_1 =>
  .done (t_1, r_1.1, r_1.2)
theorem glm_decompose_dt_val (m : M4 α) : (glm_decompose_dt m).val = Cglm.glm_decompose m := by
  unfold glm_decompose_dt
  simp only [DT.val_bind, DT.val, glm_decompose_rs_dt_val]
  kernel_rfl
theorem glm_decompose_run (m : M4 α) :
    C.glm_decompose.runT (α := α) [⟨false, m.list.map .f⟩, ⟨true, List.replicate 4 .undef⟩, ⟨true, List.replicate 16 .undef⟩, ⟨true, List.replicate 3 .undef⟩] [.p 0 0, .p 1 0, .p 2 0, .p 3 0] =
      (Cglm.glm_decompose_dt m).map fun r => some (none, [⟨false, m.list.map .f⟩, ⟨true, r.1.list.map .f⟩, ⟨true, r.2.1.list.map .f⟩, ⟨true, r.2.2.list.map .f⟩]) := by kernel_rfl

end Cglm

end AffineRun

section AffinePreRun

/-! Runs of the functions of include/cglm/affine-pre.h on canonical memories. -/

set_option linter.unusedVariables false
set_option linter.unusedSectionVars false

namespace Cglm
open CMem

variable {α : Type} [Add α] [Sub α] [Mul α] [Div α] [Neg α] [CFloat α]

theorem glm_translate_run (m : M4 α) (v : V3 α) :
    C.glm_translate.runT (α := α) [⟨true, m.list.map .f⟩, ⟨false, v.list.map .f⟩] [.p 0 0, .p 1 0] =
      .done (some (none, [⟨true, (Cglm.glm_translate m v).list.map .f⟩, ⟨false, v.list.map .f⟩])) := by kernel_rfl
theorem glm_translate_to_run (m : M4 α) (v : V3 α) :
    C.glm_translate_to.runT (α := α) [⟨false, m.list.map .f⟩, ⟨false, v.list.map .f⟩, ⟨true, List.replicate 16 .undef⟩] [.p 0 0, .p 1 0, .p 2 0] =
      .done (some (none, [⟨false, m.list.map .f⟩, ⟨false, v.list.map .f⟩, ⟨true, (Cglm.glm_translate_to m v).list.map .f⟩])) := by kernel_rfl
theorem glm_translate_to_run_m (m : M4 α) (v : V3 α) :
    C.glm_translate_to.runT (α := α) [⟨false, v.list.map .f⟩, ⟨true, m.list.map .f⟩] [.p 1 0, .p 0 0, .p 1 0] =
      .done (some (none, [⟨false, v.list.map .f⟩, ⟨true, (Cglm.glm_translate_to m v).list.map .f⟩])) := by kernel_rfl
theorem glm_translate_x_run (m : M4 α) (x : α) :
    C.glm_translate_x.runT (α := α) [⟨true, m.list.map .f⟩] [.p 0 0, .f x] =
      .done (some (none, [⟨true, (Cglm.glm_translate_x m x).list.map .f⟩])) := by kernel_rfl
theorem glm_translate_y_run (m : M4 α) (y : α) :
    C.glm_translate_y.runT (α := α) [⟨true, m.list.map .f⟩] [.p 0 0, .f y] =
      .done (some (none, [⟨true, (Cglm.glm_translate_y m y).list.map .f⟩])) := by kernel_rfl
theorem glm_translate_z_run (m : M4 α) (z : α) :
    C.glm_translate_z.runT (α := α) [⟨true, m.list.map .f⟩] [.p 0 0, .f z] =
      .done (some (none, [⟨true, (Cglm.glm_translate_z m z).list.map .f⟩])) := by kernel_rfl
theorem glm_rotate_x_run (m : M4 α) (angle : α) :
    C.glm_rotate_x.runT (α := α) [⟨false, m.list.map .f⟩, ⟨true, List.replicate 16 .undef⟩] [.p 0 0, .f angle, .p 1 0] =
      .done (some (none, [⟨false, m.list.map .f⟩, ⟨true, (Cglm.glm_rotate_x m angle).list.map .f⟩])) := by kernel_rfl
theorem glm_rotate_x_run_m (m : M4 α) (angle : α) :
    C.glm_rotate_x.runT (α := α) [⟨true, m.list.map .f⟩] [.p 0 0, .f angle, .p 0 0] =
      .done (some (none, [⟨true, (Cglm.glm_rotate_x m angle).list.map .f⟩])) := by kernel_rfl
theorem glm_rotate_y_run (m : M4 α) (angle : α) :
    C.glm_rotate_y.runT (α := α) [⟨false, m.list.map .f⟩, ⟨true, List.replicate 16 .undef⟩] [.p 0 0, .f angle, .p 1 0] =
      .done (some (none, [⟨false, m.list.map .f⟩, ⟨true, (Cglm.glm_rotate_y m angle).list.map .f⟩])) := by kernel_rfl
theorem glm_rotate_y_run_m (m : M4 α) (angle : α) :
    C.glm_rotate_y.runT (α := α) [⟨true, m.list.map .f⟩] [.p 0 0, .f angle, .p 0 0] =
      .done (some (none, [⟨true, (Cglm.glm_rotate_y m angle).list.map .f⟩])) := by kernel_rfl
theorem glm_rotate_z_run (m : M4 α) (angle : α) :
    C.glm_rotate_z.runT (α := α) [⟨false, m.list.map .f⟩, ⟨true, List.replicate 16 .undef⟩] [.p 0 0, .f angle, .p 1 0] =
      .done (some (none, [⟨false, m.list.map .f⟩, ⟨true, (Cglm.glm_rotate_z m angle).list.map .f⟩])) := by kernel_rfl
theorem glm_rotate_z_run_m (m : M4 α) (angle : α) :
    C.glm_rotate_z.runT (α := α) [⟨true, m.list.map .f⟩] [.p 0 0, .f angle, .p 0 0] =
      .done (some (none, [⟨true, (Cglm.glm_rotate_z m angle).list.map .f⟩])) := by kernel_rfl
/-- `glm_rotate` with its branches as a tree -/
def glm_rotate_dt (m : M4 α) (angle : α) (axis : V3 α) : DT (M4 α) :=
  DT.bind (glm_rotate_make_dt angle axis) fun rot =>
  .done (glm_mul_rot m rot)
theorem glm_rotate_dt_val (m : M4 α) (angle : α) (axis : V3 α) : (glm_rotate_dt m angle axis).val = Cglm.glm_rotate m angle axis := by
  unfold glm_rotate_dt
  simp only [DT.val_bind, DT.val, glm_rotate_make_dt_val]
  kernel_rfl
theorem glm_rotate_run (m : M4 α) (angle : α) (axis : V3 α) :
    C.glm_rotate.runT (α := α) [⟨true, m.list.map .f⟩, ⟨false, axis.list.map .f⟩] [.p 0 0, .f angle, .p 1 0] =
      (Cglm.glm_rotate_dt m angle axis).map fun r => some (none, [⟨true, r.list.map .f⟩, ⟨false, axis.list.map .f⟩]) := by kernel_rfl
/-- `glm_rotate_at` with its branches as a tree -/
def glm_rotate_at_dt (m : M4 α) (pivot : V3 α) (angle : α) (axis : V3 α) : DT (M4 α) :=
  let pivotInv := glm_vec3_negate_to pivot
  let m_1 := glm_translate m pivot
  DT.bind (glm_rotate_dt m_1 angle axis) fun m_2 =>
  .done (glm_translate m_2 pivotInv)
theorem glm_rotate_at_dt_val (m : M4 α) (pivot : V3 α) (angle : α) (axis : V3 α) : (glm_rotate_at_dt m pivot angle axis).val = Cglm.glm_rotate_at m pivot angle axis := by
  unfold glm_rotate_at_dt
  simp only [DT.val_bind, DT.val, glm_rotate_dt_val]
  kernel_rfl
theorem glm_rotate_at_run (m : M4 α) (pivot : V3 α) (angle : α) (axis : V3 α) :
    C.glm_rotate_at.runT (α := α) [⟨true, m.list.map .f⟩, ⟨false, pivot.list.map .f⟩, ⟨false, axis.list.map .f⟩] [.p 0 0, .p 1 0, .f angle, .p 2 0] =
      (Cglm.glm_rotate_at_dt m pivot angle axis).map fun r => some (none, [⟨true, r.list.map .f⟩, ⟨false, pivot.list.map .f⟩, ⟨false, axis.list.map .f⟩]) := by kernel_rfl
/-- `glm_rotate_atm` with its branches as a tree -/
def glm_rotate_atm_dt (pivot : V3 α) (angle : α) (axis : V3 α) : DT (M4 α) :=
  let pivotInv := glm_vec3_negate_to pivot
  let m_1 := glm_translate_make pivot
  DT.bind (glm_rotate_dt m_1 angle axis) fun m_2 =>
  .done (glm_translate m_2 pivotInv)
theorem glm_rotate_atm_dt_val (pivot : V3 α) (angle : α) (axis : V3 α) : (glm_rotate_atm_dt pivot angle axis).val = Cglm.glm_rotate_atm pivot angle axis := by
  unfold glm_rotate_atm_dt
  simp only [DT.val_bind, DT.val, glm_rotate_dt_val]
  kernel_rfl
theorem glm_rotate_atm_run (pivot : V3 α) (angle : α) (axis : V3 α) :
    C.glm_rotate_atm.runT (α := α) [⟨true, List.replicate 16 .undef⟩, ⟨false, pivot.list.map .f⟩, ⟨false, axis.list.map .f⟩] [.p 0 0, .p 1 0, .f angle, .p 2 0] =
      (Cglm.glm_rotate_atm_dt pivot angle axis).map fun r => some (none, [⟨true, r.list.map .f⟩, ⟨false, pivot.list.map .f⟩, ⟨false, axis.list.map .f⟩]) := by kernel_rfl
/-- `glm_spin` with its branches as a tree -/
def glm_spin_dt (m : M4 α) (angle : α) (axis : V3 α) : DT (M4 α) :=
  DT.bind (glm_rotate_atm_dt ⟨m.c3.x, m.c3.y, m.c3.z⟩ angle axis) fun rot =>
  .done (glm_mat4_mul m rot)
theorem glm_spin_dt_val (m : M4 α) (angle : α) (axis : V3 α) : (glm_spin_dt m angle axis).val = Cglm.glm_spin m angle axis := by
  unfold glm_spin_dt
  simp only [DT.val_bind, DT.val, glm_rotate_atm_dt_val]
  kernel_rfl
theorem glm_spin_run (m : M4 α) (angle : α) (axis : V3 α) :
    C.glm_spin.runT (α := α) [⟨true, m.list.map .f⟩, ⟨false, axis.list.map .f⟩] [.p 0 0, .f angle, .p 1 0] =
      (Cglm.glm_spin_dt m angle axis).map fun r => some (none, [⟨true, r.list.map .f⟩, ⟨false, axis.list.map .f⟩]) := by kernel_rfl

end Cglm

end AffinePreRun

section AffinePostRun

/-! Runs of the functions of include/cglm/affine-post.h on canonical memories. -/

set_option linter.unusedVariables false
set_option linter.unusedSectionVars false

namespace Cglm
open CMem

variable {α : Type} [Add α] [Sub α] [Mul α] [Div α] [Neg α] [CFloat α]

theorem glm_translated_run (m : M4 α) (v : V3 α) :
    C.glm_translated.runT (α := α) [⟨true, m.list.map .f⟩, ⟨false, v.list.map .f⟩] [.p 0 0, .p 1 0] =
      .done (some (none, [⟨true, (Cglm.glm_translated m v).list.map .f⟩, ⟨false, v.list.map .f⟩])) := by kernel_rfl
theorem glm_translated_to_run (m : M4 α) (v : V3 α) :
    C.glm_translated_to.runT (α := α) [⟨false, m.list.map .f⟩, ⟨false, v.list.map .f⟩, ⟨true, List.replicate 16 .undef⟩] [.p 0 0, .p 1 0, .p 2 0] =
      .done (some (none, [⟨false, m.list.map .f⟩, ⟨false, v.list.map .f⟩, ⟨true, (Cglm.glm_translated_to m v).list.map .f⟩])) := by kernel_rfl
theorem glm_translated_to_run_m (m : M4 α) (v : V3 α) :
    C.glm_translated_to.runT (α := α) [⟨false, v.list.map .f⟩, ⟨true, m.list.map .f⟩] [.p 1 0, .p 0 0, .p 1 0] =
      .done (some (none, [⟨false, v.list.map .f⟩, ⟨true, (Cglm.glm_translated_to m v).list.map .f⟩])) := by kernel_rfl
theorem glm_translated_x_run (m : M4 α) (x : α) :
    C.glm_translated_x.runT (α := α) [⟨true, m.list.map .f⟩] [.p 0 0, .f x] =
      .done (some (none, [⟨true, (Cglm.glm_translated_x m x).list.map .f⟩])) := by kernel_rfl
theorem glm_translated_y_run (m : M4 α) (y : α) :
    C.glm_translated_y.runT (α := α) [⟨true, m.list.map .f⟩] [.p 0 0, .f y] =
      .done (some (none, [⟨true, (Cglm.glm_translated_y m y).list.map .f⟩])) := by kernel_rfl
theorem glm_translated_z_run (m : M4 α) (z : α) :
    C.glm_translated_z.runT (α := α) [⟨true, m.list.map .f⟩] [.p 0 0, .f z] =
      .done (some (none, [⟨true, (Cglm.glm_translated_z m z).list.map .f⟩])) := by kernel_rfl
theorem glm_rotated_x_run (m : M4 α) (angle : α) :
    C.glm_rotated_x.runT (α := α) [⟨false, m.list.map .f⟩, ⟨true, List.replicate 16 .undef⟩] [.p 0 0, .f angle, .p 1 0] =
      .done (some (none, [⟨false, m.list.map .f⟩, ⟨true, (Cglm.glm_rotated_x m angle).list.map .f⟩])) := by kernel_rfl
theorem glm_rotated_x_run_m (m : M4 α) (angle : α) :
    C.glm_rotated_x.runT (α := α) [⟨true, m.list.map .f⟩] [.p 0 0, .f angle, .p 0 0] =
      .done (some (none, [⟨true, (Cglm.glm_rotated_x m angle).list.map .f⟩])) := by kernel_rfl
theorem glm_rotated_y_run (m : M4 α) (angle : α) :
    C.glm_rotated_y.runT (α := α) [⟨false, m.list.map .f⟩, ⟨true, List.replicate 16 .undef⟩] [.p 0 0, .f angle, .p 1 0] =
      .done (some (none, [⟨false, m.list.map .f⟩, ⟨true, (Cglm.glm_rotated_y m angle).list.map .f⟩])) := by kernel_rfl
theorem glm_rotated_y_run_m (m : M4 α) (angle : α) :
    C.glm_rotated_y.runT (α := α) [⟨true, m.list.map .f⟩] [.p 0 0, .f angle, .p 0 0] =
      .done (some (none, [⟨true, (Cglm.glm_rotated_y m angle).list.map .f⟩])) := by kernel_rfl
theorem glm_rotated_z_run (m : M4 α) (angle : α) :
    C.glm_rotated_z.runT (α := α) [⟨false, m.list.map .f⟩, ⟨true, List.replicate 16 .undef⟩] [.p 0 0, .f angle, .p 1 0] =
      .done (some (none, [⟨false, m.list.map .f⟩, ⟨true, (Cglm.glm_rotated_z m angle).list.map .f⟩])) := by kernel_rfl
theorem glm_rotated_z_run_m (m : M4 α) (angle : α) :
    C.glm_rotated_z.runT (α := α) [⟨true, m.list.map .f⟩] [.p 0 0, .f angle, .p 0 0] =
      .done (some (none, [⟨true, (Cglm.glm_rotated_z m angle).list.map .f⟩])) := by kernel_rfl
/-- `glm_rotated` with its branches as a tree -/
def glm_rotated_dt (m : M4 α) (angle : α) (axis : V3 α) : DT (M4 α) :=
  DT.bind (glm_rotate_make_dt angle axis) fun rot =>
  .done (glm_mul_rot rot m)
theorem glm_rotated_dt_val (m : M4 α) (angle : α) (axis : V3 α) : (glm_rotated_dt m angle axis).val = Cglm.glm_rotated m angle axis := by
  unfold glm_rotated_dt
  simp only [DT.val_bind, DT.val, glm_rotate_make_dt_val]
  kernel_rfl
theorem glm_rotated_run (m : M4 α) (angle : α) (axis : V3 α) :
    C.glm_rotated.runT (α := α) [⟨true, m.list.map .f⟩, ⟨false, axis.list.map .f⟩] [.p 0 0, .f angle, .p 1 0] =
      (Cglm.glm_rotated_dt m angle axis).map fun r => some (none, [⟨true, r.list.map .f⟩, ⟨false, axis.list.map .f⟩]) := by kernel_rfl
/-- `glm_rotated_at` with its branches as a tree -/
def glm_rotated_at_dt (m : M4 α) (pivot : V3 α) (angle : α) (axis : V3 α) : DT (M4 α) :=
  let pivotInv := glm_vec3_negate_to pivot
  let m_1 := glm_translated m pivot
  DT.bind (glm_rotated_dt m_1 angle axis) fun m_2 =>
  .done (glm_translated m_2 pivotInv)
theorem glm_rotated_at_dt_val (m : M4 α) (pivot : V3 α) (angle : α) (axis : V3 α) : (glm_rotated_at_dt m pivot angle axis).val = Cglm.glm_rotated_at m pivot angle axis := by
  unfold glm_rotated_at_dt
  simp only [DT.val_bind, DT.val, glm_rotated_dt_val]
  kernel_rfl
theorem glm_rotated_at_run (m : M4 α) (pivot : V3 α) (angle : α) (axis : V3 α) :
    C.glm_rotated_at.runT (α := α) [⟨true, m.list.map .f⟩, ⟨false, pivot.list.map .f⟩, ⟨false, axis.list.map .f⟩] [.p 0 0, .p 1 0, .f angle, .p 2 0] =
      (Cglm.glm_rotated_at_dt m pivot angle axis).map fun r => some (none, [⟨true, r.list.map .f⟩, ⟨false, pivot.list.map .f⟩, ⟨false, axis.list.map .f⟩]) := by kernel_rfl
/-- `glm_spinned` with its branches as a tree -/
def glm_spinned_dt (m : M4 α) (angle : α) (axis : V3 α) : DT (M4 α) :=
  DT.bind (glm_rotate_atm_dt ⟨m.c3.x, m.c3.y, m.c3.z⟩ angle axis) fun rot =>
  .done (glm_mat4_mul rot m)
theorem glm_spinned_dt_val (m : M4 α) (angle : α) (axis : V3 α) : (glm_spinned_dt m angle axis).val = Cglm.glm_spinned m angle axis := by
  unfold glm_spinned_dt
  simp only [DT.val_bind, DT.val, glm_rotate_atm_dt_val]
  kernel_rfl
theorem glm_spinned_run (m : M4 α) (angle : α) (axis : V3 α) :
    C.glm_spinned.runT (α := α) [⟨true, m.list.map .f⟩, ⟨false, axis.list.map .f⟩] [.p 0 0, .f angle, .p 1 0] =
      (Cglm.glm_spinned_dt m angle axis).map fun r => some (none, [⟨true, r.list.map .f⟩, ⟨false, axis.list.map .f⟩]) := by kernel_rfl

end Cglm

end AffinePostRun

section ClipspaceOrthoRhNoRun

/-! Runs of the functions of include/cglm/clipspace/ortho_rh_no.h on canonical memories. -/

set_option linter.unusedVariables false
set_option linter.unusedSectionVars false

namespace Cglm
open CMem

variable {α : Type} [Add α] [Sub α] [Mul α] [Div α] [Neg α] [CFloat α]

theorem glm_ortho_rh_no_run (left : α) (right : α) (bottom : α) (top : α) (nearZ : α) (farZ : α) :
    C.glm_ortho_rh_no.runT (α := α) [⟨true, List.replicate 16 .undef⟩] [.f left, .f right, .f bottom, .f top, .f nearZ, .f farZ, .p 0 0] =
      .done (some (none, [⟨true, (Cglm.glm_ortho_rh_no left right bottom top nearZ farZ).list.map .f⟩])) := by kernel_rfl
theorem glm_ortho_aabb_rh_no_run (box : M2x3 α) :
    C.glm_ortho_aabb_rh_no.runT (α := α) [⟨false, box.list.map .f⟩, ⟨true, List.replicate 16 .undef⟩] [.p 0 0, .p 1 0] =
      .done (some (none, [⟨false, box.list.map .f⟩, ⟨true, (Cglm.glm_ortho_aabb_rh_no box).list.map .f⟩])) := by kernel_rfl
theorem glm_ortho_aabb_p_rh_no_run (box : M2x3 α) (padding : α) :
    C.glm_ortho_aabb_p_rh_no.runT (α := α) [⟨false, box.list.map .f⟩, ⟨true, List.replicate 16 .undef⟩] [.p 0 0, .f padding, .p 1 0] =
      .done (some (none, [⟨false, box.list.map .f⟩, ⟨true, (Cglm.glm_ortho_aabb_p_rh_no box padding).list.map .f⟩])) := by kernel_rfl
theorem glm_ortho_aabb_pz_rh_no_run (box : M2x3 α) (padding : α) :
    C.glm_ortho_aabb_pz_rh_no.runT (α := α) [⟨false, box.list.map .f⟩, ⟨true, List.replicate 16 .undef⟩] [.p 0 0, .f padding, .p 1 0] =
      .done (some (none, [⟨false, box.list.map .f⟩, ⟨true, (Cglm.glm_ortho_aabb_pz_rh_no box padding).list.map .f⟩])) := by kernel_rfl
/-- `glm_ortho_default_rh_no` with its branches as a tree -/
def glm_ortho_default_rh_no_dt (aspect : α) : DT (M4 α) :=
  .br (fle (lit 1) aspect) (
    .done (glm_ortho_rh_no (-aspect) aspect (-(lit 1)) (lit 1) (-(lit 100)) (lit 100))) (
    let aspect_1 := (lit 1) / aspect
    .done (glm_ortho_rh_no (-(lit 1)) (lit 1) (-aspect_1) aspect_1 (-(lit 100)) (lit 100)))
theorem glm_ortho_default_rh_no_dt_val (aspect : α) : (glm_ortho_default_rh_no_dt aspect).val = Cglm.glm_ortho_default_rh_no aspect := by
  unfold glm_ortho_default_rh_no_dt
  simp only [DT.val]
  kernel_rfl
theorem glm_ortho_default_rh_no_run (aspect : α) :
    C.glm_ortho_default_rh_no.runT (α := α) [⟨true, List.replicate 16 .undef⟩] [.f aspect, .p 0 0] =
      (Cglm.glm_ortho_default_rh_no_dt aspect).map fun r => some (none, [⟨true, r.list.map .f⟩]) := by kernel_rfl
/-- `glm_ortho_default_s_rh_no` with its branches as a tree -/
def glm_ortho_default_s_rh_no_dt (aspect : α) (size : α) : DT (M4 α) :=
  .br (fle (lit 1) aspect) (
    .done (glm_ortho_rh_no ((-size) * aspect) (size * aspect) (-size) size (-size - (lit 100)) (size + (lit 100)))) (
    .done (glm_ortho_rh_no (-size) size ((-size) / aspect) (size / aspect) (-size - (lit 100)) (size + (lit 100))))
theorem glm_ortho_default_s_rh_no_dt_val (aspect : α) (size : α) : (glm_ortho_default_s_rh_no_dt aspect size).val = Cglm.glm_ortho_default_s_rh_no aspect size := by
  unfold glm_ortho_default_s_rh_no_dt
  simp only [DT.val]
  kernel_rfl
theorem glm_ortho_default_s_rh_no_run (aspect : α) (size : α) :
    C.glm_ortho_default_s_rh_no.runT (α := α) [⟨true, List.replicate 16 .undef⟩] [.f aspect, .f size, .p 0 0] =
      (Cglm.glm_ortho_default_s_rh_no_dt aspect size).map fun r => some (none, [⟨true, r.list.map .f⟩]) := by kernel_rfl

end Cglm

end ClipspaceOrthoRhNoRun

section ClipspacePerspRun

/-! Runs of the functions of include/cglm/clipspace/persp.h on canonical memories. -/

set_option linter.unusedVariables false
set_option linter.unusedSectionVars false

namespace Cglm
open CMem

variable {α : Type} [Add α] [Sub α] [Mul α] [Div α] [Neg α] [CFloat α]

theorem glm_persp_fovy_run (proj : M4 α) :
    C.glm_persp_fovy.runT (α := α) [⟨false, proj.list.map .f⟩] [.p 0 0] =
      .done (some (some (.f (Cglm.glm_persp_fovy proj)), [⟨false, proj.list.map .f⟩])) := by kernel_rfl
theorem glm_persp_aspect_run (proj : M4 α) :
    C.glm_persp_aspect.runT (α := α) [⟨false, proj.list.map .f⟩] [.p 0 0] =
      .done (some (some (.f (Cglm.glm_persp_aspect proj)), [⟨false, proj.list.map .f⟩])) := by kernel_rfl

end Cglm

end ClipspacePerspRun

section ClipspacePerspRhNoRun

/-! Runs of the functions of include/cglm/clipspace/persp_rh_no.h on canonical memories. -/

set_option linter.unusedVariables false
set_option linter.unusedSectionVars false

namespace Cglm
open CMem

variable {α : Type} [Add α] [Sub α] [Mul α] [Div α] [Neg α] [CFloat α]

theorem glm_frustum_rh_no_run (left : α) (right : α) (bottom : α) (top : α) (nearZ : α) (farZ : α) :
    C.glm_frustum_rh_no.runT (α := α) [⟨true, List.replicate 16 .undef⟩] [.f left, .f right, .f bottom, .f top, .f nearZ, .f farZ, .p 0 0] =
      .done (some (none, [⟨true, (Cglm.glm_frustum_rh_no left right bottom top nearZ farZ).list.map .f⟩])) := by kernel_rfl
theorem glm_perspective_rh_no_run (fovy : α) (aspect : α) (nearZ : α) (farZ : α) :
    C.glm_perspective_rh_no.runT (α := α) [⟨true, List.replicate 16 .undef⟩] [.f fovy, .f aspect, .f nearZ, .f farZ, .p 0 0] =
      .done (some (none, [⟨true, (Cglm.glm_perspective_rh_no fovy aspect nearZ farZ).list.map .f⟩])) := by kernel_rfl
theorem glm_perspective_default_rh_no_run (aspect : α) :
    C.glm_perspective_default_rh_no.runT (α := α) [⟨true, List.replicate 16 .undef⟩] [.f aspect, .p 0 0] =
      .done (some (none, [⟨true, (Cglm.glm_perspective_default_rh_no aspect).list.map .f⟩])) := by kernel_rfl
/-- `glm_perspective_resize_rh_no` with its branches as a tree -/
def glm_perspective_resize_rh_no_dt (aspect : α) (proj : M4 α) : DT (M4 α) :=
  .br (feq proj.c0.x (lit 0)) (
    .done proj) (
    .done ⟨⟨proj.c1.y / aspect, proj.c0.y, proj.c0.z, proj.c0.w⟩, proj.c1, proj.c2, proj.c3⟩)
theorem glm_perspective_resize_rh_no_dt_val (aspect : α) (proj : M4 α) : (glm_perspective_resize_rh_no_dt aspect proj).val = Cglm.glm_perspective_resize_rh_no aspect proj := by
  unfold glm_perspective_resize_rh_no_dt
  simp only [DT.val]
  kernel_rfl
theorem glm_perspective_resize_rh_no_run (aspect : α) (proj : M4 α) :
    C.glm_perspective_resize_rh_no.runT (α := α) [⟨true, proj.list.map .f⟩] [.f aspect, .p 0 0] =
      (Cglm.glm_perspective_resize_rh_no_dt aspect proj).map fun r => some (none, [⟨true, r.list.map .f⟩]) := by kernel_rfl
theorem glm_persp_move_far_rh_no_run (proj : M4 α) (deltaFar : α) :
    C.glm_persp_move_far_rh_no.runT (α := α) [⟨true, proj.list.map .f⟩] [.p 0 0, .f deltaFar] =
      .done (some (none, [⟨true, (Cglm.glm_persp_move_far_rh_no proj deltaFar).list.map .f⟩])) := by kernel_rfl
theorem glm_persp_decomp_rh_no_run (proj : M4 α) :
    C.glm_persp_decomp_rh_no.runT (α := α) [⟨false, proj.list.map .f⟩, ⟨true, List.replicate 1 .undef⟩, ⟨true, List.replicate 1 .undef⟩, ⟨true, List.replicate 1 .undef⟩, ⟨true, List.replicate 1 .undef⟩, ⟨true, List.replicate 1 .undef⟩, ⟨true, List.replicate 1 .undef⟩] [.p 0 0, .p 1 0, .p 2 0, .p 3 0, .p 4 0, .p 5 0, .p 6 0] =
      .done (some (none, [⟨false, proj.list.map .f⟩, ⟨true, [(Cglm.glm_persp_decomp_rh_no proj).1].map .f⟩, ⟨true, [(Cglm.glm_persp_decomp_rh_no proj).2.1].map .f⟩, ⟨true, [(Cglm.glm_persp_decomp_rh_no proj).2.2.1].map .f⟩, ⟨true, [(Cglm.glm_persp_decomp_rh_no proj).2.2.2.1].map .f⟩, ⟨true, [(Cglm.glm_persp_decomp_rh_no proj).2.2.2.2.1].map .f⟩, ⟨true, [(Cglm.glm_persp_decomp_rh_no proj).2.2.2.2.2].map .f⟩])) := by kernel_rfl
theorem glm_persp_decompv_rh_no_run (proj : M4 α) :
    C.glm_persp_decompv_rh_no.runT (α := α) [⟨false, proj.list.map .f⟩, ⟨true, List.replicate 6 .undef⟩] [.p 0 0, .p 1 0] =
      .done (some (none, [⟨false, proj.list.map .f⟩, ⟨true, (Cglm.glm_persp_decompv_rh_no proj).list.map .f⟩])) := by kernel_rfl
theorem glm_persp_decomp_x_rh_no_run (proj : M4 α) :
    C.glm_persp_decomp_x_rh_no.runT (α := α) [⟨false, proj.list.map .f⟩, ⟨true, List.replicate 1 .undef⟩, ⟨true, List.replicate 1 .undef⟩] [.p 0 0, .p 1 0, .p 2 0] =
      .done (some (none, [⟨false, proj.list.map .f⟩, ⟨true, [(Cglm.glm_persp_decomp_x_rh_no proj).1].map .f⟩, ⟨true, [(Cglm.glm_persp_decomp_x_rh_no proj).2].map .f⟩])) := by kernel_rfl
theorem glm_persp_decomp_y_rh_no_run (proj : M4 α) :
    C.glm_persp_decomp_y_rh_no.runT (α := α) [⟨false, proj.list.map .f⟩, ⟨true, List.replicate 1 .undef⟩, ⟨true, List.replicate 1 .undef⟩] [.p 0 0, .p 1 0, .p 2 0] =
      .done (some (none, [⟨false, proj.list.map .f⟩, ⟨true, [(Cglm.glm_persp_decomp_y_rh_no proj).1].map .f⟩, ⟨true, [(Cglm.glm_persp_decomp_y_rh_no proj).2].map .f⟩])) := by kernel_rfl
theorem glm_persp_decomp_z_rh_no_run (proj : M4 α) :
    C.glm_persp_decomp_z_rh_no.runT (α := α) [⟨false, proj.list.map .f⟩, ⟨true, List.replicate 1 .undef⟩, ⟨true, List.replicate 1 .undef⟩] [.p 0 0, .p 1 0, .p 2 0] =
      .done (some (none, [⟨false, proj.list.map .f⟩, ⟨true, [(Cglm.glm_persp_decomp_z_rh_no proj).1].map .f⟩, ⟨true, [(Cglm.glm_persp_decomp_z_rh_no proj).2].map .f⟩])) := by kernel_rfl
theorem glm_persp_decomp_far_rh_no_run (proj : M4 α) :
    C.glm_persp_decomp_far_rh_no.runT (α := α) [⟨false, proj.list.map .f⟩, ⟨true, List.replicate 1 .undef⟩] [.p 0 0, .p 1 0] =
      .done (some (none, [⟨false, proj.list.map .f⟩, ⟨true, [(Cglm.glm_persp_decomp_far_rh_no proj)].map .f⟩])) := by kernel_rfl
theorem glm_persp_decomp_near_rh_no_run (proj : M4 α) :
    C.glm_persp_decomp_near_rh_no.runT (α := α) [⟨false, proj.list.map .f⟩, ⟨true, List.replicate 1 .undef⟩] [.p 0 0, .p 1 0] =
      .done (some (none, [⟨false, proj.list.map .f⟩, ⟨true, [(Cglm.glm_persp_decomp_near_rh_no proj)].map .f⟩])) := by kernel_rfl
theorem glm_persp_sizes_rh_no_run (proj : M4 α) (fovy : α) :
    C.glm_persp_sizes_rh_no.runT (α := α) [⟨false, proj.list.map .f⟩, ⟨true, List.replicate 4 .undef⟩] [.p 0 0, .f fovy, .p 1 0] =
      .done (some (none, [⟨false, proj.list.map .f⟩, ⟨true, (Cglm.glm_persp_sizes_rh_no proj fovy).list.map .f⟩])) := by kernel_rfl
theorem glm_persp_fovy_rh_no_run (proj : M4 α) :
    C.glm_persp_fovy_rh_no.runT (α := α) [⟨false, proj.list.map .f⟩] [.p 0 0] =
      .done (some (some (.f (Cglm.glm_persp_fovy_rh_no proj)), [⟨false, proj.list.map .f⟩])) := by kernel_rfl
theorem glm_persp_aspect_rh_no_run (proj : M4 α) :
    C.glm_persp_aspect_rh_no.runT (α := α) [⟨false, proj.list.map .f⟩] [.p 0 0] =
      .done (some (some (.f (Cglm.glm_persp_aspect_rh_no proj)), [⟨false, proj.list.map .f⟩])) := by kernel_rfl

end Cglm

end ClipspacePerspRhNoRun

section ClipspaceViewRhRun

/-! Runs of the functions of include/cglm/clipspace/view_rh.h on canonical memories. -/

set_option linter.unusedVariables false
set_option linter.unusedSectionVars false

namespace Cglm
open CMem

variable {α : Type} [Add α] [Sub α] [Mul α] [Div α] [Neg α] [CFloat α]

/-- `glm_lookat_rh` with its branches as a tree -/
def glm_lookat_rh_dt (eye : V3 α) (center : V3 α) (up : V3 α) : DT (M4 α) :=
  let f := glm_vec3_sub center eye
  DT.bind (glm_vec3_normalize_dt f) fun f_1 =>
  DT.bind (glm_vec3_crossn_dt f_1 up) fun s =>
  let u := glm_vec3_cross s f_1
  .done ⟨⟨s.x, u.x, -f_1.x, lit 0⟩, ⟨s.y, u.y, -f_1.y, lit 0⟩, ⟨s.z, u.z, -f_1.z, lit 0⟩, ⟨-glm_vec3_dot s eye, -glm_vec3_dot u eye, glm_vec3_dot f_1 eye, lit 1⟩⟩
theorem glm_lookat_rh_dt_val (eye : V3 α) (center : V3 α) (up : V3 α) : (glm_lookat_rh_dt eye center up).val = Cglm.glm_lookat_rh eye center up := by
  unfold glm_lookat_rh_dt
  simp only [DT.val_bind, DT.val, glm_vec3_crossn_dt_val, glm_vec3_normalize_dt_val]
  kernel_rfl
theorem glm_lookat_rh_run (eye : V3 α) (center : V3 α) (up : V3 α) :
    C.glm_lookat_rh.runT (α := α) [⟨false, eye.list.map .f⟩, ⟨false, center.list.map .f⟩, ⟨false, up.list.map .f⟩, ⟨true, List.replicate 16 .undef⟩] [.p 0 0, .p 1 0, .p 2 0, .p 3 0] =
      (Cglm.glm_lookat_rh_dt eye center up).map fun r => some (none, [⟨false, eye.list.map .f⟩, ⟨false, center.list.map .f⟩, ⟨false, up.list.map .f⟩, ⟨true, r.list.map .f⟩]) := by kernel_rfl
/-- `glm_look_rh` with its branches as a tree -/
def glm_look_rh_dt (eye : V3 α) (dir : V3 α) (up : V3 α) : DT (M4 α) :=
  let target := glm_vec3_add eye dir
  DT.bind (glm_lookat_rh_dt eye target up) fun dest_1 =>
  .done dest_1
theorem glm_look_rh_dt_val (eye : V3 α) (dir : V3 α) (up : V3 α) : (glm_look_rh_dt eye dir up).val = Cglm.glm_look_rh eye dir up := by
  unfold glm_look_rh_dt
  simp only [DT.val_bind, DT.val, glm_lookat_rh_dt_val]
  kernel_rfl
theorem glm_look_rh_run (eye : V3 α) (dir : V3 α) (up : V3 α) :
    C.glm_look_rh.runT (α := α) [⟨false, eye.list.map .f⟩, ⟨false, dir.list.map .f⟩, ⟨false, up.list.map .f⟩, ⟨true, List.replicate 16 .undef⟩] [.p 0 0, .p 1 0, .p 2 0, .p 3 0] =
      (Cglm.glm_look_rh_dt eye dir up).map fun r => some (none, [⟨false, eye.list.map .f⟩, ⟨false, dir.list.map .f⟩, ⟨false, up.list.map .f⟩, ⟨true, r.list.map .f⟩]) := by kernel_rfl
/-- `glm_look_anyup_rh` with its branches as a tree -/
def glm_look_anyup_rh_dt (eye : V3 α) (dir : V3 α) : DT (M4 α) :=
  let up := glm_vec3_ortho dir
  DT.bind (glm_look_rh_dt eye dir up) fun dest_1 =>
  .done dest_1
theorem glm_look_anyup_rh_dt_val (eye : V3 α) (dir : V3 α) : (glm_look_anyup_rh_dt eye dir).val = Cglm.glm_look_anyup_rh eye dir := by
  unfold glm_look_anyup_rh_dt
  simp only [DT.val_bind, DT.val, glm_look_rh_dt_val]
  kernel_rfl
theorem glm_look_anyup_rh_run (eye : V3 α) (dir : V3 α) :
    C.glm_look_anyup_rh.runT (α := α) [⟨false, eye.list.map .f⟩, ⟨false, dir.list.map .f⟩, ⟨true, List.replicate 16 .undef⟩] [.p 0 0, .p 1 0, .p 2 0] =
      (Cglm.glm_look_anyup_rh_dt eye dir).map fun r => some (none, [⟨false, eye.list.map .f⟩, ⟨false, dir.list.map .f⟩, ⟨true, r.list.map .f⟩]) := by kernel_rfl

end Cglm

end ClipspaceViewRhRun

section CamRun

/-! Runs of the functions of include/cglm/cam.h on canonical memories. -/

set_option linter.unusedVariables false
set_option linter.unusedSectionVars false

namespace Cglm
open CMem

variable {α : Type} [Add α] [Sub α] [Mul α] [Div α] [Neg α] [CFloat α]

theorem glm_frustum_run (left : α) (right : α) (bottom : α) (top : α) (nearZ : α) (farZ : α) :
    C.glm_frustum.runT (α := α) [⟨true, List.replicate 16 .undef⟩] [.f left, .f right, .f bottom, .f top, .f nearZ, .f farZ, .p 0 0] =
      .done (some (none, [⟨true, (Cglm.glm_frustum left right bottom top nearZ farZ).list.map .f⟩])) := by kernel_rfl
theorem glm_ortho_run (left : α) (right : α) (bottom : α) (top : α) (nearZ : α) (farZ : α) :
    C.glm_ortho.runT (α := α) [⟨true, List.replicate 16 .undef⟩] [.f left, .f right, .f bottom, .f top, .f nearZ, .f farZ, .p 0 0] =
      .done (some (none, [⟨true, (Cglm.glm_ortho left right bottom top nearZ farZ).list.map .f⟩])) := by kernel_rfl
theorem glm_ortho_aabb_run (box : M2x3 α) :
    C.glm_ortho_aabb.runT (α := α) [⟨false, box.list.map .f⟩, ⟨true, List.replicate 16 .undef⟩] [.p 0 0, .p 1 0] =
      .done (some (none, [⟨false, box.list.map .f⟩, ⟨true, (Cglm.glm_ortho_aabb box).list.map .f⟩])) := by kernel_rfl
theorem glm_ortho_aabb_p_run (box : M2x3 α) (padding : α) :
    C.glm_ortho_aabb_p.runT (α := α) [⟨false, box.list.map .f⟩, ⟨true, List.replicate 16 .undef⟩] [.p 0 0, .f padding, .p 1 0] =
      .done (some (none, [⟨false, box.list.map .f⟩, ⟨true, (Cglm.glm_ortho_aabb_p box padding).list.map .f⟩])) := by kernel_rfl
theorem glm_ortho_aabb_pz_run (box : M2x3 α) (padding : α) :
    C.glm_ortho_aabb_pz.runT (α := α) [⟨false, box.list.map .f⟩, ⟨true, List.replicate 16 .undef⟩] [.p 0 0, .f padding, .p 1 0] =
      .done (some (none, [⟨false, box.list.map .f⟩, ⟨true, (Cglm.glm_ortho_aabb_pz box padding).list.map .f⟩])) := by kernel_rfl
/-- `glm_ortho_default` with its branches as a tree -/
def glm_ortho_default_dt (aspect : α) : DT (M4 α) :=
  DT.bind (glm_ortho_default_rh_no_dt aspect) fun dest_1 =>
  .done dest_1
theorem glm_ortho_default_dt_val (aspect : α) : (glm_ortho_default_dt aspect).val = Cglm.glm_ortho_default aspect := by
  unfold glm_ortho_default_dt
  simp only [DT.val_bind, DT.val, glm_ortho_default_rh_no_dt_val]
  kernel_rfl
theorem glm_ortho_default_run (aspect : α) :
    C.glm_ortho_default.runT (α := α) [⟨true, List.replicate 16 .undef⟩] [.f aspect, .p 0 0] =
      (Cglm.glm_ortho_default_dt aspect).map fun r => some (none, [⟨true, r.list.map .f⟩]) := by kernel_rfl
/-- `glm_ortho_default_s` with its branches as a tree -/
def glm_ortho_default_s_dt (aspect : α) (size : α) : DT (M4 α) :=
  DT.bind (glm_ortho_default_s_rh_no_dt aspect size) fun dest_1 =>
  .done dest_1
theorem glm_ortho_default_s_dt_val (aspect : α) (size : α) : (glm_ortho_default_s_dt aspect size).val = Cglm.glm_ortho_default_s aspect size := by
  unfold glm_ortho_default_s_dt
  simp only [DT.val_bind, DT.val, glm_ortho_default_s_rh_no_dt_val]
  kernel_rfl
theorem glm_ortho_default_s_run (aspect : α) (size : α) :
    C.glm_ortho_default_s.runT (α := α) [⟨true, List.replicate 16 .undef⟩] [.f aspect, .f size, .p 0 0] =
      (Cglm.glm_ortho_default_s_dt aspect size).map fun r => some (none, [⟨true, r.list.map .f⟩]) := by kernel_rfl
theorem glm_perspective_run (fovy : α) (aspect : α) (nearZ : α) (farZ : α) :
    C.glm_perspective.runT (α := α) [⟨true, List.replicate 16 .undef⟩] [.f fovy, .f aspect, .f nearZ, .f farZ, .p 0 0] =
      .done (some (none, [⟨true, (Cglm.glm_perspective fovy aspect nearZ farZ).list.map .f⟩])) := by kernel_rfl
theorem glm_persp_move_far_run (proj : M4 α) (deltaFar : α) :
    C.glm_persp_move_far.runT (α := α) [⟨true, proj.list.map .f⟩] [.p 0 0, .f deltaFar] =
      .done (some (none, [⟨true, (Cglm.glm_persp_move_far proj deltaFar).list.map .f⟩])) := by kernel_rfl
theorem glm_perspective_default_run (aspect : α) :
    C.glm_perspective_default.runT (α := α) [⟨true, List.replicate 16 .undef⟩] [.f aspect, .p 0 0] =
      .done (some (none, [⟨true, (Cglm.glm_perspective_default aspect).list.map .f⟩])) := by kernel_rfl
/-- `glm_perspective_resize` with its branches as a tree -/
def glm_perspective_resize_dt (aspect : α) (proj : M4 α) : DT (M4 α) :=
  .br (feq proj.c0.x (lit 0)) (
    .done proj) (
    .done ⟨⟨proj.c1.y / aspect, proj.c0.y, proj.c0.z, proj.c0.w⟩, proj.c1, proj.c2, proj.c3⟩)
theorem glm_perspective_resize_dt_val (aspect : α) (proj : M4 α) : (glm_perspective_resize_dt aspect proj).val = Cglm.glm_perspective_resize aspect proj := by
  unfold glm_perspective_resize_dt
  simp only [DT.val]
  kernel_rfl
theorem glm_perspective_resize_run (aspect : α) (proj : M4 α) :
    C.glm_perspective_resize.runT (α := α) [⟨true, proj.list.map .f⟩] [.f aspect, .p 0 0] =
      (Cglm.glm_perspective_resize_dt aspect proj).map fun r => some (none, [⟨true, r.list.map .f⟩]) := by kernel_rfl
/-- `glm_lookat` with its branches as a tree -/
def glm_lookat_dt (eye : V3 α) (center : V3 α) (up : V3 α) : DT (M4 α) :=
  DT.bind (glm_lookat_rh_dt eye center up) fun dest_1 =>
  .done dest_1
theorem glm_lookat_dt_val (eye : V3 α) (center : V3 α) (up : V3 α) : (glm_lookat_dt eye center up).val = Cglm.glm_lookat eye center up := by
  unfold glm_lookat_dt
  simp only [DT.val_bind, DT.val, glm_lookat_rh_dt_val]
  kernel_rfl
theorem glm_lookat_run (eye : V3 α) (center : V3 α) (up : V3 α) :
    C.glm_lookat.runT (α := α) [⟨false, eye.list.map .f⟩, ⟨false, center.list.map .f⟩, ⟨false, up.list.map .f⟩, ⟨true, List.replicate 16 .undef⟩] [.p 0 0, .p 1 0, .p 2 0, .p 3 0] =
      (Cglm.glm_lookat_dt eye center up).map fun r => some (none, [⟨false, eye.list.map .f⟩, ⟨false, center.list.map .f⟩, ⟨false, up.list.map .f⟩, ⟨true, r.list.map .f⟩]) := by kernel_rfl
/-- `glm_look` with its branches as a tree -/
def glm_look_dt (eye : V3 α) (dir : V3 α) (up : V3 α) : DT (M4 α) :=
  DT.bind (glm_look_rh_dt eye dir up) fun dest_1 =>
  .done dest_1
theorem glm_look_dt_val (eye : V3 α) (dir : V3 α) (up : V3 α) : (glm_look_dt eye dir up).val = Cglm.glm_look eye dir up := by
  unfold glm_look_dt
  simp only [DT.val_bind, DT.val, glm_look_rh_dt_val]
  kernel_rfl
theorem glm_look_run (eye : V3 α) (dir : V3 α) (up : V3 α) :
    C.glm_look.runT (α := α) [⟨false, eye.list.map .f⟩, ⟨false, dir.list.map .f⟩, ⟨false, up.list.map .f⟩, ⟨true, List.replicate 16 .undef⟩] [.p 0 0, .p 1 0, .p 2 0, .p 3 0] =
      (Cglm.glm_look_dt eye dir up).map fun r => some (none, [⟨false, eye.list.map .f⟩, ⟨false, dir.list.map .f⟩, ⟨false, up.list.map .f⟩, ⟨true, r.list.map .f⟩]) := by kernel_rfl
/-- `glm_look_anyup` with its branches as a tree -/
def glm_look_anyup_dt (eye : V3 α) (dir : V3 α) : DT (M4 α) :=
  DT.bind (glm_look_anyup_rh_dt eye dir) fun dest_1 =>
  .done dest_1
theorem glm_look_anyup_dt_val (eye : V3 α) (dir : V3 α) : (glm_look_anyup_dt eye dir).val = Cglm.glm_look_anyup eye dir := by
  unfold glm_look_anyup_dt
  simp only [DT.val_bind, DT.val, glm_look_anyup_rh_dt_val]
  kernel_rfl
theorem glm_look_anyup_run (eye : V3 α) (dir : V3 α) :
    C.glm_look_anyup.runT (α := α) [⟨false, eye.list.map .f⟩, ⟨false, dir.list.map .f⟩, ⟨true, List.replicate 16 .undef⟩] [.p 0 0, .p 1 0, .p 2 0] =
      (Cglm.glm_look_anyup_dt eye dir).map fun r => some (none, [⟨false, eye.list.map .f⟩, ⟨false, dir.list.map .f⟩, ⟨true, r.list.map .f⟩]) := by kernel_rfl
theorem glm_persp_decomp_run (proj : M4 α) :
    C.glm_persp_decomp.runT (α := α) [⟨false, proj.list.map .f⟩, ⟨true, List.replicate 1 .undef⟩, ⟨true, List.replicate 1 .undef⟩, ⟨true, List.replicate 1 .undef⟩, ⟨true, List.replicate 1 .undef⟩, ⟨true, List.replicate 1 .undef⟩, ⟨true, List.replicate 1 .undef⟩] [.p 0 0, .p 1 0, .p 2 0, .p 3 0, .p 4 0, .p 5 0, .p 6 0] =
      .done (some (none, [⟨false, proj.list.map .f⟩, ⟨true, [(Cglm.glm_persp_decomp proj).1].map .f⟩, ⟨true, [(Cglm.glm_persp_decomp proj).2.1].map .f⟩, ⟨true, [(Cglm.glm_persp_decomp proj).2.2.1].map .f⟩, ⟨true, [(Cglm.glm_persp_decomp proj).2.2.2.1].map .f⟩, ⟨true, [(Cglm.glm_persp_decomp proj).2.2.2.2.1].map .f⟩, ⟨true, [(Cglm.glm_persp_decomp proj).2.2.2.2.2].map .f⟩])) := by kernel_rfl
theorem glm_persp_decompv_run (proj : M4 α) :
    C.glm_persp_decompv.runT (α := α) [⟨false, proj.list.map .f⟩, ⟨true, List.replicate 6 .undef⟩] [.p 0 0, .p 1 0] =
      .done (some (none, [⟨false, proj.list.map .f⟩, ⟨true, (Cglm.glm_persp_decompv proj).list.map .f⟩])) := by kernel_rfl
theorem glm_persp_decomp_x_run (proj : M4 α) :
    C.glm_persp_decomp_x.runT (α := α) [⟨false, proj.list.map .f⟩, ⟨true, List.replicate 1 .undef⟩, ⟨true, List.replicate 1 .undef⟩] [.p 0 0, .p 1 0, .p 2 0] =
      .done (some (none, [⟨false, proj.list.map .f⟩, ⟨true, [(Cglm.glm_persp_decomp_x proj).1].map .f⟩, ⟨true, [(Cglm.glm_persp_decomp_x proj).2].map .f⟩])) := by kernel_rfl
theorem glm_persp_decomp_y_run (proj : M4 α) :
    C.glm_persp_decomp_y.runT (α := α) [⟨false, proj.list.map .f⟩, ⟨true, List.replicate 1 .undef⟩, ⟨true, List.replicate 1 .undef⟩] [.p 0 0, .p 1 0, .p 2 0] =
      .done (some (none, [⟨false, proj.list.map .f⟩, ⟨true, [(Cglm.glm_persp_decomp_y proj).1].map .f⟩, ⟨true, [(Cglm.glm_persp_decomp_y proj).2].map .f⟩])) := by kernel_rfl
theorem glm_persp_decomp_z_run (proj : M4 α) :
    C.glm_persp_decomp_z.runT (α := α) [⟨false, proj.list.map .f⟩, ⟨true, List.replicate 1 .undef⟩, ⟨true, List.replicate 1 .undef⟩] [.p 0 0, .p 1 0, .p 2 0] =
      .done (some (none, [⟨false, proj.list.map .f⟩, ⟨true, [(Cglm.glm_persp_decomp_z proj).1].map .f⟩, ⟨true, [(Cglm.glm_persp_decomp_z proj).2].map .f⟩])) := by kernel_rfl
theorem glm_persp_decomp_far_run (proj : M4 α) :
    C.glm_persp_decomp_far.runT (α := α) [⟨false, proj.list.map .f⟩, ⟨true, List.replicate 1 .undef⟩] [.p 0 0, .p 1 0] =
      .done (some (none, [⟨false, proj.list.map .f⟩, ⟨true, [(Cglm.glm_persp_decomp_far proj)].map .f⟩])) := by kernel_rfl
theorem glm_persp_decomp_near_run (proj : M4 α) :
    C.glm_persp_decomp_near.runT (α := α) [⟨false, proj.list.map .f⟩, ⟨true, List.replicate 1 .undef⟩] [.p 0 0, .p 1 0] =
      .done (some (none, [⟨false, proj.list.map .f⟩, ⟨true, [(Cglm.glm_persp_decomp_near proj)].map .f⟩])) := by kernel_rfl
theorem glm_persp_sizes_run (proj : M4 α) (fovy : α) :
    C.glm_persp_sizes.runT (α := α) [⟨false, proj.list.map .f⟩, ⟨true, List.replicate 4 .undef⟩] [.p 0 0, .f fovy, .p 1 0] =
      .done (some (none, [⟨false, proj.list.map .f⟩, ⟨true, (Cglm.glm_persp_sizes proj fovy).list.map .f⟩])) := by kernel_rfl

end Cglm

end CamRun

section ClipspaceOrthoLhNoRun

/-! Runs of the functions of include/cglm/clipspace/ortho_lh_no.h on canonical memories. -/

set_option linter.unusedVariables false
set_option linter.unusedSectionVars false

namespace Cglm
open CMem

variable {α : Type} [Add α] [Sub α] [Mul α] [Div α] [Neg α] [CFloat α]

theorem glm_ortho_lh_no_run (left : α) (right : α) (bottom : α) (top : α) (nearZ : α) (farZ : α) :
    C.glm_ortho_lh_no.runT (α := α) [⟨true, List.replicate 16 .undef⟩] [.f left, .f right, .f bottom, .f top, .f nearZ, .f farZ, .p 0 0] =
      .done (some (none, [⟨true, (Cglm.glm_ortho_lh_no left right bottom top nearZ farZ).list.map .f⟩])) := by kernel_rfl
theorem glm_ortho_aabb_lh_no_run (box : M2x3 α) :
    C.glm_ortho_aabb_lh_no.runT (α := α) [⟨false, box.list.map .f⟩, ⟨true, List.replicate 16 .undef⟩] [.p 0 0, .p 1 0] =
      .done (some (none, [⟨false, box.list.map .f⟩, ⟨true, (Cglm.glm_ortho_aabb_lh_no box).list.map .f⟩])) := by kernel_rfl
theorem glm_ortho_aabb_p_lh_no_run (box : M2x3 α) (padding : α) :
    C.glm_ortho_aabb_p_lh_no.runT (α := α) [⟨false, box.list.map .f⟩, ⟨true, List.replicate 16 .undef⟩] [.p 0 0, .f padding, .p 1 0] =
      .done (some (none, [⟨false, box.list.map .f⟩, ⟨true, (Cglm.glm_ortho_aabb_p_lh_no box padding).list.map .f⟩])) := by kernel_rfl
theorem glm_ortho_aabb_pz_lh_no_run (box : M2x3 α) (padding : α) :
    C.glm_ortho_aabb_pz_lh_no.runT (α := α) [⟨false, box.list.map .f⟩, ⟨true, List.replicate 16 .undef⟩] [.p 0 0, .f padding, .p 1 0] =
      .done (some (none, [⟨false, box.list.map .f⟩, ⟨true, (Cglm.glm_ortho_aabb_pz_lh_no box padding).list.map .f⟩])) := by kernel_rfl
/-- `glm_ortho_default_lh_no` with its branches as a tree -/
def glm_ortho_default_lh_no_dt (aspect : α) : DT (M4 α) :=
  .br (fle (lit 1) aspect) (
    .done (glm_ortho_lh_no (-aspect) aspect (-(lit 1)) (lit 1) (-(lit 100)) (lit 100))) (
    let aspect_1 := (lit 1) / aspect
    .done (glm_ortho_lh_no (-(lit 1)) (lit 1) (-aspect_1) aspect_1 (-(lit 100)) (lit 100)))
theorem glm_ortho_default_lh_no_dt_val (aspect : α) : (glm_ortho_default_lh_no_dt aspect).val = Cglm.glm_ortho_default_lh_no aspect := by
  unfold glm_ortho_default_lh_no_dt
  simp only [DT.val]
  kernel_rfl
theorem glm_ortho_default_lh_no_run (aspect : α) :
    C.glm_ortho_default_lh_no.runT (α := α) [⟨true, List.replicate 16 .undef⟩] [.f aspect, .p 0 0] =
      (Cglm.glm_ortho_default_lh_no_dt aspect).map fun r => some (none, [⟨true, r.list.map .f⟩]) := by kernel_rfl
/-- `glm_ortho_default_s_lh_no` with its branches as a tree -/
def glm_ortho_default_s_lh_no_dt (aspect : α) (size : α) : DT (M4 α) :=
  .br (fle (lit 1) aspect) (
    .done (glm_ortho_lh_no ((-size) * aspect) (size * aspect) (-size) size (-size - (lit 100)) (size + (lit 100)))) (
    .done (glm_ortho_lh_no (-size) size ((-size) / aspect) (size / aspect) (-size - (lit 100)) (size + (lit 100))))
theorem glm_ortho_default_s_lh_no_dt_val (aspect : α) (size : α) : (glm_ortho_default_s_lh_no_dt aspect size).val = Cglm.glm_ortho_default_s_lh_no aspect size := by
  unfold glm_ortho_default_s_lh_no_dt
  simp only [DT.val]
  kernel_rfl
theorem glm_ortho_default_s_lh_no_run (aspect : α) (size : α) :
    C.glm_ortho_default_s_lh_no.runT (α := α) [⟨true, List.replicate 16 .undef⟩] [.f aspect, .f size, .p 0 0] =
      (Cglm.glm_ortho_default_s_lh_no_dt aspect size).map fun r => some (none, [⟨true, r.list.map .f⟩]) := by kernel_rfl

end Cglm

end ClipspaceOrthoLhNoRun

section ClipspaceOrthoLhZoRun

/-! Runs of the functions of include/cglm/clipspace/ortho_lh_zo.h on canonical memories. -/

set_option linter.unusedVariables false
set_option linter.unusedSectionVars false

namespace Cglm
open CMem

variable {α : Type} [Add α] [Sub α] [Mul α] [Div α] [Neg α] [CFloat α]

theorem glm_ortho_lh_zo_run (left : α) (right : α) (bottom : α) (top : α) (nearZ : α) (farZ : α) :
    C.glm_ortho_lh_zo.runT (α := α) [⟨true, List.replicate 16 .undef⟩] [.f left, .f right, .f bottom, .f top, .f nearZ, .f farZ, .p 0 0] =
      .done (some (none, [⟨true, (Cglm.glm_ortho_lh_zo left right bottom top nearZ farZ).list.map .f⟩])) := by kernel_rfl
theorem glm_ortho_aabb_lh_zo_run (box : M2x3 α) :
    C.glm_ortho_aabb_lh_zo.runT (α := α) [⟨false, box.list.map .f⟩, ⟨true, List.replicate 16 .undef⟩] [.p 0 0, .p 1 0] =
      .done (some (none, [⟨false, box.list.map .f⟩, ⟨true, (Cglm.glm_ortho_aabb_lh_zo box).list.map .f⟩])) := by kernel_rfl
theorem glm_ortho_aabb_p_lh_zo_run (box : M2x3 α) (padding : α) :
    C.glm_ortho_aabb_p_lh_zo.runT (α := α) [⟨false, box.list.map .f⟩, ⟨true, List.replicate 16 .undef⟩] [.p 0 0, .f padding, .p 1 0] =
      .done (some (none, [⟨false, box.list.map .f⟩, ⟨true, (Cglm.glm_ortho_aabb_p_lh_zo box padding).list.map .f⟩])) := by kernel_rfl
theorem glm_ortho_aabb_pz_lh_zo_run (box : M2x3 α) (padding : α) :
    C.glm_ortho_aabb_pz_lh_zo.runT (α := α) [⟨false, box.list.map .f⟩, ⟨true, List.replicate 16 .undef⟩] [.p 0 0, .f padding, .p 1 0] =
      .done (some (none, [⟨false, box.list.map .f⟩, ⟨true, (Cglm.glm_ortho_aabb_pz_lh_zo box padding).list.map .f⟩])) := by kernel_rfl
/-- `glm_ortho_default_lh_zo` with its branches as a tree -/
def glm_ortho_default_lh_zo_dt (aspect : α) : DT (M4 α) :=
  .br (fle (lit 1) aspect) (
    .done (glm_ortho_lh_zo (-aspect) aspect (-(lit 1)) (lit 1) (-(lit 100)) (lit 100))) (
    let aspect_1 := (lit 1) / aspect
    .done (glm_ortho_lh_zo (-(lit 1)) (lit 1) (-aspect_1) aspect_1 (-(lit 100)) (lit 100)))
theorem glm_ortho_default_lh_zo_dt_val (aspect : α) : (glm_ortho_default_lh_zo_dt aspect).val = Cglm.glm_ortho_default_lh_zo aspect := by
  unfold glm_ortho_default_lh_zo_dt
  simp only [DT.val]
  kernel_rfl
theorem glm_ortho_default_lh_zo_run (aspect : α) :
    C.glm_ortho_default_lh_zo.runT (α := α) [⟨true, List.replicate 16 .undef⟩] [.f aspect, .p 0 0] =
      (Cglm.glm_ortho_default_lh_zo_dt aspect).map fun r => some (none, [⟨true, r.list.map .f⟩]) := by kernel_rfl
/-- `glm_ortho_default_s_lh_zo` with its branches as a tree -/
def glm_ortho_default_s_lh_zo_dt (aspect : α) (size : α) : DT (M4 α) :=
  .br (fle (lit 1) aspect) (
    .done (glm_ortho_lh_zo ((-size) * aspect) (size * aspect) (-size) size (-size - (lit 100)) (size + (lit 100)))) (
    .done (glm_ortho_lh_zo (-size) size ((-size) / aspect) (size / aspect) (-size - (lit 100)) (size + (lit 100))))
theorem glm_ortho_default_s_lh_zo_dt_val (aspect : α) (size : α) : (glm_ortho_default_s_lh_zo_dt aspect size).val = Cglm.glm_ortho_default_s_lh_zo aspect size := by
  unfold glm_ortho_default_s_lh_zo_dt
  simp only [DT.val]
  kernel_rfl
theorem glm_ortho_default_s_lh_zo_run (aspect : α) (size : α) :
    C.glm_ortho_default_s_lh_zo.runT (α := α) [⟨true, List.replicate 16 .undef⟩] [.f aspect, .f size, .p 0 0] =
      (Cglm.glm_ortho_default_s_lh_zo_dt aspect size).map fun r => some (none, [⟨true, r.list.map .f⟩]) := by kernel_rfl

end Cglm

end ClipspaceOrthoLhZoRun

section ClipspaceOrthoRhZoRun

/-! Runs of the functions of include/cglm/clipspace/ortho_rh_zo.h on canonical memories. -/

set_option linter.unusedVariables false
set_option linter.unusedSectionVars false

namespace Cglm
open CMem

variable {α : Type} [Add α] [Sub α] [Mul α] [Div α] [Neg α] [CFloat α]

theorem glm_ortho_rh_zo_run (left : α) (right : α) (bottom : α) (top : α) (nearZ : α) (farZ : α) :
    C.glm_ortho_rh_zo.runT (α := α) [⟨true, List.replicate 16 .undef⟩] [.f left, .f right, .f bottom, .f top, .f nearZ, .f farZ, .p 0 0] =
      .done (some (none, [⟨true, (Cglm.glm_ortho_rh_zo left right bottom top nearZ farZ).list.map .f⟩])) := by kernel_rfl
theorem glm_ortho_aabb_rh_zo_run (box : M2x3 α) :
    C.glm_ortho_aabb_rh_zo.runT (α := α) [⟨false, box.list.map .f⟩, ⟨true, List.replicate 16 .undef⟩] [.p 0 0, .p 1 0] =
      .done (some (none, [⟨false, box.list.map .f⟩, ⟨true, (Cglm.glm_ortho_aabb_rh_zo box).list.map .f⟩])) := by kernel_rfl
theorem glm_ortho_aabb_p_rh_zo_run (box : M2x3 α) (padding : α) :
    C.glm_ortho_aabb_p_rh_zo.runT (α := α) [⟨false, box.list.map .f⟩, ⟨true, List.replicate 16 .undef⟩] [.p 0 0, .f padding, .p 1 0] =
      .done (some (none, [⟨false, box.list.map .f⟩, ⟨true, (Cglm.glm_ortho_aabb_p_rh_zo box padding).list.map .f⟩])) := by kernel_rfl
theorem glm_ortho_aabb_pz_rh_zo_run (box : M2x3 α) (padding : α) :
    C.glm_ortho_aabb_pz_rh_zo.runT (α := α) [⟨false, box.list.map .f⟩, ⟨true, List.replicate 16 .undef⟩] [.p 0 0, .f padding, .p 1 0] =
      .done (some (none, [⟨false, box.list.map .f⟩, ⟨true, (Cglm.glm_ortho_aabb_pz_rh_zo box padding).list.map .f⟩])) := by kernel_rfl
/-- `glm_ortho_default_rh_zo` with its branches as a tree -/
def glm_ortho_default_rh_zo_dt (aspect : α) : DT (M4 α) :=
  .br (fle (lit 1) aspect) (
    .done (glm_ortho_rh_zo (-aspect) aspect (-(lit 1)) (lit 1) (-(lit 100)) (lit 100))) (
    let aspect_1 := (lit 1) / aspect
    .done (glm_ortho_rh_zo (-(lit 1)) (lit 1) (-aspect_1) aspect_1 (-(lit 100)) (lit 100)))
theorem glm_ortho_default_rh_zo_dt_val (aspect : α) : (glm_ortho_default_rh_zo_dt aspect).val = Cglm.glm_ortho_default_rh_zo aspect := by
  unfold glm_ortho_default_rh_zo_dt
  simp only [DT.val]
  kernel_rfl
theorem glm_ortho_default_rh_zo_run (aspect : α) :
    C.glm_ortho_default_rh_zo.runT (α := α) [⟨true, List.replicate 16 .undef⟩] [.f aspect, .p 0 0] =
      (Cglm.glm_ortho_default_rh_zo_dt aspect).map fun r => some (none, [⟨true, r.list.map .f⟩]) := by kernel_rfl
/-- `glm_ortho_default_s_rh_zo` with its branches as a tree -/
def glm_ortho_default_s_rh_zo_dt (aspect : α) (size : α) : DT (M4 α) :=
  .br (fle (lit 1) aspect) (
    .done (glm_ortho_rh_zo ((-size) * aspect) (size * aspect) (-size) size (-size - (lit 100)) (size + (lit 100)))) (
    .done (glm_ortho_rh_zo (-size) size ((-size) / aspect) (size / aspect) (-size - (lit 100)) (size + (lit 100))))
theorem glm_ortho_default_s_rh_zo_dt_val (aspect : α) (size : α) : (glm_ortho_default_s_rh_zo_dt aspect size).val = Cglm.glm_ortho_default_s_rh_zo aspect size := by
  unfold glm_ortho_default_s_rh_zo_dt
  simp only [DT.val]
  kernel_rfl
theorem glm_ortho_default_s_rh_zo_run (aspect : α) (size : α) :
    C.glm_ortho_default_s_rh_zo.runT (α := α) [⟨true, List.replicate 16 .undef⟩] [.f aspect, .f size, .p 0 0] =
      (Cglm.glm_ortho_default_s_rh_zo_dt aspect size).map fun r => some (none, [⟨true, r.list.map .f⟩]) := by kernel_rfl

end Cglm

end ClipspaceOrthoRhZoRun

section ClipspacePerspLhNoRun

/-! Runs of the functions of include/cglm/clipspace/persp_lh_no.h on canonical memories. -/

set_option linter.unusedVariables false
set_option linter.unusedSectionVars false

namespace Cglm
open CMem

variable {α : Type} [Add α] [Sub α] [Mul α] [Div α] [Neg α] [CFloat α]

theorem glm_frustum_lh_no_run (left : α) (right : α) (bottom : α) (top : α) (nearZ : α) (farZ : α) :
    C.glm_frustum_lh_no.runT (α := α) [⟨true, List.replicate 16 .undef⟩] [.f left, .f right, .f bottom, .f top, .f nearZ, .f farZ, .p 0 0] =
      .done (some (none, [⟨true, (Cglm.glm_frustum_lh_no left right bottom top nearZ farZ).list.map .f⟩])) := by kernel_rfl
theorem glm_perspective_lh_no_run (fovy : α) (aspect : α) (nearZ : α) (farZ : α) :
    C.glm_perspective_lh_no.runT (α := α) [⟨true, List.replicate 16 .undef⟩] [.f fovy, .f aspect, .f nearZ, .f farZ, .p 0 0] =
      .done (some (none, [⟨true, (Cglm.glm_perspective_lh_no fovy aspect nearZ farZ).list.map .f⟩])) := by kernel_rfl
theorem glm_perspective_default_lh_no_run (aspect : α) :
    C.glm_perspective_default_lh_no.runT (α := α) [⟨true, List.replicate 16 .undef⟩] [.f aspect, .p 0 0] =
      .done (some (none, [⟨true, (Cglm.glm_perspective_default_lh_no aspect).list.map .f⟩])) := by kernel_rfl
/-- `glm_perspective_resize_lh_no` with its branches as a tree -/
def glm_perspective_resize_lh_no_dt (aspect : α) (proj : M4 α) : DT (M4 α) :=
  .br (feq proj.c0.x (lit 0)) (
    .done proj) (
    .done ⟨⟨proj.c1.y / aspect, proj.c0.y, proj.c0.z, proj.c0.w⟩, proj.c1, proj.c2, proj.c3⟩)
theorem glm_perspective_resize_lh_no_dt_val (aspect : α) (proj : M4 α) : (glm_perspective_resize_lh_no_dt aspect proj).val = Cglm.glm_perspective_resize_lh_no aspect proj := by
  unfold glm_perspective_resize_lh_no_dt
  simp only [DT.val]
  kernel_rfl
theorem glm_perspective_resize_lh_no_run (aspect : α) (proj : M4 α) :
    C.glm_perspective_resize_lh_no.runT (α := α) [⟨true, proj.list.map .f⟩] [.f aspect, .p 0 0] =
      (Cglm.glm_perspective_resize_lh_no_dt aspect proj).map fun r => some (none, [⟨true, r.list.map .f⟩]) := by kernel_rfl
theorem glm_persp_move_far_lh_no_run (proj : M4 α) (deltaFar : α) :
    C.glm_persp_move_far_lh_no.runT (α := α) [⟨true, proj.list.map .f⟩] [.p 0 0, .f deltaFar] =
      .done (some (none, [⟨true, (Cglm.glm_persp_move_far_lh_no proj deltaFar).list.map .f⟩])) := by kernel_rfl
theorem glm_persp_decomp_lh_no_run (proj : M4 α) :
    C.glm_persp_decomp_lh_no.runT (α := α) [⟨false, proj.list.map .f⟩, ⟨true, List.replicate 1 .undef⟩, ⟨true, List.replicate 1 .undef⟩, ⟨true, List.replicate 1 .undef⟩, ⟨true, List.replicate 1 .undef⟩, ⟨true, List.replicate 1 .undef⟩, ⟨true, List.replicate 1 .undef⟩] [.p 0 0, .p 1 0, .p 2 0, .p 3 0, .p 4 0, .p 5 0, .p 6 0] =
      .done (some (none, [⟨false, proj.list.map .f⟩, ⟨true, [(Cglm.glm_persp_decomp_lh_no proj).1].map .f⟩, ⟨true, [(Cglm.glm_persp_decomp_lh_no proj).2.1].map .f⟩, ⟨true, [(Cglm.glm_persp_decomp_lh_no proj).2.2.1].map .f⟩, ⟨true, [(Cglm.glm_persp_decomp_lh_no proj).2.2.2.1].map .f⟩, ⟨true, [(Cglm.glm_persp_decomp_lh_no proj).2.2.2.2.1].map .f⟩, ⟨true, [(Cglm.glm_persp_decomp_lh_no proj).2.2.2.2.2].map .f⟩])) := by kernel_rfl
theorem glm_persp_decompv_lh_no_run (proj : M4 α) :
    C.glm_persp_decompv_lh_no.runT (α := α) [⟨false, proj.list.map .f⟩, ⟨true, List.replicate 6 .undef⟩] [.p 0 0, .p 1 0] =
      .done (some (none, [⟨false, proj.list.map .f⟩, ⟨true, (Cglm.glm_persp_decompv_lh_no proj).list.map .f⟩])) := by kernel_rfl
theorem glm_persp_decomp_x_lh_no_run (proj : M4 α) :
    C.glm_persp_decomp_x_lh_no.runT (α := α) [⟨false, proj.list.map .f⟩, ⟨true, List.replicate 1 .undef⟩, ⟨true, List.replicate 1 .undef⟩] [.p 0 0, .p 1 0, .p 2 0] =
      .done (some (none, [⟨false, proj.list.map .f⟩, ⟨true, [(Cglm.glm_persp_decomp_x_lh_no proj).1].map .f⟩, ⟨true, [(Cglm.glm_persp_decomp_x_lh_no proj).2].map .f⟩])) := by kernel_rfl
theorem glm_persp_decomp_y_lh_no_run (proj : M4 α) :
    C.glm_persp_decomp_y_lh_no.runT (α := α) [⟨false, proj.list.map .f⟩, ⟨true, List.replicate 1 .undef⟩, ⟨true, List.replicate 1 .undef⟩] [.p 0 0, .p 1 0, .p 2 0] =
      .done (some (none, [⟨false, proj.list.map .f⟩, ⟨true, [(Cglm.glm_persp_decomp_y_lh_no proj).1].map .f⟩, ⟨true, [(Cglm.glm_persp_decomp_y_lh_no proj).2].map .f⟩])) := by kernel_rfl
theorem glm_persp_decomp_z_lh_no_run (proj : M4 α) :
    C.glm_persp_decomp_z_lh_no.runT (α := α) [⟨false, proj.list.map .f⟩, ⟨true, List.replicate 1 .undef⟩, ⟨true, List.replicate 1 .undef⟩] [.p 0 0, .p 1 0, .p 2 0] =
      .done (some (none, [⟨false, proj.list.map .f⟩, ⟨true, [(Cglm.glm_persp_decomp_z_lh_no proj).1].map .f⟩, ⟨true, [(Cglm.glm_persp_decomp_z_lh_no proj).2].map .f⟩])) := by kernel_rfl
theorem glm_persp_decomp_far_lh_no_run (proj : M4 α) :
    C.glm_persp_decomp_far_lh_no.runT (α := α) [⟨false, proj.list.map .f⟩, ⟨true, List.replicate 1 .undef⟩] [.p 0 0, .p 1 0] =
      .done (some (none, [⟨false, proj.list.map .f⟩, ⟨true, [(Cglm.glm_persp_decomp_far_lh_no proj)].map .f⟩])) := by kernel_rfl
theorem glm_persp_decomp_near_lh_no_run (proj : M4 α) :
    C.glm_persp_decomp_near_lh_no.runT (α := α) [⟨false, proj.list.map .f⟩, ⟨true, List.replicate 1 .undef⟩] [.p 0 0, .p 1 0] =
      .done (some (none, [⟨false, proj.list.map .f⟩, ⟨true, [(Cglm.glm_persp_decomp_near_lh_no proj)].map .f⟩])) := by kernel_rfl
theorem glm_persp_sizes_lh_no_run (proj : M4 α) (fovy : α) :
    C.glm_persp_sizes_lh_no.runT (α := α) [⟨false, proj.list.map .f⟩, ⟨true, List.replicate 4 .undef⟩] [.p 0 0, .f fovy, .p 1 0] =
      .done (some (none, [⟨false, proj.list.map .f⟩, ⟨true, (Cglm.glm_persp_sizes_lh_no proj fovy).list.map .f⟩])) := by kernel_rfl
theorem glm_persp_fovy_lh_no_run (proj : M4 α) :
    C.glm_persp_fovy_lh_no.runT (α := α) [⟨false, proj.list.map .f⟩] [.p 0 0] =
      .done (some (some (.f (Cglm.glm_persp_fovy_lh_no proj)), [⟨false, proj.list.map .f⟩])) := by kernel_rfl
theorem glm_persp_aspect_lh_no_run (proj : M4 α) :
    C.glm_persp_aspect_lh_no.runT (α := α) [⟨false, proj.list.map .f⟩] [.p 0 0] =
      .done (some (some (.f (Cglm.glm_persp_aspect_lh_no proj)), [⟨false, proj.list.map .f⟩])) := by kernel_rfl

end Cglm

end ClipspacePerspLhNoRun

section ClipspacePerspLhZoRun

/-! Runs of the functions of include/cglm/clipspace/persp_lh_zo.h on canonical memories. -/

set_option linter.unusedVariables false
set_option linter.unusedSectionVars false

namespace Cglm
open CMem

variable {α : Type} [Add α] [Sub α] [Mul α] [Div α] [Neg α] [CFloat α]

theorem glm_frustum_lh_zo_run (left : α) (right : α) (bottom : α) (top : α) (nearZ : α) (farZ : α) :
    C.glm_frustum_lh_zo.runT (α := α) [⟨true, List.replicate 16 .undef⟩] [.f left, .f right, .f bottom, .f top, .f nearZ, .f farZ, .p 0 0] =
      .done (some (none, [⟨true, (Cglm.glm_frustum_lh_zo left right bottom top nearZ farZ).list.map .f⟩])) := by kernel_rfl
theorem glm_perspective_lh_zo_run (fovy : α) (aspect : α) (nearZ : α) (farZ : α) :
    C.glm_perspective_lh_zo.runT (α := α) [⟨true, List.replicate 16 .undef⟩] [.f fovy, .f aspect, .f nearZ, .f farZ, .p 0 0] =
      .done (some (none, [⟨true, (Cglm.glm_perspective_lh_zo fovy aspect nearZ farZ).list.map .f⟩])) := by kernel_rfl
theorem glm_persp_move_far_lh_zo_run (proj : M4 α) (deltaFar : α) :
    C.glm_persp_move_far_lh_zo.runT (α := α) [⟨true, proj.list.map .f⟩] [.p 0 0, .f deltaFar] =
      .done (some (none, [⟨true, (Cglm.glm_persp_move_far_lh_zo proj deltaFar).list.map .f⟩])) := by kernel_rfl
theorem glm_perspective_default_lh_zo_run (aspect : α) :
    C.glm_perspective_default_lh_zo.runT (α := α) [⟨true, List.replicate 16 .undef⟩] [.f aspect, .p 0 0] =
      .done (some (none, [⟨true, (Cglm.glm_perspective_default_lh_zo aspect).list.map .f⟩])) := by kernel_rfl
/-- `glm_perspective_resize_lh_zo` with its branches as a tree -/
def glm_perspective_resize_lh_zo_dt (aspect : α) (proj : M4 α) : DT (M4 α) :=
  .br (feq proj.c0.x (lit 0)) (
    .done proj) (
    .done ⟨⟨proj.c1.y / aspect, proj.c0.y, proj.c0.z, proj.c0.w⟩, proj.c1, proj.c2, proj.c3⟩)
theorem glm_perspective_resize_lh_zo_dt_val (aspect : α) (proj : M4 α) : (glm_perspective_resize_lh_zo_dt aspect proj).val = Cglm.glm_perspective_resize_lh_zo aspect proj := by
  unfold glm_perspective_resize_lh_zo_dt
  simp only [DT.val]
  kernel_rfl
theorem glm_perspective_resize_lh_zo_run (aspect : α) (proj : M4 α) :
    C.glm_perspective_resize_lh_zo.runT (α := α) [⟨true, proj.list.map .f⟩] [.f aspect, .p 0 0] =
      (Cglm.glm_perspective_resize_lh_zo_dt aspect proj).map fun r => some (none, [⟨true, r.list.map .f⟩]) := by kernel_rfl
theorem glm_persp_decomp_lh_zo_run (proj : M4 α) :
    C.glm_persp_decomp_lh_zo.runT (α := α) [⟨false, proj.list.map .f⟩, ⟨true, List.replicate 1 .undef⟩, ⟨true, List.replicate 1 .undef⟩, ⟨true, List.replicate 1 .undef⟩, ⟨true, List.replicate 1 .undef⟩, ⟨true, List.replicate 1 .undef⟩, ⟨true, List.replicate 1 .undef⟩] [.p 0 0, .p 1 0, .p 2 0, .p 3 0, .p 4 0, .p 5 0, .p 6 0] =
      .done (some (none, [⟨false, proj.list.map .f⟩, ⟨true, [(Cglm.glm_persp_decomp_lh_zo proj).1].map .f⟩, ⟨true, [(Cglm.glm_persp_decomp_lh_zo proj).2.1].map .f⟩, ⟨true, [(Cglm.glm_persp_decomp_lh_zo proj).2.2.1].map .f⟩, ⟨true, [(Cglm.glm_persp_decomp_lh_zo proj).2.2.2.1].map .f⟩, ⟨true, [(Cglm.glm_persp_decomp_lh_zo proj).2.2.2.2.1].map .f⟩, ⟨true, [(Cglm.glm_persp_decomp_lh_zo proj).2.2.2.2.2].map .f⟩])) := by kernel_rfl
theorem glm_persp_decompv_lh_zo_run (proj : M4 α) :
    C.glm_persp_decompv_lh_zo.runT (α := α) [⟨false, proj.list.map .f⟩, ⟨true, List.replicate 6 .undef⟩] [.p 0 0, .p 1 0] =
      .done (some (none, [⟨false, proj.list.map .f⟩, ⟨true, (Cglm.glm_persp_decompv_lh_zo proj).list.map .f⟩])) := by kernel_rfl
theorem glm_persp_decomp_x_lh_zo_run (proj : M4 α) :
    C.glm_persp_decomp_x_lh_zo.runT (α := α) [⟨false, proj.list.map .f⟩, ⟨true, List.replicate 1 .undef⟩, ⟨true, List.replicate 1 .undef⟩] [.p 0 0, .p 1 0, .p 2 0] =
      .done (some (none, [⟨false, proj.list.map .f⟩, ⟨true, [(Cglm.glm_persp_decomp_x_lh_zo proj).1].map .f⟩, ⟨true, [(Cglm.glm_persp_decomp_x_lh_zo proj).2].map .f⟩])) := by kernel_rfl
theorem glm_persp_decomp_y_lh_zo_run (proj : M4 α) :
    C.glm_persp_decomp_y_lh_zo.runT (α := α) [⟨false, proj.list.map .f⟩, ⟨true, List.replicate 1 .undef⟩, ⟨true, List.replicate 1 .undef⟩] [.p 0 0, .p 1 0, .p 2 0] =
      .done (some (none, [⟨false, proj.list.map .f⟩, ⟨true, [(Cglm.glm_persp_decomp_y_lh_zo proj).1].map .f⟩, ⟨true, [(Cglm.glm_persp_decomp_y_lh_zo proj).2].map .f⟩])) := by kernel_rfl
theorem glm_persp_decomp_z_lh_zo_run (proj : M4 α) :
    C.glm_persp_decomp_z_lh_zo.runT (α := α) [⟨false, proj.list.map .f⟩, ⟨true, List.replicate 1 .undef⟩, ⟨true, List.replicate 1 .undef⟩] [.p 0 0, .p 1 0, .p 2 0] =
      .done (some (none, [⟨false, proj.list.map .f⟩, ⟨true, [(Cglm.glm_persp_decomp_z_lh_zo proj).1].map .f⟩, ⟨true, [(Cglm.glm_persp_decomp_z_lh_zo proj).2].map .f⟩])) := by kernel_rfl
theorem glm_persp_decomp_far_lh_zo_run (proj : M4 α) :
    C.glm_persp_decomp_far_lh_zo.runT (α := α) [⟨false, proj.list.map .f⟩, ⟨true, List.replicate 1 .undef⟩] [.p 0 0, .p 1 0] =
      .done (some (none, [⟨false, proj.list.map .f⟩, ⟨true, [(Cglm.glm_persp_decomp_far_lh_zo proj)].map .f⟩])) := by kernel_rfl
theorem glm_persp_decomp_near_lh_zo_run (proj : M4 α) :
    C.glm_persp_decomp_near_lh_zo.runT (α := α) [⟨false, proj.list.map .f⟩, ⟨true, List.replicate 1 .undef⟩] [.p 0 0, .p 1 0] =
      .done (some (none, [⟨false, proj.list.map .f⟩, ⟨true, [(Cglm.glm_persp_decomp_near_lh_zo proj)].map .f⟩])) := by kernel_rfl
theorem glm_persp_sizes_lh_zo_run (proj : M4 α) (fovy : α) :
    C.glm_persp_sizes_lh_zo.runT (α := α) [⟨false, proj.list.map .f⟩, ⟨true, List.replicate 4 .undef⟩] [.p 0 0, .f fovy, .p 1 0] =
      .done (some (none, [⟨false, proj.list.map .f⟩, ⟨true, (Cglm.glm_persp_sizes_lh_zo proj fovy).list.map .f⟩])) := by kernel_rfl
theorem glm_persp_fovy_lh_zo_run (proj : M4 α) :
    C.glm_persp_fovy_lh_zo.runT (α := α) [⟨false, proj.list.map .f⟩] [.p 0 0] =
      .done (some (some (.f (Cglm.glm_persp_fovy_lh_zo proj)), [⟨false, proj.list.map .f⟩])) := by kernel_rfl
theorem glm_persp_aspect_lh_zo_run (proj : M4 α) :
    C.glm_persp_aspect_lh_zo.runT (α := α) [⟨false, proj.list.map .f⟩] [.p 0 0] =
      .done (some (some (.f (Cglm.glm_persp_aspect_lh_zo proj)), [⟨false, proj.list.map .f⟩])) := by kernel_rfl

end Cglm

end ClipspacePerspLhZoRun

section ClipspacePerspRhZoRun

/-! Runs of the functions of include/cglm/clipspace/persp_rh_zo.h on canonical memories. -/

set_option linter.unusedVariables false
set_option linter.unusedSectionVars false

namespace Cglm
open CMem

variable {α : Type} [Add α] [Sub α] [Mul α] [Div α] [Neg α] [CFloat α]

theorem glm_frustum_rh_zo_run (left : α) (right : α) (bottom : α) (top : α) (nearZ : α) (farZ : α) :
    C.glm_frustum_rh_zo.runT (α := α) [⟨true, List.replicate 16 .undef⟩] [.f left, .f right, .f bottom, .f top, .f nearZ, .f farZ, .p 0 0] =
      .done (some (none, [⟨true, (Cglm.glm_frustum_rh_zo left right bottom top nearZ farZ).list.map .f⟩])) := by kernel_rfl
theorem glm_perspective_rh_zo_run (fovy : α) (aspect : α) (nearZ : α) (farZ : α) :
    C.glm_perspective_rh_zo.runT (α := α) [⟨true, List.replicate 16 .undef⟩] [.f fovy, .f aspect, .f nearZ, .f farZ, .p 0 0] =
      .done (some (none, [⟨true, (Cglm.glm_perspective_rh_zo fovy aspect nearZ farZ).list.map .f⟩])) := by kernel_rfl
theorem glm_perspective_default_rh_zo_run (aspect : α) :
    C.glm_perspective_default_rh_zo.runT (α := α) [⟨true, List.replicate 16 .undef⟩] [.f aspect, .p 0 0] =
      .done (some (none, [⟨true, (Cglm.glm_perspective_default_rh_zo aspect).list.map .f⟩])) := by kernel_rfl
/-- `glm_perspective_resize_rh_zo` with its branches as a tree -/
def glm_perspective_resize_rh_zo_dt (aspect : α) (proj : M4 α) : DT (M4 α) :=
  .br (feq proj.c0.x (lit 0)) (
    .done proj) (
    .done ⟨⟨proj.c1.y / aspect, proj.c0.y, proj.c0.z, proj.c0.w⟩, proj.c1, proj.c2, proj.c3⟩)
theorem glm_perspective_resize_rh_zo_dt_val (aspect : α) (proj : M4 α) : (glm_perspective_resize_rh_zo_dt aspect proj).val = Cglm.glm_perspective_resize_rh_zo aspect proj := by
  unfold glm_perspective_resize_rh_zo_dt
  simp only [DT.val]
  kernel_rfl
theorem glm_perspective_resize_rh_zo_run (aspect : α) (proj : M4 α) :
    C.glm_perspective_resize_rh_zo.runT (α := α) [⟨true, proj.list.map .f⟩] [.f aspect, .p 0 0] =
      (Cglm.glm_perspective_resize_rh_zo_dt aspect proj).map fun r => some (none, [⟨true, r.list.map .f⟩]) := by kernel_rfl
theorem glm_persp_move_far_rh_zo_run (proj : M4 α) (deltaFar : α) :
    C.glm_persp_move_far_rh_zo.runT (α := α) [⟨true, proj.list.map .f⟩] [.p 0 0, .f deltaFar] =
      .done (some (none, [⟨true, (Cglm.glm_persp_move_far_rh_zo proj deltaFar).list.map .f⟩])) := by kernel_rfl
theorem glm_persp_decomp_rh_zo_run (proj : M4 α) :
    C.glm_persp_decomp_rh_zo.runT (α := α) [⟨false, proj.list.map .f⟩, ⟨true, List.replicate 1 .undef⟩, ⟨true, List.replicate 1 .undef⟩, ⟨true, List.replicate 1 .undef⟩, ⟨true, List.replicate 1 .undef⟩, ⟨true, List.replicate 1 .undef⟩, ⟨true, List.replicate 1 .undef⟩] [.p 0 0, .p 1 0, .p 2 0, .p 3 0, .p 4 0, .p 5 0, .p 6 0] =
      .done (some (none, [⟨false, proj.list.map .f⟩, ⟨true, [(Cglm.glm_persp_decomp_rh_zo proj).1].map .f⟩, ⟨true, [(Cglm.glm_persp_decomp_rh_zo proj).2.1].map .f⟩, ⟨true, [(Cglm.glm_persp_decomp_rh_zo proj).2.2.1].map .f⟩, ⟨true, [(Cglm.glm_persp_decomp_rh_zo proj).2.2.2.1].map .f⟩, ⟨true, [(Cglm.glm_persp_decomp_rh_zo proj).2.2.2.2.1].map .f⟩, ⟨true, [(Cglm.glm_persp_decomp_rh_zo proj).2.2.2.2.2].map .f⟩])) := by kernel_rfl
theorem glm_persp_decompv_rh_zo_run (proj : M4 α) :
    C.glm_persp_decompv_rh_zo.runT (α := α) [⟨false, proj.list.map .f⟩, ⟨true, List.replicate 6 .undef⟩] [.p 0 0, .p 1 0] =
      .done (some (none, [⟨false, proj.list.map .f⟩, ⟨true, (Cglm.glm_persp_decompv_rh_zo proj).list.map .f⟩])) := by kernel_rfl
theorem glm_persp_decomp_x_rh_zo_run (proj : M4 α) :
    C.glm_persp_decomp_x_rh_zo.runT (α := α) [⟨false, proj.list.map .f⟩, ⟨true, List.replicate 1 .undef⟩, ⟨true, List.replicate 1 .undef⟩] [.p 0 0, .p 1 0, .p 2 0] =
      .done (some (none, [⟨false, proj.list.map .f⟩, ⟨true, [(Cglm.glm_persp_decomp_x_rh_zo proj).1].map .f⟩, ⟨true, [(Cglm.glm_persp_decomp_x_rh_zo proj).2].map .f⟩])) := by kernel_rfl
theorem glm_persp_decomp_y_rh_zo_run (proj : M4 α) :
    C.glm_persp_decomp_y_rh_zo.runT (α := α) [⟨false, proj.list.map .f⟩, ⟨true, List.replicate 1 .undef⟩, ⟨true, List.replicate 1 .undef⟩] [.p 0 0, .p 1 0, .p 2 0] =
      .done (some (none, [⟨false, proj.list.map .f⟩, ⟨true, [(Cglm.glm_persp_decomp_y_rh_zo proj).1].map .f⟩, ⟨true, [(Cglm.glm_persp_decomp_y_rh_zo proj).2].map .f⟩])) := by kernel_rfl
theorem glm_persp_decomp_z_rh_zo_run (proj : M4 α) :
    C.glm_persp_decomp_z_rh_zo.runT (α := α) [⟨false, proj.list.map .f⟩, ⟨true, List.replicate 1 .undef⟩, ⟨true, List.replicate 1 .undef⟩] [.p 0 0, .p 1 0, .p 2 0] =
      .done (some (none, [⟨false, proj.list.map .f⟩, ⟨true, [(Cglm.glm_persp_decomp_z_rh_zo proj).1].map .f⟩, ⟨true, [(Cglm.glm_persp_decomp_z_rh_zo proj).2].map .f⟩])) := by kernel_rfl
theorem glm_persp_decomp_far_rh_zo_run (proj : M4 α) :
    C.glm_persp_decomp_far_rh_zo.runT (α := α) [⟨false, proj.list.map .f⟩, ⟨true, List.replicate 1 .undef⟩] [.p 0 0, .p 1 0] =
      .done (some (none, [⟨false, proj.list.map .f⟩, ⟨true, [(Cglm.glm_persp_decomp_far_rh_zo proj)].map .f⟩])) := by kernel_rfl
theorem glm_persp_decomp_near_rh_zo_run (proj : M4 α) :
    C.glm_persp_decomp_near_rh_zo.runT (α := α) [⟨false, proj.list.map .f⟩, ⟨true, List.replicate 1 .undef⟩] [.p 0 0, .p 1 0] =
      .done (some (none, [⟨false, proj.list.map .f⟩, ⟨true, [(Cglm.glm_persp_decomp_near_rh_zo proj)].map .f⟩])) := by kernel_rfl
theorem glm_persp_sizes_rh_zo_run (proj : M4 α) (fovy : α) :
    C.glm_persp_sizes_rh_zo.runT (α := α) [⟨false, proj.list.map .f⟩, ⟨true, List.replicate 4 .undef⟩] [.p 0 0, .f fovy, .p 1 0] =
      .done (some (none, [⟨false, proj.list.map .f⟩, ⟨true, (Cglm.glm_persp_sizes_rh_zo proj fovy).list.map .f⟩])) := by kernel_rfl
theorem glm_persp_fovy_rh_zo_run (proj : M4 α) :
    C.glm_persp_fovy_rh_zo.runT (α := α) [⟨false, proj.list.map .f⟩] [.p 0 0] =
      .done (some (some (.f (Cglm.glm_persp_fovy_rh_zo proj)), [⟨false, proj.list.map .f⟩])) := by kernel_rfl
theorem glm_persp_aspect_rh_zo_run (proj : M4 α) :
    C.glm_persp_aspect_rh_zo.runT (α := α) [⟨false, proj.list.map .f⟩] [.p 0 0] =
      .done (some (some (.f (Cglm.glm_persp_aspect_rh_zo proj)), [⟨false, proj.list.map .f⟩])) := by kernel_rfl

end Cglm

end ClipspacePerspRhZoRun

section ClipspaceProjectNoRun

/-! Runs of the functions of include/cglm/clipspace/project_no.h on canonical memories. -/

set_option linter.unusedVariables false
set_option linter.unusedSectionVars false

namespace Cglm
open CMem

variable {α : Type} [Add α] [Sub α] [Mul α] [Div α] [Neg α] [CFloat α]

theorem glm_unprojecti_no_run (pos : V3 α) (invMat : M4 α) (vp : V4 α) :
    C.glm_unprojecti_no.runT (α := α) [⟨false, pos.list.map .f⟩, ⟨false, invMat.list.map .f⟩, ⟨false, vp.list.map .f⟩, ⟨true, List.replicate 3 .undef⟩] [.p 0 0, .p 1 0, .p 2 0, .p 3 0] =
      .done (some (none, [⟨false, pos.list.map .f⟩, ⟨false, invMat.list.map .f⟩, ⟨false, vp.list.map .f⟩, ⟨true, (Cglm.glm_unprojecti_no pos invMat vp).list.map .f⟩])) := by kernel_rfl
theorem glm_unprojecti_no_run_pos (pos : V3 α) (invMat : M4 α) (vp : V4 α) :
    C.glm_unprojecti_no.runT (α := α) [⟨false, invMat.list.map .f⟩, ⟨false, vp.list.map .f⟩, ⟨true, pos.list.map .f⟩] [.p 2 0, .p 0 0, .p 1 0, .p 2 0] =
      .done (some (none, [⟨false, invMat.list.map .f⟩, ⟨false, vp.list.map .f⟩, ⟨true, (Cglm.glm_unprojecti_no pos invMat vp).list.map .f⟩])) := by kernel_rfl
theorem glm_project_no_run (pos : V3 α) (m : M4 α) (vp : V4 α) :
    C.glm_project_no.runT (α := α) [⟨false, pos.list.map .f⟩, ⟨false, m.list.map .f⟩, ⟨false, vp.list.map .f⟩, ⟨true, List.replicate 3 .undef⟩] [.p 0 0, .p 1 0, .p 2 0, .p 3 0] =
      .done (some (none, [⟨false, pos.list.map .f⟩, ⟨false, m.list.map .f⟩, ⟨false, vp.list.map .f⟩, ⟨true, (Cglm.glm_project_no pos m vp).list.map .f⟩])) := by kernel_rfl
theorem glm_project_no_run_pos (pos : V3 α) (m : M4 α) (vp : V4 α) :
    C.glm_project_no.runT (α := α) [⟨false, m.list.map .f⟩, ⟨false, vp.list.map .f⟩, ⟨true, pos.list.map .f⟩] [.p 2 0, .p 0 0, .p 1 0, .p 2 0] =
      .done (some (none, [⟨false, m.list.map .f⟩, ⟨false, vp.list.map .f⟩, ⟨true, (Cglm.glm_project_no pos m vp).list.map .f⟩])) := by kernel_rfl
theorem glm_project_z_no_run (v : V3 α) (m : M4 α) :
    C.glm_project_z_no.runT (α := α) [⟨false, v.list.map .f⟩, ⟨false, m.list.map .f⟩] [.p 0 0, .p 1 0] =
      .done (some (some (.f (Cglm.glm_project_z_no v m)), [⟨false, v.list.map .f⟩, ⟨false, m.list.map .f⟩])) := by kernel_rfl

end Cglm

end ClipspaceProjectNoRun

section ClipspaceProjectZoRun

/-! Runs of the functions of include/cglm/clipspace/project_zo.h on canonical memories. -/

set_option linter.unusedVariables false
set_option linter.unusedSectionVars false

namespace Cglm
open CMem

variable {α : Type} [Add α] [Sub α] [Mul α] [Div α] [Neg α] [CFloat α]

theorem glm_unprojecti_zo_run (pos : V3 α) (invMat : M4 α) (vp : V4 α) :
    C.glm_unprojecti_zo.runT (α := α) [⟨false, pos.list.map .f⟩, ⟨false, invMat.list.map .f⟩, ⟨false, vp.list.map .f⟩, ⟨true, List.replicate 3 .undef⟩] [.p 0 0, .p 1 0, .p 2 0, .p 3 0] =
      .done (some (none, [⟨false, pos.list.map .f⟩, ⟨false, invMat.list.map .f⟩, ⟨false, vp.list.map .f⟩, ⟨true, (Cglm.glm_unprojecti_zo pos invMat vp).list.map .f⟩])) := by kernel_rfl
theorem glm_unprojecti_zo_run_pos (pos : V3 α) (invMat : M4 α) (vp : V4 α) :
    C.glm_unprojecti_zo.runT (α := α) [⟨false, invMat.list.map .f⟩, ⟨false, vp.list.map .f⟩, ⟨true, pos.list.map .f⟩] [.p 2 0, .p 0 0, .p 1 0, .p 2 0] =
      .done (some (none, [⟨false, invMat.list.map .f⟩, ⟨false, vp.list.map .f⟩, ⟨true, (Cglm.glm_unprojecti_zo pos invMat vp).list.map .f⟩])) := by kernel_rfl
theorem glm_project_zo_run (pos : V3 α) (m : M4 α) (vp : V4 α) :
    C.glm_project_zo.runT (α := α) [⟨false, pos.list.map .f⟩, ⟨false, m.list.map .f⟩, ⟨false, vp.list.map .f⟩, ⟨true, List.replicate 3 .undef⟩] [.p 0 0, .p 1 0, .p 2 0, .p 3 0] =
      .done (some (none, [⟨false, pos.list.map .f⟩, ⟨false, m.list.map .f⟩, ⟨false, vp.list.map .f⟩, ⟨true, (Cglm.glm_project_zo pos m vp).list.map .f⟩])) := by kernel_rfl
theorem glm_project_zo_run_pos (pos : V3 α) (m : M4 α) (vp : V4 α) :
    C.glm_project_zo.runT (α := α) [⟨false, m.list.map .f⟩, ⟨false, vp.list.map .f⟩, ⟨true, pos.list.map .f⟩] [.p 2 0, .p 0 0, .p 1 0, .p 2 0] =
      .done (some (none, [⟨false, m.list.map .f⟩, ⟨false, vp.list.map .f⟩, ⟨true, (Cglm.glm_project_zo pos m vp).list.map .f⟩])) := by kernel_rfl
theorem glm_project_z_zo_run (v : V3 α) (m : M4 α) :
    C.glm_project_z_zo.runT (α := α) [⟨false, v.list.map .f⟩, ⟨false, m.list.map .f⟩] [.p 0 0, .p 1 0] =
      .done (some (some (.f (Cglm.glm_project_z_zo v m)), [⟨false, v.list.map .f⟩, ⟨false, m.list.map .f⟩])) := by kernel_rfl

end Cglm

end ClipspaceProjectZoRun

section ClipspaceViewLhRun

/-! Runs of the functions of include/cglm/clipspace/view_lh.h on canonical memories. -/

set_option linter.unusedVariables false
set_option linter.unusedSectionVars false

namespace Cglm
open CMem

variable {α : Type} [Add α] [Sub α] [Mul α] [Div α] [Neg α] [CFloat α]

/-- `glm_lookat_lh` with its branches as a tree -/
def glm_lookat_lh_dt (eye : V3 α) (center : V3 α) (up : V3 α) : DT (M4 α) :=
  let f := glm_vec3_sub center eye
  DT.bind (glm_vec3_normalize_dt f) fun f_1 =>
  DT.bind (glm_vec3_crossn_dt up f_1) fun s =>
  let u := glm_vec3_cross f_1 s
  .done ⟨⟨s.x, u.x, f_1.x, lit 0⟩, ⟨s.y, u.y, f_1.y, lit 0⟩, ⟨s.z, u.z, f_1.z, lit 0⟩, ⟨-glm_vec3_dot s eye, -glm_vec3_dot u eye, -glm_vec3_dot f_1 eye, lit 1⟩⟩
theorem glm_lookat_lh_dt_val (eye : V3 α) (center : V3 α) (up : V3 α) : (glm_lookat_lh_dt eye center up).val = Cglm.glm_lookat_lh eye center up := by
  unfold glm_lookat_lh_dt
  simp only [DT.val_bind, DT.val, glm_vec3_crossn_dt_val, glm_vec3_normalize_dt_val]
  kernel_rfl
theorem glm_lookat_lh_run (eye : V3 α) (center : V3 α) (up : V3 α) :
    C.glm_lookat_lh.runT (α := α) [⟨false, eye.list.map .f⟩, ⟨false, center.list.map .f⟩, ⟨false, up.list.map .f⟩, ⟨true, List.replicate 16 .undef⟩] [.p 0 0, .p 1 0, .p 2 0, .p 3 0] =
      (Cglm.glm_lookat_lh_dt eye center up).map fun r => some (none, [⟨false, eye.list.map .f⟩, ⟨false, center.list.map .f⟩, ⟨false, up.list.map .f⟩, ⟨true, r.list.map .f⟩]) := by kernel_rfl
/-- `glm_look_lh` with its branches as a tree -/
def glm_look_lh_dt (eye : V3 α) (dir : V3 α) (up : V3 α) : DT (M4 α) :=
  let target := glm_vec3_add eye dir
  DT.bind (glm_lookat_lh_dt eye target up) fun dest_1 =>
  .done dest_1
theorem glm_look_lh_dt_val (eye : V3 α) (dir : V3 α) (up : V3 α) : (glm_look_lh_dt eye dir up).val = Cglm.glm_look_lh eye dir up := by
  unfold glm_look_lh_dt
  simp only [DT.val_bind, DT.val, glm_lookat_lh_dt_val]
  kernel_rfl
theorem glm_look_lh_run (eye : V3 α) (dir : V3 α) (up : V3 α) :
    C.glm_look_lh.runT (α := α) [⟨false, eye.list.map .f⟩, ⟨false, dir.list.map .f⟩, ⟨false, up.list.map .f⟩, ⟨true, List.replicate 16 .undef⟩] [.p 0 0, .p 1 0, .p 2 0, .p 3 0] =
      (Cglm.glm_look_lh_dt eye dir up).map fun r => some (none, [⟨false, eye.list.map .f⟩, ⟨false, dir.list.map .f⟩, ⟨false, up.list.map .f⟩, ⟨true, r.list.map .f⟩]) := by kernel_rfl
/-- `glm_look_anyup_lh` with its branches as a tree -/
def glm_look_anyup_lh_dt (eye : V3 α) (dir : V3 α) : DT (M4 α) :=
  let up := glm_vec3_ortho dir
  DT.bind (glm_look_lh_dt eye dir up) fun dest_1 =>
  .done dest_1
theorem glm_look_anyup_lh_dt_val (eye : V3 α) (dir : V3 α) : (glm_look_anyup_lh_dt eye dir).val = Cglm.glm_look_anyup_lh eye dir := by
  unfold glm_look_anyup_lh_dt
  simp only [DT.val_bind, DT.val, glm_look_lh_dt_val]
  kernel_rfl
theorem glm_look_anyup_lh_run (eye : V3 α) (dir : V3 α) :
    C.glm_look_anyup_lh.runT (α := α) [⟨false, eye.list.map .f⟩, ⟨false, dir.list.map .f⟩, ⟨true, List.replicate 16 .undef⟩] [.p 0 0, .p 1 0, .p 2 0] =
      (Cglm.glm_look_anyup_lh_dt eye dir).map fun r => some (none, [⟨false, eye.list.map .f⟩, ⟨false, dir.list.map .f⟩, ⟨true, r.list.map .f⟩]) := by kernel_rfl

end Cglm

end ClipspaceViewLhRun

section ClipspaceViewLhNoRun

/-! Runs of the functions of include/cglm/clipspace/view_lh_no.h on canonical memories. -/

set_option linter.unusedVariables false
set_option linter.unusedSectionVars false

namespace Cglm
open CMem

variable {α : Type} [Add α] [Sub α] [Mul α] [Div α] [Neg α] [CFloat α]

/-- `glm_lookat_lh_no` with its branches as a tree -/
def glm_lookat_lh_no_dt (eye : V3 α) (center : V3 α) (up : V3 α) : DT (M4 α) :=
  DT.bind (glm_lookat_lh_dt eye center up) fun dest_1 =>
  .done dest_1
theorem glm_lookat_lh_no_dt_val (eye : V3 α) (center : V3 α) (up : V3 α) : (glm_lookat_lh_no_dt eye center up).val = Cglm.glm_lookat_lh_no eye center up := by
  unfold glm_lookat_lh_no_dt
  simp only [DT.val_bind, DT.val, glm_lookat_lh_dt_val]
  kernel_rfl
theorem glm_lookat_lh_no_run (eye : V3 α) (center : V3 α) (up : V3 α) :
    C.glm_lookat_lh_no.runT (α := α) [⟨false, eye.list.map .f⟩, ⟨false, center.list.map .f⟩, ⟨false, up.list.map .f⟩, ⟨true, List.replicate 16 .undef⟩] [.p 0 0, .p 1 0, .p 2 0, .p 3 0] =
      (Cglm.glm_lookat_lh_no_dt eye center up).map fun r => some (none, [⟨false, eye.list.map .f⟩, ⟨false, center.list.map .f⟩, ⟨false, up.list.map .f⟩, ⟨true, r.list.map .f⟩]) := by kernel_rfl
/-- `glm_look_lh_no` with its branches as a tree -/
def glm_look_lh_no_dt (eye : V3 α) (dir : V3 α) (up : V3 α) : DT (M4 α) :=
  DT.bind (glm_look_lh_dt eye dir up) fun dest_1 =>
  .done dest_1
theorem glm_look_lh_no_dt_val (eye : V3 α) (dir : V3 α) (up : V3 α) : (glm_look_lh_no_dt eye dir up).val = Cglm.glm_look_lh_no eye dir up := by
  unfold glm_look_lh_no_dt
  simp only [DT.val_bind, DT.val, glm_look_lh_dt_val]
  kernel_rfl
theorem glm_look_lh_no_run (eye : V3 α) (dir : V3 α) (up : V3 α) :
    C.glm_look_lh_no.runT (α := α) [⟨false, eye.list.map .f⟩, ⟨false, dir.list.map .f⟩, ⟨false, up.list.map .f⟩, ⟨true, List.replicate 16 .undef⟩] [.p 0 0, .p 1 0, .p 2 0, .p 3 0] =
      (Cglm.glm_look_lh_no_dt eye dir up).map fun r => some (none, [⟨false, eye.list.map .f⟩, ⟨false, dir.list.map .f⟩, ⟨false, up.list.map .f⟩, ⟨true, r.list.map .f⟩]) := by kernel_rfl
/-- `glm_look_anyup_lh_no` with its branches as a tree -/
def glm_look_anyup_lh_no_dt (eye : V3 α) (dir : V3 α) : DT (M4 α) :=
  DT.bind (glm_look_anyup_lh_dt eye dir) fun dest_1 =>
  .done dest_1
theorem glm_look_anyup_lh_no_dt_val (eye : V3 α) (dir : V3 α) : (glm_look_anyup_lh_no_dt eye dir).val = Cglm.glm_look_anyup_lh_no eye dir := by
  unfold glm_look_anyup_lh_no_dt
  simp only [DT.val_bind, DT.val, glm_look_anyup_lh_dt_val]
  kernel_rfl
theorem glm_look_anyup_lh_no_run (eye : V3 α) (dir : V3 α) :
    C.glm_look_anyup_lh_no.runT (α := α) [⟨false, eye.list.map .f⟩, ⟨false, dir.list.map .f⟩, ⟨true, List.replicate 16 .undef⟩] [.p 0 0, .p 1 0, .p 2 0] =
      (Cglm.glm_look_anyup_lh_no_dt eye dir).map fun r => some (none, [⟨false, eye.list.map .f⟩, ⟨false, dir.list.map .f⟩, ⟨true, r.list.map .f⟩]) := by kernel_rfl

end Cglm

end ClipspaceViewLhNoRun

section ClipspaceViewLhZoRun

/-! Runs of the functions of include/cglm/clipspace/view_lh_zo.h on canonical memories. -/

set_option linter.unusedVariables false
set_option linter.unusedSectionVars false

namespace Cglm
open CMem

variable {α : Type} [Add α] [Sub α] [Mul α] [Div α] [Neg α] [CFloat α]

/-- `glm_lookat_lh_zo` with its branches as a tree -/
def glm_lookat_lh_zo_dt (eye : V3 α) (center : V3 α) (up : V3 α) : DT (M4 α) :=
  DT.bind (glm_lookat_lh_dt eye center up) fun dest_1 =>
  .done dest_1
theorem glm_lookat_lh_zo_dt_val (eye : V3 α) (center : V3 α) (up : V3 α) : (glm_lookat_lh_zo_dt eye center up).val = Cglm.glm_lookat_lh_zo eye center up := by
  unfold glm_lookat_lh_zo_dt
  simp only [DT.val_bind, DT.val, glm_lookat_lh_dt_val]
  kernel_rfl
theorem glm_lookat_lh_zo_run (eye : V3 α) (center : V3 α) (up : V3 α) :
    C.glm_lookat_lh_zo.runT (α := α) [⟨false, eye.list.map .f⟩, ⟨false, center.list.map .f⟩, ⟨false, up.list.map .f⟩, ⟨true, List.replicate 16 .undef⟩] [.p 0 0, .p 1 0, .p 2 0, .p 3 0] =
      (Cglm.glm_lookat_lh_zo_dt eye center up).map fun r => some (none, [⟨false, eye.list.map .f⟩, ⟨false, center.list.map .f⟩, ⟨false, up.list.map .f⟩, ⟨true, r.list.map .f⟩]) := by kernel_rfl
/-- `glm_look_lh_zo` with its branches as a tree -/
def glm_look_lh_zo_dt (eye : V3 α) (dir : V3 α) (up : V3 α) : DT (M4 α) :=
  DT.bind (glm_look_lh_dt eye dir up) fun dest_1 =>
  .done dest_1
theorem glm_look_lh_zo_dt_val (eye : V3 α) (dir : V3 α) (up : V3 α) : (glm_look_lh_zo_dt eye dir up).val = Cglm.glm_look_lh_zo eye dir up := by
  unfold glm_look_lh_zo_dt
  simp only [DT.val_bind, DT.val, glm_look_lh_dt_val]
  kernel_rfl
theorem glm_look_lh_zo_run (eye : V3 α) (dir : V3 α) (up : V3 α) :
    C.glm_look_lh_zo.runT (α := α) [⟨false, eye.list.map .f⟩, ⟨false, dir.list.map .f⟩, ⟨false, up.list.map .f⟩, ⟨true, List.replicate 16 .undef⟩] [.p 0 0, .p 1 0, .p 2 0, .p 3 0] =
      (Cglm.glm_look_lh_zo_dt eye dir up).map fun r => some (none, [⟨false, eye.list.map .f⟩, ⟨false, dir.list.map .f⟩, ⟨false, up.list.map .f⟩, ⟨true, r.list.map .f⟩]) := by kernel_rfl
/-- `glm_look_anyup_lh_zo` with its branches as a tree -/
def glm_look_anyup_lh_zo_dt (eye : V3 α) (dir : V3 α) : DT (M4 α) :=
  DT.bind (glm_look_anyup_lh_dt eye dir) fun dest_1 =>
  .done dest_1
theorem glm_look_anyup_lh_zo_dt_val (eye : V3 α) (dir : V3 α) : (glm_look_anyup_lh_zo_dt eye dir).val = Cglm.glm_look_anyup_lh_zo eye dir := by
  unfold glm_look_anyup_lh_zo_dt
  simp only [DT.val_bind, DT.val, glm_look_anyup_lh_dt_val]
  kernel_rfl
theorem glm_look_anyup_lh_zo_run (eye : V3 α) (dir : V3 α) :
    C.glm_look_anyup_lh_zo.runT (α := α) [⟨false, eye.list.map .f⟩, ⟨false, dir.list.map .f⟩, ⟨true, List.replicate 16 .undef⟩] [.p 0 0, .p 1 0, .p 2 0] =
      (Cglm.glm_look_anyup_lh_zo_dt eye dir).map fun r => some (none, [⟨false, eye.list.map .f⟩, ⟨false, dir.list.map .f⟩, ⟨true, r.list.map .f⟩]) := by kernel_rfl

end Cglm

end ClipspaceViewLhZoRun

section ClipspaceViewRhNoRun

/-! Runs of the functions of include/cglm/clipspace/view_rh_no.h on canonical memories. -/

set_option linter.unusedVariables false
set_option linter.unusedSectionVars false

namespace Cglm
open CMem

variable {α : Type} [Add α] [Sub α] [Mul α] [Div α] [Neg α] [CFloat α]

/-- `glm_lookat_rh_no` with its branches as a tree -/
def glm_lookat_rh_no_dt (eye : V3 α) (center : V3 α) (up : V3 α) : DT (M4 α) :=
  DT.bind (glm_lookat_rh_dt eye center up) fun dest_1 =>
  .done dest_1
theorem glm_lookat_rh_no_dt_val (eye : V3 α) (center : V3 α) (up : V3 α) : (glm_lookat_rh_no_dt eye center up).val = Cglm.glm_lookat_rh_no eye center up := by
  unfold glm_lookat_rh_no_dt
  simp only [DT.val_bind, DT.val, glm_lookat_rh_dt_val]
  kernel_rfl
theorem glm_lookat_rh_no_run (eye : V3 α) (center : V3 α) (up : V3 α) :
    C.glm_lookat_rh_no.runT (α := α) [⟨false, eye.list.map .f⟩, ⟨false, center.list.map .f⟩, ⟨false, up.list.map .f⟩, ⟨true, List.replicate 16 .undef⟩] [.p 0 0, .p 1 0, .p 2 0, .p 3 0] =
      (Cglm.glm_lookat_rh_no_dt eye center up).map fun r => some (none, [⟨false, eye.list.map .f⟩, ⟨false, center.list.map .f⟩, ⟨false, up.list.map .f⟩, ⟨true, r.list.map .f⟩]) := by kernel_rfl
/-- `glm_look_rh_no` with its branches as a tree -/
def glm_look_rh_no_dt (eye : V3 α) (dir : V3 α) (up : V3 α) : DT (M4 α) :=
  DT.bind (glm_look_rh_dt eye dir up) fun dest_1 =>
  .done dest_1
theorem glm_look_rh_no_dt_val (eye : V3 α) (dir : V3 α) (up : V3 α) : (glm_look_rh_no_dt eye dir up).val = Cglm.glm_look_rh_no eye dir up := by
  unfold glm_look_rh_no_dt
  simp only [DT.val_bind, DT.val, glm_look_rh_dt_val]
  kernel_rfl
theorem glm_look_rh_no_run (eye : V3 α) (dir : V3 α) (up : V3 α) :
    C.glm_look_rh_no.runT (α := α) [⟨false, eye.list.map .f⟩, ⟨false, dir.list.map .f⟩, ⟨false, up.list.map .f⟩, ⟨true, List.replicate 16 .undef⟩] [.p 0 0, .p 1 0, .p 2 0, .p 3 0] =
      (Cglm.glm_look_rh_no_dt eye dir up).map fun r => some (none, [⟨false, eye.list.map .f⟩, ⟨false, dir.list.map .f⟩, ⟨false, up.list.map .f⟩, ⟨true, r.list.map .f⟩]) := by kernel_rfl
/-- `glm_look_anyup_rh_no` with its branches as a tree -/
def glm_look_anyup_rh_no_dt (eye : V3 α) (dir : V3 α) : DT (M4 α) :=
  DT.bind (glm_look_anyup_rh_dt eye dir) fun dest_1 =>
  .done dest_1
theorem glm_look_anyup_rh_no_dt_val (eye : V3 α) (dir : V3 α) : (glm_look_anyup_rh_no_dt eye dir).val = Cglm.glm_look_anyup_rh_no eye dir := by
  unfold glm_look_anyup_rh_no_dt
  simp only [DT.val_bind, DT.val, glm_look_anyup_rh_dt_val]
  kernel_rfl
theorem glm_look_anyup_rh_no_run (eye : V3 α) (dir : V3 α) :
    C.glm_look_anyup_rh_no.runT (α := α) [⟨false, eye.list.map .f⟩, ⟨false, dir.list.map .f⟩, ⟨true, List.replicate 16 .undef⟩] [.p 0 0, .p 1 0, .p 2 0] =
      (Cglm.glm_look_anyup_rh_no_dt eye dir).map fun r => some (none, [⟨false, eye.list.map .f⟩, ⟨false, dir.list.map .f⟩, ⟨true, r.list.map .f⟩]) := by kernel_rfl

end Cglm

end ClipspaceViewRhNoRun

section ClipspaceViewRhZoRun

/-! Runs of the functions of include/cglm/clipspace/view_rh_zo.h on canonical memories. -/

set_option linter.unusedVariables false
set_option linter.unusedSectionVars false

namespace Cglm
open CMem

variable {α : Type} [Add α] [Sub α] [Mul α] [Div α] [Neg α] [CFloat α]

/-- `glm_lookat_rh_zo` with its branches as a tree -/
def glm_lookat_rh_zo_dt (eye : V3 α) (center : V3 α) (up : V3 α) : DT (M4 α) :=
  DT.bind (glm_lookat_rh_dt eye center up) fun dest_1 =>
  .done dest_1
theorem glm_lookat_rh_zo_dt_val (eye : V3 α) (center : V3 α) (up : V3 α) : (glm_lookat_rh_zo_dt eye center up).val = Cglm.glm_lookat_rh_zo eye center up := by
  unfold glm_lookat_rh_zo_dt
  simp only [DT.val_bind, DT.val, glm_lookat_rh_dt_val]
  kernel_rfl
theorem glm_lookat_rh_zo_run (eye : V3 α) (center : V3 α) (up : V3 α) :
    C.glm_lookat_rh_zo.runT (α := α) [⟨false, eye.list.map .f⟩, ⟨false, center.list.map .f⟩, ⟨false, up.list.map .f⟩, ⟨true, List.replicate 16 .undef⟩] [.p 0 0, .p 1 0, .p 2 0, .p 3 0] =
      (Cglm.glm_lookat_rh_zo_dt eye center up).map fun r => some (none, [⟨false, eye.list.map .f⟩, ⟨false, center.list.map .f⟩, ⟨false, up.list.map .f⟩, ⟨true, r.list.map .f⟩]) := by kernel_rfl
/-- `glm_look_rh_zo` with its branches as a tree -/
def glm_look_rh_zo_dt (eye : V3 α) (dir : V3 α) (up : V3 α) : DT (M4 α) :=
  DT.bind (glm_look_rh_dt eye dir up) fun dest_1 =>
  .done dest_1
theorem glm_look_rh_zo_dt_val (eye : V3 α) (dir : V3 α) (up : V3 α) : (glm_look_rh_zo_dt eye dir up).val = Cglm.glm_look_rh_zo eye dir up := by
  unfold glm_look_rh_zo_dt
  simp only [DT.val_bind, DT.val, glm_look_rh_dt_val]
  kernel_rfl
theorem glm_look_rh_zo_run (eye : V3 α) (dir : V3 α) (up : V3 α) :
    C.glm_look_rh_zo.runT (α := α) [⟨false, eye.list.map .f⟩, ⟨false, dir.list.map .f⟩, ⟨false, up.list.map .f⟩, ⟨true, List.replicate 16 .undef⟩] [.p 0 0, .p 1 0, .p 2 0, .p 3 0] =
      (Cglm.glm_look_rh_zo_dt eye dir up).map fun r => some (none, [⟨false, eye.list.map .f⟩, ⟨false, dir.list.map .f⟩, ⟨false, up.list.map .f⟩, ⟨true, r.list.map .f⟩]) := by kernel_rfl
/-- `glm_look_anyup_rh_zo` with its branches as a tree -/
def glm_look_anyup_rh_zo_dt (eye : V3 α) (dir : V3 α) : DT (M4 α) :=
  DT.bind (glm_look_anyup_rh_dt eye dir) fun dest_1 =>
  .done dest_1
theorem glm_look_anyup_rh_zo_dt_val (eye : V3 α) (dir : V3 α) : (glm_look_anyup_rh_zo_dt eye dir).val = Cglm.glm_look_anyup_rh_zo eye dir := by
  unfold glm_look_anyup_rh_zo_dt
  simp only [DT.val_bind, DT.val, glm_look_anyup_rh_dt_val]
  kernel_rfl
theorem glm_look_anyup_rh_zo_run (eye : V3 α) (dir : V3 α) :
    C.glm_look_anyup_rh_zo.runT (α := α) [⟨false, eye.list.map .f⟩, ⟨false, dir.list.map .f⟩, ⟨true, List.replicate 16 .undef⟩] [.p 0 0, .p 1 0, .p 2 0] =
      (Cglm.glm_look_anyup_rh_zo_dt eye dir).map fun r => some (none, [⟨false, eye.list.map .f⟩, ⟨false, dir.list.map .f⟩, ⟨true, r.list.map .f⟩]) := by kernel_rfl

end Cglm

end ClipspaceViewRhZoRun

section ProjectRun

/-! Runs of the functions of include/cglm/project.h on canonical memories. -/

set_option linter.unusedVariables false
set_option linter.unusedSectionVars false

namespace Cglm
open CMem

variable {α : Type} [Add α] [Sub α] [Mul α] [Div α] [Neg α] [CFloat α]

theorem glm_unprojecti_run (pos : V3 α) (invMat : M4 α) (vp : V4 α) :
    C.glm_unprojecti.runT (α := α) [⟨false, pos.list.map .f⟩, ⟨false, invMat.list.map .f⟩, ⟨false, vp.list.map .f⟩, ⟨true, List.replicate 3 .undef⟩] [.p 0 0, .p 1 0, .p 2 0, .p 3 0] =
      .done (some (none, [⟨false, pos.list.map .f⟩, ⟨false, invMat.list.map .f⟩, ⟨false, vp.list.map .f⟩, ⟨true, (Cglm.glm_unprojecti pos invMat vp).list.map .f⟩])) := by kernel_rfl
theorem glm_unprojecti_run_pos (pos : V3 α) (invMat : M4 α) (vp : V4 α) :
    C.glm_unprojecti.runT (α := α) [⟨false, invMat.list.map .f⟩, ⟨false, vp.list.map .f⟩, ⟨true, pos.list.map .f⟩] [.p 2 0, .p 0 0, .p 1 0, .p 2 0] =
      .done (some (none, [⟨false, invMat.list.map .f⟩, ⟨false, vp.list.map .f⟩, ⟨true, (Cglm.glm_unprojecti pos invMat vp).list.map .f⟩])) := by kernel_rfl
theorem glm_unproject_run (pos : V3 α) (m : M4 α) (vp : V4 α) :
    C.glm_unproject.runT (α := α) [⟨false, pos.list.map .f⟩, ⟨false, m.list.map .f⟩, ⟨false, vp.list.map .f⟩, ⟨true, List.replicate 3 .undef⟩] [.p 0 0, .p 1 0, .p 2 0, .p 3 0] =
      .done (some (none, [⟨false, pos.list.map .f⟩, ⟨false, m.list.map .f⟩, ⟨false, vp.list.map .f⟩, ⟨true, (Cglm.glm_unproject pos m vp).list.map .f⟩])) := by kernel_rfl
theorem glm_unproject_run_pos (pos : V3 α) (m : M4 α) (vp : V4 α) :
    C.glm_unproject.runT (α := α) [⟨false, m.list.map .f⟩, ⟨false, vp.list.map .f⟩, ⟨true, pos.list.map .f⟩] [.p 2 0, .p 0 0, .p 1 0, .p 2 0] =
      .done (some (none, [⟨false, m.list.map .f⟩, ⟨false, vp.list.map .f⟩, ⟨true, (Cglm.glm_unproject pos m vp).list.map .f⟩])) := by kernel_rfl
theorem glm_project_run (pos : V3 α) (m : M4 α) (vp : V4 α) :
    C.glm_project.runT (α := α) [⟨false, pos.list.map .f⟩, ⟨false, m.list.map .f⟩, ⟨false, vp.list.map .f⟩, ⟨true, List.replicate 3 .undef⟩] [.p 0 0, .p 1 0, .p 2 0, .p 3 0] =
      .done (some (none, [⟨false, pos.list.map .f⟩, ⟨false, m.list.map .f⟩, ⟨false, vp.list.map .f⟩, ⟨true, (Cglm.glm_project pos m vp).list.map .f⟩])) := by kernel_rfl
theorem glm_project_run_pos (pos : V3 α) (m : M4 α) (vp : V4 α) :
    C.glm_project.runT (α := α) [⟨false, m.list.map .f⟩, ⟨false, vp.list.map .f⟩, ⟨true, pos.list.map .f⟩] [.p 2 0, .p 0 0, .p 1 0, .p 2 0] =
      .done (some (none, [⟨false, m.list.map .f⟩, ⟨false, vp.list.map .f⟩, ⟨true, (Cglm.glm_project pos m vp).list.map .f⟩])) := by kernel_rfl
theorem glm_project_z_run (v : V3 α) (m : M4 α) :
    C.glm_project_z.runT (α := α) [⟨false, v.list.map .f⟩, ⟨false, m.list.map .f⟩] [.p 0 0, .p 1 0] =
      .done (some (some (.f (Cglm.glm_project_z v m)), [⟨false, v.list.map .f⟩, ⟨false, m.list.map .f⟩])) := by kernel_rfl
/-- `glm_pickmatrix` with its branches as a tree -/
def glm_pickmatrix_dt (center : V2 α) (size : V2 α) (vp : V4 α) (dest : M4 α) : DT (M4 α) :=
  .br (fle size.x (lit 0) || fle size.y (lit 0)) (
    .done dest) (
    let res := glm_translate_make ⟨(vp.z - (lit 2) * (center.x - vp.x)) / size.x, (vp.w - (lit 2) * (center.y - vp.y)) / size.y, lit 0⟩
    let res_1 := glm_scale res ⟨vp.z / size.x, vp.w / size.y, lit 1⟩
    .done (glm_mat4_copy res_1))
theorem glm_pickmatrix_dt_val (center : V2 α) (size : V2 α) (vp : V4 α) (dest : M4 α) : (glm_pickmatrix_dt center size vp dest).val = Cglm.glm_pickmatrix center size vp dest := by
  unfold glm_pickmatrix_dt
  simp only [DT.val]
  kernel_rfl
theorem glm_pickmatrix_run (center : V2 α) (size : V2 α) (vp : V4 α) (dest : M4 α) :
    C.glm_pickmatrix.runT (α := α) [⟨false, center.list.map .f⟩, ⟨false, size.list.map .f⟩, ⟨false, vp.list.map .f⟩, ⟨true, dest.list.map .f⟩] [.p 0 0, .p 1 0, .p 2 0, .p 3 0] =
      (Cglm.glm_pickmatrix_dt center size vp dest).map fun r => some (none, [⟨false, center.list.map .f⟩, ⟨false, size.list.map .f⟩, ⟨false, vp.list.map .f⟩, ⟨true, r.list.map .f⟩]) := by kernel_rfl

end Cglm

end ProjectRun
