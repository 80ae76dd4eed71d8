/- Generated by tools/memgen.py, joined by tools/merge.py; do not edit by hand. -/
import Verif.CMemTypes
import Verif.Gen.Mat2
import Verif.Mem.Mats
import Verif.Mem.VecsRun
import Verif.Gen.Mat2x3
import Verif.Gen.Mat2x4
import Verif.Gen.Mat3
import Verif.Gen.Mat3x2
import Verif.Gen.Mat3x4
import Verif.Gen.Mat4
import Verif.Gen.Mat4x2
import Verif.Gen.Mat4x3

section Mat2Run

/-! Runs of the functions of include/cglm/mat2.h on canonical memories. -/

set_option linter.unusedVariables false
set_option linter.unusedSectionVars false

namespace Cglm
open CMem

variable {α : Type} [Add α] [Sub α] [Mul α] [Div α] [Neg α] [CFloat α]

theorem glm_mat2_make_run (src : V4 α) :
    C.glm_mat2_make.runT (α := α) [⟨false, src.list.map .f⟩, ⟨true, List.replicate 4 .undef⟩] [.p 0 0, .p 1 0] =
      .done (some (none, [⟨false, src.list.map .f⟩, ⟨true, (Cglm.glm_mat2_make src).list.map .f⟩])) := by kernel_rfl
theorem glm_mat2_copy_run (mat : M2 α) :
    C.glm_mat2_copy.runT (α := α) [⟨false, mat.list.map .f⟩, ⟨true, List.replicate 4 .undef⟩] [.p 0 0, .p 1 0] =
      .done (some (none, [⟨false, mat.list.map .f⟩, ⟨true, (Cglm.glm_mat2_copy mat).list.map .f⟩])) := by kernel_rfl
theorem glm_mat2_copy_run_mat (mat : M2 α) :
    C.glm_mat2_copy.runT (α := α) [⟨true, mat.list.map .f⟩] [.p 0 0, .p 0 0] =
      .done (some (none, [⟨true, (Cglm.glm_mat2_copy mat).list.map .f⟩])) := by kernel_rfl
theorem glm_mat2_identity_run :
    C.glm_mat2_identity.runT (α := α) [⟨true, List.replicate 4 .undef⟩] [.p 0 0] =
      .done (some (none, [⟨true, (Cglm.glm_mat2_identity).list.map .f⟩])) := by kernel_rfl
theorem glm_mat2_zero_run :
    C.glm_mat2_zero.runT (α := α) [⟨true, List.replicate 4 .undef⟩] [.p 0 0] =
      .done (some (none, [⟨true, (Cglm.glm_mat2_zero).list.map .f⟩])) := by kernel_rfl
theorem glm_mat2_mul_run (m1 : M2 α) (m2 : M2 α) :
    C.glm_mat2_mul.runT (α := α) [⟨false, m1.list.map .f⟩, ⟨false, m2.list.map .f⟩, ⟨true, List.replicate 4 .undef⟩] [.p 0 0, .p 1 0, .p 2 0] =
      .done (some (none, [⟨false, m1.list.map .f⟩, ⟨false, m2.list.map .f⟩, ⟨true, (Cglm.glm_mat2_mul m1 m2).list.map .f⟩])) := by kernel_rfl
theorem glm_mat2_mul_run_m2 (m1 : M2 α) (m2 : M2 α) :
    C.glm_mat2_mul.runT (α := α) [⟨false, m1.list.map .f⟩, ⟨true, m2.list.map .f⟩] [.p 0 0, .p 1 0, .p 1 0] =
      .done (some (none, [⟨false, m1.list.map .f⟩, ⟨true, (Cglm.glm_mat2_mul m1 m2).list.map .f⟩])) := by kernel_rfl
theorem glm_mat2_mul_run_m1 (m1 : M2 α) (m2 : M2 α) :
    C.glm_mat2_mul.runT (α := α) [⟨false, m2.list.map .f⟩, ⟨true, m1.list.map .f⟩] [.p 1 0, .p 0 0, .p 1 0] =
      .done (some (none, [⟨false, m2.list.map .f⟩, ⟨true, (Cglm.glm_mat2_mul m1 m2).list.map .f⟩])) := by kernel_rfl
theorem glm_mat2_mul_run_m1_m2 (m1 : M2 α) :
    C.glm_mat2_mul.runT (α := α) [⟨true, m1.list.map .f⟩] [.p 0 0, .p 0 0, .p 0 0] =
      .done (some (none, [⟨true, (Cglm.glm_mat2_mul m1 m1).list.map .f⟩])) := by kernel_rfl
theorem glm_mat2_mulv_run (m : M2 α) (v : V2 α) :
    C.glm_mat2_mulv.runT (α := α) [⟨false, m.list.map .f⟩, ⟨false, v.list.map .f⟩, ⟨true, List.replicate 2 .undef⟩] [.p 0 0, .p 1 0, .p 2 0] =
      .done (some (none, [⟨false, m.list.map .f⟩, ⟨false, v.list.map .f⟩, ⟨true, (Cglm.glm_mat2_mulv m v).list.map .f⟩])) := by kernel_rfl
theorem glm_mat2_transpose_to_run (mat : M2 α) :
    C.glm_mat2_transpose_to.runT (α := α) [⟨false, mat.list.map .f⟩, ⟨true, List.replicate 4 .undef⟩] [.p 0 0, .p 1 0] =
      .done (some (none, [⟨false, mat.list.map .f⟩, ⟨true, (Cglm.glm_mat2_transpose_to mat).list.map .f⟩])) := by kernel_rfl
theorem glm_mat2_transpose_run (m : M2 α) :
    C.glm_mat2_transpose.runT (α := α) [⟨true, m.list.map .f⟩] [.p 0 0] =
      .done (some (none, [⟨true, (Cglm.glm_mat2_transpose m).list.map .f⟩])) := by kernel_rfl
theorem glm_mat2_scale_run (m : M2 α) (s : α) :
    C.glm_mat2_scale.runT (α := α) [⟨true, m.list.map .f⟩] [.p 0 0, .f s] =
      .done (some (none, [⟨true, (Cglm.glm_mat2_scale m s).list.map .f⟩])) := by kernel_rfl
theorem glm_mat2_inv_run (mat : M2 α) :
    C.glm_mat2_inv.runT (α := α) [⟨false, mat.list.map .f⟩, ⟨true, List.replicate 4 .undef⟩] [.p 0 0, .p 1 0] =
      .done (some (none, [⟨false, mat.list.map .f⟩, ⟨true, (Cglm.glm_mat2_inv mat).list.map .f⟩])) := by kernel_rfl
theorem glm_mat2_inv_run_mat (mat : M2 α) :
    C.glm_mat2_inv.runT (α := α) [⟨true, mat.list.map .f⟩] [.p 0 0, .p 0 0] =
      .done (some (none, [⟨true, (Cglm.glm_mat2_inv mat).list.map .f⟩])) := by kernel_rfl
theorem glm_mat2_det_run (m : M2 α) :
    C.glm_mat2_det.runT (α := α) [⟨false, m.list.map .f⟩] [.p 0 0] =
      .done (some (some (.f (Cglm.glm_mat2_det m)), [⟨false, m.list.map .f⟩])) := by kernel_rfl
theorem glm_mat2_trace_run (m : M2 α) :
    C.glm_mat2_trace.runT (α := α) [⟨false, m.list.map .f⟩] [.p 0 0] =
      .done (some (some (.f (Cglm.glm_mat2_trace m)), [⟨false, m.list.map .f⟩])) := by kernel_rfl
theorem glm_mat2_rmc_run (r : V2 α) (m : M2 α) (c : V2 α) :
    C.glm_mat2_rmc.runT (α := α) [⟨false, r.list.map .f⟩, ⟨false, m.list.map .f⟩, ⟨false, c.list.map .f⟩] [.p 0 0, .p 1 0, .p 2 0] =
      .done (some (some (.f (Cglm.glm_mat2_rmc r m c)), [⟨false, r.list.map .f⟩, ⟨false, m.list.map .f⟩, ⟨false, c.list.map .f⟩])) := by kernel_rfl

end Cglm

end Mat2Run

section Mat2x3Run

/-! Runs of the functions of include/cglm/mat2x3.h on canonical memories. -/

set_option linter.unusedVariables false
set_option linter.unusedSectionVars false

namespace Cglm
open CMem

variable {α : Type} [Add α] [Sub α] [Mul α] [Div α] [Neg α] [CFloat α]

theorem glm_mat2x3_copy_run (src : M2x3 α) :
    C.glm_mat2x3_copy.runT (α := α) [⟨false, src.list.map .f⟩, ⟨true, List.replicate 6 .undef⟩] [.p 0 0, .p 1 0] =
      .done (some (none, [⟨false, src.list.map .f⟩, ⟨true, (Cglm.glm_mat2x3_copy src).list.map .f⟩])) := by kernel_rfl
theorem glm_mat2x3_copy_run_src (src : M2x3 α) :
    C.glm_mat2x3_copy.runT (α := α) [⟨true, src.list.map .f⟩] [.p 0 0, .p 0 0] =
      .done (some (none, [⟨true, (Cglm.glm_mat2x3_copy src).list.map .f⟩])) := by kernel_rfl
theorem glm_mat2x3_zero_run :
    C.glm_mat2x3_zero.runT (α := α) [⟨true, List.replicate 6 .undef⟩] [.p 0 0] =
      .done (some (none, [⟨true, (Cglm.glm_mat2x3_zero).list.map .f⟩])) := by kernel_rfl
theorem glm_mat2x3_make_run (src : V6 α) :
    C.glm_mat2x3_make.runT (α := α) [⟨false, src.list.map .f⟩, ⟨true, List.replicate 6 .undef⟩] [.p 0 0, .p 1 0] =
      .done (some (none, [⟨false, src.list.map .f⟩, ⟨true, (Cglm.glm_mat2x3_make src).list.map .f⟩])) := by kernel_rfl
theorem glm_mat2x3_mul_run (m1 : M2x3 α) (m2 : M3x2 α) :
    C.glm_mat2x3_mul.runT (α := α) [⟨false, m1.list.map .f⟩, ⟨false, m2.list.map .f⟩, ⟨true, List.replicate 9 .undef⟩] [.p 0 0, .p 1 0, .p 2 0] =
      .done (some (none, [⟨false, m1.list.map .f⟩, ⟨false, m2.list.map .f⟩, ⟨true, (Cglm.glm_mat2x3_mul m1 m2).list.map .f⟩])) := by kernel_rfl
theorem glm_mat2x3_mulv_run (m : M2x3 α) (v : V2 α) :
    C.glm_mat2x3_mulv.runT (α := α) [⟨false, m.list.map .f⟩, ⟨false, v.list.map .f⟩, ⟨true, List.replicate 3 .undef⟩] [.p 0 0, .p 1 0, .p 2 0] =
      .done (some (none, [⟨false, m.list.map .f⟩, ⟨false, v.list.map .f⟩, ⟨true, (Cglm.glm_mat2x3_mulv m v).list.map .f⟩])) := by kernel_rfl
theorem glm_mat2x3_transpose_run (src : M2x3 α) :
    C.glm_mat2x3_transpose.runT (α := α) [⟨false, src.list.map .f⟩, ⟨true, List.replicate 6 .undef⟩] [.p 0 0, .p 1 0] =
      .done (some (none, [⟨false, src.list.map .f⟩, ⟨true, (Cglm.glm_mat2x3_transpose src).list.map .f⟩])) := by kernel_rfl
theorem glm_mat2x3_scale_run (m : M2x3 α) (s : α) :
    C.glm_mat2x3_scale.runT (α := α) [⟨true, m.list.map .f⟩] [.p 0 0, .f s] =
      .done (some (none, [⟨true, (Cglm.glm_mat2x3_scale m s).list.map .f⟩])) := by kernel_rfl

end Cglm

end Mat2x3Run

section Mat2x4Run

/-! Runs of the functions of include/cglm/mat2x4.h on canonical memories. -/

set_option linter.unusedVariables false
set_option linter.unusedSectionVars false

namespace Cglm
open CMem

variable {α : Type} [Add α] [Sub α] [Mul α] [Div α] [Neg α] [CFloat α]

theorem glm_mat2x4_copy_run (src : M2x4 α) :
    C.glm_mat2x4_copy.runT (α := α) [⟨false, src.list.map .f⟩, ⟨true, List.replicate 8 .undef⟩] [.p 0 0, .p 1 0] =
      .done (some (none, [⟨false, src.list.map .f⟩, ⟨true, (Cglm.glm_mat2x4_copy src).list.map .f⟩])) := by kernel_rfl
theorem glm_mat2x4_copy_run_src (src : M2x4 α) :
    C.glm_mat2x4_copy.runT (α := α) [⟨true, src.list.map .f⟩] [.p 0 0, .p 0 0] =
      .done (some (none, [⟨true, (Cglm.glm_mat2x4_copy src).list.map .f⟩])) := by kernel_rfl
theorem glm_mat2x4_zero_run :
    C.glm_mat2x4_zero.runT (α := α) [⟨true, List.replicate 8 .undef⟩] [.p 0 0] =
      .done (some (none, [⟨true, (Cglm.glm_mat2x4_zero).list.map .f⟩])) := by kernel_rfl
theorem glm_mat2x4_make_run (src : V8 α) :
    C.glm_mat2x4_make.runT (α := α) [⟨false, src.list.map .f⟩, ⟨true, List.replicate 8 .undef⟩] [.p 0 0, .p 1 0] =
      .done (some (none, [⟨false, src.list.map .f⟩, ⟨true, (Cglm.glm_mat2x4_make src).list.map .f⟩])) := by kernel_rfl
theorem glm_mat2x4_mul_run (m1 : M2x4 α) (m2 : M4x2 α) :
    C.glm_mat2x4_mul.runT (α := α) [⟨false, m1.list.map .f⟩, ⟨false, m2.list.map .f⟩, ⟨true, List.replicate 16 .undef⟩] [.p 0 0, .p 1 0, .p 2 0] =
      .done (some (none, [⟨false, m1.list.map .f⟩, ⟨false, m2.list.map .f⟩, ⟨true, (Cglm.glm_mat2x4_mul m1 m2).list.map .f⟩])) := by kernel_rfl
theorem glm_mat2x4_mulv_run (m : M2x4 α) (v : V2 α) :
    C.glm_mat2x4_mulv.runT (α := α) [⟨false, m.list.map .f⟩, ⟨false, v.list.map .f⟩, ⟨true, List.replicate 4 .undef⟩] [.p 0 0, .p 1 0, .p 2 0] =
      .done (some (none, [⟨false, m.list.map .f⟩, ⟨false, v.list.map .f⟩, ⟨true, (Cglm.glm_mat2x4_mulv m v).list.map .f⟩])) := by kernel_rfl
theorem glm_mat2x4_transpose_run (src : M2x4 α) :
    C.glm_mat2x4_transpose.runT (α := α) [⟨false, src.list.map .f⟩, ⟨true, List.replicate 8 .undef⟩] [.p 0 0, .p 1 0] =
      .done (some (none, [⟨false, src.list.map .f⟩, ⟨true, (Cglm.glm_mat2x4_transpose src).list.map .f⟩])) := by kernel_rfl
theorem glm_mat2x4_scale_run (m : M2x4 α) (s : α) :
    C.glm_mat2x4_scale.runT (α := α) [⟨true, m.list.map .f⟩] [.p 0 0, .f s] =
      .done (some (none, [⟨true, (Cglm.glm_mat2x4_scale m s).list.map .f⟩])) := by kernel_rfl

end Cglm

end Mat2x4Run

section Mat3Run

/-! Runs of the functions of include/cglm/mat3.h on canonical memories. -/

set_option linter.unusedVariables false
set_option linter.unusedSectionVars false

namespace Cglm
open CMem

variable {α : Type} [Add α] [Sub α] [Mul α] [Div α] [Neg α] [CFloat α]

theorem glm_mat3_copy_run (mat : M3 α) :
    C.glm_mat3_copy.runT (α := α) [⟨false, mat.list.map .f⟩, ⟨true, List.replicate 9 .undef⟩] [.p 0 0, .p 1 0] =
      .done (some (none, [⟨false, mat.list.map .f⟩, ⟨true, (Cglm.glm_mat3_copy mat).list.map .f⟩])) := by kernel_rfl
theorem glm_mat3_copy_run_mat (mat : M3 α) :
    C.glm_mat3_copy.runT (α := α) [⟨true, mat.list.map .f⟩] [.p 0 0, .p 0 0] =
      .done (some (none, [⟨true, (Cglm.glm_mat3_copy mat).list.map .f⟩])) := by kernel_rfl
theorem glm_mat3_identity_run :
    C.glm_mat3_identity.runT (α := α) [⟨true, List.replicate 9 .undef⟩] [.p 0 0] =
      .done (some (none, [⟨true, (Cglm.glm_mat3_identity).list.map .f⟩])) := by kernel_rfl
theorem glm_mat3_zero_run :
    C.glm_mat3_zero.runT (α := α) [⟨true, List.replicate 9 .undef⟩] [.p 0 0] =
      .done (some (none, [⟨true, (Cglm.glm_mat3_zero).list.map .f⟩])) := by kernel_rfl
theorem glm_mat3_mul_run (m1 : M3 α) (m2 : M3 α) :
    C.glm_mat3_mul.runT (α := α) [⟨false, m1.list.map .f⟩, ⟨false, m2.list.map .f⟩, ⟨true, List.replicate 9 .undef⟩] [.p 0 0, .p 1 0, .p 2 0] =
      .done (some (none, [⟨false, m1.list.map .f⟩, ⟨false, m2.list.map .f⟩, ⟨true, (Cglm.glm_mat3_mul m1 m2).list.map .f⟩])) := by kernel_rfl
theorem glm_mat3_mul_run_m2 (m1 : M3 α) (m2 : M3 α) :
    C.glm_mat3_mul.runT (α := α) [⟨false, m1.list.map .f⟩, ⟨true, m2.list.map .f⟩] [.p 0 0, .p 1 0, .p 1 0] =
      .done (some (none, [⟨false, m1.list.map .f⟩, ⟨true, (Cglm.glm_mat3_mul m1 m2).list.map .f⟩])) := by kernel_rfl
theorem glm_mat3_mul_run_m1 (m1 : M3 α) (m2 : M3 α) :
    C.glm_mat3_mul.runT (α := α) [⟨false, m2.list.map .f⟩, ⟨true, m1.list.map .f⟩] [.p 1 0, .p 0 0, .p 1 0] =
      .done (some (none, [⟨false, m2.list.map .f⟩, ⟨true, (Cglm.glm_mat3_mul m1 m2).list.map .f⟩])) := by kernel_rfl
theorem glm_mat3_mul_run_m1_m2 (m1 : M3 α) :
    C.glm_mat3_mul.runT (α := α) [⟨true, m1.list.map .f⟩] [.p 0 0, .p 0 0, .p 0 0] =
      .done (some (none, [⟨true, (Cglm.glm_mat3_mul m1 m1).list.map .f⟩])) := by kernel_rfl
theorem glm_mat3_transpose_to_run (m : M3 α) :
    C.glm_mat3_transpose_to.runT (α := α) [⟨false, m.list.map .f⟩, ⟨true, List.replicate 9 .undef⟩] [.p 0 0, .p 1 0] =
      .done (some (none, [⟨false, m.list.map .f⟩, ⟨true, (Cglm.glm_mat3_transpose_to m).list.map .f⟩])) := by kernel_rfl
theorem glm_mat3_transpose_run (m : M3 α) :
    C.glm_mat3_transpose.runT (α := α) [⟨true, m.list.map .f⟩] [.p 0 0] =
      .done (some (none, [⟨true, (Cglm.glm_mat3_transpose m).list.map .f⟩])) := by kernel_rfl
theorem glm_mat3_mulv_run (m : M3 α) (v : V3 α) :
    C.glm_mat3_mulv.runT (α := α) [⟨false, m.list.map .f⟩, ⟨false, v.list.map .f⟩, ⟨true, List.replicate 3 .undef⟩] [.p 0 0, .p 1 0, .p 2 0] =
      .done (some (none, [⟨false, m.list.map .f⟩, ⟨false, v.list.map .f⟩, ⟨true, (Cglm.glm_mat3_mulv m v).list.map .f⟩])) := by kernel_rfl
theorem glm_mat3_mulv_run_v (m : M3 α) (v : V3 α) :
    C.glm_mat3_mulv.runT (α := α) [⟨false, m.list.map .f⟩, ⟨true, v.list.map .f⟩] [.p 0 0, .p 1 0, .p 1 0] =
      .done (some (none, [⟨false, m.list.map .f⟩, ⟨true, (Cglm.glm_mat3_mulv m v).list.map .f⟩])) := by kernel_rfl
theorem glm_mat3_trace_run (m : M3 α) :
    C.glm_mat3_trace.runT (α := α) [⟨false, m.list.map .f⟩] [.p 0 0] =
      .done (some (some (.f (Cglm.glm_mat3_trace m)), [⟨false, m.list.map .f⟩])) := by kernel_rfl
/-- `glm_mat3_quat` with its branches as a tree -/
def glm_mat3_quat_dt (m : M3 α) : DT (V4 α) :=
  let trace := m.c0.x + m.c1.y + m.c2.z
  .br (fle (lit 0) trace) (
    let r := sqrtf ((lit 1) + trace)
    let rinv := (lit 0.5) / r
    .done ⟨rinv * (m.c1.z - m.c2.y), rinv * (m.c2.x - m.c0.z), rinv * (m.c0.y - m.c1.x), r * (lit 0.5)⟩) (
    .br (fle m.c1.y m.c0.x && fle m.c2.z m.c0.x) (
      let r := sqrtf ((lit 1) - m.c1.y - m.c2.z + m.c0.x)
      let rinv := (lit 0.5) / r
      .done ⟨r * (lit 0.5), rinv * (m.c0.y + m.c1.x), rinv * (m.c0.z + m.c2.x), rinv * (m.c1.z - m.c2.y)⟩) (
      .br (fle m.c2.z m.c1.y) (
        let r := sqrtf ((lit 1) - m.c0.x - m.c2.z + m.c1.y)
        let rinv := (lit 0.5) / r
        .done ⟨rinv * (m.c0.y + m.c1.x), r * (lit 0.5), rinv * (m.c1.z + m.c2.y), rinv * (m.c2.x - m.c0.z)⟩) (
        let r := sqrtf ((lit 1) - m.c0.x - m.c1.y + m.c2.z)
        let rinv := (lit 0.5) / r
        .done ⟨rinv * (m.c0.z + m.c2.x), rinv * (m.c1.z + m.c2.y), r * (lit 0.5), rinv * (m.c0.y - m.c1.x)⟩)))
theorem glm_mat3_quat_dt_val (m : M3 α) : (glm_mat3_quat_dt m).val = Cglm.glm_mat3_quat m := by
  unfold glm_mat3_quat_dt
  simp only [DT.val]
  kernel_rfl
theorem glm_mat3_quat_run (m : M3 α) :
    C.glm_mat3_quat.runT (α := α) [⟨false, m.list.map .f⟩, ⟨true, List.replicate 4 .undef⟩] [.p 0 0, .p 1 0] =
      (Cglm.glm_mat3_quat_dt m).map fun r => some (none, [⟨false, m.list.map .f⟩, ⟨true, r.list.map .f⟩]) := by kernel_rfl
theorem glm_mat3_scale_run (m : M3 α) (s : α) :
    C.glm_mat3_scale.runT (α := α) [⟨true, m.list.map .f⟩] [.p 0 0, .f s] =
      .done (some (none, [⟨true, (Cglm.glm_mat3_scale m s).list.map .f⟩])) := by kernel_rfl
theorem glm_mat3_det_run (mat : M3 α) :
    C.glm_mat3_det.runT (α := α) [⟨false, mat.list.map .f⟩] [.p 0 0] =
      .done (some (some (.f (Cglm.glm_mat3_det mat)), [⟨false, mat.list.map .f⟩])) := by kernel_rfl
theorem glm_mat3_inv_run (mat : M3 α) :
    C.glm_mat3_inv.runT (α := α) [⟨false, mat.list.map .f⟩, ⟨true, List.replicate 9 .undef⟩] [.p 0 0, .p 1 0] =
      .done (some (none, [⟨false, mat.list.map .f⟩, ⟨true, (Cglm.glm_mat3_inv mat).list.map .f⟩])) := by kernel_rfl
theorem glm_mat3_inv_run_mat (mat : M3 α) :
    C.glm_mat3_inv.runT (α := α) [⟨true, mat.list.map .f⟩] [.p 0 0, .p 0 0] =
      .done (some (none, [⟨true, (Cglm.glm_mat3_inv mat).list.map .f⟩])) := by kernel_rfl
theorem glm_mat3_rmc_run (r : V3 α) (m : M3 α) (c : V3 α) :
    C.glm_mat3_rmc.runT (α := α) [⟨false, r.list.map .f⟩, ⟨false, m.list.map .f⟩, ⟨false, c.list.map .f⟩] [.p 0 0, .p 1 0, .p 2 0] =
      .done (some (some (.f (Cglm.glm_mat3_rmc r m c)), [⟨false, r.list.map .f⟩, ⟨false, m.list.map .f⟩, ⟨false, c.list.map .f⟩])) := by kernel_rfl
theorem glm_mat3_make_run (src : V9 α) :
    C.glm_mat3_make.runT (α := α) [⟨false, src.list.map .f⟩, ⟨true, List.replicate 9 .undef⟩] [.p 0 0, .p 1 0] =
      .done (some (none, [⟨false, src.list.map .f⟩, ⟨true, (Cglm.glm_mat3_make src).list.map .f⟩])) := by kernel_rfl
theorem glm_mat3_textrans_run (sx : α) (sy : α) (rot : α) (tx : α) (ty : α) :
    C.glm_mat3_textrans.runT (α := α) [⟨true, List.replicate 9 .undef⟩] [.f sx, .f sy, .f rot, .f tx, .f ty, .p 0 0] =
      .done (some (none, [⟨true, (Cglm.glm_mat3_textrans sx sy rot tx ty).list.map .f⟩])) := by kernel_rfl

end Cglm

end Mat3Run

section Mat3x2Run

/-! Runs of the functions of include/cglm/mat3x2.h on canonical memories. -/

set_option linter.unusedVariables false
set_option linter.unusedSectionVars false

namespace Cglm
open CMem

variable {α : Type} [Add α] [Sub α] [Mul α] [Div α] [Neg α] [CFloat α]

theorem glm_mat3x2_copy_run (src : M3x2 α) :
    C.glm_mat3x2_copy.runT (α := α) [⟨false, src.list.map .f⟩, ⟨true, List.replicate 6 .undef⟩] [.p 0 0, .p 1 0] =
      .done (some (none, [⟨false, src.list.map .f⟩, ⟨true, (Cglm.glm_mat3x2_copy src).list.map .f⟩])) := by kernel_rfl
theorem glm_mat3x2_copy_run_src (src : M3x2 α) :
    C.glm_mat3x2_copy.runT (α := α) [⟨true, src.list.map .f⟩] [.p 0 0, .p 0 0] =
      .done (some (none, [⟨true, (Cglm.glm_mat3x2_copy src).list.map .f⟩])) := by kernel_rfl
theorem glm_mat3x2_zero_run :
    C.glm_mat3x2_zero.runT (α := α) [⟨true, List.replicate 6 .undef⟩] [.p 0 0] =
      .done (some (none, [⟨true, (Cglm.glm_mat3x2_zero).list.map .f⟩])) := by kernel_rfl
theorem glm_mat3x2_make_run (src : V6 α) :
    C.glm_mat3x2_make.runT (α := α) [⟨false, src.list.map .f⟩, ⟨true, List.replicate 6 .undef⟩] [.p 0 0, .p 1 0] =
      .done (some (none, [⟨false, src.list.map .f⟩, ⟨true, (Cglm.glm_mat3x2_make src).list.map .f⟩])) := by kernel_rfl
theorem glm_mat3x2_mul_run (m1 : M3x2 α) (m2 : M2x3 α) :
    C.glm_mat3x2_mul.runT (α := α) [⟨false, m1.list.map .f⟩, ⟨false, m2.list.map .f⟩, ⟨true, List.replicate 4 .undef⟩] [.p 0 0, .p 1 0, .p 2 0] =
      .done (some (none, [⟨false, m1.list.map .f⟩, ⟨false, m2.list.map .f⟩, ⟨true, (Cglm.glm_mat3x2_mul m1 m2).list.map .f⟩])) := by kernel_rfl
theorem glm_mat3x2_mulv_run (m : M3x2 α) (v : V3 α) :
    C.glm_mat3x2_mulv.runT (α := α) [⟨false, m.list.map .f⟩, ⟨false, v.list.map .f⟩, ⟨true, List.replicate 2 .undef⟩] [.p 0 0, .p 1 0, .p 2 0] =
      .done (some (none, [⟨false, m.list.map .f⟩, ⟨false, v.list.map .f⟩, ⟨true, (Cglm.glm_mat3x2_mulv m v).list.map .f⟩])) := by kernel_rfl
theorem glm_mat3x2_transpose_run (src : M3x2 α) :
    C.glm_mat3x2_transpose.runT (α := α) [⟨false, src.list.map .f⟩, ⟨true, List.replicate 6 .undef⟩] [.p 0 0, .p 1 0] =
      .done (some (none, [⟨false, src.list.map .f⟩, ⟨true, (Cglm.glm_mat3x2_transpose src).list.map .f⟩])) := by kernel_rfl
theorem glm_mat3x2_scale_run (m : M3x2 α) (s : α) :
    C.glm_mat3x2_scale.runT (α := α) [⟨true, m.list.map .f⟩] [.p 0 0, .f s] =
      .done (some (none, [⟨true, (Cglm.glm_mat3x2_scale m s).list.map .f⟩])) := by kernel_rfl

end Cglm

end Mat3x2Run

section Mat3x4Run

/-! Runs of the functions of include/cglm/mat3x4.h on canonical memories. -/

set_option linter.unusedVariables false
set_option linter.unusedSectionVars false

namespace Cglm
open CMem

variable {α : Type} [Add α] [Sub α] [Mul α] [Div α] [Neg α] [CFloat α]

theorem glm_mat3x4_copy_run (src : M3x4 α) :
    C.glm_mat3x4_copy.runT (α := α) [⟨false, src.list.map .f⟩, ⟨true, List.replicate 12 .undef⟩] [.p 0 0, .p 1 0] =
      .done (some (none, [⟨false, src.list.map .f⟩, ⟨true, (Cglm.glm_mat3x4_copy src).list.map .f⟩])) := by kernel_rfl
theorem glm_mat3x4_copy_run_src (src : M3x4 α) :
    C.glm_mat3x4_copy.runT (α := α) [⟨true, src.list.map .f⟩] [.p 0 0, .p 0 0] =
      .done (some (none, [⟨true, (Cglm.glm_mat3x4_copy src).list.map .f⟩])) := by kernel_rfl
theorem glm_mat3x4_zero_run :
    C.glm_mat3x4_zero.runT (α := α) [⟨true, List.replicate 12 .undef⟩] [.p 0 0] =
      .done (some (none, [⟨true, (Cglm.glm_mat3x4_zero).list.map .f⟩])) := by kernel_rfl
theorem glm_mat3x4_make_run (src : V12 α) :
    C.glm_mat3x4_make.runT (α := α) [⟨false, src.list.map .f⟩, ⟨true, List.replicate 12 .undef⟩] [.p 0 0, .p 1 0] =
      .done (some (none, [⟨false, src.list.map .f⟩, ⟨true, (Cglm.glm_mat3x4_make src).list.map .f⟩])) := by kernel_rfl
theorem glm_mat3x4_mul_run (m1 : M3x4 α) (m2 : M4x3 α) :
    C.glm_mat3x4_mul.runT (α := α) [⟨false, m1.list.map .f⟩, ⟨false, m2.list.map .f⟩, ⟨true, List.replicate 16 .undef⟩] [.p 0 0, .p 1 0, .p 2 0] =
      .done (some (none, [⟨false, m1.list.map .f⟩, ⟨false, m2.list.map .f⟩, ⟨true, (Cglm.glm_mat3x4_mul m1 m2).list.map .f⟩])) := by kernel_rfl
theorem glm_mat3x4_mulv_run (m : M3x4 α) (v : V3 α) :
    C.glm_mat3x4_mulv.runT (α := α) [⟨false, m.list.map .f⟩, ⟨false, v.list.map .f⟩, ⟨true, List.replicate 4 .undef⟩] [.p 0 0, .p 1 0, .p 2 0] =
      .done (some (none, [⟨false, m.list.map .f⟩, ⟨false, v.list.map .f⟩, ⟨true, (Cglm.glm_mat3x4_mulv m v).list.map .f⟩])) := by kernel_rfl
theorem glm_mat3x4_transpose_run (src : M3x4 α) :
    C.glm_mat3x4_transpose.runT (α := α) [⟨false, src.list.map .f⟩, ⟨true, List.replicate 12 .undef⟩] [.p 0 0, .p 1 0] =
      .done (some (none, [⟨false, src.list.map .f⟩, ⟨true, (Cglm.glm_mat3x4_transpose src).list.map .f⟩])) := by kernel_rfl
theorem glm_mat3x4_scale_run (m : M3x4 α) (s : α) :
    C.glm_mat3x4_scale.runT (α := α) [⟨true, m.list.map .f⟩] [.p 0 0, .f s] =
      .done (some (none, [⟨true, (Cglm.glm_mat3x4_scale m s).list.map .f⟩])) := by kernel_rfl

end Cglm

end Mat3x4Run

section Mat4Run

/-! Runs of the functions of include/cglm/mat4.h on canonical memories. -/

set_option linter.unusedVariables false
set_option linter.unusedSectionVars false

namespace Cglm
open CMem

variable {α : Type} [Add α] [Sub α] [Mul α] [Div α] [Neg α] [CFloat α]

theorem glm_mat4_ucopy_run (mat : M4 α) :
    C.glm_mat4_ucopy.runT (α := α) [⟨false, mat.list.map .f⟩, ⟨true, List.replicate 16 .undef⟩] [.p 0 0, .p 1 0] =
      .done (some (none, [⟨false, mat.list.map .f⟩, ⟨true, (Cglm.glm_mat4_ucopy mat).list.map .f⟩])) := by kernel_rfl
theorem glm_mat4_ucopy_run_mat (mat : M4 α) :
    C.glm_mat4_ucopy.runT (α := α) [⟨true, mat.list.map .f⟩] [.p 0 0, .p 0 0] =
      .done (some (none, [⟨true, (Cglm.glm_mat4_ucopy mat).list.map .f⟩])) := by kernel_rfl
theorem glm_mat4_copy_run (mat : M4 α) :
    C.glm_mat4_copy.runT (α := α) [⟨false, mat.list.map .f⟩, ⟨true, List.replicate 16 .undef⟩] [.p 0 0, .p 1 0] =
      .done (some (none, [⟨false, mat.list.map .f⟩, ⟨true, (Cglm.glm_mat4_copy mat).list.map .f⟩])) := by kernel_rfl
theorem glm_mat4_copy_run_mat (mat : M4 α) :
    C.glm_mat4_copy.runT (α := α) [⟨true, mat.list.map .f⟩] [.p 0 0, .p 0 0] =
      .done (some (none, [⟨true, (Cglm.glm_mat4_copy mat).list.map .f⟩])) := by kernel_rfl
theorem glm_mat4_identity_run :
    C.glm_mat4_identity.runT (α := α) [⟨true, List.replicate 16 .undef⟩] [.p 0 0] =
      .done (some (none, [⟨true, (Cglm.glm_mat4_identity).list.map .f⟩])) := by kernel_rfl
theorem glm_mat4_zero_run :
    C.glm_mat4_zero.runT (α := α) [⟨true, List.replicate 16 .undef⟩] [.p 0 0] =
      .done (some (none, [⟨true, (Cglm.glm_mat4_zero).list.map .f⟩])) := by kernel_rfl
theorem glm_mat4_pick3_run (mat : M4 α) :
    C.glm_mat4_pick3.runT (α := α) [⟨false, mat.list.map .f⟩, ⟨true, List.replicate 9 .undef⟩] [.p 0 0, .p 1 0] =
      .done (some (none, [⟨false, mat.list.map .f⟩, ⟨true, (Cglm.glm_mat4_pick3 mat).list.map .f⟩])) := by kernel_rfl
theorem glm_mat4_pick3t_run (mat : M4 α) :
    C.glm_mat4_pick3t.runT (α := α) [⟨false, mat.list.map .f⟩, ⟨true, List.replicate 9 .undef⟩] [.p 0 0, .p 1 0] =
      .done (some (none, [⟨false, mat.list.map .f⟩, ⟨true, (Cglm.glm_mat4_pick3t mat).list.map .f⟩])) := by kernel_rfl
theorem glm_mat4_ins3_run (mat : M3 α) (dest : M4 α) :
    C.glm_mat4_ins3.runT (α := α) [⟨false, mat.list.map .f⟩, ⟨true, dest.list.map .f⟩] [.p 0 0, .p 1 0] =
      .done (some (none, [⟨false, mat.list.map .f⟩, ⟨true, (Cglm.glm_mat4_ins3 mat dest).list.map .f⟩])) := by kernel_rfl
theorem glm_mat4_mul_run (m1 : M4 α) (m2 : M4 α) :
    C.glm_mat4_mul.runT (α := α) [⟨false, m1.list.map .f⟩, ⟨false, m2.list.map .f⟩, ⟨true, List.replicate 16 .undef⟩] [.p 0 0, .p 1 0, .p 2 0] =
      .done (some (none, [⟨false, m1.list.map .f⟩, ⟨false, m2.list.map .f⟩, ⟨true, (Cglm.glm_mat4_mul m1 m2).list.map .f⟩])) := by kernel_rfl
theorem glm_mat4_mul_run_m2 (m1 : M4 α) (m2 : M4 α) :
    C.glm_mat4_mul.runT (α := α) [⟨false, m1.list.map .f⟩, ⟨true, m2.list.map .f⟩] [.p 0 0, .p 1 0, .p 1 0] =
      .done (some (none, [⟨false, m1.list.map .f⟩, ⟨true, (Cglm.glm_mat4_mul m1 m2).list.map .f⟩])) := by kernel_rfl
theorem glm_mat4_mul_run_m1 (m1 : M4 α) (m2 : M4 α) :
    C.glm_mat4_mul.runT (α := α) [⟨false, m2.list.map .f⟩, ⟨true, m1.list.map .f⟩] [.p 1 0, .p 0 0, .p 1 0] =
      .done (some (none, [⟨false, m2.list.map .f⟩, ⟨true, (Cglm.glm_mat4_mul m1 m2).list.map .f⟩])) := by kernel_rfl
theorem glm_mat4_mul_run_m1_m2 (m1 : M4 α) :
    C.glm_mat4_mul.runT (α := α) [⟨true, m1.list.map .f⟩] [.p 0 0, .p 0 0, .p 0 0] =
      .done (some (none, [⟨true, (Cglm.glm_mat4_mul m1 m1).list.map .f⟩])) := by kernel_rfl
theorem glm_mat4_mulv_run (m : M4 α) (v : V4 α) :
    C.glm_mat4_mulv.runT (α := α) [⟨false, m.list.map .f⟩, ⟨false, v.list.map .f⟩, ⟨true, List.replicate 4 .undef⟩] [.p 0 0, .p 1 0, .p 2 0] =
      .done (some (none, [⟨false, m.list.map .f⟩, ⟨false, v.list.map .f⟩, ⟨true, (Cglm.glm_mat4_mulv m v).list.map .f⟩])) := by kernel_rfl
theorem glm_mat4_mulv_run_v (m : M4 α) (v : V4 α) :
    C.glm_mat4_mulv.runT (α := α) [⟨false, m.list.map .f⟩, ⟨true, v.list.map .f⟩] [.p 0 0, .p 1 0, .p 1 0] =
      .done (some (none, [⟨false, m.list.map .f⟩, ⟨true, (Cglm.glm_mat4_mulv m v).list.map .f⟩])) := by kernel_rfl
theorem glm_mat4_trace_run (m : M4 α) :
    C.glm_mat4_trace.runT (α := α) [⟨false, m.list.map .f⟩] [.p 0 0] =
      .done (some (some (.f (Cglm.glm_mat4_trace m)), [⟨false, m.list.map .f⟩])) := by kernel_rfl
theorem glm_mat4_trace3_run (m : M4 α) :
    C.glm_mat4_trace3.runT (α := α) [⟨false, m.list.map .f⟩] [.p 0 0] =
      .done (some (some (.f (Cglm.glm_mat4_trace3 m)), [⟨false, m.list.map .f⟩])) := by kernel_rfl
/-- `glm_mat4_quat` with its branches as a tree -/
def glm_mat4_quat_dt (m : M4 α) : DT (V4 α) :=
  let trace := m.c0.x + m.c1.y + m.c2.z
  .br (fle (lit 0) trace) (
    let r := sqrtf ((lit 1) + trace)
    let rinv := (lit 0.5) / r
    .done ⟨rinv * (m.c1.z - m.c2.y), rinv * (m.c2.x - m.c0.z), rinv * (m.c0.y - m.c1.x), r * (lit 0.5)⟩) (
    .br (fle m.c1.y m.c0.x && fle m.c2.z m.c0.x) (
      let r := sqrtf ((lit 1) - m.c1.y - m.c2.z + m.c0.x)
      let rinv := (lit 0.5) / r
      .done ⟨r * (lit 0.5), rinv * (m.c0.y + m.c1.x), rinv * (m.c0.z + m.c2.x), rinv * (m.c1.z - m.c2.y)⟩) (
      .br (fle m.c2.z m.c1.y) (
        let r := sqrtf ((lit 1) - m.c0.x - m.c2.z + m.c1.y)
        let rinv := (lit 0.5) / r
        .done ⟨rinv * (m.c0.y + m.c1.x), r * (lit 0.5), rinv * (m.c1.z + m.c2.y), rinv * (m.c2.x - m.c0.z)⟩) (
        let r := sqrtf ((lit 1) - m.c0.x - m.c1.y + m.c2.z)
        let rinv := (lit 0.5) / r
        .done ⟨rinv * (m.c0.z + m.c2.x), rinv * (m.c1.z + m.c2.y), r * (lit 0.5), rinv * (m.c0.y - m.c1.x)⟩)))
theorem glm_mat4_quat_dt_val (m : M4 α) : (glm_mat4_quat_dt m).val = Cglm.glm_mat4_quat m := by
  unfold glm_mat4_quat_dt
  simp only [DT.val]
  kernel_rfl
theorem glm_mat4_quat_run (m : M4 α) :
    C.glm_mat4_quat.runT (α := α) [⟨false, m.list.map .f⟩, ⟨true, List.replicate 4 .undef⟩] [.p 0 0, .p 1 0] =
      (Cglm.glm_mat4_quat_dt m).map fun r => some (none, [⟨false, m.list.map .f⟩, ⟨true, r.list.map .f⟩]) := by kernel_rfl
theorem glm_mat4_mulv3_run (m : M4 α) (v : V3 α) (last : α) :
    C.glm_mat4_mulv3.runT (α := α) [⟨false, m.list.map .f⟩, ⟨false, v.list.map .f⟩, ⟨true, List.replicate 3 .undef⟩] [.p 0 0, .p 1 0, .f last, .p 2 0] =
      .done (some (none, [⟨false, m.list.map .f⟩, ⟨false, v.list.map .f⟩, ⟨true, (Cglm.glm_mat4_mulv3 m v last).list.map .f⟩])) := by kernel_rfl
theorem glm_mat4_mulv3_run_v (m : M4 α) (v : V3 α) (last : α) :
    C.glm_mat4_mulv3.runT (α := α) [⟨false, m.list.map .f⟩, ⟨true, v.list.map .f⟩] [.p 0 0, .p 1 0, .f last, .p 1 0] =
      .done (some (none, [⟨false, m.list.map .f⟩, ⟨true, (Cglm.glm_mat4_mulv3 m v last).list.map .f⟩])) := by kernel_rfl
theorem glm_mat4_transpose_to_run (m : M4 α) :
    C.glm_mat4_transpose_to.runT (α := α) [⟨false, m.list.map .f⟩, ⟨true, List.replicate 16 .undef⟩] [.p 0 0, .p 1 0] =
      .done (some (none, [⟨false, m.list.map .f⟩, ⟨true, (Cglm.glm_mat4_transpose_to m).list.map .f⟩])) := by kernel_rfl
theorem glm_mat4_transpose_run (m : M4 α) :
    C.glm_mat4_transpose.runT (α := α) [⟨true, m.list.map .f⟩] [.p 0 0] =
      .done (some (none, [⟨true, (Cglm.glm_mat4_transpose m).list.map .f⟩])) := by kernel_rfl
theorem glm_mat4_scale_p_run (m : M4 α) (s : α) :
    C.glm_mat4_scale_p.runT (α := α) [⟨true, m.list.map .f⟩] [.p 0 0, .f s] =
      .done (some (none, [⟨true, (Cglm.glm_mat4_scale_p m s).list.map .f⟩])) := by kernel_rfl
theorem glm_mat4_scale_run (m : M4 α) (s : α) :
    C.glm_mat4_scale.runT (α := α) [⟨true, m.list.map .f⟩] [.p 0 0, .f s] =
      .done (some (none, [⟨true, (Cglm.glm_mat4_scale m s).list.map .f⟩])) := by kernel_rfl
theorem glm_mat4_det_run (mat : M4 α) :
    C.glm_mat4_det.runT (α := α) [⟨false, mat.list.map .f⟩] [.p 0 0] =
      .done (some (some (.f (Cglm.glm_mat4_det mat)), [⟨false, mat.list.map .f⟩])) := by kernel_rfl
theorem glm_mat4_inv_run (mat : M4 α) :
    C.glm_mat4_inv.runT (α := α) [⟨false, mat.list.map .f⟩, ⟨true, List.replicate 16 .undef⟩] [.p 0 0, .p 1 0] =
      .done (some (none, [⟨false, mat.list.map .f⟩, ⟨true, (Cglm.glm_mat4_inv mat).list.map .f⟩])) := by kernel_rfl
theorem glm_mat4_inv_run_mat (mat : M4 α) :
    C.glm_mat4_inv.runT (α := α) [⟨true, mat.list.map .f⟩] [.p 0 0, .p 0 0] =
      .done (some (none, [⟨true, (Cglm.glm_mat4_inv mat).list.map .f⟩])) := by kernel_rfl
theorem glm_mat4_inv_fast_run (mat : M4 α) :
    C.glm_mat4_inv_fast.runT (α := α) [⟨false, mat.list.map .f⟩, ⟨true, List.replicate 16 .undef⟩] [.p 0 0, .p 1 0] =
      .done (some (none, [⟨false, mat.list.map .f⟩, ⟨true, (Cglm.glm_mat4_inv_fast mat).list.map .f⟩])) := by kernel_rfl
theorem glm_mat4_inv_fast_run_mat (mat : M4 α) :
    C.glm_mat4_inv_fast.runT (α := α) [⟨true, mat.list.map .f⟩] [.p 0 0, .p 0 0] =
      .done (some (none, [⟨true, (Cglm.glm_mat4_inv_fast mat).list.map .f⟩])) := by kernel_rfl
theorem glm_mat4_rmc_run (r : V4 α) (m : M4 α) (c : V4 α) :
    C.glm_mat4_rmc.runT (α := α) [⟨false, r.list.map .f⟩, ⟨false, m.list.map .f⟩, ⟨false, c.list.map .f⟩] [.p 0 0, .p 1 0, .p 2 0] =
      .done (some (some (.f (Cglm.glm_mat4_rmc r m c)), [⟨false, r.list.map .f⟩, ⟨false, m.list.map .f⟩, ⟨false, c.list.map .f⟩])) := by kernel_rfl
theorem glm_mat4_make_run (src : V16 α) :
    C.glm_mat4_make.runT (α := α) [⟨false, src.list.map .f⟩, ⟨true, List.replicate 16 .undef⟩] [.p 0 0, .p 1 0] =
      .done (some (none, [⟨false, src.list.map .f⟩, ⟨true, (Cglm.glm_mat4_make src).list.map .f⟩])) := by kernel_rfl
theorem glm_mat4_textrans_run (sx : α) (sy : α) (rot : α) (tx : α) (ty : α) :
    C.glm_mat4_textrans.runT (α := α) [⟨true, List.replicate 16 .undef⟩] [.f sx, .f sy, .f rot, .f tx, .f ty, .p 0 0] =
      .done (some (none, [⟨true, (Cglm.glm_mat4_textrans sx sy rot tx ty).list.map .f⟩])) := by kernel_rfl

end Cglm

end Mat4Run

section Mat4x2Run

/-! Runs of the functions of include/cglm/mat4x2.h on canonical memories. -/

set_option linter.unusedVariables false
set_option linter.unusedSectionVars false

namespace Cglm
open CMem

variable {α : Type} [Add α] [Sub α] [Mul α] [Div α] [Neg α] [CFloat α]

theorem glm_mat4x2_copy_run (src : M4x2 α) :
    C.glm_mat4x2_copy.runT (α := α) [⟨false, src.list.map .f⟩, ⟨true, List.replicate 8 .undef⟩] [.p 0 0, .p 1 0] =
      .done (some (none, [⟨false, src.list.map .f⟩, ⟨true, (Cglm.glm_mat4x2_copy src).list.map .f⟩])) := by kernel_rfl
theorem glm_mat4x2_copy_run_src (src : M4x2 α) :
    C.glm_mat4x2_copy.runT (α := α) [⟨true, src.list.map .f⟩] [.p 0 0, .p 0 0] =
      .done (some (none, [⟨true, (Cglm.glm_mat4x2_copy src).list.map .f⟩])) := by kernel_rfl
theorem glm_mat4x2_zero_run :
    C.glm_mat4x2_zero.runT (α := α) [⟨true, List.replicate 8 .undef⟩] [.p 0 0] =
      .done (some (none, [⟨true, (Cglm.glm_mat4x2_zero).list.map .f⟩])) := by kernel_rfl
theorem glm_mat4x2_make_run (src : V8 α) :
    C.glm_mat4x2_make.runT (α := α) [⟨false, src.list.map .f⟩, ⟨true, List.replicate 8 .undef⟩] [.p 0 0, .p 1 0] =
      .done (some (none, [⟨false, src.list.map .f⟩, ⟨true, (Cglm.glm_mat4x2_make src).list.map .f⟩])) := by kernel_rfl
theorem glm_mat4x2_mul_run (m1 : M4x2 α) (m2 : M2x4 α) :
    C.glm_mat4x2_mul.runT (α := α) [⟨false, m1.list.map .f⟩, ⟨false, m2.list.map .f⟩, ⟨true, List.replicate 4 .undef⟩] [.p 0 0, .p 1 0, .p 2 0] =
      .done (some (none, [⟨false, m1.list.map .f⟩, ⟨false, m2.list.map .f⟩, ⟨true, (Cglm.glm_mat4x2_mul m1 m2).list.map .f⟩])) := by kernel_rfl
theorem glm_mat4x2_mulv_run (m : M4x2 α) (v : V4 α) :
    C.glm_mat4x2_mulv.runT (α := α) [⟨false, m.list.map .f⟩, ⟨false, v.list.map .f⟩, ⟨true, List.replicate 2 .undef⟩] [.p 0 0, .p 1 0, .p 2 0] =
      .done (some (none, [⟨false, m.list.map .f⟩, ⟨false, v.list.map .f⟩, ⟨true, (Cglm.glm_mat4x2_mulv m v).list.map .f⟩])) := by kernel_rfl
theorem glm_mat4x2_transpose_run (m : M4x2 α) :
    C.glm_mat4x2_transpose.runT (α := α) [⟨false, m.list.map .f⟩, ⟨true, List.replicate 8 .undef⟩] [.p 0 0, .p 1 0] =
      .done (some (none, [⟨false, m.list.map .f⟩, ⟨true, (Cglm.glm_mat4x2_transpose m).list.map .f⟩])) := by kernel_rfl
theorem glm_mat4x2_scale_run (m : M4x2 α) (s : α) :
    C.glm_mat4x2_scale.runT (α := α) [⟨true, m.list.map .f⟩] [.p 0 0, .f s] =
      .done (some (none, [⟨true, (Cglm.glm_mat4x2_scale m s).list.map .f⟩])) := by kernel_rfl

end Cglm

end Mat4x2Run

section Mat4x3Run

/-! Runs of the functions of include/cglm/mat4x3.h on canonical memories. -/

set_option linter.unusedVariables false
set_option linter.unusedSectionVars false

namespace Cglm
open CMem

variable {α : Type} [Add α] [Sub α] [Mul α] [Div α] [Neg α] [CFloat α]

theorem glm_mat4x3_copy_run (src : M4x3 α) :
    C.glm_mat4x3_copy.runT (α := α) [⟨false, src.list.map .f⟩, ⟨true, List.replicate 12 .undef⟩] [.p 0 0, .p 1 0] =
      .done (some (none, [⟨false, src.list.map .f⟩, ⟨true, (Cglm.glm_mat4x3_copy src).list.map .f⟩])) := by kernel_rfl
theorem glm_mat4x3_copy_run_src (src : M4x3 α) :
    C.glm_mat4x3_copy.runT (α := α) [⟨true, src.list.map .f⟩] [.p 0 0, .p 0 0] =
      .done (some (none, [⟨true, (Cglm.glm_mat4x3_copy src).list.map .f⟩])) := by kernel_rfl
theorem glm_mat4x3_zero_run :
    C.glm_mat4x3_zero.runT (α := α) [⟨true, List.replicate 12 .undef⟩] [.p 0 0] =
      .done (some (none, [⟨true, (Cglm.glm_mat4x3_zero).list.map .f⟩])) := by kernel_rfl
theorem glm_mat4x3_make_run (src : V12 α) :
    C.glm_mat4x3_make.runT (α := α) [⟨false, src.list.map .f⟩, ⟨true, List.replicate 12 .undef⟩] [.p 0 0, .p 1 0] =
      .done (some (none, [⟨false, src.list.map .f⟩, ⟨true, (Cglm.glm_mat4x3_make src).list.map .f⟩])) := by kernel_rfl
theorem glm_mat4x3_mul_run (m1 : M4x3 α) (m2 : M3x4 α) :
    C.glm_mat4x3_mul.runT (α := α) [⟨false, m1.list.map .f⟩, ⟨false, m2.list.map .f⟩, ⟨true, List.replicate 9 .undef⟩] [.p 0 0, .p 1 0, .p 2 0] =
      .done (some (none, [⟨false, m1.list.map .f⟩, ⟨false, m2.list.map .f⟩, ⟨true, (Cglm.glm_mat4x3_mul m1 m2).list.map .f⟩])) := by kernel_rfl
theorem glm_mat4x3_mulv_run (m : M4x3 α) (v : V4 α) :
    C.glm_mat4x3_mulv.runT (α := α) [⟨false, m.list.map .f⟩, ⟨false, v.list.map .f⟩, ⟨true, List.replicate 3 .undef⟩] [.p 0 0, .p 1 0, .p 2 0] =
      .done (some (none, [⟨false, m.list.map .f⟩, ⟨false, v.list.map .f⟩, ⟨true, (Cglm.glm_mat4x3_mulv m v).list.map .f⟩])) := by kernel_rfl
theorem glm_mat4x3_transpose_run (src : M4x3 α) :
    C.glm_mat4x3_transpose.runT (α := α) [⟨false, src.list.map .f⟩, ⟨true, List.replicate 12 .undef⟩] [.p 0 0, .p 1 0] =
      .done (some (none, [⟨false, src.list.map .f⟩, ⟨true, (Cglm.glm_mat4x3_transpose src).list.map .f⟩])) := by kernel_rfl
theorem glm_mat4x3_scale_run (m : M4x3 α) (s : α) :
    C.glm_mat4x3_scale.runT (α := α) [⟨true, m.list.map .f⟩] [.p 0 0, .f s] =
      .done (some (none, [⟨true, (Cglm.glm_mat4x3_scale m s).list.map .f⟩])) := by kernel_rfl

end Cglm

end Mat4x3Run
