/- Generated by tools/memgen.py, joined by tools/merge.py; do not edit by hand. -/
import Verif.CMemTypes
import Verif.Gen.Aabb2d
import Verif.Mem.Geoms
import Verif.Mem.VecsRun
import Verif.Gen.Bezier
import Verif.Gen.Box
import Verif.Gen.Color
import Verif.Gen.Curve
import Verif.Mem.MatsRun
import Verif.Gen.Ease
import Verif.Gen.Plane
import Verif.Gen.Frustum
import Verif.Gen.Ray
import Verif.Gen.Sphere

section Aabb2dRun

/-! Runs of the functions of include/cglm/aabb2d.h on canonical memories. -/

set_option linter.unusedVariables false
set_option linter.unusedSectionVars false

namespace Cglm
open CMem

variable {α : Type} [Add α] [Sub α] [Mul α] [Div α] [Neg α] [CFloat α]

theorem glm_aabb2d_zero_run :
    C.glm_aabb2d_zero.runT (α := α) [⟨true, List.replicate 4 .undef⟩] [.p 0 0] =
      .done (some (none, [⟨true, (Cglm.glm_aabb2d_zero).list.map .f⟩])) := by kernel_rfl
theorem glm_aabb2d_copy_run (aabb : M2 α) :
    C.glm_aabb2d_copy.runT (α := α) [⟨false, aabb.list.map .f⟩, ⟨true, List.replicate 4 .undef⟩] [.p 0 0, .p 1 0] =
      .done (some (none, [⟨false, aabb.list.map .f⟩, ⟨true, (Cglm.glm_aabb2d_copy aabb).list.map .f⟩])) := by kernel_rfl
theorem glm_aabb2d_copy_run_aabb (aabb : M2 α) :
    C.glm_aabb2d_copy.runT (α := α) [⟨true, aabb.list.map .f⟩] [.p 0 0, .p 0 0] =
      .done (some (none, [⟨true, (Cglm.glm_aabb2d_copy aabb).list.map .f⟩])) := by kernel_rfl
theorem glm_aabb2d_transform_run (aabb : M2 α) (m : M3 α) :
    C.glm_aabb2d_transform.runT (α := α) [⟨false, aabb.list.map .f⟩, ⟨false, m.list.map .f⟩, ⟨true, List.replicate 4 .undef⟩] [.p 0 0, .p 1 0, .p 2 0] =
      .done (some (none, [⟨false, aabb.list.map .f⟩, ⟨false, m.list.map .f⟩, ⟨true, (Cglm.glm_aabb2d_transform aabb m).list.map .f⟩])) := by kernel_rfl
theorem glm_aabb2d_transform_run_aabb (aabb : M2 α) (m : M3 α) :
    C.glm_aabb2d_transform.runT (α := α) [⟨false, m.list.map .f⟩, ⟨true, aabb.list.map .f⟩] [.p 1 0, .p 0 0, .p 1 0] =
      .done (some (none, [⟨false, m.list.map .f⟩, ⟨true, (Cglm.glm_aabb2d_transform aabb m).list.map .f⟩])) := by kernel_rfl
theorem glm_aabb2d_merge_run (aabb1 : M2 α) (aabb2 : M2 α) :
    C.glm_aabb2d_merge.runT (α := α) [⟨false, aabb1.list.map .f⟩, ⟨false, aabb2.list.map .f⟩, ⟨true, List.replicate 4 .undef⟩] [.p 0 0, .p 1 0, .p 2 0] =
      .done (some (none, [⟨false, aabb1.list.map .f⟩, ⟨false, aabb2.list.map .f⟩, ⟨true, (Cglm.glm_aabb2d_merge aabb1 aabb2).list.map .f⟩])) := by kernel_rfl
theorem glm_aabb2d_merge_run_aabb2 (aabb1 : M2 α) (aabb2 : M2 α) :
    C.glm_aabb2d_merge.runT (α := α) [⟨false, aabb1.list.map .f⟩, ⟨true, aabb2.list.map .f⟩] [.p 0 0, .p 1 0, .p 1 0] =
      .done (some (none, [⟨false, aabb1.list.map .f⟩, ⟨true, (Cglm.glm_aabb2d_merge aabb1 aabb2).list.map .f⟩])) := by kernel_rfl
theorem glm_aabb2d_merge_run_aabb1 (aabb1 : M2 α) (aabb2 : M2 α) :
    C.glm_aabb2d_merge.runT (α := α) [⟨false, aabb2.list.map .f⟩, ⟨true, aabb1.list.map .f⟩] [.p 1 0, .p 0 0, .p 1 0] =
      .done (some (none, [⟨false, aabb2.list.map .f⟩, ⟨true, (Cglm.glm_aabb2d_merge aabb1 aabb2).list.map .f⟩])) := by kernel_rfl
theorem glm_aabb2d_merge_run_aabb1_aabb2 (aabb1 : M2 α) :
    C.glm_aabb2d_merge.runT (α := α) [⟨true, aabb1.list.map .f⟩] [.p 0 0, .p 0 0, .p 0 0] =
      .done (some (none, [⟨true, (Cglm.glm_aabb2d_merge aabb1 aabb1).list.map .f⟩])) := by kernel_rfl
theorem glm_aabb2d_crop_run (aabb : M2 α) (cropAabb : M2 α) :
    C.glm_aabb2d_crop.runT (α := α) [⟨false, aabb.list.map .f⟩, ⟨false, cropAabb.list.map .f⟩, ⟨true, List.replicate 4 .undef⟩] [.p 0 0, .p 1 0, .p 2 0] =
      .done (some (none, [⟨false, aabb.list.map .f⟩, ⟨false, cropAabb.list.map .f⟩, ⟨true, (Cglm.glm_aabb2d_crop aabb cropAabb).list.map .f⟩])) := by kernel_rfl
theorem glm_aabb2d_crop_run_cropAabb (aabb : M2 α) (cropAabb : M2 α) :
    C.glm_aabb2d_crop.runT (α := α) [⟨false, aabb.list.map .f⟩, ⟨true, cropAabb.list.map .f⟩] [.p 0 0, .p 1 0, .p 1 0] =
      .done (some (none, [⟨false, aabb.list.map .f⟩, ⟨true, (Cglm.glm_aabb2d_crop aabb cropAabb).list.map .f⟩])) := by kernel_rfl
theorem glm_aabb2d_crop_run_aabb (aabb : M2 α) (cropAabb : M2 α) :
    C.glm_aabb2d_crop.runT (α := α) [⟨false, cropAabb.list.map .f⟩, ⟨true, aabb.list.map .f⟩] [.p 1 0, .p 0 0, .p 1 0] =
      .done (some (none, [⟨false, cropAabb.list.map .f⟩, ⟨true, (Cglm.glm_aabb2d_crop aabb cropAabb).list.map .f⟩])) := by kernel_rfl
theorem glm_aabb2d_crop_run_aabb_cropAabb (aabb : M2 α) :
    C.glm_aabb2d_crop.runT (α := α) [⟨true, aabb.list.map .f⟩] [.p 0 0, .p 0 0, .p 0 0] =
      .done (some (none, [⟨true, (Cglm.glm_aabb2d_crop aabb aabb).list.map .f⟩])) := by kernel_rfl
theorem glm_aabb2d_crop_until_run (aabb : M2 α) (cropAabb : M2 α) (clampAabb : M2 α) :
    C.glm_aabb2d_crop_until.runT (α := α) [⟨false, aabb.list.map .f⟩, ⟨false, cropAabb.list.map .f⟩, ⟨false, clampAabb.list.map .f⟩, ⟨true, List.replicate 4 .undef⟩] [.p 0 0, .p 1 0, .p 2 0, .p 3 0] =
      .done (some (none, [⟨false, aabb.list.map .f⟩, ⟨false, cropAabb.list.map .f⟩, ⟨false, clampAabb.list.map .f⟩, ⟨true, (Cglm.glm_aabb2d_crop_until aabb cropAabb clampAabb).list.map .f⟩])) := by kernel_rfl
theorem glm_aabb2d_crop_until_run_cropAabb (aabb : M2 α) (cropAabb : M2 α) (clampAabb : M2 α) :
    C.glm_aabb2d_crop_until.runT (α := α) [⟨false, aabb.list.map .f⟩, ⟨false, clampAabb.list.map .f⟩, ⟨true, cropAabb.list.map .f⟩] [.p 0 0, .p 2 0, .p 1 0, .p 2 0] =
      .done (some (none, [⟨false, aabb.list.map .f⟩, ⟨false, clampAabb.list.map .f⟩, ⟨true, (Cglm.glm_aabb2d_crop_until aabb cropAabb clampAabb).list.map .f⟩])) := by kernel_rfl
theorem glm_aabb2d_crop_until_run_aabb (aabb : M2 α) (cropAabb : M2 α) (clampAabb : M2 α) :
    C.glm_aabb2d_crop_until.runT (α := α) [⟨false, cropAabb.list.map .f⟩, ⟨false, clampAabb.list.map .f⟩, ⟨true, aabb.list.map .f⟩] [.p 2 0, .p 0 0, .p 1 0, .p 2 0] =
      .done (some (none, [⟨false, cropAabb.list.map .f⟩, ⟨false, clampAabb.list.map .f⟩, ⟨true, (Cglm.glm_aabb2d_crop_until aabb cropAabb clampAabb).list.map .f⟩])) := by kernel_rfl
theorem glm_aabb2d_crop_until_run_aabb_cropAabb (aabb : M2 α) (clampAabb : M2 α) :
    C.glm_aabb2d_crop_until.runT (α := α) [⟨false, clampAabb.list.map .f⟩, ⟨true, aabb.list.map .f⟩] [.p 1 0, .p 1 0, .p 0 0, .p 1 0] =
      .done (some (none, [⟨false, clampAabb.list.map .f⟩, ⟨true, (Cglm.glm_aabb2d_crop_until aabb aabb clampAabb).list.map .f⟩])) := by kernel_rfl
theorem glm_aabb2d_invalidate_run :
    C.glm_aabb2d_invalidate.runT (α := α) [⟨true, List.replicate 4 .undef⟩] [.p 0 0] =
      .done (some (none, [⟨true, (Cglm.glm_aabb2d_invalidate).list.map .f⟩])) := by kernel_rfl
theorem glm_aabb2d_isvalid_run (aabb : M2 α) :
    C.glm_aabb2d_isvalid.runT (α := α) [⟨false, aabb.list.map .f⟩] [.p 0 0] =
      .done (some (some (.b (Cglm.glm_aabb2d_isvalid aabb)), [⟨false, aabb.list.map .f⟩])) := by kernel_rfl
theorem glm_aabb2d_diag_run (aabb : M2 α) :
    C.glm_aabb2d_diag.runT (α := α) [⟨false, aabb.list.map .f⟩] [.p 0 0] =
      .done (some (some (.f (Cglm.glm_aabb2d_diag aabb)), [⟨false, aabb.list.map .f⟩])) := by kernel_rfl
theorem glm_aabb2d_sizev_run (aabb : M2 α) :
    C.glm_aabb2d_sizev.runT (α := α) [⟨false, aabb.list.map .f⟩, ⟨true, List.replicate 2 .undef⟩] [.p 0 0, .p 1 0] =
      .done (some (none, [⟨false, aabb.list.map .f⟩, ⟨true, (Cglm.glm_aabb2d_sizev aabb).list.map .f⟩])) := by kernel_rfl
theorem glm_aabb2d_radius_run (aabb : M2 α) :
    C.glm_aabb2d_radius.runT (α := α) [⟨false, aabb.list.map .f⟩] [.p 0 0] =
      .done (some (some (.f (Cglm.glm_aabb2d_radius aabb)), [⟨false, aabb.list.map .f⟩])) := by kernel_rfl
theorem glm_aabb2d_center_run (aabb : M2 α) :
    C.glm_aabb2d_center.runT (α := α) [⟨false, aabb.list.map .f⟩, ⟨true, List.replicate 2 .undef⟩] [.p 0 0, .p 1 0] =
      .done (some (none, [⟨false, aabb.list.map .f⟩, ⟨true, (Cglm.glm_aabb2d_center aabb).list.map .f⟩])) := by kernel_rfl
theorem glm_aabb2d_aabb_run (aabb : M2 α) (other : M2 α) :
    C.glm_aabb2d_aabb.runT (α := α) [⟨false, aabb.list.map .f⟩, ⟨false, other.list.map .f⟩] [.p 0 0, .p 1 0] =
      .done (some (some (.b (Cglm.glm_aabb2d_aabb aabb other)), [⟨false, aabb.list.map .f⟩, ⟨false, other.list.map .f⟩])) := by kernel_rfl
theorem glm_aabb2d_circle_run (aabb : M2 α) (c : V3 α) :
    C.glm_aabb2d_circle.runT (α := α) [⟨false, aabb.list.map .f⟩, ⟨false, c.list.map .f⟩] [.p 0 0, .p 1 0] =
      .done (some (some (.b (Cglm.glm_aabb2d_circle aabb c)), [⟨false, aabb.list.map .f⟩, ⟨false, c.list.map .f⟩])) := by kernel_rfl
theorem glm_aabb2d_point_run (aabb : M2 α) (point : V2 α) :
    C.glm_aabb2d_point.runT (α := α) [⟨false, aabb.list.map .f⟩, ⟨false, point.list.map .f⟩] [.p 0 0, .p 1 0] =
      .done (some (some (.b (Cglm.glm_aabb2d_point aabb point)), [⟨false, aabb.list.map .f⟩, ⟨false, point.list.map .f⟩])) := by kernel_rfl
theorem glm_aabb2d_contains_run (aabb : M2 α) (other : M2 α) :
    C.glm_aabb2d_contains.runT (α := α) [⟨false, aabb.list.map .f⟩, ⟨false, other.list.map .f⟩] [.p 0 0, .p 1 0] =
      .done (some (some (.b (Cglm.glm_aabb2d_contains aabb other)), [⟨false, aabb.list.map .f⟩, ⟨false, other.list.map .f⟩])) := by kernel_rfl

end Cglm

end Aabb2dRun

section BezierRun

/-! Runs of the functions of include/cglm/bezier.h on canonical memories. -/

set_option linter.unusedVariables false
set_option linter.unusedSectionVars false

namespace Cglm
open CMem

variable {α : Type} [Add α] [Sub α] [Mul α] [Div α] [Neg α] [CFloat α]

theorem glm_bezier_run (s : α) (p0 : α) (c0 : α) (c1 : α) (p1 : α) :
    C.glm_bezier.runT (α := α) [] [.f s, .f p0, .f c0, .f c1, .f p1] =
      .done (some (some (.f (Cglm.glm_bezier s p0 c0 c1 p1)), [])) := by kernel_rfl
theorem glm_hermite_run (s : α) (p0 : α) (t0 : α) (t1 : α) (p1 : α) :
    C.glm_hermite.runT (α := α) [] [.f s, .f p0, .f t0, .f t1, .f p1] =
      .done (some (some (.f (Cglm.glm_hermite s p0 t0 t1 p1)), [])) := by kernel_rfl

end Cglm

end BezierRun

section BoxRun

/-! Runs of the functions of include/cglm/box.h on canonical memories. -/

set_option linter.unusedVariables false
set_option linter.unusedSectionVars false

namespace Cglm
open CMem

variable {α : Type} [Add α] [Sub α] [Mul α] [Div α] [Neg α] [CFloat α]

theorem glm_aabb_transform_run (box : M2x3 α) (m : M4 α) :
    C.glm_aabb_transform.runT (α := α) [⟨false, box.list.map .f⟩, ⟨false, m.list.map .f⟩, ⟨true, List.replicate 6 .undef⟩] [.p 0 0, .p 1 0, .p 2 0] =
      .done (some (none, [⟨false, box.list.map .f⟩, ⟨false, m.list.map .f⟩, ⟨true, (Cglm.glm_aabb_transform box m).list.map .f⟩])) := by kernel_rfl
theorem glm_aabb_transform_run_box (box : M2x3 α) (m : M4 α) :
    C.glm_aabb_transform.runT (α := α) [⟨false, m.list.map .f⟩, ⟨true, box.list.map .f⟩] [.p 1 0, .p 0 0, .p 1 0] =
      .done (some (none, [⟨false, m.list.map .f⟩, ⟨true, (Cglm.glm_aabb_transform box m).list.map .f⟩])) := by kernel_rfl
theorem glm_aabb_merge_run (box1 : M2x3 α) (box2 : M2x3 α) :
    C.glm_aabb_merge.runT (α := α) [⟨false, box1.list.map .f⟩, ⟨false, box2.list.map .f⟩, ⟨true, List.replicate 6 .undef⟩] [.p 0 0, .p 1 0, .p 2 0] =
      .done (some (none, [⟨false, box1.list.map .f⟩, ⟨false, box2.list.map .f⟩, ⟨true, (Cglm.glm_aabb_merge box1 box2).list.map .f⟩])) := by kernel_rfl
theorem glm_aabb_merge_run_box2 (box1 : M2x3 α) (box2 : M2x3 α) :
    C.glm_aabb_merge.runT (α := α) [⟨false, box1.list.map .f⟩, ⟨true, box2.list.map .f⟩] [.p 0 0, .p 1 0, .p 1 0] =
      .done (some (none, [⟨false, box1.list.map .f⟩, ⟨true, (Cglm.glm_aabb_merge box1 box2).list.map .f⟩])) := by kernel_rfl
theorem glm_aabb_merge_run_box1 (box1 : M2x3 α) (box2 : M2x3 α) :
    C.glm_aabb_merge.runT (α := α) [⟨false, box2.list.map .f⟩, ⟨true, box1.list.map .f⟩] [.p 1 0, .p 0 0, .p 1 0] =
      .done (some (none, [⟨false, box2.list.map .f⟩, ⟨true, (Cglm.glm_aabb_merge box1 box2).list.map .f⟩])) := by kernel_rfl
theorem glm_aabb_merge_run_box1_box2 (box1 : M2x3 α) :
    C.glm_aabb_merge.runT (α := α) [⟨true, box1.list.map .f⟩] [.p 0 0, .p 0 0, .p 0 0] =
      .done (some (none, [⟨true, (Cglm.glm_aabb_merge box1 box1).list.map .f⟩])) := by kernel_rfl
theorem glm_aabb_crop_run (box : M2x3 α) (cropBox : M2x3 α) :
    C.glm_aabb_crop.runT (α := α) [⟨false, box.list.map .f⟩, ⟨false, cropBox.list.map .f⟩, ⟨true, List.replicate 6 .undef⟩] [.p 0 0, .p 1 0, .p 2 0] =
      .done (some (none, [⟨false, box.list.map .f⟩, ⟨false, cropBox.list.map .f⟩, ⟨true, (Cglm.glm_aabb_crop box cropBox).list.map .f⟩])) := by kernel_rfl
theorem glm_aabb_crop_run_cropBox (box : M2x3 α) (cropBox : M2x3 α) :
    C.glm_aabb_crop.runT (α := α) [⟨false, box.list.map .f⟩, ⟨true, cropBox.list.map .f⟩] [.p 0 0, .p 1 0, .p 1 0] =
      .done (some (none, [⟨false, box.list.map .f⟩, ⟨true, (Cglm.glm_aabb_crop box cropBox).list.map .f⟩])) := by kernel_rfl
theorem glm_aabb_crop_run_box (box : M2x3 α) (cropBox : M2x3 α) :
    C.glm_aabb_crop.runT (α := α) [⟨false, cropBox.list.map .f⟩, ⟨true, box.list.map .f⟩] [.p 1 0, .p 0 0, .p 1 0] =
      .done (some (none, [⟨false, cropBox.list.map .f⟩, ⟨true, (Cglm.glm_aabb_crop box cropBox).list.map .f⟩])) := by kernel_rfl
theorem glm_aabb_crop_run_box_cropBox (box : M2x3 α) :
    C.glm_aabb_crop.runT (α := α) [⟨true, box.list.map .f⟩] [.p 0 0, .p 0 0, .p 0 0] =
      .done (some (none, [⟨true, (Cglm.glm_aabb_crop box box).list.map .f⟩])) := by kernel_rfl
theorem glm_aabb_crop_until_run (box : M2x3 α) (cropBox : M2x3 α) (clampBox : M2x3 α) :
    C.glm_aabb_crop_until.runT (α := α) [⟨false, box.list.map .f⟩, ⟨false, cropBox.list.map .f⟩, ⟨false, clampBox.list.map .f⟩, ⟨true, List.replicate 6 .undef⟩] [.p 0 0, .p 1 0, .p 2 0, .p 3 0] =
      .done (some (none, [⟨false, box.list.map .f⟩, ⟨false, cropBox.list.map .f⟩, ⟨false, clampBox.list.map .f⟩, ⟨true, (Cglm.glm_aabb_crop_until box cropBox clampBox).list.map .f⟩])) := by kernel_rfl
theorem glm_aabb_crop_until_run_cropBox (box : M2x3 α) (cropBox : M2x3 α) (clampBox : M2x3 α) :
    C.glm_aabb_crop_until.runT (α := α) [⟨false, box.list.map .f⟩, ⟨false, clampBox.list.map .f⟩, ⟨true, cropBox.list.map .f⟩] [.p 0 0, .p 2 0, .p 1 0, .p 2 0] =
      .done (some (none, [⟨false, box.list.map .f⟩, ⟨false, clampBox.list.map .f⟩, ⟨true, (Cglm.glm_aabb_crop_until box cropBox clampBox).list.map .f⟩])) := by kernel_rfl
theorem glm_aabb_crop_until_run_box (box : M2x3 α) (cropBox : M2x3 α) (clampBox : M2x3 α) :
    C.glm_aabb_crop_until.runT (α := α) [⟨false, cropBox.list.map .f⟩, ⟨false, clampBox.list.map .f⟩, ⟨true, box.list.map .f⟩] [.p 2 0, .p 0 0, .p 1 0, .p 2 0] =
      .done (some (none, [⟨false, cropBox.list.map .f⟩, ⟨false, clampBox.list.map .f⟩, ⟨true, (Cglm.glm_aabb_crop_until box cropBox clampBox).list.map .f⟩])) := by kernel_rfl
theorem glm_aabb_crop_until_run_box_cropBox (box : M2x3 α) (clampBox : M2x3 α) :
    C.glm_aabb_crop_until.runT (α := α) [⟨false, clampBox.list.map .f⟩, ⟨true, box.list.map .f⟩] [.p 1 0, .p 1 0, .p 0 0, .p 1 0] =
      .done (some (none, [⟨false, clampBox.list.map .f⟩, ⟨true, (Cglm.glm_aabb_crop_until box box clampBox).list.map .f⟩])) := by kernel_rfl
/-- `glm_aabb_frustum` with its branches as a tree -/
def glm_aabb_frustum_dt (box : M2x3 α) (planes : M6x4 α) : DT (Bool) :=
  let dp := planes.c0.x * (if flt (lit 0) planes.c0.x then box.c1.x else box.c0.x) + planes.c0.y * (if flt (lit 0) planes.c0.y then box.c1.y else box.c0.y) + planes.c0.z * (if flt (lit 0) planes.c0.z then box.c1.z else box.c0.z)
  .br (flt dp (-planes.c0.w)) (
    .done false) (
    let dp_1 := planes.c1.x * (if flt (lit 0) planes.c1.x then box.c1.x else box.c0.x) + planes.c1.y * (if flt (lit 0) planes.c1.y then box.c1.y else box.c0.y) + planes.c1.z * (if flt (lit 0) planes.c1.z then box.c1.z else box.c0.z)
    .br (flt dp_1 (-planes.c1.w)) (
      .done false) (
      let dp_2 := planes.c2.x * (if flt (lit 0) planes.c2.x then box.c1.x else box.c0.x) + planes.c2.y * (if flt (lit 0) planes.c2.y then box.c1.y else box.c0.y) + planes.c2.z * (if flt (lit 0) planes.c2.z then box.c1.z else box.c0.z)
      .br (flt dp_2 (-planes.c2.w)) (
        .done false) (
        let dp_3 := planes.c3.x * (if flt (lit 0) planes.c3.x then box.c1.x else box.c0.x) + planes.c3.y * (if flt (lit 0) planes.c3.y then box.c1.y else box.c0.y) + planes.c3.z * (if flt (lit 0) planes.c3.z then box.c1.z else box.c0.z)
        .br (flt dp_3 (-planes.c3.w)) (
          .done false) (
          let dp_4 := planes.c4.x * (if flt (lit 0) planes.c4.x then box.c1.x else box.c0.x) + planes.c4.y * (if flt (lit 0) planes.c4.y then box.c1.y else box.c0.y) + planes.c4.z * (if flt (lit 0) planes.c4.z then box.c1.z else box.c0.z)
          .br (flt dp_4 (-planes.c4.w)) (
            .done false) (
            let dp_5 := planes.c5.x * (if flt (lit 0) planes.c5.x then box.c1.x else box.c0.x) + planes.c5.y * (if flt (lit 0) planes.c5.y then box.c1.y else box.c0.y) + planes.c5.z * (if flt (lit 0) planes.c5.z then box.c1.z else box.c0.z)
            .br (flt dp_5 (-planes.c5.w)) (
              .done false) (
              .done true))))))
theorem glm_aabb_frustum_dt_val (box : M2x3 α) (planes : M6x4 α) : (glm_aabb_frustum_dt box planes).val = Cglm.glm_aabb_frustum box planes := by
  unfold glm_aabb_frustum_dt
  simp only [DT.val]
  kernel_rfl
theorem glm_aabb_frustum_run (box : M2x3 α) (planes : M6x4 α) :
    C.glm_aabb_frustum.runT (α := α) [⟨false, box.list.map .f⟩, ⟨false, planes.list.map .f⟩] [.p 0 0, .p 1 0] =
      (Cglm.glm_aabb_frustum_dt box planes).map fun r => some (some (.b r), [⟨false, box.list.map .f⟩, ⟨false, planes.list.map .f⟩]) := by kernel_rfl
theorem glm_aabb_invalidate_run :
    C.glm_aabb_invalidate.runT (α := α) [⟨true, List.replicate 6 .undef⟩] [.p 0 0] =
      .done (some (none, [⟨true, (Cglm.glm_aabb_invalidate).list.map .f⟩])) := by kernel_rfl
theorem glm_aabb_isvalid_run (box : M2x3 α) :
    C.glm_aabb_isvalid.runT (α := α) [⟨false, box.list.map .f⟩] [.p 0 0] =
      .done (some (some (.b (Cglm.glm_aabb_isvalid box)), [⟨false, box.list.map .f⟩])) := by kernel_rfl
theorem glm_aabb_size_run (box : M2x3 α) :
    C.glm_aabb_size.runT (α := α) [⟨false, box.list.map .f⟩] [.p 0 0] =
      .done (some (some (.f (Cglm.glm_aabb_size box)), [⟨false, box.list.map .f⟩])) := by kernel_rfl
theorem glm_aabb_radius_run (box : M2x3 α) :
    C.glm_aabb_radius.runT (α := α) [⟨false, box.list.map .f⟩] [.p 0 0] =
      .done (some (some (.f (Cglm.glm_aabb_radius box)), [⟨false, box.list.map .f⟩])) := by kernel_rfl
theorem glm_aabb_center_run (box : M2x3 α) :
    C.glm_aabb_center.runT (α := α) [⟨false, box.list.map .f⟩, ⟨true, List.replicate 3 .undef⟩] [.p 0 0, .p 1 0] =
      .done (some (none, [⟨false, box.list.map .f⟩, ⟨true, (Cglm.glm_aabb_center box).list.map .f⟩])) := by kernel_rfl
theorem glm_aabb_aabb_run (box : M2x3 α) (other : M2x3 α) :
    C.glm_aabb_aabb.runT (α := α) [⟨false, box.list.map .f⟩, ⟨false, other.list.map .f⟩] [.p 0 0, .p 1 0] =
      .done (some (some (.b (Cglm.glm_aabb_aabb box other)), [⟨false, box.list.map .f⟩, ⟨false, other.list.map .f⟩])) := by kernel_rfl
theorem glm_aabb_sphere_run (box : M2x3 α) (s : V4 α) :
    C.glm_aabb_sphere.runT (α := α) [⟨false, box.list.map .f⟩, ⟨false, s.list.map .f⟩] [.p 0 0, .p 1 0] =
      .done (some (some (.b (Cglm.glm_aabb_sphere box s)), [⟨false, box.list.map .f⟩, ⟨false, s.list.map .f⟩])) := by kernel_rfl
theorem glm_aabb_point_run (box : M2x3 α) (point : V3 α) :
    C.glm_aabb_point.runT (α := α) [⟨false, box.list.map .f⟩, ⟨false, point.list.map .f⟩] [.p 0 0, .p 1 0] =
      .done (some (some (.b (Cglm.glm_aabb_point box point)), [⟨false, box.list.map .f⟩, ⟨false, point.list.map .f⟩])) := by kernel_rfl
theorem glm_aabb_contains_run (box : M2x3 α) (other : M2x3 α) :
    C.glm_aabb_contains.runT (α := α) [⟨false, box.list.map .f⟩, ⟨false, other.list.map .f⟩] [.p 0 0, .p 1 0] =
      .done (some (some (.b (Cglm.glm_aabb_contains box other)), [⟨false, box.list.map .f⟩, ⟨false, other.list.map .f⟩])) := by kernel_rfl

end Cglm

end BoxRun

section ColorRun

/-! Runs of the functions of include/cglm/color.h on canonical memories. -/

set_option linter.unusedVariables false
set_option linter.unusedSectionVars false

namespace Cglm
open CMem

variable {α : Type} [Add α] [Sub α] [Mul α] [Div α] [Neg α] [CFloat α]

theorem glm_luminance_run (rgb : V3 α) :
    C.glm_luminance.runT (α := α) [⟨false, rgb.list.map .f⟩] [.p 0 0] =
      .done (some (some (.f (Cglm.glm_luminance rgb)), [⟨false, rgb.list.map .f⟩])) := by kernel_rfl

end Cglm

end ColorRun

section CurveRun

/-! Runs of the functions of include/cglm/curve.h on canonical memories. -/

set_option linter.unusedVariables false
set_option linter.unusedSectionVars false

namespace Cglm
open CMem

variable {α : Type} [Add α] [Sub α] [Mul α] [Div α] [Neg α] [CFloat α]

theorem glm_smc_run (s : α) (m : M4 α) (c : V4 α) :
    C.glm_smc.runT (α := α) [⟨false, m.list.map .f⟩, ⟨false, c.list.map .f⟩] [.f s, .p 0 0, .p 1 0] =
      .done (some (some (.f (Cglm.glm_smc s m c)), [⟨false, m.list.map .f⟩, ⟨false, c.list.map .f⟩])) := by kernel_rfl

end Cglm

end CurveRun

section EaseRun

/-! Runs of the functions of include/cglm/ease.h on canonical memories. -/

set_option linter.unusedVariables false
set_option linter.unusedSectionVars false

namespace Cglm
open CMem

variable {α : Type} [Add α] [Sub α] [Mul α] [Div α] [Neg α] [CFloat α]

theorem glm_ease_linear_run (t : α) :
    C.glm_ease_linear.runT (α := α) [] [.f t] =
      .done (some (some (.f (Cglm.glm_ease_linear t)), [])) := by kernel_rfl
theorem glm_ease_sine_in_run (t : α) :
    C.glm_ease_sine_in.runT (α := α) [] [.f t] =
      .done (some (some (.f (Cglm.glm_ease_sine_in t)), [])) := by kernel_rfl
theorem glm_ease_sine_out_run (t : α) :
    C.glm_ease_sine_out.runT (α := α) [] [.f t] =
      .done (some (some (.f (Cglm.glm_ease_sine_out t)), [])) := by kernel_rfl
theorem glm_ease_sine_inout_run (t : α) :
    C.glm_ease_sine_inout.runT (α := α) [] [.f t] =
      .done (some (some (.f (Cglm.glm_ease_sine_inout t)), [])) := by kernel_rfl
theorem glm_ease_quad_in_run (t : α) :
    C.glm_ease_quad_in.runT (α := α) [] [.f t] =
      .done (some (some (.f (Cglm.glm_ease_quad_in t)), [])) := by kernel_rfl
theorem glm_ease_quad_out_run (t : α) :
    C.glm_ease_quad_out.runT (α := α) [] [.f t] =
      .done (some (some (.f (Cglm.glm_ease_quad_out t)), [])) := by kernel_rfl
/-- `glm_ease_quad_inout` with its branches as a tree -/
def glm_ease_quad_inout_dt (t : α) : DT (α) :=
  let tt := t * t
  .br (flt t (lit 0.5)) (
    .done ((lit 2) * tt)) (
    .done ((-(lit 2)) * tt + (lit 4) * t - (lit 1)))
theorem glm_ease_quad_inout_dt_val (t : α) : (glm_ease_quad_inout_dt t).val = Cglm.glm_ease_quad_inout t := by
  unfold glm_ease_quad_inout_dt
  simp only [DT.val]
  kernel_rfl
theorem glm_ease_quad_inout_run (t : α) :
    C.glm_ease_quad_inout.runT (α := α) [] [.f t] =
      (Cglm.glm_ease_quad_inout_dt t).map fun r => some (some (.f r), []) := by kernel_rfl
theorem glm_ease_cubic_in_run (t : α) :
    C.glm_ease_cubic_in.runT (α := α) [] [.f t] =
      .done (some (some (.f (Cglm.glm_ease_cubic_in t)), [])) := by kernel_rfl
theorem glm_ease_cubic_out_run (t : α) :
    C.glm_ease_cubic_out.runT (α := α) [] [.f t] =
      .done (some (some (.f (Cglm.glm_ease_cubic_out t)), [])) := by kernel_rfl
/-- `glm_ease_cubic_inout` with its branches as a tree -/
def glm_ease_cubic_inout_dt (t : α) : DT (α) :=
  .br (flt t (lit 0.5)) (
    .done ((lit 4) * t * t * t)) (
    let f := (lit 2) * t - (lit 2)
    .done ((lit 0.5) * f * f * f + (lit 1)))
theorem glm_ease_cubic_inout_dt_val (t : α) : (glm_ease_cubic_inout_dt t).val = Cglm.glm_ease_cubic_inout t := by
  unfold glm_ease_cubic_inout_dt
  simp only [DT.val]
  kernel_rfl
theorem glm_ease_cubic_inout_run (t : α) :
    C.glm_ease_cubic_inout.runT (α := α) [] [.f t] =
      (Cglm.glm_ease_cubic_inout_dt t).map fun r => some (some (.f r), []) := by kernel_rfl
theorem glm_ease_quart_in_run (t : α) :
    C.glm_ease_quart_in.runT (α := α) [] [.f t] =
      .done (some (some (.f (Cglm.glm_ease_quart_in t)), [])) := by kernel_rfl
theorem glm_ease_quart_out_run (t : α) :
    C.glm_ease_quart_out.runT (α := α) [] [.f t] =
      .done (some (some (.f (Cglm.glm_ease_quart_out t)), [])) := by kernel_rfl
/-- `glm_ease_quart_inout` with its branches as a tree -/
def glm_ease_quart_inout_dt (t : α) : DT (α) :=
  .br (flt t (lit 0.5)) (
    let f := t * t
    .done ((lit 8) * f * f)) (
    let f := t - (lit 1)
    let g := f * f
    .done ((-(lit 8)) * g * g + (lit 1)))
theorem glm_ease_quart_inout_dt_val (t : α) : (glm_ease_quart_inout_dt t).val = Cglm.glm_ease_quart_inout t := by
  unfold glm_ease_quart_inout_dt
  simp only [DT.val]
  kernel_rfl
theorem glm_ease_quart_inout_run (t : α) :
    C.glm_ease_quart_inout.runT (α := α) [] [.f t] =
      (Cglm.glm_ease_quart_inout_dt t).map fun r => some (some (.f r), []) := by kernel_rfl
theorem glm_ease_quint_in_run (t : α) :
    C.glm_ease_quint_in.runT (α := α) [] [.f t] =
      .done (some (some (.f (Cglm.glm_ease_quint_in t)), [])) := by kernel_rfl
theorem glm_ease_quint_out_run (t : α) :
    C.glm_ease_quint_out.runT (α := α) [] [.f t] =
      .done (some (some (.f (Cglm.glm_ease_quint_out t)), [])) := by kernel_rfl
/-- `glm_ease_quint_inout` with its branches as a tree -/
def glm_ease_quint_inout_dt (t : α) : DT (α) :=
  .br (flt t (lit 0.5)) (
    let f := t * t
    .done ((lit 16) * f * f * t)) (
    let f := (lit 2) * t - (lit 2)
    let g := f * f
    .done ((lit 0.5) * g * g * f + (lit 1)))
theorem glm_ease_quint_inout_dt_val (t : α) : (glm_ease_quint_inout_dt t).val = Cglm.glm_ease_quint_inout t := by
  unfold glm_ease_quint_inout_dt
  simp only [DT.val]
  kernel_rfl
theorem glm_ease_quint_inout_run (t : α) :
    C.glm_ease_quint_inout.runT (α := α) [] [.f t] =
      (Cglm.glm_ease_quint_inout_dt t).map fun r => some (some (.f r), []) := by kernel_rfl
/-- `glm_ease_exp_in` with its branches as a tree -/
def glm_ease_exp_in_dt (t : α) : DT (α) :=
  .br (feq t (lit 0)) (
    .done t) (
    .done (powf (lit 2) ((lit 10) * (t - (lit 1)))))
theorem glm_ease_exp_in_dt_val (t : α) : (glm_ease_exp_in_dt t).val = Cglm.glm_ease_exp_in t := by
  unfold glm_ease_exp_in_dt
  simp only [DT.val]
  kernel_rfl
theorem glm_ease_exp_in_run (t : α) :
    C.glm_ease_exp_in.runT (α := α) [] [.f t] =
      (Cglm.glm_ease_exp_in_dt t).map fun r => some (some (.f r), []) := by kernel_rfl
/-- `glm_ease_exp_out` with its branches as a tree -/
def glm_ease_exp_out_dt (t : α) : DT (α) :=
  .br (feq t (lit 1)) (
    .done t) (
    .done ((lit 1) - powf (lit 2) ((-(lit 10)) * t)))
theorem glm_ease_exp_out_dt_val (t : α) : (glm_ease_exp_out_dt t).val = Cglm.glm_ease_exp_out t := by
  unfold glm_ease_exp_out_dt
  simp only [DT.val]
  kernel_rfl
theorem glm_ease_exp_out_run (t : α) :
    C.glm_ease_exp_out.runT (α := α) [] [.f t] =
      (Cglm.glm_ease_exp_out_dt t).map fun r => some (some (.f r), []) := by kernel_rfl
/-- `glm_ease_exp_inout` with its branches as a tree -/
def glm_ease_exp_inout_dt (t : α) : DT (α) :=
  .br (feq t (lit 0) || feq t (lit 1)) (
    .done t) (
    .br (flt t (lit 0.5)) (
      .done ((lit 0.5) * powf (lit 2) ((lit 20) * t - (lit 10)))) (
      .done ((-(lit 0.5)) * powf (lit 2) ((-(lit 20)) * t + (lit 10)) + (lit 1))))
theorem glm_ease_exp_inout_dt_val (t : α) : (glm_ease_exp_inout_dt t).val = Cglm.glm_ease_exp_inout t := by
  unfold glm_ease_exp_inout_dt
  simp only [DT.val]
  kernel_rfl
theorem glm_ease_exp_inout_run (t : α) :
    C.glm_ease_exp_inout.runT (α := α) [] [.f t] =
      (Cglm.glm_ease_exp_inout_dt t).map fun r => some (some (.f r), []) := by kernel_rfl
theorem glm_ease_circ_in_run (t : α) :
    C.glm_ease_circ_in.runT (α := α) [] [.f t] =
      .done (some (some (.f (Cglm.glm_ease_circ_in t)), [])) := by kernel_rfl
theorem glm_ease_circ_out_run (t : α) :
    C.glm_ease_circ_out.runT (α := α) [] [.f t] =
      .done (some (some (.f (Cglm.glm_ease_circ_out t)), [])) := by kernel_rfl
/-- `glm_ease_circ_inout` with its branches as a tree -/
def glm_ease_circ_inout_dt (t : α) : DT (α) :=
  .br (flt t (lit 0.5)) (
    .done ((lit 0.5) * ((lit 1) - sqrtf ((lit 1) - (lit 4) * (t * t))))) (
    .done ((lit 0.5) * (sqrtf ((-((lit 2) * t - (lit 3))) * ((lit 2) * t - (lit 1))) + (lit 1))))
theorem glm_ease_circ_inout_dt_val (t : α) : (glm_ease_circ_inout_dt t).val = Cglm.glm_ease_circ_inout t := by
  unfold glm_ease_circ_inout_dt
  simp only [DT.val]
  kernel_rfl
theorem glm_ease_circ_inout_run (t : α) :
    C.glm_ease_circ_inout.runT (α := α) [] [.f t] =
      (Cglm.glm_ease_circ_inout_dt t).map fun r => some (some (.f r), []) := by kernel_rfl
theorem glm_ease_back_in_run (t : α) :
    C.glm_ease_back_in.runT (α := α) [] [.f t] =
      .done (some (some (.f (Cglm.glm_ease_back_in t)), [])) := by kernel_rfl
theorem glm_ease_back_out_run (t : α) :
    C.glm_ease_back_out.runT (α := α) [] [.f t] =
      .done (some (some (.f (Cglm.glm_ease_back_out t)), [])) := by kernel_rfl
/-- `glm_ease_back_inout` with its branches as a tree -/
def glm_ease_back_inout_dt (t : α) : DT (α) :=
  let s := (lit 1.70158) * (lit 1.525)
  let n := t / (lit 0.5)
  .br (flt n (lit 1)) (
    let z := (s + (lit 1)) * n - s
    .done ((lit 0.5) * (n * n * z))) (
    let n_1 := n - (lit 2)
    let z := (s + (lit 1)) * n_1 + s
    .done ((lit 0.5) * (n_1 * n_1 * z + (lit 2))))
theorem glm_ease_back_inout_dt_val (t : α) : (glm_ease_back_inout_dt t).val = Cglm.glm_ease_back_inout t := by
  unfold glm_ease_back_inout_dt
  simp only [DT.val]
  kernel_rfl
theorem glm_ease_back_inout_run (t : α) :
    C.glm_ease_back_inout.runT (α := α) [] [.f t] =
      (Cglm.glm_ease_back_inout_dt t).map fun r => some (some (.f r), []) := by kernel_rfl
theorem glm_ease_elast_in_run (t : α) :
    C.glm_ease_elast_in.runT (α := α) [] [.f t] =
      .done (some (some (.f (Cglm.glm_ease_elast_in t)), [])) := by kernel_rfl
theorem glm_ease_elast_out_run (t : α) :
    C.glm_ease_elast_out.runT (α := α) [] [.f t] =
      .done (some (some (.f (Cglm.glm_ease_elast_out t)), [])) := by kernel_rfl
/-- `glm_ease_elast_inout` with its branches as a tree -/
def glm_ease_elast_inout_dt (t : α) : DT (α) :=
  let a := (lit 2) * t
  .br (flt t (lit 0.5)) (
    .done ((lit 0.5) * sinf ((lit 13) * (lit 1.57079632679489661923132169163975144) * a) * powf (lit 2) ((lit 10) * (a - (lit 1))))) (
    .done ((lit 0.5) * (sinf ((-(lit 13)) * (lit 1.57079632679489661923132169163975144) * a) * powf (lit 2) ((-(lit 10)) * (a - (lit 1))) + (lit 2))))
theorem glm_ease_elast_inout_dt_val (t : α) : (glm_ease_elast_inout_dt t).val = Cglm.glm_ease_elast_inout t := by
  unfold glm_ease_elast_inout_dt
  simp only [DT.val]
  kernel_rfl
theorem glm_ease_elast_inout_run (t : α) :
    C.glm_ease_elast_inout.runT (α := α) [] [.f t] =
      (Cglm.glm_ease_elast_inout_dt t).map fun r => some (some (.f r), []) := by kernel_rfl
/-- `glm_ease_bounce_out` with its branches as a tree -/
def glm_ease_bounce_out_dt (t : α) : DT (α) :=
  let tt := t * t
  .br (flt t ((lit 4) / (lit 11))) (
    .done ((lit 121) * tt / (lit 16))) (
    .br (flt t ((lit 8) / (lit 11))) (
      .done ((lit 363) / (lit 40) * tt - (lit 99) / (lit 10) * t + (lit 17) / (lit 5))) (
      .br (flt t ((lit 9) / (lit 10))) (
        .done ((lit 4356) / (lit 361) * tt - (lit 35442) / (lit 1805) * t + (lit 16061) / (lit 1805))) (
        .done ((lit 54) / (lit 5) * tt - (lit 513) / (lit 25) * t + (lit 268) / (lit 25)))))
theorem glm_ease_bounce_out_dt_val (t : α) : (glm_ease_bounce_out_dt t).val = Cglm.glm_ease_bounce_out t := by
  unfold glm_ease_bounce_out_dt
  simp only [DT.val]
  kernel_rfl
theorem glm_ease_bounce_out_run (t : α) :
    C.glm_ease_bounce_out.runT (α := α) [] [.f t] =
      (Cglm.glm_ease_bounce_out_dt t).map fun r => some (some (.f r), []) := by kernel_rfl
theorem glm_ease_bounce_in_run (t : α) :
    C.glm_ease_bounce_in.runT (α := α) [] [.f t] =
      .done (some (some (.f (Cglm.glm_ease_bounce_in t)), [])) := by kernel_rfl
/-- `glm_ease_bounce_inout` with its branches as a tree -/
def glm_ease_bounce_inout_dt (t : α) : DT (α) :=
  .br (flt t (lit 0.5)) (
    .done ((lit 0.5) * ((lit 1) - glm_ease_bounce_out (t * (lit 2))))) (
    .done ((lit 0.5) * glm_ease_bounce_out (t * (lit 2) - (lit 1)) + (lit 0.5)))
theorem glm_ease_bounce_inout_dt_val (t : α) : (glm_ease_bounce_inout_dt t).val = Cglm.glm_ease_bounce_inout t := by
  unfold glm_ease_bounce_inout_dt
  simp only [DT.val]
  kernel_rfl
theorem glm_ease_bounce_inout_run (t : α) :
    C.glm_ease_bounce_inout.runT (α := α) [] [.f t] =
      (Cglm.glm_ease_bounce_inout_dt t).map fun r => some (some (.f r), []) := by kernel_rfl

end Cglm

end EaseRun

section PlaneRun

/-! Runs of the functions of include/cglm/plane.h on canonical memories. -/

set_option linter.unusedVariables false
set_option linter.unusedSectionVars false

namespace Cglm
open CMem

variable {α : Type} [Add α] [Sub α] [Mul α] [Div α] [Neg α] [CFloat α]

/-- `glm_plane_normalize` with its branches as a tree -/
def glm_plane_normalize_dt (plane : V4 α) : DT (V4 α) :=
  let norm := glm_vec3_norm ⟨plane.x, plane.y, plane.z⟩
  .br (flt norm (lit 0.00000011920928955078125)) (
    .done glm_vec4_zero) (
    .done (glm_vec4_scale plane ((lit 1) / norm)))
theorem glm_plane_normalize_dt_val (plane : V4 α) : (glm_plane_normalize_dt plane).val = Cglm.glm_plane_normalize plane := by
  unfold glm_plane_normalize_dt
  simp only [DT.val]
  kernel_rfl
theorem glm_plane_normalize_run (plane : V4 α) :
    C.glm_plane_normalize.runT (α := α) [⟨true, plane.list.map .f⟩] [.p 0 0] =
      (Cglm.glm_plane_normalize_dt plane).map fun r => some (none, [⟨true, r.list.map .f⟩]) := by kernel_rfl

end Cglm

end PlaneRun

section FrustumRun

/-! Runs of the functions of include/cglm/frustum.h on canonical memories. -/

set_option linter.unusedVariables false
set_option linter.unusedSectionVars false

namespace Cglm
open CMem

variable {α : Type} [Add α] [Sub α] [Mul α] [Div α] [Neg α] [CFloat α]

/-- `glm_frustum_planes` with its branches as a tree -/
def glm_frustum_planes_dt (m : M4 α) : DT (M6x4 α) :=
  let t := glm_mat4_transpose_to m
  let dest_0 := glm_vec4_add t.c3 t.c0
  let dest_4 := glm_vec4_sub t.c3 t.c0
  let dest_8 := glm_vec4_add t.c3 t.c1
  let dest_12 := glm_vec4_sub t.c3 t.c1
  let dest_16 := glm_vec4_add t.c3 t.c2
  let dest_20 := glm_vec4_sub t.c3 t.c2
  DT.bind (glm_plane_normalize_dt dest_0) fun dest_0_1 =>
  DT.bind (glm_plane_normalize_dt dest_4) fun dest_4_1 =>
  DT.bind (glm_plane_normalize_dt dest_8) fun dest_8_1 =>
  DT.bind (glm_plane_normalize_dt dest_12) fun dest_12_1 =>
  DT.bind (glm_plane_normalize_dt dest_16) fun dest_16_1 =>
  DT.bind (glm_plane_normalize_dt dest_20) fun dest_20_1 =>
  .done ⟨dest_0_1, dest_4_1, dest_8_1, dest_12_1, dest_16_1, dest_20_1⟩
theorem glm_frustum_planes_dt_val (m : M4 α) : (glm_frustum_planes_dt m).val = Cglm.glm_frustum_planes m := by
  unfold glm_frustum_planes_dt
  simp only [DT.val_bind, DT.val, glm_plane_normalize_dt_val]
  kernel_rfl
theorem glm_frustum_planes_run (m : M4 α) :
    C.glm_frustum_planes.runT (α := α) [⟨false, m.list.map .f⟩, ⟨true, List.replicate 24 .undef⟩] [.p 0 0, .p 1 0] =
      (Cglm.glm_frustum_planes_dt m).map fun r => some (none, [⟨false, m.list.map .f⟩, ⟨true, r.list.map .f⟩]) := by kernel_rfl
theorem glm_frustum_corners_run (invMat : M4 α) :
    C.glm_frustum_corners.runT (α := α) [⟨false, invMat.list.map .f⟩, ⟨true, List.replicate 32 .undef⟩] [.p 0 0, .p 1 0] =
      .done (some (none, [⟨false, invMat.list.map .f⟩, ⟨true, (Cglm.glm_frustum_corners invMat).list.map .f⟩])) := by kernel_rfl
theorem glm_frustum_center_run (corners : M8x4 α) :
    C.glm_frustum_center.runT (α := α) [⟨false, corners.list.map .f⟩, ⟨true, List.replicate 4 .undef⟩] [.p 0 0, .p 1 0] =
      .done (some (none, [⟨false, corners.list.map .f⟩, ⟨true, (Cglm.glm_frustum_center corners).list.map .f⟩])) := by kernel_rfl
theorem glm_frustum_box_run (corners : M8x4 α) (m : M4 α) :
    C.glm_frustum_box.runT (α := α) [⟨false, corners.list.map .f⟩, ⟨false, m.list.map .f⟩, ⟨true, List.replicate 6 .undef⟩] [.p 0 0, .p 1 0, .p 2 0] =
      .done (some (none, [⟨false, corners.list.map .f⟩, ⟨false, m.list.map .f⟩, ⟨true, (Cglm.glm_frustum_box corners m).list.map .f⟩])) := by kernel_rfl
/-- `glm_frustum_corners_at` with its branches as a tree -/
def glm_frustum_corners_at_dt (corners : M8x4 α) (splitDist : α) (farDist : α) : DT (M4 α) :=
  let dist := glm_vec3_distance ⟨corners.c6.x, corners.c6.y, corners.c6.z⟩ ⟨corners.c2.x, corners.c2.y, corners.c2.z⟩
  let sc := dist * (splitDist / farDist)
  let corner := glm_vec4_sub corners.c4 corners.c0
  DT.bind (glm_vec4_scale_as_dt corner sc) fun corner_1 =>
  let planeCorners_0 := glm_vec4_add corners.c0 corner_1
  let corner_2 := glm_vec4_sub corners.c5 corners.c1
  DT.bind (glm_vec4_scale_as_dt corner_2 sc) fun corner_3 =>
  let planeCorners_4 := glm_vec4_add corners.c1 corner_3
  let corner_4 := glm_vec4_sub corners.c6 corners.c2
  DT.bind (glm_vec4_scale_as_dt corner_4 sc) fun corner_5 =>
  let planeCorners_8 := glm_vec4_add corners.c2 corner_5
  let corner_6 := glm_vec4_sub corners.c7 corners.c3
  DT.bind (glm_vec4_scale_as_dt corner_6 sc) fun corner_7 =>
  .done ⟨planeCorners_0, planeCorners_4, planeCorners_8, glm_vec4_add corners.c3 corner_7⟩
theorem glm_frustum_corners_at_dt_val (corners : M8x4 α) (splitDist : α) (farDist : α) : (glm_frustum_corners_at_dt corners splitDist farDist).val = Cglm.glm_frustum_corners_at corners splitDist farDist := by
  unfold glm_frustum_corners_at_dt
  simp only [DT.val_bind, DT.val, glm_vec4_scale_as_dt_val]
  kernel_rfl
theorem glm_frustum_corners_at_run (corners : M8x4 α) (splitDist : α) (farDist : α) :
    C.glm_frustum_corners_at.runT (α := α) [⟨false, corners.list.map .f⟩, ⟨true, List.replicate 16 .undef⟩] [.p 0 0, .f splitDist, .f farDist, .p 1 0] =
      (Cglm.glm_frustum_corners_at_dt corners splitDist farDist).map fun r => some (none, [⟨false, corners.list.map .f⟩, ⟨true, r.list.map .f⟩]) := by kernel_rfl

end Cglm

end FrustumRun

section RayRun

/-! Runs of the functions of include/cglm/ray.h on canonical memories. -/

set_option linter.unusedVariables false
set_option linter.unusedSectionVars false

namespace Cglm
open CMem

variable {α : Type} [Add α] [Sub α] [Mul α] [Div α] [Neg α] [CFloat α]

/-- `glm_ray_triangle` with its branches as a tree -/
def glm_ray_triangle_dt (origin : V3 α) (direction : V3 α) (v0 : V3 α) (v1 : V3 α) (v2 : V3 α) (d : α) : DT (Bool × α) :=
  let edge1 := glm_vec3_sub v1 v0
  let edge2 := glm_vec3_sub v2 v0
  let p := glm_vec3_cross direction edge2
  let det := glm_vec3_dot edge1 p
  .br (flt (-(lit 0.000001)) det && flt det (lit 0.000001)) (
    .done (false, d)) (
    let inv_det := (lit 1) / det
    let t := glm_vec3_sub origin v0
    let u := inv_det * glm_vec3_dot t p
    .br (flt u (lit 0) || flt (lit 1) u) (
      .done (false, d)) (
      let q := glm_vec3_cross t edge1
      let v := inv_det * glm_vec3_dot direction q
      .br (flt v (lit 0) || flt (lit 1) (u + v)) (
        .done (false, d)) (
        let dist := inv_det * glm_vec3_dot edge2 q
        .done (flt (lit 0.000001) dist, dist))))
theorem glm_ray_triangle_dt_val (origin : V3 α) (direction : V3 α) (v0 : V3 α) (v1 : V3 α) (v2 : V3 α) (d : α) : (glm_ray_triangle_dt origin direction v0 v1 v2 d).val = Cglm.glm_ray_triangle origin direction v0 v1 v2 d := by
  unfold glm_ray_triangle_dt
  simp only [DT.val]
  kernel_rfl
theorem glm_ray_triangle_run (origin : V3 α) (direction : V3 α) (v0 : V3 α) (v1 : V3 α) (v2 : V3 α) (d : α) :
    C.glm_ray_triangle.runT (α := α) [⟨false, origin.list.map .f⟩, ⟨false, direction.list.map .f⟩, ⟨false, v0.list.map .f⟩, ⟨false, v1.list.map .f⟩, ⟨false, v2.list.map .f⟩, ⟨true, [d].map .f⟩] [.p 0 0, .p 1 0, .p 2 0, .p 3 0, .p 4 0, .p 5 0] =
      (Cglm.glm_ray_triangle_dt origin direction v0 v1 v2 d).map fun r => some (some (.b r.1), [⟨false, origin.list.map .f⟩, ⟨false, direction.list.map .f⟩, ⟨false, v0.list.map .f⟩, ⟨false, v1.list.map .f⟩, ⟨false, v2.list.map .f⟩, ⟨true, [r.2].map .f⟩]) := by kernel_rfl
/-- `glm_ray_sphere` with its branches as a tree -/
def glm_ray_sphere_dt (origin : V3 α) (dir : V3 α) (s : V4 α) (t1 : α) (t2 : α) : DT (Bool × α × α) :=
  let dp := glm_vec3_sub ⟨s.x, s.y, s.z⟩ origin
  let ddp := glm_vec3_dot dir dp
  let dpp := glm_vec3_norm2 dp
  let dp_1 := glm_vec3_mulsubs dir ddp dp
  let r2 := s.w * s.w
  let dscr := r2 - glm_vec3_norm2 dp_1
  .br (flt dscr (lit 0)) (
    .done (false, t1, t2)) (
    let dscr_1 := sqrtf dscr
    let q := if fle (lit 0) ddp then ddp + dscr_1 else ddp - dscr_1
    let _t1 := q
    let _t2 := (dpp - r2) / q
    .br (flt _t2 _t1) (
      let tmp := _t1
      let _t1_1 := _t2
      let _t2_1 := tmp
      .br (flt _t1_1 (lit 0) && flt _t2_1 (lit 0)) (
        .done (false, _t1_1, _t2_1)) (
        .done (true, _t1_1, _t2_1))) (
      .br (flt _t1 (lit 0) && flt _t2 (lit 0)) (
        .done (false, _t1, _t2)) (
        .done (true, _t1, _t2))))
theorem glm_ray_sphere_dt_val (origin : V3 α) (dir : V3 α) (s : V4 α) (t1 : α) (t2 : α) : (glm_ray_sphere_dt origin dir s t1 t2).val = Cglm.glm_ray_sphere origin dir s t1 t2 := by
  unfold glm_ray_sphere_dt
  simp only [DT.val]
  kernel_rfl
theorem glm_ray_sphere_run (origin : V3 α) (dir : V3 α) (s : V4 α) (t1 : α) (t2 : α) :
    C.glm_ray_sphere.runT (α := α) [⟨false, origin.list.map .f⟩, ⟨false, dir.list.map .f⟩, ⟨false, s.list.map .f⟩, ⟨true, [t1].map .f⟩, ⟨true, [t2].map .f⟩] [.p 0 0, .p 1 0, .p 2 0, .p 3 0, .p 4 0] =
      (Cglm.glm_ray_sphere_dt origin dir s t1 t2).map fun r => some (some (.b r.1), [⟨false, origin.list.map .f⟩, ⟨false, dir.list.map .f⟩, ⟨false, s.list.map .f⟩, ⟨true, [r.2.1].map .f⟩, ⟨true, [r.2.2].map .f⟩]) := by kernel_rfl
theorem glm_ray_at_run (orig : V3 α) (dir : V3 α) (t : α) :
    C.glm_ray_at.runT (α := α) [⟨false, orig.list.map .f⟩, ⟨false, dir.list.map .f⟩, ⟨true, List.replicate 3 .undef⟩] [.p 0 0, .p 1 0, .f t, .p 2 0] =
      .done (some (none, [⟨false, orig.list.map .f⟩, ⟨false, dir.list.map .f⟩, ⟨true, (Cglm.glm_ray_at orig dir t).list.map .f⟩])) := by kernel_rfl
theorem glm_ray_at_run_dir (orig : V3 α) (dir : V3 α) (t : α) :
    C.glm_ray_at.runT (α := α) [⟨false, orig.list.map .f⟩, ⟨true, dir.list.map .f⟩] [.p 0 0, .p 1 0, .f t, .p 1 0] =
      .done (some (none, [⟨false, orig.list.map .f⟩, ⟨true, (Cglm.glm_ray_at orig dir t).list.map .f⟩])) := by kernel_rfl
theorem glm_ray_at_run_orig (orig : V3 α) (dir : V3 α) (t : α) :
    C.glm_ray_at.runT (α := α) [⟨false, dir.list.map .f⟩, ⟨true, orig.list.map .f⟩] [.p 1 0, .p 0 0, .f t, .p 1 0] =
      .done (some (none, [⟨false, dir.list.map .f⟩, ⟨true, (Cglm.glm_ray_at orig dir t).list.map .f⟩])) := by kernel_rfl
theorem glm_ray_at_run_orig_dir (orig : V3 α) (t : α) :
    C.glm_ray_at.runT (α := α) [⟨true, orig.list.map .f⟩] [.p 0 0, .p 0 0, .f t, .p 0 0] =
      .done (some (none, [⟨true, (Cglm.glm_ray_at orig orig t).list.map .f⟩])) := by kernel_rfl

end Cglm

end RayRun

section SphereRun

/-! Runs of the functions of include/cglm/sphere.h on canonical memories. -/

set_option linter.unusedVariables false
set_option linter.unusedSectionVars false

namespace Cglm
open CMem

variable {α : Type} [Add α] [Sub α] [Mul α] [Div α] [Neg α] [CFloat α]

theorem glm_sphere_radii_run (s : V4 α) :
    C.glm_sphere_radii.runT (α := α) [⟨false, s.list.map .f⟩] [.p 0 0] =
      .done (some (some (.f (Cglm.glm_sphere_radii s)), [⟨false, s.list.map .f⟩])) := by kernel_rfl
theorem glm_sphere_transform_run (s : V4 α) (m : M4 α) :
    C.glm_sphere_transform.runT (α := α) [⟨false, s.list.map .f⟩, ⟨false, m.list.map .f⟩, ⟨true, List.replicate 4 .undef⟩] [.p 0 0, .p 1 0, .p 2 0] =
      .done (some (none, [⟨false, s.list.map .f⟩, ⟨false, m.list.map .f⟩, ⟨true, (Cglm.glm_sphere_transform s m).list.map .f⟩])) := by kernel_rfl
theorem glm_sphere_transform_run_s (s : V4 α) (m : M4 α) :
    C.glm_sphere_transform.runT (α := α) [⟨false, m.list.map .f⟩, ⟨true, s.list.map .f⟩] [.p 1 0, .p 0 0, .p 1 0] =
      .done (some (none, [⟨false, m.list.map .f⟩, ⟨true, (Cglm.glm_sphere_transform s m).list.map .f⟩])) := by kernel_rfl
theorem glm_sphere_merge_run (s1 : V4 α) (s2 : V4 α) :
    C.glm_sphere_merge.runT (α := α) [⟨false, s1.list.map .f⟩, ⟨false, s2.list.map .f⟩, ⟨true, List.replicate 4 .undef⟩] [.p 0 0, .p 1 0, .p 2 0] =
      .done (some (none, [⟨false, s1.list.map .f⟩, ⟨false, s2.list.map .f⟩, ⟨true, (Cglm.glm_sphere_merge s1 s2).list.map .f⟩])) := by kernel_rfl
theorem glm_sphere_merge_run_s2 (s1 : V4 α) (s2 : V4 α) :
    C.glm_sphere_merge.runT (α := α) [⟨false, s1.list.map .f⟩, ⟨true, s2.list.map .f⟩] [.p 0 0, .p 1 0, .p 1 0] =
      .done (some (none, [⟨false, s1.list.map .f⟩, ⟨true, (Cglm.glm_sphere_merge s1 s2).list.map .f⟩])) := by kernel_rfl
theorem glm_sphere_merge_run_s1 (s1 : V4 α) (s2 : V4 α) :
    C.glm_sphere_merge.runT (α := α) [⟨false, s2.list.map .f⟩, ⟨true, s1.list.map .f⟩] [.p 1 0, .p 0 0, .p 1 0] =
      .done (some (none, [⟨false, s2.list.map .f⟩, ⟨true, (Cglm.glm_sphere_merge s1 s2).list.map .f⟩])) := by kernel_rfl
theorem glm_sphere_merge_run_s1_s2 (s1 : V4 α) :
    C.glm_sphere_merge.runT (α := α) [⟨true, s1.list.map .f⟩] [.p 0 0, .p 0 0, .p 0 0] =
      .done (some (none, [⟨true, (Cglm.glm_sphere_merge s1 s1).list.map .f⟩])) := by kernel_rfl
theorem glm_sphere_sphere_run (s1 : V4 α) (s2 : V4 α) :
    C.glm_sphere_sphere.runT (α := α) [⟨false, s1.list.map .f⟩, ⟨false, s2.list.map .f⟩] [.p 0 0, .p 1 0] =
      .done (some (some (.b (Cglm.glm_sphere_sphere s1 s2)), [⟨false, s1.list.map .f⟩, ⟨false, s2.list.map .f⟩])) := by kernel_rfl
theorem glm_sphere_point_run (s : V4 α) (point : V3 α) :
    C.glm_sphere_point.runT (α := α) [⟨false, s.list.map .f⟩, ⟨false, point.list.map .f⟩] [.p 0 0, .p 1 0] =
      .done (some (some (.b (Cglm.glm_sphere_point s point)), [⟨false, s.list.map .f⟩, ⟨false, point.list.map .f⟩])) := by kernel_rfl

end Cglm

end SphereRun
