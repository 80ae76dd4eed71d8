/- Generated by tools/exactthms.py; do not edit by hand. -/
import Verif.CMemDiff
import Verif.Mem.GeomsRun
import Verif.Mem.AffinesRun
import Verif.Mem.VecsRun

/-!
# C98: overlaps that give wrong results

For each function that does not allow all overlaps, positions `c.1` of an input in the object
that also holds an output, at which the result is wrong for the contents numbered `c.2`.
The other arrays lie apart.  `_exact`: every position that the theorem for the function excludes is wrong; `_wrong`: some are.
-/

set_option linter.unusedVariables false

namespace Cglm
open CMem

theorem C98_aabb2d_copy_exact [Libm] : ∀ c ∈ ([(1, 0), (2, 0), (3, 0)] : List (Nat × Nat)), let mem : Mem F32 := [⟨true, (List.range 12).map fun i => .f (w c.2 i)⟩]
    C.glm_aabb2d_copy.run mem [.p 0 c.1, .p 0 4] ≠
      some (none, writes mem [((0, 4), (Cglm.glm_aabb2d_copy (⟨⟨w c.2 (c.1 + 0), w c.2 (c.1 + 1)⟩, ⟨w c.2 (c.1 + 2), w c.2 (c.1 + 3)⟩⟩ : M2 F32)).list.map .f)]) :=
  all_differ (by kernel_rfl)

theorem C98_aabb2d_merge_aabb1_exact [Libm] : ∀ c ∈ ([(1, 2), (2, 2), (3, 0)] : List (Nat × Nat)), let mem : Mem F32 := [⟨true, (List.range 12).map fun i => .f (w c.2 i)⟩, ⟨false, (List.range 4).map fun i => .f (w c.2 (i + 12))⟩]
    C.glm_aabb2d_merge.run mem [.p 0 c.1, .p 1 0, .p 0 4] ≠
      some (none, writes mem [((0, 4), (Cglm.glm_aabb2d_merge (⟨⟨w c.2 (c.1 + 0), w c.2 (c.1 + 1)⟩, ⟨w c.2 (c.1 + 2), w c.2 (c.1 + 3)⟩⟩ : M2 F32) (⟨⟨w c.2 12, w c.2 13⟩, ⟨w c.2 14, w c.2 15⟩⟩ : M2 F32)).list.map .f)]) :=
  all_differ (by kernel_rfl)

theorem C98_aabb2d_merge_aabb2_exact [Libm] : ∀ c ∈ ([(1, 2), (2, 2), (3, 0)] : List (Nat × Nat)), let mem : Mem F32 := [⟨true, (List.range 12).map fun i => .f (w c.2 i)⟩, ⟨false, (List.range 4).map fun i => .f (w c.2 (i + 12))⟩]
    C.glm_aabb2d_merge.run mem [.p 1 0, .p 0 c.1, .p 0 4] ≠
      some (none, writes mem [((0, 4), (Cglm.glm_aabb2d_merge (⟨⟨w c.2 12, w c.2 13⟩, ⟨w c.2 14, w c.2 15⟩⟩ : M2 F32) (⟨⟨w c.2 (c.1 + 0), w c.2 (c.1 + 1)⟩, ⟨w c.2 (c.1 + 2), w c.2 (c.1 + 3)⟩⟩ : M2 F32)).list.map .f)]) :=
  all_differ (by kernel_rfl)

theorem C98_aabb2d_crop_aabb_exact [Libm] : ∀ c ∈ ([(1, 0), (2, 0), (3, 0)] : List (Nat × Nat)), let mem : Mem F32 := [⟨true, (List.range 12).map fun i => .f (w c.2 i)⟩, ⟨false, (List.range 4).map fun i => .f (w c.2 (i + 12))⟩]
    C.glm_aabb2d_crop.run mem [.p 0 c.1, .p 1 0, .p 0 4] ≠
      some (none, writes mem [((0, 4), (Cglm.glm_aabb2d_crop (⟨⟨w c.2 (c.1 + 0), w c.2 (c.1 + 1)⟩, ⟨w c.2 (c.1 + 2), w c.2 (c.1 + 3)⟩⟩ : M2 F32) (⟨⟨w c.2 12, w c.2 13⟩, ⟨w c.2 14, w c.2 15⟩⟩ : M2 F32)).list.map .f)]) :=
  all_differ (by kernel_rfl)

theorem C98_aabb2d_crop_cropAabb_exact [Libm] : ∀ c ∈ ([(1, 0), (2, 0), (3, 0)] : List (Nat × Nat)), let mem : Mem F32 := [⟨true, (List.range 12).map fun i => .f (w c.2 i)⟩, ⟨false, (List.range 4).map fun i => .f (w c.2 (i + 12))⟩]
    C.glm_aabb2d_crop.run mem [.p 1 0, .p 0 c.1, .p 0 4] ≠
      some (none, writes mem [((0, 4), (Cglm.glm_aabb2d_crop (⟨⟨w c.2 12, w c.2 13⟩, ⟨w c.2 14, w c.2 15⟩⟩ : M2 F32) (⟨⟨w c.2 (c.1 + 0), w c.2 (c.1 + 1)⟩, ⟨w c.2 (c.1 + 2), w c.2 (c.1 + 3)⟩⟩ : M2 F32)).list.map .f)]) :=
  all_differ (by kernel_rfl)

theorem C98_aabb2d_crop_until_aabb_exact [Libm] : ∀ c ∈ ([(1, 1), (2, 1), (3, 1)] : List (Nat × Nat)), let mem : Mem F32 := [⟨true, (List.range 12).map fun i => .f (w c.2 i)⟩, ⟨false, (List.range 4).map fun i => .f (w c.2 (i + 12))⟩, ⟨false, (List.range 4).map fun i => .f (w c.2 (i + 16))⟩]
    C.glm_aabb2d_crop_until.run mem [.p 0 c.1, .p 1 0, .p 2 0, .p 0 4] ≠
      some (none, writes mem [((0, 4), (Cglm.glm_aabb2d_crop_until (⟨⟨w c.2 (c.1 + 0), w c.2 (c.1 + 1)⟩, ⟨w c.2 (c.1 + 2), w c.2 (c.1 + 3)⟩⟩ : M2 F32) (⟨⟨w c.2 12, w c.2 13⟩, ⟨w c.2 14, w c.2 15⟩⟩ : M2 F32) (⟨⟨w c.2 16, w c.2 17⟩, ⟨w c.2 18, w c.2 19⟩⟩ : M2 F32)).list.map .f)]) :=
  all_differ (by kernel_rfl)

theorem C98_aabb2d_crop_until_cropAabb_exact [Libm] : ∀ c ∈ ([(1, 1), (2, 1), (3, 1)] : List (Nat × Nat)), let mem : Mem F32 := [⟨true, (List.range 12).map fun i => .f (w c.2 i)⟩, ⟨false, (List.range 4).map fun i => .f (w c.2 (i + 12))⟩, ⟨false, (List.range 4).map fun i => .f (w c.2 (i + 16))⟩]
    C.glm_aabb2d_crop_until.run mem [.p 1 0, .p 0 c.1, .p 2 0, .p 0 4] ≠
      some (none, writes mem [((0, 4), (Cglm.glm_aabb2d_crop_until (⟨⟨w c.2 12, w c.2 13⟩, ⟨w c.2 14, w c.2 15⟩⟩ : M2 F32) (⟨⟨w c.2 (c.1 + 0), w c.2 (c.1 + 1)⟩, ⟨w c.2 (c.1 + 2), w c.2 (c.1 + 3)⟩⟩ : M2 F32) (⟨⟨w c.2 16, w c.2 17⟩, ⟨w c.2 18, w c.2 19⟩⟩ : M2 F32)).list.map .f)]) :=
  all_differ (by kernel_rfl)

theorem C98_aabb2d_crop_until_clampAabb_exact [Libm] : ∀ c ∈ ([(1, 2), (2, 1), (3, 0), (4, 0), (5, 0), (6, 0), (7, 0)] : List (Nat × Nat)), let mem : Mem F32 := [⟨true, (List.range 12).map fun i => .f (w c.2 i)⟩, ⟨false, (List.range 4).map fun i => .f (w c.2 (i + 12))⟩, ⟨false, (List.range 4).map fun i => .f (w c.2 (i + 16))⟩]
    C.glm_aabb2d_crop_until.run mem [.p 1 0, .p 2 0, .p 0 c.1, .p 0 4] ≠
      some (none, writes mem [((0, 4), (Cglm.glm_aabb2d_crop_until (⟨⟨w c.2 12, w c.2 13⟩, ⟨w c.2 14, w c.2 15⟩⟩ : M2 F32) (⟨⟨w c.2 16, w c.2 17⟩, ⟨w c.2 18, w c.2 19⟩⟩ : M2 F32) (⟨⟨w c.2 (c.1 + 0), w c.2 (c.1 + 1)⟩, ⟨w c.2 (c.1 + 2), w c.2 (c.1 + 3)⟩⟩ : M2 F32)).list.map .f)]) :=
  all_differ (by kernel_rfl)

theorem C98_aabb2d_sizev_wrong [Libm] : ∀ c ∈ ([(1, 0), (3, 0)] : List (Nat × Nat)), let mem : Mem F32 := [⟨true, (List.range 10).map fun i => .f (w c.2 i)⟩]
    C.glm_aabb2d_sizev.run mem [.p 0 c.1, .p 0 4] ≠
      some (none, writes mem [((0, 4), (Cglm.glm_aabb2d_sizev (⟨⟨w c.2 (c.1 + 0), w c.2 (c.1 + 1)⟩, ⟨w c.2 (c.1 + 2), w c.2 (c.1 + 3)⟩⟩ : M2 F32)).list.map .f)]) :=
  all_differ (by kernel_rfl)

theorem C98_aabb2d_center_wrong [Libm] : ∀ c ∈ ([(1, 0), (3, 0)] : List (Nat × Nat)), let mem : Mem F32 := [⟨true, (List.range 10).map fun i => .f (w c.2 i)⟩]
    C.glm_aabb2d_center.run mem [.p 0 c.1, .p 0 4] ≠
      some (none, writes mem [((0, 4), (Cglm.glm_aabb2d_center (⟨⟨w c.2 (c.1 + 0), w c.2 (c.1 + 1)⟩, ⟨w c.2 (c.1 + 2), w c.2 (c.1 + 3)⟩⟩ : M2 F32)).list.map .f)]) :=
  all_differ (by kernel_rfl)

theorem C98_aabb_merge_box1_exact [Libm] : ∀ c ∈ ([(1, 1), (2, 1), (3, 1), (4, 0), (5, 0)] : List (Nat × Nat)), let mem : Mem F32 := [⟨true, (List.range 18).map fun i => .f (w c.2 i)⟩, ⟨false, (List.range 6).map fun i => .f (w c.2 (i + 18))⟩]
    C.glm_aabb_merge.run mem [.p 0 c.1, .p 1 0, .p 0 6] ≠
      some (none, writes mem [((0, 6), (Cglm.glm_aabb_merge (⟨⟨w c.2 (c.1 + 0), w c.2 (c.1 + 1), w c.2 (c.1 + 2)⟩, ⟨w c.2 (c.1 + 3), w c.2 (c.1 + 4), w c.2 (c.1 + 5)⟩⟩ : M2x3 F32) (⟨⟨w c.2 18, w c.2 19, w c.2 20⟩, ⟨w c.2 21, w c.2 22, w c.2 23⟩⟩ : M2x3 F32)).list.map .f)]) :=
  all_differ (by kernel_rfl)

theorem C98_aabb_merge_box2_exact [Libm] : ∀ c ∈ ([(1, 1), (2, 1), (3, 1), (4, 0), (5, 0)] : List (Nat × Nat)), let mem : Mem F32 := [⟨true, (List.range 18).map fun i => .f (w c.2 i)⟩, ⟨false, (List.range 6).map fun i => .f (w c.2 (i + 18))⟩]
    C.glm_aabb_merge.run mem [.p 1 0, .p 0 c.1, .p 0 6] ≠
      some (none, writes mem [((0, 6), (Cglm.glm_aabb_merge (⟨⟨w c.2 18, w c.2 19, w c.2 20⟩, ⟨w c.2 21, w c.2 22, w c.2 23⟩⟩ : M2x3 F32) (⟨⟨w c.2 (c.1 + 0), w c.2 (c.1 + 1), w c.2 (c.1 + 2)⟩, ⟨w c.2 (c.1 + 3), w c.2 (c.1 + 4), w c.2 (c.1 + 5)⟩⟩ : M2x3 F32)).list.map .f)]) :=
  all_differ (by kernel_rfl)

theorem C98_aabb_crop_box_exact [Libm] : ∀ c ∈ ([(1, 0), (2, 0), (3, 0), (4, 0), (5, 0)] : List (Nat × Nat)), let mem : Mem F32 := [⟨true, (List.range 18).map fun i => .f (w c.2 i)⟩, ⟨false, (List.range 6).map fun i => .f (w c.2 (i + 18))⟩]
    C.glm_aabb_crop.run mem [.p 0 c.1, .p 1 0, .p 0 6] ≠
      some (none, writes mem [((0, 6), (Cglm.glm_aabb_crop (⟨⟨w c.2 (c.1 + 0), w c.2 (c.1 + 1), w c.2 (c.1 + 2)⟩, ⟨w c.2 (c.1 + 3), w c.2 (c.1 + 4), w c.2 (c.1 + 5)⟩⟩ : M2x3 F32) (⟨⟨w c.2 18, w c.2 19, w c.2 20⟩, ⟨w c.2 21, w c.2 22, w c.2 23⟩⟩ : M2x3 F32)).list.map .f)]) :=
  all_differ (by kernel_rfl)

theorem C98_aabb_crop_cropBox_exact [Libm] : ∀ c ∈ ([(1, 0), (2, 0), (3, 0), (4, 0), (5, 0)] : List (Nat × Nat)), let mem : Mem F32 := [⟨true, (List.range 18).map fun i => .f (w c.2 i)⟩, ⟨false, (List.range 6).map fun i => .f (w c.2 (i + 18))⟩]
    C.glm_aabb_crop.run mem [.p 1 0, .p 0 c.1, .p 0 6] ≠
      some (none, writes mem [((0, 6), (Cglm.glm_aabb_crop (⟨⟨w c.2 18, w c.2 19, w c.2 20⟩, ⟨w c.2 21, w c.2 22, w c.2 23⟩⟩ : M2x3 F32) (⟨⟨w c.2 (c.1 + 0), w c.2 (c.1 + 1), w c.2 (c.1 + 2)⟩, ⟨w c.2 (c.1 + 3), w c.2 (c.1 + 4), w c.2 (c.1 + 5)⟩⟩ : M2x3 F32)).list.map .f)]) :=
  all_differ (by kernel_rfl)

theorem C98_aabb_crop_until_box_exact [Libm] : ∀ c ∈ ([(1, 2), (2, 2), (3, 1), (4, 1), (5, 1)] : List (Nat × Nat)), let mem : Mem F32 := [⟨true, (List.range 18).map fun i => .f (w c.2 i)⟩, ⟨false, (List.range 6).map fun i => .f (w c.2 (i + 18))⟩, ⟨false, (List.range 6).map fun i => .f (w c.2 (i + 24))⟩]
    C.glm_aabb_crop_until.run mem [.p 0 c.1, .p 1 0, .p 2 0, .p 0 6] ≠
      some (none, writes mem [((0, 6), (Cglm.glm_aabb_crop_until (⟨⟨w c.2 (c.1 + 0), w c.2 (c.1 + 1), w c.2 (c.1 + 2)⟩, ⟨w c.2 (c.1 + 3), w c.2 (c.1 + 4), w c.2 (c.1 + 5)⟩⟩ : M2x3 F32) (⟨⟨w c.2 18, w c.2 19, w c.2 20⟩, ⟨w c.2 21, w c.2 22, w c.2 23⟩⟩ : M2x3 F32) (⟨⟨w c.2 24, w c.2 25, w c.2 26⟩, ⟨w c.2 27, w c.2 28, w c.2 29⟩⟩ : M2x3 F32)).list.map .f)]) :=
  all_differ (by kernel_rfl)

theorem C98_aabb_crop_until_cropBox_exact [Libm] : ∀ c ∈ ([(1, 2), (2, 2), (3, 1), (4, 1), (5, 1)] : List (Nat × Nat)), let mem : Mem F32 := [⟨true, (List.range 18).map fun i => .f (w c.2 i)⟩, ⟨false, (List.range 6).map fun i => .f (w c.2 (i + 18))⟩, ⟨false, (List.range 6).map fun i => .f (w c.2 (i + 24))⟩]
    C.glm_aabb_crop_until.run mem [.p 1 0, .p 0 c.1, .p 2 0, .p 0 6] ≠
      some (none, writes mem [((0, 6), (Cglm.glm_aabb_crop_until (⟨⟨w c.2 18, w c.2 19, w c.2 20⟩, ⟨w c.2 21, w c.2 22, w c.2 23⟩⟩ : M2x3 F32) (⟨⟨w c.2 (c.1 + 0), w c.2 (c.1 + 1), w c.2 (c.1 + 2)⟩, ⟨w c.2 (c.1 + 3), w c.2 (c.1 + 4), w c.2 (c.1 + 5)⟩⟩ : M2x3 F32) (⟨⟨w c.2 24, w c.2 25, w c.2 26⟩, ⟨w c.2 27, w c.2 28, w c.2 29⟩⟩ : M2x3 F32)).list.map .f)]) :=
  all_differ (by kernel_rfl)

theorem C98_aabb_center_wrong [Libm] : ∀ c ∈ ([(1, 0), (2, 0), (4, 0), (5, 0)] : List (Nat × Nat)), let mem : Mem F32 := [⟨true, (List.range 15).map fun i => .f (w c.2 i)⟩]
    C.glm_aabb_center.run mem [.p 0 c.1, .p 0 6] ≠
      some (none, writes mem [((0, 6), (Cglm.glm_aabb_center (⟨⟨w c.2 (c.1 + 0), w c.2 (c.1 + 1), w c.2 (c.1 + 2)⟩, ⟨w c.2 (c.1 + 3), w c.2 (c.1 + 4), w c.2 (c.1 + 5)⟩⟩ : M2x3 F32)).list.map .f)]) :=
  all_differ (by kernel_rfl)

theorem C98_sphere_transform_s_exact [Libm] : ∀ c ∈ ([(1, 0), (2, 0), (3, 0)] : List (Nat × Nat)), let mem : Mem F32 := [⟨true, (List.range 12).map fun i => .f (w c.2 i)⟩, ⟨false, (List.range 16).map fun i => .f (w c.2 (i + 12))⟩]
    C.glm_sphere_transform.run mem [.p 0 c.1, .p 1 0, .p 0 4] ≠
      some (none, writes mem [((0, 4), (Cglm.glm_sphere_transform (⟨w c.2 (c.1 + 0), w c.2 (c.1 + 1), w c.2 (c.1 + 2), w c.2 (c.1 + 3)⟩ : V4 F32) (⟨⟨w c.2 12, w c.2 13, w c.2 14, w c.2 15⟩, ⟨w c.2 16, w c.2 17, w c.2 18, w c.2 19⟩, ⟨w c.2 20, w c.2 21, w c.2 22, w c.2 23⟩, ⟨w c.2 24, w c.2 25, w c.2 26, w c.2 27⟩⟩ : M4 F32)).list.map .f)]) :=
  all_differ (by kernel_rfl)

theorem C98_sphere_merge_s1_wrong [Libm] : ∀ c ∈ ([(2, 0), (3, 0)] : List (Nat × Nat)), let mem : Mem F32 := [⟨true, (List.range 12).map fun i => .f (w c.2 i)⟩, ⟨false, (List.range 4).map fun i => .f (w c.2 (i + 12))⟩]
    C.glm_sphere_merge.run mem [.p 0 c.1, .p 1 0, .p 0 4] ≠
      some (none, writes mem [((0, 4), (Cglm.glm_sphere_merge (⟨w c.2 (c.1 + 0), w c.2 (c.1 + 1), w c.2 (c.1 + 2), w c.2 (c.1 + 3)⟩ : V4 F32) (⟨w c.2 12, w c.2 13, w c.2 14, w c.2 15⟩ : V4 F32)).list.map .f)]) :=
  all_differ (by kernel_rfl)

theorem C98_sphere_merge_s2_wrong [Libm] : ∀ c ∈ ([(2, 0), (3, 0)] : List (Nat × Nat)), let mem : Mem F32 := [⟨true, (List.range 12).map fun i => .f (w c.2 i)⟩, ⟨false, (List.range 4).map fun i => .f (w c.2 (i + 12))⟩]
    C.glm_sphere_merge.run mem [.p 1 0, .p 0 c.1, .p 0 4] ≠
      some (none, writes mem [((0, 4), (Cglm.glm_sphere_merge (⟨w c.2 12, w c.2 13, w c.2 14, w c.2 15⟩ : V4 F32) (⟨w c.2 (c.1 + 0), w c.2 (c.1 + 1), w c.2 (c.1 + 2), w c.2 (c.1 + 3)⟩ : V4 F32)).list.map .f)]) :=
  all_differ (by kernel_rfl)

theorem C98_ray_at_orig_exact [Libm] : ∀ c ∈ ([(1, 0), (2, 0)] : List (Nat × Nat)), let mem : Mem F32 := [⟨true, (List.range 9).map fun i => .f (w c.2 i)⟩, ⟨false, (List.range 3).map fun i => .f (w c.2 (i + 9))⟩]
    C.glm_ray_at.run mem [.p 0 c.1, .p 1 0, .f (w c.2 12), .p 0 3] ≠
      some (none, writes mem [((0, 3), (Cglm.glm_ray_at (⟨w c.2 (c.1 + 0), w c.2 (c.1 + 1), w c.2 (c.1 + 2)⟩ : V3 F32) (⟨w c.2 9, w c.2 10, w c.2 11⟩ : V3 F32) (w c.2 12)).list.map .f)]) :=
  all_differ (by kernel_rfl)

end Cglm
