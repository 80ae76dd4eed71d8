/- Generated by tools/exactthms.py; do not edit by hand. -/
import Verif.CMemDiff
import Verif.Mem.AffinesRun

/-!
# C98: overlaps that give wrong results

For each function that does not allow all overlaps, positions `c.1` of an input in the object
that also holds an output, at which the result is wrong for the contents numbered `c.2`.
The other arrays lie apart.  `_exact`: every position that the theorem for the function excludes is wrong; `_wrong`: some are.
-/

set_option linter.unusedVariables false

namespace Cglm
open CMem

theorem C98_translate_exact [Libm] : ∀ c ∈ ([(13, 0), (14, 0), (15, 0), (16, 0), (17, 0)] : List (Nat × Nat)), let mem : Mem F32 := [⟨true, (List.range 22).map fun i => .f (w c.2 i)⟩]
    C.glm_translate.run mem [.p 0 3, .p 0 c.1] ≠
      some (none, writes mem [((0, 3), (Cglm.glm_translate (⟨⟨w c.2 3, w c.2 4, w c.2 5, w c.2 6⟩, ⟨w c.2 7, w c.2 8, w c.2 9, w c.2 10⟩, ⟨w c.2 11, w c.2 12, w c.2 13, w c.2 14⟩, ⟨w c.2 15, w c.2 16, w c.2 17, w c.2 18⟩⟩ : M4 F32) (⟨w c.2 (c.1 + 0), w c.2 (c.1 + 1), w c.2 (c.1 + 2)⟩ : V3 F32)).list.map .f)]) :=
  all_differ (by kernel_rfl)

theorem C98_translated_exact [Libm] : ∀ c ∈ ([(13, 0), (14, 0)] : List (Nat × Nat)), let mem : Mem F32 := [⟨true, (List.range 22).map fun i => .f (w c.2 i)⟩]
    C.glm_translated.run mem [.p 0 3, .p 0 c.1] ≠
      some (none, writes mem [((0, 3), (Cglm.glm_translated (⟨⟨w c.2 3, w c.2 4, w c.2 5, w c.2 6⟩, ⟨w c.2 7, w c.2 8, w c.2 9, w c.2 10⟩, ⟨w c.2 11, w c.2 12, w c.2 13, w c.2 14⟩, ⟨w c.2 15, w c.2 16, w c.2 17, w c.2 18⟩⟩ : M4 F32) (⟨w c.2 (c.1 + 0), w c.2 (c.1 + 1), w c.2 (c.1 + 2)⟩ : V3 F32)).list.map .f)]) :=
  all_differ (by kernel_rfl)

theorem C98_translate2d_exact [Libm] : ∀ c ∈ ([(7, 0), (8, 0), (9, 0)] : List (Nat × Nat)), let mem : Mem F32 := [⟨true, (List.range 13).map fun i => .f (w c.2 i)⟩]
    C.glm_translate2d.run mem [.p 0 2, .p 0 c.1] ≠
      some (none, writes mem [((0, 2), (Cglm.glm_translate2d (⟨⟨w c.2 2, w c.2 3, w c.2 4⟩, ⟨w c.2 5, w c.2 6, w c.2 7⟩, ⟨w c.2 8, w c.2 9, w c.2 10⟩⟩ : M3 F32) (⟨w c.2 (c.1 + 0), w c.2 (c.1 + 1)⟩ : V2 F32)).list.map .f)]) :=
  all_differ (by kernel_rfl)

theorem C98_translate2d_to_m_exact [Libm] : ∀ c ∈ ([(1, 0), (2, 0), (3, 0), (4, 0), (5, 0), (6, 0), (7, 0), (8, 0)] : List (Nat × Nat)), let mem : Mem F32 := [⟨true, (List.range 27).map fun i => .f (w c.2 i)⟩, ⟨false, (List.range 2).map fun i => .f (w c.2 (i + 27))⟩]
    C.glm_translate2d_to.run mem [.p 0 c.1, .p 1 0, .p 0 9] ≠
      some (none, writes mem [((0, 9), (Cglm.glm_translate2d_to (⟨⟨w c.2 (c.1 + 0), w c.2 (c.1 + 1), w c.2 (c.1 + 2)⟩, ⟨w c.2 (c.1 + 3), w c.2 (c.1 + 4), w c.2 (c.1 + 5)⟩, ⟨w c.2 (c.1 + 6), w c.2 (c.1 + 7), w c.2 (c.1 + 8)⟩⟩ : M3 F32) (⟨w c.2 27, w c.2 28⟩ : V2 F32)).list.map .f)]) :=
  all_differ (by kernel_rfl)

theorem C98_translate2d_make_exact [Libm] : ∀ c ∈ ([(1, 0), (2, 0), (3, 0), (4, 0), (5, 0), (6, 0), (7, 0), (8, 0), (9, 0), (10, 0)] : List (Nat × Nat)), let mem : Mem F32 := [⟨true, (List.range 13).map fun i => .f (w c.2 i)⟩]
    C.glm_translate2d_make.run mem [.p 0 2, .p 0 c.1] ≠
      some (none, writes mem [((0, 2), (Cglm.glm_translate2d_make (⟨w c.2 (c.1 + 0), w c.2 (c.1 + 1)⟩ : V2 F32)).list.map .f)]) :=
  all_differ (by kernel_rfl)

theorem C98_scale2d_to_m_exact [Libm] : ∀ c ∈ ([(1, 0), (2, 0), (3, 0), (4, 0), (5, 0), (6, 0), (7, 0), (8, 0)] : List (Nat × Nat)), let mem : Mem F32 := [⟨true, (List.range 27).map fun i => .f (w c.2 i)⟩, ⟨false, (List.range 2).map fun i => .f (w c.2 (i + 27))⟩]
    C.glm_scale2d_to.run mem [.p 0 c.1, .p 1 0, .p 0 9] ≠
      some (none, writes mem [((0, 9), (Cglm.glm_scale2d_to (⟨⟨w c.2 (c.1 + 0), w c.2 (c.1 + 1), w c.2 (c.1 + 2)⟩, ⟨w c.2 (c.1 + 3), w c.2 (c.1 + 4), w c.2 (c.1 + 5)⟩, ⟨w c.2 (c.1 + 6), w c.2 (c.1 + 7), w c.2 (c.1 + 8)⟩⟩ : M3 F32) (⟨w c.2 27, w c.2 28⟩ : V2 F32)).list.map .f)]) :=
  all_differ (by kernel_rfl)

theorem C98_scale2d_to_v_exact [Libm] : ∀ c ∈ ([(1, 0), (2, 0), (3, 0), (4, 0), (5, 0)] : List (Nat × Nat)), let mem : Mem F32 := [⟨true, (List.range 13).map fun i => .f (w c.2 i)⟩, ⟨false, (List.range 9).map fun i => .f (w c.2 (i + 13))⟩]
    C.glm_scale2d_to.run mem [.p 1 0, .p 0 c.1, .p 0 2] ≠
      some (none, writes mem [((0, 2), (Cglm.glm_scale2d_to (⟨⟨w c.2 13, w c.2 14, w c.2 15⟩, ⟨w c.2 16, w c.2 17, w c.2 18⟩, ⟨w c.2 19, w c.2 20, w c.2 21⟩⟩ : M3 F32) (⟨w c.2 (c.1 + 0), w c.2 (c.1 + 1)⟩ : V2 F32)).list.map .f)]) :=
  all_differ (by kernel_rfl)

theorem C98_scale2d_make_exact [Libm] : ∀ c ∈ ([(1, 0), (2, 0), (3, 0), (4, 0), (5, 0), (6, 0), (7, 0), (8, 0), (9, 0), (10, 0)] : List (Nat × Nat)), let mem : Mem F32 := [⟨true, (List.range 13).map fun i => .f (w c.2 i)⟩]
    C.glm_scale2d_make.run mem [.p 0 2, .p 0 c.1] ≠
      some (none, writes mem [((0, 2), (Cglm.glm_scale2d_make (⟨w c.2 (c.1 + 0), w c.2 (c.1 + 1)⟩ : V2 F32)).list.map .f)]) :=
  all_differ (by kernel_rfl)

theorem C98_scale2d_exact [Libm] : ∀ c ∈ ([(1, 0), (2, 0), (3, 0), (4, 0), (5, 0)] : List (Nat × Nat)), let mem : Mem F32 := [⟨true, (List.range 13).map fun i => .f (w c.2 i)⟩]
    C.glm_scale2d.run mem [.p 0 2, .p 0 c.1] ≠
      some (none, writes mem [((0, 2), (Cglm.glm_scale2d (⟨⟨w c.2 2, w c.2 3, w c.2 4⟩, ⟨w c.2 5, w c.2 6, w c.2 7⟩, ⟨w c.2 8, w c.2 9, w c.2 10⟩⟩ : M3 F32) (⟨w c.2 (c.1 + 0), w c.2 (c.1 + 1)⟩ : V2 F32)).list.map .f)]) :=
  all_differ (by kernel_rfl)

theorem C98_translated2d_exact [Libm] : ∀ c ∈ ([(7, 0)] : List (Nat × Nat)), let mem : Mem F32 := [⟨true, (List.range 13).map fun i => .f (w c.2 i)⟩]
    C.glm_translated2d.run mem [.p 0 2, .p 0 c.1] ≠
      some (none, writes mem [((0, 2), (Cglm.glm_translated2d (⟨⟨w c.2 2, w c.2 3, w c.2 4⟩, ⟨w c.2 5, w c.2 6, w c.2 7⟩, ⟨w c.2 8, w c.2 9, w c.2 10⟩⟩ : M3 F32) (⟨w c.2 (c.1 + 0), w c.2 (c.1 + 1)⟩ : V2 F32)).list.map .f)]) :=
  all_differ (by kernel_rfl)

theorem C98_scaled2d_exact [Libm] : ∀ c ∈ ([(1, 0), (2, 0), (4, 0), (5, 0), (7, 0)] : List (Nat × Nat)), let mem : Mem F32 := [⟨true, (List.range 13).map fun i => .f (w c.2 i)⟩]
    C.glm_scaled2d.run mem [.p 0 2, .p 0 c.1] ≠
      some (none, writes mem [((0, 2), (Cglm.glm_scaled2d (⟨⟨w c.2 2, w c.2 3, w c.2 4⟩, ⟨w c.2 5, w c.2 6, w c.2 7⟩, ⟨w c.2 8, w c.2 9, w c.2 10⟩⟩ : M3 F32) (⟨w c.2 (c.1 + 0), w c.2 (c.1 + 1)⟩ : V2 F32)).list.map .f)]) :=
  all_differ (by kernel_rfl)

end Cglm
