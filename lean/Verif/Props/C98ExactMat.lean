/- Generated by tools/exactthms.py; do not edit by hand. -/
import Verif.CMemDiff
import Verif.Mem.MatsRun

/-!
# C98: overlaps that give wrong results

For each function that does not allow all overlaps, positions `c.1` of an input in the object
that also holds an output, at which the result is wrong for the contents numbered `c.2`.
The other arrays lie apart.  `_exact`: every position that the theorem for the function excludes is wrong; `_wrong`: some are.
-/

set_option linter.unusedVariables false

namespace Cglm
open CMem

theorem C98_mat4_pick3_wrong [Libm] : ∀ c ∈ ([(6, 0), (7, 0), (8, 0), (9, 0), (10, 0), (11, 0), (12, 0), (13, 0), (14, 0), (15, 0)] : List (Nat × Nat)), let mem : Mem F32 := [⟨true, (List.range 41).map fun i => .f (w c.2 i)⟩]
    C.glm_mat4_pick3.run mem [.p 0 c.1, .p 0 16] ≠
      some (none, writes mem [((0, 16), (Cglm.glm_mat4_pick3 (⟨⟨w c.2 (c.1 + 0), w c.2 (c.1 + 1), w c.2 (c.1 + 2), w c.2 (c.1 + 3)⟩, ⟨w c.2 (c.1 + 4), w c.2 (c.1 + 5), w c.2 (c.1 + 6), w c.2 (c.1 + 7)⟩, ⟨w c.2 (c.1 + 8), w c.2 (c.1 + 9), w c.2 (c.1 + 10), w c.2 (c.1 + 11)⟩, ⟨w c.2 (c.1 + 12), w c.2 (c.1 + 13), w c.2 (c.1 + 14), w c.2 (c.1 + 15)⟩⟩ : M4 F32)).list.map .f)]) :=
  all_differ (by kernel_rfl)

theorem C98_mat4_pick3t_exact [Libm] : ∀ c ∈ ([(6, 0), (7, 0), (8, 0), (9, 0), (10, 0), (11, 0), (12, 0), (13, 0), (14, 0), (15, 0), (16, 0), (17, 0), (18, 0), (19, 0)] : List (Nat × Nat)), let mem : Mem F32 := [⟨true, (List.range 41).map fun i => .f (w c.2 i)⟩]
    C.glm_mat4_pick3t.run mem [.p 0 c.1, .p 0 16] ≠
      some (none, writes mem [((0, 16), (Cglm.glm_mat4_pick3t (⟨⟨w c.2 (c.1 + 0), w c.2 (c.1 + 1), w c.2 (c.1 + 2), w c.2 (c.1 + 3)⟩, ⟨w c.2 (c.1 + 4), w c.2 (c.1 + 5), w c.2 (c.1 + 6), w c.2 (c.1 + 7)⟩, ⟨w c.2 (c.1 + 8), w c.2 (c.1 + 9), w c.2 (c.1 + 10), w c.2 (c.1 + 11)⟩, ⟨w c.2 (c.1 + 12), w c.2 (c.1 + 13), w c.2 (c.1 + 14), w c.2 (c.1 + 15)⟩⟩ : M4 F32)).list.map .f)]) :=
  all_differ (by kernel_rfl)

theorem C98_mat4_ins3_exact [Libm] : ∀ c ∈ ([(1, 0), (2, 0), (3, 0), (4, 0), (5, 0), (6, 0), (7, 0), (8, 0), (9, 0), (10, 0)] : List (Nat × Nat)), let mem : Mem F32 := [⟨true, (List.range 34).map fun i => .f (w c.2 i)⟩]
    C.glm_mat4_ins3.run mem [.p 0 c.1, .p 0 9] ≠
      some (none, writes mem [((0, 9), (Cglm.glm_mat4_ins3 (⟨⟨w c.2 (c.1 + 0), w c.2 (c.1 + 1), w c.2 (c.1 + 2)⟩, ⟨w c.2 (c.1 + 3), w c.2 (c.1 + 4), w c.2 (c.1 + 5)⟩, ⟨w c.2 (c.1 + 6), w c.2 (c.1 + 7), w c.2 (c.1 + 8)⟩⟩ : M3 F32) (⟨⟨w c.2 9, w c.2 10, w c.2 11, w c.2 12⟩, ⟨w c.2 13, w c.2 14, w c.2 15, w c.2 16⟩, ⟨w c.2 17, w c.2 18, w c.2 19, w c.2 20⟩, ⟨w c.2 21, w c.2 22, w c.2 23, w c.2 24⟩⟩ : M4 F32)).list.map .f)]) :=
  all_differ (by kernel_rfl)

theorem C98_mat4x2_copy_exact [Libm] : ∀ c ∈ ([(1, 0), (2, 0), (3, 0), (4, 0), (5, 0), (6, 0), (7, 0)] : List (Nat × Nat)), let mem : Mem F32 := [⟨true, (List.range 24).map fun i => .f (w c.2 i)⟩]
    C.glm_mat4x2_copy.run mem [.p 0 c.1, .p 0 8] ≠
      some (none, writes mem [((0, 8), (Cglm.glm_mat4x2_copy (⟨⟨w c.2 (c.1 + 0), w c.2 (c.1 + 1)⟩, ⟨w c.2 (c.1 + 2), w c.2 (c.1 + 3)⟩, ⟨w c.2 (c.1 + 4), w c.2 (c.1 + 5)⟩, ⟨w c.2 (c.1 + 6), w c.2 (c.1 + 7)⟩⟩ : M4x2 F32)).list.map .f)]) :=
  all_differ (by kernel_rfl)

theorem C98_mat4x2_make_exact [Libm] : ∀ c ∈ ([(1, 0), (2, 0), (3, 0), (4, 0), (5, 0), (6, 0), (7, 0)] : List (Nat × Nat)), let mem : Mem F32 := [⟨true, (List.range 24).map fun i => .f (w c.2 i)⟩]
    C.glm_mat4x2_make.run mem [.p 0 c.1, .p 0 8] ≠
      some (none, writes mem [((0, 8), (Cglm.glm_mat4x2_make (⟨w c.2 (c.1 + 0), w c.2 (c.1 + 1), w c.2 (c.1 + 2), w c.2 (c.1 + 3), w c.2 (c.1 + 4), w c.2 (c.1 + 5), w c.2 (c.1 + 6), w c.2 (c.1 + 7)⟩ : V8 F32)).list.map .f)]) :=
  all_differ (by kernel_rfl)

theorem C98_mat4x2_mulv_m_wrong [Libm] : ∀ c ∈ ([(1, 0), (3, 0), (5, 0), (7, 0)] : List (Nat × Nat)), let mem : Mem F32 := [⟨true, (List.range 18).map fun i => .f (w c.2 i)⟩, ⟨false, (List.range 4).map fun i => .f (w c.2 (i + 18))⟩]
    C.glm_mat4x2_mulv.run mem [.p 0 c.1, .p 1 0, .p 0 8] ≠
      some (none, writes mem [((0, 8), (Cglm.glm_mat4x2_mulv (⟨⟨w c.2 (c.1 + 0), w c.2 (c.1 + 1)⟩, ⟨w c.2 (c.1 + 2), w c.2 (c.1 + 3)⟩, ⟨w c.2 (c.1 + 4), w c.2 (c.1 + 5)⟩, ⟨w c.2 (c.1 + 6), w c.2 (c.1 + 7)⟩⟩ : M4x2 F32) (⟨w c.2 18, w c.2 19, w c.2 20, w c.2 21⟩ : V4 F32)).list.map .f)]) :=
  all_differ (by kernel_rfl)

theorem C98_mat4x2_transpose_exact [Libm] : ∀ c ∈ ([(1, 0), (2, 0), (3, 0), (4, 0), (5, 0), (6, 0), (7, 0), (8, 0), (9, 0), (10, 0)] : List (Nat × Nat)), let mem : Mem F32 := [⟨true, (List.range 24).map fun i => .f (w c.2 i)⟩]
    C.glm_mat4x2_transpose.run mem [.p 0 c.1, .p 0 8] ≠
      some (none, writes mem [((0, 8), (Cglm.glm_mat4x2_transpose (⟨⟨w c.2 (c.1 + 0), w c.2 (c.1 + 1)⟩, ⟨w c.2 (c.1 + 2), w c.2 (c.1 + 3)⟩, ⟨w c.2 (c.1 + 4), w c.2 (c.1 + 5)⟩, ⟨w c.2 (c.1 + 6), w c.2 (c.1 + 7)⟩⟩ : M4x2 F32)).list.map .f)]) :=
  all_differ (by kernel_rfl)

theorem C98_mat4x3_copy_exact [Libm] : ∀ c ∈ ([(1, 0), (2, 0), (3, 0), (4, 0), (5, 0), (6, 0), (7, 0), (8, 0), (9, 0), (10, 0), (11, 0)] : List (Nat × Nat)), let mem : Mem F32 := [⟨true, (List.range 36).map fun i => .f (w c.2 i)⟩]
    C.glm_mat4x3_copy.run mem [.p 0 c.1, .p 0 12] ≠
      some (none, writes mem [((0, 12), (Cglm.glm_mat4x3_copy (⟨⟨w c.2 (c.1 + 0), w c.2 (c.1 + 1), w c.2 (c.1 + 2)⟩, ⟨w c.2 (c.1 + 3), w c.2 (c.1 + 4), w c.2 (c.1 + 5)⟩, ⟨w c.2 (c.1 + 6), w c.2 (c.1 + 7), w c.2 (c.1 + 8)⟩, ⟨w c.2 (c.1 + 9), w c.2 (c.1 + 10), w c.2 (c.1 + 11)⟩⟩ : M4x3 F32)).list.map .f)]) :=
  all_differ (by kernel_rfl)

theorem C98_mat4x3_make_exact [Libm] : ∀ c ∈ ([(1, 0), (2, 0), (3, 0), (4, 0), (5, 0), (6, 0), (7, 0), (8, 0), (9, 0), (10, 0), (11, 0)] : List (Nat × Nat)), let mem : Mem F32 := [⟨true, (List.range 36).map fun i => .f (w c.2 i)⟩]
    C.glm_mat4x3_make.run mem [.p 0 c.1, .p 0 12] ≠
      some (none, writes mem [((0, 12), (Cglm.glm_mat4x3_make (⟨w c.2 (c.1 + 0), w c.2 (c.1 + 1), w c.2 (c.1 + 2), w c.2 (c.1 + 3), w c.2 (c.1 + 4), w c.2 (c.1 + 5), w c.2 (c.1 + 6), w c.2 (c.1 + 7), w c.2 (c.1 + 8), w c.2 (c.1 + 9), w c.2 (c.1 + 10), w c.2 (c.1 + 11)⟩ : V12 F32)).list.map .f)]) :=
  all_differ (by kernel_rfl)

theorem C98_mat3_copy_exact [Libm] : ∀ c ∈ ([(1, 0), (2, 0), (3, 0), (4, 0), (5, 0), (6, 0), (7, 0), (8, 0)] : List (Nat × Nat)), let mem : Mem F32 := [⟨true, (List.range 27).map fun i => .f (w c.2 i)⟩]
    C.glm_mat3_copy.run mem [.p 0 c.1, .p 0 9] ≠
      some (none, writes mem [((0, 9), (Cglm.glm_mat3_copy (⟨⟨w c.2 (c.1 + 0), w c.2 (c.1 + 1), w c.2 (c.1 + 2)⟩, ⟨w c.2 (c.1 + 3), w c.2 (c.1 + 4), w c.2 (c.1 + 5)⟩, ⟨w c.2 (c.1 + 6), w c.2 (c.1 + 7), w c.2 (c.1 + 8)⟩⟩ : M3 F32)).list.map .f)]) :=
  all_differ (by kernel_rfl)

theorem C98_mat3_transpose_to_exact [Libm] : ∀ c ∈ ([(1, 0), (2, 0), (3, 0), (4, 0), (5, 0), (6, 0), (7, 0), (8, 0), (9, 0), (10, 0), (11, 0), (12, 0)] : List (Nat × Nat)), let mem : Mem F32 := [⟨true, (List.range 27).map fun i => .f (w c.2 i)⟩]
    C.glm_mat3_transpose_to.run mem [.p 0 c.1, .p 0 9] ≠
      some (none, writes mem [((0, 9), (Cglm.glm_mat3_transpose_to (⟨⟨w c.2 (c.1 + 0), w c.2 (c.1 + 1), w c.2 (c.1 + 2)⟩, ⟨w c.2 (c.1 + 3), w c.2 (c.1 + 4), w c.2 (c.1 + 5)⟩, ⟨w c.2 (c.1 + 6), w c.2 (c.1 + 7), w c.2 (c.1 + 8)⟩⟩ : M3 F32)).list.map .f)]) :=
  all_differ (by kernel_rfl)

theorem C98_mat3_make_exact [Libm] : ∀ c ∈ ([(1, 0), (2, 0), (3, 0), (4, 0), (5, 0), (6, 0), (7, 0), (8, 0)] : List (Nat × Nat)), let mem : Mem F32 := [⟨true, (List.range 27).map fun i => .f (w c.2 i)⟩]
    C.glm_mat3_make.run mem [.p 0 c.1, .p 0 9] ≠
      some (none, writes mem [((0, 9), (Cglm.glm_mat3_make (⟨w c.2 (c.1 + 0), w c.2 (c.1 + 1), w c.2 (c.1 + 2), w c.2 (c.1 + 3), w c.2 (c.1 + 4), w c.2 (c.1 + 5), w c.2 (c.1 + 6), w c.2 (c.1 + 7), w c.2 (c.1 + 8)⟩ : V9 F32)).list.map .f)]) :=
  all_differ (by kernel_rfl)

theorem C98_mat3x2_copy_exact [Libm] : ∀ c ∈ ([(1, 0), (2, 0), (3, 0), (4, 0), (5, 0)] : List (Nat × Nat)), let mem : Mem F32 := [⟨true, (List.range 18).map fun i => .f (w c.2 i)⟩]
    C.glm_mat3x2_copy.run mem [.p 0 c.1, .p 0 6] ≠
      some (none, writes mem [((0, 6), (Cglm.glm_mat3x2_copy (⟨⟨w c.2 (c.1 + 0), w c.2 (c.1 + 1)⟩, ⟨w c.2 (c.1 + 2), w c.2 (c.1 + 3)⟩, ⟨w c.2 (c.1 + 4), w c.2 (c.1 + 5)⟩⟩ : M3x2 F32)).list.map .f)]) :=
  all_differ (by kernel_rfl)

theorem C98_mat3x2_make_exact [Libm] : ∀ c ∈ ([(1, 0), (2, 0), (3, 0), (4, 0), (5, 0)] : List (Nat × Nat)), let mem : Mem F32 := [⟨true, (List.range 18).map fun i => .f (w c.2 i)⟩]
    C.glm_mat3x2_make.run mem [.p 0 c.1, .p 0 6] ≠
      some (none, writes mem [((0, 6), (Cglm.glm_mat3x2_make (⟨w c.2 (c.1 + 0), w c.2 (c.1 + 1), w c.2 (c.1 + 2), w c.2 (c.1 + 3), w c.2 (c.1 + 4), w c.2 (c.1 + 5)⟩ : V6 F32)).list.map .f)]) :=
  all_differ (by kernel_rfl)

theorem C98_mat3x2_mulv_m_wrong [Libm] : ∀ c ∈ ([(1, 0), (3, 0), (5, 0)] : List (Nat × Nat)), let mem : Mem F32 := [⟨true, (List.range 14).map fun i => .f (w c.2 i)⟩, ⟨false, (List.range 3).map fun i => .f (w c.2 (i + 14))⟩]
    C.glm_mat3x2_mulv.run mem [.p 0 c.1, .p 1 0, .p 0 6] ≠
      some (none, writes mem [((0, 6), (Cglm.glm_mat3x2_mulv (⟨⟨w c.2 (c.1 + 0), w c.2 (c.1 + 1)⟩, ⟨w c.2 (c.1 + 2), w c.2 (c.1 + 3)⟩, ⟨w c.2 (c.1 + 4), w c.2 (c.1 + 5)⟩⟩ : M3x2 F32) (⟨w c.2 14, w c.2 15, w c.2 16⟩ : V3 F32)).list.map .f)]) :=
  all_differ (by kernel_rfl)

theorem C98_mat3x2_transpose_exact [Libm] : ∀ c ∈ ([(1, 0), (2, 0), (3, 0), (4, 0), (5, 0), (6, 0), (7, 0)] : List (Nat × Nat)), let mem : Mem F32 := [⟨true, (List.range 18).map fun i => .f (w c.2 i)⟩]
    C.glm_mat3x2_transpose.run mem [.p 0 c.1, .p 0 6] ≠
      some (none, writes mem [((0, 6), (Cglm.glm_mat3x2_transpose (⟨⟨w c.2 (c.1 + 0), w c.2 (c.1 + 1)⟩, ⟨w c.2 (c.1 + 2), w c.2 (c.1 + 3)⟩, ⟨w c.2 (c.1 + 4), w c.2 (c.1 + 5)⟩⟩ : M3x2 F32)).list.map .f)]) :=
  all_differ (by kernel_rfl)

theorem C98_mat3x4_make_exact [Libm] : ∀ c ∈ ([(1, 0), (2, 0), (3, 0), (4, 0), (5, 0), (6, 0), (7, 0), (8, 0), (9, 0), (10, 0), (11, 0)] : List (Nat × Nat)), let mem : Mem F32 := [⟨true, (List.range 36).map fun i => .f (w c.2 i)⟩]
    C.glm_mat3x4_make.run mem [.p 0 c.1, .p 0 12] ≠
      some (none, writes mem [((0, 12), (Cglm.glm_mat3x4_make (⟨w c.2 (c.1 + 0), w c.2 (c.1 + 1), w c.2 (c.1 + 2), w c.2 (c.1 + 3), w c.2 (c.1 + 4), w c.2 (c.1 + 5), w c.2 (c.1 + 6), w c.2 (c.1 + 7), w c.2 (c.1 + 8), w c.2 (c.1 + 9), w c.2 (c.1 + 10), w c.2 (c.1 + 11)⟩ : V12 F32)).list.map .f)]) :=
  all_differ (by kernel_rfl)

theorem C98_mat2_make_exact [Libm] : ∀ c ∈ ([(1, 0), (2, 0), (3, 0)] : List (Nat × Nat)), let mem : Mem F32 := [⟨true, (List.range 12).map fun i => .f (w c.2 i)⟩]
    C.glm_mat2_make.run mem [.p 0 c.1, .p 0 4] ≠
      some (none, writes mem [((0, 4), (Cglm.glm_mat2_make (⟨w c.2 (c.1 + 0), w c.2 (c.1 + 1), w c.2 (c.1 + 2), w c.2 (c.1 + 3)⟩ : V4 F32)).list.map .f)]) :=
  all_differ (by kernel_rfl)

theorem C98_mat2_copy_exact [Libm] : ∀ c ∈ ([(1, 0), (2, 0), (3, 0)] : List (Nat × Nat)), let mem : Mem F32 := [⟨true, (List.range 12).map fun i => .f (w c.2 i)⟩]
    C.glm_mat2_copy.run mem [.p 0 c.1, .p 0 4] ≠
      some (none, writes mem [((0, 4), (Cglm.glm_mat2_copy (⟨⟨w c.2 (c.1 + 0), w c.2 (c.1 + 1)⟩, ⟨w c.2 (c.1 + 2), w c.2 (c.1 + 3)⟩⟩ : M2 F32)).list.map .f)]) :=
  all_differ (by kernel_rfl)

theorem C98_mat2_mulv_m_exact [Libm] : ∀ c ∈ ([(1, 0), (3, 0)] : List (Nat × Nat)), let mem : Mem F32 := [⟨true, (List.range 10).map fun i => .f (w c.2 i)⟩, ⟨false, (List.range 2).map fun i => .f (w c.2 (i + 10))⟩]
    C.glm_mat2_mulv.run mem [.p 0 c.1, .p 1 0, .p 0 4] ≠
      some (none, writes mem [((0, 4), (Cglm.glm_mat2_mulv (⟨⟨w c.2 (c.1 + 0), w c.2 (c.1 + 1)⟩, ⟨w c.2 (c.1 + 2), w c.2 (c.1 + 3)⟩⟩ : M2 F32) (⟨w c.2 10, w c.2 11⟩ : V2 F32)).list.map .f)]) :=
  all_differ (by kernel_rfl)

theorem C98_mat2_mulv_v_exact [Libm] : ∀ c ∈ ([(1, 0), (2, 0)] : List (Nat × Nat)), let mem : Mem F32 := [⟨true, (List.range 6).map fun i => .f (w c.2 i)⟩, ⟨false, (List.range 4).map fun i => .f (w c.2 (i + 6))⟩]
    C.glm_mat2_mulv.run mem [.p 1 0, .p 0 c.1, .p 0 2] ≠
      some (none, writes mem [((0, 2), (Cglm.glm_mat2_mulv (⟨⟨w c.2 6, w c.2 7⟩, ⟨w c.2 8, w c.2 9⟩⟩ : M2 F32) (⟨w c.2 (c.1 + 0), w c.2 (c.1 + 1)⟩ : V2 F32)).list.map .f)]) :=
  all_differ (by kernel_rfl)

theorem C98_mat2_transpose_to_exact [Libm] : ∀ c ∈ ([(1, 0), (2, 0), (3, 0), (4, 0)] : List (Nat × Nat)), let mem : Mem F32 := [⟨true, (List.range 12).map fun i => .f (w c.2 i)⟩]
    C.glm_mat2_transpose_to.run mem [.p 0 c.1, .p 0 4] ≠
      some (none, writes mem [((0, 4), (Cglm.glm_mat2_transpose_to (⟨⟨w c.2 (c.1 + 0), w c.2 (c.1 + 1)⟩, ⟨w c.2 (c.1 + 2), w c.2 (c.1 + 3)⟩⟩ : M2 F32)).list.map .f)]) :=
  all_differ (by kernel_rfl)

theorem C98_mat2x3_copy_exact [Libm] : ∀ c ∈ ([(1, 0), (2, 0), (3, 0), (4, 0), (5, 0)] : List (Nat × Nat)), let mem : Mem F32 := [⟨true, (List.range 18).map fun i => .f (w c.2 i)⟩]
    C.glm_mat2x3_copy.run mem [.p 0 c.1, .p 0 6] ≠
      some (none, writes mem [((0, 6), (Cglm.glm_mat2x3_copy (⟨⟨w c.2 (c.1 + 0), w c.2 (c.1 + 1), w c.2 (c.1 + 2)⟩, ⟨w c.2 (c.1 + 3), w c.2 (c.1 + 4), w c.2 (c.1 + 5)⟩⟩ : M2x3 F32)).list.map .f)]) :=
  all_differ (by kernel_rfl)

theorem C98_mat2x3_make_exact [Libm] : ∀ c ∈ ([(1, 0), (2, 0), (3, 0), (4, 0), (5, 0)] : List (Nat × Nat)), let mem : Mem F32 := [⟨true, (List.range 18).map fun i => .f (w c.2 i)⟩]
    C.glm_mat2x3_make.run mem [.p 0 c.1, .p 0 6] ≠
      some (none, writes mem [((0, 6), (Cglm.glm_mat2x3_make (⟨w c.2 (c.1 + 0), w c.2 (c.1 + 1), w c.2 (c.1 + 2), w c.2 (c.1 + 3), w c.2 (c.1 + 4), w c.2 (c.1 + 5)⟩ : V6 F32)).list.map .f)]) :=
  all_differ (by kernel_rfl)

theorem C98_mat2x3_mulv_m_wrong [Libm] : ∀ c ∈ ([(1, 0), (2, 0), (4, 0), (5, 0)] : List (Nat × Nat)), let mem : Mem F32 := [⟨true, (List.range 15).map fun i => .f (w c.2 i)⟩, ⟨false, (List.range 2).map fun i => .f (w c.2 (i + 15))⟩]
    C.glm_mat2x3_mulv.run mem [.p 0 c.1, .p 1 0, .p 0 6] ≠
      some (none, writes mem [((0, 6), (Cglm.glm_mat2x3_mulv (⟨⟨w c.2 (c.1 + 0), w c.2 (c.1 + 1), w c.2 (c.1 + 2)⟩, ⟨w c.2 (c.1 + 3), w c.2 (c.1 + 4), w c.2 (c.1 + 5)⟩⟩ : M2x3 F32) (⟨w c.2 15, w c.2 16⟩ : V2 F32)).list.map .f)]) :=
  all_differ (by kernel_rfl)

theorem C98_mat2x3_transpose_exact [Libm] : ∀ c ∈ ([(1, 0), (2, 0), (3, 0), (4, 0), (5, 0), (6, 0), (7, 0)] : List (Nat × Nat)), let mem : Mem F32 := [⟨true, (List.range 18).map fun i => .f (w c.2 i)⟩]
    C.glm_mat2x3_transpose.run mem [.p 0 c.1, .p 0 6] ≠
      some (none, writes mem [((0, 6), (Cglm.glm_mat2x3_transpose (⟨⟨w c.2 (c.1 + 0), w c.2 (c.1 + 1), w c.2 (c.1 + 2)⟩, ⟨w c.2 (c.1 + 3), w c.2 (c.1 + 4), w c.2 (c.1 + 5)⟩⟩ : M2x3 F32)).list.map .f)]) :=
  all_differ (by kernel_rfl)

theorem C98_mat2x4_copy_exact [Libm] : ∀ c ∈ ([(1, 0), (2, 0), (3, 0), (4, 0), (5, 0), (6, 0), (7, 0)] : List (Nat × Nat)), let mem : Mem F32 := [⟨true, (List.range 24).map fun i => .f (w c.2 i)⟩]
    C.glm_mat2x4_copy.run mem [.p 0 c.1, .p 0 8] ≠
      some (none, writes mem [((0, 8), (Cglm.glm_mat2x4_copy (⟨⟨w c.2 (c.1 + 0), w c.2 (c.1 + 1), w c.2 (c.1 + 2), w c.2 (c.1 + 3)⟩, ⟨w c.2 (c.1 + 4), w c.2 (c.1 + 5), w c.2 (c.1 + 6), w c.2 (c.1 + 7)⟩⟩ : M2x4 F32)).list.map .f)]) :=
  all_differ (by kernel_rfl)

theorem C98_mat2x4_make_exact [Libm] : ∀ c ∈ ([(1, 0), (2, 0), (3, 0), (4, 0), (5, 0), (6, 0), (7, 0)] : List (Nat × Nat)), let mem : Mem F32 := [⟨true, (List.range 24).map fun i => .f (w c.2 i)⟩]
    C.glm_mat2x4_make.run mem [.p 0 c.1, .p 0 8] ≠
      some (none, writes mem [((0, 8), (Cglm.glm_mat2x4_make (⟨w c.2 (c.1 + 0), w c.2 (c.1 + 1), w c.2 (c.1 + 2), w c.2 (c.1 + 3), w c.2 (c.1 + 4), w c.2 (c.1 + 5), w c.2 (c.1 + 6), w c.2 (c.1 + 7)⟩ : V8 F32)).list.map .f)]) :=
  all_differ (by kernel_rfl)

theorem C98_mat2x4_transpose_exact [Libm] : ∀ c ∈ ([(1, 0), (2, 0), (3, 0), (4, 0), (5, 0), (6, 0), (7, 0), (8, 0), (9, 0), (10, 0)] : List (Nat × Nat)), let mem : Mem F32 := [⟨true, (List.range 24).map fun i => .f (w c.2 i)⟩]
    C.glm_mat2x4_transpose.run mem [.p 0 c.1, .p 0 8] ≠
      some (none, writes mem [((0, 8), (Cglm.glm_mat2x4_transpose (⟨⟨w c.2 (c.1 + 0), w c.2 (c.1 + 1), w c.2 (c.1 + 2), w c.2 (c.1 + 3)⟩, ⟨w c.2 (c.1 + 4), w c.2 (c.1 + 5), w c.2 (c.1 + 6), w c.2 (c.1 + 7)⟩⟩ : M2x4 F32)).list.map .f)]) :=
  all_differ (by kernel_rfl)

end Cglm
