/- Generated by tools/exactthms.py; do not edit by hand. -/
import Verif.CMemDiff
import Verif.Mem.QuatsRun

/-!
# C98: overlaps that give wrong results

For each function that does not allow all overlaps, positions `c.1` of an input in the object
that also holds an output, at which the result is wrong for the contents numbered `c.2`.
The other arrays lie apart.  `_exact`: every position that the theorem for the function excludes is wrong; `_wrong`: some are.
-/

set_option linter.unusedVariables false

namespace Cglm
open CMem

theorem C98_quat_copy_exact [Libm] : ∀ c ∈ ([(1, 0), (2, 0), (3, 0)] : List (Nat × Nat)), let mem : Mem F32 := [⟨true, (List.range 12).map fun i => .f (w c.2 i)⟩]
    C.glm_quat_copy.run mem [.p 0 c.1, .p 0 4] ≠
      some (none, writes mem [((0, 4), (Cglm.glm_quat_copy (⟨w c.2 (c.1 + 0), w c.2 (c.1 + 1), w c.2 (c.1 + 2), w c.2 (c.1 + 3)⟩ : V4 F32)).list.map .f)]) :=
  all_differ (by kernel_rfl)

theorem C98_quat_normalize_to_exact [Libm] : ∀ c ∈ ([(1, 0), (2, 0), (3, 0)] : List (Nat × Nat)), let mem : Mem F32 := [⟨true, (List.range 12).map fun i => .f (w c.2 i)⟩]
    C.glm_quat_normalize_to.run mem [.p 0 c.1, .p 0 4] ≠
      some (none, writes mem [((0, 4), (Cglm.glm_quat_normalize_to (⟨w c.2 (c.1 + 0), w c.2 (c.1 + 1), w c.2 (c.1 + 2), w c.2 (c.1 + 3)⟩ : V4 F32)).list.map .f)]) :=
  all_differ (by kernel_rfl)

theorem C98_quat_conjugate_exact [Libm] : ∀ c ∈ ([(1, 0), (2, 0), (3, 0)] : List (Nat × Nat)), let mem : Mem F32 := [⟨true, (List.range 12).map fun i => .f (w c.2 i)⟩]
    C.glm_quat_conjugate.run mem [.p 0 c.1, .p 0 4] ≠
      some (none, writes mem [((0, 4), (Cglm.glm_quat_conjugate (⟨w c.2 (c.1 + 0), w c.2 (c.1 + 1), w c.2 (c.1 + 2), w c.2 (c.1 + 3)⟩ : V4 F32)).list.map .f)]) :=
  all_differ (by kernel_rfl)

theorem C98_quat_add_p_exact [Libm] : ∀ c ∈ ([(1, 0), (2, 0), (3, 0)] : List (Nat × Nat)), let mem : Mem F32 := [⟨true, (List.range 12).map fun i => .f (w c.2 i)⟩, ⟨false, (List.range 4).map fun i => .f (w c.2 (i + 12))⟩]
    C.glm_quat_add.run mem [.p 0 c.1, .p 1 0, .p 0 4] ≠
      some (none, writes mem [((0, 4), (Cglm.glm_quat_add (⟨w c.2 (c.1 + 0), w c.2 (c.1 + 1), w c.2 (c.1 + 2), w c.2 (c.1 + 3)⟩ : V4 F32) (⟨w c.2 12, w c.2 13, w c.2 14, w c.2 15⟩ : V4 F32)).list.map .f)]) :=
  all_differ (by kernel_rfl)

theorem C98_quat_add_q_exact [Libm] : ∀ c ∈ ([(1, 0), (2, 0), (3, 0)] : List (Nat × Nat)), let mem : Mem F32 := [⟨true, (List.range 12).map fun i => .f (w c.2 i)⟩, ⟨false, (List.range 4).map fun i => .f (w c.2 (i + 12))⟩]
    C.glm_quat_add.run mem [.p 1 0, .p 0 c.1, .p 0 4] ≠
      some (none, writes mem [((0, 4), (Cglm.glm_quat_add (⟨w c.2 12, w c.2 13, w c.2 14, w c.2 15⟩ : V4 F32) (⟨w c.2 (c.1 + 0), w c.2 (c.1 + 1), w c.2 (c.1 + 2), w c.2 (c.1 + 3)⟩ : V4 F32)).list.map .f)]) :=
  all_differ (by kernel_rfl)

theorem C98_quat_sub_p_exact [Libm] : ∀ c ∈ ([(1, 0), (2, 0), (3, 0)] : List (Nat × Nat)), let mem : Mem F32 := [⟨true, (List.range 12).map fun i => .f (w c.2 i)⟩, ⟨false, (List.range 4).map fun i => .f (w c.2 (i + 12))⟩]
    C.glm_quat_sub.run mem [.p 0 c.1, .p 1 0, .p 0 4] ≠
      some (none, writes mem [((0, 4), (Cglm.glm_quat_sub (⟨w c.2 (c.1 + 0), w c.2 (c.1 + 1), w c.2 (c.1 + 2), w c.2 (c.1 + 3)⟩ : V4 F32) (⟨w c.2 12, w c.2 13, w c.2 14, w c.2 15⟩ : V4 F32)).list.map .f)]) :=
  all_differ (by kernel_rfl)

theorem C98_quat_sub_q_exact [Libm] : ∀ c ∈ ([(1, 0), (2, 0), (3, 0)] : List (Nat × Nat)), let mem : Mem F32 := [⟨true, (List.range 12).map fun i => .f (w c.2 i)⟩, ⟨false, (List.range 4).map fun i => .f (w c.2 (i + 12))⟩]
    C.glm_quat_sub.run mem [.p 1 0, .p 0 c.1, .p 0 4] ≠
      some (none, writes mem [((0, 4), (Cglm.glm_quat_sub (⟨w c.2 12, w c.2 13, w c.2 14, w c.2 15⟩ : V4 F32) (⟨w c.2 (c.1 + 0), w c.2 (c.1 + 1), w c.2 (c.1 + 2), w c.2 (c.1 + 3)⟩ : V4 F32)).list.map .f)]) :=
  all_differ (by kernel_rfl)

theorem C98_quat_imag_wrong [Libm] : ∀ c ∈ ([(2, 0), (3, 0)] : List (Nat × Nat)), let mem : Mem F32 := [⟨true, (List.range 11).map fun i => .f (w c.2 i)⟩]
    C.glm_quat_imag.run mem [.p 0 c.1, .p 0 4] ≠
      some (none, writes mem [((0, 4), (Cglm.glm_quat_imag (⟨w c.2 (c.1 + 0), w c.2 (c.1 + 1), w c.2 (c.1 + 2), w c.2 (c.1 + 3)⟩ : V4 F32)).list.map .f)]) :=
  all_differ (by kernel_rfl)

theorem C98_quat_imagn_wrong [Libm] : ∀ c ∈ ([(2, 0), (3, 0)] : List (Nat × Nat)), let mem : Mem F32 := [⟨true, (List.range 11).map fun i => .f (w c.2 i)⟩]
    C.glm_quat_imagn.run mem [.p 0 c.1, .p 0 4] ≠
      some (none, writes mem [((0, 4), (Cglm.glm_quat_imagn (⟨w c.2 (c.1 + 0), w c.2 (c.1 + 1), w c.2 (c.1 + 2), w c.2 (c.1 + 3)⟩ : V4 F32)).list.map .f)]) :=
  all_differ (by kernel_rfl)

theorem C98_quat_axis_wrong [Libm] : ∀ c ∈ ([(2, 0), (3, 0)] : List (Nat × Nat)), let mem : Mem F32 := [⟨true, (List.range 11).map fun i => .f (w c.2 i)⟩]
    C.glm_quat_axis.run mem [.p 0 c.1, .p 0 4] ≠
      some (none, writes mem [((0, 4), (Cglm.glm_quat_axis (⟨w c.2 (c.1 + 0), w c.2 (c.1 + 1), w c.2 (c.1 + 2), w c.2 (c.1 + 3)⟩ : V4 F32)).list.map .f)]) :=
  all_differ (by kernel_rfl)

theorem C98_quat_mul_q_exact [Libm] : ∀ c ∈ ([(1, 0), (2, 0), (3, 0), (4, 0), (5, 0), (6, 0)] : List (Nat × Nat)), let mem : Mem F32 := [⟨true, (List.range 12).map fun i => .f (w c.2 i)⟩, ⟨false, (List.range 4).map fun i => .f (w c.2 (i + 12))⟩]
    C.glm_quat_mul.run mem [.p 1 0, .p 0 c.1, .p 0 4] ≠
      some (none, writes mem [((0, 4), (Cglm.glm_quat_mul (⟨w c.2 12, w c.2 13, w c.2 14, w c.2 15⟩ : V4 F32) (⟨w c.2 (c.1 + 0), w c.2 (c.1 + 1), w c.2 (c.1 + 2), w c.2 (c.1 + 3)⟩ : V4 F32)).list.map .f)]) :=
  all_differ (by kernel_rfl)

theorem C98_quat_lerp_frm_exact [Libm] : ∀ c ∈ ([(1, 0), (2, 0), (3, 0)] : List (Nat × Nat)), let mem : Mem F32 := [⟨true, (List.range 12).map fun i => .f (w c.2 i)⟩, ⟨false, (List.range 4).map fun i => .f (w c.2 (i + 12))⟩]
    C.glm_quat_lerp.run mem [.p 0 c.1, .p 1 0, .f (w c.2 16), .p 0 4] ≠
      some (none, writes mem [((0, 4), (Cglm.glm_quat_lerp (⟨w c.2 (c.1 + 0), w c.2 (c.1 + 1), w c.2 (c.1 + 2), w c.2 (c.1 + 3)⟩ : V4 F32) (⟨w c.2 12, w c.2 13, w c.2 14, w c.2 15⟩ : V4 F32) (w c.2 16)).list.map .f)]) :=
  all_differ (by kernel_rfl)

theorem C98_quat_lerpc_frm_exact [Libm] : ∀ c ∈ ([(1, 0), (2, 0), (3, 0)] : List (Nat × Nat)), let mem : Mem F32 := [⟨true, (List.range 12).map fun i => .f (w c.2 i)⟩, ⟨false, (List.range 4).map fun i => .f (w c.2 (i + 12))⟩]
    C.glm_quat_lerpc.run mem [.p 0 c.1, .p 1 0, .f (w c.2 16), .p 0 4] ≠
      some (none, writes mem [((0, 4), (Cglm.glm_quat_lerpc (⟨w c.2 (c.1 + 0), w c.2 (c.1 + 1), w c.2 (c.1 + 2), w c.2 (c.1 + 3)⟩ : V4 F32) (⟨w c.2 12, w c.2 13, w c.2 14, w c.2 15⟩ : V4 F32) (w c.2 16)).list.map .f)]) :=
  all_differ (by kernel_rfl)

theorem C98_quat_make_exact [Libm] : ∀ c ∈ ([(1, 0), (2, 0), (3, 0)] : List (Nat × Nat)), let mem : Mem F32 := [⟨true, (List.range 12).map fun i => .f (w c.2 i)⟩]
    C.glm_quat_make.run mem [.p 0 c.1, .p 0 4] ≠
      some (none, writes mem [((0, 4), (Cglm.glm_quat_make (⟨w c.2 (c.1 + 0), w c.2 (c.1 + 1), w c.2 (c.1 + 2), w c.2 (c.1 + 3)⟩ : V4 F32)).list.map .f)]) :=
  all_differ (by kernel_rfl)

end Cglm
