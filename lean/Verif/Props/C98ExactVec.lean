/- Generated by tools/exactthms.py; do not edit by hand. -/
import Verif.CMemDiff
import Verif.Mem.VecsRun

/-!
# C98: overlaps that give wrong results

For each function that does not allow all overlaps, positions `c.1` of an input in the object
that also holds an output, at which the result is wrong for the contents numbered `c.2`.
The other arrays lie apart.  `_exact`: every position that the theorem for the function excludes is wrong; `_wrong`: some are.
-/

set_option linter.unusedVariables false

namespace Cglm
open CMem

theorem C98_vec2_sign_exact [Libm] : ∀ c ∈ ([(1, 1)] : List (Nat × Nat)), let mem : Mem F32 := [⟨true, (List.range 6).map fun i => .f (w c.2 i)⟩]
    C.glm_vec2_sign.run mem [.p 0 c.1, .p 0 2] ≠
      some (none, writes mem [((0, 2), (Cglm.glm_vec2_sign (⟨w c.2 (c.1 + 0), w c.2 (c.1 + 1)⟩ : V2 F32)).list.map .f)]) :=
  all_differ (by kernel_rfl)

theorem C98_vec2_abs_exact [Libm] : ∀ c ∈ ([(1, 0)] : List (Nat × Nat)), let mem : Mem F32 := [⟨true, (List.range 6).map fun i => .f (w c.2 i)⟩]
    C.glm_vec2_abs.run mem [.p 0 c.1, .p 0 2] ≠
      some (none, writes mem [((0, 2), (Cglm.glm_vec2_abs (⟨w c.2 (c.1 + 0), w c.2 (c.1 + 1)⟩ : V2 F32)).list.map .f)]) :=
  all_differ (by kernel_rfl)

theorem C98_vec2_floor_exact [Libm] : ∀ c ∈ ([(1, 0)] : List (Nat × Nat)), let mem : Mem F32 := [⟨true, (List.range 6).map fun i => .f (w c.2 i)⟩]
    C.glm_vec2_floor.run mem [.p 0 c.1, .p 0 2] ≠
      some (none, writes mem [((0, 2), (Cglm.glm_vec2_floor (⟨w c.2 (c.1 + 0), w c.2 (c.1 + 1)⟩ : V2 F32)).list.map .f)]) :=
  all_differ (by kernel_rfl)

theorem C98_vec2_mods_exact [Libm] : ∀ c ∈ ([(1, 0)] : List (Nat × Nat)), let mem : Mem F32 := [⟨true, (List.range 6).map fun i => .f (w c.2 i)⟩]
    C.glm_vec2_mods.run mem [.p 0 c.1, .f (w c.2 6), .p 0 2] ≠
      some (none, writes mem [((0, 2), (Cglm.glm_vec2_mods (⟨w c.2 (c.1 + 0), w c.2 (c.1 + 1)⟩ : V2 F32) (w c.2 6)).list.map .f)]) :=
  all_differ (by kernel_rfl)

theorem C98_vec2_sqrt_exact [Libm] : ∀ c ∈ ([(1, 0)] : List (Nat × Nat)), let mem : Mem F32 := [⟨true, (List.range 6).map fun i => .f (w c.2 i)⟩]
    C.glm_vec2_sqrt.run mem [.p 0 c.1, .p 0 2] ≠
      some (none, writes mem [((0, 2), (Cglm.glm_vec2_sqrt (⟨w c.2 (c.1 + 0), w c.2 (c.1 + 1)⟩ : V2 F32)).list.map .f)]) :=
  all_differ (by kernel_rfl)

theorem C98_vec2_steps_exact [Libm] : ∀ c ∈ ([(1, 1)] : List (Nat × Nat)), let mem : Mem F32 := [⟨true, (List.range 6).map fun i => .f (w c.2 i)⟩]
    C.glm_vec2_steps.run mem [.f (w c.2 6), .p 0 c.1, .p 0 2] ≠
      some (none, writes mem [((0, 2), (Cglm.glm_vec2_steps (w c.2 6) (⟨w c.2 (c.1 + 0), w c.2 (c.1 + 1)⟩ : V2 F32)).list.map .f)]) :=
  all_differ (by kernel_rfl)

theorem C98_vec2_stepr_exact [Libm] : ∀ c ∈ ([(1, 1)] : List (Nat × Nat)), let mem : Mem F32 := [⟨true, (List.range 6).map fun i => .f (w c.2 i)⟩]
    C.glm_vec2_stepr.run mem [.p 0 c.1, .f (w c.2 6), .p 0 2] ≠
      some (none, writes mem [((0, 2), (Cglm.glm_vec2_stepr (⟨w c.2 (c.1 + 0), w c.2 (c.1 + 1)⟩ : V2 F32) (w c.2 6)).list.map .f)]) :=
  all_differ (by kernel_rfl)

theorem C98_vec2_complex_conjugate_exact [Libm] : ∀ c ∈ ([(1, 0)] : List (Nat × Nat)), let mem : Mem F32 := [⟨true, (List.range 6).map fun i => .f (w c.2 i)⟩]
    C.glm_vec2_complex_conjugate.run mem [.p 0 c.1, .p 0 2] ≠
      some (none, writes mem [((0, 2), (Cglm.glm_vec2_complex_conjugate (⟨w c.2 (c.1 + 0), w c.2 (c.1 + 1)⟩ : V2 F32)).list.map .f)]) :=
  all_differ (by kernel_rfl)

theorem C98_vec2_exact [Libm] : ∀ c ∈ ([(1, 0)] : List (Nat × Nat)), let mem : Mem F32 := [⟨true, (List.range 6).map fun i => .f (w c.2 i)⟩]
    C.glm_vec2.run mem [.p 0 c.1, .p 0 2] ≠
      some (none, writes mem [((0, 2), (Cglm.glm_vec2 (⟨w c.2 (c.1 + 0), w c.2 (c.1 + 1)⟩ : V2 F32)).list.map .f)]) :=
  all_differ (by kernel_rfl)

theorem C98_vec2_copy_exact [Libm] : ∀ c ∈ ([(1, 0)] : List (Nat × Nat)), let mem : Mem F32 := [⟨true, (List.range 6).map fun i => .f (w c.2 i)⟩]
    C.glm_vec2_copy.run mem [.p 0 c.1, .p 0 2] ≠
      some (none, writes mem [((0, 2), (Cglm.glm_vec2_copy (⟨w c.2 (c.1 + 0), w c.2 (c.1 + 1)⟩ : V2 F32)).list.map .f)]) :=
  all_differ (by kernel_rfl)

theorem C98_vec2_add_a_exact [Libm] : ∀ c ∈ ([(1, 0)] : List (Nat × Nat)), let mem : Mem F32 := [⟨true, (List.range 6).map fun i => .f (w c.2 i)⟩, ⟨false, (List.range 2).map fun i => .f (w c.2 (i + 6))⟩]
    C.glm_vec2_add.run mem [.p 0 c.1, .p 1 0, .p 0 2] ≠
      some (none, writes mem [((0, 2), (Cglm.glm_vec2_add (⟨w c.2 (c.1 + 0), w c.2 (c.1 + 1)⟩ : V2 F32) (⟨w c.2 6, w c.2 7⟩ : V2 F32)).list.map .f)]) :=
  all_differ (by kernel_rfl)

theorem C98_vec2_add_b_exact [Libm] : ∀ c ∈ ([(1, 0)] : List (Nat × Nat)), let mem : Mem F32 := [⟨true, (List.range 6).map fun i => .f (w c.2 i)⟩, ⟨false, (List.range 2).map fun i => .f (w c.2 (i + 6))⟩]
    C.glm_vec2_add.run mem [.p 1 0, .p 0 c.1, .p 0 2] ≠
      some (none, writes mem [((0, 2), (Cglm.glm_vec2_add (⟨w c.2 6, w c.2 7⟩ : V2 F32) (⟨w c.2 (c.1 + 0), w c.2 (c.1 + 1)⟩ : V2 F32)).list.map .f)]) :=
  all_differ (by kernel_rfl)

theorem C98_vec2_adds_exact [Libm] : ∀ c ∈ ([(1, 0)] : List (Nat × Nat)), let mem : Mem F32 := [⟨true, (List.range 6).map fun i => .f (w c.2 i)⟩]
    C.glm_vec2_adds.run mem [.p 0 c.1, .f (w c.2 6), .p 0 2] ≠
      some (none, writes mem [((0, 2), (Cglm.glm_vec2_adds (⟨w c.2 (c.1 + 0), w c.2 (c.1 + 1)⟩ : V2 F32) (w c.2 6)).list.map .f)]) :=
  all_differ (by kernel_rfl)

theorem C98_vec2_sub_a_exact [Libm] : ∀ c ∈ ([(1, 0)] : List (Nat × Nat)), let mem : Mem F32 := [⟨true, (List.range 6).map fun i => .f (w c.2 i)⟩, ⟨false, (List.range 2).map fun i => .f (w c.2 (i + 6))⟩]
    C.glm_vec2_sub.run mem [.p 0 c.1, .p 1 0, .p 0 2] ≠
      some (none, writes mem [((0, 2), (Cglm.glm_vec2_sub (⟨w c.2 (c.1 + 0), w c.2 (c.1 + 1)⟩ : V2 F32) (⟨w c.2 6, w c.2 7⟩ : V2 F32)).list.map .f)]) :=
  all_differ (by kernel_rfl)

theorem C98_vec2_sub_b_exact [Libm] : ∀ c ∈ ([(1, 0)] : List (Nat × Nat)), let mem : Mem F32 := [⟨true, (List.range 6).map fun i => .f (w c.2 i)⟩, ⟨false, (List.range 2).map fun i => .f (w c.2 (i + 6))⟩]
    C.glm_vec2_sub.run mem [.p 1 0, .p 0 c.1, .p 0 2] ≠
      some (none, writes mem [((0, 2), (Cglm.glm_vec2_sub (⟨w c.2 6, w c.2 7⟩ : V2 F32) (⟨w c.2 (c.1 + 0), w c.2 (c.1 + 1)⟩ : V2 F32)).list.map .f)]) :=
  all_differ (by kernel_rfl)

theorem C98_vec2_subs_exact [Libm] : ∀ c ∈ ([(1, 0)] : List (Nat × Nat)), let mem : Mem F32 := [⟨true, (List.range 6).map fun i => .f (w c.2 i)⟩]
    C.glm_vec2_subs.run mem [.p 0 c.1, .f (w c.2 6), .p 0 2] ≠
      some (none, writes mem [((0, 2), (Cglm.glm_vec2_subs (⟨w c.2 (c.1 + 0), w c.2 (c.1 + 1)⟩ : V2 F32) (w c.2 6)).list.map .f)]) :=
  all_differ (by kernel_rfl)

theorem C98_vec2_mul_a_exact [Libm] : ∀ c ∈ ([(1, 0)] : List (Nat × Nat)), let mem : Mem F32 := [⟨true, (List.range 6).map fun i => .f (w c.2 i)⟩, ⟨false, (List.range 2).map fun i => .f (w c.2 (i + 6))⟩]
    C.glm_vec2_mul.run mem [.p 0 c.1, .p 1 0, .p 0 2] ≠
      some (none, writes mem [((0, 2), (Cglm.glm_vec2_mul (⟨w c.2 (c.1 + 0), w c.2 (c.1 + 1)⟩ : V2 F32) (⟨w c.2 6, w c.2 7⟩ : V2 F32)).list.map .f)]) :=
  all_differ (by kernel_rfl)

theorem C98_vec2_mul_b_exact [Libm] : ∀ c ∈ ([(1, 0)] : List (Nat × Nat)), let mem : Mem F32 := [⟨true, (List.range 6).map fun i => .f (w c.2 i)⟩, ⟨false, (List.range 2).map fun i => .f (w c.2 (i + 6))⟩]
    C.glm_vec2_mul.run mem [.p 1 0, .p 0 c.1, .p 0 2] ≠
      some (none, writes mem [((0, 2), (Cglm.glm_vec2_mul (⟨w c.2 6, w c.2 7⟩ : V2 F32) (⟨w c.2 (c.1 + 0), w c.2 (c.1 + 1)⟩ : V2 F32)).list.map .f)]) :=
  all_differ (by kernel_rfl)

theorem C98_vec2_scale_exact [Libm] : ∀ c ∈ ([(1, 0)] : List (Nat × Nat)), let mem : Mem F32 := [⟨true, (List.range 6).map fun i => .f (w c.2 i)⟩]
    C.glm_vec2_scale.run mem [.p 0 c.1, .f (w c.2 6), .p 0 2] ≠
      some (none, writes mem [((0, 2), (Cglm.glm_vec2_scale (⟨w c.2 (c.1 + 0), w c.2 (c.1 + 1)⟩ : V2 F32) (w c.2 6)).list.map .f)]) :=
  all_differ (by kernel_rfl)

theorem C98_vec2_scale_as_exact [Libm] : ∀ c ∈ ([(1, 0)] : List (Nat × Nat)), let mem : Mem F32 := [⟨true, (List.range 6).map fun i => .f (w c.2 i)⟩]
    C.glm_vec2_scale_as.run mem [.p 0 c.1, .f (w c.2 6), .p 0 2] ≠
      some (none, writes mem [((0, 2), (Cglm.glm_vec2_scale_as (⟨w c.2 (c.1 + 0), w c.2 (c.1 + 1)⟩ : V2 F32) (w c.2 6)).list.map .f)]) :=
  all_differ (by kernel_rfl)

theorem C98_vec2_div_a_exact [Libm] : ∀ c ∈ ([(1, 0)] : List (Nat × Nat)), let mem : Mem F32 := [⟨true, (List.range 6).map fun i => .f (w c.2 i)⟩, ⟨false, (List.range 2).map fun i => .f (w c.2 (i + 6))⟩]
    C.glm_vec2_div.run mem [.p 0 c.1, .p 1 0, .p 0 2] ≠
      some (none, writes mem [((0, 2), (Cglm.glm_vec2_div (⟨w c.2 (c.1 + 0), w c.2 (c.1 + 1)⟩ : V2 F32) (⟨w c.2 6, w c.2 7⟩ : V2 F32)).list.map .f)]) :=
  all_differ (by kernel_rfl)

theorem C98_vec2_divs_exact [Libm] : ∀ c ∈ ([(1, 0)] : List (Nat × Nat)), let mem : Mem F32 := [⟨true, (List.range 6).map fun i => .f (w c.2 i)⟩]
    C.glm_vec2_divs.run mem [.p 0 c.1, .f (w c.2 6), .p 0 2] ≠
      some (none, writes mem [((0, 2), (Cglm.glm_vec2_divs (⟨w c.2 (c.1 + 0), w c.2 (c.1 + 1)⟩ : V2 F32) (w c.2 6)).list.map .f)]) :=
  all_differ (by kernel_rfl)

theorem C98_vec2_addadd_a_exact [Libm] : ∀ c ∈ ([(1, 0)] : List (Nat × Nat)), let mem : Mem F32 := [⟨true, (List.range 6).map fun i => .f (w c.2 i)⟩, ⟨false, (List.range 2).map fun i => .f (w c.2 (i + 6))⟩]
    C.glm_vec2_addadd.run mem [.p 0 c.1, .p 1 0, .p 0 2] ≠
      some (none, writes mem [((0, 2), (Cglm.glm_vec2_addadd (⟨w c.2 (c.1 + 0), w c.2 (c.1 + 1)⟩ : V2 F32) (⟨w c.2 6, w c.2 7⟩ : V2 F32) (⟨w c.2 2, w c.2 3⟩ : V2 F32)).list.map .f)]) :=
  all_differ (by kernel_rfl)

theorem C98_vec2_addadd_b_exact [Libm] : ∀ c ∈ ([(1, 0)] : List (Nat × Nat)), let mem : Mem F32 := [⟨true, (List.range 6).map fun i => .f (w c.2 i)⟩, ⟨false, (List.range 2).map fun i => .f (w c.2 (i + 6))⟩]
    C.glm_vec2_addadd.run mem [.p 1 0, .p 0 c.1, .p 0 2] ≠
      some (none, writes mem [((0, 2), (Cglm.glm_vec2_addadd (⟨w c.2 6, w c.2 7⟩ : V2 F32) (⟨w c.2 (c.1 + 0), w c.2 (c.1 + 1)⟩ : V2 F32) (⟨w c.2 2, w c.2 3⟩ : V2 F32)).list.map .f)]) :=
  all_differ (by kernel_rfl)

theorem C98_vec2_subadd_a_exact [Libm] : ∀ c ∈ ([(1, 0)] : List (Nat × Nat)), let mem : Mem F32 := [⟨true, (List.range 6).map fun i => .f (w c.2 i)⟩, ⟨false, (List.range 2).map fun i => .f (w c.2 (i + 6))⟩]
    C.glm_vec2_subadd.run mem [.p 0 c.1, .p 1 0, .p 0 2] ≠
      some (none, writes mem [((0, 2), (Cglm.glm_vec2_subadd (⟨w c.2 (c.1 + 0), w c.2 (c.1 + 1)⟩ : V2 F32) (⟨w c.2 6, w c.2 7⟩ : V2 F32) (⟨w c.2 2, w c.2 3⟩ : V2 F32)).list.map .f)]) :=
  all_differ (by kernel_rfl)

theorem C98_vec2_subadd_b_exact [Libm] : ∀ c ∈ ([(1, 0)] : List (Nat × Nat)), let mem : Mem F32 := [⟨true, (List.range 6).map fun i => .f (w c.2 i)⟩, ⟨false, (List.range 2).map fun i => .f (w c.2 (i + 6))⟩]
    C.glm_vec2_subadd.run mem [.p 1 0, .p 0 c.1, .p 0 2] ≠
      some (none, writes mem [((0, 2), (Cglm.glm_vec2_subadd (⟨w c.2 6, w c.2 7⟩ : V2 F32) (⟨w c.2 (c.1 + 0), w c.2 (c.1 + 1)⟩ : V2 F32) (⟨w c.2 2, w c.2 3⟩ : V2 F32)).list.map .f)]) :=
  all_differ (by kernel_rfl)

theorem C98_vec2_muladd_a_exact [Libm] : ∀ c ∈ ([(1, 0)] : List (Nat × Nat)), let mem : Mem F32 := [⟨true, (List.range 6).map fun i => .f (w c.2 i)⟩, ⟨false, (List.range 2).map fun i => .f (w c.2 (i + 6))⟩]
    C.glm_vec2_muladd.run mem [.p 0 c.1, .p 1 0, .p 0 2] ≠
      some (none, writes mem [((0, 2), (Cglm.glm_vec2_muladd (⟨w c.2 (c.1 + 0), w c.2 (c.1 + 1)⟩ : V2 F32) (⟨w c.2 6, w c.2 7⟩ : V2 F32) (⟨w c.2 2, w c.2 3⟩ : V2 F32)).list.map .f)]) :=
  all_differ (by kernel_rfl)

theorem C98_vec2_muladd_b_exact [Libm] : ∀ c ∈ ([(1, 0)] : List (Nat × Nat)), let mem : Mem F32 := [⟨true, (List.range 6).map fun i => .f (w c.2 i)⟩, ⟨false, (List.range 2).map fun i => .f (w c.2 (i + 6))⟩]
    C.glm_vec2_muladd.run mem [.p 1 0, .p 0 c.1, .p 0 2] ≠
      some (none, writes mem [((0, 2), (Cglm.glm_vec2_muladd (⟨w c.2 6, w c.2 7⟩ : V2 F32) (⟨w c.2 (c.1 + 0), w c.2 (c.1 + 1)⟩ : V2 F32) (⟨w c.2 2, w c.2 3⟩ : V2 F32)).list.map .f)]) :=
  all_differ (by kernel_rfl)

theorem C98_vec2_muladds_exact [Libm] : ∀ c ∈ ([(1, 0)] : List (Nat × Nat)), let mem : Mem F32 := [⟨true, (List.range 6).map fun i => .f (w c.2 i)⟩]
    C.glm_vec2_muladds.run mem [.p 0 c.1, .f (w c.2 6), .p 0 2] ≠
      some (none, writes mem [((0, 2), (Cglm.glm_vec2_muladds (⟨w c.2 (c.1 + 0), w c.2 (c.1 + 1)⟩ : V2 F32) (w c.2 6) (⟨w c.2 2, w c.2 3⟩ : V2 F32)).list.map .f)]) :=
  all_differ (by kernel_rfl)

theorem C98_vec2_maxadd_a_exact [Libm] : ∀ c ∈ ([(1, 2)] : List (Nat × Nat)), let mem : Mem F32 := [⟨true, (List.range 6).map fun i => .f (w c.2 i)⟩, ⟨false, (List.range 2).map fun i => .f (w c.2 (i + 6))⟩]
    C.glm_vec2_maxadd.run mem [.p 0 c.1, .p 1 0, .p 0 2] ≠
      some (none, writes mem [((0, 2), (Cglm.glm_vec2_maxadd (⟨w c.2 (c.1 + 0), w c.2 (c.1 + 1)⟩ : V2 F32) (⟨w c.2 6, w c.2 7⟩ : V2 F32) (⟨w c.2 2, w c.2 3⟩ : V2 F32)).list.map .f)]) :=
  all_differ (by kernel_rfl)

theorem C98_vec2_maxadd_b_exact [Libm] : ∀ c ∈ ([(1, 2)] : List (Nat × Nat)), let mem : Mem F32 := [⟨true, (List.range 6).map fun i => .f (w c.2 i)⟩, ⟨false, (List.range 2).map fun i => .f (w c.2 (i + 6))⟩]
    C.glm_vec2_maxadd.run mem [.p 1 0, .p 0 c.1, .p 0 2] ≠
      some (none, writes mem [((0, 2), (Cglm.glm_vec2_maxadd (⟨w c.2 6, w c.2 7⟩ : V2 F32) (⟨w c.2 (c.1 + 0), w c.2 (c.1 + 1)⟩ : V2 F32) (⟨w c.2 2, w c.2 3⟩ : V2 F32)).list.map .f)]) :=
  all_differ (by kernel_rfl)

theorem C98_vec2_minadd_a_exact [Libm] : ∀ c ∈ ([(1, 0)] : List (Nat × Nat)), let mem : Mem F32 := [⟨true, (List.range 6).map fun i => .f (w c.2 i)⟩, ⟨false, (List.range 2).map fun i => .f (w c.2 (i + 6))⟩]
    C.glm_vec2_minadd.run mem [.p 0 c.1, .p 1 0, .p 0 2] ≠
      some (none, writes mem [((0, 2), (Cglm.glm_vec2_minadd (⟨w c.2 (c.1 + 0), w c.2 (c.1 + 1)⟩ : V2 F32) (⟨w c.2 6, w c.2 7⟩ : V2 F32) (⟨w c.2 2, w c.2 3⟩ : V2 F32)).list.map .f)]) :=
  all_differ (by kernel_rfl)

theorem C98_vec2_minadd_b_exact [Libm] : ∀ c ∈ ([(1, 0)] : List (Nat × Nat)), let mem : Mem F32 := [⟨true, (List.range 6).map fun i => .f (w c.2 i)⟩, ⟨false, (List.range 2).map fun i => .f (w c.2 (i + 6))⟩]
    C.glm_vec2_minadd.run mem [.p 1 0, .p 0 c.1, .p 0 2] ≠
      some (none, writes mem [((0, 2), (Cglm.glm_vec2_minadd (⟨w c.2 6, w c.2 7⟩ : V2 F32) (⟨w c.2 (c.1 + 0), w c.2 (c.1 + 1)⟩ : V2 F32) (⟨w c.2 2, w c.2 3⟩ : V2 F32)).list.map .f)]) :=
  all_differ (by kernel_rfl)

theorem C98_vec2_subsub_a_exact [Libm] : ∀ c ∈ ([(1, 0)] : List (Nat × Nat)), let mem : Mem F32 := [⟨true, (List.range 6).map fun i => .f (w c.2 i)⟩, ⟨false, (List.range 2).map fun i => .f (w c.2 (i + 6))⟩]
    C.glm_vec2_subsub.run mem [.p 0 c.1, .p 1 0, .p 0 2] ≠
      some (none, writes mem [((0, 2), (Cglm.glm_vec2_subsub (⟨w c.2 (c.1 + 0), w c.2 (c.1 + 1)⟩ : V2 F32) (⟨w c.2 6, w c.2 7⟩ : V2 F32) (⟨w c.2 2, w c.2 3⟩ : V2 F32)).list.map .f)]) :=
  all_differ (by kernel_rfl)

theorem C98_vec2_subsub_b_exact [Libm] : ∀ c ∈ ([(1, 0)] : List (Nat × Nat)), let mem : Mem F32 := [⟨true, (List.range 6).map fun i => .f (w c.2 i)⟩, ⟨false, (List.range 2).map fun i => .f (w c.2 (i + 6))⟩]
    C.glm_vec2_subsub.run mem [.p 1 0, .p 0 c.1, .p 0 2] ≠
      some (none, writes mem [((0, 2), (Cglm.glm_vec2_subsub (⟨w c.2 6, w c.2 7⟩ : V2 F32) (⟨w c.2 (c.1 + 0), w c.2 (c.1 + 1)⟩ : V2 F32) (⟨w c.2 2, w c.2 3⟩ : V2 F32)).list.map .f)]) :=
  all_differ (by kernel_rfl)

theorem C98_vec2_addsub_a_exact [Libm] : ∀ c ∈ ([(1, 0)] : List (Nat × Nat)), let mem : Mem F32 := [⟨true, (List.range 6).map fun i => .f (w c.2 i)⟩, ⟨false, (List.range 2).map fun i => .f (w c.2 (i + 6))⟩]
    C.glm_vec2_addsub.run mem [.p 0 c.1, .p 1 0, .p 0 2] ≠
      some (none, writes mem [((0, 2), (Cglm.glm_vec2_addsub (⟨w c.2 (c.1 + 0), w c.2 (c.1 + 1)⟩ : V2 F32) (⟨w c.2 6, w c.2 7⟩ : V2 F32) (⟨w c.2 2, w c.2 3⟩ : V2 F32)).list.map .f)]) :=
  all_differ (by kernel_rfl)

theorem C98_vec2_addsub_b_exact [Libm] : ∀ c ∈ ([(1, 0)] : List (Nat × Nat)), let mem : Mem F32 := [⟨true, (List.range 6).map fun i => .f (w c.2 i)⟩, ⟨false, (List.range 2).map fun i => .f (w c.2 (i + 6))⟩]
    C.glm_vec2_addsub.run mem [.p 1 0, .p 0 c.1, .p 0 2] ≠
      some (none, writes mem [((0, 2), (Cglm.glm_vec2_addsub (⟨w c.2 6, w c.2 7⟩ : V2 F32) (⟨w c.2 (c.1 + 0), w c.2 (c.1 + 1)⟩ : V2 F32) (⟨w c.2 2, w c.2 3⟩ : V2 F32)).list.map .f)]) :=
  all_differ (by kernel_rfl)

theorem C98_vec2_mulsub_a_exact [Libm] : ∀ c ∈ ([(1, 0)] : List (Nat × Nat)), let mem : Mem F32 := [⟨true, (List.range 6).map fun i => .f (w c.2 i)⟩, ⟨false, (List.range 2).map fun i => .f (w c.2 (i + 6))⟩]
    C.glm_vec2_mulsub.run mem [.p 0 c.1, .p 1 0, .p 0 2] ≠
      some (none, writes mem [((0, 2), (Cglm.glm_vec2_mulsub (⟨w c.2 (c.1 + 0), w c.2 (c.1 + 1)⟩ : V2 F32) (⟨w c.2 6, w c.2 7⟩ : V2 F32) (⟨w c.2 2, w c.2 3⟩ : V2 F32)).list.map .f)]) :=
  all_differ (by kernel_rfl)

theorem C98_vec2_mulsub_b_exact [Libm] : ∀ c ∈ ([(1, 0)] : List (Nat × Nat)), let mem : Mem F32 := [⟨true, (List.range 6).map fun i => .f (w c.2 i)⟩, ⟨false, (List.range 2).map fun i => .f (w c.2 (i + 6))⟩]
    C.glm_vec2_mulsub.run mem [.p 1 0, .p 0 c.1, .p 0 2] ≠
      some (none, writes mem [((0, 2), (Cglm.glm_vec2_mulsub (⟨w c.2 6, w c.2 7⟩ : V2 F32) (⟨w c.2 (c.1 + 0), w c.2 (c.1 + 1)⟩ : V2 F32) (⟨w c.2 2, w c.2 3⟩ : V2 F32)).list.map .f)]) :=
  all_differ (by kernel_rfl)

theorem C98_vec2_mulsubs_exact [Libm] : ∀ c ∈ ([(1, 0)] : List (Nat × Nat)), let mem : Mem F32 := [⟨true, (List.range 6).map fun i => .f (w c.2 i)⟩]
    C.glm_vec2_mulsubs.run mem [.p 0 c.1, .f (w c.2 6), .p 0 2] ≠
      some (none, writes mem [((0, 2), (Cglm.glm_vec2_mulsubs (⟨w c.2 (c.1 + 0), w c.2 (c.1 + 1)⟩ : V2 F32) (w c.2 6) (⟨w c.2 2, w c.2 3⟩ : V2 F32)).list.map .f)]) :=
  all_differ (by kernel_rfl)

theorem C98_vec2_maxsub_a_exact [Libm] : ∀ c ∈ ([(1, 2)] : List (Nat × Nat)), let mem : Mem F32 := [⟨true, (List.range 6).map fun i => .f (w c.2 i)⟩, ⟨false, (List.range 2).map fun i => .f (w c.2 (i + 6))⟩]
    C.glm_vec2_maxsub.run mem [.p 0 c.1, .p 1 0, .p 0 2] ≠
      some (none, writes mem [((0, 2), (Cglm.glm_vec2_maxsub (⟨w c.2 (c.1 + 0), w c.2 (c.1 + 1)⟩ : V2 F32) (⟨w c.2 6, w c.2 7⟩ : V2 F32) (⟨w c.2 2, w c.2 3⟩ : V2 F32)).list.map .f)]) :=
  all_differ (by kernel_rfl)

theorem C98_vec2_maxsub_b_exact [Libm] : ∀ c ∈ ([(1, 2)] : List (Nat × Nat)), let mem : Mem F32 := [⟨true, (List.range 6).map fun i => .f (w c.2 i)⟩, ⟨false, (List.range 2).map fun i => .f (w c.2 (i + 6))⟩]
    C.glm_vec2_maxsub.run mem [.p 1 0, .p 0 c.1, .p 0 2] ≠
      some (none, writes mem [((0, 2), (Cglm.glm_vec2_maxsub (⟨w c.2 6, w c.2 7⟩ : V2 F32) (⟨w c.2 (c.1 + 0), w c.2 (c.1 + 1)⟩ : V2 F32) (⟨w c.2 2, w c.2 3⟩ : V2 F32)).list.map .f)]) :=
  all_differ (by kernel_rfl)

theorem C98_vec2_minsub_a_exact [Libm] : ∀ c ∈ ([(1, 0)] : List (Nat × Nat)), let mem : Mem F32 := [⟨true, (List.range 6).map fun i => .f (w c.2 i)⟩, ⟨false, (List.range 2).map fun i => .f (w c.2 (i + 6))⟩]
    C.glm_vec2_minsub.run mem [.p 0 c.1, .p 1 0, .p 0 2] ≠
      some (none, writes mem [((0, 2), (Cglm.glm_vec2_minsub (⟨w c.2 (c.1 + 0), w c.2 (c.1 + 1)⟩ : V2 F32) (⟨w c.2 6, w c.2 7⟩ : V2 F32) (⟨w c.2 2, w c.2 3⟩ : V2 F32)).list.map .f)]) :=
  all_differ (by kernel_rfl)

theorem C98_vec2_minsub_b_exact [Libm] : ∀ c ∈ ([(1, 0)] : List (Nat × Nat)), let mem : Mem F32 := [⟨true, (List.range 6).map fun i => .f (w c.2 i)⟩, ⟨false, (List.range 2).map fun i => .f (w c.2 (i + 6))⟩]
    C.glm_vec2_minsub.run mem [.p 1 0, .p 0 c.1, .p 0 2] ≠
      some (none, writes mem [((0, 2), (Cglm.glm_vec2_minsub (⟨w c.2 6, w c.2 7⟩ : V2 F32) (⟨w c.2 (c.1 + 0), w c.2 (c.1 + 1)⟩ : V2 F32) (⟨w c.2 2, w c.2 3⟩ : V2 F32)).list.map .f)]) :=
  all_differ (by kernel_rfl)

theorem C98_vec2_negate_to_exact [Libm] : ∀ c ∈ ([(1, 0)] : List (Nat × Nat)), let mem : Mem F32 := [⟨true, (List.range 6).map fun i => .f (w c.2 i)⟩]
    C.glm_vec2_negate_to.run mem [.p 0 c.1, .p 0 2] ≠
      some (none, writes mem [((0, 2), (Cglm.glm_vec2_negate_to (⟨w c.2 (c.1 + 0), w c.2 (c.1 + 1)⟩ : V2 F32)).list.map .f)]) :=
  all_differ (by kernel_rfl)

theorem C98_vec2_normalize_to_exact [Libm] : ∀ c ∈ ([(1, 0)] : List (Nat × Nat)), let mem : Mem F32 := [⟨true, (List.range 6).map fun i => .f (w c.2 i)⟩]
    C.glm_vec2_normalize_to.run mem [.p 0 c.1, .p 0 2] ≠
      some (none, writes mem [((0, 2), (Cglm.glm_vec2_normalize_to (⟨w c.2 (c.1 + 0), w c.2 (c.1 + 1)⟩ : V2 F32)).list.map .f)]) :=
  all_differ (by kernel_rfl)

theorem C98_vec2_center_a_exact [Libm] : ∀ c ∈ ([(1, 0)] : List (Nat × Nat)), let mem : Mem F32 := [⟨true, (List.range 6).map fun i => .f (w c.2 i)⟩, ⟨false, (List.range 2).map fun i => .f (w c.2 (i + 6))⟩]
    C.glm_vec2_center.run mem [.p 0 c.1, .p 1 0, .p 0 2] ≠
      some (none, writes mem [((0, 2), (Cglm.glm_vec2_center (⟨w c.2 (c.1 + 0), w c.2 (c.1 + 1)⟩ : V2 F32) (⟨w c.2 6, w c.2 7⟩ : V2 F32)).list.map .f)]) :=
  all_differ (by kernel_rfl)

theorem C98_vec2_center_b_exact [Libm] : ∀ c ∈ ([(1, 0)] : List (Nat × Nat)), let mem : Mem F32 := [⟨true, (List.range 6).map fun i => .f (w c.2 i)⟩, ⟨false, (List.range 2).map fun i => .f (w c.2 (i + 6))⟩]
    C.glm_vec2_center.run mem [.p 1 0, .p 0 c.1, .p 0 2] ≠
      some (none, writes mem [((0, 2), (Cglm.glm_vec2_center (⟨w c.2 6, w c.2 7⟩ : V2 F32) (⟨w c.2 (c.1 + 0), w c.2 (c.1 + 1)⟩ : V2 F32)).list.map .f)]) :=
  all_differ (by kernel_rfl)

theorem C98_vec2_maxv_a_exact [Libm] : ∀ c ∈ ([(1, 1)] : List (Nat × Nat)), let mem : Mem F32 := [⟨true, (List.range 6).map fun i => .f (w c.2 i)⟩, ⟨false, (List.range 2).map fun i => .f (w c.2 (i + 6))⟩]
    C.glm_vec2_maxv.run mem [.p 0 c.1, .p 1 0, .p 0 2] ≠
      some (none, writes mem [((0, 2), (Cglm.glm_vec2_maxv (⟨w c.2 (c.1 + 0), w c.2 (c.1 + 1)⟩ : V2 F32) (⟨w c.2 6, w c.2 7⟩ : V2 F32)).list.map .f)]) :=
  all_differ (by kernel_rfl)

theorem C98_vec2_maxv_b_exact [Libm] : ∀ c ∈ ([(1, 1)] : List (Nat × Nat)), let mem : Mem F32 := [⟨true, (List.range 6).map fun i => .f (w c.2 i)⟩, ⟨false, (List.range 2).map fun i => .f (w c.2 (i + 6))⟩]
    C.glm_vec2_maxv.run mem [.p 1 0, .p 0 c.1, .p 0 2] ≠
      some (none, writes mem [((0, 2), (Cglm.glm_vec2_maxv (⟨w c.2 6, w c.2 7⟩ : V2 F32) (⟨w c.2 (c.1 + 0), w c.2 (c.1 + 1)⟩ : V2 F32)).list.map .f)]) :=
  all_differ (by kernel_rfl)

theorem C98_vec2_minv_a_exact [Libm] : ∀ c ∈ ([(1, 0)] : List (Nat × Nat)), let mem : Mem F32 := [⟨true, (List.range 6).map fun i => .f (w c.2 i)⟩, ⟨false, (List.range 2).map fun i => .f (w c.2 (i + 6))⟩]
    C.glm_vec2_minv.run mem [.p 0 c.1, .p 1 0, .p 0 2] ≠
      some (none, writes mem [((0, 2), (Cglm.glm_vec2_minv (⟨w c.2 (c.1 + 0), w c.2 (c.1 + 1)⟩ : V2 F32) (⟨w c.2 6, w c.2 7⟩ : V2 F32)).list.map .f)]) :=
  all_differ (by kernel_rfl)

theorem C98_vec2_minv_b_exact [Libm] : ∀ c ∈ ([(1, 0)] : List (Nat × Nat)), let mem : Mem F32 := [⟨true, (List.range 6).map fun i => .f (w c.2 i)⟩, ⟨false, (List.range 2).map fun i => .f (w c.2 (i + 6))⟩]
    C.glm_vec2_minv.run mem [.p 1 0, .p 0 c.1, .p 0 2] ≠
      some (none, writes mem [((0, 2), (Cglm.glm_vec2_minv (⟨w c.2 6, w c.2 7⟩ : V2 F32) (⟨w c.2 (c.1 + 0), w c.2 (c.1 + 1)⟩ : V2 F32)).list.map .f)]) :=
  all_differ (by kernel_rfl)

theorem C98_vec2_lerp_frm_exact [Libm] : ∀ c ∈ ([(1, 0)] : List (Nat × Nat)), let mem : Mem F32 := [⟨true, (List.range 6).map fun i => .f (w c.2 i)⟩, ⟨false, (List.range 2).map fun i => .f (w c.2 (i + 6))⟩]
    C.glm_vec2_lerp.run mem [.p 0 c.1, .p 1 0, .f (w c.2 8), .p 0 2] ≠
      some (none, writes mem [((0, 2), (Cglm.glm_vec2_lerp (⟨w c.2 (c.1 + 0), w c.2 (c.1 + 1)⟩ : V2 F32) (⟨w c.2 6, w c.2 7⟩ : V2 F32) (w c.2 8)).list.map .f)]) :=
  all_differ (by kernel_rfl)

theorem C98_vec2_step_edge_exact [Libm] : ∀ c ∈ ([(1, 2)] : List (Nat × Nat)), let mem : Mem F32 := [⟨true, (List.range 6).map fun i => .f (w c.2 i)⟩, ⟨false, (List.range 2).map fun i => .f (w c.2 (i + 6))⟩]
    C.glm_vec2_step.run mem [.p 0 c.1, .p 1 0, .p 0 2] ≠
      some (none, writes mem [((0, 2), (Cglm.glm_vec2_step (⟨w c.2 (c.1 + 0), w c.2 (c.1 + 1)⟩ : V2 F32) (⟨w c.2 6, w c.2 7⟩ : V2 F32)).list.map .f)]) :=
  all_differ (by kernel_rfl)

theorem C98_vec2_step_x_exact [Libm] : ∀ c ∈ ([(1, 1)] : List (Nat × Nat)), let mem : Mem F32 := [⟨true, (List.range 6).map fun i => .f (w c.2 i)⟩, ⟨false, (List.range 2).map fun i => .f (w c.2 (i + 6))⟩]
    C.glm_vec2_step.run mem [.p 1 0, .p 0 c.1, .p 0 2] ≠
      some (none, writes mem [((0, 2), (Cglm.glm_vec2_step (⟨w c.2 6, w c.2 7⟩ : V2 F32) (⟨w c.2 (c.1 + 0), w c.2 (c.1 + 1)⟩ : V2 F32)).list.map .f)]) :=
  all_differ (by kernel_rfl)

theorem C98_vec2_make_exact [Libm] : ∀ c ∈ ([(1, 0)] : List (Nat × Nat)), let mem : Mem F32 := [⟨true, (List.range 6).map fun i => .f (w c.2 i)⟩]
    C.glm_vec2_make.run mem [.p 0 c.1, .p 0 2] ≠
      some (none, writes mem [((0, 2), (Cglm.glm_vec2_make (⟨w c.2 (c.1 + 0), w c.2 (c.1 + 1)⟩ : V2 F32)).list.map .f)]) :=
  all_differ (by kernel_rfl)

theorem C98_vec2_reflect_v_exact [Libm] : ∀ c ∈ ([(1, 0)] : List (Nat × Nat)), let mem : Mem F32 := [⟨true, (List.range 6).map fun i => .f (w c.2 i)⟩, ⟨false, (List.range 2).map fun i => .f (w c.2 (i + 6))⟩]
    C.glm_vec2_reflect.run mem [.p 0 c.1, .p 1 0, .p 0 2] ≠
      some (none, writes mem [((0, 2), (Cglm.glm_vec2_reflect (⟨w c.2 (c.1 + 0), w c.2 (c.1 + 1)⟩ : V2 F32) (⟨w c.2 6, w c.2 7⟩ : V2 F32)).list.map .f)]) :=
  all_differ (by kernel_rfl)

theorem C98_vec3_sign_exact [Libm] : ∀ c ∈ ([(1, 2), (2, 1)] : List (Nat × Nat)), let mem : Mem F32 := [⟨true, (List.range 9).map fun i => .f (w c.2 i)⟩]
    C.glm_vec3_sign.run mem [.p 0 c.1, .p 0 3] ≠
      some (none, writes mem [((0, 3), (Cglm.glm_vec3_sign (⟨w c.2 (c.1 + 0), w c.2 (c.1 + 1), w c.2 (c.1 + 2)⟩ : V3 F32)).list.map .f)]) :=
  all_differ (by kernel_rfl)

theorem C98_vec3_abs_exact [Libm] : ∀ c ∈ ([(1, 0), (2, 0)] : List (Nat × Nat)), let mem : Mem F32 := [⟨true, (List.range 9).map fun i => .f (w c.2 i)⟩]
    C.glm_vec3_abs.run mem [.p 0 c.1, .p 0 3] ≠
      some (none, writes mem [((0, 3), (Cglm.glm_vec3_abs (⟨w c.2 (c.1 + 0), w c.2 (c.1 + 1), w c.2 (c.1 + 2)⟩ : V3 F32)).list.map .f)]) :=
  all_differ (by kernel_rfl)

theorem C98_vec3_floor_exact [Libm] : ∀ c ∈ ([(1, 0), (2, 0)] : List (Nat × Nat)), let mem : Mem F32 := [⟨true, (List.range 9).map fun i => .f (w c.2 i)⟩]
    C.glm_vec3_floor.run mem [.p 0 c.1, .p 0 3] ≠
      some (none, writes mem [((0, 3), (Cglm.glm_vec3_floor (⟨w c.2 (c.1 + 0), w c.2 (c.1 + 1), w c.2 (c.1 + 2)⟩ : V3 F32)).list.map .f)]) :=
  all_differ (by kernel_rfl)

theorem C98_vec3_mods_exact [Libm] : ∀ c ∈ ([(1, 0), (2, 0)] : List (Nat × Nat)), let mem : Mem F32 := [⟨true, (List.range 9).map fun i => .f (w c.2 i)⟩]
    C.glm_vec3_mods.run mem [.p 0 c.1, .f (w c.2 9), .p 0 3] ≠
      some (none, writes mem [((0, 3), (Cglm.glm_vec3_mods (⟨w c.2 (c.1 + 0), w c.2 (c.1 + 1), w c.2 (c.1 + 2)⟩ : V3 F32) (w c.2 9)).list.map .f)]) :=
  all_differ (by kernel_rfl)

theorem C98_vec3_steps_exact [Libm] : ∀ c ∈ ([(1, 1), (2, 1)] : List (Nat × Nat)), let mem : Mem F32 := [⟨true, (List.range 9).map fun i => .f (w c.2 i)⟩]
    C.glm_vec3_steps.run mem [.f (w c.2 9), .p 0 c.1, .p 0 3] ≠
      some (none, writes mem [((0, 3), (Cglm.glm_vec3_steps (w c.2 9) (⟨w c.2 (c.1 + 0), w c.2 (c.1 + 1), w c.2 (c.1 + 2)⟩ : V3 F32)).list.map .f)]) :=
  all_differ (by kernel_rfl)

theorem C98_vec3_stepr_exact [Libm] : ∀ c ∈ ([(1, 2), (2, 2)] : List (Nat × Nat)), let mem : Mem F32 := [⟨true, (List.range 9).map fun i => .f (w c.2 i)⟩]
    C.glm_vec3_stepr.run mem [.p 0 c.1, .f (w c.2 9), .p 0 3] ≠
      some (none, writes mem [((0, 3), (Cglm.glm_vec3_stepr (⟨w c.2 (c.1 + 0), w c.2 (c.1 + 1), w c.2 (c.1 + 2)⟩ : V3 F32) (w c.2 9)).list.map .f)]) :=
  all_differ (by kernel_rfl)

theorem C98_vec3_sqrt_exact [Libm] : ∀ c ∈ ([(1, 0), (2, 0)] : List (Nat × Nat)), let mem : Mem F32 := [⟨true, (List.range 9).map fun i => .f (w c.2 i)⟩]
    C.glm_vec3_sqrt.run mem [.p 0 c.1, .p 0 3] ≠
      some (none, writes mem [((0, 3), (Cglm.glm_vec3_sqrt (⟨w c.2 (c.1 + 0), w c.2 (c.1 + 1), w c.2 (c.1 + 2)⟩ : V3 F32)).list.map .f)]) :=
  all_differ (by kernel_rfl)

theorem C98_vec4_sign_exact [Libm] : ∀ c ∈ ([(1, 1), (2, 1), (3, 1)] : List (Nat × Nat)), let mem : Mem F32 := [⟨true, (List.range 12).map fun i => .f (w c.2 i)⟩]
    C.glm_vec4_sign.run mem [.p 0 c.1, .p 0 4] ≠
      some (none, writes mem [((0, 4), (Cglm.glm_vec4_sign (⟨w c.2 (c.1 + 0), w c.2 (c.1 + 1), w c.2 (c.1 + 2), w c.2 (c.1 + 3)⟩ : V4 F32)).list.map .f)]) :=
  all_differ (by kernel_rfl)

theorem C98_vec4_abs_exact [Libm] : ∀ c ∈ ([(1, 0), (2, 0), (3, 0)] : List (Nat × Nat)), let mem : Mem F32 := [⟨true, (List.range 12).map fun i => .f (w c.2 i)⟩]
    C.glm_vec4_abs.run mem [.p 0 c.1, .p 0 4] ≠
      some (none, writes mem [((0, 4), (Cglm.glm_vec4_abs (⟨w c.2 (c.1 + 0), w c.2 (c.1 + 1), w c.2 (c.1 + 2), w c.2 (c.1 + 3)⟩ : V4 F32)).list.map .f)]) :=
  all_differ (by kernel_rfl)

theorem C98_vec4_floor_exact [Libm] : ∀ c ∈ ([(1, 0), (2, 0), (3, 0)] : List (Nat × Nat)), let mem : Mem F32 := [⟨true, (List.range 12).map fun i => .f (w c.2 i)⟩]
    C.glm_vec4_floor.run mem [.p 0 c.1, .p 0 4] ≠
      some (none, writes mem [((0, 4), (Cglm.glm_vec4_floor (⟨w c.2 (c.1 + 0), w c.2 (c.1 + 1), w c.2 (c.1 + 2), w c.2 (c.1 + 3)⟩ : V4 F32)).list.map .f)]) :=
  all_differ (by kernel_rfl)

theorem C98_vec4_mods_exact [Libm] : ∀ c ∈ ([(1, 0), (2, 0), (3, 0)] : List (Nat × Nat)), let mem : Mem F32 := [⟨true, (List.range 12).map fun i => .f (w c.2 i)⟩]
    C.glm_vec4_mods.run mem [.p 0 c.1, .f (w c.2 12), .p 0 4] ≠
      some (none, writes mem [((0, 4), (Cglm.glm_vec4_mods (⟨w c.2 (c.1 + 0), w c.2 (c.1 + 1), w c.2 (c.1 + 2), w c.2 (c.1 + 3)⟩ : V4 F32) (w c.2 12)).list.map .f)]) :=
  all_differ (by kernel_rfl)

theorem C98_vec4_steps_exact [Libm] : ∀ c ∈ ([(1, 4), (2, 3), (3, 3)] : List (Nat × Nat)), let mem : Mem F32 := [⟨true, (List.range 12).map fun i => .f (w c.2 i)⟩]
    C.glm_vec4_steps.run mem [.f (w c.2 12), .p 0 c.1, .p 0 4] ≠
      some (none, writes mem [((0, 4), (Cglm.glm_vec4_steps (w c.2 12) (⟨w c.2 (c.1 + 0), w c.2 (c.1 + 1), w c.2 (c.1 + 2), w c.2 (c.1 + 3)⟩ : V4 F32)).list.map .f)]) :=
  all_differ (by kernel_rfl)

theorem C98_vec4_stepr_exact [Libm] : ∀ c ∈ ([(1, 4), (2, 3), (3, 3)] : List (Nat × Nat)), let mem : Mem F32 := [⟨true, (List.range 12).map fun i => .f (w c.2 i)⟩]
    C.glm_vec4_stepr.run mem [.p 0 c.1, .f (w c.2 12), .p 0 4] ≠
      some (none, writes mem [((0, 4), (Cglm.glm_vec4_stepr (⟨w c.2 (c.1 + 0), w c.2 (c.1 + 1), w c.2 (c.1 + 2), w c.2 (c.1 + 3)⟩ : V4 F32) (w c.2 12)).list.map .f)]) :=
  all_differ (by kernel_rfl)

theorem C98_vec4_sqrt_exact [Libm] : ∀ c ∈ ([(1, 0), (2, 0), (3, 0)] : List (Nat × Nat)), let mem : Mem F32 := [⟨true, (List.range 12).map fun i => .f (w c.2 i)⟩]
    C.glm_vec4_sqrt.run mem [.p 0 c.1, .p 0 4] ≠
      some (none, writes mem [((0, 4), (Cglm.glm_vec4_sqrt (⟨w c.2 (c.1 + 0), w c.2 (c.1 + 1), w c.2 (c.1 + 2), w c.2 (c.1 + 3)⟩ : V4 F32)).list.map .f)]) :=
  all_differ (by kernel_rfl)

theorem C98_vec4_exact [Libm] : ∀ c ∈ ([(1, 0), (2, 0)] : List (Nat × Nat)), let mem : Mem F32 := [⟨true, (List.range 10).map fun i => .f (w c.2 i)⟩]
    C.glm_vec4.run mem [.p 0 c.1, .f (w c.2 10), .p 0 3] ≠
      some (none, writes mem [((0, 3), (Cglm.glm_vec4 (⟨w c.2 (c.1 + 0), w c.2 (c.1 + 1), w c.2 (c.1 + 2)⟩ : V3 F32) (w c.2 10)).list.map .f)]) :=
  all_differ (by kernel_rfl)

theorem C98_vec4_copy3_wrong [Libm] : ∀ c ∈ ([(2, 0), (3, 0)] : List (Nat × Nat)), let mem : Mem F32 := [⟨true, (List.range 11).map fun i => .f (w c.2 i)⟩]
    C.glm_vec4_copy3.run mem [.p 0 c.1, .p 0 4] ≠
      some (none, writes mem [((0, 4), (Cglm.glm_vec4_copy3 (⟨w c.2 (c.1 + 0), w c.2 (c.1 + 1), w c.2 (c.1 + 2), w c.2 (c.1 + 3)⟩ : V4 F32)).list.map .f)]) :=
  all_differ (by kernel_rfl)

theorem C98_vec4_copy_exact [Libm] : ∀ c ∈ ([(1, 0), (2, 0), (3, 0)] : List (Nat × Nat)), let mem : Mem F32 := [⟨true, (List.range 12).map fun i => .f (w c.2 i)⟩]
    C.glm_vec4_copy.run mem [.p 0 c.1, .p 0 4] ≠
      some (none, writes mem [((0, 4), (Cglm.glm_vec4_copy (⟨w c.2 (c.1 + 0), w c.2 (c.1 + 1), w c.2 (c.1 + 2), w c.2 (c.1 + 3)⟩ : V4 F32)).list.map .f)]) :=
  all_differ (by kernel_rfl)

theorem C98_vec4_ucopy_exact [Libm] : ∀ c ∈ ([(1, 0), (2, 0), (3, 0)] : List (Nat × Nat)), let mem : Mem F32 := [⟨true, (List.range 12).map fun i => .f (w c.2 i)⟩]
    C.glm_vec4_ucopy.run mem [.p 0 c.1, .p 0 4] ≠
      some (none, writes mem [((0, 4), (Cglm.glm_vec4_ucopy (⟨w c.2 (c.1 + 0), w c.2 (c.1 + 1), w c.2 (c.1 + 2), w c.2 (c.1 + 3)⟩ : V4 F32)).list.map .f)]) :=
  all_differ (by kernel_rfl)

theorem C98_vec4_add_a_exact [Libm] : ∀ c ∈ ([(1, 0), (2, 0), (3, 0)] : List (Nat × Nat)), let mem : Mem F32 := [⟨true, (List.range 12).map fun i => .f (w c.2 i)⟩, ⟨false, (List.range 4).map fun i => .f (w c.2 (i + 12))⟩]
    C.glm_vec4_add.run mem [.p 0 c.1, .p 1 0, .p 0 4] ≠
      some (none, writes mem [((0, 4), (Cglm.glm_vec4_add (⟨w c.2 (c.1 + 0), w c.2 (c.1 + 1), w c.2 (c.1 + 2), w c.2 (c.1 + 3)⟩ : V4 F32) (⟨w c.2 12, w c.2 13, w c.2 14, w c.2 15⟩ : V4 F32)).list.map .f)]) :=
  all_differ (by kernel_rfl)

theorem C98_vec4_add_b_exact [Libm] : ∀ c ∈ ([(1, 0), (2, 0), (3, 0)] : List (Nat × Nat)), let mem : Mem F32 := [⟨true, (List.range 12).map fun i => .f (w c.2 i)⟩, ⟨false, (List.range 4).map fun i => .f (w c.2 (i + 12))⟩]
    C.glm_vec4_add.run mem [.p 1 0, .p 0 c.1, .p 0 4] ≠
      some (none, writes mem [((0, 4), (Cglm.glm_vec4_add (⟨w c.2 12, w c.2 13, w c.2 14, w c.2 15⟩ : V4 F32) (⟨w c.2 (c.1 + 0), w c.2 (c.1 + 1), w c.2 (c.1 + 2), w c.2 (c.1 + 3)⟩ : V4 F32)).list.map .f)]) :=
  all_differ (by kernel_rfl)

theorem C98_vec4_adds_exact [Libm] : ∀ c ∈ ([(1, 0), (2, 0), (3, 0)] : List (Nat × Nat)), let mem : Mem F32 := [⟨true, (List.range 12).map fun i => .f (w c.2 i)⟩]
    C.glm_vec4_adds.run mem [.p 0 c.1, .f (w c.2 12), .p 0 4] ≠
      some (none, writes mem [((0, 4), (Cglm.glm_vec4_adds (⟨w c.2 (c.1 + 0), w c.2 (c.1 + 1), w c.2 (c.1 + 2), w c.2 (c.1 + 3)⟩ : V4 F32) (w c.2 12)).list.map .f)]) :=
  all_differ (by kernel_rfl)

theorem C98_vec4_sub_a_exact [Libm] : ∀ c ∈ ([(1, 0), (2, 0), (3, 0)] : List (Nat × Nat)), let mem : Mem F32 := [⟨true, (List.range 12).map fun i => .f (w c.2 i)⟩, ⟨false, (List.range 4).map fun i => .f (w c.2 (i + 12))⟩]
    C.glm_vec4_sub.run mem [.p 0 c.1, .p 1 0, .p 0 4] ≠
      some (none, writes mem [((0, 4), (Cglm.glm_vec4_sub (⟨w c.2 (c.1 + 0), w c.2 (c.1 + 1), w c.2 (c.1 + 2), w c.2 (c.1 + 3)⟩ : V4 F32) (⟨w c.2 12, w c.2 13, w c.2 14, w c.2 15⟩ : V4 F32)).list.map .f)]) :=
  all_differ (by kernel_rfl)

theorem C98_vec4_sub_b_exact [Libm] : ∀ c ∈ ([(1, 0), (2, 0), (3, 0)] : List (Nat × Nat)), let mem : Mem F32 := [⟨true, (List.range 12).map fun i => .f (w c.2 i)⟩, ⟨false, (List.range 4).map fun i => .f (w c.2 (i + 12))⟩]
    C.glm_vec4_sub.run mem [.p 1 0, .p 0 c.1, .p 0 4] ≠
      some (none, writes mem [((0, 4), (Cglm.glm_vec4_sub (⟨w c.2 12, w c.2 13, w c.2 14, w c.2 15⟩ : V4 F32) (⟨w c.2 (c.1 + 0), w c.2 (c.1 + 1), w c.2 (c.1 + 2), w c.2 (c.1 + 3)⟩ : V4 F32)).list.map .f)]) :=
  all_differ (by kernel_rfl)

theorem C98_vec4_subs_exact [Libm] : ∀ c ∈ ([(1, 0), (2, 0), (3, 0)] : List (Nat × Nat)), let mem : Mem F32 := [⟨true, (List.range 12).map fun i => .f (w c.2 i)⟩]
    C.glm_vec4_subs.run mem [.p 0 c.1, .f (w c.2 12), .p 0 4] ≠
      some (none, writes mem [((0, 4), (Cglm.glm_vec4_subs (⟨w c.2 (c.1 + 0), w c.2 (c.1 + 1), w c.2 (c.1 + 2), w c.2 (c.1 + 3)⟩ : V4 F32) (w c.2 12)).list.map .f)]) :=
  all_differ (by kernel_rfl)

theorem C98_vec4_mul_a_exact [Libm] : ∀ c ∈ ([(1, 0), (2, 0), (3, 0)] : List (Nat × Nat)), let mem : Mem F32 := [⟨true, (List.range 12).map fun i => .f (w c.2 i)⟩, ⟨false, (List.range 4).map fun i => .f (w c.2 (i + 12))⟩]
    C.glm_vec4_mul.run mem [.p 0 c.1, .p 1 0, .p 0 4] ≠
      some (none, writes mem [((0, 4), (Cglm.glm_vec4_mul (⟨w c.2 (c.1 + 0), w c.2 (c.1 + 1), w c.2 (c.1 + 2), w c.2 (c.1 + 3)⟩ : V4 F32) (⟨w c.2 12, w c.2 13, w c.2 14, w c.2 15⟩ : V4 F32)).list.map .f)]) :=
  all_differ (by kernel_rfl)

theorem C98_vec4_mul_b_exact [Libm] : ∀ c ∈ ([(1, 0), (2, 0), (3, 0)] : List (Nat × Nat)), let mem : Mem F32 := [⟨true, (List.range 12).map fun i => .f (w c.2 i)⟩, ⟨false, (List.range 4).map fun i => .f (w c.2 (i + 12))⟩]
    C.glm_vec4_mul.run mem [.p 1 0, .p 0 c.1, .p 0 4] ≠
      some (none, writes mem [((0, 4), (Cglm.glm_vec4_mul (⟨w c.2 12, w c.2 13, w c.2 14, w c.2 15⟩ : V4 F32) (⟨w c.2 (c.1 + 0), w c.2 (c.1 + 1), w c.2 (c.1 + 2), w c.2 (c.1 + 3)⟩ : V4 F32)).list.map .f)]) :=
  all_differ (by kernel_rfl)

theorem C98_vec4_scale_exact [Libm] : ∀ c ∈ ([(1, 0), (2, 0), (3, 0)] : List (Nat × Nat)), let mem : Mem F32 := [⟨true, (List.range 12).map fun i => .f (w c.2 i)⟩]
    C.glm_vec4_scale.run mem [.p 0 c.1, .f (w c.2 12), .p 0 4] ≠
      some (none, writes mem [((0, 4), (Cglm.glm_vec4_scale (⟨w c.2 (c.1 + 0), w c.2 (c.1 + 1), w c.2 (c.1 + 2), w c.2 (c.1 + 3)⟩ : V4 F32) (w c.2 12)).list.map .f)]) :=
  all_differ (by kernel_rfl)

theorem C98_vec4_scale_as_exact [Libm] : ∀ c ∈ ([(1, 0), (2, 0), (3, 0)] : List (Nat × Nat)), let mem : Mem F32 := [⟨true, (List.range 12).map fun i => .f (w c.2 i)⟩]
    C.glm_vec4_scale_as.run mem [.p 0 c.1, .f (w c.2 12), .p 0 4] ≠
      some (none, writes mem [((0, 4), (Cglm.glm_vec4_scale_as (⟨w c.2 (c.1 + 0), w c.2 (c.1 + 1), w c.2 (c.1 + 2), w c.2 (c.1 + 3)⟩ : V4 F32) (w c.2 12)).list.map .f)]) :=
  all_differ (by kernel_rfl)

theorem C98_vec4_div_a_exact [Libm] : ∀ c ∈ ([(1, 0), (2, 0), (3, 0)] : List (Nat × Nat)), let mem : Mem F32 := [⟨true, (List.range 12).map fun i => .f (w c.2 i)⟩, ⟨false, (List.range 4).map fun i => .f (w c.2 (i + 12))⟩]
    C.glm_vec4_div.run mem [.p 0 c.1, .p 1 0, .p 0 4] ≠
      some (none, writes mem [((0, 4), (Cglm.glm_vec4_div (⟨w c.2 (c.1 + 0), w c.2 (c.1 + 1), w c.2 (c.1 + 2), w c.2 (c.1 + 3)⟩ : V4 F32) (⟨w c.2 12, w c.2 13, w c.2 14, w c.2 15⟩ : V4 F32)).list.map .f)]) :=
  all_differ (by kernel_rfl)

theorem C98_vec4_div_b_exact [Libm] : ∀ c ∈ ([(1, 0), (2, 0), (3, 0)] : List (Nat × Nat)), let mem : Mem F32 := [⟨true, (List.range 12).map fun i => .f (w c.2 i)⟩, ⟨false, (List.range 4).map fun i => .f (w c.2 (i + 12))⟩]
    C.glm_vec4_div.run mem [.p 1 0, .p 0 c.1, .p 0 4] ≠
      some (none, writes mem [((0, 4), (Cglm.glm_vec4_div (⟨w c.2 12, w c.2 13, w c.2 14, w c.2 15⟩ : V4 F32) (⟨w c.2 (c.1 + 0), w c.2 (c.1 + 1), w c.2 (c.1 + 2), w c.2 (c.1 + 3)⟩ : V4 F32)).list.map .f)]) :=
  all_differ (by kernel_rfl)

theorem C98_vec4_divs_exact [Libm] : ∀ c ∈ ([(1, 0), (2, 0), (3, 0)] : List (Nat × Nat)), let mem : Mem F32 := [⟨true, (List.range 12).map fun i => .f (w c.2 i)⟩]
    C.glm_vec4_divs.run mem [.p 0 c.1, .f (w c.2 12), .p 0 4] ≠
      some (none, writes mem [((0, 4), (Cglm.glm_vec4_divs (⟨w c.2 (c.1 + 0), w c.2 (c.1 + 1), w c.2 (c.1 + 2), w c.2 (c.1 + 3)⟩ : V4 F32) (w c.2 12)).list.map .f)]) :=
  all_differ (by kernel_rfl)

theorem C98_vec4_addadd_a_exact [Libm] : ∀ c ∈ ([(1, 0), (2, 0), (3, 0)] : List (Nat × Nat)), let mem : Mem F32 := [⟨true, (List.range 12).map fun i => .f (w c.2 i)⟩, ⟨false, (List.range 4).map fun i => .f (w c.2 (i + 12))⟩]
    C.glm_vec4_addadd.run mem [.p 0 c.1, .p 1 0, .p 0 4] ≠
      some (none, writes mem [((0, 4), (Cglm.glm_vec4_addadd (⟨w c.2 (c.1 + 0), w c.2 (c.1 + 1), w c.2 (c.1 + 2), w c.2 (c.1 + 3)⟩ : V4 F32) (⟨w c.2 12, w c.2 13, w c.2 14, w c.2 15⟩ : V4 F32) (⟨w c.2 4, w c.2 5, w c.2 6, w c.2 7⟩ : V4 F32)).list.map .f)]) :=
  all_differ (by kernel_rfl)

theorem C98_vec4_addadd_b_exact [Libm] : ∀ c ∈ ([(1, 0), (2, 0), (3, 0)] : List (Nat × Nat)), let mem : Mem F32 := [⟨true, (List.range 12).map fun i => .f (w c.2 i)⟩, ⟨false, (List.range 4).map fun i => .f (w c.2 (i + 12))⟩]
    C.glm_vec4_addadd.run mem [.p 1 0, .p 0 c.1, .p 0 4] ≠
      some (none, writes mem [((0, 4), (Cglm.glm_vec4_addadd (⟨w c.2 12, w c.2 13, w c.2 14, w c.2 15⟩ : V4 F32) (⟨w c.2 (c.1 + 0), w c.2 (c.1 + 1), w c.2 (c.1 + 2), w c.2 (c.1 + 3)⟩ : V4 F32) (⟨w c.2 4, w c.2 5, w c.2 6, w c.2 7⟩ : V4 F32)).list.map .f)]) :=
  all_differ (by kernel_rfl)

theorem C98_vec4_subadd_a_exact [Libm] : ∀ c ∈ ([(1, 0), (2, 0), (3, 0)] : List (Nat × Nat)), let mem : Mem F32 := [⟨true, (List.range 12).map fun i => .f (w c.2 i)⟩, ⟨false, (List.range 4).map fun i => .f (w c.2 (i + 12))⟩]
    C.glm_vec4_subadd.run mem [.p 0 c.1, .p 1 0, .p 0 4] ≠
      some (none, writes mem [((0, 4), (Cglm.glm_vec4_subadd (⟨w c.2 (c.1 + 0), w c.2 (c.1 + 1), w c.2 (c.1 + 2), w c.2 (c.1 + 3)⟩ : V4 F32) (⟨w c.2 12, w c.2 13, w c.2 14, w c.2 15⟩ : V4 F32) (⟨w c.2 4, w c.2 5, w c.2 6, w c.2 7⟩ : V4 F32)).list.map .f)]) :=
  all_differ (by kernel_rfl)

theorem C98_vec4_subadd_b_exact [Libm] : ∀ c ∈ ([(1, 0), (2, 0), (3, 0)] : List (Nat × Nat)), let mem : Mem F32 := [⟨true, (List.range 12).map fun i => .f (w c.2 i)⟩, ⟨false, (List.range 4).map fun i => .f (w c.2 (i + 12))⟩]
    C.glm_vec4_subadd.run mem [.p 1 0, .p 0 c.1, .p 0 4] ≠
      some (none, writes mem [((0, 4), (Cglm.glm_vec4_subadd (⟨w c.2 12, w c.2 13, w c.2 14, w c.2 15⟩ : V4 F32) (⟨w c.2 (c.1 + 0), w c.2 (c.1 + 1), w c.2 (c.1 + 2), w c.2 (c.1 + 3)⟩ : V4 F32) (⟨w c.2 4, w c.2 5, w c.2 6, w c.2 7⟩ : V4 F32)).list.map .f)]) :=
  all_differ (by kernel_rfl)

theorem C98_vec4_muladd_a_exact [Libm] : ∀ c ∈ ([(1, 0), (2, 0), (3, 0)] : List (Nat × Nat)), let mem : Mem F32 := [⟨true, (List.range 12).map fun i => .f (w c.2 i)⟩, ⟨false, (List.range 4).map fun i => .f (w c.2 (i + 12))⟩]
    C.glm_vec4_muladd.run mem [.p 0 c.1, .p 1 0, .p 0 4] ≠
      some (none, writes mem [((0, 4), (Cglm.glm_vec4_muladd (⟨w c.2 (c.1 + 0), w c.2 (c.1 + 1), w c.2 (c.1 + 2), w c.2 (c.1 + 3)⟩ : V4 F32) (⟨w c.2 12, w c.2 13, w c.2 14, w c.2 15⟩ : V4 F32) (⟨w c.2 4, w c.2 5, w c.2 6, w c.2 7⟩ : V4 F32)).list.map .f)]) :=
  all_differ (by kernel_rfl)

theorem C98_vec4_muladd_b_exact [Libm] : ∀ c ∈ ([(1, 0), (2, 0), (3, 0)] : List (Nat × Nat)), let mem : Mem F32 := [⟨true, (List.range 12).map fun i => .f (w c.2 i)⟩, ⟨false, (List.range 4).map fun i => .f (w c.2 (i + 12))⟩]
    C.glm_vec4_muladd.run mem [.p 1 0, .p 0 c.1, .p 0 4] ≠
      some (none, writes mem [((0, 4), (Cglm.glm_vec4_muladd (⟨w c.2 12, w c.2 13, w c.2 14, w c.2 15⟩ : V4 F32) (⟨w c.2 (c.1 + 0), w c.2 (c.1 + 1), w c.2 (c.1 + 2), w c.2 (c.1 + 3)⟩ : V4 F32) (⟨w c.2 4, w c.2 5, w c.2 6, w c.2 7⟩ : V4 F32)).list.map .f)]) :=
  all_differ (by kernel_rfl)

theorem C98_vec4_muladds_exact [Libm] : ∀ c ∈ ([(1, 0), (2, 0), (3, 0)] : List (Nat × Nat)), let mem : Mem F32 := [⟨true, (List.range 12).map fun i => .f (w c.2 i)⟩]
    C.glm_vec4_muladds.run mem [.p 0 c.1, .f (w c.2 12), .p 0 4] ≠
      some (none, writes mem [((0, 4), (Cglm.glm_vec4_muladds (⟨w c.2 (c.1 + 0), w c.2 (c.1 + 1), w c.2 (c.1 + 2), w c.2 (c.1 + 3)⟩ : V4 F32) (w c.2 12) (⟨w c.2 4, w c.2 5, w c.2 6, w c.2 7⟩ : V4 F32)).list.map .f)]) :=
  all_differ (by kernel_rfl)

theorem C98_vec4_maxadd_a_exact [Libm] : ∀ c ∈ ([(1, 2), (2, 1), (3, 0)] : List (Nat × Nat)), let mem : Mem F32 := [⟨true, (List.range 12).map fun i => .f (w c.2 i)⟩, ⟨false, (List.range 4).map fun i => .f (w c.2 (i + 12))⟩]
    C.glm_vec4_maxadd.run mem [.p 0 c.1, .p 1 0, .p 0 4] ≠
      some (none, writes mem [((0, 4), (Cglm.glm_vec4_maxadd (⟨w c.2 (c.1 + 0), w c.2 (c.1 + 1), w c.2 (c.1 + 2), w c.2 (c.1 + 3)⟩ : V4 F32) (⟨w c.2 12, w c.2 13, w c.2 14, w c.2 15⟩ : V4 F32) (⟨w c.2 4, w c.2 5, w c.2 6, w c.2 7⟩ : V4 F32)).list.map .f)]) :=
  all_differ (by kernel_rfl)

theorem C98_vec4_maxadd_b_exact [Libm] : ∀ c ∈ ([(1, 2), (2, 1), (3, 0)] : List (Nat × Nat)), let mem : Mem F32 := [⟨true, (List.range 12).map fun i => .f (w c.2 i)⟩, ⟨false, (List.range 4).map fun i => .f (w c.2 (i + 12))⟩]
    C.glm_vec4_maxadd.run mem [.p 1 0, .p 0 c.1, .p 0 4] ≠
      some (none, writes mem [((0, 4), (Cglm.glm_vec4_maxadd (⟨w c.2 12, w c.2 13, w c.2 14, w c.2 15⟩ : V4 F32) (⟨w c.2 (c.1 + 0), w c.2 (c.1 + 1), w c.2 (c.1 + 2), w c.2 (c.1 + 3)⟩ : V4 F32) (⟨w c.2 4, w c.2 5, w c.2 6, w c.2 7⟩ : V4 F32)).list.map .f)]) :=
  all_differ (by kernel_rfl)

theorem C98_vec4_minadd_a_exact [Libm] : ∀ c ∈ ([(1, 0), (2, 0), (3, 0)] : List (Nat × Nat)), let mem : Mem F32 := [⟨true, (List.range 12).map fun i => .f (w c.2 i)⟩, ⟨false, (List.range 4).map fun i => .f (w c.2 (i + 12))⟩]
    C.glm_vec4_minadd.run mem [.p 0 c.1, .p 1 0, .p 0 4] ≠
      some (none, writes mem [((0, 4), (Cglm.glm_vec4_minadd (⟨w c.2 (c.1 + 0), w c.2 (c.1 + 1), w c.2 (c.1 + 2), w c.2 (c.1 + 3)⟩ : V4 F32) (⟨w c.2 12, w c.2 13, w c.2 14, w c.2 15⟩ : V4 F32) (⟨w c.2 4, w c.2 5, w c.2 6, w c.2 7⟩ : V4 F32)).list.map .f)]) :=
  all_differ (by kernel_rfl)

theorem C98_vec4_minadd_b_exact [Libm] : ∀ c ∈ ([(1, 0), (2, 0), (3, 0)] : List (Nat × Nat)), let mem : Mem F32 := [⟨true, (List.range 12).map fun i => .f (w c.2 i)⟩, ⟨false, (List.range 4).map fun i => .f (w c.2 (i + 12))⟩]
    C.glm_vec4_minadd.run mem [.p 1 0, .p 0 c.1, .p 0 4] ≠
      some (none, writes mem [((0, 4), (Cglm.glm_vec4_minadd (⟨w c.2 12, w c.2 13, w c.2 14, w c.2 15⟩ : V4 F32) (⟨w c.2 (c.1 + 0), w c.2 (c.1 + 1), w c.2 (c.1 + 2), w c.2 (c.1 + 3)⟩ : V4 F32) (⟨w c.2 4, w c.2 5, w c.2 6, w c.2 7⟩ : V4 F32)).list.map .f)]) :=
  all_differ (by kernel_rfl)

theorem C98_vec4_subsub_a_exact [Libm] : ∀ c ∈ ([(1, 0), (2, 0), (3, 0)] : List (Nat × Nat)), let mem : Mem F32 := [⟨true, (List.range 12).map fun i => .f (w c.2 i)⟩, ⟨false, (List.range 4).map fun i => .f (w c.2 (i + 12))⟩]
    C.glm_vec4_subsub.run mem [.p 0 c.1, .p 1 0, .p 0 4] ≠
      some (none, writes mem [((0, 4), (Cglm.glm_vec4_subsub (⟨w c.2 (c.1 + 0), w c.2 (c.1 + 1), w c.2 (c.1 + 2), w c.2 (c.1 + 3)⟩ : V4 F32) (⟨w c.2 12, w c.2 13, w c.2 14, w c.2 15⟩ : V4 F32) (⟨w c.2 4, w c.2 5, w c.2 6, w c.2 7⟩ : V4 F32)).list.map .f)]) :=
  all_differ (by kernel_rfl)

theorem C98_vec4_subsub_b_exact [Libm] : ∀ c ∈ ([(1, 0), (2, 0), (3, 0)] : List (Nat × Nat)), let mem : Mem F32 := [⟨true, (List.range 12).map fun i => .f (w c.2 i)⟩, ⟨false, (List.range 4).map fun i => .f (w c.2 (i + 12))⟩]
    C.glm_vec4_subsub.run mem [.p 1 0, .p 0 c.1, .p 0 4] ≠
      some (none, writes mem [((0, 4), (Cglm.glm_vec4_subsub (⟨w c.2 12, w c.2 13, w c.2 14, w c.2 15⟩ : V4 F32) (⟨w c.2 (c.1 + 0), w c.2 (c.1 + 1), w c.2 (c.1 + 2), w c.2 (c.1 + 3)⟩ : V4 F32) (⟨w c.2 4, w c.2 5, w c.2 6, w c.2 7⟩ : V4 F32)).list.map .f)]) :=
  all_differ (by kernel_rfl)

theorem C98_vec4_addsub_a_exact [Libm] : ∀ c ∈ ([(1, 0), (2, 0), (3, 0)] : List (Nat × Nat)), let mem : Mem F32 := [⟨true, (List.range 12).map fun i => .f (w c.2 i)⟩, ⟨false, (List.range 4).map fun i => .f (w c.2 (i + 12))⟩]
    C.glm_vec4_addsub.run mem [.p 0 c.1, .p 1 0, .p 0 4] ≠
      some (none, writes mem [((0, 4), (Cglm.glm_vec4_addsub (⟨w c.2 (c.1 + 0), w c.2 (c.1 + 1), w c.2 (c.1 + 2), w c.2 (c.1 + 3)⟩ : V4 F32) (⟨w c.2 12, w c.2 13, w c.2 14, w c.2 15⟩ : V4 F32) (⟨w c.2 4, w c.2 5, w c.2 6, w c.2 7⟩ : V4 F32)).list.map .f)]) :=
  all_differ (by kernel_rfl)

theorem C98_vec4_addsub_b_exact [Libm] : ∀ c ∈ ([(1, 0), (2, 0), (3, 0)] : List (Nat × Nat)), let mem : Mem F32 := [⟨true, (List.range 12).map fun i => .f (w c.2 i)⟩, ⟨false, (List.range 4).map fun i => .f (w c.2 (i + 12))⟩]
    C.glm_vec4_addsub.run mem [.p 1 0, .p 0 c.1, .p 0 4] ≠
      some (none, writes mem [((0, 4), (Cglm.glm_vec4_addsub (⟨w c.2 12, w c.2 13, w c.2 14, w c.2 15⟩ : V4 F32) (⟨w c.2 (c.1 + 0), w c.2 (c.1 + 1), w c.2 (c.1 + 2), w c.2 (c.1 + 3)⟩ : V4 F32) (⟨w c.2 4, w c.2 5, w c.2 6, w c.2 7⟩ : V4 F32)).list.map .f)]) :=
  all_differ (by kernel_rfl)

theorem C98_vec4_mulsub_a_exact [Libm] : ∀ c ∈ ([(1, 0), (2, 0), (3, 0)] : List (Nat × Nat)), let mem : Mem F32 := [⟨true, (List.range 12).map fun i => .f (w c.2 i)⟩, ⟨false, (List.range 4).map fun i => .f (w c.2 (i + 12))⟩]
    C.glm_vec4_mulsub.run mem [.p 0 c.1, .p 1 0, .p 0 4] ≠
      some (none, writes mem [((0, 4), (Cglm.glm_vec4_mulsub (⟨w c.2 (c.1 + 0), w c.2 (c.1 + 1), w c.2 (c.1 + 2), w c.2 (c.1 + 3)⟩ : V4 F32) (⟨w c.2 12, w c.2 13, w c.2 14, w c.2 15⟩ : V4 F32) (⟨w c.2 4, w c.2 5, w c.2 6, w c.2 7⟩ : V4 F32)).list.map .f)]) :=
  all_differ (by kernel_rfl)

theorem C98_vec4_mulsub_b_exact [Libm] : ∀ c ∈ ([(1, 0), (2, 0), (3, 0)] : List (Nat × Nat)), let mem : Mem F32 := [⟨true, (List.range 12).map fun i => .f (w c.2 i)⟩, ⟨false, (List.range 4).map fun i => .f (w c.2 (i + 12))⟩]
    C.glm_vec4_mulsub.run mem [.p 1 0, .p 0 c.1, .p 0 4] ≠
      some (none, writes mem [((0, 4), (Cglm.glm_vec4_mulsub (⟨w c.2 12, w c.2 13, w c.2 14, w c.2 15⟩ : V4 F32) (⟨w c.2 (c.1 + 0), w c.2 (c.1 + 1), w c.2 (c.1 + 2), w c.2 (c.1 + 3)⟩ : V4 F32) (⟨w c.2 4, w c.2 5, w c.2 6, w c.2 7⟩ : V4 F32)).list.map .f)]) :=
  all_differ (by kernel_rfl)

theorem C98_vec4_mulsubs_exact [Libm] : ∀ c ∈ ([(1, 0), (2, 0), (3, 0)] : List (Nat × Nat)), let mem : Mem F32 := [⟨true, (List.range 12).map fun i => .f (w c.2 i)⟩]
    C.glm_vec4_mulsubs.run mem [.p 0 c.1, .f (w c.2 12), .p 0 4] ≠
      some (none, writes mem [((0, 4), (Cglm.glm_vec4_mulsubs (⟨w c.2 (c.1 + 0), w c.2 (c.1 + 1), w c.2 (c.1 + 2), w c.2 (c.1 + 3)⟩ : V4 F32) (w c.2 12) (⟨w c.2 4, w c.2 5, w c.2 6, w c.2 7⟩ : V4 F32)).list.map .f)]) :=
  all_differ (by kernel_rfl)

theorem C98_vec4_maxsub_a_exact [Libm] : ∀ c ∈ ([(1, 2), (2, 1), (3, 1)] : List (Nat × Nat)), let mem : Mem F32 := [⟨true, (List.range 12).map fun i => .f (w c.2 i)⟩, ⟨false, (List.range 4).map fun i => .f (w c.2 (i + 12))⟩]
    C.glm_vec4_maxsub.run mem [.p 0 c.1, .p 1 0, .p 0 4] ≠
      some (none, writes mem [((0, 4), (Cglm.glm_vec4_maxsub (⟨w c.2 (c.1 + 0), w c.2 (c.1 + 1), w c.2 (c.1 + 2), w c.2 (c.1 + 3)⟩ : V4 F32) (⟨w c.2 12, w c.2 13, w c.2 14, w c.2 15⟩ : V4 F32) (⟨w c.2 4, w c.2 5, w c.2 6, w c.2 7⟩ : V4 F32)).list.map .f)]) :=
  all_differ (by kernel_rfl)

theorem C98_vec4_maxsub_b_exact [Libm] : ∀ c ∈ ([(1, 2), (2, 1), (3, 1)] : List (Nat × Nat)), let mem : Mem F32 := [⟨true, (List.range 12).map fun i => .f (w c.2 i)⟩, ⟨false, (List.range 4).map fun i => .f (w c.2 (i + 12))⟩]
    C.glm_vec4_maxsub.run mem [.p 1 0, .p 0 c.1, .p 0 4] ≠
      some (none, writes mem [((0, 4), (Cglm.glm_vec4_maxsub (⟨w c.2 12, w c.2 13, w c.2 14, w c.2 15⟩ : V4 F32) (⟨w c.2 (c.1 + 0), w c.2 (c.1 + 1), w c.2 (c.1 + 2), w c.2 (c.1 + 3)⟩ : V4 F32) (⟨w c.2 4, w c.2 5, w c.2 6, w c.2 7⟩ : V4 F32)).list.map .f)]) :=
  all_differ (by kernel_rfl)

theorem C98_vec4_minsub_a_exact [Libm] : ∀ c ∈ ([(1, 0), (2, 0), (3, 0)] : List (Nat × Nat)), let mem : Mem F32 := [⟨true, (List.range 12).map fun i => .f (w c.2 i)⟩, ⟨false, (List.range 4).map fun i => .f (w c.2 (i + 12))⟩]
    C.glm_vec4_minsub.run mem [.p 0 c.1, .p 1 0, .p 0 4] ≠
      some (none, writes mem [((0, 4), (Cglm.glm_vec4_minsub (⟨w c.2 (c.1 + 0), w c.2 (c.1 + 1), w c.2 (c.1 + 2), w c.2 (c.1 + 3)⟩ : V4 F32) (⟨w c.2 12, w c.2 13, w c.2 14, w c.2 15⟩ : V4 F32) (⟨w c.2 4, w c.2 5, w c.2 6, w c.2 7⟩ : V4 F32)).list.map .f)]) :=
  all_differ (by kernel_rfl)

theorem C98_vec4_minsub_b_exact [Libm] : ∀ c ∈ ([(1, 0), (2, 0), (3, 0)] : List (Nat × Nat)), let mem : Mem F32 := [⟨true, (List.range 12).map fun i => .f (w c.2 i)⟩, ⟨false, (List.range 4).map fun i => .f (w c.2 (i + 12))⟩]
    C.glm_vec4_minsub.run mem [.p 1 0, .p 0 c.1, .p 0 4] ≠
      some (none, writes mem [((0, 4), (Cglm.glm_vec4_minsub (⟨w c.2 12, w c.2 13, w c.2 14, w c.2 15⟩ : V4 F32) (⟨w c.2 (c.1 + 0), w c.2 (c.1 + 1), w c.2 (c.1 + 2), w c.2 (c.1 + 3)⟩ : V4 F32) (⟨w c.2 4, w c.2 5, w c.2 6, w c.2 7⟩ : V4 F32)).list.map .f)]) :=
  all_differ (by kernel_rfl)

theorem C98_vec4_negate_to_exact [Libm] : ∀ c ∈ ([(1, 0), (2, 0), (3, 0)] : List (Nat × Nat)), let mem : Mem F32 := [⟨true, (List.range 12).map fun i => .f (w c.2 i)⟩]
    C.glm_vec4_negate_to.run mem [.p 0 c.1, .p 0 4] ≠
      some (none, writes mem [((0, 4), (Cglm.glm_vec4_negate_to (⟨w c.2 (c.1 + 0), w c.2 (c.1 + 1), w c.2 (c.1 + 2), w c.2 (c.1 + 3)⟩ : V4 F32)).list.map .f)]) :=
  all_differ (by kernel_rfl)

theorem C98_vec4_normalize_to_exact [Libm] : ∀ c ∈ ([(1, 0), (2, 0), (3, 0)] : List (Nat × Nat)), let mem : Mem F32 := [⟨true, (List.range 12).map fun i => .f (w c.2 i)⟩]
    C.glm_vec4_normalize_to.run mem [.p 0 c.1, .p 0 4] ≠
      some (none, writes mem [((0, 4), (Cglm.glm_vec4_normalize_to (⟨w c.2 (c.1 + 0), w c.2 (c.1 + 1), w c.2 (c.1 + 2), w c.2 (c.1 + 3)⟩ : V4 F32)).list.map .f)]) :=
  all_differ (by kernel_rfl)

theorem C98_vec4_maxv_a_exact [Libm] : ∀ c ∈ ([(1, 2), (2, 1), (3, 1)] : List (Nat × Nat)), let mem : Mem F32 := [⟨true, (List.range 12).map fun i => .f (w c.2 i)⟩, ⟨false, (List.range 4).map fun i => .f (w c.2 (i + 12))⟩]
    C.glm_vec4_maxv.run mem [.p 0 c.1, .p 1 0, .p 0 4] ≠
      some (none, writes mem [((0, 4), (Cglm.glm_vec4_maxv (⟨w c.2 (c.1 + 0), w c.2 (c.1 + 1), w c.2 (c.1 + 2), w c.2 (c.1 + 3)⟩ : V4 F32) (⟨w c.2 12, w c.2 13, w c.2 14, w c.2 15⟩ : V4 F32)).list.map .f)]) :=
  all_differ (by kernel_rfl)

theorem C98_vec4_maxv_b_exact [Libm] : ∀ c ∈ ([(1, 2), (2, 1), (3, 1)] : List (Nat × Nat)), let mem : Mem F32 := [⟨true, (List.range 12).map fun i => .f (w c.2 i)⟩, ⟨false, (List.range 4).map fun i => .f (w c.2 (i + 12))⟩]
    C.glm_vec4_maxv.run mem [.p 1 0, .p 0 c.1, .p 0 4] ≠
      some (none, writes mem [((0, 4), (Cglm.glm_vec4_maxv (⟨w c.2 12, w c.2 13, w c.2 14, w c.2 15⟩ : V4 F32) (⟨w c.2 (c.1 + 0), w c.2 (c.1 + 1), w c.2 (c.1 + 2), w c.2 (c.1 + 3)⟩ : V4 F32)).list.map .f)]) :=
  all_differ (by kernel_rfl)

theorem C98_vec4_minv_a_exact [Libm] : ∀ c ∈ ([(1, 0), (2, 0), (3, 0)] : List (Nat × Nat)), let mem : Mem F32 := [⟨true, (List.range 12).map fun i => .f (w c.2 i)⟩, ⟨false, (List.range 4).map fun i => .f (w c.2 (i + 12))⟩]
    C.glm_vec4_minv.run mem [.p 0 c.1, .p 1 0, .p 0 4] ≠
      some (none, writes mem [((0, 4), (Cglm.glm_vec4_minv (⟨w c.2 (c.1 + 0), w c.2 (c.1 + 1), w c.2 (c.1 + 2), w c.2 (c.1 + 3)⟩ : V4 F32) (⟨w c.2 12, w c.2 13, w c.2 14, w c.2 15⟩ : V4 F32)).list.map .f)]) :=
  all_differ (by kernel_rfl)

theorem C98_vec4_minv_b_exact [Libm] : ∀ c ∈ ([(1, 0), (2, 0), (3, 0)] : List (Nat × Nat)), let mem : Mem F32 := [⟨true, (List.range 12).map fun i => .f (w c.2 i)⟩, ⟨false, (List.range 4).map fun i => .f (w c.2 (i + 12))⟩]
    C.glm_vec4_minv.run mem [.p 1 0, .p 0 c.1, .p 0 4] ≠
      some (none, writes mem [((0, 4), (Cglm.glm_vec4_minv (⟨w c.2 12, w c.2 13, w c.2 14, w c.2 15⟩ : V4 F32) (⟨w c.2 (c.1 + 0), w c.2 (c.1 + 1), w c.2 (c.1 + 2), w c.2 (c.1 + 3)⟩ : V4 F32)).list.map .f)]) :=
  all_differ (by kernel_rfl)

theorem C98_vec4_lerp_frm_exact [Libm] : ∀ c ∈ ([(1, 0), (2, 0), (3, 0)] : List (Nat × Nat)), let mem : Mem F32 := [⟨true, (List.range 12).map fun i => .f (w c.2 i)⟩, ⟨false, (List.range 4).map fun i => .f (w c.2 (i + 12))⟩]
    C.glm_vec4_lerp.run mem [.p 0 c.1, .p 1 0, .f (w c.2 16), .p 0 4] ≠
      some (none, writes mem [((0, 4), (Cglm.glm_vec4_lerp (⟨w c.2 (c.1 + 0), w c.2 (c.1 + 1), w c.2 (c.1 + 2), w c.2 (c.1 + 3)⟩ : V4 F32) (⟨w c.2 12, w c.2 13, w c.2 14, w c.2 15⟩ : V4 F32) (w c.2 16)).list.map .f)]) :=
  all_differ (by kernel_rfl)

theorem C98_vec4_lerpc_frm_exact [Libm] : ∀ c ∈ ([(1, 0), (2, 0), (3, 0)] : List (Nat × Nat)), let mem : Mem F32 := [⟨true, (List.range 12).map fun i => .f (w c.2 i)⟩, ⟨false, (List.range 4).map fun i => .f (w c.2 (i + 12))⟩]
    C.glm_vec4_lerpc.run mem [.p 0 c.1, .p 1 0, .f (w c.2 16), .p 0 4] ≠
      some (none, writes mem [((0, 4), (Cglm.glm_vec4_lerpc (⟨w c.2 (c.1 + 0), w c.2 (c.1 + 1), w c.2 (c.1 + 2), w c.2 (c.1 + 3)⟩ : V4 F32) (⟨w c.2 12, w c.2 13, w c.2 14, w c.2 15⟩ : V4 F32) (w c.2 16)).list.map .f)]) :=
  all_differ (by kernel_rfl)

theorem C98_vec4_mix_frm_exact [Libm] : ∀ c ∈ ([(1, 0), (2, 0), (3, 0)] : List (Nat × Nat)), let mem : Mem F32 := [⟨true, (List.range 12).map fun i => .f (w c.2 i)⟩, ⟨false, (List.range 4).map fun i => .f (w c.2 (i + 12))⟩]
    C.glm_vec4_mix.run mem [.p 0 c.1, .p 1 0, .f (w c.2 16), .p 0 4] ≠
      some (none, writes mem [((0, 4), (Cglm.glm_vec4_mix (⟨w c.2 (c.1 + 0), w c.2 (c.1 + 1), w c.2 (c.1 + 2), w c.2 (c.1 + 3)⟩ : V4 F32) (⟨w c.2 12, w c.2 13, w c.2 14, w c.2 15⟩ : V4 F32) (w c.2 16)).list.map .f)]) :=
  all_differ (by kernel_rfl)

theorem C98_vec4_mixc_frm_exact [Libm] : ∀ c ∈ ([(1, 0), (2, 0), (3, 0)] : List (Nat × Nat)), let mem : Mem F32 := [⟨true, (List.range 12).map fun i => .f (w c.2 i)⟩, ⟨false, (List.range 4).map fun i => .f (w c.2 (i + 12))⟩]
    C.glm_vec4_mixc.run mem [.p 0 c.1, .p 1 0, .f (w c.2 16), .p 0 4] ≠
      some (none, writes mem [((0, 4), (Cglm.glm_vec4_mixc (⟨w c.2 (c.1 + 0), w c.2 (c.1 + 1), w c.2 (c.1 + 2), w c.2 (c.1 + 3)⟩ : V4 F32) (⟨w c.2 12, w c.2 13, w c.2 14, w c.2 15⟩ : V4 F32) (w c.2 16)).list.map .f)]) :=
  all_differ (by kernel_rfl)

theorem C98_vec4_step_edge_exact [Libm] : ∀ c ∈ ([(1, 2), (2, 3), (3, 3)] : List (Nat × Nat)), let mem : Mem F32 := [⟨true, (List.range 12).map fun i => .f (w c.2 i)⟩, ⟨false, (List.range 4).map fun i => .f (w c.2 (i + 12))⟩]
    C.glm_vec4_step.run mem [.p 0 c.1, .p 1 0, .p 0 4] ≠
      some (none, writes mem [((0, 4), (Cglm.glm_vec4_step (⟨w c.2 (c.1 + 0), w c.2 (c.1 + 1), w c.2 (c.1 + 2), w c.2 (c.1 + 3)⟩ : V4 F32) (⟨w c.2 12, w c.2 13, w c.2 14, w c.2 15⟩ : V4 F32)).list.map .f)]) :=
  all_differ (by kernel_rfl)

theorem C98_vec4_step_x_exact [Libm] : ∀ c ∈ ([(1, 2), (2, 2), (3, 2)] : List (Nat × Nat)), let mem : Mem F32 := [⟨true, (List.range 12).map fun i => .f (w c.2 i)⟩, ⟨false, (List.range 4).map fun i => .f (w c.2 (i + 12))⟩]
    C.glm_vec4_step.run mem [.p 1 0, .p 0 c.1, .p 0 4] ≠
      some (none, writes mem [((0, 4), (Cglm.glm_vec4_step (⟨w c.2 12, w c.2 13, w c.2 14, w c.2 15⟩ : V4 F32) (⟨w c.2 (c.1 + 0), w c.2 (c.1 + 1), w c.2 (c.1 + 2), w c.2 (c.1 + 3)⟩ : V4 F32)).list.map .f)]) :=
  all_differ (by kernel_rfl)

theorem C98_vec4_smoothstep_uni_exact [Libm] : ∀ c ∈ ([(1, 2), (2, 2), (3, 2)] : List (Nat × Nat)), let mem : Mem F32 := [⟨true, (List.range 12).map fun i => .f (w c.2 i)⟩]
    C.glm_vec4_smoothstep_uni.run mem [.f (w c.2 12), .f (w c.2 13), .p 0 c.1, .p 0 4] ≠
      some (none, writes mem [((0, 4), (Cglm.glm_vec4_smoothstep_uni (w c.2 12) (w c.2 13) (⟨w c.2 (c.1 + 0), w c.2 (c.1 + 1), w c.2 (c.1 + 2), w c.2 (c.1 + 3)⟩ : V4 F32)).list.map .f)]) :=
  all_differ (by kernel_rfl)

theorem C98_vec4_smoothstep_x_exact [Libm] : ∀ c ∈ ([(1, 2), (2, 1), (3, 2)] : List (Nat × Nat)), let mem : Mem F32 := [⟨true, (List.range 12).map fun i => .f (w c.2 i)⟩, ⟨false, (List.range 4).map fun i => .f (w c.2 (i + 12))⟩, ⟨false, (List.range 4).map fun i => .f (w c.2 (i + 16))⟩]
    C.glm_vec4_smoothstep.run mem [.p 1 0, .p 2 0, .p 0 c.1, .p 0 4] ≠
      some (none, writes mem [((0, 4), (Cglm.glm_vec4_smoothstep (⟨w c.2 12, w c.2 13, w c.2 14, w c.2 15⟩ : V4 F32) (⟨w c.2 16, w c.2 17, w c.2 18, w c.2 19⟩ : V4 F32) (⟨w c.2 (c.1 + 0), w c.2 (c.1 + 1), w c.2 (c.1 + 2), w c.2 (c.1 + 3)⟩ : V4 F32)).list.map .f)]) :=
  all_differ (by kernel_rfl)

theorem C98_vec4_smoothinterp_frm_exact [Libm] : ∀ c ∈ ([(1, 0), (2, 0), (3, 0)] : List (Nat × Nat)), let mem : Mem F32 := [⟨true, (List.range 12).map fun i => .f (w c.2 i)⟩, ⟨false, (List.range 4).map fun i => .f (w c.2 (i + 12))⟩]
    C.glm_vec4_smoothinterp.run mem [.p 0 c.1, .p 1 0, .f (w c.2 16), .p 0 4] ≠
      some (none, writes mem [((0, 4), (Cglm.glm_vec4_smoothinterp (⟨w c.2 (c.1 + 0), w c.2 (c.1 + 1), w c.2 (c.1 + 2), w c.2 (c.1 + 3)⟩ : V4 F32) (⟨w c.2 12, w c.2 13, w c.2 14, w c.2 15⟩ : V4 F32) (w c.2 16)).list.map .f)]) :=
  all_differ (by kernel_rfl)

theorem C98_vec4_smoothinterpc_frm_exact [Libm] : ∀ c ∈ ([(1, 0), (2, 0), (3, 0)] : List (Nat × Nat)), let mem : Mem F32 := [⟨true, (List.range 12).map fun i => .f (w c.2 i)⟩, ⟨false, (List.range 4).map fun i => .f (w c.2 (i + 12))⟩]
    C.glm_vec4_smoothinterpc.run mem [.p 0 c.1, .p 1 0, .f (w c.2 16), .p 0 4] ≠
      some (none, writes mem [((0, 4), (Cglm.glm_vec4_smoothinterpc (⟨w c.2 (c.1 + 0), w c.2 (c.1 + 1), w c.2 (c.1 + 2), w c.2 (c.1 + 3)⟩ : V4 F32) (⟨w c.2 12, w c.2 13, w c.2 14, w c.2 15⟩ : V4 F32) (w c.2 16)).list.map .f)]) :=
  all_differ (by kernel_rfl)

theorem C98_vec4_make_exact [Libm] : ∀ c ∈ ([(1, 0), (2, 0), (3, 0)] : List (Nat × Nat)), let mem : Mem F32 := [⟨true, (List.range 12).map fun i => .f (w c.2 i)⟩]
    C.glm_vec4_make.run mem [.p 0 c.1, .p 0 4] ≠
      some (none, writes mem [((0, 4), (Cglm.glm_vec4_make (⟨w c.2 (c.1 + 0), w c.2 (c.1 + 1), w c.2 (c.1 + 2), w c.2 (c.1 + 3)⟩ : V4 F32)).list.map .f)]) :=
  all_differ (by kernel_rfl)

theorem C98_vec4_reflect_v_exact [Libm] : ∀ c ∈ ([(1, 0), (2, 0), (3, 0), (4, 0)] : List (Nat × Nat)), let mem : Mem F32 := [⟨true, (List.range 12).map fun i => .f (w c.2 i)⟩, ⟨false, (List.range 4).map fun i => .f (w c.2 (i + 12))⟩]
    C.glm_vec4_reflect.run mem [.p 0 c.1, .p 1 0, .p 0 4] ≠
      some (none, writes mem [((0, 4), (Cglm.glm_vec4_reflect (⟨w c.2 (c.1 + 0), w c.2 (c.1 + 1), w c.2 (c.1 + 2), w c.2 (c.1 + 3)⟩ : V4 F32) (⟨w c.2 12, w c.2 13, w c.2 14, w c.2 15⟩ : V4 F32)).list.map .f)]) :=
  all_differ (by kernel_rfl)

theorem C98_vec3_wrong [Libm] : ∀ c ∈ ([(2, 0), (3, 0)] : List (Nat × Nat)), let mem : Mem F32 := [⟨true, (List.range 11).map fun i => .f (w c.2 i)⟩]
    C.glm_vec3.run mem [.p 0 c.1, .p 0 4] ≠
      some (none, writes mem [((0, 4), (Cglm.glm_vec3 (⟨w c.2 (c.1 + 0), w c.2 (c.1 + 1), w c.2 (c.1 + 2), w c.2 (c.1 + 3)⟩ : V4 F32)).list.map .f)]) :=
  all_differ (by kernel_rfl)

theorem C98_vec3_copy_exact [Libm] : ∀ c ∈ ([(1, 0), (2, 0)] : List (Nat × Nat)), let mem : Mem F32 := [⟨true, (List.range 9).map fun i => .f (w c.2 i)⟩]
    C.glm_vec3_copy.run mem [.p 0 c.1, .p 0 3] ≠
      some (none, writes mem [((0, 3), (Cglm.glm_vec3_copy (⟨w c.2 (c.1 + 0), w c.2 (c.1 + 1), w c.2 (c.1 + 2)⟩ : V3 F32)).list.map .f)]) :=
  all_differ (by kernel_rfl)

theorem C98_vec3_add_a_exact [Libm] : ∀ c ∈ ([(1, 0), (2, 0)] : List (Nat × Nat)), let mem : Mem F32 := [⟨true, (List.range 9).map fun i => .f (w c.2 i)⟩, ⟨false, (List.range 3).map fun i => .f (w c.2 (i + 9))⟩]
    C.glm_vec3_add.run mem [.p 0 c.1, .p 1 0, .p 0 3] ≠
      some (none, writes mem [((0, 3), (Cglm.glm_vec3_add (⟨w c.2 (c.1 + 0), w c.2 (c.1 + 1), w c.2 (c.1 + 2)⟩ : V3 F32) (⟨w c.2 9, w c.2 10, w c.2 11⟩ : V3 F32)).list.map .f)]) :=
  all_differ (by kernel_rfl)

theorem C98_vec3_add_b_exact [Libm] : ∀ c ∈ ([(1, 0), (2, 0)] : List (Nat × Nat)), let mem : Mem F32 := [⟨true, (List.range 9).map fun i => .f (w c.2 i)⟩, ⟨false, (List.range 3).map fun i => .f (w c.2 (i + 9))⟩]
    C.glm_vec3_add.run mem [.p 1 0, .p 0 c.1, .p 0 3] ≠
      some (none, writes mem [((0, 3), (Cglm.glm_vec3_add (⟨w c.2 9, w c.2 10, w c.2 11⟩ : V3 F32) (⟨w c.2 (c.1 + 0), w c.2 (c.1 + 1), w c.2 (c.1 + 2)⟩ : V3 F32)).list.map .f)]) :=
  all_differ (by kernel_rfl)

theorem C98_vec3_adds_exact [Libm] : ∀ c ∈ ([(1, 0), (2, 0)] : List (Nat × Nat)), let mem : Mem F32 := [⟨true, (List.range 9).map fun i => .f (w c.2 i)⟩]
    C.glm_vec3_adds.run mem [.p 0 c.1, .f (w c.2 9), .p 0 3] ≠
      some (none, writes mem [((0, 3), (Cglm.glm_vec3_adds (⟨w c.2 (c.1 + 0), w c.2 (c.1 + 1), w c.2 (c.1 + 2)⟩ : V3 F32) (w c.2 9)).list.map .f)]) :=
  all_differ (by kernel_rfl)

theorem C98_vec3_sub_a_exact [Libm] : ∀ c ∈ ([(1, 0), (2, 0)] : List (Nat × Nat)), let mem : Mem F32 := [⟨true, (List.range 9).map fun i => .f (w c.2 i)⟩, ⟨false, (List.range 3).map fun i => .f (w c.2 (i + 9))⟩]
    C.glm_vec3_sub.run mem [.p 0 c.1, .p 1 0, .p 0 3] ≠
      some (none, writes mem [((0, 3), (Cglm.glm_vec3_sub (⟨w c.2 (c.1 + 0), w c.2 (c.1 + 1), w c.2 (c.1 + 2)⟩ : V3 F32) (⟨w c.2 9, w c.2 10, w c.2 11⟩ : V3 F32)).list.map .f)]) :=
  all_differ (by kernel_rfl)

theorem C98_vec3_sub_b_exact [Libm] : ∀ c ∈ ([(1, 0), (2, 0)] : List (Nat × Nat)), let mem : Mem F32 := [⟨true, (List.range 9).map fun i => .f (w c.2 i)⟩, ⟨false, (List.range 3).map fun i => .f (w c.2 (i + 9))⟩]
    C.glm_vec3_sub.run mem [.p 1 0, .p 0 c.1, .p 0 3] ≠
      some (none, writes mem [((0, 3), (Cglm.glm_vec3_sub (⟨w c.2 9, w c.2 10, w c.2 11⟩ : V3 F32) (⟨w c.2 (c.1 + 0), w c.2 (c.1 + 1), w c.2 (c.1 + 2)⟩ : V3 F32)).list.map .f)]) :=
  all_differ (by kernel_rfl)

theorem C98_vec3_subs_exact [Libm] : ∀ c ∈ ([(1, 0), (2, 0)] : List (Nat × Nat)), let mem : Mem F32 := [⟨true, (List.range 9).map fun i => .f (w c.2 i)⟩]
    C.glm_vec3_subs.run mem [.p 0 c.1, .f (w c.2 9), .p 0 3] ≠
      some (none, writes mem [((0, 3), (Cglm.glm_vec3_subs (⟨w c.2 (c.1 + 0), w c.2 (c.1 + 1), w c.2 (c.1 + 2)⟩ : V3 F32) (w c.2 9)).list.map .f)]) :=
  all_differ (by kernel_rfl)

theorem C98_vec3_mul_a_exact [Libm] : ∀ c ∈ ([(1, 0), (2, 0)] : List (Nat × Nat)), let mem : Mem F32 := [⟨true, (List.range 9).map fun i => .f (w c.2 i)⟩, ⟨false, (List.range 3).map fun i => .f (w c.2 (i + 9))⟩]
    C.glm_vec3_mul.run mem [.p 0 c.1, .p 1 0, .p 0 3] ≠
      some (none, writes mem [((0, 3), (Cglm.glm_vec3_mul (⟨w c.2 (c.1 + 0), w c.2 (c.1 + 1), w c.2 (c.1 + 2)⟩ : V3 F32) (⟨w c.2 9, w c.2 10, w c.2 11⟩ : V3 F32)).list.map .f)]) :=
  all_differ (by kernel_rfl)

theorem C98_vec3_mul_b_exact [Libm] : ∀ c ∈ ([(1, 0), (2, 0)] : List (Nat × Nat)), let mem : Mem F32 := [⟨true, (List.range 9).map fun i => .f (w c.2 i)⟩, ⟨false, (List.range 3).map fun i => .f (w c.2 (i + 9))⟩]
    C.glm_vec3_mul.run mem [.p 1 0, .p 0 c.1, .p 0 3] ≠
      some (none, writes mem [((0, 3), (Cglm.glm_vec3_mul (⟨w c.2 9, w c.2 10, w c.2 11⟩ : V3 F32) (⟨w c.2 (c.1 + 0), w c.2 (c.1 + 1), w c.2 (c.1 + 2)⟩ : V3 F32)).list.map .f)]) :=
  all_differ (by kernel_rfl)

theorem C98_vec3_scale_exact [Libm] : ∀ c ∈ ([(1, 0), (2, 0)] : List (Nat × Nat)), let mem : Mem F32 := [⟨true, (List.range 9).map fun i => .f (w c.2 i)⟩]
    C.glm_vec3_scale.run mem [.p 0 c.1, .f (w c.2 9), .p 0 3] ≠
      some (none, writes mem [((0, 3), (Cglm.glm_vec3_scale (⟨w c.2 (c.1 + 0), w c.2 (c.1 + 1), w c.2 (c.1 + 2)⟩ : V3 F32) (w c.2 9)).list.map .f)]) :=
  all_differ (by kernel_rfl)

theorem C98_vec3_scale_as_exact [Libm] : ∀ c ∈ ([(1, 0), (2, 0)] : List (Nat × Nat)), let mem : Mem F32 := [⟨true, (List.range 9).map fun i => .f (w c.2 i)⟩]
    C.glm_vec3_scale_as.run mem [.p 0 c.1, .f (w c.2 9), .p 0 3] ≠
      some (none, writes mem [((0, 3), (Cglm.glm_vec3_scale_as (⟨w c.2 (c.1 + 0), w c.2 (c.1 + 1), w c.2 (c.1 + 2)⟩ : V3 F32) (w c.2 9)).list.map .f)]) :=
  all_differ (by kernel_rfl)

theorem C98_vec3_div_a_exact [Libm] : ∀ c ∈ ([(1, 0), (2, 0)] : List (Nat × Nat)), let mem : Mem F32 := [⟨true, (List.range 9).map fun i => .f (w c.2 i)⟩, ⟨false, (List.range 3).map fun i => .f (w c.2 (i + 9))⟩]
    C.glm_vec3_div.run mem [.p 0 c.1, .p 1 0, .p 0 3] ≠
      some (none, writes mem [((0, 3), (Cglm.glm_vec3_div (⟨w c.2 (c.1 + 0), w c.2 (c.1 + 1), w c.2 (c.1 + 2)⟩ : V3 F32) (⟨w c.2 9, w c.2 10, w c.2 11⟩ : V3 F32)).list.map .f)]) :=
  all_differ (by kernel_rfl)

theorem C98_vec3_div_b_exact [Libm] : ∀ c ∈ ([(1, 0), (2, 0)] : List (Nat × Nat)), let mem : Mem F32 := [⟨true, (List.range 9).map fun i => .f (w c.2 i)⟩, ⟨false, (List.range 3).map fun i => .f (w c.2 (i + 9))⟩]
    C.glm_vec3_div.run mem [.p 1 0, .p 0 c.1, .p 0 3] ≠
      some (none, writes mem [((0, 3), (Cglm.glm_vec3_div (⟨w c.2 9, w c.2 10, w c.2 11⟩ : V3 F32) (⟨w c.2 (c.1 + 0), w c.2 (c.1 + 1), w c.2 (c.1 + 2)⟩ : V3 F32)).list.map .f)]) :=
  all_differ (by kernel_rfl)

theorem C98_vec3_divs_exact [Libm] : ∀ c ∈ ([(1, 0), (2, 0)] : List (Nat × Nat)), let mem : Mem F32 := [⟨true, (List.range 9).map fun i => .f (w c.2 i)⟩]
    C.glm_vec3_divs.run mem [.p 0 c.1, .f (w c.2 9), .p 0 3] ≠
      some (none, writes mem [((0, 3), (Cglm.glm_vec3_divs (⟨w c.2 (c.1 + 0), w c.2 (c.1 + 1), w c.2 (c.1 + 2)⟩ : V3 F32) (w c.2 9)).list.map .f)]) :=
  all_differ (by kernel_rfl)

theorem C98_vec3_addadd_a_exact [Libm] : ∀ c ∈ ([(1, 0), (2, 0)] : List (Nat × Nat)), let mem : Mem F32 := [⟨true, (List.range 9).map fun i => .f (w c.2 i)⟩, ⟨false, (List.range 3).map fun i => .f (w c.2 (i + 9))⟩]
    C.glm_vec3_addadd.run mem [.p 0 c.1, .p 1 0, .p 0 3] ≠
      some (none, writes mem [((0, 3), (Cglm.glm_vec3_addadd (⟨w c.2 (c.1 + 0), w c.2 (c.1 + 1), w c.2 (c.1 + 2)⟩ : V3 F32) (⟨w c.2 9, w c.2 10, w c.2 11⟩ : V3 F32) (⟨w c.2 3, w c.2 4, w c.2 5⟩ : V3 F32)).list.map .f)]) :=
  all_differ (by kernel_rfl)

theorem C98_vec3_addadd_b_exact [Libm] : ∀ c ∈ ([(1, 0), (2, 0)] : List (Nat × Nat)), let mem : Mem F32 := [⟨true, (List.range 9).map fun i => .f (w c.2 i)⟩, ⟨false, (List.range 3).map fun i => .f (w c.2 (i + 9))⟩]
    C.glm_vec3_addadd.run mem [.p 1 0, .p 0 c.1, .p 0 3] ≠
      some (none, writes mem [((0, 3), (Cglm.glm_vec3_addadd (⟨w c.2 9, w c.2 10, w c.2 11⟩ : V3 F32) (⟨w c.2 (c.1 + 0), w c.2 (c.1 + 1), w c.2 (c.1 + 2)⟩ : V3 F32) (⟨w c.2 3, w c.2 4, w c.2 5⟩ : V3 F32)).list.map .f)]) :=
  all_differ (by kernel_rfl)

theorem C98_vec3_subadd_a_exact [Libm] : ∀ c ∈ ([(1, 0), (2, 0)] : List (Nat × Nat)), let mem : Mem F32 := [⟨true, (List.range 9).map fun i => .f (w c.2 i)⟩, ⟨false, (List.range 3).map fun i => .f (w c.2 (i + 9))⟩]
    C.glm_vec3_subadd.run mem [.p 0 c.1, .p 1 0, .p 0 3] ≠
      some (none, writes mem [((0, 3), (Cglm.glm_vec3_subadd (⟨w c.2 (c.1 + 0), w c.2 (c.1 + 1), w c.2 (c.1 + 2)⟩ : V3 F32) (⟨w c.2 9, w c.2 10, w c.2 11⟩ : V3 F32) (⟨w c.2 3, w c.2 4, w c.2 5⟩ : V3 F32)).list.map .f)]) :=
  all_differ (by kernel_rfl)

theorem C98_vec3_subadd_b_exact [Libm] : ∀ c ∈ ([(1, 0), (2, 0)] : List (Nat × Nat)), let mem : Mem F32 := [⟨true, (List.range 9).map fun i => .f (w c.2 i)⟩, ⟨false, (List.range 3).map fun i => .f (w c.2 (i + 9))⟩]
    C.glm_vec3_subadd.run mem [.p 1 0, .p 0 c.1, .p 0 3] ≠
      some (none, writes mem [((0, 3), (Cglm.glm_vec3_subadd (⟨w c.2 9, w c.2 10, w c.2 11⟩ : V3 F32) (⟨w c.2 (c.1 + 0), w c.2 (c.1 + 1), w c.2 (c.1 + 2)⟩ : V3 F32) (⟨w c.2 3, w c.2 4, w c.2 5⟩ : V3 F32)).list.map .f)]) :=
  all_differ (by kernel_rfl)

theorem C98_vec3_muladd_a_exact [Libm] : ∀ c ∈ ([(1, 0), (2, 0)] : List (Nat × Nat)), let mem : Mem F32 := [⟨true, (List.range 9).map fun i => .f (w c.2 i)⟩, ⟨false, (List.range 3).map fun i => .f (w c.2 (i + 9))⟩]
    C.glm_vec3_muladd.run mem [.p 0 c.1, .p 1 0, .p 0 3] ≠
      some (none, writes mem [((0, 3), (Cglm.glm_vec3_muladd (⟨w c.2 (c.1 + 0), w c.2 (c.1 + 1), w c.2 (c.1 + 2)⟩ : V3 F32) (⟨w c.2 9, w c.2 10, w c.2 11⟩ : V3 F32) (⟨w c.2 3, w c.2 4, w c.2 5⟩ : V3 F32)).list.map .f)]) :=
  all_differ (by kernel_rfl)

theorem C98_vec3_muladd_b_exact [Libm] : ∀ c ∈ ([(1, 0), (2, 0)] : List (Nat × Nat)), let mem : Mem F32 := [⟨true, (List.range 9).map fun i => .f (w c.2 i)⟩, ⟨false, (List.range 3).map fun i => .f (w c.2 (i + 9))⟩]
    C.glm_vec3_muladd.run mem [.p 1 0, .p 0 c.1, .p 0 3] ≠
      some (none, writes mem [((0, 3), (Cglm.glm_vec3_muladd (⟨w c.2 9, w c.2 10, w c.2 11⟩ : V3 F32) (⟨w c.2 (c.1 + 0), w c.2 (c.1 + 1), w c.2 (c.1 + 2)⟩ : V3 F32) (⟨w c.2 3, w c.2 4, w c.2 5⟩ : V3 F32)).list.map .f)]) :=
  all_differ (by kernel_rfl)

theorem C98_vec3_muladds_exact [Libm] : ∀ c ∈ ([(1, 0), (2, 0)] : List (Nat × Nat)), let mem : Mem F32 := [⟨true, (List.range 9).map fun i => .f (w c.2 i)⟩]
    C.glm_vec3_muladds.run mem [.p 0 c.1, .f (w c.2 9), .p 0 3] ≠
      some (none, writes mem [((0, 3), (Cglm.glm_vec3_muladds (⟨w c.2 (c.1 + 0), w c.2 (c.1 + 1), w c.2 (c.1 + 2)⟩ : V3 F32) (w c.2 9) (⟨w c.2 3, w c.2 4, w c.2 5⟩ : V3 F32)).list.map .f)]) :=
  all_differ (by kernel_rfl)

theorem C98_vec3_maxadd_a_exact [Libm] : ∀ c ∈ ([(1, 1), (2, 0)] : List (Nat × Nat)), let mem : Mem F32 := [⟨true, (List.range 9).map fun i => .f (w c.2 i)⟩, ⟨false, (List.range 3).map fun i => .f (w c.2 (i + 9))⟩]
    C.glm_vec3_maxadd.run mem [.p 0 c.1, .p 1 0, .p 0 3] ≠
      some (none, writes mem [((0, 3), (Cglm.glm_vec3_maxadd (⟨w c.2 (c.1 + 0), w c.2 (c.1 + 1), w c.2 (c.1 + 2)⟩ : V3 F32) (⟨w c.2 9, w c.2 10, w c.2 11⟩ : V3 F32) (⟨w c.2 3, w c.2 4, w c.2 5⟩ : V3 F32)).list.map .f)]) :=
  all_differ (by kernel_rfl)

theorem C98_vec3_maxadd_b_exact [Libm] : ∀ c ∈ ([(1, 1), (2, 0)] : List (Nat × Nat)), let mem : Mem F32 := [⟨true, (List.range 9).map fun i => .f (w c.2 i)⟩, ⟨false, (List.range 3).map fun i => .f (w c.2 (i + 9))⟩]
    C.glm_vec3_maxadd.run mem [.p 1 0, .p 0 c.1, .p 0 3] ≠
      some (none, writes mem [((0, 3), (Cglm.glm_vec3_maxadd (⟨w c.2 9, w c.2 10, w c.2 11⟩ : V3 F32) (⟨w c.2 (c.1 + 0), w c.2 (c.1 + 1), w c.2 (c.1 + 2)⟩ : V3 F32) (⟨w c.2 3, w c.2 4, w c.2 5⟩ : V3 F32)).list.map .f)]) :=
  all_differ (by kernel_rfl)

theorem C98_vec3_minadd_a_exact [Libm] : ∀ c ∈ ([(1, 0), (2, 0)] : List (Nat × Nat)), let mem : Mem F32 := [⟨true, (List.range 9).map fun i => .f (w c.2 i)⟩, ⟨false, (List.range 3).map fun i => .f (w c.2 (i + 9))⟩]
    C.glm_vec3_minadd.run mem [.p 0 c.1, .p 1 0, .p 0 3] ≠
      some (none, writes mem [((0, 3), (Cglm.glm_vec3_minadd (⟨w c.2 (c.1 + 0), w c.2 (c.1 + 1), w c.2 (c.1 + 2)⟩ : V3 F32) (⟨w c.2 9, w c.2 10, w c.2 11⟩ : V3 F32) (⟨w c.2 3, w c.2 4, w c.2 5⟩ : V3 F32)).list.map .f)]) :=
  all_differ (by kernel_rfl)

theorem C98_vec3_minadd_b_exact [Libm] : ∀ c ∈ ([(1, 0), (2, 0)] : List (Nat × Nat)), let mem : Mem F32 := [⟨true, (List.range 9).map fun i => .f (w c.2 i)⟩, ⟨false, (List.range 3).map fun i => .f (w c.2 (i + 9))⟩]
    C.glm_vec3_minadd.run mem [.p 1 0, .p 0 c.1, .p 0 3] ≠
      some (none, writes mem [((0, 3), (Cglm.glm_vec3_minadd (⟨w c.2 9, w c.2 10, w c.2 11⟩ : V3 F32) (⟨w c.2 (c.1 + 0), w c.2 (c.1 + 1), w c.2 (c.1 + 2)⟩ : V3 F32) (⟨w c.2 3, w c.2 4, w c.2 5⟩ : V3 F32)).list.map .f)]) :=
  all_differ (by kernel_rfl)

theorem C98_vec3_subsub_a_exact [Libm] : ∀ c ∈ ([(1, 0), (2, 0)] : List (Nat × Nat)), let mem : Mem F32 := [⟨true, (List.range 9).map fun i => .f (w c.2 i)⟩, ⟨false, (List.range 3).map fun i => .f (w c.2 (i + 9))⟩]
    C.glm_vec3_subsub.run mem [.p 0 c.1, .p 1 0, .p 0 3] ≠
      some (none, writes mem [((0, 3), (Cglm.glm_vec3_subsub (⟨w c.2 (c.1 + 0), w c.2 (c.1 + 1), w c.2 (c.1 + 2)⟩ : V3 F32) (⟨w c.2 9, w c.2 10, w c.2 11⟩ : V3 F32) (⟨w c.2 3, w c.2 4, w c.2 5⟩ : V3 F32)).list.map .f)]) :=
  all_differ (by kernel_rfl)

theorem C98_vec3_subsub_b_exact [Libm] : ∀ c ∈ ([(1, 0), (2, 0)] : List (Nat × Nat)), let mem : Mem F32 := [⟨true, (List.range 9).map fun i => .f (w c.2 i)⟩, ⟨false, (List.range 3).map fun i => .f (w c.2 (i + 9))⟩]
    C.glm_vec3_subsub.run mem [.p 1 0, .p 0 c.1, .p 0 3] ≠
      some (none, writes mem [((0, 3), (Cglm.glm_vec3_subsub (⟨w c.2 9, w c.2 10, w c.2 11⟩ : V3 F32) (⟨w c.2 (c.1 + 0), w c.2 (c.1 + 1), w c.2 (c.1 + 2)⟩ : V3 F32) (⟨w c.2 3, w c.2 4, w c.2 5⟩ : V3 F32)).list.map .f)]) :=
  all_differ (by kernel_rfl)

theorem C98_vec3_addsub_a_exact [Libm] : ∀ c ∈ ([(1, 0), (2, 0)] : List (Nat × Nat)), let mem : Mem F32 := [⟨true, (List.range 9).map fun i => .f (w c.2 i)⟩, ⟨false, (List.range 3).map fun i => .f (w c.2 (i + 9))⟩]
    C.glm_vec3_addsub.run mem [.p 0 c.1, .p 1 0, .p 0 3] ≠
      some (none, writes mem [((0, 3), (Cglm.glm_vec3_addsub (⟨w c.2 (c.1 + 0), w c.2 (c.1 + 1), w c.2 (c.1 + 2)⟩ : V3 F32) (⟨w c.2 9, w c.2 10, w c.2 11⟩ : V3 F32) (⟨w c.2 3, w c.2 4, w c.2 5⟩ : V3 F32)).list.map .f)]) :=
  all_differ (by kernel_rfl)

theorem C98_vec3_addsub_b_exact [Libm] : ∀ c ∈ ([(1, 0), (2, 0)] : List (Nat × Nat)), let mem : Mem F32 := [⟨true, (List.range 9).map fun i => .f (w c.2 i)⟩, ⟨false, (List.range 3).map fun i => .f (w c.2 (i + 9))⟩]
    C.glm_vec3_addsub.run mem [.p 1 0, .p 0 c.1, .p 0 3] ≠
      some (none, writes mem [((0, 3), (Cglm.glm_vec3_addsub (⟨w c.2 9, w c.2 10, w c.2 11⟩ : V3 F32) (⟨w c.2 (c.1 + 0), w c.2 (c.1 + 1), w c.2 (c.1 + 2)⟩ : V3 F32) (⟨w c.2 3, w c.2 4, w c.2 5⟩ : V3 F32)).list.map .f)]) :=
  all_differ (by kernel_rfl)

theorem C98_vec3_mulsub_a_exact [Libm] : ∀ c ∈ ([(1, 0), (2, 0)] : List (Nat × Nat)), let mem : Mem F32 := [⟨true, (List.range 9).map fun i => .f (w c.2 i)⟩, ⟨false, (List.range 3).map fun i => .f (w c.2 (i + 9))⟩]
    C.glm_vec3_mulsub.run mem [.p 0 c.1, .p 1 0, .p 0 3] ≠
      some (none, writes mem [((0, 3), (Cglm.glm_vec3_mulsub (⟨w c.2 (c.1 + 0), w c.2 (c.1 + 1), w c.2 (c.1 + 2)⟩ : V3 F32) (⟨w c.2 9, w c.2 10, w c.2 11⟩ : V3 F32) (⟨w c.2 3, w c.2 4, w c.2 5⟩ : V3 F32)).list.map .f)]) :=
  all_differ (by kernel_rfl)

theorem C98_vec3_mulsub_b_exact [Libm] : ∀ c ∈ ([(1, 0), (2, 0)] : List (Nat × Nat)), let mem : Mem F32 := [⟨true, (List.range 9).map fun i => .f (w c.2 i)⟩, ⟨false, (List.range 3).map fun i => .f (w c.2 (i + 9))⟩]
    C.glm_vec3_mulsub.run mem [.p 1 0, .p 0 c.1, .p 0 3] ≠
      some (none, writes mem [((0, 3), (Cglm.glm_vec3_mulsub (⟨w c.2 9, w c.2 10, w c.2 11⟩ : V3 F32) (⟨w c.2 (c.1 + 0), w c.2 (c.1 + 1), w c.2 (c.1 + 2)⟩ : V3 F32) (⟨w c.2 3, w c.2 4, w c.2 5⟩ : V3 F32)).list.map .f)]) :=
  all_differ (by kernel_rfl)

theorem C98_vec3_mulsubs_exact [Libm] : ∀ c ∈ ([(1, 0), (2, 0)] : List (Nat × Nat)), let mem : Mem F32 := [⟨true, (List.range 9).map fun i => .f (w c.2 i)⟩]
    C.glm_vec3_mulsubs.run mem [.p 0 c.1, .f (w c.2 9), .p 0 3] ≠
      some (none, writes mem [((0, 3), (Cglm.glm_vec3_mulsubs (⟨w c.2 (c.1 + 0), w c.2 (c.1 + 1), w c.2 (c.1 + 2)⟩ : V3 F32) (w c.2 9) (⟨w c.2 3, w c.2 4, w c.2 5⟩ : V3 F32)).list.map .f)]) :=
  all_differ (by kernel_rfl)

theorem C98_vec3_maxsub_a_exact [Libm] : ∀ c ∈ ([(1, 1), (2, 1)] : List (Nat × Nat)), let mem : Mem F32 := [⟨true, (List.range 9).map fun i => .f (w c.2 i)⟩, ⟨false, (List.range 3).map fun i => .f (w c.2 (i + 9))⟩]
    C.glm_vec3_maxsub.run mem [.p 0 c.1, .p 1 0, .p 0 3] ≠
      some (none, writes mem [((0, 3), (Cglm.glm_vec3_maxsub (⟨w c.2 (c.1 + 0), w c.2 (c.1 + 1), w c.2 (c.1 + 2)⟩ : V3 F32) (⟨w c.2 9, w c.2 10, w c.2 11⟩ : V3 F32) (⟨w c.2 3, w c.2 4, w c.2 5⟩ : V3 F32)).list.map .f)]) :=
  all_differ (by kernel_rfl)

theorem C98_vec3_maxsub_b_exact [Libm] : ∀ c ∈ ([(1, 1), (2, 1)] : List (Nat × Nat)), let mem : Mem F32 := [⟨true, (List.range 9).map fun i => .f (w c.2 i)⟩, ⟨false, (List.range 3).map fun i => .f (w c.2 (i + 9))⟩]
    C.glm_vec3_maxsub.run mem [.p 1 0, .p 0 c.1, .p 0 3] ≠
      some (none, writes mem [((0, 3), (Cglm.glm_vec3_maxsub (⟨w c.2 9, w c.2 10, w c.2 11⟩ : V3 F32) (⟨w c.2 (c.1 + 0), w c.2 (c.1 + 1), w c.2 (c.1 + 2)⟩ : V3 F32) (⟨w c.2 3, w c.2 4, w c.2 5⟩ : V3 F32)).list.map .f)]) :=
  all_differ (by kernel_rfl)

theorem C98_vec3_minsub_a_exact [Libm] : ∀ c ∈ ([(1, 0), (2, 0)] : List (Nat × Nat)), let mem : Mem F32 := [⟨true, (List.range 9).map fun i => .f (w c.2 i)⟩, ⟨false, (List.range 3).map fun i => .f (w c.2 (i + 9))⟩]
    C.glm_vec3_minsub.run mem [.p 0 c.1, .p 1 0, .p 0 3] ≠
      some (none, writes mem [((0, 3), (Cglm.glm_vec3_minsub (⟨w c.2 (c.1 + 0), w c.2 (c.1 + 1), w c.2 (c.1 + 2)⟩ : V3 F32) (⟨w c.2 9, w c.2 10, w c.2 11⟩ : V3 F32) (⟨w c.2 3, w c.2 4, w c.2 5⟩ : V3 F32)).list.map .f)]) :=
  all_differ (by kernel_rfl)

theorem C98_vec3_minsub_b_exact [Libm] : ∀ c ∈ ([(1, 0), (2, 0)] : List (Nat × Nat)), let mem : Mem F32 := [⟨true, (List.range 9).map fun i => .f (w c.2 i)⟩, ⟨false, (List.range 3).map fun i => .f (w c.2 (i + 9))⟩]
    C.glm_vec3_minsub.run mem [.p 1 0, .p 0 c.1, .p 0 3] ≠
      some (none, writes mem [((0, 3), (Cglm.glm_vec3_minsub (⟨w c.2 9, w c.2 10, w c.2 11⟩ : V3 F32) (⟨w c.2 (c.1 + 0), w c.2 (c.1 + 1), w c.2 (c.1 + 2)⟩ : V3 F32) (⟨w c.2 3, w c.2 4, w c.2 5⟩ : V3 F32)).list.map .f)]) :=
  all_differ (by kernel_rfl)

theorem C98_vec3_negate_to_exact [Libm] : ∀ c ∈ ([(1, 0), (2, 0)] : List (Nat × Nat)), let mem : Mem F32 := [⟨true, (List.range 9).map fun i => .f (w c.2 i)⟩]
    C.glm_vec3_negate_to.run mem [.p 0 c.1, .p 0 3] ≠
      some (none, writes mem [((0, 3), (Cglm.glm_vec3_negate_to (⟨w c.2 (c.1 + 0), w c.2 (c.1 + 1), w c.2 (c.1 + 2)⟩ : V3 F32)).list.map .f)]) :=
  all_differ (by kernel_rfl)

theorem C98_vec3_normalize_to_exact [Libm] : ∀ c ∈ ([(1, 0), (2, 0)] : List (Nat × Nat)), let mem : Mem F32 := [⟨true, (List.range 9).map fun i => .f (w c.2 i)⟩]
    C.glm_vec3_normalize_to.run mem [.p 0 c.1, .p 0 3] ≠
      some (none, writes mem [((0, 3), (Cglm.glm_vec3_normalize_to (⟨w c.2 (c.1 + 0), w c.2 (c.1 + 1), w c.2 (c.1 + 2)⟩ : V3 F32)).list.map .f)]) :=
  all_differ (by kernel_rfl)

theorem C98_vec3_proj_b_exact [Libm] : ∀ c ∈ ([(1, 0), (2, 0)] : List (Nat × Nat)), let mem : Mem F32 := [⟨true, (List.range 9).map fun i => .f (w c.2 i)⟩, ⟨false, (List.range 3).map fun i => .f (w c.2 (i + 9))⟩]
    C.glm_vec3_proj.run mem [.p 1 0, .p 0 c.1, .p 0 3] ≠
      some (none, writes mem [((0, 3), (Cglm.glm_vec3_proj (⟨w c.2 9, w c.2 10, w c.2 11⟩ : V3 F32) (⟨w c.2 (c.1 + 0), w c.2 (c.1 + 1), w c.2 (c.1 + 2)⟩ : V3 F32)).list.map .f)]) :=
  all_differ (by kernel_rfl)

theorem C98_vec3_center_a_exact [Libm] : ∀ c ∈ ([(1, 0), (2, 0)] : List (Nat × Nat)), let mem : Mem F32 := [⟨true, (List.range 9).map fun i => .f (w c.2 i)⟩, ⟨false, (List.range 3).map fun i => .f (w c.2 (i + 9))⟩]
    C.glm_vec3_center.run mem [.p 0 c.1, .p 1 0, .p 0 3] ≠
      some (none, writes mem [((0, 3), (Cglm.glm_vec3_center (⟨w c.2 (c.1 + 0), w c.2 (c.1 + 1), w c.2 (c.1 + 2)⟩ : V3 F32) (⟨w c.2 9, w c.2 10, w c.2 11⟩ : V3 F32)).list.map .f)]) :=
  all_differ (by kernel_rfl)

theorem C98_vec3_center_b_exact [Libm] : ∀ c ∈ ([(1, 0), (2, 0)] : List (Nat × Nat)), let mem : Mem F32 := [⟨true, (List.range 9).map fun i => .f (w c.2 i)⟩, ⟨false, (List.range 3).map fun i => .f (w c.2 (i + 9))⟩]
    C.glm_vec3_center.run mem [.p 1 0, .p 0 c.1, .p 0 3] ≠
      some (none, writes mem [((0, 3), (Cglm.glm_vec3_center (⟨w c.2 9, w c.2 10, w c.2 11⟩ : V3 F32) (⟨w c.2 (c.1 + 0), w c.2 (c.1 + 1), w c.2 (c.1 + 2)⟩ : V3 F32)).list.map .f)]) :=
  all_differ (by kernel_rfl)

theorem C98_vec3_maxv_a_exact [Libm] : ∀ c ∈ ([(1, 2), (2, 1)] : List (Nat × Nat)), let mem : Mem F32 := [⟨true, (List.range 9).map fun i => .f (w c.2 i)⟩, ⟨false, (List.range 3).map fun i => .f (w c.2 (i + 9))⟩]
    C.glm_vec3_maxv.run mem [.p 0 c.1, .p 1 0, .p 0 3] ≠
      some (none, writes mem [((0, 3), (Cglm.glm_vec3_maxv (⟨w c.2 (c.1 + 0), w c.2 (c.1 + 1), w c.2 (c.1 + 2)⟩ : V3 F32) (⟨w c.2 9, w c.2 10, w c.2 11⟩ : V3 F32)).list.map .f)]) :=
  all_differ (by kernel_rfl)

theorem C98_vec3_maxv_b_exact [Libm] : ∀ c ∈ ([(1, 2), (2, 1)] : List (Nat × Nat)), let mem : Mem F32 := [⟨true, (List.range 9).map fun i => .f (w c.2 i)⟩, ⟨false, (List.range 3).map fun i => .f (w c.2 (i + 9))⟩]
    C.glm_vec3_maxv.run mem [.p 1 0, .p 0 c.1, .p 0 3] ≠
      some (none, writes mem [((0, 3), (Cglm.glm_vec3_maxv (⟨w c.2 9, w c.2 10, w c.2 11⟩ : V3 F32) (⟨w c.2 (c.1 + 0), w c.2 (c.1 + 1), w c.2 (c.1 + 2)⟩ : V3 F32)).list.map .f)]) :=
  all_differ (by kernel_rfl)

theorem C98_vec3_minv_a_exact [Libm] : ∀ c ∈ ([(1, 0), (2, 0)] : List (Nat × Nat)), let mem : Mem F32 := [⟨true, (List.range 9).map fun i => .f (w c.2 i)⟩, ⟨false, (List.range 3).map fun i => .f (w c.2 (i + 9))⟩]
    C.glm_vec3_minv.run mem [.p 0 c.1, .p 1 0, .p 0 3] ≠
      some (none, writes mem [((0, 3), (Cglm.glm_vec3_minv (⟨w c.2 (c.1 + 0), w c.2 (c.1 + 1), w c.2 (c.1 + 2)⟩ : V3 F32) (⟨w c.2 9, w c.2 10, w c.2 11⟩ : V3 F32)).list.map .f)]) :=
  all_differ (by kernel_rfl)

theorem C98_vec3_minv_b_exact [Libm] : ∀ c ∈ ([(1, 0), (2, 0)] : List (Nat × Nat)), let mem : Mem F32 := [⟨true, (List.range 9).map fun i => .f (w c.2 i)⟩, ⟨false, (List.range 3).map fun i => .f (w c.2 (i + 9))⟩]
    C.glm_vec3_minv.run mem [.p 1 0, .p 0 c.1, .p 0 3] ≠
      some (none, writes mem [((0, 3), (Cglm.glm_vec3_minv (⟨w c.2 9, w c.2 10, w c.2 11⟩ : V3 F32) (⟨w c.2 (c.1 + 0), w c.2 (c.1 + 1), w c.2 (c.1 + 2)⟩ : V3 F32)).list.map .f)]) :=
  all_differ (by kernel_rfl)

theorem C98_vec3_lerp_frm_exact [Libm] : ∀ c ∈ ([(1, 0), (2, 0)] : List (Nat × Nat)), let mem : Mem F32 := [⟨true, (List.range 9).map fun i => .f (w c.2 i)⟩, ⟨false, (List.range 3).map fun i => .f (w c.2 (i + 9))⟩]
    C.glm_vec3_lerp.run mem [.p 0 c.1, .p 1 0, .f (w c.2 12), .p 0 3] ≠
      some (none, writes mem [((0, 3), (Cglm.glm_vec3_lerp (⟨w c.2 (c.1 + 0), w c.2 (c.1 + 1), w c.2 (c.1 + 2)⟩ : V3 F32) (⟨w c.2 9, w c.2 10, w c.2 11⟩ : V3 F32) (w c.2 12)).list.map .f)]) :=
  all_differ (by kernel_rfl)

theorem C98_vec3_lerpc_frm_exact [Libm] : ∀ c ∈ ([(1, 0), (2, 0)] : List (Nat × Nat)), let mem : Mem F32 := [⟨true, (List.range 9).map fun i => .f (w c.2 i)⟩, ⟨false, (List.range 3).map fun i => .f (w c.2 (i + 9))⟩]
    C.glm_vec3_lerpc.run mem [.p 0 c.1, .p 1 0, .f (w c.2 12), .p 0 3] ≠
      some (none, writes mem [((0, 3), (Cglm.glm_vec3_lerpc (⟨w c.2 (c.1 + 0), w c.2 (c.1 + 1), w c.2 (c.1 + 2)⟩ : V3 F32) (⟨w c.2 9, w c.2 10, w c.2 11⟩ : V3 F32) (w c.2 12)).list.map .f)]) :=
  all_differ (by kernel_rfl)

theorem C98_vec3_mix_frm_exact [Libm] : ∀ c ∈ ([(1, 0), (2, 0)] : List (Nat × Nat)), let mem : Mem F32 := [⟨true, (List.range 9).map fun i => .f (w c.2 i)⟩, ⟨false, (List.range 3).map fun i => .f (w c.2 (i + 9))⟩]
    C.glm_vec3_mix.run mem [.p 0 c.1, .p 1 0, .f (w c.2 12), .p 0 3] ≠
      some (none, writes mem [((0, 3), (Cglm.glm_vec3_mix (⟨w c.2 (c.1 + 0), w c.2 (c.1 + 1), w c.2 (c.1 + 2)⟩ : V3 F32) (⟨w c.2 9, w c.2 10, w c.2 11⟩ : V3 F32) (w c.2 12)).list.map .f)]) :=
  all_differ (by kernel_rfl)

theorem C98_vec3_mixc_frm_exact [Libm] : ∀ c ∈ ([(1, 0), (2, 0)] : List (Nat × Nat)), let mem : Mem F32 := [⟨true, (List.range 9).map fun i => .f (w c.2 i)⟩, ⟨false, (List.range 3).map fun i => .f (w c.2 (i + 9))⟩]
    C.glm_vec3_mixc.run mem [.p 0 c.1, .p 1 0, .f (w c.2 12), .p 0 3] ≠
      some (none, writes mem [((0, 3), (Cglm.glm_vec3_mixc (⟨w c.2 (c.1 + 0), w c.2 (c.1 + 1), w c.2 (c.1 + 2)⟩ : V3 F32) (⟨w c.2 9, w c.2 10, w c.2 11⟩ : V3 F32) (w c.2 12)).list.map .f)]) :=
  all_differ (by kernel_rfl)

theorem C98_vec3_step_edge_exact [Libm] : ∀ c ∈ ([(1, 1), (2, 3)] : List (Nat × Nat)), let mem : Mem F32 := [⟨true, (List.range 9).map fun i => .f (w c.2 i)⟩, ⟨false, (List.range 3).map fun i => .f (w c.2 (i + 9))⟩]
    C.glm_vec3_step.run mem [.p 0 c.1, .p 1 0, .p 0 3] ≠
      some (none, writes mem [((0, 3), (Cglm.glm_vec3_step (⟨w c.2 (c.1 + 0), w c.2 (c.1 + 1), w c.2 (c.1 + 2)⟩ : V3 F32) (⟨w c.2 9, w c.2 10, w c.2 11⟩ : V3 F32)).list.map .f)]) :=
  all_differ (by kernel_rfl)

theorem C98_vec3_step_x_exact [Libm] : ∀ c ∈ ([(1, 1), (2, 3)] : List (Nat × Nat)), let mem : Mem F32 := [⟨true, (List.range 9).map fun i => .f (w c.2 i)⟩, ⟨false, (List.range 3).map fun i => .f (w c.2 (i + 9))⟩]
    C.glm_vec3_step.run mem [.p 1 0, .p 0 c.1, .p 0 3] ≠
      some (none, writes mem [((0, 3), (Cglm.glm_vec3_step (⟨w c.2 9, w c.2 10, w c.2 11⟩ : V3 F32) (⟨w c.2 (c.1 + 0), w c.2 (c.1 + 1), w c.2 (c.1 + 2)⟩ : V3 F32)).list.map .f)]) :=
  all_differ (by kernel_rfl)

theorem C98_vec3_smoothstep_uni_exact [Libm] : ∀ c ∈ ([(1, 1), (2, 1)] : List (Nat × Nat)), let mem : Mem F32 := [⟨true, (List.range 9).map fun i => .f (w c.2 i)⟩]
    C.glm_vec3_smoothstep_uni.run mem [.f (w c.2 9), .f (w c.2 10), .p 0 c.1, .p 0 3] ≠
      some (none, writes mem [((0, 3), (Cglm.glm_vec3_smoothstep_uni (w c.2 9) (w c.2 10) (⟨w c.2 (c.1 + 0), w c.2 (c.1 + 1), w c.2 (c.1 + 2)⟩ : V3 F32)).list.map .f)]) :=
  all_differ (by kernel_rfl)

theorem C98_vec3_smoothstep_edge0_exact [Libm] : ∀ c ∈ ([(1, 1), (2, 1)] : List (Nat × Nat)), let mem : Mem F32 := [⟨true, (List.range 9).map fun i => .f (w c.2 i)⟩, ⟨false, (List.range 3).map fun i => .f (w c.2 (i + 9))⟩, ⟨false, (List.range 3).map fun i => .f (w c.2 (i + 12))⟩]
    C.glm_vec3_smoothstep.run mem [.p 0 c.1, .p 1 0, .p 2 0, .p 0 3] ≠
      some (none, writes mem [((0, 3), (Cglm.glm_vec3_smoothstep (⟨w c.2 (c.1 + 0), w c.2 (c.1 + 1), w c.2 (c.1 + 2)⟩ : V3 F32) (⟨w c.2 9, w c.2 10, w c.2 11⟩ : V3 F32) (⟨w c.2 12, w c.2 13, w c.2 14⟩ : V3 F32)).list.map .f)]) :=
  all_differ (by kernel_rfl)

theorem C98_vec3_smoothstep_edge1_exact [Libm] : ∀ c ∈ ([(1, 1), (2, 1)] : List (Nat × Nat)), let mem : Mem F32 := [⟨true, (List.range 9).map fun i => .f (w c.2 i)⟩, ⟨false, (List.range 3).map fun i => .f (w c.2 (i + 9))⟩, ⟨false, (List.range 3).map fun i => .f (w c.2 (i + 12))⟩]
    C.glm_vec3_smoothstep.run mem [.p 1 0, .p 0 c.1, .p 2 0, .p 0 3] ≠
      some (none, writes mem [((0, 3), (Cglm.glm_vec3_smoothstep (⟨w c.2 9, w c.2 10, w c.2 11⟩ : V3 F32) (⟨w c.2 (c.1 + 0), w c.2 (c.1 + 1), w c.2 (c.1 + 2)⟩ : V3 F32) (⟨w c.2 12, w c.2 13, w c.2 14⟩ : V3 F32)).list.map .f)]) :=
  all_differ (by kernel_rfl)

theorem C98_vec3_smoothstep_x_exact [Libm] : ∀ c ∈ ([(1, 1), (2, 3)] : List (Nat × Nat)), let mem : Mem F32 := [⟨true, (List.range 9).map fun i => .f (w c.2 i)⟩, ⟨false, (List.range 3).map fun i => .f (w c.2 (i + 9))⟩, ⟨false, (List.range 3).map fun i => .f (w c.2 (i + 12))⟩]
    C.glm_vec3_smoothstep.run mem [.p 1 0, .p 2 0, .p 0 c.1, .p 0 3] ≠
      some (none, writes mem [((0, 3), (Cglm.glm_vec3_smoothstep (⟨w c.2 9, w c.2 10, w c.2 11⟩ : V3 F32) (⟨w c.2 12, w c.2 13, w c.2 14⟩ : V3 F32) (⟨w c.2 (c.1 + 0), w c.2 (c.1 + 1), w c.2 (c.1 + 2)⟩ : V3 F32)).list.map .f)]) :=
  all_differ (by kernel_rfl)

theorem C98_vec3_smoothinterp_frm_exact [Libm] : ∀ c ∈ ([(1, 0), (2, 0)] : List (Nat × Nat)), let mem : Mem F32 := [⟨true, (List.range 9).map fun i => .f (w c.2 i)⟩, ⟨false, (List.range 3).map fun i => .f (w c.2 (i + 9))⟩]
    C.glm_vec3_smoothinterp.run mem [.p 0 c.1, .p 1 0, .f (w c.2 12), .p 0 3] ≠
      some (none, writes mem [((0, 3), (Cglm.glm_vec3_smoothinterp (⟨w c.2 (c.1 + 0), w c.2 (c.1 + 1), w c.2 (c.1 + 2)⟩ : V3 F32) (⟨w c.2 9, w c.2 10, w c.2 11⟩ : V3 F32) (w c.2 12)).list.map .f)]) :=
  all_differ (by kernel_rfl)

theorem C98_vec3_smoothinterpc_frm_exact [Libm] : ∀ c ∈ ([(1, 0), (2, 0)] : List (Nat × Nat)), let mem : Mem F32 := [⟨true, (List.range 9).map fun i => .f (w c.2 i)⟩, ⟨false, (List.range 3).map fun i => .f (w c.2 (i + 9))⟩]
    C.glm_vec3_smoothinterpc.run mem [.p 0 c.1, .p 1 0, .f (w c.2 12), .p 0 3] ≠
      some (none, writes mem [((0, 3), (Cglm.glm_vec3_smoothinterpc (⟨w c.2 (c.1 + 0), w c.2 (c.1 + 1), w c.2 (c.1 + 2)⟩ : V3 F32) (⟨w c.2 9, w c.2 10, w c.2 11⟩ : V3 F32) (w c.2 12)).list.map .f)]) :=
  all_differ (by kernel_rfl)

theorem C98_normalize_to_exact [Libm] : ∀ c ∈ ([(1, 0), (2, 0)] : List (Nat × Nat)), let mem : Mem F32 := [⟨true, (List.range 9).map fun i => .f (w c.2 i)⟩]
    C.glm_normalize_to.run mem [.p 0 c.1, .p 0 3] ≠
      some (none, writes mem [((0, 3), (Cglm.glm_normalize_to (⟨w c.2 (c.1 + 0), w c.2 (c.1 + 1), w c.2 (c.1 + 2)⟩ : V3 F32)).list.map .f)]) :=
  all_differ (by kernel_rfl)

theorem C98_vec3_make_exact [Libm] : ∀ c ∈ ([(1, 0), (2, 0)] : List (Nat × Nat)), let mem : Mem F32 := [⟨true, (List.range 9).map fun i => .f (w c.2 i)⟩]
    C.glm_vec3_make.run mem [.p 0 c.1, .p 0 3] ≠
      some (none, writes mem [((0, 3), (Cglm.glm_vec3_make (⟨w c.2 (c.1 + 0), w c.2 (c.1 + 1), w c.2 (c.1 + 2)⟩ : V3 F32)).list.map .f)]) :=
  all_differ (by kernel_rfl)

theorem C98_vec3_faceforward_n_exact [Libm] : ∀ c ∈ ([(1, 0), (2, 0)] : List (Nat × Nat)), let mem : Mem F32 := [⟨true, (List.range 9).map fun i => .f (w c.2 i)⟩, ⟨false, (List.range 3).map fun i => .f (w c.2 (i + 9))⟩, ⟨false, (List.range 3).map fun i => .f (w c.2 (i + 12))⟩]
    C.glm_vec3_faceforward.run mem [.p 0 c.1, .p 1 0, .p 2 0, .p 0 3] ≠
      some (none, writes mem [((0, 3), (Cglm.glm_vec3_faceforward (⟨w c.2 (c.1 + 0), w c.2 (c.1 + 1), w c.2 (c.1 + 2)⟩ : V3 F32) (⟨w c.2 9, w c.2 10, w c.2 11⟩ : V3 F32) (⟨w c.2 12, w c.2 13, w c.2 14⟩ : V3 F32)).list.map .f)]) :=
  all_differ (by kernel_rfl)

theorem C98_vec3_reflect_v_exact [Libm] : ∀ c ∈ ([(1, 0), (2, 0)] : List (Nat × Nat)), let mem : Mem F32 := [⟨true, (List.range 9).map fun i => .f (w c.2 i)⟩, ⟨false, (List.range 3).map fun i => .f (w c.2 (i + 9))⟩]
    C.glm_vec3_reflect.run mem [.p 0 c.1, .p 1 0, .p 0 3] ≠
      some (none, writes mem [((0, 3), (Cglm.glm_vec3_reflect (⟨w c.2 (c.1 + 0), w c.2 (c.1 + 1), w c.2 (c.1 + 2)⟩ : V3 F32) (⟨w c.2 9, w c.2 10, w c.2 11⟩ : V3 F32)).list.map .f)]) :=
  all_differ (by kernel_rfl)

end Cglm
