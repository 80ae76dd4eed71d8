/- Generated by tools/safethms.py; do not edit by hand. -/
import Verif.Lib.Affine

/-!
# C56: memory safety when the arguments overlap in any way

No theorem here assumes anything about how the arguments lie relative «to» each other: inputs may be the destination,
or overlap it or each other partly.  Whenever every input is initialised and every destination is writable, the call
is defined, no cell outside the destinations changes, and the destinations end up initialised.
-/

set_option linter.unusedVariables false
set_option linter.unusedSectionVars false

namespace Cglm
open CMem

variable {α : Type} [Add α] [Sub α] [Mul α] [Div α] [Neg α] [CFloat α]

/-! ## include/cglm/affine-mat.h -/

theorem C56_any_mul {mem : Mem α} {m1P m2P destP : Ptr} (h_m1 : Init mem m1P 16) (h_m2 : Init mem m2P 16) (r_dest : Room mem destP 16) :
    Safe mem [(destP, 16)] .void (C.glm_mul.run mem [m1P.val, m2P.val, destP.val]) :=
  safe_entry Lib.glm_mul_ok [.inp m1P 16, .inp m2P 16, .out destP 16] ⟨⟨initK_isF.mpr h_m1, by decide⟩, ⟨initK_isF.mpr h_m2, by decide⟩, ⟨r_dest, by decide⟩, trivial⟩ rfl
example (x : α) : let mem : Mem α := [⟨true, List.replicate 18 (.f x)⟩]
    Init mem (0, 0) 16 ∧ Init mem (0, 1) 16 ∧ Room mem (0, 2) 16 :=
  ⟨.replicate (by decide), .replicate (by decide), .replicate (by decide)⟩

theorem C56_any_mul_rot {mem : Mem α} {m1P m2P destP : Ptr} (h_m1 : Init mem m1P 16) (h_m2 : Init mem m2P 16) (r_dest : Room mem destP 16) :
    Safe mem [(destP, 16)] .void (C.glm_mul_rot.run mem [m1P.val, m2P.val, destP.val]) :=
  safe_entry Lib.glm_mul_rot_ok [.inp m1P 16, .inp m2P 16, .out destP 16] ⟨⟨initK_isF.mpr h_m1, by decide⟩, ⟨initK_isF.mpr h_m2, by decide⟩, ⟨r_dest, by decide⟩, trivial⟩ rfl
example (x : α) : let mem : Mem α := [⟨true, List.replicate 18 (.f x)⟩]
    Init mem (0, 0) 16 ∧ Init mem (0, 1) 16 ∧ Room mem (0, 2) 16 :=
  ⟨.replicate (by decide), .replicate (by decide), .replicate (by decide)⟩

theorem C56_any_inv_tr {mem : Mem α} {matP : Ptr} (h_mat : Init mem matP 16) (r_mat : Room mem matP 16) :
    Safe mem [(matP, 16)] .void (C.glm_inv_tr.run mem [matP.val]) :=
  safe_entry Lib.glm_inv_tr_ok [.io matP 16] ⟨⟨initK_isF.mpr h_mat, r_mat, by decide⟩, trivial⟩ rfl
example (x : α) : let mem : Mem α := [⟨true, List.replicate 16 (.f x)⟩]
    Init mem (0, 0) 16 ∧ Room mem (0, 0) 16 :=
  ⟨.replicate (by decide), .replicate (by decide)⟩

/-! ## include/cglm/affine.h -/

theorem C56_any_translate_make {mem : Mem α} {mP vP : Ptr} (r_m : Room mem mP 16) (h_v : Init mem vP 3) :
    Safe mem [(mP, 16)] .void (C.glm_translate_make.run mem [mP.val, vP.val]) :=
  safe_entry Lib.glm_translate_make_ok [.out mP 16, .inp vP 3] ⟨⟨r_m, by decide⟩, ⟨initK_isF.mpr h_v, by decide⟩, trivial⟩ rfl
example (x : α) : let mem : Mem α := [⟨true, List.replicate 16 (.f x)⟩]
    Room mem (0, 0) 16 ∧ Init mem (0, 1) 3 :=
  ⟨.replicate (by decide), .replicate (by decide)⟩

theorem C56_any_scale_to {mem : Mem α} {mP vP destP : Ptr} (h_m : Init mem mP 16) (h_v : Init mem vP 3) (r_dest : Room mem destP 16) :
    Safe mem [(destP, 16)] .void (C.glm_scale_to.run mem [mP.val, vP.val, destP.val]) :=
  safe_entry Lib.glm_scale_to_ok [.inp mP 16, .inp vP 3, .out destP 16] ⟨⟨initK_isF.mpr h_m, by decide⟩, ⟨initK_isF.mpr h_v, by decide⟩, ⟨r_dest, by decide⟩, trivial⟩ rfl
example (x : α) : let mem : Mem α := [⟨true, List.replicate 18 (.f x)⟩]
    Init mem (0, 0) 16 ∧ Init mem (0, 1) 3 ∧ Room mem (0, 2) 16 :=
  ⟨.replicate (by decide), .replicate (by decide), .replicate (by decide)⟩

theorem C56_any_scale_make {mem : Mem α} {mP vP : Ptr} (r_m : Room mem mP 16) (h_v : Init mem vP 3) :
    Safe mem [(mP, 16)] .void (C.glm_scale_make.run mem [mP.val, vP.val]) :=
  safe_entry Lib.glm_scale_make_ok [.out mP 16, .inp vP 3] ⟨⟨r_m, by decide⟩, ⟨initK_isF.mpr h_v, by decide⟩, trivial⟩ rfl
example (x : α) : let mem : Mem α := [⟨true, List.replicate 16 (.f x)⟩]
    Room mem (0, 0) 16 ∧ Init mem (0, 1) 3 :=
  ⟨.replicate (by decide), .replicate (by decide)⟩

theorem C56_any_scale {mem : Mem α} {mP vP : Ptr} (h_m : Init mem mP 16) (r_m : Room mem mP 16) (h_v : Init mem vP 3) :
    Safe mem [(mP, 16)] .void (C.glm_scale.run mem [mP.val, vP.val]) :=
  safe_entry Lib.glm_scale_ok [.io mP 16, .inp vP 3] ⟨⟨initK_isF.mpr h_m, r_m, by decide⟩, ⟨initK_isF.mpr h_v, by decide⟩, trivial⟩ rfl
example (x : α) : let mem : Mem α := [⟨true, List.replicate 16 (.f x)⟩]
    Init mem (0, 0) 16 ∧ Room mem (0, 0) 16 ∧ Init mem (0, 1) 3 :=
  ⟨.replicate (by decide), .replicate (by decide), .replicate (by decide)⟩

theorem C56_any_scale_uni {mem : Mem α} {mP : Ptr} (s : α) (h_m : Init mem mP 16) (r_m : Room mem mP 16) :
    Safe mem [(mP, 16)] .void (C.glm_scale_uni.run mem [mP.val, .f s]) :=
  safe_entry Lib.glm_scale_uni_ok [.io mP 16, .f s] ⟨⟨initK_isF.mpr h_m, r_m, by decide⟩, trivial, trivial⟩ rfl
example (x : α) : let mem : Mem α := [⟨true, List.replicate 16 (.f x)⟩]
    Init mem (0, 0) 16 ∧ Room mem (0, 0) 16 :=
  ⟨.replicate (by decide), .replicate (by decide)⟩

theorem C56_any_rotate_make {mem : Mem α} {mP axisP : Ptr} (angle : α) (r_m : Room mem mP 16) (h_axis : Init mem axisP 3) :
    Safe mem [(mP, 16)] .void (C.glm_rotate_make.run mem [mP.val, .f angle, axisP.val]) :=
  safe_entry Lib.glm_rotate_make_ok [.out mP 16, .f angle, .inp axisP 3] ⟨⟨r_m, by decide⟩, trivial, ⟨initK_isF.mpr h_axis, by decide⟩, trivial⟩ rfl
example (x : α) : let mem : Mem α := [⟨true, List.replicate 16 (.f x)⟩]
    Room mem (0, 0) 16 ∧ Init mem (0, 1) 3 :=
  ⟨.replicate (by decide), .replicate (by decide)⟩

theorem C56_any_decompose_scalev {mem : Mem α} {mP sP : Ptr} (h_m : Init mem mP 16) (r_s : Room mem sP 3) :
    Safe mem [(sP, 3)] .void (C.glm_decompose_scalev.run mem [mP.val, sP.val]) :=
  safe_entry Lib.glm_decompose_scalev_ok [.inp mP 16, .out sP 3] ⟨⟨initK_isF.mpr h_m, by decide⟩, ⟨r_s, by decide⟩, trivial⟩ rfl
example (x : α) : let mem : Mem α := [⟨true, List.replicate 16 (.f x)⟩]
    Init mem (0, 0) 16 ∧ Room mem (0, 1) 3 :=
  ⟨.replicate (by decide), .replicate (by decide)⟩

theorem C56_any_uniscaled {mem : Mem α} {mP : Ptr} (h_m : Init mem mP 16) :
    Safe mem [] .bool (C.glm_uniscaled.run mem [mP.val]) :=
  safe_entry Lib.glm_uniscaled_ok [.inp mP 16] ⟨⟨initK_isF.mpr h_m, by decide⟩, trivial⟩ rfl
example (x : α) : let mem : Mem α := [⟨true, List.replicate 16 (.f x)⟩]
    Init mem (0, 0) 16 :=
  .replicate (by decide)

theorem C56_any_decompose_rs {mem : Mem α} {mP rP sP : Ptr} (h_m : Init mem mP 16) (r_r : Room mem rP 16) (r_s : Room mem sP 3) :
    Safe mem [(rP, 16), (sP, 3)] .void (C.glm_decompose_rs.run mem [mP.val, rP.val, sP.val]) :=
  safe_entry Lib.glm_decompose_rs_ok [.inp mP 16, .out rP 16, .out sP 3] ⟨⟨initK_isF.mpr h_m, by decide⟩, ⟨r_r, by decide⟩, ⟨r_s, by decide⟩, trivial⟩ rfl
example (x : α) : let mem : Mem α := [⟨true, List.replicate 17 (.f x)⟩]
    Init mem (0, 0) 16 ∧ Room mem (0, 1) 16 ∧ Room mem (0, 2) 3 :=
  ⟨.replicate (by decide), .replicate (by decide), .replicate (by decide)⟩

theorem C56_any_decompose {mem : Mem α} {mP tP rP sP : Ptr} (h_m : Init mem mP 16) (r_t : Room mem tP 4) (r_r : Room mem rP 16) (r_s : Room mem sP 3) :
    Safe mem [(tP, 4), (rP, 16), (sP, 3)] .void (C.glm_decompose.run mem [mP.val, tP.val, rP.val, sP.val]) :=
  safe_entry Lib.glm_decompose_ok [.inp mP 16, .out tP 4, .out rP 16, .out sP 3] ⟨⟨initK_isF.mpr h_m, by decide⟩, ⟨r_t, by decide⟩, ⟨r_r, by decide⟩, ⟨r_s, by decide⟩, trivial⟩ rfl
example (x : α) : let mem : Mem α := [⟨true, List.replicate 18 (.f x)⟩]
    Init mem (0, 0) 16 ∧ Room mem (0, 1) 4 ∧ Room mem (0, 2) 16 ∧ Room mem (0, 3) 3 :=
  ⟨.replicate (by decide), .replicate (by decide), .replicate (by decide), .replicate (by decide)⟩

/-! ## include/cglm/affine-pre.h -/

theorem C56_any_translate {mem : Mem α} {mP vP : Ptr} (h_m : Init mem mP 16) (r_m : Room mem mP 16) (h_v : Init mem vP 3) :
    Safe mem [(mP, 16)] .void (C.glm_translate.run mem [mP.val, vP.val]) :=
  safe_entry Lib.glm_translate_ok [.io mP 16, .inp vP 3] ⟨⟨initK_isF.mpr h_m, r_m, by decide⟩, ⟨initK_isF.mpr h_v, by decide⟩, trivial⟩ rfl
example (x : α) : let mem : Mem α := [⟨true, List.replicate 16 (.f x)⟩]
    Init mem (0, 0) 16 ∧ Room mem (0, 0) 16 ∧ Init mem (0, 1) 3 :=
  ⟨.replicate (by decide), .replicate (by decide), .replicate (by decide)⟩

theorem C56_any_translate_to {mem : Mem α} {mP vP destP : Ptr} (h_m : Init mem mP 16) (h_v : Init mem vP 3) (r_dest : Room mem destP 16) :
    Safe mem [(destP, 16)] .void (C.glm_translate_to.run mem [mP.val, vP.val, destP.val]) :=
  safe_entry Lib.glm_translate_to_ok [.inp mP 16, .inp vP 3, .out destP 16] ⟨⟨initK_isF.mpr h_m, by decide⟩, ⟨initK_isF.mpr h_v, by decide⟩, ⟨r_dest, by decide⟩, trivial⟩ rfl
example (x : α) : let mem : Mem α := [⟨true, List.replicate 18 (.f x)⟩]
    Init mem (0, 0) 16 ∧ Init mem (0, 1) 3 ∧ Room mem (0, 2) 16 :=
  ⟨.replicate (by decide), .replicate (by decide), .replicate (by decide)⟩

theorem C56_any_translate_x {mem : Mem α} {mP : Ptr} (x : α) (h_m : Init mem mP 16) (r_m : Room mem mP 16) :
    Safe mem [(mP, 16)] .void (C.glm_translate_x.run mem [mP.val, .f x]) :=
  safe_entry Lib.glm_translate_x_ok [.io mP 16, .f x] ⟨⟨initK_isF.mpr h_m, r_m, by decide⟩, trivial, trivial⟩ rfl
example (x : α) : let mem : Mem α := [⟨true, List.replicate 16 (.f x)⟩]
    Init mem (0, 0) 16 ∧ Room mem (0, 0) 16 :=
  ⟨.replicate (by decide), .replicate (by decide)⟩

theorem C56_any_translate_y {mem : Mem α} {mP : Ptr} (y : α) (h_m : Init mem mP 16) (r_m : Room mem mP 16) :
    Safe mem [(mP, 16)] .void (C.glm_translate_y.run mem [mP.val, .f y]) :=
  safe_entry Lib.glm_translate_y_ok [.io mP 16, .f y] ⟨⟨initK_isF.mpr h_m, r_m, by decide⟩, trivial, trivial⟩ rfl
example (x : α) : let mem : Mem α := [⟨true, List.replicate 16 (.f x)⟩]
    Init mem (0, 0) 16 ∧ Room mem (0, 0) 16 :=
  ⟨.replicate (by decide), .replicate (by decide)⟩

theorem C56_any_translate_z {mem : Mem α} {mP : Ptr} (z : α) (h_m : Init mem mP 16) (r_m : Room mem mP 16) :
    Safe mem [(mP, 16)] .void (C.glm_translate_z.run mem [mP.val, .f z]) :=
  safe_entry Lib.glm_translate_z_ok [.io mP 16, .f z] ⟨⟨initK_isF.mpr h_m, r_m, by decide⟩, trivial, trivial⟩ rfl
example (x : α) : let mem : Mem α := [⟨true, List.replicate 16 (.f x)⟩]
    Init mem (0, 0) 16 ∧ Room mem (0, 0) 16 :=
  ⟨.replicate (by decide), .replicate (by decide)⟩

theorem C56_any_rotate_x {mem : Mem α} {mP destP : Ptr} (angle : α) (h_m : Init mem mP 16) (r_dest : Room mem destP 16) :
    Safe mem [(destP, 16)] .void (C.glm_rotate_x.run mem [mP.val, .f angle, destP.val]) :=
  safe_entry Lib.glm_rotate_x_ok [.inp mP 16, .f angle, .out destP 16] ⟨⟨initK_isF.mpr h_m, by decide⟩, trivial, ⟨r_dest, by decide⟩, trivial⟩ rfl
example (x : α) : let mem : Mem α := [⟨true, List.replicate 17 (.f x)⟩]
    Init mem (0, 0) 16 ∧ Room mem (0, 1) 16 :=
  ⟨.replicate (by decide), .replicate (by decide)⟩

theorem C56_any_rotate_y {mem : Mem α} {mP destP : Ptr} (angle : α) (h_m : Init mem mP 16) (r_dest : Room mem destP 16) :
    Safe mem [(destP, 16)] .void (C.glm_rotate_y.run mem [mP.val, .f angle, destP.val]) :=
  safe_entry Lib.glm_rotate_y_ok [.inp mP 16, .f angle, .out destP 16] ⟨⟨initK_isF.mpr h_m, by decide⟩, trivial, ⟨r_dest, by decide⟩, trivial⟩ rfl
example (x : α) : let mem : Mem α := [⟨true, List.replicate 17 (.f x)⟩]
    Init mem (0, 0) 16 ∧ Room mem (0, 1) 16 :=
  ⟨.replicate (by decide), .replicate (by decide)⟩

theorem C56_any_rotate_z {mem : Mem α} {mP destP : Ptr} (angle : α) (h_m : Init mem mP 16) (r_dest : Room mem destP 16) :
    Safe mem [(destP, 16)] .void (C.glm_rotate_z.run mem [mP.val, .f angle, destP.val]) :=
  safe_entry Lib.glm_rotate_z_ok [.inp mP 16, .f angle, .out destP 16] ⟨⟨initK_isF.mpr h_m, by decide⟩, trivial, ⟨r_dest, by decide⟩, trivial⟩ rfl
example (x : α) : let mem : Mem α := [⟨true, List.replicate 17 (.f x)⟩]
    Init mem (0, 0) 16 ∧ Room mem (0, 1) 16 :=
  ⟨.replicate (by decide), .replicate (by decide)⟩

theorem C56_any_rotate {mem : Mem α} {mP axisP : Ptr} (angle : α) (h_m : Init mem mP 16) (r_m : Room mem mP 16) (h_axis : Init mem axisP 3) :
    Safe mem [(mP, 16)] .void (C.glm_rotate.run mem [mP.val, .f angle, axisP.val]) :=
  safe_entry Lib.glm_rotate_ok [.io mP 16, .f angle, .inp axisP 3] ⟨⟨initK_isF.mpr h_m, r_m, by decide⟩, trivial, ⟨initK_isF.mpr h_axis, by decide⟩, trivial⟩ rfl
example (x : α) : let mem : Mem α := [⟨true, List.replicate 16 (.f x)⟩]
    Init mem (0, 0) 16 ∧ Room mem (0, 0) 16 ∧ Init mem (0, 1) 3 :=
  ⟨.replicate (by decide), .replicate (by decide), .replicate (by decide)⟩

theorem C56_any_rotate_at {mem : Mem α} {mP pivotP axisP : Ptr} (angle : α) (h_m : Init mem mP 16) (r_m : Room mem mP 16) (h_pivot : Init mem pivotP 3) (h_axis : Init mem axisP 3) :
    Safe mem [(mP, 16)] .void (C.glm_rotate_at.run mem [mP.val, pivotP.val, .f angle, axisP.val]) :=
  safe_entry Lib.glm_rotate_at_ok [.io mP 16, .inp pivotP 3, .f angle, .inp axisP 3] ⟨⟨initK_isF.mpr h_m, r_m, by decide⟩, ⟨initK_isF.mpr h_pivot, by decide⟩, trivial, ⟨initK_isF.mpr h_axis, by decide⟩, trivial⟩ rfl
example (x : α) : let mem : Mem α := [⟨true, List.replicate 16 (.f x)⟩]
    Init mem (0, 0) 16 ∧ Room mem (0, 0) 16 ∧ Init mem (0, 1) 3 ∧ Init mem (0, 2) 3 :=
  ⟨.replicate (by decide), .replicate (by decide), .replicate (by decide), .replicate (by decide)⟩

theorem C56_any_rotate_atm {mem : Mem α} {mP pivotP axisP : Ptr} (angle : α) (r_m : Room mem mP 16) (h_pivot : Init mem pivotP 3) (h_axis : Init mem axisP 3) :
    Safe mem [(mP, 16)] .void (C.glm_rotate_atm.run mem [mP.val, pivotP.val, .f angle, axisP.val]) :=
  safe_entry Lib.glm_rotate_atm_ok [.out mP 16, .inp pivotP 3, .f angle, .inp axisP 3] ⟨⟨r_m, by decide⟩, ⟨initK_isF.mpr h_pivot, by decide⟩, trivial, ⟨initK_isF.mpr h_axis, by decide⟩, trivial⟩ rfl
example (x : α) : let mem : Mem α := [⟨true, List.replicate 16 (.f x)⟩]
    Room mem (0, 0) 16 ∧ Init mem (0, 1) 3 ∧ Init mem (0, 2) 3 :=
  ⟨.replicate (by decide), .replicate (by decide), .replicate (by decide)⟩

theorem C56_any_spin {mem : Mem α} {mP axisP : Ptr} (angle : α) (h_m : Init mem mP 16) (r_m : Room mem mP 16) (h_axis : Init mem axisP 3) :
    Safe mem [(mP, 16)] .void (C.glm_spin.run mem [mP.val, .f angle, axisP.val]) :=
  safe_entry Lib.glm_spin_ok [.io mP 16, .f angle, .inp axisP 3] ⟨⟨initK_isF.mpr h_m, r_m, by decide⟩, trivial, ⟨initK_isF.mpr h_axis, by decide⟩, trivial⟩ rfl
example (x : α) : let mem : Mem α := [⟨true, List.replicate 16 (.f x)⟩]
    Init mem (0, 0) 16 ∧ Room mem (0, 0) 16 ∧ Init mem (0, 1) 3 :=
  ⟨.replicate (by decide), .replicate (by decide), .replicate (by decide)⟩

/-! ## include/cglm/affine-post.h -/

theorem C56_any_translated {mem : Mem α} {mP vP : Ptr} (h_m : Init mem mP 16) (r_m : Room mem mP 16) (h_v : Init mem vP 3) :
    Safe mem [(mP, 16)] .void (C.glm_translated.run mem [mP.val, vP.val]) :=
  safe_entry Lib.glm_translated_ok [.io mP 16, .inp vP 3] ⟨⟨initK_isF.mpr h_m, r_m, by decide⟩, ⟨initK_isF.mpr h_v, by decide⟩, trivial⟩ rfl
example (x : α) : let mem : Mem α := [⟨true, List.replicate 16 (.f x)⟩]
    Init mem (0, 0) 16 ∧ Room mem (0, 0) 16 ∧ Init mem (0, 1) 3 :=
  ⟨.replicate (by decide), .replicate (by decide), .replicate (by decide)⟩

theorem C56_any_translated_to {mem : Mem α} {mP vP destP : Ptr} (h_m : Init mem mP 16) (h_v : Init mem vP 3) (r_dest : Room mem destP 16) :
    Safe mem [(destP, 16)] .void (C.glm_translated_to.run mem [mP.val, vP.val, destP.val]) :=
  safe_entry Lib.glm_translated_to_ok [.inp mP 16, .inp vP 3, .out destP 16] ⟨⟨initK_isF.mpr h_m, by decide⟩, ⟨initK_isF.mpr h_v, by decide⟩, ⟨r_dest, by decide⟩, trivial⟩ rfl
example (x : α) : let mem : Mem α := [⟨true, List.replicate 18 (.f x)⟩]
    Init mem (0, 0) 16 ∧ Init mem (0, 1) 3 ∧ Room mem (0, 2) 16 :=
  ⟨.replicate (by decide), .replicate (by decide), .replicate (by decide)⟩

theorem C56_any_translated_x {mem : Mem α} {mP : Ptr} (x : α) (h_m : Init mem mP 16) (r_m : Room mem mP 16) :
    Safe mem [(mP, 16)] .void (C.glm_translated_x.run mem [mP.val, .f x]) :=
  safe_entry Lib.glm_translated_x_ok [.io mP 16, .f x] ⟨⟨initK_isF.mpr h_m, r_m, by decide⟩, trivial, trivial⟩ rfl
example (x : α) : let mem : Mem α := [⟨true, List.replicate 16 (.f x)⟩]
    Init mem (0, 0) 16 ∧ Room mem (0, 0) 16 :=
  ⟨.replicate (by decide), .replicate (by decide)⟩

theorem C56_any_translated_y {mem : Mem α} {mP : Ptr} (y : α) (h_m : Init mem mP 16) (r_m : Room mem mP 16) :
    Safe mem [(mP, 16)] .void (C.glm_translated_y.run mem [mP.val, .f y]) :=
  safe_entry Lib.glm_translated_y_ok [.io mP 16, .f y] ⟨⟨initK_isF.mpr h_m, r_m, by decide⟩, trivial, trivial⟩ rfl
example (x : α) : let mem : Mem α := [⟨true, List.replicate 16 (.f x)⟩]
    Init mem (0, 0) 16 ∧ Room mem (0, 0) 16 :=
  ⟨.replicate (by decide), .replicate (by decide)⟩

theorem C56_any_translated_z {mem : Mem α} {mP : Ptr} (z : α) (h_m : Init mem mP 16) (r_m : Room mem mP 16) :
    Safe mem [(mP, 16)] .void (C.glm_translated_z.run mem [mP.val, .f z]) :=
  safe_entry Lib.glm_translated_z_ok [.io mP 16, .f z] ⟨⟨initK_isF.mpr h_m, r_m, by decide⟩, trivial, trivial⟩ rfl
example (x : α) : let mem : Mem α := [⟨true, List.replicate 16 (.f x)⟩]
    Init mem (0, 0) 16 ∧ Room mem (0, 0) 16 :=
  ⟨.replicate (by decide), .replicate (by decide)⟩

theorem C56_any_rotated_x {mem : Mem α} {mP destP : Ptr} (angle : α) (h_m : Init mem mP 16) (r_dest : Room mem destP 16) :
    Safe mem [(destP, 16)] .void (C.glm_rotated_x.run mem [mP.val, .f angle, destP.val]) :=
  safe_entry Lib.glm_rotated_x_ok [.inp mP 16, .f angle, .out destP 16] ⟨⟨initK_isF.mpr h_m, by decide⟩, trivial, ⟨r_dest, by decide⟩, trivial⟩ rfl
example (x : α) : let mem : Mem α := [⟨true, List.replicate 17 (.f x)⟩]
    Init mem (0, 0) 16 ∧ Room mem (0, 1) 16 :=
  ⟨.replicate (by decide), .replicate (by decide)⟩

theorem C56_any_rotated_y {mem : Mem α} {mP destP : Ptr} (angle : α) (h_m : Init mem mP 16) (r_dest : Room mem destP 16) :
    Safe mem [(destP, 16)] .void (C.glm_rotated_y.run mem [mP.val, .f angle, destP.val]) :=
  safe_entry Lib.glm_rotated_y_ok [.inp mP 16, .f angle, .out destP 16] ⟨⟨initK_isF.mpr h_m, by decide⟩, trivial, ⟨r_dest, by decide⟩, trivial⟩ rfl
example (x : α) : let mem : Mem α := [⟨true, List.replicate 17 (.f x)⟩]
    Init mem (0, 0) 16 ∧ Room mem (0, 1) 16 :=
  ⟨.replicate (by decide), .replicate (by decide)⟩

theorem C56_any_rotated_z {mem : Mem α} {mP destP : Ptr} (angle : α) (h_m : Init mem mP 16) (r_dest : Room mem destP 16) :
    Safe mem [(destP, 16)] .void (C.glm_rotated_z.run mem [mP.val, .f angle, destP.val]) :=
  safe_entry Lib.glm_rotated_z_ok [.inp mP 16, .f angle, .out destP 16] ⟨⟨initK_isF.mpr h_m, by decide⟩, trivial, ⟨r_dest, by decide⟩, trivial⟩ rfl
example (x : α) : let mem : Mem α := [⟨true, List.replicate 17 (.f x)⟩]
    Init mem (0, 0) 16 ∧ Room mem (0, 1) 16 :=
  ⟨.replicate (by decide), .replicate (by decide)⟩

theorem C56_any_rotated {mem : Mem α} {mP axisP : Ptr} (angle : α) (h_m : Init mem mP 16) (r_m : Room mem mP 16) (h_axis : Init mem axisP 3) :
    Safe mem [(mP, 16)] .void (C.glm_rotated.run mem [mP.val, .f angle, axisP.val]) :=
  safe_entry Lib.glm_rotated_ok [.io mP 16, .f angle, .inp axisP 3] ⟨⟨initK_isF.mpr h_m, r_m, by decide⟩, trivial, ⟨initK_isF.mpr h_axis, by decide⟩, trivial⟩ rfl
example (x : α) : let mem : Mem α := [⟨true, List.replicate 16 (.f x)⟩]
    Init mem (0, 0) 16 ∧ Room mem (0, 0) 16 ∧ Init mem (0, 1) 3 :=
  ⟨.replicate (by decide), .replicate (by decide), .replicate (by decide)⟩

theorem C56_any_rotated_at {mem : Mem α} {mP pivotP axisP : Ptr} (angle : α) (h_m : Init mem mP 16) (r_m : Room mem mP 16) (h_pivot : Init mem pivotP 3) (h_axis : Init mem axisP 3) :
    Safe mem [(mP, 16)] .void (C.glm_rotated_at.run mem [mP.val, pivotP.val, .f angle, axisP.val]) :=
  safe_entry Lib.glm_rotated_at_ok [.io mP 16, .inp pivotP 3, .f angle, .inp axisP 3] ⟨⟨initK_isF.mpr h_m, r_m, by decide⟩, ⟨initK_isF.mpr h_pivot, by decide⟩, trivial, ⟨initK_isF.mpr h_axis, by decide⟩, trivial⟩ rfl
example (x : α) : let mem : Mem α := [⟨true, List.replicate 16 (.f x)⟩]
    Init mem (0, 0) 16 ∧ Room mem (0, 0) 16 ∧ Init mem (0, 1) 3 ∧ Init mem (0, 2) 3 :=
  ⟨.replicate (by decide), .replicate (by decide), .replicate (by decide), .replicate (by decide)⟩

theorem C56_any_spinned {mem : Mem α} {mP axisP : Ptr} (angle : α) (h_m : Init mem mP 16) (r_m : Room mem mP 16) (h_axis : Init mem axisP 3) :
    Safe mem [(mP, 16)] .void (C.glm_spinned.run mem [mP.val, .f angle, axisP.val]) :=
  safe_entry Lib.glm_spinned_ok [.io mP 16, .f angle, .inp axisP 3] ⟨⟨initK_isF.mpr h_m, r_m, by decide⟩, trivial, ⟨initK_isF.mpr h_axis, by decide⟩, trivial⟩ rfl
example (x : α) : let mem : Mem α := [⟨true, List.replicate 16 (.f x)⟩]
    Init mem (0, 0) 16 ∧ Room mem (0, 0) 16 ∧ Init mem (0, 1) 3 :=
  ⟨.replicate (by decide), .replicate (by decide), .replicate (by decide)⟩

/-! ## include/cglm/affine2d.h -/

theorem C56_any_translate2d {mem : Mem α} {mP vP : Ptr} (h_m : Init mem mP 9) (r_m : Room mem mP 9) (h_v : Init mem vP 2) :
    Safe mem [(mP, 9)] .void (C.glm_translate2d.run mem [mP.val, vP.val]) :=
  safe_entry Lib.glm_translate2d_ok [.io mP 9, .inp vP 2] ⟨⟨initK_isF.mpr h_m, r_m, by decide⟩, ⟨initK_isF.mpr h_v, by decide⟩, trivial⟩ rfl
example (x : α) : let mem : Mem α := [⟨true, List.replicate 9 (.f x)⟩]
    Init mem (0, 0) 9 ∧ Room mem (0, 0) 9 ∧ Init mem (0, 1) 2 :=
  ⟨.replicate (by decide), .replicate (by decide), .replicate (by decide)⟩

theorem C56_any_translate2d_to {mem : Mem α} {mP vP destP : Ptr} (h_m : Init mem mP 9) (h_v : Init mem vP 2) (r_dest : Room mem destP 9) :
    Safe mem [(destP, 9)] .void (C.glm_translate2d_to.run mem [mP.val, vP.val, destP.val]) :=
  safe_entry Lib.glm_translate2d_to_ok [.inp mP 9, .inp vP 2, .out destP 9] ⟨⟨initK_isF.mpr h_m, by decide⟩, ⟨initK_isF.mpr h_v, by decide⟩, ⟨r_dest, by decide⟩, trivial⟩ rfl
example (x : α) : let mem : Mem α := [⟨true, List.replicate 11 (.f x)⟩]
    Init mem (0, 0) 9 ∧ Init mem (0, 1) 2 ∧ Room mem (0, 2) 9 :=
  ⟨.replicate (by decide), .replicate (by decide), .replicate (by decide)⟩

theorem C56_any_translate2d_x {mem : Mem α} {mP : Ptr} (x : α) (h_m : Init mem mP 9) (r_m : Room mem mP 9) :
    Safe mem [(mP, 9)] .void (C.glm_translate2d_x.run mem [mP.val, .f x]) :=
  safe_entry Lib.glm_translate2d_x_ok [.io mP 9, .f x] ⟨⟨initK_isF.mpr h_m, r_m, by decide⟩, trivial, trivial⟩ rfl
example (x : α) : let mem : Mem α := [⟨true, List.replicate 9 (.f x)⟩]
    Init mem (0, 0) 9 ∧ Room mem (0, 0) 9 :=
  ⟨.replicate (by decide), .replicate (by decide)⟩

theorem C56_any_translate2d_y {mem : Mem α} {mP : Ptr} (y : α) (h_m : Init mem mP 9) (r_m : Room mem mP 9) :
    Safe mem [(mP, 9)] .void (C.glm_translate2d_y.run mem [mP.val, .f y]) :=
  safe_entry Lib.glm_translate2d_y_ok [.io mP 9, .f y] ⟨⟨initK_isF.mpr h_m, r_m, by decide⟩, trivial, trivial⟩ rfl
example (x : α) : let mem : Mem α := [⟨true, List.replicate 9 (.f x)⟩]
    Init mem (0, 0) 9 ∧ Room mem (0, 0) 9 :=
  ⟨.replicate (by decide), .replicate (by decide)⟩

theorem C56_any_translate2d_make {mem : Mem α} {mP vP : Ptr} (r_m : Room mem mP 9) (h_v : Init mem vP 2) :
    Safe mem [(mP, 9)] .void (C.glm_translate2d_make.run mem [mP.val, vP.val]) :=
  safe_entry Lib.glm_translate2d_make_ok [.out mP 9, .inp vP 2] ⟨⟨r_m, by decide⟩, ⟨initK_isF.mpr h_v, by decide⟩, trivial⟩ rfl
example (x : α) : let mem : Mem α := [⟨true, List.replicate 9 (.f x)⟩]
    Room mem (0, 0) 9 ∧ Init mem (0, 1) 2 :=
  ⟨.replicate (by decide), .replicate (by decide)⟩

theorem C56_any_scale2d_to {mem : Mem α} {mP vP destP : Ptr} (h_m : Init mem mP 9) (h_v : Init mem vP 2) (r_dest : Room mem destP 9) :
    Safe mem [(destP, 9)] .void (C.glm_scale2d_to.run mem [mP.val, vP.val, destP.val]) :=
  safe_entry Lib.glm_scale2d_to_ok [.inp mP 9, .inp vP 2, .out destP 9] ⟨⟨initK_isF.mpr h_m, by decide⟩, ⟨initK_isF.mpr h_v, by decide⟩, ⟨r_dest, by decide⟩, trivial⟩ rfl
example (x : α) : let mem : Mem α := [⟨true, List.replicate 11 (.f x)⟩]
    Init mem (0, 0) 9 ∧ Init mem (0, 1) 2 ∧ Room mem (0, 2) 9 :=
  ⟨.replicate (by decide), .replicate (by decide), .replicate (by decide)⟩

theorem C56_any_scale2d_make {mem : Mem α} {mP vP : Ptr} (r_m : Room mem mP 9) (h_v : Init mem vP 2) :
    Safe mem [(mP, 9)] .void (C.glm_scale2d_make.run mem [mP.val, vP.val]) :=
  safe_entry Lib.glm_scale2d_make_ok [.out mP 9, .inp vP 2] ⟨⟨r_m, by decide⟩, ⟨initK_isF.mpr h_v, by decide⟩, trivial⟩ rfl
example (x : α) : let mem : Mem α := [⟨true, List.replicate 9 (.f x)⟩]
    Room mem (0, 0) 9 ∧ Init mem (0, 1) 2 :=
  ⟨.replicate (by decide), .replicate (by decide)⟩

theorem C56_any_scale2d {mem : Mem α} {mP vP : Ptr} (h_m : Init mem mP 9) (r_m : Room mem mP 9) (h_v : Init mem vP 2) :
    Safe mem [(mP, 9)] .void (C.glm_scale2d.run mem [mP.val, vP.val]) :=
  safe_entry Lib.glm_scale2d_ok [.io mP 9, .inp vP 2] ⟨⟨initK_isF.mpr h_m, r_m, by decide⟩, ⟨initK_isF.mpr h_v, by decide⟩, trivial⟩ rfl
example (x : α) : let mem : Mem α := [⟨true, List.replicate 9 (.f x)⟩]
    Init mem (0, 0) 9 ∧ Room mem (0, 0) 9 ∧ Init mem (0, 1) 2 :=
  ⟨.replicate (by decide), .replicate (by decide), .replicate (by decide)⟩

theorem C56_any_scale2d_uni {mem : Mem α} {mP : Ptr} (s : α) (h_m : Init mem mP 9) (r_m : Room mem mP 9) :
    Safe mem [(mP, 9)] .void (C.glm_scale2d_uni.run mem [mP.val, .f s]) :=
  safe_entry Lib.glm_scale2d_uni_ok [.io mP 9, .f s] ⟨⟨initK_isF.mpr h_m, r_m, by decide⟩, trivial, trivial⟩ rfl
example (x : α) : let mem : Mem α := [⟨true, List.replicate 9 (.f x)⟩]
    Init mem (0, 0) 9 ∧ Room mem (0, 0) 9 :=
  ⟨.replicate (by decide), .replicate (by decide)⟩

theorem C56_any_rotate2d_make {mem : Mem α} {mP : Ptr} (angle : α) (r_m : Room mem mP 9) :
    Safe mem [(mP, 9)] .void (C.glm_rotate2d_make.run mem [mP.val, .f angle]) :=
  safe_entry Lib.glm_rotate2d_make_ok [.out mP 9, .f angle] ⟨⟨r_m, by decide⟩, trivial, trivial⟩ rfl
example (x : α) : let mem : Mem α := [⟨true, List.replicate 9 (.f x)⟩]
    Room mem (0, 0) 9 :=
  .replicate (by decide)

theorem C56_any_rotate2d {mem : Mem α} {mP : Ptr} (angle : α) (h_m : Init mem mP 9) (r_m : Room mem mP 9) :
    Safe mem [(mP, 9)] .void (C.glm_rotate2d.run mem [mP.val, .f angle]) :=
  safe_entry Lib.glm_rotate2d_ok [.io mP 9, .f angle] ⟨⟨initK_isF.mpr h_m, r_m, by decide⟩, trivial, trivial⟩ rfl
example (x : α) : let mem : Mem α := [⟨true, List.replicate 9 (.f x)⟩]
    Init mem (0, 0) 9 ∧ Room mem (0, 0) 9 :=
  ⟨.replicate (by decide), .replicate (by decide)⟩

theorem C56_any_rotate2d_to {mem : Mem α} {mP destP : Ptr} (angle : α) (h_m : Init mem mP 9) (r_dest : Room mem destP 9) :
    Safe mem [(destP, 9)] .void (C.glm_rotate2d_to.run mem [mP.val, .f angle, destP.val]) :=
  safe_entry Lib.glm_rotate2d_to_ok [.inp mP 9, .f angle, .out destP 9] ⟨⟨initK_isF.mpr h_m, by decide⟩, trivial, ⟨r_dest, by decide⟩, trivial⟩ rfl
example (x : α) : let mem : Mem α := [⟨true, List.replicate 10 (.f x)⟩]
    Init mem (0, 0) 9 ∧ Room mem (0, 1) 9 :=
  ⟨.replicate (by decide), .replicate (by decide)⟩

/-! ## include/cglm/affine2d-post.h -/

theorem C56_any_translated2d {mem : Mem α} {mP vP : Ptr} (h_m : Init mem mP 9) (r_m : Room mem mP 9) (h_v : Init mem vP 2) :
    Safe mem [(mP, 9)] .void (C.glm_translated2d.run mem [mP.val, vP.val]) :=
  safe_entry Lib.glm_translated2d_ok [.io mP 9, .inp vP 2] ⟨⟨initK_isF.mpr h_m, r_m, by decide⟩, ⟨initK_isF.mpr h_v, by decide⟩, trivial⟩ rfl
example (x : α) : let mem : Mem α := [⟨true, List.replicate 9 (.f x)⟩]
    Init mem (0, 0) 9 ∧ Room mem (0, 0) 9 ∧ Init mem (0, 1) 2 :=
  ⟨.replicate (by decide), .replicate (by decide), .replicate (by decide)⟩

theorem C56_any_translated2d_x {mem : Mem α} {mP : Ptr} (x : α) (h_m : Init mem mP 9) (r_m : Room mem mP 9) :
    Safe mem [(mP, 9)] .void (C.glm_translated2d_x.run mem [mP.val, .f x]) :=
  safe_entry Lib.glm_translated2d_x_ok [.io mP 9, .f x] ⟨⟨initK_isF.mpr h_m, r_m, by decide⟩, trivial, trivial⟩ rfl
example (x : α) : let mem : Mem α := [⟨true, List.replicate 9 (.f x)⟩]
    Init mem (0, 0) 9 ∧ Room mem (0, 0) 9 :=
  ⟨.replicate (by decide), .replicate (by decide)⟩

theorem C56_any_translated2d_y {mem : Mem α} {mP : Ptr} (y : α) (h_m : Init mem mP 9) (r_m : Room mem mP 9) :
    Safe mem [(mP, 9)] .void (C.glm_translated2d_y.run mem [mP.val, .f y]) :=
  safe_entry Lib.glm_translated2d_y_ok [.io mP 9, .f y] ⟨⟨initK_isF.mpr h_m, r_m, by decide⟩, trivial, trivial⟩ rfl
example (x : α) : let mem : Mem α := [⟨true, List.replicate 9 (.f x)⟩]
    Init mem (0, 0) 9 ∧ Room mem (0, 0) 9 :=
  ⟨.replicate (by decide), .replicate (by decide)⟩

theorem C56_any_rotated2d {mem : Mem α} {mP : Ptr} (angle : α) (h_m : Init mem mP 9) (r_m : Room mem mP 9) :
    Safe mem [(mP, 9)] .void (C.glm_rotated2d.run mem [mP.val, .f angle]) :=
  safe_entry Lib.glm_rotated2d_ok [.io mP 9, .f angle] ⟨⟨initK_isF.mpr h_m, r_m, by decide⟩, trivial, trivial⟩ rfl
example (x : α) : let mem : Mem α := [⟨true, List.replicate 9 (.f x)⟩]
    Init mem (0, 0) 9 ∧ Room mem (0, 0) 9 :=
  ⟨.replicate (by decide), .replicate (by decide)⟩

theorem C56_any_scaled2d {mem : Mem α} {mP vP : Ptr} (h_m : Init mem mP 9) (r_m : Room mem mP 9) (h_v : Init mem vP 2) :
    Safe mem [(mP, 9)] .void (C.glm_scaled2d.run mem [mP.val, vP.val]) :=
  safe_entry Lib.glm_scaled2d_ok [.io mP 9, .inp vP 2] ⟨⟨initK_isF.mpr h_m, r_m, by decide⟩, ⟨initK_isF.mpr h_v, by decide⟩, trivial⟩ rfl
example (x : α) : let mem : Mem α := [⟨true, List.replicate 9 (.f x)⟩]
    Init mem (0, 0) 9 ∧ Room mem (0, 0) 9 ∧ Init mem (0, 1) 2 :=
  ⟨.replicate (by decide), .replicate (by decide), .replicate (by decide)⟩

theorem C56_any_scaled2d_uni {mem : Mem α} {mP : Ptr} (s : α) (h_m : Init mem mP 9) (r_m : Room mem mP 9) :
    Safe mem [(mP, 9)] .void (C.glm_scaled2d_uni.run mem [mP.val, .f s]) :=
  safe_entry Lib.glm_scaled2d_uni_ok [.io mP 9, .f s] ⟨⟨initK_isF.mpr h_m, r_m, by decide⟩, trivial, trivial⟩ rfl
example (x : α) : let mem : Mem α := [⟨true, List.replicate 9 (.f x)⟩]
    Init mem (0, 0) 9 ∧ Room mem (0, 0) 9 :=
  ⟨.replicate (by decide), .replicate (by decide)⟩

end Cglm
