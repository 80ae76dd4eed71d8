/- Generated by tools/safethms.py; do not edit by hand. -/
import Verif.Lib.Mat

/-!
# C56: memory safety when the arguments overlap in any way

No theorem here assumes anything about how the arguments lie relative «to» each other: inputs may be the destination,
or overlap it or each other partly.  Whenever every input is initialised and every destination is writable, the call
is defined, no cell outside the destinations changes, and the destinations end up initialised.
-/

set_option linter.unusedVariables false
set_option linter.unusedSectionVars false

namespace Cglm
open CMem

variable {α : Type} [Add α] [Sub α] [Mul α] [Div α] [Neg α] [CFloat α]

/-! ## include/cglm/mat4.h -/

theorem C56_any_mat4_ucopy {mem : Mem α} {matP destP : Ptr} (h_mat : Init mem matP 16) (r_dest : Room mem destP 16) :
    Safe mem [(destP, 16)] .void (C.glm_mat4_ucopy.run mem [matP.val, destP.val]) :=
  safe_entry Lib.glm_mat4_ucopy_ok [.inp matP 16, .out destP 16] ⟨⟨initK_isF.mpr h_mat, by decide⟩, ⟨r_dest, by decide⟩, trivial⟩ rfl
example (x : α) : let mem : Mem α := [⟨true, List.replicate 17 (.f x)⟩]
    Init mem (0, 0) 16 ∧ Room mem (0, 1) 16 :=
  ⟨.replicate (by decide), .replicate (by decide)⟩

theorem C56_any_mat4_copy {mem : Mem α} {matP destP : Ptr} (h_mat : Init mem matP 16) (r_dest : Room mem destP 16) :
    Safe mem [(destP, 16)] .void (C.glm_mat4_copy.run mem [matP.val, destP.val]) :=
  safe_entry Lib.glm_mat4_copy_ok [.inp matP 16, .out destP 16] ⟨⟨initK_isF.mpr h_mat, by decide⟩, ⟨r_dest, by decide⟩, trivial⟩ rfl
example (x : α) : let mem : Mem α := [⟨true, List.replicate 17 (.f x)⟩]
    Init mem (0, 0) 16 ∧ Room mem (0, 1) 16 :=
  ⟨.replicate (by decide), .replicate (by decide)⟩

theorem C56_any_mat4_identity {mem : Mem α} {matP : Ptr} (r_mat : Room mem matP 16) :
    Safe mem [(matP, 16)] .void (C.glm_mat4_identity.run mem [matP.val]) :=
  safe_entry Lib.glm_mat4_identity_ok [.out matP 16] ⟨⟨r_mat, by decide⟩, trivial⟩ rfl
example (x : α) : let mem : Mem α := [⟨true, List.replicate 16 (.f x)⟩]
    Room mem (0, 0) 16 :=
  .replicate (by decide)

theorem C56_any_mat4_zero {mem : Mem α} {matP : Ptr} (r_mat : Room mem matP 16) :
    Safe mem [(matP, 16)] .void (C.glm_mat4_zero.run mem [matP.val]) :=
  safe_entry Lib.glm_mat4_zero_ok [.out matP 16] ⟨⟨r_mat, by decide⟩, trivial⟩ rfl
example (x : α) : let mem : Mem α := [⟨true, List.replicate 16 (.f x)⟩]
    Room mem (0, 0) 16 :=
  .replicate (by decide)

theorem C56_any_mat4_pick3 {mem : Mem α} {matP destP : Ptr} (h_mat : Init mem matP 16) (r_dest : Room mem destP 9) :
    Safe mem [(destP, 9)] .void (C.glm_mat4_pick3.run mem [matP.val, destP.val]) :=
  safe_entry Lib.glm_mat4_pick3_ok [.inp matP 16, .out destP 9] ⟨⟨initK_isF.mpr h_mat, by decide⟩, ⟨r_dest, by decide⟩, trivial⟩ rfl
example (x : α) : let mem : Mem α := [⟨true, List.replicate 16 (.f x)⟩]
    Init mem (0, 0) 16 ∧ Room mem (0, 1) 9 :=
  ⟨.replicate (by decide), .replicate (by decide)⟩

theorem C56_any_mat4_pick3t {mem : Mem α} {matP destP : Ptr} (h_mat : Init mem matP 16) (r_dest : Room mem destP 9) :
    Safe mem [(destP, 9)] .void (C.glm_mat4_pick3t.run mem [matP.val, destP.val]) :=
  safe_entry Lib.glm_mat4_pick3t_ok [.inp matP 16, .out destP 9] ⟨⟨initK_isF.mpr h_mat, by decide⟩, ⟨r_dest, by decide⟩, trivial⟩ rfl
example (x : α) : let mem : Mem α := [⟨true, List.replicate 16 (.f x)⟩]
    Init mem (0, 0) 16 ∧ Room mem (0, 1) 9 :=
  ⟨.replicate (by decide), .replicate (by decide)⟩

theorem C56_any_mat4_ins3 {mem : Mem α} {matP destP : Ptr} (h_mat : Init mem matP 9) (h_dest : Init mem destP 16) (r_dest : Room mem destP 16) :
    Safe mem [(destP, 16)] .void (C.glm_mat4_ins3.run mem [matP.val, destP.val]) :=
  safe_entry Lib.glm_mat4_ins3_ok [.inp matP 9, .io destP 16] ⟨⟨initK_isF.mpr h_mat, by decide⟩, ⟨initK_isF.mpr h_dest, r_dest, by decide⟩, trivial⟩ rfl
example (x : α) : let mem : Mem α := [⟨true, List.replicate 17 (.f x)⟩]
    Init mem (0, 0) 9 ∧ Init mem (0, 1) 16 ∧ Room mem (0, 1) 16 :=
  ⟨.replicate (by decide), .replicate (by decide), .replicate (by decide)⟩

theorem C56_any_mat4_mul {mem : Mem α} {m1P m2P destP : Ptr} (h_m1 : Init mem m1P 16) (h_m2 : Init mem m2P 16) (r_dest : Room mem destP 16) :
    Safe mem [(destP, 16)] .void (C.glm_mat4_mul.run mem [m1P.val, m2P.val, destP.val]) :=
  safe_entry Lib.glm_mat4_mul_ok [.inp m1P 16, .inp m2P 16, .out destP 16] ⟨⟨initK_isF.mpr h_m1, by decide⟩, ⟨initK_isF.mpr h_m2, by decide⟩, ⟨r_dest, by decide⟩, trivial⟩ rfl
example (x : α) : let mem : Mem α := [⟨true, List.replicate 18 (.f x)⟩]
    Init mem (0, 0) 16 ∧ Init mem (0, 1) 16 ∧ Room mem (0, 2) 16 :=
  ⟨.replicate (by decide), .replicate (by decide), .replicate (by decide)⟩

theorem C56_any_mat4_mulv {mem : Mem α} {mP vP destP : Ptr} (h_m : Init mem mP 16) (h_v : Init mem vP 4) (r_dest : Room mem destP 4) :
    Safe mem [(destP, 4)] .void (C.glm_mat4_mulv.run mem [mP.val, vP.val, destP.val]) :=
  safe_entry Lib.glm_mat4_mulv_ok [.inp mP 16, .inp vP 4, .out destP 4] ⟨⟨initK_isF.mpr h_m, by decide⟩, ⟨initK_isF.mpr h_v, by decide⟩, ⟨r_dest, by decide⟩, trivial⟩ rfl
example (x : α) : let mem : Mem α := [⟨true, List.replicate 16 (.f x)⟩]
    Init mem (0, 0) 16 ∧ Init mem (0, 1) 4 ∧ Room mem (0, 2) 4 :=
  ⟨.replicate (by decide), .replicate (by decide), .replicate (by decide)⟩

theorem C56_any_mat4_trace {mem : Mem α} {mP : Ptr} (h_m : Init mem mP 16) :
    Safe mem [] .float (C.glm_mat4_trace.run mem [mP.val]) :=
  safe_entry Lib.glm_mat4_trace_ok [.inp mP 16] ⟨⟨initK_isF.mpr h_m, by decide⟩, trivial⟩ rfl
example (x : α) : let mem : Mem α := [⟨true, List.replicate 16 (.f x)⟩]
    Init mem (0, 0) 16 :=
  .replicate (by decide)

theorem C56_any_mat4_trace3 {mem : Mem α} {mP : Ptr} (h_m : Init mem mP 16) :
    Safe mem [] .float (C.glm_mat4_trace3.run mem [mP.val]) :=
  safe_entry Lib.glm_mat4_trace3_ok [.inp mP 16] ⟨⟨initK_isF.mpr h_m, by decide⟩, trivial⟩ rfl
example (x : α) : let mem : Mem α := [⟨true, List.replicate 16 (.f x)⟩]
    Init mem (0, 0) 16 :=
  .replicate (by decide)

theorem C56_any_mat4_quat {mem : Mem α} {mP destP : Ptr} (h_m : Init mem mP 16) (r_dest : Room mem destP 4) :
    Safe mem [(destP, 4)] .void (C.glm_mat4_quat.run mem [mP.val, destP.val]) :=
  safe_entry Lib.glm_mat4_quat_ok [.inp mP 16, .out destP 4] ⟨⟨initK_isF.mpr h_m, by decide⟩, ⟨r_dest, by decide⟩, trivial⟩ rfl
example (x : α) : let mem : Mem α := [⟨true, List.replicate 16 (.f x)⟩]
    Init mem (0, 0) 16 ∧ Room mem (0, 1) 4 :=
  ⟨.replicate (by decide), .replicate (by decide)⟩

theorem C56_any_mat4_mulv3 {mem : Mem α} {mP vP destP : Ptr} (last : α) (h_m : Init mem mP 16) (h_v : Init mem vP 3) (r_dest : Room mem destP 3) :
    Safe mem [(destP, 3)] .void (C.glm_mat4_mulv3.run mem [mP.val, vP.val, .f last, destP.val]) :=
  safe_entry Lib.glm_mat4_mulv3_ok [.inp mP 16, .inp vP 3, .f last, .out destP 3] ⟨⟨initK_isF.mpr h_m, by decide⟩, ⟨initK_isF.mpr h_v, by decide⟩, trivial, ⟨r_dest, by decide⟩, trivial⟩ rfl
example (x : α) : let mem : Mem α := [⟨true, List.replicate 16 (.f x)⟩]
    Init mem (0, 0) 16 ∧ Init mem (0, 1) 3 ∧ Room mem (0, 2) 3 :=
  ⟨.replicate (by decide), .replicate (by decide), .replicate (by decide)⟩

theorem C56_any_mat4_transpose_to {mem : Mem α} {mP destP : Ptr} (h_m : Init mem mP 16) (r_dest : Room mem destP 16) :
    Safe mem [(destP, 16)] .void (C.glm_mat4_transpose_to.run mem [mP.val, destP.val]) :=
  safe_entry Lib.glm_mat4_transpose_to_ok [.inp mP 16, .out destP 16] ⟨⟨initK_isF.mpr h_m, by decide⟩, ⟨r_dest, by decide⟩, trivial⟩ rfl
example (x : α) : let mem : Mem α := [⟨true, List.replicate 17 (.f x)⟩]
    Init mem (0, 0) 16 ∧ Room mem (0, 1) 16 :=
  ⟨.replicate (by decide), .replicate (by decide)⟩

theorem C56_any_mat4_transpose {mem : Mem α} {mP : Ptr} (h_m : Init mem mP 16) (r_m : Room mem mP 16) :
    Safe mem [(mP, 16)] .void (C.glm_mat4_transpose.run mem [mP.val]) :=
  safe_entry Lib.glm_mat4_transpose_ok [.io mP 16] ⟨⟨initK_isF.mpr h_m, r_m, by decide⟩, trivial⟩ rfl
example (x : α) : let mem : Mem α := [⟨true, List.replicate 16 (.f x)⟩]
    Init mem (0, 0) 16 ∧ Room mem (0, 0) 16 :=
  ⟨.replicate (by decide), .replicate (by decide)⟩

theorem C56_any_mat4_scale_p {mem : Mem α} {mP : Ptr} (s : α) (h_m : Init mem mP 16) (r_m : Room mem mP 16) :
    Safe mem [(mP, 16)] .void (C.glm_mat4_scale_p.run mem [mP.val, .f s]) :=
  safe_entry Lib.glm_mat4_scale_p_ok [.io mP 16, .f s] ⟨⟨initK_isF.mpr h_m, r_m, by decide⟩, trivial, trivial⟩ rfl
example (x : α) : let mem : Mem α := [⟨true, List.replicate 16 (.f x)⟩]
    Init mem (0, 0) 16 ∧ Room mem (0, 0) 16 :=
  ⟨.replicate (by decide), .replicate (by decide)⟩

theorem C56_any_mat4_scale {mem : Mem α} {mP : Ptr} (s : α) (h_m : Init mem mP 16) (r_m : Room mem mP 16) :
    Safe mem [(mP, 16)] .void (C.glm_mat4_scale.run mem [mP.val, .f s]) :=
  safe_entry Lib.glm_mat4_scale_ok [.io mP 16, .f s] ⟨⟨initK_isF.mpr h_m, r_m, by decide⟩, trivial, trivial⟩ rfl
example (x : α) : let mem : Mem α := [⟨true, List.replicate 16 (.f x)⟩]
    Init mem (0, 0) 16 ∧ Room mem (0, 0) 16 :=
  ⟨.replicate (by decide), .replicate (by decide)⟩

theorem C56_any_mat4_det {mem : Mem α} {matP : Ptr} (h_mat : Init mem matP 16) :
    Safe mem [] .float (C.glm_mat4_det.run mem [matP.val]) :=
  safe_entry Lib.glm_mat4_det_ok [.inp matP 16] ⟨⟨initK_isF.mpr h_mat, by decide⟩, trivial⟩ rfl
example (x : α) : let mem : Mem α := [⟨true, List.replicate 16 (.f x)⟩]
    Init mem (0, 0) 16 :=
  .replicate (by decide)

theorem C56_any_mat4_inv {mem : Mem α} {matP destP : Ptr} (h_mat : Init mem matP 16) (r_dest : Room mem destP 16) :
    Safe mem [(destP, 16)] .void (C.glm_mat4_inv.run mem [matP.val, destP.val]) :=
  safe_entry Lib.glm_mat4_inv_ok [.inp matP 16, .out destP 16] ⟨⟨initK_isF.mpr h_mat, by decide⟩, ⟨r_dest, by decide⟩, trivial⟩ rfl
example (x : α) : let mem : Mem α := [⟨true, List.replicate 17 (.f x)⟩]
    Init mem (0, 0) 16 ∧ Room mem (0, 1) 16 :=
  ⟨.replicate (by decide), .replicate (by decide)⟩

theorem C56_any_mat4_inv_fast {mem : Mem α} {matP destP : Ptr} (h_mat : Init mem matP 16) (r_dest : Room mem destP 16) :
    Safe mem [(destP, 16)] .void (C.glm_mat4_inv_fast.run mem [matP.val, destP.val]) :=
  safe_entry Lib.glm_mat4_inv_fast_ok [.inp matP 16, .out destP 16] ⟨⟨initK_isF.mpr h_mat, by decide⟩, ⟨r_dest, by decide⟩, trivial⟩ rfl
example (x : α) : let mem : Mem α := [⟨true, List.replicate 17 (.f x)⟩]
    Init mem (0, 0) 16 ∧ Room mem (0, 1) 16 :=
  ⟨.replicate (by decide), .replicate (by decide)⟩

theorem C56_any_mat4_rmc {mem : Mem α} {rP mP cP : Ptr} (h_r : Init mem rP 4) (h_m : Init mem mP 16) (h_c : Init mem cP 4) :
    Safe mem [] .float (C.glm_mat4_rmc.run mem [rP.val, mP.val, cP.val]) :=
  safe_entry Lib.glm_mat4_rmc_ok [.inp rP 4, .inp mP 16, .inp cP 4] ⟨⟨initK_isF.mpr h_r, by decide⟩, ⟨initK_isF.mpr h_m, by decide⟩, ⟨initK_isF.mpr h_c, by decide⟩, trivial⟩ rfl
example (x : α) : let mem : Mem α := [⟨true, List.replicate 17 (.f x)⟩]
    Init mem (0, 0) 4 ∧ Init mem (0, 1) 16 ∧ Init mem (0, 2) 4 :=
  ⟨.replicate (by decide), .replicate (by decide), .replicate (by decide)⟩

theorem C56_any_mat4_make {mem : Mem α} {srcP destP : Ptr} (h_src : Init mem srcP 16) (r_dest : Room mem destP 16) :
    Safe mem [(destP, 16)] .void (C.glm_mat4_make.run mem [srcP.val, destP.val]) :=
  safe_entry Lib.glm_mat4_make_ok [.inp srcP 16, .out destP 16] ⟨⟨initK_isF.mpr h_src, by decide⟩, ⟨r_dest, by decide⟩, trivial⟩ rfl
example (x : α) : let mem : Mem α := [⟨true, List.replicate 17 (.f x)⟩]
    Init mem (0, 0) 16 ∧ Room mem (0, 1) 16 :=
  ⟨.replicate (by decide), .replicate (by decide)⟩

theorem C56_any_mat4_textrans {mem : Mem α} {destP : Ptr} (sx : α) (sy : α) (rot : α) (tx : α) (ty : α) (r_dest : Room mem destP 16) :
    Safe mem [(destP, 16)] .void (C.glm_mat4_textrans.run mem [.f sx, .f sy, .f rot, .f tx, .f ty, destP.val]) :=
  safe_entry Lib.glm_mat4_textrans_ok [.f sx, .f sy, .f rot, .f tx, .f ty, .out destP 16] ⟨trivial, trivial, trivial, trivial, trivial, ⟨r_dest, by decide⟩, trivial⟩ rfl
example (x : α) : let mem : Mem α := [⟨true, List.replicate 16 (.f x)⟩]
    Room mem (0, 0) 16 :=
  .replicate (by decide)

/-! ## include/cglm/mat4x2.h -/

theorem C56_any_mat4x2_copy {mem : Mem α} {srcP destP : Ptr} (h_src : Init mem srcP 8) (r_dest : Room mem destP 8) :
    Safe mem [(destP, 8)] .void (C.glm_mat4x2_copy.run mem [srcP.val, destP.val]) :=
  safe_entry Lib.glm_mat4x2_copy_ok [.inp srcP 8, .out destP 8] ⟨⟨initK_isF.mpr h_src, by decide⟩, ⟨r_dest, by decide⟩, trivial⟩ rfl
example (x : α) : let mem : Mem α := [⟨true, List.replicate 9 (.f x)⟩]
    Init mem (0, 0) 8 ∧ Room mem (0, 1) 8 :=
  ⟨.replicate (by decide), .replicate (by decide)⟩

theorem C56_any_mat4x2_zero {mem : Mem α} {mP : Ptr} (r_m : Room mem mP 8) :
    Safe mem [(mP, 8)] .void (C.glm_mat4x2_zero.run mem [mP.val]) :=
  safe_entry Lib.glm_mat4x2_zero_ok [.out mP 8] ⟨⟨r_m, by decide⟩, trivial⟩ rfl
example (x : α) : let mem : Mem α := [⟨true, List.replicate 8 (.f x)⟩]
    Room mem (0, 0) 8 :=
  .replicate (by decide)

theorem C56_any_mat4x2_make {mem : Mem α} {srcP destP : Ptr} (h_src : Init mem srcP 8) (r_dest : Room mem destP 8) :
    Safe mem [(destP, 8)] .void (C.glm_mat4x2_make.run mem [srcP.val, destP.val]) :=
  safe_entry Lib.glm_mat4x2_make_ok [.inp srcP 8, .out destP 8] ⟨⟨initK_isF.mpr h_src, by decide⟩, ⟨r_dest, by decide⟩, trivial⟩ rfl
example (x : α) : let mem : Mem α := [⟨true, List.replicate 9 (.f x)⟩]
    Init mem (0, 0) 8 ∧ Room mem (0, 1) 8 :=
  ⟨.replicate (by decide), .replicate (by decide)⟩

theorem C56_any_mat4x2_mul {mem : Mem α} {m1P m2P destP : Ptr} (h_m1 : Init mem m1P 8) (h_m2 : Init mem m2P 8) (r_dest : Room mem destP 4) :
    Safe mem [(destP, 4)] .void (C.glm_mat4x2_mul.run mem [m1P.val, m2P.val, destP.val]) :=
  safe_entry Lib.glm_mat4x2_mul_ok [.inp m1P 8, .inp m2P 8, .out destP 4] ⟨⟨initK_isF.mpr h_m1, by decide⟩, ⟨initK_isF.mpr h_m2, by decide⟩, ⟨r_dest, by decide⟩, trivial⟩ rfl
example (x : α) : let mem : Mem α := [⟨true, List.replicate 9 (.f x)⟩]
    Init mem (0, 0) 8 ∧ Init mem (0, 1) 8 ∧ Room mem (0, 2) 4 :=
  ⟨.replicate (by decide), .replicate (by decide), .replicate (by decide)⟩

theorem C56_any_mat4x2_mulv {mem : Mem α} {mP vP destP : Ptr} (h_m : Init mem mP 8) (h_v : Init mem vP 4) (r_dest : Room mem destP 2) :
    Safe mem [(destP, 2)] .void (C.glm_mat4x2_mulv.run mem [mP.val, vP.val, destP.val]) :=
  safe_entry Lib.glm_mat4x2_mulv_ok [.inp mP 8, .inp vP 4, .out destP 2] ⟨⟨initK_isF.mpr h_m, by decide⟩, ⟨initK_isF.mpr h_v, by decide⟩, ⟨r_dest, by decide⟩, trivial⟩ rfl
example (x : α) : let mem : Mem α := [⟨true, List.replicate 8 (.f x)⟩]
    Init mem (0, 0) 8 ∧ Init mem (0, 1) 4 ∧ Room mem (0, 2) 2 :=
  ⟨.replicate (by decide), .replicate (by decide), .replicate (by decide)⟩

theorem C56_any_mat4x2_transpose {mem : Mem α} {mP destP : Ptr} (h_m : Init mem mP 8) (r_dest : Room mem destP 8) :
    Safe mem [(destP, 8)] .void (C.glm_mat4x2_transpose.run mem [mP.val, destP.val]) :=
  safe_entry Lib.glm_mat4x2_transpose_ok [.inp mP 8, .out destP 8] ⟨⟨initK_isF.mpr h_m, by decide⟩, ⟨r_dest, by decide⟩, trivial⟩ rfl
example (x : α) : let mem : Mem α := [⟨true, List.replicate 9 (.f x)⟩]
    Init mem (0, 0) 8 ∧ Room mem (0, 1) 8 :=
  ⟨.replicate (by decide), .replicate (by decide)⟩

theorem C56_any_mat4x2_scale {mem : Mem α} {mP : Ptr} (s : α) (h_m : Init mem mP 8) (r_m : Room mem mP 8) :
    Safe mem [(mP, 8)] .void (C.glm_mat4x2_scale.run mem [mP.val, .f s]) :=
  safe_entry Lib.glm_mat4x2_scale_ok [.io mP 8, .f s] ⟨⟨initK_isF.mpr h_m, r_m, by decide⟩, trivial, trivial⟩ rfl
example (x : α) : let mem : Mem α := [⟨true, List.replicate 8 (.f x)⟩]
    Init mem (0, 0) 8 ∧ Room mem (0, 0) 8 :=
  ⟨.replicate (by decide), .replicate (by decide)⟩

/-! ## include/cglm/mat4x3.h -/

theorem C56_any_mat4x3_copy {mem : Mem α} {srcP destP : Ptr} (h_src : Init mem srcP 12) (r_dest : Room mem destP 12) :
    Safe mem [(destP, 12)] .void (C.glm_mat4x3_copy.run mem [srcP.val, destP.val]) :=
  safe_entry Lib.glm_mat4x3_copy_ok [.inp srcP 12, .out destP 12] ⟨⟨initK_isF.mpr h_src, by decide⟩, ⟨r_dest, by decide⟩, trivial⟩ rfl
example (x : α) : let mem : Mem α := [⟨true, List.replicate 13 (.f x)⟩]
    Init mem (0, 0) 12 ∧ Room mem (0, 1) 12 :=
  ⟨.replicate (by decide), .replicate (by decide)⟩

theorem C56_any_mat4x3_zero {mem : Mem α} {mP : Ptr} (r_m : Room mem mP 12) :
    Safe mem [(mP, 12)] .void (C.glm_mat4x3_zero.run mem [mP.val]) :=
  safe_entry Lib.glm_mat4x3_zero_ok [.out mP 12] ⟨⟨r_m, by decide⟩, trivial⟩ rfl
example (x : α) : let mem : Mem α := [⟨true, List.replicate 12 (.f x)⟩]
    Room mem (0, 0) 12 :=
  .replicate (by decide)

theorem C56_any_mat4x3_make {mem : Mem α} {srcP destP : Ptr} (h_src : Init mem srcP 12) (r_dest : Room mem destP 12) :
    Safe mem [(destP, 12)] .void (C.glm_mat4x3_make.run mem [srcP.val, destP.val]) :=
  safe_entry Lib.glm_mat4x3_make_ok [.inp srcP 12, .out destP 12] ⟨⟨initK_isF.mpr h_src, by decide⟩, ⟨r_dest, by decide⟩, trivial⟩ rfl
example (x : α) : let mem : Mem α := [⟨true, List.replicate 13 (.f x)⟩]
    Init mem (0, 0) 12 ∧ Room mem (0, 1) 12 :=
  ⟨.replicate (by decide), .replicate (by decide)⟩

theorem C56_any_mat4x3_mul {mem : Mem α} {m1P m2P destP : Ptr} (h_m1 : Init mem m1P 12) (h_m2 : Init mem m2P 12) (r_dest : Room mem destP 9) :
    Safe mem [(destP, 9)] .void (C.glm_mat4x3_mul.run mem [m1P.val, m2P.val, destP.val]) :=
  safe_entry Lib.glm_mat4x3_mul_ok [.inp m1P 12, .inp m2P 12, .out destP 9] ⟨⟨initK_isF.mpr h_m1, by decide⟩, ⟨initK_isF.mpr h_m2, by decide⟩, ⟨r_dest, by decide⟩, trivial⟩ rfl
example (x : α) : let mem : Mem α := [⟨true, List.replicate 13 (.f x)⟩]
    Init mem (0, 0) 12 ∧ Init mem (0, 1) 12 ∧ Room mem (0, 2) 9 :=
  ⟨.replicate (by decide), .replicate (by decide), .replicate (by decide)⟩

theorem C56_any_mat4x3_mulv {mem : Mem α} {mP vP destP : Ptr} (h_m : Init mem mP 12) (h_v : Init mem vP 4) (r_dest : Room mem destP 3) :
    Safe mem [(destP, 3)] .void (C.glm_mat4x3_mulv.run mem [mP.val, vP.val, destP.val]) :=
  safe_entry Lib.glm_mat4x3_mulv_ok [.inp mP 12, .inp vP 4, .out destP 3] ⟨⟨initK_isF.mpr h_m, by decide⟩, ⟨initK_isF.mpr h_v, by decide⟩, ⟨r_dest, by decide⟩, trivial⟩ rfl
example (x : α) : let mem : Mem α := [⟨true, List.replicate 12 (.f x)⟩]
    Init mem (0, 0) 12 ∧ Init mem (0, 1) 4 ∧ Room mem (0, 2) 3 :=
  ⟨.replicate (by decide), .replicate (by decide), .replicate (by decide)⟩

theorem C56_any_mat4x3_transpose {mem : Mem α} {srcP destP : Ptr} (h_src : Init mem srcP 12) (r_dest : Room mem destP 12) :
    Safe mem [(destP, 12)] .void (C.glm_mat4x3_transpose.run mem [srcP.val, destP.val]) :=
  safe_entry Lib.glm_mat4x3_transpose_ok [.inp srcP 12, .out destP 12] ⟨⟨initK_isF.mpr h_src, by decide⟩, ⟨r_dest, by decide⟩, trivial⟩ rfl
example (x : α) : let mem : Mem α := [⟨true, List.replicate 13 (.f x)⟩]
    Init mem (0, 0) 12 ∧ Room mem (0, 1) 12 :=
  ⟨.replicate (by decide), .replicate (by decide)⟩

theorem C56_any_mat4x3_scale {mem : Mem α} {mP : Ptr} (s : α) (h_m : Init mem mP 12) (r_m : Room mem mP 12) :
    Safe mem [(mP, 12)] .void (C.glm_mat4x3_scale.run mem [mP.val, .f s]) :=
  safe_entry Lib.glm_mat4x3_scale_ok [.io mP 12, .f s] ⟨⟨initK_isF.mpr h_m, r_m, by decide⟩, trivial, trivial⟩ rfl
example (x : α) : let mem : Mem α := [⟨true, List.replicate 12 (.f x)⟩]
    Init mem (0, 0) 12 ∧ Room mem (0, 0) 12 :=
  ⟨.replicate (by decide), .replicate (by decide)⟩

/-! ## include/cglm/mat3.h -/

theorem C56_any_mat3_copy {mem : Mem α} {matP destP : Ptr} (h_mat : Init mem matP 9) (r_dest : Room mem destP 9) :
    Safe mem [(destP, 9)] .void (C.glm_mat3_copy.run mem [matP.val, destP.val]) :=
  safe_entry Lib.glm_mat3_copy_ok [.inp matP 9, .out destP 9] ⟨⟨initK_isF.mpr h_mat, by decide⟩, ⟨r_dest, by decide⟩, trivial⟩ rfl
example (x : α) : let mem : Mem α := [⟨true, List.replicate 10 (.f x)⟩]
    Init mem (0, 0) 9 ∧ Room mem (0, 1) 9 :=
  ⟨.replicate (by decide), .replicate (by decide)⟩

theorem C56_any_mat3_identity {mem : Mem α} {matP : Ptr} (r_mat : Room mem matP 9) :
    Safe mem [(matP, 9)] .void (C.glm_mat3_identity.run mem [matP.val]) :=
  safe_entry Lib.glm_mat3_identity_ok [.out matP 9] ⟨⟨r_mat, by decide⟩, trivial⟩ rfl
example (x : α) : let mem : Mem α := [⟨true, List.replicate 9 (.f x)⟩]
    Room mem (0, 0) 9 :=
  .replicate (by decide)

theorem C56_any_mat3_zero {mem : Mem α} {matP : Ptr} (r_mat : Room mem matP 9) :
    Safe mem [(matP, 9)] .void (C.glm_mat3_zero.run mem [matP.val]) :=
  safe_entry Lib.glm_mat3_zero_ok [.out matP 9] ⟨⟨r_mat, by decide⟩, trivial⟩ rfl
example (x : α) : let mem : Mem α := [⟨true, List.replicate 9 (.f x)⟩]
    Room mem (0, 0) 9 :=
  .replicate (by decide)

theorem C56_any_mat3_mul {mem : Mem α} {m1P m2P destP : Ptr} (h_m1 : Init mem m1P 9) (h_m2 : Init mem m2P 9) (r_dest : Room mem destP 9) :
    Safe mem [(destP, 9)] .void (C.glm_mat3_mul.run mem [m1P.val, m2P.val, destP.val]) :=
  safe_entry Lib.glm_mat3_mul_ok [.inp m1P 9, .inp m2P 9, .out destP 9] ⟨⟨initK_isF.mpr h_m1, by decide⟩, ⟨initK_isF.mpr h_m2, by decide⟩, ⟨r_dest, by decide⟩, trivial⟩ rfl
example (x : α) : let mem : Mem α := [⟨true, List.replicate 11 (.f x)⟩]
    Init mem (0, 0) 9 ∧ Init mem (0, 1) 9 ∧ Room mem (0, 2) 9 :=
  ⟨.replicate (by decide), .replicate (by decide), .replicate (by decide)⟩

theorem C56_any_mat3_transpose_to {mem : Mem α} {mP destP : Ptr} (h_m : Init mem mP 9) (r_dest : Room mem destP 9) :
    Safe mem [(destP, 9)] .void (C.glm_mat3_transpose_to.run mem [mP.val, destP.val]) :=
  safe_entry Lib.glm_mat3_transpose_to_ok [.inp mP 9, .out destP 9] ⟨⟨initK_isF.mpr h_m, by decide⟩, ⟨r_dest, by decide⟩, trivial⟩ rfl
example (x : α) : let mem : Mem α := [⟨true, List.replicate 10 (.f x)⟩]
    Init mem (0, 0) 9 ∧ Room mem (0, 1) 9 :=
  ⟨.replicate (by decide), .replicate (by decide)⟩

theorem C56_any_mat3_transpose {mem : Mem α} {mP : Ptr} (h_m : Init mem mP 9) (r_m : Room mem mP 9) :
    Safe mem [(mP, 9)] .void (C.glm_mat3_transpose.run mem [mP.val]) :=
  safe_entry Lib.glm_mat3_transpose_ok [.io mP 9] ⟨⟨initK_isF.mpr h_m, r_m, by decide⟩, trivial⟩ rfl
example (x : α) : let mem : Mem α := [⟨true, List.replicate 9 (.f x)⟩]
    Init mem (0, 0) 9 ∧ Room mem (0, 0) 9 :=
  ⟨.replicate (by decide), .replicate (by decide)⟩

theorem C56_any_mat3_mulv {mem : Mem α} {mP vP destP : Ptr} (h_m : Init mem mP 9) (h_v : Init mem vP 3) (r_dest : Room mem destP 3) :
    Safe mem [(destP, 3)] .void (C.glm_mat3_mulv.run mem [mP.val, vP.val, destP.val]) :=
  safe_entry Lib.glm_mat3_mulv_ok [.inp mP 9, .inp vP 3, .out destP 3] ⟨⟨initK_isF.mpr h_m, by decide⟩, ⟨initK_isF.mpr h_v, by decide⟩, ⟨r_dest, by decide⟩, trivial⟩ rfl
example (x : α) : let mem : Mem α := [⟨true, List.replicate 9 (.f x)⟩]
    Init mem (0, 0) 9 ∧ Init mem (0, 1) 3 ∧ Room mem (0, 2) 3 :=
  ⟨.replicate (by decide), .replicate (by decide), .replicate (by decide)⟩

theorem C56_any_mat3_trace {mem : Mem α} {mP : Ptr} (h_m : Init mem mP 9) :
    Safe mem [] .float (C.glm_mat3_trace.run mem [mP.val]) :=
  safe_entry Lib.glm_mat3_trace_ok [.inp mP 9] ⟨⟨initK_isF.mpr h_m, by decide⟩, trivial⟩ rfl
example (x : α) : let mem : Mem α := [⟨true, List.replicate 9 (.f x)⟩]
    Init mem (0, 0) 9 :=
  .replicate (by decide)

theorem C56_any_mat3_quat {mem : Mem α} {mP destP : Ptr} (h_m : Init mem mP 9) (r_dest : Room mem destP 4) :
    Safe mem [(destP, 4)] .void (C.glm_mat3_quat.run mem [mP.val, destP.val]) :=
  safe_entry Lib.glm_mat3_quat_ok [.inp mP 9, .out destP 4] ⟨⟨initK_isF.mpr h_m, by decide⟩, ⟨r_dest, by decide⟩, trivial⟩ rfl
example (x : α) : let mem : Mem α := [⟨true, List.replicate 9 (.f x)⟩]
    Init mem (0, 0) 9 ∧ Room mem (0, 1) 4 :=
  ⟨.replicate (by decide), .replicate (by decide)⟩

theorem C56_any_mat3_scale {mem : Mem α} {mP : Ptr} (s : α) (h_m : Init mem mP 9) (r_m : Room mem mP 9) :
    Safe mem [(mP, 9)] .void (C.glm_mat3_scale.run mem [mP.val, .f s]) :=
  safe_entry Lib.glm_mat3_scale_ok [.io mP 9, .f s] ⟨⟨initK_isF.mpr h_m, r_m, by decide⟩, trivial, trivial⟩ rfl
example (x : α) : let mem : Mem α := [⟨true, List.replicate 9 (.f x)⟩]
    Init mem (0, 0) 9 ∧ Room mem (0, 0) 9 :=
  ⟨.replicate (by decide), .replicate (by decide)⟩

theorem C56_any_mat3_det {mem : Mem α} {matP : Ptr} (h_mat : Init mem matP 9) :
    Safe mem [] .float (C.glm_mat3_det.run mem [matP.val]) :=
  safe_entry Lib.glm_mat3_det_ok [.inp matP 9] ⟨⟨initK_isF.mpr h_mat, by decide⟩, trivial⟩ rfl
example (x : α) : let mem : Mem α := [⟨true, List.replicate 9 (.f x)⟩]
    Init mem (0, 0) 9 :=
  .replicate (by decide)

theorem C56_any_mat3_inv {mem : Mem α} {matP destP : Ptr} (h_mat : Init mem matP 9) (r_dest : Room mem destP 9) :
    Safe mem [(destP, 9)] .void (C.glm_mat3_inv.run mem [matP.val, destP.val]) :=
  safe_entry Lib.glm_mat3_inv_ok [.inp matP 9, .out destP 9] ⟨⟨initK_isF.mpr h_mat, by decide⟩, ⟨r_dest, by decide⟩, trivial⟩ rfl
example (x : α) : let mem : Mem α := [⟨true, List.replicate 10 (.f x)⟩]
    Init mem (0, 0) 9 ∧ Room mem (0, 1) 9 :=
  ⟨.replicate (by decide), .replicate (by decide)⟩

theorem C56_any_mat3_rmc {mem : Mem α} {rP mP cP : Ptr} (h_r : Init mem rP 3) (h_m : Init mem mP 9) (h_c : Init mem cP 3) :
    Safe mem [] .float (C.glm_mat3_rmc.run mem [rP.val, mP.val, cP.val]) :=
  safe_entry Lib.glm_mat3_rmc_ok [.inp rP 3, .inp mP 9, .inp cP 3] ⟨⟨initK_isF.mpr h_r, by decide⟩, ⟨initK_isF.mpr h_m, by decide⟩, ⟨initK_isF.mpr h_c, by decide⟩, trivial⟩ rfl
example (x : α) : let mem : Mem α := [⟨true, List.replicate 10 (.f x)⟩]
    Init mem (0, 0) 3 ∧ Init mem (0, 1) 9 ∧ Init mem (0, 2) 3 :=
  ⟨.replicate (by decide), .replicate (by decide), .replicate (by decide)⟩

theorem C56_any_mat3_make {mem : Mem α} {srcP destP : Ptr} (h_src : Init mem srcP 9) (r_dest : Room mem destP 9) :
    Safe mem [(destP, 9)] .void (C.glm_mat3_make.run mem [srcP.val, destP.val]) :=
  safe_entry Lib.glm_mat3_make_ok [.inp srcP 9, .out destP 9] ⟨⟨initK_isF.mpr h_src, by decide⟩, ⟨r_dest, by decide⟩, trivial⟩ rfl
example (x : α) : let mem : Mem α := [⟨true, List.replicate 10 (.f x)⟩]
    Init mem (0, 0) 9 ∧ Room mem (0, 1) 9 :=
  ⟨.replicate (by decide), .replicate (by decide)⟩

theorem C56_any_mat3_textrans {mem : Mem α} {destP : Ptr} (sx : α) (sy : α) (rot : α) (tx : α) (ty : α) (r_dest : Room mem destP 9) :
    Safe mem [(destP, 9)] .void (C.glm_mat3_textrans.run mem [.f sx, .f sy, .f rot, .f tx, .f ty, destP.val]) :=
  safe_entry Lib.glm_mat3_textrans_ok [.f sx, .f sy, .f rot, .f tx, .f ty, .out destP 9] ⟨trivial, trivial, trivial, trivial, trivial, ⟨r_dest, by decide⟩, trivial⟩ rfl
example (x : α) : let mem : Mem α := [⟨true, List.replicate 9 (.f x)⟩]
    Room mem (0, 0) 9 :=
  .replicate (by decide)

/-! ## include/cglm/mat3x2.h -/

theorem C56_any_mat3x2_copy {mem : Mem α} {srcP destP : Ptr} (h_src : Init mem srcP 6) (r_dest : Room mem destP 6) :
    Safe mem [(destP, 6)] .void (C.glm_mat3x2_copy.run mem [srcP.val, destP.val]) :=
  safe_entry Lib.glm_mat3x2_copy_ok [.inp srcP 6, .out destP 6] ⟨⟨initK_isF.mpr h_src, by decide⟩, ⟨r_dest, by decide⟩, trivial⟩ rfl
example (x : α) : let mem : Mem α := [⟨true, List.replicate 7 (.f x)⟩]
    Init mem (0, 0) 6 ∧ Room mem (0, 1) 6 :=
  ⟨.replicate (by decide), .replicate (by decide)⟩

theorem C56_any_mat3x2_zero {mem : Mem α} {mP : Ptr} (r_m : Room mem mP 6) :
    Safe mem [(mP, 6)] .void (C.glm_mat3x2_zero.run mem [mP.val]) :=
  safe_entry Lib.glm_mat3x2_zero_ok [.out mP 6] ⟨⟨r_m, by decide⟩, trivial⟩ rfl
example (x : α) : let mem : Mem α := [⟨true, List.replicate 6 (.f x)⟩]
    Room mem (0, 0) 6 :=
  .replicate (by decide)

theorem C56_any_mat3x2_make {mem : Mem α} {srcP destP : Ptr} (h_src : Init mem srcP 6) (r_dest : Room mem destP 6) :
    Safe mem [(destP, 6)] .void (C.glm_mat3x2_make.run mem [srcP.val, destP.val]) :=
  safe_entry Lib.glm_mat3x2_make_ok [.inp srcP 6, .out destP 6] ⟨⟨initK_isF.mpr h_src, by decide⟩, ⟨r_dest, by decide⟩, trivial⟩ rfl
example (x : α) : let mem : Mem α := [⟨true, List.replicate 7 (.f x)⟩]
    Init mem (0, 0) 6 ∧ Room mem (0, 1) 6 :=
  ⟨.replicate (by decide), .replicate (by decide)⟩

theorem C56_any_mat3x2_mul {mem : Mem α} {m1P m2P destP : Ptr} (h_m1 : Init mem m1P 6) (h_m2 : Init mem m2P 6) (r_dest : Room mem destP 4) :
    Safe mem [(destP, 4)] .void (C.glm_mat3x2_mul.run mem [m1P.val, m2P.val, destP.val]) :=
  safe_entry Lib.glm_mat3x2_mul_ok [.inp m1P 6, .inp m2P 6, .out destP 4] ⟨⟨initK_isF.mpr h_m1, by decide⟩, ⟨initK_isF.mpr h_m2, by decide⟩, ⟨r_dest, by decide⟩, trivial⟩ rfl
example (x : α) : let mem : Mem α := [⟨true, List.replicate 7 (.f x)⟩]
    Init mem (0, 0) 6 ∧ Init mem (0, 1) 6 ∧ Room mem (0, 2) 4 :=
  ⟨.replicate (by decide), .replicate (by decide), .replicate (by decide)⟩

theorem C56_any_mat3x2_mulv {mem : Mem α} {mP vP destP : Ptr} (h_m : Init mem mP 6) (h_v : Init mem vP 3) (r_dest : Room mem destP 2) :
    Safe mem [(destP, 2)] .void (C.glm_mat3x2_mulv.run mem [mP.val, vP.val, destP.val]) :=
  safe_entry Lib.glm_mat3x2_mulv_ok [.inp mP 6, .inp vP 3, .out destP 2] ⟨⟨initK_isF.mpr h_m, by decide⟩, ⟨initK_isF.mpr h_v, by decide⟩, ⟨r_dest, by decide⟩, trivial⟩ rfl
example (x : α) : let mem : Mem α := [⟨true, List.replicate 6 (.f x)⟩]
    Init mem (0, 0) 6 ∧ Init mem (0, 1) 3 ∧ Room mem (0, 2) 2 :=
  ⟨.replicate (by decide), .replicate (by decide), .replicate (by decide)⟩

theorem C56_any_mat3x2_transpose {mem : Mem α} {srcP destP : Ptr} (h_src : Init mem srcP 6) (r_dest : Room mem destP 6) :
    Safe mem [(destP, 6)] .void (C.glm_mat3x2_transpose.run mem [srcP.val, destP.val]) :=
  safe_entry Lib.glm_mat3x2_transpose_ok [.inp srcP 6, .out destP 6] ⟨⟨initK_isF.mpr h_src, by decide⟩, ⟨r_dest, by decide⟩, trivial⟩ rfl
example (x : α) : let mem : Mem α := [⟨true, List.replicate 7 (.f x)⟩]
    Init mem (0, 0) 6 ∧ Room mem (0, 1) 6 :=
  ⟨.replicate (by decide), .replicate (by decide)⟩

theorem C56_any_mat3x2_scale {mem : Mem α} {mP : Ptr} (s : α) (h_m : Init mem mP 6) (r_m : Room mem mP 6) :
    Safe mem [(mP, 6)] .void (C.glm_mat3x2_scale.run mem [mP.val, .f s]) :=
  safe_entry Lib.glm_mat3x2_scale_ok [.io mP 6, .f s] ⟨⟨initK_isF.mpr h_m, r_m, by decide⟩, trivial, trivial⟩ rfl
example (x : α) : let mem : Mem α := [⟨true, List.replicate 6 (.f x)⟩]
    Init mem (0, 0) 6 ∧ Room mem (0, 0) 6 :=
  ⟨.replicate (by decide), .replicate (by decide)⟩

/-! ## include/cglm/mat3x4.h -/

theorem C56_any_mat3x4_copy {mem : Mem α} {srcP destP : Ptr} (h_src : Init mem srcP 12) (r_dest : Room mem destP 12) :
    Safe mem [(destP, 12)] .void (C.glm_mat3x4_copy.run mem [srcP.val, destP.val]) :=
  safe_entry Lib.glm_mat3x4_copy_ok [.inp srcP 12, .out destP 12] ⟨⟨initK_isF.mpr h_src, by decide⟩, ⟨r_dest, by decide⟩, trivial⟩ rfl
example (x : α) : let mem : Mem α := [⟨true, List.replicate 13 (.f x)⟩]
    Init mem (0, 0) 12 ∧ Room mem (0, 1) 12 :=
  ⟨.replicate (by decide), .replicate (by decide)⟩

theorem C56_any_mat3x4_zero {mem : Mem α} {mP : Ptr} (r_m : Room mem mP 12) :
    Safe mem [(mP, 12)] .void (C.glm_mat3x4_zero.run mem [mP.val]) :=
  safe_entry Lib.glm_mat3x4_zero_ok [.out mP 12] ⟨⟨r_m, by decide⟩, trivial⟩ rfl
example (x : α) : let mem : Mem α := [⟨true, List.replicate 12 (.f x)⟩]
    Room mem (0, 0) 12 :=
  .replicate (by decide)

theorem C56_any_mat3x4_make {mem : Mem α} {srcP destP : Ptr} (h_src : Init mem srcP 12) (r_dest : Room mem destP 12) :
    Safe mem [(destP, 12)] .void (C.glm_mat3x4_make.run mem [srcP.val, destP.val]) :=
  safe_entry Lib.glm_mat3x4_make_ok [.inp srcP 12, .out destP 12] ⟨⟨initK_isF.mpr h_src, by decide⟩, ⟨r_dest, by decide⟩, trivial⟩ rfl
example (x : α) : let mem : Mem α := [⟨true, List.replicate 13 (.f x)⟩]
    Init mem (0, 0) 12 ∧ Room mem (0, 1) 12 :=
  ⟨.replicate (by decide), .replicate (by decide)⟩

theorem C56_any_mat3x4_mul {mem : Mem α} {m1P m2P destP : Ptr} (h_m1 : Init mem m1P 12) (h_m2 : Init mem m2P 12) (r_dest : Room mem destP 16) :
    Safe mem [(destP, 16)] .void (C.glm_mat3x4_mul.run mem [m1P.val, m2P.val, destP.val]) :=
  safe_entry Lib.glm_mat3x4_mul_ok [.inp m1P 12, .inp m2P 12, .out destP 16] ⟨⟨initK_isF.mpr h_m1, by decide⟩, ⟨initK_isF.mpr h_m2, by decide⟩, ⟨r_dest, by decide⟩, trivial⟩ rfl
example (x : α) : let mem : Mem α := [⟨true, List.replicate 18 (.f x)⟩]
    Init mem (0, 0) 12 ∧ Init mem (0, 1) 12 ∧ Room mem (0, 2) 16 :=
  ⟨.replicate (by decide), .replicate (by decide), .replicate (by decide)⟩

theorem C56_any_mat3x4_mulv {mem : Mem α} {mP vP destP : Ptr} (h_m : Init mem mP 12) (h_v : Init mem vP 3) (r_dest : Room mem destP 4) :
    Safe mem [(destP, 4)] .void (C.glm_mat3x4_mulv.run mem [mP.val, vP.val, destP.val]) :=
  safe_entry Lib.glm_mat3x4_mulv_ok [.inp mP 12, .inp vP 3, .out destP 4] ⟨⟨initK_isF.mpr h_m, by decide⟩, ⟨initK_isF.mpr h_v, by decide⟩, ⟨r_dest, by decide⟩, trivial⟩ rfl
example (x : α) : let mem : Mem α := [⟨true, List.replicate 12 (.f x)⟩]
    Init mem (0, 0) 12 ∧ Init mem (0, 1) 3 ∧ Room mem (0, 2) 4 :=
  ⟨.replicate (by decide), .replicate (by decide), .replicate (by decide)⟩

theorem C56_any_mat3x4_transpose {mem : Mem α} {srcP destP : Ptr} (h_src : Init mem srcP 12) (r_dest : Room mem destP 12) :
    Safe mem [(destP, 12)] .void (C.glm_mat3x4_transpose.run mem [srcP.val, destP.val]) :=
  safe_entry Lib.glm_mat3x4_transpose_ok [.inp srcP 12, .out destP 12] ⟨⟨initK_isF.mpr h_src, by decide⟩, ⟨r_dest, by decide⟩, trivial⟩ rfl
example (x : α) : let mem : Mem α := [⟨true, List.replicate 13 (.f x)⟩]
    Init mem (0, 0) 12 ∧ Room mem (0, 1) 12 :=
  ⟨.replicate (by decide), .replicate (by decide)⟩

theorem C56_any_mat3x4_scale {mem : Mem α} {mP : Ptr} (s : α) (h_m : Init mem mP 12) (r_m : Room mem mP 12) :
    Safe mem [(mP, 12)] .void (C.glm_mat3x4_scale.run mem [mP.val, .f s]) :=
  safe_entry Lib.glm_mat3x4_scale_ok [.io mP 12, .f s] ⟨⟨initK_isF.mpr h_m, r_m, by decide⟩, trivial, trivial⟩ rfl
example (x : α) : let mem : Mem α := [⟨true, List.replicate 12 (.f x)⟩]
    Init mem (0, 0) 12 ∧ Room mem (0, 0) 12 :=
  ⟨.replicate (by decide), .replicate (by decide)⟩

/-! ## include/cglm/mat2.h -/

theorem C56_any_mat2_make {mem : Mem α} {srcP destP : Ptr} (h_src : Init mem srcP 4) (r_dest : Room mem destP 4) :
    Safe mem [(destP, 4)] .void (C.glm_mat2_make.run mem [srcP.val, destP.val]) :=
  safe_entry Lib.glm_mat2_make_ok [.inp srcP 4, .out destP 4] ⟨⟨initK_isF.mpr h_src, by decide⟩, ⟨r_dest, by decide⟩, trivial⟩ rfl
example (x : α) : let mem : Mem α := [⟨true, List.replicate 5 (.f x)⟩]
    Init mem (0, 0) 4 ∧ Room mem (0, 1) 4 :=
  ⟨.replicate (by decide), .replicate (by decide)⟩

theorem C56_any_mat2_copy {mem : Mem α} {matP destP : Ptr} (h_mat : Init mem matP 4) (r_dest : Room mem destP 4) :
    Safe mem [(destP, 4)] .void (C.glm_mat2_copy.run mem [matP.val, destP.val]) :=
  safe_entry Lib.glm_mat2_copy_ok [.inp matP 4, .out destP 4] ⟨⟨initK_isF.mpr h_mat, by decide⟩, ⟨r_dest, by decide⟩, trivial⟩ rfl
example (x : α) : let mem : Mem α := [⟨true, List.replicate 5 (.f x)⟩]
    Init mem (0, 0) 4 ∧ Room mem (0, 1) 4 :=
  ⟨.replicate (by decide), .replicate (by decide)⟩

theorem C56_any_mat2_identity {mem : Mem α} {mP : Ptr} (r_m : Room mem mP 4) :
    Safe mem [(mP, 4)] .void (C.glm_mat2_identity.run mem [mP.val]) :=
  safe_entry Lib.glm_mat2_identity_ok [.out mP 4] ⟨⟨r_m, by decide⟩, trivial⟩ rfl
example (x : α) : let mem : Mem α := [⟨true, List.replicate 4 (.f x)⟩]
    Room mem (0, 0) 4 :=
  .replicate (by decide)

theorem C56_any_mat2_zero {mem : Mem α} {mP : Ptr} (r_m : Room mem mP 4) :
    Safe mem [(mP, 4)] .void (C.glm_mat2_zero.run mem [mP.val]) :=
  safe_entry Lib.glm_mat2_zero_ok [.out mP 4] ⟨⟨r_m, by decide⟩, trivial⟩ rfl
example (x : α) : let mem : Mem α := [⟨true, List.replicate 4 (.f x)⟩]
    Room mem (0, 0) 4 :=
  .replicate (by decide)

theorem C56_any_mat2_mul {mem : Mem α} {m1P m2P destP : Ptr} (h_m1 : Init mem m1P 4) (h_m2 : Init mem m2P 4) (r_dest : Room mem destP 4) :
    Safe mem [(destP, 4)] .void (C.glm_mat2_mul.run mem [m1P.val, m2P.val, destP.val]) :=
  safe_entry Lib.glm_mat2_mul_ok [.inp m1P 4, .inp m2P 4, .out destP 4] ⟨⟨initK_isF.mpr h_m1, by decide⟩, ⟨initK_isF.mpr h_m2, by decide⟩, ⟨r_dest, by decide⟩, trivial⟩ rfl
example (x : α) : let mem : Mem α := [⟨true, List.replicate 6 (.f x)⟩]
    Init mem (0, 0) 4 ∧ Init mem (0, 1) 4 ∧ Room mem (0, 2) 4 :=
  ⟨.replicate (by decide), .replicate (by decide), .replicate (by decide)⟩

theorem C56_any_mat2_mulv {mem : Mem α} {mP vP destP : Ptr} (h_m : Init mem mP 4) (h_v : Init mem vP 2) (r_dest : Room mem destP 2) :
    Safe mem [(destP, 2)] .void (C.glm_mat2_mulv.run mem [mP.val, vP.val, destP.val]) :=
  safe_entry Lib.glm_mat2_mulv_ok [.inp mP 4, .inp vP 2, .out destP 2] ⟨⟨initK_isF.mpr h_m, by decide⟩, ⟨initK_isF.mpr h_v, by decide⟩, ⟨r_dest, by decide⟩, trivial⟩ rfl
example (x : α) : let mem : Mem α := [⟨true, List.replicate 4 (.f x)⟩]
    Init mem (0, 0) 4 ∧ Init mem (0, 1) 2 ∧ Room mem (0, 2) 2 :=
  ⟨.replicate (by decide), .replicate (by decide), .replicate (by decide)⟩

theorem C56_any_mat2_transpose_to {mem : Mem α} {matP destP : Ptr} (h_mat : Init mem matP 4) (r_dest : Room mem destP 4) :
    Safe mem [(destP, 4)] .void (C.glm_mat2_transpose_to.run mem [matP.val, destP.val]) :=
  safe_entry Lib.glm_mat2_transpose_to_ok [.inp matP 4, .out destP 4] ⟨⟨initK_isF.mpr h_mat, by decide⟩, ⟨r_dest, by decide⟩, trivial⟩ rfl
example (x : α) : let mem : Mem α := [⟨true, List.replicate 5 (.f x)⟩]
    Init mem (0, 0) 4 ∧ Room mem (0, 1) 4 :=
  ⟨.replicate (by decide), .replicate (by decide)⟩

theorem C56_any_mat2_transpose {mem : Mem α} {mP : Ptr} (h_m : Init mem mP 4) (r_m : Room mem mP 4) :
    Safe mem [(mP, 4)] .void (C.glm_mat2_transpose.run mem [mP.val]) :=
  safe_entry Lib.glm_mat2_transpose_ok [.io mP 4] ⟨⟨initK_isF.mpr h_m, r_m, by decide⟩, trivial⟩ rfl
example (x : α) : let mem : Mem α := [⟨true, List.replicate 4 (.f x)⟩]
    Init mem (0, 0) 4 ∧ Room mem (0, 0) 4 :=
  ⟨.replicate (by decide), .replicate (by decide)⟩

theorem C56_any_mat2_scale {mem : Mem α} {mP : Ptr} (s : α) (h_m : Init mem mP 4) (r_m : Room mem mP 4) :
    Safe mem [(mP, 4)] .void (C.glm_mat2_scale.run mem [mP.val, .f s]) :=
  safe_entry Lib.glm_mat2_scale_ok [.io mP 4, .f s] ⟨⟨initK_isF.mpr h_m, r_m, by decide⟩, trivial, trivial⟩ rfl
example (x : α) : let mem : Mem α := [⟨true, List.replicate 4 (.f x)⟩]
    Init mem (0, 0) 4 ∧ Room mem (0, 0) 4 :=
  ⟨.replicate (by decide), .replicate (by decide)⟩

theorem C56_any_mat2_inv {mem : Mem α} {matP destP : Ptr} (h_mat : Init mem matP 4) (r_dest : Room mem destP 4) :
    Safe mem [(destP, 4)] .void (C.glm_mat2_inv.run mem [matP.val, destP.val]) :=
  safe_entry Lib.glm_mat2_inv_ok [.inp matP 4, .out destP 4] ⟨⟨initK_isF.mpr h_mat, by decide⟩, ⟨r_dest, by decide⟩, trivial⟩ rfl
example (x : α) : let mem : Mem α := [⟨true, List.replicate 5 (.f x)⟩]
    Init mem (0, 0) 4 ∧ Room mem (0, 1) 4 :=
  ⟨.replicate (by decide), .replicate (by decide)⟩

theorem C56_any_mat2_det {mem : Mem α} {mP : Ptr} (h_m : Init mem mP 4) :
    Safe mem [] .float (C.glm_mat2_det.run mem [mP.val]) :=
  safe_entry Lib.glm_mat2_det_ok [.inp mP 4] ⟨⟨initK_isF.mpr h_m, by decide⟩, trivial⟩ rfl
example (x : α) : let mem : Mem α := [⟨true, List.replicate 4 (.f x)⟩]
    Init mem (0, 0) 4 :=
  .replicate (by decide)

theorem C56_any_mat2_trace {mem : Mem α} {mP : Ptr} (h_m : Init mem mP 4) :
    Safe mem [] .float (C.glm_mat2_trace.run mem [mP.val]) :=
  safe_entry Lib.glm_mat2_trace_ok [.inp mP 4] ⟨⟨initK_isF.mpr h_m, by decide⟩, trivial⟩ rfl
example (x : α) : let mem : Mem α := [⟨true, List.replicate 4 (.f x)⟩]
    Init mem (0, 0) 4 :=
  .replicate (by decide)

theorem C56_any_mat2_rmc {mem : Mem α} {rP mP cP : Ptr} (h_r : Init mem rP 2) (h_m : Init mem mP 4) (h_c : Init mem cP 2) :
    Safe mem [] .float (C.glm_mat2_rmc.run mem [rP.val, mP.val, cP.val]) :=
  safe_entry Lib.glm_mat2_rmc_ok [.inp rP 2, .inp mP 4, .inp cP 2] ⟨⟨initK_isF.mpr h_r, by decide⟩, ⟨initK_isF.mpr h_m, by decide⟩, ⟨initK_isF.mpr h_c, by decide⟩, trivial⟩ rfl
example (x : α) : let mem : Mem α := [⟨true, List.replicate 5 (.f x)⟩]
    Init mem (0, 0) 2 ∧ Init mem (0, 1) 4 ∧ Init mem (0, 2) 2 :=
  ⟨.replicate (by decide), .replicate (by decide), .replicate (by decide)⟩

/-! ## include/cglm/mat2x3.h -/

theorem C56_any_mat2x3_copy {mem : Mem α} {srcP destP : Ptr} (h_src : Init mem srcP 6) (r_dest : Room mem destP 6) :
    Safe mem [(destP, 6)] .void (C.glm_mat2x3_copy.run mem [srcP.val, destP.val]) :=
  safe_entry Lib.glm_mat2x3_copy_ok [.inp srcP 6, .out destP 6] ⟨⟨initK_isF.mpr h_src, by decide⟩, ⟨r_dest, by decide⟩, trivial⟩ rfl
example (x : α) : let mem : Mem α := [⟨true, List.replicate 7 (.f x)⟩]
    Init mem (0, 0) 6 ∧ Room mem (0, 1) 6 :=
  ⟨.replicate (by decide), .replicate (by decide)⟩

theorem C56_any_mat2x3_zero {mem : Mem α} {mP : Ptr} (r_m : Room mem mP 6) :
    Safe mem [(mP, 6)] .void (C.glm_mat2x3_zero.run mem [mP.val]) :=
  safe_entry Lib.glm_mat2x3_zero_ok [.out mP 6] ⟨⟨r_m, by decide⟩, trivial⟩ rfl
example (x : α) : let mem : Mem α := [⟨true, List.replicate 6 (.f x)⟩]
    Room mem (0, 0) 6 :=
  .replicate (by decide)

theorem C56_any_mat2x3_make {mem : Mem α} {srcP destP : Ptr} (h_src : Init mem srcP 6) (r_dest : Room mem destP 6) :
    Safe mem [(destP, 6)] .void (C.glm_mat2x3_make.run mem [srcP.val, destP.val]) :=
  safe_entry Lib.glm_mat2x3_make_ok [.inp srcP 6, .out destP 6] ⟨⟨initK_isF.mpr h_src, by decide⟩, ⟨r_dest, by decide⟩, trivial⟩ rfl
example (x : α) : let mem : Mem α := [⟨true, List.replicate 7 (.f x)⟩]
    Init mem (0, 0) 6 ∧ Room mem (0, 1) 6 :=
  ⟨.replicate (by decide), .replicate (by decide)⟩

theorem C56_any_mat2x3_mul {mem : Mem α} {m1P m2P destP : Ptr} (h_m1 : Init mem m1P 6) (h_m2 : Init mem m2P 6) (r_dest : Room mem destP 9) :
    Safe mem [(destP, 9)] .void (C.glm_mat2x3_mul.run mem [m1P.val, m2P.val, destP.val]) :=
  safe_entry Lib.glm_mat2x3_mul_ok [.inp m1P 6, .inp m2P 6, .out destP 9] ⟨⟨initK_isF.mpr h_m1, by decide⟩, ⟨initK_isF.mpr h_m2, by decide⟩, ⟨r_dest, by decide⟩, trivial⟩ rfl
example (x : α) : let mem : Mem α := [⟨true, List.replicate 11 (.f x)⟩]
    Init mem (0, 0) 6 ∧ Init mem (0, 1) 6 ∧ Room mem (0, 2) 9 :=
  ⟨.replicate (by decide), .replicate (by decide), .replicate (by decide)⟩

theorem C56_any_mat2x3_mulv {mem : Mem α} {mP vP destP : Ptr} (h_m : Init mem mP 6) (h_v : Init mem vP 2) (r_dest : Room mem destP 3) :
    Safe mem [(destP, 3)] .void (C.glm_mat2x3_mulv.run mem [mP.val, vP.val, destP.val]) :=
  safe_entry Lib.glm_mat2x3_mulv_ok [.inp mP 6, .inp vP 2, .out destP 3] ⟨⟨initK_isF.mpr h_m, by decide⟩, ⟨initK_isF.mpr h_v, by decide⟩, ⟨r_dest, by decide⟩, trivial⟩ rfl
example (x : α) : let mem : Mem α := [⟨true, List.replicate 6 (.f x)⟩]
    Init mem (0, 0) 6 ∧ Init mem (0, 1) 2 ∧ Room mem (0, 2) 3 :=
  ⟨.replicate (by decide), .replicate (by decide), .replicate (by decide)⟩

theorem C56_any_mat2x3_transpose {mem : Mem α} {srcP destP : Ptr} (h_src : Init mem srcP 6) (r_dest : Room mem destP 6) :
    Safe mem [(destP, 6)] .void (C.glm_mat2x3_transpose.run mem [srcP.val, destP.val]) :=
  safe_entry Lib.glm_mat2x3_transpose_ok [.inp srcP 6, .out destP 6] ⟨⟨initK_isF.mpr h_src, by decide⟩, ⟨r_dest, by decide⟩, trivial⟩ rfl
example (x : α) : let mem : Mem α := [⟨true, List.replicate 7 (.f x)⟩]
    Init mem (0, 0) 6 ∧ Room mem (0, 1) 6 :=
  ⟨.replicate (by decide), .replicate (by decide)⟩

theorem C56_any_mat2x3_scale {mem : Mem α} {mP : Ptr} (s : α) (h_m : Init mem mP 6) (r_m : Room mem mP 6) :
    Safe mem [(mP, 6)] .void (C.glm_mat2x3_scale.run mem [mP.val, .f s]) :=
  safe_entry Lib.glm_mat2x3_scale_ok [.io mP 6, .f s] ⟨⟨initK_isF.mpr h_m, r_m, by decide⟩, trivial, trivial⟩ rfl
example (x : α) : let mem : Mem α := [⟨true, List.replicate 6 (.f x)⟩]
    Init mem (0, 0) 6 ∧ Room mem (0, 0) 6 :=
  ⟨.replicate (by decide), .replicate (by decide)⟩

/-! ## include/cglm/mat2x4.h -/

theorem C56_any_mat2x4_copy {mem : Mem α} {srcP destP : Ptr} (h_src : Init mem srcP 8) (r_dest : Room mem destP 8) :
    Safe mem [(destP, 8)] .void (C.glm_mat2x4_copy.run mem [srcP.val, destP.val]) :=
  safe_entry Lib.glm_mat2x4_copy_ok [.inp srcP 8, .out destP 8] ⟨⟨initK_isF.mpr h_src, by decide⟩, ⟨r_dest, by decide⟩, trivial⟩ rfl
example (x : α) : let mem : Mem α := [⟨true, List.replicate 9 (.f x)⟩]
    Init mem (0, 0) 8 ∧ Room mem (0, 1) 8 :=
  ⟨.replicate (by decide), .replicate (by decide)⟩

theorem C56_any_mat2x4_zero {mem : Mem α} {mP : Ptr} (r_m : Room mem mP 8) :
    Safe mem [(mP, 8)] .void (C.glm_mat2x4_zero.run mem [mP.val]) :=
  safe_entry Lib.glm_mat2x4_zero_ok [.out mP 8] ⟨⟨r_m, by decide⟩, trivial⟩ rfl
example (x : α) : let mem : Mem α := [⟨true, List.replicate 8 (.f x)⟩]
    Room mem (0, 0) 8 :=
  .replicate (by decide)

theorem C56_any_mat2x4_make {mem : Mem α} {srcP destP : Ptr} (h_src : Init mem srcP 8) (r_dest : Room mem destP 8) :
    Safe mem [(destP, 8)] .void (C.glm_mat2x4_make.run mem [srcP.val, destP.val]) :=
  safe_entry Lib.glm_mat2x4_make_ok [.inp srcP 8, .out destP 8] ⟨⟨initK_isF.mpr h_src, by decide⟩, ⟨r_dest, by decide⟩, trivial⟩ rfl
example (x : α) : let mem : Mem α := [⟨true, List.replicate 9 (.f x)⟩]
    Init mem (0, 0) 8 ∧ Room mem (0, 1) 8 :=
  ⟨.replicate (by decide), .replicate (by decide)⟩

theorem C56_any_mat2x4_mul {mem : Mem α} {m1P m2P destP : Ptr} (h_m1 : Init mem m1P 8) (h_m2 : Init mem m2P 8) (r_dest : Room mem destP 16) :
    Safe mem [(destP, 16)] .void (C.glm_mat2x4_mul.run mem [m1P.val, m2P.val, destP.val]) :=
  safe_entry Lib.glm_mat2x4_mul_ok [.inp m1P 8, .inp m2P 8, .out destP 16] ⟨⟨initK_isF.mpr h_m1, by decide⟩, ⟨initK_isF.mpr h_m2, by decide⟩, ⟨r_dest, by decide⟩, trivial⟩ rfl
example (x : α) : let mem : Mem α := [⟨true, List.replicate 18 (.f x)⟩]
    Init mem (0, 0) 8 ∧ Init mem (0, 1) 8 ∧ Room mem (0, 2) 16 :=
  ⟨.replicate (by decide), .replicate (by decide), .replicate (by decide)⟩

theorem C56_any_mat2x4_mulv {mem : Mem α} {mP vP destP : Ptr} (h_m : Init mem mP 8) (h_v : Init mem vP 2) (r_dest : Room mem destP 4) :
    Safe mem [(destP, 4)] .void (C.glm_mat2x4_mulv.run mem [mP.val, vP.val, destP.val]) :=
  safe_entry Lib.glm_mat2x4_mulv_ok [.inp mP 8, .inp vP 2, .out destP 4] ⟨⟨initK_isF.mpr h_m, by decide⟩, ⟨initK_isF.mpr h_v, by decide⟩, ⟨r_dest, by decide⟩, trivial⟩ rfl
example (x : α) : let mem : Mem α := [⟨true, List.replicate 8 (.f x)⟩]
    Init mem (0, 0) 8 ∧ Init mem (0, 1) 2 ∧ Room mem (0, 2) 4 :=
  ⟨.replicate (by decide), .replicate (by decide), .replicate (by decide)⟩

theorem C56_any_mat2x4_transpose {mem : Mem α} {srcP destP : Ptr} (h_src : Init mem srcP 8) (r_dest : Room mem destP 8) :
    Safe mem [(destP, 8)] .void (C.glm_mat2x4_transpose.run mem [srcP.val, destP.val]) :=
  safe_entry Lib.glm_mat2x4_transpose_ok [.inp srcP 8, .out destP 8] ⟨⟨initK_isF.mpr h_src, by decide⟩, ⟨r_dest, by decide⟩, trivial⟩ rfl
example (x : α) : let mem : Mem α := [⟨true, List.replicate 9 (.f x)⟩]
    Init mem (0, 0) 8 ∧ Room mem (0, 1) 8 :=
  ⟨.replicate (by decide), .replicate (by decide)⟩

theorem C56_any_mat2x4_scale {mem : Mem α} {mP : Ptr} (s : α) (h_m : Init mem mP 8) (r_m : Room mem mP 8) :
    Safe mem [(mP, 8)] .void (C.glm_mat2x4_scale.run mem [mP.val, .f s]) :=
  safe_entry Lib.glm_mat2x4_scale_ok [.io mP 8, .f s] ⟨⟨initK_isF.mpr h_m, r_m, by decide⟩, trivial, trivial⟩ rfl
example (x : α) : let mem : Mem α := [⟨true, List.replicate 8 (.f x)⟩]
    Init mem (0, 0) 8 ∧ Room mem (0, 0) 8 :=
  ⟨.replicate (by decide), .replicate (by decide)⟩

end Cglm
