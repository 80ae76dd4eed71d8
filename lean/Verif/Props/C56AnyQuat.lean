/- Generated by tools/safethms.py; do not edit by hand. -/
import Verif.Lib.Quat

/-!
# C56: memory safety when the arguments overlap in any way

No theorem here assumes anything about how the arguments lie relative «to» each other: inputs may be the destination,
or overlap it or each other partly.  Whenever every input is initialised and every destination is writable, the call
is defined, no cell outside the destinations changes, and the destinations end up initialised.
-/

set_option linter.unusedVariables false
set_option linter.unusedSectionVars false

namespace Cglm
open CMem

variable {α : Type} [Add α] [Sub α] [Mul α] [Div α] [Neg α] [CFloat α]

/-! ## include/cglm/quat.h -/

theorem C56_any_quat_identity {mem : Mem α} {qP : Ptr} (r_q : Room mem qP 4) :
    Safe mem [(qP, 4)] .void (C.glm_quat_identity.run mem [qP.val]) :=
  safe_entry Lib.glm_quat_identity_ok [.out qP 4] ⟨⟨r_q, by decide⟩, trivial⟩ rfl
example (x : α) : let mem : Mem α := [⟨true, List.replicate 4 (.f x)⟩]
    Room mem (0, 0) 4 :=
  .replicate (by decide)

theorem C56_any_quat_init {mem : Mem α} {qP : Ptr} (x : α) (y : α) (z : α) (w : α) (r_q : Room mem qP 4) :
    Safe mem [(qP, 4)] .void (C.glm_quat_init.run mem [qP.val, .f x, .f y, .f z, .f w]) :=
  safe_entry Lib.glm_quat_init_ok [.out qP 4, .f x, .f y, .f z, .f w] ⟨⟨r_q, by decide⟩, trivial, trivial, trivial, trivial, trivial⟩ rfl
example (x : α) : let mem : Mem α := [⟨true, List.replicate 4 (.f x)⟩]
    Room mem (0, 0) 4 :=
  .replicate (by decide)

theorem C56_any_quatv {mem : Mem α} {qP axisP : Ptr} (angle : α) (r_q : Room mem qP 4) (h_axis : Init mem axisP 3) :
    Safe mem [(qP, 4)] .void (C.glm_quatv.run mem [qP.val, .f angle, axisP.val]) :=
  safe_entry Lib.glm_quatv_ok [.out qP 4, .f angle, .inp axisP 3] ⟨⟨r_q, by decide⟩, trivial, ⟨initK_isF.mpr h_axis, by decide⟩, trivial⟩ rfl
example (x : α) : let mem : Mem α := [⟨true, List.replicate 4 (.f x)⟩]
    Room mem (0, 0) 4 ∧ Init mem (0, 1) 3 :=
  ⟨.replicate (by decide), .replicate (by decide)⟩

theorem C56_any_quat {mem : Mem α} {qP : Ptr} (angle : α) (x : α) (y : α) (z : α) (r_q : Room mem qP 4) :
    Safe mem [(qP, 4)] .void (C.glm_quat.run mem [qP.val, .f angle, .f x, .f y, .f z]) :=
  safe_entry Lib.glm_quat_ok [.out qP 4, .f angle, .f x, .f y, .f z] ⟨⟨r_q, by decide⟩, trivial, trivial, trivial, trivial, trivial⟩ rfl
example (x : α) : let mem : Mem α := [⟨true, List.replicate 4 (.f x)⟩]
    Room mem (0, 0) 4 :=
  .replicate (by decide)

theorem C56_any_quat_copy {mem : Mem α} {qP destP : Ptr} (h_q : Init mem qP 4) (r_dest : Room mem destP 4) :
    Safe mem [(destP, 4)] .void (C.glm_quat_copy.run mem [qP.val, destP.val]) :=
  safe_entry Lib.glm_quat_copy_ok [.inp qP 4, .out destP 4] ⟨⟨initK_isF.mpr h_q, by decide⟩, ⟨r_dest, by decide⟩, trivial⟩ rfl
example (x : α) : let mem : Mem α := [⟨true, List.replicate 5 (.f x)⟩]
    Init mem (0, 0) 4 ∧ Room mem (0, 1) 4 :=
  ⟨.replicate (by decide), .replicate (by decide)⟩

theorem C56_any_quat_norm {mem : Mem α} {qP : Ptr} (h_q : Init mem qP 4) :
    Safe mem [] .float (C.glm_quat_norm.run mem [qP.val]) :=
  safe_entry Lib.glm_quat_norm_ok [.inp qP 4] ⟨⟨initK_isF.mpr h_q, by decide⟩, trivial⟩ rfl
example (x : α) : let mem : Mem α := [⟨true, List.replicate 4 (.f x)⟩]
    Init mem (0, 0) 4 :=
  .replicate (by decide)

theorem C56_any_quat_normalize_to {mem : Mem α} {qP destP : Ptr} (h_q : Init mem qP 4) (r_dest : Room mem destP 4) :
    Safe mem [(destP, 4)] .void (C.glm_quat_normalize_to.run mem [qP.val, destP.val]) :=
  safe_entry Lib.glm_quat_normalize_to_ok [.inp qP 4, .out destP 4] ⟨⟨initK_isF.mpr h_q, by decide⟩, ⟨r_dest, by decide⟩, trivial⟩ rfl
example (x : α) : let mem : Mem α := [⟨true, List.replicate 5 (.f x)⟩]
    Init mem (0, 0) 4 ∧ Room mem (0, 1) 4 :=
  ⟨.replicate (by decide), .replicate (by decide)⟩

theorem C56_any_quat_normalize {mem : Mem α} {qP : Ptr} (h_q : Init mem qP 4) (r_q : Room mem qP 4) :
    Safe mem [(qP, 4)] .void (C.glm_quat_normalize.run mem [qP.val]) :=
  safe_entry Lib.glm_quat_normalize_ok [.io qP 4] ⟨⟨initK_isF.mpr h_q, r_q, by decide⟩, trivial⟩ rfl
example (x : α) : let mem : Mem α := [⟨true, List.replicate 4 (.f x)⟩]
    Init mem (0, 0) 4 ∧ Room mem (0, 0) 4 :=
  ⟨.replicate (by decide), .replicate (by decide)⟩

theorem C56_any_quat_dot {mem : Mem α} {pP qP : Ptr} (h_p : Init mem pP 4) (h_q : Init mem qP 4) :
    Safe mem [] .float (C.glm_quat_dot.run mem [pP.val, qP.val]) :=
  safe_entry Lib.glm_quat_dot_ok [.inp pP 4, .inp qP 4] ⟨⟨initK_isF.mpr h_p, by decide⟩, ⟨initK_isF.mpr h_q, by decide⟩, trivial⟩ rfl
example (x : α) : let mem : Mem α := [⟨true, List.replicate 5 (.f x)⟩]
    Init mem (0, 0) 4 ∧ Init mem (0, 1) 4 :=
  ⟨.replicate (by decide), .replicate (by decide)⟩

theorem C56_any_quat_conjugate {mem : Mem α} {qP destP : Ptr} (h_q : Init mem qP 4) (r_dest : Room mem destP 4) :
    Safe mem [(destP, 4)] .void (C.glm_quat_conjugate.run mem [qP.val, destP.val]) :=
  safe_entry Lib.glm_quat_conjugate_ok [.inp qP 4, .out destP 4] ⟨⟨initK_isF.mpr h_q, by decide⟩, ⟨r_dest, by decide⟩, trivial⟩ rfl
example (x : α) : let mem : Mem α := [⟨true, List.replicate 5 (.f x)⟩]
    Init mem (0, 0) 4 ∧ Room mem (0, 1) 4 :=
  ⟨.replicate (by decide), .replicate (by decide)⟩

theorem C56_any_quat_inv {mem : Mem α} {qP destP : Ptr} (h_q : Init mem qP 4) (r_dest : Room mem destP 4) :
    Safe mem [(destP, 4)] .void (C.glm_quat_inv.run mem [qP.val, destP.val]) :=
  safe_entry Lib.glm_quat_inv_ok [.inp qP 4, .out destP 4] ⟨⟨initK_isF.mpr h_q, by decide⟩, ⟨r_dest, by decide⟩, trivial⟩ rfl
example (x : α) : let mem : Mem α := [⟨true, List.replicate 5 (.f x)⟩]
    Init mem (0, 0) 4 ∧ Room mem (0, 1) 4 :=
  ⟨.replicate (by decide), .replicate (by decide)⟩

theorem C56_any_quat_add {mem : Mem α} {pP qP destP : Ptr} (h_p : Init mem pP 4) (h_q : Init mem qP 4) (r_dest : Room mem destP 4) :
    Safe mem [(destP, 4)] .void (C.glm_quat_add.run mem [pP.val, qP.val, destP.val]) :=
  safe_entry Lib.glm_quat_add_ok [.inp pP 4, .inp qP 4, .out destP 4] ⟨⟨initK_isF.mpr h_p, by decide⟩, ⟨initK_isF.mpr h_q, by decide⟩, ⟨r_dest, by decide⟩, trivial⟩ rfl
example (x : α) : let mem : Mem α := [⟨true, List.replicate 6 (.f x)⟩]
    Init mem (0, 0) 4 ∧ Init mem (0, 1) 4 ∧ Room mem (0, 2) 4 :=
  ⟨.replicate (by decide), .replicate (by decide), .replicate (by decide)⟩

theorem C56_any_quat_sub {mem : Mem α} {pP qP destP : Ptr} (h_p : Init mem pP 4) (h_q : Init mem qP 4) (r_dest : Room mem destP 4) :
    Safe mem [(destP, 4)] .void (C.glm_quat_sub.run mem [pP.val, qP.val, destP.val]) :=
  safe_entry Lib.glm_quat_sub_ok [.inp pP 4, .inp qP 4, .out destP 4] ⟨⟨initK_isF.mpr h_p, by decide⟩, ⟨initK_isF.mpr h_q, by decide⟩, ⟨r_dest, by decide⟩, trivial⟩ rfl
example (x : α) : let mem : Mem α := [⟨true, List.replicate 6 (.f x)⟩]
    Init mem (0, 0) 4 ∧ Init mem (0, 1) 4 ∧ Room mem (0, 2) 4 :=
  ⟨.replicate (by decide), .replicate (by decide), .replicate (by decide)⟩

theorem C56_any_quat_real {mem : Mem α} {qP : Ptr} (h_q : Init mem qP 4) :
    Safe mem [] .float (C.glm_quat_real.run mem [qP.val]) :=
  safe_entry Lib.glm_quat_real_ok [.inp qP 4] ⟨⟨initK_isF.mpr h_q, by decide⟩, trivial⟩ rfl
example (x : α) : let mem : Mem α := [⟨true, List.replicate 4 (.f x)⟩]
    Init mem (0, 0) 4 :=
  .replicate (by decide)

theorem C56_any_quat_imag {mem : Mem α} {qP destP : Ptr} (h_q : Init mem qP 4) (r_dest : Room mem destP 3) :
    Safe mem [(destP, 3)] .void (C.glm_quat_imag.run mem [qP.val, destP.val]) :=
  safe_entry Lib.glm_quat_imag_ok [.inp qP 4, .out destP 3] ⟨⟨initK_isF.mpr h_q, by decide⟩, ⟨r_dest, by decide⟩, trivial⟩ rfl
example (x : α) : let mem : Mem α := [⟨true, List.replicate 4 (.f x)⟩]
    Init mem (0, 0) 4 ∧ Room mem (0, 1) 3 :=
  ⟨.replicate (by decide), .replicate (by decide)⟩

theorem C56_any_quat_imagn {mem : Mem α} {qP destP : Ptr} (h_q : Init mem qP 4) (r_dest : Room mem destP 3) :
    Safe mem [(destP, 3)] .void (C.glm_quat_imagn.run mem [qP.val, destP.val]) :=
  safe_entry Lib.glm_quat_imagn_ok [.inp qP 4, .out destP 3] ⟨⟨initK_isF.mpr h_q, by decide⟩, ⟨r_dest, by decide⟩, trivial⟩ rfl
example (x : α) : let mem : Mem α := [⟨true, List.replicate 4 (.f x)⟩]
    Init mem (0, 0) 4 ∧ Room mem (0, 1) 3 :=
  ⟨.replicate (by decide), .replicate (by decide)⟩

theorem C56_any_quat_imaglen {mem : Mem α} {qP : Ptr} (h_q : Init mem qP 4) :
    Safe mem [] .float (C.glm_quat_imaglen.run mem [qP.val]) :=
  safe_entry Lib.glm_quat_imaglen_ok [.inp qP 4] ⟨⟨initK_isF.mpr h_q, by decide⟩, trivial⟩ rfl
example (x : α) : let mem : Mem α := [⟨true, List.replicate 4 (.f x)⟩]
    Init mem (0, 0) 4 :=
  .replicate (by decide)

theorem C56_any_quat_angle {mem : Mem α} {qP : Ptr} (h_q : Init mem qP 4) :
    Safe mem [] .float (C.glm_quat_angle.run mem [qP.val]) :=
  safe_entry Lib.glm_quat_angle_ok [.inp qP 4] ⟨⟨initK_isF.mpr h_q, by decide⟩, trivial⟩ rfl
example (x : α) : let mem : Mem α := [⟨true, List.replicate 4 (.f x)⟩]
    Init mem (0, 0) 4 :=
  .replicate (by decide)

theorem C56_any_quat_axis {mem : Mem α} {qP destP : Ptr} (h_q : Init mem qP 4) (r_dest : Room mem destP 3) :
    Safe mem [(destP, 3)] .void (C.glm_quat_axis.run mem [qP.val, destP.val]) :=
  safe_entry Lib.glm_quat_axis_ok [.inp qP 4, .out destP 3] ⟨⟨initK_isF.mpr h_q, by decide⟩, ⟨r_dest, by decide⟩, trivial⟩ rfl
example (x : α) : let mem : Mem α := [⟨true, List.replicate 4 (.f x)⟩]
    Init mem (0, 0) 4 ∧ Room mem (0, 1) 3 :=
  ⟨.replicate (by decide), .replicate (by decide)⟩

theorem C56_any_quat_mul {mem : Mem α} {pP qP destP : Ptr} (h_p : Init mem pP 4) (h_q : Init mem qP 4) (r_dest : Room mem destP 4) :
    Safe mem [(destP, 4)] .void (C.glm_quat_mul.run mem [pP.val, qP.val, destP.val]) :=
  safe_entry Lib.glm_quat_mul_ok [.inp pP 4, .inp qP 4, .out destP 4] ⟨⟨initK_isF.mpr h_p, by decide⟩, ⟨initK_isF.mpr h_q, by decide⟩, ⟨r_dest, by decide⟩, trivial⟩ rfl
example (x : α) : let mem : Mem α := [⟨true, List.replicate 6 (.f x)⟩]
    Init mem (0, 0) 4 ∧ Init mem (0, 1) 4 ∧ Room mem (0, 2) 4 :=
  ⟨.replicate (by decide), .replicate (by decide), .replicate (by decide)⟩

theorem C56_any_quat_mat4 {mem : Mem α} {qP destP : Ptr} (h_q : Init mem qP 4) (r_dest : Room mem destP 16) :
    Safe mem [(destP, 16)] .void (C.glm_quat_mat4.run mem [qP.val, destP.val]) :=
  safe_entry Lib.glm_quat_mat4_ok [.inp qP 4, .out destP 16] ⟨⟨initK_isF.mpr h_q, by decide⟩, ⟨r_dest, by decide⟩, trivial⟩ rfl
example (x : α) : let mem : Mem α := [⟨true, List.replicate 17 (.f x)⟩]
    Init mem (0, 0) 4 ∧ Room mem (0, 1) 16 :=
  ⟨.replicate (by decide), .replicate (by decide)⟩

theorem C56_any_quat_mat4t {mem : Mem α} {qP destP : Ptr} (h_q : Init mem qP 4) (r_dest : Room mem destP 16) :
    Safe mem [(destP, 16)] .void (C.glm_quat_mat4t.run mem [qP.val, destP.val]) :=
  safe_entry Lib.glm_quat_mat4t_ok [.inp qP 4, .out destP 16] ⟨⟨initK_isF.mpr h_q, by decide⟩, ⟨r_dest, by decide⟩, trivial⟩ rfl
example (x : α) : let mem : Mem α := [⟨true, List.replicate 17 (.f x)⟩]
    Init mem (0, 0) 4 ∧ Room mem (0, 1) 16 :=
  ⟨.replicate (by decide), .replicate (by decide)⟩

theorem C56_any_quat_mat3 {mem : Mem α} {qP destP : Ptr} (h_q : Init mem qP 4) (r_dest : Room mem destP 9) :
    Safe mem [(destP, 9)] .void (C.glm_quat_mat3.run mem [qP.val, destP.val]) :=
  safe_entry Lib.glm_quat_mat3_ok [.inp qP 4, .out destP 9] ⟨⟨initK_isF.mpr h_q, by decide⟩, ⟨r_dest, by decide⟩, trivial⟩ rfl
example (x : α) : let mem : Mem α := [⟨true, List.replicate 10 (.f x)⟩]
    Init mem (0, 0) 4 ∧ Room mem (0, 1) 9 :=
  ⟨.replicate (by decide), .replicate (by decide)⟩

theorem C56_any_quat_mat3t {mem : Mem α} {qP destP : Ptr} (h_q : Init mem qP 4) (r_dest : Room mem destP 9) :
    Safe mem [(destP, 9)] .void (C.glm_quat_mat3t.run mem [qP.val, destP.val]) :=
  safe_entry Lib.glm_quat_mat3t_ok [.inp qP 4, .out destP 9] ⟨⟨initK_isF.mpr h_q, by decide⟩, ⟨r_dest, by decide⟩, trivial⟩ rfl
example (x : α) : let mem : Mem α := [⟨true, List.replicate 10 (.f x)⟩]
    Init mem (0, 0) 4 ∧ Room mem (0, 1) 9 :=
  ⟨.replicate (by decide), .replicate (by decide)⟩

theorem C56_any_quat_lerp {mem : Mem α} {frmP toP destP : Ptr} (t : α) (h_frm : Init mem frmP 4) (h_to : Init mem toP 4) (r_dest : Room mem destP 4) :
    Safe mem [(destP, 4)] .void (C.glm_quat_lerp.run mem [frmP.val, toP.val, .f t, destP.val]) :=
  safe_entry Lib.glm_quat_lerp_ok [.inp frmP 4, .inp toP 4, .f t, .out destP 4] ⟨⟨initK_isF.mpr h_frm, by decide⟩, ⟨initK_isF.mpr h_to, by decide⟩, trivial, ⟨r_dest, by decide⟩, trivial⟩ rfl
example (x : α) : let mem : Mem α := [⟨true, List.replicate 6 (.f x)⟩]
    Init mem (0, 0) 4 ∧ Init mem (0, 1) 4 ∧ Room mem (0, 2) 4 :=
  ⟨.replicate (by decide), .replicate (by decide), .replicate (by decide)⟩

theorem C56_any_quat_lerpc {mem : Mem α} {frmP toP destP : Ptr} (t : α) (h_frm : Init mem frmP 4) (h_to : Init mem toP 4) (r_dest : Room mem destP 4) :
    Safe mem [(destP, 4)] .void (C.glm_quat_lerpc.run mem [frmP.val, toP.val, .f t, destP.val]) :=
  safe_entry Lib.glm_quat_lerpc_ok [.inp frmP 4, .inp toP 4, .f t, .out destP 4] ⟨⟨initK_isF.mpr h_frm, by decide⟩, ⟨initK_isF.mpr h_to, by decide⟩, trivial, ⟨r_dest, by decide⟩, trivial⟩ rfl
example (x : α) : let mem : Mem α := [⟨true, List.replicate 6 (.f x)⟩]
    Init mem (0, 0) 4 ∧ Init mem (0, 1) 4 ∧ Room mem (0, 2) 4 :=
  ⟨.replicate (by decide), .replicate (by decide), .replicate (by decide)⟩

theorem C56_any_quat_nlerp {mem : Mem α} {frmP toP destP : Ptr} (t : α) (h_frm : Init mem frmP 4) (h_to : Init mem toP 4) (r_dest : Room mem destP 4) :
    Safe mem [(destP, 4)] .void (C.glm_quat_nlerp.run mem [frmP.val, toP.val, .f t, destP.val]) :=
  safe_entry Lib.glm_quat_nlerp_ok [.inp frmP 4, .inp toP 4, .f t, .out destP 4] ⟨⟨initK_isF.mpr h_frm, by decide⟩, ⟨initK_isF.mpr h_to, by decide⟩, trivial, ⟨r_dest, by decide⟩, trivial⟩ rfl
example (x : α) : let mem : Mem α := [⟨true, List.replicate 6 (.f x)⟩]
    Init mem (0, 0) 4 ∧ Init mem (0, 1) 4 ∧ Room mem (0, 2) 4 :=
  ⟨.replicate (by decide), .replicate (by decide), .replicate (by decide)⟩

theorem C56_any_quat_slerp {mem : Mem α} {frmP toP destP : Ptr} (t : α) (h_frm : Init mem frmP 4) (h_to : Init mem toP 4) (r_dest : Room mem destP 4) :
    Safe mem [(destP, 4)] .void (C.glm_quat_slerp.run mem [frmP.val, toP.val, .f t, destP.val]) :=
  safe_entry Lib.glm_quat_slerp_ok [.inp frmP 4, .inp toP 4, .f t, .out destP 4] ⟨⟨initK_isF.mpr h_frm, by decide⟩, ⟨initK_isF.mpr h_to, by decide⟩, trivial, ⟨r_dest, by decide⟩, trivial⟩ rfl
example (x : α) : let mem : Mem α := [⟨true, List.replicate 6 (.f x)⟩]
    Init mem (0, 0) 4 ∧ Init mem (0, 1) 4 ∧ Room mem (0, 2) 4 :=
  ⟨.replicate (by decide), .replicate (by decide), .replicate (by decide)⟩

theorem C56_any_quat_slerp_longest {mem : Mem α} {frmP toP destP : Ptr} (t : α) (h_frm : Init mem frmP 4) (h_to : Init mem toP 4) (r_dest : Room mem destP 4) :
    Safe mem [(destP, 4)] .void (C.glm_quat_slerp_longest.run mem [frmP.val, toP.val, .f t, destP.val]) :=
  safe_entry Lib.glm_quat_slerp_longest_ok [.inp frmP 4, .inp toP 4, .f t, .out destP 4] ⟨⟨initK_isF.mpr h_frm, by decide⟩, ⟨initK_isF.mpr h_to, by decide⟩, trivial, ⟨r_dest, by decide⟩, trivial⟩ rfl
example (x : α) : let mem : Mem α := [⟨true, List.replicate 6 (.f x)⟩]
    Init mem (0, 0) 4 ∧ Init mem (0, 1) 4 ∧ Room mem (0, 2) 4 :=
  ⟨.replicate (by decide), .replicate (by decide), .replicate (by decide)⟩

theorem C56_any_quat_look {mem : Mem α} {eyeP oriP destP : Ptr} (h_eye : Init mem eyeP 3) (h_ori : Init mem oriP 4) (r_dest : Room mem destP 16) :
    Safe mem [(destP, 16)] .void (C.glm_quat_look.run mem [eyeP.val, oriP.val, destP.val]) :=
  safe_entry Lib.glm_quat_look_ok [.inp eyeP 3, .inp oriP 4, .out destP 16] ⟨⟨initK_isF.mpr h_eye, by decide⟩, ⟨initK_isF.mpr h_ori, by decide⟩, ⟨r_dest, by decide⟩, trivial⟩ rfl
example (x : α) : let mem : Mem α := [⟨true, List.replicate 18 (.f x)⟩]
    Init mem (0, 0) 3 ∧ Init mem (0, 1) 4 ∧ Room mem (0, 2) 16 :=
  ⟨.replicate (by decide), .replicate (by decide), .replicate (by decide)⟩

theorem C56_any_quat_for {mem : Mem α} {dirP upP destP : Ptr} (h_dir : Init mem dirP 3) (h_up : Init mem upP 3) (r_dest : Room mem destP 4) :
    Safe mem [(destP, 4)] .void (C.glm_quat_for.run mem [dirP.val, upP.val, destP.val]) :=
  safe_entry Lib.glm_quat_for_ok [.inp dirP 3, .inp upP 3, .out destP 4] ⟨⟨initK_isF.mpr h_dir, by decide⟩, ⟨initK_isF.mpr h_up, by decide⟩, ⟨r_dest, by decide⟩, trivial⟩ rfl
example (x : α) : let mem : Mem α := [⟨true, List.replicate 6 (.f x)⟩]
    Init mem (0, 0) 3 ∧ Init mem (0, 1) 3 ∧ Room mem (0, 2) 4 :=
  ⟨.replicate (by decide), .replicate (by decide), .replicate (by decide)⟩

theorem C56_any_quat_forp {mem : Mem α} {frmP toP upP destP : Ptr} (h_frm : Init mem frmP 3) (h_to : Init mem toP 3) (h_up : Init mem upP 3) (r_dest : Room mem destP 4) :
    Safe mem [(destP, 4)] .void (C.glm_quat_forp.run mem [frmP.val, toP.val, upP.val, destP.val]) :=
  safe_entry Lib.glm_quat_forp_ok [.inp frmP 3, .inp toP 3, .inp upP 3, .out destP 4] ⟨⟨initK_isF.mpr h_frm, by decide⟩, ⟨initK_isF.mpr h_to, by decide⟩, ⟨initK_isF.mpr h_up, by decide⟩, ⟨r_dest, by decide⟩, trivial⟩ rfl
example (x : α) : let mem : Mem α := [⟨true, List.replicate 7 (.f x)⟩]
    Init mem (0, 0) 3 ∧ Init mem (0, 1) 3 ∧ Init mem (0, 2) 3 ∧ Room mem (0, 3) 4 :=
  ⟨.replicate (by decide), .replicate (by decide), .replicate (by decide), .replicate (by decide)⟩

theorem C56_any_quat_rotatev {mem : Mem α} {qP vP destP : Ptr} (h_q : Init mem qP 4) (h_v : Init mem vP 3) (r_dest : Room mem destP 3) :
    Safe mem [(destP, 3)] .void (C.glm_quat_rotatev.run mem [qP.val, vP.val, destP.val]) :=
  safe_entry Lib.glm_quat_rotatev_ok [.inp qP 4, .inp vP 3, .out destP 3] ⟨⟨initK_isF.mpr h_q, by decide⟩, ⟨initK_isF.mpr h_v, by decide⟩, ⟨r_dest, by decide⟩, trivial⟩ rfl
example (x : α) : let mem : Mem α := [⟨true, List.replicate 5 (.f x)⟩]
    Init mem (0, 0) 4 ∧ Init mem (0, 1) 3 ∧ Room mem (0, 2) 3 :=
  ⟨.replicate (by decide), .replicate (by decide), .replicate (by decide)⟩

theorem C56_any_quat_rotate {mem : Mem α} {mP qP destP : Ptr} (h_m : Init mem mP 16) (h_q : Init mem qP 4) (r_dest : Room mem destP 16) :
    Safe mem [(destP, 16)] .void (C.glm_quat_rotate.run mem [mP.val, qP.val, destP.val]) :=
  safe_entry Lib.glm_quat_rotate_ok [.inp mP 16, .inp qP 4, .out destP 16] ⟨⟨initK_isF.mpr h_m, by decide⟩, ⟨initK_isF.mpr h_q, by decide⟩, ⟨r_dest, by decide⟩, trivial⟩ rfl
example (x : α) : let mem : Mem α := [⟨true, List.replicate 18 (.f x)⟩]
    Init mem (0, 0) 16 ∧ Init mem (0, 1) 4 ∧ Room mem (0, 2) 16 :=
  ⟨.replicate (by decide), .replicate (by decide), .replicate (by decide)⟩

theorem C56_any_quat_rotate_at {mem : Mem α} {mP qP pivotP : Ptr} (h_m : Init mem mP 16) (r_m : Room mem mP 16) (h_q : Init mem qP 4) (h_pivot : Init mem pivotP 3) :
    Safe mem [(mP, 16)] .void (C.glm_quat_rotate_at.run mem [mP.val, qP.val, pivotP.val]) :=
  safe_entry Lib.glm_quat_rotate_at_ok [.io mP 16, .inp qP 4, .inp pivotP 3] ⟨⟨initK_isF.mpr h_m, r_m, by decide⟩, ⟨initK_isF.mpr h_q, by decide⟩, ⟨initK_isF.mpr h_pivot, by decide⟩, trivial⟩ rfl
example (x : α) : let mem : Mem α := [⟨true, List.replicate 16 (.f x)⟩]
    Init mem (0, 0) 16 ∧ Room mem (0, 0) 16 ∧ Init mem (0, 1) 4 ∧ Init mem (0, 2) 3 :=
  ⟨.replicate (by decide), .replicate (by decide), .replicate (by decide), .replicate (by decide)⟩

theorem C56_any_quat_rotate_atm {mem : Mem α} {mP qP pivotP : Ptr} (r_m : Room mem mP 16) (h_q : Init mem qP 4) (h_pivot : Init mem pivotP 3) :
    Safe mem [(mP, 16)] .void (C.glm_quat_rotate_atm.run mem [mP.val, qP.val, pivotP.val]) :=
  safe_entry Lib.glm_quat_rotate_atm_ok [.out mP 16, .inp qP 4, .inp pivotP 3] ⟨⟨r_m, by decide⟩, ⟨initK_isF.mpr h_q, by decide⟩, ⟨initK_isF.mpr h_pivot, by decide⟩, trivial⟩ rfl
example (x : α) : let mem : Mem α := [⟨true, List.replicate 16 (.f x)⟩]
    Room mem (0, 0) 16 ∧ Init mem (0, 1) 4 ∧ Init mem (0, 2) 3 :=
  ⟨.replicate (by decide), .replicate (by decide), .replicate (by decide)⟩

theorem C56_any_quat_make {mem : Mem α} {srcP destP : Ptr} (h_src : Init mem srcP 4) (r_dest : Room mem destP 4) :
    Safe mem [(destP, 4)] .void (C.glm_quat_make.run mem [srcP.val, destP.val]) :=
  safe_entry Lib.glm_quat_make_ok [.inp srcP 4, .out destP 4] ⟨⟨initK_isF.mpr h_src, by decide⟩, ⟨r_dest, by decide⟩, trivial⟩ rfl
example (x : α) : let mem : Mem α := [⟨true, List.replicate 5 (.f x)⟩]
    Init mem (0, 0) 4 ∧ Room mem (0, 1) 4 :=
  ⟨.replicate (by decide), .replicate (by decide)⟩

theorem C56_any_quat_from_vecs {mem : Mem α} {aP bP destP : Ptr} (h_a : Init mem aP 3) (h_b : Init mem bP 3) (r_dest : Room mem destP 4) :
    Safe mem [(destP, 4)] .void (C.glm_quat_from_vecs.run mem [aP.val, bP.val, destP.val]) :=
  safe_entry Lib.glm_quat_from_vecs_ok [.inp aP 3, .inp bP 3, .out destP 4] ⟨⟨initK_isF.mpr h_a, by decide⟩, ⟨initK_isF.mpr h_b, by decide⟩, ⟨r_dest, by decide⟩, trivial⟩ rfl
example (x : α) : let mem : Mem α := [⟨true, List.replicate 6 (.f x)⟩]
    Init mem (0, 0) 3 ∧ Init mem (0, 1) 3 ∧ Room mem (0, 2) 4 :=
  ⟨.replicate (by decide), .replicate (by decide), .replicate (by decide)⟩

/-! ## include/cglm/handed/euler_to_quat_rh.h -/

theorem C56_any_euler_xyz_quat_rh {mem : Mem α} {anglesP destP : Ptr} (h_angles : Init mem anglesP 3) (r_dest : Room mem destP 4) :
    Safe mem [(destP, 4)] .void (C.glm_euler_xyz_quat_rh.run mem [anglesP.val, destP.val]) :=
  safe_entry Lib.glm_euler_xyz_quat_rh_ok [.inp anglesP 3, .out destP 4] ⟨⟨initK_isF.mpr h_angles, by decide⟩, ⟨r_dest, by decide⟩, trivial⟩ rfl
example (x : α) : let mem : Mem α := [⟨true, List.replicate 5 (.f x)⟩]
    Init mem (0, 0) 3 ∧ Room mem (0, 1) 4 :=
  ⟨.replicate (by decide), .replicate (by decide)⟩

theorem C56_any_euler_xzy_quat_rh {mem : Mem α} {anglesP destP : Ptr} (h_angles : Init mem anglesP 3) (r_dest : Room mem destP 4) :
    Safe mem [(destP, 4)] .void (C.glm_euler_xzy_quat_rh.run mem [anglesP.val, destP.val]) :=
  safe_entry Lib.glm_euler_xzy_quat_rh_ok [.inp anglesP 3, .out destP 4] ⟨⟨initK_isF.mpr h_angles, by decide⟩, ⟨r_dest, by decide⟩, trivial⟩ rfl
example (x : α) : let mem : Mem α := [⟨true, List.replicate 5 (.f x)⟩]
    Init mem (0, 0) 3 ∧ Room mem (0, 1) 4 :=
  ⟨.replicate (by decide), .replicate (by decide)⟩

theorem C56_any_euler_yxz_quat_rh {mem : Mem α} {anglesP destP : Ptr} (h_angles : Init mem anglesP 3) (r_dest : Room mem destP 4) :
    Safe mem [(destP, 4)] .void (C.glm_euler_yxz_quat_rh.run mem [anglesP.val, destP.val]) :=
  safe_entry Lib.glm_euler_yxz_quat_rh_ok [.inp anglesP 3, .out destP 4] ⟨⟨initK_isF.mpr h_angles, by decide⟩, ⟨r_dest, by decide⟩, trivial⟩ rfl
example (x : α) : let mem : Mem α := [⟨true, List.replicate 5 (.f x)⟩]
    Init mem (0, 0) 3 ∧ Room mem (0, 1) 4 :=
  ⟨.replicate (by decide), .replicate (by decide)⟩

theorem C56_any_euler_yzx_quat_rh {mem : Mem α} {anglesP destP : Ptr} (h_angles : Init mem anglesP 3) (r_dest : Room mem destP 4) :
    Safe mem [(destP, 4)] .void (C.glm_euler_yzx_quat_rh.run mem [anglesP.val, destP.val]) :=
  safe_entry Lib.glm_euler_yzx_quat_rh_ok [.inp anglesP 3, .out destP 4] ⟨⟨initK_isF.mpr h_angles, by decide⟩, ⟨r_dest, by decide⟩, trivial⟩ rfl
example (x : α) : let mem : Mem α := [⟨true, List.replicate 5 (.f x)⟩]
    Init mem (0, 0) 3 ∧ Room mem (0, 1) 4 :=
  ⟨.replicate (by decide), .replicate (by decide)⟩

theorem C56_any_euler_zxy_quat_rh {mem : Mem α} {anglesP destP : Ptr} (h_angles : Init mem anglesP 3) (r_dest : Room mem destP 4) :
    Safe mem [(destP, 4)] .void (C.glm_euler_zxy_quat_rh.run mem [anglesP.val, destP.val]) :=
  safe_entry Lib.glm_euler_zxy_quat_rh_ok [.inp anglesP 3, .out destP 4] ⟨⟨initK_isF.mpr h_angles, by decide⟩, ⟨r_dest, by decide⟩, trivial⟩ rfl
example (x : α) : let mem : Mem α := [⟨true, List.replicate 5 (.f x)⟩]
    Init mem (0, 0) 3 ∧ Room mem (0, 1) 4 :=
  ⟨.replicate (by decide), .replicate (by decide)⟩

theorem C56_any_euler_zyx_quat_rh {mem : Mem α} {anglesP destP : Ptr} (h_angles : Init mem anglesP 3) (r_dest : Room mem destP 4) :
    Safe mem [(destP, 4)] .void (C.glm_euler_zyx_quat_rh.run mem [anglesP.val, destP.val]) :=
  safe_entry Lib.glm_euler_zyx_quat_rh_ok [.inp anglesP 3, .out destP 4] ⟨⟨initK_isF.mpr h_angles, by decide⟩, ⟨r_dest, by decide⟩, trivial⟩ rfl
example (x : α) : let mem : Mem α := [⟨true, List.replicate 5 (.f x)⟩]
    Init mem (0, 0) 3 ∧ Room mem (0, 1) 4 :=
  ⟨.replicate (by decide), .replicate (by decide)⟩

/-! ## include/cglm/euler.h -/

theorem C56_any_euler_angles {mem : Mem α} {mP destP : Ptr} (h_m : Init mem mP 16) (r_dest : Room mem destP 3) :
    Safe mem [(destP, 3)] .void (C.glm_euler_angles.run mem [mP.val, destP.val]) :=
  safe_entry Lib.glm_euler_angles_ok [.inp mP 16, .out destP 3] ⟨⟨initK_isF.mpr h_m, by decide⟩, ⟨r_dest, by decide⟩, trivial⟩ rfl
example (x : α) : let mem : Mem α := [⟨true, List.replicate 16 (.f x)⟩]
    Init mem (0, 0) 16 ∧ Room mem (0, 1) 3 :=
  ⟨.replicate (by decide), .replicate (by decide)⟩

theorem C56_any_euler_xyz {mem : Mem α} {anglesP destP : Ptr} (h_angles : Init mem anglesP 3) (r_dest : Room mem destP 16) :
    Safe mem [(destP, 16)] .void (C.glm_euler_xyz.run mem [anglesP.val, destP.val]) :=
  safe_entry Lib.glm_euler_xyz_ok [.inp anglesP 3, .out destP 16] ⟨⟨initK_isF.mpr h_angles, by decide⟩, ⟨r_dest, by decide⟩, trivial⟩ rfl
example (x : α) : let mem : Mem α := [⟨true, List.replicate 17 (.f x)⟩]
    Init mem (0, 0) 3 ∧ Room mem (0, 1) 16 :=
  ⟨.replicate (by decide), .replicate (by decide)⟩

theorem C56_any_euler {mem : Mem α} {anglesP destP : Ptr} (h_angles : Init mem anglesP 3) (r_dest : Room mem destP 16) :
    Safe mem [(destP, 16)] .void (C.glm_euler.run mem [anglesP.val, destP.val]) :=
  safe_entry Lib.glm_euler_ok [.inp anglesP 3, .out destP 16] ⟨⟨initK_isF.mpr h_angles, by decide⟩, ⟨r_dest, by decide⟩, trivial⟩ rfl
example (x : α) : let mem : Mem α := [⟨true, List.replicate 17 (.f x)⟩]
    Init mem (0, 0) 3 ∧ Room mem (0, 1) 16 :=
  ⟨.replicate (by decide), .replicate (by decide)⟩

theorem C56_any_euler_xzy {mem : Mem α} {anglesP destP : Ptr} (h_angles : Init mem anglesP 3) (r_dest : Room mem destP 16) :
    Safe mem [(destP, 16)] .void (C.glm_euler_xzy.run mem [anglesP.val, destP.val]) :=
  safe_entry Lib.glm_euler_xzy_ok [.inp anglesP 3, .out destP 16] ⟨⟨initK_isF.mpr h_angles, by decide⟩, ⟨r_dest, by decide⟩, trivial⟩ rfl
example (x : α) : let mem : Mem α := [⟨true, List.replicate 17 (.f x)⟩]
    Init mem (0, 0) 3 ∧ Room mem (0, 1) 16 :=
  ⟨.replicate (by decide), .replicate (by decide)⟩

theorem C56_any_euler_yxz {mem : Mem α} {anglesP destP : Ptr} (h_angles : Init mem anglesP 3) (r_dest : Room mem destP 16) :
    Safe mem [(destP, 16)] .void (C.glm_euler_yxz.run mem [anglesP.val, destP.val]) :=
  safe_entry Lib.glm_euler_yxz_ok [.inp anglesP 3, .out destP 16] ⟨⟨initK_isF.mpr h_angles, by decide⟩, ⟨r_dest, by decide⟩, trivial⟩ rfl
example (x : α) : let mem : Mem α := [⟨true, List.replicate 17 (.f x)⟩]
    Init mem (0, 0) 3 ∧ Room mem (0, 1) 16 :=
  ⟨.replicate (by decide), .replicate (by decide)⟩

theorem C56_any_euler_yzx {mem : Mem α} {anglesP destP : Ptr} (h_angles : Init mem anglesP 3) (r_dest : Room mem destP 16) :
    Safe mem [(destP, 16)] .void (C.glm_euler_yzx.run mem [anglesP.val, destP.val]) :=
  safe_entry Lib.glm_euler_yzx_ok [.inp anglesP 3, .out destP 16] ⟨⟨initK_isF.mpr h_angles, by decide⟩, ⟨r_dest, by decide⟩, trivial⟩ rfl
example (x : α) : let mem : Mem α := [⟨true, List.replicate 17 (.f x)⟩]
    Init mem (0, 0) 3 ∧ Room mem (0, 1) 16 :=
  ⟨.replicate (by decide), .replicate (by decide)⟩

theorem C56_any_euler_zxy {mem : Mem α} {anglesP destP : Ptr} (h_angles : Init mem anglesP 3) (r_dest : Room mem destP 16) :
    Safe mem [(destP, 16)] .void (C.glm_euler_zxy.run mem [anglesP.val, destP.val]) :=
  safe_entry Lib.glm_euler_zxy_ok [.inp anglesP 3, .out destP 16] ⟨⟨initK_isF.mpr h_angles, by decide⟩, ⟨r_dest, by decide⟩, trivial⟩ rfl
example (x : α) : let mem : Mem α := [⟨true, List.replicate 17 (.f x)⟩]
    Init mem (0, 0) 3 ∧ Room mem (0, 1) 16 :=
  ⟨.replicate (by decide), .replicate (by decide)⟩

theorem C56_any_euler_zyx {mem : Mem α} {anglesP destP : Ptr} (h_angles : Init mem anglesP 3) (r_dest : Room mem destP 16) :
    Safe mem [(destP, 16)] .void (C.glm_euler_zyx.run mem [anglesP.val, destP.val]) :=
  safe_entry Lib.glm_euler_zyx_ok [.inp anglesP 3, .out destP 16] ⟨⟨initK_isF.mpr h_angles, by decide⟩, ⟨r_dest, by decide⟩, trivial⟩ rfl
example (x : α) : let mem : Mem α := [⟨true, List.replicate 17 (.f x)⟩]
    Init mem (0, 0) 3 ∧ Room mem (0, 1) 16 :=
  ⟨.replicate (by decide), .replicate (by decide)⟩

theorem C56_any_euler_by_order {mem : Mem α} {anglesP destP : Ptr} (ord : Int) (h_angles : Init mem anglesP 3) (h_dest : Init mem destP 16) (r_dest : Room mem destP 16) :
    Safe mem [(destP, 16)] .void (C.glm_euler_by_order.run mem [anglesP.val, .i ord, destP.val]) :=
  safe_entry Lib.glm_euler_by_order_ok [.inp anglesP 3, .i ord, .io destP 16] ⟨⟨initK_isF.mpr h_angles, by decide⟩, trivial, ⟨initK_isF.mpr h_dest, r_dest, by decide⟩, trivial⟩ rfl
example (x : α) : let mem : Mem α := [⟨true, List.replicate 17 (.f x)⟩]
    Init mem (0, 0) 3 ∧ Init mem (0, 1) 16 ∧ Room mem (0, 1) 16 :=
  ⟨.replicate (by decide), .replicate (by decide), .replicate (by decide)⟩

theorem C56_any_euler_xyz_quat {mem : Mem α} {anglesP destP : Ptr} (h_angles : Init mem anglesP 3) (r_dest : Room mem destP 4) :
    Safe mem [(destP, 4)] .void (C.glm_euler_xyz_quat.run mem [anglesP.val, destP.val]) :=
  safe_entry Lib.glm_euler_xyz_quat_ok [.inp anglesP 3, .out destP 4] ⟨⟨initK_isF.mpr h_angles, by decide⟩, ⟨r_dest, by decide⟩, trivial⟩ rfl
example (x : α) : let mem : Mem α := [⟨true, List.replicate 5 (.f x)⟩]
    Init mem (0, 0) 3 ∧ Room mem (0, 1) 4 :=
  ⟨.replicate (by decide), .replicate (by decide)⟩

theorem C56_any_euler_xzy_quat {mem : Mem α} {anglesP destP : Ptr} (h_angles : Init mem anglesP 3) (r_dest : Room mem destP 4) :
    Safe mem [(destP, 4)] .void (C.glm_euler_xzy_quat.run mem [anglesP.val, destP.val]) :=
  safe_entry Lib.glm_euler_xzy_quat_ok [.inp anglesP 3, .out destP 4] ⟨⟨initK_isF.mpr h_angles, by decide⟩, ⟨r_dest, by decide⟩, trivial⟩ rfl
example (x : α) : let mem : Mem α := [⟨true, List.replicate 5 (.f x)⟩]
    Init mem (0, 0) 3 ∧ Room mem (0, 1) 4 :=
  ⟨.replicate (by decide), .replicate (by decide)⟩

theorem C56_any_euler_yxz_quat {mem : Mem α} {anglesP destP : Ptr} (h_angles : Init mem anglesP 3) (r_dest : Room mem destP 4) :
    Safe mem [(destP, 4)] .void (C.glm_euler_yxz_quat.run mem [anglesP.val, destP.val]) :=
  safe_entry Lib.glm_euler_yxz_quat_ok [.inp anglesP 3, .out destP 4] ⟨⟨initK_isF.mpr h_angles, by decide⟩, ⟨r_dest, by decide⟩, trivial⟩ rfl
example (x : α) : let mem : Mem α := [⟨true, List.replicate 5 (.f x)⟩]
    Init mem (0, 0) 3 ∧ Room mem (0, 1) 4 :=
  ⟨.replicate (by decide), .replicate (by decide)⟩

theorem C56_any_euler_yzx_quat {mem : Mem α} {anglesP destP : Ptr} (h_angles : Init mem anglesP 3) (r_dest : Room mem destP 4) :
    Safe mem [(destP, 4)] .void (C.glm_euler_yzx_quat.run mem [anglesP.val, destP.val]) :=
  safe_entry Lib.glm_euler_yzx_quat_ok [.inp anglesP 3, .out destP 4] ⟨⟨initK_isF.mpr h_angles, by decide⟩, ⟨r_dest, by decide⟩, trivial⟩ rfl
example (x : α) : let mem : Mem α := [⟨true, List.replicate 5 (.f x)⟩]
    Init mem (0, 0) 3 ∧ Room mem (0, 1) 4 :=
  ⟨.replicate (by decide), .replicate (by decide)⟩

theorem C56_any_euler_zxy_quat {mem : Mem α} {anglesP destP : Ptr} (h_angles : Init mem anglesP 3) (r_dest : Room mem destP 4) :
    Safe mem [(destP, 4)] .void (C.glm_euler_zxy_quat.run mem [anglesP.val, destP.val]) :=
  safe_entry Lib.glm_euler_zxy_quat_ok [.inp anglesP 3, .out destP 4] ⟨⟨initK_isF.mpr h_angles, by decide⟩, ⟨r_dest, by decide⟩, trivial⟩ rfl
example (x : α) : let mem : Mem α := [⟨true, List.replicate 5 (.f x)⟩]
    Init mem (0, 0) 3 ∧ Room mem (0, 1) 4 :=
  ⟨.replicate (by decide), .replicate (by decide)⟩

theorem C56_any_euler_zyx_quat {mem : Mem α} {anglesP destP : Ptr} (h_angles : Init mem anglesP 3) (r_dest : Room mem destP 4) :
    Safe mem [(destP, 4)] .void (C.glm_euler_zyx_quat.run mem [anglesP.val, destP.val]) :=
  safe_entry Lib.glm_euler_zyx_quat_ok [.inp anglesP 3, .out destP 4] ⟨⟨initK_isF.mpr h_angles, by decide⟩, ⟨r_dest, by decide⟩, trivial⟩ rfl
example (x : α) : let mem : Mem α := [⟨true, List.replicate 5 (.f x)⟩]
    Init mem (0, 0) 3 ∧ Room mem (0, 1) 4 :=
  ⟨.replicate (by decide), .replicate (by decide)⟩

/-! ## include/cglm/handed/euler_to_quat_lh.h -/

theorem C56_any_euler_xyz_quat_lh {mem : Mem α} {anglesP destP : Ptr} (h_angles : Init mem anglesP 3) (r_dest : Room mem destP 4) :
    Safe mem [(destP, 4)] .void (C.glm_euler_xyz_quat_lh.run mem [anglesP.val, destP.val]) :=
  safe_entry Lib.glm_euler_xyz_quat_lh_ok [.inp anglesP 3, .out destP 4] ⟨⟨initK_isF.mpr h_angles, by decide⟩, ⟨r_dest, by decide⟩, trivial⟩ rfl
example (x : α) : let mem : Mem α := [⟨true, List.replicate 5 (.f x)⟩]
    Init mem (0, 0) 3 ∧ Room mem (0, 1) 4 :=
  ⟨.replicate (by decide), .replicate (by decide)⟩

theorem C56_any_euler_xzy_quat_lh {mem : Mem α} {anglesP destP : Ptr} (h_angles : Init mem anglesP 3) (r_dest : Room mem destP 4) :
    Safe mem [(destP, 4)] .void (C.glm_euler_xzy_quat_lh.run mem [anglesP.val, destP.val]) :=
  safe_entry Lib.glm_euler_xzy_quat_lh_ok [.inp anglesP 3, .out destP 4] ⟨⟨initK_isF.mpr h_angles, by decide⟩, ⟨r_dest, by decide⟩, trivial⟩ rfl
example (x : α) : let mem : Mem α := [⟨true, List.replicate 5 (.f x)⟩]
    Init mem (0, 0) 3 ∧ Room mem (0, 1) 4 :=
  ⟨.replicate (by decide), .replicate (by decide)⟩

theorem C56_any_euler_yxz_quat_lh {mem : Mem α} {anglesP destP : Ptr} (h_angles : Init mem anglesP 3) (r_dest : Room mem destP 4) :
    Safe mem [(destP, 4)] .void (C.glm_euler_yxz_quat_lh.run mem [anglesP.val, destP.val]) :=
  safe_entry Lib.glm_euler_yxz_quat_lh_ok [.inp anglesP 3, .out destP 4] ⟨⟨initK_isF.mpr h_angles, by decide⟩, ⟨r_dest, by decide⟩, trivial⟩ rfl
example (x : α) : let mem : Mem α := [⟨true, List.replicate 5 (.f x)⟩]
    Init mem (0, 0) 3 ∧ Room mem (0, 1) 4 :=
  ⟨.replicate (by decide), .replicate (by decide)⟩

theorem C56_any_euler_yzx_quat_lh {mem : Mem α} {anglesP destP : Ptr} (h_angles : Init mem anglesP 3) (r_dest : Room mem destP 4) :
    Safe mem [(destP, 4)] .void (C.glm_euler_yzx_quat_lh.run mem [anglesP.val, destP.val]) :=
  safe_entry Lib.glm_euler_yzx_quat_lh_ok [.inp anglesP 3, .out destP 4] ⟨⟨initK_isF.mpr h_angles, by decide⟩, ⟨r_dest, by decide⟩, trivial⟩ rfl
example (x : α) : let mem : Mem α := [⟨true, List.replicate 5 (.f x)⟩]
    Init mem (0, 0) 3 ∧ Room mem (0, 1) 4 :=
  ⟨.replicate (by decide), .replicate (by decide)⟩

theorem C56_any_euler_zxy_quat_lh {mem : Mem α} {anglesP destP : Ptr} (h_angles : Init mem anglesP 3) (r_dest : Room mem destP 4) :
    Safe mem [(destP, 4)] .void (C.glm_euler_zxy_quat_lh.run mem [anglesP.val, destP.val]) :=
  safe_entry Lib.glm_euler_zxy_quat_lh_ok [.inp anglesP 3, .out destP 4] ⟨⟨initK_isF.mpr h_angles, by decide⟩, ⟨r_dest, by decide⟩, trivial⟩ rfl
example (x : α) : let mem : Mem α := [⟨true, List.replicate 5 (.f x)⟩]
    Init mem (0, 0) 3 ∧ Room mem (0, 1) 4 :=
  ⟨.replicate (by decide), .replicate (by decide)⟩

theorem C56_any_euler_zyx_quat_lh {mem : Mem α} {anglesP destP : Ptr} (h_angles : Init mem anglesP 3) (r_dest : Room mem destP 4) :
    Safe mem [(destP, 4)] .void (C.glm_euler_zyx_quat_lh.run mem [anglesP.val, destP.val]) :=
  safe_entry Lib.glm_euler_zyx_quat_lh_ok [.inp anglesP 3, .out destP 4] ⟨⟨initK_isF.mpr h_angles, by decide⟩, ⟨r_dest, by decide⟩, trivial⟩ rfl
example (x : α) : let mem : Mem α := [⟨true, List.replicate 5 (.f x)⟩]
    Init mem (0, 0) 3 ∧ Room mem (0, 1) 4 :=
  ⟨.replicate (by decide), .replicate (by decide)⟩

end Cglm
