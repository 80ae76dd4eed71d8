/- Generated by tools/safethms.py; do not edit by hand. -/
import Verif.Lib.Vec

/-!
# C56: memory safety when the arguments overlap in any way

No theorem here assumes anything about how the arguments lie relative «to» each other: inputs may be the destination,
or overlap it or each other partly.  Whenever every input is initialised and every destination is writable, the call
is defined, no cell outside the destinations changes, and the destinations end up initialised.
-/

set_option linter.unusedVariables false
set_option linter.unusedSectionVars false

namespace Cglm
open CMem

variable {α : Type} [Add α] [Sub α] [Mul α] [Div α] [Neg α] [CFloat α]

/-! ## include/cglm/vec2-ext.h -/

theorem C56_any_vec2_fill {mem : Mem α} {vP : Ptr} (val : α) (r_v : Room mem vP 2) :
    Safe mem [(vP, 2)] .void (C.glm_vec2_fill.run mem [vP.val, .f val]) :=
  safe_entry Lib.glm_vec2_fill_ok [.out vP 2, .f val] ⟨⟨r_v, by decide⟩, trivial, trivial⟩ rfl
example (x : α) : let mem : Mem α := [⟨true, List.replicate 2 (.f x)⟩]
    Room mem (0, 0) 2 :=
  .replicate (by decide)

theorem C56_any_vec2_eq {mem : Mem α} {vP : Ptr} (val : α) (h_v : Init mem vP 2) :
    Safe mem [] .bool (C.glm_vec2_eq.run mem [vP.val, .f val]) :=
  safe_entry Lib.glm_vec2_eq_ok [.inp vP 2, .f val] ⟨⟨initK_isF.mpr h_v, by decide⟩, trivial, trivial⟩ rfl
example (x : α) : let mem : Mem α := [⟨true, List.replicate 2 (.f x)⟩]
    Init mem (0, 0) 2 :=
  .replicate (by decide)

theorem C56_any_vec2_eq_eps {mem : Mem α} {vP : Ptr} (val : α) (h_v : Init mem vP 2) :
    Safe mem [] .bool (C.glm_vec2_eq_eps.run mem [vP.val, .f val]) :=
  safe_entry Lib.glm_vec2_eq_eps_ok [.inp vP 2, .f val] ⟨⟨initK_isF.mpr h_v, by decide⟩, trivial, trivial⟩ rfl
example (x : α) : let mem : Mem α := [⟨true, List.replicate 2 (.f x)⟩]
    Init mem (0, 0) 2 :=
  .replicate (by decide)

theorem C56_any_vec2_eq_all {mem : Mem α} {vP : Ptr} (h_v : Init mem vP 2) :
    Safe mem [] .bool (C.glm_vec2_eq_all.run mem [vP.val]) :=
  safe_entry Lib.glm_vec2_eq_all_ok [.inp vP 2] ⟨⟨initK_isF.mpr h_v, by decide⟩, trivial⟩ rfl
example (x : α) : let mem : Mem α := [⟨true, List.replicate 2 (.f x)⟩]
    Init mem (0, 0) 2 :=
  .replicate (by decide)

theorem C56_any_vec2_eqv {mem : Mem α} {aP bP : Ptr} (h_a : Init mem aP 2) (h_b : Init mem bP 2) :
    Safe mem [] .bool (C.glm_vec2_eqv.run mem [aP.val, bP.val]) :=
  safe_entry Lib.glm_vec2_eqv_ok [.inp aP 2, .inp bP 2] ⟨⟨initK_isF.mpr h_a, by decide⟩, ⟨initK_isF.mpr h_b, by decide⟩, trivial⟩ rfl
example (x : α) : let mem : Mem α := [⟨true, List.replicate 3 (.f x)⟩]
    Init mem (0, 0) 2 ∧ Init mem (0, 1) 2 :=
  ⟨.replicate (by decide), .replicate (by decide)⟩

theorem C56_any_vec2_eqv_eps {mem : Mem α} {aP bP : Ptr} (h_a : Init mem aP 2) (h_b : Init mem bP 2) :
    Safe mem [] .bool (C.glm_vec2_eqv_eps.run mem [aP.val, bP.val]) :=
  safe_entry Lib.glm_vec2_eqv_eps_ok [.inp aP 2, .inp bP 2] ⟨⟨initK_isF.mpr h_a, by decide⟩, ⟨initK_isF.mpr h_b, by decide⟩, trivial⟩ rfl
example (x : α) : let mem : Mem α := [⟨true, List.replicate 3 (.f x)⟩]
    Init mem (0, 0) 2 ∧ Init mem (0, 1) 2 :=
  ⟨.replicate (by decide), .replicate (by decide)⟩

theorem C56_any_vec2_max {mem : Mem α} {vP : Ptr} (h_v : Init mem vP 2) :
    Safe mem [] .float (C.glm_vec2_max.run mem [vP.val]) :=
  safe_entry Lib.glm_vec2_max_ok [.inp vP 2] ⟨⟨initK_isF.mpr h_v, by decide⟩, trivial⟩ rfl
example (x : α) : let mem : Mem α := [⟨true, List.replicate 2 (.f x)⟩]
    Init mem (0, 0) 2 :=
  .replicate (by decide)

theorem C56_any_vec2_min {mem : Mem α} {vP : Ptr} (h_v : Init mem vP 2) :
    Safe mem [] .float (C.glm_vec2_min.run mem [vP.val]) :=
  safe_entry Lib.glm_vec2_min_ok [.inp vP 2] ⟨⟨initK_isF.mpr h_v, by decide⟩, trivial⟩ rfl
example (x : α) : let mem : Mem α := [⟨true, List.replicate 2 (.f x)⟩]
    Init mem (0, 0) 2 :=
  .replicate (by decide)

theorem C56_any_vec2_isnan {mem : Mem α} {vP : Ptr} (h_v : Init mem vP 2) :
    Safe mem [] .bool (C.glm_vec2_isnan.run mem [vP.val]) :=
  safe_entry Lib.glm_vec2_isnan_ok [.inp vP 2] ⟨⟨initK_isF.mpr h_v, by decide⟩, trivial⟩ rfl
example (x : α) : let mem : Mem α := [⟨true, List.replicate 2 (.f x)⟩]
    Init mem (0, 0) 2 :=
  .replicate (by decide)

theorem C56_any_vec2_isinf {mem : Mem α} {vP : Ptr} (h_v : Init mem vP 2) :
    Safe mem [] .bool (C.glm_vec2_isinf.run mem [vP.val]) :=
  safe_entry Lib.glm_vec2_isinf_ok [.inp vP 2] ⟨⟨initK_isF.mpr h_v, by decide⟩, trivial⟩ rfl
example (x : α) : let mem : Mem α := [⟨true, List.replicate 2 (.f x)⟩]
    Init mem (0, 0) 2 :=
  .replicate (by decide)

theorem C56_any_vec2_isvalid {mem : Mem α} {vP : Ptr} (h_v : Init mem vP 2) :
    Safe mem [] .bool (C.glm_vec2_isvalid.run mem [vP.val]) :=
  safe_entry Lib.glm_vec2_isvalid_ok [.inp vP 2] ⟨⟨initK_isF.mpr h_v, by decide⟩, trivial⟩ rfl
example (x : α) : let mem : Mem α := [⟨true, List.replicate 2 (.f x)⟩]
    Init mem (0, 0) 2 :=
  .replicate (by decide)

theorem C56_any_vec2_sign {mem : Mem α} {vP destP : Ptr} (h_v : Init mem vP 2) (r_dest : Room mem destP 2) :
    Safe mem [(destP, 2)] .void (C.glm_vec2_sign.run mem [vP.val, destP.val]) :=
  safe_entry Lib.glm_vec2_sign_ok [.inp vP 2, .out destP 2] ⟨⟨initK_isF.mpr h_v, by decide⟩, ⟨r_dest, by decide⟩, trivial⟩ rfl
example (x : α) : let mem : Mem α := [⟨true, List.replicate 3 (.f x)⟩]
    Init mem (0, 0) 2 ∧ Room mem (0, 1) 2 :=
  ⟨.replicate (by decide), .replicate (by decide)⟩

theorem C56_any_vec2_abs {mem : Mem α} {vP destP : Ptr} (h_v : Init mem vP 2) (r_dest : Room mem destP 2) :
    Safe mem [(destP, 2)] .void (C.glm_vec2_abs.run mem [vP.val, destP.val]) :=
  safe_entry Lib.glm_vec2_abs_ok [.inp vP 2, .out destP 2] ⟨⟨initK_isF.mpr h_v, by decide⟩, ⟨r_dest, by decide⟩, trivial⟩ rfl
example (x : α) : let mem : Mem α := [⟨true, List.replicate 3 (.f x)⟩]
    Init mem (0, 0) 2 ∧ Room mem (0, 1) 2 :=
  ⟨.replicate (by decide), .replicate (by decide)⟩

theorem C56_any_vec2_fract {mem : Mem α} {vP destP : Ptr} (h_v : Init mem vP 2) (r_dest : Room mem destP 2) :
    Safe mem [(destP, 2)] .void (C.glm_vec2_fract.run mem [vP.val, destP.val]) :=
  safe_entry Lib.glm_vec2_fract_ok [.inp vP 2, .out destP 2] ⟨⟨initK_isF.mpr h_v, by decide⟩, ⟨r_dest, by decide⟩, trivial⟩ rfl
example (x : α) : let mem : Mem α := [⟨true, List.replicate 3 (.f x)⟩]
    Init mem (0, 0) 2 ∧ Room mem (0, 1) 2 :=
  ⟨.replicate (by decide), .replicate (by decide)⟩

theorem C56_any_vec2_floor {mem : Mem α} {vP destP : Ptr} (h_v : Init mem vP 2) (r_dest : Room mem destP 2) :
    Safe mem [(destP, 2)] .void (C.glm_vec2_floor.run mem [vP.val, destP.val]) :=
  safe_entry Lib.glm_vec2_floor_ok [.inp vP 2, .out destP 2] ⟨⟨initK_isF.mpr h_v, by decide⟩, ⟨r_dest, by decide⟩, trivial⟩ rfl
example (x : α) : let mem : Mem α := [⟨true, List.replicate 3 (.f x)⟩]
    Init mem (0, 0) 2 ∧ Room mem (0, 1) 2 :=
  ⟨.replicate (by decide), .replicate (by decide)⟩

theorem C56_any_vec2_mods {mem : Mem α} {vP destP : Ptr} (s : α) (h_v : Init mem vP 2) (r_dest : Room mem destP 2) :
    Safe mem [(destP, 2)] .void (C.glm_vec2_mods.run mem [vP.val, .f s, destP.val]) :=
  safe_entry Lib.glm_vec2_mods_ok [.inp vP 2, .f s, .out destP 2] ⟨⟨initK_isF.mpr h_v, by decide⟩, trivial, ⟨r_dest, by decide⟩, trivial⟩ rfl
example (x : α) : let mem : Mem α := [⟨true, List.replicate 3 (.f x)⟩]
    Init mem (0, 0) 2 ∧ Room mem (0, 1) 2 :=
  ⟨.replicate (by decide), .replicate (by decide)⟩

theorem C56_any_vec2_sqrt {mem : Mem α} {vP destP : Ptr} (h_v : Init mem vP 2) (r_dest : Room mem destP 2) :
    Safe mem [(destP, 2)] .void (C.glm_vec2_sqrt.run mem [vP.val, destP.val]) :=
  safe_entry Lib.glm_vec2_sqrt_ok [.inp vP 2, .out destP 2] ⟨⟨initK_isF.mpr h_v, by decide⟩, ⟨r_dest, by decide⟩, trivial⟩ rfl
example (x : α) : let mem : Mem α := [⟨true, List.replicate 3 (.f x)⟩]
    Init mem (0, 0) 2 ∧ Room mem (0, 1) 2 :=
  ⟨.replicate (by decide), .replicate (by decide)⟩

theorem C56_any_vec2_complex_mul {mem : Mem α} {aP bP destP : Ptr} (h_a : Init mem aP 2) (h_b : Init mem bP 2) (r_dest : Room mem destP 2) :
    Safe mem [(destP, 2)] .void (C.glm_vec2_complex_mul.run mem [aP.val, bP.val, destP.val]) :=
  safe_entry Lib.glm_vec2_complex_mul_ok [.inp aP 2, .inp bP 2, .out destP 2] ⟨⟨initK_isF.mpr h_a, by decide⟩, ⟨initK_isF.mpr h_b, by decide⟩, ⟨r_dest, by decide⟩, trivial⟩ rfl
example (x : α) : let mem : Mem α := [⟨true, List.replicate 4 (.f x)⟩]
    Init mem (0, 0) 2 ∧ Init mem (0, 1) 2 ∧ Room mem (0, 2) 2 :=
  ⟨.replicate (by decide), .replicate (by decide), .replicate (by decide)⟩

theorem C56_any_vec2_steps {mem : Mem α} {xP destP : Ptr} (edge : α) (h_x : Init mem xP 2) (r_dest : Room mem destP 2) :
    Safe mem [(destP, 2)] .void (C.glm_vec2_steps.run mem [.f edge, xP.val, destP.val]) :=
  safe_entry Lib.glm_vec2_steps_ok [.f edge, .inp xP 2, .out destP 2] ⟨trivial, ⟨initK_isF.mpr h_x, by decide⟩, ⟨r_dest, by decide⟩, trivial⟩ rfl
example (x : α) : let mem : Mem α := [⟨true, List.replicate 3 (.f x)⟩]
    Init mem (0, 0) 2 ∧ Room mem (0, 1) 2 :=
  ⟨.replicate (by decide), .replicate (by decide)⟩

theorem C56_any_vec2_stepr {mem : Mem α} {edgeP destP : Ptr} (x : α) (h_edge : Init mem edgeP 2) (r_dest : Room mem destP 2) :
    Safe mem [(destP, 2)] .void (C.glm_vec2_stepr.run mem [edgeP.val, .f x, destP.val]) :=
  safe_entry Lib.glm_vec2_stepr_ok [.inp edgeP 2, .f x, .out destP 2] ⟨⟨initK_isF.mpr h_edge, by decide⟩, trivial, ⟨r_dest, by decide⟩, trivial⟩ rfl
example (x : α) : let mem : Mem α := [⟨true, List.replicate 3 (.f x)⟩]
    Init mem (0, 0) 2 ∧ Room mem (0, 1) 2 :=
  ⟨.replicate (by decide), .replicate (by decide)⟩

theorem C56_any_vec2_complex_div {mem : Mem α} {aP bP destP : Ptr} (h_a : Init mem aP 2) (h_b : Init mem bP 2) (r_dest : Room mem destP 2) :
    Safe mem [(destP, 2)] .void (C.glm_vec2_complex_div.run mem [aP.val, bP.val, destP.val]) :=
  safe_entry Lib.glm_vec2_complex_div_ok [.inp aP 2, .inp bP 2, .out destP 2] ⟨⟨initK_isF.mpr h_a, by decide⟩, ⟨initK_isF.mpr h_b, by decide⟩, ⟨r_dest, by decide⟩, trivial⟩ rfl
example (x : α) : let mem : Mem α := [⟨true, List.replicate 4 (.f x)⟩]
    Init mem (0, 0) 2 ∧ Init mem (0, 1) 2 ∧ Room mem (0, 2) 2 :=
  ⟨.replicate (by decide), .replicate (by decide), .replicate (by decide)⟩

theorem C56_any_vec2_complex_conjugate {mem : Mem α} {aP destP : Ptr} (h_a : Init mem aP 2) (r_dest : Room mem destP 2) :
    Safe mem [(destP, 2)] .void (C.glm_vec2_complex_conjugate.run mem [aP.val, destP.val]) :=
  safe_entry Lib.glm_vec2_complex_conjugate_ok [.inp aP 2, .out destP 2] ⟨⟨initK_isF.mpr h_a, by decide⟩, ⟨r_dest, by decide⟩, trivial⟩ rfl
example (x : α) : let mem : Mem α := [⟨true, List.replicate 3 (.f x)⟩]
    Init mem (0, 0) 2 ∧ Room mem (0, 1) 2 :=
  ⟨.replicate (by decide), .replicate (by decide)⟩

/-! ## include/cglm/vec2.h -/

theorem C56_any_vec2 {mem : Mem α} {vP destP : Ptr} (h_v : Init mem vP 2) (r_dest : Room mem destP 2) :
    Safe mem [(destP, 2)] .void (C.glm_vec2.run mem [vP.val, destP.val]) :=
  safe_entry Lib.glm_vec2_ok [.inp vP 2, .out destP 2] ⟨⟨initK_isF.mpr h_v, by decide⟩, ⟨r_dest, by decide⟩, trivial⟩ rfl
example (x : α) : let mem : Mem α := [⟨true, List.replicate 3 (.f x)⟩]
    Init mem (0, 0) 2 ∧ Room mem (0, 1) 2 :=
  ⟨.replicate (by decide), .replicate (by decide)⟩

theorem C56_any_vec2_copy {mem : Mem α} {aP destP : Ptr} (h_a : Init mem aP 2) (r_dest : Room mem destP 2) :
    Safe mem [(destP, 2)] .void (C.glm_vec2_copy.run mem [aP.val, destP.val]) :=
  safe_entry Lib.glm_vec2_copy_ok [.inp aP 2, .out destP 2] ⟨⟨initK_isF.mpr h_a, by decide⟩, ⟨r_dest, by decide⟩, trivial⟩ rfl
example (x : α) : let mem : Mem α := [⟨true, List.replicate 3 (.f x)⟩]
    Init mem (0, 0) 2 ∧ Room mem (0, 1) 2 :=
  ⟨.replicate (by decide), .replicate (by decide)⟩

theorem C56_any_vec2_zero {mem : Mem α} {vP : Ptr} (r_v : Room mem vP 2) :
    Safe mem [(vP, 2)] .void (C.glm_vec2_zero.run mem [vP.val]) :=
  safe_entry Lib.glm_vec2_zero_ok [.out vP 2] ⟨⟨r_v, by decide⟩, trivial⟩ rfl
example (x : α) : let mem : Mem α := [⟨true, List.replicate 2 (.f x)⟩]
    Room mem (0, 0) 2 :=
  .replicate (by decide)

theorem C56_any_vec2_one {mem : Mem α} {vP : Ptr} (r_v : Room mem vP 2) :
    Safe mem [(vP, 2)] .void (C.glm_vec2_one.run mem [vP.val]) :=
  safe_entry Lib.glm_vec2_one_ok [.out vP 2] ⟨⟨r_v, by decide⟩, trivial⟩ rfl
example (x : α) : let mem : Mem α := [⟨true, List.replicate 2 (.f x)⟩]
    Room mem (0, 0) 2 :=
  .replicate (by decide)

theorem C56_any_vec2_dot {mem : Mem α} {aP bP : Ptr} (h_a : Init mem aP 2) (h_b : Init mem bP 2) :
    Safe mem [] .float (C.glm_vec2_dot.run mem [aP.val, bP.val]) :=
  safe_entry Lib.glm_vec2_dot_ok [.inp aP 2, .inp bP 2] ⟨⟨initK_isF.mpr h_a, by decide⟩, ⟨initK_isF.mpr h_b, by decide⟩, trivial⟩ rfl
example (x : α) : let mem : Mem α := [⟨true, List.replicate 3 (.f x)⟩]
    Init mem (0, 0) 2 ∧ Init mem (0, 1) 2 :=
  ⟨.replicate (by decide), .replicate (by decide)⟩

theorem C56_any_vec2_cross {mem : Mem α} {aP bP : Ptr} (h_a : Init mem aP 2) (h_b : Init mem bP 2) :
    Safe mem [] .float (C.glm_vec2_cross.run mem [aP.val, bP.val]) :=
  safe_entry Lib.glm_vec2_cross_ok [.inp aP 2, .inp bP 2] ⟨⟨initK_isF.mpr h_a, by decide⟩, ⟨initK_isF.mpr h_b, by decide⟩, trivial⟩ rfl
example (x : α) : let mem : Mem α := [⟨true, List.replicate 3 (.f x)⟩]
    Init mem (0, 0) 2 ∧ Init mem (0, 1) 2 :=
  ⟨.replicate (by decide), .replicate (by decide)⟩

theorem C56_any_vec2_norm2 {mem : Mem α} {vP : Ptr} (h_v : Init mem vP 2) :
    Safe mem [] .float (C.glm_vec2_norm2.run mem [vP.val]) :=
  safe_entry Lib.glm_vec2_norm2_ok [.inp vP 2] ⟨⟨initK_isF.mpr h_v, by decide⟩, trivial⟩ rfl
example (x : α) : let mem : Mem α := [⟨true, List.replicate 2 (.f x)⟩]
    Init mem (0, 0) 2 :=
  .replicate (by decide)

theorem C56_any_vec2_norm {mem : Mem α} {vecP : Ptr} (h_vec : Init mem vecP 2) :
    Safe mem [] .float (C.glm_vec2_norm.run mem [vecP.val]) :=
  safe_entry Lib.glm_vec2_norm_ok [.inp vecP 2] ⟨⟨initK_isF.mpr h_vec, by decide⟩, trivial⟩ rfl
example (x : α) : let mem : Mem α := [⟨true, List.replicate 2 (.f x)⟩]
    Init mem (0, 0) 2 :=
  .replicate (by decide)

theorem C56_any_vec2_add {mem : Mem α} {aP bP destP : Ptr} (h_a : Init mem aP 2) (h_b : Init mem bP 2) (r_dest : Room mem destP 2) :
    Safe mem [(destP, 2)] .void (C.glm_vec2_add.run mem [aP.val, bP.val, destP.val]) :=
  safe_entry Lib.glm_vec2_add_ok [.inp aP 2, .inp bP 2, .out destP 2] ⟨⟨initK_isF.mpr h_a, by decide⟩, ⟨initK_isF.mpr h_b, by decide⟩, ⟨r_dest, by decide⟩, trivial⟩ rfl
example (x : α) : let mem : Mem α := [⟨true, List.replicate 4 (.f x)⟩]
    Init mem (0, 0) 2 ∧ Init mem (0, 1) 2 ∧ Room mem (0, 2) 2 :=
  ⟨.replicate (by decide), .replicate (by decide), .replicate (by decide)⟩

theorem C56_any_vec2_adds {mem : Mem α} {vP destP : Ptr} (s : α) (h_v : Init mem vP 2) (r_dest : Room mem destP 2) :
    Safe mem [(destP, 2)] .void (C.glm_vec2_adds.run mem [vP.val, .f s, destP.val]) :=
  safe_entry Lib.glm_vec2_adds_ok [.inp vP 2, .f s, .out destP 2] ⟨⟨initK_isF.mpr h_v, by decide⟩, trivial, ⟨r_dest, by decide⟩, trivial⟩ rfl
example (x : α) : let mem : Mem α := [⟨true, List.replicate 3 (.f x)⟩]
    Init mem (0, 0) 2 ∧ Room mem (0, 1) 2 :=
  ⟨.replicate (by decide), .replicate (by decide)⟩

theorem C56_any_vec2_sub {mem : Mem α} {aP bP destP : Ptr} (h_a : Init mem aP 2) (h_b : Init mem bP 2) (r_dest : Room mem destP 2) :
    Safe mem [(destP, 2)] .void (C.glm_vec2_sub.run mem [aP.val, bP.val, destP.val]) :=
  safe_entry Lib.glm_vec2_sub_ok [.inp aP 2, .inp bP 2, .out destP 2] ⟨⟨initK_isF.mpr h_a, by decide⟩, ⟨initK_isF.mpr h_b, by decide⟩, ⟨r_dest, by decide⟩, trivial⟩ rfl
example (x : α) : let mem : Mem α := [⟨true, List.replicate 4 (.f x)⟩]
    Init mem (0, 0) 2 ∧ Init mem (0, 1) 2 ∧ Room mem (0, 2) 2 :=
  ⟨.replicate (by decide), .replicate (by decide), .replicate (by decide)⟩

theorem C56_any_vec2_subs {mem : Mem α} {vP destP : Ptr} (s : α) (h_v : Init mem vP 2) (r_dest : Room mem destP 2) :
    Safe mem [(destP, 2)] .void (C.glm_vec2_subs.run mem [vP.val, .f s, destP.val]) :=
  safe_entry Lib.glm_vec2_subs_ok [.inp vP 2, .f s, .out destP 2] ⟨⟨initK_isF.mpr h_v, by decide⟩, trivial, ⟨r_dest, by decide⟩, trivial⟩ rfl
example (x : α) : let mem : Mem α := [⟨true, List.replicate 3 (.f x)⟩]
    Init mem (0, 0) 2 ∧ Room mem (0, 1) 2 :=
  ⟨.replicate (by decide), .replicate (by decide)⟩

theorem C56_any_vec2_mul {mem : Mem α} {aP bP destP : Ptr} (h_a : Init mem aP 2) (h_b : Init mem bP 2) (r_dest : Room mem destP 2) :
    Safe mem [(destP, 2)] .void (C.glm_vec2_mul.run mem [aP.val, bP.val, destP.val]) :=
  safe_entry Lib.glm_vec2_mul_ok [.inp aP 2, .inp bP 2, .out destP 2] ⟨⟨initK_isF.mpr h_a, by decide⟩, ⟨initK_isF.mpr h_b, by decide⟩, ⟨r_dest, by decide⟩, trivial⟩ rfl
example (x : α) : let mem : Mem α := [⟨true, List.replicate 4 (.f x)⟩]
    Init mem (0, 0) 2 ∧ Init mem (0, 1) 2 ∧ Room mem (0, 2) 2 :=
  ⟨.replicate (by decide), .replicate (by decide), .replicate (by decide)⟩

theorem C56_any_vec2_scale {mem : Mem α} {vP destP : Ptr} (s : α) (h_v : Init mem vP 2) (r_dest : Room mem destP 2) :
    Safe mem [(destP, 2)] .void (C.glm_vec2_scale.run mem [vP.val, .f s, destP.val]) :=
  safe_entry Lib.glm_vec2_scale_ok [.inp vP 2, .f s, .out destP 2] ⟨⟨initK_isF.mpr h_v, by decide⟩, trivial, ⟨r_dest, by decide⟩, trivial⟩ rfl
example (x : α) : let mem : Mem α := [⟨true, List.replicate 3 (.f x)⟩]
    Init mem (0, 0) 2 ∧ Room mem (0, 1) 2 :=
  ⟨.replicate (by decide), .replicate (by decide)⟩

theorem C56_any_vec2_scale_as {mem : Mem α} {vP destP : Ptr} (s : α) (h_v : Init mem vP 2) (r_dest : Room mem destP 2) :
    Safe mem [(destP, 2)] .void (C.glm_vec2_scale_as.run mem [vP.val, .f s, destP.val]) :=
  safe_entry Lib.glm_vec2_scale_as_ok [.inp vP 2, .f s, .out destP 2] ⟨⟨initK_isF.mpr h_v, by decide⟩, trivial, ⟨r_dest, by decide⟩, trivial⟩ rfl
example (x : α) : let mem : Mem α := [⟨true, List.replicate 3 (.f x)⟩]
    Init mem (0, 0) 2 ∧ Room mem (0, 1) 2 :=
  ⟨.replicate (by decide), .replicate (by decide)⟩

theorem C56_any_vec2_div {mem : Mem α} {aP bP destP : Ptr} (h_a : Init mem aP 2) (h_b : Init mem bP 2) (r_dest : Room mem destP 2) :
    Safe mem [(destP, 2)] .void (C.glm_vec2_div.run mem [aP.val, bP.val, destP.val]) :=
  safe_entry Lib.glm_vec2_div_ok [.inp aP 2, .inp bP 2, .out destP 2] ⟨⟨initK_isF.mpr h_a, by decide⟩, ⟨initK_isF.mpr h_b, by decide⟩, ⟨r_dest, by decide⟩, trivial⟩ rfl
example (x : α) : let mem : Mem α := [⟨true, List.replicate 4 (.f x)⟩]
    Init mem (0, 0) 2 ∧ Init mem (0, 1) 2 ∧ Room mem (0, 2) 2 :=
  ⟨.replicate (by decide), .replicate (by decide), .replicate (by decide)⟩

theorem C56_any_vec2_divs {mem : Mem α} {vP destP : Ptr} (s : α) (h_v : Init mem vP 2) (r_dest : Room mem destP 2) :
    Safe mem [(destP, 2)] .void (C.glm_vec2_divs.run mem [vP.val, .f s, destP.val]) :=
  safe_entry Lib.glm_vec2_divs_ok [.inp vP 2, .f s, .out destP 2] ⟨⟨initK_isF.mpr h_v, by decide⟩, trivial, ⟨r_dest, by decide⟩, trivial⟩ rfl
example (x : α) : let mem : Mem α := [⟨true, List.replicate 3 (.f x)⟩]
    Init mem (0, 0) 2 ∧ Room mem (0, 1) 2 :=
  ⟨.replicate (by decide), .replicate (by decide)⟩

theorem C56_any_vec2_addadd {mem : Mem α} {aP bP destP : Ptr} (h_a : Init mem aP 2) (h_b : Init mem bP 2) (h_dest : Init mem destP 2) (r_dest : Room mem destP 2) :
    Safe mem [(destP, 2)] .void (C.glm_vec2_addadd.run mem [aP.val, bP.val, destP.val]) :=
  safe_entry Lib.glm_vec2_addadd_ok [.inp aP 2, .inp bP 2, .io destP 2] ⟨⟨initK_isF.mpr h_a, by decide⟩, ⟨initK_isF.mpr h_b, by decide⟩, ⟨initK_isF.mpr h_dest, r_dest, by decide⟩, trivial⟩ rfl
example (x : α) : let mem : Mem α := [⟨true, List.replicate 4 (.f x)⟩]
    Init mem (0, 0) 2 ∧ Init mem (0, 1) 2 ∧ Init mem (0, 2) 2 ∧ Room mem (0, 2) 2 :=
  ⟨.replicate (by decide), .replicate (by decide), .replicate (by decide), .replicate (by decide)⟩

theorem C56_any_vec2_subadd {mem : Mem α} {aP bP destP : Ptr} (h_a : Init mem aP 2) (h_b : Init mem bP 2) (h_dest : Init mem destP 2) (r_dest : Room mem destP 2) :
    Safe mem [(destP, 2)] .void (C.glm_vec2_subadd.run mem [aP.val, bP.val, destP.val]) :=
  safe_entry Lib.glm_vec2_subadd_ok [.inp aP 2, .inp bP 2, .io destP 2] ⟨⟨initK_isF.mpr h_a, by decide⟩, ⟨initK_isF.mpr h_b, by decide⟩, ⟨initK_isF.mpr h_dest, r_dest, by decide⟩, trivial⟩ rfl
example (x : α) : let mem : Mem α := [⟨true, List.replicate 4 (.f x)⟩]
    Init mem (0, 0) 2 ∧ Init mem (0, 1) 2 ∧ Init mem (0, 2) 2 ∧ Room mem (0, 2) 2 :=
  ⟨.replicate (by decide), .replicate (by decide), .replicate (by decide), .replicate (by decide)⟩

theorem C56_any_vec2_muladd {mem : Mem α} {aP bP destP : Ptr} (h_a : Init mem aP 2) (h_b : Init mem bP 2) (h_dest : Init mem destP 2) (r_dest : Room mem destP 2) :
    Safe mem [(destP, 2)] .void (C.glm_vec2_muladd.run mem [aP.val, bP.val, destP.val]) :=
  safe_entry Lib.glm_vec2_muladd_ok [.inp aP 2, .inp bP 2, .io destP 2] ⟨⟨initK_isF.mpr h_a, by decide⟩, ⟨initK_isF.mpr h_b, by decide⟩, ⟨initK_isF.mpr h_dest, r_dest, by decide⟩, trivial⟩ rfl
example (x : α) : let mem : Mem α := [⟨true, List.replicate 4 (.f x)⟩]
    Init mem (0, 0) 2 ∧ Init mem (0, 1) 2 ∧ Init mem (0, 2) 2 ∧ Room mem (0, 2) 2 :=
  ⟨.replicate (by decide), .replicate (by decide), .replicate (by decide), .replicate (by decide)⟩

theorem C56_any_vec2_muladds {mem : Mem α} {aP destP : Ptr} (s : α) (h_a : Init mem aP 2) (h_dest : Init mem destP 2) (r_dest : Room mem destP 2) :
    Safe mem [(destP, 2)] .void (C.glm_vec2_muladds.run mem [aP.val, .f s, destP.val]) :=
  safe_entry Lib.glm_vec2_muladds_ok [.inp aP 2, .f s, .io destP 2] ⟨⟨initK_isF.mpr h_a, by decide⟩, trivial, ⟨initK_isF.mpr h_dest, r_dest, by decide⟩, trivial⟩ rfl
example (x : α) : let mem : Mem α := [⟨true, List.replicate 3 (.f x)⟩]
    Init mem (0, 0) 2 ∧ Init mem (0, 1) 2 ∧ Room mem (0, 1) 2 :=
  ⟨.replicate (by decide), .replicate (by decide), .replicate (by decide)⟩

theorem C56_any_vec2_maxadd {mem : Mem α} {aP bP destP : Ptr} (h_a : Init mem aP 2) (h_b : Init mem bP 2) (h_dest : Init mem destP 2) (r_dest : Room mem destP 2) :
    Safe mem [(destP, 2)] .void (C.glm_vec2_maxadd.run mem [aP.val, bP.val, destP.val]) :=
  safe_entry Lib.glm_vec2_maxadd_ok [.inp aP 2, .inp bP 2, .io destP 2] ⟨⟨initK_isF.mpr h_a, by decide⟩, ⟨initK_isF.mpr h_b, by decide⟩, ⟨initK_isF.mpr h_dest, r_dest, by decide⟩, trivial⟩ rfl
example (x : α) : let mem : Mem α := [⟨true, List.replicate 4 (.f x)⟩]
    Init mem (0, 0) 2 ∧ Init mem (0, 1) 2 ∧ Init mem (0, 2) 2 ∧ Room mem (0, 2) 2 :=
  ⟨.replicate (by decide), .replicate (by decide), .replicate (by decide), .replicate (by decide)⟩

theorem C56_any_vec2_minadd {mem : Mem α} {aP bP destP : Ptr} (h_a : Init mem aP 2) (h_b : Init mem bP 2) (h_dest : Init mem destP 2) (r_dest : Room mem destP 2) :
    Safe mem [(destP, 2)] .void (C.glm_vec2_minadd.run mem [aP.val, bP.val, destP.val]) :=
  safe_entry Lib.glm_vec2_minadd_ok [.inp aP 2, .inp bP 2, .io destP 2] ⟨⟨initK_isF.mpr h_a, by decide⟩, ⟨initK_isF.mpr h_b, by decide⟩, ⟨initK_isF.mpr h_dest, r_dest, by decide⟩, trivial⟩ rfl
example (x : α) : let mem : Mem α := [⟨true, List.replicate 4 (.f x)⟩]
    Init mem (0, 0) 2 ∧ Init mem (0, 1) 2 ∧ Init mem (0, 2) 2 ∧ Room mem (0, 2) 2 :=
  ⟨.replicate (by decide), .replicate (by decide), .replicate (by decide), .replicate (by decide)⟩

theorem C56_any_vec2_subsub {mem : Mem α} {aP bP destP : Ptr} (h_a : Init mem aP 2) (h_b : Init mem bP 2) (h_dest : Init mem destP 2) (r_dest : Room mem destP 2) :
    Safe mem [(destP, 2)] .void (C.glm_vec2_subsub.run mem [aP.val, bP.val, destP.val]) :=
  safe_entry Lib.glm_vec2_subsub_ok [.inp aP 2, .inp bP 2, .io destP 2] ⟨⟨initK_isF.mpr h_a, by decide⟩, ⟨initK_isF.mpr h_b, by decide⟩, ⟨initK_isF.mpr h_dest, r_dest, by decide⟩, trivial⟩ rfl
example (x : α) : let mem : Mem α := [⟨true, List.replicate 4 (.f x)⟩]
    Init mem (0, 0) 2 ∧ Init mem (0, 1) 2 ∧ Init mem (0, 2) 2 ∧ Room mem (0, 2) 2 :=
  ⟨.replicate (by decide), .replicate (by decide), .replicate (by decide), .replicate (by decide)⟩

theorem C56_any_vec2_addsub {mem : Mem α} {aP bP destP : Ptr} (h_a : Init mem aP 2) (h_b : Init mem bP 2) (h_dest : Init mem destP 2) (r_dest : Room mem destP 2) :
    Safe mem [(destP, 2)] .void (C.glm_vec2_addsub.run mem [aP.val, bP.val, destP.val]) :=
  safe_entry Lib.glm_vec2_addsub_ok [.inp aP 2, .inp bP 2, .io destP 2] ⟨⟨initK_isF.mpr h_a, by decide⟩, ⟨initK_isF.mpr h_b, by decide⟩, ⟨initK_isF.mpr h_dest, r_dest, by decide⟩, trivial⟩ rfl
example (x : α) : let mem : Mem α := [⟨true, List.replicate 4 (.f x)⟩]
    Init mem (0, 0) 2 ∧ Init mem (0, 1) 2 ∧ Init mem (0, 2) 2 ∧ Room mem (0, 2) 2 :=
  ⟨.replicate (by decide), .replicate (by decide), .replicate (by decide), .replicate (by decide)⟩

theorem C56_any_vec2_mulsub {mem : Mem α} {aP bP destP : Ptr} (h_a : Init mem aP 2) (h_b : Init mem bP 2) (h_dest : Init mem destP 2) (r_dest : Room mem destP 2) :
    Safe mem [(destP, 2)] .void (C.glm_vec2_mulsub.run mem [aP.val, bP.val, destP.val]) :=
  safe_entry Lib.glm_vec2_mulsub_ok [.inp aP 2, .inp bP 2, .io destP 2] ⟨⟨initK_isF.mpr h_a, by decide⟩, ⟨initK_isF.mpr h_b, by decide⟩, ⟨initK_isF.mpr h_dest, r_dest, by decide⟩, trivial⟩ rfl
example (x : α) : let mem : Mem α := [⟨true, List.replicate 4 (.f x)⟩]
    Init mem (0, 0) 2 ∧ Init mem (0, 1) 2 ∧ Init mem (0, 2) 2 ∧ Room mem (0, 2) 2 :=
  ⟨.replicate (by decide), .replicate (by decide), .replicate (by decide), .replicate (by decide)⟩

theorem C56_any_vec2_mulsubs {mem : Mem α} {aP destP : Ptr} (s : α) (h_a : Init mem aP 2) (h_dest : Init mem destP 2) (r_dest : Room mem destP 2) :
    Safe mem [(destP, 2)] .void (C.glm_vec2_mulsubs.run mem [aP.val, .f s, destP.val]) :=
  safe_entry Lib.glm_vec2_mulsubs_ok [.inp aP 2, .f s, .io destP 2] ⟨⟨initK_isF.mpr h_a, by decide⟩, trivial, ⟨initK_isF.mpr h_dest, r_dest, by decide⟩, trivial⟩ rfl
example (x : α) : let mem : Mem α := [⟨true, List.replicate 3 (.f x)⟩]
    Init mem (0, 0) 2 ∧ Init mem (0, 1) 2 ∧ Room mem (0, 1) 2 :=
  ⟨.replicate (by decide), .replicate (by decide), .replicate (by decide)⟩

theorem C56_any_vec2_maxsub {mem : Mem α} {aP bP destP : Ptr} (h_a : Init mem aP 2) (h_b : Init mem bP 2) (h_dest : Init mem destP 2) (r_dest : Room mem destP 2) :
    Safe mem [(destP, 2)] .void (C.glm_vec2_maxsub.run mem [aP.val, bP.val, destP.val]) :=
  safe_entry Lib.glm_vec2_maxsub_ok [.inp aP 2, .inp bP 2, .io destP 2] ⟨⟨initK_isF.mpr h_a, by decide⟩, ⟨initK_isF.mpr h_b, by decide⟩, ⟨initK_isF.mpr h_dest, r_dest, by decide⟩, trivial⟩ rfl
example (x : α) : let mem : Mem α := [⟨true, List.replicate 4 (.f x)⟩]
    Init mem (0, 0) 2 ∧ Init mem (0, 1) 2 ∧ Init mem (0, 2) 2 ∧ Room mem (0, 2) 2 :=
  ⟨.replicate (by decide), .replicate (by decide), .replicate (by decide), .replicate (by decide)⟩

theorem C56_any_vec2_minsub {mem : Mem α} {aP bP destP : Ptr} (h_a : Init mem aP 2) (h_b : Init mem bP 2) (h_dest : Init mem destP 2) (r_dest : Room mem destP 2) :
    Safe mem [(destP, 2)] .void (C.glm_vec2_minsub.run mem [aP.val, bP.val, destP.val]) :=
  safe_entry Lib.glm_vec2_minsub_ok [.inp aP 2, .inp bP 2, .io destP 2] ⟨⟨initK_isF.mpr h_a, by decide⟩, ⟨initK_isF.mpr h_b, by decide⟩, ⟨initK_isF.mpr h_dest, r_dest, by decide⟩, trivial⟩ rfl
example (x : α) : let mem : Mem α := [⟨true, List.replicate 4 (.f x)⟩]
    Init mem (0, 0) 2 ∧ Init mem (0, 1) 2 ∧ Init mem (0, 2) 2 ∧ Room mem (0, 2) 2 :=
  ⟨.replicate (by decide), .replicate (by decide), .replicate (by decide), .replicate (by decide)⟩

theorem C56_any_vec2_negate_to {mem : Mem α} {vP destP : Ptr} (h_v : Init mem vP 2) (r_dest : Room mem destP 2) :
    Safe mem [(destP, 2)] .void (C.glm_vec2_negate_to.run mem [vP.val, destP.val]) :=
  safe_entry Lib.glm_vec2_negate_to_ok [.inp vP 2, .out destP 2] ⟨⟨initK_isF.mpr h_v, by decide⟩, ⟨r_dest, by decide⟩, trivial⟩ rfl
example (x : α) : let mem : Mem α := [⟨true, List.replicate 3 (.f x)⟩]
    Init mem (0, 0) 2 ∧ Room mem (0, 1) 2 :=
  ⟨.replicate (by decide), .replicate (by decide)⟩

theorem C56_any_vec2_negate {mem : Mem α} {vP : Ptr} (h_v : Init mem vP 2) (r_v : Room mem vP 2) :
    Safe mem [(vP, 2)] .void (C.glm_vec2_negate.run mem [vP.val]) :=
  safe_entry Lib.glm_vec2_negate_ok [.io vP 2] ⟨⟨initK_isF.mpr h_v, r_v, by decide⟩, trivial⟩ rfl
example (x : α) : let mem : Mem α := [⟨true, List.replicate 2 (.f x)⟩]
    Init mem (0, 0) 2 ∧ Room mem (0, 0) 2 :=
  ⟨.replicate (by decide), .replicate (by decide)⟩

theorem C56_any_vec2_normalize {mem : Mem α} {vP : Ptr} (h_v : Init mem vP 2) (r_v : Room mem vP 2) :
    Safe mem [(vP, 2)] .void (C.glm_vec2_normalize.run mem [vP.val]) :=
  safe_entry Lib.glm_vec2_normalize_ok [.io vP 2] ⟨⟨initK_isF.mpr h_v, r_v, by decide⟩, trivial⟩ rfl
example (x : α) : let mem : Mem α := [⟨true, List.replicate 2 (.f x)⟩]
    Init mem (0, 0) 2 ∧ Room mem (0, 0) 2 :=
  ⟨.replicate (by decide), .replicate (by decide)⟩

theorem C56_any_vec2_normalize_to {mem : Mem α} {vP destP : Ptr} (h_v : Init mem vP 2) (r_dest : Room mem destP 2) :
    Safe mem [(destP, 2)] .void (C.glm_vec2_normalize_to.run mem [vP.val, destP.val]) :=
  safe_entry Lib.glm_vec2_normalize_to_ok [.inp vP 2, .out destP 2] ⟨⟨initK_isF.mpr h_v, by decide⟩, ⟨r_dest, by decide⟩, trivial⟩ rfl
example (x : α) : let mem : Mem α := [⟨true, List.replicate 3 (.f x)⟩]
    Init mem (0, 0) 2 ∧ Room mem (0, 1) 2 :=
  ⟨.replicate (by decide), .replicate (by decide)⟩

theorem C56_any_vec2_rotate {mem : Mem α} {vP destP : Ptr} (angle : α) (h_v : Init mem vP 2) (r_dest : Room mem destP 2) :
    Safe mem [(destP, 2)] .void (C.glm_vec2_rotate.run mem [vP.val, .f angle, destP.val]) :=
  safe_entry Lib.glm_vec2_rotate_ok [.inp vP 2, .f angle, .out destP 2] ⟨⟨initK_isF.mpr h_v, by decide⟩, trivial, ⟨r_dest, by decide⟩, trivial⟩ rfl
example (x : α) : let mem : Mem α := [⟨true, List.replicate 3 (.f x)⟩]
    Init mem (0, 0) 2 ∧ Room mem (0, 1) 2 :=
  ⟨.replicate (by decide), .replicate (by decide)⟩

theorem C56_any_vec2_center {mem : Mem α} {aP bP destP : Ptr} (h_a : Init mem aP 2) (h_b : Init mem bP 2) (r_dest : Room mem destP 2) :
    Safe mem [(destP, 2)] .void (C.glm_vec2_center.run mem [aP.val, bP.val, destP.val]) :=
  safe_entry Lib.glm_vec2_center_ok [.inp aP 2, .inp bP 2, .out destP 2] ⟨⟨initK_isF.mpr h_a, by decide⟩, ⟨initK_isF.mpr h_b, by decide⟩, ⟨r_dest, by decide⟩, trivial⟩ rfl
example (x : α) : let mem : Mem α := [⟨true, List.replicate 4 (.f x)⟩]
    Init mem (0, 0) 2 ∧ Init mem (0, 1) 2 ∧ Room mem (0, 2) 2 :=
  ⟨.replicate (by decide), .replicate (by decide), .replicate (by decide)⟩

theorem C56_any_vec2_distance2 {mem : Mem α} {aP bP : Ptr} (h_a : Init mem aP 2) (h_b : Init mem bP 2) :
    Safe mem [] .float (C.glm_vec2_distance2.run mem [aP.val, bP.val]) :=
  safe_entry Lib.glm_vec2_distance2_ok [.inp aP 2, .inp bP 2] ⟨⟨initK_isF.mpr h_a, by decide⟩, ⟨initK_isF.mpr h_b, by decide⟩, trivial⟩ rfl
example (x : α) : let mem : Mem α := [⟨true, List.replicate 3 (.f x)⟩]
    Init mem (0, 0) 2 ∧ Init mem (0, 1) 2 :=
  ⟨.replicate (by decide), .replicate (by decide)⟩

theorem C56_any_vec2_distance {mem : Mem α} {aP bP : Ptr} (h_a : Init mem aP 2) (h_b : Init mem bP 2) :
    Safe mem [] .float (C.glm_vec2_distance.run mem [aP.val, bP.val]) :=
  safe_entry Lib.glm_vec2_distance_ok [.inp aP 2, .inp bP 2] ⟨⟨initK_isF.mpr h_a, by decide⟩, ⟨initK_isF.mpr h_b, by decide⟩, trivial⟩ rfl
example (x : α) : let mem : Mem α := [⟨true, List.replicate 3 (.f x)⟩]
    Init mem (0, 0) 2 ∧ Init mem (0, 1) 2 :=
  ⟨.replicate (by decide), .replicate (by decide)⟩

theorem C56_any_vec2_maxv {mem : Mem α} {aP bP destP : Ptr} (h_a : Init mem aP 2) (h_b : Init mem bP 2) (r_dest : Room mem destP 2) :
    Safe mem [(destP, 2)] .void (C.glm_vec2_maxv.run mem [aP.val, bP.val, destP.val]) :=
  safe_entry Lib.glm_vec2_maxv_ok [.inp aP 2, .inp bP 2, .out destP 2] ⟨⟨initK_isF.mpr h_a, by decide⟩, ⟨initK_isF.mpr h_b, by decide⟩, ⟨r_dest, by decide⟩, trivial⟩ rfl
example (x : α) : let mem : Mem α := [⟨true, List.replicate 4 (.f x)⟩]
    Init mem (0, 0) 2 ∧ Init mem (0, 1) 2 ∧ Room mem (0, 2) 2 :=
  ⟨.replicate (by decide), .replicate (by decide), .replicate (by decide)⟩

theorem C56_any_vec2_minv {mem : Mem α} {aP bP destP : Ptr} (h_a : Init mem aP 2) (h_b : Init mem bP 2) (r_dest : Room mem destP 2) :
    Safe mem [(destP, 2)] .void (C.glm_vec2_minv.run mem [aP.val, bP.val, destP.val]) :=
  safe_entry Lib.glm_vec2_minv_ok [.inp aP 2, .inp bP 2, .out destP 2] ⟨⟨initK_isF.mpr h_a, by decide⟩, ⟨initK_isF.mpr h_b, by decide⟩, ⟨r_dest, by decide⟩, trivial⟩ rfl
example (x : α) : let mem : Mem α := [⟨true, List.replicate 4 (.f x)⟩]
    Init mem (0, 0) 2 ∧ Init mem (0, 1) 2 ∧ Room mem (0, 2) 2 :=
  ⟨.replicate (by decide), .replicate (by decide), .replicate (by decide)⟩

theorem C56_any_vec2_clamp {mem : Mem α} {vP : Ptr} (minval : α) (maxval : α) (h_v : Init mem vP 2) (r_v : Room mem vP 2) :
    Safe mem [(vP, 2)] .void (C.glm_vec2_clamp.run mem [vP.val, .f minval, .f maxval]) :=
  safe_entry Lib.glm_vec2_clamp_ok [.io vP 2, .f minval, .f maxval] ⟨⟨initK_isF.mpr h_v, r_v, by decide⟩, trivial, trivial, trivial⟩ rfl
example (x : α) : let mem : Mem α := [⟨true, List.replicate 2 (.f x)⟩]
    Init mem (0, 0) 2 ∧ Room mem (0, 0) 2 :=
  ⟨.replicate (by decide), .replicate (by decide)⟩

theorem C56_any_vec2_lerp {mem : Mem α} {frmP toP destP : Ptr} (t : α) (h_frm : Init mem frmP 2) (h_to : Init mem toP 2) (r_dest : Room mem destP 2) :
    Safe mem [(destP, 2)] .void (C.glm_vec2_lerp.run mem [frmP.val, toP.val, .f t, destP.val]) :=
  safe_entry Lib.glm_vec2_lerp_ok [.inp frmP 2, .inp toP 2, .f t, .out destP 2] ⟨⟨initK_isF.mpr h_frm, by decide⟩, ⟨initK_isF.mpr h_to, by decide⟩, trivial, ⟨r_dest, by decide⟩, trivial⟩ rfl
example (x : α) : let mem : Mem α := [⟨true, List.replicate 4 (.f x)⟩]
    Init mem (0, 0) 2 ∧ Init mem (0, 1) 2 ∧ Room mem (0, 2) 2 :=
  ⟨.replicate (by decide), .replicate (by decide), .replicate (by decide)⟩

theorem C56_any_vec2_step {mem : Mem α} {edgeP xP destP : Ptr} (h_edge : Init mem edgeP 2) (h_x : Init mem xP 2) (r_dest : Room mem destP 2) :
    Safe mem [(destP, 2)] .void (C.glm_vec2_step.run mem [edgeP.val, xP.val, destP.val]) :=
  safe_entry Lib.glm_vec2_step_ok [.inp edgeP 2, .inp xP 2, .out destP 2] ⟨⟨initK_isF.mpr h_edge, by decide⟩, ⟨initK_isF.mpr h_x, by decide⟩, ⟨r_dest, by decide⟩, trivial⟩ rfl
example (x : α) : let mem : Mem α := [⟨true, List.replicate 4 (.f x)⟩]
    Init mem (0, 0) 2 ∧ Init mem (0, 1) 2 ∧ Room mem (0, 2) 2 :=
  ⟨.replicate (by decide), .replicate (by decide), .replicate (by decide)⟩

theorem C56_any_vec2_make {mem : Mem α} {srcP destP : Ptr} (h_src : Init mem srcP 2) (r_dest : Room mem destP 2) :
    Safe mem [(destP, 2)] .void (C.glm_vec2_make.run mem [srcP.val, destP.val]) :=
  safe_entry Lib.glm_vec2_make_ok [.inp srcP 2, .out destP 2] ⟨⟨initK_isF.mpr h_src, by decide⟩, ⟨r_dest, by decide⟩, trivial⟩ rfl
example (x : α) : let mem : Mem α := [⟨true, List.replicate 3 (.f x)⟩]
    Init mem (0, 0) 2 ∧ Room mem (0, 1) 2 :=
  ⟨.replicate (by decide), .replicate (by decide)⟩

theorem C56_any_vec2_reflect {mem : Mem α} {vP nP destP : Ptr} (h_v : Init mem vP 2) (h_n : Init mem nP 2) (r_dest : Room mem destP 2) :
    Safe mem [(destP, 2)] .void (C.glm_vec2_reflect.run mem [vP.val, nP.val, destP.val]) :=
  safe_entry Lib.glm_vec2_reflect_ok [.inp vP 2, .inp nP 2, .out destP 2] ⟨⟨initK_isF.mpr h_v, by decide⟩, ⟨initK_isF.mpr h_n, by decide⟩, ⟨r_dest, by decide⟩, trivial⟩ rfl
example (x : α) : let mem : Mem α := [⟨true, List.replicate 4 (.f x)⟩]
    Init mem (0, 0) 2 ∧ Init mem (0, 1) 2 ∧ Room mem (0, 2) 2 :=
  ⟨.replicate (by decide), .replicate (by decide), .replicate (by decide)⟩

theorem C56_any_vec2_refract {mem : Mem α} {vP nP destP : Ptr} (eta : α) (h_v : Init mem vP 2) (h_n : Init mem nP 2) (r_dest : Room mem destP 2) :
    Safe mem [(destP, 2)] .bool (C.glm_vec2_refract.run mem [vP.val, nP.val, .f eta, destP.val]) :=
  safe_entry Lib.glm_vec2_refract_ok [.inp vP 2, .inp nP 2, .f eta, .out destP 2] ⟨⟨initK_isF.mpr h_v, by decide⟩, ⟨initK_isF.mpr h_n, by decide⟩, trivial, ⟨r_dest, by decide⟩, trivial⟩ rfl
example (x : α) : let mem : Mem α := [⟨true, List.replicate 4 (.f x)⟩]
    Init mem (0, 0) 2 ∧ Init mem (0, 1) 2 ∧ Room mem (0, 2) 2 :=
  ⟨.replicate (by decide), .replicate (by decide), .replicate (by decide)⟩

/-! ## include/cglm/vec3-ext.h -/

theorem C56_any_vec3_broadcast {mem : Mem α} {dP : Ptr} (val : α) (r_d : Room mem dP 3) :
    Safe mem [(dP, 3)] .void (C.glm_vec3_broadcast.run mem [.f val, dP.val]) :=
  safe_entry Lib.glm_vec3_broadcast_ok [.f val, .out dP 3] ⟨trivial, ⟨r_d, by decide⟩, trivial⟩ rfl
example (x : α) : let mem : Mem α := [⟨true, List.replicate 3 (.f x)⟩]
    Room mem (0, 0) 3 :=
  .replicate (by decide)

theorem C56_any_vec3_fill {mem : Mem α} {vP : Ptr} (val : α) (r_v : Room mem vP 3) :
    Safe mem [(vP, 3)] .void (C.glm_vec3_fill.run mem [vP.val, .f val]) :=
  safe_entry Lib.glm_vec3_fill_ok [.out vP 3, .f val] ⟨⟨r_v, by decide⟩, trivial, trivial⟩ rfl
example (x : α) : let mem : Mem α := [⟨true, List.replicate 3 (.f x)⟩]
    Room mem (0, 0) 3 :=
  .replicate (by decide)

theorem C56_any_vec3_eq {mem : Mem α} {vP : Ptr} (val : α) (h_v : Init mem vP 3) :
    Safe mem [] .bool (C.glm_vec3_eq.run mem [vP.val, .f val]) :=
  safe_entry Lib.glm_vec3_eq_ok [.inp vP 3, .f val] ⟨⟨initK_isF.mpr h_v, by decide⟩, trivial, trivial⟩ rfl
example (x : α) : let mem : Mem α := [⟨true, List.replicate 3 (.f x)⟩]
    Init mem (0, 0) 3 :=
  .replicate (by decide)

theorem C56_any_vec3_eq_eps {mem : Mem α} {vP : Ptr} (val : α) (h_v : Init mem vP 3) :
    Safe mem [] .bool (C.glm_vec3_eq_eps.run mem [vP.val, .f val]) :=
  safe_entry Lib.glm_vec3_eq_eps_ok [.inp vP 3, .f val] ⟨⟨initK_isF.mpr h_v, by decide⟩, trivial, trivial⟩ rfl
example (x : α) : let mem : Mem α := [⟨true, List.replicate 3 (.f x)⟩]
    Init mem (0, 0) 3 :=
  .replicate (by decide)

theorem C56_any_vec3_eq_all {mem : Mem α} {vP : Ptr} (h_v : Init mem vP 3) :
    Safe mem [] .bool (C.glm_vec3_eq_all.run mem [vP.val]) :=
  safe_entry Lib.glm_vec3_eq_all_ok [.inp vP 3] ⟨⟨initK_isF.mpr h_v, by decide⟩, trivial⟩ rfl
example (x : α) : let mem : Mem α := [⟨true, List.replicate 3 (.f x)⟩]
    Init mem (0, 0) 3 :=
  .replicate (by decide)

theorem C56_any_vec3_eqv {mem : Mem α} {aP bP : Ptr} (h_a : Init mem aP 3) (h_b : Init mem bP 3) :
    Safe mem [] .bool (C.glm_vec3_eqv.run mem [aP.val, bP.val]) :=
  safe_entry Lib.glm_vec3_eqv_ok [.inp aP 3, .inp bP 3] ⟨⟨initK_isF.mpr h_a, by decide⟩, ⟨initK_isF.mpr h_b, by decide⟩, trivial⟩ rfl
example (x : α) : let mem : Mem α := [⟨true, List.replicate 4 (.f x)⟩]
    Init mem (0, 0) 3 ∧ Init mem (0, 1) 3 :=
  ⟨.replicate (by decide), .replicate (by decide)⟩

theorem C56_any_vec3_eqv_eps {mem : Mem α} {aP bP : Ptr} (h_a : Init mem aP 3) (h_b : Init mem bP 3) :
    Safe mem [] .bool (C.glm_vec3_eqv_eps.run mem [aP.val, bP.val]) :=
  safe_entry Lib.glm_vec3_eqv_eps_ok [.inp aP 3, .inp bP 3] ⟨⟨initK_isF.mpr h_a, by decide⟩, ⟨initK_isF.mpr h_b, by decide⟩, trivial⟩ rfl
example (x : α) : let mem : Mem α := [⟨true, List.replicate 4 (.f x)⟩]
    Init mem (0, 0) 3 ∧ Init mem (0, 1) 3 :=
  ⟨.replicate (by decide), .replicate (by decide)⟩

theorem C56_any_vec3_max {mem : Mem α} {vP : Ptr} (h_v : Init mem vP 3) :
    Safe mem [] .float (C.glm_vec3_max.run mem [vP.val]) :=
  safe_entry Lib.glm_vec3_max_ok [.inp vP 3] ⟨⟨initK_isF.mpr h_v, by decide⟩, trivial⟩ rfl
example (x : α) : let mem : Mem α := [⟨true, List.replicate 3 (.f x)⟩]
    Init mem (0, 0) 3 :=
  .replicate (by decide)

theorem C56_any_vec3_min {mem : Mem α} {vP : Ptr} (h_v : Init mem vP 3) :
    Safe mem [] .float (C.glm_vec3_min.run mem [vP.val]) :=
  safe_entry Lib.glm_vec3_min_ok [.inp vP 3] ⟨⟨initK_isF.mpr h_v, by decide⟩, trivial⟩ rfl
example (x : α) : let mem : Mem α := [⟨true, List.replicate 3 (.f x)⟩]
    Init mem (0, 0) 3 :=
  .replicate (by decide)

theorem C56_any_vec3_isnan {mem : Mem α} {vP : Ptr} (h_v : Init mem vP 3) :
    Safe mem [] .bool (C.glm_vec3_isnan.run mem [vP.val]) :=
  safe_entry Lib.glm_vec3_isnan_ok [.inp vP 3] ⟨⟨initK_isF.mpr h_v, by decide⟩, trivial⟩ rfl
example (x : α) : let mem : Mem α := [⟨true, List.replicate 3 (.f x)⟩]
    Init mem (0, 0) 3 :=
  .replicate (by decide)

theorem C56_any_vec3_isinf {mem : Mem α} {vP : Ptr} (h_v : Init mem vP 3) :
    Safe mem [] .bool (C.glm_vec3_isinf.run mem [vP.val]) :=
  safe_entry Lib.glm_vec3_isinf_ok [.inp vP 3] ⟨⟨initK_isF.mpr h_v, by decide⟩, trivial⟩ rfl
example (x : α) : let mem : Mem α := [⟨true, List.replicate 3 (.f x)⟩]
    Init mem (0, 0) 3 :=
  .replicate (by decide)

theorem C56_any_vec3_isvalid {mem : Mem α} {vP : Ptr} (h_v : Init mem vP 3) :
    Safe mem [] .bool (C.glm_vec3_isvalid.run mem [vP.val]) :=
  safe_entry Lib.glm_vec3_isvalid_ok [.inp vP 3] ⟨⟨initK_isF.mpr h_v, by decide⟩, trivial⟩ rfl
example (x : α) : let mem : Mem α := [⟨true, List.replicate 3 (.f x)⟩]
    Init mem (0, 0) 3 :=
  .replicate (by decide)

theorem C56_any_vec3_sign {mem : Mem α} {vP destP : Ptr} (h_v : Init mem vP 3) (r_dest : Room mem destP 3) :
    Safe mem [(destP, 3)] .void (C.glm_vec3_sign.run mem [vP.val, destP.val]) :=
  safe_entry Lib.glm_vec3_sign_ok [.inp vP 3, .out destP 3] ⟨⟨initK_isF.mpr h_v, by decide⟩, ⟨r_dest, by decide⟩, trivial⟩ rfl
example (x : α) : let mem : Mem α := [⟨true, List.replicate 4 (.f x)⟩]
    Init mem (0, 0) 3 ∧ Room mem (0, 1) 3 :=
  ⟨.replicate (by decide), .replicate (by decide)⟩

theorem C56_any_vec3_abs {mem : Mem α} {vP destP : Ptr} (h_v : Init mem vP 3) (r_dest : Room mem destP 3) :
    Safe mem [(destP, 3)] .void (C.glm_vec3_abs.run mem [vP.val, destP.val]) :=
  safe_entry Lib.glm_vec3_abs_ok [.inp vP 3, .out destP 3] ⟨⟨initK_isF.mpr h_v, by decide⟩, ⟨r_dest, by decide⟩, trivial⟩ rfl
example (x : α) : let mem : Mem α := [⟨true, List.replicate 4 (.f x)⟩]
    Init mem (0, 0) 3 ∧ Room mem (0, 1) 3 :=
  ⟨.replicate (by decide), .replicate (by decide)⟩

theorem C56_any_vec3_fract {mem : Mem α} {vP destP : Ptr} (h_v : Init mem vP 3) (r_dest : Room mem destP 3) :
    Safe mem [(destP, 3)] .void (C.glm_vec3_fract.run mem [vP.val, destP.val]) :=
  safe_entry Lib.glm_vec3_fract_ok [.inp vP 3, .out destP 3] ⟨⟨initK_isF.mpr h_v, by decide⟩, ⟨r_dest, by decide⟩, trivial⟩ rfl
example (x : α) : let mem : Mem α := [⟨true, List.replicate 4 (.f x)⟩]
    Init mem (0, 0) 3 ∧ Room mem (0, 1) 3 :=
  ⟨.replicate (by decide), .replicate (by decide)⟩

theorem C56_any_vec3_floor {mem : Mem α} {vP destP : Ptr} (h_v : Init mem vP 3) (r_dest : Room mem destP 3) :
    Safe mem [(destP, 3)] .void (C.glm_vec3_floor.run mem [vP.val, destP.val]) :=
  safe_entry Lib.glm_vec3_floor_ok [.inp vP 3, .out destP 3] ⟨⟨initK_isF.mpr h_v, by decide⟩, ⟨r_dest, by decide⟩, trivial⟩ rfl
example (x : α) : let mem : Mem α := [⟨true, List.replicate 4 (.f x)⟩]
    Init mem (0, 0) 3 ∧ Room mem (0, 1) 3 :=
  ⟨.replicate (by decide), .replicate (by decide)⟩

theorem C56_any_vec3_mods {mem : Mem α} {vP destP : Ptr} (s : α) (h_v : Init mem vP 3) (r_dest : Room mem destP 3) :
    Safe mem [(destP, 3)] .void (C.glm_vec3_mods.run mem [vP.val, .f s, destP.val]) :=
  safe_entry Lib.glm_vec3_mods_ok [.inp vP 3, .f s, .out destP 3] ⟨⟨initK_isF.mpr h_v, by decide⟩, trivial, ⟨r_dest, by decide⟩, trivial⟩ rfl
example (x : α) : let mem : Mem α := [⟨true, List.replicate 4 (.f x)⟩]
    Init mem (0, 0) 3 ∧ Room mem (0, 1) 3 :=
  ⟨.replicate (by decide), .replicate (by decide)⟩

theorem C56_any_vec3_steps {mem : Mem α} {xP destP : Ptr} (edge : α) (h_x : Init mem xP 3) (r_dest : Room mem destP 3) :
    Safe mem [(destP, 3)] .void (C.glm_vec3_steps.run mem [.f edge, xP.val, destP.val]) :=
  safe_entry Lib.glm_vec3_steps_ok [.f edge, .inp xP 3, .out destP 3] ⟨trivial, ⟨initK_isF.mpr h_x, by decide⟩, ⟨r_dest, by decide⟩, trivial⟩ rfl
example (x : α) : let mem : Mem α := [⟨true, List.replicate 4 (.f x)⟩]
    Init mem (0, 0) 3 ∧ Room mem (0, 1) 3 :=
  ⟨.replicate (by decide), .replicate (by decide)⟩

theorem C56_any_vec3_stepr {mem : Mem α} {edgeP destP : Ptr} (x : α) (h_edge : Init mem edgeP 3) (r_dest : Room mem destP 3) :
    Safe mem [(destP, 3)] .void (C.glm_vec3_stepr.run mem [edgeP.val, .f x, destP.val]) :=
  safe_entry Lib.glm_vec3_stepr_ok [.inp edgeP 3, .f x, .out destP 3] ⟨⟨initK_isF.mpr h_edge, by decide⟩, trivial, ⟨r_dest, by decide⟩, trivial⟩ rfl
example (x : α) : let mem : Mem α := [⟨true, List.replicate 4 (.f x)⟩]
    Init mem (0, 0) 3 ∧ Room mem (0, 1) 3 :=
  ⟨.replicate (by decide), .replicate (by decide)⟩

theorem C56_any_vec3_hadd {mem : Mem α} {vP : Ptr} (h_v : Init mem vP 3) :
    Safe mem [] .float (C.glm_vec3_hadd.run mem [vP.val]) :=
  safe_entry Lib.glm_vec3_hadd_ok [.inp vP 3] ⟨⟨initK_isF.mpr h_v, by decide⟩, trivial⟩ rfl
example (x : α) : let mem : Mem α := [⟨true, List.replicate 3 (.f x)⟩]
    Init mem (0, 0) 3 :=
  .replicate (by decide)

theorem C56_any_vec3_sqrt {mem : Mem α} {vP destP : Ptr} (h_v : Init mem vP 3) (r_dest : Room mem destP 3) :
    Safe mem [(destP, 3)] .void (C.glm_vec3_sqrt.run mem [vP.val, destP.val]) :=
  safe_entry Lib.glm_vec3_sqrt_ok [.inp vP 3, .out destP 3] ⟨⟨initK_isF.mpr h_v, by decide⟩, ⟨r_dest, by decide⟩, trivial⟩ rfl
example (x : α) : let mem : Mem α := [⟨true, List.replicate 4 (.f x)⟩]
    Init mem (0, 0) 3 ∧ Room mem (0, 1) 3 :=
  ⟨.replicate (by decide), .replicate (by decide)⟩

/-! ## include/cglm/vec4-ext.h -/

theorem C56_any_vec4_broadcast {mem : Mem α} {dP : Ptr} (val : α) (r_d : Room mem dP 4) :
    Safe mem [(dP, 4)] .void (C.glm_vec4_broadcast.run mem [.f val, dP.val]) :=
  safe_entry Lib.glm_vec4_broadcast_ok [.f val, .out dP 4] ⟨trivial, ⟨r_d, by decide⟩, trivial⟩ rfl
example (x : α) : let mem : Mem α := [⟨true, List.replicate 4 (.f x)⟩]
    Room mem (0, 0) 4 :=
  .replicate (by decide)

theorem C56_any_vec4_fill {mem : Mem α} {vP : Ptr} (val : α) (r_v : Room mem vP 4) :
    Safe mem [(vP, 4)] .void (C.glm_vec4_fill.run mem [vP.val, .f val]) :=
  safe_entry Lib.glm_vec4_fill_ok [.out vP 4, .f val] ⟨⟨r_v, by decide⟩, trivial, trivial⟩ rfl
example (x : α) : let mem : Mem α := [⟨true, List.replicate 4 (.f x)⟩]
    Room mem (0, 0) 4 :=
  .replicate (by decide)

theorem C56_any_vec4_eq {mem : Mem α} {vP : Ptr} (val : α) (h_v : Init mem vP 4) :
    Safe mem [] .bool (C.glm_vec4_eq.run mem [vP.val, .f val]) :=
  safe_entry Lib.glm_vec4_eq_ok [.inp vP 4, .f val] ⟨⟨initK_isF.mpr h_v, by decide⟩, trivial, trivial⟩ rfl
example (x : α) : let mem : Mem α := [⟨true, List.replicate 4 (.f x)⟩]
    Init mem (0, 0) 4 :=
  .replicate (by decide)

theorem C56_any_vec4_eq_eps {mem : Mem α} {vP : Ptr} (val : α) (h_v : Init mem vP 4) :
    Safe mem [] .bool (C.glm_vec4_eq_eps.run mem [vP.val, .f val]) :=
  safe_entry Lib.glm_vec4_eq_eps_ok [.inp vP 4, .f val] ⟨⟨initK_isF.mpr h_v, by decide⟩, trivial, trivial⟩ rfl
example (x : α) : let mem : Mem α := [⟨true, List.replicate 4 (.f x)⟩]
    Init mem (0, 0) 4 :=
  .replicate (by decide)

theorem C56_any_vec4_eq_all {mem : Mem α} {vP : Ptr} (h_v : Init mem vP 4) :
    Safe mem [] .bool (C.glm_vec4_eq_all.run mem [vP.val]) :=
  safe_entry Lib.glm_vec4_eq_all_ok [.inp vP 4] ⟨⟨initK_isF.mpr h_v, by decide⟩, trivial⟩ rfl
example (x : α) : let mem : Mem α := [⟨true, List.replicate 4 (.f x)⟩]
    Init mem (0, 0) 4 :=
  .replicate (by decide)

theorem C56_any_vec4_eqv {mem : Mem α} {aP bP : Ptr} (h_a : Init mem aP 4) (h_b : Init mem bP 4) :
    Safe mem [] .bool (C.glm_vec4_eqv.run mem [aP.val, bP.val]) :=
  safe_entry Lib.glm_vec4_eqv_ok [.inp aP 4, .inp bP 4] ⟨⟨initK_isF.mpr h_a, by decide⟩, ⟨initK_isF.mpr h_b, by decide⟩, trivial⟩ rfl
example (x : α) : let mem : Mem α := [⟨true, List.replicate 5 (.f x)⟩]
    Init mem (0, 0) 4 ∧ Init mem (0, 1) 4 :=
  ⟨.replicate (by decide), .replicate (by decide)⟩

theorem C56_any_vec4_eqv_eps {mem : Mem α} {aP bP : Ptr} (h_a : Init mem aP 4) (h_b : Init mem bP 4) :
    Safe mem [] .bool (C.glm_vec4_eqv_eps.run mem [aP.val, bP.val]) :=
  safe_entry Lib.glm_vec4_eqv_eps_ok [.inp aP 4, .inp bP 4] ⟨⟨initK_isF.mpr h_a, by decide⟩, ⟨initK_isF.mpr h_b, by decide⟩, trivial⟩ rfl
example (x : α) : let mem : Mem α := [⟨true, List.replicate 5 (.f x)⟩]
    Init mem (0, 0) 4 ∧ Init mem (0, 1) 4 :=
  ⟨.replicate (by decide), .replicate (by decide)⟩

theorem C56_any_vec4_max {mem : Mem α} {vP : Ptr} (h_v : Init mem vP 4) :
    Safe mem [] .float (C.glm_vec4_max.run mem [vP.val]) :=
  safe_entry Lib.glm_vec4_max_ok [.inp vP 4] ⟨⟨initK_isF.mpr h_v, by decide⟩, trivial⟩ rfl
example (x : α) : let mem : Mem α := [⟨true, List.replicate 4 (.f x)⟩]
    Init mem (0, 0) 4 :=
  .replicate (by decide)

theorem C56_any_vec4_min {mem : Mem α} {vP : Ptr} (h_v : Init mem vP 4) :
    Safe mem [] .float (C.glm_vec4_min.run mem [vP.val]) :=
  safe_entry Lib.glm_vec4_min_ok [.inp vP 4] ⟨⟨initK_isF.mpr h_v, by decide⟩, trivial⟩ rfl
example (x : α) : let mem : Mem α := [⟨true, List.replicate 4 (.f x)⟩]
    Init mem (0, 0) 4 :=
  .replicate (by decide)

theorem C56_any_vec4_isnan {mem : Mem α} {vP : Ptr} (h_v : Init mem vP 4) :
    Safe mem [] .bool (C.glm_vec4_isnan.run mem [vP.val]) :=
  safe_entry Lib.glm_vec4_isnan_ok [.inp vP 4] ⟨⟨initK_isF.mpr h_v, by decide⟩, trivial⟩ rfl
example (x : α) : let mem : Mem α := [⟨true, List.replicate 4 (.f x)⟩]
    Init mem (0, 0) 4 :=
  .replicate (by decide)

theorem C56_any_vec4_isinf {mem : Mem α} {vP : Ptr} (h_v : Init mem vP 4) :
    Safe mem [] .bool (C.glm_vec4_isinf.run mem [vP.val]) :=
  safe_entry Lib.glm_vec4_isinf_ok [.inp vP 4] ⟨⟨initK_isF.mpr h_v, by decide⟩, trivial⟩ rfl
example (x : α) : let mem : Mem α := [⟨true, List.replicate 4 (.f x)⟩]
    Init mem (0, 0) 4 :=
  .replicate (by decide)

theorem C56_any_vec4_isvalid {mem : Mem α} {vP : Ptr} (h_v : Init mem vP 4) :
    Safe mem [] .bool (C.glm_vec4_isvalid.run mem [vP.val]) :=
  safe_entry Lib.glm_vec4_isvalid_ok [.inp vP 4] ⟨⟨initK_isF.mpr h_v, by decide⟩, trivial⟩ rfl
example (x : α) : let mem : Mem α := [⟨true, List.replicate 4 (.f x)⟩]
    Init mem (0, 0) 4 :=
  .replicate (by decide)

theorem C56_any_vec4_sign {mem : Mem α} {vP destP : Ptr} (h_v : Init mem vP 4) (r_dest : Room mem destP 4) :
    Safe mem [(destP, 4)] .void (C.glm_vec4_sign.run mem [vP.val, destP.val]) :=
  safe_entry Lib.glm_vec4_sign_ok [.inp vP 4, .out destP 4] ⟨⟨initK_isF.mpr h_v, by decide⟩, ⟨r_dest, by decide⟩, trivial⟩ rfl
example (x : α) : let mem : Mem α := [⟨true, List.replicate 5 (.f x)⟩]
    Init mem (0, 0) 4 ∧ Room mem (0, 1) 4 :=
  ⟨.replicate (by decide), .replicate (by decide)⟩

theorem C56_any_vec4_abs {mem : Mem α} {vP destP : Ptr} (h_v : Init mem vP 4) (r_dest : Room mem destP 4) :
    Safe mem [(destP, 4)] .void (C.glm_vec4_abs.run mem [vP.val, destP.val]) :=
  safe_entry Lib.glm_vec4_abs_ok [.inp vP 4, .out destP 4] ⟨⟨initK_isF.mpr h_v, by decide⟩, ⟨r_dest, by decide⟩, trivial⟩ rfl
example (x : α) : let mem : Mem α := [⟨true, List.replicate 5 (.f x)⟩]
    Init mem (0, 0) 4 ∧ Room mem (0, 1) 4 :=
  ⟨.replicate (by decide), .replicate (by decide)⟩

theorem C56_any_vec4_fract {mem : Mem α} {vP destP : Ptr} (h_v : Init mem vP 4) (r_dest : Room mem destP 4) :
    Safe mem [(destP, 4)] .void (C.glm_vec4_fract.run mem [vP.val, destP.val]) :=
  safe_entry Lib.glm_vec4_fract_ok [.inp vP 4, .out destP 4] ⟨⟨initK_isF.mpr h_v, by decide⟩, ⟨r_dest, by decide⟩, trivial⟩ rfl
example (x : α) : let mem : Mem α := [⟨true, List.replicate 5 (.f x)⟩]
    Init mem (0, 0) 4 ∧ Room mem (0, 1) 4 :=
  ⟨.replicate (by decide), .replicate (by decide)⟩

theorem C56_any_vec4_floor {mem : Mem α} {vP destP : Ptr} (h_v : Init mem vP 4) (r_dest : Room mem destP 4) :
    Safe mem [(destP, 4)] .void (C.glm_vec4_floor.run mem [vP.val, destP.val]) :=
  safe_entry Lib.glm_vec4_floor_ok [.inp vP 4, .out destP 4] ⟨⟨initK_isF.mpr h_v, by decide⟩, ⟨r_dest, by decide⟩, trivial⟩ rfl
example (x : α) : let mem : Mem α := [⟨true, List.replicate 5 (.f x)⟩]
    Init mem (0, 0) 4 ∧ Room mem (0, 1) 4 :=
  ⟨.replicate (by decide), .replicate (by decide)⟩

theorem C56_any_vec4_mods {mem : Mem α} {vP destP : Ptr} (s : α) (h_v : Init mem vP 4) (r_dest : Room mem destP 4) :
    Safe mem [(destP, 4)] .void (C.glm_vec4_mods.run mem [vP.val, .f s, destP.val]) :=
  safe_entry Lib.glm_vec4_mods_ok [.inp vP 4, .f s, .out destP 4] ⟨⟨initK_isF.mpr h_v, by decide⟩, trivial, ⟨r_dest, by decide⟩, trivial⟩ rfl
example (x : α) : let mem : Mem α := [⟨true, List.replicate 5 (.f x)⟩]
    Init mem (0, 0) 4 ∧ Room mem (0, 1) 4 :=
  ⟨.replicate (by decide), .replicate (by decide)⟩

theorem C56_any_vec4_steps {mem : Mem α} {xP destP : Ptr} (edge : α) (h_x : Init mem xP 4) (r_dest : Room mem destP 4) :
    Safe mem [(destP, 4)] .void (C.glm_vec4_steps.run mem [.f edge, xP.val, destP.val]) :=
  safe_entry Lib.glm_vec4_steps_ok [.f edge, .inp xP 4, .out destP 4] ⟨trivial, ⟨initK_isF.mpr h_x, by decide⟩, ⟨r_dest, by decide⟩, trivial⟩ rfl
example (x : α) : let mem : Mem α := [⟨true, List.replicate 5 (.f x)⟩]
    Init mem (0, 0) 4 ∧ Room mem (0, 1) 4 :=
  ⟨.replicate (by decide), .replicate (by decide)⟩

theorem C56_any_vec4_stepr {mem : Mem α} {edgeP destP : Ptr} (x : α) (h_edge : Init mem edgeP 4) (r_dest : Room mem destP 4) :
    Safe mem [(destP, 4)] .void (C.glm_vec4_stepr.run mem [edgeP.val, .f x, destP.val]) :=
  safe_entry Lib.glm_vec4_stepr_ok [.inp edgeP 4, .f x, .out destP 4] ⟨⟨initK_isF.mpr h_edge, by decide⟩, trivial, ⟨r_dest, by decide⟩, trivial⟩ rfl
example (x : α) : let mem : Mem α := [⟨true, List.replicate 5 (.f x)⟩]
    Init mem (0, 0) 4 ∧ Room mem (0, 1) 4 :=
  ⟨.replicate (by decide), .replicate (by decide)⟩

theorem C56_any_vec4_hadd {mem : Mem α} {vP : Ptr} (h_v : Init mem vP 4) :
    Safe mem [] .float (C.glm_vec4_hadd.run mem [vP.val]) :=
  safe_entry Lib.glm_vec4_hadd_ok [.inp vP 4] ⟨⟨initK_isF.mpr h_v, by decide⟩, trivial⟩ rfl
example (x : α) : let mem : Mem α := [⟨true, List.replicate 4 (.f x)⟩]
    Init mem (0, 0) 4 :=
  .replicate (by decide)

theorem C56_any_vec4_sqrt {mem : Mem α} {vP destP : Ptr} (h_v : Init mem vP 4) (r_dest : Room mem destP 4) :
    Safe mem [(destP, 4)] .void (C.glm_vec4_sqrt.run mem [vP.val, destP.val]) :=
  safe_entry Lib.glm_vec4_sqrt_ok [.inp vP 4, .out destP 4] ⟨⟨initK_isF.mpr h_v, by decide⟩, ⟨r_dest, by decide⟩, trivial⟩ rfl
example (x : α) : let mem : Mem α := [⟨true, List.replicate 5 (.f x)⟩]
    Init mem (0, 0) 4 ∧ Room mem (0, 1) 4 :=
  ⟨.replicate (by decide), .replicate (by decide)⟩

/-! ## include/cglm/vec4.h -/

theorem C56_any_vec4 {mem : Mem α} {v3P destP : Ptr} (last : α) (h_v3 : Init mem v3P 3) (r_dest : Room mem destP 4) :
    Safe mem [(destP, 4)] .void (C.glm_vec4.run mem [v3P.val, .f last, destP.val]) :=
  safe_entry Lib.glm_vec4_ok [.inp v3P 3, .f last, .out destP 4] ⟨⟨initK_isF.mpr h_v3, by decide⟩, trivial, ⟨r_dest, by decide⟩, trivial⟩ rfl
example (x : α) : let mem : Mem α := [⟨true, List.replicate 5 (.f x)⟩]
    Init mem (0, 0) 3 ∧ Room mem (0, 1) 4 :=
  ⟨.replicate (by decide), .replicate (by decide)⟩

theorem C56_any_vec4_copy3 {mem : Mem α} {aP destP : Ptr} (h_a : Init mem aP 4) (r_dest : Room mem destP 3) :
    Safe mem [(destP, 3)] .void (C.glm_vec4_copy3.run mem [aP.val, destP.val]) :=
  safe_entry Lib.glm_vec4_copy3_ok [.inp aP 4, .out destP 3] ⟨⟨initK_isF.mpr h_a, by decide⟩, ⟨r_dest, by decide⟩, trivial⟩ rfl
example (x : α) : let mem : Mem α := [⟨true, List.replicate 4 (.f x)⟩]
    Init mem (0, 0) 4 ∧ Room mem (0, 1) 3 :=
  ⟨.replicate (by decide), .replicate (by decide)⟩

theorem C56_any_vec4_copy {mem : Mem α} {vP destP : Ptr} (h_v : Init mem vP 4) (r_dest : Room mem destP 4) :
    Safe mem [(destP, 4)] .void (C.glm_vec4_copy.run mem [vP.val, destP.val]) :=
  safe_entry Lib.glm_vec4_copy_ok [.inp vP 4, .out destP 4] ⟨⟨initK_isF.mpr h_v, by decide⟩, ⟨r_dest, by decide⟩, trivial⟩ rfl
example (x : α) : let mem : Mem α := [⟨true, List.replicate 5 (.f x)⟩]
    Init mem (0, 0) 4 ∧ Room mem (0, 1) 4 :=
  ⟨.replicate (by decide), .replicate (by decide)⟩

theorem C56_any_vec4_ucopy {mem : Mem α} {vP destP : Ptr} (h_v : Init mem vP 4) (r_dest : Room mem destP 4) :
    Safe mem [(destP, 4)] .void (C.glm_vec4_ucopy.run mem [vP.val, destP.val]) :=
  safe_entry Lib.glm_vec4_ucopy_ok [.inp vP 4, .out destP 4] ⟨⟨initK_isF.mpr h_v, by decide⟩, ⟨r_dest, by decide⟩, trivial⟩ rfl
example (x : α) : let mem : Mem α := [⟨true, List.replicate 5 (.f x)⟩]
    Init mem (0, 0) 4 ∧ Room mem (0, 1) 4 :=
  ⟨.replicate (by decide), .replicate (by decide)⟩

theorem C56_any_vec4_zero {mem : Mem α} {vP : Ptr} (r_v : Room mem vP 4) :
    Safe mem [(vP, 4)] .void (C.glm_vec4_zero.run mem [vP.val]) :=
  safe_entry Lib.glm_vec4_zero_ok [.out vP 4] ⟨⟨r_v, by decide⟩, trivial⟩ rfl
example (x : α) : let mem : Mem α := [⟨true, List.replicate 4 (.f x)⟩]
    Room mem (0, 0) 4 :=
  .replicate (by decide)

theorem C56_any_vec4_one {mem : Mem α} {vP : Ptr} (r_v : Room mem vP 4) :
    Safe mem [(vP, 4)] .void (C.glm_vec4_one.run mem [vP.val]) :=
  safe_entry Lib.glm_vec4_one_ok [.out vP 4] ⟨⟨r_v, by decide⟩, trivial⟩ rfl
example (x : α) : let mem : Mem α := [⟨true, List.replicate 4 (.f x)⟩]
    Room mem (0, 0) 4 :=
  .replicate (by decide)

theorem C56_any_vec4_dot {mem : Mem α} {aP bP : Ptr} (h_a : Init mem aP 4) (h_b : Init mem bP 4) :
    Safe mem [] .float (C.glm_vec4_dot.run mem [aP.val, bP.val]) :=
  safe_entry Lib.glm_vec4_dot_ok [.inp aP 4, .inp bP 4] ⟨⟨initK_isF.mpr h_a, by decide⟩, ⟨initK_isF.mpr h_b, by decide⟩, trivial⟩ rfl
example (x : α) : let mem : Mem α := [⟨true, List.replicate 5 (.f x)⟩]
    Init mem (0, 0) 4 ∧ Init mem (0, 1) 4 :=
  ⟨.replicate (by decide), .replicate (by decide)⟩

theorem C56_any_vec4_norm2 {mem : Mem α} {vP : Ptr} (h_v : Init mem vP 4) :
    Safe mem [] .float (C.glm_vec4_norm2.run mem [vP.val]) :=
  safe_entry Lib.glm_vec4_norm2_ok [.inp vP 4] ⟨⟨initK_isF.mpr h_v, by decide⟩, trivial⟩ rfl
example (x : α) : let mem : Mem α := [⟨true, List.replicate 4 (.f x)⟩]
    Init mem (0, 0) 4 :=
  .replicate (by decide)

theorem C56_any_vec4_norm {mem : Mem α} {vP : Ptr} (h_v : Init mem vP 4) :
    Safe mem [] .float (C.glm_vec4_norm.run mem [vP.val]) :=
  safe_entry Lib.glm_vec4_norm_ok [.inp vP 4] ⟨⟨initK_isF.mpr h_v, by decide⟩, trivial⟩ rfl
example (x : α) : let mem : Mem α := [⟨true, List.replicate 4 (.f x)⟩]
    Init mem (0, 0) 4 :=
  .replicate (by decide)

theorem C56_any_vec4_norm_one {mem : Mem α} {vP : Ptr} (h_v : Init mem vP 4) :
    Safe mem [] .float (C.glm_vec4_norm_one.run mem [vP.val]) :=
  safe_entry Lib.glm_vec4_norm_one_ok [.inp vP 4] ⟨⟨initK_isF.mpr h_v, by decide⟩, trivial⟩ rfl
example (x : α) : let mem : Mem α := [⟨true, List.replicate 4 (.f x)⟩]
    Init mem (0, 0) 4 :=
  .replicate (by decide)

theorem C56_any_vec4_norm_inf {mem : Mem α} {vP : Ptr} (h_v : Init mem vP 4) :
    Safe mem [] .float (C.glm_vec4_norm_inf.run mem [vP.val]) :=
  safe_entry Lib.glm_vec4_norm_inf_ok [.inp vP 4] ⟨⟨initK_isF.mpr h_v, by decide⟩, trivial⟩ rfl
example (x : α) : let mem : Mem α := [⟨true, List.replicate 4 (.f x)⟩]
    Init mem (0, 0) 4 :=
  .replicate (by decide)

theorem C56_any_vec4_add {mem : Mem α} {aP bP destP : Ptr} (h_a : Init mem aP 4) (h_b : Init mem bP 4) (r_dest : Room mem destP 4) :
    Safe mem [(destP, 4)] .void (C.glm_vec4_add.run mem [aP.val, bP.val, destP.val]) :=
  safe_entry Lib.glm_vec4_add_ok [.inp aP 4, .inp bP 4, .out destP 4] ⟨⟨initK_isF.mpr h_a, by decide⟩, ⟨initK_isF.mpr h_b, by decide⟩, ⟨r_dest, by decide⟩, trivial⟩ rfl
example (x : α) : let mem : Mem α := [⟨true, List.replicate 6 (.f x)⟩]
    Init mem (0, 0) 4 ∧ Init mem (0, 1) 4 ∧ Room mem (0, 2) 4 :=
  ⟨.replicate (by decide), .replicate (by decide), .replicate (by decide)⟩

theorem C56_any_vec4_adds {mem : Mem α} {vP destP : Ptr} (s : α) (h_v : Init mem vP 4) (r_dest : Room mem destP 4) :
    Safe mem [(destP, 4)] .void (C.glm_vec4_adds.run mem [vP.val, .f s, destP.val]) :=
  safe_entry Lib.glm_vec4_adds_ok [.inp vP 4, .f s, .out destP 4] ⟨⟨initK_isF.mpr h_v, by decide⟩, trivial, ⟨r_dest, by decide⟩, trivial⟩ rfl
example (x : α) : let mem : Mem α := [⟨true, List.replicate 5 (.f x)⟩]
    Init mem (0, 0) 4 ∧ Room mem (0, 1) 4 :=
  ⟨.replicate (by decide), .replicate (by decide)⟩

theorem C56_any_vec4_sub {mem : Mem α} {aP bP destP : Ptr} (h_a : Init mem aP 4) (h_b : Init mem bP 4) (r_dest : Room mem destP 4) :
    Safe mem [(destP, 4)] .void (C.glm_vec4_sub.run mem [aP.val, bP.val, destP.val]) :=
  safe_entry Lib.glm_vec4_sub_ok [.inp aP 4, .inp bP 4, .out destP 4] ⟨⟨initK_isF.mpr h_a, by decide⟩, ⟨initK_isF.mpr h_b, by decide⟩, ⟨r_dest, by decide⟩, trivial⟩ rfl
example (x : α) : let mem : Mem α := [⟨true, List.replicate 6 (.f x)⟩]
    Init mem (0, 0) 4 ∧ Init mem (0, 1) 4 ∧ Room mem (0, 2) 4 :=
  ⟨.replicate (by decide), .replicate (by decide), .replicate (by decide)⟩

theorem C56_any_vec4_subs {mem : Mem α} {vP destP : Ptr} (s : α) (h_v : Init mem vP 4) (r_dest : Room mem destP 4) :
    Safe mem [(destP, 4)] .void (C.glm_vec4_subs.run mem [vP.val, .f s, destP.val]) :=
  safe_entry Lib.glm_vec4_subs_ok [.inp vP 4, .f s, .out destP 4] ⟨⟨initK_isF.mpr h_v, by decide⟩, trivial, ⟨r_dest, by decide⟩, trivial⟩ rfl
example (x : α) : let mem : Mem α := [⟨true, List.replicate 5 (.f x)⟩]
    Init mem (0, 0) 4 ∧ Room mem (0, 1) 4 :=
  ⟨.replicate (by decide), .replicate (by decide)⟩

theorem C56_any_vec4_mul {mem : Mem α} {aP bP destP : Ptr} (h_a : Init mem aP 4) (h_b : Init mem bP 4) (r_dest : Room mem destP 4) :
    Safe mem [(destP, 4)] .void (C.glm_vec4_mul.run mem [aP.val, bP.val, destP.val]) :=
  safe_entry Lib.glm_vec4_mul_ok [.inp aP 4, .inp bP 4, .out destP 4] ⟨⟨initK_isF.mpr h_a, by decide⟩, ⟨initK_isF.mpr h_b, by decide⟩, ⟨r_dest, by decide⟩, trivial⟩ rfl
example (x : α) : let mem : Mem α := [⟨true, List.replicate 6 (.f x)⟩]
    Init mem (0, 0) 4 ∧ Init mem (0, 1) 4 ∧ Room mem (0, 2) 4 :=
  ⟨.replicate (by decide), .replicate (by decide), .replicate (by decide)⟩

theorem C56_any_vec4_scale {mem : Mem α} {vP destP : Ptr} (s : α) (h_v : Init mem vP 4) (r_dest : Room mem destP 4) :
    Safe mem [(destP, 4)] .void (C.glm_vec4_scale.run mem [vP.val, .f s, destP.val]) :=
  safe_entry Lib.glm_vec4_scale_ok [.inp vP 4, .f s, .out destP 4] ⟨⟨initK_isF.mpr h_v, by decide⟩, trivial, ⟨r_dest, by decide⟩, trivial⟩ rfl
example (x : α) : let mem : Mem α := [⟨true, List.replicate 5 (.f x)⟩]
    Init mem (0, 0) 4 ∧ Room mem (0, 1) 4 :=
  ⟨.replicate (by decide), .replicate (by decide)⟩

theorem C56_any_vec4_scale_as {mem : Mem α} {vP destP : Ptr} (s : α) (h_v : Init mem vP 4) (r_dest : Room mem destP 4) :
    Safe mem [(destP, 4)] .void (C.glm_vec4_scale_as.run mem [vP.val, .f s, destP.val]) :=
  safe_entry Lib.glm_vec4_scale_as_ok [.inp vP 4, .f s, .out destP 4] ⟨⟨initK_isF.mpr h_v, by decide⟩, trivial, ⟨r_dest, by decide⟩, trivial⟩ rfl
example (x : α) : let mem : Mem α := [⟨true, List.replicate 5 (.f x)⟩]
    Init mem (0, 0) 4 ∧ Room mem (0, 1) 4 :=
  ⟨.replicate (by decide), .replicate (by decide)⟩

theorem C56_any_vec4_div {mem : Mem α} {aP bP destP : Ptr} (h_a : Init mem aP 4) (h_b : Init mem bP 4) (r_dest : Room mem destP 4) :
    Safe mem [(destP, 4)] .void (C.glm_vec4_div.run mem [aP.val, bP.val, destP.val]) :=
  safe_entry Lib.glm_vec4_div_ok [.inp aP 4, .inp bP 4, .out destP 4] ⟨⟨initK_isF.mpr h_a, by decide⟩, ⟨initK_isF.mpr h_b, by decide⟩, ⟨r_dest, by decide⟩, trivial⟩ rfl
example (x : α) : let mem : Mem α := [⟨true, List.replicate 6 (.f x)⟩]
    Init mem (0, 0) 4 ∧ Init mem (0, 1) 4 ∧ Room mem (0, 2) 4 :=
  ⟨.replicate (by decide), .replicate (by decide), .replicate (by decide)⟩

theorem C56_any_vec4_divs {mem : Mem α} {vP destP : Ptr} (s : α) (h_v : Init mem vP 4) (r_dest : Room mem destP 4) :
    Safe mem [(destP, 4)] .void (C.glm_vec4_divs.run mem [vP.val, .f s, destP.val]) :=
  safe_entry Lib.glm_vec4_divs_ok [.inp vP 4, .f s, .out destP 4] ⟨⟨initK_isF.mpr h_v, by decide⟩, trivial, ⟨r_dest, by decide⟩, trivial⟩ rfl
example (x : α) : let mem : Mem α := [⟨true, List.replicate 5 (.f x)⟩]
    Init mem (0, 0) 4 ∧ Room mem (0, 1) 4 :=
  ⟨.replicate (by decide), .replicate (by decide)⟩

theorem C56_any_vec4_addadd {mem : Mem α} {aP bP destP : Ptr} (h_a : Init mem aP 4) (h_b : Init mem bP 4) (h_dest : Init mem destP 4) (r_dest : Room mem destP 4) :
    Safe mem [(destP, 4)] .void (C.glm_vec4_addadd.run mem [aP.val, bP.val, destP.val]) :=
  safe_entry Lib.glm_vec4_addadd_ok [.inp aP 4, .inp bP 4, .io destP 4] ⟨⟨initK_isF.mpr h_a, by decide⟩, ⟨initK_isF.mpr h_b, by decide⟩, ⟨initK_isF.mpr h_dest, r_dest, by decide⟩, trivial⟩ rfl
example (x : α) : let mem : Mem α := [⟨true, List.replicate 6 (.f x)⟩]
    Init mem (0, 0) 4 ∧ Init mem (0, 1) 4 ∧ Init mem (0, 2) 4 ∧ Room mem (0, 2) 4 :=
  ⟨.replicate (by decide), .replicate (by decide), .replicate (by decide), .replicate (by decide)⟩

theorem C56_any_vec4_subadd {mem : Mem α} {aP bP destP : Ptr} (h_a : Init mem aP 4) (h_b : Init mem bP 4) (h_dest : Init mem destP 4) (r_dest : Room mem destP 4) :
    Safe mem [(destP, 4)] .void (C.glm_vec4_subadd.run mem [aP.val, bP.val, destP.val]) :=
  safe_entry Lib.glm_vec4_subadd_ok [.inp aP 4, .inp bP 4, .io destP 4] ⟨⟨initK_isF.mpr h_a, by decide⟩, ⟨initK_isF.mpr h_b, by decide⟩, ⟨initK_isF.mpr h_dest, r_dest, by decide⟩, trivial⟩ rfl
example (x : α) : let mem : Mem α := [⟨true, List.replicate 6 (.f x)⟩]
    Init mem (0, 0) 4 ∧ Init mem (0, 1) 4 ∧ Init mem (0, 2) 4 ∧ Room mem (0, 2) 4 :=
  ⟨.replicate (by decide), .replicate (by decide), .replicate (by decide), .replicate (by decide)⟩

theorem C56_any_vec4_muladd {mem : Mem α} {aP bP destP : Ptr} (h_a : Init mem aP 4) (h_b : Init mem bP 4) (h_dest : Init mem destP 4) (r_dest : Room mem destP 4) :
    Safe mem [(destP, 4)] .void (C.glm_vec4_muladd.run mem [aP.val, bP.val, destP.val]) :=
  safe_entry Lib.glm_vec4_muladd_ok [.inp aP 4, .inp bP 4, .io destP 4] ⟨⟨initK_isF.mpr h_a, by decide⟩, ⟨initK_isF.mpr h_b, by decide⟩, ⟨initK_isF.mpr h_dest, r_dest, by decide⟩, trivial⟩ rfl
example (x : α) : let mem : Mem α := [⟨true, List.replicate 6 (.f x)⟩]
    Init mem (0, 0) 4 ∧ Init mem (0, 1) 4 ∧ Init mem (0, 2) 4 ∧ Room mem (0, 2) 4 :=
  ⟨.replicate (by decide), .replicate (by decide), .replicate (by decide), .replicate (by decide)⟩

theorem C56_any_vec4_muladds {mem : Mem α} {aP destP : Ptr} (s : α) (h_a : Init mem aP 4) (h_dest : Init mem destP 4) (r_dest : Room mem destP 4) :
    Safe mem [(destP, 4)] .void (C.glm_vec4_muladds.run mem [aP.val, .f s, destP.val]) :=
  safe_entry Lib.glm_vec4_muladds_ok [.inp aP 4, .f s, .io destP 4] ⟨⟨initK_isF.mpr h_a, by decide⟩, trivial, ⟨initK_isF.mpr h_dest, r_dest, by decide⟩, trivial⟩ rfl
example (x : α) : let mem : Mem α := [⟨true, List.replicate 5 (.f x)⟩]
    Init mem (0, 0) 4 ∧ Init mem (0, 1) 4 ∧ Room mem (0, 1) 4 :=
  ⟨.replicate (by decide), .replicate (by decide), .replicate (by decide)⟩

theorem C56_any_vec4_maxadd {mem : Mem α} {aP bP destP : Ptr} (h_a : Init mem aP 4) (h_b : Init mem bP 4) (h_dest : Init mem destP 4) (r_dest : Room mem destP 4) :
    Safe mem [(destP, 4)] .void (C.glm_vec4_maxadd.run mem [aP.val, bP.val, destP.val]) :=
  safe_entry Lib.glm_vec4_maxadd_ok [.inp aP 4, .inp bP 4, .io destP 4] ⟨⟨initK_isF.mpr h_a, by decide⟩, ⟨initK_isF.mpr h_b, by decide⟩, ⟨initK_isF.mpr h_dest, r_dest, by decide⟩, trivial⟩ rfl
example (x : α) : let mem : Mem α := [⟨true, List.replicate 6 (.f x)⟩]
    Init mem (0, 0) 4 ∧ Init mem (0, 1) 4 ∧ Init mem (0, 2) 4 ∧ Room mem (0, 2) 4 :=
  ⟨.replicate (by decide), .replicate (by decide), .replicate (by decide), .replicate (by decide)⟩

theorem C56_any_vec4_minadd {mem : Mem α} {aP bP destP : Ptr} (h_a : Init mem aP 4) (h_b : Init mem bP 4) (h_dest : Init mem destP 4) (r_dest : Room mem destP 4) :
    Safe mem [(destP, 4)] .void (C.glm_vec4_minadd.run mem [aP.val, bP.val, destP.val]) :=
  safe_entry Lib.glm_vec4_minadd_ok [.inp aP 4, .inp bP 4, .io destP 4] ⟨⟨initK_isF.mpr h_a, by decide⟩, ⟨initK_isF.mpr h_b, by decide⟩, ⟨initK_isF.mpr h_dest, r_dest, by decide⟩, trivial⟩ rfl
example (x : α) : let mem : Mem α := [⟨true, List.replicate 6 (.f x)⟩]
    Init mem (0, 0) 4 ∧ Init mem (0, 1) 4 ∧ Init mem (0, 2) 4 ∧ Room mem (0, 2) 4 :=
  ⟨.replicate (by decide), .replicate (by decide), .replicate (by decide), .replicate (by decide)⟩

theorem C56_any_vec4_subsub {mem : Mem α} {aP bP destP : Ptr} (h_a : Init mem aP 4) (h_b : Init mem bP 4) (h_dest : Init mem destP 4) (r_dest : Room mem destP 4) :
    Safe mem [(destP, 4)] .void (C.glm_vec4_subsub.run mem [aP.val, bP.val, destP.val]) :=
  safe_entry Lib.glm_vec4_subsub_ok [.inp aP 4, .inp bP 4, .io destP 4] ⟨⟨initK_isF.mpr h_a, by decide⟩, ⟨initK_isF.mpr h_b, by decide⟩, ⟨initK_isF.mpr h_dest, r_dest, by decide⟩, trivial⟩ rfl
example (x : α) : let mem : Mem α := [⟨true, List.replicate 6 (.f x)⟩]
    Init mem (0, 0) 4 ∧ Init mem (0, 1) 4 ∧ Init mem (0, 2) 4 ∧ Room mem (0, 2) 4 :=
  ⟨.replicate (by decide), .replicate (by decide), .replicate (by decide), .replicate (by decide)⟩

theorem C56_any_vec4_addsub {mem : Mem α} {aP bP destP : Ptr} (h_a : Init mem aP 4) (h_b : Init mem bP 4) (h_dest : Init mem destP 4) (r_dest : Room mem destP 4) :
    Safe mem [(destP, 4)] .void (C.glm_vec4_addsub.run mem [aP.val, bP.val, destP.val]) :=
  safe_entry Lib.glm_vec4_addsub_ok [.inp aP 4, .inp bP 4, .io destP 4] ⟨⟨initK_isF.mpr h_a, by decide⟩, ⟨initK_isF.mpr h_b, by decide⟩, ⟨initK_isF.mpr h_dest, r_dest, by decide⟩, trivial⟩ rfl
example (x : α) : let mem : Mem α := [⟨true, List.replicate 6 (.f x)⟩]
    Init mem (0, 0) 4 ∧ Init mem (0, 1) 4 ∧ Init mem (0, 2) 4 ∧ Room mem (0, 2) 4 :=
  ⟨.replicate (by decide), .replicate (by decide), .replicate (by decide), .replicate (by decide)⟩

theorem C56_any_vec4_mulsub {mem : Mem α} {aP bP destP : Ptr} (h_a : Init mem aP 4) (h_b : Init mem bP 4) (h_dest : Init mem destP 4) (r_dest : Room mem destP 4) :
    Safe mem [(destP, 4)] .void (C.glm_vec4_mulsub.run mem [aP.val, bP.val, destP.val]) :=
  safe_entry Lib.glm_vec4_mulsub_ok [.inp aP 4, .inp bP 4, .io destP 4] ⟨⟨initK_isF.mpr h_a, by decide⟩, ⟨initK_isF.mpr h_b, by decide⟩, ⟨initK_isF.mpr h_dest, r_dest, by decide⟩, trivial⟩ rfl
example (x : α) : let mem : Mem α := [⟨true, List.replicate 6 (.f x)⟩]
    Init mem (0, 0) 4 ∧ Init mem (0, 1) 4 ∧ Init mem (0, 2) 4 ∧ Room mem (0, 2) 4 :=
  ⟨.replicate (by decide), .replicate (by decide), .replicate (by decide), .replicate (by decide)⟩

theorem C56_any_vec4_mulsubs {mem : Mem α} {aP destP : Ptr} (s : α) (h_a : Init mem aP 4) (h_dest : Init mem destP 4) (r_dest : Room mem destP 4) :
    Safe mem [(destP, 4)] .void (C.glm_vec4_mulsubs.run mem [aP.val, .f s, destP.val]) :=
  safe_entry Lib.glm_vec4_mulsubs_ok [.inp aP 4, .f s, .io destP 4] ⟨⟨initK_isF.mpr h_a, by decide⟩, trivial, ⟨initK_isF.mpr h_dest, r_dest, by decide⟩, trivial⟩ rfl
example (x : α) : let mem : Mem α := [⟨true, List.replicate 5 (.f x)⟩]
    Init mem (0, 0) 4 ∧ Init mem (0, 1) 4 ∧ Room mem (0, 1) 4 :=
  ⟨.replicate (by decide), .replicate (by decide), .replicate (by decide)⟩

theorem C56_any_vec4_maxsub {mem : Mem α} {aP bP destP : Ptr} (h_a : Init mem aP 4) (h_b : Init mem bP 4) (h_dest : Init mem destP 4) (r_dest : Room mem destP 4) :
    Safe mem [(destP, 4)] .void (C.glm_vec4_maxsub.run mem [aP.val, bP.val, destP.val]) :=
  safe_entry Lib.glm_vec4_maxsub_ok [.inp aP 4, .inp bP 4, .io destP 4] ⟨⟨initK_isF.mpr h_a, by decide⟩, ⟨initK_isF.mpr h_b, by decide⟩, ⟨initK_isF.mpr h_dest, r_dest, by decide⟩, trivial⟩ rfl
example (x : α) : let mem : Mem α := [⟨true, List.replicate 6 (.f x)⟩]
    Init mem (0, 0) 4 ∧ Init mem (0, 1) 4 ∧ Init mem (0, 2) 4 ∧ Room mem (0, 2) 4 :=
  ⟨.replicate (by decide), .replicate (by decide), .replicate (by decide), .replicate (by decide)⟩

theorem C56_any_vec4_minsub {mem : Mem α} {aP bP destP : Ptr} (h_a : Init mem aP 4) (h_b : Init mem bP 4) (h_dest : Init mem destP 4) (r_dest : Room mem destP 4) :
    Safe mem [(destP, 4)] .void (C.glm_vec4_minsub.run mem [aP.val, bP.val, destP.val]) :=
  safe_entry Lib.glm_vec4_minsub_ok [.inp aP 4, .inp bP 4, .io destP 4] ⟨⟨initK_isF.mpr h_a, by decide⟩, ⟨initK_isF.mpr h_b, by decide⟩, ⟨initK_isF.mpr h_dest, r_dest, by decide⟩, trivial⟩ rfl
example (x : α) : let mem : Mem α := [⟨true, List.replicate 6 (.f x)⟩]
    Init mem (0, 0) 4 ∧ Init mem (0, 1) 4 ∧ Init mem (0, 2) 4 ∧ Room mem (0, 2) 4 :=
  ⟨.replicate (by decide), .replicate (by decide), .replicate (by decide), .replicate (by decide)⟩

theorem C56_any_vec4_negate_to {mem : Mem α} {vP destP : Ptr} (h_v : Init mem vP 4) (r_dest : Room mem destP 4) :
    Safe mem [(destP, 4)] .void (C.glm_vec4_negate_to.run mem [vP.val, destP.val]) :=
  safe_entry Lib.glm_vec4_negate_to_ok [.inp vP 4, .out destP 4] ⟨⟨initK_isF.mpr h_v, by decide⟩, ⟨r_dest, by decide⟩, trivial⟩ rfl
example (x : α) : let mem : Mem α := [⟨true, List.replicate 5 (.f x)⟩]
    Init mem (0, 0) 4 ∧ Room mem (0, 1) 4 :=
  ⟨.replicate (by decide), .replicate (by decide)⟩

theorem C56_any_vec4_negate {mem : Mem α} {vP : Ptr} (h_v : Init mem vP 4) (r_v : Room mem vP 4) :
    Safe mem [(vP, 4)] .void (C.glm_vec4_negate.run mem [vP.val]) :=
  safe_entry Lib.glm_vec4_negate_ok [.io vP 4] ⟨⟨initK_isF.mpr h_v, r_v, by decide⟩, trivial⟩ rfl
example (x : α) : let mem : Mem α := [⟨true, List.replicate 4 (.f x)⟩]
    Init mem (0, 0) 4 ∧ Room mem (0, 0) 4 :=
  ⟨.replicate (by decide), .replicate (by decide)⟩

theorem C56_any_vec4_normalize_to {mem : Mem α} {vP destP : Ptr} (h_v : Init mem vP 4) (r_dest : Room mem destP 4) :
    Safe mem [(destP, 4)] .void (C.glm_vec4_normalize_to.run mem [vP.val, destP.val]) :=
  safe_entry Lib.glm_vec4_normalize_to_ok [.inp vP 4, .out destP 4] ⟨⟨initK_isF.mpr h_v, by decide⟩, ⟨r_dest, by decide⟩, trivial⟩ rfl
example (x : α) : let mem : Mem α := [⟨true, List.replicate 5 (.f x)⟩]
    Init mem (0, 0) 4 ∧ Room mem (0, 1) 4 :=
  ⟨.replicate (by decide), .replicate (by decide)⟩

theorem C56_any_vec4_normalize {mem : Mem α} {vP : Ptr} (h_v : Init mem vP 4) (r_v : Room mem vP 4) :
    Safe mem [(vP, 4)] .void (C.glm_vec4_normalize.run mem [vP.val]) :=
  safe_entry Lib.glm_vec4_normalize_ok [.io vP 4] ⟨⟨initK_isF.mpr h_v, r_v, by decide⟩, trivial⟩ rfl
example (x : α) : let mem : Mem α := [⟨true, List.replicate 4 (.f x)⟩]
    Init mem (0, 0) 4 ∧ Room mem (0, 0) 4 :=
  ⟨.replicate (by decide), .replicate (by decide)⟩

theorem C56_any_vec4_distance {mem : Mem α} {aP bP : Ptr} (h_a : Init mem aP 4) (h_b : Init mem bP 4) :
    Safe mem [] .float (C.glm_vec4_distance.run mem [aP.val, bP.val]) :=
  safe_entry Lib.glm_vec4_distance_ok [.inp aP 4, .inp bP 4] ⟨⟨initK_isF.mpr h_a, by decide⟩, ⟨initK_isF.mpr h_b, by decide⟩, trivial⟩ rfl
example (x : α) : let mem : Mem α := [⟨true, List.replicate 5 (.f x)⟩]
    Init mem (0, 0) 4 ∧ Init mem (0, 1) 4 :=
  ⟨.replicate (by decide), .replicate (by decide)⟩

theorem C56_any_vec4_distance2 {mem : Mem α} {aP bP : Ptr} (h_a : Init mem aP 4) (h_b : Init mem bP 4) :
    Safe mem [] .float (C.glm_vec4_distance2.run mem [aP.val, bP.val]) :=
  safe_entry Lib.glm_vec4_distance2_ok [.inp aP 4, .inp bP 4] ⟨⟨initK_isF.mpr h_a, by decide⟩, ⟨initK_isF.mpr h_b, by decide⟩, trivial⟩ rfl
example (x : α) : let mem : Mem α := [⟨true, List.replicate 5 (.f x)⟩]
    Init mem (0, 0) 4 ∧ Init mem (0, 1) 4 :=
  ⟨.replicate (by decide), .replicate (by decide)⟩

theorem C56_any_vec4_maxv {mem : Mem α} {aP bP destP : Ptr} (h_a : Init mem aP 4) (h_b : Init mem bP 4) (r_dest : Room mem destP 4) :
    Safe mem [(destP, 4)] .void (C.glm_vec4_maxv.run mem [aP.val, bP.val, destP.val]) :=
  safe_entry Lib.glm_vec4_maxv_ok [.inp aP 4, .inp bP 4, .out destP 4] ⟨⟨initK_isF.mpr h_a, by decide⟩, ⟨initK_isF.mpr h_b, by decide⟩, ⟨r_dest, by decide⟩, trivial⟩ rfl
example (x : α) : let mem : Mem α := [⟨true, List.replicate 6 (.f x)⟩]
    Init mem (0, 0) 4 ∧ Init mem (0, 1) 4 ∧ Room mem (0, 2) 4 :=
  ⟨.replicate (by decide), .replicate (by decide), .replicate (by decide)⟩

theorem C56_any_vec4_minv {mem : Mem α} {aP bP destP : Ptr} (h_a : Init mem aP 4) (h_b : Init mem bP 4) (r_dest : Room mem destP 4) :
    Safe mem [(destP, 4)] .void (C.glm_vec4_minv.run mem [aP.val, bP.val, destP.val]) :=
  safe_entry Lib.glm_vec4_minv_ok [.inp aP 4, .inp bP 4, .out destP 4] ⟨⟨initK_isF.mpr h_a, by decide⟩, ⟨initK_isF.mpr h_b, by decide⟩, ⟨r_dest, by decide⟩, trivial⟩ rfl
example (x : α) : let mem : Mem α := [⟨true, List.replicate 6 (.f x)⟩]
    Init mem (0, 0) 4 ∧ Init mem (0, 1) 4 ∧ Room mem (0, 2) 4 :=
  ⟨.replicate (by decide), .replicate (by decide), .replicate (by decide)⟩

theorem C56_any_vec4_clamp {mem : Mem α} {vP : Ptr} (minVal : α) (maxVal : α) (h_v : Init mem vP 4) (r_v : Room mem vP 4) :
    Safe mem [(vP, 4)] .void (C.glm_vec4_clamp.run mem [vP.val, .f minVal, .f maxVal]) :=
  safe_entry Lib.glm_vec4_clamp_ok [.io vP 4, .f minVal, .f maxVal] ⟨⟨initK_isF.mpr h_v, r_v, by decide⟩, trivial, trivial, trivial⟩ rfl
example (x : α) : let mem : Mem α := [⟨true, List.replicate 4 (.f x)⟩]
    Init mem (0, 0) 4 ∧ Room mem (0, 0) 4 :=
  ⟨.replicate (by decide), .replicate (by decide)⟩

theorem C56_any_vec4_lerp {mem : Mem α} {frmP toP destP : Ptr} (t : α) (h_frm : Init mem frmP 4) (h_to : Init mem toP 4) (r_dest : Room mem destP 4) :
    Safe mem [(destP, 4)] .void (C.glm_vec4_lerp.run mem [frmP.val, toP.val, .f t, destP.val]) :=
  safe_entry Lib.glm_vec4_lerp_ok [.inp frmP 4, .inp toP 4, .f t, .out destP 4] ⟨⟨initK_isF.mpr h_frm, by decide⟩, ⟨initK_isF.mpr h_to, by decide⟩, trivial, ⟨r_dest, by decide⟩, trivial⟩ rfl
example (x : α) : let mem : Mem α := [⟨true, List.replicate 6 (.f x)⟩]
    Init mem (0, 0) 4 ∧ Init mem (0, 1) 4 ∧ Room mem (0, 2) 4 :=
  ⟨.replicate (by decide), .replicate (by decide), .replicate (by decide)⟩

theorem C56_any_vec4_lerpc {mem : Mem α} {frmP toP destP : Ptr} (t : α) (h_frm : Init mem frmP 4) (h_to : Init mem toP 4) (r_dest : Room mem destP 4) :
    Safe mem [(destP, 4)] .void (C.glm_vec4_lerpc.run mem [frmP.val, toP.val, .f t, destP.val]) :=
  safe_entry Lib.glm_vec4_lerpc_ok [.inp frmP 4, .inp toP 4, .f t, .out destP 4] ⟨⟨initK_isF.mpr h_frm, by decide⟩, ⟨initK_isF.mpr h_to, by decide⟩, trivial, ⟨r_dest, by decide⟩, trivial⟩ rfl
example (x : α) : let mem : Mem α := [⟨true, List.replicate 6 (.f x)⟩]
    Init mem (0, 0) 4 ∧ Init mem (0, 1) 4 ∧ Room mem (0, 2) 4 :=
  ⟨.replicate (by decide), .replicate (by decide), .replicate (by decide)⟩

theorem C56_any_vec4_mix {mem : Mem α} {frmP toP destP : Ptr} (t : α) (h_frm : Init mem frmP 4) (h_to : Init mem toP 4) (r_dest : Room mem destP 4) :
    Safe mem [(destP, 4)] .void (C.glm_vec4_mix.run mem [frmP.val, toP.val, .f t, destP.val]) :=
  safe_entry Lib.glm_vec4_mix_ok [.inp frmP 4, .inp toP 4, .f t, .out destP 4] ⟨⟨initK_isF.mpr h_frm, by decide⟩, ⟨initK_isF.mpr h_to, by decide⟩, trivial, ⟨r_dest, by decide⟩, trivial⟩ rfl
example (x : α) : let mem : Mem α := [⟨true, List.replicate 6 (.f x)⟩]
    Init mem (0, 0) 4 ∧ Init mem (0, 1) 4 ∧ Room mem (0, 2) 4 :=
  ⟨.replicate (by decide), .replicate (by decide), .replicate (by decide)⟩

theorem C56_any_vec4_mixc {mem : Mem α} {frmP toP destP : Ptr} (t : α) (h_frm : Init mem frmP 4) (h_to : Init mem toP 4) (r_dest : Room mem destP 4) :
    Safe mem [(destP, 4)] .void (C.glm_vec4_mixc.run mem [frmP.val, toP.val, .f t, destP.val]) :=
  safe_entry Lib.glm_vec4_mixc_ok [.inp frmP 4, .inp toP 4, .f t, .out destP 4] ⟨⟨initK_isF.mpr h_frm, by decide⟩, ⟨initK_isF.mpr h_to, by decide⟩, trivial, ⟨r_dest, by decide⟩, trivial⟩ rfl
example (x : α) : let mem : Mem α := [⟨true, List.replicate 6 (.f x)⟩]
    Init mem (0, 0) 4 ∧ Init mem (0, 1) 4 ∧ Room mem (0, 2) 4 :=
  ⟨.replicate (by decide), .replicate (by decide), .replicate (by decide)⟩

theorem C56_any_vec4_step {mem : Mem α} {edgeP xP destP : Ptr} (h_edge : Init mem edgeP 4) (h_x : Init mem xP 4) (r_dest : Room mem destP 4) :
    Safe mem [(destP, 4)] .void (C.glm_vec4_step.run mem [edgeP.val, xP.val, destP.val]) :=
  safe_entry Lib.glm_vec4_step_ok [.inp edgeP 4, .inp xP 4, .out destP 4] ⟨⟨initK_isF.mpr h_edge, by decide⟩, ⟨initK_isF.mpr h_x, by decide⟩, ⟨r_dest, by decide⟩, trivial⟩ rfl
example (x : α) : let mem : Mem α := [⟨true, List.replicate 6 (.f x)⟩]
    Init mem (0, 0) 4 ∧ Init mem (0, 1) 4 ∧ Room mem (0, 2) 4 :=
  ⟨.replicate (by decide), .replicate (by decide), .replicate (by decide)⟩

theorem C56_any_vec4_smoothstep_uni {mem : Mem α} {xP destP : Ptr} (edge0 : α) (edge1 : α) (h_x : Init mem xP 4) (r_dest : Room mem destP 4) :
    Safe mem [(destP, 4)] .void (C.glm_vec4_smoothstep_uni.run mem [.f edge0, .f edge1, xP.val, destP.val]) :=
  safe_entry Lib.glm_vec4_smoothstep_uni_ok [.f edge0, .f edge1, .inp xP 4, .out destP 4] ⟨trivial, trivial, ⟨initK_isF.mpr h_x, by decide⟩, ⟨r_dest, by decide⟩, trivial⟩ rfl
example (x : α) : let mem : Mem α := [⟨true, List.replicate 5 (.f x)⟩]
    Init mem (0, 0) 4 ∧ Room mem (0, 1) 4 :=
  ⟨.replicate (by decide), .replicate (by decide)⟩

theorem C56_any_vec4_smoothstep {mem : Mem α} {edge0P edge1P xP destP : Ptr} (h_edge0 : Init mem edge0P 4) (h_edge1 : Init mem edge1P 4) (h_x : Init mem xP 4) (r_dest : Room mem destP 4) :
    Safe mem [(destP, 4)] .void (C.glm_vec4_smoothstep.run mem [edge0P.val, edge1P.val, xP.val, destP.val]) :=
  safe_entry Lib.glm_vec4_smoothstep_ok [.inp edge0P 4, .inp edge1P 4, .inp xP 4, .out destP 4] ⟨⟨initK_isF.mpr h_edge0, by decide⟩, ⟨initK_isF.mpr h_edge1, by decide⟩, ⟨initK_isF.mpr h_x, by decide⟩, ⟨r_dest, by decide⟩, trivial⟩ rfl
example (x : α) : let mem : Mem α := [⟨true, List.replicate 7 (.f x)⟩]
    Init mem (0, 0) 4 ∧ Init mem (0, 1) 4 ∧ Init mem (0, 2) 4 ∧ Room mem (0, 3) 4 :=
  ⟨.replicate (by decide), .replicate (by decide), .replicate (by decide), .replicate (by decide)⟩

theorem C56_any_vec4_smoothinterp {mem : Mem α} {frmP toP destP : Ptr} (t : α) (h_frm : Init mem frmP 4) (h_to : Init mem toP 4) (r_dest : Room mem destP 4) :
    Safe mem [(destP, 4)] .void (C.glm_vec4_smoothinterp.run mem [frmP.val, toP.val, .f t, destP.val]) :=
  safe_entry Lib.glm_vec4_smoothinterp_ok [.inp frmP 4, .inp toP 4, .f t, .out destP 4] ⟨⟨initK_isF.mpr h_frm, by decide⟩, ⟨initK_isF.mpr h_to, by decide⟩, trivial, ⟨r_dest, by decide⟩, trivial⟩ rfl
example (x : α) : let mem : Mem α := [⟨true, List.replicate 6 (.f x)⟩]
    Init mem (0, 0) 4 ∧ Init mem (0, 1) 4 ∧ Room mem (0, 2) 4 :=
  ⟨.replicate (by decide), .replicate (by decide), .replicate (by decide)⟩

theorem C56_any_vec4_smoothinterpc {mem : Mem α} {frmP toP destP : Ptr} (t : α) (h_frm : Init mem frmP 4) (h_to : Init mem toP 4) (r_dest : Room mem destP 4) :
    Safe mem [(destP, 4)] .void (C.glm_vec4_smoothinterpc.run mem [frmP.val, toP.val, .f t, destP.val]) :=
  safe_entry Lib.glm_vec4_smoothinterpc_ok [.inp frmP 4, .inp toP 4, .f t, .out destP 4] ⟨⟨initK_isF.mpr h_frm, by decide⟩, ⟨initK_isF.mpr h_to, by decide⟩, trivial, ⟨r_dest, by decide⟩, trivial⟩ rfl
example (x : α) : let mem : Mem α := [⟨true, List.replicate 6 (.f x)⟩]
    Init mem (0, 0) 4 ∧ Init mem (0, 1) 4 ∧ Room mem (0, 2) 4 :=
  ⟨.replicate (by decide), .replicate (by decide), .replicate (by decide)⟩

theorem C56_any_vec4_cubic {mem : Mem α} {destP : Ptr} (s : α) (r_dest : Room mem destP 4) :
    Safe mem [(destP, 4)] .void (C.glm_vec4_cubic.run mem [.f s, destP.val]) :=
  safe_entry Lib.glm_vec4_cubic_ok [.f s, .out destP 4] ⟨trivial, ⟨r_dest, by decide⟩, trivial⟩ rfl
example (x : α) : let mem : Mem α := [⟨true, List.replicate 4 (.f x)⟩]
    Room mem (0, 0) 4 :=
  .replicate (by decide)

theorem C56_any_vec4_make {mem : Mem α} {srcP destP : Ptr} (h_src : Init mem srcP 4) (r_dest : Room mem destP 4) :
    Safe mem [(destP, 4)] .void (C.glm_vec4_make.run mem [srcP.val, destP.val]) :=
  safe_entry Lib.glm_vec4_make_ok [.inp srcP 4, .out destP 4] ⟨⟨initK_isF.mpr h_src, by decide⟩, ⟨r_dest, by decide⟩, trivial⟩ rfl
example (x : α) : let mem : Mem α := [⟨true, List.replicate 5 (.f x)⟩]
    Init mem (0, 0) 4 ∧ Room mem (0, 1) 4 :=
  ⟨.replicate (by decide), .replicate (by decide)⟩

theorem C56_any_vec4_reflect {mem : Mem α} {vP nP destP : Ptr} (h_v : Init mem vP 4) (h_n : Init mem nP 4) (r_dest : Room mem destP 4) :
    Safe mem [(destP, 4)] .void (C.glm_vec4_reflect.run mem [vP.val, nP.val, destP.val]) :=
  safe_entry Lib.glm_vec4_reflect_ok [.inp vP 4, .inp nP 4, .out destP 4] ⟨⟨initK_isF.mpr h_v, by decide⟩, ⟨initK_isF.mpr h_n, by decide⟩, ⟨r_dest, by decide⟩, trivial⟩ rfl
example (x : α) : let mem : Mem α := [⟨true, List.replicate 6 (.f x)⟩]
    Init mem (0, 0) 4 ∧ Init mem (0, 1) 4 ∧ Room mem (0, 2) 4 :=
  ⟨.replicate (by decide), .replicate (by decide), .replicate (by decide)⟩

theorem C56_any_vec4_refract {mem : Mem α} {vP nP destP : Ptr} (eta : α) (h_v : Init mem vP 4) (h_n : Init mem nP 4) (r_dest : Room mem destP 4) :
    Safe mem [(destP, 4)] .bool (C.glm_vec4_refract.run mem [vP.val, nP.val, .f eta, destP.val]) :=
  safe_entry Lib.glm_vec4_refract_ok [.inp vP 4, .inp nP 4, .f eta, .out destP 4] ⟨⟨initK_isF.mpr h_v, by decide⟩, ⟨initK_isF.mpr h_n, by decide⟩, trivial, ⟨r_dest, by decide⟩, trivial⟩ rfl
example (x : α) : let mem : Mem α := [⟨true, List.replicate 6 (.f x)⟩]
    Init mem (0, 0) 4 ∧ Init mem (0, 1) 4 ∧ Room mem (0, 2) 4 :=
  ⟨.replicate (by decide), .replicate (by decide), .replicate (by decide)⟩

/-! ## include/cglm/vec3.h -/

theorem C56_any_vec3 {mem : Mem α} {v4P destP : Ptr} (h_v4 : Init mem v4P 4) (r_dest : Room mem destP 3) :
    Safe mem [(destP, 3)] .void (C.glm_vec3.run mem [v4P.val, destP.val]) :=
  safe_entry Lib.glm_vec3_ok [.inp v4P 4, .out destP 3] ⟨⟨initK_isF.mpr h_v4, by decide⟩, ⟨r_dest, by decide⟩, trivial⟩ rfl
example (x : α) : let mem : Mem α := [⟨true, List.replicate 4 (.f x)⟩]
    Init mem (0, 0) 4 ∧ Room mem (0, 1) 3 :=
  ⟨.replicate (by decide), .replicate (by decide)⟩

theorem C56_any_vec3_copy {mem : Mem α} {aP destP : Ptr} (h_a : Init mem aP 3) (r_dest : Room mem destP 3) :
    Safe mem [(destP, 3)] .void (C.glm_vec3_copy.run mem [aP.val, destP.val]) :=
  safe_entry Lib.glm_vec3_copy_ok [.inp aP 3, .out destP 3] ⟨⟨initK_isF.mpr h_a, by decide⟩, ⟨r_dest, by decide⟩, trivial⟩ rfl
example (x : α) : let mem : Mem α := [⟨true, List.replicate 4 (.f x)⟩]
    Init mem (0, 0) 3 ∧ Room mem (0, 1) 3 :=
  ⟨.replicate (by decide), .replicate (by decide)⟩

theorem C56_any_vec3_zero {mem : Mem α} {vP : Ptr} (r_v : Room mem vP 3) :
    Safe mem [(vP, 3)] .void (C.glm_vec3_zero.run mem [vP.val]) :=
  safe_entry Lib.glm_vec3_zero_ok [.out vP 3] ⟨⟨r_v, by decide⟩, trivial⟩ rfl
example (x : α) : let mem : Mem α := [⟨true, List.replicate 3 (.f x)⟩]
    Room mem (0, 0) 3 :=
  .replicate (by decide)

theorem C56_any_vec3_one {mem : Mem α} {vP : Ptr} (r_v : Room mem vP 3) :
    Safe mem [(vP, 3)] .void (C.glm_vec3_one.run mem [vP.val]) :=
  safe_entry Lib.glm_vec3_one_ok [.out vP 3] ⟨⟨r_v, by decide⟩, trivial⟩ rfl
example (x : α) : let mem : Mem α := [⟨true, List.replicate 3 (.f x)⟩]
    Room mem (0, 0) 3 :=
  .replicate (by decide)

theorem C56_any_vec3_dot {mem : Mem α} {aP bP : Ptr} (h_a : Init mem aP 3) (h_b : Init mem bP 3) :
    Safe mem [] .float (C.glm_vec3_dot.run mem [aP.val, bP.val]) :=
  safe_entry Lib.glm_vec3_dot_ok [.inp aP 3, .inp bP 3] ⟨⟨initK_isF.mpr h_a, by decide⟩, ⟨initK_isF.mpr h_b, by decide⟩, trivial⟩ rfl
example (x : α) : let mem : Mem α := [⟨true, List.replicate 4 (.f x)⟩]
    Init mem (0, 0) 3 ∧ Init mem (0, 1) 3 :=
  ⟨.replicate (by decide), .replicate (by decide)⟩

theorem C56_any_vec3_norm2 {mem : Mem α} {vP : Ptr} (h_v : Init mem vP 3) :
    Safe mem [] .float (C.glm_vec3_norm2.run mem [vP.val]) :=
  safe_entry Lib.glm_vec3_norm2_ok [.inp vP 3] ⟨⟨initK_isF.mpr h_v, by decide⟩, trivial⟩ rfl
example (x : α) : let mem : Mem α := [⟨true, List.replicate 3 (.f x)⟩]
    Init mem (0, 0) 3 :=
  .replicate (by decide)

theorem C56_any_vec3_norm {mem : Mem α} {vP : Ptr} (h_v : Init mem vP 3) :
    Safe mem [] .float (C.glm_vec3_norm.run mem [vP.val]) :=
  safe_entry Lib.glm_vec3_norm_ok [.inp vP 3] ⟨⟨initK_isF.mpr h_v, by decide⟩, trivial⟩ rfl
example (x : α) : let mem : Mem α := [⟨true, List.replicate 3 (.f x)⟩]
    Init mem (0, 0) 3 :=
  .replicate (by decide)

theorem C56_any_vec3_norm_one {mem : Mem α} {vP : Ptr} (h_v : Init mem vP 3) :
    Safe mem [] .float (C.glm_vec3_norm_one.run mem [vP.val]) :=
  safe_entry Lib.glm_vec3_norm_one_ok [.inp vP 3] ⟨⟨initK_isF.mpr h_v, by decide⟩, trivial⟩ rfl
example (x : α) : let mem : Mem α := [⟨true, List.replicate 3 (.f x)⟩]
    Init mem (0, 0) 3 :=
  .replicate (by decide)

theorem C56_any_vec3_norm_inf {mem : Mem α} {vP : Ptr} (h_v : Init mem vP 3) :
    Safe mem [] .float (C.glm_vec3_norm_inf.run mem [vP.val]) :=
  safe_entry Lib.glm_vec3_norm_inf_ok [.inp vP 3] ⟨⟨initK_isF.mpr h_v, by decide⟩, trivial⟩ rfl
example (x : α) : let mem : Mem α := [⟨true, List.replicate 3 (.f x)⟩]
    Init mem (0, 0) 3 :=
  .replicate (by decide)

theorem C56_any_vec3_add {mem : Mem α} {aP bP destP : Ptr} (h_a : Init mem aP 3) (h_b : Init mem bP 3) (r_dest : Room mem destP 3) :
    Safe mem [(destP, 3)] .void (C.glm_vec3_add.run mem [aP.val, bP.val, destP.val]) :=
  safe_entry Lib.glm_vec3_add_ok [.inp aP 3, .inp bP 3, .out destP 3] ⟨⟨initK_isF.mpr h_a, by decide⟩, ⟨initK_isF.mpr h_b, by decide⟩, ⟨r_dest, by decide⟩, trivial⟩ rfl
example (x : α) : let mem : Mem α := [⟨true, List.replicate 5 (.f x)⟩]
    Init mem (0, 0) 3 ∧ Init mem (0, 1) 3 ∧ Room mem (0, 2) 3 :=
  ⟨.replicate (by decide), .replicate (by decide), .replicate (by decide)⟩

theorem C56_any_vec3_adds {mem : Mem α} {vP destP : Ptr} (s : α) (h_v : Init mem vP 3) (r_dest : Room mem destP 3) :
    Safe mem [(destP, 3)] .void (C.glm_vec3_adds.run mem [vP.val, .f s, destP.val]) :=
  safe_entry Lib.glm_vec3_adds_ok [.inp vP 3, .f s, .out destP 3] ⟨⟨initK_isF.mpr h_v, by decide⟩, trivial, ⟨r_dest, by decide⟩, trivial⟩ rfl
example (x : α) : let mem : Mem α := [⟨true, List.replicate 4 (.f x)⟩]
    Init mem (0, 0) 3 ∧ Room mem (0, 1) 3 :=
  ⟨.replicate (by decide), .replicate (by decide)⟩

theorem C56_any_vec3_sub {mem : Mem α} {aP bP destP : Ptr} (h_a : Init mem aP 3) (h_b : Init mem bP 3) (r_dest : Room mem destP 3) :
    Safe mem [(destP, 3)] .void (C.glm_vec3_sub.run mem [aP.val, bP.val, destP.val]) :=
  safe_entry Lib.glm_vec3_sub_ok [.inp aP 3, .inp bP 3, .out destP 3] ⟨⟨initK_isF.mpr h_a, by decide⟩, ⟨initK_isF.mpr h_b, by decide⟩, ⟨r_dest, by decide⟩, trivial⟩ rfl
example (x : α) : let mem : Mem α := [⟨true, List.replicate 5 (.f x)⟩]
    Init mem (0, 0) 3 ∧ Init mem (0, 1) 3 ∧ Room mem (0, 2) 3 :=
  ⟨.replicate (by decide), .replicate (by decide), .replicate (by decide)⟩

theorem C56_any_vec3_subs {mem : Mem α} {vP destP : Ptr} (s : α) (h_v : Init mem vP 3) (r_dest : Room mem destP 3) :
    Safe mem [(destP, 3)] .void (C.glm_vec3_subs.run mem [vP.val, .f s, destP.val]) :=
  safe_entry Lib.glm_vec3_subs_ok [.inp vP 3, .f s, .out destP 3] ⟨⟨initK_isF.mpr h_v, by decide⟩, trivial, ⟨r_dest, by decide⟩, trivial⟩ rfl
example (x : α) : let mem : Mem α := [⟨true, List.replicate 4 (.f x)⟩]
    Init mem (0, 0) 3 ∧ Room mem (0, 1) 3 :=
  ⟨.replicate (by decide), .replicate (by decide)⟩

theorem C56_any_vec3_mul {mem : Mem α} {aP bP destP : Ptr} (h_a : Init mem aP 3) (h_b : Init mem bP 3) (r_dest : Room mem destP 3) :
    Safe mem [(destP, 3)] .void (C.glm_vec3_mul.run mem [aP.val, bP.val, destP.val]) :=
  safe_entry Lib.glm_vec3_mul_ok [.inp aP 3, .inp bP 3, .out destP 3] ⟨⟨initK_isF.mpr h_a, by decide⟩, ⟨initK_isF.mpr h_b, by decide⟩, ⟨r_dest, by decide⟩, trivial⟩ rfl
example (x : α) : let mem : Mem α := [⟨true, List.replicate 5 (.f x)⟩]
    Init mem (0, 0) 3 ∧ Init mem (0, 1) 3 ∧ Room mem (0, 2) 3 :=
  ⟨.replicate (by decide), .replicate (by decide), .replicate (by decide)⟩

theorem C56_any_vec3_scale {mem : Mem α} {vP destP : Ptr} (s : α) (h_v : Init mem vP 3) (r_dest : Room mem destP 3) :
    Safe mem [(destP, 3)] .void (C.glm_vec3_scale.run mem [vP.val, .f s, destP.val]) :=
  safe_entry Lib.glm_vec3_scale_ok [.inp vP 3, .f s, .out destP 3] ⟨⟨initK_isF.mpr h_v, by decide⟩, trivial, ⟨r_dest, by decide⟩, trivial⟩ rfl
example (x : α) : let mem : Mem α := [⟨true, List.replicate 4 (.f x)⟩]
    Init mem (0, 0) 3 ∧ Room mem (0, 1) 3 :=
  ⟨.replicate (by decide), .replicate (by decide)⟩

theorem C56_any_vec3_scale_as {mem : Mem α} {vP destP : Ptr} (s : α) (h_v : Init mem vP 3) (r_dest : Room mem destP 3) :
    Safe mem [(destP, 3)] .void (C.glm_vec3_scale_as.run mem [vP.val, .f s, destP.val]) :=
  safe_entry Lib.glm_vec3_scale_as_ok [.inp vP 3, .f s, .out destP 3] ⟨⟨initK_isF.mpr h_v, by decide⟩, trivial, ⟨r_dest, by decide⟩, trivial⟩ rfl
example (x : α) : let mem : Mem α := [⟨true, List.replicate 4 (.f x)⟩]
    Init mem (0, 0) 3 ∧ Room mem (0, 1) 3 :=
  ⟨.replicate (by decide), .replicate (by decide)⟩

theorem C56_any_vec3_div {mem : Mem α} {aP bP destP : Ptr} (h_a : Init mem aP 3) (h_b : Init mem bP 3) (r_dest : Room mem destP 3) :
    Safe mem [(destP, 3)] .void (C.glm_vec3_div.run mem [aP.val, bP.val, destP.val]) :=
  safe_entry Lib.glm_vec3_div_ok [.inp aP 3, .inp bP 3, .out destP 3] ⟨⟨initK_isF.mpr h_a, by decide⟩, ⟨initK_isF.mpr h_b, by decide⟩, ⟨r_dest, by decide⟩, trivial⟩ rfl
example (x : α) : let mem : Mem α := [⟨true, List.replicate 5 (.f x)⟩]
    Init mem (0, 0) 3 ∧ Init mem (0, 1) 3 ∧ Room mem (0, 2) 3 :=
  ⟨.replicate (by decide), .replicate (by decide), .replicate (by decide)⟩

theorem C56_any_vec3_divs {mem : Mem α} {vP destP : Ptr} (s : α) (h_v : Init mem vP 3) (r_dest : Room mem destP 3) :
    Safe mem [(destP, 3)] .void (C.glm_vec3_divs.run mem [vP.val, .f s, destP.val]) :=
  safe_entry Lib.glm_vec3_divs_ok [.inp vP 3, .f s, .out destP 3] ⟨⟨initK_isF.mpr h_v, by decide⟩, trivial, ⟨r_dest, by decide⟩, trivial⟩ rfl
example (x : α) : let mem : Mem α := [⟨true, List.replicate 4 (.f x)⟩]
    Init mem (0, 0) 3 ∧ Room mem (0, 1) 3 :=
  ⟨.replicate (by decide), .replicate (by decide)⟩

theorem C56_any_vec3_addadd {mem : Mem α} {aP bP destP : Ptr} (h_a : Init mem aP 3) (h_b : Init mem bP 3) (h_dest : Init mem destP 3) (r_dest : Room mem destP 3) :
    Safe mem [(destP, 3)] .void (C.glm_vec3_addadd.run mem [aP.val, bP.val, destP.val]) :=
  safe_entry Lib.glm_vec3_addadd_ok [.inp aP 3, .inp bP 3, .io destP 3] ⟨⟨initK_isF.mpr h_a, by decide⟩, ⟨initK_isF.mpr h_b, by decide⟩, ⟨initK_isF.mpr h_dest, r_dest, by decide⟩, trivial⟩ rfl
example (x : α) : let mem : Mem α := [⟨true, List.replicate 5 (.f x)⟩]
    Init mem (0, 0) 3 ∧ Init mem (0, 1) 3 ∧ Init mem (0, 2) 3 ∧ Room mem (0, 2) 3 :=
  ⟨.replicate (by decide), .replicate (by decide), .replicate (by decide), .replicate (by decide)⟩

theorem C56_any_vec3_subadd {mem : Mem α} {aP bP destP : Ptr} (h_a : Init mem aP 3) (h_b : Init mem bP 3) (h_dest : Init mem destP 3) (r_dest : Room mem destP 3) :
    Safe mem [(destP, 3)] .void (C.glm_vec3_subadd.run mem [aP.val, bP.val, destP.val]) :=
  safe_entry Lib.glm_vec3_subadd_ok [.inp aP 3, .inp bP 3, .io destP 3] ⟨⟨initK_isF.mpr h_a, by decide⟩, ⟨initK_isF.mpr h_b, by decide⟩, ⟨initK_isF.mpr h_dest, r_dest, by decide⟩, trivial⟩ rfl
example (x : α) : let mem : Mem α := [⟨true, List.replicate 5 (.f x)⟩]
    Init mem (0, 0) 3 ∧ Init mem (0, 1) 3 ∧ Init mem (0, 2) 3 ∧ Room mem (0, 2) 3 :=
  ⟨.replicate (by decide), .replicate (by decide), .replicate (by decide), .replicate (by decide)⟩

theorem C56_any_vec3_muladd {mem : Mem α} {aP bP destP : Ptr} (h_a : Init mem aP 3) (h_b : Init mem bP 3) (h_dest : Init mem destP 3) (r_dest : Room mem destP 3) :
    Safe mem [(destP, 3)] .void (C.glm_vec3_muladd.run mem [aP.val, bP.val, destP.val]) :=
  safe_entry Lib.glm_vec3_muladd_ok [.inp aP 3, .inp bP 3, .io destP 3] ⟨⟨initK_isF.mpr h_a, by decide⟩, ⟨initK_isF.mpr h_b, by decide⟩, ⟨initK_isF.mpr h_dest, r_dest, by decide⟩, trivial⟩ rfl
example (x : α) : let mem : Mem α := [⟨true, List.replicate 5 (.f x)⟩]
    Init mem (0, 0) 3 ∧ Init mem (0, 1) 3 ∧ Init mem (0, 2) 3 ∧ Room mem (0, 2) 3 :=
  ⟨.replicate (by decide), .replicate (by decide), .replicate (by decide), .replicate (by decide)⟩

theorem C56_any_vec3_muladds {mem : Mem α} {aP destP : Ptr} (s : α) (h_a : Init mem aP 3) (h_dest : Init mem destP 3) (r_dest : Room mem destP 3) :
    Safe mem [(destP, 3)] .void (C.glm_vec3_muladds.run mem [aP.val, .f s, destP.val]) :=
  safe_entry Lib.glm_vec3_muladds_ok [.inp aP 3, .f s, .io destP 3] ⟨⟨initK_isF.mpr h_a, by decide⟩, trivial, ⟨initK_isF.mpr h_dest, r_dest, by decide⟩, trivial⟩ rfl
example (x : α) : let mem : Mem α := [⟨true, List.replicate 4 (.f x)⟩]
    Init mem (0, 0) 3 ∧ Init mem (0, 1) 3 ∧ Room mem (0, 1) 3 :=
  ⟨.replicate (by decide), .replicate (by decide), .replicate (by decide)⟩

theorem C56_any_vec3_maxadd {mem : Mem α} {aP bP destP : Ptr} (h_a : Init mem aP 3) (h_b : Init mem bP 3) (h_dest : Init mem destP 3) (r_dest : Room mem destP 3) :
    Safe mem [(destP, 3)] .void (C.glm_vec3_maxadd.run mem [aP.val, bP.val, destP.val]) :=
  safe_entry Lib.glm_vec3_maxadd_ok [.inp aP 3, .inp bP 3, .io destP 3] ⟨⟨initK_isF.mpr h_a, by decide⟩, ⟨initK_isF.mpr h_b, by decide⟩, ⟨initK_isF.mpr h_dest, r_dest, by decide⟩, trivial⟩ rfl
example (x : α) : let mem : Mem α := [⟨true, List.replicate 5 (.f x)⟩]
    Init mem (0, 0) 3 ∧ Init mem (0, 1) 3 ∧ Init mem (0, 2) 3 ∧ Room mem (0, 2) 3 :=
  ⟨.replicate (by decide), .replicate (by decide), .replicate (by decide), .replicate (by decide)⟩

theorem C56_any_vec3_minadd {mem : Mem α} {aP bP destP : Ptr} (h_a : Init mem aP 3) (h_b : Init mem bP 3) (h_dest : Init mem destP 3) (r_dest : Room mem destP 3) :
    Safe mem [(destP, 3)] .void (C.glm_vec3_minadd.run mem [aP.val, bP.val, destP.val]) :=
  safe_entry Lib.glm_vec3_minadd_ok [.inp aP 3, .inp bP 3, .io destP 3] ⟨⟨initK_isF.mpr h_a, by decide⟩, ⟨initK_isF.mpr h_b, by decide⟩, ⟨initK_isF.mpr h_dest, r_dest, by decide⟩, trivial⟩ rfl
example (x : α) : let mem : Mem α := [⟨true, List.replicate 5 (.f x)⟩]
    Init mem (0, 0) 3 ∧ Init mem (0, 1) 3 ∧ Init mem (0, 2) 3 ∧ Room mem (0, 2) 3 :=
  ⟨.replicate (by decide), .replicate (by decide), .replicate (by decide), .replicate (by decide)⟩

theorem C56_any_vec3_subsub {mem : Mem α} {aP bP destP : Ptr} (h_a : Init mem aP 3) (h_b : Init mem bP 3) (h_dest : Init mem destP 3) (r_dest : Room mem destP 3) :
    Safe mem [(destP, 3)] .void (C.glm_vec3_subsub.run mem [aP.val, bP.val, destP.val]) :=
  safe_entry Lib.glm_vec3_subsub_ok [.inp aP 3, .inp bP 3, .io destP 3] ⟨⟨initK_isF.mpr h_a, by decide⟩, ⟨initK_isF.mpr h_b, by decide⟩, ⟨initK_isF.mpr h_dest, r_dest, by decide⟩, trivial⟩ rfl
example (x : α) : let mem : Mem α := [⟨true, List.replicate 5 (.f x)⟩]
    Init mem (0, 0) 3 ∧ Init mem (0, 1) 3 ∧ Init mem (0, 2) 3 ∧ Room mem (0, 2) 3 :=
  ⟨.replicate (by decide), .replicate (by decide), .replicate (by decide), .replicate (by decide)⟩

theorem C56_any_vec3_addsub {mem : Mem α} {aP bP destP : Ptr} (h_a : Init mem aP 3) (h_b : Init mem bP 3) (h_dest : Init mem destP 3) (r_dest : Room mem destP 3) :
    Safe mem [(destP, 3)] .void (C.glm_vec3_addsub.run mem [aP.val, bP.val, destP.val]) :=
  safe_entry Lib.glm_vec3_addsub_ok [.inp aP 3, .inp bP 3, .io destP 3] ⟨⟨initK_isF.mpr h_a, by decide⟩, ⟨initK_isF.mpr h_b, by decide⟩, ⟨initK_isF.mpr h_dest, r_dest, by decide⟩, trivial⟩ rfl
example (x : α) : let mem : Mem α := [⟨true, List.replicate 5 (.f x)⟩]
    Init mem (0, 0) 3 ∧ Init mem (0, 1) 3 ∧ Init mem (0, 2) 3 ∧ Room mem (0, 2) 3 :=
  ⟨.replicate (by decide), .replicate (by decide), .replicate (by decide), .replicate (by decide)⟩

theorem C56_any_vec3_mulsub {mem : Mem α} {aP bP destP : Ptr} (h_a : Init mem aP 3) (h_b : Init mem bP 3) (h_dest : Init mem destP 3) (r_dest : Room mem destP 3) :
    Safe mem [(destP, 3)] .void (C.glm_vec3_mulsub.run mem [aP.val, bP.val, destP.val]) :=
  safe_entry Lib.glm_vec3_mulsub_ok [.inp aP 3, .inp bP 3, .io destP 3] ⟨⟨initK_isF.mpr h_a, by decide⟩, ⟨initK_isF.mpr h_b, by decide⟩, ⟨initK_isF.mpr h_dest, r_dest, by decide⟩, trivial⟩ rfl
example (x : α) : let mem : Mem α := [⟨true, List.replicate 5 (.f x)⟩]
    Init mem (0, 0) 3 ∧ Init mem (0, 1) 3 ∧ Init mem (0, 2) 3 ∧ Room mem (0, 2) 3 :=
  ⟨.replicate (by decide), .replicate (by decide), .replicate (by decide), .replicate (by decide)⟩

theorem C56_any_vec3_mulsubs {mem : Mem α} {aP destP : Ptr} (s : α) (h_a : Init mem aP 3) (h_dest : Init mem destP 3) (r_dest : Room mem destP 3) :
    Safe mem [(destP, 3)] .void (C.glm_vec3_mulsubs.run mem [aP.val, .f s, destP.val]) :=
  safe_entry Lib.glm_vec3_mulsubs_ok [.inp aP 3, .f s, .io destP 3] ⟨⟨initK_isF.mpr h_a, by decide⟩, trivial, ⟨initK_isF.mpr h_dest, r_dest, by decide⟩, trivial⟩ rfl
example (x : α) : let mem : Mem α := [⟨true, List.replicate 4 (.f x)⟩]
    Init mem (0, 0) 3 ∧ Init mem (0, 1) 3 ∧ Room mem (0, 1) 3 :=
  ⟨.replicate (by decide), .replicate (by decide), .replicate (by decide)⟩

theorem C56_any_vec3_maxsub {mem : Mem α} {aP bP destP : Ptr} (h_a : Init mem aP 3) (h_b : Init mem bP 3) (h_dest : Init mem destP 3) (r_dest : Room mem destP 3) :
    Safe mem [(destP, 3)] .void (C.glm_vec3_maxsub.run mem [aP.val, bP.val, destP.val]) :=
  safe_entry Lib.glm_vec3_maxsub_ok [.inp aP 3, .inp bP 3, .io destP 3] ⟨⟨initK_isF.mpr h_a, by decide⟩, ⟨initK_isF.mpr h_b, by decide⟩, ⟨initK_isF.mpr h_dest, r_dest, by decide⟩, trivial⟩ rfl
example (x : α) : let mem : Mem α := [⟨true, List.replicate 5 (.f x)⟩]
    Init mem (0, 0) 3 ∧ Init mem (0, 1) 3 ∧ Init mem (0, 2) 3 ∧ Room mem (0, 2) 3 :=
  ⟨.replicate (by decide), .replicate (by decide), .replicate (by decide), .replicate (by decide)⟩

theorem C56_any_vec3_minsub {mem : Mem α} {aP bP destP : Ptr} (h_a : Init mem aP 3) (h_b : Init mem bP 3) (h_dest : Init mem destP 3) (r_dest : Room mem destP 3) :
    Safe mem [(destP, 3)] .void (C.glm_vec3_minsub.run mem [aP.val, bP.val, destP.val]) :=
  safe_entry Lib.glm_vec3_minsub_ok [.inp aP 3, .inp bP 3, .io destP 3] ⟨⟨initK_isF.mpr h_a, by decide⟩, ⟨initK_isF.mpr h_b, by decide⟩, ⟨initK_isF.mpr h_dest, r_dest, by decide⟩, trivial⟩ rfl
example (x : α) : let mem : Mem α := [⟨true, List.replicate 5 (.f x)⟩]
    Init mem (0, 0) 3 ∧ Init mem (0, 1) 3 ∧ Init mem (0, 2) 3 ∧ Room mem (0, 2) 3 :=
  ⟨.replicate (by decide), .replicate (by decide), .replicate (by decide), .replicate (by decide)⟩

theorem C56_any_vec3_negate_to {mem : Mem α} {vP destP : Ptr} (h_v : Init mem vP 3) (r_dest : Room mem destP 3) :
    Safe mem [(destP, 3)] .void (C.glm_vec3_negate_to.run mem [vP.val, destP.val]) :=
  safe_entry Lib.glm_vec3_negate_to_ok [.inp vP 3, .out destP 3] ⟨⟨initK_isF.mpr h_v, by decide⟩, ⟨r_dest, by decide⟩, trivial⟩ rfl
example (x : α) : let mem : Mem α := [⟨true, List.replicate 4 (.f x)⟩]
    Init mem (0, 0) 3 ∧ Room mem (0, 1) 3 :=
  ⟨.replicate (by decide), .replicate (by decide)⟩

theorem C56_any_vec3_negate {mem : Mem α} {vP : Ptr} (h_v : Init mem vP 3) (r_v : Room mem vP 3) :
    Safe mem [(vP, 3)] .void (C.glm_vec3_negate.run mem [vP.val]) :=
  safe_entry Lib.glm_vec3_negate_ok [.io vP 3] ⟨⟨initK_isF.mpr h_v, r_v, by decide⟩, trivial⟩ rfl
example (x : α) : let mem : Mem α := [⟨true, List.replicate 3 (.f x)⟩]
    Init mem (0, 0) 3 ∧ Room mem (0, 0) 3 :=
  ⟨.replicate (by decide), .replicate (by decide)⟩

theorem C56_any_vec3_normalize {mem : Mem α} {vP : Ptr} (h_v : Init mem vP 3) (r_v : Room mem vP 3) :
    Safe mem [(vP, 3)] .void (C.glm_vec3_normalize.run mem [vP.val]) :=
  safe_entry Lib.glm_vec3_normalize_ok [.io vP 3] ⟨⟨initK_isF.mpr h_v, r_v, by decide⟩, trivial⟩ rfl
example (x : α) : let mem : Mem α := [⟨true, List.replicate 3 (.f x)⟩]
    Init mem (0, 0) 3 ∧ Room mem (0, 0) 3 :=
  ⟨.replicate (by decide), .replicate (by decide)⟩

theorem C56_any_vec3_normalize_to {mem : Mem α} {vP destP : Ptr} (h_v : Init mem vP 3) (r_dest : Room mem destP 3) :
    Safe mem [(destP, 3)] .void (C.glm_vec3_normalize_to.run mem [vP.val, destP.val]) :=
  safe_entry Lib.glm_vec3_normalize_to_ok [.inp vP 3, .out destP 3] ⟨⟨initK_isF.mpr h_v, by decide⟩, ⟨r_dest, by decide⟩, trivial⟩ rfl
example (x : α) : let mem : Mem α := [⟨true, List.replicate 4 (.f x)⟩]
    Init mem (0, 0) 3 ∧ Room mem (0, 1) 3 :=
  ⟨.replicate (by decide), .replicate (by decide)⟩

theorem C56_any_vec3_cross {mem : Mem α} {aP bP destP : Ptr} (h_a : Init mem aP 3) (h_b : Init mem bP 3) (r_dest : Room mem destP 3) :
    Safe mem [(destP, 3)] .void (C.glm_vec3_cross.run mem [aP.val, bP.val, destP.val]) :=
  safe_entry Lib.glm_vec3_cross_ok [.inp aP 3, .inp bP 3, .out destP 3] ⟨⟨initK_isF.mpr h_a, by decide⟩, ⟨initK_isF.mpr h_b, by decide⟩, ⟨r_dest, by decide⟩, trivial⟩ rfl
example (x : α) : let mem : Mem α := [⟨true, List.replicate 5 (.f x)⟩]
    Init mem (0, 0) 3 ∧ Init mem (0, 1) 3 ∧ Room mem (0, 2) 3 :=
  ⟨.replicate (by decide), .replicate (by decide), .replicate (by decide)⟩

theorem C56_any_vec3_crossn {mem : Mem α} {aP bP destP : Ptr} (h_a : Init mem aP 3) (h_b : Init mem bP 3) (r_dest : Room mem destP 3) :
    Safe mem [(destP, 3)] .void (C.glm_vec3_crossn.run mem [aP.val, bP.val, destP.val]) :=
  safe_entry Lib.glm_vec3_crossn_ok [.inp aP 3, .inp bP 3, .out destP 3] ⟨⟨initK_isF.mpr h_a, by decide⟩, ⟨initK_isF.mpr h_b, by decide⟩, ⟨r_dest, by decide⟩, trivial⟩ rfl
example (x : α) : let mem : Mem α := [⟨true, List.replicate 5 (.f x)⟩]
    Init mem (0, 0) 3 ∧ Init mem (0, 1) 3 ∧ Room mem (0, 2) 3 :=
  ⟨.replicate (by decide), .replicate (by decide), .replicate (by decide)⟩

theorem C56_any_vec3_angle {mem : Mem α} {aP bP : Ptr} (h_a : Init mem aP 3) (h_b : Init mem bP 3) :
    Safe mem [] .float (C.glm_vec3_angle.run mem [aP.val, bP.val]) :=
  safe_entry Lib.glm_vec3_angle_ok [.inp aP 3, .inp bP 3] ⟨⟨initK_isF.mpr h_a, by decide⟩, ⟨initK_isF.mpr h_b, by decide⟩, trivial⟩ rfl
example (x : α) : let mem : Mem α := [⟨true, List.replicate 4 (.f x)⟩]
    Init mem (0, 0) 3 ∧ Init mem (0, 1) 3 :=
  ⟨.replicate (by decide), .replicate (by decide)⟩

theorem C56_any_vec3_rotate {mem : Mem α} {vP axisP : Ptr} (angle : α) (h_v : Init mem vP 3) (r_v : Room mem vP 3) (h_axis : Init mem axisP 3) :
    Safe mem [(vP, 3)] .void (C.glm_vec3_rotate.run mem [vP.val, .f angle, axisP.val]) :=
  safe_entry Lib.glm_vec3_rotate_ok [.io vP 3, .f angle, .inp axisP 3] ⟨⟨initK_isF.mpr h_v, r_v, by decide⟩, trivial, ⟨initK_isF.mpr h_axis, by decide⟩, trivial⟩ rfl
example (x : α) : let mem : Mem α := [⟨true, List.replicate 4 (.f x)⟩]
    Init mem (0, 0) 3 ∧ Room mem (0, 0) 3 ∧ Init mem (0, 1) 3 :=
  ⟨.replicate (by decide), .replicate (by decide), .replicate (by decide)⟩

theorem C56_any_vec3_rotate_m4 {mem : Mem α} {mP vP destP : Ptr} (h_m : Init mem mP 16) (h_v : Init mem vP 3) (r_dest : Room mem destP 3) :
    Safe mem [(destP, 3)] .void (C.glm_vec3_rotate_m4.run mem [mP.val, vP.val, destP.val]) :=
  safe_entry Lib.glm_vec3_rotate_m4_ok [.inp mP 16, .inp vP 3, .out destP 3] ⟨⟨initK_isF.mpr h_m, by decide⟩, ⟨initK_isF.mpr h_v, by decide⟩, ⟨r_dest, by decide⟩, trivial⟩ rfl
example (x : α) : let mem : Mem α := [⟨true, List.replicate 16 (.f x)⟩]
    Init mem (0, 0) 16 ∧ Init mem (0, 1) 3 ∧ Room mem (0, 2) 3 :=
  ⟨.replicate (by decide), .replicate (by decide), .replicate (by decide)⟩

theorem C56_any_vec3_rotate_m3 {mem : Mem α} {mP vP destP : Ptr} (h_m : Init mem mP 9) (h_v : Init mem vP 3) (r_dest : Room mem destP 3) :
    Safe mem [(destP, 3)] .void (C.glm_vec3_rotate_m3.run mem [mP.val, vP.val, destP.val]) :=
  safe_entry Lib.glm_vec3_rotate_m3_ok [.inp mP 9, .inp vP 3, .out destP 3] ⟨⟨initK_isF.mpr h_m, by decide⟩, ⟨initK_isF.mpr h_v, by decide⟩, ⟨r_dest, by decide⟩, trivial⟩ rfl
example (x : α) : let mem : Mem α := [⟨true, List.replicate 9 (.f x)⟩]
    Init mem (0, 0) 9 ∧ Init mem (0, 1) 3 ∧ Room mem (0, 2) 3 :=
  ⟨.replicate (by decide), .replicate (by decide), .replicate (by decide)⟩

theorem C56_any_vec3_proj {mem : Mem α} {aP bP destP : Ptr} (h_a : Init mem aP 3) (h_b : Init mem bP 3) (r_dest : Room mem destP 3) :
    Safe mem [(destP, 3)] .void (C.glm_vec3_proj.run mem [aP.val, bP.val, destP.val]) :=
  safe_entry Lib.glm_vec3_proj_ok [.inp aP 3, .inp bP 3, .out destP 3] ⟨⟨initK_isF.mpr h_a, by decide⟩, ⟨initK_isF.mpr h_b, by decide⟩, ⟨r_dest, by decide⟩, trivial⟩ rfl
example (x : α) : let mem : Mem α := [⟨true, List.replicate 5 (.f x)⟩]
    Init mem (0, 0) 3 ∧ Init mem (0, 1) 3 ∧ Room mem (0, 2) 3 :=
  ⟨.replicate (by decide), .replicate (by decide), .replicate (by decide)⟩

theorem C56_any_vec3_center {mem : Mem α} {aP bP destP : Ptr} (h_a : Init mem aP 3) (h_b : Init mem bP 3) (r_dest : Room mem destP 3) :
    Safe mem [(destP, 3)] .void (C.glm_vec3_center.run mem [aP.val, bP.val, destP.val]) :=
  safe_entry Lib.glm_vec3_center_ok [.inp aP 3, .inp bP 3, .out destP 3] ⟨⟨initK_isF.mpr h_a, by decide⟩, ⟨initK_isF.mpr h_b, by decide⟩, ⟨r_dest, by decide⟩, trivial⟩ rfl
example (x : α) : let mem : Mem α := [⟨true, List.replicate 5 (.f x)⟩]
    Init mem (0, 0) 3 ∧ Init mem (0, 1) 3 ∧ Room mem (0, 2) 3 :=
  ⟨.replicate (by decide), .replicate (by decide), .replicate (by decide)⟩

theorem C56_any_vec3_distance2 {mem : Mem α} {aP bP : Ptr} (h_a : Init mem aP 3) (h_b : Init mem bP 3) :
    Safe mem [] .float (C.glm_vec3_distance2.run mem [aP.val, bP.val]) :=
  safe_entry Lib.glm_vec3_distance2_ok [.inp aP 3, .inp bP 3] ⟨⟨initK_isF.mpr h_a, by decide⟩, ⟨initK_isF.mpr h_b, by decide⟩, trivial⟩ rfl
example (x : α) : let mem : Mem α := [⟨true, List.replicate 4 (.f x)⟩]
    Init mem (0, 0) 3 ∧ Init mem (0, 1) 3 :=
  ⟨.replicate (by decide), .replicate (by decide)⟩

theorem C56_any_vec3_distance {mem : Mem α} {aP bP : Ptr} (h_a : Init mem aP 3) (h_b : Init mem bP 3) :
    Safe mem [] .float (C.glm_vec3_distance.run mem [aP.val, bP.val]) :=
  safe_entry Lib.glm_vec3_distance_ok [.inp aP 3, .inp bP 3] ⟨⟨initK_isF.mpr h_a, by decide⟩, ⟨initK_isF.mpr h_b, by decide⟩, trivial⟩ rfl
example (x : α) : let mem : Mem α := [⟨true, List.replicate 4 (.f x)⟩]
    Init mem (0, 0) 3 ∧ Init mem (0, 1) 3 :=
  ⟨.replicate (by decide), .replicate (by decide)⟩

theorem C56_any_vec3_maxv {mem : Mem α} {aP bP destP : Ptr} (h_a : Init mem aP 3) (h_b : Init mem bP 3) (r_dest : Room mem destP 3) :
    Safe mem [(destP, 3)] .void (C.glm_vec3_maxv.run mem [aP.val, bP.val, destP.val]) :=
  safe_entry Lib.glm_vec3_maxv_ok [.inp aP 3, .inp bP 3, .out destP 3] ⟨⟨initK_isF.mpr h_a, by decide⟩, ⟨initK_isF.mpr h_b, by decide⟩, ⟨r_dest, by decide⟩, trivial⟩ rfl
example (x : α) : let mem : Mem α := [⟨true, List.replicate 5 (.f x)⟩]
    Init mem (0, 0) 3 ∧ Init mem (0, 1) 3 ∧ Room mem (0, 2) 3 :=
  ⟨.replicate (by decide), .replicate (by decide), .replicate (by decide)⟩

theorem C56_any_vec3_minv {mem : Mem α} {aP bP destP : Ptr} (h_a : Init mem aP 3) (h_b : Init mem bP 3) (r_dest : Room mem destP 3) :
    Safe mem [(destP, 3)] .void (C.glm_vec3_minv.run mem [aP.val, bP.val, destP.val]) :=
  safe_entry Lib.glm_vec3_minv_ok [.inp aP 3, .inp bP 3, .out destP 3] ⟨⟨initK_isF.mpr h_a, by decide⟩, ⟨initK_isF.mpr h_b, by decide⟩, ⟨r_dest, by decide⟩, trivial⟩ rfl
example (x : α) : let mem : Mem α := [⟨true, List.replicate 5 (.f x)⟩]
    Init mem (0, 0) 3 ∧ Init mem (0, 1) 3 ∧ Room mem (0, 2) 3 :=
  ⟨.replicate (by decide), .replicate (by decide), .replicate (by decide)⟩

theorem C56_any_vec3_ortho {mem : Mem α} {vP destP : Ptr} (h_v : Init mem vP 3) (r_dest : Room mem destP 3) :
    Safe mem [(destP, 3)] .void (C.glm_vec3_ortho.run mem [vP.val, destP.val]) :=
  safe_entry Lib.glm_vec3_ortho_ok [.inp vP 3, .out destP 3] ⟨⟨initK_isF.mpr h_v, by decide⟩, ⟨r_dest, by decide⟩, trivial⟩ rfl
example (x : α) : let mem : Mem α := [⟨true, List.replicate 4 (.f x)⟩]
    Init mem (0, 0) 3 ∧ Room mem (0, 1) 3 :=
  ⟨.replicate (by decide), .replicate (by decide)⟩

theorem C56_any_vec3_clamp {mem : Mem α} {vP : Ptr} (minVal : α) (maxVal : α) (h_v : Init mem vP 3) (r_v : Room mem vP 3) :
    Safe mem [(vP, 3)] .void (C.glm_vec3_clamp.run mem [vP.val, .f minVal, .f maxVal]) :=
  safe_entry Lib.glm_vec3_clamp_ok [.io vP 3, .f minVal, .f maxVal] ⟨⟨initK_isF.mpr h_v, r_v, by decide⟩, trivial, trivial, trivial⟩ rfl
example (x : α) : let mem : Mem α := [⟨true, List.replicate 3 (.f x)⟩]
    Init mem (0, 0) 3 ∧ Room mem (0, 0) 3 :=
  ⟨.replicate (by decide), .replicate (by decide)⟩

theorem C56_any_vec3_lerp {mem : Mem α} {frmP toP destP : Ptr} (t : α) (h_frm : Init mem frmP 3) (h_to : Init mem toP 3) (r_dest : Room mem destP 3) :
    Safe mem [(destP, 3)] .void (C.glm_vec3_lerp.run mem [frmP.val, toP.val, .f t, destP.val]) :=
  safe_entry Lib.glm_vec3_lerp_ok [.inp frmP 3, .inp toP 3, .f t, .out destP 3] ⟨⟨initK_isF.mpr h_frm, by decide⟩, ⟨initK_isF.mpr h_to, by decide⟩, trivial, ⟨r_dest, by decide⟩, trivial⟩ rfl
example (x : α) : let mem : Mem α := [⟨true, List.replicate 5 (.f x)⟩]
    Init mem (0, 0) 3 ∧ Init mem (0, 1) 3 ∧ Room mem (0, 2) 3 :=
  ⟨.replicate (by decide), .replicate (by decide), .replicate (by decide)⟩

theorem C56_any_vec3_lerpc {mem : Mem α} {frmP toP destP : Ptr} (t : α) (h_frm : Init mem frmP 3) (h_to : Init mem toP 3) (r_dest : Room mem destP 3) :
    Safe mem [(destP, 3)] .void (C.glm_vec3_lerpc.run mem [frmP.val, toP.val, .f t, destP.val]) :=
  safe_entry Lib.glm_vec3_lerpc_ok [.inp frmP 3, .inp toP 3, .f t, .out destP 3] ⟨⟨initK_isF.mpr h_frm, by decide⟩, ⟨initK_isF.mpr h_to, by decide⟩, trivial, ⟨r_dest, by decide⟩, trivial⟩ rfl
example (x : α) : let mem : Mem α := [⟨true, List.replicate 5 (.f x)⟩]
    Init mem (0, 0) 3 ∧ Init mem (0, 1) 3 ∧ Room mem (0, 2) 3 :=
  ⟨.replicate (by decide), .replicate (by decide), .replicate (by decide)⟩

theorem C56_any_vec3_mix {mem : Mem α} {frmP toP destP : Ptr} (t : α) (h_frm : Init mem frmP 3) (h_to : Init mem toP 3) (r_dest : Room mem destP 3) :
    Safe mem [(destP, 3)] .void (C.glm_vec3_mix.run mem [frmP.val, toP.val, .f t, destP.val]) :=
  safe_entry Lib.glm_vec3_mix_ok [.inp frmP 3, .inp toP 3, .f t, .out destP 3] ⟨⟨initK_isF.mpr h_frm, by decide⟩, ⟨initK_isF.mpr h_to, by decide⟩, trivial, ⟨r_dest, by decide⟩, trivial⟩ rfl
example (x : α) : let mem : Mem α := [⟨true, List.replicate 5 (.f x)⟩]
    Init mem (0, 0) 3 ∧ Init mem (0, 1) 3 ∧ Room mem (0, 2) 3 :=
  ⟨.replicate (by decide), .replicate (by decide), .replicate (by decide)⟩

theorem C56_any_vec3_mixc {mem : Mem α} {frmP toP destP : Ptr} (t : α) (h_frm : Init mem frmP 3) (h_to : Init mem toP 3) (r_dest : Room mem destP 3) :
    Safe mem [(destP, 3)] .void (C.glm_vec3_mixc.run mem [frmP.val, toP.val, .f t, destP.val]) :=
  safe_entry Lib.glm_vec3_mixc_ok [.inp frmP 3, .inp toP 3, .f t, .out destP 3] ⟨⟨initK_isF.mpr h_frm, by decide⟩, ⟨initK_isF.mpr h_to, by decide⟩, trivial, ⟨r_dest, by decide⟩, trivial⟩ rfl
example (x : α) : let mem : Mem α := [⟨true, List.replicate 5 (.f x)⟩]
    Init mem (0, 0) 3 ∧ Init mem (0, 1) 3 ∧ Room mem (0, 2) 3 :=
  ⟨.replicate (by decide), .replicate (by decide), .replicate (by decide)⟩

theorem C56_any_vec3_step {mem : Mem α} {edgeP xP destP : Ptr} (h_edge : Init mem edgeP 3) (h_x : Init mem xP 3) (r_dest : Room mem destP 3) :
    Safe mem [(destP, 3)] .void (C.glm_vec3_step.run mem [edgeP.val, xP.val, destP.val]) :=
  safe_entry Lib.glm_vec3_step_ok [.inp edgeP 3, .inp xP 3, .out destP 3] ⟨⟨initK_isF.mpr h_edge, by decide⟩, ⟨initK_isF.mpr h_x, by decide⟩, ⟨r_dest, by decide⟩, trivial⟩ rfl
example (x : α) : let mem : Mem α := [⟨true, List.replicate 5 (.f x)⟩]
    Init mem (0, 0) 3 ∧ Init mem (0, 1) 3 ∧ Room mem (0, 2) 3 :=
  ⟨.replicate (by decide), .replicate (by decide), .replicate (by decide)⟩

theorem C56_any_vec3_smoothstep_uni {mem : Mem α} {xP destP : Ptr} (edge0 : α) (edge1 : α) (h_x : Init mem xP 3) (r_dest : Room mem destP 3) :
    Safe mem [(destP, 3)] .void (C.glm_vec3_smoothstep_uni.run mem [.f edge0, .f edge1, xP.val, destP.val]) :=
  safe_entry Lib.glm_vec3_smoothstep_uni_ok [.f edge0, .f edge1, .inp xP 3, .out destP 3] ⟨trivial, trivial, ⟨initK_isF.mpr h_x, by decide⟩, ⟨r_dest, by decide⟩, trivial⟩ rfl
example (x : α) : let mem : Mem α := [⟨true, List.replicate 4 (.f x)⟩]
    Init mem (0, 0) 3 ∧ Room mem (0, 1) 3 :=
  ⟨.replicate (by decide), .replicate (by decide)⟩

theorem C56_any_vec3_smoothstep {mem : Mem α} {edge0P edge1P xP destP : Ptr} (h_edge0 : Init mem edge0P 3) (h_edge1 : Init mem edge1P 3) (h_x : Init mem xP 3) (r_dest : Room mem destP 3) :
    Safe mem [(destP, 3)] .void (C.glm_vec3_smoothstep.run mem [edge0P.val, edge1P.val, xP.val, destP.val]) :=
  safe_entry Lib.glm_vec3_smoothstep_ok [.inp edge0P 3, .inp edge1P 3, .inp xP 3, .out destP 3] ⟨⟨initK_isF.mpr h_edge0, by decide⟩, ⟨initK_isF.mpr h_edge1, by decide⟩, ⟨initK_isF.mpr h_x, by decide⟩, ⟨r_dest, by decide⟩, trivial⟩ rfl
example (x : α) : let mem : Mem α := [⟨true, List.replicate 6 (.f x)⟩]
    Init mem (0, 0) 3 ∧ Init mem (0, 1) 3 ∧ Init mem (0, 2) 3 ∧ Room mem (0, 3) 3 :=
  ⟨.replicate (by decide), .replicate (by decide), .replicate (by decide), .replicate (by decide)⟩

theorem C56_any_vec3_smoothinterp {mem : Mem α} {frmP toP destP : Ptr} (t : α) (h_frm : Init mem frmP 3) (h_to : Init mem toP 3) (r_dest : Room mem destP 3) :
    Safe mem [(destP, 3)] .void (C.glm_vec3_smoothinterp.run mem [frmP.val, toP.val, .f t, destP.val]) :=
  safe_entry Lib.glm_vec3_smoothinterp_ok [.inp frmP 3, .inp toP 3, .f t, .out destP 3] ⟨⟨initK_isF.mpr h_frm, by decide⟩, ⟨initK_isF.mpr h_to, by decide⟩, trivial, ⟨r_dest, by decide⟩, trivial⟩ rfl
example (x : α) : let mem : Mem α := [⟨true, List.replicate 5 (.f x)⟩]
    Init mem (0, 0) 3 ∧ Init mem (0, 1) 3 ∧ Room mem (0, 2) 3 :=
  ⟨.replicate (by decide), .replicate (by decide), .replicate (by decide)⟩

theorem C56_any_vec3_smoothinterpc {mem : Mem α} {frmP toP destP : Ptr} (t : α) (h_frm : Init mem frmP 3) (h_to : Init mem toP 3) (r_dest : Room mem destP 3) :
    Safe mem [(destP, 3)] .void (C.glm_vec3_smoothinterpc.run mem [frmP.val, toP.val, .f t, destP.val]) :=
  safe_entry Lib.glm_vec3_smoothinterpc_ok [.inp frmP 3, .inp toP 3, .f t, .out destP 3] ⟨⟨initK_isF.mpr h_frm, by decide⟩, ⟨initK_isF.mpr h_to, by decide⟩, trivial, ⟨r_dest, by decide⟩, trivial⟩ rfl
example (x : α) : let mem : Mem α := [⟨true, List.replicate 5 (.f x)⟩]
    Init mem (0, 0) 3 ∧ Init mem (0, 1) 3 ∧ Room mem (0, 2) 3 :=
  ⟨.replicate (by decide), .replicate (by decide), .replicate (by decide)⟩

theorem C56_any_cross {mem : Mem α} {aP bP dP : Ptr} (h_a : Init mem aP 3) (h_b : Init mem bP 3) (r_d : Room mem dP 3) :
    Safe mem [(dP, 3)] .void (C.glm_cross.run mem [aP.val, bP.val, dP.val]) :=
  safe_entry Lib.glm_cross_ok [.inp aP 3, .inp bP 3, .out dP 3] ⟨⟨initK_isF.mpr h_a, by decide⟩, ⟨initK_isF.mpr h_b, by decide⟩, ⟨r_d, by decide⟩, trivial⟩ rfl
example (x : α) : let mem : Mem α := [⟨true, List.replicate 5 (.f x)⟩]
    Init mem (0, 0) 3 ∧ Init mem (0, 1) 3 ∧ Room mem (0, 2) 3 :=
  ⟨.replicate (by decide), .replicate (by decide), .replicate (by decide)⟩

theorem C56_any_dot {mem : Mem α} {aP bP : Ptr} (h_a : Init mem aP 3) (h_b : Init mem bP 3) :
    Safe mem [] .float (C.glm_dot.run mem [aP.val, bP.val]) :=
  safe_entry Lib.glm_dot_ok [.inp aP 3, .inp bP 3] ⟨⟨initK_isF.mpr h_a, by decide⟩, ⟨initK_isF.mpr h_b, by decide⟩, trivial⟩ rfl
example (x : α) : let mem : Mem α := [⟨true, List.replicate 4 (.f x)⟩]
    Init mem (0, 0) 3 ∧ Init mem (0, 1) 3 :=
  ⟨.replicate (by decide), .replicate (by decide)⟩

theorem C56_any_normalize {mem : Mem α} {vP : Ptr} (h_v : Init mem vP 3) (r_v : Room mem vP 3) :
    Safe mem [(vP, 3)] .void (C.glm_normalize.run mem [vP.val]) :=
  safe_entry Lib.glm_normalize_ok [.io vP 3] ⟨⟨initK_isF.mpr h_v, r_v, by decide⟩, trivial⟩ rfl
example (x : α) : let mem : Mem α := [⟨true, List.replicate 3 (.f x)⟩]
    Init mem (0, 0) 3 ∧ Room mem (0, 0) 3 :=
  ⟨.replicate (by decide), .replicate (by decide)⟩

theorem C56_any_normalize_to {mem : Mem α} {vP destP : Ptr} (h_v : Init mem vP 3) (r_dest : Room mem destP 3) :
    Safe mem [(destP, 3)] .void (C.glm_normalize_to.run mem [vP.val, destP.val]) :=
  safe_entry Lib.glm_normalize_to_ok [.inp vP 3, .out destP 3] ⟨⟨initK_isF.mpr h_v, by decide⟩, ⟨r_dest, by decide⟩, trivial⟩ rfl
example (x : α) : let mem : Mem α := [⟨true, List.replicate 4 (.f x)⟩]
    Init mem (0, 0) 3 ∧ Room mem (0, 1) 3 :=
  ⟨.replicate (by decide), .replicate (by decide)⟩

theorem C56_any_vec3_make {mem : Mem α} {srcP destP : Ptr} (h_src : Init mem srcP 3) (r_dest : Room mem destP 3) :
    Safe mem [(destP, 3)] .void (C.glm_vec3_make.run mem [srcP.val, destP.val]) :=
  safe_entry Lib.glm_vec3_make_ok [.inp srcP 3, .out destP 3] ⟨⟨initK_isF.mpr h_src, by decide⟩, ⟨r_dest, by decide⟩, trivial⟩ rfl
example (x : α) : let mem : Mem α := [⟨true, List.replicate 4 (.f x)⟩]
    Init mem (0, 0) 3 ∧ Room mem (0, 1) 3 :=
  ⟨.replicate (by decide), .replicate (by decide)⟩

theorem C56_any_vec3_faceforward {mem : Mem α} {nP vP nrefP destP : Ptr} (h_n : Init mem nP 3) (h_v : Init mem vP 3) (h_nref : Init mem nrefP 3) (r_dest : Room mem destP 3) :
    Safe mem [(destP, 3)] .void (C.glm_vec3_faceforward.run mem [nP.val, vP.val, nrefP.val, destP.val]) :=
  safe_entry Lib.glm_vec3_faceforward_ok [.inp nP 3, .inp vP 3, .inp nrefP 3, .out destP 3] ⟨⟨initK_isF.mpr h_n, by decide⟩, ⟨initK_isF.mpr h_v, by decide⟩, ⟨initK_isF.mpr h_nref, by decide⟩, ⟨r_dest, by decide⟩, trivial⟩ rfl
example (x : α) : let mem : Mem α := [⟨true, List.replicate 6 (.f x)⟩]
    Init mem (0, 0) 3 ∧ Init mem (0, 1) 3 ∧ Init mem (0, 2) 3 ∧ Room mem (0, 3) 3 :=
  ⟨.replicate (by decide), .replicate (by decide), .replicate (by decide), .replicate (by decide)⟩

theorem C56_any_vec3_reflect {mem : Mem α} {vP nP destP : Ptr} (h_v : Init mem vP 3) (h_n : Init mem nP 3) (r_dest : Room mem destP 3) :
    Safe mem [(destP, 3)] .void (C.glm_vec3_reflect.run mem [vP.val, nP.val, destP.val]) :=
  safe_entry Lib.glm_vec3_reflect_ok [.inp vP 3, .inp nP 3, .out destP 3] ⟨⟨initK_isF.mpr h_v, by decide⟩, ⟨initK_isF.mpr h_n, by decide⟩, ⟨r_dest, by decide⟩, trivial⟩ rfl
example (x : α) : let mem : Mem α := [⟨true, List.replicate 5 (.f x)⟩]
    Init mem (0, 0) 3 ∧ Init mem (0, 1) 3 ∧ Room mem (0, 2) 3 :=
  ⟨.replicate (by decide), .replicate (by decide), .replicate (by decide)⟩

theorem C56_any_vec3_refract {mem : Mem α} {vP nP destP : Ptr} (eta : α) (h_v : Init mem vP 3) (h_n : Init mem nP 3) (r_dest : Room mem destP 3) :
    Safe mem [(destP, 3)] .bool (C.glm_vec3_refract.run mem [vP.val, nP.val, .f eta, destP.val]) :=
  safe_entry Lib.glm_vec3_refract_ok [.inp vP 3, .inp nP 3, .f eta, .out destP 3] ⟨⟨initK_isF.mpr h_v, by decide⟩, ⟨initK_isF.mpr h_n, by decide⟩, trivial, ⟨r_dest, by decide⟩, trivial⟩ rfl
example (x : α) : let mem : Mem α := [⟨true, List.replicate 5 (.f x)⟩]
    Init mem (0, 0) 3 ∧ Init mem (0, 1) 3 ∧ Room mem (0, 2) 3 :=
  ⟨.replicate (by decide), .replicate (by decide), .replicate (by decide)⟩

end Cglm
