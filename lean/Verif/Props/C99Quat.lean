/- Generated by tools/partthms.py; do not edit by hand. -/
import Verif.CMemPart
import Verif.Lib.Quat
import Verif.Mem.QuatsRun

/-!
# C99: components that need not be initialised

`Part mem p l vs`: the array at `p` holds `vs`, but the cells in `l` may hold anything or nothing.  The call is defined and its
result is the value-level function of `vs`, whatever entries `vs` has at those cells.  Inputs and outputs may overlap as in C98.
-/

set_option linter.unusedVariables false
set_option linter.unusedSectionVars false

namespace Cglm
open CMem

variable {α : Type} [Add α] [Sub α] [Mul α] [Div α] [Neg α] [CFloat α]

theorem C99_quat_real {mem : Mem α} {qP : Ptr} {q : V4 α} (h_q : Part mem qP [0, 1, 2] q.list) :
    C.glm_quat_real.run mem [qP.val] =
      some (some (.f (Cglm.glm_quat_real q)), mem) :=
  transferPart0 (e := Lib.glm_quat_real) (u := [(0, [0, 1, 2])]) (by kernel_rfl) rfl ((RO.nil true _).addR h_q.has) (.p rfl .nil) (glm_quat_real_run _) (DT.val_done _) rfl rfl rfl rfl
example (q : V4 α) : let mem : Mem α := [⟨false, [.undef, .undef, .undef, .f q.w]⟩]
    Part mem (0, 0) [0, 1, 2] q.list :=
  Part.within rfl rfl rfl

theorem C99_quat_imag {mem : Mem α} {qP destP : Ptr} {q : V4 α} (h_q : Part mem qP [3] q.list) (r_dest : Room mem destP 3) (c_q_dest : Over qP 4 destP 3) :
    C.glm_quat_imag.run mem [qP.val, destP.val] =
      some (none, writes mem [(destP, (Cglm.glm_quat_imag q).list.map .f)]) :=
  transferPart (e := Lib.glm_quat_imag) (l := [(1, 0, [(0, [1, 2, 3]), (1, [2, 3]), (2, [3])])]) (u := [(0, [3])]) (by kernel_rfl) rfl (((RO.nil true _).addW r_dest.has r_dest .nil).addR h_q.has) (.cons rfl rfl (c_q_dest.clear rfl) .nil) (.p rfl (.p rfl .nil)) (glm_quat_imag_run _) (DT.val_done _) rfl rfl rfl rfl
example (q : V4 α) : let mem : Mem α := [⟨false, [.f q.x, .f q.y, .f q.z, .undef]⟩, ⟨true, List.replicate 3 .undef⟩]
    Part mem (0, 0) [3] q.list ∧ Room mem (1, 0) 3 ∧ Over (0, 0) 4 (1, 0) 3 :=
  ⟨.within rfl rfl rfl, .within rfl rfl, .inl (by decide)⟩

theorem C99_quat_imagn {mem : Mem α} {qP destP : Ptr} {q : V4 α} (h_q : Part mem qP [3] q.list) (r_dest : Room mem destP 3) (c_q_dest : Over qP 4 destP 3) :
    C.glm_quat_imagn.run mem [qP.val, destP.val] =
      some (none, writes mem [(destP, (Cglm.glm_quat_imagn q).list.map .f)]) :=
  transferPart (e := Lib.glm_quat_imagn) (l := [(1, 0, [(0, [1, 2, 3]), (1, [2, 3]), (2, [3])])]) (u := [(0, [3])]) (by kernel_rfl) rfl (((RO.nil true _).addW r_dest.has r_dest .nil).addR h_q.has) (.cons rfl rfl (c_q_dest.clear rfl) .nil) (.p rfl (.p rfl .nil)) (glm_quat_imagn_run _) (DT.val_map_eq (glm_quat_imagn_dt_val _) rfl) rfl rfl rfl rfl
example (q : V4 α) : let mem : Mem α := [⟨false, [.f q.x, .f q.y, .f q.z, .undef]⟩, ⟨true, List.replicate 3 .undef⟩]
    Part mem (0, 0) [3] q.list ∧ Room mem (1, 0) 3 ∧ Over (0, 0) 4 (1, 0) 3 :=
  ⟨.within rfl rfl rfl, .within rfl rfl, .inl (by decide)⟩

theorem C99_quat_imaglen {mem : Mem α} {qP : Ptr} {q : V4 α} (h_q : Part mem qP [3] q.list) :
    C.glm_quat_imaglen.run mem [qP.val] =
      some (some (.f (Cglm.glm_quat_imaglen q)), mem) :=
  transferPart0 (e := Lib.glm_quat_imaglen) (u := [(0, [3])]) (by kernel_rfl) rfl ((RO.nil true _).addR h_q.has) (.p rfl .nil) (glm_quat_imaglen_run _) (DT.val_done _) rfl rfl rfl rfl
example (q : V4 α) : let mem : Mem α := [⟨false, [.f q.x, .f q.y, .f q.z, .undef]⟩]
    Part mem (0, 0) [3] q.list :=
  Part.within rfl rfl rfl

theorem C99_quat_axis {mem : Mem α} {qP destP : Ptr} {q : V4 α} (h_q : Part mem qP [3] q.list) (r_dest : Room mem destP 3) (c_q_dest : Over qP 4 destP 3) :
    C.glm_quat_axis.run mem [qP.val, destP.val] =
      some (none, writes mem [(destP, (Cglm.glm_quat_axis q).list.map .f)]) :=
  transferPart (e := Lib.glm_quat_axis) (l := [(1, 0, [(0, [1, 2, 3]), (1, [2, 3]), (2, [3])])]) (u := [(0, [3])]) (by kernel_rfl) rfl (((RO.nil true _).addW r_dest.has r_dest .nil).addR h_q.has) (.cons rfl rfl (c_q_dest.clear rfl) .nil) (.p rfl (.p rfl .nil)) (glm_quat_axis_run _) (DT.val_map_eq (glm_quat_axis_dt_val _) rfl) rfl rfl rfl rfl
example (q : V4 α) : let mem : Mem α := [⟨false, [.f q.x, .f q.y, .f q.z, .undef]⟩, ⟨true, List.replicate 3 .undef⟩]
    Part mem (0, 0) [3] q.list ∧ Room mem (1, 0) 3 ∧ Over (0, 0) 4 (1, 0) 3 :=
  ⟨.within rfl rfl rfl, .within rfl rfl, .inl (by decide)⟩

theorem C99_euler_angles {mem : Mem α} {mP destP : Ptr} {m : M4 α} (h_m : Part mem mP [2, 3, 6, 7, 11, 12, 13, 14, 15] m.list) (r_dest : Room mem destP 3) :
    C.glm_euler_angles.run mem [mP.val, destP.val] =
      some (none, writes mem [(destP, (Cglm.glm_euler_angles m).list.map .f)]) :=
  transferPart (e := Lib.glm_euler_angles) (l := []) (u := [(0, [2, 3, 6, 7, 11, 12, 13, 14, 15])]) (by kernel_rfl) rfl (((RO.nil true _).addW r_dest.has r_dest .nil).addR h_m.has) .nil (.p rfl (.p rfl .nil)) (glm_euler_angles_run _) (DT.val_map_eq (glm_euler_angles_dt_val _) rfl) rfl rfl rfl rfl
example (m : M4 α) : let mem : Mem α := [⟨false, [.f m.c0.x, .f m.c0.y, .undef, .undef, .f m.c1.x, .f m.c1.y, .undef, .undef, .f m.c2.x, .f m.c2.y, .f m.c2.z, .undef, .undef, .undef, .undef, .undef]⟩, ⟨true, List.replicate 3 .undef⟩]
    Part mem (0, 0) [2, 3, 6, 7, 11, 12, 13, 14, 15] m.list ∧ Room mem (1, 0) 3 :=
  ⟨.within rfl rfl rfl, .within rfl rfl⟩

theorem C99_euler_by_order {mem : Mem α} {anglesP destP : Ptr} {angles : V3 α} (ord : Int) {dest : M4 α} (h_angles : Holds mem anglesP angles.list) (h_dest : Part mem destP [3, 7, 11, 12, 13, 14, 15] dest.list) (r_dest : Room mem destP 16) :
    C.glm_euler_by_order.run mem [anglesP.val, .i ord, destP.val] =
      some (none, writes mem [(destP, (Cglm.glm_euler_by_order angles ord dest).list.map .f)]) :=
  transferPart (e := Lib.glm_euler_by_order) (l := []) (u := [(1, [3, 7, 11, 12, 13, 14, 15])]) (by kernel_rfl) rfl (((RO.nil true _).addW h_dest.has r_dest .nil).addR h_angles.has) .nil (.p rfl (.i (.p rfl .nil))) (glm_euler_by_order_run _ _ _) (DT.val_map_eq (glm_euler_by_order_dt_val _ _ _) rfl) rfl rfl rfl rfl
example (angles : V3 α) (dest : M4 α) : let mem : Mem α := [⟨false, angles.list.map .f⟩, ⟨true, [.f dest.c0.x, .f dest.c0.y, .f dest.c0.z, .undef, .f dest.c1.x, .f dest.c1.y, .f dest.c1.z, .undef, .f dest.c2.x, .f dest.c2.y, .f dest.c2.z, .undef, .undef, .undef, .undef, .undef]⟩]
    Holds mem (0, 0) angles.list ∧ Room mem (1, 0) 16 ∧ Part mem (1, 0) [3, 7, 11, 12, 13, 14, 15] dest.list :=
  ⟨.within rfl rfl, .within rfl rfl, .within rfl rfl rfl⟩

end Cglm
