/- Generated by tools/partthms.py; do not edit by hand. -/
import Verif.CMemPart
import Verif.Lib.Mat
import Verif.Mem.MatsRun

/-!
# C99: components that need not be initialised

`Part mem p l vs`: the array at `p` holds `vs`, but the cells in `l` may hold anything or nothing.  The call is defined and its
result is the value-level function of `vs`, whatever entries `vs` has at those cells.  Inputs and outputs may overlap as in C98.
-/

set_option linter.unusedVariables false
set_option linter.unusedSectionVars false

namespace Cglm
open CMem

variable {α : Type} [Add α] [Sub α] [Mul α] [Div α] [Neg α] [CFloat α]

theorem C99_mat4_pick3 {mem : Mem α} {matP destP : Ptr} {mat : M4 α} (h_mat : Part mem matP [3, 7, 11, 12, 13, 14, 15] mat.list) (r_dest : Room mem destP 9) (c_mat_dest : Over matP 16 destP 9) :
    C.glm_mat4_pick3.run mem [matP.val, destP.val] =
      some (none, writes mem [(destP, (Cglm.glm_mat4_pick3 mat).list.map .f)]) :=
  transferPart (e := Lib.glm_mat4_pick3) (l := [(1, 0, [(0, [1, 2, 3, 4, 5, 6, 7, 8, 9, 10, 11, 12, 13, 14, 15]), (1, [2, 3, 4, 5, 6, 7, 8, 9, 10, 11, 12, 13, 14, 15]), (2, [3, 4, 5, 6, 7, 8, 9, 10, 11, 12, 13, 14, 15]), (3, [4, 5, 6, 7, 8, 9, 10, 11, 12, 13, 14, 15]), (4, [5, 6, 7, 8, 9, 10, 11, 12, 13, 14, 15]), (5, [6, 7, 8, 9, 10, 11, 12, 13, 14, 15]), (6, [7, 8, 9, 10, 11, 12, 13, 14, 15]), (7, [8, 9, 10, 11, 12, 13, 14, 15]), (8, [9, 10, 11, 12, 13, 14, 15])])]) (u := [(0, [3, 7, 11, 12, 13, 14, 15])]) (by kernel_rfl) rfl (((RO.nil true _).addW r_dest.has r_dest .nil).addR h_mat.has) (.cons rfl rfl (c_mat_dest.clear rfl) .nil) (.p rfl (.p rfl .nil)) (glm_mat4_pick3_run _) (DT.val_done _) rfl rfl rfl rfl
example (mat : M4 α) : let mem : Mem α := [⟨false, [.f mat.c0.x, .f mat.c0.y, .f mat.c0.z, .undef, .f mat.c1.x, .f mat.c1.y, .f mat.c1.z, .undef, .f mat.c2.x, .f mat.c2.y, .f mat.c2.z, .undef, .undef, .undef, .undef, .undef]⟩, ⟨true, List.replicate 9 .undef⟩]
    Part mem (0, 0) [3, 7, 11, 12, 13, 14, 15] mat.list ∧ Room mem (1, 0) 9 ∧ Over (0, 0) 16 (1, 0) 9 :=
  ⟨.within rfl rfl rfl, .within rfl rfl, .inl (by decide)⟩

theorem C99_mat4_pick3t {mem : Mem α} {matP destP : Ptr} {mat : M4 α} (h_mat : Part mem matP [3, 7, 11, 12, 13, 14, 15] mat.list) (r_dest : Room mem destP 9) (c_mat_dest : Clear destP matP [(0, [1, 2, 4, 5, 6, 8, 9, 10]), (1, [1, 2, 5, 6, 8, 9, 10]), (2, [1, 2, 5, 6, 9, 10]), (3, [2, 5, 6, 9, 10]), (4, [2, 6, 9, 10]), (5, [2, 6, 10]), (6, [6, 10]), (7, [10])]) :
    C.glm_mat4_pick3t.run mem [matP.val, destP.val] =
      some (none, writes mem [(destP, (Cglm.glm_mat4_pick3t mat).list.map .f)]) :=
  transferPart (e := Lib.glm_mat4_pick3t) (l := [(1, 0, [(0, [1, 2, 4, 5, 6, 8, 9, 10]), (1, [1, 2, 5, 6, 8, 9, 10]), (2, [1, 2, 5, 6, 9, 10]), (3, [2, 5, 6, 9, 10]), (4, [2, 6, 9, 10]), (5, [2, 6, 10]), (6, [6, 10]), (7, [10])])]) (u := [(0, [3, 7, 11, 12, 13, 14, 15])]) (by kernel_rfl) rfl (((RO.nil true _).addW r_dest.has r_dest .nil).addR h_mat.has) (.cons rfl rfl c_mat_dest .nil) (.p rfl (.p rfl .nil)) (glm_mat4_pick3t_run _) (DT.val_done _) rfl rfl rfl rfl
example (mat : M4 α) : let mem : Mem α := [⟨false, [.f mat.c0.x, .f mat.c0.y, .f mat.c0.z, .undef, .f mat.c1.x, .f mat.c1.y, .f mat.c1.z, .undef, .f mat.c2.x, .f mat.c2.y, .f mat.c2.z, .undef, .undef, .undef, .undef, .undef]⟩, ⟨true, List.replicate 9 .undef⟩]
    Part mem (0, 0) [3, 7, 11, 12, 13, 14, 15] mat.list ∧ Room mem (1, 0) 9 ∧ Clear (1, 0) (0, 0) [(0, [1, 2, 4, 5, 6, 8, 9, 10]), (1, [1, 2, 5, 6, 8, 9, 10]), (2, [1, 2, 5, 6, 9, 10]), (3, [2, 5, 6, 9, 10]), (4, [2, 6, 9, 10]), (5, [2, 6, 10]), (6, [6, 10]), (7, [10])] :=
  ⟨.within rfl rfl rfl, .within rfl rfl, .other rfl⟩

theorem C99_mat4_ins3 {mem : Mem α} {matP destP : Ptr} {mat : M3 α} {dest : M4 α} (h_mat : Holds mem matP mat.list) (h_dest : Part mem destP [0, 1, 2, 4, 5, 6, 8, 9, 10] dest.list) (r_dest : Room mem destP 16) (c_mat_dest : Clear destP matP [(0, [1, 2, 3, 4, 5, 6, 7, 8]), (1, [2, 3, 4, 5, 6, 7, 8]), (2, [3, 4, 5, 6, 7, 8]), (4, [4, 5, 6, 7, 8]), (5, [5, 6, 7, 8]), (6, [6, 7, 8]), (8, [7, 8]), (9, [8])]) :
    C.glm_mat4_ins3.run mem [matP.val, destP.val] =
      some (none, writes mem [(destP, (Cglm.glm_mat4_ins3 mat dest).list.map .f)]) :=
  transferPart (e := Lib.glm_mat4_ins3) (l := [(1, 0, [(0, [1, 2, 3, 4, 5, 6, 7, 8]), (1, [2, 3, 4, 5, 6, 7, 8]), (2, [3, 4, 5, 6, 7, 8]), (4, [4, 5, 6, 7, 8]), (5, [5, 6, 7, 8]), (6, [6, 7, 8]), (8, [7, 8]), (9, [8])])]) (u := [(1, [0, 1, 2, 4, 5, 6, 8, 9, 10])]) (by kernel_rfl) rfl (((RO.nil true _).addW h_dest.has r_dest .nil).addR h_mat.has) (.cons rfl rfl c_mat_dest .nil) (.p rfl (.p rfl .nil)) (glm_mat4_ins3_run _ _) (DT.val_done _) rfl rfl rfl rfl
example (mat : M3 α) (dest : M4 α) : let mem : Mem α := [⟨false, mat.list.map .f⟩, ⟨true, [.undef, .undef, .undef, .f dest.c0.w, .undef, .undef, .undef, .f dest.c1.w, .undef, .undef, .undef, .f dest.c2.w, .f dest.c3.x, .f dest.c3.y, .f dest.c3.z, .f dest.c3.w]⟩]
    Holds mem (0, 0) mat.list ∧ Room mem (1, 0) 16 ∧ Part mem (1, 0) [0, 1, 2, 4, 5, 6, 8, 9, 10] dest.list ∧ Clear (1, 0) (0, 0) [(0, [1, 2, 3, 4, 5, 6, 7, 8]), (1, [2, 3, 4, 5, 6, 7, 8]), (2, [3, 4, 5, 6, 7, 8]), (4, [4, 5, 6, 7, 8]), (5, [5, 6, 7, 8]), (6, [6, 7, 8]), (8, [7, 8]), (9, [8])] :=
  ⟨.within rfl rfl, .within rfl rfl, .within rfl rfl rfl, .other rfl⟩

theorem C99_mat4_trace {mem : Mem α} {mP : Ptr} {m : M4 α} (h_m : Part mem mP [1, 2, 3, 4, 6, 7, 8, 9, 11, 12, 13, 14] m.list) :
    C.glm_mat4_trace.run mem [mP.val] =
      some (some (.f (Cglm.glm_mat4_trace m)), mem) :=
  transferPart0 (e := Lib.glm_mat4_trace) (u := [(0, [1, 2, 3, 4, 6, 7, 8, 9, 11, 12, 13, 14])]) (by kernel_rfl) rfl ((RO.nil true _).addR h_m.has) (.p rfl .nil) (glm_mat4_trace_run _) (DT.val_done _) rfl rfl rfl rfl
example (m : M4 α) : let mem : Mem α := [⟨false, [.f m.c0.x, .undef, .undef, .undef, .undef, .f m.c1.y, .undef, .undef, .undef, .undef, .f m.c2.z, .undef, .undef, .undef, .undef, .f m.c3.w]⟩]
    Part mem (0, 0) [1, 2, 3, 4, 6, 7, 8, 9, 11, 12, 13, 14] m.list :=
  Part.within rfl rfl rfl

theorem C99_mat4_trace3 {mem : Mem α} {mP : Ptr} {m : M4 α} (h_m : Part mem mP [1, 2, 3, 4, 6, 7, 8, 9, 11, 12, 13, 14, 15] m.list) :
    C.glm_mat4_trace3.run mem [mP.val] =
      some (some (.f (Cglm.glm_mat4_trace3 m)), mem) :=
  transferPart0 (e := Lib.glm_mat4_trace3) (u := [(0, [1, 2, 3, 4, 6, 7, 8, 9, 11, 12, 13, 14, 15])]) (by kernel_rfl) rfl ((RO.nil true _).addR h_m.has) (.p rfl .nil) (glm_mat4_trace3_run _) (DT.val_done _) rfl rfl rfl rfl
example (m : M4 α) : let mem : Mem α := [⟨false, [.f m.c0.x, .undef, .undef, .undef, .undef, .f m.c1.y, .undef, .undef, .undef, .undef, .f m.c2.z, .undef, .undef, .undef, .undef, .undef]⟩]
    Part mem (0, 0) [1, 2, 3, 4, 6, 7, 8, 9, 11, 12, 13, 14, 15] m.list :=
  Part.within rfl rfl rfl

theorem C99_mat4_quat {mem : Mem α} {mP destP : Ptr} {m : M4 α} (h_m : Part mem mP [3, 7, 11, 12, 13, 14, 15] m.list) (r_dest : Room mem destP 4) (c_m_dest : Clear destP mP [(0, [1, 2, 4, 6, 8, 9]), (1, [1, 2, 4, 6, 8, 9]), (2, [1, 2, 4, 6, 8, 9])]) :
    C.glm_mat4_quat.run mem [mP.val, destP.val] =
      some (none, writes mem [(destP, (Cglm.glm_mat4_quat m).list.map .f)]) :=
  transferPart (e := Lib.glm_mat4_quat) (l := [(1, 0, [(0, [1, 2, 4, 6, 8, 9]), (1, [1, 2, 4, 6, 8, 9]), (2, [1, 2, 4, 6, 8, 9])])]) (u := [(0, [3, 7, 11, 12, 13, 14, 15])]) (by kernel_rfl) rfl (((RO.nil true _).addW r_dest.has r_dest .nil).addR h_m.has) (.cons rfl rfl c_m_dest .nil) (.p rfl (.p rfl .nil)) (glm_mat4_quat_run _) (DT.val_map_eq (glm_mat4_quat_dt_val _) rfl) rfl rfl rfl rfl
example (m : M4 α) : let mem : Mem α := [⟨false, [.f m.c0.x, .f m.c0.y, .f m.c0.z, .undef, .f m.c1.x, .f m.c1.y, .f m.c1.z, .undef, .f m.c2.x, .f m.c2.y, .f m.c2.z, .undef, .undef, .undef, .undef, .undef]⟩, ⟨true, List.replicate 4 .undef⟩]
    Part mem (0, 0) [3, 7, 11, 12, 13, 14, 15] m.list ∧ Room mem (1, 0) 4 ∧ Clear (1, 0) (0, 0) [(0, [1, 2, 4, 6, 8, 9]), (1, [1, 2, 4, 6, 8, 9]), (2, [1, 2, 4, 6, 8, 9])] :=
  ⟨.within rfl rfl rfl, .within rfl rfl, .other rfl⟩

theorem C99_mat3_trace {mem : Mem α} {mP : Ptr} {m : M3 α} (h_m : Part mem mP [1, 2, 3, 5, 6, 7] m.list) :
    C.glm_mat3_trace.run mem [mP.val] =
      some (some (.f (Cglm.glm_mat3_trace m)), mem) :=
  transferPart0 (e := Lib.glm_mat3_trace) (u := [(0, [1, 2, 3, 5, 6, 7])]) (by kernel_rfl) rfl ((RO.nil true _).addR h_m.has) (.p rfl .nil) (glm_mat3_trace_run _) (DT.val_done _) rfl rfl rfl rfl
example (m : M3 α) : let mem : Mem α := [⟨false, [.f m.c0.x, .undef, .undef, .undef, .f m.c1.y, .undef, .undef, .undef, .f m.c2.z]⟩]
    Part mem (0, 0) [1, 2, 3, 5, 6, 7] m.list :=
  Part.within rfl rfl rfl

theorem C99_mat2_trace {mem : Mem α} {mP : Ptr} {m : M2 α} (h_m : Part mem mP [1, 2] m.list) :
    C.glm_mat2_trace.run mem [mP.val] =
      some (some (.f (Cglm.glm_mat2_trace m)), mem) :=
  transferPart0 (e := Lib.glm_mat2_trace) (u := [(0, [1, 2])]) (by kernel_rfl) rfl ((RO.nil true _).addR h_m.has) (.p rfl .nil) (glm_mat2_trace_run _) (DT.val_done _) rfl rfl rfl rfl
example (m : M2 α) : let mem : Mem α := [⟨false, [.f m.c0.x, .undef, .undef, .f m.c1.y]⟩]
    Part mem (0, 0) [1, 2] m.list :=
  Part.within rfl rfl rfl

end Cglm
