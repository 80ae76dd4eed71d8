/- Generated by tools/overthms.py; do not edit by hand. -/
import Verif.CMemOver
import Verif.Lib.Mat
import Verif.Mem.MatsRun

/-!
# C98: outputs that overlap inputs: functions that store before they have read everything

Inputs and outputs may overlap in any way that keeps certain cells of an output off certain cells of an input: `Clear q p l`
lists them, `Apart` is the case of all cells, `Over` the case of an output that begins inside an input.  Outputs do not
overlap each other.  The result is the value-level function of what the inputs held before the call, and nothing outside
the outputs changes.
-/

set_option linter.unusedVariables false
set_option linter.unusedSectionVars false

namespace Cglm
open CMem

variable {α : Type} [Add α] [Sub α] [Mul α] [Div α] [Neg α] [CFloat α]

theorem C98_mat4_ucopy {mem : Mem α} {matP destP : Ptr} {mat : M4 α} (h_mat : Holds mem matP mat.list) (r_dest : Room mem destP 16) (c_mat_dest : Clear destP matP [(0, [1, 2, 3, 4, 5, 6, 7, 8, 9, 10, 11, 12, 13, 14, 15]), (1, [2, 3, 5, 6, 7, 8, 9, 10, 11, 12, 13, 14, 15]), (2, [3, 6, 7, 8, 9, 10, 11, 12, 13, 14, 15]), (3, [7, 8, 9, 10, 11, 12, 13, 14, 15]), (4, [1, 2, 3, 5, 6, 7, 8, 9, 10, 11, 12, 13, 14, 15]), (5, [2, 3, 6, 7, 8, 9, 10, 11, 12, 13, 14, 15]), (6, [3, 7, 8, 9, 10, 11, 12, 13, 14, 15]), (7, [8, 9, 10, 11, 12, 13, 14, 15]), (8, [9, 10, 11, 12, 13, 14, 15]), (9, [10, 11, 13, 14, 15]), (10, [11, 14, 15]), (11, [15]), (12, [9, 10, 11, 13, 14, 15]), (13, [10, 11, 14, 15]), (14, [11, 15])]) :
    C.glm_mat4_ucopy.run mem [matP.val, destP.val] =
      some (none, writes mem [(destP, (Cglm.glm_mat4_ucopy mat).list.map .f)]) :=
  transferC (e := Lib.glm_mat4_ucopy) (l := [(1, 0, [(0, [1, 2, 3, 4, 5, 6, 7, 8, 9, 10, 11, 12, 13, 14, 15]), (1, [2, 3, 5, 6, 7, 8, 9, 10, 11, 12, 13, 14, 15]), (2, [3, 6, 7, 8, 9, 10, 11, 12, 13, 14, 15]), (3, [7, 8, 9, 10, 11, 12, 13, 14, 15]), (4, [1, 2, 3, 5, 6, 7, 8, 9, 10, 11, 12, 13, 14, 15]), (5, [2, 3, 6, 7, 8, 9, 10, 11, 12, 13, 14, 15]), (6, [3, 7, 8, 9, 10, 11, 12, 13, 14, 15]), (7, [8, 9, 10, 11, 12, 13, 14, 15]), (8, [9, 10, 11, 12, 13, 14, 15]), (9, [10, 11, 13, 14, 15]), (10, [11, 14, 15]), (11, [15]), (12, [9, 10, 11, 13, 14, 15]), (13, [10, 11, 14, 15]), (14, [11, 15])])]) (by kernel_rfl) (((RO.nil true _).addW r_dest.has r_dest .nil).addR h_mat.has) (.cons rfl rfl c_mat_dest .nil) (.p rfl (.p rfl .nil)) (glm_mat4_ucopy_run _) (DT.val_done _) rfl rfl rfl
example (mat : M4 α) : let mem : Mem α := [⟨true, [.f mat.c0.x, .f mat.c0.y, .f mat.c0.z, .f mat.c0.w, .f mat.c1.x, .f mat.c1.y, .f mat.c1.z, .f mat.c1.w, .f mat.c2.x, .f mat.c2.y, .f mat.c2.z, .f mat.c2.w, .f mat.c3.x, .f mat.c3.y, .f mat.c3.z, .f mat.c3.w]⟩]
    Holds mem (0, 0) mat.list ∧ Room mem (0, 0) 16 ∧ Clear (0, 0) (0, 0) [(0, [1, 2, 3, 4, 5, 6, 7, 8, 9, 10, 11, 12, 13, 14, 15]), (1, [2, 3, 5, 6, 7, 8, 9, 10, 11, 12, 13, 14, 15]), (2, [3, 6, 7, 8, 9, 10, 11, 12, 13, 14, 15]), (3, [7, 8, 9, 10, 11, 12, 13, 14, 15]), (4, [1, 2, 3, 5, 6, 7, 8, 9, 10, 11, 12, 13, 14, 15]), (5, [2, 3, 6, 7, 8, 9, 10, 11, 12, 13, 14, 15]), (6, [3, 7, 8, 9, 10, 11, 12, 13, 14, 15]), (7, [8, 9, 10, 11, 12, 13, 14, 15]), (8, [9, 10, 11, 12, 13, 14, 15]), (9, [10, 11, 13, 14, 15]), (10, [11, 14, 15]), (11, [15]), (12, [9, 10, 11, 13, 14, 15]), (13, [10, 11, 14, 15]), (14, [11, 15])] :=
  ⟨.within rfl rfl, .within rfl rfl, .of rfl⟩

theorem C98_mat4_copy {mem : Mem α} {matP destP : Ptr} {mat : M4 α} (h_mat : Holds mem matP mat.list) (r_dest : Room mem destP 16) (c_mat_dest : Clear destP matP [(0, [1, 2, 3, 4, 5, 6, 7, 8, 9, 10, 11, 12, 13, 14, 15]), (1, [2, 3, 5, 6, 7, 8, 9, 10, 11, 12, 13, 14, 15]), (2, [3, 6, 7, 8, 9, 10, 11, 12, 13, 14, 15]), (3, [7, 8, 9, 10, 11, 12, 13, 14, 15]), (4, [1, 2, 3, 5, 6, 7, 8, 9, 10, 11, 12, 13, 14, 15]), (5, [2, 3, 6, 7, 8, 9, 10, 11, 12, 13, 14, 15]), (6, [3, 7, 8, 9, 10, 11, 12, 13, 14, 15]), (7, [8, 9, 10, 11, 12, 13, 14, 15]), (8, [9, 10, 11, 12, 13, 14, 15]), (9, [10, 11, 13, 14, 15]), (10, [11, 14, 15]), (11, [15]), (12, [9, 10, 11, 13, 14, 15]), (13, [10, 11, 14, 15]), (14, [11, 15])]) :
    C.glm_mat4_copy.run mem [matP.val, destP.val] =
      some (none, writes mem [(destP, (Cglm.glm_mat4_copy mat).list.map .f)]) :=
  transferC (e := Lib.glm_mat4_copy) (l := [(1, 0, [(0, [1, 2, 3, 4, 5, 6, 7, 8, 9, 10, 11, 12, 13, 14, 15]), (1, [2, 3, 5, 6, 7, 8, 9, 10, 11, 12, 13, 14, 15]), (2, [3, 6, 7, 8, 9, 10, 11, 12, 13, 14, 15]), (3, [7, 8, 9, 10, 11, 12, 13, 14, 15]), (4, [1, 2, 3, 5, 6, 7, 8, 9, 10, 11, 12, 13, 14, 15]), (5, [2, 3, 6, 7, 8, 9, 10, 11, 12, 13, 14, 15]), (6, [3, 7, 8, 9, 10, 11, 12, 13, 14, 15]), (7, [8, 9, 10, 11, 12, 13, 14, 15]), (8, [9, 10, 11, 12, 13, 14, 15]), (9, [10, 11, 13, 14, 15]), (10, [11, 14, 15]), (11, [15]), (12, [9, 10, 11, 13, 14, 15]), (13, [10, 11, 14, 15]), (14, [11, 15])])]) (by kernel_rfl) (((RO.nil true _).addW r_dest.has r_dest .nil).addR h_mat.has) (.cons rfl rfl c_mat_dest .nil) (.p rfl (.p rfl .nil)) (glm_mat4_copy_run _) (DT.val_done _) rfl rfl rfl
example (mat : M4 α) : let mem : Mem α := [⟨true, [.f mat.c0.x, .f mat.c0.y, .f mat.c0.z, .f mat.c0.w, .f mat.c1.x, .f mat.c1.y, .f mat.c1.z, .f mat.c1.w, .f mat.c2.x, .f mat.c2.y, .f mat.c2.z, .f mat.c2.w, .f mat.c3.x, .f mat.c3.y, .f mat.c3.z, .f mat.c3.w]⟩]
    Holds mem (0, 0) mat.list ∧ Room mem (0, 0) 16 ∧ Clear (0, 0) (0, 0) [(0, [1, 2, 3, 4, 5, 6, 7, 8, 9, 10, 11, 12, 13, 14, 15]), (1, [2, 3, 5, 6, 7, 8, 9, 10, 11, 12, 13, 14, 15]), (2, [3, 6, 7, 8, 9, 10, 11, 12, 13, 14, 15]), (3, [7, 8, 9, 10, 11, 12, 13, 14, 15]), (4, [1, 2, 3, 5, 6, 7, 8, 9, 10, 11, 12, 13, 14, 15]), (5, [2, 3, 6, 7, 8, 9, 10, 11, 12, 13, 14, 15]), (6, [3, 7, 8, 9, 10, 11, 12, 13, 14, 15]), (7, [8, 9, 10, 11, 12, 13, 14, 15]), (8, [9, 10, 11, 12, 13, 14, 15]), (9, [10, 11, 13, 14, 15]), (10, [11, 14, 15]), (11, [15]), (12, [9, 10, 11, 13, 14, 15]), (13, [10, 11, 14, 15]), (14, [11, 15])] :=
  ⟨.within rfl rfl, .within rfl rfl, .of rfl⟩

theorem C98_mat4_pick3t {mem : Mem α} {matP destP : Ptr} {mat : M4 α} (h_mat : Holds mem matP mat.list) (r_dest : Room mem destP 9) (c_mat_dest : Clear destP matP [(0, [1, 2, 4, 5, 6, 8, 9, 10]), (1, [1, 2, 5, 6, 8, 9, 10]), (2, [1, 2, 5, 6, 9, 10]), (3, [2, 5, 6, 9, 10]), (4, [2, 6, 9, 10]), (5, [2, 6, 10]), (6, [6, 10]), (7, [10])]) :
    C.glm_mat4_pick3t.run mem [matP.val, destP.val] =
      some (none, writes mem [(destP, (Cglm.glm_mat4_pick3t mat).list.map .f)]) :=
  transferC (e := Lib.glm_mat4_pick3t) (l := [(1, 0, [(0, [1, 2, 4, 5, 6, 8, 9, 10]), (1, [1, 2, 5, 6, 8, 9, 10]), (2, [1, 2, 5, 6, 9, 10]), (3, [2, 5, 6, 9, 10]), (4, [2, 6, 9, 10]), (5, [2, 6, 10]), (6, [6, 10]), (7, [10])])]) (by kernel_rfl) (((RO.nil true _).addW r_dest.has r_dest .nil).addR h_mat.has) (.cons rfl rfl c_mat_dest .nil) (.p rfl (.p rfl .nil)) (glm_mat4_pick3t_run _) (DT.val_done _) rfl rfl rfl
example (mat : M4 α) : let mem : Mem α := [⟨true, [.f mat.c0.x, .f mat.c0.y, .f mat.c0.z, .f mat.c0.w, .f mat.c1.x, .f mat.c1.y, .f mat.c1.z, .f mat.c1.w, .f mat.c2.x, .f mat.c2.y, .f mat.c2.z, .f mat.c2.w, .f mat.c3.x, .f mat.c3.y, .f mat.c3.z, .f mat.c3.w, .undef, .undef, .undef, .undef]⟩]
    Holds mem (0, 0) mat.list ∧ Room mem (0, 11) 9 ∧ Clear (0, 11) (0, 0) [(0, [1, 2, 4, 5, 6, 8, 9, 10]), (1, [1, 2, 5, 6, 8, 9, 10]), (2, [1, 2, 5, 6, 9, 10]), (3, [2, 5, 6, 9, 10]), (4, [2, 6, 9, 10]), (5, [2, 6, 10]), (6, [6, 10]), (7, [10])] :=
  ⟨.within rfl rfl, .within rfl rfl, .of rfl⟩

theorem C98_mat4_ins3 {mem : Mem α} {matP destP : Ptr} {mat : M3 α} {dest : M4 α} (h_mat : Holds mem matP mat.list) (h_dest : Holds mem destP dest.list) (r_dest : Room mem destP 16) (c_mat_dest : Clear destP matP [(0, [1, 2, 3, 4, 5, 6, 7, 8]), (1, [2, 3, 4, 5, 6, 7, 8]), (2, [3, 4, 5, 6, 7, 8]), (4, [4, 5, 6, 7, 8]), (5, [5, 6, 7, 8]), (6, [6, 7, 8]), (8, [7, 8]), (9, [8])]) :
    C.glm_mat4_ins3.run mem [matP.val, destP.val] =
      some (none, writes mem [(destP, (Cglm.glm_mat4_ins3 mat dest).list.map .f)]) :=
  transferC (e := Lib.glm_mat4_ins3) (l := [(1, 0, [(0, [1, 2, 3, 4, 5, 6, 7, 8]), (1, [2, 3, 4, 5, 6, 7, 8]), (2, [3, 4, 5, 6, 7, 8]), (4, [4, 5, 6, 7, 8]), (5, [5, 6, 7, 8]), (6, [6, 7, 8]), (8, [7, 8]), (9, [8])])]) (by kernel_rfl) (((RO.nil true _).addW h_dest.has r_dest .nil).addR h_mat.has) (.cons rfl rfl c_mat_dest .nil) (.p rfl (.p rfl .nil)) (glm_mat4_ins3_run _ _) (DT.val_done _) rfl rfl rfl
example (dest : M4 α) : let mem : Mem α := [⟨true, [.f dest.c0.x, .f dest.c0.y, .f dest.c0.z, .f dest.c0.w, .f dest.c1.x, .f dest.c1.y, .f dest.c1.z, .f dest.c1.w, .f dest.c2.x, .f dest.c2.y, .f dest.c2.z, .f dest.c2.w, .f dest.c3.x, .f dest.c3.y, .f dest.c3.z, .f dest.c3.w]⟩]
    Holds mem (0, 2) (⟨⟨dest.c0.z, dest.c0.w, dest.c1.x⟩, ⟨dest.c1.y, dest.c1.z, dest.c1.w⟩, ⟨dest.c2.x, dest.c2.y, dest.c2.z⟩⟩ : M3 α).list ∧ Room mem (0, 0) 16 ∧ Holds mem (0, 0) dest.list ∧ Clear (0, 0) (0, 2) [(0, [1, 2, 3, 4, 5, 6, 7, 8]), (1, [2, 3, 4, 5, 6, 7, 8]), (2, [3, 4, 5, 6, 7, 8]), (4, [4, 5, 6, 7, 8]), (5, [5, 6, 7, 8]), (6, [6, 7, 8]), (8, [7, 8]), (9, [8])] :=
  ⟨.within rfl rfl, .within rfl rfl, .within rfl rfl, .of rfl⟩

theorem C98_mat4_quat {mem : Mem α} {mP destP : Ptr} {m : M4 α} (h_m : Holds mem mP m.list) (r_dest : Room mem destP 4) (c_m_dest : Clear destP mP [(0, [1, 2, 4, 6, 8, 9]), (1, [1, 2, 4, 6, 8, 9]), (2, [1, 2, 4, 6, 8, 9])]) :
    C.glm_mat4_quat.run mem [mP.val, destP.val] =
      some (none, writes mem [(destP, (Cglm.glm_mat4_quat m).list.map .f)]) :=
  transferC (e := Lib.glm_mat4_quat) (l := [(1, 0, [(0, [1, 2, 4, 6, 8, 9]), (1, [1, 2, 4, 6, 8, 9]), (2, [1, 2, 4, 6, 8, 9])])]) (by kernel_rfl) (((RO.nil true _).addW r_dest.has r_dest .nil).addR h_m.has) (.cons rfl rfl c_m_dest .nil) (.p rfl (.p rfl .nil)) (glm_mat4_quat_run _) (DT.val_map_eq (glm_mat4_quat_dt_val _) rfl) rfl rfl rfl
example (m : M4 α) : let mem : Mem α := [⟨true, [.f m.c0.x, .f m.c0.y, .f m.c0.z, .f m.c0.w, .f m.c1.x, .f m.c1.y, .f m.c1.z, .f m.c1.w, .f m.c2.x, .f m.c2.y, .f m.c2.z, .f m.c2.w, .f m.c3.x, .f m.c3.y, .f m.c3.z, .f m.c3.w]⟩]
    Holds mem (0, 0) m.list ∧ Room mem (0, 12) 4 ∧ Clear (0, 12) (0, 0) [(0, [1, 2, 4, 6, 8, 9]), (1, [1, 2, 4, 6, 8, 9]), (2, [1, 2, 4, 6, 8, 9])] :=
  ⟨.within rfl rfl, .within rfl rfl, .of rfl⟩

theorem C98_mat4_transpose_to {mem : Mem α} {mP destP : Ptr} {m : M4 α} (h_m : Holds mem mP m.list) (r_dest : Room mem destP 16) (c_m_dest : Clear destP mP [(0, [1, 2, 3, 4, 5, 6, 7, 8, 9, 10, 11, 12, 13, 14, 15]), (1, [2, 3, 5, 6, 7, 8, 9, 10, 11, 12, 13, 14, 15]), (2, [2, 3, 6, 7, 9, 10, 11, 12, 13, 14, 15]), (3, [2, 3, 6, 7, 10, 11, 13, 14, 15]), (4, [2, 3, 4, 5, 6, 7, 8, 9, 10, 11, 12, 13, 14, 15]), (5, [2, 3, 6, 7, 8, 9, 10, 11, 12, 13, 14, 15]), (6, [2, 3, 6, 7, 10, 11, 12, 13, 14, 15]), (7, [2, 3, 6, 7, 10, 11, 14, 15]), (8, [3, 6, 7, 10, 11, 14, 15]), (9, [7, 10, 11, 14, 15]), (10, [11, 14, 15]), (11, [15]), (12, [6, 7, 10, 11, 14, 15]), (13, [10, 11, 14, 15]), (14, [14, 15])]) :
    C.glm_mat4_transpose_to.run mem [mP.val, destP.val] =
      some (none, writes mem [(destP, (Cglm.glm_mat4_transpose_to m).list.map .f)]) :=
  transferC (e := Lib.glm_mat4_transpose_to) (l := [(1, 0, [(0, [1, 2, 3, 4, 5, 6, 7, 8, 9, 10, 11, 12, 13, 14, 15]), (1, [2, 3, 5, 6, 7, 8, 9, 10, 11, 12, 13, 14, 15]), (2, [2, 3, 6, 7, 9, 10, 11, 12, 13, 14, 15]), (3, [2, 3, 6, 7, 10, 11, 13, 14, 15]), (4, [2, 3, 4, 5, 6, 7, 8, 9, 10, 11, 12, 13, 14, 15]), (5, [2, 3, 6, 7, 8, 9, 10, 11, 12, 13, 14, 15]), (6, [2, 3, 6, 7, 10, 11, 12, 13, 14, 15]), (7, [2, 3, 6, 7, 10, 11, 14, 15]), (8, [3, 6, 7, 10, 11, 14, 15]), (9, [7, 10, 11, 14, 15]), (10, [11, 14, 15]), (11, [15]), (12, [6, 7, 10, 11, 14, 15]), (13, [10, 11, 14, 15]), (14, [14, 15])])]) (by kernel_rfl) (((RO.nil true _).addW r_dest.has r_dest .nil).addR h_m.has) (.cons rfl rfl c_m_dest .nil) (.p rfl (.p rfl .nil)) (glm_mat4_transpose_to_run _) (DT.val_done _) rfl rfl rfl
example (m : M4 α) : let mem : Mem α := [⟨true, [.undef, .undef, .undef, .undef, .undef, .undef, .undef, .f m.c0.x, .f m.c0.y, .f m.c0.z, .f m.c0.w, .f m.c1.x, .f m.c1.y, .f m.c1.z, .f m.c1.w, .f m.c2.x, .f m.c2.y, .f m.c2.z, .f m.c2.w, .f m.c3.x, .f m.c3.y, .f m.c3.z, .f m.c3.w]⟩]
    Holds mem (0, 7) m.list ∧ Room mem (0, 0) 16 ∧ Clear (0, 0) (0, 7) [(0, [1, 2, 3, 4, 5, 6, 7, 8, 9, 10, 11, 12, 13, 14, 15]), (1, [2, 3, 5, 6, 7, 8, 9, 10, 11, 12, 13, 14, 15]), (2, [2, 3, 6, 7, 9, 10, 11, 12, 13, 14, 15]), (3, [2, 3, 6, 7, 10, 11, 13, 14, 15]), (4, [2, 3, 4, 5, 6, 7, 8, 9, 10, 11, 12, 13, 14, 15]), (5, [2, 3, 6, 7, 8, 9, 10, 11, 12, 13, 14, 15]), (6, [2, 3, 6, 7, 10, 11, 12, 13, 14, 15]), (7, [2, 3, 6, 7, 10, 11, 14, 15]), (8, [3, 6, 7, 10, 11, 14, 15]), (9, [7, 10, 11, 14, 15]), (10, [11, 14, 15]), (11, [15]), (12, [6, 7, 10, 11, 14, 15]), (13, [10, 11, 14, 15]), (14, [14, 15])] :=
  ⟨.within rfl rfl, .within rfl rfl, .of rfl⟩

theorem C98_mat4_make {mem : Mem α} {srcP destP : Ptr} {src : V16 α} (h_src : Holds mem srcP src.list) (r_dest : Room mem destP 16) (c_src_dest : Clear destP srcP [(0, [1, 2, 3, 4, 5, 6, 7, 8, 9, 10, 11, 12, 13, 14, 15]), (1, [2, 3, 5, 6, 7, 8, 9, 10, 11, 12, 13, 14, 15]), (2, [3, 6, 7, 8, 9, 10, 11, 12, 13, 14, 15]), (3, [7, 8, 9, 10, 11, 12, 13, 14, 15]), (4, [1, 2, 3, 5, 6, 7, 8, 9, 10, 11, 12, 13, 14, 15]), (5, [2, 3, 6, 7, 8, 9, 10, 11, 12, 13, 14, 15]), (6, [3, 7, 8, 9, 10, 11, 12, 13, 14, 15]), (7, [8, 9, 10, 11, 12, 13, 14, 15]), (8, [9, 10, 11, 12, 13, 14, 15]), (9, [10, 11, 13, 14, 15]), (10, [11, 14, 15]), (11, [15]), (12, [9, 10, 11, 13, 14, 15]), (13, [10, 11, 14, 15]), (14, [11, 15])]) :
    C.glm_mat4_make.run mem [srcP.val, destP.val] =
      some (none, writes mem [(destP, (Cglm.glm_mat4_make src).list.map .f)]) :=
  transferC (e := Lib.glm_mat4_make) (l := [(1, 0, [(0, [1, 2, 3, 4, 5, 6, 7, 8, 9, 10, 11, 12, 13, 14, 15]), (1, [2, 3, 5, 6, 7, 8, 9, 10, 11, 12, 13, 14, 15]), (2, [3, 6, 7, 8, 9, 10, 11, 12, 13, 14, 15]), (3, [7, 8, 9, 10, 11, 12, 13, 14, 15]), (4, [1, 2, 3, 5, 6, 7, 8, 9, 10, 11, 12, 13, 14, 15]), (5, [2, 3, 6, 7, 8, 9, 10, 11, 12, 13, 14, 15]), (6, [3, 7, 8, 9, 10, 11, 12, 13, 14, 15]), (7, [8, 9, 10, 11, 12, 13, 14, 15]), (8, [9, 10, 11, 12, 13, 14, 15]), (9, [10, 11, 13, 14, 15]), (10, [11, 14, 15]), (11, [15]), (12, [9, 10, 11, 13, 14, 15]), (13, [10, 11, 14, 15]), (14, [11, 15])])]) (by kernel_rfl) (((RO.nil true _).addW r_dest.has r_dest .nil).addR h_src.has) (.cons rfl rfl c_src_dest .nil) (.p rfl (.p rfl .nil)) (glm_mat4_make_run _) (DT.val_done _) rfl rfl rfl
example (src : V16 α) : let mem : Mem α := [⟨true, [.f src.e0, .f src.e1, .f src.e2, .f src.e3, .f src.e4, .f src.e5, .f src.e6, .f src.e7, .f src.e8, .f src.e9, .f src.e10, .f src.e11, .f src.e12, .f src.e13, .f src.e14, .f src.e15]⟩]
    Holds mem (0, 0) src.list ∧ Room mem (0, 0) 16 ∧ Clear (0, 0) (0, 0) [(0, [1, 2, 3, 4, 5, 6, 7, 8, 9, 10, 11, 12, 13, 14, 15]), (1, [2, 3, 5, 6, 7, 8, 9, 10, 11, 12, 13, 14, 15]), (2, [3, 6, 7, 8, 9, 10, 11, 12, 13, 14, 15]), (3, [7, 8, 9, 10, 11, 12, 13, 14, 15]), (4, [1, 2, 3, 5, 6, 7, 8, 9, 10, 11, 12, 13, 14, 15]), (5, [2, 3, 6, 7, 8, 9, 10, 11, 12, 13, 14, 15]), (6, [3, 7, 8, 9, 10, 11, 12, 13, 14, 15]), (7, [8, 9, 10, 11, 12, 13, 14, 15]), (8, [9, 10, 11, 12, 13, 14, 15]), (9, [10, 11, 13, 14, 15]), (10, [11, 14, 15]), (11, [15]), (12, [9, 10, 11, 13, 14, 15]), (13, [10, 11, 14, 15]), (14, [11, 15])] :=
  ⟨.within rfl rfl, .within rfl rfl, .of rfl⟩

theorem C98_mat4x2_transpose {mem : Mem α} {mP destP : Ptr} {m : M4x2 α} (h_m : Holds mem mP m.list) (r_dest : Room mem destP 8) (c_m_dest : Clear destP mP [(0, [1, 2, 3, 4, 5, 6, 7]), (1, [1, 3, 4, 5, 6, 7]), (2, [1, 3, 5, 6, 7]), (3, [1, 3, 5, 7]), (4, [3, 5, 7]), (5, [5, 7]), (6, [7])]) :
    C.glm_mat4x2_transpose.run mem [mP.val, destP.val] =
      some (none, writes mem [(destP, (Cglm.glm_mat4x2_transpose m).list.map .f)]) :=
  transferC (e := Lib.glm_mat4x2_transpose) (l := [(1, 0, [(0, [1, 2, 3, 4, 5, 6, 7]), (1, [1, 3, 4, 5, 6, 7]), (2, [1, 3, 5, 6, 7]), (3, [1, 3, 5, 7]), (4, [3, 5, 7]), (5, [5, 7]), (6, [7])])]) (by kernel_rfl) (((RO.nil true _).addW r_dest.has r_dest .nil).addR h_m.has) (.cons rfl rfl c_m_dest .nil) (.p rfl (.p rfl .nil)) (glm_mat4x2_transpose_run _) (DT.val_done _) rfl rfl rfl
example (m : M4x2 α) : let mem : Mem α := [⟨true, [.undef, .undef, .undef, .f m.c0.x, .f m.c0.y, .f m.c1.x, .f m.c1.y, .f m.c2.x, .f m.c2.y, .f m.c3.x, .f m.c3.y]⟩]
    Holds mem (0, 3) m.list ∧ Room mem (0, 0) 8 ∧ Clear (0, 0) (0, 3) [(0, [1, 2, 3, 4, 5, 6, 7]), (1, [1, 3, 4, 5, 6, 7]), (2, [1, 3, 5, 6, 7]), (3, [1, 3, 5, 7]), (4, [3, 5, 7]), (5, [5, 7]), (6, [7])] :=
  ⟨.within rfl rfl, .within rfl rfl, .of rfl⟩

theorem C98_mat4x3_transpose {mem : Mem α} {srcP destP : Ptr} {src : M4x3 α} (h_src : Holds mem srcP src.list) (r_dest : Room mem destP 12) (c_src_dest : Clear destP srcP [(0, [1, 2, 3, 4, 5, 6, 7, 8, 9, 10, 11]), (1, [1, 2, 4, 5, 6, 7, 8, 9, 10, 11]), (2, [1, 2, 4, 5, 7, 8, 9, 10, 11]), (3, [1, 2, 4, 5, 7, 8, 10, 11]), (4, [2, 4, 5, 7, 8, 10, 11]), (5, [2, 5, 7, 8, 10, 11]), (6, [2, 5, 8, 10, 11]), (7, [2, 5, 8, 11]), (8, [5, 8, 11]), (9, [8, 11]), (10, [11])]) :
    C.glm_mat4x3_transpose.run mem [srcP.val, destP.val] =
      some (none, writes mem [(destP, (Cglm.glm_mat4x3_transpose src).list.map .f)]) :=
  transferC (e := Lib.glm_mat4x3_transpose) (l := [(1, 0, [(0, [1, 2, 3, 4, 5, 6, 7, 8, 9, 10, 11]), (1, [1, 2, 4, 5, 6, 7, 8, 9, 10, 11]), (2, [1, 2, 4, 5, 7, 8, 9, 10, 11]), (3, [1, 2, 4, 5, 7, 8, 10, 11]), (4, [2, 4, 5, 7, 8, 10, 11]), (5, [2, 5, 7, 8, 10, 11]), (6, [2, 5, 8, 10, 11]), (7, [2, 5, 8, 11]), (8, [5, 8, 11]), (9, [8, 11]), (10, [11])])]) (by kernel_rfl) (((RO.nil true _).addW r_dest.has r_dest .nil).addR h_src.has) (.cons rfl rfl c_src_dest .nil) (.p rfl (.p rfl .nil)) (glm_mat4x3_transpose_run _) (DT.val_done _) rfl rfl rfl
example (src : M4x3 α) : let mem : Mem α := [⟨true, [.undef, .undef, .undef, .undef, .undef, .undef, .f src.c0.x, .f src.c0.y, .f src.c0.z, .f src.c1.x, .f src.c1.y, .f src.c1.z, .f src.c2.x, .f src.c2.y, .f src.c2.z, .f src.c3.x, .f src.c3.y, .f src.c3.z]⟩]
    Holds mem (0, 6) src.list ∧ Room mem (0, 0) 12 ∧ Clear (0, 0) (0, 6) [(0, [1, 2, 3, 4, 5, 6, 7, 8, 9, 10, 11]), (1, [1, 2, 4, 5, 6, 7, 8, 9, 10, 11]), (2, [1, 2, 4, 5, 7, 8, 9, 10, 11]), (3, [1, 2, 4, 5, 7, 8, 10, 11]), (4, [2, 4, 5, 7, 8, 10, 11]), (5, [2, 5, 7, 8, 10, 11]), (6, [2, 5, 8, 10, 11]), (7, [2, 5, 8, 11]), (8, [5, 8, 11]), (9, [8, 11]), (10, [11])] :=
  ⟨.within rfl rfl, .within rfl rfl, .of rfl⟩

theorem C98_mat3_transpose_to {mem : Mem α} {mP destP : Ptr} {m : M3 α} (h_m : Holds mem mP m.list) (r_dest : Room mem destP 9) (c_m_dest : Clear destP mP [(0, [1, 2, 3, 4, 5, 6, 7, 8]), (1, [1, 2, 4, 5, 6, 7, 8]), (2, [1, 2, 4, 5, 7, 8]), (3, [2, 4, 5, 7, 8]), (4, [2, 5, 7, 8]), (5, [2, 5, 8]), (6, [5, 8]), (7, [8])]) :
    C.glm_mat3_transpose_to.run mem [mP.val, destP.val] =
      some (none, writes mem [(destP, (Cglm.glm_mat3_transpose_to m).list.map .f)]) :=
  transferC (e := Lib.glm_mat3_transpose_to) (l := [(1, 0, [(0, [1, 2, 3, 4, 5, 6, 7, 8]), (1, [1, 2, 4, 5, 6, 7, 8]), (2, [1, 2, 4, 5, 7, 8]), (3, [2, 4, 5, 7, 8]), (4, [2, 5, 7, 8]), (5, [2, 5, 8]), (6, [5, 8]), (7, [8])])]) (by kernel_rfl) (((RO.nil true _).addW r_dest.has r_dest .nil).addR h_m.has) (.cons rfl rfl c_m_dest .nil) (.p rfl (.p rfl .nil)) (glm_mat3_transpose_to_run _) (DT.val_done _) rfl rfl rfl
example (m : M3 α) : let mem : Mem α := [⟨true, [.undef, .undef, .undef, .undef, .f m.c0.x, .f m.c0.y, .f m.c0.z, .f m.c1.x, .f m.c1.y, .f m.c1.z, .f m.c2.x, .f m.c2.y, .f m.c2.z]⟩]
    Holds mem (0, 4) m.list ∧ Room mem (0, 0) 9 ∧ Clear (0, 0) (0, 4) [(0, [1, 2, 3, 4, 5, 6, 7, 8]), (1, [1, 2, 4, 5, 6, 7, 8]), (2, [1, 2, 4, 5, 7, 8]), (3, [2, 4, 5, 7, 8]), (4, [2, 5, 7, 8]), (5, [2, 5, 8]), (6, [5, 8]), (7, [8])] :=
  ⟨.within rfl rfl, .within rfl rfl, .of rfl⟩

theorem C98_mat3_quat {mem : Mem α} {mP destP : Ptr} {m : M3 α} (h_m : Holds mem mP m.list) (r_dest : Room mem destP 4) (c_m_dest : Clear destP mP [(0, [1, 2, 3, 5, 6, 7]), (1, [1, 2, 3, 5, 6, 7]), (2, [1, 2, 3, 5, 6, 7])]) :
    C.glm_mat3_quat.run mem [mP.val, destP.val] =
      some (none, writes mem [(destP, (Cglm.glm_mat3_quat m).list.map .f)]) :=
  transferC (e := Lib.glm_mat3_quat) (l := [(1, 0, [(0, [1, 2, 3, 5, 6, 7]), (1, [1, 2, 3, 5, 6, 7]), (2, [1, 2, 3, 5, 6, 7])])]) (by kernel_rfl) (((RO.nil true _).addW r_dest.has r_dest .nil).addR h_m.has) (.cons rfl rfl c_m_dest .nil) (.p rfl (.p rfl .nil)) (glm_mat3_quat_run _) (DT.val_map_eq (glm_mat3_quat_dt_val _) rfl) rfl rfl rfl
example (m : M3 α) : let mem : Mem α := [⟨true, [.undef, .undef, .f m.c0.x, .f m.c0.y, .f m.c0.z, .f m.c1.x, .f m.c1.y, .f m.c1.z, .f m.c2.x, .f m.c2.y, .f m.c2.z]⟩]
    Holds mem (0, 2) m.list ∧ Room mem (0, 0) 4 ∧ Clear (0, 0) (0, 2) [(0, [1, 2, 3, 5, 6, 7]), (1, [1, 2, 3, 5, 6, 7]), (2, [1, 2, 3, 5, 6, 7])] :=
  ⟨.within rfl rfl, .within rfl rfl, .of rfl⟩

theorem C98_mat3x2_transpose {mem : Mem α} {srcP destP : Ptr} {src : M3x2 α} (h_src : Holds mem srcP src.list) (r_dest : Room mem destP 6) (c_src_dest : Clear destP srcP [(0, [1, 2, 3, 4, 5]), (1, [1, 3, 4, 5]), (2, [1, 3, 5]), (3, [3, 5]), (4, [5])]) :
    C.glm_mat3x2_transpose.run mem [srcP.val, destP.val] =
      some (none, writes mem [(destP, (Cglm.glm_mat3x2_transpose src).list.map .f)]) :=
  transferC (e := Lib.glm_mat3x2_transpose) (l := [(1, 0, [(0, [1, 2, 3, 4, 5]), (1, [1, 3, 4, 5]), (2, [1, 3, 5]), (3, [3, 5]), (4, [5])])]) (by kernel_rfl) (((RO.nil true _).addW r_dest.has r_dest .nil).addR h_src.has) (.cons rfl rfl c_src_dest .nil) (.p rfl (.p rfl .nil)) (glm_mat3x2_transpose_run _) (DT.val_done _) rfl rfl rfl
example (src : M3x2 α) : let mem : Mem α := [⟨true, [.undef, .undef, .f src.c0.x, .f src.c0.y, .f src.c1.x, .f src.c1.y, .f src.c2.x, .f src.c2.y]⟩]
    Holds mem (0, 2) src.list ∧ Room mem (0, 0) 6 ∧ Clear (0, 0) (0, 2) [(0, [1, 2, 3, 4, 5]), (1, [1, 3, 4, 5]), (2, [1, 3, 5]), (3, [3, 5]), (4, [5])] :=
  ⟨.within rfl rfl, .within rfl rfl, .of rfl⟩

theorem C98_mat3x4_transpose {mem : Mem α} {srcP destP : Ptr} {src : M3x4 α} (h_src : Holds mem srcP src.list) (r_dest : Room mem destP 12) (c_src_dest : Clear destP srcP [(0, [1, 2, 3, 4, 5, 6, 7, 8, 9, 10, 11]), (1, [1, 2, 3, 5, 6, 7, 8, 9, 10, 11]), (2, [1, 2, 3, 5, 6, 7, 9, 10, 11]), (3, [2, 3, 5, 6, 7, 9, 10, 11]), (4, [2, 3, 6, 7, 9, 10, 11]), (5, [2, 3, 6, 7, 10, 11]), (6, [3, 6, 7, 10, 11]), (7, [3, 7, 10, 11]), (8, [3, 7, 11]), (9, [7, 11]), (10, [11])]) :
    C.glm_mat3x4_transpose.run mem [srcP.val, destP.val] =
      some (none, writes mem [(destP, (Cglm.glm_mat3x4_transpose src).list.map .f)]) :=
  transferC (e := Lib.glm_mat3x4_transpose) (l := [(1, 0, [(0, [1, 2, 3, 4, 5, 6, 7, 8, 9, 10, 11]), (1, [1, 2, 3, 5, 6, 7, 8, 9, 10, 11]), (2, [1, 2, 3, 5, 6, 7, 9, 10, 11]), (3, [2, 3, 5, 6, 7, 9, 10, 11]), (4, [2, 3, 6, 7, 9, 10, 11]), (5, [2, 3, 6, 7, 10, 11]), (6, [3, 6, 7, 10, 11]), (7, [3, 7, 10, 11]), (8, [3, 7, 11]), (9, [7, 11]), (10, [11])])]) (by kernel_rfl) (((RO.nil true _).addW r_dest.has r_dest .nil).addR h_src.has) (.cons rfl rfl c_src_dest .nil) (.p rfl (.p rfl .nil)) (glm_mat3x4_transpose_run _) (DT.val_done _) rfl rfl rfl
example (src : M3x4 α) : let mem : Mem α := [⟨true, [.undef, .undef, .undef, .undef, .undef, .undef, .f src.c0.x, .f src.c0.y, .f src.c0.z, .f src.c0.w, .f src.c1.x, .f src.c1.y, .f src.c1.z, .f src.c1.w, .f src.c2.x, .f src.c2.y, .f src.c2.z, .f src.c2.w]⟩]
    Holds mem (0, 6) src.list ∧ Room mem (0, 0) 12 ∧ Clear (0, 0) (0, 6) [(0, [1, 2, 3, 4, 5, 6, 7, 8, 9, 10, 11]), (1, [1, 2, 3, 5, 6, 7, 8, 9, 10, 11]), (2, [1, 2, 3, 5, 6, 7, 9, 10, 11]), (3, [2, 3, 5, 6, 7, 9, 10, 11]), (4, [2, 3, 6, 7, 9, 10, 11]), (5, [2, 3, 6, 7, 10, 11]), (6, [3, 6, 7, 10, 11]), (7, [3, 7, 10, 11]), (8, [3, 7, 11]), (9, [7, 11]), (10, [11])] :=
  ⟨.within rfl rfl, .within rfl rfl, .of rfl⟩

theorem C98_mat2_mulv {mem : Mem α} {mP vP destP : Ptr} {m : M2 α} {v : V2 α} (h_m : Holds mem mP m.list) (h_v : Holds mem vP v.list) (r_dest : Room mem destP 2) (c_m_dest : Clear destP mP [(0, [1, 3])]) (c_v_dest : Clear destP vP [(0, [0, 1])]) :
    C.glm_mat2_mulv.run mem [mP.val, vP.val, destP.val] =
      some (none, writes mem [(destP, (Cglm.glm_mat2_mulv m v).list.map .f)]) :=
  transferC (e := Lib.glm_mat2_mulv) (l := [(2, 0, [(0, [1, 3])]), (2, 1, [(0, [0, 1])])]) (by kernel_rfl) ((((RO.nil true _).addW r_dest.has r_dest .nil).addR h_v.has).addR h_m.has) (.cons rfl rfl c_m_dest (.cons rfl rfl c_v_dest .nil)) (.p rfl (.p rfl (.p rfl .nil))) (glm_mat2_mulv_run _ _) (DT.val_done _) rfl rfl rfl
example (m : M2 α) (v : V2 α) : let mem : Mem α := [⟨true, [.f m.c0.x, .f m.c0.y, .f m.c1.x, .f m.c1.y]⟩, ⟨false, v.list.map .f⟩]
    Holds mem (0, 0) m.list ∧ Holds mem (1, 0) v.list ∧ Room mem (0, 2) 2 ∧ Clear (0, 2) (0, 0) [(0, [1, 3])] ∧ Clear (0, 2) (1, 0) [(0, [0, 1])] :=
  ⟨.within rfl rfl, .within rfl rfl, .within rfl rfl, .of rfl, .other rfl⟩

theorem C98_mat2_transpose_to {mem : Mem α} {matP destP : Ptr} {mat : M2 α} (h_mat : Holds mem matP mat.list) (r_dest : Room mem destP 4) (c_mat_dest : Clear destP matP [(0, [1, 2, 3]), (1, [1, 3]), (2, [3])]) :
    C.glm_mat2_transpose_to.run mem [matP.val, destP.val] =
      some (none, writes mem [(destP, (Cglm.glm_mat2_transpose_to mat).list.map .f)]) :=
  transferC (e := Lib.glm_mat2_transpose_to) (l := [(1, 0, [(0, [1, 2, 3]), (1, [1, 3]), (2, [3])])]) (by kernel_rfl) (((RO.nil true _).addW r_dest.has r_dest .nil).addR h_mat.has) (.cons rfl rfl c_mat_dest .nil) (.p rfl (.p rfl .nil)) (glm_mat2_transpose_to_run _) (DT.val_done _) rfl rfl rfl
example (mat : M2 α) : let mem : Mem α := [⟨true, [.undef, .f mat.c0.x, .f mat.c0.y, .f mat.c1.x, .f mat.c1.y]⟩]
    Holds mem (0, 1) mat.list ∧ Room mem (0, 0) 4 ∧ Clear (0, 0) (0, 1) [(0, [1, 2, 3]), (1, [1, 3]), (2, [3])] :=
  ⟨.within rfl rfl, .within rfl rfl, .of rfl⟩

theorem C98_mat2x3_transpose {mem : Mem α} {srcP destP : Ptr} {src : M2x3 α} (h_src : Holds mem srcP src.list) (r_dest : Room mem destP 6) (c_src_dest : Clear destP srcP [(0, [1, 2, 3, 4, 5]), (1, [1, 2, 4, 5]), (2, [2, 4, 5]), (3, [2, 5]), (4, [5])]) :
    C.glm_mat2x3_transpose.run mem [srcP.val, destP.val] =
      some (none, writes mem [(destP, (Cglm.glm_mat2x3_transpose src).list.map .f)]) :=
  transferC (e := Lib.glm_mat2x3_transpose) (l := [(1, 0, [(0, [1, 2, 3, 4, 5]), (1, [1, 2, 4, 5]), (2, [2, 4, 5]), (3, [2, 5]), (4, [5])])]) (by kernel_rfl) (((RO.nil true _).addW r_dest.has r_dest .nil).addR h_src.has) (.cons rfl rfl c_src_dest .nil) (.p rfl (.p rfl .nil)) (glm_mat2x3_transpose_run _) (DT.val_done _) rfl rfl rfl
example (src : M2x3 α) : let mem : Mem α := [⟨true, [.undef, .undef, .f src.c0.x, .f src.c0.y, .f src.c0.z, .f src.c1.x, .f src.c1.y, .f src.c1.z]⟩]
    Holds mem (0, 2) src.list ∧ Room mem (0, 0) 6 ∧ Clear (0, 0) (0, 2) [(0, [1, 2, 3, 4, 5]), (1, [1, 2, 4, 5]), (2, [2, 4, 5]), (3, [2, 5]), (4, [5])] :=
  ⟨.within rfl rfl, .within rfl rfl, .of rfl⟩

theorem C98_mat2x4_transpose {mem : Mem α} {srcP destP : Ptr} {src : M2x4 α} (h_src : Holds mem srcP src.list) (r_dest : Room mem destP 8) (c_src_dest : Clear destP srcP [(0, [1, 2, 3, 4, 5, 6, 7]), (1, [1, 2, 3, 5, 6, 7]), (2, [2, 3, 5, 6, 7]), (3, [2, 3, 6, 7]), (4, [3, 6, 7]), (5, [3, 7]), (6, [7])]) :
    C.glm_mat2x4_transpose.run mem [srcP.val, destP.val] =
      some (none, writes mem [(destP, (Cglm.glm_mat2x4_transpose src).list.map .f)]) :=
  transferC (e := Lib.glm_mat2x4_transpose) (l := [(1, 0, [(0, [1, 2, 3, 4, 5, 6, 7]), (1, [1, 2, 3, 5, 6, 7]), (2, [2, 3, 5, 6, 7]), (3, [2, 3, 6, 7]), (4, [3, 6, 7]), (5, [3, 7]), (6, [7])])]) (by kernel_rfl) (((RO.nil true _).addW r_dest.has r_dest .nil).addR h_src.has) (.cons rfl rfl c_src_dest .nil) (.p rfl (.p rfl .nil)) (glm_mat2x4_transpose_run _) (DT.val_done _) rfl rfl rfl
example (src : M2x4 α) : let mem : Mem α := [⟨true, [.undef, .undef, .undef, .f src.c0.x, .f src.c0.y, .f src.c0.z, .f src.c0.w, .f src.c1.x, .f src.c1.y, .f src.c1.z, .f src.c1.w]⟩]
    Holds mem (0, 3) src.list ∧ Room mem (0, 0) 8 ∧ Clear (0, 0) (0, 3) [(0, [1, 2, 3, 4, 5, 6, 7]), (1, [1, 2, 3, 5, 6, 7]), (2, [2, 3, 5, 6, 7]), (3, [2, 3, 6, 7]), (4, [3, 6, 7]), (5, [3, 7]), (6, [7])] :=
  ⟨.within rfl rfl, .within rfl rfl, .of rfl⟩

end Cglm
