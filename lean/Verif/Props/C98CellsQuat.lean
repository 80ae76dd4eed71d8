/- Generated by tools/overthms.py; do not edit by hand. -/
import Verif.CMemOver
import Verif.Lib.Quat
import Verif.Mem.QuatsRun

/-!
# C98: outputs that overlap inputs: functions that store before they have read everything

Inputs and outputs may overlap in any way that keeps certain cells of an output off certain cells of an input: `Clear q p l`
lists them, `Apart` is the case of all cells, `Over` the case of an output that begins inside an input.  Outputs do not
overlap each other.  The result is the value-level function of what the inputs held before the call, and nothing outside
the outputs changes.
-/

set_option linter.unusedVariables false
set_option linter.unusedSectionVars false

namespace Cglm
open CMem

variable {α : Type} [Add α] [Sub α] [Mul α] [Div α] [Neg α] [CFloat α]

theorem C98_quat_mul {mem : Mem α} {pP qP destP : Ptr} {p : V4 α} {q : V4 α} (h_p : Holds mem pP p.list) (h_q : Holds mem qP q.list) (r_dest : Room mem destP 4) (c_p_dest : Clear destP pP [(0, [0, 1, 2, 3]), (1, [0, 1, 2, 3]), (2, [0, 1, 2, 3])]) (c_q_dest : Clear destP qP [(0, [0, 1, 2, 3]), (1, [0, 1, 2, 3]), (2, [0, 1, 2, 3])]) :
    C.glm_quat_mul.run mem [pP.val, qP.val, destP.val] =
      some (none, writes mem [(destP, (Cglm.glm_quat_mul p q).list.map .f)]) :=
  transferC (e := Lib.glm_quat_mul) (l := [(2, 0, [(0, [0, 1, 2, 3]), (1, [0, 1, 2, 3]), (2, [0, 1, 2, 3])]), (2, 1, [(0, [0, 1, 2, 3]), (1, [0, 1, 2, 3]), (2, [0, 1, 2, 3])])]) (by kernel_rfl) ((((RO.nil true _).addW r_dest.has r_dest .nil).addR h_q.has).addR h_p.has) (.cons rfl rfl c_p_dest (.cons rfl rfl c_q_dest .nil)) (.p rfl (.p rfl (.p rfl .nil))) (glm_quat_mul_run _ _) (DT.val_done _) rfl rfl rfl
example (p : V4 α) (q : V4 α) : let mem : Mem α := [⟨true, [.undef, .undef, .undef, .f p.x, .f p.y, .f p.z, .f p.w]⟩, ⟨false, q.list.map .f⟩]
    Holds mem (0, 3) p.list ∧ Holds mem (1, 0) q.list ∧ Room mem (0, 0) 4 ∧ Clear (0, 0) (0, 3) [(0, [0, 1, 2, 3]), (1, [0, 1, 2, 3]), (2, [0, 1, 2, 3])] ∧ Clear (0, 0) (1, 0) [(0, [0, 1, 2, 3]), (1, [0, 1, 2, 3]), (2, [0, 1, 2, 3])] :=
  ⟨.within rfl rfl, .within rfl rfl, .within rfl rfl, .of rfl, .other rfl⟩

theorem C98_quat_look {mem : Mem α} {eyeP oriP destP : Ptr} {eye : V3 α} {ori : V4 α} (h_eye : Holds mem eyeP eye.list) (h_ori : Holds mem oriP ori.list) (r_dest : Room mem destP 16) (c_eye_dest : Apart eyeP 3 destP 16) :
    C.glm_quat_look.run mem [eyeP.val, oriP.val, destP.val] =
      some (none, writes mem [(destP, (Cglm.glm_quat_look eye ori).list.map .f)]) :=
  transferC (e := Lib.glm_quat_look) (l := [(2, 0, [(0, [0, 1, 2]), (1, [0, 1, 2]), (2, [0, 1, 2]), (3, [0, 1, 2]), (4, [0, 1, 2]), (5, [0, 1, 2]), (6, [0, 1, 2]), (7, [0, 1, 2]), (8, [0, 1, 2]), (9, [0, 1, 2]), (10, [0, 1, 2]), (11, [0, 1, 2]), (12, [0, 1, 2]), (13, [0, 1, 2]), (14, [0, 1, 2]), (15, [0, 1, 2])])]) (by kernel_rfl) ((((RO.nil true _).addW r_dest.has r_dest .nil).addR h_ori.has).addR h_eye.has) (.cons rfl rfl (c_eye_dest.clear rfl) .nil) (.p rfl (.p rfl (.p rfl .nil))) (glm_quat_look_run _ _) (DT.val_done _) rfl rfl rfl
example (eye : V3 α) (ori : V4 α) : let mem : Mem α := [⟨true, [.f ori.x, .f ori.y, .f ori.z, .f ori.w, .undef, .undef, .undef, .undef, .undef, .undef, .undef, .undef, .undef, .undef, .undef, .undef]⟩, ⟨false, eye.list.map .f⟩]
    Holds mem (1, 0) eye.list ∧ Holds mem (0, 0) ori.list ∧ Room mem (0, 0) 16 ∧ Apart (1, 0) 3 (0, 0) 16 :=
  ⟨.within rfl rfl, .within rfl rfl, .within rfl rfl, .inl (by decide)⟩

theorem C98_quat_rotate_at {mem : Mem α} {mP qP pivotP : Ptr} {m : M4 α} {q : V4 α} {pivot : V3 α} (h_m : Holds mem mP m.list) (r_m : Room mem mP 16) (h_q : Holds mem qP q.list) (h_pivot : Holds mem pivotP pivot.list) (c_q_m : Clear mP qP [(12, [0, 1, 2, 3]), (13, [0, 1, 2, 3]), (14, [0, 1, 2, 3]), (15, [0, 1, 2, 3])]) (c_pivot_m : Clear mP pivotP [(12, [1, 2]), (13, [1, 2]), (14, [1, 2]), (15, [1, 2])]) :
    C.glm_quat_rotate_at.run mem [mP.val, qP.val, pivotP.val] =
      some (none, writes mem [(mP, (Cglm.glm_quat_rotate_at m q pivot).list.map .f)]) :=
  transferC (e := Lib.glm_quat_rotate_at) (l := [(0, 1, [(12, [0, 1, 2, 3]), (13, [0, 1, 2, 3]), (14, [0, 1, 2, 3]), (15, [0, 1, 2, 3])]), (0, 2, [(12, [1, 2]), (13, [1, 2]), (14, [1, 2]), (15, [1, 2])])]) (by kernel_rfl) ((((RO.nil true _).addR h_pivot.has).addR h_q.has).addW h_m.has r_m (.skip (.skip .nil))) (.cons rfl rfl c_q_m (.cons rfl rfl c_pivot_m .nil)) (.p rfl (.p rfl (.p rfl .nil))) (glm_quat_rotate_at_run _ _ _) (DT.val_done _) rfl rfl rfl
example (m : M4 α) (pivot : V3 α) : let mem : Mem α := [⟨true, [.f m.c0.x, .f m.c0.y, .f m.c0.z, .f m.c0.w, .f m.c1.x, .f m.c1.y, .f m.c1.z, .f m.c1.w, .f m.c2.x, .f m.c2.y, .f m.c2.z, .f m.c2.w, .f m.c3.x, .f m.c3.y, .f m.c3.z, .f m.c3.w]⟩, ⟨false, pivot.list.map .f⟩]
    Room mem (0, 0) 16 ∧ Holds mem (0, 0) m.list ∧ Holds mem (0, 0) (⟨m.c0.x, m.c0.y, m.c0.z, m.c0.w⟩ : V4 α).list ∧ Holds mem (1, 0) pivot.list ∧ Clear (0, 0) (0, 0) [(12, [0, 1, 2, 3]), (13, [0, 1, 2, 3]), (14, [0, 1, 2, 3]), (15, [0, 1, 2, 3])] ∧ Clear (0, 0) (1, 0) [(12, [1, 2]), (13, [1, 2]), (14, [1, 2]), (15, [1, 2])] :=
  ⟨.within rfl rfl, .within rfl rfl, .within rfl rfl, .within rfl rfl, .of rfl, .other rfl⟩

theorem C98_quat_rotate_atm {mem : Mem α} {mP qP pivotP : Ptr} {q : V4 α} {pivot : V3 α} (r_m : Room mem mP 16) (h_q : Holds mem qP q.list) (h_pivot : Holds mem pivotP pivot.list) (c_q_m : Apart qP 4 mP 16) (c_pivot_m : Apart pivotP 3 mP 16) :
    C.glm_quat_rotate_atm.run mem [mP.val, qP.val, pivotP.val] =
      some (none, writes mem [(mP, (Cglm.glm_quat_rotate_atm q pivot).list.map .f)]) :=
  transferC (e := Lib.glm_quat_rotate_atm) (l := [(0, 1, [(0, [0, 1, 2, 3]), (1, [0, 1, 2, 3]), (2, [0, 1, 2, 3]), (3, [0, 1, 2, 3]), (4, [0, 1, 2, 3]), (5, [0, 1, 2, 3]), (6, [0, 1, 2, 3]), (7, [0, 1, 2, 3]), (8, [0, 1, 2, 3]), (9, [0, 1, 2, 3]), (10, [0, 1, 2, 3]), (11, [0, 1, 2, 3]), (12, [0, 1, 2, 3]), (13, [0, 1, 2, 3]), (14, [0, 1, 2, 3]), (15, [0, 1, 2, 3])]), (0, 2, [(0, [0, 1, 2]), (1, [0, 1, 2]), (2, [0, 1, 2]), (3, [0, 1, 2]), (4, [0, 1, 2]), (5, [0, 1, 2]), (6, [0, 1, 2]), (7, [0, 1, 2]), (8, [0, 1, 2]), (9, [0, 1, 2]), (10, [0, 1, 2]), (11, [0, 1, 2]), (12, [0, 1, 2]), (13, [0, 1, 2]), (14, [0, 1, 2]), (15, [0, 1, 2])])]) (by kernel_rfl) ((((RO.nil true _).addR h_pivot.has).addR h_q.has).addW r_m.has r_m (.skip (.skip .nil))) (.cons rfl rfl (c_q_m.clear rfl) (.cons rfl rfl (c_pivot_m.clear rfl) .nil)) (.p rfl (.p rfl (.p rfl .nil))) (glm_quat_rotate_atm_run _ _) (DT.val_done _) rfl rfl rfl
example (q : V4 α) (pivot : V3 α) : let mem : Mem α := [⟨true, List.replicate 16 .undef⟩, ⟨false, q.list.map .f⟩, ⟨false, pivot.list.map .f⟩]
    Room mem (0, 0) 16 ∧ Holds mem (1, 0) q.list ∧ Holds mem (2, 0) pivot.list ∧ Apart (1, 0) 4 (0, 0) 16 ∧ Apart (2, 0) 3 (0, 0) 16 :=
  ⟨.within rfl rfl, .within rfl rfl, .within rfl rfl, .inl (by decide), .inl (by decide)⟩

end Cglm
