/- Generated by tools/overthms.py; do not edit by hand. -/
import Verif.CMemOver
import Verif.Lib.Clip
import Verif.Mem.AffinesRun

/-!
# C98: outputs that overlap inputs: functions that store before they have read everything

Inputs and outputs may overlap in any way that keeps certain cells of an output off certain cells of an input: `Clear q p l`
lists them, `Apart` is the case of all cells, `Over` the case of an output that begins inside an input.  Outputs do not
overlap each other.  The result is the value-level function of what the inputs held before the call, and nothing outside
the outputs changes.
-/

set_option linter.unusedVariables false
set_option linter.unusedSectionVars false

namespace Cglm
open CMem

variable {α : Type} [Add α] [Sub α] [Mul α] [Div α] [Neg α] [CFloat α]

theorem C98_lookat_lh {mem : Mem α} {eyeP centerP upP destP : Ptr} {eye : V3 α} {center : V3 α} {up : V3 α} (h_eye : Holds mem eyeP eye.list) (h_center : Holds mem centerP center.list) (h_up : Holds mem upP up.list) (r_dest : Room mem destP 16) (c_eye_dest : Clear destP eyeP [(0, [0, 1, 2]), (1, [0, 1, 2]), (2, [0, 1, 2]), (4, [0, 1, 2]), (5, [0, 1, 2]), (6, [0, 1, 2]), (8, [0, 1, 2]), (9, [0, 1, 2]), (10, [0, 1, 2]), (12, [0, 1, 2]), (13, [0, 1, 2])]) :
    C.glm_lookat_lh.run mem [eyeP.val, centerP.val, upP.val, destP.val] =
      some (none, writes mem [(destP, (Cglm.glm_lookat_lh eye center up).list.map .f)]) :=
  transferC (e := Lib.glm_lookat_lh) (l := [(3, 0, [(0, [0, 1, 2]), (1, [0, 1, 2]), (2, [0, 1, 2]), (4, [0, 1, 2]), (5, [0, 1, 2]), (6, [0, 1, 2]), (8, [0, 1, 2]), (9, [0, 1, 2]), (10, [0, 1, 2]), (12, [0, 1, 2]), (13, [0, 1, 2])])]) (by kernel_rfl) (((((RO.nil true _).addW r_dest.has r_dest .nil).addR h_up.has).addR h_center.has).addR h_eye.has) (.cons rfl rfl c_eye_dest .nil) (.p rfl (.p rfl (.p rfl (.p rfl .nil)))) (glm_lookat_lh_run _ _ _) (DT.val_map_eq (glm_lookat_lh_dt_val _ _ _) rfl) rfl rfl rfl
example (eye : V3 α) (center : V3 α) (up : V3 α) : let mem : Mem α := [⟨true, [.f center.x, .f center.y, .f center.z, .undef, .undef, .undef, .undef, .undef, .undef, .undef, .undef, .undef, .undef, .undef, .undef, .undef]⟩, ⟨false, eye.list.map .f⟩, ⟨false, up.list.map .f⟩]
    Holds mem (1, 0) eye.list ∧ Holds mem (0, 0) center.list ∧ Holds mem (2, 0) up.list ∧ Room mem (0, 0) 16 ∧ Clear (0, 0) (1, 0) [(0, [0, 1, 2]), (1, [0, 1, 2]), (2, [0, 1, 2]), (4, [0, 1, 2]), (5, [0, 1, 2]), (6, [0, 1, 2]), (8, [0, 1, 2]), (9, [0, 1, 2]), (10, [0, 1, 2]), (12, [0, 1, 2]), (13, [0, 1, 2])] :=
  ⟨.within rfl rfl, .within rfl rfl, .within rfl rfl, .within rfl rfl, .other rfl⟩

theorem C98_look_lh {mem : Mem α} {eyeP dirP upP destP : Ptr} {eye : V3 α} {dir : V3 α} {up : V3 α} (h_eye : Holds mem eyeP eye.list) (h_dir : Holds mem dirP dir.list) (h_up : Holds mem upP up.list) (r_dest : Room mem destP 16) (c_eye_dest : Clear destP eyeP [(0, [0, 1, 2]), (1, [0, 1, 2]), (2, [0, 1, 2]), (4, [0, 1, 2]), (5, [0, 1, 2]), (6, [0, 1, 2]), (8, [0, 1, 2]), (9, [0, 1, 2]), (10, [0, 1, 2]), (12, [0, 1, 2]), (13, [0, 1, 2])]) :
    C.glm_look_lh.run mem [eyeP.val, dirP.val, upP.val, destP.val] =
      some (none, writes mem [(destP, (Cglm.glm_look_lh eye dir up).list.map .f)]) :=
  transferC (e := Lib.glm_look_lh) (l := [(3, 0, [(0, [0, 1, 2]), (1, [0, 1, 2]), (2, [0, 1, 2]), (4, [0, 1, 2]), (5, [0, 1, 2]), (6, [0, 1, 2]), (8, [0, 1, 2]), (9, [0, 1, 2]), (10, [0, 1, 2]), (12, [0, 1, 2]), (13, [0, 1, 2])])]) (by kernel_rfl) (((((RO.nil true _).addW r_dest.has r_dest .nil).addR h_up.has).addR h_dir.has).addR h_eye.has) (.cons rfl rfl c_eye_dest .nil) (.p rfl (.p rfl (.p rfl (.p rfl .nil)))) (glm_look_lh_run _ _ _) (DT.val_map_eq (glm_look_lh_dt_val _ _ _) rfl) rfl rfl rfl
example (eye : V3 α) (dir : V3 α) (up : V3 α) : let mem : Mem α := [⟨true, [.f dir.x, .f dir.y, .f dir.z, .undef, .undef, .undef, .undef, .undef, .undef, .undef, .undef, .undef, .undef, .undef, .undef, .undef]⟩, ⟨false, eye.list.map .f⟩, ⟨false, up.list.map .f⟩]
    Holds mem (1, 0) eye.list ∧ Holds mem (0, 0) dir.list ∧ Holds mem (2, 0) up.list ∧ Room mem (0, 0) 16 ∧ Clear (0, 0) (1, 0) [(0, [0, 1, 2]), (1, [0, 1, 2]), (2, [0, 1, 2]), (4, [0, 1, 2]), (5, [0, 1, 2]), (6, [0, 1, 2]), (8, [0, 1, 2]), (9, [0, 1, 2]), (10, [0, 1, 2]), (12, [0, 1, 2]), (13, [0, 1, 2])] :=
  ⟨.within rfl rfl, .within rfl rfl, .within rfl rfl, .within rfl rfl, .other rfl⟩

theorem C98_look_anyup_lh {mem : Mem α} {eyeP dirP destP : Ptr} {eye : V3 α} {dir : V3 α} (h_eye : Holds mem eyeP eye.list) (h_dir : Holds mem dirP dir.list) (r_dest : Room mem destP 16) (c_eye_dest : Clear destP eyeP [(0, [0, 1, 2]), (1, [0, 1, 2]), (2, [0, 1, 2]), (4, [0, 1, 2]), (5, [0, 1, 2]), (6, [0, 1, 2]), (8, [0, 1, 2]), (9, [0, 1, 2]), (10, [0, 1, 2]), (12, [0, 1, 2]), (13, [0, 1, 2])]) :
    C.glm_look_anyup_lh.run mem [eyeP.val, dirP.val, destP.val] =
      some (none, writes mem [(destP, (Cglm.glm_look_anyup_lh eye dir).list.map .f)]) :=
  transferC (e := Lib.glm_look_anyup_lh) (l := [(2, 0, [(0, [0, 1, 2]), (1, [0, 1, 2]), (2, [0, 1, 2]), (4, [0, 1, 2]), (5, [0, 1, 2]), (6, [0, 1, 2]), (8, [0, 1, 2]), (9, [0, 1, 2]), (10, [0, 1, 2]), (12, [0, 1, 2]), (13, [0, 1, 2])])]) (by kernel_rfl) ((((RO.nil true _).addW r_dest.has r_dest .nil).addR h_dir.has).addR h_eye.has) (.cons rfl rfl c_eye_dest .nil) (.p rfl (.p rfl (.p rfl .nil))) (glm_look_anyup_lh_run _ _) (DT.val_map_eq (glm_look_anyup_lh_dt_val _ _) rfl) rfl rfl rfl
example (eye : V3 α) (dir : V3 α) : let mem : Mem α := [⟨true, [.f dir.x, .f dir.y, .f dir.z, .undef, .undef, .undef, .undef, .undef, .undef, .undef, .undef, .undef, .undef, .undef, .undef, .undef]⟩, ⟨false, eye.list.map .f⟩]
    Holds mem (1, 0) eye.list ∧ Holds mem (0, 0) dir.list ∧ Room mem (0, 0) 16 ∧ Clear (0, 0) (1, 0) [(0, [0, 1, 2]), (1, [0, 1, 2]), (2, [0, 1, 2]), (4, [0, 1, 2]), (5, [0, 1, 2]), (6, [0, 1, 2]), (8, [0, 1, 2]), (9, [0, 1, 2]), (10, [0, 1, 2]), (12, [0, 1, 2]), (13, [0, 1, 2])] :=
  ⟨.within rfl rfl, .within rfl rfl, .within rfl rfl, .other rfl⟩

theorem C98_lookat_lh_zo {mem : Mem α} {eyeP centerP upP destP : Ptr} {eye : V3 α} {center : V3 α} {up : V3 α} (h_eye : Holds mem eyeP eye.list) (h_center : Holds mem centerP center.list) (h_up : Holds mem upP up.list) (r_dest : Room mem destP 16) (c_eye_dest : Clear destP eyeP [(0, [0, 1, 2]), (1, [0, 1, 2]), (2, [0, 1, 2]), (4, [0, 1, 2]), (5, [0, 1, 2]), (6, [0, 1, 2]), (8, [0, 1, 2]), (9, [0, 1, 2]), (10, [0, 1, 2]), (12, [0, 1, 2]), (13, [0, 1, 2])]) :
    C.glm_lookat_lh_zo.run mem [eyeP.val, centerP.val, upP.val, destP.val] =
      some (none, writes mem [(destP, (Cglm.glm_lookat_lh_zo eye center up).list.map .f)]) :=
  transferC (e := Lib.glm_lookat_lh_zo) (l := [(3, 0, [(0, [0, 1, 2]), (1, [0, 1, 2]), (2, [0, 1, 2]), (4, [0, 1, 2]), (5, [0, 1, 2]), (6, [0, 1, 2]), (8, [0, 1, 2]), (9, [0, 1, 2]), (10, [0, 1, 2]), (12, [0, 1, 2]), (13, [0, 1, 2])])]) (by kernel_rfl) (((((RO.nil true _).addW r_dest.has r_dest .nil).addR h_up.has).addR h_center.has).addR h_eye.has) (.cons rfl rfl c_eye_dest .nil) (.p rfl (.p rfl (.p rfl (.p rfl .nil)))) (glm_lookat_lh_zo_run _ _ _) (DT.val_map_eq (glm_lookat_lh_zo_dt_val _ _ _) rfl) rfl rfl rfl
example (eye : V3 α) (center : V3 α) (up : V3 α) : let mem : Mem α := [⟨true, [.f center.x, .f center.y, .f center.z, .undef, .undef, .undef, .undef, .undef, .undef, .undef, .undef, .undef, .undef, .undef, .undef, .undef]⟩, ⟨false, eye.list.map .f⟩, ⟨false, up.list.map .f⟩]
    Holds mem (1, 0) eye.list ∧ Holds mem (0, 0) center.list ∧ Holds mem (2, 0) up.list ∧ Room mem (0, 0) 16 ∧ Clear (0, 0) (1, 0) [(0, [0, 1, 2]), (1, [0, 1, 2]), (2, [0, 1, 2]), (4, [0, 1, 2]), (5, [0, 1, 2]), (6, [0, 1, 2]), (8, [0, 1, 2]), (9, [0, 1, 2]), (10, [0, 1, 2]), (12, [0, 1, 2]), (13, [0, 1, 2])] :=
  ⟨.within rfl rfl, .within rfl rfl, .within rfl rfl, .within rfl rfl, .other rfl⟩

theorem C98_look_lh_zo {mem : Mem α} {eyeP dirP upP destP : Ptr} {eye : V3 α} {dir : V3 α} {up : V3 α} (h_eye : Holds mem eyeP eye.list) (h_dir : Holds mem dirP dir.list) (h_up : Holds mem upP up.list) (r_dest : Room mem destP 16) (c_eye_dest : Clear destP eyeP [(0, [0, 1, 2]), (1, [0, 1, 2]), (2, [0, 1, 2]), (4, [0, 1, 2]), (5, [0, 1, 2]), (6, [0, 1, 2]), (8, [0, 1, 2]), (9, [0, 1, 2]), (10, [0, 1, 2]), (12, [0, 1, 2]), (13, [0, 1, 2])]) :
    C.glm_look_lh_zo.run mem [eyeP.val, dirP.val, upP.val, destP.val] =
      some (none, writes mem [(destP, (Cglm.glm_look_lh_zo eye dir up).list.map .f)]) :=
  transferC (e := Lib.glm_look_lh_zo) (l := [(3, 0, [(0, [0, 1, 2]), (1, [0, 1, 2]), (2, [0, 1, 2]), (4, [0, 1, 2]), (5, [0, 1, 2]), (6, [0, 1, 2]), (8, [0, 1, 2]), (9, [0, 1, 2]), (10, [0, 1, 2]), (12, [0, 1, 2]), (13, [0, 1, 2])])]) (by kernel_rfl) (((((RO.nil true _).addW r_dest.has r_dest .nil).addR h_up.has).addR h_dir.has).addR h_eye.has) (.cons rfl rfl c_eye_dest .nil) (.p rfl (.p rfl (.p rfl (.p rfl .nil)))) (glm_look_lh_zo_run _ _ _) (DT.val_map_eq (glm_look_lh_zo_dt_val _ _ _) rfl) rfl rfl rfl
example (eye : V3 α) (dir : V3 α) (up : V3 α) : let mem : Mem α := [⟨true, [.f dir.x, .f dir.y, .f dir.z, .undef, .undef, .undef, .undef, .undef, .undef, .undef, .undef, .undef, .undef, .undef, .undef, .undef]⟩, ⟨false, eye.list.map .f⟩, ⟨false, up.list.map .f⟩]
    Holds mem (1, 0) eye.list ∧ Holds mem (0, 0) dir.list ∧ Holds mem (2, 0) up.list ∧ Room mem (0, 0) 16 ∧ Clear (0, 0) (1, 0) [(0, [0, 1, 2]), (1, [0, 1, 2]), (2, [0, 1, 2]), (4, [0, 1, 2]), (5, [0, 1, 2]), (6, [0, 1, 2]), (8, [0, 1, 2]), (9, [0, 1, 2]), (10, [0, 1, 2]), (12, [0, 1, 2]), (13, [0, 1, 2])] :=
  ⟨.within rfl rfl, .within rfl rfl, .within rfl rfl, .within rfl rfl, .other rfl⟩

theorem C98_look_anyup_lh_zo {mem : Mem α} {eyeP dirP destP : Ptr} {eye : V3 α} {dir : V3 α} (h_eye : Holds mem eyeP eye.list) (h_dir : Holds mem dirP dir.list) (r_dest : Room mem destP 16) (c_eye_dest : Clear destP eyeP [(0, [0, 1, 2]), (1, [0, 1, 2]), (2, [0, 1, 2]), (4, [0, 1, 2]), (5, [0, 1, 2]), (6, [0, 1, 2]), (8, [0, 1, 2]), (9, [0, 1, 2]), (10, [0, 1, 2]), (12, [0, 1, 2]), (13, [0, 1, 2])]) :
    C.glm_look_anyup_lh_zo.run mem [eyeP.val, dirP.val, destP.val] =
      some (none, writes mem [(destP, (Cglm.glm_look_anyup_lh_zo eye dir).list.map .f)]) :=
  transferC (e := Lib.glm_look_anyup_lh_zo) (l := [(2, 0, [(0, [0, 1, 2]), (1, [0, 1, 2]), (2, [0, 1, 2]), (4, [0, 1, 2]), (5, [0, 1, 2]), (6, [0, 1, 2]), (8, [0, 1, 2]), (9, [0, 1, 2]), (10, [0, 1, 2]), (12, [0, 1, 2]), (13, [0, 1, 2])])]) (by kernel_rfl) ((((RO.nil true _).addW r_dest.has r_dest .nil).addR h_dir.has).addR h_eye.has) (.cons rfl rfl c_eye_dest .nil) (.p rfl (.p rfl (.p rfl .nil))) (glm_look_anyup_lh_zo_run _ _) (DT.val_map_eq (glm_look_anyup_lh_zo_dt_val _ _) rfl) rfl rfl rfl
example (eye : V3 α) (dir : V3 α) : let mem : Mem α := [⟨true, [.f dir.x, .f dir.y, .f dir.z, .undef, .undef, .undef, .undef, .undef, .undef, .undef, .undef, .undef, .undef, .undef, .undef, .undef]⟩, ⟨false, eye.list.map .f⟩]
    Holds mem (1, 0) eye.list ∧ Holds mem (0, 0) dir.list ∧ Room mem (0, 0) 16 ∧ Clear (0, 0) (1, 0) [(0, [0, 1, 2]), (1, [0, 1, 2]), (2, [0, 1, 2]), (4, [0, 1, 2]), (5, [0, 1, 2]), (6, [0, 1, 2]), (8, [0, 1, 2]), (9, [0, 1, 2]), (10, [0, 1, 2]), (12, [0, 1, 2]), (13, [0, 1, 2])] :=
  ⟨.within rfl rfl, .within rfl rfl, .within rfl rfl, .other rfl⟩

theorem C98_lookat_lh_no {mem : Mem α} {eyeP centerP upP destP : Ptr} {eye : V3 α} {center : V3 α} {up : V3 α} (h_eye : Holds mem eyeP eye.list) (h_center : Holds mem centerP center.list) (h_up : Holds mem upP up.list) (r_dest : Room mem destP 16) (c_eye_dest : Clear destP eyeP [(0, [0, 1, 2]), (1, [0, 1, 2]), (2, [0, 1, 2]), (4, [0, 1, 2]), (5, [0, 1, 2]), (6, [0, 1, 2]), (8, [0, 1, 2]), (9, [0, 1, 2]), (10, [0, 1, 2]), (12, [0, 1, 2]), (13, [0, 1, 2])]) :
    C.glm_lookat_lh_no.run mem [eyeP.val, centerP.val, upP.val, destP.val] =
      some (none, writes mem [(destP, (Cglm.glm_lookat_lh_no eye center up).list.map .f)]) :=
  transferC (e := Lib.glm_lookat_lh_no) (l := [(3, 0, [(0, [0, 1, 2]), (1, [0, 1, 2]), (2, [0, 1, 2]), (4, [0, 1, 2]), (5, [0, 1, 2]), (6, [0, 1, 2]), (8, [0, 1, 2]), (9, [0, 1, 2]), (10, [0, 1, 2]), (12, [0, 1, 2]), (13, [0, 1, 2])])]) (by kernel_rfl) (((((RO.nil true _).addW r_dest.has r_dest .nil).addR h_up.has).addR h_center.has).addR h_eye.has) (.cons rfl rfl c_eye_dest .nil) (.p rfl (.p rfl (.p rfl (.p rfl .nil)))) (glm_lookat_lh_no_run _ _ _) (DT.val_map_eq (glm_lookat_lh_no_dt_val _ _ _) rfl) rfl rfl rfl
example (eye : V3 α) (center : V3 α) (up : V3 α) : let mem : Mem α := [⟨true, [.f center.x, .f center.y, .f center.z, .undef, .undef, .undef, .undef, .undef, .undef, .undef, .undef, .undef, .undef, .undef, .undef, .undef]⟩, ⟨false, eye.list.map .f⟩, ⟨false, up.list.map .f⟩]
    Holds mem (1, 0) eye.list ∧ Holds mem (0, 0) center.list ∧ Holds mem (2, 0) up.list ∧ Room mem (0, 0) 16 ∧ Clear (0, 0) (1, 0) [(0, [0, 1, 2]), (1, [0, 1, 2]), (2, [0, 1, 2]), (4, [0, 1, 2]), (5, [0, 1, 2]), (6, [0, 1, 2]), (8, [0, 1, 2]), (9, [0, 1, 2]), (10, [0, 1, 2]), (12, [0, 1, 2]), (13, [0, 1, 2])] :=
  ⟨.within rfl rfl, .within rfl rfl, .within rfl rfl, .within rfl rfl, .other rfl⟩

theorem C98_look_lh_no {mem : Mem α} {eyeP dirP upP destP : Ptr} {eye : V3 α} {dir : V3 α} {up : V3 α} (h_eye : Holds mem eyeP eye.list) (h_dir : Holds mem dirP dir.list) (h_up : Holds mem upP up.list) (r_dest : Room mem destP 16) (c_eye_dest : Clear destP eyeP [(0, [0, 1, 2]), (1, [0, 1, 2]), (2, [0, 1, 2]), (4, [0, 1, 2]), (5, [0, 1, 2]), (6, [0, 1, 2]), (8, [0, 1, 2]), (9, [0, 1, 2]), (10, [0, 1, 2]), (12, [0, 1, 2]), (13, [0, 1, 2])]) :
    C.glm_look_lh_no.run mem [eyeP.val, dirP.val, upP.val, destP.val] =
      some (none, writes mem [(destP, (Cglm.glm_look_lh_no eye dir up).list.map .f)]) :=
  transferC (e := Lib.glm_look_lh_no) (l := [(3, 0, [(0, [0, 1, 2]), (1, [0, 1, 2]), (2, [0, 1, 2]), (4, [0, 1, 2]), (5, [0, 1, 2]), (6, [0, 1, 2]), (8, [0, 1, 2]), (9, [0, 1, 2]), (10, [0, 1, 2]), (12, [0, 1, 2]), (13, [0, 1, 2])])]) (by kernel_rfl) (((((RO.nil true _).addW r_dest.has r_dest .nil).addR h_up.has).addR h_dir.has).addR h_eye.has) (.cons rfl rfl c_eye_dest .nil) (.p rfl (.p rfl (.p rfl (.p rfl .nil)))) (glm_look_lh_no_run _ _ _) (DT.val_map_eq (glm_look_lh_no_dt_val _ _ _) rfl) rfl rfl rfl
example (eye : V3 α) (dir : V3 α) (up : V3 α) : let mem : Mem α := [⟨true, [.f dir.x, .f dir.y, .f dir.z, .undef, .undef, .undef, .undef, .undef, .undef, .undef, .undef, .undef, .undef, .undef, .undef, .undef]⟩, ⟨false, eye.list.map .f⟩, ⟨false, up.list.map .f⟩]
    Holds mem (1, 0) eye.list ∧ Holds mem (0, 0) dir.list ∧ Holds mem (2, 0) up.list ∧ Room mem (0, 0) 16 ∧ Clear (0, 0) (1, 0) [(0, [0, 1, 2]), (1, [0, 1, 2]), (2, [0, 1, 2]), (4, [0, 1, 2]), (5, [0, 1, 2]), (6, [0, 1, 2]), (8, [0, 1, 2]), (9, [0, 1, 2]), (10, [0, 1, 2]), (12, [0, 1, 2]), (13, [0, 1, 2])] :=
  ⟨.within rfl rfl, .within rfl rfl, .within rfl rfl, .within rfl rfl, .other rfl⟩

theorem C98_look_anyup_lh_no {mem : Mem α} {eyeP dirP destP : Ptr} {eye : V3 α} {dir : V3 α} (h_eye : Holds mem eyeP eye.list) (h_dir : Holds mem dirP dir.list) (r_dest : Room mem destP 16) (c_eye_dest : Clear destP eyeP [(0, [0, 1, 2]), (1, [0, 1, 2]), (2, [0, 1, 2]), (4, [0, 1, 2]), (5, [0, 1, 2]), (6, [0, 1, 2]), (8, [0, 1, 2]), (9, [0, 1, 2]), (10, [0, 1, 2]), (12, [0, 1, 2]), (13, [0, 1, 2])]) :
    C.glm_look_anyup_lh_no.run mem [eyeP.val, dirP.val, destP.val] =
      some (none, writes mem [(destP, (Cglm.glm_look_anyup_lh_no eye dir).list.map .f)]) :=
  transferC (e := Lib.glm_look_anyup_lh_no) (l := [(2, 0, [(0, [0, 1, 2]), (1, [0, 1, 2]), (2, [0, 1, 2]), (4, [0, 1, 2]), (5, [0, 1, 2]), (6, [0, 1, 2]), (8, [0, 1, 2]), (9, [0, 1, 2]), (10, [0, 1, 2]), (12, [0, 1, 2]), (13, [0, 1, 2])])]) (by kernel_rfl) ((((RO.nil true _).addW r_dest.has r_dest .nil).addR h_dir.has).addR h_eye.has) (.cons rfl rfl c_eye_dest .nil) (.p rfl (.p rfl (.p rfl .nil))) (glm_look_anyup_lh_no_run _ _) (DT.val_map_eq (glm_look_anyup_lh_no_dt_val _ _) rfl) rfl rfl rfl
example (eye : V3 α) (dir : V3 α) : let mem : Mem α := [⟨true, [.f dir.x, .f dir.y, .f dir.z, .undef, .undef, .undef, .undef, .undef, .undef, .undef, .undef, .undef, .undef, .undef, .undef, .undef]⟩, ⟨false, eye.list.map .f⟩]
    Holds mem (1, 0) eye.list ∧ Holds mem (0, 0) dir.list ∧ Room mem (0, 0) 16 ∧ Clear (0, 0) (1, 0) [(0, [0, 1, 2]), (1, [0, 1, 2]), (2, [0, 1, 2]), (4, [0, 1, 2]), (5, [0, 1, 2]), (6, [0, 1, 2]), (8, [0, 1, 2]), (9, [0, 1, 2]), (10, [0, 1, 2]), (12, [0, 1, 2]), (13, [0, 1, 2])] :=
  ⟨.within rfl rfl, .within rfl rfl, .within rfl rfl, .other rfl⟩

theorem C98_lookat_rh {mem : Mem α} {eyeP centerP upP destP : Ptr} {eye : V3 α} {center : V3 α} {up : V3 α} (h_eye : Holds mem eyeP eye.list) (h_center : Holds mem centerP center.list) (h_up : Holds mem upP up.list) (r_dest : Room mem destP 16) (c_eye_dest : Clear destP eyeP [(0, [0, 1, 2]), (1, [0, 1, 2]), (2, [0, 1, 2]), (4, [0, 1, 2]), (5, [0, 1, 2]), (6, [0, 1, 2]), (8, [0, 1, 2]), (9, [0, 1, 2]), (10, [0, 1, 2]), (12, [0, 1, 2]), (13, [0, 1, 2])]) :
    C.glm_lookat_rh.run mem [eyeP.val, centerP.val, upP.val, destP.val] =
      some (none, writes mem [(destP, (Cglm.glm_lookat_rh eye center up).list.map .f)]) :=
  transferC (e := Lib.glm_lookat_rh) (l := [(3, 0, [(0, [0, 1, 2]), (1, [0, 1, 2]), (2, [0, 1, 2]), (4, [0, 1, 2]), (5, [0, 1, 2]), (6, [0, 1, 2]), (8, [0, 1, 2]), (9, [0, 1, 2]), (10, [0, 1, 2]), (12, [0, 1, 2]), (13, [0, 1, 2])])]) (by kernel_rfl) (((((RO.nil true _).addW r_dest.has r_dest .nil).addR h_up.has).addR h_center.has).addR h_eye.has) (.cons rfl rfl c_eye_dest .nil) (.p rfl (.p rfl (.p rfl (.p rfl .nil)))) (glm_lookat_rh_run _ _ _) (DT.val_map_eq (glm_lookat_rh_dt_val _ _ _) rfl) rfl rfl rfl
example (eye : V3 α) (center : V3 α) (up : V3 α) : let mem : Mem α := [⟨true, [.f center.x, .f center.y, .f center.z, .undef, .undef, .undef, .undef, .undef, .undef, .undef, .undef, .undef, .undef, .undef, .undef, .undef]⟩, ⟨false, eye.list.map .f⟩, ⟨false, up.list.map .f⟩]
    Holds mem (1, 0) eye.list ∧ Holds mem (0, 0) center.list ∧ Holds mem (2, 0) up.list ∧ Room mem (0, 0) 16 ∧ Clear (0, 0) (1, 0) [(0, [0, 1, 2]), (1, [0, 1, 2]), (2, [0, 1, 2]), (4, [0, 1, 2]), (5, [0, 1, 2]), (6, [0, 1, 2]), (8, [0, 1, 2]), (9, [0, 1, 2]), (10, [0, 1, 2]), (12, [0, 1, 2]), (13, [0, 1, 2])] :=
  ⟨.within rfl rfl, .within rfl rfl, .within rfl rfl, .within rfl rfl, .other rfl⟩

theorem C98_look_rh {mem : Mem α} {eyeP dirP upP destP : Ptr} {eye : V3 α} {dir : V3 α} {up : V3 α} (h_eye : Holds mem eyeP eye.list) (h_dir : Holds mem dirP dir.list) (h_up : Holds mem upP up.list) (r_dest : Room mem destP 16) (c_eye_dest : Clear destP eyeP [(0, [0, 1, 2]), (1, [0, 1, 2]), (2, [0, 1, 2]), (4, [0, 1, 2]), (5, [0, 1, 2]), (6, [0, 1, 2]), (8, [0, 1, 2]), (9, [0, 1, 2]), (10, [0, 1, 2]), (12, [0, 1, 2]), (13, [0, 1, 2])]) :
    C.glm_look_rh.run mem [eyeP.val, dirP.val, upP.val, destP.val] =
      some (none, writes mem [(destP, (Cglm.glm_look_rh eye dir up).list.map .f)]) :=
  transferC (e := Lib.glm_look_rh) (l := [(3, 0, [(0, [0, 1, 2]), (1, [0, 1, 2]), (2, [0, 1, 2]), (4, [0, 1, 2]), (5, [0, 1, 2]), (6, [0, 1, 2]), (8, [0, 1, 2]), (9, [0, 1, 2]), (10, [0, 1, 2]), (12, [0, 1, 2]), (13, [0, 1, 2])])]) (by kernel_rfl) (((((RO.nil true _).addW r_dest.has r_dest .nil).addR h_up.has).addR h_dir.has).addR h_eye.has) (.cons rfl rfl c_eye_dest .nil) (.p rfl (.p rfl (.p rfl (.p rfl .nil)))) (glm_look_rh_run _ _ _) (DT.val_map_eq (glm_look_rh_dt_val _ _ _) rfl) rfl rfl rfl
example (eye : V3 α) (dir : V3 α) (up : V3 α) : let mem : Mem α := [⟨true, [.f dir.x, .f dir.y, .f dir.z, .undef, .undef, .undef, .undef, .undef, .undef, .undef, .undef, .undef, .undef, .undef, .undef, .undef]⟩, ⟨false, eye.list.map .f⟩, ⟨false, up.list.map .f⟩]
    Holds mem (1, 0) eye.list ∧ Holds mem (0, 0) dir.list ∧ Holds mem (2, 0) up.list ∧ Room mem (0, 0) 16 ∧ Clear (0, 0) (1, 0) [(0, [0, 1, 2]), (1, [0, 1, 2]), (2, [0, 1, 2]), (4, [0, 1, 2]), (5, [0, 1, 2]), (6, [0, 1, 2]), (8, [0, 1, 2]), (9, [0, 1, 2]), (10, [0, 1, 2]), (12, [0, 1, 2]), (13, [0, 1, 2])] :=
  ⟨.within rfl rfl, .within rfl rfl, .within rfl rfl, .within rfl rfl, .other rfl⟩

theorem C98_look_anyup_rh {mem : Mem α} {eyeP dirP destP : Ptr} {eye : V3 α} {dir : V3 α} (h_eye : Holds mem eyeP eye.list) (h_dir : Holds mem dirP dir.list) (r_dest : Room mem destP 16) (c_eye_dest : Clear destP eyeP [(0, [0, 1, 2]), (1, [0, 1, 2]), (2, [0, 1, 2]), (4, [0, 1, 2]), (5, [0, 1, 2]), (6, [0, 1, 2]), (8, [0, 1, 2]), (9, [0, 1, 2]), (10, [0, 1, 2]), (12, [0, 1, 2]), (13, [0, 1, 2])]) :
    C.glm_look_anyup_rh.run mem [eyeP.val, dirP.val, destP.val] =
      some (none, writes mem [(destP, (Cglm.glm_look_anyup_rh eye dir).list.map .f)]) :=
  transferC (e := Lib.glm_look_anyup_rh) (l := [(2, 0, [(0, [0, 1, 2]), (1, [0, 1, 2]), (2, [0, 1, 2]), (4, [0, 1, 2]), (5, [0, 1, 2]), (6, [0, 1, 2]), (8, [0, 1, 2]), (9, [0, 1, 2]), (10, [0, 1, 2]), (12, [0, 1, 2]), (13, [0, 1, 2])])]) (by kernel_rfl) ((((RO.nil true _).addW r_dest.has r_dest .nil).addR h_dir.has).addR h_eye.has) (.cons rfl rfl c_eye_dest .nil) (.p rfl (.p rfl (.p rfl .nil))) (glm_look_anyup_rh_run _ _) (DT.val_map_eq (glm_look_anyup_rh_dt_val _ _) rfl) rfl rfl rfl
example (eye : V3 α) (dir : V3 α) : let mem : Mem α := [⟨true, [.f dir.x, .f dir.y, .f dir.z, .undef, .undef, .undef, .undef, .undef, .undef, .undef, .undef, .undef, .undef, .undef, .undef, .undef]⟩, ⟨false, eye.list.map .f⟩]
    Holds mem (1, 0) eye.list ∧ Holds mem (0, 0) dir.list ∧ Room mem (0, 0) 16 ∧ Clear (0, 0) (1, 0) [(0, [0, 1, 2]), (1, [0, 1, 2]), (2, [0, 1, 2]), (4, [0, 1, 2]), (5, [0, 1, 2]), (6, [0, 1, 2]), (8, [0, 1, 2]), (9, [0, 1, 2]), (10, [0, 1, 2]), (12, [0, 1, 2]), (13, [0, 1, 2])] :=
  ⟨.within rfl rfl, .within rfl rfl, .within rfl rfl, .other rfl⟩

theorem C98_lookat_rh_zo {mem : Mem α} {eyeP centerP upP destP : Ptr} {eye : V3 α} {center : V3 α} {up : V3 α} (h_eye : Holds mem eyeP eye.list) (h_center : Holds mem centerP center.list) (h_up : Holds mem upP up.list) (r_dest : Room mem destP 16) (c_eye_dest : Clear destP eyeP [(0, [0, 1, 2]), (1, [0, 1, 2]), (2, [0, 1, 2]), (4, [0, 1, 2]), (5, [0, 1, 2]), (6, [0, 1, 2]), (8, [0, 1, 2]), (9, [0, 1, 2]), (10, [0, 1, 2]), (12, [0, 1, 2]), (13, [0, 1, 2])]) :
    C.glm_lookat_rh_zo.run mem [eyeP.val, centerP.val, upP.val, destP.val] =
      some (none, writes mem [(destP, (Cglm.glm_lookat_rh_zo eye center up).list.map .f)]) :=
  transferC (e := Lib.glm_lookat_rh_zo) (l := [(3, 0, [(0, [0, 1, 2]), (1, [0, 1, 2]), (2, [0, 1, 2]), (4, [0, 1, 2]), (5, [0, 1, 2]), (6, [0, 1, 2]), (8, [0, 1, 2]), (9, [0, 1, 2]), (10, [0, 1, 2]), (12, [0, 1, 2]), (13, [0, 1, 2])])]) (by kernel_rfl) (((((RO.nil true _).addW r_dest.has r_dest .nil).addR h_up.has).addR h_center.has).addR h_eye.has) (.cons rfl rfl c_eye_dest .nil) (.p rfl (.p rfl (.p rfl (.p rfl .nil)))) (glm_lookat_rh_zo_run _ _ _) (DT.val_map_eq (glm_lookat_rh_zo_dt_val _ _ _) rfl) rfl rfl rfl
example (eye : V3 α) (center : V3 α) (up : V3 α) : let mem : Mem α := [⟨true, [.f center.x, .f center.y, .f center.z, .undef, .undef, .undef, .undef, .undef, .undef, .undef, .undef, .undef, .undef, .undef, .undef, .undef]⟩, ⟨false, eye.list.map .f⟩, ⟨false, up.list.map .f⟩]
    Holds mem (1, 0) eye.list ∧ Holds mem (0, 0) center.list ∧ Holds mem (2, 0) up.list ∧ Room mem (0, 0) 16 ∧ Clear (0, 0) (1, 0) [(0, [0, 1, 2]), (1, [0, 1, 2]), (2, [0, 1, 2]), (4, [0, 1, 2]), (5, [0, 1, 2]), (6, [0, 1, 2]), (8, [0, 1, 2]), (9, [0, 1, 2]), (10, [0, 1, 2]), (12, [0, 1, 2]), (13, [0, 1, 2])] :=
  ⟨.within rfl rfl, .within rfl rfl, .within rfl rfl, .within rfl rfl, .other rfl⟩

theorem C98_look_rh_zo {mem : Mem α} {eyeP dirP upP destP : Ptr} {eye : V3 α} {dir : V3 α} {up : V3 α} (h_eye : Holds mem eyeP eye.list) (h_dir : Holds mem dirP dir.list) (h_up : Holds mem upP up.list) (r_dest : Room mem destP 16) (c_eye_dest : Clear destP eyeP [(0, [0, 1, 2]), (1, [0, 1, 2]), (2, [0, 1, 2]), (4, [0, 1, 2]), (5, [0, 1, 2]), (6, [0, 1, 2]), (8, [0, 1, 2]), (9, [0, 1, 2]), (10, [0, 1, 2]), (12, [0, 1, 2]), (13, [0, 1, 2])]) :
    C.glm_look_rh_zo.run mem [eyeP.val, dirP.val, upP.val, destP.val] =
      some (none, writes mem [(destP, (Cglm.glm_look_rh_zo eye dir up).list.map .f)]) :=
  transferC (e := Lib.glm_look_rh_zo) (l := [(3, 0, [(0, [0, 1, 2]), (1, [0, 1, 2]), (2, [0, 1, 2]), (4, [0, 1, 2]), (5, [0, 1, 2]), (6, [0, 1, 2]), (8, [0, 1, 2]), (9, [0, 1, 2]), (10, [0, 1, 2]), (12, [0, 1, 2]), (13, [0, 1, 2])])]) (by kernel_rfl) (((((RO.nil true _).addW r_dest.has r_dest .nil).addR h_up.has).addR h_dir.has).addR h_eye.has) (.cons rfl rfl c_eye_dest .nil) (.p rfl (.p rfl (.p rfl (.p rfl .nil)))) (glm_look_rh_zo_run _ _ _) (DT.val_map_eq (glm_look_rh_zo_dt_val _ _ _) rfl) rfl rfl rfl
example (eye : V3 α) (dir : V3 α) (up : V3 α) : let mem : Mem α := [⟨true, [.f dir.x, .f dir.y, .f dir.z, .undef, .undef, .undef, .undef, .undef, .undef, .undef, .undef, .undef, .undef, .undef, .undef, .undef]⟩, ⟨false, eye.list.map .f⟩, ⟨false, up.list.map .f⟩]
    Holds mem (1, 0) eye.list ∧ Holds mem (0, 0) dir.list ∧ Holds mem (2, 0) up.list ∧ Room mem (0, 0) 16 ∧ Clear (0, 0) (1, 0) [(0, [0, 1, 2]), (1, [0, 1, 2]), (2, [0, 1, 2]), (4, [0, 1, 2]), (5, [0, 1, 2]), (6, [0, 1, 2]), (8, [0, 1, 2]), (9, [0, 1, 2]), (10, [0, 1, 2]), (12, [0, 1, 2]), (13, [0, 1, 2])] :=
  ⟨.within rfl rfl, .within rfl rfl, .within rfl rfl, .within rfl rfl, .other rfl⟩

theorem C98_look_anyup_rh_zo {mem : Mem α} {eyeP dirP destP : Ptr} {eye : V3 α} {dir : V3 α} (h_eye : Holds mem eyeP eye.list) (h_dir : Holds mem dirP dir.list) (r_dest : Room mem destP 16) (c_eye_dest : Clear destP eyeP [(0, [0, 1, 2]), (1, [0, 1, 2]), (2, [0, 1, 2]), (4, [0, 1, 2]), (5, [0, 1, 2]), (6, [0, 1, 2]), (8, [0, 1, 2]), (9, [0, 1, 2]), (10, [0, 1, 2]), (12, [0, 1, 2]), (13, [0, 1, 2])]) :
    C.glm_look_anyup_rh_zo.run mem [eyeP.val, dirP.val, destP.val] =
      some (none, writes mem [(destP, (Cglm.glm_look_anyup_rh_zo eye dir).list.map .f)]) :=
  transferC (e := Lib.glm_look_anyup_rh_zo) (l := [(2, 0, [(0, [0, 1, 2]), (1, [0, 1, 2]), (2, [0, 1, 2]), (4, [0, 1, 2]), (5, [0, 1, 2]), (6, [0, 1, 2]), (8, [0, 1, 2]), (9, [0, 1, 2]), (10, [0, 1, 2]), (12, [0, 1, 2]), (13, [0, 1, 2])])]) (by kernel_rfl) ((((RO.nil true _).addW r_dest.has r_dest .nil).addR h_dir.has).addR h_eye.has) (.cons rfl rfl c_eye_dest .nil) (.p rfl (.p rfl (.p rfl .nil))) (glm_look_anyup_rh_zo_run _ _) (DT.val_map_eq (glm_look_anyup_rh_zo_dt_val _ _) rfl) rfl rfl rfl
example (eye : V3 α) (dir : V3 α) : let mem : Mem α := [⟨true, [.f dir.x, .f dir.y, .f dir.z, .undef, .undef, .undef, .undef, .undef, .undef, .undef, .undef, .undef, .undef, .undef, .undef, .undef]⟩, ⟨false, eye.list.map .f⟩]
    Holds mem (1, 0) eye.list ∧ Holds mem (0, 0) dir.list ∧ Room mem (0, 0) 16 ∧ Clear (0, 0) (1, 0) [(0, [0, 1, 2]), (1, [0, 1, 2]), (2, [0, 1, 2]), (4, [0, 1, 2]), (5, [0, 1, 2]), (6, [0, 1, 2]), (8, [0, 1, 2]), (9, [0, 1, 2]), (10, [0, 1, 2]), (12, [0, 1, 2]), (13, [0, 1, 2])] :=
  ⟨.within rfl rfl, .within rfl rfl, .within rfl rfl, .other rfl⟩

theorem C98_lookat_rh_no {mem : Mem α} {eyeP centerP upP destP : Ptr} {eye : V3 α} {center : V3 α} {up : V3 α} (h_eye : Holds mem eyeP eye.list) (h_center : Holds mem centerP center.list) (h_up : Holds mem upP up.list) (r_dest : Room mem destP 16) (c_eye_dest : Clear destP eyeP [(0, [0, 1, 2]), (1, [0, 1, 2]), (2, [0, 1, 2]), (4, [0, 1, 2]), (5, [0, 1, 2]), (6, [0, 1, 2]), (8, [0, 1, 2]), (9, [0, 1, 2]), (10, [0, 1, 2]), (12, [0, 1, 2]), (13, [0, 1, 2])]) :
    C.glm_lookat_rh_no.run mem [eyeP.val, centerP.val, upP.val, destP.val] =
      some (none, writes mem [(destP, (Cglm.glm_lookat_rh_no eye center up).list.map .f)]) :=
  transferC (e := Lib.glm_lookat_rh_no) (l := [(3, 0, [(0, [0, 1, 2]), (1, [0, 1, 2]), (2, [0, 1, 2]), (4, [0, 1, 2]), (5, [0, 1, 2]), (6, [0, 1, 2]), (8, [0, 1, 2]), (9, [0, 1, 2]), (10, [0, 1, 2]), (12, [0, 1, 2]), (13, [0, 1, 2])])]) (by kernel_rfl) (((((RO.nil true _).addW r_dest.has r_dest .nil).addR h_up.has).addR h_center.has).addR h_eye.has) (.cons rfl rfl c_eye_dest .nil) (.p rfl (.p rfl (.p rfl (.p rfl .nil)))) (glm_lookat_rh_no_run _ _ _) (DT.val_map_eq (glm_lookat_rh_no_dt_val _ _ _) rfl) rfl rfl rfl
example (eye : V3 α) (center : V3 α) (up : V3 α) : let mem : Mem α := [⟨true, [.f center.x, .f center.y, .f center.z, .undef, .undef, .undef, .undef, .undef, .undef, .undef, .undef, .undef, .undef, .undef, .undef, .undef]⟩, ⟨false, eye.list.map .f⟩, ⟨false, up.list.map .f⟩]
    Holds mem (1, 0) eye.list ∧ Holds mem (0, 0) center.list ∧ Holds mem (2, 0) up.list ∧ Room mem (0, 0) 16 ∧ Clear (0, 0) (1, 0) [(0, [0, 1, 2]), (1, [0, 1, 2]), (2, [0, 1, 2]), (4, [0, 1, 2]), (5, [0, 1, 2]), (6, [0, 1, 2]), (8, [0, 1, 2]), (9, [0, 1, 2]), (10, [0, 1, 2]), (12, [0, 1, 2]), (13, [0, 1, 2])] :=
  ⟨.within rfl rfl, .within rfl rfl, .within rfl rfl, .within rfl rfl, .other rfl⟩

theorem C98_look_rh_no {mem : Mem α} {eyeP dirP upP destP : Ptr} {eye : V3 α} {dir : V3 α} {up : V3 α} (h_eye : Holds mem eyeP eye.list) (h_dir : Holds mem dirP dir.list) (h_up : Holds mem upP up.list) (r_dest : Room mem destP 16) (c_eye_dest : Clear destP eyeP [(0, [0, 1, 2]), (1, [0, 1, 2]), (2, [0, 1, 2]), (4, [0, 1, 2]), (5, [0, 1, 2]), (6, [0, 1, 2]), (8, [0, 1, 2]), (9, [0, 1, 2]), (10, [0, 1, 2]), (12, [0, 1, 2]), (13, [0, 1, 2])]) :
    C.glm_look_rh_no.run mem [eyeP.val, dirP.val, upP.val, destP.val] =
      some (none, writes mem [(destP, (Cglm.glm_look_rh_no eye dir up).list.map .f)]) :=
  transferC (e := Lib.glm_look_rh_no) (l := [(3, 0, [(0, [0, 1, 2]), (1, [0, 1, 2]), (2, [0, 1, 2]), (4, [0, 1, 2]), (5, [0, 1, 2]), (6, [0, 1, 2]), (8, [0, 1, 2]), (9, [0, 1, 2]), (10, [0, 1, 2]), (12, [0, 1, 2]), (13, [0, 1, 2])])]) (by kernel_rfl) (((((RO.nil true _).addW r_dest.has r_dest .nil).addR h_up.has).addR h_dir.has).addR h_eye.has) (.cons rfl rfl c_eye_dest .nil) (.p rfl (.p rfl (.p rfl (.p rfl .nil)))) (glm_look_rh_no_run _ _ _) (DT.val_map_eq (glm_look_rh_no_dt_val _ _ _) rfl) rfl rfl rfl
example (eye : V3 α) (dir : V3 α) (up : V3 α) : let mem : Mem α := [⟨true, [.f dir.x, .f dir.y, .f dir.z, .undef, .undef, .undef, .undef, .undef, .undef, .undef, .undef, .undef, .undef, .undef, .undef, .undef]⟩, ⟨false, eye.list.map .f⟩, ⟨false, up.list.map .f⟩]
    Holds mem (1, 0) eye.list ∧ Holds mem (0, 0) dir.list ∧ Holds mem (2, 0) up.list ∧ Room mem (0, 0) 16 ∧ Clear (0, 0) (1, 0) [(0, [0, 1, 2]), (1, [0, 1, 2]), (2, [0, 1, 2]), (4, [0, 1, 2]), (5, [0, 1, 2]), (6, [0, 1, 2]), (8, [0, 1, 2]), (9, [0, 1, 2]), (10, [0, 1, 2]), (12, [0, 1, 2]), (13, [0, 1, 2])] :=
  ⟨.within rfl rfl, .within rfl rfl, .within rfl rfl, .within rfl rfl, .other rfl⟩

theorem C98_look_anyup_rh_no {mem : Mem α} {eyeP dirP destP : Ptr} {eye : V3 α} {dir : V3 α} (h_eye : Holds mem eyeP eye.list) (h_dir : Holds mem dirP dir.list) (r_dest : Room mem destP 16) (c_eye_dest : Clear destP eyeP [(0, [0, 1, 2]), (1, [0, 1, 2]), (2, [0, 1, 2]), (4, [0, 1, 2]), (5, [0, 1, 2]), (6, [0, 1, 2]), (8, [0, 1, 2]), (9, [0, 1, 2]), (10, [0, 1, 2]), (12, [0, 1, 2]), (13, [0, 1, 2])]) :
    C.glm_look_anyup_rh_no.run mem [eyeP.val, dirP.val, destP.val] =
      some (none, writes mem [(destP, (Cglm.glm_look_anyup_rh_no eye dir).list.map .f)]) :=
  transferC (e := Lib.glm_look_anyup_rh_no) (l := [(2, 0, [(0, [0, 1, 2]), (1, [0, 1, 2]), (2, [0, 1, 2]), (4, [0, 1, 2]), (5, [0, 1, 2]), (6, [0, 1, 2]), (8, [0, 1, 2]), (9, [0, 1, 2]), (10, [0, 1, 2]), (12, [0, 1, 2]), (13, [0, 1, 2])])]) (by kernel_rfl) ((((RO.nil true _).addW r_dest.has r_dest .nil).addR h_dir.has).addR h_eye.has) (.cons rfl rfl c_eye_dest .nil) (.p rfl (.p rfl (.p rfl .nil))) (glm_look_anyup_rh_no_run _ _) (DT.val_map_eq (glm_look_anyup_rh_no_dt_val _ _) rfl) rfl rfl rfl
example (eye : V3 α) (dir : V3 α) : let mem : Mem α := [⟨true, [.f dir.x, .f dir.y, .f dir.z, .undef, .undef, .undef, .undef, .undef, .undef, .undef, .undef, .undef, .undef, .undef, .undef, .undef]⟩, ⟨false, eye.list.map .f⟩]
    Holds mem (1, 0) eye.list ∧ Holds mem (0, 0) dir.list ∧ Room mem (0, 0) 16 ∧ Clear (0, 0) (1, 0) [(0, [0, 1, 2]), (1, [0, 1, 2]), (2, [0, 1, 2]), (4, [0, 1, 2]), (5, [0, 1, 2]), (6, [0, 1, 2]), (8, [0, 1, 2]), (9, [0, 1, 2]), (10, [0, 1, 2]), (12, [0, 1, 2]), (13, [0, 1, 2])] :=
  ⟨.within rfl rfl, .within rfl rfl, .within rfl rfl, .other rfl⟩

theorem C98_project_zo {mem : Mem α} {posP mP vpP destP : Ptr} {pos : V3 α} {m : M4 α} {vp : V4 α} (h_pos : Holds mem posP pos.list) (h_m : Holds mem mP m.list) (h_vp : Holds mem vpP vp.list) (r_dest : Room mem destP 3) (c_vp_dest : Clear destP vpP [(0, [1, 3]), (2, [0, 1, 2, 3])]) :
    C.glm_project_zo.run mem [posP.val, mP.val, vpP.val, destP.val] =
      some (none, writes mem [(destP, (Cglm.glm_project_zo pos m vp).list.map .f)]) :=
  transferC (e := Lib.glm_project_zo) (l := [(3, 2, [(0, [1, 3]), (2, [0, 1, 2, 3])])]) (by kernel_rfl) (((((RO.nil true _).addW r_dest.has r_dest .nil).addR h_vp.has).addR h_m.has).addR h_pos.has) (.cons rfl rfl c_vp_dest .nil) (.p rfl (.p rfl (.p rfl (.p rfl .nil)))) (glm_project_zo_run _ _ _) (DT.val_done _) rfl rfl rfl
example (pos : V3 α) (m : M4 α) (vp : V4 α) : let mem : Mem α := [⟨true, [.f pos.x, .f pos.y, .f pos.z]⟩, ⟨false, m.list.map .f⟩, ⟨false, vp.list.map .f⟩]
    Holds mem (0, 0) pos.list ∧ Holds mem (1, 0) m.list ∧ Holds mem (2, 0) vp.list ∧ Room mem (0, 0) 3 ∧ Clear (0, 0) (2, 0) [(0, [1, 3]), (2, [0, 1, 2, 3])] :=
  ⟨.within rfl rfl, .within rfl rfl, .within rfl rfl, .within rfl rfl, .other rfl⟩

end Cglm
