/- Generated by tools/overthms.py; do not edit by hand. -/
import Verif.CMemOver
import Verif.Lib.Geom
import Verif.Mem.GeomsRun
import Verif.Mem.AffinesRun
import Verif.Mem.VecsRun

/-!
# C98: outputs that overlap inputs: functions that store before they have read everything

Inputs and outputs may overlap in any way that keeps certain cells of an output off certain cells of an input: `Clear q p l`
lists them, `Apart` is the case of all cells, `Over` the case of an output that begins inside an input.  Outputs do not
overlap each other.  The result is the value-level function of what the inputs held before the call, and nothing outside
the outputs changes.
-/

set_option linter.unusedVariables false
set_option linter.unusedSectionVars false

namespace Cglm
open CMem

variable {α : Type} [Add α] [Sub α] [Mul α] [Div α] [Neg α] [CFloat α]

theorem C98_lookat {mem : Mem α} {eyeP centerP upP destP : Ptr} {eye : V3 α} {center : V3 α} {up : V3 α} (h_eye : Holds mem eyeP eye.list) (h_center : Holds mem centerP center.list) (h_up : Holds mem upP up.list) (r_dest : Room mem destP 16) (c_eye_dest : Clear destP eyeP [(0, [0, 1, 2]), (1, [0, 1, 2]), (2, [0, 1, 2]), (4, [0, 1, 2]), (5, [0, 1, 2]), (6, [0, 1, 2]), (8, [0, 1, 2]), (9, [0, 1, 2]), (10, [0, 1, 2]), (12, [0, 1, 2]), (13, [0, 1, 2])]) :
    C.glm_lookat.run mem [eyeP.val, centerP.val, upP.val, destP.val] =
      some (none, writes mem [(destP, (Cglm.glm_lookat eye center up).list.map .f)]) :=
  transferC (e := Lib.glm_lookat) (l := [(3, 0, [(0, [0, 1, 2]), (1, [0, 1, 2]), (2, [0, 1, 2]), (4, [0, 1, 2]), (5, [0, 1, 2]), (6, [0, 1, 2]), (8, [0, 1, 2]), (9, [0, 1, 2]), (10, [0, 1, 2]), (12, [0, 1, 2]), (13, [0, 1, 2])])]) (by kernel_rfl) (((((RO.nil true _).addW r_dest.has r_dest .nil).addR h_up.has).addR h_center.has).addR h_eye.has) (.cons rfl rfl c_eye_dest .nil) (.p rfl (.p rfl (.p rfl (.p rfl .nil)))) (glm_lookat_run _ _ _) (DT.val_map_eq (glm_lookat_dt_val _ _ _) rfl) rfl rfl rfl
example (eye : V3 α) (center : V3 α) (up : V3 α) : let mem : Mem α := [⟨true, [.f center.x, .f center.y, .f center.z, .undef, .undef, .undef, .undef, .undef, .undef, .undef, .undef, .undef, .undef, .undef, .undef, .undef]⟩, ⟨false, eye.list.map .f⟩, ⟨false, up.list.map .f⟩]
    Holds mem (1, 0) eye.list ∧ Holds mem (0, 0) center.list ∧ Holds mem (2, 0) up.list ∧ Room mem (0, 0) 16 ∧ Clear (0, 0) (1, 0) [(0, [0, 1, 2]), (1, [0, 1, 2]), (2, [0, 1, 2]), (4, [0, 1, 2]), (5, [0, 1, 2]), (6, [0, 1, 2]), (8, [0, 1, 2]), (9, [0, 1, 2]), (10, [0, 1, 2]), (12, [0, 1, 2]), (13, [0, 1, 2])] :=
  ⟨.within rfl rfl, .within rfl rfl, .within rfl rfl, .within rfl rfl, .other rfl⟩

theorem C98_look {mem : Mem α} {eyeP dirP upP destP : Ptr} {eye : V3 α} {dir : V3 α} {up : V3 α} (h_eye : Holds mem eyeP eye.list) (h_dir : Holds mem dirP dir.list) (h_up : Holds mem upP up.list) (r_dest : Room mem destP 16) (c_eye_dest : Clear destP eyeP [(0, [0, 1, 2]), (1, [0, 1, 2]), (2, [0, 1, 2]), (4, [0, 1, 2]), (5, [0, 1, 2]), (6, [0, 1, 2]), (8, [0, 1, 2]), (9, [0, 1, 2]), (10, [0, 1, 2]), (12, [0, 1, 2]), (13, [0, 1, 2])]) :
    C.glm_look.run mem [eyeP.val, dirP.val, upP.val, destP.val] =
      some (none, writes mem [(destP, (Cglm.glm_look eye dir up).list.map .f)]) :=
  transferC (e := Lib.glm_look) (l := [(3, 0, [(0, [0, 1, 2]), (1, [0, 1, 2]), (2, [0, 1, 2]), (4, [0, 1, 2]), (5, [0, 1, 2]), (6, [0, 1, 2]), (8, [0, 1, 2]), (9, [0, 1, 2]), (10, [0, 1, 2]), (12, [0, 1, 2]), (13, [0, 1, 2])])]) (by kernel_rfl) (((((RO.nil true _).addW r_dest.has r_dest .nil).addR h_up.has).addR h_dir.has).addR h_eye.has) (.cons rfl rfl c_eye_dest .nil) (.p rfl (.p rfl (.p rfl (.p rfl .nil)))) (glm_look_run _ _ _) (DT.val_map_eq (glm_look_dt_val _ _ _) rfl) rfl rfl rfl
example (eye : V3 α) (dir : V3 α) (up : V3 α) : let mem : Mem α := [⟨true, [.f dir.x, .f dir.y, .f dir.z, .undef, .undef, .undef, .undef, .undef, .undef, .undef, .undef, .undef, .undef, .undef, .undef, .undef]⟩, ⟨false, eye.list.map .f⟩, ⟨false, up.list.map .f⟩]
    Holds mem (1, 0) eye.list ∧ Holds mem (0, 0) dir.list ∧ Holds mem (2, 0) up.list ∧ Room mem (0, 0) 16 ∧ Clear (0, 0) (1, 0) [(0, [0, 1, 2]), (1, [0, 1, 2]), (2, [0, 1, 2]), (4, [0, 1, 2]), (5, [0, 1, 2]), (6, [0, 1, 2]), (8, [0, 1, 2]), (9, [0, 1, 2]), (10, [0, 1, 2]), (12, [0, 1, 2]), (13, [0, 1, 2])] :=
  ⟨.within rfl rfl, .within rfl rfl, .within rfl rfl, .within rfl rfl, .other rfl⟩

theorem C98_look_anyup {mem : Mem α} {eyeP dirP destP : Ptr} {eye : V3 α} {dir : V3 α} (h_eye : Holds mem eyeP eye.list) (h_dir : Holds mem dirP dir.list) (r_dest : Room mem destP 16) (c_eye_dest : Clear destP eyeP [(0, [0, 1, 2]), (1, [0, 1, 2]), (2, [0, 1, 2]), (4, [0, 1, 2]), (5, [0, 1, 2]), (6, [0, 1, 2]), (8, [0, 1, 2]), (9, [0, 1, 2]), (10, [0, 1, 2]), (12, [0, 1, 2]), (13, [0, 1, 2])]) :
    C.glm_look_anyup.run mem [eyeP.val, dirP.val, destP.val] =
      some (none, writes mem [(destP, (Cglm.glm_look_anyup eye dir).list.map .f)]) :=
  transferC (e := Lib.glm_look_anyup) (l := [(2, 0, [(0, [0, 1, 2]), (1, [0, 1, 2]), (2, [0, 1, 2]), (4, [0, 1, 2]), (5, [0, 1, 2]), (6, [0, 1, 2]), (8, [0, 1, 2]), (9, [0, 1, 2]), (10, [0, 1, 2]), (12, [0, 1, 2]), (13, [0, 1, 2])])]) (by kernel_rfl) ((((RO.nil true _).addW r_dest.has r_dest .nil).addR h_dir.has).addR h_eye.has) (.cons rfl rfl c_eye_dest .nil) (.p rfl (.p rfl (.p rfl .nil))) (glm_look_anyup_run _ _) (DT.val_map_eq (glm_look_anyup_dt_val _ _) rfl) rfl rfl rfl
example (eye : V3 α) (dir : V3 α) : let mem : Mem α := [⟨true, [.f dir.x, .f dir.y, .f dir.z, .undef, .undef, .undef, .undef, .undef, .undef, .undef, .undef, .undef, .undef, .undef, .undef, .undef]⟩, ⟨false, eye.list.map .f⟩]
    Holds mem (1, 0) eye.list ∧ Holds mem (0, 0) dir.list ∧ Room mem (0, 0) 16 ∧ Clear (0, 0) (1, 0) [(0, [0, 1, 2]), (1, [0, 1, 2]), (2, [0, 1, 2]), (4, [0, 1, 2]), (5, [0, 1, 2]), (6, [0, 1, 2]), (8, [0, 1, 2]), (9, [0, 1, 2]), (10, [0, 1, 2]), (12, [0, 1, 2]), (13, [0, 1, 2])] :=
  ⟨.within rfl rfl, .within rfl rfl, .within rfl rfl, .other rfl⟩

theorem C98_aabb2d_crop_until {mem : Mem α} {aabbP cropAabbP clampAabbP destP : Ptr} {aabb : M2 α} {cropAabb : M2 α} {clampAabb : M2 α} (h_aabb : Holds mem aabbP aabb.list) (h_cropAabb : Holds mem cropAabbP cropAabb.list) (h_clampAabb : Holds mem clampAabbP clampAabb.list) (r_dest : Room mem destP 4) (c_aabb_dest : Over aabbP 4 destP 4) (c_cropAabb_dest : Over cropAabbP 4 destP 4) (c_clampAabb_dest : Apart clampAabbP 4 destP 4) :
    C.glm_aabb2d_crop_until.run mem [aabbP.val, cropAabbP.val, clampAabbP.val, destP.val] =
      some (none, writes mem [(destP, (Cglm.glm_aabb2d_crop_until aabb cropAabb clampAabb).list.map .f)]) :=
  transferC (e := Lib.glm_aabb2d_crop_until) (l := [(3, 0, [(0, [1, 2, 3]), (1, [2, 3]), (2, [3])]), (3, 1, [(0, [1, 2, 3]), (1, [2, 3]), (2, [3])]), (3, 2, [(0, [0, 1, 2, 3]), (1, [0, 1, 2, 3]), (2, [0, 1, 2, 3]), (3, [0, 1, 2, 3])])]) (by kernel_rfl) (((((RO.nil true _).addW r_dest.has r_dest .nil).addR h_clampAabb.has).addR h_cropAabb.has).addR h_aabb.has) (.cons rfl rfl (c_aabb_dest.clear rfl) (.cons rfl rfl (c_cropAabb_dest.clear rfl) (.cons rfl rfl (c_clampAabb_dest.clear rfl) .nil))) (.p rfl (.p rfl (.p rfl (.p rfl .nil)))) (glm_aabb2d_crop_until_run _ _ _) (DT.val_done _) rfl rfl rfl
example (aabb : M2 α) (cropAabb : M2 α) (clampAabb : M2 α) : let mem : Mem α := [⟨true, [.f aabb.c0.x, .f aabb.c0.y, .f aabb.c1.x, .f aabb.c1.y]⟩, ⟨false, cropAabb.list.map .f⟩, ⟨false, clampAabb.list.map .f⟩]
    Holds mem (0, 0) aabb.list ∧ Holds mem (1, 0) cropAabb.list ∧ Holds mem (2, 0) clampAabb.list ∧ Room mem (0, 0) 4 ∧ Over (0, 0) 4 (0, 0) 4 ∧ Over (1, 0) 4 (0, 0) 4 ∧ Apart (2, 0) 4 (0, 0) 4 :=
  ⟨.within rfl rfl, .within rfl rfl, .within rfl rfl, .within rfl rfl, .inl (by decide), .inr (.inl (by decide)), .inl (by decide)⟩

theorem C98_aabb_crop_until {mem : Mem α} {boxP cropBoxP clampBoxP destP : Ptr} {box : M2x3 α} {cropBox : M2x3 α} {clampBox : M2x3 α} (h_box : Holds mem boxP box.list) (h_cropBox : Holds mem cropBoxP cropBox.list) (h_clampBox : Holds mem clampBoxP clampBox.list) (r_dest : Room mem destP 6) (c_box_dest : Over boxP 6 destP 6) (c_cropBox_dest : Over cropBoxP 6 destP 6) (c_clampBox_dest : Apart clampBoxP 6 destP 6) :
    C.glm_aabb_crop_until.run mem [boxP.val, cropBoxP.val, clampBoxP.val, destP.val] =
      some (none, writes mem [(destP, (Cglm.glm_aabb_crop_until box cropBox clampBox).list.map .f)]) :=
  transferC (e := Lib.glm_aabb_crop_until) (l := [(3, 0, [(0, [1, 2, 3, 4, 5]), (1, [2, 3, 4, 5]), (2, [3, 4, 5]), (3, [4, 5]), (4, [5])]), (3, 1, [(0, [1, 2, 3, 4, 5]), (1, [2, 3, 4, 5]), (2, [3, 4, 5]), (3, [4, 5]), (4, [5])]), (3, 2, [(0, [0, 1, 2, 3, 4, 5]), (1, [0, 1, 2, 3, 4, 5]), (2, [0, 1, 2, 3, 4, 5]), (3, [0, 1, 2, 3, 4, 5]), (4, [0, 1, 2, 3, 4, 5]), (5, [0, 1, 2, 3, 4, 5])])]) (by kernel_rfl) (((((RO.nil true _).addW r_dest.has r_dest .nil).addR h_clampBox.has).addR h_cropBox.has).addR h_box.has) (.cons rfl rfl (c_box_dest.clear rfl) (.cons rfl rfl (c_cropBox_dest.clear rfl) (.cons rfl rfl (c_clampBox_dest.clear rfl) .nil))) (.p rfl (.p rfl (.p rfl (.p rfl .nil)))) (glm_aabb_crop_until_run _ _ _) (DT.val_done _) rfl rfl rfl
example (box : M2x3 α) (cropBox : M2x3 α) (clampBox : M2x3 α) : let mem : Mem α := [⟨true, [.f box.c0.x, .f box.c0.y, .f box.c0.z, .f box.c1.x, .f box.c1.y, .f box.c1.z]⟩, ⟨false, cropBox.list.map .f⟩, ⟨false, clampBox.list.map .f⟩]
    Holds mem (0, 0) box.list ∧ Holds mem (1, 0) cropBox.list ∧ Holds mem (2, 0) clampBox.list ∧ Room mem (0, 0) 6 ∧ Over (0, 0) 6 (0, 0) 6 ∧ Over (1, 0) 6 (0, 0) 6 ∧ Apart (2, 0) 6 (0, 0) 6 :=
  ⟨.within rfl rfl, .within rfl rfl, .within rfl rfl, .within rfl rfl, .inl (by decide), .inr (.inl (by decide)), .inl (by decide)⟩

end Cglm
