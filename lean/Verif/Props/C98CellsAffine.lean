/- Generated by tools/overthms.py; do not edit by hand. -/
import Verif.CMemOver
import Verif.Lib.Affine
import Verif.Mem.AffinesRun

/-!
# C98: outputs that overlap inputs: functions that store before they have read everything

Inputs and outputs may overlap in any way that keeps certain cells of an output off certain cells of an input: `Clear q p l`
lists them, `Apart` is the case of all cells, `Over` the case of an output that begins inside an input.  Outputs do not
overlap each other.  The result is the value-level function of what the inputs held before the call, and nothing outside
the outputs changes.
-/

set_option linter.unusedVariables false
set_option linter.unusedSectionVars false

namespace Cglm
open CMem

variable {α : Type} [Add α] [Sub α] [Mul α] [Div α] [Neg α] [CFloat α]

theorem C98_translate_make {mem : Mem α} {mP vP : Ptr} {v : V3 α} (r_m : Room mem mP 16) (h_v : Holds mem vP v.list) (c_v_m : Apart vP 3 mP 16) :
    C.glm_translate_make.run mem [mP.val, vP.val] =
      some (none, writes mem [(mP, (Cglm.glm_translate_make v).list.map .f)]) :=
  transferC (e := Lib.glm_translate_make) (l := [(0, 1, [(0, [0, 1, 2]), (1, [0, 1, 2]), (2, [0, 1, 2]), (3, [0, 1, 2]), (4, [0, 1, 2]), (5, [0, 1, 2]), (6, [0, 1, 2]), (7, [0, 1, 2]), (8, [0, 1, 2]), (9, [0, 1, 2]), (10, [0, 1, 2]), (11, [0, 1, 2]), (12, [0, 1, 2]), (13, [0, 1, 2]), (14, [0, 1, 2]), (15, [0, 1, 2])])]) (by kernel_rfl) (((RO.nil true _).addR h_v.has).addW r_m.has r_m (.skip .nil)) (.cons rfl rfl (c_v_m.clear rfl) .nil) (.p rfl (.p rfl .nil)) (glm_translate_make_run _) (DT.val_done _) rfl rfl rfl
example (v : V3 α) : let mem : Mem α := [⟨true, List.replicate 16 .undef⟩, ⟨false, v.list.map .f⟩]
    Room mem (0, 0) 16 ∧ Holds mem (1, 0) v.list ∧ Apart (1, 0) 3 (0, 0) 16 :=
  ⟨.within rfl rfl, .within rfl rfl, .inl (by decide)⟩

theorem C98_scale_to {mem : Mem α} {mP vP destP : Ptr} {m : M4 α} {v : V3 α} (h_m : Holds mem mP m.list) (h_v : Holds mem vP v.list) (r_dest : Room mem destP 16) (c_m_dest : Over mP 16 destP 16) (c_v_dest : Clear destP vP [(0, [1, 2]), (1, [1, 2]), (2, [1, 2]), (3, [1, 2]), (4, [2]), (5, [2]), (6, [2]), (7, [2])]) :
    C.glm_scale_to.run mem [mP.val, vP.val, destP.val] =
      some (none, writes mem [(destP, (Cglm.glm_scale_to m v).list.map .f)]) :=
  transferC (e := Lib.glm_scale_to) (l := [(2, 0, [(0, [1, 2, 3, 4, 5, 6, 7, 8, 9, 10, 11, 12, 13, 14, 15]), (1, [2, 3, 4, 5, 6, 7, 8, 9, 10, 11, 12, 13, 14, 15]), (2, [3, 4, 5, 6, 7, 8, 9, 10, 11, 12, 13, 14, 15]), (3, [4, 5, 6, 7, 8, 9, 10, 11, 12, 13, 14, 15]), (4, [5, 6, 7, 8, 9, 10, 11, 12, 13, 14, 15]), (5, [6, 7, 8, 9, 10, 11, 12, 13, 14, 15]), (6, [7, 8, 9, 10, 11, 12, 13, 14, 15]), (7, [8, 9, 10, 11, 12, 13, 14, 15]), (8, [9, 10, 11, 12, 13, 14, 15]), (9, [10, 11, 12, 13, 14, 15]), (10, [11, 12, 13, 14, 15]), (11, [12, 13, 14, 15]), (12, [13, 14, 15]), (13, [14, 15]), (14, [15])]), (2, 1, [(0, [1, 2]), (1, [1, 2]), (2, [1, 2]), (3, [1, 2]), (4, [2]), (5, [2]), (6, [2]), (7, [2])])]) (by kernel_rfl) ((((RO.nil true _).addW r_dest.has r_dest .nil).addR h_v.has).addR h_m.has) (.cons rfl rfl (c_m_dest.clear rfl) (.cons rfl rfl c_v_dest .nil)) (.p rfl (.p rfl (.p rfl .nil))) (glm_scale_to_run _ _) (DT.val_done _) rfl rfl rfl
example (m : M4 α) (v : V3 α) : let mem : Mem α := [⟨true, [.f m.c0.x, .f m.c0.y, .f m.c0.z, .f m.c0.w, .f m.c1.x, .f m.c1.y, .f m.c1.z, .f m.c1.w, .f m.c2.x, .f m.c2.y, .f m.c2.z, .f m.c2.w, .f m.c3.x, .f m.c3.y, .f m.c3.z, .f m.c3.w]⟩, ⟨false, v.list.map .f⟩]
    Holds mem (0, 0) m.list ∧ Holds mem (1, 0) v.list ∧ Room mem (0, 0) 16 ∧ Over (0, 0) 16 (0, 0) 16 ∧ Clear (0, 0) (1, 0) [(0, [1, 2]), (1, [1, 2]), (2, [1, 2]), (3, [1, 2]), (4, [2]), (5, [2]), (6, [2]), (7, [2])] :=
  ⟨.within rfl rfl, .within rfl rfl, .within rfl rfl, .inl (by decide), .other rfl⟩

theorem C98_scale_make {mem : Mem α} {mP vP : Ptr} {v : V3 α} (r_m : Room mem mP 16) (h_v : Holds mem vP v.list) (c_v_m : Apart vP 3 mP 16) :
    C.glm_scale_make.run mem [mP.val, vP.val] =
      some (none, writes mem [(mP, (Cglm.glm_scale_make v).list.map .f)]) :=
  transferC (e := Lib.glm_scale_make) (l := [(0, 1, [(0, [0, 1, 2]), (1, [0, 1, 2]), (2, [0, 1, 2]), (3, [0, 1, 2]), (4, [0, 1, 2]), (5, [0, 1, 2]), (6, [0, 1, 2]), (7, [0, 1, 2]), (8, [0, 1, 2]), (9, [0, 1, 2]), (10, [0, 1, 2]), (11, [0, 1, 2]), (12, [0, 1, 2]), (13, [0, 1, 2]), (14, [0, 1, 2]), (15, [0, 1, 2])])]) (by kernel_rfl) (((RO.nil true _).addR h_v.has).addW r_m.has r_m (.skip .nil)) (.cons rfl rfl (c_v_m.clear rfl) .nil) (.p rfl (.p rfl .nil)) (glm_scale_make_run _) (DT.val_done _) rfl rfl rfl
example (v : V3 α) : let mem : Mem α := [⟨true, List.replicate 16 .undef⟩, ⟨false, v.list.map .f⟩]
    Room mem (0, 0) 16 ∧ Holds mem (1, 0) v.list ∧ Apart (1, 0) 3 (0, 0) 16 :=
  ⟨.within rfl rfl, .within rfl rfl, .inl (by decide)⟩

theorem C98_scale {mem : Mem α} {mP vP : Ptr} {m : M4 α} {v : V3 α} (h_m : Holds mem mP m.list) (r_m : Room mem mP 16) (h_v : Holds mem vP v.list) (c_v_m : Clear mP vP [(0, [1, 2]), (1, [1, 2]), (2, [1, 2]), (3, [1, 2]), (4, [2]), (5, [2]), (6, [2]), (7, [2])]) :
    C.glm_scale.run mem [mP.val, vP.val] =
      some (none, writes mem [(mP, (Cglm.glm_scale m v).list.map .f)]) :=
  transferC (e := Lib.glm_scale) (l := [(0, 1, [(0, [1, 2]), (1, [1, 2]), (2, [1, 2]), (3, [1, 2]), (4, [2]), (5, [2]), (6, [2]), (7, [2])])]) (by kernel_rfl) (((RO.nil true _).addR h_v.has).addW h_m.has r_m (.skip .nil)) (.cons rfl rfl c_v_m .nil) (.p rfl (.p rfl .nil)) (glm_scale_run _ _) (DT.val_done _) rfl rfl rfl
example (m : M4 α) : let mem : Mem α := [⟨true, [.f m.c0.x, .f m.c0.y, .f m.c0.z, .f m.c0.w, .f m.c1.x, .f m.c1.y, .f m.c1.z, .f m.c1.w, .f m.c2.x, .f m.c2.y, .f m.c2.z, .f m.c2.w, .f m.c3.x, .f m.c3.y, .f m.c3.z, .f m.c3.w]⟩]
    Room mem (0, 0) 16 ∧ Holds mem (0, 0) m.list ∧ Holds mem (0, 6) (⟨m.c1.z, m.c1.w, m.c2.x⟩ : V3 α).list ∧ Clear (0, 0) (0, 6) [(0, [1, 2]), (1, [1, 2]), (2, [1, 2]), (3, [1, 2]), (4, [2]), (5, [2]), (6, [2]), (7, [2])] :=
  ⟨.within rfl rfl, .within rfl rfl, .within rfl rfl, .of rfl⟩

theorem C98_decompose_rs {mem : Mem α} {mP rP sP : Ptr} {m : M4 α} (h_m : Holds mem mP m.list) (r_r : Room mem rP 16) (r_s : Room mem sP 3) (s_r_s : Apart rP 16 sP 3) (c_m_r : Clear rP mP [(0, [0, 1, 2, 3, 4, 5, 6, 7, 8, 9, 10, 11]), (1, [0, 1, 2, 3, 4, 5, 6, 7, 8, 9, 10, 11]), (2, [0, 1, 2, 3, 4, 5, 6, 7, 8, 9, 10, 11]), (3, [0, 1, 2, 4, 5, 6, 7, 8, 9, 10, 11]), (4, [0, 1, 2, 4, 5, 6, 7, 8, 9, 10, 11]), (5, [0, 1, 2, 4, 5, 6, 7, 8, 9, 10, 11]), (6, [0, 1, 2, 4, 5, 6, 7, 8, 9, 10, 11]), (7, [0, 1, 2, 4, 5, 6, 8, 9, 10, 11]), (8, [0, 1, 2, 4, 5, 6, 8, 9, 10, 11]), (9, [0, 1, 2, 4, 5, 6, 8, 9, 10, 11]), (10, [0, 1, 2, 4, 5, 6, 8, 9, 10, 11]), (11, [0, 1, 2, 4, 5, 6, 8, 9, 10]), (12, [0, 1, 2, 4, 5, 6, 8, 9, 10]), (13, [0, 1, 2, 4, 5, 6, 8, 9, 10]), (14, [0, 1, 2, 4, 5, 6, 8, 9, 10]), (15, [0, 1, 2, 4, 5, 6, 8, 9, 10])]) (c_m_s : Clear sP mP [(0, [0, 1, 2, 4, 5, 6, 8, 9, 10]), (1, [0, 1, 2, 4, 5, 6, 8, 9, 10]), (2, [0, 1, 2, 4, 5, 6, 8, 9, 10])]) :
    C.glm_decompose_rs.run mem [mP.val, rP.val, sP.val] =
      some (none, writes mem [(rP, (Cglm.glm_decompose_rs m).1.list.map .f), (sP, (Cglm.glm_decompose_rs m).2.list.map .f)]) :=
  transferC (e := Lib.glm_decompose_rs) (l := [(1, 0, [(0, [0, 1, 2, 3, 4, 5, 6, 7, 8, 9, 10, 11]), (1, [0, 1, 2, 3, 4, 5, 6, 7, 8, 9, 10, 11]), (2, [0, 1, 2, 3, 4, 5, 6, 7, 8, 9, 10, 11]), (3, [0, 1, 2, 4, 5, 6, 7, 8, 9, 10, 11]), (4, [0, 1, 2, 4, 5, 6, 7, 8, 9, 10, 11]), (5, [0, 1, 2, 4, 5, 6, 7, 8, 9, 10, 11]), (6, [0, 1, 2, 4, 5, 6, 7, 8, 9, 10, 11]), (7, [0, 1, 2, 4, 5, 6, 8, 9, 10, 11]), (8, [0, 1, 2, 4, 5, 6, 8, 9, 10, 11]), (9, [0, 1, 2, 4, 5, 6, 8, 9, 10, 11]), (10, [0, 1, 2, 4, 5, 6, 8, 9, 10, 11]), (11, [0, 1, 2, 4, 5, 6, 8, 9, 10]), (12, [0, 1, 2, 4, 5, 6, 8, 9, 10]), (13, [0, 1, 2, 4, 5, 6, 8, 9, 10]), (14, [0, 1, 2, 4, 5, 6, 8, 9, 10]), (15, [0, 1, 2, 4, 5, 6, 8, 9, 10])]), (2, 0, [(0, [0, 1, 2, 4, 5, 6, 8, 9, 10]), (1, [0, 1, 2, 4, 5, 6, 8, 9, 10]), (2, [0, 1, 2, 4, 5, 6, 8, 9, 10])])]) (by kernel_rfl) ((((RO.nil true _).addW r_s.has r_s .nil).addW r_r.has r_r (.cons s_r_s .nil)).addR h_m.has) (.cons rfl rfl c_m_r (.cons rfl rfl c_m_s .nil)) (.p rfl (.p rfl (.p rfl .nil))) (glm_decompose_rs_run _) (DT.val_map_eq (glm_decompose_rs_dt_val _) rfl) rfl rfl rfl
example (m : M4 α) : let mem : Mem α := [⟨true, [.f m.c0.x, .f m.c0.y, .f m.c0.z, .f m.c0.w, .f m.c1.x, .f m.c1.y, .f m.c1.z, .f m.c1.w, .f m.c2.x, .f m.c2.y, .f m.c2.z, .f m.c2.w, .f m.c3.x, .f m.c3.y, .f m.c3.z, .f m.c3.w, .undef, .undef, .undef, .undef, .undef, .undef, .undef, .undef, .undef, .undef, .undef, .undef]⟩, ⟨true, List.replicate 3 .undef⟩]
    Holds mem (0, 0) m.list ∧ Room mem (0, 12) 16 ∧ Room mem (1, 0) 3 ∧ Apart (0, 12) 16 (1, 0) 3 ∧ Clear (0, 12) (0, 0) [(0, [0, 1, 2, 3, 4, 5, 6, 7, 8, 9, 10, 11]), (1, [0, 1, 2, 3, 4, 5, 6, 7, 8, 9, 10, 11]), (2, [0, 1, 2, 3, 4, 5, 6, 7, 8, 9, 10, 11]), (3, [0, 1, 2, 4, 5, 6, 7, 8, 9, 10, 11]), (4, [0, 1, 2, 4, 5, 6, 7, 8, 9, 10, 11]), (5, [0, 1, 2, 4, 5, 6, 7, 8, 9, 10, 11]), (6, [0, 1, 2, 4, 5, 6, 7, 8, 9, 10, 11]), (7, [0, 1, 2, 4, 5, 6, 8, 9, 10, 11]), (8, [0, 1, 2, 4, 5, 6, 8, 9, 10, 11]), (9, [0, 1, 2, 4, 5, 6, 8, 9, 10, 11]), (10, [0, 1, 2, 4, 5, 6, 8, 9, 10, 11]), (11, [0, 1, 2, 4, 5, 6, 8, 9, 10]), (12, [0, 1, 2, 4, 5, 6, 8, 9, 10]), (13, [0, 1, 2, 4, 5, 6, 8, 9, 10]), (14, [0, 1, 2, 4, 5, 6, 8, 9, 10]), (15, [0, 1, 2, 4, 5, 6, 8, 9, 10])] ∧ Clear (1, 0) (0, 0) [(0, [0, 1, 2, 4, 5, 6, 8, 9, 10]), (1, [0, 1, 2, 4, 5, 6, 8, 9, 10]), (2, [0, 1, 2, 4, 5, 6, 8, 9, 10])] :=
  ⟨.within rfl rfl, .within rfl rfl, .within rfl rfl, Or.inl (by decide), .of rfl, .other rfl⟩

theorem C98_decompose {mem : Mem α} {mP tP rP sP : Ptr} {m : M4 α} (h_m : Holds mem mP m.list) (r_t : Room mem tP 4) (r_r : Room mem rP 16) (r_s : Room mem sP 3) (s_t_r : Apart tP 4 rP 16) (s_t_s : Apart tP 4 sP 3) (s_r_s : Apart rP 16 sP 3) (c_m_t : Clear tP mP [(0, [0, 1, 2, 3, 4, 5, 6, 7, 8, 9, 10, 11, 13, 14, 15]), (1, [0, 1, 2, 3, 4, 5, 6, 7, 8, 9, 10, 11, 14, 15]), (2, [0, 1, 2, 3, 4, 5, 6, 7, 8, 9, 10, 11, 15]), (3, [0, 1, 2, 3, 4, 5, 6, 7, 8, 9, 10, 11])]) (c_m_r : Clear rP mP [(0, [0, 1, 2, 3, 4, 5, 6, 7, 8, 9, 10, 11]), (1, [0, 1, 2, 3, 4, 5, 6, 7, 8, 9, 10, 11]), (2, [0, 1, 2, 3, 4, 5, 6, 7, 8, 9, 10, 11]), (3, [0, 1, 2, 4, 5, 6, 7, 8, 9, 10, 11]), (4, [0, 1, 2, 4, 5, 6, 7, 8, 9, 10, 11]), (5, [0, 1, 2, 4, 5, 6, 7, 8, 9, 10, 11]), (6, [0, 1, 2, 4, 5, 6, 7, 8, 9, 10, 11]), (7, [0, 1, 2, 4, 5, 6, 8, 9, 10, 11]), (8, [0, 1, 2, 4, 5, 6, 8, 9, 10, 11]), (9, [0, 1, 2, 4, 5, 6, 8, 9, 10, 11]), (10, [0, 1, 2, 4, 5, 6, 8, 9, 10, 11]), (11, [0, 1, 2, 4, 5, 6, 8, 9, 10]), (12, [0, 1, 2, 4, 5, 6, 8, 9, 10]), (13, [0, 1, 2, 4, 5, 6, 8, 9, 10]), (14, [0, 1, 2, 4, 5, 6, 8, 9, 10]), (15, [0, 1, 2, 4, 5, 6, 8, 9, 10])]) (c_m_s : Clear sP mP [(0, [0, 1, 2, 4, 5, 6, 8, 9, 10]), (1, [0, 1, 2, 4, 5, 6, 8, 9, 10]), (2, [0, 1, 2, 4, 5, 6, 8, 9, 10])]) :
    C.glm_decompose.run mem [mP.val, tP.val, rP.val, sP.val] =
      some (none, writes mem [(tP, (Cglm.glm_decompose m).1.list.map .f), (rP, (Cglm.glm_decompose m).2.1.list.map .f), (sP, (Cglm.glm_decompose m).2.2.list.map .f)]) :=
  transferC (e := Lib.glm_decompose) (l := [(1, 0, [(0, [0, 1, 2, 3, 4, 5, 6, 7, 8, 9, 10, 11, 13, 14, 15]), (1, [0, 1, 2, 3, 4, 5, 6, 7, 8, 9, 10, 11, 14, 15]), (2, [0, 1, 2, 3, 4, 5, 6, 7, 8, 9, 10, 11, 15]), (3, [0, 1, 2, 3, 4, 5, 6, 7, 8, 9, 10, 11])]), (2, 0, [(0, [0, 1, 2, 3, 4, 5, 6, 7, 8, 9, 10, 11]), (1, [0, 1, 2, 3, 4, 5, 6, 7, 8, 9, 10, 11]), (2, [0, 1, 2, 3, 4, 5, 6, 7, 8, 9, 10, 11]), (3, [0, 1, 2, 4, 5, 6, 7, 8, 9, 10, 11]), (4, [0, 1, 2, 4, 5, 6, 7, 8, 9, 10, 11]), (5, [0, 1, 2, 4, 5, 6, 7, 8, 9, 10, 11]), (6, [0, 1, 2, 4, 5, 6, 7, 8, 9, 10, 11]), (7, [0, 1, 2, 4, 5, 6, 8, 9, 10, 11]), (8, [0, 1, 2, 4, 5, 6, 8, 9, 10, 11]), (9, [0, 1, 2, 4, 5, 6, 8, 9, 10, 11]), (10, [0, 1, 2, 4, 5, 6, 8, 9, 10, 11]), (11, [0, 1, 2, 4, 5, 6, 8, 9, 10]), (12, [0, 1, 2, 4, 5, 6, 8, 9, 10]), (13, [0, 1, 2, 4, 5, 6, 8, 9, 10]), (14, [0, 1, 2, 4, 5, 6, 8, 9, 10]), (15, [0, 1, 2, 4, 5, 6, 8, 9, 10])]), (3, 0, [(0, [0, 1, 2, 4, 5, 6, 8, 9, 10]), (1, [0, 1, 2, 4, 5, 6, 8, 9, 10]), (2, [0, 1, 2, 4, 5, 6, 8, 9, 10])])]) (by kernel_rfl) (((((RO.nil true _).addW r_s.has r_s .nil).addW r_r.has r_r (.cons s_r_s .nil)).addW r_t.has r_t (.cons s_t_r (.cons s_t_s .nil))).addR h_m.has) (.cons rfl rfl c_m_t (.cons rfl rfl c_m_r (.cons rfl rfl c_m_s .nil))) (.p rfl (.p rfl (.p rfl (.p rfl .nil)))) (glm_decompose_run _) (DT.val_map_eq (glm_decompose_dt_val _) rfl) rfl rfl rfl
example (m : M4 α) : let mem : Mem α := [⟨true, [.f m.c0.x, .f m.c0.y, .f m.c0.z, .f m.c0.w, .f m.c1.x, .f m.c1.y, .f m.c1.z, .f m.c1.w, .f m.c2.x, .f m.c2.y, .f m.c2.z, .f m.c2.w, .f m.c3.x, .f m.c3.y, .f m.c3.z, .f m.c3.w]⟩, ⟨true, List.replicate 16 .undef⟩, ⟨true, List.replicate 3 .undef⟩]
    Holds mem (0, 0) m.list ∧ Room mem (0, 12) 4 ∧ Room mem (1, 0) 16 ∧ Room mem (2, 0) 3 ∧ Apart (0, 12) 4 (1, 0) 16 ∧ Apart (0, 12) 4 (2, 0) 3 ∧ Apart (1, 0) 16 (2, 0) 3 ∧ Clear (0, 12) (0, 0) [(0, [0, 1, 2, 3, 4, 5, 6, 7, 8, 9, 10, 11, 13, 14, 15]), (1, [0, 1, 2, 3, 4, 5, 6, 7, 8, 9, 10, 11, 14, 15]), (2, [0, 1, 2, 3, 4, 5, 6, 7, 8, 9, 10, 11, 15]), (3, [0, 1, 2, 3, 4, 5, 6, 7, 8, 9, 10, 11])] ∧ Clear (1, 0) (0, 0) [(0, [0, 1, 2, 3, 4, 5, 6, 7, 8, 9, 10, 11]), (1, [0, 1, 2, 3, 4, 5, 6, 7, 8, 9, 10, 11]), (2, [0, 1, 2, 3, 4, 5, 6, 7, 8, 9, 10, 11]), (3, [0, 1, 2, 4, 5, 6, 7, 8, 9, 10, 11]), (4, [0, 1, 2, 4, 5, 6, 7, 8, 9, 10, 11]), (5, [0, 1, 2, 4, 5, 6, 7, 8, 9, 10, 11]), (6, [0, 1, 2, 4, 5, 6, 7, 8, 9, 10, 11]), (7, [0, 1, 2, 4, 5, 6, 8, 9, 10, 11]), (8, [0, 1, 2, 4, 5, 6, 8, 9, 10, 11]), (9, [0, 1, 2, 4, 5, 6, 8, 9, 10, 11]), (10, [0, 1, 2, 4, 5, 6, 8, 9, 10, 11]), (11, [0, 1, 2, 4, 5, 6, 8, 9, 10]), (12, [0, 1, 2, 4, 5, 6, 8, 9, 10]), (13, [0, 1, 2, 4, 5, 6, 8, 9, 10]), (14, [0, 1, 2, 4, 5, 6, 8, 9, 10]), (15, [0, 1, 2, 4, 5, 6, 8, 9, 10])] ∧ Clear (2, 0) (0, 0) [(0, [0, 1, 2, 4, 5, 6, 8, 9, 10]), (1, [0, 1, 2, 4, 5, 6, 8, 9, 10]), (2, [0, 1, 2, 4, 5, 6, 8, 9, 10])] :=
  ⟨.within rfl rfl, .within rfl rfl, .within rfl rfl, .within rfl rfl, Or.inl (by decide), Or.inl (by decide), Or.inl (by decide), .of rfl, .other rfl, .other rfl⟩

theorem C98_translate {mem : Mem α} {mP vP : Ptr} {m : M4 α} {v : V3 α} (h_m : Holds mem mP m.list) (r_m : Room mem mP 16) (h_v : Holds mem vP v.list) (c_v_m : Clear mP vP [(12, [1, 2]), (13, [1, 2]), (14, [1, 2]), (15, [1, 2])]) :
    C.glm_translate.run mem [mP.val, vP.val] =
      some (none, writes mem [(mP, (Cglm.glm_translate m v).list.map .f)]) :=
  transferC (e := Lib.glm_translate) (l := [(0, 1, [(12, [1, 2]), (13, [1, 2]), (14, [1, 2]), (15, [1, 2])])]) (by kernel_rfl) (((RO.nil true _).addR h_v.has).addW h_m.has r_m (.skip .nil)) (.cons rfl rfl c_v_m .nil) (.p rfl (.p rfl .nil)) (glm_translate_run _ _) (DT.val_done _) rfl rfl rfl
example (m : M4 α) : let mem : Mem α := [⟨true, [.f m.c0.x, .f m.c0.y, .f m.c0.z, .f m.c0.w, .f m.c1.x, .f m.c1.y, .f m.c1.z, .f m.c1.w, .f m.c2.x, .f m.c2.y, .f m.c2.z, .f m.c2.w, .f m.c3.x, .f m.c3.y, .f m.c3.z, .f m.c3.w]⟩]
    Room mem (0, 0) 16 ∧ Holds mem (0, 0) m.list ∧ Holds mem (0, 0) (⟨m.c0.x, m.c0.y, m.c0.z⟩ : V3 α).list ∧ Clear (0, 0) (0, 0) [(12, [1, 2]), (13, [1, 2]), (14, [1, 2]), (15, [1, 2])] :=
  ⟨.within rfl rfl, .within rfl rfl, .within rfl rfl, .of rfl⟩

theorem C98_translate_to {mem : Mem α} {mP vP destP : Ptr} {m : M4 α} {v : V3 α} (h_m : Holds mem mP m.list) (h_v : Holds mem vP v.list) (r_dest : Room mem destP 16) (c_m_dest : Clear destP mP [(0, [1, 2, 3, 4, 5, 6, 7, 8, 9, 10, 11, 12, 13, 14, 15]), (1, [2, 3, 5, 6, 7, 8, 9, 10, 11, 12, 13, 14, 15]), (2, [3, 6, 7, 8, 9, 10, 11, 12, 13, 14, 15]), (3, [7, 8, 9, 10, 11, 12, 13, 14, 15]), (4, [1, 2, 3, 5, 6, 7, 8, 9, 10, 11, 12, 13, 14, 15]), (5, [2, 3, 6, 7, 8, 9, 10, 11, 12, 13, 14, 15]), (6, [3, 7, 8, 9, 10, 11, 12, 13, 14, 15]), (7, [8, 9, 10, 11, 12, 13, 14, 15]), (8, [9, 10, 11, 12, 13, 14, 15]), (9, [10, 11, 13, 14, 15]), (10, [11, 14, 15]), (11, [15]), (12, [9, 10, 11, 13, 14, 15]), (13, [10, 11, 14, 15]), (14, [11, 15])]) (c_v_dest : Apart vP 3 destP 16) :
    C.glm_translate_to.run mem [mP.val, vP.val, destP.val] =
      some (none, writes mem [(destP, (Cglm.glm_translate_to m v).list.map .f)]) :=
  transferC (e := Lib.glm_translate_to) (l := [(2, 0, [(0, [1, 2, 3, 4, 5, 6, 7, 8, 9, 10, 11, 12, 13, 14, 15]), (1, [2, 3, 5, 6, 7, 8, 9, 10, 11, 12, 13, 14, 15]), (2, [3, 6, 7, 8, 9, 10, 11, 12, 13, 14, 15]), (3, [7, 8, 9, 10, 11, 12, 13, 14, 15]), (4, [1, 2, 3, 5, 6, 7, 8, 9, 10, 11, 12, 13, 14, 15]), (5, [2, 3, 6, 7, 8, 9, 10, 11, 12, 13, 14, 15]), (6, [3, 7, 8, 9, 10, 11, 12, 13, 14, 15]), (7, [8, 9, 10, 11, 12, 13, 14, 15]), (8, [9, 10, 11, 12, 13, 14, 15]), (9, [10, 11, 13, 14, 15]), (10, [11, 14, 15]), (11, [15]), (12, [9, 10, 11, 13, 14, 15]), (13, [10, 11, 14, 15]), (14, [11, 15])]), (2, 1, [(0, [0, 1, 2]), (1, [0, 1, 2]), (2, [0, 1, 2]), (3, [0, 1, 2]), (4, [0, 1, 2]), (5, [0, 1, 2]), (6, [0, 1, 2]), (7, [0, 1, 2]), (8, [0, 1, 2]), (9, [0, 1, 2]), (10, [0, 1, 2]), (11, [0, 1, 2]), (12, [0, 1, 2]), (13, [0, 1, 2]), (14, [0, 1, 2]), (15, [0, 1, 2])])]) (by kernel_rfl) ((((RO.nil true _).addW r_dest.has r_dest .nil).addR h_v.has).addR h_m.has) (.cons rfl rfl c_m_dest (.cons rfl rfl (c_v_dest.clear rfl) .nil)) (.p rfl (.p rfl (.p rfl .nil))) (glm_translate_to_run _ _) (DT.val_done _) rfl rfl rfl
example (m : M4 α) (v : V3 α) : let mem : Mem α := [⟨true, [.f m.c0.x, .f m.c0.y, .f m.c0.z, .f m.c0.w, .f m.c1.x, .f m.c1.y, .f m.c1.z, .f m.c1.w, .f m.c2.x, .f m.c2.y, .f m.c2.z, .f m.c2.w, .f m.c3.x, .f m.c3.y, .f m.c3.z, .f m.c3.w]⟩, ⟨false, v.list.map .f⟩]
    Holds mem (0, 0) m.list ∧ Holds mem (1, 0) v.list ∧ Room mem (0, 0) 16 ∧ Clear (0, 0) (0, 0) [(0, [1, 2, 3, 4, 5, 6, 7, 8, 9, 10, 11, 12, 13, 14, 15]), (1, [2, 3, 5, 6, 7, 8, 9, 10, 11, 12, 13, 14, 15]), (2, [3, 6, 7, 8, 9, 10, 11, 12, 13, 14, 15]), (3, [7, 8, 9, 10, 11, 12, 13, 14, 15]), (4, [1, 2, 3, 5, 6, 7, 8, 9, 10, 11, 12, 13, 14, 15]), (5, [2, 3, 6, 7, 8, 9, 10, 11, 12, 13, 14, 15]), (6, [3, 7, 8, 9, 10, 11, 12, 13, 14, 15]), (7, [8, 9, 10, 11, 12, 13, 14, 15]), (8, [9, 10, 11, 12, 13, 14, 15]), (9, [10, 11, 13, 14, 15]), (10, [11, 14, 15]), (11, [15]), (12, [9, 10, 11, 13, 14, 15]), (13, [10, 11, 14, 15]), (14, [11, 15])] ∧ Apart (1, 0) 3 (0, 0) 16 :=
  ⟨.within rfl rfl, .within rfl rfl, .within rfl rfl, .of rfl, .inl (by decide)⟩

theorem C98_rotate_at {mem : Mem α} {mP pivotP axisP : Ptr} {m : M4 α} {pivot : V3 α} (angle : α) {axis : V3 α} (h_m : Holds mem mP m.list) (r_m : Room mem mP 16) (h_pivot : Holds mem pivotP pivot.list) (h_axis : Holds mem axisP axis.list) (c_pivot_m : Clear mP pivotP [(12, [1, 2]), (13, [1, 2]), (14, [1, 2]), (15, [1, 2])]) (c_axis_m : Clear mP axisP [(12, [0, 1, 2]), (13, [0, 1, 2]), (14, [0, 1, 2]), (15, [0, 1, 2])]) :
    C.glm_rotate_at.run mem [mP.val, pivotP.val, .f angle, axisP.val] =
      some (none, writes mem [(mP, (Cglm.glm_rotate_at m pivot angle axis).list.map .f)]) :=
  transferC (e := Lib.glm_rotate_at) (l := [(0, 1, [(12, [1, 2]), (13, [1, 2]), (14, [1, 2]), (15, [1, 2])]), (0, 2, [(12, [0, 1, 2]), (13, [0, 1, 2]), (14, [0, 1, 2]), (15, [0, 1, 2])])]) (by kernel_rfl) ((((RO.nil true _).addR h_axis.has).addR h_pivot.has).addW h_m.has r_m (.skip (.skip .nil))) (.cons rfl rfl c_pivot_m (.cons rfl rfl c_axis_m .nil)) (.p rfl (.p rfl (.f (.p rfl .nil)))) (glm_rotate_at_run _ _ _ _) (DT.val_map_eq (glm_rotate_at_dt_val _ _ _ _) rfl) rfl rfl rfl
example (m : M4 α) (axis : V3 α) : let mem : Mem α := [⟨true, [.f m.c0.x, .f m.c0.y, .f m.c0.z, .f m.c0.w, .f m.c1.x, .f m.c1.y, .f m.c1.z, .f m.c1.w, .f m.c2.x, .f m.c2.y, .f m.c2.z, .f m.c2.w, .f m.c3.x, .f m.c3.y, .f m.c3.z, .f m.c3.w]⟩, ⟨false, axis.list.map .f⟩]
    Room mem (0, 0) 16 ∧ Holds mem (0, 0) m.list ∧ Holds mem (0, 0) (⟨m.c0.x, m.c0.y, m.c0.z⟩ : V3 α).list ∧ Holds mem (1, 0) axis.list ∧ Clear (0, 0) (0, 0) [(12, [1, 2]), (13, [1, 2]), (14, [1, 2]), (15, [1, 2])] ∧ Clear (0, 0) (1, 0) [(12, [0, 1, 2]), (13, [0, 1, 2]), (14, [0, 1, 2]), (15, [0, 1, 2])] :=
  ⟨.within rfl rfl, .within rfl rfl, .within rfl rfl, .within rfl rfl, .of rfl, .other rfl⟩

theorem C98_rotate_atm {mem : Mem α} {mP pivotP axisP : Ptr} {pivot : V3 α} (angle : α) {axis : V3 α} (r_m : Room mem mP 16) (h_pivot : Holds mem pivotP pivot.list) (h_axis : Holds mem axisP axis.list) (c_pivot_m : Apart pivotP 3 mP 16) (c_axis_m : Apart axisP 3 mP 16) :
    C.glm_rotate_atm.run mem [mP.val, pivotP.val, .f angle, axisP.val] =
      some (none, writes mem [(mP, (Cglm.glm_rotate_atm pivot angle axis).list.map .f)]) :=
  transferC (e := Lib.glm_rotate_atm) (l := [(0, 1, [(0, [0, 1, 2]), (1, [0, 1, 2]), (2, [0, 1, 2]), (3, [0, 1, 2]), (4, [0, 1, 2]), (5, [0, 1, 2]), (6, [0, 1, 2]), (7, [0, 1, 2]), (8, [0, 1, 2]), (9, [0, 1, 2]), (10, [0, 1, 2]), (11, [0, 1, 2]), (12, [0, 1, 2]), (13, [0, 1, 2]), (14, [0, 1, 2]), (15, [0, 1, 2])]), (0, 2, [(0, [0, 1, 2]), (1, [0, 1, 2]), (2, [0, 1, 2]), (3, [0, 1, 2]), (4, [0, 1, 2]), (5, [0, 1, 2]), (6, [0, 1, 2]), (7, [0, 1, 2]), (8, [0, 1, 2]), (9, [0, 1, 2]), (10, [0, 1, 2]), (11, [0, 1, 2]), (12, [0, 1, 2]), (13, [0, 1, 2]), (14, [0, 1, 2]), (15, [0, 1, 2])])]) (by kernel_rfl) ((((RO.nil true _).addR h_axis.has).addR h_pivot.has).addW r_m.has r_m (.skip (.skip .nil))) (.cons rfl rfl (c_pivot_m.clear rfl) (.cons rfl rfl (c_axis_m.clear rfl) .nil)) (.p rfl (.p rfl (.f (.p rfl .nil)))) (glm_rotate_atm_run _ _ _) (DT.val_map_eq (glm_rotate_atm_dt_val _ _ _) rfl) rfl rfl rfl
example (pivot : V3 α) (axis : V3 α) : let mem : Mem α := [⟨true, List.replicate 16 .undef⟩, ⟨false, pivot.list.map .f⟩, ⟨false, axis.list.map .f⟩]
    Room mem (0, 0) 16 ∧ Holds mem (1, 0) pivot.list ∧ Holds mem (2, 0) axis.list ∧ Apart (1, 0) 3 (0, 0) 16 ∧ Apart (2, 0) 3 (0, 0) 16 :=
  ⟨.within rfl rfl, .within rfl rfl, .within rfl rfl, .inl (by decide), .inl (by decide)⟩

theorem C98_translated {mem : Mem α} {mP vP : Ptr} {m : M4 α} {v : V3 α} (h_m : Holds mem mP m.list) (r_m : Room mem mP 16) (h_v : Holds mem vP v.list) (c_v_m : Clear mP vP [(12, [1, 2]), (13, [2])]) :
    C.glm_translated.run mem [mP.val, vP.val] =
      some (none, writes mem [(mP, (Cglm.glm_translated m v).list.map .f)]) :=
  transferC (e := Lib.glm_translated) (l := [(0, 1, [(12, [1, 2]), (13, [2])])]) (by kernel_rfl) (((RO.nil true _).addR h_v.has).addW h_m.has r_m (.skip .nil)) (.cons rfl rfl c_v_m .nil) (.p rfl (.p rfl .nil)) (glm_translated_run _ _) (DT.val_done _) rfl rfl rfl
example (m : M4 α) : let mem : Mem α := [⟨true, [.f m.c0.x, .f m.c0.y, .f m.c0.z, .f m.c0.w, .f m.c1.x, .f m.c1.y, .f m.c1.z, .f m.c1.w, .f m.c2.x, .f m.c2.y, .f m.c2.z, .f m.c2.w, .f m.c3.x, .f m.c3.y, .f m.c3.z, .f m.c3.w]⟩]
    Room mem (0, 0) 16 ∧ Holds mem (0, 0) m.list ∧ Holds mem (0, 0) (⟨m.c0.x, m.c0.y, m.c0.z⟩ : V3 α).list ∧ Clear (0, 0) (0, 0) [(12, [1, 2]), (13, [2])] :=
  ⟨.within rfl rfl, .within rfl rfl, .within rfl rfl, .of rfl⟩

theorem C98_translated_to {mem : Mem α} {mP vP destP : Ptr} {m : M4 α} {v : V3 α} (h_m : Holds mem mP m.list) (h_v : Holds mem vP v.list) (r_dest : Room mem destP 16) (c_m_dest : Clear destP mP [(0, [1, 2, 3, 4, 5, 6, 7, 8, 9, 10, 11, 12, 13, 14, 15]), (1, [2, 3, 5, 6, 7, 8, 9, 10, 11, 12, 13, 14, 15]), (2, [3, 6, 7, 8, 9, 10, 11, 12, 13, 14, 15]), (3, [7, 8, 9, 10, 11, 12, 13, 14, 15]), (4, [1, 2, 3, 5, 6, 7, 8, 9, 10, 11, 12, 13, 14, 15]), (5, [2, 3, 6, 7, 8, 9, 10, 11, 12, 13, 14, 15]), (6, [3, 7, 8, 9, 10, 11, 12, 13, 14, 15]), (7, [8, 9, 10, 11, 12, 13, 14, 15]), (8, [9, 10, 11, 12, 13, 14, 15]), (9, [10, 11, 13, 14, 15]), (10, [11, 14, 15]), (11, [15]), (12, [9, 10, 11, 13, 14, 15]), (13, [10, 11, 14, 15]), (14, [11, 15])]) (c_v_dest : Apart vP 3 destP 16) :
    C.glm_translated_to.run mem [mP.val, vP.val, destP.val] =
      some (none, writes mem [(destP, (Cglm.glm_translated_to m v).list.map .f)]) :=
  transferC (e := Lib.glm_translated_to) (l := [(2, 0, [(0, [1, 2, 3, 4, 5, 6, 7, 8, 9, 10, 11, 12, 13, 14, 15]), (1, [2, 3, 5, 6, 7, 8, 9, 10, 11, 12, 13, 14, 15]), (2, [3, 6, 7, 8, 9, 10, 11, 12, 13, 14, 15]), (3, [7, 8, 9, 10, 11, 12, 13, 14, 15]), (4, [1, 2, 3, 5, 6, 7, 8, 9, 10, 11, 12, 13, 14, 15]), (5, [2, 3, 6, 7, 8, 9, 10, 11, 12, 13, 14, 15]), (6, [3, 7, 8, 9, 10, 11, 12, 13, 14, 15]), (7, [8, 9, 10, 11, 12, 13, 14, 15]), (8, [9, 10, 11, 12, 13, 14, 15]), (9, [10, 11, 13, 14, 15]), (10, [11, 14, 15]), (11, [15]), (12, [9, 10, 11, 13, 14, 15]), (13, [10, 11, 14, 15]), (14, [11, 15])]), (2, 1, [(0, [0, 1, 2]), (1, [0, 1, 2]), (2, [0, 1, 2]), (3, [0, 1, 2]), (4, [0, 1, 2]), (5, [0, 1, 2]), (6, [0, 1, 2]), (7, [0, 1, 2]), (8, [0, 1, 2]), (9, [0, 1, 2]), (10, [0, 1, 2]), (11, [0, 1, 2]), (12, [0, 1, 2]), (13, [0, 1, 2]), (14, [0, 1, 2]), (15, [0, 1, 2])])]) (by kernel_rfl) ((((RO.nil true _).addW r_dest.has r_dest .nil).addR h_v.has).addR h_m.has) (.cons rfl rfl c_m_dest (.cons rfl rfl (c_v_dest.clear rfl) .nil)) (.p rfl (.p rfl (.p rfl .nil))) (glm_translated_to_run _ _) (DT.val_done _) rfl rfl rfl
example (m : M4 α) (v : V3 α) : let mem : Mem α := [⟨true, [.f m.c0.x, .f m.c0.y, .f m.c0.z, .f m.c0.w, .f m.c1.x, .f m.c1.y, .f m.c1.z, .f m.c1.w, .f m.c2.x, .f m.c2.y, .f m.c2.z, .f m.c2.w, .f m.c3.x, .f m.c3.y, .f m.c3.z, .f m.c3.w]⟩, ⟨false, v.list.map .f⟩]
    Holds mem (0, 0) m.list ∧ Holds mem (1, 0) v.list ∧ Room mem (0, 0) 16 ∧ Clear (0, 0) (0, 0) [(0, [1, 2, 3, 4, 5, 6, 7, 8, 9, 10, 11, 12, 13, 14, 15]), (1, [2, 3, 5, 6, 7, 8, 9, 10, 11, 12, 13, 14, 15]), (2, [3, 6, 7, 8, 9, 10, 11, 12, 13, 14, 15]), (3, [7, 8, 9, 10, 11, 12, 13, 14, 15]), (4, [1, 2, 3, 5, 6, 7, 8, 9, 10, 11, 12, 13, 14, 15]), (5, [2, 3, 6, 7, 8, 9, 10, 11, 12, 13, 14, 15]), (6, [3, 7, 8, 9, 10, 11, 12, 13, 14, 15]), (7, [8, 9, 10, 11, 12, 13, 14, 15]), (8, [9, 10, 11, 12, 13, 14, 15]), (9, [10, 11, 13, 14, 15]), (10, [11, 14, 15]), (11, [15]), (12, [9, 10, 11, 13, 14, 15]), (13, [10, 11, 14, 15]), (14, [11, 15])] ∧ Apart (1, 0) 3 (0, 0) 16 :=
  ⟨.within rfl rfl, .within rfl rfl, .within rfl rfl, .of rfl, .inl (by decide)⟩

theorem C98_rotated_at {mem : Mem α} {mP pivotP axisP : Ptr} {m : M4 α} {pivot : V3 α} (angle : α) {axis : V3 α} (h_m : Holds mem mP m.list) (r_m : Room mem mP 16) (h_pivot : Holds mem pivotP pivot.list) (h_axis : Holds mem axisP axis.list) (c_pivot_m : Clear mP pivotP [(12, [1, 2]), (13, [2])]) (c_axis_m : Clear mP axisP [(12, [0, 1, 2]), (13, [0, 1, 2]), (14, [0, 1, 2])]) :
    C.glm_rotated_at.run mem [mP.val, pivotP.val, .f angle, axisP.val] =
      some (none, writes mem [(mP, (Cglm.glm_rotated_at m pivot angle axis).list.map .f)]) :=
  transferC (e := Lib.glm_rotated_at) (l := [(0, 1, [(12, [1, 2]), (13, [2])]), (0, 2, [(12, [0, 1, 2]), (13, [0, 1, 2]), (14, [0, 1, 2])])]) (by kernel_rfl) ((((RO.nil true _).addR h_axis.has).addR h_pivot.has).addW h_m.has r_m (.skip (.skip .nil))) (.cons rfl rfl c_pivot_m (.cons rfl rfl c_axis_m .nil)) (.p rfl (.p rfl (.f (.p rfl .nil)))) (glm_rotated_at_run _ _ _ _) (DT.val_map_eq (glm_rotated_at_dt_val _ _ _ _) rfl) rfl rfl rfl
example (m : M4 α) (axis : V3 α) : let mem : Mem α := [⟨true, [.f m.c0.x, .f m.c0.y, .f m.c0.z, .f m.c0.w, .f m.c1.x, .f m.c1.y, .f m.c1.z, .f m.c1.w, .f m.c2.x, .f m.c2.y, .f m.c2.z, .f m.c2.w, .f m.c3.x, .f m.c3.y, .f m.c3.z, .f m.c3.w]⟩, ⟨false, axis.list.map .f⟩]
    Room mem (0, 0) 16 ∧ Holds mem (0, 0) m.list ∧ Holds mem (0, 0) (⟨m.c0.x, m.c0.y, m.c0.z⟩ : V3 α).list ∧ Holds mem (1, 0) axis.list ∧ Clear (0, 0) (0, 0) [(12, [1, 2]), (13, [2])] ∧ Clear (0, 0) (1, 0) [(12, [0, 1, 2]), (13, [0, 1, 2]), (14, [0, 1, 2])] :=
  ⟨.within rfl rfl, .within rfl rfl, .within rfl rfl, .within rfl rfl, .of rfl, .other rfl⟩

theorem C98_translate2d {mem : Mem α} {mP vP : Ptr} {m : M3 α} {v : V2 α} (h_m : Holds mem mP m.list) (r_m : Room mem mP 9) (h_v : Holds mem vP v.list) (c_v_m : Clear mP vP [(6, [0, 1]), (7, [0, 1])]) :
    C.glm_translate2d.run mem [mP.val, vP.val] =
      some (none, writes mem [(mP, (Cglm.glm_translate2d m v).list.map .f)]) :=
  transferC (e := Lib.glm_translate2d) (l := [(0, 1, [(6, [0, 1]), (7, [0, 1])])]) (by kernel_rfl) (((RO.nil true _).addR h_v.has).addW h_m.has r_m (.skip .nil)) (.cons rfl rfl c_v_m .nil) (.p rfl (.p rfl .nil)) (glm_translate2d_run _ _) (DT.val_done _) rfl rfl rfl
example (m : M3 α) : let mem : Mem α := [⟨true, [.f m.c0.x, .f m.c0.y, .f m.c0.z, .f m.c1.x, .f m.c1.y, .f m.c1.z, .f m.c2.x, .f m.c2.y, .f m.c2.z]⟩]
    Room mem (0, 0) 9 ∧ Holds mem (0, 0) m.list ∧ Holds mem (0, 0) (⟨m.c0.x, m.c0.y⟩ : V2 α).list ∧ Clear (0, 0) (0, 0) [(6, [0, 1]), (7, [0, 1])] :=
  ⟨.within rfl rfl, .within rfl rfl, .within rfl rfl, .of rfl⟩

theorem C98_translate2d_to {mem : Mem α} {mP vP destP : Ptr} {m : M3 α} {v : V2 α} (h_m : Holds mem mP m.list) (h_v : Holds mem vP v.list) (r_dest : Room mem destP 9) (c_m_dest : Over mP 9 destP 9) (c_v_dest : Apart vP 2 destP 9) :
    C.glm_translate2d_to.run mem [mP.val, vP.val, destP.val] =
      some (none, writes mem [(destP, (Cglm.glm_translate2d_to m v).list.map .f)]) :=
  transferC (e := Lib.glm_translate2d_to) (l := [(2, 0, [(0, [1, 2, 3, 4, 5, 6, 7, 8]), (1, [2, 3, 4, 5, 6, 7, 8]), (2, [3, 4, 5, 6, 7, 8]), (3, [4, 5, 6, 7, 8]), (4, [5, 6, 7, 8]), (5, [6, 7, 8]), (6, [7, 8]), (7, [8])]), (2, 1, [(0, [0, 1]), (1, [0, 1]), (2, [0, 1]), (3, [0, 1]), (4, [0, 1]), (5, [0, 1]), (6, [0, 1]), (7, [0, 1]), (8, [0, 1])])]) (by kernel_rfl) ((((RO.nil true _).addW r_dest.has r_dest .nil).addR h_v.has).addR h_m.has) (.cons rfl rfl (c_m_dest.clear rfl) (.cons rfl rfl (c_v_dest.clear rfl) .nil)) (.p rfl (.p rfl (.p rfl .nil))) (glm_translate2d_to_run _ _) (DT.val_done _) rfl rfl rfl
example (m : M3 α) (v : V2 α) : let mem : Mem α := [⟨true, [.f m.c0.x, .f m.c0.y, .f m.c0.z, .f m.c1.x, .f m.c1.y, .f m.c1.z, .f m.c2.x, .f m.c2.y, .f m.c2.z]⟩, ⟨false, v.list.map .f⟩]
    Holds mem (0, 0) m.list ∧ Holds mem (1, 0) v.list ∧ Room mem (0, 0) 9 ∧ Over (0, 0) 9 (0, 0) 9 ∧ Apart (1, 0) 2 (0, 0) 9 :=
  ⟨.within rfl rfl, .within rfl rfl, .within rfl rfl, .inl (by decide), .inl (by decide)⟩

theorem C98_translate2d_make {mem : Mem α} {mP vP : Ptr} {v : V2 α} (r_m : Room mem mP 9) (h_v : Holds mem vP v.list) (c_v_m : Apart vP 2 mP 9) :
    C.glm_translate2d_make.run mem [mP.val, vP.val] =
      some (none, writes mem [(mP, (Cglm.glm_translate2d_make v).list.map .f)]) :=
  transferC (e := Lib.glm_translate2d_make) (l := [(0, 1, [(0, [0, 1]), (1, [0, 1]), (2, [0, 1]), (3, [0, 1]), (4, [0, 1]), (5, [0, 1]), (6, [0, 1]), (7, [0, 1]), (8, [0, 1])])]) (by kernel_rfl) (((RO.nil true _).addR h_v.has).addW r_m.has r_m (.skip .nil)) (.cons rfl rfl (c_v_m.clear rfl) .nil) (.p rfl (.p rfl .nil)) (glm_translate2d_make_run _) (DT.val_done _) rfl rfl rfl
example (v : V2 α) : let mem : Mem α := [⟨true, List.replicate 9 .undef⟩, ⟨false, v.list.map .f⟩]
    Room mem (0, 0) 9 ∧ Holds mem (1, 0) v.list ∧ Apart (1, 0) 2 (0, 0) 9 :=
  ⟨.within rfl rfl, .within rfl rfl, .inl (by decide)⟩

theorem C98_scale2d_to {mem : Mem α} {mP vP destP : Ptr} {m : M3 α} {v : V2 α} (h_m : Holds mem mP m.list) (h_v : Holds mem vP v.list) (r_dest : Room mem destP 9) (c_m_dest : Over mP 9 destP 9) (c_v_dest : Clear destP vP [(0, [0, 1]), (1, [0, 1]), (2, [1]), (3, [1]), (4, [1])]) :
    C.glm_scale2d_to.run mem [mP.val, vP.val, destP.val] =
      some (none, writes mem [(destP, (Cglm.glm_scale2d_to m v).list.map .f)]) :=
  transferC (e := Lib.glm_scale2d_to) (l := [(2, 0, [(0, [1, 2, 3, 4, 5, 6, 7, 8]), (1, [2, 3, 4, 5, 6, 7, 8]), (2, [3, 4, 5, 6, 7, 8]), (3, [4, 5, 6, 7, 8]), (4, [5, 6, 7, 8]), (5, [6, 7, 8]), (6, [7, 8]), (7, [8])]), (2, 1, [(0, [0, 1]), (1, [0, 1]), (2, [1]), (3, [1]), (4, [1])])]) (by kernel_rfl) ((((RO.nil true _).addW r_dest.has r_dest .nil).addR h_v.has).addR h_m.has) (.cons rfl rfl (c_m_dest.clear rfl) (.cons rfl rfl c_v_dest .nil)) (.p rfl (.p rfl (.p rfl .nil))) (glm_scale2d_to_run _ _) (DT.val_done _) rfl rfl rfl
example (m : M3 α) (v : V2 α) : let mem : Mem α := [⟨true, [.f m.c0.x, .f m.c0.y, .f m.c0.z, .f m.c1.x, .f m.c1.y, .f m.c1.z, .f m.c2.x, .f m.c2.y, .f m.c2.z]⟩, ⟨false, v.list.map .f⟩]
    Holds mem (0, 0) m.list ∧ Holds mem (1, 0) v.list ∧ Room mem (0, 0) 9 ∧ Over (0, 0) 9 (0, 0) 9 ∧ Clear (0, 0) (1, 0) [(0, [0, 1]), (1, [0, 1]), (2, [1]), (3, [1]), (4, [1])] :=
  ⟨.within rfl rfl, .within rfl rfl, .within rfl rfl, .inl (by decide), .other rfl⟩

theorem C98_scale2d_make {mem : Mem α} {mP vP : Ptr} {v : V2 α} (r_m : Room mem mP 9) (h_v : Holds mem vP v.list) (c_v_m : Apart vP 2 mP 9) :
    C.glm_scale2d_make.run mem [mP.val, vP.val] =
      some (none, writes mem [(mP, (Cglm.glm_scale2d_make v).list.map .f)]) :=
  transferC (e := Lib.glm_scale2d_make) (l := [(0, 1, [(0, [0, 1]), (1, [0, 1]), (2, [0, 1]), (3, [0, 1]), (4, [0, 1]), (5, [0, 1]), (6, [0, 1]), (7, [0, 1]), (8, [0, 1])])]) (by kernel_rfl) (((RO.nil true _).addR h_v.has).addW r_m.has r_m (.skip .nil)) (.cons rfl rfl (c_v_m.clear rfl) .nil) (.p rfl (.p rfl .nil)) (glm_scale2d_make_run _) (DT.val_done _) rfl rfl rfl
example (v : V2 α) : let mem : Mem α := [⟨true, List.replicate 9 .undef⟩, ⟨false, v.list.map .f⟩]
    Room mem (0, 0) 9 ∧ Holds mem (1, 0) v.list ∧ Apart (1, 0) 2 (0, 0) 9 :=
  ⟨.within rfl rfl, .within rfl rfl, .inl (by decide)⟩

theorem C98_scale2d {mem : Mem α} {mP vP : Ptr} {m : M3 α} {v : V2 α} (h_m : Holds mem mP m.list) (r_m : Room mem mP 9) (h_v : Holds mem vP v.list) (c_v_m : Clear mP vP [(0, [0, 1]), (1, [0, 1]), (2, [1]), (3, [1]), (4, [1])]) :
    C.glm_scale2d.run mem [mP.val, vP.val] =
      some (none, writes mem [(mP, (Cglm.glm_scale2d m v).list.map .f)]) :=
  transferC (e := Lib.glm_scale2d) (l := [(0, 1, [(0, [0, 1]), (1, [0, 1]), (2, [1]), (3, [1]), (4, [1])])]) (by kernel_rfl) (((RO.nil true _).addR h_v.has).addW h_m.has r_m (.skip .nil)) (.cons rfl rfl c_v_m .nil) (.p rfl (.p rfl .nil)) (glm_scale2d_run _ _) (DT.val_done _) rfl rfl rfl
example (m : M3 α) : let mem : Mem α := [⟨true, [.f m.c0.x, .f m.c0.y, .f m.c0.z, .f m.c1.x, .f m.c1.y, .f m.c1.z, .f m.c2.x, .f m.c2.y, .f m.c2.z]⟩]
    Room mem (0, 0) 9 ∧ Holds mem (0, 0) m.list ∧ Holds mem (0, 4) (⟨m.c1.y, m.c1.z⟩ : V2 α).list ∧ Clear (0, 0) (0, 4) [(0, [0, 1]), (1, [0, 1]), (2, [1]), (3, [1]), (4, [1])] :=
  ⟨.within rfl rfl, .within rfl rfl, .within rfl rfl, .of rfl⟩

theorem C98_translated2d {mem : Mem α} {mP vP : Ptr} {m : M3 α} {v : V2 α} (h_m : Holds mem mP m.list) (r_m : Room mem mP 9) (h_v : Holds mem vP v.list) (c_v_m : Clear mP vP [(6, [1])]) :
    C.glm_translated2d.run mem [mP.val, vP.val] =
      some (none, writes mem [(mP, (Cglm.glm_translated2d m v).list.map .f)]) :=
  transferC (e := Lib.glm_translated2d) (l := [(0, 1, [(6, [1])])]) (by kernel_rfl) (((RO.nil true _).addR h_v.has).addW h_m.has r_m (.skip .nil)) (.cons rfl rfl c_v_m .nil) (.p rfl (.p rfl .nil)) (glm_translated2d_run _ _) (DT.val_done _) rfl rfl rfl
example (m : M3 α) : let mem : Mem α := [⟨true, [.f m.c0.x, .f m.c0.y, .f m.c0.z, .f m.c1.x, .f m.c1.y, .f m.c1.z, .f m.c2.x, .f m.c2.y, .f m.c2.z]⟩]
    Room mem (0, 0) 9 ∧ Holds mem (0, 0) m.list ∧ Holds mem (0, 0) (⟨m.c0.x, m.c0.y⟩ : V2 α).list ∧ Clear (0, 0) (0, 0) [(6, [1])] :=
  ⟨.within rfl rfl, .within rfl rfl, .within rfl rfl, .of rfl⟩

theorem C98_scaled2d {mem : Mem α} {mP vP : Ptr} {m : M3 α} {v : V2 α} (h_m : Holds mem mP m.list) (r_m : Room mem mP 9) (h_v : Holds mem vP v.list) (c_v_m : Clear mP vP [(0, [0, 1]), (1, [1]), (3, [0, 1]), (4, [1]), (6, [1])]) :
    C.glm_scaled2d.run mem [mP.val, vP.val] =
      some (none, writes mem [(mP, (Cglm.glm_scaled2d m v).list.map .f)]) :=
  transferC (e := Lib.glm_scaled2d) (l := [(0, 1, [(0, [0, 1]), (1, [1]), (3, [0, 1]), (4, [1]), (6, [1])])]) (by kernel_rfl) (((RO.nil true _).addR h_v.has).addW h_m.has r_m (.skip .nil)) (.cons rfl rfl c_v_m .nil) (.p rfl (.p rfl .nil)) (glm_scaled2d_run _ _) (DT.val_done _) rfl rfl rfl
example (m : M3 α) : let mem : Mem α := [⟨true, [.f m.c0.x, .f m.c0.y, .f m.c0.z, .f m.c1.x, .f m.c1.y, .f m.c1.z, .f m.c2.x, .f m.c2.y, .f m.c2.z]⟩]
    Room mem (0, 0) 9 ∧ Holds mem (0, 0) m.list ∧ Holds mem (0, 1) (⟨m.c0.y, m.c0.z⟩ : V2 α).list ∧ Clear (0, 0) (0, 1) [(0, [0, 1]), (1, [1]), (3, [0, 1]), (4, [1]), (6, [1])] :=
  ⟨.within rfl rfl, .within rfl rfl, .within rfl rfl, .of rfl⟩

end Cglm
