/- Generated by tools/overthms.py; do not edit by hand. -/
import Verif.CMemOver
import Verif.Lib.Vec
import Verif.Mem.VecsRun

/-!
# C98: outputs that overlap inputs: functions that store before they have read everything

Inputs and outputs may overlap in any way that keeps certain cells of an output off certain cells of an input: `Clear q p l`
lists them, `Apart` is the case of all cells, `Over` the case of an output that begins inside an input.  Outputs do not
overlap each other.  The result is the value-level function of what the inputs held before the call, and nothing outside
the outputs changes.
-/

set_option linter.unusedVariables false
set_option linter.unusedSectionVars false

namespace Cglm
open CMem

variable {α : Type} [Add α] [Sub α] [Mul α] [Div α] [Neg α] [CFloat α]

theorem C98_vec2_refract {mem : Mem α} {vP nP destP : Ptr} {v : V2 α} {n : V2 α} (eta : α) (h_v : Holds mem vP v.list) (h_n : Holds mem nP n.list) (r_dest : Room mem destP 2) (c_v_dest : Over vP 2 destP 2) (c_n_dest : Apart nP 2 destP 2) :
    C.glm_vec2_refract.run mem [vP.val, nP.val, .f eta, destP.val] =
      some (some (.b (Cglm.glm_vec2_refract v n eta).1), writes mem [(destP, (Cglm.glm_vec2_refract v n eta).2.list.map .f)]) :=
  transferC (e := Lib.glm_vec2_refract) (l := [(2, 0, [(0, [1])]), (2, 1, [(0, [0, 1]), (1, [0, 1])])]) (by kernel_rfl) ((((RO.nil true _).addW r_dest.has r_dest .nil).addR h_n.has).addR h_v.has) (.cons rfl rfl (c_v_dest.clear rfl) (.cons rfl rfl (c_n_dest.clear rfl) .nil)) (.p rfl (.p rfl (.f (.p rfl .nil)))) (glm_vec2_refract_run _ _ _) (DT.val_map_eq (glm_vec2_refract_dt_val _ _ _) rfl) rfl rfl rfl
example (v : V2 α) (n : V2 α) : let mem : Mem α := [⟨true, [.f v.x, .f v.y]⟩, ⟨false, n.list.map .f⟩]
    Holds mem (0, 0) v.list ∧ Holds mem (1, 0) n.list ∧ Room mem (0, 0) 2 ∧ Over (0, 0) 2 (0, 0) 2 ∧ Apart (1, 0) 2 (0, 0) 2 :=
  ⟨.within rfl rfl, .within rfl rfl, .within rfl rfl, .inl (by decide), .inl (by decide)⟩

theorem C98_vec4_reflect {mem : Mem α} {vP nP destP : Ptr} {v : V4 α} {n : V4 α} (h_v : Holds mem vP v.list) (h_n : Holds mem nP n.list) (r_dest : Room mem destP 4) (c_v_dest : Clear destP vP [(0, [1, 2, 3]), (1, [2, 3]), (2, [3]), (3, [3])]) :
    C.glm_vec4_reflect.run mem [vP.val, nP.val, destP.val] =
      some (none, writes mem [(destP, (Cglm.glm_vec4_reflect v n).list.map .f)]) :=
  transferC (e := Lib.glm_vec4_reflect) (l := [(2, 0, [(0, [1, 2, 3]), (1, [2, 3]), (2, [3]), (3, [3])])]) (by kernel_rfl) ((((RO.nil true _).addW r_dest.has r_dest .nil).addR h_n.has).addR h_v.has) (.cons rfl rfl c_v_dest .nil) (.p rfl (.p rfl (.p rfl .nil))) (glm_vec4_reflect_run _ _) (DT.val_done _) rfl rfl rfl
example (v : V4 α) (n : V4 α) : let mem : Mem α := [⟨true, [.f n.x, .f n.y, .f n.z, .f n.w]⟩, ⟨false, v.list.map .f⟩]
    Holds mem (1, 0) v.list ∧ Holds mem (0, 0) n.list ∧ Room mem (0, 0) 4 ∧ Clear (0, 0) (1, 0) [(0, [1, 2, 3]), (1, [2, 3]), (2, [3]), (3, [3])] :=
  ⟨.within rfl rfl, .within rfl rfl, .within rfl rfl, .other rfl⟩

theorem C98_vec4_refract {mem : Mem α} {vP nP destP : Ptr} {v : V4 α} {n : V4 α} (eta : α) (h_v : Holds mem vP v.list) (h_n : Holds mem nP n.list) (r_dest : Room mem destP 4) (c_v_dest : Over vP 4 destP 4) (c_n_dest : Apart nP 4 destP 4) :
    C.glm_vec4_refract.run mem [vP.val, nP.val, .f eta, destP.val] =
      some (some (.b (Cglm.glm_vec4_refract v n eta).1), writes mem [(destP, (Cglm.glm_vec4_refract v n eta).2.list.map .f)]) :=
  transferC (e := Lib.glm_vec4_refract) (l := [(2, 0, [(0, [1, 2, 3]), (1, [2, 3]), (2, [3])]), (2, 1, [(0, [0, 1, 2, 3]), (1, [0, 1, 2, 3]), (2, [0, 1, 2, 3]), (3, [0, 1, 2, 3])])]) (by kernel_rfl) ((((RO.nil true _).addW r_dest.has r_dest .nil).addR h_n.has).addR h_v.has) (.cons rfl rfl (c_v_dest.clear rfl) (.cons rfl rfl (c_n_dest.clear rfl) .nil)) (.p rfl (.p rfl (.f (.p rfl .nil)))) (glm_vec4_refract_run _ _ _) (DT.val_map_eq (glm_vec4_refract_dt_val _ _ _) rfl) rfl rfl rfl
example (v : V4 α) (n : V4 α) : let mem : Mem α := [⟨true, [.f v.x, .f v.y, .f v.z, .f v.w]⟩, ⟨false, n.list.map .f⟩]
    Holds mem (0, 0) v.list ∧ Holds mem (1, 0) n.list ∧ Room mem (0, 0) 4 ∧ Over (0, 0) 4 (0, 0) 4 ∧ Apart (1, 0) 4 (0, 0) 4 :=
  ⟨.within rfl rfl, .within rfl rfl, .within rfl rfl, .inl (by decide), .inl (by decide)⟩

theorem C98_vec3_refract {mem : Mem α} {vP nP destP : Ptr} {v : V3 α} {n : V3 α} (eta : α) (h_v : Holds mem vP v.list) (h_n : Holds mem nP n.list) (r_dest : Room mem destP 3) (c_v_dest : Over vP 3 destP 3) (c_n_dest : Apart nP 3 destP 3) :
    C.glm_vec3_refract.run mem [vP.val, nP.val, .f eta, destP.val] =
      some (some (.b (Cglm.glm_vec3_refract v n eta).1), writes mem [(destP, (Cglm.glm_vec3_refract v n eta).2.list.map .f)]) :=
  transferC (e := Lib.glm_vec3_refract) (l := [(2, 0, [(0, [1, 2]), (1, [2])]), (2, 1, [(0, [0, 1, 2]), (1, [0, 1, 2]), (2, [0, 1, 2])])]) (by kernel_rfl) ((((RO.nil true _).addW r_dest.has r_dest .nil).addR h_n.has).addR h_v.has) (.cons rfl rfl (c_v_dest.clear rfl) (.cons rfl rfl (c_n_dest.clear rfl) .nil)) (.p rfl (.p rfl (.f (.p rfl .nil)))) (glm_vec3_refract_run _ _ _) (DT.val_map_eq (glm_vec3_refract_dt_val _ _ _) rfl) rfl rfl rfl
example (v : V3 α) (n : V3 α) : let mem : Mem α := [⟨true, [.f v.x, .f v.y, .f v.z]⟩, ⟨false, n.list.map .f⟩]
    Holds mem (0, 0) v.list ∧ Holds mem (1, 0) n.list ∧ Room mem (0, 0) 3 ∧ Over (0, 0) 3 (0, 0) 3 ∧ Apart (1, 0) 3 (0, 0) 3 :=
  ⟨.within rfl rfl, .within rfl rfl, .within rfl rfl, .inl (by decide), .inl (by decide)⟩

end Cglm
