/- Generated by tools/partthms.py; do not edit by hand. -/
import Verif.CMemPart
import Verif.Lib.Vec
import Verif.Mem.VecsRun

/-!
# C99: components that need not be initialised

`Part mem p l vs`: the array at `p` holds `vs`, but the cells in `l` may hold anything or nothing.  The call is defined and its
result is the value-level function of `vs`, whatever entries `vs` has at those cells.  Inputs and outputs may overlap as in C98.
-/

set_option linter.unusedVariables false
set_option linter.unusedSectionVars false

namespace Cglm
open CMem

variable {α : Type} [Add α] [Sub α] [Mul α] [Div α] [Neg α] [CFloat α]

theorem C99_vec4_copy3 {mem : Mem α} {aP destP : Ptr} {a : V4 α} (h_a : Part mem aP [3] a.list) (r_dest : Room mem destP 3) (c_a_dest : Over aP 4 destP 3) :
    C.glm_vec4_copy3.run mem [aP.val, destP.val] =
      some (none, writes mem [(destP, (Cglm.glm_vec4_copy3 a).list.map .f)]) :=
  transferPart (e := Lib.glm_vec4_copy3) (l := [(1, 0, [(0, [1, 2, 3]), (1, [2, 3]), (2, [3])])]) (u := [(0, [3])]) (by kernel_rfl) rfl (((RO.nil true _).addW r_dest.has r_dest .nil).addR h_a.has) (.cons rfl rfl (c_a_dest.clear rfl) .nil) (.p rfl (.p rfl .nil)) (glm_vec4_copy3_run _) (DT.val_done _) rfl rfl rfl rfl
example (a : V4 α) : let mem : Mem α := [⟨false, [.f a.x, .f a.y, .f a.z, .undef]⟩, ⟨true, List.replicate 3 .undef⟩]
    Part mem (0, 0) [3] a.list ∧ Room mem (1, 0) 3 ∧ Over (0, 0) 4 (1, 0) 3 :=
  ⟨.within rfl rfl rfl, .within rfl rfl, .inl (by decide)⟩

theorem C99_vec3 {mem : Mem α} {v4P destP : Ptr} {v4 : V4 α} (h_v4 : Part mem v4P [3] v4.list) (r_dest : Room mem destP 3) (c_v4_dest : Over v4P 4 destP 3) :
    C.glm_vec3.run mem [v4P.val, destP.val] =
      some (none, writes mem [(destP, (Cglm.glm_vec3 v4).list.map .f)]) :=
  transferPart (e := Lib.glm_vec3) (l := [(1, 0, [(0, [1, 2, 3]), (1, [2, 3]), (2, [3])])]) (u := [(0, [3])]) (by kernel_rfl) rfl (((RO.nil true _).addW r_dest.has r_dest .nil).addR h_v4.has) (.cons rfl rfl (c_v4_dest.clear rfl) .nil) (.p rfl (.p rfl .nil)) (glm_vec3_run _) (DT.val_done _) rfl rfl rfl rfl
example (v4 : V4 α) : let mem : Mem α := [⟨false, [.f v4.x, .f v4.y, .f v4.z, .undef]⟩, ⟨true, List.replicate 3 .undef⟩]
    Part mem (0, 0) [3] v4.list ∧ Room mem (1, 0) 3 ∧ Over (0, 0) 4 (1, 0) 3 :=
  ⟨.within rfl rfl rfl, .within rfl rfl, .inl (by decide)⟩

theorem C99_vec3_rotate_m4 {mem : Mem α} {mP vP destP : Ptr} {m : M4 α} {v : V3 α} (h_m : Part mem mP [12, 13, 14, 15] m.list) (h_v : Holds mem vP v.list) (r_dest : Room mem destP 3) :
    C.glm_vec3_rotate_m4.run mem [mP.val, vP.val, destP.val] =
      some (none, writes mem [(destP, (Cglm.glm_vec3_rotate_m4 m v).list.map .f)]) :=
  transferPart (e := Lib.glm_vec3_rotate_m4) (l := []) (u := [(0, [12, 13, 14, 15])]) (by kernel_rfl) rfl ((((RO.nil true _).addW r_dest.has r_dest .nil).addR h_v.has).addR h_m.has) .nil (.p rfl (.p rfl (.p rfl .nil))) (glm_vec3_rotate_m4_run _ _) (DT.val_map_eq (glm_vec3_rotate_m4_dt_val _ _) rfl) rfl rfl rfl rfl
example (m : M4 α) (v : V3 α) : let mem : Mem α := [⟨false, [.f m.c0.x, .f m.c0.y, .f m.c0.z, .f m.c0.w, .f m.c1.x, .f m.c1.y, .f m.c1.z, .f m.c1.w, .f m.c2.x, .f m.c2.y, .f m.c2.z, .f m.c2.w, .undef, .undef, .undef, .undef]⟩, ⟨false, v.list.map .f⟩, ⟨true, List.replicate 3 .undef⟩]
    Part mem (0, 0) [12, 13, 14, 15] m.list ∧ Holds mem (1, 0) v.list ∧ Room mem (2, 0) 3 :=
  ⟨.within rfl rfl rfl, .within rfl rfl, .within rfl rfl⟩

end Cglm
