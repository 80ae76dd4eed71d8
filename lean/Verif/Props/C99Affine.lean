/- Generated by tools/partthms.py; do not edit by hand. -/
import Verif.CMemPart
import Verif.Lib.Affine
import Verif.Mem.AffinesRun

/-!
# C99: components that need not be initialised

`Part mem p l vs`: the array at `p` holds `vs`, but the cells in `l` may hold anything or nothing.  The call is defined and its
result is the value-level function of `vs`, whatever entries `vs` has at those cells.  Inputs and outputs may overlap as in C98.
-/

set_option linter.unusedVariables false
set_option linter.unusedSectionVars false

namespace Cglm
open CMem

variable {α : Type} [Add α] [Sub α] [Mul α] [Div α] [Neg α] [CFloat α]

theorem C99_mul {mem : Mem α} {m1P m2P destP : Ptr} {m1 : M4 α} {m2 : M4 α} (h_m1 : Holds mem m1P m1.list) (h_m2 : Part mem m2P [3, 7, 11] m2.list) (r_dest : Room mem destP 16) :
    C.glm_mul.run mem [m1P.val, m2P.val, destP.val] =
      some (none, writes mem [(destP, (Cglm.glm_mul m1 m2).list.map .f)]) :=
  transferPart (e := Lib.glm_mul) (l := []) (u := [(1, [3, 7, 11])]) (by kernel_rfl) rfl ((((RO.nil true _).addW r_dest.has r_dest .nil).addR h_m2.has).addR h_m1.has) .nil (.p rfl (.p rfl (.p rfl .nil))) (glm_mul_run _ _) (DT.val_done _) rfl rfl rfl rfl
example (m1 : M4 α) (m2 : M4 α) : let mem : Mem α := [⟨false, m1.list.map .f⟩, ⟨false, [.f m2.c0.x, .f m2.c0.y, .f m2.c0.z, .undef, .f m2.c1.x, .f m2.c1.y, .f m2.c1.z, .undef, .f m2.c2.x, .f m2.c2.y, .f m2.c2.z, .undef, .f m2.c3.x, .f m2.c3.y, .f m2.c3.z, .f m2.c3.w]⟩, ⟨true, List.replicate 16 .undef⟩]
    Holds mem (0, 0) m1.list ∧ Part mem (1, 0) [3, 7, 11] m2.list ∧ Room mem (2, 0) 16 :=
  ⟨.within rfl rfl, .within rfl rfl rfl, .within rfl rfl⟩

theorem C99_mul_rot {mem : Mem α} {m1P m2P destP : Ptr} {m1 : M4 α} {m2 : M4 α} (h_m1 : Holds mem m1P m1.list) (h_m2 : Part mem m2P [3, 7, 11, 12, 13, 14, 15] m2.list) (r_dest : Room mem destP 16) :
    C.glm_mul_rot.run mem [m1P.val, m2P.val, destP.val] =
      some (none, writes mem [(destP, (Cglm.glm_mul_rot m1 m2).list.map .f)]) :=
  transferPart (e := Lib.glm_mul_rot) (l := []) (u := [(1, [3, 7, 11, 12, 13, 14, 15])]) (by kernel_rfl) rfl ((((RO.nil true _).addW r_dest.has r_dest .nil).addR h_m2.has).addR h_m1.has) .nil (.p rfl (.p rfl (.p rfl .nil))) (glm_mul_rot_run _ _) (DT.val_done _) rfl rfl rfl rfl
example (m1 : M4 α) (m2 : M4 α) : let mem : Mem α := [⟨false, m1.list.map .f⟩, ⟨false, [.f m2.c0.x, .f m2.c0.y, .f m2.c0.z, .undef, .f m2.c1.x, .f m2.c1.y, .f m2.c1.z, .undef, .f m2.c2.x, .f m2.c2.y, .f m2.c2.z, .undef, .undef, .undef, .undef, .undef]⟩, ⟨true, List.replicate 16 .undef⟩]
    Holds mem (0, 0) m1.list ∧ Part mem (1, 0) [3, 7, 11, 12, 13, 14, 15] m2.list ∧ Room mem (2, 0) 16 :=
  ⟨.within rfl rfl, .within rfl rfl rfl, .within rfl rfl⟩

theorem C99_decompose_scalev {mem : Mem α} {mP sP : Ptr} {m : M4 α} (h_m : Part mem mP [3, 7, 11, 12, 13, 14, 15] m.list) (r_s : Room mem sP 3) (c_m_s : Over mP 16 sP 3) :
    C.glm_decompose_scalev.run mem [mP.val, sP.val] =
      some (none, writes mem [(sP, (Cglm.glm_decompose_scalev m).list.map .f)]) :=
  transferPart (e := Lib.glm_decompose_scalev) (l := [(1, 0, [(0, [1, 2, 3, 4, 5, 6, 7, 8, 9, 10, 11, 12, 13, 14, 15]), (1, [2, 3, 4, 5, 6, 7, 8, 9, 10, 11, 12, 13, 14, 15]), (2, [3, 4, 5, 6, 7, 8, 9, 10, 11, 12, 13, 14, 15])])]) (u := [(0, [3, 7, 11, 12, 13, 14, 15])]) (by kernel_rfl) rfl (((RO.nil true _).addW r_s.has r_s .nil).addR h_m.has) (.cons rfl rfl (c_m_s.clear rfl) .nil) (.p rfl (.p rfl .nil)) (glm_decompose_scalev_run _) (DT.val_done _) rfl rfl rfl rfl
example (m : M4 α) : let mem : Mem α := [⟨false, [.f m.c0.x, .f m.c0.y, .f m.c0.z, .undef, .f m.c1.x, .f m.c1.y, .f m.c1.z, .undef, .f m.c2.x, .f m.c2.y, .f m.c2.z, .undef, .undef, .undef, .undef, .undef]⟩, ⟨true, List.replicate 3 .undef⟩]
    Part mem (0, 0) [3, 7, 11, 12, 13, 14, 15] m.list ∧ Room mem (1, 0) 3 ∧ Over (0, 0) 16 (1, 0) 3 :=
  ⟨.within rfl rfl rfl, .within rfl rfl, .inl (by decide)⟩

theorem C99_uniscaled {mem : Mem α} {mP : Ptr} {m : M4 α} (h_m : Part mem mP [3, 7, 11, 12, 13, 14, 15] m.list) :
    C.glm_uniscaled.run mem [mP.val] =
      some (some (.b (Cglm.glm_uniscaled m)), mem) :=
  transferPart0 (e := Lib.glm_uniscaled) (u := [(0, [3, 7, 11, 12, 13, 14, 15])]) (by kernel_rfl) rfl ((RO.nil true _).addR h_m.has) (.p rfl .nil) (glm_uniscaled_run _) (DT.val_done _) rfl rfl rfl rfl
example (m : M4 α) : let mem : Mem α := [⟨false, [.f m.c0.x, .f m.c0.y, .f m.c0.z, .undef, .f m.c1.x, .f m.c1.y, .f m.c1.z, .undef, .f m.c2.x, .f m.c2.y, .f m.c2.z, .undef, .undef, .undef, .undef, .undef]⟩]
    Part mem (0, 0) [3, 7, 11, 12, 13, 14, 15] m.list :=
  Part.within rfl rfl rfl

theorem C99_decompose_rs {mem : Mem α} {mP rP sP : Ptr} {m : M4 α} (h_m : Part mem mP [12, 13, 14, 15] m.list) (r_r : Room mem rP 16) (r_s : Room mem sP 3) (s_r_s : Apart rP 16 sP 3) (c_m_r : Clear rP mP [(0, [0, 1, 2, 3, 4, 5, 6, 7, 8, 9, 10, 11]), (1, [0, 1, 2, 3, 4, 5, 6, 7, 8, 9, 10, 11]), (2, [0, 1, 2, 3, 4, 5, 6, 7, 8, 9, 10, 11]), (3, [0, 1, 2, 4, 5, 6, 7, 8, 9, 10, 11]), (4, [0, 1, 2, 4, 5, 6, 7, 8, 9, 10, 11]), (5, [0, 1, 2, 4, 5, 6, 7, 8, 9, 10, 11]), (6, [0, 1, 2, 4, 5, 6, 7, 8, 9, 10, 11]), (7, [0, 1, 2, 4, 5, 6, 8, 9, 10, 11]), (8, [0, 1, 2, 4, 5, 6, 8, 9, 10, 11]), (9, [0, 1, 2, 4, 5, 6, 8, 9, 10, 11]), (10, [0, 1, 2, 4, 5, 6, 8, 9, 10, 11]), (11, [0, 1, 2, 4, 5, 6, 8, 9, 10]), (12, [0, 1, 2, 4, 5, 6, 8, 9, 10]), (13, [0, 1, 2, 4, 5, 6, 8, 9, 10]), (14, [0, 1, 2, 4, 5, 6, 8, 9, 10]), (15, [0, 1, 2, 4, 5, 6, 8, 9, 10])]) (c_m_s : Clear sP mP [(0, [0, 1, 2, 4, 5, 6, 8, 9, 10]), (1, [0, 1, 2, 4, 5, 6, 8, 9, 10]), (2, [0, 1, 2, 4, 5, 6, 8, 9, 10])]) :
    C.glm_decompose_rs.run mem [mP.val, rP.val, sP.val] =
      some (none, writes mem [(rP, (Cglm.glm_decompose_rs m).1.list.map .f), (sP, (Cglm.glm_decompose_rs m).2.list.map .f)]) :=
  transferPart (e := Lib.glm_decompose_rs) (l := [(1, 0, [(0, [0, 1, 2, 3, 4, 5, 6, 7, 8, 9, 10, 11]), (1, [0, 1, 2, 3, 4, 5, 6, 7, 8, 9, 10, 11]), (2, [0, 1, 2, 3, 4, 5, 6, 7, 8, 9, 10, 11]), (3, [0, 1, 2, 4, 5, 6, 7, 8, 9, 10, 11]), (4, [0, 1, 2, 4, 5, 6, 7, 8, 9, 10, 11]), (5, [0, 1, 2, 4, 5, 6, 7, 8, 9, 10, 11]), (6, [0, 1, 2, 4, 5, 6, 7, 8, 9, 10, 11]), (7, [0, 1, 2, 4, 5, 6, 8, 9, 10, 11]), (8, [0, 1, 2, 4, 5, 6, 8, 9, 10, 11]), (9, [0, 1, 2, 4, 5, 6, 8, 9, 10, 11]), (10, [0, 1, 2, 4, 5, 6, 8, 9, 10, 11]), (11, [0, 1, 2, 4, 5, 6, 8, 9, 10]), (12, [0, 1, 2, 4, 5, 6, 8, 9, 10]), (13, [0, 1, 2, 4, 5, 6, 8, 9, 10]), (14, [0, 1, 2, 4, 5, 6, 8, 9, 10]), (15, [0, 1, 2, 4, 5, 6, 8, 9, 10])]), (2, 0, [(0, [0, 1, 2, 4, 5, 6, 8, 9, 10]), (1, [0, 1, 2, 4, 5, 6, 8, 9, 10]), (2, [0, 1, 2, 4, 5, 6, 8, 9, 10])])]) (u := [(0, [12, 13, 14, 15])]) (by kernel_rfl) rfl ((((RO.nil true _).addW r_s.has r_s .nil).addW r_r.has r_r (.cons s_r_s .nil)).addR h_m.has) (.cons rfl rfl c_m_r (.cons rfl rfl c_m_s .nil)) (.p rfl (.p rfl (.p rfl .nil))) (glm_decompose_rs_run _) (DT.val_map_eq (glm_decompose_rs_dt_val _) rfl) rfl rfl rfl rfl
example (m : M4 α) : let mem : Mem α := [⟨false, [.f m.c0.x, .f m.c0.y, .f m.c0.z, .f m.c0.w, .f m.c1.x, .f m.c1.y, .f m.c1.z, .f m.c1.w, .f m.c2.x, .f m.c2.y, .f m.c2.z, .f m.c2.w, .undef, .undef, .undef, .undef]⟩, ⟨true, List.replicate 16 .undef⟩, ⟨true, List.replicate 3 .undef⟩]
    Part mem (0, 0) [12, 13, 14, 15] m.list ∧ Room mem (1, 0) 16 ∧ Room mem (2, 0) 3 ∧ Apart (1, 0) 16 (2, 0) 3 ∧ Clear (1, 0) (0, 0) [(0, [0, 1, 2, 3, 4, 5, 6, 7, 8, 9, 10, 11]), (1, [0, 1, 2, 3, 4, 5, 6, 7, 8, 9, 10, 11]), (2, [0, 1, 2, 3, 4, 5, 6, 7, 8, 9, 10, 11]), (3, [0, 1, 2, 4, 5, 6, 7, 8, 9, 10, 11]), (4, [0, 1, 2, 4, 5, 6, 7, 8, 9, 10, 11]), (5, [0, 1, 2, 4, 5, 6, 7, 8, 9, 10, 11]), (6, [0, 1, 2, 4, 5, 6, 7, 8, 9, 10, 11]), (7, [0, 1, 2, 4, 5, 6, 8, 9, 10, 11]), (8, [0, 1, 2, 4, 5, 6, 8, 9, 10, 11]), (9, [0, 1, 2, 4, 5, 6, 8, 9, 10, 11]), (10, [0, 1, 2, 4, 5, 6, 8, 9, 10, 11]), (11, [0, 1, 2, 4, 5, 6, 8, 9, 10]), (12, [0, 1, 2, 4, 5, 6, 8, 9, 10]), (13, [0, 1, 2, 4, 5, 6, 8, 9, 10]), (14, [0, 1, 2, 4, 5, 6, 8, 9, 10]), (15, [0, 1, 2, 4, 5, 6, 8, 9, 10])] ∧ Clear (2, 0) (0, 0) [(0, [0, 1, 2, 4, 5, 6, 8, 9, 10]), (1, [0, 1, 2, 4, 5, 6, 8, 9, 10]), (2, [0, 1, 2, 4, 5, 6, 8, 9, 10])] :=
  ⟨.within rfl rfl rfl, .within rfl rfl, .within rfl rfl, Or.inl (by decide), .other rfl, .other rfl⟩

theorem C99_rotated_x {mem : Mem α} {mP destP : Ptr} {m : M4 α} (angle : α) (h_m : Part mem mP [3, 7, 11, 12, 13, 14, 15] m.list) (r_dest : Room mem destP 16) :
    C.glm_rotated_x.run mem [mP.val, .f angle, destP.val] =
      some (none, writes mem [(destP, (Cglm.glm_rotated_x m angle).list.map .f)]) :=
  transferPart (e := Lib.glm_rotated_x) (l := []) (u := [(0, [3, 7, 11, 12, 13, 14, 15])]) (by kernel_rfl) rfl (((RO.nil true _).addW r_dest.has r_dest .nil).addR h_m.has) .nil (.p rfl (.f (.p rfl .nil))) (glm_rotated_x_run _ _) (DT.val_done _) rfl rfl rfl rfl
example (m : M4 α) : let mem : Mem α := [⟨false, [.f m.c0.x, .f m.c0.y, .f m.c0.z, .undef, .f m.c1.x, .f m.c1.y, .f m.c1.z, .undef, .f m.c2.x, .f m.c2.y, .f m.c2.z, .undef, .undef, .undef, .undef, .undef]⟩, ⟨true, List.replicate 16 .undef⟩]
    Part mem (0, 0) [3, 7, 11, 12, 13, 14, 15] m.list ∧ Room mem (1, 0) 16 :=
  ⟨.within rfl rfl rfl, .within rfl rfl⟩

theorem C99_rotated_y {mem : Mem α} {mP destP : Ptr} {m : M4 α} (angle : α) (h_m : Part mem mP [3, 7, 11, 12, 13, 14, 15] m.list) (r_dest : Room mem destP 16) :
    C.glm_rotated_y.run mem [mP.val, .f angle, destP.val] =
      some (none, writes mem [(destP, (Cglm.glm_rotated_y m angle).list.map .f)]) :=
  transferPart (e := Lib.glm_rotated_y) (l := []) (u := [(0, [3, 7, 11, 12, 13, 14, 15])]) (by kernel_rfl) rfl (((RO.nil true _).addW r_dest.has r_dest .nil).addR h_m.has) .nil (.p rfl (.f (.p rfl .nil))) (glm_rotated_y_run _ _) (DT.val_done _) rfl rfl rfl rfl
example (m : M4 α) : let mem : Mem α := [⟨false, [.f m.c0.x, .f m.c0.y, .f m.c0.z, .undef, .f m.c1.x, .f m.c1.y, .f m.c1.z, .undef, .f m.c2.x, .f m.c2.y, .f m.c2.z, .undef, .undef, .undef, .undef, .undef]⟩, ⟨true, List.replicate 16 .undef⟩]
    Part mem (0, 0) [3, 7, 11, 12, 13, 14, 15] m.list ∧ Room mem (1, 0) 16 :=
  ⟨.within rfl rfl rfl, .within rfl rfl⟩

theorem C99_rotated_z {mem : Mem α} {mP destP : Ptr} {m : M4 α} (angle : α) (h_m : Part mem mP [3, 7, 11, 12, 13, 14, 15] m.list) (r_dest : Room mem destP 16) :
    C.glm_rotated_z.run mem [mP.val, .f angle, destP.val] =
      some (none, writes mem [(destP, (Cglm.glm_rotated_z m angle).list.map .f)]) :=
  transferPart (e := Lib.glm_rotated_z) (l := []) (u := [(0, [3, 7, 11, 12, 13, 14, 15])]) (by kernel_rfl) rfl (((RO.nil true _).addW r_dest.has r_dest .nil).addR h_m.has) .nil (.p rfl (.f (.p rfl .nil))) (glm_rotated_z_run _ _) (DT.val_done _) rfl rfl rfl rfl
example (m : M4 α) : let mem : Mem α := [⟨false, [.f m.c0.x, .f m.c0.y, .f m.c0.z, .undef, .f m.c1.x, .f m.c1.y, .f m.c1.z, .undef, .f m.c2.x, .f m.c2.y, .f m.c2.z, .undef, .undef, .undef, .undef, .undef]⟩, ⟨true, List.replicate 16 .undef⟩]
    Part mem (0, 0) [3, 7, 11, 12, 13, 14, 15] m.list ∧ Room mem (1, 0) 16 :=
  ⟨.within rfl rfl rfl, .within rfl rfl⟩

theorem C99_rotated {mem : Mem α} {mP axisP : Ptr} {m : M4 α} (angle : α) {axis : V3 α} (h_m : Part mem mP [3, 7, 11, 12, 13, 14, 15] m.list) (r_m : Room mem mP 16) (h_axis : Holds mem axisP axis.list) :
    C.glm_rotated.run mem [mP.val, .f angle, axisP.val] =
      some (none, writes mem [(mP, (Cglm.glm_rotated m angle axis).list.map .f)]) :=
  transferPart (e := Lib.glm_rotated) (l := []) (u := [(0, [3, 7, 11, 12, 13, 14, 15])]) (by kernel_rfl) rfl (((RO.nil true _).addR h_axis.has).addW h_m.has r_m (.skip .nil)) .nil (.p rfl (.f (.p rfl .nil))) (glm_rotated_run _ _ _) (DT.val_map_eq (glm_rotated_dt_val _ _ _) rfl) rfl rfl rfl rfl
example (m : M4 α) (axis : V3 α) : let mem : Mem α := [⟨true, [.f m.c0.x, .f m.c0.y, .f m.c0.z, .undef, .f m.c1.x, .f m.c1.y, .f m.c1.z, .undef, .f m.c2.x, .f m.c2.y, .f m.c2.z, .undef, .undef, .undef, .undef, .undef]⟩, ⟨false, axis.list.map .f⟩]
    Room mem (0, 0) 16 ∧ Part mem (0, 0) [3, 7, 11, 12, 13, 14, 15] m.list ∧ Holds mem (1, 0) axis.list :=
  ⟨.within rfl rfl, .within rfl rfl rfl, .within rfl rfl⟩

theorem C99_rotated_at {mem : Mem α} {mP pivotP axisP : Ptr} {m : M4 α} {pivot : V3 α} (angle : α) {axis : V3 α} (h_m : Part mem mP [3, 7, 11, 15] m.list) (r_m : Room mem mP 16) (h_pivot : Holds mem pivotP pivot.list) (h_axis : Holds mem axisP axis.list) (c_pivot_m : Clear mP pivotP [(12, [1, 2]), (13, [2])]) (c_axis_m : Clear mP axisP [(12, [0, 1, 2]), (13, [0, 1, 2]), (14, [0, 1, 2])]) :
    C.glm_rotated_at.run mem [mP.val, pivotP.val, .f angle, axisP.val] =
      some (none, writes mem [(mP, (Cglm.glm_rotated_at m pivot angle axis).list.map .f)]) :=
  transferPart (e := Lib.glm_rotated_at) (l := [(0, 1, [(12, [1, 2]), (13, [2])]), (0, 2, [(12, [0, 1, 2]), (13, [0, 1, 2]), (14, [0, 1, 2])])]) (u := [(0, [3, 7, 11, 15])]) (by kernel_rfl) rfl ((((RO.nil true _).addR h_axis.has).addR h_pivot.has).addW h_m.has r_m (.skip (.skip .nil))) (.cons rfl rfl c_pivot_m (.cons rfl rfl c_axis_m .nil)) (.p rfl (.p rfl (.f (.p rfl .nil)))) (glm_rotated_at_run _ _ _ _) (DT.val_map_eq (glm_rotated_at_dt_val _ _ _ _) rfl) rfl rfl rfl rfl
example (m : M4 α) (pivot : V3 α) (axis : V3 α) : let mem : Mem α := [⟨true, [.f m.c0.x, .f m.c0.y, .f m.c0.z, .undef, .f m.c1.x, .f m.c1.y, .f m.c1.z, .undef, .f m.c2.x, .f m.c2.y, .f m.c2.z, .undef, .f m.c3.x, .f m.c3.y, .f m.c3.z, .undef]⟩, ⟨false, pivot.list.map .f⟩, ⟨false, axis.list.map .f⟩]
    Room mem (0, 0) 16 ∧ Part mem (0, 0) [3, 7, 11, 15] m.list ∧ Holds mem (1, 0) pivot.list ∧ Holds mem (2, 0) axis.list ∧ Clear (0, 0) (1, 0) [(12, [1, 2]), (13, [2])] ∧ Clear (0, 0) (2, 0) [(12, [0, 1, 2]), (13, [0, 1, 2]), (14, [0, 1, 2])] :=
  ⟨.within rfl rfl, .within rfl rfl rfl, .within rfl rfl, .within rfl rfl, .other rfl, .other rfl⟩

end Cglm
