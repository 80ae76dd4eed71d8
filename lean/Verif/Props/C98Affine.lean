/- Generated by tools/overthms.py; do not edit by hand. -/
import Verif.CMemOver
import Verif.Lib.Affine
import Verif.Mem.AffinesRun

/-!
# C98: outputs that overlap inputs

Inputs and outputs may overlap in any way, or, for functions that work component by component, in any way except that an
output begins inside an input (`Over`).  Outputs do not overlap each other.  The result is the value-level function of
what the inputs held before the call, and nothing outside the outputs changes.
-/

set_option linter.unusedVariables false
set_option linter.unusedSectionVars false

namespace Cglm
open CMem

variable {α : Type} [Add α] [Sub α] [Mul α] [Div α] [Neg α] [CFloat α]

theorem C98_mul {mem : Mem α} {m1P m2P destP : Ptr} {m1 : M4 α} {m2 : M4 α} (h_m1 : Holds mem m1P m1.list) (h_m2 : Holds mem m2P m2.list) (r_dest : Room mem destP 16) :
    C.glm_mul.run mem [m1P.val, m2P.val, destP.val] =
      some (none, writes mem [(destP, (Cglm.glm_mul m1 m2).list.map .f)]) :=
  transferO (e := Lib.glm_mul) (up := true) (by kernel_rfl) ((((RO.nil true _).addW r_dest.has r_dest .nil).addR h_m2.has).addR h_m1.has) (.p rfl (.p rfl (.p rfl .nil))) (glm_mul_run _ _) (DT.val_done _) rfl rfl rfl
example (m1 : M4 α) (m2 : M4 α) : let mem : Mem α := [⟨true, m1.list.map .f ++ List.replicate 16 .undef⟩, ⟨false, m2.list.map .f⟩]
    Holds mem (0, 0) m1.list ∧ Holds mem (1, 0) m2.list ∧ Room mem (0, 1) 16 :=
  ⟨.within rfl rfl, .within rfl rfl, .within rfl rfl⟩

theorem C98_mul_rot {mem : Mem α} {m1P m2P destP : Ptr} {m1 : M4 α} {m2 : M4 α} (h_m1 : Holds mem m1P m1.list) (h_m2 : Holds mem m2P m2.list) (r_dest : Room mem destP 16) :
    C.glm_mul_rot.run mem [m1P.val, m2P.val, destP.val] =
      some (none, writes mem [(destP, (Cglm.glm_mul_rot m1 m2).list.map .f)]) :=
  transferO (e := Lib.glm_mul_rot) (up := true) (by kernel_rfl) ((((RO.nil true _).addW r_dest.has r_dest .nil).addR h_m2.has).addR h_m1.has) (.p rfl (.p rfl (.p rfl .nil))) (glm_mul_rot_run _ _) (DT.val_done _) rfl rfl rfl
example (m1 : M4 α) (m2 : M4 α) : let mem : Mem α := [⟨true, m1.list.map .f ++ List.replicate 16 .undef⟩, ⟨false, m2.list.map .f⟩]
    Holds mem (0, 0) m1.list ∧ Holds mem (1, 0) m2.list ∧ Room mem (0, 1) 16 :=
  ⟨.within rfl rfl, .within rfl rfl, .within rfl rfl⟩

theorem C98_rotate_make {mem : Mem α} {mP axisP : Ptr} (angle : α) {axis : V3 α} (r_m : Room mem mP 16) (h_axis : Holds mem axisP axis.list) :
    C.glm_rotate_make.run mem [mP.val, .f angle, axisP.val] =
      some (none, writes mem [(mP, (Cglm.glm_rotate_make angle axis).list.map .f)]) :=
  transferO (e := Lib.glm_rotate_make) (up := true) (by kernel_rfl) (((RO.nil true _).addR h_axis.has).addW r_m.has r_m (.skip .nil)) (.p rfl (.f (.p rfl .nil))) (glm_rotate_make_run _ _) (DT.val_map_eq (glm_rotate_make_dt_val _ _) rfl) rfl rfl rfl
example (axis : V3 α) : let mem : Mem α := [⟨true, axis.list.map .f ++ List.replicate 16 .undef⟩]
    Room mem (0, 1) 16 ∧ Holds mem (0, 0) axis.list :=
  ⟨.within rfl rfl, .within rfl rfl⟩

theorem C98_decompose_scalev {mem : Mem α} {mP sP : Ptr} {m : M4 α} (h_m : Holds mem mP m.list) (r_s : Room mem sP 3) (o_m_s : Over mP 16 sP 3) :
    C.glm_decompose_scalev.run mem [mP.val, sP.val] =
      some (none, writes mem [(sP, (Cglm.glm_decompose_scalev m).list.map .f)]) :=
  transferO (e := Lib.glm_decompose_scalev) (up := false) (by kernel_rfl) (((RO.nil false _).addP r_s.has r_s .nil .nil).addO h_m.has (.cons o_m_s .nil)) (.p rfl (.p rfl .nil)) (glm_decompose_scalev_run _) (DT.val_done _) rfl rfl rfl
example (m : M4 α) : let mem : Mem α := [⟨true, .undef :: m.list.map .f⟩]
    Holds mem (0, 1) m.list ∧ Room mem (0, 0) 3 ∧ Over (0, 1) 16 (0, 0) 3 :=
  ⟨.within rfl rfl, .within rfl rfl, Or.inl (by decide)⟩

theorem C98_rotate_x {mem : Mem α} {mP destP : Ptr} {m : M4 α} (angle : α) (h_m : Holds mem mP m.list) (r_dest : Room mem destP 16) :
    C.glm_rotate_x.run mem [mP.val, .f angle, destP.val] =
      some (none, writes mem [(destP, (Cglm.glm_rotate_x m angle).list.map .f)]) :=
  transferO (e := Lib.glm_rotate_x) (up := true) (by kernel_rfl) (((RO.nil true _).addW r_dest.has r_dest .nil).addR h_m.has) (.p rfl (.f (.p rfl .nil))) (glm_rotate_x_run _ _) (DT.val_done _) rfl rfl rfl
example (m : M4 α) : let mem : Mem α := [⟨true, m.list.map .f ++ List.replicate 16 .undef⟩]
    Holds mem (0, 0) m.list ∧ Room mem (0, 1) 16 :=
  ⟨.within rfl rfl, .within rfl rfl⟩

theorem C98_rotate_y {mem : Mem α} {mP destP : Ptr} {m : M4 α} (angle : α) (h_m : Holds mem mP m.list) (r_dest : Room mem destP 16) :
    C.glm_rotate_y.run mem [mP.val, .f angle, destP.val] =
      some (none, writes mem [(destP, (Cglm.glm_rotate_y m angle).list.map .f)]) :=
  transferO (e := Lib.glm_rotate_y) (up := true) (by kernel_rfl) (((RO.nil true _).addW r_dest.has r_dest .nil).addR h_m.has) (.p rfl (.f (.p rfl .nil))) (glm_rotate_y_run _ _) (DT.val_done _) rfl rfl rfl
example (m : M4 α) : let mem : Mem α := [⟨true, m.list.map .f ++ List.replicate 16 .undef⟩]
    Holds mem (0, 0) m.list ∧ Room mem (0, 1) 16 :=
  ⟨.within rfl rfl, .within rfl rfl⟩

theorem C98_rotate_z {mem : Mem α} {mP destP : Ptr} {m : M4 α} (angle : α) (h_m : Holds mem mP m.list) (r_dest : Room mem destP 16) :
    C.glm_rotate_z.run mem [mP.val, .f angle, destP.val] =
      some (none, writes mem [(destP, (Cglm.glm_rotate_z m angle).list.map .f)]) :=
  transferO (e := Lib.glm_rotate_z) (up := true) (by kernel_rfl) (((RO.nil true _).addW r_dest.has r_dest .nil).addR h_m.has) (.p rfl (.f (.p rfl .nil))) (glm_rotate_z_run _ _) (DT.val_done _) rfl rfl rfl
example (m : M4 α) : let mem : Mem α := [⟨true, m.list.map .f ++ List.replicate 16 .undef⟩]
    Holds mem (0, 0) m.list ∧ Room mem (0, 1) 16 :=
  ⟨.within rfl rfl, .within rfl rfl⟩

theorem C98_rotate {mem : Mem α} {mP axisP : Ptr} {m : M4 α} (angle : α) {axis : V3 α} (h_m : Holds mem mP m.list) (r_m : Room mem mP 16) (h_axis : Holds mem axisP axis.list) :
    C.glm_rotate.run mem [mP.val, .f angle, axisP.val] =
      some (none, writes mem [(mP, (Cglm.glm_rotate m angle axis).list.map .f)]) :=
  transferO (e := Lib.glm_rotate) (up := true) (by kernel_rfl) (((RO.nil true _).addR h_axis.has).addW h_m.has r_m (.skip .nil)) (.p rfl (.f (.p rfl .nil))) (glm_rotate_run _ _ _) (DT.val_map_eq (glm_rotate_dt_val _ _ _) rfl) rfl rfl rfl
example (m : M4 α) : let mem : Mem α := [⟨true, m.list.map .f⟩]
    Room mem (0, 0) 16 ∧ Holds mem (0, 0) m.list ∧ Holds mem (0, 1) (⟨m.c0.y, m.c0.z, m.c0.w⟩ : V3 α).list :=
  ⟨.within rfl rfl, .within rfl rfl, .within rfl rfl⟩

theorem C98_spin {mem : Mem α} {mP axisP : Ptr} {m : M4 α} (angle : α) {axis : V3 α} (h_m : Holds mem mP m.list) (r_m : Room mem mP 16) (h_axis : Holds mem axisP axis.list) :
    C.glm_spin.run mem [mP.val, .f angle, axisP.val] =
      some (none, writes mem [(mP, (Cglm.glm_spin m angle axis).list.map .f)]) :=
  transferO (e := Lib.glm_spin) (up := true) (by kernel_rfl) (((RO.nil true _).addR h_axis.has).addW h_m.has r_m (.skip .nil)) (.p rfl (.f (.p rfl .nil))) (glm_spin_run _ _ _) (DT.val_map_eq (glm_spin_dt_val _ _ _) rfl) rfl rfl rfl
example (m : M4 α) : let mem : Mem α := [⟨true, m.list.map .f⟩]
    Room mem (0, 0) 16 ∧ Holds mem (0, 0) m.list ∧ Holds mem (0, 1) (⟨m.c0.y, m.c0.z, m.c0.w⟩ : V3 α).list :=
  ⟨.within rfl rfl, .within rfl rfl, .within rfl rfl⟩

theorem C98_rotated_x {mem : Mem α} {mP destP : Ptr} {m : M4 α} (angle : α) (h_m : Holds mem mP m.list) (r_dest : Room mem destP 16) :
    C.glm_rotated_x.run mem [mP.val, .f angle, destP.val] =
      some (none, writes mem [(destP, (Cglm.glm_rotated_x m angle).list.map .f)]) :=
  transferO (e := Lib.glm_rotated_x) (up := true) (by kernel_rfl) (((RO.nil true _).addW r_dest.has r_dest .nil).addR h_m.has) (.p rfl (.f (.p rfl .nil))) (glm_rotated_x_run _ _) (DT.val_done _) rfl rfl rfl
example (m : M4 α) : let mem : Mem α := [⟨true, m.list.map .f ++ List.replicate 16 .undef⟩]
    Holds mem (0, 0) m.list ∧ Room mem (0, 1) 16 :=
  ⟨.within rfl rfl, .within rfl rfl⟩

theorem C98_rotated_y {mem : Mem α} {mP destP : Ptr} {m : M4 α} (angle : α) (h_m : Holds mem mP m.list) (r_dest : Room mem destP 16) :
    C.glm_rotated_y.run mem [mP.val, .f angle, destP.val] =
      some (none, writes mem [(destP, (Cglm.glm_rotated_y m angle).list.map .f)]) :=
  transferO (e := Lib.glm_rotated_y) (up := true) (by kernel_rfl) (((RO.nil true _).addW r_dest.has r_dest .nil).addR h_m.has) (.p rfl (.f (.p rfl .nil))) (glm_rotated_y_run _ _) (DT.val_done _) rfl rfl rfl
example (m : M4 α) : let mem : Mem α := [⟨true, m.list.map .f ++ List.replicate 16 .undef⟩]
    Holds mem (0, 0) m.list ∧ Room mem (0, 1) 16 :=
  ⟨.within rfl rfl, .within rfl rfl⟩

theorem C98_rotated_z {mem : Mem α} {mP destP : Ptr} {m : M4 α} (angle : α) (h_m : Holds mem mP m.list) (r_dest : Room mem destP 16) :
    C.glm_rotated_z.run mem [mP.val, .f angle, destP.val] =
      some (none, writes mem [(destP, (Cglm.glm_rotated_z m angle).list.map .f)]) :=
  transferO (e := Lib.glm_rotated_z) (up := true) (by kernel_rfl) (((RO.nil true _).addW r_dest.has r_dest .nil).addR h_m.has) (.p rfl (.f (.p rfl .nil))) (glm_rotated_z_run _ _) (DT.val_done _) rfl rfl rfl
example (m : M4 α) : let mem : Mem α := [⟨true, m.list.map .f ++ List.replicate 16 .undef⟩]
    Holds mem (0, 0) m.list ∧ Room mem (0, 1) 16 :=
  ⟨.within rfl rfl, .within rfl rfl⟩

theorem C98_rotated {mem : Mem α} {mP axisP : Ptr} {m : M4 α} (angle : α) {axis : V3 α} (h_m : Holds mem mP m.list) (r_m : Room mem mP 16) (h_axis : Holds mem axisP axis.list) :
    C.glm_rotated.run mem [mP.val, .f angle, axisP.val] =
      some (none, writes mem [(mP, (Cglm.glm_rotated m angle axis).list.map .f)]) :=
  transferO (e := Lib.glm_rotated) (up := true) (by kernel_rfl) (((RO.nil true _).addR h_axis.has).addW h_m.has r_m (.skip .nil)) (.p rfl (.f (.p rfl .nil))) (glm_rotated_run _ _ _) (DT.val_map_eq (glm_rotated_dt_val _ _ _) rfl) rfl rfl rfl
example (m : M4 α) : let mem : Mem α := [⟨true, m.list.map .f⟩]
    Room mem (0, 0) 16 ∧ Holds mem (0, 0) m.list ∧ Holds mem (0, 1) (⟨m.c0.y, m.c0.z, m.c0.w⟩ : V3 α).list :=
  ⟨.within rfl rfl, .within rfl rfl, .within rfl rfl⟩

theorem C98_spinned {mem : Mem α} {mP axisP : Ptr} {m : M4 α} (angle : α) {axis : V3 α} (h_m : Holds mem mP m.list) (r_m : Room mem mP 16) (h_axis : Holds mem axisP axis.list) :
    C.glm_spinned.run mem [mP.val, .f angle, axisP.val] =
      some (none, writes mem [(mP, (Cglm.glm_spinned m angle axis).list.map .f)]) :=
  transferO (e := Lib.glm_spinned) (up := true) (by kernel_rfl) (((RO.nil true _).addR h_axis.has).addW h_m.has r_m (.skip .nil)) (.p rfl (.f (.p rfl .nil))) (glm_spinned_run _ _ _) (DT.val_map_eq (glm_spinned_dt_val _ _ _) rfl) rfl rfl rfl
example (m : M4 α) : let mem : Mem α := [⟨true, m.list.map .f⟩]
    Room mem (0, 0) 16 ∧ Holds mem (0, 0) m.list ∧ Holds mem (0, 1) (⟨m.c0.y, m.c0.z, m.c0.w⟩ : V3 α).list :=
  ⟨.within rfl rfl, .within rfl rfl, .within rfl rfl⟩

theorem C98_rotate2d_to {mem : Mem α} {mP destP : Ptr} {m : M3 α} (angle : α) (h_m : Holds mem mP m.list) (r_dest : Room mem destP 9) (o_m_dest : Over mP 9 destP 9) :
    C.glm_rotate2d_to.run mem [mP.val, .f angle, destP.val] =
      some (none, writes mem [(destP, (Cglm.glm_rotate2d_to m angle).list.map .f)]) :=
  transferO (e := Lib.glm_rotate2d_to) (up := false) (by kernel_rfl) (((RO.nil false _).addP r_dest.has r_dest .nil .nil).addO h_m.has (.cons o_m_dest .nil)) (.p rfl (.f (.p rfl .nil))) (glm_rotate2d_to_run _ _) (DT.val_done _) rfl rfl rfl
example (m : M3 α) : let mem : Mem α := [⟨true, .undef :: m.list.map .f⟩]
    Holds mem (0, 1) m.list ∧ Room mem (0, 0) 9 ∧ Over (0, 1) 9 (0, 0) 9 :=
  ⟨.within rfl rfl, .within rfl rfl, Or.inl (by decide)⟩

end Cglm
