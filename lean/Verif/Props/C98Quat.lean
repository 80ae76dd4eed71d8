/- Generated by tools/overthms.py; do not edit by hand. -/
import Verif.CMemOver
import Verif.Lib.Quat
import Verif.Mem.QuatsRun

/-!
# C98: outputs that overlap inputs

Inputs and outputs may overlap in any way, or, for functions that work component by component, in any way except that an
output begins inside an input (`Over`).  Outputs do not overlap each other.  The result is the value-level function of
what the inputs held before the call, and nothing outside the outputs changes.
-/

set_option linter.unusedVariables false
set_option linter.unusedSectionVars false

namespace Cglm
open CMem

variable {α : Type} [Add α] [Sub α] [Mul α] [Div α] [Neg α] [CFloat α]

theorem C98_quatv {mem : Mem α} {qP axisP : Ptr} (angle : α) {axis : V3 α} (r_q : Room mem qP 4) (h_axis : Holds mem axisP axis.list) :
    C.glm_quatv.run mem [qP.val, .f angle, axisP.val] =
      some (none, writes mem [(qP, (Cglm.glm_quatv angle axis).list.map .f)]) :=
  transferO (e := Lib.glm_quatv) (up := true) (by kernel_rfl) (((RO.nil true _).addR h_axis.has).addW r_q.has r_q (.skip .nil)) (.p rfl (.f (.p rfl .nil))) (glm_quatv_run _ _) (DT.val_map_eq (glm_quatv_dt_val _ _) rfl) rfl rfl rfl
example (axis : V3 α) : let mem : Mem α := [⟨true, axis.list.map .f ++ List.replicate 4 .undef⟩]
    Room mem (0, 1) 4 ∧ Holds mem (0, 0) axis.list :=
  ⟨.within rfl rfl, .within rfl rfl⟩

theorem C98_quat_copy {mem : Mem α} {qP destP : Ptr} {q : V4 α} (h_q : Holds mem qP q.list) (r_dest : Room mem destP 4) (o_q_dest : Over qP 4 destP 4) :
    C.glm_quat_copy.run mem [qP.val, destP.val] =
      some (none, writes mem [(destP, (Cglm.glm_quat_copy q).list.map .f)]) :=
  transferO (e := Lib.glm_quat_copy) (up := false) (by kernel_rfl) (((RO.nil false _).addP r_dest.has r_dest .nil .nil).addO h_q.has (.cons o_q_dest .nil)) (.p rfl (.p rfl .nil)) (glm_quat_copy_run _) (DT.val_done _) rfl rfl rfl
example (q : V4 α) : let mem : Mem α := [⟨true, .undef :: q.list.map .f⟩]
    Holds mem (0, 1) q.list ∧ Room mem (0, 0) 4 ∧ Over (0, 1) 4 (0, 0) 4 :=
  ⟨.within rfl rfl, .within rfl rfl, Or.inl (by decide)⟩

theorem C98_quat_normalize_to {mem : Mem α} {qP destP : Ptr} {q : V4 α} (h_q : Holds mem qP q.list) (r_dest : Room mem destP 4) (o_q_dest : Over qP 4 destP 4) :
    C.glm_quat_normalize_to.run mem [qP.val, destP.val] =
      some (none, writes mem [(destP, (Cglm.glm_quat_normalize_to q).list.map .f)]) :=
  transferO (e := Lib.glm_quat_normalize_to) (up := false) (by kernel_rfl) (((RO.nil false _).addP r_dest.has r_dest .nil .nil).addO h_q.has (.cons o_q_dest .nil)) (.p rfl (.p rfl .nil)) (glm_quat_normalize_to_run _) (DT.val_map_eq (glm_quat_normalize_to_dt_val _) rfl) rfl rfl rfl
example (q : V4 α) : let mem : Mem α := [⟨true, .undef :: q.list.map .f⟩]
    Holds mem (0, 1) q.list ∧ Room mem (0, 0) 4 ∧ Over (0, 1) 4 (0, 0) 4 :=
  ⟨.within rfl rfl, .within rfl rfl, Or.inl (by decide)⟩

theorem C98_quat_conjugate {mem : Mem α} {qP destP : Ptr} {q : V4 α} (h_q : Holds mem qP q.list) (r_dest : Room mem destP 4) (o_q_dest : Over qP 4 destP 4) :
    C.glm_quat_conjugate.run mem [qP.val, destP.val] =
      some (none, writes mem [(destP, (Cglm.glm_quat_conjugate q).list.map .f)]) :=
  transferO (e := Lib.glm_quat_conjugate) (up := false) (by kernel_rfl) (((RO.nil false _).addP r_dest.has r_dest .nil .nil).addO h_q.has (.cons o_q_dest .nil)) (.p rfl (.p rfl .nil)) (glm_quat_conjugate_run _) (DT.val_done _) rfl rfl rfl
example (q : V4 α) : let mem : Mem α := [⟨true, .undef :: q.list.map .f⟩]
    Holds mem (0, 1) q.list ∧ Room mem (0, 0) 4 ∧ Over (0, 1) 4 (0, 0) 4 :=
  ⟨.within rfl rfl, .within rfl rfl, Or.inl (by decide)⟩

theorem C98_quat_inv {mem : Mem α} {qP destP : Ptr} {q : V4 α} (h_q : Holds mem qP q.list) (r_dest : Room mem destP 4) :
    C.glm_quat_inv.run mem [qP.val, destP.val] =
      some (none, writes mem [(destP, (Cglm.glm_quat_inv q).list.map .f)]) :=
  transferO (e := Lib.glm_quat_inv) (up := true) (by kernel_rfl) (((RO.nil true _).addW r_dest.has r_dest .nil).addR h_q.has) (.p rfl (.p rfl .nil)) (glm_quat_inv_run _) (DT.val_done _) rfl rfl rfl
example (q : V4 α) : let mem : Mem α := [⟨true, q.list.map .f ++ List.replicate 4 .undef⟩]
    Holds mem (0, 0) q.list ∧ Room mem (0, 1) 4 :=
  ⟨.within rfl rfl, .within rfl rfl⟩

theorem C98_quat_add {mem : Mem α} {pP qP destP : Ptr} {p : V4 α} {q : V4 α} (h_p : Holds mem pP p.list) (h_q : Holds mem qP q.list) (r_dest : Room mem destP 4) (o_p_dest : Over pP 4 destP 4) (o_q_dest : Over qP 4 destP 4) :
    C.glm_quat_add.run mem [pP.val, qP.val, destP.val] =
      some (none, writes mem [(destP, (Cglm.glm_quat_add p q).list.map .f)]) :=
  transferO (e := Lib.glm_quat_add) (up := false) (by kernel_rfl) ((((RO.nil false _).addP r_dest.has r_dest .nil .nil).addO h_q.has (.cons o_q_dest .nil)).addO h_p.has (.skip (.cons o_p_dest .nil))) (.p rfl (.p rfl (.p rfl .nil))) (glm_quat_add_run _ _) (DT.val_done _) rfl rfl rfl
example (p : V4 α) (q : V4 α) : let mem : Mem α := [⟨true, .undef :: p.list.map .f⟩, ⟨false, q.list.map .f⟩]
    Holds mem (0, 1) p.list ∧ Holds mem (1, 0) q.list ∧ Room mem (0, 0) 4 ∧ Over (0, 1) 4 (0, 0) 4 ∧ Over (1, 0) 4 (0, 0) 4 :=
  ⟨.within rfl rfl, .within rfl rfl, .within rfl rfl, Or.inl (by decide), Or.inl (by decide)⟩

theorem C98_quat_sub {mem : Mem α} {pP qP destP : Ptr} {p : V4 α} {q : V4 α} (h_p : Holds mem pP p.list) (h_q : Holds mem qP q.list) (r_dest : Room mem destP 4) (o_p_dest : Over pP 4 destP 4) (o_q_dest : Over qP 4 destP 4) :
    C.glm_quat_sub.run mem [pP.val, qP.val, destP.val] =
      some (none, writes mem [(destP, (Cglm.glm_quat_sub p q).list.map .f)]) :=
  transferO (e := Lib.glm_quat_sub) (up := false) (by kernel_rfl) ((((RO.nil false _).addP r_dest.has r_dest .nil .nil).addO h_q.has (.cons o_q_dest .nil)).addO h_p.has (.skip (.cons o_p_dest .nil))) (.p rfl (.p rfl (.p rfl .nil))) (glm_quat_sub_run _ _) (DT.val_done _) rfl rfl rfl
example (p : V4 α) (q : V4 α) : let mem : Mem α := [⟨true, .undef :: p.list.map .f⟩, ⟨false, q.list.map .f⟩]
    Holds mem (0, 1) p.list ∧ Holds mem (1, 0) q.list ∧ Room mem (0, 0) 4 ∧ Over (0, 1) 4 (0, 0) 4 ∧ Over (1, 0) 4 (0, 0) 4 :=
  ⟨.within rfl rfl, .within rfl rfl, .within rfl rfl, Or.inl (by decide), Or.inl (by decide)⟩

theorem C98_quat_imag {mem : Mem α} {qP destP : Ptr} {q : V4 α} (h_q : Holds mem qP q.list) (r_dest : Room mem destP 3) (o_q_dest : Over qP 4 destP 3) :
    C.glm_quat_imag.run mem [qP.val, destP.val] =
      some (none, writes mem [(destP, (Cglm.glm_quat_imag q).list.map .f)]) :=
  transferO (e := Lib.glm_quat_imag) (up := false) (by kernel_rfl) (((RO.nil false _).addP r_dest.has r_dest .nil .nil).addO h_q.has (.cons o_q_dest .nil)) (.p rfl (.p rfl .nil)) (glm_quat_imag_run _) (DT.val_done _) rfl rfl rfl
example (q : V4 α) : let mem : Mem α := [⟨true, .undef :: q.list.map .f⟩]
    Holds mem (0, 1) q.list ∧ Room mem (0, 0) 3 ∧ Over (0, 1) 4 (0, 0) 3 :=
  ⟨.within rfl rfl, .within rfl rfl, Or.inl (by decide)⟩

theorem C98_quat_imagn {mem : Mem α} {qP destP : Ptr} {q : V4 α} (h_q : Holds mem qP q.list) (r_dest : Room mem destP 3) (o_q_dest : Over qP 4 destP 3) :
    C.glm_quat_imagn.run mem [qP.val, destP.val] =
      some (none, writes mem [(destP, (Cglm.glm_quat_imagn q).list.map .f)]) :=
  transferO (e := Lib.glm_quat_imagn) (up := false) (by kernel_rfl) (((RO.nil false _).addP r_dest.has r_dest .nil .nil).addO h_q.has (.cons o_q_dest .nil)) (.p rfl (.p rfl .nil)) (glm_quat_imagn_run _) (DT.val_map_eq (glm_quat_imagn_dt_val _) rfl) rfl rfl rfl
example (q : V4 α) : let mem : Mem α := [⟨true, .undef :: q.list.map .f⟩]
    Holds mem (0, 1) q.list ∧ Room mem (0, 0) 3 ∧ Over (0, 1) 4 (0, 0) 3 :=
  ⟨.within rfl rfl, .within rfl rfl, Or.inl (by decide)⟩

theorem C98_quat_axis {mem : Mem α} {qP destP : Ptr} {q : V4 α} (h_q : Holds mem qP q.list) (r_dest : Room mem destP 3) (o_q_dest : Over qP 4 destP 3) :
    C.glm_quat_axis.run mem [qP.val, destP.val] =
      some (none, writes mem [(destP, (Cglm.glm_quat_axis q).list.map .f)]) :=
  transferO (e := Lib.glm_quat_axis) (up := false) (by kernel_rfl) (((RO.nil false _).addP r_dest.has r_dest .nil .nil).addO h_q.has (.cons o_q_dest .nil)) (.p rfl (.p rfl .nil)) (glm_quat_axis_run _) (DT.val_map_eq (glm_quat_axis_dt_val _) rfl) rfl rfl rfl
example (q : V4 α) : let mem : Mem α := [⟨true, .undef :: q.list.map .f⟩]
    Holds mem (0, 1) q.list ∧ Room mem (0, 0) 3 ∧ Over (0, 1) 4 (0, 0) 3 :=
  ⟨.within rfl rfl, .within rfl rfl, Or.inl (by decide)⟩

theorem C98_quat_mat4 {mem : Mem α} {qP destP : Ptr} {q : V4 α} (h_q : Holds mem qP q.list) (r_dest : Room mem destP 16) :
    C.glm_quat_mat4.run mem [qP.val, destP.val] =
      some (none, writes mem [(destP, (Cglm.glm_quat_mat4 q).list.map .f)]) :=
  transferO (e := Lib.glm_quat_mat4) (up := true) (by kernel_rfl) (((RO.nil true _).addW r_dest.has r_dest .nil).addR h_q.has) (.p rfl (.p rfl .nil)) (glm_quat_mat4_run _) (DT.val_done _) rfl rfl rfl
example (q : V4 α) : let mem : Mem α := [⟨true, q.list.map .f ++ List.replicate 16 .undef⟩]
    Holds mem (0, 0) q.list ∧ Room mem (0, 1) 16 :=
  ⟨.within rfl rfl, .within rfl rfl⟩

theorem C98_quat_mat4t {mem : Mem α} {qP destP : Ptr} {q : V4 α} (h_q : Holds mem qP q.list) (r_dest : Room mem destP 16) :
    C.glm_quat_mat4t.run mem [qP.val, destP.val] =
      some (none, writes mem [(destP, (Cglm.glm_quat_mat4t q).list.map .f)]) :=
  transferO (e := Lib.glm_quat_mat4t) (up := true) (by kernel_rfl) (((RO.nil true _).addW r_dest.has r_dest .nil).addR h_q.has) (.p rfl (.p rfl .nil)) (glm_quat_mat4t_run _) (DT.val_done _) rfl rfl rfl
example (q : V4 α) : let mem : Mem α := [⟨true, q.list.map .f ++ List.replicate 16 .undef⟩]
    Holds mem (0, 0) q.list ∧ Room mem (0, 1) 16 :=
  ⟨.within rfl rfl, .within rfl rfl⟩

theorem C98_quat_mat3 {mem : Mem α} {qP destP : Ptr} {q : V4 α} (h_q : Holds mem qP q.list) (r_dest : Room mem destP 9) :
    C.glm_quat_mat3.run mem [qP.val, destP.val] =
      some (none, writes mem [(destP, (Cglm.glm_quat_mat3 q).list.map .f)]) :=
  transferO (e := Lib.glm_quat_mat3) (up := true) (by kernel_rfl) (((RO.nil true _).addW r_dest.has r_dest .nil).addR h_q.has) (.p rfl (.p rfl .nil)) (glm_quat_mat3_run _) (DT.val_done _) rfl rfl rfl
example (q : V4 α) : let mem : Mem α := [⟨true, q.list.map .f ++ List.replicate 9 .undef⟩]
    Holds mem (0, 0) q.list ∧ Room mem (0, 1) 9 :=
  ⟨.within rfl rfl, .within rfl rfl⟩

theorem C98_quat_mat3t {mem : Mem α} {qP destP : Ptr} {q : V4 α} (h_q : Holds mem qP q.list) (r_dest : Room mem destP 9) :
    C.glm_quat_mat3t.run mem [qP.val, destP.val] =
      some (none, writes mem [(destP, (Cglm.glm_quat_mat3t q).list.map .f)]) :=
  transferO (e := Lib.glm_quat_mat3t) (up := true) (by kernel_rfl) (((RO.nil true _).addW r_dest.has r_dest .nil).addR h_q.has) (.p rfl (.p rfl .nil)) (glm_quat_mat3t_run _) (DT.val_done _) rfl rfl rfl
example (q : V4 α) : let mem : Mem α := [⟨true, q.list.map .f ++ List.replicate 9 .undef⟩]
    Holds mem (0, 0) q.list ∧ Room mem (0, 1) 9 :=
  ⟨.within rfl rfl, .within rfl rfl⟩

theorem C98_quat_lerp {mem : Mem α} {frmP toP destP : Ptr} {frm : V4 α} {«to» : V4 α} (t : α) (h_frm : Holds mem frmP frm.list) (h_to : Holds mem toP «to».list) (r_dest : Room mem destP 4) (o_frm_dest : Over frmP 4 destP 4) (o_to_dest : Over toP 4 destP 4) :
    C.glm_quat_lerp.run mem [frmP.val, toP.val, .f t, destP.val] =
      some (none, writes mem [(destP, (Cglm.glm_quat_lerp frm «to» t).list.map .f)]) :=
  transferO (e := Lib.glm_quat_lerp) (up := false) (by kernel_rfl) ((((RO.nil false _).addP r_dest.has r_dest .nil .nil).addO h_to.has (.cons o_to_dest .nil)).addO h_frm.has (.skip (.cons o_frm_dest .nil))) (.p rfl (.p rfl (.f (.p rfl .nil)))) (glm_quat_lerp_run _ _ _) (DT.val_done _) rfl rfl rfl
example (frm : V4 α) («to» : V4 α) : let mem : Mem α := [⟨true, .undef :: frm.list.map .f⟩, ⟨false, «to».list.map .f⟩]
    Holds mem (0, 1) frm.list ∧ Holds mem (1, 0) «to».list ∧ Room mem (0, 0) 4 ∧ Over (0, 1) 4 (0, 0) 4 ∧ Over (1, 0) 4 (0, 0) 4 :=
  ⟨.within rfl rfl, .within rfl rfl, .within rfl rfl, Or.inl (by decide), Or.inl (by decide)⟩

theorem C98_quat_lerpc {mem : Mem α} {frmP toP destP : Ptr} {frm : V4 α} {«to» : V4 α} (t : α) (h_frm : Holds mem frmP frm.list) (h_to : Holds mem toP «to».list) (r_dest : Room mem destP 4) (o_frm_dest : Over frmP 4 destP 4) (o_to_dest : Over toP 4 destP 4) :
    C.glm_quat_lerpc.run mem [frmP.val, toP.val, .f t, destP.val] =
      some (none, writes mem [(destP, (Cglm.glm_quat_lerpc frm «to» t).list.map .f)]) :=
  transferO (e := Lib.glm_quat_lerpc) (up := false) (by kernel_rfl) ((((RO.nil false _).addP r_dest.has r_dest .nil .nil).addO h_to.has (.cons o_to_dest .nil)).addO h_frm.has (.skip (.cons o_frm_dest .nil))) (.p rfl (.p rfl (.f (.p rfl .nil)))) (glm_quat_lerpc_run _ _ _) (DT.val_done _) rfl rfl rfl
example (frm : V4 α) («to» : V4 α) : let mem : Mem α := [⟨true, .undef :: frm.list.map .f⟩, ⟨false, «to».list.map .f⟩]
    Holds mem (0, 1) frm.list ∧ Holds mem (1, 0) «to».list ∧ Room mem (0, 0) 4 ∧ Over (0, 1) 4 (0, 0) 4 ∧ Over (1, 0) 4 (0, 0) 4 :=
  ⟨.within rfl rfl, .within rfl rfl, .within rfl rfl, Or.inl (by decide), Or.inl (by decide)⟩

theorem C98_quat_nlerp {mem : Mem α} {frmP toP destP : Ptr} {frm : V4 α} {«to» : V4 α} (t : α) (h_frm : Holds mem frmP frm.list) (h_to : Holds mem toP «to».list) (r_dest : Room mem destP 4) (o_frm_dest : Over frmP 4 destP 4) (o_to_dest : Over toP 4 destP 4) :
    C.glm_quat_nlerp.run mem [frmP.val, toP.val, .f t, destP.val] =
      some (none, writes mem [(destP, (Cglm.glm_quat_nlerp frm «to» t).list.map .f)]) :=
  transferO (e := Lib.glm_quat_nlerp) (up := false) (by kernel_rfl) ((((RO.nil false _).addP r_dest.has r_dest .nil .nil).addO h_to.has (.cons o_to_dest .nil)).addO h_frm.has (.skip (.cons o_frm_dest .nil))) (.p rfl (.p rfl (.f (.p rfl .nil)))) (glm_quat_nlerp_run _ _ _) (DT.val_map_eq (glm_quat_nlerp_dt_val _ _ _) rfl) rfl rfl rfl
example (frm : V4 α) («to» : V4 α) : let mem : Mem α := [⟨true, .undef :: frm.list.map .f⟩, ⟨false, «to».list.map .f⟩]
    Holds mem (0, 1) frm.list ∧ Holds mem (1, 0) «to».list ∧ Room mem (0, 0) 4 ∧ Over (0, 1) 4 (0, 0) 4 ∧ Over (1, 0) 4 (0, 0) 4 :=
  ⟨.within rfl rfl, .within rfl rfl, .within rfl rfl, Or.inl (by decide), Or.inl (by decide)⟩

theorem C98_quat_slerp {mem : Mem α} {frmP toP destP : Ptr} {frm : V4 α} {«to» : V4 α} (t : α) (h_frm : Holds mem frmP frm.list) (h_to : Holds mem toP «to».list) (r_dest : Room mem destP 4) (o_frm_dest : Over frmP 4 destP 4) (o_to_dest : Over toP 4 destP 4) :
    C.glm_quat_slerp.run mem [frmP.val, toP.val, .f t, destP.val] =
      some (none, writes mem [(destP, (Cglm.glm_quat_slerp frm «to» t).list.map .f)]) :=
  transferO (e := Lib.glm_quat_slerp) (up := false) (by kernel_rfl) ((((RO.nil false _).addP r_dest.has r_dest .nil .nil).addO h_to.has (.cons o_to_dest .nil)).addO h_frm.has (.skip (.cons o_frm_dest .nil))) (.p rfl (.p rfl (.f (.p rfl .nil)))) (glm_quat_slerp_run _ _ _) (DT.val_map_eq (glm_quat_slerp_dt_val _ _ _) rfl) rfl rfl rfl
example (frm : V4 α) («to» : V4 α) : let mem : Mem α := [⟨true, .undef :: frm.list.map .f⟩, ⟨false, «to».list.map .f⟩]
    Holds mem (0, 1) frm.list ∧ Holds mem (1, 0) «to».list ∧ Room mem (0, 0) 4 ∧ Over (0, 1) 4 (0, 0) 4 ∧ Over (1, 0) 4 (0, 0) 4 :=
  ⟨.within rfl rfl, .within rfl rfl, .within rfl rfl, Or.inl (by decide), Or.inl (by decide)⟩

theorem C98_quat_slerp_longest {mem : Mem α} {frmP toP destP : Ptr} {frm : V4 α} {«to» : V4 α} (t : α) (h_frm : Holds mem frmP frm.list) (h_to : Holds mem toP «to».list) (r_dest : Room mem destP 4) (o_frm_dest : Over frmP 4 destP 4) (o_to_dest : Over toP 4 destP 4) :
    C.glm_quat_slerp_longest.run mem [frmP.val, toP.val, .f t, destP.val] =
      some (none, writes mem [(destP, (Cglm.glm_quat_slerp_longest frm «to» t).list.map .f)]) :=
  transferO (e := Lib.glm_quat_slerp_longest) (up := false) (by kernel_rfl) ((((RO.nil false _).addP r_dest.has r_dest .nil .nil).addO h_to.has (.cons o_to_dest .nil)).addO h_frm.has (.skip (.cons o_frm_dest .nil))) (.p rfl (.p rfl (.f (.p rfl .nil)))) (glm_quat_slerp_longest_run _ _ _) (DT.val_map_eq (glm_quat_slerp_longest_dt_val _ _ _) rfl) rfl rfl rfl
example (frm : V4 α) («to» : V4 α) : let mem : Mem α := [⟨true, .undef :: frm.list.map .f⟩, ⟨false, «to».list.map .f⟩]
    Holds mem (0, 1) frm.list ∧ Holds mem (1, 0) «to».list ∧ Room mem (0, 0) 4 ∧ Over (0, 1) 4 (0, 0) 4 ∧ Over (1, 0) 4 (0, 0) 4 :=
  ⟨.within rfl rfl, .within rfl rfl, .within rfl rfl, Or.inl (by decide), Or.inl (by decide)⟩

theorem C98_quat_for {mem : Mem α} {dirP upP destP : Ptr} {dir : V3 α} {up : V3 α} (h_dir : Holds mem dirP dir.list) (h_up : Holds mem upP up.list) (r_dest : Room mem destP 4) :
    C.glm_quat_for.run mem [dirP.val, upP.val, destP.val] =
      some (none, writes mem [(destP, (Cglm.glm_quat_for dir up).list.map .f)]) :=
  transferO (e := Lib.glm_quat_for) (up := true) (by kernel_rfl) ((((RO.nil true _).addW r_dest.has r_dest .nil).addR h_up.has).addR h_dir.has) (.p rfl (.p rfl (.p rfl .nil))) (glm_quat_for_run _ _) (DT.val_map_eq (glm_quat_for_dt_val _ _) rfl) rfl rfl rfl
example (dir : V3 α) (up : V3 α) : let mem : Mem α := [⟨true, dir.list.map .f ++ List.replicate 4 .undef⟩, ⟨false, up.list.map .f⟩]
    Holds mem (0, 0) dir.list ∧ Holds mem (1, 0) up.list ∧ Room mem (0, 1) 4 :=
  ⟨.within rfl rfl, .within rfl rfl, .within rfl rfl⟩

theorem C98_quat_forp {mem : Mem α} {frmP toP upP destP : Ptr} {frm : V3 α} {«to» : V3 α} {up : V3 α} (h_frm : Holds mem frmP frm.list) (h_to : Holds mem toP «to».list) (h_up : Holds mem upP up.list) (r_dest : Room mem destP 4) :
    C.glm_quat_forp.run mem [frmP.val, toP.val, upP.val, destP.val] =
      some (none, writes mem [(destP, (Cglm.glm_quat_forp frm «to» up).list.map .f)]) :=
  transferO (e := Lib.glm_quat_forp) (up := true) (by kernel_rfl) (((((RO.nil true _).addW r_dest.has r_dest .nil).addR h_up.has).addR h_to.has).addR h_frm.has) (.p rfl (.p rfl (.p rfl (.p rfl .nil)))) (glm_quat_forp_run _ _ _) (DT.val_map_eq (glm_quat_forp_dt_val _ _ _) rfl) rfl rfl rfl
example (frm : V3 α) («to» : V3 α) (up : V3 α) : let mem : Mem α := [⟨true, frm.list.map .f ++ List.replicate 4 .undef⟩, ⟨false, «to».list.map .f⟩, ⟨false, up.list.map .f⟩]
    Holds mem (0, 0) frm.list ∧ Holds mem (1, 0) «to».list ∧ Holds mem (2, 0) up.list ∧ Room mem (0, 1) 4 :=
  ⟨.within rfl rfl, .within rfl rfl, .within rfl rfl, .within rfl rfl⟩

theorem C98_quat_rotatev {mem : Mem α} {qP vP destP : Ptr} {q : V4 α} {v : V3 α} (h_q : Holds mem qP q.list) (h_v : Holds mem vP v.list) (r_dest : Room mem destP 3) :
    C.glm_quat_rotatev.run mem [qP.val, vP.val, destP.val] =
      some (none, writes mem [(destP, (Cglm.glm_quat_rotatev q v).list.map .f)]) :=
  transferO (e := Lib.glm_quat_rotatev) (up := true) (by kernel_rfl) ((((RO.nil true _).addW r_dest.has r_dest .nil).addR h_v.has).addR h_q.has) (.p rfl (.p rfl (.p rfl .nil))) (glm_quat_rotatev_run _ _) (DT.val_map_eq (glm_quat_rotatev_dt_val _ _) rfl) rfl rfl rfl
example (q : V4 α) (v : V3 α) : let mem : Mem α := [⟨true, q.list.map .f ++ List.replicate 3 .undef⟩, ⟨false, v.list.map .f⟩]
    Holds mem (0, 0) q.list ∧ Holds mem (1, 0) v.list ∧ Room mem (0, 1) 3 :=
  ⟨.within rfl rfl, .within rfl rfl, .within rfl rfl⟩

theorem C98_quat_rotate {mem : Mem α} {mP qP destP : Ptr} {m : M4 α} {q : V4 α} (h_m : Holds mem mP m.list) (h_q : Holds mem qP q.list) (r_dest : Room mem destP 16) :
    C.glm_quat_rotate.run mem [mP.val, qP.val, destP.val] =
      some (none, writes mem [(destP, (Cglm.glm_quat_rotate m q).list.map .f)]) :=
  transferO (e := Lib.glm_quat_rotate) (up := true) (by kernel_rfl) ((((RO.nil true _).addW r_dest.has r_dest .nil).addR h_q.has).addR h_m.has) (.p rfl (.p rfl (.p rfl .nil))) (glm_quat_rotate_run _ _) (DT.val_done _) rfl rfl rfl
example (m : M4 α) (q : V4 α) : let mem : Mem α := [⟨true, m.list.map .f ++ List.replicate 16 .undef⟩, ⟨false, q.list.map .f⟩]
    Holds mem (0, 0) m.list ∧ Holds mem (1, 0) q.list ∧ Room mem (0, 1) 16 :=
  ⟨.within rfl rfl, .within rfl rfl, .within rfl rfl⟩

theorem C98_quat_make {mem : Mem α} {srcP destP : Ptr} {src : V4 α} (h_src : Holds mem srcP src.list) (r_dest : Room mem destP 4) (o_src_dest : Over srcP 4 destP 4) :
    C.glm_quat_make.run mem [srcP.val, destP.val] =
      some (none, writes mem [(destP, (Cglm.glm_quat_make src).list.map .f)]) :=
  transferO (e := Lib.glm_quat_make) (up := false) (by kernel_rfl) (((RO.nil false _).addP r_dest.has r_dest .nil .nil).addO h_src.has (.cons o_src_dest .nil)) (.p rfl (.p rfl .nil)) (glm_quat_make_run _) (DT.val_done _) rfl rfl rfl
example (src : V4 α) : let mem : Mem α := [⟨true, .undef :: src.list.map .f⟩]
    Holds mem (0, 1) src.list ∧ Room mem (0, 0) 4 ∧ Over (0, 1) 4 (0, 0) 4 :=
  ⟨.within rfl rfl, .within rfl rfl, Or.inl (by decide)⟩

theorem C98_quat_from_vecs {mem : Mem α} {aP bP destP : Ptr} {a : V3 α} {b : V3 α} (h_a : Holds mem aP a.list) (h_b : Holds mem bP b.list) (r_dest : Room mem destP 4) :
    C.glm_quat_from_vecs.run mem [aP.val, bP.val, destP.val] =
      some (none, writes mem [(destP, (Cglm.glm_quat_from_vecs a b).list.map .f)]) :=
  transferO (e := Lib.glm_quat_from_vecs) (up := true) (by kernel_rfl) ((((RO.nil true _).addW r_dest.has r_dest .nil).addR h_b.has).addR h_a.has) (.p rfl (.p rfl (.p rfl .nil))) (glm_quat_from_vecs_run _ _) (DT.val_map_eq (glm_quat_from_vecs_dt_val _ _) rfl) rfl rfl rfl
example (a : V3 α) (b : V3 α) : let mem : Mem α := [⟨true, a.list.map .f ++ List.replicate 4 .undef⟩, ⟨false, b.list.map .f⟩]
    Holds mem (0, 0) a.list ∧ Holds mem (1, 0) b.list ∧ Room mem (0, 1) 4 :=
  ⟨.within rfl rfl, .within rfl rfl, .within rfl rfl⟩

theorem C98_euler_xyz_quat_rh {mem : Mem α} {anglesP destP : Ptr} {angles : V3 α} (h_angles : Holds mem anglesP angles.list) (r_dest : Room mem destP 4) :
    C.glm_euler_xyz_quat_rh.run mem [anglesP.val, destP.val] =
      some (none, writes mem [(destP, (Cglm.glm_euler_xyz_quat_rh angles).list.map .f)]) :=
  transferO (e := Lib.glm_euler_xyz_quat_rh) (up := true) (by kernel_rfl) (((RO.nil true _).addW r_dest.has r_dest .nil).addR h_angles.has) (.p rfl (.p rfl .nil)) (glm_euler_xyz_quat_rh_run _) (DT.val_done _) rfl rfl rfl
example (angles : V3 α) : let mem : Mem α := [⟨true, angles.list.map .f ++ List.replicate 4 .undef⟩]
    Holds mem (0, 0) angles.list ∧ Room mem (0, 1) 4 :=
  ⟨.within rfl rfl, .within rfl rfl⟩

theorem C98_euler_xzy_quat_rh {mem : Mem α} {anglesP destP : Ptr} {angles : V3 α} (h_angles : Holds mem anglesP angles.list) (r_dest : Room mem destP 4) :
    C.glm_euler_xzy_quat_rh.run mem [anglesP.val, destP.val] =
      some (none, writes mem [(destP, (Cglm.glm_euler_xzy_quat_rh angles).list.map .f)]) :=
  transferO (e := Lib.glm_euler_xzy_quat_rh) (up := true) (by kernel_rfl) (((RO.nil true _).addW r_dest.has r_dest .nil).addR h_angles.has) (.p rfl (.p rfl .nil)) (glm_euler_xzy_quat_rh_run _) (DT.val_done _) rfl rfl rfl
example (angles : V3 α) : let mem : Mem α := [⟨true, angles.list.map .f ++ List.replicate 4 .undef⟩]
    Holds mem (0, 0) angles.list ∧ Room mem (0, 1) 4 :=
  ⟨.within rfl rfl, .within rfl rfl⟩

theorem C98_euler_yxz_quat_rh {mem : Mem α} {anglesP destP : Ptr} {angles : V3 α} (h_angles : Holds mem anglesP angles.list) (r_dest : Room mem destP 4) :
    C.glm_euler_yxz_quat_rh.run mem [anglesP.val, destP.val] =
      some (none, writes mem [(destP, (Cglm.glm_euler_yxz_quat_rh angles).list.map .f)]) :=
  transferO (e := Lib.glm_euler_yxz_quat_rh) (up := true) (by kernel_rfl) (((RO.nil true _).addW r_dest.has r_dest .nil).addR h_angles.has) (.p rfl (.p rfl .nil)) (glm_euler_yxz_quat_rh_run _) (DT.val_done _) rfl rfl rfl
example (angles : V3 α) : let mem : Mem α := [⟨true, angles.list.map .f ++ List.replicate 4 .undef⟩]
    Holds mem (0, 0) angles.list ∧ Room mem (0, 1) 4 :=
  ⟨.within rfl rfl, .within rfl rfl⟩

theorem C98_euler_yzx_quat_rh {mem : Mem α} {anglesP destP : Ptr} {angles : V3 α} (h_angles : Holds mem anglesP angles.list) (r_dest : Room mem destP 4) :
    C.glm_euler_yzx_quat_rh.run mem [anglesP.val, destP.val] =
      some (none, writes mem [(destP, (Cglm.glm_euler_yzx_quat_rh angles).list.map .f)]) :=
  transferO (e := Lib.glm_euler_yzx_quat_rh) (up := true) (by kernel_rfl) (((RO.nil true _).addW r_dest.has r_dest .nil).addR h_angles.has) (.p rfl (.p rfl .nil)) (glm_euler_yzx_quat_rh_run _) (DT.val_done _) rfl rfl rfl
example (angles : V3 α) : let mem : Mem α := [⟨true, angles.list.map .f ++ List.replicate 4 .undef⟩]
    Holds mem (0, 0) angles.list ∧ Room mem (0, 1) 4 :=
  ⟨.within rfl rfl, .within rfl rfl⟩

theorem C98_euler_zxy_quat_rh {mem : Mem α} {anglesP destP : Ptr} {angles : V3 α} (h_angles : Holds mem anglesP angles.list) (r_dest : Room mem destP 4) :
    C.glm_euler_zxy_quat_rh.run mem [anglesP.val, destP.val] =
      some (none, writes mem [(destP, (Cglm.glm_euler_zxy_quat_rh angles).list.map .f)]) :=
  transferO (e := Lib.glm_euler_zxy_quat_rh) (up := true) (by kernel_rfl) (((RO.nil true _).addW r_dest.has r_dest .nil).addR h_angles.has) (.p rfl (.p rfl .nil)) (glm_euler_zxy_quat_rh_run _) (DT.val_done _) rfl rfl rfl
example (angles : V3 α) : let mem : Mem α := [⟨true, angles.list.map .f ++ List.replicate 4 .undef⟩]
    Holds mem (0, 0) angles.list ∧ Room mem (0, 1) 4 :=
  ⟨.within rfl rfl, .within rfl rfl⟩

theorem C98_euler_zyx_quat_rh {mem : Mem α} {anglesP destP : Ptr} {angles : V3 α} (h_angles : Holds mem anglesP angles.list) (r_dest : Room mem destP 4) :
    C.glm_euler_zyx_quat_rh.run mem [anglesP.val, destP.val] =
      some (none, writes mem [(destP, (Cglm.glm_euler_zyx_quat_rh angles).list.map .f)]) :=
  transferO (e := Lib.glm_euler_zyx_quat_rh) (up := true) (by kernel_rfl) (((RO.nil true _).addW r_dest.has r_dest .nil).addR h_angles.has) (.p rfl (.p rfl .nil)) (glm_euler_zyx_quat_rh_run _) (DT.val_done _) rfl rfl rfl
example (angles : V3 α) : let mem : Mem α := [⟨true, angles.list.map .f ++ List.replicate 4 .undef⟩]
    Holds mem (0, 0) angles.list ∧ Room mem (0, 1) 4 :=
  ⟨.within rfl rfl, .within rfl rfl⟩

theorem C98_euler_angles {mem : Mem α} {mP destP : Ptr} {m : M4 α} (h_m : Holds mem mP m.list) (r_dest : Room mem destP 3) :
    C.glm_euler_angles.run mem [mP.val, destP.val] =
      some (none, writes mem [(destP, (Cglm.glm_euler_angles m).list.map .f)]) :=
  transferO (e := Lib.glm_euler_angles) (up := true) (by kernel_rfl) (((RO.nil true _).addW r_dest.has r_dest .nil).addR h_m.has) (.p rfl (.p rfl .nil)) (glm_euler_angles_run _) (DT.val_map_eq (glm_euler_angles_dt_val _) rfl) rfl rfl rfl
example (m : M4 α) : let mem : Mem α := [⟨true, m.list.map .f ++ List.replicate 3 .undef⟩]
    Holds mem (0, 0) m.list ∧ Room mem (0, 1) 3 :=
  ⟨.within rfl rfl, .within rfl rfl⟩

theorem C98_euler_xyz {mem : Mem α} {anglesP destP : Ptr} {angles : V3 α} (h_angles : Holds mem anglesP angles.list) (r_dest : Room mem destP 16) :
    C.glm_euler_xyz.run mem [anglesP.val, destP.val] =
      some (none, writes mem [(destP, (Cglm.glm_euler_xyz angles).list.map .f)]) :=
  transferO (e := Lib.glm_euler_xyz) (up := true) (by kernel_rfl) (((RO.nil true _).addW r_dest.has r_dest .nil).addR h_angles.has) (.p rfl (.p rfl .nil)) (glm_euler_xyz_run _) (DT.val_done _) rfl rfl rfl
example (angles : V3 α) : let mem : Mem α := [⟨true, angles.list.map .f ++ List.replicate 16 .undef⟩]
    Holds mem (0, 0) angles.list ∧ Room mem (0, 1) 16 :=
  ⟨.within rfl rfl, .within rfl rfl⟩

theorem C98_euler {mem : Mem α} {anglesP destP : Ptr} {angles : V3 α} (h_angles : Holds mem anglesP angles.list) (r_dest : Room mem destP 16) :
    C.glm_euler.run mem [anglesP.val, destP.val] =
      some (none, writes mem [(destP, (Cglm.glm_euler angles).list.map .f)]) :=
  transferO (e := Lib.glm_euler) (up := true) (by kernel_rfl) (((RO.nil true _).addW r_dest.has r_dest .nil).addR h_angles.has) (.p rfl (.p rfl .nil)) (glm_euler_run _) (DT.val_done _) rfl rfl rfl
example (angles : V3 α) : let mem : Mem α := [⟨true, angles.list.map .f ++ List.replicate 16 .undef⟩]
    Holds mem (0, 0) angles.list ∧ Room mem (0, 1) 16 :=
  ⟨.within rfl rfl, .within rfl rfl⟩

theorem C98_euler_xzy {mem : Mem α} {anglesP destP : Ptr} {angles : V3 α} (h_angles : Holds mem anglesP angles.list) (r_dest : Room mem destP 16) :
    C.glm_euler_xzy.run mem [anglesP.val, destP.val] =
      some (none, writes mem [(destP, (Cglm.glm_euler_xzy angles).list.map .f)]) :=
  transferO (e := Lib.glm_euler_xzy) (up := true) (by kernel_rfl) (((RO.nil true _).addW r_dest.has r_dest .nil).addR h_angles.has) (.p rfl (.p rfl .nil)) (glm_euler_xzy_run _) (DT.val_done _) rfl rfl rfl
example (angles : V3 α) : let mem : Mem α := [⟨true, angles.list.map .f ++ List.replicate 16 .undef⟩]
    Holds mem (0, 0) angles.list ∧ Room mem (0, 1) 16 :=
  ⟨.within rfl rfl, .within rfl rfl⟩

theorem C98_euler_yxz {mem : Mem α} {anglesP destP : Ptr} {angles : V3 α} (h_angles : Holds mem anglesP angles.list) (r_dest : Room mem destP 16) :
    C.glm_euler_yxz.run mem [anglesP.val, destP.val] =
      some (none, writes mem [(destP, (Cglm.glm_euler_yxz angles).list.map .f)]) :=
  transferO (e := Lib.glm_euler_yxz) (up := true) (by kernel_rfl) (((RO.nil true _).addW r_dest.has r_dest .nil).addR h_angles.has) (.p rfl (.p rfl .nil)) (glm_euler_yxz_run _) (DT.val_done _) rfl rfl rfl
example (angles : V3 α) : let mem : Mem α := [⟨true, angles.list.map .f ++ List.replicate 16 .undef⟩]
    Holds mem (0, 0) angles.list ∧ Room mem (0, 1) 16 :=
  ⟨.within rfl rfl, .within rfl rfl⟩

theorem C98_euler_yzx {mem : Mem α} {anglesP destP : Ptr} {angles : V3 α} (h_angles : Holds mem anglesP angles.list) (r_dest : Room mem destP 16) :
    C.glm_euler_yzx.run mem [anglesP.val, destP.val] =
      some (none, writes mem [(destP, (Cglm.glm_euler_yzx angles).list.map .f)]) :=
  transferO (e := Lib.glm_euler_yzx) (up := true) (by kernel_rfl) (((RO.nil true _).addW r_dest.has r_dest .nil).addR h_angles.has) (.p rfl (.p rfl .nil)) (glm_euler_yzx_run _) (DT.val_done _) rfl rfl rfl
example (angles : V3 α) : let mem : Mem α := [⟨true, angles.list.map .f ++ List.replicate 16 .undef⟩]
    Holds mem (0, 0) angles.list ∧ Room mem (0, 1) 16 :=
  ⟨.within rfl rfl, .within rfl rfl⟩

theorem C98_euler_zxy {mem : Mem α} {anglesP destP : Ptr} {angles : V3 α} (h_angles : Holds mem anglesP angles.list) (r_dest : Room mem destP 16) :
    C.glm_euler_zxy.run mem [anglesP.val, destP.val] =
      some (none, writes mem [(destP, (Cglm.glm_euler_zxy angles).list.map .f)]) :=
  transferO (e := Lib.glm_euler_zxy) (up := true) (by kernel_rfl) (((RO.nil true _).addW r_dest.has r_dest .nil).addR h_angles.has) (.p rfl (.p rfl .nil)) (glm_euler_zxy_run _) (DT.val_done _) rfl rfl rfl
example (angles : V3 α) : let mem : Mem α := [⟨true, angles.list.map .f ++ List.replicate 16 .undef⟩]
    Holds mem (0, 0) angles.list ∧ Room mem (0, 1) 16 :=
  ⟨.within rfl rfl, .within rfl rfl⟩

theorem C98_euler_zyx {mem : Mem α} {anglesP destP : Ptr} {angles : V3 α} (h_angles : Holds mem anglesP angles.list) (r_dest : Room mem destP 16) :
    C.glm_euler_zyx.run mem [anglesP.val, destP.val] =
      some (none, writes mem [(destP, (Cglm.glm_euler_zyx angles).list.map .f)]) :=
  transferO (e := Lib.glm_euler_zyx) (up := true) (by kernel_rfl) (((RO.nil true _).addW r_dest.has r_dest .nil).addR h_angles.has) (.p rfl (.p rfl .nil)) (glm_euler_zyx_run _) (DT.val_done _) rfl rfl rfl
example (angles : V3 α) : let mem : Mem α := [⟨true, angles.list.map .f ++ List.replicate 16 .undef⟩]
    Holds mem (0, 0) angles.list ∧ Room mem (0, 1) 16 :=
  ⟨.within rfl rfl, .within rfl rfl⟩

theorem C98_euler_by_order {mem : Mem α} {anglesP destP : Ptr} {angles : V3 α} (ord : Int) {dest : M4 α} (h_angles : Holds mem anglesP angles.list) (h_dest : Holds mem destP dest.list) (r_dest : Room mem destP 16) :
    C.glm_euler_by_order.run mem [anglesP.val, .i ord, destP.val] =
      some (none, writes mem [(destP, (Cglm.glm_euler_by_order angles ord dest).list.map .f)]) :=
  transferO (e := Lib.glm_euler_by_order) (up := true) (by kernel_rfl) (((RO.nil true _).addW h_dest.has r_dest .nil).addR h_angles.has) (.p rfl (.i (.p rfl .nil))) (glm_euler_by_order_run _ _ _) (DT.val_map_eq (glm_euler_by_order_dt_val _ _ _) rfl) rfl rfl rfl
example (dest : M4 α) : let mem : Mem α := [⟨true, dest.list.map .f⟩]
    Holds mem (0, 1) (⟨dest.c0.y, dest.c0.z, dest.c0.w⟩ : V3 α).list ∧ Room mem (0, 0) 16 ∧ Holds mem (0, 0) dest.list :=
  ⟨.within rfl rfl, .within rfl rfl, .within rfl rfl⟩

theorem C98_euler_xyz_quat {mem : Mem α} {anglesP destP : Ptr} {angles : V3 α} (h_angles : Holds mem anglesP angles.list) (r_dest : Room mem destP 4) :
    C.glm_euler_xyz_quat.run mem [anglesP.val, destP.val] =
      some (none, writes mem [(destP, (Cglm.glm_euler_xyz_quat angles).list.map .f)]) :=
  transferO (e := Lib.glm_euler_xyz_quat) (up := true) (by kernel_rfl) (((RO.nil true _).addW r_dest.has r_dest .nil).addR h_angles.has) (.p rfl (.p rfl .nil)) (glm_euler_xyz_quat_run _) (DT.val_done _) rfl rfl rfl
example (angles : V3 α) : let mem : Mem α := [⟨true, angles.list.map .f ++ List.replicate 4 .undef⟩]
    Holds mem (0, 0) angles.list ∧ Room mem (0, 1) 4 :=
  ⟨.within rfl rfl, .within rfl rfl⟩

theorem C98_euler_xzy_quat {mem : Mem α} {anglesP destP : Ptr} {angles : V3 α} (h_angles : Holds mem anglesP angles.list) (r_dest : Room mem destP 4) :
    C.glm_euler_xzy_quat.run mem [anglesP.val, destP.val] =
      some (none, writes mem [(destP, (Cglm.glm_euler_xzy_quat angles).list.map .f)]) :=
  transferO (e := Lib.glm_euler_xzy_quat) (up := true) (by kernel_rfl) (((RO.nil true _).addW r_dest.has r_dest .nil).addR h_angles.has) (.p rfl (.p rfl .nil)) (glm_euler_xzy_quat_run _) (DT.val_done _) rfl rfl rfl
example (angles : V3 α) : let mem : Mem α := [⟨true, angles.list.map .f ++ List.replicate 4 .undef⟩]
    Holds mem (0, 0) angles.list ∧ Room mem (0, 1) 4 :=
  ⟨.within rfl rfl, .within rfl rfl⟩

theorem C98_euler_yxz_quat {mem : Mem α} {anglesP destP : Ptr} {angles : V3 α} (h_angles : Holds mem anglesP angles.list) (r_dest : Room mem destP 4) :
    C.glm_euler_yxz_quat.run mem [anglesP.val, destP.val] =
      some (none, writes mem [(destP, (Cglm.glm_euler_yxz_quat angles).list.map .f)]) :=
  transferO (e := Lib.glm_euler_yxz_quat) (up := true) (by kernel_rfl) (((RO.nil true _).addW r_dest.has r_dest .nil).addR h_angles.has) (.p rfl (.p rfl .nil)) (glm_euler_yxz_quat_run _) (DT.val_done _) rfl rfl rfl
example (angles : V3 α) : let mem : Mem α := [⟨true, angles.list.map .f ++ List.replicate 4 .undef⟩]
    Holds mem (0, 0) angles.list ∧ Room mem (0, 1) 4 :=
  ⟨.within rfl rfl, .within rfl rfl⟩

theorem C98_euler_yzx_quat {mem : Mem α} {anglesP destP : Ptr} {angles : V3 α} (h_angles : Holds mem anglesP angles.list) (r_dest : Room mem destP 4) :
    C.glm_euler_yzx_quat.run mem [anglesP.val, destP.val] =
      some (none, writes mem [(destP, (Cglm.glm_euler_yzx_quat angles).list.map .f)]) :=
  transferO (e := Lib.glm_euler_yzx_quat) (up := true) (by kernel_rfl) (((RO.nil true _).addW r_dest.has r_dest .nil).addR h_angles.has) (.p rfl (.p rfl .nil)) (glm_euler_yzx_quat_run _) (DT.val_done _) rfl rfl rfl
example (angles : V3 α) : let mem : Mem α := [⟨true, angles.list.map .f ++ List.replicate 4 .undef⟩]
    Holds mem (0, 0) angles.list ∧ Room mem (0, 1) 4 :=
  ⟨.within rfl rfl, .within rfl rfl⟩

theorem C98_euler_zxy_quat {mem : Mem α} {anglesP destP : Ptr} {angles : V3 α} (h_angles : Holds mem anglesP angles.list) (r_dest : Room mem destP 4) :
    C.glm_euler_zxy_quat.run mem [anglesP.val, destP.val] =
      some (none, writes mem [(destP, (Cglm.glm_euler_zxy_quat angles).list.map .f)]) :=
  transferO (e := Lib.glm_euler_zxy_quat) (up := true) (by kernel_rfl) (((RO.nil true _).addW r_dest.has r_dest .nil).addR h_angles.has) (.p rfl (.p rfl .nil)) (glm_euler_zxy_quat_run _) (DT.val_done _) rfl rfl rfl
example (angles : V3 α) : let mem : Mem α := [⟨true, angles.list.map .f ++ List.replicate 4 .undef⟩]
    Holds mem (0, 0) angles.list ∧ Room mem (0, 1) 4 :=
  ⟨.within rfl rfl, .within rfl rfl⟩

theorem C98_euler_zyx_quat {mem : Mem α} {anglesP destP : Ptr} {angles : V3 α} (h_angles : Holds mem anglesP angles.list) (r_dest : Room mem destP 4) :
    C.glm_euler_zyx_quat.run mem [anglesP.val, destP.val] =
      some (none, writes mem [(destP, (Cglm.glm_euler_zyx_quat angles).list.map .f)]) :=
  transferO (e := Lib.glm_euler_zyx_quat) (up := true) (by kernel_rfl) (((RO.nil true _).addW r_dest.has r_dest .nil).addR h_angles.has) (.p rfl (.p rfl .nil)) (glm_euler_zyx_quat_run _) (DT.val_done _) rfl rfl rfl
example (angles : V3 α) : let mem : Mem α := [⟨true, angles.list.map .f ++ List.replicate 4 .undef⟩]
    Holds mem (0, 0) angles.list ∧ Room mem (0, 1) 4 :=
  ⟨.within rfl rfl, .within rfl rfl⟩

theorem C98_euler_xyz_quat_lh {mem : Mem α} {anglesP destP : Ptr} {angles : V3 α} (h_angles : Holds mem anglesP angles.list) (r_dest : Room mem destP 4) :
    C.glm_euler_xyz_quat_lh.run mem [anglesP.val, destP.val] =
      some (none, writes mem [(destP, (Cglm.glm_euler_xyz_quat_lh angles).list.map .f)]) :=
  transferO (e := Lib.glm_euler_xyz_quat_lh) (up := true) (by kernel_rfl) (((RO.nil true _).addW r_dest.has r_dest .nil).addR h_angles.has) (.p rfl (.p rfl .nil)) (glm_euler_xyz_quat_lh_run _) (DT.val_done _) rfl rfl rfl
example (angles : V3 α) : let mem : Mem α := [⟨true, angles.list.map .f ++ List.replicate 4 .undef⟩]
    Holds mem (0, 0) angles.list ∧ Room mem (0, 1) 4 :=
  ⟨.within rfl rfl, .within rfl rfl⟩

theorem C98_euler_xzy_quat_lh {mem : Mem α} {anglesP destP : Ptr} {angles : V3 α} (h_angles : Holds mem anglesP angles.list) (r_dest : Room mem destP 4) :
    C.glm_euler_xzy_quat_lh.run mem [anglesP.val, destP.val] =
      some (none, writes mem [(destP, (Cglm.glm_euler_xzy_quat_lh angles).list.map .f)]) :=
  transferO (e := Lib.glm_euler_xzy_quat_lh) (up := true) (by kernel_rfl) (((RO.nil true _).addW r_dest.has r_dest .nil).addR h_angles.has) (.p rfl (.p rfl .nil)) (glm_euler_xzy_quat_lh_run _) (DT.val_done _) rfl rfl rfl
example (angles : V3 α) : let mem : Mem α := [⟨true, angles.list.map .f ++ List.replicate 4 .undef⟩]
    Holds mem (0, 0) angles.list ∧ Room mem (0, 1) 4 :=
  ⟨.within rfl rfl, .within rfl rfl⟩

theorem C98_euler_yxz_quat_lh {mem : Mem α} {anglesP destP : Ptr} {angles : V3 α} (h_angles : Holds mem anglesP angles.list) (r_dest : Room mem destP 4) :
    C.glm_euler_yxz_quat_lh.run mem [anglesP.val, destP.val] =
      some (none, writes mem [(destP, (Cglm.glm_euler_yxz_quat_lh angles).list.map .f)]) :=
  transferO (e := Lib.glm_euler_yxz_quat_lh) (up := true) (by kernel_rfl) (((RO.nil true _).addW r_dest.has r_dest .nil).addR h_angles.has) (.p rfl (.p rfl .nil)) (glm_euler_yxz_quat_lh_run _) (DT.val_done _) rfl rfl rfl
example (angles : V3 α) : let mem : Mem α := [⟨true, angles.list.map .f ++ List.replicate 4 .undef⟩]
    Holds mem (0, 0) angles.list ∧ Room mem (0, 1) 4 :=
  ⟨.within rfl rfl, .within rfl rfl⟩

theorem C98_euler_yzx_quat_lh {mem : Mem α} {anglesP destP : Ptr} {angles : V3 α} (h_angles : Holds mem anglesP angles.list) (r_dest : Room mem destP 4) :
    C.glm_euler_yzx_quat_lh.run mem [anglesP.val, destP.val] =
      some (none, writes mem [(destP, (Cglm.glm_euler_yzx_quat_lh angles).list.map .f)]) :=
  transferO (e := Lib.glm_euler_yzx_quat_lh) (up := true) (by kernel_rfl) (((RO.nil true _).addW r_dest.has r_dest .nil).addR h_angles.has) (.p rfl (.p rfl .nil)) (glm_euler_yzx_quat_lh_run _) (DT.val_done _) rfl rfl rfl
example (angles : V3 α) : let mem : Mem α := [⟨true, angles.list.map .f ++ List.replicate 4 .undef⟩]
    Holds mem (0, 0) angles.list ∧ Room mem (0, 1) 4 :=
  ⟨.within rfl rfl, .within rfl rfl⟩

theorem C98_euler_zxy_quat_lh {mem : Mem α} {anglesP destP : Ptr} {angles : V3 α} (h_angles : Holds mem anglesP angles.list) (r_dest : Room mem destP 4) :
    C.glm_euler_zxy_quat_lh.run mem [anglesP.val, destP.val] =
      some (none, writes mem [(destP, (Cglm.glm_euler_zxy_quat_lh angles).list.map .f)]) :=
  transferO (e := Lib.glm_euler_zxy_quat_lh) (up := true) (by kernel_rfl) (((RO.nil true _).addW r_dest.has r_dest .nil).addR h_angles.has) (.p rfl (.p rfl .nil)) (glm_euler_zxy_quat_lh_run _) (DT.val_done _) rfl rfl rfl
example (angles : V3 α) : let mem : Mem α := [⟨true, angles.list.map .f ++ List.replicate 4 .undef⟩]
    Holds mem (0, 0) angles.list ∧ Room mem (0, 1) 4 :=
  ⟨.within rfl rfl, .within rfl rfl⟩

theorem C98_euler_zyx_quat_lh {mem : Mem α} {anglesP destP : Ptr} {angles : V3 α} (h_angles : Holds mem anglesP angles.list) (r_dest : Room mem destP 4) :
    C.glm_euler_zyx_quat_lh.run mem [anglesP.val, destP.val] =
      some (none, writes mem [(destP, (Cglm.glm_euler_zyx_quat_lh angles).list.map .f)]) :=
  transferO (e := Lib.glm_euler_zyx_quat_lh) (up := true) (by kernel_rfl) (((RO.nil true _).addW r_dest.has r_dest .nil).addR h_angles.has) (.p rfl (.p rfl .nil)) (glm_euler_zyx_quat_lh_run _) (DT.val_done _) rfl rfl rfl
example (angles : V3 α) : let mem : Mem α := [⟨true, angles.list.map .f ++ List.replicate 4 .undef⟩]
    Holds mem (0, 0) angles.list ∧ Room mem (0, 1) 4 :=
  ⟨.within rfl rfl, .within rfl rfl⟩

end Cglm
