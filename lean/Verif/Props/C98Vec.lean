/- Generated by tools/overthms.py; do not edit by hand. -/
import Verif.CMemOver
import Verif.Lib.Vec
import Verif.Mem.VecsRun

/-!
# C98: outputs that overlap inputs

Inputs and outputs may overlap in any way, or, for functions that work component by component, in any way except that an
output begins inside an input (`Over`).  Outputs do not overlap each other.  The result is the value-level function of
what the inputs held before the call, and nothing outside the outputs changes.
-/

set_option linter.unusedVariables false
set_option linter.unusedSectionVars false

namespace Cglm
open CMem

variable {α : Type} [Add α] [Sub α] [Mul α] [Div α] [Neg α] [CFloat α]

theorem C98_vec2_sign {mem : Mem α} {vP destP : Ptr} {v : V2 α} (h_v : Holds mem vP v.list) (r_dest : Room mem destP 2) (o_v_dest : Over vP 2 destP 2) :
    C.glm_vec2_sign.run mem [vP.val, destP.val] =
      some (none, writes mem [(destP, (Cglm.glm_vec2_sign v).list.map .f)]) :=
  transferO (e := Lib.glm_vec2_sign) (up := false) (by kernel_rfl) (((RO.nil false _).addP r_dest.has r_dest .nil .nil).addO h_v.has (.cons o_v_dest .nil)) (.p rfl (.p rfl .nil)) (glm_vec2_sign_run _) (DT.val_done _) rfl rfl rfl
example (v : V2 α) : let mem : Mem α := [⟨true, .undef :: v.list.map .f⟩]
    Holds mem (0, 1) v.list ∧ Room mem (0, 0) 2 ∧ Over (0, 1) 2 (0, 0) 2 :=
  ⟨.within rfl rfl, .within rfl rfl, Or.inl (by decide)⟩

theorem C98_vec2_abs {mem : Mem α} {vP destP : Ptr} {v : V2 α} (h_v : Holds mem vP v.list) (r_dest : Room mem destP 2) (o_v_dest : Over vP 2 destP 2) :
    C.glm_vec2_abs.run mem [vP.val, destP.val] =
      some (none, writes mem [(destP, (Cglm.glm_vec2_abs v).list.map .f)]) :=
  transferO (e := Lib.glm_vec2_abs) (up := false) (by kernel_rfl) (((RO.nil false _).addP r_dest.has r_dest .nil .nil).addO h_v.has (.cons o_v_dest .nil)) (.p rfl (.p rfl .nil)) (glm_vec2_abs_run _) (DT.val_done _) rfl rfl rfl
example (v : V2 α) : let mem : Mem α := [⟨true, .undef :: v.list.map .f⟩]
    Holds mem (0, 1) v.list ∧ Room mem (0, 0) 2 ∧ Over (0, 1) 2 (0, 0) 2 :=
  ⟨.within rfl rfl, .within rfl rfl, Or.inl (by decide)⟩

theorem C98_vec2_fract {mem : Mem α} {vP destP : Ptr} {v : V2 α} (h_v : Holds mem vP v.list) (r_dest : Room mem destP 2) (o_v_dest : Over vP 2 destP 2) :
    C.glm_vec2_fract.run mem [vP.val, destP.val] =
      some (none, writes mem [(destP, (Cglm.glm_vec2_fract v).list.map .f)]) :=
  transferO (e := Lib.glm_vec2_fract) (up := false) (by kernel_rfl) (((RO.nil false _).addP r_dest.has r_dest .nil .nil).addO h_v.has (.cons o_v_dest .nil)) (.p rfl (.p rfl .nil)) (glm_vec2_fract_run _) (DT.val_done _) rfl rfl rfl
example (v : V2 α) : let mem : Mem α := [⟨true, .undef :: v.list.map .f⟩]
    Holds mem (0, 1) v.list ∧ Room mem (0, 0) 2 ∧ Over (0, 1) 2 (0, 0) 2 :=
  ⟨.within rfl rfl, .within rfl rfl, Or.inl (by decide)⟩

theorem C98_vec2_floor {mem : Mem α} {vP destP : Ptr} {v : V2 α} (h_v : Holds mem vP v.list) (r_dest : Room mem destP 2) (o_v_dest : Over vP 2 destP 2) :
    C.glm_vec2_floor.run mem [vP.val, destP.val] =
      some (none, writes mem [(destP, (Cglm.glm_vec2_floor v).list.map .f)]) :=
  transferO (e := Lib.glm_vec2_floor) (up := false) (by kernel_rfl) (((RO.nil false _).addP r_dest.has r_dest .nil .nil).addO h_v.has (.cons o_v_dest .nil)) (.p rfl (.p rfl .nil)) (glm_vec2_floor_run _) (DT.val_done _) rfl rfl rfl
example (v : V2 α) : let mem : Mem α := [⟨true, .undef :: v.list.map .f⟩]
    Holds mem (0, 1) v.list ∧ Room mem (0, 0) 2 ∧ Over (0, 1) 2 (0, 0) 2 :=
  ⟨.within rfl rfl, .within rfl rfl, Or.inl (by decide)⟩

theorem C98_vec2_mods {mem : Mem α} {vP destP : Ptr} {v : V2 α} (s : α) (h_v : Holds mem vP v.list) (r_dest : Room mem destP 2) (o_v_dest : Over vP 2 destP 2) :
    C.glm_vec2_mods.run mem [vP.val, .f s, destP.val] =
      some (none, writes mem [(destP, (Cglm.glm_vec2_mods v s).list.map .f)]) :=
  transferO (e := Lib.glm_vec2_mods) (up := false) (by kernel_rfl) (((RO.nil false _).addP r_dest.has r_dest .nil .nil).addO h_v.has (.cons o_v_dest .nil)) (.p rfl (.f (.p rfl .nil))) (glm_vec2_mods_run _ _) (DT.val_done _) rfl rfl rfl
example (v : V2 α) : let mem : Mem α := [⟨true, .undef :: v.list.map .f⟩]
    Holds mem (0, 1) v.list ∧ Room mem (0, 0) 2 ∧ Over (0, 1) 2 (0, 0) 2 :=
  ⟨.within rfl rfl, .within rfl rfl, Or.inl (by decide)⟩

theorem C98_vec2_sqrt {mem : Mem α} {vP destP : Ptr} {v : V2 α} (h_v : Holds mem vP v.list) (r_dest : Room mem destP 2) (o_v_dest : Over vP 2 destP 2) :
    C.glm_vec2_sqrt.run mem [vP.val, destP.val] =
      some (none, writes mem [(destP, (Cglm.glm_vec2_sqrt v).list.map .f)]) :=
  transferO (e := Lib.glm_vec2_sqrt) (up := false) (by kernel_rfl) (((RO.nil false _).addP r_dest.has r_dest .nil .nil).addO h_v.has (.cons o_v_dest .nil)) (.p rfl (.p rfl .nil)) (glm_vec2_sqrt_run _) (DT.val_done _) rfl rfl rfl
example (v : V2 α) : let mem : Mem α := [⟨true, .undef :: v.list.map .f⟩]
    Holds mem (0, 1) v.list ∧ Room mem (0, 0) 2 ∧ Over (0, 1) 2 (0, 0) 2 :=
  ⟨.within rfl rfl, .within rfl rfl, Or.inl (by decide)⟩

theorem C98_vec2_complex_mul {mem : Mem α} {aP bP destP : Ptr} {a : V2 α} {b : V2 α} (h_a : Holds mem aP a.list) (h_b : Holds mem bP b.list) (r_dest : Room mem destP 2) :
    C.glm_vec2_complex_mul.run mem [aP.val, bP.val, destP.val] =
      some (none, writes mem [(destP, (Cglm.glm_vec2_complex_mul a b).list.map .f)]) :=
  transferO (e := Lib.glm_vec2_complex_mul) (up := true) (by kernel_rfl) ((((RO.nil true _).addW r_dest.has r_dest .nil).addR h_b.has).addR h_a.has) (.p rfl (.p rfl (.p rfl .nil))) (glm_vec2_complex_mul_run _ _) (DT.val_done _) rfl rfl rfl
example (a : V2 α) (b : V2 α) : let mem : Mem α := [⟨true, a.list.map .f ++ List.replicate 2 .undef⟩, ⟨false, b.list.map .f⟩]
    Holds mem (0, 0) a.list ∧ Holds mem (1, 0) b.list ∧ Room mem (0, 1) 2 :=
  ⟨.within rfl rfl, .within rfl rfl, .within rfl rfl⟩

theorem C98_vec2_steps {mem : Mem α} {xP destP : Ptr} (edge : α) {x : V2 α} (h_x : Holds mem xP x.list) (r_dest : Room mem destP 2) (o_x_dest : Over xP 2 destP 2) :
    C.glm_vec2_steps.run mem [.f edge, xP.val, destP.val] =
      some (none, writes mem [(destP, (Cglm.glm_vec2_steps edge x).list.map .f)]) :=
  transferO (e := Lib.glm_vec2_steps) (up := false) (by kernel_rfl) (((RO.nil false _).addP r_dest.has r_dest .nil .nil).addO h_x.has (.cons o_x_dest .nil)) (.f (.p rfl (.p rfl .nil))) (glm_vec2_steps_run _ _) (DT.val_done _) rfl rfl rfl
example (x : V2 α) : let mem : Mem α := [⟨true, .undef :: x.list.map .f⟩]
    Holds mem (0, 1) x.list ∧ Room mem (0, 0) 2 ∧ Over (0, 1) 2 (0, 0) 2 :=
  ⟨.within rfl rfl, .within rfl rfl, Or.inl (by decide)⟩

theorem C98_vec2_stepr {mem : Mem α} {edgeP destP : Ptr} {edge : V2 α} (x : α) (h_edge : Holds mem edgeP edge.list) (r_dest : Room mem destP 2) (o_edge_dest : Over edgeP 2 destP 2) :
    C.glm_vec2_stepr.run mem [edgeP.val, .f x, destP.val] =
      some (none, writes mem [(destP, (Cglm.glm_vec2_stepr edge x).list.map .f)]) :=
  transferO (e := Lib.glm_vec2_stepr) (up := false) (by kernel_rfl) (((RO.nil false _).addP r_dest.has r_dest .nil .nil).addO h_edge.has (.cons o_edge_dest .nil)) (.p rfl (.f (.p rfl .nil))) (glm_vec2_stepr_run _ _) (DT.val_done _) rfl rfl rfl
example (edge : V2 α) : let mem : Mem α := [⟨true, .undef :: edge.list.map .f⟩]
    Holds mem (0, 1) edge.list ∧ Room mem (0, 0) 2 ∧ Over (0, 1) 2 (0, 0) 2 :=
  ⟨.within rfl rfl, .within rfl rfl, Or.inl (by decide)⟩

theorem C98_vec2_complex_div {mem : Mem α} {aP bP destP : Ptr} {a : V2 α} {b : V2 α} (h_a : Holds mem aP a.list) (h_b : Holds mem bP b.list) (r_dest : Room mem destP 2) :
    C.glm_vec2_complex_div.run mem [aP.val, bP.val, destP.val] =
      some (none, writes mem [(destP, (Cglm.glm_vec2_complex_div a b).list.map .f)]) :=
  transferO (e := Lib.glm_vec2_complex_div) (up := true) (by kernel_rfl) ((((RO.nil true _).addW r_dest.has r_dest .nil).addR h_b.has).addR h_a.has) (.p rfl (.p rfl (.p rfl .nil))) (glm_vec2_complex_div_run _ _) (DT.val_done _) rfl rfl rfl
example (a : V2 α) (b : V2 α) : let mem : Mem α := [⟨true, a.list.map .f ++ List.replicate 2 .undef⟩, ⟨false, b.list.map .f⟩]
    Holds mem (0, 0) a.list ∧ Holds mem (1, 0) b.list ∧ Room mem (0, 1) 2 :=
  ⟨.within rfl rfl, .within rfl rfl, .within rfl rfl⟩

theorem C98_vec2_complex_conjugate {mem : Mem α} {aP destP : Ptr} {a : V2 α} (h_a : Holds mem aP a.list) (r_dest : Room mem destP 2) (o_a_dest : Over aP 2 destP 2) :
    C.glm_vec2_complex_conjugate.run mem [aP.val, destP.val] =
      some (none, writes mem [(destP, (Cglm.glm_vec2_complex_conjugate a).list.map .f)]) :=
  transferO (e := Lib.glm_vec2_complex_conjugate) (up := false) (by kernel_rfl) (((RO.nil false _).addP r_dest.has r_dest .nil .nil).addO h_a.has (.cons o_a_dest .nil)) (.p rfl (.p rfl .nil)) (glm_vec2_complex_conjugate_run _) (DT.val_done _) rfl rfl rfl
example (a : V2 α) : let mem : Mem α := [⟨true, .undef :: a.list.map .f⟩]
    Holds mem (0, 1) a.list ∧ Room mem (0, 0) 2 ∧ Over (0, 1) 2 (0, 0) 2 :=
  ⟨.within rfl rfl, .within rfl rfl, Or.inl (by decide)⟩

theorem C98_vec2 {mem : Mem α} {vP destP : Ptr} {v : V2 α} (h_v : Holds mem vP v.list) (r_dest : Room mem destP 2) (o_v_dest : Over vP 2 destP 2) :
    C.glm_vec2.run mem [vP.val, destP.val] =
      some (none, writes mem [(destP, (Cglm.glm_vec2 v).list.map .f)]) :=
  transferO (e := Lib.glm_vec2) (up := false) (by kernel_rfl) (((RO.nil false _).addP r_dest.has r_dest .nil .nil).addO h_v.has (.cons o_v_dest .nil)) (.p rfl (.p rfl .nil)) (glm_vec2_run _) (DT.val_done _) rfl rfl rfl
example (v : V2 α) : let mem : Mem α := [⟨true, .undef :: v.list.map .f⟩]
    Holds mem (0, 1) v.list ∧ Room mem (0, 0) 2 ∧ Over (0, 1) 2 (0, 0) 2 :=
  ⟨.within rfl rfl, .within rfl rfl, Or.inl (by decide)⟩

theorem C98_vec2_copy {mem : Mem α} {aP destP : Ptr} {a : V2 α} (h_a : Holds mem aP a.list) (r_dest : Room mem destP 2) (o_a_dest : Over aP 2 destP 2) :
    C.glm_vec2_copy.run mem [aP.val, destP.val] =
      some (none, writes mem [(destP, (Cglm.glm_vec2_copy a).list.map .f)]) :=
  transferO (e := Lib.glm_vec2_copy) (up := false) (by kernel_rfl) (((RO.nil false _).addP r_dest.has r_dest .nil .nil).addO h_a.has (.cons o_a_dest .nil)) (.p rfl (.p rfl .nil)) (glm_vec2_copy_run _) (DT.val_done _) rfl rfl rfl
example (a : V2 α) : let mem : Mem α := [⟨true, .undef :: a.list.map .f⟩]
    Holds mem (0, 1) a.list ∧ Room mem (0, 0) 2 ∧ Over (0, 1) 2 (0, 0) 2 :=
  ⟨.within rfl rfl, .within rfl rfl, Or.inl (by decide)⟩

theorem C98_vec2_add {mem : Mem α} {aP bP destP : Ptr} {a : V2 α} {b : V2 α} (h_a : Holds mem aP a.list) (h_b : Holds mem bP b.list) (r_dest : Room mem destP 2) (o_a_dest : Over aP 2 destP 2) (o_b_dest : Over bP 2 destP 2) :
    C.glm_vec2_add.run mem [aP.val, bP.val, destP.val] =
      some (none, writes mem [(destP, (Cglm.glm_vec2_add a b).list.map .f)]) :=
  transferO (e := Lib.glm_vec2_add) (up := false) (by kernel_rfl) ((((RO.nil false _).addP r_dest.has r_dest .nil .nil).addO h_b.has (.cons o_b_dest .nil)).addO h_a.has (.skip (.cons o_a_dest .nil))) (.p rfl (.p rfl (.p rfl .nil))) (glm_vec2_add_run _ _) (DT.val_done _) rfl rfl rfl
example (a : V2 α) (b : V2 α) : let mem : Mem α := [⟨true, .undef :: a.list.map .f⟩, ⟨false, b.list.map .f⟩]
    Holds mem (0, 1) a.list ∧ Holds mem (1, 0) b.list ∧ Room mem (0, 0) 2 ∧ Over (0, 1) 2 (0, 0) 2 ∧ Over (1, 0) 2 (0, 0) 2 :=
  ⟨.within rfl rfl, .within rfl rfl, .within rfl rfl, Or.inl (by decide), Or.inl (by decide)⟩

theorem C98_vec2_adds {mem : Mem α} {vP destP : Ptr} {v : V2 α} (s : α) (h_v : Holds mem vP v.list) (r_dest : Room mem destP 2) (o_v_dest : Over vP 2 destP 2) :
    C.glm_vec2_adds.run mem [vP.val, .f s, destP.val] =
      some (none, writes mem [(destP, (Cglm.glm_vec2_adds v s).list.map .f)]) :=
  transferO (e := Lib.glm_vec2_adds) (up := false) (by kernel_rfl) (((RO.nil false _).addP r_dest.has r_dest .nil .nil).addO h_v.has (.cons o_v_dest .nil)) (.p rfl (.f (.p rfl .nil))) (glm_vec2_adds_run _ _) (DT.val_done _) rfl rfl rfl
example (v : V2 α) : let mem : Mem α := [⟨true, .undef :: v.list.map .f⟩]
    Holds mem (0, 1) v.list ∧ Room mem (0, 0) 2 ∧ Over (0, 1) 2 (0, 0) 2 :=
  ⟨.within rfl rfl, .within rfl rfl, Or.inl (by decide)⟩

theorem C98_vec2_sub {mem : Mem α} {aP bP destP : Ptr} {a : V2 α} {b : V2 α} (h_a : Holds mem aP a.list) (h_b : Holds mem bP b.list) (r_dest : Room mem destP 2) (o_a_dest : Over aP 2 destP 2) (o_b_dest : Over bP 2 destP 2) :
    C.glm_vec2_sub.run mem [aP.val, bP.val, destP.val] =
      some (none, writes mem [(destP, (Cglm.glm_vec2_sub a b).list.map .f)]) :=
  transferO (e := Lib.glm_vec2_sub) (up := false) (by kernel_rfl) ((((RO.nil false _).addP r_dest.has r_dest .nil .nil).addO h_b.has (.cons o_b_dest .nil)).addO h_a.has (.skip (.cons o_a_dest .nil))) (.p rfl (.p rfl (.p rfl .nil))) (glm_vec2_sub_run _ _) (DT.val_done _) rfl rfl rfl
example (a : V2 α) (b : V2 α) : let mem : Mem α := [⟨true, .undef :: a.list.map .f⟩, ⟨false, b.list.map .f⟩]
    Holds mem (0, 1) a.list ∧ Holds mem (1, 0) b.list ∧ Room mem (0, 0) 2 ∧ Over (0, 1) 2 (0, 0) 2 ∧ Over (1, 0) 2 (0, 0) 2 :=
  ⟨.within rfl rfl, .within rfl rfl, .within rfl rfl, Or.inl (by decide), Or.inl (by decide)⟩

theorem C98_vec2_subs {mem : Mem α} {vP destP : Ptr} {v : V2 α} (s : α) (h_v : Holds mem vP v.list) (r_dest : Room mem destP 2) (o_v_dest : Over vP 2 destP 2) :
    C.glm_vec2_subs.run mem [vP.val, .f s, destP.val] =
      some (none, writes mem [(destP, (Cglm.glm_vec2_subs v s).list.map .f)]) :=
  transferO (e := Lib.glm_vec2_subs) (up := false) (by kernel_rfl) (((RO.nil false _).addP r_dest.has r_dest .nil .nil).addO h_v.has (.cons o_v_dest .nil)) (.p rfl (.f (.p rfl .nil))) (glm_vec2_subs_run _ _) (DT.val_done _) rfl rfl rfl
example (v : V2 α) : let mem : Mem α := [⟨true, .undef :: v.list.map .f⟩]
    Holds mem (0, 1) v.list ∧ Room mem (0, 0) 2 ∧ Over (0, 1) 2 (0, 0) 2 :=
  ⟨.within rfl rfl, .within rfl rfl, Or.inl (by decide)⟩

theorem C98_vec2_mul {mem : Mem α} {aP bP destP : Ptr} {a : V2 α} {b : V2 α} (h_a : Holds mem aP a.list) (h_b : Holds mem bP b.list) (r_dest : Room mem destP 2) (o_a_dest : Over aP 2 destP 2) (o_b_dest : Over bP 2 destP 2) :
    C.glm_vec2_mul.run mem [aP.val, bP.val, destP.val] =
      some (none, writes mem [(destP, (Cglm.glm_vec2_mul a b).list.map .f)]) :=
  transferO (e := Lib.glm_vec2_mul) (up := false) (by kernel_rfl) ((((RO.nil false _).addP r_dest.has r_dest .nil .nil).addO h_b.has (.cons o_b_dest .nil)).addO h_a.has (.skip (.cons o_a_dest .nil))) (.p rfl (.p rfl (.p rfl .nil))) (glm_vec2_mul_run _ _) (DT.val_done _) rfl rfl rfl
example (a : V2 α) (b : V2 α) : let mem : Mem α := [⟨true, .undef :: a.list.map .f⟩, ⟨false, b.list.map .f⟩]
    Holds mem (0, 1) a.list ∧ Holds mem (1, 0) b.list ∧ Room mem (0, 0) 2 ∧ Over (0, 1) 2 (0, 0) 2 ∧ Over (1, 0) 2 (0, 0) 2 :=
  ⟨.within rfl rfl, .within rfl rfl, .within rfl rfl, Or.inl (by decide), Or.inl (by decide)⟩

theorem C98_vec2_scale {mem : Mem α} {vP destP : Ptr} {v : V2 α} (s : α) (h_v : Holds mem vP v.list) (r_dest : Room mem destP 2) (o_v_dest : Over vP 2 destP 2) :
    C.glm_vec2_scale.run mem [vP.val, .f s, destP.val] =
      some (none, writes mem [(destP, (Cglm.glm_vec2_scale v s).list.map .f)]) :=
  transferO (e := Lib.glm_vec2_scale) (up := false) (by kernel_rfl) (((RO.nil false _).addP r_dest.has r_dest .nil .nil).addO h_v.has (.cons o_v_dest .nil)) (.p rfl (.f (.p rfl .nil))) (glm_vec2_scale_run _ _) (DT.val_done _) rfl rfl rfl
example (v : V2 α) : let mem : Mem α := [⟨true, .undef :: v.list.map .f⟩]
    Holds mem (0, 1) v.list ∧ Room mem (0, 0) 2 ∧ Over (0, 1) 2 (0, 0) 2 :=
  ⟨.within rfl rfl, .within rfl rfl, Or.inl (by decide)⟩

theorem C98_vec2_scale_as {mem : Mem α} {vP destP : Ptr} {v : V2 α} (s : α) (h_v : Holds mem vP v.list) (r_dest : Room mem destP 2) (o_v_dest : Over vP 2 destP 2) :
    C.glm_vec2_scale_as.run mem [vP.val, .f s, destP.val] =
      some (none, writes mem [(destP, (Cglm.glm_vec2_scale_as v s).list.map .f)]) :=
  transferO (e := Lib.glm_vec2_scale_as) (up := false) (by kernel_rfl) (((RO.nil false _).addP r_dest.has r_dest .nil .nil).addO h_v.has (.cons o_v_dest .nil)) (.p rfl (.f (.p rfl .nil))) (glm_vec2_scale_as_run _ _) (DT.val_map_eq (glm_vec2_scale_as_dt_val _ _) rfl) rfl rfl rfl
example (v : V2 α) : let mem : Mem α := [⟨true, .undef :: v.list.map .f⟩]
    Holds mem (0, 1) v.list ∧ Room mem (0, 0) 2 ∧ Over (0, 1) 2 (0, 0) 2 :=
  ⟨.within rfl rfl, .within rfl rfl, Or.inl (by decide)⟩

theorem C98_vec2_div {mem : Mem α} {aP bP destP : Ptr} {a : V2 α} {b : V2 α} (h_a : Holds mem aP a.list) (h_b : Holds mem bP b.list) (r_dest : Room mem destP 2) (o_a_dest : Over aP 2 destP 2) (o_b_dest : Over bP 2 destP 2) :
    C.glm_vec2_div.run mem [aP.val, bP.val, destP.val] =
      some (none, writes mem [(destP, (Cglm.glm_vec2_div a b).list.map .f)]) :=
  transferO (e := Lib.glm_vec2_div) (up := false) (by kernel_rfl) ((((RO.nil false _).addP r_dest.has r_dest .nil .nil).addO h_b.has (.cons o_b_dest .nil)).addO h_a.has (.skip (.cons o_a_dest .nil))) (.p rfl (.p rfl (.p rfl .nil))) (glm_vec2_div_run _ _) (DT.val_done _) rfl rfl rfl
example (a : V2 α) (b : V2 α) : let mem : Mem α := [⟨true, .undef :: a.list.map .f⟩, ⟨false, b.list.map .f⟩]
    Holds mem (0, 1) a.list ∧ Holds mem (1, 0) b.list ∧ Room mem (0, 0) 2 ∧ Over (0, 1) 2 (0, 0) 2 ∧ Over (1, 0) 2 (0, 0) 2 :=
  ⟨.within rfl rfl, .within rfl rfl, .within rfl rfl, Or.inl (by decide), Or.inl (by decide)⟩

theorem C98_vec2_divs {mem : Mem α} {vP destP : Ptr} {v : V2 α} (s : α) (h_v : Holds mem vP v.list) (r_dest : Room mem destP 2) (o_v_dest : Over vP 2 destP 2) :
    C.glm_vec2_divs.run mem [vP.val, .f s, destP.val] =
      some (none, writes mem [(destP, (Cglm.glm_vec2_divs v s).list.map .f)]) :=
  transferO (e := Lib.glm_vec2_divs) (up := false) (by kernel_rfl) (((RO.nil false _).addP r_dest.has r_dest .nil .nil).addO h_v.has (.cons o_v_dest .nil)) (.p rfl (.f (.p rfl .nil))) (glm_vec2_divs_run _ _) (DT.val_done _) rfl rfl rfl
example (v : V2 α) : let mem : Mem α := [⟨true, .undef :: v.list.map .f⟩]
    Holds mem (0, 1) v.list ∧ Room mem (0, 0) 2 ∧ Over (0, 1) 2 (0, 0) 2 :=
  ⟨.within rfl rfl, .within rfl rfl, Or.inl (by decide)⟩

theorem C98_vec2_addadd {mem : Mem α} {aP bP destP : Ptr} {a : V2 α} {b : V2 α} {dest : V2 α} (h_a : Holds mem aP a.list) (h_b : Holds mem bP b.list) (h_dest : Holds mem destP dest.list) (r_dest : Room mem destP 2) (o_a_dest : Over aP 2 destP 2) (o_b_dest : Over bP 2 destP 2) :
    C.glm_vec2_addadd.run mem [aP.val, bP.val, destP.val] =
      some (none, writes mem [(destP, (Cglm.glm_vec2_addadd a b dest).list.map .f)]) :=
  transferO (e := Lib.glm_vec2_addadd) (up := false) (by kernel_rfl) ((((RO.nil false _).addP h_dest.has r_dest .nil .nil).addO h_b.has (.cons o_b_dest .nil)).addO h_a.has (.skip (.cons o_a_dest .nil))) (.p rfl (.p rfl (.p rfl .nil))) (glm_vec2_addadd_run _ _ _) (DT.val_done _) rfl rfl rfl
example (t : α) (b : V2 α) (dest : V2 α) : let mem : Mem α := [⟨true, dest.list.map .f ++ List.replicate 1 (.f t)⟩, ⟨false, b.list.map .f⟩]
    Holds mem (0, 1) (⟨dest.y, t⟩ : V2 α).list ∧ Holds mem (1, 0) b.list ∧ Room mem (0, 0) 2 ∧ Holds mem (0, 0) dest.list ∧ Over (0, 1) 2 (0, 0) 2 ∧ Over (1, 0) 2 (0, 0) 2 :=
  ⟨.within rfl rfl, .within rfl rfl, .within rfl rfl, .within rfl rfl, Or.inl (by decide), Or.inl (by decide)⟩

theorem C98_vec2_subadd {mem : Mem α} {aP bP destP : Ptr} {a : V2 α} {b : V2 α} {dest : V2 α} (h_a : Holds mem aP a.list) (h_b : Holds mem bP b.list) (h_dest : Holds mem destP dest.list) (r_dest : Room mem destP 2) (o_a_dest : Over aP 2 destP 2) (o_b_dest : Over bP 2 destP 2) :
    C.glm_vec2_subadd.run mem [aP.val, bP.val, destP.val] =
      some (none, writes mem [(destP, (Cglm.glm_vec2_subadd a b dest).list.map .f)]) :=
  transferO (e := Lib.glm_vec2_subadd) (up := false) (by kernel_rfl) ((((RO.nil false _).addP h_dest.has r_dest .nil .nil).addO h_b.has (.cons o_b_dest .nil)).addO h_a.has (.skip (.cons o_a_dest .nil))) (.p rfl (.p rfl (.p rfl .nil))) (glm_vec2_subadd_run _ _ _) (DT.val_done _) rfl rfl rfl
example (t : α) (b : V2 α) (dest : V2 α) : let mem : Mem α := [⟨true, dest.list.map .f ++ List.replicate 1 (.f t)⟩, ⟨false, b.list.map .f⟩]
    Holds mem (0, 1) (⟨dest.y, t⟩ : V2 α).list ∧ Holds mem (1, 0) b.list ∧ Room mem (0, 0) 2 ∧ Holds mem (0, 0) dest.list ∧ Over (0, 1) 2 (0, 0) 2 ∧ Over (1, 0) 2 (0, 0) 2 :=
  ⟨.within rfl rfl, .within rfl rfl, .within rfl rfl, .within rfl rfl, Or.inl (by decide), Or.inl (by decide)⟩

theorem C98_vec2_muladd {mem : Mem α} {aP bP destP : Ptr} {a : V2 α} {b : V2 α} {dest : V2 α} (h_a : Holds mem aP a.list) (h_b : Holds mem bP b.list) (h_dest : Holds mem destP dest.list) (r_dest : Room mem destP 2) (o_a_dest : Over aP 2 destP 2) (o_b_dest : Over bP 2 destP 2) :
    C.glm_vec2_muladd.run mem [aP.val, bP.val, destP.val] =
      some (none, writes mem [(destP, (Cglm.glm_vec2_muladd a b dest).list.map .f)]) :=
  transferO (e := Lib.glm_vec2_muladd) (up := false) (by kernel_rfl) ((((RO.nil false _).addP h_dest.has r_dest .nil .nil).addO h_b.has (.cons o_b_dest .nil)).addO h_a.has (.skip (.cons o_a_dest .nil))) (.p rfl (.p rfl (.p rfl .nil))) (glm_vec2_muladd_run _ _ _) (DT.val_done _) rfl rfl rfl
example (t : α) (b : V2 α) (dest : V2 α) : let mem : Mem α := [⟨true, dest.list.map .f ++ List.replicate 1 (.f t)⟩, ⟨false, b.list.map .f⟩]
    Holds mem (0, 1) (⟨dest.y, t⟩ : V2 α).list ∧ Holds mem (1, 0) b.list ∧ Room mem (0, 0) 2 ∧ Holds mem (0, 0) dest.list ∧ Over (0, 1) 2 (0, 0) 2 ∧ Over (1, 0) 2 (0, 0) 2 :=
  ⟨.within rfl rfl, .within rfl rfl, .within rfl rfl, .within rfl rfl, Or.inl (by decide), Or.inl (by decide)⟩

theorem C98_vec2_muladds {mem : Mem α} {aP destP : Ptr} {a : V2 α} (s : α) {dest : V2 α} (h_a : Holds mem aP a.list) (h_dest : Holds mem destP dest.list) (r_dest : Room mem destP 2) (o_a_dest : Over aP 2 destP 2) :
    C.glm_vec2_muladds.run mem [aP.val, .f s, destP.val] =
      some (none, writes mem [(destP, (Cglm.glm_vec2_muladds a s dest).list.map .f)]) :=
  transferO (e := Lib.glm_vec2_muladds) (up := false) (by kernel_rfl) (((RO.nil false _).addP h_dest.has r_dest .nil .nil).addO h_a.has (.cons o_a_dest .nil)) (.p rfl (.f (.p rfl .nil))) (glm_vec2_muladds_run _ _ _) (DT.val_done _) rfl rfl rfl
example (t : α) (dest : V2 α) : let mem : Mem α := [⟨true, dest.list.map .f ++ List.replicate 1 (.f t)⟩]
    Holds mem (0, 1) (⟨dest.y, t⟩ : V2 α).list ∧ Room mem (0, 0) 2 ∧ Holds mem (0, 0) dest.list ∧ Over (0, 1) 2 (0, 0) 2 :=
  ⟨.within rfl rfl, .within rfl rfl, .within rfl rfl, Or.inl (by decide)⟩

theorem C98_vec2_maxadd {mem : Mem α} {aP bP destP : Ptr} {a : V2 α} {b : V2 α} {dest : V2 α} (h_a : Holds mem aP a.list) (h_b : Holds mem bP b.list) (h_dest : Holds mem destP dest.list) (r_dest : Room mem destP 2) (o_a_dest : Over aP 2 destP 2) (o_b_dest : Over bP 2 destP 2) :
    C.glm_vec2_maxadd.run mem [aP.val, bP.val, destP.val] =
      some (none, writes mem [(destP, (Cglm.glm_vec2_maxadd a b dest).list.map .f)]) :=
  transferO (e := Lib.glm_vec2_maxadd) (up := false) (by kernel_rfl) ((((RO.nil false _).addP h_dest.has r_dest .nil .nil).addO h_b.has (.cons o_b_dest .nil)).addO h_a.has (.skip (.cons o_a_dest .nil))) (.p rfl (.p rfl (.p rfl .nil))) (glm_vec2_maxadd_run _ _ _) (DT.val_done _) rfl rfl rfl
example (t : α) (b : V2 α) (dest : V2 α) : let mem : Mem α := [⟨true, dest.list.map .f ++ List.replicate 1 (.f t)⟩, ⟨false, b.list.map .f⟩]
    Holds mem (0, 1) (⟨dest.y, t⟩ : V2 α).list ∧ Holds mem (1, 0) b.list ∧ Room mem (0, 0) 2 ∧ Holds mem (0, 0) dest.list ∧ Over (0, 1) 2 (0, 0) 2 ∧ Over (1, 0) 2 (0, 0) 2 :=
  ⟨.within rfl rfl, .within rfl rfl, .within rfl rfl, .within rfl rfl, Or.inl (by decide), Or.inl (by decide)⟩

theorem C98_vec2_minadd {mem : Mem α} {aP bP destP : Ptr} {a : V2 α} {b : V2 α} {dest : V2 α} (h_a : Holds mem aP a.list) (h_b : Holds mem bP b.list) (h_dest : Holds mem destP dest.list) (r_dest : Room mem destP 2) (o_a_dest : Over aP 2 destP 2) (o_b_dest : Over bP 2 destP 2) :
    C.glm_vec2_minadd.run mem [aP.val, bP.val, destP.val] =
      some (none, writes mem [(destP, (Cglm.glm_vec2_minadd a b dest).list.map .f)]) :=
  transferO (e := Lib.glm_vec2_minadd) (up := false) (by kernel_rfl) ((((RO.nil false _).addP h_dest.has r_dest .nil .nil).addO h_b.has (.cons o_b_dest .nil)).addO h_a.has (.skip (.cons o_a_dest .nil))) (.p rfl (.p rfl (.p rfl .nil))) (glm_vec2_minadd_run _ _ _) (DT.val_done _) rfl rfl rfl
example (t : α) (b : V2 α) (dest : V2 α) : let mem : Mem α := [⟨true, dest.list.map .f ++ List.replicate 1 (.f t)⟩, ⟨false, b.list.map .f⟩]
    Holds mem (0, 1) (⟨dest.y, t⟩ : V2 α).list ∧ Holds mem (1, 0) b.list ∧ Room mem (0, 0) 2 ∧ Holds mem (0, 0) dest.list ∧ Over (0, 1) 2 (0, 0) 2 ∧ Over (1, 0) 2 (0, 0) 2 :=
  ⟨.within rfl rfl, .within rfl rfl, .within rfl rfl, .within rfl rfl, Or.inl (by decide), Or.inl (by decide)⟩

theorem C98_vec2_subsub {mem : Mem α} {aP bP destP : Ptr} {a : V2 α} {b : V2 α} {dest : V2 α} (h_a : Holds mem aP a.list) (h_b : Holds mem bP b.list) (h_dest : Holds mem destP dest.list) (r_dest : Room mem destP 2) (o_a_dest : Over aP 2 destP 2) (o_b_dest : Over bP 2 destP 2) :
    C.glm_vec2_subsub.run mem [aP.val, bP.val, destP.val] =
      some (none, writes mem [(destP, (Cglm.glm_vec2_subsub a b dest).list.map .f)]) :=
  transferO (e := Lib.glm_vec2_subsub) (up := false) (by kernel_rfl) ((((RO.nil false _).addP h_dest.has r_dest .nil .nil).addO h_b.has (.cons o_b_dest .nil)).addO h_a.has (.skip (.cons o_a_dest .nil))) (.p rfl (.p rfl (.p rfl .nil))) (glm_vec2_subsub_run _ _ _) (DT.val_done _) rfl rfl rfl
example (t : α) (b : V2 α) (dest : V2 α) : let mem : Mem α := [⟨true, dest.list.map .f ++ List.replicate 1 (.f t)⟩, ⟨false, b.list.map .f⟩]
    Holds mem (0, 1) (⟨dest.y, t⟩ : V2 α).list ∧ Holds mem (1, 0) b.list ∧ Room mem (0, 0) 2 ∧ Holds mem (0, 0) dest.list ∧ Over (0, 1) 2 (0, 0) 2 ∧ Over (1, 0) 2 (0, 0) 2 :=
  ⟨.within rfl rfl, .within rfl rfl, .within rfl rfl, .within rfl rfl, Or.inl (by decide), Or.inl (by decide)⟩

theorem C98_vec2_addsub {mem : Mem α} {aP bP destP : Ptr} {a : V2 α} {b : V2 α} {dest : V2 α} (h_a : Holds mem aP a.list) (h_b : Holds mem bP b.list) (h_dest : Holds mem destP dest.list) (r_dest : Room mem destP 2) (o_a_dest : Over aP 2 destP 2) (o_b_dest : Over bP 2 destP 2) :
    C.glm_vec2_addsub.run mem [aP.val, bP.val, destP.val] =
      some (none, writes mem [(destP, (Cglm.glm_vec2_addsub a b dest).list.map .f)]) :=
  transferO (e := Lib.glm_vec2_addsub) (up := false) (by kernel_rfl) ((((RO.nil false _).addP h_dest.has r_dest .nil .nil).addO h_b.has (.cons o_b_dest .nil)).addO h_a.has (.skip (.cons o_a_dest .nil))) (.p rfl (.p rfl (.p rfl .nil))) (glm_vec2_addsub_run _ _ _) (DT.val_done _) rfl rfl rfl
example (t : α) (b : V2 α) (dest : V2 α) : let mem : Mem α := [⟨true, dest.list.map .f ++ List.replicate 1 (.f t)⟩, ⟨false, b.list.map .f⟩]
    Holds mem (0, 1) (⟨dest.y, t⟩ : V2 α).list ∧ Holds mem (1, 0) b.list ∧ Room mem (0, 0) 2 ∧ Holds mem (0, 0) dest.list ∧ Over (0, 1) 2 (0, 0) 2 ∧ Over (1, 0) 2 (0, 0) 2 :=
  ⟨.within rfl rfl, .within rfl rfl, .within rfl rfl, .within rfl rfl, Or.inl (by decide), Or.inl (by decide)⟩

theorem C98_vec2_mulsub {mem : Mem α} {aP bP destP : Ptr} {a : V2 α} {b : V2 α} {dest : V2 α} (h_a : Holds mem aP a.list) (h_b : Holds mem bP b.list) (h_dest : Holds mem destP dest.list) (r_dest : Room mem destP 2) (o_a_dest : Over aP 2 destP 2) (o_b_dest : Over bP 2 destP 2) :
    C.glm_vec2_mulsub.run mem [aP.val, bP.val, destP.val] =
      some (none, writes mem [(destP, (Cglm.glm_vec2_mulsub a b dest).list.map .f)]) :=
  transferO (e := Lib.glm_vec2_mulsub) (up := false) (by kernel_rfl) ((((RO.nil false _).addP h_dest.has r_dest .nil .nil).addO h_b.has (.cons o_b_dest .nil)).addO h_a.has (.skip (.cons o_a_dest .nil))) (.p rfl (.p rfl (.p rfl .nil))) (glm_vec2_mulsub_run _ _ _) (DT.val_done _) rfl rfl rfl
example (t : α) (b : V2 α) (dest : V2 α) : let mem : Mem α := [⟨true, dest.list.map .f ++ List.replicate 1 (.f t)⟩, ⟨false, b.list.map .f⟩]
    Holds mem (0, 1) (⟨dest.y, t⟩ : V2 α).list ∧ Holds mem (1, 0) b.list ∧ Room mem (0, 0) 2 ∧ Holds mem (0, 0) dest.list ∧ Over (0, 1) 2 (0, 0) 2 ∧ Over (1, 0) 2 (0, 0) 2 :=
  ⟨.within rfl rfl, .within rfl rfl, .within rfl rfl, .within rfl rfl, Or.inl (by decide), Or.inl (by decide)⟩

theorem C98_vec2_mulsubs {mem : Mem α} {aP destP : Ptr} {a : V2 α} (s : α) {dest : V2 α} (h_a : Holds mem aP a.list) (h_dest : Holds mem destP dest.list) (r_dest : Room mem destP 2) (o_a_dest : Over aP 2 destP 2) :
    C.glm_vec2_mulsubs.run mem [aP.val, .f s, destP.val] =
      some (none, writes mem [(destP, (Cglm.glm_vec2_mulsubs a s dest).list.map .f)]) :=
  transferO (e := Lib.glm_vec2_mulsubs) (up := false) (by kernel_rfl) (((RO.nil false _).addP h_dest.has r_dest .nil .nil).addO h_a.has (.cons o_a_dest .nil)) (.p rfl (.f (.p rfl .nil))) (glm_vec2_mulsubs_run _ _ _) (DT.val_done _) rfl rfl rfl
example (t : α) (dest : V2 α) : let mem : Mem α := [⟨true, dest.list.map .f ++ List.replicate 1 (.f t)⟩]
    Holds mem (0, 1) (⟨dest.y, t⟩ : V2 α).list ∧ Room mem (0, 0) 2 ∧ Holds mem (0, 0) dest.list ∧ Over (0, 1) 2 (0, 0) 2 :=
  ⟨.within rfl rfl, .within rfl rfl, .within rfl rfl, Or.inl (by decide)⟩

theorem C98_vec2_maxsub {mem : Mem α} {aP bP destP : Ptr} {a : V2 α} {b : V2 α} {dest : V2 α} (h_a : Holds mem aP a.list) (h_b : Holds mem bP b.list) (h_dest : Holds mem destP dest.list) (r_dest : Room mem destP 2) (o_a_dest : Over aP 2 destP 2) (o_b_dest : Over bP 2 destP 2) :
    C.glm_vec2_maxsub.run mem [aP.val, bP.val, destP.val] =
      some (none, writes mem [(destP, (Cglm.glm_vec2_maxsub a b dest).list.map .f)]) :=
  transferO (e := Lib.glm_vec2_maxsub) (up := false) (by kernel_rfl) ((((RO.nil false _).addP h_dest.has r_dest .nil .nil).addO h_b.has (.cons o_b_dest .nil)).addO h_a.has (.skip (.cons o_a_dest .nil))) (.p rfl (.p rfl (.p rfl .nil))) (glm_vec2_maxsub_run _ _ _) (DT.val_done _) rfl rfl rfl
example (t : α) (b : V2 α) (dest : V2 α) : let mem : Mem α := [⟨true, dest.list.map .f ++ List.replicate 1 (.f t)⟩, ⟨false, b.list.map .f⟩]
    Holds mem (0, 1) (⟨dest.y, t⟩ : V2 α).list ∧ Holds mem (1, 0) b.list ∧ Room mem (0, 0) 2 ∧ Holds mem (0, 0) dest.list ∧ Over (0, 1) 2 (0, 0) 2 ∧ Over (1, 0) 2 (0, 0) 2 :=
  ⟨.within rfl rfl, .within rfl rfl, .within rfl rfl, .within rfl rfl, Or.inl (by decide), Or.inl (by decide)⟩

theorem C98_vec2_minsub {mem : Mem α} {aP bP destP : Ptr} {a : V2 α} {b : V2 α} {dest : V2 α} (h_a : Holds mem aP a.list) (h_b : Holds mem bP b.list) (h_dest : Holds mem destP dest.list) (r_dest : Room mem destP 2) (o_a_dest : Over aP 2 destP 2) (o_b_dest : Over bP 2 destP 2) :
    C.glm_vec2_minsub.run mem [aP.val, bP.val, destP.val] =
      some (none, writes mem [(destP, (Cglm.glm_vec2_minsub a b dest).list.map .f)]) :=
  transferO (e := Lib.glm_vec2_minsub) (up := false) (by kernel_rfl) ((((RO.nil false _).addP h_dest.has r_dest .nil .nil).addO h_b.has (.cons o_b_dest .nil)).addO h_a.has (.skip (.cons o_a_dest .nil))) (.p rfl (.p rfl (.p rfl .nil))) (glm_vec2_minsub_run _ _ _) (DT.val_done _) rfl rfl rfl
example (t : α) (b : V2 α) (dest : V2 α) : let mem : Mem α := [⟨true, dest.list.map .f ++ List.replicate 1 (.f t)⟩, ⟨false, b.list.map .f⟩]
    Holds mem (0, 1) (⟨dest.y, t⟩ : V2 α).list ∧ Holds mem (1, 0) b.list ∧ Room mem (0, 0) 2 ∧ Holds mem (0, 0) dest.list ∧ Over (0, 1) 2 (0, 0) 2 ∧ Over (1, 0) 2 (0, 0) 2 :=
  ⟨.within rfl rfl, .within rfl rfl, .within rfl rfl, .within rfl rfl, Or.inl (by decide), Or.inl (by decide)⟩

theorem C98_vec2_negate_to {mem : Mem α} {vP destP : Ptr} {v : V2 α} (h_v : Holds mem vP v.list) (r_dest : Room mem destP 2) (o_v_dest : Over vP 2 destP 2) :
    C.glm_vec2_negate_to.run mem [vP.val, destP.val] =
      some (none, writes mem [(destP, (Cglm.glm_vec2_negate_to v).list.map .f)]) :=
  transferO (e := Lib.glm_vec2_negate_to) (up := false) (by kernel_rfl) (((RO.nil false _).addP r_dest.has r_dest .nil .nil).addO h_v.has (.cons o_v_dest .nil)) (.p rfl (.p rfl .nil)) (glm_vec2_negate_to_run _) (DT.val_done _) rfl rfl rfl
example (v : V2 α) : let mem : Mem α := [⟨true, .undef :: v.list.map .f⟩]
    Holds mem (0, 1) v.list ∧ Room mem (0, 0) 2 ∧ Over (0, 1) 2 (0, 0) 2 :=
  ⟨.within rfl rfl, .within rfl rfl, Or.inl (by decide)⟩

theorem C98_vec2_normalize_to {mem : Mem α} {vP destP : Ptr} {v : V2 α} (h_v : Holds mem vP v.list) (r_dest : Room mem destP 2) (o_v_dest : Over vP 2 destP 2) :
    C.glm_vec2_normalize_to.run mem [vP.val, destP.val] =
      some (none, writes mem [(destP, (Cglm.glm_vec2_normalize_to v).list.map .f)]) :=
  transferO (e := Lib.glm_vec2_normalize_to) (up := false) (by kernel_rfl) (((RO.nil false _).addP r_dest.has r_dest .nil .nil).addO h_v.has (.cons o_v_dest .nil)) (.p rfl (.p rfl .nil)) (glm_vec2_normalize_to_run _) (DT.val_map_eq (glm_vec2_normalize_to_dt_val _) rfl) rfl rfl rfl
example (v : V2 α) : let mem : Mem α := [⟨true, .undef :: v.list.map .f⟩]
    Holds mem (0, 1) v.list ∧ Room mem (0, 0) 2 ∧ Over (0, 1) 2 (0, 0) 2 :=
  ⟨.within rfl rfl, .within rfl rfl, Or.inl (by decide)⟩

theorem C98_vec2_rotate {mem : Mem α} {vP destP : Ptr} {v : V2 α} (angle : α) (h_v : Holds mem vP v.list) (r_dest : Room mem destP 2) :
    C.glm_vec2_rotate.run mem [vP.val, .f angle, destP.val] =
      some (none, writes mem [(destP, (Cglm.glm_vec2_rotate v angle).list.map .f)]) :=
  transferO (e := Lib.glm_vec2_rotate) (up := true) (by kernel_rfl) (((RO.nil true _).addW r_dest.has r_dest .nil).addR h_v.has) (.p rfl (.f (.p rfl .nil))) (glm_vec2_rotate_run _ _) (DT.val_done _) rfl rfl rfl
example (v : V2 α) : let mem : Mem α := [⟨true, v.list.map .f ++ List.replicate 2 .undef⟩]
    Holds mem (0, 0) v.list ∧ Room mem (0, 1) 2 :=
  ⟨.within rfl rfl, .within rfl rfl⟩

theorem C98_vec2_center {mem : Mem α} {aP bP destP : Ptr} {a : V2 α} {b : V2 α} (h_a : Holds mem aP a.list) (h_b : Holds mem bP b.list) (r_dest : Room mem destP 2) (o_a_dest : Over aP 2 destP 2) (o_b_dest : Over bP 2 destP 2) :
    C.glm_vec2_center.run mem [aP.val, bP.val, destP.val] =
      some (none, writes mem [(destP, (Cglm.glm_vec2_center a b).list.map .f)]) :=
  transferO (e := Lib.glm_vec2_center) (up := false) (by kernel_rfl) ((((RO.nil false _).addP r_dest.has r_dest .nil .nil).addO h_b.has (.cons o_b_dest .nil)).addO h_a.has (.skip (.cons o_a_dest .nil))) (.p rfl (.p rfl (.p rfl .nil))) (glm_vec2_center_run _ _) (DT.val_done _) rfl rfl rfl
example (a : V2 α) (b : V2 α) : let mem : Mem α := [⟨true, .undef :: a.list.map .f⟩, ⟨false, b.list.map .f⟩]
    Holds mem (0, 1) a.list ∧ Holds mem (1, 0) b.list ∧ Room mem (0, 0) 2 ∧ Over (0, 1) 2 (0, 0) 2 ∧ Over (1, 0) 2 (0, 0) 2 :=
  ⟨.within rfl rfl, .within rfl rfl, .within rfl rfl, Or.inl (by decide), Or.inl (by decide)⟩

theorem C98_vec2_maxv {mem : Mem α} {aP bP destP : Ptr} {a : V2 α} {b : V2 α} (h_a : Holds mem aP a.list) (h_b : Holds mem bP b.list) (r_dest : Room mem destP 2) (o_a_dest : Over aP 2 destP 2) (o_b_dest : Over bP 2 destP 2) :
    C.glm_vec2_maxv.run mem [aP.val, bP.val, destP.val] =
      some (none, writes mem [(destP, (Cglm.glm_vec2_maxv a b).list.map .f)]) :=
  transferO (e := Lib.glm_vec2_maxv) (up := false) (by kernel_rfl) ((((RO.nil false _).addP r_dest.has r_dest .nil .nil).addO h_b.has (.cons o_b_dest .nil)).addO h_a.has (.skip (.cons o_a_dest .nil))) (.p rfl (.p rfl (.p rfl .nil))) (glm_vec2_maxv_run _ _) (DT.val_done _) rfl rfl rfl
example (a : V2 α) (b : V2 α) : let mem : Mem α := [⟨true, .undef :: a.list.map .f⟩, ⟨false, b.list.map .f⟩]
    Holds mem (0, 1) a.list ∧ Holds mem (1, 0) b.list ∧ Room mem (0, 0) 2 ∧ Over (0, 1) 2 (0, 0) 2 ∧ Over (1, 0) 2 (0, 0) 2 :=
  ⟨.within rfl rfl, .within rfl rfl, .within rfl rfl, Or.inl (by decide), Or.inl (by decide)⟩

theorem C98_vec2_minv {mem : Mem α} {aP bP destP : Ptr} {a : V2 α} {b : V2 α} (h_a : Holds mem aP a.list) (h_b : Holds mem bP b.list) (r_dest : Room mem destP 2) (o_a_dest : Over aP 2 destP 2) (o_b_dest : Over bP 2 destP 2) :
    C.glm_vec2_minv.run mem [aP.val, bP.val, destP.val] =
      some (none, writes mem [(destP, (Cglm.glm_vec2_minv a b).list.map .f)]) :=
  transferO (e := Lib.glm_vec2_minv) (up := false) (by kernel_rfl) ((((RO.nil false _).addP r_dest.has r_dest .nil .nil).addO h_b.has (.cons o_b_dest .nil)).addO h_a.has (.skip (.cons o_a_dest .nil))) (.p rfl (.p rfl (.p rfl .nil))) (glm_vec2_minv_run _ _) (DT.val_done _) rfl rfl rfl
example (a : V2 α) (b : V2 α) : let mem : Mem α := [⟨true, .undef :: a.list.map .f⟩, ⟨false, b.list.map .f⟩]
    Holds mem (0, 1) a.list ∧ Holds mem (1, 0) b.list ∧ Room mem (0, 0) 2 ∧ Over (0, 1) 2 (0, 0) 2 ∧ Over (1, 0) 2 (0, 0) 2 :=
  ⟨.within rfl rfl, .within rfl rfl, .within rfl rfl, Or.inl (by decide), Or.inl (by decide)⟩

theorem C98_vec2_lerp {mem : Mem α} {frmP toP destP : Ptr} {frm : V2 α} {«to» : V2 α} (t : α) (h_frm : Holds mem frmP frm.list) (h_to : Holds mem toP «to».list) (r_dest : Room mem destP 2) (o_frm_dest : Over frmP 2 destP 2) (o_to_dest : Over toP 2 destP 2) :
    C.glm_vec2_lerp.run mem [frmP.val, toP.val, .f t, destP.val] =
      some (none, writes mem [(destP, (Cglm.glm_vec2_lerp frm «to» t).list.map .f)]) :=
  transferO (e := Lib.glm_vec2_lerp) (up := false) (by kernel_rfl) ((((RO.nil false _).addP r_dest.has r_dest .nil .nil).addO h_to.has (.cons o_to_dest .nil)).addO h_frm.has (.skip (.cons o_frm_dest .nil))) (.p rfl (.p rfl (.f (.p rfl .nil)))) (glm_vec2_lerp_run _ _ _) (DT.val_done _) rfl rfl rfl
example (frm : V2 α) («to» : V2 α) : let mem : Mem α := [⟨true, .undef :: frm.list.map .f⟩, ⟨false, «to».list.map .f⟩]
    Holds mem (0, 1) frm.list ∧ Holds mem (1, 0) «to».list ∧ Room mem (0, 0) 2 ∧ Over (0, 1) 2 (0, 0) 2 ∧ Over (1, 0) 2 (0, 0) 2 :=
  ⟨.within rfl rfl, .within rfl rfl, .within rfl rfl, Or.inl (by decide), Or.inl (by decide)⟩

theorem C98_vec2_step {mem : Mem α} {edgeP xP destP : Ptr} {edge : V2 α} {x : V2 α} (h_edge : Holds mem edgeP edge.list) (h_x : Holds mem xP x.list) (r_dest : Room mem destP 2) (o_edge_dest : Over edgeP 2 destP 2) (o_x_dest : Over xP 2 destP 2) :
    C.glm_vec2_step.run mem [edgeP.val, xP.val, destP.val] =
      some (none, writes mem [(destP, (Cglm.glm_vec2_step edge x).list.map .f)]) :=
  transferO (e := Lib.glm_vec2_step) (up := false) (by kernel_rfl) ((((RO.nil false _).addP r_dest.has r_dest .nil .nil).addO h_x.has (.cons o_x_dest .nil)).addO h_edge.has (.skip (.cons o_edge_dest .nil))) (.p rfl (.p rfl (.p rfl .nil))) (glm_vec2_step_run _ _) (DT.val_done _) rfl rfl rfl
example (edge : V2 α) (x : V2 α) : let mem : Mem α := [⟨true, .undef :: edge.list.map .f⟩, ⟨false, x.list.map .f⟩]
    Holds mem (0, 1) edge.list ∧ Holds mem (1, 0) x.list ∧ Room mem (0, 0) 2 ∧ Over (0, 1) 2 (0, 0) 2 ∧ Over (1, 0) 2 (0, 0) 2 :=
  ⟨.within rfl rfl, .within rfl rfl, .within rfl rfl, Or.inl (by decide), Or.inl (by decide)⟩

theorem C98_vec2_make {mem : Mem α} {srcP destP : Ptr} {src : V2 α} (h_src : Holds mem srcP src.list) (r_dest : Room mem destP 2) (o_src_dest : Over srcP 2 destP 2) :
    C.glm_vec2_make.run mem [srcP.val, destP.val] =
      some (none, writes mem [(destP, (Cglm.glm_vec2_make src).list.map .f)]) :=
  transferO (e := Lib.glm_vec2_make) (up := false) (by kernel_rfl) (((RO.nil false _).addP r_dest.has r_dest .nil .nil).addO h_src.has (.cons o_src_dest .nil)) (.p rfl (.p rfl .nil)) (glm_vec2_make_run _) (DT.val_done _) rfl rfl rfl
example (src : V2 α) : let mem : Mem α := [⟨true, .undef :: src.list.map .f⟩]
    Holds mem (0, 1) src.list ∧ Room mem (0, 0) 2 ∧ Over (0, 1) 2 (0, 0) 2 :=
  ⟨.within rfl rfl, .within rfl rfl, Or.inl (by decide)⟩

theorem C98_vec2_reflect {mem : Mem α} {vP nP destP : Ptr} {v : V2 α} {n : V2 α} (h_v : Holds mem vP v.list) (h_n : Holds mem nP n.list) (r_dest : Room mem destP 2) (o_v_dest : Over vP 2 destP 2) (o_n_dest : Over nP 2 destP 2) :
    C.glm_vec2_reflect.run mem [vP.val, nP.val, destP.val] =
      some (none, writes mem [(destP, (Cglm.glm_vec2_reflect v n).list.map .f)]) :=
  transferO (e := Lib.glm_vec2_reflect) (up := false) (by kernel_rfl) ((((RO.nil false _).addP r_dest.has r_dest .nil .nil).addO h_n.has (.cons o_n_dest .nil)).addO h_v.has (.skip (.cons o_v_dest .nil))) (.p rfl (.p rfl (.p rfl .nil))) (glm_vec2_reflect_run _ _) (DT.val_done _) rfl rfl rfl
example (v : V2 α) (n : V2 α) : let mem : Mem α := [⟨true, .undef :: v.list.map .f⟩, ⟨false, n.list.map .f⟩]
    Holds mem (0, 1) v.list ∧ Holds mem (1, 0) n.list ∧ Room mem (0, 0) 2 ∧ Over (0, 1) 2 (0, 0) 2 ∧ Over (1, 0) 2 (0, 0) 2 :=
  ⟨.within rfl rfl, .within rfl rfl, .within rfl rfl, Or.inl (by decide), Or.inl (by decide)⟩

theorem C98_vec3_sign {mem : Mem α} {vP destP : Ptr} {v : V3 α} (h_v : Holds mem vP v.list) (r_dest : Room mem destP 3) (o_v_dest : Over vP 3 destP 3) :
    C.glm_vec3_sign.run mem [vP.val, destP.val] =
      some (none, writes mem [(destP, (Cglm.glm_vec3_sign v).list.map .f)]) :=
  transferO (e := Lib.glm_vec3_sign) (up := false) (by kernel_rfl) (((RO.nil false _).addP r_dest.has r_dest .nil .nil).addO h_v.has (.cons o_v_dest .nil)) (.p rfl (.p rfl .nil)) (glm_vec3_sign_run _) (DT.val_done _) rfl rfl rfl
example (v : V3 α) : let mem : Mem α := [⟨true, .undef :: v.list.map .f⟩]
    Holds mem (0, 1) v.list ∧ Room mem (0, 0) 3 ∧ Over (0, 1) 3 (0, 0) 3 :=
  ⟨.within rfl rfl, .within rfl rfl, Or.inl (by decide)⟩

theorem C98_vec3_abs {mem : Mem α} {vP destP : Ptr} {v : V3 α} (h_v : Holds mem vP v.list) (r_dest : Room mem destP 3) (o_v_dest : Over vP 3 destP 3) :
    C.glm_vec3_abs.run mem [vP.val, destP.val] =
      some (none, writes mem [(destP, (Cglm.glm_vec3_abs v).list.map .f)]) :=
  transferO (e := Lib.glm_vec3_abs) (up := false) (by kernel_rfl) (((RO.nil false _).addP r_dest.has r_dest .nil .nil).addO h_v.has (.cons o_v_dest .nil)) (.p rfl (.p rfl .nil)) (glm_vec3_abs_run _) (DT.val_done _) rfl rfl rfl
example (v : V3 α) : let mem : Mem α := [⟨true, .undef :: v.list.map .f⟩]
    Holds mem (0, 1) v.list ∧ Room mem (0, 0) 3 ∧ Over (0, 1) 3 (0, 0) 3 :=
  ⟨.within rfl rfl, .within rfl rfl, Or.inl (by decide)⟩

theorem C98_vec3_fract {mem : Mem α} {vP destP : Ptr} {v : V3 α} (h_v : Holds mem vP v.list) (r_dest : Room mem destP 3) (o_v_dest : Over vP 3 destP 3) :
    C.glm_vec3_fract.run mem [vP.val, destP.val] =
      some (none, writes mem [(destP, (Cglm.glm_vec3_fract v).list.map .f)]) :=
  transferO (e := Lib.glm_vec3_fract) (up := false) (by kernel_rfl) (((RO.nil false _).addP r_dest.has r_dest .nil .nil).addO h_v.has (.cons o_v_dest .nil)) (.p rfl (.p rfl .nil)) (glm_vec3_fract_run _) (DT.val_done _) rfl rfl rfl
example (v : V3 α) : let mem : Mem α := [⟨true, .undef :: v.list.map .f⟩]
    Holds mem (0, 1) v.list ∧ Room mem (0, 0) 3 ∧ Over (0, 1) 3 (0, 0) 3 :=
  ⟨.within rfl rfl, .within rfl rfl, Or.inl (by decide)⟩

theorem C98_vec3_floor {mem : Mem α} {vP destP : Ptr} {v : V3 α} (h_v : Holds mem vP v.list) (r_dest : Room mem destP 3) (o_v_dest : Over vP 3 destP 3) :
    C.glm_vec3_floor.run mem [vP.val, destP.val] =
      some (none, writes mem [(destP, (Cglm.glm_vec3_floor v).list.map .f)]) :=
  transferO (e := Lib.glm_vec3_floor) (up := false) (by kernel_rfl) (((RO.nil false _).addP r_dest.has r_dest .nil .nil).addO h_v.has (.cons o_v_dest .nil)) (.p rfl (.p rfl .nil)) (glm_vec3_floor_run _) (DT.val_done _) rfl rfl rfl
example (v : V3 α) : let mem : Mem α := [⟨true, .undef :: v.list.map .f⟩]
    Holds mem (0, 1) v.list ∧ Room mem (0, 0) 3 ∧ Over (0, 1) 3 (0, 0) 3 :=
  ⟨.within rfl rfl, .within rfl rfl, Or.inl (by decide)⟩

theorem C98_vec3_mods {mem : Mem α} {vP destP : Ptr} {v : V3 α} (s : α) (h_v : Holds mem vP v.list) (r_dest : Room mem destP 3) (o_v_dest : Over vP 3 destP 3) :
    C.glm_vec3_mods.run mem [vP.val, .f s, destP.val] =
      some (none, writes mem [(destP, (Cglm.glm_vec3_mods v s).list.map .f)]) :=
  transferO (e := Lib.glm_vec3_mods) (up := false) (by kernel_rfl) (((RO.nil false _).addP r_dest.has r_dest .nil .nil).addO h_v.has (.cons o_v_dest .nil)) (.p rfl (.f (.p rfl .nil))) (glm_vec3_mods_run _ _) (DT.val_done _) rfl rfl rfl
example (v : V3 α) : let mem : Mem α := [⟨true, .undef :: v.list.map .f⟩]
    Holds mem (0, 1) v.list ∧ Room mem (0, 0) 3 ∧ Over (0, 1) 3 (0, 0) 3 :=
  ⟨.within rfl rfl, .within rfl rfl, Or.inl (by decide)⟩

theorem C98_vec3_steps {mem : Mem α} {xP destP : Ptr} (edge : α) {x : V3 α} (h_x : Holds mem xP x.list) (r_dest : Room mem destP 3) (o_x_dest : Over xP 3 destP 3) :
    C.glm_vec3_steps.run mem [.f edge, xP.val, destP.val] =
      some (none, writes mem [(destP, (Cglm.glm_vec3_steps edge x).list.map .f)]) :=
  transferO (e := Lib.glm_vec3_steps) (up := false) (by kernel_rfl) (((RO.nil false _).addP r_dest.has r_dest .nil .nil).addO h_x.has (.cons o_x_dest .nil)) (.f (.p rfl (.p rfl .nil))) (glm_vec3_steps_run _ _) (DT.val_done _) rfl rfl rfl
example (x : V3 α) : let mem : Mem α := [⟨true, .undef :: x.list.map .f⟩]
    Holds mem (0, 1) x.list ∧ Room mem (0, 0) 3 ∧ Over (0, 1) 3 (0, 0) 3 :=
  ⟨.within rfl rfl, .within rfl rfl, Or.inl (by decide)⟩

theorem C98_vec3_stepr {mem : Mem α} {edgeP destP : Ptr} {edge : V3 α} (x : α) (h_edge : Holds mem edgeP edge.list) (r_dest : Room mem destP 3) (o_edge_dest : Over edgeP 3 destP 3) :
    C.glm_vec3_stepr.run mem [edgeP.val, .f x, destP.val] =
      some (none, writes mem [(destP, (Cglm.glm_vec3_stepr edge x).list.map .f)]) :=
  transferO (e := Lib.glm_vec3_stepr) (up := false) (by kernel_rfl) (((RO.nil false _).addP r_dest.has r_dest .nil .nil).addO h_edge.has (.cons o_edge_dest .nil)) (.p rfl (.f (.p rfl .nil))) (glm_vec3_stepr_run _ _) (DT.val_done _) rfl rfl rfl
example (edge : V3 α) : let mem : Mem α := [⟨true, .undef :: edge.list.map .f⟩]
    Holds mem (0, 1) edge.list ∧ Room mem (0, 0) 3 ∧ Over (0, 1) 3 (0, 0) 3 :=
  ⟨.within rfl rfl, .within rfl rfl, Or.inl (by decide)⟩

theorem C98_vec3_sqrt {mem : Mem α} {vP destP : Ptr} {v : V3 α} (h_v : Holds mem vP v.list) (r_dest : Room mem destP 3) (o_v_dest : Over vP 3 destP 3) :
    C.glm_vec3_sqrt.run mem [vP.val, destP.val] =
      some (none, writes mem [(destP, (Cglm.glm_vec3_sqrt v).list.map .f)]) :=
  transferO (e := Lib.glm_vec3_sqrt) (up := false) (by kernel_rfl) (((RO.nil false _).addP r_dest.has r_dest .nil .nil).addO h_v.has (.cons o_v_dest .nil)) (.p rfl (.p rfl .nil)) (glm_vec3_sqrt_run _) (DT.val_done _) rfl rfl rfl
example (v : V3 α) : let mem : Mem α := [⟨true, .undef :: v.list.map .f⟩]
    Holds mem (0, 1) v.list ∧ Room mem (0, 0) 3 ∧ Over (0, 1) 3 (0, 0) 3 :=
  ⟨.within rfl rfl, .within rfl rfl, Or.inl (by decide)⟩

theorem C98_vec4_sign {mem : Mem α} {vP destP : Ptr} {v : V4 α} (h_v : Holds mem vP v.list) (r_dest : Room mem destP 4) (o_v_dest : Over vP 4 destP 4) :
    C.glm_vec4_sign.run mem [vP.val, destP.val] =
      some (none, writes mem [(destP, (Cglm.glm_vec4_sign v).list.map .f)]) :=
  transferO (e := Lib.glm_vec4_sign) (up := false) (by kernel_rfl) (((RO.nil false _).addP r_dest.has r_dest .nil .nil).addO h_v.has (.cons o_v_dest .nil)) (.p rfl (.p rfl .nil)) (glm_vec4_sign_run _) (DT.val_done _) rfl rfl rfl
example (v : V4 α) : let mem : Mem α := [⟨true, .undef :: v.list.map .f⟩]
    Holds mem (0, 1) v.list ∧ Room mem (0, 0) 4 ∧ Over (0, 1) 4 (0, 0) 4 :=
  ⟨.within rfl rfl, .within rfl rfl, Or.inl (by decide)⟩

theorem C98_vec4_abs {mem : Mem α} {vP destP : Ptr} {v : V4 α} (h_v : Holds mem vP v.list) (r_dest : Room mem destP 4) (o_v_dest : Over vP 4 destP 4) :
    C.glm_vec4_abs.run mem [vP.val, destP.val] =
      some (none, writes mem [(destP, (Cglm.glm_vec4_abs v).list.map .f)]) :=
  transferO (e := Lib.glm_vec4_abs) (up := false) (by kernel_rfl) (((RO.nil false _).addP r_dest.has r_dest .nil .nil).addO h_v.has (.cons o_v_dest .nil)) (.p rfl (.p rfl .nil)) (glm_vec4_abs_run _) (DT.val_done _) rfl rfl rfl
example (v : V4 α) : let mem : Mem α := [⟨true, .undef :: v.list.map .f⟩]
    Holds mem (0, 1) v.list ∧ Room mem (0, 0) 4 ∧ Over (0, 1) 4 (0, 0) 4 :=
  ⟨.within rfl rfl, .within rfl rfl, Or.inl (by decide)⟩

theorem C98_vec4_fract {mem : Mem α} {vP destP : Ptr} {v : V4 α} (h_v : Holds mem vP v.list) (r_dest : Room mem destP 4) (o_v_dest : Over vP 4 destP 4) :
    C.glm_vec4_fract.run mem [vP.val, destP.val] =
      some (none, writes mem [(destP, (Cglm.glm_vec4_fract v).list.map .f)]) :=
  transferO (e := Lib.glm_vec4_fract) (up := false) (by kernel_rfl) (((RO.nil false _).addP r_dest.has r_dest .nil .nil).addO h_v.has (.cons o_v_dest .nil)) (.p rfl (.p rfl .nil)) (glm_vec4_fract_run _) (DT.val_done _) rfl rfl rfl
example (v : V4 α) : let mem : Mem α := [⟨true, .undef :: v.list.map .f⟩]
    Holds mem (0, 1) v.list ∧ Room mem (0, 0) 4 ∧ Over (0, 1) 4 (0, 0) 4 :=
  ⟨.within rfl rfl, .within rfl rfl, Or.inl (by decide)⟩

theorem C98_vec4_floor {mem : Mem α} {vP destP : Ptr} {v : V4 α} (h_v : Holds mem vP v.list) (r_dest : Room mem destP 4) (o_v_dest : Over vP 4 destP 4) :
    C.glm_vec4_floor.run mem [vP.val, destP.val] =
      some (none, writes mem [(destP, (Cglm.glm_vec4_floor v).list.map .f)]) :=
  transferO (e := Lib.glm_vec4_floor) (up := false) (by kernel_rfl) (((RO.nil false _).addP r_dest.has r_dest .nil .nil).addO h_v.has (.cons o_v_dest .nil)) (.p rfl (.p rfl .nil)) (glm_vec4_floor_run _) (DT.val_done _) rfl rfl rfl
example (v : V4 α) : let mem : Mem α := [⟨true, .undef :: v.list.map .f⟩]
    Holds mem (0, 1) v.list ∧ Room mem (0, 0) 4 ∧ Over (0, 1) 4 (0, 0) 4 :=
  ⟨.within rfl rfl, .within rfl rfl, Or.inl (by decide)⟩

theorem C98_vec4_mods {mem : Mem α} {vP destP : Ptr} {v : V4 α} (s : α) (h_v : Holds mem vP v.list) (r_dest : Room mem destP 4) (o_v_dest : Over vP 4 destP 4) :
    C.glm_vec4_mods.run mem [vP.val, .f s, destP.val] =
      some (none, writes mem [(destP, (Cglm.glm_vec4_mods v s).list.map .f)]) :=
  transferO (e := Lib.glm_vec4_mods) (up := false) (by kernel_rfl) (((RO.nil false _).addP r_dest.has r_dest .nil .nil).addO h_v.has (.cons o_v_dest .nil)) (.p rfl (.f (.p rfl .nil))) (glm_vec4_mods_run _ _) (DT.val_done _) rfl rfl rfl
example (v : V4 α) : let mem : Mem α := [⟨true, .undef :: v.list.map .f⟩]
    Holds mem (0, 1) v.list ∧ Room mem (0, 0) 4 ∧ Over (0, 1) 4 (0, 0) 4 :=
  ⟨.within rfl rfl, .within rfl rfl, Or.inl (by decide)⟩

theorem C98_vec4_steps {mem : Mem α} {xP destP : Ptr} (edge : α) {x : V4 α} (h_x : Holds mem xP x.list) (r_dest : Room mem destP 4) (o_x_dest : Over xP 4 destP 4) :
    C.glm_vec4_steps.run mem [.f edge, xP.val, destP.val] =
      some (none, writes mem [(destP, (Cglm.glm_vec4_steps edge x).list.map .f)]) :=
  transferO (e := Lib.glm_vec4_steps) (up := false) (by kernel_rfl) (((RO.nil false _).addP r_dest.has r_dest .nil .nil).addO h_x.has (.cons o_x_dest .nil)) (.f (.p rfl (.p rfl .nil))) (glm_vec4_steps_run _ _) (DT.val_done _) rfl rfl rfl
example (x : V4 α) : let mem : Mem α := [⟨true, .undef :: x.list.map .f⟩]
    Holds mem (0, 1) x.list ∧ Room mem (0, 0) 4 ∧ Over (0, 1) 4 (0, 0) 4 :=
  ⟨.within rfl rfl, .within rfl rfl, Or.inl (by decide)⟩

theorem C98_vec4_stepr {mem : Mem α} {edgeP destP : Ptr} {edge : V4 α} (x : α) (h_edge : Holds mem edgeP edge.list) (r_dest : Room mem destP 4) (o_edge_dest : Over edgeP 4 destP 4) :
    C.glm_vec4_stepr.run mem [edgeP.val, .f x, destP.val] =
      some (none, writes mem [(destP, (Cglm.glm_vec4_stepr edge x).list.map .f)]) :=
  transferO (e := Lib.glm_vec4_stepr) (up := false) (by kernel_rfl) (((RO.nil false _).addP r_dest.has r_dest .nil .nil).addO h_edge.has (.cons o_edge_dest .nil)) (.p rfl (.f (.p rfl .nil))) (glm_vec4_stepr_run _ _) (DT.val_done _) rfl rfl rfl
example (edge : V4 α) : let mem : Mem α := [⟨true, .undef :: edge.list.map .f⟩]
    Holds mem (0, 1) edge.list ∧ Room mem (0, 0) 4 ∧ Over (0, 1) 4 (0, 0) 4 :=
  ⟨.within rfl rfl, .within rfl rfl, Or.inl (by decide)⟩

theorem C98_vec4_sqrt {mem : Mem α} {vP destP : Ptr} {v : V4 α} (h_v : Holds mem vP v.list) (r_dest : Room mem destP 4) (o_v_dest : Over vP 4 destP 4) :
    C.glm_vec4_sqrt.run mem [vP.val, destP.val] =
      some (none, writes mem [(destP, (Cglm.glm_vec4_sqrt v).list.map .f)]) :=
  transferO (e := Lib.glm_vec4_sqrt) (up := false) (by kernel_rfl) (((RO.nil false _).addP r_dest.has r_dest .nil .nil).addO h_v.has (.cons o_v_dest .nil)) (.p rfl (.p rfl .nil)) (glm_vec4_sqrt_run _) (DT.val_done _) rfl rfl rfl
example (v : V4 α) : let mem : Mem α := [⟨true, .undef :: v.list.map .f⟩]
    Holds mem (0, 1) v.list ∧ Room mem (0, 0) 4 ∧ Over (0, 1) 4 (0, 0) 4 :=
  ⟨.within rfl rfl, .within rfl rfl, Or.inl (by decide)⟩

theorem C98_vec4 {mem : Mem α} {v3P destP : Ptr} {v3 : V3 α} (last : α) (h_v3 : Holds mem v3P v3.list) (r_dest : Room mem destP 4) (o_v3_dest : Over v3P 3 destP 4) :
    C.glm_vec4.run mem [v3P.val, .f last, destP.val] =
      some (none, writes mem [(destP, (Cglm.glm_vec4 v3 last).list.map .f)]) :=
  transferO (e := Lib.glm_vec4) (up := false) (by kernel_rfl) (((RO.nil false _).addP r_dest.has r_dest .nil .nil).addO h_v3.has (.cons o_v3_dest .nil)) (.p rfl (.f (.p rfl .nil))) (glm_vec4_run _ _) (DT.val_done _) rfl rfl rfl
example (v3 : V3 α) : let mem : Mem α := [⟨true, .undef :: v3.list.map .f⟩]
    Holds mem (0, 1) v3.list ∧ Room mem (0, 0) 4 ∧ Over (0, 1) 3 (0, 0) 4 :=
  ⟨.within rfl rfl, .within rfl rfl, Or.inl (by decide)⟩

theorem C98_vec4_copy3 {mem : Mem α} {aP destP : Ptr} {a : V4 α} (h_a : Holds mem aP a.list) (r_dest : Room mem destP 3) (o_a_dest : Over aP 4 destP 3) :
    C.glm_vec4_copy3.run mem [aP.val, destP.val] =
      some (none, writes mem [(destP, (Cglm.glm_vec4_copy3 a).list.map .f)]) :=
  transferO (e := Lib.glm_vec4_copy3) (up := false) (by kernel_rfl) (((RO.nil false _).addP r_dest.has r_dest .nil .nil).addO h_a.has (.cons o_a_dest .nil)) (.p rfl (.p rfl .nil)) (glm_vec4_copy3_run _) (DT.val_done _) rfl rfl rfl
example (a : V4 α) : let mem : Mem α := [⟨true, .undef :: a.list.map .f⟩]
    Holds mem (0, 1) a.list ∧ Room mem (0, 0) 3 ∧ Over (0, 1) 4 (0, 0) 3 :=
  ⟨.within rfl rfl, .within rfl rfl, Or.inl (by decide)⟩

theorem C98_vec4_copy {mem : Mem α} {vP destP : Ptr} {v : V4 α} (h_v : Holds mem vP v.list) (r_dest : Room mem destP 4) (o_v_dest : Over vP 4 destP 4) :
    C.glm_vec4_copy.run mem [vP.val, destP.val] =
      some (none, writes mem [(destP, (Cglm.glm_vec4_copy v).list.map .f)]) :=
  transferO (e := Lib.glm_vec4_copy) (up := false) (by kernel_rfl) (((RO.nil false _).addP r_dest.has r_dest .nil .nil).addO h_v.has (.cons o_v_dest .nil)) (.p rfl (.p rfl .nil)) (glm_vec4_copy_run _) (DT.val_done _) rfl rfl rfl
example (v : V4 α) : let mem : Mem α := [⟨true, .undef :: v.list.map .f⟩]
    Holds mem (0, 1) v.list ∧ Room mem (0, 0) 4 ∧ Over (0, 1) 4 (0, 0) 4 :=
  ⟨.within rfl rfl, .within rfl rfl, Or.inl (by decide)⟩

theorem C98_vec4_ucopy {mem : Mem α} {vP destP : Ptr} {v : V4 α} (h_v : Holds mem vP v.list) (r_dest : Room mem destP 4) (o_v_dest : Over vP 4 destP 4) :
    C.glm_vec4_ucopy.run mem [vP.val, destP.val] =
      some (none, writes mem [(destP, (Cglm.glm_vec4_ucopy v).list.map .f)]) :=
  transferO (e := Lib.glm_vec4_ucopy) (up := false) (by kernel_rfl) (((RO.nil false _).addP r_dest.has r_dest .nil .nil).addO h_v.has (.cons o_v_dest .nil)) (.p rfl (.p rfl .nil)) (glm_vec4_ucopy_run _) (DT.val_done _) rfl rfl rfl
example (v : V4 α) : let mem : Mem α := [⟨true, .undef :: v.list.map .f⟩]
    Holds mem (0, 1) v.list ∧ Room mem (0, 0) 4 ∧ Over (0, 1) 4 (0, 0) 4 :=
  ⟨.within rfl rfl, .within rfl rfl, Or.inl (by decide)⟩

theorem C98_vec4_add {mem : Mem α} {aP bP destP : Ptr} {a : V4 α} {b : V4 α} (h_a : Holds mem aP a.list) (h_b : Holds mem bP b.list) (r_dest : Room mem destP 4) (o_a_dest : Over aP 4 destP 4) (o_b_dest : Over bP 4 destP 4) :
    C.glm_vec4_add.run mem [aP.val, bP.val, destP.val] =
      some (none, writes mem [(destP, (Cglm.glm_vec4_add a b).list.map .f)]) :=
  transferO (e := Lib.glm_vec4_add) (up := false) (by kernel_rfl) ((((RO.nil false _).addP r_dest.has r_dest .nil .nil).addO h_b.has (.cons o_b_dest .nil)).addO h_a.has (.skip (.cons o_a_dest .nil))) (.p rfl (.p rfl (.p rfl .nil))) (glm_vec4_add_run _ _) (DT.val_done _) rfl rfl rfl
example (a : V4 α) (b : V4 α) : let mem : Mem α := [⟨true, .undef :: a.list.map .f⟩, ⟨false, b.list.map .f⟩]
    Holds mem (0, 1) a.list ∧ Holds mem (1, 0) b.list ∧ Room mem (0, 0) 4 ∧ Over (0, 1) 4 (0, 0) 4 ∧ Over (1, 0) 4 (0, 0) 4 :=
  ⟨.within rfl rfl, .within rfl rfl, .within rfl rfl, Or.inl (by decide), Or.inl (by decide)⟩

theorem C98_vec4_adds {mem : Mem α} {vP destP : Ptr} {v : V4 α} (s : α) (h_v : Holds mem vP v.list) (r_dest : Room mem destP 4) (o_v_dest : Over vP 4 destP 4) :
    C.glm_vec4_adds.run mem [vP.val, .f s, destP.val] =
      some (none, writes mem [(destP, (Cglm.glm_vec4_adds v s).list.map .f)]) :=
  transferO (e := Lib.glm_vec4_adds) (up := false) (by kernel_rfl) (((RO.nil false _).addP r_dest.has r_dest .nil .nil).addO h_v.has (.cons o_v_dest .nil)) (.p rfl (.f (.p rfl .nil))) (glm_vec4_adds_run _ _) (DT.val_done _) rfl rfl rfl
example (v : V4 α) : let mem : Mem α := [⟨true, .undef :: v.list.map .f⟩]
    Holds mem (0, 1) v.list ∧ Room mem (0, 0) 4 ∧ Over (0, 1) 4 (0, 0) 4 :=
  ⟨.within rfl rfl, .within rfl rfl, Or.inl (by decide)⟩

theorem C98_vec4_sub {mem : Mem α} {aP bP destP : Ptr} {a : V4 α} {b : V4 α} (h_a : Holds mem aP a.list) (h_b : Holds mem bP b.list) (r_dest : Room mem destP 4) (o_a_dest : Over aP 4 destP 4) (o_b_dest : Over bP 4 destP 4) :
    C.glm_vec4_sub.run mem [aP.val, bP.val, destP.val] =
      some (none, writes mem [(destP, (Cglm.glm_vec4_sub a b).list.map .f)]) :=
  transferO (e := Lib.glm_vec4_sub) (up := false) (by kernel_rfl) ((((RO.nil false _).addP r_dest.has r_dest .nil .nil).addO h_b.has (.cons o_b_dest .nil)).addO h_a.has (.skip (.cons o_a_dest .nil))) (.p rfl (.p rfl (.p rfl .nil))) (glm_vec4_sub_run _ _) (DT.val_done _) rfl rfl rfl
example (a : V4 α) (b : V4 α) : let mem : Mem α := [⟨true, .undef :: a.list.map .f⟩, ⟨false, b.list.map .f⟩]
    Holds mem (0, 1) a.list ∧ Holds mem (1, 0) b.list ∧ Room mem (0, 0) 4 ∧ Over (0, 1) 4 (0, 0) 4 ∧ Over (1, 0) 4 (0, 0) 4 :=
  ⟨.within rfl rfl, .within rfl rfl, .within rfl rfl, Or.inl (by decide), Or.inl (by decide)⟩

theorem C98_vec4_subs {mem : Mem α} {vP destP : Ptr} {v : V4 α} (s : α) (h_v : Holds mem vP v.list) (r_dest : Room mem destP 4) (o_v_dest : Over vP 4 destP 4) :
    C.glm_vec4_subs.run mem [vP.val, .f s, destP.val] =
      some (none, writes mem [(destP, (Cglm.glm_vec4_subs v s).list.map .f)]) :=
  transferO (e := Lib.glm_vec4_subs) (up := false) (by kernel_rfl) (((RO.nil false _).addP r_dest.has r_dest .nil .nil).addO h_v.has (.cons o_v_dest .nil)) (.p rfl (.f (.p rfl .nil))) (glm_vec4_subs_run _ _) (DT.val_done _) rfl rfl rfl
example (v : V4 α) : let mem : Mem α := [⟨true, .undef :: v.list.map .f⟩]
    Holds mem (0, 1) v.list ∧ Room mem (0, 0) 4 ∧ Over (0, 1) 4 (0, 0) 4 :=
  ⟨.within rfl rfl, .within rfl rfl, Or.inl (by decide)⟩

theorem C98_vec4_mul {mem : Mem α} {aP bP destP : Ptr} {a : V4 α} {b : V4 α} (h_a : Holds mem aP a.list) (h_b : Holds mem bP b.list) (r_dest : Room mem destP 4) (o_a_dest : Over aP 4 destP 4) (o_b_dest : Over bP 4 destP 4) :
    C.glm_vec4_mul.run mem [aP.val, bP.val, destP.val] =
      some (none, writes mem [(destP, (Cglm.glm_vec4_mul a b).list.map .f)]) :=
  transferO (e := Lib.glm_vec4_mul) (up := false) (by kernel_rfl) ((((RO.nil false _).addP r_dest.has r_dest .nil .nil).addO h_b.has (.cons o_b_dest .nil)).addO h_a.has (.skip (.cons o_a_dest .nil))) (.p rfl (.p rfl (.p rfl .nil))) (glm_vec4_mul_run _ _) (DT.val_done _) rfl rfl rfl
example (a : V4 α) (b : V4 α) : let mem : Mem α := [⟨true, .undef :: a.list.map .f⟩, ⟨false, b.list.map .f⟩]
    Holds mem (0, 1) a.list ∧ Holds mem (1, 0) b.list ∧ Room mem (0, 0) 4 ∧ Over (0, 1) 4 (0, 0) 4 ∧ Over (1, 0) 4 (0, 0) 4 :=
  ⟨.within rfl rfl, .within rfl rfl, .within rfl rfl, Or.inl (by decide), Or.inl (by decide)⟩

theorem C98_vec4_scale {mem : Mem α} {vP destP : Ptr} {v : V4 α} (s : α) (h_v : Holds mem vP v.list) (r_dest : Room mem destP 4) (o_v_dest : Over vP 4 destP 4) :
    C.glm_vec4_scale.run mem [vP.val, .f s, destP.val] =
      some (none, writes mem [(destP, (Cglm.glm_vec4_scale v s).list.map .f)]) :=
  transferO (e := Lib.glm_vec4_scale) (up := false) (by kernel_rfl) (((RO.nil false _).addP r_dest.has r_dest .nil .nil).addO h_v.has (.cons o_v_dest .nil)) (.p rfl (.f (.p rfl .nil))) (glm_vec4_scale_run _ _) (DT.val_done _) rfl rfl rfl
example (v : V4 α) : let mem : Mem α := [⟨true, .undef :: v.list.map .f⟩]
    Holds mem (0, 1) v.list ∧ Room mem (0, 0) 4 ∧ Over (0, 1) 4 (0, 0) 4 :=
  ⟨.within rfl rfl, .within rfl rfl, Or.inl (by decide)⟩

theorem C98_vec4_scale_as {mem : Mem α} {vP destP : Ptr} {v : V4 α} (s : α) (h_v : Holds mem vP v.list) (r_dest : Room mem destP 4) (o_v_dest : Over vP 4 destP 4) :
    C.glm_vec4_scale_as.run mem [vP.val, .f s, destP.val] =
      some (none, writes mem [(destP, (Cglm.glm_vec4_scale_as v s).list.map .f)]) :=
  transferO (e := Lib.glm_vec4_scale_as) (up := false) (by kernel_rfl) (((RO.nil false _).addP r_dest.has r_dest .nil .nil).addO h_v.has (.cons o_v_dest .nil)) (.p rfl (.f (.p rfl .nil))) (glm_vec4_scale_as_run _ _) (DT.val_map_eq (glm_vec4_scale_as_dt_val _ _) rfl) rfl rfl rfl
example (v : V4 α) : let mem : Mem α := [⟨true, .undef :: v.list.map .f⟩]
    Holds mem (0, 1) v.list ∧ Room mem (0, 0) 4 ∧ Over (0, 1) 4 (0, 0) 4 :=
  ⟨.within rfl rfl, .within rfl rfl, Or.inl (by decide)⟩

theorem C98_vec4_div {mem : Mem α} {aP bP destP : Ptr} {a : V4 α} {b : V4 α} (h_a : Holds mem aP a.list) (h_b : Holds mem bP b.list) (r_dest : Room mem destP 4) (o_a_dest : Over aP 4 destP 4) (o_b_dest : Over bP 4 destP 4) :
    C.glm_vec4_div.run mem [aP.val, bP.val, destP.val] =
      some (none, writes mem [(destP, (Cglm.glm_vec4_div a b).list.map .f)]) :=
  transferO (e := Lib.glm_vec4_div) (up := false) (by kernel_rfl) ((((RO.nil false _).addP r_dest.has r_dest .nil .nil).addO h_b.has (.cons o_b_dest .nil)).addO h_a.has (.skip (.cons o_a_dest .nil))) (.p rfl (.p rfl (.p rfl .nil))) (glm_vec4_div_run _ _) (DT.val_done _) rfl rfl rfl
example (a : V4 α) (b : V4 α) : let mem : Mem α := [⟨true, .undef :: a.list.map .f⟩, ⟨false, b.list.map .f⟩]
    Holds mem (0, 1) a.list ∧ Holds mem (1, 0) b.list ∧ Room mem (0, 0) 4 ∧ Over (0, 1) 4 (0, 0) 4 ∧ Over (1, 0) 4 (0, 0) 4 :=
  ⟨.within rfl rfl, .within rfl rfl, .within rfl rfl, Or.inl (by decide), Or.inl (by decide)⟩

theorem C98_vec4_divs {mem : Mem α} {vP destP : Ptr} {v : V4 α} (s : α) (h_v : Holds mem vP v.list) (r_dest : Room mem destP 4) (o_v_dest : Over vP 4 destP 4) :
    C.glm_vec4_divs.run mem [vP.val, .f s, destP.val] =
      some (none, writes mem [(destP, (Cglm.glm_vec4_divs v s).list.map .f)]) :=
  transferO (e := Lib.glm_vec4_divs) (up := false) (by kernel_rfl) (((RO.nil false _).addP r_dest.has r_dest .nil .nil).addO h_v.has (.cons o_v_dest .nil)) (.p rfl (.f (.p rfl .nil))) (glm_vec4_divs_run _ _) (DT.val_done _) rfl rfl rfl
example (v : V4 α) : let mem : Mem α := [⟨true, .undef :: v.list.map .f⟩]
    Holds mem (0, 1) v.list ∧ Room mem (0, 0) 4 ∧ Over (0, 1) 4 (0, 0) 4 :=
  ⟨.within rfl rfl, .within rfl rfl, Or.inl (by decide)⟩

theorem C98_vec4_addadd {mem : Mem α} {aP bP destP : Ptr} {a : V4 α} {b : V4 α} {dest : V4 α} (h_a : Holds mem aP a.list) (h_b : Holds mem bP b.list) (h_dest : Holds mem destP dest.list) (r_dest : Room mem destP 4) (o_a_dest : Over aP 4 destP 4) (o_b_dest : Over bP 4 destP 4) :
    C.glm_vec4_addadd.run mem [aP.val, bP.val, destP.val] =
      some (none, writes mem [(destP, (Cglm.glm_vec4_addadd a b dest).list.map .f)]) :=
  transferO (e := Lib.glm_vec4_addadd) (up := false) (by kernel_rfl) ((((RO.nil false _).addP h_dest.has r_dest .nil .nil).addO h_b.has (.cons o_b_dest .nil)).addO h_a.has (.skip (.cons o_a_dest .nil))) (.p rfl (.p rfl (.p rfl .nil))) (glm_vec4_addadd_run _ _ _) (DT.val_done _) rfl rfl rfl
example (t : α) (b : V4 α) (dest : V4 α) : let mem : Mem α := [⟨true, dest.list.map .f ++ List.replicate 1 (.f t)⟩, ⟨false, b.list.map .f⟩]
    Holds mem (0, 1) (⟨dest.y, dest.z, dest.w, t⟩ : V4 α).list ∧ Holds mem (1, 0) b.list ∧ Room mem (0, 0) 4 ∧ Holds mem (0, 0) dest.list ∧ Over (0, 1) 4 (0, 0) 4 ∧ Over (1, 0) 4 (0, 0) 4 :=
  ⟨.within rfl rfl, .within rfl rfl, .within rfl rfl, .within rfl rfl, Or.inl (by decide), Or.inl (by decide)⟩

theorem C98_vec4_subadd {mem : Mem α} {aP bP destP : Ptr} {a : V4 α} {b : V4 α} {dest : V4 α} (h_a : Holds mem aP a.list) (h_b : Holds mem bP b.list) (h_dest : Holds mem destP dest.list) (r_dest : Room mem destP 4) (o_a_dest : Over aP 4 destP 4) (o_b_dest : Over bP 4 destP 4) :
    C.glm_vec4_subadd.run mem [aP.val, bP.val, destP.val] =
      some (none, writes mem [(destP, (Cglm.glm_vec4_subadd a b dest).list.map .f)]) :=
  transferO (e := Lib.glm_vec4_subadd) (up := false) (by kernel_rfl) ((((RO.nil false _).addP h_dest.has r_dest .nil .nil).addO h_b.has (.cons o_b_dest .nil)).addO h_a.has (.skip (.cons o_a_dest .nil))) (.p rfl (.p rfl (.p rfl .nil))) (glm_vec4_subadd_run _ _ _) (DT.val_done _) rfl rfl rfl
example (t : α) (b : V4 α) (dest : V4 α) : let mem : Mem α := [⟨true, dest.list.map .f ++ List.replicate 1 (.f t)⟩, ⟨false, b.list.map .f⟩]
    Holds mem (0, 1) (⟨dest.y, dest.z, dest.w, t⟩ : V4 α).list ∧ Holds mem (1, 0) b.list ∧ Room mem (0, 0) 4 ∧ Holds mem (0, 0) dest.list ∧ Over (0, 1) 4 (0, 0) 4 ∧ Over (1, 0) 4 (0, 0) 4 :=
  ⟨.within rfl rfl, .within rfl rfl, .within rfl rfl, .within rfl rfl, Or.inl (by decide), Or.inl (by decide)⟩

theorem C98_vec4_muladd {mem : Mem α} {aP bP destP : Ptr} {a : V4 α} {b : V4 α} {dest : V4 α} (h_a : Holds mem aP a.list) (h_b : Holds mem bP b.list) (h_dest : Holds mem destP dest.list) (r_dest : Room mem destP 4) (o_a_dest : Over aP 4 destP 4) (o_b_dest : Over bP 4 destP 4) :
    C.glm_vec4_muladd.run mem [aP.val, bP.val, destP.val] =
      some (none, writes mem [(destP, (Cglm.glm_vec4_muladd a b dest).list.map .f)]) :=
  transferO (e := Lib.glm_vec4_muladd) (up := false) (by kernel_rfl) ((((RO.nil false _).addP h_dest.has r_dest .nil .nil).addO h_b.has (.cons o_b_dest .nil)).addO h_a.has (.skip (.cons o_a_dest .nil))) (.p rfl (.p rfl (.p rfl .nil))) (glm_vec4_muladd_run _ _ _) (DT.val_done _) rfl rfl rfl
example (t : α) (b : V4 α) (dest : V4 α) : let mem : Mem α := [⟨true, dest.list.map .f ++ List.replicate 1 (.f t)⟩, ⟨false, b.list.map .f⟩]
    Holds mem (0, 1) (⟨dest.y, dest.z, dest.w, t⟩ : V4 α).list ∧ Holds mem (1, 0) b.list ∧ Room mem (0, 0) 4 ∧ Holds mem (0, 0) dest.list ∧ Over (0, 1) 4 (0, 0) 4 ∧ Over (1, 0) 4 (0, 0) 4 :=
  ⟨.within rfl rfl, .within rfl rfl, .within rfl rfl, .within rfl rfl, Or.inl (by decide), Or.inl (by decide)⟩

theorem C98_vec4_muladds {mem : Mem α} {aP destP : Ptr} {a : V4 α} (s : α) {dest : V4 α} (h_a : Holds mem aP a.list) (h_dest : Holds mem destP dest.list) (r_dest : Room mem destP 4) (o_a_dest : Over aP 4 destP 4) :
    C.glm_vec4_muladds.run mem [aP.val, .f s, destP.val] =
      some (none, writes mem [(destP, (Cglm.glm_vec4_muladds a s dest).list.map .f)]) :=
  transferO (e := Lib.glm_vec4_muladds) (up := false) (by kernel_rfl) (((RO.nil false _).addP h_dest.has r_dest .nil .nil).addO h_a.has (.cons o_a_dest .nil)) (.p rfl (.f (.p rfl .nil))) (glm_vec4_muladds_run _ _ _) (DT.val_done _) rfl rfl rfl
example (t : α) (dest : V4 α) : let mem : Mem α := [⟨true, dest.list.map .f ++ List.replicate 1 (.f t)⟩]
    Holds mem (0, 1) (⟨dest.y, dest.z, dest.w, t⟩ : V4 α).list ∧ Room mem (0, 0) 4 ∧ Holds mem (0, 0) dest.list ∧ Over (0, 1) 4 (0, 0) 4 :=
  ⟨.within rfl rfl, .within rfl rfl, .within rfl rfl, Or.inl (by decide)⟩

theorem C98_vec4_maxadd {mem : Mem α} {aP bP destP : Ptr} {a : V4 α} {b : V4 α} {dest : V4 α} (h_a : Holds mem aP a.list) (h_b : Holds mem bP b.list) (h_dest : Holds mem destP dest.list) (r_dest : Room mem destP 4) (o_a_dest : Over aP 4 destP 4) (o_b_dest : Over bP 4 destP 4) :
    C.glm_vec4_maxadd.run mem [aP.val, bP.val, destP.val] =
      some (none, writes mem [(destP, (Cglm.glm_vec4_maxadd a b dest).list.map .f)]) :=
  transferO (e := Lib.glm_vec4_maxadd) (up := false) (by kernel_rfl) ((((RO.nil false _).addP h_dest.has r_dest .nil .nil).addO h_b.has (.cons o_b_dest .nil)).addO h_a.has (.skip (.cons o_a_dest .nil))) (.p rfl (.p rfl (.p rfl .nil))) (glm_vec4_maxadd_run _ _ _) (DT.val_done _) rfl rfl rfl
example (t : α) (b : V4 α) (dest : V4 α) : let mem : Mem α := [⟨true, dest.list.map .f ++ List.replicate 1 (.f t)⟩, ⟨false, b.list.map .f⟩]
    Holds mem (0, 1) (⟨dest.y, dest.z, dest.w, t⟩ : V4 α).list ∧ Holds mem (1, 0) b.list ∧ Room mem (0, 0) 4 ∧ Holds mem (0, 0) dest.list ∧ Over (0, 1) 4 (0, 0) 4 ∧ Over (1, 0) 4 (0, 0) 4 :=
  ⟨.within rfl rfl, .within rfl rfl, .within rfl rfl, .within rfl rfl, Or.inl (by decide), Or.inl (by decide)⟩

theorem C98_vec4_minadd {mem : Mem α} {aP bP destP : Ptr} {a : V4 α} {b : V4 α} {dest : V4 α} (h_a : Holds mem aP a.list) (h_b : Holds mem bP b.list) (h_dest : Holds mem destP dest.list) (r_dest : Room mem destP 4) (o_a_dest : Over aP 4 destP 4) (o_b_dest : Over bP 4 destP 4) :
    C.glm_vec4_minadd.run mem [aP.val, bP.val, destP.val] =
      some (none, writes mem [(destP, (Cglm.glm_vec4_minadd a b dest).list.map .f)]) :=
  transferO (e := Lib.glm_vec4_minadd) (up := false) (by kernel_rfl) ((((RO.nil false _).addP h_dest.has r_dest .nil .nil).addO h_b.has (.cons o_b_dest .nil)).addO h_a.has (.skip (.cons o_a_dest .nil))) (.p rfl (.p rfl (.p rfl .nil))) (glm_vec4_minadd_run _ _ _) (DT.val_done _) rfl rfl rfl
example (t : α) (b : V4 α) (dest : V4 α) : let mem : Mem α := [⟨true, dest.list.map .f ++ List.replicate 1 (.f t)⟩, ⟨false, b.list.map .f⟩]
    Holds mem (0, 1) (⟨dest.y, dest.z, dest.w, t⟩ : V4 α).list ∧ Holds mem (1, 0) b.list ∧ Room mem (0, 0) 4 ∧ Holds mem (0, 0) dest.list ∧ Over (0, 1) 4 (0, 0) 4 ∧ Over (1, 0) 4 (0, 0) 4 :=
  ⟨.within rfl rfl, .within rfl rfl, .within rfl rfl, .within rfl rfl, Or.inl (by decide), Or.inl (by decide)⟩

theorem C98_vec4_subsub {mem : Mem α} {aP bP destP : Ptr} {a : V4 α} {b : V4 α} {dest : V4 α} (h_a : Holds mem aP a.list) (h_b : Holds mem bP b.list) (h_dest : Holds mem destP dest.list) (r_dest : Room mem destP 4) (o_a_dest : Over aP 4 destP 4) (o_b_dest : Over bP 4 destP 4) :
    C.glm_vec4_subsub.run mem [aP.val, bP.val, destP.val] =
      some (none, writes mem [(destP, (Cglm.glm_vec4_subsub a b dest).list.map .f)]) :=
  transferO (e := Lib.glm_vec4_subsub) (up := false) (by kernel_rfl) ((((RO.nil false _).addP h_dest.has r_dest .nil .nil).addO h_b.has (.cons o_b_dest .nil)).addO h_a.has (.skip (.cons o_a_dest .nil))) (.p rfl (.p rfl (.p rfl .nil))) (glm_vec4_subsub_run _ _ _) (DT.val_done _) rfl rfl rfl
example (t : α) (b : V4 α) (dest : V4 α) : let mem : Mem α := [⟨true, dest.list.map .f ++ List.replicate 1 (.f t)⟩, ⟨false, b.list.map .f⟩]
    Holds mem (0, 1) (⟨dest.y, dest.z, dest.w, t⟩ : V4 α).list ∧ Holds mem (1, 0) b.list ∧ Room mem (0, 0) 4 ∧ Holds mem (0, 0) dest.list ∧ Over (0, 1) 4 (0, 0) 4 ∧ Over (1, 0) 4 (0, 0) 4 :=
  ⟨.within rfl rfl, .within rfl rfl, .within rfl rfl, .within rfl rfl, Or.inl (by decide), Or.inl (by decide)⟩

theorem C98_vec4_addsub {mem : Mem α} {aP bP destP : Ptr} {a : V4 α} {b : V4 α} {dest : V4 α} (h_a : Holds mem aP a.list) (h_b : Holds mem bP b.list) (h_dest : Holds mem destP dest.list) (r_dest : Room mem destP 4) (o_a_dest : Over aP 4 destP 4) (o_b_dest : Over bP 4 destP 4) :
    C.glm_vec4_addsub.run mem [aP.val, bP.val, destP.val] =
      some (none, writes mem [(destP, (Cglm.glm_vec4_addsub a b dest).list.map .f)]) :=
  transferO (e := Lib.glm_vec4_addsub) (up := false) (by kernel_rfl) ((((RO.nil false _).addP h_dest.has r_dest .nil .nil).addO h_b.has (.cons o_b_dest .nil)).addO h_a.has (.skip (.cons o_a_dest .nil))) (.p rfl (.p rfl (.p rfl .nil))) (glm_vec4_addsub_run _ _ _) (DT.val_done _) rfl rfl rfl
example (t : α) (b : V4 α) (dest : V4 α) : let mem : Mem α := [⟨true, dest.list.map .f ++ List.replicate 1 (.f t)⟩, ⟨false, b.list.map .f⟩]
    Holds mem (0, 1) (⟨dest.y, dest.z, dest.w, t⟩ : V4 α).list ∧ Holds mem (1, 0) b.list ∧ Room mem (0, 0) 4 ∧ Holds mem (0, 0) dest.list ∧ Over (0, 1) 4 (0, 0) 4 ∧ Over (1, 0) 4 (0, 0) 4 :=
  ⟨.within rfl rfl, .within rfl rfl, .within rfl rfl, .within rfl rfl, Or.inl (by decide), Or.inl (by decide)⟩

theorem C98_vec4_mulsub {mem : Mem α} {aP bP destP : Ptr} {a : V4 α} {b : V4 α} {dest : V4 α} (h_a : Holds mem aP a.list) (h_b : Holds mem bP b.list) (h_dest : Holds mem destP dest.list) (r_dest : Room mem destP 4) (o_a_dest : Over aP 4 destP 4) (o_b_dest : Over bP 4 destP 4) :
    C.glm_vec4_mulsub.run mem [aP.val, bP.val, destP.val] =
      some (none, writes mem [(destP, (Cglm.glm_vec4_mulsub a b dest).list.map .f)]) :=
  transferO (e := Lib.glm_vec4_mulsub) (up := false) (by kernel_rfl) ((((RO.nil false _).addP h_dest.has r_dest .nil .nil).addO h_b.has (.cons o_b_dest .nil)).addO h_a.has (.skip (.cons o_a_dest .nil))) (.p rfl (.p rfl (.p rfl .nil))) (glm_vec4_mulsub_run _ _ _) (DT.val_done _) rfl rfl rfl
example (t : α) (b : V4 α) (dest : V4 α) : let mem : Mem α := [⟨true, dest.list.map .f ++ List.replicate 1 (.f t)⟩, ⟨false, b.list.map .f⟩]
    Holds mem (0, 1) (⟨dest.y, dest.z, dest.w, t⟩ : V4 α).list ∧ Holds mem (1, 0) b.list ∧ Room mem (0, 0) 4 ∧ Holds mem (0, 0) dest.list ∧ Over (0, 1) 4 (0, 0) 4 ∧ Over (1, 0) 4 (0, 0) 4 :=
  ⟨.within rfl rfl, .within rfl rfl, .within rfl rfl, .within rfl rfl, Or.inl (by decide), Or.inl (by decide)⟩

theorem C98_vec4_mulsubs {mem : Mem α} {aP destP : Ptr} {a : V4 α} (s : α) {dest : V4 α} (h_a : Holds mem aP a.list) (h_dest : Holds mem destP dest.list) (r_dest : Room mem destP 4) (o_a_dest : Over aP 4 destP 4) :
    C.glm_vec4_mulsubs.run mem [aP.val, .f s, destP.val] =
      some (none, writes mem [(destP, (Cglm.glm_vec4_mulsubs a s dest).list.map .f)]) :=
  transferO (e := Lib.glm_vec4_mulsubs) (up := false) (by kernel_rfl) (((RO.nil false _).addP h_dest.has r_dest .nil .nil).addO h_a.has (.cons o_a_dest .nil)) (.p rfl (.f (.p rfl .nil))) (glm_vec4_mulsubs_run _ _ _) (DT.val_done _) rfl rfl rfl
example (t : α) (dest : V4 α) : let mem : Mem α := [⟨true, dest.list.map .f ++ List.replicate 1 (.f t)⟩]
    Holds mem (0, 1) (⟨dest.y, dest.z, dest.w, t⟩ : V4 α).list ∧ Room mem (0, 0) 4 ∧ Holds mem (0, 0) dest.list ∧ Over (0, 1) 4 (0, 0) 4 :=
  ⟨.within rfl rfl, .within rfl rfl, .within rfl rfl, Or.inl (by decide)⟩

theorem C98_vec4_maxsub {mem : Mem α} {aP bP destP : Ptr} {a : V4 α} {b : V4 α} {dest : V4 α} (h_a : Holds mem aP a.list) (h_b : Holds mem bP b.list) (h_dest : Holds mem destP dest.list) (r_dest : Room mem destP 4) (o_a_dest : Over aP 4 destP 4) (o_b_dest : Over bP 4 destP 4) :
    C.glm_vec4_maxsub.run mem [aP.val, bP.val, destP.val] =
      some (none, writes mem [(destP, (Cglm.glm_vec4_maxsub a b dest).list.map .f)]) :=
  transferO (e := Lib.glm_vec4_maxsub) (up := false) (by kernel_rfl) ((((RO.nil false _).addP h_dest.has r_dest .nil .nil).addO h_b.has (.cons o_b_dest .nil)).addO h_a.has (.skip (.cons o_a_dest .nil))) (.p rfl (.p rfl (.p rfl .nil))) (glm_vec4_maxsub_run _ _ _) (DT.val_done _) rfl rfl rfl
example (t : α) (b : V4 α) (dest : V4 α) : let mem : Mem α := [⟨true, dest.list.map .f ++ List.replicate 1 (.f t)⟩, ⟨false, b.list.map .f⟩]
    Holds mem (0, 1) (⟨dest.y, dest.z, dest.w, t⟩ : V4 α).list ∧ Holds mem (1, 0) b.list ∧ Room mem (0, 0) 4 ∧ Holds mem (0, 0) dest.list ∧ Over (0, 1) 4 (0, 0) 4 ∧ Over (1, 0) 4 (0, 0) 4 :=
  ⟨.within rfl rfl, .within rfl rfl, .within rfl rfl, .within rfl rfl, Or.inl (by decide), Or.inl (by decide)⟩

theorem C98_vec4_minsub {mem : Mem α} {aP bP destP : Ptr} {a : V4 α} {b : V4 α} {dest : V4 α} (h_a : Holds mem aP a.list) (h_b : Holds mem bP b.list) (h_dest : Holds mem destP dest.list) (r_dest : Room mem destP 4) (o_a_dest : Over aP 4 destP 4) (o_b_dest : Over bP 4 destP 4) :
    C.glm_vec4_minsub.run mem [aP.val, bP.val, destP.val] =
      some (none, writes mem [(destP, (Cglm.glm_vec4_minsub a b dest).list.map .f)]) :=
  transferO (e := Lib.glm_vec4_minsub) (up := false) (by kernel_rfl) ((((RO.nil false _).addP h_dest.has r_dest .nil .nil).addO h_b.has (.cons o_b_dest .nil)).addO h_a.has (.skip (.cons o_a_dest .nil))) (.p rfl (.p rfl (.p rfl .nil))) (glm_vec4_minsub_run _ _ _) (DT.val_done _) rfl rfl rfl
example (t : α) (b : V4 α) (dest : V4 α) : let mem : Mem α := [⟨true, dest.list.map .f ++ List.replicate 1 (.f t)⟩, ⟨false, b.list.map .f⟩]
    Holds mem (0, 1) (⟨dest.y, dest.z, dest.w, t⟩ : V4 α).list ∧ Holds mem (1, 0) b.list ∧ Room mem (0, 0) 4 ∧ Holds mem (0, 0) dest.list ∧ Over (0, 1) 4 (0, 0) 4 ∧ Over (1, 0) 4 (0, 0) 4 :=
  ⟨.within rfl rfl, .within rfl rfl, .within rfl rfl, .within rfl rfl, Or.inl (by decide), Or.inl (by decide)⟩

theorem C98_vec4_negate_to {mem : Mem α} {vP destP : Ptr} {v : V4 α} (h_v : Holds mem vP v.list) (r_dest : Room mem destP 4) (o_v_dest : Over vP 4 destP 4) :
    C.glm_vec4_negate_to.run mem [vP.val, destP.val] =
      some (none, writes mem [(destP, (Cglm.glm_vec4_negate_to v).list.map .f)]) :=
  transferO (e := Lib.glm_vec4_negate_to) (up := false) (by kernel_rfl) (((RO.nil false _).addP r_dest.has r_dest .nil .nil).addO h_v.has (.cons o_v_dest .nil)) (.p rfl (.p rfl .nil)) (glm_vec4_negate_to_run _) (DT.val_done _) rfl rfl rfl
example (v : V4 α) : let mem : Mem α := [⟨true, .undef :: v.list.map .f⟩]
    Holds mem (0, 1) v.list ∧ Room mem (0, 0) 4 ∧ Over (0, 1) 4 (0, 0) 4 :=
  ⟨.within rfl rfl, .within rfl rfl, Or.inl (by decide)⟩

theorem C98_vec4_normalize_to {mem : Mem α} {vP destP : Ptr} {v : V4 α} (h_v : Holds mem vP v.list) (r_dest : Room mem destP 4) (o_v_dest : Over vP 4 destP 4) :
    C.glm_vec4_normalize_to.run mem [vP.val, destP.val] =
      some (none, writes mem [(destP, (Cglm.glm_vec4_normalize_to v).list.map .f)]) :=
  transferO (e := Lib.glm_vec4_normalize_to) (up := false) (by kernel_rfl) (((RO.nil false _).addP r_dest.has r_dest .nil .nil).addO h_v.has (.cons o_v_dest .nil)) (.p rfl (.p rfl .nil)) (glm_vec4_normalize_to_run _) (DT.val_map_eq (glm_vec4_normalize_to_dt_val _) rfl) rfl rfl rfl
example (v : V4 α) : let mem : Mem α := [⟨true, .undef :: v.list.map .f⟩]
    Holds mem (0, 1) v.list ∧ Room mem (0, 0) 4 ∧ Over (0, 1) 4 (0, 0) 4 :=
  ⟨.within rfl rfl, .within rfl rfl, Or.inl (by decide)⟩

theorem C98_vec4_maxv {mem : Mem α} {aP bP destP : Ptr} {a : V4 α} {b : V4 α} (h_a : Holds mem aP a.list) (h_b : Holds mem bP b.list) (r_dest : Room mem destP 4) (o_a_dest : Over aP 4 destP 4) (o_b_dest : Over bP 4 destP 4) :
    C.glm_vec4_maxv.run mem [aP.val, bP.val, destP.val] =
      some (none, writes mem [(destP, (Cglm.glm_vec4_maxv a b).list.map .f)]) :=
  transferO (e := Lib.glm_vec4_maxv) (up := false) (by kernel_rfl) ((((RO.nil false _).addP r_dest.has r_dest .nil .nil).addO h_b.has (.cons o_b_dest .nil)).addO h_a.has (.skip (.cons o_a_dest .nil))) (.p rfl (.p rfl (.p rfl .nil))) (glm_vec4_maxv_run _ _) (DT.val_done _) rfl rfl rfl
example (a : V4 α) (b : V4 α) : let mem : Mem α := [⟨true, .undef :: a.list.map .f⟩, ⟨false, b.list.map .f⟩]
    Holds mem (0, 1) a.list ∧ Holds mem (1, 0) b.list ∧ Room mem (0, 0) 4 ∧ Over (0, 1) 4 (0, 0) 4 ∧ Over (1, 0) 4 (0, 0) 4 :=
  ⟨.within rfl rfl, .within rfl rfl, .within rfl rfl, Or.inl (by decide), Or.inl (by decide)⟩

theorem C98_vec4_minv {mem : Mem α} {aP bP destP : Ptr} {a : V4 α} {b : V4 α} (h_a : Holds mem aP a.list) (h_b : Holds mem bP b.list) (r_dest : Room mem destP 4) (o_a_dest : Over aP 4 destP 4) (o_b_dest : Over bP 4 destP 4) :
    C.glm_vec4_minv.run mem [aP.val, bP.val, destP.val] =
      some (none, writes mem [(destP, (Cglm.glm_vec4_minv a b).list.map .f)]) :=
  transferO (e := Lib.glm_vec4_minv) (up := false) (by kernel_rfl) ((((RO.nil false _).addP r_dest.has r_dest .nil .nil).addO h_b.has (.cons o_b_dest .nil)).addO h_a.has (.skip (.cons o_a_dest .nil))) (.p rfl (.p rfl (.p rfl .nil))) (glm_vec4_minv_run _ _) (DT.val_done _) rfl rfl rfl
example (a : V4 α) (b : V4 α) : let mem : Mem α := [⟨true, .undef :: a.list.map .f⟩, ⟨false, b.list.map .f⟩]
    Holds mem (0, 1) a.list ∧ Holds mem (1, 0) b.list ∧ Room mem (0, 0) 4 ∧ Over (0, 1) 4 (0, 0) 4 ∧ Over (1, 0) 4 (0, 0) 4 :=
  ⟨.within rfl rfl, .within rfl rfl, .within rfl rfl, Or.inl (by decide), Or.inl (by decide)⟩

theorem C98_vec4_lerp {mem : Mem α} {frmP toP destP : Ptr} {frm : V4 α} {«to» : V4 α} (t : α) (h_frm : Holds mem frmP frm.list) (h_to : Holds mem toP «to».list) (r_dest : Room mem destP 4) (o_frm_dest : Over frmP 4 destP 4) (o_to_dest : Over toP 4 destP 4) :
    C.glm_vec4_lerp.run mem [frmP.val, toP.val, .f t, destP.val] =
      some (none, writes mem [(destP, (Cglm.glm_vec4_lerp frm «to» t).list.map .f)]) :=
  transferO (e := Lib.glm_vec4_lerp) (up := false) (by kernel_rfl) ((((RO.nil false _).addP r_dest.has r_dest .nil .nil).addO h_to.has (.cons o_to_dest .nil)).addO h_frm.has (.skip (.cons o_frm_dest .nil))) (.p rfl (.p rfl (.f (.p rfl .nil)))) (glm_vec4_lerp_run _ _ _) (DT.val_done _) rfl rfl rfl
example (frm : V4 α) («to» : V4 α) : let mem : Mem α := [⟨true, .undef :: frm.list.map .f⟩, ⟨false, «to».list.map .f⟩]
    Holds mem (0, 1) frm.list ∧ Holds mem (1, 0) «to».list ∧ Room mem (0, 0) 4 ∧ Over (0, 1) 4 (0, 0) 4 ∧ Over (1, 0) 4 (0, 0) 4 :=
  ⟨.within rfl rfl, .within rfl rfl, .within rfl rfl, Or.inl (by decide), Or.inl (by decide)⟩

theorem C98_vec4_lerpc {mem : Mem α} {frmP toP destP : Ptr} {frm : V4 α} {«to» : V4 α} (t : α) (h_frm : Holds mem frmP frm.list) (h_to : Holds mem toP «to».list) (r_dest : Room mem destP 4) (o_frm_dest : Over frmP 4 destP 4) (o_to_dest : Over toP 4 destP 4) :
    C.glm_vec4_lerpc.run mem [frmP.val, toP.val, .f t, destP.val] =
      some (none, writes mem [(destP, (Cglm.glm_vec4_lerpc frm «to» t).list.map .f)]) :=
  transferO (e := Lib.glm_vec4_lerpc) (up := false) (by kernel_rfl) ((((RO.nil false _).addP r_dest.has r_dest .nil .nil).addO h_to.has (.cons o_to_dest .nil)).addO h_frm.has (.skip (.cons o_frm_dest .nil))) (.p rfl (.p rfl (.f (.p rfl .nil)))) (glm_vec4_lerpc_run _ _ _) (DT.val_done _) rfl rfl rfl
example (frm : V4 α) («to» : V4 α) : let mem : Mem α := [⟨true, .undef :: frm.list.map .f⟩, ⟨false, «to».list.map .f⟩]
    Holds mem (0, 1) frm.list ∧ Holds mem (1, 0) «to».list ∧ Room mem (0, 0) 4 ∧ Over (0, 1) 4 (0, 0) 4 ∧ Over (1, 0) 4 (0, 0) 4 :=
  ⟨.within rfl rfl, .within rfl rfl, .within rfl rfl, Or.inl (by decide), Or.inl (by decide)⟩

theorem C98_vec4_mix {mem : Mem α} {frmP toP destP : Ptr} {frm : V4 α} {«to» : V4 α} (t : α) (h_frm : Holds mem frmP frm.list) (h_to : Holds mem toP «to».list) (r_dest : Room mem destP 4) (o_frm_dest : Over frmP 4 destP 4) (o_to_dest : Over toP 4 destP 4) :
    C.glm_vec4_mix.run mem [frmP.val, toP.val, .f t, destP.val] =
      some (none, writes mem [(destP, (Cglm.glm_vec4_mix frm «to» t).list.map .f)]) :=
  transferO (e := Lib.glm_vec4_mix) (up := false) (by kernel_rfl) ((((RO.nil false _).addP r_dest.has r_dest .nil .nil).addO h_to.has (.cons o_to_dest .nil)).addO h_frm.has (.skip (.cons o_frm_dest .nil))) (.p rfl (.p rfl (.f (.p rfl .nil)))) (glm_vec4_mix_run _ _ _) (DT.val_done _) rfl rfl rfl
example (frm : V4 α) («to» : V4 α) : let mem : Mem α := [⟨true, .undef :: frm.list.map .f⟩, ⟨false, «to».list.map .f⟩]
    Holds mem (0, 1) frm.list ∧ Holds mem (1, 0) «to».list ∧ Room mem (0, 0) 4 ∧ Over (0, 1) 4 (0, 0) 4 ∧ Over (1, 0) 4 (0, 0) 4 :=
  ⟨.within rfl rfl, .within rfl rfl, .within rfl rfl, Or.inl (by decide), Or.inl (by decide)⟩

theorem C98_vec4_mixc {mem : Mem α} {frmP toP destP : Ptr} {frm : V4 α} {«to» : V4 α} (t : α) (h_frm : Holds mem frmP frm.list) (h_to : Holds mem toP «to».list) (r_dest : Room mem destP 4) (o_frm_dest : Over frmP 4 destP 4) (o_to_dest : Over toP 4 destP 4) :
    C.glm_vec4_mixc.run mem [frmP.val, toP.val, .f t, destP.val] =
      some (none, writes mem [(destP, (Cglm.glm_vec4_mixc frm «to» t).list.map .f)]) :=
  transferO (e := Lib.glm_vec4_mixc) (up := false) (by kernel_rfl) ((((RO.nil false _).addP r_dest.has r_dest .nil .nil).addO h_to.has (.cons o_to_dest .nil)).addO h_frm.has (.skip (.cons o_frm_dest .nil))) (.p rfl (.p rfl (.f (.p rfl .nil)))) (glm_vec4_mixc_run _ _ _) (DT.val_done _) rfl rfl rfl
example (frm : V4 α) («to» : V4 α) : let mem : Mem α := [⟨true, .undef :: frm.list.map .f⟩, ⟨false, «to».list.map .f⟩]
    Holds mem (0, 1) frm.list ∧ Holds mem (1, 0) «to».list ∧ Room mem (0, 0) 4 ∧ Over (0, 1) 4 (0, 0) 4 ∧ Over (1, 0) 4 (0, 0) 4 :=
  ⟨.within rfl rfl, .within rfl rfl, .within rfl rfl, Or.inl (by decide), Or.inl (by decide)⟩

theorem C98_vec4_step {mem : Mem α} {edgeP xP destP : Ptr} {edge : V4 α} {x : V4 α} (h_edge : Holds mem edgeP edge.list) (h_x : Holds mem xP x.list) (r_dest : Room mem destP 4) (o_edge_dest : Over edgeP 4 destP 4) (o_x_dest : Over xP 4 destP 4) :
    C.glm_vec4_step.run mem [edgeP.val, xP.val, destP.val] =
      some (none, writes mem [(destP, (Cglm.glm_vec4_step edge x).list.map .f)]) :=
  transferO (e := Lib.glm_vec4_step) (up := false) (by kernel_rfl) ((((RO.nil false _).addP r_dest.has r_dest .nil .nil).addO h_x.has (.cons o_x_dest .nil)).addO h_edge.has (.skip (.cons o_edge_dest .nil))) (.p rfl (.p rfl (.p rfl .nil))) (glm_vec4_step_run _ _) (DT.val_done _) rfl rfl rfl
example (edge : V4 α) (x : V4 α) : let mem : Mem α := [⟨true, .undef :: edge.list.map .f⟩, ⟨false, x.list.map .f⟩]
    Holds mem (0, 1) edge.list ∧ Holds mem (1, 0) x.list ∧ Room mem (0, 0) 4 ∧ Over (0, 1) 4 (0, 0) 4 ∧ Over (1, 0) 4 (0, 0) 4 :=
  ⟨.within rfl rfl, .within rfl rfl, .within rfl rfl, Or.inl (by decide), Or.inl (by decide)⟩

theorem C98_vec4_smoothstep_uni {mem : Mem α} {xP destP : Ptr} (edge0 : α) (edge1 : α) {x : V4 α} (h_x : Holds mem xP x.list) (r_dest : Room mem destP 4) (o_x_dest : Over xP 4 destP 4) :
    C.glm_vec4_smoothstep_uni.run mem [.f edge0, .f edge1, xP.val, destP.val] =
      some (none, writes mem [(destP, (Cglm.glm_vec4_smoothstep_uni edge0 edge1 x).list.map .f)]) :=
  transferO (e := Lib.glm_vec4_smoothstep_uni) (up := false) (by kernel_rfl) (((RO.nil false _).addP r_dest.has r_dest .nil .nil).addO h_x.has (.cons o_x_dest .nil)) (.f (.f (.p rfl (.p rfl .nil)))) (glm_vec4_smoothstep_uni_run _ _ _) (DT.val_done _) rfl rfl rfl
example (x : V4 α) : let mem : Mem α := [⟨true, .undef :: x.list.map .f⟩]
    Holds mem (0, 1) x.list ∧ Room mem (0, 0) 4 ∧ Over (0, 1) 4 (0, 0) 4 :=
  ⟨.within rfl rfl, .within rfl rfl, Or.inl (by decide)⟩

theorem C98_vec4_smoothstep {mem : Mem α} {edge0P edge1P xP destP : Ptr} {edge0 : V4 α} {edge1 : V4 α} {x : V4 α} (h_edge0 : Holds mem edge0P edge0.list) (h_edge1 : Holds mem edge1P edge1.list) (h_x : Holds mem xP x.list) (r_dest : Room mem destP 4) (o_edge0_dest : Over edge0P 4 destP 4) (o_edge1_dest : Over edge1P 4 destP 4) (o_x_dest : Over xP 4 destP 4) :
    C.glm_vec4_smoothstep.run mem [edge0P.val, edge1P.val, xP.val, destP.val] =
      some (none, writes mem [(destP, (Cglm.glm_vec4_smoothstep edge0 edge1 x).list.map .f)]) :=
  transferO (e := Lib.glm_vec4_smoothstep) (up := false) (by kernel_rfl) (((((RO.nil false _).addP r_dest.has r_dest .nil .nil).addO h_x.has (.cons o_x_dest .nil)).addO h_edge1.has (.skip (.cons o_edge1_dest .nil))).addO h_edge0.has (.skip (.skip (.cons o_edge0_dest .nil)))) (.p rfl (.p rfl (.p rfl (.p rfl .nil)))) (glm_vec4_smoothstep_run _ _ _) (DT.val_done _) rfl rfl rfl
example (edge0 : V4 α) (edge1 : V4 α) (x : V4 α) : let mem : Mem α := [⟨true, .undef :: edge0.list.map .f⟩, ⟨false, edge1.list.map .f⟩, ⟨false, x.list.map .f⟩]
    Holds mem (0, 1) edge0.list ∧ Holds mem (1, 0) edge1.list ∧ Holds mem (2, 0) x.list ∧ Room mem (0, 0) 4 ∧ Over (0, 1) 4 (0, 0) 4 ∧ Over (1, 0) 4 (0, 0) 4 ∧ Over (2, 0) 4 (0, 0) 4 :=
  ⟨.within rfl rfl, .within rfl rfl, .within rfl rfl, .within rfl rfl, Or.inl (by decide), Or.inl (by decide), Or.inl (by decide)⟩

theorem C98_vec4_smoothinterp {mem : Mem α} {frmP toP destP : Ptr} {frm : V4 α} {«to» : V4 α} (t : α) (h_frm : Holds mem frmP frm.list) (h_to : Holds mem toP «to».list) (r_dest : Room mem destP 4) (o_frm_dest : Over frmP 4 destP 4) (o_to_dest : Over toP 4 destP 4) :
    C.glm_vec4_smoothinterp.run mem [frmP.val, toP.val, .f t, destP.val] =
      some (none, writes mem [(destP, (Cglm.glm_vec4_smoothinterp frm «to» t).list.map .f)]) :=
  transferO (e := Lib.glm_vec4_smoothinterp) (up := false) (by kernel_rfl) ((((RO.nil false _).addP r_dest.has r_dest .nil .nil).addO h_to.has (.cons o_to_dest .nil)).addO h_frm.has (.skip (.cons o_frm_dest .nil))) (.p rfl (.p rfl (.f (.p rfl .nil)))) (glm_vec4_smoothinterp_run _ _ _) (DT.val_done _) rfl rfl rfl
example (frm : V4 α) («to» : V4 α) : let mem : Mem α := [⟨true, .undef :: frm.list.map .f⟩, ⟨false, «to».list.map .f⟩]
    Holds mem (0, 1) frm.list ∧ Holds mem (1, 0) «to».list ∧ Room mem (0, 0) 4 ∧ Over (0, 1) 4 (0, 0) 4 ∧ Over (1, 0) 4 (0, 0) 4 :=
  ⟨.within rfl rfl, .within rfl rfl, .within rfl rfl, Or.inl (by decide), Or.inl (by decide)⟩

theorem C98_vec4_smoothinterpc {mem : Mem α} {frmP toP destP : Ptr} {frm : V4 α} {«to» : V4 α} (t : α) (h_frm : Holds mem frmP frm.list) (h_to : Holds mem toP «to».list) (r_dest : Room mem destP 4) (o_frm_dest : Over frmP 4 destP 4) (o_to_dest : Over toP 4 destP 4) :
    C.glm_vec4_smoothinterpc.run mem [frmP.val, toP.val, .f t, destP.val] =
      some (none, writes mem [(destP, (Cglm.glm_vec4_smoothinterpc frm «to» t).list.map .f)]) :=
  transferO (e := Lib.glm_vec4_smoothinterpc) (up := false) (by kernel_rfl) ((((RO.nil false _).addP r_dest.has r_dest .nil .nil).addO h_to.has (.cons o_to_dest .nil)).addO h_frm.has (.skip (.cons o_frm_dest .nil))) (.p rfl (.p rfl (.f (.p rfl .nil)))) (glm_vec4_smoothinterpc_run _ _ _) (DT.val_done _) rfl rfl rfl
example (frm : V4 α) («to» : V4 α) : let mem : Mem α := [⟨true, .undef :: frm.list.map .f⟩, ⟨false, «to».list.map .f⟩]
    Holds mem (0, 1) frm.list ∧ Holds mem (1, 0) «to».list ∧ Room mem (0, 0) 4 ∧ Over (0, 1) 4 (0, 0) 4 ∧ Over (1, 0) 4 (0, 0) 4 :=
  ⟨.within rfl rfl, .within rfl rfl, .within rfl rfl, Or.inl (by decide), Or.inl (by decide)⟩

theorem C98_vec4_make {mem : Mem α} {srcP destP : Ptr} {src : V4 α} (h_src : Holds mem srcP src.list) (r_dest : Room mem destP 4) (o_src_dest : Over srcP 4 destP 4) :
    C.glm_vec4_make.run mem [srcP.val, destP.val] =
      some (none, writes mem [(destP, (Cglm.glm_vec4_make src).list.map .f)]) :=
  transferO (e := Lib.glm_vec4_make) (up := false) (by kernel_rfl) (((RO.nil false _).addP r_dest.has r_dest .nil .nil).addO h_src.has (.cons o_src_dest .nil)) (.p rfl (.p rfl .nil)) (glm_vec4_make_run _) (DT.val_done _) rfl rfl rfl
example (src : V4 α) : let mem : Mem α := [⟨true, .undef :: src.list.map .f⟩]
    Holds mem (0, 1) src.list ∧ Room mem (0, 0) 4 ∧ Over (0, 1) 4 (0, 0) 4 :=
  ⟨.within rfl rfl, .within rfl rfl, Or.inl (by decide)⟩

theorem C98_vec3 {mem : Mem α} {v4P destP : Ptr} {v4 : V4 α} (h_v4 : Holds mem v4P v4.list) (r_dest : Room mem destP 3) (o_v4_dest : Over v4P 4 destP 3) :
    C.glm_vec3.run mem [v4P.val, destP.val] =
      some (none, writes mem [(destP, (Cglm.glm_vec3 v4).list.map .f)]) :=
  transferO (e := Lib.glm_vec3) (up := false) (by kernel_rfl) (((RO.nil false _).addP r_dest.has r_dest .nil .nil).addO h_v4.has (.cons o_v4_dest .nil)) (.p rfl (.p rfl .nil)) (glm_vec3_run _) (DT.val_done _) rfl rfl rfl
example (v4 : V4 α) : let mem : Mem α := [⟨true, .undef :: v4.list.map .f⟩]
    Holds mem (0, 1) v4.list ∧ Room mem (0, 0) 3 ∧ Over (0, 1) 4 (0, 0) 3 :=
  ⟨.within rfl rfl, .within rfl rfl, Or.inl (by decide)⟩

theorem C98_vec3_copy {mem : Mem α} {aP destP : Ptr} {a : V3 α} (h_a : Holds mem aP a.list) (r_dest : Room mem destP 3) (o_a_dest : Over aP 3 destP 3) :
    C.glm_vec3_copy.run mem [aP.val, destP.val] =
      some (none, writes mem [(destP, (Cglm.glm_vec3_copy a).list.map .f)]) :=
  transferO (e := Lib.glm_vec3_copy) (up := false) (by kernel_rfl) (((RO.nil false _).addP r_dest.has r_dest .nil .nil).addO h_a.has (.cons o_a_dest .nil)) (.p rfl (.p rfl .nil)) (glm_vec3_copy_run _) (DT.val_done _) rfl rfl rfl
example (a : V3 α) : let mem : Mem α := [⟨true, .undef :: a.list.map .f⟩]
    Holds mem (0, 1) a.list ∧ Room mem (0, 0) 3 ∧ Over (0, 1) 3 (0, 0) 3 :=
  ⟨.within rfl rfl, .within rfl rfl, Or.inl (by decide)⟩

theorem C98_vec3_add {mem : Mem α} {aP bP destP : Ptr} {a : V3 α} {b : V3 α} (h_a : Holds mem aP a.list) (h_b : Holds mem bP b.list) (r_dest : Room mem destP 3) (o_a_dest : Over aP 3 destP 3) (o_b_dest : Over bP 3 destP 3) :
    C.glm_vec3_add.run mem [aP.val, bP.val, destP.val] =
      some (none, writes mem [(destP, (Cglm.glm_vec3_add a b).list.map .f)]) :=
  transferO (e := Lib.glm_vec3_add) (up := false) (by kernel_rfl) ((((RO.nil false _).addP r_dest.has r_dest .nil .nil).addO h_b.has (.cons o_b_dest .nil)).addO h_a.has (.skip (.cons o_a_dest .nil))) (.p rfl (.p rfl (.p rfl .nil))) (glm_vec3_add_run _ _) (DT.val_done _) rfl rfl rfl
example (a : V3 α) (b : V3 α) : let mem : Mem α := [⟨true, .undef :: a.list.map .f⟩, ⟨false, b.list.map .f⟩]
    Holds mem (0, 1) a.list ∧ Holds mem (1, 0) b.list ∧ Room mem (0, 0) 3 ∧ Over (0, 1) 3 (0, 0) 3 ∧ Over (1, 0) 3 (0, 0) 3 :=
  ⟨.within rfl rfl, .within rfl rfl, .within rfl rfl, Or.inl (by decide), Or.inl (by decide)⟩

theorem C98_vec3_adds {mem : Mem α} {vP destP : Ptr} {v : V3 α} (s : α) (h_v : Holds mem vP v.list) (r_dest : Room mem destP 3) (o_v_dest : Over vP 3 destP 3) :
    C.glm_vec3_adds.run mem [vP.val, .f s, destP.val] =
      some (none, writes mem [(destP, (Cglm.glm_vec3_adds v s).list.map .f)]) :=
  transferO (e := Lib.glm_vec3_adds) (up := false) (by kernel_rfl) (((RO.nil false _).addP r_dest.has r_dest .nil .nil).addO h_v.has (.cons o_v_dest .nil)) (.p rfl (.f (.p rfl .nil))) (glm_vec3_adds_run _ _) (DT.val_done _) rfl rfl rfl
example (v : V3 α) : let mem : Mem α := [⟨true, .undef :: v.list.map .f⟩]
    Holds mem (0, 1) v.list ∧ Room mem (0, 0) 3 ∧ Over (0, 1) 3 (0, 0) 3 :=
  ⟨.within rfl rfl, .within rfl rfl, Or.inl (by decide)⟩

theorem C98_vec3_sub {mem : Mem α} {aP bP destP : Ptr} {a : V3 α} {b : V3 α} (h_a : Holds mem aP a.list) (h_b : Holds mem bP b.list) (r_dest : Room mem destP 3) (o_a_dest : Over aP 3 destP 3) (o_b_dest : Over bP 3 destP 3) :
    C.glm_vec3_sub.run mem [aP.val, bP.val, destP.val] =
      some (none, writes mem [(destP, (Cglm.glm_vec3_sub a b).list.map .f)]) :=
  transferO (e := Lib.glm_vec3_sub) (up := false) (by kernel_rfl) ((((RO.nil false _).addP r_dest.has r_dest .nil .nil).addO h_b.has (.cons o_b_dest .nil)).addO h_a.has (.skip (.cons o_a_dest .nil))) (.p rfl (.p rfl (.p rfl .nil))) (glm_vec3_sub_run _ _) (DT.val_done _) rfl rfl rfl
example (a : V3 α) (b : V3 α) : let mem : Mem α := [⟨true, .undef :: a.list.map .f⟩, ⟨false, b.list.map .f⟩]
    Holds mem (0, 1) a.list ∧ Holds mem (1, 0) b.list ∧ Room mem (0, 0) 3 ∧ Over (0, 1) 3 (0, 0) 3 ∧ Over (1, 0) 3 (0, 0) 3 :=
  ⟨.within rfl rfl, .within rfl rfl, .within rfl rfl, Or.inl (by decide), Or.inl (by decide)⟩

theorem C98_vec3_subs {mem : Mem α} {vP destP : Ptr} {v : V3 α} (s : α) (h_v : Holds mem vP v.list) (r_dest : Room mem destP 3) (o_v_dest : Over vP 3 destP 3) :
    C.glm_vec3_subs.run mem [vP.val, .f s, destP.val] =
      some (none, writes mem [(destP, (Cglm.glm_vec3_subs v s).list.map .f)]) :=
  transferO (e := Lib.glm_vec3_subs) (up := false) (by kernel_rfl) (((RO.nil false _).addP r_dest.has r_dest .nil .nil).addO h_v.has (.cons o_v_dest .nil)) (.p rfl (.f (.p rfl .nil))) (glm_vec3_subs_run _ _) (DT.val_done _) rfl rfl rfl
example (v : V3 α) : let mem : Mem α := [⟨true, .undef :: v.list.map .f⟩]
    Holds mem (0, 1) v.list ∧ Room mem (0, 0) 3 ∧ Over (0, 1) 3 (0, 0) 3 :=
  ⟨.within rfl rfl, .within rfl rfl, Or.inl (by decide)⟩

theorem C98_vec3_mul {mem : Mem α} {aP bP destP : Ptr} {a : V3 α} {b : V3 α} (h_a : Holds mem aP a.list) (h_b : Holds mem bP b.list) (r_dest : Room mem destP 3) (o_a_dest : Over aP 3 destP 3) (o_b_dest : Over bP 3 destP 3) :
    C.glm_vec3_mul.run mem [aP.val, bP.val, destP.val] =
      some (none, writes mem [(destP, (Cglm.glm_vec3_mul a b).list.map .f)]) :=
  transferO (e := Lib.glm_vec3_mul) (up := false) (by kernel_rfl) ((((RO.nil false _).addP r_dest.has r_dest .nil .nil).addO h_b.has (.cons o_b_dest .nil)).addO h_a.has (.skip (.cons o_a_dest .nil))) (.p rfl (.p rfl (.p rfl .nil))) (glm_vec3_mul_run _ _) (DT.val_done _) rfl rfl rfl
example (a : V3 α) (b : V3 α) : let mem : Mem α := [⟨true, .undef :: a.list.map .f⟩, ⟨false, b.list.map .f⟩]
    Holds mem (0, 1) a.list ∧ Holds mem (1, 0) b.list ∧ Room mem (0, 0) 3 ∧ Over (0, 1) 3 (0, 0) 3 ∧ Over (1, 0) 3 (0, 0) 3 :=
  ⟨.within rfl rfl, .within rfl rfl, .within rfl rfl, Or.inl (by decide), Or.inl (by decide)⟩

theorem C98_vec3_scale {mem : Mem α} {vP destP : Ptr} {v : V3 α} (s : α) (h_v : Holds mem vP v.list) (r_dest : Room mem destP 3) (o_v_dest : Over vP 3 destP 3) :
    C.glm_vec3_scale.run mem [vP.val, .f s, destP.val] =
      some (none, writes mem [(destP, (Cglm.glm_vec3_scale v s).list.map .f)]) :=
  transferO (e := Lib.glm_vec3_scale) (up := false) (by kernel_rfl) (((RO.nil false _).addP r_dest.has r_dest .nil .nil).addO h_v.has (.cons o_v_dest .nil)) (.p rfl (.f (.p rfl .nil))) (glm_vec3_scale_run _ _) (DT.val_done _) rfl rfl rfl
example (v : V3 α) : let mem : Mem α := [⟨true, .undef :: v.list.map .f⟩]
    Holds mem (0, 1) v.list ∧ Room mem (0, 0) 3 ∧ Over (0, 1) 3 (0, 0) 3 :=
  ⟨.within rfl rfl, .within rfl rfl, Or.inl (by decide)⟩

theorem C98_vec3_scale_as {mem : Mem α} {vP destP : Ptr} {v : V3 α} (s : α) (h_v : Holds mem vP v.list) (r_dest : Room mem destP 3) (o_v_dest : Over vP 3 destP 3) :
    C.glm_vec3_scale_as.run mem [vP.val, .f s, destP.val] =
      some (none, writes mem [(destP, (Cglm.glm_vec3_scale_as v s).list.map .f)]) :=
  transferO (e := Lib.glm_vec3_scale_as) (up := false) (by kernel_rfl) (((RO.nil false _).addP r_dest.has r_dest .nil .nil).addO h_v.has (.cons o_v_dest .nil)) (.p rfl (.f (.p rfl .nil))) (glm_vec3_scale_as_run _ _) (DT.val_map_eq (glm_vec3_scale_as_dt_val _ _) rfl) rfl rfl rfl
example (v : V3 α) : let mem : Mem α := [⟨true, .undef :: v.list.map .f⟩]
    Holds mem (0, 1) v.list ∧ Room mem (0, 0) 3 ∧ Over (0, 1) 3 (0, 0) 3 :=
  ⟨.within rfl rfl, .within rfl rfl, Or.inl (by decide)⟩

theorem C98_vec3_div {mem : Mem α} {aP bP destP : Ptr} {a : V3 α} {b : V3 α} (h_a : Holds mem aP a.list) (h_b : Holds mem bP b.list) (r_dest : Room mem destP 3) (o_a_dest : Over aP 3 destP 3) (o_b_dest : Over bP 3 destP 3) :
    C.glm_vec3_div.run mem [aP.val, bP.val, destP.val] =
      some (none, writes mem [(destP, (Cglm.glm_vec3_div a b).list.map .f)]) :=
  transferO (e := Lib.glm_vec3_div) (up := false) (by kernel_rfl) ((((RO.nil false _).addP r_dest.has r_dest .nil .nil).addO h_b.has (.cons o_b_dest .nil)).addO h_a.has (.skip (.cons o_a_dest .nil))) (.p rfl (.p rfl (.p rfl .nil))) (glm_vec3_div_run _ _) (DT.val_done _) rfl rfl rfl
example (a : V3 α) (b : V3 α) : let mem : Mem α := [⟨true, .undef :: a.list.map .f⟩, ⟨false, b.list.map .f⟩]
    Holds mem (0, 1) a.list ∧ Holds mem (1, 0) b.list ∧ Room mem (0, 0) 3 ∧ Over (0, 1) 3 (0, 0) 3 ∧ Over (1, 0) 3 (0, 0) 3 :=
  ⟨.within rfl rfl, .within rfl rfl, .within rfl rfl, Or.inl (by decide), Or.inl (by decide)⟩

theorem C98_vec3_divs {mem : Mem α} {vP destP : Ptr} {v : V3 α} (s : α) (h_v : Holds mem vP v.list) (r_dest : Room mem destP 3) (o_v_dest : Over vP 3 destP 3) :
    C.glm_vec3_divs.run mem [vP.val, .f s, destP.val] =
      some (none, writes mem [(destP, (Cglm.glm_vec3_divs v s).list.map .f)]) :=
  transferO (e := Lib.glm_vec3_divs) (up := false) (by kernel_rfl) (((RO.nil false _).addP r_dest.has r_dest .nil .nil).addO h_v.has (.cons o_v_dest .nil)) (.p rfl (.f (.p rfl .nil))) (glm_vec3_divs_run _ _) (DT.val_done _) rfl rfl rfl
example (v : V3 α) : let mem : Mem α := [⟨true, .undef :: v.list.map .f⟩]
    Holds mem (0, 1) v.list ∧ Room mem (0, 0) 3 ∧ Over (0, 1) 3 (0, 0) 3 :=
  ⟨.within rfl rfl, .within rfl rfl, Or.inl (by decide)⟩

theorem C98_vec3_addadd {mem : Mem α} {aP bP destP : Ptr} {a : V3 α} {b : V3 α} {dest : V3 α} (h_a : Holds mem aP a.list) (h_b : Holds mem bP b.list) (h_dest : Holds mem destP dest.list) (r_dest : Room mem destP 3) (o_a_dest : Over aP 3 destP 3) (o_b_dest : Over bP 3 destP 3) :
    C.glm_vec3_addadd.run mem [aP.val, bP.val, destP.val] =
      some (none, writes mem [(destP, (Cglm.glm_vec3_addadd a b dest).list.map .f)]) :=
  transferO (e := Lib.glm_vec3_addadd) (up := false) (by kernel_rfl) ((((RO.nil false _).addP h_dest.has r_dest .nil .nil).addO h_b.has (.cons o_b_dest .nil)).addO h_a.has (.skip (.cons o_a_dest .nil))) (.p rfl (.p rfl (.p rfl .nil))) (glm_vec3_addadd_run _ _ _) (DT.val_done _) rfl rfl rfl
example (t : α) (b : V3 α) (dest : V3 α) : let mem : Mem α := [⟨true, dest.list.map .f ++ List.replicate 1 (.f t)⟩, ⟨false, b.list.map .f⟩]
    Holds mem (0, 1) (⟨dest.y, dest.z, t⟩ : V3 α).list ∧ Holds mem (1, 0) b.list ∧ Room mem (0, 0) 3 ∧ Holds mem (0, 0) dest.list ∧ Over (0, 1) 3 (0, 0) 3 ∧ Over (1, 0) 3 (0, 0) 3 :=
  ⟨.within rfl rfl, .within rfl rfl, .within rfl rfl, .within rfl rfl, Or.inl (by decide), Or.inl (by decide)⟩

theorem C98_vec3_subadd {mem : Mem α} {aP bP destP : Ptr} {a : V3 α} {b : V3 α} {dest : V3 α} (h_a : Holds mem aP a.list) (h_b : Holds mem bP b.list) (h_dest : Holds mem destP dest.list) (r_dest : Room mem destP 3) (o_a_dest : Over aP 3 destP 3) (o_b_dest : Over bP 3 destP 3) :
    C.glm_vec3_subadd.run mem [aP.val, bP.val, destP.val] =
      some (none, writes mem [(destP, (Cglm.glm_vec3_subadd a b dest).list.map .f)]) :=
  transferO (e := Lib.glm_vec3_subadd) (up := false) (by kernel_rfl) ((((RO.nil false _).addP h_dest.has r_dest .nil .nil).addO h_b.has (.cons o_b_dest .nil)).addO h_a.has (.skip (.cons o_a_dest .nil))) (.p rfl (.p rfl (.p rfl .nil))) (glm_vec3_subadd_run _ _ _) (DT.val_done _) rfl rfl rfl
example (t : α) (b : V3 α) (dest : V3 α) : let mem : Mem α := [⟨true, dest.list.map .f ++ List.replicate 1 (.f t)⟩, ⟨false, b.list.map .f⟩]
    Holds mem (0, 1) (⟨dest.y, dest.z, t⟩ : V3 α).list ∧ Holds mem (1, 0) b.list ∧ Room mem (0, 0) 3 ∧ Holds mem (0, 0) dest.list ∧ Over (0, 1) 3 (0, 0) 3 ∧ Over (1, 0) 3 (0, 0) 3 :=
  ⟨.within rfl rfl, .within rfl rfl, .within rfl rfl, .within rfl rfl, Or.inl (by decide), Or.inl (by decide)⟩

theorem C98_vec3_muladd {mem : Mem α} {aP bP destP : Ptr} {a : V3 α} {b : V3 α} {dest : V3 α} (h_a : Holds mem aP a.list) (h_b : Holds mem bP b.list) (h_dest : Holds mem destP dest.list) (r_dest : Room mem destP 3) (o_a_dest : Over aP 3 destP 3) (o_b_dest : Over bP 3 destP 3) :
    C.glm_vec3_muladd.run mem [aP.val, bP.val, destP.val] =
      some (none, writes mem [(destP, (Cglm.glm_vec3_muladd a b dest).list.map .f)]) :=
  transferO (e := Lib.glm_vec3_muladd) (up := false) (by kernel_rfl) ((((RO.nil false _).addP h_dest.has r_dest .nil .nil).addO h_b.has (.cons o_b_dest .nil)).addO h_a.has (.skip (.cons o_a_dest .nil))) (.p rfl (.p rfl (.p rfl .nil))) (glm_vec3_muladd_run _ _ _) (DT.val_done _) rfl rfl rfl
example (t : α) (b : V3 α) (dest : V3 α) : let mem : Mem α := [⟨true, dest.list.map .f ++ List.replicate 1 (.f t)⟩, ⟨false, b.list.map .f⟩]
    Holds mem (0, 1) (⟨dest.y, dest.z, t⟩ : V3 α).list ∧ Holds mem (1, 0) b.list ∧ Room mem (0, 0) 3 ∧ Holds mem (0, 0) dest.list ∧ Over (0, 1) 3 (0, 0) 3 ∧ Over (1, 0) 3 (0, 0) 3 :=
  ⟨.within rfl rfl, .within rfl rfl, .within rfl rfl, .within rfl rfl, Or.inl (by decide), Or.inl (by decide)⟩

theorem C98_vec3_muladds {mem : Mem α} {aP destP : Ptr} {a : V3 α} (s : α) {dest : V3 α} (h_a : Holds mem aP a.list) (h_dest : Holds mem destP dest.list) (r_dest : Room mem destP 3) (o_a_dest : Over aP 3 destP 3) :
    C.glm_vec3_muladds.run mem [aP.val, .f s, destP.val] =
      some (none, writes mem [(destP, (Cglm.glm_vec3_muladds a s dest).list.map .f)]) :=
  transferO (e := Lib.glm_vec3_muladds) (up := false) (by kernel_rfl) (((RO.nil false _).addP h_dest.has r_dest .nil .nil).addO h_a.has (.cons o_a_dest .nil)) (.p rfl (.f (.p rfl .nil))) (glm_vec3_muladds_run _ _ _) (DT.val_done _) rfl rfl rfl
example (t : α) (dest : V3 α) : let mem : Mem α := [⟨true, dest.list.map .f ++ List.replicate 1 (.f t)⟩]
    Holds mem (0, 1) (⟨dest.y, dest.z, t⟩ : V3 α).list ∧ Room mem (0, 0) 3 ∧ Holds mem (0, 0) dest.list ∧ Over (0, 1) 3 (0, 0) 3 :=
  ⟨.within rfl rfl, .within rfl rfl, .within rfl rfl, Or.inl (by decide)⟩

theorem C98_vec3_maxadd {mem : Mem α} {aP bP destP : Ptr} {a : V3 α} {b : V3 α} {dest : V3 α} (h_a : Holds mem aP a.list) (h_b : Holds mem bP b.list) (h_dest : Holds mem destP dest.list) (r_dest : Room mem destP 3) (o_a_dest : Over aP 3 destP 3) (o_b_dest : Over bP 3 destP 3) :
    C.glm_vec3_maxadd.run mem [aP.val, bP.val, destP.val] =
      some (none, writes mem [(destP, (Cglm.glm_vec3_maxadd a b dest).list.map .f)]) :=
  transferO (e := Lib.glm_vec3_maxadd) (up := false) (by kernel_rfl) ((((RO.nil false _).addP h_dest.has r_dest .nil .nil).addO h_b.has (.cons o_b_dest .nil)).addO h_a.has (.skip (.cons o_a_dest .nil))) (.p rfl (.p rfl (.p rfl .nil))) (glm_vec3_maxadd_run _ _ _) (DT.val_done _) rfl rfl rfl
example (t : α) (b : V3 α) (dest : V3 α) : let mem : Mem α := [⟨true, dest.list.map .f ++ List.replicate 1 (.f t)⟩, ⟨false, b.list.map .f⟩]
    Holds mem (0, 1) (⟨dest.y, dest.z, t⟩ : V3 α).list ∧ Holds mem (1, 0) b.list ∧ Room mem (0, 0) 3 ∧ Holds mem (0, 0) dest.list ∧ Over (0, 1) 3 (0, 0) 3 ∧ Over (1, 0) 3 (0, 0) 3 :=
  ⟨.within rfl rfl, .within rfl rfl, .within rfl rfl, .within rfl rfl, Or.inl (by decide), Or.inl (by decide)⟩

theorem C98_vec3_minadd {mem : Mem α} {aP bP destP : Ptr} {a : V3 α} {b : V3 α} {dest : V3 α} (h_a : Holds mem aP a.list) (h_b : Holds mem bP b.list) (h_dest : Holds mem destP dest.list) (r_dest : Room mem destP 3) (o_a_dest : Over aP 3 destP 3) (o_b_dest : Over bP 3 destP 3) :
    C.glm_vec3_minadd.run mem [aP.val, bP.val, destP.val] =
      some (none, writes mem [(destP, (Cglm.glm_vec3_minadd a b dest).list.map .f)]) :=
  transferO (e := Lib.glm_vec3_minadd) (up := false) (by kernel_rfl) ((((RO.nil false _).addP h_dest.has r_dest .nil .nil).addO h_b.has (.cons o_b_dest .nil)).addO h_a.has (.skip (.cons o_a_dest .nil))) (.p rfl (.p rfl (.p rfl .nil))) (glm_vec3_minadd_run _ _ _) (DT.val_done _) rfl rfl rfl
example (t : α) (b : V3 α) (dest : V3 α) : let mem : Mem α := [⟨true, dest.list.map .f ++ List.replicate 1 (.f t)⟩, ⟨false, b.list.map .f⟩]
    Holds mem (0, 1) (⟨dest.y, dest.z, t⟩ : V3 α).list ∧ Holds mem (1, 0) b.list ∧ Room mem (0, 0) 3 ∧ Holds mem (0, 0) dest.list ∧ Over (0, 1) 3 (0, 0) 3 ∧ Over (1, 0) 3 (0, 0) 3 :=
  ⟨.within rfl rfl, .within rfl rfl, .within rfl rfl, .within rfl rfl, Or.inl (by decide), Or.inl (by decide)⟩

theorem C98_vec3_subsub {mem : Mem α} {aP bP destP : Ptr} {a : V3 α} {b : V3 α} {dest : V3 α} (h_a : Holds mem aP a.list) (h_b : Holds mem bP b.list) (h_dest : Holds mem destP dest.list) (r_dest : Room mem destP 3) (o_a_dest : Over aP 3 destP 3) (o_b_dest : Over bP 3 destP 3) :
    C.glm_vec3_subsub.run mem [aP.val, bP.val, destP.val] =
      some (none, writes mem [(destP, (Cglm.glm_vec3_subsub a b dest).list.map .f)]) :=
  transferO (e := Lib.glm_vec3_subsub) (up := false) (by kernel_rfl) ((((RO.nil false _).addP h_dest.has r_dest .nil .nil).addO h_b.has (.cons o_b_dest .nil)).addO h_a.has (.skip (.cons o_a_dest .nil))) (.p rfl (.p rfl (.p rfl .nil))) (glm_vec3_subsub_run _ _ _) (DT.val_done _) rfl rfl rfl
example (t : α) (b : V3 α) (dest : V3 α) : let mem : Mem α := [⟨true, dest.list.map .f ++ List.replicate 1 (.f t)⟩, ⟨false, b.list.map .f⟩]
    Holds mem (0, 1) (⟨dest.y, dest.z, t⟩ : V3 α).list ∧ Holds mem (1, 0) b.list ∧ Room mem (0, 0) 3 ∧ Holds mem (0, 0) dest.list ∧ Over (0, 1) 3 (0, 0) 3 ∧ Over (1, 0) 3 (0, 0) 3 :=
  ⟨.within rfl rfl, .within rfl rfl, .within rfl rfl, .within rfl rfl, Or.inl (by decide), Or.inl (by decide)⟩

theorem C98_vec3_addsub {mem : Mem α} {aP bP destP : Ptr} {a : V3 α} {b : V3 α} {dest : V3 α} (h_a : Holds mem aP a.list) (h_b : Holds mem bP b.list) (h_dest : Holds mem destP dest.list) (r_dest : Room mem destP 3) (o_a_dest : Over aP 3 destP 3) (o_b_dest : Over bP 3 destP 3) :
    C.glm_vec3_addsub.run mem [aP.val, bP.val, destP.val] =
      some (none, writes mem [(destP, (Cglm.glm_vec3_addsub a b dest).list.map .f)]) :=
  transferO (e := Lib.glm_vec3_addsub) (up := false) (by kernel_rfl) ((((RO.nil false _).addP h_dest.has r_dest .nil .nil).addO h_b.has (.cons o_b_dest .nil)).addO h_a.has (.skip (.cons o_a_dest .nil))) (.p rfl (.p rfl (.p rfl .nil))) (glm_vec3_addsub_run _ _ _) (DT.val_done _) rfl rfl rfl
example (t : α) (b : V3 α) (dest : V3 α) : let mem : Mem α := [⟨true, dest.list.map .f ++ List.replicate 1 (.f t)⟩, ⟨false, b.list.map .f⟩]
    Holds mem (0, 1) (⟨dest.y, dest.z, t⟩ : V3 α).list ∧ Holds mem (1, 0) b.list ∧ Room mem (0, 0) 3 ∧ Holds mem (0, 0) dest.list ∧ Over (0, 1) 3 (0, 0) 3 ∧ Over (1, 0) 3 (0, 0) 3 :=
  ⟨.within rfl rfl, .within rfl rfl, .within rfl rfl, .within rfl rfl, Or.inl (by decide), Or.inl (by decide)⟩

theorem C98_vec3_mulsub {mem : Mem α} {aP bP destP : Ptr} {a : V3 α} {b : V3 α} {dest : V3 α} (h_a : Holds mem aP a.list) (h_b : Holds mem bP b.list) (h_dest : Holds mem destP dest.list) (r_dest : Room mem destP 3) (o_a_dest : Over aP 3 destP 3) (o_b_dest : Over bP 3 destP 3) :
    C.glm_vec3_mulsub.run mem [aP.val, bP.val, destP.val] =
      some (none, writes mem [(destP, (Cglm.glm_vec3_mulsub a b dest).list.map .f)]) :=
  transferO (e := Lib.glm_vec3_mulsub) (up := false) (by kernel_rfl) ((((RO.nil false _).addP h_dest.has r_dest .nil .nil).addO h_b.has (.cons o_b_dest .nil)).addO h_a.has (.skip (.cons o_a_dest .nil))) (.p rfl (.p rfl (.p rfl .nil))) (glm_vec3_mulsub_run _ _ _) (DT.val_done _) rfl rfl rfl
example (t : α) (b : V3 α) (dest : V3 α) : let mem : Mem α := [⟨true, dest.list.map .f ++ List.replicate 1 (.f t)⟩, ⟨false, b.list.map .f⟩]
    Holds mem (0, 1) (⟨dest.y, dest.z, t⟩ : V3 α).list ∧ Holds mem (1, 0) b.list ∧ Room mem (0, 0) 3 ∧ Holds mem (0, 0) dest.list ∧ Over (0, 1) 3 (0, 0) 3 ∧ Over (1, 0) 3 (0, 0) 3 :=
  ⟨.within rfl rfl, .within rfl rfl, .within rfl rfl, .within rfl rfl, Or.inl (by decide), Or.inl (by decide)⟩

theorem C98_vec3_mulsubs {mem : Mem α} {aP destP : Ptr} {a : V3 α} (s : α) {dest : V3 α} (h_a : Holds mem aP a.list) (h_dest : Holds mem destP dest.list) (r_dest : Room mem destP 3) (o_a_dest : Over aP 3 destP 3) :
    C.glm_vec3_mulsubs.run mem [aP.val, .f s, destP.val] =
      some (none, writes mem [(destP, (Cglm.glm_vec3_mulsubs a s dest).list.map .f)]) :=
  transferO (e := Lib.glm_vec3_mulsubs) (up := false) (by kernel_rfl) (((RO.nil false _).addP h_dest.has r_dest .nil .nil).addO h_a.has (.cons o_a_dest .nil)) (.p rfl (.f (.p rfl .nil))) (glm_vec3_mulsubs_run _ _ _) (DT.val_done _) rfl rfl rfl
example (t : α) (dest : V3 α) : let mem : Mem α := [⟨true, dest.list.map .f ++ List.replicate 1 (.f t)⟩]
    Holds mem (0, 1) (⟨dest.y, dest.z, t⟩ : V3 α).list ∧ Room mem (0, 0) 3 ∧ Holds mem (0, 0) dest.list ∧ Over (0, 1) 3 (0, 0) 3 :=
  ⟨.within rfl rfl, .within rfl rfl, .within rfl rfl, Or.inl (by decide)⟩

theorem C98_vec3_maxsub {mem : Mem α} {aP bP destP : Ptr} {a : V3 α} {b : V3 α} {dest : V3 α} (h_a : Holds mem aP a.list) (h_b : Holds mem bP b.list) (h_dest : Holds mem destP dest.list) (r_dest : Room mem destP 3) (o_a_dest : Over aP 3 destP 3) (o_b_dest : Over bP 3 destP 3) :
    C.glm_vec3_maxsub.run mem [aP.val, bP.val, destP.val] =
      some (none, writes mem [(destP, (Cglm.glm_vec3_maxsub a b dest).list.map .f)]) :=
  transferO (e := Lib.glm_vec3_maxsub) (up := false) (by kernel_rfl) ((((RO.nil false _).addP h_dest.has r_dest .nil .nil).addO h_b.has (.cons o_b_dest .nil)).addO h_a.has (.skip (.cons o_a_dest .nil))) (.p rfl (.p rfl (.p rfl .nil))) (glm_vec3_maxsub_run _ _ _) (DT.val_done _) rfl rfl rfl
example (t : α) (b : V3 α) (dest : V3 α) : let mem : Mem α := [⟨true, dest.list.map .f ++ List.replicate 1 (.f t)⟩, ⟨false, b.list.map .f⟩]
    Holds mem (0, 1) (⟨dest.y, dest.z, t⟩ : V3 α).list ∧ Holds mem (1, 0) b.list ∧ Room mem (0, 0) 3 ∧ Holds mem (0, 0) dest.list ∧ Over (0, 1) 3 (0, 0) 3 ∧ Over (1, 0) 3 (0, 0) 3 :=
  ⟨.within rfl rfl, .within rfl rfl, .within rfl rfl, .within rfl rfl, Or.inl (by decide), Or.inl (by decide)⟩

theorem C98_vec3_minsub {mem : Mem α} {aP bP destP : Ptr} {a : V3 α} {b : V3 α} {dest : V3 α} (h_a : Holds mem aP a.list) (h_b : Holds mem bP b.list) (h_dest : Holds mem destP dest.list) (r_dest : Room mem destP 3) (o_a_dest : Over aP 3 destP 3) (o_b_dest : Over bP 3 destP 3) :
    C.glm_vec3_minsub.run mem [aP.val, bP.val, destP.val] =
      some (none, writes mem [(destP, (Cglm.glm_vec3_minsub a b dest).list.map .f)]) :=
  transferO (e := Lib.glm_vec3_minsub) (up := false) (by kernel_rfl) ((((RO.nil false _).addP h_dest.has r_dest .nil .nil).addO h_b.has (.cons o_b_dest .nil)).addO h_a.has (.skip (.cons o_a_dest .nil))) (.p rfl (.p rfl (.p rfl .nil))) (glm_vec3_minsub_run _ _ _) (DT.val_done _) rfl rfl rfl
example (t : α) (b : V3 α) (dest : V3 α) : let mem : Mem α := [⟨true, dest.list.map .f ++ List.replicate 1 (.f t)⟩, ⟨false, b.list.map .f⟩]
    Holds mem (0, 1) (⟨dest.y, dest.z, t⟩ : V3 α).list ∧ Holds mem (1, 0) b.list ∧ Room mem (0, 0) 3 ∧ Holds mem (0, 0) dest.list ∧ Over (0, 1) 3 (0, 0) 3 ∧ Over (1, 0) 3 (0, 0) 3 :=
  ⟨.within rfl rfl, .within rfl rfl, .within rfl rfl, .within rfl rfl, Or.inl (by decide), Or.inl (by decide)⟩

theorem C98_vec3_negate_to {mem : Mem α} {vP destP : Ptr} {v : V3 α} (h_v : Holds mem vP v.list) (r_dest : Room mem destP 3) (o_v_dest : Over vP 3 destP 3) :
    C.glm_vec3_negate_to.run mem [vP.val, destP.val] =
      some (none, writes mem [(destP, (Cglm.glm_vec3_negate_to v).list.map .f)]) :=
  transferO (e := Lib.glm_vec3_negate_to) (up := false) (by kernel_rfl) (((RO.nil false _).addP r_dest.has r_dest .nil .nil).addO h_v.has (.cons o_v_dest .nil)) (.p rfl (.p rfl .nil)) (glm_vec3_negate_to_run _) (DT.val_done _) rfl rfl rfl
example (v : V3 α) : let mem : Mem α := [⟨true, .undef :: v.list.map .f⟩]
    Holds mem (0, 1) v.list ∧ Room mem (0, 0) 3 ∧ Over (0, 1) 3 (0, 0) 3 :=
  ⟨.within rfl rfl, .within rfl rfl, Or.inl (by decide)⟩

theorem C98_vec3_normalize_to {mem : Mem α} {vP destP : Ptr} {v : V3 α} (h_v : Holds mem vP v.list) (r_dest : Room mem destP 3) (o_v_dest : Over vP 3 destP 3) :
    C.glm_vec3_normalize_to.run mem [vP.val, destP.val] =
      some (none, writes mem [(destP, (Cglm.glm_vec3_normalize_to v).list.map .f)]) :=
  transferO (e := Lib.glm_vec3_normalize_to) (up := false) (by kernel_rfl) (((RO.nil false _).addP r_dest.has r_dest .nil .nil).addO h_v.has (.cons o_v_dest .nil)) (.p rfl (.p rfl .nil)) (glm_vec3_normalize_to_run _) (DT.val_map_eq (glm_vec3_normalize_to_dt_val _) rfl) rfl rfl rfl
example (v : V3 α) : let mem : Mem α := [⟨true, .undef :: v.list.map .f⟩]
    Holds mem (0, 1) v.list ∧ Room mem (0, 0) 3 ∧ Over (0, 1) 3 (0, 0) 3 :=
  ⟨.within rfl rfl, .within rfl rfl, Or.inl (by decide)⟩

theorem C98_vec3_cross {mem : Mem α} {aP bP destP : Ptr} {a : V3 α} {b : V3 α} (h_a : Holds mem aP a.list) (h_b : Holds mem bP b.list) (r_dest : Room mem destP 3) :
    C.glm_vec3_cross.run mem [aP.val, bP.val, destP.val] =
      some (none, writes mem [(destP, (Cglm.glm_vec3_cross a b).list.map .f)]) :=
  transferO (e := Lib.glm_vec3_cross) (up := true) (by kernel_rfl) ((((RO.nil true _).addW r_dest.has r_dest .nil).addR h_b.has).addR h_a.has) (.p rfl (.p rfl (.p rfl .nil))) (glm_vec3_cross_run _ _) (DT.val_done _) rfl rfl rfl
example (a : V3 α) (b : V3 α) : let mem : Mem α := [⟨true, a.list.map .f ++ List.replicate 3 .undef⟩, ⟨false, b.list.map .f⟩]
    Holds mem (0, 0) a.list ∧ Holds mem (1, 0) b.list ∧ Room mem (0, 1) 3 :=
  ⟨.within rfl rfl, .within rfl rfl, .within rfl rfl⟩

theorem C98_vec3_crossn {mem : Mem α} {aP bP destP : Ptr} {a : V3 α} {b : V3 α} (h_a : Holds mem aP a.list) (h_b : Holds mem bP b.list) (r_dest : Room mem destP 3) :
    C.glm_vec3_crossn.run mem [aP.val, bP.val, destP.val] =
      some (none, writes mem [(destP, (Cglm.glm_vec3_crossn a b).list.map .f)]) :=
  transferO (e := Lib.glm_vec3_crossn) (up := true) (by kernel_rfl) ((((RO.nil true _).addW r_dest.has r_dest .nil).addR h_b.has).addR h_a.has) (.p rfl (.p rfl (.p rfl .nil))) (glm_vec3_crossn_run _ _) (DT.val_map_eq (glm_vec3_crossn_dt_val _ _) rfl) rfl rfl rfl
example (a : V3 α) (b : V3 α) : let mem : Mem α := [⟨true, a.list.map .f ++ List.replicate 3 .undef⟩, ⟨false, b.list.map .f⟩]
    Holds mem (0, 0) a.list ∧ Holds mem (1, 0) b.list ∧ Room mem (0, 1) 3 :=
  ⟨.within rfl rfl, .within rfl rfl, .within rfl rfl⟩

theorem C98_vec3_rotate {mem : Mem α} {vP axisP : Ptr} {v : V3 α} (angle : α) {axis : V3 α} (h_v : Holds mem vP v.list) (r_v : Room mem vP 3) (h_axis : Holds mem axisP axis.list) :
    C.glm_vec3_rotate.run mem [vP.val, .f angle, axisP.val] =
      some (none, writes mem [(vP, (Cglm.glm_vec3_rotate v angle axis).list.map .f)]) :=
  transferO (e := Lib.glm_vec3_rotate) (up := true) (by kernel_rfl) (((RO.nil true _).addR h_axis.has).addW h_v.has r_v (.skip .nil)) (.p rfl (.f (.p rfl .nil))) (glm_vec3_rotate_run _ _ _) (DT.val_map_eq (glm_vec3_rotate_dt_val _ _ _) rfl) rfl rfl rfl
example (t : α) (v : V3 α) : let mem : Mem α := [⟨true, v.list.map .f ++ List.replicate 1 (.f t)⟩]
    Room mem (0, 0) 3 ∧ Holds mem (0, 0) v.list ∧ Holds mem (0, 1) (⟨v.y, v.z, t⟩ : V3 α).list :=
  ⟨.within rfl rfl, .within rfl rfl, .within rfl rfl⟩

theorem C98_vec3_rotate_m4 {mem : Mem α} {mP vP destP : Ptr} {m : M4 α} {v : V3 α} (h_m : Holds mem mP m.list) (h_v : Holds mem vP v.list) (r_dest : Room mem destP 3) :
    C.glm_vec3_rotate_m4.run mem [mP.val, vP.val, destP.val] =
      some (none, writes mem [(destP, (Cglm.glm_vec3_rotate_m4 m v).list.map .f)]) :=
  transferO (e := Lib.glm_vec3_rotate_m4) (up := true) (by kernel_rfl) ((((RO.nil true _).addW r_dest.has r_dest .nil).addR h_v.has).addR h_m.has) (.p rfl (.p rfl (.p rfl .nil))) (glm_vec3_rotate_m4_run _ _) (DT.val_map_eq (glm_vec3_rotate_m4_dt_val _ _) rfl) rfl rfl rfl
example (m : M4 α) (v : V3 α) : let mem : Mem α := [⟨true, m.list.map .f ++ List.replicate 3 .undef⟩, ⟨false, v.list.map .f⟩]
    Holds mem (0, 0) m.list ∧ Holds mem (1, 0) v.list ∧ Room mem (0, 1) 3 :=
  ⟨.within rfl rfl, .within rfl rfl, .within rfl rfl⟩

theorem C98_vec3_rotate_m3 {mem : Mem α} {mP vP destP : Ptr} {m : M3 α} {v : V3 α} (h_m : Holds mem mP m.list) (h_v : Holds mem vP v.list) (r_dest : Room mem destP 3) :
    C.glm_vec3_rotate_m3.run mem [mP.val, vP.val, destP.val] =
      some (none, writes mem [(destP, (Cglm.glm_vec3_rotate_m3 m v).list.map .f)]) :=
  transferO (e := Lib.glm_vec3_rotate_m3) (up := true) (by kernel_rfl) ((((RO.nil true _).addW r_dest.has r_dest .nil).addR h_v.has).addR h_m.has) (.p rfl (.p rfl (.p rfl .nil))) (glm_vec3_rotate_m3_run _ _) (DT.val_map_eq (glm_vec3_rotate_m3_dt_val _ _) rfl) rfl rfl rfl
example (m : M3 α) (v : V3 α) : let mem : Mem α := [⟨true, m.list.map .f ++ List.replicate 3 .undef⟩, ⟨false, v.list.map .f⟩]
    Holds mem (0, 0) m.list ∧ Holds mem (1, 0) v.list ∧ Room mem (0, 1) 3 :=
  ⟨.within rfl rfl, .within rfl rfl, .within rfl rfl⟩

theorem C98_vec3_proj {mem : Mem α} {aP bP destP : Ptr} {a : V3 α} {b : V3 α} (h_a : Holds mem aP a.list) (h_b : Holds mem bP b.list) (r_dest : Room mem destP 3) (o_a_dest : Over aP 3 destP 3) (o_b_dest : Over bP 3 destP 3) :
    C.glm_vec3_proj.run mem [aP.val, bP.val, destP.val] =
      some (none, writes mem [(destP, (Cglm.glm_vec3_proj a b).list.map .f)]) :=
  transferO (e := Lib.glm_vec3_proj) (up := false) (by kernel_rfl) ((((RO.nil false _).addP r_dest.has r_dest .nil .nil).addO h_b.has (.cons o_b_dest .nil)).addO h_a.has (.skip (.cons o_a_dest .nil))) (.p rfl (.p rfl (.p rfl .nil))) (glm_vec3_proj_run _ _) (DT.val_done _) rfl rfl rfl
example (a : V3 α) (b : V3 α) : let mem : Mem α := [⟨true, .undef :: a.list.map .f⟩, ⟨false, b.list.map .f⟩]
    Holds mem (0, 1) a.list ∧ Holds mem (1, 0) b.list ∧ Room mem (0, 0) 3 ∧ Over (0, 1) 3 (0, 0) 3 ∧ Over (1, 0) 3 (0, 0) 3 :=
  ⟨.within rfl rfl, .within rfl rfl, .within rfl rfl, Or.inl (by decide), Or.inl (by decide)⟩

theorem C98_vec3_center {mem : Mem α} {aP bP destP : Ptr} {a : V3 α} {b : V3 α} (h_a : Holds mem aP a.list) (h_b : Holds mem bP b.list) (r_dest : Room mem destP 3) (o_a_dest : Over aP 3 destP 3) (o_b_dest : Over bP 3 destP 3) :
    C.glm_vec3_center.run mem [aP.val, bP.val, destP.val] =
      some (none, writes mem [(destP, (Cglm.glm_vec3_center a b).list.map .f)]) :=
  transferO (e := Lib.glm_vec3_center) (up := false) (by kernel_rfl) ((((RO.nil false _).addP r_dest.has r_dest .nil .nil).addO h_b.has (.cons o_b_dest .nil)).addO h_a.has (.skip (.cons o_a_dest .nil))) (.p rfl (.p rfl (.p rfl .nil))) (glm_vec3_center_run _ _) (DT.val_done _) rfl rfl rfl
example (a : V3 α) (b : V3 α) : let mem : Mem α := [⟨true, .undef :: a.list.map .f⟩, ⟨false, b.list.map .f⟩]
    Holds mem (0, 1) a.list ∧ Holds mem (1, 0) b.list ∧ Room mem (0, 0) 3 ∧ Over (0, 1) 3 (0, 0) 3 ∧ Over (1, 0) 3 (0, 0) 3 :=
  ⟨.within rfl rfl, .within rfl rfl, .within rfl rfl, Or.inl (by decide), Or.inl (by decide)⟩

theorem C98_vec3_maxv {mem : Mem α} {aP bP destP : Ptr} {a : V3 α} {b : V3 α} (h_a : Holds mem aP a.list) (h_b : Holds mem bP b.list) (r_dest : Room mem destP 3) (o_a_dest : Over aP 3 destP 3) (o_b_dest : Over bP 3 destP 3) :
    C.glm_vec3_maxv.run mem [aP.val, bP.val, destP.val] =
      some (none, writes mem [(destP, (Cglm.glm_vec3_maxv a b).list.map .f)]) :=
  transferO (e := Lib.glm_vec3_maxv) (up := false) (by kernel_rfl) ((((RO.nil false _).addP r_dest.has r_dest .nil .nil).addO h_b.has (.cons o_b_dest .nil)).addO h_a.has (.skip (.cons o_a_dest .nil))) (.p rfl (.p rfl (.p rfl .nil))) (glm_vec3_maxv_run _ _) (DT.val_done _) rfl rfl rfl
example (a : V3 α) (b : V3 α) : let mem : Mem α := [⟨true, .undef :: a.list.map .f⟩, ⟨false, b.list.map .f⟩]
    Holds mem (0, 1) a.list ∧ Holds mem (1, 0) b.list ∧ Room mem (0, 0) 3 ∧ Over (0, 1) 3 (0, 0) 3 ∧ Over (1, 0) 3 (0, 0) 3 :=
  ⟨.within rfl rfl, .within rfl rfl, .within rfl rfl, Or.inl (by decide), Or.inl (by decide)⟩

theorem C98_vec3_minv {mem : Mem α} {aP bP destP : Ptr} {a : V3 α} {b : V3 α} (h_a : Holds mem aP a.list) (h_b : Holds mem bP b.list) (r_dest : Room mem destP 3) (o_a_dest : Over aP 3 destP 3) (o_b_dest : Over bP 3 destP 3) :
    C.glm_vec3_minv.run mem [aP.val, bP.val, destP.val] =
      some (none, writes mem [(destP, (Cglm.glm_vec3_minv a b).list.map .f)]) :=
  transferO (e := Lib.glm_vec3_minv) (up := false) (by kernel_rfl) ((((RO.nil false _).addP r_dest.has r_dest .nil .nil).addO h_b.has (.cons o_b_dest .nil)).addO h_a.has (.skip (.cons o_a_dest .nil))) (.p rfl (.p rfl (.p rfl .nil))) (glm_vec3_minv_run _ _) (DT.val_done _) rfl rfl rfl
example (a : V3 α) (b : V3 α) : let mem : Mem α := [⟨true, .undef :: a.list.map .f⟩, ⟨false, b.list.map .f⟩]
    Holds mem (0, 1) a.list ∧ Holds mem (1, 0) b.list ∧ Room mem (0, 0) 3 ∧ Over (0, 1) 3 (0, 0) 3 ∧ Over (1, 0) 3 (0, 0) 3 :=
  ⟨.within rfl rfl, .within rfl rfl, .within rfl rfl, Or.inl (by decide), Or.inl (by decide)⟩

theorem C98_vec3_ortho {mem : Mem α} {vP destP : Ptr} {v : V3 α} (h_v : Holds mem vP v.list) (r_dest : Room mem destP 3) :
    C.glm_vec3_ortho.run mem [vP.val, destP.val] =
      some (none, writes mem [(destP, (Cglm.glm_vec3_ortho v).list.map .f)]) :=
  transferO (e := Lib.glm_vec3_ortho) (up := true) (by kernel_rfl) (((RO.nil true _).addW r_dest.has r_dest .nil).addR h_v.has) (.p rfl (.p rfl .nil)) (glm_vec3_ortho_run _) (DT.val_done _) rfl rfl rfl
example (v : V3 α) : let mem : Mem α := [⟨true, v.list.map .f ++ List.replicate 3 .undef⟩]
    Holds mem (0, 0) v.list ∧ Room mem (0, 1) 3 :=
  ⟨.within rfl rfl, .within rfl rfl⟩

theorem C98_vec3_lerp {mem : Mem α} {frmP toP destP : Ptr} {frm : V3 α} {«to» : V3 α} (t : α) (h_frm : Holds mem frmP frm.list) (h_to : Holds mem toP «to».list) (r_dest : Room mem destP 3) (o_frm_dest : Over frmP 3 destP 3) (o_to_dest : Over toP 3 destP 3) :
    C.glm_vec3_lerp.run mem [frmP.val, toP.val, .f t, destP.val] =
      some (none, writes mem [(destP, (Cglm.glm_vec3_lerp frm «to» t).list.map .f)]) :=
  transferO (e := Lib.glm_vec3_lerp) (up := false) (by kernel_rfl) ((((RO.nil false _).addP r_dest.has r_dest .nil .nil).addO h_to.has (.cons o_to_dest .nil)).addO h_frm.has (.skip (.cons o_frm_dest .nil))) (.p rfl (.p rfl (.f (.p rfl .nil)))) (glm_vec3_lerp_run _ _ _) (DT.val_done _) rfl rfl rfl
example (frm : V3 α) («to» : V3 α) : let mem : Mem α := [⟨true, .undef :: frm.list.map .f⟩, ⟨false, «to».list.map .f⟩]
    Holds mem (0, 1) frm.list ∧ Holds mem (1, 0) «to».list ∧ Room mem (0, 0) 3 ∧ Over (0, 1) 3 (0, 0) 3 ∧ Over (1, 0) 3 (0, 0) 3 :=
  ⟨.within rfl rfl, .within rfl rfl, .within rfl rfl, Or.inl (by decide), Or.inl (by decide)⟩

theorem C98_vec3_lerpc {mem : Mem α} {frmP toP destP : Ptr} {frm : V3 α} {«to» : V3 α} (t : α) (h_frm : Holds mem frmP frm.list) (h_to : Holds mem toP «to».list) (r_dest : Room mem destP 3) (o_frm_dest : Over frmP 3 destP 3) (o_to_dest : Over toP 3 destP 3) :
    C.glm_vec3_lerpc.run mem [frmP.val, toP.val, .f t, destP.val] =
      some (none, writes mem [(destP, (Cglm.glm_vec3_lerpc frm «to» t).list.map .f)]) :=
  transferO (e := Lib.glm_vec3_lerpc) (up := false) (by kernel_rfl) ((((RO.nil false _).addP r_dest.has r_dest .nil .nil).addO h_to.has (.cons o_to_dest .nil)).addO h_frm.has (.skip (.cons o_frm_dest .nil))) (.p rfl (.p rfl (.f (.p rfl .nil)))) (glm_vec3_lerpc_run _ _ _) (DT.val_done _) rfl rfl rfl
example (frm : V3 α) («to» : V3 α) : let mem : Mem α := [⟨true, .undef :: frm.list.map .f⟩, ⟨false, «to».list.map .f⟩]
    Holds mem (0, 1) frm.list ∧ Holds mem (1, 0) «to».list ∧ Room mem (0, 0) 3 ∧ Over (0, 1) 3 (0, 0) 3 ∧ Over (1, 0) 3 (0, 0) 3 :=
  ⟨.within rfl rfl, .within rfl rfl, .within rfl rfl, Or.inl (by decide), Or.inl (by decide)⟩

theorem C98_vec3_mix {mem : Mem α} {frmP toP destP : Ptr} {frm : V3 α} {«to» : V3 α} (t : α) (h_frm : Holds mem frmP frm.list) (h_to : Holds mem toP «to».list) (r_dest : Room mem destP 3) (o_frm_dest : Over frmP 3 destP 3) (o_to_dest : Over toP 3 destP 3) :
    C.glm_vec3_mix.run mem [frmP.val, toP.val, .f t, destP.val] =
      some (none, writes mem [(destP, (Cglm.glm_vec3_mix frm «to» t).list.map .f)]) :=
  transferO (e := Lib.glm_vec3_mix) (up := false) (by kernel_rfl) ((((RO.nil false _).addP r_dest.has r_dest .nil .nil).addO h_to.has (.cons o_to_dest .nil)).addO h_frm.has (.skip (.cons o_frm_dest .nil))) (.p rfl (.p rfl (.f (.p rfl .nil)))) (glm_vec3_mix_run _ _ _) (DT.val_done _) rfl rfl rfl
example (frm : V3 α) («to» : V3 α) : let mem : Mem α := [⟨true, .undef :: frm.list.map .f⟩, ⟨false, «to».list.map .f⟩]
    Holds mem (0, 1) frm.list ∧ Holds mem (1, 0) «to».list ∧ Room mem (0, 0) 3 ∧ Over (0, 1) 3 (0, 0) 3 ∧ Over (1, 0) 3 (0, 0) 3 :=
  ⟨.within rfl rfl, .within rfl rfl, .within rfl rfl, Or.inl (by decide), Or.inl (by decide)⟩

theorem C98_vec3_mixc {mem : Mem α} {frmP toP destP : Ptr} {frm : V3 α} {«to» : V3 α} (t : α) (h_frm : Holds mem frmP frm.list) (h_to : Holds mem toP «to».list) (r_dest : Room mem destP 3) (o_frm_dest : Over frmP 3 destP 3) (o_to_dest : Over toP 3 destP 3) :
    C.glm_vec3_mixc.run mem [frmP.val, toP.val, .f t, destP.val] =
      some (none, writes mem [(destP, (Cglm.glm_vec3_mixc frm «to» t).list.map .f)]) :=
  transferO (e := Lib.glm_vec3_mixc) (up := false) (by kernel_rfl) ((((RO.nil false _).addP r_dest.has r_dest .nil .nil).addO h_to.has (.cons o_to_dest .nil)).addO h_frm.has (.skip (.cons o_frm_dest .nil))) (.p rfl (.p rfl (.f (.p rfl .nil)))) (glm_vec3_mixc_run _ _ _) (DT.val_done _) rfl rfl rfl
example (frm : V3 α) («to» : V3 α) : let mem : Mem α := [⟨true, .undef :: frm.list.map .f⟩, ⟨false, «to».list.map .f⟩]
    Holds mem (0, 1) frm.list ∧ Holds mem (1, 0) «to».list ∧ Room mem (0, 0) 3 ∧ Over (0, 1) 3 (0, 0) 3 ∧ Over (1, 0) 3 (0, 0) 3 :=
  ⟨.within rfl rfl, .within rfl rfl, .within rfl rfl, Or.inl (by decide), Or.inl (by decide)⟩

theorem C98_vec3_step {mem : Mem α} {edgeP xP destP : Ptr} {edge : V3 α} {x : V3 α} (h_edge : Holds mem edgeP edge.list) (h_x : Holds mem xP x.list) (r_dest : Room mem destP 3) (o_edge_dest : Over edgeP 3 destP 3) (o_x_dest : Over xP 3 destP 3) :
    C.glm_vec3_step.run mem [edgeP.val, xP.val, destP.val] =
      some (none, writes mem [(destP, (Cglm.glm_vec3_step edge x).list.map .f)]) :=
  transferO (e := Lib.glm_vec3_step) (up := false) (by kernel_rfl) ((((RO.nil false _).addP r_dest.has r_dest .nil .nil).addO h_x.has (.cons o_x_dest .nil)).addO h_edge.has (.skip (.cons o_edge_dest .nil))) (.p rfl (.p rfl (.p rfl .nil))) (glm_vec3_step_run _ _) (DT.val_done _) rfl rfl rfl
example (edge : V3 α) (x : V3 α) : let mem : Mem α := [⟨true, .undef :: edge.list.map .f⟩, ⟨false, x.list.map .f⟩]
    Holds mem (0, 1) edge.list ∧ Holds mem (1, 0) x.list ∧ Room mem (0, 0) 3 ∧ Over (0, 1) 3 (0, 0) 3 ∧ Over (1, 0) 3 (0, 0) 3 :=
  ⟨.within rfl rfl, .within rfl rfl, .within rfl rfl, Or.inl (by decide), Or.inl (by decide)⟩

theorem C98_vec3_smoothstep_uni {mem : Mem α} {xP destP : Ptr} (edge0 : α) (edge1 : α) {x : V3 α} (h_x : Holds mem xP x.list) (r_dest : Room mem destP 3) (o_x_dest : Over xP 3 destP 3) :
    C.glm_vec3_smoothstep_uni.run mem [.f edge0, .f edge1, xP.val, destP.val] =
      some (none, writes mem [(destP, (Cglm.glm_vec3_smoothstep_uni edge0 edge1 x).list.map .f)]) :=
  transferO (e := Lib.glm_vec3_smoothstep_uni) (up := false) (by kernel_rfl) (((RO.nil false _).addP r_dest.has r_dest .nil .nil).addO h_x.has (.cons o_x_dest .nil)) (.f (.f (.p rfl (.p rfl .nil)))) (glm_vec3_smoothstep_uni_run _ _ _) (DT.val_done _) rfl rfl rfl
example (x : V3 α) : let mem : Mem α := [⟨true, .undef :: x.list.map .f⟩]
    Holds mem (0, 1) x.list ∧ Room mem (0, 0) 3 ∧ Over (0, 1) 3 (0, 0) 3 :=
  ⟨.within rfl rfl, .within rfl rfl, Or.inl (by decide)⟩

theorem C98_vec3_smoothstep {mem : Mem α} {edge0P edge1P xP destP : Ptr} {edge0 : V3 α} {edge1 : V3 α} {x : V3 α} (h_edge0 : Holds mem edge0P edge0.list) (h_edge1 : Holds mem edge1P edge1.list) (h_x : Holds mem xP x.list) (r_dest : Room mem destP 3) (o_edge0_dest : Over edge0P 3 destP 3) (o_edge1_dest : Over edge1P 3 destP 3) (o_x_dest : Over xP 3 destP 3) :
    C.glm_vec3_smoothstep.run mem [edge0P.val, edge1P.val, xP.val, destP.val] =
      some (none, writes mem [(destP, (Cglm.glm_vec3_smoothstep edge0 edge1 x).list.map .f)]) :=
  transferO (e := Lib.glm_vec3_smoothstep) (up := false) (by kernel_rfl) (((((RO.nil false _).addP r_dest.has r_dest .nil .nil).addO h_x.has (.cons o_x_dest .nil)).addO h_edge1.has (.skip (.cons o_edge1_dest .nil))).addO h_edge0.has (.skip (.skip (.cons o_edge0_dest .nil)))) (.p rfl (.p rfl (.p rfl (.p rfl .nil)))) (glm_vec3_smoothstep_run _ _ _) (DT.val_done _) rfl rfl rfl
example (edge0 : V3 α) (edge1 : V3 α) (x : V3 α) : let mem : Mem α := [⟨true, .undef :: edge0.list.map .f⟩, ⟨false, edge1.list.map .f⟩, ⟨false, x.list.map .f⟩]
    Holds mem (0, 1) edge0.list ∧ Holds mem (1, 0) edge1.list ∧ Holds mem (2, 0) x.list ∧ Room mem (0, 0) 3 ∧ Over (0, 1) 3 (0, 0) 3 ∧ Over (1, 0) 3 (0, 0) 3 ∧ Over (2, 0) 3 (0, 0) 3 :=
  ⟨.within rfl rfl, .within rfl rfl, .within rfl rfl, .within rfl rfl, Or.inl (by decide), Or.inl (by decide), Or.inl (by decide)⟩

theorem C98_vec3_smoothinterp {mem : Mem α} {frmP toP destP : Ptr} {frm : V3 α} {«to» : V3 α} (t : α) (h_frm : Holds mem frmP frm.list) (h_to : Holds mem toP «to».list) (r_dest : Room mem destP 3) (o_frm_dest : Over frmP 3 destP 3) (o_to_dest : Over toP 3 destP 3) :
    C.glm_vec3_smoothinterp.run mem [frmP.val, toP.val, .f t, destP.val] =
      some (none, writes mem [(destP, (Cglm.glm_vec3_smoothinterp frm «to» t).list.map .f)]) :=
  transferO (e := Lib.glm_vec3_smoothinterp) (up := false) (by kernel_rfl) ((((RO.nil false _).addP r_dest.has r_dest .nil .nil).addO h_to.has (.cons o_to_dest .nil)).addO h_frm.has (.skip (.cons o_frm_dest .nil))) (.p rfl (.p rfl (.f (.p rfl .nil)))) (glm_vec3_smoothinterp_run _ _ _) (DT.val_done _) rfl rfl rfl
example (frm : V3 α) («to» : V3 α) : let mem : Mem α := [⟨true, .undef :: frm.list.map .f⟩, ⟨false, «to».list.map .f⟩]
    Holds mem (0, 1) frm.list ∧ Holds mem (1, 0) «to».list ∧ Room mem (0, 0) 3 ∧ Over (0, 1) 3 (0, 0) 3 ∧ Over (1, 0) 3 (0, 0) 3 :=
  ⟨.within rfl rfl, .within rfl rfl, .within rfl rfl, Or.inl (by decide), Or.inl (by decide)⟩

theorem C98_vec3_smoothinterpc {mem : Mem α} {frmP toP destP : Ptr} {frm : V3 α} {«to» : V3 α} (t : α) (h_frm : Holds mem frmP frm.list) (h_to : Holds mem toP «to».list) (r_dest : Room mem destP 3) (o_frm_dest : Over frmP 3 destP 3) (o_to_dest : Over toP 3 destP 3) :
    C.glm_vec3_smoothinterpc.run mem [frmP.val, toP.val, .f t, destP.val] =
      some (none, writes mem [(destP, (Cglm.glm_vec3_smoothinterpc frm «to» t).list.map .f)]) :=
  transferO (e := Lib.glm_vec3_smoothinterpc) (up := false) (by kernel_rfl) ((((RO.nil false _).addP r_dest.has r_dest .nil .nil).addO h_to.has (.cons o_to_dest .nil)).addO h_frm.has (.skip (.cons o_frm_dest .nil))) (.p rfl (.p rfl (.f (.p rfl .nil)))) (glm_vec3_smoothinterpc_run _ _ _) (DT.val_done _) rfl rfl rfl
example (frm : V3 α) («to» : V3 α) : let mem : Mem α := [⟨true, .undef :: frm.list.map .f⟩, ⟨false, «to».list.map .f⟩]
    Holds mem (0, 1) frm.list ∧ Holds mem (1, 0) «to».list ∧ Room mem (0, 0) 3 ∧ Over (0, 1) 3 (0, 0) 3 ∧ Over (1, 0) 3 (0, 0) 3 :=
  ⟨.within rfl rfl, .within rfl rfl, .within rfl rfl, Or.inl (by decide), Or.inl (by decide)⟩

theorem C98_cross {mem : Mem α} {aP bP dP : Ptr} {a : V3 α} {b : V3 α} (h_a : Holds mem aP a.list) (h_b : Holds mem bP b.list) (r_d : Room mem dP 3) :
    C.glm_cross.run mem [aP.val, bP.val, dP.val] =
      some (none, writes mem [(dP, (Cglm.glm_cross a b).list.map .f)]) :=
  transferO (e := Lib.glm_cross) (up := true) (by kernel_rfl) ((((RO.nil true _).addW r_d.has r_d .nil).addR h_b.has).addR h_a.has) (.p rfl (.p rfl (.p rfl .nil))) (glm_cross_run _ _) (DT.val_done _) rfl rfl rfl
example (a : V3 α) (b : V3 α) : let mem : Mem α := [⟨true, a.list.map .f ++ List.replicate 3 .undef⟩, ⟨false, b.list.map .f⟩]
    Holds mem (0, 0) a.list ∧ Holds mem (1, 0) b.list ∧ Room mem (0, 1) 3 :=
  ⟨.within rfl rfl, .within rfl rfl, .within rfl rfl⟩

theorem C98_normalize_to {mem : Mem α} {vP destP : Ptr} {v : V3 α} (h_v : Holds mem vP v.list) (r_dest : Room mem destP 3) (o_v_dest : Over vP 3 destP 3) :
    C.glm_normalize_to.run mem [vP.val, destP.val] =
      some (none, writes mem [(destP, (Cglm.glm_normalize_to v).list.map .f)]) :=
  transferO (e := Lib.glm_normalize_to) (up := false) (by kernel_rfl) (((RO.nil false _).addP r_dest.has r_dest .nil .nil).addO h_v.has (.cons o_v_dest .nil)) (.p rfl (.p rfl .nil)) (glm_normalize_to_run _) (DT.val_map_eq (glm_normalize_to_dt_val _) rfl) rfl rfl rfl
example (v : V3 α) : let mem : Mem α := [⟨true, .undef :: v.list.map .f⟩]
    Holds mem (0, 1) v.list ∧ Room mem (0, 0) 3 ∧ Over (0, 1) 3 (0, 0) 3 :=
  ⟨.within rfl rfl, .within rfl rfl, Or.inl (by decide)⟩

theorem C98_vec3_make {mem : Mem α} {srcP destP : Ptr} {src : V3 α} (h_src : Holds mem srcP src.list) (r_dest : Room mem destP 3) (o_src_dest : Over srcP 3 destP 3) :
    C.glm_vec3_make.run mem [srcP.val, destP.val] =
      some (none, writes mem [(destP, (Cglm.glm_vec3_make src).list.map .f)]) :=
  transferO (e := Lib.glm_vec3_make) (up := false) (by kernel_rfl) (((RO.nil false _).addP r_dest.has r_dest .nil .nil).addO h_src.has (.cons o_src_dest .nil)) (.p rfl (.p rfl .nil)) (glm_vec3_make_run _) (DT.val_done _) rfl rfl rfl
example (src : V3 α) : let mem : Mem α := [⟨true, .undef :: src.list.map .f⟩]
    Holds mem (0, 1) src.list ∧ Room mem (0, 0) 3 ∧ Over (0, 1) 3 (0, 0) 3 :=
  ⟨.within rfl rfl, .within rfl rfl, Or.inl (by decide)⟩

theorem C98_vec3_faceforward {mem : Mem α} {nP vP nrefP destP : Ptr} {n : V3 α} {v : V3 α} {nref : V3 α} (h_n : Holds mem nP n.list) (h_v : Holds mem vP v.list) (h_nref : Holds mem nrefP nref.list) (r_dest : Room mem destP 3) (o_n_dest : Over nP 3 destP 3) (o_v_dest : Over vP 3 destP 3) (o_nref_dest : Over nrefP 3 destP 3) :
    C.glm_vec3_faceforward.run mem [nP.val, vP.val, nrefP.val, destP.val] =
      some (none, writes mem [(destP, (Cglm.glm_vec3_faceforward n v nref).list.map .f)]) :=
  transferO (e := Lib.glm_vec3_faceforward) (up := false) (by kernel_rfl) (((((RO.nil false _).addP r_dest.has r_dest .nil .nil).addO h_nref.has (.cons o_nref_dest .nil)).addO h_v.has (.skip (.cons o_v_dest .nil))).addO h_n.has (.skip (.skip (.cons o_n_dest .nil)))) (.p rfl (.p rfl (.p rfl (.p rfl .nil)))) (glm_vec3_faceforward_run _ _ _) (DT.val_map_eq (glm_vec3_faceforward_dt_val _ _ _) rfl) rfl rfl rfl
example (n : V3 α) (v : V3 α) (nref : V3 α) : let mem : Mem α := [⟨true, .undef :: n.list.map .f⟩, ⟨false, v.list.map .f⟩, ⟨false, nref.list.map .f⟩]
    Holds mem (0, 1) n.list ∧ Holds mem (1, 0) v.list ∧ Holds mem (2, 0) nref.list ∧ Room mem (0, 0) 3 ∧ Over (0, 1) 3 (0, 0) 3 ∧ Over (1, 0) 3 (0, 0) 3 ∧ Over (2, 0) 3 (0, 0) 3 :=
  ⟨.within rfl rfl, .within rfl rfl, .within rfl rfl, .within rfl rfl, Or.inl (by decide), Or.inl (by decide), Or.inl (by decide)⟩

theorem C98_vec3_reflect {mem : Mem α} {vP nP destP : Ptr} {v : V3 α} {n : V3 α} (h_v : Holds mem vP v.list) (h_n : Holds mem nP n.list) (r_dest : Room mem destP 3) (o_v_dest : Over vP 3 destP 3) (o_n_dest : Over nP 3 destP 3) :
    C.glm_vec3_reflect.run mem [vP.val, nP.val, destP.val] =
      some (none, writes mem [(destP, (Cglm.glm_vec3_reflect v n).list.map .f)]) :=
  transferO (e := Lib.glm_vec3_reflect) (up := false) (by kernel_rfl) ((((RO.nil false _).addP r_dest.has r_dest .nil .nil).addO h_n.has (.cons o_n_dest .nil)).addO h_v.has (.skip (.cons o_v_dest .nil))) (.p rfl (.p rfl (.p rfl .nil))) (glm_vec3_reflect_run _ _) (DT.val_done _) rfl rfl rfl
example (v : V3 α) (n : V3 α) : let mem : Mem α := [⟨true, .undef :: v.list.map .f⟩, ⟨false, n.list.map .f⟩]
    Holds mem (0, 1) v.list ∧ Holds mem (1, 0) n.list ∧ Room mem (0, 0) 3 ∧ Over (0, 1) 3 (0, 0) 3 ∧ Over (1, 0) 3 (0, 0) 3 :=
  ⟨.within rfl rfl, .within rfl rfl, .within rfl rfl, Or.inl (by decide), Or.inl (by decide)⟩

end Cglm
