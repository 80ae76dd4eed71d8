/- Generated by tools/overthms.py; do not edit by hand. -/
import Verif.CMemIOver
import Verif.Lib.Int
import Verif.Mem.IntsRun

/-!
# C98: outputs that overlap inputs (integer vectors)

Inputs and the output may overlap in any way except that the output begins inside an input (`Over`).  When no operation on
what the inputs held before the call overflows or divides by zero, the call is defined and stores the value-level result,
and nothing outside the output changes.
-/

set_option maxRecDepth 10000
set_option linter.unusedVariables false
set_option linter.unusedSectionVars false
set_option linter.unusedSimpArgs false

namespace Cglm
open CMem

variable {α : Type} [Add α] [Sub α] [Mul α] [Div α] [Neg α] [CFloat α] [CIntConv α]

theorem C98_ivec2 {mem : Mem α} {vP destP : Ptr} {v : V2 Int32} {r : V2 Int32} (h_v : HoldsI mem vP v.list) (r_dest : Room mem destP 2) (o_v_dest : Over vP 2 destP 2) (h : I.glm_ivec2 v = some r) :
    CI.glm_ivec2.run mem [vP.val, destP.val] =
      some (none, writes mem [(destP, icells r.list)]) :=
  itransferO (e := LibI.glm_ivec2) (up := false) (by kernel_rfl) (((RO.nil false _).addP r_dest.has r_dest .nil .nil).addO h_v.has (.cons o_v_dest .nil)) (.p rfl (.p rfl .nil)) (glm_ivec2_irun _ h) rfl rfl rfl
example : let mem : Mem α := [⟨true, icells [7, 2, 5]⟩]
    HoldsI mem (0, 1) (⟨2, 5⟩ : V2 Int32).list ∧ Room mem (0, 0) 2 ∧ Over (0, 1) 2 (0, 0) 2 ∧ (I.glm_ivec2 (⟨2, 5⟩ : V2 Int32)).isSome = true :=
  ⟨.within rfl rfl, .within rfl rfl, Or.inl (by decide), rfl⟩

theorem C98_ivec2_copy {mem : Mem α} {aP destP : Ptr} {a : V2 Int32} {r : V2 Int32} (h_a : HoldsI mem aP a.list) (r_dest : Room mem destP 2) (o_a_dest : Over aP 2 destP 2) (h : I.glm_ivec2_copy a = some r) :
    CI.glm_ivec2_copy.run mem [aP.val, destP.val] =
      some (none, writes mem [(destP, icells r.list)]) :=
  itransferO (e := LibI.glm_ivec2_copy) (up := false) (by kernel_rfl) (((RO.nil false _).addP r_dest.has r_dest .nil .nil).addO h_a.has (.cons o_a_dest .nil)) (.p rfl (.p rfl .nil)) (glm_ivec2_copy_irun _ h) rfl rfl rfl
example : let mem : Mem α := [⟨true, icells [7, 2, 5]⟩]
    HoldsI mem (0, 1) (⟨2, 5⟩ : V2 Int32).list ∧ Room mem (0, 0) 2 ∧ Over (0, 1) 2 (0, 0) 2 ∧ (I.glm_ivec2_copy (⟨2, 5⟩ : V2 Int32)).isSome = true :=
  ⟨.within rfl rfl, .within rfl rfl, Or.inl (by decide), rfl⟩

theorem C98_ivec2_add {mem : Mem α} {aP bP destP : Ptr} {a : V2 Int32} {b : V2 Int32} {r : V2 Int32} (h_a : HoldsI mem aP a.list) (h_b : HoldsI mem bP b.list) (r_dest : Room mem destP 2) (o_a_dest : Over aP 2 destP 2) (o_b_dest : Over bP 2 destP 2) (h : I.glm_ivec2_add a b = some r) :
    CI.glm_ivec2_add.run mem [aP.val, bP.val, destP.val] =
      some (none, writes mem [(destP, icells r.list)]) :=
  itransferO (e := LibI.glm_ivec2_add) (up := false) (by kernel_rfl) ((((RO.nil false _).addP r_dest.has r_dest .nil .nil).addO h_b.has (.cons o_b_dest .nil)).addO h_a.has (.skip (.cons o_a_dest .nil))) (.p rfl (.p rfl (.p rfl .nil))) (glm_ivec2_add_irun _ _ h) rfl rfl rfl
example : let mem : Mem α := [⟨true, icells [7, 2, 5]⟩, ⟨false, icells [6, 1]⟩]
    HoldsI mem (0, 1) (⟨2, 5⟩ : V2 Int32).list ∧ HoldsI mem (1, 0) (⟨6, 1⟩ : V2 Int32).list ∧ Room mem (0, 0) 2 ∧ Over (0, 1) 2 (0, 0) 2 ∧ Over (1, 0) 2 (0, 0) 2 ∧ (I.glm_ivec2_add (⟨2, 5⟩ : V2 Int32) (⟨6, 1⟩ : V2 Int32)).isSome = true :=
  ⟨.within rfl rfl, .within rfl rfl, .within rfl rfl, Or.inl (by decide), Or.inl (by decide), rfl⟩

theorem C98_ivec2_adds {mem : Mem α} {vP destP : Ptr} {v : V2 Int32} {s : Int32} {r : V2 Int32} (h_v : HoldsI mem vP v.list) (r_dest : Room mem destP 2) (o_v_dest : Over vP 2 destP 2) (h : I.glm_ivec2_adds v s = some r) :
    CI.glm_ivec2_adds.run mem [vP.val, .i s.toInt, destP.val] =
      some (none, writes mem [(destP, icells r.list)]) :=
  itransferO (e := LibI.glm_ivec2_adds) (up := false) (by kernel_rfl) (((RO.nil false _).addP r_dest.has r_dest .nil .nil).addO h_v.has (.cons o_v_dest .nil)) (.p rfl (.i (.p rfl .nil))) (glm_ivec2_adds_irun _ _ h) rfl rfl rfl
example : let mem : Mem α := [⟨true, icells [7, 2, 5]⟩]
    HoldsI mem (0, 1) (⟨2, 5⟩ : V2 Int32).list ∧ Room mem (0, 0) 2 ∧ Over (0, 1) 2 (0, 0) 2 ∧ (I.glm_ivec2_adds (⟨2, 5⟩ : V2 Int32) (2 : Int32)).isSome = true :=
  ⟨.within rfl rfl, .within rfl rfl, Or.inl (by decide), rfl⟩

theorem C98_ivec2_sub {mem : Mem α} {aP bP destP : Ptr} {a : V2 Int32} {b : V2 Int32} {r : V2 Int32} (h_a : HoldsI mem aP a.list) (h_b : HoldsI mem bP b.list) (r_dest : Room mem destP 2) (o_a_dest : Over aP 2 destP 2) (o_b_dest : Over bP 2 destP 2) (h : I.glm_ivec2_sub a b = some r) :
    CI.glm_ivec2_sub.run mem [aP.val, bP.val, destP.val] =
      some (none, writes mem [(destP, icells r.list)]) :=
  itransferO (e := LibI.glm_ivec2_sub) (up := false) (by kernel_rfl) ((((RO.nil false _).addP r_dest.has r_dest .nil .nil).addO h_b.has (.cons o_b_dest .nil)).addO h_a.has (.skip (.cons o_a_dest .nil))) (.p rfl (.p rfl (.p rfl .nil))) (glm_ivec2_sub_irun _ _ h) rfl rfl rfl
example : let mem : Mem α := [⟨true, icells [7, 2, 5]⟩, ⟨false, icells [6, 1]⟩]
    HoldsI mem (0, 1) (⟨2, 5⟩ : V2 Int32).list ∧ HoldsI mem (1, 0) (⟨6, 1⟩ : V2 Int32).list ∧ Room mem (0, 0) 2 ∧ Over (0, 1) 2 (0, 0) 2 ∧ Over (1, 0) 2 (0, 0) 2 ∧ (I.glm_ivec2_sub (⟨2, 5⟩ : V2 Int32) (⟨6, 1⟩ : V2 Int32)).isSome = true :=
  ⟨.within rfl rfl, .within rfl rfl, .within rfl rfl, Or.inl (by decide), Or.inl (by decide), rfl⟩

theorem C98_ivec2_subs {mem : Mem α} {vP destP : Ptr} {v : V2 Int32} {s : Int32} {r : V2 Int32} (h_v : HoldsI mem vP v.list) (r_dest : Room mem destP 2) (o_v_dest : Over vP 2 destP 2) (h : I.glm_ivec2_subs v s = some r) :
    CI.glm_ivec2_subs.run mem [vP.val, .i s.toInt, destP.val] =
      some (none, writes mem [(destP, icells r.list)]) :=
  itransferO (e := LibI.glm_ivec2_subs) (up := false) (by kernel_rfl) (((RO.nil false _).addP r_dest.has r_dest .nil .nil).addO h_v.has (.cons o_v_dest .nil)) (.p rfl (.i (.p rfl .nil))) (glm_ivec2_subs_irun _ _ h) rfl rfl rfl
example : let mem : Mem α := [⟨true, icells [7, 2, 5]⟩]
    HoldsI mem (0, 1) (⟨2, 5⟩ : V2 Int32).list ∧ Room mem (0, 0) 2 ∧ Over (0, 1) 2 (0, 0) 2 ∧ (I.glm_ivec2_subs (⟨2, 5⟩ : V2 Int32) (2 : Int32)).isSome = true :=
  ⟨.within rfl rfl, .within rfl rfl, Or.inl (by decide), rfl⟩

theorem C98_ivec2_mul {mem : Mem α} {aP bP destP : Ptr} {a : V2 Int32} {b : V2 Int32} {r : V2 Int32} (h_a : HoldsI mem aP a.list) (h_b : HoldsI mem bP b.list) (r_dest : Room mem destP 2) (o_a_dest : Over aP 2 destP 2) (o_b_dest : Over bP 2 destP 2) (h : I.glm_ivec2_mul a b = some r) :
    CI.glm_ivec2_mul.run mem [aP.val, bP.val, destP.val] =
      some (none, writes mem [(destP, icells r.list)]) :=
  itransferO (e := LibI.glm_ivec2_mul) (up := false) (by kernel_rfl) ((((RO.nil false _).addP r_dest.has r_dest .nil .nil).addO h_b.has (.cons o_b_dest .nil)).addO h_a.has (.skip (.cons o_a_dest .nil))) (.p rfl (.p rfl (.p rfl .nil))) (glm_ivec2_mul_irun _ _ h) rfl rfl rfl
example : let mem : Mem α := [⟨true, icells [7, 2, 5]⟩, ⟨false, icells [6, 1]⟩]
    HoldsI mem (0, 1) (⟨2, 5⟩ : V2 Int32).list ∧ HoldsI mem (1, 0) (⟨6, 1⟩ : V2 Int32).list ∧ Room mem (0, 0) 2 ∧ Over (0, 1) 2 (0, 0) 2 ∧ Over (1, 0) 2 (0, 0) 2 ∧ (I.glm_ivec2_mul (⟨2, 5⟩ : V2 Int32) (⟨6, 1⟩ : V2 Int32)).isSome = true :=
  ⟨.within rfl rfl, .within rfl rfl, .within rfl rfl, Or.inl (by decide), Or.inl (by decide), rfl⟩

theorem C98_ivec2_scale {mem : Mem α} {vP destP : Ptr} {v : V2 Int32} {s : Int32} {r : V2 Int32} (h_v : HoldsI mem vP v.list) (r_dest : Room mem destP 2) (o_v_dest : Over vP 2 destP 2) (h : I.glm_ivec2_scale v s = some r) :
    CI.glm_ivec2_scale.run mem [vP.val, .i s.toInt, destP.val] =
      some (none, writes mem [(destP, icells r.list)]) :=
  itransferO (e := LibI.glm_ivec2_scale) (up := false) (by kernel_rfl) (((RO.nil false _).addP r_dest.has r_dest .nil .nil).addO h_v.has (.cons o_v_dest .nil)) (.p rfl (.i (.p rfl .nil))) (glm_ivec2_scale_irun _ _ h) rfl rfl rfl
example : let mem : Mem α := [⟨true, icells [7, 2, 5]⟩]
    HoldsI mem (0, 1) (⟨2, 5⟩ : V2 Int32).list ∧ Room mem (0, 0) 2 ∧ Over (0, 1) 2 (0, 0) 2 ∧ (I.glm_ivec2_scale (⟨2, 5⟩ : V2 Int32) (2 : Int32)).isSome = true :=
  ⟨.within rfl rfl, .within rfl rfl, Or.inl (by decide), rfl⟩

theorem C98_ivec2_div {mem : Mem α} {aP bP destP : Ptr} {a : V2 Int32} {b : V2 Int32} {r : V2 Int32} (h_a : HoldsI mem aP a.list) (h_b : HoldsI mem bP b.list) (r_dest : Room mem destP 2) (o_a_dest : Over aP 2 destP 2) (o_b_dest : Over bP 2 destP 2) (h : I.glm_ivec2_div a b = some r) :
    CI.glm_ivec2_div.run mem [aP.val, bP.val, destP.val] =
      some (none, writes mem [(destP, icells r.list)]) :=
  itransferO (e := LibI.glm_ivec2_div) (up := false) (by kernel_rfl) ((((RO.nil false _).addP r_dest.has r_dest .nil .nil).addO h_b.has (.cons o_b_dest .nil)).addO h_a.has (.skip (.cons o_a_dest .nil))) (.p rfl (.p rfl (.p rfl .nil))) (glm_ivec2_div_irun _ _ h) rfl rfl rfl
example : let mem : Mem α := [⟨true, icells [7, 2, 5]⟩, ⟨false, icells [6, 1]⟩]
    HoldsI mem (0, 1) (⟨2, 5⟩ : V2 Int32).list ∧ HoldsI mem (1, 0) (⟨6, 1⟩ : V2 Int32).list ∧ Room mem (0, 0) 2 ∧ Over (0, 1) 2 (0, 0) 2 ∧ Over (1, 0) 2 (0, 0) 2 ∧ (I.glm_ivec2_div (⟨2, 5⟩ : V2 Int32) (⟨6, 1⟩ : V2 Int32)).isSome = true :=
  ⟨.within rfl rfl, .within rfl rfl, .within rfl rfl, Or.inl (by decide), Or.inl (by decide), rfl⟩

theorem C98_ivec2_divs {mem : Mem α} {vP destP : Ptr} {v : V2 Int32} {s : Int32} {r : V2 Int32} (h_v : HoldsI mem vP v.list) (r_dest : Room mem destP 2) (o_v_dest : Over vP 2 destP 2) (h : I.glm_ivec2_divs v s = some r) :
    CI.glm_ivec2_divs.run mem [vP.val, .i s.toInt, destP.val] =
      some (none, writes mem [(destP, icells r.list)]) :=
  itransferO (e := LibI.glm_ivec2_divs) (up := false) (by kernel_rfl) (((RO.nil false _).addP r_dest.has r_dest .nil .nil).addO h_v.has (.cons o_v_dest .nil)) (.p rfl (.i (.p rfl .nil))) (glm_ivec2_divs_irun _ _ h) rfl rfl rfl
example : let mem : Mem α := [⟨true, icells [7, 2, 5]⟩]
    HoldsI mem (0, 1) (⟨2, 5⟩ : V2 Int32).list ∧ Room mem (0, 0) 2 ∧ Over (0, 1) 2 (0, 0) 2 ∧ (I.glm_ivec2_divs (⟨2, 5⟩ : V2 Int32) (2 : Int32)).isSome = true :=
  ⟨.within rfl rfl, .within rfl rfl, Or.inl (by decide), rfl⟩

theorem C98_ivec2_mod {mem : Mem α} {aP bP destP : Ptr} {a : V2 Int32} {b : V2 Int32} {r : V2 Int32} (h_a : HoldsI mem aP a.list) (h_b : HoldsI mem bP b.list) (r_dest : Room mem destP 2) (o_a_dest : Over aP 2 destP 2) (o_b_dest : Over bP 2 destP 2) (h : I.glm_ivec2_mod a b = some r) :
    CI.glm_ivec2_mod.run mem [aP.val, bP.val, destP.val] =
      some (none, writes mem [(destP, icells r.list)]) :=
  itransferO (e := LibI.glm_ivec2_mod) (up := false) (by kernel_rfl) ((((RO.nil false _).addP r_dest.has r_dest .nil .nil).addO h_b.has (.cons o_b_dest .nil)).addO h_a.has (.skip (.cons o_a_dest .nil))) (.p rfl (.p rfl (.p rfl .nil))) (glm_ivec2_mod_irun _ _ h) rfl rfl rfl
example : let mem : Mem α := [⟨true, icells [7, 2, 5]⟩, ⟨false, icells [6, 1]⟩]
    HoldsI mem (0, 1) (⟨2, 5⟩ : V2 Int32).list ∧ HoldsI mem (1, 0) (⟨6, 1⟩ : V2 Int32).list ∧ Room mem (0, 0) 2 ∧ Over (0, 1) 2 (0, 0) 2 ∧ Over (1, 0) 2 (0, 0) 2 ∧ (I.glm_ivec2_mod (⟨2, 5⟩ : V2 Int32) (⟨6, 1⟩ : V2 Int32)).isSome = true :=
  ⟨.within rfl rfl, .within rfl rfl, .within rfl rfl, Or.inl (by decide), Or.inl (by decide), rfl⟩

theorem C98_ivec2_addadd {mem : Mem α} {aP bP destP : Ptr} {a : V2 Int32} {b : V2 Int32} {dest : V2 Int32} {r : V2 Int32} (h_a : HoldsI mem aP a.list) (h_b : HoldsI mem bP b.list) (h_dest : HoldsI mem destP dest.list) (r_dest : Room mem destP 2) (o_a_dest : Over aP 2 destP 2) (o_b_dest : Over bP 2 destP 2) (h : I.glm_ivec2_addadd a b dest = some r) :
    CI.glm_ivec2_addadd.run mem [aP.val, bP.val, destP.val] =
      some (none, writes mem [(destP, icells r.list)]) :=
  itransferO (e := LibI.glm_ivec2_addadd) (up := false) (by kernel_rfl) ((((RO.nil false _).addP h_dest.has r_dest .nil .nil).addO h_b.has (.cons o_b_dest .nil)).addO h_a.has (.skip (.cons o_a_dest .nil))) (.p rfl (.p rfl (.p rfl .nil))) (glm_ivec2_addadd_irun _ _ _ h) rfl rfl rfl
example : let mem : Mem α := [⟨true, icells [7, 2, 5]⟩, ⟨false, icells [6, 1]⟩]
    HoldsI mem (0, 1) (⟨2, 5⟩ : V2 Int32).list ∧ HoldsI mem (1, 0) (⟨6, 1⟩ : V2 Int32).list ∧ Room mem (0, 0) 2 ∧ HoldsI mem (0, 0) (⟨7, 2⟩ : V2 Int32).list ∧ Over (0, 1) 2 (0, 0) 2 ∧ Over (1, 0) 2 (0, 0) 2 ∧ (I.glm_ivec2_addadd (⟨2, 5⟩ : V2 Int32) (⟨6, 1⟩ : V2 Int32) (⟨7, 2⟩ : V2 Int32)).isSome = true :=
  ⟨.within rfl rfl, .within rfl rfl, .within rfl rfl, .within rfl rfl, Or.inl (by decide), Or.inl (by decide), rfl⟩

theorem C98_ivec2_addadds {mem : Mem α} {aP destP : Ptr} {a : V2 Int32} {s : Int32} {dest : V2 Int32} {r : V2 Int32} (h_a : HoldsI mem aP a.list) (h_dest : HoldsI mem destP dest.list) (r_dest : Room mem destP 2) (o_a_dest : Over aP 2 destP 2) (h : I.glm_ivec2_addadds a s dest = some r) :
    CI.glm_ivec2_addadds.run mem [aP.val, .i s.toInt, destP.val] =
      some (none, writes mem [(destP, icells r.list)]) :=
  itransferO (e := LibI.glm_ivec2_addadds) (up := false) (by kernel_rfl) (((RO.nil false _).addP h_dest.has r_dest .nil .nil).addO h_a.has (.cons o_a_dest .nil)) (.p rfl (.i (.p rfl .nil))) (glm_ivec2_addadds_irun _ _ _ h) rfl rfl rfl
example : let mem : Mem α := [⟨true, icells [7, 2, 5]⟩]
    HoldsI mem (0, 1) (⟨2, 5⟩ : V2 Int32).list ∧ Room mem (0, 0) 2 ∧ HoldsI mem (0, 0) (⟨7, 2⟩ : V2 Int32).list ∧ Over (0, 1) 2 (0, 0) 2 ∧ (I.glm_ivec2_addadds (⟨2, 5⟩ : V2 Int32) (2 : Int32) (⟨7, 2⟩ : V2 Int32)).isSome = true :=
  ⟨.within rfl rfl, .within rfl rfl, .within rfl rfl, Or.inl (by decide), rfl⟩

theorem C98_ivec2_subadd {mem : Mem α} {aP bP destP : Ptr} {a : V2 Int32} {b : V2 Int32} {dest : V2 Int32} {r : V2 Int32} (h_a : HoldsI mem aP a.list) (h_b : HoldsI mem bP b.list) (h_dest : HoldsI mem destP dest.list) (r_dest : Room mem destP 2) (o_a_dest : Over aP 2 destP 2) (o_b_dest : Over bP 2 destP 2) (h : I.glm_ivec2_subadd a b dest = some r) :
    CI.glm_ivec2_subadd.run mem [aP.val, bP.val, destP.val] =
      some (none, writes mem [(destP, icells r.list)]) :=
  itransferO (e := LibI.glm_ivec2_subadd) (up := false) (by kernel_rfl) ((((RO.nil false _).addP h_dest.has r_dest .nil .nil).addO h_b.has (.cons o_b_dest .nil)).addO h_a.has (.skip (.cons o_a_dest .nil))) (.p rfl (.p rfl (.p rfl .nil))) (glm_ivec2_subadd_irun _ _ _ h) rfl rfl rfl
example : let mem : Mem α := [⟨true, icells [7, 2, 5]⟩, ⟨false, icells [6, 1]⟩]
    HoldsI mem (0, 1) (⟨2, 5⟩ : V2 Int32).list ∧ HoldsI mem (1, 0) (⟨6, 1⟩ : V2 Int32).list ∧ Room mem (0, 0) 2 ∧ HoldsI mem (0, 0) (⟨7, 2⟩ : V2 Int32).list ∧ Over (0, 1) 2 (0, 0) 2 ∧ Over (1, 0) 2 (0, 0) 2 ∧ (I.glm_ivec2_subadd (⟨2, 5⟩ : V2 Int32) (⟨6, 1⟩ : V2 Int32) (⟨7, 2⟩ : V2 Int32)).isSome = true :=
  ⟨.within rfl rfl, .within rfl rfl, .within rfl rfl, .within rfl rfl, Or.inl (by decide), Or.inl (by decide), rfl⟩

theorem C98_ivec2_subadds {mem : Mem α} {aP destP : Ptr} {a : V2 Int32} {s : Int32} {dest : V2 Int32} {r : V2 Int32} (h_a : HoldsI mem aP a.list) (h_dest : HoldsI mem destP dest.list) (r_dest : Room mem destP 2) (o_a_dest : Over aP 2 destP 2) (h : I.glm_ivec2_subadds a s dest = some r) :
    CI.glm_ivec2_subadds.run mem [aP.val, .i s.toInt, destP.val] =
      some (none, writes mem [(destP, icells r.list)]) :=
  itransferO (e := LibI.glm_ivec2_subadds) (up := false) (by kernel_rfl) (((RO.nil false _).addP h_dest.has r_dest .nil .nil).addO h_a.has (.cons o_a_dest .nil)) (.p rfl (.i (.p rfl .nil))) (glm_ivec2_subadds_irun _ _ _ h) rfl rfl rfl
example : let mem : Mem α := [⟨true, icells [7, 2, 5]⟩]
    HoldsI mem (0, 1) (⟨2, 5⟩ : V2 Int32).list ∧ Room mem (0, 0) 2 ∧ HoldsI mem (0, 0) (⟨7, 2⟩ : V2 Int32).list ∧ Over (0, 1) 2 (0, 0) 2 ∧ (I.glm_ivec2_subadds (⟨2, 5⟩ : V2 Int32) (2 : Int32) (⟨7, 2⟩ : V2 Int32)).isSome = true :=
  ⟨.within rfl rfl, .within rfl rfl, .within rfl rfl, Or.inl (by decide), rfl⟩

theorem C98_ivec2_muladd {mem : Mem α} {aP bP destP : Ptr} {a : V2 Int32} {b : V2 Int32} {dest : V2 Int32} {r : V2 Int32} (h_a : HoldsI mem aP a.list) (h_b : HoldsI mem bP b.list) (h_dest : HoldsI mem destP dest.list) (r_dest : Room mem destP 2) (o_a_dest : Over aP 2 destP 2) (o_b_dest : Over bP 2 destP 2) (h : I.glm_ivec2_muladd a b dest = some r) :
    CI.glm_ivec2_muladd.run mem [aP.val, bP.val, destP.val] =
      some (none, writes mem [(destP, icells r.list)]) :=
  itransferO (e := LibI.glm_ivec2_muladd) (up := false) (by kernel_rfl) ((((RO.nil false _).addP h_dest.has r_dest .nil .nil).addO h_b.has (.cons o_b_dest .nil)).addO h_a.has (.skip (.cons o_a_dest .nil))) (.p rfl (.p rfl (.p rfl .nil))) (glm_ivec2_muladd_irun _ _ _ h) rfl rfl rfl
example : let mem : Mem α := [⟨true, icells [7, 2, 5]⟩, ⟨false, icells [6, 1]⟩]
    HoldsI mem (0, 1) (⟨2, 5⟩ : V2 Int32).list ∧ HoldsI mem (1, 0) (⟨6, 1⟩ : V2 Int32).list ∧ Room mem (0, 0) 2 ∧ HoldsI mem (0, 0) (⟨7, 2⟩ : V2 Int32).list ∧ Over (0, 1) 2 (0, 0) 2 ∧ Over (1, 0) 2 (0, 0) 2 ∧ (I.glm_ivec2_muladd (⟨2, 5⟩ : V2 Int32) (⟨6, 1⟩ : V2 Int32) (⟨7, 2⟩ : V2 Int32)).isSome = true :=
  ⟨.within rfl rfl, .within rfl rfl, .within rfl rfl, .within rfl rfl, Or.inl (by decide), Or.inl (by decide), rfl⟩

theorem C98_ivec2_muladds {mem : Mem α} {aP destP : Ptr} {a : V2 Int32} {s : Int32} {dest : V2 Int32} {r : V2 Int32} (h_a : HoldsI mem aP a.list) (h_dest : HoldsI mem destP dest.list) (r_dest : Room mem destP 2) (o_a_dest : Over aP 2 destP 2) (h : I.glm_ivec2_muladds a s dest = some r) :
    CI.glm_ivec2_muladds.run mem [aP.val, .i s.toInt, destP.val] =
      some (none, writes mem [(destP, icells r.list)]) :=
  itransferO (e := LibI.glm_ivec2_muladds) (up := false) (by kernel_rfl) (((RO.nil false _).addP h_dest.has r_dest .nil .nil).addO h_a.has (.cons o_a_dest .nil)) (.p rfl (.i (.p rfl .nil))) (glm_ivec2_muladds_irun _ _ _ h) rfl rfl rfl
example : let mem : Mem α := [⟨true, icells [7, 2, 5]⟩]
    HoldsI mem (0, 1) (⟨2, 5⟩ : V2 Int32).list ∧ Room mem (0, 0) 2 ∧ HoldsI mem (0, 0) (⟨7, 2⟩ : V2 Int32).list ∧ Over (0, 1) 2 (0, 0) 2 ∧ (I.glm_ivec2_muladds (⟨2, 5⟩ : V2 Int32) (2 : Int32) (⟨7, 2⟩ : V2 Int32)).isSome = true :=
  ⟨.within rfl rfl, .within rfl rfl, .within rfl rfl, Or.inl (by decide), rfl⟩

theorem C98_ivec2_maxadd {mem : Mem α} {aP bP destP : Ptr} {a : V2 Int32} {b : V2 Int32} {dest : V2 Int32} {r : V2 Int32} (h_a : HoldsI mem aP a.list) (h_b : HoldsI mem bP b.list) (h_dest : HoldsI mem destP dest.list) (r_dest : Room mem destP 2) (o_a_dest : Over aP 2 destP 2) (o_b_dest : Over bP 2 destP 2) (h : I.glm_ivec2_maxadd a b dest = some r) :
    CI.glm_ivec2_maxadd.run mem [aP.val, bP.val, destP.val] =
      some (none, writes mem [(destP, icells r.list)]) :=
  itransferO (e := LibI.glm_ivec2_maxadd) (up := false) (by kernel_rfl) ((((RO.nil false _).addP h_dest.has r_dest .nil .nil).addO h_b.has (.cons o_b_dest .nil)).addO h_a.has (.skip (.cons o_a_dest .nil))) (.p rfl (.p rfl (.p rfl .nil))) (glm_ivec2_maxadd_irun _ _ _ h) rfl rfl rfl
example : let mem : Mem α := [⟨true, icells [7, 2, 5]⟩, ⟨false, icells [6, 1]⟩]
    HoldsI mem (0, 1) (⟨2, 5⟩ : V2 Int32).list ∧ HoldsI mem (1, 0) (⟨6, 1⟩ : V2 Int32).list ∧ Room mem (0, 0) 2 ∧ HoldsI mem (0, 0) (⟨7, 2⟩ : V2 Int32).list ∧ Over (0, 1) 2 (0, 0) 2 ∧ Over (1, 0) 2 (0, 0) 2 ∧ (I.glm_ivec2_maxadd (⟨2, 5⟩ : V2 Int32) (⟨6, 1⟩ : V2 Int32) (⟨7, 2⟩ : V2 Int32)).isSome = true :=
  ⟨.within rfl rfl, .within rfl rfl, .within rfl rfl, .within rfl rfl, Or.inl (by decide), Or.inl (by decide), rfl⟩

theorem C98_ivec2_minadd {mem : Mem α} {aP bP destP : Ptr} {a : V2 Int32} {b : V2 Int32} {dest : V2 Int32} {r : V2 Int32} (h_a : HoldsI mem aP a.list) (h_b : HoldsI mem bP b.list) (h_dest : HoldsI mem destP dest.list) (r_dest : Room mem destP 2) (o_a_dest : Over aP 2 destP 2) (o_b_dest : Over bP 2 destP 2) (h : I.glm_ivec2_minadd a b dest = some r) :
    CI.glm_ivec2_minadd.run mem [aP.val, bP.val, destP.val] =
      some (none, writes mem [(destP, icells r.list)]) :=
  itransferO (e := LibI.glm_ivec2_minadd) (up := false) (by kernel_rfl) ((((RO.nil false _).addP h_dest.has r_dest .nil .nil).addO h_b.has (.cons o_b_dest .nil)).addO h_a.has (.skip (.cons o_a_dest .nil))) (.p rfl (.p rfl (.p rfl .nil))) (glm_ivec2_minadd_irun _ _ _ h) rfl rfl rfl
example : let mem : Mem α := [⟨true, icells [7, 2, 5]⟩, ⟨false, icells [6, 1]⟩]
    HoldsI mem (0, 1) (⟨2, 5⟩ : V2 Int32).list ∧ HoldsI mem (1, 0) (⟨6, 1⟩ : V2 Int32).list ∧ Room mem (0, 0) 2 ∧ HoldsI mem (0, 0) (⟨7, 2⟩ : V2 Int32).list ∧ Over (0, 1) 2 (0, 0) 2 ∧ Over (1, 0) 2 (0, 0) 2 ∧ (I.glm_ivec2_minadd (⟨2, 5⟩ : V2 Int32) (⟨6, 1⟩ : V2 Int32) (⟨7, 2⟩ : V2 Int32)).isSome = true :=
  ⟨.within rfl rfl, .within rfl rfl, .within rfl rfl, .within rfl rfl, Or.inl (by decide), Or.inl (by decide), rfl⟩

theorem C98_ivec2_subsub {mem : Mem α} {aP bP destP : Ptr} {a : V2 Int32} {b : V2 Int32} {dest : V2 Int32} {r : V2 Int32} (h_a : HoldsI mem aP a.list) (h_b : HoldsI mem bP b.list) (h_dest : HoldsI mem destP dest.list) (r_dest : Room mem destP 2) (o_a_dest : Over aP 2 destP 2) (o_b_dest : Over bP 2 destP 2) (h : I.glm_ivec2_subsub a b dest = some r) :
    CI.glm_ivec2_subsub.run mem [aP.val, bP.val, destP.val] =
      some (none, writes mem [(destP, icells r.list)]) :=
  itransferO (e := LibI.glm_ivec2_subsub) (up := false) (by kernel_rfl) ((((RO.nil false _).addP h_dest.has r_dest .nil .nil).addO h_b.has (.cons o_b_dest .nil)).addO h_a.has (.skip (.cons o_a_dest .nil))) (.p rfl (.p rfl (.p rfl .nil))) (glm_ivec2_subsub_irun _ _ _ h) rfl rfl rfl
example : let mem : Mem α := [⟨true, icells [7, 2, 5]⟩, ⟨false, icells [6, 1]⟩]
    HoldsI mem (0, 1) (⟨2, 5⟩ : V2 Int32).list ∧ HoldsI mem (1, 0) (⟨6, 1⟩ : V2 Int32).list ∧ Room mem (0, 0) 2 ∧ HoldsI mem (0, 0) (⟨7, 2⟩ : V2 Int32).list ∧ Over (0, 1) 2 (0, 0) 2 ∧ Over (1, 0) 2 (0, 0) 2 ∧ (I.glm_ivec2_subsub (⟨2, 5⟩ : V2 Int32) (⟨6, 1⟩ : V2 Int32) (⟨7, 2⟩ : V2 Int32)).isSome = true :=
  ⟨.within rfl rfl, .within rfl rfl, .within rfl rfl, .within rfl rfl, Or.inl (by decide), Or.inl (by decide), rfl⟩

theorem C98_ivec2_subsubs {mem : Mem α} {aP destP : Ptr} {a : V2 Int32} {s : Int32} {dest : V2 Int32} {r : V2 Int32} (h_a : HoldsI mem aP a.list) (h_dest : HoldsI mem destP dest.list) (r_dest : Room mem destP 2) (o_a_dest : Over aP 2 destP 2) (h : I.glm_ivec2_subsubs a s dest = some r) :
    CI.glm_ivec2_subsubs.run mem [aP.val, .i s.toInt, destP.val] =
      some (none, writes mem [(destP, icells r.list)]) :=
  itransferO (e := LibI.glm_ivec2_subsubs) (up := false) (by kernel_rfl) (((RO.nil false _).addP h_dest.has r_dest .nil .nil).addO h_a.has (.cons o_a_dest .nil)) (.p rfl (.i (.p rfl .nil))) (glm_ivec2_subsubs_irun _ _ _ h) rfl rfl rfl
example : let mem : Mem α := [⟨true, icells [7, 2, 5]⟩]
    HoldsI mem (0, 1) (⟨2, 5⟩ : V2 Int32).list ∧ Room mem (0, 0) 2 ∧ HoldsI mem (0, 0) (⟨7, 2⟩ : V2 Int32).list ∧ Over (0, 1) 2 (0, 0) 2 ∧ (I.glm_ivec2_subsubs (⟨2, 5⟩ : V2 Int32) (2 : Int32) (⟨7, 2⟩ : V2 Int32)).isSome = true :=
  ⟨.within rfl rfl, .within rfl rfl, .within rfl rfl, Or.inl (by decide), rfl⟩

theorem C98_ivec2_addsub {mem : Mem α} {aP bP destP : Ptr} {a : V2 Int32} {b : V2 Int32} {dest : V2 Int32} {r : V2 Int32} (h_a : HoldsI mem aP a.list) (h_b : HoldsI mem bP b.list) (h_dest : HoldsI mem destP dest.list) (r_dest : Room mem destP 2) (o_a_dest : Over aP 2 destP 2) (o_b_dest : Over bP 2 destP 2) (h : I.glm_ivec2_addsub a b dest = some r) :
    CI.glm_ivec2_addsub.run mem [aP.val, bP.val, destP.val] =
      some (none, writes mem [(destP, icells r.list)]) :=
  itransferO (e := LibI.glm_ivec2_addsub) (up := false) (by kernel_rfl) ((((RO.nil false _).addP h_dest.has r_dest .nil .nil).addO h_b.has (.cons o_b_dest .nil)).addO h_a.has (.skip (.cons o_a_dest .nil))) (.p rfl (.p rfl (.p rfl .nil))) (glm_ivec2_addsub_irun _ _ _ h) rfl rfl rfl
example : let mem : Mem α := [⟨true, icells [7, 2, 5]⟩, ⟨false, icells [6, 1]⟩]
    HoldsI mem (0, 1) (⟨2, 5⟩ : V2 Int32).list ∧ HoldsI mem (1, 0) (⟨6, 1⟩ : V2 Int32).list ∧ Room mem (0, 0) 2 ∧ HoldsI mem (0, 0) (⟨7, 2⟩ : V2 Int32).list ∧ Over (0, 1) 2 (0, 0) 2 ∧ Over (1, 0) 2 (0, 0) 2 ∧ (I.glm_ivec2_addsub (⟨2, 5⟩ : V2 Int32) (⟨6, 1⟩ : V2 Int32) (⟨7, 2⟩ : V2 Int32)).isSome = true :=
  ⟨.within rfl rfl, .within rfl rfl, .within rfl rfl, .within rfl rfl, Or.inl (by decide), Or.inl (by decide), rfl⟩

theorem C98_ivec2_addsubs {mem : Mem α} {aP destP : Ptr} {a : V2 Int32} {s : Int32} {dest : V2 Int32} {r : V2 Int32} (h_a : HoldsI mem aP a.list) (h_dest : HoldsI mem destP dest.list) (r_dest : Room mem destP 2) (o_a_dest : Over aP 2 destP 2) (h : I.glm_ivec2_addsubs a s dest = some r) :
    CI.glm_ivec2_addsubs.run mem [aP.val, .i s.toInt, destP.val] =
      some (none, writes mem [(destP, icells r.list)]) :=
  itransferO (e := LibI.glm_ivec2_addsubs) (up := false) (by kernel_rfl) (((RO.nil false _).addP h_dest.has r_dest .nil .nil).addO h_a.has (.cons o_a_dest .nil)) (.p rfl (.i (.p rfl .nil))) (glm_ivec2_addsubs_irun _ _ _ h) rfl rfl rfl
example : let mem : Mem α := [⟨true, icells [7, 2, 5]⟩]
    HoldsI mem (0, 1) (⟨2, 5⟩ : V2 Int32).list ∧ Room mem (0, 0) 2 ∧ HoldsI mem (0, 0) (⟨7, 2⟩ : V2 Int32).list ∧ Over (0, 1) 2 (0, 0) 2 ∧ (I.glm_ivec2_addsubs (⟨2, 5⟩ : V2 Int32) (2 : Int32) (⟨7, 2⟩ : V2 Int32)).isSome = true :=
  ⟨.within rfl rfl, .within rfl rfl, .within rfl rfl, Or.inl (by decide), rfl⟩

theorem C98_ivec2_mulsub {mem : Mem α} {aP bP destP : Ptr} {a : V2 Int32} {b : V2 Int32} {dest : V2 Int32} {r : V2 Int32} (h_a : HoldsI mem aP a.list) (h_b : HoldsI mem bP b.list) (h_dest : HoldsI mem destP dest.list) (r_dest : Room mem destP 2) (o_a_dest : Over aP 2 destP 2) (o_b_dest : Over bP 2 destP 2) (h : I.glm_ivec2_mulsub a b dest = some r) :
    CI.glm_ivec2_mulsub.run mem [aP.val, bP.val, destP.val] =
      some (none, writes mem [(destP, icells r.list)]) :=
  itransferO (e := LibI.glm_ivec2_mulsub) (up := false) (by kernel_rfl) ((((RO.nil false _).addP h_dest.has r_dest .nil .nil).addO h_b.has (.cons o_b_dest .nil)).addO h_a.has (.skip (.cons o_a_dest .nil))) (.p rfl (.p rfl (.p rfl .nil))) (glm_ivec2_mulsub_irun _ _ _ h) rfl rfl rfl
example : let mem : Mem α := [⟨true, icells [7, 2, 5]⟩, ⟨false, icells [6, 1]⟩]
    HoldsI mem (0, 1) (⟨2, 5⟩ : V2 Int32).list ∧ HoldsI mem (1, 0) (⟨6, 1⟩ : V2 Int32).list ∧ Room mem (0, 0) 2 ∧ HoldsI mem (0, 0) (⟨7, 2⟩ : V2 Int32).list ∧ Over (0, 1) 2 (0, 0) 2 ∧ Over (1, 0) 2 (0, 0) 2 ∧ (I.glm_ivec2_mulsub (⟨2, 5⟩ : V2 Int32) (⟨6, 1⟩ : V2 Int32) (⟨7, 2⟩ : V2 Int32)).isSome = true :=
  ⟨.within rfl rfl, .within rfl rfl, .within rfl rfl, .within rfl rfl, Or.inl (by decide), Or.inl (by decide), rfl⟩

theorem C98_ivec2_mulsubs {mem : Mem α} {aP destP : Ptr} {a : V2 Int32} {s : Int32} {dest : V2 Int32} {r : V2 Int32} (h_a : HoldsI mem aP a.list) (h_dest : HoldsI mem destP dest.list) (r_dest : Room mem destP 2) (o_a_dest : Over aP 2 destP 2) (h : I.glm_ivec2_mulsubs a s dest = some r) :
    CI.glm_ivec2_mulsubs.run mem [aP.val, .i s.toInt, destP.val] =
      some (none, writes mem [(destP, icells r.list)]) :=
  itransferO (e := LibI.glm_ivec2_mulsubs) (up := false) (by kernel_rfl) (((RO.nil false _).addP h_dest.has r_dest .nil .nil).addO h_a.has (.cons o_a_dest .nil)) (.p rfl (.i (.p rfl .nil))) (glm_ivec2_mulsubs_irun _ _ _ h) rfl rfl rfl
example : let mem : Mem α := [⟨true, icells [7, 2, 5]⟩]
    HoldsI mem (0, 1) (⟨2, 5⟩ : V2 Int32).list ∧ Room mem (0, 0) 2 ∧ HoldsI mem (0, 0) (⟨7, 2⟩ : V2 Int32).list ∧ Over (0, 1) 2 (0, 0) 2 ∧ (I.glm_ivec2_mulsubs (⟨2, 5⟩ : V2 Int32) (2 : Int32) (⟨7, 2⟩ : V2 Int32)).isSome = true :=
  ⟨.within rfl rfl, .within rfl rfl, .within rfl rfl, Or.inl (by decide), rfl⟩

theorem C98_ivec2_maxsub {mem : Mem α} {aP bP destP : Ptr} {a : V2 Int32} {b : V2 Int32} {dest : V2 Int32} {r : V2 Int32} (h_a : HoldsI mem aP a.list) (h_b : HoldsI mem bP b.list) (h_dest : HoldsI mem destP dest.list) (r_dest : Room mem destP 2) (o_a_dest : Over aP 2 destP 2) (o_b_dest : Over bP 2 destP 2) (h : I.glm_ivec2_maxsub a b dest = some r) :
    CI.glm_ivec2_maxsub.run mem [aP.val, bP.val, destP.val] =
      some (none, writes mem [(destP, icells r.list)]) :=
  itransferO (e := LibI.glm_ivec2_maxsub) (up := false) (by kernel_rfl) ((((RO.nil false _).addP h_dest.has r_dest .nil .nil).addO h_b.has (.cons o_b_dest .nil)).addO h_a.has (.skip (.cons o_a_dest .nil))) (.p rfl (.p rfl (.p rfl .nil))) (glm_ivec2_maxsub_irun _ _ _ h) rfl rfl rfl
example : let mem : Mem α := [⟨true, icells [7, 2, 5]⟩, ⟨false, icells [6, 1]⟩]
    HoldsI mem (0, 1) (⟨2, 5⟩ : V2 Int32).list ∧ HoldsI mem (1, 0) (⟨6, 1⟩ : V2 Int32).list ∧ Room mem (0, 0) 2 ∧ HoldsI mem (0, 0) (⟨7, 2⟩ : V2 Int32).list ∧ Over (0, 1) 2 (0, 0) 2 ∧ Over (1, 0) 2 (0, 0) 2 ∧ (I.glm_ivec2_maxsub (⟨2, 5⟩ : V2 Int32) (⟨6, 1⟩ : V2 Int32) (⟨7, 2⟩ : V2 Int32)).isSome = true :=
  ⟨.within rfl rfl, .within rfl rfl, .within rfl rfl, .within rfl rfl, Or.inl (by decide), Or.inl (by decide), rfl⟩

theorem C98_ivec2_minsub {mem : Mem α} {aP bP destP : Ptr} {a : V2 Int32} {b : V2 Int32} {dest : V2 Int32} {r : V2 Int32} (h_a : HoldsI mem aP a.list) (h_b : HoldsI mem bP b.list) (h_dest : HoldsI mem destP dest.list) (r_dest : Room mem destP 2) (o_a_dest : Over aP 2 destP 2) (o_b_dest : Over bP 2 destP 2) (h : I.glm_ivec2_minsub a b dest = some r) :
    CI.glm_ivec2_minsub.run mem [aP.val, bP.val, destP.val] =
      some (none, writes mem [(destP, icells r.list)]) :=
  itransferO (e := LibI.glm_ivec2_minsub) (up := false) (by kernel_rfl) ((((RO.nil false _).addP h_dest.has r_dest .nil .nil).addO h_b.has (.cons o_b_dest .nil)).addO h_a.has (.skip (.cons o_a_dest .nil))) (.p rfl (.p rfl (.p rfl .nil))) (glm_ivec2_minsub_irun _ _ _ h) rfl rfl rfl
example : let mem : Mem α := [⟨true, icells [7, 2, 5]⟩, ⟨false, icells [6, 1]⟩]
    HoldsI mem (0, 1) (⟨2, 5⟩ : V2 Int32).list ∧ HoldsI mem (1, 0) (⟨6, 1⟩ : V2 Int32).list ∧ Room mem (0, 0) 2 ∧ HoldsI mem (0, 0) (⟨7, 2⟩ : V2 Int32).list ∧ Over (0, 1) 2 (0, 0) 2 ∧ Over (1, 0) 2 (0, 0) 2 ∧ (I.glm_ivec2_minsub (⟨2, 5⟩ : V2 Int32) (⟨6, 1⟩ : V2 Int32) (⟨7, 2⟩ : V2 Int32)).isSome = true :=
  ⟨.within rfl rfl, .within rfl rfl, .within rfl rfl, .within rfl rfl, Or.inl (by decide), Or.inl (by decide), rfl⟩

theorem C98_ivec2_maxv {mem : Mem α} {aP bP destP : Ptr} {a : V2 Int32} {b : V2 Int32} {r : V2 Int32} (h_a : HoldsI mem aP a.list) (h_b : HoldsI mem bP b.list) (r_dest : Room mem destP 2) (o_a_dest : Over aP 2 destP 2) (o_b_dest : Over bP 2 destP 2) (h : I.glm_ivec2_maxv a b = some r) :
    CI.glm_ivec2_maxv.run mem [aP.val, bP.val, destP.val] =
      some (none, writes mem [(destP, icells r.list)]) :=
  itransferO (e := LibI.glm_ivec2_maxv) (up := false) (by kernel_rfl) ((((RO.nil false _).addP r_dest.has r_dest .nil .nil).addO h_b.has (.cons o_b_dest .nil)).addO h_a.has (.skip (.cons o_a_dest .nil))) (.p rfl (.p rfl (.p rfl .nil))) (glm_ivec2_maxv_irun _ _ h) rfl rfl rfl
example : let mem : Mem α := [⟨true, icells [7, 2, 5]⟩, ⟨false, icells [6, 1]⟩]
    HoldsI mem (0, 1) (⟨2, 5⟩ : V2 Int32).list ∧ HoldsI mem (1, 0) (⟨6, 1⟩ : V2 Int32).list ∧ Room mem (0, 0) 2 ∧ Over (0, 1) 2 (0, 0) 2 ∧ Over (1, 0) 2 (0, 0) 2 ∧ (I.glm_ivec2_maxv (⟨2, 5⟩ : V2 Int32) (⟨6, 1⟩ : V2 Int32)).isSome = true :=
  ⟨.within rfl rfl, .within rfl rfl, .within rfl rfl, Or.inl (by decide), Or.inl (by decide), rfl⟩

theorem C98_ivec2_minv {mem : Mem α} {aP bP destP : Ptr} {a : V2 Int32} {b : V2 Int32} {r : V2 Int32} (h_a : HoldsI mem aP a.list) (h_b : HoldsI mem bP b.list) (r_dest : Room mem destP 2) (o_a_dest : Over aP 2 destP 2) (o_b_dest : Over bP 2 destP 2) (h : I.glm_ivec2_minv a b = some r) :
    CI.glm_ivec2_minv.run mem [aP.val, bP.val, destP.val] =
      some (none, writes mem [(destP, icells r.list)]) :=
  itransferO (e := LibI.glm_ivec2_minv) (up := false) (by kernel_rfl) ((((RO.nil false _).addP r_dest.has r_dest .nil .nil).addO h_b.has (.cons o_b_dest .nil)).addO h_a.has (.skip (.cons o_a_dest .nil))) (.p rfl (.p rfl (.p rfl .nil))) (glm_ivec2_minv_irun _ _ h) rfl rfl rfl
example : let mem : Mem α := [⟨true, icells [7, 2, 5]⟩, ⟨false, icells [6, 1]⟩]
    HoldsI mem (0, 1) (⟨2, 5⟩ : V2 Int32).list ∧ HoldsI mem (1, 0) (⟨6, 1⟩ : V2 Int32).list ∧ Room mem (0, 0) 2 ∧ Over (0, 1) 2 (0, 0) 2 ∧ Over (1, 0) 2 (0, 0) 2 ∧ (I.glm_ivec2_minv (⟨2, 5⟩ : V2 Int32) (⟨6, 1⟩ : V2 Int32)).isSome = true :=
  ⟨.within rfl rfl, .within rfl rfl, .within rfl rfl, Or.inl (by decide), Or.inl (by decide), rfl⟩

theorem C98_ivec2_abs {mem : Mem α} {vP destP : Ptr} {v : V2 Int32} {r : V2 Int32} (h_v : HoldsI mem vP v.list) (r_dest : Room mem destP 2) (o_v_dest : Over vP 2 destP 2) (h : I.glm_ivec2_abs v = some r) :
    CI.glm_ivec2_abs.run mem [vP.val, destP.val] =
      some (none, writes mem [(destP, icells r.list)]) :=
  itransferO (e := LibI.glm_ivec2_abs) (up := false) (by kernel_rfl) (((RO.nil false _).addP r_dest.has r_dest .nil .nil).addO h_v.has (.cons o_v_dest .nil)) (.p rfl (.p rfl .nil)) (glm_ivec2_abs_irun _ h) rfl rfl rfl
example : let mem : Mem α := [⟨true, icells [7, 2, 5]⟩]
    HoldsI mem (0, 1) (⟨2, 5⟩ : V2 Int32).list ∧ Room mem (0, 0) 2 ∧ Over (0, 1) 2 (0, 0) 2 ∧ (I.glm_ivec2_abs (⟨2, 5⟩ : V2 Int32)).isSome = true :=
  ⟨.within rfl rfl, .within rfl rfl, Or.inl (by decide), rfl⟩

theorem C98_ivec3 {mem : Mem α} {v4P destP : Ptr} {v4 : V4 Int32} {r : V3 Int32} (h_v4 : HoldsI mem v4P v4.list) (r_dest : Room mem destP 3) (o_v4_dest : Over v4P 4 destP 3) (h : I.glm_ivec3 v4 = some r) :
    CI.glm_ivec3.run mem [v4P.val, destP.val] =
      some (none, writes mem [(destP, icells r.list)]) :=
  itransferO (e := LibI.glm_ivec3) (up := false) (by kernel_rfl) (((RO.nil false _).addP r_dest.has r_dest .nil .nil).addO h_v4.has (.cons o_v4_dest .nil)) (.p rfl (.p rfl .nil)) (glm_ivec3_irun _ h) rfl rfl rfl
example : let mem : Mem α := [⟨true, icells [7, 2, 5, 3, 4]⟩]
    HoldsI mem (0, 1) (⟨2, 5, 3, 4⟩ : V4 Int32).list ∧ Room mem (0, 0) 3 ∧ Over (0, 1) 4 (0, 0) 3 ∧ (I.glm_ivec3 (⟨2, 5, 3, 4⟩ : V4 Int32)).isSome = true :=
  ⟨.within rfl rfl, .within rfl rfl, Or.inl (by decide), rfl⟩

theorem C98_ivec3_copy {mem : Mem α} {aP destP : Ptr} {a : V3 Int32} {r : V3 Int32} (h_a : HoldsI mem aP a.list) (r_dest : Room mem destP 3) (o_a_dest : Over aP 3 destP 3) (h : I.glm_ivec3_copy a = some r) :
    CI.glm_ivec3_copy.run mem [aP.val, destP.val] =
      some (none, writes mem [(destP, icells r.list)]) :=
  itransferO (e := LibI.glm_ivec3_copy) (up := false) (by kernel_rfl) (((RO.nil false _).addP r_dest.has r_dest .nil .nil).addO h_a.has (.cons o_a_dest .nil)) (.p rfl (.p rfl .nil)) (glm_ivec3_copy_irun _ h) rfl rfl rfl
example : let mem : Mem α := [⟨true, icells [7, 2, 5, 3]⟩]
    HoldsI mem (0, 1) (⟨2, 5, 3⟩ : V3 Int32).list ∧ Room mem (0, 0) 3 ∧ Over (0, 1) 3 (0, 0) 3 ∧ (I.glm_ivec3_copy (⟨2, 5, 3⟩ : V3 Int32)).isSome = true :=
  ⟨.within rfl rfl, .within rfl rfl, Or.inl (by decide), rfl⟩

theorem C98_ivec3_add {mem : Mem α} {aP bP destP : Ptr} {a : V3 Int32} {b : V3 Int32} {r : V3 Int32} (h_a : HoldsI mem aP a.list) (h_b : HoldsI mem bP b.list) (r_dest : Room mem destP 3) (o_a_dest : Over aP 3 destP 3) (o_b_dest : Over bP 3 destP 3) (h : I.glm_ivec3_add a b = some r) :
    CI.glm_ivec3_add.run mem [aP.val, bP.val, destP.val] =
      some (none, writes mem [(destP, icells r.list)]) :=
  itransferO (e := LibI.glm_ivec3_add) (up := false) (by kernel_rfl) ((((RO.nil false _).addP r_dest.has r_dest .nil .nil).addO h_b.has (.cons o_b_dest .nil)).addO h_a.has (.skip (.cons o_a_dest .nil))) (.p rfl (.p rfl (.p rfl .nil))) (glm_ivec3_add_irun _ _ h) rfl rfl rfl
example : let mem : Mem α := [⟨true, icells [7, 2, 5, 3]⟩, ⟨false, icells [6, 1, 8]⟩]
    HoldsI mem (0, 1) (⟨2, 5, 3⟩ : V3 Int32).list ∧ HoldsI mem (1, 0) (⟨6, 1, 8⟩ : V3 Int32).list ∧ Room mem (0, 0) 3 ∧ Over (0, 1) 3 (0, 0) 3 ∧ Over (1, 0) 3 (0, 0) 3 ∧ (I.glm_ivec3_add (⟨2, 5, 3⟩ : V3 Int32) (⟨6, 1, 8⟩ : V3 Int32)).isSome = true :=
  ⟨.within rfl rfl, .within rfl rfl, .within rfl rfl, Or.inl (by decide), Or.inl (by decide), rfl⟩

theorem C98_ivec3_adds {mem : Mem α} {vP destP : Ptr} {v : V3 Int32} {s : Int32} {r : V3 Int32} (h_v : HoldsI mem vP v.list) (r_dest : Room mem destP 3) (o_v_dest : Over vP 3 destP 3) (h : I.glm_ivec3_adds v s = some r) :
    CI.glm_ivec3_adds.run mem [vP.val, .i s.toInt, destP.val] =
      some (none, writes mem [(destP, icells r.list)]) :=
  itransferO (e := LibI.glm_ivec3_adds) (up := false) (by kernel_rfl) (((RO.nil false _).addP r_dest.has r_dest .nil .nil).addO h_v.has (.cons o_v_dest .nil)) (.p rfl (.i (.p rfl .nil))) (glm_ivec3_adds_irun _ _ h) rfl rfl rfl
example : let mem : Mem α := [⟨true, icells [7, 2, 5, 3]⟩]
    HoldsI mem (0, 1) (⟨2, 5, 3⟩ : V3 Int32).list ∧ Room mem (0, 0) 3 ∧ Over (0, 1) 3 (0, 0) 3 ∧ (I.glm_ivec3_adds (⟨2, 5, 3⟩ : V3 Int32) (2 : Int32)).isSome = true :=
  ⟨.within rfl rfl, .within rfl rfl, Or.inl (by decide), rfl⟩

theorem C98_ivec3_sub {mem : Mem α} {aP bP destP : Ptr} {a : V3 Int32} {b : V3 Int32} {r : V3 Int32} (h_a : HoldsI mem aP a.list) (h_b : HoldsI mem bP b.list) (r_dest : Room mem destP 3) (o_a_dest : Over aP 3 destP 3) (o_b_dest : Over bP 3 destP 3) (h : I.glm_ivec3_sub a b = some r) :
    CI.glm_ivec3_sub.run mem [aP.val, bP.val, destP.val] =
      some (none, writes mem [(destP, icells r.list)]) :=
  itransferO (e := LibI.glm_ivec3_sub) (up := false) (by kernel_rfl) ((((RO.nil false _).addP r_dest.has r_dest .nil .nil).addO h_b.has (.cons o_b_dest .nil)).addO h_a.has (.skip (.cons o_a_dest .nil))) (.p rfl (.p rfl (.p rfl .nil))) (glm_ivec3_sub_irun _ _ h) rfl rfl rfl
example : let mem : Mem α := [⟨true, icells [7, 2, 5, 3]⟩, ⟨false, icells [6, 1, 8]⟩]
    HoldsI mem (0, 1) (⟨2, 5, 3⟩ : V3 Int32).list ∧ HoldsI mem (1, 0) (⟨6, 1, 8⟩ : V3 Int32).list ∧ Room mem (0, 0) 3 ∧ Over (0, 1) 3 (0, 0) 3 ∧ Over (1, 0) 3 (0, 0) 3 ∧ (I.glm_ivec3_sub (⟨2, 5, 3⟩ : V3 Int32) (⟨6, 1, 8⟩ : V3 Int32)).isSome = true :=
  ⟨.within rfl rfl, .within rfl rfl, .within rfl rfl, Or.inl (by decide), Or.inl (by decide), rfl⟩

theorem C98_ivec3_subs {mem : Mem α} {vP destP : Ptr} {v : V3 Int32} {s : Int32} {r : V3 Int32} (h_v : HoldsI mem vP v.list) (r_dest : Room mem destP 3) (o_v_dest : Over vP 3 destP 3) (h : I.glm_ivec3_subs v s = some r) :
    CI.glm_ivec3_subs.run mem [vP.val, .i s.toInt, destP.val] =
      some (none, writes mem [(destP, icells r.list)]) :=
  itransferO (e := LibI.glm_ivec3_subs) (up := false) (by kernel_rfl) (((RO.nil false _).addP r_dest.has r_dest .nil .nil).addO h_v.has (.cons o_v_dest .nil)) (.p rfl (.i (.p rfl .nil))) (glm_ivec3_subs_irun _ _ h) rfl rfl rfl
example : let mem : Mem α := [⟨true, icells [7, 2, 5, 3]⟩]
    HoldsI mem (0, 1) (⟨2, 5, 3⟩ : V3 Int32).list ∧ Room mem (0, 0) 3 ∧ Over (0, 1) 3 (0, 0) 3 ∧ (I.glm_ivec3_subs (⟨2, 5, 3⟩ : V3 Int32) (2 : Int32)).isSome = true :=
  ⟨.within rfl rfl, .within rfl rfl, Or.inl (by decide), rfl⟩

theorem C98_ivec3_mul {mem : Mem α} {aP bP destP : Ptr} {a : V3 Int32} {b : V3 Int32} {r : V3 Int32} (h_a : HoldsI mem aP a.list) (h_b : HoldsI mem bP b.list) (r_dest : Room mem destP 3) (o_a_dest : Over aP 3 destP 3) (o_b_dest : Over bP 3 destP 3) (h : I.glm_ivec3_mul a b = some r) :
    CI.glm_ivec3_mul.run mem [aP.val, bP.val, destP.val] =
      some (none, writes mem [(destP, icells r.list)]) :=
  itransferO (e := LibI.glm_ivec3_mul) (up := false) (by kernel_rfl) ((((RO.nil false _).addP r_dest.has r_dest .nil .nil).addO h_b.has (.cons o_b_dest .nil)).addO h_a.has (.skip (.cons o_a_dest .nil))) (.p rfl (.p rfl (.p rfl .nil))) (glm_ivec3_mul_irun _ _ h) rfl rfl rfl
example : let mem : Mem α := [⟨true, icells [7, 2, 5, 3]⟩, ⟨false, icells [6, 1, 8]⟩]
    HoldsI mem (0, 1) (⟨2, 5, 3⟩ : V3 Int32).list ∧ HoldsI mem (1, 0) (⟨6, 1, 8⟩ : V3 Int32).list ∧ Room mem (0, 0) 3 ∧ Over (0, 1) 3 (0, 0) 3 ∧ Over (1, 0) 3 (0, 0) 3 ∧ (I.glm_ivec3_mul (⟨2, 5, 3⟩ : V3 Int32) (⟨6, 1, 8⟩ : V3 Int32)).isSome = true :=
  ⟨.within rfl rfl, .within rfl rfl, .within rfl rfl, Or.inl (by decide), Or.inl (by decide), rfl⟩

theorem C98_ivec3_scale {mem : Mem α} {vP destP : Ptr} {v : V3 Int32} {s : Int32} {r : V3 Int32} (h_v : HoldsI mem vP v.list) (r_dest : Room mem destP 3) (o_v_dest : Over vP 3 destP 3) (h : I.glm_ivec3_scale v s = some r) :
    CI.glm_ivec3_scale.run mem [vP.val, .i s.toInt, destP.val] =
      some (none, writes mem [(destP, icells r.list)]) :=
  itransferO (e := LibI.glm_ivec3_scale) (up := false) (by kernel_rfl) (((RO.nil false _).addP r_dest.has r_dest .nil .nil).addO h_v.has (.cons o_v_dest .nil)) (.p rfl (.i (.p rfl .nil))) (glm_ivec3_scale_irun _ _ h) rfl rfl rfl
example : let mem : Mem α := [⟨true, icells [7, 2, 5, 3]⟩]
    HoldsI mem (0, 1) (⟨2, 5, 3⟩ : V3 Int32).list ∧ Room mem (0, 0) 3 ∧ Over (0, 1) 3 (0, 0) 3 ∧ (I.glm_ivec3_scale (⟨2, 5, 3⟩ : V3 Int32) (2 : Int32)).isSome = true :=
  ⟨.within rfl rfl, .within rfl rfl, Or.inl (by decide), rfl⟩

theorem C98_ivec3_div {mem : Mem α} {aP bP destP : Ptr} {a : V3 Int32} {b : V3 Int32} {r : V3 Int32} (h_a : HoldsI mem aP a.list) (h_b : HoldsI mem bP b.list) (r_dest : Room mem destP 3) (o_a_dest : Over aP 3 destP 3) (o_b_dest : Over bP 3 destP 3) (h : I.glm_ivec3_div a b = some r) :
    CI.glm_ivec3_div.run mem [aP.val, bP.val, destP.val] =
      some (none, writes mem [(destP, icells r.list)]) :=
  itransferO (e := LibI.glm_ivec3_div) (up := false) (by kernel_rfl) ((((RO.nil false _).addP r_dest.has r_dest .nil .nil).addO h_b.has (.cons o_b_dest .nil)).addO h_a.has (.skip (.cons o_a_dest .nil))) (.p rfl (.p rfl (.p rfl .nil))) (glm_ivec3_div_irun _ _ h) rfl rfl rfl
example : let mem : Mem α := [⟨true, icells [7, 2, 5, 3]⟩, ⟨false, icells [6, 1, 8]⟩]
    HoldsI mem (0, 1) (⟨2, 5, 3⟩ : V3 Int32).list ∧ HoldsI mem (1, 0) (⟨6, 1, 8⟩ : V3 Int32).list ∧ Room mem (0, 0) 3 ∧ Over (0, 1) 3 (0, 0) 3 ∧ Over (1, 0) 3 (0, 0) 3 ∧ (I.glm_ivec3_div (⟨2, 5, 3⟩ : V3 Int32) (⟨6, 1, 8⟩ : V3 Int32)).isSome = true :=
  ⟨.within rfl rfl, .within rfl rfl, .within rfl rfl, Or.inl (by decide), Or.inl (by decide), rfl⟩

theorem C98_ivec3_divs {mem : Mem α} {vP destP : Ptr} {v : V3 Int32} {s : Int32} {r : V3 Int32} (h_v : HoldsI mem vP v.list) (r_dest : Room mem destP 3) (o_v_dest : Over vP 3 destP 3) (h : I.glm_ivec3_divs v s = some r) :
    CI.glm_ivec3_divs.run mem [vP.val, .i s.toInt, destP.val] =
      some (none, writes mem [(destP, icells r.list)]) :=
  itransferO (e := LibI.glm_ivec3_divs) (up := false) (by kernel_rfl) (((RO.nil false _).addP r_dest.has r_dest .nil .nil).addO h_v.has (.cons o_v_dest .nil)) (.p rfl (.i (.p rfl .nil))) (glm_ivec3_divs_irun _ _ h) rfl rfl rfl
example : let mem : Mem α := [⟨true, icells [7, 2, 5, 3]⟩]
    HoldsI mem (0, 1) (⟨2, 5, 3⟩ : V3 Int32).list ∧ Room mem (0, 0) 3 ∧ Over (0, 1) 3 (0, 0) 3 ∧ (I.glm_ivec3_divs (⟨2, 5, 3⟩ : V3 Int32) (2 : Int32)).isSome = true :=
  ⟨.within rfl rfl, .within rfl rfl, Or.inl (by decide), rfl⟩

theorem C98_ivec3_mod {mem : Mem α} {aP bP destP : Ptr} {a : V3 Int32} {b : V3 Int32} {r : V3 Int32} (h_a : HoldsI mem aP a.list) (h_b : HoldsI mem bP b.list) (r_dest : Room mem destP 3) (o_a_dest : Over aP 3 destP 3) (o_b_dest : Over bP 3 destP 3) (h : I.glm_ivec3_mod a b = some r) :
    CI.glm_ivec3_mod.run mem [aP.val, bP.val, destP.val] =
      some (none, writes mem [(destP, icells r.list)]) :=
  itransferO (e := LibI.glm_ivec3_mod) (up := false) (by kernel_rfl) ((((RO.nil false _).addP r_dest.has r_dest .nil .nil).addO h_b.has (.cons o_b_dest .nil)).addO h_a.has (.skip (.cons o_a_dest .nil))) (.p rfl (.p rfl (.p rfl .nil))) (glm_ivec3_mod_irun _ _ h) rfl rfl rfl
example : let mem : Mem α := [⟨true, icells [7, 2, 5, 3]⟩, ⟨false, icells [6, 1, 8]⟩]
    HoldsI mem (0, 1) (⟨2, 5, 3⟩ : V3 Int32).list ∧ HoldsI mem (1, 0) (⟨6, 1, 8⟩ : V3 Int32).list ∧ Room mem (0, 0) 3 ∧ Over (0, 1) 3 (0, 0) 3 ∧ Over (1, 0) 3 (0, 0) 3 ∧ (I.glm_ivec3_mod (⟨2, 5, 3⟩ : V3 Int32) (⟨6, 1, 8⟩ : V3 Int32)).isSome = true :=
  ⟨.within rfl rfl, .within rfl rfl, .within rfl rfl, Or.inl (by decide), Or.inl (by decide), rfl⟩

theorem C98_ivec3_addadd {mem : Mem α} {aP bP destP : Ptr} {a : V3 Int32} {b : V3 Int32} {dest : V3 Int32} {r : V3 Int32} (h_a : HoldsI mem aP a.list) (h_b : HoldsI mem bP b.list) (h_dest : HoldsI mem destP dest.list) (r_dest : Room mem destP 3) (o_a_dest : Over aP 3 destP 3) (o_b_dest : Over bP 3 destP 3) (h : I.glm_ivec3_addadd a b dest = some r) :
    CI.glm_ivec3_addadd.run mem [aP.val, bP.val, destP.val] =
      some (none, writes mem [(destP, icells r.list)]) :=
  itransferO (e := LibI.glm_ivec3_addadd) (up := false) (by kernel_rfl) ((((RO.nil false _).addP h_dest.has r_dest .nil .nil).addO h_b.has (.cons o_b_dest .nil)).addO h_a.has (.skip (.cons o_a_dest .nil))) (.p rfl (.p rfl (.p rfl .nil))) (glm_ivec3_addadd_irun _ _ _ h) rfl rfl rfl
example : let mem : Mem α := [⟨true, icells [7, 2, 5, 3]⟩, ⟨false, icells [6, 1, 8]⟩]
    HoldsI mem (0, 1) (⟨2, 5, 3⟩ : V3 Int32).list ∧ HoldsI mem (1, 0) (⟨6, 1, 8⟩ : V3 Int32).list ∧ Room mem (0, 0) 3 ∧ HoldsI mem (0, 0) (⟨7, 2, 5⟩ : V3 Int32).list ∧ Over (0, 1) 3 (0, 0) 3 ∧ Over (1, 0) 3 (0, 0) 3 ∧ (I.glm_ivec3_addadd (⟨2, 5, 3⟩ : V3 Int32) (⟨6, 1, 8⟩ : V3 Int32) (⟨7, 2, 5⟩ : V3 Int32)).isSome = true :=
  ⟨.within rfl rfl, .within rfl rfl, .within rfl rfl, .within rfl rfl, Or.inl (by decide), Or.inl (by decide), rfl⟩

theorem C98_ivec3_addadds {mem : Mem α} {aP destP : Ptr} {a : V3 Int32} {s : Int32} {dest : V3 Int32} {r : V3 Int32} (h_a : HoldsI mem aP a.list) (h_dest : HoldsI mem destP dest.list) (r_dest : Room mem destP 3) (o_a_dest : Over aP 3 destP 3) (h : I.glm_ivec3_addadds a s dest = some r) :
    CI.glm_ivec3_addadds.run mem [aP.val, .i s.toInt, destP.val] =
      some (none, writes mem [(destP, icells r.list)]) :=
  itransferO (e := LibI.glm_ivec3_addadds) (up := false) (by kernel_rfl) (((RO.nil false _).addP h_dest.has r_dest .nil .nil).addO h_a.has (.cons o_a_dest .nil)) (.p rfl (.i (.p rfl .nil))) (glm_ivec3_addadds_irun _ _ _ h) rfl rfl rfl
example : let mem : Mem α := [⟨true, icells [7, 2, 5, 3]⟩]
    HoldsI mem (0, 1) (⟨2, 5, 3⟩ : V3 Int32).list ∧ Room mem (0, 0) 3 ∧ HoldsI mem (0, 0) (⟨7, 2, 5⟩ : V3 Int32).list ∧ Over (0, 1) 3 (0, 0) 3 ∧ (I.glm_ivec3_addadds (⟨2, 5, 3⟩ : V3 Int32) (2 : Int32) (⟨7, 2, 5⟩ : V3 Int32)).isSome = true :=
  ⟨.within rfl rfl, .within rfl rfl, .within rfl rfl, Or.inl (by decide), rfl⟩

theorem C98_ivec3_subadd {mem : Mem α} {aP bP destP : Ptr} {a : V3 Int32} {b : V3 Int32} {dest : V3 Int32} {r : V3 Int32} (h_a : HoldsI mem aP a.list) (h_b : HoldsI mem bP b.list) (h_dest : HoldsI mem destP dest.list) (r_dest : Room mem destP 3) (o_a_dest : Over aP 3 destP 3) (o_b_dest : Over bP 3 destP 3) (h : I.glm_ivec3_subadd a b dest = some r) :
    CI.glm_ivec3_subadd.run mem [aP.val, bP.val, destP.val] =
      some (none, writes mem [(destP, icells r.list)]) :=
  itransferO (e := LibI.glm_ivec3_subadd) (up := false) (by kernel_rfl) ((((RO.nil false _).addP h_dest.has r_dest .nil .nil).addO h_b.has (.cons o_b_dest .nil)).addO h_a.has (.skip (.cons o_a_dest .nil))) (.p rfl (.p rfl (.p rfl .nil))) (glm_ivec3_subadd_irun _ _ _ h) rfl rfl rfl
example : let mem : Mem α := [⟨true, icells [7, 2, 5, 3]⟩, ⟨false, icells [6, 1, 8]⟩]
    HoldsI mem (0, 1) (⟨2, 5, 3⟩ : V3 Int32).list ∧ HoldsI mem (1, 0) (⟨6, 1, 8⟩ : V3 Int32).list ∧ Room mem (0, 0) 3 ∧ HoldsI mem (0, 0) (⟨7, 2, 5⟩ : V3 Int32).list ∧ Over (0, 1) 3 (0, 0) 3 ∧ Over (1, 0) 3 (0, 0) 3 ∧ (I.glm_ivec3_subadd (⟨2, 5, 3⟩ : V3 Int32) (⟨6, 1, 8⟩ : V3 Int32) (⟨7, 2, 5⟩ : V3 Int32)).isSome = true :=
  ⟨.within rfl rfl, .within rfl rfl, .within rfl rfl, .within rfl rfl, Or.inl (by decide), Or.inl (by decide), rfl⟩

theorem C98_ivec3_subadds {mem : Mem α} {aP destP : Ptr} {a : V3 Int32} {s : Int32} {dest : V3 Int32} {r : V3 Int32} (h_a : HoldsI mem aP a.list) (h_dest : HoldsI mem destP dest.list) (r_dest : Room mem destP 3) (o_a_dest : Over aP 3 destP 3) (h : I.glm_ivec3_subadds a s dest = some r) :
    CI.glm_ivec3_subadds.run mem [aP.val, .i s.toInt, destP.val] =
      some (none, writes mem [(destP, icells r.list)]) :=
  itransferO (e := LibI.glm_ivec3_subadds) (up := false) (by kernel_rfl) (((RO.nil false _).addP h_dest.has r_dest .nil .nil).addO h_a.has (.cons o_a_dest .nil)) (.p rfl (.i (.p rfl .nil))) (glm_ivec3_subadds_irun _ _ _ h) rfl rfl rfl
example : let mem : Mem α := [⟨true, icells [7, 2, 5, 3]⟩]
    HoldsI mem (0, 1) (⟨2, 5, 3⟩ : V3 Int32).list ∧ Room mem (0, 0) 3 ∧ HoldsI mem (0, 0) (⟨7, 2, 5⟩ : V3 Int32).list ∧ Over (0, 1) 3 (0, 0) 3 ∧ (I.glm_ivec3_subadds (⟨2, 5, 3⟩ : V3 Int32) (2 : Int32) (⟨7, 2, 5⟩ : V3 Int32)).isSome = true :=
  ⟨.within rfl rfl, .within rfl rfl, .within rfl rfl, Or.inl (by decide), rfl⟩

theorem C98_ivec3_muladd {mem : Mem α} {aP bP destP : Ptr} {a : V3 Int32} {b : V3 Int32} {dest : V3 Int32} {r : V3 Int32} (h_a : HoldsI mem aP a.list) (h_b : HoldsI mem bP b.list) (h_dest : HoldsI mem destP dest.list) (r_dest : Room mem destP 3) (o_a_dest : Over aP 3 destP 3) (o_b_dest : Over bP 3 destP 3) (h : I.glm_ivec3_muladd a b dest = some r) :
    CI.glm_ivec3_muladd.run mem [aP.val, bP.val, destP.val] =
      some (none, writes mem [(destP, icells r.list)]) :=
  itransferO (e := LibI.glm_ivec3_muladd) (up := false) (by kernel_rfl) ((((RO.nil false _).addP h_dest.has r_dest .nil .nil).addO h_b.has (.cons o_b_dest .nil)).addO h_a.has (.skip (.cons o_a_dest .nil))) (.p rfl (.p rfl (.p rfl .nil))) (glm_ivec3_muladd_irun _ _ _ h) rfl rfl rfl
example : let mem : Mem α := [⟨true, icells [7, 2, 5, 3]⟩, ⟨false, icells [6, 1, 8]⟩]
    HoldsI mem (0, 1) (⟨2, 5, 3⟩ : V3 Int32).list ∧ HoldsI mem (1, 0) (⟨6, 1, 8⟩ : V3 Int32).list ∧ Room mem (0, 0) 3 ∧ HoldsI mem (0, 0) (⟨7, 2, 5⟩ : V3 Int32).list ∧ Over (0, 1) 3 (0, 0) 3 ∧ Over (1, 0) 3 (0, 0) 3 ∧ (I.glm_ivec3_muladd (⟨2, 5, 3⟩ : V3 Int32) (⟨6, 1, 8⟩ : V3 Int32) (⟨7, 2, 5⟩ : V3 Int32)).isSome = true :=
  ⟨.within rfl rfl, .within rfl rfl, .within rfl rfl, .within rfl rfl, Or.inl (by decide), Or.inl (by decide), rfl⟩

theorem C98_ivec3_muladds {mem : Mem α} {aP destP : Ptr} {a : V3 Int32} {s : Int32} {dest : V3 Int32} {r : V3 Int32} (h_a : HoldsI mem aP a.list) (h_dest : HoldsI mem destP dest.list) (r_dest : Room mem destP 3) (o_a_dest : Over aP 3 destP 3) (h : I.glm_ivec3_muladds a s dest = some r) :
    CI.glm_ivec3_muladds.run mem [aP.val, .i s.toInt, destP.val] =
      some (none, writes mem [(destP, icells r.list)]) :=
  itransferO (e := LibI.glm_ivec3_muladds) (up := false) (by kernel_rfl) (((RO.nil false _).addP h_dest.has r_dest .nil .nil).addO h_a.has (.cons o_a_dest .nil)) (.p rfl (.i (.p rfl .nil))) (glm_ivec3_muladds_irun _ _ _ h) rfl rfl rfl
example : let mem : Mem α := [⟨true, icells [7, 2, 5, 3]⟩]
    HoldsI mem (0, 1) (⟨2, 5, 3⟩ : V3 Int32).list ∧ Room mem (0, 0) 3 ∧ HoldsI mem (0, 0) (⟨7, 2, 5⟩ : V3 Int32).list ∧ Over (0, 1) 3 (0, 0) 3 ∧ (I.glm_ivec3_muladds (⟨2, 5, 3⟩ : V3 Int32) (2 : Int32) (⟨7, 2, 5⟩ : V3 Int32)).isSome = true :=
  ⟨.within rfl rfl, .within rfl rfl, .within rfl rfl, Or.inl (by decide), rfl⟩

theorem C98_ivec3_maxadd {mem : Mem α} {aP bP destP : Ptr} {a : V3 Int32} {b : V3 Int32} {dest : V3 Int32} {r : V3 Int32} (h_a : HoldsI mem aP a.list) (h_b : HoldsI mem bP b.list) (h_dest : HoldsI mem destP dest.list) (r_dest : Room mem destP 3) (o_a_dest : Over aP 3 destP 3) (o_b_dest : Over bP 3 destP 3) (h : I.glm_ivec3_maxadd a b dest = some r) :
    CI.glm_ivec3_maxadd.run mem [aP.val, bP.val, destP.val] =
      some (none, writes mem [(destP, icells r.list)]) :=
  itransferO (e := LibI.glm_ivec3_maxadd) (up := false) (by kernel_rfl) ((((RO.nil false _).addP h_dest.has r_dest .nil .nil).addO h_b.has (.cons o_b_dest .nil)).addO h_a.has (.skip (.cons o_a_dest .nil))) (.p rfl (.p rfl (.p rfl .nil))) (glm_ivec3_maxadd_irun _ _ _ h) rfl rfl rfl
example : let mem : Mem α := [⟨true, icells [7, 2, 5, 3]⟩, ⟨false, icells [6, 1, 8]⟩]
    HoldsI mem (0, 1) (⟨2, 5, 3⟩ : V3 Int32).list ∧ HoldsI mem (1, 0) (⟨6, 1, 8⟩ : V3 Int32).list ∧ Room mem (0, 0) 3 ∧ HoldsI mem (0, 0) (⟨7, 2, 5⟩ : V3 Int32).list ∧ Over (0, 1) 3 (0, 0) 3 ∧ Over (1, 0) 3 (0, 0) 3 ∧ (I.glm_ivec3_maxadd (⟨2, 5, 3⟩ : V3 Int32) (⟨6, 1, 8⟩ : V3 Int32) (⟨7, 2, 5⟩ : V3 Int32)).isSome = true :=
  ⟨.within rfl rfl, .within rfl rfl, .within rfl rfl, .within rfl rfl, Or.inl (by decide), Or.inl (by decide), rfl⟩

theorem C98_ivec3_minadd {mem : Mem α} {aP bP destP : Ptr} {a : V3 Int32} {b : V3 Int32} {dest : V3 Int32} {r : V3 Int32} (h_a : HoldsI mem aP a.list) (h_b : HoldsI mem bP b.list) (h_dest : HoldsI mem destP dest.list) (r_dest : Room mem destP 3) (o_a_dest : Over aP 3 destP 3) (o_b_dest : Over bP 3 destP 3) (h : I.glm_ivec3_minadd a b dest = some r) :
    CI.glm_ivec3_minadd.run mem [aP.val, bP.val, destP.val] =
      some (none, writes mem [(destP, icells r.list)]) :=
  itransferO (e := LibI.glm_ivec3_minadd) (up := false) (by kernel_rfl) ((((RO.nil false _).addP h_dest.has r_dest .nil .nil).addO h_b.has (.cons o_b_dest .nil)).addO h_a.has (.skip (.cons o_a_dest .nil))) (.p rfl (.p rfl (.p rfl .nil))) (glm_ivec3_minadd_irun _ _ _ h) rfl rfl rfl
example : let mem : Mem α := [⟨true, icells [7, 2, 5, 3]⟩, ⟨false, icells [6, 1, 8]⟩]
    HoldsI mem (0, 1) (⟨2, 5, 3⟩ : V3 Int32).list ∧ HoldsI mem (1, 0) (⟨6, 1, 8⟩ : V3 Int32).list ∧ Room mem (0, 0) 3 ∧ HoldsI mem (0, 0) (⟨7, 2, 5⟩ : V3 Int32).list ∧ Over (0, 1) 3 (0, 0) 3 ∧ Over (1, 0) 3 (0, 0) 3 ∧ (I.glm_ivec3_minadd (⟨2, 5, 3⟩ : V3 Int32) (⟨6, 1, 8⟩ : V3 Int32) (⟨7, 2, 5⟩ : V3 Int32)).isSome = true :=
  ⟨.within rfl rfl, .within rfl rfl, .within rfl rfl, .within rfl rfl, Or.inl (by decide), Or.inl (by decide), rfl⟩

theorem C98_ivec3_subsub {mem : Mem α} {aP bP destP : Ptr} {a : V3 Int32} {b : V3 Int32} {dest : V3 Int32} {r : V3 Int32} (h_a : HoldsI mem aP a.list) (h_b : HoldsI mem bP b.list) (h_dest : HoldsI mem destP dest.list) (r_dest : Room mem destP 3) (o_a_dest : Over aP 3 destP 3) (o_b_dest : Over bP 3 destP 3) (h : I.glm_ivec3_subsub a b dest = some r) :
    CI.glm_ivec3_subsub.run mem [aP.val, bP.val, destP.val] =
      some (none, writes mem [(destP, icells r.list)]) :=
  itransferO (e := LibI.glm_ivec3_subsub) (up := false) (by kernel_rfl) ((((RO.nil false _).addP h_dest.has r_dest .nil .nil).addO h_b.has (.cons o_b_dest .nil)).addO h_a.has (.skip (.cons o_a_dest .nil))) (.p rfl (.p rfl (.p rfl .nil))) (glm_ivec3_subsub_irun _ _ _ h) rfl rfl rfl
example : let mem : Mem α := [⟨true, icells [7, 2, 5, 3]⟩, ⟨false, icells [6, 1, 8]⟩]
    HoldsI mem (0, 1) (⟨2, 5, 3⟩ : V3 Int32).list ∧ HoldsI mem (1, 0) (⟨6, 1, 8⟩ : V3 Int32).list ∧ Room mem (0, 0) 3 ∧ HoldsI mem (0, 0) (⟨7, 2, 5⟩ : V3 Int32).list ∧ Over (0, 1) 3 (0, 0) 3 ∧ Over (1, 0) 3 (0, 0) 3 ∧ (I.glm_ivec3_subsub (⟨2, 5, 3⟩ : V3 Int32) (⟨6, 1, 8⟩ : V3 Int32) (⟨7, 2, 5⟩ : V3 Int32)).isSome = true :=
  ⟨.within rfl rfl, .within rfl rfl, .within rfl rfl, .within rfl rfl, Or.inl (by decide), Or.inl (by decide), rfl⟩

theorem C98_ivec3_subsubs {mem : Mem α} {aP destP : Ptr} {a : V3 Int32} {s : Int32} {dest : V3 Int32} {r : V3 Int32} (h_a : HoldsI mem aP a.list) (h_dest : HoldsI mem destP dest.list) (r_dest : Room mem destP 3) (o_a_dest : Over aP 3 destP 3) (h : I.glm_ivec3_subsubs a s dest = some r) :
    CI.glm_ivec3_subsubs.run mem [aP.val, .i s.toInt, destP.val] =
      some (none, writes mem [(destP, icells r.list)]) :=
  itransferO (e := LibI.glm_ivec3_subsubs) (up := false) (by kernel_rfl) (((RO.nil false _).addP h_dest.has r_dest .nil .nil).addO h_a.has (.cons o_a_dest .nil)) (.p rfl (.i (.p rfl .nil))) (glm_ivec3_subsubs_irun _ _ _ h) rfl rfl rfl
example : let mem : Mem α := [⟨true, icells [7, 2, 5, 3]⟩]
    HoldsI mem (0, 1) (⟨2, 5, 3⟩ : V3 Int32).list ∧ Room mem (0, 0) 3 ∧ HoldsI mem (0, 0) (⟨7, 2, 5⟩ : V3 Int32).list ∧ Over (0, 1) 3 (0, 0) 3 ∧ (I.glm_ivec3_subsubs (⟨2, 5, 3⟩ : V3 Int32) (2 : Int32) (⟨7, 2, 5⟩ : V3 Int32)).isSome = true :=
  ⟨.within rfl rfl, .within rfl rfl, .within rfl rfl, Or.inl (by decide), rfl⟩

theorem C98_ivec3_addsub {mem : Mem α} {aP bP destP : Ptr} {a : V3 Int32} {b : V3 Int32} {dest : V3 Int32} {r : V3 Int32} (h_a : HoldsI mem aP a.list) (h_b : HoldsI mem bP b.list) (h_dest : HoldsI mem destP dest.list) (r_dest : Room mem destP 3) (o_a_dest : Over aP 3 destP 3) (o_b_dest : Over bP 3 destP 3) (h : I.glm_ivec3_addsub a b dest = some r) :
    CI.glm_ivec3_addsub.run mem [aP.val, bP.val, destP.val] =
      some (none, writes mem [(destP, icells r.list)]) :=
  itransferO (e := LibI.glm_ivec3_addsub) (up := false) (by kernel_rfl) ((((RO.nil false _).addP h_dest.has r_dest .nil .nil).addO h_b.has (.cons o_b_dest .nil)).addO h_a.has (.skip (.cons o_a_dest .nil))) (.p rfl (.p rfl (.p rfl .nil))) (glm_ivec3_addsub_irun _ _ _ h) rfl rfl rfl
example : let mem : Mem α := [⟨true, icells [7, 2, 5, 3]⟩, ⟨false, icells [6, 1, 8]⟩]
    HoldsI mem (0, 1) (⟨2, 5, 3⟩ : V3 Int32).list ∧ HoldsI mem (1, 0) (⟨6, 1, 8⟩ : V3 Int32).list ∧ Room mem (0, 0) 3 ∧ HoldsI mem (0, 0) (⟨7, 2, 5⟩ : V3 Int32).list ∧ Over (0, 1) 3 (0, 0) 3 ∧ Over (1, 0) 3 (0, 0) 3 ∧ (I.glm_ivec3_addsub (⟨2, 5, 3⟩ : V3 Int32) (⟨6, 1, 8⟩ : V3 Int32) (⟨7, 2, 5⟩ : V3 Int32)).isSome = true :=
  ⟨.within rfl rfl, .within rfl rfl, .within rfl rfl, .within rfl rfl, Or.inl (by decide), Or.inl (by decide), rfl⟩

theorem C98_ivec3_addsubs {mem : Mem α} {aP destP : Ptr} {a : V3 Int32} {s : Int32} {dest : V3 Int32} {r : V3 Int32} (h_a : HoldsI mem aP a.list) (h_dest : HoldsI mem destP dest.list) (r_dest : Room mem destP 3) (o_a_dest : Over aP 3 destP 3) (h : I.glm_ivec3_addsubs a s dest = some r) :
    CI.glm_ivec3_addsubs.run mem [aP.val, .i s.toInt, destP.val] =
      some (none, writes mem [(destP, icells r.list)]) :=
  itransferO (e := LibI.glm_ivec3_addsubs) (up := false) (by kernel_rfl) (((RO.nil false _).addP h_dest.has r_dest .nil .nil).addO h_a.has (.cons o_a_dest .nil)) (.p rfl (.i (.p rfl .nil))) (glm_ivec3_addsubs_irun _ _ _ h) rfl rfl rfl
example : let mem : Mem α := [⟨true, icells [7, 2, 5, 3]⟩]
    HoldsI mem (0, 1) (⟨2, 5, 3⟩ : V3 Int32).list ∧ Room mem (0, 0) 3 ∧ HoldsI mem (0, 0) (⟨7, 2, 5⟩ : V3 Int32).list ∧ Over (0, 1) 3 (0, 0) 3 ∧ (I.glm_ivec3_addsubs (⟨2, 5, 3⟩ : V3 Int32) (2 : Int32) (⟨7, 2, 5⟩ : V3 Int32)).isSome = true :=
  ⟨.within rfl rfl, .within rfl rfl, .within rfl rfl, Or.inl (by decide), rfl⟩

theorem C98_ivec3_mulsub {mem : Mem α} {aP bP destP : Ptr} {a : V3 Int32} {b : V3 Int32} {dest : V3 Int32} {r : V3 Int32} (h_a : HoldsI mem aP a.list) (h_b : HoldsI mem bP b.list) (h_dest : HoldsI mem destP dest.list) (r_dest : Room mem destP 3) (o_a_dest : Over aP 3 destP 3) (o_b_dest : Over bP 3 destP 3) (h : I.glm_ivec3_mulsub a b dest = some r) :
    CI.glm_ivec3_mulsub.run mem [aP.val, bP.val, destP.val] =
      some (none, writes mem [(destP, icells r.list)]) :=
  itransferO (e := LibI.glm_ivec3_mulsub) (up := false) (by kernel_rfl) ((((RO.nil false _).addP h_dest.has r_dest .nil .nil).addO h_b.has (.cons o_b_dest .nil)).addO h_a.has (.skip (.cons o_a_dest .nil))) (.p rfl (.p rfl (.p rfl .nil))) (glm_ivec3_mulsub_irun _ _ _ h) rfl rfl rfl
example : let mem : Mem α := [⟨true, icells [7, 2, 5, 3]⟩, ⟨false, icells [6, 1, 8]⟩]
    HoldsI mem (0, 1) (⟨2, 5, 3⟩ : V3 Int32).list ∧ HoldsI mem (1, 0) (⟨6, 1, 8⟩ : V3 Int32).list ∧ Room mem (0, 0) 3 ∧ HoldsI mem (0, 0) (⟨7, 2, 5⟩ : V3 Int32).list ∧ Over (0, 1) 3 (0, 0) 3 ∧ Over (1, 0) 3 (0, 0) 3 ∧ (I.glm_ivec3_mulsub (⟨2, 5, 3⟩ : V3 Int32) (⟨6, 1, 8⟩ : V3 Int32) (⟨7, 2, 5⟩ : V3 Int32)).isSome = true :=
  ⟨.within rfl rfl, .within rfl rfl, .within rfl rfl, .within rfl rfl, Or.inl (by decide), Or.inl (by decide), rfl⟩

theorem C98_ivec3_mulsubs {mem : Mem α} {aP destP : Ptr} {a : V3 Int32} {s : Int32} {dest : V3 Int32} {r : V3 Int32} (h_a : HoldsI mem aP a.list) (h_dest : HoldsI mem destP dest.list) (r_dest : Room mem destP 3) (o_a_dest : Over aP 3 destP 3) (h : I.glm_ivec3_mulsubs a s dest = some r) :
    CI.glm_ivec3_mulsubs.run mem [aP.val, .i s.toInt, destP.val] =
      some (none, writes mem [(destP, icells r.list)]) :=
  itransferO (e := LibI.glm_ivec3_mulsubs) (up := false) (by kernel_rfl) (((RO.nil false _).addP h_dest.has r_dest .nil .nil).addO h_a.has (.cons o_a_dest .nil)) (.p rfl (.i (.p rfl .nil))) (glm_ivec3_mulsubs_irun _ _ _ h) rfl rfl rfl
example : let mem : Mem α := [⟨true, icells [7, 2, 5, 3]⟩]
    HoldsI mem (0, 1) (⟨2, 5, 3⟩ : V3 Int32).list ∧ Room mem (0, 0) 3 ∧ HoldsI mem (0, 0) (⟨7, 2, 5⟩ : V3 Int32).list ∧ Over (0, 1) 3 (0, 0) 3 ∧ (I.glm_ivec3_mulsubs (⟨2, 5, 3⟩ : V3 Int32) (2 : Int32) (⟨7, 2, 5⟩ : V3 Int32)).isSome = true :=
  ⟨.within rfl rfl, .within rfl rfl, .within rfl rfl, Or.inl (by decide), rfl⟩

theorem C98_ivec3_maxsub {mem : Mem α} {aP bP destP : Ptr} {a : V3 Int32} {b : V3 Int32} {dest : V3 Int32} {r : V3 Int32} (h_a : HoldsI mem aP a.list) (h_b : HoldsI mem bP b.list) (h_dest : HoldsI mem destP dest.list) (r_dest : Room mem destP 3) (o_a_dest : Over aP 3 destP 3) (o_b_dest : Over bP 3 destP 3) (h : I.glm_ivec3_maxsub a b dest = some r) :
    CI.glm_ivec3_maxsub.run mem [aP.val, bP.val, destP.val] =
      some (none, writes mem [(destP, icells r.list)]) :=
  itransferO (e := LibI.glm_ivec3_maxsub) (up := false) (by kernel_rfl) ((((RO.nil false _).addP h_dest.has r_dest .nil .nil).addO h_b.has (.cons o_b_dest .nil)).addO h_a.has (.skip (.cons o_a_dest .nil))) (.p rfl (.p rfl (.p rfl .nil))) (glm_ivec3_maxsub_irun _ _ _ h) rfl rfl rfl
example : let mem : Mem α := [⟨true, icells [7, 2, 5, 3]⟩, ⟨false, icells [6, 1, 8]⟩]
    HoldsI mem (0, 1) (⟨2, 5, 3⟩ : V3 Int32).list ∧ HoldsI mem (1, 0) (⟨6, 1, 8⟩ : V3 Int32).list ∧ Room mem (0, 0) 3 ∧ HoldsI mem (0, 0) (⟨7, 2, 5⟩ : V3 Int32).list ∧ Over (0, 1) 3 (0, 0) 3 ∧ Over (1, 0) 3 (0, 0) 3 ∧ (I.glm_ivec3_maxsub (⟨2, 5, 3⟩ : V3 Int32) (⟨6, 1, 8⟩ : V3 Int32) (⟨7, 2, 5⟩ : V3 Int32)).isSome = true :=
  ⟨.within rfl rfl, .within rfl rfl, .within rfl rfl, .within rfl rfl, Or.inl (by decide), Or.inl (by decide), rfl⟩

theorem C98_ivec3_minsub {mem : Mem α} {aP bP destP : Ptr} {a : V3 Int32} {b : V3 Int32} {dest : V3 Int32} {r : V3 Int32} (h_a : HoldsI mem aP a.list) (h_b : HoldsI mem bP b.list) (h_dest : HoldsI mem destP dest.list) (r_dest : Room mem destP 3) (o_a_dest : Over aP 3 destP 3) (o_b_dest : Over bP 3 destP 3) (h : I.glm_ivec3_minsub a b dest = some r) :
    CI.glm_ivec3_minsub.run mem [aP.val, bP.val, destP.val] =
      some (none, writes mem [(destP, icells r.list)]) :=
  itransferO (e := LibI.glm_ivec3_minsub) (up := false) (by kernel_rfl) ((((RO.nil false _).addP h_dest.has r_dest .nil .nil).addO h_b.has (.cons o_b_dest .nil)).addO h_a.has (.skip (.cons o_a_dest .nil))) (.p rfl (.p rfl (.p rfl .nil))) (glm_ivec3_minsub_irun _ _ _ h) rfl rfl rfl
example : let mem : Mem α := [⟨true, icells [7, 2, 5, 3]⟩, ⟨false, icells [6, 1, 8]⟩]
    HoldsI mem (0, 1) (⟨2, 5, 3⟩ : V3 Int32).list ∧ HoldsI mem (1, 0) (⟨6, 1, 8⟩ : V3 Int32).list ∧ Room mem (0, 0) 3 ∧ HoldsI mem (0, 0) (⟨7, 2, 5⟩ : V3 Int32).list ∧ Over (0, 1) 3 (0, 0) 3 ∧ Over (1, 0) 3 (0, 0) 3 ∧ (I.glm_ivec3_minsub (⟨2, 5, 3⟩ : V3 Int32) (⟨6, 1, 8⟩ : V3 Int32) (⟨7, 2, 5⟩ : V3 Int32)).isSome = true :=
  ⟨.within rfl rfl, .within rfl rfl, .within rfl rfl, .within rfl rfl, Or.inl (by decide), Or.inl (by decide), rfl⟩

theorem C98_ivec3_maxv {mem : Mem α} {aP bP destP : Ptr} {a : V3 Int32} {b : V3 Int32} {r : V3 Int32} (h_a : HoldsI mem aP a.list) (h_b : HoldsI mem bP b.list) (r_dest : Room mem destP 3) (o_a_dest : Over aP 3 destP 3) (o_b_dest : Over bP 3 destP 3) (h : I.glm_ivec3_maxv a b = some r) :
    CI.glm_ivec3_maxv.run mem [aP.val, bP.val, destP.val] =
      some (none, writes mem [(destP, icells r.list)]) :=
  itransferO (e := LibI.glm_ivec3_maxv) (up := false) (by kernel_rfl) ((((RO.nil false _).addP r_dest.has r_dest .nil .nil).addO h_b.has (.cons o_b_dest .nil)).addO h_a.has (.skip (.cons o_a_dest .nil))) (.p rfl (.p rfl (.p rfl .nil))) (glm_ivec3_maxv_irun _ _ h) rfl rfl rfl
example : let mem : Mem α := [⟨true, icells [7, 2, 5, 3]⟩, ⟨false, icells [6, 1, 8]⟩]
    HoldsI mem (0, 1) (⟨2, 5, 3⟩ : V3 Int32).list ∧ HoldsI mem (1, 0) (⟨6, 1, 8⟩ : V3 Int32).list ∧ Room mem (0, 0) 3 ∧ Over (0, 1) 3 (0, 0) 3 ∧ Over (1, 0) 3 (0, 0) 3 ∧ (I.glm_ivec3_maxv (⟨2, 5, 3⟩ : V3 Int32) (⟨6, 1, 8⟩ : V3 Int32)).isSome = true :=
  ⟨.within rfl rfl, .within rfl rfl, .within rfl rfl, Or.inl (by decide), Or.inl (by decide), rfl⟩

theorem C98_ivec3_minv {mem : Mem α} {aP bP destP : Ptr} {a : V3 Int32} {b : V3 Int32} {r : V3 Int32} (h_a : HoldsI mem aP a.list) (h_b : HoldsI mem bP b.list) (r_dest : Room mem destP 3) (o_a_dest : Over aP 3 destP 3) (o_b_dest : Over bP 3 destP 3) (h : I.glm_ivec3_minv a b = some r) :
    CI.glm_ivec3_minv.run mem [aP.val, bP.val, destP.val] =
      some (none, writes mem [(destP, icells r.list)]) :=
  itransferO (e := LibI.glm_ivec3_minv) (up := false) (by kernel_rfl) ((((RO.nil false _).addP r_dest.has r_dest .nil .nil).addO h_b.has (.cons o_b_dest .nil)).addO h_a.has (.skip (.cons o_a_dest .nil))) (.p rfl (.p rfl (.p rfl .nil))) (glm_ivec3_minv_irun _ _ h) rfl rfl rfl
example : let mem : Mem α := [⟨true, icells [7, 2, 5, 3]⟩, ⟨false, icells [6, 1, 8]⟩]
    HoldsI mem (0, 1) (⟨2, 5, 3⟩ : V3 Int32).list ∧ HoldsI mem (1, 0) (⟨6, 1, 8⟩ : V3 Int32).list ∧ Room mem (0, 0) 3 ∧ Over (0, 1) 3 (0, 0) 3 ∧ Over (1, 0) 3 (0, 0) 3 ∧ (I.glm_ivec3_minv (⟨2, 5, 3⟩ : V3 Int32) (⟨6, 1, 8⟩ : V3 Int32)).isSome = true :=
  ⟨.within rfl rfl, .within rfl rfl, .within rfl rfl, Or.inl (by decide), Or.inl (by decide), rfl⟩

theorem C98_ivec3_abs {mem : Mem α} {vP destP : Ptr} {v : V3 Int32} {r : V3 Int32} (h_v : HoldsI mem vP v.list) (r_dest : Room mem destP 3) (o_v_dest : Over vP 3 destP 3) (h : I.glm_ivec3_abs v = some r) :
    CI.glm_ivec3_abs.run mem [vP.val, destP.val] =
      some (none, writes mem [(destP, icells r.list)]) :=
  itransferO (e := LibI.glm_ivec3_abs) (up := false) (by kernel_rfl) (((RO.nil false _).addP r_dest.has r_dest .nil .nil).addO h_v.has (.cons o_v_dest .nil)) (.p rfl (.p rfl .nil)) (glm_ivec3_abs_irun _ h) rfl rfl rfl
example : let mem : Mem α := [⟨true, icells [7, 2, 5, 3]⟩]
    HoldsI mem (0, 1) (⟨2, 5, 3⟩ : V3 Int32).list ∧ Room mem (0, 0) 3 ∧ Over (0, 1) 3 (0, 0) 3 ∧ (I.glm_ivec3_abs (⟨2, 5, 3⟩ : V3 Int32)).isSome = true :=
  ⟨.within rfl rfl, .within rfl rfl, Or.inl (by decide), rfl⟩

theorem C98_ivec4 {mem : Mem α} {v3P destP : Ptr} {v3 : V3 Int32} {last : Int32} {r : V4 Int32} (h_v3 : HoldsI mem v3P v3.list) (r_dest : Room mem destP 4) (o_v3_dest : Over v3P 3 destP 4) (h : I.glm_ivec4 v3 last = some r) :
    CI.glm_ivec4.run mem [v3P.val, .i last.toInt, destP.val] =
      some (none, writes mem [(destP, icells r.list)]) :=
  itransferO (e := LibI.glm_ivec4) (up := false) (by kernel_rfl) (((RO.nil false _).addP r_dest.has r_dest .nil .nil).addO h_v3.has (.cons o_v3_dest .nil)) (.p rfl (.i (.p rfl .nil))) (glm_ivec4_irun _ _ h) rfl rfl rfl
example : let mem : Mem α := [⟨true, icells [7, 2, 5, 3]⟩]
    HoldsI mem (0, 1) (⟨2, 5, 3⟩ : V3 Int32).list ∧ Room mem (0, 0) 4 ∧ Over (0, 1) 3 (0, 0) 4 ∧ (I.glm_ivec4 (⟨2, 5, 3⟩ : V3 Int32) (2 : Int32)).isSome = true :=
  ⟨.within rfl rfl, .within rfl rfl, Or.inl (by decide), rfl⟩

theorem C98_ivec4_copy {mem : Mem α} {aP destP : Ptr} {a : V4 Int32} {r : V4 Int32} (h_a : HoldsI mem aP a.list) (r_dest : Room mem destP 4) (o_a_dest : Over aP 4 destP 4) (h : I.glm_ivec4_copy a = some r) :
    CI.glm_ivec4_copy.run mem [aP.val, destP.val] =
      some (none, writes mem [(destP, icells r.list)]) :=
  itransferO (e := LibI.glm_ivec4_copy) (up := false) (by kernel_rfl) (((RO.nil false _).addP r_dest.has r_dest .nil .nil).addO h_a.has (.cons o_a_dest .nil)) (.p rfl (.p rfl .nil)) (glm_ivec4_copy_irun _ h) rfl rfl rfl
example : let mem : Mem α := [⟨true, icells [7, 2, 5, 3, 4]⟩]
    HoldsI mem (0, 1) (⟨2, 5, 3, 4⟩ : V4 Int32).list ∧ Room mem (0, 0) 4 ∧ Over (0, 1) 4 (0, 0) 4 ∧ (I.glm_ivec4_copy (⟨2, 5, 3, 4⟩ : V4 Int32)).isSome = true :=
  ⟨.within rfl rfl, .within rfl rfl, Or.inl (by decide), rfl⟩

theorem C98_ivec4_add {mem : Mem α} {aP bP destP : Ptr} {a : V4 Int32} {b : V4 Int32} {r : V4 Int32} (h_a : HoldsI mem aP a.list) (h_b : HoldsI mem bP b.list) (r_dest : Room mem destP 4) (o_a_dest : Over aP 4 destP 4) (o_b_dest : Over bP 4 destP 4) (h : I.glm_ivec4_add a b = some r) :
    CI.glm_ivec4_add.run mem [aP.val, bP.val, destP.val] =
      some (none, writes mem [(destP, icells r.list)]) :=
  itransferO (e := LibI.glm_ivec4_add) (up := false) (by kernel_rfl) ((((RO.nil false _).addP r_dest.has r_dest .nil .nil).addO h_b.has (.cons o_b_dest .nil)).addO h_a.has (.skip (.cons o_a_dest .nil))) (.p rfl (.p rfl (.p rfl .nil))) (glm_ivec4_add_irun _ _ h) rfl rfl rfl
example : let mem : Mem α := [⟨true, icells [7, 2, 5, 3, 4]⟩, ⟨false, icells [6, 1, 8, 9]⟩]
    HoldsI mem (0, 1) (⟨2, 5, 3, 4⟩ : V4 Int32).list ∧ HoldsI mem (1, 0) (⟨6, 1, 8, 9⟩ : V4 Int32).list ∧ Room mem (0, 0) 4 ∧ Over (0, 1) 4 (0, 0) 4 ∧ Over (1, 0) 4 (0, 0) 4 ∧ (I.glm_ivec4_add (⟨2, 5, 3, 4⟩ : V4 Int32) (⟨6, 1, 8, 9⟩ : V4 Int32)).isSome = true :=
  ⟨.within rfl rfl, .within rfl rfl, .within rfl rfl, Or.inl (by decide), Or.inl (by decide), rfl⟩

theorem C98_ivec4_adds {mem : Mem α} {vP destP : Ptr} {v : V4 Int32} {s : Int32} {r : V4 Int32} (h_v : HoldsI mem vP v.list) (r_dest : Room mem destP 4) (o_v_dest : Over vP 4 destP 4) (h : I.glm_ivec4_adds v s = some r) :
    CI.glm_ivec4_adds.run mem [vP.val, .i s.toInt, destP.val] =
      some (none, writes mem [(destP, icells r.list)]) :=
  itransferO (e := LibI.glm_ivec4_adds) (up := false) (by kernel_rfl) (((RO.nil false _).addP r_dest.has r_dest .nil .nil).addO h_v.has (.cons o_v_dest .nil)) (.p rfl (.i (.p rfl .nil))) (glm_ivec4_adds_irun _ _ h) rfl rfl rfl
example : let mem : Mem α := [⟨true, icells [7, 2, 5, 3, 4]⟩]
    HoldsI mem (0, 1) (⟨2, 5, 3, 4⟩ : V4 Int32).list ∧ Room mem (0, 0) 4 ∧ Over (0, 1) 4 (0, 0) 4 ∧ (I.glm_ivec4_adds (⟨2, 5, 3, 4⟩ : V4 Int32) (2 : Int32)).isSome = true :=
  ⟨.within rfl rfl, .within rfl rfl, Or.inl (by decide), rfl⟩

theorem C98_ivec4_sub {mem : Mem α} {aP bP destP : Ptr} {a : V4 Int32} {b : V4 Int32} {r : V4 Int32} (h_a : HoldsI mem aP a.list) (h_b : HoldsI mem bP b.list) (r_dest : Room mem destP 4) (o_a_dest : Over aP 4 destP 4) (o_b_dest : Over bP 4 destP 4) (h : I.glm_ivec4_sub a b = some r) :
    CI.glm_ivec4_sub.run mem [aP.val, bP.val, destP.val] =
      some (none, writes mem [(destP, icells r.list)]) :=
  itransferO (e := LibI.glm_ivec4_sub) (up := false) (by kernel_rfl) ((((RO.nil false _).addP r_dest.has r_dest .nil .nil).addO h_b.has (.cons o_b_dest .nil)).addO h_a.has (.skip (.cons o_a_dest .nil))) (.p rfl (.p rfl (.p rfl .nil))) (glm_ivec4_sub_irun _ _ h) rfl rfl rfl
example : let mem : Mem α := [⟨true, icells [7, 2, 5, 3, 4]⟩, ⟨false, icells [6, 1, 8, 9]⟩]
    HoldsI mem (0, 1) (⟨2, 5, 3, 4⟩ : V4 Int32).list ∧ HoldsI mem (1, 0) (⟨6, 1, 8, 9⟩ : V4 Int32).list ∧ Room mem (0, 0) 4 ∧ Over (0, 1) 4 (0, 0) 4 ∧ Over (1, 0) 4 (0, 0) 4 ∧ (I.glm_ivec4_sub (⟨2, 5, 3, 4⟩ : V4 Int32) (⟨6, 1, 8, 9⟩ : V4 Int32)).isSome = true :=
  ⟨.within rfl rfl, .within rfl rfl, .within rfl rfl, Or.inl (by decide), Or.inl (by decide), rfl⟩

theorem C98_ivec4_subs {mem : Mem α} {vP destP : Ptr} {v : V4 Int32} {s : Int32} {r : V4 Int32} (h_v : HoldsI mem vP v.list) (r_dest : Room mem destP 4) (o_v_dest : Over vP 4 destP 4) (h : I.glm_ivec4_subs v s = some r) :
    CI.glm_ivec4_subs.run mem [vP.val, .i s.toInt, destP.val] =
      some (none, writes mem [(destP, icells r.list)]) :=
  itransferO (e := LibI.glm_ivec4_subs) (up := false) (by kernel_rfl) (((RO.nil false _).addP r_dest.has r_dest .nil .nil).addO h_v.has (.cons o_v_dest .nil)) (.p rfl (.i (.p rfl .nil))) (glm_ivec4_subs_irun _ _ h) rfl rfl rfl
example : let mem : Mem α := [⟨true, icells [7, 2, 5, 3, 4]⟩]
    HoldsI mem (0, 1) (⟨2, 5, 3, 4⟩ : V4 Int32).list ∧ Room mem (0, 0) 4 ∧ Over (0, 1) 4 (0, 0) 4 ∧ (I.glm_ivec4_subs (⟨2, 5, 3, 4⟩ : V4 Int32) (2 : Int32)).isSome = true :=
  ⟨.within rfl rfl, .within rfl rfl, Or.inl (by decide), rfl⟩

theorem C98_ivec4_mul {mem : Mem α} {aP bP destP : Ptr} {a : V4 Int32} {b : V4 Int32} {r : V4 Int32} (h_a : HoldsI mem aP a.list) (h_b : HoldsI mem bP b.list) (r_dest : Room mem destP 4) (o_a_dest : Over aP 4 destP 4) (o_b_dest : Over bP 4 destP 4) (h : I.glm_ivec4_mul a b = some r) :
    CI.glm_ivec4_mul.run mem [aP.val, bP.val, destP.val] =
      some (none, writes mem [(destP, icells r.list)]) :=
  itransferO (e := LibI.glm_ivec4_mul) (up := false) (by kernel_rfl) ((((RO.nil false _).addP r_dest.has r_dest .nil .nil).addO h_b.has (.cons o_b_dest .nil)).addO h_a.has (.skip (.cons o_a_dest .nil))) (.p rfl (.p rfl (.p rfl .nil))) (glm_ivec4_mul_irun _ _ h) rfl rfl rfl
example : let mem : Mem α := [⟨true, icells [7, 2, 5, 3, 4]⟩, ⟨false, icells [6, 1, 8, 9]⟩]
    HoldsI mem (0, 1) (⟨2, 5, 3, 4⟩ : V4 Int32).list ∧ HoldsI mem (1, 0) (⟨6, 1, 8, 9⟩ : V4 Int32).list ∧ Room mem (0, 0) 4 ∧ Over (0, 1) 4 (0, 0) 4 ∧ Over (1, 0) 4 (0, 0) 4 ∧ (I.glm_ivec4_mul (⟨2, 5, 3, 4⟩ : V4 Int32) (⟨6, 1, 8, 9⟩ : V4 Int32)).isSome = true :=
  ⟨.within rfl rfl, .within rfl rfl, .within rfl rfl, Or.inl (by decide), Or.inl (by decide), rfl⟩

theorem C98_ivec4_scale {mem : Mem α} {vP destP : Ptr} {v : V4 Int32} {s : Int32} {r : V4 Int32} (h_v : HoldsI mem vP v.list) (r_dest : Room mem destP 4) (o_v_dest : Over vP 4 destP 4) (h : I.glm_ivec4_scale v s = some r) :
    CI.glm_ivec4_scale.run mem [vP.val, .i s.toInt, destP.val] =
      some (none, writes mem [(destP, icells r.list)]) :=
  itransferO (e := LibI.glm_ivec4_scale) (up := false) (by kernel_rfl) (((RO.nil false _).addP r_dest.has r_dest .nil .nil).addO h_v.has (.cons o_v_dest .nil)) (.p rfl (.i (.p rfl .nil))) (glm_ivec4_scale_irun _ _ h) rfl rfl rfl
example : let mem : Mem α := [⟨true, icells [7, 2, 5, 3, 4]⟩]
    HoldsI mem (0, 1) (⟨2, 5, 3, 4⟩ : V4 Int32).list ∧ Room mem (0, 0) 4 ∧ Over (0, 1) 4 (0, 0) 4 ∧ (I.glm_ivec4_scale (⟨2, 5, 3, 4⟩ : V4 Int32) (2 : Int32)).isSome = true :=
  ⟨.within rfl rfl, .within rfl rfl, Or.inl (by decide), rfl⟩

theorem C98_ivec4_addadd {mem : Mem α} {aP bP destP : Ptr} {a : V4 Int32} {b : V4 Int32} {dest : V4 Int32} {r : V4 Int32} (h_a : HoldsI mem aP a.list) (h_b : HoldsI mem bP b.list) (h_dest : HoldsI mem destP dest.list) (r_dest : Room mem destP 4) (o_a_dest : Over aP 4 destP 4) (o_b_dest : Over bP 4 destP 4) (h : I.glm_ivec4_addadd a b dest = some r) :
    CI.glm_ivec4_addadd.run mem [aP.val, bP.val, destP.val] =
      some (none, writes mem [(destP, icells r.list)]) :=
  itransferO (e := LibI.glm_ivec4_addadd) (up := false) (by kernel_rfl) ((((RO.nil false _).addP h_dest.has r_dest .nil .nil).addO h_b.has (.cons o_b_dest .nil)).addO h_a.has (.skip (.cons o_a_dest .nil))) (.p rfl (.p rfl (.p rfl .nil))) (glm_ivec4_addadd_irun _ _ _ h) rfl rfl rfl
example : let mem : Mem α := [⟨true, icells [7, 2, 5, 3, 4]⟩, ⟨false, icells [6, 1, 8, 9]⟩]
    HoldsI mem (0, 1) (⟨2, 5, 3, 4⟩ : V4 Int32).list ∧ HoldsI mem (1, 0) (⟨6, 1, 8, 9⟩ : V4 Int32).list ∧ Room mem (0, 0) 4 ∧ HoldsI mem (0, 0) (⟨7, 2, 5, 3⟩ : V4 Int32).list ∧ Over (0, 1) 4 (0, 0) 4 ∧ Over (1, 0) 4 (0, 0) 4 ∧ (I.glm_ivec4_addadd (⟨2, 5, 3, 4⟩ : V4 Int32) (⟨6, 1, 8, 9⟩ : V4 Int32) (⟨7, 2, 5, 3⟩ : V4 Int32)).isSome = true :=
  ⟨.within rfl rfl, .within rfl rfl, .within rfl rfl, .within rfl rfl, Or.inl (by decide), Or.inl (by decide), rfl⟩

theorem C98_ivec4_addadds {mem : Mem α} {aP destP : Ptr} {a : V4 Int32} {s : Int32} {dest : V4 Int32} {r : V4 Int32} (h_a : HoldsI mem aP a.list) (h_dest : HoldsI mem destP dest.list) (r_dest : Room mem destP 4) (o_a_dest : Over aP 4 destP 4) (h : I.glm_ivec4_addadds a s dest = some r) :
    CI.glm_ivec4_addadds.run mem [aP.val, .i s.toInt, destP.val] =
      some (none, writes mem [(destP, icells r.list)]) :=
  itransferO (e := LibI.glm_ivec4_addadds) (up := false) (by kernel_rfl) (((RO.nil false _).addP h_dest.has r_dest .nil .nil).addO h_a.has (.cons o_a_dest .nil)) (.p rfl (.i (.p rfl .nil))) (glm_ivec4_addadds_irun _ _ _ h) rfl rfl rfl
example : let mem : Mem α := [⟨true, icells [7, 2, 5, 3, 4]⟩]
    HoldsI mem (0, 1) (⟨2, 5, 3, 4⟩ : V4 Int32).list ∧ Room mem (0, 0) 4 ∧ HoldsI mem (0, 0) (⟨7, 2, 5, 3⟩ : V4 Int32).list ∧ Over (0, 1) 4 (0, 0) 4 ∧ (I.glm_ivec4_addadds (⟨2, 5, 3, 4⟩ : V4 Int32) (2 : Int32) (⟨7, 2, 5, 3⟩ : V4 Int32)).isSome = true :=
  ⟨.within rfl rfl, .within rfl rfl, .within rfl rfl, Or.inl (by decide), rfl⟩

theorem C98_ivec4_subadd {mem : Mem α} {aP bP destP : Ptr} {a : V4 Int32} {b : V4 Int32} {dest : V4 Int32} {r : V4 Int32} (h_a : HoldsI mem aP a.list) (h_b : HoldsI mem bP b.list) (h_dest : HoldsI mem destP dest.list) (r_dest : Room mem destP 4) (o_a_dest : Over aP 4 destP 4) (o_b_dest : Over bP 4 destP 4) (h : I.glm_ivec4_subadd a b dest = some r) :
    CI.glm_ivec4_subadd.run mem [aP.val, bP.val, destP.val] =
      some (none, writes mem [(destP, icells r.list)]) :=
  itransferO (e := LibI.glm_ivec4_subadd) (up := false) (by kernel_rfl) ((((RO.nil false _).addP h_dest.has r_dest .nil .nil).addO h_b.has (.cons o_b_dest .nil)).addO h_a.has (.skip (.cons o_a_dest .nil))) (.p rfl (.p rfl (.p rfl .nil))) (glm_ivec4_subadd_irun _ _ _ h) rfl rfl rfl
example : let mem : Mem α := [⟨true, icells [7, 2, 5, 3, 4]⟩, ⟨false, icells [6, 1, 8, 9]⟩]
    HoldsI mem (0, 1) (⟨2, 5, 3, 4⟩ : V4 Int32).list ∧ HoldsI mem (1, 0) (⟨6, 1, 8, 9⟩ : V4 Int32).list ∧ Room mem (0, 0) 4 ∧ HoldsI mem (0, 0) (⟨7, 2, 5, 3⟩ : V4 Int32).list ∧ Over (0, 1) 4 (0, 0) 4 ∧ Over (1, 0) 4 (0, 0) 4 ∧ (I.glm_ivec4_subadd (⟨2, 5, 3, 4⟩ : V4 Int32) (⟨6, 1, 8, 9⟩ : V4 Int32) (⟨7, 2, 5, 3⟩ : V4 Int32)).isSome = true :=
  ⟨.within rfl rfl, .within rfl rfl, .within rfl rfl, .within rfl rfl, Or.inl (by decide), Or.inl (by decide), rfl⟩

theorem C98_ivec4_subadds {mem : Mem α} {aP destP : Ptr} {a : V4 Int32} {s : Int32} {dest : V4 Int32} {r : V4 Int32} (h_a : HoldsI mem aP a.list) (h_dest : HoldsI mem destP dest.list) (r_dest : Room mem destP 4) (o_a_dest : Over aP 4 destP 4) (h : I.glm_ivec4_subadds a s dest = some r) :
    CI.glm_ivec4_subadds.run mem [aP.val, .i s.toInt, destP.val] =
      some (none, writes mem [(destP, icells r.list)]) :=
  itransferO (e := LibI.glm_ivec4_subadds) (up := false) (by kernel_rfl) (((RO.nil false _).addP h_dest.has r_dest .nil .nil).addO h_a.has (.cons o_a_dest .nil)) (.p rfl (.i (.p rfl .nil))) (glm_ivec4_subadds_irun _ _ _ h) rfl rfl rfl
example : let mem : Mem α := [⟨true, icells [7, 2, 5, 3, 4]⟩]
    HoldsI mem (0, 1) (⟨2, 5, 3, 4⟩ : V4 Int32).list ∧ Room mem (0, 0) 4 ∧ HoldsI mem (0, 0) (⟨7, 2, 5, 3⟩ : V4 Int32).list ∧ Over (0, 1) 4 (0, 0) 4 ∧ (I.glm_ivec4_subadds (⟨2, 5, 3, 4⟩ : V4 Int32) (2 : Int32) (⟨7, 2, 5, 3⟩ : V4 Int32)).isSome = true :=
  ⟨.within rfl rfl, .within rfl rfl, .within rfl rfl, Or.inl (by decide), rfl⟩

theorem C98_ivec4_muladd {mem : Mem α} {aP bP destP : Ptr} {a : V4 Int32} {b : V4 Int32} {dest : V4 Int32} {r : V4 Int32} (h_a : HoldsI mem aP a.list) (h_b : HoldsI mem bP b.list) (h_dest : HoldsI mem destP dest.list) (r_dest : Room mem destP 4) (o_a_dest : Over aP 4 destP 4) (o_b_dest : Over bP 4 destP 4) (h : I.glm_ivec4_muladd a b dest = some r) :
    CI.glm_ivec4_muladd.run mem [aP.val, bP.val, destP.val] =
      some (none, writes mem [(destP, icells r.list)]) :=
  itransferO (e := LibI.glm_ivec4_muladd) (up := false) (by kernel_rfl) ((((RO.nil false _).addP h_dest.has r_dest .nil .nil).addO h_b.has (.cons o_b_dest .nil)).addO h_a.has (.skip (.cons o_a_dest .nil))) (.p rfl (.p rfl (.p rfl .nil))) (glm_ivec4_muladd_irun _ _ _ h) rfl rfl rfl
example : let mem : Mem α := [⟨true, icells [7, 2, 5, 3, 4]⟩, ⟨false, icells [6, 1, 8, 9]⟩]
    HoldsI mem (0, 1) (⟨2, 5, 3, 4⟩ : V4 Int32).list ∧ HoldsI mem (1, 0) (⟨6, 1, 8, 9⟩ : V4 Int32).list ∧ Room mem (0, 0) 4 ∧ HoldsI mem (0, 0) (⟨7, 2, 5, 3⟩ : V4 Int32).list ∧ Over (0, 1) 4 (0, 0) 4 ∧ Over (1, 0) 4 (0, 0) 4 ∧ (I.glm_ivec4_muladd (⟨2, 5, 3, 4⟩ : V4 Int32) (⟨6, 1, 8, 9⟩ : V4 Int32) (⟨7, 2, 5, 3⟩ : V4 Int32)).isSome = true :=
  ⟨.within rfl rfl, .within rfl rfl, .within rfl rfl, .within rfl rfl, Or.inl (by decide), Or.inl (by decide), rfl⟩

theorem C98_ivec4_muladds {mem : Mem α} {aP destP : Ptr} {a : V4 Int32} {s : Int32} {dest : V4 Int32} {r : V4 Int32} (h_a : HoldsI mem aP a.list) (h_dest : HoldsI mem destP dest.list) (r_dest : Room mem destP 4) (o_a_dest : Over aP 4 destP 4) (h : I.glm_ivec4_muladds a s dest = some r) :
    CI.glm_ivec4_muladds.run mem [aP.val, .i s.toInt, destP.val] =
      some (none, writes mem [(destP, icells r.list)]) :=
  itransferO (e := LibI.glm_ivec4_muladds) (up := false) (by kernel_rfl) (((RO.nil false _).addP h_dest.has r_dest .nil .nil).addO h_a.has (.cons o_a_dest .nil)) (.p rfl (.i (.p rfl .nil))) (glm_ivec4_muladds_irun _ _ _ h) rfl rfl rfl
example : let mem : Mem α := [⟨true, icells [7, 2, 5, 3, 4]⟩]
    HoldsI mem (0, 1) (⟨2, 5, 3, 4⟩ : V4 Int32).list ∧ Room mem (0, 0) 4 ∧ HoldsI mem (0, 0) (⟨7, 2, 5, 3⟩ : V4 Int32).list ∧ Over (0, 1) 4 (0, 0) 4 ∧ (I.glm_ivec4_muladds (⟨2, 5, 3, 4⟩ : V4 Int32) (2 : Int32) (⟨7, 2, 5, 3⟩ : V4 Int32)).isSome = true :=
  ⟨.within rfl rfl, .within rfl rfl, .within rfl rfl, Or.inl (by decide), rfl⟩

theorem C98_ivec4_maxadd {mem : Mem α} {aP bP destP : Ptr} {a : V4 Int32} {b : V4 Int32} {dest : V4 Int32} {r : V4 Int32} (h_a : HoldsI mem aP a.list) (h_b : HoldsI mem bP b.list) (h_dest : HoldsI mem destP dest.list) (r_dest : Room mem destP 4) (o_a_dest : Over aP 4 destP 4) (o_b_dest : Over bP 4 destP 4) (h : I.glm_ivec4_maxadd a b dest = some r) :
    CI.glm_ivec4_maxadd.run mem [aP.val, bP.val, destP.val] =
      some (none, writes mem [(destP, icells r.list)]) :=
  itransferO (e := LibI.glm_ivec4_maxadd) (up := false) (by kernel_rfl) ((((RO.nil false _).addP h_dest.has r_dest .nil .nil).addO h_b.has (.cons o_b_dest .nil)).addO h_a.has (.skip (.cons o_a_dest .nil))) (.p rfl (.p rfl (.p rfl .nil))) (glm_ivec4_maxadd_irun _ _ _ h) rfl rfl rfl
example : let mem : Mem α := [⟨true, icells [7, 2, 5, 3, 4]⟩, ⟨false, icells [6, 1, 8, 9]⟩]
    HoldsI mem (0, 1) (⟨2, 5, 3, 4⟩ : V4 Int32).list ∧ HoldsI mem (1, 0) (⟨6, 1, 8, 9⟩ : V4 Int32).list ∧ Room mem (0, 0) 4 ∧ HoldsI mem (0, 0) (⟨7, 2, 5, 3⟩ : V4 Int32).list ∧ Over (0, 1) 4 (0, 0) 4 ∧ Over (1, 0) 4 (0, 0) 4 ∧ (I.glm_ivec4_maxadd (⟨2, 5, 3, 4⟩ : V4 Int32) (⟨6, 1, 8, 9⟩ : V4 Int32) (⟨7, 2, 5, 3⟩ : V4 Int32)).isSome = true :=
  ⟨.within rfl rfl, .within rfl rfl, .within rfl rfl, .within rfl rfl, Or.inl (by decide), Or.inl (by decide), rfl⟩

theorem C98_ivec4_minadd {mem : Mem α} {aP bP destP : Ptr} {a : V4 Int32} {b : V4 Int32} {dest : V4 Int32} {r : V4 Int32} (h_a : HoldsI mem aP a.list) (h_b : HoldsI mem bP b.list) (h_dest : HoldsI mem destP dest.list) (r_dest : Room mem destP 4) (o_a_dest : Over aP 4 destP 4) (o_b_dest : Over bP 4 destP 4) (h : I.glm_ivec4_minadd a b dest = some r) :
    CI.glm_ivec4_minadd.run mem [aP.val, bP.val, destP.val] =
      some (none, writes mem [(destP, icells r.list)]) :=
  itransferO (e := LibI.glm_ivec4_minadd) (up := false) (by kernel_rfl) ((((RO.nil false _).addP h_dest.has r_dest .nil .nil).addO h_b.has (.cons o_b_dest .nil)).addO h_a.has (.skip (.cons o_a_dest .nil))) (.p rfl (.p rfl (.p rfl .nil))) (glm_ivec4_minadd_irun _ _ _ h) rfl rfl rfl
example : let mem : Mem α := [⟨true, icells [7, 2, 5, 3, 4]⟩, ⟨false, icells [6, 1, 8, 9]⟩]
    HoldsI mem (0, 1) (⟨2, 5, 3, 4⟩ : V4 Int32).list ∧ HoldsI mem (1, 0) (⟨6, 1, 8, 9⟩ : V4 Int32).list ∧ Room mem (0, 0) 4 ∧ HoldsI mem (0, 0) (⟨7, 2, 5, 3⟩ : V4 Int32).list ∧ Over (0, 1) 4 (0, 0) 4 ∧ Over (1, 0) 4 (0, 0) 4 ∧ (I.glm_ivec4_minadd (⟨2, 5, 3, 4⟩ : V4 Int32) (⟨6, 1, 8, 9⟩ : V4 Int32) (⟨7, 2, 5, 3⟩ : V4 Int32)).isSome = true :=
  ⟨.within rfl rfl, .within rfl rfl, .within rfl rfl, .within rfl rfl, Or.inl (by decide), Or.inl (by decide), rfl⟩

theorem C98_ivec4_subsub {mem : Mem α} {aP bP destP : Ptr} {a : V4 Int32} {b : V4 Int32} {dest : V4 Int32} {r : V4 Int32} (h_a : HoldsI mem aP a.list) (h_b : HoldsI mem bP b.list) (h_dest : HoldsI mem destP dest.list) (r_dest : Room mem destP 4) (o_a_dest : Over aP 4 destP 4) (o_b_dest : Over bP 4 destP 4) (h : I.glm_ivec4_subsub a b dest = some r) :
    CI.glm_ivec4_subsub.run mem [aP.val, bP.val, destP.val] =
      some (none, writes mem [(destP, icells r.list)]) :=
  itransferO (e := LibI.glm_ivec4_subsub) (up := false) (by kernel_rfl) ((((RO.nil false _).addP h_dest.has r_dest .nil .nil).addO h_b.has (.cons o_b_dest .nil)).addO h_a.has (.skip (.cons o_a_dest .nil))) (.p rfl (.p rfl (.p rfl .nil))) (glm_ivec4_subsub_irun _ _ _ h) rfl rfl rfl
example : let mem : Mem α := [⟨true, icells [7, 2, 5, 3, 4]⟩, ⟨false, icells [6, 1, 8, 9]⟩]
    HoldsI mem (0, 1) (⟨2, 5, 3, 4⟩ : V4 Int32).list ∧ HoldsI mem (1, 0) (⟨6, 1, 8, 9⟩ : V4 Int32).list ∧ Room mem (0, 0) 4 ∧ HoldsI mem (0, 0) (⟨7, 2, 5, 3⟩ : V4 Int32).list ∧ Over (0, 1) 4 (0, 0) 4 ∧ Over (1, 0) 4 (0, 0) 4 ∧ (I.glm_ivec4_subsub (⟨2, 5, 3, 4⟩ : V4 Int32) (⟨6, 1, 8, 9⟩ : V4 Int32) (⟨7, 2, 5, 3⟩ : V4 Int32)).isSome = true :=
  ⟨.within rfl rfl, .within rfl rfl, .within rfl rfl, .within rfl rfl, Or.inl (by decide), Or.inl (by decide), rfl⟩

theorem C98_ivec4_subsubs {mem : Mem α} {aP destP : Ptr} {a : V4 Int32} {s : Int32} {dest : V4 Int32} {r : V4 Int32} (h_a : HoldsI mem aP a.list) (h_dest : HoldsI mem destP dest.list) (r_dest : Room mem destP 4) (o_a_dest : Over aP 4 destP 4) (h : I.glm_ivec4_subsubs a s dest = some r) :
    CI.glm_ivec4_subsubs.run mem [aP.val, .i s.toInt, destP.val] =
      some (none, writes mem [(destP, icells r.list)]) :=
  itransferO (e := LibI.glm_ivec4_subsubs) (up := false) (by kernel_rfl) (((RO.nil false _).addP h_dest.has r_dest .nil .nil).addO h_a.has (.cons o_a_dest .nil)) (.p rfl (.i (.p rfl .nil))) (glm_ivec4_subsubs_irun _ _ _ h) rfl rfl rfl
example : let mem : Mem α := [⟨true, icells [7, 2, 5, 3, 4]⟩]
    HoldsI mem (0, 1) (⟨2, 5, 3, 4⟩ : V4 Int32).list ∧ Room mem (0, 0) 4 ∧ HoldsI mem (0, 0) (⟨7, 2, 5, 3⟩ : V4 Int32).list ∧ Over (0, 1) 4 (0, 0) 4 ∧ (I.glm_ivec4_subsubs (⟨2, 5, 3, 4⟩ : V4 Int32) (2 : Int32) (⟨7, 2, 5, 3⟩ : V4 Int32)).isSome = true :=
  ⟨.within rfl rfl, .within rfl rfl, .within rfl rfl, Or.inl (by decide), rfl⟩

theorem C98_ivec4_addsub {mem : Mem α} {aP bP destP : Ptr} {a : V4 Int32} {b : V4 Int32} {dest : V4 Int32} {r : V4 Int32} (h_a : HoldsI mem aP a.list) (h_b : HoldsI mem bP b.list) (h_dest : HoldsI mem destP dest.list) (r_dest : Room mem destP 4) (o_a_dest : Over aP 4 destP 4) (o_b_dest : Over bP 4 destP 4) (h : I.glm_ivec4_addsub a b dest = some r) :
    CI.glm_ivec4_addsub.run mem [aP.val, bP.val, destP.val] =
      some (none, writes mem [(destP, icells r.list)]) :=
  itransferO (e := LibI.glm_ivec4_addsub) (up := false) (by kernel_rfl) ((((RO.nil false _).addP h_dest.has r_dest .nil .nil).addO h_b.has (.cons o_b_dest .nil)).addO h_a.has (.skip (.cons o_a_dest .nil))) (.p rfl (.p rfl (.p rfl .nil))) (glm_ivec4_addsub_irun _ _ _ h) rfl rfl rfl
example : let mem : Mem α := [⟨true, icells [7, 2, 5, 3, 4]⟩, ⟨false, icells [6, 1, 8, 9]⟩]
    HoldsI mem (0, 1) (⟨2, 5, 3, 4⟩ : V4 Int32).list ∧ HoldsI mem (1, 0) (⟨6, 1, 8, 9⟩ : V4 Int32).list ∧ Room mem (0, 0) 4 ∧ HoldsI mem (0, 0) (⟨7, 2, 5, 3⟩ : V4 Int32).list ∧ Over (0, 1) 4 (0, 0) 4 ∧ Over (1, 0) 4 (0, 0) 4 ∧ (I.glm_ivec4_addsub (⟨2, 5, 3, 4⟩ : V4 Int32) (⟨6, 1, 8, 9⟩ : V4 Int32) (⟨7, 2, 5, 3⟩ : V4 Int32)).isSome = true :=
  ⟨.within rfl rfl, .within rfl rfl, .within rfl rfl, .within rfl rfl, Or.inl (by decide), Or.inl (by decide), rfl⟩

theorem C98_ivec4_addsubs {mem : Mem α} {aP destP : Ptr} {a : V4 Int32} {s : Int32} {dest : V4 Int32} {r : V4 Int32} (h_a : HoldsI mem aP a.list) (h_dest : HoldsI mem destP dest.list) (r_dest : Room mem destP 4) (o_a_dest : Over aP 4 destP 4) (h : I.glm_ivec4_addsubs a s dest = some r) :
    CI.glm_ivec4_addsubs.run mem [aP.val, .i s.toInt, destP.val] =
      some (none, writes mem [(destP, icells r.list)]) :=
  itransferO (e := LibI.glm_ivec4_addsubs) (up := false) (by kernel_rfl) (((RO.nil false _).addP h_dest.has r_dest .nil .nil).addO h_a.has (.cons o_a_dest .nil)) (.p rfl (.i (.p rfl .nil))) (glm_ivec4_addsubs_irun _ _ _ h) rfl rfl rfl
example : let mem : Mem α := [⟨true, icells [7, 2, 5, 3, 4]⟩]
    HoldsI mem (0, 1) (⟨2, 5, 3, 4⟩ : V4 Int32).list ∧ Room mem (0, 0) 4 ∧ HoldsI mem (0, 0) (⟨7, 2, 5, 3⟩ : V4 Int32).list ∧ Over (0, 1) 4 (0, 0) 4 ∧ (I.glm_ivec4_addsubs (⟨2, 5, 3, 4⟩ : V4 Int32) (2 : Int32) (⟨7, 2, 5, 3⟩ : V4 Int32)).isSome = true :=
  ⟨.within rfl rfl, .within rfl rfl, .within rfl rfl, Or.inl (by decide), rfl⟩

theorem C98_ivec4_mulsub {mem : Mem α} {aP bP destP : Ptr} {a : V4 Int32} {b : V4 Int32} {dest : V4 Int32} {r : V4 Int32} (h_a : HoldsI mem aP a.list) (h_b : HoldsI mem bP b.list) (h_dest : HoldsI mem destP dest.list) (r_dest : Room mem destP 4) (o_a_dest : Over aP 4 destP 4) (o_b_dest : Over bP 4 destP 4) (h : I.glm_ivec4_mulsub a b dest = some r) :
    CI.glm_ivec4_mulsub.run mem [aP.val, bP.val, destP.val] =
      some (none, writes mem [(destP, icells r.list)]) :=
  itransferO (e := LibI.glm_ivec4_mulsub) (up := false) (by kernel_rfl) ((((RO.nil false _).addP h_dest.has r_dest .nil .nil).addO h_b.has (.cons o_b_dest .nil)).addO h_a.has (.skip (.cons o_a_dest .nil))) (.p rfl (.p rfl (.p rfl .nil))) (glm_ivec4_mulsub_irun _ _ _ h) rfl rfl rfl
example : let mem : Mem α := [⟨true, icells [7, 2, 5, 3, 4]⟩, ⟨false, icells [6, 1, 8, 9]⟩]
    HoldsI mem (0, 1) (⟨2, 5, 3, 4⟩ : V4 Int32).list ∧ HoldsI mem (1, 0) (⟨6, 1, 8, 9⟩ : V4 Int32).list ∧ Room mem (0, 0) 4 ∧ HoldsI mem (0, 0) (⟨7, 2, 5, 3⟩ : V4 Int32).list ∧ Over (0, 1) 4 (0, 0) 4 ∧ Over (1, 0) 4 (0, 0) 4 ∧ (I.glm_ivec4_mulsub (⟨2, 5, 3, 4⟩ : V4 Int32) (⟨6, 1, 8, 9⟩ : V4 Int32) (⟨7, 2, 5, 3⟩ : V4 Int32)).isSome = true :=
  ⟨.within rfl rfl, .within rfl rfl, .within rfl rfl, .within rfl rfl, Or.inl (by decide), Or.inl (by decide), rfl⟩

theorem C98_ivec4_mulsubs {mem : Mem α} {aP destP : Ptr} {a : V4 Int32} {s : Int32} {dest : V4 Int32} {r : V4 Int32} (h_a : HoldsI mem aP a.list) (h_dest : HoldsI mem destP dest.list) (r_dest : Room mem destP 4) (o_a_dest : Over aP 4 destP 4) (h : I.glm_ivec4_mulsubs a s dest = some r) :
    CI.glm_ivec4_mulsubs.run mem [aP.val, .i s.toInt, destP.val] =
      some (none, writes mem [(destP, icells r.list)]) :=
  itransferO (e := LibI.glm_ivec4_mulsubs) (up := false) (by kernel_rfl) (((RO.nil false _).addP h_dest.has r_dest .nil .nil).addO h_a.has (.cons o_a_dest .nil)) (.p rfl (.i (.p rfl .nil))) (glm_ivec4_mulsubs_irun _ _ _ h) rfl rfl rfl
example : let mem : Mem α := [⟨true, icells [7, 2, 5, 3, 4]⟩]
    HoldsI mem (0, 1) (⟨2, 5, 3, 4⟩ : V4 Int32).list ∧ Room mem (0, 0) 4 ∧ HoldsI mem (0, 0) (⟨7, 2, 5, 3⟩ : V4 Int32).list ∧ Over (0, 1) 4 (0, 0) 4 ∧ (I.glm_ivec4_mulsubs (⟨2, 5, 3, 4⟩ : V4 Int32) (2 : Int32) (⟨7, 2, 5, 3⟩ : V4 Int32)).isSome = true :=
  ⟨.within rfl rfl, .within rfl rfl, .within rfl rfl, Or.inl (by decide), rfl⟩

theorem C98_ivec4_maxsub {mem : Mem α} {aP bP destP : Ptr} {a : V4 Int32} {b : V4 Int32} {dest : V4 Int32} {r : V4 Int32} (h_a : HoldsI mem aP a.list) (h_b : HoldsI mem bP b.list) (h_dest : HoldsI mem destP dest.list) (r_dest : Room mem destP 4) (o_a_dest : Over aP 4 destP 4) (o_b_dest : Over bP 4 destP 4) (h : I.glm_ivec4_maxsub a b dest = some r) :
    CI.glm_ivec4_maxsub.run mem [aP.val, bP.val, destP.val] =
      some (none, writes mem [(destP, icells r.list)]) :=
  itransferO (e := LibI.glm_ivec4_maxsub) (up := false) (by kernel_rfl) ((((RO.nil false _).addP h_dest.has r_dest .nil .nil).addO h_b.has (.cons o_b_dest .nil)).addO h_a.has (.skip (.cons o_a_dest .nil))) (.p rfl (.p rfl (.p rfl .nil))) (glm_ivec4_maxsub_irun _ _ _ h) rfl rfl rfl
example : let mem : Mem α := [⟨true, icells [7, 2, 5, 3, 4]⟩, ⟨false, icells [6, 1, 8, 9]⟩]
    HoldsI mem (0, 1) (⟨2, 5, 3, 4⟩ : V4 Int32).list ∧ HoldsI mem (1, 0) (⟨6, 1, 8, 9⟩ : V4 Int32).list ∧ Room mem (0, 0) 4 ∧ HoldsI mem (0, 0) (⟨7, 2, 5, 3⟩ : V4 Int32).list ∧ Over (0, 1) 4 (0, 0) 4 ∧ Over (1, 0) 4 (0, 0) 4 ∧ (I.glm_ivec4_maxsub (⟨2, 5, 3, 4⟩ : V4 Int32) (⟨6, 1, 8, 9⟩ : V4 Int32) (⟨7, 2, 5, 3⟩ : V4 Int32)).isSome = true :=
  ⟨.within rfl rfl, .within rfl rfl, .within rfl rfl, .within rfl rfl, Or.inl (by decide), Or.inl (by decide), rfl⟩

theorem C98_ivec4_minsub {mem : Mem α} {aP bP destP : Ptr} {a : V4 Int32} {b : V4 Int32} {dest : V4 Int32} {r : V4 Int32} (h_a : HoldsI mem aP a.list) (h_b : HoldsI mem bP b.list) (h_dest : HoldsI mem destP dest.list) (r_dest : Room mem destP 4) (o_a_dest : Over aP 4 destP 4) (o_b_dest : Over bP 4 destP 4) (h : I.glm_ivec4_minsub a b dest = some r) :
    CI.glm_ivec4_minsub.run mem [aP.val, bP.val, destP.val] =
      some (none, writes mem [(destP, icells r.list)]) :=
  itransferO (e := LibI.glm_ivec4_minsub) (up := false) (by kernel_rfl) ((((RO.nil false _).addP h_dest.has r_dest .nil .nil).addO h_b.has (.cons o_b_dest .nil)).addO h_a.has (.skip (.cons o_a_dest .nil))) (.p rfl (.p rfl (.p rfl .nil))) (glm_ivec4_minsub_irun _ _ _ h) rfl rfl rfl
example : let mem : Mem α := [⟨true, icells [7, 2, 5, 3, 4]⟩, ⟨false, icells [6, 1, 8, 9]⟩]
    HoldsI mem (0, 1) (⟨2, 5, 3, 4⟩ : V4 Int32).list ∧ HoldsI mem (1, 0) (⟨6, 1, 8, 9⟩ : V4 Int32).list ∧ Room mem (0, 0) 4 ∧ HoldsI mem (0, 0) (⟨7, 2, 5, 3⟩ : V4 Int32).list ∧ Over (0, 1) 4 (0, 0) 4 ∧ Over (1, 0) 4 (0, 0) 4 ∧ (I.glm_ivec4_minsub (⟨2, 5, 3, 4⟩ : V4 Int32) (⟨6, 1, 8, 9⟩ : V4 Int32) (⟨7, 2, 5, 3⟩ : V4 Int32)).isSome = true :=
  ⟨.within rfl rfl, .within rfl rfl, .within rfl rfl, .within rfl rfl, Or.inl (by decide), Or.inl (by decide), rfl⟩

theorem C98_ivec4_maxv {mem : Mem α} {aP bP destP : Ptr} {a : V4 Int32} {b : V4 Int32} {r : V4 Int32} (h_a : HoldsI mem aP a.list) (h_b : HoldsI mem bP b.list) (r_dest : Room mem destP 4) (o_a_dest : Over aP 4 destP 4) (o_b_dest : Over bP 4 destP 4) (h : I.glm_ivec4_maxv a b = some r) :
    CI.glm_ivec4_maxv.run mem [aP.val, bP.val, destP.val] =
      some (none, writes mem [(destP, icells r.list)]) :=
  itransferO (e := LibI.glm_ivec4_maxv) (up := false) (by kernel_rfl) ((((RO.nil false _).addP r_dest.has r_dest .nil .nil).addO h_b.has (.cons o_b_dest .nil)).addO h_a.has (.skip (.cons o_a_dest .nil))) (.p rfl (.p rfl (.p rfl .nil))) (glm_ivec4_maxv_irun _ _ h) rfl rfl rfl
example : let mem : Mem α := [⟨true, icells [7, 2, 5, 3, 4]⟩, ⟨false, icells [6, 1, 8, 9]⟩]
    HoldsI mem (0, 1) (⟨2, 5, 3, 4⟩ : V4 Int32).list ∧ HoldsI mem (1, 0) (⟨6, 1, 8, 9⟩ : V4 Int32).list ∧ Room mem (0, 0) 4 ∧ Over (0, 1) 4 (0, 0) 4 ∧ Over (1, 0) 4 (0, 0) 4 ∧ (I.glm_ivec4_maxv (⟨2, 5, 3, 4⟩ : V4 Int32) (⟨6, 1, 8, 9⟩ : V4 Int32)).isSome = true :=
  ⟨.within rfl rfl, .within rfl rfl, .within rfl rfl, Or.inl (by decide), Or.inl (by decide), rfl⟩

theorem C98_ivec4_minv {mem : Mem α} {aP bP destP : Ptr} {a : V4 Int32} {b : V4 Int32} {r : V4 Int32} (h_a : HoldsI mem aP a.list) (h_b : HoldsI mem bP b.list) (r_dest : Room mem destP 4) (o_a_dest : Over aP 4 destP 4) (o_b_dest : Over bP 4 destP 4) (h : I.glm_ivec4_minv a b = some r) :
    CI.glm_ivec4_minv.run mem [aP.val, bP.val, destP.val] =
      some (none, writes mem [(destP, icells r.list)]) :=
  itransferO (e := LibI.glm_ivec4_minv) (up := false) (by kernel_rfl) ((((RO.nil false _).addP r_dest.has r_dest .nil .nil).addO h_b.has (.cons o_b_dest .nil)).addO h_a.has (.skip (.cons o_a_dest .nil))) (.p rfl (.p rfl (.p rfl .nil))) (glm_ivec4_minv_irun _ _ h) rfl rfl rfl
example : let mem : Mem α := [⟨true, icells [7, 2, 5, 3, 4]⟩, ⟨false, icells [6, 1, 8, 9]⟩]
    HoldsI mem (0, 1) (⟨2, 5, 3, 4⟩ : V4 Int32).list ∧ HoldsI mem (1, 0) (⟨6, 1, 8, 9⟩ : V4 Int32).list ∧ Room mem (0, 0) 4 ∧ Over (0, 1) 4 (0, 0) 4 ∧ Over (1, 0) 4 (0, 0) 4 ∧ (I.glm_ivec4_minv (⟨2, 5, 3, 4⟩ : V4 Int32) (⟨6, 1, 8, 9⟩ : V4 Int32)).isSome = true :=
  ⟨.within rfl rfl, .within rfl rfl, .within rfl rfl, Or.inl (by decide), Or.inl (by decide), rfl⟩

theorem C98_ivec4_abs {mem : Mem α} {vP destP : Ptr} {v : V4 Int32} {r : V4 Int32} (h_v : HoldsI mem vP v.list) (r_dest : Room mem destP 4) (o_v_dest : Over vP 4 destP 4) (h : I.glm_ivec4_abs v = some r) :
    CI.glm_ivec4_abs.run mem [vP.val, destP.val] =
      some (none, writes mem [(destP, icells r.list)]) :=
  itransferO (e := LibI.glm_ivec4_abs) (up := false) (by kernel_rfl) (((RO.nil false _).addP r_dest.has r_dest .nil .nil).addO h_v.has (.cons o_v_dest .nil)) (.p rfl (.p rfl .nil)) (glm_ivec4_abs_irun _ h) rfl rfl rfl
example : let mem : Mem α := [⟨true, icells [7, 2, 5, 3, 4]⟩]
    HoldsI mem (0, 1) (⟨2, 5, 3, 4⟩ : V4 Int32).list ∧ Room mem (0, 0) 4 ∧ Over (0, 1) 4 (0, 0) 4 ∧ (I.glm_ivec4_abs (⟨2, 5, 3, 4⟩ : V4 Int32)).isSome = true :=
  ⟨.within rfl rfl, .within rfl rfl, Or.inl (by decide), rfl⟩

end Cglm
