/- Generated by tools/imemgen.py, joined by tools/merge.py; do not edit by hand. -/
import Verif.Props.C55Ints
import Verif.Mem.IntsRun

section C56IIvec2

/-!
# C56: memory safety and framing (include/cglm/ivec2.h)

Called with initialised inputs and a writable destination that does not overlap them, and with inputs on which no
operation overflows or divides by zero, the function is defined, returns the value-level result and changes no
memory but its destination.
-/

set_option maxRecDepth 10000
set_option linter.unusedVariables false
set_option linter.unusedSectionVars false
set_option linter.unusedSimpArgs false

namespace Cglm
open CMem

variable {α : Type} [Add α] [Sub α] [Mul α] [Div α] [Neg α] [CFloat α] [CIntConv α]

theorem C56_ivec2 {mem : Mem α} {vP destP : Ptr} {v : V2 Int32} {r : V2 Int32} (h_v : HoldsI mem vP v.list) (r_dest : Room mem destP 2) (s_v_dest : Apart vP 2 destP 2) (h : I.glm_ivec2 v = some r) :
    CI.glm_ivec2.run mem [vP.val, destP.val] =
      some (none, writes mem [(destP, icells r.list)]) :=
  C55_ivec2 h_v r_dest (Or.inr s_v_dest) h
example : let mem : Mem α := [⟨false, icells (⟨7, 2⟩ : V2 Int32).list⟩, ⟨true, List.replicate 2 .undef⟩]
    HoldsI mem (0, 0) (⟨7, 2⟩ : V2 Int32).list ∧ Room mem (1, 0) 2 ∧ Apart (0, 0) 2 (1, 0) 2 ∧ (I.glm_ivec2 (⟨7, 2⟩ : V2 Int32)).isSome = true :=
  ⟨.block rfl, .block rfl rfl, Or.inl (by decide), rfl⟩

theorem C56_ivec2_copy {mem : Mem α} {aP destP : Ptr} {a : V2 Int32} {r : V2 Int32} (h_a : HoldsI mem aP a.list) (r_dest : Room mem destP 2) (s_a_dest : Apart aP 2 destP 2) (h : I.glm_ivec2_copy a = some r) :
    CI.glm_ivec2_copy.run mem [aP.val, destP.val] =
      some (none, writes mem [(destP, icells r.list)]) :=
  C55_ivec2_copy h_a r_dest (Or.inr s_a_dest) h
example : let mem : Mem α := [⟨false, icells (⟨7, 2⟩ : V2 Int32).list⟩, ⟨true, List.replicate 2 .undef⟩]
    HoldsI mem (0, 0) (⟨7, 2⟩ : V2 Int32).list ∧ Room mem (1, 0) 2 ∧ Apart (0, 0) 2 (1, 0) 2 ∧ (I.glm_ivec2_copy (⟨7, 2⟩ : V2 Int32)).isSome = true :=
  ⟨.block rfl, .block rfl rfl, Or.inl (by decide), rfl⟩

theorem C56_ivec2_zero {mem : Mem α} {vP : Ptr} {r : V2 Int32} (r_v : Room mem vP 2) (h : I.glm_ivec2_zero = some r) :
    CI.glm_ivec2_zero.run mem [vP.val] =
      some (none, writes mem [(vP, icells r.list)]) := by
  exact itransfer ((R.nil _).addW r_v.has r_v .nil) (.p rfl .nil) (glm_ivec2_zero_irun h) rfl
example : let mem : Mem α := [⟨true, List.replicate 2 .undef⟩]
    Room mem (0, 0) 2 ∧ (I.glm_ivec2_zero).isSome = true :=
  ⟨.block rfl rfl, rfl⟩

theorem C56_ivec2_one {mem : Mem α} {vP : Ptr} {r : V2 Int32} (r_v : Room mem vP 2) (h : I.glm_ivec2_one = some r) :
    CI.glm_ivec2_one.run mem [vP.val] =
      some (none, writes mem [(vP, icells r.list)]) := by
  exact itransfer ((R.nil _).addW r_v.has r_v .nil) (.p rfl .nil) (glm_ivec2_one_irun h) rfl
example : let mem : Mem α := [⟨true, List.replicate 2 .undef⟩]
    Room mem (0, 0) 2 ∧ (I.glm_ivec2_one).isSome = true :=
  ⟨.block rfl rfl, rfl⟩

theorem C56_ivec2_dot {mem : Mem α} {aP bP : Ptr} {a : V2 Int32} {b : V2 Int32} {r : Int32} (h_a : HoldsI mem aP a.list) (h_b : HoldsI mem bP b.list) (h : I.glm_ivec2_dot a b = some r) :
    CI.glm_ivec2_dot.run mem [aP.val, bP.val] =
      some (some (.i r.toInt), mem) := by
  exact itransfer (((R.nil _).addR h_b.has .nil).addR h_a.has (.skip .nil)) (.p rfl (.p rfl .nil)) (glm_ivec2_dot_irun _ _ h) rfl
example : let mem : Mem α := [⟨false, icells (⟨7, 2⟩ : V2 Int32).list⟩, ⟨false, icells (⟨7, 2⟩ : V2 Int32).list⟩]
    HoldsI mem (0, 0) (⟨7, 2⟩ : V2 Int32).list ∧ HoldsI mem (1, 0) (⟨7, 2⟩ : V2 Int32).list ∧ (I.glm_ivec2_dot (⟨7, 2⟩ : V2 Int32) (⟨7, 2⟩ : V2 Int32)).isSome = true :=
  ⟨.block rfl, .block rfl, rfl⟩

theorem C56_ivec2_cross {mem : Mem α} {aP bP : Ptr} {a : V2 Int32} {b : V2 Int32} {r : Int32} (h_a : HoldsI mem aP a.list) (h_b : HoldsI mem bP b.list) (h : I.glm_ivec2_cross a b = some r) :
    CI.glm_ivec2_cross.run mem [aP.val, bP.val] =
      some (some (.i r.toInt), mem) := by
  exact itransfer (((R.nil _).addR h_b.has .nil).addR h_a.has (.skip .nil)) (.p rfl (.p rfl .nil)) (glm_ivec2_cross_irun _ _ h) rfl
example : let mem : Mem α := [⟨false, icells (⟨7, 2⟩ : V2 Int32).list⟩, ⟨false, icells (⟨7, 2⟩ : V2 Int32).list⟩]
    HoldsI mem (0, 0) (⟨7, 2⟩ : V2 Int32).list ∧ HoldsI mem (1, 0) (⟨7, 2⟩ : V2 Int32).list ∧ (I.glm_ivec2_cross (⟨7, 2⟩ : V2 Int32) (⟨7, 2⟩ : V2 Int32)).isSome = true :=
  ⟨.block rfl, .block rfl, rfl⟩

theorem C56_ivec2_add {mem : Mem α} {aP bP destP : Ptr} {a : V2 Int32} {b : V2 Int32} {r : V2 Int32} (h_a : HoldsI mem aP a.list) (h_b : HoldsI mem bP b.list) (r_dest : Room mem destP 2) (s_a_dest : Apart aP 2 destP 2) (s_b_dest : Apart bP 2 destP 2) (h : I.glm_ivec2_add a b = some r) :
    CI.glm_ivec2_add.run mem [aP.val, bP.val, destP.val] =
      some (none, writes mem [(destP, icells r.list)]) :=
  C55_ivec2_add h_a h_b r_dest (Or.inr s_a_dest) (Or.inr s_b_dest) h
example : let mem : Mem α := [⟨false, icells (⟨7, 2⟩ : V2 Int32).list⟩, ⟨false, icells (⟨7, 2⟩ : V2 Int32).list⟩, ⟨true, List.replicate 2 .undef⟩]
    HoldsI mem (0, 0) (⟨7, 2⟩ : V2 Int32).list ∧ HoldsI mem (1, 0) (⟨7, 2⟩ : V2 Int32).list ∧ Room mem (2, 0) 2 ∧ Apart (0, 0) 2 (2, 0) 2 ∧ Apart (1, 0) 2 (2, 0) 2 ∧ (I.glm_ivec2_add (⟨7, 2⟩ : V2 Int32) (⟨7, 2⟩ : V2 Int32)).isSome = true :=
  ⟨.block rfl, .block rfl, .block rfl rfl, Or.inl (by decide), Or.inl (by decide), rfl⟩

theorem C56_ivec2_adds {mem : Mem α} {vP destP : Ptr} {v : V2 Int32} {s : Int32} {r : V2 Int32} (h_v : HoldsI mem vP v.list) (r_dest : Room mem destP 2) (s_v_dest : Apart vP 2 destP 2) (h : I.glm_ivec2_adds v s = some r) :
    CI.glm_ivec2_adds.run mem [vP.val, .i s.toInt, destP.val] =
      some (none, writes mem [(destP, icells r.list)]) :=
  C55_ivec2_adds h_v r_dest (Or.inr s_v_dest) h
example : let mem : Mem α := [⟨false, icells (⟨7, 2⟩ : V2 Int32).list⟩, ⟨true, List.replicate 2 .undef⟩]
    HoldsI mem (0, 0) (⟨7, 2⟩ : V2 Int32).list ∧ Room mem (1, 0) 2 ∧ Apart (0, 0) 2 (1, 0) 2 ∧ (I.glm_ivec2_adds (⟨7, 2⟩ : V2 Int32) (2 : Int32)).isSome = true :=
  ⟨.block rfl, .block rfl rfl, Or.inl (by decide), rfl⟩

theorem C56_ivec2_sub {mem : Mem α} {aP bP destP : Ptr} {a : V2 Int32} {b : V2 Int32} {r : V2 Int32} (h_a : HoldsI mem aP a.list) (h_b : HoldsI mem bP b.list) (r_dest : Room mem destP 2) (s_a_dest : Apart aP 2 destP 2) (s_b_dest : Apart bP 2 destP 2) (h : I.glm_ivec2_sub a b = some r) :
    CI.glm_ivec2_sub.run mem [aP.val, bP.val, destP.val] =
      some (none, writes mem [(destP, icells r.list)]) :=
  C55_ivec2_sub h_a h_b r_dest (Or.inr s_a_dest) (Or.inr s_b_dest) h
example : let mem : Mem α := [⟨false, icells (⟨7, 2⟩ : V2 Int32).list⟩, ⟨false, icells (⟨7, 2⟩ : V2 Int32).list⟩, ⟨true, List.replicate 2 .undef⟩]
    HoldsI mem (0, 0) (⟨7, 2⟩ : V2 Int32).list ∧ HoldsI mem (1, 0) (⟨7, 2⟩ : V2 Int32).list ∧ Room mem (2, 0) 2 ∧ Apart (0, 0) 2 (2, 0) 2 ∧ Apart (1, 0) 2 (2, 0) 2 ∧ (I.glm_ivec2_sub (⟨7, 2⟩ : V2 Int32) (⟨7, 2⟩ : V2 Int32)).isSome = true :=
  ⟨.block rfl, .block rfl, .block rfl rfl, Or.inl (by decide), Or.inl (by decide), rfl⟩

theorem C56_ivec2_subs {mem : Mem α} {vP destP : Ptr} {v : V2 Int32} {s : Int32} {r : V2 Int32} (h_v : HoldsI mem vP v.list) (r_dest : Room mem destP 2) (s_v_dest : Apart vP 2 destP 2) (h : I.glm_ivec2_subs v s = some r) :
    CI.glm_ivec2_subs.run mem [vP.val, .i s.toInt, destP.val] =
      some (none, writes mem [(destP, icells r.list)]) :=
  C55_ivec2_subs h_v r_dest (Or.inr s_v_dest) h
example : let mem : Mem α := [⟨false, icells (⟨7, 2⟩ : V2 Int32).list⟩, ⟨true, List.replicate 2 .undef⟩]
    HoldsI mem (0, 0) (⟨7, 2⟩ : V2 Int32).list ∧ Room mem (1, 0) 2 ∧ Apart (0, 0) 2 (1, 0) 2 ∧ (I.glm_ivec2_subs (⟨7, 2⟩ : V2 Int32) (2 : Int32)).isSome = true :=
  ⟨.block rfl, .block rfl rfl, Or.inl (by decide), rfl⟩

theorem C56_ivec2_mul {mem : Mem α} {aP bP destP : Ptr} {a : V2 Int32} {b : V2 Int32} {r : V2 Int32} (h_a : HoldsI mem aP a.list) (h_b : HoldsI mem bP b.list) (r_dest : Room mem destP 2) (s_a_dest : Apart aP 2 destP 2) (s_b_dest : Apart bP 2 destP 2) (h : I.glm_ivec2_mul a b = some r) :
    CI.glm_ivec2_mul.run mem [aP.val, bP.val, destP.val] =
      some (none, writes mem [(destP, icells r.list)]) :=
  C55_ivec2_mul h_a h_b r_dest (Or.inr s_a_dest) (Or.inr s_b_dest) h
example : let mem : Mem α := [⟨false, icells (⟨7, 2⟩ : V2 Int32).list⟩, ⟨false, icells (⟨7, 2⟩ : V2 Int32).list⟩, ⟨true, List.replicate 2 .undef⟩]
    HoldsI mem (0, 0) (⟨7, 2⟩ : V2 Int32).list ∧ HoldsI mem (1, 0) (⟨7, 2⟩ : V2 Int32).list ∧ Room mem (2, 0) 2 ∧ Apart (0, 0) 2 (2, 0) 2 ∧ Apart (1, 0) 2 (2, 0) 2 ∧ (I.glm_ivec2_mul (⟨7, 2⟩ : V2 Int32) (⟨7, 2⟩ : V2 Int32)).isSome = true :=
  ⟨.block rfl, .block rfl, .block rfl rfl, Or.inl (by decide), Or.inl (by decide), rfl⟩

theorem C56_ivec2_scale {mem : Mem α} {vP destP : Ptr} {v : V2 Int32} {s : Int32} {r : V2 Int32} (h_v : HoldsI mem vP v.list) (r_dest : Room mem destP 2) (s_v_dest : Apart vP 2 destP 2) (h : I.glm_ivec2_scale v s = some r) :
    CI.glm_ivec2_scale.run mem [vP.val, .i s.toInt, destP.val] =
      some (none, writes mem [(destP, icells r.list)]) :=
  C55_ivec2_scale h_v r_dest (Or.inr s_v_dest) h
example : let mem : Mem α := [⟨false, icells (⟨7, 2⟩ : V2 Int32).list⟩, ⟨true, List.replicate 2 .undef⟩]
    HoldsI mem (0, 0) (⟨7, 2⟩ : V2 Int32).list ∧ Room mem (1, 0) 2 ∧ Apart (0, 0) 2 (1, 0) 2 ∧ (I.glm_ivec2_scale (⟨7, 2⟩ : V2 Int32) (2 : Int32)).isSome = true :=
  ⟨.block rfl, .block rfl rfl, Or.inl (by decide), rfl⟩

theorem C56_ivec2_div {mem : Mem α} {aP bP destP : Ptr} {a : V2 Int32} {b : V2 Int32} {r : V2 Int32} (h_a : HoldsI mem aP a.list) (h_b : HoldsI mem bP b.list) (r_dest : Room mem destP 2) (s_a_dest : Apart aP 2 destP 2) (s_b_dest : Apart bP 2 destP 2) (h : I.glm_ivec2_div a b = some r) :
    CI.glm_ivec2_div.run mem [aP.val, bP.val, destP.val] =
      some (none, writes mem [(destP, icells r.list)]) :=
  C55_ivec2_div h_a h_b r_dest (Or.inr s_a_dest) (Or.inr s_b_dest) h
example : let mem : Mem α := [⟨false, icells (⟨7, 2⟩ : V2 Int32).list⟩, ⟨false, icells (⟨7, 2⟩ : V2 Int32).list⟩, ⟨true, List.replicate 2 .undef⟩]
    HoldsI mem (0, 0) (⟨7, 2⟩ : V2 Int32).list ∧ HoldsI mem (1, 0) (⟨7, 2⟩ : V2 Int32).list ∧ Room mem (2, 0) 2 ∧ Apart (0, 0) 2 (2, 0) 2 ∧ Apart (1, 0) 2 (2, 0) 2 ∧ (I.glm_ivec2_div (⟨7, 2⟩ : V2 Int32) (⟨7, 2⟩ : V2 Int32)).isSome = true :=
  ⟨.block rfl, .block rfl, .block rfl rfl, Or.inl (by decide), Or.inl (by decide), rfl⟩

theorem C56_ivec2_divs {mem : Mem α} {vP destP : Ptr} {v : V2 Int32} {s : Int32} {r : V2 Int32} (h_v : HoldsI mem vP v.list) (r_dest : Room mem destP 2) (s_v_dest : Apart vP 2 destP 2) (h : I.glm_ivec2_divs v s = some r) :
    CI.glm_ivec2_divs.run mem [vP.val, .i s.toInt, destP.val] =
      some (none, writes mem [(destP, icells r.list)]) :=
  C55_ivec2_divs h_v r_dest (Or.inr s_v_dest) h
example : let mem : Mem α := [⟨false, icells (⟨7, 2⟩ : V2 Int32).list⟩, ⟨true, List.replicate 2 .undef⟩]
    HoldsI mem (0, 0) (⟨7, 2⟩ : V2 Int32).list ∧ Room mem (1, 0) 2 ∧ Apart (0, 0) 2 (1, 0) 2 ∧ (I.glm_ivec2_divs (⟨7, 2⟩ : V2 Int32) (2 : Int32)).isSome = true :=
  ⟨.block rfl, .block rfl rfl, Or.inl (by decide), rfl⟩

theorem C56_ivec2_mod {mem : Mem α} {aP bP destP : Ptr} {a : V2 Int32} {b : V2 Int32} {r : V2 Int32} (h_a : HoldsI mem aP a.list) (h_b : HoldsI mem bP b.list) (r_dest : Room mem destP 2) (s_a_dest : Apart aP 2 destP 2) (s_b_dest : Apart bP 2 destP 2) (h : I.glm_ivec2_mod a b = some r) :
    CI.glm_ivec2_mod.run mem [aP.val, bP.val, destP.val] =
      some (none, writes mem [(destP, icells r.list)]) :=
  C55_ivec2_mod h_a h_b r_dest (Or.inr s_a_dest) (Or.inr s_b_dest) h
example : let mem : Mem α := [⟨false, icells (⟨7, 2⟩ : V2 Int32).list⟩, ⟨false, icells (⟨7, 2⟩ : V2 Int32).list⟩, ⟨true, List.replicate 2 .undef⟩]
    HoldsI mem (0, 0) (⟨7, 2⟩ : V2 Int32).list ∧ HoldsI mem (1, 0) (⟨7, 2⟩ : V2 Int32).list ∧ Room mem (2, 0) 2 ∧ Apart (0, 0) 2 (2, 0) 2 ∧ Apart (1, 0) 2 (2, 0) 2 ∧ (I.glm_ivec2_mod (⟨7, 2⟩ : V2 Int32) (⟨7, 2⟩ : V2 Int32)).isSome = true :=
  ⟨.block rfl, .block rfl, .block rfl rfl, Or.inl (by decide), Or.inl (by decide), rfl⟩

theorem C56_ivec2_addadd {mem : Mem α} {aP bP destP : Ptr} {a : V2 Int32} {b : V2 Int32} {dest : V2 Int32} {r : V2 Int32} (h_a : HoldsI mem aP a.list) (h_b : HoldsI mem bP b.list) (h_dest : HoldsI mem destP dest.list) (r_dest : Room mem destP 2) (s_a_dest : Apart aP 2 destP 2) (s_b_dest : Apart bP 2 destP 2) (h : I.glm_ivec2_addadd a b dest = some r) :
    CI.glm_ivec2_addadd.run mem [aP.val, bP.val, destP.val] =
      some (none, writes mem [(destP, icells r.list)]) :=
  C55_ivec2_addadd h_a h_b h_dest r_dest (Or.inr s_a_dest) (Or.inr s_b_dest) h
example : let mem : Mem α := [⟨false, icells (⟨7, 2⟩ : V2 Int32).list⟩, ⟨false, icells (⟨7, 2⟩ : V2 Int32).list⟩, ⟨true, icells (⟨7, 2⟩ : V2 Int32).list⟩]
    HoldsI mem (0, 0) (⟨7, 2⟩ : V2 Int32).list ∧ HoldsI mem (1, 0) (⟨7, 2⟩ : V2 Int32).list ∧ HoldsI mem (2, 0) (⟨7, 2⟩ : V2 Int32).list ∧ Room mem (2, 0) 2 ∧ Apart (0, 0) 2 (2, 0) 2 ∧ Apart (1, 0) 2 (2, 0) 2 ∧ (I.glm_ivec2_addadd (⟨7, 2⟩ : V2 Int32) (⟨7, 2⟩ : V2 Int32) (⟨7, 2⟩ : V2 Int32)).isSome = true :=
  ⟨.block rfl, .block rfl, .block rfl, .block rfl rfl, Or.inl (by decide), Or.inl (by decide), rfl⟩

theorem C56_ivec2_addadds {mem : Mem α} {aP destP : Ptr} {a : V2 Int32} {s : Int32} {dest : V2 Int32} {r : V2 Int32} (h_a : HoldsI mem aP a.list) (h_dest : HoldsI mem destP dest.list) (r_dest : Room mem destP 2) (s_a_dest : Apart aP 2 destP 2) (h : I.glm_ivec2_addadds a s dest = some r) :
    CI.glm_ivec2_addadds.run mem [aP.val, .i s.toInt, destP.val] =
      some (none, writes mem [(destP, icells r.list)]) :=
  C55_ivec2_addadds h_a h_dest r_dest (Or.inr s_a_dest) h
example : let mem : Mem α := [⟨false, icells (⟨7, 2⟩ : V2 Int32).list⟩, ⟨true, icells (⟨7, 2⟩ : V2 Int32).list⟩]
    HoldsI mem (0, 0) (⟨7, 2⟩ : V2 Int32).list ∧ HoldsI mem (1, 0) (⟨7, 2⟩ : V2 Int32).list ∧ Room mem (1, 0) 2 ∧ Apart (0, 0) 2 (1, 0) 2 ∧ (I.glm_ivec2_addadds (⟨7, 2⟩ : V2 Int32) (2 : Int32) (⟨7, 2⟩ : V2 Int32)).isSome = true :=
  ⟨.block rfl, .block rfl, .block rfl rfl, Or.inl (by decide), rfl⟩

theorem C56_ivec2_subadd {mem : Mem α} {aP bP destP : Ptr} {a : V2 Int32} {b : V2 Int32} {dest : V2 Int32} {r : V2 Int32} (h_a : HoldsI mem aP a.list) (h_b : HoldsI mem bP b.list) (h_dest : HoldsI mem destP dest.list) (r_dest : Room mem destP 2) (s_a_dest : Apart aP 2 destP 2) (s_b_dest : Apart bP 2 destP 2) (h : I.glm_ivec2_subadd a b dest = some r) :
    CI.glm_ivec2_subadd.run mem [aP.val, bP.val, destP.val] =
      some (none, writes mem [(destP, icells r.list)]) :=
  C55_ivec2_subadd h_a h_b h_dest r_dest (Or.inr s_a_dest) (Or.inr s_b_dest) h
example : let mem : Mem α := [⟨false, icells (⟨7, 2⟩ : V2 Int32).list⟩, ⟨false, icells (⟨7, 2⟩ : V2 Int32).list⟩, ⟨true, icells (⟨7, 2⟩ : V2 Int32).list⟩]
    HoldsI mem (0, 0) (⟨7, 2⟩ : V2 Int32).list ∧ HoldsI mem (1, 0) (⟨7, 2⟩ : V2 Int32).list ∧ HoldsI mem (2, 0) (⟨7, 2⟩ : V2 Int32).list ∧ Room mem (2, 0) 2 ∧ Apart (0, 0) 2 (2, 0) 2 ∧ Apart (1, 0) 2 (2, 0) 2 ∧ (I.glm_ivec2_subadd (⟨7, 2⟩ : V2 Int32) (⟨7, 2⟩ : V2 Int32) (⟨7, 2⟩ : V2 Int32)).isSome = true :=
  ⟨.block rfl, .block rfl, .block rfl, .block rfl rfl, Or.inl (by decide), Or.inl (by decide), rfl⟩

theorem C56_ivec2_subadds {mem : Mem α} {aP destP : Ptr} {a : V2 Int32} {s : Int32} {dest : V2 Int32} {r : V2 Int32} (h_a : HoldsI mem aP a.list) (h_dest : HoldsI mem destP dest.list) (r_dest : Room mem destP 2) (s_a_dest : Apart aP 2 destP 2) (h : I.glm_ivec2_subadds a s dest = some r) :
    CI.glm_ivec2_subadds.run mem [aP.val, .i s.toInt, destP.val] =
      some (none, writes mem [(destP, icells r.list)]) :=
  C55_ivec2_subadds h_a h_dest r_dest (Or.inr s_a_dest) h
example : let mem : Mem α := [⟨false, icells (⟨7, 2⟩ : V2 Int32).list⟩, ⟨true, icells (⟨7, 2⟩ : V2 Int32).list⟩]
    HoldsI mem (0, 0) (⟨7, 2⟩ : V2 Int32).list ∧ HoldsI mem (1, 0) (⟨7, 2⟩ : V2 Int32).list ∧ Room mem (1, 0) 2 ∧ Apart (0, 0) 2 (1, 0) 2 ∧ (I.glm_ivec2_subadds (⟨7, 2⟩ : V2 Int32) (2 : Int32) (⟨7, 2⟩ : V2 Int32)).isSome = true :=
  ⟨.block rfl, .block rfl, .block rfl rfl, Or.inl (by decide), rfl⟩

theorem C56_ivec2_muladd {mem : Mem α} {aP bP destP : Ptr} {a : V2 Int32} {b : V2 Int32} {dest : V2 Int32} {r : V2 Int32} (h_a : HoldsI mem aP a.list) (h_b : HoldsI mem bP b.list) (h_dest : HoldsI mem destP dest.list) (r_dest : Room mem destP 2) (s_a_dest : Apart aP 2 destP 2) (s_b_dest : Apart bP 2 destP 2) (h : I.glm_ivec2_muladd a b dest = some r) :
    CI.glm_ivec2_muladd.run mem [aP.val, bP.val, destP.val] =
      some (none, writes mem [(destP, icells r.list)]) :=
  C55_ivec2_muladd h_a h_b h_dest r_dest (Or.inr s_a_dest) (Or.inr s_b_dest) h
example : let mem : Mem α := [⟨false, icells (⟨7, 2⟩ : V2 Int32).list⟩, ⟨false, icells (⟨7, 2⟩ : V2 Int32).list⟩, ⟨true, icells (⟨7, 2⟩ : V2 Int32).list⟩]
    HoldsI mem (0, 0) (⟨7, 2⟩ : V2 Int32).list ∧ HoldsI mem (1, 0) (⟨7, 2⟩ : V2 Int32).list ∧ HoldsI mem (2, 0) (⟨7, 2⟩ : V2 Int32).list ∧ Room mem (2, 0) 2 ∧ Apart (0, 0) 2 (2, 0) 2 ∧ Apart (1, 0) 2 (2, 0) 2 ∧ (I.glm_ivec2_muladd (⟨7, 2⟩ : V2 Int32) (⟨7, 2⟩ : V2 Int32) (⟨7, 2⟩ : V2 Int32)).isSome = true :=
  ⟨.block rfl, .block rfl, .block rfl, .block rfl rfl, Or.inl (by decide), Or.inl (by decide), rfl⟩

theorem C56_ivec2_muladds {mem : Mem α} {aP destP : Ptr} {a : V2 Int32} {s : Int32} {dest : V2 Int32} {r : V2 Int32} (h_a : HoldsI mem aP a.list) (h_dest : HoldsI mem destP dest.list) (r_dest : Room mem destP 2) (s_a_dest : Apart aP 2 destP 2) (h : I.glm_ivec2_muladds a s dest = some r) :
    CI.glm_ivec2_muladds.run mem [aP.val, .i s.toInt, destP.val] =
      some (none, writes mem [(destP, icells r.list)]) :=
  C55_ivec2_muladds h_a h_dest r_dest (Or.inr s_a_dest) h
example : let mem : Mem α := [⟨false, icells (⟨7, 2⟩ : V2 Int32).list⟩, ⟨true, icells (⟨7, 2⟩ : V2 Int32).list⟩]
    HoldsI mem (0, 0) (⟨7, 2⟩ : V2 Int32).list ∧ HoldsI mem (1, 0) (⟨7, 2⟩ : V2 Int32).list ∧ Room mem (1, 0) 2 ∧ Apart (0, 0) 2 (1, 0) 2 ∧ (I.glm_ivec2_muladds (⟨7, 2⟩ : V2 Int32) (2 : Int32) (⟨7, 2⟩ : V2 Int32)).isSome = true :=
  ⟨.block rfl, .block rfl, .block rfl rfl, Or.inl (by decide), rfl⟩

theorem C56_ivec2_maxadd {mem : Mem α} {aP bP destP : Ptr} {a : V2 Int32} {b : V2 Int32} {dest : V2 Int32} {r : V2 Int32} (h_a : HoldsI mem aP a.list) (h_b : HoldsI mem bP b.list) (h_dest : HoldsI mem destP dest.list) (r_dest : Room mem destP 2) (s_a_dest : Apart aP 2 destP 2) (s_b_dest : Apart bP 2 destP 2) (h : I.glm_ivec2_maxadd a b dest = some r) :
    CI.glm_ivec2_maxadd.run mem [aP.val, bP.val, destP.val] =
      some (none, writes mem [(destP, icells r.list)]) :=
  C55_ivec2_maxadd h_a h_b h_dest r_dest (Or.inr s_a_dest) (Or.inr s_b_dest) h
example : let mem : Mem α := [⟨false, icells (⟨7, 2⟩ : V2 Int32).list⟩, ⟨false, icells (⟨7, 2⟩ : V2 Int32).list⟩, ⟨true, icells (⟨7, 2⟩ : V2 Int32).list⟩]
    HoldsI mem (0, 0) (⟨7, 2⟩ : V2 Int32).list ∧ HoldsI mem (1, 0) (⟨7, 2⟩ : V2 Int32).list ∧ HoldsI mem (2, 0) (⟨7, 2⟩ : V2 Int32).list ∧ Room mem (2, 0) 2 ∧ Apart (0, 0) 2 (2, 0) 2 ∧ Apart (1, 0) 2 (2, 0) 2 ∧ (I.glm_ivec2_maxadd (⟨7, 2⟩ : V2 Int32) (⟨7, 2⟩ : V2 Int32) (⟨7, 2⟩ : V2 Int32)).isSome = true :=
  ⟨.block rfl, .block rfl, .block rfl, .block rfl rfl, Or.inl (by decide), Or.inl (by decide), rfl⟩

theorem C56_ivec2_minadd {mem : Mem α} {aP bP destP : Ptr} {a : V2 Int32} {b : V2 Int32} {dest : V2 Int32} {r : V2 Int32} (h_a : HoldsI mem aP a.list) (h_b : HoldsI mem bP b.list) (h_dest : HoldsI mem destP dest.list) (r_dest : Room mem destP 2) (s_a_dest : Apart aP 2 destP 2) (s_b_dest : Apart bP 2 destP 2) (h : I.glm_ivec2_minadd a b dest = some r) :
    CI.glm_ivec2_minadd.run mem [aP.val, bP.val, destP.val] =
      some (none, writes mem [(destP, icells r.list)]) :=
  C55_ivec2_minadd h_a h_b h_dest r_dest (Or.inr s_a_dest) (Or.inr s_b_dest) h
example : let mem : Mem α := [⟨false, icells (⟨7, 2⟩ : V2 Int32).list⟩, ⟨false, icells (⟨7, 2⟩ : V2 Int32).list⟩, ⟨true, icells (⟨7, 2⟩ : V2 Int32).list⟩]
    HoldsI mem (0, 0) (⟨7, 2⟩ : V2 Int32).list ∧ HoldsI mem (1, 0) (⟨7, 2⟩ : V2 Int32).list ∧ HoldsI mem (2, 0) (⟨7, 2⟩ : V2 Int32).list ∧ Room mem (2, 0) 2 ∧ Apart (0, 0) 2 (2, 0) 2 ∧ Apart (1, 0) 2 (2, 0) 2 ∧ (I.glm_ivec2_minadd (⟨7, 2⟩ : V2 Int32) (⟨7, 2⟩ : V2 Int32) (⟨7, 2⟩ : V2 Int32)).isSome = true :=
  ⟨.block rfl, .block rfl, .block rfl, .block rfl rfl, Or.inl (by decide), Or.inl (by decide), rfl⟩

theorem C56_ivec2_subsub {mem : Mem α} {aP bP destP : Ptr} {a : V2 Int32} {b : V2 Int32} {dest : V2 Int32} {r : V2 Int32} (h_a : HoldsI mem aP a.list) (h_b : HoldsI mem bP b.list) (h_dest : HoldsI mem destP dest.list) (r_dest : Room mem destP 2) (s_a_dest : Apart aP 2 destP 2) (s_b_dest : Apart bP 2 destP 2) (h : I.glm_ivec2_subsub a b dest = some r) :
    CI.glm_ivec2_subsub.run mem [aP.val, bP.val, destP.val] =
      some (none, writes mem [(destP, icells r.list)]) :=
  C55_ivec2_subsub h_a h_b h_dest r_dest (Or.inr s_a_dest) (Or.inr s_b_dest) h
example : let mem : Mem α := [⟨false, icells (⟨7, 2⟩ : V2 Int32).list⟩, ⟨false, icells (⟨7, 2⟩ : V2 Int32).list⟩, ⟨true, icells (⟨7, 2⟩ : V2 Int32).list⟩]
    HoldsI mem (0, 0) (⟨7, 2⟩ : V2 Int32).list ∧ HoldsI mem (1, 0) (⟨7, 2⟩ : V2 Int32).list ∧ HoldsI mem (2, 0) (⟨7, 2⟩ : V2 Int32).list ∧ Room mem (2, 0) 2 ∧ Apart (0, 0) 2 (2, 0) 2 ∧ Apart (1, 0) 2 (2, 0) 2 ∧ (I.glm_ivec2_subsub (⟨7, 2⟩ : V2 Int32) (⟨7, 2⟩ : V2 Int32) (⟨7, 2⟩ : V2 Int32)).isSome = true :=
  ⟨.block rfl, .block rfl, .block rfl, .block rfl rfl, Or.inl (by decide), Or.inl (by decide), rfl⟩

theorem C56_ivec2_subsubs {mem : Mem α} {aP destP : Ptr} {a : V2 Int32} {s : Int32} {dest : V2 Int32} {r : V2 Int32} (h_a : HoldsI mem aP a.list) (h_dest : HoldsI mem destP dest.list) (r_dest : Room mem destP 2) (s_a_dest : Apart aP 2 destP 2) (h : I.glm_ivec2_subsubs a s dest = some r) :
    CI.glm_ivec2_subsubs.run mem [aP.val, .i s.toInt, destP.val] =
      some (none, writes mem [(destP, icells r.list)]) :=
  C55_ivec2_subsubs h_a h_dest r_dest (Or.inr s_a_dest) h
example : let mem : Mem α := [⟨false, icells (⟨7, 2⟩ : V2 Int32).list⟩, ⟨true, icells (⟨7, 2⟩ : V2 Int32).list⟩]
    HoldsI mem (0, 0) (⟨7, 2⟩ : V2 Int32).list ∧ HoldsI mem (1, 0) (⟨7, 2⟩ : V2 Int32).list ∧ Room mem (1, 0) 2 ∧ Apart (0, 0) 2 (1, 0) 2 ∧ (I.glm_ivec2_subsubs (⟨7, 2⟩ : V2 Int32) (2 : Int32) (⟨7, 2⟩ : V2 Int32)).isSome = true :=
  ⟨.block rfl, .block rfl, .block rfl rfl, Or.inl (by decide), rfl⟩

theorem C56_ivec2_addsub {mem : Mem α} {aP bP destP : Ptr} {a : V2 Int32} {b : V2 Int32} {dest : V2 Int32} {r : V2 Int32} (h_a : HoldsI mem aP a.list) (h_b : HoldsI mem bP b.list) (h_dest : HoldsI mem destP dest.list) (r_dest : Room mem destP 2) (s_a_dest : Apart aP 2 destP 2) (s_b_dest : Apart bP 2 destP 2) (h : I.glm_ivec2_addsub a b dest = some r) :
    CI.glm_ivec2_addsub.run mem [aP.val, bP.val, destP.val] =
      some (none, writes mem [(destP, icells r.list)]) :=
  C55_ivec2_addsub h_a h_b h_dest r_dest (Or.inr s_a_dest) (Or.inr s_b_dest) h
example : let mem : Mem α := [⟨false, icells (⟨7, 2⟩ : V2 Int32).list⟩, ⟨false, icells (⟨7, 2⟩ : V2 Int32).list⟩, ⟨true, icells (⟨7, 2⟩ : V2 Int32).list⟩]
    HoldsI mem (0, 0) (⟨7, 2⟩ : V2 Int32).list ∧ HoldsI mem (1, 0) (⟨7, 2⟩ : V2 Int32).list ∧ HoldsI mem (2, 0) (⟨7, 2⟩ : V2 Int32).list ∧ Room mem (2, 0) 2 ∧ Apart (0, 0) 2 (2, 0) 2 ∧ Apart (1, 0) 2 (2, 0) 2 ∧ (I.glm_ivec2_addsub (⟨7, 2⟩ : V2 Int32) (⟨7, 2⟩ : V2 Int32) (⟨7, 2⟩ : V2 Int32)).isSome = true :=
  ⟨.block rfl, .block rfl, .block rfl, .block rfl rfl, Or.inl (by decide), Or.inl (by decide), rfl⟩

theorem C56_ivec2_addsubs {mem : Mem α} {aP destP : Ptr} {a : V2 Int32} {s : Int32} {dest : V2 Int32} {r : V2 Int32} (h_a : HoldsI mem aP a.list) (h_dest : HoldsI mem destP dest.list) (r_dest : Room mem destP 2) (s_a_dest : Apart aP 2 destP 2) (h : I.glm_ivec2_addsubs a s dest = some r) :
    CI.glm_ivec2_addsubs.run mem [aP.val, .i s.toInt, destP.val] =
      some (none, writes mem [(destP, icells r.list)]) :=
  C55_ivec2_addsubs h_a h_dest r_dest (Or.inr s_a_dest) h
example : let mem : Mem α := [⟨false, icells (⟨7, 2⟩ : V2 Int32).list⟩, ⟨true, icells (⟨7, 2⟩ : V2 Int32).list⟩]
    HoldsI mem (0, 0) (⟨7, 2⟩ : V2 Int32).list ∧ HoldsI mem (1, 0) (⟨7, 2⟩ : V2 Int32).list ∧ Room mem (1, 0) 2 ∧ Apart (0, 0) 2 (1, 0) 2 ∧ (I.glm_ivec2_addsubs (⟨7, 2⟩ : V2 Int32) (2 : Int32) (⟨7, 2⟩ : V2 Int32)).isSome = true :=
  ⟨.block rfl, .block rfl, .block rfl rfl, Or.inl (by decide), rfl⟩

theorem C56_ivec2_mulsub {mem : Mem α} {aP bP destP : Ptr} {a : V2 Int32} {b : V2 Int32} {dest : V2 Int32} {r : V2 Int32} (h_a : HoldsI mem aP a.list) (h_b : HoldsI mem bP b.list) (h_dest : HoldsI mem destP dest.list) (r_dest : Room mem destP 2) (s_a_dest : Apart aP 2 destP 2) (s_b_dest : Apart bP 2 destP 2) (h : I.glm_ivec2_mulsub a b dest = some r) :
    CI.glm_ivec2_mulsub.run mem [aP.val, bP.val, destP.val] =
      some (none, writes mem [(destP, icells r.list)]) :=
  C55_ivec2_mulsub h_a h_b h_dest r_dest (Or.inr s_a_dest) (Or.inr s_b_dest) h
example : let mem : Mem α := [⟨false, icells (⟨7, 2⟩ : V2 Int32).list⟩, ⟨false, icells (⟨7, 2⟩ : V2 Int32).list⟩, ⟨true, icells (⟨7, 2⟩ : V2 Int32).list⟩]
    HoldsI mem (0, 0) (⟨7, 2⟩ : V2 Int32).list ∧ HoldsI mem (1, 0) (⟨7, 2⟩ : V2 Int32).list ∧ HoldsI mem (2, 0) (⟨7, 2⟩ : V2 Int32).list ∧ Room mem (2, 0) 2 ∧ Apart (0, 0) 2 (2, 0) 2 ∧ Apart (1, 0) 2 (2, 0) 2 ∧ (I.glm_ivec2_mulsub (⟨7, 2⟩ : V2 Int32) (⟨7, 2⟩ : V2 Int32) (⟨7, 2⟩ : V2 Int32)).isSome = true :=
  ⟨.block rfl, .block rfl, .block rfl, .block rfl rfl, Or.inl (by decide), Or.inl (by decide), rfl⟩

theorem C56_ivec2_mulsubs {mem : Mem α} {aP destP : Ptr} {a : V2 Int32} {s : Int32} {dest : V2 Int32} {r : V2 Int32} (h_a : HoldsI mem aP a.list) (h_dest : HoldsI mem destP dest.list) (r_dest : Room mem destP 2) (s_a_dest : Apart aP 2 destP 2) (h : I.glm_ivec2_mulsubs a s dest = some r) :
    CI.glm_ivec2_mulsubs.run mem [aP.val, .i s.toInt, destP.val] =
      some (none, writes mem [(destP, icells r.list)]) :=
  C55_ivec2_mulsubs h_a h_dest r_dest (Or.inr s_a_dest) h
example : let mem : Mem α := [⟨false, icells (⟨7, 2⟩ : V2 Int32).list⟩, ⟨true, icells (⟨7, 2⟩ : V2 Int32).list⟩]
    HoldsI mem (0, 0) (⟨7, 2⟩ : V2 Int32).list ∧ HoldsI mem (1, 0) (⟨7, 2⟩ : V2 Int32).list ∧ Room mem (1, 0) 2 ∧ Apart (0, 0) 2 (1, 0) 2 ∧ (I.glm_ivec2_mulsubs (⟨7, 2⟩ : V2 Int32) (2 : Int32) (⟨7, 2⟩ : V2 Int32)).isSome = true :=
  ⟨.block rfl, .block rfl, .block rfl rfl, Or.inl (by decide), rfl⟩

theorem C56_ivec2_maxsub {mem : Mem α} {aP bP destP : Ptr} {a : V2 Int32} {b : V2 Int32} {dest : V2 Int32} {r : V2 Int32} (h_a : HoldsI mem aP a.list) (h_b : HoldsI mem bP b.list) (h_dest : HoldsI mem destP dest.list) (r_dest : Room mem destP 2) (s_a_dest : Apart aP 2 destP 2) (s_b_dest : Apart bP 2 destP 2) (h : I.glm_ivec2_maxsub a b dest = some r) :
    CI.glm_ivec2_maxsub.run mem [aP.val, bP.val, destP.val] =
      some (none, writes mem [(destP, icells r.list)]) :=
  C55_ivec2_maxsub h_a h_b h_dest r_dest (Or.inr s_a_dest) (Or.inr s_b_dest) h
example : let mem : Mem α := [⟨false, icells (⟨7, 2⟩ : V2 Int32).list⟩, ⟨false, icells (⟨7, 2⟩ : V2 Int32).list⟩, ⟨true, icells (⟨7, 2⟩ : V2 Int32).list⟩]
    HoldsI mem (0, 0) (⟨7, 2⟩ : V2 Int32).list ∧ HoldsI mem (1, 0) (⟨7, 2⟩ : V2 Int32).list ∧ HoldsI mem (2, 0) (⟨7, 2⟩ : V2 Int32).list ∧ Room mem (2, 0) 2 ∧ Apart (0, 0) 2 (2, 0) 2 ∧ Apart (1, 0) 2 (2, 0) 2 ∧ (I.glm_ivec2_maxsub (⟨7, 2⟩ : V2 Int32) (⟨7, 2⟩ : V2 Int32) (⟨7, 2⟩ : V2 Int32)).isSome = true :=
  ⟨.block rfl, .block rfl, .block rfl, .block rfl rfl, Or.inl (by decide), Or.inl (by decide), rfl⟩

theorem C56_ivec2_minsub {mem : Mem α} {aP bP destP : Ptr} {a : V2 Int32} {b : V2 Int32} {dest : V2 Int32} {r : V2 Int32} (h_a : HoldsI mem aP a.list) (h_b : HoldsI mem bP b.list) (h_dest : HoldsI mem destP dest.list) (r_dest : Room mem destP 2) (s_a_dest : Apart aP 2 destP 2) (s_b_dest : Apart bP 2 destP 2) (h : I.glm_ivec2_minsub a b dest = some r) :
    CI.glm_ivec2_minsub.run mem [aP.val, bP.val, destP.val] =
      some (none, writes mem [(destP, icells r.list)]) :=
  C55_ivec2_minsub h_a h_b h_dest r_dest (Or.inr s_a_dest) (Or.inr s_b_dest) h
example : let mem : Mem α := [⟨false, icells (⟨7, 2⟩ : V2 Int32).list⟩, ⟨false, icells (⟨7, 2⟩ : V2 Int32).list⟩, ⟨true, icells (⟨7, 2⟩ : V2 Int32).list⟩]
    HoldsI mem (0, 0) (⟨7, 2⟩ : V2 Int32).list ∧ HoldsI mem (1, 0) (⟨7, 2⟩ : V2 Int32).list ∧ HoldsI mem (2, 0) (⟨7, 2⟩ : V2 Int32).list ∧ Room mem (2, 0) 2 ∧ Apart (0, 0) 2 (2, 0) 2 ∧ Apart (1, 0) 2 (2, 0) 2 ∧ (I.glm_ivec2_minsub (⟨7, 2⟩ : V2 Int32) (⟨7, 2⟩ : V2 Int32) (⟨7, 2⟩ : V2 Int32)).isSome = true :=
  ⟨.block rfl, .block rfl, .block rfl, .block rfl rfl, Or.inl (by decide), Or.inl (by decide), rfl⟩

theorem C56_ivec2_distance2 {mem : Mem α} {aP bP : Ptr} {a : V2 Int32} {b : V2 Int32} {r : Int32} (h_a : HoldsI mem aP a.list) (h_b : HoldsI mem bP b.list) (h : I.glm_ivec2_distance2 a b = some r) :
    CI.glm_ivec2_distance2.run mem [aP.val, bP.val] =
      some (some (.i r.toInt), mem) := by
  exact itransfer (((R.nil _).addR h_b.has .nil).addR h_a.has (.skip .nil)) (.p rfl (.p rfl .nil)) (glm_ivec2_distance2_irun _ _ h) rfl
example : let mem : Mem α := [⟨false, icells (⟨7, 2⟩ : V2 Int32).list⟩, ⟨false, icells (⟨7, 2⟩ : V2 Int32).list⟩]
    HoldsI mem (0, 0) (⟨7, 2⟩ : V2 Int32).list ∧ HoldsI mem (1, 0) (⟨7, 2⟩ : V2 Int32).list ∧ (I.glm_ivec2_distance2 (⟨7, 2⟩ : V2 Int32) (⟨7, 2⟩ : V2 Int32)).isSome = true :=
  ⟨.block rfl, .block rfl, rfl⟩

theorem C56_ivec2_distance {mem : Mem α} {aP bP : Ptr} {a : V2 Int32} {b : V2 Int32} {r : α} (h_a : HoldsI mem aP a.list) (h_b : HoldsI mem bP b.list) (h : I.glm_ivec2_distance (α := α) a b = some r) :
    CI.glm_ivec2_distance.run mem [aP.val, bP.val] =
      some (some (.f r), mem) := by
  exact itransfer (((R.nil _).addR h_b.has .nil).addR h_a.has (.skip .nil)) (.p rfl (.p rfl .nil)) (glm_ivec2_distance_irun _ _ h) rfl
example : let mem : Mem α := [⟨false, icells (⟨7, 2⟩ : V2 Int32).list⟩, ⟨false, icells (⟨7, 2⟩ : V2 Int32).list⟩]
    HoldsI mem (0, 0) (⟨7, 2⟩ : V2 Int32).list ∧ HoldsI mem (1, 0) (⟨7, 2⟩ : V2 Int32).list ∧ (I.glm_ivec2_distance (α := α) (⟨7, 2⟩ : V2 Int32) (⟨7, 2⟩ : V2 Int32)).isSome = true :=
  ⟨.block rfl, .block rfl, rfl⟩

theorem C56_ivec2_fill {mem : Mem α} {vP : Ptr} {val : Int32} {r : V2 Int32} (r_v : Room mem vP 2) (h : I.glm_ivec2_fill val = some r) :
    CI.glm_ivec2_fill.run mem [vP.val, .i val.toInt] =
      some (none, writes mem [(vP, icells r.list)]) := by
  exact itransfer ((R.nil _).addW r_v.has r_v .nil) (.p rfl (.i .nil)) (glm_ivec2_fill_irun _ h) rfl
example : let mem : Mem α := [⟨true, List.replicate 2 .undef⟩]
    Room mem (0, 0) 2 ∧ (I.glm_ivec2_fill (2 : Int32)).isSome = true :=
  ⟨.block rfl rfl, rfl⟩

theorem C56_ivec2_eq {mem : Mem α} {vP : Ptr} {v : V2 Int32} {val : Int32} {r : Bool} (h_v : HoldsI mem vP v.list) (h : I.glm_ivec2_eq v val = some r) :
    CI.glm_ivec2_eq.run mem [vP.val, .i val.toInt] =
      some (some (.b r), mem) := by
  exact itransfer ((R.nil _).addR h_v.has .nil) (.p rfl (.i .nil)) (glm_ivec2_eq_irun _ _ h) rfl
example : let mem : Mem α := [⟨false, icells (⟨7, 2⟩ : V2 Int32).list⟩]
    HoldsI mem (0, 0) (⟨7, 2⟩ : V2 Int32).list ∧ (I.glm_ivec2_eq (⟨7, 2⟩ : V2 Int32) (2 : Int32)).isSome = true :=
  ⟨.block rfl, rfl⟩

theorem C56_ivec2_eqv {mem : Mem α} {aP bP : Ptr} {a : V2 Int32} {b : V2 Int32} {r : Bool} (h_a : HoldsI mem aP a.list) (h_b : HoldsI mem bP b.list) (h : I.glm_ivec2_eqv a b = some r) :
    CI.glm_ivec2_eqv.run mem [aP.val, bP.val] =
      some (some (.b r), mem) := by
  exact itransfer (((R.nil _).addR h_b.has .nil).addR h_a.has (.skip .nil)) (.p rfl (.p rfl .nil)) (glm_ivec2_eqv_irun _ _ h) rfl
example : let mem : Mem α := [⟨false, icells (⟨7, 2⟩ : V2 Int32).list⟩, ⟨false, icells (⟨7, 2⟩ : V2 Int32).list⟩]
    HoldsI mem (0, 0) (⟨7, 2⟩ : V2 Int32).list ∧ HoldsI mem (1, 0) (⟨7, 2⟩ : V2 Int32).list ∧ (I.glm_ivec2_eqv (⟨7, 2⟩ : V2 Int32) (⟨7, 2⟩ : V2 Int32)).isSome = true :=
  ⟨.block rfl, .block rfl, rfl⟩

theorem C56_ivec2_maxv {mem : Mem α} {aP bP destP : Ptr} {a : V2 Int32} {b : V2 Int32} {r : V2 Int32} (h_a : HoldsI mem aP a.list) (h_b : HoldsI mem bP b.list) (r_dest : Room mem destP 2) (s_a_dest : Apart aP 2 destP 2) (s_b_dest : Apart bP 2 destP 2) (h : I.glm_ivec2_maxv a b = some r) :
    CI.glm_ivec2_maxv.run mem [aP.val, bP.val, destP.val] =
      some (none, writes mem [(destP, icells r.list)]) :=
  C55_ivec2_maxv h_a h_b r_dest (Or.inr s_a_dest) (Or.inr s_b_dest) h
example : let mem : Mem α := [⟨false, icells (⟨7, 2⟩ : V2 Int32).list⟩, ⟨false, icells (⟨7, 2⟩ : V2 Int32).list⟩, ⟨true, List.replicate 2 .undef⟩]
    HoldsI mem (0, 0) (⟨7, 2⟩ : V2 Int32).list ∧ HoldsI mem (1, 0) (⟨7, 2⟩ : V2 Int32).list ∧ Room mem (2, 0) 2 ∧ Apart (0, 0) 2 (2, 0) 2 ∧ Apart (1, 0) 2 (2, 0) 2 ∧ (I.glm_ivec2_maxv (⟨7, 2⟩ : V2 Int32) (⟨7, 2⟩ : V2 Int32)).isSome = true :=
  ⟨.block rfl, .block rfl, .block rfl rfl, Or.inl (by decide), Or.inl (by decide), rfl⟩

theorem C56_ivec2_minv {mem : Mem α} {aP bP destP : Ptr} {a : V2 Int32} {b : V2 Int32} {r : V2 Int32} (h_a : HoldsI mem aP a.list) (h_b : HoldsI mem bP b.list) (r_dest : Room mem destP 2) (s_a_dest : Apart aP 2 destP 2) (s_b_dest : Apart bP 2 destP 2) (h : I.glm_ivec2_minv a b = some r) :
    CI.glm_ivec2_minv.run mem [aP.val, bP.val, destP.val] =
      some (none, writes mem [(destP, icells r.list)]) :=
  C55_ivec2_minv h_a h_b r_dest (Or.inr s_a_dest) (Or.inr s_b_dest) h
example : let mem : Mem α := [⟨false, icells (⟨7, 2⟩ : V2 Int32).list⟩, ⟨false, icells (⟨7, 2⟩ : V2 Int32).list⟩, ⟨true, List.replicate 2 .undef⟩]
    HoldsI mem (0, 0) (⟨7, 2⟩ : V2 Int32).list ∧ HoldsI mem (1, 0) (⟨7, 2⟩ : V2 Int32).list ∧ Room mem (2, 0) 2 ∧ Apart (0, 0) 2 (2, 0) 2 ∧ Apart (1, 0) 2 (2, 0) 2 ∧ (I.glm_ivec2_minv (⟨7, 2⟩ : V2 Int32) (⟨7, 2⟩ : V2 Int32)).isSome = true :=
  ⟨.block rfl, .block rfl, .block rfl rfl, Or.inl (by decide), Or.inl (by decide), rfl⟩

theorem C56_ivec2_clamp {mem : Mem α} {vP : Ptr} {v : V2 Int32} {minVal : Int32} {maxVal : Int32} {r : V2 Int32} (h_v : HoldsI mem vP v.list) (r_v : Room mem vP 2) (h : I.glm_ivec2_clamp v minVal maxVal = some r) :
    CI.glm_ivec2_clamp.run mem [vP.val, .i minVal.toInt, .i maxVal.toInt] =
      some (none, writes mem [(vP, icells r.list)]) := by
  exact itransfer ((R.nil _).addW h_v.has r_v .nil) (.p rfl (.i (.i .nil))) (glm_ivec2_clamp_irun _ _ _ h) rfl
example : let mem : Mem α := [⟨true, icells (⟨7, 2⟩ : V2 Int32).list⟩]
    HoldsI mem (0, 0) (⟨7, 2⟩ : V2 Int32).list ∧ Room mem (0, 0) 2 ∧ (I.glm_ivec2_clamp (⟨7, 2⟩ : V2 Int32) (2 : Int32) (9 : Int32)).isSome = true :=
  ⟨.block rfl, .block rfl rfl, rfl⟩

theorem C56_ivec2_abs {mem : Mem α} {vP destP : Ptr} {v : V2 Int32} {r : V2 Int32} (h_v : HoldsI mem vP v.list) (r_dest : Room mem destP 2) (s_v_dest : Apart vP 2 destP 2) (h : I.glm_ivec2_abs v = some r) :
    CI.glm_ivec2_abs.run mem [vP.val, destP.val] =
      some (none, writes mem [(destP, icells r.list)]) :=
  C55_ivec2_abs h_v r_dest (Or.inr s_v_dest) h
example : let mem : Mem α := [⟨false, icells (⟨7, 2⟩ : V2 Int32).list⟩, ⟨true, List.replicate 2 .undef⟩]
    HoldsI mem (0, 0) (⟨7, 2⟩ : V2 Int32).list ∧ Room mem (1, 0) 2 ∧ Apart (0, 0) 2 (1, 0) 2 ∧ (I.glm_ivec2_abs (⟨7, 2⟩ : V2 Int32)).isSome = true :=
  ⟨.block rfl, .block rfl rfl, Or.inl (by decide), rfl⟩

end Cglm

end C56IIvec2

section C56IIvec3

/-!
# C56: memory safety and framing (include/cglm/ivec3.h)

Called with initialised inputs and a writable destination that does not overlap them, and with inputs on which no
operation overflows or divides by zero, the function is defined, returns the value-level result and changes no
memory but its destination.
-/

set_option maxRecDepth 10000
set_option linter.unusedVariables false
set_option linter.unusedSectionVars false
set_option linter.unusedSimpArgs false

namespace Cglm
open CMem

variable {α : Type} [Add α] [Sub α] [Mul α] [Div α] [Neg α] [CFloat α] [CIntConv α]

theorem C56_ivec3 {mem : Mem α} {v4P destP : Ptr} {v4 : V4 Int32} {r : V3 Int32} (h_v4 : HoldsI mem v4P v4.list) (r_dest : Room mem destP 3) (s_v4_dest : Apart v4P 4 destP 3) (h : I.glm_ivec3 v4 = some r) :
    CI.glm_ivec3.run mem [v4P.val, destP.val] =
      some (none, writes mem [(destP, icells r.list)]) := by
  exact itransfer (((R.nil _).addW r_dest.has r_dest .nil).addR h_v4.has (.cons s_v4_dest .nil)) (.p rfl (.p rfl .nil)) (glm_ivec3_irun _ h) rfl
example : let mem : Mem α := [⟨false, icells (⟨7, 2, 5, 3⟩ : V4 Int32).list⟩, ⟨true, List.replicate 3 .undef⟩]
    HoldsI mem (0, 0) (⟨7, 2, 5, 3⟩ : V4 Int32).list ∧ Room mem (1, 0) 3 ∧ Apart (0, 0) 4 (1, 0) 3 ∧ (I.glm_ivec3 (⟨7, 2, 5, 3⟩ : V4 Int32)).isSome = true :=
  ⟨.block rfl, .block rfl rfl, Or.inl (by decide), rfl⟩

theorem C56_ivec3_copy {mem : Mem α} {aP destP : Ptr} {a : V3 Int32} {r : V3 Int32} (h_a : HoldsI mem aP a.list) (r_dest : Room mem destP 3) (s_a_dest : Apart aP 3 destP 3) (h : I.glm_ivec3_copy a = some r) :
    CI.glm_ivec3_copy.run mem [aP.val, destP.val] =
      some (none, writes mem [(destP, icells r.list)]) :=
  C55_ivec3_copy h_a r_dest (Or.inr s_a_dest) h
example : let mem : Mem α := [⟨false, icells (⟨7, 2, 5⟩ : V3 Int32).list⟩, ⟨true, List.replicate 3 .undef⟩]
    HoldsI mem (0, 0) (⟨7, 2, 5⟩ : V3 Int32).list ∧ Room mem (1, 0) 3 ∧ Apart (0, 0) 3 (1, 0) 3 ∧ (I.glm_ivec3_copy (⟨7, 2, 5⟩ : V3 Int32)).isSome = true :=
  ⟨.block rfl, .block rfl rfl, Or.inl (by decide), rfl⟩

theorem C56_ivec3_zero {mem : Mem α} {vP : Ptr} {r : V3 Int32} (r_v : Room mem vP 3) (h : I.glm_ivec3_zero = some r) :
    CI.glm_ivec3_zero.run mem [vP.val] =
      some (none, writes mem [(vP, icells r.list)]) := by
  exact itransfer ((R.nil _).addW r_v.has r_v .nil) (.p rfl .nil) (glm_ivec3_zero_irun h) rfl
example : let mem : Mem α := [⟨true, List.replicate 3 .undef⟩]
    Room mem (0, 0) 3 ∧ (I.glm_ivec3_zero).isSome = true :=
  ⟨.block rfl rfl, rfl⟩

theorem C56_ivec3_one {mem : Mem α} {vP : Ptr} {r : V3 Int32} (r_v : Room mem vP 3) (h : I.glm_ivec3_one = some r) :
    CI.glm_ivec3_one.run mem [vP.val] =
      some (none, writes mem [(vP, icells r.list)]) := by
  exact itransfer ((R.nil _).addW r_v.has r_v .nil) (.p rfl .nil) (glm_ivec3_one_irun h) rfl
example : let mem : Mem α := [⟨true, List.replicate 3 .undef⟩]
    Room mem (0, 0) 3 ∧ (I.glm_ivec3_one).isSome = true :=
  ⟨.block rfl rfl, rfl⟩

theorem C56_ivec3_dot {mem : Mem α} {aP bP : Ptr} {a : V3 Int32} {b : V3 Int32} {r : Int32} (h_a : HoldsI mem aP a.list) (h_b : HoldsI mem bP b.list) (h : I.glm_ivec3_dot a b = some r) :
    CI.glm_ivec3_dot.run mem [aP.val, bP.val] =
      some (some (.i r.toInt), mem) := by
  exact itransfer (((R.nil _).addR h_b.has .nil).addR h_a.has (.skip .nil)) (.p rfl (.p rfl .nil)) (glm_ivec3_dot_irun _ _ h) rfl
example : let mem : Mem α := [⟨false, icells (⟨7, 2, 5⟩ : V3 Int32).list⟩, ⟨false, icells (⟨7, 2, 5⟩ : V3 Int32).list⟩]
    HoldsI mem (0, 0) (⟨7, 2, 5⟩ : V3 Int32).list ∧ HoldsI mem (1, 0) (⟨7, 2, 5⟩ : V3 Int32).list ∧ (I.glm_ivec3_dot (⟨7, 2, 5⟩ : V3 Int32) (⟨7, 2, 5⟩ : V3 Int32)).isSome = true :=
  ⟨.block rfl, .block rfl, rfl⟩

theorem C56_ivec3_norm2 {mem : Mem α} {vP : Ptr} {v : V3 Int32} {r : Int32} (h_v : HoldsI mem vP v.list) (h : I.glm_ivec3_norm2 v = some r) :
    CI.glm_ivec3_norm2.run mem [vP.val] =
      some (some (.i r.toInt), mem) := by
  exact itransfer ((R.nil _).addR h_v.has .nil) (.p rfl .nil) (glm_ivec3_norm2_irun _ h) rfl
example : let mem : Mem α := [⟨false, icells (⟨7, 2, 5⟩ : V3 Int32).list⟩]
    HoldsI mem (0, 0) (⟨7, 2, 5⟩ : V3 Int32).list ∧ (I.glm_ivec3_norm2 (⟨7, 2, 5⟩ : V3 Int32)).isSome = true :=
  ⟨.block rfl, rfl⟩

theorem C56_ivec3_norm {mem : Mem α} {vP : Ptr} {v : V3 Int32} {r : Int32} (h_v : HoldsI mem vP v.list) (h : I.glm_ivec3_norm (α := α) v = some r) :
    CI.glm_ivec3_norm.run mem [vP.val] =
      some (some (.i r.toInt), mem) := by
  exact itransfer ((R.nil _).addR h_v.has .nil) (.p rfl .nil) (glm_ivec3_norm_irun _ h) rfl
example : let mem : Mem α := [⟨false, icells (⟨7, 2, 5⟩ : V3 Int32).list⟩]
    HoldsI mem (0, 0) (⟨7, 2, 5⟩ : V3 Int32).list :=
  .block rfl

theorem C56_ivec3_add {mem : Mem α} {aP bP destP : Ptr} {a : V3 Int32} {b : V3 Int32} {r : V3 Int32} (h_a : HoldsI mem aP a.list) (h_b : HoldsI mem bP b.list) (r_dest : Room mem destP 3) (s_a_dest : Apart aP 3 destP 3) (s_b_dest : Apart bP 3 destP 3) (h : I.glm_ivec3_add a b = some r) :
    CI.glm_ivec3_add.run mem [aP.val, bP.val, destP.val] =
      some (none, writes mem [(destP, icells r.list)]) :=
  C55_ivec3_add h_a h_b r_dest (Or.inr s_a_dest) (Or.inr s_b_dest) h
example : let mem : Mem α := [⟨false, icells (⟨7, 2, 5⟩ : V3 Int32).list⟩, ⟨false, icells (⟨7, 2, 5⟩ : V3 Int32).list⟩, ⟨true, List.replicate 3 .undef⟩]
    HoldsI mem (0, 0) (⟨7, 2, 5⟩ : V3 Int32).list ∧ HoldsI mem (1, 0) (⟨7, 2, 5⟩ : V3 Int32).list ∧ Room mem (2, 0) 3 ∧ Apart (0, 0) 3 (2, 0) 3 ∧ Apart (1, 0) 3 (2, 0) 3 ∧ (I.glm_ivec3_add (⟨7, 2, 5⟩ : V3 Int32) (⟨7, 2, 5⟩ : V3 Int32)).isSome = true :=
  ⟨.block rfl, .block rfl, .block rfl rfl, Or.inl (by decide), Or.inl (by decide), rfl⟩

theorem C56_ivec3_adds {mem : Mem α} {vP destP : Ptr} {v : V3 Int32} {s : Int32} {r : V3 Int32} (h_v : HoldsI mem vP v.list) (r_dest : Room mem destP 3) (s_v_dest : Apart vP 3 destP 3) (h : I.glm_ivec3_adds v s = some r) :
    CI.glm_ivec3_adds.run mem [vP.val, .i s.toInt, destP.val] =
      some (none, writes mem [(destP, icells r.list)]) :=
  C55_ivec3_adds h_v r_dest (Or.inr s_v_dest) h
example : let mem : Mem α := [⟨false, icells (⟨7, 2, 5⟩ : V3 Int32).list⟩, ⟨true, List.replicate 3 .undef⟩]
    HoldsI mem (0, 0) (⟨7, 2, 5⟩ : V3 Int32).list ∧ Room mem (1, 0) 3 ∧ Apart (0, 0) 3 (1, 0) 3 ∧ (I.glm_ivec3_adds (⟨7, 2, 5⟩ : V3 Int32) (2 : Int32)).isSome = true :=
  ⟨.block rfl, .block rfl rfl, Or.inl (by decide), rfl⟩

theorem C56_ivec3_sub {mem : Mem α} {aP bP destP : Ptr} {a : V3 Int32} {b : V3 Int32} {r : V3 Int32} (h_a : HoldsI mem aP a.list) (h_b : HoldsI mem bP b.list) (r_dest : Room mem destP 3) (s_a_dest : Apart aP 3 destP 3) (s_b_dest : Apart bP 3 destP 3) (h : I.glm_ivec3_sub a b = some r) :
    CI.glm_ivec3_sub.run mem [aP.val, bP.val, destP.val] =
      some (none, writes mem [(destP, icells r.list)]) :=
  C55_ivec3_sub h_a h_b r_dest (Or.inr s_a_dest) (Or.inr s_b_dest) h
example : let mem : Mem α := [⟨false, icells (⟨7, 2, 5⟩ : V3 Int32).list⟩, ⟨false, icells (⟨7, 2, 5⟩ : V3 Int32).list⟩, ⟨true, List.replicate 3 .undef⟩]
    HoldsI mem (0, 0) (⟨7, 2, 5⟩ : V3 Int32).list ∧ HoldsI mem (1, 0) (⟨7, 2, 5⟩ : V3 Int32).list ∧ Room mem (2, 0) 3 ∧ Apart (0, 0) 3 (2, 0) 3 ∧ Apart (1, 0) 3 (2, 0) 3 ∧ (I.glm_ivec3_sub (⟨7, 2, 5⟩ : V3 Int32) (⟨7, 2, 5⟩ : V3 Int32)).isSome = true :=
  ⟨.block rfl, .block rfl, .block rfl rfl, Or.inl (by decide), Or.inl (by decide), rfl⟩

theorem C56_ivec3_subs {mem : Mem α} {vP destP : Ptr} {v : V3 Int32} {s : Int32} {r : V3 Int32} (h_v : HoldsI mem vP v.list) (r_dest : Room mem destP 3) (s_v_dest : Apart vP 3 destP 3) (h : I.glm_ivec3_subs v s = some r) :
    CI.glm_ivec3_subs.run mem [vP.val, .i s.toInt, destP.val] =
      some (none, writes mem [(destP, icells r.list)]) :=
  C55_ivec3_subs h_v r_dest (Or.inr s_v_dest) h
example : let mem : Mem α := [⟨false, icells (⟨7, 2, 5⟩ : V3 Int32).list⟩, ⟨true, List.replicate 3 .undef⟩]
    HoldsI mem (0, 0) (⟨7, 2, 5⟩ : V3 Int32).list ∧ Room mem (1, 0) 3 ∧ Apart (0, 0) 3 (1, 0) 3 ∧ (I.glm_ivec3_subs (⟨7, 2, 5⟩ : V3 Int32) (2 : Int32)).isSome = true :=
  ⟨.block rfl, .block rfl rfl, Or.inl (by decide), rfl⟩

theorem C56_ivec3_mul {mem : Mem α} {aP bP destP : Ptr} {a : V3 Int32} {b : V3 Int32} {r : V3 Int32} (h_a : HoldsI mem aP a.list) (h_b : HoldsI mem bP b.list) (r_dest : Room mem destP 3) (s_a_dest : Apart aP 3 destP 3) (s_b_dest : Apart bP 3 destP 3) (h : I.glm_ivec3_mul a b = some r) :
    CI.glm_ivec3_mul.run mem [aP.val, bP.val, destP.val] =
      some (none, writes mem [(destP, icells r.list)]) :=
  C55_ivec3_mul h_a h_b r_dest (Or.inr s_a_dest) (Or.inr s_b_dest) h
example : let mem : Mem α := [⟨false, icells (⟨7, 2, 5⟩ : V3 Int32).list⟩, ⟨false, icells (⟨7, 2, 5⟩ : V3 Int32).list⟩, ⟨true, List.replicate 3 .undef⟩]
    HoldsI mem (0, 0) (⟨7, 2, 5⟩ : V3 Int32).list ∧ HoldsI mem (1, 0) (⟨7, 2, 5⟩ : V3 Int32).list ∧ Room mem (2, 0) 3 ∧ Apart (0, 0) 3 (2, 0) 3 ∧ Apart (1, 0) 3 (2, 0) 3 ∧ (I.glm_ivec3_mul (⟨7, 2, 5⟩ : V3 Int32) (⟨7, 2, 5⟩ : V3 Int32)).isSome = true :=
  ⟨.block rfl, .block rfl, .block rfl rfl, Or.inl (by decide), Or.inl (by decide), rfl⟩

theorem C56_ivec3_scale {mem : Mem α} {vP destP : Ptr} {v : V3 Int32} {s : Int32} {r : V3 Int32} (h_v : HoldsI mem vP v.list) (r_dest : Room mem destP 3) (s_v_dest : Apart vP 3 destP 3) (h : I.glm_ivec3_scale v s = some r) :
    CI.glm_ivec3_scale.run mem [vP.val, .i s.toInt, destP.val] =
      some (none, writes mem [(destP, icells r.list)]) :=
  C55_ivec3_scale h_v r_dest (Or.inr s_v_dest) h
example : let mem : Mem α := [⟨false, icells (⟨7, 2, 5⟩ : V3 Int32).list⟩, ⟨true, List.replicate 3 .undef⟩]
    HoldsI mem (0, 0) (⟨7, 2, 5⟩ : V3 Int32).list ∧ Room mem (1, 0) 3 ∧ Apart (0, 0) 3 (1, 0) 3 ∧ (I.glm_ivec3_scale (⟨7, 2, 5⟩ : V3 Int32) (2 : Int32)).isSome = true :=
  ⟨.block rfl, .block rfl rfl, Or.inl (by decide), rfl⟩

theorem C56_ivec3_div {mem : Mem α} {aP bP destP : Ptr} {a : V3 Int32} {b : V3 Int32} {r : V3 Int32} (h_a : HoldsI mem aP a.list) (h_b : HoldsI mem bP b.list) (r_dest : Room mem destP 3) (s_a_dest : Apart aP 3 destP 3) (s_b_dest : Apart bP 3 destP 3) (h : I.glm_ivec3_div a b = some r) :
    CI.glm_ivec3_div.run mem [aP.val, bP.val, destP.val] =
      some (none, writes mem [(destP, icells r.list)]) :=
  C55_ivec3_div h_a h_b r_dest (Or.inr s_a_dest) (Or.inr s_b_dest) h
example : let mem : Mem α := [⟨false, icells (⟨7, 2, 5⟩ : V3 Int32).list⟩, ⟨false, icells (⟨7, 2, 5⟩ : V3 Int32).list⟩, ⟨true, List.replicate 3 .undef⟩]
    HoldsI mem (0, 0) (⟨7, 2, 5⟩ : V3 Int32).list ∧ HoldsI mem (1, 0) (⟨7, 2, 5⟩ : V3 Int32).list ∧ Room mem (2, 0) 3 ∧ Apart (0, 0) 3 (2, 0) 3 ∧ Apart (1, 0) 3 (2, 0) 3 ∧ (I.glm_ivec3_div (⟨7, 2, 5⟩ : V3 Int32) (⟨7, 2, 5⟩ : V3 Int32)).isSome = true :=
  ⟨.block rfl, .block rfl, .block rfl rfl, Or.inl (by decide), Or.inl (by decide), rfl⟩

theorem C56_ivec3_divs {mem : Mem α} {vP destP : Ptr} {v : V3 Int32} {s : Int32} {r : V3 Int32} (h_v : HoldsI mem vP v.list) (r_dest : Room mem destP 3) (s_v_dest : Apart vP 3 destP 3) (h : I.glm_ivec3_divs v s = some r) :
    CI.glm_ivec3_divs.run mem [vP.val, .i s.toInt, destP.val] =
      some (none, writes mem [(destP, icells r.list)]) :=
  C55_ivec3_divs h_v r_dest (Or.inr s_v_dest) h
example : let mem : Mem α := [⟨false, icells (⟨7, 2, 5⟩ : V3 Int32).list⟩, ⟨true, List.replicate 3 .undef⟩]
    HoldsI mem (0, 0) (⟨7, 2, 5⟩ : V3 Int32).list ∧ Room mem (1, 0) 3 ∧ Apart (0, 0) 3 (1, 0) 3 ∧ (I.glm_ivec3_divs (⟨7, 2, 5⟩ : V3 Int32) (2 : Int32)).isSome = true :=
  ⟨.block rfl, .block rfl rfl, Or.inl (by decide), rfl⟩

theorem C56_ivec3_mod {mem : Mem α} {aP bP destP : Ptr} {a : V3 Int32} {b : V3 Int32} {r : V3 Int32} (h_a : HoldsI mem aP a.list) (h_b : HoldsI mem bP b.list) (r_dest : Room mem destP 3) (s_a_dest : Apart aP 3 destP 3) (s_b_dest : Apart bP 3 destP 3) (h : I.glm_ivec3_mod a b = some r) :
    CI.glm_ivec3_mod.run mem [aP.val, bP.val, destP.val] =
      some (none, writes mem [(destP, icells r.list)]) :=
  C55_ivec3_mod h_a h_b r_dest (Or.inr s_a_dest) (Or.inr s_b_dest) h
example : let mem : Mem α := [⟨false, icells (⟨7, 2, 5⟩ : V3 Int32).list⟩, ⟨false, icells (⟨7, 2, 5⟩ : V3 Int32).list⟩, ⟨true, List.replicate 3 .undef⟩]
    HoldsI mem (0, 0) (⟨7, 2, 5⟩ : V3 Int32).list ∧ HoldsI mem (1, 0) (⟨7, 2, 5⟩ : V3 Int32).list ∧ Room mem (2, 0) 3 ∧ Apart (0, 0) 3 (2, 0) 3 ∧ Apart (1, 0) 3 (2, 0) 3 ∧ (I.glm_ivec3_mod (⟨7, 2, 5⟩ : V3 Int32) (⟨7, 2, 5⟩ : V3 Int32)).isSome = true :=
  ⟨.block rfl, .block rfl, .block rfl rfl, Or.inl (by decide), Or.inl (by decide), rfl⟩

theorem C56_ivec3_addadd {mem : Mem α} {aP bP destP : Ptr} {a : V3 Int32} {b : V3 Int32} {dest : V3 Int32} {r : V3 Int32} (h_a : HoldsI mem aP a.list) (h_b : HoldsI mem bP b.list) (h_dest : HoldsI mem destP dest.list) (r_dest : Room mem destP 3) (s_a_dest : Apart aP 3 destP 3) (s_b_dest : Apart bP 3 destP 3) (h : I.glm_ivec3_addadd a b dest = some r) :
    CI.glm_ivec3_addadd.run mem [aP.val, bP.val, destP.val] =
      some (none, writes mem [(destP, icells r.list)]) :=
  C55_ivec3_addadd h_a h_b h_dest r_dest (Or.inr s_a_dest) (Or.inr s_b_dest) h
example : let mem : Mem α := [⟨false, icells (⟨7, 2, 5⟩ : V3 Int32).list⟩, ⟨false, icells (⟨7, 2, 5⟩ : V3 Int32).list⟩, ⟨true, icells (⟨7, 2, 5⟩ : V3 Int32).list⟩]
    HoldsI mem (0, 0) (⟨7, 2, 5⟩ : V3 Int32).list ∧ HoldsI mem (1, 0) (⟨7, 2, 5⟩ : V3 Int32).list ∧ HoldsI mem (2, 0) (⟨7, 2, 5⟩ : V3 Int32).list ∧ Room mem (2, 0) 3 ∧ Apart (0, 0) 3 (2, 0) 3 ∧ Apart (1, 0) 3 (2, 0) 3 ∧ (I.glm_ivec3_addadd (⟨7, 2, 5⟩ : V3 Int32) (⟨7, 2, 5⟩ : V3 Int32) (⟨7, 2, 5⟩ : V3 Int32)).isSome = true :=
  ⟨.block rfl, .block rfl, .block rfl, .block rfl rfl, Or.inl (by decide), Or.inl (by decide), rfl⟩

theorem C56_ivec3_addadds {mem : Mem α} {aP destP : Ptr} {a : V3 Int32} {s : Int32} {dest : V3 Int32} {r : V3 Int32} (h_a : HoldsI mem aP a.list) (h_dest : HoldsI mem destP dest.list) (r_dest : Room mem destP 3) (s_a_dest : Apart aP 3 destP 3) (h : I.glm_ivec3_addadds a s dest = some r) :
    CI.glm_ivec3_addadds.run mem [aP.val, .i s.toInt, destP.val] =
      some (none, writes mem [(destP, icells r.list)]) :=
  C55_ivec3_addadds h_a h_dest r_dest (Or.inr s_a_dest) h
example : let mem : Mem α := [⟨false, icells (⟨7, 2, 5⟩ : V3 Int32).list⟩, ⟨true, icells (⟨7, 2, 5⟩ : V3 Int32).list⟩]
    HoldsI mem (0, 0) (⟨7, 2, 5⟩ : V3 Int32).list ∧ HoldsI mem (1, 0) (⟨7, 2, 5⟩ : V3 Int32).list ∧ Room mem (1, 0) 3 ∧ Apart (0, 0) 3 (1, 0) 3 ∧ (I.glm_ivec3_addadds (⟨7, 2, 5⟩ : V3 Int32) (2 : Int32) (⟨7, 2, 5⟩ : V3 Int32)).isSome = true :=
  ⟨.block rfl, .block rfl, .block rfl rfl, Or.inl (by decide), rfl⟩

theorem C56_ivec3_subadd {mem : Mem α} {aP bP destP : Ptr} {a : V3 Int32} {b : V3 Int32} {dest : V3 Int32} {r : V3 Int32} (h_a : HoldsI mem aP a.list) (h_b : HoldsI mem bP b.list) (h_dest : HoldsI mem destP dest.list) (r_dest : Room mem destP 3) (s_a_dest : Apart aP 3 destP 3) (s_b_dest : Apart bP 3 destP 3) (h : I.glm_ivec3_subadd a b dest = some r) :
    CI.glm_ivec3_subadd.run mem [aP.val, bP.val, destP.val] =
      some (none, writes mem [(destP, icells r.list)]) :=
  C55_ivec3_subadd h_a h_b h_dest r_dest (Or.inr s_a_dest) (Or.inr s_b_dest) h
example : let mem : Mem α := [⟨false, icells (⟨7, 2, 5⟩ : V3 Int32).list⟩, ⟨false, icells (⟨7, 2, 5⟩ : V3 Int32).list⟩, ⟨true, icells (⟨7, 2, 5⟩ : V3 Int32).list⟩]
    HoldsI mem (0, 0) (⟨7, 2, 5⟩ : V3 Int32).list ∧ HoldsI mem (1, 0) (⟨7, 2, 5⟩ : V3 Int32).list ∧ HoldsI mem (2, 0) (⟨7, 2, 5⟩ : V3 Int32).list ∧ Room mem (2, 0) 3 ∧ Apart (0, 0) 3 (2, 0) 3 ∧ Apart (1, 0) 3 (2, 0) 3 ∧ (I.glm_ivec3_subadd (⟨7, 2, 5⟩ : V3 Int32) (⟨7, 2, 5⟩ : V3 Int32) (⟨7, 2, 5⟩ : V3 Int32)).isSome = true :=
  ⟨.block rfl, .block rfl, .block rfl, .block rfl rfl, Or.inl (by decide), Or.inl (by decide), rfl⟩

theorem C56_ivec3_subadds {mem : Mem α} {aP destP : Ptr} {a : V3 Int32} {s : Int32} {dest : V3 Int32} {r : V3 Int32} (h_a : HoldsI mem aP a.list) (h_dest : HoldsI mem destP dest.list) (r_dest : Room mem destP 3) (s_a_dest : Apart aP 3 destP 3) (h : I.glm_ivec3_subadds a s dest = some r) :
    CI.glm_ivec3_subadds.run mem [aP.val, .i s.toInt, destP.val] =
      some (none, writes mem [(destP, icells r.list)]) :=
  C55_ivec3_subadds h_a h_dest r_dest (Or.inr s_a_dest) h
example : let mem : Mem α := [⟨false, icells (⟨7, 2, 5⟩ : V3 Int32).list⟩, ⟨true, icells (⟨7, 2, 5⟩ : V3 Int32).list⟩]
    HoldsI mem (0, 0) (⟨7, 2, 5⟩ : V3 Int32).list ∧ HoldsI mem (1, 0) (⟨7, 2, 5⟩ : V3 Int32).list ∧ Room mem (1, 0) 3 ∧ Apart (0, 0) 3 (1, 0) 3 ∧ (I.glm_ivec3_subadds (⟨7, 2, 5⟩ : V3 Int32) (2 : Int32) (⟨7, 2, 5⟩ : V3 Int32)).isSome = true :=
  ⟨.block rfl, .block rfl, .block rfl rfl, Or.inl (by decide), rfl⟩

theorem C56_ivec3_muladd {mem : Mem α} {aP bP destP : Ptr} {a : V3 Int32} {b : V3 Int32} {dest : V3 Int32} {r : V3 Int32} (h_a : HoldsI mem aP a.list) (h_b : HoldsI mem bP b.list) (h_dest : HoldsI mem destP dest.list) (r_dest : Room mem destP 3) (s_a_dest : Apart aP 3 destP 3) (s_b_dest : Apart bP 3 destP 3) (h : I.glm_ivec3_muladd a b dest = some r) :
    CI.glm_ivec3_muladd.run mem [aP.val, bP.val, destP.val] =
      some (none, writes mem [(destP, icells r.list)]) :=
  C55_ivec3_muladd h_a h_b h_dest r_dest (Or.inr s_a_dest) (Or.inr s_b_dest) h
example : let mem : Mem α := [⟨false, icells (⟨7, 2, 5⟩ : V3 Int32).list⟩, ⟨false, icells (⟨7, 2, 5⟩ : V3 Int32).list⟩, ⟨true, icells (⟨7, 2, 5⟩ : V3 Int32).list⟩]
    HoldsI mem (0, 0) (⟨7, 2, 5⟩ : V3 Int32).list ∧ HoldsI mem (1, 0) (⟨7, 2, 5⟩ : V3 Int32).list ∧ HoldsI mem (2, 0) (⟨7, 2, 5⟩ : V3 Int32).list ∧ Room mem (2, 0) 3 ∧ Apart (0, 0) 3 (2, 0) 3 ∧ Apart (1, 0) 3 (2, 0) 3 ∧ (I.glm_ivec3_muladd (⟨7, 2, 5⟩ : V3 Int32) (⟨7, 2, 5⟩ : V3 Int32) (⟨7, 2, 5⟩ : V3 Int32)).isSome = true :=
  ⟨.block rfl, .block rfl, .block rfl, .block rfl rfl, Or.inl (by decide), Or.inl (by decide), rfl⟩

theorem C56_ivec3_muladds {mem : Mem α} {aP destP : Ptr} {a : V3 Int32} {s : Int32} {dest : V3 Int32} {r : V3 Int32} (h_a : HoldsI mem aP a.list) (h_dest : HoldsI mem destP dest.list) (r_dest : Room mem destP 3) (s_a_dest : Apart aP 3 destP 3) (h : I.glm_ivec3_muladds a s dest = some r) :
    CI.glm_ivec3_muladds.run mem [aP.val, .i s.toInt, destP.val] =
      some (none, writes mem [(destP, icells r.list)]) :=
  C55_ivec3_muladds h_a h_dest r_dest (Or.inr s_a_dest) h
example : let mem : Mem α := [⟨false, icells (⟨7, 2, 5⟩ : V3 Int32).list⟩, ⟨true, icells (⟨7, 2, 5⟩ : V3 Int32).list⟩]
    HoldsI mem (0, 0) (⟨7, 2, 5⟩ : V3 Int32).list ∧ HoldsI mem (1, 0) (⟨7, 2, 5⟩ : V3 Int32).list ∧ Room mem (1, 0) 3 ∧ Apart (0, 0) 3 (1, 0) 3 ∧ (I.glm_ivec3_muladds (⟨7, 2, 5⟩ : V3 Int32) (2 : Int32) (⟨7, 2, 5⟩ : V3 Int32)).isSome = true :=
  ⟨.block rfl, .block rfl, .block rfl rfl, Or.inl (by decide), rfl⟩

theorem C56_ivec3_maxadd {mem : Mem α} {aP bP destP : Ptr} {a : V3 Int32} {b : V3 Int32} {dest : V3 Int32} {r : V3 Int32} (h_a : HoldsI mem aP a.list) (h_b : HoldsI mem bP b.list) (h_dest : HoldsI mem destP dest.list) (r_dest : Room mem destP 3) (s_a_dest : Apart aP 3 destP 3) (s_b_dest : Apart bP 3 destP 3) (h : I.glm_ivec3_maxadd a b dest = some r) :
    CI.glm_ivec3_maxadd.run mem [aP.val, bP.val, destP.val] =
      some (none, writes mem [(destP, icells r.list)]) :=
  C55_ivec3_maxadd h_a h_b h_dest r_dest (Or.inr s_a_dest) (Or.inr s_b_dest) h
example : let mem : Mem α := [⟨false, icells (⟨7, 2, 5⟩ : V3 Int32).list⟩, ⟨false, icells (⟨7, 2, 5⟩ : V3 Int32).list⟩, ⟨true, icells (⟨7, 2, 5⟩ : V3 Int32).list⟩]
    HoldsI mem (0, 0) (⟨7, 2, 5⟩ : V3 Int32).list ∧ HoldsI mem (1, 0) (⟨7, 2, 5⟩ : V3 Int32).list ∧ HoldsI mem (2, 0) (⟨7, 2, 5⟩ : V3 Int32).list ∧ Room mem (2, 0) 3 ∧ Apart (0, 0) 3 (2, 0) 3 ∧ Apart (1, 0) 3 (2, 0) 3 ∧ (I.glm_ivec3_maxadd (⟨7, 2, 5⟩ : V3 Int32) (⟨7, 2, 5⟩ : V3 Int32) (⟨7, 2, 5⟩ : V3 Int32)).isSome = true :=
  ⟨.block rfl, .block rfl, .block rfl, .block rfl rfl, Or.inl (by decide), Or.inl (by decide), rfl⟩

theorem C56_ivec3_minadd {mem : Mem α} {aP bP destP : Ptr} {a : V3 Int32} {b : V3 Int32} {dest : V3 Int32} {r : V3 Int32} (h_a : HoldsI mem aP a.list) (h_b : HoldsI mem bP b.list) (h_dest : HoldsI mem destP dest.list) (r_dest : Room mem destP 3) (s_a_dest : Apart aP 3 destP 3) (s_b_dest : Apart bP 3 destP 3) (h : I.glm_ivec3_minadd a b dest = some r) :
    CI.glm_ivec3_minadd.run mem [aP.val, bP.val, destP.val] =
      some (none, writes mem [(destP, icells r.list)]) :=
  C55_ivec3_minadd h_a h_b h_dest r_dest (Or.inr s_a_dest) (Or.inr s_b_dest) h
example : let mem : Mem α := [⟨false, icells (⟨7, 2, 5⟩ : V3 Int32).list⟩, ⟨false, icells (⟨7, 2, 5⟩ : V3 Int32).list⟩, ⟨true, icells (⟨7, 2, 5⟩ : V3 Int32).list⟩]
    HoldsI mem (0, 0) (⟨7, 2, 5⟩ : V3 Int32).list ∧ HoldsI mem (1, 0) (⟨7, 2, 5⟩ : V3 Int32).list ∧ HoldsI mem (2, 0) (⟨7, 2, 5⟩ : V3 Int32).list ∧ Room mem (2, 0) 3 ∧ Apart (0, 0) 3 (2, 0) 3 ∧ Apart (1, 0) 3 (2, 0) 3 ∧ (I.glm_ivec3_minadd (⟨7, 2, 5⟩ : V3 Int32) (⟨7, 2, 5⟩ : V3 Int32) (⟨7, 2, 5⟩ : V3 Int32)).isSome = true :=
  ⟨.block rfl, .block rfl, .block rfl, .block rfl rfl, Or.inl (by decide), Or.inl (by decide), rfl⟩

theorem C56_ivec3_subsub {mem : Mem α} {aP bP destP : Ptr} {a : V3 Int32} {b : V3 Int32} {dest : V3 Int32} {r : V3 Int32} (h_a : HoldsI mem aP a.list) (h_b : HoldsI mem bP b.list) (h_dest : HoldsI mem destP dest.list) (r_dest : Room mem destP 3) (s_a_dest : Apart aP 3 destP 3) (s_b_dest : Apart bP 3 destP 3) (h : I.glm_ivec3_subsub a b dest = some r) :
    CI.glm_ivec3_subsub.run mem [aP.val, bP.val, destP.val] =
      some (none, writes mem [(destP, icells r.list)]) :=
  C55_ivec3_subsub h_a h_b h_dest r_dest (Or.inr s_a_dest) (Or.inr s_b_dest) h
example : let mem : Mem α := [⟨false, icells (⟨7, 2, 5⟩ : V3 Int32).list⟩, ⟨false, icells (⟨7, 2, 5⟩ : V3 Int32).list⟩, ⟨true, icells (⟨7, 2, 5⟩ : V3 Int32).list⟩]
    HoldsI mem (0, 0) (⟨7, 2, 5⟩ : V3 Int32).list ∧ HoldsI mem (1, 0) (⟨7, 2, 5⟩ : V3 Int32).list ∧ HoldsI mem (2, 0) (⟨7, 2, 5⟩ : V3 Int32).list ∧ Room mem (2, 0) 3 ∧ Apart (0, 0) 3 (2, 0) 3 ∧ Apart (1, 0) 3 (2, 0) 3 ∧ (I.glm_ivec3_subsub (⟨7, 2, 5⟩ : V3 Int32) (⟨7, 2, 5⟩ : V3 Int32) (⟨7, 2, 5⟩ : V3 Int32)).isSome = true :=
  ⟨.block rfl, .block rfl, .block rfl, .block rfl rfl, Or.inl (by decide), Or.inl (by decide), rfl⟩

theorem C56_ivec3_subsubs {mem : Mem α} {aP destP : Ptr} {a : V3 Int32} {s : Int32} {dest : V3 Int32} {r : V3 Int32} (h_a : HoldsI mem aP a.list) (h_dest : HoldsI mem destP dest.list) (r_dest : Room mem destP 3) (s_a_dest : Apart aP 3 destP 3) (h : I.glm_ivec3_subsubs a s dest = some r) :
    CI.glm_ivec3_subsubs.run mem [aP.val, .i s.toInt, destP.val] =
      some (none, writes mem [(destP, icells r.list)]) :=
  C55_ivec3_subsubs h_a h_dest r_dest (Or.inr s_a_dest) h
example : let mem : Mem α := [⟨false, icells (⟨7, 2, 5⟩ : V3 Int32).list⟩, ⟨true, icells (⟨7, 2, 5⟩ : V3 Int32).list⟩]
    HoldsI mem (0, 0) (⟨7, 2, 5⟩ : V3 Int32).list ∧ HoldsI mem (1, 0) (⟨7, 2, 5⟩ : V3 Int32).list ∧ Room mem (1, 0) 3 ∧ Apart (0, 0) 3 (1, 0) 3 ∧ (I.glm_ivec3_subsubs (⟨7, 2, 5⟩ : V3 Int32) (2 : Int32) (⟨7, 2, 5⟩ : V3 Int32)).isSome = true :=
  ⟨.block rfl, .block rfl, .block rfl rfl, Or.inl (by decide), rfl⟩

theorem C56_ivec3_addsub {mem : Mem α} {aP bP destP : Ptr} {a : V3 Int32} {b : V3 Int32} {dest : V3 Int32} {r : V3 Int32} (h_a : HoldsI mem aP a.list) (h_b : HoldsI mem bP b.list) (h_dest : HoldsI mem destP dest.list) (r_dest : Room mem destP 3) (s_a_dest : Apart aP 3 destP 3) (s_b_dest : Apart bP 3 destP 3) (h : I.glm_ivec3_addsub a b dest = some r) :
    CI.glm_ivec3_addsub.run mem [aP.val, bP.val, destP.val] =
      some (none, writes mem [(destP, icells r.list)]) :=
  C55_ivec3_addsub h_a h_b h_dest r_dest (Or.inr s_a_dest) (Or.inr s_b_dest) h
example : let mem : Mem α := [⟨false, icells (⟨7, 2, 5⟩ : V3 Int32).list⟩, ⟨false, icells (⟨7, 2, 5⟩ : V3 Int32).list⟩, ⟨true, icells (⟨7, 2, 5⟩ : V3 Int32).list⟩]
    HoldsI mem (0, 0) (⟨7, 2, 5⟩ : V3 Int32).list ∧ HoldsI mem (1, 0) (⟨7, 2, 5⟩ : V3 Int32).list ∧ HoldsI mem (2, 0) (⟨7, 2, 5⟩ : V3 Int32).list ∧ Room mem (2, 0) 3 ∧ Apart (0, 0) 3 (2, 0) 3 ∧ Apart (1, 0) 3 (2, 0) 3 ∧ (I.glm_ivec3_addsub (⟨7, 2, 5⟩ : V3 Int32) (⟨7, 2, 5⟩ : V3 Int32) (⟨7, 2, 5⟩ : V3 Int32)).isSome = true :=
  ⟨.block rfl, .block rfl, .block rfl, .block rfl rfl, Or.inl (by decide), Or.inl (by decide), rfl⟩

theorem C56_ivec3_addsubs {mem : Mem α} {aP destP : Ptr} {a : V3 Int32} {s : Int32} {dest : V3 Int32} {r : V3 Int32} (h_a : HoldsI mem aP a.list) (h_dest : HoldsI mem destP dest.list) (r_dest : Room mem destP 3) (s_a_dest : Apart aP 3 destP 3) (h : I.glm_ivec3_addsubs a s dest = some r) :
    CI.glm_ivec3_addsubs.run mem [aP.val, .i s.toInt, destP.val] =
      some (none, writes mem [(destP, icells r.list)]) :=
  C55_ivec3_addsubs h_a h_dest r_dest (Or.inr s_a_dest) h
example : let mem : Mem α := [⟨false, icells (⟨7, 2, 5⟩ : V3 Int32).list⟩, ⟨true, icells (⟨7, 2, 5⟩ : V3 Int32).list⟩]
    HoldsI mem (0, 0) (⟨7, 2, 5⟩ : V3 Int32).list ∧ HoldsI mem (1, 0) (⟨7, 2, 5⟩ : V3 Int32).list ∧ Room mem (1, 0) 3 ∧ Apart (0, 0) 3 (1, 0) 3 ∧ (I.glm_ivec3_addsubs (⟨7, 2, 5⟩ : V3 Int32) (2 : Int32) (⟨7, 2, 5⟩ : V3 Int32)).isSome = true :=
  ⟨.block rfl, .block rfl, .block rfl rfl, Or.inl (by decide), rfl⟩

theorem C56_ivec3_mulsub {mem : Mem α} {aP bP destP : Ptr} {a : V3 Int32} {b : V3 Int32} {dest : V3 Int32} {r : V3 Int32} (h_a : HoldsI mem aP a.list) (h_b : HoldsI mem bP b.list) (h_dest : HoldsI mem destP dest.list) (r_dest : Room mem destP 3) (s_a_dest : Apart aP 3 destP 3) (s_b_dest : Apart bP 3 destP 3) (h : I.glm_ivec3_mulsub a b dest = some r) :
    CI.glm_ivec3_mulsub.run mem [aP.val, bP.val, destP.val] =
      some (none, writes mem [(destP, icells r.list)]) :=
  C55_ivec3_mulsub h_a h_b h_dest r_dest (Or.inr s_a_dest) (Or.inr s_b_dest) h
example : let mem : Mem α := [⟨false, icells (⟨7, 2, 5⟩ : V3 Int32).list⟩, ⟨false, icells (⟨7, 2, 5⟩ : V3 Int32).list⟩, ⟨true, icells (⟨7, 2, 5⟩ : V3 Int32).list⟩]
    HoldsI mem (0, 0) (⟨7, 2, 5⟩ : V3 Int32).list ∧ HoldsI mem (1, 0) (⟨7, 2, 5⟩ : V3 Int32).list ∧ HoldsI mem (2, 0) (⟨7, 2, 5⟩ : V3 Int32).list ∧ Room mem (2, 0) 3 ∧ Apart (0, 0) 3 (2, 0) 3 ∧ Apart (1, 0) 3 (2, 0) 3 ∧ (I.glm_ivec3_mulsub (⟨7, 2, 5⟩ : V3 Int32) (⟨7, 2, 5⟩ : V3 Int32) (⟨7, 2, 5⟩ : V3 Int32)).isSome = true :=
  ⟨.block rfl, .block rfl, .block rfl, .block rfl rfl, Or.inl (by decide), Or.inl (by decide), rfl⟩

theorem C56_ivec3_mulsubs {mem : Mem α} {aP destP : Ptr} {a : V3 Int32} {s : Int32} {dest : V3 Int32} {r : V3 Int32} (h_a : HoldsI mem aP a.list) (h_dest : HoldsI mem destP dest.list) (r_dest : Room mem destP 3) (s_a_dest : Apart aP 3 destP 3) (h : I.glm_ivec3_mulsubs a s dest = some r) :
    CI.glm_ivec3_mulsubs.run mem [aP.val, .i s.toInt, destP.val] =
      some (none, writes mem [(destP, icells r.list)]) :=
  C55_ivec3_mulsubs h_a h_dest r_dest (Or.inr s_a_dest) h
example : let mem : Mem α := [⟨false, icells (⟨7, 2, 5⟩ : V3 Int32).list⟩, ⟨true, icells (⟨7, 2, 5⟩ : V3 Int32).list⟩]
    HoldsI mem (0, 0) (⟨7, 2, 5⟩ : V3 Int32).list ∧ HoldsI mem (1, 0) (⟨7, 2, 5⟩ : V3 Int32).list ∧ Room mem (1, 0) 3 ∧ Apart (0, 0) 3 (1, 0) 3 ∧ (I.glm_ivec3_mulsubs (⟨7, 2, 5⟩ : V3 Int32) (2 : Int32) (⟨7, 2, 5⟩ : V3 Int32)).isSome = true :=
  ⟨.block rfl, .block rfl, .block rfl rfl, Or.inl (by decide), rfl⟩

theorem C56_ivec3_maxsub {mem : Mem α} {aP bP destP : Ptr} {a : V3 Int32} {b : V3 Int32} {dest : V3 Int32} {r : V3 Int32} (h_a : HoldsI mem aP a.list) (h_b : HoldsI mem bP b.list) (h_dest : HoldsI mem destP dest.list) (r_dest : Room mem destP 3) (s_a_dest : Apart aP 3 destP 3) (s_b_dest : Apart bP 3 destP 3) (h : I.glm_ivec3_maxsub a b dest = some r) :
    CI.glm_ivec3_maxsub.run mem [aP.val, bP.val, destP.val] =
      some (none, writes mem [(destP, icells r.list)]) :=
  C55_ivec3_maxsub h_a h_b h_dest r_dest (Or.inr s_a_dest) (Or.inr s_b_dest) h
example : let mem : Mem α := [⟨false, icells (⟨7, 2, 5⟩ : V3 Int32).list⟩, ⟨false, icells (⟨7, 2, 5⟩ : V3 Int32).list⟩, ⟨true, icells (⟨7, 2, 5⟩ : V3 Int32).list⟩]
    HoldsI mem (0, 0) (⟨7, 2, 5⟩ : V3 Int32).list ∧ HoldsI mem (1, 0) (⟨7, 2, 5⟩ : V3 Int32).list ∧ HoldsI mem (2, 0) (⟨7, 2, 5⟩ : V3 Int32).list ∧ Room mem (2, 0) 3 ∧ Apart (0, 0) 3 (2, 0) 3 ∧ Apart (1, 0) 3 (2, 0) 3 ∧ (I.glm_ivec3_maxsub (⟨7, 2, 5⟩ : V3 Int32) (⟨7, 2, 5⟩ : V3 Int32) (⟨7, 2, 5⟩ : V3 Int32)).isSome = true :=
  ⟨.block rfl, .block rfl, .block rfl, .block rfl rfl, Or.inl (by decide), Or.inl (by decide), rfl⟩

theorem C56_ivec3_minsub {mem : Mem α} {aP bP destP : Ptr} {a : V3 Int32} {b : V3 Int32} {dest : V3 Int32} {r : V3 Int32} (h_a : HoldsI mem aP a.list) (h_b : HoldsI mem bP b.list) (h_dest : HoldsI mem destP dest.list) (r_dest : Room mem destP 3) (s_a_dest : Apart aP 3 destP 3) (s_b_dest : Apart bP 3 destP 3) (h : I.glm_ivec3_minsub a b dest = some r) :
    CI.glm_ivec3_minsub.run mem [aP.val, bP.val, destP.val] =
      some (none, writes mem [(destP, icells r.list)]) :=
  C55_ivec3_minsub h_a h_b h_dest r_dest (Or.inr s_a_dest) (Or.inr s_b_dest) h
example : let mem : Mem α := [⟨false, icells (⟨7, 2, 5⟩ : V3 Int32).list⟩, ⟨false, icells (⟨7, 2, 5⟩ : V3 Int32).list⟩, ⟨true, icells (⟨7, 2, 5⟩ : V3 Int32).list⟩]
    HoldsI mem (0, 0) (⟨7, 2, 5⟩ : V3 Int32).list ∧ HoldsI mem (1, 0) (⟨7, 2, 5⟩ : V3 Int32).list ∧ HoldsI mem (2, 0) (⟨7, 2, 5⟩ : V3 Int32).list ∧ Room mem (2, 0) 3 ∧ Apart (0, 0) 3 (2, 0) 3 ∧ Apart (1, 0) 3 (2, 0) 3 ∧ (I.glm_ivec3_minsub (⟨7, 2, 5⟩ : V3 Int32) (⟨7, 2, 5⟩ : V3 Int32) (⟨7, 2, 5⟩ : V3 Int32)).isSome = true :=
  ⟨.block rfl, .block rfl, .block rfl, .block rfl rfl, Or.inl (by decide), Or.inl (by decide), rfl⟩

theorem C56_ivec3_distance2 {mem : Mem α} {aP bP : Ptr} {a : V3 Int32} {b : V3 Int32} {r : Int32} (h_a : HoldsI mem aP a.list) (h_b : HoldsI mem bP b.list) (h : I.glm_ivec3_distance2 a b = some r) :
    CI.glm_ivec3_distance2.run mem [aP.val, bP.val] =
      some (some (.i r.toInt), mem) := by
  exact itransfer (((R.nil _).addR h_b.has .nil).addR h_a.has (.skip .nil)) (.p rfl (.p rfl .nil)) (glm_ivec3_distance2_irun _ _ h) rfl
example : let mem : Mem α := [⟨false, icells (⟨7, 2, 5⟩ : V3 Int32).list⟩, ⟨false, icells (⟨7, 2, 5⟩ : V3 Int32).list⟩]
    HoldsI mem (0, 0) (⟨7, 2, 5⟩ : V3 Int32).list ∧ HoldsI mem (1, 0) (⟨7, 2, 5⟩ : V3 Int32).list ∧ (I.glm_ivec3_distance2 (⟨7, 2, 5⟩ : V3 Int32) (⟨7, 2, 5⟩ : V3 Int32)).isSome = true :=
  ⟨.block rfl, .block rfl, rfl⟩

theorem C56_ivec3_distance {mem : Mem α} {aP bP : Ptr} {a : V3 Int32} {b : V3 Int32} {r : α} (h_a : HoldsI mem aP a.list) (h_b : HoldsI mem bP b.list) (h : I.glm_ivec3_distance (α := α) a b = some r) :
    CI.glm_ivec3_distance.run mem [aP.val, bP.val] =
      some (some (.f r), mem) := by
  exact itransfer (((R.nil _).addR h_b.has .nil).addR h_a.has (.skip .nil)) (.p rfl (.p rfl .nil)) (glm_ivec3_distance_irun _ _ h) rfl
example : let mem : Mem α := [⟨false, icells (⟨7, 2, 5⟩ : V3 Int32).list⟩, ⟨false, icells (⟨7, 2, 5⟩ : V3 Int32).list⟩]
    HoldsI mem (0, 0) (⟨7, 2, 5⟩ : V3 Int32).list ∧ HoldsI mem (1, 0) (⟨7, 2, 5⟩ : V3 Int32).list ∧ (I.glm_ivec3_distance (α := α) (⟨7, 2, 5⟩ : V3 Int32) (⟨7, 2, 5⟩ : V3 Int32)).isSome = true :=
  ⟨.block rfl, .block rfl, rfl⟩

theorem C56_ivec3_fill {mem : Mem α} {vP : Ptr} {val : Int32} {r : V3 Int32} (r_v : Room mem vP 3) (h : I.glm_ivec3_fill val = some r) :
    CI.glm_ivec3_fill.run mem [vP.val, .i val.toInt] =
      some (none, writes mem [(vP, icells r.list)]) := by
  exact itransfer ((R.nil _).addW r_v.has r_v .nil) (.p rfl (.i .nil)) (glm_ivec3_fill_irun _ h) rfl
example : let mem : Mem α := [⟨true, List.replicate 3 .undef⟩]
    Room mem (0, 0) 3 ∧ (I.glm_ivec3_fill (2 : Int32)).isSome = true :=
  ⟨.block rfl rfl, rfl⟩

theorem C56_ivec3_eq {mem : Mem α} {vP : Ptr} {v : V3 Int32} {val : Int32} {r : Bool} (h_v : HoldsI mem vP v.list) (h : I.glm_ivec3_eq v val = some r) :
    CI.glm_ivec3_eq.run mem [vP.val, .i val.toInt] =
      some (some (.b r), mem) := by
  exact itransfer ((R.nil _).addR h_v.has .nil) (.p rfl (.i .nil)) (glm_ivec3_eq_irun _ _ h) rfl
example : let mem : Mem α := [⟨false, icells (⟨7, 2, 5⟩ : V3 Int32).list⟩]
    HoldsI mem (0, 0) (⟨7, 2, 5⟩ : V3 Int32).list ∧ (I.glm_ivec3_eq (⟨7, 2, 5⟩ : V3 Int32) (2 : Int32)).isSome = true :=
  ⟨.block rfl, rfl⟩

theorem C56_ivec3_eqv {mem : Mem α} {aP bP : Ptr} {a : V3 Int32} {b : V3 Int32} {r : Bool} (h_a : HoldsI mem aP a.list) (h_b : HoldsI mem bP b.list) (h : I.glm_ivec3_eqv a b = some r) :
    CI.glm_ivec3_eqv.run mem [aP.val, bP.val] =
      some (some (.b r), mem) := by
  exact itransfer (((R.nil _).addR h_b.has .nil).addR h_a.has (.skip .nil)) (.p rfl (.p rfl .nil)) (glm_ivec3_eqv_irun _ _ h) rfl
example : let mem : Mem α := [⟨false, icells (⟨7, 2, 5⟩ : V3 Int32).list⟩, ⟨false, icells (⟨7, 2, 5⟩ : V3 Int32).list⟩]
    HoldsI mem (0, 0) (⟨7, 2, 5⟩ : V3 Int32).list ∧ HoldsI mem (1, 0) (⟨7, 2, 5⟩ : V3 Int32).list ∧ (I.glm_ivec3_eqv (⟨7, 2, 5⟩ : V3 Int32) (⟨7, 2, 5⟩ : V3 Int32)).isSome = true :=
  ⟨.block rfl, .block rfl, rfl⟩

theorem C56_ivec3_maxv {mem : Mem α} {aP bP destP : Ptr} {a : V3 Int32} {b : V3 Int32} {r : V3 Int32} (h_a : HoldsI mem aP a.list) (h_b : HoldsI mem bP b.list) (r_dest : Room mem destP 3) (s_a_dest : Apart aP 3 destP 3) (s_b_dest : Apart bP 3 destP 3) (h : I.glm_ivec3_maxv a b = some r) :
    CI.glm_ivec3_maxv.run mem [aP.val, bP.val, destP.val] =
      some (none, writes mem [(destP, icells r.list)]) :=
  C55_ivec3_maxv h_a h_b r_dest (Or.inr s_a_dest) (Or.inr s_b_dest) h
example : let mem : Mem α := [⟨false, icells (⟨7, 2, 5⟩ : V3 Int32).list⟩, ⟨false, icells (⟨7, 2, 5⟩ : V3 Int32).list⟩, ⟨true, List.replicate 3 .undef⟩]
    HoldsI mem (0, 0) (⟨7, 2, 5⟩ : V3 Int32).list ∧ HoldsI mem (1, 0) (⟨7, 2, 5⟩ : V3 Int32).list ∧ Room mem (2, 0) 3 ∧ Apart (0, 0) 3 (2, 0) 3 ∧ Apart (1, 0) 3 (2, 0) 3 ∧ (I.glm_ivec3_maxv (⟨7, 2, 5⟩ : V3 Int32) (⟨7, 2, 5⟩ : V3 Int32)).isSome = true :=
  ⟨.block rfl, .block rfl, .block rfl rfl, Or.inl (by decide), Or.inl (by decide), rfl⟩

theorem C56_ivec3_minv {mem : Mem α} {aP bP destP : Ptr} {a : V3 Int32} {b : V3 Int32} {r : V3 Int32} (h_a : HoldsI mem aP a.list) (h_b : HoldsI mem bP b.list) (r_dest : Room mem destP 3) (s_a_dest : Apart aP 3 destP 3) (s_b_dest : Apart bP 3 destP 3) (h : I.glm_ivec3_minv a b = some r) :
    CI.glm_ivec3_minv.run mem [aP.val, bP.val, destP.val] =
      some (none, writes mem [(destP, icells r.list)]) :=
  C55_ivec3_minv h_a h_b r_dest (Or.inr s_a_dest) (Or.inr s_b_dest) h
example : let mem : Mem α := [⟨false, icells (⟨7, 2, 5⟩ : V3 Int32).list⟩, ⟨false, icells (⟨7, 2, 5⟩ : V3 Int32).list⟩, ⟨true, List.replicate 3 .undef⟩]
    HoldsI mem (0, 0) (⟨7, 2, 5⟩ : V3 Int32).list ∧ HoldsI mem (1, 0) (⟨7, 2, 5⟩ : V3 Int32).list ∧ Room mem (2, 0) 3 ∧ Apart (0, 0) 3 (2, 0) 3 ∧ Apart (1, 0) 3 (2, 0) 3 ∧ (I.glm_ivec3_minv (⟨7, 2, 5⟩ : V3 Int32) (⟨7, 2, 5⟩ : V3 Int32)).isSome = true :=
  ⟨.block rfl, .block rfl, .block rfl rfl, Or.inl (by decide), Or.inl (by decide), rfl⟩

theorem C56_ivec3_clamp {mem : Mem α} {vP : Ptr} {v : V3 Int32} {minVal : Int32} {maxVal : Int32} {r : V3 Int32} (h_v : HoldsI mem vP v.list) (r_v : Room mem vP 3) (h : I.glm_ivec3_clamp v minVal maxVal = some r) :
    CI.glm_ivec3_clamp.run mem [vP.val, .i minVal.toInt, .i maxVal.toInt] =
      some (none, writes mem [(vP, icells r.list)]) := by
  exact itransfer ((R.nil _).addW h_v.has r_v .nil) (.p rfl (.i (.i .nil))) (glm_ivec3_clamp_irun _ _ _ h) rfl
example : let mem : Mem α := [⟨true, icells (⟨7, 2, 5⟩ : V3 Int32).list⟩]
    HoldsI mem (0, 0) (⟨7, 2, 5⟩ : V3 Int32).list ∧ Room mem (0, 0) 3 ∧ (I.glm_ivec3_clamp (⟨7, 2, 5⟩ : V3 Int32) (2 : Int32) (9 : Int32)).isSome = true :=
  ⟨.block rfl, .block rfl rfl, rfl⟩

theorem C56_ivec3_abs {mem : Mem α} {vP destP : Ptr} {v : V3 Int32} {r : V3 Int32} (h_v : HoldsI mem vP v.list) (r_dest : Room mem destP 3) (s_v_dest : Apart vP 3 destP 3) (h : I.glm_ivec3_abs v = some r) :
    CI.glm_ivec3_abs.run mem [vP.val, destP.val] =
      some (none, writes mem [(destP, icells r.list)]) :=
  C55_ivec3_abs h_v r_dest (Or.inr s_v_dest) h
example : let mem : Mem α := [⟨false, icells (⟨7, 2, 5⟩ : V3 Int32).list⟩, ⟨true, List.replicate 3 .undef⟩]
    HoldsI mem (0, 0) (⟨7, 2, 5⟩ : V3 Int32).list ∧ Room mem (1, 0) 3 ∧ Apart (0, 0) 3 (1, 0) 3 ∧ (I.glm_ivec3_abs (⟨7, 2, 5⟩ : V3 Int32)).isSome = true :=
  ⟨.block rfl, .block rfl rfl, Or.inl (by decide), rfl⟩

end Cglm

end C56IIvec3

section C56IIvec4

/-!
# C56: memory safety and framing (include/cglm/ivec4.h)

Called with initialised inputs and a writable destination that does not overlap them, and with inputs on which no
operation overflows or divides by zero, the function is defined, returns the value-level result and changes no
memory but its destination.
-/

set_option maxRecDepth 10000
set_option linter.unusedVariables false
set_option linter.unusedSectionVars false
set_option linter.unusedSimpArgs false

namespace Cglm
open CMem

variable {α : Type} [Add α] [Sub α] [Mul α] [Div α] [Neg α] [CFloat α] [CIntConv α]

theorem C56_ivec4 {mem : Mem α} {v3P destP : Ptr} {v3 : V3 Int32} {last : Int32} {r : V4 Int32} (h_v3 : HoldsI mem v3P v3.list) (r_dest : Room mem destP 4) (s_v3_dest : Apart v3P 3 destP 4) (h : I.glm_ivec4 v3 last = some r) :
    CI.glm_ivec4.run mem [v3P.val, .i last.toInt, destP.val] =
      some (none, writes mem [(destP, icells r.list)]) := by
  exact itransfer (((R.nil _).addW r_dest.has r_dest .nil).addR h_v3.has (.cons s_v3_dest .nil)) (.p rfl (.i (.p rfl .nil))) (glm_ivec4_irun _ _ h) rfl
example : let mem : Mem α := [⟨false, icells (⟨7, 2, 5⟩ : V3 Int32).list⟩, ⟨true, List.replicate 4 .undef⟩]
    HoldsI mem (0, 0) (⟨7, 2, 5⟩ : V3 Int32).list ∧ Room mem (1, 0) 4 ∧ Apart (0, 0) 3 (1, 0) 4 ∧ (I.glm_ivec4 (⟨7, 2, 5⟩ : V3 Int32) (2 : Int32)).isSome = true :=
  ⟨.block rfl, .block rfl rfl, Or.inl (by decide), rfl⟩

theorem C56_ivec4_copy {mem : Mem α} {aP destP : Ptr} {a : V4 Int32} {r : V4 Int32} (h_a : HoldsI mem aP a.list) (r_dest : Room mem destP 4) (s_a_dest : Apart aP 4 destP 4) (h : I.glm_ivec4_copy a = some r) :
    CI.glm_ivec4_copy.run mem [aP.val, destP.val] =
      some (none, writes mem [(destP, icells r.list)]) :=
  C55_ivec4_copy h_a r_dest (Or.inr s_a_dest) h
example : let mem : Mem α := [⟨false, icells (⟨7, 2, 5, 3⟩ : V4 Int32).list⟩, ⟨true, List.replicate 4 .undef⟩]
    HoldsI mem (0, 0) (⟨7, 2, 5, 3⟩ : V4 Int32).list ∧ Room mem (1, 0) 4 ∧ Apart (0, 0) 4 (1, 0) 4 ∧ (I.glm_ivec4_copy (⟨7, 2, 5, 3⟩ : V4 Int32)).isSome = true :=
  ⟨.block rfl, .block rfl rfl, Or.inl (by decide), rfl⟩

theorem C56_ivec4_zero {mem : Mem α} {vP : Ptr} {r : V4 Int32} (r_v : Room mem vP 4) (h : I.glm_ivec4_zero = some r) :
    CI.glm_ivec4_zero.run mem [vP.val] =
      some (none, writes mem [(vP, icells r.list)]) := by
  exact itransfer ((R.nil _).addW r_v.has r_v .nil) (.p rfl .nil) (glm_ivec4_zero_irun h) rfl
example : let mem : Mem α := [⟨true, List.replicate 4 .undef⟩]
    Room mem (0, 0) 4 ∧ (I.glm_ivec4_zero).isSome = true :=
  ⟨.block rfl rfl, rfl⟩

theorem C56_ivec4_one {mem : Mem α} {vP : Ptr} {r : V4 Int32} (r_v : Room mem vP 4) (h : I.glm_ivec4_one = some r) :
    CI.glm_ivec4_one.run mem [vP.val] =
      some (none, writes mem [(vP, icells r.list)]) := by
  exact itransfer ((R.nil _).addW r_v.has r_v .nil) (.p rfl .nil) (glm_ivec4_one_irun h) rfl
example : let mem : Mem α := [⟨true, List.replicate 4 .undef⟩]
    Room mem (0, 0) 4 ∧ (I.glm_ivec4_one).isSome = true :=
  ⟨.block rfl rfl, rfl⟩

theorem C56_ivec4_add {mem : Mem α} {aP bP destP : Ptr} {a : V4 Int32} {b : V4 Int32} {r : V4 Int32} (h_a : HoldsI mem aP a.list) (h_b : HoldsI mem bP b.list) (r_dest : Room mem destP 4) (s_a_dest : Apart aP 4 destP 4) (s_b_dest : Apart bP 4 destP 4) (h : I.glm_ivec4_add a b = some r) :
    CI.glm_ivec4_add.run mem [aP.val, bP.val, destP.val] =
      some (none, writes mem [(destP, icells r.list)]) :=
  C55_ivec4_add h_a h_b r_dest (Or.inr s_a_dest) (Or.inr s_b_dest) h
example : let mem : Mem α := [⟨false, icells (⟨7, 2, 5, 3⟩ : V4 Int32).list⟩, ⟨false, icells (⟨7, 2, 5, 3⟩ : V4 Int32).list⟩, ⟨true, List.replicate 4 .undef⟩]
    HoldsI mem (0, 0) (⟨7, 2, 5, 3⟩ : V4 Int32).list ∧ HoldsI mem (1, 0) (⟨7, 2, 5, 3⟩ : V4 Int32).list ∧ Room mem (2, 0) 4 ∧ Apart (0, 0) 4 (2, 0) 4 ∧ Apart (1, 0) 4 (2, 0) 4 ∧ (I.glm_ivec4_add (⟨7, 2, 5, 3⟩ : V4 Int32) (⟨7, 2, 5, 3⟩ : V4 Int32)).isSome = true :=
  ⟨.block rfl, .block rfl, .block rfl rfl, Or.inl (by decide), Or.inl (by decide), rfl⟩

theorem C56_ivec4_adds {mem : Mem α} {vP destP : Ptr} {v : V4 Int32} {s : Int32} {r : V4 Int32} (h_v : HoldsI mem vP v.list) (r_dest : Room mem destP 4) (s_v_dest : Apart vP 4 destP 4) (h : I.glm_ivec4_adds v s = some r) :
    CI.glm_ivec4_adds.run mem [vP.val, .i s.toInt, destP.val] =
      some (none, writes mem [(destP, icells r.list)]) :=
  C55_ivec4_adds h_v r_dest (Or.inr s_v_dest) h
example : let mem : Mem α := [⟨false, icells (⟨7, 2, 5, 3⟩ : V4 Int32).list⟩, ⟨true, List.replicate 4 .undef⟩]
    HoldsI mem (0, 0) (⟨7, 2, 5, 3⟩ : V4 Int32).list ∧ Room mem (1, 0) 4 ∧ Apart (0, 0) 4 (1, 0) 4 ∧ (I.glm_ivec4_adds (⟨7, 2, 5, 3⟩ : V4 Int32) (2 : Int32)).isSome = true :=
  ⟨.block rfl, .block rfl rfl, Or.inl (by decide), rfl⟩

theorem C56_ivec4_sub {mem : Mem α} {aP bP destP : Ptr} {a : V4 Int32} {b : V4 Int32} {r : V4 Int32} (h_a : HoldsI mem aP a.list) (h_b : HoldsI mem bP b.list) (r_dest : Room mem destP 4) (s_a_dest : Apart aP 4 destP 4) (s_b_dest : Apart bP 4 destP 4) (h : I.glm_ivec4_sub a b = some r) :
    CI.glm_ivec4_sub.run mem [aP.val, bP.val, destP.val] =
      some (none, writes mem [(destP, icells r.list)]) :=
  C55_ivec4_sub h_a h_b r_dest (Or.inr s_a_dest) (Or.inr s_b_dest) h
example : let mem : Mem α := [⟨false, icells (⟨7, 2, 5, 3⟩ : V4 Int32).list⟩, ⟨false, icells (⟨7, 2, 5, 3⟩ : V4 Int32).list⟩, ⟨true, List.replicate 4 .undef⟩]
    HoldsI mem (0, 0) (⟨7, 2, 5, 3⟩ : V4 Int32).list ∧ HoldsI mem (1, 0) (⟨7, 2, 5, 3⟩ : V4 Int32).list ∧ Room mem (2, 0) 4 ∧ Apart (0, 0) 4 (2, 0) 4 ∧ Apart (1, 0) 4 (2, 0) 4 ∧ (I.glm_ivec4_sub (⟨7, 2, 5, 3⟩ : V4 Int32) (⟨7, 2, 5, 3⟩ : V4 Int32)).isSome = true :=
  ⟨.block rfl, .block rfl, .block rfl rfl, Or.inl (by decide), Or.inl (by decide), rfl⟩

theorem C56_ivec4_subs {mem : Mem α} {vP destP : Ptr} {v : V4 Int32} {s : Int32} {r : V4 Int32} (h_v : HoldsI mem vP v.list) (r_dest : Room mem destP 4) (s_v_dest : Apart vP 4 destP 4) (h : I.glm_ivec4_subs v s = some r) :
    CI.glm_ivec4_subs.run mem [vP.val, .i s.toInt, destP.val] =
      some (none, writes mem [(destP, icells r.list)]) :=
  C55_ivec4_subs h_v r_dest (Or.inr s_v_dest) h
example : let mem : Mem α := [⟨false, icells (⟨7, 2, 5, 3⟩ : V4 Int32).list⟩, ⟨true, List.replicate 4 .undef⟩]
    HoldsI mem (0, 0) (⟨7, 2, 5, 3⟩ : V4 Int32).list ∧ Room mem (1, 0) 4 ∧ Apart (0, 0) 4 (1, 0) 4 ∧ (I.glm_ivec4_subs (⟨7, 2, 5, 3⟩ : V4 Int32) (2 : Int32)).isSome = true :=
  ⟨.block rfl, .block rfl rfl, Or.inl (by decide), rfl⟩

theorem C56_ivec4_mul {mem : Mem α} {aP bP destP : Ptr} {a : V4 Int32} {b : V4 Int32} {r : V4 Int32} (h_a : HoldsI mem aP a.list) (h_b : HoldsI mem bP b.list) (r_dest : Room mem destP 4) (s_a_dest : Apart aP 4 destP 4) (s_b_dest : Apart bP 4 destP 4) (h : I.glm_ivec4_mul a b = some r) :
    CI.glm_ivec4_mul.run mem [aP.val, bP.val, destP.val] =
      some (none, writes mem [(destP, icells r.list)]) :=
  C55_ivec4_mul h_a h_b r_dest (Or.inr s_a_dest) (Or.inr s_b_dest) h
example : let mem : Mem α := [⟨false, icells (⟨7, 2, 5, 3⟩ : V4 Int32).list⟩, ⟨false, icells (⟨7, 2, 5, 3⟩ : V4 Int32).list⟩, ⟨true, List.replicate 4 .undef⟩]
    HoldsI mem (0, 0) (⟨7, 2, 5, 3⟩ : V4 Int32).list ∧ HoldsI mem (1, 0) (⟨7, 2, 5, 3⟩ : V4 Int32).list ∧ Room mem (2, 0) 4 ∧ Apart (0, 0) 4 (2, 0) 4 ∧ Apart (1, 0) 4 (2, 0) 4 ∧ (I.glm_ivec4_mul (⟨7, 2, 5, 3⟩ : V4 Int32) (⟨7, 2, 5, 3⟩ : V4 Int32)).isSome = true :=
  ⟨.block rfl, .block rfl, .block rfl rfl, Or.inl (by decide), Or.inl (by decide), rfl⟩

theorem C56_ivec4_scale {mem : Mem α} {vP destP : Ptr} {v : V4 Int32} {s : Int32} {r : V4 Int32} (h_v : HoldsI mem vP v.list) (r_dest : Room mem destP 4) (s_v_dest : Apart vP 4 destP 4) (h : I.glm_ivec4_scale v s = some r) :
    CI.glm_ivec4_scale.run mem [vP.val, .i s.toInt, destP.val] =
      some (none, writes mem [(destP, icells r.list)]) :=
  C55_ivec4_scale h_v r_dest (Or.inr s_v_dest) h
example : let mem : Mem α := [⟨false, icells (⟨7, 2, 5, 3⟩ : V4 Int32).list⟩, ⟨true, List.replicate 4 .undef⟩]
    HoldsI mem (0, 0) (⟨7, 2, 5, 3⟩ : V4 Int32).list ∧ Room mem (1, 0) 4 ∧ Apart (0, 0) 4 (1, 0) 4 ∧ (I.glm_ivec4_scale (⟨7, 2, 5, 3⟩ : V4 Int32) (2 : Int32)).isSome = true :=
  ⟨.block rfl, .block rfl rfl, Or.inl (by decide), rfl⟩

theorem C56_ivec4_addadd {mem : Mem α} {aP bP destP : Ptr} {a : V4 Int32} {b : V4 Int32} {dest : V4 Int32} {r : V4 Int32} (h_a : HoldsI mem aP a.list) (h_b : HoldsI mem bP b.list) (h_dest : HoldsI mem destP dest.list) (r_dest : Room mem destP 4) (s_a_dest : Apart aP 4 destP 4) (s_b_dest : Apart bP 4 destP 4) (h : I.glm_ivec4_addadd a b dest = some r) :
    CI.glm_ivec4_addadd.run mem [aP.val, bP.val, destP.val] =
      some (none, writes mem [(destP, icells r.list)]) :=
  C55_ivec4_addadd h_a h_b h_dest r_dest (Or.inr s_a_dest) (Or.inr s_b_dest) h
example : let mem : Mem α := [⟨false, icells (⟨7, 2, 5, 3⟩ : V4 Int32).list⟩, ⟨false, icells (⟨7, 2, 5, 3⟩ : V4 Int32).list⟩, ⟨true, icells (⟨7, 2, 5, 3⟩ : V4 Int32).list⟩]
    HoldsI mem (0, 0) (⟨7, 2, 5, 3⟩ : V4 Int32).list ∧ HoldsI mem (1, 0) (⟨7, 2, 5, 3⟩ : V4 Int32).list ∧ HoldsI mem (2, 0) (⟨7, 2, 5, 3⟩ : V4 Int32).list ∧ Room mem (2, 0) 4 ∧ Apart (0, 0) 4 (2, 0) 4 ∧ Apart (1, 0) 4 (2, 0) 4 ∧ (I.glm_ivec4_addadd (⟨7, 2, 5, 3⟩ : V4 Int32) (⟨7, 2, 5, 3⟩ : V4 Int32) (⟨7, 2, 5, 3⟩ : V4 Int32)).isSome = true :=
  ⟨.block rfl, .block rfl, .block rfl, .block rfl rfl, Or.inl (by decide), Or.inl (by decide), rfl⟩

theorem C56_ivec4_addadds {mem : Mem α} {aP destP : Ptr} {a : V4 Int32} {s : Int32} {dest : V4 Int32} {r : V4 Int32} (h_a : HoldsI mem aP a.list) (h_dest : HoldsI mem destP dest.list) (r_dest : Room mem destP 4) (s_a_dest : Apart aP 4 destP 4) (h : I.glm_ivec4_addadds a s dest = some r) :
    CI.glm_ivec4_addadds.run mem [aP.val, .i s.toInt, destP.val] =
      some (none, writes mem [(destP, icells r.list)]) :=
  C55_ivec4_addadds h_a h_dest r_dest (Or.inr s_a_dest) h
example : let mem : Mem α := [⟨false, icells (⟨7, 2, 5, 3⟩ : V4 Int32).list⟩, ⟨true, icells (⟨7, 2, 5, 3⟩ : V4 Int32).list⟩]
    HoldsI mem (0, 0) (⟨7, 2, 5, 3⟩ : V4 Int32).list ∧ HoldsI mem (1, 0) (⟨7, 2, 5, 3⟩ : V4 Int32).list ∧ Room mem (1, 0) 4 ∧ Apart (0, 0) 4 (1, 0) 4 ∧ (I.glm_ivec4_addadds (⟨7, 2, 5, 3⟩ : V4 Int32) (2 : Int32) (⟨7, 2, 5, 3⟩ : V4 Int32)).isSome = true :=
  ⟨.block rfl, .block rfl, .block rfl rfl, Or.inl (by decide), rfl⟩

theorem C56_ivec4_subadd {mem : Mem α} {aP bP destP : Ptr} {a : V4 Int32} {b : V4 Int32} {dest : V4 Int32} {r : V4 Int32} (h_a : HoldsI mem aP a.list) (h_b : HoldsI mem bP b.list) (h_dest : HoldsI mem destP dest.list) (r_dest : Room mem destP 4) (s_a_dest : Apart aP 4 destP 4) (s_b_dest : Apart bP 4 destP 4) (h : I.glm_ivec4_subadd a b dest = some r) :
    CI.glm_ivec4_subadd.run mem [aP.val, bP.val, destP.val] =
      some (none, writes mem [(destP, icells r.list)]) :=
  C55_ivec4_subadd h_a h_b h_dest r_dest (Or.inr s_a_dest) (Or.inr s_b_dest) h
example : let mem : Mem α := [⟨false, icells (⟨7, 2, 5, 3⟩ : V4 Int32).list⟩, ⟨false, icells (⟨7, 2, 5, 3⟩ : V4 Int32).list⟩, ⟨true, icells (⟨7, 2, 5, 3⟩ : V4 Int32).list⟩]
    HoldsI mem (0, 0) (⟨7, 2, 5, 3⟩ : V4 Int32).list ∧ HoldsI mem (1, 0) (⟨7, 2, 5, 3⟩ : V4 Int32).list ∧ HoldsI mem (2, 0) (⟨7, 2, 5, 3⟩ : V4 Int32).list ∧ Room mem (2, 0) 4 ∧ Apart (0, 0) 4 (2, 0) 4 ∧ Apart (1, 0) 4 (2, 0) 4 ∧ (I.glm_ivec4_subadd (⟨7, 2, 5, 3⟩ : V4 Int32) (⟨7, 2, 5, 3⟩ : V4 Int32) (⟨7, 2, 5, 3⟩ : V4 Int32)).isSome = true :=
  ⟨.block rfl, .block rfl, .block rfl, .block rfl rfl, Or.inl (by decide), Or.inl (by decide), rfl⟩

theorem C56_ivec4_subadds {mem : Mem α} {aP destP : Ptr} {a : V4 Int32} {s : Int32} {dest : V4 Int32} {r : V4 Int32} (h_a : HoldsI mem aP a.list) (h_dest : HoldsI mem destP dest.list) (r_dest : Room mem destP 4) (s_a_dest : Apart aP 4 destP 4) (h : I.glm_ivec4_subadds a s dest = some r) :
    CI.glm_ivec4_subadds.run mem [aP.val, .i s.toInt, destP.val] =
      some (none, writes mem [(destP, icells r.list)]) :=
  C55_ivec4_subadds h_a h_dest r_dest (Or.inr s_a_dest) h
example : let mem : Mem α := [⟨false, icells (⟨7, 2, 5, 3⟩ : V4 Int32).list⟩, ⟨true, icells (⟨7, 2, 5, 3⟩ : V4 Int32).list⟩]
    HoldsI mem (0, 0) (⟨7, 2, 5, 3⟩ : V4 Int32).list ∧ HoldsI mem (1, 0) (⟨7, 2, 5, 3⟩ : V4 Int32).list ∧ Room mem (1, 0) 4 ∧ Apart (0, 0) 4 (1, 0) 4 ∧ (I.glm_ivec4_subadds (⟨7, 2, 5, 3⟩ : V4 Int32) (2 : Int32) (⟨7, 2, 5, 3⟩ : V4 Int32)).isSome = true :=
  ⟨.block rfl, .block rfl, .block rfl rfl, Or.inl (by decide), rfl⟩

theorem C56_ivec4_muladd {mem : Mem α} {aP bP destP : Ptr} {a : V4 Int32} {b : V4 Int32} {dest : V4 Int32} {r : V4 Int32} (h_a : HoldsI mem aP a.list) (h_b : HoldsI mem bP b.list) (h_dest : HoldsI mem destP dest.list) (r_dest : Room mem destP 4) (s_a_dest : Apart aP 4 destP 4) (s_b_dest : Apart bP 4 destP 4) (h : I.glm_ivec4_muladd a b dest = some r) :
    CI.glm_ivec4_muladd.run mem [aP.val, bP.val, destP.val] =
      some (none, writes mem [(destP, icells r.list)]) :=
  C55_ivec4_muladd h_a h_b h_dest r_dest (Or.inr s_a_dest) (Or.inr s_b_dest) h
example : let mem : Mem α := [⟨false, icells (⟨7, 2, 5, 3⟩ : V4 Int32).list⟩, ⟨false, icells (⟨7, 2, 5, 3⟩ : V4 Int32).list⟩, ⟨true, icells (⟨7, 2, 5, 3⟩ : V4 Int32).list⟩]
    HoldsI mem (0, 0) (⟨7, 2, 5, 3⟩ : V4 Int32).list ∧ HoldsI mem (1, 0) (⟨7, 2, 5, 3⟩ : V4 Int32).list ∧ HoldsI mem (2, 0) (⟨7, 2, 5, 3⟩ : V4 Int32).list ∧ Room mem (2, 0) 4 ∧ Apart (0, 0) 4 (2, 0) 4 ∧ Apart (1, 0) 4 (2, 0) 4 ∧ (I.glm_ivec4_muladd (⟨7, 2, 5, 3⟩ : V4 Int32) (⟨7, 2, 5, 3⟩ : V4 Int32) (⟨7, 2, 5, 3⟩ : V4 Int32)).isSome = true :=
  ⟨.block rfl, .block rfl, .block rfl, .block rfl rfl, Or.inl (by decide), Or.inl (by decide), rfl⟩

theorem C56_ivec4_muladds {mem : Mem α} {aP destP : Ptr} {a : V4 Int32} {s : Int32} {dest : V4 Int32} {r : V4 Int32} (h_a : HoldsI mem aP a.list) (h_dest : HoldsI mem destP dest.list) (r_dest : Room mem destP 4) (s_a_dest : Apart aP 4 destP 4) (h : I.glm_ivec4_muladds a s dest = some r) :
    CI.glm_ivec4_muladds.run mem [aP.val, .i s.toInt, destP.val] =
      some (none, writes mem [(destP, icells r.list)]) :=
  C55_ivec4_muladds h_a h_dest r_dest (Or.inr s_a_dest) h
example : let mem : Mem α := [⟨false, icells (⟨7, 2, 5, 3⟩ : V4 Int32).list⟩, ⟨true, icells (⟨7, 2, 5, 3⟩ : V4 Int32).list⟩]
    HoldsI mem (0, 0) (⟨7, 2, 5, 3⟩ : V4 Int32).list ∧ HoldsI mem (1, 0) (⟨7, 2, 5, 3⟩ : V4 Int32).list ∧ Room mem (1, 0) 4 ∧ Apart (0, 0) 4 (1, 0) 4 ∧ (I.glm_ivec4_muladds (⟨7, 2, 5, 3⟩ : V4 Int32) (2 : Int32) (⟨7, 2, 5, 3⟩ : V4 Int32)).isSome = true :=
  ⟨.block rfl, .block rfl, .block rfl rfl, Or.inl (by decide), rfl⟩

theorem C56_ivec4_maxadd {mem : Mem α} {aP bP destP : Ptr} {a : V4 Int32} {b : V4 Int32} {dest : V4 Int32} {r : V4 Int32} (h_a : HoldsI mem aP a.list) (h_b : HoldsI mem bP b.list) (h_dest : HoldsI mem destP dest.list) (r_dest : Room mem destP 4) (s_a_dest : Apart aP 4 destP 4) (s_b_dest : Apart bP 4 destP 4) (h : I.glm_ivec4_maxadd a b dest = some r) :
    CI.glm_ivec4_maxadd.run mem [aP.val, bP.val, destP.val] =
      some (none, writes mem [(destP, icells r.list)]) :=
  C55_ivec4_maxadd h_a h_b h_dest r_dest (Or.inr s_a_dest) (Or.inr s_b_dest) h
example : let mem : Mem α := [⟨false, icells (⟨7, 2, 5, 3⟩ : V4 Int32).list⟩, ⟨false, icells (⟨7, 2, 5, 3⟩ : V4 Int32).list⟩, ⟨true, icells (⟨7, 2, 5, 3⟩ : V4 Int32).list⟩]
    HoldsI mem (0, 0) (⟨7, 2, 5, 3⟩ : V4 Int32).list ∧ HoldsI mem (1, 0) (⟨7, 2, 5, 3⟩ : V4 Int32).list ∧ HoldsI mem (2, 0) (⟨7, 2, 5, 3⟩ : V4 Int32).list ∧ Room mem (2, 0) 4 ∧ Apart (0, 0) 4 (2, 0) 4 ∧ Apart (1, 0) 4 (2, 0) 4 ∧ (I.glm_ivec4_maxadd (⟨7, 2, 5, 3⟩ : V4 Int32) (⟨7, 2, 5, 3⟩ : V4 Int32) (⟨7, 2, 5, 3⟩ : V4 Int32)).isSome = true :=
  ⟨.block rfl, .block rfl, .block rfl, .block rfl rfl, Or.inl (by decide), Or.inl (by decide), rfl⟩

theorem C56_ivec4_minadd {mem : Mem α} {aP bP destP : Ptr} {a : V4 Int32} {b : V4 Int32} {dest : V4 Int32} {r : V4 Int32} (h_a : HoldsI mem aP a.list) (h_b : HoldsI mem bP b.list) (h_dest : HoldsI mem destP dest.list) (r_dest : Room mem destP 4) (s_a_dest : Apart aP 4 destP 4) (s_b_dest : Apart bP 4 destP 4) (h : I.glm_ivec4_minadd a b dest = some r) :
    CI.glm_ivec4_minadd.run mem [aP.val, bP.val, destP.val] =
      some (none, writes mem [(destP, icells r.list)]) :=
  C55_ivec4_minadd h_a h_b h_dest r_dest (Or.inr s_a_dest) (Or.inr s_b_dest) h
example : let mem : Mem α := [⟨false, icells (⟨7, 2, 5, 3⟩ : V4 Int32).list⟩, ⟨false, icells (⟨7, 2, 5, 3⟩ : V4 Int32).list⟩, ⟨true, icells (⟨7, 2, 5, 3⟩ : V4 Int32).list⟩]
    HoldsI mem (0, 0) (⟨7, 2, 5, 3⟩ : V4 Int32).list ∧ HoldsI mem (1, 0) (⟨7, 2, 5, 3⟩ : V4 Int32).list ∧ HoldsI mem (2, 0) (⟨7, 2, 5, 3⟩ : V4 Int32).list ∧ Room mem (2, 0) 4 ∧ Apart (0, 0) 4 (2, 0) 4 ∧ Apart (1, 0) 4 (2, 0) 4 ∧ (I.glm_ivec4_minadd (⟨7, 2, 5, 3⟩ : V4 Int32) (⟨7, 2, 5, 3⟩ : V4 Int32) (⟨7, 2, 5, 3⟩ : V4 Int32)).isSome = true :=
  ⟨.block rfl, .block rfl, .block rfl, .block rfl rfl, Or.inl (by decide), Or.inl (by decide), rfl⟩

theorem C56_ivec4_subsub {mem : Mem α} {aP bP destP : Ptr} {a : V4 Int32} {b : V4 Int32} {dest : V4 Int32} {r : V4 Int32} (h_a : HoldsI mem aP a.list) (h_b : HoldsI mem bP b.list) (h_dest : HoldsI mem destP dest.list) (r_dest : Room mem destP 4) (s_a_dest : Apart aP 4 destP 4) (s_b_dest : Apart bP 4 destP 4) (h : I.glm_ivec4_subsub a b dest = some r) :
    CI.glm_ivec4_subsub.run mem [aP.val, bP.val, destP.val] =
      some (none, writes mem [(destP, icells r.list)]) :=
  C55_ivec4_subsub h_a h_b h_dest r_dest (Or.inr s_a_dest) (Or.inr s_b_dest) h
example : let mem : Mem α := [⟨false, icells (⟨7, 2, 5, 3⟩ : V4 Int32).list⟩, ⟨false, icells (⟨7, 2, 5, 3⟩ : V4 Int32).list⟩, ⟨true, icells (⟨7, 2, 5, 3⟩ : V4 Int32).list⟩]
    HoldsI mem (0, 0) (⟨7, 2, 5, 3⟩ : V4 Int32).list ∧ HoldsI mem (1, 0) (⟨7, 2, 5, 3⟩ : V4 Int32).list ∧ HoldsI mem (2, 0) (⟨7, 2, 5, 3⟩ : V4 Int32).list ∧ Room mem (2, 0) 4 ∧ Apart (0, 0) 4 (2, 0) 4 ∧ Apart (1, 0) 4 (2, 0) 4 ∧ (I.glm_ivec4_subsub (⟨7, 2, 5, 3⟩ : V4 Int32) (⟨7, 2, 5, 3⟩ : V4 Int32) (⟨7, 2, 5, 3⟩ : V4 Int32)).isSome = true :=
  ⟨.block rfl, .block rfl, .block rfl, .block rfl rfl, Or.inl (by decide), Or.inl (by decide), rfl⟩

theorem C56_ivec4_subsubs {mem : Mem α} {aP destP : Ptr} {a : V4 Int32} {s : Int32} {dest : V4 Int32} {r : V4 Int32} (h_a : HoldsI mem aP a.list) (h_dest : HoldsI mem destP dest.list) (r_dest : Room mem destP 4) (s_a_dest : Apart aP 4 destP 4) (h : I.glm_ivec4_subsubs a s dest = some r) :
    CI.glm_ivec4_subsubs.run mem [aP.val, .i s.toInt, destP.val] =
      some (none, writes mem [(destP, icells r.list)]) :=
  C55_ivec4_subsubs h_a h_dest r_dest (Or.inr s_a_dest) h
example : let mem : Mem α := [⟨false, icells (⟨7, 2, 5, 3⟩ : V4 Int32).list⟩, ⟨true, icells (⟨7, 2, 5, 3⟩ : V4 Int32).list⟩]
    HoldsI mem (0, 0) (⟨7, 2, 5, 3⟩ : V4 Int32).list ∧ HoldsI mem (1, 0) (⟨7, 2, 5, 3⟩ : V4 Int32).list ∧ Room mem (1, 0) 4 ∧ Apart (0, 0) 4 (1, 0) 4 ∧ (I.glm_ivec4_subsubs (⟨7, 2, 5, 3⟩ : V4 Int32) (2 : Int32) (⟨7, 2, 5, 3⟩ : V4 Int32)).isSome = true :=
  ⟨.block rfl, .block rfl, .block rfl rfl, Or.inl (by decide), rfl⟩

theorem C56_ivec4_addsub {mem : Mem α} {aP bP destP : Ptr} {a : V4 Int32} {b : V4 Int32} {dest : V4 Int32} {r : V4 Int32} (h_a : HoldsI mem aP a.list) (h_b : HoldsI mem bP b.list) (h_dest : HoldsI mem destP dest.list) (r_dest : Room mem destP 4) (s_a_dest : Apart aP 4 destP 4) (s_b_dest : Apart bP 4 destP 4) (h : I.glm_ivec4_addsub a b dest = some r) :
    CI.glm_ivec4_addsub.run mem [aP.val, bP.val, destP.val] =
      some (none, writes mem [(destP, icells r.list)]) :=
  C55_ivec4_addsub h_a h_b h_dest r_dest (Or.inr s_a_dest) (Or.inr s_b_dest) h
example : let mem : Mem α := [⟨false, icells (⟨7, 2, 5, 3⟩ : V4 Int32).list⟩, ⟨false, icells (⟨7, 2, 5, 3⟩ : V4 Int32).list⟩, ⟨true, icells (⟨7, 2, 5, 3⟩ : V4 Int32).list⟩]
    HoldsI mem (0, 0) (⟨7, 2, 5, 3⟩ : V4 Int32).list ∧ HoldsI mem (1, 0) (⟨7, 2, 5, 3⟩ : V4 Int32).list ∧ HoldsI mem (2, 0) (⟨7, 2, 5, 3⟩ : V4 Int32).list ∧ Room mem (2, 0) 4 ∧ Apart (0, 0) 4 (2, 0) 4 ∧ Apart (1, 0) 4 (2, 0) 4 ∧ (I.glm_ivec4_addsub (⟨7, 2, 5, 3⟩ : V4 Int32) (⟨7, 2, 5, 3⟩ : V4 Int32) (⟨7, 2, 5, 3⟩ : V4 Int32)).isSome = true :=
  ⟨.block rfl, .block rfl, .block rfl, .block rfl rfl, Or.inl (by decide), Or.inl (by decide), rfl⟩

theorem C56_ivec4_addsubs {mem : Mem α} {aP destP : Ptr} {a : V4 Int32} {s : Int32} {dest : V4 Int32} {r : V4 Int32} (h_a : HoldsI mem aP a.list) (h_dest : HoldsI mem destP dest.list) (r_dest : Room mem destP 4) (s_a_dest : Apart aP 4 destP 4) (h : I.glm_ivec4_addsubs a s dest = some r) :
    CI.glm_ivec4_addsubs.run mem [aP.val, .i s.toInt, destP.val] =
      some (none, writes mem [(destP, icells r.list)]) :=
  C55_ivec4_addsubs h_a h_dest r_dest (Or.inr s_a_dest) h
example : let mem : Mem α := [⟨false, icells (⟨7, 2, 5, 3⟩ : V4 Int32).list⟩, ⟨true, icells (⟨7, 2, 5, 3⟩ : V4 Int32).list⟩]
    HoldsI mem (0, 0) (⟨7, 2, 5, 3⟩ : V4 Int32).list ∧ HoldsI mem (1, 0) (⟨7, 2, 5, 3⟩ : V4 Int32).list ∧ Room mem (1, 0) 4 ∧ Apart (0, 0) 4 (1, 0) 4 ∧ (I.glm_ivec4_addsubs (⟨7, 2, 5, 3⟩ : V4 Int32) (2 : Int32) (⟨7, 2, 5, 3⟩ : V4 Int32)).isSome = true :=
  ⟨.block rfl, .block rfl, .block rfl rfl, Or.inl (by decide), rfl⟩

theorem C56_ivec4_mulsub {mem : Mem α} {aP bP destP : Ptr} {a : V4 Int32} {b : V4 Int32} {dest : V4 Int32} {r : V4 Int32} (h_a : HoldsI mem aP a.list) (h_b : HoldsI mem bP b.list) (h_dest : HoldsI mem destP dest.list) (r_dest : Room mem destP 4) (s_a_dest : Apart aP 4 destP 4) (s_b_dest : Apart bP 4 destP 4) (h : I.glm_ivec4_mulsub a b dest = some r) :
    CI.glm_ivec4_mulsub.run mem [aP.val, bP.val, destP.val] =
      some (none, writes mem [(destP, icells r.list)]) :=
  C55_ivec4_mulsub h_a h_b h_dest r_dest (Or.inr s_a_dest) (Or.inr s_b_dest) h
example : let mem : Mem α := [⟨false, icells (⟨7, 2, 5, 3⟩ : V4 Int32).list⟩, ⟨false, icells (⟨7, 2, 5, 3⟩ : V4 Int32).list⟩, ⟨true, icells (⟨7, 2, 5, 3⟩ : V4 Int32).list⟩]
    HoldsI mem (0, 0) (⟨7, 2, 5, 3⟩ : V4 Int32).list ∧ HoldsI mem (1, 0) (⟨7, 2, 5, 3⟩ : V4 Int32).list ∧ HoldsI mem (2, 0) (⟨7, 2, 5, 3⟩ : V4 Int32).list ∧ Room mem (2, 0) 4 ∧ Apart (0, 0) 4 (2, 0) 4 ∧ Apart (1, 0) 4 (2, 0) 4 ∧ (I.glm_ivec4_mulsub (⟨7, 2, 5, 3⟩ : V4 Int32) (⟨7, 2, 5, 3⟩ : V4 Int32) (⟨7, 2, 5, 3⟩ : V4 Int32)).isSome = true :=
  ⟨.block rfl, .block rfl, .block rfl, .block rfl rfl, Or.inl (by decide), Or.inl (by decide), rfl⟩

theorem C56_ivec4_mulsubs {mem : Mem α} {aP destP : Ptr} {a : V4 Int32} {s : Int32} {dest : V4 Int32} {r : V4 Int32} (h_a : HoldsI mem aP a.list) (h_dest : HoldsI mem destP dest.list) (r_dest : Room mem destP 4) (s_a_dest : Apart aP 4 destP 4) (h : I.glm_ivec4_mulsubs a s dest = some r) :
    CI.glm_ivec4_mulsubs.run mem [aP.val, .i s.toInt, destP.val] =
      some (none, writes mem [(destP, icells r.list)]) :=
  C55_ivec4_mulsubs h_a h_dest r_dest (Or.inr s_a_dest) h
example : let mem : Mem α := [⟨false, icells (⟨7, 2, 5, 3⟩ : V4 Int32).list⟩, ⟨true, icells (⟨7, 2, 5, 3⟩ : V4 Int32).list⟩]
    HoldsI mem (0, 0) (⟨7, 2, 5, 3⟩ : V4 Int32).list ∧ HoldsI mem (1, 0) (⟨7, 2, 5, 3⟩ : V4 Int32).list ∧ Room mem (1, 0) 4 ∧ Apart (0, 0) 4 (1, 0) 4 ∧ (I.glm_ivec4_mulsubs (⟨7, 2, 5, 3⟩ : V4 Int32) (2 : Int32) (⟨7, 2, 5, 3⟩ : V4 Int32)).isSome = true :=
  ⟨.block rfl, .block rfl, .block rfl rfl, Or.inl (by decide), rfl⟩

theorem C56_ivec4_maxsub {mem : Mem α} {aP bP destP : Ptr} {a : V4 Int32} {b : V4 Int32} {dest : V4 Int32} {r : V4 Int32} (h_a : HoldsI mem aP a.list) (h_b : HoldsI mem bP b.list) (h_dest : HoldsI mem destP dest.list) (r_dest : Room mem destP 4) (s_a_dest : Apart aP 4 destP 4) (s_b_dest : Apart bP 4 destP 4) (h : I.glm_ivec4_maxsub a b dest = some r) :
    CI.glm_ivec4_maxsub.run mem [aP.val, bP.val, destP.val] =
      some (none, writes mem [(destP, icells r.list)]) :=
  C55_ivec4_maxsub h_a h_b h_dest r_dest (Or.inr s_a_dest) (Or.inr s_b_dest) h
example : let mem : Mem α := [⟨false, icells (⟨7, 2, 5, 3⟩ : V4 Int32).list⟩, ⟨false, icells (⟨7, 2, 5, 3⟩ : V4 Int32).list⟩, ⟨true, icells (⟨7, 2, 5, 3⟩ : V4 Int32).list⟩]
    HoldsI mem (0, 0) (⟨7, 2, 5, 3⟩ : V4 Int32).list ∧ HoldsI mem (1, 0) (⟨7, 2, 5, 3⟩ : V4 Int32).list ∧ HoldsI mem (2, 0) (⟨7, 2, 5, 3⟩ : V4 Int32).list ∧ Room mem (2, 0) 4 ∧ Apart (0, 0) 4 (2, 0) 4 ∧ Apart (1, 0) 4 (2, 0) 4 ∧ (I.glm_ivec4_maxsub (⟨7, 2, 5, 3⟩ : V4 Int32) (⟨7, 2, 5, 3⟩ : V4 Int32) (⟨7, 2, 5, 3⟩ : V4 Int32)).isSome = true :=
  ⟨.block rfl, .block rfl, .block rfl, .block rfl rfl, Or.inl (by decide), Or.inl (by decide), rfl⟩

theorem C56_ivec4_minsub {mem : Mem α} {aP bP destP : Ptr} {a : V4 Int32} {b : V4 Int32} {dest : V4 Int32} {r : V4 Int32} (h_a : HoldsI mem aP a.list) (h_b : HoldsI mem bP b.list) (h_dest : HoldsI mem destP dest.list) (r_dest : Room mem destP 4) (s_a_dest : Apart aP 4 destP 4) (s_b_dest : Apart bP 4 destP 4) (h : I.glm_ivec4_minsub a b dest = some r) :
    CI.glm_ivec4_minsub.run mem [aP.val, bP.val, destP.val] =
      some (none, writes mem [(destP, icells r.list)]) :=
  C55_ivec4_minsub h_a h_b h_dest r_dest (Or.inr s_a_dest) (Or.inr s_b_dest) h
example : let mem : Mem α := [⟨false, icells (⟨7, 2, 5, 3⟩ : V4 Int32).list⟩, ⟨false, icells (⟨7, 2, 5, 3⟩ : V4 Int32).list⟩, ⟨true, icells (⟨7, 2, 5, 3⟩ : V4 Int32).list⟩]
    HoldsI mem (0, 0) (⟨7, 2, 5, 3⟩ : V4 Int32).list ∧ HoldsI mem (1, 0) (⟨7, 2, 5, 3⟩ : V4 Int32).list ∧ HoldsI mem (2, 0) (⟨7, 2, 5, 3⟩ : V4 Int32).list ∧ Room mem (2, 0) 4 ∧ Apart (0, 0) 4 (2, 0) 4 ∧ Apart (1, 0) 4 (2, 0) 4 ∧ (I.glm_ivec4_minsub (⟨7, 2, 5, 3⟩ : V4 Int32) (⟨7, 2, 5, 3⟩ : V4 Int32) (⟨7, 2, 5, 3⟩ : V4 Int32)).isSome = true :=
  ⟨.block rfl, .block rfl, .block rfl, .block rfl rfl, Or.inl (by decide), Or.inl (by decide), rfl⟩

theorem C56_ivec4_distance2 {mem : Mem α} {aP bP : Ptr} {a : V4 Int32} {b : V4 Int32} {r : Int32} (h_a : HoldsI mem aP a.list) (h_b : HoldsI mem bP b.list) (h : I.glm_ivec4_distance2 a b = some r) :
    CI.glm_ivec4_distance2.run mem [aP.val, bP.val] =
      some (some (.i r.toInt), mem) := by
  exact itransfer (((R.nil _).addR h_b.has .nil).addR h_a.has (.skip .nil)) (.p rfl (.p rfl .nil)) (glm_ivec4_distance2_irun _ _ h) rfl
example : let mem : Mem α := [⟨false, icells (⟨7, 2, 5, 3⟩ : V4 Int32).list⟩, ⟨false, icells (⟨7, 2, 5, 3⟩ : V4 Int32).list⟩]
    HoldsI mem (0, 0) (⟨7, 2, 5, 3⟩ : V4 Int32).list ∧ HoldsI mem (1, 0) (⟨7, 2, 5, 3⟩ : V4 Int32).list ∧ (I.glm_ivec4_distance2 (⟨7, 2, 5, 3⟩ : V4 Int32) (⟨7, 2, 5, 3⟩ : V4 Int32)).isSome = true :=
  ⟨.block rfl, .block rfl, rfl⟩

theorem C56_ivec4_distance {mem : Mem α} {aP bP : Ptr} {a : V4 Int32} {b : V4 Int32} {r : α} (h_a : HoldsI mem aP a.list) (h_b : HoldsI mem bP b.list) (h : I.glm_ivec4_distance (α := α) a b = some r) :
    CI.glm_ivec4_distance.run mem [aP.val, bP.val] =
      some (some (.f r), mem) := by
  exact itransfer (((R.nil _).addR h_b.has .nil).addR h_a.has (.skip .nil)) (.p rfl (.p rfl .nil)) (glm_ivec4_distance_irun _ _ h) rfl
example : let mem : Mem α := [⟨false, icells (⟨7, 2, 5, 3⟩ : V4 Int32).list⟩, ⟨false, icells (⟨7, 2, 5, 3⟩ : V4 Int32).list⟩]
    HoldsI mem (0, 0) (⟨7, 2, 5, 3⟩ : V4 Int32).list ∧ HoldsI mem (1, 0) (⟨7, 2, 5, 3⟩ : V4 Int32).list ∧ (I.glm_ivec4_distance (α := α) (⟨7, 2, 5, 3⟩ : V4 Int32) (⟨7, 2, 5, 3⟩ : V4 Int32)).isSome = true :=
  ⟨.block rfl, .block rfl, rfl⟩

theorem C56_ivec4_maxv {mem : Mem α} {aP bP destP : Ptr} {a : V4 Int32} {b : V4 Int32} {r : V4 Int32} (h_a : HoldsI mem aP a.list) (h_b : HoldsI mem bP b.list) (r_dest : Room mem destP 4) (s_a_dest : Apart aP 4 destP 4) (s_b_dest : Apart bP 4 destP 4) (h : I.glm_ivec4_maxv a b = some r) :
    CI.glm_ivec4_maxv.run mem [aP.val, bP.val, destP.val] =
      some (none, writes mem [(destP, icells r.list)]) :=
  C55_ivec4_maxv h_a h_b r_dest (Or.inr s_a_dest) (Or.inr s_b_dest) h
example : let mem : Mem α := [⟨false, icells (⟨7, 2, 5, 3⟩ : V4 Int32).list⟩, ⟨false, icells (⟨7, 2, 5, 3⟩ : V4 Int32).list⟩, ⟨true, List.replicate 4 .undef⟩]
    HoldsI mem (0, 0) (⟨7, 2, 5, 3⟩ : V4 Int32).list ∧ HoldsI mem (1, 0) (⟨7, 2, 5, 3⟩ : V4 Int32).list ∧ Room mem (2, 0) 4 ∧ Apart (0, 0) 4 (2, 0) 4 ∧ Apart (1, 0) 4 (2, 0) 4 ∧ (I.glm_ivec4_maxv (⟨7, 2, 5, 3⟩ : V4 Int32) (⟨7, 2, 5, 3⟩ : V4 Int32)).isSome = true :=
  ⟨.block rfl, .block rfl, .block rfl rfl, Or.inl (by decide), Or.inl (by decide), rfl⟩

theorem C56_ivec4_minv {mem : Mem α} {aP bP destP : Ptr} {a : V4 Int32} {b : V4 Int32} {r : V4 Int32} (h_a : HoldsI mem aP a.list) (h_b : HoldsI mem bP b.list) (r_dest : Room mem destP 4) (s_a_dest : Apart aP 4 destP 4) (s_b_dest : Apart bP 4 destP 4) (h : I.glm_ivec4_minv a b = some r) :
    CI.glm_ivec4_minv.run mem [aP.val, bP.val, destP.val] =
      some (none, writes mem [(destP, icells r.list)]) :=
  C55_ivec4_minv h_a h_b r_dest (Or.inr s_a_dest) (Or.inr s_b_dest) h
example : let mem : Mem α := [⟨false, icells (⟨7, 2, 5, 3⟩ : V4 Int32).list⟩, ⟨false, icells (⟨7, 2, 5, 3⟩ : V4 Int32).list⟩, ⟨true, List.replicate 4 .undef⟩]
    HoldsI mem (0, 0) (⟨7, 2, 5, 3⟩ : V4 Int32).list ∧ HoldsI mem (1, 0) (⟨7, 2, 5, 3⟩ : V4 Int32).list ∧ Room mem (2, 0) 4 ∧ Apart (0, 0) 4 (2, 0) 4 ∧ Apart (1, 0) 4 (2, 0) 4 ∧ (I.glm_ivec4_minv (⟨7, 2, 5, 3⟩ : V4 Int32) (⟨7, 2, 5, 3⟩ : V4 Int32)).isSome = true :=
  ⟨.block rfl, .block rfl, .block rfl rfl, Or.inl (by decide), Or.inl (by decide), rfl⟩

theorem C56_ivec4_clamp {mem : Mem α} {vP : Ptr} {v : V4 Int32} {minVal : Int32} {maxVal : Int32} {r : V4 Int32} (h_v : HoldsI mem vP v.list) (r_v : Room mem vP 4) (h : I.glm_ivec4_clamp v minVal maxVal = some r) :
    CI.glm_ivec4_clamp.run mem [vP.val, .i minVal.toInt, .i maxVal.toInt] =
      some (none, writes mem [(vP, icells r.list)]) := by
  exact itransfer ((R.nil _).addW h_v.has r_v .nil) (.p rfl (.i (.i .nil))) (glm_ivec4_clamp_irun _ _ _ h) rfl
example : let mem : Mem α := [⟨true, icells (⟨7, 2, 5, 3⟩ : V4 Int32).list⟩]
    HoldsI mem (0, 0) (⟨7, 2, 5, 3⟩ : V4 Int32).list ∧ Room mem (0, 0) 4 ∧ (I.glm_ivec4_clamp (⟨7, 2, 5, 3⟩ : V4 Int32) (2 : Int32) (9 : Int32)).isSome = true :=
  ⟨.block rfl, .block rfl rfl, rfl⟩

theorem C56_ivec4_abs {mem : Mem α} {vP destP : Ptr} {v : V4 Int32} {r : V4 Int32} (h_v : HoldsI mem vP v.list) (r_dest : Room mem destP 4) (s_v_dest : Apart vP 4 destP 4) (h : I.glm_ivec4_abs v = some r) :
    CI.glm_ivec4_abs.run mem [vP.val, destP.val] =
      some (none, writes mem [(destP, icells r.list)]) :=
  C55_ivec4_abs h_v r_dest (Or.inr s_v_dest) h
example : let mem : Mem α := [⟨false, icells (⟨7, 2, 5, 3⟩ : V4 Int32).list⟩, ⟨true, List.replicate 4 .undef⟩]
    HoldsI mem (0, 0) (⟨7, 2, 5, 3⟩ : V4 Int32).list ∧ Room mem (1, 0) 4 ∧ Apart (0, 0) 4 (1, 0) 4 ∧ (I.glm_ivec4_abs (⟨7, 2, 5, 3⟩ : V4 Int32)).isSome = true :=
  ⟨.block rfl, .block rfl rfl, Or.inl (by decide), rfl⟩

end Cglm

end C56IIvec4

section C56IUtil

/-!
# C56: memory safety and framing (include/cglm/util.h)

Called with initialised inputs and a writable destination that does not overlap them, and with inputs on which no
operation overflows or divides by zero, the function is defined, returns the value-level result and changes no
memory but its destination.
-/

set_option maxRecDepth 10000
set_option linter.unusedVariables false
set_option linter.unusedSectionVars false
set_option linter.unusedSimpArgs false

namespace Cglm
open CMem

variable {α : Type} [Add α] [Sub α] [Mul α] [Div α] [Neg α] [CFloat α] [CIntConv α]

theorem C56_sign (mem : Mem α) {val : Int32} {r : Int32} (h : I.glm_sign val = some r) :
    CI.glm_sign.run mem [.i val.toInt] =
      some (some (.i r.toInt), mem) := by
  exact itransfer (R.nil _) (.i .nil) (glm_sign_irun _ h) rfl
example : let mem : Mem α := []
    (I.glm_sign (2 : Int32)).isSome = true :=
  rfl

theorem C56_imin_checked (mem : Mem α) {a : Int32} {b : Int32} {r : Int32} (h : I.glm_imin a b = some r) :
    CI.glm_imin.run mem [.i a.toInt, .i b.toInt] =
      some (some (.i r.toInt), mem) := by
  exact itransfer (R.nil _) (.i (.i .nil)) (glm_imin_irun _ _ h) rfl
example : let mem : Mem α := []
    (I.glm_imin (2 : Int32) (9 : Int32)).isSome = true :=
  rfl

theorem C56_imax_checked (mem : Mem α) {a : Int32} {b : Int32} {r : Int32} (h : I.glm_imax a b = some r) :
    CI.glm_imax.run mem [.i a.toInt, .i b.toInt] =
      some (some (.i r.toInt), mem) := by
  exact itransfer (R.nil _) (.i (.i .nil)) (glm_imax_irun _ _ h) rfl
example : let mem : Mem α := []
    (I.glm_imax (2 : Int32) (9 : Int32)).isSome = true :=
  rfl

end Cglm

end C56IUtil
