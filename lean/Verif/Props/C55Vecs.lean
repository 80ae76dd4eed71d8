/- Generated by tools/memgen.py, joined by tools/merge.py; do not edit by hand. -/
import Verif.Mem.VecsRun

section C55Vec2

/-!
# C55: destination may alias an argument (include/cglm/vec2.h)

Each input is either the destination itself or does not overlap it; the result is the value-level function of
what the inputs held before the call, and nothing outside the destination changes.
-/

set_option linter.unusedVariables false
set_option linter.unusedSectionVars false

namespace Cglm
open CMem

variable {α : Type} [Add α] [Sub α] [Mul α] [Div α] [Neg α] [CFloat α]

theorem C55_vec2 {mem : Mem α} {vP destP : Ptr} {v : V2 α} (h_v : Holds mem vP v.list) (r_dest : Room mem destP 2) (s_v_dest : vP = destP ∨ Apart vP 2 destP 2) :
    C.glm_vec2.run mem [vP.val, destP.val] =
      some (none, writes mem [(destP, (Cglm.glm_vec2 v).list.map .f)]) := by
  rcases s_v_dest with s_v_dest | s_v_dest
  · subst s_v_dest
    exact transferL ((R.nil _).addW h_v.has r_dest .nil) (.p rfl (.p rfl .nil)) (glm_vec2_run_v _) (DT.val_done _) rfl rfl
  · exact transferL (((R.nil _).addW r_dest.has r_dest .nil).addR h_v.has (.cons s_v_dest .nil)) (.p rfl (.p rfl .nil)) (glm_vec2_run _) (DT.val_done _) rfl rfl
example (v : V2 α) : let mem : Mem α := [⟨true, v.list.map .f⟩]
    Holds mem (0, 0) v.list ∧ Room mem (0, 0) 2 ∧ (((0, 0) : Ptr) = (0, 0) ∨ Apart (0, 0) 2 (0, 0) 2) :=
  ⟨.block rfl, .block rfl rfl, Or.inl rfl⟩

theorem C55_vec2_copy {mem : Mem α} {aP destP : Ptr} {a : V2 α} (h_a : Holds mem aP a.list) (r_dest : Room mem destP 2) (s_a_dest : aP = destP ∨ Apart aP 2 destP 2) :
    C.glm_vec2_copy.run mem [aP.val, destP.val] =
      some (none, writes mem [(destP, (Cglm.glm_vec2_copy a).list.map .f)]) := by
  rcases s_a_dest with s_a_dest | s_a_dest
  · subst s_a_dest
    exact transferL ((R.nil _).addW h_a.has r_dest .nil) (.p rfl (.p rfl .nil)) (glm_vec2_copy_run_a _) (DT.val_done _) rfl rfl
  · exact transferL (((R.nil _).addW r_dest.has r_dest .nil).addR h_a.has (.cons s_a_dest .nil)) (.p rfl (.p rfl .nil)) (glm_vec2_copy_run _) (DT.val_done _) rfl rfl
example (a : V2 α) : let mem : Mem α := [⟨true, a.list.map .f⟩]
    Holds mem (0, 0) a.list ∧ Room mem (0, 0) 2 ∧ (((0, 0) : Ptr) = (0, 0) ∨ Apart (0, 0) 2 (0, 0) 2) :=
  ⟨.block rfl, .block rfl rfl, Or.inl rfl⟩

theorem C55_vec2_add {mem : Mem α} {aP bP destP : Ptr} {a : V2 α} {b : V2 α} (h_a : Holds mem aP a.list) (h_b : Holds mem bP b.list) (r_dest : Room mem destP 2) (s_a_dest : aP = destP ∨ Apart aP 2 destP 2) (s_b_dest : bP = destP ∨ Apart bP 2 destP 2) :
    C.glm_vec2_add.run mem [aP.val, bP.val, destP.val] =
      some (none, writes mem [(destP, (Cglm.glm_vec2_add a b).list.map .f)]) := by
  rcases s_a_dest with s_a_dest | s_a_dest
  · subst s_a_dest
    rcases s_b_dest with s_b_dest | s_b_dest
    · subst s_b_dest
      obtain rfl := V2.list_inj (h_a.inj h_b rfl)
      exact transferL ((R.nil _).addW h_a.has r_dest .nil) (.p rfl (.p rfl (.p rfl .nil))) (glm_vec2_add_run_a_b _) (DT.val_done _) rfl rfl
    · exact transferL (((R.nil _).addW h_a.has r_dest .nil).addR h_b.has (.cons s_b_dest .nil)) (.p rfl (.p rfl (.p rfl .nil))) (glm_vec2_add_run_a _ _) (DT.val_done _) rfl rfl
  · rcases s_b_dest with s_b_dest | s_b_dest
    · subst s_b_dest
      exact transferL (((R.nil _).addW h_b.has r_dest .nil).addR h_a.has (.cons s_a_dest .nil)) (.p rfl (.p rfl (.p rfl .nil))) (glm_vec2_add_run_b _ _) (DT.val_done _) rfl rfl
    · exact transferL ((((R.nil _).addW r_dest.has r_dest .nil).addR h_b.has (.cons s_b_dest .nil)).addR h_a.has (.skip (.cons s_a_dest .nil))) (.p rfl (.p rfl (.p rfl .nil))) (glm_vec2_add_run _ _) (DT.val_done _) rfl rfl
example (a : V2 α) : let mem : Mem α := [⟨true, a.list.map .f⟩]
    Holds mem (0, 0) a.list ∧ Holds mem (0, 0) a.list ∧ Room mem (0, 0) 2 ∧ (((0, 0) : Ptr) = (0, 0) ∨ Apart (0, 0) 2 (0, 0) 2) ∧ (((0, 0) : Ptr) = (0, 0) ∨ Apart (0, 0) 2 (0, 0) 2) :=
  ⟨.block rfl, .block rfl, .block rfl rfl, Or.inl rfl, Or.inl rfl⟩

theorem C55_vec2_adds {mem : Mem α} {vP destP : Ptr} {v : V2 α} (s : α) (h_v : Holds mem vP v.list) (r_dest : Room mem destP 2) (s_v_dest : vP = destP ∨ Apart vP 2 destP 2) :
    C.glm_vec2_adds.run mem [vP.val, .f s, destP.val] =
      some (none, writes mem [(destP, (Cglm.glm_vec2_adds v s).list.map .f)]) := by
  rcases s_v_dest with s_v_dest | s_v_dest
  · subst s_v_dest
    exact transferL ((R.nil _).addW h_v.has r_dest .nil) (.p rfl (.f (.p rfl .nil))) (glm_vec2_adds_run_v _ _) (DT.val_done _) rfl rfl
  · exact transferL (((R.nil _).addW r_dest.has r_dest .nil).addR h_v.has (.cons s_v_dest .nil)) (.p rfl (.f (.p rfl .nil))) (glm_vec2_adds_run _ _) (DT.val_done _) rfl rfl
example (v : V2 α) : let mem : Mem α := [⟨true, v.list.map .f⟩]
    Holds mem (0, 0) v.list ∧ Room mem (0, 0) 2 ∧ (((0, 0) : Ptr) = (0, 0) ∨ Apart (0, 0) 2 (0, 0) 2) :=
  ⟨.block rfl, .block rfl rfl, Or.inl rfl⟩

theorem C55_vec2_sub {mem : Mem α} {aP bP destP : Ptr} {a : V2 α} {b : V2 α} (h_a : Holds mem aP a.list) (h_b : Holds mem bP b.list) (r_dest : Room mem destP 2) (s_a_dest : aP = destP ∨ Apart aP 2 destP 2) (s_b_dest : bP = destP ∨ Apart bP 2 destP 2) :
    C.glm_vec2_sub.run mem [aP.val, bP.val, destP.val] =
      some (none, writes mem [(destP, (Cglm.glm_vec2_sub a b).list.map .f)]) := by
  rcases s_a_dest with s_a_dest | s_a_dest
  · subst s_a_dest
    rcases s_b_dest with s_b_dest | s_b_dest
    · subst s_b_dest
      obtain rfl := V2.list_inj (h_a.inj h_b rfl)
      exact transferL ((R.nil _).addW h_a.has r_dest .nil) (.p rfl (.p rfl (.p rfl .nil))) (glm_vec2_sub_run_a_b _) (DT.val_done _) rfl rfl
    · exact transferL (((R.nil _).addW h_a.has r_dest .nil).addR h_b.has (.cons s_b_dest .nil)) (.p rfl (.p rfl (.p rfl .nil))) (glm_vec2_sub_run_a _ _) (DT.val_done _) rfl rfl
  · rcases s_b_dest with s_b_dest | s_b_dest
    · subst s_b_dest
      exact transferL (((R.nil _).addW h_b.has r_dest .nil).addR h_a.has (.cons s_a_dest .nil)) (.p rfl (.p rfl (.p rfl .nil))) (glm_vec2_sub_run_b _ _) (DT.val_done _) rfl rfl
    · exact transferL ((((R.nil _).addW r_dest.has r_dest .nil).addR h_b.has (.cons s_b_dest .nil)).addR h_a.has (.skip (.cons s_a_dest .nil))) (.p rfl (.p rfl (.p rfl .nil))) (glm_vec2_sub_run _ _) (DT.val_done _) rfl rfl
example (a : V2 α) : let mem : Mem α := [⟨true, a.list.map .f⟩]
    Holds mem (0, 0) a.list ∧ Holds mem (0, 0) a.list ∧ Room mem (0, 0) 2 ∧ (((0, 0) : Ptr) = (0, 0) ∨ Apart (0, 0) 2 (0, 0) 2) ∧ (((0, 0) : Ptr) = (0, 0) ∨ Apart (0, 0) 2 (0, 0) 2) :=
  ⟨.block rfl, .block rfl, .block rfl rfl, Or.inl rfl, Or.inl rfl⟩

theorem C55_vec2_subs {mem : Mem α} {vP destP : Ptr} {v : V2 α} (s : α) (h_v : Holds mem vP v.list) (r_dest : Room mem destP 2) (s_v_dest : vP = destP ∨ Apart vP 2 destP 2) :
    C.glm_vec2_subs.run mem [vP.val, .f s, destP.val] =
      some (none, writes mem [(destP, (Cglm.glm_vec2_subs v s).list.map .f)]) := by
  rcases s_v_dest with s_v_dest | s_v_dest
  · subst s_v_dest
    exact transferL ((R.nil _).addW h_v.has r_dest .nil) (.p rfl (.f (.p rfl .nil))) (glm_vec2_subs_run_v _ _) (DT.val_done _) rfl rfl
  · exact transferL (((R.nil _).addW r_dest.has r_dest .nil).addR h_v.has (.cons s_v_dest .nil)) (.p rfl (.f (.p rfl .nil))) (glm_vec2_subs_run _ _) (DT.val_done _) rfl rfl
example (v : V2 α) : let mem : Mem α := [⟨true, v.list.map .f⟩]
    Holds mem (0, 0) v.list ∧ Room mem (0, 0) 2 ∧ (((0, 0) : Ptr) = (0, 0) ∨ Apart (0, 0) 2 (0, 0) 2) :=
  ⟨.block rfl, .block rfl rfl, Or.inl rfl⟩

theorem C55_vec2_mul {mem : Mem α} {aP bP destP : Ptr} {a : V2 α} {b : V2 α} (h_a : Holds mem aP a.list) (h_b : Holds mem bP b.list) (r_dest : Room mem destP 2) (s_a_dest : aP = destP ∨ Apart aP 2 destP 2) (s_b_dest : bP = destP ∨ Apart bP 2 destP 2) :
    C.glm_vec2_mul.run mem [aP.val, bP.val, destP.val] =
      some (none, writes mem [(destP, (Cglm.glm_vec2_mul a b).list.map .f)]) := by
  rcases s_a_dest with s_a_dest | s_a_dest
  · subst s_a_dest
    rcases s_b_dest with s_b_dest | s_b_dest
    · subst s_b_dest
      obtain rfl := V2.list_inj (h_a.inj h_b rfl)
      exact transferL ((R.nil _).addW h_a.has r_dest .nil) (.p rfl (.p rfl (.p rfl .nil))) (glm_vec2_mul_run_a_b _) (DT.val_done _) rfl rfl
    · exact transferL (((R.nil _).addW h_a.has r_dest .nil).addR h_b.has (.cons s_b_dest .nil)) (.p rfl (.p rfl (.p rfl .nil))) (glm_vec2_mul_run_a _ _) (DT.val_done _) rfl rfl
  · rcases s_b_dest with s_b_dest | s_b_dest
    · subst s_b_dest
      exact transferL (((R.nil _).addW h_b.has r_dest .nil).addR h_a.has (.cons s_a_dest .nil)) (.p rfl (.p rfl (.p rfl .nil))) (glm_vec2_mul_run_b _ _) (DT.val_done _) rfl rfl
    · exact transferL ((((R.nil _).addW r_dest.has r_dest .nil).addR h_b.has (.cons s_b_dest .nil)).addR h_a.has (.skip (.cons s_a_dest .nil))) (.p rfl (.p rfl (.p rfl .nil))) (glm_vec2_mul_run _ _) (DT.val_done _) rfl rfl
example (a : V2 α) : let mem : Mem α := [⟨true, a.list.map .f⟩]
    Holds mem (0, 0) a.list ∧ Holds mem (0, 0) a.list ∧ Room mem (0, 0) 2 ∧ (((0, 0) : Ptr) = (0, 0) ∨ Apart (0, 0) 2 (0, 0) 2) ∧ (((0, 0) : Ptr) = (0, 0) ∨ Apart (0, 0) 2 (0, 0) 2) :=
  ⟨.block rfl, .block rfl, .block rfl rfl, Or.inl rfl, Or.inl rfl⟩

theorem C55_vec2_scale {mem : Mem α} {vP destP : Ptr} {v : V2 α} (s : α) (h_v : Holds mem vP v.list) (r_dest : Room mem destP 2) (s_v_dest : vP = destP ∨ Apart vP 2 destP 2) :
    C.glm_vec2_scale.run mem [vP.val, .f s, destP.val] =
      some (none, writes mem [(destP, (Cglm.glm_vec2_scale v s).list.map .f)]) := by
  rcases s_v_dest with s_v_dest | s_v_dest
  · subst s_v_dest
    exact transferL ((R.nil _).addW h_v.has r_dest .nil) (.p rfl (.f (.p rfl .nil))) (glm_vec2_scale_run_v _ _) (DT.val_done _) rfl rfl
  · exact transferL (((R.nil _).addW r_dest.has r_dest .nil).addR h_v.has (.cons s_v_dest .nil)) (.p rfl (.f (.p rfl .nil))) (glm_vec2_scale_run _ _) (DT.val_done _) rfl rfl
example (v : V2 α) : let mem : Mem α := [⟨true, v.list.map .f⟩]
    Holds mem (0, 0) v.list ∧ Room mem (0, 0) 2 ∧ (((0, 0) : Ptr) = (0, 0) ∨ Apart (0, 0) 2 (0, 0) 2) :=
  ⟨.block rfl, .block rfl rfl, Or.inl rfl⟩

theorem C55_vec2_scale_as {mem : Mem α} {vP destP : Ptr} {v : V2 α} (s : α) (h_v : Holds mem vP v.list) (r_dest : Room mem destP 2) (s_v_dest : vP = destP ∨ Apart vP 2 destP 2) :
    C.glm_vec2_scale_as.run mem [vP.val, .f s, destP.val] =
      some (none, writes mem [(destP, (Cglm.glm_vec2_scale_as v s).list.map .f)]) := by
  rcases s_v_dest with s_v_dest | s_v_dest
  · subst s_v_dest
    exact transferL ((R.nil _).addW h_v.has r_dest .nil) (.p rfl (.f (.p rfl .nil))) (glm_vec2_scale_as_run_v _ _) (DT.val_map_eq (glm_vec2_scale_as_dt_val _ _) rfl) rfl rfl
  · exact transferL (((R.nil _).addW r_dest.has r_dest .nil).addR h_v.has (.cons s_v_dest .nil)) (.p rfl (.f (.p rfl .nil))) (glm_vec2_scale_as_run _ _) (DT.val_map_eq (glm_vec2_scale_as_dt_val _ _) rfl) rfl rfl
example (v : V2 α) : let mem : Mem α := [⟨true, v.list.map .f⟩]
    Holds mem (0, 0) v.list ∧ Room mem (0, 0) 2 ∧ (((0, 0) : Ptr) = (0, 0) ∨ Apart (0, 0) 2 (0, 0) 2) :=
  ⟨.block rfl, .block rfl rfl, Or.inl rfl⟩

theorem C55_vec2_div {mem : Mem α} {aP bP destP : Ptr} {a : V2 α} {b : V2 α} (h_a : Holds mem aP a.list) (h_b : Holds mem bP b.list) (r_dest : Room mem destP 2) (s_a_dest : aP = destP ∨ Apart aP 2 destP 2) (s_b_dest : bP = destP ∨ Apart bP 2 destP 2) :
    C.glm_vec2_div.run mem [aP.val, bP.val, destP.val] =
      some (none, writes mem [(destP, (Cglm.glm_vec2_div a b).list.map .f)]) := by
  rcases s_a_dest with s_a_dest | s_a_dest
  · subst s_a_dest
    rcases s_b_dest with s_b_dest | s_b_dest
    · subst s_b_dest
      obtain rfl := V2.list_inj (h_a.inj h_b rfl)
      exact transferL ((R.nil _).addW h_a.has r_dest .nil) (.p rfl (.p rfl (.p rfl .nil))) (glm_vec2_div_run_a_b _) (DT.val_done _) rfl rfl
    · exact transferL (((R.nil _).addW h_a.has r_dest .nil).addR h_b.has (.cons s_b_dest .nil)) (.p rfl (.p rfl (.p rfl .nil))) (glm_vec2_div_run_a _ _) (DT.val_done _) rfl rfl
  · rcases s_b_dest with s_b_dest | s_b_dest
    · subst s_b_dest
      exact transferL (((R.nil _).addW h_b.has r_dest .nil).addR h_a.has (.cons s_a_dest .nil)) (.p rfl (.p rfl (.p rfl .nil))) (glm_vec2_div_run_b _ _) (DT.val_done _) rfl rfl
    · exact transferL ((((R.nil _).addW r_dest.has r_dest .nil).addR h_b.has (.cons s_b_dest .nil)).addR h_a.has (.skip (.cons s_a_dest .nil))) (.p rfl (.p rfl (.p rfl .nil))) (glm_vec2_div_run _ _) (DT.val_done _) rfl rfl
example (a : V2 α) : let mem : Mem α := [⟨true, a.list.map .f⟩]
    Holds mem (0, 0) a.list ∧ Holds mem (0, 0) a.list ∧ Room mem (0, 0) 2 ∧ (((0, 0) : Ptr) = (0, 0) ∨ Apart (0, 0) 2 (0, 0) 2) ∧ (((0, 0) : Ptr) = (0, 0) ∨ Apart (0, 0) 2 (0, 0) 2) :=
  ⟨.block rfl, .block rfl, .block rfl rfl, Or.inl rfl, Or.inl rfl⟩

theorem C55_vec2_divs {mem : Mem α} {vP destP : Ptr} {v : V2 α} (s : α) (h_v : Holds mem vP v.list) (r_dest : Room mem destP 2) (s_v_dest : vP = destP ∨ Apart vP 2 destP 2) :
    C.glm_vec2_divs.run mem [vP.val, .f s, destP.val] =
      some (none, writes mem [(destP, (Cglm.glm_vec2_divs v s).list.map .f)]) := by
  rcases s_v_dest with s_v_dest | s_v_dest
  · subst s_v_dest
    exact transferL ((R.nil _).addW h_v.has r_dest .nil) (.p rfl (.f (.p rfl .nil))) (glm_vec2_divs_run_v _ _) (DT.val_done _) rfl rfl
  · exact transferL (((R.nil _).addW r_dest.has r_dest .nil).addR h_v.has (.cons s_v_dest .nil)) (.p rfl (.f (.p rfl .nil))) (glm_vec2_divs_run _ _) (DT.val_done _) rfl rfl
example (v : V2 α) : let mem : Mem α := [⟨true, v.list.map .f⟩]
    Holds mem (0, 0) v.list ∧ Room mem (0, 0) 2 ∧ (((0, 0) : Ptr) = (0, 0) ∨ Apart (0, 0) 2 (0, 0) 2) :=
  ⟨.block rfl, .block rfl rfl, Or.inl rfl⟩

theorem C55_vec2_addadd {mem : Mem α} {aP bP destP : Ptr} {a : V2 α} {b : V2 α} {dest : V2 α} (h_a : Holds mem aP a.list) (h_b : Holds mem bP b.list) (h_dest : Holds mem destP dest.list) (r_dest : Room mem destP 2) (s_a_dest : aP = destP ∨ Apart aP 2 destP 2) (s_b_dest : bP = destP ∨ Apart bP 2 destP 2) :
    C.glm_vec2_addadd.run mem [aP.val, bP.val, destP.val] =
      some (none, writes mem [(destP, (Cglm.glm_vec2_addadd a b dest).list.map .f)]) := by
  rcases s_a_dest with s_a_dest | s_a_dest
  · subst s_a_dest
    rcases s_b_dest with s_b_dest | s_b_dest
    · subst s_b_dest
      obtain rfl := V2.list_inj (h_dest.inj h_a rfl)
      obtain rfl := V2.list_inj (h_dest.inj h_b rfl)
      exact transferL ((R.nil _).addW h_dest.has r_dest .nil) (.p rfl (.p rfl (.p rfl .nil))) (glm_vec2_addadd_run_a_b _) (DT.val_done _) rfl rfl
    · obtain rfl := V2.list_inj (h_dest.inj h_a rfl)
      exact transferL (((R.nil _).addW h_dest.has r_dest .nil).addR h_b.has (.cons s_b_dest .nil)) (.p rfl (.p rfl (.p rfl .nil))) (glm_vec2_addadd_run_a _ _) (DT.val_done _) rfl rfl
  · rcases s_b_dest with s_b_dest | s_b_dest
    · subst s_b_dest
      obtain rfl := V2.list_inj (h_dest.inj h_b rfl)
      exact transferL (((R.nil _).addW h_dest.has r_dest .nil).addR h_a.has (.cons s_a_dest .nil)) (.p rfl (.p rfl (.p rfl .nil))) (glm_vec2_addadd_run_b _ _) (DT.val_done _) rfl rfl
    · exact transferL ((((R.nil _).addW h_dest.has r_dest .nil).addR h_b.has (.cons s_b_dest .nil)).addR h_a.has (.skip (.cons s_a_dest .nil))) (.p rfl (.p rfl (.p rfl .nil))) (glm_vec2_addadd_run _ _ _) (DT.val_done _) rfl rfl
example (dest : V2 α) : let mem : Mem α := [⟨true, dest.list.map .f⟩]
    Holds mem (0, 0) dest.list ∧ Holds mem (0, 0) dest.list ∧ Holds mem (0, 0) dest.list ∧ Room mem (0, 0) 2 ∧ (((0, 0) : Ptr) = (0, 0) ∨ Apart (0, 0) 2 (0, 0) 2) ∧ (((0, 0) : Ptr) = (0, 0) ∨ Apart (0, 0) 2 (0, 0) 2) :=
  ⟨.block rfl, .block rfl, .block rfl, .block rfl rfl, Or.inl rfl, Or.inl rfl⟩

theorem C55_vec2_subadd {mem : Mem α} {aP bP destP : Ptr} {a : V2 α} {b : V2 α} {dest : V2 α} (h_a : Holds mem aP a.list) (h_b : Holds mem bP b.list) (h_dest : Holds mem destP dest.list) (r_dest : Room mem destP 2) (s_a_dest : aP = destP ∨ Apart aP 2 destP 2) (s_b_dest : bP = destP ∨ Apart bP 2 destP 2) :
    C.glm_vec2_subadd.run mem [aP.val, bP.val, destP.val] =
      some (none, writes mem [(destP, (Cglm.glm_vec2_subadd a b dest).list.map .f)]) := by
  rcases s_a_dest with s_a_dest | s_a_dest
  · subst s_a_dest
    rcases s_b_dest with s_b_dest | s_b_dest
    · subst s_b_dest
      obtain rfl := V2.list_inj (h_dest.inj h_a rfl)
      obtain rfl := V2.list_inj (h_dest.inj h_b rfl)
      exact transferL ((R.nil _).addW h_dest.has r_dest .nil) (.p rfl (.p rfl (.p rfl .nil))) (glm_vec2_subadd_run_a_b _) (DT.val_done _) rfl rfl
    · obtain rfl := V2.list_inj (h_dest.inj h_a rfl)
      exact transferL (((R.nil _).addW h_dest.has r_dest .nil).addR h_b.has (.cons s_b_dest .nil)) (.p rfl (.p rfl (.p rfl .nil))) (glm_vec2_subadd_run_a _ _) (DT.val_done _) rfl rfl
  · rcases s_b_dest with s_b_dest | s_b_dest
    · subst s_b_dest
      obtain rfl := V2.list_inj (h_dest.inj h_b rfl)
      exact transferL (((R.nil _).addW h_dest.has r_dest .nil).addR h_a.has (.cons s_a_dest .nil)) (.p rfl (.p rfl (.p rfl .nil))) (glm_vec2_subadd_run_b _ _) (DT.val_done _) rfl rfl
    · exact transferL ((((R.nil _).addW h_dest.has r_dest .nil).addR h_b.has (.cons s_b_dest .nil)).addR h_a.has (.skip (.cons s_a_dest .nil))) (.p rfl (.p rfl (.p rfl .nil))) (glm_vec2_subadd_run _ _ _) (DT.val_done _) rfl rfl
example (dest : V2 α) : let mem : Mem α := [⟨true, dest.list.map .f⟩]
    Holds mem (0, 0) dest.list ∧ Holds mem (0, 0) dest.list ∧ Holds mem (0, 0) dest.list ∧ Room mem (0, 0) 2 ∧ (((0, 0) : Ptr) = (0, 0) ∨ Apart (0, 0) 2 (0, 0) 2) ∧ (((0, 0) : Ptr) = (0, 0) ∨ Apart (0, 0) 2 (0, 0) 2) :=
  ⟨.block rfl, .block rfl, .block rfl, .block rfl rfl, Or.inl rfl, Or.inl rfl⟩

theorem C55_vec2_muladd {mem : Mem α} {aP bP destP : Ptr} {a : V2 α} {b : V2 α} {dest : V2 α} (h_a : Holds mem aP a.list) (h_b : Holds mem bP b.list) (h_dest : Holds mem destP dest.list) (r_dest : Room mem destP 2) (s_a_dest : aP = destP ∨ Apart aP 2 destP 2) (s_b_dest : bP = destP ∨ Apart bP 2 destP 2) :
    C.glm_vec2_muladd.run mem [aP.val, bP.val, destP.val] =
      some (none, writes mem [(destP, (Cglm.glm_vec2_muladd a b dest).list.map .f)]) := by
  rcases s_a_dest with s_a_dest | s_a_dest
  · subst s_a_dest
    rcases s_b_dest with s_b_dest | s_b_dest
    · subst s_b_dest
      obtain rfl := V2.list_inj (h_dest.inj h_a rfl)
      obtain rfl := V2.list_inj (h_dest.inj h_b rfl)
      exact transferL ((R.nil _).addW h_dest.has r_dest .nil) (.p rfl (.p rfl (.p rfl .nil))) (glm_vec2_muladd_run_a_b _) (DT.val_done _) rfl rfl
    · obtain rfl := V2.list_inj (h_dest.inj h_a rfl)
      exact transferL (((R.nil _).addW h_dest.has r_dest .nil).addR h_b.has (.cons s_b_dest .nil)) (.p rfl (.p rfl (.p rfl .nil))) (glm_vec2_muladd_run_a _ _) (DT.val_done _) rfl rfl
  · rcases s_b_dest with s_b_dest | s_b_dest
    · subst s_b_dest
      obtain rfl := V2.list_inj (h_dest.inj h_b rfl)
      exact transferL (((R.nil _).addW h_dest.has r_dest .nil).addR h_a.has (.cons s_a_dest .nil)) (.p rfl (.p rfl (.p rfl .nil))) (glm_vec2_muladd_run_b _ _) (DT.val_done _) rfl rfl
    · exact transferL ((((R.nil _).addW h_dest.has r_dest .nil).addR h_b.has (.cons s_b_dest .nil)).addR h_a.has (.skip (.cons s_a_dest .nil))) (.p rfl (.p rfl (.p rfl .nil))) (glm_vec2_muladd_run _ _ _) (DT.val_done _) rfl rfl
example (dest : V2 α) : let mem : Mem α := [⟨true, dest.list.map .f⟩]
    Holds mem (0, 0) dest.list ∧ Holds mem (0, 0) dest.list ∧ Holds mem (0, 0) dest.list ∧ Room mem (0, 0) 2 ∧ (((0, 0) : Ptr) = (0, 0) ∨ Apart (0, 0) 2 (0, 0) 2) ∧ (((0, 0) : Ptr) = (0, 0) ∨ Apart (0, 0) 2 (0, 0) 2) :=
  ⟨.block rfl, .block rfl, .block rfl, .block rfl rfl, Or.inl rfl, Or.inl rfl⟩

theorem C55_vec2_muladds {mem : Mem α} {aP destP : Ptr} {a : V2 α} (s : α) {dest : V2 α} (h_a : Holds mem aP a.list) (h_dest : Holds mem destP dest.list) (r_dest : Room mem destP 2) (s_a_dest : aP = destP ∨ Apart aP 2 destP 2) :
    C.glm_vec2_muladds.run mem [aP.val, .f s, destP.val] =
      some (none, writes mem [(destP, (Cglm.glm_vec2_muladds a s dest).list.map .f)]) := by
  rcases s_a_dest with s_a_dest | s_a_dest
  · subst s_a_dest
    obtain rfl := V2.list_inj (h_dest.inj h_a rfl)
    exact transferL ((R.nil _).addW h_dest.has r_dest .nil) (.p rfl (.f (.p rfl .nil))) (glm_vec2_muladds_run_a _ _) (DT.val_done _) rfl rfl
  · exact transferL (((R.nil _).addW h_dest.has r_dest .nil).addR h_a.has (.cons s_a_dest .nil)) (.p rfl (.f (.p rfl .nil))) (glm_vec2_muladds_run _ _ _) (DT.val_done _) rfl rfl
example (dest : V2 α) : let mem : Mem α := [⟨true, dest.list.map .f⟩]
    Holds mem (0, 0) dest.list ∧ Holds mem (0, 0) dest.list ∧ Room mem (0, 0) 2 ∧ (((0, 0) : Ptr) = (0, 0) ∨ Apart (0, 0) 2 (0, 0) 2) :=
  ⟨.block rfl, .block rfl, .block rfl rfl, Or.inl rfl⟩

theorem C55_vec2_maxadd {mem : Mem α} {aP bP destP : Ptr} {a : V2 α} {b : V2 α} {dest : V2 α} (h_a : Holds mem aP a.list) (h_b : Holds mem bP b.list) (h_dest : Holds mem destP dest.list) (r_dest : Room mem destP 2) (s_a_dest : aP = destP ∨ Apart aP 2 destP 2) (s_b_dest : bP = destP ∨ Apart bP 2 destP 2) :
    C.glm_vec2_maxadd.run mem [aP.val, bP.val, destP.val] =
      some (none, writes mem [(destP, (Cglm.glm_vec2_maxadd a b dest).list.map .f)]) := by
  rcases s_a_dest with s_a_dest | s_a_dest
  · subst s_a_dest
    rcases s_b_dest with s_b_dest | s_b_dest
    · subst s_b_dest
      obtain rfl := V2.list_inj (h_dest.inj h_a rfl)
      obtain rfl := V2.list_inj (h_dest.inj h_b rfl)
      exact transferL ((R.nil _).addW h_dest.has r_dest .nil) (.p rfl (.p rfl (.p rfl .nil))) (glm_vec2_maxadd_run_a_b _) (DT.val_done _) rfl rfl
    · obtain rfl := V2.list_inj (h_dest.inj h_a rfl)
      exact transferL (((R.nil _).addW h_dest.has r_dest .nil).addR h_b.has (.cons s_b_dest .nil)) (.p rfl (.p rfl (.p rfl .nil))) (glm_vec2_maxadd_run_a _ _) (DT.val_done _) rfl rfl
  · rcases s_b_dest with s_b_dest | s_b_dest
    · subst s_b_dest
      obtain rfl := V2.list_inj (h_dest.inj h_b rfl)
      exact transferL (((R.nil _).addW h_dest.has r_dest .nil).addR h_a.has (.cons s_a_dest .nil)) (.p rfl (.p rfl (.p rfl .nil))) (glm_vec2_maxadd_run_b _ _) (DT.val_done _) rfl rfl
    · exact transferL ((((R.nil _).addW h_dest.has r_dest .nil).addR h_b.has (.cons s_b_dest .nil)).addR h_a.has (.skip (.cons s_a_dest .nil))) (.p rfl (.p rfl (.p rfl .nil))) (glm_vec2_maxadd_run _ _ _) (DT.val_done _) rfl rfl
example (dest : V2 α) : let mem : Mem α := [⟨true, dest.list.map .f⟩]
    Holds mem (0, 0) dest.list ∧ Holds mem (0, 0) dest.list ∧ Holds mem (0, 0) dest.list ∧ Room mem (0, 0) 2 ∧ (((0, 0) : Ptr) = (0, 0) ∨ Apart (0, 0) 2 (0, 0) 2) ∧ (((0, 0) : Ptr) = (0, 0) ∨ Apart (0, 0) 2 (0, 0) 2) :=
  ⟨.block rfl, .block rfl, .block rfl, .block rfl rfl, Or.inl rfl, Or.inl rfl⟩

theorem C55_vec2_minadd {mem : Mem α} {aP bP destP : Ptr} {a : V2 α} {b : V2 α} {dest : V2 α} (h_a : Holds mem aP a.list) (h_b : Holds mem bP b.list) (h_dest : Holds mem destP dest.list) (r_dest : Room mem destP 2) (s_a_dest : aP = destP ∨ Apart aP 2 destP 2) (s_b_dest : bP = destP ∨ Apart bP 2 destP 2) :
    C.glm_vec2_minadd.run mem [aP.val, bP.val, destP.val] =
      some (none, writes mem [(destP, (Cglm.glm_vec2_minadd a b dest).list.map .f)]) := by
  rcases s_a_dest with s_a_dest | s_a_dest
  · subst s_a_dest
    rcases s_b_dest with s_b_dest | s_b_dest
    · subst s_b_dest
      obtain rfl := V2.list_inj (h_dest.inj h_a rfl)
      obtain rfl := V2.list_inj (h_dest.inj h_b rfl)
      exact transferL ((R.nil _).addW h_dest.has r_dest .nil) (.p rfl (.p rfl (.p rfl .nil))) (glm_vec2_minadd_run_a_b _) (DT.val_done _) rfl rfl
    · obtain rfl := V2.list_inj (h_dest.inj h_a rfl)
      exact transferL (((R.nil _).addW h_dest.has r_dest .nil).addR h_b.has (.cons s_b_dest .nil)) (.p rfl (.p rfl (.p rfl .nil))) (glm_vec2_minadd_run_a _ _) (DT.val_done _) rfl rfl
  · rcases s_b_dest with s_b_dest | s_b_dest
    · subst s_b_dest
      obtain rfl := V2.list_inj (h_dest.inj h_b rfl)
      exact transferL (((R.nil _).addW h_dest.has r_dest .nil).addR h_a.has (.cons s_a_dest .nil)) (.p rfl (.p rfl (.p rfl .nil))) (glm_vec2_minadd_run_b _ _) (DT.val_done _) rfl rfl
    · exact transferL ((((R.nil _).addW h_dest.has r_dest .nil).addR h_b.has (.cons s_b_dest .nil)).addR h_a.has (.skip (.cons s_a_dest .nil))) (.p rfl (.p rfl (.p rfl .nil))) (glm_vec2_minadd_run _ _ _) (DT.val_done _) rfl rfl
example (dest : V2 α) : let mem : Mem α := [⟨true, dest.list.map .f⟩]
    Holds mem (0, 0) dest.list ∧ Holds mem (0, 0) dest.list ∧ Holds mem (0, 0) dest.list ∧ Room mem (0, 0) 2 ∧ (((0, 0) : Ptr) = (0, 0) ∨ Apart (0, 0) 2 (0, 0) 2) ∧ (((0, 0) : Ptr) = (0, 0) ∨ Apart (0, 0) 2 (0, 0) 2) :=
  ⟨.block rfl, .block rfl, .block rfl, .block rfl rfl, Or.inl rfl, Or.inl rfl⟩

theorem C55_vec2_subsub {mem : Mem α} {aP bP destP : Ptr} {a : V2 α} {b : V2 α} {dest : V2 α} (h_a : Holds mem aP a.list) (h_b : Holds mem bP b.list) (h_dest : Holds mem destP dest.list) (r_dest : Room mem destP 2) (s_a_dest : aP = destP ∨ Apart aP 2 destP 2) (s_b_dest : bP = destP ∨ Apart bP 2 destP 2) :
    C.glm_vec2_subsub.run mem [aP.val, bP.val, destP.val] =
      some (none, writes mem [(destP, (Cglm.glm_vec2_subsub a b dest).list.map .f)]) := by
  rcases s_a_dest with s_a_dest | s_a_dest
  · subst s_a_dest
    rcases s_b_dest with s_b_dest | s_b_dest
    · subst s_b_dest
      obtain rfl := V2.list_inj (h_dest.inj h_a rfl)
      obtain rfl := V2.list_inj (h_dest.inj h_b rfl)
      exact transferL ((R.nil _).addW h_dest.has r_dest .nil) (.p rfl (.p rfl (.p rfl .nil))) (glm_vec2_subsub_run_a_b _) (DT.val_done _) rfl rfl
    · obtain rfl := V2.list_inj (h_dest.inj h_a rfl)
      exact transferL (((R.nil _).addW h_dest.has r_dest .nil).addR h_b.has (.cons s_b_dest .nil)) (.p rfl (.p rfl (.p rfl .nil))) (glm_vec2_subsub_run_a _ _) (DT.val_done _) rfl rfl
  · rcases s_b_dest with s_b_dest | s_b_dest
    · subst s_b_dest
      obtain rfl := V2.list_inj (h_dest.inj h_b rfl)
      exact transferL (((R.nil _).addW h_dest.has r_dest .nil).addR h_a.has (.cons s_a_dest .nil)) (.p rfl (.p rfl (.p rfl .nil))) (glm_vec2_subsub_run_b _ _) (DT.val_done _) rfl rfl
    · exact transferL ((((R.nil _).addW h_dest.has r_dest .nil).addR h_b.has (.cons s_b_dest .nil)).addR h_a.has (.skip (.cons s_a_dest .nil))) (.p rfl (.p rfl (.p rfl .nil))) (glm_vec2_subsub_run _ _ _) (DT.val_done _) rfl rfl
example (dest : V2 α) : let mem : Mem α := [⟨true, dest.list.map .f⟩]
    Holds mem (0, 0) dest.list ∧ Holds mem (0, 0) dest.list ∧ Holds mem (0, 0) dest.list ∧ Room mem (0, 0) 2 ∧ (((0, 0) : Ptr) = (0, 0) ∨ Apart (0, 0) 2 (0, 0) 2) ∧ (((0, 0) : Ptr) = (0, 0) ∨ Apart (0, 0) 2 (0, 0) 2) :=
  ⟨.block rfl, .block rfl, .block rfl, .block rfl rfl, Or.inl rfl, Or.inl rfl⟩

theorem C55_vec2_addsub {mem : Mem α} {aP bP destP : Ptr} {a : V2 α} {b : V2 α} {dest : V2 α} (h_a : Holds mem aP a.list) (h_b : Holds mem bP b.list) (h_dest : Holds mem destP dest.list) (r_dest : Room mem destP 2) (s_a_dest : aP = destP ∨ Apart aP 2 destP 2) (s_b_dest : bP = destP ∨ Apart bP 2 destP 2) :
    C.glm_vec2_addsub.run mem [aP.val, bP.val, destP.val] =
      some (none, writes mem [(destP, (Cglm.glm_vec2_addsub a b dest).list.map .f)]) := by
  rcases s_a_dest with s_a_dest | s_a_dest
  · subst s_a_dest
    rcases s_b_dest with s_b_dest | s_b_dest
    · subst s_b_dest
      obtain rfl := V2.list_inj (h_dest.inj h_a rfl)
      obtain rfl := V2.list_inj (h_dest.inj h_b rfl)
      exact transferL ((R.nil _).addW h_dest.has r_dest .nil) (.p rfl (.p rfl (.p rfl .nil))) (glm_vec2_addsub_run_a_b _) (DT.val_done _) rfl rfl
    · obtain rfl := V2.list_inj (h_dest.inj h_a rfl)
      exact transferL (((R.nil _).addW h_dest.has r_dest .nil).addR h_b.has (.cons s_b_dest .nil)) (.p rfl (.p rfl (.p rfl .nil))) (glm_vec2_addsub_run_a _ _) (DT.val_done _) rfl rfl
  · rcases s_b_dest with s_b_dest | s_b_dest
    · subst s_b_dest
      obtain rfl := V2.list_inj (h_dest.inj h_b rfl)
      exact transferL (((R.nil _).addW h_dest.has r_dest .nil).addR h_a.has (.cons s_a_dest .nil)) (.p rfl (.p rfl (.p rfl .nil))) (glm_vec2_addsub_run_b _ _) (DT.val_done _) rfl rfl
    · exact transferL ((((R.nil _).addW h_dest.has r_dest .nil).addR h_b.has (.cons s_b_dest .nil)).addR h_a.has (.skip (.cons s_a_dest .nil))) (.p rfl (.p rfl (.p rfl .nil))) (glm_vec2_addsub_run _ _ _) (DT.val_done _) rfl rfl
example (dest : V2 α) : let mem : Mem α := [⟨true, dest.list.map .f⟩]
    Holds mem (0, 0) dest.list ∧ Holds mem (0, 0) dest.list ∧ Holds mem (0, 0) dest.list ∧ Room mem (0, 0) 2 ∧ (((0, 0) : Ptr) = (0, 0) ∨ Apart (0, 0) 2 (0, 0) 2) ∧ (((0, 0) : Ptr) = (0, 0) ∨ Apart (0, 0) 2 (0, 0) 2) :=
  ⟨.block rfl, .block rfl, .block rfl, .block rfl rfl, Or.inl rfl, Or.inl rfl⟩

theorem C55_vec2_mulsub {mem : Mem α} {aP bP destP : Ptr} {a : V2 α} {b : V2 α} {dest : V2 α} (h_a : Holds mem aP a.list) (h_b : Holds mem bP b.list) (h_dest : Holds mem destP dest.list) (r_dest : Room mem destP 2) (s_a_dest : aP = destP ∨ Apart aP 2 destP 2) (s_b_dest : bP = destP ∨ Apart bP 2 destP 2) :
    C.glm_vec2_mulsub.run mem [aP.val, bP.val, destP.val] =
      some (none, writes mem [(destP, (Cglm.glm_vec2_mulsub a b dest).list.map .f)]) := by
  rcases s_a_dest with s_a_dest | s_a_dest
  · subst s_a_dest
    rcases s_b_dest with s_b_dest | s_b_dest
    · subst s_b_dest
      obtain rfl := V2.list_inj (h_dest.inj h_a rfl)
      obtain rfl := V2.list_inj (h_dest.inj h_b rfl)
      exact transferL ((R.nil _).addW h_dest.has r_dest .nil) (.p rfl (.p rfl (.p rfl .nil))) (glm_vec2_mulsub_run_a_b _) (DT.val_done _) rfl rfl
    · obtain rfl := V2.list_inj (h_dest.inj h_a rfl)
      exact transferL (((R.nil _).addW h_dest.has r_dest .nil).addR h_b.has (.cons s_b_dest .nil)) (.p rfl (.p rfl (.p rfl .nil))) (glm_vec2_mulsub_run_a _ _) (DT.val_done _) rfl rfl
  · rcases s_b_dest with s_b_dest | s_b_dest
    · subst s_b_dest
      obtain rfl := V2.list_inj (h_dest.inj h_b rfl)
      exact transferL (((R.nil _).addW h_dest.has r_dest .nil).addR h_a.has (.cons s_a_dest .nil)) (.p rfl (.p rfl (.p rfl .nil))) (glm_vec2_mulsub_run_b _ _) (DT.val_done _) rfl rfl
    · exact transferL ((((R.nil _).addW h_dest.has r_dest .nil).addR h_b.has (.cons s_b_dest .nil)).addR h_a.has (.skip (.cons s_a_dest .nil))) (.p rfl (.p rfl (.p rfl .nil))) (glm_vec2_mulsub_run _ _ _) (DT.val_done _) rfl rfl
example (dest : V2 α) : let mem : Mem α := [⟨true, dest.list.map .f⟩]
    Holds mem (0, 0) dest.list ∧ Holds mem (0, 0) dest.list ∧ Holds mem (0, 0) dest.list ∧ Room mem (0, 0) 2 ∧ (((0, 0) : Ptr) = (0, 0) ∨ Apart (0, 0) 2 (0, 0) 2) ∧ (((0, 0) : Ptr) = (0, 0) ∨ Apart (0, 0) 2 (0, 0) 2) :=
  ⟨.block rfl, .block rfl, .block rfl, .block rfl rfl, Or.inl rfl, Or.inl rfl⟩

theorem C55_vec2_mulsubs {mem : Mem α} {aP destP : Ptr} {a : V2 α} (s : α) {dest : V2 α} (h_a : Holds mem aP a.list) (h_dest : Holds mem destP dest.list) (r_dest : Room mem destP 2) (s_a_dest : aP = destP ∨ Apart aP 2 destP 2) :
    C.glm_vec2_mulsubs.run mem [aP.val, .f s, destP.val] =
      some (none, writes mem [(destP, (Cglm.glm_vec2_mulsubs a s dest).list.map .f)]) := by
  rcases s_a_dest with s_a_dest | s_a_dest
  · subst s_a_dest
    obtain rfl := V2.list_inj (h_dest.inj h_a rfl)
    exact transferL ((R.nil _).addW h_dest.has r_dest .nil) (.p rfl (.f (.p rfl .nil))) (glm_vec2_mulsubs_run_a _ _) (DT.val_done _) rfl rfl
  · exact transferL (((R.nil _).addW h_dest.has r_dest .nil).addR h_a.has (.cons s_a_dest .nil)) (.p rfl (.f (.p rfl .nil))) (glm_vec2_mulsubs_run _ _ _) (DT.val_done _) rfl rfl
example (dest : V2 α) : let mem : Mem α := [⟨true, dest.list.map .f⟩]
    Holds mem (0, 0) dest.list ∧ Holds mem (0, 0) dest.list ∧ Room mem (0, 0) 2 ∧ (((0, 0) : Ptr) = (0, 0) ∨ Apart (0, 0) 2 (0, 0) 2) :=
  ⟨.block rfl, .block rfl, .block rfl rfl, Or.inl rfl⟩

theorem C55_vec2_maxsub {mem : Mem α} {aP bP destP : Ptr} {a : V2 α} {b : V2 α} {dest : V2 α} (h_a : Holds mem aP a.list) (h_b : Holds mem bP b.list) (h_dest : Holds mem destP dest.list) (r_dest : Room mem destP 2) (s_a_dest : aP = destP ∨ Apart aP 2 destP 2) (s_b_dest : bP = destP ∨ Apart bP 2 destP 2) :
    C.glm_vec2_maxsub.run mem [aP.val, bP.val, destP.val] =
      some (none, writes mem [(destP, (Cglm.glm_vec2_maxsub a b dest).list.map .f)]) := by
  rcases s_a_dest with s_a_dest | s_a_dest
  · subst s_a_dest
    rcases s_b_dest with s_b_dest | s_b_dest
    · subst s_b_dest
      obtain rfl := V2.list_inj (h_dest.inj h_a rfl)
      obtain rfl := V2.list_inj (h_dest.inj h_b rfl)
      exact transferL ((R.nil _).addW h_dest.has r_dest .nil) (.p rfl (.p rfl (.p rfl .nil))) (glm_vec2_maxsub_run_a_b _) (DT.val_done _) rfl rfl
    · obtain rfl := V2.list_inj (h_dest.inj h_a rfl)
      exact transferL (((R.nil _).addW h_dest.has r_dest .nil).addR h_b.has (.cons s_b_dest .nil)) (.p rfl (.p rfl (.p rfl .nil))) (glm_vec2_maxsub_run_a _ _) (DT.val_done _) rfl rfl
  · rcases s_b_dest with s_b_dest | s_b_dest
    · subst s_b_dest
      obtain rfl := V2.list_inj (h_dest.inj h_b rfl)
      exact transferL (((R.nil _).addW h_dest.has r_dest .nil).addR h_a.has (.cons s_a_dest .nil)) (.p rfl (.p rfl (.p rfl .nil))) (glm_vec2_maxsub_run_b _ _) (DT.val_done _) rfl rfl
    · exact transferL ((((R.nil _).addW h_dest.has r_dest .nil).addR h_b.has (.cons s_b_dest .nil)).addR h_a.has (.skip (.cons s_a_dest .nil))) (.p rfl (.p rfl (.p rfl .nil))) (glm_vec2_maxsub_run _ _ _) (DT.val_done _) rfl rfl
example (dest : V2 α) : let mem : Mem α := [⟨true, dest.list.map .f⟩]
    Holds mem (0, 0) dest.list ∧ Holds mem (0, 0) dest.list ∧ Holds mem (0, 0) dest.list ∧ Room mem (0, 0) 2 ∧ (((0, 0) : Ptr) = (0, 0) ∨ Apart (0, 0) 2 (0, 0) 2) ∧ (((0, 0) : Ptr) = (0, 0) ∨ Apart (0, 0) 2 (0, 0) 2) :=
  ⟨.block rfl, .block rfl, .block rfl, .block rfl rfl, Or.inl rfl, Or.inl rfl⟩

theorem C55_vec2_minsub {mem : Mem α} {aP bP destP : Ptr} {a : V2 α} {b : V2 α} {dest : V2 α} (h_a : Holds mem aP a.list) (h_b : Holds mem bP b.list) (h_dest : Holds mem destP dest.list) (r_dest : Room mem destP 2) (s_a_dest : aP = destP ∨ Apart aP 2 destP 2) (s_b_dest : bP = destP ∨ Apart bP 2 destP 2) :
    C.glm_vec2_minsub.run mem [aP.val, bP.val, destP.val] =
      some (none, writes mem [(destP, (Cglm.glm_vec2_minsub a b dest).list.map .f)]) := by
  rcases s_a_dest with s_a_dest | s_a_dest
  · subst s_a_dest
    rcases s_b_dest with s_b_dest | s_b_dest
    · subst s_b_dest
      obtain rfl := V2.list_inj (h_dest.inj h_a rfl)
      obtain rfl := V2.list_inj (h_dest.inj h_b rfl)
      exact transferL ((R.nil _).addW h_dest.has r_dest .nil) (.p rfl (.p rfl (.p rfl .nil))) (glm_vec2_minsub_run_a_b _) (DT.val_done _) rfl rfl
    · obtain rfl := V2.list_inj (h_dest.inj h_a rfl)
      exact transferL (((R.nil _).addW h_dest.has r_dest .nil).addR h_b.has (.cons s_b_dest .nil)) (.p rfl (.p rfl (.p rfl .nil))) (glm_vec2_minsub_run_a _ _) (DT.val_done _) rfl rfl
  · rcases s_b_dest with s_b_dest | s_b_dest
    · subst s_b_dest
      obtain rfl := V2.list_inj (h_dest.inj h_b rfl)
      exact transferL (((R.nil _).addW h_dest.has r_dest .nil).addR h_a.has (.cons s_a_dest .nil)) (.p rfl (.p rfl (.p rfl .nil))) (glm_vec2_minsub_run_b _ _) (DT.val_done _) rfl rfl
    · exact transferL ((((R.nil _).addW h_dest.has r_dest .nil).addR h_b.has (.cons s_b_dest .nil)).addR h_a.has (.skip (.cons s_a_dest .nil))) (.p rfl (.p rfl (.p rfl .nil))) (glm_vec2_minsub_run _ _ _) (DT.val_done _) rfl rfl
example (dest : V2 α) : let mem : Mem α := [⟨true, dest.list.map .f⟩]
    Holds mem (0, 0) dest.list ∧ Holds mem (0, 0) dest.list ∧ Holds mem (0, 0) dest.list ∧ Room mem (0, 0) 2 ∧ (((0, 0) : Ptr) = (0, 0) ∨ Apart (0, 0) 2 (0, 0) 2) ∧ (((0, 0) : Ptr) = (0, 0) ∨ Apart (0, 0) 2 (0, 0) 2) :=
  ⟨.block rfl, .block rfl, .block rfl, .block rfl rfl, Or.inl rfl, Or.inl rfl⟩

theorem C55_vec2_negate_to {mem : Mem α} {vP destP : Ptr} {v : V2 α} (h_v : Holds mem vP v.list) (r_dest : Room mem destP 2) (s_v_dest : vP = destP ∨ Apart vP 2 destP 2) :
    C.glm_vec2_negate_to.run mem [vP.val, destP.val] =
      some (none, writes mem [(destP, (Cglm.glm_vec2_negate_to v).list.map .f)]) := by
  rcases s_v_dest with s_v_dest | s_v_dest
  · subst s_v_dest
    exact transferL ((R.nil _).addW h_v.has r_dest .nil) (.p rfl (.p rfl .nil)) (glm_vec2_negate_to_run_v _) (DT.val_done _) rfl rfl
  · exact transferL (((R.nil _).addW r_dest.has r_dest .nil).addR h_v.has (.cons s_v_dest .nil)) (.p rfl (.p rfl .nil)) (glm_vec2_negate_to_run _) (DT.val_done _) rfl rfl
example (v : V2 α) : let mem : Mem α := [⟨true, v.list.map .f⟩]
    Holds mem (0, 0) v.list ∧ Room mem (0, 0) 2 ∧ (((0, 0) : Ptr) = (0, 0) ∨ Apart (0, 0) 2 (0, 0) 2) :=
  ⟨.block rfl, .block rfl rfl, Or.inl rfl⟩

theorem C55_vec2_normalize_to {mem : Mem α} {vP destP : Ptr} {v : V2 α} (h_v : Holds mem vP v.list) (r_dest : Room mem destP 2) (s_v_dest : vP = destP ∨ Apart vP 2 destP 2) :
    C.glm_vec2_normalize_to.run mem [vP.val, destP.val] =
      some (none, writes mem [(destP, (Cglm.glm_vec2_normalize_to v).list.map .f)]) := by
  rcases s_v_dest with s_v_dest | s_v_dest
  · subst s_v_dest
    exact transferL ((R.nil _).addW h_v.has r_dest .nil) (.p rfl (.p rfl .nil)) (glm_vec2_normalize_to_run_v _) (DT.val_map_eq (glm_vec2_normalize_to_dt_val _) rfl) rfl rfl
  · exact transferL (((R.nil _).addW r_dest.has r_dest .nil).addR h_v.has (.cons s_v_dest .nil)) (.p rfl (.p rfl .nil)) (glm_vec2_normalize_to_run _) (DT.val_map_eq (glm_vec2_normalize_to_dt_val _) rfl) rfl rfl
example (v : V2 α) : let mem : Mem α := [⟨true, v.list.map .f⟩]
    Holds mem (0, 0) v.list ∧ Room mem (0, 0) 2 ∧ (((0, 0) : Ptr) = (0, 0) ∨ Apart (0, 0) 2 (0, 0) 2) :=
  ⟨.block rfl, .block rfl rfl, Or.inl rfl⟩

theorem C55_vec2_rotate {mem : Mem α} {vP destP : Ptr} {v : V2 α} (angle : α) (h_v : Holds mem vP v.list) (r_dest : Room mem destP 2) (s_v_dest : vP = destP ∨ Apart vP 2 destP 2) :
    C.glm_vec2_rotate.run mem [vP.val, .f angle, destP.val] =
      some (none, writes mem [(destP, (Cglm.glm_vec2_rotate v angle).list.map .f)]) := by
  rcases s_v_dest with s_v_dest | s_v_dest
  · subst s_v_dest
    exact transferL ((R.nil _).addW h_v.has r_dest .nil) (.p rfl (.f (.p rfl .nil))) (glm_vec2_rotate_run_v _ _) (DT.val_done _) rfl rfl
  · exact transferL (((R.nil _).addW r_dest.has r_dest .nil).addR h_v.has (.cons s_v_dest .nil)) (.p rfl (.f (.p rfl .nil))) (glm_vec2_rotate_run _ _) (DT.val_done _) rfl rfl
example (v : V2 α) : let mem : Mem α := [⟨true, v.list.map .f⟩]
    Holds mem (0, 0) v.list ∧ Room mem (0, 0) 2 ∧ (((0, 0) : Ptr) = (0, 0) ∨ Apart (0, 0) 2 (0, 0) 2) :=
  ⟨.block rfl, .block rfl rfl, Or.inl rfl⟩

theorem C55_vec2_center {mem : Mem α} {aP bP destP : Ptr} {a : V2 α} {b : V2 α} (h_a : Holds mem aP a.list) (h_b : Holds mem bP b.list) (r_dest : Room mem destP 2) (s_a_dest : aP = destP ∨ Apart aP 2 destP 2) (s_b_dest : bP = destP ∨ Apart bP 2 destP 2) :
    C.glm_vec2_center.run mem [aP.val, bP.val, destP.val] =
      some (none, writes mem [(destP, (Cglm.glm_vec2_center a b).list.map .f)]) := by
  rcases s_a_dest with s_a_dest | s_a_dest
  · subst s_a_dest
    rcases s_b_dest with s_b_dest | s_b_dest
    · subst s_b_dest
      obtain rfl := V2.list_inj (h_a.inj h_b rfl)
      exact transferL ((R.nil _).addW h_a.has r_dest .nil) (.p rfl (.p rfl (.p rfl .nil))) (glm_vec2_center_run_a_b _) (DT.val_done _) rfl rfl
    · exact transferL (((R.nil _).addW h_a.has r_dest .nil).addR h_b.has (.cons s_b_dest .nil)) (.p rfl (.p rfl (.p rfl .nil))) (glm_vec2_center_run_a _ _) (DT.val_done _) rfl rfl
  · rcases s_b_dest with s_b_dest | s_b_dest
    · subst s_b_dest
      exact transferL (((R.nil _).addW h_b.has r_dest .nil).addR h_a.has (.cons s_a_dest .nil)) (.p rfl (.p rfl (.p rfl .nil))) (glm_vec2_center_run_b _ _) (DT.val_done _) rfl rfl
    · exact transferL ((((R.nil _).addW r_dest.has r_dest .nil).addR h_b.has (.cons s_b_dest .nil)).addR h_a.has (.skip (.cons s_a_dest .nil))) (.p rfl (.p rfl (.p rfl .nil))) (glm_vec2_center_run _ _) (DT.val_done _) rfl rfl
example (a : V2 α) : let mem : Mem α := [⟨true, a.list.map .f⟩]
    Holds mem (0, 0) a.list ∧ Holds mem (0, 0) a.list ∧ Room mem (0, 0) 2 ∧ (((0, 0) : Ptr) = (0, 0) ∨ Apart (0, 0) 2 (0, 0) 2) ∧ (((0, 0) : Ptr) = (0, 0) ∨ Apart (0, 0) 2 (0, 0) 2) :=
  ⟨.block rfl, .block rfl, .block rfl rfl, Or.inl rfl, Or.inl rfl⟩

theorem C55_vec2_maxv {mem : Mem α} {aP bP destP : Ptr} {a : V2 α} {b : V2 α} (h_a : Holds mem aP a.list) (h_b : Holds mem bP b.list) (r_dest : Room mem destP 2) (s_a_dest : aP = destP ∨ Apart aP 2 destP 2) (s_b_dest : bP = destP ∨ Apart bP 2 destP 2) :
    C.glm_vec2_maxv.run mem [aP.val, bP.val, destP.val] =
      some (none, writes mem [(destP, (Cglm.glm_vec2_maxv a b).list.map .f)]) := by
  rcases s_a_dest with s_a_dest | s_a_dest
  · subst s_a_dest
    rcases s_b_dest with s_b_dest | s_b_dest
    · subst s_b_dest
      obtain rfl := V2.list_inj (h_a.inj h_b rfl)
      exact transferL ((R.nil _).addW h_a.has r_dest .nil) (.p rfl (.p rfl (.p rfl .nil))) (glm_vec2_maxv_run_a_b _) (DT.val_done _) rfl rfl
    · exact transferL (((R.nil _).addW h_a.has r_dest .nil).addR h_b.has (.cons s_b_dest .nil)) (.p rfl (.p rfl (.p rfl .nil))) (glm_vec2_maxv_run_a _ _) (DT.val_done _) rfl rfl
  · rcases s_b_dest with s_b_dest | s_b_dest
    · subst s_b_dest
      exact transferL (((R.nil _).addW h_b.has r_dest .nil).addR h_a.has (.cons s_a_dest .nil)) (.p rfl (.p rfl (.p rfl .nil))) (glm_vec2_maxv_run_b _ _) (DT.val_done _) rfl rfl
    · exact transferL ((((R.nil _).addW r_dest.has r_dest .nil).addR h_b.has (.cons s_b_dest .nil)).addR h_a.has (.skip (.cons s_a_dest .nil))) (.p rfl (.p rfl (.p rfl .nil))) (glm_vec2_maxv_run _ _) (DT.val_done _) rfl rfl
example (a : V2 α) : let mem : Mem α := [⟨true, a.list.map .f⟩]
    Holds mem (0, 0) a.list ∧ Holds mem (0, 0) a.list ∧ Room mem (0, 0) 2 ∧ (((0, 0) : Ptr) = (0, 0) ∨ Apart (0, 0) 2 (0, 0) 2) ∧ (((0, 0) : Ptr) = (0, 0) ∨ Apart (0, 0) 2 (0, 0) 2) :=
  ⟨.block rfl, .block rfl, .block rfl rfl, Or.inl rfl, Or.inl rfl⟩

theorem C55_vec2_minv {mem : Mem α} {aP bP destP : Ptr} {a : V2 α} {b : V2 α} (h_a : Holds mem aP a.list) (h_b : Holds mem bP b.list) (r_dest : Room mem destP 2) (s_a_dest : aP = destP ∨ Apart aP 2 destP 2) (s_b_dest : bP = destP ∨ Apart bP 2 destP 2) :
    C.glm_vec2_minv.run mem [aP.val, bP.val, destP.val] =
      some (none, writes mem [(destP, (Cglm.glm_vec2_minv a b).list.map .f)]) := by
  rcases s_a_dest with s_a_dest | s_a_dest
  · subst s_a_dest
    rcases s_b_dest with s_b_dest | s_b_dest
    · subst s_b_dest
      obtain rfl := V2.list_inj (h_a.inj h_b rfl)
      exact transferL ((R.nil _).addW h_a.has r_dest .nil) (.p rfl (.p rfl (.p rfl .nil))) (glm_vec2_minv_run_a_b _) (DT.val_done _) rfl rfl
    · exact transferL (((R.nil _).addW h_a.has r_dest .nil).addR h_b.has (.cons s_b_dest .nil)) (.p rfl (.p rfl (.p rfl .nil))) (glm_vec2_minv_run_a _ _) (DT.val_done _) rfl rfl
  · rcases s_b_dest with s_b_dest | s_b_dest
    · subst s_b_dest
      exact transferL (((R.nil _).addW h_b.has r_dest .nil).addR h_a.has (.cons s_a_dest .nil)) (.p rfl (.p rfl (.p rfl .nil))) (glm_vec2_minv_run_b _ _) (DT.val_done _) rfl rfl
    · exact transferL ((((R.nil _).addW r_dest.has r_dest .nil).addR h_b.has (.cons s_b_dest .nil)).addR h_a.has (.skip (.cons s_a_dest .nil))) (.p rfl (.p rfl (.p rfl .nil))) (glm_vec2_minv_run _ _) (DT.val_done _) rfl rfl
example (a : V2 α) : let mem : Mem α := [⟨true, a.list.map .f⟩]
    Holds mem (0, 0) a.list ∧ Holds mem (0, 0) a.list ∧ Room mem (0, 0) 2 ∧ (((0, 0) : Ptr) = (0, 0) ∨ Apart (0, 0) 2 (0, 0) 2) ∧ (((0, 0) : Ptr) = (0, 0) ∨ Apart (0, 0) 2 (0, 0) 2) :=
  ⟨.block rfl, .block rfl, .block rfl rfl, Or.inl rfl, Or.inl rfl⟩

theorem C55_vec2_lerp {mem : Mem α} {frmP toP destP : Ptr} {frm : V2 α} {«to» : V2 α} (t : α) (h_frm : Holds mem frmP frm.list) (h_to : Holds mem toP «to».list) (r_dest : Room mem destP 2) (s_frm_dest : frmP = destP ∨ Apart frmP 2 destP 2) (s_to_dest : toP = destP ∨ Apart toP 2 destP 2) :
    C.glm_vec2_lerp.run mem [frmP.val, toP.val, .f t, destP.val] =
      some (none, writes mem [(destP, (Cglm.glm_vec2_lerp frm «to» t).list.map .f)]) := by
  rcases s_frm_dest with s_frm_dest | s_frm_dest
  · subst s_frm_dest
    rcases s_to_dest with s_to_dest | s_to_dest
    · subst s_to_dest
      obtain rfl := V2.list_inj (h_frm.inj h_to rfl)
      exact transferL ((R.nil _).addW h_frm.has r_dest .nil) (.p rfl (.p rfl (.f (.p rfl .nil)))) (glm_vec2_lerp_run_from_to _ _) (DT.val_done _) rfl rfl
    · exact transferL (((R.nil _).addW h_frm.has r_dest .nil).addR h_to.has (.cons s_to_dest .nil)) (.p rfl (.p rfl (.f (.p rfl .nil)))) (glm_vec2_lerp_run_from _ _ _) (DT.val_done _) rfl rfl
  · rcases s_to_dest with s_to_dest | s_to_dest
    · subst s_to_dest
      exact transferL (((R.nil _).addW h_to.has r_dest .nil).addR h_frm.has (.cons s_frm_dest .nil)) (.p rfl (.p rfl (.f (.p rfl .nil)))) (glm_vec2_lerp_run_to _ _ _) (DT.val_done _) rfl rfl
    · exact transferL ((((R.nil _).addW r_dest.has r_dest .nil).addR h_to.has (.cons s_to_dest .nil)).addR h_frm.has (.skip (.cons s_frm_dest .nil))) (.p rfl (.p rfl (.f (.p rfl .nil)))) (glm_vec2_lerp_run _ _ _) (DT.val_done _) rfl rfl
example (frm : V2 α) : let mem : Mem α := [⟨true, frm.list.map .f⟩]
    Holds mem (0, 0) frm.list ∧ Holds mem (0, 0) frm.list ∧ Room mem (0, 0) 2 ∧ (((0, 0) : Ptr) = (0, 0) ∨ Apart (0, 0) 2 (0, 0) 2) ∧ (((0, 0) : Ptr) = (0, 0) ∨ Apart (0, 0) 2 (0, 0) 2) :=
  ⟨.block rfl, .block rfl, .block rfl rfl, Or.inl rfl, Or.inl rfl⟩

theorem C55_vec2_step {mem : Mem α} {edgeP xP destP : Ptr} {edge : V2 α} {x : V2 α} (h_edge : Holds mem edgeP edge.list) (h_x : Holds mem xP x.list) (r_dest : Room mem destP 2) (s_edge_dest : edgeP = destP ∨ Apart edgeP 2 destP 2) (s_x_dest : xP = destP ∨ Apart xP 2 destP 2) :
    C.glm_vec2_step.run mem [edgeP.val, xP.val, destP.val] =
      some (none, writes mem [(destP, (Cglm.glm_vec2_step edge x).list.map .f)]) := by
  rcases s_edge_dest with s_edge_dest | s_edge_dest
  · subst s_edge_dest
    rcases s_x_dest with s_x_dest | s_x_dest
    · subst s_x_dest
      obtain rfl := V2.list_inj (h_edge.inj h_x rfl)
      exact transferL ((R.nil _).addW h_edge.has r_dest .nil) (.p rfl (.p rfl (.p rfl .nil))) (glm_vec2_step_run_edge_x _) (DT.val_done _) rfl rfl
    · exact transferL (((R.nil _).addW h_edge.has r_dest .nil).addR h_x.has (.cons s_x_dest .nil)) (.p rfl (.p rfl (.p rfl .nil))) (glm_vec2_step_run_edge _ _) (DT.val_done _) rfl rfl
  · rcases s_x_dest with s_x_dest | s_x_dest
    · subst s_x_dest
      exact transferL (((R.nil _).addW h_x.has r_dest .nil).addR h_edge.has (.cons s_edge_dest .nil)) (.p rfl (.p rfl (.p rfl .nil))) (glm_vec2_step_run_x _ _) (DT.val_done _) rfl rfl
    · exact transferL ((((R.nil _).addW r_dest.has r_dest .nil).addR h_x.has (.cons s_x_dest .nil)).addR h_edge.has (.skip (.cons s_edge_dest .nil))) (.p rfl (.p rfl (.p rfl .nil))) (glm_vec2_step_run _ _) (DT.val_done _) rfl rfl
example (edge : V2 α) : let mem : Mem α := [⟨true, edge.list.map .f⟩]
    Holds mem (0, 0) edge.list ∧ Holds mem (0, 0) edge.list ∧ Room mem (0, 0) 2 ∧ (((0, 0) : Ptr) = (0, 0) ∨ Apart (0, 0) 2 (0, 0) 2) ∧ (((0, 0) : Ptr) = (0, 0) ∨ Apart (0, 0) 2 (0, 0) 2) :=
  ⟨.block rfl, .block rfl, .block rfl rfl, Or.inl rfl, Or.inl rfl⟩

theorem C55_vec2_make {mem : Mem α} {srcP destP : Ptr} {src : V2 α} (h_src : Holds mem srcP src.list) (r_dest : Room mem destP 2) (s_src_dest : srcP = destP ∨ Apart srcP 2 destP 2) :
    C.glm_vec2_make.run mem [srcP.val, destP.val] =
      some (none, writes mem [(destP, (Cglm.glm_vec2_make src).list.map .f)]) := by
  rcases s_src_dest with s_src_dest | s_src_dest
  · subst s_src_dest
    exact transferL ((R.nil _).addW h_src.has r_dest .nil) (.p rfl (.p rfl .nil)) (glm_vec2_make_run_src _) (DT.val_done _) rfl rfl
  · exact transferL (((R.nil _).addW r_dest.has r_dest .nil).addR h_src.has (.cons s_src_dest .nil)) (.p rfl (.p rfl .nil)) (glm_vec2_make_run _) (DT.val_done _) rfl rfl
example (src : V2 α) : let mem : Mem α := [⟨true, src.list.map .f⟩]
    Holds mem (0, 0) src.list ∧ Room mem (0, 0) 2 ∧ (((0, 0) : Ptr) = (0, 0) ∨ Apart (0, 0) 2 (0, 0) 2) :=
  ⟨.block rfl, .block rfl rfl, Or.inl rfl⟩

theorem C55_vec2_reflect {mem : Mem α} {vP nP destP : Ptr} {v : V2 α} {n : V2 α} (h_v : Holds mem vP v.list) (h_n : Holds mem nP n.list) (r_dest : Room mem destP 2) (s_v_dest : vP = destP ∨ Apart vP 2 destP 2) (s_n_dest : nP = destP ∨ Apart nP 2 destP 2) :
    C.glm_vec2_reflect.run mem [vP.val, nP.val, destP.val] =
      some (none, writes mem [(destP, (Cglm.glm_vec2_reflect v n).list.map .f)]) := by
  rcases s_v_dest with s_v_dest | s_v_dest
  · subst s_v_dest
    rcases s_n_dest with s_n_dest | s_n_dest
    · subst s_n_dest
      obtain rfl := V2.list_inj (h_v.inj h_n rfl)
      exact transferL ((R.nil _).addW h_v.has r_dest .nil) (.p rfl (.p rfl (.p rfl .nil))) (glm_vec2_reflect_run_v_n _) (DT.val_done _) rfl rfl
    · exact transferL (((R.nil _).addW h_v.has r_dest .nil).addR h_n.has (.cons s_n_dest .nil)) (.p rfl (.p rfl (.p rfl .nil))) (glm_vec2_reflect_run_v _ _) (DT.val_done _) rfl rfl
  · rcases s_n_dest with s_n_dest | s_n_dest
    · subst s_n_dest
      exact transferL (((R.nil _).addW h_n.has r_dest .nil).addR h_v.has (.cons s_v_dest .nil)) (.p rfl (.p rfl (.p rfl .nil))) (glm_vec2_reflect_run_n _ _) (DT.val_done _) rfl rfl
    · exact transferL ((((R.nil _).addW r_dest.has r_dest .nil).addR h_n.has (.cons s_n_dest .nil)).addR h_v.has (.skip (.cons s_v_dest .nil))) (.p rfl (.p rfl (.p rfl .nil))) (glm_vec2_reflect_run _ _) (DT.val_done _) rfl rfl
example (v : V2 α) : let mem : Mem α := [⟨true, v.list.map .f⟩]
    Holds mem (0, 0) v.list ∧ Holds mem (0, 0) v.list ∧ Room mem (0, 0) 2 ∧ (((0, 0) : Ptr) = (0, 0) ∨ Apart (0, 0) 2 (0, 0) 2) ∧ (((0, 0) : Ptr) = (0, 0) ∨ Apart (0, 0) 2 (0, 0) 2) :=
  ⟨.block rfl, .block rfl, .block rfl rfl, Or.inl rfl, Or.inl rfl⟩

theorem C55_vec2_refract {mem : Mem α} {vP nP destP : Ptr} {v : V2 α} {n : V2 α} (eta : α) (h_v : Holds mem vP v.list) (h_n : Holds mem nP n.list) (r_dest : Room mem destP 2) (s_v_dest : vP = destP ∨ Apart vP 2 destP 2) (s_n_dest : Apart nP 2 destP 2) :
    C.glm_vec2_refract.run mem [vP.val, nP.val, .f eta, destP.val] =
      some (some (.b (Cglm.glm_vec2_refract v n eta).1), writes mem [(destP, (Cglm.glm_vec2_refract v n eta).2.list.map .f)]) := by
  rcases s_v_dest with s_v_dest | s_v_dest
  · subst s_v_dest
    exact transferL (((R.nil _).addW h_v.has r_dest .nil).addR h_n.has (.cons s_n_dest .nil)) (.p rfl (.p rfl (.f (.p rfl .nil)))) (glm_vec2_refract_run_v _ _ _) (DT.val_map_eq (glm_vec2_refract_dt_val _ _ _) rfl) rfl rfl
  · exact transferL ((((R.nil _).addW r_dest.has r_dest .nil).addR h_n.has (.cons s_n_dest .nil)).addR h_v.has (.skip (.cons s_v_dest .nil))) (.p rfl (.p rfl (.f (.p rfl .nil)))) (glm_vec2_refract_run _ _ _) (DT.val_map_eq (glm_vec2_refract_dt_val _ _ _) rfl) rfl rfl
example (v : V2 α) (n : V2 α) : let mem : Mem α := [⟨false, n.list.map .f⟩, ⟨true, v.list.map .f⟩]
    Holds mem (1, 0) v.list ∧ Holds mem (0, 0) n.list ∧ Room mem (1, 0) 2 ∧ (((1, 0) : Ptr) = (1, 0) ∨ Apart (1, 0) 2 (1, 0) 2) ∧ Apart (0, 0) 2 (1, 0) 2 :=
  ⟨.block rfl, .block rfl, .block rfl rfl, Or.inl rfl, Or.inl (by decide)⟩

end Cglm

end C55Vec2

section C55Vec2Ext

/-!
# C55: destination may alias an argument (include/cglm/vec2-ext.h)

Each input is either the destination itself or does not overlap it; the result is the value-level function of
what the inputs held before the call, and nothing outside the destination changes.
-/

set_option linter.unusedVariables false
set_option linter.unusedSectionVars false

namespace Cglm
open CMem

variable {α : Type} [Add α] [Sub α] [Mul α] [Div α] [Neg α] [CFloat α]

theorem C55_vec2_sign {mem : Mem α} {vP destP : Ptr} {v : V2 α} (h_v : Holds mem vP v.list) (r_dest : Room mem destP 2) (s_v_dest : vP = destP ∨ Apart vP 2 destP 2) :
    C.glm_vec2_sign.run mem [vP.val, destP.val] =
      some (none, writes mem [(destP, (Cglm.glm_vec2_sign v).list.map .f)]) := by
  rcases s_v_dest with s_v_dest | s_v_dest
  · subst s_v_dest
    exact transferL ((R.nil _).addW h_v.has r_dest .nil) (.p rfl (.p rfl .nil)) (glm_vec2_sign_run_v _) (DT.val_done _) rfl rfl
  · exact transferL (((R.nil _).addW r_dest.has r_dest .nil).addR h_v.has (.cons s_v_dest .nil)) (.p rfl (.p rfl .nil)) (glm_vec2_sign_run _) (DT.val_done _) rfl rfl
example (v : V2 α) : let mem : Mem α := [⟨true, v.list.map .f⟩]
    Holds mem (0, 0) v.list ∧ Room mem (0, 0) 2 ∧ (((0, 0) : Ptr) = (0, 0) ∨ Apart (0, 0) 2 (0, 0) 2) :=
  ⟨.block rfl, .block rfl rfl, Or.inl rfl⟩

theorem C55_vec2_abs {mem : Mem α} {vP destP : Ptr} {v : V2 α} (h_v : Holds mem vP v.list) (r_dest : Room mem destP 2) (s_v_dest : vP = destP ∨ Apart vP 2 destP 2) :
    C.glm_vec2_abs.run mem [vP.val, destP.val] =
      some (none, writes mem [(destP, (Cglm.glm_vec2_abs v).list.map .f)]) := by
  rcases s_v_dest with s_v_dest | s_v_dest
  · subst s_v_dest
    exact transferL ((R.nil _).addW h_v.has r_dest .nil) (.p rfl (.p rfl .nil)) (glm_vec2_abs_run_v _) (DT.val_done _) rfl rfl
  · exact transferL (((R.nil _).addW r_dest.has r_dest .nil).addR h_v.has (.cons s_v_dest .nil)) (.p rfl (.p rfl .nil)) (glm_vec2_abs_run _) (DT.val_done _) rfl rfl
example (v : V2 α) : let mem : Mem α := [⟨true, v.list.map .f⟩]
    Holds mem (0, 0) v.list ∧ Room mem (0, 0) 2 ∧ (((0, 0) : Ptr) = (0, 0) ∨ Apart (0, 0) 2 (0, 0) 2) :=
  ⟨.block rfl, .block rfl rfl, Or.inl rfl⟩

theorem C55_vec2_fract {mem : Mem α} {vP destP : Ptr} {v : V2 α} (h_v : Holds mem vP v.list) (r_dest : Room mem destP 2) (s_v_dest : vP = destP ∨ Apart vP 2 destP 2) :
    C.glm_vec2_fract.run mem [vP.val, destP.val] =
      some (none, writes mem [(destP, (Cglm.glm_vec2_fract v).list.map .f)]) := by
  rcases s_v_dest with s_v_dest | s_v_dest
  · subst s_v_dest
    exact transferL ((R.nil _).addW h_v.has r_dest .nil) (.p rfl (.p rfl .nil)) (glm_vec2_fract_run_v _) (DT.val_done _) rfl rfl
  · exact transferL (((R.nil _).addW r_dest.has r_dest .nil).addR h_v.has (.cons s_v_dest .nil)) (.p rfl (.p rfl .nil)) (glm_vec2_fract_run _) (DT.val_done _) rfl rfl
example (v : V2 α) : let mem : Mem α := [⟨true, v.list.map .f⟩]
    Holds mem (0, 0) v.list ∧ Room mem (0, 0) 2 ∧ (((0, 0) : Ptr) = (0, 0) ∨ Apart (0, 0) 2 (0, 0) 2) :=
  ⟨.block rfl, .block rfl rfl, Or.inl rfl⟩

theorem C55_vec2_floor {mem : Mem α} {vP destP : Ptr} {v : V2 α} (h_v : Holds mem vP v.list) (r_dest : Room mem destP 2) (s_v_dest : vP = destP ∨ Apart vP 2 destP 2) :
    C.glm_vec2_floor.run mem [vP.val, destP.val] =
      some (none, writes mem [(destP, (Cglm.glm_vec2_floor v).list.map .f)]) := by
  rcases s_v_dest with s_v_dest | s_v_dest
  · subst s_v_dest
    exact transferL ((R.nil _).addW h_v.has r_dest .nil) (.p rfl (.p rfl .nil)) (glm_vec2_floor_run_v _) (DT.val_done _) rfl rfl
  · exact transferL (((R.nil _).addW r_dest.has r_dest .nil).addR h_v.has (.cons s_v_dest .nil)) (.p rfl (.p rfl .nil)) (glm_vec2_floor_run _) (DT.val_done _) rfl rfl
example (v : V2 α) : let mem : Mem α := [⟨true, v.list.map .f⟩]
    Holds mem (0, 0) v.list ∧ Room mem (0, 0) 2 ∧ (((0, 0) : Ptr) = (0, 0) ∨ Apart (0, 0) 2 (0, 0) 2) :=
  ⟨.block rfl, .block rfl rfl, Or.inl rfl⟩

theorem C55_vec2_mods {mem : Mem α} {vP destP : Ptr} {v : V2 α} (s : α) (h_v : Holds mem vP v.list) (r_dest : Room mem destP 2) (s_v_dest : vP = destP ∨ Apart vP 2 destP 2) :
    C.glm_vec2_mods.run mem [vP.val, .f s, destP.val] =
      some (none, writes mem [(destP, (Cglm.glm_vec2_mods v s).list.map .f)]) := by
  rcases s_v_dest with s_v_dest | s_v_dest
  · subst s_v_dest
    exact transferL ((R.nil _).addW h_v.has r_dest .nil) (.p rfl (.f (.p rfl .nil))) (glm_vec2_mods_run_v _ _) (DT.val_done _) rfl rfl
  · exact transferL (((R.nil _).addW r_dest.has r_dest .nil).addR h_v.has (.cons s_v_dest .nil)) (.p rfl (.f (.p rfl .nil))) (glm_vec2_mods_run _ _) (DT.val_done _) rfl rfl
example (v : V2 α) : let mem : Mem α := [⟨true, v.list.map .f⟩]
    Holds mem (0, 0) v.list ∧ Room mem (0, 0) 2 ∧ (((0, 0) : Ptr) = (0, 0) ∨ Apart (0, 0) 2 (0, 0) 2) :=
  ⟨.block rfl, .block rfl rfl, Or.inl rfl⟩

theorem C55_vec2_sqrt {mem : Mem α} {vP destP : Ptr} {v : V2 α} (h_v : Holds mem vP v.list) (r_dest : Room mem destP 2) (s_v_dest : vP = destP ∨ Apart vP 2 destP 2) :
    C.glm_vec2_sqrt.run mem [vP.val, destP.val] =
      some (none, writes mem [(destP, (Cglm.glm_vec2_sqrt v).list.map .f)]) := by
  rcases s_v_dest with s_v_dest | s_v_dest
  · subst s_v_dest
    exact transferL ((R.nil _).addW h_v.has r_dest .nil) (.p rfl (.p rfl .nil)) (glm_vec2_sqrt_run_v _) (DT.val_done _) rfl rfl
  · exact transferL (((R.nil _).addW r_dest.has r_dest .nil).addR h_v.has (.cons s_v_dest .nil)) (.p rfl (.p rfl .nil)) (glm_vec2_sqrt_run _) (DT.val_done _) rfl rfl
example (v : V2 α) : let mem : Mem α := [⟨true, v.list.map .f⟩]
    Holds mem (0, 0) v.list ∧ Room mem (0, 0) 2 ∧ (((0, 0) : Ptr) = (0, 0) ∨ Apart (0, 0) 2 (0, 0) 2) :=
  ⟨.block rfl, .block rfl rfl, Or.inl rfl⟩

theorem C55_vec2_complex_mul {mem : Mem α} {aP bP destP : Ptr} {a : V2 α} {b : V2 α} (h_a : Holds mem aP a.list) (h_b : Holds mem bP b.list) (r_dest : Room mem destP 2) (s_a_dest : aP = destP ∨ Apart aP 2 destP 2) (s_b_dest : bP = destP ∨ Apart bP 2 destP 2) :
    C.glm_vec2_complex_mul.run mem [aP.val, bP.val, destP.val] =
      some (none, writes mem [(destP, (Cglm.glm_vec2_complex_mul a b).list.map .f)]) := by
  rcases s_a_dest with s_a_dest | s_a_dest
  · subst s_a_dest
    rcases s_b_dest with s_b_dest | s_b_dest
    · subst s_b_dest
      obtain rfl := V2.list_inj (h_a.inj h_b rfl)
      exact transferL ((R.nil _).addW h_a.has r_dest .nil) (.p rfl (.p rfl (.p rfl .nil))) (glm_vec2_complex_mul_run_a_b _) (DT.val_done _) rfl rfl
    · exact transferL (((R.nil _).addW h_a.has r_dest .nil).addR h_b.has (.cons s_b_dest .nil)) (.p rfl (.p rfl (.p rfl .nil))) (glm_vec2_complex_mul_run_a _ _) (DT.val_done _) rfl rfl
  · rcases s_b_dest with s_b_dest | s_b_dest
    · subst s_b_dest
      exact transferL (((R.nil _).addW h_b.has r_dest .nil).addR h_a.has (.cons s_a_dest .nil)) (.p rfl (.p rfl (.p rfl .nil))) (glm_vec2_complex_mul_run_b _ _) (DT.val_done _) rfl rfl
    · exact transferL ((((R.nil _).addW r_dest.has r_dest .nil).addR h_b.has (.cons s_b_dest .nil)).addR h_a.has (.skip (.cons s_a_dest .nil))) (.p rfl (.p rfl (.p rfl .nil))) (glm_vec2_complex_mul_run _ _) (DT.val_done _) rfl rfl
example (a : V2 α) : let mem : Mem α := [⟨true, a.list.map .f⟩]
    Holds mem (0, 0) a.list ∧ Holds mem (0, 0) a.list ∧ Room mem (0, 0) 2 ∧ (((0, 0) : Ptr) = (0, 0) ∨ Apart (0, 0) 2 (0, 0) 2) ∧ (((0, 0) : Ptr) = (0, 0) ∨ Apart (0, 0) 2 (0, 0) 2) :=
  ⟨.block rfl, .block rfl, .block rfl rfl, Or.inl rfl, Or.inl rfl⟩

theorem C55_vec2_steps {mem : Mem α} {xP destP : Ptr} (edge : α) {x : V2 α} (h_x : Holds mem xP x.list) (r_dest : Room mem destP 2) (s_x_dest : xP = destP ∨ Apart xP 2 destP 2) :
    C.glm_vec2_steps.run mem [.f edge, xP.val, destP.val] =
      some (none, writes mem [(destP, (Cglm.glm_vec2_steps edge x).list.map .f)]) := by
  rcases s_x_dest with s_x_dest | s_x_dest
  · subst s_x_dest
    exact transferL ((R.nil _).addW h_x.has r_dest .nil) (.f (.p rfl (.p rfl .nil))) (glm_vec2_steps_run_x _ _) (DT.val_done _) rfl rfl
  · exact transferL (((R.nil _).addW r_dest.has r_dest .nil).addR h_x.has (.cons s_x_dest .nil)) (.f (.p rfl (.p rfl .nil))) (glm_vec2_steps_run _ _) (DT.val_done _) rfl rfl
example (x : V2 α) : let mem : Mem α := [⟨true, x.list.map .f⟩]
    Holds mem (0, 0) x.list ∧ Room mem (0, 0) 2 ∧ (((0, 0) : Ptr) = (0, 0) ∨ Apart (0, 0) 2 (0, 0) 2) :=
  ⟨.block rfl, .block rfl rfl, Or.inl rfl⟩

theorem C55_vec2_stepr {mem : Mem α} {edgeP destP : Ptr} {edge : V2 α} (x : α) (h_edge : Holds mem edgeP edge.list) (r_dest : Room mem destP 2) (s_edge_dest : edgeP = destP ∨ Apart edgeP 2 destP 2) :
    C.glm_vec2_stepr.run mem [edgeP.val, .f x, destP.val] =
      some (none, writes mem [(destP, (Cglm.glm_vec2_stepr edge x).list.map .f)]) := by
  rcases s_edge_dest with s_edge_dest | s_edge_dest
  · subst s_edge_dest
    exact transferL ((R.nil _).addW h_edge.has r_dest .nil) (.p rfl (.f (.p rfl .nil))) (glm_vec2_stepr_run_edge _ _) (DT.val_done _) rfl rfl
  · exact transferL (((R.nil _).addW r_dest.has r_dest .nil).addR h_edge.has (.cons s_edge_dest .nil)) (.p rfl (.f (.p rfl .nil))) (glm_vec2_stepr_run _ _) (DT.val_done _) rfl rfl
example (edge : V2 α) : let mem : Mem α := [⟨true, edge.list.map .f⟩]
    Holds mem (0, 0) edge.list ∧ Room mem (0, 0) 2 ∧ (((0, 0) : Ptr) = (0, 0) ∨ Apart (0, 0) 2 (0, 0) 2) :=
  ⟨.block rfl, .block rfl rfl, Or.inl rfl⟩

theorem C55_vec2_complex_div {mem : Mem α} {aP bP destP : Ptr} {a : V2 α} {b : V2 α} (h_a : Holds mem aP a.list) (h_b : Holds mem bP b.list) (r_dest : Room mem destP 2) (s_a_dest : aP = destP ∨ Apart aP 2 destP 2) (s_b_dest : bP = destP ∨ Apart bP 2 destP 2) :
    C.glm_vec2_complex_div.run mem [aP.val, bP.val, destP.val] =
      some (none, writes mem [(destP, (Cglm.glm_vec2_complex_div a b).list.map .f)]) := by
  rcases s_a_dest with s_a_dest | s_a_dest
  · subst s_a_dest
    rcases s_b_dest with s_b_dest | s_b_dest
    · subst s_b_dest
      obtain rfl := V2.list_inj (h_a.inj h_b rfl)
      exact transferL ((R.nil _).addW h_a.has r_dest .nil) (.p rfl (.p rfl (.p rfl .nil))) (glm_vec2_complex_div_run_a_b _) (DT.val_done _) rfl rfl
    · exact transferL (((R.nil _).addW h_a.has r_dest .nil).addR h_b.has (.cons s_b_dest .nil)) (.p rfl (.p rfl (.p rfl .nil))) (glm_vec2_complex_div_run_a _ _) (DT.val_done _) rfl rfl
  · rcases s_b_dest with s_b_dest | s_b_dest
    · subst s_b_dest
      exact transferL (((R.nil _).addW h_b.has r_dest .nil).addR h_a.has (.cons s_a_dest .nil)) (.p rfl (.p rfl (.p rfl .nil))) (glm_vec2_complex_div_run_b _ _) (DT.val_done _) rfl rfl
    · exact transferL ((((R.nil _).addW r_dest.has r_dest .nil).addR h_b.has (.cons s_b_dest .nil)).addR h_a.has (.skip (.cons s_a_dest .nil))) (.p rfl (.p rfl (.p rfl .nil))) (glm_vec2_complex_div_run _ _) (DT.val_done _) rfl rfl
example (a : V2 α) : let mem : Mem α := [⟨true, a.list.map .f⟩]
    Holds mem (0, 0) a.list ∧ Holds mem (0, 0) a.list ∧ Room mem (0, 0) 2 ∧ (((0, 0) : Ptr) = (0, 0) ∨ Apart (0, 0) 2 (0, 0) 2) ∧ (((0, 0) : Ptr) = (0, 0) ∨ Apart (0, 0) 2 (0, 0) 2) :=
  ⟨.block rfl, .block rfl, .block rfl rfl, Or.inl rfl, Or.inl rfl⟩

theorem C55_vec2_complex_conjugate {mem : Mem α} {aP destP : Ptr} {a : V2 α} (h_a : Holds mem aP a.list) (r_dest : Room mem destP 2) (s_a_dest : aP = destP ∨ Apart aP 2 destP 2) :
    C.glm_vec2_complex_conjugate.run mem [aP.val, destP.val] =
      some (none, writes mem [(destP, (Cglm.glm_vec2_complex_conjugate a).list.map .f)]) := by
  rcases s_a_dest with s_a_dest | s_a_dest
  · subst s_a_dest
    exact transferL ((R.nil _).addW h_a.has r_dest .nil) (.p rfl (.p rfl .nil)) (glm_vec2_complex_conjugate_run_a _) (DT.val_done _) rfl rfl
  · exact transferL (((R.nil _).addW r_dest.has r_dest .nil).addR h_a.has (.cons s_a_dest .nil)) (.p rfl (.p rfl .nil)) (glm_vec2_complex_conjugate_run _) (DT.val_done _) rfl rfl
example (a : V2 α) : let mem : Mem α := [⟨true, a.list.map .f⟩]
    Holds mem (0, 0) a.list ∧ Room mem (0, 0) 2 ∧ (((0, 0) : Ptr) = (0, 0) ∨ Apart (0, 0) 2 (0, 0) 2) :=
  ⟨.block rfl, .block rfl rfl, Or.inl rfl⟩

end Cglm

end C55Vec2Ext

section C55Vec3

/-!
# C55: destination may alias an argument (include/cglm/vec3.h)

Each input is either the destination itself or does not overlap it; the result is the value-level function of
what the inputs held before the call, and nothing outside the destination changes.
-/

set_option linter.unusedVariables false
set_option linter.unusedSectionVars false

namespace Cglm
open CMem

variable {α : Type} [Add α] [Sub α] [Mul α] [Div α] [Neg α] [CFloat α]

theorem C55_vec3_copy {mem : Mem α} {aP destP : Ptr} {a : V3 α} (h_a : Holds mem aP a.list) (r_dest : Room mem destP 3) (s_a_dest : aP = destP ∨ Apart aP 3 destP 3) :
    C.glm_vec3_copy.run mem [aP.val, destP.val] =
      some (none, writes mem [(destP, (Cglm.glm_vec3_copy a).list.map .f)]) := by
  rcases s_a_dest with s_a_dest | s_a_dest
  · subst s_a_dest
    exact transferL ((R.nil _).addW h_a.has r_dest .nil) (.p rfl (.p rfl .nil)) (glm_vec3_copy_run_a _) (DT.val_done _) rfl rfl
  · exact transferL (((R.nil _).addW r_dest.has r_dest .nil).addR h_a.has (.cons s_a_dest .nil)) (.p rfl (.p rfl .nil)) (glm_vec3_copy_run _) (DT.val_done _) rfl rfl
example (a : V3 α) : let mem : Mem α := [⟨true, a.list.map .f⟩]
    Holds mem (0, 0) a.list ∧ Room mem (0, 0) 3 ∧ (((0, 0) : Ptr) = (0, 0) ∨ Apart (0, 0) 3 (0, 0) 3) :=
  ⟨.block rfl, .block rfl rfl, Or.inl rfl⟩

theorem C55_vec3_add {mem : Mem α} {aP bP destP : Ptr} {a : V3 α} {b : V3 α} (h_a : Holds mem aP a.list) (h_b : Holds mem bP b.list) (r_dest : Room mem destP 3) (s_a_dest : aP = destP ∨ Apart aP 3 destP 3) (s_b_dest : bP = destP ∨ Apart bP 3 destP 3) :
    C.glm_vec3_add.run mem [aP.val, bP.val, destP.val] =
      some (none, writes mem [(destP, (Cglm.glm_vec3_add a b).list.map .f)]) := by
  rcases s_a_dest with s_a_dest | s_a_dest
  · subst s_a_dest
    rcases s_b_dest with s_b_dest | s_b_dest
    · subst s_b_dest
      obtain rfl := V3.list_inj (h_a.inj h_b rfl)
      exact transferL ((R.nil _).addW h_a.has r_dest .nil) (.p rfl (.p rfl (.p rfl .nil))) (glm_vec3_add_run_a_b _) (DT.val_done _) rfl rfl
    · exact transferL (((R.nil _).addW h_a.has r_dest .nil).addR h_b.has (.cons s_b_dest .nil)) (.p rfl (.p rfl (.p rfl .nil))) (glm_vec3_add_run_a _ _) (DT.val_done _) rfl rfl
  · rcases s_b_dest with s_b_dest | s_b_dest
    · subst s_b_dest
      exact transferL (((R.nil _).addW h_b.has r_dest .nil).addR h_a.has (.cons s_a_dest .nil)) (.p rfl (.p rfl (.p rfl .nil))) (glm_vec3_add_run_b _ _) (DT.val_done _) rfl rfl
    · exact transferL ((((R.nil _).addW r_dest.has r_dest .nil).addR h_b.has (.cons s_b_dest .nil)).addR h_a.has (.skip (.cons s_a_dest .nil))) (.p rfl (.p rfl (.p rfl .nil))) (glm_vec3_add_run _ _) (DT.val_done _) rfl rfl
example (a : V3 α) : let mem : Mem α := [⟨true, a.list.map .f⟩]
    Holds mem (0, 0) a.list ∧ Holds mem (0, 0) a.list ∧ Room mem (0, 0) 3 ∧ (((0, 0) : Ptr) = (0, 0) ∨ Apart (0, 0) 3 (0, 0) 3) ∧ (((0, 0) : Ptr) = (0, 0) ∨ Apart (0, 0) 3 (0, 0) 3) :=
  ⟨.block rfl, .block rfl, .block rfl rfl, Or.inl rfl, Or.inl rfl⟩

theorem C55_vec3_adds {mem : Mem α} {vP destP : Ptr} {v : V3 α} (s : α) (h_v : Holds mem vP v.list) (r_dest : Room mem destP 3) (s_v_dest : vP = destP ∨ Apart vP 3 destP 3) :
    C.glm_vec3_adds.run mem [vP.val, .f s, destP.val] =
      some (none, writes mem [(destP, (Cglm.glm_vec3_adds v s).list.map .f)]) := by
  rcases s_v_dest with s_v_dest | s_v_dest
  · subst s_v_dest
    exact transferL ((R.nil _).addW h_v.has r_dest .nil) (.p rfl (.f (.p rfl .nil))) (glm_vec3_adds_run_v _ _) (DT.val_done _) rfl rfl
  · exact transferL (((R.nil _).addW r_dest.has r_dest .nil).addR h_v.has (.cons s_v_dest .nil)) (.p rfl (.f (.p rfl .nil))) (glm_vec3_adds_run _ _) (DT.val_done _) rfl rfl
example (v : V3 α) : let mem : Mem α := [⟨true, v.list.map .f⟩]
    Holds mem (0, 0) v.list ∧ Room mem (0, 0) 3 ∧ (((0, 0) : Ptr) = (0, 0) ∨ Apart (0, 0) 3 (0, 0) 3) :=
  ⟨.block rfl, .block rfl rfl, Or.inl rfl⟩

theorem C55_vec3_sub {mem : Mem α} {aP bP destP : Ptr} {a : V3 α} {b : V3 α} (h_a : Holds mem aP a.list) (h_b : Holds mem bP b.list) (r_dest : Room mem destP 3) (s_a_dest : aP = destP ∨ Apart aP 3 destP 3) (s_b_dest : bP = destP ∨ Apart bP 3 destP 3) :
    C.glm_vec3_sub.run mem [aP.val, bP.val, destP.val] =
      some (none, writes mem [(destP, (Cglm.glm_vec3_sub a b).list.map .f)]) := by
  rcases s_a_dest with s_a_dest | s_a_dest
  · subst s_a_dest
    rcases s_b_dest with s_b_dest | s_b_dest
    · subst s_b_dest
      obtain rfl := V3.list_inj (h_a.inj h_b rfl)
      exact transferL ((R.nil _).addW h_a.has r_dest .nil) (.p rfl (.p rfl (.p rfl .nil))) (glm_vec3_sub_run_a_b _) (DT.val_done _) rfl rfl
    · exact transferL (((R.nil _).addW h_a.has r_dest .nil).addR h_b.has (.cons s_b_dest .nil)) (.p rfl (.p rfl (.p rfl .nil))) (glm_vec3_sub_run_a _ _) (DT.val_done _) rfl rfl
  · rcases s_b_dest with s_b_dest | s_b_dest
    · subst s_b_dest
      exact transferL (((R.nil _).addW h_b.has r_dest .nil).addR h_a.has (.cons s_a_dest .nil)) (.p rfl (.p rfl (.p rfl .nil))) (glm_vec3_sub_run_b _ _) (DT.val_done _) rfl rfl
    · exact transferL ((((R.nil _).addW r_dest.has r_dest .nil).addR h_b.has (.cons s_b_dest .nil)).addR h_a.has (.skip (.cons s_a_dest .nil))) (.p rfl (.p rfl (.p rfl .nil))) (glm_vec3_sub_run _ _) (DT.val_done _) rfl rfl
example (a : V3 α) : let mem : Mem α := [⟨true, a.list.map .f⟩]
    Holds mem (0, 0) a.list ∧ Holds mem (0, 0) a.list ∧ Room mem (0, 0) 3 ∧ (((0, 0) : Ptr) = (0, 0) ∨ Apart (0, 0) 3 (0, 0) 3) ∧ (((0, 0) : Ptr) = (0, 0) ∨ Apart (0, 0) 3 (0, 0) 3) :=
  ⟨.block rfl, .block rfl, .block rfl rfl, Or.inl rfl, Or.inl rfl⟩

theorem C55_vec3_subs {mem : Mem α} {vP destP : Ptr} {v : V3 α} (s : α) (h_v : Holds mem vP v.list) (r_dest : Room mem destP 3) (s_v_dest : vP = destP ∨ Apart vP 3 destP 3) :
    C.glm_vec3_subs.run mem [vP.val, .f s, destP.val] =
      some (none, writes mem [(destP, (Cglm.glm_vec3_subs v s).list.map .f)]) := by
  rcases s_v_dest with s_v_dest | s_v_dest
  · subst s_v_dest
    exact transferL ((R.nil _).addW h_v.has r_dest .nil) (.p rfl (.f (.p rfl .nil))) (glm_vec3_subs_run_v _ _) (DT.val_done _) rfl rfl
  · exact transferL (((R.nil _).addW r_dest.has r_dest .nil).addR h_v.has (.cons s_v_dest .nil)) (.p rfl (.f (.p rfl .nil))) (glm_vec3_subs_run _ _) (DT.val_done _) rfl rfl
example (v : V3 α) : let mem : Mem α := [⟨true, v.list.map .f⟩]
    Holds mem (0, 0) v.list ∧ Room mem (0, 0) 3 ∧ (((0, 0) : Ptr) = (0, 0) ∨ Apart (0, 0) 3 (0, 0) 3) :=
  ⟨.block rfl, .block rfl rfl, Or.inl rfl⟩

theorem C55_vec3_mul {mem : Mem α} {aP bP destP : Ptr} {a : V3 α} {b : V3 α} (h_a : Holds mem aP a.list) (h_b : Holds mem bP b.list) (r_dest : Room mem destP 3) (s_a_dest : aP = destP ∨ Apart aP 3 destP 3) (s_b_dest : bP = destP ∨ Apart bP 3 destP 3) :
    C.glm_vec3_mul.run mem [aP.val, bP.val, destP.val] =
      some (none, writes mem [(destP, (Cglm.glm_vec3_mul a b).list.map .f)]) := by
  rcases s_a_dest with s_a_dest | s_a_dest
  · subst s_a_dest
    rcases s_b_dest with s_b_dest | s_b_dest
    · subst s_b_dest
      obtain rfl := V3.list_inj (h_a.inj h_b rfl)
      exact transferL ((R.nil _).addW h_a.has r_dest .nil) (.p rfl (.p rfl (.p rfl .nil))) (glm_vec3_mul_run_a_b _) (DT.val_done _) rfl rfl
    · exact transferL (((R.nil _).addW h_a.has r_dest .nil).addR h_b.has (.cons s_b_dest .nil)) (.p rfl (.p rfl (.p rfl .nil))) (glm_vec3_mul_run_a _ _) (DT.val_done _) rfl rfl
  · rcases s_b_dest with s_b_dest | s_b_dest
    · subst s_b_dest
      exact transferL (((R.nil _).addW h_b.has r_dest .nil).addR h_a.has (.cons s_a_dest .nil)) (.p rfl (.p rfl (.p rfl .nil))) (glm_vec3_mul_run_b _ _) (DT.val_done _) rfl rfl
    · exact transferL ((((R.nil _).addW r_dest.has r_dest .nil).addR h_b.has (.cons s_b_dest .nil)).addR h_a.has (.skip (.cons s_a_dest .nil))) (.p rfl (.p rfl (.p rfl .nil))) (glm_vec3_mul_run _ _) (DT.val_done _) rfl rfl
example (a : V3 α) : let mem : Mem α := [⟨true, a.list.map .f⟩]
    Holds mem (0, 0) a.list ∧ Holds mem (0, 0) a.list ∧ Room mem (0, 0) 3 ∧ (((0, 0) : Ptr) = (0, 0) ∨ Apart (0, 0) 3 (0, 0) 3) ∧ (((0, 0) : Ptr) = (0, 0) ∨ Apart (0, 0) 3 (0, 0) 3) :=
  ⟨.block rfl, .block rfl, .block rfl rfl, Or.inl rfl, Or.inl rfl⟩

theorem C55_vec3_scale {mem : Mem α} {vP destP : Ptr} {v : V3 α} (s : α) (h_v : Holds mem vP v.list) (r_dest : Room mem destP 3) (s_v_dest : vP = destP ∨ Apart vP 3 destP 3) :
    C.glm_vec3_scale.run mem [vP.val, .f s, destP.val] =
      some (none, writes mem [(destP, (Cglm.glm_vec3_scale v s).list.map .f)]) := by
  rcases s_v_dest with s_v_dest | s_v_dest
  · subst s_v_dest
    exact transferL ((R.nil _).addW h_v.has r_dest .nil) (.p rfl (.f (.p rfl .nil))) (glm_vec3_scale_run_v _ _) (DT.val_done _) rfl rfl
  · exact transferL (((R.nil _).addW r_dest.has r_dest .nil).addR h_v.has (.cons s_v_dest .nil)) (.p rfl (.f (.p rfl .nil))) (glm_vec3_scale_run _ _) (DT.val_done _) rfl rfl
example (v : V3 α) : let mem : Mem α := [⟨true, v.list.map .f⟩]
    Holds mem (0, 0) v.list ∧ Room mem (0, 0) 3 ∧ (((0, 0) : Ptr) = (0, 0) ∨ Apart (0, 0) 3 (0, 0) 3) :=
  ⟨.block rfl, .block rfl rfl, Or.inl rfl⟩

theorem C55_vec3_scale_as {mem : Mem α} {vP destP : Ptr} {v : V3 α} (s : α) (h_v : Holds mem vP v.list) (r_dest : Room mem destP 3) (s_v_dest : vP = destP ∨ Apart vP 3 destP 3) :
    C.glm_vec3_scale_as.run mem [vP.val, .f s, destP.val] =
      some (none, writes mem [(destP, (Cglm.glm_vec3_scale_as v s).list.map .f)]) := by
  rcases s_v_dest with s_v_dest | s_v_dest
  · subst s_v_dest
    exact transferL ((R.nil _).addW h_v.has r_dest .nil) (.p rfl (.f (.p rfl .nil))) (glm_vec3_scale_as_run_v _ _) (DT.val_map_eq (glm_vec3_scale_as_dt_val _ _) rfl) rfl rfl
  · exact transferL (((R.nil _).addW r_dest.has r_dest .nil).addR h_v.has (.cons s_v_dest .nil)) (.p rfl (.f (.p rfl .nil))) (glm_vec3_scale_as_run _ _) (DT.val_map_eq (glm_vec3_scale_as_dt_val _ _) rfl) rfl rfl
example (v : V3 α) : let mem : Mem α := [⟨true, v.list.map .f⟩]
    Holds mem (0, 0) v.list ∧ Room mem (0, 0) 3 ∧ (((0, 0) : Ptr) = (0, 0) ∨ Apart (0, 0) 3 (0, 0) 3) :=
  ⟨.block rfl, .block rfl rfl, Or.inl rfl⟩

theorem C55_vec3_div {mem : Mem α} {aP bP destP : Ptr} {a : V3 α} {b : V3 α} (h_a : Holds mem aP a.list) (h_b : Holds mem bP b.list) (r_dest : Room mem destP 3) (s_a_dest : aP = destP ∨ Apart aP 3 destP 3) (s_b_dest : bP = destP ∨ Apart bP 3 destP 3) :
    C.glm_vec3_div.run mem [aP.val, bP.val, destP.val] =
      some (none, writes mem [(destP, (Cglm.glm_vec3_div a b).list.map .f)]) := by
  rcases s_a_dest with s_a_dest | s_a_dest
  · subst s_a_dest
    rcases s_b_dest with s_b_dest | s_b_dest
    · subst s_b_dest
      obtain rfl := V3.list_inj (h_a.inj h_b rfl)
      exact transferL ((R.nil _).addW h_a.has r_dest .nil) (.p rfl (.p rfl (.p rfl .nil))) (glm_vec3_div_run_a_b _) (DT.val_done _) rfl rfl
    · exact transferL (((R.nil _).addW h_a.has r_dest .nil).addR h_b.has (.cons s_b_dest .nil)) (.p rfl (.p rfl (.p rfl .nil))) (glm_vec3_div_run_a _ _) (DT.val_done _) rfl rfl
  · rcases s_b_dest with s_b_dest | s_b_dest
    · subst s_b_dest
      exact transferL (((R.nil _).addW h_b.has r_dest .nil).addR h_a.has (.cons s_a_dest .nil)) (.p rfl (.p rfl (.p rfl .nil))) (glm_vec3_div_run_b _ _) (DT.val_done _) rfl rfl
    · exact transferL ((((R.nil _).addW r_dest.has r_dest .nil).addR h_b.has (.cons s_b_dest .nil)).addR h_a.has (.skip (.cons s_a_dest .nil))) (.p rfl (.p rfl (.p rfl .nil))) (glm_vec3_div_run _ _) (DT.val_done _) rfl rfl
example (a : V3 α) : let mem : Mem α := [⟨true, a.list.map .f⟩]
    Holds mem (0, 0) a.list ∧ Holds mem (0, 0) a.list ∧ Room mem (0, 0) 3 ∧ (((0, 0) : Ptr) = (0, 0) ∨ Apart (0, 0) 3 (0, 0) 3) ∧ (((0, 0) : Ptr) = (0, 0) ∨ Apart (0, 0) 3 (0, 0) 3) :=
  ⟨.block rfl, .block rfl, .block rfl rfl, Or.inl rfl, Or.inl rfl⟩

theorem C55_vec3_divs {mem : Mem α} {vP destP : Ptr} {v : V3 α} (s : α) (h_v : Holds mem vP v.list) (r_dest : Room mem destP 3) (s_v_dest : vP = destP ∨ Apart vP 3 destP 3) :
    C.glm_vec3_divs.run mem [vP.val, .f s, destP.val] =
      some (none, writes mem [(destP, (Cglm.glm_vec3_divs v s).list.map .f)]) := by
  rcases s_v_dest with s_v_dest | s_v_dest
  · subst s_v_dest
    exact transferL ((R.nil _).addW h_v.has r_dest .nil) (.p rfl (.f (.p rfl .nil))) (glm_vec3_divs_run_v _ _) (DT.val_done _) rfl rfl
  · exact transferL (((R.nil _).addW r_dest.has r_dest .nil).addR h_v.has (.cons s_v_dest .nil)) (.p rfl (.f (.p rfl .nil))) (glm_vec3_divs_run _ _) (DT.val_done _) rfl rfl
example (v : V3 α) : let mem : Mem α := [⟨true, v.list.map .f⟩]
    Holds mem (0, 0) v.list ∧ Room mem (0, 0) 3 ∧ (((0, 0) : Ptr) = (0, 0) ∨ Apart (0, 0) 3 (0, 0) 3) :=
  ⟨.block rfl, .block rfl rfl, Or.inl rfl⟩

theorem C55_vec3_addadd {mem : Mem α} {aP bP destP : Ptr} {a : V3 α} {b : V3 α} {dest : V3 α} (h_a : Holds mem aP a.list) (h_b : Holds mem bP b.list) (h_dest : Holds mem destP dest.list) (r_dest : Room mem destP 3) (s_a_dest : aP = destP ∨ Apart aP 3 destP 3) (s_b_dest : bP = destP ∨ Apart bP 3 destP 3) :
    C.glm_vec3_addadd.run mem [aP.val, bP.val, destP.val] =
      some (none, writes mem [(destP, (Cglm.glm_vec3_addadd a b dest).list.map .f)]) := by
  rcases s_a_dest with s_a_dest | s_a_dest
  · subst s_a_dest
    rcases s_b_dest with s_b_dest | s_b_dest
    · subst s_b_dest
      obtain rfl := V3.list_inj (h_dest.inj h_a rfl)
      obtain rfl := V3.list_inj (h_dest.inj h_b rfl)
      exact transferL ((R.nil _).addW h_dest.has r_dest .nil) (.p rfl (.p rfl (.p rfl .nil))) (glm_vec3_addadd_run_a_b _) (DT.val_done _) rfl rfl
    · obtain rfl := V3.list_inj (h_dest.inj h_a rfl)
      exact transferL (((R.nil _).addW h_dest.has r_dest .nil).addR h_b.has (.cons s_b_dest .nil)) (.p rfl (.p rfl (.p rfl .nil))) (glm_vec3_addadd_run_a _ _) (DT.val_done _) rfl rfl
  · rcases s_b_dest with s_b_dest | s_b_dest
    · subst s_b_dest
      obtain rfl := V3.list_inj (h_dest.inj h_b rfl)
      exact transferL (((R.nil _).addW h_dest.has r_dest .nil).addR h_a.has (.cons s_a_dest .nil)) (.p rfl (.p rfl (.p rfl .nil))) (glm_vec3_addadd_run_b _ _) (DT.val_done _) rfl rfl
    · exact transferL ((((R.nil _).addW h_dest.has r_dest .nil).addR h_b.has (.cons s_b_dest .nil)).addR h_a.has (.skip (.cons s_a_dest .nil))) (.p rfl (.p rfl (.p rfl .nil))) (glm_vec3_addadd_run _ _ _) (DT.val_done _) rfl rfl
example (dest : V3 α) : let mem : Mem α := [⟨true, dest.list.map .f⟩]
    Holds mem (0, 0) dest.list ∧ Holds mem (0, 0) dest.list ∧ Holds mem (0, 0) dest.list ∧ Room mem (0, 0) 3 ∧ (((0, 0) : Ptr) = (0, 0) ∨ Apart (0, 0) 3 (0, 0) 3) ∧ (((0, 0) : Ptr) = (0, 0) ∨ Apart (0, 0) 3 (0, 0) 3) :=
  ⟨.block rfl, .block rfl, .block rfl, .block rfl rfl, Or.inl rfl, Or.inl rfl⟩

theorem C55_vec3_subadd {mem : Mem α} {aP bP destP : Ptr} {a : V3 α} {b : V3 α} {dest : V3 α} (h_a : Holds mem aP a.list) (h_b : Holds mem bP b.list) (h_dest : Holds mem destP dest.list) (r_dest : Room mem destP 3) (s_a_dest : aP = destP ∨ Apart aP 3 destP 3) (s_b_dest : bP = destP ∨ Apart bP 3 destP 3) :
    C.glm_vec3_subadd.run mem [aP.val, bP.val, destP.val] =
      some (none, writes mem [(destP, (Cglm.glm_vec3_subadd a b dest).list.map .f)]) := by
  rcases s_a_dest with s_a_dest | s_a_dest
  · subst s_a_dest
    rcases s_b_dest with s_b_dest | s_b_dest
    · subst s_b_dest
      obtain rfl := V3.list_inj (h_dest.inj h_a rfl)
      obtain rfl := V3.list_inj (h_dest.inj h_b rfl)
      exact transferL ((R.nil _).addW h_dest.has r_dest .nil) (.p rfl (.p rfl (.p rfl .nil))) (glm_vec3_subadd_run_a_b _) (DT.val_done _) rfl rfl
    · obtain rfl := V3.list_inj (h_dest.inj h_a rfl)
      exact transferL (((R.nil _).addW h_dest.has r_dest .nil).addR h_b.has (.cons s_b_dest .nil)) (.p rfl (.p rfl (.p rfl .nil))) (glm_vec3_subadd_run_a _ _) (DT.val_done _) rfl rfl
  · rcases s_b_dest with s_b_dest | s_b_dest
    · subst s_b_dest
      obtain rfl := V3.list_inj (h_dest.inj h_b rfl)
      exact transferL (((R.nil _).addW h_dest.has r_dest .nil).addR h_a.has (.cons s_a_dest .nil)) (.p rfl (.p rfl (.p rfl .nil))) (glm_vec3_subadd_run_b _ _) (DT.val_done _) rfl rfl
    · exact transferL ((((R.nil _).addW h_dest.has r_dest .nil).addR h_b.has (.cons s_b_dest .nil)).addR h_a.has (.skip (.cons s_a_dest .nil))) (.p rfl (.p rfl (.p rfl .nil))) (glm_vec3_subadd_run _ _ _) (DT.val_done _) rfl rfl
example (dest : V3 α) : let mem : Mem α := [⟨true, dest.list.map .f⟩]
    Holds mem (0, 0) dest.list ∧ Holds mem (0, 0) dest.list ∧ Holds mem (0, 0) dest.list ∧ Room mem (0, 0) 3 ∧ (((0, 0) : Ptr) = (0, 0) ∨ Apart (0, 0) 3 (0, 0) 3) ∧ (((0, 0) : Ptr) = (0, 0) ∨ Apart (0, 0) 3 (0, 0) 3) :=
  ⟨.block rfl, .block rfl, .block rfl, .block rfl rfl, Or.inl rfl, Or.inl rfl⟩

theorem C55_vec3_muladd {mem : Mem α} {aP bP destP : Ptr} {a : V3 α} {b : V3 α} {dest : V3 α} (h_a : Holds mem aP a.list) (h_b : Holds mem bP b.list) (h_dest : Holds mem destP dest.list) (r_dest : Room mem destP 3) (s_a_dest : aP = destP ∨ Apart aP 3 destP 3) (s_b_dest : bP = destP ∨ Apart bP 3 destP 3) :
    C.glm_vec3_muladd.run mem [aP.val, bP.val, destP.val] =
      some (none, writes mem [(destP, (Cglm.glm_vec3_muladd a b dest).list.map .f)]) := by
  rcases s_a_dest with s_a_dest | s_a_dest
  · subst s_a_dest
    rcases s_b_dest with s_b_dest | s_b_dest
    · subst s_b_dest
      obtain rfl := V3.list_inj (h_dest.inj h_a rfl)
      obtain rfl := V3.list_inj (h_dest.inj h_b rfl)
      exact transferL ((R.nil _).addW h_dest.has r_dest .nil) (.p rfl (.p rfl (.p rfl .nil))) (glm_vec3_muladd_run_a_b _) (DT.val_done _) rfl rfl
    · obtain rfl := V3.list_inj (h_dest.inj h_a rfl)
      exact transferL (((R.nil _).addW h_dest.has r_dest .nil).addR h_b.has (.cons s_b_dest .nil)) (.p rfl (.p rfl (.p rfl .nil))) (glm_vec3_muladd_run_a _ _) (DT.val_done _) rfl rfl
  · rcases s_b_dest with s_b_dest | s_b_dest
    · subst s_b_dest
      obtain rfl := V3.list_inj (h_dest.inj h_b rfl)
      exact transferL (((R.nil _).addW h_dest.has r_dest .nil).addR h_a.has (.cons s_a_dest .nil)) (.p rfl (.p rfl (.p rfl .nil))) (glm_vec3_muladd_run_b _ _) (DT.val_done _) rfl rfl
    · exact transferL ((((R.nil _).addW h_dest.has r_dest .nil).addR h_b.has (.cons s_b_dest .nil)).addR h_a.has (.skip (.cons s_a_dest .nil))) (.p rfl (.p rfl (.p rfl .nil))) (glm_vec3_muladd_run _ _ _) (DT.val_done _) rfl rfl
example (dest : V3 α) : let mem : Mem α := [⟨true, dest.list.map .f⟩]
    Holds mem (0, 0) dest.list ∧ Holds mem (0, 0) dest.list ∧ Holds mem (0, 0) dest.list ∧ Room mem (0, 0) 3 ∧ (((0, 0) : Ptr) = (0, 0) ∨ Apart (0, 0) 3 (0, 0) 3) ∧ (((0, 0) : Ptr) = (0, 0) ∨ Apart (0, 0) 3 (0, 0) 3) :=
  ⟨.block rfl, .block rfl, .block rfl, .block rfl rfl, Or.inl rfl, Or.inl rfl⟩

theorem C55_vec3_muladds {mem : Mem α} {aP destP : Ptr} {a : V3 α} (s : α) {dest : V3 α} (h_a : Holds mem aP a.list) (h_dest : Holds mem destP dest.list) (r_dest : Room mem destP 3) (s_a_dest : aP = destP ∨ Apart aP 3 destP 3) :
    C.glm_vec3_muladds.run mem [aP.val, .f s, destP.val] =
      some (none, writes mem [(destP, (Cglm.glm_vec3_muladds a s dest).list.map .f)]) := by
  rcases s_a_dest with s_a_dest | s_a_dest
  · subst s_a_dest
    obtain rfl := V3.list_inj (h_dest.inj h_a rfl)
    exact transferL ((R.nil _).addW h_dest.has r_dest .nil) (.p rfl (.f (.p rfl .nil))) (glm_vec3_muladds_run_a _ _) (DT.val_done _) rfl rfl
  · exact transferL (((R.nil _).addW h_dest.has r_dest .nil).addR h_a.has (.cons s_a_dest .nil)) (.p rfl (.f (.p rfl .nil))) (glm_vec3_muladds_run _ _ _) (DT.val_done _) rfl rfl
example (dest : V3 α) : let mem : Mem α := [⟨true, dest.list.map .f⟩]
    Holds mem (0, 0) dest.list ∧ Holds mem (0, 0) dest.list ∧ Room mem (0, 0) 3 ∧ (((0, 0) : Ptr) = (0, 0) ∨ Apart (0, 0) 3 (0, 0) 3) :=
  ⟨.block rfl, .block rfl, .block rfl rfl, Or.inl rfl⟩

theorem C55_vec3_maxadd {mem : Mem α} {aP bP destP : Ptr} {a : V3 α} {b : V3 α} {dest : V3 α} (h_a : Holds mem aP a.list) (h_b : Holds mem bP b.list) (h_dest : Holds mem destP dest.list) (r_dest : Room mem destP 3) (s_a_dest : aP = destP ∨ Apart aP 3 destP 3) (s_b_dest : bP = destP ∨ Apart bP 3 destP 3) :
    C.glm_vec3_maxadd.run mem [aP.val, bP.val, destP.val] =
      some (none, writes mem [(destP, (Cglm.glm_vec3_maxadd a b dest).list.map .f)]) := by
  rcases s_a_dest with s_a_dest | s_a_dest
  · subst s_a_dest
    rcases s_b_dest with s_b_dest | s_b_dest
    · subst s_b_dest
      obtain rfl := V3.list_inj (h_dest.inj h_a rfl)
      obtain rfl := V3.list_inj (h_dest.inj h_b rfl)
      exact transferL ((R.nil _).addW h_dest.has r_dest .nil) (.p rfl (.p rfl (.p rfl .nil))) (glm_vec3_maxadd_run_a_b _) (DT.val_done _) rfl rfl
    · obtain rfl := V3.list_inj (h_dest.inj h_a rfl)
      exact transferL (((R.nil _).addW h_dest.has r_dest .nil).addR h_b.has (.cons s_b_dest .nil)) (.p rfl (.p rfl (.p rfl .nil))) (glm_vec3_maxadd_run_a _ _) (DT.val_done _) rfl rfl
  · rcases s_b_dest with s_b_dest | s_b_dest
    · subst s_b_dest
      obtain rfl := V3.list_inj (h_dest.inj h_b rfl)
      exact transferL (((R.nil _).addW h_dest.has r_dest .nil).addR h_a.has (.cons s_a_dest .nil)) (.p rfl (.p rfl (.p rfl .nil))) (glm_vec3_maxadd_run_b _ _) (DT.val_done _) rfl rfl
    · exact transferL ((((R.nil _).addW h_dest.has r_dest .nil).addR h_b.has (.cons s_b_dest .nil)).addR h_a.has (.skip (.cons s_a_dest .nil))) (.p rfl (.p rfl (.p rfl .nil))) (glm_vec3_maxadd_run _ _ _) (DT.val_done _) rfl rfl
example (dest : V3 α) : let mem : Mem α := [⟨true, dest.list.map .f⟩]
    Holds mem (0, 0) dest.list ∧ Holds mem (0, 0) dest.list ∧ Holds mem (0, 0) dest.list ∧ Room mem (0, 0) 3 ∧ (((0, 0) : Ptr) = (0, 0) ∨ Apart (0, 0) 3 (0, 0) 3) ∧ (((0, 0) : Ptr) = (0, 0) ∨ Apart (0, 0) 3 (0, 0) 3) :=
  ⟨.block rfl, .block rfl, .block rfl, .block rfl rfl, Or.inl rfl, Or.inl rfl⟩

theorem C55_vec3_minadd {mem : Mem α} {aP bP destP : Ptr} {a : V3 α} {b : V3 α} {dest : V3 α} (h_a : Holds mem aP a.list) (h_b : Holds mem bP b.list) (h_dest : Holds mem destP dest.list) (r_dest : Room mem destP 3) (s_a_dest : aP = destP ∨ Apart aP 3 destP 3) (s_b_dest : bP = destP ∨ Apart bP 3 destP 3) :
    C.glm_vec3_minadd.run mem [aP.val, bP.val, destP.val] =
      some (none, writes mem [(destP, (Cglm.glm_vec3_minadd a b dest).list.map .f)]) := by
  rcases s_a_dest with s_a_dest | s_a_dest
  · subst s_a_dest
    rcases s_b_dest with s_b_dest | s_b_dest
    · subst s_b_dest
      obtain rfl := V3.list_inj (h_dest.inj h_a rfl)
      obtain rfl := V3.list_inj (h_dest.inj h_b rfl)
      exact transferL ((R.nil _).addW h_dest.has r_dest .nil) (.p rfl (.p rfl (.p rfl .nil))) (glm_vec3_minadd_run_a_b _) (DT.val_done _) rfl rfl
    · obtain rfl := V3.list_inj (h_dest.inj h_a rfl)
      exact transferL (((R.nil _).addW h_dest.has r_dest .nil).addR h_b.has (.cons s_b_dest .nil)) (.p rfl (.p rfl (.p rfl .nil))) (glm_vec3_minadd_run_a _ _) (DT.val_done _) rfl rfl
  · rcases s_b_dest with s_b_dest | s_b_dest
    · subst s_b_dest
      obtain rfl := V3.list_inj (h_dest.inj h_b rfl)
      exact transferL (((R.nil _).addW h_dest.has r_dest .nil).addR h_a.has (.cons s_a_dest .nil)) (.p rfl (.p rfl (.p rfl .nil))) (glm_vec3_minadd_run_b _ _) (DT.val_done _) rfl rfl
    · exact transferL ((((R.nil _).addW h_dest.has r_dest .nil).addR h_b.has (.cons s_b_dest .nil)).addR h_a.has (.skip (.cons s_a_dest .nil))) (.p rfl (.p rfl (.p rfl .nil))) (glm_vec3_minadd_run _ _ _) (DT.val_done _) rfl rfl
example (dest : V3 α) : let mem : Mem α := [⟨true, dest.list.map .f⟩]
    Holds mem (0, 0) dest.list ∧ Holds mem (0, 0) dest.list ∧ Holds mem (0, 0) dest.list ∧ Room mem (0, 0) 3 ∧ (((0, 0) : Ptr) = (0, 0) ∨ Apart (0, 0) 3 (0, 0) 3) ∧ (((0, 0) : Ptr) = (0, 0) ∨ Apart (0, 0) 3 (0, 0) 3) :=
  ⟨.block rfl, .block rfl, .block rfl, .block rfl rfl, Or.inl rfl, Or.inl rfl⟩

theorem C55_vec3_subsub {mem : Mem α} {aP bP destP : Ptr} {a : V3 α} {b : V3 α} {dest : V3 α} (h_a : Holds mem aP a.list) (h_b : Holds mem bP b.list) (h_dest : Holds mem destP dest.list) (r_dest : Room mem destP 3) (s_a_dest : aP = destP ∨ Apart aP 3 destP 3) (s_b_dest : bP = destP ∨ Apart bP 3 destP 3) :
    C.glm_vec3_subsub.run mem [aP.val, bP.val, destP.val] =
      some (none, writes mem [(destP, (Cglm.glm_vec3_subsub a b dest).list.map .f)]) := by
  rcases s_a_dest with s_a_dest | s_a_dest
  · subst s_a_dest
    rcases s_b_dest with s_b_dest | s_b_dest
    · subst s_b_dest
      obtain rfl := V3.list_inj (h_dest.inj h_a rfl)
      obtain rfl := V3.list_inj (h_dest.inj h_b rfl)
      exact transferL ((R.nil _).addW h_dest.has r_dest .nil) (.p rfl (.p rfl (.p rfl .nil))) (glm_vec3_subsub_run_a_b _) (DT.val_done _) rfl rfl
    · obtain rfl := V3.list_inj (h_dest.inj h_a rfl)
      exact transferL (((R.nil _).addW h_dest.has r_dest .nil).addR h_b.has (.cons s_b_dest .nil)) (.p rfl (.p rfl (.p rfl .nil))) (glm_vec3_subsub_run_a _ _) (DT.val_done _) rfl rfl
  · rcases s_b_dest with s_b_dest | s_b_dest
    · subst s_b_dest
      obtain rfl := V3.list_inj (h_dest.inj h_b rfl)
      exact transferL (((R.nil _).addW h_dest.has r_dest .nil).addR h_a.has (.cons s_a_dest .nil)) (.p rfl (.p rfl (.p rfl .nil))) (glm_vec3_subsub_run_b _ _) (DT.val_done _) rfl rfl
    · exact transferL ((((R.nil _).addW h_dest.has r_dest .nil).addR h_b.has (.cons s_b_dest .nil)).addR h_a.has (.skip (.cons s_a_dest .nil))) (.p rfl (.p rfl (.p rfl .nil))) (glm_vec3_subsub_run _ _ _) (DT.val_done _) rfl rfl
example (dest : V3 α) : let mem : Mem α := [⟨true, dest.list.map .f⟩]
    Holds mem (0, 0) dest.list ∧ Holds mem (0, 0) dest.list ∧ Holds mem (0, 0) dest.list ∧ Room mem (0, 0) 3 ∧ (((0, 0) : Ptr) = (0, 0) ∨ Apart (0, 0) 3 (0, 0) 3) ∧ (((0, 0) : Ptr) = (0, 0) ∨ Apart (0, 0) 3 (0, 0) 3) :=
  ⟨.block rfl, .block rfl, .block rfl, .block rfl rfl, Or.inl rfl, Or.inl rfl⟩

theorem C55_vec3_addsub {mem : Mem α} {aP bP destP : Ptr} {a : V3 α} {b : V3 α} {dest : V3 α} (h_a : Holds mem aP a.list) (h_b : Holds mem bP b.list) (h_dest : Holds mem destP dest.list) (r_dest : Room mem destP 3) (s_a_dest : aP = destP ∨ Apart aP 3 destP 3) (s_b_dest : bP = destP ∨ Apart bP 3 destP 3) :
    C.glm_vec3_addsub.run mem [aP.val, bP.val, destP.val] =
      some (none, writes mem [(destP, (Cglm.glm_vec3_addsub a b dest).list.map .f)]) := by
  rcases s_a_dest with s_a_dest | s_a_dest
  · subst s_a_dest
    rcases s_b_dest with s_b_dest | s_b_dest
    · subst s_b_dest
      obtain rfl := V3.list_inj (h_dest.inj h_a rfl)
      obtain rfl := V3.list_inj (h_dest.inj h_b rfl)
      exact transferL ((R.nil _).addW h_dest.has r_dest .nil) (.p rfl (.p rfl (.p rfl .nil))) (glm_vec3_addsub_run_a_b _) (DT.val_done _) rfl rfl
    · obtain rfl := V3.list_inj (h_dest.inj h_a rfl)
      exact transferL (((R.nil _).addW h_dest.has r_dest .nil).addR h_b.has (.cons s_b_dest .nil)) (.p rfl (.p rfl (.p rfl .nil))) (glm_vec3_addsub_run_a _ _) (DT.val_done _) rfl rfl
  · rcases s_b_dest with s_b_dest | s_b_dest
    · subst s_b_dest
      obtain rfl := V3.list_inj (h_dest.inj h_b rfl)
      exact transferL (((R.nil _).addW h_dest.has r_dest .nil).addR h_a.has (.cons s_a_dest .nil)) (.p rfl (.p rfl (.p rfl .nil))) (glm_vec3_addsub_run_b _ _) (DT.val_done _) rfl rfl
    · exact transferL ((((R.nil _).addW h_dest.has r_dest .nil).addR h_b.has (.cons s_b_dest .nil)).addR h_a.has (.skip (.cons s_a_dest .nil))) (.p rfl (.p rfl (.p rfl .nil))) (glm_vec3_addsub_run _ _ _) (DT.val_done _) rfl rfl
example (dest : V3 α) : let mem : Mem α := [⟨true, dest.list.map .f⟩]
    Holds mem (0, 0) dest.list ∧ Holds mem (0, 0) dest.list ∧ Holds mem (0, 0) dest.list ∧ Room mem (0, 0) 3 ∧ (((0, 0) : Ptr) = (0, 0) ∨ Apart (0, 0) 3 (0, 0) 3) ∧ (((0, 0) : Ptr) = (0, 0) ∨ Apart (0, 0) 3 (0, 0) 3) :=
  ⟨.block rfl, .block rfl, .block rfl, .block rfl rfl, Or.inl rfl, Or.inl rfl⟩

theorem C55_vec3_mulsub {mem : Mem α} {aP bP destP : Ptr} {a : V3 α} {b : V3 α} {dest : V3 α} (h_a : Holds mem aP a.list) (h_b : Holds mem bP b.list) (h_dest : Holds mem destP dest.list) (r_dest : Room mem destP 3) (s_a_dest : aP = destP ∨ Apart aP 3 destP 3) (s_b_dest : bP = destP ∨ Apart bP 3 destP 3) :
    C.glm_vec3_mulsub.run mem [aP.val, bP.val, destP.val] =
      some (none, writes mem [(destP, (Cglm.glm_vec3_mulsub a b dest).list.map .f)]) := by
  rcases s_a_dest with s_a_dest | s_a_dest
  · subst s_a_dest
    rcases s_b_dest with s_b_dest | s_b_dest
    · subst s_b_dest
      obtain rfl := V3.list_inj (h_dest.inj h_a rfl)
      obtain rfl := V3.list_inj (h_dest.inj h_b rfl)
      exact transferL ((R.nil _).addW h_dest.has r_dest .nil) (.p rfl (.p rfl (.p rfl .nil))) (glm_vec3_mulsub_run_a_b _) (DT.val_done _) rfl rfl
    · obtain rfl := V3.list_inj (h_dest.inj h_a rfl)
      exact transferL (((R.nil _).addW h_dest.has r_dest .nil).addR h_b.has (.cons s_b_dest .nil)) (.p rfl (.p rfl (.p rfl .nil))) (glm_vec3_mulsub_run_a _ _) (DT.val_done _) rfl rfl
  · rcases s_b_dest with s_b_dest | s_b_dest
    · subst s_b_dest
      obtain rfl := V3.list_inj (h_dest.inj h_b rfl)
      exact transferL (((R.nil _).addW h_dest.has r_dest .nil).addR h_a.has (.cons s_a_dest .nil)) (.p rfl (.p rfl (.p rfl .nil))) (glm_vec3_mulsub_run_b _ _) (DT.val_done _) rfl rfl
    · exact transferL ((((R.nil _).addW h_dest.has r_dest .nil).addR h_b.has (.cons s_b_dest .nil)).addR h_a.has (.skip (.cons s_a_dest .nil))) (.p rfl (.p rfl (.p rfl .nil))) (glm_vec3_mulsub_run _ _ _) (DT.val_done _) rfl rfl
example (dest : V3 α) : let mem : Mem α := [⟨true, dest.list.map .f⟩]
    Holds mem (0, 0) dest.list ∧ Holds mem (0, 0) dest.list ∧ Holds mem (0, 0) dest.list ∧ Room mem (0, 0) 3 ∧ (((0, 0) : Ptr) = (0, 0) ∨ Apart (0, 0) 3 (0, 0) 3) ∧ (((0, 0) : Ptr) = (0, 0) ∨ Apart (0, 0) 3 (0, 0) 3) :=
  ⟨.block rfl, .block rfl, .block rfl, .block rfl rfl, Or.inl rfl, Or.inl rfl⟩

theorem C55_vec3_mulsubs {mem : Mem α} {aP destP : Ptr} {a : V3 α} (s : α) {dest : V3 α} (h_a : Holds mem aP a.list) (h_dest : Holds mem destP dest.list) (r_dest : Room mem destP 3) (s_a_dest : aP = destP ∨ Apart aP 3 destP 3) :
    C.glm_vec3_mulsubs.run mem [aP.val, .f s, destP.val] =
      some (none, writes mem [(destP, (Cglm.glm_vec3_mulsubs a s dest).list.map .f)]) := by
  rcases s_a_dest with s_a_dest | s_a_dest
  · subst s_a_dest
    obtain rfl := V3.list_inj (h_dest.inj h_a rfl)
    exact transferL ((R.nil _).addW h_dest.has r_dest .nil) (.p rfl (.f (.p rfl .nil))) (glm_vec3_mulsubs_run_a _ _) (DT.val_done _) rfl rfl
  · exact transferL (((R.nil _).addW h_dest.has r_dest .nil).addR h_a.has (.cons s_a_dest .nil)) (.p rfl (.f (.p rfl .nil))) (glm_vec3_mulsubs_run _ _ _) (DT.val_done _) rfl rfl
example (dest : V3 α) : let mem : Mem α := [⟨true, dest.list.map .f⟩]
    Holds mem (0, 0) dest.list ∧ Holds mem (0, 0) dest.list ∧ Room mem (0, 0) 3 ∧ (((0, 0) : Ptr) = (0, 0) ∨ Apart (0, 0) 3 (0, 0) 3) :=
  ⟨.block rfl, .block rfl, .block rfl rfl, Or.inl rfl⟩

theorem C55_vec3_maxsub {mem : Mem α} {aP bP destP : Ptr} {a : V3 α} {b : V3 α} {dest : V3 α} (h_a : Holds mem aP a.list) (h_b : Holds mem bP b.list) (h_dest : Holds mem destP dest.list) (r_dest : Room mem destP 3) (s_a_dest : aP = destP ∨ Apart aP 3 destP 3) (s_b_dest : bP = destP ∨ Apart bP 3 destP 3) :
    C.glm_vec3_maxsub.run mem [aP.val, bP.val, destP.val] =
      some (none, writes mem [(destP, (Cglm.glm_vec3_maxsub a b dest).list.map .f)]) := by
  rcases s_a_dest with s_a_dest | s_a_dest
  · subst s_a_dest
    rcases s_b_dest with s_b_dest | s_b_dest
    · subst s_b_dest
      obtain rfl := V3.list_inj (h_dest.inj h_a rfl)
      obtain rfl := V3.list_inj (h_dest.inj h_b rfl)
      exact transferL ((R.nil _).addW h_dest.has r_dest .nil) (.p rfl (.p rfl (.p rfl .nil))) (glm_vec3_maxsub_run_a_b _) (DT.val_done _) rfl rfl
    · obtain rfl := V3.list_inj (h_dest.inj h_a rfl)
      exact transferL (((R.nil _).addW h_dest.has r_dest .nil).addR h_b.has (.cons s_b_dest .nil)) (.p rfl (.p rfl (.p rfl .nil))) (glm_vec3_maxsub_run_a _ _) (DT.val_done _) rfl rfl
  · rcases s_b_dest with s_b_dest | s_b_dest
    · subst s_b_dest
      obtain rfl := V3.list_inj (h_dest.inj h_b rfl)
      exact transferL (((R.nil _).addW h_dest.has r_dest .nil).addR h_a.has (.cons s_a_dest .nil)) (.p rfl (.p rfl (.p rfl .nil))) (glm_vec3_maxsub_run_b _ _) (DT.val_done _) rfl rfl
    · exact transferL ((((R.nil _).addW h_dest.has r_dest .nil).addR h_b.has (.cons s_b_dest .nil)).addR h_a.has (.skip (.cons s_a_dest .nil))) (.p rfl (.p rfl (.p rfl .nil))) (glm_vec3_maxsub_run _ _ _) (DT.val_done _) rfl rfl
example (dest : V3 α) : let mem : Mem α := [⟨true, dest.list.map .f⟩]
    Holds mem (0, 0) dest.list ∧ Holds mem (0, 0) dest.list ∧ Holds mem (0, 0) dest.list ∧ Room mem (0, 0) 3 ∧ (((0, 0) : Ptr) = (0, 0) ∨ Apart (0, 0) 3 (0, 0) 3) ∧ (((0, 0) : Ptr) = (0, 0) ∨ Apart (0, 0) 3 (0, 0) 3) :=
  ⟨.block rfl, .block rfl, .block rfl, .block rfl rfl, Or.inl rfl, Or.inl rfl⟩

theorem C55_vec3_minsub {mem : Mem α} {aP bP destP : Ptr} {a : V3 α} {b : V3 α} {dest : V3 α} (h_a : Holds mem aP a.list) (h_b : Holds mem bP b.list) (h_dest : Holds mem destP dest.list) (r_dest : Room mem destP 3) (s_a_dest : aP = destP ∨ Apart aP 3 destP 3) (s_b_dest : bP = destP ∨ Apart bP 3 destP 3) :
    C.glm_vec3_minsub.run mem [aP.val, bP.val, destP.val] =
      some (none, writes mem [(destP, (Cglm.glm_vec3_minsub a b dest).list.map .f)]) := by
  rcases s_a_dest with s_a_dest | s_a_dest
  · subst s_a_dest
    rcases s_b_dest with s_b_dest | s_b_dest
    · subst s_b_dest
      obtain rfl := V3.list_inj (h_dest.inj h_a rfl)
      obtain rfl := V3.list_inj (h_dest.inj h_b rfl)
      exact transferL ((R.nil _).addW h_dest.has r_dest .nil) (.p rfl (.p rfl (.p rfl .nil))) (glm_vec3_minsub_run_a_b _) (DT.val_done _) rfl rfl
    · obtain rfl := V3.list_inj (h_dest.inj h_a rfl)
      exact transferL (((R.nil _).addW h_dest.has r_dest .nil).addR h_b.has (.cons s_b_dest .nil)) (.p rfl (.p rfl (.p rfl .nil))) (glm_vec3_minsub_run_a _ _) (DT.val_done _) rfl rfl
  · rcases s_b_dest with s_b_dest | s_b_dest
    · subst s_b_dest
      obtain rfl := V3.list_inj (h_dest.inj h_b rfl)
      exact transferL (((R.nil _).addW h_dest.has r_dest .nil).addR h_a.has (.cons s_a_dest .nil)) (.p rfl (.p rfl (.p rfl .nil))) (glm_vec3_minsub_run_b _ _) (DT.val_done _) rfl rfl
    · exact transferL ((((R.nil _).addW h_dest.has r_dest .nil).addR h_b.has (.cons s_b_dest .nil)).addR h_a.has (.skip (.cons s_a_dest .nil))) (.p rfl (.p rfl (.p rfl .nil))) (glm_vec3_minsub_run _ _ _) (DT.val_done _) rfl rfl
example (dest : V3 α) : let mem : Mem α := [⟨true, dest.list.map .f⟩]
    Holds mem (0, 0) dest.list ∧ Holds mem (0, 0) dest.list ∧ Holds mem (0, 0) dest.list ∧ Room mem (0, 0) 3 ∧ (((0, 0) : Ptr) = (0, 0) ∨ Apart (0, 0) 3 (0, 0) 3) ∧ (((0, 0) : Ptr) = (0, 0) ∨ Apart (0, 0) 3 (0, 0) 3) :=
  ⟨.block rfl, .block rfl, .block rfl, .block rfl rfl, Or.inl rfl, Or.inl rfl⟩

theorem C55_vec3_negate_to {mem : Mem α} {vP destP : Ptr} {v : V3 α} (h_v : Holds mem vP v.list) (r_dest : Room mem destP 3) (s_v_dest : vP = destP ∨ Apart vP 3 destP 3) :
    C.glm_vec3_negate_to.run mem [vP.val, destP.val] =
      some (none, writes mem [(destP, (Cglm.glm_vec3_negate_to v).list.map .f)]) := by
  rcases s_v_dest with s_v_dest | s_v_dest
  · subst s_v_dest
    exact transferL ((R.nil _).addW h_v.has r_dest .nil) (.p rfl (.p rfl .nil)) (glm_vec3_negate_to_run_v _) (DT.val_done _) rfl rfl
  · exact transferL (((R.nil _).addW r_dest.has r_dest .nil).addR h_v.has (.cons s_v_dest .nil)) (.p rfl (.p rfl .nil)) (glm_vec3_negate_to_run _) (DT.val_done _) rfl rfl
example (v : V3 α) : let mem : Mem α := [⟨true, v.list.map .f⟩]
    Holds mem (0, 0) v.list ∧ Room mem (0, 0) 3 ∧ (((0, 0) : Ptr) = (0, 0) ∨ Apart (0, 0) 3 (0, 0) 3) :=
  ⟨.block rfl, .block rfl rfl, Or.inl rfl⟩

theorem C55_vec3_normalize_to {mem : Mem α} {vP destP : Ptr} {v : V3 α} (h_v : Holds mem vP v.list) (r_dest : Room mem destP 3) (s_v_dest : vP = destP ∨ Apart vP 3 destP 3) :
    C.glm_vec3_normalize_to.run mem [vP.val, destP.val] =
      some (none, writes mem [(destP, (Cglm.glm_vec3_normalize_to v).list.map .f)]) := by
  rcases s_v_dest with s_v_dest | s_v_dest
  · subst s_v_dest
    exact transferL ((R.nil _).addW h_v.has r_dest .nil) (.p rfl (.p rfl .nil)) (glm_vec3_normalize_to_run_v _) (DT.val_map_eq (glm_vec3_normalize_to_dt_val _) rfl) rfl rfl
  · exact transferL (((R.nil _).addW r_dest.has r_dest .nil).addR h_v.has (.cons s_v_dest .nil)) (.p rfl (.p rfl .nil)) (glm_vec3_normalize_to_run _) (DT.val_map_eq (glm_vec3_normalize_to_dt_val _) rfl) rfl rfl
example (v : V3 α) : let mem : Mem α := [⟨true, v.list.map .f⟩]
    Holds mem (0, 0) v.list ∧ Room mem (0, 0) 3 ∧ (((0, 0) : Ptr) = (0, 0) ∨ Apart (0, 0) 3 (0, 0) 3) :=
  ⟨.block rfl, .block rfl rfl, Or.inl rfl⟩

theorem C55_vec3_cross {mem : Mem α} {aP bP destP : Ptr} {a : V3 α} {b : V3 α} (h_a : Holds mem aP a.list) (h_b : Holds mem bP b.list) (r_dest : Room mem destP 3) (s_a_dest : aP = destP ∨ Apart aP 3 destP 3) (s_b_dest : bP = destP ∨ Apart bP 3 destP 3) :
    C.glm_vec3_cross.run mem [aP.val, bP.val, destP.val] =
      some (none, writes mem [(destP, (Cglm.glm_vec3_cross a b).list.map .f)]) := by
  rcases s_a_dest with s_a_dest | s_a_dest
  · subst s_a_dest
    rcases s_b_dest with s_b_dest | s_b_dest
    · subst s_b_dest
      obtain rfl := V3.list_inj (h_a.inj h_b rfl)
      exact transferL ((R.nil _).addW h_a.has r_dest .nil) (.p rfl (.p rfl (.p rfl .nil))) (glm_vec3_cross_run_a_b _) (DT.val_done _) rfl rfl
    · exact transferL (((R.nil _).addW h_a.has r_dest .nil).addR h_b.has (.cons s_b_dest .nil)) (.p rfl (.p rfl (.p rfl .nil))) (glm_vec3_cross_run_a _ _) (DT.val_done _) rfl rfl
  · rcases s_b_dest with s_b_dest | s_b_dest
    · subst s_b_dest
      exact transferL (((R.nil _).addW h_b.has r_dest .nil).addR h_a.has (.cons s_a_dest .nil)) (.p rfl (.p rfl (.p rfl .nil))) (glm_vec3_cross_run_b _ _) (DT.val_done _) rfl rfl
    · exact transferL ((((R.nil _).addW r_dest.has r_dest .nil).addR h_b.has (.cons s_b_dest .nil)).addR h_a.has (.skip (.cons s_a_dest .nil))) (.p rfl (.p rfl (.p rfl .nil))) (glm_vec3_cross_run _ _) (DT.val_done _) rfl rfl
example (a : V3 α) : let mem : Mem α := [⟨true, a.list.map .f⟩]
    Holds mem (0, 0) a.list ∧ Holds mem (0, 0) a.list ∧ Room mem (0, 0) 3 ∧ (((0, 0) : Ptr) = (0, 0) ∨ Apart (0, 0) 3 (0, 0) 3) ∧ (((0, 0) : Ptr) = (0, 0) ∨ Apart (0, 0) 3 (0, 0) 3) :=
  ⟨.block rfl, .block rfl, .block rfl rfl, Or.inl rfl, Or.inl rfl⟩

theorem C55_vec3_crossn {mem : Mem α} {aP bP destP : Ptr} {a : V3 α} {b : V3 α} (h_a : Holds mem aP a.list) (h_b : Holds mem bP b.list) (r_dest : Room mem destP 3) (s_a_dest : aP = destP ∨ Apart aP 3 destP 3) (s_b_dest : bP = destP ∨ Apart bP 3 destP 3) :
    C.glm_vec3_crossn.run mem [aP.val, bP.val, destP.val] =
      some (none, writes mem [(destP, (Cglm.glm_vec3_crossn a b).list.map .f)]) := by
  rcases s_a_dest with s_a_dest | s_a_dest
  · subst s_a_dest
    rcases s_b_dest with s_b_dest | s_b_dest
    · subst s_b_dest
      obtain rfl := V3.list_inj (h_a.inj h_b rfl)
      exact transferL ((R.nil _).addW h_a.has r_dest .nil) (.p rfl (.p rfl (.p rfl .nil))) (glm_vec3_crossn_run_a_b _) (DT.val_map_eq (glm_vec3_crossn_dt_val _ _) rfl) rfl rfl
    · exact transferL (((R.nil _).addW h_a.has r_dest .nil).addR h_b.has (.cons s_b_dest .nil)) (.p rfl (.p rfl (.p rfl .nil))) (glm_vec3_crossn_run_a _ _) (DT.val_map_eq (glm_vec3_crossn_dt_val _ _) rfl) rfl rfl
  · rcases s_b_dest with s_b_dest | s_b_dest
    · subst s_b_dest
      exact transferL (((R.nil _).addW h_b.has r_dest .nil).addR h_a.has (.cons s_a_dest .nil)) (.p rfl (.p rfl (.p rfl .nil))) (glm_vec3_crossn_run_b _ _) (DT.val_map_eq (glm_vec3_crossn_dt_val _ _) rfl) rfl rfl
    · exact transferL ((((R.nil _).addW r_dest.has r_dest .nil).addR h_b.has (.cons s_b_dest .nil)).addR h_a.has (.skip (.cons s_a_dest .nil))) (.p rfl (.p rfl (.p rfl .nil))) (glm_vec3_crossn_run _ _) (DT.val_map_eq (glm_vec3_crossn_dt_val _ _) rfl) rfl rfl
example (a : V3 α) : let mem : Mem α := [⟨true, a.list.map .f⟩]
    Holds mem (0, 0) a.list ∧ Holds mem (0, 0) a.list ∧ Room mem (0, 0) 3 ∧ (((0, 0) : Ptr) = (0, 0) ∨ Apart (0, 0) 3 (0, 0) 3) ∧ (((0, 0) : Ptr) = (0, 0) ∨ Apart (0, 0) 3 (0, 0) 3) :=
  ⟨.block rfl, .block rfl, .block rfl rfl, Or.inl rfl, Or.inl rfl⟩

theorem C55_vec3_rotate {mem : Mem α} {vP axisP : Ptr} {v : V3 α} (angle : α) {axis : V3 α} (h_v : Holds mem vP v.list) (r_v : Room mem vP 3) (h_axis : Holds mem axisP axis.list) (s_axis_v : axisP = vP ∨ Apart axisP 3 vP 3) :
    C.glm_vec3_rotate.run mem [vP.val, .f angle, axisP.val] =
      some (none, writes mem [(vP, (Cglm.glm_vec3_rotate v angle axis).list.map .f)]) := by
  rcases s_axis_v with s_axis_v | s_axis_v
  · subst s_axis_v
    obtain rfl := V3.list_inj (h_v.inj h_axis rfl)
    exact transferL ((R.nil _).addW h_v.has r_v .nil) (.p rfl (.f (.p rfl .nil))) (glm_vec3_rotate_run_axis _ _) (DT.val_map_eq (glm_vec3_rotate_dt_val _ _ _) rfl) rfl rfl
  · exact transferL (((R.nil _).addR h_axis.has .nil).addW h_v.has r_v (.cons s_axis_v.symm .nil)) (.p rfl (.f (.p rfl .nil))) (glm_vec3_rotate_run _ _ _) (DT.val_map_eq (glm_vec3_rotate_dt_val _ _ _) rfl) rfl rfl
example (v : V3 α) : let mem : Mem α := [⟨true, v.list.map .f⟩]
    Holds mem (0, 0) v.list ∧ Room mem (0, 0) 3 ∧ Holds mem (0, 0) v.list ∧ (((0, 0) : Ptr) = (0, 0) ∨ Apart (0, 0) 3 (0, 0) 3) :=
  ⟨.block rfl, .block rfl rfl, .block rfl, Or.inl rfl⟩

theorem C55_vec3_rotate_m4 {mem : Mem α} {mP vP destP : Ptr} {m : M4 α} {v : V3 α} (h_m : Holds mem mP m.list) (h_v : Holds mem vP v.list) (r_dest : Room mem destP 3) (s_m_dest : Apart mP 16 destP 3) (s_v_dest : vP = destP ∨ Apart vP 3 destP 3) :
    C.glm_vec3_rotate_m4.run mem [mP.val, vP.val, destP.val] =
      some (none, writes mem [(destP, (Cglm.glm_vec3_rotate_m4 m v).list.map .f)]) := by
  rcases s_v_dest with s_v_dest | s_v_dest
  · subst s_v_dest
    exact transferL (((R.nil _).addW h_v.has r_dest .nil).addR h_m.has (.cons s_m_dest .nil)) (.p rfl (.p rfl (.p rfl .nil))) (glm_vec3_rotate_m4_run_v _ _) (DT.val_map_eq (glm_vec3_rotate_m4_dt_val _ _) rfl) rfl rfl
  · exact transferL ((((R.nil _).addW r_dest.has r_dest .nil).addR h_v.has (.cons s_v_dest .nil)).addR h_m.has (.skip (.cons s_m_dest .nil))) (.p rfl (.p rfl (.p rfl .nil))) (glm_vec3_rotate_m4_run _ _) (DT.val_map_eq (glm_vec3_rotate_m4_dt_val _ _) rfl) rfl rfl
example (m : M4 α) (v : V3 α) : let mem : Mem α := [⟨false, m.list.map .f⟩, ⟨true, v.list.map .f⟩]
    Holds mem (0, 0) m.list ∧ Holds mem (1, 0) v.list ∧ Room mem (1, 0) 3 ∧ Apart (0, 0) 16 (1, 0) 3 ∧ (((1, 0) : Ptr) = (1, 0) ∨ Apart (1, 0) 3 (1, 0) 3) :=
  ⟨.block rfl, .block rfl, .block rfl rfl, Or.inl (by decide), Or.inl rfl⟩

theorem C55_vec3_rotate_m3 {mem : Mem α} {mP vP destP : Ptr} {m : M3 α} {v : V3 α} (h_m : Holds mem mP m.list) (h_v : Holds mem vP v.list) (r_dest : Room mem destP 3) (s_m_dest : Apart mP 9 destP 3) (s_v_dest : vP = destP ∨ Apart vP 3 destP 3) :
    C.glm_vec3_rotate_m3.run mem [mP.val, vP.val, destP.val] =
      some (none, writes mem [(destP, (Cglm.glm_vec3_rotate_m3 m v).list.map .f)]) := by
  rcases s_v_dest with s_v_dest | s_v_dest
  · subst s_v_dest
    exact transferL (((R.nil _).addW h_v.has r_dest .nil).addR h_m.has (.cons s_m_dest .nil)) (.p rfl (.p rfl (.p rfl .nil))) (glm_vec3_rotate_m3_run_v _ _) (DT.val_map_eq (glm_vec3_rotate_m3_dt_val _ _) rfl) rfl rfl
  · exact transferL ((((R.nil _).addW r_dest.has r_dest .nil).addR h_v.has (.cons s_v_dest .nil)).addR h_m.has (.skip (.cons s_m_dest .nil))) (.p rfl (.p rfl (.p rfl .nil))) (glm_vec3_rotate_m3_run _ _) (DT.val_map_eq (glm_vec3_rotate_m3_dt_val _ _) rfl) rfl rfl
example (m : M3 α) (v : V3 α) : let mem : Mem α := [⟨false, m.list.map .f⟩, ⟨true, v.list.map .f⟩]
    Holds mem (0, 0) m.list ∧ Holds mem (1, 0) v.list ∧ Room mem (1, 0) 3 ∧ Apart (0, 0) 9 (1, 0) 3 ∧ (((1, 0) : Ptr) = (1, 0) ∨ Apart (1, 0) 3 (1, 0) 3) :=
  ⟨.block rfl, .block rfl, .block rfl rfl, Or.inl (by decide), Or.inl rfl⟩

theorem C55_vec3_proj {mem : Mem α} {aP bP destP : Ptr} {a : V3 α} {b : V3 α} (h_a : Holds mem aP a.list) (h_b : Holds mem bP b.list) (r_dest : Room mem destP 3) (s_a_dest : aP = destP ∨ Apart aP 3 destP 3) (s_b_dest : bP = destP ∨ Apart bP 3 destP 3) :
    C.glm_vec3_proj.run mem [aP.val, bP.val, destP.val] =
      some (none, writes mem [(destP, (Cglm.glm_vec3_proj a b).list.map .f)]) := by
  rcases s_a_dest with s_a_dest | s_a_dest
  · subst s_a_dest
    rcases s_b_dest with s_b_dest | s_b_dest
    · subst s_b_dest
      obtain rfl := V3.list_inj (h_a.inj h_b rfl)
      exact transferL ((R.nil _).addW h_a.has r_dest .nil) (.p rfl (.p rfl (.p rfl .nil))) (glm_vec3_proj_run_a_b _) (DT.val_done _) rfl rfl
    · exact transferL (((R.nil _).addW h_a.has r_dest .nil).addR h_b.has (.cons s_b_dest .nil)) (.p rfl (.p rfl (.p rfl .nil))) (glm_vec3_proj_run_a _ _) (DT.val_done _) rfl rfl
  · rcases s_b_dest with s_b_dest | s_b_dest
    · subst s_b_dest
      exact transferL (((R.nil _).addW h_b.has r_dest .nil).addR h_a.has (.cons s_a_dest .nil)) (.p rfl (.p rfl (.p rfl .nil))) (glm_vec3_proj_run_b _ _) (DT.val_done _) rfl rfl
    · exact transferL ((((R.nil _).addW r_dest.has r_dest .nil).addR h_b.has (.cons s_b_dest .nil)).addR h_a.has (.skip (.cons s_a_dest .nil))) (.p rfl (.p rfl (.p rfl .nil))) (glm_vec3_proj_run _ _) (DT.val_done _) rfl rfl
example (a : V3 α) : let mem : Mem α := [⟨true, a.list.map .f⟩]
    Holds mem (0, 0) a.list ∧ Holds mem (0, 0) a.list ∧ Room mem (0, 0) 3 ∧ (((0, 0) : Ptr) = (0, 0) ∨ Apart (0, 0) 3 (0, 0) 3) ∧ (((0, 0) : Ptr) = (0, 0) ∨ Apart (0, 0) 3 (0, 0) 3) :=
  ⟨.block rfl, .block rfl, .block rfl rfl, Or.inl rfl, Or.inl rfl⟩

theorem C55_vec3_center {mem : Mem α} {aP bP destP : Ptr} {a : V3 α} {b : V3 α} (h_a : Holds mem aP a.list) (h_b : Holds mem bP b.list) (r_dest : Room mem destP 3) (s_a_dest : aP = destP ∨ Apart aP 3 destP 3) (s_b_dest : bP = destP ∨ Apart bP 3 destP 3) :
    C.glm_vec3_center.run mem [aP.val, bP.val, destP.val] =
      some (none, writes mem [(destP, (Cglm.glm_vec3_center a b).list.map .f)]) := by
  rcases s_a_dest with s_a_dest | s_a_dest
  · subst s_a_dest
    rcases s_b_dest with s_b_dest | s_b_dest
    · subst s_b_dest
      obtain rfl := V3.list_inj (h_a.inj h_b rfl)
      exact transferL ((R.nil _).addW h_a.has r_dest .nil) (.p rfl (.p rfl (.p rfl .nil))) (glm_vec3_center_run_a_b _) (DT.val_done _) rfl rfl
    · exact transferL (((R.nil _).addW h_a.has r_dest .nil).addR h_b.has (.cons s_b_dest .nil)) (.p rfl (.p rfl (.p rfl .nil))) (glm_vec3_center_run_a _ _) (DT.val_done _) rfl rfl
  · rcases s_b_dest with s_b_dest | s_b_dest
    · subst s_b_dest
      exact transferL (((R.nil _).addW h_b.has r_dest .nil).addR h_a.has (.cons s_a_dest .nil)) (.p rfl (.p rfl (.p rfl .nil))) (glm_vec3_center_run_b _ _) (DT.val_done _) rfl rfl
    · exact transferL ((((R.nil _).addW r_dest.has r_dest .nil).addR h_b.has (.cons s_b_dest .nil)).addR h_a.has (.skip (.cons s_a_dest .nil))) (.p rfl (.p rfl (.p rfl .nil))) (glm_vec3_center_run _ _) (DT.val_done _) rfl rfl
example (a : V3 α) : let mem : Mem α := [⟨true, a.list.map .f⟩]
    Holds mem (0, 0) a.list ∧ Holds mem (0, 0) a.list ∧ Room mem (0, 0) 3 ∧ (((0, 0) : Ptr) = (0, 0) ∨ Apart (0, 0) 3 (0, 0) 3) ∧ (((0, 0) : Ptr) = (0, 0) ∨ Apart (0, 0) 3 (0, 0) 3) :=
  ⟨.block rfl, .block rfl, .block rfl rfl, Or.inl rfl, Or.inl rfl⟩

theorem C55_vec3_maxv {mem : Mem α} {aP bP destP : Ptr} {a : V3 α} {b : V3 α} (h_a : Holds mem aP a.list) (h_b : Holds mem bP b.list) (r_dest : Room mem destP 3) (s_a_dest : aP = destP ∨ Apart aP 3 destP 3) (s_b_dest : bP = destP ∨ Apart bP 3 destP 3) :
    C.glm_vec3_maxv.run mem [aP.val, bP.val, destP.val] =
      some (none, writes mem [(destP, (Cglm.glm_vec3_maxv a b).list.map .f)]) := by
  rcases s_a_dest with s_a_dest | s_a_dest
  · subst s_a_dest
    rcases s_b_dest with s_b_dest | s_b_dest
    · subst s_b_dest
      obtain rfl := V3.list_inj (h_a.inj h_b rfl)
      exact transferL ((R.nil _).addW h_a.has r_dest .nil) (.p rfl (.p rfl (.p rfl .nil))) (glm_vec3_maxv_run_a_b _) (DT.val_done _) rfl rfl
    · exact transferL (((R.nil _).addW h_a.has r_dest .nil).addR h_b.has (.cons s_b_dest .nil)) (.p rfl (.p rfl (.p rfl .nil))) (glm_vec3_maxv_run_a _ _) (DT.val_done _) rfl rfl
  · rcases s_b_dest with s_b_dest | s_b_dest
    · subst s_b_dest
      exact transferL (((R.nil _).addW h_b.has r_dest .nil).addR h_a.has (.cons s_a_dest .nil)) (.p rfl (.p rfl (.p rfl .nil))) (glm_vec3_maxv_run_b _ _) (DT.val_done _) rfl rfl
    · exact transferL ((((R.nil _).addW r_dest.has r_dest .nil).addR h_b.has (.cons s_b_dest .nil)).addR h_a.has (.skip (.cons s_a_dest .nil))) (.p rfl (.p rfl (.p rfl .nil))) (glm_vec3_maxv_run _ _) (DT.val_done _) rfl rfl
example (a : V3 α) : let mem : Mem α := [⟨true, a.list.map .f⟩]
    Holds mem (0, 0) a.list ∧ Holds mem (0, 0) a.list ∧ Room mem (0, 0) 3 ∧ (((0, 0) : Ptr) = (0, 0) ∨ Apart (0, 0) 3 (0, 0) 3) ∧ (((0, 0) : Ptr) = (0, 0) ∨ Apart (0, 0) 3 (0, 0) 3) :=
  ⟨.block rfl, .block rfl, .block rfl rfl, Or.inl rfl, Or.inl rfl⟩

theorem C55_vec3_minv {mem : Mem α} {aP bP destP : Ptr} {a : V3 α} {b : V3 α} (h_a : Holds mem aP a.list) (h_b : Holds mem bP b.list) (r_dest : Room mem destP 3) (s_a_dest : aP = destP ∨ Apart aP 3 destP 3) (s_b_dest : bP = destP ∨ Apart bP 3 destP 3) :
    C.glm_vec3_minv.run mem [aP.val, bP.val, destP.val] =
      some (none, writes mem [(destP, (Cglm.glm_vec3_minv a b).list.map .f)]) := by
  rcases s_a_dest with s_a_dest | s_a_dest
  · subst s_a_dest
    rcases s_b_dest with s_b_dest | s_b_dest
    · subst s_b_dest
      obtain rfl := V3.list_inj (h_a.inj h_b rfl)
      exact transferL ((R.nil _).addW h_a.has r_dest .nil) (.p rfl (.p rfl (.p rfl .nil))) (glm_vec3_minv_run_a_b _) (DT.val_done _) rfl rfl
    · exact transferL (((R.nil _).addW h_a.has r_dest .nil).addR h_b.has (.cons s_b_dest .nil)) (.p rfl (.p rfl (.p rfl .nil))) (glm_vec3_minv_run_a _ _) (DT.val_done _) rfl rfl
  · rcases s_b_dest with s_b_dest | s_b_dest
    · subst s_b_dest
      exact transferL (((R.nil _).addW h_b.has r_dest .nil).addR h_a.has (.cons s_a_dest .nil)) (.p rfl (.p rfl (.p rfl .nil))) (glm_vec3_minv_run_b _ _) (DT.val_done _) rfl rfl
    · exact transferL ((((R.nil _).addW r_dest.has r_dest .nil).addR h_b.has (.cons s_b_dest .nil)).addR h_a.has (.skip (.cons s_a_dest .nil))) (.p rfl (.p rfl (.p rfl .nil))) (glm_vec3_minv_run _ _) (DT.val_done _) rfl rfl
example (a : V3 α) : let mem : Mem α := [⟨true, a.list.map .f⟩]
    Holds mem (0, 0) a.list ∧ Holds mem (0, 0) a.list ∧ Room mem (0, 0) 3 ∧ (((0, 0) : Ptr) = (0, 0) ∨ Apart (0, 0) 3 (0, 0) 3) ∧ (((0, 0) : Ptr) = (0, 0) ∨ Apart (0, 0) 3 (0, 0) 3) :=
  ⟨.block rfl, .block rfl, .block rfl rfl, Or.inl rfl, Or.inl rfl⟩

theorem C55_vec3_ortho {mem : Mem α} {vP destP : Ptr} {v : V3 α} (h_v : Holds mem vP v.list) (r_dest : Room mem destP 3) (s_v_dest : vP = destP ∨ Apart vP 3 destP 3) :
    C.glm_vec3_ortho.run mem [vP.val, destP.val] =
      some (none, writes mem [(destP, (Cglm.glm_vec3_ortho v).list.map .f)]) := by
  rcases s_v_dest with s_v_dest | s_v_dest
  · subst s_v_dest
    exact transferL ((R.nil _).addW h_v.has r_dest .nil) (.p rfl (.p rfl .nil)) (glm_vec3_ortho_run_v _) (DT.val_done _) rfl rfl
  · exact transferL (((R.nil _).addW r_dest.has r_dest .nil).addR h_v.has (.cons s_v_dest .nil)) (.p rfl (.p rfl .nil)) (glm_vec3_ortho_run _) (DT.val_done _) rfl rfl
example (v : V3 α) : let mem : Mem α := [⟨true, v.list.map .f⟩]
    Holds mem (0, 0) v.list ∧ Room mem (0, 0) 3 ∧ (((0, 0) : Ptr) = (0, 0) ∨ Apart (0, 0) 3 (0, 0) 3) :=
  ⟨.block rfl, .block rfl rfl, Or.inl rfl⟩

theorem C55_vec3_lerp {mem : Mem α} {frmP toP destP : Ptr} {frm : V3 α} {«to» : V3 α} (t : α) (h_frm : Holds mem frmP frm.list) (h_to : Holds mem toP «to».list) (r_dest : Room mem destP 3) (s_frm_dest : frmP = destP ∨ Apart frmP 3 destP 3) (s_to_dest : toP = destP ∨ Apart toP 3 destP 3) :
    C.glm_vec3_lerp.run mem [frmP.val, toP.val, .f t, destP.val] =
      some (none, writes mem [(destP, (Cglm.glm_vec3_lerp frm «to» t).list.map .f)]) := by
  rcases s_frm_dest with s_frm_dest | s_frm_dest
  · subst s_frm_dest
    rcases s_to_dest with s_to_dest | s_to_dest
    · subst s_to_dest
      obtain rfl := V3.list_inj (h_frm.inj h_to rfl)
      exact transferL ((R.nil _).addW h_frm.has r_dest .nil) (.p rfl (.p rfl (.f (.p rfl .nil)))) (glm_vec3_lerp_run_from_to _ _) (DT.val_done _) rfl rfl
    · exact transferL (((R.nil _).addW h_frm.has r_dest .nil).addR h_to.has (.cons s_to_dest .nil)) (.p rfl (.p rfl (.f (.p rfl .nil)))) (glm_vec3_lerp_run_from _ _ _) (DT.val_done _) rfl rfl
  · rcases s_to_dest with s_to_dest | s_to_dest
    · subst s_to_dest
      exact transferL (((R.nil _).addW h_to.has r_dest .nil).addR h_frm.has (.cons s_frm_dest .nil)) (.p rfl (.p rfl (.f (.p rfl .nil)))) (glm_vec3_lerp_run_to _ _ _) (DT.val_done _) rfl rfl
    · exact transferL ((((R.nil _).addW r_dest.has r_dest .nil).addR h_to.has (.cons s_to_dest .nil)).addR h_frm.has (.skip (.cons s_frm_dest .nil))) (.p rfl (.p rfl (.f (.p rfl .nil)))) (glm_vec3_lerp_run _ _ _) (DT.val_done _) rfl rfl
example (frm : V3 α) : let mem : Mem α := [⟨true, frm.list.map .f⟩]
    Holds mem (0, 0) frm.list ∧ Holds mem (0, 0) frm.list ∧ Room mem (0, 0) 3 ∧ (((0, 0) : Ptr) = (0, 0) ∨ Apart (0, 0) 3 (0, 0) 3) ∧ (((0, 0) : Ptr) = (0, 0) ∨ Apart (0, 0) 3 (0, 0) 3) :=
  ⟨.block rfl, .block rfl, .block rfl rfl, Or.inl rfl, Or.inl rfl⟩

theorem C55_vec3_lerpc {mem : Mem α} {frmP toP destP : Ptr} {frm : V3 α} {«to» : V3 α} (t : α) (h_frm : Holds mem frmP frm.list) (h_to : Holds mem toP «to».list) (r_dest : Room mem destP 3) (s_frm_dest : frmP = destP ∨ Apart frmP 3 destP 3) (s_to_dest : toP = destP ∨ Apart toP 3 destP 3) :
    C.glm_vec3_lerpc.run mem [frmP.val, toP.val, .f t, destP.val] =
      some (none, writes mem [(destP, (Cglm.glm_vec3_lerpc frm «to» t).list.map .f)]) := by
  rcases s_frm_dest with s_frm_dest | s_frm_dest
  · subst s_frm_dest
    rcases s_to_dest with s_to_dest | s_to_dest
    · subst s_to_dest
      obtain rfl := V3.list_inj (h_frm.inj h_to rfl)
      exact transferL ((R.nil _).addW h_frm.has r_dest .nil) (.p rfl (.p rfl (.f (.p rfl .nil)))) (glm_vec3_lerpc_run_from_to _ _) (DT.val_done _) rfl rfl
    · exact transferL (((R.nil _).addW h_frm.has r_dest .nil).addR h_to.has (.cons s_to_dest .nil)) (.p rfl (.p rfl (.f (.p rfl .nil)))) (glm_vec3_lerpc_run_from _ _ _) (DT.val_done _) rfl rfl
  · rcases s_to_dest with s_to_dest | s_to_dest
    · subst s_to_dest
      exact transferL (((R.nil _).addW h_to.has r_dest .nil).addR h_frm.has (.cons s_frm_dest .nil)) (.p rfl (.p rfl (.f (.p rfl .nil)))) (glm_vec3_lerpc_run_to _ _ _) (DT.val_done _) rfl rfl
    · exact transferL ((((R.nil _).addW r_dest.has r_dest .nil).addR h_to.has (.cons s_to_dest .nil)).addR h_frm.has (.skip (.cons s_frm_dest .nil))) (.p rfl (.p rfl (.f (.p rfl .nil)))) (glm_vec3_lerpc_run _ _ _) (DT.val_done _) rfl rfl
example (frm : V3 α) : let mem : Mem α := [⟨true, frm.list.map .f⟩]
    Holds mem (0, 0) frm.list ∧ Holds mem (0, 0) frm.list ∧ Room mem (0, 0) 3 ∧ (((0, 0) : Ptr) = (0, 0) ∨ Apart (0, 0) 3 (0, 0) 3) ∧ (((0, 0) : Ptr) = (0, 0) ∨ Apart (0, 0) 3 (0, 0) 3) :=
  ⟨.block rfl, .block rfl, .block rfl rfl, Or.inl rfl, Or.inl rfl⟩

theorem C55_vec3_mix {mem : Mem α} {frmP toP destP : Ptr} {frm : V3 α} {«to» : V3 α} (t : α) (h_frm : Holds mem frmP frm.list) (h_to : Holds mem toP «to».list) (r_dest : Room mem destP 3) (s_frm_dest : frmP = destP ∨ Apart frmP 3 destP 3) (s_to_dest : toP = destP ∨ Apart toP 3 destP 3) :
    C.glm_vec3_mix.run mem [frmP.val, toP.val, .f t, destP.val] =
      some (none, writes mem [(destP, (Cglm.glm_vec3_mix frm «to» t).list.map .f)]) := by
  rcases s_frm_dest with s_frm_dest | s_frm_dest
  · subst s_frm_dest
    rcases s_to_dest with s_to_dest | s_to_dest
    · subst s_to_dest
      obtain rfl := V3.list_inj (h_frm.inj h_to rfl)
      exact transferL ((R.nil _).addW h_frm.has r_dest .nil) (.p rfl (.p rfl (.f (.p rfl .nil)))) (glm_vec3_mix_run_from_to _ _) (DT.val_done _) rfl rfl
    · exact transferL (((R.nil _).addW h_frm.has r_dest .nil).addR h_to.has (.cons s_to_dest .nil)) (.p rfl (.p rfl (.f (.p rfl .nil)))) (glm_vec3_mix_run_from _ _ _) (DT.val_done _) rfl rfl
  · rcases s_to_dest with s_to_dest | s_to_dest
    · subst s_to_dest
      exact transferL (((R.nil _).addW h_to.has r_dest .nil).addR h_frm.has (.cons s_frm_dest .nil)) (.p rfl (.p rfl (.f (.p rfl .nil)))) (glm_vec3_mix_run_to _ _ _) (DT.val_done _) rfl rfl
    · exact transferL ((((R.nil _).addW r_dest.has r_dest .nil).addR h_to.has (.cons s_to_dest .nil)).addR h_frm.has (.skip (.cons s_frm_dest .nil))) (.p rfl (.p rfl (.f (.p rfl .nil)))) (glm_vec3_mix_run _ _ _) (DT.val_done _) rfl rfl
example (frm : V3 α) : let mem : Mem α := [⟨true, frm.list.map .f⟩]
    Holds mem (0, 0) frm.list ∧ Holds mem (0, 0) frm.list ∧ Room mem (0, 0) 3 ∧ (((0, 0) : Ptr) = (0, 0) ∨ Apart (0, 0) 3 (0, 0) 3) ∧ (((0, 0) : Ptr) = (0, 0) ∨ Apart (0, 0) 3 (0, 0) 3) :=
  ⟨.block rfl, .block rfl, .block rfl rfl, Or.inl rfl, Or.inl rfl⟩

theorem C55_vec3_mixc {mem : Mem α} {frmP toP destP : Ptr} {frm : V3 α} {«to» : V3 α} (t : α) (h_frm : Holds mem frmP frm.list) (h_to : Holds mem toP «to».list) (r_dest : Room mem destP 3) (s_frm_dest : frmP = destP ∨ Apart frmP 3 destP 3) (s_to_dest : toP = destP ∨ Apart toP 3 destP 3) :
    C.glm_vec3_mixc.run mem [frmP.val, toP.val, .f t, destP.val] =
      some (none, writes mem [(destP, (Cglm.glm_vec3_mixc frm «to» t).list.map .f)]) := by
  rcases s_frm_dest with s_frm_dest | s_frm_dest
  · subst s_frm_dest
    rcases s_to_dest with s_to_dest | s_to_dest
    · subst s_to_dest
      obtain rfl := V3.list_inj (h_frm.inj h_to rfl)
      exact transferL ((R.nil _).addW h_frm.has r_dest .nil) (.p rfl (.p rfl (.f (.p rfl .nil)))) (glm_vec3_mixc_run_from_to _ _) (DT.val_done _) rfl rfl
    · exact transferL (((R.nil _).addW h_frm.has r_dest .nil).addR h_to.has (.cons s_to_dest .nil)) (.p rfl (.p rfl (.f (.p rfl .nil)))) (glm_vec3_mixc_run_from _ _ _) (DT.val_done _) rfl rfl
  · rcases s_to_dest with s_to_dest | s_to_dest
    · subst s_to_dest
      exact transferL (((R.nil _).addW h_to.has r_dest .nil).addR h_frm.has (.cons s_frm_dest .nil)) (.p rfl (.p rfl (.f (.p rfl .nil)))) (glm_vec3_mixc_run_to _ _ _) (DT.val_done _) rfl rfl
    · exact transferL ((((R.nil _).addW r_dest.has r_dest .nil).addR h_to.has (.cons s_to_dest .nil)).addR h_frm.has (.skip (.cons s_frm_dest .nil))) (.p rfl (.p rfl (.f (.p rfl .nil)))) (glm_vec3_mixc_run _ _ _) (DT.val_done _) rfl rfl
example (frm : V3 α) : let mem : Mem α := [⟨true, frm.list.map .f⟩]
    Holds mem (0, 0) frm.list ∧ Holds mem (0, 0) frm.list ∧ Room mem (0, 0) 3 ∧ (((0, 0) : Ptr) = (0, 0) ∨ Apart (0, 0) 3 (0, 0) 3) ∧ (((0, 0) : Ptr) = (0, 0) ∨ Apart (0, 0) 3 (0, 0) 3) :=
  ⟨.block rfl, .block rfl, .block rfl rfl, Or.inl rfl, Or.inl rfl⟩

theorem C55_vec3_step {mem : Mem α} {edgeP xP destP : Ptr} {edge : V3 α} {x : V3 α} (h_edge : Holds mem edgeP edge.list) (h_x : Holds mem xP x.list) (r_dest : Room mem destP 3) (s_edge_dest : edgeP = destP ∨ Apart edgeP 3 destP 3) (s_x_dest : xP = destP ∨ Apart xP 3 destP 3) :
    C.glm_vec3_step.run mem [edgeP.val, xP.val, destP.val] =
      some (none, writes mem [(destP, (Cglm.glm_vec3_step edge x).list.map .f)]) := by
  rcases s_edge_dest with s_edge_dest | s_edge_dest
  · subst s_edge_dest
    rcases s_x_dest with s_x_dest | s_x_dest
    · subst s_x_dest
      obtain rfl := V3.list_inj (h_edge.inj h_x rfl)
      exact transferL ((R.nil _).addW h_edge.has r_dest .nil) (.p rfl (.p rfl (.p rfl .nil))) (glm_vec3_step_run_edge_x _) (DT.val_done _) rfl rfl
    · exact transferL (((R.nil _).addW h_edge.has r_dest .nil).addR h_x.has (.cons s_x_dest .nil)) (.p rfl (.p rfl (.p rfl .nil))) (glm_vec3_step_run_edge _ _) (DT.val_done _) rfl rfl
  · rcases s_x_dest with s_x_dest | s_x_dest
    · subst s_x_dest
      exact transferL (((R.nil _).addW h_x.has r_dest .nil).addR h_edge.has (.cons s_edge_dest .nil)) (.p rfl (.p rfl (.p rfl .nil))) (glm_vec3_step_run_x _ _) (DT.val_done _) rfl rfl
    · exact transferL ((((R.nil _).addW r_dest.has r_dest .nil).addR h_x.has (.cons s_x_dest .nil)).addR h_edge.has (.skip (.cons s_edge_dest .nil))) (.p rfl (.p rfl (.p rfl .nil))) (glm_vec3_step_run _ _) (DT.val_done _) rfl rfl
example (edge : V3 α) : let mem : Mem α := [⟨true, edge.list.map .f⟩]
    Holds mem (0, 0) edge.list ∧ Holds mem (0, 0) edge.list ∧ Room mem (0, 0) 3 ∧ (((0, 0) : Ptr) = (0, 0) ∨ Apart (0, 0) 3 (0, 0) 3) ∧ (((0, 0) : Ptr) = (0, 0) ∨ Apart (0, 0) 3 (0, 0) 3) :=
  ⟨.block rfl, .block rfl, .block rfl rfl, Or.inl rfl, Or.inl rfl⟩

theorem C55_vec3_smoothstep_uni {mem : Mem α} {xP destP : Ptr} (edge0 : α) (edge1 : α) {x : V3 α} (h_x : Holds mem xP x.list) (r_dest : Room mem destP 3) (s_x_dest : xP = destP ∨ Apart xP 3 destP 3) :
    C.glm_vec3_smoothstep_uni.run mem [.f edge0, .f edge1, xP.val, destP.val] =
      some (none, writes mem [(destP, (Cglm.glm_vec3_smoothstep_uni edge0 edge1 x).list.map .f)]) := by
  rcases s_x_dest with s_x_dest | s_x_dest
  · subst s_x_dest
    exact transferL ((R.nil _).addW h_x.has r_dest .nil) (.f (.f (.p rfl (.p rfl .nil)))) (glm_vec3_smoothstep_uni_run_x _ _ _) (DT.val_done _) rfl rfl
  · exact transferL (((R.nil _).addW r_dest.has r_dest .nil).addR h_x.has (.cons s_x_dest .nil)) (.f (.f (.p rfl (.p rfl .nil)))) (glm_vec3_smoothstep_uni_run _ _ _) (DT.val_done _) rfl rfl
example (x : V3 α) : let mem : Mem α := [⟨true, x.list.map .f⟩]
    Holds mem (0, 0) x.list ∧ Room mem (0, 0) 3 ∧ (((0, 0) : Ptr) = (0, 0) ∨ Apart (0, 0) 3 (0, 0) 3) :=
  ⟨.block rfl, .block rfl rfl, Or.inl rfl⟩

theorem C55_vec3_smoothstep {mem : Mem α} {edge0P edge1P xP destP : Ptr} {edge0 : V3 α} {edge1 : V3 α} {x : V3 α} (h_edge0 : Holds mem edge0P edge0.list) (h_edge1 : Holds mem edge1P edge1.list) (h_x : Holds mem xP x.list) (r_dest : Room mem destP 3) (s_edge0_dest : edge0P = destP ∨ Apart edge0P 3 destP 3) (s_edge1_dest : edge1P = destP ∨ Apart edge1P 3 destP 3) (s_x_dest : xP = destP ∨ Apart xP 3 destP 3) :
    C.glm_vec3_smoothstep.run mem [edge0P.val, edge1P.val, xP.val, destP.val] =
      some (none, writes mem [(destP, (Cglm.glm_vec3_smoothstep edge0 edge1 x).list.map .f)]) := by
  rcases s_edge0_dest with s_edge0_dest | s_edge0_dest
  · subst s_edge0_dest
    rcases s_edge1_dest with s_edge1_dest | s_edge1_dest
    · subst s_edge1_dest
      rcases s_x_dest with s_x_dest | s_x_dest
      · subst s_x_dest
        obtain rfl := V3.list_inj (h_edge0.inj h_edge1 rfl)
        obtain rfl := V3.list_inj (h_edge0.inj h_x rfl)
        exact transferL ((R.nil _).addW h_edge0.has r_dest .nil) (.p rfl (.p rfl (.p rfl (.p rfl .nil)))) (glm_vec3_smoothstep_run_edge0_edge1_x _) (DT.val_done _) rfl rfl
      · obtain rfl := V3.list_inj (h_edge0.inj h_edge1 rfl)
        exact transferL (((R.nil _).addW h_edge0.has r_dest .nil).addR h_x.has (.cons s_x_dest .nil)) (.p rfl (.p rfl (.p rfl (.p rfl .nil)))) (glm_vec3_smoothstep_run_edge0_edge1 _ _) (DT.val_done _) rfl rfl
    · rcases s_x_dest with s_x_dest | s_x_dest
      · subst s_x_dest
        obtain rfl := V3.list_inj (h_edge0.inj h_x rfl)
        exact transferL (((R.nil _).addW h_edge0.has r_dest .nil).addR h_edge1.has (.cons s_edge1_dest .nil)) (.p rfl (.p rfl (.p rfl (.p rfl .nil)))) (glm_vec3_smoothstep_run_edge0_x _ _) (DT.val_done _) rfl rfl
      · exact transferL ((((R.nil _).addW h_edge0.has r_dest .nil).addR h_x.has (.cons s_x_dest .nil)).addR h_edge1.has (.skip (.cons s_edge1_dest .nil))) (.p rfl (.p rfl (.p rfl (.p rfl .nil)))) (glm_vec3_smoothstep_run_edge0 _ _ _) (DT.val_done _) rfl rfl
  · rcases s_edge1_dest with s_edge1_dest | s_edge1_dest
    · subst s_edge1_dest
      rcases s_x_dest with s_x_dest | s_x_dest
      · subst s_x_dest
        obtain rfl := V3.list_inj (h_edge1.inj h_x rfl)
        exact transferL (((R.nil _).addW h_edge1.has r_dest .nil).addR h_edge0.has (.cons s_edge0_dest .nil)) (.p rfl (.p rfl (.p rfl (.p rfl .nil)))) (glm_vec3_smoothstep_run_edge1_x _ _) (DT.val_done _) rfl rfl
      · exact transferL ((((R.nil _).addW h_edge1.has r_dest .nil).addR h_x.has (.cons s_x_dest .nil)).addR h_edge0.has (.skip (.cons s_edge0_dest .nil))) (.p rfl (.p rfl (.p rfl (.p rfl .nil)))) (glm_vec3_smoothstep_run_edge1 _ _ _) (DT.val_done _) rfl rfl
    · rcases s_x_dest with s_x_dest | s_x_dest
      · subst s_x_dest
        exact transferL ((((R.nil _).addW h_x.has r_dest .nil).addR h_edge1.has (.cons s_edge1_dest .nil)).addR h_edge0.has (.skip (.cons s_edge0_dest .nil))) (.p rfl (.p rfl (.p rfl (.p rfl .nil)))) (glm_vec3_smoothstep_run_x _ _ _) (DT.val_done _) rfl rfl
      · exact transferL (((((R.nil _).addW r_dest.has r_dest .nil).addR h_x.has (.cons s_x_dest .nil)).addR h_edge1.has (.skip (.cons s_edge1_dest .nil))).addR h_edge0.has (.skip (.skip (.cons s_edge0_dest .nil)))) (.p rfl (.p rfl (.p rfl (.p rfl .nil)))) (glm_vec3_smoothstep_run _ _ _) (DT.val_done _) rfl rfl
example (edge0 : V3 α) : let mem : Mem α := [⟨true, edge0.list.map .f⟩]
    Holds mem (0, 0) edge0.list ∧ Holds mem (0, 0) edge0.list ∧ Holds mem (0, 0) edge0.list ∧ Room mem (0, 0) 3 ∧ (((0, 0) : Ptr) = (0, 0) ∨ Apart (0, 0) 3 (0, 0) 3) ∧ (((0, 0) : Ptr) = (0, 0) ∨ Apart (0, 0) 3 (0, 0) 3) ∧ (((0, 0) : Ptr) = (0, 0) ∨ Apart (0, 0) 3 (0, 0) 3) :=
  ⟨.block rfl, .block rfl, .block rfl, .block rfl rfl, Or.inl rfl, Or.inl rfl, Or.inl rfl⟩

theorem C55_vec3_smoothinterp {mem : Mem α} {frmP toP destP : Ptr} {frm : V3 α} {«to» : V3 α} (t : α) (h_frm : Holds mem frmP frm.list) (h_to : Holds mem toP «to».list) (r_dest : Room mem destP 3) (s_frm_dest : frmP = destP ∨ Apart frmP 3 destP 3) (s_to_dest : toP = destP ∨ Apart toP 3 destP 3) :
    C.glm_vec3_smoothinterp.run mem [frmP.val, toP.val, .f t, destP.val] =
      some (none, writes mem [(destP, (Cglm.glm_vec3_smoothinterp frm «to» t).list.map .f)]) := by
  rcases s_frm_dest with s_frm_dest | s_frm_dest
  · subst s_frm_dest
    rcases s_to_dest with s_to_dest | s_to_dest
    · subst s_to_dest
      obtain rfl := V3.list_inj (h_frm.inj h_to rfl)
      exact transferL ((R.nil _).addW h_frm.has r_dest .nil) (.p rfl (.p rfl (.f (.p rfl .nil)))) (glm_vec3_smoothinterp_run_from_to _ _) (DT.val_done _) rfl rfl
    · exact transferL (((R.nil _).addW h_frm.has r_dest .nil).addR h_to.has (.cons s_to_dest .nil)) (.p rfl (.p rfl (.f (.p rfl .nil)))) (glm_vec3_smoothinterp_run_from _ _ _) (DT.val_done _) rfl rfl
  · rcases s_to_dest with s_to_dest | s_to_dest
    · subst s_to_dest
      exact transferL (((R.nil _).addW h_to.has r_dest .nil).addR h_frm.has (.cons s_frm_dest .nil)) (.p rfl (.p rfl (.f (.p rfl .nil)))) (glm_vec3_smoothinterp_run_to _ _ _) (DT.val_done _) rfl rfl
    · exact transferL ((((R.nil _).addW r_dest.has r_dest .nil).addR h_to.has (.cons s_to_dest .nil)).addR h_frm.has (.skip (.cons s_frm_dest .nil))) (.p rfl (.p rfl (.f (.p rfl .nil)))) (glm_vec3_smoothinterp_run _ _ _) (DT.val_done _) rfl rfl
example (frm : V3 α) : let mem : Mem α := [⟨true, frm.list.map .f⟩]
    Holds mem (0, 0) frm.list ∧ Holds mem (0, 0) frm.list ∧ Room mem (0, 0) 3 ∧ (((0, 0) : Ptr) = (0, 0) ∨ Apart (0, 0) 3 (0, 0) 3) ∧ (((0, 0) : Ptr) = (0, 0) ∨ Apart (0, 0) 3 (0, 0) 3) :=
  ⟨.block rfl, .block rfl, .block rfl rfl, Or.inl rfl, Or.inl rfl⟩

theorem C55_vec3_smoothinterpc {mem : Mem α} {frmP toP destP : Ptr} {frm : V3 α} {«to» : V3 α} (t : α) (h_frm : Holds mem frmP frm.list) (h_to : Holds mem toP «to».list) (r_dest : Room mem destP 3) (s_frm_dest : frmP = destP ∨ Apart frmP 3 destP 3) (s_to_dest : toP = destP ∨ Apart toP 3 destP 3) :
    C.glm_vec3_smoothinterpc.run mem [frmP.val, toP.val, .f t, destP.val] =
      some (none, writes mem [(destP, (Cglm.glm_vec3_smoothinterpc frm «to» t).list.map .f)]) := by
  rcases s_frm_dest with s_frm_dest | s_frm_dest
  · subst s_frm_dest
    rcases s_to_dest with s_to_dest | s_to_dest
    · subst s_to_dest
      obtain rfl := V3.list_inj (h_frm.inj h_to rfl)
      exact transferL ((R.nil _).addW h_frm.has r_dest .nil) (.p rfl (.p rfl (.f (.p rfl .nil)))) (glm_vec3_smoothinterpc_run_from_to _ _) (DT.val_done _) rfl rfl
    · exact transferL (((R.nil _).addW h_frm.has r_dest .nil).addR h_to.has (.cons s_to_dest .nil)) (.p rfl (.p rfl (.f (.p rfl .nil)))) (glm_vec3_smoothinterpc_run_from _ _ _) (DT.val_done _) rfl rfl
  · rcases s_to_dest with s_to_dest | s_to_dest
    · subst s_to_dest
      exact transferL (((R.nil _).addW h_to.has r_dest .nil).addR h_frm.has (.cons s_frm_dest .nil)) (.p rfl (.p rfl (.f (.p rfl .nil)))) (glm_vec3_smoothinterpc_run_to _ _ _) (DT.val_done _) rfl rfl
    · exact transferL ((((R.nil _).addW r_dest.has r_dest .nil).addR h_to.has (.cons s_to_dest .nil)).addR h_frm.has (.skip (.cons s_frm_dest .nil))) (.p rfl (.p rfl (.f (.p rfl .nil)))) (glm_vec3_smoothinterpc_run _ _ _) (DT.val_done _) rfl rfl
example (frm : V3 α) : let mem : Mem α := [⟨true, frm.list.map .f⟩]
    Holds mem (0, 0) frm.list ∧ Holds mem (0, 0) frm.list ∧ Room mem (0, 0) 3 ∧ (((0, 0) : Ptr) = (0, 0) ∨ Apart (0, 0) 3 (0, 0) 3) ∧ (((0, 0) : Ptr) = (0, 0) ∨ Apart (0, 0) 3 (0, 0) 3) :=
  ⟨.block rfl, .block rfl, .block rfl rfl, Or.inl rfl, Or.inl rfl⟩

theorem C55_cross {mem : Mem α} {aP bP dP : Ptr} {a : V3 α} {b : V3 α} (h_a : Holds mem aP a.list) (h_b : Holds mem bP b.list) (r_d : Room mem dP 3) (s_a_d : aP = dP ∨ Apart aP 3 dP 3) (s_b_d : bP = dP ∨ Apart bP 3 dP 3) :
    C.glm_cross.run mem [aP.val, bP.val, dP.val] =
      some (none, writes mem [(dP, (Cglm.glm_cross a b).list.map .f)]) := by
  rcases s_a_d with s_a_d | s_a_d
  · subst s_a_d
    rcases s_b_d with s_b_d | s_b_d
    · subst s_b_d
      obtain rfl := V3.list_inj (h_a.inj h_b rfl)
      exact transferL ((R.nil _).addW h_a.has r_d .nil) (.p rfl (.p rfl (.p rfl .nil))) (glm_cross_run_a_b _) (DT.val_done _) rfl rfl
    · exact transferL (((R.nil _).addW h_a.has r_d .nil).addR h_b.has (.cons s_b_d .nil)) (.p rfl (.p rfl (.p rfl .nil))) (glm_cross_run_a _ _) (DT.val_done _) rfl rfl
  · rcases s_b_d with s_b_d | s_b_d
    · subst s_b_d
      exact transferL (((R.nil _).addW h_b.has r_d .nil).addR h_a.has (.cons s_a_d .nil)) (.p rfl (.p rfl (.p rfl .nil))) (glm_cross_run_b _ _) (DT.val_done _) rfl rfl
    · exact transferL ((((R.nil _).addW r_d.has r_d .nil).addR h_b.has (.cons s_b_d .nil)).addR h_a.has (.skip (.cons s_a_d .nil))) (.p rfl (.p rfl (.p rfl .nil))) (glm_cross_run _ _) (DT.val_done _) rfl rfl
example (a : V3 α) : let mem : Mem α := [⟨true, a.list.map .f⟩]
    Holds mem (0, 0) a.list ∧ Holds mem (0, 0) a.list ∧ Room mem (0, 0) 3 ∧ (((0, 0) : Ptr) = (0, 0) ∨ Apart (0, 0) 3 (0, 0) 3) ∧ (((0, 0) : Ptr) = (0, 0) ∨ Apart (0, 0) 3 (0, 0) 3) :=
  ⟨.block rfl, .block rfl, .block rfl rfl, Or.inl rfl, Or.inl rfl⟩

theorem C55_normalize_to {mem : Mem α} {vP destP : Ptr} {v : V3 α} (h_v : Holds mem vP v.list) (r_dest : Room mem destP 3) (s_v_dest : vP = destP ∨ Apart vP 3 destP 3) :
    C.glm_normalize_to.run mem [vP.val, destP.val] =
      some (none, writes mem [(destP, (Cglm.glm_normalize_to v).list.map .f)]) := by
  rcases s_v_dest with s_v_dest | s_v_dest
  · subst s_v_dest
    exact transferL ((R.nil _).addW h_v.has r_dest .nil) (.p rfl (.p rfl .nil)) (glm_normalize_to_run_v _) (DT.val_map_eq (glm_normalize_to_dt_val _) rfl) rfl rfl
  · exact transferL (((R.nil _).addW r_dest.has r_dest .nil).addR h_v.has (.cons s_v_dest .nil)) (.p rfl (.p rfl .nil)) (glm_normalize_to_run _) (DT.val_map_eq (glm_normalize_to_dt_val _) rfl) rfl rfl
example (v : V3 α) : let mem : Mem α := [⟨true, v.list.map .f⟩]
    Holds mem (0, 0) v.list ∧ Room mem (0, 0) 3 ∧ (((0, 0) : Ptr) = (0, 0) ∨ Apart (0, 0) 3 (0, 0) 3) :=
  ⟨.block rfl, .block rfl rfl, Or.inl rfl⟩

theorem C55_vec3_make {mem : Mem α} {srcP destP : Ptr} {src : V3 α} (h_src : Holds mem srcP src.list) (r_dest : Room mem destP 3) (s_src_dest : srcP = destP ∨ Apart srcP 3 destP 3) :
    C.glm_vec3_make.run mem [srcP.val, destP.val] =
      some (none, writes mem [(destP, (Cglm.glm_vec3_make src).list.map .f)]) := by
  rcases s_src_dest with s_src_dest | s_src_dest
  · subst s_src_dest
    exact transferL ((R.nil _).addW h_src.has r_dest .nil) (.p rfl (.p rfl .nil)) (glm_vec3_make_run_src _) (DT.val_done _) rfl rfl
  · exact transferL (((R.nil _).addW r_dest.has r_dest .nil).addR h_src.has (.cons s_src_dest .nil)) (.p rfl (.p rfl .nil)) (glm_vec3_make_run _) (DT.val_done _) rfl rfl
example (src : V3 α) : let mem : Mem α := [⟨true, src.list.map .f⟩]
    Holds mem (0, 0) src.list ∧ Room mem (0, 0) 3 ∧ (((0, 0) : Ptr) = (0, 0) ∨ Apart (0, 0) 3 (0, 0) 3) :=
  ⟨.block rfl, .block rfl rfl, Or.inl rfl⟩

theorem C55_vec3_faceforward {mem : Mem α} {nP vP nrefP destP : Ptr} {n : V3 α} {v : V3 α} {nref : V3 α} (h_n : Holds mem nP n.list) (h_v : Holds mem vP v.list) (h_nref : Holds mem nrefP nref.list) (r_dest : Room mem destP 3) (s_n_dest : nP = destP ∨ Apart nP 3 destP 3) (s_v_dest : vP = destP ∨ Apart vP 3 destP 3) (s_nref_dest : nrefP = destP ∨ Apart nrefP 3 destP 3) :
    C.glm_vec3_faceforward.run mem [nP.val, vP.val, nrefP.val, destP.val] =
      some (none, writes mem [(destP, (Cglm.glm_vec3_faceforward n v nref).list.map .f)]) := by
  rcases s_n_dest with s_n_dest | s_n_dest
  · subst s_n_dest
    rcases s_v_dest with s_v_dest | s_v_dest
    · subst s_v_dest
      rcases s_nref_dest with s_nref_dest | s_nref_dest
      · subst s_nref_dest
        obtain rfl := V3.list_inj (h_n.inj h_v rfl)
        obtain rfl := V3.list_inj (h_n.inj h_nref rfl)
        exact transferL ((R.nil _).addW h_n.has r_dest .nil) (.p rfl (.p rfl (.p rfl (.p rfl .nil)))) (glm_vec3_faceforward_run_n_v_nref _) (DT.val_map_eq (glm_vec3_faceforward_dt_val _ _ _) rfl) rfl rfl
      · obtain rfl := V3.list_inj (h_n.inj h_v rfl)
        exact transferL (((R.nil _).addW h_n.has r_dest .nil).addR h_nref.has (.cons s_nref_dest .nil)) (.p rfl (.p rfl (.p rfl (.p rfl .nil)))) (glm_vec3_faceforward_run_n_v _ _) (DT.val_map_eq (glm_vec3_faceforward_dt_val _ _ _) rfl) rfl rfl
    · rcases s_nref_dest with s_nref_dest | s_nref_dest
      · subst s_nref_dest
        obtain rfl := V3.list_inj (h_n.inj h_nref rfl)
        exact transferL (((R.nil _).addW h_n.has r_dest .nil).addR h_v.has (.cons s_v_dest .nil)) (.p rfl (.p rfl (.p rfl (.p rfl .nil)))) (glm_vec3_faceforward_run_n_nref _ _) (DT.val_map_eq (glm_vec3_faceforward_dt_val _ _ _) rfl) rfl rfl
      · exact transferL ((((R.nil _).addW h_n.has r_dest .nil).addR h_nref.has (.cons s_nref_dest .nil)).addR h_v.has (.skip (.cons s_v_dest .nil))) (.p rfl (.p rfl (.p rfl (.p rfl .nil)))) (glm_vec3_faceforward_run_n _ _ _) (DT.val_map_eq (glm_vec3_faceforward_dt_val _ _ _) rfl) rfl rfl
  · rcases s_v_dest with s_v_dest | s_v_dest
    · subst s_v_dest
      rcases s_nref_dest with s_nref_dest | s_nref_dest
      · subst s_nref_dest
        obtain rfl := V3.list_inj (h_v.inj h_nref rfl)
        exact transferL (((R.nil _).addW h_v.has r_dest .nil).addR h_n.has (.cons s_n_dest .nil)) (.p rfl (.p rfl (.p rfl (.p rfl .nil)))) (glm_vec3_faceforward_run_v_nref _ _) (DT.val_map_eq (glm_vec3_faceforward_dt_val _ _ _) rfl) rfl rfl
      · exact transferL ((((R.nil _).addW h_v.has r_dest .nil).addR h_nref.has (.cons s_nref_dest .nil)).addR h_n.has (.skip (.cons s_n_dest .nil))) (.p rfl (.p rfl (.p rfl (.p rfl .nil)))) (glm_vec3_faceforward_run_v _ _ _) (DT.val_map_eq (glm_vec3_faceforward_dt_val _ _ _) rfl) rfl rfl
    · rcases s_nref_dest with s_nref_dest | s_nref_dest
      · subst s_nref_dest
        exact transferL ((((R.nil _).addW h_nref.has r_dest .nil).addR h_v.has (.cons s_v_dest .nil)).addR h_n.has (.skip (.cons s_n_dest .nil))) (.p rfl (.p rfl (.p rfl (.p rfl .nil)))) (glm_vec3_faceforward_run_nref _ _ _) (DT.val_map_eq (glm_vec3_faceforward_dt_val _ _ _) rfl) rfl rfl
      · exact transferL (((((R.nil _).addW r_dest.has r_dest .nil).addR h_nref.has (.cons s_nref_dest .nil)).addR h_v.has (.skip (.cons s_v_dest .nil))).addR h_n.has (.skip (.skip (.cons s_n_dest .nil)))) (.p rfl (.p rfl (.p rfl (.p rfl .nil)))) (glm_vec3_faceforward_run _ _ _) (DT.val_map_eq (glm_vec3_faceforward_dt_val _ _ _) rfl) rfl rfl
example (n : V3 α) : let mem : Mem α := [⟨true, n.list.map .f⟩]
    Holds mem (0, 0) n.list ∧ Holds mem (0, 0) n.list ∧ Holds mem (0, 0) n.list ∧ Room mem (0, 0) 3 ∧ (((0, 0) : Ptr) = (0, 0) ∨ Apart (0, 0) 3 (0, 0) 3) ∧ (((0, 0) : Ptr) = (0, 0) ∨ Apart (0, 0) 3 (0, 0) 3) ∧ (((0, 0) : Ptr) = (0, 0) ∨ Apart (0, 0) 3 (0, 0) 3) :=
  ⟨.block rfl, .block rfl, .block rfl, .block rfl rfl, Or.inl rfl, Or.inl rfl, Or.inl rfl⟩

theorem C55_vec3_reflect {mem : Mem α} {vP nP destP : Ptr} {v : V3 α} {n : V3 α} (h_v : Holds mem vP v.list) (h_n : Holds mem nP n.list) (r_dest : Room mem destP 3) (s_v_dest : vP = destP ∨ Apart vP 3 destP 3) (s_n_dest : nP = destP ∨ Apart nP 3 destP 3) :
    C.glm_vec3_reflect.run mem [vP.val, nP.val, destP.val] =
      some (none, writes mem [(destP, (Cglm.glm_vec3_reflect v n).list.map .f)]) := by
  rcases s_v_dest with s_v_dest | s_v_dest
  · subst s_v_dest
    rcases s_n_dest with s_n_dest | s_n_dest
    · subst s_n_dest
      obtain rfl := V3.list_inj (h_v.inj h_n rfl)
      exact transferL ((R.nil _).addW h_v.has r_dest .nil) (.p rfl (.p rfl (.p rfl .nil))) (glm_vec3_reflect_run_v_n _) (DT.val_done _) rfl rfl
    · exact transferL (((R.nil _).addW h_v.has r_dest .nil).addR h_n.has (.cons s_n_dest .nil)) (.p rfl (.p rfl (.p rfl .nil))) (glm_vec3_reflect_run_v _ _) (DT.val_done _) rfl rfl
  · rcases s_n_dest with s_n_dest | s_n_dest
    · subst s_n_dest
      exact transferL (((R.nil _).addW h_n.has r_dest .nil).addR h_v.has (.cons s_v_dest .nil)) (.p rfl (.p rfl (.p rfl .nil))) (glm_vec3_reflect_run_n _ _) (DT.val_done _) rfl rfl
    · exact transferL ((((R.nil _).addW r_dest.has r_dest .nil).addR h_n.has (.cons s_n_dest .nil)).addR h_v.has (.skip (.cons s_v_dest .nil))) (.p rfl (.p rfl (.p rfl .nil))) (glm_vec3_reflect_run _ _) (DT.val_done _) rfl rfl
example (v : V3 α) : let mem : Mem α := [⟨true, v.list.map .f⟩]
    Holds mem (0, 0) v.list ∧ Holds mem (0, 0) v.list ∧ Room mem (0, 0) 3 ∧ (((0, 0) : Ptr) = (0, 0) ∨ Apart (0, 0) 3 (0, 0) 3) ∧ (((0, 0) : Ptr) = (0, 0) ∨ Apart (0, 0) 3 (0, 0) 3) :=
  ⟨.block rfl, .block rfl, .block rfl rfl, Or.inl rfl, Or.inl rfl⟩

theorem C55_vec3_refract {mem : Mem α} {vP nP destP : Ptr} {v : V3 α} {n : V3 α} (eta : α) (h_v : Holds mem vP v.list) (h_n : Holds mem nP n.list) (r_dest : Room mem destP 3) (s_v_dest : vP = destP ∨ Apart vP 3 destP 3) (s_n_dest : Apart nP 3 destP 3) :
    C.glm_vec3_refract.run mem [vP.val, nP.val, .f eta, destP.val] =
      some (some (.b (Cglm.glm_vec3_refract v n eta).1), writes mem [(destP, (Cglm.glm_vec3_refract v n eta).2.list.map .f)]) := by
  rcases s_v_dest with s_v_dest | s_v_dest
  · subst s_v_dest
    exact transferL (((R.nil _).addW h_v.has r_dest .nil).addR h_n.has (.cons s_n_dest .nil)) (.p rfl (.p rfl (.f (.p rfl .nil)))) (glm_vec3_refract_run_v _ _ _) (DT.val_map_eq (glm_vec3_refract_dt_val _ _ _) rfl) rfl rfl
  · exact transferL ((((R.nil _).addW r_dest.has r_dest .nil).addR h_n.has (.cons s_n_dest .nil)).addR h_v.has (.skip (.cons s_v_dest .nil))) (.p rfl (.p rfl (.f (.p rfl .nil)))) (glm_vec3_refract_run _ _ _) (DT.val_map_eq (glm_vec3_refract_dt_val _ _ _) rfl) rfl rfl
example (v : V3 α) (n : V3 α) : let mem : Mem α := [⟨false, n.list.map .f⟩, ⟨true, v.list.map .f⟩]
    Holds mem (1, 0) v.list ∧ Holds mem (0, 0) n.list ∧ Room mem (1, 0) 3 ∧ (((1, 0) : Ptr) = (1, 0) ∨ Apart (1, 0) 3 (1, 0) 3) ∧ Apart (0, 0) 3 (1, 0) 3 :=
  ⟨.block rfl, .block rfl, .block rfl rfl, Or.inl rfl, Or.inl (by decide)⟩

end Cglm

end C55Vec3

section C55Vec3Ext

/-!
# C55: destination may alias an argument (include/cglm/vec3-ext.h)

Each input is either the destination itself or does not overlap it; the result is the value-level function of
what the inputs held before the call, and nothing outside the destination changes.
-/

set_option linter.unusedVariables false
set_option linter.unusedSectionVars false

namespace Cglm
open CMem

variable {α : Type} [Add α] [Sub α] [Mul α] [Div α] [Neg α] [CFloat α]

theorem C55_vec3_sign {mem : Mem α} {vP destP : Ptr} {v : V3 α} (h_v : Holds mem vP v.list) (r_dest : Room mem destP 3) (s_v_dest : vP = destP ∨ Apart vP 3 destP 3) :
    C.glm_vec3_sign.run mem [vP.val, destP.val] =
      some (none, writes mem [(destP, (Cglm.glm_vec3_sign v).list.map .f)]) := by
  rcases s_v_dest with s_v_dest | s_v_dest
  · subst s_v_dest
    exact transferL ((R.nil _).addW h_v.has r_dest .nil) (.p rfl (.p rfl .nil)) (glm_vec3_sign_run_v _) (DT.val_done _) rfl rfl
  · exact transferL (((R.nil _).addW r_dest.has r_dest .nil).addR h_v.has (.cons s_v_dest .nil)) (.p rfl (.p rfl .nil)) (glm_vec3_sign_run _) (DT.val_done _) rfl rfl
example (v : V3 α) : let mem : Mem α := [⟨true, v.list.map .f⟩]
    Holds mem (0, 0) v.list ∧ Room mem (0, 0) 3 ∧ (((0, 0) : Ptr) = (0, 0) ∨ Apart (0, 0) 3 (0, 0) 3) :=
  ⟨.block rfl, .block rfl rfl, Or.inl rfl⟩

theorem C55_vec3_abs {mem : Mem α} {vP destP : Ptr} {v : V3 α} (h_v : Holds mem vP v.list) (r_dest : Room mem destP 3) (s_v_dest : vP = destP ∨ Apart vP 3 destP 3) :
    C.glm_vec3_abs.run mem [vP.val, destP.val] =
      some (none, writes mem [(destP, (Cglm.glm_vec3_abs v).list.map .f)]) := by
  rcases s_v_dest with s_v_dest | s_v_dest
  · subst s_v_dest
    exact transferL ((R.nil _).addW h_v.has r_dest .nil) (.p rfl (.p rfl .nil)) (glm_vec3_abs_run_v _) (DT.val_done _) rfl rfl
  · exact transferL (((R.nil _).addW r_dest.has r_dest .nil).addR h_v.has (.cons s_v_dest .nil)) (.p rfl (.p rfl .nil)) (glm_vec3_abs_run _) (DT.val_done _) rfl rfl
example (v : V3 α) : let mem : Mem α := [⟨true, v.list.map .f⟩]
    Holds mem (0, 0) v.list ∧ Room mem (0, 0) 3 ∧ (((0, 0) : Ptr) = (0, 0) ∨ Apart (0, 0) 3 (0, 0) 3) :=
  ⟨.block rfl, .block rfl rfl, Or.inl rfl⟩

theorem C55_vec3_fract {mem : Mem α} {vP destP : Ptr} {v : V3 α} (h_v : Holds mem vP v.list) (r_dest : Room mem destP 3) (s_v_dest : vP = destP ∨ Apart vP 3 destP 3) :
    C.glm_vec3_fract.run mem [vP.val, destP.val] =
      some (none, writes mem [(destP, (Cglm.glm_vec3_fract v).list.map .f)]) := by
  rcases s_v_dest with s_v_dest | s_v_dest
  · subst s_v_dest
    exact transferL ((R.nil _).addW h_v.has r_dest .nil) (.p rfl (.p rfl .nil)) (glm_vec3_fract_run_v _) (DT.val_done _) rfl rfl
  · exact transferL (((R.nil _).addW r_dest.has r_dest .nil).addR h_v.has (.cons s_v_dest .nil)) (.p rfl (.p rfl .nil)) (glm_vec3_fract_run _) (DT.val_done _) rfl rfl
example (v : V3 α) : let mem : Mem α := [⟨true, v.list.map .f⟩]
    Holds mem (0, 0) v.list ∧ Room mem (0, 0) 3 ∧ (((0, 0) : Ptr) = (0, 0) ∨ Apart (0, 0) 3 (0, 0) 3) :=
  ⟨.block rfl, .block rfl rfl, Or.inl rfl⟩

theorem C55_vec3_floor {mem : Mem α} {vP destP : Ptr} {v : V3 α} (h_v : Holds mem vP v.list) (r_dest : Room mem destP 3) (s_v_dest : vP = destP ∨ Apart vP 3 destP 3) :
    C.glm_vec3_floor.run mem [vP.val, destP.val] =
      some (none, writes mem [(destP, (Cglm.glm_vec3_floor v).list.map .f)]) := by
  rcases s_v_dest with s_v_dest | s_v_dest
  · subst s_v_dest
    exact transferL ((R.nil _).addW h_v.has r_dest .nil) (.p rfl (.p rfl .nil)) (glm_vec3_floor_run_v _) (DT.val_done _) rfl rfl
  · exact transferL (((R.nil _).addW r_dest.has r_dest .nil).addR h_v.has (.cons s_v_dest .nil)) (.p rfl (.p rfl .nil)) (glm_vec3_floor_run _) (DT.val_done _) rfl rfl
example (v : V3 α) : let mem : Mem α := [⟨true, v.list.map .f⟩]
    Holds mem (0, 0) v.list ∧ Room mem (0, 0) 3 ∧ (((0, 0) : Ptr) = (0, 0) ∨ Apart (0, 0) 3 (0, 0) 3) :=
  ⟨.block rfl, .block rfl rfl, Or.inl rfl⟩

theorem C55_vec3_mods {mem : Mem α} {vP destP : Ptr} {v : V3 α} (s : α) (h_v : Holds mem vP v.list) (r_dest : Room mem destP 3) (s_v_dest : vP = destP ∨ Apart vP 3 destP 3) :
    C.glm_vec3_mods.run mem [vP.val, .f s, destP.val] =
      some (none, writes mem [(destP, (Cglm.glm_vec3_mods v s).list.map .f)]) := by
  rcases s_v_dest with s_v_dest | s_v_dest
  · subst s_v_dest
    exact transferL ((R.nil _).addW h_v.has r_dest .nil) (.p rfl (.f (.p rfl .nil))) (glm_vec3_mods_run_v _ _) (DT.val_done _) rfl rfl
  · exact transferL (((R.nil _).addW r_dest.has r_dest .nil).addR h_v.has (.cons s_v_dest .nil)) (.p rfl (.f (.p rfl .nil))) (glm_vec3_mods_run _ _) (DT.val_done _) rfl rfl
example (v : V3 α) : let mem : Mem α := [⟨true, v.list.map .f⟩]
    Holds mem (0, 0) v.list ∧ Room mem (0, 0) 3 ∧ (((0, 0) : Ptr) = (0, 0) ∨ Apart (0, 0) 3 (0, 0) 3) :=
  ⟨.block rfl, .block rfl rfl, Or.inl rfl⟩

theorem C55_vec3_steps {mem : Mem α} {xP destP : Ptr} (edge : α) {x : V3 α} (h_x : Holds mem xP x.list) (r_dest : Room mem destP 3) (s_x_dest : xP = destP ∨ Apart xP 3 destP 3) :
    C.glm_vec3_steps.run mem [.f edge, xP.val, destP.val] =
      some (none, writes mem [(destP, (Cglm.glm_vec3_steps edge x).list.map .f)]) := by
  rcases s_x_dest with s_x_dest | s_x_dest
  · subst s_x_dest
    exact transferL ((R.nil _).addW h_x.has r_dest .nil) (.f (.p rfl (.p rfl .nil))) (glm_vec3_steps_run_x _ _) (DT.val_done _) rfl rfl
  · exact transferL (((R.nil _).addW r_dest.has r_dest .nil).addR h_x.has (.cons s_x_dest .nil)) (.f (.p rfl (.p rfl .nil))) (glm_vec3_steps_run _ _) (DT.val_done _) rfl rfl
example (x : V3 α) : let mem : Mem α := [⟨true, x.list.map .f⟩]
    Holds mem (0, 0) x.list ∧ Room mem (0, 0) 3 ∧ (((0, 0) : Ptr) = (0, 0) ∨ Apart (0, 0) 3 (0, 0) 3) :=
  ⟨.block rfl, .block rfl rfl, Or.inl rfl⟩

theorem C55_vec3_stepr {mem : Mem α} {edgeP destP : Ptr} {edge : V3 α} (x : α) (h_edge : Holds mem edgeP edge.list) (r_dest : Room mem destP 3) (s_edge_dest : edgeP = destP ∨ Apart edgeP 3 destP 3) :
    C.glm_vec3_stepr.run mem [edgeP.val, .f x, destP.val] =
      some (none, writes mem [(destP, (Cglm.glm_vec3_stepr edge x).list.map .f)]) := by
  rcases s_edge_dest with s_edge_dest | s_edge_dest
  · subst s_edge_dest
    exact transferL ((R.nil _).addW h_edge.has r_dest .nil) (.p rfl (.f (.p rfl .nil))) (glm_vec3_stepr_run_edge _ _) (DT.val_done _) rfl rfl
  · exact transferL (((R.nil _).addW r_dest.has r_dest .nil).addR h_edge.has (.cons s_edge_dest .nil)) (.p rfl (.f (.p rfl .nil))) (glm_vec3_stepr_run _ _) (DT.val_done _) rfl rfl
example (edge : V3 α) : let mem : Mem α := [⟨true, edge.list.map .f⟩]
    Holds mem (0, 0) edge.list ∧ Room mem (0, 0) 3 ∧ (((0, 0) : Ptr) = (0, 0) ∨ Apart (0, 0) 3 (0, 0) 3) :=
  ⟨.block rfl, .block rfl rfl, Or.inl rfl⟩

theorem C55_vec3_sqrt {mem : Mem α} {vP destP : Ptr} {v : V3 α} (h_v : Holds mem vP v.list) (r_dest : Room mem destP 3) (s_v_dest : vP = destP ∨ Apart vP 3 destP 3) :
    C.glm_vec3_sqrt.run mem [vP.val, destP.val] =
      some (none, writes mem [(destP, (Cglm.glm_vec3_sqrt v).list.map .f)]) := by
  rcases s_v_dest with s_v_dest | s_v_dest
  · subst s_v_dest
    exact transferL ((R.nil _).addW h_v.has r_dest .nil) (.p rfl (.p rfl .nil)) (glm_vec3_sqrt_run_v _) (DT.val_done _) rfl rfl
  · exact transferL (((R.nil _).addW r_dest.has r_dest .nil).addR h_v.has (.cons s_v_dest .nil)) (.p rfl (.p rfl .nil)) (glm_vec3_sqrt_run _) (DT.val_done _) rfl rfl
example (v : V3 α) : let mem : Mem α := [⟨true, v.list.map .f⟩]
    Holds mem (0, 0) v.list ∧ Room mem (0, 0) 3 ∧ (((0, 0) : Ptr) = (0, 0) ∨ Apart (0, 0) 3 (0, 0) 3) :=
  ⟨.block rfl, .block rfl rfl, Or.inl rfl⟩

end Cglm

end C55Vec3Ext

section C55Vec4

/-!
# C55: destination may alias an argument (include/cglm/vec4.h)

Each input is either the destination itself or does not overlap it; the result is the value-level function of
what the inputs held before the call, and nothing outside the destination changes.
-/

set_option linter.unusedVariables false
set_option linter.unusedSectionVars false

namespace Cglm
open CMem

variable {α : Type} [Add α] [Sub α] [Mul α] [Div α] [Neg α] [CFloat α]

theorem C55_vec4_copy {mem : Mem α} {vP destP : Ptr} {v : V4 α} (h_v : Holds mem vP v.list) (r_dest : Room mem destP 4) (s_v_dest : vP = destP ∨ Apart vP 4 destP 4) :
    C.glm_vec4_copy.run mem [vP.val, destP.val] =
      some (none, writes mem [(destP, (Cglm.glm_vec4_copy v).list.map .f)]) := by
  rcases s_v_dest with s_v_dest | s_v_dest
  · subst s_v_dest
    exact transferL ((R.nil _).addW h_v.has r_dest .nil) (.p rfl (.p rfl .nil)) (glm_vec4_copy_run_v _) (DT.val_done _) rfl rfl
  · exact transferL (((R.nil _).addW r_dest.has r_dest .nil).addR h_v.has (.cons s_v_dest .nil)) (.p rfl (.p rfl .nil)) (glm_vec4_copy_run _) (DT.val_done _) rfl rfl
example (v : V4 α) : let mem : Mem α := [⟨true, v.list.map .f⟩]
    Holds mem (0, 0) v.list ∧ Room mem (0, 0) 4 ∧ (((0, 0) : Ptr) = (0, 0) ∨ Apart (0, 0) 4 (0, 0) 4) :=
  ⟨.block rfl, .block rfl rfl, Or.inl rfl⟩

theorem C55_vec4_ucopy {mem : Mem α} {vP destP : Ptr} {v : V4 α} (h_v : Holds mem vP v.list) (r_dest : Room mem destP 4) (s_v_dest : vP = destP ∨ Apart vP 4 destP 4) :
    C.glm_vec4_ucopy.run mem [vP.val, destP.val] =
      some (none, writes mem [(destP, (Cglm.glm_vec4_ucopy v).list.map .f)]) := by
  rcases s_v_dest with s_v_dest | s_v_dest
  · subst s_v_dest
    exact transferL ((R.nil _).addW h_v.has r_dest .nil) (.p rfl (.p rfl .nil)) (glm_vec4_ucopy_run_v _) (DT.val_done _) rfl rfl
  · exact transferL (((R.nil _).addW r_dest.has r_dest .nil).addR h_v.has (.cons s_v_dest .nil)) (.p rfl (.p rfl .nil)) (glm_vec4_ucopy_run _) (DT.val_done _) rfl rfl
example (v : V4 α) : let mem : Mem α := [⟨true, v.list.map .f⟩]
    Holds mem (0, 0) v.list ∧ Room mem (0, 0) 4 ∧ (((0, 0) : Ptr) = (0, 0) ∨ Apart (0, 0) 4 (0, 0) 4) :=
  ⟨.block rfl, .block rfl rfl, Or.inl rfl⟩

theorem C55_vec4_add {mem : Mem α} {aP bP destP : Ptr} {a : V4 α} {b : V4 α} (h_a : Holds mem aP a.list) (h_b : Holds mem bP b.list) (r_dest : Room mem destP 4) (s_a_dest : aP = destP ∨ Apart aP 4 destP 4) (s_b_dest : bP = destP ∨ Apart bP 4 destP 4) :
    C.glm_vec4_add.run mem [aP.val, bP.val, destP.val] =
      some (none, writes mem [(destP, (Cglm.glm_vec4_add a b).list.map .f)]) := by
  rcases s_a_dest with s_a_dest | s_a_dest
  · subst s_a_dest
    rcases s_b_dest with s_b_dest | s_b_dest
    · subst s_b_dest
      obtain rfl := V4.list_inj (h_a.inj h_b rfl)
      exact transferL ((R.nil _).addW h_a.has r_dest .nil) (.p rfl (.p rfl (.p rfl .nil))) (glm_vec4_add_run_a_b _) (DT.val_done _) rfl rfl
    · exact transferL (((R.nil _).addW h_a.has r_dest .nil).addR h_b.has (.cons s_b_dest .nil)) (.p rfl (.p rfl (.p rfl .nil))) (glm_vec4_add_run_a _ _) (DT.val_done _) rfl rfl
  · rcases s_b_dest with s_b_dest | s_b_dest
    · subst s_b_dest
      exact transferL (((R.nil _).addW h_b.has r_dest .nil).addR h_a.has (.cons s_a_dest .nil)) (.p rfl (.p rfl (.p rfl .nil))) (glm_vec4_add_run_b _ _) (DT.val_done _) rfl rfl
    · exact transferL ((((R.nil _).addW r_dest.has r_dest .nil).addR h_b.has (.cons s_b_dest .nil)).addR h_a.has (.skip (.cons s_a_dest .nil))) (.p rfl (.p rfl (.p rfl .nil))) (glm_vec4_add_run _ _) (DT.val_done _) rfl rfl
example (a : V4 α) : let mem : Mem α := [⟨true, a.list.map .f⟩]
    Holds mem (0, 0) a.list ∧ Holds mem (0, 0) a.list ∧ Room mem (0, 0) 4 ∧ (((0, 0) : Ptr) = (0, 0) ∨ Apart (0, 0) 4 (0, 0) 4) ∧ (((0, 0) : Ptr) = (0, 0) ∨ Apart (0, 0) 4 (0, 0) 4) :=
  ⟨.block rfl, .block rfl, .block rfl rfl, Or.inl rfl, Or.inl rfl⟩

theorem C55_vec4_adds {mem : Mem α} {vP destP : Ptr} {v : V4 α} (s : α) (h_v : Holds mem vP v.list) (r_dest : Room mem destP 4) (s_v_dest : vP = destP ∨ Apart vP 4 destP 4) :
    C.glm_vec4_adds.run mem [vP.val, .f s, destP.val] =
      some (none, writes mem [(destP, (Cglm.glm_vec4_adds v s).list.map .f)]) := by
  rcases s_v_dest with s_v_dest | s_v_dest
  · subst s_v_dest
    exact transferL ((R.nil _).addW h_v.has r_dest .nil) (.p rfl (.f (.p rfl .nil))) (glm_vec4_adds_run_v _ _) (DT.val_done _) rfl rfl
  · exact transferL (((R.nil _).addW r_dest.has r_dest .nil).addR h_v.has (.cons s_v_dest .nil)) (.p rfl (.f (.p rfl .nil))) (glm_vec4_adds_run _ _) (DT.val_done _) rfl rfl
example (v : V4 α) : let mem : Mem α := [⟨true, v.list.map .f⟩]
    Holds mem (0, 0) v.list ∧ Room mem (0, 0) 4 ∧ (((0, 0) : Ptr) = (0, 0) ∨ Apart (0, 0) 4 (0, 0) 4) :=
  ⟨.block rfl, .block rfl rfl, Or.inl rfl⟩

theorem C55_vec4_sub {mem : Mem α} {aP bP destP : Ptr} {a : V4 α} {b : V4 α} (h_a : Holds mem aP a.list) (h_b : Holds mem bP b.list) (r_dest : Room mem destP 4) (s_a_dest : aP = destP ∨ Apart aP 4 destP 4) (s_b_dest : bP = destP ∨ Apart bP 4 destP 4) :
    C.glm_vec4_sub.run mem [aP.val, bP.val, destP.val] =
      some (none, writes mem [(destP, (Cglm.glm_vec4_sub a b).list.map .f)]) := by
  rcases s_a_dest with s_a_dest | s_a_dest
  · subst s_a_dest
    rcases s_b_dest with s_b_dest | s_b_dest
    · subst s_b_dest
      obtain rfl := V4.list_inj (h_a.inj h_b rfl)
      exact transferL ((R.nil _).addW h_a.has r_dest .nil) (.p rfl (.p rfl (.p rfl .nil))) (glm_vec4_sub_run_a_b _) (DT.val_done _) rfl rfl
    · exact transferL (((R.nil _).addW h_a.has r_dest .nil).addR h_b.has (.cons s_b_dest .nil)) (.p rfl (.p rfl (.p rfl .nil))) (glm_vec4_sub_run_a _ _) (DT.val_done _) rfl rfl
  · rcases s_b_dest with s_b_dest | s_b_dest
    · subst s_b_dest
      exact transferL (((R.nil _).addW h_b.has r_dest .nil).addR h_a.has (.cons s_a_dest .nil)) (.p rfl (.p rfl (.p rfl .nil))) (glm_vec4_sub_run_b _ _) (DT.val_done _) rfl rfl
    · exact transferL ((((R.nil _).addW r_dest.has r_dest .nil).addR h_b.has (.cons s_b_dest .nil)).addR h_a.has (.skip (.cons s_a_dest .nil))) (.p rfl (.p rfl (.p rfl .nil))) (glm_vec4_sub_run _ _) (DT.val_done _) rfl rfl
example (a : V4 α) : let mem : Mem α := [⟨true, a.list.map .f⟩]
    Holds mem (0, 0) a.list ∧ Holds mem (0, 0) a.list ∧ Room mem (0, 0) 4 ∧ (((0, 0) : Ptr) = (0, 0) ∨ Apart (0, 0) 4 (0, 0) 4) ∧ (((0, 0) : Ptr) = (0, 0) ∨ Apart (0, 0) 4 (0, 0) 4) :=
  ⟨.block rfl, .block rfl, .block rfl rfl, Or.inl rfl, Or.inl rfl⟩

theorem C55_vec4_subs {mem : Mem α} {vP destP : Ptr} {v : V4 α} (s : α) (h_v : Holds mem vP v.list) (r_dest : Room mem destP 4) (s_v_dest : vP = destP ∨ Apart vP 4 destP 4) :
    C.glm_vec4_subs.run mem [vP.val, .f s, destP.val] =
      some (none, writes mem [(destP, (Cglm.glm_vec4_subs v s).list.map .f)]) := by
  rcases s_v_dest with s_v_dest | s_v_dest
  · subst s_v_dest
    exact transferL ((R.nil _).addW h_v.has r_dest .nil) (.p rfl (.f (.p rfl .nil))) (glm_vec4_subs_run_v _ _) (DT.val_done _) rfl rfl
  · exact transferL (((R.nil _).addW r_dest.has r_dest .nil).addR h_v.has (.cons s_v_dest .nil)) (.p rfl (.f (.p rfl .nil))) (glm_vec4_subs_run _ _) (DT.val_done _) rfl rfl
example (v : V4 α) : let mem : Mem α := [⟨true, v.list.map .f⟩]
    Holds mem (0, 0) v.list ∧ Room mem (0, 0) 4 ∧ (((0, 0) : Ptr) = (0, 0) ∨ Apart (0, 0) 4 (0, 0) 4) :=
  ⟨.block rfl, .block rfl rfl, Or.inl rfl⟩

theorem C55_vec4_mul {mem : Mem α} {aP bP destP : Ptr} {a : V4 α} {b : V4 α} (h_a : Holds mem aP a.list) (h_b : Holds mem bP b.list) (r_dest : Room mem destP 4) (s_a_dest : aP = destP ∨ Apart aP 4 destP 4) (s_b_dest : bP = destP ∨ Apart bP 4 destP 4) :
    C.glm_vec4_mul.run mem [aP.val, bP.val, destP.val] =
      some (none, writes mem [(destP, (Cglm.glm_vec4_mul a b).list.map .f)]) := by
  rcases s_a_dest with s_a_dest | s_a_dest
  · subst s_a_dest
    rcases s_b_dest with s_b_dest | s_b_dest
    · subst s_b_dest
      obtain rfl := V4.list_inj (h_a.inj h_b rfl)
      exact transferL ((R.nil _).addW h_a.has r_dest .nil) (.p rfl (.p rfl (.p rfl .nil))) (glm_vec4_mul_run_a_b _) (DT.val_done _) rfl rfl
    · exact transferL (((R.nil _).addW h_a.has r_dest .nil).addR h_b.has (.cons s_b_dest .nil)) (.p rfl (.p rfl (.p rfl .nil))) (glm_vec4_mul_run_a _ _) (DT.val_done _) rfl rfl
  · rcases s_b_dest with s_b_dest | s_b_dest
    · subst s_b_dest
      exact transferL (((R.nil _).addW h_b.has r_dest .nil).addR h_a.has (.cons s_a_dest .nil)) (.p rfl (.p rfl (.p rfl .nil))) (glm_vec4_mul_run_b _ _) (DT.val_done _) rfl rfl
    · exact transferL ((((R.nil _).addW r_dest.has r_dest .nil).addR h_b.has (.cons s_b_dest .nil)).addR h_a.has (.skip (.cons s_a_dest .nil))) (.p rfl (.p rfl (.p rfl .nil))) (glm_vec4_mul_run _ _) (DT.val_done _) rfl rfl
example (a : V4 α) : let mem : Mem α := [⟨true, a.list.map .f⟩]
    Holds mem (0, 0) a.list ∧ Holds mem (0, 0) a.list ∧ Room mem (0, 0) 4 ∧ (((0, 0) : Ptr) = (0, 0) ∨ Apart (0, 0) 4 (0, 0) 4) ∧ (((0, 0) : Ptr) = (0, 0) ∨ Apart (0, 0) 4 (0, 0) 4) :=
  ⟨.block rfl, .block rfl, .block rfl rfl, Or.inl rfl, Or.inl rfl⟩

theorem C55_vec4_scale {mem : Mem α} {vP destP : Ptr} {v : V4 α} (s : α) (h_v : Holds mem vP v.list) (r_dest : Room mem destP 4) (s_v_dest : vP = destP ∨ Apart vP 4 destP 4) :
    C.glm_vec4_scale.run mem [vP.val, .f s, destP.val] =
      some (none, writes mem [(destP, (Cglm.glm_vec4_scale v s).list.map .f)]) := by
  rcases s_v_dest with s_v_dest | s_v_dest
  · subst s_v_dest
    exact transferL ((R.nil _).addW h_v.has r_dest .nil) (.p rfl (.f (.p rfl .nil))) (glm_vec4_scale_run_v _ _) (DT.val_done _) rfl rfl
  · exact transferL (((R.nil _).addW r_dest.has r_dest .nil).addR h_v.has (.cons s_v_dest .nil)) (.p rfl (.f (.p rfl .nil))) (glm_vec4_scale_run _ _) (DT.val_done _) rfl rfl
example (v : V4 α) : let mem : Mem α := [⟨true, v.list.map .f⟩]
    Holds mem (0, 0) v.list ∧ Room mem (0, 0) 4 ∧ (((0, 0) : Ptr) = (0, 0) ∨ Apart (0, 0) 4 (0, 0) 4) :=
  ⟨.block rfl, .block rfl rfl, Or.inl rfl⟩

theorem C55_vec4_scale_as {mem : Mem α} {vP destP : Ptr} {v : V4 α} (s : α) (h_v : Holds mem vP v.list) (r_dest : Room mem destP 4) (s_v_dest : vP = destP ∨ Apart vP 4 destP 4) :
    C.glm_vec4_scale_as.run mem [vP.val, .f s, destP.val] =
      some (none, writes mem [(destP, (Cglm.glm_vec4_scale_as v s).list.map .f)]) := by
  rcases s_v_dest with s_v_dest | s_v_dest
  · subst s_v_dest
    exact transferL ((R.nil _).addW h_v.has r_dest .nil) (.p rfl (.f (.p rfl .nil))) (glm_vec4_scale_as_run_v _ _) (DT.val_map_eq (glm_vec4_scale_as_dt_val _ _) rfl) rfl rfl
  · exact transferL (((R.nil _).addW r_dest.has r_dest .nil).addR h_v.has (.cons s_v_dest .nil)) (.p rfl (.f (.p rfl .nil))) (glm_vec4_scale_as_run _ _) (DT.val_map_eq (glm_vec4_scale_as_dt_val _ _) rfl) rfl rfl
example (v : V4 α) : let mem : Mem α := [⟨true, v.list.map .f⟩]
    Holds mem (0, 0) v.list ∧ Room mem (0, 0) 4 ∧ (((0, 0) : Ptr) = (0, 0) ∨ Apart (0, 0) 4 (0, 0) 4) :=
  ⟨.block rfl, .block rfl rfl, Or.inl rfl⟩

theorem C55_vec4_div {mem : Mem α} {aP bP destP : Ptr} {a : V4 α} {b : V4 α} (h_a : Holds mem aP a.list) (h_b : Holds mem bP b.list) (r_dest : Room mem destP 4) (s_a_dest : aP = destP ∨ Apart aP 4 destP 4) (s_b_dest : bP = destP ∨ Apart bP 4 destP 4) :
    C.glm_vec4_div.run mem [aP.val, bP.val, destP.val] =
      some (none, writes mem [(destP, (Cglm.glm_vec4_div a b).list.map .f)]) := by
  rcases s_a_dest with s_a_dest | s_a_dest
  · subst s_a_dest
    rcases s_b_dest with s_b_dest | s_b_dest
    · subst s_b_dest
      obtain rfl := V4.list_inj (h_a.inj h_b rfl)
      exact transferL ((R.nil _).addW h_a.has r_dest .nil) (.p rfl (.p rfl (.p rfl .nil))) (glm_vec4_div_run_a_b _) (DT.val_done _) rfl rfl
    · exact transferL (((R.nil _).addW h_a.has r_dest .nil).addR h_b.has (.cons s_b_dest .nil)) (.p rfl (.p rfl (.p rfl .nil))) (glm_vec4_div_run_a _ _) (DT.val_done _) rfl rfl
  · rcases s_b_dest with s_b_dest | s_b_dest
    · subst s_b_dest
      exact transferL (((R.nil _).addW h_b.has r_dest .nil).addR h_a.has (.cons s_a_dest .nil)) (.p rfl (.p rfl (.p rfl .nil))) (glm_vec4_div_run_b _ _) (DT.val_done _) rfl rfl
    · exact transferL ((((R.nil _).addW r_dest.has r_dest .nil).addR h_b.has (.cons s_b_dest .nil)).addR h_a.has (.skip (.cons s_a_dest .nil))) (.p rfl (.p rfl (.p rfl .nil))) (glm_vec4_div_run _ _) (DT.val_done _) rfl rfl
example (a : V4 α) : let mem : Mem α := [⟨true, a.list.map .f⟩]
    Holds mem (0, 0) a.list ∧ Holds mem (0, 0) a.list ∧ Room mem (0, 0) 4 ∧ (((0, 0) : Ptr) = (0, 0) ∨ Apart (0, 0) 4 (0, 0) 4) ∧ (((0, 0) : Ptr) = (0, 0) ∨ Apart (0, 0) 4 (0, 0) 4) :=
  ⟨.block rfl, .block rfl, .block rfl rfl, Or.inl rfl, Or.inl rfl⟩

theorem C55_vec4_divs {mem : Mem α} {vP destP : Ptr} {v : V4 α} (s : α) (h_v : Holds mem vP v.list) (r_dest : Room mem destP 4) (s_v_dest : vP = destP ∨ Apart vP 4 destP 4) :
    C.glm_vec4_divs.run mem [vP.val, .f s, destP.val] =
      some (none, writes mem [(destP, (Cglm.glm_vec4_divs v s).list.map .f)]) := by
  rcases s_v_dest with s_v_dest | s_v_dest
  · subst s_v_dest
    exact transferL ((R.nil _).addW h_v.has r_dest .nil) (.p rfl (.f (.p rfl .nil))) (glm_vec4_divs_run_v _ _) (DT.val_done _) rfl rfl
  · exact transferL (((R.nil _).addW r_dest.has r_dest .nil).addR h_v.has (.cons s_v_dest .nil)) (.p rfl (.f (.p rfl .nil))) (glm_vec4_divs_run _ _) (DT.val_done _) rfl rfl
example (v : V4 α) : let mem : Mem α := [⟨true, v.list.map .f⟩]
    Holds mem (0, 0) v.list ∧ Room mem (0, 0) 4 ∧ (((0, 0) : Ptr) = (0, 0) ∨ Apart (0, 0) 4 (0, 0) 4) :=
  ⟨.block rfl, .block rfl rfl, Or.inl rfl⟩

theorem C55_vec4_addadd {mem : Mem α} {aP bP destP : Ptr} {a : V4 α} {b : V4 α} {dest : V4 α} (h_a : Holds mem aP a.list) (h_b : Holds mem bP b.list) (h_dest : Holds mem destP dest.list) (r_dest : Room mem destP 4) (s_a_dest : aP = destP ∨ Apart aP 4 destP 4) (s_b_dest : bP = destP ∨ Apart bP 4 destP 4) :
    C.glm_vec4_addadd.run mem [aP.val, bP.val, destP.val] =
      some (none, writes mem [(destP, (Cglm.glm_vec4_addadd a b dest).list.map .f)]) := by
  rcases s_a_dest with s_a_dest | s_a_dest
  · subst s_a_dest
    rcases s_b_dest with s_b_dest | s_b_dest
    · subst s_b_dest
      obtain rfl := V4.list_inj (h_dest.inj h_a rfl)
      obtain rfl := V4.list_inj (h_dest.inj h_b rfl)
      exact transferL ((R.nil _).addW h_dest.has r_dest .nil) (.p rfl (.p rfl (.p rfl .nil))) (glm_vec4_addadd_run_a_b _) (DT.val_done _) rfl rfl
    · obtain rfl := V4.list_inj (h_dest.inj h_a rfl)
      exact transferL (((R.nil _).addW h_dest.has r_dest .nil).addR h_b.has (.cons s_b_dest .nil)) (.p rfl (.p rfl (.p rfl .nil))) (glm_vec4_addadd_run_a _ _) (DT.val_done _) rfl rfl
  · rcases s_b_dest with s_b_dest | s_b_dest
    · subst s_b_dest
      obtain rfl := V4.list_inj (h_dest.inj h_b rfl)
      exact transferL (((R.nil _).addW h_dest.has r_dest .nil).addR h_a.has (.cons s_a_dest .nil)) (.p rfl (.p rfl (.p rfl .nil))) (glm_vec4_addadd_run_b _ _) (DT.val_done _) rfl rfl
    · exact transferL ((((R.nil _).addW h_dest.has r_dest .nil).addR h_b.has (.cons s_b_dest .nil)).addR h_a.has (.skip (.cons s_a_dest .nil))) (.p rfl (.p rfl (.p rfl .nil))) (glm_vec4_addadd_run _ _ _) (DT.val_done _) rfl rfl
example (dest : V4 α) : let mem : Mem α := [⟨true, dest.list.map .f⟩]
    Holds mem (0, 0) dest.list ∧ Holds mem (0, 0) dest.list ∧ Holds mem (0, 0) dest.list ∧ Room mem (0, 0) 4 ∧ (((0, 0) : Ptr) = (0, 0) ∨ Apart (0, 0) 4 (0, 0) 4) ∧ (((0, 0) : Ptr) = (0, 0) ∨ Apart (0, 0) 4 (0, 0) 4) :=
  ⟨.block rfl, .block rfl, .block rfl, .block rfl rfl, Or.inl rfl, Or.inl rfl⟩

theorem C55_vec4_subadd {mem : Mem α} {aP bP destP : Ptr} {a : V4 α} {b : V4 α} {dest : V4 α} (h_a : Holds mem aP a.list) (h_b : Holds mem bP b.list) (h_dest : Holds mem destP dest.list) (r_dest : Room mem destP 4) (s_a_dest : aP = destP ∨ Apart aP 4 destP 4) (s_b_dest : bP = destP ∨ Apart bP 4 destP 4) :
    C.glm_vec4_subadd.run mem [aP.val, bP.val, destP.val] =
      some (none, writes mem [(destP, (Cglm.glm_vec4_subadd a b dest).list.map .f)]) := by
  rcases s_a_dest with s_a_dest | s_a_dest
  · subst s_a_dest
    rcases s_b_dest with s_b_dest | s_b_dest
    · subst s_b_dest
      obtain rfl := V4.list_inj (h_dest.inj h_a rfl)
      obtain rfl := V4.list_inj (h_dest.inj h_b rfl)
      exact transferL ((R.nil _).addW h_dest.has r_dest .nil) (.p rfl (.p rfl (.p rfl .nil))) (glm_vec4_subadd_run_a_b _) (DT.val_done _) rfl rfl
    · obtain rfl := V4.list_inj (h_dest.inj h_a rfl)
      exact transferL (((R.nil _).addW h_dest.has r_dest .nil).addR h_b.has (.cons s_b_dest .nil)) (.p rfl (.p rfl (.p rfl .nil))) (glm_vec4_subadd_run_a _ _) (DT.val_done _) rfl rfl
  · rcases s_b_dest with s_b_dest | s_b_dest
    · subst s_b_dest
      obtain rfl := V4.list_inj (h_dest.inj h_b rfl)
      exact transferL (((R.nil _).addW h_dest.has r_dest .nil).addR h_a.has (.cons s_a_dest .nil)) (.p rfl (.p rfl (.p rfl .nil))) (glm_vec4_subadd_run_b _ _) (DT.val_done _) rfl rfl
    · exact transferL ((((R.nil _).addW h_dest.has r_dest .nil).addR h_b.has (.cons s_b_dest .nil)).addR h_a.has (.skip (.cons s_a_dest .nil))) (.p rfl (.p rfl (.p rfl .nil))) (glm_vec4_subadd_run _ _ _) (DT.val_done _) rfl rfl
example (dest : V4 α) : let mem : Mem α := [⟨true, dest.list.map .f⟩]
    Holds mem (0, 0) dest.list ∧ Holds mem (0, 0) dest.list ∧ Holds mem (0, 0) dest.list ∧ Room mem (0, 0) 4 ∧ (((0, 0) : Ptr) = (0, 0) ∨ Apart (0, 0) 4 (0, 0) 4) ∧ (((0, 0) : Ptr) = (0, 0) ∨ Apart (0, 0) 4 (0, 0) 4) :=
  ⟨.block rfl, .block rfl, .block rfl, .block rfl rfl, Or.inl rfl, Or.inl rfl⟩

theorem C55_vec4_muladd {mem : Mem α} {aP bP destP : Ptr} {a : V4 α} {b : V4 α} {dest : V4 α} (h_a : Holds mem aP a.list) (h_b : Holds mem bP b.list) (h_dest : Holds mem destP dest.list) (r_dest : Room mem destP 4) (s_a_dest : aP = destP ∨ Apart aP 4 destP 4) (s_b_dest : bP = destP ∨ Apart bP 4 destP 4) :
    C.glm_vec4_muladd.run mem [aP.val, bP.val, destP.val] =
      some (none, writes mem [(destP, (Cglm.glm_vec4_muladd a b dest).list.map .f)]) := by
  rcases s_a_dest with s_a_dest | s_a_dest
  · subst s_a_dest
    rcases s_b_dest with s_b_dest | s_b_dest
    · subst s_b_dest
      obtain rfl := V4.list_inj (h_dest.inj h_a rfl)
      obtain rfl := V4.list_inj (h_dest.inj h_b rfl)
      exact transferL ((R.nil _).addW h_dest.has r_dest .nil) (.p rfl (.p rfl (.p rfl .nil))) (glm_vec4_muladd_run_a_b _) (DT.val_done _) rfl rfl
    · obtain rfl := V4.list_inj (h_dest.inj h_a rfl)
      exact transferL (((R.nil _).addW h_dest.has r_dest .nil).addR h_b.has (.cons s_b_dest .nil)) (.p rfl (.p rfl (.p rfl .nil))) (glm_vec4_muladd_run_a _ _) (DT.val_done _) rfl rfl
  · rcases s_b_dest with s_b_dest | s_b_dest
    · subst s_b_dest
      obtain rfl := V4.list_inj (h_dest.inj h_b rfl)
      exact transferL (((R.nil _).addW h_dest.has r_dest .nil).addR h_a.has (.cons s_a_dest .nil)) (.p rfl (.p rfl (.p rfl .nil))) (glm_vec4_muladd_run_b _ _) (DT.val_done _) rfl rfl
    · exact transferL ((((R.nil _).addW h_dest.has r_dest .nil).addR h_b.has (.cons s_b_dest .nil)).addR h_a.has (.skip (.cons s_a_dest .nil))) (.p rfl (.p rfl (.p rfl .nil))) (glm_vec4_muladd_run _ _ _) (DT.val_done _) rfl rfl
example (dest : V4 α) : let mem : Mem α := [⟨true, dest.list.map .f⟩]
    Holds mem (0, 0) dest.list ∧ Holds mem (0, 0) dest.list ∧ Holds mem (0, 0) dest.list ∧ Room mem (0, 0) 4 ∧ (((0, 0) : Ptr) = (0, 0) ∨ Apart (0, 0) 4 (0, 0) 4) ∧ (((0, 0) : Ptr) = (0, 0) ∨ Apart (0, 0) 4 (0, 0) 4) :=
  ⟨.block rfl, .block rfl, .block rfl, .block rfl rfl, Or.inl rfl, Or.inl rfl⟩

theorem C55_vec4_muladds {mem : Mem α} {aP destP : Ptr} {a : V4 α} (s : α) {dest : V4 α} (h_a : Holds mem aP a.list) (h_dest : Holds mem destP dest.list) (r_dest : Room mem destP 4) (s_a_dest : aP = destP ∨ Apart aP 4 destP 4) :
    C.glm_vec4_muladds.run mem [aP.val, .f s, destP.val] =
      some (none, writes mem [(destP, (Cglm.glm_vec4_muladds a s dest).list.map .f)]) := by
  rcases s_a_dest with s_a_dest | s_a_dest
  · subst s_a_dest
    obtain rfl := V4.list_inj (h_dest.inj h_a rfl)
    exact transferL ((R.nil _).addW h_dest.has r_dest .nil) (.p rfl (.f (.p rfl .nil))) (glm_vec4_muladds_run_a _ _) (DT.val_done _) rfl rfl
  · exact transferL (((R.nil _).addW h_dest.has r_dest .nil).addR h_a.has (.cons s_a_dest .nil)) (.p rfl (.f (.p rfl .nil))) (glm_vec4_muladds_run _ _ _) (DT.val_done _) rfl rfl
example (dest : V4 α) : let mem : Mem α := [⟨true, dest.list.map .f⟩]
    Holds mem (0, 0) dest.list ∧ Holds mem (0, 0) dest.list ∧ Room mem (0, 0) 4 ∧ (((0, 0) : Ptr) = (0, 0) ∨ Apart (0, 0) 4 (0, 0) 4) :=
  ⟨.block rfl, .block rfl, .block rfl rfl, Or.inl rfl⟩

theorem C55_vec4_maxadd {mem : Mem α} {aP bP destP : Ptr} {a : V4 α} {b : V4 α} {dest : V4 α} (h_a : Holds mem aP a.list) (h_b : Holds mem bP b.list) (h_dest : Holds mem destP dest.list) (r_dest : Room mem destP 4) (s_a_dest : aP = destP ∨ Apart aP 4 destP 4) (s_b_dest : bP = destP ∨ Apart bP 4 destP 4) :
    C.glm_vec4_maxadd.run mem [aP.val, bP.val, destP.val] =
      some (none, writes mem [(destP, (Cglm.glm_vec4_maxadd a b dest).list.map .f)]) := by
  rcases s_a_dest with s_a_dest | s_a_dest
  · subst s_a_dest
    rcases s_b_dest with s_b_dest | s_b_dest
    · subst s_b_dest
      obtain rfl := V4.list_inj (h_dest.inj h_a rfl)
      obtain rfl := V4.list_inj (h_dest.inj h_b rfl)
      exact transferL ((R.nil _).addW h_dest.has r_dest .nil) (.p rfl (.p rfl (.p rfl .nil))) (glm_vec4_maxadd_run_a_b _) (DT.val_done _) rfl rfl
    · obtain rfl := V4.list_inj (h_dest.inj h_a rfl)
      exact transferL (((R.nil _).addW h_dest.has r_dest .nil).addR h_b.has (.cons s_b_dest .nil)) (.p rfl (.p rfl (.p rfl .nil))) (glm_vec4_maxadd_run_a _ _) (DT.val_done _) rfl rfl
  · rcases s_b_dest with s_b_dest | s_b_dest
    · subst s_b_dest
      obtain rfl := V4.list_inj (h_dest.inj h_b rfl)
      exact transferL (((R.nil _).addW h_dest.has r_dest .nil).addR h_a.has (.cons s_a_dest .nil)) (.p rfl (.p rfl (.p rfl .nil))) (glm_vec4_maxadd_run_b _ _) (DT.val_done _) rfl rfl
    · exact transferL ((((R.nil _).addW h_dest.has r_dest .nil).addR h_b.has (.cons s_b_dest .nil)).addR h_a.has (.skip (.cons s_a_dest .nil))) (.p rfl (.p rfl (.p rfl .nil))) (glm_vec4_maxadd_run _ _ _) (DT.val_done _) rfl rfl
example (dest : V4 α) : let mem : Mem α := [⟨true, dest.list.map .f⟩]
    Holds mem (0, 0) dest.list ∧ Holds mem (0, 0) dest.list ∧ Holds mem (0, 0) dest.list ∧ Room mem (0, 0) 4 ∧ (((0, 0) : Ptr) = (0, 0) ∨ Apart (0, 0) 4 (0, 0) 4) ∧ (((0, 0) : Ptr) = (0, 0) ∨ Apart (0, 0) 4 (0, 0) 4) :=
  ⟨.block rfl, .block rfl, .block rfl, .block rfl rfl, Or.inl rfl, Or.inl rfl⟩

theorem C55_vec4_minadd {mem : Mem α} {aP bP destP : Ptr} {a : V4 α} {b : V4 α} {dest : V4 α} (h_a : Holds mem aP a.list) (h_b : Holds mem bP b.list) (h_dest : Holds mem destP dest.list) (r_dest : Room mem destP 4) (s_a_dest : aP = destP ∨ Apart aP 4 destP 4) (s_b_dest : bP = destP ∨ Apart bP 4 destP 4) :
    C.glm_vec4_minadd.run mem [aP.val, bP.val, destP.val] =
      some (none, writes mem [(destP, (Cglm.glm_vec4_minadd a b dest).list.map .f)]) := by
  rcases s_a_dest with s_a_dest | s_a_dest
  · subst s_a_dest
    rcases s_b_dest with s_b_dest | s_b_dest
    · subst s_b_dest
      obtain rfl := V4.list_inj (h_dest.inj h_a rfl)
      obtain rfl := V4.list_inj (h_dest.inj h_b rfl)
      exact transferL ((R.nil _).addW h_dest.has r_dest .nil) (.p rfl (.p rfl (.p rfl .nil))) (glm_vec4_minadd_run_a_b _) (DT.val_done _) rfl rfl
    · obtain rfl := V4.list_inj (h_dest.inj h_a rfl)
      exact transferL (((R.nil _).addW h_dest.has r_dest .nil).addR h_b.has (.cons s_b_dest .nil)) (.p rfl (.p rfl (.p rfl .nil))) (glm_vec4_minadd_run_a _ _) (DT.val_done _) rfl rfl
  · rcases s_b_dest with s_b_dest | s_b_dest
    · subst s_b_dest
      obtain rfl := V4.list_inj (h_dest.inj h_b rfl)
      exact transferL (((R.nil _).addW h_dest.has r_dest .nil).addR h_a.has (.cons s_a_dest .nil)) (.p rfl (.p rfl (.p rfl .nil))) (glm_vec4_minadd_run_b _ _) (DT.val_done _) rfl rfl
    · exact transferL ((((R.nil _).addW h_dest.has r_dest .nil).addR h_b.has (.cons s_b_dest .nil)).addR h_a.has (.skip (.cons s_a_dest .nil))) (.p rfl (.p rfl (.p rfl .nil))) (glm_vec4_minadd_run _ _ _) (DT.val_done _) rfl rfl
example (dest : V4 α) : let mem : Mem α := [⟨true, dest.list.map .f⟩]
    Holds mem (0, 0) dest.list ∧ Holds mem (0, 0) dest.list ∧ Holds mem (0, 0) dest.list ∧ Room mem (0, 0) 4 ∧ (((0, 0) : Ptr) = (0, 0) ∨ Apart (0, 0) 4 (0, 0) 4) ∧ (((0, 0) : Ptr) = (0, 0) ∨ Apart (0, 0) 4 (0, 0) 4) :=
  ⟨.block rfl, .block rfl, .block rfl, .block rfl rfl, Or.inl rfl, Or.inl rfl⟩

theorem C55_vec4_subsub {mem : Mem α} {aP bP destP : Ptr} {a : V4 α} {b : V4 α} {dest : V4 α} (h_a : Holds mem aP a.list) (h_b : Holds mem bP b.list) (h_dest : Holds mem destP dest.list) (r_dest : Room mem destP 4) (s_a_dest : aP = destP ∨ Apart aP 4 destP 4) (s_b_dest : bP = destP ∨ Apart bP 4 destP 4) :
    C.glm_vec4_subsub.run mem [aP.val, bP.val, destP.val] =
      some (none, writes mem [(destP, (Cglm.glm_vec4_subsub a b dest).list.map .f)]) := by
  rcases s_a_dest with s_a_dest | s_a_dest
  · subst s_a_dest
    rcases s_b_dest with s_b_dest | s_b_dest
    · subst s_b_dest
      obtain rfl := V4.list_inj (h_dest.inj h_a rfl)
      obtain rfl := V4.list_inj (h_dest.inj h_b rfl)
      exact transferL ((R.nil _).addW h_dest.has r_dest .nil) (.p rfl (.p rfl (.p rfl .nil))) (glm_vec4_subsub_run_a_b _) (DT.val_done _) rfl rfl
    · obtain rfl := V4.list_inj (h_dest.inj h_a rfl)
      exact transferL (((R.nil _).addW h_dest.has r_dest .nil).addR h_b.has (.cons s_b_dest .nil)) (.p rfl (.p rfl (.p rfl .nil))) (glm_vec4_subsub_run_a _ _) (DT.val_done _) rfl rfl
  · rcases s_b_dest with s_b_dest | s_b_dest
    · subst s_b_dest
      obtain rfl := V4.list_inj (h_dest.inj h_b rfl)
      exact transferL (((R.nil _).addW h_dest.has r_dest .nil).addR h_a.has (.cons s_a_dest .nil)) (.p rfl (.p rfl (.p rfl .nil))) (glm_vec4_subsub_run_b _ _) (DT.val_done _) rfl rfl
    · exact transferL ((((R.nil _).addW h_dest.has r_dest .nil).addR h_b.has (.cons s_b_dest .nil)).addR h_a.has (.skip (.cons s_a_dest .nil))) (.p rfl (.p rfl (.p rfl .nil))) (glm_vec4_subsub_run _ _ _) (DT.val_done _) rfl rfl
example (dest : V4 α) : let mem : Mem α := [⟨true, dest.list.map .f⟩]
    Holds mem (0, 0) dest.list ∧ Holds mem (0, 0) dest.list ∧ Holds mem (0, 0) dest.list ∧ Room mem (0, 0) 4 ∧ (((0, 0) : Ptr) = (0, 0) ∨ Apart (0, 0) 4 (0, 0) 4) ∧ (((0, 0) : Ptr) = (0, 0) ∨ Apart (0, 0) 4 (0, 0) 4) :=
  ⟨.block rfl, .block rfl, .block rfl, .block rfl rfl, Or.inl rfl, Or.inl rfl⟩

theorem C55_vec4_addsub {mem : Mem α} {aP bP destP : Ptr} {a : V4 α} {b : V4 α} {dest : V4 α} (h_a : Holds mem aP a.list) (h_b : Holds mem bP b.list) (h_dest : Holds mem destP dest.list) (r_dest : Room mem destP 4) (s_a_dest : aP = destP ∨ Apart aP 4 destP 4) (s_b_dest : bP = destP ∨ Apart bP 4 destP 4) :
    C.glm_vec4_addsub.run mem [aP.val, bP.val, destP.val] =
      some (none, writes mem [(destP, (Cglm.glm_vec4_addsub a b dest).list.map .f)]) := by
  rcases s_a_dest with s_a_dest | s_a_dest
  · subst s_a_dest
    rcases s_b_dest with s_b_dest | s_b_dest
    · subst s_b_dest
      obtain rfl := V4.list_inj (h_dest.inj h_a rfl)
      obtain rfl := V4.list_inj (h_dest.inj h_b rfl)
      exact transferL ((R.nil _).addW h_dest.has r_dest .nil) (.p rfl (.p rfl (.p rfl .nil))) (glm_vec4_addsub_run_a_b _) (DT.val_done _) rfl rfl
    · obtain rfl := V4.list_inj (h_dest.inj h_a rfl)
      exact transferL (((R.nil _).addW h_dest.has r_dest .nil).addR h_b.has (.cons s_b_dest .nil)) (.p rfl (.p rfl (.p rfl .nil))) (glm_vec4_addsub_run_a _ _) (DT.val_done _) rfl rfl
  · rcases s_b_dest with s_b_dest | s_b_dest
    · subst s_b_dest
      obtain rfl := V4.list_inj (h_dest.inj h_b rfl)
      exact transferL (((R.nil _).addW h_dest.has r_dest .nil).addR h_a.has (.cons s_a_dest .nil)) (.p rfl (.p rfl (.p rfl .nil))) (glm_vec4_addsub_run_b _ _) (DT.val_done _) rfl rfl
    · exact transferL ((((R.nil _).addW h_dest.has r_dest .nil).addR h_b.has (.cons s_b_dest .nil)).addR h_a.has (.skip (.cons s_a_dest .nil))) (.p rfl (.p rfl (.p rfl .nil))) (glm_vec4_addsub_run _ _ _) (DT.val_done _) rfl rfl
example (dest : V4 α) : let mem : Mem α := [⟨true, dest.list.map .f⟩]
    Holds mem (0, 0) dest.list ∧ Holds mem (0, 0) dest.list ∧ Holds mem (0, 0) dest.list ∧ Room mem (0, 0) 4 ∧ (((0, 0) : Ptr) = (0, 0) ∨ Apart (0, 0) 4 (0, 0) 4) ∧ (((0, 0) : Ptr) = (0, 0) ∨ Apart (0, 0) 4 (0, 0) 4) :=
  ⟨.block rfl, .block rfl, .block rfl, .block rfl rfl, Or.inl rfl, Or.inl rfl⟩

theorem C55_vec4_mulsub {mem : Mem α} {aP bP destP : Ptr} {a : V4 α} {b : V4 α} {dest : V4 α} (h_a : Holds mem aP a.list) (h_b : Holds mem bP b.list) (h_dest : Holds mem destP dest.list) (r_dest : Room mem destP 4) (s_a_dest : aP = destP ∨ Apart aP 4 destP 4) (s_b_dest : bP = destP ∨ Apart bP 4 destP 4) :
    C.glm_vec4_mulsub.run mem [aP.val, bP.val, destP.val] =
      some (none, writes mem [(destP, (Cglm.glm_vec4_mulsub a b dest).list.map .f)]) := by
  rcases s_a_dest with s_a_dest | s_a_dest
  · subst s_a_dest
    rcases s_b_dest with s_b_dest | s_b_dest
    · subst s_b_dest
      obtain rfl := V4.list_inj (h_dest.inj h_a rfl)
      obtain rfl := V4.list_inj (h_dest.inj h_b rfl)
      exact transferL ((R.nil _).addW h_dest.has r_dest .nil) (.p rfl (.p rfl (.p rfl .nil))) (glm_vec4_mulsub_run_a_b _) (DT.val_done _) rfl rfl
    · obtain rfl := V4.list_inj (h_dest.inj h_a rfl)
      exact transferL (((R.nil _).addW h_dest.has r_dest .nil).addR h_b.has (.cons s_b_dest .nil)) (.p rfl (.p rfl (.p rfl .nil))) (glm_vec4_mulsub_run_a _ _) (DT.val_done _) rfl rfl
  · rcases s_b_dest with s_b_dest | s_b_dest
    · subst s_b_dest
      obtain rfl := V4.list_inj (h_dest.inj h_b rfl)
      exact transferL (((R.nil _).addW h_dest.has r_dest .nil).addR h_a.has (.cons s_a_dest .nil)) (.p rfl (.p rfl (.p rfl .nil))) (glm_vec4_mulsub_run_b _ _) (DT.val_done _) rfl rfl
    · exact transferL ((((R.nil _).addW h_dest.has r_dest .nil).addR h_b.has (.cons s_b_dest .nil)).addR h_a.has (.skip (.cons s_a_dest .nil))) (.p rfl (.p rfl (.p rfl .nil))) (glm_vec4_mulsub_run _ _ _) (DT.val_done _) rfl rfl
example (dest : V4 α) : let mem : Mem α := [⟨true, dest.list.map .f⟩]
    Holds mem (0, 0) dest.list ∧ Holds mem (0, 0) dest.list ∧ Holds mem (0, 0) dest.list ∧ Room mem (0, 0) 4 ∧ (((0, 0) : Ptr) = (0, 0) ∨ Apart (0, 0) 4 (0, 0) 4) ∧ (((0, 0) : Ptr) = (0, 0) ∨ Apart (0, 0) 4 (0, 0) 4) :=
  ⟨.block rfl, .block rfl, .block rfl, .block rfl rfl, Or.inl rfl, Or.inl rfl⟩

theorem C55_vec4_mulsubs {mem : Mem α} {aP destP : Ptr} {a : V4 α} (s : α) {dest : V4 α} (h_a : Holds mem aP a.list) (h_dest : Holds mem destP dest.list) (r_dest : Room mem destP 4) (s_a_dest : aP = destP ∨ Apart aP 4 destP 4) :
    C.glm_vec4_mulsubs.run mem [aP.val, .f s, destP.val] =
      some (none, writes mem [(destP, (Cglm.glm_vec4_mulsubs a s dest).list.map .f)]) := by
  rcases s_a_dest with s_a_dest | s_a_dest
  · subst s_a_dest
    obtain rfl := V4.list_inj (h_dest.inj h_a rfl)
    exact transferL ((R.nil _).addW h_dest.has r_dest .nil) (.p rfl (.f (.p rfl .nil))) (glm_vec4_mulsubs_run_a _ _) (DT.val_done _) rfl rfl
  · exact transferL (((R.nil _).addW h_dest.has r_dest .nil).addR h_a.has (.cons s_a_dest .nil)) (.p rfl (.f (.p rfl .nil))) (glm_vec4_mulsubs_run _ _ _) (DT.val_done _) rfl rfl
example (dest : V4 α) : let mem : Mem α := [⟨true, dest.list.map .f⟩]
    Holds mem (0, 0) dest.list ∧ Holds mem (0, 0) dest.list ∧ Room mem (0, 0) 4 ∧ (((0, 0) : Ptr) = (0, 0) ∨ Apart (0, 0) 4 (0, 0) 4) :=
  ⟨.block rfl, .block rfl, .block rfl rfl, Or.inl rfl⟩

theorem C55_vec4_maxsub {mem : Mem α} {aP bP destP : Ptr} {a : V4 α} {b : V4 α} {dest : V4 α} (h_a : Holds mem aP a.list) (h_b : Holds mem bP b.list) (h_dest : Holds mem destP dest.list) (r_dest : Room mem destP 4) (s_a_dest : aP = destP ∨ Apart aP 4 destP 4) (s_b_dest : bP = destP ∨ Apart bP 4 destP 4) :
    C.glm_vec4_maxsub.run mem [aP.val, bP.val, destP.val] =
      some (none, writes mem [(destP, (Cglm.glm_vec4_maxsub a b dest).list.map .f)]) := by
  rcases s_a_dest with s_a_dest | s_a_dest
  · subst s_a_dest
    rcases s_b_dest with s_b_dest | s_b_dest
    · subst s_b_dest
      obtain rfl := V4.list_inj (h_dest.inj h_a rfl)
      obtain rfl := V4.list_inj (h_dest.inj h_b rfl)
      exact transferL ((R.nil _).addW h_dest.has r_dest .nil) (.p rfl (.p rfl (.p rfl .nil))) (glm_vec4_maxsub_run_a_b _) (DT.val_done _) rfl rfl
    · obtain rfl := V4.list_inj (h_dest.inj h_a rfl)
      exact transferL (((R.nil _).addW h_dest.has r_dest .nil).addR h_b.has (.cons s_b_dest .nil)) (.p rfl (.p rfl (.p rfl .nil))) (glm_vec4_maxsub_run_a _ _) (DT.val_done _) rfl rfl
  · rcases s_b_dest with s_b_dest | s_b_dest
    · subst s_b_dest
      obtain rfl := V4.list_inj (h_dest.inj h_b rfl)
      exact transferL (((R.nil _).addW h_dest.has r_dest .nil).addR h_a.has (.cons s_a_dest .nil)) (.p rfl (.p rfl (.p rfl .nil))) (glm_vec4_maxsub_run_b _ _) (DT.val_done _) rfl rfl
    · exact transferL ((((R.nil _).addW h_dest.has r_dest .nil).addR h_b.has (.cons s_b_dest .nil)).addR h_a.has (.skip (.cons s_a_dest .nil))) (.p rfl (.p rfl (.p rfl .nil))) (glm_vec4_maxsub_run _ _ _) (DT.val_done _) rfl rfl
example (dest : V4 α) : let mem : Mem α := [⟨true, dest.list.map .f⟩]
    Holds mem (0, 0) dest.list ∧ Holds mem (0, 0) dest.list ∧ Holds mem (0, 0) dest.list ∧ Room mem (0, 0) 4 ∧ (((0, 0) : Ptr) = (0, 0) ∨ Apart (0, 0) 4 (0, 0) 4) ∧ (((0, 0) : Ptr) = (0, 0) ∨ Apart (0, 0) 4 (0, 0) 4) :=
  ⟨.block rfl, .block rfl, .block rfl, .block rfl rfl, Or.inl rfl, Or.inl rfl⟩

theorem C55_vec4_minsub {mem : Mem α} {aP bP destP : Ptr} {a : V4 α} {b : V4 α} {dest : V4 α} (h_a : Holds mem aP a.list) (h_b : Holds mem bP b.list) (h_dest : Holds mem destP dest.list) (r_dest : Room mem destP 4) (s_a_dest : aP = destP ∨ Apart aP 4 destP 4) (s_b_dest : bP = destP ∨ Apart bP 4 destP 4) :
    C.glm_vec4_minsub.run mem [aP.val, bP.val, destP.val] =
      some (none, writes mem [(destP, (Cglm.glm_vec4_minsub a b dest).list.map .f)]) := by
  rcases s_a_dest with s_a_dest | s_a_dest
  · subst s_a_dest
    rcases s_b_dest with s_b_dest | s_b_dest
    · subst s_b_dest
      obtain rfl := V4.list_inj (h_dest.inj h_a rfl)
      obtain rfl := V4.list_inj (h_dest.inj h_b rfl)
      exact transferL ((R.nil _).addW h_dest.has r_dest .nil) (.p rfl (.p rfl (.p rfl .nil))) (glm_vec4_minsub_run_a_b _) (DT.val_done _) rfl rfl
    · obtain rfl := V4.list_inj (h_dest.inj h_a rfl)
      exact transferL (((R.nil _).addW h_dest.has r_dest .nil).addR h_b.has (.cons s_b_dest .nil)) (.p rfl (.p rfl (.p rfl .nil))) (glm_vec4_minsub_run_a _ _) (DT.val_done _) rfl rfl
  · rcases s_b_dest with s_b_dest | s_b_dest
    · subst s_b_dest
      obtain rfl := V4.list_inj (h_dest.inj h_b rfl)
      exact transferL (((R.nil _).addW h_dest.has r_dest .nil).addR h_a.has (.cons s_a_dest .nil)) (.p rfl (.p rfl (.p rfl .nil))) (glm_vec4_minsub_run_b _ _) (DT.val_done _) rfl rfl
    · exact transferL ((((R.nil _).addW h_dest.has r_dest .nil).addR h_b.has (.cons s_b_dest .nil)).addR h_a.has (.skip (.cons s_a_dest .nil))) (.p rfl (.p rfl (.p rfl .nil))) (glm_vec4_minsub_run _ _ _) (DT.val_done _) rfl rfl
example (dest : V4 α) : let mem : Mem α := [⟨true, dest.list.map .f⟩]
    Holds mem (0, 0) dest.list ∧ Holds mem (0, 0) dest.list ∧ Holds mem (0, 0) dest.list ∧ Room mem (0, 0) 4 ∧ (((0, 0) : Ptr) = (0, 0) ∨ Apart (0, 0) 4 (0, 0) 4) ∧ (((0, 0) : Ptr) = (0, 0) ∨ Apart (0, 0) 4 (0, 0) 4) :=
  ⟨.block rfl, .block rfl, .block rfl, .block rfl rfl, Or.inl rfl, Or.inl rfl⟩

theorem C55_vec4_negate_to {mem : Mem α} {vP destP : Ptr} {v : V4 α} (h_v : Holds mem vP v.list) (r_dest : Room mem destP 4) (s_v_dest : vP = destP ∨ Apart vP 4 destP 4) :
    C.glm_vec4_negate_to.run mem [vP.val, destP.val] =
      some (none, writes mem [(destP, (Cglm.glm_vec4_negate_to v).list.map .f)]) := by
  rcases s_v_dest with s_v_dest | s_v_dest
  · subst s_v_dest
    exact transferL ((R.nil _).addW h_v.has r_dest .nil) (.p rfl (.p rfl .nil)) (glm_vec4_negate_to_run_v _) (DT.val_done _) rfl rfl
  · exact transferL (((R.nil _).addW r_dest.has r_dest .nil).addR h_v.has (.cons s_v_dest .nil)) (.p rfl (.p rfl .nil)) (glm_vec4_negate_to_run _) (DT.val_done _) rfl rfl
example (v : V4 α) : let mem : Mem α := [⟨true, v.list.map .f⟩]
    Holds mem (0, 0) v.list ∧ Room mem (0, 0) 4 ∧ (((0, 0) : Ptr) = (0, 0) ∨ Apart (0, 0) 4 (0, 0) 4) :=
  ⟨.block rfl, .block rfl rfl, Or.inl rfl⟩

theorem C55_vec4_normalize_to {mem : Mem α} {vP destP : Ptr} {v : V4 α} (h_v : Holds mem vP v.list) (r_dest : Room mem destP 4) (s_v_dest : vP = destP ∨ Apart vP 4 destP 4) :
    C.glm_vec4_normalize_to.run mem [vP.val, destP.val] =
      some (none, writes mem [(destP, (Cglm.glm_vec4_normalize_to v).list.map .f)]) := by
  rcases s_v_dest with s_v_dest | s_v_dest
  · subst s_v_dest
    exact transferL ((R.nil _).addW h_v.has r_dest .nil) (.p rfl (.p rfl .nil)) (glm_vec4_normalize_to_run_v _) (DT.val_map_eq (glm_vec4_normalize_to_dt_val _) rfl) rfl rfl
  · exact transferL (((R.nil _).addW r_dest.has r_dest .nil).addR h_v.has (.cons s_v_dest .nil)) (.p rfl (.p rfl .nil)) (glm_vec4_normalize_to_run _) (DT.val_map_eq (glm_vec4_normalize_to_dt_val _) rfl) rfl rfl
example (v : V4 α) : let mem : Mem α := [⟨true, v.list.map .f⟩]
    Holds mem (0, 0) v.list ∧ Room mem (0, 0) 4 ∧ (((0, 0) : Ptr) = (0, 0) ∨ Apart (0, 0) 4 (0, 0) 4) :=
  ⟨.block rfl, .block rfl rfl, Or.inl rfl⟩

theorem C55_vec4_maxv {mem : Mem α} {aP bP destP : Ptr} {a : V4 α} {b : V4 α} (h_a : Holds mem aP a.list) (h_b : Holds mem bP b.list) (r_dest : Room mem destP 4) (s_a_dest : aP = destP ∨ Apart aP 4 destP 4) (s_b_dest : bP = destP ∨ Apart bP 4 destP 4) :
    C.glm_vec4_maxv.run mem [aP.val, bP.val, destP.val] =
      some (none, writes mem [(destP, (Cglm.glm_vec4_maxv a b).list.map .f)]) := by
  rcases s_a_dest with s_a_dest | s_a_dest
  · subst s_a_dest
    rcases s_b_dest with s_b_dest | s_b_dest
    · subst s_b_dest
      obtain rfl := V4.list_inj (h_a.inj h_b rfl)
      exact transferL ((R.nil _).addW h_a.has r_dest .nil) (.p rfl (.p rfl (.p rfl .nil))) (glm_vec4_maxv_run_a_b _) (DT.val_done _) rfl rfl
    · exact transferL (((R.nil _).addW h_a.has r_dest .nil).addR h_b.has (.cons s_b_dest .nil)) (.p rfl (.p rfl (.p rfl .nil))) (glm_vec4_maxv_run_a _ _) (DT.val_done _) rfl rfl
  · rcases s_b_dest with s_b_dest | s_b_dest
    · subst s_b_dest
      exact transferL (((R.nil _).addW h_b.has r_dest .nil).addR h_a.has (.cons s_a_dest .nil)) (.p rfl (.p rfl (.p rfl .nil))) (glm_vec4_maxv_run_b _ _) (DT.val_done _) rfl rfl
    · exact transferL ((((R.nil _).addW r_dest.has r_dest .nil).addR h_b.has (.cons s_b_dest .nil)).addR h_a.has (.skip (.cons s_a_dest .nil))) (.p rfl (.p rfl (.p rfl .nil))) (glm_vec4_maxv_run _ _) (DT.val_done _) rfl rfl
example (a : V4 α) : let mem : Mem α := [⟨true, a.list.map .f⟩]
    Holds mem (0, 0) a.list ∧ Holds mem (0, 0) a.list ∧ Room mem (0, 0) 4 ∧ (((0, 0) : Ptr) = (0, 0) ∨ Apart (0, 0) 4 (0, 0) 4) ∧ (((0, 0) : Ptr) = (0, 0) ∨ Apart (0, 0) 4 (0, 0) 4) :=
  ⟨.block rfl, .block rfl, .block rfl rfl, Or.inl rfl, Or.inl rfl⟩

theorem C55_vec4_minv {mem : Mem α} {aP bP destP : Ptr} {a : V4 α} {b : V4 α} (h_a : Holds mem aP a.list) (h_b : Holds mem bP b.list) (r_dest : Room mem destP 4) (s_a_dest : aP = destP ∨ Apart aP 4 destP 4) (s_b_dest : bP = destP ∨ Apart bP 4 destP 4) :
    C.glm_vec4_minv.run mem [aP.val, bP.val, destP.val] =
      some (none, writes mem [(destP, (Cglm.glm_vec4_minv a b).list.map .f)]) := by
  rcases s_a_dest with s_a_dest | s_a_dest
  · subst s_a_dest
    rcases s_b_dest with s_b_dest | s_b_dest
    · subst s_b_dest
      obtain rfl := V4.list_inj (h_a.inj h_b rfl)
      exact transferL ((R.nil _).addW h_a.has r_dest .nil) (.p rfl (.p rfl (.p rfl .nil))) (glm_vec4_minv_run_a_b _) (DT.val_done _) rfl rfl
    · exact transferL (((R.nil _).addW h_a.has r_dest .nil).addR h_b.has (.cons s_b_dest .nil)) (.p rfl (.p rfl (.p rfl .nil))) (glm_vec4_minv_run_a _ _) (DT.val_done _) rfl rfl
  · rcases s_b_dest with s_b_dest | s_b_dest
    · subst s_b_dest
      exact transferL (((R.nil _).addW h_b.has r_dest .nil).addR h_a.has (.cons s_a_dest .nil)) (.p rfl (.p rfl (.p rfl .nil))) (glm_vec4_minv_run_b _ _) (DT.val_done _) rfl rfl
    · exact transferL ((((R.nil _).addW r_dest.has r_dest .nil).addR h_b.has (.cons s_b_dest .nil)).addR h_a.has (.skip (.cons s_a_dest .nil))) (.p rfl (.p rfl (.p rfl .nil))) (glm_vec4_minv_run _ _) (DT.val_done _) rfl rfl
example (a : V4 α) : let mem : Mem α := [⟨true, a.list.map .f⟩]
    Holds mem (0, 0) a.list ∧ Holds mem (0, 0) a.list ∧ Room mem (0, 0) 4 ∧ (((0, 0) : Ptr) = (0, 0) ∨ Apart (0, 0) 4 (0, 0) 4) ∧ (((0, 0) : Ptr) = (0, 0) ∨ Apart (0, 0) 4 (0, 0) 4) :=
  ⟨.block rfl, .block rfl, .block rfl rfl, Or.inl rfl, Or.inl rfl⟩

theorem C55_vec4_lerp {mem : Mem α} {frmP toP destP : Ptr} {frm : V4 α} {«to» : V4 α} (t : α) (h_frm : Holds mem frmP frm.list) (h_to : Holds mem toP «to».list) (r_dest : Room mem destP 4) (s_frm_dest : frmP = destP ∨ Apart frmP 4 destP 4) (s_to_dest : toP = destP ∨ Apart toP 4 destP 4) :
    C.glm_vec4_lerp.run mem [frmP.val, toP.val, .f t, destP.val] =
      some (none, writes mem [(destP, (Cglm.glm_vec4_lerp frm «to» t).list.map .f)]) := by
  rcases s_frm_dest with s_frm_dest | s_frm_dest
  · subst s_frm_dest
    rcases s_to_dest with s_to_dest | s_to_dest
    · subst s_to_dest
      obtain rfl := V4.list_inj (h_frm.inj h_to rfl)
      exact transferL ((R.nil _).addW h_frm.has r_dest .nil) (.p rfl (.p rfl (.f (.p rfl .nil)))) (glm_vec4_lerp_run_from_to _ _) (DT.val_done _) rfl rfl
    · exact transferL (((R.nil _).addW h_frm.has r_dest .nil).addR h_to.has (.cons s_to_dest .nil)) (.p rfl (.p rfl (.f (.p rfl .nil)))) (glm_vec4_lerp_run_from _ _ _) (DT.val_done _) rfl rfl
  · rcases s_to_dest with s_to_dest | s_to_dest
    · subst s_to_dest
      exact transferL (((R.nil _).addW h_to.has r_dest .nil).addR h_frm.has (.cons s_frm_dest .nil)) (.p rfl (.p rfl (.f (.p rfl .nil)))) (glm_vec4_lerp_run_to _ _ _) (DT.val_done _) rfl rfl
    · exact transferL ((((R.nil _).addW r_dest.has r_dest .nil).addR h_to.has (.cons s_to_dest .nil)).addR h_frm.has (.skip (.cons s_frm_dest .nil))) (.p rfl (.p rfl (.f (.p rfl .nil)))) (glm_vec4_lerp_run _ _ _) (DT.val_done _) rfl rfl
example (frm : V4 α) : let mem : Mem α := [⟨true, frm.list.map .f⟩]
    Holds mem (0, 0) frm.list ∧ Holds mem (0, 0) frm.list ∧ Room mem (0, 0) 4 ∧ (((0, 0) : Ptr) = (0, 0) ∨ Apart (0, 0) 4 (0, 0) 4) ∧ (((0, 0) : Ptr) = (0, 0) ∨ Apart (0, 0) 4 (0, 0) 4) :=
  ⟨.block rfl, .block rfl, .block rfl rfl, Or.inl rfl, Or.inl rfl⟩

theorem C55_vec4_lerpc {mem : Mem α} {frmP toP destP : Ptr} {frm : V4 α} {«to» : V4 α} (t : α) (h_frm : Holds mem frmP frm.list) (h_to : Holds mem toP «to».list) (r_dest : Room mem destP 4) (s_frm_dest : frmP = destP ∨ Apart frmP 4 destP 4) (s_to_dest : toP = destP ∨ Apart toP 4 destP 4) :
    C.glm_vec4_lerpc.run mem [frmP.val, toP.val, .f t, destP.val] =
      some (none, writes mem [(destP, (Cglm.glm_vec4_lerpc frm «to» t).list.map .f)]) := by
  rcases s_frm_dest with s_frm_dest | s_frm_dest
  · subst s_frm_dest
    rcases s_to_dest with s_to_dest | s_to_dest
    · subst s_to_dest
      obtain rfl := V4.list_inj (h_frm.inj h_to rfl)
      exact transferL ((R.nil _).addW h_frm.has r_dest .nil) (.p rfl (.p rfl (.f (.p rfl .nil)))) (glm_vec4_lerpc_run_from_to _ _) (DT.val_done _) rfl rfl
    · exact transferL (((R.nil _).addW h_frm.has r_dest .nil).addR h_to.has (.cons s_to_dest .nil)) (.p rfl (.p rfl (.f (.p rfl .nil)))) (glm_vec4_lerpc_run_from _ _ _) (DT.val_done _) rfl rfl
  · rcases s_to_dest with s_to_dest | s_to_dest
    · subst s_to_dest
      exact transferL (((R.nil _).addW h_to.has r_dest .nil).addR h_frm.has (.cons s_frm_dest .nil)) (.p rfl (.p rfl (.f (.p rfl .nil)))) (glm_vec4_lerpc_run_to _ _ _) (DT.val_done _) rfl rfl
    · exact transferL ((((R.nil _).addW r_dest.has r_dest .nil).addR h_to.has (.cons s_to_dest .nil)).addR h_frm.has (.skip (.cons s_frm_dest .nil))) (.p rfl (.p rfl (.f (.p rfl .nil)))) (glm_vec4_lerpc_run _ _ _) (DT.val_done _) rfl rfl
example (frm : V4 α) : let mem : Mem α := [⟨true, frm.list.map .f⟩]
    Holds mem (0, 0) frm.list ∧ Holds mem (0, 0) frm.list ∧ Room mem (0, 0) 4 ∧ (((0, 0) : Ptr) = (0, 0) ∨ Apart (0, 0) 4 (0, 0) 4) ∧ (((0, 0) : Ptr) = (0, 0) ∨ Apart (0, 0) 4 (0, 0) 4) :=
  ⟨.block rfl, .block rfl, .block rfl rfl, Or.inl rfl, Or.inl rfl⟩

theorem C55_vec4_mix {mem : Mem α} {frmP toP destP : Ptr} {frm : V4 α} {«to» : V4 α} (t : α) (h_frm : Holds mem frmP frm.list) (h_to : Holds mem toP «to».list) (r_dest : Room mem destP 4) (s_frm_dest : frmP = destP ∨ Apart frmP 4 destP 4) (s_to_dest : toP = destP ∨ Apart toP 4 destP 4) :
    C.glm_vec4_mix.run mem [frmP.val, toP.val, .f t, destP.val] =
      some (none, writes mem [(destP, (Cglm.glm_vec4_mix frm «to» t).list.map .f)]) := by
  rcases s_frm_dest with s_frm_dest | s_frm_dest
  · subst s_frm_dest
    rcases s_to_dest with s_to_dest | s_to_dest
    · subst s_to_dest
      obtain rfl := V4.list_inj (h_frm.inj h_to rfl)
      exact transferL ((R.nil _).addW h_frm.has r_dest .nil) (.p rfl (.p rfl (.f (.p rfl .nil)))) (glm_vec4_mix_run_from_to _ _) (DT.val_done _) rfl rfl
    · exact transferL (((R.nil _).addW h_frm.has r_dest .nil).addR h_to.has (.cons s_to_dest .nil)) (.p rfl (.p rfl (.f (.p rfl .nil)))) (glm_vec4_mix_run_from _ _ _) (DT.val_done _) rfl rfl
  · rcases s_to_dest with s_to_dest | s_to_dest
    · subst s_to_dest
      exact transferL (((R.nil _).addW h_to.has r_dest .nil).addR h_frm.has (.cons s_frm_dest .nil)) (.p rfl (.p rfl (.f (.p rfl .nil)))) (glm_vec4_mix_run_to _ _ _) (DT.val_done _) rfl rfl
    · exact transferL ((((R.nil _).addW r_dest.has r_dest .nil).addR h_to.has (.cons s_to_dest .nil)).addR h_frm.has (.skip (.cons s_frm_dest .nil))) (.p rfl (.p rfl (.f (.p rfl .nil)))) (glm_vec4_mix_run _ _ _) (DT.val_done _) rfl rfl
example (frm : V4 α) : let mem : Mem α := [⟨true, frm.list.map .f⟩]
    Holds mem (0, 0) frm.list ∧ Holds mem (0, 0) frm.list ∧ Room mem (0, 0) 4 ∧ (((0, 0) : Ptr) = (0, 0) ∨ Apart (0, 0) 4 (0, 0) 4) ∧ (((0, 0) : Ptr) = (0, 0) ∨ Apart (0, 0) 4 (0, 0) 4) :=
  ⟨.block rfl, .block rfl, .block rfl rfl, Or.inl rfl, Or.inl rfl⟩

theorem C55_vec4_mixc {mem : Mem α} {frmP toP destP : Ptr} {frm : V4 α} {«to» : V4 α} (t : α) (h_frm : Holds mem frmP frm.list) (h_to : Holds mem toP «to».list) (r_dest : Room mem destP 4) (s_frm_dest : frmP = destP ∨ Apart frmP 4 destP 4) (s_to_dest : toP = destP ∨ Apart toP 4 destP 4) :
    C.glm_vec4_mixc.run mem [frmP.val, toP.val, .f t, destP.val] =
      some (none, writes mem [(destP, (Cglm.glm_vec4_mixc frm «to» t).list.map .f)]) := by
  rcases s_frm_dest with s_frm_dest | s_frm_dest
  · subst s_frm_dest
    rcases s_to_dest with s_to_dest | s_to_dest
    · subst s_to_dest
      obtain rfl := V4.list_inj (h_frm.inj h_to rfl)
      exact transferL ((R.nil _).addW h_frm.has r_dest .nil) (.p rfl (.p rfl (.f (.p rfl .nil)))) (glm_vec4_mixc_run_from_to _ _) (DT.val_done _) rfl rfl
    · exact transferL (((R.nil _).addW h_frm.has r_dest .nil).addR h_to.has (.cons s_to_dest .nil)) (.p rfl (.p rfl (.f (.p rfl .nil)))) (glm_vec4_mixc_run_from _ _ _) (DT.val_done _) rfl rfl
  · rcases s_to_dest with s_to_dest | s_to_dest
    · subst s_to_dest
      exact transferL (((R.nil _).addW h_to.has r_dest .nil).addR h_frm.has (.cons s_frm_dest .nil)) (.p rfl (.p rfl (.f (.p rfl .nil)))) (glm_vec4_mixc_run_to _ _ _) (DT.val_done _) rfl rfl
    · exact transferL ((((R.nil _).addW r_dest.has r_dest .nil).addR h_to.has (.cons s_to_dest .nil)).addR h_frm.has (.skip (.cons s_frm_dest .nil))) (.p rfl (.p rfl (.f (.p rfl .nil)))) (glm_vec4_mixc_run _ _ _) (DT.val_done _) rfl rfl
example (frm : V4 α) : let mem : Mem α := [⟨true, frm.list.map .f⟩]
    Holds mem (0, 0) frm.list ∧ Holds mem (0, 0) frm.list ∧ Room mem (0, 0) 4 ∧ (((0, 0) : Ptr) = (0, 0) ∨ Apart (0, 0) 4 (0, 0) 4) ∧ (((0, 0) : Ptr) = (0, 0) ∨ Apart (0, 0) 4 (0, 0) 4) :=
  ⟨.block rfl, .block rfl, .block rfl rfl, Or.inl rfl, Or.inl rfl⟩

theorem C55_vec4_step {mem : Mem α} {edgeP xP destP : Ptr} {edge : V4 α} {x : V4 α} (h_edge : Holds mem edgeP edge.list) (h_x : Holds mem xP x.list) (r_dest : Room mem destP 4) (s_edge_dest : edgeP = destP ∨ Apart edgeP 4 destP 4) (s_x_dest : xP = destP ∨ Apart xP 4 destP 4) :
    C.glm_vec4_step.run mem [edgeP.val, xP.val, destP.val] =
      some (none, writes mem [(destP, (Cglm.glm_vec4_step edge x).list.map .f)]) := by
  rcases s_edge_dest with s_edge_dest | s_edge_dest
  · subst s_edge_dest
    rcases s_x_dest with s_x_dest | s_x_dest
    · subst s_x_dest
      obtain rfl := V4.list_inj (h_edge.inj h_x rfl)
      exact transferL ((R.nil _).addW h_edge.has r_dest .nil) (.p rfl (.p rfl (.p rfl .nil))) (glm_vec4_step_run_edge_x _) (DT.val_done _) rfl rfl
    · exact transferL (((R.nil _).addW h_edge.has r_dest .nil).addR h_x.has (.cons s_x_dest .nil)) (.p rfl (.p rfl (.p rfl .nil))) (glm_vec4_step_run_edge _ _) (DT.val_done _) rfl rfl
  · rcases s_x_dest with s_x_dest | s_x_dest
    · subst s_x_dest
      exact transferL (((R.nil _).addW h_x.has r_dest .nil).addR h_edge.has (.cons s_edge_dest .nil)) (.p rfl (.p rfl (.p rfl .nil))) (glm_vec4_step_run_x _ _) (DT.val_done _) rfl rfl
    · exact transferL ((((R.nil _).addW r_dest.has r_dest .nil).addR h_x.has (.cons s_x_dest .nil)).addR h_edge.has (.skip (.cons s_edge_dest .nil))) (.p rfl (.p rfl (.p rfl .nil))) (glm_vec4_step_run _ _) (DT.val_done _) rfl rfl
example (edge : V4 α) : let mem : Mem α := [⟨true, edge.list.map .f⟩]
    Holds mem (0, 0) edge.list ∧ Holds mem (0, 0) edge.list ∧ Room mem (0, 0) 4 ∧ (((0, 0) : Ptr) = (0, 0) ∨ Apart (0, 0) 4 (0, 0) 4) ∧ (((0, 0) : Ptr) = (0, 0) ∨ Apart (0, 0) 4 (0, 0) 4) :=
  ⟨.block rfl, .block rfl, .block rfl rfl, Or.inl rfl, Or.inl rfl⟩

theorem C55_vec4_smoothstep_uni {mem : Mem α} {xP destP : Ptr} (edge0 : α) (edge1 : α) {x : V4 α} (h_x : Holds mem xP x.list) (r_dest : Room mem destP 4) (s_x_dest : xP = destP ∨ Apart xP 4 destP 4) :
    C.glm_vec4_smoothstep_uni.run mem [.f edge0, .f edge1, xP.val, destP.val] =
      some (none, writes mem [(destP, (Cglm.glm_vec4_smoothstep_uni edge0 edge1 x).list.map .f)]) := by
  rcases s_x_dest with s_x_dest | s_x_dest
  · subst s_x_dest
    exact transferL ((R.nil _).addW h_x.has r_dest .nil) (.f (.f (.p rfl (.p rfl .nil)))) (glm_vec4_smoothstep_uni_run_x _ _ _) (DT.val_done _) rfl rfl
  · exact transferL (((R.nil _).addW r_dest.has r_dest .nil).addR h_x.has (.cons s_x_dest .nil)) (.f (.f (.p rfl (.p rfl .nil)))) (glm_vec4_smoothstep_uni_run _ _ _) (DT.val_done _) rfl rfl
example (x : V4 α) : let mem : Mem α := [⟨true, x.list.map .f⟩]
    Holds mem (0, 0) x.list ∧ Room mem (0, 0) 4 ∧ (((0, 0) : Ptr) = (0, 0) ∨ Apart (0, 0) 4 (0, 0) 4) :=
  ⟨.block rfl, .block rfl rfl, Or.inl rfl⟩

theorem C55_vec4_smoothstep {mem : Mem α} {edge0P edge1P xP destP : Ptr} {edge0 : V4 α} {edge1 : V4 α} {x : V4 α} (h_edge0 : Holds mem edge0P edge0.list) (h_edge1 : Holds mem edge1P edge1.list) (h_x : Holds mem xP x.list) (r_dest : Room mem destP 4) (s_edge0_dest : edge0P = destP ∨ Apart edge0P 4 destP 4) (s_edge1_dest : edge1P = destP ∨ Apart edge1P 4 destP 4) (s_x_dest : xP = destP ∨ Apart xP 4 destP 4) :
    C.glm_vec4_smoothstep.run mem [edge0P.val, edge1P.val, xP.val, destP.val] =
      some (none, writes mem [(destP, (Cglm.glm_vec4_smoothstep edge0 edge1 x).list.map .f)]) := by
  rcases s_edge0_dest with s_edge0_dest | s_edge0_dest
  · subst s_edge0_dest
    rcases s_edge1_dest with s_edge1_dest | s_edge1_dest
    · subst s_edge1_dest
      rcases s_x_dest with s_x_dest | s_x_dest
      · subst s_x_dest
        obtain rfl := V4.list_inj (h_edge0.inj h_edge1 rfl)
        obtain rfl := V4.list_inj (h_edge0.inj h_x rfl)
        exact transferL ((R.nil _).addW h_edge0.has r_dest .nil) (.p rfl (.p rfl (.p rfl (.p rfl .nil)))) (glm_vec4_smoothstep_run_edge0_edge1_x _) (DT.val_done _) rfl rfl
      · obtain rfl := V4.list_inj (h_edge0.inj h_edge1 rfl)
        exact transferL (((R.nil _).addW h_edge0.has r_dest .nil).addR h_x.has (.cons s_x_dest .nil)) (.p rfl (.p rfl (.p rfl (.p rfl .nil)))) (glm_vec4_smoothstep_run_edge0_edge1 _ _) (DT.val_done _) rfl rfl
    · rcases s_x_dest with s_x_dest | s_x_dest
      · subst s_x_dest
        obtain rfl := V4.list_inj (h_edge0.inj h_x rfl)
        exact transferL (((R.nil _).addW h_edge0.has r_dest .nil).addR h_edge1.has (.cons s_edge1_dest .nil)) (.p rfl (.p rfl (.p rfl (.p rfl .nil)))) (glm_vec4_smoothstep_run_edge0_x _ _) (DT.val_done _) rfl rfl
      · exact transferL ((((R.nil _).addW h_edge0.has r_dest .nil).addR h_x.has (.cons s_x_dest .nil)).addR h_edge1.has (.skip (.cons s_edge1_dest .nil))) (.p rfl (.p rfl (.p rfl (.p rfl .nil)))) (glm_vec4_smoothstep_run_edge0 _ _ _) (DT.val_done _) rfl rfl
  · rcases s_edge1_dest with s_edge1_dest | s_edge1_dest
    · subst s_edge1_dest
      rcases s_x_dest with s_x_dest | s_x_dest
      · subst s_x_dest
        obtain rfl := V4.list_inj (h_edge1.inj h_x rfl)
        exact transferL (((R.nil _).addW h_edge1.has r_dest .nil).addR h_edge0.has (.cons s_edge0_dest .nil)) (.p rfl (.p rfl (.p rfl (.p rfl .nil)))) (glm_vec4_smoothstep_run_edge1_x _ _) (DT.val_done _) rfl rfl
      · exact transferL ((((R.nil _).addW h_edge1.has r_dest .nil).addR h_x.has (.cons s_x_dest .nil)).addR h_edge0.has (.skip (.cons s_edge0_dest .nil))) (.p rfl (.p rfl (.p rfl (.p rfl .nil)))) (glm_vec4_smoothstep_run_edge1 _ _ _) (DT.val_done _) rfl rfl
    · rcases s_x_dest with s_x_dest | s_x_dest
      · subst s_x_dest
        exact transferL ((((R.nil _).addW h_x.has r_dest .nil).addR h_edge1.has (.cons s_edge1_dest .nil)).addR h_edge0.has (.skip (.cons s_edge0_dest .nil))) (.p rfl (.p rfl (.p rfl (.p rfl .nil)))) (glm_vec4_smoothstep_run_x _ _ _) (DT.val_done _) rfl rfl
      · exact transferL (((((R.nil _).addW r_dest.has r_dest .nil).addR h_x.has (.cons s_x_dest .nil)).addR h_edge1.has (.skip (.cons s_edge1_dest .nil))).addR h_edge0.has (.skip (.skip (.cons s_edge0_dest .nil)))) (.p rfl (.p rfl (.p rfl (.p rfl .nil)))) (glm_vec4_smoothstep_run _ _ _) (DT.val_done _) rfl rfl
example (edge0 : V4 α) : let mem : Mem α := [⟨true, edge0.list.map .f⟩]
    Holds mem (0, 0) edge0.list ∧ Holds mem (0, 0) edge0.list ∧ Holds mem (0, 0) edge0.list ∧ Room mem (0, 0) 4 ∧ (((0, 0) : Ptr) = (0, 0) ∨ Apart (0, 0) 4 (0, 0) 4) ∧ (((0, 0) : Ptr) = (0, 0) ∨ Apart (0, 0) 4 (0, 0) 4) ∧ (((0, 0) : Ptr) = (0, 0) ∨ Apart (0, 0) 4 (0, 0) 4) :=
  ⟨.block rfl, .block rfl, .block rfl, .block rfl rfl, Or.inl rfl, Or.inl rfl, Or.inl rfl⟩

theorem C55_vec4_smoothinterp {mem : Mem α} {frmP toP destP : Ptr} {frm : V4 α} {«to» : V4 α} (t : α) (h_frm : Holds mem frmP frm.list) (h_to : Holds mem toP «to».list) (r_dest : Room mem destP 4) (s_frm_dest : frmP = destP ∨ Apart frmP 4 destP 4) (s_to_dest : toP = destP ∨ Apart toP 4 destP 4) :
    C.glm_vec4_smoothinterp.run mem [frmP.val, toP.val, .f t, destP.val] =
      some (none, writes mem [(destP, (Cglm.glm_vec4_smoothinterp frm «to» t).list.map .f)]) := by
  rcases s_frm_dest with s_frm_dest | s_frm_dest
  · subst s_frm_dest
    rcases s_to_dest with s_to_dest | s_to_dest
    · subst s_to_dest
      obtain rfl := V4.list_inj (h_frm.inj h_to rfl)
      exact transferL ((R.nil _).addW h_frm.has r_dest .nil) (.p rfl (.p rfl (.f (.p rfl .nil)))) (glm_vec4_smoothinterp_run_from_to _ _) (DT.val_done _) rfl rfl
    · exact transferL (((R.nil _).addW h_frm.has r_dest .nil).addR h_to.has (.cons s_to_dest .nil)) (.p rfl (.p rfl (.f (.p rfl .nil)))) (glm_vec4_smoothinterp_run_from _ _ _) (DT.val_done _) rfl rfl
  · rcases s_to_dest with s_to_dest | s_to_dest
    · subst s_to_dest
      exact transferL (((R.nil _).addW h_to.has r_dest .nil).addR h_frm.has (.cons s_frm_dest .nil)) (.p rfl (.p rfl (.f (.p rfl .nil)))) (glm_vec4_smoothinterp_run_to _ _ _) (DT.val_done _) rfl rfl
    · exact transferL ((((R.nil _).addW r_dest.has r_dest .nil).addR h_to.has (.cons s_to_dest .nil)).addR h_frm.has (.skip (.cons s_frm_dest .nil))) (.p rfl (.p rfl (.f (.p rfl .nil)))) (glm_vec4_smoothinterp_run _ _ _) (DT.val_done _) rfl rfl
example (frm : V4 α) : let mem : Mem α := [⟨true, frm.list.map .f⟩]
    Holds mem (0, 0) frm.list ∧ Holds mem (0, 0) frm.list ∧ Room mem (0, 0) 4 ∧ (((0, 0) : Ptr) = (0, 0) ∨ Apart (0, 0) 4 (0, 0) 4) ∧ (((0, 0) : Ptr) = (0, 0) ∨ Apart (0, 0) 4 (0, 0) 4) :=
  ⟨.block rfl, .block rfl, .block rfl rfl, Or.inl rfl, Or.inl rfl⟩

theorem C55_vec4_smoothinterpc {mem : Mem α} {frmP toP destP : Ptr} {frm : V4 α} {«to» : V4 α} (t : α) (h_frm : Holds mem frmP frm.list) (h_to : Holds mem toP «to».list) (r_dest : Room mem destP 4) (s_frm_dest : frmP = destP ∨ Apart frmP 4 destP 4) (s_to_dest : toP = destP ∨ Apart toP 4 destP 4) :
    C.glm_vec4_smoothinterpc.run mem [frmP.val, toP.val, .f t, destP.val] =
      some (none, writes mem [(destP, (Cglm.glm_vec4_smoothinterpc frm «to» t).list.map .f)]) := by
  rcases s_frm_dest with s_frm_dest | s_frm_dest
  · subst s_frm_dest
    rcases s_to_dest with s_to_dest | s_to_dest
    · subst s_to_dest
      obtain rfl := V4.list_inj (h_frm.inj h_to rfl)
      exact transferL ((R.nil _).addW h_frm.has r_dest .nil) (.p rfl (.p rfl (.f (.p rfl .nil)))) (glm_vec4_smoothinterpc_run_from_to _ _) (DT.val_done _) rfl rfl
    · exact transferL (((R.nil _).addW h_frm.has r_dest .nil).addR h_to.has (.cons s_to_dest .nil)) (.p rfl (.p rfl (.f (.p rfl .nil)))) (glm_vec4_smoothinterpc_run_from _ _ _) (DT.val_done _) rfl rfl
  · rcases s_to_dest with s_to_dest | s_to_dest
    · subst s_to_dest
      exact transferL (((R.nil _).addW h_to.has r_dest .nil).addR h_frm.has (.cons s_frm_dest .nil)) (.p rfl (.p rfl (.f (.p rfl .nil)))) (glm_vec4_smoothinterpc_run_to _ _ _) (DT.val_done _) rfl rfl
    · exact transferL ((((R.nil _).addW r_dest.has r_dest .nil).addR h_to.has (.cons s_to_dest .nil)).addR h_frm.has (.skip (.cons s_frm_dest .nil))) (.p rfl (.p rfl (.f (.p rfl .nil)))) (glm_vec4_smoothinterpc_run _ _ _) (DT.val_done _) rfl rfl
example (frm : V4 α) : let mem : Mem α := [⟨true, frm.list.map .f⟩]
    Holds mem (0, 0) frm.list ∧ Holds mem (0, 0) frm.list ∧ Room mem (0, 0) 4 ∧ (((0, 0) : Ptr) = (0, 0) ∨ Apart (0, 0) 4 (0, 0) 4) ∧ (((0, 0) : Ptr) = (0, 0) ∨ Apart (0, 0) 4 (0, 0) 4) :=
  ⟨.block rfl, .block rfl, .block rfl rfl, Or.inl rfl, Or.inl rfl⟩

theorem C55_vec4_make {mem : Mem α} {srcP destP : Ptr} {src : V4 α} (h_src : Holds mem srcP src.list) (r_dest : Room mem destP 4) (s_src_dest : srcP = destP ∨ Apart srcP 4 destP 4) :
    C.glm_vec4_make.run mem [srcP.val, destP.val] =
      some (none, writes mem [(destP, (Cglm.glm_vec4_make src).list.map .f)]) := by
  rcases s_src_dest with s_src_dest | s_src_dest
  · subst s_src_dest
    exact transferL ((R.nil _).addW h_src.has r_dest .nil) (.p rfl (.p rfl .nil)) (glm_vec4_make_run_src _) (DT.val_done _) rfl rfl
  · exact transferL (((R.nil _).addW r_dest.has r_dest .nil).addR h_src.has (.cons s_src_dest .nil)) (.p rfl (.p rfl .nil)) (glm_vec4_make_run _) (DT.val_done _) rfl rfl
example (src : V4 α) : let mem : Mem α := [⟨true, src.list.map .f⟩]
    Holds mem (0, 0) src.list ∧ Room mem (0, 0) 4 ∧ (((0, 0) : Ptr) = (0, 0) ∨ Apart (0, 0) 4 (0, 0) 4) :=
  ⟨.block rfl, .block rfl rfl, Or.inl rfl⟩

theorem C55_vec4_reflect {mem : Mem α} {vP nP destP : Ptr} {v : V4 α} {n : V4 α} (h_v : Holds mem vP v.list) (h_n : Holds mem nP n.list) (r_dest : Room mem destP 4) (s_v_dest : Apart vP 4 destP 4) (s_n_dest : nP = destP ∨ Apart nP 4 destP 4) :
    C.glm_vec4_reflect.run mem [vP.val, nP.val, destP.val] =
      some (none, writes mem [(destP, (Cglm.glm_vec4_reflect v n).list.map .f)]) := by
  rcases s_n_dest with s_n_dest | s_n_dest
  · subst s_n_dest
    exact transferL (((R.nil _).addW h_n.has r_dest .nil).addR h_v.has (.cons s_v_dest .nil)) (.p rfl (.p rfl (.p rfl .nil))) (glm_vec4_reflect_run_n _ _) (DT.val_done _) rfl rfl
  · exact transferL ((((R.nil _).addW r_dest.has r_dest .nil).addR h_n.has (.cons s_n_dest .nil)).addR h_v.has (.skip (.cons s_v_dest .nil))) (.p rfl (.p rfl (.p rfl .nil))) (glm_vec4_reflect_run _ _) (DT.val_done _) rfl rfl
example (v : V4 α) (n : V4 α) : let mem : Mem α := [⟨false, v.list.map .f⟩, ⟨true, n.list.map .f⟩]
    Holds mem (0, 0) v.list ∧ Holds mem (1, 0) n.list ∧ Room mem (1, 0) 4 ∧ Apart (0, 0) 4 (1, 0) 4 ∧ (((1, 0) : Ptr) = (1, 0) ∨ Apart (1, 0) 4 (1, 0) 4) :=
  ⟨.block rfl, .block rfl, .block rfl rfl, Or.inl (by decide), Or.inl rfl⟩

theorem C55_vec4_refract {mem : Mem α} {vP nP destP : Ptr} {v : V4 α} {n : V4 α} (eta : α) (h_v : Holds mem vP v.list) (h_n : Holds mem nP n.list) (r_dest : Room mem destP 4) (s_v_dest : vP = destP ∨ Apart vP 4 destP 4) (s_n_dest : Apart nP 4 destP 4) :
    C.glm_vec4_refract.run mem [vP.val, nP.val, .f eta, destP.val] =
      some (some (.b (Cglm.glm_vec4_refract v n eta).1), writes mem [(destP, (Cglm.glm_vec4_refract v n eta).2.list.map .f)]) := by
  rcases s_v_dest with s_v_dest | s_v_dest
  · subst s_v_dest
    exact transferL (((R.nil _).addW h_v.has r_dest .nil).addR h_n.has (.cons s_n_dest .nil)) (.p rfl (.p rfl (.f (.p rfl .nil)))) (glm_vec4_refract_run_v _ _ _) (DT.val_map_eq (glm_vec4_refract_dt_val _ _ _) rfl) rfl rfl
  · exact transferL ((((R.nil _).addW r_dest.has r_dest .nil).addR h_n.has (.cons s_n_dest .nil)).addR h_v.has (.skip (.cons s_v_dest .nil))) (.p rfl (.p rfl (.f (.p rfl .nil)))) (glm_vec4_refract_run _ _ _) (DT.val_map_eq (glm_vec4_refract_dt_val _ _ _) rfl) rfl rfl
example (v : V4 α) (n : V4 α) : let mem : Mem α := [⟨false, n.list.map .f⟩, ⟨true, v.list.map .f⟩]
    Holds mem (1, 0) v.list ∧ Holds mem (0, 0) n.list ∧ Room mem (1, 0) 4 ∧ (((1, 0) : Ptr) = (1, 0) ∨ Apart (1, 0) 4 (1, 0) 4) ∧ Apart (0, 0) 4 (1, 0) 4 :=
  ⟨.block rfl, .block rfl, .block rfl rfl, Or.inl rfl, Or.inl (by decide)⟩

end Cglm

end C55Vec4

section C55Vec4Ext

/-!
# C55: destination may alias an argument (include/cglm/vec4-ext.h)

Each input is either the destination itself or does not overlap it; the result is the value-level function of
what the inputs held before the call, and nothing outside the destination changes.
-/

set_option linter.unusedVariables false
set_option linter.unusedSectionVars false

namespace Cglm
open CMem

variable {α : Type} [Add α] [Sub α] [Mul α] [Div α] [Neg α] [CFloat α]

theorem C55_vec4_sign {mem : Mem α} {vP destP : Ptr} {v : V4 α} (h_v : Holds mem vP v.list) (r_dest : Room mem destP 4) (s_v_dest : vP = destP ∨ Apart vP 4 destP 4) :
    C.glm_vec4_sign.run mem [vP.val, destP.val] =
      some (none, writes mem [(destP, (Cglm.glm_vec4_sign v).list.map .f)]) := by
  rcases s_v_dest with s_v_dest | s_v_dest
  · subst s_v_dest
    exact transferL ((R.nil _).addW h_v.has r_dest .nil) (.p rfl (.p rfl .nil)) (glm_vec4_sign_run_v _) (DT.val_done _) rfl rfl
  · exact transferL (((R.nil _).addW r_dest.has r_dest .nil).addR h_v.has (.cons s_v_dest .nil)) (.p rfl (.p rfl .nil)) (glm_vec4_sign_run _) (DT.val_done _) rfl rfl
example (v : V4 α) : let mem : Mem α := [⟨true, v.list.map .f⟩]
    Holds mem (0, 0) v.list ∧ Room mem (0, 0) 4 ∧ (((0, 0) : Ptr) = (0, 0) ∨ Apart (0, 0) 4 (0, 0) 4) :=
  ⟨.block rfl, .block rfl rfl, Or.inl rfl⟩

theorem C55_vec4_abs {mem : Mem α} {vP destP : Ptr} {v : V4 α} (h_v : Holds mem vP v.list) (r_dest : Room mem destP 4) (s_v_dest : vP = destP ∨ Apart vP 4 destP 4) :
    C.glm_vec4_abs.run mem [vP.val, destP.val] =
      some (none, writes mem [(destP, (Cglm.glm_vec4_abs v).list.map .f)]) := by
  rcases s_v_dest with s_v_dest | s_v_dest
  · subst s_v_dest
    exact transferL ((R.nil _).addW h_v.has r_dest .nil) (.p rfl (.p rfl .nil)) (glm_vec4_abs_run_v _) (DT.val_done _) rfl rfl
  · exact transferL (((R.nil _).addW r_dest.has r_dest .nil).addR h_v.has (.cons s_v_dest .nil)) (.p rfl (.p rfl .nil)) (glm_vec4_abs_run _) (DT.val_done _) rfl rfl
example (v : V4 α) : let mem : Mem α := [⟨true, v.list.map .f⟩]
    Holds mem (0, 0) v.list ∧ Room mem (0, 0) 4 ∧ (((0, 0) : Ptr) = (0, 0) ∨ Apart (0, 0) 4 (0, 0) 4) :=
  ⟨.block rfl, .block rfl rfl, Or.inl rfl⟩

theorem C55_vec4_fract {mem : Mem α} {vP destP : Ptr} {v : V4 α} (h_v : Holds mem vP v.list) (r_dest : Room mem destP 4) (s_v_dest : vP = destP ∨ Apart vP 4 destP 4) :
    C.glm_vec4_fract.run mem [vP.val, destP.val] =
      some (none, writes mem [(destP, (Cglm.glm_vec4_fract v).list.map .f)]) := by
  rcases s_v_dest with s_v_dest | s_v_dest
  · subst s_v_dest
    exact transferL ((R.nil _).addW h_v.has r_dest .nil) (.p rfl (.p rfl .nil)) (glm_vec4_fract_run_v _) (DT.val_done _) rfl rfl
  · exact transferL (((R.nil _).addW r_dest.has r_dest .nil).addR h_v.has (.cons s_v_dest .nil)) (.p rfl (.p rfl .nil)) (glm_vec4_fract_run _) (DT.val_done _) rfl rfl
example (v : V4 α) : let mem : Mem α := [⟨true, v.list.map .f⟩]
    Holds mem (0, 0) v.list ∧ Room mem (0, 0) 4 ∧ (((0, 0) : Ptr) = (0, 0) ∨ Apart (0, 0) 4 (0, 0) 4) :=
  ⟨.block rfl, .block rfl rfl, Or.inl rfl⟩

theorem C55_vec4_floor {mem : Mem α} {vP destP : Ptr} {v : V4 α} (h_v : Holds mem vP v.list) (r_dest : Room mem destP 4) (s_v_dest : vP = destP ∨ Apart vP 4 destP 4) :
    C.glm_vec4_floor.run mem [vP.val, destP.val] =
      some (none, writes mem [(destP, (Cglm.glm_vec4_floor v).list.map .f)]) := by
  rcases s_v_dest with s_v_dest | s_v_dest
  · subst s_v_dest
    exact transferL ((R.nil _).addW h_v.has r_dest .nil) (.p rfl (.p rfl .nil)) (glm_vec4_floor_run_v _) (DT.val_done _) rfl rfl
  · exact transferL (((R.nil _).addW r_dest.has r_dest .nil).addR h_v.has (.cons s_v_dest .nil)) (.p rfl (.p rfl .nil)) (glm_vec4_floor_run _) (DT.val_done _) rfl rfl
example (v : V4 α) : let mem : Mem α := [⟨true, v.list.map .f⟩]
    Holds mem (0, 0) v.list ∧ Room mem (0, 0) 4 ∧ (((0, 0) : Ptr) = (0, 0) ∨ Apart (0, 0) 4 (0, 0) 4) :=
  ⟨.block rfl, .block rfl rfl, Or.inl rfl⟩

theorem C55_vec4_mods {mem : Mem α} {vP destP : Ptr} {v : V4 α} (s : α) (h_v : Holds mem vP v.list) (r_dest : Room mem destP 4) (s_v_dest : vP = destP ∨ Apart vP 4 destP 4) :
    C.glm_vec4_mods.run mem [vP.val, .f s, destP.val] =
      some (none, writes mem [(destP, (Cglm.glm_vec4_mods v s).list.map .f)]) := by
  rcases s_v_dest with s_v_dest | s_v_dest
  · subst s_v_dest
    exact transferL ((R.nil _).addW h_v.has r_dest .nil) (.p rfl (.f (.p rfl .nil))) (glm_vec4_mods_run_v _ _) (DT.val_done _) rfl rfl
  · exact transferL (((R.nil _).addW r_dest.has r_dest .nil).addR h_v.has (.cons s_v_dest .nil)) (.p rfl (.f (.p rfl .nil))) (glm_vec4_mods_run _ _) (DT.val_done _) rfl rfl
example (v : V4 α) : let mem : Mem α := [⟨true, v.list.map .f⟩]
    Holds mem (0, 0) v.list ∧ Room mem (0, 0) 4 ∧ (((0, 0) : Ptr) = (0, 0) ∨ Apart (0, 0) 4 (0, 0) 4) :=
  ⟨.block rfl, .block rfl rfl, Or.inl rfl⟩

theorem C55_vec4_steps {mem : Mem α} {xP destP : Ptr} (edge : α) {x : V4 α} (h_x : Holds mem xP x.list) (r_dest : Room mem destP 4) (s_x_dest : xP = destP ∨ Apart xP 4 destP 4) :
    C.glm_vec4_steps.run mem [.f edge, xP.val, destP.val] =
      some (none, writes mem [(destP, (Cglm.glm_vec4_steps edge x).list.map .f)]) := by
  rcases s_x_dest with s_x_dest | s_x_dest
  · subst s_x_dest
    exact transferL ((R.nil _).addW h_x.has r_dest .nil) (.f (.p rfl (.p rfl .nil))) (glm_vec4_steps_run_x _ _) (DT.val_done _) rfl rfl
  · exact transferL (((R.nil _).addW r_dest.has r_dest .nil).addR h_x.has (.cons s_x_dest .nil)) (.f (.p rfl (.p rfl .nil))) (glm_vec4_steps_run _ _) (DT.val_done _) rfl rfl
example (x : V4 α) : let mem : Mem α := [⟨true, x.list.map .f⟩]
    Holds mem (0, 0) x.list ∧ Room mem (0, 0) 4 ∧ (((0, 0) : Ptr) = (0, 0) ∨ Apart (0, 0) 4 (0, 0) 4) :=
  ⟨.block rfl, .block rfl rfl, Or.inl rfl⟩

theorem C55_vec4_stepr {mem : Mem α} {edgeP destP : Ptr} {edge : V4 α} (x : α) (h_edge : Holds mem edgeP edge.list) (r_dest : Room mem destP 4) (s_edge_dest : edgeP = destP ∨ Apart edgeP 4 destP 4) :
    C.glm_vec4_stepr.run mem [edgeP.val, .f x, destP.val] =
      some (none, writes mem [(destP, (Cglm.glm_vec4_stepr edge x).list.map .f)]) := by
  rcases s_edge_dest with s_edge_dest | s_edge_dest
  · subst s_edge_dest
    exact transferL ((R.nil _).addW h_edge.has r_dest .nil) (.p rfl (.f (.p rfl .nil))) (glm_vec4_stepr_run_edge _ _) (DT.val_done _) rfl rfl
  · exact transferL (((R.nil _).addW r_dest.has r_dest .nil).addR h_edge.has (.cons s_edge_dest .nil)) (.p rfl (.f (.p rfl .nil))) (glm_vec4_stepr_run _ _) (DT.val_done _) rfl rfl
example (edge : V4 α) : let mem : Mem α := [⟨true, edge.list.map .f⟩]
    Holds mem (0, 0) edge.list ∧ Room mem (0, 0) 4 ∧ (((0, 0) : Ptr) = (0, 0) ∨ Apart (0, 0) 4 (0, 0) 4) :=
  ⟨.block rfl, .block rfl rfl, Or.inl rfl⟩

theorem C55_vec4_sqrt {mem : Mem α} {vP destP : Ptr} {v : V4 α} (h_v : Holds mem vP v.list) (r_dest : Room mem destP 4) (s_v_dest : vP = destP ∨ Apart vP 4 destP 4) :
    C.glm_vec4_sqrt.run mem [vP.val, destP.val] =
      some (none, writes mem [(destP, (Cglm.glm_vec4_sqrt v).list.map .f)]) := by
  rcases s_v_dest with s_v_dest | s_v_dest
  · subst s_v_dest
    exact transferL ((R.nil _).addW h_v.has r_dest .nil) (.p rfl (.p rfl .nil)) (glm_vec4_sqrt_run_v _) (DT.val_done _) rfl rfl
  · exact transferL (((R.nil _).addW r_dest.has r_dest .nil).addR h_v.has (.cons s_v_dest .nil)) (.p rfl (.p rfl .nil)) (glm_vec4_sqrt_run _) (DT.val_done _) rfl rfl
example (v : V4 α) : let mem : Mem α := [⟨true, v.list.map .f⟩]
    Holds mem (0, 0) v.list ∧ Room mem (0, 0) 4 ∧ (((0, 0) : Ptr) = (0, 0) ∨ Apart (0, 0) 4 (0, 0) 4) :=
  ⟨.block rfl, .block rfl rfl, Or.inl rfl⟩

end Cglm

end C55Vec4Ext
