/- Generated by tools/memgen.py, joined by tools/merge.py; do not edit by hand. -/
import Verif.Mem.QuatsRun

section C55Quat

/-!
# C55: destination may alias an argument (include/cglm/quat.h)

Each input is either the destination itself or does not overlap it; the result is the value-level function of
what the inputs held before the call, and nothing outside the destination changes.
-/

set_option linter.unusedVariables false
set_option linter.unusedSectionVars false

namespace Cglm
open CMem

variable {α : Type} [Add α] [Sub α] [Mul α] [Div α] [Neg α] [CFloat α]

theorem C55_quat_copy {mem : Mem α} {qP destP : Ptr} {q : V4 α} (h_q : Holds mem qP q.list) (r_dest : Room mem destP 4) (s_q_dest : qP = destP ∨ Apart qP 4 destP 4) :
    C.glm_quat_copy.run mem [qP.val, destP.val] =
      some (none, writes mem [(destP, (Cglm.glm_quat_copy q).list.map .f)]) := by
  rcases s_q_dest with s_q_dest | s_q_dest
  · subst s_q_dest
    exact transferL ((R.nil _).addW h_q.has r_dest .nil) (.p rfl (.p rfl .nil)) (glm_quat_copy_run_q _) (DT.val_done _) rfl rfl
  · exact transferL (((R.nil _).addW r_dest.has r_dest .nil).addR h_q.has (.cons s_q_dest .nil)) (.p rfl (.p rfl .nil)) (glm_quat_copy_run _) (DT.val_done _) rfl rfl
example (q : V4 α) : let mem : Mem α := [⟨true, q.list.map .f⟩]
    Holds mem (0, 0) q.list ∧ Room mem (0, 0) 4 ∧ (((0, 0) : Ptr) = (0, 0) ∨ Apart (0, 0) 4 (0, 0) 4) :=
  ⟨.block rfl, .block rfl rfl, Or.inl rfl⟩

theorem C55_quat_normalize_to {mem : Mem α} {qP destP : Ptr} {q : V4 α} (h_q : Holds mem qP q.list) (r_dest : Room mem destP 4) (s_q_dest : qP = destP ∨ Apart qP 4 destP 4) :
    C.glm_quat_normalize_to.run mem [qP.val, destP.val] =
      some (none, writes mem [(destP, (Cglm.glm_quat_normalize_to q).list.map .f)]) := by
  rcases s_q_dest with s_q_dest | s_q_dest
  · subst s_q_dest
    exact transferL ((R.nil _).addW h_q.has r_dest .nil) (.p rfl (.p rfl .nil)) (glm_quat_normalize_to_run_q _) (DT.val_map_eq (glm_quat_normalize_to_dt_val _) rfl) rfl rfl
  · exact transferL (((R.nil _).addW r_dest.has r_dest .nil).addR h_q.has (.cons s_q_dest .nil)) (.p rfl (.p rfl .nil)) (glm_quat_normalize_to_run _) (DT.val_map_eq (glm_quat_normalize_to_dt_val _) rfl) rfl rfl
example (q : V4 α) : let mem : Mem α := [⟨true, q.list.map .f⟩]
    Holds mem (0, 0) q.list ∧ Room mem (0, 0) 4 ∧ (((0, 0) : Ptr) = (0, 0) ∨ Apart (0, 0) 4 (0, 0) 4) :=
  ⟨.block rfl, .block rfl rfl, Or.inl rfl⟩

theorem C55_quat_conjugate {mem : Mem α} {qP destP : Ptr} {q : V4 α} (h_q : Holds mem qP q.list) (r_dest : Room mem destP 4) (s_q_dest : qP = destP ∨ Apart qP 4 destP 4) :
    C.glm_quat_conjugate.run mem [qP.val, destP.val] =
      some (none, writes mem [(destP, (Cglm.glm_quat_conjugate q).list.map .f)]) := by
  rcases s_q_dest with s_q_dest | s_q_dest
  · subst s_q_dest
    exact transferL ((R.nil _).addW h_q.has r_dest .nil) (.p rfl (.p rfl .nil)) (glm_quat_conjugate_run_q _) (DT.val_done _) rfl rfl
  · exact transferL (((R.nil _).addW r_dest.has r_dest .nil).addR h_q.has (.cons s_q_dest .nil)) (.p rfl (.p rfl .nil)) (glm_quat_conjugate_run _) (DT.val_done _) rfl rfl
example (q : V4 α) : let mem : Mem α := [⟨true, q.list.map .f⟩]
    Holds mem (0, 0) q.list ∧ Room mem (0, 0) 4 ∧ (((0, 0) : Ptr) = (0, 0) ∨ Apart (0, 0) 4 (0, 0) 4) :=
  ⟨.block rfl, .block rfl rfl, Or.inl rfl⟩

theorem C55_quat_inv {mem : Mem α} {qP destP : Ptr} {q : V4 α} (h_q : Holds mem qP q.list) (r_dest : Room mem destP 4) (s_q_dest : qP = destP ∨ Apart qP 4 destP 4) :
    C.glm_quat_inv.run mem [qP.val, destP.val] =
      some (none, writes mem [(destP, (Cglm.glm_quat_inv q).list.map .f)]) := by
  rcases s_q_dest with s_q_dest | s_q_dest
  · subst s_q_dest
    exact transferL ((R.nil _).addW h_q.has r_dest .nil) (.p rfl (.p rfl .nil)) (glm_quat_inv_run_q _) (DT.val_done _) rfl rfl
  · exact transferL (((R.nil _).addW r_dest.has r_dest .nil).addR h_q.has (.cons s_q_dest .nil)) (.p rfl (.p rfl .nil)) (glm_quat_inv_run _) (DT.val_done _) rfl rfl
example (q : V4 α) : let mem : Mem α := [⟨true, q.list.map .f⟩]
    Holds mem (0, 0) q.list ∧ Room mem (0, 0) 4 ∧ (((0, 0) : Ptr) = (0, 0) ∨ Apart (0, 0) 4 (0, 0) 4) :=
  ⟨.block rfl, .block rfl rfl, Or.inl rfl⟩

theorem C55_quat_add {mem : Mem α} {pP qP destP : Ptr} {p : V4 α} {q : V4 α} (h_p : Holds mem pP p.list) (h_q : Holds mem qP q.list) (r_dest : Room mem destP 4) (s_p_dest : pP = destP ∨ Apart pP 4 destP 4) (s_q_dest : qP = destP ∨ Apart qP 4 destP 4) :
    C.glm_quat_add.run mem [pP.val, qP.val, destP.val] =
      some (none, writes mem [(destP, (Cglm.glm_quat_add p q).list.map .f)]) := by
  rcases s_p_dest with s_p_dest | s_p_dest
  · subst s_p_dest
    rcases s_q_dest with s_q_dest | s_q_dest
    · subst s_q_dest
      obtain rfl := V4.list_inj (h_p.inj h_q rfl)
      exact transferL ((R.nil _).addW h_p.has r_dest .nil) (.p rfl (.p rfl (.p rfl .nil))) (glm_quat_add_run_p_q _) (DT.val_done _) rfl rfl
    · exact transferL (((R.nil _).addW h_p.has r_dest .nil).addR h_q.has (.cons s_q_dest .nil)) (.p rfl (.p rfl (.p rfl .nil))) (glm_quat_add_run_p _ _) (DT.val_done _) rfl rfl
  · rcases s_q_dest with s_q_dest | s_q_dest
    · subst s_q_dest
      exact transferL (((R.nil _).addW h_q.has r_dest .nil).addR h_p.has (.cons s_p_dest .nil)) (.p rfl (.p rfl (.p rfl .nil))) (glm_quat_add_run_q _ _) (DT.val_done _) rfl rfl
    · exact transferL ((((R.nil _).addW r_dest.has r_dest .nil).addR h_q.has (.cons s_q_dest .nil)).addR h_p.has (.skip (.cons s_p_dest .nil))) (.p rfl (.p rfl (.p rfl .nil))) (glm_quat_add_run _ _) (DT.val_done _) rfl rfl
example (p : V4 α) : let mem : Mem α := [⟨true, p.list.map .f⟩]
    Holds mem (0, 0) p.list ∧ Holds mem (0, 0) p.list ∧ Room mem (0, 0) 4 ∧ (((0, 0) : Ptr) = (0, 0) ∨ Apart (0, 0) 4 (0, 0) 4) ∧ (((0, 0) : Ptr) = (0, 0) ∨ Apart (0, 0) 4 (0, 0) 4) :=
  ⟨.block rfl, .block rfl, .block rfl rfl, Or.inl rfl, Or.inl rfl⟩

theorem C55_quat_sub {mem : Mem α} {pP qP destP : Ptr} {p : V4 α} {q : V4 α} (h_p : Holds mem pP p.list) (h_q : Holds mem qP q.list) (r_dest : Room mem destP 4) (s_p_dest : pP = destP ∨ Apart pP 4 destP 4) (s_q_dest : qP = destP ∨ Apart qP 4 destP 4) :
    C.glm_quat_sub.run mem [pP.val, qP.val, destP.val] =
      some (none, writes mem [(destP, (Cglm.glm_quat_sub p q).list.map .f)]) := by
  rcases s_p_dest with s_p_dest | s_p_dest
  · subst s_p_dest
    rcases s_q_dest with s_q_dest | s_q_dest
    · subst s_q_dest
      obtain rfl := V4.list_inj (h_p.inj h_q rfl)
      exact transferL ((R.nil _).addW h_p.has r_dest .nil) (.p rfl (.p rfl (.p rfl .nil))) (glm_quat_sub_run_p_q _) (DT.val_done _) rfl rfl
    · exact transferL (((R.nil _).addW h_p.has r_dest .nil).addR h_q.has (.cons s_q_dest .nil)) (.p rfl (.p rfl (.p rfl .nil))) (glm_quat_sub_run_p _ _) (DT.val_done _) rfl rfl
  · rcases s_q_dest with s_q_dest | s_q_dest
    · subst s_q_dest
      exact transferL (((R.nil _).addW h_q.has r_dest .nil).addR h_p.has (.cons s_p_dest .nil)) (.p rfl (.p rfl (.p rfl .nil))) (glm_quat_sub_run_q _ _) (DT.val_done _) rfl rfl
    · exact transferL ((((R.nil _).addW r_dest.has r_dest .nil).addR h_q.has (.cons s_q_dest .nil)).addR h_p.has (.skip (.cons s_p_dest .nil))) (.p rfl (.p rfl (.p rfl .nil))) (glm_quat_sub_run _ _) (DT.val_done _) rfl rfl
example (p : V4 α) : let mem : Mem α := [⟨true, p.list.map .f⟩]
    Holds mem (0, 0) p.list ∧ Holds mem (0, 0) p.list ∧ Room mem (0, 0) 4 ∧ (((0, 0) : Ptr) = (0, 0) ∨ Apart (0, 0) 4 (0, 0) 4) ∧ (((0, 0) : Ptr) = (0, 0) ∨ Apart (0, 0) 4 (0, 0) 4) :=
  ⟨.block rfl, .block rfl, .block rfl rfl, Or.inl rfl, Or.inl rfl⟩

theorem C55_quat_lerp {mem : Mem α} {frmP toP destP : Ptr} {frm : V4 α} {«to» : V4 α} (t : α) (h_frm : Holds mem frmP frm.list) (h_to : Holds mem toP «to».list) (r_dest : Room mem destP 4) (s_frm_dest : frmP = destP ∨ Apart frmP 4 destP 4) (s_to_dest : toP = destP ∨ Apart toP 4 destP 4) :
    C.glm_quat_lerp.run mem [frmP.val, toP.val, .f t, destP.val] =
      some (none, writes mem [(destP, (Cglm.glm_quat_lerp frm «to» t).list.map .f)]) := by
  rcases s_frm_dest with s_frm_dest | s_frm_dest
  · subst s_frm_dest
    rcases s_to_dest with s_to_dest | s_to_dest
    · subst s_to_dest
      obtain rfl := V4.list_inj (h_frm.inj h_to rfl)
      exact transferL ((R.nil _).addW h_frm.has r_dest .nil) (.p rfl (.p rfl (.f (.p rfl .nil)))) (glm_quat_lerp_run_from_to _ _) (DT.val_done _) rfl rfl
    · exact transferL (((R.nil _).addW h_frm.has r_dest .nil).addR h_to.has (.cons s_to_dest .nil)) (.p rfl (.p rfl (.f (.p rfl .nil)))) (glm_quat_lerp_run_from _ _ _) (DT.val_done _) rfl rfl
  · rcases s_to_dest with s_to_dest | s_to_dest
    · subst s_to_dest
      exact transferL (((R.nil _).addW h_to.has r_dest .nil).addR h_frm.has (.cons s_frm_dest .nil)) (.p rfl (.p rfl (.f (.p rfl .nil)))) (glm_quat_lerp_run_to _ _ _) (DT.val_done _) rfl rfl
    · exact transferL ((((R.nil _).addW r_dest.has r_dest .nil).addR h_to.has (.cons s_to_dest .nil)).addR h_frm.has (.skip (.cons s_frm_dest .nil))) (.p rfl (.p rfl (.f (.p rfl .nil)))) (glm_quat_lerp_run _ _ _) (DT.val_done _) rfl rfl
example (frm : V4 α) : let mem : Mem α := [⟨true, frm.list.map .f⟩]
    Holds mem (0, 0) frm.list ∧ Holds mem (0, 0) frm.list ∧ Room mem (0, 0) 4 ∧ (((0, 0) : Ptr) = (0, 0) ∨ Apart (0, 0) 4 (0, 0) 4) ∧ (((0, 0) : Ptr) = (0, 0) ∨ Apart (0, 0) 4 (0, 0) 4) :=
  ⟨.block rfl, .block rfl, .block rfl rfl, Or.inl rfl, Or.inl rfl⟩

theorem C55_quat_lerpc {mem : Mem α} {frmP toP destP : Ptr} {frm : V4 α} {«to» : V4 α} (t : α) (h_frm : Holds mem frmP frm.list) (h_to : Holds mem toP «to».list) (r_dest : Room mem destP 4) (s_frm_dest : frmP = destP ∨ Apart frmP 4 destP 4) (s_to_dest : toP = destP ∨ Apart toP 4 destP 4) :
    C.glm_quat_lerpc.run mem [frmP.val, toP.val, .f t, destP.val] =
      some (none, writes mem [(destP, (Cglm.glm_quat_lerpc frm «to» t).list.map .f)]) := by
  rcases s_frm_dest with s_frm_dest | s_frm_dest
  · subst s_frm_dest
    rcases s_to_dest with s_to_dest | s_to_dest
    · subst s_to_dest
      obtain rfl := V4.list_inj (h_frm.inj h_to rfl)
      exact transferL ((R.nil _).addW h_frm.has r_dest .nil) (.p rfl (.p rfl (.f (.p rfl .nil)))) (glm_quat_lerpc_run_from_to _ _) (DT.val_done _) rfl rfl
    · exact transferL (((R.nil _).addW h_frm.has r_dest .nil).addR h_to.has (.cons s_to_dest .nil)) (.p rfl (.p rfl (.f (.p rfl .nil)))) (glm_quat_lerpc_run_from _ _ _) (DT.val_done _) rfl rfl
  · rcases s_to_dest with s_to_dest | s_to_dest
    · subst s_to_dest
      exact transferL (((R.nil _).addW h_to.has r_dest .nil).addR h_frm.has (.cons s_frm_dest .nil)) (.p rfl (.p rfl (.f (.p rfl .nil)))) (glm_quat_lerpc_run_to _ _ _) (DT.val_done _) rfl rfl
    · exact transferL ((((R.nil _).addW r_dest.has r_dest .nil).addR h_to.has (.cons s_to_dest .nil)).addR h_frm.has (.skip (.cons s_frm_dest .nil))) (.p rfl (.p rfl (.f (.p rfl .nil)))) (glm_quat_lerpc_run _ _ _) (DT.val_done _) rfl rfl
example (frm : V4 α) : let mem : Mem α := [⟨true, frm.list.map .f⟩]
    Holds mem (0, 0) frm.list ∧ Holds mem (0, 0) frm.list ∧ Room mem (0, 0) 4 ∧ (((0, 0) : Ptr) = (0, 0) ∨ Apart (0, 0) 4 (0, 0) 4) ∧ (((0, 0) : Ptr) = (0, 0) ∨ Apart (0, 0) 4 (0, 0) 4) :=
  ⟨.block rfl, .block rfl, .block rfl rfl, Or.inl rfl, Or.inl rfl⟩

theorem C55_quat_nlerp {mem : Mem α} {frmP toP destP : Ptr} {frm : V4 α} {«to» : V4 α} (t : α) (h_frm : Holds mem frmP frm.list) (h_to : Holds mem toP «to».list) (r_dest : Room mem destP 4) (s_frm_dest : frmP = destP ∨ Apart frmP 4 destP 4) (s_to_dest : toP = destP ∨ Apart toP 4 destP 4) :
    C.glm_quat_nlerp.run mem [frmP.val, toP.val, .f t, destP.val] =
      some (none, writes mem [(destP, (Cglm.glm_quat_nlerp frm «to» t).list.map .f)]) := by
  rcases s_frm_dest with s_frm_dest | s_frm_dest
  · subst s_frm_dest
    rcases s_to_dest with s_to_dest | s_to_dest
    · subst s_to_dest
      obtain rfl := V4.list_inj (h_frm.inj h_to rfl)
      exact transferL ((R.nil _).addW h_frm.has r_dest .nil) (.p rfl (.p rfl (.f (.p rfl .nil)))) (glm_quat_nlerp_run_from_to _ _) (DT.val_map_eq (glm_quat_nlerp_dt_val _ _ _) rfl) rfl rfl
    · exact transferL (((R.nil _).addW h_frm.has r_dest .nil).addR h_to.has (.cons s_to_dest .nil)) (.p rfl (.p rfl (.f (.p rfl .nil)))) (glm_quat_nlerp_run_from _ _ _) (DT.val_map_eq (glm_quat_nlerp_dt_val _ _ _) rfl) rfl rfl
  · rcases s_to_dest with s_to_dest | s_to_dest
    · subst s_to_dest
      exact transferL (((R.nil _).addW h_to.has r_dest .nil).addR h_frm.has (.cons s_frm_dest .nil)) (.p rfl (.p rfl (.f (.p rfl .nil)))) (glm_quat_nlerp_run_to _ _ _) (DT.val_map_eq (glm_quat_nlerp_dt_val _ _ _) rfl) rfl rfl
    · exact transferL ((((R.nil _).addW r_dest.has r_dest .nil).addR h_to.has (.cons s_to_dest .nil)).addR h_frm.has (.skip (.cons s_frm_dest .nil))) (.p rfl (.p rfl (.f (.p rfl .nil)))) (glm_quat_nlerp_run _ _ _) (DT.val_map_eq (glm_quat_nlerp_dt_val _ _ _) rfl) rfl rfl
example (frm : V4 α) : let mem : Mem α := [⟨true, frm.list.map .f⟩]
    Holds mem (0, 0) frm.list ∧ Holds mem (0, 0) frm.list ∧ Room mem (0, 0) 4 ∧ (((0, 0) : Ptr) = (0, 0) ∨ Apart (0, 0) 4 (0, 0) 4) ∧ (((0, 0) : Ptr) = (0, 0) ∨ Apart (0, 0) 4 (0, 0) 4) :=
  ⟨.block rfl, .block rfl, .block rfl rfl, Or.inl rfl, Or.inl rfl⟩

theorem C55_quat_slerp {mem : Mem α} {frmP toP destP : Ptr} {frm : V4 α} {«to» : V4 α} (t : α) (h_frm : Holds mem frmP frm.list) (h_to : Holds mem toP «to».list) (r_dest : Room mem destP 4) (s_frm_dest : frmP = destP ∨ Apart frmP 4 destP 4) (s_to_dest : toP = destP ∨ Apart toP 4 destP 4) :
    C.glm_quat_slerp.run mem [frmP.val, toP.val, .f t, destP.val] =
      some (none, writes mem [(destP, (Cglm.glm_quat_slerp frm «to» t).list.map .f)]) := by
  rcases s_frm_dest with s_frm_dest | s_frm_dest
  · subst s_frm_dest
    rcases s_to_dest with s_to_dest | s_to_dest
    · subst s_to_dest
      obtain rfl := V4.list_inj (h_frm.inj h_to rfl)
      exact transferL ((R.nil _).addW h_frm.has r_dest .nil) (.p rfl (.p rfl (.f (.p rfl .nil)))) (glm_quat_slerp_run_from_to _ _) (DT.val_map_eq (glm_quat_slerp_dt_val _ _ _) rfl) rfl rfl
    · exact transferL (((R.nil _).addW h_frm.has r_dest .nil).addR h_to.has (.cons s_to_dest .nil)) (.p rfl (.p rfl (.f (.p rfl .nil)))) (glm_quat_slerp_run_from _ _ _) (DT.val_map_eq (glm_quat_slerp_dt_val _ _ _) rfl) rfl rfl
  · rcases s_to_dest with s_to_dest | s_to_dest
    · subst s_to_dest
      exact transferL (((R.nil _).addW h_to.has r_dest .nil).addR h_frm.has (.cons s_frm_dest .nil)) (.p rfl (.p rfl (.f (.p rfl .nil)))) (glm_quat_slerp_run_to _ _ _) (DT.val_map_eq (glm_quat_slerp_dt_val _ _ _) rfl) rfl rfl
    · exact transferL ((((R.nil _).addW r_dest.has r_dest .nil).addR h_to.has (.cons s_to_dest .nil)).addR h_frm.has (.skip (.cons s_frm_dest .nil))) (.p rfl (.p rfl (.f (.p rfl .nil)))) (glm_quat_slerp_run _ _ _) (DT.val_map_eq (glm_quat_slerp_dt_val _ _ _) rfl) rfl rfl
example (frm : V4 α) : let mem : Mem α := [⟨true, frm.list.map .f⟩]
    Holds mem (0, 0) frm.list ∧ Holds mem (0, 0) frm.list ∧ Room mem (0, 0) 4 ∧ (((0, 0) : Ptr) = (0, 0) ∨ Apart (0, 0) 4 (0, 0) 4) ∧ (((0, 0) : Ptr) = (0, 0) ∨ Apart (0, 0) 4 (0, 0) 4) :=
  ⟨.block rfl, .block rfl, .block rfl rfl, Or.inl rfl, Or.inl rfl⟩

theorem C55_quat_slerp_longest {mem : Mem α} {frmP toP destP : Ptr} {frm : V4 α} {«to» : V4 α} (t : α) (h_frm : Holds mem frmP frm.list) (h_to : Holds mem toP «to».list) (r_dest : Room mem destP 4) (s_frm_dest : frmP = destP ∨ Apart frmP 4 destP 4) (s_to_dest : toP = destP ∨ Apart toP 4 destP 4) :
    C.glm_quat_slerp_longest.run mem [frmP.val, toP.val, .f t, destP.val] =
      some (none, writes mem [(destP, (Cglm.glm_quat_slerp_longest frm «to» t).list.map .f)]) := by
  rcases s_frm_dest with s_frm_dest | s_frm_dest
  · subst s_frm_dest
    rcases s_to_dest with s_to_dest | s_to_dest
    · subst s_to_dest
      obtain rfl := V4.list_inj (h_frm.inj h_to rfl)
      exact transferL ((R.nil _).addW h_frm.has r_dest .nil) (.p rfl (.p rfl (.f (.p rfl .nil)))) (glm_quat_slerp_longest_run_from_to _ _) (DT.val_map_eq (glm_quat_slerp_longest_dt_val _ _ _) rfl) rfl rfl
    · exact transferL (((R.nil _).addW h_frm.has r_dest .nil).addR h_to.has (.cons s_to_dest .nil)) (.p rfl (.p rfl (.f (.p rfl .nil)))) (glm_quat_slerp_longest_run_from _ _ _) (DT.val_map_eq (glm_quat_slerp_longest_dt_val _ _ _) rfl) rfl rfl
  · rcases s_to_dest with s_to_dest | s_to_dest
    · subst s_to_dest
      exact transferL (((R.nil _).addW h_to.has r_dest .nil).addR h_frm.has (.cons s_frm_dest .nil)) (.p rfl (.p rfl (.f (.p rfl .nil)))) (glm_quat_slerp_longest_run_to _ _ _) (DT.val_map_eq (glm_quat_slerp_longest_dt_val _ _ _) rfl) rfl rfl
    · exact transferL ((((R.nil _).addW r_dest.has r_dest .nil).addR h_to.has (.cons s_to_dest .nil)).addR h_frm.has (.skip (.cons s_frm_dest .nil))) (.p rfl (.p rfl (.f (.p rfl .nil)))) (glm_quat_slerp_longest_run _ _ _) (DT.val_map_eq (glm_quat_slerp_longest_dt_val _ _ _) rfl) rfl rfl
example (frm : V4 α) : let mem : Mem α := [⟨true, frm.list.map .f⟩]
    Holds mem (0, 0) frm.list ∧ Holds mem (0, 0) frm.list ∧ Room mem (0, 0) 4 ∧ (((0, 0) : Ptr) = (0, 0) ∨ Apart (0, 0) 4 (0, 0) 4) ∧ (((0, 0) : Ptr) = (0, 0) ∨ Apart (0, 0) 4 (0, 0) 4) :=
  ⟨.block rfl, .block rfl, .block rfl rfl, Or.inl rfl, Or.inl rfl⟩

theorem C55_quat_rotatev {mem : Mem α} {qP vP destP : Ptr} {q : V4 α} {v : V3 α} (h_q : Holds mem qP q.list) (h_v : Holds mem vP v.list) (r_dest : Room mem destP 3) (s_q_dest : Apart qP 4 destP 3) (s_v_dest : vP = destP ∨ Apart vP 3 destP 3) :
    C.glm_quat_rotatev.run mem [qP.val, vP.val, destP.val] =
      some (none, writes mem [(destP, (Cglm.glm_quat_rotatev q v).list.map .f)]) := by
  rcases s_v_dest with s_v_dest | s_v_dest
  · subst s_v_dest
    exact transferL (((R.nil _).addW h_v.has r_dest .nil).addR h_q.has (.cons s_q_dest .nil)) (.p rfl (.p rfl (.p rfl .nil))) (glm_quat_rotatev_run_v _ _) (DT.val_map_eq (glm_quat_rotatev_dt_val _ _) rfl) rfl rfl
  · exact transferL ((((R.nil _).addW r_dest.has r_dest .nil).addR h_v.has (.cons s_v_dest .nil)).addR h_q.has (.skip (.cons s_q_dest .nil))) (.p rfl (.p rfl (.p rfl .nil))) (glm_quat_rotatev_run _ _) (DT.val_map_eq (glm_quat_rotatev_dt_val _ _) rfl) rfl rfl
example (q : V4 α) (v : V3 α) : let mem : Mem α := [⟨false, q.list.map .f⟩, ⟨true, v.list.map .f⟩]
    Holds mem (0, 0) q.list ∧ Holds mem (1, 0) v.list ∧ Room mem (1, 0) 3 ∧ Apart (0, 0) 4 (1, 0) 3 ∧ (((1, 0) : Ptr) = (1, 0) ∨ Apart (1, 0) 3 (1, 0) 3) :=
  ⟨.block rfl, .block rfl, .block rfl rfl, Or.inl (by decide), Or.inl rfl⟩

theorem C55_quat_rotate {mem : Mem α} {mP qP destP : Ptr} {m : M4 α} {q : V4 α} (h_m : Holds mem mP m.list) (h_q : Holds mem qP q.list) (r_dest : Room mem destP 16) (s_m_dest : mP = destP ∨ Apart mP 16 destP 16) (s_q_dest : Apart qP 4 destP 16) :
    C.glm_quat_rotate.run mem [mP.val, qP.val, destP.val] =
      some (none, writes mem [(destP, (Cglm.glm_quat_rotate m q).list.map .f)]) := by
  rcases s_m_dest with s_m_dest | s_m_dest
  · subst s_m_dest
    exact transferL (((R.nil _).addW h_m.has r_dest .nil).addR h_q.has (.cons s_q_dest .nil)) (.p rfl (.p rfl (.p rfl .nil))) (glm_quat_rotate_run_m _ _) (DT.val_done _) rfl rfl
  · exact transferL ((((R.nil _).addW r_dest.has r_dest .nil).addR h_q.has (.cons s_q_dest .nil)).addR h_m.has (.skip (.cons s_m_dest .nil))) (.p rfl (.p rfl (.p rfl .nil))) (glm_quat_rotate_run _ _) (DT.val_done _) rfl rfl
example (m : M4 α) (q : V4 α) : let mem : Mem α := [⟨false, q.list.map .f⟩, ⟨true, m.list.map .f⟩]
    Holds mem (1, 0) m.list ∧ Holds mem (0, 0) q.list ∧ Room mem (1, 0) 16 ∧ (((1, 0) : Ptr) = (1, 0) ∨ Apart (1, 0) 16 (1, 0) 16) ∧ Apart (0, 0) 4 (1, 0) 16 :=
  ⟨.block rfl, .block rfl, .block rfl rfl, Or.inl rfl, Or.inl (by decide)⟩

theorem C55_quat_make {mem : Mem α} {srcP destP : Ptr} {src : V4 α} (h_src : Holds mem srcP src.list) (r_dest : Room mem destP 4) (s_src_dest : srcP = destP ∨ Apart srcP 4 destP 4) :
    C.glm_quat_make.run mem [srcP.val, destP.val] =
      some (none, writes mem [(destP, (Cglm.glm_quat_make src).list.map .f)]) := by
  rcases s_src_dest with s_src_dest | s_src_dest
  · subst s_src_dest
    exact transferL ((R.nil _).addW h_src.has r_dest .nil) (.p rfl (.p rfl .nil)) (glm_quat_make_run_src _) (DT.val_done _) rfl rfl
  · exact transferL (((R.nil _).addW r_dest.has r_dest .nil).addR h_src.has (.cons s_src_dest .nil)) (.p rfl (.p rfl .nil)) (glm_quat_make_run _) (DT.val_done _) rfl rfl
example (src : V4 α) : let mem : Mem α := [⟨true, src.list.map .f⟩]
    Holds mem (0, 0) src.list ∧ Room mem (0, 0) 4 ∧ (((0, 0) : Ptr) = (0, 0) ∨ Apart (0, 0) 4 (0, 0) 4) :=
  ⟨.block rfl, .block rfl rfl, Or.inl rfl⟩

end Cglm

end C55Quat
