/- Generated by tools/memgen.py, joined by tools/merge.py; do not edit by hand. -/
import Verif.Mem.GeomsRun
import Verif.Real
import Verif.Lemmas
import Verif.Props.C56Affines

section C55Aabb2d

/-!
# C55: destination may alias an argument (include/cglm/aabb2d.h)

Each input is either the destination itself or does not overlap it; the result is the value-level function of
what the inputs held before the call, and nothing outside the destination changes.
-/

set_option linter.unusedVariables false
set_option linter.unusedSectionVars false

namespace Cglm
open CMem

variable {α : Type} [Add α] [Sub α] [Mul α] [Div α] [Neg α] [CFloat α]

theorem C55_aabb2d_copy {mem : Mem α} {aabbP destP : Ptr} {aabb : M2 α} (h_aabb : Holds mem aabbP aabb.list) (r_dest : Room mem destP 4) (s_aabb_dest : aabbP = destP ∨ Apart aabbP 4 destP 4) :
    C.glm_aabb2d_copy.run mem [aabbP.val, destP.val] =
      some (none, writes mem [(destP, (Cglm.glm_aabb2d_copy aabb).list.map .f)]) := by
  rcases s_aabb_dest with s_aabb_dest | s_aabb_dest
  · subst s_aabb_dest
    exact transferL ((R.nil _).addW h_aabb.has r_dest .nil) (.p rfl (.p rfl .nil)) (glm_aabb2d_copy_run_aabb _) (DT.val_done _) rfl rfl
  · exact transferL (((R.nil _).addW r_dest.has r_dest .nil).addR h_aabb.has (.cons s_aabb_dest .nil)) (.p rfl (.p rfl .nil)) (glm_aabb2d_copy_run _) (DT.val_done _) rfl rfl
example (aabb : M2 α) : let mem : Mem α := [⟨true, aabb.list.map .f⟩]
    Holds mem (0, 0) aabb.list ∧ Room mem (0, 0) 4 ∧ (((0, 0) : Ptr) = (0, 0) ∨ Apart (0, 0) 4 (0, 0) 4) :=
  ⟨.block rfl, .block rfl rfl, Or.inl rfl⟩

theorem C55_aabb2d_transform {mem : Mem α} {aabbP mP destP : Ptr} {aabb : M2 α} {m : M3 α} (h_aabb : Holds mem aabbP aabb.list) (h_m : Holds mem mP m.list) (r_dest : Room mem destP 4) (s_aabb_dest : aabbP = destP ∨ Apart aabbP 4 destP 4) (s_m_dest : Apart mP 9 destP 4) :
    C.glm_aabb2d_transform.run mem [aabbP.val, mP.val, destP.val] =
      some (none, writes mem [(destP, (Cglm.glm_aabb2d_transform aabb m).list.map .f)]) := by
  rcases s_aabb_dest with s_aabb_dest | s_aabb_dest
  · subst s_aabb_dest
    exact transferL (((R.nil _).addW h_aabb.has r_dest .nil).addR h_m.has (.cons s_m_dest .nil)) (.p rfl (.p rfl (.p rfl .nil))) (glm_aabb2d_transform_run_aabb _ _) (DT.val_done _) rfl rfl
  · exact transferL ((((R.nil _).addW r_dest.has r_dest .nil).addR h_m.has (.cons s_m_dest .nil)).addR h_aabb.has (.skip (.cons s_aabb_dest .nil))) (.p rfl (.p rfl (.p rfl .nil))) (glm_aabb2d_transform_run _ _) (DT.val_done _) rfl rfl
example (aabb : M2 α) (m : M3 α) : let mem : Mem α := [⟨false, m.list.map .f⟩, ⟨true, aabb.list.map .f⟩]
    Holds mem (1, 0) aabb.list ∧ Holds mem (0, 0) m.list ∧ Room mem (1, 0) 4 ∧ (((1, 0) : Ptr) = (1, 0) ∨ Apart (1, 0) 4 (1, 0) 4) ∧ Apart (0, 0) 9 (1, 0) 4 :=
  ⟨.block rfl, .block rfl, .block rfl rfl, Or.inl rfl, Or.inl (by decide)⟩

theorem C55_aabb2d_merge {mem : Mem α} {aabb1P aabb2P destP : Ptr} {aabb1 : M2 α} {aabb2 : M2 α} (h_aabb1 : Holds mem aabb1P aabb1.list) (h_aabb2 : Holds mem aabb2P aabb2.list) (r_dest : Room mem destP 4) (s_aabb1_dest : aabb1P = destP ∨ Apart aabb1P 4 destP 4) (s_aabb2_dest : aabb2P = destP ∨ Apart aabb2P 4 destP 4) :
    C.glm_aabb2d_merge.run mem [aabb1P.val, aabb2P.val, destP.val] =
      some (none, writes mem [(destP, (Cglm.glm_aabb2d_merge aabb1 aabb2).list.map .f)]) := by
  rcases s_aabb1_dest with s_aabb1_dest | s_aabb1_dest
  · subst s_aabb1_dest
    rcases s_aabb2_dest with s_aabb2_dest | s_aabb2_dest
    · subst s_aabb2_dest
      obtain rfl := M2.list_inj (h_aabb1.inj h_aabb2 rfl)
      exact transferL ((R.nil _).addW h_aabb1.has r_dest .nil) (.p rfl (.p rfl (.p rfl .nil))) (glm_aabb2d_merge_run_aabb1_aabb2 _) (DT.val_done _) rfl rfl
    · exact transferL (((R.nil _).addW h_aabb1.has r_dest .nil).addR h_aabb2.has (.cons s_aabb2_dest .nil)) (.p rfl (.p rfl (.p rfl .nil))) (glm_aabb2d_merge_run_aabb1 _ _) (DT.val_done _) rfl rfl
  · rcases s_aabb2_dest with s_aabb2_dest | s_aabb2_dest
    · subst s_aabb2_dest
      exact transferL (((R.nil _).addW h_aabb2.has r_dest .nil).addR h_aabb1.has (.cons s_aabb1_dest .nil)) (.p rfl (.p rfl (.p rfl .nil))) (glm_aabb2d_merge_run_aabb2 _ _) (DT.val_done _) rfl rfl
    · exact transferL ((((R.nil _).addW r_dest.has r_dest .nil).addR h_aabb2.has (.cons s_aabb2_dest .nil)).addR h_aabb1.has (.skip (.cons s_aabb1_dest .nil))) (.p rfl (.p rfl (.p rfl .nil))) (glm_aabb2d_merge_run _ _) (DT.val_done _) rfl rfl
example (aabb1 : M2 α) : let mem : Mem α := [⟨true, aabb1.list.map .f⟩]
    Holds mem (0, 0) aabb1.list ∧ Holds mem (0, 0) aabb1.list ∧ Room mem (0, 0) 4 ∧ (((0, 0) : Ptr) = (0, 0) ∨ Apart (0, 0) 4 (0, 0) 4) ∧ (((0, 0) : Ptr) = (0, 0) ∨ Apart (0, 0) 4 (0, 0) 4) :=
  ⟨.block rfl, .block rfl, .block rfl rfl, Or.inl rfl, Or.inl rfl⟩

theorem C55_aabb2d_crop {mem : Mem α} {aabbP cropAabbP destP : Ptr} {aabb : M2 α} {cropAabb : M2 α} (h_aabb : Holds mem aabbP aabb.list) (h_cropAabb : Holds mem cropAabbP cropAabb.list) (r_dest : Room mem destP 4) (s_aabb_dest : aabbP = destP ∨ Apart aabbP 4 destP 4) (s_cropAabb_dest : cropAabbP = destP ∨ Apart cropAabbP 4 destP 4) :
    C.glm_aabb2d_crop.run mem [aabbP.val, cropAabbP.val, destP.val] =
      some (none, writes mem [(destP, (Cglm.glm_aabb2d_crop aabb cropAabb).list.map .f)]) := by
  rcases s_aabb_dest with s_aabb_dest | s_aabb_dest
  · subst s_aabb_dest
    rcases s_cropAabb_dest with s_cropAabb_dest | s_cropAabb_dest
    · subst s_cropAabb_dest
      obtain rfl := M2.list_inj (h_aabb.inj h_cropAabb rfl)
      exact transferL ((R.nil _).addW h_aabb.has r_dest .nil) (.p rfl (.p rfl (.p rfl .nil))) (glm_aabb2d_crop_run_aabb_cropAabb _) (DT.val_done _) rfl rfl
    · exact transferL (((R.nil _).addW h_aabb.has r_dest .nil).addR h_cropAabb.has (.cons s_cropAabb_dest .nil)) (.p rfl (.p rfl (.p rfl .nil))) (glm_aabb2d_crop_run_aabb _ _) (DT.val_done _) rfl rfl
  · rcases s_cropAabb_dest with s_cropAabb_dest | s_cropAabb_dest
    · subst s_cropAabb_dest
      exact transferL (((R.nil _).addW h_cropAabb.has r_dest .nil).addR h_aabb.has (.cons s_aabb_dest .nil)) (.p rfl (.p rfl (.p rfl .nil))) (glm_aabb2d_crop_run_cropAabb _ _) (DT.val_done _) rfl rfl
    · exact transferL ((((R.nil _).addW r_dest.has r_dest .nil).addR h_cropAabb.has (.cons s_cropAabb_dest .nil)).addR h_aabb.has (.skip (.cons s_aabb_dest .nil))) (.p rfl (.p rfl (.p rfl .nil))) (glm_aabb2d_crop_run _ _) (DT.val_done _) rfl rfl
example (aabb : M2 α) : let mem : Mem α := [⟨true, aabb.list.map .f⟩]
    Holds mem (0, 0) aabb.list ∧ Holds mem (0, 0) aabb.list ∧ Room mem (0, 0) 4 ∧ (((0, 0) : Ptr) = (0, 0) ∨ Apart (0, 0) 4 (0, 0) 4) ∧ (((0, 0) : Ptr) = (0, 0) ∨ Apart (0, 0) 4 (0, 0) 4) :=
  ⟨.block rfl, .block rfl, .block rfl rfl, Or.inl rfl, Or.inl rfl⟩

theorem C55_aabb2d_crop_until {mem : Mem α} {aabbP cropAabbP clampAabbP destP : Ptr} {aabb : M2 α} {cropAabb : M2 α} {clampAabb : M2 α} (h_aabb : Holds mem aabbP aabb.list) (h_cropAabb : Holds mem cropAabbP cropAabb.list) (h_clampAabb : Holds mem clampAabbP clampAabb.list) (r_dest : Room mem destP 4) (s_aabb_dest : aabbP = destP ∨ Apart aabbP 4 destP 4) (s_cropAabb_dest : cropAabbP = destP ∨ Apart cropAabbP 4 destP 4) (s_clampAabb_dest : Apart clampAabbP 4 destP 4) :
    C.glm_aabb2d_crop_until.run mem [aabbP.val, cropAabbP.val, clampAabbP.val, destP.val] =
      some (none, writes mem [(destP, (Cglm.glm_aabb2d_crop_until aabb cropAabb clampAabb).list.map .f)]) := by
  rcases s_aabb_dest with s_aabb_dest | s_aabb_dest
  · subst s_aabb_dest
    rcases s_cropAabb_dest with s_cropAabb_dest | s_cropAabb_dest
    · subst s_cropAabb_dest
      obtain rfl := M2.list_inj (h_aabb.inj h_cropAabb rfl)
      exact transferL (((R.nil _).addW h_aabb.has r_dest .nil).addR h_clampAabb.has (.cons s_clampAabb_dest .nil)) (.p rfl (.p rfl (.p rfl (.p rfl .nil)))) (glm_aabb2d_crop_until_run_aabb_cropAabb _ _) (DT.val_done _) rfl rfl
    · exact transferL ((((R.nil _).addW h_aabb.has r_dest .nil).addR h_clampAabb.has (.cons s_clampAabb_dest .nil)).addR h_cropAabb.has (.skip (.cons s_cropAabb_dest .nil))) (.p rfl (.p rfl (.p rfl (.p rfl .nil)))) (glm_aabb2d_crop_until_run_aabb _ _ _) (DT.val_done _) rfl rfl
  · rcases s_cropAabb_dest with s_cropAabb_dest | s_cropAabb_dest
    · subst s_cropAabb_dest
      exact transferL ((((R.nil _).addW h_cropAabb.has r_dest .nil).addR h_clampAabb.has (.cons s_clampAabb_dest .nil)).addR h_aabb.has (.skip (.cons s_aabb_dest .nil))) (.p rfl (.p rfl (.p rfl (.p rfl .nil)))) (glm_aabb2d_crop_until_run_cropAabb _ _ _) (DT.val_done _) rfl rfl
    · exact transferL (((((R.nil _).addW r_dest.has r_dest .nil).addR h_clampAabb.has (.cons s_clampAabb_dest .nil)).addR h_cropAabb.has (.skip (.cons s_cropAabb_dest .nil))).addR h_aabb.has (.skip (.skip (.cons s_aabb_dest .nil)))) (.p rfl (.p rfl (.p rfl (.p rfl .nil)))) (glm_aabb2d_crop_until_run _ _ _) (DT.val_done _) rfl rfl
example (aabb : M2 α) (clampAabb : M2 α) : let mem : Mem α := [⟨false, clampAabb.list.map .f⟩, ⟨true, aabb.list.map .f⟩]
    Holds mem (1, 0) aabb.list ∧ Holds mem (1, 0) aabb.list ∧ Holds mem (0, 0) clampAabb.list ∧ Room mem (1, 0) 4 ∧ (((1, 0) : Ptr) = (1, 0) ∨ Apart (1, 0) 4 (1, 0) 4) ∧ (((1, 0) : Ptr) = (1, 0) ∨ Apart (1, 0) 4 (1, 0) 4) ∧ Apart (0, 0) 4 (1, 0) 4 :=
  ⟨.block rfl, .block rfl, .block rfl, .block rfl rfl, Or.inl rfl, Or.inl rfl, Or.inl (by decide)⟩

end Cglm

end C55Aabb2d

section C55Box

/-!
# C55: destination may alias an argument (include/cglm/box.h)

Each input is either the destination itself or does not overlap it; the result is the value-level function of
what the inputs held before the call, and nothing outside the destination changes.
-/

set_option linter.unusedVariables false
set_option linter.unusedSectionVars false

namespace Cglm
open CMem

variable {α : Type} [Add α] [Sub α] [Mul α] [Div α] [Neg α] [CFloat α]

theorem C55_aabb_transform {mem : Mem α} {boxP mP destP : Ptr} {box : M2x3 α} {m : M4 α} (h_box : Holds mem boxP box.list) (h_m : Holds mem mP m.list) (r_dest : Room mem destP 6) (s_box_dest : boxP = destP ∨ Apart boxP 6 destP 6) (s_m_dest : Apart mP 16 destP 6) :
    C.glm_aabb_transform.run mem [boxP.val, mP.val, destP.val] =
      some (none, writes mem [(destP, (Cglm.glm_aabb_transform box m).list.map .f)]) := by
  rcases s_box_dest with s_box_dest | s_box_dest
  · subst s_box_dest
    exact transferL (((R.nil _).addW h_box.has r_dest .nil).addR h_m.has (.cons s_m_dest .nil)) (.p rfl (.p rfl (.p rfl .nil))) (glm_aabb_transform_run_box _ _) (DT.val_done _) rfl rfl
  · exact transferL ((((R.nil _).addW r_dest.has r_dest .nil).addR h_m.has (.cons s_m_dest .nil)).addR h_box.has (.skip (.cons s_box_dest .nil))) (.p rfl (.p rfl (.p rfl .nil))) (glm_aabb_transform_run _ _) (DT.val_done _) rfl rfl
example (box : M2x3 α) (m : M4 α) : let mem : Mem α := [⟨false, m.list.map .f⟩, ⟨true, box.list.map .f⟩]
    Holds mem (1, 0) box.list ∧ Holds mem (0, 0) m.list ∧ Room mem (1, 0) 6 ∧ (((1, 0) : Ptr) = (1, 0) ∨ Apart (1, 0) 6 (1, 0) 6) ∧ Apart (0, 0) 16 (1, 0) 6 :=
  ⟨.block rfl, .block rfl, .block rfl rfl, Or.inl rfl, Or.inl (by decide)⟩

theorem C55_aabb_merge {mem : Mem α} {box1P box2P destP : Ptr} {box1 : M2x3 α} {box2 : M2x3 α} (h_box1 : Holds mem box1P box1.list) (h_box2 : Holds mem box2P box2.list) (r_dest : Room mem destP 6) (s_box1_dest : box1P = destP ∨ Apart box1P 6 destP 6) (s_box2_dest : box2P = destP ∨ Apart box2P 6 destP 6) :
    C.glm_aabb_merge.run mem [box1P.val, box2P.val, destP.val] =
      some (none, writes mem [(destP, (Cglm.glm_aabb_merge box1 box2).list.map .f)]) := by
  rcases s_box1_dest with s_box1_dest | s_box1_dest
  · subst s_box1_dest
    rcases s_box2_dest with s_box2_dest | s_box2_dest
    · subst s_box2_dest
      obtain rfl := M2x3.list_inj (h_box1.inj h_box2 rfl)
      exact transferL ((R.nil _).addW h_box1.has r_dest .nil) (.p rfl (.p rfl (.p rfl .nil))) (glm_aabb_merge_run_box1_box2 _) (DT.val_done _) rfl rfl
    · exact transferL (((R.nil _).addW h_box1.has r_dest .nil).addR h_box2.has (.cons s_box2_dest .nil)) (.p rfl (.p rfl (.p rfl .nil))) (glm_aabb_merge_run_box1 _ _) (DT.val_done _) rfl rfl
  · rcases s_box2_dest with s_box2_dest | s_box2_dest
    · subst s_box2_dest
      exact transferL (((R.nil _).addW h_box2.has r_dest .nil).addR h_box1.has (.cons s_box1_dest .nil)) (.p rfl (.p rfl (.p rfl .nil))) (glm_aabb_merge_run_box2 _ _) (DT.val_done _) rfl rfl
    · exact transferL ((((R.nil _).addW r_dest.has r_dest .nil).addR h_box2.has (.cons s_box2_dest .nil)).addR h_box1.has (.skip (.cons s_box1_dest .nil))) (.p rfl (.p rfl (.p rfl .nil))) (glm_aabb_merge_run _ _) (DT.val_done _) rfl rfl
example (box1 : M2x3 α) : let mem : Mem α := [⟨true, box1.list.map .f⟩]
    Holds mem (0, 0) box1.list ∧ Holds mem (0, 0) box1.list ∧ Room mem (0, 0) 6 ∧ (((0, 0) : Ptr) = (0, 0) ∨ Apart (0, 0) 6 (0, 0) 6) ∧ (((0, 0) : Ptr) = (0, 0) ∨ Apart (0, 0) 6 (0, 0) 6) :=
  ⟨.block rfl, .block rfl, .block rfl rfl, Or.inl rfl, Or.inl rfl⟩

theorem C55_aabb_crop {mem : Mem α} {boxP cropBoxP destP : Ptr} {box : M2x3 α} {cropBox : M2x3 α} (h_box : Holds mem boxP box.list) (h_cropBox : Holds mem cropBoxP cropBox.list) (r_dest : Room mem destP 6) (s_box_dest : boxP = destP ∨ Apart boxP 6 destP 6) (s_cropBox_dest : cropBoxP = destP ∨ Apart cropBoxP 6 destP 6) :
    C.glm_aabb_crop.run mem [boxP.val, cropBoxP.val, destP.val] =
      some (none, writes mem [(destP, (Cglm.glm_aabb_crop box cropBox).list.map .f)]) := by
  rcases s_box_dest with s_box_dest | s_box_dest
  · subst s_box_dest
    rcases s_cropBox_dest with s_cropBox_dest | s_cropBox_dest
    · subst s_cropBox_dest
      obtain rfl := M2x3.list_inj (h_box.inj h_cropBox rfl)
      exact transferL ((R.nil _).addW h_box.has r_dest .nil) (.p rfl (.p rfl (.p rfl .nil))) (glm_aabb_crop_run_box_cropBox _) (DT.val_done _) rfl rfl
    · exact transferL (((R.nil _).addW h_box.has r_dest .nil).addR h_cropBox.has (.cons s_cropBox_dest .nil)) (.p rfl (.p rfl (.p rfl .nil))) (glm_aabb_crop_run_box _ _) (DT.val_done _) rfl rfl
  · rcases s_cropBox_dest with s_cropBox_dest | s_cropBox_dest
    · subst s_cropBox_dest
      exact transferL (((R.nil _).addW h_cropBox.has r_dest .nil).addR h_box.has (.cons s_box_dest .nil)) (.p rfl (.p rfl (.p rfl .nil))) (glm_aabb_crop_run_cropBox _ _) (DT.val_done _) rfl rfl
    · exact transferL ((((R.nil _).addW r_dest.has r_dest .nil).addR h_cropBox.has (.cons s_cropBox_dest .nil)).addR h_box.has (.skip (.cons s_box_dest .nil))) (.p rfl (.p rfl (.p rfl .nil))) (glm_aabb_crop_run _ _) (DT.val_done _) rfl rfl
example (box : M2x3 α) : let mem : Mem α := [⟨true, box.list.map .f⟩]
    Holds mem (0, 0) box.list ∧ Holds mem (0, 0) box.list ∧ Room mem (0, 0) 6 ∧ (((0, 0) : Ptr) = (0, 0) ∨ Apart (0, 0) 6 (0, 0) 6) ∧ (((0, 0) : Ptr) = (0, 0) ∨ Apart (0, 0) 6 (0, 0) 6) :=
  ⟨.block rfl, .block rfl, .block rfl rfl, Or.inl rfl, Or.inl rfl⟩

theorem C55_aabb_crop_until {mem : Mem α} {boxP cropBoxP clampBoxP destP : Ptr} {box : M2x3 α} {cropBox : M2x3 α} {clampBox : M2x3 α} (h_box : Holds mem boxP box.list) (h_cropBox : Holds mem cropBoxP cropBox.list) (h_clampBox : Holds mem clampBoxP clampBox.list) (r_dest : Room mem destP 6) (s_box_dest : boxP = destP ∨ Apart boxP 6 destP 6) (s_cropBox_dest : cropBoxP = destP ∨ Apart cropBoxP 6 destP 6) (s_clampBox_dest : Apart clampBoxP 6 destP 6) :
    C.glm_aabb_crop_until.run mem [boxP.val, cropBoxP.val, clampBoxP.val, destP.val] =
      some (none, writes mem [(destP, (Cglm.glm_aabb_crop_until box cropBox clampBox).list.map .f)]) := by
  rcases s_box_dest with s_box_dest | s_box_dest
  · subst s_box_dest
    rcases s_cropBox_dest with s_cropBox_dest | s_cropBox_dest
    · subst s_cropBox_dest
      obtain rfl := M2x3.list_inj (h_box.inj h_cropBox rfl)
      exact transferL (((R.nil _).addW h_box.has r_dest .nil).addR h_clampBox.has (.cons s_clampBox_dest .nil)) (.p rfl (.p rfl (.p rfl (.p rfl .nil)))) (glm_aabb_crop_until_run_box_cropBox _ _) (DT.val_done _) rfl rfl
    · exact transferL ((((R.nil _).addW h_box.has r_dest .nil).addR h_clampBox.has (.cons s_clampBox_dest .nil)).addR h_cropBox.has (.skip (.cons s_cropBox_dest .nil))) (.p rfl (.p rfl (.p rfl (.p rfl .nil)))) (glm_aabb_crop_until_run_box _ _ _) (DT.val_done _) rfl rfl
  · rcases s_cropBox_dest with s_cropBox_dest | s_cropBox_dest
    · subst s_cropBox_dest
      exact transferL ((((R.nil _).addW h_cropBox.has r_dest .nil).addR h_clampBox.has (.cons s_clampBox_dest .nil)).addR h_box.has (.skip (.cons s_box_dest .nil))) (.p rfl (.p rfl (.p rfl (.p rfl .nil)))) (glm_aabb_crop_until_run_cropBox _ _ _) (DT.val_done _) rfl rfl
    · exact transferL (((((R.nil _).addW r_dest.has r_dest .nil).addR h_clampBox.has (.cons s_clampBox_dest .nil)).addR h_cropBox.has (.skip (.cons s_cropBox_dest .nil))).addR h_box.has (.skip (.skip (.cons s_box_dest .nil)))) (.p rfl (.p rfl (.p rfl (.p rfl .nil)))) (glm_aabb_crop_until_run _ _ _) (DT.val_done _) rfl rfl
example (box : M2x3 α) (clampBox : M2x3 α) : let mem : Mem α := [⟨false, clampBox.list.map .f⟩, ⟨true, box.list.map .f⟩]
    Holds mem (1, 0) box.list ∧ Holds mem (1, 0) box.list ∧ Holds mem (0, 0) clampBox.list ∧ Room mem (1, 0) 6 ∧ (((1, 0) : Ptr) = (1, 0) ∨ Apart (1, 0) 6 (1, 0) 6) ∧ (((1, 0) : Ptr) = (1, 0) ∨ Apart (1, 0) 6 (1, 0) 6) ∧ Apart (0, 0) 6 (1, 0) 6 :=
  ⟨.block rfl, .block rfl, .block rfl, .block rfl rfl, Or.inl rfl, Or.inl rfl, Or.inl (by decide)⟩

end Cglm

end C55Box

section C55Decompose

/-!
# C55: decomposing a matrix in place

`glm_decompose` and `glm_decompose_rs` with the rotation written over the matrix test the handedness on the already
normalised columns.  The generic theorems leave this pair out; over the reals the result is the same.
-/

namespace Cglm
open CMem

section
variable {α : Type} [Add α] [Sub α] [Mul α] [Div α] [Neg α] [CFloat α]

/-- in-place `glm_decompose_rs` as a tree -/
def decompose_rs_inplace (m : M4 α) : DT (M4 α × V3 α) :=
  let c0 := glm_vec4_copy m.c0
  let c1 := glm_vec4_copy m.c1
  let c2 := glm_vec4_copy m.c2
  let c3 := glm_vec4_copy ⟨lit 0, lit 0, lit 0, lit 1⟩
  let s0 := glm_vec3_norm ⟨c0.x, c0.y, c0.z⟩
  let s1 := glm_vec3_norm ⟨c1.x, c1.y, c1.z⟩
  let s2 := glm_vec3_norm ⟨c2.x, c2.y, c2.z⟩
  let r0 := glm_vec4_scale c0 (lit 1 / s0)
  let r1 := glm_vec4_scale c1 (lit 1 / s1)
  let r2 := glm_vec4_scale c2 (lit 1 / s2)
  .br (flt (glm_vec3_dot (glm_vec3_cross ⟨r0.x, r0.y, r0.z⟩ ⟨r1.x, r1.y, r1.z⟩) ⟨r2.x, r2.y, r2.z⟩) (lit 0))
    (.done (⟨glm_vec4_negate r0, glm_vec4_negate r1, glm_vec4_negate r2, c3⟩, glm_vec3_negate ⟨s0, s1, s2⟩))
    (.done (⟨r0, r1, r2, c3⟩, ⟨s0, s1, s2⟩))

theorem decompose_rs_run_inplace (m : M4 α) :
    C.glm_decompose_rs.runT [⟨true, m.list.map .f⟩, ⟨true, List.replicate 3 .undef⟩] [.p 0 0, .p 0 0, .p 1 0] =
      (decompose_rs_inplace m).map fun r => some (none, [⟨true, r.1.list.map .f⟩, ⟨true, r.2.list.map .f⟩]) := by kernel_rfl
theorem decompose_run_inplace (m : M4 α) :
    C.glm_decompose.runT [⟨true, m.list.map .f⟩, ⟨true, List.replicate 4 .undef⟩, ⟨true, List.replicate 3 .undef⟩]
      [.p 0 0, .p 1 0, .p 0 0, .p 2 0] =
      (decompose_rs_inplace m).map fun r =>
        some (none, [⟨true, r.1.list.map .f⟩, ⟨true, m.c3.list.map .f⟩, ⟨true, r.2.list.map .f⟩]) := by kernel_rfl
end

theorem decompose_rs_inplace_val (m : M4 ℝ) : (decompose_rs_inplace m).val = glm_decompose_rs m := by
  obtain ⟨⟨a0, a1, a2, a3⟩, ⟨b0, b1, b2, b3⟩, ⟨c0, c1, c2, c3⟩, d⟩ := m
  unfold decompose_rs_inplace glm_decompose_rs
  dsimp only
  simp only [DT.val, glm_vec4_copy, flt_real, lit_zero, lit_one, decide_eq_true_eq]
  have key : (glm_vec3_dot (glm_vec3_cross
        ⟨(glm_vec4_scale ⟨a0, a1, a2, a3⟩ (1 / glm_vec3_norm ⟨a0, a1, a2⟩)).x, (glm_vec4_scale ⟨a0, a1, a2, a3⟩ (1 / glm_vec3_norm ⟨a0, a1, a2⟩)).y,
          (glm_vec4_scale ⟨a0, a1, a2, a3⟩ (1 / glm_vec3_norm ⟨a0, a1, a2⟩)).z⟩
        ⟨(glm_vec4_scale ⟨b0, b1, b2, b3⟩ (1 / glm_vec3_norm ⟨b0, b1, b2⟩)).x, (glm_vec4_scale ⟨b0, b1, b2, b3⟩ (1 / glm_vec3_norm ⟨b0, b1, b2⟩)).y,
          (glm_vec4_scale ⟨b0, b1, b2, b3⟩ (1 / glm_vec3_norm ⟨b0, b1, b2⟩)).z⟩)
        ⟨(glm_vec4_scale ⟨c0, c1, c2, c3⟩ (1 / glm_vec3_norm ⟨c0, c1, c2⟩)).x, (glm_vec4_scale ⟨c0, c1, c2, c3⟩ (1 / glm_vec3_norm ⟨c0, c1, c2⟩)).y,
          (glm_vec4_scale ⟨c0, c1, c2, c3⟩ (1 / glm_vec3_norm ⟨c0, c1, c2⟩)).z⟩ < 0) ↔
      (glm_vec3_dot (glm_vec3_cross ⟨a0, a1, a2⟩ ⟨b0, b1, b2⟩) ⟨c0, c1, c2⟩ : ℝ) < 0 := by
    have pos : ∀ x y z : ℝ, 0 < 1 / glm_vec3_norm ⟨x, y, z⟩ ∨ (x = 0 ∧ y = 0 ∧ z = 0) := by
      intro x y z
      by_cases h : x * x + y * y + z * z = 0
      · right
        have := mul_self_nonneg x; have := mul_self_nonneg y; have := mul_self_nonneg z
        refine ⟨?_, ?_, ?_⟩ <;> apply mul_self_eq_zero.mp <;> linarith
      · left
        have h2 : 0 < x * x + y * y + z * z := lt_of_le_of_ne
          (add_nonneg (add_nonneg (mul_self_nonneg x) (mul_self_nonneg y)) (mul_self_nonneg z)) (Ne.symm h)
        simp only [cglm]
        exact one_div_pos.mpr (Real.sqrt_pos.mpr h2)
    have ha := pos a0 a1 a2
    have hb := pos b0 b1 b2
    have hc := pos c0 c1 c2
    generalize (1 / glm_vec3_norm ⟨a0, a1, a2⟩ : ℝ) = u at *
    generalize (1 / glm_vec3_norm ⟨b0, b1, b2⟩ : ℝ) = v at *
    generalize (1 / glm_vec3_norm ⟨c0, c1, c2⟩ : ℝ) = w at *
    simp only [cglm]
    rcases ha with ha | ⟨rfl, rfl, rfl⟩
    · rcases hb with hb | ⟨rfl, rfl, rfl⟩
      · rcases hc with hc | ⟨rfl, rfl, rfl⟩
        · have e : (a1 * u * (b2 * v) - a2 * u * (b1 * v)) * (c0 * w) + (a2 * u * (b0 * v) - a0 * u * (b2 * v)) * (c1 * w) +
              (a0 * u * (b1 * v) - a1 * u * (b0 * v)) * (c2 * w) =
              (u * v * w) * ((a1 * b2 - a2 * b1) * c0 + (a2 * b0 - a0 * b2) * c1 + (a0 * b1 - a1 * b0) * c2) := by ring
          rw [e]
          exact ⟨fun h => by
            by_contra h'
            exact absurd h (not_lt.mpr (mul_nonneg (by positivity) (not_lt.mp h'))), fun h => mul_neg_of_pos_of_neg (by positivity) h⟩
        · simp
      · simp
    · simp
  by_cases h : (glm_vec3_dot (glm_vec3_cross ⟨a0, a1, a2⟩ ⟨b0, b1, b2⟩) ⟨c0, c1, c2⟩ : ℝ) < 0
  · rw [if_pos (key.mpr h), if_pos h]
  · rw [if_neg (fun h' => h (key.mp h')), if_neg h]

/-- `glm_decompose_rs(m, m, s)`: the rotation may overwrite the matrix -/
theorem C55_decompose_rs_inplace {mem : Mem ℝ} {mP sP : Ptr} {m : M4 ℝ} (h_m : Holds mem mP m.list) (r_r : Room mem mP 16) (r_s : Room mem sP 3)
    (s_m_s : Apart mP 16 sP 3) :
    C.glm_decompose_rs.run mem [mP.val, mP.val, sP.val] =
      some (none, writes mem [(mP, (glm_decompose_rs m).1.list.map .f), (sP, (glm_decompose_rs m).2.list.map .f)]) :=
  transferL (((R.nil _).addW r_s.has r_s .nil).addW h_m.has r_r (.cons s_m_s .nil)) (.p rfl (.p rfl (.p rfl .nil))) (decompose_rs_run_inplace m)
    (DT.val_map_eq (decompose_rs_inplace_val m) rfl) rfl rfl
example (m : M4 ℝ) : let mem : Mem ℝ := [⟨true, m.list.map .f⟩, ⟨true, List.replicate 3 .undef⟩]
    Holds mem (0, 0) m.list ∧ Room mem (0, 0) 16 ∧ Room mem (1, 0) 3 ∧ Apart (0, 0) 16 (1, 0) 3 :=
  ⟨.block rfl, .block rfl rfl, .block rfl rfl, Or.inl (by decide)⟩

/-- `glm_decompose(m, t, m, s)`: the rotation may overwrite the matrix -/
theorem C55_decompose_inplace {mem : Mem ℝ} {mP tP sP : Ptr} {m : M4 ℝ} (h_m : Holds mem mP m.list) (r_r : Room mem mP 16) (r_t : Room mem tP 4)
    (r_s : Room mem sP 3) (s_m_t : Apart mP 16 tP 4) (s_m_s : Apart mP 16 sP 3) (s_t_s : Apart tP 4 sP 3) :
    C.glm_decompose.run mem [mP.val, tP.val, mP.val, sP.val] =
      some (none, writes mem [(mP, (glm_decompose m).2.1.list.map .f), (tP, (glm_decompose m).1.list.map .f), (sP, (glm_decompose m).2.2.list.map .f)]) :=
  transferL ((((R.nil _).addW r_s.has r_s .nil).addW r_t.has r_t (.cons s_t_s .nil)).addW h_m.has r_r (.cons s_m_t (.cons s_m_s .nil)))
    (.p rfl (.p rfl (.p rfl (.p rfl .nil)))) (decompose_run_inplace m) (DT.val_map_eq (decompose_rs_inplace_val m) rfl) rfl rfl
example (m : M4 ℝ) : let mem : Mem ℝ := [⟨true, m.list.map .f⟩, ⟨true, List.replicate 4 .undef⟩, ⟨true, List.replicate 3 .undef⟩]
    Holds mem (0, 0) m.list ∧ Room mem (0, 0) 16 ∧ Room mem (1, 0) 4 ∧ Room mem (2, 0) 3 ∧ Apart (0, 0) 16 (1, 0) 4 ∧ Apart (0, 0) 16 (2, 0) 3 ∧
      Apart (1, 0) 4 (2, 0) 3 :=
  ⟨.block rfl, .block rfl rfl, .block rfl rfl, .block rfl rfl, Or.inl (by decide), Or.inl (by decide), Or.inl (by decide)⟩

end Cglm

end C55Decompose

section C55Ray

/-!
# C55: destination may alias an argument (include/cglm/ray.h)

Each input is either the destination itself or does not overlap it; the result is the value-level function of
what the inputs held before the call, and nothing outside the destination changes.
-/

set_option linter.unusedVariables false
set_option linter.unusedSectionVars false

namespace Cglm
open CMem

variable {α : Type} [Add α] [Sub α] [Mul α] [Div α] [Neg α] [CFloat α]

theorem C55_ray_at {mem : Mem α} {origP dirP pointP : Ptr} {orig : V3 α} {dir : V3 α} (t : α) (h_orig : Holds mem origP orig.list) (h_dir : Holds mem dirP dir.list) (r_point : Room mem pointP 3) (s_orig_point : origP = pointP ∨ Apart origP 3 pointP 3) (s_dir_point : dirP = pointP ∨ Apart dirP 3 pointP 3) :
    C.glm_ray_at.run mem [origP.val, dirP.val, .f t, pointP.val] =
      some (none, writes mem [(pointP, (Cglm.glm_ray_at orig dir t).list.map .f)]) := by
  rcases s_orig_point with s_orig_point | s_orig_point
  · subst s_orig_point
    rcases s_dir_point with s_dir_point | s_dir_point
    · subst s_dir_point
      obtain rfl := V3.list_inj (h_orig.inj h_dir rfl)
      exact transferL ((R.nil _).addW h_orig.has r_point .nil) (.p rfl (.p rfl (.f (.p rfl .nil)))) (glm_ray_at_run_orig_dir _ _) (DT.val_done _) rfl rfl
    · exact transferL (((R.nil _).addW h_orig.has r_point .nil).addR h_dir.has (.cons s_dir_point .nil)) (.p rfl (.p rfl (.f (.p rfl .nil)))) (glm_ray_at_run_orig _ _ _) (DT.val_done _) rfl rfl
  · rcases s_dir_point with s_dir_point | s_dir_point
    · subst s_dir_point
      exact transferL (((R.nil _).addW h_dir.has r_point .nil).addR h_orig.has (.cons s_orig_point .nil)) (.p rfl (.p rfl (.f (.p rfl .nil)))) (glm_ray_at_run_dir _ _ _) (DT.val_done _) rfl rfl
    · exact transferL ((((R.nil _).addW r_point.has r_point .nil).addR h_dir.has (.cons s_dir_point .nil)).addR h_orig.has (.skip (.cons s_orig_point .nil))) (.p rfl (.p rfl (.f (.p rfl .nil)))) (glm_ray_at_run _ _ _) (DT.val_done _) rfl rfl
example (orig : V3 α) : let mem : Mem α := [⟨true, orig.list.map .f⟩]
    Holds mem (0, 0) orig.list ∧ Holds mem (0, 0) orig.list ∧ Room mem (0, 0) 3 ∧ (((0, 0) : Ptr) = (0, 0) ∨ Apart (0, 0) 3 (0, 0) 3) ∧ (((0, 0) : Ptr) = (0, 0) ∨ Apart (0, 0) 3 (0, 0) 3) :=
  ⟨.block rfl, .block rfl, .block rfl rfl, Or.inl rfl, Or.inl rfl⟩

end Cglm

end C55Ray

section C55Sphere

/-!
# C55: destination may alias an argument (include/cglm/sphere.h)

Each input is either the destination itself or does not overlap it; the result is the value-level function of
what the inputs held before the call, and nothing outside the destination changes.
-/

set_option linter.unusedVariables false
set_option linter.unusedSectionVars false

namespace Cglm
open CMem

variable {α : Type} [Add α] [Sub α] [Mul α] [Div α] [Neg α] [CFloat α]

theorem C55_sphere_transform {mem : Mem α} {sP mP destP : Ptr} {s : V4 α} {m : M4 α} (h_s : Holds mem sP s.list) (h_m : Holds mem mP m.list) (r_dest : Room mem destP 4) (s_s_dest : sP = destP ∨ Apart sP 4 destP 4) (s_m_dest : Apart mP 16 destP 4) :
    C.glm_sphere_transform.run mem [sP.val, mP.val, destP.val] =
      some (none, writes mem [(destP, (Cglm.glm_sphere_transform s m).list.map .f)]) := by
  rcases s_s_dest with s_s_dest | s_s_dest
  · subst s_s_dest
    exact transferL (((R.nil _).addW h_s.has r_dest .nil).addR h_m.has (.cons s_m_dest .nil)) (.p rfl (.p rfl (.p rfl .nil))) (glm_sphere_transform_run_s _ _) (DT.val_done _) rfl rfl
  · exact transferL ((((R.nil _).addW r_dest.has r_dest .nil).addR h_m.has (.cons s_m_dest .nil)).addR h_s.has (.skip (.cons s_s_dest .nil))) (.p rfl (.p rfl (.p rfl .nil))) (glm_sphere_transform_run _ _) (DT.val_done _) rfl rfl
example (s : V4 α) (m : M4 α) : let mem : Mem α := [⟨false, m.list.map .f⟩, ⟨true, s.list.map .f⟩]
    Holds mem (1, 0) s.list ∧ Holds mem (0, 0) m.list ∧ Room mem (1, 0) 4 ∧ (((1, 0) : Ptr) = (1, 0) ∨ Apart (1, 0) 4 (1, 0) 4) ∧ Apart (0, 0) 16 (1, 0) 4 :=
  ⟨.block rfl, .block rfl, .block rfl rfl, Or.inl rfl, Or.inl (by decide)⟩

theorem C55_sphere_merge {mem : Mem α} {s1P s2P destP : Ptr} {s1 : V4 α} {s2 : V4 α} (h_s1 : Holds mem s1P s1.list) (h_s2 : Holds mem s2P s2.list) (r_dest : Room mem destP 4) (s_s1_dest : s1P = destP ∨ Apart s1P 4 destP 4) (s_s2_dest : s2P = destP ∨ Apart s2P 4 destP 4) :
    C.glm_sphere_merge.run mem [s1P.val, s2P.val, destP.val] =
      some (none, writes mem [(destP, (Cglm.glm_sphere_merge s1 s2).list.map .f)]) := by
  rcases s_s1_dest with s_s1_dest | s_s1_dest
  · subst s_s1_dest
    rcases s_s2_dest with s_s2_dest | s_s2_dest
    · subst s_s2_dest
      obtain rfl := V4.list_inj (h_s1.inj h_s2 rfl)
      exact transferL ((R.nil _).addW h_s1.has r_dest .nil) (.p rfl (.p rfl (.p rfl .nil))) (glm_sphere_merge_run_s1_s2 _) (DT.val_done _) rfl rfl
    · exact transferL (((R.nil _).addW h_s1.has r_dest .nil).addR h_s2.has (.cons s_s2_dest .nil)) (.p rfl (.p rfl (.p rfl .nil))) (glm_sphere_merge_run_s1 _ _) (DT.val_done _) rfl rfl
  · rcases s_s2_dest with s_s2_dest | s_s2_dest
    · subst s_s2_dest
      exact transferL (((R.nil _).addW h_s2.has r_dest .nil).addR h_s1.has (.cons s_s1_dest .nil)) (.p rfl (.p rfl (.p rfl .nil))) (glm_sphere_merge_run_s2 _ _) (DT.val_done _) rfl rfl
    · exact transferL ((((R.nil _).addW r_dest.has r_dest .nil).addR h_s2.has (.cons s_s2_dest .nil)).addR h_s1.has (.skip (.cons s_s1_dest .nil))) (.p rfl (.p rfl (.p rfl .nil))) (glm_sphere_merge_run _ _) (DT.val_done _) rfl rfl
example (s1 : V4 α) : let mem : Mem α := [⟨true, s1.list.map .f⟩]
    Holds mem (0, 0) s1.list ∧ Holds mem (0, 0) s1.list ∧ Room mem (0, 0) 4 ∧ (((0, 0) : Ptr) = (0, 0) ∨ Apart (0, 0) 4 (0, 0) 4) ∧ (((0, 0) : Ptr) = (0, 0) ∨ Apart (0, 0) 4 (0, 0) 4) :=
  ⟨.block rfl, .block rfl, .block rfl rfl, Or.inl rfl, Or.inl rfl⟩

end Cglm

end C55Sphere
