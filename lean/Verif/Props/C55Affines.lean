/- Generated by tools/memgen.py, joined by tools/merge.py; do not edit by hand. -/
import Verif.Mem.AffinesRun

section C55Affine

/-!
# C55: destination may alias an argument (include/cglm/affine.h)

Each input is either the destination itself or does not overlap it; the result is the value-level function of
what the inputs held before the call, and nothing outside the destination changes.
-/

set_option linter.unusedVariables false
set_option linter.unusedSectionVars false

namespace Cglm
open CMem

variable {α : Type} [Add α] [Sub α] [Mul α] [Div α] [Neg α] [CFloat α]

theorem C55_scale_to {mem : Mem α} {mP vP destP : Ptr} {m : M4 α} {v : V3 α} (h_m : Holds mem mP m.list) (h_v : Holds mem vP v.list) (r_dest : Room mem destP 16) (s_m_dest : mP = destP ∨ Apart mP 16 destP 16) (s_v_dest : Apart vP 3 destP 16) :
    C.glm_scale_to.run mem [mP.val, vP.val, destP.val] =
      some (none, writes mem [(destP, (Cglm.glm_scale_to m v).list.map .f)]) := by
  rcases s_m_dest with s_m_dest | s_m_dest
  · subst s_m_dest
    exact transferL (((R.nil _).addW h_m.has r_dest .nil).addR h_v.has (.cons s_v_dest .nil)) (.p rfl (.p rfl (.p rfl .nil))) (glm_scale_to_run_m _ _) (DT.val_done _) rfl rfl
  · exact transferL ((((R.nil _).addW r_dest.has r_dest .nil).addR h_v.has (.cons s_v_dest .nil)).addR h_m.has (.skip (.cons s_m_dest .nil))) (.p rfl (.p rfl (.p rfl .nil))) (glm_scale_to_run _ _) (DT.val_done _) rfl rfl
example (m : M4 α) (v : V3 α) : let mem : Mem α := [⟨false, v.list.map .f⟩, ⟨true, m.list.map .f⟩]
    Holds mem (1, 0) m.list ∧ Holds mem (0, 0) v.list ∧ Room mem (1, 0) 16 ∧ (((1, 0) : Ptr) = (1, 0) ∨ Apart (1, 0) 16 (1, 0) 16) ∧ Apart (0, 0) 3 (1, 0) 16 :=
  ⟨.block rfl, .block rfl, .block rfl rfl, Or.inl rfl, Or.inl (by decide)⟩

end Cglm

end C55Affine

section C55Affine2d

/-!
# C55: destination may alias an argument (include/cglm/affine2d.h)

Each input is either the destination itself or does not overlap it; the result is the value-level function of
what the inputs held before the call, and nothing outside the destination changes.
-/

set_option linter.unusedVariables false
set_option linter.unusedSectionVars false

namespace Cglm
open CMem

variable {α : Type} [Add α] [Sub α] [Mul α] [Div α] [Neg α] [CFloat α]

theorem C55_translate2d_to {mem : Mem α} {mP vP destP : Ptr} {m : M3 α} {v : V2 α} (h_m : Holds mem mP m.list) (h_v : Holds mem vP v.list) (r_dest : Room mem destP 9) (s_m_dest : mP = destP ∨ Apart mP 9 destP 9) (s_v_dest : Apart vP 2 destP 9) :
    C.glm_translate2d_to.run mem [mP.val, vP.val, destP.val] =
      some (none, writes mem [(destP, (Cglm.glm_translate2d_to m v).list.map .f)]) := by
  rcases s_m_dest with s_m_dest | s_m_dest
  · subst s_m_dest
    exact transferL (((R.nil _).addW h_m.has r_dest .nil).addR h_v.has (.cons s_v_dest .nil)) (.p rfl (.p rfl (.p rfl .nil))) (glm_translate2d_to_run_m _ _) (DT.val_done _) rfl rfl
  · exact transferL ((((R.nil _).addW r_dest.has r_dest .nil).addR h_v.has (.cons s_v_dest .nil)).addR h_m.has (.skip (.cons s_m_dest .nil))) (.p rfl (.p rfl (.p rfl .nil))) (glm_translate2d_to_run _ _) (DT.val_done _) rfl rfl
example (m : M3 α) (v : V2 α) : let mem : Mem α := [⟨false, v.list.map .f⟩, ⟨true, m.list.map .f⟩]
    Holds mem (1, 0) m.list ∧ Holds mem (0, 0) v.list ∧ Room mem (1, 0) 9 ∧ (((1, 0) : Ptr) = (1, 0) ∨ Apart (1, 0) 9 (1, 0) 9) ∧ Apart (0, 0) 2 (1, 0) 9 :=
  ⟨.block rfl, .block rfl, .block rfl rfl, Or.inl rfl, Or.inl (by decide)⟩

theorem C55_scale2d_to {mem : Mem α} {mP vP destP : Ptr} {m : M3 α} {v : V2 α} (h_m : Holds mem mP m.list) (h_v : Holds mem vP v.list) (r_dest : Room mem destP 9) (s_m_dest : mP = destP ∨ Apart mP 9 destP 9) (s_v_dest : Apart vP 2 destP 9) :
    C.glm_scale2d_to.run mem [mP.val, vP.val, destP.val] =
      some (none, writes mem [(destP, (Cglm.glm_scale2d_to m v).list.map .f)]) := by
  rcases s_m_dest with s_m_dest | s_m_dest
  · subst s_m_dest
    exact transferL (((R.nil _).addW h_m.has r_dest .nil).addR h_v.has (.cons s_v_dest .nil)) (.p rfl (.p rfl (.p rfl .nil))) (glm_scale2d_to_run_m _ _) (DT.val_done _) rfl rfl
  · exact transferL ((((R.nil _).addW r_dest.has r_dest .nil).addR h_v.has (.cons s_v_dest .nil)).addR h_m.has (.skip (.cons s_m_dest .nil))) (.p rfl (.p rfl (.p rfl .nil))) (glm_scale2d_to_run _ _) (DT.val_done _) rfl rfl
example (m : M3 α) (v : V2 α) : let mem : Mem α := [⟨false, v.list.map .f⟩, ⟨true, m.list.map .f⟩]
    Holds mem (1, 0) m.list ∧ Holds mem (0, 0) v.list ∧ Room mem (1, 0) 9 ∧ (((1, 0) : Ptr) = (1, 0) ∨ Apart (1, 0) 9 (1, 0) 9) ∧ Apart (0, 0) 2 (1, 0) 9 :=
  ⟨.block rfl, .block rfl, .block rfl rfl, Or.inl rfl, Or.inl (by decide)⟩

theorem C55_rotate2d_to {mem : Mem α} {mP destP : Ptr} {m : M3 α} (angle : α) (h_m : Holds mem mP m.list) (r_dest : Room mem destP 9) (s_m_dest : mP = destP ∨ Apart mP 9 destP 9) :
    C.glm_rotate2d_to.run mem [mP.val, .f angle, destP.val] =
      some (none, writes mem [(destP, (Cglm.glm_rotate2d_to m angle).list.map .f)]) := by
  rcases s_m_dest with s_m_dest | s_m_dest
  · subst s_m_dest
    exact transferL ((R.nil _).addW h_m.has r_dest .nil) (.p rfl (.f (.p rfl .nil))) (glm_rotate2d_to_run_m _ _) (DT.val_done _) rfl rfl
  · exact transferL (((R.nil _).addW r_dest.has r_dest .nil).addR h_m.has (.cons s_m_dest .nil)) (.p rfl (.f (.p rfl .nil))) (glm_rotate2d_to_run _ _) (DT.val_done _) rfl rfl
example (m : M3 α) : let mem : Mem α := [⟨true, m.list.map .f⟩]
    Holds mem (0, 0) m.list ∧ Room mem (0, 0) 9 ∧ (((0, 0) : Ptr) = (0, 0) ∨ Apart (0, 0) 9 (0, 0) 9) :=
  ⟨.block rfl, .block rfl rfl, Or.inl rfl⟩

end Cglm

end C55Affine2d

section C55AffineMat

/-!
# C55: destination may alias an argument (include/cglm/affine-mat.h)

Each input is either the destination itself or does not overlap it; the result is the value-level function of
what the inputs held before the call, and nothing outside the destination changes.
-/

set_option linter.unusedVariables false
set_option linter.unusedSectionVars false

namespace Cglm
open CMem

variable {α : Type} [Add α] [Sub α] [Mul α] [Div α] [Neg α] [CFloat α]

theorem C55_mul {mem : Mem α} {m1P m2P destP : Ptr} {m1 : M4 α} {m2 : M4 α} (h_m1 : Holds mem m1P m1.list) (h_m2 : Holds mem m2P m2.list) (r_dest : Room mem destP 16) (s_m1_dest : m1P = destP ∨ Apart m1P 16 destP 16) (s_m2_dest : m2P = destP ∨ Apart m2P 16 destP 16) :
    C.glm_mul.run mem [m1P.val, m2P.val, destP.val] =
      some (none, writes mem [(destP, (Cglm.glm_mul m1 m2).list.map .f)]) := by
  rcases s_m1_dest with s_m1_dest | s_m1_dest
  · subst s_m1_dest
    rcases s_m2_dest with s_m2_dest | s_m2_dest
    · subst s_m2_dest
      obtain rfl := M4.list_inj (h_m1.inj h_m2 rfl)
      exact transferL ((R.nil _).addW h_m1.has r_dest .nil) (.p rfl (.p rfl (.p rfl .nil))) (glm_mul_run_m1_m2 _) (DT.val_done _) rfl rfl
    · exact transferL (((R.nil _).addW h_m1.has r_dest .nil).addR h_m2.has (.cons s_m2_dest .nil)) (.p rfl (.p rfl (.p rfl .nil))) (glm_mul_run_m1 _ _) (DT.val_done _) rfl rfl
  · rcases s_m2_dest with s_m2_dest | s_m2_dest
    · subst s_m2_dest
      exact transferL (((R.nil _).addW h_m2.has r_dest .nil).addR h_m1.has (.cons s_m1_dest .nil)) (.p rfl (.p rfl (.p rfl .nil))) (glm_mul_run_m2 _ _) (DT.val_done _) rfl rfl
    · exact transferL ((((R.nil _).addW r_dest.has r_dest .nil).addR h_m2.has (.cons s_m2_dest .nil)).addR h_m1.has (.skip (.cons s_m1_dest .nil))) (.p rfl (.p rfl (.p rfl .nil))) (glm_mul_run _ _) (DT.val_done _) rfl rfl
example (m1 : M4 α) : let mem : Mem α := [⟨true, m1.list.map .f⟩]
    Holds mem (0, 0) m1.list ∧ Holds mem (0, 0) m1.list ∧ Room mem (0, 0) 16 ∧ (((0, 0) : Ptr) = (0, 0) ∨ Apart (0, 0) 16 (0, 0) 16) ∧ (((0, 0) : Ptr) = (0, 0) ∨ Apart (0, 0) 16 (0, 0) 16) :=
  ⟨.block rfl, .block rfl, .block rfl rfl, Or.inl rfl, Or.inl rfl⟩

theorem C55_mul_rot {mem : Mem α} {m1P m2P destP : Ptr} {m1 : M4 α} {m2 : M4 α} (h_m1 : Holds mem m1P m1.list) (h_m2 : Holds mem m2P m2.list) (r_dest : Room mem destP 16) (s_m1_dest : m1P = destP ∨ Apart m1P 16 destP 16) (s_m2_dest : m2P = destP ∨ Apart m2P 16 destP 16) :
    C.glm_mul_rot.run mem [m1P.val, m2P.val, destP.val] =
      some (none, writes mem [(destP, (Cglm.glm_mul_rot m1 m2).list.map .f)]) := by
  rcases s_m1_dest with s_m1_dest | s_m1_dest
  · subst s_m1_dest
    rcases s_m2_dest with s_m2_dest | s_m2_dest
    · subst s_m2_dest
      obtain rfl := M4.list_inj (h_m1.inj h_m2 rfl)
      exact transferL ((R.nil _).addW h_m1.has r_dest .nil) (.p rfl (.p rfl (.p rfl .nil))) (glm_mul_rot_run_m1_m2 _) (DT.val_done _) rfl rfl
    · exact transferL (((R.nil _).addW h_m1.has r_dest .nil).addR h_m2.has (.cons s_m2_dest .nil)) (.p rfl (.p rfl (.p rfl .nil))) (glm_mul_rot_run_m1 _ _) (DT.val_done _) rfl rfl
  · rcases s_m2_dest with s_m2_dest | s_m2_dest
    · subst s_m2_dest
      exact transferL (((R.nil _).addW h_m2.has r_dest .nil).addR h_m1.has (.cons s_m1_dest .nil)) (.p rfl (.p rfl (.p rfl .nil))) (glm_mul_rot_run_m2 _ _) (DT.val_done _) rfl rfl
    · exact transferL ((((R.nil _).addW r_dest.has r_dest .nil).addR h_m2.has (.cons s_m2_dest .nil)).addR h_m1.has (.skip (.cons s_m1_dest .nil))) (.p rfl (.p rfl (.p rfl .nil))) (glm_mul_rot_run _ _) (DT.val_done _) rfl rfl
example (m1 : M4 α) : let mem : Mem α := [⟨true, m1.list.map .f⟩]
    Holds mem (0, 0) m1.list ∧ Holds mem (0, 0) m1.list ∧ Room mem (0, 0) 16 ∧ (((0, 0) : Ptr) = (0, 0) ∨ Apart (0, 0) 16 (0, 0) 16) ∧ (((0, 0) : Ptr) = (0, 0) ∨ Apart (0, 0) 16 (0, 0) 16) :=
  ⟨.block rfl, .block rfl, .block rfl rfl, Or.inl rfl, Or.inl rfl⟩

end Cglm

end C55AffineMat

section C55AffinePost

/-!
# C55: destination may alias an argument (include/cglm/affine-post.h)

Each input is either the destination itself or does not overlap it; the result is the value-level function of
what the inputs held before the call, and nothing outside the destination changes.
-/

set_option linter.unusedVariables false
set_option linter.unusedSectionVars false

namespace Cglm
open CMem

variable {α : Type} [Add α] [Sub α] [Mul α] [Div α] [Neg α] [CFloat α]

theorem C55_translated_to {mem : Mem α} {mP vP destP : Ptr} {m : M4 α} {v : V3 α} (h_m : Holds mem mP m.list) (h_v : Holds mem vP v.list) (r_dest : Room mem destP 16) (s_m_dest : mP = destP ∨ Apart mP 16 destP 16) (s_v_dest : Apart vP 3 destP 16) :
    C.glm_translated_to.run mem [mP.val, vP.val, destP.val] =
      some (none, writes mem [(destP, (Cglm.glm_translated_to m v).list.map .f)]) := by
  rcases s_m_dest with s_m_dest | s_m_dest
  · subst s_m_dest
    exact transferL (((R.nil _).addW h_m.has r_dest .nil).addR h_v.has (.cons s_v_dest .nil)) (.p rfl (.p rfl (.p rfl .nil))) (glm_translated_to_run_m _ _) (DT.val_done _) rfl rfl
  · exact transferL ((((R.nil _).addW r_dest.has r_dest .nil).addR h_v.has (.cons s_v_dest .nil)).addR h_m.has (.skip (.cons s_m_dest .nil))) (.p rfl (.p rfl (.p rfl .nil))) (glm_translated_to_run _ _) (DT.val_done _) rfl rfl
example (m : M4 α) (v : V3 α) : let mem : Mem α := [⟨false, v.list.map .f⟩, ⟨true, m.list.map .f⟩]
    Holds mem (1, 0) m.list ∧ Holds mem (0, 0) v.list ∧ Room mem (1, 0) 16 ∧ (((1, 0) : Ptr) = (1, 0) ∨ Apart (1, 0) 16 (1, 0) 16) ∧ Apart (0, 0) 3 (1, 0) 16 :=
  ⟨.block rfl, .block rfl, .block rfl rfl, Or.inl rfl, Or.inl (by decide)⟩

theorem C55_rotated_x {mem : Mem α} {mP destP : Ptr} {m : M4 α} (angle : α) (h_m : Holds mem mP m.list) (r_dest : Room mem destP 16) (s_m_dest : mP = destP ∨ Apart mP 16 destP 16) :
    C.glm_rotated_x.run mem [mP.val, .f angle, destP.val] =
      some (none, writes mem [(destP, (Cglm.glm_rotated_x m angle).list.map .f)]) := by
  rcases s_m_dest with s_m_dest | s_m_dest
  · subst s_m_dest
    exact transferL ((R.nil _).addW h_m.has r_dest .nil) (.p rfl (.f (.p rfl .nil))) (glm_rotated_x_run_m _ _) (DT.val_done _) rfl rfl
  · exact transferL (((R.nil _).addW r_dest.has r_dest .nil).addR h_m.has (.cons s_m_dest .nil)) (.p rfl (.f (.p rfl .nil))) (glm_rotated_x_run _ _) (DT.val_done _) rfl rfl
example (m : M4 α) : let mem : Mem α := [⟨true, m.list.map .f⟩]
    Holds mem (0, 0) m.list ∧ Room mem (0, 0) 16 ∧ (((0, 0) : Ptr) = (0, 0) ∨ Apart (0, 0) 16 (0, 0) 16) :=
  ⟨.block rfl, .block rfl rfl, Or.inl rfl⟩

theorem C55_rotated_y {mem : Mem α} {mP destP : Ptr} {m : M4 α} (angle : α) (h_m : Holds mem mP m.list) (r_dest : Room mem destP 16) (s_m_dest : mP = destP ∨ Apart mP 16 destP 16) :
    C.glm_rotated_y.run mem [mP.val, .f angle, destP.val] =
      some (none, writes mem [(destP, (Cglm.glm_rotated_y m angle).list.map .f)]) := by
  rcases s_m_dest with s_m_dest | s_m_dest
  · subst s_m_dest
    exact transferL ((R.nil _).addW h_m.has r_dest .nil) (.p rfl (.f (.p rfl .nil))) (glm_rotated_y_run_m _ _) (DT.val_done _) rfl rfl
  · exact transferL (((R.nil _).addW r_dest.has r_dest .nil).addR h_m.has (.cons s_m_dest .nil)) (.p rfl (.f (.p rfl .nil))) (glm_rotated_y_run _ _) (DT.val_done _) rfl rfl
example (m : M4 α) : let mem : Mem α := [⟨true, m.list.map .f⟩]
    Holds mem (0, 0) m.list ∧ Room mem (0, 0) 16 ∧ (((0, 0) : Ptr) = (0, 0) ∨ Apart (0, 0) 16 (0, 0) 16) :=
  ⟨.block rfl, .block rfl rfl, Or.inl rfl⟩

theorem C55_rotated_z {mem : Mem α} {mP destP : Ptr} {m : M4 α} (angle : α) (h_m : Holds mem mP m.list) (r_dest : Room mem destP 16) (s_m_dest : mP = destP ∨ Apart mP 16 destP 16) :
    C.glm_rotated_z.run mem [mP.val, .f angle, destP.val] =
      some (none, writes mem [(destP, (Cglm.glm_rotated_z m angle).list.map .f)]) := by
  rcases s_m_dest with s_m_dest | s_m_dest
  · subst s_m_dest
    exact transferL ((R.nil _).addW h_m.has r_dest .nil) (.p rfl (.f (.p rfl .nil))) (glm_rotated_z_run_m _ _) (DT.val_done _) rfl rfl
  · exact transferL (((R.nil _).addW r_dest.has r_dest .nil).addR h_m.has (.cons s_m_dest .nil)) (.p rfl (.f (.p rfl .nil))) (glm_rotated_z_run _ _) (DT.val_done _) rfl rfl
example (m : M4 α) : let mem : Mem α := [⟨true, m.list.map .f⟩]
    Holds mem (0, 0) m.list ∧ Room mem (0, 0) 16 ∧ (((0, 0) : Ptr) = (0, 0) ∨ Apart (0, 0) 16 (0, 0) 16) :=
  ⟨.block rfl, .block rfl rfl, Or.inl rfl⟩

end Cglm

end C55AffinePost

section C55AffinePre

/-!
# C55: destination may alias an argument (include/cglm/affine-pre.h)

Each input is either the destination itself or does not overlap it; the result is the value-level function of
what the inputs held before the call, and nothing outside the destination changes.
-/

set_option linter.unusedVariables false
set_option linter.unusedSectionVars false

namespace Cglm
open CMem

variable {α : Type} [Add α] [Sub α] [Mul α] [Div α] [Neg α] [CFloat α]

theorem C55_translate_to {mem : Mem α} {mP vP destP : Ptr} {m : M4 α} {v : V3 α} (h_m : Holds mem mP m.list) (h_v : Holds mem vP v.list) (r_dest : Room mem destP 16) (s_m_dest : mP = destP ∨ Apart mP 16 destP 16) (s_v_dest : Apart vP 3 destP 16) :
    C.glm_translate_to.run mem [mP.val, vP.val, destP.val] =
      some (none, writes mem [(destP, (Cglm.glm_translate_to m v).list.map .f)]) := by
  rcases s_m_dest with s_m_dest | s_m_dest
  · subst s_m_dest
    exact transferL (((R.nil _).addW h_m.has r_dest .nil).addR h_v.has (.cons s_v_dest .nil)) (.p rfl (.p rfl (.p rfl .nil))) (glm_translate_to_run_m _ _) (DT.val_done _) rfl rfl
  · exact transferL ((((R.nil _).addW r_dest.has r_dest .nil).addR h_v.has (.cons s_v_dest .nil)).addR h_m.has (.skip (.cons s_m_dest .nil))) (.p rfl (.p rfl (.p rfl .nil))) (glm_translate_to_run _ _) (DT.val_done _) rfl rfl
example (m : M4 α) (v : V3 α) : let mem : Mem α := [⟨false, v.list.map .f⟩, ⟨true, m.list.map .f⟩]
    Holds mem (1, 0) m.list ∧ Holds mem (0, 0) v.list ∧ Room mem (1, 0) 16 ∧ (((1, 0) : Ptr) = (1, 0) ∨ Apart (1, 0) 16 (1, 0) 16) ∧ Apart (0, 0) 3 (1, 0) 16 :=
  ⟨.block rfl, .block rfl, .block rfl rfl, Or.inl rfl, Or.inl (by decide)⟩

theorem C55_rotate_x {mem : Mem α} {mP destP : Ptr} {m : M4 α} (angle : α) (h_m : Holds mem mP m.list) (r_dest : Room mem destP 16) (s_m_dest : mP = destP ∨ Apart mP 16 destP 16) :
    C.glm_rotate_x.run mem [mP.val, .f angle, destP.val] =
      some (none, writes mem [(destP, (Cglm.glm_rotate_x m angle).list.map .f)]) := by
  rcases s_m_dest with s_m_dest | s_m_dest
  · subst s_m_dest
    exact transferL ((R.nil _).addW h_m.has r_dest .nil) (.p rfl (.f (.p rfl .nil))) (glm_rotate_x_run_m _ _) (DT.val_done _) rfl rfl
  · exact transferL (((R.nil _).addW r_dest.has r_dest .nil).addR h_m.has (.cons s_m_dest .nil)) (.p rfl (.f (.p rfl .nil))) (glm_rotate_x_run _ _) (DT.val_done _) rfl rfl
example (m : M4 α) : let mem : Mem α := [⟨true, m.list.map .f⟩]
    Holds mem (0, 0) m.list ∧ Room mem (0, 0) 16 ∧ (((0, 0) : Ptr) = (0, 0) ∨ Apart (0, 0) 16 (0, 0) 16) :=
  ⟨.block rfl, .block rfl rfl, Or.inl rfl⟩

theorem C55_rotate_y {mem : Mem α} {mP destP : Ptr} {m : M4 α} (angle : α) (h_m : Holds mem mP m.list) (r_dest : Room mem destP 16) (s_m_dest : mP = destP ∨ Apart mP 16 destP 16) :
    C.glm_rotate_y.run mem [mP.val, .f angle, destP.val] =
      some (none, writes mem [(destP, (Cglm.glm_rotate_y m angle).list.map .f)]) := by
  rcases s_m_dest with s_m_dest | s_m_dest
  · subst s_m_dest
    exact transferL ((R.nil _).addW h_m.has r_dest .nil) (.p rfl (.f (.p rfl .nil))) (glm_rotate_y_run_m _ _) (DT.val_done _) rfl rfl
  · exact transferL (((R.nil _).addW r_dest.has r_dest .nil).addR h_m.has (.cons s_m_dest .nil)) (.p rfl (.f (.p rfl .nil))) (glm_rotate_y_run _ _) (DT.val_done _) rfl rfl
example (m : M4 α) : let mem : Mem α := [⟨true, m.list.map .f⟩]
    Holds mem (0, 0) m.list ∧ Room mem (0, 0) 16 ∧ (((0, 0) : Ptr) = (0, 0) ∨ Apart (0, 0) 16 (0, 0) 16) :=
  ⟨.block rfl, .block rfl rfl, Or.inl rfl⟩

theorem C55_rotate_z {mem : Mem α} {mP destP : Ptr} {m : M4 α} (angle : α) (h_m : Holds mem mP m.list) (r_dest : Room mem destP 16) (s_m_dest : mP = destP ∨ Apart mP 16 destP 16) :
    C.glm_rotate_z.run mem [mP.val, .f angle, destP.val] =
      some (none, writes mem [(destP, (Cglm.glm_rotate_z m angle).list.map .f)]) := by
  rcases s_m_dest with s_m_dest | s_m_dest
  · subst s_m_dest
    exact transferL ((R.nil _).addW h_m.has r_dest .nil) (.p rfl (.f (.p rfl .nil))) (glm_rotate_z_run_m _ _) (DT.val_done _) rfl rfl
  · exact transferL (((R.nil _).addW r_dest.has r_dest .nil).addR h_m.has (.cons s_m_dest .nil)) (.p rfl (.f (.p rfl .nil))) (glm_rotate_z_run _ _) (DT.val_done _) rfl rfl
example (m : M4 α) : let mem : Mem α := [⟨true, m.list.map .f⟩]
    Holds mem (0, 0) m.list ∧ Room mem (0, 0) 16 ∧ (((0, 0) : Ptr) = (0, 0) ∨ Apart (0, 0) 16 (0, 0) 16) :=
  ⟨.block rfl, .block rfl rfl, Or.inl rfl⟩

end Cglm

end C55AffinePre

section C55ClipspaceProjectNo

/-!
# C55: destination may alias an argument (include/cglm/clipspace/project_no.h)

Each input is either the destination itself or does not overlap it; the result is the value-level function of
what the inputs held before the call, and nothing outside the destination changes.
-/

set_option linter.unusedVariables false
set_option linter.unusedSectionVars false

namespace Cglm
open CMem

variable {α : Type} [Add α] [Sub α] [Mul α] [Div α] [Neg α] [CFloat α]

theorem C55_unprojecti_no {mem : Mem α} {posP invMatP vpP destP : Ptr} {pos : V3 α} {invMat : M4 α} {vp : V4 α} (h_pos : Holds mem posP pos.list) (h_invMat : Holds mem invMatP invMat.list) (h_vp : Holds mem vpP vp.list) (r_dest : Room mem destP 3) (s_pos_dest : posP = destP ∨ Apart posP 3 destP 3) (s_invMat_dest : Apart invMatP 16 destP 3) (s_vp_dest : Apart vpP 4 destP 3) :
    C.glm_unprojecti_no.run mem [posP.val, invMatP.val, vpP.val, destP.val] =
      some (none, writes mem [(destP, (Cglm.glm_unprojecti_no pos invMat vp).list.map .f)]) := by
  rcases s_pos_dest with s_pos_dest | s_pos_dest
  · subst s_pos_dest
    exact transferL ((((R.nil _).addW h_pos.has r_dest .nil).addR h_vp.has (.cons s_vp_dest .nil)).addR h_invMat.has (.skip (.cons s_invMat_dest .nil))) (.p rfl (.p rfl (.p rfl (.p rfl .nil)))) (glm_unprojecti_no_run_pos _ _ _) (DT.val_done _) rfl rfl
  · exact transferL (((((R.nil _).addW r_dest.has r_dest .nil).addR h_vp.has (.cons s_vp_dest .nil)).addR h_invMat.has (.skip (.cons s_invMat_dest .nil))).addR h_pos.has (.skip (.skip (.cons s_pos_dest .nil)))) (.p rfl (.p rfl (.p rfl (.p rfl .nil)))) (glm_unprojecti_no_run _ _ _) (DT.val_done _) rfl rfl
example (pos : V3 α) (invMat : M4 α) (vp : V4 α) : let mem : Mem α := [⟨false, invMat.list.map .f⟩, ⟨false, vp.list.map .f⟩, ⟨true, pos.list.map .f⟩]
    Holds mem (2, 0) pos.list ∧ Holds mem (0, 0) invMat.list ∧ Holds mem (1, 0) vp.list ∧ Room mem (2, 0) 3 ∧ (((2, 0) : Ptr) = (2, 0) ∨ Apart (2, 0) 3 (2, 0) 3) ∧ Apart (0, 0) 16 (2, 0) 3 ∧ Apart (1, 0) 4 (2, 0) 3 :=
  ⟨.block rfl, .block rfl, .block rfl, .block rfl rfl, Or.inl rfl, Or.inl (by decide), Or.inl (by decide)⟩

theorem C55_project_no {mem : Mem α} {posP mP vpP destP : Ptr} {pos : V3 α} {m : M4 α} {vp : V4 α} (h_pos : Holds mem posP pos.list) (h_m : Holds mem mP m.list) (h_vp : Holds mem vpP vp.list) (r_dest : Room mem destP 3) (s_pos_dest : posP = destP ∨ Apart posP 3 destP 3) (s_m_dest : Apart mP 16 destP 3) (s_vp_dest : Apart vpP 4 destP 3) :
    C.glm_project_no.run mem [posP.val, mP.val, vpP.val, destP.val] =
      some (none, writes mem [(destP, (Cglm.glm_project_no pos m vp).list.map .f)]) := by
  rcases s_pos_dest with s_pos_dest | s_pos_dest
  · subst s_pos_dest
    exact transferL ((((R.nil _).addW h_pos.has r_dest .nil).addR h_vp.has (.cons s_vp_dest .nil)).addR h_m.has (.skip (.cons s_m_dest .nil))) (.p rfl (.p rfl (.p rfl (.p rfl .nil)))) (glm_project_no_run_pos _ _ _) (DT.val_done _) rfl rfl
  · exact transferL (((((R.nil _).addW r_dest.has r_dest .nil).addR h_vp.has (.cons s_vp_dest .nil)).addR h_m.has (.skip (.cons s_m_dest .nil))).addR h_pos.has (.skip (.skip (.cons s_pos_dest .nil)))) (.p rfl (.p rfl (.p rfl (.p rfl .nil)))) (glm_project_no_run _ _ _) (DT.val_done _) rfl rfl
example (pos : V3 α) (m : M4 α) (vp : V4 α) : let mem : Mem α := [⟨false, m.list.map .f⟩, ⟨false, vp.list.map .f⟩, ⟨true, pos.list.map .f⟩]
    Holds mem (2, 0) pos.list ∧ Holds mem (0, 0) m.list ∧ Holds mem (1, 0) vp.list ∧ Room mem (2, 0) 3 ∧ (((2, 0) : Ptr) = (2, 0) ∨ Apart (2, 0) 3 (2, 0) 3) ∧ Apart (0, 0) 16 (2, 0) 3 ∧ Apart (1, 0) 4 (2, 0) 3 :=
  ⟨.block rfl, .block rfl, .block rfl, .block rfl rfl, Or.inl rfl, Or.inl (by decide), Or.inl (by decide)⟩

end Cglm

end C55ClipspaceProjectNo

section C55ClipspaceProjectZo

/-!
# C55: destination may alias an argument (include/cglm/clipspace/project_zo.h)

Each input is either the destination itself or does not overlap it; the result is the value-level function of
what the inputs held before the call, and nothing outside the destination changes.
-/

set_option linter.unusedVariables false
set_option linter.unusedSectionVars false

namespace Cglm
open CMem

variable {α : Type} [Add α] [Sub α] [Mul α] [Div α] [Neg α] [CFloat α]

theorem C55_unprojecti_zo {mem : Mem α} {posP invMatP vpP destP : Ptr} {pos : V3 α} {invMat : M4 α} {vp : V4 α} (h_pos : Holds mem posP pos.list) (h_invMat : Holds mem invMatP invMat.list) (h_vp : Holds mem vpP vp.list) (r_dest : Room mem destP 3) (s_pos_dest : posP = destP ∨ Apart posP 3 destP 3) (s_invMat_dest : Apart invMatP 16 destP 3) (s_vp_dest : Apart vpP 4 destP 3) :
    C.glm_unprojecti_zo.run mem [posP.val, invMatP.val, vpP.val, destP.val] =
      some (none, writes mem [(destP, (Cglm.glm_unprojecti_zo pos invMat vp).list.map .f)]) := by
  rcases s_pos_dest with s_pos_dest | s_pos_dest
  · subst s_pos_dest
    exact transferL ((((R.nil _).addW h_pos.has r_dest .nil).addR h_vp.has (.cons s_vp_dest .nil)).addR h_invMat.has (.skip (.cons s_invMat_dest .nil))) (.p rfl (.p rfl (.p rfl (.p rfl .nil)))) (glm_unprojecti_zo_run_pos _ _ _) (DT.val_done _) rfl rfl
  · exact transferL (((((R.nil _).addW r_dest.has r_dest .nil).addR h_vp.has (.cons s_vp_dest .nil)).addR h_invMat.has (.skip (.cons s_invMat_dest .nil))).addR h_pos.has (.skip (.skip (.cons s_pos_dest .nil)))) (.p rfl (.p rfl (.p rfl (.p rfl .nil)))) (glm_unprojecti_zo_run _ _ _) (DT.val_done _) rfl rfl
example (pos : V3 α) (invMat : M4 α) (vp : V4 α) : let mem : Mem α := [⟨false, invMat.list.map .f⟩, ⟨false, vp.list.map .f⟩, ⟨true, pos.list.map .f⟩]
    Holds mem (2, 0) pos.list ∧ Holds mem (0, 0) invMat.list ∧ Holds mem (1, 0) vp.list ∧ Room mem (2, 0) 3 ∧ (((2, 0) : Ptr) = (2, 0) ∨ Apart (2, 0) 3 (2, 0) 3) ∧ Apart (0, 0) 16 (2, 0) 3 ∧ Apart (1, 0) 4 (2, 0) 3 :=
  ⟨.block rfl, .block rfl, .block rfl, .block rfl rfl, Or.inl rfl, Or.inl (by decide), Or.inl (by decide)⟩

theorem C55_project_zo {mem : Mem α} {posP mP vpP destP : Ptr} {pos : V3 α} {m : M4 α} {vp : V4 α} (h_pos : Holds mem posP pos.list) (h_m : Holds mem mP m.list) (h_vp : Holds mem vpP vp.list) (r_dest : Room mem destP 3) (s_pos_dest : posP = destP ∨ Apart posP 3 destP 3) (s_m_dest : Apart mP 16 destP 3) (s_vp_dest : Apart vpP 4 destP 3) :
    C.glm_project_zo.run mem [posP.val, mP.val, vpP.val, destP.val] =
      some (none, writes mem [(destP, (Cglm.glm_project_zo pos m vp).list.map .f)]) := by
  rcases s_pos_dest with s_pos_dest | s_pos_dest
  · subst s_pos_dest
    exact transferL ((((R.nil _).addW h_pos.has r_dest .nil).addR h_vp.has (.cons s_vp_dest .nil)).addR h_m.has (.skip (.cons s_m_dest .nil))) (.p rfl (.p rfl (.p rfl (.p rfl .nil)))) (glm_project_zo_run_pos _ _ _) (DT.val_done _) rfl rfl
  · exact transferL (((((R.nil _).addW r_dest.has r_dest .nil).addR h_vp.has (.cons s_vp_dest .nil)).addR h_m.has (.skip (.cons s_m_dest .nil))).addR h_pos.has (.skip (.skip (.cons s_pos_dest .nil)))) (.p rfl (.p rfl (.p rfl (.p rfl .nil)))) (glm_project_zo_run _ _ _) (DT.val_done _) rfl rfl
example (pos : V3 α) (m : M4 α) (vp : V4 α) : let mem : Mem α := [⟨false, m.list.map .f⟩, ⟨false, vp.list.map .f⟩, ⟨true, pos.list.map .f⟩]
    Holds mem (2, 0) pos.list ∧ Holds mem (0, 0) m.list ∧ Holds mem (1, 0) vp.list ∧ Room mem (2, 0) 3 ∧ (((2, 0) : Ptr) = (2, 0) ∨ Apart (2, 0) 3 (2, 0) 3) ∧ Apart (0, 0) 16 (2, 0) 3 ∧ Apart (1, 0) 4 (2, 0) 3 :=
  ⟨.block rfl, .block rfl, .block rfl, .block rfl rfl, Or.inl rfl, Or.inl (by decide), Or.inl (by decide)⟩

end Cglm

end C55ClipspaceProjectZo

section C55Project

/-!
# C55: destination may alias an argument (include/cglm/project.h)

Each input is either the destination itself or does not overlap it; the result is the value-level function of
what the inputs held before the call, and nothing outside the destination changes.
-/

set_option linter.unusedVariables false
set_option linter.unusedSectionVars false

namespace Cglm
open CMem

variable {α : Type} [Add α] [Sub α] [Mul α] [Div α] [Neg α] [CFloat α]

theorem C55_unprojecti {mem : Mem α} {posP invMatP vpP destP : Ptr} {pos : V3 α} {invMat : M4 α} {vp : V4 α} (h_pos : Holds mem posP pos.list) (h_invMat : Holds mem invMatP invMat.list) (h_vp : Holds mem vpP vp.list) (r_dest : Room mem destP 3) (s_pos_dest : posP = destP ∨ Apart posP 3 destP 3) (s_invMat_dest : Apart invMatP 16 destP 3) (s_vp_dest : Apart vpP 4 destP 3) :
    C.glm_unprojecti.run mem [posP.val, invMatP.val, vpP.val, destP.val] =
      some (none, writes mem [(destP, (Cglm.glm_unprojecti pos invMat vp).list.map .f)]) := by
  rcases s_pos_dest with s_pos_dest | s_pos_dest
  · subst s_pos_dest
    exact transferL ((((R.nil _).addW h_pos.has r_dest .nil).addR h_vp.has (.cons s_vp_dest .nil)).addR h_invMat.has (.skip (.cons s_invMat_dest .nil))) (.p rfl (.p rfl (.p rfl (.p rfl .nil)))) (glm_unprojecti_run_pos _ _ _) (DT.val_done _) rfl rfl
  · exact transferL (((((R.nil _).addW r_dest.has r_dest .nil).addR h_vp.has (.cons s_vp_dest .nil)).addR h_invMat.has (.skip (.cons s_invMat_dest .nil))).addR h_pos.has (.skip (.skip (.cons s_pos_dest .nil)))) (.p rfl (.p rfl (.p rfl (.p rfl .nil)))) (glm_unprojecti_run _ _ _) (DT.val_done _) rfl rfl
example (pos : V3 α) (invMat : M4 α) (vp : V4 α) : let mem : Mem α := [⟨false, invMat.list.map .f⟩, ⟨false, vp.list.map .f⟩, ⟨true, pos.list.map .f⟩]
    Holds mem (2, 0) pos.list ∧ Holds mem (0, 0) invMat.list ∧ Holds mem (1, 0) vp.list ∧ Room mem (2, 0) 3 ∧ (((2, 0) : Ptr) = (2, 0) ∨ Apart (2, 0) 3 (2, 0) 3) ∧ Apart (0, 0) 16 (2, 0) 3 ∧ Apart (1, 0) 4 (2, 0) 3 :=
  ⟨.block rfl, .block rfl, .block rfl, .block rfl rfl, Or.inl rfl, Or.inl (by decide), Or.inl (by decide)⟩

theorem C55_unproject {mem : Mem α} {posP mP vpP destP : Ptr} {pos : V3 α} {m : M4 α} {vp : V4 α} (h_pos : Holds mem posP pos.list) (h_m : Holds mem mP m.list) (h_vp : Holds mem vpP vp.list) (r_dest : Room mem destP 3) (s_pos_dest : posP = destP ∨ Apart posP 3 destP 3) (s_m_dest : Apart mP 16 destP 3) (s_vp_dest : Apart vpP 4 destP 3) :
    C.glm_unproject.run mem [posP.val, mP.val, vpP.val, destP.val] =
      some (none, writes mem [(destP, (Cglm.glm_unproject pos m vp).list.map .f)]) := by
  rcases s_pos_dest with s_pos_dest | s_pos_dest
  · subst s_pos_dest
    exact transferL ((((R.nil _).addW h_pos.has r_dest .nil).addR h_vp.has (.cons s_vp_dest .nil)).addR h_m.has (.skip (.cons s_m_dest .nil))) (.p rfl (.p rfl (.p rfl (.p rfl .nil)))) (glm_unproject_run_pos _ _ _) (DT.val_done _) rfl rfl
  · exact transferL (((((R.nil _).addW r_dest.has r_dest .nil).addR h_vp.has (.cons s_vp_dest .nil)).addR h_m.has (.skip (.cons s_m_dest .nil))).addR h_pos.has (.skip (.skip (.cons s_pos_dest .nil)))) (.p rfl (.p rfl (.p rfl (.p rfl .nil)))) (glm_unproject_run _ _ _) (DT.val_done _) rfl rfl
example (pos : V3 α) (m : M4 α) (vp : V4 α) : let mem : Mem α := [⟨false, m.list.map .f⟩, ⟨false, vp.list.map .f⟩, ⟨true, pos.list.map .f⟩]
    Holds mem (2, 0) pos.list ∧ Holds mem (0, 0) m.list ∧ Holds mem (1, 0) vp.list ∧ Room mem (2, 0) 3 ∧ (((2, 0) : Ptr) = (2, 0) ∨ Apart (2, 0) 3 (2, 0) 3) ∧ Apart (0, 0) 16 (2, 0) 3 ∧ Apart (1, 0) 4 (2, 0) 3 :=
  ⟨.block rfl, .block rfl, .block rfl, .block rfl rfl, Or.inl rfl, Or.inl (by decide), Or.inl (by decide)⟩

theorem C55_project {mem : Mem α} {posP mP vpP destP : Ptr} {pos : V3 α} {m : M4 α} {vp : V4 α} (h_pos : Holds mem posP pos.list) (h_m : Holds mem mP m.list) (h_vp : Holds mem vpP vp.list) (r_dest : Room mem destP 3) (s_pos_dest : posP = destP ∨ Apart posP 3 destP 3) (s_m_dest : Apart mP 16 destP 3) (s_vp_dest : Apart vpP 4 destP 3) :
    C.glm_project.run mem [posP.val, mP.val, vpP.val, destP.val] =
      some (none, writes mem [(destP, (Cglm.glm_project pos m vp).list.map .f)]) := by
  rcases s_pos_dest with s_pos_dest | s_pos_dest
  · subst s_pos_dest
    exact transferL ((((R.nil _).addW h_pos.has r_dest .nil).addR h_vp.has (.cons s_vp_dest .nil)).addR h_m.has (.skip (.cons s_m_dest .nil))) (.p rfl (.p rfl (.p rfl (.p rfl .nil)))) (glm_project_run_pos _ _ _) (DT.val_done _) rfl rfl
  · exact transferL (((((R.nil _).addW r_dest.has r_dest .nil).addR h_vp.has (.cons s_vp_dest .nil)).addR h_m.has (.skip (.cons s_m_dest .nil))).addR h_pos.has (.skip (.skip (.cons s_pos_dest .nil)))) (.p rfl (.p rfl (.p rfl (.p rfl .nil)))) (glm_project_run _ _ _) (DT.val_done _) rfl rfl
example (pos : V3 α) (m : M4 α) (vp : V4 α) : let mem : Mem α := [⟨false, m.list.map .f⟩, ⟨false, vp.list.map .f⟩, ⟨true, pos.list.map .f⟩]
    Holds mem (2, 0) pos.list ∧ Holds mem (0, 0) m.list ∧ Holds mem (1, 0) vp.list ∧ Room mem (2, 0) 3 ∧ (((2, 0) : Ptr) = (2, 0) ∨ Apart (2, 0) 3 (2, 0) 3) ∧ Apart (0, 0) 16 (2, 0) 3 ∧ Apart (1, 0) 4 (2, 0) 3 :=
  ⟨.block rfl, .block rfl, .block rfl, .block rfl rfl, Or.inl rfl, Or.inl (by decide), Or.inl (by decide)⟩

end Cglm

end C55Project
