/- Generated by tools/memgen.py, joined by tools/merge.py; do not edit by hand. -/
import Verif.Props.C55Affines
import Verif.Mem.AffinesRun

section C56Affine

/-!
# C56: memory safety and framing (include/cglm/affine.h)

Called with initialised inputs and a writable destination that does not overlap them, the function is defined,
returns the value-level result and changes no memory but its destination.
-/

set_option linter.unusedVariables false
set_option linter.unusedSectionVars false

namespace Cglm
open CMem

variable {α : Type} [Add α] [Sub α] [Mul α] [Div α] [Neg α] [CFloat α]

theorem C56_translate_make {mem : Mem α} {mP vP : Ptr} {v : V3 α} (r_m : Room mem mP 16) (h_v : Holds mem vP v.list) (s_v_m : Apart vP 3 mP 16) :
    C.glm_translate_make.run mem [mP.val, vP.val] =
      some (none, writes mem [(mP, (Cglm.glm_translate_make v).list.map .f)]) := by
  exact transferL (((R.nil _).addR h_v.has .nil).addW r_m.has r_m (.cons s_v_m.symm .nil)) (.p rfl (.p rfl .nil)) (glm_translate_make_run _) (DT.val_done _) rfl rfl
example (v : V3 α) : let mem : Mem α := [⟨true, List.replicate 16 .undef⟩, ⟨false, v.list.map .f⟩]
    Room mem (0, 0) 16 ∧ Holds mem (1, 0) v.list ∧ Apart (1, 0) 3 (0, 0) 16 :=
  ⟨.block rfl rfl, .block rfl, Or.inl (by decide)⟩

theorem C56_scale_to {mem : Mem α} {mP vP destP : Ptr} {m : M4 α} {v : V3 α} (h_m : Holds mem mP m.list) (h_v : Holds mem vP v.list) (r_dest : Room mem destP 16) (s_m_dest : Apart mP 16 destP 16) (s_v_dest : Apart vP 3 destP 16) :
    C.glm_scale_to.run mem [mP.val, vP.val, destP.val] =
      some (none, writes mem [(destP, (Cglm.glm_scale_to m v).list.map .f)]) :=
  C55_scale_to h_m h_v r_dest (Or.inr s_m_dest) s_v_dest
example (m : M4 α) (v : V3 α) : let mem : Mem α := [⟨false, m.list.map .f⟩, ⟨false, v.list.map .f⟩, ⟨true, List.replicate 16 .undef⟩]
    Holds mem (0, 0) m.list ∧ Holds mem (1, 0) v.list ∧ Room mem (2, 0) 16 ∧ Apart (0, 0) 16 (2, 0) 16 ∧ Apart (1, 0) 3 (2, 0) 16 :=
  ⟨.block rfl, .block rfl, .block rfl rfl, Or.inl (by decide), Or.inl (by decide)⟩

theorem C56_scale_make {mem : Mem α} {mP vP : Ptr} {v : V3 α} (r_m : Room mem mP 16) (h_v : Holds mem vP v.list) (s_v_m : Apart vP 3 mP 16) :
    C.glm_scale_make.run mem [mP.val, vP.val] =
      some (none, writes mem [(mP, (Cglm.glm_scale_make v).list.map .f)]) := by
  exact transferL (((R.nil _).addR h_v.has .nil).addW r_m.has r_m (.cons s_v_m.symm .nil)) (.p rfl (.p rfl .nil)) (glm_scale_make_run _) (DT.val_done _) rfl rfl
example (v : V3 α) : let mem : Mem α := [⟨true, List.replicate 16 .undef⟩, ⟨false, v.list.map .f⟩]
    Room mem (0, 0) 16 ∧ Holds mem (1, 0) v.list ∧ Apart (1, 0) 3 (0, 0) 16 :=
  ⟨.block rfl rfl, .block rfl, Or.inl (by decide)⟩

theorem C56_scale {mem : Mem α} {mP vP : Ptr} {m : M4 α} {v : V3 α} (h_m : Holds mem mP m.list) (r_m : Room mem mP 16) (h_v : Holds mem vP v.list) (s_v_m : Apart vP 3 mP 16) :
    C.glm_scale.run mem [mP.val, vP.val] =
      some (none, writes mem [(mP, (Cglm.glm_scale m v).list.map .f)]) := by
  exact transferL (((R.nil _).addR h_v.has .nil).addW h_m.has r_m (.cons s_v_m.symm .nil)) (.p rfl (.p rfl .nil)) (glm_scale_run _ _) (DT.val_done _) rfl rfl
example (m : M4 α) (v : V3 α) : let mem : Mem α := [⟨true, m.list.map .f⟩, ⟨false, v.list.map .f⟩]
    Holds mem (0, 0) m.list ∧ Room mem (0, 0) 16 ∧ Holds mem (1, 0) v.list ∧ Apart (1, 0) 3 (0, 0) 16 :=
  ⟨.block rfl, .block rfl rfl, .block rfl, Or.inl (by decide)⟩

theorem C56_scale_uni {mem : Mem α} {mP : Ptr} {m : M4 α} (s : α) (h_m : Holds mem mP m.list) (r_m : Room mem mP 16) :
    C.glm_scale_uni.run mem [mP.val, .f s] =
      some (none, writes mem [(mP, (Cglm.glm_scale_uni m s).list.map .f)]) := by
  exact transferL ((R.nil _).addW h_m.has r_m .nil) (.p rfl (.f .nil)) (glm_scale_uni_run _ _) (DT.val_done _) rfl rfl
example (m : M4 α) : let mem : Mem α := [⟨true, m.list.map .f⟩]
    Holds mem (0, 0) m.list ∧ Room mem (0, 0) 16 :=
  ⟨.block rfl, .block rfl rfl⟩

theorem C56_rotate_make {mem : Mem α} {mP axisP : Ptr} (angle : α) {axis : V3 α} (r_m : Room mem mP 16) (h_axis : Holds mem axisP axis.list) (s_axis_m : Apart axisP 3 mP 16) :
    C.glm_rotate_make.run mem [mP.val, .f angle, axisP.val] =
      some (none, writes mem [(mP, (Cglm.glm_rotate_make angle axis).list.map .f)]) := by
  exact transferL (((R.nil _).addR h_axis.has .nil).addW r_m.has r_m (.cons s_axis_m.symm .nil)) (.p rfl (.f (.p rfl .nil))) (glm_rotate_make_run _ _) (DT.val_map_eq (glm_rotate_make_dt_val _ _) rfl) rfl rfl
example (axis : V3 α) : let mem : Mem α := [⟨true, List.replicate 16 .undef⟩, ⟨false, axis.list.map .f⟩]
    Room mem (0, 0) 16 ∧ Holds mem (1, 0) axis.list ∧ Apart (1, 0) 3 (0, 0) 16 :=
  ⟨.block rfl rfl, .block rfl, Or.inl (by decide)⟩

theorem C56_decompose_scalev {mem : Mem α} {mP sP : Ptr} {m : M4 α} (h_m : Holds mem mP m.list) (r_s : Room mem sP 3) (s_m_s : Apart mP 16 sP 3) :
    C.glm_decompose_scalev.run mem [mP.val, sP.val] =
      some (none, writes mem [(sP, (Cglm.glm_decompose_scalev m).list.map .f)]) := by
  exact transferL (((R.nil _).addW r_s.has r_s .nil).addR h_m.has (.cons s_m_s .nil)) (.p rfl (.p rfl .nil)) (glm_decompose_scalev_run _) (DT.val_done _) rfl rfl
example (m : M4 α) : let mem : Mem α := [⟨false, m.list.map .f⟩, ⟨true, List.replicate 3 .undef⟩]
    Holds mem (0, 0) m.list ∧ Room mem (1, 0) 3 ∧ Apart (0, 0) 16 (1, 0) 3 :=
  ⟨.block rfl, .block rfl rfl, Or.inl (by decide)⟩

theorem C56_uniscaled {mem : Mem α} {mP : Ptr} {m : M4 α} (h_m : Holds mem mP m.list) :
    C.glm_uniscaled.run mem [mP.val] =
      some (some (.b (Cglm.glm_uniscaled m)), mem) := by
  exact transferL ((R.nil _).addR h_m.has .nil) (.p rfl .nil) (glm_uniscaled_run _) (DT.val_done _) rfl rfl
example (m : M4 α) : let mem : Mem α := [⟨false, m.list.map .f⟩]
    Holds mem (0, 0) m.list :=
  .block rfl

theorem C56_decompose_rs {mem : Mem α} {mP rP sP : Ptr} {m : M4 α} (h_m : Holds mem mP m.list) (r_r : Room mem rP 16) (r_s : Room mem sP 3) (s_m_r : Apart mP 16 rP 16) (s_m_s : Apart mP 16 sP 3) (s_r_s : Apart rP 16 sP 3) :
    C.glm_decompose_rs.run mem [mP.val, rP.val, sP.val] =
      some (none, writes mem [(rP, (Cglm.glm_decompose_rs m).1.list.map .f), (sP, (Cglm.glm_decompose_rs m).2.list.map .f)]) := by
  exact transferL ((((R.nil _).addW r_s.has r_s .nil).addW r_r.has r_r (.cons s_r_s .nil)).addR h_m.has (.cons s_m_r (.cons s_m_s .nil))) (.p rfl (.p rfl (.p rfl .nil))) (glm_decompose_rs_run _) (DT.val_map_eq (glm_decompose_rs_dt_val _) rfl) rfl rfl
example (m : M4 α) : let mem : Mem α := [⟨false, m.list.map .f⟩, ⟨true, List.replicate 16 .undef⟩, ⟨true, List.replicate 3 .undef⟩]
    Holds mem (0, 0) m.list ∧ Room mem (1, 0) 16 ∧ Room mem (2, 0) 3 ∧ Apart (0, 0) 16 (1, 0) 16 ∧ Apart (0, 0) 16 (2, 0) 3 ∧ Apart (1, 0) 16 (2, 0) 3 :=
  ⟨.block rfl, .block rfl rfl, .block rfl rfl, Or.inl (by decide), Or.inl (by decide), Or.inl (by decide)⟩

theorem C56_decompose {mem : Mem α} {mP tP rP sP : Ptr} {m : M4 α} (h_m : Holds mem mP m.list) (r_t : Room mem tP 4) (r_r : Room mem rP 16) (r_s : Room mem sP 3) (s_m_t : Apart mP 16 tP 4) (s_m_r : Apart mP 16 rP 16) (s_m_s : Apart mP 16 sP 3) (s_t_r : Apart tP 4 rP 16) (s_t_s : Apart tP 4 sP 3) (s_r_s : Apart rP 16 sP 3) :
    C.glm_decompose.run mem [mP.val, tP.val, rP.val, sP.val] =
      some (none, writes mem [(tP, (Cglm.glm_decompose m).1.list.map .f), (rP, (Cglm.glm_decompose m).2.1.list.map .f), (sP, (Cglm.glm_decompose m).2.2.list.map .f)]) := by
  exact transferL (((((R.nil _).addW r_s.has r_s .nil).addW r_r.has r_r (.cons s_r_s .nil)).addW r_t.has r_t (.cons s_t_r (.cons s_t_s .nil))).addR h_m.has (.cons s_m_t (.cons s_m_r (.cons s_m_s .nil)))) (.p rfl (.p rfl (.p rfl (.p rfl .nil)))) (glm_decompose_run _) (DT.val_map_eq (glm_decompose_dt_val _) rfl) rfl rfl
example (m : M4 α) : let mem : Mem α := [⟨false, m.list.map .f⟩, ⟨true, List.replicate 4 .undef⟩, ⟨true, List.replicate 16 .undef⟩, ⟨true, List.replicate 3 .undef⟩]
    Holds mem (0, 0) m.list ∧ Room mem (1, 0) 4 ∧ Room mem (2, 0) 16 ∧ Room mem (3, 0) 3 ∧ Apart (0, 0) 16 (1, 0) 4 ∧ Apart (0, 0) 16 (2, 0) 16 ∧ Apart (0, 0) 16 (3, 0) 3 ∧ Apart (1, 0) 4 (2, 0) 16 ∧ Apart (1, 0) 4 (3, 0) 3 ∧ Apart (2, 0) 16 (3, 0) 3 :=
  ⟨.block rfl, .block rfl rfl, .block rfl rfl, .block rfl rfl, Or.inl (by decide), Or.inl (by decide), Or.inl (by decide), Or.inl (by decide), Or.inl (by decide), Or.inl (by decide)⟩

end Cglm

end C56Affine

section C56Affine2d

/-!
# C56: memory safety and framing (include/cglm/affine2d.h)

Called with initialised inputs and a writable destination that does not overlap them, the function is defined,
returns the value-level result and changes no memory but its destination.
-/

set_option linter.unusedVariables false
set_option linter.unusedSectionVars false

namespace Cglm
open CMem

variable {α : Type} [Add α] [Sub α] [Mul α] [Div α] [Neg α] [CFloat α]

theorem C56_translate2d {mem : Mem α} {mP vP : Ptr} {m : M3 α} {v : V2 α} (h_m : Holds mem mP m.list) (r_m : Room mem mP 9) (h_v : Holds mem vP v.list) (s_v_m : Apart vP 2 mP 9) :
    C.glm_translate2d.run mem [mP.val, vP.val] =
      some (none, writes mem [(mP, (Cglm.glm_translate2d m v).list.map .f)]) := by
  exact transferL (((R.nil _).addR h_v.has .nil).addW h_m.has r_m (.cons s_v_m.symm .nil)) (.p rfl (.p rfl .nil)) (glm_translate2d_run _ _) (DT.val_done _) rfl rfl
example (m : M3 α) (v : V2 α) : let mem : Mem α := [⟨true, m.list.map .f⟩, ⟨false, v.list.map .f⟩]
    Holds mem (0, 0) m.list ∧ Room mem (0, 0) 9 ∧ Holds mem (1, 0) v.list ∧ Apart (1, 0) 2 (0, 0) 9 :=
  ⟨.block rfl, .block rfl rfl, .block rfl, Or.inl (by decide)⟩

theorem C56_translate2d_to {mem : Mem α} {mP vP destP : Ptr} {m : M3 α} {v : V2 α} (h_m : Holds mem mP m.list) (h_v : Holds mem vP v.list) (r_dest : Room mem destP 9) (s_m_dest : Apart mP 9 destP 9) (s_v_dest : Apart vP 2 destP 9) :
    C.glm_translate2d_to.run mem [mP.val, vP.val, destP.val] =
      some (none, writes mem [(destP, (Cglm.glm_translate2d_to m v).list.map .f)]) :=
  C55_translate2d_to h_m h_v r_dest (Or.inr s_m_dest) s_v_dest
example (m : M3 α) (v : V2 α) : let mem : Mem α := [⟨false, m.list.map .f⟩, ⟨false, v.list.map .f⟩, ⟨true, List.replicate 9 .undef⟩]
    Holds mem (0, 0) m.list ∧ Holds mem (1, 0) v.list ∧ Room mem (2, 0) 9 ∧ Apart (0, 0) 9 (2, 0) 9 ∧ Apart (1, 0) 2 (2, 0) 9 :=
  ⟨.block rfl, .block rfl, .block rfl rfl, Or.inl (by decide), Or.inl (by decide)⟩

theorem C56_translate2d_x {mem : Mem α} {mP : Ptr} {m : M3 α} (x : α) (h_m : Holds mem mP m.list) (r_m : Room mem mP 9) :
    C.glm_translate2d_x.run mem [mP.val, .f x] =
      some (none, writes mem [(mP, (Cglm.glm_translate2d_x m x).list.map .f)]) := by
  exact transferL ((R.nil _).addW h_m.has r_m .nil) (.p rfl (.f .nil)) (glm_translate2d_x_run _ _) (DT.val_done _) rfl rfl
example (m : M3 α) : let mem : Mem α := [⟨true, m.list.map .f⟩]
    Holds mem (0, 0) m.list ∧ Room mem (0, 0) 9 :=
  ⟨.block rfl, .block rfl rfl⟩

theorem C56_translate2d_y {mem : Mem α} {mP : Ptr} {m : M3 α} (y : α) (h_m : Holds mem mP m.list) (r_m : Room mem mP 9) :
    C.glm_translate2d_y.run mem [mP.val, .f y] =
      some (none, writes mem [(mP, (Cglm.glm_translate2d_y m y).list.map .f)]) := by
  exact transferL ((R.nil _).addW h_m.has r_m .nil) (.p rfl (.f .nil)) (glm_translate2d_y_run _ _) (DT.val_done _) rfl rfl
example (m : M3 α) : let mem : Mem α := [⟨true, m.list.map .f⟩]
    Holds mem (0, 0) m.list ∧ Room mem (0, 0) 9 :=
  ⟨.block rfl, .block rfl rfl⟩

theorem C56_translate2d_make {mem : Mem α} {mP vP : Ptr} {v : V2 α} (r_m : Room mem mP 9) (h_v : Holds mem vP v.list) (s_v_m : Apart vP 2 mP 9) :
    C.glm_translate2d_make.run mem [mP.val, vP.val] =
      some (none, writes mem [(mP, (Cglm.glm_translate2d_make v).list.map .f)]) := by
  exact transferL (((R.nil _).addR h_v.has .nil).addW r_m.has r_m (.cons s_v_m.symm .nil)) (.p rfl (.p rfl .nil)) (glm_translate2d_make_run _) (DT.val_done _) rfl rfl
example (v : V2 α) : let mem : Mem α := [⟨true, List.replicate 9 .undef⟩, ⟨false, v.list.map .f⟩]
    Room mem (0, 0) 9 ∧ Holds mem (1, 0) v.list ∧ Apart (1, 0) 2 (0, 0) 9 :=
  ⟨.block rfl rfl, .block rfl, Or.inl (by decide)⟩

theorem C56_scale2d_to {mem : Mem α} {mP vP destP : Ptr} {m : M3 α} {v : V2 α} (h_m : Holds mem mP m.list) (h_v : Holds mem vP v.list) (r_dest : Room mem destP 9) (s_m_dest : Apart mP 9 destP 9) (s_v_dest : Apart vP 2 destP 9) :
    C.glm_scale2d_to.run mem [mP.val, vP.val, destP.val] =
      some (none, writes mem [(destP, (Cglm.glm_scale2d_to m v).list.map .f)]) :=
  C55_scale2d_to h_m h_v r_dest (Or.inr s_m_dest) s_v_dest
example (m : M3 α) (v : V2 α) : let mem : Mem α := [⟨false, m.list.map .f⟩, ⟨false, v.list.map .f⟩, ⟨true, List.replicate 9 .undef⟩]
    Holds mem (0, 0) m.list ∧ Holds mem (1, 0) v.list ∧ Room mem (2, 0) 9 ∧ Apart (0, 0) 9 (2, 0) 9 ∧ Apart (1, 0) 2 (2, 0) 9 :=
  ⟨.block rfl, .block rfl, .block rfl rfl, Or.inl (by decide), Or.inl (by decide)⟩

theorem C56_scale2d_make {mem : Mem α} {mP vP : Ptr} {v : V2 α} (r_m : Room mem mP 9) (h_v : Holds mem vP v.list) (s_v_m : Apart vP 2 mP 9) :
    C.glm_scale2d_make.run mem [mP.val, vP.val] =
      some (none, writes mem [(mP, (Cglm.glm_scale2d_make v).list.map .f)]) := by
  exact transferL (((R.nil _).addR h_v.has .nil).addW r_m.has r_m (.cons s_v_m.symm .nil)) (.p rfl (.p rfl .nil)) (glm_scale2d_make_run _) (DT.val_done _) rfl rfl
example (v : V2 α) : let mem : Mem α := [⟨true, List.replicate 9 .undef⟩, ⟨false, v.list.map .f⟩]
    Room mem (0, 0) 9 ∧ Holds mem (1, 0) v.list ∧ Apart (1, 0) 2 (0, 0) 9 :=
  ⟨.block rfl rfl, .block rfl, Or.inl (by decide)⟩

theorem C56_scale2d {mem : Mem α} {mP vP : Ptr} {m : M3 α} {v : V2 α} (h_m : Holds mem mP m.list) (r_m : Room mem mP 9) (h_v : Holds mem vP v.list) (s_v_m : Apart vP 2 mP 9) :
    C.glm_scale2d.run mem [mP.val, vP.val] =
      some (none, writes mem [(mP, (Cglm.glm_scale2d m v).list.map .f)]) := by
  exact transferL (((R.nil _).addR h_v.has .nil).addW h_m.has r_m (.cons s_v_m.symm .nil)) (.p rfl (.p rfl .nil)) (glm_scale2d_run _ _) (DT.val_done _) rfl rfl
example (m : M3 α) (v : V2 α) : let mem : Mem α := [⟨true, m.list.map .f⟩, ⟨false, v.list.map .f⟩]
    Holds mem (0, 0) m.list ∧ Room mem (0, 0) 9 ∧ Holds mem (1, 0) v.list ∧ Apart (1, 0) 2 (0, 0) 9 :=
  ⟨.block rfl, .block rfl rfl, .block rfl, Or.inl (by decide)⟩

theorem C56_scale2d_uni {mem : Mem α} {mP : Ptr} {m : M3 α} (s : α) (h_m : Holds mem mP m.list) (r_m : Room mem mP 9) :
    C.glm_scale2d_uni.run mem [mP.val, .f s] =
      some (none, writes mem [(mP, (Cglm.glm_scale2d_uni m s).list.map .f)]) := by
  exact transferL ((R.nil _).addW h_m.has r_m .nil) (.p rfl (.f .nil)) (glm_scale2d_uni_run _ _) (DT.val_done _) rfl rfl
example (m : M3 α) : let mem : Mem α := [⟨true, m.list.map .f⟩]
    Holds mem (0, 0) m.list ∧ Room mem (0, 0) 9 :=
  ⟨.block rfl, .block rfl rfl⟩

theorem C56_rotate2d_make {mem : Mem α} {mP : Ptr} (angle : α) (r_m : Room mem mP 9) :
    C.glm_rotate2d_make.run mem [mP.val, .f angle] =
      some (none, writes mem [(mP, (Cglm.glm_rotate2d_make angle).list.map .f)]) := by
  exact transferL ((R.nil _).addW r_m.has r_m .nil) (.p rfl (.f .nil)) (glm_rotate2d_make_run _) (DT.val_done _) rfl rfl
example : let mem : Mem α := [⟨true, List.replicate 9 .undef⟩]
    Room mem (0, 0) 9 :=
  .block rfl rfl

theorem C56_rotate2d {mem : Mem α} {mP : Ptr} {m : M3 α} (angle : α) (h_m : Holds mem mP m.list) (r_m : Room mem mP 9) :
    C.glm_rotate2d.run mem [mP.val, .f angle] =
      some (none, writes mem [(mP, (Cglm.glm_rotate2d m angle).list.map .f)]) := by
  exact transferL ((R.nil _).addW h_m.has r_m .nil) (.p rfl (.f .nil)) (glm_rotate2d_run _ _) (DT.val_done _) rfl rfl
example (m : M3 α) : let mem : Mem α := [⟨true, m.list.map .f⟩]
    Holds mem (0, 0) m.list ∧ Room mem (0, 0) 9 :=
  ⟨.block rfl, .block rfl rfl⟩

theorem C56_rotate2d_to {mem : Mem α} {mP destP : Ptr} {m : M3 α} (angle : α) (h_m : Holds mem mP m.list) (r_dest : Room mem destP 9) (s_m_dest : Apart mP 9 destP 9) :
    C.glm_rotate2d_to.run mem [mP.val, .f angle, destP.val] =
      some (none, writes mem [(destP, (Cglm.glm_rotate2d_to m angle).list.map .f)]) :=
  C55_rotate2d_to angle h_m r_dest (Or.inr s_m_dest)
example (m : M3 α) : let mem : Mem α := [⟨false, m.list.map .f⟩, ⟨true, List.replicate 9 .undef⟩]
    Holds mem (0, 0) m.list ∧ Room mem (1, 0) 9 ∧ Apart (0, 0) 9 (1, 0) 9 :=
  ⟨.block rfl, .block rfl rfl, Or.inl (by decide)⟩

end Cglm

end C56Affine2d

section C56Affine2dPost

/-!
# C56: memory safety and framing (include/cglm/affine2d-post.h)

Called with initialised inputs and a writable destination that does not overlap them, the function is defined,
returns the value-level result and changes no memory but its destination.
-/

set_option linter.unusedVariables false
set_option linter.unusedSectionVars false

namespace Cglm
open CMem

variable {α : Type} [Add α] [Sub α] [Mul α] [Div α] [Neg α] [CFloat α]

theorem C56_translated2d {mem : Mem α} {mP vP : Ptr} {m : M3 α} {v : V2 α} (h_m : Holds mem mP m.list) (r_m : Room mem mP 9) (h_v : Holds mem vP v.list) (s_v_m : Apart vP 2 mP 9) :
    C.glm_translated2d.run mem [mP.val, vP.val] =
      some (none, writes mem [(mP, (Cglm.glm_translated2d m v).list.map .f)]) := by
  exact transferL (((R.nil _).addR h_v.has .nil).addW h_m.has r_m (.cons s_v_m.symm .nil)) (.p rfl (.p rfl .nil)) (glm_translated2d_run _ _) (DT.val_done _) rfl rfl
example (m : M3 α) (v : V2 α) : let mem : Mem α := [⟨true, m.list.map .f⟩, ⟨false, v.list.map .f⟩]
    Holds mem (0, 0) m.list ∧ Room mem (0, 0) 9 ∧ Holds mem (1, 0) v.list ∧ Apart (1, 0) 2 (0, 0) 9 :=
  ⟨.block rfl, .block rfl rfl, .block rfl, Or.inl (by decide)⟩

theorem C56_translated2d_x {mem : Mem α} {mP : Ptr} {m : M3 α} (x : α) (h_m : Holds mem mP m.list) (r_m : Room mem mP 9) :
    C.glm_translated2d_x.run mem [mP.val, .f x] =
      some (none, writes mem [(mP, (Cglm.glm_translated2d_x m x).list.map .f)]) := by
  exact transferL ((R.nil _).addW h_m.has r_m .nil) (.p rfl (.f .nil)) (glm_translated2d_x_run _ _) (DT.val_done _) rfl rfl
example (m : M3 α) : let mem : Mem α := [⟨true, m.list.map .f⟩]
    Holds mem (0, 0) m.list ∧ Room mem (0, 0) 9 :=
  ⟨.block rfl, .block rfl rfl⟩

theorem C56_translated2d_y {mem : Mem α} {mP : Ptr} {m : M3 α} (y : α) (h_m : Holds mem mP m.list) (r_m : Room mem mP 9) :
    C.glm_translated2d_y.run mem [mP.val, .f y] =
      some (none, writes mem [(mP, (Cglm.glm_translated2d_y m y).list.map .f)]) := by
  exact transferL ((R.nil _).addW h_m.has r_m .nil) (.p rfl (.f .nil)) (glm_translated2d_y_run _ _) (DT.val_done _) rfl rfl
example (m : M3 α) : let mem : Mem α := [⟨true, m.list.map .f⟩]
    Holds mem (0, 0) m.list ∧ Room mem (0, 0) 9 :=
  ⟨.block rfl, .block rfl rfl⟩

theorem C56_rotated2d {mem : Mem α} {mP : Ptr} {m : M3 α} (angle : α) (h_m : Holds mem mP m.list) (r_m : Room mem mP 9) :
    C.glm_rotated2d.run mem [mP.val, .f angle] =
      some (none, writes mem [(mP, (Cglm.glm_rotated2d m angle).list.map .f)]) := by
  exact transferL ((R.nil _).addW h_m.has r_m .nil) (.p rfl (.f .nil)) (glm_rotated2d_run _ _) (DT.val_done _) rfl rfl
example (m : M3 α) : let mem : Mem α := [⟨true, m.list.map .f⟩]
    Holds mem (0, 0) m.list ∧ Room mem (0, 0) 9 :=
  ⟨.block rfl, .block rfl rfl⟩

theorem C56_scaled2d {mem : Mem α} {mP vP : Ptr} {m : M3 α} {v : V2 α} (h_m : Holds mem mP m.list) (r_m : Room mem mP 9) (h_v : Holds mem vP v.list) (s_v_m : Apart vP 2 mP 9) :
    C.glm_scaled2d.run mem [mP.val, vP.val] =
      some (none, writes mem [(mP, (Cglm.glm_scaled2d m v).list.map .f)]) := by
  exact transferL (((R.nil _).addR h_v.has .nil).addW h_m.has r_m (.cons s_v_m.symm .nil)) (.p rfl (.p rfl .nil)) (glm_scaled2d_run _ _) (DT.val_done _) rfl rfl
example (m : M3 α) (v : V2 α) : let mem : Mem α := [⟨true, m.list.map .f⟩, ⟨false, v.list.map .f⟩]
    Holds mem (0, 0) m.list ∧ Room mem (0, 0) 9 ∧ Holds mem (1, 0) v.list ∧ Apart (1, 0) 2 (0, 0) 9 :=
  ⟨.block rfl, .block rfl rfl, .block rfl, Or.inl (by decide)⟩

theorem C56_scaled2d_uni {mem : Mem α} {mP : Ptr} {m : M3 α} (s : α) (h_m : Holds mem mP m.list) (r_m : Room mem mP 9) :
    C.glm_scaled2d_uni.run mem [mP.val, .f s] =
      some (none, writes mem [(mP, (Cglm.glm_scaled2d_uni m s).list.map .f)]) := by
  exact transferL ((R.nil _).addW h_m.has r_m .nil) (.p rfl (.f .nil)) (glm_scaled2d_uni_run _ _) (DT.val_done _) rfl rfl
example (m : M3 α) : let mem : Mem α := [⟨true, m.list.map .f⟩]
    Holds mem (0, 0) m.list ∧ Room mem (0, 0) 9 :=
  ⟨.block rfl, .block rfl rfl⟩

end Cglm

end C56Affine2dPost

section C56AffineMat

/-!
# C56: memory safety and framing (include/cglm/affine-mat.h)

Called with initialised inputs and a writable destination that does not overlap them, the function is defined,
returns the value-level result and changes no memory but its destination.
-/

set_option linter.unusedVariables false
set_option linter.unusedSectionVars false

namespace Cglm
open CMem

variable {α : Type} [Add α] [Sub α] [Mul α] [Div α] [Neg α] [CFloat α]

theorem C56_mul {mem : Mem α} {m1P m2P destP : Ptr} {m1 : M4 α} {m2 : M4 α} (h_m1 : Holds mem m1P m1.list) (h_m2 : Holds mem m2P m2.list) (r_dest : Room mem destP 16) (s_m1_dest : Apart m1P 16 destP 16) (s_m2_dest : Apart m2P 16 destP 16) :
    C.glm_mul.run mem [m1P.val, m2P.val, destP.val] =
      some (none, writes mem [(destP, (Cglm.glm_mul m1 m2).list.map .f)]) :=
  C55_mul h_m1 h_m2 r_dest (Or.inr s_m1_dest) (Or.inr s_m2_dest)
example (m1 : M4 α) (m2 : M4 α) : let mem : Mem α := [⟨false, m1.list.map .f⟩, ⟨false, m2.list.map .f⟩, ⟨true, List.replicate 16 .undef⟩]
    Holds mem (0, 0) m1.list ∧ Holds mem (1, 0) m2.list ∧ Room mem (2, 0) 16 ∧ Apart (0, 0) 16 (2, 0) 16 ∧ Apart (1, 0) 16 (2, 0) 16 :=
  ⟨.block rfl, .block rfl, .block rfl rfl, Or.inl (by decide), Or.inl (by decide)⟩

theorem C56_mul_rot {mem : Mem α} {m1P m2P destP : Ptr} {m1 : M4 α} {m2 : M4 α} (h_m1 : Holds mem m1P m1.list) (h_m2 : Holds mem m2P m2.list) (r_dest : Room mem destP 16) (s_m1_dest : Apart m1P 16 destP 16) (s_m2_dest : Apart m2P 16 destP 16) :
    C.glm_mul_rot.run mem [m1P.val, m2P.val, destP.val] =
      some (none, writes mem [(destP, (Cglm.glm_mul_rot m1 m2).list.map .f)]) :=
  C55_mul_rot h_m1 h_m2 r_dest (Or.inr s_m1_dest) (Or.inr s_m2_dest)
example (m1 : M4 α) (m2 : M4 α) : let mem : Mem α := [⟨false, m1.list.map .f⟩, ⟨false, m2.list.map .f⟩, ⟨true, List.replicate 16 .undef⟩]
    Holds mem (0, 0) m1.list ∧ Holds mem (1, 0) m2.list ∧ Room mem (2, 0) 16 ∧ Apart (0, 0) 16 (2, 0) 16 ∧ Apart (1, 0) 16 (2, 0) 16 :=
  ⟨.block rfl, .block rfl, .block rfl rfl, Or.inl (by decide), Or.inl (by decide)⟩

theorem C56_inv_tr {mem : Mem α} {matP : Ptr} {mat : M4 α} (h_mat : Holds mem matP mat.list) (r_mat : Room mem matP 16) :
    C.glm_inv_tr.run mem [matP.val] =
      some (none, writes mem [(matP, (Cglm.glm_inv_tr mat).list.map .f)]) := by
  exact transferL ((R.nil _).addW h_mat.has r_mat .nil) (.p rfl .nil) (glm_inv_tr_run _) (DT.val_done _) rfl rfl
example (mat : M4 α) : let mem : Mem α := [⟨true, mat.list.map .f⟩]
    Holds mem (0, 0) mat.list ∧ Room mem (0, 0) 16 :=
  ⟨.block rfl, .block rfl rfl⟩

end Cglm

end C56AffineMat

section C56AffinePost

/-!
# C56: memory safety and framing (include/cglm/affine-post.h)

Called with initialised inputs and a writable destination that does not overlap them, the function is defined,
returns the value-level result and changes no memory but its destination.
-/

set_option linter.unusedVariables false
set_option linter.unusedSectionVars false

namespace Cglm
open CMem

variable {α : Type} [Add α] [Sub α] [Mul α] [Div α] [Neg α] [CFloat α]

theorem C56_translated {mem : Mem α} {mP vP : Ptr} {m : M4 α} {v : V3 α} (h_m : Holds mem mP m.list) (r_m : Room mem mP 16) (h_v : Holds mem vP v.list) (s_v_m : Apart vP 3 mP 16) :
    C.glm_translated.run mem [mP.val, vP.val] =
      some (none, writes mem [(mP, (Cglm.glm_translated m v).list.map .f)]) := by
  exact transferL (((R.nil _).addR h_v.has .nil).addW h_m.has r_m (.cons s_v_m.symm .nil)) (.p rfl (.p rfl .nil)) (glm_translated_run _ _) (DT.val_done _) rfl rfl
example (m : M4 α) (v : V3 α) : let mem : Mem α := [⟨true, m.list.map .f⟩, ⟨false, v.list.map .f⟩]
    Holds mem (0, 0) m.list ∧ Room mem (0, 0) 16 ∧ Holds mem (1, 0) v.list ∧ Apart (1, 0) 3 (0, 0) 16 :=
  ⟨.block rfl, .block rfl rfl, .block rfl, Or.inl (by decide)⟩

theorem C56_translated_to {mem : Mem α} {mP vP destP : Ptr} {m : M4 α} {v : V3 α} (h_m : Holds mem mP m.list) (h_v : Holds mem vP v.list) (r_dest : Room mem destP 16) (s_m_dest : Apart mP 16 destP 16) (s_v_dest : Apart vP 3 destP 16) :
    C.glm_translated_to.run mem [mP.val, vP.val, destP.val] =
      some (none, writes mem [(destP, (Cglm.glm_translated_to m v).list.map .f)]) :=
  C55_translated_to h_m h_v r_dest (Or.inr s_m_dest) s_v_dest
example (m : M4 α) (v : V3 α) : let mem : Mem α := [⟨false, m.list.map .f⟩, ⟨false, v.list.map .f⟩, ⟨true, List.replicate 16 .undef⟩]
    Holds mem (0, 0) m.list ∧ Holds mem (1, 0) v.list ∧ Room mem (2, 0) 16 ∧ Apart (0, 0) 16 (2, 0) 16 ∧ Apart (1, 0) 3 (2, 0) 16 :=
  ⟨.block rfl, .block rfl, .block rfl rfl, Or.inl (by decide), Or.inl (by decide)⟩

theorem C56_translated_x {mem : Mem α} {mP : Ptr} {m : M4 α} (x : α) (h_m : Holds mem mP m.list) (r_m : Room mem mP 16) :
    C.glm_translated_x.run mem [mP.val, .f x] =
      some (none, writes mem [(mP, (Cglm.glm_translated_x m x).list.map .f)]) := by
  exact transferL ((R.nil _).addW h_m.has r_m .nil) (.p rfl (.f .nil)) (glm_translated_x_run _ _) (DT.val_done _) rfl rfl
example (m : M4 α) : let mem : Mem α := [⟨true, m.list.map .f⟩]
    Holds mem (0, 0) m.list ∧ Room mem (0, 0) 16 :=
  ⟨.block rfl, .block rfl rfl⟩

theorem C56_translated_y {mem : Mem α} {mP : Ptr} {m : M4 α} (y : α) (h_m : Holds mem mP m.list) (r_m : Room mem mP 16) :
    C.glm_translated_y.run mem [mP.val, .f y] =
      some (none, writes mem [(mP, (Cglm.glm_translated_y m y).list.map .f)]) := by
  exact transferL ((R.nil _).addW h_m.has r_m .nil) (.p rfl (.f .nil)) (glm_translated_y_run _ _) (DT.val_done _) rfl rfl
example (m : M4 α) : let mem : Mem α := [⟨true, m.list.map .f⟩]
    Holds mem (0, 0) m.list ∧ Room mem (0, 0) 16 :=
  ⟨.block rfl, .block rfl rfl⟩

theorem C56_translated_z {mem : Mem α} {mP : Ptr} {m : M4 α} (z : α) (h_m : Holds mem mP m.list) (r_m : Room mem mP 16) :
    C.glm_translated_z.run mem [mP.val, .f z] =
      some (none, writes mem [(mP, (Cglm.glm_translated_z m z).list.map .f)]) := by
  exact transferL ((R.nil _).addW h_m.has r_m .nil) (.p rfl (.f .nil)) (glm_translated_z_run _ _) (DT.val_done _) rfl rfl
example (m : M4 α) : let mem : Mem α := [⟨true, m.list.map .f⟩]
    Holds mem (0, 0) m.list ∧ Room mem (0, 0) 16 :=
  ⟨.block rfl, .block rfl rfl⟩

theorem C56_rotated_x {mem : Mem α} {mP destP : Ptr} {m : M4 α} (angle : α) (h_m : Holds mem mP m.list) (r_dest : Room mem destP 16) (s_m_dest : Apart mP 16 destP 16) :
    C.glm_rotated_x.run mem [mP.val, .f angle, destP.val] =
      some (none, writes mem [(destP, (Cglm.glm_rotated_x m angle).list.map .f)]) :=
  C55_rotated_x angle h_m r_dest (Or.inr s_m_dest)
example (m : M4 α) : let mem : Mem α := [⟨false, m.list.map .f⟩, ⟨true, List.replicate 16 .undef⟩]
    Holds mem (0, 0) m.list ∧ Room mem (1, 0) 16 ∧ Apart (0, 0) 16 (1, 0) 16 :=
  ⟨.block rfl, .block rfl rfl, Or.inl (by decide)⟩

theorem C56_rotated_y {mem : Mem α} {mP destP : Ptr} {m : M4 α} (angle : α) (h_m : Holds mem mP m.list) (r_dest : Room mem destP 16) (s_m_dest : Apart mP 16 destP 16) :
    C.glm_rotated_y.run mem [mP.val, .f angle, destP.val] =
      some (none, writes mem [(destP, (Cglm.glm_rotated_y m angle).list.map .f)]) :=
  C55_rotated_y angle h_m r_dest (Or.inr s_m_dest)
example (m : M4 α) : let mem : Mem α := [⟨false, m.list.map .f⟩, ⟨true, List.replicate 16 .undef⟩]
    Holds mem (0, 0) m.list ∧ Room mem (1, 0) 16 ∧ Apart (0, 0) 16 (1, 0) 16 :=
  ⟨.block rfl, .block rfl rfl, Or.inl (by decide)⟩

theorem C56_rotated_z {mem : Mem α} {mP destP : Ptr} {m : M4 α} (angle : α) (h_m : Holds mem mP m.list) (r_dest : Room mem destP 16) (s_m_dest : Apart mP 16 destP 16) :
    C.glm_rotated_z.run mem [mP.val, .f angle, destP.val] =
      some (none, writes mem [(destP, (Cglm.glm_rotated_z m angle).list.map .f)]) :=
  C55_rotated_z angle h_m r_dest (Or.inr s_m_dest)
example (m : M4 α) : let mem : Mem α := [⟨false, m.list.map .f⟩, ⟨true, List.replicate 16 .undef⟩]
    Holds mem (0, 0) m.list ∧ Room mem (1, 0) 16 ∧ Apart (0, 0) 16 (1, 0) 16 :=
  ⟨.block rfl, .block rfl rfl, Or.inl (by decide)⟩

theorem C56_rotated {mem : Mem α} {mP axisP : Ptr} {m : M4 α} (angle : α) {axis : V3 α} (h_m : Holds mem mP m.list) (r_m : Room mem mP 16) (h_axis : Holds mem axisP axis.list) (s_axis_m : Apart axisP 3 mP 16) :
    C.glm_rotated.run mem [mP.val, .f angle, axisP.val] =
      some (none, writes mem [(mP, (Cglm.glm_rotated m angle axis).list.map .f)]) := by
  exact transferL (((R.nil _).addR h_axis.has .nil).addW h_m.has r_m (.cons s_axis_m.symm .nil)) (.p rfl (.f (.p rfl .nil))) (glm_rotated_run _ _ _) (DT.val_map_eq (glm_rotated_dt_val _ _ _) rfl) rfl rfl
example (m : M4 α) (axis : V3 α) : let mem : Mem α := [⟨true, m.list.map .f⟩, ⟨false, axis.list.map .f⟩]
    Holds mem (0, 0) m.list ∧ Room mem (0, 0) 16 ∧ Holds mem (1, 0) axis.list ∧ Apart (1, 0) 3 (0, 0) 16 :=
  ⟨.block rfl, .block rfl rfl, .block rfl, Or.inl (by decide)⟩

theorem C56_rotated_at {mem : Mem α} {mP pivotP axisP : Ptr} {m : M4 α} {pivot : V3 α} (angle : α) {axis : V3 α} (h_m : Holds mem mP m.list) (r_m : Room mem mP 16) (h_pivot : Holds mem pivotP pivot.list) (h_axis : Holds mem axisP axis.list) (s_pivot_m : Apart pivotP 3 mP 16) (s_axis_m : Apart axisP 3 mP 16) :
    C.glm_rotated_at.run mem [mP.val, pivotP.val, .f angle, axisP.val] =
      some (none, writes mem [(mP, (Cglm.glm_rotated_at m pivot angle axis).list.map .f)]) := by
  exact transferL ((((R.nil _).addR h_axis.has .nil).addR h_pivot.has (.skip .nil)).addW h_m.has r_m (.cons s_pivot_m.symm (.cons s_axis_m.symm .nil))) (.p rfl (.p rfl (.f (.p rfl .nil)))) (glm_rotated_at_run _ _ _ _) (DT.val_map_eq (glm_rotated_at_dt_val _ _ _ _) rfl) rfl rfl
example (m : M4 α) (pivot : V3 α) (axis : V3 α) : let mem : Mem α := [⟨true, m.list.map .f⟩, ⟨false, pivot.list.map .f⟩, ⟨false, axis.list.map .f⟩]
    Holds mem (0, 0) m.list ∧ Room mem (0, 0) 16 ∧ Holds mem (1, 0) pivot.list ∧ Holds mem (2, 0) axis.list ∧ Apart (1, 0) 3 (0, 0) 16 ∧ Apart (2, 0) 3 (0, 0) 16 :=
  ⟨.block rfl, .block rfl rfl, .block rfl, .block rfl, Or.inl (by decide), Or.inl (by decide)⟩

theorem C56_spinned {mem : Mem α} {mP axisP : Ptr} {m : M4 α} (angle : α) {axis : V3 α} (h_m : Holds mem mP m.list) (r_m : Room mem mP 16) (h_axis : Holds mem axisP axis.list) (s_axis_m : Apart axisP 3 mP 16) :
    C.glm_spinned.run mem [mP.val, .f angle, axisP.val] =
      some (none, writes mem [(mP, (Cglm.glm_spinned m angle axis).list.map .f)]) := by
  exact transferL (((R.nil _).addR h_axis.has .nil).addW h_m.has r_m (.cons s_axis_m.symm .nil)) (.p rfl (.f (.p rfl .nil))) (glm_spinned_run _ _ _) (DT.val_map_eq (glm_spinned_dt_val _ _ _) rfl) rfl rfl
example (m : M4 α) (axis : V3 α) : let mem : Mem α := [⟨true, m.list.map .f⟩, ⟨false, axis.list.map .f⟩]
    Holds mem (0, 0) m.list ∧ Room mem (0, 0) 16 ∧ Holds mem (1, 0) axis.list ∧ Apart (1, 0) 3 (0, 0) 16 :=
  ⟨.block rfl, .block rfl rfl, .block rfl, Or.inl (by decide)⟩

end Cglm

end C56AffinePost

section C56AffinePre

/-!
# C56: memory safety and framing (include/cglm/affine-pre.h)

Called with initialised inputs and a writable destination that does not overlap them, the function is defined,
returns the value-level result and changes no memory but its destination.
-/

set_option linter.unusedVariables false
set_option linter.unusedSectionVars false

namespace Cglm
open CMem

variable {α : Type} [Add α] [Sub α] [Mul α] [Div α] [Neg α] [CFloat α]

theorem C56_translate {mem : Mem α} {mP vP : Ptr} {m : M4 α} {v : V3 α} (h_m : Holds mem mP m.list) (r_m : Room mem mP 16) (h_v : Holds mem vP v.list) (s_v_m : Apart vP 3 mP 16) :
    C.glm_translate.run mem [mP.val, vP.val] =
      some (none, writes mem [(mP, (Cglm.glm_translate m v).list.map .f)]) := by
  exact transferL (((R.nil _).addR h_v.has .nil).addW h_m.has r_m (.cons s_v_m.symm .nil)) (.p rfl (.p rfl .nil)) (glm_translate_run _ _) (DT.val_done _) rfl rfl
example (m : M4 α) (v : V3 α) : let mem : Mem α := [⟨true, m.list.map .f⟩, ⟨false, v.list.map .f⟩]
    Holds mem (0, 0) m.list ∧ Room mem (0, 0) 16 ∧ Holds mem (1, 0) v.list ∧ Apart (1, 0) 3 (0, 0) 16 :=
  ⟨.block rfl, .block rfl rfl, .block rfl, Or.inl (by decide)⟩

theorem C56_translate_to {mem : Mem α} {mP vP destP : Ptr} {m : M4 α} {v : V3 α} (h_m : Holds mem mP m.list) (h_v : Holds mem vP v.list) (r_dest : Room mem destP 16) (s_m_dest : Apart mP 16 destP 16) (s_v_dest : Apart vP 3 destP 16) :
    C.glm_translate_to.run mem [mP.val, vP.val, destP.val] =
      some (none, writes mem [(destP, (Cglm.glm_translate_to m v).list.map .f)]) :=
  C55_translate_to h_m h_v r_dest (Or.inr s_m_dest) s_v_dest
example (m : M4 α) (v : V3 α) : let mem : Mem α := [⟨false, m.list.map .f⟩, ⟨false, v.list.map .f⟩, ⟨true, List.replicate 16 .undef⟩]
    Holds mem (0, 0) m.list ∧ Holds mem (1, 0) v.list ∧ Room mem (2, 0) 16 ∧ Apart (0, 0) 16 (2, 0) 16 ∧ Apart (1, 0) 3 (2, 0) 16 :=
  ⟨.block rfl, .block rfl, .block rfl rfl, Or.inl (by decide), Or.inl (by decide)⟩

theorem C56_translate_x {mem : Mem α} {mP : Ptr} {m : M4 α} (x : α) (h_m : Holds mem mP m.list) (r_m : Room mem mP 16) :
    C.glm_translate_x.run mem [mP.val, .f x] =
      some (none, writes mem [(mP, (Cglm.glm_translate_x m x).list.map .f)]) := by
  exact transferL ((R.nil _).addW h_m.has r_m .nil) (.p rfl (.f .nil)) (glm_translate_x_run _ _) (DT.val_done _) rfl rfl
example (m : M4 α) : let mem : Mem α := [⟨true, m.list.map .f⟩]
    Holds mem (0, 0) m.list ∧ Room mem (0, 0) 16 :=
  ⟨.block rfl, .block rfl rfl⟩

theorem C56_translate_y {mem : Mem α} {mP : Ptr} {m : M4 α} (y : α) (h_m : Holds mem mP m.list) (r_m : Room mem mP 16) :
    C.glm_translate_y.run mem [mP.val, .f y] =
      some (none, writes mem [(mP, (Cglm.glm_translate_y m y).list.map .f)]) := by
  exact transferL ((R.nil _).addW h_m.has r_m .nil) (.p rfl (.f .nil)) (glm_translate_y_run _ _) (DT.val_done _) rfl rfl
example (m : M4 α) : let mem : Mem α := [⟨true, m.list.map .f⟩]
    Holds mem (0, 0) m.list ∧ Room mem (0, 0) 16 :=
  ⟨.block rfl, .block rfl rfl⟩

theorem C56_translate_z {mem : Mem α} {mP : Ptr} {m : M4 α} (z : α) (h_m : Holds mem mP m.list) (r_m : Room mem mP 16) :
    C.glm_translate_z.run mem [mP.val, .f z] =
      some (none, writes mem [(mP, (Cglm.glm_translate_z m z).list.map .f)]) := by
  exact transferL ((R.nil _).addW h_m.has r_m .nil) (.p rfl (.f .nil)) (glm_translate_z_run _ _) (DT.val_done _) rfl rfl
example (m : M4 α) : let mem : Mem α := [⟨true, m.list.map .f⟩]
    Holds mem (0, 0) m.list ∧ Room mem (0, 0) 16 :=
  ⟨.block rfl, .block rfl rfl⟩

theorem C56_rotate_x {mem : Mem α} {mP destP : Ptr} {m : M4 α} (angle : α) (h_m : Holds mem mP m.list) (r_dest : Room mem destP 16) (s_m_dest : Apart mP 16 destP 16) :
    C.glm_rotate_x.run mem [mP.val, .f angle, destP.val] =
      some (none, writes mem [(destP, (Cglm.glm_rotate_x m angle).list.map .f)]) :=
  C55_rotate_x angle h_m r_dest (Or.inr s_m_dest)
example (m : M4 α) : let mem : Mem α := [⟨false, m.list.map .f⟩, ⟨true, List.replicate 16 .undef⟩]
    Holds mem (0, 0) m.list ∧ Room mem (1, 0) 16 ∧ Apart (0, 0) 16 (1, 0) 16 :=
  ⟨.block rfl, .block rfl rfl, Or.inl (by decide)⟩

theorem C56_rotate_y {mem : Mem α} {mP destP : Ptr} {m : M4 α} (angle : α) (h_m : Holds mem mP m.list) (r_dest : Room mem destP 16) (s_m_dest : Apart mP 16 destP 16) :
    C.glm_rotate_y.run mem [mP.val, .f angle, destP.val] =
      some (none, writes mem [(destP, (Cglm.glm_rotate_y m angle).list.map .f)]) :=
  C55_rotate_y angle h_m r_dest (Or.inr s_m_dest)
example (m : M4 α) : let mem : Mem α := [⟨false, m.list.map .f⟩, ⟨true, List.replicate 16 .undef⟩]
    Holds mem (0, 0) m.list ∧ Room mem (1, 0) 16 ∧ Apart (0, 0) 16 (1, 0) 16 :=
  ⟨.block rfl, .block rfl rfl, Or.inl (by decide)⟩

theorem C56_rotate_z {mem : Mem α} {mP destP : Ptr} {m : M4 α} (angle : α) (h_m : Holds mem mP m.list) (r_dest : Room mem destP 16) (s_m_dest : Apart mP 16 destP 16) :
    C.glm_rotate_z.run mem [mP.val, .f angle, destP.val] =
      some (none, writes mem [(destP, (Cglm.glm_rotate_z m angle).list.map .f)]) :=
  C55_rotate_z angle h_m r_dest (Or.inr s_m_dest)
example (m : M4 α) : let mem : Mem α := [⟨false, m.list.map .f⟩, ⟨true, List.replicate 16 .undef⟩]
    Holds mem (0, 0) m.list ∧ Room mem (1, 0) 16 ∧ Apart (0, 0) 16 (1, 0) 16 :=
  ⟨.block rfl, .block rfl rfl, Or.inl (by decide)⟩

theorem C56_rotate {mem : Mem α} {mP axisP : Ptr} {m : M4 α} (angle : α) {axis : V3 α} (h_m : Holds mem mP m.list) (r_m : Room mem mP 16) (h_axis : Holds mem axisP axis.list) (s_axis_m : Apart axisP 3 mP 16) :
    C.glm_rotate.run mem [mP.val, .f angle, axisP.val] =
      some (none, writes mem [(mP, (Cglm.glm_rotate m angle axis).list.map .f)]) := by
  exact transferL (((R.nil _).addR h_axis.has .nil).addW h_m.has r_m (.cons s_axis_m.symm .nil)) (.p rfl (.f (.p rfl .nil))) (glm_rotate_run _ _ _) (DT.val_map_eq (glm_rotate_dt_val _ _ _) rfl) rfl rfl
example (m : M4 α) (axis : V3 α) : let mem : Mem α := [⟨true, m.list.map .f⟩, ⟨false, axis.list.map .f⟩]
    Holds mem (0, 0) m.list ∧ Room mem (0, 0) 16 ∧ Holds mem (1, 0) axis.list ∧ Apart (1, 0) 3 (0, 0) 16 :=
  ⟨.block rfl, .block rfl rfl, .block rfl, Or.inl (by decide)⟩

theorem C56_rotate_at {mem : Mem α} {mP pivotP axisP : Ptr} {m : M4 α} {pivot : V3 α} (angle : α) {axis : V3 α} (h_m : Holds mem mP m.list) (r_m : Room mem mP 16) (h_pivot : Holds mem pivotP pivot.list) (h_axis : Holds mem axisP axis.list) (s_pivot_m : Apart pivotP 3 mP 16) (s_axis_m : Apart axisP 3 mP 16) :
    C.glm_rotate_at.run mem [mP.val, pivotP.val, .f angle, axisP.val] =
      some (none, writes mem [(mP, (Cglm.glm_rotate_at m pivot angle axis).list.map .f)]) := by
  exact transferL ((((R.nil _).addR h_axis.has .nil).addR h_pivot.has (.skip .nil)).addW h_m.has r_m (.cons s_pivot_m.symm (.cons s_axis_m.symm .nil))) (.p rfl (.p rfl (.f (.p rfl .nil)))) (glm_rotate_at_run _ _ _ _) (DT.val_map_eq (glm_rotate_at_dt_val _ _ _ _) rfl) rfl rfl
example (m : M4 α) (pivot : V3 α) (axis : V3 α) : let mem : Mem α := [⟨true, m.list.map .f⟩, ⟨false, pivot.list.map .f⟩, ⟨false, axis.list.map .f⟩]
    Holds mem (0, 0) m.list ∧ Room mem (0, 0) 16 ∧ Holds mem (1, 0) pivot.list ∧ Holds mem (2, 0) axis.list ∧ Apart (1, 0) 3 (0, 0) 16 ∧ Apart (2, 0) 3 (0, 0) 16 :=
  ⟨.block rfl, .block rfl rfl, .block rfl, .block rfl, Or.inl (by decide), Or.inl (by decide)⟩

theorem C56_rotate_atm {mem : Mem α} {mP pivotP axisP : Ptr} {pivot : V3 α} (angle : α) {axis : V3 α} (r_m : Room mem mP 16) (h_pivot : Holds mem pivotP pivot.list) (h_axis : Holds mem axisP axis.list) (s_pivot_m : Apart pivotP 3 mP 16) (s_axis_m : Apart axisP 3 mP 16) :
    C.glm_rotate_atm.run mem [mP.val, pivotP.val, .f angle, axisP.val] =
      some (none, writes mem [(mP, (Cglm.glm_rotate_atm pivot angle axis).list.map .f)]) := by
  exact transferL ((((R.nil _).addR h_axis.has .nil).addR h_pivot.has (.skip .nil)).addW r_m.has r_m (.cons s_pivot_m.symm (.cons s_axis_m.symm .nil))) (.p rfl (.p rfl (.f (.p rfl .nil)))) (glm_rotate_atm_run _ _ _) (DT.val_map_eq (glm_rotate_atm_dt_val _ _ _) rfl) rfl rfl
example (pivot : V3 α) (axis : V3 α) : let mem : Mem α := [⟨true, List.replicate 16 .undef⟩, ⟨false, pivot.list.map .f⟩, ⟨false, axis.list.map .f⟩]
    Room mem (0, 0) 16 ∧ Holds mem (1, 0) pivot.list ∧ Holds mem (2, 0) axis.list ∧ Apart (1, 0) 3 (0, 0) 16 ∧ Apart (2, 0) 3 (0, 0) 16 :=
  ⟨.block rfl rfl, .block rfl, .block rfl, Or.inl (by decide), Or.inl (by decide)⟩

theorem C56_spin {mem : Mem α} {mP axisP : Ptr} {m : M4 α} (angle : α) {axis : V3 α} (h_m : Holds mem mP m.list) (r_m : Room mem mP 16) (h_axis : Holds mem axisP axis.list) (s_axis_m : Apart axisP 3 mP 16) :
    C.glm_spin.run mem [mP.val, .f angle, axisP.val] =
      some (none, writes mem [(mP, (Cglm.glm_spin m angle axis).list.map .f)]) := by
  exact transferL (((R.nil _).addR h_axis.has .nil).addW h_m.has r_m (.cons s_axis_m.symm .nil)) (.p rfl (.f (.p rfl .nil))) (glm_spin_run _ _ _) (DT.val_map_eq (glm_spin_dt_val _ _ _) rfl) rfl rfl
example (m : M4 α) (axis : V3 α) : let mem : Mem α := [⟨true, m.list.map .f⟩, ⟨false, axis.list.map .f⟩]
    Holds mem (0, 0) m.list ∧ Room mem (0, 0) 16 ∧ Holds mem (1, 0) axis.list ∧ Apart (1, 0) 3 (0, 0) 16 :=
  ⟨.block rfl, .block rfl rfl, .block rfl, Or.inl (by decide)⟩

end Cglm

end C56AffinePre

section C56Cam

/-!
# C56: memory safety and framing (include/cglm/cam.h)

Called with initialised inputs and a writable destination that does not overlap them, the function is defined,
returns the value-level result and changes no memory but its destination.
-/

set_option linter.unusedVariables false
set_option linter.unusedSectionVars false

namespace Cglm
open CMem

variable {α : Type} [Add α] [Sub α] [Mul α] [Div α] [Neg α] [CFloat α]

theorem C56_frustum {mem : Mem α} {destP : Ptr} (left : α) (right : α) (bottom : α) (top : α) (nearZ : α) (farZ : α) (r_dest : Room mem destP 16) :
    C.glm_frustum.run mem [.f left, .f right, .f bottom, .f top, .f nearZ, .f farZ, destP.val] =
      some (none, writes mem [(destP, (Cglm.glm_frustum left right bottom top nearZ farZ).list.map .f)]) := by
  exact transferL ((R.nil _).addW r_dest.has r_dest .nil) (.f (.f (.f (.f (.f (.f (.p rfl .nil))))))) (glm_frustum_run _ _ _ _ _ _) (DT.val_done _) rfl rfl
example : let mem : Mem α := [⟨true, List.replicate 16 .undef⟩]
    Room mem (0, 0) 16 :=
  .block rfl rfl

theorem C56_ortho {mem : Mem α} {destP : Ptr} (left : α) (right : α) (bottom : α) (top : α) (nearZ : α) (farZ : α) (r_dest : Room mem destP 16) :
    C.glm_ortho.run mem [.f left, .f right, .f bottom, .f top, .f nearZ, .f farZ, destP.val] =
      some (none, writes mem [(destP, (Cglm.glm_ortho left right bottom top nearZ farZ).list.map .f)]) := by
  exact transferL ((R.nil _).addW r_dest.has r_dest .nil) (.f (.f (.f (.f (.f (.f (.p rfl .nil))))))) (glm_ortho_run _ _ _ _ _ _) (DT.val_done _) rfl rfl
example : let mem : Mem α := [⟨true, List.replicate 16 .undef⟩]
    Room mem (0, 0) 16 :=
  .block rfl rfl

theorem C56_ortho_aabb {mem : Mem α} {boxP destP : Ptr} {box : M2x3 α} (h_box : Holds mem boxP box.list) (r_dest : Room mem destP 16) (s_box_dest : Apart boxP 6 destP 16) :
    C.glm_ortho_aabb.run mem [boxP.val, destP.val] =
      some (none, writes mem [(destP, (Cglm.glm_ortho_aabb box).list.map .f)]) := by
  exact transferL (((R.nil _).addW r_dest.has r_dest .nil).addR h_box.has (.cons s_box_dest .nil)) (.p rfl (.p rfl .nil)) (glm_ortho_aabb_run _) (DT.val_done _) rfl rfl
example (box : M2x3 α) : let mem : Mem α := [⟨false, box.list.map .f⟩, ⟨true, List.replicate 16 .undef⟩]
    Holds mem (0, 0) box.list ∧ Room mem (1, 0) 16 ∧ Apart (0, 0) 6 (1, 0) 16 :=
  ⟨.block rfl, .block rfl rfl, Or.inl (by decide)⟩

theorem C56_ortho_aabb_p {mem : Mem α} {boxP destP : Ptr} {box : M2x3 α} (padding : α) (h_box : Holds mem boxP box.list) (r_dest : Room mem destP 16) (s_box_dest : Apart boxP 6 destP 16) :
    C.glm_ortho_aabb_p.run mem [boxP.val, .f padding, destP.val] =
      some (none, writes mem [(destP, (Cglm.glm_ortho_aabb_p box padding).list.map .f)]) := by
  exact transferL (((R.nil _).addW r_dest.has r_dest .nil).addR h_box.has (.cons s_box_dest .nil)) (.p rfl (.f (.p rfl .nil))) (glm_ortho_aabb_p_run _ _) (DT.val_done _) rfl rfl
example (box : M2x3 α) : let mem : Mem α := [⟨false, box.list.map .f⟩, ⟨true, List.replicate 16 .undef⟩]
    Holds mem (0, 0) box.list ∧ Room mem (1, 0) 16 ∧ Apart (0, 0) 6 (1, 0) 16 :=
  ⟨.block rfl, .block rfl rfl, Or.inl (by decide)⟩

theorem C56_ortho_aabb_pz {mem : Mem α} {boxP destP : Ptr} {box : M2x3 α} (padding : α) (h_box : Holds mem boxP box.list) (r_dest : Room mem destP 16) (s_box_dest : Apart boxP 6 destP 16) :
    C.glm_ortho_aabb_pz.run mem [boxP.val, .f padding, destP.val] =
      some (none, writes mem [(destP, (Cglm.glm_ortho_aabb_pz box padding).list.map .f)]) := by
  exact transferL (((R.nil _).addW r_dest.has r_dest .nil).addR h_box.has (.cons s_box_dest .nil)) (.p rfl (.f (.p rfl .nil))) (glm_ortho_aabb_pz_run _ _) (DT.val_done _) rfl rfl
example (box : M2x3 α) : let mem : Mem α := [⟨false, box.list.map .f⟩, ⟨true, List.replicate 16 .undef⟩]
    Holds mem (0, 0) box.list ∧ Room mem (1, 0) 16 ∧ Apart (0, 0) 6 (1, 0) 16 :=
  ⟨.block rfl, .block rfl rfl, Or.inl (by decide)⟩

theorem C56_ortho_default {mem : Mem α} {destP : Ptr} (aspect : α) (r_dest : Room mem destP 16) :
    C.glm_ortho_default.run mem [.f aspect, destP.val] =
      some (none, writes mem [(destP, (Cglm.glm_ortho_default aspect).list.map .f)]) := by
  exact transferL ((R.nil _).addW r_dest.has r_dest .nil) (.f (.p rfl .nil)) (glm_ortho_default_run _) (DT.val_map_eq (glm_ortho_default_dt_val _) rfl) rfl rfl
example : let mem : Mem α := [⟨true, List.replicate 16 .undef⟩]
    Room mem (0, 0) 16 :=
  .block rfl rfl

theorem C56_ortho_default_s {mem : Mem α} {destP : Ptr} (aspect : α) (size : α) (r_dest : Room mem destP 16) :
    C.glm_ortho_default_s.run mem [.f aspect, .f size, destP.val] =
      some (none, writes mem [(destP, (Cglm.glm_ortho_default_s aspect size).list.map .f)]) := by
  exact transferL ((R.nil _).addW r_dest.has r_dest .nil) (.f (.f (.p rfl .nil))) (glm_ortho_default_s_run _ _) (DT.val_map_eq (glm_ortho_default_s_dt_val _ _) rfl) rfl rfl
example : let mem : Mem α := [⟨true, List.replicate 16 .undef⟩]
    Room mem (0, 0) 16 :=
  .block rfl rfl

theorem C56_perspective {mem : Mem α} {destP : Ptr} (fovy : α) (aspect : α) (nearZ : α) (farZ : α) (r_dest : Room mem destP 16) :
    C.glm_perspective.run mem [.f fovy, .f aspect, .f nearZ, .f farZ, destP.val] =
      some (none, writes mem [(destP, (Cglm.glm_perspective fovy aspect nearZ farZ).list.map .f)]) := by
  exact transferL ((R.nil _).addW r_dest.has r_dest .nil) (.f (.f (.f (.f (.p rfl .nil))))) (glm_perspective_run _ _ _ _) (DT.val_done _) rfl rfl
example : let mem : Mem α := [⟨true, List.replicate 16 .undef⟩]
    Room mem (0, 0) 16 :=
  .block rfl rfl

theorem C56_persp_move_far {mem : Mem α} {projP : Ptr} {proj : M4 α} (deltaFar : α) (h_proj : Holds mem projP proj.list) (r_proj : Room mem projP 16) :
    C.glm_persp_move_far.run mem [projP.val, .f deltaFar] =
      some (none, writes mem [(projP, (Cglm.glm_persp_move_far proj deltaFar).list.map .f)]) := by
  exact transferL ((R.nil _).addW h_proj.has r_proj .nil) (.p rfl (.f .nil)) (glm_persp_move_far_run _ _) (DT.val_done _) rfl rfl
example (proj : M4 α) : let mem : Mem α := [⟨true, proj.list.map .f⟩]
    Holds mem (0, 0) proj.list ∧ Room mem (0, 0) 16 :=
  ⟨.block rfl, .block rfl rfl⟩

theorem C56_perspective_default {mem : Mem α} {destP : Ptr} (aspect : α) (r_dest : Room mem destP 16) :
    C.glm_perspective_default.run mem [.f aspect, destP.val] =
      some (none, writes mem [(destP, (Cglm.glm_perspective_default aspect).list.map .f)]) := by
  exact transferL ((R.nil _).addW r_dest.has r_dest .nil) (.f (.p rfl .nil)) (glm_perspective_default_run _) (DT.val_done _) rfl rfl
example : let mem : Mem α := [⟨true, List.replicate 16 .undef⟩]
    Room mem (0, 0) 16 :=
  .block rfl rfl

theorem C56_perspective_resize {mem : Mem α} {projP : Ptr} (aspect : α) {proj : M4 α} (h_proj : Holds mem projP proj.list) (r_proj : Room mem projP 16) :
    C.glm_perspective_resize.run mem [.f aspect, projP.val] =
      some (none, writes mem [(projP, (Cglm.glm_perspective_resize aspect proj).list.map .f)]) := by
  exact transferL ((R.nil _).addW h_proj.has r_proj .nil) (.f (.p rfl .nil)) (glm_perspective_resize_run _ _) (DT.val_map_eq (glm_perspective_resize_dt_val _ _) rfl) rfl rfl
example (proj : M4 α) : let mem : Mem α := [⟨true, proj.list.map .f⟩]
    Holds mem (0, 0) proj.list ∧ Room mem (0, 0) 16 :=
  ⟨.block rfl, .block rfl rfl⟩

theorem C56_lookat {mem : Mem α} {eyeP centerP upP destP : Ptr} {eye : V3 α} {center : V3 α} {up : V3 α} (h_eye : Holds mem eyeP eye.list) (h_center : Holds mem centerP center.list) (h_up : Holds mem upP up.list) (r_dest : Room mem destP 16) (s_eye_dest : Apart eyeP 3 destP 16) (s_center_dest : Apart centerP 3 destP 16) (s_up_dest : Apart upP 3 destP 16) :
    C.glm_lookat.run mem [eyeP.val, centerP.val, upP.val, destP.val] =
      some (none, writes mem [(destP, (Cglm.glm_lookat eye center up).list.map .f)]) := by
  exact transferL (((((R.nil _).addW r_dest.has r_dest .nil).addR h_up.has (.cons s_up_dest .nil)).addR h_center.has (.skip (.cons s_center_dest .nil))).addR h_eye.has (.skip (.skip (.cons s_eye_dest .nil)))) (.p rfl (.p rfl (.p rfl (.p rfl .nil)))) (glm_lookat_run _ _ _) (DT.val_map_eq (glm_lookat_dt_val _ _ _) rfl) rfl rfl
example (eye : V3 α) (center : V3 α) (up : V3 α) : let mem : Mem α := [⟨false, eye.list.map .f⟩, ⟨false, center.list.map .f⟩, ⟨false, up.list.map .f⟩, ⟨true, List.replicate 16 .undef⟩]
    Holds mem (0, 0) eye.list ∧ Holds mem (1, 0) center.list ∧ Holds mem (2, 0) up.list ∧ Room mem (3, 0) 16 ∧ Apart (0, 0) 3 (3, 0) 16 ∧ Apart (1, 0) 3 (3, 0) 16 ∧ Apart (2, 0) 3 (3, 0) 16 :=
  ⟨.block rfl, .block rfl, .block rfl, .block rfl rfl, Or.inl (by decide), Or.inl (by decide), Or.inl (by decide)⟩

theorem C56_look {mem : Mem α} {eyeP dirP upP destP : Ptr} {eye : V3 α} {dir : V3 α} {up : V3 α} (h_eye : Holds mem eyeP eye.list) (h_dir : Holds mem dirP dir.list) (h_up : Holds mem upP up.list) (r_dest : Room mem destP 16) (s_eye_dest : Apart eyeP 3 destP 16) (s_dir_dest : Apart dirP 3 destP 16) (s_up_dest : Apart upP 3 destP 16) :
    C.glm_look.run mem [eyeP.val, dirP.val, upP.val, destP.val] =
      some (none, writes mem [(destP, (Cglm.glm_look eye dir up).list.map .f)]) := by
  exact transferL (((((R.nil _).addW r_dest.has r_dest .nil).addR h_up.has (.cons s_up_dest .nil)).addR h_dir.has (.skip (.cons s_dir_dest .nil))).addR h_eye.has (.skip (.skip (.cons s_eye_dest .nil)))) (.p rfl (.p rfl (.p rfl (.p rfl .nil)))) (glm_look_run _ _ _) (DT.val_map_eq (glm_look_dt_val _ _ _) rfl) rfl rfl
example (eye : V3 α) (dir : V3 α) (up : V3 α) : let mem : Mem α := [⟨false, eye.list.map .f⟩, ⟨false, dir.list.map .f⟩, ⟨false, up.list.map .f⟩, ⟨true, List.replicate 16 .undef⟩]
    Holds mem (0, 0) eye.list ∧ Holds mem (1, 0) dir.list ∧ Holds mem (2, 0) up.list ∧ Room mem (3, 0) 16 ∧ Apart (0, 0) 3 (3, 0) 16 ∧ Apart (1, 0) 3 (3, 0) 16 ∧ Apart (2, 0) 3 (3, 0) 16 :=
  ⟨.block rfl, .block rfl, .block rfl, .block rfl rfl, Or.inl (by decide), Or.inl (by decide), Or.inl (by decide)⟩

theorem C56_look_anyup {mem : Mem α} {eyeP dirP destP : Ptr} {eye : V3 α} {dir : V3 α} (h_eye : Holds mem eyeP eye.list) (h_dir : Holds mem dirP dir.list) (r_dest : Room mem destP 16) (s_eye_dest : Apart eyeP 3 destP 16) (s_dir_dest : Apart dirP 3 destP 16) :
    C.glm_look_anyup.run mem [eyeP.val, dirP.val, destP.val] =
      some (none, writes mem [(destP, (Cglm.glm_look_anyup eye dir).list.map .f)]) := by
  exact transferL ((((R.nil _).addW r_dest.has r_dest .nil).addR h_dir.has (.cons s_dir_dest .nil)).addR h_eye.has (.skip (.cons s_eye_dest .nil))) (.p rfl (.p rfl (.p rfl .nil))) (glm_look_anyup_run _ _) (DT.val_map_eq (glm_look_anyup_dt_val _ _) rfl) rfl rfl
example (eye : V3 α) (dir : V3 α) : let mem : Mem α := [⟨false, eye.list.map .f⟩, ⟨false, dir.list.map .f⟩, ⟨true, List.replicate 16 .undef⟩]
    Holds mem (0, 0) eye.list ∧ Holds mem (1, 0) dir.list ∧ Room mem (2, 0) 16 ∧ Apart (0, 0) 3 (2, 0) 16 ∧ Apart (1, 0) 3 (2, 0) 16 :=
  ⟨.block rfl, .block rfl, .block rfl rfl, Or.inl (by decide), Or.inl (by decide)⟩

theorem C56_persp_decomp {mem : Mem α} {projP nearZP farZP topP bottomP leftP rightP : Ptr} {proj : M4 α} (h_proj : Holds mem projP proj.list) (r_nearZ : Room mem nearZP 1) (r_farZ : Room mem farZP 1) (r_top : Room mem topP 1) (r_bottom : Room mem bottomP 1) (r_left : Room mem leftP 1) (r_right : Room mem rightP 1) (s_proj_nearZ : Apart projP 16 nearZP 1) (s_proj_farZ : Apart projP 16 farZP 1) (s_proj_top : Apart projP 16 topP 1) (s_proj_bottom : Apart projP 16 bottomP 1) (s_proj_left : Apart projP 16 leftP 1) (s_proj_right : Apart projP 16 rightP 1) (s_nearZ_farZ : Apart nearZP 1 farZP 1) (s_nearZ_top : Apart nearZP 1 topP 1) (s_nearZ_bottom : Apart nearZP 1 bottomP 1) (s_nearZ_left : Apart nearZP 1 leftP 1) (s_nearZ_right : Apart nearZP 1 rightP 1) (s_farZ_top : Apart farZP 1 topP 1) (s_farZ_bottom : Apart farZP 1 bottomP 1) (s_farZ_left : Apart farZP 1 leftP 1) (s_farZ_right : Apart farZP 1 rightP 1) (s_top_bottom : Apart topP 1 bottomP 1) (s_top_left : Apart topP 1 leftP 1) (s_top_right : Apart topP 1 rightP 1) (s_bottom_left : Apart bottomP 1 leftP 1) (s_bottom_right : Apart bottomP 1 rightP 1) (s_left_right : Apart leftP 1 rightP 1) :
    C.glm_persp_decomp.run mem [projP.val, nearZP.val, farZP.val, topP.val, bottomP.val, leftP.val, rightP.val] =
      some (none, writes mem [(nearZP, [(Cglm.glm_persp_decomp proj).1].map .f), (farZP, [(Cglm.glm_persp_decomp proj).2.1].map .f), (topP, [(Cglm.glm_persp_decomp proj).2.2.1].map .f), (bottomP, [(Cglm.glm_persp_decomp proj).2.2.2.1].map .f), (leftP, [(Cglm.glm_persp_decomp proj).2.2.2.2.1].map .f), (rightP, [(Cglm.glm_persp_decomp proj).2.2.2.2.2].map .f)]) := by
  exact transferL ((((((((R.nil _).addW r_right.has r_right .nil).addW r_left.has r_left (.cons s_left_right .nil)).addW r_bottom.has r_bottom (.cons s_bottom_left (.cons s_bottom_right .nil))).addW r_top.has r_top (.cons s_top_bottom (.cons s_top_left (.cons s_top_right .nil)))).addW r_farZ.has r_farZ (.cons s_farZ_top (.cons s_farZ_bottom (.cons s_farZ_left (.cons s_farZ_right .nil))))).addW r_nearZ.has r_nearZ (.cons s_nearZ_farZ (.cons s_nearZ_top (.cons s_nearZ_bottom (.cons s_nearZ_left (.cons s_nearZ_right .nil)))))).addR h_proj.has (.cons s_proj_nearZ (.cons s_proj_farZ (.cons s_proj_top (.cons s_proj_bottom (.cons s_proj_left (.cons s_proj_right .nil))))))) (.p rfl (.p rfl (.p rfl (.p rfl (.p rfl (.p rfl (.p rfl .nil))))))) (glm_persp_decomp_run _) (DT.val_done _) rfl rfl
example (proj : M4 α) : let mem : Mem α := [⟨false, proj.list.map .f⟩, ⟨true, List.replicate 1 .undef⟩, ⟨true, List.replicate 1 .undef⟩, ⟨true, List.replicate 1 .undef⟩, ⟨true, List.replicate 1 .undef⟩, ⟨true, List.replicate 1 .undef⟩, ⟨true, List.replicate 1 .undef⟩]
    Holds mem (0, 0) proj.list ∧ Room mem (1, 0) 1 ∧ Room mem (2, 0) 1 ∧ Room mem (3, 0) 1 ∧ Room mem (4, 0) 1 ∧ Room mem (5, 0) 1 ∧ Room mem (6, 0) 1 ∧ Apart (0, 0) 16 (1, 0) 1 ∧ Apart (0, 0) 16 (2, 0) 1 ∧ Apart (0, 0) 16 (3, 0) 1 ∧ Apart (0, 0) 16 (4, 0) 1 ∧ Apart (0, 0) 16 (5, 0) 1 ∧ Apart (0, 0) 16 (6, 0) 1 ∧ Apart (1, 0) 1 (2, 0) 1 ∧ Apart (1, 0) 1 (3, 0) 1 ∧ Apart (1, 0) 1 (4, 0) 1 ∧ Apart (1, 0) 1 (5, 0) 1 ∧ Apart (1, 0) 1 (6, 0) 1 ∧ Apart (2, 0) 1 (3, 0) 1 ∧ Apart (2, 0) 1 (4, 0) 1 ∧ Apart (2, 0) 1 (5, 0) 1 ∧ Apart (2, 0) 1 (6, 0) 1 ∧ Apart (3, 0) 1 (4, 0) 1 ∧ Apart (3, 0) 1 (5, 0) 1 ∧ Apart (3, 0) 1 (6, 0) 1 ∧ Apart (4, 0) 1 (5, 0) 1 ∧ Apart (4, 0) 1 (6, 0) 1 ∧ Apart (5, 0) 1 (6, 0) 1 :=
  ⟨.block rfl, .block rfl rfl, .block rfl rfl, .block rfl rfl, .block rfl rfl, .block rfl rfl, .block rfl rfl, Or.inl (by decide), Or.inl (by decide), Or.inl (by decide), Or.inl (by decide), Or.inl (by decide), Or.inl (by decide), Or.inl (by decide), Or.inl (by decide), Or.inl (by decide), Or.inl (by decide), Or.inl (by decide), Or.inl (by decide), Or.inl (by decide), Or.inl (by decide), Or.inl (by decide), Or.inl (by decide), Or.inl (by decide), Or.inl (by decide), Or.inl (by decide), Or.inl (by decide), Or.inl (by decide)⟩

theorem C56_persp_decompv {mem : Mem α} {projP destP : Ptr} {proj : M4 α} (h_proj : Holds mem projP proj.list) (r_dest : Room mem destP 6) (s_proj_dest : Apart projP 16 destP 6) :
    C.glm_persp_decompv.run mem [projP.val, destP.val] =
      some (none, writes mem [(destP, (Cglm.glm_persp_decompv proj).list.map .f)]) := by
  exact transferL (((R.nil _).addW r_dest.has r_dest .nil).addR h_proj.has (.cons s_proj_dest .nil)) (.p rfl (.p rfl .nil)) (glm_persp_decompv_run _) (DT.val_done _) rfl rfl
example (proj : M4 α) : let mem : Mem α := [⟨false, proj.list.map .f⟩, ⟨true, List.replicate 6 .undef⟩]
    Holds mem (0, 0) proj.list ∧ Room mem (1, 0) 6 ∧ Apart (0, 0) 16 (1, 0) 6 :=
  ⟨.block rfl, .block rfl rfl, Or.inl (by decide)⟩

theorem C56_persp_decomp_x {mem : Mem α} {projP leftP rightP : Ptr} {proj : M4 α} (h_proj : Holds mem projP proj.list) (r_left : Room mem leftP 1) (r_right : Room mem rightP 1) (s_proj_left : Apart projP 16 leftP 1) (s_proj_right : Apart projP 16 rightP 1) (s_left_right : Apart leftP 1 rightP 1) :
    C.glm_persp_decomp_x.run mem [projP.val, leftP.val, rightP.val] =
      some (none, writes mem [(leftP, [(Cglm.glm_persp_decomp_x proj).1].map .f), (rightP, [(Cglm.glm_persp_decomp_x proj).2].map .f)]) := by
  exact transferL ((((R.nil _).addW r_right.has r_right .nil).addW r_left.has r_left (.cons s_left_right .nil)).addR h_proj.has (.cons s_proj_left (.cons s_proj_right .nil))) (.p rfl (.p rfl (.p rfl .nil))) (glm_persp_decomp_x_run _) (DT.val_done _) rfl rfl
example (proj : M4 α) : let mem : Mem α := [⟨false, proj.list.map .f⟩, ⟨true, List.replicate 1 .undef⟩, ⟨true, List.replicate 1 .undef⟩]
    Holds mem (0, 0) proj.list ∧ Room mem (1, 0) 1 ∧ Room mem (2, 0) 1 ∧ Apart (0, 0) 16 (1, 0) 1 ∧ Apart (0, 0) 16 (2, 0) 1 ∧ Apart (1, 0) 1 (2, 0) 1 :=
  ⟨.block rfl, .block rfl rfl, .block rfl rfl, Or.inl (by decide), Or.inl (by decide), Or.inl (by decide)⟩

theorem C56_persp_decomp_y {mem : Mem α} {projP topP bottomP : Ptr} {proj : M4 α} (h_proj : Holds mem projP proj.list) (r_top : Room mem topP 1) (r_bottom : Room mem bottomP 1) (s_proj_top : Apart projP 16 topP 1) (s_proj_bottom : Apart projP 16 bottomP 1) (s_top_bottom : Apart topP 1 bottomP 1) :
    C.glm_persp_decomp_y.run mem [projP.val, topP.val, bottomP.val] =
      some (none, writes mem [(topP, [(Cglm.glm_persp_decomp_y proj).1].map .f), (bottomP, [(Cglm.glm_persp_decomp_y proj).2].map .f)]) := by
  exact transferL ((((R.nil _).addW r_bottom.has r_bottom .nil).addW r_top.has r_top (.cons s_top_bottom .nil)).addR h_proj.has (.cons s_proj_top (.cons s_proj_bottom .nil))) (.p rfl (.p rfl (.p rfl .nil))) (glm_persp_decomp_y_run _) (DT.val_done _) rfl rfl
example (proj : M4 α) : let mem : Mem α := [⟨false, proj.list.map .f⟩, ⟨true, List.replicate 1 .undef⟩, ⟨true, List.replicate 1 .undef⟩]
    Holds mem (0, 0) proj.list ∧ Room mem (1, 0) 1 ∧ Room mem (2, 0) 1 ∧ Apart (0, 0) 16 (1, 0) 1 ∧ Apart (0, 0) 16 (2, 0) 1 ∧ Apart (1, 0) 1 (2, 0) 1 :=
  ⟨.block rfl, .block rfl rfl, .block rfl rfl, Or.inl (by decide), Or.inl (by decide), Or.inl (by decide)⟩

theorem C56_persp_decomp_z {mem : Mem α} {projP nearZP farZP : Ptr} {proj : M4 α} (h_proj : Holds mem projP proj.list) (r_nearZ : Room mem nearZP 1) (r_farZ : Room mem farZP 1) (s_proj_nearZ : Apart projP 16 nearZP 1) (s_proj_farZ : Apart projP 16 farZP 1) (s_nearZ_farZ : Apart nearZP 1 farZP 1) :
    C.glm_persp_decomp_z.run mem [projP.val, nearZP.val, farZP.val] =
      some (none, writes mem [(nearZP, [(Cglm.glm_persp_decomp_z proj).1].map .f), (farZP, [(Cglm.glm_persp_decomp_z proj).2].map .f)]) := by
  exact transferL ((((R.nil _).addW r_farZ.has r_farZ .nil).addW r_nearZ.has r_nearZ (.cons s_nearZ_farZ .nil)).addR h_proj.has (.cons s_proj_nearZ (.cons s_proj_farZ .nil))) (.p rfl (.p rfl (.p rfl .nil))) (glm_persp_decomp_z_run _) (DT.val_done _) rfl rfl
example (proj : M4 α) : let mem : Mem α := [⟨false, proj.list.map .f⟩, ⟨true, List.replicate 1 .undef⟩, ⟨true, List.replicate 1 .undef⟩]
    Holds mem (0, 0) proj.list ∧ Room mem (1, 0) 1 ∧ Room mem (2, 0) 1 ∧ Apart (0, 0) 16 (1, 0) 1 ∧ Apart (0, 0) 16 (2, 0) 1 ∧ Apart (1, 0) 1 (2, 0) 1 :=
  ⟨.block rfl, .block rfl rfl, .block rfl rfl, Or.inl (by decide), Or.inl (by decide), Or.inl (by decide)⟩

theorem C56_persp_decomp_far {mem : Mem α} {projP farZP : Ptr} {proj : M4 α} (h_proj : Holds mem projP proj.list) (r_farZ : Room mem farZP 1) (s_proj_farZ : Apart projP 16 farZP 1) :
    C.glm_persp_decomp_far.run mem [projP.val, farZP.val] =
      some (none, writes mem [(farZP, [(Cglm.glm_persp_decomp_far proj)].map .f)]) := by
  exact transferL (((R.nil _).addW r_farZ.has r_farZ .nil).addR h_proj.has (.cons s_proj_farZ .nil)) (.p rfl (.p rfl .nil)) (glm_persp_decomp_far_run _) (DT.val_done _) rfl rfl
example (proj : M4 α) : let mem : Mem α := [⟨false, proj.list.map .f⟩, ⟨true, List.replicate 1 .undef⟩]
    Holds mem (0, 0) proj.list ∧ Room mem (1, 0) 1 ∧ Apart (0, 0) 16 (1, 0) 1 :=
  ⟨.block rfl, .block rfl rfl, Or.inl (by decide)⟩

theorem C56_persp_decomp_near {mem : Mem α} {projP nearZP : Ptr} {proj : M4 α} (h_proj : Holds mem projP proj.list) (r_nearZ : Room mem nearZP 1) (s_proj_nearZ : Apart projP 16 nearZP 1) :
    C.glm_persp_decomp_near.run mem [projP.val, nearZP.val] =
      some (none, writes mem [(nearZP, [(Cglm.glm_persp_decomp_near proj)].map .f)]) := by
  exact transferL (((R.nil _).addW r_nearZ.has r_nearZ .nil).addR h_proj.has (.cons s_proj_nearZ .nil)) (.p rfl (.p rfl .nil)) (glm_persp_decomp_near_run _) (DT.val_done _) rfl rfl
example (proj : M4 α) : let mem : Mem α := [⟨false, proj.list.map .f⟩, ⟨true, List.replicate 1 .undef⟩]
    Holds mem (0, 0) proj.list ∧ Room mem (1, 0) 1 ∧ Apart (0, 0) 16 (1, 0) 1 :=
  ⟨.block rfl, .block rfl rfl, Or.inl (by decide)⟩

theorem C56_persp_sizes {mem : Mem α} {projP destP : Ptr} {proj : M4 α} (fovy : α) (h_proj : Holds mem projP proj.list) (r_dest : Room mem destP 4) (s_proj_dest : Apart projP 16 destP 4) :
    C.glm_persp_sizes.run mem [projP.val, .f fovy, destP.val] =
      some (none, writes mem [(destP, (Cglm.glm_persp_sizes proj fovy).list.map .f)]) := by
  exact transferL (((R.nil _).addW r_dest.has r_dest .nil).addR h_proj.has (.cons s_proj_dest .nil)) (.p rfl (.f (.p rfl .nil))) (glm_persp_sizes_run _ _) (DT.val_done _) rfl rfl
example (proj : M4 α) : let mem : Mem α := [⟨false, proj.list.map .f⟩, ⟨true, List.replicate 4 .undef⟩]
    Holds mem (0, 0) proj.list ∧ Room mem (1, 0) 4 ∧ Apart (0, 0) 16 (1, 0) 4 :=
  ⟨.block rfl, .block rfl rfl, Or.inl (by decide)⟩

end Cglm

end C56Cam

section C56ClipspaceOrthoLhNo

/-!
# C56: memory safety and framing (include/cglm/clipspace/ortho_lh_no.h)

Called with initialised inputs and a writable destination that does not overlap them, the function is defined,
returns the value-level result and changes no memory but its destination.
-/

set_option linter.unusedVariables false
set_option linter.unusedSectionVars false

namespace Cglm
open CMem

variable {α : Type} [Add α] [Sub α] [Mul α] [Div α] [Neg α] [CFloat α]

theorem C56_ortho_lh_no {mem : Mem α} {destP : Ptr} (left : α) (right : α) (bottom : α) (top : α) (nearZ : α) (farZ : α) (r_dest : Room mem destP 16) :
    C.glm_ortho_lh_no.run mem [.f left, .f right, .f bottom, .f top, .f nearZ, .f farZ, destP.val] =
      some (none, writes mem [(destP, (Cglm.glm_ortho_lh_no left right bottom top nearZ farZ).list.map .f)]) := by
  exact transferL ((R.nil _).addW r_dest.has r_dest .nil) (.f (.f (.f (.f (.f (.f (.p rfl .nil))))))) (glm_ortho_lh_no_run _ _ _ _ _ _) (DT.val_done _) rfl rfl
example : let mem : Mem α := [⟨true, List.replicate 16 .undef⟩]
    Room mem (0, 0) 16 :=
  .block rfl rfl

theorem C56_ortho_aabb_lh_no {mem : Mem α} {boxP destP : Ptr} {box : M2x3 α} (h_box : Holds mem boxP box.list) (r_dest : Room mem destP 16) (s_box_dest : Apart boxP 6 destP 16) :
    C.glm_ortho_aabb_lh_no.run mem [boxP.val, destP.val] =
      some (none, writes mem [(destP, (Cglm.glm_ortho_aabb_lh_no box).list.map .f)]) := by
  exact transferL (((R.nil _).addW r_dest.has r_dest .nil).addR h_box.has (.cons s_box_dest .nil)) (.p rfl (.p rfl .nil)) (glm_ortho_aabb_lh_no_run _) (DT.val_done _) rfl rfl
example (box : M2x3 α) : let mem : Mem α := [⟨false, box.list.map .f⟩, ⟨true, List.replicate 16 .undef⟩]
    Holds mem (0, 0) box.list ∧ Room mem (1, 0) 16 ∧ Apart (0, 0) 6 (1, 0) 16 :=
  ⟨.block rfl, .block rfl rfl, Or.inl (by decide)⟩

theorem C56_ortho_aabb_p_lh_no {mem : Mem α} {boxP destP : Ptr} {box : M2x3 α} (padding : α) (h_box : Holds mem boxP box.list) (r_dest : Room mem destP 16) (s_box_dest : Apart boxP 6 destP 16) :
    C.glm_ortho_aabb_p_lh_no.run mem [boxP.val, .f padding, destP.val] =
      some (none, writes mem [(destP, (Cglm.glm_ortho_aabb_p_lh_no box padding).list.map .f)]) := by
  exact transferL (((R.nil _).addW r_dest.has r_dest .nil).addR h_box.has (.cons s_box_dest .nil)) (.p rfl (.f (.p rfl .nil))) (glm_ortho_aabb_p_lh_no_run _ _) (DT.val_done _) rfl rfl
example (box : M2x3 α) : let mem : Mem α := [⟨false, box.list.map .f⟩, ⟨true, List.replicate 16 .undef⟩]
    Holds mem (0, 0) box.list ∧ Room mem (1, 0) 16 ∧ Apart (0, 0) 6 (1, 0) 16 :=
  ⟨.block rfl, .block rfl rfl, Or.inl (by decide)⟩

theorem C56_ortho_aabb_pz_lh_no {mem : Mem α} {boxP destP : Ptr} {box : M2x3 α} (padding : α) (h_box : Holds mem boxP box.list) (r_dest : Room mem destP 16) (s_box_dest : Apart boxP 6 destP 16) :
    C.glm_ortho_aabb_pz_lh_no.run mem [boxP.val, .f padding, destP.val] =
      some (none, writes mem [(destP, (Cglm.glm_ortho_aabb_pz_lh_no box padding).list.map .f)]) := by
  exact transferL (((R.nil _).addW r_dest.has r_dest .nil).addR h_box.has (.cons s_box_dest .nil)) (.p rfl (.f (.p rfl .nil))) (glm_ortho_aabb_pz_lh_no_run _ _) (DT.val_done _) rfl rfl
example (box : M2x3 α) : let mem : Mem α := [⟨false, box.list.map .f⟩, ⟨true, List.replicate 16 .undef⟩]
    Holds mem (0, 0) box.list ∧ Room mem (1, 0) 16 ∧ Apart (0, 0) 6 (1, 0) 16 :=
  ⟨.block rfl, .block rfl rfl, Or.inl (by decide)⟩

theorem C56_ortho_default_lh_no {mem : Mem α} {destP : Ptr} (aspect : α) (r_dest : Room mem destP 16) :
    C.glm_ortho_default_lh_no.run mem [.f aspect, destP.val] =
      some (none, writes mem [(destP, (Cglm.glm_ortho_default_lh_no aspect).list.map .f)]) := by
  exact transferL ((R.nil _).addW r_dest.has r_dest .nil) (.f (.p rfl .nil)) (glm_ortho_default_lh_no_run _) (DT.val_map_eq (glm_ortho_default_lh_no_dt_val _) rfl) rfl rfl
example : let mem : Mem α := [⟨true, List.replicate 16 .undef⟩]
    Room mem (0, 0) 16 :=
  .block rfl rfl

theorem C56_ortho_default_s_lh_no {mem : Mem α} {destP : Ptr} (aspect : α) (size : α) (r_dest : Room mem destP 16) :
    C.glm_ortho_default_s_lh_no.run mem [.f aspect, .f size, destP.val] =
      some (none, writes mem [(destP, (Cglm.glm_ortho_default_s_lh_no aspect size).list.map .f)]) := by
  exact transferL ((R.nil _).addW r_dest.has r_dest .nil) (.f (.f (.p rfl .nil))) (glm_ortho_default_s_lh_no_run _ _) (DT.val_map_eq (glm_ortho_default_s_lh_no_dt_val _ _) rfl) rfl rfl
example : let mem : Mem α := [⟨true, List.replicate 16 .undef⟩]
    Room mem (0, 0) 16 :=
  .block rfl rfl

end Cglm

end C56ClipspaceOrthoLhNo

section C56ClipspaceOrthoLhZo

/-!
# C56: memory safety and framing (include/cglm/clipspace/ortho_lh_zo.h)

Called with initialised inputs and a writable destination that does not overlap them, the function is defined,
returns the value-level result and changes no memory but its destination.
-/

set_option linter.unusedVariables false
set_option linter.unusedSectionVars false

namespace Cglm
open CMem

variable {α : Type} [Add α] [Sub α] [Mul α] [Div α] [Neg α] [CFloat α]

theorem C56_ortho_lh_zo {mem : Mem α} {destP : Ptr} (left : α) (right : α) (bottom : α) (top : α) (nearZ : α) (farZ : α) (r_dest : Room mem destP 16) :
    C.glm_ortho_lh_zo.run mem [.f left, .f right, .f bottom, .f top, .f nearZ, .f farZ, destP.val] =
      some (none, writes mem [(destP, (Cglm.glm_ortho_lh_zo left right bottom top nearZ farZ).list.map .f)]) := by
  exact transferL ((R.nil _).addW r_dest.has r_dest .nil) (.f (.f (.f (.f (.f (.f (.p rfl .nil))))))) (glm_ortho_lh_zo_run _ _ _ _ _ _) (DT.val_done _) rfl rfl
example : let mem : Mem α := [⟨true, List.replicate 16 .undef⟩]
    Room mem (0, 0) 16 :=
  .block rfl rfl

theorem C56_ortho_aabb_lh_zo {mem : Mem α} {boxP destP : Ptr} {box : M2x3 α} (h_box : Holds mem boxP box.list) (r_dest : Room mem destP 16) (s_box_dest : Apart boxP 6 destP 16) :
    C.glm_ortho_aabb_lh_zo.run mem [boxP.val, destP.val] =
      some (none, writes mem [(destP, (Cglm.glm_ortho_aabb_lh_zo box).list.map .f)]) := by
  exact transferL (((R.nil _).addW r_dest.has r_dest .nil).addR h_box.has (.cons s_box_dest .nil)) (.p rfl (.p rfl .nil)) (glm_ortho_aabb_lh_zo_run _) (DT.val_done _) rfl rfl
example (box : M2x3 α) : let mem : Mem α := [⟨false, box.list.map .f⟩, ⟨true, List.replicate 16 .undef⟩]
    Holds mem (0, 0) box.list ∧ Room mem (1, 0) 16 ∧ Apart (0, 0) 6 (1, 0) 16 :=
  ⟨.block rfl, .block rfl rfl, Or.inl (by decide)⟩

theorem C56_ortho_aabb_p_lh_zo {mem : Mem α} {boxP destP : Ptr} {box : M2x3 α} (padding : α) (h_box : Holds mem boxP box.list) (r_dest : Room mem destP 16) (s_box_dest : Apart boxP 6 destP 16) :
    C.glm_ortho_aabb_p_lh_zo.run mem [boxP.val, .f padding, destP.val] =
      some (none, writes mem [(destP, (Cglm.glm_ortho_aabb_p_lh_zo box padding).list.map .f)]) := by
  exact transferL (((R.nil _).addW r_dest.has r_dest .nil).addR h_box.has (.cons s_box_dest .nil)) (.p rfl (.f (.p rfl .nil))) (glm_ortho_aabb_p_lh_zo_run _ _) (DT.val_done _) rfl rfl
example (box : M2x3 α) : let mem : Mem α := [⟨false, box.list.map .f⟩, ⟨true, List.replicate 16 .undef⟩]
    Holds mem (0, 0) box.list ∧ Room mem (1, 0) 16 ∧ Apart (0, 0) 6 (1, 0) 16 :=
  ⟨.block rfl, .block rfl rfl, Or.inl (by decide)⟩

theorem C56_ortho_aabb_pz_lh_zo {mem : Mem α} {boxP destP : Ptr} {box : M2x3 α} (padding : α) (h_box : Holds mem boxP box.list) (r_dest : Room mem destP 16) (s_box_dest : Apart boxP 6 destP 16) :
    C.glm_ortho_aabb_pz_lh_zo.run mem [boxP.val, .f padding, destP.val] =
      some (none, writes mem [(destP, (Cglm.glm_ortho_aabb_pz_lh_zo box padding).list.map .f)]) := by
  exact transferL (((R.nil _).addW r_dest.has r_dest .nil).addR h_box.has (.cons s_box_dest .nil)) (.p rfl (.f (.p rfl .nil))) (glm_ortho_aabb_pz_lh_zo_run _ _) (DT.val_done _) rfl rfl
example (box : M2x3 α) : let mem : Mem α := [⟨false, box.list.map .f⟩, ⟨true, List.replicate 16 .undef⟩]
    Holds mem (0, 0) box.list ∧ Room mem (1, 0) 16 ∧ Apart (0, 0) 6 (1, 0) 16 :=
  ⟨.block rfl, .block rfl rfl, Or.inl (by decide)⟩

theorem C56_ortho_default_lh_zo {mem : Mem α} {destP : Ptr} (aspect : α) (r_dest : Room mem destP 16) :
    C.glm_ortho_default_lh_zo.run mem [.f aspect, destP.val] =
      some (none, writes mem [(destP, (Cglm.glm_ortho_default_lh_zo aspect).list.map .f)]) := by
  exact transferL ((R.nil _).addW r_dest.has r_dest .nil) (.f (.p rfl .nil)) (glm_ortho_default_lh_zo_run _) (DT.val_map_eq (glm_ortho_default_lh_zo_dt_val _) rfl) rfl rfl
example : let mem : Mem α := [⟨true, List.replicate 16 .undef⟩]
    Room mem (0, 0) 16 :=
  .block rfl rfl

theorem C56_ortho_default_s_lh_zo {mem : Mem α} {destP : Ptr} (aspect : α) (size : α) (r_dest : Room mem destP 16) :
    C.glm_ortho_default_s_lh_zo.run mem [.f aspect, .f size, destP.val] =
      some (none, writes mem [(destP, (Cglm.glm_ortho_default_s_lh_zo aspect size).list.map .f)]) := by
  exact transferL ((R.nil _).addW r_dest.has r_dest .nil) (.f (.f (.p rfl .nil))) (glm_ortho_default_s_lh_zo_run _ _) (DT.val_map_eq (glm_ortho_default_s_lh_zo_dt_val _ _) rfl) rfl rfl
example : let mem : Mem α := [⟨true, List.replicate 16 .undef⟩]
    Room mem (0, 0) 16 :=
  .block rfl rfl

end Cglm

end C56ClipspaceOrthoLhZo

section C56ClipspaceOrthoRhNo

/-!
# C56: memory safety and framing (include/cglm/clipspace/ortho_rh_no.h)

Called with initialised inputs and a writable destination that does not overlap them, the function is defined,
returns the value-level result and changes no memory but its destination.
-/

set_option linter.unusedVariables false
set_option linter.unusedSectionVars false

namespace Cglm
open CMem

variable {α : Type} [Add α] [Sub α] [Mul α] [Div α] [Neg α] [CFloat α]

theorem C56_ortho_rh_no {mem : Mem α} {destP : Ptr} (left : α) (right : α) (bottom : α) (top : α) (nearZ : α) (farZ : α) (r_dest : Room mem destP 16) :
    C.glm_ortho_rh_no.run mem [.f left, .f right, .f bottom, .f top, .f nearZ, .f farZ, destP.val] =
      some (none, writes mem [(destP, (Cglm.glm_ortho_rh_no left right bottom top nearZ farZ).list.map .f)]) := by
  exact transferL ((R.nil _).addW r_dest.has r_dest .nil) (.f (.f (.f (.f (.f (.f (.p rfl .nil))))))) (glm_ortho_rh_no_run _ _ _ _ _ _) (DT.val_done _) rfl rfl
example : let mem : Mem α := [⟨true, List.replicate 16 .undef⟩]
    Room mem (0, 0) 16 :=
  .block rfl rfl

theorem C56_ortho_aabb_rh_no {mem : Mem α} {boxP destP : Ptr} {box : M2x3 α} (h_box : Holds mem boxP box.list) (r_dest : Room mem destP 16) (s_box_dest : Apart boxP 6 destP 16) :
    C.glm_ortho_aabb_rh_no.run mem [boxP.val, destP.val] =
      some (none, writes mem [(destP, (Cglm.glm_ortho_aabb_rh_no box).list.map .f)]) := by
  exact transferL (((R.nil _).addW r_dest.has r_dest .nil).addR h_box.has (.cons s_box_dest .nil)) (.p rfl (.p rfl .nil)) (glm_ortho_aabb_rh_no_run _) (DT.val_done _) rfl rfl
example (box : M2x3 α) : let mem : Mem α := [⟨false, box.list.map .f⟩, ⟨true, List.replicate 16 .undef⟩]
    Holds mem (0, 0) box.list ∧ Room mem (1, 0) 16 ∧ Apart (0, 0) 6 (1, 0) 16 :=
  ⟨.block rfl, .block rfl rfl, Or.inl (by decide)⟩

theorem C56_ortho_aabb_p_rh_no {mem : Mem α} {boxP destP : Ptr} {box : M2x3 α} (padding : α) (h_box : Holds mem boxP box.list) (r_dest : Room mem destP 16) (s_box_dest : Apart boxP 6 destP 16) :
    C.glm_ortho_aabb_p_rh_no.run mem [boxP.val, .f padding, destP.val] =
      some (none, writes mem [(destP, (Cglm.glm_ortho_aabb_p_rh_no box padding).list.map .f)]) := by
  exact transferL (((R.nil _).addW r_dest.has r_dest .nil).addR h_box.has (.cons s_box_dest .nil)) (.p rfl (.f (.p rfl .nil))) (glm_ortho_aabb_p_rh_no_run _ _) (DT.val_done _) rfl rfl
example (box : M2x3 α) : let mem : Mem α := [⟨false, box.list.map .f⟩, ⟨true, List.replicate 16 .undef⟩]
    Holds mem (0, 0) box.list ∧ Room mem (1, 0) 16 ∧ Apart (0, 0) 6 (1, 0) 16 :=
  ⟨.block rfl, .block rfl rfl, Or.inl (by decide)⟩

theorem C56_ortho_aabb_pz_rh_no {mem : Mem α} {boxP destP : Ptr} {box : M2x3 α} (padding : α) (h_box : Holds mem boxP box.list) (r_dest : Room mem destP 16) (s_box_dest : Apart boxP 6 destP 16) :
    C.glm_ortho_aabb_pz_rh_no.run mem [boxP.val, .f padding, destP.val] =
      some (none, writes mem [(destP, (Cglm.glm_ortho_aabb_pz_rh_no box padding).list.map .f)]) := by
  exact transferL (((R.nil _).addW r_dest.has r_dest .nil).addR h_box.has (.cons s_box_dest .nil)) (.p rfl (.f (.p rfl .nil))) (glm_ortho_aabb_pz_rh_no_run _ _) (DT.val_done _) rfl rfl
example (box : M2x3 α) : let mem : Mem α := [⟨false, box.list.map .f⟩, ⟨true, List.replicate 16 .undef⟩]
    Holds mem (0, 0) box.list ∧ Room mem (1, 0) 16 ∧ Apart (0, 0) 6 (1, 0) 16 :=
  ⟨.block rfl, .block rfl rfl, Or.inl (by decide)⟩

theorem C56_ortho_default_rh_no {mem : Mem α} {destP : Ptr} (aspect : α) (r_dest : Room mem destP 16) :
    C.glm_ortho_default_rh_no.run mem [.f aspect, destP.val] =
      some (none, writes mem [(destP, (Cglm.glm_ortho_default_rh_no aspect).list.map .f)]) := by
  exact transferL ((R.nil _).addW r_dest.has r_dest .nil) (.f (.p rfl .nil)) (glm_ortho_default_rh_no_run _) (DT.val_map_eq (glm_ortho_default_rh_no_dt_val _) rfl) rfl rfl
example : let mem : Mem α := [⟨true, List.replicate 16 .undef⟩]
    Room mem (0, 0) 16 :=
  .block rfl rfl

theorem C56_ortho_default_s_rh_no {mem : Mem α} {destP : Ptr} (aspect : α) (size : α) (r_dest : Room mem destP 16) :
    C.glm_ortho_default_s_rh_no.run mem [.f aspect, .f size, destP.val] =
      some (none, writes mem [(destP, (Cglm.glm_ortho_default_s_rh_no aspect size).list.map .f)]) := by
  exact transferL ((R.nil _).addW r_dest.has r_dest .nil) (.f (.f (.p rfl .nil))) (glm_ortho_default_s_rh_no_run _ _) (DT.val_map_eq (glm_ortho_default_s_rh_no_dt_val _ _) rfl) rfl rfl
example : let mem : Mem α := [⟨true, List.replicate 16 .undef⟩]
    Room mem (0, 0) 16 :=
  .block rfl rfl

end Cglm

end C56ClipspaceOrthoRhNo

section C56ClipspaceOrthoRhZo

/-!
# C56: memory safety and framing (include/cglm/clipspace/ortho_rh_zo.h)

Called with initialised inputs and a writable destination that does not overlap them, the function is defined,
returns the value-level result and changes no memory but its destination.
-/

set_option linter.unusedVariables false
set_option linter.unusedSectionVars false

namespace Cglm
open CMem

variable {α : Type} [Add α] [Sub α] [Mul α] [Div α] [Neg α] [CFloat α]

theorem C56_ortho_rh_zo {mem : Mem α} {destP : Ptr} (left : α) (right : α) (bottom : α) (top : α) (nearZ : α) (farZ : α) (r_dest : Room mem destP 16) :
    C.glm_ortho_rh_zo.run mem [.f left, .f right, .f bottom, .f top, .f nearZ, .f farZ, destP.val] =
      some (none, writes mem [(destP, (Cglm.glm_ortho_rh_zo left right bottom top nearZ farZ).list.map .f)]) := by
  exact transferL ((R.nil _).addW r_dest.has r_dest .nil) (.f (.f (.f (.f (.f (.f (.p rfl .nil))))))) (glm_ortho_rh_zo_run _ _ _ _ _ _) (DT.val_done _) rfl rfl
example : let mem : Mem α := [⟨true, List.replicate 16 .undef⟩]
    Room mem (0, 0) 16 :=
  .block rfl rfl

theorem C56_ortho_aabb_rh_zo {mem : Mem α} {boxP destP : Ptr} {box : M2x3 α} (h_box : Holds mem boxP box.list) (r_dest : Room mem destP 16) (s_box_dest : Apart boxP 6 destP 16) :
    C.glm_ortho_aabb_rh_zo.run mem [boxP.val, destP.val] =
      some (none, writes mem [(destP, (Cglm.glm_ortho_aabb_rh_zo box).list.map .f)]) := by
  exact transferL (((R.nil _).addW r_dest.has r_dest .nil).addR h_box.has (.cons s_box_dest .nil)) (.p rfl (.p rfl .nil)) (glm_ortho_aabb_rh_zo_run _) (DT.val_done _) rfl rfl
example (box : M2x3 α) : let mem : Mem α := [⟨false, box.list.map .f⟩, ⟨true, List.replicate 16 .undef⟩]
    Holds mem (0, 0) box.list ∧ Room mem (1, 0) 16 ∧ Apart (0, 0) 6 (1, 0) 16 :=
  ⟨.block rfl, .block rfl rfl, Or.inl (by decide)⟩

theorem C56_ortho_aabb_p_rh_zo {mem : Mem α} {boxP destP : Ptr} {box : M2x3 α} (padding : α) (h_box : Holds mem boxP box.list) (r_dest : Room mem destP 16) (s_box_dest : Apart boxP 6 destP 16) :
    C.glm_ortho_aabb_p_rh_zo.run mem [boxP.val, .f padding, destP.val] =
      some (none, writes mem [(destP, (Cglm.glm_ortho_aabb_p_rh_zo box padding).list.map .f)]) := by
  exact transferL (((R.nil _).addW r_dest.has r_dest .nil).addR h_box.has (.cons s_box_dest .nil)) (.p rfl (.f (.p rfl .nil))) (glm_ortho_aabb_p_rh_zo_run _ _) (DT.val_done _) rfl rfl
example (box : M2x3 α) : let mem : Mem α := [⟨false, box.list.map .f⟩, ⟨true, List.replicate 16 .undef⟩]
    Holds mem (0, 0) box.list ∧ Room mem (1, 0) 16 ∧ Apart (0, 0) 6 (1, 0) 16 :=
  ⟨.block rfl, .block rfl rfl, Or.inl (by decide)⟩

theorem C56_ortho_aabb_pz_rh_zo {mem : Mem α} {boxP destP : Ptr} {box : M2x3 α} (padding : α) (h_box : Holds mem boxP box.list) (r_dest : Room mem destP 16) (s_box_dest : Apart boxP 6 destP 16) :
    C.glm_ortho_aabb_pz_rh_zo.run mem [boxP.val, .f padding, destP.val] =
      some (none, writes mem [(destP, (Cglm.glm_ortho_aabb_pz_rh_zo box padding).list.map .f)]) := by
  exact transferL (((R.nil _).addW r_dest.has r_dest .nil).addR h_box.has (.cons s_box_dest .nil)) (.p rfl (.f (.p rfl .nil))) (glm_ortho_aabb_pz_rh_zo_run _ _) (DT.val_done _) rfl rfl
example (box : M2x3 α) : let mem : Mem α := [⟨false, box.list.map .f⟩, ⟨true, List.replicate 16 .undef⟩]
    Holds mem (0, 0) box.list ∧ Room mem (1, 0) 16 ∧ Apart (0, 0) 6 (1, 0) 16 :=
  ⟨.block rfl, .block rfl rfl, Or.inl (by decide)⟩

theorem C56_ortho_default_rh_zo {mem : Mem α} {destP : Ptr} (aspect : α) (r_dest : Room mem destP 16) :
    C.glm_ortho_default_rh_zo.run mem [.f aspect, destP.val] =
      some (none, writes mem [(destP, (Cglm.glm_ortho_default_rh_zo aspect).list.map .f)]) := by
  exact transferL ((R.nil _).addW r_dest.has r_dest .nil) (.f (.p rfl .nil)) (glm_ortho_default_rh_zo_run _) (DT.val_map_eq (glm_ortho_default_rh_zo_dt_val _) rfl) rfl rfl
example : let mem : Mem α := [⟨true, List.replicate 16 .undef⟩]
    Room mem (0, 0) 16 :=
  .block rfl rfl

theorem C56_ortho_default_s_rh_zo {mem : Mem α} {destP : Ptr} (aspect : α) (size : α) (r_dest : Room mem destP 16) :
    C.glm_ortho_default_s_rh_zo.run mem [.f aspect, .f size, destP.val] =
      some (none, writes mem [(destP, (Cglm.glm_ortho_default_s_rh_zo aspect size).list.map .f)]) := by
  exact transferL ((R.nil _).addW r_dest.has r_dest .nil) (.f (.f (.p rfl .nil))) (glm_ortho_default_s_rh_zo_run _ _) (DT.val_map_eq (glm_ortho_default_s_rh_zo_dt_val _ _) rfl) rfl rfl
example : let mem : Mem α := [⟨true, List.replicate 16 .undef⟩]
    Room mem (0, 0) 16 :=
  .block rfl rfl

end Cglm

end C56ClipspaceOrthoRhZo

section C56ClipspacePersp

/-!
# C56: memory safety and framing (include/cglm/clipspace/persp.h)

Called with initialised inputs and a writable destination that does not overlap them, the function is defined,
returns the value-level result and changes no memory but its destination.
-/

set_option linter.unusedVariables false
set_option linter.unusedSectionVars false

namespace Cglm
open CMem

variable {α : Type} [Add α] [Sub α] [Mul α] [Div α] [Neg α] [CFloat α]

theorem C56_persp_fovy {mem : Mem α} {projP : Ptr} {proj : M4 α} (h_proj : Holds mem projP proj.list) :
    C.glm_persp_fovy.run mem [projP.val] =
      some (some (.f (Cglm.glm_persp_fovy proj)), mem) := by
  exact transferL ((R.nil _).addR h_proj.has .nil) (.p rfl .nil) (glm_persp_fovy_run _) (DT.val_done _) rfl rfl
example (proj : M4 α) : let mem : Mem α := [⟨false, proj.list.map .f⟩]
    Holds mem (0, 0) proj.list :=
  .block rfl

theorem C56_persp_aspect {mem : Mem α} {projP : Ptr} {proj : M4 α} (h_proj : Holds mem projP proj.list) :
    C.glm_persp_aspect.run mem [projP.val] =
      some (some (.f (Cglm.glm_persp_aspect proj)), mem) := by
  exact transferL ((R.nil _).addR h_proj.has .nil) (.p rfl .nil) (glm_persp_aspect_run _) (DT.val_done _) rfl rfl
example (proj : M4 α) : let mem : Mem α := [⟨false, proj.list.map .f⟩]
    Holds mem (0, 0) proj.list :=
  .block rfl

end Cglm

end C56ClipspacePersp

section C56ClipspacePerspLhNo

/-!
# C56: memory safety and framing (include/cglm/clipspace/persp_lh_no.h)

Called with initialised inputs and a writable destination that does not overlap them, the function is defined,
returns the value-level result and changes no memory but its destination.
-/

set_option linter.unusedVariables false
set_option linter.unusedSectionVars false

namespace Cglm
open CMem

variable {α : Type} [Add α] [Sub α] [Mul α] [Div α] [Neg α] [CFloat α]

theorem C56_frustum_lh_no {mem : Mem α} {destP : Ptr} (left : α) (right : α) (bottom : α) (top : α) (nearZ : α) (farZ : α) (r_dest : Room mem destP 16) :
    C.glm_frustum_lh_no.run mem [.f left, .f right, .f bottom, .f top, .f nearZ, .f farZ, destP.val] =
      some (none, writes mem [(destP, (Cglm.glm_frustum_lh_no left right bottom top nearZ farZ).list.map .f)]) := by
  exact transferL ((R.nil _).addW r_dest.has r_dest .nil) (.f (.f (.f (.f (.f (.f (.p rfl .nil))))))) (glm_frustum_lh_no_run _ _ _ _ _ _) (DT.val_done _) rfl rfl
example : let mem : Mem α := [⟨true, List.replicate 16 .undef⟩]
    Room mem (0, 0) 16 :=
  .block rfl rfl

theorem C56_perspective_lh_no {mem : Mem α} {destP : Ptr} (fovy : α) (aspect : α) (nearZ : α) (farZ : α) (r_dest : Room mem destP 16) :
    C.glm_perspective_lh_no.run mem [.f fovy, .f aspect, .f nearZ, .f farZ, destP.val] =
      some (none, writes mem [(destP, (Cglm.glm_perspective_lh_no fovy aspect nearZ farZ).list.map .f)]) := by
  exact transferL ((R.nil _).addW r_dest.has r_dest .nil) (.f (.f (.f (.f (.p rfl .nil))))) (glm_perspective_lh_no_run _ _ _ _) (DT.val_done _) rfl rfl
example : let mem : Mem α := [⟨true, List.replicate 16 .undef⟩]
    Room mem (0, 0) 16 :=
  .block rfl rfl

theorem C56_perspective_default_lh_no {mem : Mem α} {destP : Ptr} (aspect : α) (r_dest : Room mem destP 16) :
    C.glm_perspective_default_lh_no.run mem [.f aspect, destP.val] =
      some (none, writes mem [(destP, (Cglm.glm_perspective_default_lh_no aspect).list.map .f)]) := by
  exact transferL ((R.nil _).addW r_dest.has r_dest .nil) (.f (.p rfl .nil)) (glm_perspective_default_lh_no_run _) (DT.val_done _) rfl rfl
example : let mem : Mem α := [⟨true, List.replicate 16 .undef⟩]
    Room mem (0, 0) 16 :=
  .block rfl rfl

theorem C56_perspective_resize_lh_no {mem : Mem α} {projP : Ptr} (aspect : α) {proj : M4 α} (h_proj : Holds mem projP proj.list) (r_proj : Room mem projP 16) :
    C.glm_perspective_resize_lh_no.run mem [.f aspect, projP.val] =
      some (none, writes mem [(projP, (Cglm.glm_perspective_resize_lh_no aspect proj).list.map .f)]) := by
  exact transferL ((R.nil _).addW h_proj.has r_proj .nil) (.f (.p rfl .nil)) (glm_perspective_resize_lh_no_run _ _) (DT.val_map_eq (glm_perspective_resize_lh_no_dt_val _ _) rfl) rfl rfl
example (proj : M4 α) : let mem : Mem α := [⟨true, proj.list.map .f⟩]
    Holds mem (0, 0) proj.list ∧ Room mem (0, 0) 16 :=
  ⟨.block rfl, .block rfl rfl⟩

theorem C56_persp_move_far_lh_no {mem : Mem α} {projP : Ptr} {proj : M4 α} (deltaFar : α) (h_proj : Holds mem projP proj.list) (r_proj : Room mem projP 16) :
    C.glm_persp_move_far_lh_no.run mem [projP.val, .f deltaFar] =
      some (none, writes mem [(projP, (Cglm.glm_persp_move_far_lh_no proj deltaFar).list.map .f)]) := by
  exact transferL ((R.nil _).addW h_proj.has r_proj .nil) (.p rfl (.f .nil)) (glm_persp_move_far_lh_no_run _ _) (DT.val_done _) rfl rfl
example (proj : M4 α) : let mem : Mem α := [⟨true, proj.list.map .f⟩]
    Holds mem (0, 0) proj.list ∧ Room mem (0, 0) 16 :=
  ⟨.block rfl, .block rfl rfl⟩

theorem C56_persp_decomp_lh_no {mem : Mem α} {projP nearZP farZP topP bottomP leftP rightP : Ptr} {proj : M4 α} (h_proj : Holds mem projP proj.list) (r_nearZ : Room mem nearZP 1) (r_farZ : Room mem farZP 1) (r_top : Room mem topP 1) (r_bottom : Room mem bottomP 1) (r_left : Room mem leftP 1) (r_right : Room mem rightP 1) (s_proj_nearZ : Apart projP 16 nearZP 1) (s_proj_farZ : Apart projP 16 farZP 1) (s_proj_top : Apart projP 16 topP 1) (s_proj_bottom : Apart projP 16 bottomP 1) (s_proj_left : Apart projP 16 leftP 1) (s_proj_right : Apart projP 16 rightP 1) (s_nearZ_farZ : Apart nearZP 1 farZP 1) (s_nearZ_top : Apart nearZP 1 topP 1) (s_nearZ_bottom : Apart nearZP 1 bottomP 1) (s_nearZ_left : Apart nearZP 1 leftP 1) (s_nearZ_right : Apart nearZP 1 rightP 1) (s_farZ_top : Apart farZP 1 topP 1) (s_farZ_bottom : Apart farZP 1 bottomP 1) (s_farZ_left : Apart farZP 1 leftP 1) (s_farZ_right : Apart farZP 1 rightP 1) (s_top_bottom : Apart topP 1 bottomP 1) (s_top_left : Apart topP 1 leftP 1) (s_top_right : Apart topP 1 rightP 1) (s_bottom_left : Apart bottomP 1 leftP 1) (s_bottom_right : Apart bottomP 1 rightP 1) (s_left_right : Apart leftP 1 rightP 1) :
    C.glm_persp_decomp_lh_no.run mem [projP.val, nearZP.val, farZP.val, topP.val, bottomP.val, leftP.val, rightP.val] =
      some (none, writes mem [(nearZP, [(Cglm.glm_persp_decomp_lh_no proj).1].map .f), (farZP, [(Cglm.glm_persp_decomp_lh_no proj).2.1].map .f), (topP, [(Cglm.glm_persp_decomp_lh_no proj).2.2.1].map .f), (bottomP, [(Cglm.glm_persp_decomp_lh_no proj).2.2.2.1].map .f), (leftP, [(Cglm.glm_persp_decomp_lh_no proj).2.2.2.2.1].map .f), (rightP, [(Cglm.glm_persp_decomp_lh_no proj).2.2.2.2.2].map .f)]) := by
  exact transferL ((((((((R.nil _).addW r_right.has r_right .nil).addW r_left.has r_left (.cons s_left_right .nil)).addW r_bottom.has r_bottom (.cons s_bottom_left (.cons s_bottom_right .nil))).addW r_top.has r_top (.cons s_top_bottom (.cons s_top_left (.cons s_top_right .nil)))).addW r_farZ.has r_farZ (.cons s_farZ_top (.cons s_farZ_bottom (.cons s_farZ_left (.cons s_farZ_right .nil))))).addW r_nearZ.has r_nearZ (.cons s_nearZ_farZ (.cons s_nearZ_top (.cons s_nearZ_bottom (.cons s_nearZ_left (.cons s_nearZ_right .nil)))))).addR h_proj.has (.cons s_proj_nearZ (.cons s_proj_farZ (.cons s_proj_top (.cons s_proj_bottom (.cons s_proj_left (.cons s_proj_right .nil))))))) (.p rfl (.p rfl (.p rfl (.p rfl (.p rfl (.p rfl (.p rfl .nil))))))) (glm_persp_decomp_lh_no_run _) (DT.val_done _) rfl rfl
example (proj : M4 α) : let mem : Mem α := [⟨false, proj.list.map .f⟩, ⟨true, List.replicate 1 .undef⟩, ⟨true, List.replicate 1 .undef⟩, ⟨true, List.replicate 1 .undef⟩, ⟨true, List.replicate 1 .undef⟩, ⟨true, List.replicate 1 .undef⟩, ⟨true, List.replicate 1 .undef⟩]
    Holds mem (0, 0) proj.list ∧ Room mem (1, 0) 1 ∧ Room mem (2, 0) 1 ∧ Room mem (3, 0) 1 ∧ Room mem (4, 0) 1 ∧ Room mem (5, 0) 1 ∧ Room mem (6, 0) 1 ∧ Apart (0, 0) 16 (1, 0) 1 ∧ Apart (0, 0) 16 (2, 0) 1 ∧ Apart (0, 0) 16 (3, 0) 1 ∧ Apart (0, 0) 16 (4, 0) 1 ∧ Apart (0, 0) 16 (5, 0) 1 ∧ Apart (0, 0) 16 (6, 0) 1 ∧ Apart (1, 0) 1 (2, 0) 1 ∧ Apart (1, 0) 1 (3, 0) 1 ∧ Apart (1, 0) 1 (4, 0) 1 ∧ Apart (1, 0) 1 (5, 0) 1 ∧ Apart (1, 0) 1 (6, 0) 1 ∧ Apart (2, 0) 1 (3, 0) 1 ∧ Apart (2, 0) 1 (4, 0) 1 ∧ Apart (2, 0) 1 (5, 0) 1 ∧ Apart (2, 0) 1 (6, 0) 1 ∧ Apart (3, 0) 1 (4, 0) 1 ∧ Apart (3, 0) 1 (5, 0) 1 ∧ Apart (3, 0) 1 (6, 0) 1 ∧ Apart (4, 0) 1 (5, 0) 1 ∧ Apart (4, 0) 1 (6, 0) 1 ∧ Apart (5, 0) 1 (6, 0) 1 :=
  ⟨.block rfl, .block rfl rfl, .block rfl rfl, .block rfl rfl, .block rfl rfl, .block rfl rfl, .block rfl rfl, Or.inl (by decide), Or.inl (by decide), Or.inl (by decide), Or.inl (by decide), Or.inl (by decide), Or.inl (by decide), Or.inl (by decide), Or.inl (by decide), Or.inl (by decide), Or.inl (by decide), Or.inl (by decide), Or.inl (by decide), Or.inl (by decide), Or.inl (by decide), Or.inl (by decide), Or.inl (by decide), Or.inl (by decide), Or.inl (by decide), Or.inl (by decide), Or.inl (by decide), Or.inl (by decide)⟩

theorem C56_persp_decompv_lh_no {mem : Mem α} {projP destP : Ptr} {proj : M4 α} (h_proj : Holds mem projP proj.list) (r_dest : Room mem destP 6) (s_proj_dest : Apart projP 16 destP 6) :
    C.glm_persp_decompv_lh_no.run mem [projP.val, destP.val] =
      some (none, writes mem [(destP, (Cglm.glm_persp_decompv_lh_no proj).list.map .f)]) := by
  exact transferL (((R.nil _).addW r_dest.has r_dest .nil).addR h_proj.has (.cons s_proj_dest .nil)) (.p rfl (.p rfl .nil)) (glm_persp_decompv_lh_no_run _) (DT.val_done _) rfl rfl
example (proj : M4 α) : let mem : Mem α := [⟨false, proj.list.map .f⟩, ⟨true, List.replicate 6 .undef⟩]
    Holds mem (0, 0) proj.list ∧ Room mem (1, 0) 6 ∧ Apart (0, 0) 16 (1, 0) 6 :=
  ⟨.block rfl, .block rfl rfl, Or.inl (by decide)⟩

theorem C56_persp_decomp_x_lh_no {mem : Mem α} {projP leftP rightP : Ptr} {proj : M4 α} (h_proj : Holds mem projP proj.list) (r_left : Room mem leftP 1) (r_right : Room mem rightP 1) (s_proj_left : Apart projP 16 leftP 1) (s_proj_right : Apart projP 16 rightP 1) (s_left_right : Apart leftP 1 rightP 1) :
    C.glm_persp_decomp_x_lh_no.run mem [projP.val, leftP.val, rightP.val] =
      some (none, writes mem [(leftP, [(Cglm.glm_persp_decomp_x_lh_no proj).1].map .f), (rightP, [(Cglm.glm_persp_decomp_x_lh_no proj).2].map .f)]) := by
  exact transferL ((((R.nil _).addW r_right.has r_right .nil).addW r_left.has r_left (.cons s_left_right .nil)).addR h_proj.has (.cons s_proj_left (.cons s_proj_right .nil))) (.p rfl (.p rfl (.p rfl .nil))) (glm_persp_decomp_x_lh_no_run _) (DT.val_done _) rfl rfl
example (proj : M4 α) : let mem : Mem α := [⟨false, proj.list.map .f⟩, ⟨true, List.replicate 1 .undef⟩, ⟨true, List.replicate 1 .undef⟩]
    Holds mem (0, 0) proj.list ∧ Room mem (1, 0) 1 ∧ Room mem (2, 0) 1 ∧ Apart (0, 0) 16 (1, 0) 1 ∧ Apart (0, 0) 16 (2, 0) 1 ∧ Apart (1, 0) 1 (2, 0) 1 :=
  ⟨.block rfl, .block rfl rfl, .block rfl rfl, Or.inl (by decide), Or.inl (by decide), Or.inl (by decide)⟩

theorem C56_persp_decomp_y_lh_no {mem : Mem α} {projP topP bottomP : Ptr} {proj : M4 α} (h_proj : Holds mem projP proj.list) (r_top : Room mem topP 1) (r_bottom : Room mem bottomP 1) (s_proj_top : Apart projP 16 topP 1) (s_proj_bottom : Apart projP 16 bottomP 1) (s_top_bottom : Apart topP 1 bottomP 1) :
    C.glm_persp_decomp_y_lh_no.run mem [projP.val, topP.val, bottomP.val] =
      some (none, writes mem [(topP, [(Cglm.glm_persp_decomp_y_lh_no proj).1].map .f), (bottomP, [(Cglm.glm_persp_decomp_y_lh_no proj).2].map .f)]) := by
  exact transferL ((((R.nil _).addW r_bottom.has r_bottom .nil).addW r_top.has r_top (.cons s_top_bottom .nil)).addR h_proj.has (.cons s_proj_top (.cons s_proj_bottom .nil))) (.p rfl (.p rfl (.p rfl .nil))) (glm_persp_decomp_y_lh_no_run _) (DT.val_done _) rfl rfl
example (proj : M4 α) : let mem : Mem α := [⟨false, proj.list.map .f⟩, ⟨true, List.replicate 1 .undef⟩, ⟨true, List.replicate 1 .undef⟩]
    Holds mem (0, 0) proj.list ∧ Room mem (1, 0) 1 ∧ Room mem (2, 0) 1 ∧ Apart (0, 0) 16 (1, 0) 1 ∧ Apart (0, 0) 16 (2, 0) 1 ∧ Apart (1, 0) 1 (2, 0) 1 :=
  ⟨.block rfl, .block rfl rfl, .block rfl rfl, Or.inl (by decide), Or.inl (by decide), Or.inl (by decide)⟩

theorem C56_persp_decomp_z_lh_no {mem : Mem α} {projP nearZP farZP : Ptr} {proj : M4 α} (h_proj : Holds mem projP proj.list) (r_nearZ : Room mem nearZP 1) (r_farZ : Room mem farZP 1) (s_proj_nearZ : Apart projP 16 nearZP 1) (s_proj_farZ : Apart projP 16 farZP 1) (s_nearZ_farZ : Apart nearZP 1 farZP 1) :
    C.glm_persp_decomp_z_lh_no.run mem [projP.val, nearZP.val, farZP.val] =
      some (none, writes mem [(nearZP, [(Cglm.glm_persp_decomp_z_lh_no proj).1].map .f), (farZP, [(Cglm.glm_persp_decomp_z_lh_no proj).2].map .f)]) := by
  exact transferL ((((R.nil _).addW r_farZ.has r_farZ .nil).addW r_nearZ.has r_nearZ (.cons s_nearZ_farZ .nil)).addR h_proj.has (.cons s_proj_nearZ (.cons s_proj_farZ .nil))) (.p rfl (.p rfl (.p rfl .nil))) (glm_persp_decomp_z_lh_no_run _) (DT.val_done _) rfl rfl
example (proj : M4 α) : let mem : Mem α := [⟨false, proj.list.map .f⟩, ⟨true, List.replicate 1 .undef⟩, ⟨true, List.replicate 1 .undef⟩]
    Holds mem (0, 0) proj.list ∧ Room mem (1, 0) 1 ∧ Room mem (2, 0) 1 ∧ Apart (0, 0) 16 (1, 0) 1 ∧ Apart (0, 0) 16 (2, 0) 1 ∧ Apart (1, 0) 1 (2, 0) 1 :=
  ⟨.block rfl, .block rfl rfl, .block rfl rfl, Or.inl (by decide), Or.inl (by decide), Or.inl (by decide)⟩

theorem C56_persp_decomp_far_lh_no {mem : Mem α} {projP farZP : Ptr} {proj : M4 α} (h_proj : Holds mem projP proj.list) (r_farZ : Room mem farZP 1) (s_proj_farZ : Apart projP 16 farZP 1) :
    C.glm_persp_decomp_far_lh_no.run mem [projP.val, farZP.val] =
      some (none, writes mem [(farZP, [(Cglm.glm_persp_decomp_far_lh_no proj)].map .f)]) := by
  exact transferL (((R.nil _).addW r_farZ.has r_farZ .nil).addR h_proj.has (.cons s_proj_farZ .nil)) (.p rfl (.p rfl .nil)) (glm_persp_decomp_far_lh_no_run _) (DT.val_done _) rfl rfl
example (proj : M4 α) : let mem : Mem α := [⟨false, proj.list.map .f⟩, ⟨true, List.replicate 1 .undef⟩]
    Holds mem (0, 0) proj.list ∧ Room mem (1, 0) 1 ∧ Apart (0, 0) 16 (1, 0) 1 :=
  ⟨.block rfl, .block rfl rfl, Or.inl (by decide)⟩

theorem C56_persp_decomp_near_lh_no {mem : Mem α} {projP nearZP : Ptr} {proj : M4 α} (h_proj : Holds mem projP proj.list) (r_nearZ : Room mem nearZP 1) (s_proj_nearZ : Apart projP 16 nearZP 1) :
    C.glm_persp_decomp_near_lh_no.run mem [projP.val, nearZP.val] =
      some (none, writes mem [(nearZP, [(Cglm.glm_persp_decomp_near_lh_no proj)].map .f)]) := by
  exact transferL (((R.nil _).addW r_nearZ.has r_nearZ .nil).addR h_proj.has (.cons s_proj_nearZ .nil)) (.p rfl (.p rfl .nil)) (glm_persp_decomp_near_lh_no_run _) (DT.val_done _) rfl rfl
example (proj : M4 α) : let mem : Mem α := [⟨false, proj.list.map .f⟩, ⟨true, List.replicate 1 .undef⟩]
    Holds mem (0, 0) proj.list ∧ Room mem (1, 0) 1 ∧ Apart (0, 0) 16 (1, 0) 1 :=
  ⟨.block rfl, .block rfl rfl, Or.inl (by decide)⟩

theorem C56_persp_sizes_lh_no {mem : Mem α} {projP destP : Ptr} {proj : M4 α} (fovy : α) (h_proj : Holds mem projP proj.list) (r_dest : Room mem destP 4) (s_proj_dest : Apart projP 16 destP 4) :
    C.glm_persp_sizes_lh_no.run mem [projP.val, .f fovy, destP.val] =
      some (none, writes mem [(destP, (Cglm.glm_persp_sizes_lh_no proj fovy).list.map .f)]) := by
  exact transferL (((R.nil _).addW r_dest.has r_dest .nil).addR h_proj.has (.cons s_proj_dest .nil)) (.p rfl (.f (.p rfl .nil))) (glm_persp_sizes_lh_no_run _ _) (DT.val_done _) rfl rfl
example (proj : M4 α) : let mem : Mem α := [⟨false, proj.list.map .f⟩, ⟨true, List.replicate 4 .undef⟩]
    Holds mem (0, 0) proj.list ∧ Room mem (1, 0) 4 ∧ Apart (0, 0) 16 (1, 0) 4 :=
  ⟨.block rfl, .block rfl rfl, Or.inl (by decide)⟩

theorem C56_persp_fovy_lh_no {mem : Mem α} {projP : Ptr} {proj : M4 α} (h_proj : Holds mem projP proj.list) :
    C.glm_persp_fovy_lh_no.run mem [projP.val] =
      some (some (.f (Cglm.glm_persp_fovy_lh_no proj)), mem) := by
  exact transferL ((R.nil _).addR h_proj.has .nil) (.p rfl .nil) (glm_persp_fovy_lh_no_run _) (DT.val_done _) rfl rfl
example (proj : M4 α) : let mem : Mem α := [⟨false, proj.list.map .f⟩]
    Holds mem (0, 0) proj.list :=
  .block rfl

theorem C56_persp_aspect_lh_no {mem : Mem α} {projP : Ptr} {proj : M4 α} (h_proj : Holds mem projP proj.list) :
    C.glm_persp_aspect_lh_no.run mem [projP.val] =
      some (some (.f (Cglm.glm_persp_aspect_lh_no proj)), mem) := by
  exact transferL ((R.nil _).addR h_proj.has .nil) (.p rfl .nil) (glm_persp_aspect_lh_no_run _) (DT.val_done _) rfl rfl
example (proj : M4 α) : let mem : Mem α := [⟨false, proj.list.map .f⟩]
    Holds mem (0, 0) proj.list :=
  .block rfl

end Cglm

end C56ClipspacePerspLhNo

section C56ClipspacePerspLhZo

/-!
# C56: memory safety and framing (include/cglm/clipspace/persp_lh_zo.h)

Called with initialised inputs and a writable destination that does not overlap them, the function is defined,
returns the value-level result and changes no memory but its destination.
-/

set_option linter.unusedVariables false
set_option linter.unusedSectionVars false

namespace Cglm
open CMem

variable {α : Type} [Add α] [Sub α] [Mul α] [Div α] [Neg α] [CFloat α]

theorem C56_frustum_lh_zo {mem : Mem α} {destP : Ptr} (left : α) (right : α) (bottom : α) (top : α) (nearZ : α) (farZ : α) (r_dest : Room mem destP 16) :
    C.glm_frustum_lh_zo.run mem [.f left, .f right, .f bottom, .f top, .f nearZ, .f farZ, destP.val] =
      some (none, writes mem [(destP, (Cglm.glm_frustum_lh_zo left right bottom top nearZ farZ).list.map .f)]) := by
  exact transferL ((R.nil _).addW r_dest.has r_dest .nil) (.f (.f (.f (.f (.f (.f (.p rfl .nil))))))) (glm_frustum_lh_zo_run _ _ _ _ _ _) (DT.val_done _) rfl rfl
example : let mem : Mem α := [⟨true, List.replicate 16 .undef⟩]
    Room mem (0, 0) 16 :=
  .block rfl rfl

theorem C56_perspective_lh_zo {mem : Mem α} {destP : Ptr} (fovy : α) (aspect : α) (nearZ : α) (farZ : α) (r_dest : Room mem destP 16) :
    C.glm_perspective_lh_zo.run mem [.f fovy, .f aspect, .f nearZ, .f farZ, destP.val] =
      some (none, writes mem [(destP, (Cglm.glm_perspective_lh_zo fovy aspect nearZ farZ).list.map .f)]) := by
  exact transferL ((R.nil _).addW r_dest.has r_dest .nil) (.f (.f (.f (.f (.p rfl .nil))))) (glm_perspective_lh_zo_run _ _ _ _) (DT.val_done _) rfl rfl
example : let mem : Mem α := [⟨true, List.replicate 16 .undef⟩]
    Room mem (0, 0) 16 :=
  .block rfl rfl

theorem C56_persp_move_far_lh_zo {mem : Mem α} {projP : Ptr} {proj : M4 α} (deltaFar : α) (h_proj : Holds mem projP proj.list) (r_proj : Room mem projP 16) :
    C.glm_persp_move_far_lh_zo.run mem [projP.val, .f deltaFar] =
      some (none, writes mem [(projP, (Cglm.glm_persp_move_far_lh_zo proj deltaFar).list.map .f)]) := by
  exact transferL ((R.nil _).addW h_proj.has r_proj .nil) (.p rfl (.f .nil)) (glm_persp_move_far_lh_zo_run _ _) (DT.val_done _) rfl rfl
example (proj : M4 α) : let mem : Mem α := [⟨true, proj.list.map .f⟩]
    Holds mem (0, 0) proj.list ∧ Room mem (0, 0) 16 :=
  ⟨.block rfl, .block rfl rfl⟩

theorem C56_perspective_default_lh_zo {mem : Mem α} {destP : Ptr} (aspect : α) (r_dest : Room mem destP 16) :
    C.glm_perspective_default_lh_zo.run mem [.f aspect, destP.val] =
      some (none, writes mem [(destP, (Cglm.glm_perspective_default_lh_zo aspect).list.map .f)]) := by
  exact transferL ((R.nil _).addW r_dest.has r_dest .nil) (.f (.p rfl .nil)) (glm_perspective_default_lh_zo_run _) (DT.val_done _) rfl rfl
example : let mem : Mem α := [⟨true, List.replicate 16 .undef⟩]
    Room mem (0, 0) 16 :=
  .block rfl rfl

theorem C56_perspective_resize_lh_zo {mem : Mem α} {projP : Ptr} (aspect : α) {proj : M4 α} (h_proj : Holds mem projP proj.list) (r_proj : Room mem projP 16) :
    C.glm_perspective_resize_lh_zo.run mem [.f aspect, projP.val] =
      some (none, writes mem [(projP, (Cglm.glm_perspective_resize_lh_zo aspect proj).list.map .f)]) := by
  exact transferL ((R.nil _).addW h_proj.has r_proj .nil) (.f (.p rfl .nil)) (glm_perspective_resize_lh_zo_run _ _) (DT.val_map_eq (glm_perspective_resize_lh_zo_dt_val _ _) rfl) rfl rfl
example (proj : M4 α) : let mem : Mem α := [⟨true, proj.list.map .f⟩]
    Holds mem (0, 0) proj.list ∧ Room mem (0, 0) 16 :=
  ⟨.block rfl, .block rfl rfl⟩

theorem C56_persp_decomp_lh_zo {mem : Mem α} {projP nearZP farZP topP bottomP leftP rightP : Ptr} {proj : M4 α} (h_proj : Holds mem projP proj.list) (r_nearZ : Room mem nearZP 1) (r_farZ : Room mem farZP 1) (r_top : Room mem topP 1) (r_bottom : Room mem bottomP 1) (r_left : Room mem leftP 1) (r_right : Room mem rightP 1) (s_proj_nearZ : Apart projP 16 nearZP 1) (s_proj_farZ : Apart projP 16 farZP 1) (s_proj_top : Apart projP 16 topP 1) (s_proj_bottom : Apart projP 16 bottomP 1) (s_proj_left : Apart projP 16 leftP 1) (s_proj_right : Apart projP 16 rightP 1) (s_nearZ_farZ : Apart nearZP 1 farZP 1) (s_nearZ_top : Apart nearZP 1 topP 1) (s_nearZ_bottom : Apart nearZP 1 bottomP 1) (s_nearZ_left : Apart nearZP 1 leftP 1) (s_nearZ_right : Apart nearZP 1 rightP 1) (s_farZ_top : Apart farZP 1 topP 1) (s_farZ_bottom : Apart farZP 1 bottomP 1) (s_farZ_left : Apart farZP 1 leftP 1) (s_farZ_right : Apart farZP 1 rightP 1) (s_top_bottom : Apart topP 1 bottomP 1) (s_top_left : Apart topP 1 leftP 1) (s_top_right : Apart topP 1 rightP 1) (s_bottom_left : Apart bottomP 1 leftP 1) (s_bottom_right : Apart bottomP 1 rightP 1) (s_left_right : Apart leftP 1 rightP 1) :
    C.glm_persp_decomp_lh_zo.run mem [projP.val, nearZP.val, farZP.val, topP.val, bottomP.val, leftP.val, rightP.val] =
      some (none, writes mem [(nearZP, [(Cglm.glm_persp_decomp_lh_zo proj).1].map .f), (farZP, [(Cglm.glm_persp_decomp_lh_zo proj).2.1].map .f), (topP, [(Cglm.glm_persp_decomp_lh_zo proj).2.2.1].map .f), (bottomP, [(Cglm.glm_persp_decomp_lh_zo proj).2.2.2.1].map .f), (leftP, [(Cglm.glm_persp_decomp_lh_zo proj).2.2.2.2.1].map .f), (rightP, [(Cglm.glm_persp_decomp_lh_zo proj).2.2.2.2.2].map .f)]) := by
  exact transferL ((((((((R.nil _).addW r_right.has r_right .nil).addW r_left.has r_left (.cons s_left_right .nil)).addW r_bottom.has r_bottom (.cons s_bottom_left (.cons s_bottom_right .nil))).addW r_top.has r_top (.cons s_top_bottom (.cons s_top_left (.cons s_top_right .nil)))).addW r_farZ.has r_farZ (.cons s_farZ_top (.cons s_farZ_bottom (.cons s_farZ_left (.cons s_farZ_right .nil))))).addW r_nearZ.has r_nearZ (.cons s_nearZ_farZ (.cons s_nearZ_top (.cons s_nearZ_bottom (.cons s_nearZ_left (.cons s_nearZ_right .nil)))))).addR h_proj.has (.cons s_proj_nearZ (.cons s_proj_farZ (.cons s_proj_top (.cons s_proj_bottom (.cons s_proj_left (.cons s_proj_right .nil))))))) (.p rfl (.p rfl (.p rfl (.p rfl (.p rfl (.p rfl (.p rfl .nil))))))) (glm_persp_decomp_lh_zo_run _) (DT.val_done _) rfl rfl
example (proj : M4 α) : let mem : Mem α := [⟨false, proj.list.map .f⟩, ⟨true, List.replicate 1 .undef⟩, ⟨true, List.replicate 1 .undef⟩, ⟨true, List.replicate 1 .undef⟩, ⟨true, List.replicate 1 .undef⟩, ⟨true, List.replicate 1 .undef⟩, ⟨true, List.replicate 1 .undef⟩]
    Holds mem (0, 0) proj.list ∧ Room mem (1, 0) 1 ∧ Room mem (2, 0) 1 ∧ Room mem (3, 0) 1 ∧ Room mem (4, 0) 1 ∧ Room mem (5, 0) 1 ∧ Room mem (6, 0) 1 ∧ Apart (0, 0) 16 (1, 0) 1 ∧ Apart (0, 0) 16 (2, 0) 1 ∧ Apart (0, 0) 16 (3, 0) 1 ∧ Apart (0, 0) 16 (4, 0) 1 ∧ Apart (0, 0) 16 (5, 0) 1 ∧ Apart (0, 0) 16 (6, 0) 1 ∧ Apart (1, 0) 1 (2, 0) 1 ∧ Apart (1, 0) 1 (3, 0) 1 ∧ Apart (1, 0) 1 (4, 0) 1 ∧ Apart (1, 0) 1 (5, 0) 1 ∧ Apart (1, 0) 1 (6, 0) 1 ∧ Apart (2, 0) 1 (3, 0) 1 ∧ Apart (2, 0) 1 (4, 0) 1 ∧ Apart (2, 0) 1 (5, 0) 1 ∧ Apart (2, 0) 1 (6, 0) 1 ∧ Apart (3, 0) 1 (4, 0) 1 ∧ Apart (3, 0) 1 (5, 0) 1 ∧ Apart (3, 0) 1 (6, 0) 1 ∧ Apart (4, 0) 1 (5, 0) 1 ∧ Apart (4, 0) 1 (6, 0) 1 ∧ Apart (5, 0) 1 (6, 0) 1 :=
  ⟨.block rfl, .block rfl rfl, .block rfl rfl, .block rfl rfl, .block rfl rfl, .block rfl rfl, .block rfl rfl, Or.inl (by decide), Or.inl (by decide), Or.inl (by decide), Or.inl (by decide), Or.inl (by decide), Or.inl (by decide), Or.inl (by decide), Or.inl (by decide), Or.inl (by decide), Or.inl (by decide), Or.inl (by decide), Or.inl (by decide), Or.inl (by decide), Or.inl (by decide), Or.inl (by decide), Or.inl (by decide), Or.inl (by decide), Or.inl (by decide), Or.inl (by decide), Or.inl (by decide), Or.inl (by decide)⟩

theorem C56_persp_decompv_lh_zo {mem : Mem α} {projP destP : Ptr} {proj : M4 α} (h_proj : Holds mem projP proj.list) (r_dest : Room mem destP 6) (s_proj_dest : Apart projP 16 destP 6) :
    C.glm_persp_decompv_lh_zo.run mem [projP.val, destP.val] =
      some (none, writes mem [(destP, (Cglm.glm_persp_decompv_lh_zo proj).list.map .f)]) := by
  exact transferL (((R.nil _).addW r_dest.has r_dest .nil).addR h_proj.has (.cons s_proj_dest .nil)) (.p rfl (.p rfl .nil)) (glm_persp_decompv_lh_zo_run _) (DT.val_done _) rfl rfl
example (proj : M4 α) : let mem : Mem α := [⟨false, proj.list.map .f⟩, ⟨true, List.replicate 6 .undef⟩]
    Holds mem (0, 0) proj.list ∧ Room mem (1, 0) 6 ∧ Apart (0, 0) 16 (1, 0) 6 :=
  ⟨.block rfl, .block rfl rfl, Or.inl (by decide)⟩

theorem C56_persp_decomp_x_lh_zo {mem : Mem α} {projP leftP rightP : Ptr} {proj : M4 α} (h_proj : Holds mem projP proj.list) (r_left : Room mem leftP 1) (r_right : Room mem rightP 1) (s_proj_left : Apart projP 16 leftP 1) (s_proj_right : Apart projP 16 rightP 1) (s_left_right : Apart leftP 1 rightP 1) :
    C.glm_persp_decomp_x_lh_zo.run mem [projP.val, leftP.val, rightP.val] =
      some (none, writes mem [(leftP, [(Cglm.glm_persp_decomp_x_lh_zo proj).1].map .f), (rightP, [(Cglm.glm_persp_decomp_x_lh_zo proj).2].map .f)]) := by
  exact transferL ((((R.nil _).addW r_right.has r_right .nil).addW r_left.has r_left (.cons s_left_right .nil)).addR h_proj.has (.cons s_proj_left (.cons s_proj_right .nil))) (.p rfl (.p rfl (.p rfl .nil))) (glm_persp_decomp_x_lh_zo_run _) (DT.val_done _) rfl rfl
example (proj : M4 α) : let mem : Mem α := [⟨false, proj.list.map .f⟩, ⟨true, List.replicate 1 .undef⟩, ⟨true, List.replicate 1 .undef⟩]
    Holds mem (0, 0) proj.list ∧ Room mem (1, 0) 1 ∧ Room mem (2, 0) 1 ∧ Apart (0, 0) 16 (1, 0) 1 ∧ Apart (0, 0) 16 (2, 0) 1 ∧ Apart (1, 0) 1 (2, 0) 1 :=
  ⟨.block rfl, .block rfl rfl, .block rfl rfl, Or.inl (by decide), Or.inl (by decide), Or.inl (by decide)⟩

theorem C56_persp_decomp_y_lh_zo {mem : Mem α} {projP topP bottomP : Ptr} {proj : M4 α} (h_proj : Holds mem projP proj.list) (r_top : Room mem topP 1) (r_bottom : Room mem bottomP 1) (s_proj_top : Apart projP 16 topP 1) (s_proj_bottom : Apart projP 16 bottomP 1) (s_top_bottom : Apart topP 1 bottomP 1) :
    C.glm_persp_decomp_y_lh_zo.run mem [projP.val, topP.val, bottomP.val] =
      some (none, writes mem [(topP, [(Cglm.glm_persp_decomp_y_lh_zo proj).1].map .f), (bottomP, [(Cglm.glm_persp_decomp_y_lh_zo proj).2].map .f)]) := by
  exact transferL ((((R.nil _).addW r_bottom.has r_bottom .nil).addW r_top.has r_top (.cons s_top_bottom .nil)).addR h_proj.has (.cons s_proj_top (.cons s_proj_bottom .nil))) (.p rfl (.p rfl (.p rfl .nil))) (glm_persp_decomp_y_lh_zo_run _) (DT.val_done _) rfl rfl
example (proj : M4 α) : let mem : Mem α := [⟨false, proj.list.map .f⟩, ⟨true, List.replicate 1 .undef⟩, ⟨true, List.replicate 1 .undef⟩]
    Holds mem (0, 0) proj.list ∧ Room mem (1, 0) 1 ∧ Room mem (2, 0) 1 ∧ Apart (0, 0) 16 (1, 0) 1 ∧ Apart (0, 0) 16 (2, 0) 1 ∧ Apart (1, 0) 1 (2, 0) 1 :=
  ⟨.block rfl, .block rfl rfl, .block rfl rfl, Or.inl (by decide), Or.inl (by decide), Or.inl (by decide)⟩

theorem C56_persp_decomp_z_lh_zo {mem : Mem α} {projP nearZP farZP : Ptr} {proj : M4 α} (h_proj : Holds mem projP proj.list) (r_nearZ : Room mem nearZP 1) (r_farZ : Room mem farZP 1) (s_proj_nearZ : Apart projP 16 nearZP 1) (s_proj_farZ : Apart projP 16 farZP 1) (s_nearZ_farZ : Apart nearZP 1 farZP 1) :
    C.glm_persp_decomp_z_lh_zo.run mem [projP.val, nearZP.val, farZP.val] =
      some (none, writes mem [(nearZP, [(Cglm.glm_persp_decomp_z_lh_zo proj).1].map .f), (farZP, [(Cglm.glm_persp_decomp_z_lh_zo proj).2].map .f)]) := by
  exact transferL ((((R.nil _).addW r_farZ.has r_farZ .nil).addW r_nearZ.has r_nearZ (.cons s_nearZ_farZ .nil)).addR h_proj.has (.cons s_proj_nearZ (.cons s_proj_farZ .nil))) (.p rfl (.p rfl (.p rfl .nil))) (glm_persp_decomp_z_lh_zo_run _) (DT.val_done _) rfl rfl
example (proj : M4 α) : let mem : Mem α := [⟨false, proj.list.map .f⟩, ⟨true, List.replicate 1 .undef⟩, ⟨true, List.replicate 1 .undef⟩]
    Holds mem (0, 0) proj.list ∧ Room mem (1, 0) 1 ∧ Room mem (2, 0) 1 ∧ Apart (0, 0) 16 (1, 0) 1 ∧ Apart (0, 0) 16 (2, 0) 1 ∧ Apart (1, 0) 1 (2, 0) 1 :=
  ⟨.block rfl, .block rfl rfl, .block rfl rfl, Or.inl (by decide), Or.inl (by decide), Or.inl (by decide)⟩

theorem C56_persp_decomp_far_lh_zo {mem : Mem α} {projP farZP : Ptr} {proj : M4 α} (h_proj : Holds mem projP proj.list) (r_farZ : Room mem farZP 1) (s_proj_farZ : Apart projP 16 farZP 1) :
    C.glm_persp_decomp_far_lh_zo.run mem [projP.val, farZP.val] =
      some (none, writes mem [(farZP, [(Cglm.glm_persp_decomp_far_lh_zo proj)].map .f)]) := by
  exact transferL (((R.nil _).addW r_farZ.has r_farZ .nil).addR h_proj.has (.cons s_proj_farZ .nil)) (.p rfl (.p rfl .nil)) (glm_persp_decomp_far_lh_zo_run _) (DT.val_done _) rfl rfl
example (proj : M4 α) : let mem : Mem α := [⟨false, proj.list.map .f⟩, ⟨true, List.replicate 1 .undef⟩]
    Holds mem (0, 0) proj.list ∧ Room mem (1, 0) 1 ∧ Apart (0, 0) 16 (1, 0) 1 :=
  ⟨.block rfl, .block rfl rfl, Or.inl (by decide)⟩

theorem C56_persp_decomp_near_lh_zo {mem : Mem α} {projP nearZP : Ptr} {proj : M4 α} (h_proj : Holds mem projP proj.list) (r_nearZ : Room mem nearZP 1) (s_proj_nearZ : Apart projP 16 nearZP 1) :
    C.glm_persp_decomp_near_lh_zo.run mem [projP.val, nearZP.val] =
      some (none, writes mem [(nearZP, [(Cglm.glm_persp_decomp_near_lh_zo proj)].map .f)]) := by
  exact transferL (((R.nil _).addW r_nearZ.has r_nearZ .nil).addR h_proj.has (.cons s_proj_nearZ .nil)) (.p rfl (.p rfl .nil)) (glm_persp_decomp_near_lh_zo_run _) (DT.val_done _) rfl rfl
example (proj : M4 α) : let mem : Mem α := [⟨false, proj.list.map .f⟩, ⟨true, List.replicate 1 .undef⟩]
    Holds mem (0, 0) proj.list ∧ Room mem (1, 0) 1 ∧ Apart (0, 0) 16 (1, 0) 1 :=
  ⟨.block rfl, .block rfl rfl, Or.inl (by decide)⟩

theorem C56_persp_sizes_lh_zo {mem : Mem α} {projP destP : Ptr} {proj : M4 α} (fovy : α) (h_proj : Holds mem projP proj.list) (r_dest : Room mem destP 4) (s_proj_dest : Apart projP 16 destP 4) :
    C.glm_persp_sizes_lh_zo.run mem [projP.val, .f fovy, destP.val] =
      some (none, writes mem [(destP, (Cglm.glm_persp_sizes_lh_zo proj fovy).list.map .f)]) := by
  exact transferL (((R.nil _).addW r_dest.has r_dest .nil).addR h_proj.has (.cons s_proj_dest .nil)) (.p rfl (.f (.p rfl .nil))) (glm_persp_sizes_lh_zo_run _ _) (DT.val_done _) rfl rfl
example (proj : M4 α) : let mem : Mem α := [⟨false, proj.list.map .f⟩, ⟨true, List.replicate 4 .undef⟩]
    Holds mem (0, 0) proj.list ∧ Room mem (1, 0) 4 ∧ Apart (0, 0) 16 (1, 0) 4 :=
  ⟨.block rfl, .block rfl rfl, Or.inl (by decide)⟩

theorem C56_persp_fovy_lh_zo {mem : Mem α} {projP : Ptr} {proj : M4 α} (h_proj : Holds mem projP proj.list) :
    C.glm_persp_fovy_lh_zo.run mem [projP.val] =
      some (some (.f (Cglm.glm_persp_fovy_lh_zo proj)), mem) := by
  exact transferL ((R.nil _).addR h_proj.has .nil) (.p rfl .nil) (glm_persp_fovy_lh_zo_run _) (DT.val_done _) rfl rfl
example (proj : M4 α) : let mem : Mem α := [⟨false, proj.list.map .f⟩]
    Holds mem (0, 0) proj.list :=
  .block rfl

theorem C56_persp_aspect_lh_zo {mem : Mem α} {projP : Ptr} {proj : M4 α} (h_proj : Holds mem projP proj.list) :
    C.glm_persp_aspect_lh_zo.run mem [projP.val] =
      some (some (.f (Cglm.glm_persp_aspect_lh_zo proj)), mem) := by
  exact transferL ((R.nil _).addR h_proj.has .nil) (.p rfl .nil) (glm_persp_aspect_lh_zo_run _) (DT.val_done _) rfl rfl
example (proj : M4 α) : let mem : Mem α := [⟨false, proj.list.map .f⟩]
    Holds mem (0, 0) proj.list :=
  .block rfl

end Cglm

end C56ClipspacePerspLhZo

section C56ClipspacePerspRhNo

/-!
# C56: memory safety and framing (include/cglm/clipspace/persp_rh_no.h)

Called with initialised inputs and a writable destination that does not overlap them, the function is defined,
returns the value-level result and changes no memory but its destination.
-/

set_option linter.unusedVariables false
set_option linter.unusedSectionVars false

namespace Cglm
open CMem

variable {α : Type} [Add α] [Sub α] [Mul α] [Div α] [Neg α] [CFloat α]

theorem C56_frustum_rh_no {mem : Mem α} {destP : Ptr} (left : α) (right : α) (bottom : α) (top : α) (nearZ : α) (farZ : α) (r_dest : Room mem destP 16) :
    C.glm_frustum_rh_no.run mem [.f left, .f right, .f bottom, .f top, .f nearZ, .f farZ, destP.val] =
      some (none, writes mem [(destP, (Cglm.glm_frustum_rh_no left right bottom top nearZ farZ).list.map .f)]) := by
  exact transferL ((R.nil _).addW r_dest.has r_dest .nil) (.f (.f (.f (.f (.f (.f (.p rfl .nil))))))) (glm_frustum_rh_no_run _ _ _ _ _ _) (DT.val_done _) rfl rfl
example : let mem : Mem α := [⟨true, List.replicate 16 .undef⟩]
    Room mem (0, 0) 16 :=
  .block rfl rfl

theorem C56_perspective_rh_no {mem : Mem α} {destP : Ptr} (fovy : α) (aspect : α) (nearZ : α) (farZ : α) (r_dest : Room mem destP 16) :
    C.glm_perspective_rh_no.run mem [.f fovy, .f aspect, .f nearZ, .f farZ, destP.val] =
      some (none, writes mem [(destP, (Cglm.glm_perspective_rh_no fovy aspect nearZ farZ).list.map .f)]) := by
  exact transferL ((R.nil _).addW r_dest.has r_dest .nil) (.f (.f (.f (.f (.p rfl .nil))))) (glm_perspective_rh_no_run _ _ _ _) (DT.val_done _) rfl rfl
example : let mem : Mem α := [⟨true, List.replicate 16 .undef⟩]
    Room mem (0, 0) 16 :=
  .block rfl rfl

theorem C56_perspective_default_rh_no {mem : Mem α} {destP : Ptr} (aspect : α) (r_dest : Room mem destP 16) :
    C.glm_perspective_default_rh_no.run mem [.f aspect, destP.val] =
      some (none, writes mem [(destP, (Cglm.glm_perspective_default_rh_no aspect).list.map .f)]) := by
  exact transferL ((R.nil _).addW r_dest.has r_dest .nil) (.f (.p rfl .nil)) (glm_perspective_default_rh_no_run _) (DT.val_done _) rfl rfl
example : let mem : Mem α := [⟨true, List.replicate 16 .undef⟩]
    Room mem (0, 0) 16 :=
  .block rfl rfl

theorem C56_perspective_resize_rh_no {mem : Mem α} {projP : Ptr} (aspect : α) {proj : M4 α} (h_proj : Holds mem projP proj.list) (r_proj : Room mem projP 16) :
    C.glm_perspective_resize_rh_no.run mem [.f aspect, projP.val] =
      some (none, writes mem [(projP, (Cglm.glm_perspective_resize_rh_no aspect proj).list.map .f)]) := by
  exact transferL ((R.nil _).addW h_proj.has r_proj .nil) (.f (.p rfl .nil)) (glm_perspective_resize_rh_no_run _ _) (DT.val_map_eq (glm_perspective_resize_rh_no_dt_val _ _) rfl) rfl rfl
example (proj : M4 α) : let mem : Mem α := [⟨true, proj.list.map .f⟩]
    Holds mem (0, 0) proj.list ∧ Room mem (0, 0) 16 :=
  ⟨.block rfl, .block rfl rfl⟩

theorem C56_persp_move_far_rh_no {mem : Mem α} {projP : Ptr} {proj : M4 α} (deltaFar : α) (h_proj : Holds mem projP proj.list) (r_proj : Room mem projP 16) :
    C.glm_persp_move_far_rh_no.run mem [projP.val, .f deltaFar] =
      some (none, writes mem [(projP, (Cglm.glm_persp_move_far_rh_no proj deltaFar).list.map .f)]) := by
  exact transferL ((R.nil _).addW h_proj.has r_proj .nil) (.p rfl (.f .nil)) (glm_persp_move_far_rh_no_run _ _) (DT.val_done _) rfl rfl
example (proj : M4 α) : let mem : Mem α := [⟨true, proj.list.map .f⟩]
    Holds mem (0, 0) proj.list ∧ Room mem (0, 0) 16 :=
  ⟨.block rfl, .block rfl rfl⟩

theorem C56_persp_decomp_rh_no {mem : Mem α} {projP nearZP farZP topP bottomP leftP rightP : Ptr} {proj : M4 α} (h_proj : Holds mem projP proj.list) (r_nearZ : Room mem nearZP 1) (r_farZ : Room mem farZP 1) (r_top : Room mem topP 1) (r_bottom : Room mem bottomP 1) (r_left : Room mem leftP 1) (r_right : Room mem rightP 1) (s_proj_nearZ : Apart projP 16 nearZP 1) (s_proj_farZ : Apart projP 16 farZP 1) (s_proj_top : Apart projP 16 topP 1) (s_proj_bottom : Apart projP 16 bottomP 1) (s_proj_left : Apart projP 16 leftP 1) (s_proj_right : Apart projP 16 rightP 1) (s_nearZ_farZ : Apart nearZP 1 farZP 1) (s_nearZ_top : Apart nearZP 1 topP 1) (s_nearZ_bottom : Apart nearZP 1 bottomP 1) (s_nearZ_left : Apart nearZP 1 leftP 1) (s_nearZ_right : Apart nearZP 1 rightP 1) (s_farZ_top : Apart farZP 1 topP 1) (s_farZ_bottom : Apart farZP 1 bottomP 1) (s_farZ_left : Apart farZP 1 leftP 1) (s_farZ_right : Apart farZP 1 rightP 1) (s_top_bottom : Apart topP 1 bottomP 1) (s_top_left : Apart topP 1 leftP 1) (s_top_right : Apart topP 1 rightP 1) (s_bottom_left : Apart bottomP 1 leftP 1) (s_bottom_right : Apart bottomP 1 rightP 1) (s_left_right : Apart leftP 1 rightP 1) :
    C.glm_persp_decomp_rh_no.run mem [projP.val, nearZP.val, farZP.val, topP.val, bottomP.val, leftP.val, rightP.val] =
      some (none, writes mem [(nearZP, [(Cglm.glm_persp_decomp_rh_no proj).1].map .f), (farZP, [(Cglm.glm_persp_decomp_rh_no proj).2.1].map .f), (topP, [(Cglm.glm_persp_decomp_rh_no proj).2.2.1].map .f), (bottomP, [(Cglm.glm_persp_decomp_rh_no proj).2.2.2.1].map .f), (leftP, [(Cglm.glm_persp_decomp_rh_no proj).2.2.2.2.1].map .f), (rightP, [(Cglm.glm_persp_decomp_rh_no proj).2.2.2.2.2].map .f)]) := by
  exact transferL ((((((((R.nil _).addW r_right.has r_right .nil).addW r_left.has r_left (.cons s_left_right .nil)).addW r_bottom.has r_bottom (.cons s_bottom_left (.cons s_bottom_right .nil))).addW r_top.has r_top (.cons s_top_bottom (.cons s_top_left (.cons s_top_right .nil)))).addW r_farZ.has r_farZ (.cons s_farZ_top (.cons s_farZ_bottom (.cons s_farZ_left (.cons s_farZ_right .nil))))).addW r_nearZ.has r_nearZ (.cons s_nearZ_farZ (.cons s_nearZ_top (.cons s_nearZ_bottom (.cons s_nearZ_left (.cons s_nearZ_right .nil)))))).addR h_proj.has (.cons s_proj_nearZ (.cons s_proj_farZ (.cons s_proj_top (.cons s_proj_bottom (.cons s_proj_left (.cons s_proj_right .nil))))))) (.p rfl (.p rfl (.p rfl (.p rfl (.p rfl (.p rfl (.p rfl .nil))))))) (glm_persp_decomp_rh_no_run _) (DT.val_done _) rfl rfl
example (proj : M4 α) : let mem : Mem α := [⟨false, proj.list.map .f⟩, ⟨true, List.replicate 1 .undef⟩, ⟨true, List.replicate 1 .undef⟩, ⟨true, List.replicate 1 .undef⟩, ⟨true, List.replicate 1 .undef⟩, ⟨true, List.replicate 1 .undef⟩, ⟨true, List.replicate 1 .undef⟩]
    Holds mem (0, 0) proj.list ∧ Room mem (1, 0) 1 ∧ Room mem (2, 0) 1 ∧ Room mem (3, 0) 1 ∧ Room mem (4, 0) 1 ∧ Room mem (5, 0) 1 ∧ Room mem (6, 0) 1 ∧ Apart (0, 0) 16 (1, 0) 1 ∧ Apart (0, 0) 16 (2, 0) 1 ∧ Apart (0, 0) 16 (3, 0) 1 ∧ Apart (0, 0) 16 (4, 0) 1 ∧ Apart (0, 0) 16 (5, 0) 1 ∧ Apart (0, 0) 16 (6, 0) 1 ∧ Apart (1, 0) 1 (2, 0) 1 ∧ Apart (1, 0) 1 (3, 0) 1 ∧ Apart (1, 0) 1 (4, 0) 1 ∧ Apart (1, 0) 1 (5, 0) 1 ∧ Apart (1, 0) 1 (6, 0) 1 ∧ Apart (2, 0) 1 (3, 0) 1 ∧ Apart (2, 0) 1 (4, 0) 1 ∧ Apart (2, 0) 1 (5, 0) 1 ∧ Apart (2, 0) 1 (6, 0) 1 ∧ Apart (3, 0) 1 (4, 0) 1 ∧ Apart (3, 0) 1 (5, 0) 1 ∧ Apart (3, 0) 1 (6, 0) 1 ∧ Apart (4, 0) 1 (5, 0) 1 ∧ Apart (4, 0) 1 (6, 0) 1 ∧ Apart (5, 0) 1 (6, 0) 1 :=
  ⟨.block rfl, .block rfl rfl, .block rfl rfl, .block rfl rfl, .block rfl rfl, .block rfl rfl, .block rfl rfl, Or.inl (by decide), Or.inl (by decide), Or.inl (by decide), Or.inl (by decide), Or.inl (by decide), Or.inl (by decide), Or.inl (by decide), Or.inl (by decide), Or.inl (by decide), Or.inl (by decide), Or.inl (by decide), Or.inl (by decide), Or.inl (by decide), Or.inl (by decide), Or.inl (by decide), Or.inl (by decide), Or.inl (by decide), Or.inl (by decide), Or.inl (by decide), Or.inl (by decide), Or.inl (by decide)⟩

theorem C56_persp_decompv_rh_no {mem : Mem α} {projP destP : Ptr} {proj : M4 α} (h_proj : Holds mem projP proj.list) (r_dest : Room mem destP 6) (s_proj_dest : Apart projP 16 destP 6) :
    C.glm_persp_decompv_rh_no.run mem [projP.val, destP.val] =
      some (none, writes mem [(destP, (Cglm.glm_persp_decompv_rh_no proj).list.map .f)]) := by
  exact transferL (((R.nil _).addW r_dest.has r_dest .nil).addR h_proj.has (.cons s_proj_dest .nil)) (.p rfl (.p rfl .nil)) (glm_persp_decompv_rh_no_run _) (DT.val_done _) rfl rfl
example (proj : M4 α) : let mem : Mem α := [⟨false, proj.list.map .f⟩, ⟨true, List.replicate 6 .undef⟩]
    Holds mem (0, 0) proj.list ∧ Room mem (1, 0) 6 ∧ Apart (0, 0) 16 (1, 0) 6 :=
  ⟨.block rfl, .block rfl rfl, Or.inl (by decide)⟩

theorem C56_persp_decomp_x_rh_no {mem : Mem α} {projP leftP rightP : Ptr} {proj : M4 α} (h_proj : Holds mem projP proj.list) (r_left : Room mem leftP 1) (r_right : Room mem rightP 1) (s_proj_left : Apart projP 16 leftP 1) (s_proj_right : Apart projP 16 rightP 1) (s_left_right : Apart leftP 1 rightP 1) :
    C.glm_persp_decomp_x_rh_no.run mem [projP.val, leftP.val, rightP.val] =
      some (none, writes mem [(leftP, [(Cglm.glm_persp_decomp_x_rh_no proj).1].map .f), (rightP, [(Cglm.glm_persp_decomp_x_rh_no proj).2].map .f)]) := by
  exact transferL ((((R.nil _).addW r_right.has r_right .nil).addW r_left.has r_left (.cons s_left_right .nil)).addR h_proj.has (.cons s_proj_left (.cons s_proj_right .nil))) (.p rfl (.p rfl (.p rfl .nil))) (glm_persp_decomp_x_rh_no_run _) (DT.val_done _) rfl rfl
example (proj : M4 α) : let mem : Mem α := [⟨false, proj.list.map .f⟩, ⟨true, List.replicate 1 .undef⟩, ⟨true, List.replicate 1 .undef⟩]
    Holds mem (0, 0) proj.list ∧ Room mem (1, 0) 1 ∧ Room mem (2, 0) 1 ∧ Apart (0, 0) 16 (1, 0) 1 ∧ Apart (0, 0) 16 (2, 0) 1 ∧ Apart (1, 0) 1 (2, 0) 1 :=
  ⟨.block rfl, .block rfl rfl, .block rfl rfl, Or.inl (by decide), Or.inl (by decide), Or.inl (by decide)⟩

theorem C56_persp_decomp_y_rh_no {mem : Mem α} {projP topP bottomP : Ptr} {proj : M4 α} (h_proj : Holds mem projP proj.list) (r_top : Room mem topP 1) (r_bottom : Room mem bottomP 1) (s_proj_top : Apart projP 16 topP 1) (s_proj_bottom : Apart projP 16 bottomP 1) (s_top_bottom : Apart topP 1 bottomP 1) :
    C.glm_persp_decomp_y_rh_no.run mem [projP.val, topP.val, bottomP.val] =
      some (none, writes mem [(topP, [(Cglm.glm_persp_decomp_y_rh_no proj).1].map .f), (bottomP, [(Cglm.glm_persp_decomp_y_rh_no proj).2].map .f)]) := by
  exact transferL ((((R.nil _).addW r_bottom.has r_bottom .nil).addW r_top.has r_top (.cons s_top_bottom .nil)).addR h_proj.has (.cons s_proj_top (.cons s_proj_bottom .nil))) (.p rfl (.p rfl (.p rfl .nil))) (glm_persp_decomp_y_rh_no_run _) (DT.val_done _) rfl rfl
example (proj : M4 α) : let mem : Mem α := [⟨false, proj.list.map .f⟩, ⟨true, List.replicate 1 .undef⟩, ⟨true, List.replicate 1 .undef⟩]
    Holds mem (0, 0) proj.list ∧ Room mem (1, 0) 1 ∧ Room mem (2, 0) 1 ∧ Apart (0, 0) 16 (1, 0) 1 ∧ Apart (0, 0) 16 (2, 0) 1 ∧ Apart (1, 0) 1 (2, 0) 1 :=
  ⟨.block rfl, .block rfl rfl, .block rfl rfl, Or.inl (by decide), Or.inl (by decide), Or.inl (by decide)⟩

theorem C56_persp_decomp_z_rh_no {mem : Mem α} {projP nearZP farZP : Ptr} {proj : M4 α} (h_proj : Holds mem projP proj.list) (r_nearZ : Room mem nearZP 1) (r_farZ : Room mem farZP 1) (s_proj_nearZ : Apart projP 16 nearZP 1) (s_proj_farZ : Apart projP 16 farZP 1) (s_nearZ_farZ : Apart nearZP 1 farZP 1) :
    C.glm_persp_decomp_z_rh_no.run mem [projP.val, nearZP.val, farZP.val] =
      some (none, writes mem [(nearZP, [(Cglm.glm_persp_decomp_z_rh_no proj).1].map .f), (farZP, [(Cglm.glm_persp_decomp_z_rh_no proj).2].map .f)]) := by
  exact transferL ((((R.nil _).addW r_farZ.has r_farZ .nil).addW r_nearZ.has r_nearZ (.cons s_nearZ_farZ .nil)).addR h_proj.has (.cons s_proj_nearZ (.cons s_proj_farZ .nil))) (.p rfl (.p rfl (.p rfl .nil))) (glm_persp_decomp_z_rh_no_run _) (DT.val_done _) rfl rfl
example (proj : M4 α) : let mem : Mem α := [⟨false, proj.list.map .f⟩, ⟨true, List.replicate 1 .undef⟩, ⟨true, List.replicate 1 .undef⟩]
    Holds mem (0, 0) proj.list ∧ Room mem (1, 0) 1 ∧ Room mem (2, 0) 1 ∧ Apart (0, 0) 16 (1, 0) 1 ∧ Apart (0, 0) 16 (2, 0) 1 ∧ Apart (1, 0) 1 (2, 0) 1 :=
  ⟨.block rfl, .block rfl rfl, .block rfl rfl, Or.inl (by decide), Or.inl (by decide), Or.inl (by decide)⟩

theorem C56_persp_decomp_far_rh_no {mem : Mem α} {projP farZP : Ptr} {proj : M4 α} (h_proj : Holds mem projP proj.list) (r_farZ : Room mem farZP 1) (s_proj_farZ : Apart projP 16 farZP 1) :
    C.glm_persp_decomp_far_rh_no.run mem [projP.val, farZP.val] =
      some (none, writes mem [(farZP, [(Cglm.glm_persp_decomp_far_rh_no proj)].map .f)]) := by
  exact transferL (((R.nil _).addW r_farZ.has r_farZ .nil).addR h_proj.has (.cons s_proj_farZ .nil)) (.p rfl (.p rfl .nil)) (glm_persp_decomp_far_rh_no_run _) (DT.val_done _) rfl rfl
example (proj : M4 α) : let mem : Mem α := [⟨false, proj.list.map .f⟩, ⟨true, List.replicate 1 .undef⟩]
    Holds mem (0, 0) proj.list ∧ Room mem (1, 0) 1 ∧ Apart (0, 0) 16 (1, 0) 1 :=
  ⟨.block rfl, .block rfl rfl, Or.inl (by decide)⟩

theorem C56_persp_decomp_near_rh_no {mem : Mem α} {projP nearZP : Ptr} {proj : M4 α} (h_proj : Holds mem projP proj.list) (r_nearZ : Room mem nearZP 1) (s_proj_nearZ : Apart projP 16 nearZP 1) :
    C.glm_persp_decomp_near_rh_no.run mem [projP.val, nearZP.val] =
      some (none, writes mem [(nearZP, [(Cglm.glm_persp_decomp_near_rh_no proj)].map .f)]) := by
  exact transferL (((R.nil _).addW r_nearZ.has r_nearZ .nil).addR h_proj.has (.cons s_proj_nearZ .nil)) (.p rfl (.p rfl .nil)) (glm_persp_decomp_near_rh_no_run _) (DT.val_done _) rfl rfl
example (proj : M4 α) : let mem : Mem α := [⟨false, proj.list.map .f⟩, ⟨true, List.replicate 1 .undef⟩]
    Holds mem (0, 0) proj.list ∧ Room mem (1, 0) 1 ∧ Apart (0, 0) 16 (1, 0) 1 :=
  ⟨.block rfl, .block rfl rfl, Or.inl (by decide)⟩

theorem C56_persp_sizes_rh_no {mem : Mem α} {projP destP : Ptr} {proj : M4 α} (fovy : α) (h_proj : Holds mem projP proj.list) (r_dest : Room mem destP 4) (s_proj_dest : Apart projP 16 destP 4) :
    C.glm_persp_sizes_rh_no.run mem [projP.val, .f fovy, destP.val] =
      some (none, writes mem [(destP, (Cglm.glm_persp_sizes_rh_no proj fovy).list.map .f)]) := by
  exact transferL (((R.nil _).addW r_dest.has r_dest .nil).addR h_proj.has (.cons s_proj_dest .nil)) (.p rfl (.f (.p rfl .nil))) (glm_persp_sizes_rh_no_run _ _) (DT.val_done _) rfl rfl
example (proj : M4 α) : let mem : Mem α := [⟨false, proj.list.map .f⟩, ⟨true, List.replicate 4 .undef⟩]
    Holds mem (0, 0) proj.list ∧ Room mem (1, 0) 4 ∧ Apart (0, 0) 16 (1, 0) 4 :=
  ⟨.block rfl, .block rfl rfl, Or.inl (by decide)⟩

theorem C56_persp_fovy_rh_no {mem : Mem α} {projP : Ptr} {proj : M4 α} (h_proj : Holds mem projP proj.list) :
    C.glm_persp_fovy_rh_no.run mem [projP.val] =
      some (some (.f (Cglm.glm_persp_fovy_rh_no proj)), mem) := by
  exact transferL ((R.nil _).addR h_proj.has .nil) (.p rfl .nil) (glm_persp_fovy_rh_no_run _) (DT.val_done _) rfl rfl
example (proj : M4 α) : let mem : Mem α := [⟨false, proj.list.map .f⟩]
    Holds mem (0, 0) proj.list :=
  .block rfl

theorem C56_persp_aspect_rh_no {mem : Mem α} {projP : Ptr} {proj : M4 α} (h_proj : Holds mem projP proj.list) :
    C.glm_persp_aspect_rh_no.run mem [projP.val] =
      some (some (.f (Cglm.glm_persp_aspect_rh_no proj)), mem) := by
  exact transferL ((R.nil _).addR h_proj.has .nil) (.p rfl .nil) (glm_persp_aspect_rh_no_run _) (DT.val_done _) rfl rfl
example (proj : M4 α) : let mem : Mem α := [⟨false, proj.list.map .f⟩]
    Holds mem (0, 0) proj.list :=
  .block rfl

end Cglm

end C56ClipspacePerspRhNo

section C56ClipspacePerspRhZo

/-!
# C56: memory safety and framing (include/cglm/clipspace/persp_rh_zo.h)

Called with initialised inputs and a writable destination that does not overlap them, the function is defined,
returns the value-level result and changes no memory but its destination.
-/

set_option linter.unusedVariables false
set_option linter.unusedSectionVars false

namespace Cglm
open CMem

variable {α : Type} [Add α] [Sub α] [Mul α] [Div α] [Neg α] [CFloat α]

theorem C56_frustum_rh_zo {mem : Mem α} {destP : Ptr} (left : α) (right : α) (bottom : α) (top : α) (nearZ : α) (farZ : α) (r_dest : Room mem destP 16) :
    C.glm_frustum_rh_zo.run mem [.f left, .f right, .f bottom, .f top, .f nearZ, .f farZ, destP.val] =
      some (none, writes mem [(destP, (Cglm.glm_frustum_rh_zo left right bottom top nearZ farZ).list.map .f)]) := by
  exact transferL ((R.nil _).addW r_dest.has r_dest .nil) (.f (.f (.f (.f (.f (.f (.p rfl .nil))))))) (glm_frustum_rh_zo_run _ _ _ _ _ _) (DT.val_done _) rfl rfl
example : let mem : Mem α := [⟨true, List.replicate 16 .undef⟩]
    Room mem (0, 0) 16 :=
  .block rfl rfl

theorem C56_perspective_rh_zo {mem : Mem α} {destP : Ptr} (fovy : α) (aspect : α) (nearZ : α) (farZ : α) (r_dest : Room mem destP 16) :
    C.glm_perspective_rh_zo.run mem [.f fovy, .f aspect, .f nearZ, .f farZ, destP.val] =
      some (none, writes mem [(destP, (Cglm.glm_perspective_rh_zo fovy aspect nearZ farZ).list.map .f)]) := by
  exact transferL ((R.nil _).addW r_dest.has r_dest .nil) (.f (.f (.f (.f (.p rfl .nil))))) (glm_perspective_rh_zo_run _ _ _ _) (DT.val_done _) rfl rfl
example : let mem : Mem α := [⟨true, List.replicate 16 .undef⟩]
    Room mem (0, 0) 16 :=
  .block rfl rfl

theorem C56_perspective_default_rh_zo {mem : Mem α} {destP : Ptr} (aspect : α) (r_dest : Room mem destP 16) :
    C.glm_perspective_default_rh_zo.run mem [.f aspect, destP.val] =
      some (none, writes mem [(destP, (Cglm.glm_perspective_default_rh_zo aspect).list.map .f)]) := by
  exact transferL ((R.nil _).addW r_dest.has r_dest .nil) (.f (.p rfl .nil)) (glm_perspective_default_rh_zo_run _) (DT.val_done _) rfl rfl
example : let mem : Mem α := [⟨true, List.replicate 16 .undef⟩]
    Room mem (0, 0) 16 :=
  .block rfl rfl

theorem C56_perspective_resize_rh_zo {mem : Mem α} {projP : Ptr} (aspect : α) {proj : M4 α} (h_proj : Holds mem projP proj.list) (r_proj : Room mem projP 16) :
    C.glm_perspective_resize_rh_zo.run mem [.f aspect, projP.val] =
      some (none, writes mem [(projP, (Cglm.glm_perspective_resize_rh_zo aspect proj).list.map .f)]) := by
  exact transferL ((R.nil _).addW h_proj.has r_proj .nil) (.f (.p rfl .nil)) (glm_perspective_resize_rh_zo_run _ _) (DT.val_map_eq (glm_perspective_resize_rh_zo_dt_val _ _) rfl) rfl rfl
example (proj : M4 α) : let mem : Mem α := [⟨true, proj.list.map .f⟩]
    Holds mem (0, 0) proj.list ∧ Room mem (0, 0) 16 :=
  ⟨.block rfl, .block rfl rfl⟩

theorem C56_persp_move_far_rh_zo {mem : Mem α} {projP : Ptr} {proj : M4 α} (deltaFar : α) (h_proj : Holds mem projP proj.list) (r_proj : Room mem projP 16) :
    C.glm_persp_move_far_rh_zo.run mem [projP.val, .f deltaFar] =
      some (none, writes mem [(projP, (Cglm.glm_persp_move_far_rh_zo proj deltaFar).list.map .f)]) := by
  exact transferL ((R.nil _).addW h_proj.has r_proj .nil) (.p rfl (.f .nil)) (glm_persp_move_far_rh_zo_run _ _) (DT.val_done _) rfl rfl
example (proj : M4 α) : let mem : Mem α := [⟨true, proj.list.map .f⟩]
    Holds mem (0, 0) proj.list ∧ Room mem (0, 0) 16 :=
  ⟨.block rfl, .block rfl rfl⟩

theorem C56_persp_decomp_rh_zo {mem : Mem α} {projP nearZP farZP topP bottomP leftP rightP : Ptr} {proj : M4 α} (h_proj : Holds mem projP proj.list) (r_nearZ : Room mem nearZP 1) (r_farZ : Room mem farZP 1) (r_top : Room mem topP 1) (r_bottom : Room mem bottomP 1) (r_left : Room mem leftP 1) (r_right : Room mem rightP 1) (s_proj_nearZ : Apart projP 16 nearZP 1) (s_proj_farZ : Apart projP 16 farZP 1) (s_proj_top : Apart projP 16 topP 1) (s_proj_bottom : Apart projP 16 bottomP 1) (s_proj_left : Apart projP 16 leftP 1) (s_proj_right : Apart projP 16 rightP 1) (s_nearZ_farZ : Apart nearZP 1 farZP 1) (s_nearZ_top : Apart nearZP 1 topP 1) (s_nearZ_bottom : Apart nearZP 1 bottomP 1) (s_nearZ_left : Apart nearZP 1 leftP 1) (s_nearZ_right : Apart nearZP 1 rightP 1) (s_farZ_top : Apart farZP 1 topP 1) (s_farZ_bottom : Apart farZP 1 bottomP 1) (s_farZ_left : Apart farZP 1 leftP 1) (s_farZ_right : Apart farZP 1 rightP 1) (s_top_bottom : Apart topP 1 bottomP 1) (s_top_left : Apart topP 1 leftP 1) (s_top_right : Apart topP 1 rightP 1) (s_bottom_left : Apart bottomP 1 leftP 1) (s_bottom_right : Apart bottomP 1 rightP 1) (s_left_right : Apart leftP 1 rightP 1) :
    C.glm_persp_decomp_rh_zo.run mem [projP.val, nearZP.val, farZP.val, topP.val, bottomP.val, leftP.val, rightP.val] =
      some (none, writes mem [(nearZP, [(Cglm.glm_persp_decomp_rh_zo proj).1].map .f), (farZP, [(Cglm.glm_persp_decomp_rh_zo proj).2.1].map .f), (topP, [(Cglm.glm_persp_decomp_rh_zo proj).2.2.1].map .f), (bottomP, [(Cglm.glm_persp_decomp_rh_zo proj).2.2.2.1].map .f), (leftP, [(Cglm.glm_persp_decomp_rh_zo proj).2.2.2.2.1].map .f), (rightP, [(Cglm.glm_persp_decomp_rh_zo proj).2.2.2.2.2].map .f)]) := by
  exact transferL ((((((((R.nil _).addW r_right.has r_right .nil).addW r_left.has r_left (.cons s_left_right .nil)).addW r_bottom.has r_bottom (.cons s_bottom_left (.cons s_bottom_right .nil))).addW r_top.has r_top (.cons s_top_bottom (.cons s_top_left (.cons s_top_right .nil)))).addW r_farZ.has r_farZ (.cons s_farZ_top (.cons s_farZ_bottom (.cons s_farZ_left (.cons s_farZ_right .nil))))).addW r_nearZ.has r_nearZ (.cons s_nearZ_farZ (.cons s_nearZ_top (.cons s_nearZ_bottom (.cons s_nearZ_left (.cons s_nearZ_right .nil)))))).addR h_proj.has (.cons s_proj_nearZ (.cons s_proj_farZ (.cons s_proj_top (.cons s_proj_bottom (.cons s_proj_left (.cons s_proj_right .nil))))))) (.p rfl (.p rfl (.p rfl (.p rfl (.p rfl (.p rfl (.p rfl .nil))))))) (glm_persp_decomp_rh_zo_run _) (DT.val_done _) rfl rfl
example (proj : M4 α) : let mem : Mem α := [⟨false, proj.list.map .f⟩, ⟨true, List.replicate 1 .undef⟩, ⟨true, List.replicate 1 .undef⟩, ⟨true, List.replicate 1 .undef⟩, ⟨true, List.replicate 1 .undef⟩, ⟨true, List.replicate 1 .undef⟩, ⟨true, List.replicate 1 .undef⟩]
    Holds mem (0, 0) proj.list ∧ Room mem (1, 0) 1 ∧ Room mem (2, 0) 1 ∧ Room mem (3, 0) 1 ∧ Room mem (4, 0) 1 ∧ Room mem (5, 0) 1 ∧ Room mem (6, 0) 1 ∧ Apart (0, 0) 16 (1, 0) 1 ∧ Apart (0, 0) 16 (2, 0) 1 ∧ Apart (0, 0) 16 (3, 0) 1 ∧ Apart (0, 0) 16 (4, 0) 1 ∧ Apart (0, 0) 16 (5, 0) 1 ∧ Apart (0, 0) 16 (6, 0) 1 ∧ Apart (1, 0) 1 (2, 0) 1 ∧ Apart (1, 0) 1 (3, 0) 1 ∧ Apart (1, 0) 1 (4, 0) 1 ∧ Apart (1, 0) 1 (5, 0) 1 ∧ Apart (1, 0) 1 (6, 0) 1 ∧ Apart (2, 0) 1 (3, 0) 1 ∧ Apart (2, 0) 1 (4, 0) 1 ∧ Apart (2, 0) 1 (5, 0) 1 ∧ Apart (2, 0) 1 (6, 0) 1 ∧ Apart (3, 0) 1 (4, 0) 1 ∧ Apart (3, 0) 1 (5, 0) 1 ∧ Apart (3, 0) 1 (6, 0) 1 ∧ Apart (4, 0) 1 (5, 0) 1 ∧ Apart (4, 0) 1 (6, 0) 1 ∧ Apart (5, 0) 1 (6, 0) 1 :=
  ⟨.block rfl, .block rfl rfl, .block rfl rfl, .block rfl rfl, .block rfl rfl, .block rfl rfl, .block rfl rfl, Or.inl (by decide), Or.inl (by decide), Or.inl (by decide), Or.inl (by decide), Or.inl (by decide), Or.inl (by decide), Or.inl (by decide), Or.inl (by decide), Or.inl (by decide), Or.inl (by decide), Or.inl (by decide), Or.inl (by decide), Or.inl (by decide), Or.inl (by decide), Or.inl (by decide), Or.inl (by decide), Or.inl (by decide), Or.inl (by decide), Or.inl (by decide), Or.inl (by decide), Or.inl (by decide)⟩

theorem C56_persp_decompv_rh_zo {mem : Mem α} {projP destP : Ptr} {proj : M4 α} (h_proj : Holds mem projP proj.list) (r_dest : Room mem destP 6) (s_proj_dest : Apart projP 16 destP 6) :
    C.glm_persp_decompv_rh_zo.run mem [projP.val, destP.val] =
      some (none, writes mem [(destP, (Cglm.glm_persp_decompv_rh_zo proj).list.map .f)]) := by
  exact transferL (((R.nil _).addW r_dest.has r_dest .nil).addR h_proj.has (.cons s_proj_dest .nil)) (.p rfl (.p rfl .nil)) (glm_persp_decompv_rh_zo_run _) (DT.val_done _) rfl rfl
example (proj : M4 α) : let mem : Mem α := [⟨false, proj.list.map .f⟩, ⟨true, List.replicate 6 .undef⟩]
    Holds mem (0, 0) proj.list ∧ Room mem (1, 0) 6 ∧ Apart (0, 0) 16 (1, 0) 6 :=
  ⟨.block rfl, .block rfl rfl, Or.inl (by decide)⟩

theorem C56_persp_decomp_x_rh_zo {mem : Mem α} {projP leftP rightP : Ptr} {proj : M4 α} (h_proj : Holds mem projP proj.list) (r_left : Room mem leftP 1) (r_right : Room mem rightP 1) (s_proj_left : Apart projP 16 leftP 1) (s_proj_right : Apart projP 16 rightP 1) (s_left_right : Apart leftP 1 rightP 1) :
    C.glm_persp_decomp_x_rh_zo.run mem [projP.val, leftP.val, rightP.val] =
      some (none, writes mem [(leftP, [(Cglm.glm_persp_decomp_x_rh_zo proj).1].map .f), (rightP, [(Cglm.glm_persp_decomp_x_rh_zo proj).2].map .f)]) := by
  exact transferL ((((R.nil _).addW r_right.has r_right .nil).addW r_left.has r_left (.cons s_left_right .nil)).addR h_proj.has (.cons s_proj_left (.cons s_proj_right .nil))) (.p rfl (.p rfl (.p rfl .nil))) (glm_persp_decomp_x_rh_zo_run _) (DT.val_done _) rfl rfl
example (proj : M4 α) : let mem : Mem α := [⟨false, proj.list.map .f⟩, ⟨true, List.replicate 1 .undef⟩, ⟨true, List.replicate 1 .undef⟩]
    Holds mem (0, 0) proj.list ∧ Room mem (1, 0) 1 ∧ Room mem (2, 0) 1 ∧ Apart (0, 0) 16 (1, 0) 1 ∧ Apart (0, 0) 16 (2, 0) 1 ∧ Apart (1, 0) 1 (2, 0) 1 :=
  ⟨.block rfl, .block rfl rfl, .block rfl rfl, Or.inl (by decide), Or.inl (by decide), Or.inl (by decide)⟩

theorem C56_persp_decomp_y_rh_zo {mem : Mem α} {projP topP bottomP : Ptr} {proj : M4 α} (h_proj : Holds mem projP proj.list) (r_top : Room mem topP 1) (r_bottom : Room mem bottomP 1) (s_proj_top : Apart projP 16 topP 1) (s_proj_bottom : Apart projP 16 bottomP 1) (s_top_bottom : Apart topP 1 bottomP 1) :
    C.glm_persp_decomp_y_rh_zo.run mem [projP.val, topP.val, bottomP.val] =
      some (none, writes mem [(topP, [(Cglm.glm_persp_decomp_y_rh_zo proj).1].map .f), (bottomP, [(Cglm.glm_persp_decomp_y_rh_zo proj).2].map .f)]) := by
  exact transferL ((((R.nil _).addW r_bottom.has r_bottom .nil).addW r_top.has r_top (.cons s_top_bottom .nil)).addR h_proj.has (.cons s_proj_top (.cons s_proj_bottom .nil))) (.p rfl (.p rfl (.p rfl .nil))) (glm_persp_decomp_y_rh_zo_run _) (DT.val_done _) rfl rfl
example (proj : M4 α) : let mem : Mem α := [⟨false, proj.list.map .f⟩, ⟨true, List.replicate 1 .undef⟩, ⟨true, List.replicate 1 .undef⟩]
    Holds mem (0, 0) proj.list ∧ Room mem (1, 0) 1 ∧ Room mem (2, 0) 1 ∧ Apart (0, 0) 16 (1, 0) 1 ∧ Apart (0, 0) 16 (2, 0) 1 ∧ Apart (1, 0) 1 (2, 0) 1 :=
  ⟨.block rfl, .block rfl rfl, .block rfl rfl, Or.inl (by decide), Or.inl (by decide), Or.inl (by decide)⟩

theorem C56_persp_decomp_z_rh_zo {mem : Mem α} {projP nearZP farZP : Ptr} {proj : M4 α} (h_proj : Holds mem projP proj.list) (r_nearZ : Room mem nearZP 1) (r_farZ : Room mem farZP 1) (s_proj_nearZ : Apart projP 16 nearZP 1) (s_proj_farZ : Apart projP 16 farZP 1) (s_nearZ_farZ : Apart nearZP 1 farZP 1) :
    C.glm_persp_decomp_z_rh_zo.run mem [projP.val, nearZP.val, farZP.val] =
      some (none, writes mem [(nearZP, [(Cglm.glm_persp_decomp_z_rh_zo proj).1].map .f), (farZP, [(Cglm.glm_persp_decomp_z_rh_zo proj).2].map .f)]) := by
  exact transferL ((((R.nil _).addW r_farZ.has r_farZ .nil).addW r_nearZ.has r_nearZ (.cons s_nearZ_farZ .nil)).addR h_proj.has (.cons s_proj_nearZ (.cons s_proj_farZ .nil))) (.p rfl (.p rfl (.p rfl .nil))) (glm_persp_decomp_z_rh_zo_run _) (DT.val_done _) rfl rfl
example (proj : M4 α) : let mem : Mem α := [⟨false, proj.list.map .f⟩, ⟨true, List.replicate 1 .undef⟩, ⟨true, List.replicate 1 .undef⟩]
    Holds mem (0, 0) proj.list ∧ Room mem (1, 0) 1 ∧ Room mem (2, 0) 1 ∧ Apart (0, 0) 16 (1, 0) 1 ∧ Apart (0, 0) 16 (2, 0) 1 ∧ Apart (1, 0) 1 (2, 0) 1 :=
  ⟨.block rfl, .block rfl rfl, .block rfl rfl, Or.inl (by decide), Or.inl (by decide), Or.inl (by decide)⟩

theorem C56_persp_decomp_far_rh_zo {mem : Mem α} {projP farZP : Ptr} {proj : M4 α} (h_proj : Holds mem projP proj.list) (r_farZ : Room mem farZP 1) (s_proj_farZ : Apart projP 16 farZP 1) :
    C.glm_persp_decomp_far_rh_zo.run mem [projP.val, farZP.val] =
      some (none, writes mem [(farZP, [(Cglm.glm_persp_decomp_far_rh_zo proj)].map .f)]) := by
  exact transferL (((R.nil _).addW r_farZ.has r_farZ .nil).addR h_proj.has (.cons s_proj_farZ .nil)) (.p rfl (.p rfl .nil)) (glm_persp_decomp_far_rh_zo_run _) (DT.val_done _) rfl rfl
example (proj : M4 α) : let mem : Mem α := [⟨false, proj.list.map .f⟩, ⟨true, List.replicate 1 .undef⟩]
    Holds mem (0, 0) proj.list ∧ Room mem (1, 0) 1 ∧ Apart (0, 0) 16 (1, 0) 1 :=
  ⟨.block rfl, .block rfl rfl, Or.inl (by decide)⟩

theorem C56_persp_decomp_near_rh_zo {mem : Mem α} {projP nearZP : Ptr} {proj : M4 α} (h_proj : Holds mem projP proj.list) (r_nearZ : Room mem nearZP 1) (s_proj_nearZ : Apart projP 16 nearZP 1) :
    C.glm_persp_decomp_near_rh_zo.run mem [projP.val, nearZP.val] =
      some (none, writes mem [(nearZP, [(Cglm.glm_persp_decomp_near_rh_zo proj)].map .f)]) := by
  exact transferL (((R.nil _).addW r_nearZ.has r_nearZ .nil).addR h_proj.has (.cons s_proj_nearZ .nil)) (.p rfl (.p rfl .nil)) (glm_persp_decomp_near_rh_zo_run _) (DT.val_done _) rfl rfl
example (proj : M4 α) : let mem : Mem α := [⟨false, proj.list.map .f⟩, ⟨true, List.replicate 1 .undef⟩]
    Holds mem (0, 0) proj.list ∧ Room mem (1, 0) 1 ∧ Apart (0, 0) 16 (1, 0) 1 :=
  ⟨.block rfl, .block rfl rfl, Or.inl (by decide)⟩

theorem C56_persp_sizes_rh_zo {mem : Mem α} {projP destP : Ptr} {proj : M4 α} (fovy : α) (h_proj : Holds mem projP proj.list) (r_dest : Room mem destP 4) (s_proj_dest : Apart projP 16 destP 4) :
    C.glm_persp_sizes_rh_zo.run mem [projP.val, .f fovy, destP.val] =
      some (none, writes mem [(destP, (Cglm.glm_persp_sizes_rh_zo proj fovy).list.map .f)]) := by
  exact transferL (((R.nil _).addW r_dest.has r_dest .nil).addR h_proj.has (.cons s_proj_dest .nil)) (.p rfl (.f (.p rfl .nil))) (glm_persp_sizes_rh_zo_run _ _) (DT.val_done _) rfl rfl
example (proj : M4 α) : let mem : Mem α := [⟨false, proj.list.map .f⟩, ⟨true, List.replicate 4 .undef⟩]
    Holds mem (0, 0) proj.list ∧ Room mem (1, 0) 4 ∧ Apart (0, 0) 16 (1, 0) 4 :=
  ⟨.block rfl, .block rfl rfl, Or.inl (by decide)⟩

theorem C56_persp_fovy_rh_zo {mem : Mem α} {projP : Ptr} {proj : M4 α} (h_proj : Holds mem projP proj.list) :
    C.glm_persp_fovy_rh_zo.run mem [projP.val] =
      some (some (.f (Cglm.glm_persp_fovy_rh_zo proj)), mem) := by
  exact transferL ((R.nil _).addR h_proj.has .nil) (.p rfl .nil) (glm_persp_fovy_rh_zo_run _) (DT.val_done _) rfl rfl
example (proj : M4 α) : let mem : Mem α := [⟨false, proj.list.map .f⟩]
    Holds mem (0, 0) proj.list :=
  .block rfl

theorem C56_persp_aspect_rh_zo {mem : Mem α} {projP : Ptr} {proj : M4 α} (h_proj : Holds mem projP proj.list) :
    C.glm_persp_aspect_rh_zo.run mem [projP.val] =
      some (some (.f (Cglm.glm_persp_aspect_rh_zo proj)), mem) := by
  exact transferL ((R.nil _).addR h_proj.has .nil) (.p rfl .nil) (glm_persp_aspect_rh_zo_run _) (DT.val_done _) rfl rfl
example (proj : M4 α) : let mem : Mem α := [⟨false, proj.list.map .f⟩]
    Holds mem (0, 0) proj.list :=
  .block rfl

end Cglm

end C56ClipspacePerspRhZo

section C56ClipspaceProjectNo

/-!
# C56: memory safety and framing (include/cglm/clipspace/project_no.h)

Called with initialised inputs and a writable destination that does not overlap them, the function is defined,
returns the value-level result and changes no memory but its destination.
-/

set_option linter.unusedVariables false
set_option linter.unusedSectionVars false

namespace Cglm
open CMem

variable {α : Type} [Add α] [Sub α] [Mul α] [Div α] [Neg α] [CFloat α]

theorem C56_unprojecti_no {mem : Mem α} {posP invMatP vpP destP : Ptr} {pos : V3 α} {invMat : M4 α} {vp : V4 α} (h_pos : Holds mem posP pos.list) (h_invMat : Holds mem invMatP invMat.list) (h_vp : Holds mem vpP vp.list) (r_dest : Room mem destP 3) (s_pos_dest : Apart posP 3 destP 3) (s_invMat_dest : Apart invMatP 16 destP 3) (s_vp_dest : Apart vpP 4 destP 3) :
    C.glm_unprojecti_no.run mem [posP.val, invMatP.val, vpP.val, destP.val] =
      some (none, writes mem [(destP, (Cglm.glm_unprojecti_no pos invMat vp).list.map .f)]) :=
  C55_unprojecti_no h_pos h_invMat h_vp r_dest (Or.inr s_pos_dest) s_invMat_dest s_vp_dest
example (pos : V3 α) (invMat : M4 α) (vp : V4 α) : let mem : Mem α := [⟨false, pos.list.map .f⟩, ⟨false, invMat.list.map .f⟩, ⟨false, vp.list.map .f⟩, ⟨true, List.replicate 3 .undef⟩]
    Holds mem (0, 0) pos.list ∧ Holds mem (1, 0) invMat.list ∧ Holds mem (2, 0) vp.list ∧ Room mem (3, 0) 3 ∧ Apart (0, 0) 3 (3, 0) 3 ∧ Apart (1, 0) 16 (3, 0) 3 ∧ Apart (2, 0) 4 (3, 0) 3 :=
  ⟨.block rfl, .block rfl, .block rfl, .block rfl rfl, Or.inl (by decide), Or.inl (by decide), Or.inl (by decide)⟩

theorem C56_project_no {mem : Mem α} {posP mP vpP destP : Ptr} {pos : V3 α} {m : M4 α} {vp : V4 α} (h_pos : Holds mem posP pos.list) (h_m : Holds mem mP m.list) (h_vp : Holds mem vpP vp.list) (r_dest : Room mem destP 3) (s_pos_dest : Apart posP 3 destP 3) (s_m_dest : Apart mP 16 destP 3) (s_vp_dest : Apart vpP 4 destP 3) :
    C.glm_project_no.run mem [posP.val, mP.val, vpP.val, destP.val] =
      some (none, writes mem [(destP, (Cglm.glm_project_no pos m vp).list.map .f)]) :=
  C55_project_no h_pos h_m h_vp r_dest (Or.inr s_pos_dest) s_m_dest s_vp_dest
example (pos : V3 α) (m : M4 α) (vp : V4 α) : let mem : Mem α := [⟨false, pos.list.map .f⟩, ⟨false, m.list.map .f⟩, ⟨false, vp.list.map .f⟩, ⟨true, List.replicate 3 .undef⟩]
    Holds mem (0, 0) pos.list ∧ Holds mem (1, 0) m.list ∧ Holds mem (2, 0) vp.list ∧ Room mem (3, 0) 3 ∧ Apart (0, 0) 3 (3, 0) 3 ∧ Apart (1, 0) 16 (3, 0) 3 ∧ Apart (2, 0) 4 (3, 0) 3 :=
  ⟨.block rfl, .block rfl, .block rfl, .block rfl rfl, Or.inl (by decide), Or.inl (by decide), Or.inl (by decide)⟩

theorem C56_project_z_no {mem : Mem α} {vP mP : Ptr} {v : V3 α} {m : M4 α} (h_v : Holds mem vP v.list) (h_m : Holds mem mP m.list) :
    C.glm_project_z_no.run mem [vP.val, mP.val] =
      some (some (.f (Cglm.glm_project_z_no v m)), mem) := by
  exact transferL (((R.nil _).addR h_m.has .nil).addR h_v.has (.skip .nil)) (.p rfl (.p rfl .nil)) (glm_project_z_no_run _ _) (DT.val_done _) rfl rfl
example (v : V3 α) (m : M4 α) : let mem : Mem α := [⟨false, v.list.map .f⟩, ⟨false, m.list.map .f⟩]
    Holds mem (0, 0) v.list ∧ Holds mem (1, 0) m.list :=
  ⟨.block rfl, .block rfl⟩

end Cglm

end C56ClipspaceProjectNo

section C56ClipspaceProjectZo

/-!
# C56: memory safety and framing (include/cglm/clipspace/project_zo.h)

Called with initialised inputs and a writable destination that does not overlap them, the function is defined,
returns the value-level result and changes no memory but its destination.
-/

set_option linter.unusedVariables false
set_option linter.unusedSectionVars false

namespace Cglm
open CMem

variable {α : Type} [Add α] [Sub α] [Mul α] [Div α] [Neg α] [CFloat α]

theorem C56_unprojecti_zo {mem : Mem α} {posP invMatP vpP destP : Ptr} {pos : V3 α} {invMat : M4 α} {vp : V4 α} (h_pos : Holds mem posP pos.list) (h_invMat : Holds mem invMatP invMat.list) (h_vp : Holds mem vpP vp.list) (r_dest : Room mem destP 3) (s_pos_dest : Apart posP 3 destP 3) (s_invMat_dest : Apart invMatP 16 destP 3) (s_vp_dest : Apart vpP 4 destP 3) :
    C.glm_unprojecti_zo.run mem [posP.val, invMatP.val, vpP.val, destP.val] =
      some (none, writes mem [(destP, (Cglm.glm_unprojecti_zo pos invMat vp).list.map .f)]) :=
  C55_unprojecti_zo h_pos h_invMat h_vp r_dest (Or.inr s_pos_dest) s_invMat_dest s_vp_dest
example (pos : V3 α) (invMat : M4 α) (vp : V4 α) : let mem : Mem α := [⟨false, pos.list.map .f⟩, ⟨false, invMat.list.map .f⟩, ⟨false, vp.list.map .f⟩, ⟨true, List.replicate 3 .undef⟩]
    Holds mem (0, 0) pos.list ∧ Holds mem (1, 0) invMat.list ∧ Holds mem (2, 0) vp.list ∧ Room mem (3, 0) 3 ∧ Apart (0, 0) 3 (3, 0) 3 ∧ Apart (1, 0) 16 (3, 0) 3 ∧ Apart (2, 0) 4 (3, 0) 3 :=
  ⟨.block rfl, .block rfl, .block rfl, .block rfl rfl, Or.inl (by decide), Or.inl (by decide), Or.inl (by decide)⟩

theorem C56_project_zo {mem : Mem α} {posP mP vpP destP : Ptr} {pos : V3 α} {m : M4 α} {vp : V4 α} (h_pos : Holds mem posP pos.list) (h_m : Holds mem mP m.list) (h_vp : Holds mem vpP vp.list) (r_dest : Room mem destP 3) (s_pos_dest : Apart posP 3 destP 3) (s_m_dest : Apart mP 16 destP 3) (s_vp_dest : Apart vpP 4 destP 3) :
    C.glm_project_zo.run mem [posP.val, mP.val, vpP.val, destP.val] =
      some (none, writes mem [(destP, (Cglm.glm_project_zo pos m vp).list.map .f)]) :=
  C55_project_zo h_pos h_m h_vp r_dest (Or.inr s_pos_dest) s_m_dest s_vp_dest
example (pos : V3 α) (m : M4 α) (vp : V4 α) : let mem : Mem α := [⟨false, pos.list.map .f⟩, ⟨false, m.list.map .f⟩, ⟨false, vp.list.map .f⟩, ⟨true, List.replicate 3 .undef⟩]
    Holds mem (0, 0) pos.list ∧ Holds mem (1, 0) m.list ∧ Holds mem (2, 0) vp.list ∧ Room mem (3, 0) 3 ∧ Apart (0, 0) 3 (3, 0) 3 ∧ Apart (1, 0) 16 (3, 0) 3 ∧ Apart (2, 0) 4 (3, 0) 3 :=
  ⟨.block rfl, .block rfl, .block rfl, .block rfl rfl, Or.inl (by decide), Or.inl (by decide), Or.inl (by decide)⟩

theorem C56_project_z_zo {mem : Mem α} {vP mP : Ptr} {v : V3 α} {m : M4 α} (h_v : Holds mem vP v.list) (h_m : Holds mem mP m.list) :
    C.glm_project_z_zo.run mem [vP.val, mP.val] =
      some (some (.f (Cglm.glm_project_z_zo v m)), mem) := by
  exact transferL (((R.nil _).addR h_m.has .nil).addR h_v.has (.skip .nil)) (.p rfl (.p rfl .nil)) (glm_project_z_zo_run _ _) (DT.val_done _) rfl rfl
example (v : V3 α) (m : M4 α) : let mem : Mem α := [⟨false, v.list.map .f⟩, ⟨false, m.list.map .f⟩]
    Holds mem (0, 0) v.list ∧ Holds mem (1, 0) m.list :=
  ⟨.block rfl, .block rfl⟩

end Cglm

end C56ClipspaceProjectZo

section C56ClipspaceViewLh

/-!
# C56: memory safety and framing (include/cglm/clipspace/view_lh.h)

Called with initialised inputs and a writable destination that does not overlap them, the function is defined,
returns the value-level result and changes no memory but its destination.
-/

set_option linter.unusedVariables false
set_option linter.unusedSectionVars false

namespace Cglm
open CMem

variable {α : Type} [Add α] [Sub α] [Mul α] [Div α] [Neg α] [CFloat α]

theorem C56_lookat_lh {mem : Mem α} {eyeP centerP upP destP : Ptr} {eye : V3 α} {center : V3 α} {up : V3 α} (h_eye : Holds mem eyeP eye.list) (h_center : Holds mem centerP center.list) (h_up : Holds mem upP up.list) (r_dest : Room mem destP 16) (s_eye_dest : Apart eyeP 3 destP 16) (s_center_dest : Apart centerP 3 destP 16) (s_up_dest : Apart upP 3 destP 16) :
    C.glm_lookat_lh.run mem [eyeP.val, centerP.val, upP.val, destP.val] =
      some (none, writes mem [(destP, (Cglm.glm_lookat_lh eye center up).list.map .f)]) := by
  exact transferL (((((R.nil _).addW r_dest.has r_dest .nil).addR h_up.has (.cons s_up_dest .nil)).addR h_center.has (.skip (.cons s_center_dest .nil))).addR h_eye.has (.skip (.skip (.cons s_eye_dest .nil)))) (.p rfl (.p rfl (.p rfl (.p rfl .nil)))) (glm_lookat_lh_run _ _ _) (DT.val_map_eq (glm_lookat_lh_dt_val _ _ _) rfl) rfl rfl
example (eye : V3 α) (center : V3 α) (up : V3 α) : let mem : Mem α := [⟨false, eye.list.map .f⟩, ⟨false, center.list.map .f⟩, ⟨false, up.list.map .f⟩, ⟨true, List.replicate 16 .undef⟩]
    Holds mem (0, 0) eye.list ∧ Holds mem (1, 0) center.list ∧ Holds mem (2, 0) up.list ∧ Room mem (3, 0) 16 ∧ Apart (0, 0) 3 (3, 0) 16 ∧ Apart (1, 0) 3 (3, 0) 16 ∧ Apart (2, 0) 3 (3, 0) 16 :=
  ⟨.block rfl, .block rfl, .block rfl, .block rfl rfl, Or.inl (by decide), Or.inl (by decide), Or.inl (by decide)⟩

theorem C56_look_lh {mem : Mem α} {eyeP dirP upP destP : Ptr} {eye : V3 α} {dir : V3 α} {up : V3 α} (h_eye : Holds mem eyeP eye.list) (h_dir : Holds mem dirP dir.list) (h_up : Holds mem upP up.list) (r_dest : Room mem destP 16) (s_eye_dest : Apart eyeP 3 destP 16) (s_dir_dest : Apart dirP 3 destP 16) (s_up_dest : Apart upP 3 destP 16) :
    C.glm_look_lh.run mem [eyeP.val, dirP.val, upP.val, destP.val] =
      some (none, writes mem [(destP, (Cglm.glm_look_lh eye dir up).list.map .f)]) := by
  exact transferL (((((R.nil _).addW r_dest.has r_dest .nil).addR h_up.has (.cons s_up_dest .nil)).addR h_dir.has (.skip (.cons s_dir_dest .nil))).addR h_eye.has (.skip (.skip (.cons s_eye_dest .nil)))) (.p rfl (.p rfl (.p rfl (.p rfl .nil)))) (glm_look_lh_run _ _ _) (DT.val_map_eq (glm_look_lh_dt_val _ _ _) rfl) rfl rfl
example (eye : V3 α) (dir : V3 α) (up : V3 α) : let mem : Mem α := [⟨false, eye.list.map .f⟩, ⟨false, dir.list.map .f⟩, ⟨false, up.list.map .f⟩, ⟨true, List.replicate 16 .undef⟩]
    Holds mem (0, 0) eye.list ∧ Holds mem (1, 0) dir.list ∧ Holds mem (2, 0) up.list ∧ Room mem (3, 0) 16 ∧ Apart (0, 0) 3 (3, 0) 16 ∧ Apart (1, 0) 3 (3, 0) 16 ∧ Apart (2, 0) 3 (3, 0) 16 :=
  ⟨.block rfl, .block rfl, .block rfl, .block rfl rfl, Or.inl (by decide), Or.inl (by decide), Or.inl (by decide)⟩

theorem C56_look_anyup_lh {mem : Mem α} {eyeP dirP destP : Ptr} {eye : V3 α} {dir : V3 α} (h_eye : Holds mem eyeP eye.list) (h_dir : Holds mem dirP dir.list) (r_dest : Room mem destP 16) (s_eye_dest : Apart eyeP 3 destP 16) (s_dir_dest : Apart dirP 3 destP 16) :
    C.glm_look_anyup_lh.run mem [eyeP.val, dirP.val, destP.val] =
      some (none, writes mem [(destP, (Cglm.glm_look_anyup_lh eye dir).list.map .f)]) := by
  exact transferL ((((R.nil _).addW r_dest.has r_dest .nil).addR h_dir.has (.cons s_dir_dest .nil)).addR h_eye.has (.skip (.cons s_eye_dest .nil))) (.p rfl (.p rfl (.p rfl .nil))) (glm_look_anyup_lh_run _ _) (DT.val_map_eq (glm_look_anyup_lh_dt_val _ _) rfl) rfl rfl
example (eye : V3 α) (dir : V3 α) : let mem : Mem α := [⟨false, eye.list.map .f⟩, ⟨false, dir.list.map .f⟩, ⟨true, List.replicate 16 .undef⟩]
    Holds mem (0, 0) eye.list ∧ Holds mem (1, 0) dir.list ∧ Room mem (2, 0) 16 ∧ Apart (0, 0) 3 (2, 0) 16 ∧ Apart (1, 0) 3 (2, 0) 16 :=
  ⟨.block rfl, .block rfl, .block rfl rfl, Or.inl (by decide), Or.inl (by decide)⟩

end Cglm

end C56ClipspaceViewLh

section C56ClipspaceViewLhNo

/-!
# C56: memory safety and framing (include/cglm/clipspace/view_lh_no.h)

Called with initialised inputs and a writable destination that does not overlap them, the function is defined,
returns the value-level result and changes no memory but its destination.
-/

set_option linter.unusedVariables false
set_option linter.unusedSectionVars false

namespace Cglm
open CMem

variable {α : Type} [Add α] [Sub α] [Mul α] [Div α] [Neg α] [CFloat α]

theorem C56_lookat_lh_no {mem : Mem α} {eyeP centerP upP destP : Ptr} {eye : V3 α} {center : V3 α} {up : V3 α} (h_eye : Holds mem eyeP eye.list) (h_center : Holds mem centerP center.list) (h_up : Holds mem upP up.list) (r_dest : Room mem destP 16) (s_eye_dest : Apart eyeP 3 destP 16) (s_center_dest : Apart centerP 3 destP 16) (s_up_dest : Apart upP 3 destP 16) :
    C.glm_lookat_lh_no.run mem [eyeP.val, centerP.val, upP.val, destP.val] =
      some (none, writes mem [(destP, (Cglm.glm_lookat_lh_no eye center up).list.map .f)]) := by
  exact transferL (((((R.nil _).addW r_dest.has r_dest .nil).addR h_up.has (.cons s_up_dest .nil)).addR h_center.has (.skip (.cons s_center_dest .nil))).addR h_eye.has (.skip (.skip (.cons s_eye_dest .nil)))) (.p rfl (.p rfl (.p rfl (.p rfl .nil)))) (glm_lookat_lh_no_run _ _ _) (DT.val_map_eq (glm_lookat_lh_no_dt_val _ _ _) rfl) rfl rfl
example (eye : V3 α) (center : V3 α) (up : V3 α) : let mem : Mem α := [⟨false, eye.list.map .f⟩, ⟨false, center.list.map .f⟩, ⟨false, up.list.map .f⟩, ⟨true, List.replicate 16 .undef⟩]
    Holds mem (0, 0) eye.list ∧ Holds mem (1, 0) center.list ∧ Holds mem (2, 0) up.list ∧ Room mem (3, 0) 16 ∧ Apart (0, 0) 3 (3, 0) 16 ∧ Apart (1, 0) 3 (3, 0) 16 ∧ Apart (2, 0) 3 (3, 0) 16 :=
  ⟨.block rfl, .block rfl, .block rfl, .block rfl rfl, Or.inl (by decide), Or.inl (by decide), Or.inl (by decide)⟩

theorem C56_look_lh_no {mem : Mem α} {eyeP dirP upP destP : Ptr} {eye : V3 α} {dir : V3 α} {up : V3 α} (h_eye : Holds mem eyeP eye.list) (h_dir : Holds mem dirP dir.list) (h_up : Holds mem upP up.list) (r_dest : Room mem destP 16) (s_eye_dest : Apart eyeP 3 destP 16) (s_dir_dest : Apart dirP 3 destP 16) (s_up_dest : Apart upP 3 destP 16) :
    C.glm_look_lh_no.run mem [eyeP.val, dirP.val, upP.val, destP.val] =
      some (none, writes mem [(destP, (Cglm.glm_look_lh_no eye dir up).list.map .f)]) := by
  exact transferL (((((R.nil _).addW r_dest.has r_dest .nil).addR h_up.has (.cons s_up_dest .nil)).addR h_dir.has (.skip (.cons s_dir_dest .nil))).addR h_eye.has (.skip (.skip (.cons s_eye_dest .nil)))) (.p rfl (.p rfl (.p rfl (.p rfl .nil)))) (glm_look_lh_no_run _ _ _) (DT.val_map_eq (glm_look_lh_no_dt_val _ _ _) rfl) rfl rfl
example (eye : V3 α) (dir : V3 α) (up : V3 α) : let mem : Mem α := [⟨false, eye.list.map .f⟩, ⟨false, dir.list.map .f⟩, ⟨false, up.list.map .f⟩, ⟨true, List.replicate 16 .undef⟩]
    Holds mem (0, 0) eye.list ∧ Holds mem (1, 0) dir.list ∧ Holds mem (2, 0) up.list ∧ Room mem (3, 0) 16 ∧ Apart (0, 0) 3 (3, 0) 16 ∧ Apart (1, 0) 3 (3, 0) 16 ∧ Apart (2, 0) 3 (3, 0) 16 :=
  ⟨.block rfl, .block rfl, .block rfl, .block rfl rfl, Or.inl (by decide), Or.inl (by decide), Or.inl (by decide)⟩

theorem C56_look_anyup_lh_no {mem : Mem α} {eyeP dirP destP : Ptr} {eye : V3 α} {dir : V3 α} (h_eye : Holds mem eyeP eye.list) (h_dir : Holds mem dirP dir.list) (r_dest : Room mem destP 16) (s_eye_dest : Apart eyeP 3 destP 16) (s_dir_dest : Apart dirP 3 destP 16) :
    C.glm_look_anyup_lh_no.run mem [eyeP.val, dirP.val, destP.val] =
      some (none, writes mem [(destP, (Cglm.glm_look_anyup_lh_no eye dir).list.map .f)]) := by
  exact transferL ((((R.nil _).addW r_dest.has r_dest .nil).addR h_dir.has (.cons s_dir_dest .nil)).addR h_eye.has (.skip (.cons s_eye_dest .nil))) (.p rfl (.p rfl (.p rfl .nil))) (glm_look_anyup_lh_no_run _ _) (DT.val_map_eq (glm_look_anyup_lh_no_dt_val _ _) rfl) rfl rfl
example (eye : V3 α) (dir : V3 α) : let mem : Mem α := [⟨false, eye.list.map .f⟩, ⟨false, dir.list.map .f⟩, ⟨true, List.replicate 16 .undef⟩]
    Holds mem (0, 0) eye.list ∧ Holds mem (1, 0) dir.list ∧ Room mem (2, 0) 16 ∧ Apart (0, 0) 3 (2, 0) 16 ∧ Apart (1, 0) 3 (2, 0) 16 :=
  ⟨.block rfl, .block rfl, .block rfl rfl, Or.inl (by decide), Or.inl (by decide)⟩

end Cglm

end C56ClipspaceViewLhNo

section C56ClipspaceViewLhZo

/-!
# C56: memory safety and framing (include/cglm/clipspace/view_lh_zo.h)

Called with initialised inputs and a writable destination that does not overlap them, the function is defined,
returns the value-level result and changes no memory but its destination.
-/

set_option linter.unusedVariables false
set_option linter.unusedSectionVars false

namespace Cglm
open CMem

variable {α : Type} [Add α] [Sub α] [Mul α] [Div α] [Neg α] [CFloat α]

theorem C56_lookat_lh_zo {mem : Mem α} {eyeP centerP upP destP : Ptr} {eye : V3 α} {center : V3 α} {up : V3 α} (h_eye : Holds mem eyeP eye.list) (h_center : Holds mem centerP center.list) (h_up : Holds mem upP up.list) (r_dest : Room mem destP 16) (s_eye_dest : Apart eyeP 3 destP 16) (s_center_dest : Apart centerP 3 destP 16) (s_up_dest : Apart upP 3 destP 16) :
    C.glm_lookat_lh_zo.run mem [eyeP.val, centerP.val, upP.val, destP.val] =
      some (none, writes mem [(destP, (Cglm.glm_lookat_lh_zo eye center up).list.map .f)]) := by
  exact transferL (((((R.nil _).addW r_dest.has r_dest .nil).addR h_up.has (.cons s_up_dest .nil)).addR h_center.has (.skip (.cons s_center_dest .nil))).addR h_eye.has (.skip (.skip (.cons s_eye_dest .nil)))) (.p rfl (.p rfl (.p rfl (.p rfl .nil)))) (glm_lookat_lh_zo_run _ _ _) (DT.val_map_eq (glm_lookat_lh_zo_dt_val _ _ _) rfl) rfl rfl
example (eye : V3 α) (center : V3 α) (up : V3 α) : let mem : Mem α := [⟨false, eye.list.map .f⟩, ⟨false, center.list.map .f⟩, ⟨false, up.list.map .f⟩, ⟨true, List.replicate 16 .undef⟩]
    Holds mem (0, 0) eye.list ∧ Holds mem (1, 0) center.list ∧ Holds mem (2, 0) up.list ∧ Room mem (3, 0) 16 ∧ Apart (0, 0) 3 (3, 0) 16 ∧ Apart (1, 0) 3 (3, 0) 16 ∧ Apart (2, 0) 3 (3, 0) 16 :=
  ⟨.block rfl, .block rfl, .block rfl, .block rfl rfl, Or.inl (by decide), Or.inl (by decide), Or.inl (by decide)⟩

theorem C56_look_lh_zo {mem : Mem α} {eyeP dirP upP destP : Ptr} {eye : V3 α} {dir : V3 α} {up : V3 α} (h_eye : Holds mem eyeP eye.list) (h_dir : Holds mem dirP dir.list) (h_up : Holds mem upP up.list) (r_dest : Room mem destP 16) (s_eye_dest : Apart eyeP 3 destP 16) (s_dir_dest : Apart dirP 3 destP 16) (s_up_dest : Apart upP 3 destP 16) :
    C.glm_look_lh_zo.run mem [eyeP.val, dirP.val, upP.val, destP.val] =
      some (none, writes mem [(destP, (Cglm.glm_look_lh_zo eye dir up).list.map .f)]) := by
  exact transferL (((((R.nil _).addW r_dest.has r_dest .nil).addR h_up.has (.cons s_up_dest .nil)).addR h_dir.has (.skip (.cons s_dir_dest .nil))).addR h_eye.has (.skip (.skip (.cons s_eye_dest .nil)))) (.p rfl (.p rfl (.p rfl (.p rfl .nil)))) (glm_look_lh_zo_run _ _ _) (DT.val_map_eq (glm_look_lh_zo_dt_val _ _ _) rfl) rfl rfl
example (eye : V3 α) (dir : V3 α) (up : V3 α) : let mem : Mem α := [⟨false, eye.list.map .f⟩, ⟨false, dir.list.map .f⟩, ⟨false, up.list.map .f⟩, ⟨true, List.replicate 16 .undef⟩]
    Holds mem (0, 0) eye.list ∧ Holds mem (1, 0) dir.list ∧ Holds mem (2, 0) up.list ∧ Room mem (3, 0) 16 ∧ Apart (0, 0) 3 (3, 0) 16 ∧ Apart (1, 0) 3 (3, 0) 16 ∧ Apart (2, 0) 3 (3, 0) 16 :=
  ⟨.block rfl, .block rfl, .block rfl, .block rfl rfl, Or.inl (by decide), Or.inl (by decide), Or.inl (by decide)⟩

theorem C56_look_anyup_lh_zo {mem : Mem α} {eyeP dirP destP : Ptr} {eye : V3 α} {dir : V3 α} (h_eye : Holds mem eyeP eye.list) (h_dir : Holds mem dirP dir.list) (r_dest : Room mem destP 16) (s_eye_dest : Apart eyeP 3 destP 16) (s_dir_dest : Apart dirP 3 destP 16) :
    C.glm_look_anyup_lh_zo.run mem [eyeP.val, dirP.val, destP.val] =
      some (none, writes mem [(destP, (Cglm.glm_look_anyup_lh_zo eye dir).list.map .f)]) := by
  exact transferL ((((R.nil _).addW r_dest.has r_dest .nil).addR h_dir.has (.cons s_dir_dest .nil)).addR h_eye.has (.skip (.cons s_eye_dest .nil))) (.p rfl (.p rfl (.p rfl .nil))) (glm_look_anyup_lh_zo_run _ _) (DT.val_map_eq (glm_look_anyup_lh_zo_dt_val _ _) rfl) rfl rfl
example (eye : V3 α) (dir : V3 α) : let mem : Mem α := [⟨false, eye.list.map .f⟩, ⟨false, dir.list.map .f⟩, ⟨true, List.replicate 16 .undef⟩]
    Holds mem (0, 0) eye.list ∧ Holds mem (1, 0) dir.list ∧ Room mem (2, 0) 16 ∧ Apart (0, 0) 3 (2, 0) 16 ∧ Apart (1, 0) 3 (2, 0) 16 :=
  ⟨.block rfl, .block rfl, .block rfl rfl, Or.inl (by decide), Or.inl (by decide)⟩

end Cglm

end C56ClipspaceViewLhZo

section C56ClipspaceViewRh

/-!
# C56: memory safety and framing (include/cglm/clipspace/view_rh.h)

Called with initialised inputs and a writable destination that does not overlap them, the function is defined,
returns the value-level result and changes no memory but its destination.
-/

set_option linter.unusedVariables false
set_option linter.unusedSectionVars false

namespace Cglm
open CMem

variable {α : Type} [Add α] [Sub α] [Mul α] [Div α] [Neg α] [CFloat α]

theorem C56_lookat_rh {mem : Mem α} {eyeP centerP upP destP : Ptr} {eye : V3 α} {center : V3 α} {up : V3 α} (h_eye : Holds mem eyeP eye.list) (h_center : Holds mem centerP center.list) (h_up : Holds mem upP up.list) (r_dest : Room mem destP 16) (s_eye_dest : Apart eyeP 3 destP 16) (s_center_dest : Apart centerP 3 destP 16) (s_up_dest : Apart upP 3 destP 16) :
    C.glm_lookat_rh.run mem [eyeP.val, centerP.val, upP.val, destP.val] =
      some (none, writes mem [(destP, (Cglm.glm_lookat_rh eye center up).list.map .f)]) := by
  exact transferL (((((R.nil _).addW r_dest.has r_dest .nil).addR h_up.has (.cons s_up_dest .nil)).addR h_center.has (.skip (.cons s_center_dest .nil))).addR h_eye.has (.skip (.skip (.cons s_eye_dest .nil)))) (.p rfl (.p rfl (.p rfl (.p rfl .nil)))) (glm_lookat_rh_run _ _ _) (DT.val_map_eq (glm_lookat_rh_dt_val _ _ _) rfl) rfl rfl
example (eye : V3 α) (center : V3 α) (up : V3 α) : let mem : Mem α := [⟨false, eye.list.map .f⟩, ⟨false, center.list.map .f⟩, ⟨false, up.list.map .f⟩, ⟨true, List.replicate 16 .undef⟩]
    Holds mem (0, 0) eye.list ∧ Holds mem (1, 0) center.list ∧ Holds mem (2, 0) up.list ∧ Room mem (3, 0) 16 ∧ Apart (0, 0) 3 (3, 0) 16 ∧ Apart (1, 0) 3 (3, 0) 16 ∧ Apart (2, 0) 3 (3, 0) 16 :=
  ⟨.block rfl, .block rfl, .block rfl, .block rfl rfl, Or.inl (by decide), Or.inl (by decide), Or.inl (by decide)⟩

theorem C56_look_rh {mem : Mem α} {eyeP dirP upP destP : Ptr} {eye : V3 α} {dir : V3 α} {up : V3 α} (h_eye : Holds mem eyeP eye.list) (h_dir : Holds mem dirP dir.list) (h_up : Holds mem upP up.list) (r_dest : Room mem destP 16) (s_eye_dest : Apart eyeP 3 destP 16) (s_dir_dest : Apart dirP 3 destP 16) (s_up_dest : Apart upP 3 destP 16) :
    C.glm_look_rh.run mem [eyeP.val, dirP.val, upP.val, destP.val] =
      some (none, writes mem [(destP, (Cglm.glm_look_rh eye dir up).list.map .f)]) := by
  exact transferL (((((R.nil _).addW r_dest.has r_dest .nil).addR h_up.has (.cons s_up_dest .nil)).addR h_dir.has (.skip (.cons s_dir_dest .nil))).addR h_eye.has (.skip (.skip (.cons s_eye_dest .nil)))) (.p rfl (.p rfl (.p rfl (.p rfl .nil)))) (glm_look_rh_run _ _ _) (DT.val_map_eq (glm_look_rh_dt_val _ _ _) rfl) rfl rfl
example (eye : V3 α) (dir : V3 α) (up : V3 α) : let mem : Mem α := [⟨false, eye.list.map .f⟩, ⟨false, dir.list.map .f⟩, ⟨false, up.list.map .f⟩, ⟨true, List.replicate 16 .undef⟩]
    Holds mem (0, 0) eye.list ∧ Holds mem (1, 0) dir.list ∧ Holds mem (2, 0) up.list ∧ Room mem (3, 0) 16 ∧ Apart (0, 0) 3 (3, 0) 16 ∧ Apart (1, 0) 3 (3, 0) 16 ∧ Apart (2, 0) 3 (3, 0) 16 :=
  ⟨.block rfl, .block rfl, .block rfl, .block rfl rfl, Or.inl (by decide), Or.inl (by decide), Or.inl (by decide)⟩

theorem C56_look_anyup_rh {mem : Mem α} {eyeP dirP destP : Ptr} {eye : V3 α} {dir : V3 α} (h_eye : Holds mem eyeP eye.list) (h_dir : Holds mem dirP dir.list) (r_dest : Room mem destP 16) (s_eye_dest : Apart eyeP 3 destP 16) (s_dir_dest : Apart dirP 3 destP 16) :
    C.glm_look_anyup_rh.run mem [eyeP.val, dirP.val, destP.val] =
      some (none, writes mem [(destP, (Cglm.glm_look_anyup_rh eye dir).list.map .f)]) := by
  exact transferL ((((R.nil _).addW r_dest.has r_dest .nil).addR h_dir.has (.cons s_dir_dest .nil)).addR h_eye.has (.skip (.cons s_eye_dest .nil))) (.p rfl (.p rfl (.p rfl .nil))) (glm_look_anyup_rh_run _ _) (DT.val_map_eq (glm_look_anyup_rh_dt_val _ _) rfl) rfl rfl
example (eye : V3 α) (dir : V3 α) : let mem : Mem α := [⟨false, eye.list.map .f⟩, ⟨false, dir.list.map .f⟩, ⟨true, List.replicate 16 .undef⟩]
    Holds mem (0, 0) eye.list ∧ Holds mem (1, 0) dir.list ∧ Room mem (2, 0) 16 ∧ Apart (0, 0) 3 (2, 0) 16 ∧ Apart (1, 0) 3 (2, 0) 16 :=
  ⟨.block rfl, .block rfl, .block rfl rfl, Or.inl (by decide), Or.inl (by decide)⟩

end Cglm

end C56ClipspaceViewRh

section C56ClipspaceViewRhNo

/-!
# C56: memory safety and framing (include/cglm/clipspace/view_rh_no.h)

Called with initialised inputs and a writable destination that does not overlap them, the function is defined,
returns the value-level result and changes no memory but its destination.
-/

set_option linter.unusedVariables false
set_option linter.unusedSectionVars false

namespace Cglm
open CMem

variable {α : Type} [Add α] [Sub α] [Mul α] [Div α] [Neg α] [CFloat α]

theorem C56_lookat_rh_no {mem : Mem α} {eyeP centerP upP destP : Ptr} {eye : V3 α} {center : V3 α} {up : V3 α} (h_eye : Holds mem eyeP eye.list) (h_center : Holds mem centerP center.list) (h_up : Holds mem upP up.list) (r_dest : Room mem destP 16) (s_eye_dest : Apart eyeP 3 destP 16) (s_center_dest : Apart centerP 3 destP 16) (s_up_dest : Apart upP 3 destP 16) :
    C.glm_lookat_rh_no.run mem [eyeP.val, centerP.val, upP.val, destP.val] =
      some (none, writes mem [(destP, (Cglm.glm_lookat_rh_no eye center up).list.map .f)]) := by
  exact transferL (((((R.nil _).addW r_dest.has r_dest .nil).addR h_up.has (.cons s_up_dest .nil)).addR h_center.has (.skip (.cons s_center_dest .nil))).addR h_eye.has (.skip (.skip (.cons s_eye_dest .nil)))) (.p rfl (.p rfl (.p rfl (.p rfl .nil)))) (glm_lookat_rh_no_run _ _ _) (DT.val_map_eq (glm_lookat_rh_no_dt_val _ _ _) rfl) rfl rfl
example (eye : V3 α) (center : V3 α) (up : V3 α) : let mem : Mem α := [⟨false, eye.list.map .f⟩, ⟨false, center.list.map .f⟩, ⟨false, up.list.map .f⟩, ⟨true, List.replicate 16 .undef⟩]
    Holds mem (0, 0) eye.list ∧ Holds mem (1, 0) center.list ∧ Holds mem (2, 0) up.list ∧ Room mem (3, 0) 16 ∧ Apart (0, 0) 3 (3, 0) 16 ∧ Apart (1, 0) 3 (3, 0) 16 ∧ Apart (2, 0) 3 (3, 0) 16 :=
  ⟨.block rfl, .block rfl, .block rfl, .block rfl rfl, Or.inl (by decide), Or.inl (by decide), Or.inl (by decide)⟩

theorem C56_look_rh_no {mem : Mem α} {eyeP dirP upP destP : Ptr} {eye : V3 α} {dir : V3 α} {up : V3 α} (h_eye : Holds mem eyeP eye.list) (h_dir : Holds mem dirP dir.list) (h_up : Holds mem upP up.list) (r_dest : Room mem destP 16) (s_eye_dest : Apart eyeP 3 destP 16) (s_dir_dest : Apart dirP 3 destP 16) (s_up_dest : Apart upP 3 destP 16) :
    C.glm_look_rh_no.run mem [eyeP.val, dirP.val, upP.val, destP.val] =
      some (none, writes mem [(destP, (Cglm.glm_look_rh_no eye dir up).list.map .f)]) := by
  exact transferL (((((R.nil _).addW r_dest.has r_dest .nil).addR h_up.has (.cons s_up_dest .nil)).addR h_dir.has (.skip (.cons s_dir_dest .nil))).addR h_eye.has (.skip (.skip (.cons s_eye_dest .nil)))) (.p rfl (.p rfl (.p rfl (.p rfl .nil)))) (glm_look_rh_no_run _ _ _) (DT.val_map_eq (glm_look_rh_no_dt_val _ _ _) rfl) rfl rfl
example (eye : V3 α) (dir : V3 α) (up : V3 α) : let mem : Mem α := [⟨false, eye.list.map .f⟩, ⟨false, dir.list.map .f⟩, ⟨false, up.list.map .f⟩, ⟨true, List.replicate 16 .undef⟩]
    Holds mem (0, 0) eye.list ∧ Holds mem (1, 0) dir.list ∧ Holds mem (2, 0) up.list ∧ Room mem (3, 0) 16 ∧ Apart (0, 0) 3 (3, 0) 16 ∧ Apart (1, 0) 3 (3, 0) 16 ∧ Apart (2, 0) 3 (3, 0) 16 :=
  ⟨.block rfl, .block rfl, .block rfl, .block rfl rfl, Or.inl (by decide), Or.inl (by decide), Or.inl (by decide)⟩

theorem C56_look_anyup_rh_no {mem : Mem α} {eyeP dirP destP : Ptr} {eye : V3 α} {dir : V3 α} (h_eye : Holds mem eyeP eye.list) (h_dir : Holds mem dirP dir.list) (r_dest : Room mem destP 16) (s_eye_dest : Apart eyeP 3 destP 16) (s_dir_dest : Apart dirP 3 destP 16) :
    C.glm_look_anyup_rh_no.run mem [eyeP.val, dirP.val, destP.val] =
      some (none, writes mem [(destP, (Cglm.glm_look_anyup_rh_no eye dir).list.map .f)]) := by
  exact transferL ((((R.nil _).addW r_dest.has r_dest .nil).addR h_dir.has (.cons s_dir_dest .nil)).addR h_eye.has (.skip (.cons s_eye_dest .nil))) (.p rfl (.p rfl (.p rfl .nil))) (glm_look_anyup_rh_no_run _ _) (DT.val_map_eq (glm_look_anyup_rh_no_dt_val _ _) rfl) rfl rfl
example (eye : V3 α) (dir : V3 α) : let mem : Mem α := [⟨false, eye.list.map .f⟩, ⟨false, dir.list.map .f⟩, ⟨true, List.replicate 16 .undef⟩]
    Holds mem (0, 0) eye.list ∧ Holds mem (1, 0) dir.list ∧ Room mem (2, 0) 16 ∧ Apart (0, 0) 3 (2, 0) 16 ∧ Apart (1, 0) 3 (2, 0) 16 :=
  ⟨.block rfl, .block rfl, .block rfl rfl, Or.inl (by decide), Or.inl (by decide)⟩

end Cglm

end C56ClipspaceViewRhNo

section C56ClipspaceViewRhZo

/-!
# C56: memory safety and framing (include/cglm/clipspace/view_rh_zo.h)

Called with initialised inputs and a writable destination that does not overlap them, the function is defined,
returns the value-level result and changes no memory but its destination.
-/

set_option linter.unusedVariables false
set_option linter.unusedSectionVars false

namespace Cglm
open CMem

variable {α : Type} [Add α] [Sub α] [Mul α] [Div α] [Neg α] [CFloat α]

theorem C56_lookat_rh_zo {mem : Mem α} {eyeP centerP upP destP : Ptr} {eye : V3 α} {center : V3 α} {up : V3 α} (h_eye : Holds mem eyeP eye.list) (h_center : Holds mem centerP center.list) (h_up : Holds mem upP up.list) (r_dest : Room mem destP 16) (s_eye_dest : Apart eyeP 3 destP 16) (s_center_dest : Apart centerP 3 destP 16) (s_up_dest : Apart upP 3 destP 16) :
    C.glm_lookat_rh_zo.run mem [eyeP.val, centerP.val, upP.val, destP.val] =
      some (none, writes mem [(destP, (Cglm.glm_lookat_rh_zo eye center up).list.map .f)]) := by
  exact transferL (((((R.nil _).addW r_dest.has r_dest .nil).addR h_up.has (.cons s_up_dest .nil)).addR h_center.has (.skip (.cons s_center_dest .nil))).addR h_eye.has (.skip (.skip (.cons s_eye_dest .nil)))) (.p rfl (.p rfl (.p rfl (.p rfl .nil)))) (glm_lookat_rh_zo_run _ _ _) (DT.val_map_eq (glm_lookat_rh_zo_dt_val _ _ _) rfl) rfl rfl
example (eye : V3 α) (center : V3 α) (up : V3 α) : let mem : Mem α := [⟨false, eye.list.map .f⟩, ⟨false, center.list.map .f⟩, ⟨false, up.list.map .f⟩, ⟨true, List.replicate 16 .undef⟩]
    Holds mem (0, 0) eye.list ∧ Holds mem (1, 0) center.list ∧ Holds mem (2, 0) up.list ∧ Room mem (3, 0) 16 ∧ Apart (0, 0) 3 (3, 0) 16 ∧ Apart (1, 0) 3 (3, 0) 16 ∧ Apart (2, 0) 3 (3, 0) 16 :=
  ⟨.block rfl, .block rfl, .block rfl, .block rfl rfl, Or.inl (by decide), Or.inl (by decide), Or.inl (by decide)⟩

theorem C56_look_rh_zo {mem : Mem α} {eyeP dirP upP destP : Ptr} {eye : V3 α} {dir : V3 α} {up : V3 α} (h_eye : Holds mem eyeP eye.list) (h_dir : Holds mem dirP dir.list) (h_up : Holds mem upP up.list) (r_dest : Room mem destP 16) (s_eye_dest : Apart eyeP 3 destP 16) (s_dir_dest : Apart dirP 3 destP 16) (s_up_dest : Apart upP 3 destP 16) :
    C.glm_look_rh_zo.run mem [eyeP.val, dirP.val, upP.val, destP.val] =
      some (none, writes mem [(destP, (Cglm.glm_look_rh_zo eye dir up).list.map .f)]) := by
  exact transferL (((((R.nil _).addW r_dest.has r_dest .nil).addR h_up.has (.cons s_up_dest .nil)).addR h_dir.has (.skip (.cons s_dir_dest .nil))).addR h_eye.has (.skip (.skip (.cons s_eye_dest .nil)))) (.p rfl (.p rfl (.p rfl (.p rfl .nil)))) (glm_look_rh_zo_run _ _ _) (DT.val_map_eq (glm_look_rh_zo_dt_val _ _ _) rfl) rfl rfl
example (eye : V3 α) (dir : V3 α) (up : V3 α) : let mem : Mem α := [⟨false, eye.list.map .f⟩, ⟨false, dir.list.map .f⟩, ⟨false, up.list.map .f⟩, ⟨true, List.replicate 16 .undef⟩]
    Holds mem (0, 0) eye.list ∧ Holds mem (1, 0) dir.list ∧ Holds mem (2, 0) up.list ∧ Room mem (3, 0) 16 ∧ Apart (0, 0) 3 (3, 0) 16 ∧ Apart (1, 0) 3 (3, 0) 16 ∧ Apart (2, 0) 3 (3, 0) 16 :=
  ⟨.block rfl, .block rfl, .block rfl, .block rfl rfl, Or.inl (by decide), Or.inl (by decide), Or.inl (by decide)⟩

theorem C56_look_anyup_rh_zo {mem : Mem α} {eyeP dirP destP : Ptr} {eye : V3 α} {dir : V3 α} (h_eye : Holds mem eyeP eye.list) (h_dir : Holds mem dirP dir.list) (r_dest : Room mem destP 16) (s_eye_dest : Apart eyeP 3 destP 16) (s_dir_dest : Apart dirP 3 destP 16) :
    C.glm_look_anyup_rh_zo.run mem [eyeP.val, dirP.val, destP.val] =
      some (none, writes mem [(destP, (Cglm.glm_look_anyup_rh_zo eye dir).list.map .f)]) := by
  exact transferL ((((R.nil _).addW r_dest.has r_dest .nil).addR h_dir.has (.cons s_dir_dest .nil)).addR h_eye.has (.skip (.cons s_eye_dest .nil))) (.p rfl (.p rfl (.p rfl .nil))) (glm_look_anyup_rh_zo_run _ _) (DT.val_map_eq (glm_look_anyup_rh_zo_dt_val _ _) rfl) rfl rfl
example (eye : V3 α) (dir : V3 α) : let mem : Mem α := [⟨false, eye.list.map .f⟩, ⟨false, dir.list.map .f⟩, ⟨true, List.replicate 16 .undef⟩]
    Holds mem (0, 0) eye.list ∧ Holds mem (1, 0) dir.list ∧ Room mem (2, 0) 16 ∧ Apart (0, 0) 3 (2, 0) 16 ∧ Apart (1, 0) 3 (2, 0) 16 :=
  ⟨.block rfl, .block rfl, .block rfl rfl, Or.inl (by decide), Or.inl (by decide)⟩

end Cglm

end C56ClipspaceViewRhZo

section C56Project

/-!
# C56: memory safety and framing (include/cglm/project.h)

Called with initialised inputs and a writable destination that does not overlap them, the function is defined,
returns the value-level result and changes no memory but its destination.
-/

set_option linter.unusedVariables false
set_option linter.unusedSectionVars false

namespace Cglm
open CMem

variable {α : Type} [Add α] [Sub α] [Mul α] [Div α] [Neg α] [CFloat α]

theorem C56_unprojecti {mem : Mem α} {posP invMatP vpP destP : Ptr} {pos : V3 α} {invMat : M4 α} {vp : V4 α} (h_pos : Holds mem posP pos.list) (h_invMat : Holds mem invMatP invMat.list) (h_vp : Holds mem vpP vp.list) (r_dest : Room mem destP 3) (s_pos_dest : Apart posP 3 destP 3) (s_invMat_dest : Apart invMatP 16 destP 3) (s_vp_dest : Apart vpP 4 destP 3) :
    C.glm_unprojecti.run mem [posP.val, invMatP.val, vpP.val, destP.val] =
      some (none, writes mem [(destP, (Cglm.glm_unprojecti pos invMat vp).list.map .f)]) :=
  C55_unprojecti h_pos h_invMat h_vp r_dest (Or.inr s_pos_dest) s_invMat_dest s_vp_dest
example (pos : V3 α) (invMat : M4 α) (vp : V4 α) : let mem : Mem α := [⟨false, pos.list.map .f⟩, ⟨false, invMat.list.map .f⟩, ⟨false, vp.list.map .f⟩, ⟨true, List.replicate 3 .undef⟩]
    Holds mem (0, 0) pos.list ∧ Holds mem (1, 0) invMat.list ∧ Holds mem (2, 0) vp.list ∧ Room mem (3, 0) 3 ∧ Apart (0, 0) 3 (3, 0) 3 ∧ Apart (1, 0) 16 (3, 0) 3 ∧ Apart (2, 0) 4 (3, 0) 3 :=
  ⟨.block rfl, .block rfl, .block rfl, .block rfl rfl, Or.inl (by decide), Or.inl (by decide), Or.inl (by decide)⟩

theorem C56_unproject {mem : Mem α} {posP mP vpP destP : Ptr} {pos : V3 α} {m : M4 α} {vp : V4 α} (h_pos : Holds mem posP pos.list) (h_m : Holds mem mP m.list) (h_vp : Holds mem vpP vp.list) (r_dest : Room mem destP 3) (s_pos_dest : Apart posP 3 destP 3) (s_m_dest : Apart mP 16 destP 3) (s_vp_dest : Apart vpP 4 destP 3) :
    C.glm_unproject.run mem [posP.val, mP.val, vpP.val, destP.val] =
      some (none, writes mem [(destP, (Cglm.glm_unproject pos m vp).list.map .f)]) :=
  C55_unproject h_pos h_m h_vp r_dest (Or.inr s_pos_dest) s_m_dest s_vp_dest
example (pos : V3 α) (m : M4 α) (vp : V4 α) : let mem : Mem α := [⟨false, pos.list.map .f⟩, ⟨false, m.list.map .f⟩, ⟨false, vp.list.map .f⟩, ⟨true, List.replicate 3 .undef⟩]
    Holds mem (0, 0) pos.list ∧ Holds mem (1, 0) m.list ∧ Holds mem (2, 0) vp.list ∧ Room mem (3, 0) 3 ∧ Apart (0, 0) 3 (3, 0) 3 ∧ Apart (1, 0) 16 (3, 0) 3 ∧ Apart (2, 0) 4 (3, 0) 3 :=
  ⟨.block rfl, .block rfl, .block rfl, .block rfl rfl, Or.inl (by decide), Or.inl (by decide), Or.inl (by decide)⟩

theorem C56_project {mem : Mem α} {posP mP vpP destP : Ptr} {pos : V3 α} {m : M4 α} {vp : V4 α} (h_pos : Holds mem posP pos.list) (h_m : Holds mem mP m.list) (h_vp : Holds mem vpP vp.list) (r_dest : Room mem destP 3) (s_pos_dest : Apart posP 3 destP 3) (s_m_dest : Apart mP 16 destP 3) (s_vp_dest : Apart vpP 4 destP 3) :
    C.glm_project.run mem [posP.val, mP.val, vpP.val, destP.val] =
      some (none, writes mem [(destP, (Cglm.glm_project pos m vp).list.map .f)]) :=
  C55_project h_pos h_m h_vp r_dest (Or.inr s_pos_dest) s_m_dest s_vp_dest
example (pos : V3 α) (m : M4 α) (vp : V4 α) : let mem : Mem α := [⟨false, pos.list.map .f⟩, ⟨false, m.list.map .f⟩, ⟨false, vp.list.map .f⟩, ⟨true, List.replicate 3 .undef⟩]
    Holds mem (0, 0) pos.list ∧ Holds mem (1, 0) m.list ∧ Holds mem (2, 0) vp.list ∧ Room mem (3, 0) 3 ∧ Apart (0, 0) 3 (3, 0) 3 ∧ Apart (1, 0) 16 (3, 0) 3 ∧ Apart (2, 0) 4 (3, 0) 3 :=
  ⟨.block rfl, .block rfl, .block rfl, .block rfl rfl, Or.inl (by decide), Or.inl (by decide), Or.inl (by decide)⟩

theorem C56_project_z {mem : Mem α} {vP mP : Ptr} {v : V3 α} {m : M4 α} (h_v : Holds mem vP v.list) (h_m : Holds mem mP m.list) :
    C.glm_project_z.run mem [vP.val, mP.val] =
      some (some (.f (Cglm.glm_project_z v m)), mem) := by
  exact transferL (((R.nil _).addR h_m.has .nil).addR h_v.has (.skip .nil)) (.p rfl (.p rfl .nil)) (glm_project_z_run _ _) (DT.val_done _) rfl rfl
example (v : V3 α) (m : M4 α) : let mem : Mem α := [⟨false, v.list.map .f⟩, ⟨false, m.list.map .f⟩]
    Holds mem (0, 0) v.list ∧ Holds mem (1, 0) m.list :=
  ⟨.block rfl, .block rfl⟩

theorem C56_pickmatrix {mem : Mem α} {centerP sizeP vpP destP : Ptr} {center : V2 α} {size : V2 α} {vp : V4 α} {dest : M4 α} (h_center : Holds mem centerP center.list) (h_size : Holds mem sizeP size.list) (h_vp : Holds mem vpP vp.list) (h_dest : Holds mem destP dest.list) (r_dest : Room mem destP 16) (s_center_dest : Apart centerP 2 destP 16) (s_size_dest : Apart sizeP 2 destP 16) (s_vp_dest : Apart vpP 4 destP 16) :
    C.glm_pickmatrix.run mem [centerP.val, sizeP.val, vpP.val, destP.val] =
      some (none, writes mem [(destP, (Cglm.glm_pickmatrix center size vp dest).list.map .f)]) := by
  exact transferL (((((R.nil _).addW h_dest.has r_dest .nil).addR h_vp.has (.cons s_vp_dest .nil)).addR h_size.has (.skip (.cons s_size_dest .nil))).addR h_center.has (.skip (.skip (.cons s_center_dest .nil)))) (.p rfl (.p rfl (.p rfl (.p rfl .nil)))) (glm_pickmatrix_run _ _ _ _) (DT.val_map_eq (glm_pickmatrix_dt_val _ _ _ _) rfl) rfl rfl
example (center : V2 α) (size : V2 α) (vp : V4 α) (dest : M4 α) : let mem : Mem α := [⟨false, center.list.map .f⟩, ⟨false, size.list.map .f⟩, ⟨false, vp.list.map .f⟩, ⟨true, dest.list.map .f⟩]
    Holds mem (0, 0) center.list ∧ Holds mem (1, 0) size.list ∧ Holds mem (2, 0) vp.list ∧ Holds mem (3, 0) dest.list ∧ Room mem (3, 0) 16 ∧ Apart (0, 0) 2 (3, 0) 16 ∧ Apart (1, 0) 2 (3, 0) 16 ∧ Apart (2, 0) 4 (3, 0) 16 :=
  ⟨.block rfl, .block rfl, .block rfl, .block rfl, .block rfl rfl, Or.inl (by decide), Or.inl (by decide), Or.inl (by decide)⟩

end Cglm

end C56Project
