/- Generated by tools/memgen.py, joined by tools/merge.py; do not edit by hand. -/
import Verif.Props.C55Mats

section C56Mat2

/-!
# C56: memory safety and framing (include/cglm/mat2.h)

Called with initialised inputs and a writable destination that does not overlap them, the function is defined,
returns the value-level result and changes no memory but its destination.
-/

set_option linter.unusedVariables false
set_option linter.unusedSectionVars false

namespace Cglm
open CMem

variable {α : Type} [Add α] [Sub α] [Mul α] [Div α] [Neg α] [CFloat α]

theorem C56_mat2_make {mem : Mem α} {srcP destP : Ptr} {src : V4 α} (h_src : Holds mem srcP src.list) (r_dest : Room mem destP 4) (s_src_dest : Apart srcP 4 destP 4) :
    C.glm_mat2_make.run mem [srcP.val, destP.val] =
      some (none, writes mem [(destP, (Cglm.glm_mat2_make src).list.map .f)]) := by
  exact transferL (((R.nil _).addW r_dest.has r_dest .nil).addR h_src.has (.cons s_src_dest .nil)) (.p rfl (.p rfl .nil)) (glm_mat2_make_run _) (DT.val_done _) rfl rfl
example (src : V4 α) : let mem : Mem α := [⟨false, src.list.map .f⟩, ⟨true, List.replicate 4 .undef⟩]
    Holds mem (0, 0) src.list ∧ Room mem (1, 0) 4 ∧ Apart (0, 0) 4 (1, 0) 4 :=
  ⟨.block rfl, .block rfl rfl, Or.inl (by decide)⟩

theorem C56_mat2_copy {mem : Mem α} {matP destP : Ptr} {mat : M2 α} (h_mat : Holds mem matP mat.list) (r_dest : Room mem destP 4) (s_mat_dest : Apart matP 4 destP 4) :
    C.glm_mat2_copy.run mem [matP.val, destP.val] =
      some (none, writes mem [(destP, (Cglm.glm_mat2_copy mat).list.map .f)]) :=
  C55_mat2_copy h_mat r_dest (Or.inr s_mat_dest)
example (mat : M2 α) : let mem : Mem α := [⟨false, mat.list.map .f⟩, ⟨true, List.replicate 4 .undef⟩]
    Holds mem (0, 0) mat.list ∧ Room mem (1, 0) 4 ∧ Apart (0, 0) 4 (1, 0) 4 :=
  ⟨.block rfl, .block rfl rfl, Or.inl (by decide)⟩

theorem C56_mat2_identity {mem : Mem α} {mP : Ptr} (r_m : Room mem mP 4) :
    C.glm_mat2_identity.run mem [mP.val] =
      some (none, writes mem [(mP, (Cglm.glm_mat2_identity).list.map .f)]) := by
  exact transferL ((R.nil _).addW r_m.has r_m .nil) (.p rfl .nil) (glm_mat2_identity_run) (DT.val_done _) rfl rfl
example : let mem : Mem α := [⟨true, List.replicate 4 .undef⟩]
    Room mem (0, 0) 4 :=
  .block rfl rfl

theorem C56_mat2_zero {mem : Mem α} {mP : Ptr} (r_m : Room mem mP 4) :
    C.glm_mat2_zero.run mem [mP.val] =
      some (none, writes mem [(mP, (Cglm.glm_mat2_zero).list.map .f)]) := by
  exact transferL ((R.nil _).addW r_m.has r_m .nil) (.p rfl .nil) (glm_mat2_zero_run) (DT.val_done _) rfl rfl
example : let mem : Mem α := [⟨true, List.replicate 4 .undef⟩]
    Room mem (0, 0) 4 :=
  .block rfl rfl

theorem C56_mat2_mul {mem : Mem α} {m1P m2P destP : Ptr} {m1 : M2 α} {m2 : M2 α} (h_m1 : Holds mem m1P m1.list) (h_m2 : Holds mem m2P m2.list) (r_dest : Room mem destP 4) (s_m1_dest : Apart m1P 4 destP 4) (s_m2_dest : Apart m2P 4 destP 4) :
    C.glm_mat2_mul.run mem [m1P.val, m2P.val, destP.val] =
      some (none, writes mem [(destP, (Cglm.glm_mat2_mul m1 m2).list.map .f)]) :=
  C55_mat2_mul h_m1 h_m2 r_dest (Or.inr s_m1_dest) (Or.inr s_m2_dest)
example (m1 : M2 α) (m2 : M2 α) : let mem : Mem α := [⟨false, m1.list.map .f⟩, ⟨false, m2.list.map .f⟩, ⟨true, List.replicate 4 .undef⟩]
    Holds mem (0, 0) m1.list ∧ Holds mem (1, 0) m2.list ∧ Room mem (2, 0) 4 ∧ Apart (0, 0) 4 (2, 0) 4 ∧ Apart (1, 0) 4 (2, 0) 4 :=
  ⟨.block rfl, .block rfl, .block rfl rfl, Or.inl (by decide), Or.inl (by decide)⟩

theorem C56_mat2_mulv {mem : Mem α} {mP vP destP : Ptr} {m : M2 α} {v : V2 α} (h_m : Holds mem mP m.list) (h_v : Holds mem vP v.list) (r_dest : Room mem destP 2) (s_m_dest : Apart mP 4 destP 2) (s_v_dest : Apart vP 2 destP 2) :
    C.glm_mat2_mulv.run mem [mP.val, vP.val, destP.val] =
      some (none, writes mem [(destP, (Cglm.glm_mat2_mulv m v).list.map .f)]) := by
  exact transferL ((((R.nil _).addW r_dest.has r_dest .nil).addR h_v.has (.cons s_v_dest .nil)).addR h_m.has (.skip (.cons s_m_dest .nil))) (.p rfl (.p rfl (.p rfl .nil))) (glm_mat2_mulv_run _ _) (DT.val_done _) rfl rfl
example (m : M2 α) (v : V2 α) : let mem : Mem α := [⟨false, m.list.map .f⟩, ⟨false, v.list.map .f⟩, ⟨true, List.replicate 2 .undef⟩]
    Holds mem (0, 0) m.list ∧ Holds mem (1, 0) v.list ∧ Room mem (2, 0) 2 ∧ Apart (0, 0) 4 (2, 0) 2 ∧ Apart (1, 0) 2 (2, 0) 2 :=
  ⟨.block rfl, .block rfl, .block rfl rfl, Or.inl (by decide), Or.inl (by decide)⟩

theorem C56_mat2_transpose_to {mem : Mem α} {matP destP : Ptr} {mat : M2 α} (h_mat : Holds mem matP mat.list) (r_dest : Room mem destP 4) (s_mat_dest : Apart matP 4 destP 4) :
    C.glm_mat2_transpose_to.run mem [matP.val, destP.val] =
      some (none, writes mem [(destP, (Cglm.glm_mat2_transpose_to mat).list.map .f)]) := by
  exact transferL (((R.nil _).addW r_dest.has r_dest .nil).addR h_mat.has (.cons s_mat_dest .nil)) (.p rfl (.p rfl .nil)) (glm_mat2_transpose_to_run _) (DT.val_done _) rfl rfl
example (mat : M2 α) : let mem : Mem α := [⟨false, mat.list.map .f⟩, ⟨true, List.replicate 4 .undef⟩]
    Holds mem (0, 0) mat.list ∧ Room mem (1, 0) 4 ∧ Apart (0, 0) 4 (1, 0) 4 :=
  ⟨.block rfl, .block rfl rfl, Or.inl (by decide)⟩

theorem C56_mat2_transpose {mem : Mem α} {mP : Ptr} {m : M2 α} (h_m : Holds mem mP m.list) (r_m : Room mem mP 4) :
    C.glm_mat2_transpose.run mem [mP.val] =
      some (none, writes mem [(mP, (Cglm.glm_mat2_transpose m).list.map .f)]) := by
  exact transferL ((R.nil _).addW h_m.has r_m .nil) (.p rfl .nil) (glm_mat2_transpose_run _) (DT.val_done _) rfl rfl
example (m : M2 α) : let mem : Mem α := [⟨true, m.list.map .f⟩]
    Holds mem (0, 0) m.list ∧ Room mem (0, 0) 4 :=
  ⟨.block rfl, .block rfl rfl⟩

theorem C56_mat2_scale {mem : Mem α} {mP : Ptr} {m : M2 α} (s : α) (h_m : Holds mem mP m.list) (r_m : Room mem mP 4) :
    C.glm_mat2_scale.run mem [mP.val, .f s] =
      some (none, writes mem [(mP, (Cglm.glm_mat2_scale m s).list.map .f)]) := by
  exact transferL ((R.nil _).addW h_m.has r_m .nil) (.p rfl (.f .nil)) (glm_mat2_scale_run _ _) (DT.val_done _) rfl rfl
example (m : M2 α) : let mem : Mem α := [⟨true, m.list.map .f⟩]
    Holds mem (0, 0) m.list ∧ Room mem (0, 0) 4 :=
  ⟨.block rfl, .block rfl rfl⟩

theorem C56_mat2_inv {mem : Mem α} {matP destP : Ptr} {mat : M2 α} (h_mat : Holds mem matP mat.list) (r_dest : Room mem destP 4) (s_mat_dest : Apart matP 4 destP 4) :
    C.glm_mat2_inv.run mem [matP.val, destP.val] =
      some (none, writes mem [(destP, (Cglm.glm_mat2_inv mat).list.map .f)]) :=
  C55_mat2_inv h_mat r_dest (Or.inr s_mat_dest)
example (mat : M2 α) : let mem : Mem α := [⟨false, mat.list.map .f⟩, ⟨true, List.replicate 4 .undef⟩]
    Holds mem (0, 0) mat.list ∧ Room mem (1, 0) 4 ∧ Apart (0, 0) 4 (1, 0) 4 :=
  ⟨.block rfl, .block rfl rfl, Or.inl (by decide)⟩

theorem C56_mat2_det {mem : Mem α} {mP : Ptr} {m : M2 α} (h_m : Holds mem mP m.list) :
    C.glm_mat2_det.run mem [mP.val] =
      some (some (.f (Cglm.glm_mat2_det m)), mem) := by
  exact transferL ((R.nil _).addR h_m.has .nil) (.p rfl .nil) (glm_mat2_det_run _) (DT.val_done _) rfl rfl
example (m : M2 α) : let mem : Mem α := [⟨false, m.list.map .f⟩]
    Holds mem (0, 0) m.list :=
  .block rfl

theorem C56_mat2_trace {mem : Mem α} {mP : Ptr} {m : M2 α} (h_m : Holds mem mP m.list) :
    C.glm_mat2_trace.run mem [mP.val] =
      some (some (.f (Cglm.glm_mat2_trace m)), mem) := by
  exact transferL ((R.nil _).addR h_m.has .nil) (.p rfl .nil) (glm_mat2_trace_run _) (DT.val_done _) rfl rfl
example (m : M2 α) : let mem : Mem α := [⟨false, m.list.map .f⟩]
    Holds mem (0, 0) m.list :=
  .block rfl

theorem C56_mat2_rmc {mem : Mem α} {rP mP cP : Ptr} {r : V2 α} {m : M2 α} {c : V2 α} (h_r : Holds mem rP r.list) (h_m : Holds mem mP m.list) (h_c : Holds mem cP c.list) :
    C.glm_mat2_rmc.run mem [rP.val, mP.val, cP.val] =
      some (some (.f (Cglm.glm_mat2_rmc r m c)), mem) := by
  exact transferL ((((R.nil _).addR h_c.has .nil).addR h_m.has (.skip .nil)).addR h_r.has (.skip (.skip .nil))) (.p rfl (.p rfl (.p rfl .nil))) (glm_mat2_rmc_run _ _ _) (DT.val_done _) rfl rfl
example (r : V2 α) (m : M2 α) (c : V2 α) : let mem : Mem α := [⟨false, r.list.map .f⟩, ⟨false, m.list.map .f⟩, ⟨false, c.list.map .f⟩]
    Holds mem (0, 0) r.list ∧ Holds mem (1, 0) m.list ∧ Holds mem (2, 0) c.list :=
  ⟨.block rfl, .block rfl, .block rfl⟩

end Cglm

end C56Mat2

section C56Mat2x3

/-!
# C56: memory safety and framing (include/cglm/mat2x3.h)

Called with initialised inputs and a writable destination that does not overlap them, the function is defined,
returns the value-level result and changes no memory but its destination.
-/

set_option linter.unusedVariables false
set_option linter.unusedSectionVars false

namespace Cglm
open CMem

variable {α : Type} [Add α] [Sub α] [Mul α] [Div α] [Neg α] [CFloat α]

theorem C56_mat2x3_copy {mem : Mem α} {srcP destP : Ptr} {src : M2x3 α} (h_src : Holds mem srcP src.list) (r_dest : Room mem destP 6) (s_src_dest : Apart srcP 6 destP 6) :
    C.glm_mat2x3_copy.run mem [srcP.val, destP.val] =
      some (none, writes mem [(destP, (Cglm.glm_mat2x3_copy src).list.map .f)]) :=
  C55_mat2x3_copy h_src r_dest (Or.inr s_src_dest)
example (src : M2x3 α) : let mem : Mem α := [⟨false, src.list.map .f⟩, ⟨true, List.replicate 6 .undef⟩]
    Holds mem (0, 0) src.list ∧ Room mem (1, 0) 6 ∧ Apart (0, 0) 6 (1, 0) 6 :=
  ⟨.block rfl, .block rfl rfl, Or.inl (by decide)⟩

theorem C56_mat2x3_zero {mem : Mem α} {mP : Ptr} (r_m : Room mem mP 6) :
    C.glm_mat2x3_zero.run mem [mP.val] =
      some (none, writes mem [(mP, (Cglm.glm_mat2x3_zero).list.map .f)]) := by
  exact transferL ((R.nil _).addW r_m.has r_m .nil) (.p rfl .nil) (glm_mat2x3_zero_run) (DT.val_done _) rfl rfl
example : let mem : Mem α := [⟨true, List.replicate 6 .undef⟩]
    Room mem (0, 0) 6 :=
  .block rfl rfl

theorem C56_mat2x3_make {mem : Mem α} {srcP destP : Ptr} {src : V6 α} (h_src : Holds mem srcP src.list) (r_dest : Room mem destP 6) (s_src_dest : Apart srcP 6 destP 6) :
    C.glm_mat2x3_make.run mem [srcP.val, destP.val] =
      some (none, writes mem [(destP, (Cglm.glm_mat2x3_make src).list.map .f)]) := by
  exact transferL (((R.nil _).addW r_dest.has r_dest .nil).addR h_src.has (.cons s_src_dest .nil)) (.p rfl (.p rfl .nil)) (glm_mat2x3_make_run _) (DT.val_done _) rfl rfl
example (src : V6 α) : let mem : Mem α := [⟨false, src.list.map .f⟩, ⟨true, List.replicate 6 .undef⟩]
    Holds mem (0, 0) src.list ∧ Room mem (1, 0) 6 ∧ Apart (0, 0) 6 (1, 0) 6 :=
  ⟨.block rfl, .block rfl rfl, Or.inl (by decide)⟩

theorem C56_mat2x3_mul {mem : Mem α} {m1P m2P destP : Ptr} {m1 : M2x3 α} {m2 : M3x2 α} (h_m1 : Holds mem m1P m1.list) (h_m2 : Holds mem m2P m2.list) (r_dest : Room mem destP 9) (s_m1_dest : Apart m1P 6 destP 9) (s_m2_dest : Apart m2P 6 destP 9) :
    C.glm_mat2x3_mul.run mem [m1P.val, m2P.val, destP.val] =
      some (none, writes mem [(destP, (Cglm.glm_mat2x3_mul m1 m2).list.map .f)]) := by
  exact transferL ((((R.nil _).addW r_dest.has r_dest .nil).addR h_m2.has (.cons s_m2_dest .nil)).addR h_m1.has (.skip (.cons s_m1_dest .nil))) (.p rfl (.p rfl (.p rfl .nil))) (glm_mat2x3_mul_run _ _) (DT.val_done _) rfl rfl
example (m1 : M2x3 α) (m2 : M3x2 α) : let mem : Mem α := [⟨false, m1.list.map .f⟩, ⟨false, m2.list.map .f⟩, ⟨true, List.replicate 9 .undef⟩]
    Holds mem (0, 0) m1.list ∧ Holds mem (1, 0) m2.list ∧ Room mem (2, 0) 9 ∧ Apart (0, 0) 6 (2, 0) 9 ∧ Apart (1, 0) 6 (2, 0) 9 :=
  ⟨.block rfl, .block rfl, .block rfl rfl, Or.inl (by decide), Or.inl (by decide)⟩

theorem C56_mat2x3_mulv {mem : Mem α} {mP vP destP : Ptr} {m : M2x3 α} {v : V2 α} (h_m : Holds mem mP m.list) (h_v : Holds mem vP v.list) (r_dest : Room mem destP 3) (s_m_dest : Apart mP 6 destP 3) (s_v_dest : Apart vP 2 destP 3) :
    C.glm_mat2x3_mulv.run mem [mP.val, vP.val, destP.val] =
      some (none, writes mem [(destP, (Cglm.glm_mat2x3_mulv m v).list.map .f)]) := by
  exact transferL ((((R.nil _).addW r_dest.has r_dest .nil).addR h_v.has (.cons s_v_dest .nil)).addR h_m.has (.skip (.cons s_m_dest .nil))) (.p rfl (.p rfl (.p rfl .nil))) (glm_mat2x3_mulv_run _ _) (DT.val_done _) rfl rfl
example (m : M2x3 α) (v : V2 α) : let mem : Mem α := [⟨false, m.list.map .f⟩, ⟨false, v.list.map .f⟩, ⟨true, List.replicate 3 .undef⟩]
    Holds mem (0, 0) m.list ∧ Holds mem (1, 0) v.list ∧ Room mem (2, 0) 3 ∧ Apart (0, 0) 6 (2, 0) 3 ∧ Apart (1, 0) 2 (2, 0) 3 :=
  ⟨.block rfl, .block rfl, .block rfl rfl, Or.inl (by decide), Or.inl (by decide)⟩

theorem C56_mat2x3_transpose {mem : Mem α} {srcP destP : Ptr} {src : M2x3 α} (h_src : Holds mem srcP src.list) (r_dest : Room mem destP 6) (s_src_dest : Apart srcP 6 destP 6) :
    C.glm_mat2x3_transpose.run mem [srcP.val, destP.val] =
      some (none, writes mem [(destP, (Cglm.glm_mat2x3_transpose src).list.map .f)]) := by
  exact transferL (((R.nil _).addW r_dest.has r_dest .nil).addR h_src.has (.cons s_src_dest .nil)) (.p rfl (.p rfl .nil)) (glm_mat2x3_transpose_run _) (DT.val_done _) rfl rfl
example (src : M2x3 α) : let mem : Mem α := [⟨false, src.list.map .f⟩, ⟨true, List.replicate 6 .undef⟩]
    Holds mem (0, 0) src.list ∧ Room mem (1, 0) 6 ∧ Apart (0, 0) 6 (1, 0) 6 :=
  ⟨.block rfl, .block rfl rfl, Or.inl (by decide)⟩

theorem C56_mat2x3_scale {mem : Mem α} {mP : Ptr} {m : M2x3 α} (s : α) (h_m : Holds mem mP m.list) (r_m : Room mem mP 6) :
    C.glm_mat2x3_scale.run mem [mP.val, .f s] =
      some (none, writes mem [(mP, (Cglm.glm_mat2x3_scale m s).list.map .f)]) := by
  exact transferL ((R.nil _).addW h_m.has r_m .nil) (.p rfl (.f .nil)) (glm_mat2x3_scale_run _ _) (DT.val_done _) rfl rfl
example (m : M2x3 α) : let mem : Mem α := [⟨true, m.list.map .f⟩]
    Holds mem (0, 0) m.list ∧ Room mem (0, 0) 6 :=
  ⟨.block rfl, .block rfl rfl⟩

end Cglm

end C56Mat2x3

section C56Mat2x4

/-!
# C56: memory safety and framing (include/cglm/mat2x4.h)

Called with initialised inputs and a writable destination that does not overlap them, the function is defined,
returns the value-level result and changes no memory but its destination.
-/

set_option linter.unusedVariables false
set_option linter.unusedSectionVars false

namespace Cglm
open CMem

variable {α : Type} [Add α] [Sub α] [Mul α] [Div α] [Neg α] [CFloat α]

theorem C56_mat2x4_copy {mem : Mem α} {srcP destP : Ptr} {src : M2x4 α} (h_src : Holds mem srcP src.list) (r_dest : Room mem destP 8) (s_src_dest : Apart srcP 8 destP 8) :
    C.glm_mat2x4_copy.run mem [srcP.val, destP.val] =
      some (none, writes mem [(destP, (Cglm.glm_mat2x4_copy src).list.map .f)]) :=
  C55_mat2x4_copy h_src r_dest (Or.inr s_src_dest)
example (src : M2x4 α) : let mem : Mem α := [⟨false, src.list.map .f⟩, ⟨true, List.replicate 8 .undef⟩]
    Holds mem (0, 0) src.list ∧ Room mem (1, 0) 8 ∧ Apart (0, 0) 8 (1, 0) 8 :=
  ⟨.block rfl, .block rfl rfl, Or.inl (by decide)⟩

theorem C56_mat2x4_zero {mem : Mem α} {mP : Ptr} (r_m : Room mem mP 8) :
    C.glm_mat2x4_zero.run mem [mP.val] =
      some (none, writes mem [(mP, (Cglm.glm_mat2x4_zero).list.map .f)]) := by
  exact transferL ((R.nil _).addW r_m.has r_m .nil) (.p rfl .nil) (glm_mat2x4_zero_run) (DT.val_done _) rfl rfl
example : let mem : Mem α := [⟨true, List.replicate 8 .undef⟩]
    Room mem (0, 0) 8 :=
  .block rfl rfl

theorem C56_mat2x4_make {mem : Mem α} {srcP destP : Ptr} {src : V8 α} (h_src : Holds mem srcP src.list) (r_dest : Room mem destP 8) (s_src_dest : Apart srcP 8 destP 8) :
    C.glm_mat2x4_make.run mem [srcP.val, destP.val] =
      some (none, writes mem [(destP, (Cglm.glm_mat2x4_make src).list.map .f)]) := by
  exact transferL (((R.nil _).addW r_dest.has r_dest .nil).addR h_src.has (.cons s_src_dest .nil)) (.p rfl (.p rfl .nil)) (glm_mat2x4_make_run _) (DT.val_done _) rfl rfl
example (src : V8 α) : let mem : Mem α := [⟨false, src.list.map .f⟩, ⟨true, List.replicate 8 .undef⟩]
    Holds mem (0, 0) src.list ∧ Room mem (1, 0) 8 ∧ Apart (0, 0) 8 (1, 0) 8 :=
  ⟨.block rfl, .block rfl rfl, Or.inl (by decide)⟩

theorem C56_mat2x4_mul {mem : Mem α} {m1P m2P destP : Ptr} {m1 : M2x4 α} {m2 : M4x2 α} (h_m1 : Holds mem m1P m1.list) (h_m2 : Holds mem m2P m2.list) (r_dest : Room mem destP 16) (s_m1_dest : Apart m1P 8 destP 16) (s_m2_dest : Apart m2P 8 destP 16) :
    C.glm_mat2x4_mul.run mem [m1P.val, m2P.val, destP.val] =
      some (none, writes mem [(destP, (Cglm.glm_mat2x4_mul m1 m2).list.map .f)]) := by
  exact transferL ((((R.nil _).addW r_dest.has r_dest .nil).addR h_m2.has (.cons s_m2_dest .nil)).addR h_m1.has (.skip (.cons s_m1_dest .nil))) (.p rfl (.p rfl (.p rfl .nil))) (glm_mat2x4_mul_run _ _) (DT.val_done _) rfl rfl
example (m1 : M2x4 α) (m2 : M4x2 α) : let mem : Mem α := [⟨false, m1.list.map .f⟩, ⟨false, m2.list.map .f⟩, ⟨true, List.replicate 16 .undef⟩]
    Holds mem (0, 0) m1.list ∧ Holds mem (1, 0) m2.list ∧ Room mem (2, 0) 16 ∧ Apart (0, 0) 8 (2, 0) 16 ∧ Apart (1, 0) 8 (2, 0) 16 :=
  ⟨.block rfl, .block rfl, .block rfl rfl, Or.inl (by decide), Or.inl (by decide)⟩

theorem C56_mat2x4_mulv {mem : Mem α} {mP vP destP : Ptr} {m : M2x4 α} {v : V2 α} (h_m : Holds mem mP m.list) (h_v : Holds mem vP v.list) (r_dest : Room mem destP 4) (s_m_dest : Apart mP 8 destP 4) (s_v_dest : Apart vP 2 destP 4) :
    C.glm_mat2x4_mulv.run mem [mP.val, vP.val, destP.val] =
      some (none, writes mem [(destP, (Cglm.glm_mat2x4_mulv m v).list.map .f)]) := by
  exact transferL ((((R.nil _).addW r_dest.has r_dest .nil).addR h_v.has (.cons s_v_dest .nil)).addR h_m.has (.skip (.cons s_m_dest .nil))) (.p rfl (.p rfl (.p rfl .nil))) (glm_mat2x4_mulv_run _ _) (DT.val_done _) rfl rfl
example (m : M2x4 α) (v : V2 α) : let mem : Mem α := [⟨false, m.list.map .f⟩, ⟨false, v.list.map .f⟩, ⟨true, List.replicate 4 .undef⟩]
    Holds mem (0, 0) m.list ∧ Holds mem (1, 0) v.list ∧ Room mem (2, 0) 4 ∧ Apart (0, 0) 8 (2, 0) 4 ∧ Apart (1, 0) 2 (2, 0) 4 :=
  ⟨.block rfl, .block rfl, .block rfl rfl, Or.inl (by decide), Or.inl (by decide)⟩

theorem C56_mat2x4_transpose {mem : Mem α} {srcP destP : Ptr} {src : M2x4 α} (h_src : Holds mem srcP src.list) (r_dest : Room mem destP 8) (s_src_dest : Apart srcP 8 destP 8) :
    C.glm_mat2x4_transpose.run mem [srcP.val, destP.val] =
      some (none, writes mem [(destP, (Cglm.glm_mat2x4_transpose src).list.map .f)]) := by
  exact transferL (((R.nil _).addW r_dest.has r_dest .nil).addR h_src.has (.cons s_src_dest .nil)) (.p rfl (.p rfl .nil)) (glm_mat2x4_transpose_run _) (DT.val_done _) rfl rfl
example (src : M2x4 α) : let mem : Mem α := [⟨false, src.list.map .f⟩, ⟨true, List.replicate 8 .undef⟩]
    Holds mem (0, 0) src.list ∧ Room mem (1, 0) 8 ∧ Apart (0, 0) 8 (1, 0) 8 :=
  ⟨.block rfl, .block rfl rfl, Or.inl (by decide)⟩

theorem C56_mat2x4_scale {mem : Mem α} {mP : Ptr} {m : M2x4 α} (s : α) (h_m : Holds mem mP m.list) (r_m : Room mem mP 8) :
    C.glm_mat2x4_scale.run mem [mP.val, .f s] =
      some (none, writes mem [(mP, (Cglm.glm_mat2x4_scale m s).list.map .f)]) := by
  exact transferL ((R.nil _).addW h_m.has r_m .nil) (.p rfl (.f .nil)) (glm_mat2x4_scale_run _ _) (DT.val_done _) rfl rfl
example (m : M2x4 α) : let mem : Mem α := [⟨true, m.list.map .f⟩]
    Holds mem (0, 0) m.list ∧ Room mem (0, 0) 8 :=
  ⟨.block rfl, .block rfl rfl⟩

end Cglm

end C56Mat2x4

section C56Mat3

/-!
# C56: memory safety and framing (include/cglm/mat3.h)

Called with initialised inputs and a writable destination that does not overlap them, the function is defined,
returns the value-level result and changes no memory but its destination.
-/

set_option linter.unusedVariables false
set_option linter.unusedSectionVars false

namespace Cglm
open CMem

variable {α : Type} [Add α] [Sub α] [Mul α] [Div α] [Neg α] [CFloat α]

theorem C56_mat3_copy {mem : Mem α} {matP destP : Ptr} {mat : M3 α} (h_mat : Holds mem matP mat.list) (r_dest : Room mem destP 9) (s_mat_dest : Apart matP 9 destP 9) :
    C.glm_mat3_copy.run mem [matP.val, destP.val] =
      some (none, writes mem [(destP, (Cglm.glm_mat3_copy mat).list.map .f)]) :=
  C55_mat3_copy h_mat r_dest (Or.inr s_mat_dest)
example (mat : M3 α) : let mem : Mem α := [⟨false, mat.list.map .f⟩, ⟨true, List.replicate 9 .undef⟩]
    Holds mem (0, 0) mat.list ∧ Room mem (1, 0) 9 ∧ Apart (0, 0) 9 (1, 0) 9 :=
  ⟨.block rfl, .block rfl rfl, Or.inl (by decide)⟩

theorem C56_mat3_identity {mem : Mem α} {matP : Ptr} (r_mat : Room mem matP 9) :
    C.glm_mat3_identity.run mem [matP.val] =
      some (none, writes mem [(matP, (Cglm.glm_mat3_identity).list.map .f)]) := by
  exact transferL ((R.nil _).addW r_mat.has r_mat .nil) (.p rfl .nil) (glm_mat3_identity_run) (DT.val_done _) rfl rfl
example : let mem : Mem α := [⟨true, List.replicate 9 .undef⟩]
    Room mem (0, 0) 9 :=
  .block rfl rfl

theorem C56_mat3_zero {mem : Mem α} {matP : Ptr} (r_mat : Room mem matP 9) :
    C.glm_mat3_zero.run mem [matP.val] =
      some (none, writes mem [(matP, (Cglm.glm_mat3_zero).list.map .f)]) := by
  exact transferL ((R.nil _).addW r_mat.has r_mat .nil) (.p rfl .nil) (glm_mat3_zero_run) (DT.val_done _) rfl rfl
example : let mem : Mem α := [⟨true, List.replicate 9 .undef⟩]
    Room mem (0, 0) 9 :=
  .block rfl rfl

theorem C56_mat3_mul {mem : Mem α} {m1P m2P destP : Ptr} {m1 : M3 α} {m2 : M3 α} (h_m1 : Holds mem m1P m1.list) (h_m2 : Holds mem m2P m2.list) (r_dest : Room mem destP 9) (s_m1_dest : Apart m1P 9 destP 9) (s_m2_dest : Apart m2P 9 destP 9) :
    C.glm_mat3_mul.run mem [m1P.val, m2P.val, destP.val] =
      some (none, writes mem [(destP, (Cglm.glm_mat3_mul m1 m2).list.map .f)]) :=
  C55_mat3_mul h_m1 h_m2 r_dest (Or.inr s_m1_dest) (Or.inr s_m2_dest)
example (m1 : M3 α) (m2 : M3 α) : let mem : Mem α := [⟨false, m1.list.map .f⟩, ⟨false, m2.list.map .f⟩, ⟨true, List.replicate 9 .undef⟩]
    Holds mem (0, 0) m1.list ∧ Holds mem (1, 0) m2.list ∧ Room mem (2, 0) 9 ∧ Apart (0, 0) 9 (2, 0) 9 ∧ Apart (1, 0) 9 (2, 0) 9 :=
  ⟨.block rfl, .block rfl, .block rfl rfl, Or.inl (by decide), Or.inl (by decide)⟩

theorem C56_mat3_transpose_to {mem : Mem α} {mP destP : Ptr} {m : M3 α} (h_m : Holds mem mP m.list) (r_dest : Room mem destP 9) (s_m_dest : Apart mP 9 destP 9) :
    C.glm_mat3_transpose_to.run mem [mP.val, destP.val] =
      some (none, writes mem [(destP, (Cglm.glm_mat3_transpose_to m).list.map .f)]) := by
  exact transferL (((R.nil _).addW r_dest.has r_dest .nil).addR h_m.has (.cons s_m_dest .nil)) (.p rfl (.p rfl .nil)) (glm_mat3_transpose_to_run _) (DT.val_done _) rfl rfl
example (m : M3 α) : let mem : Mem α := [⟨false, m.list.map .f⟩, ⟨true, List.replicate 9 .undef⟩]
    Holds mem (0, 0) m.list ∧ Room mem (1, 0) 9 ∧ Apart (0, 0) 9 (1, 0) 9 :=
  ⟨.block rfl, .block rfl rfl, Or.inl (by decide)⟩

theorem C56_mat3_transpose {mem : Mem α} {mP : Ptr} {m : M3 α} (h_m : Holds mem mP m.list) (r_m : Room mem mP 9) :
    C.glm_mat3_transpose.run mem [mP.val] =
      some (none, writes mem [(mP, (Cglm.glm_mat3_transpose m).list.map .f)]) := by
  exact transferL ((R.nil _).addW h_m.has r_m .nil) (.p rfl .nil) (glm_mat3_transpose_run _) (DT.val_done _) rfl rfl
example (m : M3 α) : let mem : Mem α := [⟨true, m.list.map .f⟩]
    Holds mem (0, 0) m.list ∧ Room mem (0, 0) 9 :=
  ⟨.block rfl, .block rfl rfl⟩

theorem C56_mat3_mulv {mem : Mem α} {mP vP destP : Ptr} {m : M3 α} {v : V3 α} (h_m : Holds mem mP m.list) (h_v : Holds mem vP v.list) (r_dest : Room mem destP 3) (s_m_dest : Apart mP 9 destP 3) (s_v_dest : Apart vP 3 destP 3) :
    C.glm_mat3_mulv.run mem [mP.val, vP.val, destP.val] =
      some (none, writes mem [(destP, (Cglm.glm_mat3_mulv m v).list.map .f)]) :=
  C55_mat3_mulv h_m h_v r_dest s_m_dest (Or.inr s_v_dest)
example (m : M3 α) (v : V3 α) : let mem : Mem α := [⟨false, m.list.map .f⟩, ⟨false, v.list.map .f⟩, ⟨true, List.replicate 3 .undef⟩]
    Holds mem (0, 0) m.list ∧ Holds mem (1, 0) v.list ∧ Room mem (2, 0) 3 ∧ Apart (0, 0) 9 (2, 0) 3 ∧ Apart (1, 0) 3 (2, 0) 3 :=
  ⟨.block rfl, .block rfl, .block rfl rfl, Or.inl (by decide), Or.inl (by decide)⟩

theorem C56_mat3_trace {mem : Mem α} {mP : Ptr} {m : M3 α} (h_m : Holds mem mP m.list) :
    C.glm_mat3_trace.run mem [mP.val] =
      some (some (.f (Cglm.glm_mat3_trace m)), mem) := by
  exact transferL ((R.nil _).addR h_m.has .nil) (.p rfl .nil) (glm_mat3_trace_run _) (DT.val_done _) rfl rfl
example (m : M3 α) : let mem : Mem α := [⟨false, m.list.map .f⟩]
    Holds mem (0, 0) m.list :=
  .block rfl

theorem C56_mat3_quat {mem : Mem α} {mP destP : Ptr} {m : M3 α} (h_m : Holds mem mP m.list) (r_dest : Room mem destP 4) (s_m_dest : Apart mP 9 destP 4) :
    C.glm_mat3_quat.run mem [mP.val, destP.val] =
      some (none, writes mem [(destP, (Cglm.glm_mat3_quat m).list.map .f)]) := by
  exact transferL (((R.nil _).addW r_dest.has r_dest .nil).addR h_m.has (.cons s_m_dest .nil)) (.p rfl (.p rfl .nil)) (glm_mat3_quat_run _) (DT.val_map_eq (glm_mat3_quat_dt_val _) rfl) rfl rfl
example (m : M3 α) : let mem : Mem α := [⟨false, m.list.map .f⟩, ⟨true, List.replicate 4 .undef⟩]
    Holds mem (0, 0) m.list ∧ Room mem (1, 0) 4 ∧ Apart (0, 0) 9 (1, 0) 4 :=
  ⟨.block rfl, .block rfl rfl, Or.inl (by decide)⟩

theorem C56_mat3_scale {mem : Mem α} {mP : Ptr} {m : M3 α} (s : α) (h_m : Holds mem mP m.list) (r_m : Room mem mP 9) :
    C.glm_mat3_scale.run mem [mP.val, .f s] =
      some (none, writes mem [(mP, (Cglm.glm_mat3_scale m s).list.map .f)]) := by
  exact transferL ((R.nil _).addW h_m.has r_m .nil) (.p rfl (.f .nil)) (glm_mat3_scale_run _ _) (DT.val_done _) rfl rfl
example (m : M3 α) : let mem : Mem α := [⟨true, m.list.map .f⟩]
    Holds mem (0, 0) m.list ∧ Room mem (0, 0) 9 :=
  ⟨.block rfl, .block rfl rfl⟩

theorem C56_mat3_det {mem : Mem α} {matP : Ptr} {mat : M3 α} (h_mat : Holds mem matP mat.list) :
    C.glm_mat3_det.run mem [matP.val] =
      some (some (.f (Cglm.glm_mat3_det mat)), mem) := by
  exact transferL ((R.nil _).addR h_mat.has .nil) (.p rfl .nil) (glm_mat3_det_run _) (DT.val_done _) rfl rfl
example (mat : M3 α) : let mem : Mem α := [⟨false, mat.list.map .f⟩]
    Holds mem (0, 0) mat.list :=
  .block rfl

theorem C56_mat3_inv {mem : Mem α} {matP destP : Ptr} {mat : M3 α} (h_mat : Holds mem matP mat.list) (r_dest : Room mem destP 9) (s_mat_dest : Apart matP 9 destP 9) :
    C.glm_mat3_inv.run mem [matP.val, destP.val] =
      some (none, writes mem [(destP, (Cglm.glm_mat3_inv mat).list.map .f)]) :=
  C55_mat3_inv h_mat r_dest (Or.inr s_mat_dest)
example (mat : M3 α) : let mem : Mem α := [⟨false, mat.list.map .f⟩, ⟨true, List.replicate 9 .undef⟩]
    Holds mem (0, 0) mat.list ∧ Room mem (1, 0) 9 ∧ Apart (0, 0) 9 (1, 0) 9 :=
  ⟨.block rfl, .block rfl rfl, Or.inl (by decide)⟩

theorem C56_mat3_rmc {mem : Mem α} {rP mP cP : Ptr} {r : V3 α} {m : M3 α} {c : V3 α} (h_r : Holds mem rP r.list) (h_m : Holds mem mP m.list) (h_c : Holds mem cP c.list) :
    C.glm_mat3_rmc.run mem [rP.val, mP.val, cP.val] =
      some (some (.f (Cglm.glm_mat3_rmc r m c)), mem) := by
  exact transferL ((((R.nil _).addR h_c.has .nil).addR h_m.has (.skip .nil)).addR h_r.has (.skip (.skip .nil))) (.p rfl (.p rfl (.p rfl .nil))) (glm_mat3_rmc_run _ _ _) (DT.val_done _) rfl rfl
example (r : V3 α) (m : M3 α) (c : V3 α) : let mem : Mem α := [⟨false, r.list.map .f⟩, ⟨false, m.list.map .f⟩, ⟨false, c.list.map .f⟩]
    Holds mem (0, 0) r.list ∧ Holds mem (1, 0) m.list ∧ Holds mem (2, 0) c.list :=
  ⟨.block rfl, .block rfl, .block rfl⟩

theorem C56_mat3_make {mem : Mem α} {srcP destP : Ptr} {src : V9 α} (h_src : Holds mem srcP src.list) (r_dest : Room mem destP 9) (s_src_dest : Apart srcP 9 destP 9) :
    C.glm_mat3_make.run mem [srcP.val, destP.val] =
      some (none, writes mem [(destP, (Cglm.glm_mat3_make src).list.map .f)]) := by
  exact transferL (((R.nil _).addW r_dest.has r_dest .nil).addR h_src.has (.cons s_src_dest .nil)) (.p rfl (.p rfl .nil)) (glm_mat3_make_run _) (DT.val_done _) rfl rfl
example (src : V9 α) : let mem : Mem α := [⟨false, src.list.map .f⟩, ⟨true, List.replicate 9 .undef⟩]
    Holds mem (0, 0) src.list ∧ Room mem (1, 0) 9 ∧ Apart (0, 0) 9 (1, 0) 9 :=
  ⟨.block rfl, .block rfl rfl, Or.inl (by decide)⟩

theorem C56_mat3_textrans {mem : Mem α} {destP : Ptr} (sx : α) (sy : α) (rot : α) (tx : α) (ty : α) (r_dest : Room mem destP 9) :
    C.glm_mat3_textrans.run mem [.f sx, .f sy, .f rot, .f tx, .f ty, destP.val] =
      some (none, writes mem [(destP, (Cglm.glm_mat3_textrans sx sy rot tx ty).list.map .f)]) := by
  exact transferL ((R.nil _).addW r_dest.has r_dest .nil) (.f (.f (.f (.f (.f (.p rfl .nil)))))) (glm_mat3_textrans_run _ _ _ _ _) (DT.val_done _) rfl rfl
example : let mem : Mem α := [⟨true, List.replicate 9 .undef⟩]
    Room mem (0, 0) 9 :=
  .block rfl rfl

end Cglm

end C56Mat3

section C56Mat3x2

/-!
# C56: memory safety and framing (include/cglm/mat3x2.h)

Called with initialised inputs and a writable destination that does not overlap them, the function is defined,
returns the value-level result and changes no memory but its destination.
-/

set_option linter.unusedVariables false
set_option linter.unusedSectionVars false

namespace Cglm
open CMem

variable {α : Type} [Add α] [Sub α] [Mul α] [Div α] [Neg α] [CFloat α]

theorem C56_mat3x2_copy {mem : Mem α} {srcP destP : Ptr} {src : M3x2 α} (h_src : Holds mem srcP src.list) (r_dest : Room mem destP 6) (s_src_dest : Apart srcP 6 destP 6) :
    C.glm_mat3x2_copy.run mem [srcP.val, destP.val] =
      some (none, writes mem [(destP, (Cglm.glm_mat3x2_copy src).list.map .f)]) :=
  C55_mat3x2_copy h_src r_dest (Or.inr s_src_dest)
example (src : M3x2 α) : let mem : Mem α := [⟨false, src.list.map .f⟩, ⟨true, List.replicate 6 .undef⟩]
    Holds mem (0, 0) src.list ∧ Room mem (1, 0) 6 ∧ Apart (0, 0) 6 (1, 0) 6 :=
  ⟨.block rfl, .block rfl rfl, Or.inl (by decide)⟩

theorem C56_mat3x2_zero {mem : Mem α} {mP : Ptr} (r_m : Room mem mP 6) :
    C.glm_mat3x2_zero.run mem [mP.val] =
      some (none, writes mem [(mP, (Cglm.glm_mat3x2_zero).list.map .f)]) := by
  exact transferL ((R.nil _).addW r_m.has r_m .nil) (.p rfl .nil) (glm_mat3x2_zero_run) (DT.val_done _) rfl rfl
example : let mem : Mem α := [⟨true, List.replicate 6 .undef⟩]
    Room mem (0, 0) 6 :=
  .block rfl rfl

theorem C56_mat3x2_make {mem : Mem α} {srcP destP : Ptr} {src : V6 α} (h_src : Holds mem srcP src.list) (r_dest : Room mem destP 6) (s_src_dest : Apart srcP 6 destP 6) :
    C.glm_mat3x2_make.run mem [srcP.val, destP.val] =
      some (none, writes mem [(destP, (Cglm.glm_mat3x2_make src).list.map .f)]) := by
  exact transferL (((R.nil _).addW r_dest.has r_dest .nil).addR h_src.has (.cons s_src_dest .nil)) (.p rfl (.p rfl .nil)) (glm_mat3x2_make_run _) (DT.val_done _) rfl rfl
example (src : V6 α) : let mem : Mem α := [⟨false, src.list.map .f⟩, ⟨true, List.replicate 6 .undef⟩]
    Holds mem (0, 0) src.list ∧ Room mem (1, 0) 6 ∧ Apart (0, 0) 6 (1, 0) 6 :=
  ⟨.block rfl, .block rfl rfl, Or.inl (by decide)⟩

theorem C56_mat3x2_mul {mem : Mem α} {m1P m2P destP : Ptr} {m1 : M3x2 α} {m2 : M2x3 α} (h_m1 : Holds mem m1P m1.list) (h_m2 : Holds mem m2P m2.list) (r_dest : Room mem destP 4) (s_m1_dest : Apart m1P 6 destP 4) (s_m2_dest : Apart m2P 6 destP 4) :
    C.glm_mat3x2_mul.run mem [m1P.val, m2P.val, destP.val] =
      some (none, writes mem [(destP, (Cglm.glm_mat3x2_mul m1 m2).list.map .f)]) := by
  exact transferL ((((R.nil _).addW r_dest.has r_dest .nil).addR h_m2.has (.cons s_m2_dest .nil)).addR h_m1.has (.skip (.cons s_m1_dest .nil))) (.p rfl (.p rfl (.p rfl .nil))) (glm_mat3x2_mul_run _ _) (DT.val_done _) rfl rfl
example (m1 : M3x2 α) (m2 : M2x3 α) : let mem : Mem α := [⟨false, m1.list.map .f⟩, ⟨false, m2.list.map .f⟩, ⟨true, List.replicate 4 .undef⟩]
    Holds mem (0, 0) m1.list ∧ Holds mem (1, 0) m2.list ∧ Room mem (2, 0) 4 ∧ Apart (0, 0) 6 (2, 0) 4 ∧ Apart (1, 0) 6 (2, 0) 4 :=
  ⟨.block rfl, .block rfl, .block rfl rfl, Or.inl (by decide), Or.inl (by decide)⟩

theorem C56_mat3x2_mulv {mem : Mem α} {mP vP destP : Ptr} {m : M3x2 α} {v : V3 α} (h_m : Holds mem mP m.list) (h_v : Holds mem vP v.list) (r_dest : Room mem destP 2) (s_m_dest : Apart mP 6 destP 2) (s_v_dest : Apart vP 3 destP 2) :
    C.glm_mat3x2_mulv.run mem [mP.val, vP.val, destP.val] =
      some (none, writes mem [(destP, (Cglm.glm_mat3x2_mulv m v).list.map .f)]) := by
  exact transferL ((((R.nil _).addW r_dest.has r_dest .nil).addR h_v.has (.cons s_v_dest .nil)).addR h_m.has (.skip (.cons s_m_dest .nil))) (.p rfl (.p rfl (.p rfl .nil))) (glm_mat3x2_mulv_run _ _) (DT.val_done _) rfl rfl
example (m : M3x2 α) (v : V3 α) : let mem : Mem α := [⟨false, m.list.map .f⟩, ⟨false, v.list.map .f⟩, ⟨true, List.replicate 2 .undef⟩]
    Holds mem (0, 0) m.list ∧ Holds mem (1, 0) v.list ∧ Room mem (2, 0) 2 ∧ Apart (0, 0) 6 (2, 0) 2 ∧ Apart (1, 0) 3 (2, 0) 2 :=
  ⟨.block rfl, .block rfl, .block rfl rfl, Or.inl (by decide), Or.inl (by decide)⟩

theorem C56_mat3x2_transpose {mem : Mem α} {srcP destP : Ptr} {src : M3x2 α} (h_src : Holds mem srcP src.list) (r_dest : Room mem destP 6) (s_src_dest : Apart srcP 6 destP 6) :
    C.glm_mat3x2_transpose.run mem [srcP.val, destP.val] =
      some (none, writes mem [(destP, (Cglm.glm_mat3x2_transpose src).list.map .f)]) := by
  exact transferL (((R.nil _).addW r_dest.has r_dest .nil).addR h_src.has (.cons s_src_dest .nil)) (.p rfl (.p rfl .nil)) (glm_mat3x2_transpose_run _) (DT.val_done _) rfl rfl
example (src : M3x2 α) : let mem : Mem α := [⟨false, src.list.map .f⟩, ⟨true, List.replicate 6 .undef⟩]
    Holds mem (0, 0) src.list ∧ Room mem (1, 0) 6 ∧ Apart (0, 0) 6 (1, 0) 6 :=
  ⟨.block rfl, .block rfl rfl, Or.inl (by decide)⟩

theorem C56_mat3x2_scale {mem : Mem α} {mP : Ptr} {m : M3x2 α} (s : α) (h_m : Holds mem mP m.list) (r_m : Room mem mP 6) :
    C.glm_mat3x2_scale.run mem [mP.val, .f s] =
      some (none, writes mem [(mP, (Cglm.glm_mat3x2_scale m s).list.map .f)]) := by
  exact transferL ((R.nil _).addW h_m.has r_m .nil) (.p rfl (.f .nil)) (glm_mat3x2_scale_run _ _) (DT.val_done _) rfl rfl
example (m : M3x2 α) : let mem : Mem α := [⟨true, m.list.map .f⟩]
    Holds mem (0, 0) m.list ∧ Room mem (0, 0) 6 :=
  ⟨.block rfl, .block rfl rfl⟩

end Cglm

end C56Mat3x2

section C56Mat3x4

/-!
# C56: memory safety and framing (include/cglm/mat3x4.h)

Called with initialised inputs and a writable destination that does not overlap them, the function is defined,
returns the value-level result and changes no memory but its destination.
-/

set_option linter.unusedVariables false
set_option linter.unusedSectionVars false

namespace Cglm
open CMem

variable {α : Type} [Add α] [Sub α] [Mul α] [Div α] [Neg α] [CFloat α]

theorem C56_mat3x4_copy {mem : Mem α} {srcP destP : Ptr} {src : M3x4 α} (h_src : Holds mem srcP src.list) (r_dest : Room mem destP 12) (s_src_dest : Apart srcP 12 destP 12) :
    C.glm_mat3x4_copy.run mem [srcP.val, destP.val] =
      some (none, writes mem [(destP, (Cglm.glm_mat3x4_copy src).list.map .f)]) :=
  C55_mat3x4_copy h_src r_dest (Or.inr s_src_dest)
example (src : M3x4 α) : let mem : Mem α := [⟨false, src.list.map .f⟩, ⟨true, List.replicate 12 .undef⟩]
    Holds mem (0, 0) src.list ∧ Room mem (1, 0) 12 ∧ Apart (0, 0) 12 (1, 0) 12 :=
  ⟨.block rfl, .block rfl rfl, Or.inl (by decide)⟩

theorem C56_mat3x4_zero {mem : Mem α} {mP : Ptr} (r_m : Room mem mP 12) :
    C.glm_mat3x4_zero.run mem [mP.val] =
      some (none, writes mem [(mP, (Cglm.glm_mat3x4_zero).list.map .f)]) := by
  exact transferL ((R.nil _).addW r_m.has r_m .nil) (.p rfl .nil) (glm_mat3x4_zero_run) (DT.val_done _) rfl rfl
example : let mem : Mem α := [⟨true, List.replicate 12 .undef⟩]
    Room mem (0, 0) 12 :=
  .block rfl rfl

theorem C56_mat3x4_make {mem : Mem α} {srcP destP : Ptr} {src : V12 α} (h_src : Holds mem srcP src.list) (r_dest : Room mem destP 12) (s_src_dest : Apart srcP 12 destP 12) :
    C.glm_mat3x4_make.run mem [srcP.val, destP.val] =
      some (none, writes mem [(destP, (Cglm.glm_mat3x4_make src).list.map .f)]) := by
  exact transferL (((R.nil _).addW r_dest.has r_dest .nil).addR h_src.has (.cons s_src_dest .nil)) (.p rfl (.p rfl .nil)) (glm_mat3x4_make_run _) (DT.val_done _) rfl rfl
example (src : V12 α) : let mem : Mem α := [⟨false, src.list.map .f⟩, ⟨true, List.replicate 12 .undef⟩]
    Holds mem (0, 0) src.list ∧ Room mem (1, 0) 12 ∧ Apart (0, 0) 12 (1, 0) 12 :=
  ⟨.block rfl, .block rfl rfl, Or.inl (by decide)⟩

theorem C56_mat3x4_mul {mem : Mem α} {m1P m2P destP : Ptr} {m1 : M3x4 α} {m2 : M4x3 α} (h_m1 : Holds mem m1P m1.list) (h_m2 : Holds mem m2P m2.list) (r_dest : Room mem destP 16) (s_m1_dest : Apart m1P 12 destP 16) (s_m2_dest : Apart m2P 12 destP 16) :
    C.glm_mat3x4_mul.run mem [m1P.val, m2P.val, destP.val] =
      some (none, writes mem [(destP, (Cglm.glm_mat3x4_mul m1 m2).list.map .f)]) := by
  exact transferL ((((R.nil _).addW r_dest.has r_dest .nil).addR h_m2.has (.cons s_m2_dest .nil)).addR h_m1.has (.skip (.cons s_m1_dest .nil))) (.p rfl (.p rfl (.p rfl .nil))) (glm_mat3x4_mul_run _ _) (DT.val_done _) rfl rfl
example (m1 : M3x4 α) (m2 : M4x3 α) : let mem : Mem α := [⟨false, m1.list.map .f⟩, ⟨false, m2.list.map .f⟩, ⟨true, List.replicate 16 .undef⟩]
    Holds mem (0, 0) m1.list ∧ Holds mem (1, 0) m2.list ∧ Room mem (2, 0) 16 ∧ Apart (0, 0) 12 (2, 0) 16 ∧ Apart (1, 0) 12 (2, 0) 16 :=
  ⟨.block rfl, .block rfl, .block rfl rfl, Or.inl (by decide), Or.inl (by decide)⟩

theorem C56_mat3x4_mulv {mem : Mem α} {mP vP destP : Ptr} {m : M3x4 α} {v : V3 α} (h_m : Holds mem mP m.list) (h_v : Holds mem vP v.list) (r_dest : Room mem destP 4) (s_m_dest : Apart mP 12 destP 4) (s_v_dest : Apart vP 3 destP 4) :
    C.glm_mat3x4_mulv.run mem [mP.val, vP.val, destP.val] =
      some (none, writes mem [(destP, (Cglm.glm_mat3x4_mulv m v).list.map .f)]) := by
  exact transferL ((((R.nil _).addW r_dest.has r_dest .nil).addR h_v.has (.cons s_v_dest .nil)).addR h_m.has (.skip (.cons s_m_dest .nil))) (.p rfl (.p rfl (.p rfl .nil))) (glm_mat3x4_mulv_run _ _) (DT.val_done _) rfl rfl
example (m : M3x4 α) (v : V3 α) : let mem : Mem α := [⟨false, m.list.map .f⟩, ⟨false, v.list.map .f⟩, ⟨true, List.replicate 4 .undef⟩]
    Holds mem (0, 0) m.list ∧ Holds mem (1, 0) v.list ∧ Room mem (2, 0) 4 ∧ Apart (0, 0) 12 (2, 0) 4 ∧ Apart (1, 0) 3 (2, 0) 4 :=
  ⟨.block rfl, .block rfl, .block rfl rfl, Or.inl (by decide), Or.inl (by decide)⟩

theorem C56_mat3x4_transpose {mem : Mem α} {srcP destP : Ptr} {src : M3x4 α} (h_src : Holds mem srcP src.list) (r_dest : Room mem destP 12) (s_src_dest : Apart srcP 12 destP 12) :
    C.glm_mat3x4_transpose.run mem [srcP.val, destP.val] =
      some (none, writes mem [(destP, (Cglm.glm_mat3x4_transpose src).list.map .f)]) := by
  exact transferL (((R.nil _).addW r_dest.has r_dest .nil).addR h_src.has (.cons s_src_dest .nil)) (.p rfl (.p rfl .nil)) (glm_mat3x4_transpose_run _) (DT.val_done _) rfl rfl
example (src : M3x4 α) : let mem : Mem α := [⟨false, src.list.map .f⟩, ⟨true, List.replicate 12 .undef⟩]
    Holds mem (0, 0) src.list ∧ Room mem (1, 0) 12 ∧ Apart (0, 0) 12 (1, 0) 12 :=
  ⟨.block rfl, .block rfl rfl, Or.inl (by decide)⟩

theorem C56_mat3x4_scale {mem : Mem α} {mP : Ptr} {m : M3x4 α} (s : α) (h_m : Holds mem mP m.list) (r_m : Room mem mP 12) :
    C.glm_mat3x4_scale.run mem [mP.val, .f s] =
      some (none, writes mem [(mP, (Cglm.glm_mat3x4_scale m s).list.map .f)]) := by
  exact transferL ((R.nil _).addW h_m.has r_m .nil) (.p rfl (.f .nil)) (glm_mat3x4_scale_run _ _) (DT.val_done _) rfl rfl
example (m : M3x4 α) : let mem : Mem α := [⟨true, m.list.map .f⟩]
    Holds mem (0, 0) m.list ∧ Room mem (0, 0) 12 :=
  ⟨.block rfl, .block rfl rfl⟩

end Cglm

end C56Mat3x4

section C56Mat4

/-!
# C56: memory safety and framing (include/cglm/mat4.h)

Called with initialised inputs and a writable destination that does not overlap them, the function is defined,
returns the value-level result and changes no memory but its destination.
-/

set_option linter.unusedVariables false
set_option linter.unusedSectionVars false

namespace Cglm
open CMem

variable {α : Type} [Add α] [Sub α] [Mul α] [Div α] [Neg α] [CFloat α]

theorem C56_mat4_ucopy {mem : Mem α} {matP destP : Ptr} {mat : M4 α} (h_mat : Holds mem matP mat.list) (r_dest : Room mem destP 16) (s_mat_dest : Apart matP 16 destP 16) :
    C.glm_mat4_ucopy.run mem [matP.val, destP.val] =
      some (none, writes mem [(destP, (Cglm.glm_mat4_ucopy mat).list.map .f)]) :=
  C55_mat4_ucopy h_mat r_dest (Or.inr s_mat_dest)
example (mat : M4 α) : let mem : Mem α := [⟨false, mat.list.map .f⟩, ⟨true, List.replicate 16 .undef⟩]
    Holds mem (0, 0) mat.list ∧ Room mem (1, 0) 16 ∧ Apart (0, 0) 16 (1, 0) 16 :=
  ⟨.block rfl, .block rfl rfl, Or.inl (by decide)⟩

theorem C56_mat4_copy {mem : Mem α} {matP destP : Ptr} {mat : M4 α} (h_mat : Holds mem matP mat.list) (r_dest : Room mem destP 16) (s_mat_dest : Apart matP 16 destP 16) :
    C.glm_mat4_copy.run mem [matP.val, destP.val] =
      some (none, writes mem [(destP, (Cglm.glm_mat4_copy mat).list.map .f)]) :=
  C55_mat4_copy h_mat r_dest (Or.inr s_mat_dest)
example (mat : M4 α) : let mem : Mem α := [⟨false, mat.list.map .f⟩, ⟨true, List.replicate 16 .undef⟩]
    Holds mem (0, 0) mat.list ∧ Room mem (1, 0) 16 ∧ Apart (0, 0) 16 (1, 0) 16 :=
  ⟨.block rfl, .block rfl rfl, Or.inl (by decide)⟩

theorem C56_mat4_identity {mem : Mem α} {matP : Ptr} (r_mat : Room mem matP 16) :
    C.glm_mat4_identity.run mem [matP.val] =
      some (none, writes mem [(matP, (Cglm.glm_mat4_identity).list.map .f)]) := by
  exact transferL ((R.nil _).addW r_mat.has r_mat .nil) (.p rfl .nil) (glm_mat4_identity_run) (DT.val_done _) rfl rfl
example : let mem : Mem α := [⟨true, List.replicate 16 .undef⟩]
    Room mem (0, 0) 16 :=
  .block rfl rfl

theorem C56_mat4_zero {mem : Mem α} {matP : Ptr} (r_mat : Room mem matP 16) :
    C.glm_mat4_zero.run mem [matP.val] =
      some (none, writes mem [(matP, (Cglm.glm_mat4_zero).list.map .f)]) := by
  exact transferL ((R.nil _).addW r_mat.has r_mat .nil) (.p rfl .nil) (glm_mat4_zero_run) (DT.val_done _) rfl rfl
example : let mem : Mem α := [⟨true, List.replicate 16 .undef⟩]
    Room mem (0, 0) 16 :=
  .block rfl rfl

theorem C56_mat4_pick3 {mem : Mem α} {matP destP : Ptr} {mat : M4 α} (h_mat : Holds mem matP mat.list) (r_dest : Room mem destP 9) (s_mat_dest : Apart matP 16 destP 9) :
    C.glm_mat4_pick3.run mem [matP.val, destP.val] =
      some (none, writes mem [(destP, (Cglm.glm_mat4_pick3 mat).list.map .f)]) := by
  exact transferL (((R.nil _).addW r_dest.has r_dest .nil).addR h_mat.has (.cons s_mat_dest .nil)) (.p rfl (.p rfl .nil)) (glm_mat4_pick3_run _) (DT.val_done _) rfl rfl
example (mat : M4 α) : let mem : Mem α := [⟨false, mat.list.map .f⟩, ⟨true, List.replicate 9 .undef⟩]
    Holds mem (0, 0) mat.list ∧ Room mem (1, 0) 9 ∧ Apart (0, 0) 16 (1, 0) 9 :=
  ⟨.block rfl, .block rfl rfl, Or.inl (by decide)⟩

theorem C56_mat4_pick3t {mem : Mem α} {matP destP : Ptr} {mat : M4 α} (h_mat : Holds mem matP mat.list) (r_dest : Room mem destP 9) (s_mat_dest : Apart matP 16 destP 9) :
    C.glm_mat4_pick3t.run mem [matP.val, destP.val] =
      some (none, writes mem [(destP, (Cglm.glm_mat4_pick3t mat).list.map .f)]) := by
  exact transferL (((R.nil _).addW r_dest.has r_dest .nil).addR h_mat.has (.cons s_mat_dest .nil)) (.p rfl (.p rfl .nil)) (glm_mat4_pick3t_run _) (DT.val_done _) rfl rfl
example (mat : M4 α) : let mem : Mem α := [⟨false, mat.list.map .f⟩, ⟨true, List.replicate 9 .undef⟩]
    Holds mem (0, 0) mat.list ∧ Room mem (1, 0) 9 ∧ Apart (0, 0) 16 (1, 0) 9 :=
  ⟨.block rfl, .block rfl rfl, Or.inl (by decide)⟩

theorem C56_mat4_ins3 {mem : Mem α} {matP destP : Ptr} {mat : M3 α} {dest : M4 α} (h_mat : Holds mem matP mat.list) (h_dest : Holds mem destP dest.list) (r_dest : Room mem destP 16) (s_mat_dest : Apart matP 9 destP 16) :
    C.glm_mat4_ins3.run mem [matP.val, destP.val] =
      some (none, writes mem [(destP, (Cglm.glm_mat4_ins3 mat dest).list.map .f)]) := by
  exact transferL (((R.nil _).addW h_dest.has r_dest .nil).addR h_mat.has (.cons s_mat_dest .nil)) (.p rfl (.p rfl .nil)) (glm_mat4_ins3_run _ _) (DT.val_done _) rfl rfl
example (mat : M3 α) (dest : M4 α) : let mem : Mem α := [⟨false, mat.list.map .f⟩, ⟨true, dest.list.map .f⟩]
    Holds mem (0, 0) mat.list ∧ Holds mem (1, 0) dest.list ∧ Room mem (1, 0) 16 ∧ Apart (0, 0) 9 (1, 0) 16 :=
  ⟨.block rfl, .block rfl, .block rfl rfl, Or.inl (by decide)⟩

theorem C56_mat4_mul {mem : Mem α} {m1P m2P destP : Ptr} {m1 : M4 α} {m2 : M4 α} (h_m1 : Holds mem m1P m1.list) (h_m2 : Holds mem m2P m2.list) (r_dest : Room mem destP 16) (s_m1_dest : Apart m1P 16 destP 16) (s_m2_dest : Apart m2P 16 destP 16) :
    C.glm_mat4_mul.run mem [m1P.val, m2P.val, destP.val] =
      some (none, writes mem [(destP, (Cglm.glm_mat4_mul m1 m2).list.map .f)]) :=
  C55_mat4_mul h_m1 h_m2 r_dest (Or.inr s_m1_dest) (Or.inr s_m2_dest)
example (m1 : M4 α) (m2 : M4 α) : let mem : Mem α := [⟨false, m1.list.map .f⟩, ⟨false, m2.list.map .f⟩, ⟨true, List.replicate 16 .undef⟩]
    Holds mem (0, 0) m1.list ∧ Holds mem (1, 0) m2.list ∧ Room mem (2, 0) 16 ∧ Apart (0, 0) 16 (2, 0) 16 ∧ Apart (1, 0) 16 (2, 0) 16 :=
  ⟨.block rfl, .block rfl, .block rfl rfl, Or.inl (by decide), Or.inl (by decide)⟩

theorem C56_mat4_mulv {mem : Mem α} {mP vP destP : Ptr} {m : M4 α} {v : V4 α} (h_m : Holds mem mP m.list) (h_v : Holds mem vP v.list) (r_dest : Room mem destP 4) (s_m_dest : Apart mP 16 destP 4) (s_v_dest : Apart vP 4 destP 4) :
    C.glm_mat4_mulv.run mem [mP.val, vP.val, destP.val] =
      some (none, writes mem [(destP, (Cglm.glm_mat4_mulv m v).list.map .f)]) :=
  C55_mat4_mulv h_m h_v r_dest s_m_dest (Or.inr s_v_dest)
example (m : M4 α) (v : V4 α) : let mem : Mem α := [⟨false, m.list.map .f⟩, ⟨false, v.list.map .f⟩, ⟨true, List.replicate 4 .undef⟩]
    Holds mem (0, 0) m.list ∧ Holds mem (1, 0) v.list ∧ Room mem (2, 0) 4 ∧ Apart (0, 0) 16 (2, 0) 4 ∧ Apart (1, 0) 4 (2, 0) 4 :=
  ⟨.block rfl, .block rfl, .block rfl rfl, Or.inl (by decide), Or.inl (by decide)⟩

theorem C56_mat4_trace {mem : Mem α} {mP : Ptr} {m : M4 α} (h_m : Holds mem mP m.list) :
    C.glm_mat4_trace.run mem [mP.val] =
      some (some (.f (Cglm.glm_mat4_trace m)), mem) := by
  exact transferL ((R.nil _).addR h_m.has .nil) (.p rfl .nil) (glm_mat4_trace_run _) (DT.val_done _) rfl rfl
example (m : M4 α) : let mem : Mem α := [⟨false, m.list.map .f⟩]
    Holds mem (0, 0) m.list :=
  .block rfl

theorem C56_mat4_trace3 {mem : Mem α} {mP : Ptr} {m : M4 α} (h_m : Holds mem mP m.list) :
    C.glm_mat4_trace3.run mem [mP.val] =
      some (some (.f (Cglm.glm_mat4_trace3 m)), mem) := by
  exact transferL ((R.nil _).addR h_m.has .nil) (.p rfl .nil) (glm_mat4_trace3_run _) (DT.val_done _) rfl rfl
example (m : M4 α) : let mem : Mem α := [⟨false, m.list.map .f⟩]
    Holds mem (0, 0) m.list :=
  .block rfl

theorem C56_mat4_quat {mem : Mem α} {mP destP : Ptr} {m : M4 α} (h_m : Holds mem mP m.list) (r_dest : Room mem destP 4) (s_m_dest : Apart mP 16 destP 4) :
    C.glm_mat4_quat.run mem [mP.val, destP.val] =
      some (none, writes mem [(destP, (Cglm.glm_mat4_quat m).list.map .f)]) := by
  exact transferL (((R.nil _).addW r_dest.has r_dest .nil).addR h_m.has (.cons s_m_dest .nil)) (.p rfl (.p rfl .nil)) (glm_mat4_quat_run _) (DT.val_map_eq (glm_mat4_quat_dt_val _) rfl) rfl rfl
example (m : M4 α) : let mem : Mem α := [⟨false, m.list.map .f⟩, ⟨true, List.replicate 4 .undef⟩]
    Holds mem (0, 0) m.list ∧ Room mem (1, 0) 4 ∧ Apart (0, 0) 16 (1, 0) 4 :=
  ⟨.block rfl, .block rfl rfl, Or.inl (by decide)⟩

theorem C56_mat4_mulv3 {mem : Mem α} {mP vP destP : Ptr} {m : M4 α} {v : V3 α} (last : α) (h_m : Holds mem mP m.list) (h_v : Holds mem vP v.list) (r_dest : Room mem destP 3) (s_m_dest : Apart mP 16 destP 3) (s_v_dest : Apart vP 3 destP 3) :
    C.glm_mat4_mulv3.run mem [mP.val, vP.val, .f last, destP.val] =
      some (none, writes mem [(destP, (Cglm.glm_mat4_mulv3 m v last).list.map .f)]) :=
  C55_mat4_mulv3 last h_m h_v r_dest s_m_dest (Or.inr s_v_dest)
example (m : M4 α) (v : V3 α) : let mem : Mem α := [⟨false, m.list.map .f⟩, ⟨false, v.list.map .f⟩, ⟨true, List.replicate 3 .undef⟩]
    Holds mem (0, 0) m.list ∧ Holds mem (1, 0) v.list ∧ Room mem (2, 0) 3 ∧ Apart (0, 0) 16 (2, 0) 3 ∧ Apart (1, 0) 3 (2, 0) 3 :=
  ⟨.block rfl, .block rfl, .block rfl rfl, Or.inl (by decide), Or.inl (by decide)⟩

theorem C56_mat4_transpose_to {mem : Mem α} {mP destP : Ptr} {m : M4 α} (h_m : Holds mem mP m.list) (r_dest : Room mem destP 16) (s_m_dest : Apart mP 16 destP 16) :
    C.glm_mat4_transpose_to.run mem [mP.val, destP.val] =
      some (none, writes mem [(destP, (Cglm.glm_mat4_transpose_to m).list.map .f)]) := by
  exact transferL (((R.nil _).addW r_dest.has r_dest .nil).addR h_m.has (.cons s_m_dest .nil)) (.p rfl (.p rfl .nil)) (glm_mat4_transpose_to_run _) (DT.val_done _) rfl rfl
example (m : M4 α) : let mem : Mem α := [⟨false, m.list.map .f⟩, ⟨true, List.replicate 16 .undef⟩]
    Holds mem (0, 0) m.list ∧ Room mem (1, 0) 16 ∧ Apart (0, 0) 16 (1, 0) 16 :=
  ⟨.block rfl, .block rfl rfl, Or.inl (by decide)⟩

theorem C56_mat4_transpose {mem : Mem α} {mP : Ptr} {m : M4 α} (h_m : Holds mem mP m.list) (r_m : Room mem mP 16) :
    C.glm_mat4_transpose.run mem [mP.val] =
      some (none, writes mem [(mP, (Cglm.glm_mat4_transpose m).list.map .f)]) := by
  exact transferL ((R.nil _).addW h_m.has r_m .nil) (.p rfl .nil) (glm_mat4_transpose_run _) (DT.val_done _) rfl rfl
example (m : M4 α) : let mem : Mem α := [⟨true, m.list.map .f⟩]
    Holds mem (0, 0) m.list ∧ Room mem (0, 0) 16 :=
  ⟨.block rfl, .block rfl rfl⟩

theorem C56_mat4_scale_p {mem : Mem α} {mP : Ptr} {m : M4 α} (s : α) (h_m : Holds mem mP m.list) (r_m : Room mem mP 16) :
    C.glm_mat4_scale_p.run mem [mP.val, .f s] =
      some (none, writes mem [(mP, (Cglm.glm_mat4_scale_p m s).list.map .f)]) := by
  exact transferL ((R.nil _).addW h_m.has r_m .nil) (.p rfl (.f .nil)) (glm_mat4_scale_p_run _ _) (DT.val_done _) rfl rfl
example (m : M4 α) : let mem : Mem α := [⟨true, m.list.map .f⟩]
    Holds mem (0, 0) m.list ∧ Room mem (0, 0) 16 :=
  ⟨.block rfl, .block rfl rfl⟩

theorem C56_mat4_scale {mem : Mem α} {mP : Ptr} {m : M4 α} (s : α) (h_m : Holds mem mP m.list) (r_m : Room mem mP 16) :
    C.glm_mat4_scale.run mem [mP.val, .f s] =
      some (none, writes mem [(mP, (Cglm.glm_mat4_scale m s).list.map .f)]) := by
  exact transferL ((R.nil _).addW h_m.has r_m .nil) (.p rfl (.f .nil)) (glm_mat4_scale_run _ _) (DT.val_done _) rfl rfl
example (m : M4 α) : let mem : Mem α := [⟨true, m.list.map .f⟩]
    Holds mem (0, 0) m.list ∧ Room mem (0, 0) 16 :=
  ⟨.block rfl, .block rfl rfl⟩

theorem C56_mat4_det {mem : Mem α} {matP : Ptr} {mat : M4 α} (h_mat : Holds mem matP mat.list) :
    C.glm_mat4_det.run mem [matP.val] =
      some (some (.f (Cglm.glm_mat4_det mat)), mem) := by
  exact transferL ((R.nil _).addR h_mat.has .nil) (.p rfl .nil) (glm_mat4_det_run _) (DT.val_done _) rfl rfl
example (mat : M4 α) : let mem : Mem α := [⟨false, mat.list.map .f⟩]
    Holds mem (0, 0) mat.list :=
  .block rfl

theorem C56_mat4_inv {mem : Mem α} {matP destP : Ptr} {mat : M4 α} (h_mat : Holds mem matP mat.list) (r_dest : Room mem destP 16) (s_mat_dest : Apart matP 16 destP 16) :
    C.glm_mat4_inv.run mem [matP.val, destP.val] =
      some (none, writes mem [(destP, (Cglm.glm_mat4_inv mat).list.map .f)]) :=
  C55_mat4_inv h_mat r_dest (Or.inr s_mat_dest)
example (mat : M4 α) : let mem : Mem α := [⟨false, mat.list.map .f⟩, ⟨true, List.replicate 16 .undef⟩]
    Holds mem (0, 0) mat.list ∧ Room mem (1, 0) 16 ∧ Apart (0, 0) 16 (1, 0) 16 :=
  ⟨.block rfl, .block rfl rfl, Or.inl (by decide)⟩

theorem C56_mat4_inv_fast {mem : Mem α} {matP destP : Ptr} {mat : M4 α} (h_mat : Holds mem matP mat.list) (r_dest : Room mem destP 16) (s_mat_dest : Apart matP 16 destP 16) :
    C.glm_mat4_inv_fast.run mem [matP.val, destP.val] =
      some (none, writes mem [(destP, (Cglm.glm_mat4_inv_fast mat).list.map .f)]) :=
  C55_mat4_inv_fast h_mat r_dest (Or.inr s_mat_dest)
example (mat : M4 α) : let mem : Mem α := [⟨false, mat.list.map .f⟩, ⟨true, List.replicate 16 .undef⟩]
    Holds mem (0, 0) mat.list ∧ Room mem (1, 0) 16 ∧ Apart (0, 0) 16 (1, 0) 16 :=
  ⟨.block rfl, .block rfl rfl, Or.inl (by decide)⟩

theorem C56_mat4_rmc {mem : Mem α} {rP mP cP : Ptr} {r : V4 α} {m : M4 α} {c : V4 α} (h_r : Holds mem rP r.list) (h_m : Holds mem mP m.list) (h_c : Holds mem cP c.list) :
    C.glm_mat4_rmc.run mem [rP.val, mP.val, cP.val] =
      some (some (.f (Cglm.glm_mat4_rmc r m c)), mem) := by
  exact transferL ((((R.nil _).addR h_c.has .nil).addR h_m.has (.skip .nil)).addR h_r.has (.skip (.skip .nil))) (.p rfl (.p rfl (.p rfl .nil))) (glm_mat4_rmc_run _ _ _) (DT.val_done _) rfl rfl
example (r : V4 α) (m : M4 α) (c : V4 α) : let mem : Mem α := [⟨false, r.list.map .f⟩, ⟨false, m.list.map .f⟩, ⟨false, c.list.map .f⟩]
    Holds mem (0, 0) r.list ∧ Holds mem (1, 0) m.list ∧ Holds mem (2, 0) c.list :=
  ⟨.block rfl, .block rfl, .block rfl⟩

theorem C56_mat4_make {mem : Mem α} {srcP destP : Ptr} {src : V16 α} (h_src : Holds mem srcP src.list) (r_dest : Room mem destP 16) (s_src_dest : Apart srcP 16 destP 16) :
    C.glm_mat4_make.run mem [srcP.val, destP.val] =
      some (none, writes mem [(destP, (Cglm.glm_mat4_make src).list.map .f)]) := by
  exact transferL (((R.nil _).addW r_dest.has r_dest .nil).addR h_src.has (.cons s_src_dest .nil)) (.p rfl (.p rfl .nil)) (glm_mat4_make_run _) (DT.val_done _) rfl rfl
example (src : V16 α) : let mem : Mem α := [⟨false, src.list.map .f⟩, ⟨true, List.replicate 16 .undef⟩]
    Holds mem (0, 0) src.list ∧ Room mem (1, 0) 16 ∧ Apart (0, 0) 16 (1, 0) 16 :=
  ⟨.block rfl, .block rfl rfl, Or.inl (by decide)⟩

theorem C56_mat4_textrans {mem : Mem α} {destP : Ptr} (sx : α) (sy : α) (rot : α) (tx : α) (ty : α) (r_dest : Room mem destP 16) :
    C.glm_mat4_textrans.run mem [.f sx, .f sy, .f rot, .f tx, .f ty, destP.val] =
      some (none, writes mem [(destP, (Cglm.glm_mat4_textrans sx sy rot tx ty).list.map .f)]) := by
  exact transferL ((R.nil _).addW r_dest.has r_dest .nil) (.f (.f (.f (.f (.f (.p rfl .nil)))))) (glm_mat4_textrans_run _ _ _ _ _) (DT.val_done _) rfl rfl
example : let mem : Mem α := [⟨true, List.replicate 16 .undef⟩]
    Room mem (0, 0) 16 :=
  .block rfl rfl

end Cglm

end C56Mat4

section C56Mat4x2

/-!
# C56: memory safety and framing (include/cglm/mat4x2.h)

Called with initialised inputs and a writable destination that does not overlap them, the function is defined,
returns the value-level result and changes no memory but its destination.
-/

set_option linter.unusedVariables false
set_option linter.unusedSectionVars false

namespace Cglm
open CMem

variable {α : Type} [Add α] [Sub α] [Mul α] [Div α] [Neg α] [CFloat α]

theorem C56_mat4x2_copy {mem : Mem α} {srcP destP : Ptr} {src : M4x2 α} (h_src : Holds mem srcP src.list) (r_dest : Room mem destP 8) (s_src_dest : Apart srcP 8 destP 8) :
    C.glm_mat4x2_copy.run mem [srcP.val, destP.val] =
      some (none, writes mem [(destP, (Cglm.glm_mat4x2_copy src).list.map .f)]) :=
  C55_mat4x2_copy h_src r_dest (Or.inr s_src_dest)
example (src : M4x2 α) : let mem : Mem α := [⟨false, src.list.map .f⟩, ⟨true, List.replicate 8 .undef⟩]
    Holds mem (0, 0) src.list ∧ Room mem (1, 0) 8 ∧ Apart (0, 0) 8 (1, 0) 8 :=
  ⟨.block rfl, .block rfl rfl, Or.inl (by decide)⟩

theorem C56_mat4x2_zero {mem : Mem α} {mP : Ptr} (r_m : Room mem mP 8) :
    C.glm_mat4x2_zero.run mem [mP.val] =
      some (none, writes mem [(mP, (Cglm.glm_mat4x2_zero).list.map .f)]) := by
  exact transferL ((R.nil _).addW r_m.has r_m .nil) (.p rfl .nil) (glm_mat4x2_zero_run) (DT.val_done _) rfl rfl
example : let mem : Mem α := [⟨true, List.replicate 8 .undef⟩]
    Room mem (0, 0) 8 :=
  .block rfl rfl

theorem C56_mat4x2_make {mem : Mem α} {srcP destP : Ptr} {src : V8 α} (h_src : Holds mem srcP src.list) (r_dest : Room mem destP 8) (s_src_dest : Apart srcP 8 destP 8) :
    C.glm_mat4x2_make.run mem [srcP.val, destP.val] =
      some (none, writes mem [(destP, (Cglm.glm_mat4x2_make src).list.map .f)]) := by
  exact transferL (((R.nil _).addW r_dest.has r_dest .nil).addR h_src.has (.cons s_src_dest .nil)) (.p rfl (.p rfl .nil)) (glm_mat4x2_make_run _) (DT.val_done _) rfl rfl
example (src : V8 α) : let mem : Mem α := [⟨false, src.list.map .f⟩, ⟨true, List.replicate 8 .undef⟩]
    Holds mem (0, 0) src.list ∧ Room mem (1, 0) 8 ∧ Apart (0, 0) 8 (1, 0) 8 :=
  ⟨.block rfl, .block rfl rfl, Or.inl (by decide)⟩

theorem C56_mat4x2_mul {mem : Mem α} {m1P m2P destP : Ptr} {m1 : M4x2 α} {m2 : M2x4 α} (h_m1 : Holds mem m1P m1.list) (h_m2 : Holds mem m2P m2.list) (r_dest : Room mem destP 4) (s_m1_dest : Apart m1P 8 destP 4) (s_m2_dest : Apart m2P 8 destP 4) :
    C.glm_mat4x2_mul.run mem [m1P.val, m2P.val, destP.val] =
      some (none, writes mem [(destP, (Cglm.glm_mat4x2_mul m1 m2).list.map .f)]) := by
  exact transferL ((((R.nil _).addW r_dest.has r_dest .nil).addR h_m2.has (.cons s_m2_dest .nil)).addR h_m1.has (.skip (.cons s_m1_dest .nil))) (.p rfl (.p rfl (.p rfl .nil))) (glm_mat4x2_mul_run _ _) (DT.val_done _) rfl rfl
example (m1 : M4x2 α) (m2 : M2x4 α) : let mem : Mem α := [⟨false, m1.list.map .f⟩, ⟨false, m2.list.map .f⟩, ⟨true, List.replicate 4 .undef⟩]
    Holds mem (0, 0) m1.list ∧ Holds mem (1, 0) m2.list ∧ Room mem (2, 0) 4 ∧ Apart (0, 0) 8 (2, 0) 4 ∧ Apart (1, 0) 8 (2, 0) 4 :=
  ⟨.block rfl, .block rfl, .block rfl rfl, Or.inl (by decide), Or.inl (by decide)⟩

theorem C56_mat4x2_mulv {mem : Mem α} {mP vP destP : Ptr} {m : M4x2 α} {v : V4 α} (h_m : Holds mem mP m.list) (h_v : Holds mem vP v.list) (r_dest : Room mem destP 2) (s_m_dest : Apart mP 8 destP 2) (s_v_dest : Apart vP 4 destP 2) :
    C.glm_mat4x2_mulv.run mem [mP.val, vP.val, destP.val] =
      some (none, writes mem [(destP, (Cglm.glm_mat4x2_mulv m v).list.map .f)]) := by
  exact transferL ((((R.nil _).addW r_dest.has r_dest .nil).addR h_v.has (.cons s_v_dest .nil)).addR h_m.has (.skip (.cons s_m_dest .nil))) (.p rfl (.p rfl (.p rfl .nil))) (glm_mat4x2_mulv_run _ _) (DT.val_done _) rfl rfl
example (m : M4x2 α) (v : V4 α) : let mem : Mem α := [⟨false, m.list.map .f⟩, ⟨false, v.list.map .f⟩, ⟨true, List.replicate 2 .undef⟩]
    Holds mem (0, 0) m.list ∧ Holds mem (1, 0) v.list ∧ Room mem (2, 0) 2 ∧ Apart (0, 0) 8 (2, 0) 2 ∧ Apart (1, 0) 4 (2, 0) 2 :=
  ⟨.block rfl, .block rfl, .block rfl rfl, Or.inl (by decide), Or.inl (by decide)⟩

theorem C56_mat4x2_transpose {mem : Mem α} {mP destP : Ptr} {m : M4x2 α} (h_m : Holds mem mP m.list) (r_dest : Room mem destP 8) (s_m_dest : Apart mP 8 destP 8) :
    C.glm_mat4x2_transpose.run mem [mP.val, destP.val] =
      some (none, writes mem [(destP, (Cglm.glm_mat4x2_transpose m).list.map .f)]) := by
  exact transferL (((R.nil _).addW r_dest.has r_dest .nil).addR h_m.has (.cons s_m_dest .nil)) (.p rfl (.p rfl .nil)) (glm_mat4x2_transpose_run _) (DT.val_done _) rfl rfl
example (m : M4x2 α) : let mem : Mem α := [⟨false, m.list.map .f⟩, ⟨true, List.replicate 8 .undef⟩]
    Holds mem (0, 0) m.list ∧ Room mem (1, 0) 8 ∧ Apart (0, 0) 8 (1, 0) 8 :=
  ⟨.block rfl, .block rfl rfl, Or.inl (by decide)⟩

theorem C56_mat4x2_scale {mem : Mem α} {mP : Ptr} {m : M4x2 α} (s : α) (h_m : Holds mem mP m.list) (r_m : Room mem mP 8) :
    C.glm_mat4x2_scale.run mem [mP.val, .f s] =
      some (none, writes mem [(mP, (Cglm.glm_mat4x2_scale m s).list.map .f)]) := by
  exact transferL ((R.nil _).addW h_m.has r_m .nil) (.p rfl (.f .nil)) (glm_mat4x2_scale_run _ _) (DT.val_done _) rfl rfl
example (m : M4x2 α) : let mem : Mem α := [⟨true, m.list.map .f⟩]
    Holds mem (0, 0) m.list ∧ Room mem (0, 0) 8 :=
  ⟨.block rfl, .block rfl rfl⟩

end Cglm

end C56Mat4x2

section C56Mat4x3

/-!
# C56: memory safety and framing (include/cglm/mat4x3.h)

Called with initialised inputs and a writable destination that does not overlap them, the function is defined,
returns the value-level result and changes no memory but its destination.
-/

set_option linter.unusedVariables false
set_option linter.unusedSectionVars false

namespace Cglm
open CMem

variable {α : Type} [Add α] [Sub α] [Mul α] [Div α] [Neg α] [CFloat α]

theorem C56_mat4x3_copy {mem : Mem α} {srcP destP : Ptr} {src : M4x3 α} (h_src : Holds mem srcP src.list) (r_dest : Room mem destP 12) (s_src_dest : Apart srcP 12 destP 12) :
    C.glm_mat4x3_copy.run mem [srcP.val, destP.val] =
      some (none, writes mem [(destP, (Cglm.glm_mat4x3_copy src).list.map .f)]) :=
  C55_mat4x3_copy h_src r_dest (Or.inr s_src_dest)
example (src : M4x3 α) : let mem : Mem α := [⟨false, src.list.map .f⟩, ⟨true, List.replicate 12 .undef⟩]
    Holds mem (0, 0) src.list ∧ Room mem (1, 0) 12 ∧ Apart (0, 0) 12 (1, 0) 12 :=
  ⟨.block rfl, .block rfl rfl, Or.inl (by decide)⟩

theorem C56_mat4x3_zero {mem : Mem α} {mP : Ptr} (r_m : Room mem mP 12) :
    C.glm_mat4x3_zero.run mem [mP.val] =
      some (none, writes mem [(mP, (Cglm.glm_mat4x3_zero).list.map .f)]) := by
  exact transferL ((R.nil _).addW r_m.has r_m .nil) (.p rfl .nil) (glm_mat4x3_zero_run) (DT.val_done _) rfl rfl
example : let mem : Mem α := [⟨true, List.replicate 12 .undef⟩]
    Room mem (0, 0) 12 :=
  .block rfl rfl

theorem C56_mat4x3_make {mem : Mem α} {srcP destP : Ptr} {src : V12 α} (h_src : Holds mem srcP src.list) (r_dest : Room mem destP 12) (s_src_dest : Apart srcP 12 destP 12) :
    C.glm_mat4x3_make.run mem [srcP.val, destP.val] =
      some (none, writes mem [(destP, (Cglm.glm_mat4x3_make src).list.map .f)]) := by
  exact transferL (((R.nil _).addW r_dest.has r_dest .nil).addR h_src.has (.cons s_src_dest .nil)) (.p rfl (.p rfl .nil)) (glm_mat4x3_make_run _) (DT.val_done _) rfl rfl
example (src : V12 α) : let mem : Mem α := [⟨false, src.list.map .f⟩, ⟨true, List.replicate 12 .undef⟩]
    Holds mem (0, 0) src.list ∧ Room mem (1, 0) 12 ∧ Apart (0, 0) 12 (1, 0) 12 :=
  ⟨.block rfl, .block rfl rfl, Or.inl (by decide)⟩

theorem C56_mat4x3_mul {mem : Mem α} {m1P m2P destP : Ptr} {m1 : M4x3 α} {m2 : M3x4 α} (h_m1 : Holds mem m1P m1.list) (h_m2 : Holds mem m2P m2.list) (r_dest : Room mem destP 9) (s_m1_dest : Apart m1P 12 destP 9) (s_m2_dest : Apart m2P 12 destP 9) :
    C.glm_mat4x3_mul.run mem [m1P.val, m2P.val, destP.val] =
      some (none, writes mem [(destP, (Cglm.glm_mat4x3_mul m1 m2).list.map .f)]) := by
  exact transferL ((((R.nil _).addW r_dest.has r_dest .nil).addR h_m2.has (.cons s_m2_dest .nil)).addR h_m1.has (.skip (.cons s_m1_dest .nil))) (.p rfl (.p rfl (.p rfl .nil))) (glm_mat4x3_mul_run _ _) (DT.val_done _) rfl rfl
example (m1 : M4x3 α) (m2 : M3x4 α) : let mem : Mem α := [⟨false, m1.list.map .f⟩, ⟨false, m2.list.map .f⟩, ⟨true, List.replicate 9 .undef⟩]
    Holds mem (0, 0) m1.list ∧ Holds mem (1, 0) m2.list ∧ Room mem (2, 0) 9 ∧ Apart (0, 0) 12 (2, 0) 9 ∧ Apart (1, 0) 12 (2, 0) 9 :=
  ⟨.block rfl, .block rfl, .block rfl rfl, Or.inl (by decide), Or.inl (by decide)⟩

theorem C56_mat4x3_mulv {mem : Mem α} {mP vP destP : Ptr} {m : M4x3 α} {v : V4 α} (h_m : Holds mem mP m.list) (h_v : Holds mem vP v.list) (r_dest : Room mem destP 3) (s_m_dest : Apart mP 12 destP 3) (s_v_dest : Apart vP 4 destP 3) :
    C.glm_mat4x3_mulv.run mem [mP.val, vP.val, destP.val] =
      some (none, writes mem [(destP, (Cglm.glm_mat4x3_mulv m v).list.map .f)]) := by
  exact transferL ((((R.nil _).addW r_dest.has r_dest .nil).addR h_v.has (.cons s_v_dest .nil)).addR h_m.has (.skip (.cons s_m_dest .nil))) (.p rfl (.p rfl (.p rfl .nil))) (glm_mat4x3_mulv_run _ _) (DT.val_done _) rfl rfl
example (m : M4x3 α) (v : V4 α) : let mem : Mem α := [⟨false, m.list.map .f⟩, ⟨false, v.list.map .f⟩, ⟨true, List.replicate 3 .undef⟩]
    Holds mem (0, 0) m.list ∧ Holds mem (1, 0) v.list ∧ Room mem (2, 0) 3 ∧ Apart (0, 0) 12 (2, 0) 3 ∧ Apart (1, 0) 4 (2, 0) 3 :=
  ⟨.block rfl, .block rfl, .block rfl rfl, Or.inl (by decide), Or.inl (by decide)⟩

theorem C56_mat4x3_transpose {mem : Mem α} {srcP destP : Ptr} {src : M4x3 α} (h_src : Holds mem srcP src.list) (r_dest : Room mem destP 12) (s_src_dest : Apart srcP 12 destP 12) :
    C.glm_mat4x3_transpose.run mem [srcP.val, destP.val] =
      some (none, writes mem [(destP, (Cglm.glm_mat4x3_transpose src).list.map .f)]) := by
  exact transferL (((R.nil _).addW r_dest.has r_dest .nil).addR h_src.has (.cons s_src_dest .nil)) (.p rfl (.p rfl .nil)) (glm_mat4x3_transpose_run _) (DT.val_done _) rfl rfl
example (src : M4x3 α) : let mem : Mem α := [⟨false, src.list.map .f⟩, ⟨true, List.replicate 12 .undef⟩]
    Holds mem (0, 0) src.list ∧ Room mem (1, 0) 12 ∧ Apart (0, 0) 12 (1, 0) 12 :=
  ⟨.block rfl, .block rfl rfl, Or.inl (by decide)⟩

theorem C56_mat4x3_scale {mem : Mem α} {mP : Ptr} {m : M4x3 α} (s : α) (h_m : Holds mem mP m.list) (r_m : Room mem mP 12) :
    C.glm_mat4x3_scale.run mem [mP.val, .f s] =
      some (none, writes mem [(mP, (Cglm.glm_mat4x3_scale m s).list.map .f)]) := by
  exact transferL ((R.nil _).addW h_m.has r_m .nil) (.p rfl (.f .nil)) (glm_mat4x3_scale_run _ _) (DT.val_done _) rfl rfl
example (m : M4x3 α) : let mem : Mem α := [⟨true, m.list.map .f⟩]
    Holds mem (0, 0) m.list ∧ Room mem (0, 0) 12 :=
  ⟨.block rfl, .block rfl rfl⟩

end Cglm

end C56Mat4x3
