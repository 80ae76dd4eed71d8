/- Generated by tools/memgen.py, joined by tools/merge.py; do not edit by hand. -/
import Verif.Mem.MatsRun

section C55Mat2

/-!
# C55: destination may alias an argument (include/cglm/mat2.h)

Each input is either the destination itself or does not overlap it; the result is the value-level function of
what the inputs held before the call, and nothing outside the destination changes.
-/

set_option linter.unusedVariables false
set_option linter.unusedSectionVars false

namespace Cglm
open CMem

variable {α : Type} [Add α] [Sub α] [Mul α] [Div α] [Neg α] [CFloat α]

theorem C55_mat2_copy {mem : Mem α} {matP destP : Ptr} {mat : M2 α} (h_mat : Holds mem matP mat.list) (r_dest : Room mem destP 4) (s_mat_dest : matP = destP ∨ Apart matP 4 destP 4) :
    C.glm_mat2_copy.run mem [matP.val, destP.val] =
      some (none, writes mem [(destP, (Cglm.glm_mat2_copy mat).list.map .f)]) := by
  rcases s_mat_dest with s_mat_dest | s_mat_dest
  · subst s_mat_dest
    exact transferL ((R.nil _).addW h_mat.has r_dest .nil) (.p rfl (.p rfl .nil)) (glm_mat2_copy_run_mat _) (DT.val_done _) rfl rfl
  · exact transferL (((R.nil _).addW r_dest.has r_dest .nil).addR h_mat.has (.cons s_mat_dest .nil)) (.p rfl (.p rfl .nil)) (glm_mat2_copy_run _) (DT.val_done _) rfl rfl
example (mat : M2 α) : let mem : Mem α := [⟨true, mat.list.map .f⟩]
    Holds mem (0, 0) mat.list ∧ Room mem (0, 0) 4 ∧ (((0, 0) : Ptr) = (0, 0) ∨ Apart (0, 0) 4 (0, 0) 4) :=
  ⟨.block rfl, .block rfl rfl, Or.inl rfl⟩

theorem C55_mat2_mul {mem : Mem α} {m1P m2P destP : Ptr} {m1 : M2 α} {m2 : M2 α} (h_m1 : Holds mem m1P m1.list) (h_m2 : Holds mem m2P m2.list) (r_dest : Room mem destP 4) (s_m1_dest : m1P = destP ∨ Apart m1P 4 destP 4) (s_m2_dest : m2P = destP ∨ Apart m2P 4 destP 4) :
    C.glm_mat2_mul.run mem [m1P.val, m2P.val, destP.val] =
      some (none, writes mem [(destP, (Cglm.glm_mat2_mul m1 m2).list.map .f)]) := by
  rcases s_m1_dest with s_m1_dest | s_m1_dest
  · subst s_m1_dest
    rcases s_m2_dest with s_m2_dest | s_m2_dest
    · subst s_m2_dest
      obtain rfl := M2.list_inj (h_m1.inj h_m2 rfl)
      exact transferL ((R.nil _).addW h_m1.has r_dest .nil) (.p rfl (.p rfl (.p rfl .nil))) (glm_mat2_mul_run_m1_m2 _) (DT.val_done _) rfl rfl
    · exact transferL (((R.nil _).addW h_m1.has r_dest .nil).addR h_m2.has (.cons s_m2_dest .nil)) (.p rfl (.p rfl (.p rfl .nil))) (glm_mat2_mul_run_m1 _ _) (DT.val_done _) rfl rfl
  · rcases s_m2_dest with s_m2_dest | s_m2_dest
    · subst s_m2_dest
      exact transferL (((R.nil _).addW h_m2.has r_dest .nil).addR h_m1.has (.cons s_m1_dest .nil)) (.p rfl (.p rfl (.p rfl .nil))) (glm_mat2_mul_run_m2 _ _) (DT.val_done _) rfl rfl
    · exact transferL ((((R.nil _).addW r_dest.has r_dest .nil).addR h_m2.has (.cons s_m2_dest .nil)).addR h_m1.has (.skip (.cons s_m1_dest .nil))) (.p rfl (.p rfl (.p rfl .nil))) (glm_mat2_mul_run _ _) (DT.val_done _) rfl rfl
example (m1 : M2 α) : let mem : Mem α := [⟨true, m1.list.map .f⟩]
    Holds mem (0, 0) m1.list ∧ Holds mem (0, 0) m1.list ∧ Room mem (0, 0) 4 ∧ (((0, 0) : Ptr) = (0, 0) ∨ Apart (0, 0) 4 (0, 0) 4) ∧ (((0, 0) : Ptr) = (0, 0) ∨ Apart (0, 0) 4 (0, 0) 4) :=
  ⟨.block rfl, .block rfl, .block rfl rfl, Or.inl rfl, Or.inl rfl⟩

theorem C55_mat2_inv {mem : Mem α} {matP destP : Ptr} {mat : M2 α} (h_mat : Holds mem matP mat.list) (r_dest : Room mem destP 4) (s_mat_dest : matP = destP ∨ Apart matP 4 destP 4) :
    C.glm_mat2_inv.run mem [matP.val, destP.val] =
      some (none, writes mem [(destP, (Cglm.glm_mat2_inv mat).list.map .f)]) := by
  rcases s_mat_dest with s_mat_dest | s_mat_dest
  · subst s_mat_dest
    exact transferL ((R.nil _).addW h_mat.has r_dest .nil) (.p rfl (.p rfl .nil)) (glm_mat2_inv_run_mat _) (DT.val_done _) rfl rfl
  · exact transferL (((R.nil _).addW r_dest.has r_dest .nil).addR h_mat.has (.cons s_mat_dest .nil)) (.p rfl (.p rfl .nil)) (glm_mat2_inv_run _) (DT.val_done _) rfl rfl
example (mat : M2 α) : let mem : Mem α := [⟨true, mat.list.map .f⟩]
    Holds mem (0, 0) mat.list ∧ Room mem (0, 0) 4 ∧ (((0, 0) : Ptr) = (0, 0) ∨ Apart (0, 0) 4 (0, 0) 4) :=
  ⟨.block rfl, .block rfl rfl, Or.inl rfl⟩

end Cglm

end C55Mat2

section C55Mat2x3

/-!
# C55: destination may alias an argument (include/cglm/mat2x3.h)

Each input is either the destination itself or does not overlap it; the result is the value-level function of
what the inputs held before the call, and nothing outside the destination changes.
-/

set_option linter.unusedVariables false
set_option linter.unusedSectionVars false

namespace Cglm
open CMem

variable {α : Type} [Add α] [Sub α] [Mul α] [Div α] [Neg α] [CFloat α]

theorem C55_mat2x3_copy {mem : Mem α} {srcP destP : Ptr} {src : M2x3 α} (h_src : Holds mem srcP src.list) (r_dest : Room mem destP 6) (s_src_dest : srcP = destP ∨ Apart srcP 6 destP 6) :
    C.glm_mat2x3_copy.run mem [srcP.val, destP.val] =
      some (none, writes mem [(destP, (Cglm.glm_mat2x3_copy src).list.map .f)]) := by
  rcases s_src_dest with s_src_dest | s_src_dest
  · subst s_src_dest
    exact transferL ((R.nil _).addW h_src.has r_dest .nil) (.p rfl (.p rfl .nil)) (glm_mat2x3_copy_run_src _) (DT.val_done _) rfl rfl
  · exact transferL (((R.nil _).addW r_dest.has r_dest .nil).addR h_src.has (.cons s_src_dest .nil)) (.p rfl (.p rfl .nil)) (glm_mat2x3_copy_run _) (DT.val_done _) rfl rfl
example (src : M2x3 α) : let mem : Mem α := [⟨true, src.list.map .f⟩]
    Holds mem (0, 0) src.list ∧ Room mem (0, 0) 6 ∧ (((0, 0) : Ptr) = (0, 0) ∨ Apart (0, 0) 6 (0, 0) 6) :=
  ⟨.block rfl, .block rfl rfl, Or.inl rfl⟩

end Cglm

end C55Mat2x3

section C55Mat2x4

/-!
# C55: destination may alias an argument (include/cglm/mat2x4.h)

Each input is either the destination itself or does not overlap it; the result is the value-level function of
what the inputs held before the call, and nothing outside the destination changes.
-/

set_option linter.unusedVariables false
set_option linter.unusedSectionVars false

namespace Cglm
open CMem

variable {α : Type} [Add α] [Sub α] [Mul α] [Div α] [Neg α] [CFloat α]

theorem C55_mat2x4_copy {mem : Mem α} {srcP destP : Ptr} {src : M2x4 α} (h_src : Holds mem srcP src.list) (r_dest : Room mem destP 8) (s_src_dest : srcP = destP ∨ Apart srcP 8 destP 8) :
    C.glm_mat2x4_copy.run mem [srcP.val, destP.val] =
      some (none, writes mem [(destP, (Cglm.glm_mat2x4_copy src).list.map .f)]) := by
  rcases s_src_dest with s_src_dest | s_src_dest
  · subst s_src_dest
    exact transferL ((R.nil _).addW h_src.has r_dest .nil) (.p rfl (.p rfl .nil)) (glm_mat2x4_copy_run_src _) (DT.val_done _) rfl rfl
  · exact transferL (((R.nil _).addW r_dest.has r_dest .nil).addR h_src.has (.cons s_src_dest .nil)) (.p rfl (.p rfl .nil)) (glm_mat2x4_copy_run _) (DT.val_done _) rfl rfl
example (src : M2x4 α) : let mem : Mem α := [⟨true, src.list.map .f⟩]
    Holds mem (0, 0) src.list ∧ Room mem (0, 0) 8 ∧ (((0, 0) : Ptr) = (0, 0) ∨ Apart (0, 0) 8 (0, 0) 8) :=
  ⟨.block rfl, .block rfl rfl, Or.inl rfl⟩

end Cglm

end C55Mat2x4

section C55Mat3

/-!
# C55: destination may alias an argument (include/cglm/mat3.h)

Each input is either the destination itself or does not overlap it; the result is the value-level function of
what the inputs held before the call, and nothing outside the destination changes.
-/

set_option linter.unusedVariables false
set_option linter.unusedSectionVars false

namespace Cglm
open CMem

variable {α : Type} [Add α] [Sub α] [Mul α] [Div α] [Neg α] [CFloat α]

theorem C55_mat3_copy {mem : Mem α} {matP destP : Ptr} {mat : M3 α} (h_mat : Holds mem matP mat.list) (r_dest : Room mem destP 9) (s_mat_dest : matP = destP ∨ Apart matP 9 destP 9) :
    C.glm_mat3_copy.run mem [matP.val, destP.val] =
      some (none, writes mem [(destP, (Cglm.glm_mat3_copy mat).list.map .f)]) := by
  rcases s_mat_dest with s_mat_dest | s_mat_dest
  · subst s_mat_dest
    exact transferL ((R.nil _).addW h_mat.has r_dest .nil) (.p rfl (.p rfl .nil)) (glm_mat3_copy_run_mat _) (DT.val_done _) rfl rfl
  · exact transferL (((R.nil _).addW r_dest.has r_dest .nil).addR h_mat.has (.cons s_mat_dest .nil)) (.p rfl (.p rfl .nil)) (glm_mat3_copy_run _) (DT.val_done _) rfl rfl
example (mat : M3 α) : let mem : Mem α := [⟨true, mat.list.map .f⟩]
    Holds mem (0, 0) mat.list ∧ Room mem (0, 0) 9 ∧ (((0, 0) : Ptr) = (0, 0) ∨ Apart (0, 0) 9 (0, 0) 9) :=
  ⟨.block rfl, .block rfl rfl, Or.inl rfl⟩

theorem C55_mat3_mul {mem : Mem α} {m1P m2P destP : Ptr} {m1 : M3 α} {m2 : M3 α} (h_m1 : Holds mem m1P m1.list) (h_m2 : Holds mem m2P m2.list) (r_dest : Room mem destP 9) (s_m1_dest : m1P = destP ∨ Apart m1P 9 destP 9) (s_m2_dest : m2P = destP ∨ Apart m2P 9 destP 9) :
    C.glm_mat3_mul.run mem [m1P.val, m2P.val, destP.val] =
      some (none, writes mem [(destP, (Cglm.glm_mat3_mul m1 m2).list.map .f)]) := by
  rcases s_m1_dest with s_m1_dest | s_m1_dest
  · subst s_m1_dest
    rcases s_m2_dest with s_m2_dest | s_m2_dest
    · subst s_m2_dest
      obtain rfl := M3.list_inj (h_m1.inj h_m2 rfl)
      exact transferL ((R.nil _).addW h_m1.has r_dest .nil) (.p rfl (.p rfl (.p rfl .nil))) (glm_mat3_mul_run_m1_m2 _) (DT.val_done _) rfl rfl
    · exact transferL (((R.nil _).addW h_m1.has r_dest .nil).addR h_m2.has (.cons s_m2_dest .nil)) (.p rfl (.p rfl (.p rfl .nil))) (glm_mat3_mul_run_m1 _ _) (DT.val_done _) rfl rfl
  · rcases s_m2_dest with s_m2_dest | s_m2_dest
    · subst s_m2_dest
      exact transferL (((R.nil _).addW h_m2.has r_dest .nil).addR h_m1.has (.cons s_m1_dest .nil)) (.p rfl (.p rfl (.p rfl .nil))) (glm_mat3_mul_run_m2 _ _) (DT.val_done _) rfl rfl
    · exact transferL ((((R.nil _).addW r_dest.has r_dest .nil).addR h_m2.has (.cons s_m2_dest .nil)).addR h_m1.has (.skip (.cons s_m1_dest .nil))) (.p rfl (.p rfl (.p rfl .nil))) (glm_mat3_mul_run _ _) (DT.val_done _) rfl rfl
example (m1 : M3 α) : let mem : Mem α := [⟨true, m1.list.map .f⟩]
    Holds mem (0, 0) m1.list ∧ Holds mem (0, 0) m1.list ∧ Room mem (0, 0) 9 ∧ (((0, 0) : Ptr) = (0, 0) ∨ Apart (0, 0) 9 (0, 0) 9) ∧ (((0, 0) : Ptr) = (0, 0) ∨ Apart (0, 0) 9 (0, 0) 9) :=
  ⟨.block rfl, .block rfl, .block rfl rfl, Or.inl rfl, Or.inl rfl⟩

theorem C55_mat3_mulv {mem : Mem α} {mP vP destP : Ptr} {m : M3 α} {v : V3 α} (h_m : Holds mem mP m.list) (h_v : Holds mem vP v.list) (r_dest : Room mem destP 3) (s_m_dest : Apart mP 9 destP 3) (s_v_dest : vP = destP ∨ Apart vP 3 destP 3) :
    C.glm_mat3_mulv.run mem [mP.val, vP.val, destP.val] =
      some (none, writes mem [(destP, (Cglm.glm_mat3_mulv m v).list.map .f)]) := by
  rcases s_v_dest with s_v_dest | s_v_dest
  · subst s_v_dest
    exact transferL (((R.nil _).addW h_v.has r_dest .nil).addR h_m.has (.cons s_m_dest .nil)) (.p rfl (.p rfl (.p rfl .nil))) (glm_mat3_mulv_run_v _ _) (DT.val_done _) rfl rfl
  · exact transferL ((((R.nil _).addW r_dest.has r_dest .nil).addR h_v.has (.cons s_v_dest .nil)).addR h_m.has (.skip (.cons s_m_dest .nil))) (.p rfl (.p rfl (.p rfl .nil))) (glm_mat3_mulv_run _ _) (DT.val_done _) rfl rfl
example (m : M3 α) (v : V3 α) : let mem : Mem α := [⟨false, m.list.map .f⟩, ⟨true, v.list.map .f⟩]
    Holds mem (0, 0) m.list ∧ Holds mem (1, 0) v.list ∧ Room mem (1, 0) 3 ∧ Apart (0, 0) 9 (1, 0) 3 ∧ (((1, 0) : Ptr) = (1, 0) ∨ Apart (1, 0) 3 (1, 0) 3) :=
  ⟨.block rfl, .block rfl, .block rfl rfl, Or.inl (by decide), Or.inl rfl⟩

theorem C55_mat3_inv {mem : Mem α} {matP destP : Ptr} {mat : M3 α} (h_mat : Holds mem matP mat.list) (r_dest : Room mem destP 9) (s_mat_dest : matP = destP ∨ Apart matP 9 destP 9) :
    C.glm_mat3_inv.run mem [matP.val, destP.val] =
      some (none, writes mem [(destP, (Cglm.glm_mat3_inv mat).list.map .f)]) := by
  rcases s_mat_dest with s_mat_dest | s_mat_dest
  · subst s_mat_dest
    exact transferL ((R.nil _).addW h_mat.has r_dest .nil) (.p rfl (.p rfl .nil)) (glm_mat3_inv_run_mat _) (DT.val_done _) rfl rfl
  · exact transferL (((R.nil _).addW r_dest.has r_dest .nil).addR h_mat.has (.cons s_mat_dest .nil)) (.p rfl (.p rfl .nil)) (glm_mat3_inv_run _) (DT.val_done _) rfl rfl
example (mat : M3 α) : let mem : Mem α := [⟨true, mat.list.map .f⟩]
    Holds mem (0, 0) mat.list ∧ Room mem (0, 0) 9 ∧ (((0, 0) : Ptr) = (0, 0) ∨ Apart (0, 0) 9 (0, 0) 9) :=
  ⟨.block rfl, .block rfl rfl, Or.inl rfl⟩

end Cglm

end C55Mat3

section C55Mat3x2

/-!
# C55: destination may alias an argument (include/cglm/mat3x2.h)

Each input is either the destination itself or does not overlap it; the result is the value-level function of
what the inputs held before the call, and nothing outside the destination changes.
-/

set_option linter.unusedVariables false
set_option linter.unusedSectionVars false

namespace Cglm
open CMem

variable {α : Type} [Add α] [Sub α] [Mul α] [Div α] [Neg α] [CFloat α]

theorem C55_mat3x2_copy {mem : Mem α} {srcP destP : Ptr} {src : M3x2 α} (h_src : Holds mem srcP src.list) (r_dest : Room mem destP 6) (s_src_dest : srcP = destP ∨ Apart srcP 6 destP 6) :
    C.glm_mat3x2_copy.run mem [srcP.val, destP.val] =
      some (none, writes mem [(destP, (Cglm.glm_mat3x2_copy src).list.map .f)]) := by
  rcases s_src_dest with s_src_dest | s_src_dest
  · subst s_src_dest
    exact transferL ((R.nil _).addW h_src.has r_dest .nil) (.p rfl (.p rfl .nil)) (glm_mat3x2_copy_run_src _) (DT.val_done _) rfl rfl
  · exact transferL (((R.nil _).addW r_dest.has r_dest .nil).addR h_src.has (.cons s_src_dest .nil)) (.p rfl (.p rfl .nil)) (glm_mat3x2_copy_run _) (DT.val_done _) rfl rfl
example (src : M3x2 α) : let mem : Mem α := [⟨true, src.list.map .f⟩]
    Holds mem (0, 0) src.list ∧ Room mem (0, 0) 6 ∧ (((0, 0) : Ptr) = (0, 0) ∨ Apart (0, 0) 6 (0, 0) 6) :=
  ⟨.block rfl, .block rfl rfl, Or.inl rfl⟩

end Cglm

end C55Mat3x2

section C55Mat3x4

/-!
# C55: destination may alias an argument (include/cglm/mat3x4.h)

Each input is either the destination itself or does not overlap it; the result is the value-level function of
what the inputs held before the call, and nothing outside the destination changes.
-/

set_option linter.unusedVariables false
set_option linter.unusedSectionVars false

namespace Cglm
open CMem

variable {α : Type} [Add α] [Sub α] [Mul α] [Div α] [Neg α] [CFloat α]

theorem C55_mat3x4_copy {mem : Mem α} {srcP destP : Ptr} {src : M3x4 α} (h_src : Holds mem srcP src.list) (r_dest : Room mem destP 12) (s_src_dest : srcP = destP ∨ Apart srcP 12 destP 12) :
    C.glm_mat3x4_copy.run mem [srcP.val, destP.val] =
      some (none, writes mem [(destP, (Cglm.glm_mat3x4_copy src).list.map .f)]) := by
  rcases s_src_dest with s_src_dest | s_src_dest
  · subst s_src_dest
    exact transferL ((R.nil _).addW h_src.has r_dest .nil) (.p rfl (.p rfl .nil)) (glm_mat3x4_copy_run_src _) (DT.val_done _) rfl rfl
  · exact transferL (((R.nil _).addW r_dest.has r_dest .nil).addR h_src.has (.cons s_src_dest .nil)) (.p rfl (.p rfl .nil)) (glm_mat3x4_copy_run _) (DT.val_done _) rfl rfl
example (src : M3x4 α) : let mem : Mem α := [⟨true, src.list.map .f⟩]
    Holds mem (0, 0) src.list ∧ Room mem (0, 0) 12 ∧ (((0, 0) : Ptr) = (0, 0) ∨ Apart (0, 0) 12 (0, 0) 12) :=
  ⟨.block rfl, .block rfl rfl, Or.inl rfl⟩

end Cglm

end C55Mat3x4

section C55Mat4

/-!
# C55: destination may alias an argument (include/cglm/mat4.h)

Each input is either the destination itself or does not overlap it; the result is the value-level function of
what the inputs held before the call, and nothing outside the destination changes.
-/

set_option linter.unusedVariables false
set_option linter.unusedSectionVars false

namespace Cglm
open CMem

variable {α : Type} [Add α] [Sub α] [Mul α] [Div α] [Neg α] [CFloat α]

theorem C55_mat4_ucopy {mem : Mem α} {matP destP : Ptr} {mat : M4 α} (h_mat : Holds mem matP mat.list) (r_dest : Room mem destP 16) (s_mat_dest : matP = destP ∨ Apart matP 16 destP 16) :
    C.glm_mat4_ucopy.run mem [matP.val, destP.val] =
      some (none, writes mem [(destP, (Cglm.glm_mat4_ucopy mat).list.map .f)]) := by
  rcases s_mat_dest with s_mat_dest | s_mat_dest
  · subst s_mat_dest
    exact transferL ((R.nil _).addW h_mat.has r_dest .nil) (.p rfl (.p rfl .nil)) (glm_mat4_ucopy_run_mat _) (DT.val_done _) rfl rfl
  · exact transferL (((R.nil _).addW r_dest.has r_dest .nil).addR h_mat.has (.cons s_mat_dest .nil)) (.p rfl (.p rfl .nil)) (glm_mat4_ucopy_run _) (DT.val_done _) rfl rfl
example (mat : M4 α) : let mem : Mem α := [⟨true, mat.list.map .f⟩]
    Holds mem (0, 0) mat.list ∧ Room mem (0, 0) 16 ∧ (((0, 0) : Ptr) = (0, 0) ∨ Apart (0, 0) 16 (0, 0) 16) :=
  ⟨.block rfl, .block rfl rfl, Or.inl rfl⟩

theorem C55_mat4_copy {mem : Mem α} {matP destP : Ptr} {mat : M4 α} (h_mat : Holds mem matP mat.list) (r_dest : Room mem destP 16) (s_mat_dest : matP = destP ∨ Apart matP 16 destP 16) :
    C.glm_mat4_copy.run mem [matP.val, destP.val] =
      some (none, writes mem [(destP, (Cglm.glm_mat4_copy mat).list.map .f)]) := by
  rcases s_mat_dest with s_mat_dest | s_mat_dest
  · subst s_mat_dest
    exact transferL ((R.nil _).addW h_mat.has r_dest .nil) (.p rfl (.p rfl .nil)) (glm_mat4_copy_run_mat _) (DT.val_done _) rfl rfl
  · exact transferL (((R.nil _).addW r_dest.has r_dest .nil).addR h_mat.has (.cons s_mat_dest .nil)) (.p rfl (.p rfl .nil)) (glm_mat4_copy_run _) (DT.val_done _) rfl rfl
example (mat : M4 α) : let mem : Mem α := [⟨true, mat.list.map .f⟩]
    Holds mem (0, 0) mat.list ∧ Room mem (0, 0) 16 ∧ (((0, 0) : Ptr) = (0, 0) ∨ Apart (0, 0) 16 (0, 0) 16) :=
  ⟨.block rfl, .block rfl rfl, Or.inl rfl⟩

theorem C55_mat4_mul {mem : Mem α} {m1P m2P destP : Ptr} {m1 : M4 α} {m2 : M4 α} (h_m1 : Holds mem m1P m1.list) (h_m2 : Holds mem m2P m2.list) (r_dest : Room mem destP 16) (s_m1_dest : m1P = destP ∨ Apart m1P 16 destP 16) (s_m2_dest : m2P = destP ∨ Apart m2P 16 destP 16) :
    C.glm_mat4_mul.run mem [m1P.val, m2P.val, destP.val] =
      some (none, writes mem [(destP, (Cglm.glm_mat4_mul m1 m2).list.map .f)]) := by
  rcases s_m1_dest with s_m1_dest | s_m1_dest
  · subst s_m1_dest
    rcases s_m2_dest with s_m2_dest | s_m2_dest
    · subst s_m2_dest
      obtain rfl := M4.list_inj (h_m1.inj h_m2 rfl)
      exact transferL ((R.nil _).addW h_m1.has r_dest .nil) (.p rfl (.p rfl (.p rfl .nil))) (glm_mat4_mul_run_m1_m2 _) (DT.val_done _) rfl rfl
    · exact transferL (((R.nil _).addW h_m1.has r_dest .nil).addR h_m2.has (.cons s_m2_dest .nil)) (.p rfl (.p rfl (.p rfl .nil))) (glm_mat4_mul_run_m1 _ _) (DT.val_done _) rfl rfl
  · rcases s_m2_dest with s_m2_dest | s_m2_dest
    · subst s_m2_dest
      exact transferL (((R.nil _).addW h_m2.has r_dest .nil).addR h_m1.has (.cons s_m1_dest .nil)) (.p rfl (.p rfl (.p rfl .nil))) (glm_mat4_mul_run_m2 _ _) (DT.val_done _) rfl rfl
    · exact transferL ((((R.nil _).addW r_dest.has r_dest .nil).addR h_m2.has (.cons s_m2_dest .nil)).addR h_m1.has (.skip (.cons s_m1_dest .nil))) (.p rfl (.p rfl (.p rfl .nil))) (glm_mat4_mul_run _ _) (DT.val_done _) rfl rfl
example (m1 : M4 α) : let mem : Mem α := [⟨true, m1.list.map .f⟩]
    Holds mem (0, 0) m1.list ∧ Holds mem (0, 0) m1.list ∧ Room mem (0, 0) 16 ∧ (((0, 0) : Ptr) = (0, 0) ∨ Apart (0, 0) 16 (0, 0) 16) ∧ (((0, 0) : Ptr) = (0, 0) ∨ Apart (0, 0) 16 (0, 0) 16) :=
  ⟨.block rfl, .block rfl, .block rfl rfl, Or.inl rfl, Or.inl rfl⟩

theorem C55_mat4_mulv {mem : Mem α} {mP vP destP : Ptr} {m : M4 α} {v : V4 α} (h_m : Holds mem mP m.list) (h_v : Holds mem vP v.list) (r_dest : Room mem destP 4) (s_m_dest : Apart mP 16 destP 4) (s_v_dest : vP = destP ∨ Apart vP 4 destP 4) :
    C.glm_mat4_mulv.run mem [mP.val, vP.val, destP.val] =
      some (none, writes mem [(destP, (Cglm.glm_mat4_mulv m v).list.map .f)]) := by
  rcases s_v_dest with s_v_dest | s_v_dest
  · subst s_v_dest
    exact transferL (((R.nil _).addW h_v.has r_dest .nil).addR h_m.has (.cons s_m_dest .nil)) (.p rfl (.p rfl (.p rfl .nil))) (glm_mat4_mulv_run_v _ _) (DT.val_done _) rfl rfl
  · exact transferL ((((R.nil _).addW r_dest.has r_dest .nil).addR h_v.has (.cons s_v_dest .nil)).addR h_m.has (.skip (.cons s_m_dest .nil))) (.p rfl (.p rfl (.p rfl .nil))) (glm_mat4_mulv_run _ _) (DT.val_done _) rfl rfl
example (m : M4 α) (v : V4 α) : let mem : Mem α := [⟨false, m.list.map .f⟩, ⟨true, v.list.map .f⟩]
    Holds mem (0, 0) m.list ∧ Holds mem (1, 0) v.list ∧ Room mem (1, 0) 4 ∧ Apart (0, 0) 16 (1, 0) 4 ∧ (((1, 0) : Ptr) = (1, 0) ∨ Apart (1, 0) 4 (1, 0) 4) :=
  ⟨.block rfl, .block rfl, .block rfl rfl, Or.inl (by decide), Or.inl rfl⟩

theorem C55_mat4_mulv3 {mem : Mem α} {mP vP destP : Ptr} {m : M4 α} {v : V3 α} (last : α) (h_m : Holds mem mP m.list) (h_v : Holds mem vP v.list) (r_dest : Room mem destP 3) (s_m_dest : Apart mP 16 destP 3) (s_v_dest : vP = destP ∨ Apart vP 3 destP 3) :
    C.glm_mat4_mulv3.run mem [mP.val, vP.val, .f last, destP.val] =
      some (none, writes mem [(destP, (Cglm.glm_mat4_mulv3 m v last).list.map .f)]) := by
  rcases s_v_dest with s_v_dest | s_v_dest
  · subst s_v_dest
    exact transferL (((R.nil _).addW h_v.has r_dest .nil).addR h_m.has (.cons s_m_dest .nil)) (.p rfl (.p rfl (.f (.p rfl .nil)))) (glm_mat4_mulv3_run_v _ _ _) (DT.val_done _) rfl rfl
  · exact transferL ((((R.nil _).addW r_dest.has r_dest .nil).addR h_v.has (.cons s_v_dest .nil)).addR h_m.has (.skip (.cons s_m_dest .nil))) (.p rfl (.p rfl (.f (.p rfl .nil)))) (glm_mat4_mulv3_run _ _ _) (DT.val_done _) rfl rfl
example (m : M4 α) (v : V3 α) : let mem : Mem α := [⟨false, m.list.map .f⟩, ⟨true, v.list.map .f⟩]
    Holds mem (0, 0) m.list ∧ Holds mem (1, 0) v.list ∧ Room mem (1, 0) 3 ∧ Apart (0, 0) 16 (1, 0) 3 ∧ (((1, 0) : Ptr) = (1, 0) ∨ Apart (1, 0) 3 (1, 0) 3) :=
  ⟨.block rfl, .block rfl, .block rfl rfl, Or.inl (by decide), Or.inl rfl⟩

theorem C55_mat4_inv {mem : Mem α} {matP destP : Ptr} {mat : M4 α} (h_mat : Holds mem matP mat.list) (r_dest : Room mem destP 16) (s_mat_dest : matP = destP ∨ Apart matP 16 destP 16) :
    C.glm_mat4_inv.run mem [matP.val, destP.val] =
      some (none, writes mem [(destP, (Cglm.glm_mat4_inv mat).list.map .f)]) := by
  rcases s_mat_dest with s_mat_dest | s_mat_dest
  · subst s_mat_dest
    exact transferL ((R.nil _).addW h_mat.has r_dest .nil) (.p rfl (.p rfl .nil)) (glm_mat4_inv_run_mat _) (DT.val_done _) rfl rfl
  · exact transferL (((R.nil _).addW r_dest.has r_dest .nil).addR h_mat.has (.cons s_mat_dest .nil)) (.p rfl (.p rfl .nil)) (glm_mat4_inv_run _) (DT.val_done _) rfl rfl
example (mat : M4 α) : let mem : Mem α := [⟨true, mat.list.map .f⟩]
    Holds mem (0, 0) mat.list ∧ Room mem (0, 0) 16 ∧ (((0, 0) : Ptr) = (0, 0) ∨ Apart (0, 0) 16 (0, 0) 16) :=
  ⟨.block rfl, .block rfl rfl, Or.inl rfl⟩

theorem C55_mat4_inv_fast {mem : Mem α} {matP destP : Ptr} {mat : M4 α} (h_mat : Holds mem matP mat.list) (r_dest : Room mem destP 16) (s_mat_dest : matP = destP ∨ Apart matP 16 destP 16) :
    C.glm_mat4_inv_fast.run mem [matP.val, destP.val] =
      some (none, writes mem [(destP, (Cglm.glm_mat4_inv_fast mat).list.map .f)]) := by
  rcases s_mat_dest with s_mat_dest | s_mat_dest
  · subst s_mat_dest
    exact transferL ((R.nil _).addW h_mat.has r_dest .nil) (.p rfl (.p rfl .nil)) (glm_mat4_inv_fast_run_mat _) (DT.val_done _) rfl rfl
  · exact transferL (((R.nil _).addW r_dest.has r_dest .nil).addR h_mat.has (.cons s_mat_dest .nil)) (.p rfl (.p rfl .nil)) (glm_mat4_inv_fast_run _) (DT.val_done _) rfl rfl
example (mat : M4 α) : let mem : Mem α := [⟨true, mat.list.map .f⟩]
    Holds mem (0, 0) mat.list ∧ Room mem (0, 0) 16 ∧ (((0, 0) : Ptr) = (0, 0) ∨ Apart (0, 0) 16 (0, 0) 16) :=
  ⟨.block rfl, .block rfl rfl, Or.inl rfl⟩

end Cglm

end C55Mat4

section C55Mat4x2

/-!
# C55: destination may alias an argument (include/cglm/mat4x2.h)

Each input is either the destination itself or does not overlap it; the result is the value-level function of
what the inputs held before the call, and nothing outside the destination changes.
-/

set_option linter.unusedVariables false
set_option linter.unusedSectionVars false

namespace Cglm
open CMem

variable {α : Type} [Add α] [Sub α] [Mul α] [Div α] [Neg α] [CFloat α]

theorem C55_mat4x2_copy {mem : Mem α} {srcP destP : Ptr} {src : M4x2 α} (h_src : Holds mem srcP src.list) (r_dest : Room mem destP 8) (s_src_dest : srcP = destP ∨ Apart srcP 8 destP 8) :
    C.glm_mat4x2_copy.run mem [srcP.val, destP.val] =
      some (none, writes mem [(destP, (Cglm.glm_mat4x2_copy src).list.map .f)]) := by
  rcases s_src_dest with s_src_dest | s_src_dest
  · subst s_src_dest
    exact transferL ((R.nil _).addW h_src.has r_dest .nil) (.p rfl (.p rfl .nil)) (glm_mat4x2_copy_run_src _) (DT.val_done _) rfl rfl
  · exact transferL (((R.nil _).addW r_dest.has r_dest .nil).addR h_src.has (.cons s_src_dest .nil)) (.p rfl (.p rfl .nil)) (glm_mat4x2_copy_run _) (DT.val_done _) rfl rfl
example (src : M4x2 α) : let mem : Mem α := [⟨true, src.list.map .f⟩]
    Holds mem (0, 0) src.list ∧ Room mem (0, 0) 8 ∧ (((0, 0) : Ptr) = (0, 0) ∨ Apart (0, 0) 8 (0, 0) 8) :=
  ⟨.block rfl, .block rfl rfl, Or.inl rfl⟩

end Cglm

end C55Mat4x2

section C55Mat4x3

/-!
# C55: destination may alias an argument (include/cglm/mat4x3.h)

Each input is either the destination itself or does not overlap it; the result is the value-level function of
what the inputs held before the call, and nothing outside the destination changes.
-/

set_option linter.unusedVariables false
set_option linter.unusedSectionVars false

namespace Cglm
open CMem

variable {α : Type} [Add α] [Sub α] [Mul α] [Div α] [Neg α] [CFloat α]

theorem C55_mat4x3_copy {mem : Mem α} {srcP destP : Ptr} {src : M4x3 α} (h_src : Holds mem srcP src.list) (r_dest : Room mem destP 12) (s_src_dest : srcP = destP ∨ Apart srcP 12 destP 12) :
    C.glm_mat4x3_copy.run mem [srcP.val, destP.val] =
      some (none, writes mem [(destP, (Cglm.glm_mat4x3_copy src).list.map .f)]) := by
  rcases s_src_dest with s_src_dest | s_src_dest
  · subst s_src_dest
    exact transferL ((R.nil _).addW h_src.has r_dest .nil) (.p rfl (.p rfl .nil)) (glm_mat4x3_copy_run_src _) (DT.val_done _) rfl rfl
  · exact transferL (((R.nil _).addW r_dest.has r_dest .nil).addR h_src.has (.cons s_src_dest .nil)) (.p rfl (.p rfl .nil)) (glm_mat4x3_copy_run _) (DT.val_done _) rfl rfl
example (src : M4x3 α) : let mem : Mem α := [⟨true, src.list.map .f⟩]
    Holds mem (0, 0) src.list ∧ Room mem (0, 0) 12 ∧ (((0, 0) : Ptr) = (0, 0) ∨ Apart (0, 0) 12 (0, 0) 12) :=
  ⟨.block rfl, .block rfl rfl, Or.inl rfl⟩

end Cglm

end C55Mat4x3
