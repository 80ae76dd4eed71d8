/- Generated by tools/overthms.py; do not edit by hand. -/
import Verif.CMemOver
import Verif.Lib.Mat
import Verif.Mem.MatsRun

/-!
# C98: outputs that overlap inputs

Inputs and outputs may overlap in any way, or, for functions that work component by component, in any way except that an
output begins inside an input (`Over`).  Outputs do not overlap each other.  The result is the value-level function of
what the inputs held before the call, and nothing outside the outputs changes.
-/

set_option linter.unusedVariables false
set_option linter.unusedSectionVars false

namespace Cglm
open CMem

variable {α : Type} [Add α] [Sub α] [Mul α] [Div α] [Neg α] [CFloat α]

theorem C98_mat4_pick3 {mem : Mem α} {matP destP : Ptr} {mat : M4 α} (h_mat : Holds mem matP mat.list) (r_dest : Room mem destP 9) (o_mat_dest : Over matP 16 destP 9) :
    C.glm_mat4_pick3.run mem [matP.val, destP.val] =
      some (none, writes mem [(destP, (Cglm.glm_mat4_pick3 mat).list.map .f)]) :=
  transferO (e := Lib.glm_mat4_pick3) (up := false) (by kernel_rfl) (((RO.nil false _).addP r_dest.has r_dest .nil .nil).addO h_mat.has (.cons o_mat_dest .nil)) (.p rfl (.p rfl .nil)) (glm_mat4_pick3_run _) (DT.val_done _) rfl rfl rfl
example (mat : M4 α) : let mem : Mem α := [⟨true, .undef :: mat.list.map .f⟩]
    Holds mem (0, 1) mat.list ∧ Room mem (0, 0) 9 ∧ Over (0, 1) 16 (0, 0) 9 :=
  ⟨.within rfl rfl, .within rfl rfl, Or.inl (by decide)⟩

theorem C98_mat4_mul {mem : Mem α} {m1P m2P destP : Ptr} {m1 : M4 α} {m2 : M4 α} (h_m1 : Holds mem m1P m1.list) (h_m2 : Holds mem m2P m2.list) (r_dest : Room mem destP 16) :
    C.glm_mat4_mul.run mem [m1P.val, m2P.val, destP.val] =
      some (none, writes mem [(destP, (Cglm.glm_mat4_mul m1 m2).list.map .f)]) :=
  transferO (e := Lib.glm_mat4_mul) (up := true) (by kernel_rfl) ((((RO.nil true _).addW r_dest.has r_dest .nil).addR h_m2.has).addR h_m1.has) (.p rfl (.p rfl (.p rfl .nil))) (glm_mat4_mul_run _ _) (DT.val_done _) rfl rfl rfl
example (m1 : M4 α) (m2 : M4 α) : let mem : Mem α := [⟨true, m1.list.map .f ++ List.replicate 16 .undef⟩, ⟨false, m2.list.map .f⟩]
    Holds mem (0, 0) m1.list ∧ Holds mem (1, 0) m2.list ∧ Room mem (0, 1) 16 :=
  ⟨.within rfl rfl, .within rfl rfl, .within rfl rfl⟩

theorem C98_mat4_mulv {mem : Mem α} {mP vP destP : Ptr} {m : M4 α} {v : V4 α} (h_m : Holds mem mP m.list) (h_v : Holds mem vP v.list) (r_dest : Room mem destP 4) :
    C.glm_mat4_mulv.run mem [mP.val, vP.val, destP.val] =
      some (none, writes mem [(destP, (Cglm.glm_mat4_mulv m v).list.map .f)]) :=
  transferO (e := Lib.glm_mat4_mulv) (up := true) (by kernel_rfl) ((((RO.nil true _).addW r_dest.has r_dest .nil).addR h_v.has).addR h_m.has) (.p rfl (.p rfl (.p rfl .nil))) (glm_mat4_mulv_run _ _) (DT.val_done _) rfl rfl rfl
example (m : M4 α) (v : V4 α) : let mem : Mem α := [⟨true, m.list.map .f ++ List.replicate 4 .undef⟩, ⟨false, v.list.map .f⟩]
    Holds mem (0, 0) m.list ∧ Holds mem (1, 0) v.list ∧ Room mem (0, 1) 4 :=
  ⟨.within rfl rfl, .within rfl rfl, .within rfl rfl⟩

theorem C98_mat4_mulv3 {mem : Mem α} {mP vP destP : Ptr} {m : M4 α} {v : V3 α} (last : α) (h_m : Holds mem mP m.list) (h_v : Holds mem vP v.list) (r_dest : Room mem destP 3) :
    C.glm_mat4_mulv3.run mem [mP.val, vP.val, .f last, destP.val] =
      some (none, writes mem [(destP, (Cglm.glm_mat4_mulv3 m v last).list.map .f)]) :=
  transferO (e := Lib.glm_mat4_mulv3) (up := true) (by kernel_rfl) ((((RO.nil true _).addW r_dest.has r_dest .nil).addR h_v.has).addR h_m.has) (.p rfl (.p rfl (.f (.p rfl .nil)))) (glm_mat4_mulv3_run _ _ _) (DT.val_done _) rfl rfl rfl
example (m : M4 α) (v : V3 α) : let mem : Mem α := [⟨true, m.list.map .f ++ List.replicate 3 .undef⟩, ⟨false, v.list.map .f⟩]
    Holds mem (0, 0) m.list ∧ Holds mem (1, 0) v.list ∧ Room mem (0, 1) 3 :=
  ⟨.within rfl rfl, .within rfl rfl, .within rfl rfl⟩

theorem C98_mat4_inv {mem : Mem α} {matP destP : Ptr} {mat : M4 α} (h_mat : Holds mem matP mat.list) (r_dest : Room mem destP 16) :
    C.glm_mat4_inv.run mem [matP.val, destP.val] =
      some (none, writes mem [(destP, (Cglm.glm_mat4_inv mat).list.map .f)]) :=
  transferO (e := Lib.glm_mat4_inv) (up := true) (by kernel_rfl) (((RO.nil true _).addW r_dest.has r_dest .nil).addR h_mat.has) (.p rfl (.p rfl .nil)) (glm_mat4_inv_run _) (DT.val_done _) rfl rfl rfl
example (mat : M4 α) : let mem : Mem α := [⟨true, mat.list.map .f ++ List.replicate 16 .undef⟩]
    Holds mem (0, 0) mat.list ∧ Room mem (0, 1) 16 :=
  ⟨.within rfl rfl, .within rfl rfl⟩

theorem C98_mat4_inv_fast {mem : Mem α} {matP destP : Ptr} {mat : M4 α} (h_mat : Holds mem matP mat.list) (r_dest : Room mem destP 16) :
    C.glm_mat4_inv_fast.run mem [matP.val, destP.val] =
      some (none, writes mem [(destP, (Cglm.glm_mat4_inv_fast mat).list.map .f)]) :=
  transferO (e := Lib.glm_mat4_inv_fast) (up := true) (by kernel_rfl) (((RO.nil true _).addW r_dest.has r_dest .nil).addR h_mat.has) (.p rfl (.p rfl .nil)) (glm_mat4_inv_fast_run _) (DT.val_done _) rfl rfl rfl
example (mat : M4 α) : let mem : Mem α := [⟨true, mat.list.map .f ++ List.replicate 16 .undef⟩]
    Holds mem (0, 0) mat.list ∧ Room mem (0, 1) 16 :=
  ⟨.within rfl rfl, .within rfl rfl⟩

theorem C98_mat4x2_copy {mem : Mem α} {srcP destP : Ptr} {src : M4x2 α} (h_src : Holds mem srcP src.list) (r_dest : Room mem destP 8) (o_src_dest : Over srcP 8 destP 8) :
    C.glm_mat4x2_copy.run mem [srcP.val, destP.val] =
      some (none, writes mem [(destP, (Cglm.glm_mat4x2_copy src).list.map .f)]) :=
  transferO (e := Lib.glm_mat4x2_copy) (up := false) (by kernel_rfl) (((RO.nil false _).addP r_dest.has r_dest .nil .nil).addO h_src.has (.cons o_src_dest .nil)) (.p rfl (.p rfl .nil)) (glm_mat4x2_copy_run _) (DT.val_done _) rfl rfl rfl
example (src : M4x2 α) : let mem : Mem α := [⟨true, .undef :: src.list.map .f⟩]
    Holds mem (0, 1) src.list ∧ Room mem (0, 0) 8 ∧ Over (0, 1) 8 (0, 0) 8 :=
  ⟨.within rfl rfl, .within rfl rfl, Or.inl (by decide)⟩

theorem C98_mat4x2_make {mem : Mem α} {srcP destP : Ptr} {src : V8 α} (h_src : Holds mem srcP src.list) (r_dest : Room mem destP 8) (o_src_dest : Over srcP 8 destP 8) :
    C.glm_mat4x2_make.run mem [srcP.val, destP.val] =
      some (none, writes mem [(destP, (Cglm.glm_mat4x2_make src).list.map .f)]) :=
  transferO (e := Lib.glm_mat4x2_make) (up := false) (by kernel_rfl) (((RO.nil false _).addP r_dest.has r_dest .nil .nil).addO h_src.has (.cons o_src_dest .nil)) (.p rfl (.p rfl .nil)) (glm_mat4x2_make_run _) (DT.val_done _) rfl rfl rfl
example (src : V8 α) : let mem : Mem α := [⟨true, .undef :: src.list.map .f⟩]
    Holds mem (0, 1) src.list ∧ Room mem (0, 0) 8 ∧ Over (0, 1) 8 (0, 0) 8 :=
  ⟨.within rfl rfl, .within rfl rfl, Or.inl (by decide)⟩

theorem C98_mat4x2_mul {mem : Mem α} {m1P m2P destP : Ptr} {m1 : M4x2 α} {m2 : M2x4 α} (h_m1 : Holds mem m1P m1.list) (h_m2 : Holds mem m2P m2.list) (r_dest : Room mem destP 4) :
    C.glm_mat4x2_mul.run mem [m1P.val, m2P.val, destP.val] =
      some (none, writes mem [(destP, (Cglm.glm_mat4x2_mul m1 m2).list.map .f)]) :=
  transferO (e := Lib.glm_mat4x2_mul) (up := true) (by kernel_rfl) ((((RO.nil true _).addW r_dest.has r_dest .nil).addR h_m2.has).addR h_m1.has) (.p rfl (.p rfl (.p rfl .nil))) (glm_mat4x2_mul_run _ _) (DT.val_done _) rfl rfl rfl
example (m1 : M4x2 α) (m2 : M2x4 α) : let mem : Mem α := [⟨true, m1.list.map .f ++ List.replicate 4 .undef⟩, ⟨false, m2.list.map .f⟩]
    Holds mem (0, 0) m1.list ∧ Holds mem (1, 0) m2.list ∧ Room mem (0, 1) 4 :=
  ⟨.within rfl rfl, .within rfl rfl, .within rfl rfl⟩

theorem C98_mat4x2_mulv {mem : Mem α} {mP vP destP : Ptr} {m : M4x2 α} {v : V4 α} (h_m : Holds mem mP m.list) (h_v : Holds mem vP v.list) (r_dest : Room mem destP 2) (o_m_dest : Over mP 8 destP 2) (o_v_dest : Over vP 4 destP 2) :
    C.glm_mat4x2_mulv.run mem [mP.val, vP.val, destP.val] =
      some (none, writes mem [(destP, (Cglm.glm_mat4x2_mulv m v).list.map .f)]) :=
  transferO (e := Lib.glm_mat4x2_mulv) (up := false) (by kernel_rfl) ((((RO.nil false _).addP r_dest.has r_dest .nil .nil).addO h_v.has (.cons o_v_dest .nil)).addO h_m.has (.skip (.cons o_m_dest .nil))) (.p rfl (.p rfl (.p rfl .nil))) (glm_mat4x2_mulv_run _ _) (DT.val_done _) rfl rfl rfl
example (m : M4x2 α) (v : V4 α) : let mem : Mem α := [⟨true, .undef :: m.list.map .f⟩, ⟨false, v.list.map .f⟩]
    Holds mem (0, 1) m.list ∧ Holds mem (1, 0) v.list ∧ Room mem (0, 0) 2 ∧ Over (0, 1) 8 (0, 0) 2 ∧ Over (1, 0) 4 (0, 0) 2 :=
  ⟨.within rfl rfl, .within rfl rfl, .within rfl rfl, Or.inl (by decide), Or.inl (by decide)⟩

theorem C98_mat4x3_copy {mem : Mem α} {srcP destP : Ptr} {src : M4x3 α} (h_src : Holds mem srcP src.list) (r_dest : Room mem destP 12) (o_src_dest : Over srcP 12 destP 12) :
    C.glm_mat4x3_copy.run mem [srcP.val, destP.val] =
      some (none, writes mem [(destP, (Cglm.glm_mat4x3_copy src).list.map .f)]) :=
  transferO (e := Lib.glm_mat4x3_copy) (up := false) (by kernel_rfl) (((RO.nil false _).addP r_dest.has r_dest .nil .nil).addO h_src.has (.cons o_src_dest .nil)) (.p rfl (.p rfl .nil)) (glm_mat4x3_copy_run _) (DT.val_done _) rfl rfl rfl
example (src : M4x3 α) : let mem : Mem α := [⟨true, .undef :: src.list.map .f⟩]
    Holds mem (0, 1) src.list ∧ Room mem (0, 0) 12 ∧ Over (0, 1) 12 (0, 0) 12 :=
  ⟨.within rfl rfl, .within rfl rfl, Or.inl (by decide)⟩

theorem C98_mat4x3_make {mem : Mem α} {srcP destP : Ptr} {src : V12 α} (h_src : Holds mem srcP src.list) (r_dest : Room mem destP 12) (o_src_dest : Over srcP 12 destP 12) :
    C.glm_mat4x3_make.run mem [srcP.val, destP.val] =
      some (none, writes mem [(destP, (Cglm.glm_mat4x3_make src).list.map .f)]) :=
  transferO (e := Lib.glm_mat4x3_make) (up := false) (by kernel_rfl) (((RO.nil false _).addP r_dest.has r_dest .nil .nil).addO h_src.has (.cons o_src_dest .nil)) (.p rfl (.p rfl .nil)) (glm_mat4x3_make_run _) (DT.val_done _) rfl rfl rfl
example (src : V12 α) : let mem : Mem α := [⟨true, .undef :: src.list.map .f⟩]
    Holds mem (0, 1) src.list ∧ Room mem (0, 0) 12 ∧ Over (0, 1) 12 (0, 0) 12 :=
  ⟨.within rfl rfl, .within rfl rfl, Or.inl (by decide)⟩

theorem C98_mat4x3_mul {mem : Mem α} {m1P m2P destP : Ptr} {m1 : M4x3 α} {m2 : M3x4 α} (h_m1 : Holds mem m1P m1.list) (h_m2 : Holds mem m2P m2.list) (r_dest : Room mem destP 9) :
    C.glm_mat4x3_mul.run mem [m1P.val, m2P.val, destP.val] =
      some (none, writes mem [(destP, (Cglm.glm_mat4x3_mul m1 m2).list.map .f)]) :=
  transferO (e := Lib.glm_mat4x3_mul) (up := true) (by kernel_rfl) ((((RO.nil true _).addW r_dest.has r_dest .nil).addR h_m2.has).addR h_m1.has) (.p rfl (.p rfl (.p rfl .nil))) (glm_mat4x3_mul_run _ _) (DT.val_done _) rfl rfl rfl
example (m1 : M4x3 α) (m2 : M3x4 α) : let mem : Mem α := [⟨true, m1.list.map .f ++ List.replicate 9 .undef⟩, ⟨false, m2.list.map .f⟩]
    Holds mem (0, 0) m1.list ∧ Holds mem (1, 0) m2.list ∧ Room mem (0, 1) 9 :=
  ⟨.within rfl rfl, .within rfl rfl, .within rfl rfl⟩

theorem C98_mat4x3_mulv {mem : Mem α} {mP vP destP : Ptr} {m : M4x3 α} {v : V4 α} (h_m : Holds mem mP m.list) (h_v : Holds mem vP v.list) (r_dest : Room mem destP 3) (o_m_dest : Over mP 12 destP 3) (o_v_dest : Over vP 4 destP 3) :
    C.glm_mat4x3_mulv.run mem [mP.val, vP.val, destP.val] =
      some (none, writes mem [(destP, (Cglm.glm_mat4x3_mulv m v).list.map .f)]) :=
  transferO (e := Lib.glm_mat4x3_mulv) (up := false) (by kernel_rfl) ((((RO.nil false _).addP r_dest.has r_dest .nil .nil).addO h_v.has (.cons o_v_dest .nil)).addO h_m.has (.skip (.cons o_m_dest .nil))) (.p rfl (.p rfl (.p rfl .nil))) (glm_mat4x3_mulv_run _ _) (DT.val_done _) rfl rfl rfl
example (m : M4x3 α) (v : V4 α) : let mem : Mem α := [⟨true, .undef :: m.list.map .f⟩, ⟨false, v.list.map .f⟩]
    Holds mem (0, 1) m.list ∧ Holds mem (1, 0) v.list ∧ Room mem (0, 0) 3 ∧ Over (0, 1) 12 (0, 0) 3 ∧ Over (1, 0) 4 (0, 0) 3 :=
  ⟨.within rfl rfl, .within rfl rfl, .within rfl rfl, Or.inl (by decide), Or.inl (by decide)⟩

theorem C98_mat3_copy {mem : Mem α} {matP destP : Ptr} {mat : M3 α} (h_mat : Holds mem matP mat.list) (r_dest : Room mem destP 9) (o_mat_dest : Over matP 9 destP 9) :
    C.glm_mat3_copy.run mem [matP.val, destP.val] =
      some (none, writes mem [(destP, (Cglm.glm_mat3_copy mat).list.map .f)]) :=
  transferO (e := Lib.glm_mat3_copy) (up := false) (by kernel_rfl) (((RO.nil false _).addP r_dest.has r_dest .nil .nil).addO h_mat.has (.cons o_mat_dest .nil)) (.p rfl (.p rfl .nil)) (glm_mat3_copy_run _) (DT.val_done _) rfl rfl rfl
example (mat : M3 α) : let mem : Mem α := [⟨true, .undef :: mat.list.map .f⟩]
    Holds mem (0, 1) mat.list ∧ Room mem (0, 0) 9 ∧ Over (0, 1) 9 (0, 0) 9 :=
  ⟨.within rfl rfl, .within rfl rfl, Or.inl (by decide)⟩

theorem C98_mat3_mul {mem : Mem α} {m1P m2P destP : Ptr} {m1 : M3 α} {m2 : M3 α} (h_m1 : Holds mem m1P m1.list) (h_m2 : Holds mem m2P m2.list) (r_dest : Room mem destP 9) :
    C.glm_mat3_mul.run mem [m1P.val, m2P.val, destP.val] =
      some (none, writes mem [(destP, (Cglm.glm_mat3_mul m1 m2).list.map .f)]) :=
  transferO (e := Lib.glm_mat3_mul) (up := true) (by kernel_rfl) ((((RO.nil true _).addW r_dest.has r_dest .nil).addR h_m2.has).addR h_m1.has) (.p rfl (.p rfl (.p rfl .nil))) (glm_mat3_mul_run _ _) (DT.val_done _) rfl rfl rfl
example (m1 : M3 α) (m2 : M3 α) : let mem : Mem α := [⟨true, m1.list.map .f ++ List.replicate 9 .undef⟩, ⟨false, m2.list.map .f⟩]
    Holds mem (0, 0) m1.list ∧ Holds mem (1, 0) m2.list ∧ Room mem (0, 1) 9 :=
  ⟨.within rfl rfl, .within rfl rfl, .within rfl rfl⟩

theorem C98_mat3_mulv {mem : Mem α} {mP vP destP : Ptr} {m : M3 α} {v : V3 α} (h_m : Holds mem mP m.list) (h_v : Holds mem vP v.list) (r_dest : Room mem destP 3) :
    C.glm_mat3_mulv.run mem [mP.val, vP.val, destP.val] =
      some (none, writes mem [(destP, (Cglm.glm_mat3_mulv m v).list.map .f)]) :=
  transferO (e := Lib.glm_mat3_mulv) (up := true) (by kernel_rfl) ((((RO.nil true _).addW r_dest.has r_dest .nil).addR h_v.has).addR h_m.has) (.p rfl (.p rfl (.p rfl .nil))) (glm_mat3_mulv_run _ _) (DT.val_done _) rfl rfl rfl
example (m : M3 α) (v : V3 α) : let mem : Mem α := [⟨true, m.list.map .f ++ List.replicate 3 .undef⟩, ⟨false, v.list.map .f⟩]
    Holds mem (0, 0) m.list ∧ Holds mem (1, 0) v.list ∧ Room mem (0, 1) 3 :=
  ⟨.within rfl rfl, .within rfl rfl, .within rfl rfl⟩

theorem C98_mat3_inv {mem : Mem α} {matP destP : Ptr} {mat : M3 α} (h_mat : Holds mem matP mat.list) (r_dest : Room mem destP 9) :
    C.glm_mat3_inv.run mem [matP.val, destP.val] =
      some (none, writes mem [(destP, (Cglm.glm_mat3_inv mat).list.map .f)]) :=
  transferO (e := Lib.glm_mat3_inv) (up := true) (by kernel_rfl) (((RO.nil true _).addW r_dest.has r_dest .nil).addR h_mat.has) (.p rfl (.p rfl .nil)) (glm_mat3_inv_run _) (DT.val_done _) rfl rfl rfl
example (mat : M3 α) : let mem : Mem α := [⟨true, mat.list.map .f ++ List.replicate 9 .undef⟩]
    Holds mem (0, 0) mat.list ∧ Room mem (0, 1) 9 :=
  ⟨.within rfl rfl, .within rfl rfl⟩

theorem C98_mat3_make {mem : Mem α} {srcP destP : Ptr} {src : V9 α} (h_src : Holds mem srcP src.list) (r_dest : Room mem destP 9) (o_src_dest : Over srcP 9 destP 9) :
    C.glm_mat3_make.run mem [srcP.val, destP.val] =
      some (none, writes mem [(destP, (Cglm.glm_mat3_make src).list.map .f)]) :=
  transferO (e := Lib.glm_mat3_make) (up := false) (by kernel_rfl) (((RO.nil false _).addP r_dest.has r_dest .nil .nil).addO h_src.has (.cons o_src_dest .nil)) (.p rfl (.p rfl .nil)) (glm_mat3_make_run _) (DT.val_done _) rfl rfl rfl
example (src : V9 α) : let mem : Mem α := [⟨true, .undef :: src.list.map .f⟩]
    Holds mem (0, 1) src.list ∧ Room mem (0, 0) 9 ∧ Over (0, 1) 9 (0, 0) 9 :=
  ⟨.within rfl rfl, .within rfl rfl, Or.inl (by decide)⟩

theorem C98_mat3x2_copy {mem : Mem α} {srcP destP : Ptr} {src : M3x2 α} (h_src : Holds mem srcP src.list) (r_dest : Room mem destP 6) (o_src_dest : Over srcP 6 destP 6) :
    C.glm_mat3x2_copy.run mem [srcP.val, destP.val] =
      some (none, writes mem [(destP, (Cglm.glm_mat3x2_copy src).list.map .f)]) :=
  transferO (e := Lib.glm_mat3x2_copy) (up := false) (by kernel_rfl) (((RO.nil false _).addP r_dest.has r_dest .nil .nil).addO h_src.has (.cons o_src_dest .nil)) (.p rfl (.p rfl .nil)) (glm_mat3x2_copy_run _) (DT.val_done _) rfl rfl rfl
example (src : M3x2 α) : let mem : Mem α := [⟨true, .undef :: src.list.map .f⟩]
    Holds mem (0, 1) src.list ∧ Room mem (0, 0) 6 ∧ Over (0, 1) 6 (0, 0) 6 :=
  ⟨.within rfl rfl, .within rfl rfl, Or.inl (by decide)⟩

theorem C98_mat3x2_make {mem : Mem α} {srcP destP : Ptr} {src : V6 α} (h_src : Holds mem srcP src.list) (r_dest : Room mem destP 6) (o_src_dest : Over srcP 6 destP 6) :
    C.glm_mat3x2_make.run mem [srcP.val, destP.val] =
      some (none, writes mem [(destP, (Cglm.glm_mat3x2_make src).list.map .f)]) :=
  transferO (e := Lib.glm_mat3x2_make) (up := false) (by kernel_rfl) (((RO.nil false _).addP r_dest.has r_dest .nil .nil).addO h_src.has (.cons o_src_dest .nil)) (.p rfl (.p rfl .nil)) (glm_mat3x2_make_run _) (DT.val_done _) rfl rfl rfl
example (src : V6 α) : let mem : Mem α := [⟨true, .undef :: src.list.map .f⟩]
    Holds mem (0, 1) src.list ∧ Room mem (0, 0) 6 ∧ Over (0, 1) 6 (0, 0) 6 :=
  ⟨.within rfl rfl, .within rfl rfl, Or.inl (by decide)⟩

theorem C98_mat3x2_mul {mem : Mem α} {m1P m2P destP : Ptr} {m1 : M3x2 α} {m2 : M2x3 α} (h_m1 : Holds mem m1P m1.list) (h_m2 : Holds mem m2P m2.list) (r_dest : Room mem destP 4) :
    C.glm_mat3x2_mul.run mem [m1P.val, m2P.val, destP.val] =
      some (none, writes mem [(destP, (Cglm.glm_mat3x2_mul m1 m2).list.map .f)]) :=
  transferO (e := Lib.glm_mat3x2_mul) (up := true) (by kernel_rfl) ((((RO.nil true _).addW r_dest.has r_dest .nil).addR h_m2.has).addR h_m1.has) (.p rfl (.p rfl (.p rfl .nil))) (glm_mat3x2_mul_run _ _) (DT.val_done _) rfl rfl rfl
example (m1 : M3x2 α) (m2 : M2x3 α) : let mem : Mem α := [⟨true, m1.list.map .f ++ List.replicate 4 .undef⟩, ⟨false, m2.list.map .f⟩]
    Holds mem (0, 0) m1.list ∧ Holds mem (1, 0) m2.list ∧ Room mem (0, 1) 4 :=
  ⟨.within rfl rfl, .within rfl rfl, .within rfl rfl⟩

theorem C98_mat3x2_mulv {mem : Mem α} {mP vP destP : Ptr} {m : M3x2 α} {v : V3 α} (h_m : Holds mem mP m.list) (h_v : Holds mem vP v.list) (r_dest : Room mem destP 2) (o_m_dest : Over mP 6 destP 2) (o_v_dest : Over vP 3 destP 2) :
    C.glm_mat3x2_mulv.run mem [mP.val, vP.val, destP.val] =
      some (none, writes mem [(destP, (Cglm.glm_mat3x2_mulv m v).list.map .f)]) :=
  transferO (e := Lib.glm_mat3x2_mulv) (up := false) (by kernel_rfl) ((((RO.nil false _).addP r_dest.has r_dest .nil .nil).addO h_v.has (.cons o_v_dest .nil)).addO h_m.has (.skip (.cons o_m_dest .nil))) (.p rfl (.p rfl (.p rfl .nil))) (glm_mat3x2_mulv_run _ _) (DT.val_done _) rfl rfl rfl
example (m : M3x2 α) (v : V3 α) : let mem : Mem α := [⟨true, .undef :: m.list.map .f⟩, ⟨false, v.list.map .f⟩]
    Holds mem (0, 1) m.list ∧ Holds mem (1, 0) v.list ∧ Room mem (0, 0) 2 ∧ Over (0, 1) 6 (0, 0) 2 ∧ Over (1, 0) 3 (0, 0) 2 :=
  ⟨.within rfl rfl, .within rfl rfl, .within rfl rfl, Or.inl (by decide), Or.inl (by decide)⟩

theorem C98_mat3x4_copy {mem : Mem α} {srcP destP : Ptr} {src : M3x4 α} (h_src : Holds mem srcP src.list) (r_dest : Room mem destP 12) (o_src_dest : Over srcP 12 destP 12) :
    C.glm_mat3x4_copy.run mem [srcP.val, destP.val] =
      some (none, writes mem [(destP, (Cglm.glm_mat3x4_copy src).list.map .f)]) :=
  transferO (e := Lib.glm_mat3x4_copy) (up := false) (by kernel_rfl) (((RO.nil false _).addP r_dest.has r_dest .nil .nil).addO h_src.has (.cons o_src_dest .nil)) (.p rfl (.p rfl .nil)) (glm_mat3x4_copy_run _) (DT.val_done _) rfl rfl rfl
example (src : M3x4 α) : let mem : Mem α := [⟨true, .undef :: src.list.map .f⟩]
    Holds mem (0, 1) src.list ∧ Room mem (0, 0) 12 ∧ Over (0, 1) 12 (0, 0) 12 :=
  ⟨.within rfl rfl, .within rfl rfl, Or.inl (by decide)⟩

theorem C98_mat3x4_make {mem : Mem α} {srcP destP : Ptr} {src : V12 α} (h_src : Holds mem srcP src.list) (r_dest : Room mem destP 12) (o_src_dest : Over srcP 12 destP 12) :
    C.glm_mat3x4_make.run mem [srcP.val, destP.val] =
      some (none, writes mem [(destP, (Cglm.glm_mat3x4_make src).list.map .f)]) :=
  transferO (e := Lib.glm_mat3x4_make) (up := false) (by kernel_rfl) (((RO.nil false _).addP r_dest.has r_dest .nil .nil).addO h_src.has (.cons o_src_dest .nil)) (.p rfl (.p rfl .nil)) (glm_mat3x4_make_run _) (DT.val_done _) rfl rfl rfl
example (src : V12 α) : let mem : Mem α := [⟨true, .undef :: src.list.map .f⟩]
    Holds mem (0, 1) src.list ∧ Room mem (0, 0) 12 ∧ Over (0, 1) 12 (0, 0) 12 :=
  ⟨.within rfl rfl, .within rfl rfl, Or.inl (by decide)⟩

theorem C98_mat3x4_mul {mem : Mem α} {m1P m2P destP : Ptr} {m1 : M3x4 α} {m2 : M4x3 α} (h_m1 : Holds mem m1P m1.list) (h_m2 : Holds mem m2P m2.list) (r_dest : Room mem destP 16) :
    C.glm_mat3x4_mul.run mem [m1P.val, m2P.val, destP.val] =
      some (none, writes mem [(destP, (Cglm.glm_mat3x4_mul m1 m2).list.map .f)]) :=
  transferO (e := Lib.glm_mat3x4_mul) (up := true) (by kernel_rfl) ((((RO.nil true _).addW r_dest.has r_dest .nil).addR h_m2.has).addR h_m1.has) (.p rfl (.p rfl (.p rfl .nil))) (glm_mat3x4_mul_run _ _) (DT.val_done _) rfl rfl rfl
example (m1 : M3x4 α) (m2 : M4x3 α) : let mem : Mem α := [⟨true, m1.list.map .f ++ List.replicate 16 .undef⟩, ⟨false, m2.list.map .f⟩]
    Holds mem (0, 0) m1.list ∧ Holds mem (1, 0) m2.list ∧ Room mem (0, 1) 16 :=
  ⟨.within rfl rfl, .within rfl rfl, .within rfl rfl⟩

theorem C98_mat3x4_mulv {mem : Mem α} {mP vP destP : Ptr} {m : M3x4 α} {v : V3 α} (h_m : Holds mem mP m.list) (h_v : Holds mem vP v.list) (r_dest : Room mem destP 4) (o_m_dest : Over mP 12 destP 4) (o_v_dest : Over vP 3 destP 4) :
    C.glm_mat3x4_mulv.run mem [mP.val, vP.val, destP.val] =
      some (none, writes mem [(destP, (Cglm.glm_mat3x4_mulv m v).list.map .f)]) :=
  transferO (e := Lib.glm_mat3x4_mulv) (up := false) (by kernel_rfl) ((((RO.nil false _).addP r_dest.has r_dest .nil .nil).addO h_v.has (.cons o_v_dest .nil)).addO h_m.has (.skip (.cons o_m_dest .nil))) (.p rfl (.p rfl (.p rfl .nil))) (glm_mat3x4_mulv_run _ _) (DT.val_done _) rfl rfl rfl
example (m : M3x4 α) (v : V3 α) : let mem : Mem α := [⟨true, .undef :: m.list.map .f⟩, ⟨false, v.list.map .f⟩]
    Holds mem (0, 1) m.list ∧ Holds mem (1, 0) v.list ∧ Room mem (0, 0) 4 ∧ Over (0, 1) 12 (0, 0) 4 ∧ Over (1, 0) 3 (0, 0) 4 :=
  ⟨.within rfl rfl, .within rfl rfl, .within rfl rfl, Or.inl (by decide), Or.inl (by decide)⟩

theorem C98_mat2_make {mem : Mem α} {srcP destP : Ptr} {src : V4 α} (h_src : Holds mem srcP src.list) (r_dest : Room mem destP 4) (o_src_dest : Over srcP 4 destP 4) :
    C.glm_mat2_make.run mem [srcP.val, destP.val] =
      some (none, writes mem [(destP, (Cglm.glm_mat2_make src).list.map .f)]) :=
  transferO (e := Lib.glm_mat2_make) (up := false) (by kernel_rfl) (((RO.nil false _).addP r_dest.has r_dest .nil .nil).addO h_src.has (.cons o_src_dest .nil)) (.p rfl (.p rfl .nil)) (glm_mat2_make_run _) (DT.val_done _) rfl rfl rfl
example (src : V4 α) : let mem : Mem α := [⟨true, .undef :: src.list.map .f⟩]
    Holds mem (0, 1) src.list ∧ Room mem (0, 0) 4 ∧ Over (0, 1) 4 (0, 0) 4 :=
  ⟨.within rfl rfl, .within rfl rfl, Or.inl (by decide)⟩

theorem C98_mat2_copy {mem : Mem α} {matP destP : Ptr} {mat : M2 α} (h_mat : Holds mem matP mat.list) (r_dest : Room mem destP 4) (o_mat_dest : Over matP 4 destP 4) :
    C.glm_mat2_copy.run mem [matP.val, destP.val] =
      some (none, writes mem [(destP, (Cglm.glm_mat2_copy mat).list.map .f)]) :=
  transferO (e := Lib.glm_mat2_copy) (up := false) (by kernel_rfl) (((RO.nil false _).addP r_dest.has r_dest .nil .nil).addO h_mat.has (.cons o_mat_dest .nil)) (.p rfl (.p rfl .nil)) (glm_mat2_copy_run _) (DT.val_done _) rfl rfl rfl
example (mat : M2 α) : let mem : Mem α := [⟨true, .undef :: mat.list.map .f⟩]
    Holds mem (0, 1) mat.list ∧ Room mem (0, 0) 4 ∧ Over (0, 1) 4 (0, 0) 4 :=
  ⟨.within rfl rfl, .within rfl rfl, Or.inl (by decide)⟩

theorem C98_mat2_mul {mem : Mem α} {m1P m2P destP : Ptr} {m1 : M2 α} {m2 : M2 α} (h_m1 : Holds mem m1P m1.list) (h_m2 : Holds mem m2P m2.list) (r_dest : Room mem destP 4) :
    C.glm_mat2_mul.run mem [m1P.val, m2P.val, destP.val] =
      some (none, writes mem [(destP, (Cglm.glm_mat2_mul m1 m2).list.map .f)]) :=
  transferO (e := Lib.glm_mat2_mul) (up := true) (by kernel_rfl) ((((RO.nil true _).addW r_dest.has r_dest .nil).addR h_m2.has).addR h_m1.has) (.p rfl (.p rfl (.p rfl .nil))) (glm_mat2_mul_run _ _) (DT.val_done _) rfl rfl rfl
example (m1 : M2 α) (m2 : M2 α) : let mem : Mem α := [⟨true, m1.list.map .f ++ List.replicate 4 .undef⟩, ⟨false, m2.list.map .f⟩]
    Holds mem (0, 0) m1.list ∧ Holds mem (1, 0) m2.list ∧ Room mem (0, 1) 4 :=
  ⟨.within rfl rfl, .within rfl rfl, .within rfl rfl⟩

theorem C98_mat2_inv {mem : Mem α} {matP destP : Ptr} {mat : M2 α} (h_mat : Holds mem matP mat.list) (r_dest : Room mem destP 4) :
    C.glm_mat2_inv.run mem [matP.val, destP.val] =
      some (none, writes mem [(destP, (Cglm.glm_mat2_inv mat).list.map .f)]) :=
  transferO (e := Lib.glm_mat2_inv) (up := true) (by kernel_rfl) (((RO.nil true _).addW r_dest.has r_dest .nil).addR h_mat.has) (.p rfl (.p rfl .nil)) (glm_mat2_inv_run _) (DT.val_done _) rfl rfl rfl
example (mat : M2 α) : let mem : Mem α := [⟨true, mat.list.map .f ++ List.replicate 4 .undef⟩]
    Holds mem (0, 0) mat.list ∧ Room mem (0, 1) 4 :=
  ⟨.within rfl rfl, .within rfl rfl⟩

theorem C98_mat2x3_copy {mem : Mem α} {srcP destP : Ptr} {src : M2x3 α} (h_src : Holds mem srcP src.list) (r_dest : Room mem destP 6) (o_src_dest : Over srcP 6 destP 6) :
    C.glm_mat2x3_copy.run mem [srcP.val, destP.val] =
      some (none, writes mem [(destP, (Cglm.glm_mat2x3_copy src).list.map .f)]) :=
  transferO (e := Lib.glm_mat2x3_copy) (up := false) (by kernel_rfl) (((RO.nil false _).addP r_dest.has r_dest .nil .nil).addO h_src.has (.cons o_src_dest .nil)) (.p rfl (.p rfl .nil)) (glm_mat2x3_copy_run _) (DT.val_done _) rfl rfl rfl
example (src : M2x3 α) : let mem : Mem α := [⟨true, .undef :: src.list.map .f⟩]
    Holds mem (0, 1) src.list ∧ Room mem (0, 0) 6 ∧ Over (0, 1) 6 (0, 0) 6 :=
  ⟨.within rfl rfl, .within rfl rfl, Or.inl (by decide)⟩

theorem C98_mat2x3_make {mem : Mem α} {srcP destP : Ptr} {src : V6 α} (h_src : Holds mem srcP src.list) (r_dest : Room mem destP 6) (o_src_dest : Over srcP 6 destP 6) :
    C.glm_mat2x3_make.run mem [srcP.val, destP.val] =
      some (none, writes mem [(destP, (Cglm.glm_mat2x3_make src).list.map .f)]) :=
  transferO (e := Lib.glm_mat2x3_make) (up := false) (by kernel_rfl) (((RO.nil false _).addP r_dest.has r_dest .nil .nil).addO h_src.has (.cons o_src_dest .nil)) (.p rfl (.p rfl .nil)) (glm_mat2x3_make_run _) (DT.val_done _) rfl rfl rfl
example (src : V6 α) : let mem : Mem α := [⟨true, .undef :: src.list.map .f⟩]
    Holds mem (0, 1) src.list ∧ Room mem (0, 0) 6 ∧ Over (0, 1) 6 (0, 0) 6 :=
  ⟨.within rfl rfl, .within rfl rfl, Or.inl (by decide)⟩

theorem C98_mat2x3_mul {mem : Mem α} {m1P m2P destP : Ptr} {m1 : M2x3 α} {m2 : M3x2 α} (h_m1 : Holds mem m1P m1.list) (h_m2 : Holds mem m2P m2.list) (r_dest : Room mem destP 9) :
    C.glm_mat2x3_mul.run mem [m1P.val, m2P.val, destP.val] =
      some (none, writes mem [(destP, (Cglm.glm_mat2x3_mul m1 m2).list.map .f)]) :=
  transferO (e := Lib.glm_mat2x3_mul) (up := true) (by kernel_rfl) ((((RO.nil true _).addW r_dest.has r_dest .nil).addR h_m2.has).addR h_m1.has) (.p rfl (.p rfl (.p rfl .nil))) (glm_mat2x3_mul_run _ _) (DT.val_done _) rfl rfl rfl
example (m1 : M2x3 α) (m2 : M3x2 α) : let mem : Mem α := [⟨true, m1.list.map .f ++ List.replicate 9 .undef⟩, ⟨false, m2.list.map .f⟩]
    Holds mem (0, 0) m1.list ∧ Holds mem (1, 0) m2.list ∧ Room mem (0, 1) 9 :=
  ⟨.within rfl rfl, .within rfl rfl, .within rfl rfl⟩

theorem C98_mat2x3_mulv {mem : Mem α} {mP vP destP : Ptr} {m : M2x3 α} {v : V2 α} (h_m : Holds mem mP m.list) (h_v : Holds mem vP v.list) (r_dest : Room mem destP 3) (o_m_dest : Over mP 6 destP 3) (o_v_dest : Over vP 2 destP 3) :
    C.glm_mat2x3_mulv.run mem [mP.val, vP.val, destP.val] =
      some (none, writes mem [(destP, (Cglm.glm_mat2x3_mulv m v).list.map .f)]) :=
  transferO (e := Lib.glm_mat2x3_mulv) (up := false) (by kernel_rfl) ((((RO.nil false _).addP r_dest.has r_dest .nil .nil).addO h_v.has (.cons o_v_dest .nil)).addO h_m.has (.skip (.cons o_m_dest .nil))) (.p rfl (.p rfl (.p rfl .nil))) (glm_mat2x3_mulv_run _ _) (DT.val_done _) rfl rfl rfl
example (m : M2x3 α) (v : V2 α) : let mem : Mem α := [⟨true, .undef :: m.list.map .f⟩, ⟨false, v.list.map .f⟩]
    Holds mem (0, 1) m.list ∧ Holds mem (1, 0) v.list ∧ Room mem (0, 0) 3 ∧ Over (0, 1) 6 (0, 0) 3 ∧ Over (1, 0) 2 (0, 0) 3 :=
  ⟨.within rfl rfl, .within rfl rfl, .within rfl rfl, Or.inl (by decide), Or.inl (by decide)⟩

theorem C98_mat2x4_copy {mem : Mem α} {srcP destP : Ptr} {src : M2x4 α} (h_src : Holds mem srcP src.list) (r_dest : Room mem destP 8) (o_src_dest : Over srcP 8 destP 8) :
    C.glm_mat2x4_copy.run mem [srcP.val, destP.val] =
      some (none, writes mem [(destP, (Cglm.glm_mat2x4_copy src).list.map .f)]) :=
  transferO (e := Lib.glm_mat2x4_copy) (up := false) (by kernel_rfl) (((RO.nil false _).addP r_dest.has r_dest .nil .nil).addO h_src.has (.cons o_src_dest .nil)) (.p rfl (.p rfl .nil)) (glm_mat2x4_copy_run _) (DT.val_done _) rfl rfl rfl
example (src : M2x4 α) : let mem : Mem α := [⟨true, .undef :: src.list.map .f⟩]
    Holds mem (0, 1) src.list ∧ Room mem (0, 0) 8 ∧ Over (0, 1) 8 (0, 0) 8 :=
  ⟨.within rfl rfl, .within rfl rfl, Or.inl (by decide)⟩

theorem C98_mat2x4_make {mem : Mem α} {srcP destP : Ptr} {src : V8 α} (h_src : Holds mem srcP src.list) (r_dest : Room mem destP 8) (o_src_dest : Over srcP 8 destP 8) :
    C.glm_mat2x4_make.run mem [srcP.val, destP.val] =
      some (none, writes mem [(destP, (Cglm.glm_mat2x4_make src).list.map .f)]) :=
  transferO (e := Lib.glm_mat2x4_make) (up := false) (by kernel_rfl) (((RO.nil false _).addP r_dest.has r_dest .nil .nil).addO h_src.has (.cons o_src_dest .nil)) (.p rfl (.p rfl .nil)) (glm_mat2x4_make_run _) (DT.val_done _) rfl rfl rfl
example (src : V8 α) : let mem : Mem α := [⟨true, .undef :: src.list.map .f⟩]
    Holds mem (0, 1) src.list ∧ Room mem (0, 0) 8 ∧ Over (0, 1) 8 (0, 0) 8 :=
  ⟨.within rfl rfl, .within rfl rfl, Or.inl (by decide)⟩

theorem C98_mat2x4_mul {mem : Mem α} {m1P m2P destP : Ptr} {m1 : M2x4 α} {m2 : M4x2 α} (h_m1 : Holds mem m1P m1.list) (h_m2 : Holds mem m2P m2.list) (r_dest : Room mem destP 16) :
    C.glm_mat2x4_mul.run mem [m1P.val, m2P.val, destP.val] =
      some (none, writes mem [(destP, (Cglm.glm_mat2x4_mul m1 m2).list.map .f)]) :=
  transferO (e := Lib.glm_mat2x4_mul) (up := true) (by kernel_rfl) ((((RO.nil true _).addW r_dest.has r_dest .nil).addR h_m2.has).addR h_m1.has) (.p rfl (.p rfl (.p rfl .nil))) (glm_mat2x4_mul_run _ _) (DT.val_done _) rfl rfl rfl
example (m1 : M2x4 α) (m2 : M4x2 α) : let mem : Mem α := [⟨true, m1.list.map .f ++ List.replicate 16 .undef⟩, ⟨false, m2.list.map .f⟩]
    Holds mem (0, 0) m1.list ∧ Holds mem (1, 0) m2.list ∧ Room mem (0, 1) 16 :=
  ⟨.within rfl rfl, .within rfl rfl, .within rfl rfl⟩

theorem C98_mat2x4_mulv {mem : Mem α} {mP vP destP : Ptr} {m : M2x4 α} {v : V2 α} (h_m : Holds mem mP m.list) (h_v : Holds mem vP v.list) (r_dest : Room mem destP 4) (o_m_dest : Over mP 8 destP 4) (o_v_dest : Over vP 2 destP 4) :
    C.glm_mat2x4_mulv.run mem [mP.val, vP.val, destP.val] =
      some (none, writes mem [(destP, (Cglm.glm_mat2x4_mulv m v).list.map .f)]) :=
  transferO (e := Lib.glm_mat2x4_mulv) (up := false) (by kernel_rfl) ((((RO.nil false _).addP r_dest.has r_dest .nil .nil).addO h_v.has (.cons o_v_dest .nil)).addO h_m.has (.skip (.cons o_m_dest .nil))) (.p rfl (.p rfl (.p rfl .nil))) (glm_mat2x4_mulv_run _ _) (DT.val_done _) rfl rfl rfl
example (m : M2x4 α) (v : V2 α) : let mem : Mem α := [⟨true, .undef :: m.list.map .f⟩, ⟨false, v.list.map .f⟩]
    Holds mem (0, 1) m.list ∧ Holds mem (1, 0) v.list ∧ Room mem (0, 0) 4 ∧ Over (0, 1) 8 (0, 0) 4 ∧ Over (1, 0) 2 (0, 0) 4 :=
  ⟨.within rfl rfl, .within rfl rfl, .within rfl rfl, Or.inl (by decide), Or.inl (by decide)⟩

end Cglm
