/- Generated by tools/memgen.py, joined by tools/merge.py; do not edit by hand. -/
import Verif.Mem.QuatsRun
import Verif.Props.C55Quats

section C56Euler

/-!
# C56: memory safety and framing (include/cglm/euler.h)

Called with initialised inputs and a writable destination that does not overlap them, the function is defined,
returns the value-level result and changes no memory but its destination.
-/

set_option linter.unusedVariables false
set_option linter.unusedSectionVars false

namespace Cglm
open CMem

variable {α : Type} [Add α] [Sub α] [Mul α] [Div α] [Neg α] [CFloat α]

theorem C56_euler_angles {mem : Mem α} {mP destP : Ptr} {m : M4 α} (h_m : Holds mem mP m.list) (r_dest : Room mem destP 3) (s_m_dest : Apart mP 16 destP 3) :
    C.glm_euler_angles.run mem [mP.val, destP.val] =
      some (none, writes mem [(destP, (Cglm.glm_euler_angles m).list.map .f)]) := by
  exact transferL (((R.nil _).addW r_dest.has r_dest .nil).addR h_m.has (.cons s_m_dest .nil)) (.p rfl (.p rfl .nil)) (glm_euler_angles_run _) (DT.val_map_eq (glm_euler_angles_dt_val _) rfl) rfl rfl
example (m : M4 α) : let mem : Mem α := [⟨false, m.list.map .f⟩, ⟨true, List.replicate 3 .undef⟩]
    Holds mem (0, 0) m.list ∧ Room mem (1, 0) 3 ∧ Apart (0, 0) 16 (1, 0) 3 :=
  ⟨.block rfl, .block rfl rfl, Or.inl (by decide)⟩

theorem C56_euler_xyz {mem : Mem α} {anglesP destP : Ptr} {angles : V3 α} (h_angles : Holds mem anglesP angles.list) (r_dest : Room mem destP 16) (s_angles_dest : Apart anglesP 3 destP 16) :
    C.glm_euler_xyz.run mem [anglesP.val, destP.val] =
      some (none, writes mem [(destP, (Cglm.glm_euler_xyz angles).list.map .f)]) := by
  exact transferL (((R.nil _).addW r_dest.has r_dest .nil).addR h_angles.has (.cons s_angles_dest .nil)) (.p rfl (.p rfl .nil)) (glm_euler_xyz_run _) (DT.val_done _) rfl rfl
example (angles : V3 α) : let mem : Mem α := [⟨false, angles.list.map .f⟩, ⟨true, List.replicate 16 .undef⟩]
    Holds mem (0, 0) angles.list ∧ Room mem (1, 0) 16 ∧ Apart (0, 0) 3 (1, 0) 16 :=
  ⟨.block rfl, .block rfl rfl, Or.inl (by decide)⟩

theorem C56_euler {mem : Mem α} {anglesP destP : Ptr} {angles : V3 α} (h_angles : Holds mem anglesP angles.list) (r_dest : Room mem destP 16) (s_angles_dest : Apart anglesP 3 destP 16) :
    C.glm_euler.run mem [anglesP.val, destP.val] =
      some (none, writes mem [(destP, (Cglm.glm_euler angles).list.map .f)]) := by
  exact transferL (((R.nil _).addW r_dest.has r_dest .nil).addR h_angles.has (.cons s_angles_dest .nil)) (.p rfl (.p rfl .nil)) (glm_euler_run _) (DT.val_done _) rfl rfl
example (angles : V3 α) : let mem : Mem α := [⟨false, angles.list.map .f⟩, ⟨true, List.replicate 16 .undef⟩]
    Holds mem (0, 0) angles.list ∧ Room mem (1, 0) 16 ∧ Apart (0, 0) 3 (1, 0) 16 :=
  ⟨.block rfl, .block rfl rfl, Or.inl (by decide)⟩

theorem C56_euler_xzy {mem : Mem α} {anglesP destP : Ptr} {angles : V3 α} (h_angles : Holds mem anglesP angles.list) (r_dest : Room mem destP 16) (s_angles_dest : Apart anglesP 3 destP 16) :
    C.glm_euler_xzy.run mem [anglesP.val, destP.val] =
      some (none, writes mem [(destP, (Cglm.glm_euler_xzy angles).list.map .f)]) := by
  exact transferL (((R.nil _).addW r_dest.has r_dest .nil).addR h_angles.has (.cons s_angles_dest .nil)) (.p rfl (.p rfl .nil)) (glm_euler_xzy_run _) (DT.val_done _) rfl rfl
example (angles : V3 α) : let mem : Mem α := [⟨false, angles.list.map .f⟩, ⟨true, List.replicate 16 .undef⟩]
    Holds mem (0, 0) angles.list ∧ Room mem (1, 0) 16 ∧ Apart (0, 0) 3 (1, 0) 16 :=
  ⟨.block rfl, .block rfl rfl, Or.inl (by decide)⟩

theorem C56_euler_yxz {mem : Mem α} {anglesP destP : Ptr} {angles : V3 α} (h_angles : Holds mem anglesP angles.list) (r_dest : Room mem destP 16) (s_angles_dest : Apart anglesP 3 destP 16) :
    C.glm_euler_yxz.run mem [anglesP.val, destP.val] =
      some (none, writes mem [(destP, (Cglm.glm_euler_yxz angles).list.map .f)]) := by
  exact transferL (((R.nil _).addW r_dest.has r_dest .nil).addR h_angles.has (.cons s_angles_dest .nil)) (.p rfl (.p rfl .nil)) (glm_euler_yxz_run _) (DT.val_done _) rfl rfl
example (angles : V3 α) : let mem : Mem α := [⟨false, angles.list.map .f⟩, ⟨true, List.replicate 16 .undef⟩]
    Holds mem (0, 0) angles.list ∧ Room mem (1, 0) 16 ∧ Apart (0, 0) 3 (1, 0) 16 :=
  ⟨.block rfl, .block rfl rfl, Or.inl (by decide)⟩

theorem C56_euler_yzx {mem : Mem α} {anglesP destP : Ptr} {angles : V3 α} (h_angles : Holds mem anglesP angles.list) (r_dest : Room mem destP 16) (s_angles_dest : Apart anglesP 3 destP 16) :
    C.glm_euler_yzx.run mem [anglesP.val, destP.val] =
      some (none, writes mem [(destP, (Cglm.glm_euler_yzx angles).list.map .f)]) := by
  exact transferL (((R.nil _).addW r_dest.has r_dest .nil).addR h_angles.has (.cons s_angles_dest .nil)) (.p rfl (.p rfl .nil)) (glm_euler_yzx_run _) (DT.val_done _) rfl rfl
example (angles : V3 α) : let mem : Mem α := [⟨false, angles.list.map .f⟩, ⟨true, List.replicate 16 .undef⟩]
    Holds mem (0, 0) angles.list ∧ Room mem (1, 0) 16 ∧ Apart (0, 0) 3 (1, 0) 16 :=
  ⟨.block rfl, .block rfl rfl, Or.inl (by decide)⟩

theorem C56_euler_zxy {mem : Mem α} {anglesP destP : Ptr} {angles : V3 α} (h_angles : Holds mem anglesP angles.list) (r_dest : Room mem destP 16) (s_angles_dest : Apart anglesP 3 destP 16) :
    C.glm_euler_zxy.run mem [anglesP.val, destP.val] =
      some (none, writes mem [(destP, (Cglm.glm_euler_zxy angles).list.map .f)]) := by
  exact transferL (((R.nil _).addW r_dest.has r_dest .nil).addR h_angles.has (.cons s_angles_dest .nil)) (.p rfl (.p rfl .nil)) (glm_euler_zxy_run _) (DT.val_done _) rfl rfl
example (angles : V3 α) : let mem : Mem α := [⟨false, angles.list.map .f⟩, ⟨true, List.replicate 16 .undef⟩]
    Holds mem (0, 0) angles.list ∧ Room mem (1, 0) 16 ∧ Apart (0, 0) 3 (1, 0) 16 :=
  ⟨.block rfl, .block rfl rfl, Or.inl (by decide)⟩

theorem C56_euler_zyx {mem : Mem α} {anglesP destP : Ptr} {angles : V3 α} (h_angles : Holds mem anglesP angles.list) (r_dest : Room mem destP 16) (s_angles_dest : Apart anglesP 3 destP 16) :
    C.glm_euler_zyx.run mem [anglesP.val, destP.val] =
      some (none, writes mem [(destP, (Cglm.glm_euler_zyx angles).list.map .f)]) := by
  exact transferL (((R.nil _).addW r_dest.has r_dest .nil).addR h_angles.has (.cons s_angles_dest .nil)) (.p rfl (.p rfl .nil)) (glm_euler_zyx_run _) (DT.val_done _) rfl rfl
example (angles : V3 α) : let mem : Mem α := [⟨false, angles.list.map .f⟩, ⟨true, List.replicate 16 .undef⟩]
    Holds mem (0, 0) angles.list ∧ Room mem (1, 0) 16 ∧ Apart (0, 0) 3 (1, 0) 16 :=
  ⟨.block rfl, .block rfl rfl, Or.inl (by decide)⟩

theorem C56_euler_by_order {mem : Mem α} {anglesP destP : Ptr} {angles : V3 α} (ord : Int) {dest : M4 α} (h_angles : Holds mem anglesP angles.list) (h_dest : Holds mem destP dest.list) (r_dest : Room mem destP 16) (s_angles_dest : Apart anglesP 3 destP 16) :
    C.glm_euler_by_order.run mem [anglesP.val, .i ord, destP.val] =
      some (none, writes mem [(destP, (Cglm.glm_euler_by_order angles ord dest).list.map .f)]) := by
  exact transferL (((R.nil _).addW h_dest.has r_dest .nil).addR h_angles.has (.cons s_angles_dest .nil)) (.p rfl (.i (.p rfl .nil))) (glm_euler_by_order_run _ _ _) (DT.val_map_eq (glm_euler_by_order_dt_val _ _ _) rfl) rfl rfl
example (angles : V3 α) (dest : M4 α) : let mem : Mem α := [⟨false, angles.list.map .f⟩, ⟨true, dest.list.map .f⟩]
    Holds mem (0, 0) angles.list ∧ Holds mem (1, 0) dest.list ∧ Room mem (1, 0) 16 ∧ Apart (0, 0) 3 (1, 0) 16 :=
  ⟨.block rfl, .block rfl, .block rfl rfl, Or.inl (by decide)⟩

theorem C56_euler_xyz_quat {mem : Mem α} {anglesP destP : Ptr} {angles : V3 α} (h_angles : Holds mem anglesP angles.list) (r_dest : Room mem destP 4) (s_angles_dest : Apart anglesP 3 destP 4) :
    C.glm_euler_xyz_quat.run mem [anglesP.val, destP.val] =
      some (none, writes mem [(destP, (Cglm.glm_euler_xyz_quat angles).list.map .f)]) := by
  exact transferL (((R.nil _).addW r_dest.has r_dest .nil).addR h_angles.has (.cons s_angles_dest .nil)) (.p rfl (.p rfl .nil)) (glm_euler_xyz_quat_run _) (DT.val_done _) rfl rfl
example (angles : V3 α) : let mem : Mem α := [⟨false, angles.list.map .f⟩, ⟨true, List.replicate 4 .undef⟩]
    Holds mem (0, 0) angles.list ∧ Room mem (1, 0) 4 ∧ Apart (0, 0) 3 (1, 0) 4 :=
  ⟨.block rfl, .block rfl rfl, Or.inl (by decide)⟩

theorem C56_euler_xzy_quat {mem : Mem α} {anglesP destP : Ptr} {angles : V3 α} (h_angles : Holds mem anglesP angles.list) (r_dest : Room mem destP 4) (s_angles_dest : Apart anglesP 3 destP 4) :
    C.glm_euler_xzy_quat.run mem [anglesP.val, destP.val] =
      some (none, writes mem [(destP, (Cglm.glm_euler_xzy_quat angles).list.map .f)]) := by
  exact transferL (((R.nil _).addW r_dest.has r_dest .nil).addR h_angles.has (.cons s_angles_dest .nil)) (.p rfl (.p rfl .nil)) (glm_euler_xzy_quat_run _) (DT.val_done _) rfl rfl
example (angles : V3 α) : let mem : Mem α := [⟨false, angles.list.map .f⟩, ⟨true, List.replicate 4 .undef⟩]
    Holds mem (0, 0) angles.list ∧ Room mem (1, 0) 4 ∧ Apart (0, 0) 3 (1, 0) 4 :=
  ⟨.block rfl, .block rfl rfl, Or.inl (by decide)⟩

theorem C56_euler_yxz_quat {mem : Mem α} {anglesP destP : Ptr} {angles : V3 α} (h_angles : Holds mem anglesP angles.list) (r_dest : Room mem destP 4) (s_angles_dest : Apart anglesP 3 destP 4) :
    C.glm_euler_yxz_quat.run mem [anglesP.val, destP.val] =
      some (none, writes mem [(destP, (Cglm.glm_euler_yxz_quat angles).list.map .f)]) := by
  exact transferL (((R.nil _).addW r_dest.has r_dest .nil).addR h_angles.has (.cons s_angles_dest .nil)) (.p rfl (.p rfl .nil)) (glm_euler_yxz_quat_run _) (DT.val_done _) rfl rfl
example (angles : V3 α) : let mem : Mem α := [⟨false, angles.list.map .f⟩, ⟨true, List.replicate 4 .undef⟩]
    Holds mem (0, 0) angles.list ∧ Room mem (1, 0) 4 ∧ Apart (0, 0) 3 (1, 0) 4 :=
  ⟨.block rfl, .block rfl rfl, Or.inl (by decide)⟩

theorem C56_euler_yzx_quat {mem : Mem α} {anglesP destP : Ptr} {angles : V3 α} (h_angles : Holds mem anglesP angles.list) (r_dest : Room mem destP 4) (s_angles_dest : Apart anglesP 3 destP 4) :
    C.glm_euler_yzx_quat.run mem [anglesP.val, destP.val] =
      some (none, writes mem [(destP, (Cglm.glm_euler_yzx_quat angles).list.map .f)]) := by
  exact transferL (((R.nil _).addW r_dest.has r_dest .nil).addR h_angles.has (.cons s_angles_dest .nil)) (.p rfl (.p rfl .nil)) (glm_euler_yzx_quat_run _) (DT.val_done _) rfl rfl
example (angles : V3 α) : let mem : Mem α := [⟨false, angles.list.map .f⟩, ⟨true, List.replicate 4 .undef⟩]
    Holds mem (0, 0) angles.list ∧ Room mem (1, 0) 4 ∧ Apart (0, 0) 3 (1, 0) 4 :=
  ⟨.block rfl, .block rfl rfl, Or.inl (by decide)⟩

theorem C56_euler_zxy_quat {mem : Mem α} {anglesP destP : Ptr} {angles : V3 α} (h_angles : Holds mem anglesP angles.list) (r_dest : Room mem destP 4) (s_angles_dest : Apart anglesP 3 destP 4) :
    C.glm_euler_zxy_quat.run mem [anglesP.val, destP.val] =
      some (none, writes mem [(destP, (Cglm.glm_euler_zxy_quat angles).list.map .f)]) := by
  exact transferL (((R.nil _).addW r_dest.has r_dest .nil).addR h_angles.has (.cons s_angles_dest .nil)) (.p rfl (.p rfl .nil)) (glm_euler_zxy_quat_run _) (DT.val_done _) rfl rfl
example (angles : V3 α) : let mem : Mem α := [⟨false, angles.list.map .f⟩, ⟨true, List.replicate 4 .undef⟩]
    Holds mem (0, 0) angles.list ∧ Room mem (1, 0) 4 ∧ Apart (0, 0) 3 (1, 0) 4 :=
  ⟨.block rfl, .block rfl rfl, Or.inl (by decide)⟩

theorem C56_euler_zyx_quat {mem : Mem α} {anglesP destP : Ptr} {angles : V3 α} (h_angles : Holds mem anglesP angles.list) (r_dest : Room mem destP 4) (s_angles_dest : Apart anglesP 3 destP 4) :
    C.glm_euler_zyx_quat.run mem [anglesP.val, destP.val] =
      some (none, writes mem [(destP, (Cglm.glm_euler_zyx_quat angles).list.map .f)]) := by
  exact transferL (((R.nil _).addW r_dest.has r_dest .nil).addR h_angles.has (.cons s_angles_dest .nil)) (.p rfl (.p rfl .nil)) (glm_euler_zyx_quat_run _) (DT.val_done _) rfl rfl
example (angles : V3 α) : let mem : Mem α := [⟨false, angles.list.map .f⟩, ⟨true, List.replicate 4 .undef⟩]
    Holds mem (0, 0) angles.list ∧ Room mem (1, 0) 4 ∧ Apart (0, 0) 3 (1, 0) 4 :=
  ⟨.block rfl, .block rfl rfl, Or.inl (by decide)⟩

end Cglm

end C56Euler

section C56HandedEulerToQuatLh

/-!
# C56: memory safety and framing (include/cglm/handed/euler_to_quat_lh.h)

Called with initialised inputs and a writable destination that does not overlap them, the function is defined,
returns the value-level result and changes no memory but its destination.
-/

set_option linter.unusedVariables false
set_option linter.unusedSectionVars false

namespace Cglm
open CMem

variable {α : Type} [Add α] [Sub α] [Mul α] [Div α] [Neg α] [CFloat α]

theorem C56_euler_xyz_quat_lh {mem : Mem α} {anglesP destP : Ptr} {angles : V3 α} (h_angles : Holds mem anglesP angles.list) (r_dest : Room mem destP 4) (s_angles_dest : Apart anglesP 3 destP 4) :
    C.glm_euler_xyz_quat_lh.run mem [anglesP.val, destP.val] =
      some (none, writes mem [(destP, (Cglm.glm_euler_xyz_quat_lh angles).list.map .f)]) := by
  exact transferL (((R.nil _).addW r_dest.has r_dest .nil).addR h_angles.has (.cons s_angles_dest .nil)) (.p rfl (.p rfl .nil)) (glm_euler_xyz_quat_lh_run _) (DT.val_done _) rfl rfl
example (angles : V3 α) : let mem : Mem α := [⟨false, angles.list.map .f⟩, ⟨true, List.replicate 4 .undef⟩]
    Holds mem (0, 0) angles.list ∧ Room mem (1, 0) 4 ∧ Apart (0, 0) 3 (1, 0) 4 :=
  ⟨.block rfl, .block rfl rfl, Or.inl (by decide)⟩

theorem C56_euler_xzy_quat_lh {mem : Mem α} {anglesP destP : Ptr} {angles : V3 α} (h_angles : Holds mem anglesP angles.list) (r_dest : Room mem destP 4) (s_angles_dest : Apart anglesP 3 destP 4) :
    C.glm_euler_xzy_quat_lh.run mem [anglesP.val, destP.val] =
      some (none, writes mem [(destP, (Cglm.glm_euler_xzy_quat_lh angles).list.map .f)]) := by
  exact transferL (((R.nil _).addW r_dest.has r_dest .nil).addR h_angles.has (.cons s_angles_dest .nil)) (.p rfl (.p rfl .nil)) (glm_euler_xzy_quat_lh_run _) (DT.val_done _) rfl rfl
example (angles : V3 α) : let mem : Mem α := [⟨false, angles.list.map .f⟩, ⟨true, List.replicate 4 .undef⟩]
    Holds mem (0, 0) angles.list ∧ Room mem (1, 0) 4 ∧ Apart (0, 0) 3 (1, 0) 4 :=
  ⟨.block rfl, .block rfl rfl, Or.inl (by decide)⟩

theorem C56_euler_yxz_quat_lh {mem : Mem α} {anglesP destP : Ptr} {angles : V3 α} (h_angles : Holds mem anglesP angles.list) (r_dest : Room mem destP 4) (s_angles_dest : Apart anglesP 3 destP 4) :
    C.glm_euler_yxz_quat_lh.run mem [anglesP.val, destP.val] =
      some (none, writes mem [(destP, (Cglm.glm_euler_yxz_quat_lh angles).list.map .f)]) := by
  exact transferL (((R.nil _).addW r_dest.has r_dest .nil).addR h_angles.has (.cons s_angles_dest .nil)) (.p rfl (.p rfl .nil)) (glm_euler_yxz_quat_lh_run _) (DT.val_done _) rfl rfl
example (angles : V3 α) : let mem : Mem α := [⟨false, angles.list.map .f⟩, ⟨true, List.replicate 4 .undef⟩]
    Holds mem (0, 0) angles.list ∧ Room mem (1, 0) 4 ∧ Apart (0, 0) 3 (1, 0) 4 :=
  ⟨.block rfl, .block rfl rfl, Or.inl (by decide)⟩

theorem C56_euler_yzx_quat_lh {mem : Mem α} {anglesP destP : Ptr} {angles : V3 α} (h_angles : Holds mem anglesP angles.list) (r_dest : Room mem destP 4) (s_angles_dest : Apart anglesP 3 destP 4) :
    C.glm_euler_yzx_quat_lh.run mem [anglesP.val, destP.val] =
      some (none, writes mem [(destP, (Cglm.glm_euler_yzx_quat_lh angles).list.map .f)]) := by
  exact transferL (((R.nil _).addW r_dest.has r_dest .nil).addR h_angles.has (.cons s_angles_dest .nil)) (.p rfl (.p rfl .nil)) (glm_euler_yzx_quat_lh_run _) (DT.val_done _) rfl rfl
example (angles : V3 α) : let mem : Mem α := [⟨false, angles.list.map .f⟩, ⟨true, List.replicate 4 .undef⟩]
    Holds mem (0, 0) angles.list ∧ Room mem (1, 0) 4 ∧ Apart (0, 0) 3 (1, 0) 4 :=
  ⟨.block rfl, .block rfl rfl, Or.inl (by decide)⟩

theorem C56_euler_zxy_quat_lh {mem : Mem α} {anglesP destP : Ptr} {angles : V3 α} (h_angles : Holds mem anglesP angles.list) (r_dest : Room mem destP 4) (s_angles_dest : Apart anglesP 3 destP 4) :
    C.glm_euler_zxy_quat_lh.run mem [anglesP.val, destP.val] =
      some (none, writes mem [(destP, (Cglm.glm_euler_zxy_quat_lh angles).list.map .f)]) := by
  exact transferL (((R.nil _).addW r_dest.has r_dest .nil).addR h_angles.has (.cons s_angles_dest .nil)) (.p rfl (.p rfl .nil)) (glm_euler_zxy_quat_lh_run _) (DT.val_done _) rfl rfl
example (angles : V3 α) : let mem : Mem α := [⟨false, angles.list.map .f⟩, ⟨true, List.replicate 4 .undef⟩]
    Holds mem (0, 0) angles.list ∧ Room mem (1, 0) 4 ∧ Apart (0, 0) 3 (1, 0) 4 :=
  ⟨.block rfl, .block rfl rfl, Or.inl (by decide)⟩

theorem C56_euler_zyx_quat_lh {mem : Mem α} {anglesP destP : Ptr} {angles : V3 α} (h_angles : Holds mem anglesP angles.list) (r_dest : Room mem destP 4) (s_angles_dest : Apart anglesP 3 destP 4) :
    C.glm_euler_zyx_quat_lh.run mem [anglesP.val, destP.val] =
      some (none, writes mem [(destP, (Cglm.glm_euler_zyx_quat_lh angles).list.map .f)]) := by
  exact transferL (((R.nil _).addW r_dest.has r_dest .nil).addR h_angles.has (.cons s_angles_dest .nil)) (.p rfl (.p rfl .nil)) (glm_euler_zyx_quat_lh_run _) (DT.val_done _) rfl rfl
example (angles : V3 α) : let mem : Mem α := [⟨false, angles.list.map .f⟩, ⟨true, List.replicate 4 .undef⟩]
    Holds mem (0, 0) angles.list ∧ Room mem (1, 0) 4 ∧ Apart (0, 0) 3 (1, 0) 4 :=
  ⟨.block rfl, .block rfl rfl, Or.inl (by decide)⟩

end Cglm

end C56HandedEulerToQuatLh

section C56HandedEulerToQuatRh

/-!
# C56: memory safety and framing (include/cglm/handed/euler_to_quat_rh.h)

Called with initialised inputs and a writable destination that does not overlap them, the function is defined,
returns the value-level result and changes no memory but its destination.
-/

set_option linter.unusedVariables false
set_option linter.unusedSectionVars false

namespace Cglm
open CMem

variable {α : Type} [Add α] [Sub α] [Mul α] [Div α] [Neg α] [CFloat α]

theorem C56_euler_xyz_quat_rh {mem : Mem α} {anglesP destP : Ptr} {angles : V3 α} (h_angles : Holds mem anglesP angles.list) (r_dest : Room mem destP 4) (s_angles_dest : Apart anglesP 3 destP 4) :
    C.glm_euler_xyz_quat_rh.run mem [anglesP.val, destP.val] =
      some (none, writes mem [(destP, (Cglm.glm_euler_xyz_quat_rh angles).list.map .f)]) := by
  exact transferL (((R.nil _).addW r_dest.has r_dest .nil).addR h_angles.has (.cons s_angles_dest .nil)) (.p rfl (.p rfl .nil)) (glm_euler_xyz_quat_rh_run _) (DT.val_done _) rfl rfl
example (angles : V3 α) : let mem : Mem α := [⟨false, angles.list.map .f⟩, ⟨true, List.replicate 4 .undef⟩]
    Holds mem (0, 0) angles.list ∧ Room mem (1, 0) 4 ∧ Apart (0, 0) 3 (1, 0) 4 :=
  ⟨.block rfl, .block rfl rfl, Or.inl (by decide)⟩

theorem C56_euler_xzy_quat_rh {mem : Mem α} {anglesP destP : Ptr} {angles : V3 α} (h_angles : Holds mem anglesP angles.list) (r_dest : Room mem destP 4) (s_angles_dest : Apart anglesP 3 destP 4) :
    C.glm_euler_xzy_quat_rh.run mem [anglesP.val, destP.val] =
      some (none, writes mem [(destP, (Cglm.glm_euler_xzy_quat_rh angles).list.map .f)]) := by
  exact transferL (((R.nil _).addW r_dest.has r_dest .nil).addR h_angles.has (.cons s_angles_dest .nil)) (.p rfl (.p rfl .nil)) (glm_euler_xzy_quat_rh_run _) (DT.val_done _) rfl rfl
example (angles : V3 α) : let mem : Mem α := [⟨false, angles.list.map .f⟩, ⟨true, List.replicate 4 .undef⟩]
    Holds mem (0, 0) angles.list ∧ Room mem (1, 0) 4 ∧ Apart (0, 0) 3 (1, 0) 4 :=
  ⟨.block rfl, .block rfl rfl, Or.inl (by decide)⟩

theorem C56_euler_yxz_quat_rh {mem : Mem α} {anglesP destP : Ptr} {angles : V3 α} (h_angles : Holds mem anglesP angles.list) (r_dest : Room mem destP 4) (s_angles_dest : Apart anglesP 3 destP 4) :
    C.glm_euler_yxz_quat_rh.run mem [anglesP.val, destP.val] =
      some (none, writes mem [(destP, (Cglm.glm_euler_yxz_quat_rh angles).list.map .f)]) := by
  exact transferL (((R.nil _).addW r_dest.has r_dest .nil).addR h_angles.has (.cons s_angles_dest .nil)) (.p rfl (.p rfl .nil)) (glm_euler_yxz_quat_rh_run _) (DT.val_done _) rfl rfl
example (angles : V3 α) : let mem : Mem α := [⟨false, angles.list.map .f⟩, ⟨true, List.replicate 4 .undef⟩]
    Holds mem (0, 0) angles.list ∧ Room mem (1, 0) 4 ∧ Apart (0, 0) 3 (1, 0) 4 :=
  ⟨.block rfl, .block rfl rfl, Or.inl (by decide)⟩

theorem C56_euler_yzx_quat_rh {mem : Mem α} {anglesP destP : Ptr} {angles : V3 α} (h_angles : Holds mem anglesP angles.list) (r_dest : Room mem destP 4) (s_angles_dest : Apart anglesP 3 destP 4) :
    C.glm_euler_yzx_quat_rh.run mem [anglesP.val, destP.val] =
      some (none, writes mem [(destP, (Cglm.glm_euler_yzx_quat_rh angles).list.map .f)]) := by
  exact transferL (((R.nil _).addW r_dest.has r_dest .nil).addR h_angles.has (.cons s_angles_dest .nil)) (.p rfl (.p rfl .nil)) (glm_euler_yzx_quat_rh_run _) (DT.val_done _) rfl rfl
example (angles : V3 α) : let mem : Mem α := [⟨false, angles.list.map .f⟩, ⟨true, List.replicate 4 .undef⟩]
    Holds mem (0, 0) angles.list ∧ Room mem (1, 0) 4 ∧ Apart (0, 0) 3 (1, 0) 4 :=
  ⟨.block rfl, .block rfl rfl, Or.inl (by decide)⟩

theorem C56_euler_zxy_quat_rh {mem : Mem α} {anglesP destP : Ptr} {angles : V3 α} (h_angles : Holds mem anglesP angles.list) (r_dest : Room mem destP 4) (s_angles_dest : Apart anglesP 3 destP 4) :
    C.glm_euler_zxy_quat_rh.run mem [anglesP.val, destP.val] =
      some (none, writes mem [(destP, (Cglm.glm_euler_zxy_quat_rh angles).list.map .f)]) := by
  exact transferL (((R.nil _).addW r_dest.has r_dest .nil).addR h_angles.has (.cons s_angles_dest .nil)) (.p rfl (.p rfl .nil)) (glm_euler_zxy_quat_rh_run _) (DT.val_done _) rfl rfl
example (angles : V3 α) : let mem : Mem α := [⟨false, angles.list.map .f⟩, ⟨true, List.replicate 4 .undef⟩]
    Holds mem (0, 0) angles.list ∧ Room mem (1, 0) 4 ∧ Apart (0, 0) 3 (1, 0) 4 :=
  ⟨.block rfl, .block rfl rfl, Or.inl (by decide)⟩

theorem C56_euler_zyx_quat_rh {mem : Mem α} {anglesP destP : Ptr} {angles : V3 α} (h_angles : Holds mem anglesP angles.list) (r_dest : Room mem destP 4) (s_angles_dest : Apart anglesP 3 destP 4) :
    C.glm_euler_zyx_quat_rh.run mem [anglesP.val, destP.val] =
      some (none, writes mem [(destP, (Cglm.glm_euler_zyx_quat_rh angles).list.map .f)]) := by
  exact transferL (((R.nil _).addW r_dest.has r_dest .nil).addR h_angles.has (.cons s_angles_dest .nil)) (.p rfl (.p rfl .nil)) (glm_euler_zyx_quat_rh_run _) (DT.val_done _) rfl rfl
example (angles : V3 α) : let mem : Mem α := [⟨false, angles.list.map .f⟩, ⟨true, List.replicate 4 .undef⟩]
    Holds mem (0, 0) angles.list ∧ Room mem (1, 0) 4 ∧ Apart (0, 0) 3 (1, 0) 4 :=
  ⟨.block rfl, .block rfl rfl, Or.inl (by decide)⟩

end Cglm

end C56HandedEulerToQuatRh

section C56Quat

/-!
# C56: memory safety and framing (include/cglm/quat.h)

Called with initialised inputs and a writable destination that does not overlap them, the function is defined,
returns the value-level result and changes no memory but its destination.
-/

set_option linter.unusedVariables false
set_option linter.unusedSectionVars false

namespace Cglm
open CMem

variable {α : Type} [Add α] [Sub α] [Mul α] [Div α] [Neg α] [CFloat α]

theorem C56_quat_identity {mem : Mem α} {qP : Ptr} (r_q : Room mem qP 4) :
    C.glm_quat_identity.run mem [qP.val] =
      some (none, writes mem [(qP, (Cglm.glm_quat_identity).list.map .f)]) := by
  exact transferL ((R.nil _).addW r_q.has r_q .nil) (.p rfl .nil) (glm_quat_identity_run) (DT.val_done _) rfl rfl
example : let mem : Mem α := [⟨true, List.replicate 4 .undef⟩]
    Room mem (0, 0) 4 :=
  .block rfl rfl

theorem C56_quat_init {mem : Mem α} {qP : Ptr} (x : α) (y : α) (z : α) (w : α) (r_q : Room mem qP 4) :
    C.glm_quat_init.run mem [qP.val, .f x, .f y, .f z, .f w] =
      some (none, writes mem [(qP, (Cglm.glm_quat_init x y z w).list.map .f)]) := by
  exact transferL ((R.nil _).addW r_q.has r_q .nil) (.p rfl (.f (.f (.f (.f .nil))))) (glm_quat_init_run _ _ _ _) (DT.val_done _) rfl rfl
example : let mem : Mem α := [⟨true, List.replicate 4 .undef⟩]
    Room mem (0, 0) 4 :=
  .block rfl rfl

theorem C56_quatv {mem : Mem α} {qP axisP : Ptr} (angle : α) {axis : V3 α} (r_q : Room mem qP 4) (h_axis : Holds mem axisP axis.list) (s_axis_q : Apart axisP 3 qP 4) :
    C.glm_quatv.run mem [qP.val, .f angle, axisP.val] =
      some (none, writes mem [(qP, (Cglm.glm_quatv angle axis).list.map .f)]) := by
  exact transferL (((R.nil _).addR h_axis.has .nil).addW r_q.has r_q (.cons s_axis_q.symm .nil)) (.p rfl (.f (.p rfl .nil))) (glm_quatv_run _ _) (DT.val_map_eq (glm_quatv_dt_val _ _) rfl) rfl rfl
example (axis : V3 α) : let mem : Mem α := [⟨true, List.replicate 4 .undef⟩, ⟨false, axis.list.map .f⟩]
    Room mem (0, 0) 4 ∧ Holds mem (1, 0) axis.list ∧ Apart (1, 0) 3 (0, 0) 4 :=
  ⟨.block rfl rfl, .block rfl, Or.inl (by decide)⟩

theorem C56_quat {mem : Mem α} {qP : Ptr} (angle : α) (x : α) (y : α) (z : α) (r_q : Room mem qP 4) :
    C.glm_quat.run mem [qP.val, .f angle, .f x, .f y, .f z] =
      some (none, writes mem [(qP, (Cglm.glm_quat angle x y z).list.map .f)]) := by
  exact transferL ((R.nil _).addW r_q.has r_q .nil) (.p rfl (.f (.f (.f (.f .nil))))) (glm_quat_run _ _ _ _) (DT.val_map_eq (glm_quat_dt_val _ _ _ _) rfl) rfl rfl
example : let mem : Mem α := [⟨true, List.replicate 4 .undef⟩]
    Room mem (0, 0) 4 :=
  .block rfl rfl

theorem C56_quat_copy {mem : Mem α} {qP destP : Ptr} {q : V4 α} (h_q : Holds mem qP q.list) (r_dest : Room mem destP 4) (s_q_dest : Apart qP 4 destP 4) :
    C.glm_quat_copy.run mem [qP.val, destP.val] =
      some (none, writes mem [(destP, (Cglm.glm_quat_copy q).list.map .f)]) :=
  C55_quat_copy h_q r_dest (Or.inr s_q_dest)
example (q : V4 α) : let mem : Mem α := [⟨false, q.list.map .f⟩, ⟨true, List.replicate 4 .undef⟩]
    Holds mem (0, 0) q.list ∧ Room mem (1, 0) 4 ∧ Apart (0, 0) 4 (1, 0) 4 :=
  ⟨.block rfl, .block rfl rfl, Or.inl (by decide)⟩

theorem C56_quat_norm {mem : Mem α} {qP : Ptr} {q : V4 α} (h_q : Holds mem qP q.list) :
    C.glm_quat_norm.run mem [qP.val] =
      some (some (.f (Cglm.glm_quat_norm q)), mem) := by
  exact transferL ((R.nil _).addR h_q.has .nil) (.p rfl .nil) (glm_quat_norm_run _) (DT.val_done _) rfl rfl
example (q : V4 α) : let mem : Mem α := [⟨false, q.list.map .f⟩]
    Holds mem (0, 0) q.list :=
  .block rfl

theorem C56_quat_normalize_to {mem : Mem α} {qP destP : Ptr} {q : V4 α} (h_q : Holds mem qP q.list) (r_dest : Room mem destP 4) (s_q_dest : Apart qP 4 destP 4) :
    C.glm_quat_normalize_to.run mem [qP.val, destP.val] =
      some (none, writes mem [(destP, (Cglm.glm_quat_normalize_to q).list.map .f)]) :=
  C55_quat_normalize_to h_q r_dest (Or.inr s_q_dest)
example (q : V4 α) : let mem : Mem α := [⟨false, q.list.map .f⟩, ⟨true, List.replicate 4 .undef⟩]
    Holds mem (0, 0) q.list ∧ Room mem (1, 0) 4 ∧ Apart (0, 0) 4 (1, 0) 4 :=
  ⟨.block rfl, .block rfl rfl, Or.inl (by decide)⟩

theorem C56_quat_normalize {mem : Mem α} {qP : Ptr} {q : V4 α} (h_q : Holds mem qP q.list) (r_q : Room mem qP 4) :
    C.glm_quat_normalize.run mem [qP.val] =
      some (none, writes mem [(qP, (Cglm.glm_quat_normalize q).list.map .f)]) := by
  exact transferL ((R.nil _).addW h_q.has r_q .nil) (.p rfl .nil) (glm_quat_normalize_run _) (DT.val_map_eq (glm_quat_normalize_dt_val _) rfl) rfl rfl
example (q : V4 α) : let mem : Mem α := [⟨true, q.list.map .f⟩]
    Holds mem (0, 0) q.list ∧ Room mem (0, 0) 4 :=
  ⟨.block rfl, .block rfl rfl⟩

theorem C56_quat_dot {mem : Mem α} {pP qP : Ptr} {p : V4 α} {q : V4 α} (h_p : Holds mem pP p.list) (h_q : Holds mem qP q.list) :
    C.glm_quat_dot.run mem [pP.val, qP.val] =
      some (some (.f (Cglm.glm_quat_dot p q)), mem) := by
  exact transferL (((R.nil _).addR h_q.has .nil).addR h_p.has (.skip .nil)) (.p rfl (.p rfl .nil)) (glm_quat_dot_run _ _) (DT.val_done _) rfl rfl
example (p : V4 α) (q : V4 α) : let mem : Mem α := [⟨false, p.list.map .f⟩, ⟨false, q.list.map .f⟩]
    Holds mem (0, 0) p.list ∧ Holds mem (1, 0) q.list :=
  ⟨.block rfl, .block rfl⟩

theorem C56_quat_conjugate {mem : Mem α} {qP destP : Ptr} {q : V4 α} (h_q : Holds mem qP q.list) (r_dest : Room mem destP 4) (s_q_dest : Apart qP 4 destP 4) :
    C.glm_quat_conjugate.run mem [qP.val, destP.val] =
      some (none, writes mem [(destP, (Cglm.glm_quat_conjugate q).list.map .f)]) :=
  C55_quat_conjugate h_q r_dest (Or.inr s_q_dest)
example (q : V4 α) : let mem : Mem α := [⟨false, q.list.map .f⟩, ⟨true, List.replicate 4 .undef⟩]
    Holds mem (0, 0) q.list ∧ Room mem (1, 0) 4 ∧ Apart (0, 0) 4 (1, 0) 4 :=
  ⟨.block rfl, .block rfl rfl, Or.inl (by decide)⟩

theorem C56_quat_inv {mem : Mem α} {qP destP : Ptr} {q : V4 α} (h_q : Holds mem qP q.list) (r_dest : Room mem destP 4) (s_q_dest : Apart qP 4 destP 4) :
    C.glm_quat_inv.run mem [qP.val, destP.val] =
      some (none, writes mem [(destP, (Cglm.glm_quat_inv q).list.map .f)]) :=
  C55_quat_inv h_q r_dest (Or.inr s_q_dest)
example (q : V4 α) : let mem : Mem α := [⟨false, q.list.map .f⟩, ⟨true, List.replicate 4 .undef⟩]
    Holds mem (0, 0) q.list ∧ Room mem (1, 0) 4 ∧ Apart (0, 0) 4 (1, 0) 4 :=
  ⟨.block rfl, .block rfl rfl, Or.inl (by decide)⟩

theorem C56_quat_add {mem : Mem α} {pP qP destP : Ptr} {p : V4 α} {q : V4 α} (h_p : Holds mem pP p.list) (h_q : Holds mem qP q.list) (r_dest : Room mem destP 4) (s_p_dest : Apart pP 4 destP 4) (s_q_dest : Apart qP 4 destP 4) :
    C.glm_quat_add.run mem [pP.val, qP.val, destP.val] =
      some (none, writes mem [(destP, (Cglm.glm_quat_add p q).list.map .f)]) :=
  C55_quat_add h_p h_q r_dest (Or.inr s_p_dest) (Or.inr s_q_dest)
example (p : V4 α) (q : V4 α) : let mem : Mem α := [⟨false, p.list.map .f⟩, ⟨false, q.list.map .f⟩, ⟨true, List.replicate 4 .undef⟩]
    Holds mem (0, 0) p.list ∧ Holds mem (1, 0) q.list ∧ Room mem (2, 0) 4 ∧ Apart (0, 0) 4 (2, 0) 4 ∧ Apart (1, 0) 4 (2, 0) 4 :=
  ⟨.block rfl, .block rfl, .block rfl rfl, Or.inl (by decide), Or.inl (by decide)⟩

theorem C56_quat_sub {mem : Mem α} {pP qP destP : Ptr} {p : V4 α} {q : V4 α} (h_p : Holds mem pP p.list) (h_q : Holds mem qP q.list) (r_dest : Room mem destP 4) (s_p_dest : Apart pP 4 destP 4) (s_q_dest : Apart qP 4 destP 4) :
    C.glm_quat_sub.run mem [pP.val, qP.val, destP.val] =
      some (none, writes mem [(destP, (Cglm.glm_quat_sub p q).list.map .f)]) :=
  C55_quat_sub h_p h_q r_dest (Or.inr s_p_dest) (Or.inr s_q_dest)
example (p : V4 α) (q : V4 α) : let mem : Mem α := [⟨false, p.list.map .f⟩, ⟨false, q.list.map .f⟩, ⟨true, List.replicate 4 .undef⟩]
    Holds mem (0, 0) p.list ∧ Holds mem (1, 0) q.list ∧ Room mem (2, 0) 4 ∧ Apart (0, 0) 4 (2, 0) 4 ∧ Apart (1, 0) 4 (2, 0) 4 :=
  ⟨.block rfl, .block rfl, .block rfl rfl, Or.inl (by decide), Or.inl (by decide)⟩

theorem C56_quat_real {mem : Mem α} {qP : Ptr} {q : V4 α} (h_q : Holds mem qP q.list) :
    C.glm_quat_real.run mem [qP.val] =
      some (some (.f (Cglm.glm_quat_real q)), mem) := by
  exact transferL ((R.nil _).addR h_q.has .nil) (.p rfl .nil) (glm_quat_real_run _) (DT.val_done _) rfl rfl
example (q : V4 α) : let mem : Mem α := [⟨false, q.list.map .f⟩]
    Holds mem (0, 0) q.list :=
  .block rfl

theorem C56_quat_imag {mem : Mem α} {qP destP : Ptr} {q : V4 α} (h_q : Holds mem qP q.list) (r_dest : Room mem destP 3) (s_q_dest : Apart qP 4 destP 3) :
    C.glm_quat_imag.run mem [qP.val, destP.val] =
      some (none, writes mem [(destP, (Cglm.glm_quat_imag q).list.map .f)]) := by
  exact transferL (((R.nil _).addW r_dest.has r_dest .nil).addR h_q.has (.cons s_q_dest .nil)) (.p rfl (.p rfl .nil)) (glm_quat_imag_run _) (DT.val_done _) rfl rfl
example (q : V4 α) : let mem : Mem α := [⟨false, q.list.map .f⟩, ⟨true, List.replicate 3 .undef⟩]
    Holds mem (0, 0) q.list ∧ Room mem (1, 0) 3 ∧ Apart (0, 0) 4 (1, 0) 3 :=
  ⟨.block rfl, .block rfl rfl, Or.inl (by decide)⟩

theorem C56_quat_imagn {mem : Mem α} {qP destP : Ptr} {q : V4 α} (h_q : Holds mem qP q.list) (r_dest : Room mem destP 3) (s_q_dest : Apart qP 4 destP 3) :
    C.glm_quat_imagn.run mem [qP.val, destP.val] =
      some (none, writes mem [(destP, (Cglm.glm_quat_imagn q).list.map .f)]) := by
  exact transferL (((R.nil _).addW r_dest.has r_dest .nil).addR h_q.has (.cons s_q_dest .nil)) (.p rfl (.p rfl .nil)) (glm_quat_imagn_run _) (DT.val_map_eq (glm_quat_imagn_dt_val _) rfl) rfl rfl
example (q : V4 α) : let mem : Mem α := [⟨false, q.list.map .f⟩, ⟨true, List.replicate 3 .undef⟩]
    Holds mem (0, 0) q.list ∧ Room mem (1, 0) 3 ∧ Apart (0, 0) 4 (1, 0) 3 :=
  ⟨.block rfl, .block rfl rfl, Or.inl (by decide)⟩

theorem C56_quat_imaglen {mem : Mem α} {qP : Ptr} {q : V4 α} (h_q : Holds mem qP q.list) :
    C.glm_quat_imaglen.run mem [qP.val] =
      some (some (.f (Cglm.glm_quat_imaglen q)), mem) := by
  exact transferL ((R.nil _).addR h_q.has .nil) (.p rfl .nil) (glm_quat_imaglen_run _) (DT.val_done _) rfl rfl
example (q : V4 α) : let mem : Mem α := [⟨false, q.list.map .f⟩]
    Holds mem (0, 0) q.list :=
  .block rfl

theorem C56_quat_angle {mem : Mem α} {qP : Ptr} {q : V4 α} (h_q : Holds mem qP q.list) :
    C.glm_quat_angle.run mem [qP.val] =
      some (some (.f (Cglm.glm_quat_angle q)), mem) := by
  exact transferL ((R.nil _).addR h_q.has .nil) (.p rfl .nil) (glm_quat_angle_run _) (DT.val_done _) rfl rfl
example (q : V4 α) : let mem : Mem α := [⟨false, q.list.map .f⟩]
    Holds mem (0, 0) q.list :=
  .block rfl

theorem C56_quat_axis {mem : Mem α} {qP destP : Ptr} {q : V4 α} (h_q : Holds mem qP q.list) (r_dest : Room mem destP 3) (s_q_dest : Apart qP 4 destP 3) :
    C.glm_quat_axis.run mem [qP.val, destP.val] =
      some (none, writes mem [(destP, (Cglm.glm_quat_axis q).list.map .f)]) := by
  exact transferL (((R.nil _).addW r_dest.has r_dest .nil).addR h_q.has (.cons s_q_dest .nil)) (.p rfl (.p rfl .nil)) (glm_quat_axis_run _) (DT.val_map_eq (glm_quat_axis_dt_val _) rfl) rfl rfl
example (q : V4 α) : let mem : Mem α := [⟨false, q.list.map .f⟩, ⟨true, List.replicate 3 .undef⟩]
    Holds mem (0, 0) q.list ∧ Room mem (1, 0) 3 ∧ Apart (0, 0) 4 (1, 0) 3 :=
  ⟨.block rfl, .block rfl rfl, Or.inl (by decide)⟩

theorem C56_quat_mul {mem : Mem α} {pP qP destP : Ptr} {p : V4 α} {q : V4 α} (h_p : Holds mem pP p.list) (h_q : Holds mem qP q.list) (r_dest : Room mem destP 4) (s_p_dest : Apart pP 4 destP 4) (s_q_dest : Apart qP 4 destP 4) :
    C.glm_quat_mul.run mem [pP.val, qP.val, destP.val] =
      some (none, writes mem [(destP, (Cglm.glm_quat_mul p q).list.map .f)]) := by
  exact transferL ((((R.nil _).addW r_dest.has r_dest .nil).addR h_q.has (.cons s_q_dest .nil)).addR h_p.has (.skip (.cons s_p_dest .nil))) (.p rfl (.p rfl (.p rfl .nil))) (glm_quat_mul_run _ _) (DT.val_done _) rfl rfl
example (p : V4 α) (q : V4 α) : let mem : Mem α := [⟨false, p.list.map .f⟩, ⟨false, q.list.map .f⟩, ⟨true, List.replicate 4 .undef⟩]
    Holds mem (0, 0) p.list ∧ Holds mem (1, 0) q.list ∧ Room mem (2, 0) 4 ∧ Apart (0, 0) 4 (2, 0) 4 ∧ Apart (1, 0) 4 (2, 0) 4 :=
  ⟨.block rfl, .block rfl, .block rfl rfl, Or.inl (by decide), Or.inl (by decide)⟩

theorem C56_quat_mat4 {mem : Mem α} {qP destP : Ptr} {q : V4 α} (h_q : Holds mem qP q.list) (r_dest : Room mem destP 16) (s_q_dest : Apart qP 4 destP 16) :
    C.glm_quat_mat4.run mem [qP.val, destP.val] =
      some (none, writes mem [(destP, (Cglm.glm_quat_mat4 q).list.map .f)]) := by
  exact transferL (((R.nil _).addW r_dest.has r_dest .nil).addR h_q.has (.cons s_q_dest .nil)) (.p rfl (.p rfl .nil)) (glm_quat_mat4_run _) (DT.val_done _) rfl rfl
example (q : V4 α) : let mem : Mem α := [⟨false, q.list.map .f⟩, ⟨true, List.replicate 16 .undef⟩]
    Holds mem (0, 0) q.list ∧ Room mem (1, 0) 16 ∧ Apart (0, 0) 4 (1, 0) 16 :=
  ⟨.block rfl, .block rfl rfl, Or.inl (by decide)⟩

theorem C56_quat_mat4t {mem : Mem α} {qP destP : Ptr} {q : V4 α} (h_q : Holds mem qP q.list) (r_dest : Room mem destP 16) (s_q_dest : Apart qP 4 destP 16) :
    C.glm_quat_mat4t.run mem [qP.val, destP.val] =
      some (none, writes mem [(destP, (Cglm.glm_quat_mat4t q).list.map .f)]) := by
  exact transferL (((R.nil _).addW r_dest.has r_dest .nil).addR h_q.has (.cons s_q_dest .nil)) (.p rfl (.p rfl .nil)) (glm_quat_mat4t_run _) (DT.val_done _) rfl rfl
example (q : V4 α) : let mem : Mem α := [⟨false, q.list.map .f⟩, ⟨true, List.replicate 16 .undef⟩]
    Holds mem (0, 0) q.list ∧ Room mem (1, 0) 16 ∧ Apart (0, 0) 4 (1, 0) 16 :=
  ⟨.block rfl, .block rfl rfl, Or.inl (by decide)⟩

theorem C56_quat_mat3 {mem : Mem α} {qP destP : Ptr} {q : V4 α} (h_q : Holds mem qP q.list) (r_dest : Room mem destP 9) (s_q_dest : Apart qP 4 destP 9) :
    C.glm_quat_mat3.run mem [qP.val, destP.val] =
      some (none, writes mem [(destP, (Cglm.glm_quat_mat3 q).list.map .f)]) := by
  exact transferL (((R.nil _).addW r_dest.has r_dest .nil).addR h_q.has (.cons s_q_dest .nil)) (.p rfl (.p rfl .nil)) (glm_quat_mat3_run _) (DT.val_done _) rfl rfl
example (q : V4 α) : let mem : Mem α := [⟨false, q.list.map .f⟩, ⟨true, List.replicate 9 .undef⟩]
    Holds mem (0, 0) q.list ∧ Room mem (1, 0) 9 ∧ Apart (0, 0) 4 (1, 0) 9 :=
  ⟨.block rfl, .block rfl rfl, Or.inl (by decide)⟩

theorem C56_quat_mat3t {mem : Mem α} {qP destP : Ptr} {q : V4 α} (h_q : Holds mem qP q.list) (r_dest : Room mem destP 9) (s_q_dest : Apart qP 4 destP 9) :
    C.glm_quat_mat3t.run mem [qP.val, destP.val] =
      some (none, writes mem [(destP, (Cglm.glm_quat_mat3t q).list.map .f)]) := by
  exact transferL (((R.nil _).addW r_dest.has r_dest .nil).addR h_q.has (.cons s_q_dest .nil)) (.p rfl (.p rfl .nil)) (glm_quat_mat3t_run _) (DT.val_done _) rfl rfl
example (q : V4 α) : let mem : Mem α := [⟨false, q.list.map .f⟩, ⟨true, List.replicate 9 .undef⟩]
    Holds mem (0, 0) q.list ∧ Room mem (1, 0) 9 ∧ Apart (0, 0) 4 (1, 0) 9 :=
  ⟨.block rfl, .block rfl rfl, Or.inl (by decide)⟩

theorem C56_quat_lerp {mem : Mem α} {frmP toP destP : Ptr} {frm : V4 α} {«to» : V4 α} (t : α) (h_frm : Holds mem frmP frm.list) (h_to : Holds mem toP «to».list) (r_dest : Room mem destP 4) (s_frm_dest : Apart frmP 4 destP 4) (s_to_dest : Apart toP 4 destP 4) :
    C.glm_quat_lerp.run mem [frmP.val, toP.val, .f t, destP.val] =
      some (none, writes mem [(destP, (Cglm.glm_quat_lerp frm «to» t).list.map .f)]) :=
  C55_quat_lerp t h_frm h_to r_dest (Or.inr s_frm_dest) (Or.inr s_to_dest)
example (frm : V4 α) («to» : V4 α) : let mem : Mem α := [⟨false, frm.list.map .f⟩, ⟨false, «to».list.map .f⟩, ⟨true, List.replicate 4 .undef⟩]
    Holds mem (0, 0) frm.list ∧ Holds mem (1, 0) «to».list ∧ Room mem (2, 0) 4 ∧ Apart (0, 0) 4 (2, 0) 4 ∧ Apart (1, 0) 4 (2, 0) 4 :=
  ⟨.block rfl, .block rfl, .block rfl rfl, Or.inl (by decide), Or.inl (by decide)⟩

theorem C56_quat_lerpc {mem : Mem α} {frmP toP destP : Ptr} {frm : V4 α} {«to» : V4 α} (t : α) (h_frm : Holds mem frmP frm.list) (h_to : Holds mem toP «to».list) (r_dest : Room mem destP 4) (s_frm_dest : Apart frmP 4 destP 4) (s_to_dest : Apart toP 4 destP 4) :
    C.glm_quat_lerpc.run mem [frmP.val, toP.val, .f t, destP.val] =
      some (none, writes mem [(destP, (Cglm.glm_quat_lerpc frm «to» t).list.map .f)]) :=
  C55_quat_lerpc t h_frm h_to r_dest (Or.inr s_frm_dest) (Or.inr s_to_dest)
example (frm : V4 α) («to» : V4 α) : let mem : Mem α := [⟨false, frm.list.map .f⟩, ⟨false, «to».list.map .f⟩, ⟨true, List.replicate 4 .undef⟩]
    Holds mem (0, 0) frm.list ∧ Holds mem (1, 0) «to».list ∧ Room mem (2, 0) 4 ∧ Apart (0, 0) 4 (2, 0) 4 ∧ Apart (1, 0) 4 (2, 0) 4 :=
  ⟨.block rfl, .block rfl, .block rfl rfl, Or.inl (by decide), Or.inl (by decide)⟩

theorem C56_quat_nlerp {mem : Mem α} {frmP toP destP : Ptr} {frm : V4 α} {«to» : V4 α} (t : α) (h_frm : Holds mem frmP frm.list) (h_to : Holds mem toP «to».list) (r_dest : Room mem destP 4) (s_frm_dest : Apart frmP 4 destP 4) (s_to_dest : Apart toP 4 destP 4) :
    C.glm_quat_nlerp.run mem [frmP.val, toP.val, .f t, destP.val] =
      some (none, writes mem [(destP, (Cglm.glm_quat_nlerp frm «to» t).list.map .f)]) :=
  C55_quat_nlerp t h_frm h_to r_dest (Or.inr s_frm_dest) (Or.inr s_to_dest)
example (frm : V4 α) («to» : V4 α) : let mem : Mem α := [⟨false, frm.list.map .f⟩, ⟨false, «to».list.map .f⟩, ⟨true, List.replicate 4 .undef⟩]
    Holds mem (0, 0) frm.list ∧ Holds mem (1, 0) «to».list ∧ Room mem (2, 0) 4 ∧ Apart (0, 0) 4 (2, 0) 4 ∧ Apart (1, 0) 4 (2, 0) 4 :=
  ⟨.block rfl, .block rfl, .block rfl rfl, Or.inl (by decide), Or.inl (by decide)⟩

theorem C56_quat_slerp {mem : Mem α} {frmP toP destP : Ptr} {frm : V4 α} {«to» : V4 α} (t : α) (h_frm : Holds mem frmP frm.list) (h_to : Holds mem toP «to».list) (r_dest : Room mem destP 4) (s_frm_dest : Apart frmP 4 destP 4) (s_to_dest : Apart toP 4 destP 4) :
    C.glm_quat_slerp.run mem [frmP.val, toP.val, .f t, destP.val] =
      some (none, writes mem [(destP, (Cglm.glm_quat_slerp frm «to» t).list.map .f)]) :=
  C55_quat_slerp t h_frm h_to r_dest (Or.inr s_frm_dest) (Or.inr s_to_dest)
example (frm : V4 α) («to» : V4 α) : let mem : Mem α := [⟨false, frm.list.map .f⟩, ⟨false, «to».list.map .f⟩, ⟨true, List.replicate 4 .undef⟩]
    Holds mem (0, 0) frm.list ∧ Holds mem (1, 0) «to».list ∧ Room mem (2, 0) 4 ∧ Apart (0, 0) 4 (2, 0) 4 ∧ Apart (1, 0) 4 (2, 0) 4 :=
  ⟨.block rfl, .block rfl, .block rfl rfl, Or.inl (by decide), Or.inl (by decide)⟩

theorem C56_quat_slerp_longest {mem : Mem α} {frmP toP destP : Ptr} {frm : V4 α} {«to» : V4 α} (t : α) (h_frm : Holds mem frmP frm.list) (h_to : Holds mem toP «to».list) (r_dest : Room mem destP 4) (s_frm_dest : Apart frmP 4 destP 4) (s_to_dest : Apart toP 4 destP 4) :
    C.glm_quat_slerp_longest.run mem [frmP.val, toP.val, .f t, destP.val] =
      some (none, writes mem [(destP, (Cglm.glm_quat_slerp_longest frm «to» t).list.map .f)]) :=
  C55_quat_slerp_longest t h_frm h_to r_dest (Or.inr s_frm_dest) (Or.inr s_to_dest)
example (frm : V4 α) («to» : V4 α) : let mem : Mem α := [⟨false, frm.list.map .f⟩, ⟨false, «to».list.map .f⟩, ⟨true, List.replicate 4 .undef⟩]
    Holds mem (0, 0) frm.list ∧ Holds mem (1, 0) «to».list ∧ Room mem (2, 0) 4 ∧ Apart (0, 0) 4 (2, 0) 4 ∧ Apart (1, 0) 4 (2, 0) 4 :=
  ⟨.block rfl, .block rfl, .block rfl rfl, Or.inl (by decide), Or.inl (by decide)⟩

theorem C56_quat_look {mem : Mem α} {eyeP oriP destP : Ptr} {eye : V3 α} {ori : V4 α} (h_eye : Holds mem eyeP eye.list) (h_ori : Holds mem oriP ori.list) (r_dest : Room mem destP 16) (s_eye_dest : Apart eyeP 3 destP 16) (s_ori_dest : Apart oriP 4 destP 16) :
    C.glm_quat_look.run mem [eyeP.val, oriP.val, destP.val] =
      some (none, writes mem [(destP, (Cglm.glm_quat_look eye ori).list.map .f)]) := by
  exact transferL ((((R.nil _).addW r_dest.has r_dest .nil).addR h_ori.has (.cons s_ori_dest .nil)).addR h_eye.has (.skip (.cons s_eye_dest .nil))) (.p rfl (.p rfl (.p rfl .nil))) (glm_quat_look_run _ _) (DT.val_done _) rfl rfl
example (eye : V3 α) (ori : V4 α) : let mem : Mem α := [⟨false, eye.list.map .f⟩, ⟨false, ori.list.map .f⟩, ⟨true, List.replicate 16 .undef⟩]
    Holds mem (0, 0) eye.list ∧ Holds mem (1, 0) ori.list ∧ Room mem (2, 0) 16 ∧ Apart (0, 0) 3 (2, 0) 16 ∧ Apart (1, 0) 4 (2, 0) 16 :=
  ⟨.block rfl, .block rfl, .block rfl rfl, Or.inl (by decide), Or.inl (by decide)⟩

theorem C56_quat_for {mem : Mem α} {dirP upP destP : Ptr} {dir : V3 α} {up : V3 α} (h_dir : Holds mem dirP dir.list) (h_up : Holds mem upP up.list) (r_dest : Room mem destP 4) (s_dir_dest : Apart dirP 3 destP 4) (s_up_dest : Apart upP 3 destP 4) :
    C.glm_quat_for.run mem [dirP.val, upP.val, destP.val] =
      some (none, writes mem [(destP, (Cglm.glm_quat_for dir up).list.map .f)]) := by
  exact transferL ((((R.nil _).addW r_dest.has r_dest .nil).addR h_up.has (.cons s_up_dest .nil)).addR h_dir.has (.skip (.cons s_dir_dest .nil))) (.p rfl (.p rfl (.p rfl .nil))) (glm_quat_for_run _ _) (DT.val_map_eq (glm_quat_for_dt_val _ _) rfl) rfl rfl
example (dir : V3 α) (up : V3 α) : let mem : Mem α := [⟨false, dir.list.map .f⟩, ⟨false, up.list.map .f⟩, ⟨true, List.replicate 4 .undef⟩]
    Holds mem (0, 0) dir.list ∧ Holds mem (1, 0) up.list ∧ Room mem (2, 0) 4 ∧ Apart (0, 0) 3 (2, 0) 4 ∧ Apart (1, 0) 3 (2, 0) 4 :=
  ⟨.block rfl, .block rfl, .block rfl rfl, Or.inl (by decide), Or.inl (by decide)⟩

theorem C56_quat_forp {mem : Mem α} {frmP toP upP destP : Ptr} {frm : V3 α} {«to» : V3 α} {up : V3 α} (h_frm : Holds mem frmP frm.list) (h_to : Holds mem toP «to».list) (h_up : Holds mem upP up.list) (r_dest : Room mem destP 4) (s_frm_dest : Apart frmP 3 destP 4) (s_to_dest : Apart toP 3 destP 4) (s_up_dest : Apart upP 3 destP 4) :
    C.glm_quat_forp.run mem [frmP.val, toP.val, upP.val, destP.val] =
      some (none, writes mem [(destP, (Cglm.glm_quat_forp frm «to» up).list.map .f)]) := by
  exact transferL (((((R.nil _).addW r_dest.has r_dest .nil).addR h_up.has (.cons s_up_dest .nil)).addR h_to.has (.skip (.cons s_to_dest .nil))).addR h_frm.has (.skip (.skip (.cons s_frm_dest .nil)))) (.p rfl (.p rfl (.p rfl (.p rfl .nil)))) (glm_quat_forp_run _ _ _) (DT.val_map_eq (glm_quat_forp_dt_val _ _ _) rfl) rfl rfl
example (frm : V3 α) («to» : V3 α) (up : V3 α) : let mem : Mem α := [⟨false, frm.list.map .f⟩, ⟨false, «to».list.map .f⟩, ⟨false, up.list.map .f⟩, ⟨true, List.replicate 4 .undef⟩]
    Holds mem (0, 0) frm.list ∧ Holds mem (1, 0) «to».list ∧ Holds mem (2, 0) up.list ∧ Room mem (3, 0) 4 ∧ Apart (0, 0) 3 (3, 0) 4 ∧ Apart (1, 0) 3 (3, 0) 4 ∧ Apart (2, 0) 3 (3, 0) 4 :=
  ⟨.block rfl, .block rfl, .block rfl, .block rfl rfl, Or.inl (by decide), Or.inl (by decide), Or.inl (by decide)⟩

theorem C56_quat_rotatev {mem : Mem α} {qP vP destP : Ptr} {q : V4 α} {v : V3 α} (h_q : Holds mem qP q.list) (h_v : Holds mem vP v.list) (r_dest : Room mem destP 3) (s_q_dest : Apart qP 4 destP 3) (s_v_dest : Apart vP 3 destP 3) :
    C.glm_quat_rotatev.run mem [qP.val, vP.val, destP.val] =
      some (none, writes mem [(destP, (Cglm.glm_quat_rotatev q v).list.map .f)]) :=
  C55_quat_rotatev h_q h_v r_dest s_q_dest (Or.inr s_v_dest)
example (q : V4 α) (v : V3 α) : let mem : Mem α := [⟨false, q.list.map .f⟩, ⟨false, v.list.map .f⟩, ⟨true, List.replicate 3 .undef⟩]
    Holds mem (0, 0) q.list ∧ Holds mem (1, 0) v.list ∧ Room mem (2, 0) 3 ∧ Apart (0, 0) 4 (2, 0) 3 ∧ Apart (1, 0) 3 (2, 0) 3 :=
  ⟨.block rfl, .block rfl, .block rfl rfl, Or.inl (by decide), Or.inl (by decide)⟩

theorem C56_quat_rotate {mem : Mem α} {mP qP destP : Ptr} {m : M4 α} {q : V4 α} (h_m : Holds mem mP m.list) (h_q : Holds mem qP q.list) (r_dest : Room mem destP 16) (s_m_dest : Apart mP 16 destP 16) (s_q_dest : Apart qP 4 destP 16) :
    C.glm_quat_rotate.run mem [mP.val, qP.val, destP.val] =
      some (none, writes mem [(destP, (Cglm.glm_quat_rotate m q).list.map .f)]) :=
  C55_quat_rotate h_m h_q r_dest (Or.inr s_m_dest) s_q_dest
example (m : M4 α) (q : V4 α) : let mem : Mem α := [⟨false, m.list.map .f⟩, ⟨false, q.list.map .f⟩, ⟨true, List.replicate 16 .undef⟩]
    Holds mem (0, 0) m.list ∧ Holds mem (1, 0) q.list ∧ Room mem (2, 0) 16 ∧ Apart (0, 0) 16 (2, 0) 16 ∧ Apart (1, 0) 4 (2, 0) 16 :=
  ⟨.block rfl, .block rfl, .block rfl rfl, Or.inl (by decide), Or.inl (by decide)⟩

theorem C56_quat_rotate_at {mem : Mem α} {mP qP pivotP : Ptr} {m : M4 α} {q : V4 α} {pivot : V3 α} (h_m : Holds mem mP m.list) (r_m : Room mem mP 16) (h_q : Holds mem qP q.list) (h_pivot : Holds mem pivotP pivot.list) (s_q_m : Apart qP 4 mP 16) (s_pivot_m : Apart pivotP 3 mP 16) :
    C.glm_quat_rotate_at.run mem [mP.val, qP.val, pivotP.val] =
      some (none, writes mem [(mP, (Cglm.glm_quat_rotate_at m q pivot).list.map .f)]) := by
  exact transferL ((((R.nil _).addR h_pivot.has .nil).addR h_q.has (.skip .nil)).addW h_m.has r_m (.cons s_q_m.symm (.cons s_pivot_m.symm .nil))) (.p rfl (.p rfl (.p rfl .nil))) (glm_quat_rotate_at_run _ _ _) (DT.val_done _) rfl rfl
example (m : M4 α) (q : V4 α) (pivot : V3 α) : let mem : Mem α := [⟨true, m.list.map .f⟩, ⟨false, q.list.map .f⟩, ⟨false, pivot.list.map .f⟩]
    Holds mem (0, 0) m.list ∧ Room mem (0, 0) 16 ∧ Holds mem (1, 0) q.list ∧ Holds mem (2, 0) pivot.list ∧ Apart (1, 0) 4 (0, 0) 16 ∧ Apart (2, 0) 3 (0, 0) 16 :=
  ⟨.block rfl, .block rfl rfl, .block rfl, .block rfl, Or.inl (by decide), Or.inl (by decide)⟩

theorem C56_quat_rotate_atm {mem : Mem α} {mP qP pivotP : Ptr} {q : V4 α} {pivot : V3 α} (r_m : Room mem mP 16) (h_q : Holds mem qP q.list) (h_pivot : Holds mem pivotP pivot.list) (s_q_m : Apart qP 4 mP 16) (s_pivot_m : Apart pivotP 3 mP 16) :
    C.glm_quat_rotate_atm.run mem [mP.val, qP.val, pivotP.val] =
      some (none, writes mem [(mP, (Cglm.glm_quat_rotate_atm q pivot).list.map .f)]) := by
  exact transferL ((((R.nil _).addR h_pivot.has .nil).addR h_q.has (.skip .nil)).addW r_m.has r_m (.cons s_q_m.symm (.cons s_pivot_m.symm .nil))) (.p rfl (.p rfl (.p rfl .nil))) (glm_quat_rotate_atm_run _ _) (DT.val_done _) rfl rfl
example (q : V4 α) (pivot : V3 α) : let mem : Mem α := [⟨true, List.replicate 16 .undef⟩, ⟨false, q.list.map .f⟩, ⟨false, pivot.list.map .f⟩]
    Room mem (0, 0) 16 ∧ Holds mem (1, 0) q.list ∧ Holds mem (2, 0) pivot.list ∧ Apart (1, 0) 4 (0, 0) 16 ∧ Apart (2, 0) 3 (0, 0) 16 :=
  ⟨.block rfl rfl, .block rfl, .block rfl, Or.inl (by decide), Or.inl (by decide)⟩

theorem C56_quat_make {mem : Mem α} {srcP destP : Ptr} {src : V4 α} (h_src : Holds mem srcP src.list) (r_dest : Room mem destP 4) (s_src_dest : Apart srcP 4 destP 4) :
    C.glm_quat_make.run mem [srcP.val, destP.val] =
      some (none, writes mem [(destP, (Cglm.glm_quat_make src).list.map .f)]) :=
  C55_quat_make h_src r_dest (Or.inr s_src_dest)
example (src : V4 α) : let mem : Mem α := [⟨false, src.list.map .f⟩, ⟨true, List.replicate 4 .undef⟩]
    Holds mem (0, 0) src.list ∧ Room mem (1, 0) 4 ∧ Apart (0, 0) 4 (1, 0) 4 :=
  ⟨.block rfl, .block rfl rfl, Or.inl (by decide)⟩

theorem C56_quat_from_vecs {mem : Mem α} {aP bP destP : Ptr} {a : V3 α} {b : V3 α} (h_a : Holds mem aP a.list) (h_b : Holds mem bP b.list) (r_dest : Room mem destP 4) (s_a_dest : Apart aP 3 destP 4) (s_b_dest : Apart bP 3 destP 4) :
    C.glm_quat_from_vecs.run mem [aP.val, bP.val, destP.val] =
      some (none, writes mem [(destP, (Cglm.glm_quat_from_vecs a b).list.map .f)]) := by
  exact transferL ((((R.nil _).addW r_dest.has r_dest .nil).addR h_b.has (.cons s_b_dest .nil)).addR h_a.has (.skip (.cons s_a_dest .nil))) (.p rfl (.p rfl (.p rfl .nil))) (glm_quat_from_vecs_run _ _) (DT.val_map_eq (glm_quat_from_vecs_dt_val _ _) rfl) rfl rfl
example (a : V3 α) (b : V3 α) : let mem : Mem α := [⟨false, a.list.map .f⟩, ⟨false, b.list.map .f⟩, ⟨true, List.replicate 4 .undef⟩]
    Holds mem (0, 0) a.list ∧ Holds mem (1, 0) b.list ∧ Room mem (2, 0) 4 ∧ Apart (0, 0) 3 (2, 0) 4 ∧ Apart (1, 0) 3 (2, 0) 4 :=
  ⟨.block rfl, .block rfl, .block rfl rfl, Or.inl (by decide), Or.inl (by decide)⟩

end Cglm

end C56Quat
