/- Generated by tools/memgen.py, joined by tools/merge.py; do not edit by hand. -/
import Verif.Props.C55Geoms
import Verif.Mem.GeomsRun

section C56Aabb2d

/-!
# C56: memory safety and framing (include/cglm/aabb2d.h)

Called with initialised inputs and a writable destination that does not overlap them, the function is defined,
returns the value-level result and changes no memory but its destination.
-/

set_option linter.unusedVariables false
set_option linter.unusedSectionVars false

namespace Cglm
open CMem

variable {α : Type} [Add α] [Sub α] [Mul α] [Div α] [Neg α] [CFloat α]

theorem C56_aabb2d_zero {mem : Mem α} {aabbP : Ptr} (r_aabb : Room mem aabbP 4) :
    C.glm_aabb2d_zero.run mem [aabbP.val] =
      some (none, writes mem [(aabbP, (Cglm.glm_aabb2d_zero).list.map .f)]) := by
  exact transferL ((R.nil _).addW r_aabb.has r_aabb .nil) (.p rfl .nil) (glm_aabb2d_zero_run) (DT.val_done _) rfl rfl
example : let mem : Mem α := [⟨true, List.replicate 4 .undef⟩]
    Room mem (0, 0) 4 :=
  .block rfl rfl

theorem C56_aabb2d_copy {mem : Mem α} {aabbP destP : Ptr} {aabb : M2 α} (h_aabb : Holds mem aabbP aabb.list) (r_dest : Room mem destP 4) (s_aabb_dest : Apart aabbP 4 destP 4) :
    C.glm_aabb2d_copy.run mem [aabbP.val, destP.val] =
      some (none, writes mem [(destP, (Cglm.glm_aabb2d_copy aabb).list.map .f)]) :=
  C55_aabb2d_copy h_aabb r_dest (Or.inr s_aabb_dest)
example (aabb : M2 α) : let mem : Mem α := [⟨false, aabb.list.map .f⟩, ⟨true, List.replicate 4 .undef⟩]
    Holds mem (0, 0) aabb.list ∧ Room mem (1, 0) 4 ∧ Apart (0, 0) 4 (1, 0) 4 :=
  ⟨.block rfl, .block rfl rfl, Or.inl (by decide)⟩

theorem C56_aabb2d_transform {mem : Mem α} {aabbP mP destP : Ptr} {aabb : M2 α} {m : M3 α} (h_aabb : Holds mem aabbP aabb.list) (h_m : Holds mem mP m.list) (r_dest : Room mem destP 4) (s_aabb_dest : Apart aabbP 4 destP 4) (s_m_dest : Apart mP 9 destP 4) :
    C.glm_aabb2d_transform.run mem [aabbP.val, mP.val, destP.val] =
      some (none, writes mem [(destP, (Cglm.glm_aabb2d_transform aabb m).list.map .f)]) :=
  C55_aabb2d_transform h_aabb h_m r_dest (Or.inr s_aabb_dest) s_m_dest
example (aabb : M2 α) (m : M3 α) : let mem : Mem α := [⟨false, aabb.list.map .f⟩, ⟨false, m.list.map .f⟩, ⟨true, List.replicate 4 .undef⟩]
    Holds mem (0, 0) aabb.list ∧ Holds mem (1, 0) m.list ∧ Room mem (2, 0) 4 ∧ Apart (0, 0) 4 (2, 0) 4 ∧ Apart (1, 0) 9 (2, 0) 4 :=
  ⟨.block rfl, .block rfl, .block rfl rfl, Or.inl (by decide), Or.inl (by decide)⟩

theorem C56_aabb2d_merge {mem : Mem α} {aabb1P aabb2P destP : Ptr} {aabb1 : M2 α} {aabb2 : M2 α} (h_aabb1 : Holds mem aabb1P aabb1.list) (h_aabb2 : Holds mem aabb2P aabb2.list) (r_dest : Room mem destP 4) (s_aabb1_dest : Apart aabb1P 4 destP 4) (s_aabb2_dest : Apart aabb2P 4 destP 4) :
    C.glm_aabb2d_merge.run mem [aabb1P.val, aabb2P.val, destP.val] =
      some (none, writes mem [(destP, (Cglm.glm_aabb2d_merge aabb1 aabb2).list.map .f)]) :=
  C55_aabb2d_merge h_aabb1 h_aabb2 r_dest (Or.inr s_aabb1_dest) (Or.inr s_aabb2_dest)
example (aabb1 : M2 α) (aabb2 : M2 α) : let mem : Mem α := [⟨false, aabb1.list.map .f⟩, ⟨false, aabb2.list.map .f⟩, ⟨true, List.replicate 4 .undef⟩]
    Holds mem (0, 0) aabb1.list ∧ Holds mem (1, 0) aabb2.list ∧ Room mem (2, 0) 4 ∧ Apart (0, 0) 4 (2, 0) 4 ∧ Apart (1, 0) 4 (2, 0) 4 :=
  ⟨.block rfl, .block rfl, .block rfl rfl, Or.inl (by decide), Or.inl (by decide)⟩

theorem C56_aabb2d_crop {mem : Mem α} {aabbP cropAabbP destP : Ptr} {aabb : M2 α} {cropAabb : M2 α} (h_aabb : Holds mem aabbP aabb.list) (h_cropAabb : Holds mem cropAabbP cropAabb.list) (r_dest : Room mem destP 4) (s_aabb_dest : Apart aabbP 4 destP 4) (s_cropAabb_dest : Apart cropAabbP 4 destP 4) :
    C.glm_aabb2d_crop.run mem [aabbP.val, cropAabbP.val, destP.val] =
      some (none, writes mem [(destP, (Cglm.glm_aabb2d_crop aabb cropAabb).list.map .f)]) :=
  C55_aabb2d_crop h_aabb h_cropAabb r_dest (Or.inr s_aabb_dest) (Or.inr s_cropAabb_dest)
example (aabb : M2 α) (cropAabb : M2 α) : let mem : Mem α := [⟨false, aabb.list.map .f⟩, ⟨false, cropAabb.list.map .f⟩, ⟨true, List.replicate 4 .undef⟩]
    Holds mem (0, 0) aabb.list ∧ Holds mem (1, 0) cropAabb.list ∧ Room mem (2, 0) 4 ∧ Apart (0, 0) 4 (2, 0) 4 ∧ Apart (1, 0) 4 (2, 0) 4 :=
  ⟨.block rfl, .block rfl, .block rfl rfl, Or.inl (by decide), Or.inl (by decide)⟩

theorem C56_aabb2d_crop_until {mem : Mem α} {aabbP cropAabbP clampAabbP destP : Ptr} {aabb : M2 α} {cropAabb : M2 α} {clampAabb : M2 α} (h_aabb : Holds mem aabbP aabb.list) (h_cropAabb : Holds mem cropAabbP cropAabb.list) (h_clampAabb : Holds mem clampAabbP clampAabb.list) (r_dest : Room mem destP 4) (s_aabb_dest : Apart aabbP 4 destP 4) (s_cropAabb_dest : Apart cropAabbP 4 destP 4) (s_clampAabb_dest : Apart clampAabbP 4 destP 4) :
    C.glm_aabb2d_crop_until.run mem [aabbP.val, cropAabbP.val, clampAabbP.val, destP.val] =
      some (none, writes mem [(destP, (Cglm.glm_aabb2d_crop_until aabb cropAabb clampAabb).list.map .f)]) :=
  C55_aabb2d_crop_until h_aabb h_cropAabb h_clampAabb r_dest (Or.inr s_aabb_dest) (Or.inr s_cropAabb_dest) s_clampAabb_dest
example (aabb : M2 α) (cropAabb : M2 α) (clampAabb : M2 α) : let mem : Mem α := [⟨false, aabb.list.map .f⟩, ⟨false, cropAabb.list.map .f⟩, ⟨false, clampAabb.list.map .f⟩, ⟨true, List.replicate 4 .undef⟩]
    Holds mem (0, 0) aabb.list ∧ Holds mem (1, 0) cropAabb.list ∧ Holds mem (2, 0) clampAabb.list ∧ Room mem (3, 0) 4 ∧ Apart (0, 0) 4 (3, 0) 4 ∧ Apart (1, 0) 4 (3, 0) 4 ∧ Apart (2, 0) 4 (3, 0) 4 :=
  ⟨.block rfl, .block rfl, .block rfl, .block rfl rfl, Or.inl (by decide), Or.inl (by decide), Or.inl (by decide)⟩

theorem C56_aabb2d_invalidate {mem : Mem α} {aabbP : Ptr} (r_aabb : Room mem aabbP 4) :
    C.glm_aabb2d_invalidate.run mem [aabbP.val] =
      some (none, writes mem [(aabbP, (Cglm.glm_aabb2d_invalidate).list.map .f)]) := by
  exact transferL ((R.nil _).addW r_aabb.has r_aabb .nil) (.p rfl .nil) (glm_aabb2d_invalidate_run) (DT.val_done _) rfl rfl
example : let mem : Mem α := [⟨true, List.replicate 4 .undef⟩]
    Room mem (0, 0) 4 :=
  .block rfl rfl

theorem C56_aabb2d_isvalid {mem : Mem α} {aabbP : Ptr} {aabb : M2 α} (h_aabb : Holds mem aabbP aabb.list) :
    C.glm_aabb2d_isvalid.run mem [aabbP.val] =
      some (some (.b (Cglm.glm_aabb2d_isvalid aabb)), mem) := by
  exact transferL ((R.nil _).addR h_aabb.has .nil) (.p rfl .nil) (glm_aabb2d_isvalid_run _) (DT.val_done _) rfl rfl
example (aabb : M2 α) : let mem : Mem α := [⟨false, aabb.list.map .f⟩]
    Holds mem (0, 0) aabb.list :=
  .block rfl

theorem C56_aabb2d_diag {mem : Mem α} {aabbP : Ptr} {aabb : M2 α} (h_aabb : Holds mem aabbP aabb.list) :
    C.glm_aabb2d_diag.run mem [aabbP.val] =
      some (some (.f (Cglm.glm_aabb2d_diag aabb)), mem) := by
  exact transferL ((R.nil _).addR h_aabb.has .nil) (.p rfl .nil) (glm_aabb2d_diag_run _) (DT.val_done _) rfl rfl
example (aabb : M2 α) : let mem : Mem α := [⟨false, aabb.list.map .f⟩]
    Holds mem (0, 0) aabb.list :=
  .block rfl

theorem C56_aabb2d_sizev {mem : Mem α} {aabbP destP : Ptr} {aabb : M2 α} (h_aabb : Holds mem aabbP aabb.list) (r_dest : Room mem destP 2) (s_aabb_dest : Apart aabbP 4 destP 2) :
    C.glm_aabb2d_sizev.run mem [aabbP.val, destP.val] =
      some (none, writes mem [(destP, (Cglm.glm_aabb2d_sizev aabb).list.map .f)]) := by
  exact transferL (((R.nil _).addW r_dest.has r_dest .nil).addR h_aabb.has (.cons s_aabb_dest .nil)) (.p rfl (.p rfl .nil)) (glm_aabb2d_sizev_run _) (DT.val_done _) rfl rfl
example (aabb : M2 α) : let mem : Mem α := [⟨false, aabb.list.map .f⟩, ⟨true, List.replicate 2 .undef⟩]
    Holds mem (0, 0) aabb.list ∧ Room mem (1, 0) 2 ∧ Apart (0, 0) 4 (1, 0) 2 :=
  ⟨.block rfl, .block rfl rfl, Or.inl (by decide)⟩

theorem C56_aabb2d_radius {mem : Mem α} {aabbP : Ptr} {aabb : M2 α} (h_aabb : Holds mem aabbP aabb.list) :
    C.glm_aabb2d_radius.run mem [aabbP.val] =
      some (some (.f (Cglm.glm_aabb2d_radius aabb)), mem) := by
  exact transferL ((R.nil _).addR h_aabb.has .nil) (.p rfl .nil) (glm_aabb2d_radius_run _) (DT.val_done _) rfl rfl
example (aabb : M2 α) : let mem : Mem α := [⟨false, aabb.list.map .f⟩]
    Holds mem (0, 0) aabb.list :=
  .block rfl

theorem C56_aabb2d_center {mem : Mem α} {aabbP destP : Ptr} {aabb : M2 α} (h_aabb : Holds mem aabbP aabb.list) (r_dest : Room mem destP 2) (s_aabb_dest : Apart aabbP 4 destP 2) :
    C.glm_aabb2d_center.run mem [aabbP.val, destP.val] =
      some (none, writes mem [(destP, (Cglm.glm_aabb2d_center aabb).list.map .f)]) := by
  exact transferL (((R.nil _).addW r_dest.has r_dest .nil).addR h_aabb.has (.cons s_aabb_dest .nil)) (.p rfl (.p rfl .nil)) (glm_aabb2d_center_run _) (DT.val_done _) rfl rfl
example (aabb : M2 α) : let mem : Mem α := [⟨false, aabb.list.map .f⟩, ⟨true, List.replicate 2 .undef⟩]
    Holds mem (0, 0) aabb.list ∧ Room mem (1, 0) 2 ∧ Apart (0, 0) 4 (1, 0) 2 :=
  ⟨.block rfl, .block rfl rfl, Or.inl (by decide)⟩

theorem C56_aabb2d_aabb {mem : Mem α} {aabbP otherP : Ptr} {aabb : M2 α} {other : M2 α} (h_aabb : Holds mem aabbP aabb.list) (h_other : Holds mem otherP other.list) :
    C.glm_aabb2d_aabb.run mem [aabbP.val, otherP.val] =
      some (some (.b (Cglm.glm_aabb2d_aabb aabb other)), mem) := by
  exact transferL (((R.nil _).addR h_other.has .nil).addR h_aabb.has (.skip .nil)) (.p rfl (.p rfl .nil)) (glm_aabb2d_aabb_run _ _) (DT.val_done _) rfl rfl
example (aabb : M2 α) (other : M2 α) : let mem : Mem α := [⟨false, aabb.list.map .f⟩, ⟨false, other.list.map .f⟩]
    Holds mem (0, 0) aabb.list ∧ Holds mem (1, 0) other.list :=
  ⟨.block rfl, .block rfl⟩

theorem C56_aabb2d_circle {mem : Mem α} {aabbP cP : Ptr} {aabb : M2 α} {c : V3 α} (h_aabb : Holds mem aabbP aabb.list) (h_c : Holds mem cP c.list) :
    C.glm_aabb2d_circle.run mem [aabbP.val, cP.val] =
      some (some (.b (Cglm.glm_aabb2d_circle aabb c)), mem) := by
  exact transferL (((R.nil _).addR h_c.has .nil).addR h_aabb.has (.skip .nil)) (.p rfl (.p rfl .nil)) (glm_aabb2d_circle_run _ _) (DT.val_done _) rfl rfl
example (aabb : M2 α) (c : V3 α) : let mem : Mem α := [⟨false, aabb.list.map .f⟩, ⟨false, c.list.map .f⟩]
    Holds mem (0, 0) aabb.list ∧ Holds mem (1, 0) c.list :=
  ⟨.block rfl, .block rfl⟩

theorem C56_aabb2d_point {mem : Mem α} {aabbP pointP : Ptr} {aabb : M2 α} {point : V2 α} (h_aabb : Holds mem aabbP aabb.list) (h_point : Holds mem pointP point.list) :
    C.glm_aabb2d_point.run mem [aabbP.val, pointP.val] =
      some (some (.b (Cglm.glm_aabb2d_point aabb point)), mem) := by
  exact transferL (((R.nil _).addR h_point.has .nil).addR h_aabb.has (.skip .nil)) (.p rfl (.p rfl .nil)) (glm_aabb2d_point_run _ _) (DT.val_done _) rfl rfl
example (aabb : M2 α) (point : V2 α) : let mem : Mem α := [⟨false, aabb.list.map .f⟩, ⟨false, point.list.map .f⟩]
    Holds mem (0, 0) aabb.list ∧ Holds mem (1, 0) point.list :=
  ⟨.block rfl, .block rfl⟩

theorem C56_aabb2d_contains {mem : Mem α} {aabbP otherP : Ptr} {aabb : M2 α} {other : M2 α} (h_aabb : Holds mem aabbP aabb.list) (h_other : Holds mem otherP other.list) :
    C.glm_aabb2d_contains.run mem [aabbP.val, otherP.val] =
      some (some (.b (Cglm.glm_aabb2d_contains aabb other)), mem) := by
  exact transferL (((R.nil _).addR h_other.has .nil).addR h_aabb.has (.skip .nil)) (.p rfl (.p rfl .nil)) (glm_aabb2d_contains_run _ _) (DT.val_done _) rfl rfl
example (aabb : M2 α) (other : M2 α) : let mem : Mem α := [⟨false, aabb.list.map .f⟩, ⟨false, other.list.map .f⟩]
    Holds mem (0, 0) aabb.list ∧ Holds mem (1, 0) other.list :=
  ⟨.block rfl, .block rfl⟩

end Cglm

end C56Aabb2d

section C56Bezier

/-!
# C56: memory safety and framing (include/cglm/bezier.h)

Called with initialised inputs and a writable destination that does not overlap them, the function is defined,
returns the value-level result and changes no memory but its destination.
-/

set_option linter.unusedVariables false
set_option linter.unusedSectionVars false

namespace Cglm
open CMem

variable {α : Type} [Add α] [Sub α] [Mul α] [Div α] [Neg α] [CFloat α]

theorem C56_bezier (mem : Mem α) (s : α) (p0 : α) (c0 : α) (c1 : α) (p1 : α) :
    C.glm_bezier.run mem [.f s, .f p0, .f c0, .f c1, .f p1] =
      some (some (.f (Cglm.glm_bezier s p0 c0 c1 p1)), mem) := by
  exact transferL (R.nil _) (.f (.f (.f (.f (.f .nil))))) (glm_bezier_run _ _ _ _ _) (DT.val_done _) rfl rfl

theorem C56_hermite (mem : Mem α) (s : α) (p0 : α) (t0 : α) (t1 : α) (p1 : α) :
    C.glm_hermite.run mem [.f s, .f p0, .f t0, .f t1, .f p1] =
      some (some (.f (Cglm.glm_hermite s p0 t0 t1 p1)), mem) := by
  exact transferL (R.nil _) (.f (.f (.f (.f (.f .nil))))) (glm_hermite_run _ _ _ _ _) (DT.val_done _) rfl rfl

end Cglm

end C56Bezier

section C56Box

/-!
# C56: memory safety and framing (include/cglm/box.h)

Called with initialised inputs and a writable destination that does not overlap them, the function is defined,
returns the value-level result and changes no memory but its destination.
-/

set_option linter.unusedVariables false
set_option linter.unusedSectionVars false

namespace Cglm
open CMem

variable {α : Type} [Add α] [Sub α] [Mul α] [Div α] [Neg α] [CFloat α]

theorem C56_aabb_transform {mem : Mem α} {boxP mP destP : Ptr} {box : M2x3 α} {m : M4 α} (h_box : Holds mem boxP box.list) (h_m : Holds mem mP m.list) (r_dest : Room mem destP 6) (s_box_dest : Apart boxP 6 destP 6) (s_m_dest : Apart mP 16 destP 6) :
    C.glm_aabb_transform.run mem [boxP.val, mP.val, destP.val] =
      some (none, writes mem [(destP, (Cglm.glm_aabb_transform box m).list.map .f)]) :=
  C55_aabb_transform h_box h_m r_dest (Or.inr s_box_dest) s_m_dest
example (box : M2x3 α) (m : M4 α) : let mem : Mem α := [⟨false, box.list.map .f⟩, ⟨false, m.list.map .f⟩, ⟨true, List.replicate 6 .undef⟩]
    Holds mem (0, 0) box.list ∧ Holds mem (1, 0) m.list ∧ Room mem (2, 0) 6 ∧ Apart (0, 0) 6 (2, 0) 6 ∧ Apart (1, 0) 16 (2, 0) 6 :=
  ⟨.block rfl, .block rfl, .block rfl rfl, Or.inl (by decide), Or.inl (by decide)⟩

theorem C56_aabb_merge {mem : Mem α} {box1P box2P destP : Ptr} {box1 : M2x3 α} {box2 : M2x3 α} (h_box1 : Holds mem box1P box1.list) (h_box2 : Holds mem box2P box2.list) (r_dest : Room mem destP 6) (s_box1_dest : Apart box1P 6 destP 6) (s_box2_dest : Apart box2P 6 destP 6) :
    C.glm_aabb_merge.run mem [box1P.val, box2P.val, destP.val] =
      some (none, writes mem [(destP, (Cglm.glm_aabb_merge box1 box2).list.map .f)]) :=
  C55_aabb_merge h_box1 h_box2 r_dest (Or.inr s_box1_dest) (Or.inr s_box2_dest)
example (box1 : M2x3 α) (box2 : M2x3 α) : let mem : Mem α := [⟨false, box1.list.map .f⟩, ⟨false, box2.list.map .f⟩, ⟨true, List.replicate 6 .undef⟩]
    Holds mem (0, 0) box1.list ∧ Holds mem (1, 0) box2.list ∧ Room mem (2, 0) 6 ∧ Apart (0, 0) 6 (2, 0) 6 ∧ Apart (1, 0) 6 (2, 0) 6 :=
  ⟨.block rfl, .block rfl, .block rfl rfl, Or.inl (by decide), Or.inl (by decide)⟩

theorem C56_aabb_crop {mem : Mem α} {boxP cropBoxP destP : Ptr} {box : M2x3 α} {cropBox : M2x3 α} (h_box : Holds mem boxP box.list) (h_cropBox : Holds mem cropBoxP cropBox.list) (r_dest : Room mem destP 6) (s_box_dest : Apart boxP 6 destP 6) (s_cropBox_dest : Apart cropBoxP 6 destP 6) :
    C.glm_aabb_crop.run mem [boxP.val, cropBoxP.val, destP.val] =
      some (none, writes mem [(destP, (Cglm.glm_aabb_crop box cropBox).list.map .f)]) :=
  C55_aabb_crop h_box h_cropBox r_dest (Or.inr s_box_dest) (Or.inr s_cropBox_dest)
example (box : M2x3 α) (cropBox : M2x3 α) : let mem : Mem α := [⟨false, box.list.map .f⟩, ⟨false, cropBox.list.map .f⟩, ⟨true, List.replicate 6 .undef⟩]
    Holds mem (0, 0) box.list ∧ Holds mem (1, 0) cropBox.list ∧ Room mem (2, 0) 6 ∧ Apart (0, 0) 6 (2, 0) 6 ∧ Apart (1, 0) 6 (2, 0) 6 :=
  ⟨.block rfl, .block rfl, .block rfl rfl, Or.inl (by decide), Or.inl (by decide)⟩

theorem C56_aabb_crop_until {mem : Mem α} {boxP cropBoxP clampBoxP destP : Ptr} {box : M2x3 α} {cropBox : M2x3 α} {clampBox : M2x3 α} (h_box : Holds mem boxP box.list) (h_cropBox : Holds mem cropBoxP cropBox.list) (h_clampBox : Holds mem clampBoxP clampBox.list) (r_dest : Room mem destP 6) (s_box_dest : Apart boxP 6 destP 6) (s_cropBox_dest : Apart cropBoxP 6 destP 6) (s_clampBox_dest : Apart clampBoxP 6 destP 6) :
    C.glm_aabb_crop_until.run mem [boxP.val, cropBoxP.val, clampBoxP.val, destP.val] =
      some (none, writes mem [(destP, (Cglm.glm_aabb_crop_until box cropBox clampBox).list.map .f)]) :=
  C55_aabb_crop_until h_box h_cropBox h_clampBox r_dest (Or.inr s_box_dest) (Or.inr s_cropBox_dest) s_clampBox_dest
example (box : M2x3 α) (cropBox : M2x3 α) (clampBox : M2x3 α) : let mem : Mem α := [⟨false, box.list.map .f⟩, ⟨false, cropBox.list.map .f⟩, ⟨false, clampBox.list.map .f⟩, ⟨true, List.replicate 6 .undef⟩]
    Holds mem (0, 0) box.list ∧ Holds mem (1, 0) cropBox.list ∧ Holds mem (2, 0) clampBox.list ∧ Room mem (3, 0) 6 ∧ Apart (0, 0) 6 (3, 0) 6 ∧ Apart (1, 0) 6 (3, 0) 6 ∧ Apart (2, 0) 6 (3, 0) 6 :=
  ⟨.block rfl, .block rfl, .block rfl, .block rfl rfl, Or.inl (by decide), Or.inl (by decide), Or.inl (by decide)⟩

theorem C56_aabb_frustum {mem : Mem α} {boxP planesP : Ptr} {box : M2x3 α} {planes : M6x4 α} (h_box : Holds mem boxP box.list) (h_planes : Holds mem planesP planes.list) :
    C.glm_aabb_frustum.run mem [boxP.val, planesP.val] =
      some (some (.b (Cglm.glm_aabb_frustum box planes)), mem) := by
  exact transferL (((R.nil _).addR h_planes.has .nil).addR h_box.has (.skip .nil)) (.p rfl (.p rfl .nil)) (glm_aabb_frustum_run _ _) (DT.val_map_eq (glm_aabb_frustum_dt_val _ _) rfl) rfl rfl
example (box : M2x3 α) (planes : M6x4 α) : let mem : Mem α := [⟨false, box.list.map .f⟩, ⟨false, planes.list.map .f⟩]
    Holds mem (0, 0) box.list ∧ Holds mem (1, 0) planes.list :=
  ⟨.block rfl, .block rfl⟩

theorem C56_aabb_invalidate {mem : Mem α} {boxP : Ptr} (r_box : Room mem boxP 6) :
    C.glm_aabb_invalidate.run mem [boxP.val] =
      some (none, writes mem [(boxP, (Cglm.glm_aabb_invalidate).list.map .f)]) := by
  exact transferL ((R.nil _).addW r_box.has r_box .nil) (.p rfl .nil) (glm_aabb_invalidate_run) (DT.val_done _) rfl rfl
example : let mem : Mem α := [⟨true, List.replicate 6 .undef⟩]
    Room mem (0, 0) 6 :=
  .block rfl rfl

theorem C56_aabb_isvalid {mem : Mem α} {boxP : Ptr} {box : M2x3 α} (h_box : Holds mem boxP box.list) :
    C.glm_aabb_isvalid.run mem [boxP.val] =
      some (some (.b (Cglm.glm_aabb_isvalid box)), mem) := by
  exact transferL ((R.nil _).addR h_box.has .nil) (.p rfl .nil) (glm_aabb_isvalid_run _) (DT.val_done _) rfl rfl
example (box : M2x3 α) : let mem : Mem α := [⟨false, box.list.map .f⟩]
    Holds mem (0, 0) box.list :=
  .block rfl

theorem C56_aabb_size {mem : Mem α} {boxP : Ptr} {box : M2x3 α} (h_box : Holds mem boxP box.list) :
    C.glm_aabb_size.run mem [boxP.val] =
      some (some (.f (Cglm.glm_aabb_size box)), mem) := by
  exact transferL ((R.nil _).addR h_box.has .nil) (.p rfl .nil) (glm_aabb_size_run _) (DT.val_done _) rfl rfl
example (box : M2x3 α) : let mem : Mem α := [⟨false, box.list.map .f⟩]
    Holds mem (0, 0) box.list :=
  .block rfl

theorem C56_aabb_radius {mem : Mem α} {boxP : Ptr} {box : M2x3 α} (h_box : Holds mem boxP box.list) :
    C.glm_aabb_radius.run mem [boxP.val] =
      some (some (.f (Cglm.glm_aabb_radius box)), mem) := by
  exact transferL ((R.nil _).addR h_box.has .nil) (.p rfl .nil) (glm_aabb_radius_run _) (DT.val_done _) rfl rfl
example (box : M2x3 α) : let mem : Mem α := [⟨false, box.list.map .f⟩]
    Holds mem (0, 0) box.list :=
  .block rfl

theorem C56_aabb_center {mem : Mem α} {boxP destP : Ptr} {box : M2x3 α} (h_box : Holds mem boxP box.list) (r_dest : Room mem destP 3) (s_box_dest : Apart boxP 6 destP 3) :
    C.glm_aabb_center.run mem [boxP.val, destP.val] =
      some (none, writes mem [(destP, (Cglm.glm_aabb_center box).list.map .f)]) := by
  exact transferL (((R.nil _).addW r_dest.has r_dest .nil).addR h_box.has (.cons s_box_dest .nil)) (.p rfl (.p rfl .nil)) (glm_aabb_center_run _) (DT.val_done _) rfl rfl
example (box : M2x3 α) : let mem : Mem α := [⟨false, box.list.map .f⟩, ⟨true, List.replicate 3 .undef⟩]
    Holds mem (0, 0) box.list ∧ Room mem (1, 0) 3 ∧ Apart (0, 0) 6 (1, 0) 3 :=
  ⟨.block rfl, .block rfl rfl, Or.inl (by decide)⟩

theorem C56_aabb_aabb {mem : Mem α} {boxP otherP : Ptr} {box : M2x3 α} {other : M2x3 α} (h_box : Holds mem boxP box.list) (h_other : Holds mem otherP other.list) :
    C.glm_aabb_aabb.run mem [boxP.val, otherP.val] =
      some (some (.b (Cglm.glm_aabb_aabb box other)), mem) := by
  exact transferL (((R.nil _).addR h_other.has .nil).addR h_box.has (.skip .nil)) (.p rfl (.p rfl .nil)) (glm_aabb_aabb_run _ _) (DT.val_done _) rfl rfl
example (box : M2x3 α) (other : M2x3 α) : let mem : Mem α := [⟨false, box.list.map .f⟩, ⟨false, other.list.map .f⟩]
    Holds mem (0, 0) box.list ∧ Holds mem (1, 0) other.list :=
  ⟨.block rfl, .block rfl⟩

theorem C56_aabb_sphere {mem : Mem α} {boxP sP : Ptr} {box : M2x3 α} {s : V4 α} (h_box : Holds mem boxP box.list) (h_s : Holds mem sP s.list) :
    C.glm_aabb_sphere.run mem [boxP.val, sP.val] =
      some (some (.b (Cglm.glm_aabb_sphere box s)), mem) := by
  exact transferL (((R.nil _).addR h_s.has .nil).addR h_box.has (.skip .nil)) (.p rfl (.p rfl .nil)) (glm_aabb_sphere_run _ _) (DT.val_done _) rfl rfl
example (box : M2x3 α) (s : V4 α) : let mem : Mem α := [⟨false, box.list.map .f⟩, ⟨false, s.list.map .f⟩]
    Holds mem (0, 0) box.list ∧ Holds mem (1, 0) s.list :=
  ⟨.block rfl, .block rfl⟩

theorem C56_aabb_point {mem : Mem α} {boxP pointP : Ptr} {box : M2x3 α} {point : V3 α} (h_box : Holds mem boxP box.list) (h_point : Holds mem pointP point.list) :
    C.glm_aabb_point.run mem [boxP.val, pointP.val] =
      some (some (.b (Cglm.glm_aabb_point box point)), mem) := by
  exact transferL (((R.nil _).addR h_point.has .nil).addR h_box.has (.skip .nil)) (.p rfl (.p rfl .nil)) (glm_aabb_point_run _ _) (DT.val_done _) rfl rfl
example (box : M2x3 α) (point : V3 α) : let mem : Mem α := [⟨false, box.list.map .f⟩, ⟨false, point.list.map .f⟩]
    Holds mem (0, 0) box.list ∧ Holds mem (1, 0) point.list :=
  ⟨.block rfl, .block rfl⟩

theorem C56_aabb_contains {mem : Mem α} {boxP otherP : Ptr} {box : M2x3 α} {other : M2x3 α} (h_box : Holds mem boxP box.list) (h_other : Holds mem otherP other.list) :
    C.glm_aabb_contains.run mem [boxP.val, otherP.val] =
      some (some (.b (Cglm.glm_aabb_contains box other)), mem) := by
  exact transferL (((R.nil _).addR h_other.has .nil).addR h_box.has (.skip .nil)) (.p rfl (.p rfl .nil)) (glm_aabb_contains_run _ _) (DT.val_done _) rfl rfl
example (box : M2x3 α) (other : M2x3 α) : let mem : Mem α := [⟨false, box.list.map .f⟩, ⟨false, other.list.map .f⟩]
    Holds mem (0, 0) box.list ∧ Holds mem (1, 0) other.list :=
  ⟨.block rfl, .block rfl⟩

end Cglm

end C56Box

section C56Color

/-!
# C56: memory safety and framing (include/cglm/color.h)

Called with initialised inputs and a writable destination that does not overlap them, the function is defined,
returns the value-level result and changes no memory but its destination.
-/

set_option linter.unusedVariables false
set_option linter.unusedSectionVars false

namespace Cglm
open CMem

variable {α : Type} [Add α] [Sub α] [Mul α] [Div α] [Neg α] [CFloat α]

theorem C56_luminance {mem : Mem α} {rgbP : Ptr} {rgb : V3 α} (h_rgb : Holds mem rgbP rgb.list) :
    C.glm_luminance.run mem [rgbP.val] =
      some (some (.f (Cglm.glm_luminance rgb)), mem) := by
  exact transferL ((R.nil _).addR h_rgb.has .nil) (.p rfl .nil) (glm_luminance_run _) (DT.val_done _) rfl rfl
example (rgb : V3 α) : let mem : Mem α := [⟨false, rgb.list.map .f⟩]
    Holds mem (0, 0) rgb.list :=
  .block rfl

end Cglm

end C56Color

section C56Curve

/-!
# C56: memory safety and framing (include/cglm/curve.h)

Called with initialised inputs and a writable destination that does not overlap them, the function is defined,
returns the value-level result and changes no memory but its destination.
-/

set_option linter.unusedVariables false
set_option linter.unusedSectionVars false

namespace Cglm
open CMem

variable {α : Type} [Add α] [Sub α] [Mul α] [Div α] [Neg α] [CFloat α]

theorem C56_smc {mem : Mem α} {mP cP : Ptr} (s : α) {m : M4 α} {c : V4 α} (h_m : Holds mem mP m.list) (h_c : Holds mem cP c.list) :
    C.glm_smc.run mem [.f s, mP.val, cP.val] =
      some (some (.f (Cglm.glm_smc s m c)), mem) := by
  exact transferL (((R.nil _).addR h_c.has .nil).addR h_m.has (.skip .nil)) (.f (.p rfl (.p rfl .nil))) (glm_smc_run _ _ _) (DT.val_done _) rfl rfl
example (m : M4 α) (c : V4 α) : let mem : Mem α := [⟨false, m.list.map .f⟩, ⟨false, c.list.map .f⟩]
    Holds mem (0, 0) m.list ∧ Holds mem (1, 0) c.list :=
  ⟨.block rfl, .block rfl⟩

end Cglm

end C56Curve

section C56Ease

/-!
# C56: memory safety and framing (include/cglm/ease.h)

Called with initialised inputs and a writable destination that does not overlap them, the function is defined,
returns the value-level result and changes no memory but its destination.
-/

set_option linter.unusedVariables false
set_option linter.unusedSectionVars false

namespace Cglm
open CMem

variable {α : Type} [Add α] [Sub α] [Mul α] [Div α] [Neg α] [CFloat α]

theorem C56_ease_linear (mem : Mem α) (t : α) :
    C.glm_ease_linear.run mem [.f t] =
      some (some (.f (Cglm.glm_ease_linear t)), mem) := by
  exact transferL (R.nil _) (.f .nil) (glm_ease_linear_run _) (DT.val_done _) rfl rfl

theorem C56_ease_sine_in (mem : Mem α) (t : α) :
    C.glm_ease_sine_in.run mem [.f t] =
      some (some (.f (Cglm.glm_ease_sine_in t)), mem) := by
  exact transferL (R.nil _) (.f .nil) (glm_ease_sine_in_run _) (DT.val_done _) rfl rfl

theorem C56_ease_sine_out (mem : Mem α) (t : α) :
    C.glm_ease_sine_out.run mem [.f t] =
      some (some (.f (Cglm.glm_ease_sine_out t)), mem) := by
  exact transferL (R.nil _) (.f .nil) (glm_ease_sine_out_run _) (DT.val_done _) rfl rfl

theorem C56_ease_sine_inout (mem : Mem α) (t : α) :
    C.glm_ease_sine_inout.run mem [.f t] =
      some (some (.f (Cglm.glm_ease_sine_inout t)), mem) := by
  exact transferL (R.nil _) (.f .nil) (glm_ease_sine_inout_run _) (DT.val_done _) rfl rfl

theorem C56_ease_quad_in (mem : Mem α) (t : α) :
    C.glm_ease_quad_in.run mem [.f t] =
      some (some (.f (Cglm.glm_ease_quad_in t)), mem) := by
  exact transferL (R.nil _) (.f .nil) (glm_ease_quad_in_run _) (DT.val_done _) rfl rfl

theorem C56_ease_quad_out (mem : Mem α) (t : α) :
    C.glm_ease_quad_out.run mem [.f t] =
      some (some (.f (Cglm.glm_ease_quad_out t)), mem) := by
  exact transferL (R.nil _) (.f .nil) (glm_ease_quad_out_run _) (DT.val_done _) rfl rfl

theorem C56_ease_quad_inout (mem : Mem α) (t : α) :
    C.glm_ease_quad_inout.run mem [.f t] =
      some (some (.f (Cglm.glm_ease_quad_inout t)), mem) := by
  exact transferL (R.nil _) (.f .nil) (glm_ease_quad_inout_run _) (DT.val_map_eq (glm_ease_quad_inout_dt_val _) rfl) rfl rfl

theorem C56_ease_cubic_in (mem : Mem α) (t : α) :
    C.glm_ease_cubic_in.run mem [.f t] =
      some (some (.f (Cglm.glm_ease_cubic_in t)), mem) := by
  exact transferL (R.nil _) (.f .nil) (glm_ease_cubic_in_run _) (DT.val_done _) rfl rfl

theorem C56_ease_cubic_out (mem : Mem α) (t : α) :
    C.glm_ease_cubic_out.run mem [.f t] =
      some (some (.f (Cglm.glm_ease_cubic_out t)), mem) := by
  exact transferL (R.nil _) (.f .nil) (glm_ease_cubic_out_run _) (DT.val_done _) rfl rfl

theorem C56_ease_cubic_inout (mem : Mem α) (t : α) :
    C.glm_ease_cubic_inout.run mem [.f t] =
      some (some (.f (Cglm.glm_ease_cubic_inout t)), mem) := by
  exact transferL (R.nil _) (.f .nil) (glm_ease_cubic_inout_run _) (DT.val_map_eq (glm_ease_cubic_inout_dt_val _) rfl) rfl rfl

theorem C56_ease_quart_in (mem : Mem α) (t : α) :
    C.glm_ease_quart_in.run mem [.f t] =
      some (some (.f (Cglm.glm_ease_quart_in t)), mem) := by
  exact transferL (R.nil _) (.f .nil) (glm_ease_quart_in_run _) (DT.val_done _) rfl rfl

theorem C56_ease_quart_out (mem : Mem α) (t : α) :
    C.glm_ease_quart_out.run mem [.f t] =
      some (some (.f (Cglm.glm_ease_quart_out t)), mem) := by
  exact transferL (R.nil _) (.f .nil) (glm_ease_quart_out_run _) (DT.val_done _) rfl rfl

theorem C56_ease_quart_inout (mem : Mem α) (t : α) :
    C.glm_ease_quart_inout.run mem [.f t] =
      some (some (.f (Cglm.glm_ease_quart_inout t)), mem) := by
  exact transferL (R.nil _) (.f .nil) (glm_ease_quart_inout_run _) (DT.val_map_eq (glm_ease_quart_inout_dt_val _) rfl) rfl rfl

theorem C56_ease_quint_in (mem : Mem α) (t : α) :
    C.glm_ease_quint_in.run mem [.f t] =
      some (some (.f (Cglm.glm_ease_quint_in t)), mem) := by
  exact transferL (R.nil _) (.f .nil) (glm_ease_quint_in_run _) (DT.val_done _) rfl rfl

theorem C56_ease_quint_out (mem : Mem α) (t : α) :
    C.glm_ease_quint_out.run mem [.f t] =
      some (some (.f (Cglm.glm_ease_quint_out t)), mem) := by
  exact transferL (R.nil _) (.f .nil) (glm_ease_quint_out_run _) (DT.val_done _) rfl rfl

theorem C56_ease_quint_inout (mem : Mem α) (t : α) :
    C.glm_ease_quint_inout.run mem [.f t] =
      some (some (.f (Cglm.glm_ease_quint_inout t)), mem) := by
  exact transferL (R.nil _) (.f .nil) (glm_ease_quint_inout_run _) (DT.val_map_eq (glm_ease_quint_inout_dt_val _) rfl) rfl rfl

theorem C56_ease_exp_in (mem : Mem α) (t : α) :
    C.glm_ease_exp_in.run mem [.f t] =
      some (some (.f (Cglm.glm_ease_exp_in t)), mem) := by
  exact transferL (R.nil _) (.f .nil) (glm_ease_exp_in_run _) (DT.val_map_eq (glm_ease_exp_in_dt_val _) rfl) rfl rfl

theorem C56_ease_exp_out (mem : Mem α) (t : α) :
    C.glm_ease_exp_out.run mem [.f t] =
      some (some (.f (Cglm.glm_ease_exp_out t)), mem) := by
  exact transferL (R.nil _) (.f .nil) (glm_ease_exp_out_run _) (DT.val_map_eq (glm_ease_exp_out_dt_val _) rfl) rfl rfl

theorem C56_ease_exp_inout (mem : Mem α) (t : α) :
    C.glm_ease_exp_inout.run mem [.f t] =
      some (some (.f (Cglm.glm_ease_exp_inout t)), mem) := by
  exact transferL (R.nil _) (.f .nil) (glm_ease_exp_inout_run _) (DT.val_map_eq (glm_ease_exp_inout_dt_val _) rfl) rfl rfl

theorem C56_ease_circ_in (mem : Mem α) (t : α) :
    C.glm_ease_circ_in.run mem [.f t] =
      some (some (.f (Cglm.glm_ease_circ_in t)), mem) := by
  exact transferL (R.nil _) (.f .nil) (glm_ease_circ_in_run _) (DT.val_done _) rfl rfl

theorem C56_ease_circ_out (mem : Mem α) (t : α) :
    C.glm_ease_circ_out.run mem [.f t] =
      some (some (.f (Cglm.glm_ease_circ_out t)), mem) := by
  exact transferL (R.nil _) (.f .nil) (glm_ease_circ_out_run _) (DT.val_done _) rfl rfl

theorem C56_ease_circ_inout (mem : Mem α) (t : α) :
    C.glm_ease_circ_inout.run mem [.f t] =
      some (some (.f (Cglm.glm_ease_circ_inout t)), mem) := by
  exact transferL (R.nil _) (.f .nil) (glm_ease_circ_inout_run _) (DT.val_map_eq (glm_ease_circ_inout_dt_val _) rfl) rfl rfl

theorem C56_ease_back_in (mem : Mem α) (t : α) :
    C.glm_ease_back_in.run mem [.f t] =
      some (some (.f (Cglm.glm_ease_back_in t)), mem) := by
  exact transferL (R.nil _) (.f .nil) (glm_ease_back_in_run _) (DT.val_done _) rfl rfl

theorem C56_ease_back_out (mem : Mem α) (t : α) :
    C.glm_ease_back_out.run mem [.f t] =
      some (some (.f (Cglm.glm_ease_back_out t)), mem) := by
  exact transferL (R.nil _) (.f .nil) (glm_ease_back_out_run _) (DT.val_done _) rfl rfl

theorem C56_ease_back_inout (mem : Mem α) (t : α) :
    C.glm_ease_back_inout.run mem [.f t] =
      some (some (.f (Cglm.glm_ease_back_inout t)), mem) := by
  exact transferL (R.nil _) (.f .nil) (glm_ease_back_inout_run _) (DT.val_map_eq (glm_ease_back_inout_dt_val _) rfl) rfl rfl

theorem C56_ease_elast_in (mem : Mem α) (t : α) :
    C.glm_ease_elast_in.run mem [.f t] =
      some (some (.f (Cglm.glm_ease_elast_in t)), mem) := by
  exact transferL (R.nil _) (.f .nil) (glm_ease_elast_in_run _) (DT.val_done _) rfl rfl

theorem C56_ease_elast_out (mem : Mem α) (t : α) :
    C.glm_ease_elast_out.run mem [.f t] =
      some (some (.f (Cglm.glm_ease_elast_out t)), mem) := by
  exact transferL (R.nil _) (.f .nil) (glm_ease_elast_out_run _) (DT.val_done _) rfl rfl

theorem C56_ease_elast_inout (mem : Mem α) (t : α) :
    C.glm_ease_elast_inout.run mem [.f t] =
      some (some (.f (Cglm.glm_ease_elast_inout t)), mem) := by
  exact transferL (R.nil _) (.f .nil) (glm_ease_elast_inout_run _) (DT.val_map_eq (glm_ease_elast_inout_dt_val _) rfl) rfl rfl

theorem C56_ease_bounce_out (mem : Mem α) (t : α) :
    C.glm_ease_bounce_out.run mem [.f t] =
      some (some (.f (Cglm.glm_ease_bounce_out t)), mem) := by
  exact transferL (R.nil _) (.f .nil) (glm_ease_bounce_out_run _) (DT.val_map_eq (glm_ease_bounce_out_dt_val _) rfl) rfl rfl

theorem C56_ease_bounce_in (mem : Mem α) (t : α) :
    C.glm_ease_bounce_in.run mem [.f t] =
      some (some (.f (Cglm.glm_ease_bounce_in t)), mem) := by
  exact transferL (R.nil _) (.f .nil) (glm_ease_bounce_in_run _) (DT.val_done _) rfl rfl

theorem C56_ease_bounce_inout (mem : Mem α) (t : α) :
    C.glm_ease_bounce_inout.run mem [.f t] =
      some (some (.f (Cglm.glm_ease_bounce_inout t)), mem) := by
  exact transferL (R.nil _) (.f .nil) (glm_ease_bounce_inout_run _) (DT.val_map_eq (glm_ease_bounce_inout_dt_val _) rfl) rfl rfl

end Cglm

end C56Ease

section C56Frustum

/-!
# C56: memory safety and framing (include/cglm/frustum.h)

Called with initialised inputs and a writable destination that does not overlap them, the function is defined,
returns the value-level result and changes no memory but its destination.
-/

set_option linter.unusedVariables false
set_option linter.unusedSectionVars false

namespace Cglm
open CMem

variable {α : Type} [Add α] [Sub α] [Mul α] [Div α] [Neg α] [CFloat α]

theorem C56_frustum_planes {mem : Mem α} {mP destP : Ptr} {m : M4 α} (h_m : Holds mem mP m.list) (r_dest : Room mem destP 24) (s_m_dest : Apart mP 16 destP 24) :
    C.glm_frustum_planes.run mem [mP.val, destP.val] =
      some (none, writes mem [(destP, (Cglm.glm_frustum_planes m).list.map .f)]) := by
  exact transferL (((R.nil _).addW r_dest.has r_dest .nil).addR h_m.has (.cons s_m_dest .nil)) (.p rfl (.p rfl .nil)) (glm_frustum_planes_run _) (DT.val_map_eq (glm_frustum_planes_dt_val _) rfl) rfl rfl
example (m : M4 α) : let mem : Mem α := [⟨false, m.list.map .f⟩, ⟨true, List.replicate 24 .undef⟩]
    Holds mem (0, 0) m.list ∧ Room mem (1, 0) 24 ∧ Apart (0, 0) 16 (1, 0) 24 :=
  ⟨.block rfl, .block rfl rfl, Or.inl (by decide)⟩

theorem C56_frustum_corners {mem : Mem α} {invMatP destP : Ptr} {invMat : M4 α} (h_invMat : Holds mem invMatP invMat.list) (r_dest : Room mem destP 32) (s_invMat_dest : Apart invMatP 16 destP 32) :
    C.glm_frustum_corners.run mem [invMatP.val, destP.val] =
      some (none, writes mem [(destP, (Cglm.glm_frustum_corners invMat).list.map .f)]) := by
  exact transferL (((R.nil _).addW r_dest.has r_dest .nil).addR h_invMat.has (.cons s_invMat_dest .nil)) (.p rfl (.p rfl .nil)) (glm_frustum_corners_run _) (DT.val_done _) rfl rfl
example (invMat : M4 α) : let mem : Mem α := [⟨false, invMat.list.map .f⟩, ⟨true, List.replicate 32 .undef⟩]
    Holds mem (0, 0) invMat.list ∧ Room mem (1, 0) 32 ∧ Apart (0, 0) 16 (1, 0) 32 :=
  ⟨.block rfl, .block rfl rfl, Or.inl (by decide)⟩

theorem C56_frustum_center {mem : Mem α} {cornersP destP : Ptr} {corners : M8x4 α} (h_corners : Holds mem cornersP corners.list) (r_dest : Room mem destP 4) (s_corners_dest : Apart cornersP 32 destP 4) :
    C.glm_frustum_center.run mem [cornersP.val, destP.val] =
      some (none, writes mem [(destP, (Cglm.glm_frustum_center corners).list.map .f)]) := by
  exact transferL (((R.nil _).addW r_dest.has r_dest .nil).addR h_corners.has (.cons s_corners_dest .nil)) (.p rfl (.p rfl .nil)) (glm_frustum_center_run _) (DT.val_done _) rfl rfl
example (corners : M8x4 α) : let mem : Mem α := [⟨false, corners.list.map .f⟩, ⟨true, List.replicate 4 .undef⟩]
    Holds mem (0, 0) corners.list ∧ Room mem (1, 0) 4 ∧ Apart (0, 0) 32 (1, 0) 4 :=
  ⟨.block rfl, .block rfl rfl, Or.inl (by decide)⟩

theorem C56_frustum_box {mem : Mem α} {cornersP mP boxP : Ptr} {corners : M8x4 α} {m : M4 α} (h_corners : Holds mem cornersP corners.list) (h_m : Holds mem mP m.list) (r_box : Room mem boxP 6) (s_corners_box : Apart cornersP 32 boxP 6) (s_m_box : Apart mP 16 boxP 6) :
    C.glm_frustum_box.run mem [cornersP.val, mP.val, boxP.val] =
      some (none, writes mem [(boxP, (Cglm.glm_frustum_box corners m).list.map .f)]) := by
  exact transferL ((((R.nil _).addW r_box.has r_box .nil).addR h_m.has (.cons s_m_box .nil)).addR h_corners.has (.skip (.cons s_corners_box .nil))) (.p rfl (.p rfl (.p rfl .nil))) (glm_frustum_box_run _ _) (DT.val_done _) rfl rfl
example (corners : M8x4 α) (m : M4 α) : let mem : Mem α := [⟨false, corners.list.map .f⟩, ⟨false, m.list.map .f⟩, ⟨true, List.replicate 6 .undef⟩]
    Holds mem (0, 0) corners.list ∧ Holds mem (1, 0) m.list ∧ Room mem (2, 0) 6 ∧ Apart (0, 0) 32 (2, 0) 6 ∧ Apart (1, 0) 16 (2, 0) 6 :=
  ⟨.block rfl, .block rfl, .block rfl rfl, Or.inl (by decide), Or.inl (by decide)⟩

theorem C56_frustum_corners_at {mem : Mem α} {cornersP planeCornersP : Ptr} {corners : M8x4 α} (splitDist : α) (farDist : α) (h_corners : Holds mem cornersP corners.list) (r_planeCorners : Room mem planeCornersP 16) (s_corners_planeCorners : Apart cornersP 32 planeCornersP 16) :
    C.glm_frustum_corners_at.run mem [cornersP.val, .f splitDist, .f farDist, planeCornersP.val] =
      some (none, writes mem [(planeCornersP, (Cglm.glm_frustum_corners_at corners splitDist farDist).list.map .f)]) := by
  exact transferL (((R.nil _).addW r_planeCorners.has r_planeCorners .nil).addR h_corners.has (.cons s_corners_planeCorners .nil)) (.p rfl (.f (.f (.p rfl .nil)))) (glm_frustum_corners_at_run _ _ _) (DT.val_map_eq (glm_frustum_corners_at_dt_val _ _ _) rfl) rfl rfl
example (corners : M8x4 α) : let mem : Mem α := [⟨false, corners.list.map .f⟩, ⟨true, List.replicate 16 .undef⟩]
    Holds mem (0, 0) corners.list ∧ Room mem (1, 0) 16 ∧ Apart (0, 0) 32 (1, 0) 16 :=
  ⟨.block rfl, .block rfl rfl, Or.inl (by decide)⟩

end Cglm

end C56Frustum

section C56Plane

/-!
# C56: memory safety and framing (include/cglm/plane.h)

Called with initialised inputs and a writable destination that does not overlap them, the function is defined,
returns the value-level result and changes no memory but its destination.
-/

set_option linter.unusedVariables false
set_option linter.unusedSectionVars false

namespace Cglm
open CMem

variable {α : Type} [Add α] [Sub α] [Mul α] [Div α] [Neg α] [CFloat α]

theorem C56_plane_normalize {mem : Mem α} {planeP : Ptr} {plane : V4 α} (h_plane : Holds mem planeP plane.list) (r_plane : Room mem planeP 4) :
    C.glm_plane_normalize.run mem [planeP.val] =
      some (none, writes mem [(planeP, (Cglm.glm_plane_normalize plane).list.map .f)]) := by
  exact transferL ((R.nil _).addW h_plane.has r_plane .nil) (.p rfl .nil) (glm_plane_normalize_run _) (DT.val_map_eq (glm_plane_normalize_dt_val _) rfl) rfl rfl
example (plane : V4 α) : let mem : Mem α := [⟨true, plane.list.map .f⟩]
    Holds mem (0, 0) plane.list ∧ Room mem (0, 0) 4 :=
  ⟨.block rfl, .block rfl rfl⟩

end Cglm

end C56Plane

section C56Ray

/-!
# C56: memory safety and framing (include/cglm/ray.h)

Called with initialised inputs and a writable destination that does not overlap them, the function is defined,
returns the value-level result and changes no memory but its destination.
-/

set_option linter.unusedVariables false
set_option linter.unusedSectionVars false

namespace Cglm
open CMem

variable {α : Type} [Add α] [Sub α] [Mul α] [Div α] [Neg α] [CFloat α]

theorem C56_ray_triangle {mem : Mem α} {originP directionP v0P v1P v2P dP : Ptr} {origin : V3 α} {direction : V3 α} {v0 : V3 α} {v1 : V3 α} {v2 : V3 α} {d : α} (h_origin : Holds mem originP origin.list) (h_direction : Holds mem directionP direction.list) (h_v0 : Holds mem v0P v0.list) (h_v1 : Holds mem v1P v1.list) (h_v2 : Holds mem v2P v2.list) (h_d : Holds mem dP [d]) (r_d : Room mem dP 1) (s_origin_d : Apart originP 3 dP 1) (s_direction_d : Apart directionP 3 dP 1) (s_v0_d : Apart v0P 3 dP 1) (s_v1_d : Apart v1P 3 dP 1) (s_v2_d : Apart v2P 3 dP 1) :
    C.glm_ray_triangle.run mem [originP.val, directionP.val, v0P.val, v1P.val, v2P.val, dP.val] =
      some (some (.b (Cglm.glm_ray_triangle origin direction v0 v1 v2 d).1), writes mem [(dP, [(Cglm.glm_ray_triangle origin direction v0 v1 v2 d).2].map .f)]) := by
  exact transferL (((((((R.nil _).addW h_d.has r_d .nil).addR h_v2.has (.cons s_v2_d .nil)).addR h_v1.has (.skip (.cons s_v1_d .nil))).addR h_v0.has (.skip (.skip (.cons s_v0_d .nil)))).addR h_direction.has (.skip (.skip (.skip (.cons s_direction_d .nil))))).addR h_origin.has (.skip (.skip (.skip (.skip (.cons s_origin_d .nil)))))) (.p rfl (.p rfl (.p rfl (.p rfl (.p rfl (.p rfl .nil)))))) (glm_ray_triangle_run _ _ _ _ _ _) (DT.val_map_eq (glm_ray_triangle_dt_val _ _ _ _ _ _) rfl) rfl rfl
example (origin : V3 α) (direction : V3 α) (v0 : V3 α) (v1 : V3 α) (v2 : V3 α) (d : α) : let mem : Mem α := [⟨false, origin.list.map .f⟩, ⟨false, direction.list.map .f⟩, ⟨false, v0.list.map .f⟩, ⟨false, v1.list.map .f⟩, ⟨false, v2.list.map .f⟩, ⟨true, [d].map .f⟩]
    Holds mem (0, 0) origin.list ∧ Holds mem (1, 0) direction.list ∧ Holds mem (2, 0) v0.list ∧ Holds mem (3, 0) v1.list ∧ Holds mem (4, 0) v2.list ∧ Holds mem (5, 0) [d] ∧ Room mem (5, 0) 1 ∧ Apart (0, 0) 3 (5, 0) 1 ∧ Apart (1, 0) 3 (5, 0) 1 ∧ Apart (2, 0) 3 (5, 0) 1 ∧ Apart (3, 0) 3 (5, 0) 1 ∧ Apart (4, 0) 3 (5, 0) 1 :=
  ⟨.block rfl, .block rfl, .block rfl, .block rfl, .block rfl, .block rfl, .block rfl rfl, Or.inl (by decide), Or.inl (by decide), Or.inl (by decide), Or.inl (by decide), Or.inl (by decide)⟩

theorem C56_ray_sphere {mem : Mem α} {originP dirP sP t1P t2P : Ptr} {origin : V3 α} {dir : V3 α} {s : V4 α} {t1 : α} {t2 : α} (h_origin : Holds mem originP origin.list) (h_dir : Holds mem dirP dir.list) (h_s : Holds mem sP s.list) (h_t1 : Holds mem t1P [t1]) (r_t1 : Room mem t1P 1) (h_t2 : Holds mem t2P [t2]) (r_t2 : Room mem t2P 1) (s_origin_t1 : Apart originP 3 t1P 1) (s_origin_t2 : Apart originP 3 t2P 1) (s_dir_t1 : Apart dirP 3 t1P 1) (s_dir_t2 : Apart dirP 3 t2P 1) (s_s_t1 : Apart sP 4 t1P 1) (s_s_t2 : Apart sP 4 t2P 1) (s_t1_t2 : Apart t1P 1 t2P 1) :
    C.glm_ray_sphere.run mem [originP.val, dirP.val, sP.val, t1P.val, t2P.val] =
      some (some (.b (Cglm.glm_ray_sphere origin dir s t1 t2).1), writes mem [(t1P, [(Cglm.glm_ray_sphere origin dir s t1 t2).2.1].map .f), (t2P, [(Cglm.glm_ray_sphere origin dir s t1 t2).2.2].map .f)]) := by
  exact transferL ((((((R.nil _).addW h_t2.has r_t2 .nil).addW h_t1.has r_t1 (.cons s_t1_t2 .nil)).addR h_s.has (.cons s_s_t1 (.cons s_s_t2 .nil))).addR h_dir.has (.skip (.cons s_dir_t1 (.cons s_dir_t2 .nil)))).addR h_origin.has (.skip (.skip (.cons s_origin_t1 (.cons s_origin_t2 .nil))))) (.p rfl (.p rfl (.p rfl (.p rfl (.p rfl .nil))))) (glm_ray_sphere_run _ _ _ _ _) (DT.val_map_eq (glm_ray_sphere_dt_val _ _ _ _ _) rfl) rfl rfl
example (origin : V3 α) (dir : V3 α) (s : V4 α) (t1 : α) (t2 : α) : let mem : Mem α := [⟨false, origin.list.map .f⟩, ⟨false, dir.list.map .f⟩, ⟨false, s.list.map .f⟩, ⟨true, [t1].map .f⟩, ⟨true, [t2].map .f⟩]
    Holds mem (0, 0) origin.list ∧ Holds mem (1, 0) dir.list ∧ Holds mem (2, 0) s.list ∧ Holds mem (3, 0) [t1] ∧ Room mem (3, 0) 1 ∧ Holds mem (4, 0) [t2] ∧ Room mem (4, 0) 1 ∧ Apart (0, 0) 3 (3, 0) 1 ∧ Apart (0, 0) 3 (4, 0) 1 ∧ Apart (1, 0) 3 (3, 0) 1 ∧ Apart (1, 0) 3 (4, 0) 1 ∧ Apart (2, 0) 4 (3, 0) 1 ∧ Apart (2, 0) 4 (4, 0) 1 ∧ Apart (3, 0) 1 (4, 0) 1 :=
  ⟨.block rfl, .block rfl, .block rfl, .block rfl, .block rfl rfl, .block rfl, .block rfl rfl, Or.inl (by decide), Or.inl (by decide), Or.inl (by decide), Or.inl (by decide), Or.inl (by decide), Or.inl (by decide), Or.inl (by decide)⟩

theorem C56_ray_at {mem : Mem α} {origP dirP pointP : Ptr} {orig : V3 α} {dir : V3 α} (t : α) (h_orig : Holds mem origP orig.list) (h_dir : Holds mem dirP dir.list) (r_point : Room mem pointP 3) (s_orig_point : Apart origP 3 pointP 3) (s_dir_point : Apart dirP 3 pointP 3) :
    C.glm_ray_at.run mem [origP.val, dirP.val, .f t, pointP.val] =
      some (none, writes mem [(pointP, (Cglm.glm_ray_at orig dir t).list.map .f)]) :=
  C55_ray_at t h_orig h_dir r_point (Or.inr s_orig_point) (Or.inr s_dir_point)
example (orig : V3 α) (dir : V3 α) : let mem : Mem α := [⟨false, orig.list.map .f⟩, ⟨false, dir.list.map .f⟩, ⟨true, List.replicate 3 .undef⟩]
    Holds mem (0, 0) orig.list ∧ Holds mem (1, 0) dir.list ∧ Room mem (2, 0) 3 ∧ Apart (0, 0) 3 (2, 0) 3 ∧ Apart (1, 0) 3 (2, 0) 3 :=
  ⟨.block rfl, .block rfl, .block rfl rfl, Or.inl (by decide), Or.inl (by decide)⟩

end Cglm

end C56Ray

section C56Sphere

/-!
# C56: memory safety and framing (include/cglm/sphere.h)

Called with initialised inputs and a writable destination that does not overlap them, the function is defined,
returns the value-level result and changes no memory but its destination.
-/

set_option linter.unusedVariables false
set_option linter.unusedSectionVars false

namespace Cglm
open CMem

variable {α : Type} [Add α] [Sub α] [Mul α] [Div α] [Neg α] [CFloat α]

theorem C56_sphere_radii {mem : Mem α} {sP : Ptr} {s : V4 α} (h_s : Holds mem sP s.list) :
    C.glm_sphere_radii.run mem [sP.val] =
      some (some (.f (Cglm.glm_sphere_radii s)), mem) := by
  exact transferL ((R.nil _).addR h_s.has .nil) (.p rfl .nil) (glm_sphere_radii_run _) (DT.val_done _) rfl rfl
example (s : V4 α) : let mem : Mem α := [⟨false, s.list.map .f⟩]
    Holds mem (0, 0) s.list :=
  .block rfl

theorem C56_sphere_transform {mem : Mem α} {sP mP destP : Ptr} {s : V4 α} {m : M4 α} (h_s : Holds mem sP s.list) (h_m : Holds mem mP m.list) (r_dest : Room mem destP 4) (s_s_dest : Apart sP 4 destP 4) (s_m_dest : Apart mP 16 destP 4) :
    C.glm_sphere_transform.run mem [sP.val, mP.val, destP.val] =
      some (none, writes mem [(destP, (Cglm.glm_sphere_transform s m).list.map .f)]) :=
  C55_sphere_transform h_s h_m r_dest (Or.inr s_s_dest) s_m_dest
example (s : V4 α) (m : M4 α) : let mem : Mem α := [⟨false, s.list.map .f⟩, ⟨false, m.list.map .f⟩, ⟨true, List.replicate 4 .undef⟩]
    Holds mem (0, 0) s.list ∧ Holds mem (1, 0) m.list ∧ Room mem (2, 0) 4 ∧ Apart (0, 0) 4 (2, 0) 4 ∧ Apart (1, 0) 16 (2, 0) 4 :=
  ⟨.block rfl, .block rfl, .block rfl rfl, Or.inl (by decide), Or.inl (by decide)⟩

theorem C56_sphere_merge {mem : Mem α} {s1P s2P destP : Ptr} {s1 : V4 α} {s2 : V4 α} (h_s1 : Holds mem s1P s1.list) (h_s2 : Holds mem s2P s2.list) (r_dest : Room mem destP 4) (s_s1_dest : Apart s1P 4 destP 4) (s_s2_dest : Apart s2P 4 destP 4) :
    C.glm_sphere_merge.run mem [s1P.val, s2P.val, destP.val] =
      some (none, writes mem [(destP, (Cglm.glm_sphere_merge s1 s2).list.map .f)]) :=
  C55_sphere_merge h_s1 h_s2 r_dest (Or.inr s_s1_dest) (Or.inr s_s2_dest)
example (s1 : V4 α) (s2 : V4 α) : let mem : Mem α := [⟨false, s1.list.map .f⟩, ⟨false, s2.list.map .f⟩, ⟨true, List.replicate 4 .undef⟩]
    Holds mem (0, 0) s1.list ∧ Holds mem (1, 0) s2.list ∧ Room mem (2, 0) 4 ∧ Apart (0, 0) 4 (2, 0) 4 ∧ Apart (1, 0) 4 (2, 0) 4 :=
  ⟨.block rfl, .block rfl, .block rfl rfl, Or.inl (by decide), Or.inl (by decide)⟩

theorem C56_sphere_sphere {mem : Mem α} {s1P s2P : Ptr} {s1 : V4 α} {s2 : V4 α} (h_s1 : Holds mem s1P s1.list) (h_s2 : Holds mem s2P s2.list) :
    C.glm_sphere_sphere.run mem [s1P.val, s2P.val] =
      some (some (.b (Cglm.glm_sphere_sphere s1 s2)), mem) := by
  exact transferL (((R.nil _).addR h_s2.has .nil).addR h_s1.has (.skip .nil)) (.p rfl (.p rfl .nil)) (glm_sphere_sphere_run _ _) (DT.val_done _) rfl rfl
example (s1 : V4 α) (s2 : V4 α) : let mem : Mem α := [⟨false, s1.list.map .f⟩, ⟨false, s2.list.map .f⟩]
    Holds mem (0, 0) s1.list ∧ Holds mem (1, 0) s2.list :=
  ⟨.block rfl, .block rfl⟩

theorem C56_sphere_point {mem : Mem α} {sP pointP : Ptr} {s : V4 α} {point : V3 α} (h_s : Holds mem sP s.list) (h_point : Holds mem pointP point.list) :
    C.glm_sphere_point.run mem [sP.val, pointP.val] =
      some (some (.b (Cglm.glm_sphere_point s point)), mem) := by
  exact transferL (((R.nil _).addR h_point.has .nil).addR h_s.has (.skip .nil)) (.p rfl (.p rfl .nil)) (glm_sphere_point_run _ _) (DT.val_done _) rfl rfl
example (s : V4 α) (point : V3 α) : let mem : Mem α := [⟨false, s.list.map .f⟩, ⟨false, point.list.map .f⟩]
    Holds mem (0, 0) s.list ∧ Holds mem (1, 0) point.list :=
  ⟨.block rfl, .block rfl⟩

end Cglm

end C56Sphere
