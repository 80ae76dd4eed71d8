import Verif.Props.C98Refuted
import Verif.Props.C98CellsAffine
import Verif.Props.C98CellsClip
import Verif.F32

/-!
# C98: arguments that are columns of the matrix

Cases of the theorems in `C98CellsAffine` and `C98CellsClip` in which an argument is a column of the matrix that the call
writes, and a case outside them.
-/

namespace Cglm
open CMem

section
variable {α : Type} [Add α] [Sub α] [Mul α] [Div α] [Neg α] [CFloat α]

/-- `glm_translate(m, m[0])` -/
theorem C98_translate_by_right (m : M4 α) :
    C.glm_translate.run [⟨true, m.list.map .f⟩] [.p 0 0, .p 0 0] =
      some (none, [⟨true, (glm_translate m ⟨m.c0.x, m.c0.y, m.c0.z⟩).list.map .f⟩]) := by
  refine (C98_translate (mem := [⟨true, m.list.map .f⟩]) (mP := (0, 0)) (vP := (0, 0)) (m := m) (v := ⟨m.c0.x, m.c0.y, m.c0.z⟩)
    (.within rfl rfl) (.within rfl rfl) (.within rfl rfl) (.of rfl)).trans ?_
  generalize glm_translate m _ = r
  kernel_rfl

/-- `glm_translate(m, m[1])` -/
theorem C98_translate_by_up (m : M4 α) :
    C.glm_translate.run [⟨true, m.list.map .f⟩] [.p 0 0, .p 0 4] =
      some (none, [⟨true, (glm_translate m ⟨m.c1.x, m.c1.y, m.c1.z⟩).list.map .f⟩]) := by
  refine (C98_translate (mem := [⟨true, m.list.map .f⟩]) (mP := (0, 0)) (vP := (0, 4)) (m := m) (v := ⟨m.c1.x, m.c1.y, m.c1.z⟩)
    (.within rfl rfl) (.within rfl rfl) (.within rfl rfl) (.of rfl)).trans ?_
  generalize glm_translate m _ = r
  kernel_rfl

/-- `glm_translate(m, m[2])` -/
theorem C98_translate_by_forward (m : M4 α) :
    C.glm_translate.run [⟨true, m.list.map .f⟩] [.p 0 0, .p 0 8] =
      some (none, [⟨true, (glm_translate m ⟨m.c2.x, m.c2.y, m.c2.z⟩).list.map .f⟩]) := by
  refine (C98_translate (mem := [⟨true, m.list.map .f⟩]) (mP := (0, 0)) (vP := (0, 8)) (m := m) (v := ⟨m.c2.x, m.c2.y, m.c2.z⟩)
    (.within rfl rfl) (.within rfl rfl) (.within rfl rfl) (.of rfl)).trans ?_
  generalize glm_translate m _ = r
  kernel_rfl

/-- `glm_scale(m, m[3])` -/
theorem C98_scale_by_position (m : M4 α) :
    C.glm_scale.run [⟨true, m.list.map .f⟩] [.p 0 0, .p 0 12] =
      some (none, [⟨true, (glm_scale m ⟨m.c3.x, m.c3.y, m.c3.z⟩).list.map .f⟩]) := by
  refine (C98_scale (mem := [⟨true, m.list.map .f⟩]) (mP := (0, 0)) (vP := (0, 12)) (m := m) (v := ⟨m.c3.x, m.c3.y, m.c3.z⟩)
    (.within rfl rfl) (.within rfl rfl) (.within rfl rfl) (.of rfl)).trans ?_
  generalize glm_scale m _ = r
  kernel_rfl

/-- `glm_decompose(m, m[3], r, s)`: the translation is stored where it is, so the matrix does not change -/
theorem C98_decompose_position (m : M4 α) :
    C.glm_decompose.run [⟨true, m.list.map .f⟩, ⟨true, List.replicate 16 .undef⟩, ⟨true, List.replicate 3 .undef⟩] [.p 0 0, .p 0 12, .p 1 0, .p 2 0] =
      some (none, [⟨true, m.list.map .f⟩, ⟨true, (glm_decompose m).2.1.list.map .f⟩, ⟨true, (glm_decompose m).2.2.list.map .f⟩]) := by
  refine (C98_decompose (mem := [⟨true, m.list.map .f⟩, ⟨true, List.replicate 16 .undef⟩, ⟨true, List.replicate 3 .undef⟩])
    (mP := (0, 0)) (tP := (0, 12)) (rP := (1, 0)) (sP := (2, 0)) (m := m) (.within rfl rfl) (.within rfl rfl) (.within rfl rfl)
    (.within rfl rfl) (Or.inl (by decide)) (Or.inl (by decide)) (Or.inl (by decide)) (.of rfl) (.other rfl) (.other rfl)).trans ?_
  rfl
end

/-- the camera position in the last column of the destination: `glm_lookat(m[3], center, up, m)`; the last column is written
while the position is still being read, so the entry for the second axis is 0 instead of -1 -/
theorem C98_lookat_refuted [Libm] : ∃ (m : M4 F32) (center up : V3 F32),
    C.glm_lookat.run [⟨true, m.list.map .f⟩, ⟨false, center.list.map .f⟩, ⟨false, up.list.map .f⟩] [.p 0 12, .p 1 0, .p 2 0, .p 0 0] ≠
      some (none, [⟨true, (glm_lookat ⟨m.c3.x, m.c3.y, m.c3.z⟩ center up).list.map .f⟩, ⟨false, center.list.map .f⟩, ⟨false, up.list.map .f⟩]) := by
  let o : F32 := .zero false
  let i : F32 := F32.ofRat false 1
  refine ⟨⟨⟨o, o, o, o⟩, ⟨o, o, o, o⟩, ⟨o, o, o, o⟩, ⟨i, o, o, o⟩⟩, ⟨i, o, -i⟩, ⟨i, o, o⟩, ?_⟩
  intro e
  let g : Option (Option (Val F32) × Mem F32) → Bool := fun r => match r with
    | some (_, b :: _) => match b.cells.getD 13 .undef with
      | .f x => F32.lt x o
      | _ => false
    | _ => false
  have h := congrArg g e
  have h1 : g (C.glm_lookat.run [⟨true, (M4.mk ⟨o, o, o, o⟩ ⟨o, o, o, o⟩ ⟨o, o, o, o⟩ ⟨i, o, o, o⟩).list.map .f⟩, ⟨false, (V3.mk i o (-i)).list.map .f⟩, ⟨false, (V3.mk i o o).list.map .f⟩] [.p 0 12, .p 1 0, .p 2 0, .p 0 0]) = false := by kernel_rfl
  have h2 : g (some (none, [⟨true, (glm_lookat ⟨i, o, o⟩ ⟨i, o, -i⟩ ⟨i, o, o⟩).list.map .f⟩, ⟨false, (V3.mk i o (-i)).list.map .f⟩, ⟨false, (V3.mk i o o).list.map .f⟩])) = true := by kernel_rfl
  exact Bool.noConfusion (h1.symm.trans (h.trans h2))

end Cglm
