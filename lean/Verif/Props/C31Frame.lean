import Verif.Gen
import Mathlib.Tactic.SplitIfs
/-!
# C31: updates of a projection touch only the entries they are about

For every scalar type and every matrix, not only perspective ones: moving the far plane changes only the two depth
entries, and resizing changes only the horizontal scale.
-/
open Cglm
namespace Cglm
set_option linter.unusedSectionVars false
variable {α : Type} [Add α] [Sub α] [Mul α] [Div α] [Neg α] [CFloat α]

/-- equal except possibly in the entries `c2.z` and `c3.z` -/
def SameButDepth (m n : M4 α) : Prop :=
  m.c0 = n.c0 ∧ m.c1 = n.c1 ∧ m.c2.x = n.c2.x ∧ m.c2.y = n.c2.y ∧ m.c2.w = n.c2.w ∧
    m.c3.x = n.c3.x ∧ m.c3.y = n.c3.y ∧ m.c3.w = n.c3.w

/-- equal except possibly in the entry `c0.x` -/
def SameButWidth (m n : M4 α) : Prop :=
  m.c0.y = n.c0.y ∧ m.c0.z = n.c0.z ∧ m.c0.w = n.c0.w ∧ m.c1 = n.c1 ∧ m.c2 = n.c2 ∧ m.c3 = n.c3

omit [Mul α] [Sub α] [Add α] [Div α] [Neg α] [CFloat α] in
/-- the relations are not trivial: different depth entries are allowed, nothing else is -/
example (a b : α) (h : a ≠ b) (v : V4 α) : SameButDepth ⟨v, v, ⟨a, a, a, a⟩, v⟩ ⟨v, v, ⟨a, a, b, a⟩, v⟩ ∧
    ¬ SameButDepth ⟨v, v, ⟨a, a, a, a⟩, v⟩ ⟨v, v, ⟨a, a, a, b⟩, v⟩ ∧
    SameButWidth ⟨⟨a, a, a, a⟩, v, v, v⟩ ⟨⟨b, a, a, a⟩, v, v, v⟩ ∧
    ¬ SameButWidth ⟨⟨a, a, a, a⟩, v, v, v⟩ ⟨⟨a, b, a, a⟩, v, v, v⟩ := by
  simp [SameButDepth, SameButWidth, h]

theorem C31_move_far_frame_rh_no (m : M4 α) (d : α) : SameButDepth (glm_persp_move_far_rh_no m d) m := by
  simp only [SameButDepth, cglm, and_self]

theorem C31_resize_frame_rh_no (a : α) (m : M4 α) : SameButWidth (glm_perspective_resize_rh_no a m) m := by
  simp only [cglm]
  split_ifs <;> simp only [SameButWidth, and_self]

theorem C31_move_far_frame_rh_zo (m : M4 α) (d : α) : SameButDepth (glm_persp_move_far_rh_zo m d) m := by
  simp only [SameButDepth, cglm, and_self]

theorem C31_resize_frame_rh_zo (a : α) (m : M4 α) : SameButWidth (glm_perspective_resize_rh_zo a m) m := by
  simp only [cglm]
  split_ifs <;> simp only [SameButWidth, and_self]

theorem C31_move_far_frame_lh_no (m : M4 α) (d : α) : SameButDepth (glm_persp_move_far_lh_no m d) m := by
  simp only [SameButDepth, cglm, and_self]

theorem C31_resize_frame_lh_no (a : α) (m : M4 α) : SameButWidth (glm_perspective_resize_lh_no a m) m := by
  simp only [cglm]
  split_ifs <;> simp only [SameButWidth, and_self]

theorem C31_move_far_frame_lh_zo (m : M4 α) (d : α) : SameButDepth (glm_persp_move_far_lh_zo m d) m := by
  simp only [SameButDepth, cglm, and_self]

theorem C31_resize_frame_lh_zo (a : α) (m : M4 α) : SameButWidth (glm_perspective_resize_lh_zo a m) m := by
  simp only [cglm]
  split_ifs <;> simp only [SameButWidth, and_self]

theorem C31_move_far_frame (m : M4 α) (d : α) : SameButDepth (glm_persp_move_far m d) m := by
  simp only [SameButDepth, cglm, and_self]

theorem C31_resize_frame (a : α) (m : M4 α) : SameButWidth (glm_perspective_resize a m) m := by
  simp only [cglm]
  split_ifs <;> simp only [SameButWidth, and_self]

end Cglm
