import Verif.Props.C55Refuted
import Verif.Props.C98Mat
import Verif.Props.C98Ints
import Verif.Mem.AffinesRun

/-!
# C98: overlap of functions that write before they have read everything

Copies and component-wise operations write each component before they read the next one.  When the destination begins
inside the source, what they read is what they have just written.
-/

namespace Cglm
open CMem

section
variable {α : Type} [Add α] [Sub α] [Mul α] [Div α] [Neg α] [CFloat α]

/-- `glm_vec3_copy(a, a + 1)` repeats the first component -/
theorem C98_vec3_copy_shifted (x y z t : α) :
    C.glm_vec3_copy.run [⟨true, [.f x, .f y, .f z, .f t]⟩] [.p 0 0, .p 0 1] = some (none, [⟨true, [.f x, .f x, .f x, .f x]⟩]) := by kernel_rfl

/-- `glm_vec3_add(a, b, a + 1)` adds up the components of `b` -/
theorem C98_vec3_add_shifted (x y z t : α) (b : V3 α) :
    C.glm_vec3_add.run [⟨true, [.f x, .f y, .f z, .f t]⟩, ⟨false, b.list.map .f⟩] [.p 0 0, .p 1 0, .p 0 1] =
      some (none, [⟨true, [.f x, .f (x + b.x), .f (x + b.x + b.y), .f (x + b.x + b.y + b.z)]⟩, ⟨false, b.list.map .f⟩]) := by kernel_rfl

/-- `glm_mat4_copy` does not copy in order: even a destination that begins before the source, `glm_mat4_copy(m, m - 1)` with
a pointer to float, gets two wrong entries -/
theorem C98_mat4_copy_below (t : α) (m : M4 α) :
    C.glm_mat4_copy.run [⟨true, .f t :: m.list.map .f⟩] [.p 0 1, .p 0 0] =
      some (none, [⟨true, (M4.mk ⟨m.c0.x, m.c0.y, m.c0.z, m.c1.x⟩ m.c1 ⟨m.c2.x, m.c2.y, m.c2.z, m.c3.x⟩ m.c3).list.map .f ++ [.f m.c3.w]⟩]) := by
  kernel_rfl

/-- a point of a matrix transformed by the matrix itself: `glm_mat4_mulv3(m, m[3], one, m[3])` -/
theorem C98_mat4_mulv3_column (m : M4 α) (one : α) :
    C.glm_mat4_mulv3.run [⟨true, m.list.map .f⟩] [.p 0 0, .p 0 12, .f one, .p 0 12] =
      let p := glm_mat4_mulv3 m ⟨m.c3.x, m.c3.y, m.c3.z⟩ one
      some (none, [⟨true, (M4.mk m.c0 m.c1 m.c2 ⟨p.x, p.y, p.z, m.c3.w⟩).list.map .f⟩]) :=
  C98_mat4_mulv3 (mem := [⟨true, m.list.map .f⟩]) (mP := (0, 0)) (vP := (0, 12)) (destP := (0, 12)) (m := m) (v := ⟨m.c3.x, m.c3.y, m.c3.z⟩)
    one (.within rfl rfl) (.within rfl rfl) (.within rfl rfl)

/-- `glm_translate(m, m[3])`: each step reads a component of the translation that the steps before it have changed -/
theorem C98_translate_column (m : M4 α) :
    C.glm_translate.run [⟨true, m.list.map .f⟩] [.p 0 0, .p 0 12] =
      let a := glm_vec4_muladds m.c0 m.c3.x m.c3
      let b := glm_vec4_muladds m.c1 a.y a
      some (none, [⟨true, (M4.mk m.c0 m.c1 m.c2 (glm_vec4_muladds m.c2 b.z b)).list.map .f⟩]) := by kernel_rfl

/-- `glm_scale(m, m[0])`: the first column is scaled before its other components are read -/
theorem C98_scale_column (m : M4 α) :
    C.glm_scale.run [⟨true, m.list.map .f⟩] [.p 0 0, .p 0 0] =
      let a := glm_vec4_scale m.c0 m.c0.x
      some (none, [⟨true, (M4.mk a (glm_vec4_scale m.c1 a.y) (glm_vec4_scale m.c2 a.z) m.c3).list.map .f⟩]) := by kernel_rfl

/-- `glm_ivec3_copy(a, a + 1)` repeats the first component -/
theorem C98_ivec3_copy_shifted [CIntConv α] (x y z t : Int) :
    CI.glm_ivec3_copy.run (α := α) [⟨true, [.i x, .i y, .i z, .i t]⟩] [.p 0 0, .p 0 1] = some (none, [⟨true, [.i x, .i x, .i x, .i x]⟩]) := by kernel_rfl
end

/-- a vector copied onto itself, shifted by one component, is not a copy -/
theorem C98_vec3_copy_refuted : ∃ (a : V3 ℝ) (t : ℝ),
    C.glm_vec3_copy.run [⟨true, (a.list ++ [t]).map .f⟩] [.p 0 0, .p 0 1] ≠ some (none, [⟨true, (a.x :: (glm_vec3_copy a).list).map .f⟩]) := by
  refine ⟨⟨1, 2, 3⟩, 0, ?_⟩
  have h := C98_vec3_copy_shifted (1 : ℝ) 2 3 0
  intro e
  have := h.symm.trans e
  simp [V3.list, glm_vec3_copy] at this

/-- likewise a sum -/
theorem C98_vec3_add_refuted : ∃ (a b : V3 ℝ) (t : ℝ),
    C.glm_vec3_add.run [⟨true, (a.list ++ [t]).map .f⟩, ⟨false, b.list.map .f⟩] [.p 0 0, .p 1 0, .p 0 1] ≠
      some (none, [⟨true, (a.x :: (glm_vec3_add a b).list).map .f⟩, ⟨false, b.list.map .f⟩]) := by
  refine ⟨⟨1, 2, 3⟩, ⟨0, 0, 0⟩, 0, ?_⟩
  have h := C98_vec3_add_shifted (1 : ℝ) 2 3 0 ⟨0, 0, 0⟩
  intro e
  have := h.symm.trans e
  simp [V3.list, glm_vec3_add] at this

/-- a matrix moved by its own translation is not moved by the translation it had before the call -/
theorem C98_translate_refuted : ∃ m : M4 ℝ,
    C.glm_translate.run [⟨true, m.list.map .f⟩] [.p 0 0, .p 0 12] ≠ some (none, [⟨true, (glm_translate m ⟨m.c3.x, m.c3.y, m.c3.z⟩).list.map .f⟩]) := by
  refine ⟨⟨⟨0, 1, 0, 0⟩, ⟨1, 0, 0, 0⟩, ⟨0, 0, 1, 0⟩, ⟨1, 0, 0, 1⟩⟩, ?_⟩
  have h := C98_translate_column (⟨⟨0, 1, 0, 0⟩, ⟨1, 0, 0, 0⟩, ⟨0, 0, 1, 0⟩, ⟨1, 0, 0, 1⟩⟩ : M4 ℝ)
  intro e
  have := h.symm.trans e
  simp [M4.list, V4.list, glm_translate, glm_vec4_muladds] at this

/-- a matrix scaled by its own first column is not scaled by the column it had before the call -/
theorem C98_scale_refuted : ∃ m : M4 ℝ,
    C.glm_scale.run [⟨true, m.list.map .f⟩] [.p 0 0, .p 0 0] ≠ some (none, [⟨true, (glm_scale m ⟨m.c0.x, m.c0.y, m.c0.z⟩).list.map .f⟩]) := by
  refine ⟨⟨⟨2, 1, 0, 0⟩, ⟨1, 0, 0, 0⟩, ⟨0, 0, 1, 0⟩, ⟨0, 0, 0, 1⟩⟩, ?_⟩
  have h := C98_scale_column (⟨⟨2, 1, 0, 0⟩, ⟨1, 0, 0, 0⟩, ⟨0, 0, 1, 0⟩, ⟨0, 0, 0, 1⟩⟩ : M4 ℝ)
  intro e
  have := h.symm.trans e
  simp [M4.list, V4.list, glm_scale, glm_scale_to, glm_vec4_scale, glm_vec4_copy] at this

/-- an integer vector copied onto itself, shifted by one component, is not a copy -/
theorem C98_ivec3_copy_refuted {α : Type} [Add α] [Sub α] [Mul α] [Div α] [Neg α] [CFloat α] [CIntConv α] : ∃ (a : V3 Int32) (t : Int32) (r : V3 Int32), I.glm_ivec3_copy a = some r ∧
    CI.glm_ivec3_copy.run (α := α) [⟨true, icells (a.list ++ [t])⟩] [.p 0 0, .p 0 1] ≠ some (none, [⟨true, icells (a.x :: r.list)⟩]) := by
  refine ⟨⟨1, 2, 3⟩, 0, ⟨1, 2, 3⟩, rfl, ?_⟩
  have h := C98_ivec3_copy_shifted (α := α) 1 2 3 0
  intro e
  have := h.symm.trans e
  simp [V3.list, icells] at this

/-- copying a matrix one float down is not a copy -/
theorem C98_mat4_copy_refuted : ∃ (m : M4 ℝ) (t : ℝ),
    C.glm_mat4_copy.run [⟨true, (t :: m.list).map .f⟩] [.p 0 1, .p 0 0] ≠
      some (none, [⟨true, ((glm_mat4_copy m).list ++ [m.c3.w]).map .f⟩]) := by
  refine ⟨⟨⟨0, 0, 0, 0⟩, ⟨1, 0, 0, 0⟩, ⟨0, 0, 0, 0⟩, ⟨0, 0, 0, 0⟩⟩, 0, ?_⟩
  have h := C98_mat4_copy_below (0 : ℝ) ⟨⟨0, 0, 0, 0⟩, ⟨1, 0, 0, 0⟩, ⟨0, 0, 0, 0⟩, ⟨0, 0, 0, 0⟩⟩
  intro e
  have := h.symm.trans e
  simp [M4.list, V4.list, glm_mat4_copy, glm_mat4_ucopy] at this

end Cglm
