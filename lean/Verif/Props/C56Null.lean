import Verif.Mem.RayNull

/-!
# C56, C41: the distance of `glm_ray_triangle` may be NULL

The caller who does not want the distance passes `NULL`.  Then the answer is the same, and no memory is changed.
-/

namespace Cglm
open CMem

variable {α : Type} [Add α] [Sub α] [Mul α] [Div α] [Neg α] [CFloat α]

/-- the answer does not depend on whether the distance is asked for -/
theorem C41_ray_triangle_null (origin direction v0 v1 v2 : V3 α) (d : α) :
    glm_ray_triangle_null origin direction v0 v1 v2 = (glm_ray_triangle origin direction v0 v1 v2 d).1 ∧
    glms_ray_triangle_null origin direction v0 v1 v2 = (glm_ray_triangle origin direction v0 v1 v2 d).1 ∧
    glmc_ray_triangle_null origin direction v0 v1 v2 = (glm_ray_triangle origin direction v0 v1 v2 d).1 := by
  have h : glm_ray_triangle_null origin direction v0 v1 v2 = (glm_ray_triangle origin direction v0 v1 v2 d).1 := by
    unfold glm_ray_triangle_null glm_ray_triangle
    dsimp only
    split
    · rfl
    · split
      · rfl
      · split <;> rfl
  exact ⟨h, h, h⟩

/-- with `NULL` the call is defined for inputs that overlap in any way, gives the same answer and leaves memory alone -/
theorem C56_ray_triangle_null {mem : Mem α} {originP directionP v0P v1P v2P : Ptr} {origin direction v0 v1 v2 : V3 α} (d : α)
    (h_origin : Holds mem originP origin.list) (h_direction : Holds mem directionP direction.list) (h_v0 : Holds mem v0P v0.list)
    (h_v1 : Holds mem v1P v1.list) (h_v2 : Holds mem v2P v2.list) :
    C.glm_ray_triangle_null.run mem [originP.val, directionP.val, v0P.val, v1P.val, v2P.val] =
      some (some (.b (glm_ray_triangle origin direction v0 v1 v2 d).1), mem) := by
  rw [← (C41_ray_triangle_null origin direction v0 v1 v2 d).1]
  exact transferL ((((((R.nil _).addR h_v2.has .nil).addR h_v1.has (.skip .nil)).addR h_v0.has (.skip (.skip .nil))).addR h_direction.has (.skip (.skip (.skip .nil)))).addR h_origin.has (.skip (.skip (.skip (.skip .nil))))) (.p rfl (.p rfl (.p rfl (.p rfl (.p rfl .nil))))) (glm_ray_triangle_null_run _ _ _ _ _) (DT.val_map_eq (glm_ray_triangle_null_dt_val _ _ _ _ _) rfl) rfl rfl
example (origin direction v0 v1 v2 : V3 α) : let mem : Mem α := [⟨false, origin.list.map .f⟩, ⟨false, direction.list.map .f⟩, ⟨false, v0.list.map .f⟩, ⟨false, v1.list.map .f⟩, ⟨false, v2.list.map .f⟩]
    Holds mem (0, 0) origin.list ∧ Holds mem (1, 0) direction.list ∧ Holds mem (2, 0) v0.list ∧ Holds mem (3, 0) v1.list ∧ Holds mem (4, 0) v2.list :=
  ⟨.block rfl, .block rfl, .block rfl, .block rfl, .block rfl⟩

/-- the arrays may coincide -/
example (o d v : V3 α) (x : α) : C.glm_ray_triangle_null.run [⟨false, o.list.map .f⟩, ⟨false, d.list.map .f⟩, ⟨false, v.list.map .f⟩] [.p 0 0, .p 1 0, .p 2 0, .p 2 0, .p 2 0] =
    some (some (.b (glm_ray_triangle o d v v v x).1), [⟨false, o.list.map .f⟩, ⟨false, d.list.map .f⟩, ⟨false, v.list.map .f⟩]) :=
  C56_ray_triangle_null (originP := (0, 0)) (directionP := (1, 0)) (v0P := (2, 0)) (v1P := (2, 0)) (v2P := (2, 0)) x (.block rfl) (.block rfl) (.block rfl) (.block rfl) (.block rfl)

end Cglm
