/- Generated by tools/memgen.py, joined by tools/merge.py; do not edit by hand. -/
import Verif.Mem.NoisesRun

section C56Noise

/-!
# C56: memory safety and framing (include/cglm/noise.h)

Called with initialised inputs and a writable destination that does not overlap them, the function is defined,
returns the value-level result and changes no memory but its destination.
-/

set_option linter.unusedVariables false
set_option linter.unusedSectionVars false

namespace Cglm
open CMem

variable {α : Type} [Add α] [Sub α] [Mul α] [Div α] [Neg α] [CFloat α]

theorem C56_perlin_vec4 {mem : Mem α} {pointP : Ptr} {point : V4 α} (h_point : Holds mem pointP point.list) :
    C.glm_perlin_vec4.run mem [pointP.val] =
      some (some (.f (Cglm.glm_perlin_vec4 point)), mem) := by
  exact transferL ((R.nil _).addR h_point.has .nil) (.p rfl .nil) (glm_perlin_vec4_run _) (DT.val_done _) rfl rfl
example (point : V4 α) : let mem : Mem α := [⟨false, point.list.map .f⟩]
    Holds mem (0, 0) point.list :=
  .block rfl

theorem C56_perlin_vec3 {mem : Mem α} {pointP : Ptr} {point : V3 α} (h_point : Holds mem pointP point.list) :
    C.glm_perlin_vec3.run mem [pointP.val] =
      some (some (.f (Cglm.glm_perlin_vec3 point)), mem) := by
  exact transferL ((R.nil _).addR h_point.has .nil) (.p rfl .nil) (glm_perlin_vec3_run _) (DT.val_done _) rfl rfl
example (point : V3 α) : let mem : Mem α := [⟨false, point.list.map .f⟩]
    Holds mem (0, 0) point.list :=
  .block rfl

theorem C56_perlin_vec2 {mem : Mem α} {pointP : Ptr} {point : V2 α} (h_point : Holds mem pointP point.list) :
    C.glm_perlin_vec2.run mem [pointP.val] =
      some (some (.f (Cglm.glm_perlin_vec2 point)), mem) := by
  exact transferL ((R.nil _).addR h_point.has .nil) (.p rfl .nil) (glm_perlin_vec2_run _) (DT.val_done _) rfl rfl
example (point : V2 α) : let mem : Mem α := [⟨false, point.list.map .f⟩]
    Holds mem (0, 0) point.list :=
  .block rfl

end Cglm

end C56Noise
