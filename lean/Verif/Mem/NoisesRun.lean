/- Generated by tools/memgen.py, joined by tools/merge.py; do not edit by hand. -/
import Verif.CMemTypes
import Verif.Gen.Noise
import Verif.Mem.Noises
import Verif.Mem.VecsRun

section NoiseRun

/-! Runs of the functions of include/cglm/noise.h on canonical memories. -/

set_option linter.unusedVariables false
set_option linter.unusedSectionVars false

namespace Cglm
open CMem

variable {α : Type} [Add α] [Sub α] [Mul α] [Div α] [Neg α] [CFloat α]

theorem glm_perlin_vec4_run (point : V4 α) :
    C.glm_perlin_vec4.runT (α := α) [⟨false, point.list.map .f⟩] [.p 0 0] =
      .done (some (some (.f (Cglm.glm_perlin_vec4 point)), [⟨false, point.list.map .f⟩])) := by kernel_rfl
theorem glm_perlin_vec3_run (point : V3 α) :
    C.glm_perlin_vec3.runT (α := α) [⟨false, point.list.map .f⟩] [.p 0 0] =
      .done (some (some (.f (Cglm.glm_perlin_vec3 point)), [⟨false, point.list.map .f⟩])) := by kernel_rfl
theorem glm_perlin_vec2_run (point : V2 α) :
    C.glm_perlin_vec2.runT (α := α) [⟨false, point.list.map .f⟩] [.p 0 0] =
      .done (some (some (.f (Cglm.glm_perlin_vec2 point)), [⟨false, point.list.map .f⟩])) := by kernel_rfl

end Cglm

end NoiseRun
