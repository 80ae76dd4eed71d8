/- Generated by tools/exactthms.py; do not edit by hand. -/
import Verif.CMemDiff
import Verif.Mem.AffinesRun

/-!
# C98: overlaps that give wrong results

For each function that does not allow all overlaps, positions `c.1` of an input in the object
that also holds an output, at which the result is wrong for the contents numbered `c.2`.
The other arrays lie apart.  `_exact`: every position that the theorem for the function excludes is wrong; `_wrong`: some are.
-/

set_option linter.unusedVariables false

namespace Cglm
open CMem

theorem C98_project_no_vp_wrong [Libm] : ∀ c ∈ ([(1, 0), (3, 0)] : List (Nat × Nat)), let mem : Mem F32 := [⟨true, (List.range 11).map fun i => .f (w c.2 i)⟩, ⟨false, (List.range 3).map fun i => .f (w c.2 (i + 11))⟩, ⟨false, (List.range 16).map fun i => .f (w c.2 (i + 14))⟩]
    C.glm_project_no.run mem [.p 1 0, .p 2 0, .p 0 c.1, .p 0 4] ≠
      some (none, writes mem [((0, 4), (Cglm.glm_project_no (⟨w c.2 11, w c.2 12, w c.2 13⟩ : V3 F32) (⟨⟨w c.2 14, w c.2 15, w c.2 16, w c.2 17⟩, ⟨w c.2 18, w c.2 19, w c.2 20, w c.2 21⟩, ⟨w c.2 22, w c.2 23, w c.2 24, w c.2 25⟩, ⟨w c.2 26, w c.2 27, w c.2 28, w c.2 29⟩⟩ : M4 F32) (⟨w c.2 (c.1 + 0), w c.2 (c.1 + 1), w c.2 (c.1 + 2), w c.2 (c.1 + 3)⟩ : V4 F32)).list.map .f)]) :=
  all_differ (by kernel_rfl)

end Cglm
