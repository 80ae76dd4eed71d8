/- Generated from include/cglm/bezier.h by tools/gen.py (value semantics); do not edit by hand. -/
import Verif.Base
import Verif.Attr

set_option linter.unusedVariables false
set_option linter.unusedSectionVars false

namespace Cglm

variable {α : Type} [Add α] [Sub α] [Mul α] [Div α] [Neg α] [CFloat α]

/-- `glm_bezier`: include/cglm/bezier.h:48-60. -/
@[cglm]
def glm_bezier (s : α) (p0 : α) (c0 : α) (c1 : α) (p1 : α) : α :=
  let x := (lit 1) - s
  let xx := x * x
  let ss := s * s
  let xs3 := (s - ss) * (lit 3)
  let a := p0 * xx + c0 * xs3
  a + s * (c1 * xs3 + p1 * ss - a)

/-- `glm_hermite`: include/cglm/bezier.h:82-96. -/
@[cglm]
def glm_hermite (s : α) (p0 : α) (t0 : α) (t1 : α) (p1 : α) : α :=
  let ss := s * s
  let a := ss + ss
  let c := a + ss
  let b := a * s
  let d := s * ss
  let f := d - ss
  let e := b - c
  p0 * (e + (lit 1)) + t0 * (f - ss + s) + t1 * f - p1 * e

end Cglm
