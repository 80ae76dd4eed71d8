/- Generated from include/cglm/ray.h by tools/gen.py (value semantics); do not edit by hand. -/
import Verif.Base
import Verif.Attr
import Verif.Gen.Vec3

set_option linter.unusedVariables false
set_option linter.unusedSectionVars false

namespace Cglm

variable {α : Type} [Add α] [Sub α] [Mul α] [Div α] [Neg α] [CFloat α]

/-- `glm_ray_triangle`: include/cglm/ray.h:40-80.  Simplified: optional output pointers are taken to be non-NULL. -/
@[cglm]
def glm_ray_triangle (origin : V3 α) (direction : V3 α) (v0 : V3 α) (v1 : V3 α) (v2 : V3 α) (d : α) : Bool × α :=
  let edge1 := glm_vec3_sub v1 v0
  let edge2 := glm_vec3_sub v2 v0
  let p := glm_vec3_cross direction edge2
  let det := glm_vec3_dot edge1 p
  if flt (-(lit 0.000001)) det && flt det (lit 0.000001) then
    (false, d)
  else
    let inv_det := (lit 1) / det
    let t := glm_vec3_sub origin v0
    let u := inv_det * glm_vec3_dot t p
    if flt u (lit 0) || flt (lit 1) u then
      (false, d)
    else
      let q := glm_vec3_cross t edge1
      let v := inv_det * glm_vec3_dot direction q
      if flt v (lit 0) || flt (lit 1) (u + v) then
        (false, d)
      else
        let dist := inv_det * glm_vec3_dot edge2 q
        (flt (lit 0.000001) dist, dist)

/-- `glm_ray_sphere`: include/cglm/ray.h:102-156. -/
@[cglm]
def glm_ray_sphere (origin : V3 α) (dir : V3 α) (s : V4 α) (t1 : α) (t2 : α) : Bool × α × α :=
  let dp := glm_vec3_sub ⟨s.x, s.y, s.z⟩ origin
  let ddp := glm_vec3_dot dir dp
  let dpp := glm_vec3_norm2 dp
  let dp_1 := glm_vec3_mulsubs dir ddp dp
  let r2 := s.w * s.w
  let dscr := r2 - glm_vec3_norm2 dp_1
  if flt dscr (lit 0) then
    (false, t1, t2)
  else
    let dscr_1 := sqrtf dscr
    let q := if fle (lit 0) ddp then ddp + dscr_1 else ddp - dscr_1
    let _t1 := q
    let _t2 := (dpp - r2) / q
    if flt _t2 _t1 then
      let tmp := _t1
      let _t1_1 := _t2
      let _t2_1 := tmp
      if flt _t1_1 (lit 0) && flt _t2_1 (lit 0) then
        (false, _t1_1, _t2_1)
      else
        (true, _t1_1, _t2_1)
    else
      if flt _t1 (lit 0) && flt _t2 (lit 0) then
        (false, _t1, _t2)
      else
        (true, _t1, _t2)

/-- `glm_ray_at`: include/cglm/ray.h:166-172. -/
@[cglm]
def glm_ray_at (orig : V3 α) (dir : V3 α) (t : α) : V3 α :=
  let dst := glm_vec3_scale dir t
  glm_vec3_add orig dst

end Cglm
