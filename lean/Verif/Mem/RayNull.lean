import Verif.Mem.GeomsRun

/-!
# `glm_ray_triangle` called with a null pointer for the distance

The other models of this function take the optional output `d` to be a valid pointer.  These take it to be `NULL`, so
the test at include/cglm/ray.h:76 fails and the store at line 77 is not executed.
-/

set_option linter.unusedVariables false
set_option linter.unusedSectionVars false
set_option maxRecDepth 10000

namespace Cglm
open CMem

variable {α : Type} [Add α] [Sub α] [Mul α] [Div α] [Neg α] [CFloat α]

/-- `glm_ray_triangle` with `d == NULL`: include/cglm/ray.h:40-80 without line 77. -/
def glm_ray_triangle_null (origin : V3 α) (direction : V3 α) (v0 : V3 α) (v1 : V3 α) (v2 : V3 α) : Bool :=
  let edge1 := glm_vec3_sub v1 v0
  let edge2 := glm_vec3_sub v2 v0
  let p := glm_vec3_cross direction edge2
  let det := glm_vec3_dot edge1 p
  if flt (-(lit 0.000001)) det && flt det (lit 0.000001) then
    false
  else
    let inv_det := (lit 1) / det
    let t := glm_vec3_sub origin v0
    let u := inv_det * glm_vec3_dot t p
    if flt u (lit 0) || flt (lit 1) u then
      false
    else
      let q := glm_vec3_cross t edge1
      let v := inv_det * glm_vec3_dot direction q
      if flt v (lit 0) || flt (lit 1) (u + v) then
        false
      else
        let dist := inv_det * glm_vec3_dot edge2 q
        flt (lit 0.000001) dist

/-- `glms_ray_triangle` with `d == NULL`: include/cglm/struct/ray.h:29-38. -/
def glms_ray_triangle_null (origin : V3 α) (direction : V3 α) (v0 : V3 α) (v1 : V3 α) (v2 : V3 α) : Bool :=
  glm_ray_triangle_null origin direction v0 v1 v2

/-- `glmc_ray_triangle` with `d == NULL`: src/ray.c:4-13. -/
def glmc_ray_triangle_null (origin : V3 α) (direction : V3 α) (v0 : V3 α) (v1 : V3 α) (v2 : V3 α) : Bool :=
  glm_ray_triangle_null origin direction v0 v1 v2

namespace C

/-- `glm_ray_triangle` with `d == NULL`: include/cglm/ray.h:40-80 without line 77.  The pointer itself is left out of the
arguments: it is only tested. -/
def glm_ray_triangle_null : Fn where
  locals := [3, 3, 3, 3, 3]
  nregs := 10
  body := 
    .seq (.set 10 (.flit 0.000001)) <|
    .seq (.call none glm_vec3_sub.locals glm_vec3_sub.nregs glm_vec3_sub.body [.reg 3, .reg 2, .loc 0]) <|
    .seq (.call none glm_vec3_sub.locals glm_vec3_sub.nregs glm_vec3_sub.body [.reg 4, .reg 2, .loc 1]) <|
    .seq (.call none glm_vec3_cross.locals glm_vec3_cross.nregs glm_vec3_cross.body [.reg 1, .loc 1, .loc 2]) <|
    .seq (.call (some 11) glm_vec3_dot.locals glm_vec3_dot.nregs glm_vec3_dot.body [.loc 0, .loc 2]) <|
    .seq (.set 5 (.reg 11)) <|
    .seq (.ite (.and (.fc .lt (.f1 .neg (.reg 10)) (.reg 5)) (.fc .lt (.reg 5) (.reg 10))) (.ret (.blit false)) (.skip)) <|
    .seq (.set 6 (.f2 .div (.flit 1) (.reg 5))) <|
    .seq (.call none glm_vec3_sub.locals glm_vec3_sub.nregs glm_vec3_sub.body [.reg 0, .reg 2, .loc 3]) <|
    .seq (.call (some 12) glm_vec3_dot.locals glm_vec3_dot.nregs glm_vec3_dot.body [.loc 3, .loc 2]) <|
    .seq (.set 7 (.f2 .mul (.reg 6) (.reg 12))) <|
    .seq (.ite (.or (.fc .lt (.reg 7) (.flit 0)) (.fc .lt (.flit 1) (.reg 7))) (.ret (.blit false)) (.skip)) <|
    .seq (.call none glm_vec3_cross.locals glm_vec3_cross.nregs glm_vec3_cross.body [.loc 3, .loc 0, .loc 4]) <|
    .seq (.call (some 13) glm_vec3_dot.locals glm_vec3_dot.nregs glm_vec3_dot.body [.reg 1, .loc 4]) <|
    .seq (.set 8 (.f2 .mul (.reg 6) (.reg 13))) <|
    .seq (.ite (.or (.fc .lt (.reg 8) (.flit 0)) (.fc .lt (.flit 1) (.f2 .add (.reg 7) (.reg 8)))) (.ret (.blit false)) (.skip)) <|
    .seq (.call (some 14) glm_vec3_dot.locals glm_vec3_dot.nregs glm_vec3_dot.body [.loc 1, .loc 4]) <|
    .seq (.set 9 (.f2 .mul (.reg 6) (.reg 14))) <|
    .ret (.fc .lt (.reg 10) (.reg 9))

end C

/-- `glm_ray_triangle_null` with its branches as a tree -/
def glm_ray_triangle_null_dt (origin : V3 α) (direction : V3 α) (v0 : V3 α) (v1 : V3 α) (v2 : V3 α) : DT Bool :=
  let edge1 := glm_vec3_sub v1 v0
  let edge2 := glm_vec3_sub v2 v0
  let p := glm_vec3_cross direction edge2
  let det := glm_vec3_dot edge1 p
  .br (flt (-(lit 0.000001)) det && flt det (lit 0.000001)) (
    .done false) (
    let inv_det := (lit 1) / det
    let t := glm_vec3_sub origin v0
    let u := inv_det * glm_vec3_dot t p
    .br (flt u (lit 0) || flt (lit 1) u) (
      .done false) (
      let q := glm_vec3_cross t edge1
      let v := inv_det * glm_vec3_dot direction q
      .br (flt v (lit 0) || flt (lit 1) (u + v)) (
        .done false) (
        let dist := inv_det * glm_vec3_dot edge2 q
        .done (flt (lit 0.000001) dist))))
theorem glm_ray_triangle_null_dt_val (origin : V3 α) (direction : V3 α) (v0 : V3 α) (v1 : V3 α) (v2 : V3 α) :
    (glm_ray_triangle_null_dt origin direction v0 v1 v2).val = glm_ray_triangle_null origin direction v0 v1 v2 := by
  unfold glm_ray_triangle_null_dt
  simp only [DT.val]
  kernel_rfl
theorem glm_ray_triangle_null_run (origin : V3 α) (direction : V3 α) (v0 : V3 α) (v1 : V3 α) (v2 : V3 α) :
    C.glm_ray_triangle_null.runT (α := α) [⟨false, origin.list.map .f⟩, ⟨false, direction.list.map .f⟩, ⟨false, v0.list.map .f⟩, ⟨false, v1.list.map .f⟩, ⟨false, v2.list.map .f⟩] [.p 0 0, .p 1 0, .p 2 0, .p 3 0, .p 4 0] =
      (glm_ray_triangle_null_dt origin direction v0 v1 v2).map fun r => some (some (.b r), [⟨false, origin.list.map .f⟩, ⟨false, direction.list.map .f⟩, ⟨false, v0.list.map .f⟩, ⟨false, v1.list.map .f⟩, ⟨false, v2.list.map .f⟩]) := by kernel_rfl

end Cglm
