import Verif.Base

/-!
# include/cglm/applesimd.h: conversion to Apple's vector types

Only compiled on Apple platforms after `<simd/simd.h>` (applesimd.h:10-14).  `simd_float4x4` and `simd_float3x3` are structures with
one member `columns`, an array of four or three vectors; their lanes are written one at a time into a variable that is not
initialised.  Simplification: the fourth, unused lane of `simd_float3` does not exist here.
-/

namespace Cglm.Apple

variable {α : Type}

/-- the lanes of a local variable `t.columns[i][j]`; `none` is a lane that has not been written -/
abbrev Lanes (α : Type) := Nat → Nat → Option α

/-- the variable before the first assignment: applesimd.h:26, 58 (`simd_float4x4 t;`) -/
def fresh : Lanes α := fun _ _ => none

/-- the assignment `t.columns[i][j] = v` -/
def Lanes.set (t : Lanes α) (i j : Nat) (v : α) : Lanes α := fun i' j' => if i' = i ∧ j' = j then some v else t i' j'

/-- `glm_mat4_applesimd`: include/cglm/applesimd.h:23-49. -/
def glm_mat4_applesimd (m : M4 α) : Lanes α :=
  (((((((((((((((fresh.set 0 0 m.c0.x).set 0 1 m.c0.y).set 0 2 m.c0.z).set 0 3 m.c0.w)
    |>.set 1 0 m.c1.x).set 1 1 m.c1.y).set 1 2 m.c1.z).set 1 3 m.c1.w)
    |>.set 2 0 m.c2.x).set 2 1 m.c2.y).set 2 2 m.c2.z).set 2 3 m.c2.w)
    |>.set 3 0 m.c3.x).set 3 1 m.c3.y).set 3 2 m.c3.z).set 3 3 m.c3.w

/-- `glm_mat3_applesimd`: include/cglm/applesimd.h:55-73. -/
def glm_mat3_applesimd (m : M3 α) : Lanes α :=
  ((((((((fresh.set 0 0 m.c0.x).set 0 1 m.c0.y).set 0 2 m.c0.z)
    |>.set 1 0 m.c1.x).set 1 1 m.c1.y).set 1 2 m.c1.z)
    |>.set 2 0 m.c2.x).set 2 1 m.c2.y).set 2 2 m.c2.z

/-- `glm_vec4_applesimd`: include/cglm/applesimd.h:79-83, a compound literal with four initialisers. -/
def glm_vec4_applesimd (v : V4 α) : List α := [v.x, v.y, v.z, v.w]

/-- `glm_vec3_applesimd`: include/cglm/applesimd.h:89-93, a compound literal with three initialisers. -/
def glm_vec3_applesimd (v : V3 α) : List α := [v.x, v.y, v.z]

/-- `glms_mat4_applesimd`: include/cglm/applesimd.h:115.  `m.raw` is the array inside the union. -/
def glms_mat4_applesimd (m : M4 α) : Lanes α := glm_mat4_applesimd m
/-- `glms_mat3_applesimd`: include/cglm/applesimd.h:116. -/
def glms_mat3_applesimd (m : M3 α) : Lanes α := glm_mat3_applesimd m
/-- `glms_vec4_applesimd`: include/cglm/applesimd.h:117. -/
def glms_vec4_applesimd (v : V4 α) : List α := glm_vec4_applesimd v
/-- `glms_vec3_applesimd`: include/cglm/applesimd.h:118. -/
def glms_vec3_applesimd (v : V3 α) : List α := glm_vec3_applesimd v

/-! ### The macro `applesimd` -/

/-- the types that matter here.  `typedef float vec4[4]` and `typedef vec4 mat4[4]` are array types (include/cglm/types.h:80-92);
`vec4s` and `mat4s` are unions (include/cglm/types-struct.h). -/
inductive Ty where
  | float
  | arr (elem : Ty) (n : Nat)
  | ptr (to_ : Ty)
  | union (name : String)
deriving DecidableEq, Repr

/-- `vec3`: include/cglm/types.h:81 -/
def vec3 : Ty := .arr .float 3
/-- `vec4`: include/cglm/types.h:82 -/
def vec4 : Ty := .arr .float 4
/-- `mat3`: include/cglm/types.h:84 -/
def mat3 : Ty := .arr vec3 3
/-- `mat4`: include/cglm/types.h:90 -/
def mat4 : Ty := .arr vec4 4
/-- `vec3s`, `vec4s`, `mat3s`, `mat4s`: include/cglm/types-struct.h -/
def vec3s : Ty := .union "vec3s"
@[inherit_doc vec3s] def vec4s : Ty := .union "vec4s"
@[inherit_doc vec3s] def mat3s : Ty := .union "mat3s"
@[inherit_doc vec3s] def mat4s : Ty := .union "mat4s"

/-- the type of an expression after lvalue conversion: an array becomes a pointer to its first element -/
def Ty.decay : Ty → Ty
  | .arr e _ => .ptr e
  | t => t

/-- `_Generic` without a default: the association with the type of the converted controlling expression; no association is a
constraint violation, so the translation unit is rejected (C17 6.5.1.1).  Distinct types of this list are not compatible. -/
def generic (assoc : List (Ty × String)) (t : Ty) : Option String := (assoc.find? fun a => a.1 = t.decay).map (·.2)

/-- the macro `applesimd` as it is after the whole header: include/cglm/applesimd.h:121-131 -/
def applesimd : Ty → Option String := generic
  [(mat4, "glm_mat4_applesimd"), (mat3, "glm_mat3_applesimd"), (vec4, "glm_vec4_applesimd"), (vec3, "glm_vec3_applesimd"),
   (mat4s, "glms_mat4_applesimd"), (mat3s, "glms_mat3_applesimd"), (vec4s, "glms_vec4_applesimd"), (vec3s, "glms_vec3_applesimd")]

end Cglm.Apple
