import Verif.Gen

/-!
# Functions modelled by hand

These use run-time indices or loops without a fixed bound, which the generator does not translate.
An access outside the declared array, which C leaves undefined, is `none`.
-/

namespace Cglm

variable {α : Type}

/-! ## Run-time indexing -/

/-- `v[i]` on a `vec2`; undefined outside 0..1. -/
@[cglm] def V2.get? (v : V2 α) (i : Int) : Option α :=
  if i = 0 then some v.x else if i = 1 then some v.y else none
/-- `v[i]` on a `vec3`; undefined outside 0..2. -/
@[cglm] def V3.get? (v : V3 α) (i : Int) : Option α :=
  if i = 0 then some v.x else if i = 1 then some v.y else if i = 2 then some v.z else none
/-- `v[i]` on a `vec4`; undefined outside 0..3. -/
@[cglm] def V4.get? (v : V4 α) (i : Int) : Option α :=
  if i = 0 then some v.x else if i = 1 then some v.y else if i = 2 then some v.z else if i = 3 then some v.w else none
/-- `v[i] = a` on a `vec2`. -/
@[cglm] def V2.set? (v : V2 α) (i : Int) (a : α) : Option (V2 α) :=
  if i = 0 then some ⟨a, v.y⟩
  else if i = 1 then some ⟨v.x, a⟩ else none
/-- `v[i] = a` on a `vec3`. -/
@[cglm] def V3.set? (v : V3 α) (i : Int) (a : α) : Option (V3 α) :=
  if i = 0 then some ⟨a, v.y, v.z⟩
  else if i = 1 then some ⟨v.x, a, v.z⟩
  else if i = 2 then some ⟨v.x, v.y, a⟩ else none
/-- `v[i] = a` on a `vec4`. -/
@[cglm] def V4.set? (v : V4 α) (i : Int) (a : α) : Option (V4 α) :=
  if i = 0 then some ⟨a, v.y, v.z, v.w⟩
  else if i = 1 then some ⟨v.x, a, v.z, v.w⟩
  else if i = 2 then some ⟨v.x, v.y, a, v.w⟩
  else if i = 3 then some ⟨v.x, v.y, v.z, a⟩ else none
/-- column `m[i]` of a `mat2`. -/
@[cglm] def M2.col? (m : M2 α) (i : Int) : Option (V2 α) :=
  if i = 0 then some m.c0 else if i = 1 then some m.c1 else none
/-- column `m[i]` of a `mat3`. -/
@[cglm] def M3.col? (m : M3 α) (i : Int) : Option (V3 α) :=
  if i = 0 then some m.c0 else if i = 1 then some m.c1 else if i = 2 then some m.c2 else none
/-- column `m[i]` of a `mat4`. -/
@[cglm] def M4.col? (m : M4 α) (i : Int) : Option (V4 α) :=
  if i = 0 then some m.c0 else if i = 1 then some m.c1 else if i = 2 then some m.c2 else if i = 3 then some m.c3 else none
/-- overwrite column `m[i]` of a `mat2`. -/
@[cglm] def M2.setCol? (m : M2 α) (i : Int) (v : V2 α) : Option (M2 α) :=
  if i = 0 then some ⟨v, m.c1⟩
  else if i = 1 then some ⟨m.c0, v⟩ else none
/-- overwrite column `m[i]` of a `mat3`. -/
@[cglm] def M3.setCol? (m : M3 α) (i : Int) (v : V3 α) : Option (M3 α) :=
  if i = 0 then some ⟨v, m.c1, m.c2⟩
  else if i = 1 then some ⟨m.c0, v, m.c2⟩
  else if i = 2 then some ⟨m.c0, m.c1, v⟩ else none
/-- overwrite column `m[i]` of a `mat4`. -/
@[cglm] def M4.setCol? (m : M4 α) (i : Int) (v : V4 α) : Option (M4 α) :=
  if i = 0 then some ⟨v, m.c1, m.c2, m.c3⟩
  else if i = 1 then some ⟨m.c0, v, m.c2, m.c3⟩
  else if i = 2 then some ⟨m.c0, m.c1, v, m.c3⟩
  else if i = 3 then some ⟨m.c0, m.c1, m.c2, v⟩ else none

/-! ## Line swaps -/

/-- `glm_mat4_swap_col`: include/cglm/mat4.h:725-732. -/
def glm_mat4_swap_col (mat : M4 α) (col1 col2 : Int) : Option (M4 α) := do
  let tmp ← mat.col? col1
  let b ← mat.col? col2
  let mat ← mat.setCol? col1 (glm_vec4_copy b)
  mat.setCol? col2 (glm_vec4_copy tmp)

/-- `glm_mat3_swap_col`: include/cglm/mat3.h:375-382. -/
def glm_mat3_swap_col (mat : M3 α) (col1 col2 : Int) : Option (M3 α) := do
  let tmp ← mat.col? col1
  let b ← mat.col? col2
  let mat ← mat.setCol? col1 (glm_vec3_copy b)
  mat.setCol? col2 (glm_vec3_copy tmp)

/-- `glm_mat2_swap_col`: include/cglm/mat2.h:275-288 (the two scalar temporaries are one column here). -/
def glm_mat2_swap_col (mat : M2 α) (col1 col2 : Int) : Option (M2 α) := do
  let tmp ← mat.col? col1
  let b ← mat.col? col2
  let mat ← mat.setCol? col1 b
  mat.setCol? col2 tmp

/-- `glm_mat4_swap_row`: include/cglm/mat4.h:741-759. -/
def glm_mat4_swap_row (m : M4 α) (row1 row2 : Int) : Option (M4 α) := do
  let t0 ← m.c0.get? row1
  let t1 ← m.c1.get? row1
  let t2 ← m.c2.get? row1
  let t3 ← m.c3.get? row1
  let c0 ← m.c0.set? row1 (← m.c0.get? row2)
  let c1 ← m.c1.set? row1 (← m.c1.get? row2)
  let c2 ← m.c2.set? row1 (← m.c2.get? row2)
  let c3 ← m.c3.set? row1 (← m.c3.get? row2)
  return ⟨← c0.set? row2 t0, ← c1.set? row2 t1, ← c2.set? row2 t2, ← c3.set? row2 t3⟩

/-- `glm_mat3_swap_row`: include/cglm/mat3.h:391-406. -/
def glm_mat3_swap_row (m : M3 α) (row1 row2 : Int) : Option (M3 α) := do
  let t0 ← m.c0.get? row1
  let t1 ← m.c1.get? row1
  let t2 ← m.c2.get? row1
  let c0 ← m.c0.set? row1 (← m.c0.get? row2)
  let c1 ← m.c1.set? row1 (← m.c1.get? row2)
  let c2 ← m.c2.set? row1 (← m.c2.get? row2)
  return ⟨← c0.set? row2 t0, ← c1.set? row2 t1, ← c2.set? row2 t2⟩

/-- `glm_mat2_swap_row`: include/cglm/mat2.h:297-310. -/
def glm_mat2_swap_row (m : M2 α) (row1 row2 : Int) : Option (M2 α) := do
  let a ← m.c0.get? row1
  let b ← m.c1.get? row1
  let c0 ← m.c0.set? row1 (← m.c0.get? row2)
  let c1 ← m.c1.set? row1 (← m.c1.get? row2)
  return ⟨← c0.set? row2 a, ← c1.set? row2 b⟩

/-! ## Swizzles -/

/-- `(mask & (3 << (2*k))) >> (2*k)` for a 32-bit `int` mask: the k-th two-bit field. -/
def maskField (mask : BitVec 32) (k : Nat) : Int :=
  (((mask &&& (3#32 <<< (2 * k))) >>> (2 * k)).toNat : Int)

/-- `glm_vec2_swizzle`: include/cglm/vec2.h:691-700. -/
def glm_vec2_swizzle (v : V2 α) (mask : BitVec 32) : Option (V2 α) := do
  return ⟨← v.get? (maskField mask 0), ← v.get? (maskField mask 1)⟩

/-- `glm_vec3_swizzle`: include/cglm/vec3.h:1110-1120. -/
def glm_vec3_swizzle (v : V3 α) (mask : BitVec 32) : Option (V3 α) := do
  return ⟨← v.get? (maskField mask 0), ← v.get? (maskField mask 1), ← v.get? (maskField mask 2)⟩

/-- `glm_vec4_swizzle`: include/cglm/vec4.h:1266-1277. -/
def glm_vec4_swizzle (v : V4 α) (mask : BitVec 32) : Option (V4 α) := do
  return ⟨← v.get? (maskField mask 0), ← v.get? (maskField mask 1), ← v.get? (maskField mask 2),
    ← v.get? (maskField mask 3)⟩

/-- `GLM_SHUFFLE4(z, y, x, w)`: include/cglm/common.h:54. -/
def GLM_SHUFFLE4 (z y x w : BitVec 32) : BitVec 32 := (z <<< 6) ||| (y <<< 4) ||| (x <<< 2) ||| w
/-- `GLM_SHUFFLE3(z, y, x)`: include/cglm/common.h:55. -/
def GLM_SHUFFLE3 (z y x : BitVec 32) : BitVec 32 := (z <<< 4) ||| (y <<< 2) ||| x
/-- `GLM_SHUFFLE2(y, x)`: include/cglm/common.h:56. -/
def GLM_SHUFFLE2 (y x : BitVec 32) : BitVec 32 := (y <<< 2) ||| x

/-! ## Loops over caller arrays -/

section
variable [Add α] [Sub α] [Mul α] [Div α] [Neg α] [CFloat α]

/-- the loop `for (i = 2; i < len; i++) glm_mat4_mul(dest, *matrices[i], dest)` of `glm_mat4_mulN`:
include/cglm/mat4.h:386-387.  `fuel` is `len - i`; reading past the array is undefined. -/
def glm_mat4_mulN_loop (ms : List (M4 α)) (i : Nat) (dest : M4 α) : Nat → Option (M4 α)
  | 0 => some dest
  | fuel + 1 => do
    let m ← ms[i]?
    glm_mat4_mulN_loop ms (i + 1) (glm_mat4_mul dest m) fuel

/-- `glm_mat4_mulN`: include/cglm/mat4.h:375-388, with assertions disabled (NDEBUG).  `ms` lists the matrices the
pointer array points to; `len` is the count argument. -/
def glm_mat4_mulN (ms : List (M4 α)) (len : Nat) : Option (M4 α) := do
  let a ← ms[0]?
  let b ← ms[1]?
  glm_mat4_mulN_loop ms 2 (glm_mat4_mul a b) (len - 2)

/-- the loop `for (i = 0; i < count; i++) copy(t, arr[i])` shared by the `*_identity_array` functions: write the value
`t` to cells i, i+1, ..., with `fuel` = `count - i`; a write past the array is undefined. -/
def fillLoop {β : Type} (t : β) (arr : List β) (i : Nat) : Nat → Option (List β)
  | 0 => some arr
  | fuel + 1 => if i < arr.length then fillLoop t (arr.set i t) (i + 1) fuel else none

/-- `glm_mat4_identity_array`: include/cglm/mat4.h:182-191. -/
def glm_mat4_identity_array (mats : List (M4 α)) (count : Nat) : Option (List (M4 α)) :=
  fillLoop (glm_mat4_copy ⟨⟨lit 1, lit 0, lit 0, lit 0⟩, ⟨lit 0, lit 1, lit 0, lit 0⟩, ⟨lit 0, lit 0, lit 1, lit 0⟩,
    ⟨lit 0, lit 0, lit 0, lit 1⟩⟩) mats 0 count

/-- `glm_mat3_identity_array`: include/cglm/mat3.h:117-126. -/
def glm_mat3_identity_array (mats : List (M3 α)) (count : Nat) : Option (List (M3 α)) :=
  fillLoop (glm_mat3_copy ⟨⟨lit 1, lit 0, lit 0⟩, ⟨lit 0, lit 1, lit 0⟩, ⟨lit 0, lit 0, lit 1⟩⟩) mats 0 count

/-- `glm_mat2_identity_array`: include/cglm/mat2.h:115-124. -/
def glm_mat2_identity_array (mats : List (M2 α)) (count : Nat) : Option (List (M2 α)) :=
  fillLoop (glm_mat2_copy ⟨⟨lit 1, lit 0⟩, ⟨lit 0, lit 1⟩⟩) mats 0 count

/-- `glm_quat_identity_array`: include/cglm/quat.h:114-123. -/
def glm_quat_identity_array (qs : List (V4 α)) (count : Nat) : Option (List (V4 α)) :=
  fillLoop (glm_vec4_copy ⟨lit 0, lit 0, lit 0, lit 1⟩) qs 0 count

/-! ## Curve matrices -/

/-- `GLM_BEZIER_MAT`: include/cglm/bezier.h:13-16. -/
def GLM_BEZIER_MAT : M4 α :=
  ⟨⟨-(lit 1), lit 3, -(lit 3), lit 1⟩, ⟨lit 3, -(lit 6), lit 3, lit 0⟩, ⟨-(lit 3), lit 3, lit 0, lit 0⟩, ⟨lit 1, lit 0, lit 0, lit 0⟩⟩

/-- `GLM_HERMITE_MAT`: include/cglm/bezier.h:17-20. -/
def GLM_HERMITE_MAT : M4 α :=
  ⟨⟨lit 2, -(lit 3), lit 0, lit 1⟩, ⟨-(lit 2), lit 3, lit 0, lit 0⟩, ⟨lit 1, -(lit 2), lit 1, lit 0⟩, ⟨lit 1, -(lit 1), lit 0, lit 0⟩⟩

/-! ## De Casteljau solver -/

/-- loop state of `glm_decasteljau` (include/cglm/bezier.h:112) -/
structure DC (α : Type) where
  p0 : α
  c0 : α
  c1 : α
  p1 : α
  u : α
  v : α

/-- one pass of the loop body, include/cglm/bezier.h:125-148: `.inl t` is `return t`, `.inr s` goes on. -/
def glm_decasteljau_step (prm : α) (s : DC α) : α ⊕ DC α :=
  let a := (s.p0 + s.c0) * lit 0.5
  let b := (s.c0 + s.c1) * lit 0.5
  let c := (s.c1 + s.p1) * lit 0.5
  let d := (a + b) * lit 0.5
  let e := (b + c) * lit 0.5
  let f := (d + e) * lit 0.5
  if flt (fabsf (f - prm)) (lit (1 / 10 ^ 9)) then
    .inl (glm_clamp_zo ((s.u + s.v) * lit 0.5))
  else if flt f prm then
    .inr { s with p0 := f, c0 := e, c1 := c, u := (s.u + s.v) * lit 0.5 }
  else
    .inr { s with c0 := a, c1 := d, p1 := f, v := (s.u + s.v) * lit 0.5 }

/-- the loop of `glm_decasteljau` with `fuel` passes left, include/cglm/bezier.h:124-151. -/
def glm_decasteljau_loop (prm : α) (s : DC α) : Nat → α
  | 0 => glm_clamp_zo ((s.u + s.v) * lit 0.5)
  | fuel + 1 =>
    match glm_decasteljau_step prm s with
    | .inl t => t
    | .inr s' => glm_decasteljau_loop prm s' fuel

/-- `glm_decasteljau`: include/cglm/bezier.h:109-152 (`CGLM_DECASTEL_MAX` = 1000, `CGLM_DECASTEL_EPS` = 1e-9,
`CGLM_DECASTEL_SMALL` = 1e-20, include/cglm/bezier.h:25-27). -/
def glm_decasteljau (prm p0 c0 c1 p1 : α) : α :=
  if flt (prm - p0) (lit (1 / 10 ^ 20)) then lit 0
  else if flt (p1 - prm) (lit (1 / 10 ^ 20)) then lit 1
  else glm_decasteljau_loop prm ⟨p0, c0, c1, p1, lit 0, lit 1⟩ 1000

end

/-- `glm_euler_order`: include/cglm/euler.h:105-109, for 32-bit `int` entries (shifts on the bit pattern). -/
def glm_euler_order (o0 o1 o2 : BitVec 32) : BitVec 32 := (o0 <<< 0) ||| (o1 <<< 2) ||| (o2 <<< 4)

end Cglm
