import Verif.Hand
import Verif.GenStruct

/-!
# Wrappers modelled by hand

The struct-API and compiled-call wrappers of the functions of `Verif.Hand`, and the loops over caller arrays of the
struct API.
-/

namespace Cglm

variable {α : Type}

/-- the loop `for (i = 0; i < len; i++) copy(src[i], dst[i])`, with `fuel` = `len - i`: reading past `src` or writing past
`dst` is undefined. -/
def copyLoop {β : Type} (copy : β → β) (src dst : List β) (i : Nat) : Nat → Option (List β)
  | 0 => some dst
  | fuel + 1 => do
    let s ← src[i]?
    if i < dst.length then copyLoop copy src (dst.set i (copy s)) (i + 1) fuel else none

/-- `glms_vec2_pack`: include/cglm/struct/vec2.h:98-106.  A `vec2s` is a union over a `vec2`, so both arrays hold the same values. -/
def glms_vec2_pack (dst src : List (V2 α)) (len : Nat) : Option (List (V2 α)) :=
  copyLoop glm_vec2_copy src dst 0 len

/-- `glms_vec2_unpack`: include/cglm/struct/vec2.h:115-123.  A `vec2s` is a union over a `vec2`, so both arrays hold the same values. -/
def glms_vec2_unpack (dst src : List (V2 α)) (len : Nat) : Option (List (V2 α)) :=
  copyLoop glm_vec2_copy src dst 0 len

/-- `glms_vec3_pack`: include/cglm/struct/vec3.h:134-142.  A `vec3s` is a union over a `vec3`, so both arrays hold the same values. -/
def glms_vec3_pack (dst src : List (V3 α)) (len : Nat) : Option (List (V3 α)) :=
  copyLoop glm_vec3_copy src dst 0 len

/-- `glms_vec3_unpack`: include/cglm/struct/vec3.h:151-159.  A `vec3s` is a union over a `vec3`, so both arrays hold the same values. -/
def glms_vec3_unpack (dst src : List (V3 α)) (len : Nat) : Option (List (V3 α)) :=
  copyLoop glm_vec3_copy src dst 0 len

/-- `glms_vec4_pack`: include/cglm/struct/vec4.h:162-170.  A `vec4s` is a union over a `vec4`, so both arrays hold the same values. -/
def glms_vec4_pack (dst src : List (V4 α)) (len : Nat) : Option (List (V4 α)) :=
  copyLoop glm_vec4_copy src dst 0 len

/-- `glms_vec4_unpack`: include/cglm/struct/vec4.h:179-187.  A `vec4s` is a union over a `vec4`, so both arrays hold the same values. -/
def glms_vec4_unpack (dst src : List (V4 α)) (len : Nat) : Option (List (V4 α)) :=
  copyLoop glm_vec4_copy src dst 0 len

/-- `glms_mat2_swap_col`: include/cglm/struct/mat2.h:203-208. -/
def glms_mat2_swap_col (mat : M2 α) (col1 col2 : Int) : Option (M2 α) := glm_mat2_swap_col mat col1 col2
/-- `glmc_mat2_swap_col`: src/mat2.c:77-81. -/
def glmc_mat2_swap_col (mat : M2 α) (col1 col2 : Int) : Option (M2 α) := glm_mat2_swap_col mat col1 col2

/-- `glms_mat2_swap_row`: include/cglm/struct/mat2.h:218-223. -/
def glms_mat2_swap_row (mat : M2 α) (row1 row2 : Int) : Option (M2 α) := glm_mat2_swap_row mat row1 row2
/-- `glmc_mat2_swap_row`: src/mat2.c:83-87. -/
def glmc_mat2_swap_row (mat : M2 α) (row1 row2 : Int) : Option (M2 α) := glm_mat2_swap_row mat row1 row2

/-- `glms_mat3_swap_col`: include/cglm/struct/mat3.h:248-253. -/
def glms_mat3_swap_col (mat : M3 α) (col1 col2 : Int) : Option (M3 α) := glm_mat3_swap_col mat col1 col2
/-- `glmc_mat3_swap_col`: src/mat3.c:89-93. -/
def glmc_mat3_swap_col (mat : M3 α) (col1 col2 : Int) : Option (M3 α) := glm_mat3_swap_col mat col1 col2

/-- `glms_mat3_swap_row`: include/cglm/struct/mat3.h:263-268. -/
def glms_mat3_swap_row (mat : M3 α) (row1 row2 : Int) : Option (M3 α) := glm_mat3_swap_row mat row1 row2
/-- `glmc_mat3_swap_row`: src/mat3.c:95-99. -/
def glmc_mat3_swap_row (mat : M3 α) (row1 row2 : Int) : Option (M3 α) := glm_mat3_swap_row mat row1 row2

/-- `glms_mat4_swap_col`: include/cglm/struct/mat4.h:422-427. -/
def glms_mat4_swap_col (mat : M4 α) (col1 col2 : Int) : Option (M4 α) := glm_mat4_swap_col mat col1 col2
/-- `glmc_mat4_swap_col`: src/mat4.c:149-153. -/
def glmc_mat4_swap_col (mat : M4 α) (col1 col2 : Int) : Option (M4 α) := glm_mat4_swap_col mat col1 col2

/-- `glms_mat4_swap_row`: include/cglm/struct/mat4.h:437-442. -/
def glms_mat4_swap_row (mat : M4 α) (row1 row2 : Int) : Option (M4 α) := glm_mat4_swap_row mat row1 row2
/-- `glmc_mat4_swap_row`: src/mat4.c:155-159. -/
def glmc_mat4_swap_row (mat : M4 α) (row1 row2 : Int) : Option (M4 α) := glm_mat4_swap_row mat row1 row2

/-- `glmc_vec2_swizzle`: src/vec2.c:312-316. -/
def glmc_vec2_swizzle (v : V2 α) (mask : BitVec 32) : Option (V2 α) := glm_vec2_swizzle v mask

/-- `glms_vec3_swizzle`: include/cglm/struct/vec3.h:1057-1063. -/
def glms_vec3_swizzle (v : V3 α) (mask : BitVec 32) : Option (V3 α) := glm_vec3_swizzle v mask
/-- `glmc_vec3_swizzle`: src/vec3.c:341-345. -/
def glmc_vec3_swizzle (v : V3 α) (mask : BitVec 32) : Option (V3 α) := glm_vec3_swizzle v mask

/-- `glms_vec4_swizzle`: include/cglm/struct/vec4.h:900-906. -/
def glms_vec4_swizzle (v : V4 α) (mask : BitVec 32) : Option (V4 α) := glm_vec4_swizzle v mask
/-- `glmc_vec4_swizzle`: src/vec4.c:305-309. -/
def glmc_vec4_swizzle (v : V4 α) (mask : BitVec 32) : Option (V4 α) := glm_vec4_swizzle v mask

section
variable [Add α] [Sub α] [Mul α] [Div α] [Neg α] [CFloat α]

/-- `glms_mat2_identity_array`: include/cglm/struct/mat2.h:93-102. -/
def glms_mat2_identity_array (mats : List (M2 α)) (count : Nat) : Option (List (M2 α)) :=
  fillLoop (glm_mat2_copy ⟨⟨lit 1, lit 0⟩, ⟨lit 0, lit 1⟩⟩) mats 0 count
/-- `glmc_mat2_identity_array`: src/mat2.c:29-33. -/
def glmc_mat2_identity_array (mats : List (M2 α)) (count : Nat) : Option (List (M2 α)) := glm_mat2_identity_array mats count

/-- `glms_mat3_identity_array`: include/cglm/struct/mat3.h:97-106. -/
def glms_mat3_identity_array (mats : List (M3 α)) (count : Nat) : Option (List (M3 α)) :=
  fillLoop (glm_mat3_copy ⟨⟨lit 1, lit 0, lit 0⟩, ⟨lit 0, lit 1, lit 0⟩, ⟨lit 0, lit 0, lit 1⟩⟩) mats 0 count
/-- `glmc_mat3_identity_array`: src/mat3.c:29-33. -/
def glmc_mat3_identity_array (mats : List (M3 α)) (count : Nat) : Option (List (M3 α)) := glm_mat3_identity_array mats count

/-- `glms_mat4_identity_array`: include/cglm/struct/mat4.h:129-138. -/
def glms_mat4_identity_array (mats : List (M4 α)) (count : Nat) : Option (List (M4 α)) :=
  fillLoop (glm_mat4_copy ⟨⟨lit 1, lit 0, lit 0, lit 0⟩, ⟨lit 0, lit 1, lit 0, lit 0⟩, ⟨lit 0, lit 0, lit 1, lit 0⟩,
    ⟨lit 0, lit 0, lit 0, lit 1⟩⟩) mats 0 count
/-- `glmc_mat4_identity_array`: src/mat4.c:29-33. -/
def glmc_mat4_identity_array (mats : List (M4 α)) (count : Nat) : Option (List (M4 α)) := glm_mat4_identity_array mats count

/-- `glms_quat_identity_array`: include/cglm/struct/quat.h:96-105. -/
def glms_quat_identity_array (q : List (V4 α)) (count : Nat) : Option (List (V4 α)) :=
  fillLoop (glm_vec4_copy ⟨lit 0, lit 0, lit 0, lit 1⟩) q 0 count
/-- `glmc_quat_identity_array`: src/quat.c:17-21. -/
def glmc_quat_identity_array (q : List (V4 α)) (count : Nat) : Option (List (V4 α)) := glm_quat_identity_array q count

/-- the loop of `glms_mat4_mulN`, include/cglm/struct/mat4.h:244-246; `fuel` is `len - i`. -/
def glms_mat4_mulN_loop (ms : List (M4 α)) (i : Nat) (r : M4 α) : Nat → Option (M4 α)
  | 0 => some r
  | fuel + 1 => do
    let m ← ms[i]?
    glms_mat4_mulN_loop ms (i + 1) (glms_mat4_mul r m) fuel

/-- `glms_mat4_mulN`: include/cglm/struct/mat4.h:238-249. -/
def glms_mat4_mulN (ms : List (M4 α)) (len : Nat) : Option (M4 α) :=
  glms_mat4_mulN_loop ms 0 ⟨⟨lit 1, lit 0, lit 0, lit 0⟩, ⟨lit 0, lit 1, lit 0, lit 0⟩, ⟨lit 0, lit 0, lit 1, lit 0⟩,
    ⟨lit 0, lit 0, lit 0, lit 1⟩⟩ len

/-- `glmc_mat4_mulN`: src/mat4.c:65-69. -/
def glmc_mat4_mulN (ms : List (M4 α)) (len : Nat) : Option (M4 α) := glm_mat4_mulN ms len

/-- `glmc_decasteljau`: src/bezier.c:23-27. -/
def glmc_decasteljau (prm p0 c0 c1 p1 : α) : α := glm_decasteljau prm p0 c0 c1 p1

/-- the `vec4[8]` array held in a list of exactly eight vectors -/
def M8x4.ofList? : List (V4 α) → Option (M8x4 α)
  | [a, b, c, d, e, f, g, h] => some ⟨a, b, c, d, e, f, g, h⟩
  | _ => none

/-- `glms_frustum_corners_at`: include/cglm/struct/frustum.h:141-153.  `corners` and `planeCorners` are the
caller's arrays, `raw` the initial (indeterminate) content of the local `vec4 rawCorners[8]`; the local
`rawPlaneCorners` has four entries. -/
def glms_frustum_corners_at (raw : List (V4 α)) (corners : List (V4 α)) (splitDist farDist : α) (planeCorners : List (V4 α)) :
    Option (List (V4 α)) := do
  let rawCorners ← M8x4.ofList? (← glms_vec4_unpack raw corners 8)
  let p := glm_frustum_corners_at rawCorners splitDist farDist
  glms_vec4_pack planeCorners [p.c0, p.c1, p.c2, p.c3] 8

end

end Cglm
