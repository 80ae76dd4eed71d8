/- Generated from include/cglm/quat.h by tools/gen.py (value semantics); do not edit by hand. -/
import Verif.Base
import Verif.Attr
import Verif.Gen.Affine
import Verif.Gen.AffineMat
import Verif.Gen.AffinePre
import Verif.Gen.Mat3
import Verif.Gen.Mat4
import Verif.Gen.Vec3
import Verif.Gen.Vec4

set_option linter.unusedVariables false
set_option linter.unusedSectionVars false

namespace Cglm

variable {α : Type} [Add α] [Sub α] [Mul α] [Div α] [Neg α] [CFloat α]

/-- `glm_quat_identity`: include/cglm/quat.h:99-104. -/
@[cglm]
def glm_quat_identity : V4 α :=
  glm_vec4_copy ⟨lit 0, lit 0, lit 0, lit 1⟩

/-- `glm_quat_init`: include/cglm/quat.h:134-141. -/
@[cglm]
def glm_quat_init (x : α) (y : α) (z : α) (w : α) : V4 α :=
  ⟨x, y, z, w⟩

/-- `glm_quatv`: include/cglm/quat.h:150-166. -/
@[cglm]
def glm_quatv (angle : α) (axis : V3 α) : V4 α :=
  let a := angle * (lit 0.5)
  let c := cosf a
  let s := sinf a
  let k := glm_normalize_to axis
  ⟨s * k.x, s * k.y, s * k.z, c⟩

/-- `glm_quat`: include/cglm/quat.h:177-182. -/
@[cglm]
def glm_quat (angle : α) (x : α) (y : α) (z : α) : V4 α :=
  glm_quatv angle ⟨x, y, z⟩

/-- `glm_quat_copy`: include/cglm/quat.h:190-194. -/
@[cglm]
def glm_quat_copy (q : V4 α) : V4 α :=
  glm_vec4_copy q

/-- `glm_quat_norm`: include/cglm/quat.h:232-236. -/
@[cglm]
def glm_quat_norm (q : V4 α) : α :=
  glm_vec4_norm q

/-- `glm_quat_normalize_to`: include/cglm/quat.h:244-288. -/
@[cglm]
def glm_quat_normalize_to (q : V4 α) : V4 α :=
  let dot := glm_vec4_norm2 q
  if fle dot (lit 0) then
    glm_quat_identity
  else
    glm_vec4_scale q ((lit 1) / sqrtf dot)

/-- `glm_quat_normalize`: include/cglm/quat.h:295-299. -/
@[cglm]
def glm_quat_normalize (q : V4 α) : V4 α :=
  glm_quat_normalize_to q

/-- `glm_quat_dot`: include/cglm/quat.h:307-311. -/
@[cglm]
def glm_quat_dot (p : V4 α) (q : V4 α) : α :=
  glm_vec4_dot p q

/-- `glm_quat_conjugate`: include/cglm/quat.h:319-324. -/
@[cglm]
def glm_quat_conjugate (q : V4 α) : V4 α :=
  let dest_1 := glm_vec4_negate_to q
  ⟨dest_1.x, dest_1.y, dest_1.z, -dest_1.w⟩

/-- `glm_quat_inv`: include/cglm/quat.h:332-338. -/
@[cglm]
def glm_quat_inv (q : V4 α) : V4 α :=
  let conj := glm_quat_conjugate q
  glm_vec4_scale conj ((lit 1) / glm_vec4_norm2 q)

/-- `glm_quat_add`: include/cglm/quat.h:347-351. -/
@[cglm]
def glm_quat_add (p : V4 α) (q : V4 α) : V4 α :=
  glm_vec4_add p q

/-- `glm_quat_sub`: include/cglm/quat.h:360-364. -/
@[cglm]
def glm_quat_sub (p : V4 α) (q : V4 α) : V4 α :=
  glm_vec4_sub p q

/-- `glm_quat_real`: include/cglm/quat.h:371-375. -/
@[cglm]
def glm_quat_real (q : V4 α) : α :=
  q.w

/-- `glm_quat_imag`: include/cglm/quat.h:383-389. -/
@[cglm]
def glm_quat_imag (q : V4 α) : V3 α :=
  ⟨q.x, q.y, q.z⟩

/-- `glm_quat_imagn`: include/cglm/quat.h:396-400. -/
@[cglm]
def glm_quat_imagn (q : V4 α) : V3 α :=
  glm_normalize_to ⟨q.x, q.y, q.z⟩

/-- `glm_quat_imaglen`: include/cglm/quat.h:407-411. -/
@[cglm]
def glm_quat_imaglen (q : V4 α) : α :=
  glm_vec3_norm ⟨q.x, q.y, q.z⟩

/-- `glm_quat_angle`: include/cglm/quat.h:418-427. -/
@[cglm]
def glm_quat_angle (q : V4 α) : α :=
  (lit 2) * atan2f (glm_quat_imaglen q) (glm_quat_real q)

/-- `glm_quat_axis`: include/cglm/quat.h:435-439. -/
@[cglm]
def glm_quat_axis (q : V4 α) : V3 α :=
  glm_quat_imagn q

/-- `glm_quat_mul`: include/cglm/quat.h:453-474. -/
@[cglm]
def glm_quat_mul (p : V4 α) (q : V4 α) : V4 α :=
  ⟨p.w * q.x + p.x * q.w + p.y * q.z - p.z * q.y, p.w * q.y - p.x * q.z + p.y * q.w + p.z * q.x, p.w * q.z + p.x * q.y - p.y * q.x + p.z * q.w, p.w * q.w - p.x * q.x - p.y * q.y - p.z * q.z⟩

/-- `glm_quat_mat4`: include/cglm/quat.h:482-521. -/
@[cglm]
def glm_quat_mat4 (q : V4 α) : M4 α :=
  let norm := glm_quat_norm q
  let s := if flt (lit 0) norm then (lit 2) / norm else lit 0
  let x := q.x
  let y := q.y
  let z := q.z
  let w := q.w
  let xx := s * x * x
  let xy := s * x * y
  let wx := s * w * x
  let yy := s * y * y
  let yz := s * y * z
  let wy := s * w * y
  let zz := s * z * z
  let xz := s * x * z
  let wz := s * w * z
  ⟨⟨(lit 1) - yy - zz, xy + wz, xz - wy, lit 0⟩, ⟨xy - wz, (lit 1) - xx - zz, yz + wx, lit 0⟩, ⟨xz + wy, yz - wx, (lit 1) - xx - yy, lit 0⟩, ⟨lit 0, lit 0, lit 0, lit 1⟩⟩

/-- `glm_quat_mat4t`: include/cglm/quat.h:529-568. -/
@[cglm]
def glm_quat_mat4t (q : V4 α) : M4 α :=
  let norm := glm_quat_norm q
  let s := if flt (lit 0) norm then (lit 2) / norm else lit 0
  let x := q.x
  let y := q.y
  let z := q.z
  let w := q.w
  let xx := s * x * x
  let xy := s * x * y
  let wx := s * w * x
  let yy := s * y * y
  let yz := s * y * z
  let wy := s * w * y
  let zz := s * z * z
  let xz := s * x * z
  let wz := s * w * z
  ⟨⟨(lit 1) - yy - zz, xy - wz, xz + wy, lit 0⟩, ⟨xy + wz, (lit 1) - xx - zz, yz - wx, lit 0⟩, ⟨xz - wy, yz + wx, (lit 1) - xx - yy, lit 0⟩, ⟨lit 0, lit 0, lit 0, lit 1⟩⟩

/-- `glm_quat_mat3`: include/cglm/quat.h:576-607. -/
@[cglm]
def glm_quat_mat3 (q : V4 α) : M3 α :=
  let norm := glm_quat_norm q
  let s := if flt (lit 0) norm then (lit 2) / norm else lit 0
  let x := q.x
  let y := q.y
  let z := q.z
  let w := q.w
  let xx := s * x * x
  let xy := s * x * y
  let wx := s * w * x
  let yy := s * y * y
  let yz := s * y * z
  let wy := s * w * y
  let zz := s * z * z
  let xz := s * x * z
  let wz := s * w * z
  ⟨⟨(lit 1) - yy - zz, xy + wz, xz - wy⟩, ⟨xy - wz, (lit 1) - xx - zz, yz + wx⟩, ⟨xz + wy, yz - wx, (lit 1) - xx - yy⟩⟩

/-- `glm_quat_mat3t`: include/cglm/quat.h:615-646. -/
@[cglm]
def glm_quat_mat3t (q : V4 α) : M3 α :=
  let norm := glm_quat_norm q
  let s := if flt (lit 0) norm then (lit 2) / norm else lit 0
  let x := q.x
  let y := q.y
  let z := q.z
  let w := q.w
  let xx := s * x * x
  let xy := s * x * y
  let wx := s * w * x
  let yy := s * y * y
  let yz := s * y * z
  let wy := s * w * y
  let zz := s * z * z
  let xz := s * x * z
  let wz := s * w * z
  ⟨⟨(lit 1) - yy - zz, xy - wz, xz + wy⟩, ⟨xy + wz, (lit 1) - xx - zz, yz - wx⟩, ⟨xz - wy, yz + wx, (lit 1) - xx - yy⟩⟩

/-- `glm_quat_lerp`: include/cglm/quat.h:657-661. -/
@[cglm]
def glm_quat_lerp (frm : V4 α) (to : V4 α) (t : α) : V4 α :=
  glm_vec4_lerp frm to t

/-- `glm_quat_lerpc`: include/cglm/quat.h:672-676. -/
@[cglm]
def glm_quat_lerpc (frm : V4 α) (to : V4 α) (t : α) : V4 α :=
  glm_vec4_lerpc frm to t

/-- `glm_quat_nlerp`: include/cglm/quat.h:688-699. -/
@[cglm]
def glm_quat_nlerp (frm : V4 α) (to : V4 α) (t : α) : V4 α :=
  let dot := glm_vec4_dot frm to
  let target := glm_vec4_scale to (if fle (lit 0) dot then lit 1 else -(lit 1))
  let dest_1 := glm_quat_lerp frm target t
  glm_quat_normalize dest_1

/-- `glm_quat_slerp`: include/cglm/quat.h:710-744. -/
@[cglm]
def glm_quat_slerp (frm : V4 α) (to : V4 α) (t : α) : V4 α :=
  let cosTheta := glm_quat_dot frm to
  let q1 := glm_quat_copy frm
  if fle (lit 1) (fabsf cosTheta) then
    glm_quat_copy q1
  else
    if flt cosTheta (lit 0) then
      let q1_1 := glm_vec4_negate q1
      let cosTheta_1 := -cosTheta
      let sinTheta := sqrtf ((lit 1) - cosTheta_1 * cosTheta_1)
      if flt (fabsf sinTheta) (lit 0.001) then
        glm_quat_lerp frm to t
      else
        let angle := acosf cosTheta_1
        let q1_2 := glm_vec4_scale q1_1 (sinf (((lit 1) - t) * angle))
        let q2 := glm_vec4_scale to (sinf (t * angle))
        let q1_3 := glm_vec4_add q1_2 q2
        glm_vec4_scale q1_3 ((lit 1) / sinTheta)
    else
      let sinTheta := sqrtf ((lit 1) - cosTheta * cosTheta)
      if flt (fabsf sinTheta) (lit 0.001) then
        glm_quat_lerp frm to t
      else
        let angle := acosf cosTheta
        let q1_1 := glm_vec4_scale q1 (sinf (((lit 1) - t) * angle))
        let q2 := glm_vec4_scale to (sinf (t * angle))
        let q1_2 := glm_vec4_add q1_1 q2
        glm_vec4_scale q1_2 ((lit 1) / sinTheta)

/-- `glm_quat_slerp_longest`: include/cglm/quat.h:755-790. -/
@[cglm]
def glm_quat_slerp_longest (frm : V4 α) (to : V4 α) (t : α) : V4 α :=
  let cosTheta := glm_quat_dot frm to
  let q1 := glm_quat_copy frm
  if fle (lit 1) (fabsf cosTheta) then
    glm_quat_copy q1
  else
    if !(flt cosTheta (lit 0)) then
      let q1_1 := glm_vec4_negate q1
      let cosTheta_1 := -cosTheta
      let sinTheta := sqrtf ((lit 1) - cosTheta_1 * cosTheta_1)
      if flt (fabsf sinTheta) (lit 0.001) then
        glm_quat_lerp frm to t
      else
        let angle := acosf cosTheta_1
        let q1_2 := glm_vec4_scale q1_1 (sinf (((lit 1) - t) * angle))
        let q2 := glm_vec4_scale to (sinf (t * angle))
        let q1_3 := glm_vec4_add q1_2 q2
        glm_vec4_scale q1_3 ((lit 1) / sinTheta)
    else
      let sinTheta := sqrtf ((lit 1) - cosTheta * cosTheta)
      if flt (fabsf sinTheta) (lit 0.001) then
        glm_quat_lerp frm to t
      else
        let angle := acosf cosTheta
        let q1_1 := glm_vec4_scale q1 (sinf (((lit 1) - t) * angle))
        let q2 := glm_vec4_scale to (sinf (t * angle))
        let q1_2 := glm_vec4_add q1_1 q2
        glm_vec4_scale q1_2 ((lit 1) / sinTheta)

/-- `glm_quat_look`: include/cglm/quat.h:799-808. -/
@[cglm]
def glm_quat_look (eye : V3 α) (ori : V4 α) : M4 α :=
  let dest_1 := glm_quat_mat4t ori
  let dest_12 := glm_mat4_mulv3 dest_1 eye (lit 1)
  let dest_12_1 := glm_vec3_negate dest_12
  ⟨dest_1.c0, dest_1.c1, dest_1.c2, ⟨dest_12_1.x, dest_12_1.y, dest_12_1.z, dest_1.c3.w⟩⟩

/-- `glm_quat_for`: include/cglm/quat.h:817-831. -/
@[cglm]
def glm_quat_for (dir : V3 α) (up : V3 α) : V4 α :=
  let m_6 := glm_vec3_normalize_to dir
  let m_6_1 := glm_vec3_negate m_6
  let m_0 := glm_vec3_crossn up m_6_1
  let m_3 := glm_vec3_cross m_6_1 m_0
  glm_mat3_quat ⟨m_0, m_3, m_6_1⟩

/-- `glm_quat_forp`: include/cglm/quat.h:842-848. -/
@[cglm]
def glm_quat_forp (frm : V3 α) (to : V3 α) (up : V3 α) : V4 α :=
  let dir := glm_vec3_sub to frm
  glm_quat_for dir up

/-- `glm_quat_rotatev`: include/cglm/quat.h:857-876. -/
@[cglm]
def glm_quat_rotatev (q : V4 α) (v : V3 α) : V3 α :=
  let p := glm_quat_normalize_to q
  let u := glm_quat_imag p
  let s := glm_quat_real p
  let v1 := glm_vec3_scale u ((lit 2) * glm_vec3_dot u v)
  let v2 := glm_vec3_scale v (s * s - glm_vec3_dot u u)
  let v1_1 := glm_vec3_add v1 v2
  let v2_1 := glm_vec3_cross u v
  let v2_2 := glm_vec3_scale v2_1 ((lit 2) * s)
  glm_vec3_add v1_1 v2_2

/-- `glm_quat_rotate`: include/cglm/quat.h:885-891. -/
@[cglm]
def glm_quat_rotate (m : M4 α) (q : V4 α) : M4 α :=
  let rot := glm_quat_mat4 q
  glm_mul_rot m rot

/-- `glm_quat_rotate_at`: include/cglm/quat.h:900-910. -/
@[cglm]
def glm_quat_rotate_at (m : M4 α) (q : V4 α) (pivot : V3 α) : M4 α :=
  let pivotInv := glm_vec3_negate_to pivot
  let m_1 := glm_translate m pivot
  let m_2 := glm_quat_rotate m_1 q
  glm_translate m_2 pivotInv

/-- `glm_quat_rotate_atm`: include/cglm/quat.h:924-934. -/
@[cglm]
def glm_quat_rotate_atm (q : V4 α) (pivot : V3 α) : M4 α :=
  let pivotInv := glm_vec3_negate_to pivot
  let m_1 := glm_translate_make pivot
  let m_2 := glm_quat_rotate m_1 q
  glm_translate m_2 pivotInv

/-- `glm_quat_make`: include/cglm/quat.h:942-947. -/
@[cglm]
def glm_quat_make (src : V4 α) : V4 α :=
  src

/-- `glm_quat_from_vecs`: include/cglm/quat.h:203-225. -/
@[cglm]
def glm_quat_from_vecs (a : V3 α) (b : V3 α) : V4 α :=
  let cos_theta := glm_vec3_dot a b
  if fle ((lit 1) - (lit 0.00001)) cos_theta then
    glm_quat_identity
  else
    if flt cos_theta (-(lit 1) + (lit 0.00001)) then
      let axis := glm_vec3_ortho a
      let dest_1 := glm_quat_init axis.x axis.y axis.z (lit 0)
      glm_quat_normalize dest_1
    else
      let axis := glm_vec3_cross a b
      let cos_half_theta := (lit 1) + cos_theta
      let dest_1 := glm_quat_init axis.x axis.y axis.z cos_half_theta
      glm_quat_normalize dest_1

end Cglm
