/- Generated from include/cglm/mat4.h by tools/gen.py (value semantics); do not edit by hand. -/
import Verif.Base
import Verif.Attr
import Verif.Gen.Vec3
import Verif.Gen.Vec4

set_option linter.unusedVariables false
set_option linter.unusedSectionVars false

namespace Cglm

variable {α : Type} [Add α] [Sub α] [Mul α] [Div α] [Neg α] [CFloat α]

/-- `glm_mat4_ucopy`: include/cglm/mat4.h:107-119. -/
@[cglm]
def glm_mat4_ucopy (mat : M4 α) : M4 α :=
  mat

/-- `glm_mat4_copy`: include/cglm/mat4.h:127-151. -/
@[cglm]
def glm_mat4_copy (mat : M4 α) : M4 α :=
  glm_mat4_ucopy mat

/-- `glm_mat4_identity`: include/cglm/mat4.h:167-172. -/
@[cglm]
def glm_mat4_identity : M4 α :=
  glm_mat4_copy ⟨⟨lit 1, lit 0, lit 0, lit 0⟩, ⟨lit 0, lit 1, lit 0, lit 0⟩, ⟨lit 0, lit 0, lit 1, lit 0⟩, ⟨lit 0, lit 0, lit 0, lit 1⟩⟩

/-- `glm_mat4_zero`: include/cglm/mat4.h:198-231. -/
@[cglm]
def glm_mat4_zero : M4 α :=
  glm_mat4_copy ⟨⟨lit 0, lit 0, lit 0, lit 0⟩, ⟨lit 0, lit 0, lit 0, lit 0⟩, ⟨lit 0, lit 0, lit 0, lit 0⟩, ⟨lit 0, lit 0, lit 0, lit 0⟩⟩

/-- `glm_mat4_pick3`: include/cglm/mat4.h:239-253. -/
@[cglm]
def glm_mat4_pick3 (mat : M4 α) : M3 α :=
  ⟨⟨mat.c0.x, mat.c0.y, mat.c0.z⟩, ⟨mat.c1.x, mat.c1.y, mat.c1.z⟩, ⟨mat.c2.x, mat.c2.y, mat.c2.z⟩⟩

/-- `glm_mat4_pick3t`: include/cglm/mat4.h:263-277. -/
@[cglm]
def glm_mat4_pick3t (mat : M4 α) : M3 α :=
  ⟨⟨mat.c0.x, mat.c1.x, mat.c2.x⟩, ⟨mat.c0.y, mat.c1.y, mat.c2.y⟩, ⟨mat.c0.z, mat.c1.z, mat.c2.z⟩⟩

/-- `glm_mat4_ins3`: include/cglm/mat4.h:285-299. -/
@[cglm]
def glm_mat4_ins3 (mat : M3 α) (dest : M4 α) : M4 α :=
  ⟨⟨mat.c0.x, mat.c0.y, mat.c0.z, dest.c0.w⟩, ⟨mat.c1.x, mat.c1.y, mat.c1.z, dest.c1.w⟩, ⟨mat.c2.x, mat.c2.y, mat.c2.z, dest.c2.w⟩, dest.c3⟩

/-- `glm_mat4_mul`: include/cglm/mat4.h:315-354. -/
@[cglm]
def glm_mat4_mul (m1 : M4 α) (m2 : M4 α) : M4 α :=
  let a00 := m1.c0.x
  let a01 := m1.c0.y
  let a02 := m1.c0.z
  let a03 := m1.c0.w
  let a10 := m1.c1.x
  let a11 := m1.c1.y
  let a12 := m1.c1.z
  let a13 := m1.c1.w
  let a20 := m1.c2.x
  let a21 := m1.c2.y
  let a22 := m1.c2.z
  let a23 := m1.c2.w
  let a30 := m1.c3.x
  let a31 := m1.c3.y
  let a32 := m1.c3.z
  let a33 := m1.c3.w
  let b00 := m2.c0.x
  let b01 := m2.c0.y
  let b02 := m2.c0.z
  let b03 := m2.c0.w
  let b10 := m2.c1.x
  let b11 := m2.c1.y
  let b12 := m2.c1.z
  let b13 := m2.c1.w
  let b20 := m2.c2.x
  let b21 := m2.c2.y
  let b22 := m2.c2.z
  let b23 := m2.c2.w
  let b30 := m2.c3.x
  let b31 := m2.c3.y
  let b32 := m2.c3.z
  let b33 := m2.c3.w
  ⟨⟨a00 * b00 + a10 * b01 + a20 * b02 + a30 * b03, a01 * b00 + a11 * b01 + a21 * b02 + a31 * b03, a02 * b00 + a12 * b01 + a22 * b02 + a32 * b03, a03 * b00 + a13 * b01 + a23 * b02 + a33 * b03⟩, ⟨a00 * b10 + a10 * b11 + a20 * b12 + a30 * b13, a01 * b10 + a11 * b11 + a21 * b12 + a31 * b13, a02 * b10 + a12 * b11 + a22 * b12 + a32 * b13, a03 * b10 + a13 * b11 + a23 * b12 + a33 * b13⟩, ⟨a00 * b20 + a10 * b21 + a20 * b22 + a30 * b23, a01 * b20 + a11 * b21 + a21 * b22 + a31 * b23, a02 * b20 + a12 * b21 + a22 * b22 + a32 * b23, a03 * b20 + a13 * b21 + a23 * b22 + a33 * b23⟩, ⟨a00 * b30 + a10 * b31 + a20 * b32 + a30 * b33, a01 * b30 + a11 * b31 + a21 * b32 + a31 * b33, a02 * b30 + a12 * b31 + a22 * b32 + a32 * b33, a03 * b30 + a13 * b31 + a23 * b32 + a33 * b33⟩⟩

/-- `glm_mat4_mulv`: include/cglm/mat4.h:397-414. -/
@[cglm]
def glm_mat4_mulv (m : M4 α) (v : V4 α) : V4 α :=
  glm_vec4_copy ⟨m.c0.x * v.x + m.c1.x * v.y + m.c2.x * v.z + m.c3.x * v.w, m.c0.y * v.x + m.c1.y * v.y + m.c2.y * v.z + m.c3.y * v.w, m.c0.z * v.x + m.c1.z * v.y + m.c2.z * v.z + m.c3.z * v.w, m.c0.w * v.x + m.c1.w * v.y + m.c2.w * v.z + m.c3.w * v.w⟩

/-- `glm_mat4_trace`: include/cglm/mat4.h:423-427. -/
@[cglm]
def glm_mat4_trace (m : M4 α) : α :=
  m.c0.x + m.c1.y + m.c2.z + m.c3.w

/-- `glm_mat4_trace3`: include/cglm/mat4.h:436-440. -/
@[cglm]
def glm_mat4_trace3 (m : M4 α) : α :=
  m.c0.x + m.c1.y + m.c2.z

/-- `glm_mat4_quat`: include/cglm/mat4.h:448-489. -/
@[cglm]
def glm_mat4_quat (m : M4 α) : V4 α :=
  let trace := m.c0.x + m.c1.y + m.c2.z
  if fle (lit 0) trace then
    let r := sqrtf ((lit 1) + trace)
    let rinv := (lit 0.5) / r
    ⟨rinv * (m.c1.z - m.c2.y), rinv * (m.c2.x - m.c0.z), rinv * (m.c0.y - m.c1.x), r * (lit 0.5)⟩
  else
    if fle m.c1.y m.c0.x && fle m.c2.z m.c0.x then
      let r := sqrtf ((lit 1) - m.c1.y - m.c2.z + m.c0.x)
      let rinv := (lit 0.5) / r
      ⟨r * (lit 0.5), rinv * (m.c0.y + m.c1.x), rinv * (m.c0.z + m.c2.x), rinv * (m.c1.z - m.c2.y)⟩
    else
      if fle m.c2.z m.c1.y then
        let r := sqrtf ((lit 1) - m.c0.x - m.c2.z + m.c1.y)
        let rinv := (lit 0.5) / r
        ⟨rinv * (m.c0.y + m.c1.x), r * (lit 0.5), rinv * (m.c1.z + m.c2.y), rinv * (m.c2.x - m.c0.z)⟩
      else
        let r := sqrtf ((lit 1) - m.c0.x - m.c1.y + m.c2.z)
        let rinv := (lit 0.5) / r
        ⟨rinv * (m.c0.z + m.c2.x), rinv * (m.c1.z + m.c2.y), r * (lit 0.5), rinv * (m.c0.y - m.c1.x)⟩

/-- `glm_mat4_mulv3`: include/cglm/mat4.h:502-509. -/
@[cglm]
def glm_mat4_mulv3 (m : M4 α) (v : V3 α) (last : α) : V3 α :=
  let res := glm_vec4 v last
  let res_1 := glm_mat4_mulv m res
  glm_vec3 res_1

/-- `glm_mat4_transpose_to`: include/cglm/mat4.h:519-540. -/
@[cglm]
def glm_mat4_transpose_to (m : M4 α) : M4 α :=
  ⟨⟨m.c0.x, m.c1.x, m.c2.x, m.c3.x⟩, ⟨m.c0.y, m.c1.y, m.c2.y, m.c3.y⟩, ⟨m.c0.z, m.c1.z, m.c2.z, m.c3.z⟩, ⟨m.c0.w, m.c1.w, m.c2.w, m.c3.w⟩⟩

/-- `glm_mat4_transpose`: include/cglm/mat4.h:547-563. -/
@[cglm]
def glm_mat4_transpose (m : M4 α) : M4 α :=
  let d := glm_mat4_transpose_to m
  glm_mat4_ucopy d

/-- `glm_mat4_scale_p`: include/cglm/mat4.h:573-580. -/
@[cglm]
def glm_mat4_scale_p (m : M4 α) (s : α) : M4 α :=
  ⟨⟨m.c0.x * s, m.c0.y * s, m.c0.z * s, m.c0.w * s⟩, ⟨m.c1.x * s, m.c1.y * s, m.c1.z * s, m.c1.w * s⟩, ⟨m.c2.x * s, m.c2.y * s, m.c2.z * s, m.c2.w * s⟩, ⟨m.c3.x * s, m.c3.y * s, m.c3.z * s, m.c3.w * s⟩⟩

/-- `glm_mat4_scale`: include/cglm/mat4.h:590-604. -/
@[cglm]
def glm_mat4_scale (m : M4 α) (s : α) : M4 α :=
  glm_mat4_scale_p m s

/-- `glm_mat4_det`: include/cglm/mat4.h:613-642. -/
@[cglm]
def glm_mat4_det (mat : M4 α) : α :=
  let a := mat.c0.x
  let b := mat.c0.y
  let c := mat.c0.z
  let d := mat.c0.w
  let e := mat.c1.x
  let f := mat.c1.y
  let g := mat.c1.z
  let h := mat.c1.w
  let i := mat.c2.x
  let j := mat.c2.y
  let k := mat.c2.z
  let l := mat.c2.w
  let m := mat.c3.x
  let n := mat.c3.y
  let o := mat.c3.z
  let p := mat.c3.w
  let t_0 := k * p - o * l
  let t_1 := j * p - n * l
  let t_2 := j * o - n * k
  let t_3 := i * p - m * l
  let t_4 := i * o - m * k
  let t_5 := i * n - m * j
  a * (f * t_0 - g * t_1 + h * t_2) - b * (e * t_0 - g * t_3 + h * t_4) + c * (e * t_1 - f * t_3 + h * t_5) - d * (e * t_2 - f * t_4 + g * t_5)

/-- `glm_mat4_inv`: include/cglm/mat4.h:650-692. -/
@[cglm]
def glm_mat4_inv (mat : M4 α) : M4 α :=
  let a := mat.c0.x
  let b := mat.c0.y
  let c := mat.c0.z
  let d := mat.c0.w
  let e := mat.c1.x
  let f := mat.c1.y
  let g := mat.c1.z
  let h := mat.c1.w
  let i := mat.c2.x
  let j := mat.c2.y
  let k := mat.c2.z
  let l := mat.c2.w
  let m := mat.c3.x
  let n := mat.c3.y
  let o := mat.c3.z
  let p := mat.c3.w
  let c1 := k * p - l * o
  let c2 := c * h - d * g
  let c3 := i * p - l * m
  let c4 := a * h - d * e
  let c5 := j * p - l * n
  let c6 := b * h - d * f
  let c7 := i * n - j * m
  let c8 := a * f - b * e
  let c9 := j * o - k * n
  let c10 := b * g - c * f
  let c11 := i * o - k * m
  let c12 := a * g - c * e
  let idt := (lit 1) / (c8 * c1 + c4 * c9 + c10 * c3 + c2 * c7 - c12 * c5 - c6 * c11)
  let ndt := -idt
  ⟨⟨(f * c1 - g * c5 + h * c9) * idt, (b * c1 - c * c5 + d * c9) * ndt, (n * c2 - o * c6 + p * c10) * idt, (j * c2 - k * c6 + l * c10) * ndt⟩, ⟨(e * c1 - g * c3 + h * c11) * ndt, (a * c1 - c * c3 + d * c11) * idt, (m * c2 - o * c4 + p * c12) * ndt, (i * c2 - k * c4 + l * c12) * idt⟩, ⟨(e * c5 - f * c3 + h * c7) * idt, (a * c5 - b * c3 + d * c7) * ndt, (m * c6 - n * c4 + p * c8) * idt, (i * c6 - j * c4 + l * c8) * ndt⟩, ⟨(e * c9 - f * c11 + g * c7) * ndt, (a * c9 - b * c11 + c * c7) * idt, (m * c10 - n * c12 + o * c8) * ndt, (i * c10 - j * c12 + k * c8) * idt⟩⟩

/-- `glm_mat4_inv_fast`: include/cglm/mat4.h:706-716. -/
@[cglm]
def glm_mat4_inv_fast (mat : M4 α) : M4 α :=
  glm_mat4_inv mat

/-- `glm_mat4_rmc`: include/cglm/mat4.h:775-781. -/
@[cglm]
def glm_mat4_rmc (r : V4 α) (m : M4 α) (c : V4 α) : α :=
  glm_vec4_dot r (glm_mat4_mulv m c)

/-- `glm_mat4_make`: include/cglm/mat4.h:789-801. -/
@[cglm]
def glm_mat4_make (src : V16 α) : M4 α :=
  ⟨⟨src.e0, src.e1, src.e2, src.e3⟩, ⟨src.e4, src.e5, src.e6, src.e7⟩, ⟨src.e8, src.e9, src.e10, src.e11⟩, ⟨src.e12, src.e13, src.e14, src.e15⟩⟩

/-- `glm_mat4_textrans`: include/cglm/mat4.h:813-829. -/
@[cglm]
def glm_mat4_textrans (sx : α) (sy : α) (rot : α) (tx : α) (ty : α) : M4 α :=
  let c := cosf rot
  let s := sinf rot
  let dest_1 := glm_mat4_identity
  ⟨⟨c * sx, (-s) * sy, dest_1.c0.z, dest_1.c0.w⟩, ⟨s * sx, c * sy, dest_1.c1.z, dest_1.c1.w⟩, dest_1.c2, ⟨tx, ty, dest_1.c3.z, dest_1.c3.w⟩⟩

end Cglm
