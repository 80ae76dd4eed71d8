/- Generated from include/cglm/mat3.h by tools/gen.py (value semantics); do not edit by hand. -/
import Verif.Base
import Verif.Attr
import Verif.Gen.Vec3

set_option linter.unusedVariables false
set_option linter.unusedSectionVars false

namespace Cglm

variable {α : Type} [Add α] [Sub α] [Mul α] [Div α] [Neg α] [CFloat α]

/-- `glm_mat3_copy`: include/cglm/mat3.h:72-86. -/
@[cglm]
def glm_mat3_copy (mat : M3 α) : M3 α :=
  mat

/-- `glm_mat3_identity`: include/cglm/mat3.h:102-107. -/
@[cglm]
def glm_mat3_identity : M3 α :=
  glm_mat3_copy ⟨⟨lit 1, lit 0, lit 0⟩, ⟨lit 0, lit 1, lit 0⟩, ⟨lit 0, lit 0, lit 1⟩⟩

/-- `glm_mat3_zero`: include/cglm/mat3.h:133-138. -/
@[cglm]
def glm_mat3_zero : M3 α :=
  glm_mat3_copy ⟨⟨lit 0, lit 0, lit 0⟩, ⟨lit 0, lit 0, lit 0⟩, ⟨lit 0, lit 0, lit 0⟩⟩

/-- `glm_mat3_mul`: include/cglm/mat3.h:154-180. -/
@[cglm]
def glm_mat3_mul (m1 : M3 α) (m2 : M3 α) : M3 α :=
  let a00 := m1.c0.x
  let a01 := m1.c0.y
  let a02 := m1.c0.z
  let a10 := m1.c1.x
  let a11 := m1.c1.y
  let a12 := m1.c1.z
  let a20 := m1.c2.x
  let a21 := m1.c2.y
  let a22 := m1.c2.z
  let b00 := m2.c0.x
  let b01 := m2.c0.y
  let b02 := m2.c0.z
  let b10 := m2.c1.x
  let b11 := m2.c1.y
  let b12 := m2.c1.z
  let b20 := m2.c2.x
  let b21 := m2.c2.y
  let b22 := m2.c2.z
  ⟨⟨a00 * b00 + a10 * b01 + a20 * b02, a01 * b00 + a11 * b01 + a21 * b02, a02 * b00 + a12 * b01 + a22 * b02⟩, ⟨a00 * b10 + a10 * b11 + a20 * b12, a01 * b10 + a11 * b11 + a21 * b12, a02 * b10 + a12 * b11 + a22 * b12⟩, ⟨a00 * b20 + a10 * b21 + a20 * b22, a01 * b20 + a11 * b21 + a21 * b22, a02 * b20 + a12 * b21 + a22 * b22⟩⟩

/-- `glm_mat3_transpose_to`: include/cglm/mat3.h:190-202. -/
@[cglm]
def glm_mat3_transpose_to (m : M3 α) : M3 α :=
  ⟨⟨m.c0.x, m.c1.x, m.c2.x⟩, ⟨m.c0.y, m.c1.y, m.c2.y⟩, ⟨m.c0.z, m.c1.z, m.c2.z⟩⟩

/-- `glm_mat3_transpose`: include/cglm/mat3.h:209-227. -/
@[cglm]
def glm_mat3_transpose (m : M3 α) : M3 α :=
  ⟨⟨m.c0.x, m.c1.x, m.c2.x⟩, ⟨m.c0.y, m.c1.y, m.c2.y⟩, ⟨m.c0.z, m.c1.z, m.c2.z⟩⟩

/-- `glm_mat3_mulv`: include/cglm/mat3.h:236-244. -/
@[cglm]
def glm_mat3_mulv (m : M3 α) (v : V3 α) : V3 α :=
  glm_vec3_copy ⟨m.c0.x * v.x + m.c1.x * v.y + m.c2.x * v.z, m.c0.y * v.x + m.c1.y * v.y + m.c2.y * v.z, m.c0.z * v.x + m.c1.z * v.y + m.c2.z * v.z⟩

/-- `glm_mat3_trace`: include/cglm/mat3.h:253-257. -/
@[cglm]
def glm_mat3_trace (m : M3 α) : α :=
  m.c0.x + m.c1.y + m.c2.z

/-- `glm_mat3_quat`: include/cglm/mat3.h:265-306. -/
@[cglm]
def glm_mat3_quat (m : M3 α) : V4 α :=
  let trace := m.c0.x + m.c1.y + m.c2.z
  if fle (lit 0) trace then
    let r := sqrtf ((lit 1) + trace)
    let rinv := (lit 0.5) / r
    ⟨rinv * (m.c1.z - m.c2.y), rinv * (m.c2.x - m.c0.z), rinv * (m.c0.y - m.c1.x), r * (lit 0.5)⟩
  else
    if fle m.c1.y m.c0.x && fle m.c2.z m.c0.x then
      let r := sqrtf ((lit 1) - m.c1.y - m.c2.z + m.c0.x)
      let rinv := (lit 0.5) / r
      ⟨r * (lit 0.5), rinv * (m.c0.y + m.c1.x), rinv * (m.c0.z + m.c2.x), rinv * (m.c1.z - m.c2.y)⟩
    else
      if fle m.c2.z m.c1.y then
        let r := sqrtf ((lit 1) - m.c0.x - m.c2.z + m.c1.y)
        let rinv := (lit 0.5) / r
        ⟨rinv * (m.c0.y + m.c1.x), r * (lit 0.5), rinv * (m.c1.z + m.c2.y), rinv * (m.c2.x - m.c0.z)⟩
      else
        let r := sqrtf ((lit 1) - m.c0.x - m.c1.y + m.c2.z)
        let rinv := (lit 0.5) / r
        ⟨rinv * (m.c0.z + m.c2.x), rinv * (m.c1.z + m.c2.y), r * (lit 0.5), rinv * (m.c0.y - m.c1.x)⟩

/-- `glm_mat3_scale`: include/cglm/mat3.h:316-322. -/
@[cglm]
def glm_mat3_scale (m : M3 α) (s : α) : M3 α :=
  ⟨⟨m.c0.x * s, m.c0.y * s, m.c0.z * s⟩, ⟨m.c1.x * s, m.c1.y * s, m.c1.z * s⟩, ⟨m.c2.x * s, m.c2.y * s, m.c2.z * s⟩⟩

/-- `glm_mat3_det`: include/cglm/mat3.h:331-339. -/
@[cglm]
def glm_mat3_det (mat : M3 α) : α :=
  let a := mat.c0.x
  let b := mat.c0.y
  let c := mat.c0.z
  let d := mat.c1.x
  let e := mat.c1.y
  let f := mat.c1.z
  let g := mat.c2.x
  let h := mat.c2.y
  let i := mat.c2.z
  a * (e * i - h * f) - d * (b * i - h * c) + g * (b * f - e * c)

/-- `glm_mat3_inv`: include/cglm/mat3.h:347-366. -/
@[cglm]
def glm_mat3_inv (mat : M3 α) : M3 α :=
  let a := mat.c0.x
  let b := mat.c0.y
  let c := mat.c0.z
  let d := mat.c1.x
  let e := mat.c1.y
  let f := mat.c1.z
  let g := mat.c2.x
  let h := mat.c2.y
  let i := mat.c2.z
  let c1 := e * i - f * h
  let c2 := d * i - g * f
  let c3 := d * h - g * e
  let idt := (lit 1) / (a * c1 - b * c2 + c * c3)
  let ndt := -idt
  ⟨⟨idt * c1, ndt * (b * i - h * c), idt * (b * f - e * c)⟩, ⟨ndt * c2, idt * (a * i - g * c), ndt * (a * f - d * c)⟩, ⟨idt * c3, ndt * (a * h - g * b), idt * (a * e - d * b)⟩⟩

/-- `glm_mat3_rmc`: include/cglm/mat3.h:422-428. -/
@[cglm]
def glm_mat3_rmc (r : V3 α) (m : M3 α) (c : V3 α) : α :=
  glm_vec3_dot r (glm_mat3_mulv m c)

/-- `glm_mat3_make`: include/cglm/mat3.h:436-450. -/
@[cglm]
def glm_mat3_make (src : V9 α) : M3 α :=
  ⟨⟨src.e0, src.e1, src.e2⟩, ⟨src.e3, src.e4, src.e5⟩, ⟨src.e6, src.e7, src.e8⟩⟩

/-- `glm_mat3_textrans`: include/cglm/mat3.h:462-478. -/
@[cglm]
def glm_mat3_textrans (sx : α) (sy : α) (rot : α) (tx : α) (ty : α) : M3 α :=
  let c := cosf rot
  let s := sinf rot
  let dest_1 := glm_mat3_identity
  ⟨⟨c * sx, (-s) * sy, dest_1.c0.z⟩, ⟨s * sx, c * sy, dest_1.c1.z⟩, ⟨tx, ty, dest_1.c2.z⟩⟩

end Cglm
