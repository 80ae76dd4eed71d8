/- Generated from include/cglm/affine.h by tools/gen.py (value semantics); do not edit by hand. -/
import Verif.Base
import Verif.Attr
import Verif.Gen.Mat4
import Verif.Gen.Vec3
import Verif.Gen.Vec3Ext
import Verif.Gen.Vec4

set_option linter.unusedVariables false
set_option linter.unusedSectionVars false

namespace Cglm

variable {α : Type} [Add α] [Sub α] [Mul α] [Div α] [Neg α] [CFloat α]

/-- `glm_translate_make`: include/cglm/affine.h:50-55. -/
@[cglm]
def glm_translate_make (v : V3 α) : M4 α :=
  let m_1 := glm_mat4_identity
  let m_12 := glm_vec3_copy v
  ⟨m_1.c0, m_1.c1, m_1.c2, ⟨m_12.x, m_12.y, m_12.z, m_1.c3.w⟩⟩

/-- `glm_scale_to`: include/cglm/affine.h:65-73. -/
@[cglm]
def glm_scale_to (m : M4 α) (v : V3 α) : M4 α :=
  let dest_0 := glm_vec4_scale m.c0 v.x
  let dest_4 := glm_vec4_scale m.c1 v.y
  let dest_8 := glm_vec4_scale m.c2 v.z
  ⟨dest_0, dest_4, dest_8, glm_vec4_copy m.c3⟩

/-- `glm_scale_make`: include/cglm/affine.h:81-88. -/
@[cglm]
def glm_scale_make (v : V3 α) : M4 α :=
  let m_1 := glm_mat4_identity
  ⟨⟨v.x, m_1.c0.y, m_1.c0.z, m_1.c0.w⟩, ⟨m_1.c1.x, v.y, m_1.c1.z, m_1.c1.w⟩, ⟨m_1.c2.x, m_1.c2.y, v.z, m_1.c2.w⟩, m_1.c3⟩

/-- `glm_scale`: include/cglm/affine.h:97-101. -/
@[cglm]
def glm_scale (m : M4 α) (v : V3 α) : M4 α :=
  glm_scale_to m v

/-- `glm_scale_uni`: include/cglm/affine.h:110-115. -/
@[cglm]
def glm_scale_uni (m : M4 α) (s : α) : M4 α :=
  glm_scale_to m ⟨s, s, s⟩

/-- `glm_rotate_make`: include/cglm/affine.h:126-148. -/
@[cglm]
def glm_rotate_make (angle : α) (axis : V3 α) : M4 α :=
  let c := cosf angle
  let axisn := glm_vec3_normalize_to axis
  let v := glm_vec3_scale axisn ((lit 1) - c)
  let vs := glm_vec3_scale axisn (sinf angle)
  let m_0 := glm_vec3_scale axisn v.x
  let m_4 := glm_vec3_scale axisn v.y
  let m_8 := glm_vec3_scale axisn v.z
  ⟨⟨m_0.x + c, m_0.y + vs.z, m_0.z - vs.y, lit 0⟩, ⟨m_4.x - vs.z, m_4.y + c, m_4.z + vs.x, lit 0⟩, ⟨m_8.x + vs.y, m_8.y - vs.x, m_8.z + c, lit 0⟩, ⟨lit 0, lit 0, lit 0, lit 1⟩⟩

/-- `glm_decompose_scalev`: include/cglm/affine.h:156-162. -/
@[cglm]
def glm_decompose_scalev (m : M4 α) : V3 α :=
  ⟨glm_vec3_norm ⟨m.c0.x, m.c0.y, m.c0.z⟩, glm_vec3_norm ⟨m.c1.x, m.c1.y, m.c1.z⟩, glm_vec3_norm ⟨m.c2.x, m.c2.y, m.c2.z⟩⟩

/-- `glm_uniscaled`: include/cglm/affine.h:172-178. -/
@[cglm]
def glm_uniscaled (m : M4 α) : Bool :=
  glm_vec3_eq_all (glm_decompose_scalev m)

/-- `glm_decompose_rs`: include/cglm/affine.h:188-217. -/
@[cglm]
def glm_decompose_rs (m : M4 α) : M4 α × V3 α :=
  let r_0 := glm_vec4_copy m.c0
  let r_4 := glm_vec4_copy m.c1
  let r_8 := glm_vec4_copy m.c2
  let r_12 := glm_vec4_copy ⟨lit 0, lit 0, lit 0, lit 1⟩
  let s_0 := glm_vec3_norm ⟨m.c0.x, m.c0.y, m.c0.z⟩
  let s_1 := glm_vec3_norm ⟨m.c1.x, m.c1.y, m.c1.z⟩
  let s_2 := glm_vec3_norm ⟨m.c2.x, m.c2.y, m.c2.z⟩
  let r_0_1 := glm_vec4_scale r_0 ((lit 1) / s_0)
  let r_4_1 := glm_vec4_scale r_4 ((lit 1) / s_1)
  let r_8_1 := glm_vec4_scale r_8 ((lit 1) / s_2)
  let v := glm_vec3_cross ⟨m.c0.x, m.c0.y, m.c0.z⟩ ⟨m.c1.x, m.c1.y, m.c1.z⟩
  if flt (glm_vec3_dot v ⟨m.c2.x, m.c2.y, m.c2.z⟩) (lit 0) then
    let r_0_2 := glm_vec4_negate r_0_1
    let r_4_2 := glm_vec4_negate r_4_1
    let r_8_2 := glm_vec4_negate r_8_1
    (⟨r_0_2, r_4_2, r_8_2, r_12⟩, glm_vec3_negate ⟨s_0, s_1, s_2⟩)
  else
    (⟨r_0_1, r_4_1, r_8_1, r_12⟩, ⟨s_0, s_1, s_2⟩)

/-- `glm_decompose`: include/cglm/affine.h:228-233. -/
@[cglm]
def glm_decompose (m : M4 α) : V4 α × M4 α × V3 α :=
  let t_1 := glm_vec4_copy m.c3
  let r_1 := glm_decompose_rs m
  (t_1, r_1.1, r_1.2)

end Cglm
