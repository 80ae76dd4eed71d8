/- Generated from include/cglm/box.h by tools/gen.py (value semantics); do not edit by hand. -/
import Verif.Base
import Verif.Attr
import Verif.Gen.Util
import Verif.Gen.Vec3
import Verif.Gen.Vec3Ext

set_option linter.unusedVariables false
set_option linter.unusedSectionVars false

namespace Cglm

variable {α : Type} [Add α] [Sub α] [Mul α] [Div α] [Neg α] [CFloat α]

/-- `glm_aabb_transform`: include/cglm/box.h:23-51. -/
@[cglm]
def glm_aabb_transform (box : M2x3 α) (m : M4 α) : M2x3 α :=
  let xa := glm_vec3_scale ⟨m.c0.x, m.c0.y, m.c0.z⟩ box.c0.x
  let xb := glm_vec3_scale ⟨m.c0.x, m.c0.y, m.c0.z⟩ box.c1.x
  let ya := glm_vec3_scale ⟨m.c1.x, m.c1.y, m.c1.z⟩ box.c0.y
  let yb := glm_vec3_scale ⟨m.c1.x, m.c1.y, m.c1.z⟩ box.c1.y
  let za := glm_vec3_scale ⟨m.c2.x, m.c2.y, m.c2.z⟩ box.c0.z
  let zb := glm_vec3_scale ⟨m.c2.x, m.c2.y, m.c2.z⟩ box.c1.z
  let v_0 := glm_vec3 m.c3
  let v_0_1 := glm_vec3_minadd xa xb v_0
  let v_0_2 := glm_vec3_minadd ya yb v_0_1
  let v_0_3 := glm_vec3_minadd za zb v_0_2
  let v_3 := glm_vec3 m.c3
  let v_3_1 := glm_vec3_maxadd xa xb v_3
  let v_3_2 := glm_vec3_maxadd ya yb v_3_1
  let v_3_3 := glm_vec3_maxadd za zb v_3_2
  let dest_0 := glm_vec3_copy v_0_3
  ⟨dest_0, glm_vec3_copy v_3_3⟩

/-- `glm_aabb_merge`: include/cglm/box.h:63-73. -/
@[cglm]
def glm_aabb_merge (box1 : M2x3 α) (box2 : M2x3 α) : M2x3 α :=
  ⟨⟨glm_min box1.c0.x box2.c0.x, glm_min box1.c0.y box2.c0.y, glm_min box1.c0.z box2.c0.z⟩, ⟨glm_max box1.c1.x box2.c1.x, glm_max box1.c1.y box2.c1.y, glm_max box1.c1.z box2.c1.z⟩⟩

/-- `glm_aabb_crop`: include/cglm/box.h:86-96. -/
@[cglm]
def glm_aabb_crop (box : M2x3 α) (cropBox : M2x3 α) : M2x3 α :=
  ⟨⟨glm_max box.c0.x cropBox.c0.x, glm_max box.c0.y cropBox.c0.y, glm_max box.c0.z cropBox.c0.z⟩, ⟨glm_min box.c1.x cropBox.c1.x, glm_min box.c1.y cropBox.c1.y, glm_min box.c1.z cropBox.c1.z⟩⟩

/-- `glm_aabb_crop_until`: include/cglm/box.h:110-118. -/
@[cglm]
def glm_aabb_crop_until (box : M2x3 α) (cropBox : M2x3 α) (clampBox : M2x3 α) : M2x3 α :=
  let dest_1 := glm_aabb_crop box cropBox
  glm_aabb_merge clampBox dest_1

/-- `glm_aabb_frustum`: include/cglm/box.h:134-151. -/
@[cglm]
def glm_aabb_frustum (box : M2x3 α) (planes : M6x4 α) : Bool :=
  let dp := planes.c0.x * (if flt (lit 0) planes.c0.x then box.c1.x else box.c0.x) + planes.c0.y * (if flt (lit 0) planes.c0.y then box.c1.y else box.c0.y) + planes.c0.z * (if flt (lit 0) planes.c0.z then box.c1.z else box.c0.z)
  if flt dp (-planes.c0.w) then
    false
  else
    let dp_1 := planes.c1.x * (if flt (lit 0) planes.c1.x then box.c1.x else box.c0.x) + planes.c1.y * (if flt (lit 0) planes.c1.y then box.c1.y else box.c0.y) + planes.c1.z * (if flt (lit 0) planes.c1.z then box.c1.z else box.c0.z)
    if flt dp_1 (-planes.c1.w) then
      false
    else
      let dp_2 := planes.c2.x * (if flt (lit 0) planes.c2.x then box.c1.x else box.c0.x) + planes.c2.y * (if flt (lit 0) planes.c2.y then box.c1.y else box.c0.y) + planes.c2.z * (if flt (lit 0) planes.c2.z then box.c1.z else box.c0.z)
      if flt dp_2 (-planes.c2.w) then
        false
      else
        let dp_3 := planes.c3.x * (if flt (lit 0) planes.c3.x then box.c1.x else box.c0.x) + planes.c3.y * (if flt (lit 0) planes.c3.y then box.c1.y else box.c0.y) + planes.c3.z * (if flt (lit 0) planes.c3.z then box.c1.z else box.c0.z)
        if flt dp_3 (-planes.c3.w) then
          false
        else
          let dp_4 := planes.c4.x * (if flt (lit 0) planes.c4.x then box.c1.x else box.c0.x) + planes.c4.y * (if flt (lit 0) planes.c4.y then box.c1.y else box.c0.y) + planes.c4.z * (if flt (lit 0) planes.c4.z then box.c1.z else box.c0.z)
          if flt dp_4 (-planes.c4.w) then
            false
          else
            let dp_5 := planes.c5.x * (if flt (lit 0) planes.c5.x then box.c1.x else box.c0.x) + planes.c5.y * (if flt (lit 0) planes.c5.y then box.c1.y else box.c0.y) + planes.c5.z * (if flt (lit 0) planes.c5.z then box.c1.z else box.c0.z)
            if flt dp_5 (-planes.c5.w) then
              false
            else
              true

/-- `glm_aabb_invalidate`: include/cglm/box.h:158-163. -/
@[cglm]
def glm_aabb_invalidate : M2x3 α :=
  let box_0 := glm_vec3_broadcast (lit 340282346638528859811704183484516925440)
  ⟨box_0, glm_vec3_broadcast (-(lit 340282346638528859811704183484516925440))⟩

/-- `glm_aabb_isvalid`: include/cglm/box.h:170-175. -/
@[cglm]
def glm_aabb_isvalid (box : M2x3 α) : Bool :=
  !(feq (glm_vec3_max box.c0) (lit 340282346638528859811704183484516925440)) && !(feq (glm_vec3_min box.c1) (-(lit 340282346638528859811704183484516925440)))

/-- `glm_aabb_size`: include/cglm/box.h:182-186. -/
@[cglm]
def glm_aabb_size (box : M2x3 α) : α :=
  glm_vec3_distance box.c0 box.c1

/-- `glm_aabb_radius`: include/cglm/box.h:193-197. -/
@[cglm]
def glm_aabb_radius (box : M2x3 α) : α :=
  glm_aabb_size box * (lit 0.5)

/-- `glm_aabb_center`: include/cglm/box.h:205-209. -/
@[cglm]
def glm_aabb_center (box : M2x3 α) : V3 α :=
  glm_vec3_center box.c0 box.c1

/-- `glm_aabb_aabb`: include/cglm/box.h:217-223. -/
@[cglm]
def glm_aabb_aabb (box : M2x3 α) (other : M2x3 α) : Bool :=
  fle box.c0.x other.c1.x && fle other.c0.x box.c1.x && (fle box.c0.y other.c1.y && fle other.c0.y box.c1.y) && (fle box.c0.z other.c1.z && fle other.c0.z box.c1.z)

/-- `glm_aabb_sphere`: include/cglm/box.h:236-251. -/
@[cglm]
def glm_aabb_sphere (box : M2x3 α) (s : V4 α) : Bool :=
  let a := b2i (flt s.x box.c0.x) + b2i (flt box.c1.x s.x)
  let b := b2i (flt s.y box.c0.y) + b2i (flt box.c1.y s.y)
  let c := b2i (flt s.z box.c0.z) + b2i (flt box.c1.z s.z)
  fle (glm_pow2 ((s.x - (if !(ine (a - 1) 0) then box.c1.x else box.c0.x)) * ofInt (b2i (ine a 0))) + glm_pow2 ((s.y - (if !(ine (b - 1) 0) then box.c1.y else box.c0.y)) * ofInt (b2i (ine b 0))) + glm_pow2 ((s.z - (if !(ine (c - 1) 0) then box.c1.z else box.c0.z)) * ofInt (b2i (ine c 0)))) (glm_pow2 s.w)

/-- `glm_aabb_point`: include/cglm/box.h:259-265. -/
@[cglm]
def glm_aabb_point (box : M2x3 α) (point : V3 α) : Bool :=
  fle box.c0.x point.x && fle point.x box.c1.x && (fle box.c0.y point.y && fle point.y box.c1.y) && (fle box.c0.z point.z && fle point.z box.c1.z)

/-- `glm_aabb_contains`: include/cglm/box.h:273-279. -/
@[cglm]
def glm_aabb_contains (box : M2x3 α) (other : M2x3 α) : Bool :=
  fle box.c0.x other.c0.x && fle other.c1.x box.c1.x && (fle box.c0.y other.c0.y && fle other.c1.y box.c1.y) && (fle box.c0.z other.c0.z && fle other.c1.z box.c1.z)

end Cglm
