import Verif.F32Mir
import Verif.Gen
/-!
# C78: mirrored scenes, functions without branches

Written by `tools/mirthms.py`.  A `σ : AxisMirror` says which coordinates change sign.  `σ.Vec v v'` says that `v'` is the mirrored
`v`, up to the sign of zeros; likewise for axes, quaternions and matrices.
-/
open Cglm F32
namespace Cglm
set_option linter.unusedSectionVars false
set_option linter.unusedSimpArgs false
set_option linter.unnecessarySimpa false
set_option linter.unusedVariables false
variable [Libm]

theorem C78_vec3_add (σ : AxisMirror) (a a' : V3 F32) (b b' : V3 F32) (ha : σ.Vec a a') (hb : σ.Vec b b') :
    σ.Vec (glm_vec3_add a b) (glm_vec3_add a' b') := by
  obtain ⟨x, y, z⟩ := σ
  obtain ⟨_, _, _⟩ := ha
  obtain ⟨_, _, _⟩ := hb
  simp only [cglm, sqrtf_f32, fabsf_f32, AxisMirror.Vec, AxisMirror.Vec4, AxisMirror.Axis, AxisMirror.Quat, AxisMirror.Mat3, AxisMirror.Mat4, AxisMirror.dual, AxisMirror.odd]
  refine ⟨?_, ?_, ?_⟩ <;> mir x y z

theorem C78_vec3_sub (σ : AxisMirror) (a a' : V3 F32) (b b' : V3 F32) (ha : σ.Vec a a') (hb : σ.Vec b b') :
    σ.Vec (glm_vec3_sub a b) (glm_vec3_sub a' b') := by
  obtain ⟨x, y, z⟩ := σ
  obtain ⟨_, _, _⟩ := ha
  obtain ⟨_, _, _⟩ := hb
  simp only [cglm, sqrtf_f32, fabsf_f32, AxisMirror.Vec, AxisMirror.Vec4, AxisMirror.Axis, AxisMirror.Quat, AxisMirror.Mat3, AxisMirror.Mat4, AxisMirror.dual, AxisMirror.odd]
  refine ⟨?_, ?_, ?_⟩ <;> mir x y z

theorem C78_vec3_scale (σ : AxisMirror) (a a' : V3 F32) (b b' : F32) (ha : σ.Vec a a') (hb : Mir false b b') :
    σ.Vec (glm_vec3_scale a b) (glm_vec3_scale a' b') := by
  obtain ⟨x, y, z⟩ := σ
  obtain ⟨_, _, _⟩ := ha
  simp only [cglm, sqrtf_f32, fabsf_f32, AxisMirror.Vec, AxisMirror.Vec4, AxisMirror.Axis, AxisMirror.Quat, AxisMirror.Mat3, AxisMirror.Mat4, AxisMirror.dual, AxisMirror.odd]
  refine ⟨?_, ?_, ?_⟩ <;> mir x y z

theorem C78_vec3_negate (σ : AxisMirror) (a a' : V3 F32) (ha : σ.Vec a a') :
    σ.Vec (glm_vec3_negate a) (glm_vec3_negate a') := by
  obtain ⟨x, y, z⟩ := σ
  obtain ⟨_, _, _⟩ := ha
  simp only [cglm, sqrtf_f32, fabsf_f32, AxisMirror.Vec, AxisMirror.Vec4, AxisMirror.Axis, AxisMirror.Quat, AxisMirror.Mat3, AxisMirror.Mat4, AxisMirror.dual, AxisMirror.odd]
  refine ⟨?_, ?_, ?_⟩ <;> mir x y z

theorem C78_vec3_negate_to (σ : AxisMirror) (a a' : V3 F32) (ha : σ.Vec a a') :
    σ.Vec (glm_vec3_negate_to a) (glm_vec3_negate_to a') := by
  obtain ⟨x, y, z⟩ := σ
  obtain ⟨_, _, _⟩ := ha
  simp only [cglm, sqrtf_f32, fabsf_f32, AxisMirror.Vec, AxisMirror.Vec4, AxisMirror.Axis, AxisMirror.Quat, AxisMirror.Mat3, AxisMirror.Mat4, AxisMirror.dual, AxisMirror.odd]
  refine ⟨?_, ?_, ?_⟩ <;> mir x y z

theorem C78_vec3_dot (σ : AxisMirror) (a a' : V3 F32) (b b' : V3 F32) (ha : σ.Vec a a') (hb : σ.Vec b b') :
    Mir false (glm_vec3_dot a b) (glm_vec3_dot a' b') := by
  obtain ⟨x, y, z⟩ := σ
  obtain ⟨_, _, _⟩ := ha
  obtain ⟨_, _, _⟩ := hb
  simp only [cglm, sqrtf_f32, fabsf_f32, AxisMirror.Vec, AxisMirror.Vec4, AxisMirror.Axis, AxisMirror.Quat, AxisMirror.Mat3, AxisMirror.Mat4, AxisMirror.dual, AxisMirror.odd]
  mir x y z

theorem C78_vec3_cross (σ : AxisMirror) (a a' : V3 F32) (b b' : V3 F32) (ha : σ.Vec a a') (hb : σ.Vec b b') :
    σ.Axis (glm_vec3_cross a b) (glm_vec3_cross a' b') := by
  obtain ⟨x, y, z⟩ := σ
  obtain ⟨_, _, _⟩ := ha
  obtain ⟨_, _, _⟩ := hb
  simp only [cglm, sqrtf_f32, fabsf_f32, AxisMirror.Vec, AxisMirror.Vec4, AxisMirror.Axis, AxisMirror.Quat, AxisMirror.Mat3, AxisMirror.Mat4, AxisMirror.dual, AxisMirror.odd]
  refine ⟨?_, ?_, ?_⟩ <;> mir x y z

theorem C78_vec3_norm2 (σ : AxisMirror) (a a' : V3 F32) (ha : σ.Vec a a') :
    Mir false (glm_vec3_norm2 a) (glm_vec3_norm2 a') := by
  obtain ⟨x, y, z⟩ := σ
  obtain ⟨_, _, _⟩ := ha
  simp only [cglm, sqrtf_f32, fabsf_f32, AxisMirror.Vec, AxisMirror.Vec4, AxisMirror.Axis, AxisMirror.Quat, AxisMirror.Mat3, AxisMirror.Mat4, AxisMirror.dual, AxisMirror.odd]
  mir x y z

theorem C78_vec3_norm (σ : AxisMirror) (a a' : V3 F32) (ha : σ.Vec a a') :
    Mir false (glm_vec3_norm a) (glm_vec3_norm a') := by
  obtain ⟨x, y, z⟩ := σ
  obtain ⟨_, _, _⟩ := ha
  simp only [cglm, sqrtf_f32, fabsf_f32, AxisMirror.Vec, AxisMirror.Vec4, AxisMirror.Axis, AxisMirror.Quat, AxisMirror.Mat3, AxisMirror.Mat4, AxisMirror.dual, AxisMirror.odd]
  mir x y z

theorem C78_vec3_distance2 (σ : AxisMirror) (a a' : V3 F32) (b b' : V3 F32) (ha : σ.Vec a a') (hb : σ.Vec b b') :
    Mir false (glm_vec3_distance2 a b) (glm_vec3_distance2 a' b') := by
  obtain ⟨x, y, z⟩ := σ
  obtain ⟨_, _, _⟩ := ha
  obtain ⟨_, _, _⟩ := hb
  simp only [cglm, sqrtf_f32, fabsf_f32, AxisMirror.Vec, AxisMirror.Vec4, AxisMirror.Axis, AxisMirror.Quat, AxisMirror.Mat3, AxisMirror.Mat4, AxisMirror.dual, AxisMirror.odd]
  mir x y z

theorem C78_vec3_distance (σ : AxisMirror) (a a' : V3 F32) (b b' : V3 F32) (ha : σ.Vec a a') (hb : σ.Vec b b') :
    Mir false (glm_vec3_distance a b) (glm_vec3_distance a' b') := by
  obtain ⟨x, y, z⟩ := σ
  obtain ⟨_, _, _⟩ := ha
  obtain ⟨_, _, _⟩ := hb
  simp only [cglm, sqrtf_f32, fabsf_f32, AxisMirror.Vec, AxisMirror.Vec4, AxisMirror.Axis, AxisMirror.Quat, AxisMirror.Mat3, AxisMirror.Mat4, AxisMirror.dual, AxisMirror.odd]
  mir x y z

theorem C78_vec3_lerp (σ : AxisMirror) (a a' : V3 F32) (b b' : V3 F32) (d d' : F32) (ha : σ.Vec a a') (hb : σ.Vec b b') (hd : Mir false d d') :
    σ.Vec (glm_vec3_lerp a b d) (glm_vec3_lerp a' b' d') := by
  obtain ⟨x, y, z⟩ := σ
  obtain ⟨_, _, _⟩ := ha
  obtain ⟨_, _, _⟩ := hb
  simp only [cglm, sqrtf_f32, fabsf_f32, AxisMirror.Vec, AxisMirror.Vec4, AxisMirror.Axis, AxisMirror.Quat, AxisMirror.Mat3, AxisMirror.Mat4, AxisMirror.dual, AxisMirror.odd]
  refine ⟨?_, ?_, ?_⟩ <;> mir x y z

theorem C78_vec3_center (σ : AxisMirror) (a a' : V3 F32) (b b' : V3 F32) (ha : σ.Vec a a') (hb : σ.Vec b b') :
    σ.Vec (glm_vec3_center a b) (glm_vec3_center a' b') := by
  obtain ⟨x, y, z⟩ := σ
  obtain ⟨_, _, _⟩ := ha
  obtain ⟨_, _, _⟩ := hb
  simp only [cglm, sqrtf_f32, fabsf_f32, AxisMirror.Vec, AxisMirror.Vec4, AxisMirror.Axis, AxisMirror.Quat, AxisMirror.Mat3, AxisMirror.Mat4, AxisMirror.dual, AxisMirror.odd]
  refine ⟨?_, ?_, ?_⟩ <;> mir x y z

theorem C78_vec3_muladds (σ : AxisMirror) (a a' : V3 F32) (b b' : F32) (d d' : V3 F32) (ha : σ.Vec a a') (hb : Mir false b b') (hd : σ.Vec d d') :
    σ.Vec (glm_vec3_muladds a b d) (glm_vec3_muladds a' b' d') := by
  obtain ⟨x, y, z⟩ := σ
  obtain ⟨_, _, _⟩ := ha
  obtain ⟨_, _, _⟩ := hd
  simp only [cglm, sqrtf_f32, fabsf_f32, AxisMirror.Vec, AxisMirror.Vec4, AxisMirror.Axis, AxisMirror.Quat, AxisMirror.Mat3, AxisMirror.Mat4, AxisMirror.dual, AxisMirror.odd]
  refine ⟨?_, ?_, ?_⟩ <;> mir x y z

theorem C78_vec3_mulsubs (σ : AxisMirror) (a a' : V3 F32) (b b' : F32) (d d' : V3 F32) (ha : σ.Vec a a') (hb : Mir false b b') (hd : σ.Vec d d') :
    σ.Vec (glm_vec3_mulsubs a b d) (glm_vec3_mulsubs a' b' d') := by
  obtain ⟨x, y, z⟩ := σ
  obtain ⟨_, _, _⟩ := ha
  obtain ⟨_, _, _⟩ := hd
  simp only [cglm, sqrtf_f32, fabsf_f32, AxisMirror.Vec, AxisMirror.Vec4, AxisMirror.Axis, AxisMirror.Quat, AxisMirror.Mat3, AxisMirror.Mat4, AxisMirror.dual, AxisMirror.odd]
  refine ⟨?_, ?_, ?_⟩ <;> mir x y z

theorem C78_vec3_reflect (σ : AxisMirror) (a a' : V3 F32) (b b' : V3 F32) (ha : σ.Vec a a') (hb : σ.Vec b b') :
    σ.Vec (glm_vec3_reflect a b) (glm_vec3_reflect a' b') := by
  obtain ⟨x, y, z⟩ := σ
  obtain ⟨_, _, _⟩ := ha
  obtain ⟨_, _, _⟩ := hb
  simp only [cglm, sqrtf_f32, fabsf_f32, AxisMirror.Vec, AxisMirror.Vec4, AxisMirror.Axis, AxisMirror.Quat, AxisMirror.Mat3, AxisMirror.Mat4, AxisMirror.dual, AxisMirror.odd]
  refine ⟨?_, ?_, ?_⟩ <;> mir x y z

theorem C78_vec3_divs (σ : AxisMirror) (a a' : V3 F32) (b b' : F32) (ha : σ.Vec a a') (hb : Mir false b b') (hs : ∀ s, b ≠ F32.zero s) :
    σ.Vec (glm_vec3_divs a b) (glm_vec3_divs a' b') := by
  obtain ⟨x, y, z⟩ := σ
  obtain ⟨_, _, _⟩ := ha
  simp only [cglm, sqrtf_f32, fabsf_f32, AxisMirror.Vec, AxisMirror.Vec4, AxisMirror.Axis, AxisMirror.Quat, AxisMirror.Mat3, AxisMirror.Mat4, AxisMirror.dual, AxisMirror.odd]
  refine ⟨?_, ?_, ?_⟩ <;> mir x y z

theorem C78_vec3_norm_one (σ : AxisMirror) (a a' : V3 F32) (ha : σ.Vec a a') :
    Mir false (glm_vec3_norm_one a) (glm_vec3_norm_one a') := by
  obtain ⟨x, y, z⟩ := σ
  obtain ⟨_, _, _⟩ := ha
  simp only [cglm, sqrtf_f32, fabsf_f32, AxisMirror.Vec, AxisMirror.Vec4, AxisMirror.Axis, AxisMirror.Quat, AxisMirror.Mat3, AxisMirror.Mat4, AxisMirror.dual, AxisMirror.odd]
  mir x y z

theorem C78_mat3_mulv (σ : AxisMirror) (a a' : M3 F32) (b b' : V3 F32) (ha : σ.Mat3 a a') (hb : σ.Vec b b') :
    σ.Vec (glm_mat3_mulv a b) (glm_mat3_mulv a' b') := by
  obtain ⟨x, y, z⟩ := σ
  obtain ⟨⟨_, _, _⟩, ⟨_, _, _⟩, ⟨_, _, _⟩⟩ := ha
  obtain ⟨_, _, _⟩ := hb
  simp only [cglm, sqrtf_f32, fabsf_f32, AxisMirror.Vec, AxisMirror.Vec4, AxisMirror.Axis, AxisMirror.Quat, AxisMirror.Mat3, AxisMirror.Mat4, AxisMirror.dual, AxisMirror.odd]
  refine ⟨?_, ?_, ?_⟩ <;> mir x y z

theorem C78_mat3_mul (σ : AxisMirror) (a a' : M3 F32) (b b' : M3 F32) (ha : σ.Mat3 a a') (hb : σ.Mat3 b b') :
    σ.Mat3 (glm_mat3_mul a b) (glm_mat3_mul a' b') := by
  obtain ⟨x, y, z⟩ := σ
  obtain ⟨⟨_, _, _⟩, ⟨_, _, _⟩, ⟨_, _, _⟩⟩ := ha
  obtain ⟨⟨_, _, _⟩, ⟨_, _, _⟩, ⟨_, _, _⟩⟩ := hb
  simp only [cglm, sqrtf_f32, fabsf_f32, AxisMirror.Vec, AxisMirror.Vec4, AxisMirror.Axis, AxisMirror.Quat, AxisMirror.Mat3, AxisMirror.Mat4, AxisMirror.dual, AxisMirror.odd]
  refine ⟨⟨?_, ?_, ?_⟩, ⟨?_, ?_, ?_⟩, ⟨?_, ?_, ?_⟩⟩ <;> mir x y z

theorem C78_mat3_transpose_to (σ : AxisMirror) (a a' : M3 F32) (ha : σ.Mat3 a a') :
    σ.Mat3 (glm_mat3_transpose_to a) (glm_mat3_transpose_to a') := by
  obtain ⟨x, y, z⟩ := σ
  obtain ⟨⟨_, _, _⟩, ⟨_, _, _⟩, ⟨_, _, _⟩⟩ := ha
  simp only [cglm, sqrtf_f32, fabsf_f32, AxisMirror.Vec, AxisMirror.Vec4, AxisMirror.Axis, AxisMirror.Quat, AxisMirror.Mat3, AxisMirror.Mat4, AxisMirror.dual, AxisMirror.odd]
  refine ⟨⟨?_, ?_, ?_⟩, ⟨?_, ?_, ?_⟩, ⟨?_, ?_, ?_⟩⟩ <;> mir x y z

theorem C78_mat3_scale (σ : AxisMirror) (a a' : M3 F32) (b b' : F32) (ha : σ.Mat3 a a') (hb : Mir false b b') :
    σ.Mat3 (glm_mat3_scale a b) (glm_mat3_scale a' b') := by
  obtain ⟨x, y, z⟩ := σ
  obtain ⟨⟨_, _, _⟩, ⟨_, _, _⟩, ⟨_, _, _⟩⟩ := ha
  simp only [cglm, sqrtf_f32, fabsf_f32, AxisMirror.Vec, AxisMirror.Vec4, AxisMirror.Axis, AxisMirror.Quat, AxisMirror.Mat3, AxisMirror.Mat4, AxisMirror.dual, AxisMirror.odd]
  refine ⟨⟨?_, ?_, ?_⟩, ⟨?_, ?_, ?_⟩, ⟨?_, ?_, ?_⟩⟩ <;> mir x y z

theorem C78_mat3_trace (σ : AxisMirror) (a a' : M3 F32) (ha : σ.Mat3 a a') :
    Mir false (glm_mat3_trace a) (glm_mat3_trace a') := by
  obtain ⟨x, y, z⟩ := σ
  obtain ⟨⟨_, _, _⟩, ⟨_, _, _⟩, ⟨_, _, _⟩⟩ := ha
  simp only [cglm, sqrtf_f32, fabsf_f32, AxisMirror.Vec, AxisMirror.Vec4, AxisMirror.Axis, AxisMirror.Quat, AxisMirror.Mat3, AxisMirror.Mat4, AxisMirror.dual, AxisMirror.odd]
  mir x y z

theorem C78_mat3_det (σ : AxisMirror) (a a' : M3 F32) (ha : σ.Mat3 a a') :
    Mir false (glm_mat3_det a) (glm_mat3_det a') := by
  obtain ⟨x, y, z⟩ := σ
  obtain ⟨⟨_, _, _⟩, ⟨_, _, _⟩, ⟨_, _, _⟩⟩ := ha
  simp only [cglm, sqrtf_f32, fabsf_f32, AxisMirror.Vec, AxisMirror.Vec4, AxisMirror.Axis, AxisMirror.Quat, AxisMirror.Mat3, AxisMirror.Mat4, AxisMirror.dual, AxisMirror.odd]
  mir x y z

theorem C78_mat3_rmc (σ : AxisMirror) (a a' : V3 F32) (b b' : M3 F32) (d d' : V3 F32) (ha : σ.Vec a a') (hb : σ.Mat3 b b') (hd : σ.Vec d d') :
    Mir false (glm_mat3_rmc a b d) (glm_mat3_rmc a' b' d') := by
  obtain ⟨x, y, z⟩ := σ
  obtain ⟨_, _, _⟩ := ha
  obtain ⟨⟨_, _, _⟩, ⟨_, _, _⟩, ⟨_, _, _⟩⟩ := hb
  obtain ⟨_, _, _⟩ := hd
  simp only [cglm, sqrtf_f32, fabsf_f32, AxisMirror.Vec, AxisMirror.Vec4, AxisMirror.Axis, AxisMirror.Quat, AxisMirror.Mat3, AxisMirror.Mat4, AxisMirror.dual, AxisMirror.odd]
  mir x y z

theorem C78_mat4_mulv (σ : AxisMirror) (a a' : M4 F32) (b b' : V4 F32) (ha : σ.Mat4 a a') (hb : σ.Vec4 b b') :
    σ.Vec4 (glm_mat4_mulv a b) (glm_mat4_mulv a' b') := by
  obtain ⟨x, y, z⟩ := σ
  obtain ⟨⟨_, _, _, _⟩, ⟨_, _, _, _⟩, ⟨_, _, _, _⟩, ⟨_, _, _, _⟩⟩ := ha
  obtain ⟨_, _, _, _⟩ := hb
  simp only [cglm, sqrtf_f32, fabsf_f32, AxisMirror.Vec, AxisMirror.Vec4, AxisMirror.Axis, AxisMirror.Quat, AxisMirror.Mat3, AxisMirror.Mat4, AxisMirror.dual, AxisMirror.odd]
  refine ⟨?_, ?_, ?_, ?_⟩ <;> mir x y z

theorem C78_mat4_mul (σ : AxisMirror) (a a' : M4 F32) (b b' : M4 F32) (ha : σ.Mat4 a a') (hb : σ.Mat4 b b') :
    σ.Mat4 (glm_mat4_mul a b) (glm_mat4_mul a' b') := by
  obtain ⟨x, y, z⟩ := σ
  obtain ⟨⟨_, _, _, _⟩, ⟨_, _, _, _⟩, ⟨_, _, _, _⟩, ⟨_, _, _, _⟩⟩ := ha
  obtain ⟨⟨_, _, _, _⟩, ⟨_, _, _, _⟩, ⟨_, _, _, _⟩, ⟨_, _, _, _⟩⟩ := hb
  simp only [cglm, sqrtf_f32, fabsf_f32, AxisMirror.Vec, AxisMirror.Vec4, AxisMirror.Axis, AxisMirror.Quat, AxisMirror.Mat3, AxisMirror.Mat4, AxisMirror.dual, AxisMirror.odd]
  refine ⟨⟨?_, ?_, ?_, ?_⟩, ⟨?_, ?_, ?_, ?_⟩, ⟨?_, ?_, ?_, ?_⟩, ⟨?_, ?_, ?_, ?_⟩⟩ <;> mir x y z

theorem C78_mat4_transpose_to (σ : AxisMirror) (a a' : M4 F32) (ha : σ.Mat4 a a') :
    σ.Mat4 (glm_mat4_transpose_to a) (glm_mat4_transpose_to a') := by
  obtain ⟨x, y, z⟩ := σ
  obtain ⟨⟨_, _, _, _⟩, ⟨_, _, _, _⟩, ⟨_, _, _, _⟩, ⟨_, _, _, _⟩⟩ := ha
  simp only [cglm, sqrtf_f32, fabsf_f32, AxisMirror.Vec, AxisMirror.Vec4, AxisMirror.Axis, AxisMirror.Quat, AxisMirror.Mat3, AxisMirror.Mat4, AxisMirror.dual, AxisMirror.odd]
  refine ⟨⟨?_, ?_, ?_, ?_⟩, ⟨?_, ?_, ?_, ?_⟩, ⟨?_, ?_, ?_, ?_⟩, ⟨?_, ?_, ?_, ?_⟩⟩ <;> mir x y z

theorem C78_mat4_scale (σ : AxisMirror) (a a' : M4 F32) (b b' : F32) (ha : σ.Mat4 a a') (hb : Mir false b b') :
    σ.Mat4 (glm_mat4_scale a b) (glm_mat4_scale a' b') := by
  obtain ⟨x, y, z⟩ := σ
  obtain ⟨⟨_, _, _, _⟩, ⟨_, _, _, _⟩, ⟨_, _, _, _⟩, ⟨_, _, _, _⟩⟩ := ha
  simp only [cglm, sqrtf_f32, fabsf_f32, AxisMirror.Vec, AxisMirror.Vec4, AxisMirror.Axis, AxisMirror.Quat, AxisMirror.Mat3, AxisMirror.Mat4, AxisMirror.dual, AxisMirror.odd]
  refine ⟨⟨?_, ?_, ?_, ?_⟩, ⟨?_, ?_, ?_, ?_⟩, ⟨?_, ?_, ?_, ?_⟩, ⟨?_, ?_, ?_, ?_⟩⟩ <;> mir x y z

theorem C78_mat4_trace (σ : AxisMirror) (a a' : M4 F32) (ha : σ.Mat4 a a') :
    Mir false (glm_mat4_trace a) (glm_mat4_trace a') := by
  obtain ⟨x, y, z⟩ := σ
  obtain ⟨⟨_, _, _, _⟩, ⟨_, _, _, _⟩, ⟨_, _, _, _⟩, ⟨_, _, _, _⟩⟩ := ha
  simp only [cglm, sqrtf_f32, fabsf_f32, AxisMirror.Vec, AxisMirror.Vec4, AxisMirror.Axis, AxisMirror.Quat, AxisMirror.Mat3, AxisMirror.Mat4, AxisMirror.dual, AxisMirror.odd]
  mir x y z

theorem C78_mat4_trace3 (σ : AxisMirror) (a a' : M4 F32) (ha : σ.Mat4 a a') :
    Mir false (glm_mat4_trace3 a) (glm_mat4_trace3 a') := by
  obtain ⟨x, y, z⟩ := σ
  obtain ⟨⟨_, _, _, _⟩, ⟨_, _, _, _⟩, ⟨_, _, _, _⟩, ⟨_, _, _, _⟩⟩ := ha
  simp only [cglm, sqrtf_f32, fabsf_f32, AxisMirror.Vec, AxisMirror.Vec4, AxisMirror.Axis, AxisMirror.Quat, AxisMirror.Mat3, AxisMirror.Mat4, AxisMirror.dual, AxisMirror.odd]
  mir x y z

theorem C78_mat4_det (σ : AxisMirror) (a a' : M4 F32) (ha : σ.Mat4 a a') :
    Mir false (glm_mat4_det a) (glm_mat4_det a') := by
  obtain ⟨x, y, z⟩ := σ
  obtain ⟨⟨_, _, _, _⟩, ⟨_, _, _, _⟩, ⟨_, _, _, _⟩, ⟨_, _, _, _⟩⟩ := ha
  simp only [cglm, sqrtf_f32, fabsf_f32, AxisMirror.Vec, AxisMirror.Vec4, AxisMirror.Axis, AxisMirror.Quat, AxisMirror.Mat3, AxisMirror.Mat4, AxisMirror.dual, AxisMirror.odd]
  mir x y z

theorem C78_mat4_rmc (σ : AxisMirror) (a a' : V4 F32) (b b' : M4 F32) (d d' : V4 F32) (ha : σ.Vec4 a a') (hb : σ.Mat4 b b') (hd : σ.Vec4 d d') :
    Mir false (glm_mat4_rmc a b d) (glm_mat4_rmc a' b' d') := by
  obtain ⟨x, y, z⟩ := σ
  obtain ⟨_, _, _, _⟩ := ha
  obtain ⟨⟨_, _, _, _⟩, ⟨_, _, _, _⟩, ⟨_, _, _, _⟩, ⟨_, _, _, _⟩⟩ := hb
  obtain ⟨_, _, _, _⟩ := hd
  simp only [cglm, sqrtf_f32, fabsf_f32, AxisMirror.Vec, AxisMirror.Vec4, AxisMirror.Axis, AxisMirror.Quat, AxisMirror.Mat3, AxisMirror.Mat4, AxisMirror.dual, AxisMirror.odd]
  mir x y z

theorem C78_mat4_mulv3 (σ : AxisMirror) (a a' : M4 F32) (b b' : V3 F32) (d d' : F32) (ha : σ.Mat4 a a') (hb : σ.Vec b b') (hd : Mir false d d') :
    σ.Vec (glm_mat4_mulv3 a b d) (glm_mat4_mulv3 a' b' d') := by
  obtain ⟨x, y, z⟩ := σ
  obtain ⟨⟨_, _, _, _⟩, ⟨_, _, _, _⟩, ⟨_, _, _, _⟩, ⟨_, _, _, _⟩⟩ := ha
  obtain ⟨_, _, _⟩ := hb
  simp only [cglm, sqrtf_f32, fabsf_f32, AxisMirror.Vec, AxisMirror.Vec4, AxisMirror.Axis, AxisMirror.Quat, AxisMirror.Mat3, AxisMirror.Mat4, AxisMirror.dual, AxisMirror.odd]
  refine ⟨?_, ?_, ?_⟩ <;> mir x y z

theorem C78_mat4_pick3 (σ : AxisMirror) (a a' : M4 F32) (ha : σ.Mat4 a a') :
    σ.Mat3 (glm_mat4_pick3 a) (glm_mat4_pick3 a') := by
  obtain ⟨x, y, z⟩ := σ
  obtain ⟨⟨_, _, _, _⟩, ⟨_, _, _, _⟩, ⟨_, _, _, _⟩, ⟨_, _, _, _⟩⟩ := ha
  simp only [cglm, sqrtf_f32, fabsf_f32, AxisMirror.Vec, AxisMirror.Vec4, AxisMirror.Axis, AxisMirror.Quat, AxisMirror.Mat3, AxisMirror.Mat4, AxisMirror.dual, AxisMirror.odd]
  refine ⟨⟨?_, ?_, ?_⟩, ⟨?_, ?_, ?_⟩, ⟨?_, ?_, ?_⟩⟩ <;> mir x y z

theorem C78_mat4_pick3t (σ : AxisMirror) (a a' : M4 F32) (ha : σ.Mat4 a a') :
    σ.Mat3 (glm_mat4_pick3t a) (glm_mat4_pick3t a') := by
  obtain ⟨x, y, z⟩ := σ
  obtain ⟨⟨_, _, _, _⟩, ⟨_, _, _, _⟩, ⟨_, _, _, _⟩, ⟨_, _, _, _⟩⟩ := ha
  simp only [cglm, sqrtf_f32, fabsf_f32, AxisMirror.Vec, AxisMirror.Vec4, AxisMirror.Axis, AxisMirror.Quat, AxisMirror.Mat3, AxisMirror.Mat4, AxisMirror.dual, AxisMirror.odd]
  refine ⟨⟨?_, ?_, ?_⟩, ⟨?_, ?_, ?_⟩, ⟨?_, ?_, ?_⟩⟩ <;> mir x y z

theorem C78_mat4_ins3 (σ : AxisMirror) (a a' : M3 F32) (b b' : M4 F32) (ha : σ.Mat3 a a') (hb : σ.Mat4 b b') :
    σ.Mat4 (glm_mat4_ins3 a b) (glm_mat4_ins3 a' b') := by
  obtain ⟨x, y, z⟩ := σ
  obtain ⟨⟨_, _, _⟩, ⟨_, _, _⟩, ⟨_, _, _⟩⟩ := ha
  obtain ⟨⟨_, _, _, _⟩, ⟨_, _, _, _⟩, ⟨_, _, _, _⟩, ⟨_, _, _, _⟩⟩ := hb
  simp only [cglm, sqrtf_f32, fabsf_f32, AxisMirror.Vec, AxisMirror.Vec4, AxisMirror.Axis, AxisMirror.Quat, AxisMirror.Mat3, AxisMirror.Mat4, AxisMirror.dual, AxisMirror.odd]
  refine ⟨⟨?_, ?_, ?_, ?_⟩, ⟨?_, ?_, ?_, ?_⟩, ⟨?_, ?_, ?_, ?_⟩, ⟨?_, ?_, ?_, ?_⟩⟩ <;> mir x y z

theorem C78_mul (σ : AxisMirror) (a a' : M4 F32) (b b' : M4 F32) (ha : σ.Mat4 a a') (hb : σ.Mat4 b b') :
    σ.Mat4 (glm_mul a b) (glm_mul a' b') := by
  obtain ⟨x, y, z⟩ := σ
  obtain ⟨⟨_, _, _, _⟩, ⟨_, _, _, _⟩, ⟨_, _, _, _⟩, ⟨_, _, _, _⟩⟩ := ha
  obtain ⟨⟨_, _, _, _⟩, ⟨_, _, _, _⟩, ⟨_, _, _, _⟩, ⟨_, _, _, _⟩⟩ := hb
  simp only [cglm, sqrtf_f32, fabsf_f32, AxisMirror.Vec, AxisMirror.Vec4, AxisMirror.Axis, AxisMirror.Quat, AxisMirror.Mat3, AxisMirror.Mat4, AxisMirror.dual, AxisMirror.odd]
  refine ⟨⟨?_, ?_, ?_, ?_⟩, ⟨?_, ?_, ?_, ?_⟩, ⟨?_, ?_, ?_, ?_⟩, ⟨?_, ?_, ?_, ?_⟩⟩ <;> mir x y z

theorem C78_mul_rot (σ : AxisMirror) (a a' : M4 F32) (b b' : M4 F32) (ha : σ.Mat4 a a') (hb : σ.Mat4 b b') :
    σ.Mat4 (glm_mul_rot a b) (glm_mul_rot a' b') := by
  obtain ⟨x, y, z⟩ := σ
  obtain ⟨⟨_, _, _, _⟩, ⟨_, _, _, _⟩, ⟨_, _, _, _⟩, ⟨_, _, _, _⟩⟩ := ha
  obtain ⟨⟨_, _, _, _⟩, ⟨_, _, _, _⟩, ⟨_, _, _, _⟩, ⟨_, _, _, _⟩⟩ := hb
  simp only [cglm, sqrtf_f32, fabsf_f32, AxisMirror.Vec, AxisMirror.Vec4, AxisMirror.Axis, AxisMirror.Quat, AxisMirror.Mat3, AxisMirror.Mat4, AxisMirror.dual, AxisMirror.odd]
  refine ⟨⟨?_, ?_, ?_, ?_⟩, ⟨?_, ?_, ?_, ?_⟩, ⟨?_, ?_, ?_, ?_⟩, ⟨?_, ?_, ?_, ?_⟩⟩ <;> mir x y z

theorem C78_inv_tr (σ : AxisMirror) (a a' : M4 F32) (ha : σ.Mat4 a a') :
    σ.Mat4 (glm_inv_tr a) (glm_inv_tr a') := by
  obtain ⟨x, y, z⟩ := σ
  obtain ⟨⟨_, _, _, _⟩, ⟨_, _, _, _⟩, ⟨_, _, _, _⟩, ⟨_, _, _, _⟩⟩ := ha
  simp only [cglm, sqrtf_f32, fabsf_f32, AxisMirror.Vec, AxisMirror.Vec4, AxisMirror.Axis, AxisMirror.Quat, AxisMirror.Mat3, AxisMirror.Mat4, AxisMirror.dual, AxisMirror.odd]
  refine ⟨⟨?_, ?_, ?_, ?_⟩, ⟨?_, ?_, ?_, ?_⟩, ⟨?_, ?_, ?_, ?_⟩, ⟨?_, ?_, ?_, ?_⟩⟩ <;> mir x y z

theorem C78_translate (σ : AxisMirror) (a a' : M4 F32) (b b' : V3 F32) (ha : σ.Mat4 a a') (hb : σ.Vec b b') :
    σ.Mat4 (glm_translate a b) (glm_translate a' b') := by
  obtain ⟨x, y, z⟩ := σ
  obtain ⟨⟨_, _, _, _⟩, ⟨_, _, _, _⟩, ⟨_, _, _, _⟩, ⟨_, _, _, _⟩⟩ := ha
  obtain ⟨_, _, _⟩ := hb
  simp only [cglm, sqrtf_f32, fabsf_f32, AxisMirror.Vec, AxisMirror.Vec4, AxisMirror.Axis, AxisMirror.Quat, AxisMirror.Mat3, AxisMirror.Mat4, AxisMirror.dual, AxisMirror.odd]
  refine ⟨⟨?_, ?_, ?_, ?_⟩, ⟨?_, ?_, ?_, ?_⟩, ⟨?_, ?_, ?_, ?_⟩, ⟨?_, ?_, ?_, ?_⟩⟩ <;> mir x y z

theorem C78_translate_to (σ : AxisMirror) (a a' : M4 F32) (b b' : V3 F32) (ha : σ.Mat4 a a') (hb : σ.Vec b b') :
    σ.Mat4 (glm_translate_to a b) (glm_translate_to a' b') := by
  obtain ⟨x, y, z⟩ := σ
  obtain ⟨⟨_, _, _, _⟩, ⟨_, _, _, _⟩, ⟨_, _, _, _⟩, ⟨_, _, _, _⟩⟩ := ha
  obtain ⟨_, _, _⟩ := hb
  simp only [cglm, sqrtf_f32, fabsf_f32, AxisMirror.Vec, AxisMirror.Vec4, AxisMirror.Axis, AxisMirror.Quat, AxisMirror.Mat3, AxisMirror.Mat4, AxisMirror.dual, AxisMirror.odd]
  refine ⟨⟨?_, ?_, ?_, ?_⟩, ⟨?_, ?_, ?_, ?_⟩, ⟨?_, ?_, ?_, ?_⟩, ⟨?_, ?_, ?_, ?_⟩⟩ <;> mir x y z

theorem C78_translate_make (σ : AxisMirror) (a a' : V3 F32) (ha : σ.Vec a a') :
    σ.Mat4 (glm_translate_make a) (glm_translate_make a') := by
  obtain ⟨x, y, z⟩ := σ
  obtain ⟨_, _, _⟩ := ha
  simp only [cglm, sqrtf_f32, fabsf_f32, AxisMirror.Vec, AxisMirror.Vec4, AxisMirror.Axis, AxisMirror.Quat, AxisMirror.Mat3, AxisMirror.Mat4, AxisMirror.dual, AxisMirror.odd]
  refine ⟨⟨?_, ?_, ?_, ?_⟩, ⟨?_, ?_, ?_, ?_⟩, ⟨?_, ?_, ?_, ?_⟩, ⟨?_, ?_, ?_, ?_⟩⟩ <;> mir x y z

theorem C78_scale (σ : AxisMirror) (a a' : M4 F32) (b : V3 F32) (ha : σ.Mat4 a a') :
    σ.Mat4 (glm_scale a b) (glm_scale a' b) := by
  obtain ⟨x, y, z⟩ := σ
  obtain ⟨⟨_, _, _, _⟩, ⟨_, _, _, _⟩, ⟨_, _, _, _⟩, ⟨_, _, _, _⟩⟩ := ha
  simp only [cglm, sqrtf_f32, fabsf_f32, AxisMirror.Vec, AxisMirror.Vec4, AxisMirror.Axis, AxisMirror.Quat, AxisMirror.Mat3, AxisMirror.Mat4, AxisMirror.dual, AxisMirror.odd]
  refine ⟨⟨?_, ?_, ?_, ?_⟩, ⟨?_, ?_, ?_, ?_⟩, ⟨?_, ?_, ?_, ?_⟩, ⟨?_, ?_, ?_, ?_⟩⟩ <;> mir x y z

theorem C78_scale_to (σ : AxisMirror) (a a' : M4 F32) (b : V3 F32) (ha : σ.Mat4 a a') :
    σ.Mat4 (glm_scale_to a b) (glm_scale_to a' b) := by
  obtain ⟨x, y, z⟩ := σ
  obtain ⟨⟨_, _, _, _⟩, ⟨_, _, _, _⟩, ⟨_, _, _, _⟩, ⟨_, _, _, _⟩⟩ := ha
  simp only [cglm, sqrtf_f32, fabsf_f32, AxisMirror.Vec, AxisMirror.Vec4, AxisMirror.Axis, AxisMirror.Quat, AxisMirror.Mat3, AxisMirror.Mat4, AxisMirror.dual, AxisMirror.odd]
  refine ⟨⟨?_, ?_, ?_, ?_⟩, ⟨?_, ?_, ?_, ?_⟩, ⟨?_, ?_, ?_, ?_⟩, ⟨?_, ?_, ?_, ?_⟩⟩ <;> mir x y z

theorem C78_scale_make (σ : AxisMirror) (a : V3 F32) :
    σ.Mat4 (glm_scale_make a) (glm_scale_make a) := by
  obtain ⟨x, y, z⟩ := σ
  simp only [cglm, sqrtf_f32, fabsf_f32, AxisMirror.Vec, AxisMirror.Vec4, AxisMirror.Axis, AxisMirror.Quat, AxisMirror.Mat3, AxisMirror.Mat4, AxisMirror.dual, AxisMirror.odd]
  refine ⟨⟨?_, ?_, ?_, ?_⟩, ⟨?_, ?_, ?_, ?_⟩, ⟨?_, ?_, ?_, ?_⟩, ⟨?_, ?_, ?_, ?_⟩⟩ <;> mir x y z

theorem C78_scale_uni (σ : AxisMirror) (a a' : M4 F32) (b b' : F32) (ha : σ.Mat4 a a') (hb : Mir false b b') :
    σ.Mat4 (glm_scale_uni a b) (glm_scale_uni a' b') := by
  obtain ⟨x, y, z⟩ := σ
  obtain ⟨⟨_, _, _, _⟩, ⟨_, _, _, _⟩, ⟨_, _, _, _⟩, ⟨_, _, _, _⟩⟩ := ha
  simp only [cglm, sqrtf_f32, fabsf_f32, AxisMirror.Vec, AxisMirror.Vec4, AxisMirror.Axis, AxisMirror.Quat, AxisMirror.Mat3, AxisMirror.Mat4, AxisMirror.dual, AxisMirror.odd]
  refine ⟨⟨?_, ?_, ?_, ?_⟩, ⟨?_, ?_, ?_, ?_⟩, ⟨?_, ?_, ?_, ?_⟩, ⟨?_, ?_, ?_, ?_⟩⟩ <;> mir x y z

theorem C78_quat_mul (σ : AxisMirror) (a a' : V4 F32) (b b' : V4 F32) (ha : σ.Quat a a') (hb : σ.Quat b b') :
    σ.Quat (glm_quat_mul a b) (glm_quat_mul a' b') := by
  obtain ⟨x, y, z⟩ := σ
  obtain ⟨_, _, _, _⟩ := ha
  obtain ⟨_, _, _, _⟩ := hb
  simp only [cglm, sqrtf_f32, fabsf_f32, AxisMirror.Vec, AxisMirror.Vec4, AxisMirror.Axis, AxisMirror.Quat, AxisMirror.Mat3, AxisMirror.Mat4, AxisMirror.dual, AxisMirror.odd]
  refine ⟨?_, ?_, ?_, ?_⟩ <;> mir x y z

theorem C78_quat_conjugate (σ : AxisMirror) (a a' : V4 F32) (ha : σ.Quat a a') :
    σ.Quat (glm_quat_conjugate a) (glm_quat_conjugate a') := by
  obtain ⟨x, y, z⟩ := σ
  obtain ⟨_, _, _, _⟩ := ha
  simp only [cglm, sqrtf_f32, fabsf_f32, AxisMirror.Vec, AxisMirror.Vec4, AxisMirror.Axis, AxisMirror.Quat, AxisMirror.Mat3, AxisMirror.Mat4, AxisMirror.dual, AxisMirror.odd]
  refine ⟨?_, ?_, ?_, ?_⟩ <;> mir x y z

theorem C78_quat_dot (σ : AxisMirror) (a a' : V4 F32) (b b' : V4 F32) (ha : σ.Quat a a') (hb : σ.Quat b b') :
    Mir false (glm_quat_dot a b) (glm_quat_dot a' b') := by
  obtain ⟨x, y, z⟩ := σ
  obtain ⟨_, _, _, _⟩ := ha
  obtain ⟨_, _, _, _⟩ := hb
  simp only [cglm, sqrtf_f32, fabsf_f32, AxisMirror.Vec, AxisMirror.Vec4, AxisMirror.Axis, AxisMirror.Quat, AxisMirror.Mat3, AxisMirror.Mat4, AxisMirror.dual, AxisMirror.odd]
  mir x y z

theorem C78_quat_norm (σ : AxisMirror) (a a' : V4 F32) (ha : σ.Quat a a') :
    Mir false (glm_quat_norm a) (glm_quat_norm a') := by
  obtain ⟨x, y, z⟩ := σ
  obtain ⟨_, _, _, _⟩ := ha
  simp only [cglm, sqrtf_f32, fabsf_f32, AxisMirror.Vec, AxisMirror.Vec4, AxisMirror.Axis, AxisMirror.Quat, AxisMirror.Mat3, AxisMirror.Mat4, AxisMirror.dual, AxisMirror.odd]
  mir x y z

theorem C78_quat_add (σ : AxisMirror) (a a' : V4 F32) (b b' : V4 F32) (ha : σ.Quat a a') (hb : σ.Quat b b') :
    σ.Quat (glm_quat_add a b) (glm_quat_add a' b') := by
  obtain ⟨x, y, z⟩ := σ
  obtain ⟨_, _, _, _⟩ := ha
  obtain ⟨_, _, _, _⟩ := hb
  simp only [cglm, sqrtf_f32, fabsf_f32, AxisMirror.Vec, AxisMirror.Vec4, AxisMirror.Axis, AxisMirror.Quat, AxisMirror.Mat3, AxisMirror.Mat4, AxisMirror.dual, AxisMirror.odd]
  refine ⟨?_, ?_, ?_, ?_⟩ <;> mir x y z

theorem C78_quat_sub (σ : AxisMirror) (a a' : V4 F32) (b b' : V4 F32) (ha : σ.Quat a a') (hb : σ.Quat b b') :
    σ.Quat (glm_quat_sub a b) (glm_quat_sub a' b') := by
  obtain ⟨x, y, z⟩ := σ
  obtain ⟨_, _, _, _⟩ := ha
  obtain ⟨_, _, _, _⟩ := hb
  simp only [cglm, sqrtf_f32, fabsf_f32, AxisMirror.Vec, AxisMirror.Vec4, AxisMirror.Axis, AxisMirror.Quat, AxisMirror.Mat3, AxisMirror.Mat4, AxisMirror.dual, AxisMirror.odd]
  refine ⟨?_, ?_, ?_, ?_⟩ <;> mir x y z

theorem C78_quat_lerp (σ : AxisMirror) (a a' : V4 F32) (b b' : V4 F32) (d d' : F32) (ha : σ.Quat a a') (hb : σ.Quat b b') (hd : Mir false d d') :
    σ.Quat (glm_quat_lerp a b d) (glm_quat_lerp a' b' d') := by
  obtain ⟨x, y, z⟩ := σ
  obtain ⟨_, _, _, _⟩ := ha
  obtain ⟨_, _, _, _⟩ := hb
  simp only [cglm, sqrtf_f32, fabsf_f32, AxisMirror.Vec, AxisMirror.Vec4, AxisMirror.Axis, AxisMirror.Quat, AxisMirror.Mat3, AxisMirror.Mat4, AxisMirror.dual, AxisMirror.odd]
  refine ⟨?_, ?_, ?_, ?_⟩ <;> mir x y z

theorem C78_quat_imag (σ : AxisMirror) (a a' : V4 F32) (ha : σ.Quat a a') :
    σ.Axis (glm_quat_imag a) (glm_quat_imag a') := by
  obtain ⟨x, y, z⟩ := σ
  obtain ⟨_, _, _, _⟩ := ha
  simp only [cglm, sqrtf_f32, fabsf_f32, AxisMirror.Vec, AxisMirror.Vec4, AxisMirror.Axis, AxisMirror.Quat, AxisMirror.Mat3, AxisMirror.Mat4, AxisMirror.dual, AxisMirror.odd]
  refine ⟨?_, ?_, ?_⟩ <;> mir x y z

theorem C78_quat_real (σ : AxisMirror) (a a' : V4 F32) (ha : σ.Quat a a') :
    Mir false (glm_quat_real a) (glm_quat_real a') := by
  obtain ⟨x, y, z⟩ := σ
  obtain ⟨_, _, _, _⟩ := ha
  simp only [cglm, sqrtf_f32, fabsf_f32, AxisMirror.Vec, AxisMirror.Vec4, AxisMirror.Axis, AxisMirror.Quat, AxisMirror.Mat3, AxisMirror.Mat4, AxisMirror.dual, AxisMirror.odd]
  mir x y z

theorem C78_quat_imaglen (σ : AxisMirror) (a a' : V4 F32) (ha : σ.Quat a a') :
    Mir false (glm_quat_imaglen a) (glm_quat_imaglen a') := by
  obtain ⟨x, y, z⟩ := σ
  obtain ⟨_, _, _, _⟩ := ha
  simp only [cglm, sqrtf_f32, fabsf_f32, AxisMirror.Vec, AxisMirror.Vec4, AxisMirror.Axis, AxisMirror.Quat, AxisMirror.Mat3, AxisMirror.Mat4, AxisMirror.dual, AxisMirror.odd]
  mir x y z

theorem C78_ray_at (σ : AxisMirror) (a a' : V3 F32) (b b' : V3 F32) (d d' : F32) (ha : σ.Vec a a') (hb : σ.Vec b b') (hd : Mir false d d') :
    σ.Vec (glm_ray_at a b d) (glm_ray_at a' b' d') := by
  obtain ⟨x, y, z⟩ := σ
  obtain ⟨_, _, _⟩ := ha
  obtain ⟨_, _, _⟩ := hb
  simp only [cglm, sqrtf_f32, fabsf_f32, AxisMirror.Vec, AxisMirror.Vec4, AxisMirror.Axis, AxisMirror.Quat, AxisMirror.Mat3, AxisMirror.Mat4, AxisMirror.dual, AxisMirror.odd]
  refine ⟨?_, ?_, ?_⟩ <;> mir x y z

theorem C78_sphere_transform (σ : AxisMirror) (a a' : V4 F32) (b b' : M4 F32) (ha : σ.Vec4 a a') (hb : σ.Mat4 b b') :
    σ.Vec4 (glm_sphere_transform a b) (glm_sphere_transform a' b') := by
  obtain ⟨x, y, z⟩ := σ
  obtain ⟨_, _, _, _⟩ := ha
  obtain ⟨⟨_, _, _, _⟩, ⟨_, _, _, _⟩, ⟨_, _, _, _⟩, ⟨_, _, _, _⟩⟩ := hb
  simp only [cglm, sqrtf_f32, fabsf_f32, AxisMirror.Vec, AxisMirror.Vec4, AxisMirror.Axis, AxisMirror.Quat, AxisMirror.Mat3, AxisMirror.Mat4, AxisMirror.dual, AxisMirror.odd]
  refine ⟨?_, ?_, ?_, ?_⟩ <;> mir x y z

theorem C78_mat4_copy (σ : AxisMirror) (a a' : M4 F32) (ha : σ.Mat4 a a') :
    σ.Mat4 (glm_mat4_copy a) (glm_mat4_copy a') := by
  obtain ⟨x, y, z⟩ := σ
  obtain ⟨⟨_, _, _, _⟩, ⟨_, _, _, _⟩, ⟨_, _, _, _⟩, ⟨_, _, _, _⟩⟩ := ha
  simp only [cglm, sqrtf_f32, fabsf_f32, AxisMirror.Vec, AxisMirror.Vec4, AxisMirror.Axis, AxisMirror.Quat, AxisMirror.Mat3, AxisMirror.Mat4, AxisMirror.dual, AxisMirror.odd]
  refine ⟨⟨?_, ?_, ?_, ?_⟩, ⟨?_, ?_, ?_, ?_⟩, ⟨?_, ?_, ?_, ?_⟩, ⟨?_, ?_, ?_, ?_⟩⟩ <;> mir x y z

theorem C78_mat3_copy (σ : AxisMirror) (a a' : M3 F32) (ha : σ.Mat3 a a') :
    σ.Mat3 (glm_mat3_copy a) (glm_mat3_copy a') := by
  obtain ⟨x, y, z⟩ := σ
  obtain ⟨⟨_, _, _⟩, ⟨_, _, _⟩, ⟨_, _, _⟩⟩ := ha
  simp only [cglm, sqrtf_f32, fabsf_f32, AxisMirror.Vec, AxisMirror.Vec4, AxisMirror.Axis, AxisMirror.Quat, AxisMirror.Mat3, AxisMirror.Mat4, AxisMirror.dual, AxisMirror.odd]
  refine ⟨⟨?_, ?_, ?_⟩, ⟨?_, ?_, ?_⟩, ⟨?_, ?_, ?_⟩⟩ <;> mir x y z

theorem C78_mat4_identity (σ : AxisMirror)  :
    σ.Mat4 glm_mat4_identity glm_mat4_identity := by
  obtain ⟨x, y, z⟩ := σ
  simp only [cglm, sqrtf_f32, fabsf_f32, AxisMirror.Vec, AxisMirror.Vec4, AxisMirror.Axis, AxisMirror.Quat, AxisMirror.Mat3, AxisMirror.Mat4, AxisMirror.dual, AxisMirror.odd]
  refine ⟨⟨?_, ?_, ?_, ?_⟩, ⟨?_, ?_, ?_, ?_⟩, ⟨?_, ?_, ?_, ?_⟩, ⟨?_, ?_, ?_, ?_⟩⟩ <;> mir x y z

theorem C78_mat3_identity (σ : AxisMirror)  :
    σ.Mat3 glm_mat3_identity glm_mat3_identity := by
  obtain ⟨x, y, z⟩ := σ
  simp only [cglm, sqrtf_f32, fabsf_f32, AxisMirror.Vec, AxisMirror.Vec4, AxisMirror.Axis, AxisMirror.Quat, AxisMirror.Mat3, AxisMirror.Mat4, AxisMirror.dual, AxisMirror.odd]
  refine ⟨⟨?_, ?_, ?_⟩, ⟨?_, ?_, ?_⟩, ⟨?_, ?_, ?_⟩⟩ <;> mir x y z

theorem C78_quat_identity (σ : AxisMirror)  :
    σ.Quat glm_quat_identity glm_quat_identity := by
  obtain ⟨x, y, z⟩ := σ
  simp only [cglm, sqrtf_f32, fabsf_f32, AxisMirror.Vec, AxisMirror.Vec4, AxisMirror.Axis, AxisMirror.Quat, AxisMirror.Mat3, AxisMirror.Mat4, AxisMirror.dual, AxisMirror.odd]
  refine ⟨?_, ?_, ?_, ?_⟩ <;> mir x y z

end Cglm
