import Verif.F32Map
import Verif.Gen
/-!
# C64: rounding error of matrix functions

`Err f x c B e` says: if the computed binary32 number `f` is finite, it is within `c·B + e` of the
real number `x`.  In every theorem `x` is the same C function evaluated over ℝ on the values of the
arguments, `γ n = n·u/(1 − n·u)` with `u = 2⁻²⁴`, and `B` is the same expression with every operand
replaced by its magnitude and every subtraction by an addition.  `e` bounds what underflow of the
products can add.  Arguments are arbitrary, including NaN and infinities.
Written by `tools/errthms.py`.
-/
open Cglm F32
namespace Cglm
variable [Libm]

theorem C64_mat2_mulv (m : M2 F32) (v : V2 F32) :
    (glm_mat2_mulv m v).Err (glm_mat2_mulv (m.map toReal) (v.map toReal)) (γ 2)
      (glm_mat2_mulv (m.map mag) (v.map mag)) (1 / 2 ^ 146) := by
  simp only [cglm, M2.map, V2.map, V2.Err]
  refine ⟨?_, ?_⟩ <;> err 2

theorem C64_mat2_mul (a : M2 F32) (b : M2 F32) :
    (glm_mat2_mul a b).Err (glm_mat2_mul (a.map toReal) (b.map toReal)) (γ 2)
      (glm_mat2_mul (a.map mag) (b.map mag)) (1 / 2 ^ 146) := by
  simp only [cglm, M2.map, V2.map, M2.Err, V2.Err]
  refine ⟨⟨?_, ?_⟩, ⟨?_, ?_⟩⟩ <;> err 2

theorem C64_mat2_trace (m : M2 F32) :
    Err (glm_mat2_trace m) (glm_mat2_trace (m.map toReal)) (γ 1)
      (glm_mat2_trace (m.map mag)) (1 / 2 ^ 146) := by
  simp only [cglm, M2.map, V2.map]
  err 1

theorem C64_mat3_mulv (m : M3 F32) (v : V3 F32) :
    (glm_mat3_mulv m v).Err (glm_mat3_mulv (m.map toReal) (v.map toReal)) (γ 3)
      (glm_mat3_mulv (m.map mag) (v.map mag)) (1 / 2 ^ 146) := by
  simp only [cglm, M3.map, V3.map, V3.Err]
  refine ⟨?_, ?_, ?_⟩ <;> err 3

theorem C64_mat3_mul (a : M3 F32) (b : M3 F32) :
    (glm_mat3_mul a b).Err (glm_mat3_mul (a.map toReal) (b.map toReal)) (γ 3)
      (glm_mat3_mul (a.map mag) (b.map mag)) (1 / 2 ^ 146) := by
  simp only [cglm, M3.map, V3.map, M3.Err, V3.Err]
  refine ⟨⟨?_, ?_, ?_⟩, ⟨?_, ?_, ?_⟩, ⟨?_, ?_, ?_⟩⟩ <;> err 3

theorem C64_mat3_trace (m : M3 F32) :
    Err (glm_mat3_trace m) (glm_mat3_trace (m.map toReal)) (γ 2)
      (glm_mat3_trace (m.map mag)) (1 / 2 ^ 146) := by
  simp only [cglm, M3.map, V3.map]
  err 2

theorem C64_mat4_mulv (m : M4 F32) (v : V4 F32) :
    (glm_mat4_mulv m v).Err (glm_mat4_mulv (m.map toReal) (v.map toReal)) (γ 4)
      (glm_mat4_mulv (m.map mag) (v.map mag)) (1 / 2 ^ 146) := by
  simp only [cglm, M4.map, V4.map, V4.Err]
  refine ⟨?_, ?_, ?_, ?_⟩ <;> err 4

theorem C64_mat4_mul (a : M4 F32) (b : M4 F32) :
    (glm_mat4_mul a b).Err (glm_mat4_mul (a.map toReal) (b.map toReal)) (γ 4)
      (glm_mat4_mul (a.map mag) (b.map mag)) (1 / 2 ^ 146) := by
  simp only [cglm, M4.map, V4.map, M4.Err, V4.Err]
  refine ⟨⟨?_, ?_, ?_, ?_⟩, ⟨?_, ?_, ?_, ?_⟩, ⟨?_, ?_, ?_, ?_⟩, ⟨?_, ?_, ?_, ?_⟩⟩ <;> err 4

theorem C64_mat4_trace (m : M4 F32) :
    Err (glm_mat4_trace m) (glm_mat4_trace (m.map toReal)) (γ 3)
      (glm_mat4_trace (m.map mag)) (1 / 2 ^ 146) := by
  simp only [cglm, M4.map, V4.map]
  err 3

theorem C64_mat2_det (m : M2 F32) :
    Err (glm_mat2_det m) (glm_mat2_det (m.map toReal)) (γ 2)
      (m.c0.x.mag * m.c1.y.mag + m.c1.x.mag * m.c0.y.mag) (1 / 2 ^ 146) := by
  simp only [cglm, M2.map, V2.map]
  err 2

theorem C64_mat2x3_mulv (m : M2x3 F32) (v : V2 F32) :
    (glm_mat2x3_mulv m v).Err (glm_mat2x3_mulv (m.map toReal) (v.map toReal)) (γ 2)
      (glm_mat2x3_mulv (m.map mag) (v.map mag)) (1 / 2 ^ 146) := by
  simp only [cglm, M2x3.map, V2.map, V3.map, V3.Err]
  refine ⟨?_, ?_, ?_⟩ <;> err 2

theorem C64_mat2x4_mulv (m : M2x4 F32) (v : V2 F32) :
    (glm_mat2x4_mulv m v).Err (glm_mat2x4_mulv (m.map toReal) (v.map toReal)) (γ 2)
      (glm_mat2x4_mulv (m.map mag) (v.map mag)) (1 / 2 ^ 146) := by
  simp only [cglm, M2x4.map, V2.map, V4.map, V4.Err]
  refine ⟨?_, ?_, ?_, ?_⟩ <;> err 2

theorem C64_mat3x2_mulv (m : M3x2 F32) (v : V3 F32) :
    (glm_mat3x2_mulv m v).Err (glm_mat3x2_mulv (m.map toReal) (v.map toReal)) (γ 3)
      (glm_mat3x2_mulv (m.map mag) (v.map mag)) (1 / 2 ^ 146) := by
  simp only [cglm, M3x2.map, V2.map, V3.map, V2.Err]
  refine ⟨?_, ?_⟩ <;> err 3

theorem C64_mat3x4_mulv (m : M3x4 F32) (v : V3 F32) :
    (glm_mat3x4_mulv m v).Err (glm_mat3x4_mulv (m.map toReal) (v.map toReal)) (γ 3)
      (glm_mat3x4_mulv (m.map mag) (v.map mag)) (1 / 2 ^ 146) := by
  simp only [cglm, M3x4.map, V3.map, V4.map, V4.Err]
  refine ⟨?_, ?_, ?_, ?_⟩ <;> err 3

theorem C64_mat4x2_mulv (m : M4x2 F32) (v : V4 F32) :
    (glm_mat4x2_mulv m v).Err (glm_mat4x2_mulv (m.map toReal) (v.map toReal)) (γ 4)
      (glm_mat4x2_mulv (m.map mag) (v.map mag)) (1 / 2 ^ 146) := by
  simp only [cglm, M4x2.map, V2.map, V4.map, V2.Err]
  refine ⟨?_, ?_⟩ <;> err 4

theorem C64_mat4x3_mulv (m : M4x3 F32) (v : V4 F32) :
    (glm_mat4x3_mulv m v).Err (glm_mat4x3_mulv (m.map toReal) (v.map toReal)) (γ 4)
      (glm_mat4x3_mulv (m.map mag) (v.map mag)) (1 / 2 ^ 146) := by
  simp only [cglm, M4x3.map, V3.map, V4.map, V3.Err]
  refine ⟨?_, ?_, ?_⟩ <;> err 4

theorem C64_mat2x3_mul (a : M2x3 F32) (b : M3x2 F32) :
    (glm_mat2x3_mul a b).Err (glm_mat2x3_mul (a.map toReal) (b.map toReal)) (γ 2)
      (glm_mat2x3_mul (a.map mag) (b.map mag)) (1 / 2 ^ 146) := by
  simp only [cglm, M2x3.map, M3x2.map, V2.map, V3.map, M3.Err, V3.Err]
  refine ⟨⟨?_, ?_, ?_⟩, ⟨?_, ?_, ?_⟩, ⟨?_, ?_, ?_⟩⟩ <;> err 2

theorem C64_mat2x4_mul (a : M2x4 F32) (b : M4x2 F32) :
    (glm_mat2x4_mul a b).Err (glm_mat2x4_mul (a.map toReal) (b.map toReal)) (γ 2)
      (glm_mat2x4_mul (a.map mag) (b.map mag)) (1 / 2 ^ 146) := by
  simp only [cglm, M2x4.map, M4x2.map, V2.map, V4.map, M4.Err, V4.Err]
  refine ⟨⟨?_, ?_, ?_, ?_⟩, ⟨?_, ?_, ?_, ?_⟩, ⟨?_, ?_, ?_, ?_⟩, ⟨?_, ?_, ?_, ?_⟩⟩ <;> err 2

theorem C64_mat3x2_mul (a : M3x2 F32) (b : M2x3 F32) :
    (glm_mat3x2_mul a b).Err (glm_mat3x2_mul (a.map toReal) (b.map toReal)) (γ 3)
      (glm_mat3x2_mul (a.map mag) (b.map mag)) (1 / 2 ^ 146) := by
  simp only [cglm, M2x3.map, M3x2.map, V2.map, V3.map, M2.Err, V2.Err]
  refine ⟨⟨?_, ?_⟩, ⟨?_, ?_⟩⟩ <;> err 3

theorem C64_mat3x4_mul (a : M3x4 F32) (b : M4x3 F32) :
    (glm_mat3x4_mul a b).Err (glm_mat3x4_mul (a.map toReal) (b.map toReal)) (γ 3)
      (glm_mat3x4_mul (a.map mag) (b.map mag)) (1 / 2 ^ 146) := by
  simp only [cglm, M3x4.map, M4x3.map, V3.map, V4.map, M4.Err, V4.Err]
  refine ⟨⟨?_, ?_, ?_, ?_⟩, ⟨?_, ?_, ?_, ?_⟩, ⟨?_, ?_, ?_, ?_⟩, ⟨?_, ?_, ?_, ?_⟩⟩ <;> err 3

theorem C64_mat4x2_mul (a : M4x2 F32) (b : M2x4 F32) :
    (glm_mat4x2_mul a b).Err (glm_mat4x2_mul (a.map toReal) (b.map toReal)) (γ 4)
      (glm_mat4x2_mul (a.map mag) (b.map mag)) (1 / 2 ^ 146) := by
  simp only [cglm, M2x4.map, M4x2.map, V2.map, V4.map, M2.Err, V2.Err]
  refine ⟨⟨?_, ?_⟩, ⟨?_, ?_⟩⟩ <;> err 4

theorem C64_mat4x3_mul (a : M4x3 F32) (b : M3x4 F32) :
    (glm_mat4x3_mul a b).Err (glm_mat4x3_mul (a.map toReal) (b.map toReal)) (γ 4)
      (glm_mat4x3_mul (a.map mag) (b.map mag)) (1 / 2 ^ 146) := by
  simp only [cglm, M3x4.map, M4x3.map, V3.map, V4.map, M3.Err, V3.Err]
  refine ⟨⟨?_, ?_, ?_⟩, ⟨?_, ?_, ?_⟩, ⟨?_, ?_, ?_⟩⟩ <;> err 4

theorem C64_mat4_mulv3 (m : M4 F32) (v : V3 F32) (w : F32) :
    (glm_mat4_mulv3 m v w).Err (glm_mat4_mulv3 (m.map toReal) (v.map toReal) (toReal w)) (γ 4)
      (glm_mat4_mulv3 (m.map mag) (v.map mag) (mag w)) (1 / 2 ^ 146) := by
  simp only [cglm, M4.map, V3.map, V4.map, V3.Err]
  refine ⟨?_, ?_, ?_⟩ <;> err 4

theorem C64_mul (a : M4 F32) (b : M4 F32) :
    (glm_mul a b).Err (glm_mul (a.map toReal) (b.map toReal)) (γ 4)
      (glm_mul (a.map mag) (b.map mag)) (1 / 2 ^ 146) := by
  simp only [cglm, M4.map, V4.map, M4.Err, V4.Err]
  refine ⟨⟨?_, ?_, ?_, ?_⟩, ⟨?_, ?_, ?_, ?_⟩, ⟨?_, ?_, ?_, ?_⟩, ⟨?_, ?_, ?_, ?_⟩⟩ <;> err 4

theorem C64_mul_rot (a : M4 F32) (b : M4 F32) :
    (glm_mul_rot a b).Err (glm_mul_rot (a.map toReal) (b.map toReal)) (γ 3)
      (glm_mul_rot (a.map mag) (b.map mag)) (1 / 2 ^ 146) := by
  simp only [cglm, M4.map, V4.map, M4.Err, V4.Err]
  refine ⟨⟨?_, ?_, ?_, ?_⟩, ⟨?_, ?_, ?_, ?_⟩, ⟨?_, ?_, ?_, ?_⟩, ⟨?_, ?_, ?_, ?_⟩⟩ <;> err 3

theorem C64_translate (m : M4 F32) (v : V3 F32) :
    (glm_translate m v).Err (glm_translate (m.map toReal) (v.map toReal)) (γ 4)
      (glm_translate (m.map mag) (v.map mag)) (1 / 2 ^ 146) := by
  simp only [cglm, M4.map, V3.map, V4.map, M4.Err, V4.Err]
  refine ⟨⟨?_, ?_, ?_, ?_⟩, ⟨?_, ?_, ?_, ?_⟩, ⟨?_, ?_, ?_, ?_⟩, ⟨?_, ?_, ?_, ?_⟩⟩ <;> err 4

theorem C64_scale_to (m : M4 F32) (v : V3 F32) :
    (glm_scale_to m v).Err (glm_scale_to (m.map toReal) (v.map toReal)) (γ 1)
      (glm_scale_to (m.map mag) (v.map mag)) (1 / 2 ^ 146) := by
  simp only [cglm, M4.map, V3.map, V4.map, M4.Err, V4.Err]
  refine ⟨⟨?_, ?_, ?_, ?_⟩, ⟨?_, ?_, ?_, ?_⟩, ⟨?_, ?_, ?_, ?_⟩, ⟨?_, ?_, ?_, ?_⟩⟩ <;> err 1

end Cglm
