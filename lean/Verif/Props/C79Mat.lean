import Verif.Contract
import Verif.Gen
/-!
# C79: matrix functions under contraction

`π` is an arbitrary policy of a compiler for fusing products and sums (`Contract.lean`).  `Err f x c B e` says: if the computed
number `f` is finite, it is within `c·B + e` of `x`; the bounds are those of C64.  Arguments are arbitrary stored numbers with
names.  Written by `tools/ctrthms.py`.
-/
open Cglm F32
namespace Cglm
variable [Libm]

theorem C79_mat2_mulv (π : Policy) (m : M2 Named) (v : V2 Named) :
    ((glm_mat2_mulv (m.map (Named.run π)) (v.map (Named.run π))).map Ctr.val).Err (glm_mat2_mulv (m.map Named.real) (v.map Named.real)) (γ 2)
      (glm_mat2_mulv (m.map Named.mag) (v.map Named.mag)) (1 / 2 ^ 146) := by
  simp only [cglm, M2.map, V2.map, V2.Err]
  refine ⟨?_, ?_⟩ <;> errc 2

theorem C79_mat2_mul (π : Policy) (a : M2 Named) (b : M2 Named) :
    ((glm_mat2_mul (a.map (Named.run π)) (b.map (Named.run π))).map Ctr.val).Err (glm_mat2_mul (a.map Named.real) (b.map Named.real)) (γ 2)
      (glm_mat2_mul (a.map Named.mag) (b.map Named.mag)) (1 / 2 ^ 146) := by
  simp only [cglm, M2.map, V2.map, M2.Err, V2.Err]
  refine ⟨⟨?_, ?_⟩, ⟨?_, ?_⟩⟩ <;> errc 2

theorem C79_mat2_trace (π : Policy) (m : M2 Named) :
    Err (glm_mat2_trace (m.map (Named.run π))).val (glm_mat2_trace (m.map Named.real)) (γ 1)
      (glm_mat2_trace (m.map Named.mag)) (1 / 2 ^ 146) := by
  simp only [cglm, M2.map, V2.map]
  errc 1

theorem C79_mat3_mulv (π : Policy) (m : M3 Named) (v : V3 Named) :
    ((glm_mat3_mulv (m.map (Named.run π)) (v.map (Named.run π))).map Ctr.val).Err (glm_mat3_mulv (m.map Named.real) (v.map Named.real)) (γ 3)
      (glm_mat3_mulv (m.map Named.mag) (v.map Named.mag)) (1 / 2 ^ 146) := by
  simp only [cglm, M3.map, V3.map, V3.Err]
  refine ⟨?_, ?_, ?_⟩ <;> errc 3

theorem C79_mat3_mul (π : Policy) (a : M3 Named) (b : M3 Named) :
    ((glm_mat3_mul (a.map (Named.run π)) (b.map (Named.run π))).map Ctr.val).Err (glm_mat3_mul (a.map Named.real) (b.map Named.real)) (γ 3)
      (glm_mat3_mul (a.map Named.mag) (b.map Named.mag)) (1 / 2 ^ 146) := by
  simp only [cglm, M3.map, V3.map, M3.Err, V3.Err]
  refine ⟨⟨?_, ?_, ?_⟩, ⟨?_, ?_, ?_⟩, ⟨?_, ?_, ?_⟩⟩ <;> errc 3

theorem C79_mat3_trace (π : Policy) (m : M3 Named) :
    Err (glm_mat3_trace (m.map (Named.run π))).val (glm_mat3_trace (m.map Named.real)) (γ 2)
      (glm_mat3_trace (m.map Named.mag)) (1 / 2 ^ 146) := by
  simp only [cglm, M3.map, V3.map]
  errc 2

theorem C79_mat4_mulv (π : Policy) (m : M4 Named) (v : V4 Named) :
    ((glm_mat4_mulv (m.map (Named.run π)) (v.map (Named.run π))).map Ctr.val).Err (glm_mat4_mulv (m.map Named.real) (v.map Named.real)) (γ 4)
      (glm_mat4_mulv (m.map Named.mag) (v.map Named.mag)) (1 / 2 ^ 146) := by
  simp only [cglm, M4.map, V4.map, V4.Err]
  refine ⟨?_, ?_, ?_, ?_⟩ <;> errc 4

theorem C79_mat4_mul (π : Policy) (a : M4 Named) (b : M4 Named) :
    ((glm_mat4_mul (a.map (Named.run π)) (b.map (Named.run π))).map Ctr.val).Err (glm_mat4_mul (a.map Named.real) (b.map Named.real)) (γ 4)
      (glm_mat4_mul (a.map Named.mag) (b.map Named.mag)) (1 / 2 ^ 146) := by
  simp only [cglm, M4.map, V4.map, M4.Err, V4.Err]
  refine ⟨⟨?_, ?_, ?_, ?_⟩, ⟨?_, ?_, ?_, ?_⟩, ⟨?_, ?_, ?_, ?_⟩, ⟨?_, ?_, ?_, ?_⟩⟩ <;> errc 4

theorem C79_mat4_trace (π : Policy) (m : M4 Named) :
    Err (glm_mat4_trace (m.map (Named.run π))).val (glm_mat4_trace (m.map Named.real)) (γ 3)
      (glm_mat4_trace (m.map Named.mag)) (1 / 2 ^ 146) := by
  simp only [cglm, M4.map, V4.map]
  errc 3

theorem C79_mat2_det (π : Policy) (m : M2 Named) :
    Err (glm_mat2_det (m.map (Named.run π))).val (glm_mat2_det (m.map Named.real)) (γ 2)
      (m.c0.x.mag * m.c1.y.mag + m.c1.x.mag * m.c0.y.mag) (1 / 2 ^ 146) := by
  simp only [cglm, M2.map, V2.map]
  errc 2

theorem C79_mat2x3_mulv (π : Policy) (m : M2x3 Named) (v : V2 Named) :
    ((glm_mat2x3_mulv (m.map (Named.run π)) (v.map (Named.run π))).map Ctr.val).Err (glm_mat2x3_mulv (m.map Named.real) (v.map Named.real)) (γ 2)
      (glm_mat2x3_mulv (m.map Named.mag) (v.map Named.mag)) (1 / 2 ^ 146) := by
  simp only [cglm, M2x3.map, V2.map, V3.map, V3.Err]
  refine ⟨?_, ?_, ?_⟩ <;> errc 2

theorem C79_mat2x4_mulv (π : Policy) (m : M2x4 Named) (v : V2 Named) :
    ((glm_mat2x4_mulv (m.map (Named.run π)) (v.map (Named.run π))).map Ctr.val).Err (glm_mat2x4_mulv (m.map Named.real) (v.map Named.real)) (γ 2)
      (glm_mat2x4_mulv (m.map Named.mag) (v.map Named.mag)) (1 / 2 ^ 146) := by
  simp only [cglm, M2x4.map, V2.map, V4.map, V4.Err]
  refine ⟨?_, ?_, ?_, ?_⟩ <;> errc 2

theorem C79_mat3x2_mulv (π : Policy) (m : M3x2 Named) (v : V3 Named) :
    ((glm_mat3x2_mulv (m.map (Named.run π)) (v.map (Named.run π))).map Ctr.val).Err (glm_mat3x2_mulv (m.map Named.real) (v.map Named.real)) (γ 3)
      (glm_mat3x2_mulv (m.map Named.mag) (v.map Named.mag)) (1 / 2 ^ 146) := by
  simp only [cglm, M3x2.map, V2.map, V3.map, V2.Err]
  refine ⟨?_, ?_⟩ <;> errc 3

theorem C79_mat3x4_mulv (π : Policy) (m : M3x4 Named) (v : V3 Named) :
    ((glm_mat3x4_mulv (m.map (Named.run π)) (v.map (Named.run π))).map Ctr.val).Err (glm_mat3x4_mulv (m.map Named.real) (v.map Named.real)) (γ 3)
      (glm_mat3x4_mulv (m.map Named.mag) (v.map Named.mag)) (1 / 2 ^ 146) := by
  simp only [cglm, M3x4.map, V3.map, V4.map, V4.Err]
  refine ⟨?_, ?_, ?_, ?_⟩ <;> errc 3

theorem C79_mat4x2_mulv (π : Policy) (m : M4x2 Named) (v : V4 Named) :
    ((glm_mat4x2_mulv (m.map (Named.run π)) (v.map (Named.run π))).map Ctr.val).Err (glm_mat4x2_mulv (m.map Named.real) (v.map Named.real)) (γ 4)
      (glm_mat4x2_mulv (m.map Named.mag) (v.map Named.mag)) (1 / 2 ^ 146) := by
  simp only [cglm, M4x2.map, V2.map, V4.map, V2.Err]
  refine ⟨?_, ?_⟩ <;> errc 4

theorem C79_mat4x3_mulv (π : Policy) (m : M4x3 Named) (v : V4 Named) :
    ((glm_mat4x3_mulv (m.map (Named.run π)) (v.map (Named.run π))).map Ctr.val).Err (glm_mat4x3_mulv (m.map Named.real) (v.map Named.real)) (γ 4)
      (glm_mat4x3_mulv (m.map Named.mag) (v.map Named.mag)) (1 / 2 ^ 146) := by
  simp only [cglm, M4x3.map, V3.map, V4.map, V3.Err]
  refine ⟨?_, ?_, ?_⟩ <;> errc 4

theorem C79_mat2x3_mul (π : Policy) (a : M2x3 Named) (b : M3x2 Named) :
    ((glm_mat2x3_mul (a.map (Named.run π)) (b.map (Named.run π))).map Ctr.val).Err (glm_mat2x3_mul (a.map Named.real) (b.map Named.real)) (γ 2)
      (glm_mat2x3_mul (a.map Named.mag) (b.map Named.mag)) (1 / 2 ^ 146) := by
  simp only [cglm, M2x3.map, M3.map, M3x2.map, V2.map, V3.map, M3.Err, V3.Err]
  refine ⟨⟨?_, ?_, ?_⟩, ⟨?_, ?_, ?_⟩, ⟨?_, ?_, ?_⟩⟩ <;> errc 2

theorem C79_mat2x4_mul (π : Policy) (a : M2x4 Named) (b : M4x2 Named) :
    ((glm_mat2x4_mul (a.map (Named.run π)) (b.map (Named.run π))).map Ctr.val).Err (glm_mat2x4_mul (a.map Named.real) (b.map Named.real)) (γ 2)
      (glm_mat2x4_mul (a.map Named.mag) (b.map Named.mag)) (1 / 2 ^ 146) := by
  simp only [cglm, M2x4.map, M4.map, M4x2.map, V2.map, V4.map, M4.Err, V4.Err]
  refine ⟨⟨?_, ?_, ?_, ?_⟩, ⟨?_, ?_, ?_, ?_⟩, ⟨?_, ?_, ?_, ?_⟩, ⟨?_, ?_, ?_, ?_⟩⟩ <;> errc 2

theorem C79_mat3x2_mul (π : Policy) (a : M3x2 Named) (b : M2x3 Named) :
    ((glm_mat3x2_mul (a.map (Named.run π)) (b.map (Named.run π))).map Ctr.val).Err (glm_mat3x2_mul (a.map Named.real) (b.map Named.real)) (γ 3)
      (glm_mat3x2_mul (a.map Named.mag) (b.map Named.mag)) (1 / 2 ^ 146) := by
  simp only [cglm, M2.map, M2x3.map, M3x2.map, V2.map, V3.map, M2.Err, V2.Err]
  refine ⟨⟨?_, ?_⟩, ⟨?_, ?_⟩⟩ <;> errc 3

theorem C79_mat3x4_mul (π : Policy) (a : M3x4 Named) (b : M4x3 Named) :
    ((glm_mat3x4_mul (a.map (Named.run π)) (b.map (Named.run π))).map Ctr.val).Err (glm_mat3x4_mul (a.map Named.real) (b.map Named.real)) (γ 3)
      (glm_mat3x4_mul (a.map Named.mag) (b.map Named.mag)) (1 / 2 ^ 146) := by
  simp only [cglm, M3x4.map, M4.map, M4x3.map, V3.map, V4.map, M4.Err, V4.Err]
  refine ⟨⟨?_, ?_, ?_, ?_⟩, ⟨?_, ?_, ?_, ?_⟩, ⟨?_, ?_, ?_, ?_⟩, ⟨?_, ?_, ?_, ?_⟩⟩ <;> errc 3

theorem C79_mat4x2_mul (π : Policy) (a : M4x2 Named) (b : M2x4 Named) :
    ((glm_mat4x2_mul (a.map (Named.run π)) (b.map (Named.run π))).map Ctr.val).Err (glm_mat4x2_mul (a.map Named.real) (b.map Named.real)) (γ 4)
      (glm_mat4x2_mul (a.map Named.mag) (b.map Named.mag)) (1 / 2 ^ 146) := by
  simp only [cglm, M2.map, M2x4.map, M4x2.map, V2.map, V4.map, M2.Err, V2.Err]
  refine ⟨⟨?_, ?_⟩, ⟨?_, ?_⟩⟩ <;> errc 4

theorem C79_mat4x3_mul (π : Policy) (a : M4x3 Named) (b : M3x4 Named) :
    ((glm_mat4x3_mul (a.map (Named.run π)) (b.map (Named.run π))).map Ctr.val).Err (glm_mat4x3_mul (a.map Named.real) (b.map Named.real)) (γ 4)
      (glm_mat4x3_mul (a.map Named.mag) (b.map Named.mag)) (1 / 2 ^ 146) := by
  simp only [cglm, M3.map, M3x4.map, M4x3.map, V3.map, V4.map, M3.Err, V3.Err]
  refine ⟨⟨?_, ?_, ?_⟩, ⟨?_, ?_, ?_⟩, ⟨?_, ?_, ?_⟩⟩ <;> errc 4

theorem C79_mat4_mulv3 (π : Policy) (m : M4 Named) (v : V3 Named) (w : Named) :
    ((glm_mat4_mulv3 (m.map (Named.run π)) (v.map (Named.run π)) ((Named.run π) w)).map Ctr.val).Err (glm_mat4_mulv3 (m.map Named.real) (v.map Named.real) (Named.real w)) (γ 4)
      (glm_mat4_mulv3 (m.map Named.mag) (v.map Named.mag) (Named.mag w)) (1 / 2 ^ 146) := by
  simp only [cglm, M4.map, V3.map, V4.map, V3.Err]
  refine ⟨?_, ?_, ?_⟩ <;> errc 4

theorem C79_mul (π : Policy) (a : M4 Named) (b : M4 Named) :
    ((glm_mul (a.map (Named.run π)) (b.map (Named.run π))).map Ctr.val).Err (glm_mul (a.map Named.real) (b.map Named.real)) (γ 4)
      (glm_mul (a.map Named.mag) (b.map Named.mag)) (1 / 2 ^ 146) := by
  simp only [cglm, M4.map, V4.map, M4.Err, V4.Err]
  refine ⟨⟨?_, ?_, ?_, ?_⟩, ⟨?_, ?_, ?_, ?_⟩, ⟨?_, ?_, ?_, ?_⟩, ⟨?_, ?_, ?_, ?_⟩⟩ <;> errc 4

theorem C79_mul_rot (π : Policy) (a : M4 Named) (b : M4 Named) :
    ((glm_mul_rot (a.map (Named.run π)) (b.map (Named.run π))).map Ctr.val).Err (glm_mul_rot (a.map Named.real) (b.map Named.real)) (γ 3)
      (glm_mul_rot (a.map Named.mag) (b.map Named.mag)) (1 / 2 ^ 146) := by
  simp only [cglm, M4.map, V4.map, M4.Err, V4.Err]
  refine ⟨⟨?_, ?_, ?_, ?_⟩, ⟨?_, ?_, ?_, ?_⟩, ⟨?_, ?_, ?_, ?_⟩, ⟨?_, ?_, ?_, ?_⟩⟩ <;> errc 3

theorem C79_translate (π : Policy) (m : M4 Named) (v : V3 Named) :
    ((glm_translate (m.map (Named.run π)) (v.map (Named.run π))).map Ctr.val).Err (glm_translate (m.map Named.real) (v.map Named.real)) (γ 4)
      (glm_translate (m.map Named.mag) (v.map Named.mag)) (1 / 2 ^ 146) := by
  simp only [cglm, M4.map, V3.map, V4.map, M4.Err, V4.Err]
  refine ⟨⟨?_, ?_, ?_, ?_⟩, ⟨?_, ?_, ?_, ?_⟩, ⟨?_, ?_, ?_, ?_⟩, ⟨?_, ?_, ?_, ?_⟩⟩ <;> errc 4

theorem C79_scale_to (π : Policy) (m : M4 Named) (v : V3 Named) :
    ((glm_scale_to (m.map (Named.run π)) (v.map (Named.run π))).map Ctr.val).Err (glm_scale_to (m.map Named.real) (v.map Named.real)) (γ 1)
      (glm_scale_to (m.map Named.mag) (v.map Named.mag)) (1 / 2 ^ 146) := by
  simp only [cglm, M4.map, V3.map, V4.map, M4.Err, V4.Err]
  refine ⟨⟨?_, ?_, ?_, ?_⟩, ⟨?_, ?_, ?_, ?_⟩, ⟨?_, ?_, ?_, ?_⟩, ⟨?_, ?_, ?_, ?_⟩⟩ <;> errc 1

end Cglm
