import Verif.Contract
import Verif.Gen
/-!
# C79: vector functions under contraction

`π` is an arbitrary policy of a compiler for fusing products and sums (`Contract.lean`).  `Err f x c B e` says: if the computed
number `f` is finite, it is within `c·B + e` of `x`; the bounds are those of C64.  Arguments are arbitrary stored numbers with
names.  Written by `tools/ctrthms.py`.
-/
open Cglm F32
namespace Cglm
variable [Libm]

theorem C79_vec2_dot (π : Policy) (a : V2 Named) (b : V2 Named) :
    Err (glm_vec2_dot (a.map (Named.run π)) (b.map (Named.run π))).val (glm_vec2_dot (a.map Named.real) (b.map Named.real)) (γ 2)
      (glm_vec2_dot (a.map Named.mag) (b.map Named.mag)) (1 / 2 ^ 146) := by
  simp only [cglm, V2.map]
  errc 2

theorem C79_vec2_norm2 (π : Policy) (v : V2 Named) :
    Err (glm_vec2_norm2 (v.map (Named.run π))).val (glm_vec2_norm2 (v.map Named.real)) (γ 2)
      (glm_vec2_norm2 (v.map Named.mag)) (1 / 2 ^ 146) := by
  simp only [cglm, V2.map]
  errc 2

theorem C79_vec2_muladd (π : Policy) (a : V2 Named) (b : V2 Named) (c : V2 Named) :
    ((glm_vec2_muladd (a.map (Named.run π)) (b.map (Named.run π)) (c.map (Named.run π))).map Ctr.val).Err (glm_vec2_muladd (a.map Named.real) (b.map Named.real) (c.map Named.real)) (γ 2)
      (glm_vec2_muladd (a.map Named.mag) (b.map Named.mag) (c.map Named.mag)) (1 / 2 ^ 146) := by
  simp only [cglm, V2.map, V2.Err]
  refine ⟨?_, ?_⟩ <;> errc 2

theorem C79_vec2_muladds (π : Policy) (a : V2 Named) (s : Named) (c : V2 Named) :
    ((glm_vec2_muladds (a.map (Named.run π)) ((Named.run π) s) (c.map (Named.run π))).map Ctr.val).Err (glm_vec2_muladds (a.map Named.real) (Named.real s) (c.map Named.real)) (γ 2)
      (glm_vec2_muladds (a.map Named.mag) (Named.mag s) (c.map Named.mag)) (1 / 2 ^ 146) := by
  simp only [cglm, V2.map, V2.Err]
  refine ⟨?_, ?_⟩ <;> errc 2

theorem C79_vec2_mulsub (π : Policy) (a : V2 Named) (b : V2 Named) (c : V2 Named) :
    ((glm_vec2_mulsub (a.map (Named.run π)) (b.map (Named.run π)) (c.map (Named.run π))).map Ctr.val).Err (glm_vec2_mulsub (a.map Named.real) (b.map Named.real) (c.map Named.real)) (γ 2)
      (⟨c.x.mag + a.x.mag * b.x.mag, c.y.mag + a.y.mag * b.y.mag⟩) (1 / 2 ^ 146) := by
  simp only [cglm, V2.map, V2.Err]
  refine ⟨?_, ?_⟩ <;> errc 2

theorem C79_vec2_mulsubs (π : Policy) (a : V2 Named) (s : Named) (c : V2 Named) :
    ((glm_vec2_mulsubs (a.map (Named.run π)) ((Named.run π) s) (c.map (Named.run π))).map Ctr.val).Err (glm_vec2_mulsubs (a.map Named.real) (Named.real s) (c.map Named.real)) (γ 2)
      (⟨c.x.mag + a.x.mag * s.mag, c.y.mag + a.y.mag * s.mag⟩) (1 / 2 ^ 146) := by
  simp only [cglm, V2.map, V2.Err]
  refine ⟨?_, ?_⟩ <;> errc 2

theorem C79_vec2_addadd (π : Policy) (a : V2 Named) (b : V2 Named) (c : V2 Named) :
    ((glm_vec2_addadd (a.map (Named.run π)) (b.map (Named.run π)) (c.map (Named.run π))).map Ctr.val).Err (glm_vec2_addadd (a.map Named.real) (b.map Named.real) (c.map Named.real)) (γ 2)
      (glm_vec2_addadd (a.map Named.mag) (b.map Named.mag) (c.map Named.mag)) (1 / 2 ^ 146) := by
  simp only [cglm, V2.map, V2.Err]
  refine ⟨?_, ?_⟩ <;> errc 2

theorem C79_vec2_subadd (π : Policy) (a : V2 Named) (b : V2 Named) (c : V2 Named) :
    ((glm_vec2_subadd (a.map (Named.run π)) (b.map (Named.run π)) (c.map (Named.run π))).map Ctr.val).Err (glm_vec2_subadd (a.map Named.real) (b.map Named.real) (c.map Named.real)) (γ 2)
      (⟨c.x.mag + (a.x.mag + b.x.mag), c.y.mag + (a.y.mag + b.y.mag)⟩) (1 / 2 ^ 146) := by
  simp only [cglm, V2.map, V2.Err]
  refine ⟨?_, ?_⟩ <;> errc 2

theorem C79_vec2_addsub (π : Policy) (a : V2 Named) (b : V2 Named) (c : V2 Named) :
    ((glm_vec2_addsub (a.map (Named.run π)) (b.map (Named.run π)) (c.map (Named.run π))).map Ctr.val).Err (glm_vec2_addsub (a.map Named.real) (b.map Named.real) (c.map Named.real)) (γ 2)
      (⟨c.x.mag + (a.x.mag + b.x.mag), c.y.mag + (a.y.mag + b.y.mag)⟩) (1 / 2 ^ 146) := by
  simp only [cglm, V2.map, V2.Err]
  refine ⟨?_, ?_⟩ <;> errc 2

theorem C79_vec2_subsub (π : Policy) (a : V2 Named) (b : V2 Named) (c : V2 Named) :
    ((glm_vec2_subsub (a.map (Named.run π)) (b.map (Named.run π)) (c.map (Named.run π))).map Ctr.val).Err (glm_vec2_subsub (a.map Named.real) (b.map Named.real) (c.map Named.real)) (γ 2)
      (⟨c.x.mag + (a.x.mag + b.x.mag), c.y.mag + (a.y.mag + b.y.mag)⟩) (1 / 2 ^ 146) := by
  simp only [cglm, V2.map, V2.Err]
  refine ⟨?_, ?_⟩ <;> errc 2

theorem C79_vec2_distance2 (π : Policy) (a : V2 Named) (b : V2 Named) :
    Err (glm_vec2_distance2 (a.map (Named.run π)) (b.map (Named.run π))).val (glm_vec2_distance2 (a.map Named.real) (b.map Named.real)) (γ 4)
      ((a.x.mag + b.x.mag) ^ 2 + (a.y.mag + b.y.mag) ^ 2) (1 / 2 ^ 146) := by
  simp only [cglm, V2.map]
  errc 4

theorem C79_vec3_dot (π : Policy) (a : V3 Named) (b : V3 Named) :
    Err (glm_vec3_dot (a.map (Named.run π)) (b.map (Named.run π))).val (glm_vec3_dot (a.map Named.real) (b.map Named.real)) (γ 3)
      (glm_vec3_dot (a.map Named.mag) (b.map Named.mag)) (1 / 2 ^ 146) := by
  simp only [cglm, V3.map]
  errc 3

theorem C79_vec3_norm2 (π : Policy) (v : V3 Named) :
    Err (glm_vec3_norm2 (v.map (Named.run π))).val (glm_vec3_norm2 (v.map Named.real)) (γ 3)
      (glm_vec3_norm2 (v.map Named.mag)) (1 / 2 ^ 146) := by
  simp only [cglm, V3.map]
  errc 3

theorem C79_vec3_muladd (π : Policy) (a : V3 Named) (b : V3 Named) (c : V3 Named) :
    ((glm_vec3_muladd (a.map (Named.run π)) (b.map (Named.run π)) (c.map (Named.run π))).map Ctr.val).Err (glm_vec3_muladd (a.map Named.real) (b.map Named.real) (c.map Named.real)) (γ 2)
      (glm_vec3_muladd (a.map Named.mag) (b.map Named.mag) (c.map Named.mag)) (1 / 2 ^ 146) := by
  simp only [cglm, V3.map, V3.Err]
  refine ⟨?_, ?_, ?_⟩ <;> errc 2

theorem C79_vec3_muladds (π : Policy) (a : V3 Named) (s : Named) (c : V3 Named) :
    ((glm_vec3_muladds (a.map (Named.run π)) ((Named.run π) s) (c.map (Named.run π))).map Ctr.val).Err (glm_vec3_muladds (a.map Named.real) (Named.real s) (c.map Named.real)) (γ 2)
      (glm_vec3_muladds (a.map Named.mag) (Named.mag s) (c.map Named.mag)) (1 / 2 ^ 146) := by
  simp only [cglm, V3.map, V3.Err]
  refine ⟨?_, ?_, ?_⟩ <;> errc 2

theorem C79_vec3_mulsub (π : Policy) (a : V3 Named) (b : V3 Named) (c : V3 Named) :
    ((glm_vec3_mulsub (a.map (Named.run π)) (b.map (Named.run π)) (c.map (Named.run π))).map Ctr.val).Err (glm_vec3_mulsub (a.map Named.real) (b.map Named.real) (c.map Named.real)) (γ 2)
      (⟨c.x.mag + a.x.mag * b.x.mag, c.y.mag + a.y.mag * b.y.mag, c.z.mag + a.z.mag * b.z.mag⟩) (1 / 2 ^ 146) := by
  simp only [cglm, V3.map, V3.Err]
  refine ⟨?_, ?_, ?_⟩ <;> errc 2

theorem C79_vec3_mulsubs (π : Policy) (a : V3 Named) (s : Named) (c : V3 Named) :
    ((glm_vec3_mulsubs (a.map (Named.run π)) ((Named.run π) s) (c.map (Named.run π))).map Ctr.val).Err (glm_vec3_mulsubs (a.map Named.real) (Named.real s) (c.map Named.real)) (γ 2)
      (⟨c.x.mag + a.x.mag * s.mag, c.y.mag + a.y.mag * s.mag, c.z.mag + a.z.mag * s.mag⟩) (1 / 2 ^ 146) := by
  simp only [cglm, V3.map, V3.Err]
  refine ⟨?_, ?_, ?_⟩ <;> errc 2

theorem C79_vec3_addadd (π : Policy) (a : V3 Named) (b : V3 Named) (c : V3 Named) :
    ((glm_vec3_addadd (a.map (Named.run π)) (b.map (Named.run π)) (c.map (Named.run π))).map Ctr.val).Err (glm_vec3_addadd (a.map Named.real) (b.map Named.real) (c.map Named.real)) (γ 2)
      (glm_vec3_addadd (a.map Named.mag) (b.map Named.mag) (c.map Named.mag)) (1 / 2 ^ 146) := by
  simp only [cglm, V3.map, V3.Err]
  refine ⟨?_, ?_, ?_⟩ <;> errc 2

theorem C79_vec3_subadd (π : Policy) (a : V3 Named) (b : V3 Named) (c : V3 Named) :
    ((glm_vec3_subadd (a.map (Named.run π)) (b.map (Named.run π)) (c.map (Named.run π))).map Ctr.val).Err (glm_vec3_subadd (a.map Named.real) (b.map Named.real) (c.map Named.real)) (γ 2)
      (⟨c.x.mag + (a.x.mag + b.x.mag), c.y.mag + (a.y.mag + b.y.mag), c.z.mag + (a.z.mag + b.z.mag)⟩) (1 / 2 ^ 146) := by
  simp only [cglm, V3.map, V3.Err]
  refine ⟨?_, ?_, ?_⟩ <;> errc 2

theorem C79_vec3_addsub (π : Policy) (a : V3 Named) (b : V3 Named) (c : V3 Named) :
    ((glm_vec3_addsub (a.map (Named.run π)) (b.map (Named.run π)) (c.map (Named.run π))).map Ctr.val).Err (glm_vec3_addsub (a.map Named.real) (b.map Named.real) (c.map Named.real)) (γ 2)
      (⟨c.x.mag + (a.x.mag + b.x.mag), c.y.mag + (a.y.mag + b.y.mag), c.z.mag + (a.z.mag + b.z.mag)⟩) (1 / 2 ^ 146) := by
  simp only [cglm, V3.map, V3.Err]
  refine ⟨?_, ?_, ?_⟩ <;> errc 2

theorem C79_vec3_subsub (π : Policy) (a : V3 Named) (b : V3 Named) (c : V3 Named) :
    ((glm_vec3_subsub (a.map (Named.run π)) (b.map (Named.run π)) (c.map (Named.run π))).map Ctr.val).Err (glm_vec3_subsub (a.map Named.real) (b.map Named.real) (c.map Named.real)) (γ 2)
      (⟨c.x.mag + (a.x.mag + b.x.mag), c.y.mag + (a.y.mag + b.y.mag), c.z.mag + (a.z.mag + b.z.mag)⟩) (1 / 2 ^ 146) := by
  simp only [cglm, V3.map, V3.Err]
  refine ⟨?_, ?_, ?_⟩ <;> errc 2

theorem C79_vec3_distance2 (π : Policy) (a : V3 Named) (b : V3 Named) :
    Err (glm_vec3_distance2 (a.map (Named.run π)) (b.map (Named.run π))).val (glm_vec3_distance2 (a.map Named.real) (b.map Named.real)) (γ 5)
      ((a.x.mag + b.x.mag) ^ 2 + (a.y.mag + b.y.mag) ^ 2 + (a.z.mag + b.z.mag) ^ 2) (1 / 2 ^ 146) := by
  simp only [cglm, V3.map]
  errc 5

theorem C79_vec4_dot (π : Policy) (a : V4 Named) (b : V4 Named) :
    Err (glm_vec4_dot (a.map (Named.run π)) (b.map (Named.run π))).val (glm_vec4_dot (a.map Named.real) (b.map Named.real)) (γ 4)
      (glm_vec4_dot (a.map Named.mag) (b.map Named.mag)) (1 / 2 ^ 146) := by
  simp only [cglm, V4.map]
  errc 4

theorem C79_vec4_norm2 (π : Policy) (v : V4 Named) :
    Err (glm_vec4_norm2 (v.map (Named.run π))).val (glm_vec4_norm2 (v.map Named.real)) (γ 4)
      (glm_vec4_norm2 (v.map Named.mag)) (1 / 2 ^ 146) := by
  simp only [cglm, V4.map]
  errc 4

theorem C79_vec4_muladd (π : Policy) (a : V4 Named) (b : V4 Named) (c : V4 Named) :
    ((glm_vec4_muladd (a.map (Named.run π)) (b.map (Named.run π)) (c.map (Named.run π))).map Ctr.val).Err (glm_vec4_muladd (a.map Named.real) (b.map Named.real) (c.map Named.real)) (γ 2)
      (glm_vec4_muladd (a.map Named.mag) (b.map Named.mag) (c.map Named.mag)) (1 / 2 ^ 146) := by
  simp only [cglm, V4.map, V4.Err]
  refine ⟨?_, ?_, ?_, ?_⟩ <;> errc 2

theorem C79_vec4_muladds (π : Policy) (a : V4 Named) (s : Named) (c : V4 Named) :
    ((glm_vec4_muladds (a.map (Named.run π)) ((Named.run π) s) (c.map (Named.run π))).map Ctr.val).Err (glm_vec4_muladds (a.map Named.real) (Named.real s) (c.map Named.real)) (γ 2)
      (glm_vec4_muladds (a.map Named.mag) (Named.mag s) (c.map Named.mag)) (1 / 2 ^ 146) := by
  simp only [cglm, V4.map, V4.Err]
  refine ⟨?_, ?_, ?_, ?_⟩ <;> errc 2

theorem C79_vec4_mulsub (π : Policy) (a : V4 Named) (b : V4 Named) (c : V4 Named) :
    ((glm_vec4_mulsub (a.map (Named.run π)) (b.map (Named.run π)) (c.map (Named.run π))).map Ctr.val).Err (glm_vec4_mulsub (a.map Named.real) (b.map Named.real) (c.map Named.real)) (γ 2)
      (⟨c.x.mag + a.x.mag * b.x.mag, c.y.mag + a.y.mag * b.y.mag, c.z.mag + a.z.mag * b.z.mag, c.w.mag + a.w.mag * b.w.mag⟩) (1 / 2 ^ 146) := by
  simp only [cglm, V4.map, V4.Err]
  refine ⟨?_, ?_, ?_, ?_⟩ <;> errc 2

theorem C79_vec4_mulsubs (π : Policy) (a : V4 Named) (s : Named) (c : V4 Named) :
    ((glm_vec4_mulsubs (a.map (Named.run π)) ((Named.run π) s) (c.map (Named.run π))).map Ctr.val).Err (glm_vec4_mulsubs (a.map Named.real) (Named.real s) (c.map Named.real)) (γ 2)
      (⟨c.x.mag + a.x.mag * s.mag, c.y.mag + a.y.mag * s.mag, c.z.mag + a.z.mag * s.mag, c.w.mag + a.w.mag * s.mag⟩) (1 / 2 ^ 146) := by
  simp only [cglm, V4.map, V4.Err]
  refine ⟨?_, ?_, ?_, ?_⟩ <;> errc 2

theorem C79_vec4_addadd (π : Policy) (a : V4 Named) (b : V4 Named) (c : V4 Named) :
    ((glm_vec4_addadd (a.map (Named.run π)) (b.map (Named.run π)) (c.map (Named.run π))).map Ctr.val).Err (glm_vec4_addadd (a.map Named.real) (b.map Named.real) (c.map Named.real)) (γ 2)
      (glm_vec4_addadd (a.map Named.mag) (b.map Named.mag) (c.map Named.mag)) (1 / 2 ^ 146) := by
  simp only [cglm, V4.map, V4.Err]
  refine ⟨?_, ?_, ?_, ?_⟩ <;> errc 2

theorem C79_vec4_subadd (π : Policy) (a : V4 Named) (b : V4 Named) (c : V4 Named) :
    ((glm_vec4_subadd (a.map (Named.run π)) (b.map (Named.run π)) (c.map (Named.run π))).map Ctr.val).Err (glm_vec4_subadd (a.map Named.real) (b.map Named.real) (c.map Named.real)) (γ 2)
      (⟨c.x.mag + (a.x.mag + b.x.mag), c.y.mag + (a.y.mag + b.y.mag), c.z.mag + (a.z.mag + b.z.mag), c.w.mag + (a.w.mag + b.w.mag)⟩) (1 / 2 ^ 146) := by
  simp only [cglm, V4.map, V4.Err]
  refine ⟨?_, ?_, ?_, ?_⟩ <;> errc 2

theorem C79_vec4_addsub (π : Policy) (a : V4 Named) (b : V4 Named) (c : V4 Named) :
    ((glm_vec4_addsub (a.map (Named.run π)) (b.map (Named.run π)) (c.map (Named.run π))).map Ctr.val).Err (glm_vec4_addsub (a.map Named.real) (b.map Named.real) (c.map Named.real)) (γ 2)
      (⟨c.x.mag + (a.x.mag + b.x.mag), c.y.mag + (a.y.mag + b.y.mag), c.z.mag + (a.z.mag + b.z.mag), c.w.mag + (a.w.mag + b.w.mag)⟩) (1 / 2 ^ 146) := by
  simp only [cglm, V4.map, V4.Err]
  refine ⟨?_, ?_, ?_, ?_⟩ <;> errc 2

theorem C79_vec4_subsub (π : Policy) (a : V4 Named) (b : V4 Named) (c : V4 Named) :
    ((glm_vec4_subsub (a.map (Named.run π)) (b.map (Named.run π)) (c.map (Named.run π))).map Ctr.val).Err (glm_vec4_subsub (a.map Named.real) (b.map Named.real) (c.map Named.real)) (γ 2)
      (⟨c.x.mag + (a.x.mag + b.x.mag), c.y.mag + (a.y.mag + b.y.mag), c.z.mag + (a.z.mag + b.z.mag), c.w.mag + (a.w.mag + b.w.mag)⟩) (1 / 2 ^ 146) := by
  simp only [cglm, V4.map, V4.Err]
  refine ⟨?_, ?_, ?_, ?_⟩ <;> errc 2

theorem C79_vec4_distance2 (π : Policy) (a : V4 Named) (b : V4 Named) :
    Err (glm_vec4_distance2 (a.map (Named.run π)) (b.map (Named.run π))).val (glm_vec4_distance2 (a.map Named.real) (b.map Named.real)) (γ 6)
      ((a.x.mag + b.x.mag) ^ 2 + (a.y.mag + b.y.mag) ^ 2 + (a.z.mag + b.z.mag) ^ 2 + (a.w.mag + b.w.mag) ^ 2) (1 / 2 ^ 146) := by
  simp only [cglm, V4.map]
  errc 6

theorem C79_vec2_cross (π : Policy) (a : V2 Named) (b : V2 Named) :
    Err (glm_vec2_cross (a.map (Named.run π)) (b.map (Named.run π))).val (glm_vec2_cross (a.map Named.real) (b.map Named.real)) (γ 2)
      (a.x.mag * b.y.mag + a.y.mag * b.x.mag) (1 / 2 ^ 146) := by
  simp only [cglm, V2.map]
  errc 2

theorem C79_vec3_cross (π : Policy) (a : V3 Named) (b : V3 Named) :
    ((glm_vec3_cross (a.map (Named.run π)) (b.map (Named.run π))).map Ctr.val).Err (glm_vec3_cross (a.map Named.real) (b.map Named.real)) (γ 2)
      (⟨a.y.mag * b.z.mag + a.z.mag * b.y.mag, a.z.mag * b.x.mag + a.x.mag * b.z.mag, a.x.mag * b.y.mag + a.y.mag * b.x.mag⟩) (1 / 2 ^ 146) := by
  simp only [cglm, V3.map, V3.Err]
  refine ⟨?_, ?_, ?_⟩ <;> errc 2

theorem C79_vec2_complex_mul (π : Policy) (a : V2 Named) (b : V2 Named) :
    ((glm_vec2_complex_mul (a.map (Named.run π)) (b.map (Named.run π))).map Ctr.val).Err (glm_vec2_complex_mul (a.map Named.real) (b.map Named.real)) (γ 2)
      (⟨a.x.mag * b.x.mag + a.y.mag * b.y.mag, a.x.mag * b.y.mag + a.y.mag * b.x.mag⟩) (1 / 2 ^ 146) := by
  simp only [cglm, V2.map, V2.Err]
  refine ⟨?_, ?_⟩ <;> errc 2

theorem C79_quat_mul (π : Policy) (p : V4 Named) (q : V4 Named) :
    ((glm_quat_mul (p.map (Named.run π)) (q.map (Named.run π))).map Ctr.val).Err (glm_quat_mul (p.map Named.real) (q.map Named.real)) (γ 4)
      (⟨p.w.mag * q.x.mag + p.x.mag * q.w.mag + p.y.mag * q.z.mag + p.z.mag * q.y.mag, p.w.mag * q.y.mag + p.x.mag * q.z.mag + p.y.mag * q.w.mag + p.z.mag * q.x.mag, p.w.mag * q.z.mag + p.x.mag * q.y.mag + p.y.mag * q.x.mag + p.z.mag * q.w.mag, p.w.mag * q.w.mag + p.x.mag * q.x.mag + p.y.mag * q.y.mag + p.z.mag * q.z.mag⟩) (1 / 2 ^ 146) := by
  simp only [cglm, V4.map, V4.Err]
  refine ⟨?_, ?_, ?_, ?_⟩ <;> errc 4

theorem C79_quat_dot (π : Policy) (p : V4 Named) (q : V4 Named) :
    Err (glm_quat_dot (p.map (Named.run π)) (q.map (Named.run π))).val (glm_quat_dot (p.map Named.real) (q.map Named.real)) (γ 4)
      (glm_quat_dot (p.map Named.mag) (q.map Named.mag)) (1 / 2 ^ 146) := by
  simp only [cglm, V4.map]
  errc 4

theorem C79_lerp (π : Policy) (a : Named) (b : Named) (t : Named) :
    Err (glm_lerp ((Named.run π) a) ((Named.run π) b) ((Named.run π) t)).val (glm_lerp (Named.real a) (Named.real b) (Named.real t)) (γ 3)
      (a.mag + t.mag * (b.mag + a.mag)) (1 / 2 ^ 146) := by
  simp only [cglm, ]
  errc 3

theorem C79_luminance (π : Policy) (v : V3 Named) :
    Err (glm_luminance (v.map (Named.run π))).val (glm_luminance (v.map Named.real)) (γ 4)
      (glm_luminance (v.map Named.mag)) (1 / 2 ^ 146) := by
  simp only [cglm, V3.map]
  errc 4

theorem C79_vec3_lerp (π : Policy) (a : V3 Named) (b : V3 Named) (t : Named) :
    ((glm_vec3_lerp (a.map (Named.run π)) (b.map (Named.run π)) ((Named.run π) t)).map Ctr.val).Err (glm_vec3_lerp (a.map Named.real) (b.map Named.real) (Named.real t)) (γ 3)
      (⟨a.x.mag + t.mag * (b.x.mag + a.x.mag), a.y.mag + t.mag * (b.y.mag + a.y.mag), a.z.mag + t.mag * (b.z.mag + a.z.mag)⟩) (1 / 2 ^ 146) := by
  simp only [cglm, V3.map, V3.Err]
  refine ⟨?_, ?_, ?_⟩ <;> errc 3

theorem C79_vec4_lerp (π : Policy) (a : V4 Named) (b : V4 Named) (t : Named) :
    ((glm_vec4_lerp (a.map (Named.run π)) (b.map (Named.run π)) ((Named.run π) t)).map Ctr.val).Err (glm_vec4_lerp (a.map Named.real) (b.map Named.real) (Named.real t)) (γ 3)
      (⟨a.x.mag + t.mag * (b.x.mag + a.x.mag), a.y.mag + t.mag * (b.y.mag + a.y.mag), a.z.mag + t.mag * (b.z.mag + a.z.mag), a.w.mag + t.mag * (b.w.mag + a.w.mag)⟩) (1 / 2 ^ 146) := by
  simp only [cglm, V4.map, V4.Err]
  refine ⟨?_, ?_, ?_, ?_⟩ <;> errc 3

end Cglm
