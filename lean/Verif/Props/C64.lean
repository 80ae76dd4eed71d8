import Verif.F32Map
import Verif.Gen
/-!
# C64: rounding error of vector functions

`Err f x c B e` says: if the computed binary32 number `f` is finite, it is within `c·B + e` of the
real number `x`.  In every theorem `x` is the same C function evaluated over ℝ on the values of the
arguments, `γ n = n·u/(1 − n·u)` with `u = 2⁻²⁴`, and `B` is the same expression with every operand
replaced by its magnitude and every subtraction by an addition.  `e` bounds what underflow of the
products can add.  Arguments are arbitrary, including NaN and infinities.
Written by `tools/errthms.py`.
-/
open Cglm F32
namespace Cglm
variable [Libm]

theorem C64_vec2_dot (a : V2 F32) (b : V2 F32) :
    Err (glm_vec2_dot a b) (glm_vec2_dot (a.map toReal) (b.map toReal)) (γ 2)
      (glm_vec2_dot (a.map mag) (b.map mag)) (1 / 2 ^ 146) := by
  simp only [cglm, V2.map]
  err 2

theorem C64_vec2_norm2 (v : V2 F32) :
    Err (glm_vec2_norm2 v) (glm_vec2_norm2 (v.map toReal)) (γ 2)
      (glm_vec2_norm2 (v.map mag)) (1 / 2 ^ 146) := by
  simp only [cglm, V2.map]
  err 2

theorem C64_vec2_muladd (a : V2 F32) (b : V2 F32) (c : V2 F32) :
    (glm_vec2_muladd a b c).Err (glm_vec2_muladd (a.map toReal) (b.map toReal) (c.map toReal)) (γ 2)
      (glm_vec2_muladd (a.map mag) (b.map mag) (c.map mag)) (1 / 2 ^ 146) := by
  simp only [cglm, V2.map, V2.Err]
  refine ⟨?_, ?_⟩ <;> err 2

theorem C64_vec2_muladds (a : V2 F32) (s : F32) (c : V2 F32) :
    (glm_vec2_muladds a s c).Err (glm_vec2_muladds (a.map toReal) (toReal s) (c.map toReal)) (γ 2)
      (glm_vec2_muladds (a.map mag) (mag s) (c.map mag)) (1 / 2 ^ 146) := by
  simp only [cglm, V2.map, V2.Err]
  refine ⟨?_, ?_⟩ <;> err 2

theorem C64_vec2_mulsub (a : V2 F32) (b : V2 F32) (c : V2 F32) :
    (glm_vec2_mulsub a b c).Err (glm_vec2_mulsub (a.map toReal) (b.map toReal) (c.map toReal)) (γ 2)
      (⟨c.x.mag + a.x.mag * b.x.mag, c.y.mag + a.y.mag * b.y.mag⟩) (1 / 2 ^ 146) := by
  simp only [cglm, V2.map, V2.Err]
  refine ⟨?_, ?_⟩ <;> err 2

theorem C64_vec2_mulsubs (a : V2 F32) (s : F32) (c : V2 F32) :
    (glm_vec2_mulsubs a s c).Err (glm_vec2_mulsubs (a.map toReal) (toReal s) (c.map toReal)) (γ 2)
      (⟨c.x.mag + a.x.mag * s.mag, c.y.mag + a.y.mag * s.mag⟩) (1 / 2 ^ 146) := by
  simp only [cglm, V2.map, V2.Err]
  refine ⟨?_, ?_⟩ <;> err 2

theorem C64_vec2_addadd (a : V2 F32) (b : V2 F32) (c : V2 F32) :
    (glm_vec2_addadd a b c).Err (glm_vec2_addadd (a.map toReal) (b.map toReal) (c.map toReal)) (γ 2)
      (glm_vec2_addadd (a.map mag) (b.map mag) (c.map mag)) (1 / 2 ^ 146) := by
  simp only [cglm, V2.map, V2.Err]
  refine ⟨?_, ?_⟩ <;> err 2

theorem C64_vec2_subadd (a : V2 F32) (b : V2 F32) (c : V2 F32) :
    (glm_vec2_subadd a b c).Err (glm_vec2_subadd (a.map toReal) (b.map toReal) (c.map toReal)) (γ 2)
      (⟨c.x.mag + (a.x.mag + b.x.mag), c.y.mag + (a.y.mag + b.y.mag)⟩) (1 / 2 ^ 146) := by
  simp only [cglm, V2.map, V2.Err]
  refine ⟨?_, ?_⟩ <;> err 2

theorem C64_vec2_addsub (a : V2 F32) (b : V2 F32) (c : V2 F32) :
    (glm_vec2_addsub a b c).Err (glm_vec2_addsub (a.map toReal) (b.map toReal) (c.map toReal)) (γ 2)
      (⟨c.x.mag + (a.x.mag + b.x.mag), c.y.mag + (a.y.mag + b.y.mag)⟩) (1 / 2 ^ 146) := by
  simp only [cglm, V2.map, V2.Err]
  refine ⟨?_, ?_⟩ <;> err 2

theorem C64_vec2_subsub (a : V2 F32) (b : V2 F32) (c : V2 F32) :
    (glm_vec2_subsub a b c).Err (glm_vec2_subsub (a.map toReal) (b.map toReal) (c.map toReal)) (γ 2)
      (⟨c.x.mag + (a.x.mag + b.x.mag), c.y.mag + (a.y.mag + b.y.mag)⟩) (1 / 2 ^ 146) := by
  simp only [cglm, V2.map, V2.Err]
  refine ⟨?_, ?_⟩ <;> err 2

theorem C64_vec2_distance2 (a : V2 F32) (b : V2 F32) :
    Err (glm_vec2_distance2 a b) (glm_vec2_distance2 (a.map toReal) (b.map toReal)) (γ 4)
      ((a.x.mag + b.x.mag) ^ 2 + (a.y.mag + b.y.mag) ^ 2) (1 / 2 ^ 146) := by
  simp only [cglm, V2.map]
  err 4

theorem C64_vec3_dot (a : V3 F32) (b : V3 F32) :
    Err (glm_vec3_dot a b) (glm_vec3_dot (a.map toReal) (b.map toReal)) (γ 3)
      (glm_vec3_dot (a.map mag) (b.map mag)) (1 / 2 ^ 146) := by
  simp only [cglm, V3.map]
  err 3

theorem C64_vec3_norm2 (v : V3 F32) :
    Err (glm_vec3_norm2 v) (glm_vec3_norm2 (v.map toReal)) (γ 3)
      (glm_vec3_norm2 (v.map mag)) (1 / 2 ^ 146) := by
  simp only [cglm, V3.map]
  err 3

theorem C64_vec3_muladd (a : V3 F32) (b : V3 F32) (c : V3 F32) :
    (glm_vec3_muladd a b c).Err (glm_vec3_muladd (a.map toReal) (b.map toReal) (c.map toReal)) (γ 2)
      (glm_vec3_muladd (a.map mag) (b.map mag) (c.map mag)) (1 / 2 ^ 146) := by
  simp only [cglm, V3.map, V3.Err]
  refine ⟨?_, ?_, ?_⟩ <;> err 2

theorem C64_vec3_muladds (a : V3 F32) (s : F32) (c : V3 F32) :
    (glm_vec3_muladds a s c).Err (glm_vec3_muladds (a.map toReal) (toReal s) (c.map toReal)) (γ 2)
      (glm_vec3_muladds (a.map mag) (mag s) (c.map mag)) (1 / 2 ^ 146) := by
  simp only [cglm, V3.map, V3.Err]
  refine ⟨?_, ?_, ?_⟩ <;> err 2

theorem C64_vec3_mulsub (a : V3 F32) (b : V3 F32) (c : V3 F32) :
    (glm_vec3_mulsub a b c).Err (glm_vec3_mulsub (a.map toReal) (b.map toReal) (c.map toReal)) (γ 2)
      (⟨c.x.mag + a.x.mag * b.x.mag, c.y.mag + a.y.mag * b.y.mag, c.z.mag + a.z.mag * b.z.mag⟩) (1 / 2 ^ 146) := by
  simp only [cglm, V3.map, V3.Err]
  refine ⟨?_, ?_, ?_⟩ <;> err 2

theorem C64_vec3_mulsubs (a : V3 F32) (s : F32) (c : V3 F32) :
    (glm_vec3_mulsubs a s c).Err (glm_vec3_mulsubs (a.map toReal) (toReal s) (c.map toReal)) (γ 2)
      (⟨c.x.mag + a.x.mag * s.mag, c.y.mag + a.y.mag * s.mag, c.z.mag + a.z.mag * s.mag⟩) (1 / 2 ^ 146) := by
  simp only [cglm, V3.map, V3.Err]
  refine ⟨?_, ?_, ?_⟩ <;> err 2

theorem C64_vec3_addadd (a : V3 F32) (b : V3 F32) (c : V3 F32) :
    (glm_vec3_addadd a b c).Err (glm_vec3_addadd (a.map toReal) (b.map toReal) (c.map toReal)) (γ 2)
      (glm_vec3_addadd (a.map mag) (b.map mag) (c.map mag)) (1 / 2 ^ 146) := by
  simp only [cglm, V3.map, V3.Err]
  refine ⟨?_, ?_, ?_⟩ <;> err 2

theorem C64_vec3_subadd (a : V3 F32) (b : V3 F32) (c : V3 F32) :
    (glm_vec3_subadd a b c).Err (glm_vec3_subadd (a.map toReal) (b.map toReal) (c.map toReal)) (γ 2)
      (⟨c.x.mag + (a.x.mag + b.x.mag), c.y.mag + (a.y.mag + b.y.mag), c.z.mag + (a.z.mag + b.z.mag)⟩) (1 / 2 ^ 146) := by
  simp only [cglm, V3.map, V3.Err]
  refine ⟨?_, ?_, ?_⟩ <;> err 2

theorem C64_vec3_addsub (a : V3 F32) (b : V3 F32) (c : V3 F32) :
    (glm_vec3_addsub a b c).Err (glm_vec3_addsub (a.map toReal) (b.map toReal) (c.map toReal)) (γ 2)
      (⟨c.x.mag + (a.x.mag + b.x.mag), c.y.mag + (a.y.mag + b.y.mag), c.z.mag + (a.z.mag + b.z.mag)⟩) (1 / 2 ^ 146) := by
  simp only [cglm, V3.map, V3.Err]
  refine ⟨?_, ?_, ?_⟩ <;> err 2

theorem C64_vec3_subsub (a : V3 F32) (b : V3 F32) (c : V3 F32) :
    (glm_vec3_subsub a b c).Err (glm_vec3_subsub (a.map toReal) (b.map toReal) (c.map toReal)) (γ 2)
      (⟨c.x.mag + (a.x.mag + b.x.mag), c.y.mag + (a.y.mag + b.y.mag), c.z.mag + (a.z.mag + b.z.mag)⟩) (1 / 2 ^ 146) := by
  simp only [cglm, V3.map, V3.Err]
  refine ⟨?_, ?_, ?_⟩ <;> err 2

theorem C64_vec3_distance2 (a : V3 F32) (b : V3 F32) :
    Err (glm_vec3_distance2 a b) (glm_vec3_distance2 (a.map toReal) (b.map toReal)) (γ 5)
      ((a.x.mag + b.x.mag) ^ 2 + (a.y.mag + b.y.mag) ^ 2 + (a.z.mag + b.z.mag) ^ 2) (1 / 2 ^ 146) := by
  simp only [cglm, V3.map]
  err 5

theorem C64_vec4_dot (a : V4 F32) (b : V4 F32) :
    Err (glm_vec4_dot a b) (glm_vec4_dot (a.map toReal) (b.map toReal)) (γ 4)
      (glm_vec4_dot (a.map mag) (b.map mag)) (1 / 2 ^ 146) := by
  simp only [cglm, V4.map]
  err 4

theorem C64_vec4_norm2 (v : V4 F32) :
    Err (glm_vec4_norm2 v) (glm_vec4_norm2 (v.map toReal)) (γ 4)
      (glm_vec4_norm2 (v.map mag)) (1 / 2 ^ 146) := by
  simp only [cglm, V4.map]
  err 4

theorem C64_vec4_muladd (a : V4 F32) (b : V4 F32) (c : V4 F32) :
    (glm_vec4_muladd a b c).Err (glm_vec4_muladd (a.map toReal) (b.map toReal) (c.map toReal)) (γ 2)
      (glm_vec4_muladd (a.map mag) (b.map mag) (c.map mag)) (1 / 2 ^ 146) := by
  simp only [cglm, V4.map, V4.Err]
  refine ⟨?_, ?_, ?_, ?_⟩ <;> err 2

theorem C64_vec4_muladds (a : V4 F32) (s : F32) (c : V4 F32) :
    (glm_vec4_muladds a s c).Err (glm_vec4_muladds (a.map toReal) (toReal s) (c.map toReal)) (γ 2)
      (glm_vec4_muladds (a.map mag) (mag s) (c.map mag)) (1 / 2 ^ 146) := by
  simp only [cglm, V4.map, V4.Err]
  refine ⟨?_, ?_, ?_, ?_⟩ <;> err 2

theorem C64_vec4_mulsub (a : V4 F32) (b : V4 F32) (c : V4 F32) :
    (glm_vec4_mulsub a b c).Err (glm_vec4_mulsub (a.map toReal) (b.map toReal) (c.map toReal)) (γ 2)
      (⟨c.x.mag + a.x.mag * b.x.mag, c.y.mag + a.y.mag * b.y.mag, c.z.mag + a.z.mag * b.z.mag, c.w.mag + a.w.mag * b.w.mag⟩) (1 / 2 ^ 146) := by
  simp only [cglm, V4.map, V4.Err]
  refine ⟨?_, ?_, ?_, ?_⟩ <;> err 2

theorem C64_vec4_mulsubs (a : V4 F32) (s : F32) (c : V4 F32) :
    (glm_vec4_mulsubs a s c).Err (glm_vec4_mulsubs (a.map toReal) (toReal s) (c.map toReal)) (γ 2)
      (⟨c.x.mag + a.x.mag * s.mag, c.y.mag + a.y.mag * s.mag, c.z.mag + a.z.mag * s.mag, c.w.mag + a.w.mag * s.mag⟩) (1 / 2 ^ 146) := by
  simp only [cglm, V4.map, V4.Err]
  refine ⟨?_, ?_, ?_, ?_⟩ <;> err 2

theorem C64_vec4_addadd (a : V4 F32) (b : V4 F32) (c : V4 F32) :
    (glm_vec4_addadd a b c).Err (glm_vec4_addadd (a.map toReal) (b.map toReal) (c.map toReal)) (γ 2)
      (glm_vec4_addadd (a.map mag) (b.map mag) (c.map mag)) (1 / 2 ^ 146) := by
  simp only [cglm, V4.map, V4.Err]
  refine ⟨?_, ?_, ?_, ?_⟩ <;> err 2

theorem C64_vec4_subadd (a : V4 F32) (b : V4 F32) (c : V4 F32) :
    (glm_vec4_subadd a b c).Err (glm_vec4_subadd (a.map toReal) (b.map toReal) (c.map toReal)) (γ 2)
      (⟨c.x.mag + (a.x.mag + b.x.mag), c.y.mag + (a.y.mag + b.y.mag), c.z.mag + (a.z.mag + b.z.mag), c.w.mag + (a.w.mag + b.w.mag)⟩) (1 / 2 ^ 146) := by
  simp only [cglm, V4.map, V4.Err]
  refine ⟨?_, ?_, ?_, ?_⟩ <;> err 2

theorem C64_vec4_addsub (a : V4 F32) (b : V4 F32) (c : V4 F32) :
    (glm_vec4_addsub a b c).Err (glm_vec4_addsub (a.map toReal) (b.map toReal) (c.map toReal)) (γ 2)
      (⟨c.x.mag + (a.x.mag + b.x.mag), c.y.mag + (a.y.mag + b.y.mag), c.z.mag + (a.z.mag + b.z.mag), c.w.mag + (a.w.mag + b.w.mag)⟩) (1 / 2 ^ 146) := by
  simp only [cglm, V4.map, V4.Err]
  refine ⟨?_, ?_, ?_, ?_⟩ <;> err 2

theorem C64_vec4_subsub (a : V4 F32) (b : V4 F32) (c : V4 F32) :
    (glm_vec4_subsub a b c).Err (glm_vec4_subsub (a.map toReal) (b.map toReal) (c.map toReal)) (γ 2)
      (⟨c.x.mag + (a.x.mag + b.x.mag), c.y.mag + (a.y.mag + b.y.mag), c.z.mag + (a.z.mag + b.z.mag), c.w.mag + (a.w.mag + b.w.mag)⟩) (1 / 2 ^ 146) := by
  simp only [cglm, V4.map, V4.Err]
  refine ⟨?_, ?_, ?_, ?_⟩ <;> err 2

theorem C64_vec4_distance2 (a : V4 F32) (b : V4 F32) :
    Err (glm_vec4_distance2 a b) (glm_vec4_distance2 (a.map toReal) (b.map toReal)) (γ 6)
      ((a.x.mag + b.x.mag) ^ 2 + (a.y.mag + b.y.mag) ^ 2 + (a.z.mag + b.z.mag) ^ 2 + (a.w.mag + b.w.mag) ^ 2) (1 / 2 ^ 146) := by
  simp only [cglm, V4.map]
  err 6

theorem C64_vec2_cross (a : V2 F32) (b : V2 F32) :
    Err (glm_vec2_cross a b) (glm_vec2_cross (a.map toReal) (b.map toReal)) (γ 2)
      (a.x.mag * b.y.mag + a.y.mag * b.x.mag) (1 / 2 ^ 146) := by
  simp only [cglm, V2.map]
  err 2

theorem C64_vec3_cross (a : V3 F32) (b : V3 F32) :
    (glm_vec3_cross a b).Err (glm_vec3_cross (a.map toReal) (b.map toReal)) (γ 2)
      (⟨a.y.mag * b.z.mag + a.z.mag * b.y.mag, a.z.mag * b.x.mag + a.x.mag * b.z.mag, a.x.mag * b.y.mag + a.y.mag * b.x.mag⟩) (1 / 2 ^ 146) := by
  simp only [cglm, V3.map, V3.Err]
  refine ⟨?_, ?_, ?_⟩ <;> err 2

theorem C64_vec2_complex_mul (a : V2 F32) (b : V2 F32) :
    (glm_vec2_complex_mul a b).Err (glm_vec2_complex_mul (a.map toReal) (b.map toReal)) (γ 2)
      (⟨a.x.mag * b.x.mag + a.y.mag * b.y.mag, a.x.mag * b.y.mag + a.y.mag * b.x.mag⟩) (1 / 2 ^ 146) := by
  simp only [cglm, V2.map, V2.Err]
  refine ⟨?_, ?_⟩ <;> err 2

theorem C64_quat_mul (p : V4 F32) (q : V4 F32) :
    (glm_quat_mul p q).Err (glm_quat_mul (p.map toReal) (q.map toReal)) (γ 4)
      (⟨p.w.mag * q.x.mag + p.x.mag * q.w.mag + p.y.mag * q.z.mag + p.z.mag * q.y.mag, p.w.mag * q.y.mag + p.x.mag * q.z.mag + p.y.mag * q.w.mag + p.z.mag * q.x.mag, p.w.mag * q.z.mag + p.x.mag * q.y.mag + p.y.mag * q.x.mag + p.z.mag * q.w.mag, p.w.mag * q.w.mag + p.x.mag * q.x.mag + p.y.mag * q.y.mag + p.z.mag * q.z.mag⟩) (1 / 2 ^ 146) := by
  simp only [cglm, V4.map, V4.Err]
  refine ⟨?_, ?_, ?_, ?_⟩ <;> err 4

theorem C64_quat_dot (p : V4 F32) (q : V4 F32) :
    Err (glm_quat_dot p q) (glm_quat_dot (p.map toReal) (q.map toReal)) (γ 4)
      (glm_quat_dot (p.map mag) (q.map mag)) (1 / 2 ^ 146) := by
  simp only [cglm, V4.map]
  err 4

theorem C64_lerp (a : F32) (b : F32) (t : F32) :
    Err (glm_lerp a b t) (glm_lerp (toReal a) (toReal b) (toReal t)) (γ 3)
      (a.mag + t.mag * (b.mag + a.mag)) (1 / 2 ^ 146) := by
  simp only [cglm, ]
  err 3

theorem C64_luminance (v : V3 F32) :
    Err (glm_luminance v) (glm_luminance (v.map toReal)) (γ 4)
      (glm_luminance (v.map mag)) (1 / 2 ^ 146) := by
  simp only [cglm, V3.map]
  err 4

theorem C64_vec3_lerp (a : V3 F32) (b : V3 F32) (t : F32) :
    (glm_vec3_lerp a b t).Err (glm_vec3_lerp (a.map toReal) (b.map toReal) (toReal t)) (γ 3)
      (⟨a.x.mag + t.mag * (b.x.mag + a.x.mag), a.y.mag + t.mag * (b.y.mag + a.y.mag), a.z.mag + t.mag * (b.z.mag + a.z.mag)⟩) (1 / 2 ^ 146) := by
  simp only [cglm, V3.map, V3.Err]
  refine ⟨?_, ?_, ?_⟩ <;> err 3

theorem C64_vec4_lerp (a : V4 F32) (b : V4 F32) (t : F32) :
    (glm_vec4_lerp a b t).Err (glm_vec4_lerp (a.map toReal) (b.map toReal) (toReal t)) (γ 3)
      (⟨a.x.mag + t.mag * (b.x.mag + a.x.mag), a.y.mag + t.mag * (b.y.mag + a.y.mag), a.z.mag + t.mag * (b.z.mag + a.z.mag), a.w.mag + t.mag * (b.w.mag + a.w.mag)⟩) (1 / 2 ^ 146) := by
  simp only [cglm, V4.map, V4.Err]
  refine ⟨?_, ?_, ?_, ?_⟩ <;> err 3

end Cglm
