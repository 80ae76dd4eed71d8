import Verif.Wide
import Verif.Gen
/-!
# C95: error bounds with excess precision

`E` is an arbitrary evaluation method (`Wide.lean`): every operation is rounded to nearest in a wide format, then in binary32, or only
one of both, or not at all.  `Within f x c B e` (`WithinW` for vectors and matrices) says that `f` is within `c·B + e` of `x`; `unit k` is `k·(2⁻²⁴ + 2⁻⁴³)`.  The real
number `x` and the magnitude `B` are those of C64.
Written by `tools/widethms.py`.
-/
set_option linter.unusedSimpArgs false
open Cglm F32 Wide
namespace Cglm

theorem C95_vec2_dot (E : Method) (a : V2 Named) (b : V2 Named) :
    Within (glm_vec2_dot (a.map (Named.wide E)) (b.map (Named.wide E))).val (glm_vec2_dot (a.map Named.real) (b.map Named.real)) (unit 2)
      (glm_vec2_dot (a.map Named.mag) (b.map Named.mag)) (1 / 2 ^ 140) := by
  simp only [cglm, V2.map]
  errw 2

theorem C95_vec2_norm2 (E : Method) (v : V2 Named) :
    Within (glm_vec2_norm2 (v.map (Named.wide E))).val (glm_vec2_norm2 (v.map Named.real)) (unit 2)
      (glm_vec2_norm2 (v.map Named.mag)) (1 / 2 ^ 140) := by
  simp only [cglm, V2.map]
  errw 2

theorem C95_vec2_muladd (E : Method) (a : V2 Named) (b : V2 Named) (c : V2 Named) :
    ((glm_vec2_muladd (a.map (Named.wide E)) (b.map (Named.wide E)) (c.map (Named.wide E))).map Wide.val).WithinW (glm_vec2_muladd (a.map Named.real) (b.map Named.real) (c.map Named.real)) (unit 2)
      (glm_vec2_muladd (a.map Named.mag) (b.map Named.mag) (c.map Named.mag)) (1 / 2 ^ 140) := by
  simp only [cglm, V2.map, V2.WithinW]
  refine ⟨?_, ?_⟩ <;> errw 2

theorem C95_vec2_muladds (E : Method) (a : V2 Named) (s : Named) (c : V2 Named) :
    ((glm_vec2_muladds (a.map (Named.wide E)) ((Named.wide E) s) (c.map (Named.wide E))).map Wide.val).WithinW (glm_vec2_muladds (a.map Named.real) (Named.real s) (c.map Named.real)) (unit 2)
      (glm_vec2_muladds (a.map Named.mag) (Named.mag s) (c.map Named.mag)) (1 / 2 ^ 140) := by
  simp only [cglm, V2.map, V2.WithinW]
  refine ⟨?_, ?_⟩ <;> errw 2

theorem C95_vec2_mulsub (E : Method) (a : V2 Named) (b : V2 Named) (c : V2 Named) :
    ((glm_vec2_mulsub (a.map (Named.wide E)) (b.map (Named.wide E)) (c.map (Named.wide E))).map Wide.val).WithinW (glm_vec2_mulsub (a.map Named.real) (b.map Named.real) (c.map Named.real)) (unit 2)
      (⟨c.x.mag + a.x.mag * b.x.mag, c.y.mag + a.y.mag * b.y.mag⟩) (1 / 2 ^ 140) := by
  simp only [cglm, V2.map, V2.WithinW]
  refine ⟨?_, ?_⟩ <;> errw 2

theorem C95_vec2_mulsubs (E : Method) (a : V2 Named) (s : Named) (c : V2 Named) :
    ((glm_vec2_mulsubs (a.map (Named.wide E)) ((Named.wide E) s) (c.map (Named.wide E))).map Wide.val).WithinW (glm_vec2_mulsubs (a.map Named.real) (Named.real s) (c.map Named.real)) (unit 2)
      (⟨c.x.mag + a.x.mag * s.mag, c.y.mag + a.y.mag * s.mag⟩) (1 / 2 ^ 140) := by
  simp only [cglm, V2.map, V2.WithinW]
  refine ⟨?_, ?_⟩ <;> errw 2

theorem C95_vec2_addadd (E : Method) (a : V2 Named) (b : V2 Named) (c : V2 Named) :
    ((glm_vec2_addadd (a.map (Named.wide E)) (b.map (Named.wide E)) (c.map (Named.wide E))).map Wide.val).WithinW (glm_vec2_addadd (a.map Named.real) (b.map Named.real) (c.map Named.real)) (unit 2)
      (glm_vec2_addadd (a.map Named.mag) (b.map Named.mag) (c.map Named.mag)) (1 / 2 ^ 140) := by
  simp only [cglm, V2.map, V2.WithinW]
  refine ⟨?_, ?_⟩ <;> errw 2

theorem C95_vec2_subadd (E : Method) (a : V2 Named) (b : V2 Named) (c : V2 Named) :
    ((glm_vec2_subadd (a.map (Named.wide E)) (b.map (Named.wide E)) (c.map (Named.wide E))).map Wide.val).WithinW (glm_vec2_subadd (a.map Named.real) (b.map Named.real) (c.map Named.real)) (unit 2)
      (⟨c.x.mag + (a.x.mag + b.x.mag), c.y.mag + (a.y.mag + b.y.mag)⟩) (1 / 2 ^ 140) := by
  simp only [cglm, V2.map, V2.WithinW]
  refine ⟨?_, ?_⟩ <;> errw 2

theorem C95_vec2_addsub (E : Method) (a : V2 Named) (b : V2 Named) (c : V2 Named) :
    ((glm_vec2_addsub (a.map (Named.wide E)) (b.map (Named.wide E)) (c.map (Named.wide E))).map Wide.val).WithinW (glm_vec2_addsub (a.map Named.real) (b.map Named.real) (c.map Named.real)) (unit 2)
      (⟨c.x.mag + (a.x.mag + b.x.mag), c.y.mag + (a.y.mag + b.y.mag)⟩) (1 / 2 ^ 140) := by
  simp only [cglm, V2.map, V2.WithinW]
  refine ⟨?_, ?_⟩ <;> errw 2

theorem C95_vec2_subsub (E : Method) (a : V2 Named) (b : V2 Named) (c : V2 Named) :
    ((glm_vec2_subsub (a.map (Named.wide E)) (b.map (Named.wide E)) (c.map (Named.wide E))).map Wide.val).WithinW (glm_vec2_subsub (a.map Named.real) (b.map Named.real) (c.map Named.real)) (unit 2)
      (⟨c.x.mag + (a.x.mag + b.x.mag), c.y.mag + (a.y.mag + b.y.mag)⟩) (1 / 2 ^ 140) := by
  simp only [cglm, V2.map, V2.WithinW]
  refine ⟨?_, ?_⟩ <;> errw 2

theorem C95_vec3_dot (E : Method) (a : V3 Named) (b : V3 Named) :
    Within (glm_vec3_dot (a.map (Named.wide E)) (b.map (Named.wide E))).val (glm_vec3_dot (a.map Named.real) (b.map Named.real)) (unit 3)
      (glm_vec3_dot (a.map Named.mag) (b.map Named.mag)) (1 / 2 ^ 140) := by
  simp only [cglm, V3.map]
  errw 3

theorem C95_vec3_norm2 (E : Method) (v : V3 Named) :
    Within (glm_vec3_norm2 (v.map (Named.wide E))).val (glm_vec3_norm2 (v.map Named.real)) (unit 3)
      (glm_vec3_norm2 (v.map Named.mag)) (1 / 2 ^ 140) := by
  simp only [cglm, V3.map]
  errw 3

theorem C95_vec3_muladd (E : Method) (a : V3 Named) (b : V3 Named) (c : V3 Named) :
    ((glm_vec3_muladd (a.map (Named.wide E)) (b.map (Named.wide E)) (c.map (Named.wide E))).map Wide.val).WithinW (glm_vec3_muladd (a.map Named.real) (b.map Named.real) (c.map Named.real)) (unit 2)
      (glm_vec3_muladd (a.map Named.mag) (b.map Named.mag) (c.map Named.mag)) (1 / 2 ^ 140) := by
  simp only [cglm, V3.map, V3.WithinW]
  refine ⟨?_, ?_, ?_⟩ <;> errw 2

theorem C95_vec3_muladds (E : Method) (a : V3 Named) (s : Named) (c : V3 Named) :
    ((glm_vec3_muladds (a.map (Named.wide E)) ((Named.wide E) s) (c.map (Named.wide E))).map Wide.val).WithinW (glm_vec3_muladds (a.map Named.real) (Named.real s) (c.map Named.real)) (unit 2)
      (glm_vec3_muladds (a.map Named.mag) (Named.mag s) (c.map Named.mag)) (1 / 2 ^ 140) := by
  simp only [cglm, V3.map, V3.WithinW]
  refine ⟨?_, ?_, ?_⟩ <;> errw 2

theorem C95_vec3_mulsub (E : Method) (a : V3 Named) (b : V3 Named) (c : V3 Named) :
    ((glm_vec3_mulsub (a.map (Named.wide E)) (b.map (Named.wide E)) (c.map (Named.wide E))).map Wide.val).WithinW (glm_vec3_mulsub (a.map Named.real) (b.map Named.real) (c.map Named.real)) (unit 2)
      (⟨c.x.mag + a.x.mag * b.x.mag, c.y.mag + a.y.mag * b.y.mag, c.z.mag + a.z.mag * b.z.mag⟩) (1 / 2 ^ 140) := by
  simp only [cglm, V3.map, V3.WithinW]
  refine ⟨?_, ?_, ?_⟩ <;> errw 2

theorem C95_vec3_mulsubs (E : Method) (a : V3 Named) (s : Named) (c : V3 Named) :
    ((glm_vec3_mulsubs (a.map (Named.wide E)) ((Named.wide E) s) (c.map (Named.wide E))).map Wide.val).WithinW (glm_vec3_mulsubs (a.map Named.real) (Named.real s) (c.map Named.real)) (unit 2)
      (⟨c.x.mag + a.x.mag * s.mag, c.y.mag + a.y.mag * s.mag, c.z.mag + a.z.mag * s.mag⟩) (1 / 2 ^ 140) := by
  simp only [cglm, V3.map, V3.WithinW]
  refine ⟨?_, ?_, ?_⟩ <;> errw 2

theorem C95_vec3_addadd (E : Method) (a : V3 Named) (b : V3 Named) (c : V3 Named) :
    ((glm_vec3_addadd (a.map (Named.wide E)) (b.map (Named.wide E)) (c.map (Named.wide E))).map Wide.val).WithinW (glm_vec3_addadd (a.map Named.real) (b.map Named.real) (c.map Named.real)) (unit 2)
      (glm_vec3_addadd (a.map Named.mag) (b.map Named.mag) (c.map Named.mag)) (1 / 2 ^ 140) := by
  simp only [cglm, V3.map, V3.WithinW]
  refine ⟨?_, ?_, ?_⟩ <;> errw 2

theorem C95_vec3_subadd (E : Method) (a : V3 Named) (b : V3 Named) (c : V3 Named) :
    ((glm_vec3_subadd (a.map (Named.wide E)) (b.map (Named.wide E)) (c.map (Named.wide E))).map Wide.val).WithinW (glm_vec3_subadd (a.map Named.real) (b.map Named.real) (c.map Named.real)) (unit 2)
      (⟨c.x.mag + (a.x.mag + b.x.mag), c.y.mag + (a.y.mag + b.y.mag), c.z.mag + (a.z.mag + b.z.mag)⟩) (1 / 2 ^ 140) := by
  simp only [cglm, V3.map, V3.WithinW]
  refine ⟨?_, ?_, ?_⟩ <;> errw 2

theorem C95_vec3_addsub (E : Method) (a : V3 Named) (b : V3 Named) (c : V3 Named) :
    ((glm_vec3_addsub (a.map (Named.wide E)) (b.map (Named.wide E)) (c.map (Named.wide E))).map Wide.val).WithinW (glm_vec3_addsub (a.map Named.real) (b.map Named.real) (c.map Named.real)) (unit 2)
      (⟨c.x.mag + (a.x.mag + b.x.mag), c.y.mag + (a.y.mag + b.y.mag), c.z.mag + (a.z.mag + b.z.mag)⟩) (1 / 2 ^ 140) := by
  simp only [cglm, V3.map, V3.WithinW]
  refine ⟨?_, ?_, ?_⟩ <;> errw 2

theorem C95_vec3_subsub (E : Method) (a : V3 Named) (b : V3 Named) (c : V3 Named) :
    ((glm_vec3_subsub (a.map (Named.wide E)) (b.map (Named.wide E)) (c.map (Named.wide E))).map Wide.val).WithinW (glm_vec3_subsub (a.map Named.real) (b.map Named.real) (c.map Named.real)) (unit 2)
      (⟨c.x.mag + (a.x.mag + b.x.mag), c.y.mag + (a.y.mag + b.y.mag), c.z.mag + (a.z.mag + b.z.mag)⟩) (1 / 2 ^ 140) := by
  simp only [cglm, V3.map, V3.WithinW]
  refine ⟨?_, ?_, ?_⟩ <;> errw 2

theorem C95_vec4_dot (E : Method) (a : V4 Named) (b : V4 Named) :
    Within (glm_vec4_dot (a.map (Named.wide E)) (b.map (Named.wide E))).val (glm_vec4_dot (a.map Named.real) (b.map Named.real)) (unit 4)
      (glm_vec4_dot (a.map Named.mag) (b.map Named.mag)) (1 / 2 ^ 140) := by
  simp only [cglm, V4.map]
  errw 4

theorem C95_vec4_norm2 (E : Method) (v : V4 Named) :
    Within (glm_vec4_norm2 (v.map (Named.wide E))).val (glm_vec4_norm2 (v.map Named.real)) (unit 4)
      (glm_vec4_norm2 (v.map Named.mag)) (1 / 2 ^ 140) := by
  simp only [cglm, V4.map]
  errw 4

theorem C95_vec4_muladd (E : Method) (a : V4 Named) (b : V4 Named) (c : V4 Named) :
    ((glm_vec4_muladd (a.map (Named.wide E)) (b.map (Named.wide E)) (c.map (Named.wide E))).map Wide.val).WithinW (glm_vec4_muladd (a.map Named.real) (b.map Named.real) (c.map Named.real)) (unit 2)
      (glm_vec4_muladd (a.map Named.mag) (b.map Named.mag) (c.map Named.mag)) (1 / 2 ^ 140) := by
  simp only [cglm, V4.map, V4.WithinW]
  refine ⟨?_, ?_, ?_, ?_⟩ <;> errw 2

theorem C95_vec4_muladds (E : Method) (a : V4 Named) (s : Named) (c : V4 Named) :
    ((glm_vec4_muladds (a.map (Named.wide E)) ((Named.wide E) s) (c.map (Named.wide E))).map Wide.val).WithinW (glm_vec4_muladds (a.map Named.real) (Named.real s) (c.map Named.real)) (unit 2)
      (glm_vec4_muladds (a.map Named.mag) (Named.mag s) (c.map Named.mag)) (1 / 2 ^ 140) := by
  simp only [cglm, V4.map, V4.WithinW]
  refine ⟨?_, ?_, ?_, ?_⟩ <;> errw 2

theorem C95_vec4_mulsub (E : Method) (a : V4 Named) (b : V4 Named) (c : V4 Named) :
    ((glm_vec4_mulsub (a.map (Named.wide E)) (b.map (Named.wide E)) (c.map (Named.wide E))).map Wide.val).WithinW (glm_vec4_mulsub (a.map Named.real) (b.map Named.real) (c.map Named.real)) (unit 2)
      (⟨c.x.mag + a.x.mag * b.x.mag, c.y.mag + a.y.mag * b.y.mag, c.z.mag + a.z.mag * b.z.mag, c.w.mag + a.w.mag * b.w.mag⟩) (1 / 2 ^ 140) := by
  simp only [cglm, V4.map, V4.WithinW]
  refine ⟨?_, ?_, ?_, ?_⟩ <;> errw 2

theorem C95_vec4_mulsubs (E : Method) (a : V4 Named) (s : Named) (c : V4 Named) :
    ((glm_vec4_mulsubs (a.map (Named.wide E)) ((Named.wide E) s) (c.map (Named.wide E))).map Wide.val).WithinW (glm_vec4_mulsubs (a.map Named.real) (Named.real s) (c.map Named.real)) (unit 2)
      (⟨c.x.mag + a.x.mag * s.mag, c.y.mag + a.y.mag * s.mag, c.z.mag + a.z.mag * s.mag, c.w.mag + a.w.mag * s.mag⟩) (1 / 2 ^ 140) := by
  simp only [cglm, V4.map, V4.WithinW]
  refine ⟨?_, ?_, ?_, ?_⟩ <;> errw 2

theorem C95_vec4_addadd (E : Method) (a : V4 Named) (b : V4 Named) (c : V4 Named) :
    ((glm_vec4_addadd (a.map (Named.wide E)) (b.map (Named.wide E)) (c.map (Named.wide E))).map Wide.val).WithinW (glm_vec4_addadd (a.map Named.real) (b.map Named.real) (c.map Named.real)) (unit 2)
      (glm_vec4_addadd (a.map Named.mag) (b.map Named.mag) (c.map Named.mag)) (1 / 2 ^ 140) := by
  simp only [cglm, V4.map, V4.WithinW]
  refine ⟨?_, ?_, ?_, ?_⟩ <;> errw 2

theorem C95_vec4_subadd (E : Method) (a : V4 Named) (b : V4 Named) (c : V4 Named) :
    ((glm_vec4_subadd (a.map (Named.wide E)) (b.map (Named.wide E)) (c.map (Named.wide E))).map Wide.val).WithinW (glm_vec4_subadd (a.map Named.real) (b.map Named.real) (c.map Named.real)) (unit 2)
      (⟨c.x.mag + (a.x.mag + b.x.mag), c.y.mag + (a.y.mag + b.y.mag), c.z.mag + (a.z.mag + b.z.mag), c.w.mag + (a.w.mag + b.w.mag)⟩) (1 / 2 ^ 140) := by
  simp only [cglm, V4.map, V4.WithinW]
  refine ⟨?_, ?_, ?_, ?_⟩ <;> errw 2

theorem C95_vec4_addsub (E : Method) (a : V4 Named) (b : V4 Named) (c : V4 Named) :
    ((glm_vec4_addsub (a.map (Named.wide E)) (b.map (Named.wide E)) (c.map (Named.wide E))).map Wide.val).WithinW (glm_vec4_addsub (a.map Named.real) (b.map Named.real) (c.map Named.real)) (unit 2)
      (⟨c.x.mag + (a.x.mag + b.x.mag), c.y.mag + (a.y.mag + b.y.mag), c.z.mag + (a.z.mag + b.z.mag), c.w.mag + (a.w.mag + b.w.mag)⟩) (1 / 2 ^ 140) := by
  simp only [cglm, V4.map, V4.WithinW]
  refine ⟨?_, ?_, ?_, ?_⟩ <;> errw 2

theorem C95_vec4_subsub (E : Method) (a : V4 Named) (b : V4 Named) (c : V4 Named) :
    ((glm_vec4_subsub (a.map (Named.wide E)) (b.map (Named.wide E)) (c.map (Named.wide E))).map Wide.val).WithinW (glm_vec4_subsub (a.map Named.real) (b.map Named.real) (c.map Named.real)) (unit 2)
      (⟨c.x.mag + (a.x.mag + b.x.mag), c.y.mag + (a.y.mag + b.y.mag), c.z.mag + (a.z.mag + b.z.mag), c.w.mag + (a.w.mag + b.w.mag)⟩) (1 / 2 ^ 140) := by
  simp only [cglm, V4.map, V4.WithinW]
  refine ⟨?_, ?_, ?_, ?_⟩ <;> errw 2

theorem C95_vec2_cross (E : Method) (a : V2 Named) (b : V2 Named) :
    Within (glm_vec2_cross (a.map (Named.wide E)) (b.map (Named.wide E))).val (glm_vec2_cross (a.map Named.real) (b.map Named.real)) (unit 2)
      (a.x.mag * b.y.mag + a.y.mag * b.x.mag) (1 / 2 ^ 140) := by
  simp only [cglm, V2.map]
  errw 2

theorem C95_vec3_cross (E : Method) (a : V3 Named) (b : V3 Named) :
    ((glm_vec3_cross (a.map (Named.wide E)) (b.map (Named.wide E))).map Wide.val).WithinW (glm_vec3_cross (a.map Named.real) (b.map Named.real)) (unit 2)
      (⟨a.y.mag * b.z.mag + a.z.mag * b.y.mag, a.z.mag * b.x.mag + a.x.mag * b.z.mag, a.x.mag * b.y.mag + a.y.mag * b.x.mag⟩) (1 / 2 ^ 140) := by
  simp only [cglm, V3.map, V3.WithinW]
  refine ⟨?_, ?_, ?_⟩ <;> errw 2

theorem C95_vec2_complex_mul (E : Method) (a : V2 Named) (b : V2 Named) :
    ((glm_vec2_complex_mul (a.map (Named.wide E)) (b.map (Named.wide E))).map Wide.val).WithinW (glm_vec2_complex_mul (a.map Named.real) (b.map Named.real)) (unit 2)
      (⟨a.x.mag * b.x.mag + a.y.mag * b.y.mag, a.x.mag * b.y.mag + a.y.mag * b.x.mag⟩) (1 / 2 ^ 140) := by
  simp only [cglm, V2.map, V2.WithinW]
  refine ⟨?_, ?_⟩ <;> errw 2

theorem C95_quat_mul (E : Method) (p : V4 Named) (q : V4 Named) :
    ((glm_quat_mul (p.map (Named.wide E)) (q.map (Named.wide E))).map Wide.val).WithinW (glm_quat_mul (p.map Named.real) (q.map Named.real)) (unit 4)
      (⟨p.w.mag * q.x.mag + p.x.mag * q.w.mag + p.y.mag * q.z.mag + p.z.mag * q.y.mag, p.w.mag * q.y.mag + p.x.mag * q.z.mag + p.y.mag * q.w.mag + p.z.mag * q.x.mag, p.w.mag * q.z.mag + p.x.mag * q.y.mag + p.y.mag * q.x.mag + p.z.mag * q.w.mag, p.w.mag * q.w.mag + p.x.mag * q.x.mag + p.y.mag * q.y.mag + p.z.mag * q.z.mag⟩) (1 / 2 ^ 140) := by
  simp only [cglm, V4.map, V4.WithinW]
  refine ⟨?_, ?_, ?_, ?_⟩ <;> errw 4

theorem C95_quat_dot (E : Method) (p : V4 Named) (q : V4 Named) :
    Within (glm_quat_dot (p.map (Named.wide E)) (q.map (Named.wide E))).val (glm_quat_dot (p.map Named.real) (q.map Named.real)) (unit 4)
      (glm_quat_dot (p.map Named.mag) (q.map Named.mag)) (1 / 2 ^ 140) := by
  simp only [cglm, V4.map]
  errw 4

theorem C95_mat2_mulv (E : Method) (m : M2 Named) (v : V2 Named) :
    ((glm_mat2_mulv (m.map (Named.wide E)) (v.map (Named.wide E))).map Wide.val).WithinW (glm_mat2_mulv (m.map Named.real) (v.map Named.real)) (unit 2)
      (glm_mat2_mulv (m.map Named.mag) (v.map Named.mag)) (1 / 2 ^ 140) := by
  simp only [cglm, M2.map, V2.map, V2.WithinW]
  refine ⟨?_, ?_⟩ <;> errw 2

theorem C95_mat2_mul (E : Method) (a : M2 Named) (b : M2 Named) :
    ((glm_mat2_mul (a.map (Named.wide E)) (b.map (Named.wide E))).map Wide.val).WithinW (glm_mat2_mul (a.map Named.real) (b.map Named.real)) (unit 2)
      (glm_mat2_mul (a.map Named.mag) (b.map Named.mag)) (1 / 2 ^ 140) := by
  simp only [cglm, M2.map, V2.map, M2.WithinW, V2.WithinW]
  refine ⟨⟨?_, ?_⟩, ⟨?_, ?_⟩⟩ <;> errw 2

theorem C95_mat2_trace (E : Method) (m : M2 Named) :
    Within (glm_mat2_trace (m.map (Named.wide E))).val (glm_mat2_trace (m.map Named.real)) (unit 1)
      (glm_mat2_trace (m.map Named.mag)) (1 / 2 ^ 140) := by
  simp only [cglm, M2.map, V2.map]
  errw 1

theorem C95_mat3_mulv (E : Method) (m : M3 Named) (v : V3 Named) :
    ((glm_mat3_mulv (m.map (Named.wide E)) (v.map (Named.wide E))).map Wide.val).WithinW (glm_mat3_mulv (m.map Named.real) (v.map Named.real)) (unit 3)
      (glm_mat3_mulv (m.map Named.mag) (v.map Named.mag)) (1 / 2 ^ 140) := by
  simp only [cglm, M3.map, V3.map, V3.WithinW]
  refine ⟨?_, ?_, ?_⟩ <;> errw 3

theorem C95_mat3_mul (E : Method) (a : M3 Named) (b : M3 Named) :
    ((glm_mat3_mul (a.map (Named.wide E)) (b.map (Named.wide E))).map Wide.val).WithinW (glm_mat3_mul (a.map Named.real) (b.map Named.real)) (unit 3)
      (glm_mat3_mul (a.map Named.mag) (b.map Named.mag)) (1 / 2 ^ 140) := by
  simp only [cglm, M3.map, V3.map, M3.WithinW, V3.WithinW]
  refine ⟨⟨?_, ?_, ?_⟩, ⟨?_, ?_, ?_⟩, ⟨?_, ?_, ?_⟩⟩ <;> errw 3

theorem C95_mat3_trace (E : Method) (m : M3 Named) :
    Within (glm_mat3_trace (m.map (Named.wide E))).val (glm_mat3_trace (m.map Named.real)) (unit 2)
      (glm_mat3_trace (m.map Named.mag)) (1 / 2 ^ 140) := by
  simp only [cglm, M3.map, V3.map]
  errw 2

theorem C95_mat4_mulv (E : Method) (m : M4 Named) (v : V4 Named) :
    ((glm_mat4_mulv (m.map (Named.wide E)) (v.map (Named.wide E))).map Wide.val).WithinW (glm_mat4_mulv (m.map Named.real) (v.map Named.real)) (unit 4)
      (glm_mat4_mulv (m.map Named.mag) (v.map Named.mag)) (1 / 2 ^ 140) := by
  simp only [cglm, M4.map, V4.map, V4.WithinW]
  refine ⟨?_, ?_, ?_, ?_⟩ <;> errw 4

theorem C95_mat4_mul (E : Method) (a : M4 Named) (b : M4 Named) :
    ((glm_mat4_mul (a.map (Named.wide E)) (b.map (Named.wide E))).map Wide.val).WithinW (glm_mat4_mul (a.map Named.real) (b.map Named.real)) (unit 4)
      (glm_mat4_mul (a.map Named.mag) (b.map Named.mag)) (1 / 2 ^ 140) := by
  simp only [cglm, M4.map, V4.map, M4.WithinW, V4.WithinW]
  refine ⟨⟨?_, ?_, ?_, ?_⟩, ⟨?_, ?_, ?_, ?_⟩, ⟨?_, ?_, ?_, ?_⟩, ⟨?_, ?_, ?_, ?_⟩⟩ <;> errw 4

theorem C95_mat4_trace (E : Method) (m : M4 Named) :
    Within (glm_mat4_trace (m.map (Named.wide E))).val (glm_mat4_trace (m.map Named.real)) (unit 3)
      (glm_mat4_trace (m.map Named.mag)) (1 / 2 ^ 140) := by
  simp only [cglm, M4.map, V4.map]
  errw 3

theorem C95_mat2_det (E : Method) (m : M2 Named) :
    Within (glm_mat2_det (m.map (Named.wide E))).val (glm_mat2_det (m.map Named.real)) (unit 2)
      (m.c0.x.mag * m.c1.y.mag + m.c1.x.mag * m.c0.y.mag) (1 / 2 ^ 140) := by
  simp only [cglm, M2.map, V2.map]
  errw 2

theorem C95_mat2x3_mulv (E : Method) (m : M2x3 Named) (v : V2 Named) :
    ((glm_mat2x3_mulv (m.map (Named.wide E)) (v.map (Named.wide E))).map Wide.val).WithinW (glm_mat2x3_mulv (m.map Named.real) (v.map Named.real)) (unit 2)
      (glm_mat2x3_mulv (m.map Named.mag) (v.map Named.mag)) (1 / 2 ^ 140) := by
  simp only [cglm, M2x3.map, V2.map, V3.map, V3.WithinW]
  refine ⟨?_, ?_, ?_⟩ <;> errw 2

theorem C95_mat2x4_mulv (E : Method) (m : M2x4 Named) (v : V2 Named) :
    ((glm_mat2x4_mulv (m.map (Named.wide E)) (v.map (Named.wide E))).map Wide.val).WithinW (glm_mat2x4_mulv (m.map Named.real) (v.map Named.real)) (unit 2)
      (glm_mat2x4_mulv (m.map Named.mag) (v.map Named.mag)) (1 / 2 ^ 140) := by
  simp only [cglm, M2x4.map, V2.map, V4.map, V4.WithinW]
  refine ⟨?_, ?_, ?_, ?_⟩ <;> errw 2

theorem C95_mat3x2_mulv (E : Method) (m : M3x2 Named) (v : V3 Named) :
    ((glm_mat3x2_mulv (m.map (Named.wide E)) (v.map (Named.wide E))).map Wide.val).WithinW (glm_mat3x2_mulv (m.map Named.real) (v.map Named.real)) (unit 3)
      (glm_mat3x2_mulv (m.map Named.mag) (v.map Named.mag)) (1 / 2 ^ 140) := by
  simp only [cglm, M3x2.map, V2.map, V3.map, V2.WithinW]
  refine ⟨?_, ?_⟩ <;> errw 3

theorem C95_mat3x4_mulv (E : Method) (m : M3x4 Named) (v : V3 Named) :
    ((glm_mat3x4_mulv (m.map (Named.wide E)) (v.map (Named.wide E))).map Wide.val).WithinW (glm_mat3x4_mulv (m.map Named.real) (v.map Named.real)) (unit 3)
      (glm_mat3x4_mulv (m.map Named.mag) (v.map Named.mag)) (1 / 2 ^ 140) := by
  simp only [cglm, M3x4.map, V3.map, V4.map, V4.WithinW]
  refine ⟨?_, ?_, ?_, ?_⟩ <;> errw 3

theorem C95_mat4x2_mulv (E : Method) (m : M4x2 Named) (v : V4 Named) :
    ((glm_mat4x2_mulv (m.map (Named.wide E)) (v.map (Named.wide E))).map Wide.val).WithinW (glm_mat4x2_mulv (m.map Named.real) (v.map Named.real)) (unit 4)
      (glm_mat4x2_mulv (m.map Named.mag) (v.map Named.mag)) (1 / 2 ^ 140) := by
  simp only [cglm, M4x2.map, V2.map, V4.map, V2.WithinW]
  refine ⟨?_, ?_⟩ <;> errw 4

theorem C95_mat4x3_mulv (E : Method) (m : M4x3 Named) (v : V4 Named) :
    ((glm_mat4x3_mulv (m.map (Named.wide E)) (v.map (Named.wide E))).map Wide.val).WithinW (glm_mat4x3_mulv (m.map Named.real) (v.map Named.real)) (unit 4)
      (glm_mat4x3_mulv (m.map Named.mag) (v.map Named.mag)) (1 / 2 ^ 140) := by
  simp only [cglm, M4x3.map, V3.map, V4.map, V3.WithinW]
  refine ⟨?_, ?_, ?_⟩ <;> errw 4

theorem C95_mat2x3_mul (E : Method) (a : M2x3 Named) (b : M3x2 Named) :
    ((glm_mat2x3_mul (a.map (Named.wide E)) (b.map (Named.wide E))).map Wide.val).WithinW (glm_mat2x3_mul (a.map Named.real) (b.map Named.real)) (unit 2)
      (glm_mat2x3_mul (a.map Named.mag) (b.map Named.mag)) (1 / 2 ^ 140) := by
  simp only [cglm, M2x3.map, M3.map, M3x2.map, V2.map, V3.map, M3.WithinW, V3.WithinW]
  refine ⟨⟨?_, ?_, ?_⟩, ⟨?_, ?_, ?_⟩, ⟨?_, ?_, ?_⟩⟩ <;> errw 2

theorem C95_mat2x4_mul (E : Method) (a : M2x4 Named) (b : M4x2 Named) :
    ((glm_mat2x4_mul (a.map (Named.wide E)) (b.map (Named.wide E))).map Wide.val).WithinW (glm_mat2x4_mul (a.map Named.real) (b.map Named.real)) (unit 2)
      (glm_mat2x4_mul (a.map Named.mag) (b.map Named.mag)) (1 / 2 ^ 140) := by
  simp only [cglm, M2x4.map, M4.map, M4x2.map, V2.map, V4.map, M4.WithinW, V4.WithinW]
  refine ⟨⟨?_, ?_, ?_, ?_⟩, ⟨?_, ?_, ?_, ?_⟩, ⟨?_, ?_, ?_, ?_⟩, ⟨?_, ?_, ?_, ?_⟩⟩ <;> errw 2

theorem C95_mat3x2_mul (E : Method) (a : M3x2 Named) (b : M2x3 Named) :
    ((glm_mat3x2_mul (a.map (Named.wide E)) (b.map (Named.wide E))).map Wide.val).WithinW (glm_mat3x2_mul (a.map Named.real) (b.map Named.real)) (unit 3)
      (glm_mat3x2_mul (a.map Named.mag) (b.map Named.mag)) (1 / 2 ^ 140) := by
  simp only [cglm, M2.map, M2x3.map, M3x2.map, V2.map, V3.map, M2.WithinW, V2.WithinW]
  refine ⟨⟨?_, ?_⟩, ⟨?_, ?_⟩⟩ <;> errw 3

theorem C95_mat3x4_mul (E : Method) (a : M3x4 Named) (b : M4x3 Named) :
    ((glm_mat3x4_mul (a.map (Named.wide E)) (b.map (Named.wide E))).map Wide.val).WithinW (glm_mat3x4_mul (a.map Named.real) (b.map Named.real)) (unit 3)
      (glm_mat3x4_mul (a.map Named.mag) (b.map Named.mag)) (1 / 2 ^ 140) := by
  simp only [cglm, M3x4.map, M4.map, M4x3.map, V3.map, V4.map, M4.WithinW, V4.WithinW]
  refine ⟨⟨?_, ?_, ?_, ?_⟩, ⟨?_, ?_, ?_, ?_⟩, ⟨?_, ?_, ?_, ?_⟩, ⟨?_, ?_, ?_, ?_⟩⟩ <;> errw 3

theorem C95_mat4x2_mul (E : Method) (a : M4x2 Named) (b : M2x4 Named) :
    ((glm_mat4x2_mul (a.map (Named.wide E)) (b.map (Named.wide E))).map Wide.val).WithinW (glm_mat4x2_mul (a.map Named.real) (b.map Named.real)) (unit 4)
      (glm_mat4x2_mul (a.map Named.mag) (b.map Named.mag)) (1 / 2 ^ 140) := by
  simp only [cglm, M2.map, M2x4.map, M4x2.map, V2.map, V4.map, M2.WithinW, V2.WithinW]
  refine ⟨⟨?_, ?_⟩, ⟨?_, ?_⟩⟩ <;> errw 4

theorem C95_mat4x3_mul (E : Method) (a : M4x3 Named) (b : M3x4 Named) :
    ((glm_mat4x3_mul (a.map (Named.wide E)) (b.map (Named.wide E))).map Wide.val).WithinW (glm_mat4x3_mul (a.map Named.real) (b.map Named.real)) (unit 4)
      (glm_mat4x3_mul (a.map Named.mag) (b.map Named.mag)) (1 / 2 ^ 140) := by
  simp only [cglm, M3.map, M3x4.map, M4x3.map, V3.map, V4.map, M3.WithinW, V3.WithinW]
  refine ⟨⟨?_, ?_, ?_⟩, ⟨?_, ?_, ?_⟩, ⟨?_, ?_, ?_⟩⟩ <;> errw 4

theorem C95_mat4_mulv3 (E : Method) (m : M4 Named) (v : V3 Named) (w : Named) :
    ((glm_mat4_mulv3 (m.map (Named.wide E)) (v.map (Named.wide E)) ((Named.wide E) w)).map Wide.val).WithinW (glm_mat4_mulv3 (m.map Named.real) (v.map Named.real) (Named.real w)) (unit 4)
      (glm_mat4_mulv3 (m.map Named.mag) (v.map Named.mag) (Named.mag w)) (1 / 2 ^ 140) := by
  simp only [cglm, M4.map, V3.map, V4.map, V3.WithinW]
  refine ⟨?_, ?_, ?_⟩ <;> errw 4

theorem C95_mul (E : Method) (a : M4 Named) (b : M4 Named) :
    ((glm_mul (a.map (Named.wide E)) (b.map (Named.wide E))).map Wide.val).WithinW (glm_mul (a.map Named.real) (b.map Named.real)) (unit 4)
      (glm_mul (a.map Named.mag) (b.map Named.mag)) (1 / 2 ^ 140) := by
  simp only [cglm, M4.map, V4.map, M4.WithinW, V4.WithinW]
  refine ⟨⟨?_, ?_, ?_, ?_⟩, ⟨?_, ?_, ?_, ?_⟩, ⟨?_, ?_, ?_, ?_⟩, ⟨?_, ?_, ?_, ?_⟩⟩ <;> errw 4

theorem C95_mul_rot (E : Method) (a : M4 Named) (b : M4 Named) :
    ((glm_mul_rot (a.map (Named.wide E)) (b.map (Named.wide E))).map Wide.val).WithinW (glm_mul_rot (a.map Named.real) (b.map Named.real)) (unit 3)
      (glm_mul_rot (a.map Named.mag) (b.map Named.mag)) (1 / 2 ^ 140) := by
  simp only [cglm, M4.map, V4.map, M4.WithinW, V4.WithinW]
  refine ⟨⟨?_, ?_, ?_, ?_⟩, ⟨?_, ?_, ?_, ?_⟩, ⟨?_, ?_, ?_, ?_⟩, ⟨?_, ?_, ?_, ?_⟩⟩ <;> errw 3

theorem C95_translate (E : Method) (m : M4 Named) (v : V3 Named) :
    ((glm_translate (m.map (Named.wide E)) (v.map (Named.wide E))).map Wide.val).WithinW (glm_translate (m.map Named.real) (v.map Named.real)) (unit 4)
      (glm_translate (m.map Named.mag) (v.map Named.mag)) (1 / 2 ^ 140) := by
  simp only [cglm, M4.map, V3.map, V4.map, M4.WithinW, V4.WithinW]
  refine ⟨⟨?_, ?_, ?_, ?_⟩, ⟨?_, ?_, ?_, ?_⟩, ⟨?_, ?_, ?_, ?_⟩, ⟨?_, ?_, ?_, ?_⟩⟩ <;> errw 4

theorem C95_scale_to (E : Method) (m : M4 Named) (v : V3 Named) :
    ((glm_scale_to (m.map (Named.wide E)) (v.map (Named.wide E))).map Wide.val).WithinW (glm_scale_to (m.map Named.real) (v.map Named.real)) (unit 1)
      (glm_scale_to (m.map Named.mag) (v.map Named.mag)) (1 / 2 ^ 140) := by
  simp only [cglm, M4.map, V3.map, V4.map, M4.WithinW, V4.WithinW]
  refine ⟨⟨?_, ?_, ?_, ?_⟩, ⟨?_, ?_, ?_, ?_⟩, ⟨?_, ?_, ?_, ?_⟩, ⟨?_, ?_, ?_, ?_⟩⟩ <;> errw 1

end Cglm
