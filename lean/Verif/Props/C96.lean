import Verif.Assoc
import Verif.Gen
/-!
# C96: error bounds under reassociation

`t` is anything a compiler may compute instead of the expression in the code after reordering sums and products (`Assoc.lean`).
`Err` and the magnitudes are those of C64; `γ` counts all operations instead of the longest path.
Written by `tools/assocthms.py`.
-/
set_option linter.unusedSimpArgs false
set_option linter.unusedSectionVars false
open Cglm F32
namespace Cglm
variable [Libm]

theorem C96_vec2_dot (a : V2 F32) (b : V2 F32)
    (t : X) (h : Reassoc (glm_vec2_dot (a.map .inp) (b.map .inp)) t) :
    Err t.run (glm_vec2_dot (a.map toReal) (b.map toReal)) (γ 3)
      (glm_vec2_dot (a.map mag) (b.map mag)) (1 / 2 ^ 146) := by
  simp only [cglm, V2.map] at h
  simp only [cglm, V2.map]
  errx 3

theorem C96_vec2_norm2 (v : V2 F32)
    (t : X) (h : Reassoc (glm_vec2_norm2 (v.map .inp)) t) :
    Err t.run (glm_vec2_norm2 (v.map toReal)) (γ 3)
      (glm_vec2_norm2 (v.map mag)) (1 / 2 ^ 146) := by
  simp only [cglm, V2.map] at h
  simp only [cglm, V2.map]
  errx 3

theorem C96_vec2_muladd (a : V2 F32) (b : V2 F32) (c : V2 F32)
    (t : V2 X) (h : V2.Reassoc (glm_vec2_muladd (a.map .inp) (b.map .inp) (c.map .inp)) t) :
    (t.map X.run).Err (glm_vec2_muladd (a.map toReal) (b.map toReal) (c.map toReal)) (γ 2)
      (glm_vec2_muladd (a.map mag) (b.map mag) (c.map mag)) (1 / 2 ^ 146) := by
  simp only [cglm, V2.map, V2.Reassoc] at h
  simp only [cglm, V2.map, V2.Err]
  obtain ⟨_, _⟩ := h
  refine ⟨?_, ?_⟩ <;> errx 2

theorem C96_vec2_muladds (a : V2 F32) (s : F32) (c : V2 F32)
    (t : V2 X) (h : V2.Reassoc (glm_vec2_muladds (a.map .inp) (.inp s) (c.map .inp)) t) :
    (t.map X.run).Err (glm_vec2_muladds (a.map toReal) (toReal s) (c.map toReal)) (γ 2)
      (glm_vec2_muladds (a.map mag) (mag s) (c.map mag)) (1 / 2 ^ 146) := by
  simp only [cglm, V2.map, V2.Reassoc] at h
  simp only [cglm, V2.map, V2.Err]
  obtain ⟨_, _⟩ := h
  refine ⟨?_, ?_⟩ <;> errx 2

theorem C96_vec2_mulsub (a : V2 F32) (b : V2 F32) (c : V2 F32)
    (t : V2 X) (h : V2.Reassoc (glm_vec2_mulsub (a.map .inp) (b.map .inp) (c.map .inp)) t) :
    (t.map X.run).Err (glm_vec2_mulsub (a.map toReal) (b.map toReal) (c.map toReal)) (γ 2)
      (⟨c.x.mag + a.x.mag * b.x.mag, c.y.mag + a.y.mag * b.y.mag⟩) (1 / 2 ^ 146) := by
  simp only [cglm, V2.map, V2.Reassoc] at h
  simp only [cglm, V2.map, V2.Err]
  obtain ⟨_, _⟩ := h
  refine ⟨?_, ?_⟩ <;> errx 2

theorem C96_vec2_mulsubs (a : V2 F32) (s : F32) (c : V2 F32)
    (t : V2 X) (h : V2.Reassoc (glm_vec2_mulsubs (a.map .inp) (.inp s) (c.map .inp)) t) :
    (t.map X.run).Err (glm_vec2_mulsubs (a.map toReal) (toReal s) (c.map toReal)) (γ 2)
      (⟨c.x.mag + a.x.mag * s.mag, c.y.mag + a.y.mag * s.mag⟩) (1 / 2 ^ 146) := by
  simp only [cglm, V2.map, V2.Reassoc] at h
  simp only [cglm, V2.map, V2.Err]
  obtain ⟨_, _⟩ := h
  refine ⟨?_, ?_⟩ <;> errx 2

theorem C96_vec2_addadd (a : V2 F32) (b : V2 F32) (c : V2 F32)
    (t : V2 X) (h : V2.Reassoc (glm_vec2_addadd (a.map .inp) (b.map .inp) (c.map .inp)) t) :
    (t.map X.run).Err (glm_vec2_addadd (a.map toReal) (b.map toReal) (c.map toReal)) (γ 2)
      (glm_vec2_addadd (a.map mag) (b.map mag) (c.map mag)) (1 / 2 ^ 146) := by
  simp only [cglm, V2.map, V2.Reassoc] at h
  simp only [cglm, V2.map, V2.Err]
  obtain ⟨_, _⟩ := h
  refine ⟨?_, ?_⟩ <;> errx 2

theorem C96_vec2_subadd (a : V2 F32) (b : V2 F32) (c : V2 F32)
    (t : V2 X) (h : V2.Reassoc (glm_vec2_subadd (a.map .inp) (b.map .inp) (c.map .inp)) t) :
    (t.map X.run).Err (glm_vec2_subadd (a.map toReal) (b.map toReal) (c.map toReal)) (γ 2)
      (⟨c.x.mag + (a.x.mag + b.x.mag), c.y.mag + (a.y.mag + b.y.mag)⟩) (1 / 2 ^ 146) := by
  simp only [cglm, V2.map, V2.Reassoc] at h
  simp only [cglm, V2.map, V2.Err]
  obtain ⟨_, _⟩ := h
  refine ⟨?_, ?_⟩ <;> errx 2

theorem C96_vec2_addsub (a : V2 F32) (b : V2 F32) (c : V2 F32)
    (t : V2 X) (h : V2.Reassoc (glm_vec2_addsub (a.map .inp) (b.map .inp) (c.map .inp)) t) :
    (t.map X.run).Err (glm_vec2_addsub (a.map toReal) (b.map toReal) (c.map toReal)) (γ 2)
      (⟨c.x.mag + (a.x.mag + b.x.mag), c.y.mag + (a.y.mag + b.y.mag)⟩) (1 / 2 ^ 146) := by
  simp only [cglm, V2.map, V2.Reassoc] at h
  simp only [cglm, V2.map, V2.Err]
  obtain ⟨_, _⟩ := h
  refine ⟨?_, ?_⟩ <;> errx 2

theorem C96_vec2_subsub (a : V2 F32) (b : V2 F32) (c : V2 F32)
    (t : V2 X) (h : V2.Reassoc (glm_vec2_subsub (a.map .inp) (b.map .inp) (c.map .inp)) t) :
    (t.map X.run).Err (glm_vec2_subsub (a.map toReal) (b.map toReal) (c.map toReal)) (γ 2)
      (⟨c.x.mag + (a.x.mag + b.x.mag), c.y.mag + (a.y.mag + b.y.mag)⟩) (1 / 2 ^ 146) := by
  simp only [cglm, V2.map, V2.Reassoc] at h
  simp only [cglm, V2.map, V2.Err]
  obtain ⟨_, _⟩ := h
  refine ⟨?_, ?_⟩ <;> errx 2

theorem C96_mat2_mulv (m : M2 F32) (v : V2 F32)
    (t : V2 X) (h : V2.Reassoc (glm_mat2_mulv (m.map .inp) (v.map .inp)) t) :
    (t.map X.run).Err (glm_mat2_mulv (m.map toReal) (v.map toReal)) (γ 3)
      (glm_mat2_mulv (m.map mag) (v.map mag)) (1 / 2 ^ 146) := by
  simp only [cglm, M2.map, V2.map, V2.Reassoc] at h
  simp only [cglm, M2.map, V2.map, V2.Err]
  obtain ⟨_, _⟩ := h
  refine ⟨?_, ?_⟩ <;> errx 3

theorem C96_mat2_mul (a : M2 F32) (b : M2 F32)
    (t : M2 X) (h : M2.Reassoc (glm_mat2_mul (a.map .inp) (b.map .inp)) t) :
    (t.map X.run).Err (glm_mat2_mul (a.map toReal) (b.map toReal)) (γ 3)
      (glm_mat2_mul (a.map mag) (b.map mag)) (1 / 2 ^ 146) := by
  simp only [cglm, M2.map, V2.map, M2.Reassoc, V2.Reassoc] at h
  simp only [cglm, M2.map, V2.map, M2.Err, V2.Err]
  obtain ⟨⟨_, _⟩, ⟨_, _⟩⟩ := h
  refine ⟨⟨?_, ?_⟩, ⟨?_, ?_⟩⟩ <;> errx 3

theorem C96_mat2_trace (m : M2 F32)
    (t : X) (h : Reassoc (glm_mat2_trace (m.map .inp)) t) :
    Err t.run (glm_mat2_trace (m.map toReal)) (γ 1)
      (glm_mat2_trace (m.map mag)) (1 / 2 ^ 146) := by
  simp only [cglm, M2.map, V2.map] at h
  simp only [cglm, M2.map, V2.map]
  errx 1

theorem C96_vec3_dot (a : V3 F32) (b : V3 F32)
    (t : X) (h : Reassoc (glm_vec3_dot (a.map .inp) (b.map .inp)) t) :
    Err t.run (glm_vec3_dot (a.map toReal) (b.map toReal)) (γ 5)
      (glm_vec3_dot (a.map mag) (b.map mag)) (1 / 2 ^ 146) := by
  simp only [cglm, V3.map] at h
  simp only [cglm, V3.map]
  errx 5

theorem C96_vec3_norm2 (v : V3 F32)
    (t : X) (h : Reassoc (glm_vec3_norm2 (v.map .inp)) t) :
    Err t.run (glm_vec3_norm2 (v.map toReal)) (γ 5)
      (glm_vec3_norm2 (v.map mag)) (1 / 2 ^ 146) := by
  simp only [cglm, V3.map] at h
  simp only [cglm, V3.map]
  errx 5

theorem C96_vec3_muladd (a : V3 F32) (b : V3 F32) (c : V3 F32)
    (t : V3 X) (h : V3.Reassoc (glm_vec3_muladd (a.map .inp) (b.map .inp) (c.map .inp)) t) :
    (t.map X.run).Err (glm_vec3_muladd (a.map toReal) (b.map toReal) (c.map toReal)) (γ 2)
      (glm_vec3_muladd (a.map mag) (b.map mag) (c.map mag)) (1 / 2 ^ 146) := by
  simp only [cglm, V3.map, V3.Reassoc] at h
  simp only [cglm, V3.map, V3.Err]
  obtain ⟨_, _, _⟩ := h
  refine ⟨?_, ?_, ?_⟩ <;> errx 2

theorem C96_vec3_muladds (a : V3 F32) (s : F32) (c : V3 F32)
    (t : V3 X) (h : V3.Reassoc (glm_vec3_muladds (a.map .inp) (.inp s) (c.map .inp)) t) :
    (t.map X.run).Err (glm_vec3_muladds (a.map toReal) (toReal s) (c.map toReal)) (γ 2)
      (glm_vec3_muladds (a.map mag) (mag s) (c.map mag)) (1 / 2 ^ 146) := by
  simp only [cglm, V3.map, V3.Reassoc] at h
  simp only [cglm, V3.map, V3.Err]
  obtain ⟨_, _, _⟩ := h
  refine ⟨?_, ?_, ?_⟩ <;> errx 2

theorem C96_vec3_mulsub (a : V3 F32) (b : V3 F32) (c : V3 F32)
    (t : V3 X) (h : V3.Reassoc (glm_vec3_mulsub (a.map .inp) (b.map .inp) (c.map .inp)) t) :
    (t.map X.run).Err (glm_vec3_mulsub (a.map toReal) (b.map toReal) (c.map toReal)) (γ 2)
      (⟨c.x.mag + a.x.mag * b.x.mag, c.y.mag + a.y.mag * b.y.mag, c.z.mag + a.z.mag * b.z.mag⟩) (1 / 2 ^ 146) := by
  simp only [cglm, V3.map, V3.Reassoc] at h
  simp only [cglm, V3.map, V3.Err]
  obtain ⟨_, _, _⟩ := h
  refine ⟨?_, ?_, ?_⟩ <;> errx 2

theorem C96_vec3_mulsubs (a : V3 F32) (s : F32) (c : V3 F32)
    (t : V3 X) (h : V3.Reassoc (glm_vec3_mulsubs (a.map .inp) (.inp s) (c.map .inp)) t) :
    (t.map X.run).Err (glm_vec3_mulsubs (a.map toReal) (toReal s) (c.map toReal)) (γ 2)
      (⟨c.x.mag + a.x.mag * s.mag, c.y.mag + a.y.mag * s.mag, c.z.mag + a.z.mag * s.mag⟩) (1 / 2 ^ 146) := by
  simp only [cglm, V3.map, V3.Reassoc] at h
  simp only [cglm, V3.map, V3.Err]
  obtain ⟨_, _, _⟩ := h
  refine ⟨?_, ?_, ?_⟩ <;> errx 2

theorem C96_vec3_addadd (a : V3 F32) (b : V3 F32) (c : V3 F32)
    (t : V3 X) (h : V3.Reassoc (glm_vec3_addadd (a.map .inp) (b.map .inp) (c.map .inp)) t) :
    (t.map X.run).Err (glm_vec3_addadd (a.map toReal) (b.map toReal) (c.map toReal)) (γ 2)
      (glm_vec3_addadd (a.map mag) (b.map mag) (c.map mag)) (1 / 2 ^ 146) := by
  simp only [cglm, V3.map, V3.Reassoc] at h
  simp only [cglm, V3.map, V3.Err]
  obtain ⟨_, _, _⟩ := h
  refine ⟨?_, ?_, ?_⟩ <;> errx 2

theorem C96_vec3_subadd (a : V3 F32) (b : V3 F32) (c : V3 F32)
    (t : V3 X) (h : V3.Reassoc (glm_vec3_subadd (a.map .inp) (b.map .inp) (c.map .inp)) t) :
    (t.map X.run).Err (glm_vec3_subadd (a.map toReal) (b.map toReal) (c.map toReal)) (γ 2)
      (⟨c.x.mag + (a.x.mag + b.x.mag), c.y.mag + (a.y.mag + b.y.mag), c.z.mag + (a.z.mag + b.z.mag)⟩) (1 / 2 ^ 146) := by
  simp only [cglm, V3.map, V3.Reassoc] at h
  simp only [cglm, V3.map, V3.Err]
  obtain ⟨_, _, _⟩ := h
  refine ⟨?_, ?_, ?_⟩ <;> errx 2

theorem C96_vec3_addsub (a : V3 F32) (b : V3 F32) (c : V3 F32)
    (t : V3 X) (h : V3.Reassoc (glm_vec3_addsub (a.map .inp) (b.map .inp) (c.map .inp)) t) :
    (t.map X.run).Err (glm_vec3_addsub (a.map toReal) (b.map toReal) (c.map toReal)) (γ 2)
      (⟨c.x.mag + (a.x.mag + b.x.mag), c.y.mag + (a.y.mag + b.y.mag), c.z.mag + (a.z.mag + b.z.mag)⟩) (1 / 2 ^ 146) := by
  simp only [cglm, V3.map, V3.Reassoc] at h
  simp only [cglm, V3.map, V3.Err]
  obtain ⟨_, _, _⟩ := h
  refine ⟨?_, ?_, ?_⟩ <;> errx 2

theorem C96_vec3_subsub (a : V3 F32) (b : V3 F32) (c : V3 F32)
    (t : V3 X) (h : V3.Reassoc (glm_vec3_subsub (a.map .inp) (b.map .inp) (c.map .inp)) t) :
    (t.map X.run).Err (glm_vec3_subsub (a.map toReal) (b.map toReal) (c.map toReal)) (γ 2)
      (⟨c.x.mag + (a.x.mag + b.x.mag), c.y.mag + (a.y.mag + b.y.mag), c.z.mag + (a.z.mag + b.z.mag)⟩) (1 / 2 ^ 146) := by
  simp only [cglm, V3.map, V3.Reassoc] at h
  simp only [cglm, V3.map, V3.Err]
  obtain ⟨_, _, _⟩ := h
  refine ⟨?_, ?_, ?_⟩ <;> errx 2

theorem C96_mat3_mulv (m : M3 F32) (v : V3 F32)
    (t : V3 X) (h : V3.Reassoc (glm_mat3_mulv (m.map .inp) (v.map .inp)) t) :
    (t.map X.run).Err (glm_mat3_mulv (m.map toReal) (v.map toReal)) (γ 5)
      (glm_mat3_mulv (m.map mag) (v.map mag)) (1 / 2 ^ 146) := by
  simp only [cglm, M3.map, V3.map, V3.Reassoc] at h
  simp only [cglm, M3.map, V3.map, V3.Err]
  obtain ⟨_, _, _⟩ := h
  refine ⟨?_, ?_, ?_⟩ <;> errx 5

theorem C96_mat3_mul (a : M3 F32) (b : M3 F32)
    (t : M3 X) (h : M3.Reassoc (glm_mat3_mul (a.map .inp) (b.map .inp)) t) :
    (t.map X.run).Err (glm_mat3_mul (a.map toReal) (b.map toReal)) (γ 5)
      (glm_mat3_mul (a.map mag) (b.map mag)) (1 / 2 ^ 146) := by
  simp only [cglm, M3.map, V3.map, M3.Reassoc, V3.Reassoc] at h
  simp only [cglm, M3.map, V3.map, M3.Err, V3.Err]
  obtain ⟨⟨_, _, _⟩, ⟨_, _, _⟩, ⟨_, _, _⟩⟩ := h
  refine ⟨⟨?_, ?_, ?_⟩, ⟨?_, ?_, ?_⟩, ⟨?_, ?_, ?_⟩⟩ <;> errx 5

theorem C96_mat3_trace (m : M3 F32)
    (t : X) (h : Reassoc (glm_mat3_trace (m.map .inp)) t) :
    Err t.run (glm_mat3_trace (m.map toReal)) (γ 2)
      (glm_mat3_trace (m.map mag)) (1 / 2 ^ 146) := by
  simp only [cglm, M3.map, V3.map] at h
  simp only [cglm, M3.map, V3.map]
  errx 2

theorem C96_vec4_dot (a : V4 F32) (b : V4 F32)
    (t : X) (h : Reassoc (glm_vec4_dot (a.map .inp) (b.map .inp)) t) :
    Err t.run (glm_vec4_dot (a.map toReal) (b.map toReal)) (γ 7)
      (glm_vec4_dot (a.map mag) (b.map mag)) (1 / 2 ^ 146) := by
  simp only [cglm, V4.map] at h
  simp only [cglm, V4.map]
  errx 7

theorem C96_vec4_norm2 (v : V4 F32)
    (t : X) (h : Reassoc (glm_vec4_norm2 (v.map .inp)) t) :
    Err t.run (glm_vec4_norm2 (v.map toReal)) (γ 7)
      (glm_vec4_norm2 (v.map mag)) (1 / 2 ^ 146) := by
  simp only [cglm, V4.map] at h
  simp only [cglm, V4.map]
  errx 7

theorem C96_vec4_muladd (a : V4 F32) (b : V4 F32) (c : V4 F32)
    (t : V4 X) (h : V4.Reassoc (glm_vec4_muladd (a.map .inp) (b.map .inp) (c.map .inp)) t) :
    (t.map X.run).Err (glm_vec4_muladd (a.map toReal) (b.map toReal) (c.map toReal)) (γ 2)
      (glm_vec4_muladd (a.map mag) (b.map mag) (c.map mag)) (1 / 2 ^ 146) := by
  simp only [cglm, V4.map, V4.Reassoc] at h
  simp only [cglm, V4.map, V4.Err]
  obtain ⟨_, _, _, _⟩ := h
  refine ⟨?_, ?_, ?_, ?_⟩ <;> errx 2

theorem C96_vec4_muladds (a : V4 F32) (s : F32) (c : V4 F32)
    (t : V4 X) (h : V4.Reassoc (glm_vec4_muladds (a.map .inp) (.inp s) (c.map .inp)) t) :
    (t.map X.run).Err (glm_vec4_muladds (a.map toReal) (toReal s) (c.map toReal)) (γ 2)
      (glm_vec4_muladds (a.map mag) (mag s) (c.map mag)) (1 / 2 ^ 146) := by
  simp only [cglm, V4.map, V4.Reassoc] at h
  simp only [cglm, V4.map, V4.Err]
  obtain ⟨_, _, _, _⟩ := h
  refine ⟨?_, ?_, ?_, ?_⟩ <;> errx 2

theorem C96_vec4_mulsub (a : V4 F32) (b : V4 F32) (c : V4 F32)
    (t : V4 X) (h : V4.Reassoc (glm_vec4_mulsub (a.map .inp) (b.map .inp) (c.map .inp)) t) :
    (t.map X.run).Err (glm_vec4_mulsub (a.map toReal) (b.map toReal) (c.map toReal)) (γ 2)
      (⟨c.x.mag + a.x.mag * b.x.mag, c.y.mag + a.y.mag * b.y.mag, c.z.mag + a.z.mag * b.z.mag, c.w.mag + a.w.mag * b.w.mag⟩) (1 / 2 ^ 146) := by
  simp only [cglm, V4.map, V4.Reassoc] at h
  simp only [cglm, V4.map, V4.Err]
  obtain ⟨_, _, _, _⟩ := h
  refine ⟨?_, ?_, ?_, ?_⟩ <;> errx 2

theorem C96_vec4_mulsubs (a : V4 F32) (s : F32) (c : V4 F32)
    (t : V4 X) (h : V4.Reassoc (glm_vec4_mulsubs (a.map .inp) (.inp s) (c.map .inp)) t) :
    (t.map X.run).Err (glm_vec4_mulsubs (a.map toReal) (toReal s) (c.map toReal)) (γ 2)
      (⟨c.x.mag + a.x.mag * s.mag, c.y.mag + a.y.mag * s.mag, c.z.mag + a.z.mag * s.mag, c.w.mag + a.w.mag * s.mag⟩) (1 / 2 ^ 146) := by
  simp only [cglm, V4.map, V4.Reassoc] at h
  simp only [cglm, V4.map, V4.Err]
  obtain ⟨_, _, _, _⟩ := h
  refine ⟨?_, ?_, ?_, ?_⟩ <;> errx 2

theorem C96_vec4_addadd (a : V4 F32) (b : V4 F32) (c : V4 F32)
    (t : V4 X) (h : V4.Reassoc (glm_vec4_addadd (a.map .inp) (b.map .inp) (c.map .inp)) t) :
    (t.map X.run).Err (glm_vec4_addadd (a.map toReal) (b.map toReal) (c.map toReal)) (γ 2)
      (glm_vec4_addadd (a.map mag) (b.map mag) (c.map mag)) (1 / 2 ^ 146) := by
  simp only [cglm, V4.map, V4.Reassoc] at h
  simp only [cglm, V4.map, V4.Err]
  obtain ⟨_, _, _, _⟩ := h
  refine ⟨?_, ?_, ?_, ?_⟩ <;> errx 2

theorem C96_vec4_subadd (a : V4 F32) (b : V4 F32) (c : V4 F32)
    (t : V4 X) (h : V4.Reassoc (glm_vec4_subadd (a.map .inp) (b.map .inp) (c.map .inp)) t) :
    (t.map X.run).Err (glm_vec4_subadd (a.map toReal) (b.map toReal) (c.map toReal)) (γ 2)
      (⟨c.x.mag + (a.x.mag + b.x.mag), c.y.mag + (a.y.mag + b.y.mag), c.z.mag + (a.z.mag + b.z.mag), c.w.mag + (a.w.mag + b.w.mag)⟩) (1 / 2 ^ 146) := by
  simp only [cglm, V4.map, V4.Reassoc] at h
  simp only [cglm, V4.map, V4.Err]
  obtain ⟨_, _, _, _⟩ := h
  refine ⟨?_, ?_, ?_, ?_⟩ <;> errx 2

theorem C96_vec4_addsub (a : V4 F32) (b : V4 F32) (c : V4 F32)
    (t : V4 X) (h : V4.Reassoc (glm_vec4_addsub (a.map .inp) (b.map .inp) (c.map .inp)) t) :
    (t.map X.run).Err (glm_vec4_addsub (a.map toReal) (b.map toReal) (c.map toReal)) (γ 2)
      (⟨c.x.mag + (a.x.mag + b.x.mag), c.y.mag + (a.y.mag + b.y.mag), c.z.mag + (a.z.mag + b.z.mag), c.w.mag + (a.w.mag + b.w.mag)⟩) (1 / 2 ^ 146) := by
  simp only [cglm, V4.map, V4.Reassoc] at h
  simp only [cglm, V4.map, V4.Err]
  obtain ⟨_, _, _, _⟩ := h
  refine ⟨?_, ?_, ?_, ?_⟩ <;> errx 2

theorem C96_vec4_subsub (a : V4 F32) (b : V4 F32) (c : V4 F32)
    (t : V4 X) (h : V4.Reassoc (glm_vec4_subsub (a.map .inp) (b.map .inp) (c.map .inp)) t) :
    (t.map X.run).Err (glm_vec4_subsub (a.map toReal) (b.map toReal) (c.map toReal)) (γ 2)
      (⟨c.x.mag + (a.x.mag + b.x.mag), c.y.mag + (a.y.mag + b.y.mag), c.z.mag + (a.z.mag + b.z.mag), c.w.mag + (a.w.mag + b.w.mag)⟩) (1 / 2 ^ 146) := by
  simp only [cglm, V4.map, V4.Reassoc] at h
  simp only [cglm, V4.map, V4.Err]
  obtain ⟨_, _, _, _⟩ := h
  refine ⟨?_, ?_, ?_, ?_⟩ <;> errx 2

theorem C96_mat4_mulv (m : M4 F32) (v : V4 F32)
    (t : V4 X) (h : V4.Reassoc (glm_mat4_mulv (m.map .inp) (v.map .inp)) t) :
    (t.map X.run).Err (glm_mat4_mulv (m.map toReal) (v.map toReal)) (γ 7)
      (glm_mat4_mulv (m.map mag) (v.map mag)) (1 / 2 ^ 146) := by
  simp only [cglm, M4.map, V4.map, V4.Reassoc] at h
  simp only [cglm, M4.map, V4.map, V4.Err]
  obtain ⟨_, _, _, _⟩ := h
  refine ⟨?_, ?_, ?_, ?_⟩ <;> errx 7

theorem C96_mat4_mul (a : M4 F32) (b : M4 F32)
    (t : M4 X) (h : M4.Reassoc (glm_mat4_mul (a.map .inp) (b.map .inp)) t) :
    (t.map X.run).Err (glm_mat4_mul (a.map toReal) (b.map toReal)) (γ 7)
      (glm_mat4_mul (a.map mag) (b.map mag)) (1 / 2 ^ 146) := by
  simp only [cglm, M4.map, V4.map, M4.Reassoc, V4.Reassoc] at h
  simp only [cglm, M4.map, V4.map, M4.Err, V4.Err]
  obtain ⟨⟨_, _, _, _⟩, ⟨_, _, _, _⟩, ⟨_, _, _, _⟩, ⟨_, _, _, _⟩⟩ := h
  refine ⟨⟨?_, ?_, ?_, ?_⟩, ⟨?_, ?_, ?_, ?_⟩, ⟨?_, ?_, ?_, ?_⟩, ⟨?_, ?_, ?_, ?_⟩⟩ <;> errx 7

theorem C96_mat4_trace (m : M4 F32)
    (t : X) (h : Reassoc (glm_mat4_trace (m.map .inp)) t) :
    Err t.run (glm_mat4_trace (m.map toReal)) (γ 3)
      (glm_mat4_trace (m.map mag)) (1 / 2 ^ 146) := by
  simp only [cglm, M4.map, V4.map] at h
  simp only [cglm, M4.map, V4.map]
  errx 3

theorem C96_vec2_cross (a : V2 F32) (b : V2 F32)
    (t : X) (h : Reassoc (glm_vec2_cross (a.map .inp) (b.map .inp)) t) :
    Err t.run (glm_vec2_cross (a.map toReal) (b.map toReal)) (γ 3)
      (a.x.mag * b.y.mag + a.y.mag * b.x.mag) (1 / 2 ^ 146) := by
  simp only [cglm, V2.map] at h
  simp only [cglm, V2.map]
  errx 3

theorem C96_vec3_cross (a : V3 F32) (b : V3 F32)
    (t : V3 X) (h : V3.Reassoc (glm_vec3_cross (a.map .inp) (b.map .inp)) t) :
    (t.map X.run).Err (glm_vec3_cross (a.map toReal) (b.map toReal)) (γ 3)
      (⟨a.y.mag * b.z.mag + a.z.mag * b.y.mag, a.z.mag * b.x.mag + a.x.mag * b.z.mag, a.x.mag * b.y.mag + a.y.mag * b.x.mag⟩) (1 / 2 ^ 146) := by
  simp only [cglm, V3.map, V3.Reassoc] at h
  simp only [cglm, V3.map, V3.Err]
  obtain ⟨_, _, _⟩ := h
  refine ⟨?_, ?_, ?_⟩ <;> errx 3

theorem C96_vec2_complex_mul (a : V2 F32) (b : V2 F32)
    (t : V2 X) (h : V2.Reassoc (glm_vec2_complex_mul (a.map .inp) (b.map .inp)) t) :
    (t.map X.run).Err (glm_vec2_complex_mul (a.map toReal) (b.map toReal)) (γ 3)
      (⟨a.x.mag * b.x.mag + a.y.mag * b.y.mag, a.x.mag * b.y.mag + a.y.mag * b.x.mag⟩) (1 / 2 ^ 146) := by
  simp only [cglm, V2.map, V2.Reassoc] at h
  simp only [cglm, V2.map, V2.Err]
  obtain ⟨_, _⟩ := h
  refine ⟨?_, ?_⟩ <;> errx 3

theorem C96_quat_mul (p : V4 F32) (q : V4 F32)
    (t : V4 X) (h : V4.Reassoc (glm_quat_mul (p.map .inp) (q.map .inp)) t) :
    (t.map X.run).Err (glm_quat_mul (p.map toReal) (q.map toReal)) (γ 7)
      (⟨p.w.mag * q.x.mag + p.x.mag * q.w.mag + p.y.mag * q.z.mag + p.z.mag * q.y.mag, p.w.mag * q.y.mag + p.x.mag * q.z.mag + p.y.mag * q.w.mag + p.z.mag * q.x.mag, p.w.mag * q.z.mag + p.x.mag * q.y.mag + p.y.mag * q.x.mag + p.z.mag * q.w.mag, p.w.mag * q.w.mag + p.x.mag * q.x.mag + p.y.mag * q.y.mag + p.z.mag * q.z.mag⟩) (1 / 2 ^ 146) := by
  simp only [cglm, V4.map, V4.Reassoc] at h
  simp only [cglm, V4.map, V4.Err]
  obtain ⟨_, _, _, _⟩ := h
  refine ⟨?_, ?_, ?_, ?_⟩ <;> errx 7

theorem C96_quat_dot (p : V4 F32) (q : V4 F32)
    (t : X) (h : Reassoc (glm_quat_dot (p.map .inp) (q.map .inp)) t) :
    Err t.run (glm_quat_dot (p.map toReal) (q.map toReal)) (γ 7)
      (glm_quat_dot (p.map mag) (q.map mag)) (1 / 2 ^ 146) := by
  simp only [cglm, V4.map] at h
  simp only [cglm, V4.map]
  errx 7

theorem C96_mat2_det (m : M2 F32)
    (t : X) (h : Reassoc (glm_mat2_det (m.map .inp)) t) :
    Err t.run (glm_mat2_det (m.map toReal)) (γ 3)
      (m.c0.x.mag * m.c1.y.mag + m.c1.x.mag * m.c0.y.mag) (1 / 2 ^ 146) := by
  simp only [cglm, M2.map, V2.map] at h
  simp only [cglm, M2.map, V2.map]
  errx 3

theorem C96_mat2x3_mulv (m : M2x3 F32) (v : V2 F32)
    (t : V3 X) (h : V3.Reassoc (glm_mat2x3_mulv (m.map .inp) (v.map .inp)) t) :
    (t.map X.run).Err (glm_mat2x3_mulv (m.map toReal) (v.map toReal)) (γ 3)
      (glm_mat2x3_mulv (m.map mag) (v.map mag)) (1 / 2 ^ 146) := by
  simp only [cglm, M2x3.map, V2.map, V3.map, V3.Reassoc] at h
  simp only [cglm, M2x3.map, V2.map, V3.map, V3.Err]
  obtain ⟨_, _, _⟩ := h
  refine ⟨?_, ?_, ?_⟩ <;> errx 3

theorem C96_mat2x4_mulv (m : M2x4 F32) (v : V2 F32)
    (t : V4 X) (h : V4.Reassoc (glm_mat2x4_mulv (m.map .inp) (v.map .inp)) t) :
    (t.map X.run).Err (glm_mat2x4_mulv (m.map toReal) (v.map toReal)) (γ 3)
      (glm_mat2x4_mulv (m.map mag) (v.map mag)) (1 / 2 ^ 146) := by
  simp only [cglm, M2x4.map, V2.map, V4.map, V4.Reassoc] at h
  simp only [cglm, M2x4.map, V2.map, V4.map, V4.Err]
  obtain ⟨_, _, _, _⟩ := h
  refine ⟨?_, ?_, ?_, ?_⟩ <;> errx 3

theorem C96_mat3x2_mulv (m : M3x2 F32) (v : V3 F32)
    (t : V2 X) (h : V2.Reassoc (glm_mat3x2_mulv (m.map .inp) (v.map .inp)) t) :
    (t.map X.run).Err (glm_mat3x2_mulv (m.map toReal) (v.map toReal)) (γ 5)
      (glm_mat3x2_mulv (m.map mag) (v.map mag)) (1 / 2 ^ 146) := by
  simp only [cglm, M3x2.map, V2.map, V3.map, V2.Reassoc] at h
  simp only [cglm, M3x2.map, V2.map, V3.map, V2.Err]
  obtain ⟨_, _⟩ := h
  refine ⟨?_, ?_⟩ <;> errx 5

theorem C96_mat3x4_mulv (m : M3x4 F32) (v : V3 F32)
    (t : V4 X) (h : V4.Reassoc (glm_mat3x4_mulv (m.map .inp) (v.map .inp)) t) :
    (t.map X.run).Err (glm_mat3x4_mulv (m.map toReal) (v.map toReal)) (γ 5)
      (glm_mat3x4_mulv (m.map mag) (v.map mag)) (1 / 2 ^ 146) := by
  simp only [cglm, M3x4.map, V3.map, V4.map, V4.Reassoc] at h
  simp only [cglm, M3x4.map, V3.map, V4.map, V4.Err]
  obtain ⟨_, _, _, _⟩ := h
  refine ⟨?_, ?_, ?_, ?_⟩ <;> errx 5

theorem C96_mat4x2_mulv (m : M4x2 F32) (v : V4 F32)
    (t : V2 X) (h : V2.Reassoc (glm_mat4x2_mulv (m.map .inp) (v.map .inp)) t) :
    (t.map X.run).Err (glm_mat4x2_mulv (m.map toReal) (v.map toReal)) (γ 7)
      (glm_mat4x2_mulv (m.map mag) (v.map mag)) (1 / 2 ^ 146) := by
  simp only [cglm, M4x2.map, V2.map, V4.map, V2.Reassoc] at h
  simp only [cglm, M4x2.map, V2.map, V4.map, V2.Err]
  obtain ⟨_, _⟩ := h
  refine ⟨?_, ?_⟩ <;> errx 7

theorem C96_mat4x3_mulv (m : M4x3 F32) (v : V4 F32)
    (t : V3 X) (h : V3.Reassoc (glm_mat4x3_mulv (m.map .inp) (v.map .inp)) t) :
    (t.map X.run).Err (glm_mat4x3_mulv (m.map toReal) (v.map toReal)) (γ 7)
      (glm_mat4x3_mulv (m.map mag) (v.map mag)) (1 / 2 ^ 146) := by
  simp only [cglm, M4x3.map, V3.map, V4.map, V3.Reassoc] at h
  simp only [cglm, M4x3.map, V3.map, V4.map, V3.Err]
  obtain ⟨_, _, _⟩ := h
  refine ⟨?_, ?_, ?_⟩ <;> errx 7

theorem C96_mat2x3_mul (a : M2x3 F32) (b : M3x2 F32)
    (t : M3 X) (h : M3.Reassoc (glm_mat2x3_mul (a.map .inp) (b.map .inp)) t) :
    (t.map X.run).Err (glm_mat2x3_mul (a.map toReal) (b.map toReal)) (γ 3)
      (glm_mat2x3_mul (a.map mag) (b.map mag)) (1 / 2 ^ 146) := by
  simp only [cglm, M2x3.map, M3.map, M3x2.map, V2.map, V3.map, M3.Reassoc, V3.Reassoc] at h
  simp only [cglm, M2x3.map, M3.map, M3x2.map, V2.map, V3.map, M3.Err, V3.Err]
  obtain ⟨⟨_, _, _⟩, ⟨_, _, _⟩, ⟨_, _, _⟩⟩ := h
  refine ⟨⟨?_, ?_, ?_⟩, ⟨?_, ?_, ?_⟩, ⟨?_, ?_, ?_⟩⟩ <;> errx 3

theorem C96_mat2x4_mul (a : M2x4 F32) (b : M4x2 F32)
    (t : M4 X) (h : M4.Reassoc (glm_mat2x4_mul (a.map .inp) (b.map .inp)) t) :
    (t.map X.run).Err (glm_mat2x4_mul (a.map toReal) (b.map toReal)) (γ 3)
      (glm_mat2x4_mul (a.map mag) (b.map mag)) (1 / 2 ^ 146) := by
  simp only [cglm, M2x4.map, M4.map, M4x2.map, V2.map, V4.map, M4.Reassoc, V4.Reassoc] at h
  simp only [cglm, M2x4.map, M4.map, M4x2.map, V2.map, V4.map, M4.Err, V4.Err]
  obtain ⟨⟨_, _, _, _⟩, ⟨_, _, _, _⟩, ⟨_, _, _, _⟩, ⟨_, _, _, _⟩⟩ := h
  refine ⟨⟨?_, ?_, ?_, ?_⟩, ⟨?_, ?_, ?_, ?_⟩, ⟨?_, ?_, ?_, ?_⟩, ⟨?_, ?_, ?_, ?_⟩⟩ <;> errx 3

theorem C96_mat3x2_mul (a : M3x2 F32) (b : M2x3 F32)
    (t : M2 X) (h : M2.Reassoc (glm_mat3x2_mul (a.map .inp) (b.map .inp)) t) :
    (t.map X.run).Err (glm_mat3x2_mul (a.map toReal) (b.map toReal)) (γ 5)
      (glm_mat3x2_mul (a.map mag) (b.map mag)) (1 / 2 ^ 146) := by
  simp only [cglm, M2.map, M2x3.map, M3x2.map, V2.map, V3.map, M2.Reassoc, V2.Reassoc] at h
  simp only [cglm, M2.map, M2x3.map, M3x2.map, V2.map, V3.map, M2.Err, V2.Err]
  obtain ⟨⟨_, _⟩, ⟨_, _⟩⟩ := h
  refine ⟨⟨?_, ?_⟩, ⟨?_, ?_⟩⟩ <;> errx 5

theorem C96_mat3x4_mul (a : M3x4 F32) (b : M4x3 F32)
    (t : M4 X) (h : M4.Reassoc (glm_mat3x4_mul (a.map .inp) (b.map .inp)) t) :
    (t.map X.run).Err (glm_mat3x4_mul (a.map toReal) (b.map toReal)) (γ 5)
      (glm_mat3x4_mul (a.map mag) (b.map mag)) (1 / 2 ^ 146) := by
  simp only [cglm, M3x4.map, M4.map, M4x3.map, V3.map, V4.map, M4.Reassoc, V4.Reassoc] at h
  simp only [cglm, M3x4.map, M4.map, M4x3.map, V3.map, V4.map, M4.Err, V4.Err]
  obtain ⟨⟨_, _, _, _⟩, ⟨_, _, _, _⟩, ⟨_, _, _, _⟩, ⟨_, _, _, _⟩⟩ := h
  refine ⟨⟨?_, ?_, ?_, ?_⟩, ⟨?_, ?_, ?_, ?_⟩, ⟨?_, ?_, ?_, ?_⟩, ⟨?_, ?_, ?_, ?_⟩⟩ <;> errx 5

theorem C96_mat4x2_mul (a : M4x2 F32) (b : M2x4 F32)
    (t : M2 X) (h : M2.Reassoc (glm_mat4x2_mul (a.map .inp) (b.map .inp)) t) :
    (t.map X.run).Err (glm_mat4x2_mul (a.map toReal) (b.map toReal)) (γ 7)
      (glm_mat4x2_mul (a.map mag) (b.map mag)) (1 / 2 ^ 146) := by
  simp only [cglm, M2.map, M2x4.map, M4x2.map, V2.map, V4.map, M2.Reassoc, V2.Reassoc] at h
  simp only [cglm, M2.map, M2x4.map, M4x2.map, V2.map, V4.map, M2.Err, V2.Err]
  obtain ⟨⟨_, _⟩, ⟨_, _⟩⟩ := h
  refine ⟨⟨?_, ?_⟩, ⟨?_, ?_⟩⟩ <;> errx 7

theorem C96_mat4x3_mul (a : M4x3 F32) (b : M3x4 F32)
    (t : M3 X) (h : M3.Reassoc (glm_mat4x3_mul (a.map .inp) (b.map .inp)) t) :
    (t.map X.run).Err (glm_mat4x3_mul (a.map toReal) (b.map toReal)) (γ 7)
      (glm_mat4x3_mul (a.map mag) (b.map mag)) (1 / 2 ^ 146) := by
  simp only [cglm, M3.map, M3x4.map, M4x3.map, V3.map, V4.map, M3.Reassoc, V3.Reassoc] at h
  simp only [cglm, M3.map, M3x4.map, M4x3.map, V3.map, V4.map, M3.Err, V3.Err]
  obtain ⟨⟨_, _, _⟩, ⟨_, _, _⟩, ⟨_, _, _⟩⟩ := h
  refine ⟨⟨?_, ?_, ?_⟩, ⟨?_, ?_, ?_⟩, ⟨?_, ?_, ?_⟩⟩ <;> errx 7

theorem C96_mat4_mulv3 (m : M4 F32) (v : V3 F32) (w : F32)
    (t : V3 X) (h : V3.Reassoc (glm_mat4_mulv3 (m.map .inp) (v.map .inp) (.inp w)) t) :
    (t.map X.run).Err (glm_mat4_mulv3 (m.map toReal) (v.map toReal) (toReal w)) (γ 7)
      (glm_mat4_mulv3 (m.map mag) (v.map mag) (mag w)) (1 / 2 ^ 146) := by
  simp only [cglm, M4.map, V3.map, V4.map, V3.Reassoc] at h
  simp only [cglm, M4.map, V3.map, V4.map, V3.Err]
  obtain ⟨_, _, _⟩ := h
  refine ⟨?_, ?_, ?_⟩ <;> errx 7

theorem C96_mul (a : M4 F32) (b : M4 F32)
    (t : M4 X) (h : M4.Reassoc (glm_mul (a.map .inp) (b.map .inp)) t) :
    (t.map X.run).Err (glm_mul (a.map toReal) (b.map toReal)) (γ 7)
      (glm_mul (a.map mag) (b.map mag)) (1 / 2 ^ 146) := by
  simp only [cglm, M4.map, V4.map, M4.Reassoc, V4.Reassoc] at h
  simp only [cglm, M4.map, V4.map, M4.Err, V4.Err]
  obtain ⟨⟨_, _, _, _⟩, ⟨_, _, _, _⟩, ⟨_, _, _, _⟩, ⟨_, _, _, _⟩⟩ := h
  refine ⟨⟨?_, ?_, ?_, ?_⟩, ⟨?_, ?_, ?_, ?_⟩, ⟨?_, ?_, ?_, ?_⟩, ⟨?_, ?_, ?_, ?_⟩⟩ <;> errx 7

theorem C96_mul_rot (a : M4 F32) (b : M4 F32)
    (t : M4 X) (h : M4.Reassoc (glm_mul_rot (a.map .inp) (b.map .inp)) t) :
    (t.map X.run).Err (glm_mul_rot (a.map toReal) (b.map toReal)) (γ 5)
      (glm_mul_rot (a.map mag) (b.map mag)) (1 / 2 ^ 146) := by
  simp only [cglm, M4.map, V4.map, M4.Reassoc, V4.Reassoc] at h
  simp only [cglm, M4.map, V4.map, M4.Err, V4.Err]
  obtain ⟨⟨_, _, _, _⟩, ⟨_, _, _, _⟩, ⟨_, _, _, _⟩, ⟨_, _, _, _⟩⟩ := h
  refine ⟨⟨?_, ?_, ?_, ?_⟩, ⟨?_, ?_, ?_, ?_⟩, ⟨?_, ?_, ?_, ?_⟩, ⟨?_, ?_, ?_, ?_⟩⟩ <;> errx 5

theorem C96_translate (m : M4 F32) (v : V3 F32)
    (t : M4 X) (h : M4.Reassoc (glm_translate (m.map .inp) (v.map .inp)) t) :
    (t.map X.run).Err (glm_translate (m.map toReal) (v.map toReal)) (γ 7)
      (glm_translate (m.map mag) (v.map mag)) (1 / 2 ^ 146) := by
  simp only [cglm, M4.map, V3.map, V4.map, M4.Reassoc, V4.Reassoc] at h
  simp only [cglm, M4.map, V3.map, V4.map, M4.Err, V4.Err]
  obtain ⟨⟨_, _, _, _⟩, ⟨_, _, _, _⟩, ⟨_, _, _, _⟩, ⟨_, _, _, _⟩⟩ := h
  refine ⟨⟨?_, ?_, ?_, ?_⟩, ⟨?_, ?_, ?_, ?_⟩, ⟨?_, ?_, ?_, ?_⟩, ⟨?_, ?_, ?_, ?_⟩⟩ <;> errx 7

theorem C96_scale_to (m : M4 F32) (v : V3 F32)
    (t : M4 X) (h : M4.Reassoc (glm_scale_to (m.map .inp) (v.map .inp)) t) :
    (t.map X.run).Err (glm_scale_to (m.map toReal) (v.map toReal)) (γ 1)
      (glm_scale_to (m.map mag) (v.map mag)) (1 / 2 ^ 146) := by
  simp only [cglm, M4.map, V3.map, V4.map, M4.Reassoc, V4.Reassoc] at h
  simp only [cglm, M4.map, V3.map, V4.map, M4.Err, V4.Err]
  obtain ⟨⟨_, _, _, _⟩, ⟨_, _, _, _⟩, ⟨_, _, _, _⟩, ⟨_, _, _, _⟩⟩ := h
  refine ⟨⟨?_, ?_, ?_, ?_⟩, ⟨?_, ?_, ?_, ?_⟩, ⟨?_, ?_, ?_, ?_⟩, ⟨?_, ?_, ?_, ?_⟩⟩ <;> errx 1

end Cglm
