import Verif.Modes
import Verif.Gen
/-!
# C97: error bounds in every rounding mode

`M` is the rounding mode, `f` says whether subnormal results are flushed to zero; `t` is the expression in the code or a reordering of it
(C96), `z` a result of running it (`Modes.lean`).  The magnitudes are those of C64; `Modes.unit k` is `k·(2⁻²³ + 2⁻⁴³)` for `k` operations.
Written by `tools/modethms.py`.
-/
set_option linter.unusedSimpArgs false
set_option linter.unusedSectionVars false
open Cglm F32 Wide
namespace Cglm
variable [Libm]

theorem C97_vec2_dot (M : Mode) (f : Bool) (a : V2 F32) (b : V2 F32)
    (t : X) (z : ℝ)
    (h : Reassoc (glm_vec2_dot (a.map .inp) (b.map .inp)) t) (r : Modes.Runs M f t z) :
    Within z (glm_vec2_dot (a.map toReal) (b.map toReal)) (Modes.unit 3)
      (glm_vec2_dot (a.map mag) (b.map mag)) (1 / 2 ^ 122) := by
  simp only [cglm, V2.map] at h
  simp only [cglm, V2.map]
  errm 3

theorem C97_vec2_norm2 (M : Mode) (f : Bool) (v : V2 F32)
    (t : X) (z : ℝ)
    (h : Reassoc (glm_vec2_norm2 (v.map .inp)) t) (r : Modes.Runs M f t z) :
    Within z (glm_vec2_norm2 (v.map toReal)) (Modes.unit 3)
      (glm_vec2_norm2 (v.map mag)) (1 / 2 ^ 122) := by
  simp only [cglm, V2.map] at h
  simp only [cglm, V2.map]
  errm 3

theorem C97_vec2_muladd (M : Mode) (f : Bool) (a : V2 F32) (b : V2 F32) (c : V2 F32)
    (t : V2 X) (z : V2 ℝ)
    (h : V2.Reassoc (glm_vec2_muladd (a.map .inp) (b.map .inp) (c.map .inp)) t) (r : V2.Runs M f t z) :
    z.WithinW (glm_vec2_muladd (a.map toReal) (b.map toReal) (c.map toReal)) (Modes.unit 2)
      (glm_vec2_muladd (a.map mag) (b.map mag) (c.map mag)) (1 / 2 ^ 122) := by
  simp only [cglm, V2.map, V2.Reassoc] at h
  simp only [V2.Runs] at r
  simp only [cglm, V2.map, V2.WithinW]
  obtain ⟨_, _⟩ := h
  obtain ⟨_, _⟩ := r
  refine ⟨?_, ?_⟩ <;> errm 2

theorem C97_vec2_muladds (M : Mode) (f : Bool) (a : V2 F32) (s : F32) (c : V2 F32)
    (t : V2 X) (z : V2 ℝ)
    (h : V2.Reassoc (glm_vec2_muladds (a.map .inp) (.inp s) (c.map .inp)) t) (r : V2.Runs M f t z) :
    z.WithinW (glm_vec2_muladds (a.map toReal) (toReal s) (c.map toReal)) (Modes.unit 2)
      (glm_vec2_muladds (a.map mag) (mag s) (c.map mag)) (1 / 2 ^ 122) := by
  simp only [cglm, V2.map, V2.Reassoc] at h
  simp only [V2.Runs] at r
  simp only [cglm, V2.map, V2.WithinW]
  obtain ⟨_, _⟩ := h
  obtain ⟨_, _⟩ := r
  refine ⟨?_, ?_⟩ <;> errm 2

theorem C97_vec2_mulsub (M : Mode) (f : Bool) (a : V2 F32) (b : V2 F32) (c : V2 F32)
    (t : V2 X) (z : V2 ℝ)
    (h : V2.Reassoc (glm_vec2_mulsub (a.map .inp) (b.map .inp) (c.map .inp)) t) (r : V2.Runs M f t z) :
    z.WithinW (glm_vec2_mulsub (a.map toReal) (b.map toReal) (c.map toReal)) (Modes.unit 2)
      (⟨c.x.mag + a.x.mag * b.x.mag, c.y.mag + a.y.mag * b.y.mag⟩) (1 / 2 ^ 122) := by
  simp only [cglm, V2.map, V2.Reassoc] at h
  simp only [V2.Runs] at r
  simp only [cglm, V2.map, V2.WithinW]
  obtain ⟨_, _⟩ := h
  obtain ⟨_, _⟩ := r
  refine ⟨?_, ?_⟩ <;> errm 2

theorem C97_vec2_mulsubs (M : Mode) (f : Bool) (a : V2 F32) (s : F32) (c : V2 F32)
    (t : V2 X) (z : V2 ℝ)
    (h : V2.Reassoc (glm_vec2_mulsubs (a.map .inp) (.inp s) (c.map .inp)) t) (r : V2.Runs M f t z) :
    z.WithinW (glm_vec2_mulsubs (a.map toReal) (toReal s) (c.map toReal)) (Modes.unit 2)
      (⟨c.x.mag + a.x.mag * s.mag, c.y.mag + a.y.mag * s.mag⟩) (1 / 2 ^ 122) := by
  simp only [cglm, V2.map, V2.Reassoc] at h
  simp only [V2.Runs] at r
  simp only [cglm, V2.map, V2.WithinW]
  obtain ⟨_, _⟩ := h
  obtain ⟨_, _⟩ := r
  refine ⟨?_, ?_⟩ <;> errm 2

theorem C97_vec2_addadd (M : Mode) (f : Bool) (a : V2 F32) (b : V2 F32) (c : V2 F32)
    (t : V2 X) (z : V2 ℝ)
    (h : V2.Reassoc (glm_vec2_addadd (a.map .inp) (b.map .inp) (c.map .inp)) t) (r : V2.Runs M f t z) :
    z.WithinW (glm_vec2_addadd (a.map toReal) (b.map toReal) (c.map toReal)) (Modes.unit 2)
      (glm_vec2_addadd (a.map mag) (b.map mag) (c.map mag)) (1 / 2 ^ 122) := by
  simp only [cglm, V2.map, V2.Reassoc] at h
  simp only [V2.Runs] at r
  simp only [cglm, V2.map, V2.WithinW]
  obtain ⟨_, _⟩ := h
  obtain ⟨_, _⟩ := r
  refine ⟨?_, ?_⟩ <;> errm 2

theorem C97_vec2_subadd (M : Mode) (f : Bool) (a : V2 F32) (b : V2 F32) (c : V2 F32)
    (t : V2 X) (z : V2 ℝ)
    (h : V2.Reassoc (glm_vec2_subadd (a.map .inp) (b.map .inp) (c.map .inp)) t) (r : V2.Runs M f t z) :
    z.WithinW (glm_vec2_subadd (a.map toReal) (b.map toReal) (c.map toReal)) (Modes.unit 2)
      (⟨c.x.mag + (a.x.mag + b.x.mag), c.y.mag + (a.y.mag + b.y.mag)⟩) (1 / 2 ^ 122) := by
  simp only [cglm, V2.map, V2.Reassoc] at h
  simp only [V2.Runs] at r
  simp only [cglm, V2.map, V2.WithinW]
  obtain ⟨_, _⟩ := h
  obtain ⟨_, _⟩ := r
  refine ⟨?_, ?_⟩ <;> errm 2

theorem C97_vec2_addsub (M : Mode) (f : Bool) (a : V2 F32) (b : V2 F32) (c : V2 F32)
    (t : V2 X) (z : V2 ℝ)
    (h : V2.Reassoc (glm_vec2_addsub (a.map .inp) (b.map .inp) (c.map .inp)) t) (r : V2.Runs M f t z) :
    z.WithinW (glm_vec2_addsub (a.map toReal) (b.map toReal) (c.map toReal)) (Modes.unit 2)
      (⟨c.x.mag + (a.x.mag + b.x.mag), c.y.mag + (a.y.mag + b.y.mag)⟩) (1 / 2 ^ 122) := by
  simp only [cglm, V2.map, V2.Reassoc] at h
  simp only [V2.Runs] at r
  simp only [cglm, V2.map, V2.WithinW]
  obtain ⟨_, _⟩ := h
  obtain ⟨_, _⟩ := r
  refine ⟨?_, ?_⟩ <;> errm 2

theorem C97_vec2_subsub (M : Mode) (f : Bool) (a : V2 F32) (b : V2 F32) (c : V2 F32)
    (t : V2 X) (z : V2 ℝ)
    (h : V2.Reassoc (glm_vec2_subsub (a.map .inp) (b.map .inp) (c.map .inp)) t) (r : V2.Runs M f t z) :
    z.WithinW (glm_vec2_subsub (a.map toReal) (b.map toReal) (c.map toReal)) (Modes.unit 2)
      (⟨c.x.mag + (a.x.mag + b.x.mag), c.y.mag + (a.y.mag + b.y.mag)⟩) (1 / 2 ^ 122) := by
  simp only [cglm, V2.map, V2.Reassoc] at h
  simp only [V2.Runs] at r
  simp only [cglm, V2.map, V2.WithinW]
  obtain ⟨_, _⟩ := h
  obtain ⟨_, _⟩ := r
  refine ⟨?_, ?_⟩ <;> errm 2

theorem C97_mat2_mulv (M : Mode) (f : Bool) (m : M2 F32) (v : V2 F32)
    (t : V2 X) (z : V2 ℝ)
    (h : V2.Reassoc (glm_mat2_mulv (m.map .inp) (v.map .inp)) t) (r : V2.Runs M f t z) :
    z.WithinW (glm_mat2_mulv (m.map toReal) (v.map toReal)) (Modes.unit 3)
      (glm_mat2_mulv (m.map mag) (v.map mag)) (1 / 2 ^ 122) := by
  simp only [cglm, M2.map, V2.map, V2.Reassoc] at h
  simp only [V2.Runs] at r
  simp only [cglm, M2.map, V2.map, V2.WithinW]
  obtain ⟨_, _⟩ := h
  obtain ⟨_, _⟩ := r
  refine ⟨?_, ?_⟩ <;> errm 3

theorem C97_mat2_mul (M : Mode) (f : Bool) (a : M2 F32) (b : M2 F32)
    (t : M2 X) (z : M2 ℝ)
    (h : M2.Reassoc (glm_mat2_mul (a.map .inp) (b.map .inp)) t) (r : M2.Runs M f t z) :
    z.WithinW (glm_mat2_mul (a.map toReal) (b.map toReal)) (Modes.unit 3)
      (glm_mat2_mul (a.map mag) (b.map mag)) (1 / 2 ^ 122) := by
  simp only [cglm, M2.map, V2.map, M2.Reassoc, V2.Reassoc] at h
  simp only [M2.Runs, V2.Runs] at r
  simp only [cglm, M2.map, V2.map, M2.WithinW, V2.WithinW]
  obtain ⟨⟨_, _⟩, ⟨_, _⟩⟩ := h
  obtain ⟨⟨_, _⟩, ⟨_, _⟩⟩ := r
  refine ⟨⟨?_, ?_⟩, ⟨?_, ?_⟩⟩ <;> errm 3

theorem C97_mat2_trace (M : Mode) (f : Bool) (m : M2 F32)
    (t : X) (z : ℝ)
    (h : Reassoc (glm_mat2_trace (m.map .inp)) t) (r : Modes.Runs M f t z) :
    Within z (glm_mat2_trace (m.map toReal)) (Modes.unit 1)
      (glm_mat2_trace (m.map mag)) (1 / 2 ^ 122) := by
  simp only [cglm, M2.map, V2.map] at h
  simp only [cglm, M2.map, V2.map]
  errm 1

theorem C97_vec3_dot (M : Mode) (f : Bool) (a : V3 F32) (b : V3 F32)
    (t : X) (z : ℝ)
    (h : Reassoc (glm_vec3_dot (a.map .inp) (b.map .inp)) t) (r : Modes.Runs M f t z) :
    Within z (glm_vec3_dot (a.map toReal) (b.map toReal)) (Modes.unit 5)
      (glm_vec3_dot (a.map mag) (b.map mag)) (1 / 2 ^ 122) := by
  simp only [cglm, V3.map] at h
  simp only [cglm, V3.map]
  errm 5

theorem C97_vec3_norm2 (M : Mode) (f : Bool) (v : V3 F32)
    (t : X) (z : ℝ)
    (h : Reassoc (glm_vec3_norm2 (v.map .inp)) t) (r : Modes.Runs M f t z) :
    Within z (glm_vec3_norm2 (v.map toReal)) (Modes.unit 5)
      (glm_vec3_norm2 (v.map mag)) (1 / 2 ^ 122) := by
  simp only [cglm, V3.map] at h
  simp only [cglm, V3.map]
  errm 5

theorem C97_vec3_muladd (M : Mode) (f : Bool) (a : V3 F32) (b : V3 F32) (c : V3 F32)
    (t : V3 X) (z : V3 ℝ)
    (h : V3.Reassoc (glm_vec3_muladd (a.map .inp) (b.map .inp) (c.map .inp)) t) (r : V3.Runs M f t z) :
    z.WithinW (glm_vec3_muladd (a.map toReal) (b.map toReal) (c.map toReal)) (Modes.unit 2)
      (glm_vec3_muladd (a.map mag) (b.map mag) (c.map mag)) (1 / 2 ^ 122) := by
  simp only [cglm, V3.map, V3.Reassoc] at h
  simp only [V3.Runs] at r
  simp only [cglm, V3.map, V3.WithinW]
  obtain ⟨_, _, _⟩ := h
  obtain ⟨_, _, _⟩ := r
  refine ⟨?_, ?_, ?_⟩ <;> errm 2

theorem C97_vec3_muladds (M : Mode) (f : Bool) (a : V3 F32) (s : F32) (c : V3 F32)
    (t : V3 X) (z : V3 ℝ)
    (h : V3.Reassoc (glm_vec3_muladds (a.map .inp) (.inp s) (c.map .inp)) t) (r : V3.Runs M f t z) :
    z.WithinW (glm_vec3_muladds (a.map toReal) (toReal s) (c.map toReal)) (Modes.unit 2)
      (glm_vec3_muladds (a.map mag) (mag s) (c.map mag)) (1 / 2 ^ 122) := by
  simp only [cglm, V3.map, V3.Reassoc] at h
  simp only [V3.Runs] at r
  simp only [cglm, V3.map, V3.WithinW]
  obtain ⟨_, _, _⟩ := h
  obtain ⟨_, _, _⟩ := r
  refine ⟨?_, ?_, ?_⟩ <;> errm 2

theorem C97_vec3_mulsub (M : Mode) (f : Bool) (a : V3 F32) (b : V3 F32) (c : V3 F32)
    (t : V3 X) (z : V3 ℝ)
    (h : V3.Reassoc (glm_vec3_mulsub (a.map .inp) (b.map .inp) (c.map .inp)) t) (r : V3.Runs M f t z) :
    z.WithinW (glm_vec3_mulsub (a.map toReal) (b.map toReal) (c.map toReal)) (Modes.unit 2)
      (⟨c.x.mag + a.x.mag * b.x.mag, c.y.mag + a.y.mag * b.y.mag, c.z.mag + a.z.mag * b.z.mag⟩) (1 / 2 ^ 122) := by
  simp only [cglm, V3.map, V3.Reassoc] at h
  simp only [V3.Runs] at r
  simp only [cglm, V3.map, V3.WithinW]
  obtain ⟨_, _, _⟩ := h
  obtain ⟨_, _, _⟩ := r
  refine ⟨?_, ?_, ?_⟩ <;> errm 2

theorem C97_vec3_mulsubs (M : Mode) (f : Bool) (a : V3 F32) (s : F32) (c : V3 F32)
    (t : V3 X) (z : V3 ℝ)
    (h : V3.Reassoc (glm_vec3_mulsubs (a.map .inp) (.inp s) (c.map .inp)) t) (r : V3.Runs M f t z) :
    z.WithinW (glm_vec3_mulsubs (a.map toReal) (toReal s) (c.map toReal)) (Modes.unit 2)
      (⟨c.x.mag + a.x.mag * s.mag, c.y.mag + a.y.mag * s.mag, c.z.mag + a.z.mag * s.mag⟩) (1 / 2 ^ 122) := by
  simp only [cglm, V3.map, V3.Reassoc] at h
  simp only [V3.Runs] at r
  simp only [cglm, V3.map, V3.WithinW]
  obtain ⟨_, _, _⟩ := h
  obtain ⟨_, _, _⟩ := r
  refine ⟨?_, ?_, ?_⟩ <;> errm 2

theorem C97_vec3_addadd (M : Mode) (f : Bool) (a : V3 F32) (b : V3 F32) (c : V3 F32)
    (t : V3 X) (z : V3 ℝ)
    (h : V3.Reassoc (glm_vec3_addadd (a.map .inp) (b.map .inp) (c.map .inp)) t) (r : V3.Runs M f t z) :
    z.WithinW (glm_vec3_addadd (a.map toReal) (b.map toReal) (c.map toReal)) (Modes.unit 2)
      (glm_vec3_addadd (a.map mag) (b.map mag) (c.map mag)) (1 / 2 ^ 122) := by
  simp only [cglm, V3.map, V3.Reassoc] at h
  simp only [V3.Runs] at r
  simp only [cglm, V3.map, V3.WithinW]
  obtain ⟨_, _, _⟩ := h
  obtain ⟨_, _, _⟩ := r
  refine ⟨?_, ?_, ?_⟩ <;> errm 2

theorem C97_vec3_subadd (M : Mode) (f : Bool) (a : V3 F32) (b : V3 F32) (c : V3 F32)
    (t : V3 X) (z : V3 ℝ)
    (h : V3.Reassoc (glm_vec3_subadd (a.map .inp) (b.map .inp) (c.map .inp)) t) (r : V3.Runs M f t z) :
    z.WithinW (glm_vec3_subadd (a.map toReal) (b.map toReal) (c.map toReal)) (Modes.unit 2)
      (⟨c.x.mag + (a.x.mag + b.x.mag), c.y.mag + (a.y.mag + b.y.mag), c.z.mag + (a.z.mag + b.z.mag)⟩) (1 / 2 ^ 122) := by
  simp only [cglm, V3.map, V3.Reassoc] at h
  simp only [V3.Runs] at r
  simp only [cglm, V3.map, V3.WithinW]
  obtain ⟨_, _, _⟩ := h
  obtain ⟨_, _, _⟩ := r
  refine ⟨?_, ?_, ?_⟩ <;> errm 2

theorem C97_vec3_addsub (M : Mode) (f : Bool) (a : V3 F32) (b : V3 F32) (c : V3 F32)
    (t : V3 X) (z : V3 ℝ)
    (h : V3.Reassoc (glm_vec3_addsub (a.map .inp) (b.map .inp) (c.map .inp)) t) (r : V3.Runs M f t z) :
    z.WithinW (glm_vec3_addsub (a.map toReal) (b.map toReal) (c.map toReal)) (Modes.unit 2)
      (⟨c.x.mag + (a.x.mag + b.x.mag), c.y.mag + (a.y.mag + b.y.mag), c.z.mag + (a.z.mag + b.z.mag)⟩) (1 / 2 ^ 122) := by
  simp only [cglm, V3.map, V3.Reassoc] at h
  simp only [V3.Runs] at r
  simp only [cglm, V3.map, V3.WithinW]
  obtain ⟨_, _, _⟩ := h
  obtain ⟨_, _, _⟩ := r
  refine ⟨?_, ?_, ?_⟩ <;> errm 2

theorem C97_vec3_subsub (M : Mode) (f : Bool) (a : V3 F32) (b : V3 F32) (c : V3 F32)
    (t : V3 X) (z : V3 ℝ)
    (h : V3.Reassoc (glm_vec3_subsub (a.map .inp) (b.map .inp) (c.map .inp)) t) (r : V3.Runs M f t z) :
    z.WithinW (glm_vec3_subsub (a.map toReal) (b.map toReal) (c.map toReal)) (Modes.unit 2)
      (⟨c.x.mag + (a.x.mag + b.x.mag), c.y.mag + (a.y.mag + b.y.mag), c.z.mag + (a.z.mag + b.z.mag)⟩) (1 / 2 ^ 122) := by
  simp only [cglm, V3.map, V3.Reassoc] at h
  simp only [V3.Runs] at r
  simp only [cglm, V3.map, V3.WithinW]
  obtain ⟨_, _, _⟩ := h
  obtain ⟨_, _, _⟩ := r
  refine ⟨?_, ?_, ?_⟩ <;> errm 2

theorem C97_mat3_mulv (M : Mode) (f : Bool) (m : M3 F32) (v : V3 F32)
    (t : V3 X) (z : V3 ℝ)
    (h : V3.Reassoc (glm_mat3_mulv (m.map .inp) (v.map .inp)) t) (r : V3.Runs M f t z) :
    z.WithinW (glm_mat3_mulv (m.map toReal) (v.map toReal)) (Modes.unit 5)
      (glm_mat3_mulv (m.map mag) (v.map mag)) (1 / 2 ^ 122) := by
  simp only [cglm, M3.map, V3.map, V3.Reassoc] at h
  simp only [V3.Runs] at r
  simp only [cglm, M3.map, V3.map, V3.WithinW]
  obtain ⟨_, _, _⟩ := h
  obtain ⟨_, _, _⟩ := r
  refine ⟨?_, ?_, ?_⟩ <;> errm 5

theorem C97_mat3_mul (M : Mode) (f : Bool) (a : M3 F32) (b : M3 F32)
    (t : M3 X) (z : M3 ℝ)
    (h : M3.Reassoc (glm_mat3_mul (a.map .inp) (b.map .inp)) t) (r : M3.Runs M f t z) :
    z.WithinW (glm_mat3_mul (a.map toReal) (b.map toReal)) (Modes.unit 5)
      (glm_mat3_mul (a.map mag) (b.map mag)) (1 / 2 ^ 122) := by
  simp only [cglm, M3.map, V3.map, M3.Reassoc, V3.Reassoc] at h
  simp only [M3.Runs, V3.Runs] at r
  simp only [cglm, M3.map, V3.map, M3.WithinW, V3.WithinW]
  obtain ⟨⟨_, _, _⟩, ⟨_, _, _⟩, ⟨_, _, _⟩⟩ := h
  obtain ⟨⟨_, _, _⟩, ⟨_, _, _⟩, ⟨_, _, _⟩⟩ := r
  refine ⟨⟨?_, ?_, ?_⟩, ⟨?_, ?_, ?_⟩, ⟨?_, ?_, ?_⟩⟩ <;> errm 5

theorem C97_mat3_trace (M : Mode) (f : Bool) (m : M3 F32)
    (t : X) (z : ℝ)
    (h : Reassoc (glm_mat3_trace (m.map .inp)) t) (r : Modes.Runs M f t z) :
    Within z (glm_mat3_trace (m.map toReal)) (Modes.unit 2)
      (glm_mat3_trace (m.map mag)) (1 / 2 ^ 122) := by
  simp only [cglm, M3.map, V3.map] at h
  simp only [cglm, M3.map, V3.map]
  errm 2

theorem C97_vec4_dot (M : Mode) (f : Bool) (a : V4 F32) (b : V4 F32)
    (t : X) (z : ℝ)
    (h : Reassoc (glm_vec4_dot (a.map .inp) (b.map .inp)) t) (r : Modes.Runs M f t z) :
    Within z (glm_vec4_dot (a.map toReal) (b.map toReal)) (Modes.unit 7)
      (glm_vec4_dot (a.map mag) (b.map mag)) (1 / 2 ^ 122) := by
  simp only [cglm, V4.map] at h
  simp only [cglm, V4.map]
  errm 7

theorem C97_vec4_norm2 (M : Mode) (f : Bool) (v : V4 F32)
    (t : X) (z : ℝ)
    (h : Reassoc (glm_vec4_norm2 (v.map .inp)) t) (r : Modes.Runs M f t z) :
    Within z (glm_vec4_norm2 (v.map toReal)) (Modes.unit 7)
      (glm_vec4_norm2 (v.map mag)) (1 / 2 ^ 122) := by
  simp only [cglm, V4.map] at h
  simp only [cglm, V4.map]
  errm 7

theorem C97_vec4_muladd (M : Mode) (f : Bool) (a : V4 F32) (b : V4 F32) (c : V4 F32)
    (t : V4 X) (z : V4 ℝ)
    (h : V4.Reassoc (glm_vec4_muladd (a.map .inp) (b.map .inp) (c.map .inp)) t) (r : V4.Runs M f t z) :
    z.WithinW (glm_vec4_muladd (a.map toReal) (b.map toReal) (c.map toReal)) (Modes.unit 2)
      (glm_vec4_muladd (a.map mag) (b.map mag) (c.map mag)) (1 / 2 ^ 122) := by
  simp only [cglm, V4.map, V4.Reassoc] at h
  simp only [V4.Runs] at r
  simp only [cglm, V4.map, V4.WithinW]
  obtain ⟨_, _, _, _⟩ := h
  obtain ⟨_, _, _, _⟩ := r
  refine ⟨?_, ?_, ?_, ?_⟩ <;> errm 2

theorem C97_vec4_muladds (M : Mode) (f : Bool) (a : V4 F32) (s : F32) (c : V4 F32)
    (t : V4 X) (z : V4 ℝ)
    (h : V4.Reassoc (glm_vec4_muladds (a.map .inp) (.inp s) (c.map .inp)) t) (r : V4.Runs M f t z) :
    z.WithinW (glm_vec4_muladds (a.map toReal) (toReal s) (c.map toReal)) (Modes.unit 2)
      (glm_vec4_muladds (a.map mag) (mag s) (c.map mag)) (1 / 2 ^ 122) := by
  simp only [cglm, V4.map, V4.Reassoc] at h
  simp only [V4.Runs] at r
  simp only [cglm, V4.map, V4.WithinW]
  obtain ⟨_, _, _, _⟩ := h
  obtain ⟨_, _, _, _⟩ := r
  refine ⟨?_, ?_, ?_, ?_⟩ <;> errm 2

theorem C97_vec4_mulsub (M : Mode) (f : Bool) (a : V4 F32) (b : V4 F32) (c : V4 F32)
    (t : V4 X) (z : V4 ℝ)
    (h : V4.Reassoc (glm_vec4_mulsub (a.map .inp) (b.map .inp) (c.map .inp)) t) (r : V4.Runs M f t z) :
    z.WithinW (glm_vec4_mulsub (a.map toReal) (b.map toReal) (c.map toReal)) (Modes.unit 2)
      (⟨c.x.mag + a.x.mag * b.x.mag, c.y.mag + a.y.mag * b.y.mag, c.z.mag + a.z.mag * b.z.mag, c.w.mag + a.w.mag * b.w.mag⟩) (1 / 2 ^ 122) := by
  simp only [cglm, V4.map, V4.Reassoc] at h
  simp only [V4.Runs] at r
  simp only [cglm, V4.map, V4.WithinW]
  obtain ⟨_, _, _, _⟩ := h
  obtain ⟨_, _, _, _⟩ := r
  refine ⟨?_, ?_, ?_, ?_⟩ <;> errm 2

theorem C97_vec4_mulsubs (M : Mode) (f : Bool) (a : V4 F32) (s : F32) (c : V4 F32)
    (t : V4 X) (z : V4 ℝ)
    (h : V4.Reassoc (glm_vec4_mulsubs (a.map .inp) (.inp s) (c.map .inp)) t) (r : V4.Runs M f t z) :
    z.WithinW (glm_vec4_mulsubs (a.map toReal) (toReal s) (c.map toReal)) (Modes.unit 2)
      (⟨c.x.mag + a.x.mag * s.mag, c.y.mag + a.y.mag * s.mag, c.z.mag + a.z.mag * s.mag, c.w.mag + a.w.mag * s.mag⟩) (1 / 2 ^ 122) := by
  simp only [cglm, V4.map, V4.Reassoc] at h
  simp only [V4.Runs] at r
  simp only [cglm, V4.map, V4.WithinW]
  obtain ⟨_, _, _, _⟩ := h
  obtain ⟨_, _, _, _⟩ := r
  refine ⟨?_, ?_, ?_, ?_⟩ <;> errm 2

theorem C97_vec4_addadd (M : Mode) (f : Bool) (a : V4 F32) (b : V4 F32) (c : V4 F32)
    (t : V4 X) (z : V4 ℝ)
    (h : V4.Reassoc (glm_vec4_addadd (a.map .inp) (b.map .inp) (c.map .inp)) t) (r : V4.Runs M f t z) :
    z.WithinW (glm_vec4_addadd (a.map toReal) (b.map toReal) (c.map toReal)) (Modes.unit 2)
      (glm_vec4_addadd (a.map mag) (b.map mag) (c.map mag)) (1 / 2 ^ 122) := by
  simp only [cglm, V4.map, V4.Reassoc] at h
  simp only [V4.Runs] at r
  simp only [cglm, V4.map, V4.WithinW]
  obtain ⟨_, _, _, _⟩ := h
  obtain ⟨_, _, _, _⟩ := r
  refine ⟨?_, ?_, ?_, ?_⟩ <;> errm 2

theorem C97_vec4_subadd (M : Mode) (f : Bool) (a : V4 F32) (b : V4 F32) (c : V4 F32)
    (t : V4 X) (z : V4 ℝ)
    (h : V4.Reassoc (glm_vec4_subadd (a.map .inp) (b.map .inp) (c.map .inp)) t) (r : V4.Runs M f t z) :
    z.WithinW (glm_vec4_subadd (a.map toReal) (b.map toReal) (c.map toReal)) (Modes.unit 2)
      (⟨c.x.mag + (a.x.mag + b.x.mag), c.y.mag + (a.y.mag + b.y.mag), c.z.mag + (a.z.mag + b.z.mag), c.w.mag + (a.w.mag + b.w.mag)⟩) (1 / 2 ^ 122) := by
  simp only [cglm, V4.map, V4.Reassoc] at h
  simp only [V4.Runs] at r
  simp only [cglm, V4.map, V4.WithinW]
  obtain ⟨_, _, _, _⟩ := h
  obtain ⟨_, _, _, _⟩ := r
  refine ⟨?_, ?_, ?_, ?_⟩ <;> errm 2

theorem C97_vec4_addsub (M : Mode) (f : Bool) (a : V4 F32) (b : V4 F32) (c : V4 F32)
    (t : V4 X) (z : V4 ℝ)
    (h : V4.Reassoc (glm_vec4_addsub (a.map .inp) (b.map .inp) (c.map .inp)) t) (r : V4.Runs M f t z) :
    z.WithinW (glm_vec4_addsub (a.map toReal) (b.map toReal) (c.map toReal)) (Modes.unit 2)
      (⟨c.x.mag + (a.x.mag + b.x.mag), c.y.mag + (a.y.mag + b.y.mag), c.z.mag + (a.z.mag + b.z.mag), c.w.mag + (a.w.mag + b.w.mag)⟩) (1 / 2 ^ 122) := by
  simp only [cglm, V4.map, V4.Reassoc] at h
  simp only [V4.Runs] at r
  simp only [cglm, V4.map, V4.WithinW]
  obtain ⟨_, _, _, _⟩ := h
  obtain ⟨_, _, _, _⟩ := r
  refine ⟨?_, ?_, ?_, ?_⟩ <;> errm 2

theorem C97_vec4_subsub (M : Mode) (f : Bool) (a : V4 F32) (b : V4 F32) (c : V4 F32)
    (t : V4 X) (z : V4 ℝ)
    (h : V4.Reassoc (glm_vec4_subsub (a.map .inp) (b.map .inp) (c.map .inp)) t) (r : V4.Runs M f t z) :
    z.WithinW (glm_vec4_subsub (a.map toReal) (b.map toReal) (c.map toReal)) (Modes.unit 2)
      (⟨c.x.mag + (a.x.mag + b.x.mag), c.y.mag + (a.y.mag + b.y.mag), c.z.mag + (a.z.mag + b.z.mag), c.w.mag + (a.w.mag + b.w.mag)⟩) (1 / 2 ^ 122) := by
  simp only [cglm, V4.map, V4.Reassoc] at h
  simp only [V4.Runs] at r
  simp only [cglm, V4.map, V4.WithinW]
  obtain ⟨_, _, _, _⟩ := h
  obtain ⟨_, _, _, _⟩ := r
  refine ⟨?_, ?_, ?_, ?_⟩ <;> errm 2

theorem C97_mat4_mulv (M : Mode) (f : Bool) (m : M4 F32) (v : V4 F32)
    (t : V4 X) (z : V4 ℝ)
    (h : V4.Reassoc (glm_mat4_mulv (m.map .inp) (v.map .inp)) t) (r : V4.Runs M f t z) :
    z.WithinW (glm_mat4_mulv (m.map toReal) (v.map toReal)) (Modes.unit 7)
      (glm_mat4_mulv (m.map mag) (v.map mag)) (1 / 2 ^ 122) := by
  simp only [cglm, M4.map, V4.map, V4.Reassoc] at h
  simp only [V4.Runs] at r
  simp only [cglm, M4.map, V4.map, V4.WithinW]
  obtain ⟨_, _, _, _⟩ := h
  obtain ⟨_, _, _, _⟩ := r
  refine ⟨?_, ?_, ?_, ?_⟩ <;> errm 7

theorem C97_mat4_mul (M : Mode) (f : Bool) (a : M4 F32) (b : M4 F32)
    (t : M4 X) (z : M4 ℝ)
    (h : M4.Reassoc (glm_mat4_mul (a.map .inp) (b.map .inp)) t) (r : M4.Runs M f t z) :
    z.WithinW (glm_mat4_mul (a.map toReal) (b.map toReal)) (Modes.unit 7)
      (glm_mat4_mul (a.map mag) (b.map mag)) (1 / 2 ^ 122) := by
  simp only [cglm, M4.map, V4.map, M4.Reassoc, V4.Reassoc] at h
  simp only [M4.Runs, V4.Runs] at r
  simp only [cglm, M4.map, V4.map, M4.WithinW, V4.WithinW]
  obtain ⟨⟨_, _, _, _⟩, ⟨_, _, _, _⟩, ⟨_, _, _, _⟩, ⟨_, _, _, _⟩⟩ := h
  obtain ⟨⟨_, _, _, _⟩, ⟨_, _, _, _⟩, ⟨_, _, _, _⟩, ⟨_, _, _, _⟩⟩ := r
  refine ⟨⟨?_, ?_, ?_, ?_⟩, ⟨?_, ?_, ?_, ?_⟩, ⟨?_, ?_, ?_, ?_⟩, ⟨?_, ?_, ?_, ?_⟩⟩ <;> errm 7

theorem C97_mat4_trace (M : Mode) (f : Bool) (m : M4 F32)
    (t : X) (z : ℝ)
    (h : Reassoc (glm_mat4_trace (m.map .inp)) t) (r : Modes.Runs M f t z) :
    Within z (glm_mat4_trace (m.map toReal)) (Modes.unit 3)
      (glm_mat4_trace (m.map mag)) (1 / 2 ^ 122) := by
  simp only [cglm, M4.map, V4.map] at h
  simp only [cglm, M4.map, V4.map]
  errm 3

theorem C97_vec2_cross (M : Mode) (f : Bool) (a : V2 F32) (b : V2 F32)
    (t : X) (z : ℝ)
    (h : Reassoc (glm_vec2_cross (a.map .inp) (b.map .inp)) t) (r : Modes.Runs M f t z) :
    Within z (glm_vec2_cross (a.map toReal) (b.map toReal)) (Modes.unit 3)
      (a.x.mag * b.y.mag + a.y.mag * b.x.mag) (1 / 2 ^ 122) := by
  simp only [cglm, V2.map] at h
  simp only [cglm, V2.map]
  errm 3

theorem C97_vec3_cross (M : Mode) (f : Bool) (a : V3 F32) (b : V3 F32)
    (t : V3 X) (z : V3 ℝ)
    (h : V3.Reassoc (glm_vec3_cross (a.map .inp) (b.map .inp)) t) (r : V3.Runs M f t z) :
    z.WithinW (glm_vec3_cross (a.map toReal) (b.map toReal)) (Modes.unit 3)
      (⟨a.y.mag * b.z.mag + a.z.mag * b.y.mag, a.z.mag * b.x.mag + a.x.mag * b.z.mag, a.x.mag * b.y.mag + a.y.mag * b.x.mag⟩) (1 / 2 ^ 122) := by
  simp only [cglm, V3.map, V3.Reassoc] at h
  simp only [V3.Runs] at r
  simp only [cglm, V3.map, V3.WithinW]
  obtain ⟨_, _, _⟩ := h
  obtain ⟨_, _, _⟩ := r
  refine ⟨?_, ?_, ?_⟩ <;> errm 3

theorem C97_vec2_complex_mul (M : Mode) (f : Bool) (a : V2 F32) (b : V2 F32)
    (t : V2 X) (z : V2 ℝ)
    (h : V2.Reassoc (glm_vec2_complex_mul (a.map .inp) (b.map .inp)) t) (r : V2.Runs M f t z) :
    z.WithinW (glm_vec2_complex_mul (a.map toReal) (b.map toReal)) (Modes.unit 3)
      (⟨a.x.mag * b.x.mag + a.y.mag * b.y.mag, a.x.mag * b.y.mag + a.y.mag * b.x.mag⟩) (1 / 2 ^ 122) := by
  simp only [cglm, V2.map, V2.Reassoc] at h
  simp only [V2.Runs] at r
  simp only [cglm, V2.map, V2.WithinW]
  obtain ⟨_, _⟩ := h
  obtain ⟨_, _⟩ := r
  refine ⟨?_, ?_⟩ <;> errm 3

theorem C97_quat_mul (M : Mode) (f : Bool) (p : V4 F32) (q : V4 F32)
    (t : V4 X) (z : V4 ℝ)
    (h : V4.Reassoc (glm_quat_mul (p.map .inp) (q.map .inp)) t) (r : V4.Runs M f t z) :
    z.WithinW (glm_quat_mul (p.map toReal) (q.map toReal)) (Modes.unit 7)
      (⟨p.w.mag * q.x.mag + p.x.mag * q.w.mag + p.y.mag * q.z.mag + p.z.mag * q.y.mag, p.w.mag * q.y.mag + p.x.mag * q.z.mag + p.y.mag * q.w.mag + p.z.mag * q.x.mag, p.w.mag * q.z.mag + p.x.mag * q.y.mag + p.y.mag * q.x.mag + p.z.mag * q.w.mag, p.w.mag * q.w.mag + p.x.mag * q.x.mag + p.y.mag * q.y.mag + p.z.mag * q.z.mag⟩) (1 / 2 ^ 122) := by
  simp only [cglm, V4.map, V4.Reassoc] at h
  simp only [V4.Runs] at r
  simp only [cglm, V4.map, V4.WithinW]
  obtain ⟨_, _, _, _⟩ := h
  obtain ⟨_, _, _, _⟩ := r
  refine ⟨?_, ?_, ?_, ?_⟩ <;> errm 7

theorem C97_quat_dot (M : Mode) (f : Bool) (p : V4 F32) (q : V4 F32)
    (t : X) (z : ℝ)
    (h : Reassoc (glm_quat_dot (p.map .inp) (q.map .inp)) t) (r : Modes.Runs M f t z) :
    Within z (glm_quat_dot (p.map toReal) (q.map toReal)) (Modes.unit 7)
      (glm_quat_dot (p.map mag) (q.map mag)) (1 / 2 ^ 122) := by
  simp only [cglm, V4.map] at h
  simp only [cglm, V4.map]
  errm 7

theorem C97_mat2_det (M : Mode) (f : Bool) (m : M2 F32)
    (t : X) (z : ℝ)
    (h : Reassoc (glm_mat2_det (m.map .inp)) t) (r : Modes.Runs M f t z) :
    Within z (glm_mat2_det (m.map toReal)) (Modes.unit 3)
      (m.c0.x.mag * m.c1.y.mag + m.c1.x.mag * m.c0.y.mag) (1 / 2 ^ 122) := by
  simp only [cglm, M2.map, V2.map] at h
  simp only [cglm, M2.map, V2.map]
  errm 3

theorem C97_mat2x3_mulv (M : Mode) (f : Bool) (m : M2x3 F32) (v : V2 F32)
    (t : V3 X) (z : V3 ℝ)
    (h : V3.Reassoc (glm_mat2x3_mulv (m.map .inp) (v.map .inp)) t) (r : V3.Runs M f t z) :
    z.WithinW (glm_mat2x3_mulv (m.map toReal) (v.map toReal)) (Modes.unit 3)
      (glm_mat2x3_mulv (m.map mag) (v.map mag)) (1 / 2 ^ 122) := by
  simp only [cglm, M2x3.map, V2.map, V3.map, V3.Reassoc] at h
  simp only [V3.Runs] at r
  simp only [cglm, M2x3.map, V2.map, V3.map, V3.WithinW]
  obtain ⟨_, _, _⟩ := h
  obtain ⟨_, _, _⟩ := r
  refine ⟨?_, ?_, ?_⟩ <;> errm 3

theorem C97_mat2x4_mulv (M : Mode) (f : Bool) (m : M2x4 F32) (v : V2 F32)
    (t : V4 X) (z : V4 ℝ)
    (h : V4.Reassoc (glm_mat2x4_mulv (m.map .inp) (v.map .inp)) t) (r : V4.Runs M f t z) :
    z.WithinW (glm_mat2x4_mulv (m.map toReal) (v.map toReal)) (Modes.unit 3)
      (glm_mat2x4_mulv (m.map mag) (v.map mag)) (1 / 2 ^ 122) := by
  simp only [cglm, M2x4.map, V2.map, V4.map, V4.Reassoc] at h
  simp only [V4.Runs] at r
  simp only [cglm, M2x4.map, V2.map, V4.map, V4.WithinW]
  obtain ⟨_, _, _, _⟩ := h
  obtain ⟨_, _, _, _⟩ := r
  refine ⟨?_, ?_, ?_, ?_⟩ <;> errm 3

theorem C97_mat3x2_mulv (M : Mode) (f : Bool) (m : M3x2 F32) (v : V3 F32)
    (t : V2 X) (z : V2 ℝ)
    (h : V2.Reassoc (glm_mat3x2_mulv (m.map .inp) (v.map .inp)) t) (r : V2.Runs M f t z) :
    z.WithinW (glm_mat3x2_mulv (m.map toReal) (v.map toReal)) (Modes.unit 5)
      (glm_mat3x2_mulv (m.map mag) (v.map mag)) (1 / 2 ^ 122) := by
  simp only [cglm, M3x2.map, V2.map, V3.map, V2.Reassoc] at h
  simp only [V2.Runs] at r
  simp only [cglm, M3x2.map, V2.map, V3.map, V2.WithinW]
  obtain ⟨_, _⟩ := h
  obtain ⟨_, _⟩ := r
  refine ⟨?_, ?_⟩ <;> errm 5

theorem C97_mat3x4_mulv (M : Mode) (f : Bool) (m : M3x4 F32) (v : V3 F32)
    (t : V4 X) (z : V4 ℝ)
    (h : V4.Reassoc (glm_mat3x4_mulv (m.map .inp) (v.map .inp)) t) (r : V4.Runs M f t z) :
    z.WithinW (glm_mat3x4_mulv (m.map toReal) (v.map toReal)) (Modes.unit 5)
      (glm_mat3x4_mulv (m.map mag) (v.map mag)) (1 / 2 ^ 122) := by
  simp only [cglm, M3x4.map, V3.map, V4.map, V4.Reassoc] at h
  simp only [V4.Runs] at r
  simp only [cglm, M3x4.map, V3.map, V4.map, V4.WithinW]
  obtain ⟨_, _, _, _⟩ := h
  obtain ⟨_, _, _, _⟩ := r
  refine ⟨?_, ?_, ?_, ?_⟩ <;> errm 5

theorem C97_mat4x2_mulv (M : Mode) (f : Bool) (m : M4x2 F32) (v : V4 F32)
    (t : V2 X) (z : V2 ℝ)
    (h : V2.Reassoc (glm_mat4x2_mulv (m.map .inp) (v.map .inp)) t) (r : V2.Runs M f t z) :
    z.WithinW (glm_mat4x2_mulv (m.map toReal) (v.map toReal)) (Modes.unit 7)
      (glm_mat4x2_mulv (m.map mag) (v.map mag)) (1 / 2 ^ 122) := by
  simp only [cglm, M4x2.map, V2.map, V4.map, V2.Reassoc] at h
  simp only [V2.Runs] at r
  simp only [cglm, M4x2.map, V2.map, V4.map, V2.WithinW]
  obtain ⟨_, _⟩ := h
  obtain ⟨_, _⟩ := r
  refine ⟨?_, ?_⟩ <;> errm 7

theorem C97_mat4x3_mulv (M : Mode) (f : Bool) (m : M4x3 F32) (v : V4 F32)
    (t : V3 X) (z : V3 ℝ)
    (h : V3.Reassoc (glm_mat4x3_mulv (m.map .inp) (v.map .inp)) t) (r : V3.Runs M f t z) :
    z.WithinW (glm_mat4x3_mulv (m.map toReal) (v.map toReal)) (Modes.unit 7)
      (glm_mat4x3_mulv (m.map mag) (v.map mag)) (1 / 2 ^ 122) := by
  simp only [cglm, M4x3.map, V3.map, V4.map, V3.Reassoc] at h
  simp only [V3.Runs] at r
  simp only [cglm, M4x3.map, V3.map, V4.map, V3.WithinW]
  obtain ⟨_, _, _⟩ := h
  obtain ⟨_, _, _⟩ := r
  refine ⟨?_, ?_, ?_⟩ <;> errm 7

theorem C97_mat2x3_mul (M : Mode) (f : Bool) (a : M2x3 F32) (b : M3x2 F32)
    (t : M3 X) (z : M3 ℝ)
    (h : M3.Reassoc (glm_mat2x3_mul (a.map .inp) (b.map .inp)) t) (r : M3.Runs M f t z) :
    z.WithinW (glm_mat2x3_mul (a.map toReal) (b.map toReal)) (Modes.unit 3)
      (glm_mat2x3_mul (a.map mag) (b.map mag)) (1 / 2 ^ 122) := by
  simp only [cglm, M2x3.map, M3.map, M3x2.map, V2.map, V3.map, M3.Reassoc, V3.Reassoc] at h
  simp only [M3.Runs, V3.Runs] at r
  simp only [cglm, M2x3.map, M3.map, M3x2.map, V2.map, V3.map, M3.WithinW, V3.WithinW]
  obtain ⟨⟨_, _, _⟩, ⟨_, _, _⟩, ⟨_, _, _⟩⟩ := h
  obtain ⟨⟨_, _, _⟩, ⟨_, _, _⟩, ⟨_, _, _⟩⟩ := r
  refine ⟨⟨?_, ?_, ?_⟩, ⟨?_, ?_, ?_⟩, ⟨?_, ?_, ?_⟩⟩ <;> errm 3

theorem C97_mat2x4_mul (M : Mode) (f : Bool) (a : M2x4 F32) (b : M4x2 F32)
    (t : M4 X) (z : M4 ℝ)
    (h : M4.Reassoc (glm_mat2x4_mul (a.map .inp) (b.map .inp)) t) (r : M4.Runs M f t z) :
    z.WithinW (glm_mat2x4_mul (a.map toReal) (b.map toReal)) (Modes.unit 3)
      (glm_mat2x4_mul (a.map mag) (b.map mag)) (1 / 2 ^ 122) := by
  simp only [cglm, M2x4.map, M4.map, M4x2.map, V2.map, V4.map, M4.Reassoc, V4.Reassoc] at h
  simp only [M4.Runs, V4.Runs] at r
  simp only [cglm, M2x4.map, M4.map, M4x2.map, V2.map, V4.map, M4.WithinW, V4.WithinW]
  obtain ⟨⟨_, _, _, _⟩, ⟨_, _, _, _⟩, ⟨_, _, _, _⟩, ⟨_, _, _, _⟩⟩ := h
  obtain ⟨⟨_, _, _, _⟩, ⟨_, _, _, _⟩, ⟨_, _, _, _⟩, ⟨_, _, _, _⟩⟩ := r
  refine ⟨⟨?_, ?_, ?_, ?_⟩, ⟨?_, ?_, ?_, ?_⟩, ⟨?_, ?_, ?_, ?_⟩, ⟨?_, ?_, ?_, ?_⟩⟩ <;> errm 3

theorem C97_mat3x2_mul (M : Mode) (f : Bool) (a : M3x2 F32) (b : M2x3 F32)
    (t : M2 X) (z : M2 ℝ)
    (h : M2.Reassoc (glm_mat3x2_mul (a.map .inp) (b.map .inp)) t) (r : M2.Runs M f t z) :
    z.WithinW (glm_mat3x2_mul (a.map toReal) (b.map toReal)) (Modes.unit 5)
      (glm_mat3x2_mul (a.map mag) (b.map mag)) (1 / 2 ^ 122) := by
  simp only [cglm, M2.map, M2x3.map, M3x2.map, V2.map, V3.map, M2.Reassoc, V2.Reassoc] at h
  simp only [M2.Runs, V2.Runs] at r
  simp only [cglm, M2.map, M2x3.map, M3x2.map, V2.map, V3.map, M2.WithinW, V2.WithinW]
  obtain ⟨⟨_, _⟩, ⟨_, _⟩⟩ := h
  obtain ⟨⟨_, _⟩, ⟨_, _⟩⟩ := r
  refine ⟨⟨?_, ?_⟩, ⟨?_, ?_⟩⟩ <;> errm 5

theorem C97_mat3x4_mul (M : Mode) (f : Bool) (a : M3x4 F32) (b : M4x3 F32)
    (t : M4 X) (z : M4 ℝ)
    (h : M4.Reassoc (glm_mat3x4_mul (a.map .inp) (b.map .inp)) t) (r : M4.Runs M f t z) :
    z.WithinW (glm_mat3x4_mul (a.map toReal) (b.map toReal)) (Modes.unit 5)
      (glm_mat3x4_mul (a.map mag) (b.map mag)) (1 / 2 ^ 122) := by
  simp only [cglm, M3x4.map, M4.map, M4x3.map, V3.map, V4.map, M4.Reassoc, V4.Reassoc] at h
  simp only [M4.Runs, V4.Runs] at r
  simp only [cglm, M3x4.map, M4.map, M4x3.map, V3.map, V4.map, M4.WithinW, V4.WithinW]
  obtain ⟨⟨_, _, _, _⟩, ⟨_, _, _, _⟩, ⟨_, _, _, _⟩, ⟨_, _, _, _⟩⟩ := h
  obtain ⟨⟨_, _, _, _⟩, ⟨_, _, _, _⟩, ⟨_, _, _, _⟩, ⟨_, _, _, _⟩⟩ := r
  refine ⟨⟨?_, ?_, ?_, ?_⟩, ⟨?_, ?_, ?_, ?_⟩, ⟨?_, ?_, ?_, ?_⟩, ⟨?_, ?_, ?_, ?_⟩⟩ <;> errm 5

theorem C97_mat4x2_mul (M : Mode) (f : Bool) (a : M4x2 F32) (b : M2x4 F32)
    (t : M2 X) (z : M2 ℝ)
    (h : M2.Reassoc (glm_mat4x2_mul (a.map .inp) (b.map .inp)) t) (r : M2.Runs M f t z) :
    z.WithinW (glm_mat4x2_mul (a.map toReal) (b.map toReal)) (Modes.unit 7)
      (glm_mat4x2_mul (a.map mag) (b.map mag)) (1 / 2 ^ 122) := by
  simp only [cglm, M2.map, M2x4.map, M4x2.map, V2.map, V4.map, M2.Reassoc, V2.Reassoc] at h
  simp only [M2.Runs, V2.Runs] at r
  simp only [cglm, M2.map, M2x4.map, M4x2.map, V2.map, V4.map, M2.WithinW, V2.WithinW]
  obtain ⟨⟨_, _⟩, ⟨_, _⟩⟩ := h
  obtain ⟨⟨_, _⟩, ⟨_, _⟩⟩ := r
  refine ⟨⟨?_, ?_⟩, ⟨?_, ?_⟩⟩ <;> errm 7

theorem C97_mat4x3_mul (M : Mode) (f : Bool) (a : M4x3 F32) (b : M3x4 F32)
    (t : M3 X) (z : M3 ℝ)
    (h : M3.Reassoc (glm_mat4x3_mul (a.map .inp) (b.map .inp)) t) (r : M3.Runs M f t z) :
    z.WithinW (glm_mat4x3_mul (a.map toReal) (b.map toReal)) (Modes.unit 7)
      (glm_mat4x3_mul (a.map mag) (b.map mag)) (1 / 2 ^ 122) := by
  simp only [cglm, M3.map, M3x4.map, M4x3.map, V3.map, V4.map, M3.Reassoc, V3.Reassoc] at h
  simp only [M3.Runs, V3.Runs] at r
  simp only [cglm, M3.map, M3x4.map, M4x3.map, V3.map, V4.map, M3.WithinW, V3.WithinW]
  obtain ⟨⟨_, _, _⟩, ⟨_, _, _⟩, ⟨_, _, _⟩⟩ := h
  obtain ⟨⟨_, _, _⟩, ⟨_, _, _⟩, ⟨_, _, _⟩⟩ := r
  refine ⟨⟨?_, ?_, ?_⟩, ⟨?_, ?_, ?_⟩, ⟨?_, ?_, ?_⟩⟩ <;> errm 7

theorem C97_mat4_mulv3 (M : Mode) (f : Bool) (m : M4 F32) (v : V3 F32) (w : F32)
    (t : V3 X) (z : V3 ℝ)
    (h : V3.Reassoc (glm_mat4_mulv3 (m.map .inp) (v.map .inp) (.inp w)) t) (r : V3.Runs M f t z) :
    z.WithinW (glm_mat4_mulv3 (m.map toReal) (v.map toReal) (toReal w)) (Modes.unit 7)
      (glm_mat4_mulv3 (m.map mag) (v.map mag) (mag w)) (1 / 2 ^ 122) := by
  simp only [cglm, M4.map, V3.map, V4.map, V3.Reassoc] at h
  simp only [V3.Runs] at r
  simp only [cglm, M4.map, V3.map, V4.map, V3.WithinW]
  obtain ⟨_, _, _⟩ := h
  obtain ⟨_, _, _⟩ := r
  refine ⟨?_, ?_, ?_⟩ <;> errm 7

theorem C97_mul (M : Mode) (f : Bool) (a : M4 F32) (b : M4 F32)
    (t : M4 X) (z : M4 ℝ)
    (h : M4.Reassoc (glm_mul (a.map .inp) (b.map .inp)) t) (r : M4.Runs M f t z) :
    z.WithinW (glm_mul (a.map toReal) (b.map toReal)) (Modes.unit 7)
      (glm_mul (a.map mag) (b.map mag)) (1 / 2 ^ 122) := by
  simp only [cglm, M4.map, V4.map, M4.Reassoc, V4.Reassoc] at h
  simp only [M4.Runs, V4.Runs] at r
  simp only [cglm, M4.map, V4.map, M4.WithinW, V4.WithinW]
  obtain ⟨⟨_, _, _, _⟩, ⟨_, _, _, _⟩, ⟨_, _, _, _⟩, ⟨_, _, _, _⟩⟩ := h
  obtain ⟨⟨_, _, _, _⟩, ⟨_, _, _, _⟩, ⟨_, _, _, _⟩, ⟨_, _, _, _⟩⟩ := r
  refine ⟨⟨?_, ?_, ?_, ?_⟩, ⟨?_, ?_, ?_, ?_⟩, ⟨?_, ?_, ?_, ?_⟩, ⟨?_, ?_, ?_, ?_⟩⟩ <;> errm 7

theorem C97_mul_rot (M : Mode) (f : Bool) (a : M4 F32) (b : M4 F32)
    (t : M4 X) (z : M4 ℝ)
    (h : M4.Reassoc (glm_mul_rot (a.map .inp) (b.map .inp)) t) (r : M4.Runs M f t z) :
    z.WithinW (glm_mul_rot (a.map toReal) (b.map toReal)) (Modes.unit 5)
      (glm_mul_rot (a.map mag) (b.map mag)) (1 / 2 ^ 122) := by
  simp only [cglm, M4.map, V4.map, M4.Reassoc, V4.Reassoc] at h
  simp only [M4.Runs, V4.Runs] at r
  simp only [cglm, M4.map, V4.map, M4.WithinW, V4.WithinW]
  obtain ⟨⟨_, _, _, _⟩, ⟨_, _, _, _⟩, ⟨_, _, _, _⟩, ⟨_, _, _, _⟩⟩ := h
  obtain ⟨⟨_, _, _, _⟩, ⟨_, _, _, _⟩, ⟨_, _, _, _⟩, ⟨_, _, _, _⟩⟩ := r
  refine ⟨⟨?_, ?_, ?_, ?_⟩, ⟨?_, ?_, ?_, ?_⟩, ⟨?_, ?_, ?_, ?_⟩, ⟨?_, ?_, ?_, ?_⟩⟩ <;> errm 5

theorem C97_translate (M : Mode) (f : Bool) (m : M4 F32) (v : V3 F32)
    (t : M4 X) (z : M4 ℝ)
    (h : M4.Reassoc (glm_translate (m.map .inp) (v.map .inp)) t) (r : M4.Runs M f t z) :
    z.WithinW (glm_translate (m.map toReal) (v.map toReal)) (Modes.unit 7)
      (glm_translate (m.map mag) (v.map mag)) (1 / 2 ^ 122) := by
  simp only [cglm, M4.map, V3.map, V4.map, M4.Reassoc, V4.Reassoc] at h
  simp only [M4.Runs, V4.Runs] at r
  simp only [cglm, M4.map, V3.map, V4.map, M4.WithinW, V4.WithinW]
  obtain ⟨⟨_, _, _, _⟩, ⟨_, _, _, _⟩, ⟨_, _, _, _⟩, ⟨_, _, _, _⟩⟩ := h
  obtain ⟨⟨_, _, _, _⟩, ⟨_, _, _, _⟩, ⟨_, _, _, _⟩, ⟨_, _, _, _⟩⟩ := r
  refine ⟨⟨?_, ?_, ?_, ?_⟩, ⟨?_, ?_, ?_, ?_⟩, ⟨?_, ?_, ?_, ?_⟩, ⟨?_, ?_, ?_, ?_⟩⟩ <;> errm 7

theorem C97_scale_to (M : Mode) (f : Bool) (m : M4 F32) (v : V3 F32)
    (t : M4 X) (z : M4 ℝ)
    (h : M4.Reassoc (glm_scale_to (m.map .inp) (v.map .inp)) t) (r : M4.Runs M f t z) :
    z.WithinW (glm_scale_to (m.map toReal) (v.map toReal)) (Modes.unit 1)
      (glm_scale_to (m.map mag) (v.map mag)) (1 / 2 ^ 122) := by
  simp only [cglm, M4.map, V3.map, V4.map, M4.Reassoc, V4.Reassoc] at h
  simp only [M4.Runs, V4.Runs] at r
  simp only [cglm, M4.map, V3.map, V4.map, M4.WithinW, V4.WithinW]
  obtain ⟨⟨_, _, _, _⟩, ⟨_, _, _, _⟩, ⟨_, _, _, _⟩, ⟨_, _, _, _⟩⟩ := h
  obtain ⟨⟨_, _, _, _⟩, ⟨_, _, _, _⟩, ⟨_, _, _, _⟩, ⟨_, _, _, _⟩⟩ := r
  refine ⟨⟨?_, ?_, ?_, ?_⟩, ⟨?_, ?_, ?_, ?_⟩, ⟨?_, ?_, ?_, ?_⟩, ⟨?_, ?_, ?_, ?_⟩⟩ <;> errm 1

end Cglm
