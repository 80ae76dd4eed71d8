import Verif.Modes
import Verif.Gen
/-!
# C97: lower and upper bounds by directed rounding

For data without negative numbers, rounding down (or towards zero) gives a lower bound of the exact result, with or without flushing, and
rounding up without flushing an upper bound.
Written by `tools/modethms.py`.
-/
set_option linter.unusedSimpArgs false
set_option linter.unusedSectionVars false
open Cglm F32 Wide
namespace Cglm
variable [Libm]

theorem C97_lower_vec2_dot (M : Mode) (f : Bool) (a : V2 F32) (b : V2 F32)
    (z : ℝ) (r : Modes.Runs M f (glm_vec2_dot (a.map .inp) (b.map .inp)) z) (hm : M = .down ∨ M = .zero) (ha : a.NoNeg) (hb : b.NoNeg) :
    z ≤ glm_vec2_dot (a.map toReal) (b.map toReal) := by
  simp only [cglm, V2.map] at r
  simp only [cglm, V2.map]
  simp only [V2.NoNeg] at ha hb
  obtain ⟨_, _⟩ := ha
  obtain ⟨_, _⟩ := hb
  exact Modes.Runs.le hm (by assumption) rfl (by repeat' first | assumption | constructor) rfl

theorem C97_upper_vec2_dot (a : V2 F32) (b : V2 F32)
    (z : ℝ) (r : Modes.Runs .up false (glm_vec2_dot (a.map .inp) (b.map .inp)) z) (ha : a.NoNeg) (hb : b.NoNeg) :
    glm_vec2_dot (a.map toReal) (b.map toReal) ≤ z := by
  simp only [cglm, V2.map] at r
  simp only [cglm, V2.map]
  simp only [V2.NoNeg] at ha hb
  obtain ⟨_, _⟩ := ha
  obtain ⟨_, _⟩ := hb
  exact Modes.Runs.ge (by assumption) rfl (by repeat' first | assumption | constructor) rfl

theorem C97_lower_vec2_norm2 (M : Mode) (f : Bool) (v : V2 F32)
    (z : ℝ) (r : Modes.Runs M f (glm_vec2_norm2 (v.map .inp)) z) (hm : M = .down ∨ M = .zero) (hv : v.NoNeg) :
    z ≤ glm_vec2_norm2 (v.map toReal) := by
  simp only [cglm, V2.map] at r
  simp only [cglm, V2.map]
  simp only [V2.NoNeg] at hv
  obtain ⟨_, _⟩ := hv
  exact Modes.Runs.le hm (by assumption) rfl (by repeat' first | assumption | constructor) rfl

theorem C97_upper_vec2_norm2 (v : V2 F32)
    (z : ℝ) (r : Modes.Runs .up false (glm_vec2_norm2 (v.map .inp)) z) (hv : v.NoNeg) :
    glm_vec2_norm2 (v.map toReal) ≤ z := by
  simp only [cglm, V2.map] at r
  simp only [cglm, V2.map]
  simp only [V2.NoNeg] at hv
  obtain ⟨_, _⟩ := hv
  exact Modes.Runs.ge (by assumption) rfl (by repeat' first | assumption | constructor) rfl

theorem C97_lower_vec2_muladd (M : Mode) (f : Bool) (a : V2 F32) (b : V2 F32) (c : V2 F32)
    (z : V2 ℝ) (r : V2.Runs M f (glm_vec2_muladd (a.map .inp) (b.map .inp) (c.map .inp)) z) (hm : M = .down ∨ M = .zero) (ha : a.NoNeg) (hb : b.NoNeg) (hc : c.NoNeg) :
    z.LeR (glm_vec2_muladd (a.map toReal) (b.map toReal) (c.map toReal)) := by
  simp only [cglm, V2.map, V2.Runs] at r
  simp only [cglm, V2.map, V2.LeR]
  simp only [V2.NoNeg] at ha hb hc
  obtain ⟨_, _⟩ := ha
  obtain ⟨_, _⟩ := hb
  obtain ⟨_, _⟩ := hc
  obtain ⟨_, _⟩ := r
  refine ⟨?_, ?_⟩ <;> exact Modes.Runs.le hm (by assumption) rfl (by repeat' first | assumption | constructor) rfl

theorem C97_upper_vec2_muladd (a : V2 F32) (b : V2 F32) (c : V2 F32)
    (z : V2 ℝ) (r : V2.Runs .up false (glm_vec2_muladd (a.map .inp) (b.map .inp) (c.map .inp)) z) (ha : a.NoNeg) (hb : b.NoNeg) (hc : c.NoNeg) :
    (glm_vec2_muladd (a.map toReal) (b.map toReal) (c.map toReal)).LeR z := by
  simp only [cglm, V2.map, V2.Runs] at r
  simp only [cglm, V2.map, V2.LeR]
  simp only [V2.NoNeg] at ha hb hc
  obtain ⟨_, _⟩ := ha
  obtain ⟨_, _⟩ := hb
  obtain ⟨_, _⟩ := hc
  obtain ⟨_, _⟩ := r
  refine ⟨?_, ?_⟩ <;> exact Modes.Runs.ge (by assumption) rfl (by repeat' first | assumption | constructor) rfl

theorem C97_lower_vec2_muladds (M : Mode) (f : Bool) (a : V2 F32) (s : F32) (c : V2 F32)
    (z : V2 ℝ) (r : V2.Runs M f (glm_vec2_muladds (a.map .inp) (.inp s) (c.map .inp)) z) (hm : M = .down ∨ M = .zero) (ha : a.NoNeg) (hs : 0 ≤ s.toReal) (hc : c.NoNeg) :
    z.LeR (glm_vec2_muladds (a.map toReal) (toReal s) (c.map toReal)) := by
  simp only [cglm, V2.map, V2.Runs] at r
  simp only [cglm, V2.map, V2.LeR]
  simp only [V2.NoNeg] at ha hc
  obtain ⟨_, _⟩ := ha
  obtain ⟨_, _⟩ := hc
  obtain ⟨_, _⟩ := r
  refine ⟨?_, ?_⟩ <;> exact Modes.Runs.le hm (by assumption) rfl (by repeat' first | assumption | constructor) rfl

theorem C97_upper_vec2_muladds (a : V2 F32) (s : F32) (c : V2 F32)
    (z : V2 ℝ) (r : V2.Runs .up false (glm_vec2_muladds (a.map .inp) (.inp s) (c.map .inp)) z) (ha : a.NoNeg) (hs : 0 ≤ s.toReal) (hc : c.NoNeg) :
    (glm_vec2_muladds (a.map toReal) (toReal s) (c.map toReal)).LeR z := by
  simp only [cglm, V2.map, V2.Runs] at r
  simp only [cglm, V2.map, V2.LeR]
  simp only [V2.NoNeg] at ha hc
  obtain ⟨_, _⟩ := ha
  obtain ⟨_, _⟩ := hc
  obtain ⟨_, _⟩ := r
  refine ⟨?_, ?_⟩ <;> exact Modes.Runs.ge (by assumption) rfl (by repeat' first | assumption | constructor) rfl

theorem C97_lower_vec2_addadd (M : Mode) (f : Bool) (a : V2 F32) (b : V2 F32) (c : V2 F32)
    (z : V2 ℝ) (r : V2.Runs M f (glm_vec2_addadd (a.map .inp) (b.map .inp) (c.map .inp)) z) (hm : M = .down ∨ M = .zero) (ha : a.NoNeg) (hb : b.NoNeg) (hc : c.NoNeg) :
    z.LeR (glm_vec2_addadd (a.map toReal) (b.map toReal) (c.map toReal)) := by
  simp only [cglm, V2.map, V2.Runs] at r
  simp only [cglm, V2.map, V2.LeR]
  simp only [V2.NoNeg] at ha hb hc
  obtain ⟨_, _⟩ := ha
  obtain ⟨_, _⟩ := hb
  obtain ⟨_, _⟩ := hc
  obtain ⟨_, _⟩ := r
  refine ⟨?_, ?_⟩ <;> exact Modes.Runs.le hm (by assumption) rfl (by repeat' first | assumption | constructor) rfl

theorem C97_upper_vec2_addadd (a : V2 F32) (b : V2 F32) (c : V2 F32)
    (z : V2 ℝ) (r : V2.Runs .up false (glm_vec2_addadd (a.map .inp) (b.map .inp) (c.map .inp)) z) (ha : a.NoNeg) (hb : b.NoNeg) (hc : c.NoNeg) :
    (glm_vec2_addadd (a.map toReal) (b.map toReal) (c.map toReal)).LeR z := by
  simp only [cglm, V2.map, V2.Runs] at r
  simp only [cglm, V2.map, V2.LeR]
  simp only [V2.NoNeg] at ha hb hc
  obtain ⟨_, _⟩ := ha
  obtain ⟨_, _⟩ := hb
  obtain ⟨_, _⟩ := hc
  obtain ⟨_, _⟩ := r
  refine ⟨?_, ?_⟩ <;> exact Modes.Runs.ge (by assumption) rfl (by repeat' first | assumption | constructor) rfl

theorem C97_lower_mat2_mulv (M : Mode) (f : Bool) (m : M2 F32) (v : V2 F32)
    (z : V2 ℝ) (r : V2.Runs M f (glm_mat2_mulv (m.map .inp) (v.map .inp)) z) (hm : M = .down ∨ M = .zero) (hm : m.NoNeg) (hv : v.NoNeg) :
    z.LeR (glm_mat2_mulv (m.map toReal) (v.map toReal)) := by
  simp only [cglm, M2.map, V2.map, V2.Runs] at r
  simp only [cglm, M2.map, V2.map, V2.LeR]
  simp only [M2.NoNeg, V2.NoNeg] at hm hv
  obtain ⟨⟨_, _⟩, ⟨_, _⟩⟩ := hm
  obtain ⟨_, _⟩ := hv
  obtain ⟨_, _⟩ := r
  refine ⟨?_, ?_⟩ <;> exact Modes.Runs.le hm (by assumption) rfl (by repeat' first | assumption | constructor) rfl

theorem C97_upper_mat2_mulv (m : M2 F32) (v : V2 F32)
    (z : V2 ℝ) (r : V2.Runs .up false (glm_mat2_mulv (m.map .inp) (v.map .inp)) z) (hm : m.NoNeg) (hv : v.NoNeg) :
    (glm_mat2_mulv (m.map toReal) (v.map toReal)).LeR z := by
  simp only [cglm, M2.map, V2.map, V2.Runs] at r
  simp only [cglm, M2.map, V2.map, V2.LeR]
  simp only [M2.NoNeg, V2.NoNeg] at hm hv
  obtain ⟨⟨_, _⟩, ⟨_, _⟩⟩ := hm
  obtain ⟨_, _⟩ := hv
  obtain ⟨_, _⟩ := r
  refine ⟨?_, ?_⟩ <;> exact Modes.Runs.ge (by assumption) rfl (by repeat' first | assumption | constructor) rfl

theorem C97_lower_mat2_mul (M : Mode) (f : Bool) (a : M2 F32) (b : M2 F32)
    (z : M2 ℝ) (r : M2.Runs M f (glm_mat2_mul (a.map .inp) (b.map .inp)) z) (hm : M = .down ∨ M = .zero) (ha : a.NoNeg) (hb : b.NoNeg) :
    z.LeR (glm_mat2_mul (a.map toReal) (b.map toReal)) := by
  simp only [cglm, M2.map, V2.map, M2.Runs, V2.Runs] at r
  simp only [cglm, M2.map, V2.map, M2.LeR, V2.LeR]
  simp only [M2.NoNeg, V2.NoNeg] at ha hb
  obtain ⟨⟨_, _⟩, ⟨_, _⟩⟩ := ha
  obtain ⟨⟨_, _⟩, ⟨_, _⟩⟩ := hb
  obtain ⟨⟨_, _⟩, ⟨_, _⟩⟩ := r
  refine ⟨⟨?_, ?_⟩, ⟨?_, ?_⟩⟩ <;> exact Modes.Runs.le hm (by assumption) rfl (by repeat' first | assumption | constructor) rfl

theorem C97_upper_mat2_mul (a : M2 F32) (b : M2 F32)
    (z : M2 ℝ) (r : M2.Runs .up false (glm_mat2_mul (a.map .inp) (b.map .inp)) z) (ha : a.NoNeg) (hb : b.NoNeg) :
    (glm_mat2_mul (a.map toReal) (b.map toReal)).LeR z := by
  simp only [cglm, M2.map, V2.map, M2.Runs, V2.Runs] at r
  simp only [cglm, M2.map, V2.map, M2.LeR, V2.LeR]
  simp only [M2.NoNeg, V2.NoNeg] at ha hb
  obtain ⟨⟨_, _⟩, ⟨_, _⟩⟩ := ha
  obtain ⟨⟨_, _⟩, ⟨_, _⟩⟩ := hb
  obtain ⟨⟨_, _⟩, ⟨_, _⟩⟩ := r
  refine ⟨⟨?_, ?_⟩, ⟨?_, ?_⟩⟩ <;> exact Modes.Runs.ge (by assumption) rfl (by repeat' first | assumption | constructor) rfl

theorem C97_lower_mat2_trace (M : Mode) (f : Bool) (m : M2 F32)
    (z : ℝ) (r : Modes.Runs M f (glm_mat2_trace (m.map .inp)) z) (hm : M = .down ∨ M = .zero) (hm : m.NoNeg) :
    z ≤ glm_mat2_trace (m.map toReal) := by
  simp only [cglm, M2.map, V2.map] at r
  simp only [cglm, M2.map, V2.map]
  simp only [M2.NoNeg, V2.NoNeg] at hm
  obtain ⟨⟨_, _⟩, ⟨_, _⟩⟩ := hm
  exact Modes.Runs.le hm (by assumption) rfl (by repeat' first | assumption | constructor) rfl

theorem C97_upper_mat2_trace (m : M2 F32)
    (z : ℝ) (r : Modes.Runs .up false (glm_mat2_trace (m.map .inp)) z) (hm : m.NoNeg) :
    glm_mat2_trace (m.map toReal) ≤ z := by
  simp only [cglm, M2.map, V2.map] at r
  simp only [cglm, M2.map, V2.map]
  simp only [M2.NoNeg, V2.NoNeg] at hm
  obtain ⟨⟨_, _⟩, ⟨_, _⟩⟩ := hm
  exact Modes.Runs.ge (by assumption) rfl (by repeat' first | assumption | constructor) rfl

theorem C97_lower_vec3_dot (M : Mode) (f : Bool) (a : V3 F32) (b : V3 F32)
    (z : ℝ) (r : Modes.Runs M f (glm_vec3_dot (a.map .inp) (b.map .inp)) z) (hm : M = .down ∨ M = .zero) (ha : a.NoNeg) (hb : b.NoNeg) :
    z ≤ glm_vec3_dot (a.map toReal) (b.map toReal) := by
  simp only [cglm, V3.map] at r
  simp only [cglm, V3.map]
  simp only [V3.NoNeg] at ha hb
  obtain ⟨_, _, _⟩ := ha
  obtain ⟨_, _, _⟩ := hb
  exact Modes.Runs.le hm (by assumption) rfl (by repeat' first | assumption | constructor) rfl

theorem C97_upper_vec3_dot (a : V3 F32) (b : V3 F32)
    (z : ℝ) (r : Modes.Runs .up false (glm_vec3_dot (a.map .inp) (b.map .inp)) z) (ha : a.NoNeg) (hb : b.NoNeg) :
    glm_vec3_dot (a.map toReal) (b.map toReal) ≤ z := by
  simp only [cglm, V3.map] at r
  simp only [cglm, V3.map]
  simp only [V3.NoNeg] at ha hb
  obtain ⟨_, _, _⟩ := ha
  obtain ⟨_, _, _⟩ := hb
  exact Modes.Runs.ge (by assumption) rfl (by repeat' first | assumption | constructor) rfl

theorem C97_lower_vec3_norm2 (M : Mode) (f : Bool) (v : V3 F32)
    (z : ℝ) (r : Modes.Runs M f (glm_vec3_norm2 (v.map .inp)) z) (hm : M = .down ∨ M = .zero) (hv : v.NoNeg) :
    z ≤ glm_vec3_norm2 (v.map toReal) := by
  simp only [cglm, V3.map] at r
  simp only [cglm, V3.map]
  simp only [V3.NoNeg] at hv
  obtain ⟨_, _, _⟩ := hv
  exact Modes.Runs.le hm (by assumption) rfl (by repeat' first | assumption | constructor) rfl

theorem C97_upper_vec3_norm2 (v : V3 F32)
    (z : ℝ) (r : Modes.Runs .up false (glm_vec3_norm2 (v.map .inp)) z) (hv : v.NoNeg) :
    glm_vec3_norm2 (v.map toReal) ≤ z := by
  simp only [cglm, V3.map] at r
  simp only [cglm, V3.map]
  simp only [V3.NoNeg] at hv
  obtain ⟨_, _, _⟩ := hv
  exact Modes.Runs.ge (by assumption) rfl (by repeat' first | assumption | constructor) rfl

theorem C97_lower_vec3_muladd (M : Mode) (f : Bool) (a : V3 F32) (b : V3 F32) (c : V3 F32)
    (z : V3 ℝ) (r : V3.Runs M f (glm_vec3_muladd (a.map .inp) (b.map .inp) (c.map .inp)) z) (hm : M = .down ∨ M = .zero) (ha : a.NoNeg) (hb : b.NoNeg) (hc : c.NoNeg) :
    z.LeR (glm_vec3_muladd (a.map toReal) (b.map toReal) (c.map toReal)) := by
  simp only [cglm, V3.map, V3.Runs] at r
  simp only [cglm, V3.map, V3.LeR]
  simp only [V3.NoNeg] at ha hb hc
  obtain ⟨_, _, _⟩ := ha
  obtain ⟨_, _, _⟩ := hb
  obtain ⟨_, _, _⟩ := hc
  obtain ⟨_, _, _⟩ := r
  refine ⟨?_, ?_, ?_⟩ <;> exact Modes.Runs.le hm (by assumption) rfl (by repeat' first | assumption | constructor) rfl

theorem C97_upper_vec3_muladd (a : V3 F32) (b : V3 F32) (c : V3 F32)
    (z : V3 ℝ) (r : V3.Runs .up false (glm_vec3_muladd (a.map .inp) (b.map .inp) (c.map .inp)) z) (ha : a.NoNeg) (hb : b.NoNeg) (hc : c.NoNeg) :
    (glm_vec3_muladd (a.map toReal) (b.map toReal) (c.map toReal)).LeR z := by
  simp only [cglm, V3.map, V3.Runs] at r
  simp only [cglm, V3.map, V3.LeR]
  simp only [V3.NoNeg] at ha hb hc
  obtain ⟨_, _, _⟩ := ha
  obtain ⟨_, _, _⟩ := hb
  obtain ⟨_, _, _⟩ := hc
  obtain ⟨_, _, _⟩ := r
  refine ⟨?_, ?_, ?_⟩ <;> exact Modes.Runs.ge (by assumption) rfl (by repeat' first | assumption | constructor) rfl

theorem C97_lower_vec3_muladds (M : Mode) (f : Bool) (a : V3 F32) (s : F32) (c : V3 F32)
    (z : V3 ℝ) (r : V3.Runs M f (glm_vec3_muladds (a.map .inp) (.inp s) (c.map .inp)) z) (hm : M = .down ∨ M = .zero) (ha : a.NoNeg) (hs : 0 ≤ s.toReal) (hc : c.NoNeg) :
    z.LeR (glm_vec3_muladds (a.map toReal) (toReal s) (c.map toReal)) := by
  simp only [cglm, V3.map, V3.Runs] at r
  simp only [cglm, V3.map, V3.LeR]
  simp only [V3.NoNeg] at ha hc
  obtain ⟨_, _, _⟩ := ha
  obtain ⟨_, _, _⟩ := hc
  obtain ⟨_, _, _⟩ := r
  refine ⟨?_, ?_, ?_⟩ <;> exact Modes.Runs.le hm (by assumption) rfl (by repeat' first | assumption | constructor) rfl

theorem C97_upper_vec3_muladds (a : V3 F32) (s : F32) (c : V3 F32)
    (z : V3 ℝ) (r : V3.Runs .up false (glm_vec3_muladds (a.map .inp) (.inp s) (c.map .inp)) z) (ha : a.NoNeg) (hs : 0 ≤ s.toReal) (hc : c.NoNeg) :
    (glm_vec3_muladds (a.map toReal) (toReal s) (c.map toReal)).LeR z := by
  simp only [cglm, V3.map, V3.Runs] at r
  simp only [cglm, V3.map, V3.LeR]
  simp only [V3.NoNeg] at ha hc
  obtain ⟨_, _, _⟩ := ha
  obtain ⟨_, _, _⟩ := hc
  obtain ⟨_, _, _⟩ := r
  refine ⟨?_, ?_, ?_⟩ <;> exact Modes.Runs.ge (by assumption) rfl (by repeat' first | assumption | constructor) rfl

theorem C97_lower_vec3_addadd (M : Mode) (f : Bool) (a : V3 F32) (b : V3 F32) (c : V3 F32)
    (z : V3 ℝ) (r : V3.Runs M f (glm_vec3_addadd (a.map .inp) (b.map .inp) (c.map .inp)) z) (hm : M = .down ∨ M = .zero) (ha : a.NoNeg) (hb : b.NoNeg) (hc : c.NoNeg) :
    z.LeR (glm_vec3_addadd (a.map toReal) (b.map toReal) (c.map toReal)) := by
  simp only [cglm, V3.map, V3.Runs] at r
  simp only [cglm, V3.map, V3.LeR]
  simp only [V3.NoNeg] at ha hb hc
  obtain ⟨_, _, _⟩ := ha
  obtain ⟨_, _, _⟩ := hb
  obtain ⟨_, _, _⟩ := hc
  obtain ⟨_, _, _⟩ := r
  refine ⟨?_, ?_, ?_⟩ <;> exact Modes.Runs.le hm (by assumption) rfl (by repeat' first | assumption | constructor) rfl

theorem C97_upper_vec3_addadd (a : V3 F32) (b : V3 F32) (c : V3 F32)
    (z : V3 ℝ) (r : V3.Runs .up false (glm_vec3_addadd (a.map .inp) (b.map .inp) (c.map .inp)) z) (ha : a.NoNeg) (hb : b.NoNeg) (hc : c.NoNeg) :
    (glm_vec3_addadd (a.map toReal) (b.map toReal) (c.map toReal)).LeR z := by
  simp only [cglm, V3.map, V3.Runs] at r
  simp only [cglm, V3.map, V3.LeR]
  simp only [V3.NoNeg] at ha hb hc
  obtain ⟨_, _, _⟩ := ha
  obtain ⟨_, _, _⟩ := hb
  obtain ⟨_, _, _⟩ := hc
  obtain ⟨_, _, _⟩ := r
  refine ⟨?_, ?_, ?_⟩ <;> exact Modes.Runs.ge (by assumption) rfl (by repeat' first | assumption | constructor) rfl

theorem C97_lower_mat3_mulv (M : Mode) (f : Bool) (m : M3 F32) (v : V3 F32)
    (z : V3 ℝ) (r : V3.Runs M f (glm_mat3_mulv (m.map .inp) (v.map .inp)) z) (hm : M = .down ∨ M = .zero) (hm : m.NoNeg) (hv : v.NoNeg) :
    z.LeR (glm_mat3_mulv (m.map toReal) (v.map toReal)) := by
  simp only [cglm, M3.map, V3.map, V3.Runs] at r
  simp only [cglm, M3.map, V3.map, V3.LeR]
  simp only [M3.NoNeg, V3.NoNeg] at hm hv
  obtain ⟨⟨_, _, _⟩, ⟨_, _, _⟩, ⟨_, _, _⟩⟩ := hm
  obtain ⟨_, _, _⟩ := hv
  obtain ⟨_, _, _⟩ := r
  refine ⟨?_, ?_, ?_⟩ <;> exact Modes.Runs.le hm (by assumption) rfl (by repeat' first | assumption | constructor) rfl

theorem C97_upper_mat3_mulv (m : M3 F32) (v : V3 F32)
    (z : V3 ℝ) (r : V3.Runs .up false (glm_mat3_mulv (m.map .inp) (v.map .inp)) z) (hm : m.NoNeg) (hv : v.NoNeg) :
    (glm_mat3_mulv (m.map toReal) (v.map toReal)).LeR z := by
  simp only [cglm, M3.map, V3.map, V3.Runs] at r
  simp only [cglm, M3.map, V3.map, V3.LeR]
  simp only [M3.NoNeg, V3.NoNeg] at hm hv
  obtain ⟨⟨_, _, _⟩, ⟨_, _, _⟩, ⟨_, _, _⟩⟩ := hm
  obtain ⟨_, _, _⟩ := hv
  obtain ⟨_, _, _⟩ := r
  refine ⟨?_, ?_, ?_⟩ <;> exact Modes.Runs.ge (by assumption) rfl (by repeat' first | assumption | constructor) rfl

theorem C97_lower_mat3_mul (M : Mode) (f : Bool) (a : M3 F32) (b : M3 F32)
    (z : M3 ℝ) (r : M3.Runs M f (glm_mat3_mul (a.map .inp) (b.map .inp)) z) (hm : M = .down ∨ M = .zero) (ha : a.NoNeg) (hb : b.NoNeg) :
    z.LeR (glm_mat3_mul (a.map toReal) (b.map toReal)) := by
  simp only [cglm, M3.map, V3.map, M3.Runs, V3.Runs] at r
  simp only [cglm, M3.map, V3.map, M3.LeR, V3.LeR]
  simp only [M3.NoNeg, V3.NoNeg] at ha hb
  obtain ⟨⟨_, _, _⟩, ⟨_, _, _⟩, ⟨_, _, _⟩⟩ := ha
  obtain ⟨⟨_, _, _⟩, ⟨_, _, _⟩, ⟨_, _, _⟩⟩ := hb
  obtain ⟨⟨_, _, _⟩, ⟨_, _, _⟩, ⟨_, _, _⟩⟩ := r
  refine ⟨⟨?_, ?_, ?_⟩, ⟨?_, ?_, ?_⟩, ⟨?_, ?_, ?_⟩⟩ <;> exact Modes.Runs.le hm (by assumption) rfl (by repeat' first | assumption | constructor) rfl

theorem C97_upper_mat3_mul (a : M3 F32) (b : M3 F32)
    (z : M3 ℝ) (r : M3.Runs .up false (glm_mat3_mul (a.map .inp) (b.map .inp)) z) (ha : a.NoNeg) (hb : b.NoNeg) :
    (glm_mat3_mul (a.map toReal) (b.map toReal)).LeR z := by
  simp only [cglm, M3.map, V3.map, M3.Runs, V3.Runs] at r
  simp only [cglm, M3.map, V3.map, M3.LeR, V3.LeR]
  simp only [M3.NoNeg, V3.NoNeg] at ha hb
  obtain ⟨⟨_, _, _⟩, ⟨_, _, _⟩, ⟨_, _, _⟩⟩ := ha
  obtain ⟨⟨_, _, _⟩, ⟨_, _, _⟩, ⟨_, _, _⟩⟩ := hb
  obtain ⟨⟨_, _, _⟩, ⟨_, _, _⟩, ⟨_, _, _⟩⟩ := r
  refine ⟨⟨?_, ?_, ?_⟩, ⟨?_, ?_, ?_⟩, ⟨?_, ?_, ?_⟩⟩ <;> exact Modes.Runs.ge (by assumption) rfl (by repeat' first | assumption | constructor) rfl

theorem C97_lower_mat3_trace (M : Mode) (f : Bool) (m : M3 F32)
    (z : ℝ) (r : Modes.Runs M f (glm_mat3_trace (m.map .inp)) z) (hm : M = .down ∨ M = .zero) (hm : m.NoNeg) :
    z ≤ glm_mat3_trace (m.map toReal) := by
  simp only [cglm, M3.map, V3.map] at r
  simp only [cglm, M3.map, V3.map]
  simp only [M3.NoNeg, V3.NoNeg] at hm
  obtain ⟨⟨_, _, _⟩, ⟨_, _, _⟩, ⟨_, _, _⟩⟩ := hm
  exact Modes.Runs.le hm (by assumption) rfl (by repeat' first | assumption | constructor) rfl

theorem C97_upper_mat3_trace (m : M3 F32)
    (z : ℝ) (r : Modes.Runs .up false (glm_mat3_trace (m.map .inp)) z) (hm : m.NoNeg) :
    glm_mat3_trace (m.map toReal) ≤ z := by
  simp only [cglm, M3.map, V3.map] at r
  simp only [cglm, M3.map, V3.map]
  simp only [M3.NoNeg, V3.NoNeg] at hm
  obtain ⟨⟨_, _, _⟩, ⟨_, _, _⟩, ⟨_, _, _⟩⟩ := hm
  exact Modes.Runs.ge (by assumption) rfl (by repeat' first | assumption | constructor) rfl

theorem C97_lower_vec4_dot (M : Mode) (f : Bool) (a : V4 F32) (b : V4 F32)
    (z : ℝ) (r : Modes.Runs M f (glm_vec4_dot (a.map .inp) (b.map .inp)) z) (hm : M = .down ∨ M = .zero) (ha : a.NoNeg) (hb : b.NoNeg) :
    z ≤ glm_vec4_dot (a.map toReal) (b.map toReal) := by
  simp only [cglm, V4.map] at r
  simp only [cglm, V4.map]
  simp only [V4.NoNeg] at ha hb
  obtain ⟨_, _, _, _⟩ := ha
  obtain ⟨_, _, _, _⟩ := hb
  exact Modes.Runs.le hm (by assumption) rfl (by repeat' first | assumption | constructor) rfl

theorem C97_upper_vec4_dot (a : V4 F32) (b : V4 F32)
    (z : ℝ) (r : Modes.Runs .up false (glm_vec4_dot (a.map .inp) (b.map .inp)) z) (ha : a.NoNeg) (hb : b.NoNeg) :
    glm_vec4_dot (a.map toReal) (b.map toReal) ≤ z := by
  simp only [cglm, V4.map] at r
  simp only [cglm, V4.map]
  simp only [V4.NoNeg] at ha hb
  obtain ⟨_, _, _, _⟩ := ha
  obtain ⟨_, _, _, _⟩ := hb
  exact Modes.Runs.ge (by assumption) rfl (by repeat' first | assumption | constructor) rfl

theorem C97_lower_vec4_norm2 (M : Mode) (f : Bool) (v : V4 F32)
    (z : ℝ) (r : Modes.Runs M f (glm_vec4_norm2 (v.map .inp)) z) (hm : M = .down ∨ M = .zero) (hv : v.NoNeg) :
    z ≤ glm_vec4_norm2 (v.map toReal) := by
  simp only [cglm, V4.map] at r
  simp only [cglm, V4.map]
  simp only [V4.NoNeg] at hv
  obtain ⟨_, _, _, _⟩ := hv
  exact Modes.Runs.le hm (by assumption) rfl (by repeat' first | assumption | constructor) rfl

theorem C97_upper_vec4_norm2 (v : V4 F32)
    (z : ℝ) (r : Modes.Runs .up false (glm_vec4_norm2 (v.map .inp)) z) (hv : v.NoNeg) :
    glm_vec4_norm2 (v.map toReal) ≤ z := by
  simp only [cglm, V4.map] at r
  simp only [cglm, V4.map]
  simp only [V4.NoNeg] at hv
  obtain ⟨_, _, _, _⟩ := hv
  exact Modes.Runs.ge (by assumption) rfl (by repeat' first | assumption | constructor) rfl

theorem C97_lower_vec4_muladd (M : Mode) (f : Bool) (a : V4 F32) (b : V4 F32) (c : V4 F32)
    (z : V4 ℝ) (r : V4.Runs M f (glm_vec4_muladd (a.map .inp) (b.map .inp) (c.map .inp)) z) (hm : M = .down ∨ M = .zero) (ha : a.NoNeg) (hb : b.NoNeg) (hc : c.NoNeg) :
    z.LeR (glm_vec4_muladd (a.map toReal) (b.map toReal) (c.map toReal)) := by
  simp only [cglm, V4.map, V4.Runs] at r
  simp only [cglm, V4.map, V4.LeR]
  simp only [V4.NoNeg] at ha hb hc
  obtain ⟨_, _, _, _⟩ := ha
  obtain ⟨_, _, _, _⟩ := hb
  obtain ⟨_, _, _, _⟩ := hc
  obtain ⟨_, _, _, _⟩ := r
  refine ⟨?_, ?_, ?_, ?_⟩ <;> exact Modes.Runs.le hm (by assumption) rfl (by repeat' first | assumption | constructor) rfl

theorem C97_upper_vec4_muladd (a : V4 F32) (b : V4 F32) (c : V4 F32)
    (z : V4 ℝ) (r : V4.Runs .up false (glm_vec4_muladd (a.map .inp) (b.map .inp) (c.map .inp)) z) (ha : a.NoNeg) (hb : b.NoNeg) (hc : c.NoNeg) :
    (glm_vec4_muladd (a.map toReal) (b.map toReal) (c.map toReal)).LeR z := by
  simp only [cglm, V4.map, V4.Runs] at r
  simp only [cglm, V4.map, V4.LeR]
  simp only [V4.NoNeg] at ha hb hc
  obtain ⟨_, _, _, _⟩ := ha
  obtain ⟨_, _, _, _⟩ := hb
  obtain ⟨_, _, _, _⟩ := hc
  obtain ⟨_, _, _, _⟩ := r
  refine ⟨?_, ?_, ?_, ?_⟩ <;> exact Modes.Runs.ge (by assumption) rfl (by repeat' first | assumption | constructor) rfl

theorem C97_lower_vec4_muladds (M : Mode) (f : Bool) (a : V4 F32) (s : F32) (c : V4 F32)
    (z : V4 ℝ) (r : V4.Runs M f (glm_vec4_muladds (a.map .inp) (.inp s) (c.map .inp)) z) (hm : M = .down ∨ M = .zero) (ha : a.NoNeg) (hs : 0 ≤ s.toReal) (hc : c.NoNeg) :
    z.LeR (glm_vec4_muladds (a.map toReal) (toReal s) (c.map toReal)) := by
  simp only [cglm, V4.map, V4.Runs] at r
  simp only [cglm, V4.map, V4.LeR]
  simp only [V4.NoNeg] at ha hc
  obtain ⟨_, _, _, _⟩ := ha
  obtain ⟨_, _, _, _⟩ := hc
  obtain ⟨_, _, _, _⟩ := r
  refine ⟨?_, ?_, ?_, ?_⟩ <;> exact Modes.Runs.le hm (by assumption) rfl (by repeat' first | assumption | constructor) rfl

theorem C97_upper_vec4_muladds (a : V4 F32) (s : F32) (c : V4 F32)
    (z : V4 ℝ) (r : V4.Runs .up false (glm_vec4_muladds (a.map .inp) (.inp s) (c.map .inp)) z) (ha : a.NoNeg) (hs : 0 ≤ s.toReal) (hc : c.NoNeg) :
    (glm_vec4_muladds (a.map toReal) (toReal s) (c.map toReal)).LeR z := by
  simp only [cglm, V4.map, V4.Runs] at r
  simp only [cglm, V4.map, V4.LeR]
  simp only [V4.NoNeg] at ha hc
  obtain ⟨_, _, _, _⟩ := ha
  obtain ⟨_, _, _, _⟩ := hc
  obtain ⟨_, _, _, _⟩ := r
  refine ⟨?_, ?_, ?_, ?_⟩ <;> exact Modes.Runs.ge (by assumption) rfl (by repeat' first | assumption | constructor) rfl

theorem C97_lower_vec4_addadd (M : Mode) (f : Bool) (a : V4 F32) (b : V4 F32) (c : V4 F32)
    (z : V4 ℝ) (r : V4.Runs M f (glm_vec4_addadd (a.map .inp) (b.map .inp) (c.map .inp)) z) (hm : M = .down ∨ M = .zero) (ha : a.NoNeg) (hb : b.NoNeg) (hc : c.NoNeg) :
    z.LeR (glm_vec4_addadd (a.map toReal) (b.map toReal) (c.map toReal)) := by
  simp only [cglm, V4.map, V4.Runs] at r
  simp only [cglm, V4.map, V4.LeR]
  simp only [V4.NoNeg] at ha hb hc
  obtain ⟨_, _, _, _⟩ := ha
  obtain ⟨_, _, _, _⟩ := hb
  obtain ⟨_, _, _, _⟩ := hc
  obtain ⟨_, _, _, _⟩ := r
  refine ⟨?_, ?_, ?_, ?_⟩ <;> exact Modes.Runs.le hm (by assumption) rfl (by repeat' first | assumption | constructor) rfl

theorem C97_upper_vec4_addadd (a : V4 F32) (b : V4 F32) (c : V4 F32)
    (z : V4 ℝ) (r : V4.Runs .up false (glm_vec4_addadd (a.map .inp) (b.map .inp) (c.map .inp)) z) (ha : a.NoNeg) (hb : b.NoNeg) (hc : c.NoNeg) :
    (glm_vec4_addadd (a.map toReal) (b.map toReal) (c.map toReal)).LeR z := by
  simp only [cglm, V4.map, V4.Runs] at r
  simp only [cglm, V4.map, V4.LeR]
  simp only [V4.NoNeg] at ha hb hc
  obtain ⟨_, _, _, _⟩ := ha
  obtain ⟨_, _, _, _⟩ := hb
  obtain ⟨_, _, _, _⟩ := hc
  obtain ⟨_, _, _, _⟩ := r
  refine ⟨?_, ?_, ?_, ?_⟩ <;> exact Modes.Runs.ge (by assumption) rfl (by repeat' first | assumption | constructor) rfl

theorem C97_lower_mat4_mulv (M : Mode) (f : Bool) (m : M4 F32) (v : V4 F32)
    (z : V4 ℝ) (r : V4.Runs M f (glm_mat4_mulv (m.map .inp) (v.map .inp)) z) (hm : M = .down ∨ M = .zero) (hm : m.NoNeg) (hv : v.NoNeg) :
    z.LeR (glm_mat4_mulv (m.map toReal) (v.map toReal)) := by
  simp only [cglm, M4.map, V4.map, V4.Runs] at r
  simp only [cglm, M4.map, V4.map, V4.LeR]
  simp only [M4.NoNeg, V4.NoNeg] at hm hv
  obtain ⟨⟨_, _, _, _⟩, ⟨_, _, _, _⟩, ⟨_, _, _, _⟩, ⟨_, _, _, _⟩⟩ := hm
  obtain ⟨_, _, _, _⟩ := hv
  obtain ⟨_, _, _, _⟩ := r
  refine ⟨?_, ?_, ?_, ?_⟩ <;> exact Modes.Runs.le hm (by assumption) rfl (by repeat' first | assumption | constructor) rfl

theorem C97_upper_mat4_mulv (m : M4 F32) (v : V4 F32)
    (z : V4 ℝ) (r : V4.Runs .up false (glm_mat4_mulv (m.map .inp) (v.map .inp)) z) (hm : m.NoNeg) (hv : v.NoNeg) :
    (glm_mat4_mulv (m.map toReal) (v.map toReal)).LeR z := by
  simp only [cglm, M4.map, V4.map, V4.Runs] at r
  simp only [cglm, M4.map, V4.map, V4.LeR]
  simp only [M4.NoNeg, V4.NoNeg] at hm hv
  obtain ⟨⟨_, _, _, _⟩, ⟨_, _, _, _⟩, ⟨_, _, _, _⟩, ⟨_, _, _, _⟩⟩ := hm
  obtain ⟨_, _, _, _⟩ := hv
  obtain ⟨_, _, _, _⟩ := r
  refine ⟨?_, ?_, ?_, ?_⟩ <;> exact Modes.Runs.ge (by assumption) rfl (by repeat' first | assumption | constructor) rfl

theorem C97_lower_mat4_mul (M : Mode) (f : Bool) (a : M4 F32) (b : M4 F32)
    (z : M4 ℝ) (r : M4.Runs M f (glm_mat4_mul (a.map .inp) (b.map .inp)) z) (hm : M = .down ∨ M = .zero) (ha : a.NoNeg) (hb : b.NoNeg) :
    z.LeR (glm_mat4_mul (a.map toReal) (b.map toReal)) := by
  simp only [cglm, M4.map, V4.map, M4.Runs, V4.Runs] at r
  simp only [cglm, M4.map, V4.map, M4.LeR, V4.LeR]
  simp only [M4.NoNeg, V4.NoNeg] at ha hb
  obtain ⟨⟨_, _, _, _⟩, ⟨_, _, _, _⟩, ⟨_, _, _, _⟩, ⟨_, _, _, _⟩⟩ := ha
  obtain ⟨⟨_, _, _, _⟩, ⟨_, _, _, _⟩, ⟨_, _, _, _⟩, ⟨_, _, _, _⟩⟩ := hb
  obtain ⟨⟨_, _, _, _⟩, ⟨_, _, _, _⟩, ⟨_, _, _, _⟩, ⟨_, _, _, _⟩⟩ := r
  refine ⟨⟨?_, ?_, ?_, ?_⟩, ⟨?_, ?_, ?_, ?_⟩, ⟨?_, ?_, ?_, ?_⟩, ⟨?_, ?_, ?_, ?_⟩⟩ <;> exact Modes.Runs.le hm (by assumption) rfl (by repeat' first | assumption | constructor) rfl

theorem C97_upper_mat4_mul (a : M4 F32) (b : M4 F32)
    (z : M4 ℝ) (r : M4.Runs .up false (glm_mat4_mul (a.map .inp) (b.map .inp)) z) (ha : a.NoNeg) (hb : b.NoNeg) :
    (glm_mat4_mul (a.map toReal) (b.map toReal)).LeR z := by
  simp only [cglm, M4.map, V4.map, M4.Runs, V4.Runs] at r
  simp only [cglm, M4.map, V4.map, M4.LeR, V4.LeR]
  simp only [M4.NoNeg, V4.NoNeg] at ha hb
  obtain ⟨⟨_, _, _, _⟩, ⟨_, _, _, _⟩, ⟨_, _, _, _⟩, ⟨_, _, _, _⟩⟩ := ha
  obtain ⟨⟨_, _, _, _⟩, ⟨_, _, _, _⟩, ⟨_, _, _, _⟩, ⟨_, _, _, _⟩⟩ := hb
  obtain ⟨⟨_, _, _, _⟩, ⟨_, _, _, _⟩, ⟨_, _, _, _⟩, ⟨_, _, _, _⟩⟩ := r
  refine ⟨⟨?_, ?_, ?_, ?_⟩, ⟨?_, ?_, ?_, ?_⟩, ⟨?_, ?_, ?_, ?_⟩, ⟨?_, ?_, ?_, ?_⟩⟩ <;> exact Modes.Runs.ge (by assumption) rfl (by repeat' first | assumption | constructor) rfl

theorem C97_lower_mat4_trace (M : Mode) (f : Bool) (m : M4 F32)
    (z : ℝ) (r : Modes.Runs M f (glm_mat4_trace (m.map .inp)) z) (hm : M = .down ∨ M = .zero) (hm : m.NoNeg) :
    z ≤ glm_mat4_trace (m.map toReal) := by
  simp only [cglm, M4.map, V4.map] at r
  simp only [cglm, M4.map, V4.map]
  simp only [M4.NoNeg, V4.NoNeg] at hm
  obtain ⟨⟨_, _, _, _⟩, ⟨_, _, _, _⟩, ⟨_, _, _, _⟩, ⟨_, _, _, _⟩⟩ := hm
  exact Modes.Runs.le hm (by assumption) rfl (by repeat' first | assumption | constructor) rfl

theorem C97_upper_mat4_trace (m : M4 F32)
    (z : ℝ) (r : Modes.Runs .up false (glm_mat4_trace (m.map .inp)) z) (hm : m.NoNeg) :
    glm_mat4_trace (m.map toReal) ≤ z := by
  simp only [cglm, M4.map, V4.map] at r
  simp only [cglm, M4.map, V4.map]
  simp only [M4.NoNeg, V4.NoNeg] at hm
  obtain ⟨⟨_, _, _, _⟩, ⟨_, _, _, _⟩, ⟨_, _, _, _⟩, ⟨_, _, _, _⟩⟩ := hm
  exact Modes.Runs.ge (by assumption) rfl (by repeat' first | assumption | constructor) rfl

theorem C97_lower_quat_dot (M : Mode) (f : Bool) (p : V4 F32) (q : V4 F32)
    (z : ℝ) (r : Modes.Runs M f (glm_quat_dot (p.map .inp) (q.map .inp)) z) (hm : M = .down ∨ M = .zero) (hp : p.NoNeg) (hq : q.NoNeg) :
    z ≤ glm_quat_dot (p.map toReal) (q.map toReal) := by
  simp only [cglm, V4.map] at r
  simp only [cglm, V4.map]
  simp only [V4.NoNeg] at hp hq
  obtain ⟨_, _, _, _⟩ := hp
  obtain ⟨_, _, _, _⟩ := hq
  exact Modes.Runs.le hm (by assumption) rfl (by repeat' first | assumption | constructor) rfl

theorem C97_upper_quat_dot (p : V4 F32) (q : V4 F32)
    (z : ℝ) (r : Modes.Runs .up false (glm_quat_dot (p.map .inp) (q.map .inp)) z) (hp : p.NoNeg) (hq : q.NoNeg) :
    glm_quat_dot (p.map toReal) (q.map toReal) ≤ z := by
  simp only [cglm, V4.map] at r
  simp only [cglm, V4.map]
  simp only [V4.NoNeg] at hp hq
  obtain ⟨_, _, _, _⟩ := hp
  obtain ⟨_, _, _, _⟩ := hq
  exact Modes.Runs.ge (by assumption) rfl (by repeat' first | assumption | constructor) rfl

theorem C97_lower_mat2x3_mulv (M : Mode) (f : Bool) (m : M2x3 F32) (v : V2 F32)
    (z : V3 ℝ) (r : V3.Runs M f (glm_mat2x3_mulv (m.map .inp) (v.map .inp)) z) (hm : M = .down ∨ M = .zero) (hm : m.NoNeg) (hv : v.NoNeg) :
    z.LeR (glm_mat2x3_mulv (m.map toReal) (v.map toReal)) := by
  simp only [cglm, M2x3.map, V2.map, V3.map, V3.Runs] at r
  simp only [cglm, M2x3.map, V2.map, V3.map, V3.LeR]
  simp only [M2x3.NoNeg, V2.NoNeg, V3.NoNeg] at hm hv
  obtain ⟨⟨_, _, _⟩, ⟨_, _, _⟩⟩ := hm
  obtain ⟨_, _⟩ := hv
  obtain ⟨_, _, _⟩ := r
  refine ⟨?_, ?_, ?_⟩ <;> exact Modes.Runs.le hm (by assumption) rfl (by repeat' first | assumption | constructor) rfl

theorem C97_upper_mat2x3_mulv (m : M2x3 F32) (v : V2 F32)
    (z : V3 ℝ) (r : V3.Runs .up false (glm_mat2x3_mulv (m.map .inp) (v.map .inp)) z) (hm : m.NoNeg) (hv : v.NoNeg) :
    (glm_mat2x3_mulv (m.map toReal) (v.map toReal)).LeR z := by
  simp only [cglm, M2x3.map, V2.map, V3.map, V3.Runs] at r
  simp only [cglm, M2x3.map, V2.map, V3.map, V3.LeR]
  simp only [M2x3.NoNeg, V2.NoNeg, V3.NoNeg] at hm hv
  obtain ⟨⟨_, _, _⟩, ⟨_, _, _⟩⟩ := hm
  obtain ⟨_, _⟩ := hv
  obtain ⟨_, _, _⟩ := r
  refine ⟨?_, ?_, ?_⟩ <;> exact Modes.Runs.ge (by assumption) rfl (by repeat' first | assumption | constructor) rfl

theorem C97_lower_mat2x4_mulv (M : Mode) (f : Bool) (m : M2x4 F32) (v : V2 F32)
    (z : V4 ℝ) (r : V4.Runs M f (glm_mat2x4_mulv (m.map .inp) (v.map .inp)) z) (hm : M = .down ∨ M = .zero) (hm : m.NoNeg) (hv : v.NoNeg) :
    z.LeR (glm_mat2x4_mulv (m.map toReal) (v.map toReal)) := by
  simp only [cglm, M2x4.map, V2.map, V4.map, V4.Runs] at r
  simp only [cglm, M2x4.map, V2.map, V4.map, V4.LeR]
  simp only [M2x4.NoNeg, V2.NoNeg, V4.NoNeg] at hm hv
  obtain ⟨⟨_, _, _, _⟩, ⟨_, _, _, _⟩⟩ := hm
  obtain ⟨_, _⟩ := hv
  obtain ⟨_, _, _, _⟩ := r
  refine ⟨?_, ?_, ?_, ?_⟩ <;> exact Modes.Runs.le hm (by assumption) rfl (by repeat' first | assumption | constructor) rfl

theorem C97_upper_mat2x4_mulv (m : M2x4 F32) (v : V2 F32)
    (z : V4 ℝ) (r : V4.Runs .up false (glm_mat2x4_mulv (m.map .inp) (v.map .inp)) z) (hm : m.NoNeg) (hv : v.NoNeg) :
    (glm_mat2x4_mulv (m.map toReal) (v.map toReal)).LeR z := by
  simp only [cglm, M2x4.map, V2.map, V4.map, V4.Runs] at r
  simp only [cglm, M2x4.map, V2.map, V4.map, V4.LeR]
  simp only [M2x4.NoNeg, V2.NoNeg, V4.NoNeg] at hm hv
  obtain ⟨⟨_, _, _, _⟩, ⟨_, _, _, _⟩⟩ := hm
  obtain ⟨_, _⟩ := hv
  obtain ⟨_, _, _, _⟩ := r
  refine ⟨?_, ?_, ?_, ?_⟩ <;> exact Modes.Runs.ge (by assumption) rfl (by repeat' first | assumption | constructor) rfl

theorem C97_lower_mat3x2_mulv (M : Mode) (f : Bool) (m : M3x2 F32) (v : V3 F32)
    (z : V2 ℝ) (r : V2.Runs M f (glm_mat3x2_mulv (m.map .inp) (v.map .inp)) z) (hm : M = .down ∨ M = .zero) (hm : m.NoNeg) (hv : v.NoNeg) :
    z.LeR (glm_mat3x2_mulv (m.map toReal) (v.map toReal)) := by
  simp only [cglm, M3x2.map, V2.map, V3.map, V2.Runs] at r
  simp only [cglm, M3x2.map, V2.map, V3.map, V2.LeR]
  simp only [M3x2.NoNeg, V2.NoNeg, V3.NoNeg] at hm hv
  obtain ⟨⟨_, _⟩, ⟨_, _⟩, ⟨_, _⟩⟩ := hm
  obtain ⟨_, _, _⟩ := hv
  obtain ⟨_, _⟩ := r
  refine ⟨?_, ?_⟩ <;> exact Modes.Runs.le hm (by assumption) rfl (by repeat' first | assumption | constructor) rfl

theorem C97_upper_mat3x2_mulv (m : M3x2 F32) (v : V3 F32)
    (z : V2 ℝ) (r : V2.Runs .up false (glm_mat3x2_mulv (m.map .inp) (v.map .inp)) z) (hm : m.NoNeg) (hv : v.NoNeg) :
    (glm_mat3x2_mulv (m.map toReal) (v.map toReal)).LeR z := by
  simp only [cglm, M3x2.map, V2.map, V3.map, V2.Runs] at r
  simp only [cglm, M3x2.map, V2.map, V3.map, V2.LeR]
  simp only [M3x2.NoNeg, V2.NoNeg, V3.NoNeg] at hm hv
  obtain ⟨⟨_, _⟩, ⟨_, _⟩, ⟨_, _⟩⟩ := hm
  obtain ⟨_, _, _⟩ := hv
  obtain ⟨_, _⟩ := r
  refine ⟨?_, ?_⟩ <;> exact Modes.Runs.ge (by assumption) rfl (by repeat' first | assumption | constructor) rfl

theorem C97_lower_mat3x4_mulv (M : Mode) (f : Bool) (m : M3x4 F32) (v : V3 F32)
    (z : V4 ℝ) (r : V4.Runs M f (glm_mat3x4_mulv (m.map .inp) (v.map .inp)) z) (hm : M = .down ∨ M = .zero) (hm : m.NoNeg) (hv : v.NoNeg) :
    z.LeR (glm_mat3x4_mulv (m.map toReal) (v.map toReal)) := by
  simp only [cglm, M3x4.map, V3.map, V4.map, V4.Runs] at r
  simp only [cglm, M3x4.map, V3.map, V4.map, V4.LeR]
  simp only [M3x4.NoNeg, V3.NoNeg, V4.NoNeg] at hm hv
  obtain ⟨⟨_, _, _, _⟩, ⟨_, _, _, _⟩, ⟨_, _, _, _⟩⟩ := hm
  obtain ⟨_, _, _⟩ := hv
  obtain ⟨_, _, _, _⟩ := r
  refine ⟨?_, ?_, ?_, ?_⟩ <;> exact Modes.Runs.le hm (by assumption) rfl (by repeat' first | assumption | constructor) rfl

theorem C97_upper_mat3x4_mulv (m : M3x4 F32) (v : V3 F32)
    (z : V4 ℝ) (r : V4.Runs .up false (glm_mat3x4_mulv (m.map .inp) (v.map .inp)) z) (hm : m.NoNeg) (hv : v.NoNeg) :
    (glm_mat3x4_mulv (m.map toReal) (v.map toReal)).LeR z := by
  simp only [cglm, M3x4.map, V3.map, V4.map, V4.Runs] at r
  simp only [cglm, M3x4.map, V3.map, V4.map, V4.LeR]
  simp only [M3x4.NoNeg, V3.NoNeg, V4.NoNeg] at hm hv
  obtain ⟨⟨_, _, _, _⟩, ⟨_, _, _, _⟩, ⟨_, _, _, _⟩⟩ := hm
  obtain ⟨_, _, _⟩ := hv
  obtain ⟨_, _, _, _⟩ := r
  refine ⟨?_, ?_, ?_, ?_⟩ <;> exact Modes.Runs.ge (by assumption) rfl (by repeat' first | assumption | constructor) rfl

theorem C97_lower_mat4x2_mulv (M : Mode) (f : Bool) (m : M4x2 F32) (v : V4 F32)
    (z : V2 ℝ) (r : V2.Runs M f (glm_mat4x2_mulv (m.map .inp) (v.map .inp)) z) (hm : M = .down ∨ M = .zero) (hm : m.NoNeg) (hv : v.NoNeg) :
    z.LeR (glm_mat4x2_mulv (m.map toReal) (v.map toReal)) := by
  simp only [cglm, M4x2.map, V2.map, V4.map, V2.Runs] at r
  simp only [cglm, M4x2.map, V2.map, V4.map, V2.LeR]
  simp only [M4x2.NoNeg, V2.NoNeg, V4.NoNeg] at hm hv
  obtain ⟨⟨_, _⟩, ⟨_, _⟩, ⟨_, _⟩, ⟨_, _⟩⟩ := hm
  obtain ⟨_, _, _, _⟩ := hv
  obtain ⟨_, _⟩ := r
  refine ⟨?_, ?_⟩ <;> exact Modes.Runs.le hm (by assumption) rfl (by repeat' first | assumption | constructor) rfl

theorem C97_upper_mat4x2_mulv (m : M4x2 F32) (v : V4 F32)
    (z : V2 ℝ) (r : V2.Runs .up false (glm_mat4x2_mulv (m.map .inp) (v.map .inp)) z) (hm : m.NoNeg) (hv : v.NoNeg) :
    (glm_mat4x2_mulv (m.map toReal) (v.map toReal)).LeR z := by
  simp only [cglm, M4x2.map, V2.map, V4.map, V2.Runs] at r
  simp only [cglm, M4x2.map, V2.map, V4.map, V2.LeR]
  simp only [M4x2.NoNeg, V2.NoNeg, V4.NoNeg] at hm hv
  obtain ⟨⟨_, _⟩, ⟨_, _⟩, ⟨_, _⟩, ⟨_, _⟩⟩ := hm
  obtain ⟨_, _, _, _⟩ := hv
  obtain ⟨_, _⟩ := r
  refine ⟨?_, ?_⟩ <;> exact Modes.Runs.ge (by assumption) rfl (by repeat' first | assumption | constructor) rfl

theorem C97_lower_mat4x3_mulv (M : Mode) (f : Bool) (m : M4x3 F32) (v : V4 F32)
    (z : V3 ℝ) (r : V3.Runs M f (glm_mat4x3_mulv (m.map .inp) (v.map .inp)) z) (hm : M = .down ∨ M = .zero) (hm : m.NoNeg) (hv : v.NoNeg) :
    z.LeR (glm_mat4x3_mulv (m.map toReal) (v.map toReal)) := by
  simp only [cglm, M4x3.map, V3.map, V4.map, V3.Runs] at r
  simp only [cglm, M4x3.map, V3.map, V4.map, V3.LeR]
  simp only [M4x3.NoNeg, V3.NoNeg, V4.NoNeg] at hm hv
  obtain ⟨⟨_, _, _⟩, ⟨_, _, _⟩, ⟨_, _, _⟩, ⟨_, _, _⟩⟩ := hm
  obtain ⟨_, _, _, _⟩ := hv
  obtain ⟨_, _, _⟩ := r
  refine ⟨?_, ?_, ?_⟩ <;> exact Modes.Runs.le hm (by assumption) rfl (by repeat' first | assumption | constructor) rfl

theorem C97_upper_mat4x3_mulv (m : M4x3 F32) (v : V4 F32)
    (z : V3 ℝ) (r : V3.Runs .up false (glm_mat4x3_mulv (m.map .inp) (v.map .inp)) z) (hm : m.NoNeg) (hv : v.NoNeg) :
    (glm_mat4x3_mulv (m.map toReal) (v.map toReal)).LeR z := by
  simp only [cglm, M4x3.map, V3.map, V4.map, V3.Runs] at r
  simp only [cglm, M4x3.map, V3.map, V4.map, V3.LeR]
  simp only [M4x3.NoNeg, V3.NoNeg, V4.NoNeg] at hm hv
  obtain ⟨⟨_, _, _⟩, ⟨_, _, _⟩, ⟨_, _, _⟩, ⟨_, _, _⟩⟩ := hm
  obtain ⟨_, _, _, _⟩ := hv
  obtain ⟨_, _, _⟩ := r
  refine ⟨?_, ?_, ?_⟩ <;> exact Modes.Runs.ge (by assumption) rfl (by repeat' first | assumption | constructor) rfl

theorem C97_lower_mat2x3_mul (M : Mode) (f : Bool) (a : M2x3 F32) (b : M3x2 F32)
    (z : M3 ℝ) (r : M3.Runs M f (glm_mat2x3_mul (a.map .inp) (b.map .inp)) z) (hm : M = .down ∨ M = .zero) (ha : a.NoNeg) (hb : b.NoNeg) :
    z.LeR (glm_mat2x3_mul (a.map toReal) (b.map toReal)) := by
  simp only [cglm, M2x3.map, M3.map, M3x2.map, V2.map, V3.map, M3.Runs, V3.Runs] at r
  simp only [cglm, M2x3.map, M3.map, M3x2.map, V2.map, V3.map, M3.LeR, V3.LeR]
  simp only [M2x3.NoNeg, M3x2.NoNeg, V2.NoNeg, V3.NoNeg] at ha hb
  obtain ⟨⟨_, _, _⟩, ⟨_, _, _⟩⟩ := ha
  obtain ⟨⟨_, _⟩, ⟨_, _⟩, ⟨_, _⟩⟩ := hb
  obtain ⟨⟨_, _, _⟩, ⟨_, _, _⟩, ⟨_, _, _⟩⟩ := r
  refine ⟨⟨?_, ?_, ?_⟩, ⟨?_, ?_, ?_⟩, ⟨?_, ?_, ?_⟩⟩ <;> exact Modes.Runs.le hm (by assumption) rfl (by repeat' first | assumption | constructor) rfl

theorem C97_upper_mat2x3_mul (a : M2x3 F32) (b : M3x2 F32)
    (z : M3 ℝ) (r : M3.Runs .up false (glm_mat2x3_mul (a.map .inp) (b.map .inp)) z) (ha : a.NoNeg) (hb : b.NoNeg) :
    (glm_mat2x3_mul (a.map toReal) (b.map toReal)).LeR z := by
  simp only [cglm, M2x3.map, M3.map, M3x2.map, V2.map, V3.map, M3.Runs, V3.Runs] at r
  simp only [cglm, M2x3.map, M3.map, M3x2.map, V2.map, V3.map, M3.LeR, V3.LeR]
  simp only [M2x3.NoNeg, M3x2.NoNeg, V2.NoNeg, V3.NoNeg] at ha hb
  obtain ⟨⟨_, _, _⟩, ⟨_, _, _⟩⟩ := ha
  obtain ⟨⟨_, _⟩, ⟨_, _⟩, ⟨_, _⟩⟩ := hb
  obtain ⟨⟨_, _, _⟩, ⟨_, _, _⟩, ⟨_, _, _⟩⟩ := r
  refine ⟨⟨?_, ?_, ?_⟩, ⟨?_, ?_, ?_⟩, ⟨?_, ?_, ?_⟩⟩ <;> exact Modes.Runs.ge (by assumption) rfl (by repeat' first | assumption | constructor) rfl

theorem C97_lower_mat2x4_mul (M : Mode) (f : Bool) (a : M2x4 F32) (b : M4x2 F32)
    (z : M4 ℝ) (r : M4.Runs M f (glm_mat2x4_mul (a.map .inp) (b.map .inp)) z) (hm : M = .down ∨ M = .zero) (ha : a.NoNeg) (hb : b.NoNeg) :
    z.LeR (glm_mat2x4_mul (a.map toReal) (b.map toReal)) := by
  simp only [cglm, M2x4.map, M4.map, M4x2.map, V2.map, V4.map, M4.Runs, V4.Runs] at r
  simp only [cglm, M2x4.map, M4.map, M4x2.map, V2.map, V4.map, M4.LeR, V4.LeR]
  simp only [M2x4.NoNeg, M4x2.NoNeg, V2.NoNeg, V4.NoNeg] at ha hb
  obtain ⟨⟨_, _, _, _⟩, ⟨_, _, _, _⟩⟩ := ha
  obtain ⟨⟨_, _⟩, ⟨_, _⟩, ⟨_, _⟩, ⟨_, _⟩⟩ := hb
  obtain ⟨⟨_, _, _, _⟩, ⟨_, _, _, _⟩, ⟨_, _, _, _⟩, ⟨_, _, _, _⟩⟩ := r
  refine ⟨⟨?_, ?_, ?_, ?_⟩, ⟨?_, ?_, ?_, ?_⟩, ⟨?_, ?_, ?_, ?_⟩, ⟨?_, ?_, ?_, ?_⟩⟩ <;> exact Modes.Runs.le hm (by assumption) rfl (by repeat' first | assumption | constructor) rfl

theorem C97_upper_mat2x4_mul (a : M2x4 F32) (b : M4x2 F32)
    (z : M4 ℝ) (r : M4.Runs .up false (glm_mat2x4_mul (a.map .inp) (b.map .inp)) z) (ha : a.NoNeg) (hb : b.NoNeg) :
    (glm_mat2x4_mul (a.map toReal) (b.map toReal)).LeR z := by
  simp only [cglm, M2x4.map, M4.map, M4x2.map, V2.map, V4.map, M4.Runs, V4.Runs] at r
  simp only [cglm, M2x4.map, M4.map, M4x2.map, V2.map, V4.map, M4.LeR, V4.LeR]
  simp only [M2x4.NoNeg, M4x2.NoNeg, V2.NoNeg, V4.NoNeg] at ha hb
  obtain ⟨⟨_, _, _, _⟩, ⟨_, _, _, _⟩⟩ := ha
  obtain ⟨⟨_, _⟩, ⟨_, _⟩, ⟨_, _⟩, ⟨_, _⟩⟩ := hb
  obtain ⟨⟨_, _, _, _⟩, ⟨_, _, _, _⟩, ⟨_, _, _, _⟩, ⟨_, _, _, _⟩⟩ := r
  refine ⟨⟨?_, ?_, ?_, ?_⟩, ⟨?_, ?_, ?_, ?_⟩, ⟨?_, ?_, ?_, ?_⟩, ⟨?_, ?_, ?_, ?_⟩⟩ <;> exact Modes.Runs.ge (by assumption) rfl (by repeat' first | assumption | constructor) rfl

theorem C97_lower_mat3x2_mul (M : Mode) (f : Bool) (a : M3x2 F32) (b : M2x3 F32)
    (z : M2 ℝ) (r : M2.Runs M f (glm_mat3x2_mul (a.map .inp) (b.map .inp)) z) (hm : M = .down ∨ M = .zero) (ha : a.NoNeg) (hb : b.NoNeg) :
    z.LeR (glm_mat3x2_mul (a.map toReal) (b.map toReal)) := by
  simp only [cglm, M2.map, M2x3.map, M3x2.map, V2.map, V3.map, M2.Runs, V2.Runs] at r
  simp only [cglm, M2.map, M2x3.map, M3x2.map, V2.map, V3.map, M2.LeR, V2.LeR]
  simp only [M2x3.NoNeg, M3x2.NoNeg, V2.NoNeg, V3.NoNeg] at ha hb
  obtain ⟨⟨_, _⟩, ⟨_, _⟩, ⟨_, _⟩⟩ := ha
  obtain ⟨⟨_, _, _⟩, ⟨_, _, _⟩⟩ := hb
  obtain ⟨⟨_, _⟩, ⟨_, _⟩⟩ := r
  refine ⟨⟨?_, ?_⟩, ⟨?_, ?_⟩⟩ <;> exact Modes.Runs.le hm (by assumption) rfl (by repeat' first | assumption | constructor) rfl

theorem C97_upper_mat3x2_mul (a : M3x2 F32) (b : M2x3 F32)
    (z : M2 ℝ) (r : M2.Runs .up false (glm_mat3x2_mul (a.map .inp) (b.map .inp)) z) (ha : a.NoNeg) (hb : b.NoNeg) :
    (glm_mat3x2_mul (a.map toReal) (b.map toReal)).LeR z := by
  simp only [cglm, M2.map, M2x3.map, M3x2.map, V2.map, V3.map, M2.Runs, V2.Runs] at r
  simp only [cglm, M2.map, M2x3.map, M3x2.map, V2.map, V3.map, M2.LeR, V2.LeR]
  simp only [M2x3.NoNeg, M3x2.NoNeg, V2.NoNeg, V3.NoNeg] at ha hb
  obtain ⟨⟨_, _⟩, ⟨_, _⟩, ⟨_, _⟩⟩ := ha
  obtain ⟨⟨_, _, _⟩, ⟨_, _, _⟩⟩ := hb
  obtain ⟨⟨_, _⟩, ⟨_, _⟩⟩ := r
  refine ⟨⟨?_, ?_⟩, ⟨?_, ?_⟩⟩ <;> exact Modes.Runs.ge (by assumption) rfl (by repeat' first | assumption | constructor) rfl

theorem C97_lower_mat3x4_mul (M : Mode) (f : Bool) (a : M3x4 F32) (b : M4x3 F32)
    (z : M4 ℝ) (r : M4.Runs M f (glm_mat3x4_mul (a.map .inp) (b.map .inp)) z) (hm : M = .down ∨ M = .zero) (ha : a.NoNeg) (hb : b.NoNeg) :
    z.LeR (glm_mat3x4_mul (a.map toReal) (b.map toReal)) := by
  simp only [cglm, M3x4.map, M4.map, M4x3.map, V3.map, V4.map, M4.Runs, V4.Runs] at r
  simp only [cglm, M3x4.map, M4.map, M4x3.map, V3.map, V4.map, M4.LeR, V4.LeR]
  simp only [M3x4.NoNeg, M4x3.NoNeg, V3.NoNeg, V4.NoNeg] at ha hb
  obtain ⟨⟨_, _, _, _⟩, ⟨_, _, _, _⟩, ⟨_, _, _, _⟩⟩ := ha
  obtain ⟨⟨_, _, _⟩, ⟨_, _, _⟩, ⟨_, _, _⟩, ⟨_, _, _⟩⟩ := hb
  obtain ⟨⟨_, _, _, _⟩, ⟨_, _, _, _⟩, ⟨_, _, _, _⟩, ⟨_, _, _, _⟩⟩ := r
  refine ⟨⟨?_, ?_, ?_, ?_⟩, ⟨?_, ?_, ?_, ?_⟩, ⟨?_, ?_, ?_, ?_⟩, ⟨?_, ?_, ?_, ?_⟩⟩ <;> exact Modes.Runs.le hm (by assumption) rfl (by repeat' first | assumption | constructor) rfl

theorem C97_upper_mat3x4_mul (a : M3x4 F32) (b : M4x3 F32)
    (z : M4 ℝ) (r : M4.Runs .up false (glm_mat3x4_mul (a.map .inp) (b.map .inp)) z) (ha : a.NoNeg) (hb : b.NoNeg) :
    (glm_mat3x4_mul (a.map toReal) (b.map toReal)).LeR z := by
  simp only [cglm, M3x4.map, M4.map, M4x3.map, V3.map, V4.map, M4.Runs, V4.Runs] at r
  simp only [cglm, M3x4.map, M4.map, M4x3.map, V3.map, V4.map, M4.LeR, V4.LeR]
  simp only [M3x4.NoNeg, M4x3.NoNeg, V3.NoNeg, V4.NoNeg] at ha hb
  obtain ⟨⟨_, _, _, _⟩, ⟨_, _, _, _⟩, ⟨_, _, _, _⟩⟩ := ha
  obtain ⟨⟨_, _, _⟩, ⟨_, _, _⟩, ⟨_, _, _⟩, ⟨_, _, _⟩⟩ := hb
  obtain ⟨⟨_, _, _, _⟩, ⟨_, _, _, _⟩, ⟨_, _, _, _⟩, ⟨_, _, _, _⟩⟩ := r
  refine ⟨⟨?_, ?_, ?_, ?_⟩, ⟨?_, ?_, ?_, ?_⟩, ⟨?_, ?_, ?_, ?_⟩, ⟨?_, ?_, ?_, ?_⟩⟩ <;> exact Modes.Runs.ge (by assumption) rfl (by repeat' first | assumption | constructor) rfl

theorem C97_lower_mat4x2_mul (M : Mode) (f : Bool) (a : M4x2 F32) (b : M2x4 F32)
    (z : M2 ℝ) (r : M2.Runs M f (glm_mat4x2_mul (a.map .inp) (b.map .inp)) z) (hm : M = .down ∨ M = .zero) (ha : a.NoNeg) (hb : b.NoNeg) :
    z.LeR (glm_mat4x2_mul (a.map toReal) (b.map toReal)) := by
  simp only [cglm, M2.map, M2x4.map, M4x2.map, V2.map, V4.map, M2.Runs, V2.Runs] at r
  simp only [cglm, M2.map, M2x4.map, M4x2.map, V2.map, V4.map, M2.LeR, V2.LeR]
  simp only [M2x4.NoNeg, M4x2.NoNeg, V2.NoNeg, V4.NoNeg] at ha hb
  obtain ⟨⟨_, _⟩, ⟨_, _⟩, ⟨_, _⟩, ⟨_, _⟩⟩ := ha
  obtain ⟨⟨_, _, _, _⟩, ⟨_, _, _, _⟩⟩ := hb
  obtain ⟨⟨_, _⟩, ⟨_, _⟩⟩ := r
  refine ⟨⟨?_, ?_⟩, ⟨?_, ?_⟩⟩ <;> exact Modes.Runs.le hm (by assumption) rfl (by repeat' first | assumption | constructor) rfl

theorem C97_upper_mat4x2_mul (a : M4x2 F32) (b : M2x4 F32)
    (z : M2 ℝ) (r : M2.Runs .up false (glm_mat4x2_mul (a.map .inp) (b.map .inp)) z) (ha : a.NoNeg) (hb : b.NoNeg) :
    (glm_mat4x2_mul (a.map toReal) (b.map toReal)).LeR z := by
  simp only [cglm, M2.map, M2x4.map, M4x2.map, V2.map, V4.map, M2.Runs, V2.Runs] at r
  simp only [cglm, M2.map, M2x4.map, M4x2.map, V2.map, V4.map, M2.LeR, V2.LeR]
  simp only [M2x4.NoNeg, M4x2.NoNeg, V2.NoNeg, V4.NoNeg] at ha hb
  obtain ⟨⟨_, _⟩, ⟨_, _⟩, ⟨_, _⟩, ⟨_, _⟩⟩ := ha
  obtain ⟨⟨_, _, _, _⟩, ⟨_, _, _, _⟩⟩ := hb
  obtain ⟨⟨_, _⟩, ⟨_, _⟩⟩ := r
  refine ⟨⟨?_, ?_⟩, ⟨?_, ?_⟩⟩ <;> exact Modes.Runs.ge (by assumption) rfl (by repeat' first | assumption | constructor) rfl

theorem C97_lower_mat4x3_mul (M : Mode) (f : Bool) (a : M4x3 F32) (b : M3x4 F32)
    (z : M3 ℝ) (r : M3.Runs M f (glm_mat4x3_mul (a.map .inp) (b.map .inp)) z) (hm : M = .down ∨ M = .zero) (ha : a.NoNeg) (hb : b.NoNeg) :
    z.LeR (glm_mat4x3_mul (a.map toReal) (b.map toReal)) := by
  simp only [cglm, M3.map, M3x4.map, M4x3.map, V3.map, V4.map, M3.Runs, V3.Runs] at r
  simp only [cglm, M3.map, M3x4.map, M4x3.map, V3.map, V4.map, M3.LeR, V3.LeR]
  simp only [M3x4.NoNeg, M4x3.NoNeg, V3.NoNeg, V4.NoNeg] at ha hb
  obtain ⟨⟨_, _, _⟩, ⟨_, _, _⟩, ⟨_, _, _⟩, ⟨_, _, _⟩⟩ := ha
  obtain ⟨⟨_, _, _, _⟩, ⟨_, _, _, _⟩, ⟨_, _, _, _⟩⟩ := hb
  obtain ⟨⟨_, _, _⟩, ⟨_, _, _⟩, ⟨_, _, _⟩⟩ := r
  refine ⟨⟨?_, ?_, ?_⟩, ⟨?_, ?_, ?_⟩, ⟨?_, ?_, ?_⟩⟩ <;> exact Modes.Runs.le hm (by assumption) rfl (by repeat' first | assumption | constructor) rfl

theorem C97_upper_mat4x3_mul (a : M4x3 F32) (b : M3x4 F32)
    (z : M3 ℝ) (r : M3.Runs .up false (glm_mat4x3_mul (a.map .inp) (b.map .inp)) z) (ha : a.NoNeg) (hb : b.NoNeg) :
    (glm_mat4x3_mul (a.map toReal) (b.map toReal)).LeR z := by
  simp only [cglm, M3.map, M3x4.map, M4x3.map, V3.map, V4.map, M3.Runs, V3.Runs] at r
  simp only [cglm, M3.map, M3x4.map, M4x3.map, V3.map, V4.map, M3.LeR, V3.LeR]
  simp only [M3x4.NoNeg, M4x3.NoNeg, V3.NoNeg, V4.NoNeg] at ha hb
  obtain ⟨⟨_, _, _⟩, ⟨_, _, _⟩, ⟨_, _, _⟩, ⟨_, _, _⟩⟩ := ha
  obtain ⟨⟨_, _, _, _⟩, ⟨_, _, _, _⟩, ⟨_, _, _, _⟩⟩ := hb
  obtain ⟨⟨_, _, _⟩, ⟨_, _, _⟩, ⟨_, _, _⟩⟩ := r
  refine ⟨⟨?_, ?_, ?_⟩, ⟨?_, ?_, ?_⟩, ⟨?_, ?_, ?_⟩⟩ <;> exact Modes.Runs.ge (by assumption) rfl (by repeat' first | assumption | constructor) rfl

theorem C97_lower_mat4_mulv3 (M : Mode) (f : Bool) (m : M4 F32) (v : V3 F32) (w : F32)
    (z : V3 ℝ) (r : V3.Runs M f (glm_mat4_mulv3 (m.map .inp) (v.map .inp) (.inp w)) z) (hm : M = .down ∨ M = .zero) (hm : m.NoNeg) (hv : v.NoNeg) (hw : 0 ≤ w.toReal) :
    z.LeR (glm_mat4_mulv3 (m.map toReal) (v.map toReal) (toReal w)) := by
  simp only [cglm, M4.map, V3.map, V4.map, V3.Runs] at r
  simp only [cglm, M4.map, V3.map, V4.map, V3.LeR]
  simp only [M4.NoNeg, V3.NoNeg, V4.NoNeg] at hm hv
  obtain ⟨⟨_, _, _, _⟩, ⟨_, _, _, _⟩, ⟨_, _, _, _⟩, ⟨_, _, _, _⟩⟩ := hm
  obtain ⟨_, _, _⟩ := hv
  obtain ⟨_, _, _⟩ := r
  refine ⟨?_, ?_, ?_⟩ <;> exact Modes.Runs.le hm (by assumption) rfl (by repeat' first | assumption | constructor) rfl

theorem C97_upper_mat4_mulv3 (m : M4 F32) (v : V3 F32) (w : F32)
    (z : V3 ℝ) (r : V3.Runs .up false (glm_mat4_mulv3 (m.map .inp) (v.map .inp) (.inp w)) z) (hm : m.NoNeg) (hv : v.NoNeg) (hw : 0 ≤ w.toReal) :
    (glm_mat4_mulv3 (m.map toReal) (v.map toReal) (toReal w)).LeR z := by
  simp only [cglm, M4.map, V3.map, V4.map, V3.Runs] at r
  simp only [cglm, M4.map, V3.map, V4.map, V3.LeR]
  simp only [M4.NoNeg, V3.NoNeg, V4.NoNeg] at hm hv
  obtain ⟨⟨_, _, _, _⟩, ⟨_, _, _, _⟩, ⟨_, _, _, _⟩, ⟨_, _, _, _⟩⟩ := hm
  obtain ⟨_, _, _⟩ := hv
  obtain ⟨_, _, _⟩ := r
  refine ⟨?_, ?_, ?_⟩ <;> exact Modes.Runs.ge (by assumption) rfl (by repeat' first | assumption | constructor) rfl

theorem C97_lower_mul (M : Mode) (f : Bool) (a : M4 F32) (b : M4 F32)
    (z : M4 ℝ) (r : M4.Runs M f (glm_mul (a.map .inp) (b.map .inp)) z) (hm : M = .down ∨ M = .zero) (ha : a.NoNeg) (hb : b.NoNeg) :
    z.LeR (glm_mul (a.map toReal) (b.map toReal)) := by
  simp only [cglm, M4.map, V4.map, M4.Runs, V4.Runs] at r
  simp only [cglm, M4.map, V4.map, M4.LeR, V4.LeR]
  simp only [M4.NoNeg, V4.NoNeg] at ha hb
  obtain ⟨⟨_, _, _, _⟩, ⟨_, _, _, _⟩, ⟨_, _, _, _⟩, ⟨_, _, _, _⟩⟩ := ha
  obtain ⟨⟨_, _, _, _⟩, ⟨_, _, _, _⟩, ⟨_, _, _, _⟩, ⟨_, _, _, _⟩⟩ := hb
  obtain ⟨⟨_, _, _, _⟩, ⟨_, _, _, _⟩, ⟨_, _, _, _⟩, ⟨_, _, _, _⟩⟩ := r
  refine ⟨⟨?_, ?_, ?_, ?_⟩, ⟨?_, ?_, ?_, ?_⟩, ⟨?_, ?_, ?_, ?_⟩, ⟨?_, ?_, ?_, ?_⟩⟩ <;> exact Modes.Runs.le hm (by assumption) rfl (by repeat' first | assumption | constructor) rfl

theorem C97_upper_mul (a : M4 F32) (b : M4 F32)
    (z : M4 ℝ) (r : M4.Runs .up false (glm_mul (a.map .inp) (b.map .inp)) z) (ha : a.NoNeg) (hb : b.NoNeg) :
    (glm_mul (a.map toReal) (b.map toReal)).LeR z := by
  simp only [cglm, M4.map, V4.map, M4.Runs, V4.Runs] at r
  simp only [cglm, M4.map, V4.map, M4.LeR, V4.LeR]
  simp only [M4.NoNeg, V4.NoNeg] at ha hb
  obtain ⟨⟨_, _, _, _⟩, ⟨_, _, _, _⟩, ⟨_, _, _, _⟩, ⟨_, _, _, _⟩⟩ := ha
  obtain ⟨⟨_, _, _, _⟩, ⟨_, _, _, _⟩, ⟨_, _, _, _⟩, ⟨_, _, _, _⟩⟩ := hb
  obtain ⟨⟨_, _, _, _⟩, ⟨_, _, _, _⟩, ⟨_, _, _, _⟩, ⟨_, _, _, _⟩⟩ := r
  refine ⟨⟨?_, ?_, ?_, ?_⟩, ⟨?_, ?_, ?_, ?_⟩, ⟨?_, ?_, ?_, ?_⟩, ⟨?_, ?_, ?_, ?_⟩⟩ <;> exact Modes.Runs.ge (by assumption) rfl (by repeat' first | assumption | constructor) rfl

theorem C97_lower_mul_rot (M : Mode) (f : Bool) (a : M4 F32) (b : M4 F32)
    (z : M4 ℝ) (r : M4.Runs M f (glm_mul_rot (a.map .inp) (b.map .inp)) z) (hm : M = .down ∨ M = .zero) (ha : a.NoNeg) (hb : b.NoNeg) :
    z.LeR (glm_mul_rot (a.map toReal) (b.map toReal)) := by
  simp only [cglm, M4.map, V4.map, M4.Runs, V4.Runs] at r
  simp only [cglm, M4.map, V4.map, M4.LeR, V4.LeR]
  simp only [M4.NoNeg, V4.NoNeg] at ha hb
  obtain ⟨⟨_, _, _, _⟩, ⟨_, _, _, _⟩, ⟨_, _, _, _⟩, ⟨_, _, _, _⟩⟩ := ha
  obtain ⟨⟨_, _, _, _⟩, ⟨_, _, _, _⟩, ⟨_, _, _, _⟩, ⟨_, _, _, _⟩⟩ := hb
  obtain ⟨⟨_, _, _, _⟩, ⟨_, _, _, _⟩, ⟨_, _, _, _⟩, ⟨_, _, _, _⟩⟩ := r
  refine ⟨⟨?_, ?_, ?_, ?_⟩, ⟨?_, ?_, ?_, ?_⟩, ⟨?_, ?_, ?_, ?_⟩, ⟨?_, ?_, ?_, ?_⟩⟩ <;> exact Modes.Runs.le hm (by assumption) rfl (by repeat' first | assumption | constructor) rfl

theorem C97_upper_mul_rot (a : M4 F32) (b : M4 F32)
    (z : M4 ℝ) (r : M4.Runs .up false (glm_mul_rot (a.map .inp) (b.map .inp)) z) (ha : a.NoNeg) (hb : b.NoNeg) :
    (glm_mul_rot (a.map toReal) (b.map toReal)).LeR z := by
  simp only [cglm, M4.map, V4.map, M4.Runs, V4.Runs] at r
  simp only [cglm, M4.map, V4.map, M4.LeR, V4.LeR]
  simp only [M4.NoNeg, V4.NoNeg] at ha hb
  obtain ⟨⟨_, _, _, _⟩, ⟨_, _, _, _⟩, ⟨_, _, _, _⟩, ⟨_, _, _, _⟩⟩ := ha
  obtain ⟨⟨_, _, _, _⟩, ⟨_, _, _, _⟩, ⟨_, _, _, _⟩, ⟨_, _, _, _⟩⟩ := hb
  obtain ⟨⟨_, _, _, _⟩, ⟨_, _, _, _⟩, ⟨_, _, _, _⟩, ⟨_, _, _, _⟩⟩ := r
  refine ⟨⟨?_, ?_, ?_, ?_⟩, ⟨?_, ?_, ?_, ?_⟩, ⟨?_, ?_, ?_, ?_⟩, ⟨?_, ?_, ?_, ?_⟩⟩ <;> exact Modes.Runs.ge (by assumption) rfl (by repeat' first | assumption | constructor) rfl

theorem C97_lower_translate (M : Mode) (f : Bool) (m : M4 F32) (v : V3 F32)
    (z : M4 ℝ) (r : M4.Runs M f (glm_translate (m.map .inp) (v.map .inp)) z) (hm : M = .down ∨ M = .zero) (hm : m.NoNeg) (hv : v.NoNeg) :
    z.LeR (glm_translate (m.map toReal) (v.map toReal)) := by
  simp only [cglm, M4.map, V3.map, V4.map, M4.Runs, V4.Runs] at r
  simp only [cglm, M4.map, V3.map, V4.map, M4.LeR, V4.LeR]
  simp only [M4.NoNeg, V3.NoNeg, V4.NoNeg] at hm hv
  obtain ⟨⟨_, _, _, _⟩, ⟨_, _, _, _⟩, ⟨_, _, _, _⟩, ⟨_, _, _, _⟩⟩ := hm
  obtain ⟨_, _, _⟩ := hv
  obtain ⟨⟨_, _, _, _⟩, ⟨_, _, _, _⟩, ⟨_, _, _, _⟩, ⟨_, _, _, _⟩⟩ := r
  refine ⟨⟨?_, ?_, ?_, ?_⟩, ⟨?_, ?_, ?_, ?_⟩, ⟨?_, ?_, ?_, ?_⟩, ⟨?_, ?_, ?_, ?_⟩⟩ <;> exact Modes.Runs.le hm (by assumption) rfl (by repeat' first | assumption | constructor) rfl

theorem C97_upper_translate (m : M4 F32) (v : V3 F32)
    (z : M4 ℝ) (r : M4.Runs .up false (glm_translate (m.map .inp) (v.map .inp)) z) (hm : m.NoNeg) (hv : v.NoNeg) :
    (glm_translate (m.map toReal) (v.map toReal)).LeR z := by
  simp only [cglm, M4.map, V3.map, V4.map, M4.Runs, V4.Runs] at r
  simp only [cglm, M4.map, V3.map, V4.map, M4.LeR, V4.LeR]
  simp only [M4.NoNeg, V3.NoNeg, V4.NoNeg] at hm hv
  obtain ⟨⟨_, _, _, _⟩, ⟨_, _, _, _⟩, ⟨_, _, _, _⟩, ⟨_, _, _, _⟩⟩ := hm
  obtain ⟨_, _, _⟩ := hv
  obtain ⟨⟨_, _, _, _⟩, ⟨_, _, _, _⟩, ⟨_, _, _, _⟩, ⟨_, _, _, _⟩⟩ := r
  refine ⟨⟨?_, ?_, ?_, ?_⟩, ⟨?_, ?_, ?_, ?_⟩, ⟨?_, ?_, ?_, ?_⟩, ⟨?_, ?_, ?_, ?_⟩⟩ <;> exact Modes.Runs.ge (by assumption) rfl (by repeat' first | assumption | constructor) rfl

theorem C97_lower_scale_to (M : Mode) (f : Bool) (m : M4 F32) (v : V3 F32)
    (z : M4 ℝ) (r : M4.Runs M f (glm_scale_to (m.map .inp) (v.map .inp)) z) (hm : M = .down ∨ M = .zero) (hm : m.NoNeg) (hv : v.NoNeg) :
    z.LeR (glm_scale_to (m.map toReal) (v.map toReal)) := by
  simp only [cglm, M4.map, V3.map, V4.map, M4.Runs, V4.Runs] at r
  simp only [cglm, M4.map, V3.map, V4.map, M4.LeR, V4.LeR]
  simp only [M4.NoNeg, V3.NoNeg, V4.NoNeg] at hm hv
  obtain ⟨⟨_, _, _, _⟩, ⟨_, _, _, _⟩, ⟨_, _, _, _⟩, ⟨_, _, _, _⟩⟩ := hm
  obtain ⟨_, _, _⟩ := hv
  obtain ⟨⟨_, _, _, _⟩, ⟨_, _, _, _⟩, ⟨_, _, _, _⟩, ⟨_, _, _, _⟩⟩ := r
  refine ⟨⟨?_, ?_, ?_, ?_⟩, ⟨?_, ?_, ?_, ?_⟩, ⟨?_, ?_, ?_, ?_⟩, ⟨?_, ?_, ?_, ?_⟩⟩ <;> exact Modes.Runs.le hm (by assumption) rfl (by repeat' first | assumption | constructor) rfl

theorem C97_upper_scale_to (m : M4 F32) (v : V3 F32)
    (z : M4 ℝ) (r : M4.Runs .up false (glm_scale_to (m.map .inp) (v.map .inp)) z) (hm : m.NoNeg) (hv : v.NoNeg) :
    (glm_scale_to (m.map toReal) (v.map toReal)).LeR z := by
  simp only [cglm, M4.map, V3.map, V4.map, M4.Runs, V4.Runs] at r
  simp only [cglm, M4.map, V3.map, V4.map, M4.LeR, V4.LeR]
  simp only [M4.NoNeg, V3.NoNeg, V4.NoNeg] at hm hv
  obtain ⟨⟨_, _, _, _⟩, ⟨_, _, _, _⟩, ⟨_, _, _, _⟩, ⟨_, _, _, _⟩⟩ := hm
  obtain ⟨_, _, _⟩ := hv
  obtain ⟨⟨_, _, _, _⟩, ⟨_, _, _, _⟩, ⟨_, _, _, _⟩, ⟨_, _, _, _⟩⟩ := r
  refine ⟨⟨?_, ?_, ?_, ?_⟩, ⟨?_, ?_, ?_, ?_⟩, ⟨?_, ?_, ?_, ?_⟩, ⟨?_, ?_, ?_, ?_⟩⟩ <;> exact Modes.Runs.ge (by assumption) rfl (by repeat' first | assumption | constructor) rfl

end Cglm
