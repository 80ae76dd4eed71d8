import Verif.Modes
import Verif.Gen
/-!
# C97: exact results in every rounding mode

Small integers and fixed-point numbers (`On` is that of C76) on a grid of normal numbers are computed exactly in every mode.
Written by `tools/modethms.py`.
-/
set_option linter.unusedSimpArgs false
set_option linter.unusedSectionVars false
open Cglm F32 Wide
namespace Cglm
variable [Libm]

theorem C97_exact_vec2_add (M : Mode) (f : Bool) {i : ℤ} {K L : ℕ} (a : V2 F32) (b : V2 F32)
    (t : V2 X) (z : V2 ℝ)
    (h : V2.Reassoc (glm_vec2_add (a.map .inp) (b.map .inp)) t) (r : V2.Runs M f t z)
    (ha : a.On i K) (hb : b.On i L)
    (hK : K + L ≤ 2 ^ 24) (lo : -126 ≤ i) :
    z = glm_vec2_add (a.map toReal) (b.map toReal) := by
  simp only [cglm, V2.map, V2.Reassoc] at h
  simp only [V2.Runs] at r
  simp only [V2.On] at ha hb
  obtain ⟨_, _⟩ := ha
  obtain ⟨_, _⟩ := hb
  obtain ⟨_, _⟩ := h
  obtain ⟨_, _⟩ := r
  simp only [cglm, V2.map]
  ext <;> gridm

theorem C97_exact_vec2_adds (M : Mode) (f : Bool) {i : ℤ} {K L : ℕ} (v : V2 F32) (s : F32)
    (t : V2 X) (z : V2 ℝ)
    (h : V2.Reassoc (glm_vec2_adds (v.map .inp) (.inp s)) t) (r : V2.Runs M f t z)
    (hv : v.On i K) (hs : s.On i L)
    (hK : K + L ≤ 2 ^ 24) (lo : -126 ≤ i) :
    z = glm_vec2_adds (v.map toReal) (toReal s) := by
  simp only [cglm, V2.map, V2.Reassoc] at h
  simp only [V2.Runs] at r
  simp only [V2.On] at hv
  obtain ⟨_, _⟩ := hv
  obtain ⟨_, _⟩ := h
  obtain ⟨_, _⟩ := r
  simp only [cglm, V2.map]
  ext <;> gridm

theorem C97_exact_vec2_sub (M : Mode) (f : Bool) {i : ℤ} {K L : ℕ} (a : V2 F32) (b : V2 F32)
    (t : V2 X) (z : V2 ℝ)
    (h : V2.Reassoc (glm_vec2_sub (a.map .inp) (b.map .inp)) t) (r : V2.Runs M f t z)
    (ha : a.On i K) (hb : b.On i L)
    (hK : K + L ≤ 2 ^ 24) (lo : -126 ≤ i) :
    z = glm_vec2_sub (a.map toReal) (b.map toReal) := by
  simp only [cglm, V2.map, V2.Reassoc] at h
  simp only [V2.Runs] at r
  simp only [V2.On] at ha hb
  obtain ⟨_, _⟩ := ha
  obtain ⟨_, _⟩ := hb
  obtain ⟨_, _⟩ := h
  obtain ⟨_, _⟩ := r
  simp only [cglm, V2.map]
  ext <;> gridm

theorem C97_exact_vec2_subs (M : Mode) (f : Bool) {i : ℤ} {K L : ℕ} (v : V2 F32) (s : F32)
    (t : V2 X) (z : V2 ℝ)
    (h : V2.Reassoc (glm_vec2_subs (v.map .inp) (.inp s)) t) (r : V2.Runs M f t z)
    (hv : v.On i K) (hs : s.On i L)
    (hK : K + L ≤ 2 ^ 24) (lo : -126 ≤ i) :
    z = glm_vec2_subs (v.map toReal) (toReal s) := by
  simp only [cglm, V2.map, V2.Reassoc] at h
  simp only [V2.Runs] at r
  simp only [V2.On] at hv
  obtain ⟨_, _⟩ := hv
  obtain ⟨_, _⟩ := h
  obtain ⟨_, _⟩ := r
  simp only [cglm, V2.map]
  ext <;> gridm

theorem C97_exact_vec2_mul (M : Mode) (f : Bool) {i j : ℤ} {K L : ℕ} (a : V2 F32) (b : V2 F32)
    (t : V2 X) (z : V2 ℝ)
    (h : V2.Reassoc (glm_vec2_mul (a.map .inp) (b.map .inp)) t) (r : V2.Runs M f t z)
    (ha : a.On i K) (hb : b.On j L)
    (hK : K * L ≤ 2 ^ 24) (lo : -126 ≤ i + j) :
    z = glm_vec2_mul (a.map toReal) (b.map toReal) := by
  simp only [cglm, V2.map, V2.Reassoc] at h
  simp only [V2.Runs] at r
  simp only [V2.On] at ha hb
  obtain ⟨_, _⟩ := ha
  obtain ⟨_, _⟩ := hb
  obtain ⟨_, _⟩ := h
  obtain ⟨_, _⟩ := r
  simp only [cglm, V2.map]
  ext <;> gridm

theorem C97_exact_vec2_scale (M : Mode) (f : Bool) {i j : ℤ} {K L : ℕ} (v : V2 F32) (s : F32)
    (t : V2 X) (z : V2 ℝ)
    (h : V2.Reassoc (glm_vec2_scale (v.map .inp) (.inp s)) t) (r : V2.Runs M f t z)
    (hv : v.On i K) (hs : s.On j L)
    (hK : K * L ≤ 2 ^ 24) (lo : -126 ≤ i + j) :
    z = glm_vec2_scale (v.map toReal) (toReal s) := by
  simp only [cglm, V2.map, V2.Reassoc] at h
  simp only [V2.Runs] at r
  simp only [V2.On] at hv
  obtain ⟨_, _⟩ := hv
  obtain ⟨_, _⟩ := h
  obtain ⟨_, _⟩ := r
  simp only [cglm, V2.map]
  ext <;> gridm

theorem C97_exact_vec2_dot (M : Mode) (f : Bool) {i j : ℤ} {K L : ℕ} (a : V2 F32) (b : V2 F32)
    (t : X) (z : ℝ)
    (h : Reassoc (glm_vec2_dot (a.map .inp) (b.map .inp)) t) (r : Modes.Runs M f t z)
    (ha : a.On i K) (hb : b.On j L)
    (hK : 2 * (K * L) ≤ 2 ^ 24) (lo : -126 ≤ i + j) :
    z = glm_vec2_dot (a.map toReal) (b.map toReal) := by
  simp only [cglm, V2.map] at h
  simp only [V2.On] at ha hb
  obtain ⟨_, _⟩ := ha
  obtain ⟨_, _⟩ := hb
  simp only [cglm, V2.map]
  gridm

theorem C97_exact_vec2_norm2 (M : Mode) (f : Bool) {i : ℤ} {K : ℕ} (v : V2 F32)
    (t : X) (z : ℝ)
    (h : Reassoc (glm_vec2_norm2 (v.map .inp)) t) (r : Modes.Runs M f t z)
    (hv : v.On i K)
    (hK : 2 * (K * K) ≤ 2 ^ 24) (lo : -126 ≤ i + i) :
    z = glm_vec2_norm2 (v.map toReal) := by
  simp only [cglm, V2.map] at h
  simp only [V2.On] at hv
  obtain ⟨_, _⟩ := hv
  simp only [cglm, V2.map]
  gridm

theorem C97_exact_vec2_muladd (M : Mode) (f : Bool) {i j : ℤ} {K L N : ℕ} (a : V2 F32) (b : V2 F32) (c : V2 F32)
    (t : V2 X) (z : V2 ℝ)
    (h : V2.Reassoc (glm_vec2_muladd (a.map .inp) (b.map .inp) (c.map .inp)) t) (r : V2.Runs M f t z)
    (ha : a.On i K) (hb : b.On j L) (hc : c.On (i + j) N)
    (hK : K * L + N ≤ 2 ^ 24) (lo : -126 ≤ i + j) :
    z = glm_vec2_muladd (a.map toReal) (b.map toReal) (c.map toReal) := by
  simp only [cglm, V2.map, V2.Reassoc] at h
  simp only [V2.Runs] at r
  simp only [V2.On] at ha hb hc
  obtain ⟨_, _⟩ := ha
  obtain ⟨_, _⟩ := hb
  obtain ⟨_, _⟩ := hc
  obtain ⟨_, _⟩ := h
  obtain ⟨_, _⟩ := r
  simp only [cglm, V2.map]
  ext <;> gridm

theorem C97_exact_vec2_muladds (M : Mode) (f : Bool) {i j : ℤ} {K L N : ℕ} (a : V2 F32) (s : F32) (c : V2 F32)
    (t : V2 X) (z : V2 ℝ)
    (h : V2.Reassoc (glm_vec2_muladds (a.map .inp) (.inp s) (c.map .inp)) t) (r : V2.Runs M f t z)
    (ha : a.On i K) (hs : s.On j L) (hc : c.On (i + j) N)
    (hK : K * L + N ≤ 2 ^ 24) (lo : -126 ≤ i + j) :
    z = glm_vec2_muladds (a.map toReal) (toReal s) (c.map toReal) := by
  simp only [cglm, V2.map, V2.Reassoc] at h
  simp only [V2.Runs] at r
  simp only [V2.On] at ha hc
  obtain ⟨_, _⟩ := ha
  obtain ⟨_, _⟩ := hc
  obtain ⟨_, _⟩ := h
  obtain ⟨_, _⟩ := r
  simp only [cglm, V2.map]
  ext <;> gridm

theorem C97_exact_vec2_mulsub (M : Mode) (f : Bool) {i j : ℤ} {K L N : ℕ} (a : V2 F32) (b : V2 F32) (c : V2 F32)
    (t : V2 X) (z : V2 ℝ)
    (h : V2.Reassoc (glm_vec2_mulsub (a.map .inp) (b.map .inp) (c.map .inp)) t) (r : V2.Runs M f t z)
    (ha : a.On i K) (hb : b.On j L) (hc : c.On (i + j) N)
    (hK : K * L + N ≤ 2 ^ 24) (lo : -126 ≤ i + j) :
    z = glm_vec2_mulsub (a.map toReal) (b.map toReal) (c.map toReal) := by
  simp only [cglm, V2.map, V2.Reassoc] at h
  simp only [V2.Runs] at r
  simp only [V2.On] at ha hb hc
  obtain ⟨_, _⟩ := ha
  obtain ⟨_, _⟩ := hb
  obtain ⟨_, _⟩ := hc
  obtain ⟨_, _⟩ := h
  obtain ⟨_, _⟩ := r
  simp only [cglm, V2.map]
  ext <;> gridm

theorem C97_exact_vec2_mulsubs (M : Mode) (f : Bool) {i j : ℤ} {K L N : ℕ} (a : V2 F32) (s : F32) (c : V2 F32)
    (t : V2 X) (z : V2 ℝ)
    (h : V2.Reassoc (glm_vec2_mulsubs (a.map .inp) (.inp s) (c.map .inp)) t) (r : V2.Runs M f t z)
    (ha : a.On i K) (hs : s.On j L) (hc : c.On (i + j) N)
    (hK : K * L + N ≤ 2 ^ 24) (lo : -126 ≤ i + j) :
    z = glm_vec2_mulsubs (a.map toReal) (toReal s) (c.map toReal) := by
  simp only [cglm, V2.map, V2.Reassoc] at h
  simp only [V2.Runs] at r
  simp only [V2.On] at ha hc
  obtain ⟨_, _⟩ := ha
  obtain ⟨_, _⟩ := hc
  obtain ⟨_, _⟩ := h
  obtain ⟨_, _⟩ := r
  simp only [cglm, V2.map]
  ext <;> gridm

theorem C97_exact_vec2_addadd (M : Mode) (f : Bool) {i : ℤ} {K L N : ℕ} (a : V2 F32) (b : V2 F32) (c : V2 F32)
    (t : V2 X) (z : V2 ℝ)
    (h : V2.Reassoc (glm_vec2_addadd (a.map .inp) (b.map .inp) (c.map .inp)) t) (r : V2.Runs M f t z)
    (ha : a.On i K) (hb : b.On i L) (hc : c.On i N)
    (hK : K + L + N ≤ 2 ^ 24) (lo : -126 ≤ i) :
    z = glm_vec2_addadd (a.map toReal) (b.map toReal) (c.map toReal) := by
  simp only [cglm, V2.map, V2.Reassoc] at h
  simp only [V2.Runs] at r
  simp only [V2.On] at ha hb hc
  obtain ⟨_, _⟩ := ha
  obtain ⟨_, _⟩ := hb
  obtain ⟨_, _⟩ := hc
  obtain ⟨_, _⟩ := h
  obtain ⟨_, _⟩ := r
  simp only [cglm, V2.map]
  ext <;> gridm

theorem C97_exact_vec2_subadd (M : Mode) (f : Bool) {i : ℤ} {K L N : ℕ} (a : V2 F32) (b : V2 F32) (c : V2 F32)
    (t : V2 X) (z : V2 ℝ)
    (h : V2.Reassoc (glm_vec2_subadd (a.map .inp) (b.map .inp) (c.map .inp)) t) (r : V2.Runs M f t z)
    (ha : a.On i K) (hb : b.On i L) (hc : c.On i N)
    (hK : K + L + N ≤ 2 ^ 24) (lo : -126 ≤ i) :
    z = glm_vec2_subadd (a.map toReal) (b.map toReal) (c.map toReal) := by
  simp only [cglm, V2.map, V2.Reassoc] at h
  simp only [V2.Runs] at r
  simp only [V2.On] at ha hb hc
  obtain ⟨_, _⟩ := ha
  obtain ⟨_, _⟩ := hb
  obtain ⟨_, _⟩ := hc
  obtain ⟨_, _⟩ := h
  obtain ⟨_, _⟩ := r
  simp only [cglm, V2.map]
  ext <;> gridm

theorem C97_exact_vec2_addsub (M : Mode) (f : Bool) {i : ℤ} {K L N : ℕ} (a : V2 F32) (b : V2 F32) (c : V2 F32)
    (t : V2 X) (z : V2 ℝ)
    (h : V2.Reassoc (glm_vec2_addsub (a.map .inp) (b.map .inp) (c.map .inp)) t) (r : V2.Runs M f t z)
    (ha : a.On i K) (hb : b.On i L) (hc : c.On i N)
    (hK : K + L + N ≤ 2 ^ 24) (lo : -126 ≤ i) :
    z = glm_vec2_addsub (a.map toReal) (b.map toReal) (c.map toReal) := by
  simp only [cglm, V2.map, V2.Reassoc] at h
  simp only [V2.Runs] at r
  simp only [V2.On] at ha hb hc
  obtain ⟨_, _⟩ := ha
  obtain ⟨_, _⟩ := hb
  obtain ⟨_, _⟩ := hc
  obtain ⟨_, _⟩ := h
  obtain ⟨_, _⟩ := r
  simp only [cglm, V2.map]
  ext <;> gridm

theorem C97_exact_vec2_subsub (M : Mode) (f : Bool) {i : ℤ} {K L N : ℕ} (a : V2 F32) (b : V2 F32) (c : V2 F32)
    (t : V2 X) (z : V2 ℝ)
    (h : V2.Reassoc (glm_vec2_subsub (a.map .inp) (b.map .inp) (c.map .inp)) t) (r : V2.Runs M f t z)
    (ha : a.On i K) (hb : b.On i L) (hc : c.On i N)
    (hK : K + L + N ≤ 2 ^ 24) (lo : -126 ≤ i) :
    z = glm_vec2_subsub (a.map toReal) (b.map toReal) (c.map toReal) := by
  simp only [cglm, V2.map, V2.Reassoc] at h
  simp only [V2.Runs] at r
  simp only [V2.On] at ha hb hc
  obtain ⟨_, _⟩ := ha
  obtain ⟨_, _⟩ := hb
  obtain ⟨_, _⟩ := hc
  obtain ⟨_, _⟩ := h
  obtain ⟨_, _⟩ := r
  simp only [cglm, V2.map]
  ext <;> gridm

theorem C97_exact_vec3_add (M : Mode) (f : Bool) {i : ℤ} {K L : ℕ} (a : V3 F32) (b : V3 F32)
    (t : V3 X) (z : V3 ℝ)
    (h : V3.Reassoc (glm_vec3_add (a.map .inp) (b.map .inp)) t) (r : V3.Runs M f t z)
    (ha : a.On i K) (hb : b.On i L)
    (hK : K + L ≤ 2 ^ 24) (lo : -126 ≤ i) :
    z = glm_vec3_add (a.map toReal) (b.map toReal) := by
  simp only [cglm, V3.map, V3.Reassoc] at h
  simp only [V3.Runs] at r
  simp only [V3.On] at ha hb
  obtain ⟨_, _, _⟩ := ha
  obtain ⟨_, _, _⟩ := hb
  obtain ⟨_, _, _⟩ := h
  obtain ⟨_, _, _⟩ := r
  simp only [cglm, V3.map]
  ext <;> gridm

theorem C97_exact_vec3_adds (M : Mode) (f : Bool) {i : ℤ} {K L : ℕ} (v : V3 F32) (s : F32)
    (t : V3 X) (z : V3 ℝ)
    (h : V3.Reassoc (glm_vec3_adds (v.map .inp) (.inp s)) t) (r : V3.Runs M f t z)
    (hv : v.On i K) (hs : s.On i L)
    (hK : K + L ≤ 2 ^ 24) (lo : -126 ≤ i) :
    z = glm_vec3_adds (v.map toReal) (toReal s) := by
  simp only [cglm, V3.map, V3.Reassoc] at h
  simp only [V3.Runs] at r
  simp only [V3.On] at hv
  obtain ⟨_, _, _⟩ := hv
  obtain ⟨_, _, _⟩ := h
  obtain ⟨_, _, _⟩ := r
  simp only [cglm, V3.map]
  ext <;> gridm

theorem C97_exact_vec3_sub (M : Mode) (f : Bool) {i : ℤ} {K L : ℕ} (a : V3 F32) (b : V3 F32)
    (t : V3 X) (z : V3 ℝ)
    (h : V3.Reassoc (glm_vec3_sub (a.map .inp) (b.map .inp)) t) (r : V3.Runs M f t z)
    (ha : a.On i K) (hb : b.On i L)
    (hK : K + L ≤ 2 ^ 24) (lo : -126 ≤ i) :
    z = glm_vec3_sub (a.map toReal) (b.map toReal) := by
  simp only [cglm, V3.map, V3.Reassoc] at h
  simp only [V3.Runs] at r
  simp only [V3.On] at ha hb
  obtain ⟨_, _, _⟩ := ha
  obtain ⟨_, _, _⟩ := hb
  obtain ⟨_, _, _⟩ := h
  obtain ⟨_, _, _⟩ := r
  simp only [cglm, V3.map]
  ext <;> gridm

theorem C97_exact_vec3_subs (M : Mode) (f : Bool) {i : ℤ} {K L : ℕ} (v : V3 F32) (s : F32)
    (t : V3 X) (z : V3 ℝ)
    (h : V3.Reassoc (glm_vec3_subs (v.map .inp) (.inp s)) t) (r : V3.Runs M f t z)
    (hv : v.On i K) (hs : s.On i L)
    (hK : K + L ≤ 2 ^ 24) (lo : -126 ≤ i) :
    z = glm_vec3_subs (v.map toReal) (toReal s) := by
  simp only [cglm, V3.map, V3.Reassoc] at h
  simp only [V3.Runs] at r
  simp only [V3.On] at hv
  obtain ⟨_, _, _⟩ := hv
  obtain ⟨_, _, _⟩ := h
  obtain ⟨_, _, _⟩ := r
  simp only [cglm, V3.map]
  ext <;> gridm

theorem C97_exact_vec3_mul (M : Mode) (f : Bool) {i j : ℤ} {K L : ℕ} (a : V3 F32) (b : V3 F32)
    (t : V3 X) (z : V3 ℝ)
    (h : V3.Reassoc (glm_vec3_mul (a.map .inp) (b.map .inp)) t) (r : V3.Runs M f t z)
    (ha : a.On i K) (hb : b.On j L)
    (hK : K * L ≤ 2 ^ 24) (lo : -126 ≤ i + j) :
    z = glm_vec3_mul (a.map toReal) (b.map toReal) := by
  simp only [cglm, V3.map, V3.Reassoc] at h
  simp only [V3.Runs] at r
  simp only [V3.On] at ha hb
  obtain ⟨_, _, _⟩ := ha
  obtain ⟨_, _, _⟩ := hb
  obtain ⟨_, _, _⟩ := h
  obtain ⟨_, _, _⟩ := r
  simp only [cglm, V3.map]
  ext <;> gridm

theorem C97_exact_vec3_scale (M : Mode) (f : Bool) {i j : ℤ} {K L : ℕ} (v : V3 F32) (s : F32)
    (t : V3 X) (z : V3 ℝ)
    (h : V3.Reassoc (glm_vec3_scale (v.map .inp) (.inp s)) t) (r : V3.Runs M f t z)
    (hv : v.On i K) (hs : s.On j L)
    (hK : K * L ≤ 2 ^ 24) (lo : -126 ≤ i + j) :
    z = glm_vec3_scale (v.map toReal) (toReal s) := by
  simp only [cglm, V3.map, V3.Reassoc] at h
  simp only [V3.Runs] at r
  simp only [V3.On] at hv
  obtain ⟨_, _, _⟩ := hv
  obtain ⟨_, _, _⟩ := h
  obtain ⟨_, _, _⟩ := r
  simp only [cglm, V3.map]
  ext <;> gridm

theorem C97_exact_vec3_dot (M : Mode) (f : Bool) {i j : ℤ} {K L : ℕ} (a : V3 F32) (b : V3 F32)
    (t : X) (z : ℝ)
    (h : Reassoc (glm_vec3_dot (a.map .inp) (b.map .inp)) t) (r : Modes.Runs M f t z)
    (ha : a.On i K) (hb : b.On j L)
    (hK : 3 * (K * L) ≤ 2 ^ 24) (lo : -126 ≤ i + j) :
    z = glm_vec3_dot (a.map toReal) (b.map toReal) := by
  simp only [cglm, V3.map] at h
  simp only [V3.On] at ha hb
  obtain ⟨_, _, _⟩ := ha
  obtain ⟨_, _, _⟩ := hb
  simp only [cglm, V3.map]
  gridm

theorem C97_exact_vec3_norm2 (M : Mode) (f : Bool) {i : ℤ} {K : ℕ} (v : V3 F32)
    (t : X) (z : ℝ)
    (h : Reassoc (glm_vec3_norm2 (v.map .inp)) t) (r : Modes.Runs M f t z)
    (hv : v.On i K)
    (hK : 3 * (K * K) ≤ 2 ^ 24) (lo : -126 ≤ i + i) :
    z = glm_vec3_norm2 (v.map toReal) := by
  simp only [cglm, V3.map] at h
  simp only [V3.On] at hv
  obtain ⟨_, _, _⟩ := hv
  simp only [cglm, V3.map]
  gridm

theorem C97_exact_vec3_muladd (M : Mode) (f : Bool) {i j : ℤ} {K L N : ℕ} (a : V3 F32) (b : V3 F32) (c : V3 F32)
    (t : V3 X) (z : V3 ℝ)
    (h : V3.Reassoc (glm_vec3_muladd (a.map .inp) (b.map .inp) (c.map .inp)) t) (r : V3.Runs M f t z)
    (ha : a.On i K) (hb : b.On j L) (hc : c.On (i + j) N)
    (hK : K * L + N ≤ 2 ^ 24) (lo : -126 ≤ i + j) :
    z = glm_vec3_muladd (a.map toReal) (b.map toReal) (c.map toReal) := by
  simp only [cglm, V3.map, V3.Reassoc] at h
  simp only [V3.Runs] at r
  simp only [V3.On] at ha hb hc
  obtain ⟨_, _, _⟩ := ha
  obtain ⟨_, _, _⟩ := hb
  obtain ⟨_, _, _⟩ := hc
  obtain ⟨_, _, _⟩ := h
  obtain ⟨_, _, _⟩ := r
  simp only [cglm, V3.map]
  ext <;> gridm

theorem C97_exact_vec3_muladds (M : Mode) (f : Bool) {i j : ℤ} {K L N : ℕ} (a : V3 F32) (s : F32) (c : V3 F32)
    (t : V3 X) (z : V3 ℝ)
    (h : V3.Reassoc (glm_vec3_muladds (a.map .inp) (.inp s) (c.map .inp)) t) (r : V3.Runs M f t z)
    (ha : a.On i K) (hs : s.On j L) (hc : c.On (i + j) N)
    (hK : K * L + N ≤ 2 ^ 24) (lo : -126 ≤ i + j) :
    z = glm_vec3_muladds (a.map toReal) (toReal s) (c.map toReal) := by
  simp only [cglm, V3.map, V3.Reassoc] at h
  simp only [V3.Runs] at r
  simp only [V3.On] at ha hc
  obtain ⟨_, _, _⟩ := ha
  obtain ⟨_, _, _⟩ := hc
  obtain ⟨_, _, _⟩ := h
  obtain ⟨_, _, _⟩ := r
  simp only [cglm, V3.map]
  ext <;> gridm

theorem C97_exact_vec3_mulsub (M : Mode) (f : Bool) {i j : ℤ} {K L N : ℕ} (a : V3 F32) (b : V3 F32) (c : V3 F32)
    (t : V3 X) (z : V3 ℝ)
    (h : V3.Reassoc (glm_vec3_mulsub (a.map .inp) (b.map .inp) (c.map .inp)) t) (r : V3.Runs M f t z)
    (ha : a.On i K) (hb : b.On j L) (hc : c.On (i + j) N)
    (hK : K * L + N ≤ 2 ^ 24) (lo : -126 ≤ i + j) :
    z = glm_vec3_mulsub (a.map toReal) (b.map toReal) (c.map toReal) := by
  simp only [cglm, V3.map, V3.Reassoc] at h
  simp only [V3.Runs] at r
  simp only [V3.On] at ha hb hc
  obtain ⟨_, _, _⟩ := ha
  obtain ⟨_, _, _⟩ := hb
  obtain ⟨_, _, _⟩ := hc
  obtain ⟨_, _, _⟩ := h
  obtain ⟨_, _, _⟩ := r
  simp only [cglm, V3.map]
  ext <;> gridm

theorem C97_exact_vec3_mulsubs (M : Mode) (f : Bool) {i j : ℤ} {K L N : ℕ} (a : V3 F32) (s : F32) (c : V3 F32)
    (t : V3 X) (z : V3 ℝ)
    (h : V3.Reassoc (glm_vec3_mulsubs (a.map .inp) (.inp s) (c.map .inp)) t) (r : V3.Runs M f t z)
    (ha : a.On i K) (hs : s.On j L) (hc : c.On (i + j) N)
    (hK : K * L + N ≤ 2 ^ 24) (lo : -126 ≤ i + j) :
    z = glm_vec3_mulsubs (a.map toReal) (toReal s) (c.map toReal) := by
  simp only [cglm, V3.map, V3.Reassoc] at h
  simp only [V3.Runs] at r
  simp only [V3.On] at ha hc
  obtain ⟨_, _, _⟩ := ha
  obtain ⟨_, _, _⟩ := hc
  obtain ⟨_, _, _⟩ := h
  obtain ⟨_, _, _⟩ := r
  simp only [cglm, V3.map]
  ext <;> gridm

theorem C97_exact_vec3_addadd (M : Mode) (f : Bool) {i : ℤ} {K L N : ℕ} (a : V3 F32) (b : V3 F32) (c : V3 F32)
    (t : V3 X) (z : V3 ℝ)
    (h : V3.Reassoc (glm_vec3_addadd (a.map .inp) (b.map .inp) (c.map .inp)) t) (r : V3.Runs M f t z)
    (ha : a.On i K) (hb : b.On i L) (hc : c.On i N)
    (hK : K + L + N ≤ 2 ^ 24) (lo : -126 ≤ i) :
    z = glm_vec3_addadd (a.map toReal) (b.map toReal) (c.map toReal) := by
  simp only [cglm, V3.map, V3.Reassoc] at h
  simp only [V3.Runs] at r
  simp only [V3.On] at ha hb hc
  obtain ⟨_, _, _⟩ := ha
  obtain ⟨_, _, _⟩ := hb
  obtain ⟨_, _, _⟩ := hc
  obtain ⟨_, _, _⟩ := h
  obtain ⟨_, _, _⟩ := r
  simp only [cglm, V3.map]
  ext <;> gridm

theorem C97_exact_vec3_subadd (M : Mode) (f : Bool) {i : ℤ} {K L N : ℕ} (a : V3 F32) (b : V3 F32) (c : V3 F32)
    (t : V3 X) (z : V3 ℝ)
    (h : V3.Reassoc (glm_vec3_subadd (a.map .inp) (b.map .inp) (c.map .inp)) t) (r : V3.Runs M f t z)
    (ha : a.On i K) (hb : b.On i L) (hc : c.On i N)
    (hK : K + L + N ≤ 2 ^ 24) (lo : -126 ≤ i) :
    z = glm_vec3_subadd (a.map toReal) (b.map toReal) (c.map toReal) := by
  simp only [cglm, V3.map, V3.Reassoc] at h
  simp only [V3.Runs] at r
  simp only [V3.On] at ha hb hc
  obtain ⟨_, _, _⟩ := ha
  obtain ⟨_, _, _⟩ := hb
  obtain ⟨_, _, _⟩ := hc
  obtain ⟨_, _, _⟩ := h
  obtain ⟨_, _, _⟩ := r
  simp only [cglm, V3.map]
  ext <;> gridm

theorem C97_exact_vec3_addsub (M : Mode) (f : Bool) {i : ℤ} {K L N : ℕ} (a : V3 F32) (b : V3 F32) (c : V3 F32)
    (t : V3 X) (z : V3 ℝ)
    (h : V3.Reassoc (glm_vec3_addsub (a.map .inp) (b.map .inp) (c.map .inp)) t) (r : V3.Runs M f t z)
    (ha : a.On i K) (hb : b.On i L) (hc : c.On i N)
    (hK : K + L + N ≤ 2 ^ 24) (lo : -126 ≤ i) :
    z = glm_vec3_addsub (a.map toReal) (b.map toReal) (c.map toReal) := by
  simp only [cglm, V3.map, V3.Reassoc] at h
  simp only [V3.Runs] at r
  simp only [V3.On] at ha hb hc
  obtain ⟨_, _, _⟩ := ha
  obtain ⟨_, _, _⟩ := hb
  obtain ⟨_, _, _⟩ := hc
  obtain ⟨_, _, _⟩ := h
  obtain ⟨_, _, _⟩ := r
  simp only [cglm, V3.map]
  ext <;> gridm

theorem C97_exact_vec3_subsub (M : Mode) (f : Bool) {i : ℤ} {K L N : ℕ} (a : V3 F32) (b : V3 F32) (c : V3 F32)
    (t : V3 X) (z : V3 ℝ)
    (h : V3.Reassoc (glm_vec3_subsub (a.map .inp) (b.map .inp) (c.map .inp)) t) (r : V3.Runs M f t z)
    (ha : a.On i K) (hb : b.On i L) (hc : c.On i N)
    (hK : K + L + N ≤ 2 ^ 24) (lo : -126 ≤ i) :
    z = glm_vec3_subsub (a.map toReal) (b.map toReal) (c.map toReal) := by
  simp only [cglm, V3.map, V3.Reassoc] at h
  simp only [V3.Runs] at r
  simp only [V3.On] at ha hb hc
  obtain ⟨_, _, _⟩ := ha
  obtain ⟨_, _, _⟩ := hb
  obtain ⟨_, _, _⟩ := hc
  obtain ⟨_, _, _⟩ := h
  obtain ⟨_, _, _⟩ := r
  simp only [cglm, V3.map]
  ext <;> gridm

theorem C97_exact_vec3_hadd (M : Mode) (f : Bool) {i : ℤ} {K : ℕ} (v : V3 F32)
    (t : X) (z : ℝ)
    (h : Reassoc (glm_vec3_hadd (v.map .inp)) t) (r : Modes.Runs M f t z)
    (hv : v.On i K)
    (hK : 3 * K ≤ 2 ^ 24) (lo : -126 ≤ i) :
    z = glm_vec3_hadd (v.map toReal) := by
  simp only [cglm, V3.map] at h
  simp only [V3.On] at hv
  obtain ⟨_, _, _⟩ := hv
  simp only [cglm, V3.map]
  gridm

theorem C97_exact_vec4_add (M : Mode) (f : Bool) {i : ℤ} {K L : ℕ} (a : V4 F32) (b : V4 F32)
    (t : V4 X) (z : V4 ℝ)
    (h : V4.Reassoc (glm_vec4_add (a.map .inp) (b.map .inp)) t) (r : V4.Runs M f t z)
    (ha : a.On i K) (hb : b.On i L)
    (hK : K + L ≤ 2 ^ 24) (lo : -126 ≤ i) :
    z = glm_vec4_add (a.map toReal) (b.map toReal) := by
  simp only [cglm, V4.map, V4.Reassoc] at h
  simp only [V4.Runs] at r
  simp only [V4.On] at ha hb
  obtain ⟨_, _, _, _⟩ := ha
  obtain ⟨_, _, _, _⟩ := hb
  obtain ⟨_, _, _, _⟩ := h
  obtain ⟨_, _, _, _⟩ := r
  simp only [cglm, V4.map]
  ext <;> gridm

theorem C97_exact_vec4_adds (M : Mode) (f : Bool) {i : ℤ} {K L : ℕ} (v : V4 F32) (s : F32)
    (t : V4 X) (z : V4 ℝ)
    (h : V4.Reassoc (glm_vec4_adds (v.map .inp) (.inp s)) t) (r : V4.Runs M f t z)
    (hv : v.On i K) (hs : s.On i L)
    (hK : K + L ≤ 2 ^ 24) (lo : -126 ≤ i) :
    z = glm_vec4_adds (v.map toReal) (toReal s) := by
  simp only [cglm, V4.map, V4.Reassoc] at h
  simp only [V4.Runs] at r
  simp only [V4.On] at hv
  obtain ⟨_, _, _, _⟩ := hv
  obtain ⟨_, _, _, _⟩ := h
  obtain ⟨_, _, _, _⟩ := r
  simp only [cglm, V4.map]
  ext <;> gridm

theorem C97_exact_vec4_sub (M : Mode) (f : Bool) {i : ℤ} {K L : ℕ} (a : V4 F32) (b : V4 F32)
    (t : V4 X) (z : V4 ℝ)
    (h : V4.Reassoc (glm_vec4_sub (a.map .inp) (b.map .inp)) t) (r : V4.Runs M f t z)
    (ha : a.On i K) (hb : b.On i L)
    (hK : K + L ≤ 2 ^ 24) (lo : -126 ≤ i) :
    z = glm_vec4_sub (a.map toReal) (b.map toReal) := by
  simp only [cglm, V4.map, V4.Reassoc] at h
  simp only [V4.Runs] at r
  simp only [V4.On] at ha hb
  obtain ⟨_, _, _, _⟩ := ha
  obtain ⟨_, _, _, _⟩ := hb
  obtain ⟨_, _, _, _⟩ := h
  obtain ⟨_, _, _, _⟩ := r
  simp only [cglm, V4.map]
  ext <;> gridm

theorem C97_exact_vec4_subs (M : Mode) (f : Bool) {i : ℤ} {K L : ℕ} (v : V4 F32) (s : F32)
    (t : V4 X) (z : V4 ℝ)
    (h : V4.Reassoc (glm_vec4_subs (v.map .inp) (.inp s)) t) (r : V4.Runs M f t z)
    (hv : v.On i K) (hs : s.On i L)
    (hK : K + L ≤ 2 ^ 24) (lo : -126 ≤ i) :
    z = glm_vec4_subs (v.map toReal) (toReal s) := by
  simp only [cglm, V4.map, V4.Reassoc] at h
  simp only [V4.Runs] at r
  simp only [V4.On] at hv
  obtain ⟨_, _, _, _⟩ := hv
  obtain ⟨_, _, _, _⟩ := h
  obtain ⟨_, _, _, _⟩ := r
  simp only [cglm, V4.map]
  ext <;> gridm

theorem C97_exact_vec4_mul (M : Mode) (f : Bool) {i j : ℤ} {K L : ℕ} (a : V4 F32) (b : V4 F32)
    (t : V4 X) (z : V4 ℝ)
    (h : V4.Reassoc (glm_vec4_mul (a.map .inp) (b.map .inp)) t) (r : V4.Runs M f t z)
    (ha : a.On i K) (hb : b.On j L)
    (hK : K * L ≤ 2 ^ 24) (lo : -126 ≤ i + j) :
    z = glm_vec4_mul (a.map toReal) (b.map toReal) := by
  simp only [cglm, V4.map, V4.Reassoc] at h
  simp only [V4.Runs] at r
  simp only [V4.On] at ha hb
  obtain ⟨_, _, _, _⟩ := ha
  obtain ⟨_, _, _, _⟩ := hb
  obtain ⟨_, _, _, _⟩ := h
  obtain ⟨_, _, _, _⟩ := r
  simp only [cglm, V4.map]
  ext <;> gridm

theorem C97_exact_vec4_scale (M : Mode) (f : Bool) {i j : ℤ} {K L : ℕ} (v : V4 F32) (s : F32)
    (t : V4 X) (z : V4 ℝ)
    (h : V4.Reassoc (glm_vec4_scale (v.map .inp) (.inp s)) t) (r : V4.Runs M f t z)
    (hv : v.On i K) (hs : s.On j L)
    (hK : K * L ≤ 2 ^ 24) (lo : -126 ≤ i + j) :
    z = glm_vec4_scale (v.map toReal) (toReal s) := by
  simp only [cglm, V4.map, V4.Reassoc] at h
  simp only [V4.Runs] at r
  simp only [V4.On] at hv
  obtain ⟨_, _, _, _⟩ := hv
  obtain ⟨_, _, _, _⟩ := h
  obtain ⟨_, _, _, _⟩ := r
  simp only [cglm, V4.map]
  ext <;> gridm

theorem C97_exact_vec4_dot (M : Mode) (f : Bool) {i j : ℤ} {K L : ℕ} (a : V4 F32) (b : V4 F32)
    (t : X) (z : ℝ)
    (h : Reassoc (glm_vec4_dot (a.map .inp) (b.map .inp)) t) (r : Modes.Runs M f t z)
    (ha : a.On i K) (hb : b.On j L)
    (hK : 4 * (K * L) ≤ 2 ^ 24) (lo : -126 ≤ i + j) :
    z = glm_vec4_dot (a.map toReal) (b.map toReal) := by
  simp only [cglm, V4.map] at h
  simp only [V4.On] at ha hb
  obtain ⟨_, _, _, _⟩ := ha
  obtain ⟨_, _, _, _⟩ := hb
  simp only [cglm, V4.map]
  gridm

theorem C97_exact_vec4_norm2 (M : Mode) (f : Bool) {i : ℤ} {K : ℕ} (v : V4 F32)
    (t : X) (z : ℝ)
    (h : Reassoc (glm_vec4_norm2 (v.map .inp)) t) (r : Modes.Runs M f t z)
    (hv : v.On i K)
    (hK : 4 * (K * K) ≤ 2 ^ 24) (lo : -126 ≤ i + i) :
    z = glm_vec4_norm2 (v.map toReal) := by
  simp only [cglm, V4.map] at h
  simp only [V4.On] at hv
  obtain ⟨_, _, _, _⟩ := hv
  simp only [cglm, V4.map]
  gridm

theorem C97_exact_vec4_muladd (M : Mode) (f : Bool) {i j : ℤ} {K L N : ℕ} (a : V4 F32) (b : V4 F32) (c : V4 F32)
    (t : V4 X) (z : V4 ℝ)
    (h : V4.Reassoc (glm_vec4_muladd (a.map .inp) (b.map .inp) (c.map .inp)) t) (r : V4.Runs M f t z)
    (ha : a.On i K) (hb : b.On j L) (hc : c.On (i + j) N)
    (hK : K * L + N ≤ 2 ^ 24) (lo : -126 ≤ i + j) :
    z = glm_vec4_muladd (a.map toReal) (b.map toReal) (c.map toReal) := by
  simp only [cglm, V4.map, V4.Reassoc] at h
  simp only [V4.Runs] at r
  simp only [V4.On] at ha hb hc
  obtain ⟨_, _, _, _⟩ := ha
  obtain ⟨_, _, _, _⟩ := hb
  obtain ⟨_, _, _, _⟩ := hc
  obtain ⟨_, _, _, _⟩ := h
  obtain ⟨_, _, _, _⟩ := r
  simp only [cglm, V4.map]
  ext <;> gridm

theorem C97_exact_vec4_muladds (M : Mode) (f : Bool) {i j : ℤ} {K L N : ℕ} (a : V4 F32) (s : F32) (c : V4 F32)
    (t : V4 X) (z : V4 ℝ)
    (h : V4.Reassoc (glm_vec4_muladds (a.map .inp) (.inp s) (c.map .inp)) t) (r : V4.Runs M f t z)
    (ha : a.On i K) (hs : s.On j L) (hc : c.On (i + j) N)
    (hK : K * L + N ≤ 2 ^ 24) (lo : -126 ≤ i + j) :
    z = glm_vec4_muladds (a.map toReal) (toReal s) (c.map toReal) := by
  simp only [cglm, V4.map, V4.Reassoc] at h
  simp only [V4.Runs] at r
  simp only [V4.On] at ha hc
  obtain ⟨_, _, _, _⟩ := ha
  obtain ⟨_, _, _, _⟩ := hc
  obtain ⟨_, _, _, _⟩ := h
  obtain ⟨_, _, _, _⟩ := r
  simp only [cglm, V4.map]
  ext <;> gridm

theorem C97_exact_vec4_mulsub (M : Mode) (f : Bool) {i j : ℤ} {K L N : ℕ} (a : V4 F32) (b : V4 F32) (c : V4 F32)
    (t : V4 X) (z : V4 ℝ)
    (h : V4.Reassoc (glm_vec4_mulsub (a.map .inp) (b.map .inp) (c.map .inp)) t) (r : V4.Runs M f t z)
    (ha : a.On i K) (hb : b.On j L) (hc : c.On (i + j) N)
    (hK : K * L + N ≤ 2 ^ 24) (lo : -126 ≤ i + j) :
    z = glm_vec4_mulsub (a.map toReal) (b.map toReal) (c.map toReal) := by
  simp only [cglm, V4.map, V4.Reassoc] at h
  simp only [V4.Runs] at r
  simp only [V4.On] at ha hb hc
  obtain ⟨_, _, _, _⟩ := ha
  obtain ⟨_, _, _, _⟩ := hb
  obtain ⟨_, _, _, _⟩ := hc
  obtain ⟨_, _, _, _⟩ := h
  obtain ⟨_, _, _, _⟩ := r
  simp only [cglm, V4.map]
  ext <;> gridm

theorem C97_exact_vec4_mulsubs (M : Mode) (f : Bool) {i j : ℤ} {K L N : ℕ} (a : V4 F32) (s : F32) (c : V4 F32)
    (t : V4 X) (z : V4 ℝ)
    (h : V4.Reassoc (glm_vec4_mulsubs (a.map .inp) (.inp s) (c.map .inp)) t) (r : V4.Runs M f t z)
    (ha : a.On i K) (hs : s.On j L) (hc : c.On (i + j) N)
    (hK : K * L + N ≤ 2 ^ 24) (lo : -126 ≤ i + j) :
    z = glm_vec4_mulsubs (a.map toReal) (toReal s) (c.map toReal) := by
  simp only [cglm, V4.map, V4.Reassoc] at h
  simp only [V4.Runs] at r
  simp only [V4.On] at ha hc
  obtain ⟨_, _, _, _⟩ := ha
  obtain ⟨_, _, _, _⟩ := hc
  obtain ⟨_, _, _, _⟩ := h
  obtain ⟨_, _, _, _⟩ := r
  simp only [cglm, V4.map]
  ext <;> gridm

theorem C97_exact_vec4_addadd (M : Mode) (f : Bool) {i : ℤ} {K L N : ℕ} (a : V4 F32) (b : V4 F32) (c : V4 F32)
    (t : V4 X) (z : V4 ℝ)
    (h : V4.Reassoc (glm_vec4_addadd (a.map .inp) (b.map .inp) (c.map .inp)) t) (r : V4.Runs M f t z)
    (ha : a.On i K) (hb : b.On i L) (hc : c.On i N)
    (hK : K + L + N ≤ 2 ^ 24) (lo : -126 ≤ i) :
    z = glm_vec4_addadd (a.map toReal) (b.map toReal) (c.map toReal) := by
  simp only [cglm, V4.map, V4.Reassoc] at h
  simp only [V4.Runs] at r
  simp only [V4.On] at ha hb hc
  obtain ⟨_, _, _, _⟩ := ha
  obtain ⟨_, _, _, _⟩ := hb
  obtain ⟨_, _, _, _⟩ := hc
  obtain ⟨_, _, _, _⟩ := h
  obtain ⟨_, _, _, _⟩ := r
  simp only [cglm, V4.map]
  ext <;> gridm

theorem C97_exact_vec4_subadd (M : Mode) (f : Bool) {i : ℤ} {K L N : ℕ} (a : V4 F32) (b : V4 F32) (c : V4 F32)
    (t : V4 X) (z : V4 ℝ)
    (h : V4.Reassoc (glm_vec4_subadd (a.map .inp) (b.map .inp) (c.map .inp)) t) (r : V4.Runs M f t z)
    (ha : a.On i K) (hb : b.On i L) (hc : c.On i N)
    (hK : K + L + N ≤ 2 ^ 24) (lo : -126 ≤ i) :
    z = glm_vec4_subadd (a.map toReal) (b.map toReal) (c.map toReal) := by
  simp only [cglm, V4.map, V4.Reassoc] at h
  simp only [V4.Runs] at r
  simp only [V4.On] at ha hb hc
  obtain ⟨_, _, _, _⟩ := ha
  obtain ⟨_, _, _, _⟩ := hb
  obtain ⟨_, _, _, _⟩ := hc
  obtain ⟨_, _, _, _⟩ := h
  obtain ⟨_, _, _, _⟩ := r
  simp only [cglm, V4.map]
  ext <;> gridm

theorem C97_exact_vec4_addsub (M : Mode) (f : Bool) {i : ℤ} {K L N : ℕ} (a : V4 F32) (b : V4 F32) (c : V4 F32)
    (t : V4 X) (z : V4 ℝ)
    (h : V4.Reassoc (glm_vec4_addsub (a.map .inp) (b.map .inp) (c.map .inp)) t) (r : V4.Runs M f t z)
    (ha : a.On i K) (hb : b.On i L) (hc : c.On i N)
    (hK : K + L + N ≤ 2 ^ 24) (lo : -126 ≤ i) :
    z = glm_vec4_addsub (a.map toReal) (b.map toReal) (c.map toReal) := by
  simp only [cglm, V4.map, V4.Reassoc] at h
  simp only [V4.Runs] at r
  simp only [V4.On] at ha hb hc
  obtain ⟨_, _, _, _⟩ := ha
  obtain ⟨_, _, _, _⟩ := hb
  obtain ⟨_, _, _, _⟩ := hc
  obtain ⟨_, _, _, _⟩ := h
  obtain ⟨_, _, _, _⟩ := r
  simp only [cglm, V4.map]
  ext <;> gridm

theorem C97_exact_vec4_subsub (M : Mode) (f : Bool) {i : ℤ} {K L N : ℕ} (a : V4 F32) (b : V4 F32) (c : V4 F32)
    (t : V4 X) (z : V4 ℝ)
    (h : V4.Reassoc (glm_vec4_subsub (a.map .inp) (b.map .inp) (c.map .inp)) t) (r : V4.Runs M f t z)
    (ha : a.On i K) (hb : b.On i L) (hc : c.On i N)
    (hK : K + L + N ≤ 2 ^ 24) (lo : -126 ≤ i) :
    z = glm_vec4_subsub (a.map toReal) (b.map toReal) (c.map toReal) := by
  simp only [cglm, V4.map, V4.Reassoc] at h
  simp only [V4.Runs] at r
  simp only [V4.On] at ha hb hc
  obtain ⟨_, _, _, _⟩ := ha
  obtain ⟨_, _, _, _⟩ := hb
  obtain ⟨_, _, _, _⟩ := hc
  obtain ⟨_, _, _, _⟩ := h
  obtain ⟨_, _, _, _⟩ := r
  simp only [cglm, V4.map]
  ext <;> gridm

theorem C97_exact_vec4_hadd (M : Mode) (f : Bool) {i : ℤ} {K : ℕ} (v : V4 F32)
    (t : X) (z : ℝ)
    (h : Reassoc (glm_vec4_hadd (v.map .inp)) t) (r : Modes.Runs M f t z)
    (hv : v.On i K)
    (hK : 4 * K ≤ 2 ^ 24) (lo : -126 ≤ i) :
    z = glm_vec4_hadd (v.map toReal) := by
  simp only [cglm, V4.map] at h
  simp only [V4.On] at hv
  obtain ⟨_, _, _, _⟩ := hv
  simp only [cglm, V4.map]
  gridm

theorem C97_exact_vec2_cross (M : Mode) (f : Bool) {i j : ℤ} {K L : ℕ} (a : V2 F32) (b : V2 F32)
    (t : X) (z : ℝ)
    (h : Reassoc (glm_vec2_cross (a.map .inp) (b.map .inp)) t) (r : Modes.Runs M f t z)
    (ha : a.On i K) (hb : b.On j L)
    (hK : 2 * (K * L) ≤ 2 ^ 24) (lo : -126 ≤ i + j) :
    z = glm_vec2_cross (a.map toReal) (b.map toReal) := by
  simp only [cglm, V2.map] at h
  simp only [V2.On] at ha hb
  obtain ⟨_, _⟩ := ha
  obtain ⟨_, _⟩ := hb
  simp only [cglm, V2.map]
  gridm

theorem C97_exact_vec3_cross (M : Mode) (f : Bool) {i j : ℤ} {K L : ℕ} (a : V3 F32) (b : V3 F32)
    (t : V3 X) (z : V3 ℝ)
    (h : V3.Reassoc (glm_vec3_cross (a.map .inp) (b.map .inp)) t) (r : V3.Runs M f t z)
    (ha : a.On i K) (hb : b.On j L)
    (hK : 2 * (K * L) ≤ 2 ^ 24) (lo : -126 ≤ i + j) :
    z = glm_vec3_cross (a.map toReal) (b.map toReal) := by
  simp only [cglm, V3.map, V3.Reassoc] at h
  simp only [V3.Runs] at r
  simp only [V3.On] at ha hb
  obtain ⟨_, _, _⟩ := ha
  obtain ⟨_, _, _⟩ := hb
  obtain ⟨_, _, _⟩ := h
  obtain ⟨_, _, _⟩ := r
  simp only [cglm, V3.map]
  ext <;> gridm

theorem C97_exact_vec2_complex_mul (M : Mode) (f : Bool) {i j : ℤ} {K L : ℕ} (a : V2 F32) (b : V2 F32)
    (t : V2 X) (z : V2 ℝ)
    (h : V2.Reassoc (glm_vec2_complex_mul (a.map .inp) (b.map .inp)) t) (r : V2.Runs M f t z)
    (ha : a.On i K) (hb : b.On j L)
    (hK : 2 * (K * L) ≤ 2 ^ 24) (lo : -126 ≤ i + j) :
    z = glm_vec2_complex_mul (a.map toReal) (b.map toReal) := by
  simp only [cglm, V2.map, V2.Reassoc] at h
  simp only [V2.Runs] at r
  simp only [V2.On] at ha hb
  obtain ⟨_, _⟩ := ha
  obtain ⟨_, _⟩ := hb
  obtain ⟨_, _⟩ := h
  obtain ⟨_, _⟩ := r
  simp only [cglm, V2.map]
  ext <;> gridm

theorem C97_exact_quat_mul (M : Mode) (f : Bool) {i j : ℤ} {K L : ℕ} (p : V4 F32) (q : V4 F32)
    (t : V4 X) (z : V4 ℝ)
    (h : V4.Reassoc (glm_quat_mul (p.map .inp) (q.map .inp)) t) (r : V4.Runs M f t z)
    (hp : p.On i K) (hq : q.On j L)
    (hK : 4 * (K * L) ≤ 2 ^ 24) (lo : -126 ≤ i + j) :
    z = glm_quat_mul (p.map toReal) (q.map toReal) := by
  simp only [cglm, V4.map, V4.Reassoc] at h
  simp only [V4.Runs] at r
  simp only [V4.On] at hp hq
  obtain ⟨_, _, _, _⟩ := hp
  obtain ⟨_, _, _, _⟩ := hq
  obtain ⟨_, _, _, _⟩ := h
  obtain ⟨_, _, _, _⟩ := r
  simp only [cglm, V4.map]
  ext <;> gridm

theorem C97_exact_quat_dot (M : Mode) (f : Bool) {i j : ℤ} {K L : ℕ} (p : V4 F32) (q : V4 F32)
    (t : X) (z : ℝ)
    (h : Reassoc (glm_quat_dot (p.map .inp) (q.map .inp)) t) (r : Modes.Runs M f t z)
    (hp : p.On i K) (hq : q.On j L)
    (hK : 4 * (K * L) ≤ 2 ^ 24) (lo : -126 ≤ i + j) :
    z = glm_quat_dot (p.map toReal) (q.map toReal) := by
  simp only [cglm, V4.map] at h
  simp only [V4.On] at hp hq
  obtain ⟨_, _, _, _⟩ := hp
  obtain ⟨_, _, _, _⟩ := hq
  simp only [cglm, V4.map]
  gridm

theorem C97_exact_mat2_mulv (M : Mode) (f : Bool) {i j : ℤ} {K L : ℕ} (m : M2 F32) (v : V2 F32)
    (t : V2 X) (z : V2 ℝ)
    (h : V2.Reassoc (glm_mat2_mulv (m.map .inp) (v.map .inp)) t) (r : V2.Runs M f t z)
    (hm : m.On i K) (hv : v.On j L)
    (hK : 2 * (K * L) ≤ 2 ^ 24) (lo : -126 ≤ i + j) :
    z = glm_mat2_mulv (m.map toReal) (v.map toReal) := by
  simp only [cglm, M2.map, V2.map, V2.Reassoc] at h
  simp only [V2.Runs] at r
  simp only [M2.On, V2.On] at hm hv
  obtain ⟨⟨_, _⟩, ⟨_, _⟩⟩ := hm
  obtain ⟨_, _⟩ := hv
  obtain ⟨_, _⟩ := h
  obtain ⟨_, _⟩ := r
  simp only [cglm, M2.map, V2.map]
  ext <;> gridm

theorem C97_exact_mat2_mul (M : Mode) (f : Bool) {i j : ℤ} {K L : ℕ} (a : M2 F32) (b : M2 F32)
    (t : M2 X) (z : M2 ℝ)
    (h : M2.Reassoc (glm_mat2_mul (a.map .inp) (b.map .inp)) t) (r : M2.Runs M f t z)
    (ha : a.On i K) (hb : b.On j L)
    (hK : 2 * (K * L) ≤ 2 ^ 24) (lo : -126 ≤ i + j) :
    z = glm_mat2_mul (a.map toReal) (b.map toReal) := by
  simp only [cglm, M2.map, V2.map, M2.Reassoc, V2.Reassoc] at h
  simp only [M2.Runs, V2.Runs] at r
  simp only [M2.On, V2.On] at ha hb
  obtain ⟨⟨_, _⟩, ⟨_, _⟩⟩ := ha
  obtain ⟨⟨_, _⟩, ⟨_, _⟩⟩ := hb
  obtain ⟨⟨_, _⟩, ⟨_, _⟩⟩ := h
  obtain ⟨⟨_, _⟩, ⟨_, _⟩⟩ := r
  simp only [cglm, M2.map, V2.map]
  apply M2.ext <;> ext <;> gridm

theorem C97_exact_mat2_scale (M : Mode) (f : Bool) {i j : ℤ} {K L : ℕ} (m : M2 F32) (s : F32)
    (t : M2 X) (z : M2 ℝ)
    (h : M2.Reassoc (glm_mat2_scale (m.map .inp) (.inp s)) t) (r : M2.Runs M f t z)
    (hm : m.On i K) (hs : s.On j L)
    (hK : K * L ≤ 2 ^ 24) (lo : -126 ≤ i + j) :
    z = glm_mat2_scale (m.map toReal) (toReal s) := by
  simp only [cglm, M2.map, V2.map, M2.Reassoc, V2.Reassoc] at h
  simp only [M2.Runs, V2.Runs] at r
  simp only [M2.On, V2.On] at hm
  obtain ⟨⟨_, _⟩, ⟨_, _⟩⟩ := hm
  obtain ⟨⟨_, _⟩, ⟨_, _⟩⟩ := h
  obtain ⟨⟨_, _⟩, ⟨_, _⟩⟩ := r
  simp only [cglm, M2.map, V2.map]
  apply M2.ext <;> ext <;> gridm

theorem C97_exact_mat2_trace (M : Mode) (f : Bool) {i : ℤ} {K : ℕ} (m : M2 F32)
    (t : X) (z : ℝ)
    (h : Reassoc (glm_mat2_trace (m.map .inp)) t) (r : Modes.Runs M f t z)
    (hm : m.On i K)
    (hK : 2 * K ≤ 2 ^ 24) (lo : -126 ≤ i) :
    z = glm_mat2_trace (m.map toReal) := by
  simp only [cglm, M2.map, V2.map] at h
  simp only [M2.On, V2.On] at hm
  obtain ⟨⟨_, _⟩, ⟨_, _⟩⟩ := hm
  simp only [cglm, M2.map, V2.map]
  gridm

theorem C97_exact_mat3_mulv (M : Mode) (f : Bool) {i j : ℤ} {K L : ℕ} (m : M3 F32) (v : V3 F32)
    (t : V3 X) (z : V3 ℝ)
    (h : V3.Reassoc (glm_mat3_mulv (m.map .inp) (v.map .inp)) t) (r : V3.Runs M f t z)
    (hm : m.On i K) (hv : v.On j L)
    (hK : 3 * (K * L) ≤ 2 ^ 24) (lo : -126 ≤ i + j) :
    z = glm_mat3_mulv (m.map toReal) (v.map toReal) := by
  simp only [cglm, M3.map, V3.map, V3.Reassoc] at h
  simp only [V3.Runs] at r
  simp only [M3.On, V3.On] at hm hv
  obtain ⟨⟨_, _, _⟩, ⟨_, _, _⟩, ⟨_, _, _⟩⟩ := hm
  obtain ⟨_, _, _⟩ := hv
  obtain ⟨_, _, _⟩ := h
  obtain ⟨_, _, _⟩ := r
  simp only [cglm, M3.map, V3.map]
  ext <;> gridm

theorem C97_exact_mat3_mul (M : Mode) (f : Bool) {i j : ℤ} {K L : ℕ} (a : M3 F32) (b : M3 F32)
    (t : M3 X) (z : M3 ℝ)
    (h : M3.Reassoc (glm_mat3_mul (a.map .inp) (b.map .inp)) t) (r : M3.Runs M f t z)
    (ha : a.On i K) (hb : b.On j L)
    (hK : 3 * (K * L) ≤ 2 ^ 24) (lo : -126 ≤ i + j) :
    z = glm_mat3_mul (a.map toReal) (b.map toReal) := by
  simp only [cglm, M3.map, V3.map, M3.Reassoc, V3.Reassoc] at h
  simp only [M3.Runs, V3.Runs] at r
  simp only [M3.On, V3.On] at ha hb
  obtain ⟨⟨_, _, _⟩, ⟨_, _, _⟩, ⟨_, _, _⟩⟩ := ha
  obtain ⟨⟨_, _, _⟩, ⟨_, _, _⟩, ⟨_, _, _⟩⟩ := hb
  obtain ⟨⟨_, _, _⟩, ⟨_, _, _⟩, ⟨_, _, _⟩⟩ := h
  obtain ⟨⟨_, _, _⟩, ⟨_, _, _⟩, ⟨_, _, _⟩⟩ := r
  simp only [cglm, M3.map, V3.map]
  apply M3.ext <;> ext <;> gridm

theorem C97_exact_mat3_scale (M : Mode) (f : Bool) {i j : ℤ} {K L : ℕ} (m : M3 F32) (s : F32)
    (t : M3 X) (z : M3 ℝ)
    (h : M3.Reassoc (glm_mat3_scale (m.map .inp) (.inp s)) t) (r : M3.Runs M f t z)
    (hm : m.On i K) (hs : s.On j L)
    (hK : K * L ≤ 2 ^ 24) (lo : -126 ≤ i + j) :
    z = glm_mat3_scale (m.map toReal) (toReal s) := by
  simp only [cglm, M3.map, V3.map, M3.Reassoc, V3.Reassoc] at h
  simp only [M3.Runs, V3.Runs] at r
  simp only [M3.On, V3.On] at hm
  obtain ⟨⟨_, _, _⟩, ⟨_, _, _⟩, ⟨_, _, _⟩⟩ := hm
  obtain ⟨⟨_, _, _⟩, ⟨_, _, _⟩, ⟨_, _, _⟩⟩ := h
  obtain ⟨⟨_, _, _⟩, ⟨_, _, _⟩, ⟨_, _, _⟩⟩ := r
  simp only [cglm, M3.map, V3.map]
  apply M3.ext <;> ext <;> gridm

theorem C97_exact_mat3_trace (M : Mode) (f : Bool) {i : ℤ} {K : ℕ} (m : M3 F32)
    (t : X) (z : ℝ)
    (h : Reassoc (glm_mat3_trace (m.map .inp)) t) (r : Modes.Runs M f t z)
    (hm : m.On i K)
    (hK : 3 * K ≤ 2 ^ 24) (lo : -126 ≤ i) :
    z = glm_mat3_trace (m.map toReal) := by
  simp only [cglm, M3.map, V3.map] at h
  simp only [M3.On, V3.On] at hm
  obtain ⟨⟨_, _, _⟩, ⟨_, _, _⟩, ⟨_, _, _⟩⟩ := hm
  simp only [cglm, M3.map, V3.map]
  gridm

theorem C97_exact_mat4_mulv (M : Mode) (f : Bool) {i j : ℤ} {K L : ℕ} (m : M4 F32) (v : V4 F32)
    (t : V4 X) (z : V4 ℝ)
    (h : V4.Reassoc (glm_mat4_mulv (m.map .inp) (v.map .inp)) t) (r : V4.Runs M f t z)
    (hm : m.On i K) (hv : v.On j L)
    (hK : 4 * (K * L) ≤ 2 ^ 24) (lo : -126 ≤ i + j) :
    z = glm_mat4_mulv (m.map toReal) (v.map toReal) := by
  simp only [cglm, M4.map, V4.map, V4.Reassoc] at h
  simp only [V4.Runs] at r
  simp only [M4.On, V4.On] at hm hv
  obtain ⟨⟨_, _, _, _⟩, ⟨_, _, _, _⟩, ⟨_, _, _, _⟩, ⟨_, _, _, _⟩⟩ := hm
  obtain ⟨_, _, _, _⟩ := hv
  obtain ⟨_, _, _, _⟩ := h
  obtain ⟨_, _, _, _⟩ := r
  simp only [cglm, M4.map, V4.map]
  ext <;> gridm

theorem C97_exact_mat4_mul (M : Mode) (f : Bool) {i j : ℤ} {K L : ℕ} (a : M4 F32) (b : M4 F32)
    (t : M4 X) (z : M4 ℝ)
    (h : M4.Reassoc (glm_mat4_mul (a.map .inp) (b.map .inp)) t) (r : M4.Runs M f t z)
    (ha : a.On i K) (hb : b.On j L)
    (hK : 4 * (K * L) ≤ 2 ^ 24) (lo : -126 ≤ i + j) :
    z = glm_mat4_mul (a.map toReal) (b.map toReal) := by
  simp only [cglm, M4.map, V4.map, M4.Reassoc, V4.Reassoc] at h
  simp only [M4.Runs, V4.Runs] at r
  simp only [M4.On, V4.On] at ha hb
  obtain ⟨⟨_, _, _, _⟩, ⟨_, _, _, _⟩, ⟨_, _, _, _⟩, ⟨_, _, _, _⟩⟩ := ha
  obtain ⟨⟨_, _, _, _⟩, ⟨_, _, _, _⟩, ⟨_, _, _, _⟩, ⟨_, _, _, _⟩⟩ := hb
  obtain ⟨⟨_, _, _, _⟩, ⟨_, _, _, _⟩, ⟨_, _, _, _⟩, ⟨_, _, _, _⟩⟩ := h
  obtain ⟨⟨_, _, _, _⟩, ⟨_, _, _, _⟩, ⟨_, _, _, _⟩, ⟨_, _, _, _⟩⟩ := r
  simp only [cglm, M4.map, V4.map]
  apply M4.ext <;> ext <;> gridm

theorem C97_exact_mat4_scale (M : Mode) (f : Bool) {i j : ℤ} {K L : ℕ} (m : M4 F32) (s : F32)
    (t : M4 X) (z : M4 ℝ)
    (h : M4.Reassoc (glm_mat4_scale (m.map .inp) (.inp s)) t) (r : M4.Runs M f t z)
    (hm : m.On i K) (hs : s.On j L)
    (hK : K * L ≤ 2 ^ 24) (lo : -126 ≤ i + j) :
    z = glm_mat4_scale (m.map toReal) (toReal s) := by
  simp only [cglm, M4.map, V4.map, M4.Reassoc, V4.Reassoc] at h
  simp only [M4.Runs, V4.Runs] at r
  simp only [M4.On, V4.On] at hm
  obtain ⟨⟨_, _, _, _⟩, ⟨_, _, _, _⟩, ⟨_, _, _, _⟩, ⟨_, _, _, _⟩⟩ := hm
  obtain ⟨⟨_, _, _, _⟩, ⟨_, _, _, _⟩, ⟨_, _, _, _⟩, ⟨_, _, _, _⟩⟩ := h
  obtain ⟨⟨_, _, _, _⟩, ⟨_, _, _, _⟩, ⟨_, _, _, _⟩, ⟨_, _, _, _⟩⟩ := r
  simp only [cglm, M4.map, V4.map]
  apply M4.ext <;> ext <;> gridm

theorem C97_exact_mat4_trace (M : Mode) (f : Bool) {i : ℤ} {K : ℕ} (m : M4 F32)
    (t : X) (z : ℝ)
    (h : Reassoc (glm_mat4_trace (m.map .inp)) t) (r : Modes.Runs M f t z)
    (hm : m.On i K)
    (hK : 4 * K ≤ 2 ^ 24) (lo : -126 ≤ i) :
    z = glm_mat4_trace (m.map toReal) := by
  simp only [cglm, M4.map, V4.map] at h
  simp only [M4.On, V4.On] at hm
  obtain ⟨⟨_, _, _, _⟩, ⟨_, _, _, _⟩, ⟨_, _, _, _⟩, ⟨_, _, _, _⟩⟩ := hm
  simp only [cglm, M4.map, V4.map]
  gridm

theorem C97_exact_mat2_det (M : Mode) (f : Bool) {i : ℤ} {K : ℕ} (m : M2 F32)
    (t : X) (z : ℝ)
    (h : Reassoc (glm_mat2_det (m.map .inp)) t) (r : Modes.Runs M f t z)
    (hm : m.On i K)
    (hK : 2 * (K * K) ≤ 2 ^ 24) (lo : -126 ≤ i + i) :
    z = glm_mat2_det (m.map toReal) := by
  simp only [cglm, M2.map, V2.map] at h
  simp only [M2.On, V2.On] at hm
  obtain ⟨⟨_, _⟩, ⟨_, _⟩⟩ := hm
  simp only [cglm, M2.map, V2.map]
  gridm

theorem C97_exact_mat2x3_mulv (M : Mode) (f : Bool) {i j : ℤ} {K L : ℕ} (m : M2x3 F32) (v : V2 F32)
    (t : V3 X) (z : V3 ℝ)
    (h : V3.Reassoc (glm_mat2x3_mulv (m.map .inp) (v.map .inp)) t) (r : V3.Runs M f t z)
    (hm : m.On i K) (hv : v.On j L)
    (hK : 2 * (K * L) ≤ 2 ^ 24) (lo : -126 ≤ i + j) :
    z = glm_mat2x3_mulv (m.map toReal) (v.map toReal) := by
  simp only [cglm, M2x3.map, V2.map, V3.map, V3.Reassoc] at h
  simp only [V3.Runs] at r
  simp only [M2x3.On, V2.On, V3.On] at hm hv
  obtain ⟨⟨_, _, _⟩, ⟨_, _, _⟩⟩ := hm
  obtain ⟨_, _⟩ := hv
  obtain ⟨_, _, _⟩ := h
  obtain ⟨_, _, _⟩ := r
  simp only [cglm, M2x3.map, V2.map, V3.map]
  ext <;> gridm

theorem C97_exact_mat2x3_mul (M : Mode) (f : Bool) {i j : ℤ} {K L : ℕ} (a : M2x3 F32) (b : M3x2 F32)
    (t : M3 X) (z : M3 ℝ)
    (h : M3.Reassoc (glm_mat2x3_mul (a.map .inp) (b.map .inp)) t) (r : M3.Runs M f t z)
    (ha : a.On i K) (hb : b.On j L)
    (hK : 2 * (K * L) ≤ 2 ^ 24) (lo : -126 ≤ i + j) :
    z = glm_mat2x3_mul (a.map toReal) (b.map toReal) := by
  simp only [cglm, M2x3.map, M3.map, M3x2.map, V2.map, V3.map, M3.Reassoc, V3.Reassoc] at h
  simp only [M3.Runs, V3.Runs] at r
  simp only [M2x3.On, M3x2.On, V2.On, V3.On] at ha hb
  obtain ⟨⟨_, _, _⟩, ⟨_, _, _⟩⟩ := ha
  obtain ⟨⟨_, _⟩, ⟨_, _⟩, ⟨_, _⟩⟩ := hb
  obtain ⟨⟨_, _, _⟩, ⟨_, _, _⟩, ⟨_, _, _⟩⟩ := h
  obtain ⟨⟨_, _, _⟩, ⟨_, _, _⟩, ⟨_, _, _⟩⟩ := r
  simp only [cglm, M2x3.map, M3.map, M3x2.map, V2.map, V3.map]
  apply M3.ext <;> ext <;> gridm

theorem C97_exact_mat2x4_mulv (M : Mode) (f : Bool) {i j : ℤ} {K L : ℕ} (m : M2x4 F32) (v : V2 F32)
    (t : V4 X) (z : V4 ℝ)
    (h : V4.Reassoc (glm_mat2x4_mulv (m.map .inp) (v.map .inp)) t) (r : V4.Runs M f t z)
    (hm : m.On i K) (hv : v.On j L)
    (hK : 2 * (K * L) ≤ 2 ^ 24) (lo : -126 ≤ i + j) :
    z = glm_mat2x4_mulv (m.map toReal) (v.map toReal) := by
  simp only [cglm, M2x4.map, V2.map, V4.map, V4.Reassoc] at h
  simp only [V4.Runs] at r
  simp only [M2x4.On, V2.On, V4.On] at hm hv
  obtain ⟨⟨_, _, _, _⟩, ⟨_, _, _, _⟩⟩ := hm
  obtain ⟨_, _⟩ := hv
  obtain ⟨_, _, _, _⟩ := h
  obtain ⟨_, _, _, _⟩ := r
  simp only [cglm, M2x4.map, V2.map, V4.map]
  ext <;> gridm

theorem C97_exact_mat2x4_mul (M : Mode) (f : Bool) {i j : ℤ} {K L : ℕ} (a : M2x4 F32) (b : M4x2 F32)
    (t : M4 X) (z : M4 ℝ)
    (h : M4.Reassoc (glm_mat2x4_mul (a.map .inp) (b.map .inp)) t) (r : M4.Runs M f t z)
    (ha : a.On i K) (hb : b.On j L)
    (hK : 2 * (K * L) ≤ 2 ^ 24) (lo : -126 ≤ i + j) :
    z = glm_mat2x4_mul (a.map toReal) (b.map toReal) := by
  simp only [cglm, M2x4.map, M4.map, M4x2.map, V2.map, V4.map, M4.Reassoc, V4.Reassoc] at h
  simp only [M4.Runs, V4.Runs] at r
  simp only [M2x4.On, M4x2.On, V2.On, V4.On] at ha hb
  obtain ⟨⟨_, _, _, _⟩, ⟨_, _, _, _⟩⟩ := ha
  obtain ⟨⟨_, _⟩, ⟨_, _⟩, ⟨_, _⟩, ⟨_, _⟩⟩ := hb
  obtain ⟨⟨_, _, _, _⟩, ⟨_, _, _, _⟩, ⟨_, _, _, _⟩, ⟨_, _, _, _⟩⟩ := h
  obtain ⟨⟨_, _, _, _⟩, ⟨_, _, _, _⟩, ⟨_, _, _, _⟩, ⟨_, _, _, _⟩⟩ := r
  simp only [cglm, M2x4.map, M4.map, M4x2.map, V2.map, V4.map]
  apply M4.ext <;> ext <;> gridm

theorem C97_exact_mat3x2_mulv (M : Mode) (f : Bool) {i j : ℤ} {K L : ℕ} (m : M3x2 F32) (v : V3 F32)
    (t : V2 X) (z : V2 ℝ)
    (h : V2.Reassoc (glm_mat3x2_mulv (m.map .inp) (v.map .inp)) t) (r : V2.Runs M f t z)
    (hm : m.On i K) (hv : v.On j L)
    (hK : 3 * (K * L) ≤ 2 ^ 24) (lo : -126 ≤ i + j) :
    z = glm_mat3x2_mulv (m.map toReal) (v.map toReal) := by
  simp only [cglm, M3x2.map, V2.map, V3.map, V2.Reassoc] at h
  simp only [V2.Runs] at r
  simp only [M3x2.On, V2.On, V3.On] at hm hv
  obtain ⟨⟨_, _⟩, ⟨_, _⟩, ⟨_, _⟩⟩ := hm
  obtain ⟨_, _, _⟩ := hv
  obtain ⟨_, _⟩ := h
  obtain ⟨_, _⟩ := r
  simp only [cglm, M3x2.map, V2.map, V3.map]
  ext <;> gridm

theorem C97_exact_mat3x2_mul (M : Mode) (f : Bool) {i j : ℤ} {K L : ℕ} (a : M3x2 F32) (b : M2x3 F32)
    (t : M2 X) (z : M2 ℝ)
    (h : M2.Reassoc (glm_mat3x2_mul (a.map .inp) (b.map .inp)) t) (r : M2.Runs M f t z)
    (ha : a.On i K) (hb : b.On j L)
    (hK : 3 * (K * L) ≤ 2 ^ 24) (lo : -126 ≤ i + j) :
    z = glm_mat3x2_mul (a.map toReal) (b.map toReal) := by
  simp only [cglm, M2.map, M2x3.map, M3x2.map, V2.map, V3.map, M2.Reassoc, V2.Reassoc] at h
  simp only [M2.Runs, V2.Runs] at r
  simp only [M2x3.On, M3x2.On, V2.On, V3.On] at ha hb
  obtain ⟨⟨_, _⟩, ⟨_, _⟩, ⟨_, _⟩⟩ := ha
  obtain ⟨⟨_, _, _⟩, ⟨_, _, _⟩⟩ := hb
  obtain ⟨⟨_, _⟩, ⟨_, _⟩⟩ := h
  obtain ⟨⟨_, _⟩, ⟨_, _⟩⟩ := r
  simp only [cglm, M2.map, M2x3.map, M3x2.map, V2.map, V3.map]
  apply M2.ext <;> ext <;> gridm

theorem C97_exact_mat3x4_mulv (M : Mode) (f : Bool) {i j : ℤ} {K L : ℕ} (m : M3x4 F32) (v : V3 F32)
    (t : V4 X) (z : V4 ℝ)
    (h : V4.Reassoc (glm_mat3x4_mulv (m.map .inp) (v.map .inp)) t) (r : V4.Runs M f t z)
    (hm : m.On i K) (hv : v.On j L)
    (hK : 3 * (K * L) ≤ 2 ^ 24) (lo : -126 ≤ i + j) :
    z = glm_mat3x4_mulv (m.map toReal) (v.map toReal) := by
  simp only [cglm, M3x4.map, V3.map, V4.map, V4.Reassoc] at h
  simp only [V4.Runs] at r
  simp only [M3x4.On, V3.On, V4.On] at hm hv
  obtain ⟨⟨_, _, _, _⟩, ⟨_, _, _, _⟩, ⟨_, _, _, _⟩⟩ := hm
  obtain ⟨_, _, _⟩ := hv
  obtain ⟨_, _, _, _⟩ := h
  obtain ⟨_, _, _, _⟩ := r
  simp only [cglm, M3x4.map, V3.map, V4.map]
  ext <;> gridm

theorem C97_exact_mat3x4_mul (M : Mode) (f : Bool) {i j : ℤ} {K L : ℕ} (a : M3x4 F32) (b : M4x3 F32)
    (t : M4 X) (z : M4 ℝ)
    (h : M4.Reassoc (glm_mat3x4_mul (a.map .inp) (b.map .inp)) t) (r : M4.Runs M f t z)
    (ha : a.On i K) (hb : b.On j L)
    (hK : 3 * (K * L) ≤ 2 ^ 24) (lo : -126 ≤ i + j) :
    z = glm_mat3x4_mul (a.map toReal) (b.map toReal) := by
  simp only [cglm, M3x4.map, M4.map, M4x3.map, V3.map, V4.map, M4.Reassoc, V4.Reassoc] at h
  simp only [M4.Runs, V4.Runs] at r
  simp only [M3x4.On, M4x3.On, V3.On, V4.On] at ha hb
  obtain ⟨⟨_, _, _, _⟩, ⟨_, _, _, _⟩, ⟨_, _, _, _⟩⟩ := ha
  obtain ⟨⟨_, _, _⟩, ⟨_, _, _⟩, ⟨_, _, _⟩, ⟨_, _, _⟩⟩ := hb
  obtain ⟨⟨_, _, _, _⟩, ⟨_, _, _, _⟩, ⟨_, _, _, _⟩, ⟨_, _, _, _⟩⟩ := h
  obtain ⟨⟨_, _, _, _⟩, ⟨_, _, _, _⟩, ⟨_, _, _, _⟩, ⟨_, _, _, _⟩⟩ := r
  simp only [cglm, M3x4.map, M4.map, M4x3.map, V3.map, V4.map]
  apply M4.ext <;> ext <;> gridm

theorem C97_exact_mat4x2_mulv (M : Mode) (f : Bool) {i j : ℤ} {K L : ℕ} (m : M4x2 F32) (v : V4 F32)
    (t : V2 X) (z : V2 ℝ)
    (h : V2.Reassoc (glm_mat4x2_mulv (m.map .inp) (v.map .inp)) t) (r : V2.Runs M f t z)
    (hm : m.On i K) (hv : v.On j L)
    (hK : 4 * (K * L) ≤ 2 ^ 24) (lo : -126 ≤ i + j) :
    z = glm_mat4x2_mulv (m.map toReal) (v.map toReal) := by
  simp only [cglm, M4x2.map, V2.map, V4.map, V2.Reassoc] at h
  simp only [V2.Runs] at r
  simp only [M4x2.On, V2.On, V4.On] at hm hv
  obtain ⟨⟨_, _⟩, ⟨_, _⟩, ⟨_, _⟩, ⟨_, _⟩⟩ := hm
  obtain ⟨_, _, _, _⟩ := hv
  obtain ⟨_, _⟩ := h
  obtain ⟨_, _⟩ := r
  simp only [cglm, M4x2.map, V2.map, V4.map]
  ext <;> gridm

theorem C97_exact_mat4x2_mul (M : Mode) (f : Bool) {i j : ℤ} {K L : ℕ} (a : M4x2 F32) (b : M2x4 F32)
    (t : M2 X) (z : M2 ℝ)
    (h : M2.Reassoc (glm_mat4x2_mul (a.map .inp) (b.map .inp)) t) (r : M2.Runs M f t z)
    (ha : a.On i K) (hb : b.On j L)
    (hK : 4 * (K * L) ≤ 2 ^ 24) (lo : -126 ≤ i + j) :
    z = glm_mat4x2_mul (a.map toReal) (b.map toReal) := by
  simp only [cglm, M2.map, M2x4.map, M4x2.map, V2.map, V4.map, M2.Reassoc, V2.Reassoc] at h
  simp only [M2.Runs, V2.Runs] at r
  simp only [M2x4.On, M4x2.On, V2.On, V4.On] at ha hb
  obtain ⟨⟨_, _⟩, ⟨_, _⟩, ⟨_, _⟩, ⟨_, _⟩⟩ := ha
  obtain ⟨⟨_, _, _, _⟩, ⟨_, _, _, _⟩⟩ := hb
  obtain ⟨⟨_, _⟩, ⟨_, _⟩⟩ := h
  obtain ⟨⟨_, _⟩, ⟨_, _⟩⟩ := r
  simp only [cglm, M2.map, M2x4.map, M4x2.map, V2.map, V4.map]
  apply M2.ext <;> ext <;> gridm

theorem C97_exact_mat4x3_mulv (M : Mode) (f : Bool) {i j : ℤ} {K L : ℕ} (m : M4x3 F32) (v : V4 F32)
    (t : V3 X) (z : V3 ℝ)
    (h : V3.Reassoc (glm_mat4x3_mulv (m.map .inp) (v.map .inp)) t) (r : V3.Runs M f t z)
    (hm : m.On i K) (hv : v.On j L)
    (hK : 4 * (K * L) ≤ 2 ^ 24) (lo : -126 ≤ i + j) :
    z = glm_mat4x3_mulv (m.map toReal) (v.map toReal) := by
  simp only [cglm, M4x3.map, V3.map, V4.map, V3.Reassoc] at h
  simp only [V3.Runs] at r
  simp only [M4x3.On, V3.On, V4.On] at hm hv
  obtain ⟨⟨_, _, _⟩, ⟨_, _, _⟩, ⟨_, _, _⟩, ⟨_, _, _⟩⟩ := hm
  obtain ⟨_, _, _, _⟩ := hv
  obtain ⟨_, _, _⟩ := h
  obtain ⟨_, _, _⟩ := r
  simp only [cglm, M4x3.map, V3.map, V4.map]
  ext <;> gridm

theorem C97_exact_mat4x3_mul (M : Mode) (f : Bool) {i j : ℤ} {K L : ℕ} (a : M4x3 F32) (b : M3x4 F32)
    (t : M3 X) (z : M3 ℝ)
    (h : M3.Reassoc (glm_mat4x3_mul (a.map .inp) (b.map .inp)) t) (r : M3.Runs M f t z)
    (ha : a.On i K) (hb : b.On j L)
    (hK : 4 * (K * L) ≤ 2 ^ 24) (lo : -126 ≤ i + j) :
    z = glm_mat4x3_mul (a.map toReal) (b.map toReal) := by
  simp only [cglm, M3.map, M3x4.map, M4x3.map, V3.map, V4.map, M3.Reassoc, V3.Reassoc] at h
  simp only [M3.Runs, V3.Runs] at r
  simp only [M3x4.On, M4x3.On, V3.On, V4.On] at ha hb
  obtain ⟨⟨_, _, _⟩, ⟨_, _, _⟩, ⟨_, _, _⟩, ⟨_, _, _⟩⟩ := ha
  obtain ⟨⟨_, _, _, _⟩, ⟨_, _, _, _⟩, ⟨_, _, _, _⟩⟩ := hb
  obtain ⟨⟨_, _, _⟩, ⟨_, _, _⟩, ⟨_, _, _⟩⟩ := h
  obtain ⟨⟨_, _, _⟩, ⟨_, _, _⟩, ⟨_, _, _⟩⟩ := r
  simp only [cglm, M3.map, M3x4.map, M4x3.map, V3.map, V4.map]
  apply M3.ext <;> ext <;> gridm

theorem C97_exact_mat4_mulv3 (M : Mode) (f : Bool) {i j : ℤ} {K L : ℕ} (m : M4 F32) (v : V3 F32) (last : F32)
    (t : V3 X) (z : V3 ℝ)
    (h : V3.Reassoc (glm_mat4_mulv3 (m.map .inp) (v.map .inp) (.inp last)) t) (r : V3.Runs M f t z)
    (hm : m.On i K) (hv : v.On j L) (hlast : last.On j L)
    (hK : 4 * (K * L) ≤ 2 ^ 24) (lo : -126 ≤ i + j) :
    z = glm_mat4_mulv3 (m.map toReal) (v.map toReal) (toReal last) := by
  simp only [cglm, M4.map, V3.map, V4.map, V3.Reassoc] at h
  simp only [V3.Runs] at r
  simp only [M4.On, V3.On, V4.On] at hm hv
  obtain ⟨⟨_, _, _, _⟩, ⟨_, _, _, _⟩, ⟨_, _, _, _⟩, ⟨_, _, _, _⟩⟩ := hm
  obtain ⟨_, _, _⟩ := hv
  obtain ⟨_, _, _⟩ := h
  obtain ⟨_, _, _⟩ := r
  simp only [cglm, M4.map, V3.map, V4.map]
  ext <;> gridm

theorem C97_exact_mul (M : Mode) (f : Bool) {i j : ℤ} {K L : ℕ} (a : M4 F32) (b : M4 F32)
    (t : M4 X) (z : M4 ℝ)
    (h : M4.Reassoc (glm_mul (a.map .inp) (b.map .inp)) t) (r : M4.Runs M f t z)
    (ha : a.On i K) (hb : b.On j L)
    (hK : 4 * (K * L) ≤ 2 ^ 24) (lo : -126 ≤ i + j) :
    z = glm_mul (a.map toReal) (b.map toReal) := by
  simp only [cglm, M4.map, V4.map, M4.Reassoc, V4.Reassoc] at h
  simp only [M4.Runs, V4.Runs] at r
  simp only [M4.On, V4.On] at ha hb
  obtain ⟨⟨_, _, _, _⟩, ⟨_, _, _, _⟩, ⟨_, _, _, _⟩, ⟨_, _, _, _⟩⟩ := ha
  obtain ⟨⟨_, _, _, _⟩, ⟨_, _, _, _⟩, ⟨_, _, _, _⟩, ⟨_, _, _, _⟩⟩ := hb
  obtain ⟨⟨_, _, _, _⟩, ⟨_, _, _, _⟩, ⟨_, _, _, _⟩, ⟨_, _, _, _⟩⟩ := h
  obtain ⟨⟨_, _, _, _⟩, ⟨_, _, _, _⟩, ⟨_, _, _, _⟩, ⟨_, _, _, _⟩⟩ := r
  simp only [cglm, M4.map, V4.map]
  apply M4.ext <;> ext <;> gridm

theorem C97_exact_mul_rot (M : Mode) (f : Bool) {K L : ℕ} (a : M4 F32) (b : M4 F32)
    (t : M4 X) (z : M4 ℝ)
    (h : M4.Reassoc (glm_mul_rot (a.map .inp) (b.map .inp)) t) (r : M4.Runs M f t z)
    (ha : a.On 0 K) (hb : b.On 0 L)
    (hK : 3 * (K * L) + K ≤ 2 ^ 24) :
    z = glm_mul_rot (a.map toReal) (b.map toReal) := by
  simp only [cglm, M4.map, V4.map, M4.Reassoc, V4.Reassoc] at h
  simp only [M4.Runs, V4.Runs] at r
  simp only [M4.On, V4.On] at ha hb
  obtain ⟨⟨_, _, _, _⟩, ⟨_, _, _, _⟩, ⟨_, _, _, _⟩, ⟨_, _, _, _⟩⟩ := ha
  obtain ⟨⟨_, _, _, _⟩, ⟨_, _, _, _⟩, ⟨_, _, _, _⟩, ⟨_, _, _, _⟩⟩ := hb
  obtain ⟨⟨_, _, _, _⟩, ⟨_, _, _, _⟩, ⟨_, _, _, _⟩, ⟨_, _, _, _⟩⟩ := h
  obtain ⟨⟨_, _, _, _⟩, ⟨_, _, _, _⟩, ⟨_, _, _, _⟩, ⟨_, _, _, _⟩⟩ := r
  simp only [cglm, M4.map, V4.map]
  apply M4.ext <;> ext <;> gridm

theorem C97_exact_scale_to (M : Mode) (f : Bool) {K L : ℕ} (m : M4 F32) (v : V3 F32)
    (t : M4 X) (z : M4 ℝ)
    (h : M4.Reassoc (glm_scale_to (m.map .inp) (v.map .inp)) t) (r : M4.Runs M f t z)
    (hm : m.On 0 K) (hv : v.On 0 L)
    (hK : K * L + K ≤ 2 ^ 24) :
    z = glm_scale_to (m.map toReal) (v.map toReal) := by
  simp only [cglm, M4.map, V3.map, V4.map, M4.Reassoc, V4.Reassoc] at h
  simp only [M4.Runs, V4.Runs] at r
  simp only [M4.On, V3.On, V4.On] at hm hv
  obtain ⟨⟨_, _, _, _⟩, ⟨_, _, _, _⟩, ⟨_, _, _, _⟩, ⟨_, _, _, _⟩⟩ := hm
  obtain ⟨_, _, _⟩ := hv
  obtain ⟨⟨_, _, _, _⟩, ⟨_, _, _, _⟩, ⟨_, _, _, _⟩, ⟨_, _, _, _⟩⟩ := h
  obtain ⟨⟨_, _, _, _⟩, ⟨_, _, _, _⟩, ⟨_, _, _, _⟩, ⟨_, _, _, _⟩⟩ := r
  simp only [cglm, M4.map, V3.map, V4.map]
  apply M4.ext <;> ext <;> gridm

end Cglm
