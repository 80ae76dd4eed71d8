import Verif.Assoc
import Verif.Gen
/-!
# C96: exact results under reassociation

On small integers and fixed-point numbers (`On` and `Exact` are those of C76) the order makes no difference.
Written by `tools/assocthms.py`.
-/
set_option linter.unusedSimpArgs false
set_option linter.unusedSectionVars false
open Cglm F32
namespace Cglm
variable [Libm]

theorem C96_exact_vec2_add {i : ℤ} {K L : ℕ} (a : V2 F32) (b : V2 F32)
    (t : V2 X) (h : V2.Reassoc (glm_vec2_add (a.map .inp) (b.map .inp)) t)
    (ha : a.On i K) (hb : b.On i L)
    (hK : K + L ≤ 2 ^ 24) (lo : -149 ≤ i) (hi : i ≤ 103) :
    (t.map X.run).Exact (glm_vec2_add (a.map toReal) (b.map toReal)) (i) (K + L) := by
  simp only [cglm, V2.map, V2.Reassoc] at h
  simp only [cglm, V2.map, V2.Exact]
  simp only [V2.On] at ha hb
  obtain ⟨_, _⟩ := ha
  obtain ⟨_, _⟩ := hb
  obtain ⟨_, _⟩ := h
  refine ⟨?_, ?_⟩ <;> gridx

theorem C96_exact_vec2_adds {i : ℤ} {K L : ℕ} (v : V2 F32) (s : F32)
    (t : V2 X) (h : V2.Reassoc (glm_vec2_adds (v.map .inp) (.inp s)) t)
    (hv : v.On i K) (hs : s.On i L)
    (hK : K + L ≤ 2 ^ 24) (lo : -149 ≤ i) (hi : i ≤ 103) :
    (t.map X.run).Exact (glm_vec2_adds (v.map toReal) (toReal s)) (i) (K + L) := by
  simp only [cglm, V2.map, V2.Reassoc] at h
  simp only [cglm, V2.map, V2.Exact]
  simp only [V2.On] at hv
  obtain ⟨_, _⟩ := hv
  obtain ⟨_, _⟩ := h
  refine ⟨?_, ?_⟩ <;> gridx

theorem C96_exact_vec2_sub {i : ℤ} {K L : ℕ} (a : V2 F32) (b : V2 F32)
    (t : V2 X) (h : V2.Reassoc (glm_vec2_sub (a.map .inp) (b.map .inp)) t)
    (ha : a.On i K) (hb : b.On i L)
    (hK : K + L ≤ 2 ^ 24) (lo : -149 ≤ i) (hi : i ≤ 103) :
    (t.map X.run).Exact (glm_vec2_sub (a.map toReal) (b.map toReal)) (i) (K + L) := by
  simp only [cglm, V2.map, V2.Reassoc] at h
  simp only [cglm, V2.map, V2.Exact]
  simp only [V2.On] at ha hb
  obtain ⟨_, _⟩ := ha
  obtain ⟨_, _⟩ := hb
  obtain ⟨_, _⟩ := h
  refine ⟨?_, ?_⟩ <;> gridx

theorem C96_exact_vec2_subs {i : ℤ} {K L : ℕ} (v : V2 F32) (s : F32)
    (t : V2 X) (h : V2.Reassoc (glm_vec2_subs (v.map .inp) (.inp s)) t)
    (hv : v.On i K) (hs : s.On i L)
    (hK : K + L ≤ 2 ^ 24) (lo : -149 ≤ i) (hi : i ≤ 103) :
    (t.map X.run).Exact (glm_vec2_subs (v.map toReal) (toReal s)) (i) (K + L) := by
  simp only [cglm, V2.map, V2.Reassoc] at h
  simp only [cglm, V2.map, V2.Exact]
  simp only [V2.On] at hv
  obtain ⟨_, _⟩ := hv
  obtain ⟨_, _⟩ := h
  refine ⟨?_, ?_⟩ <;> gridx

theorem C96_exact_vec2_mul {i j : ℤ} {K L : ℕ} (a : V2 F32) (b : V2 F32)
    (t : V2 X) (h : V2.Reassoc (glm_vec2_mul (a.map .inp) (b.map .inp)) t)
    (ha : a.On i K) (hb : b.On j L)
    (hK : K * L ≤ 2 ^ 24) (lo : -149 ≤ i + j) (hi : i + j ≤ 103) :
    (t.map X.run).Exact (glm_vec2_mul (a.map toReal) (b.map toReal)) (i + j) (K * L) := by
  simp only [cglm, V2.map, V2.Reassoc] at h
  simp only [cglm, V2.map, V2.Exact]
  simp only [V2.On] at ha hb
  obtain ⟨_, _⟩ := ha
  obtain ⟨_, _⟩ := hb
  obtain ⟨_, _⟩ := h
  refine ⟨?_, ?_⟩ <;> gridx

theorem C96_exact_vec2_scale {i j : ℤ} {K L : ℕ} (v : V2 F32) (s : F32)
    (t : V2 X) (h : V2.Reassoc (glm_vec2_scale (v.map .inp) (.inp s)) t)
    (hv : v.On i K) (hs : s.On j L)
    (hK : K * L ≤ 2 ^ 24) (lo : -149 ≤ i + j) (hi : i + j ≤ 103) :
    (t.map X.run).Exact (glm_vec2_scale (v.map toReal) (toReal s)) (i + j) (K * L) := by
  simp only [cglm, V2.map, V2.Reassoc] at h
  simp only [cglm, V2.map, V2.Exact]
  simp only [V2.On] at hv
  obtain ⟨_, _⟩ := hv
  obtain ⟨_, _⟩ := h
  refine ⟨?_, ?_⟩ <;> gridx

theorem C96_exact_vec2_dot {i j : ℤ} {K L : ℕ} (a : V2 F32) (b : V2 F32)
    (t : X) (h : Reassoc (glm_vec2_dot (a.map .inp) (b.map .inp)) t)
    (ha : a.On i K) (hb : b.On j L)
    (hK : 2 * (K * L) ≤ 2 ^ 24) (lo : -149 ≤ i + j) (hi : i + j ≤ 103) :
    t.run.Exact (glm_vec2_dot (a.map toReal) (b.map toReal)) (i + j) (2 * (K * L)) := by
  simp only [cglm, V2.map] at h
  simp only [cglm, V2.map]
  simp only [V2.On] at ha hb
  obtain ⟨_, _⟩ := ha
  obtain ⟨_, _⟩ := hb
  gridx

theorem C96_exact_vec2_norm2 {i : ℤ} {K : ℕ} (v : V2 F32)
    (t : X) (h : Reassoc (glm_vec2_norm2 (v.map .inp)) t)
    (hv : v.On i K)
    (hK : 2 * (K * K) ≤ 2 ^ 24) (lo : -149 ≤ i + i) (hi : i + i ≤ 103) :
    t.run.Exact (glm_vec2_norm2 (v.map toReal)) (i + i) (2 * (K * K)) := by
  simp only [cglm, V2.map] at h
  simp only [cglm, V2.map]
  simp only [V2.On] at hv
  obtain ⟨_, _⟩ := hv
  gridx

theorem C96_exact_vec2_muladd {i j : ℤ} {K L M : ℕ} (a : V2 F32) (b : V2 F32) (c : V2 F32)
    (t : V2 X) (h : V2.Reassoc (glm_vec2_muladd (a.map .inp) (b.map .inp) (c.map .inp)) t)
    (ha : a.On i K) (hb : b.On j L) (hc : c.On (i + j) M)
    (hK : K * L + M ≤ 2 ^ 24) (lo : -149 ≤ i + j) (hi : i + j ≤ 103) :
    (t.map X.run).Exact (glm_vec2_muladd (a.map toReal) (b.map toReal) (c.map toReal)) (i + j) (K * L + M) := by
  simp only [cglm, V2.map, V2.Reassoc] at h
  simp only [cglm, V2.map, V2.Exact]
  simp only [V2.On] at ha hb hc
  obtain ⟨_, _⟩ := ha
  obtain ⟨_, _⟩ := hb
  obtain ⟨_, _⟩ := hc
  obtain ⟨_, _⟩ := h
  refine ⟨?_, ?_⟩ <;> gridx

theorem C96_exact_vec2_muladds {i j : ℤ} {K L M : ℕ} (a : V2 F32) (s : F32) (c : V2 F32)
    (t : V2 X) (h : V2.Reassoc (glm_vec2_muladds (a.map .inp) (.inp s) (c.map .inp)) t)
    (ha : a.On i K) (hs : s.On j L) (hc : c.On (i + j) M)
    (hK : K * L + M ≤ 2 ^ 24) (lo : -149 ≤ i + j) (hi : i + j ≤ 103) :
    (t.map X.run).Exact (glm_vec2_muladds (a.map toReal) (toReal s) (c.map toReal)) (i + j) (K * L + M) := by
  simp only [cglm, V2.map, V2.Reassoc] at h
  simp only [cglm, V2.map, V2.Exact]
  simp only [V2.On] at ha hc
  obtain ⟨_, _⟩ := ha
  obtain ⟨_, _⟩ := hc
  obtain ⟨_, _⟩ := h
  refine ⟨?_, ?_⟩ <;> gridx

theorem C96_exact_vec2_mulsub {i j : ℤ} {K L M : ℕ} (a : V2 F32) (b : V2 F32) (c : V2 F32)
    (t : V2 X) (h : V2.Reassoc (glm_vec2_mulsub (a.map .inp) (b.map .inp) (c.map .inp)) t)
    (ha : a.On i K) (hb : b.On j L) (hc : c.On (i + j) M)
    (hK : K * L + M ≤ 2 ^ 24) (lo : -149 ≤ i + j) (hi : i + j ≤ 103) :
    (t.map X.run).Exact (glm_vec2_mulsub (a.map toReal) (b.map toReal) (c.map toReal)) (i + j) (K * L + M) := by
  simp only [cglm, V2.map, V2.Reassoc] at h
  simp only [cglm, V2.map, V2.Exact]
  simp only [V2.On] at ha hb hc
  obtain ⟨_, _⟩ := ha
  obtain ⟨_, _⟩ := hb
  obtain ⟨_, _⟩ := hc
  obtain ⟨_, _⟩ := h
  refine ⟨?_, ?_⟩ <;> gridx

theorem C96_exact_vec2_mulsubs {i j : ℤ} {K L M : ℕ} (a : V2 F32) (s : F32) (c : V2 F32)
    (t : V2 X) (h : V2.Reassoc (glm_vec2_mulsubs (a.map .inp) (.inp s) (c.map .inp)) t)
    (ha : a.On i K) (hs : s.On j L) (hc : c.On (i + j) M)
    (hK : K * L + M ≤ 2 ^ 24) (lo : -149 ≤ i + j) (hi : i + j ≤ 103) :
    (t.map X.run).Exact (glm_vec2_mulsubs (a.map toReal) (toReal s) (c.map toReal)) (i + j) (K * L + M) := by
  simp only [cglm, V2.map, V2.Reassoc] at h
  simp only [cglm, V2.map, V2.Exact]
  simp only [V2.On] at ha hc
  obtain ⟨_, _⟩ := ha
  obtain ⟨_, _⟩ := hc
  obtain ⟨_, _⟩ := h
  refine ⟨?_, ?_⟩ <;> gridx

theorem C96_exact_vec2_addadd {i : ℤ} {K L M : ℕ} (a : V2 F32) (b : V2 F32) (c : V2 F32)
    (t : V2 X) (h : V2.Reassoc (glm_vec2_addadd (a.map .inp) (b.map .inp) (c.map .inp)) t)
    (ha : a.On i K) (hb : b.On i L) (hc : c.On i M)
    (hK : K + L + M ≤ 2 ^ 24) (lo : -149 ≤ i) (hi : i ≤ 103) :
    (t.map X.run).Exact (glm_vec2_addadd (a.map toReal) (b.map toReal) (c.map toReal)) (i) (K + L + M) := by
  simp only [cglm, V2.map, V2.Reassoc] at h
  simp only [cglm, V2.map, V2.Exact]
  simp only [V2.On] at ha hb hc
  obtain ⟨_, _⟩ := ha
  obtain ⟨_, _⟩ := hb
  obtain ⟨_, _⟩ := hc
  obtain ⟨_, _⟩ := h
  refine ⟨?_, ?_⟩ <;> gridx

theorem C96_exact_vec2_subadd {i : ℤ} {K L M : ℕ} (a : V2 F32) (b : V2 F32) (c : V2 F32)
    (t : V2 X) (h : V2.Reassoc (glm_vec2_subadd (a.map .inp) (b.map .inp) (c.map .inp)) t)
    (ha : a.On i K) (hb : b.On i L) (hc : c.On i M)
    (hK : K + L + M ≤ 2 ^ 24) (lo : -149 ≤ i) (hi : i ≤ 103) :
    (t.map X.run).Exact (glm_vec2_subadd (a.map toReal) (b.map toReal) (c.map toReal)) (i) (K + L + M) := by
  simp only [cglm, V2.map, V2.Reassoc] at h
  simp only [cglm, V2.map, V2.Exact]
  simp only [V2.On] at ha hb hc
  obtain ⟨_, _⟩ := ha
  obtain ⟨_, _⟩ := hb
  obtain ⟨_, _⟩ := hc
  obtain ⟨_, _⟩ := h
  refine ⟨?_, ?_⟩ <;> gridx

theorem C96_exact_vec2_addsub {i : ℤ} {K L M : ℕ} (a : V2 F32) (b : V2 F32) (c : V2 F32)
    (t : V2 X) (h : V2.Reassoc (glm_vec2_addsub (a.map .inp) (b.map .inp) (c.map .inp)) t)
    (ha : a.On i K) (hb : b.On i L) (hc : c.On i M)
    (hK : K + L + M ≤ 2 ^ 24) (lo : -149 ≤ i) (hi : i ≤ 103) :
    (t.map X.run).Exact (glm_vec2_addsub (a.map toReal) (b.map toReal) (c.map toReal)) (i) (K + L + M) := by
  simp only [cglm, V2.map, V2.Reassoc] at h
  simp only [cglm, V2.map, V2.Exact]
  simp only [V2.On] at ha hb hc
  obtain ⟨_, _⟩ := ha
  obtain ⟨_, _⟩ := hb
  obtain ⟨_, _⟩ := hc
  obtain ⟨_, _⟩ := h
  refine ⟨?_, ?_⟩ <;> gridx

theorem C96_exact_vec2_subsub {i : ℤ} {K L M : ℕ} (a : V2 F32) (b : V2 F32) (c : V2 F32)
    (t : V2 X) (h : V2.Reassoc (glm_vec2_subsub (a.map .inp) (b.map .inp) (c.map .inp)) t)
    (ha : a.On i K) (hb : b.On i L) (hc : c.On i M)
    (hK : K + L + M ≤ 2 ^ 24) (lo : -149 ≤ i) (hi : i ≤ 103) :
    (t.map X.run).Exact (glm_vec2_subsub (a.map toReal) (b.map toReal) (c.map toReal)) (i) (K + L + M) := by
  simp only [cglm, V2.map, V2.Reassoc] at h
  simp only [cglm, V2.map, V2.Exact]
  simp only [V2.On] at ha hb hc
  obtain ⟨_, _⟩ := ha
  obtain ⟨_, _⟩ := hb
  obtain ⟨_, _⟩ := hc
  obtain ⟨_, _⟩ := h
  refine ⟨?_, ?_⟩ <;> gridx

theorem C96_exact_vec3_add {i : ℤ} {K L : ℕ} (a : V3 F32) (b : V3 F32)
    (t : V3 X) (h : V3.Reassoc (glm_vec3_add (a.map .inp) (b.map .inp)) t)
    (ha : a.On i K) (hb : b.On i L)
    (hK : K + L ≤ 2 ^ 24) (lo : -149 ≤ i) (hi : i ≤ 103) :
    (t.map X.run).Exact (glm_vec3_add (a.map toReal) (b.map toReal)) (i) (K + L) := by
  simp only [cglm, V3.map, V3.Reassoc] at h
  simp only [cglm, V3.map, V3.Exact]
  simp only [V3.On] at ha hb
  obtain ⟨_, _, _⟩ := ha
  obtain ⟨_, _, _⟩ := hb
  obtain ⟨_, _, _⟩ := h
  refine ⟨?_, ?_, ?_⟩ <;> gridx

theorem C96_exact_vec3_adds {i : ℤ} {K L : ℕ} (v : V3 F32) (s : F32)
    (t : V3 X) (h : V3.Reassoc (glm_vec3_adds (v.map .inp) (.inp s)) t)
    (hv : v.On i K) (hs : s.On i L)
    (hK : K + L ≤ 2 ^ 24) (lo : -149 ≤ i) (hi : i ≤ 103) :
    (t.map X.run).Exact (glm_vec3_adds (v.map toReal) (toReal s)) (i) (K + L) := by
  simp only [cglm, V3.map, V3.Reassoc] at h
  simp only [cglm, V3.map, V3.Exact]
  simp only [V3.On] at hv
  obtain ⟨_, _, _⟩ := hv
  obtain ⟨_, _, _⟩ := h
  refine ⟨?_, ?_, ?_⟩ <;> gridx

theorem C96_exact_vec3_sub {i : ℤ} {K L : ℕ} (a : V3 F32) (b : V3 F32)
    (t : V3 X) (h : V3.Reassoc (glm_vec3_sub (a.map .inp) (b.map .inp)) t)
    (ha : a.On i K) (hb : b.On i L)
    (hK : K + L ≤ 2 ^ 24) (lo : -149 ≤ i) (hi : i ≤ 103) :
    (t.map X.run).Exact (glm_vec3_sub (a.map toReal) (b.map toReal)) (i) (K + L) := by
  simp only [cglm, V3.map, V3.Reassoc] at h
  simp only [cglm, V3.map, V3.Exact]
  simp only [V3.On] at ha hb
  obtain ⟨_, _, _⟩ := ha
  obtain ⟨_, _, _⟩ := hb
  obtain ⟨_, _, _⟩ := h
  refine ⟨?_, ?_, ?_⟩ <;> gridx

theorem C96_exact_vec3_subs {i : ℤ} {K L : ℕ} (v : V3 F32) (s : F32)
    (t : V3 X) (h : V3.Reassoc (glm_vec3_subs (v.map .inp) (.inp s)) t)
    (hv : v.On i K) (hs : s.On i L)
    (hK : K + L ≤ 2 ^ 24) (lo : -149 ≤ i) (hi : i ≤ 103) :
    (t.map X.run).Exact (glm_vec3_subs (v.map toReal) (toReal s)) (i) (K + L) := by
  simp only [cglm, V3.map, V3.Reassoc] at h
  simp only [cglm, V3.map, V3.Exact]
  simp only [V3.On] at hv
  obtain ⟨_, _, _⟩ := hv
  obtain ⟨_, _, _⟩ := h
  refine ⟨?_, ?_, ?_⟩ <;> gridx

theorem C96_exact_vec3_mul {i j : ℤ} {K L : ℕ} (a : V3 F32) (b : V3 F32)
    (t : V3 X) (h : V3.Reassoc (glm_vec3_mul (a.map .inp) (b.map .inp)) t)
    (ha : a.On i K) (hb : b.On j L)
    (hK : K * L ≤ 2 ^ 24) (lo : -149 ≤ i + j) (hi : i + j ≤ 103) :
    (t.map X.run).Exact (glm_vec3_mul (a.map toReal) (b.map toReal)) (i + j) (K * L) := by
  simp only [cglm, V3.map, V3.Reassoc] at h
  simp only [cglm, V3.map, V3.Exact]
  simp only [V3.On] at ha hb
  obtain ⟨_, _, _⟩ := ha
  obtain ⟨_, _, _⟩ := hb
  obtain ⟨_, _, _⟩ := h
  refine ⟨?_, ?_, ?_⟩ <;> gridx

theorem C96_exact_vec3_scale {i j : ℤ} {K L : ℕ} (v : V3 F32) (s : F32)
    (t : V3 X) (h : V3.Reassoc (glm_vec3_scale (v.map .inp) (.inp s)) t)
    (hv : v.On i K) (hs : s.On j L)
    (hK : K * L ≤ 2 ^ 24) (lo : -149 ≤ i + j) (hi : i + j ≤ 103) :
    (t.map X.run).Exact (glm_vec3_scale (v.map toReal) (toReal s)) (i + j) (K * L) := by
  simp only [cglm, V3.map, V3.Reassoc] at h
  simp only [cglm, V3.map, V3.Exact]
  simp only [V3.On] at hv
  obtain ⟨_, _, _⟩ := hv
  obtain ⟨_, _, _⟩ := h
  refine ⟨?_, ?_, ?_⟩ <;> gridx

theorem C96_exact_vec3_dot {i j : ℤ} {K L : ℕ} (a : V3 F32) (b : V3 F32)
    (t : X) (h : Reassoc (glm_vec3_dot (a.map .inp) (b.map .inp)) t)
    (ha : a.On i K) (hb : b.On j L)
    (hK : 3 * (K * L) ≤ 2 ^ 24) (lo : -149 ≤ i + j) (hi : i + j ≤ 103) :
    t.run.Exact (glm_vec3_dot (a.map toReal) (b.map toReal)) (i + j) (3 * (K * L)) := by
  simp only [cglm, V3.map] at h
  simp only [cglm, V3.map]
  simp only [V3.On] at ha hb
  obtain ⟨_, _, _⟩ := ha
  obtain ⟨_, _, _⟩ := hb
  gridx

theorem C96_exact_vec3_norm2 {i : ℤ} {K : ℕ} (v : V3 F32)
    (t : X) (h : Reassoc (glm_vec3_norm2 (v.map .inp)) t)
    (hv : v.On i K)
    (hK : 3 * (K * K) ≤ 2 ^ 24) (lo : -149 ≤ i + i) (hi : i + i ≤ 103) :
    t.run.Exact (glm_vec3_norm2 (v.map toReal)) (i + i) (3 * (K * K)) := by
  simp only [cglm, V3.map] at h
  simp only [cglm, V3.map]
  simp only [V3.On] at hv
  obtain ⟨_, _, _⟩ := hv
  gridx

theorem C96_exact_vec3_muladd {i j : ℤ} {K L M : ℕ} (a : V3 F32) (b : V3 F32) (c : V3 F32)
    (t : V3 X) (h : V3.Reassoc (glm_vec3_muladd (a.map .inp) (b.map .inp) (c.map .inp)) t)
    (ha : a.On i K) (hb : b.On j L) (hc : c.On (i + j) M)
    (hK : K * L + M ≤ 2 ^ 24) (lo : -149 ≤ i + j) (hi : i + j ≤ 103) :
    (t.map X.run).Exact (glm_vec3_muladd (a.map toReal) (b.map toReal) (c.map toReal)) (i + j) (K * L + M) := by
  simp only [cglm, V3.map, V3.Reassoc] at h
  simp only [cglm, V3.map, V3.Exact]
  simp only [V3.On] at ha hb hc
  obtain ⟨_, _, _⟩ := ha
  obtain ⟨_, _, _⟩ := hb
  obtain ⟨_, _, _⟩ := hc
  obtain ⟨_, _, _⟩ := h
  refine ⟨?_, ?_, ?_⟩ <;> gridx

theorem C96_exact_vec3_muladds {i j : ℤ} {K L M : ℕ} (a : V3 F32) (s : F32) (c : V3 F32)
    (t : V3 X) (h : V3.Reassoc (glm_vec3_muladds (a.map .inp) (.inp s) (c.map .inp)) t)
    (ha : a.On i K) (hs : s.On j L) (hc : c.On (i + j) M)
    (hK : K * L + M ≤ 2 ^ 24) (lo : -149 ≤ i + j) (hi : i + j ≤ 103) :
    (t.map X.run).Exact (glm_vec3_muladds (a.map toReal) (toReal s) (c.map toReal)) (i + j) (K * L + M) := by
  simp only [cglm, V3.map, V3.Reassoc] at h
  simp only [cglm, V3.map, V3.Exact]
  simp only [V3.On] at ha hc
  obtain ⟨_, _, _⟩ := ha
  obtain ⟨_, _, _⟩ := hc
  obtain ⟨_, _, _⟩ := h
  refine ⟨?_, ?_, ?_⟩ <;> gridx

theorem C96_exact_vec3_mulsub {i j : ℤ} {K L M : ℕ} (a : V3 F32) (b : V3 F32) (c : V3 F32)
    (t : V3 X) (h : V3.Reassoc (glm_vec3_mulsub (a.map .inp) (b.map .inp) (c.map .inp)) t)
    (ha : a.On i K) (hb : b.On j L) (hc : c.On (i + j) M)
    (hK : K * L + M ≤ 2 ^ 24) (lo : -149 ≤ i + j) (hi : i + j ≤ 103) :
    (t.map X.run).Exact (glm_vec3_mulsub (a.map toReal) (b.map toReal) (c.map toReal)) (i + j) (K * L + M) := by
  simp only [cglm, V3.map, V3.Reassoc] at h
  simp only [cglm, V3.map, V3.Exact]
  simp only [V3.On] at ha hb hc
  obtain ⟨_, _, _⟩ := ha
  obtain ⟨_, _, _⟩ := hb
  obtain ⟨_, _, _⟩ := hc
  obtain ⟨_, _, _⟩ := h
  refine ⟨?_, ?_, ?_⟩ <;> gridx

theorem C96_exact_vec3_mulsubs {i j : ℤ} {K L M : ℕ} (a : V3 F32) (s : F32) (c : V3 F32)
    (t : V3 X) (h : V3.Reassoc (glm_vec3_mulsubs (a.map .inp) (.inp s) (c.map .inp)) t)
    (ha : a.On i K) (hs : s.On j L) (hc : c.On (i + j) M)
    (hK : K * L + M ≤ 2 ^ 24) (lo : -149 ≤ i + j) (hi : i + j ≤ 103) :
    (t.map X.run).Exact (glm_vec3_mulsubs (a.map toReal) (toReal s) (c.map toReal)) (i + j) (K * L + M) := by
  simp only [cglm, V3.map, V3.Reassoc] at h
  simp only [cglm, V3.map, V3.Exact]
  simp only [V3.On] at ha hc
  obtain ⟨_, _, _⟩ := ha
  obtain ⟨_, _, _⟩ := hc
  obtain ⟨_, _, _⟩ := h
  refine ⟨?_, ?_, ?_⟩ <;> gridx

theorem C96_exact_vec3_addadd {i : ℤ} {K L M : ℕ} (a : V3 F32) (b : V3 F32) (c : V3 F32)
    (t : V3 X) (h : V3.Reassoc (glm_vec3_addadd (a.map .inp) (b.map .inp) (c.map .inp)) t)
    (ha : a.On i K) (hb : b.On i L) (hc : c.On i M)
    (hK : K + L + M ≤ 2 ^ 24) (lo : -149 ≤ i) (hi : i ≤ 103) :
    (t.map X.run).Exact (glm_vec3_addadd (a.map toReal) (b.map toReal) (c.map toReal)) (i) (K + L + M) := by
  simp only [cglm, V3.map, V3.Reassoc] at h
  simp only [cglm, V3.map, V3.Exact]
  simp only [V3.On] at ha hb hc
  obtain ⟨_, _, _⟩ := ha
  obtain ⟨_, _, _⟩ := hb
  obtain ⟨_, _, _⟩ := hc
  obtain ⟨_, _, _⟩ := h
  refine ⟨?_, ?_, ?_⟩ <;> gridx

theorem C96_exact_vec3_subadd {i : ℤ} {K L M : ℕ} (a : V3 F32) (b : V3 F32) (c : V3 F32)
    (t : V3 X) (h : V3.Reassoc (glm_vec3_subadd (a.map .inp) (b.map .inp) (c.map .inp)) t)
    (ha : a.On i K) (hb : b.On i L) (hc : c.On i M)
    (hK : K + L + M ≤ 2 ^ 24) (lo : -149 ≤ i) (hi : i ≤ 103) :
    (t.map X.run).Exact (glm_vec3_subadd (a.map toReal) (b.map toReal) (c.map toReal)) (i) (K + L + M) := by
  simp only [cglm, V3.map, V3.Reassoc] at h
  simp only [cglm, V3.map, V3.Exact]
  simp only [V3.On] at ha hb hc
  obtain ⟨_, _, _⟩ := ha
  obtain ⟨_, _, _⟩ := hb
  obtain ⟨_, _, _⟩ := hc
  obtain ⟨_, _, _⟩ := h
  refine ⟨?_, ?_, ?_⟩ <;> gridx

theorem C96_exact_vec3_addsub {i : ℤ} {K L M : ℕ} (a : V3 F32) (b : V3 F32) (c : V3 F32)
    (t : V3 X) (h : V3.Reassoc (glm_vec3_addsub (a.map .inp) (b.map .inp) (c.map .inp)) t)
    (ha : a.On i K) (hb : b.On i L) (hc : c.On i M)
    (hK : K + L + M ≤ 2 ^ 24) (lo : -149 ≤ i) (hi : i ≤ 103) :
    (t.map X.run).Exact (glm_vec3_addsub (a.map toReal) (b.map toReal) (c.map toReal)) (i) (K + L + M) := by
  simp only [cglm, V3.map, V3.Reassoc] at h
  simp only [cglm, V3.map, V3.Exact]
  simp only [V3.On] at ha hb hc
  obtain ⟨_, _, _⟩ := ha
  obtain ⟨_, _, _⟩ := hb
  obtain ⟨_, _, _⟩ := hc
  obtain ⟨_, _, _⟩ := h
  refine ⟨?_, ?_, ?_⟩ <;> gridx

theorem C96_exact_vec3_subsub {i : ℤ} {K L M : ℕ} (a : V3 F32) (b : V3 F32) (c : V3 F32)
    (t : V3 X) (h : V3.Reassoc (glm_vec3_subsub (a.map .inp) (b.map .inp) (c.map .inp)) t)
    (ha : a.On i K) (hb : b.On i L) (hc : c.On i M)
    (hK : K + L + M ≤ 2 ^ 24) (lo : -149 ≤ i) (hi : i ≤ 103) :
    (t.map X.run).Exact (glm_vec3_subsub (a.map toReal) (b.map toReal) (c.map toReal)) (i) (K + L + M) := by
  simp only [cglm, V3.map, V3.Reassoc] at h
  simp only [cglm, V3.map, V3.Exact]
  simp only [V3.On] at ha hb hc
  obtain ⟨_, _, _⟩ := ha
  obtain ⟨_, _, _⟩ := hb
  obtain ⟨_, _, _⟩ := hc
  obtain ⟨_, _, _⟩ := h
  refine ⟨?_, ?_, ?_⟩ <;> gridx

theorem C96_exact_vec3_hadd {i : ℤ} {K : ℕ} (v : V3 F32)
    (t : X) (h : Reassoc (glm_vec3_hadd (v.map .inp)) t)
    (hv : v.On i K)
    (hK : 3 * K ≤ 2 ^ 24) (lo : -149 ≤ i) (hi : i ≤ 103) :
    t.run.Exact (glm_vec3_hadd (v.map toReal)) (i) (3 * K) := by
  simp only [cglm, V3.map] at h
  simp only [cglm, V3.map]
  simp only [V3.On] at hv
  obtain ⟨_, _, _⟩ := hv
  gridx

theorem C96_exact_vec4_add {i : ℤ} {K L : ℕ} (a : V4 F32) (b : V4 F32)
    (t : V4 X) (h : V4.Reassoc (glm_vec4_add (a.map .inp) (b.map .inp)) t)
    (ha : a.On i K) (hb : b.On i L)
    (hK : K + L ≤ 2 ^ 24) (lo : -149 ≤ i) (hi : i ≤ 103) :
    (t.map X.run).Exact (glm_vec4_add (a.map toReal) (b.map toReal)) (i) (K + L) := by
  simp only [cglm, V4.map, V4.Reassoc] at h
  simp only [cglm, V4.map, V4.Exact]
  simp only [V4.On] at ha hb
  obtain ⟨_, _, _, _⟩ := ha
  obtain ⟨_, _, _, _⟩ := hb
  obtain ⟨_, _, _, _⟩ := h
  refine ⟨?_, ?_, ?_, ?_⟩ <;> gridx

theorem C96_exact_vec4_adds {i : ℤ} {K L : ℕ} (v : V4 F32) (s : F32)
    (t : V4 X) (h : V4.Reassoc (glm_vec4_adds (v.map .inp) (.inp s)) t)
    (hv : v.On i K) (hs : s.On i L)
    (hK : K + L ≤ 2 ^ 24) (lo : -149 ≤ i) (hi : i ≤ 103) :
    (t.map X.run).Exact (glm_vec4_adds (v.map toReal) (toReal s)) (i) (K + L) := by
  simp only [cglm, V4.map, V4.Reassoc] at h
  simp only [cglm, V4.map, V4.Exact]
  simp only [V4.On] at hv
  obtain ⟨_, _, _, _⟩ := hv
  obtain ⟨_, _, _, _⟩ := h
  refine ⟨?_, ?_, ?_, ?_⟩ <;> gridx

theorem C96_exact_vec4_sub {i : ℤ} {K L : ℕ} (a : V4 F32) (b : V4 F32)
    (t : V4 X) (h : V4.Reassoc (glm_vec4_sub (a.map .inp) (b.map .inp)) t)
    (ha : a.On i K) (hb : b.On i L)
    (hK : K + L ≤ 2 ^ 24) (lo : -149 ≤ i) (hi : i ≤ 103) :
    (t.map X.run).Exact (glm_vec4_sub (a.map toReal) (b.map toReal)) (i) (K + L) := by
  simp only [cglm, V4.map, V4.Reassoc] at h
  simp only [cglm, V4.map, V4.Exact]
  simp only [V4.On] at ha hb
  obtain ⟨_, _, _, _⟩ := ha
  obtain ⟨_, _, _, _⟩ := hb
  obtain ⟨_, _, _, _⟩ := h
  refine ⟨?_, ?_, ?_, ?_⟩ <;> gridx

theorem C96_exact_vec4_subs {i : ℤ} {K L : ℕ} (v : V4 F32) (s : F32)
    (t : V4 X) (h : V4.Reassoc (glm_vec4_subs (v.map .inp) (.inp s)) t)
    (hv : v.On i K) (hs : s.On i L)
    (hK : K + L ≤ 2 ^ 24) (lo : -149 ≤ i) (hi : i ≤ 103) :
    (t.map X.run).Exact (glm_vec4_subs (v.map toReal) (toReal s)) (i) (K + L) := by
  simp only [cglm, V4.map, V4.Reassoc] at h
  simp only [cglm, V4.map, V4.Exact]
  simp only [V4.On] at hv
  obtain ⟨_, _, _, _⟩ := hv
  obtain ⟨_, _, _, _⟩ := h
  refine ⟨?_, ?_, ?_, ?_⟩ <;> gridx

theorem C96_exact_vec4_mul {i j : ℤ} {K L : ℕ} (a : V4 F32) (b : V4 F32)
    (t : V4 X) (h : V4.Reassoc (glm_vec4_mul (a.map .inp) (b.map .inp)) t)
    (ha : a.On i K) (hb : b.On j L)
    (hK : K * L ≤ 2 ^ 24) (lo : -149 ≤ i + j) (hi : i + j ≤ 103) :
    (t.map X.run).Exact (glm_vec4_mul (a.map toReal) (b.map toReal)) (i + j) (K * L) := by
  simp only [cglm, V4.map, V4.Reassoc] at h
  simp only [cglm, V4.map, V4.Exact]
  simp only [V4.On] at ha hb
  obtain ⟨_, _, _, _⟩ := ha
  obtain ⟨_, _, _, _⟩ := hb
  obtain ⟨_, _, _, _⟩ := h
  refine ⟨?_, ?_, ?_, ?_⟩ <;> gridx

theorem C96_exact_vec4_scale {i j : ℤ} {K L : ℕ} (v : V4 F32) (s : F32)
    (t : V4 X) (h : V4.Reassoc (glm_vec4_scale (v.map .inp) (.inp s)) t)
    (hv : v.On i K) (hs : s.On j L)
    (hK : K * L ≤ 2 ^ 24) (lo : -149 ≤ i + j) (hi : i + j ≤ 103) :
    (t.map X.run).Exact (glm_vec4_scale (v.map toReal) (toReal s)) (i + j) (K * L) := by
  simp only [cglm, V4.map, V4.Reassoc] at h
  simp only [cglm, V4.map, V4.Exact]
  simp only [V4.On] at hv
  obtain ⟨_, _, _, _⟩ := hv
  obtain ⟨_, _, _, _⟩ := h
  refine ⟨?_, ?_, ?_, ?_⟩ <;> gridx

theorem C96_exact_vec4_dot {i j : ℤ} {K L : ℕ} (a : V4 F32) (b : V4 F32)
    (t : X) (h : Reassoc (glm_vec4_dot (a.map .inp) (b.map .inp)) t)
    (ha : a.On i K) (hb : b.On j L)
    (hK : 4 * (K * L) ≤ 2 ^ 24) (lo : -149 ≤ i + j) (hi : i + j ≤ 103) :
    t.run.Exact (glm_vec4_dot (a.map toReal) (b.map toReal)) (i + j) (4 * (K * L)) := by
  simp only [cglm, V4.map] at h
  simp only [cglm, V4.map]
  simp only [V4.On] at ha hb
  obtain ⟨_, _, _, _⟩ := ha
  obtain ⟨_, _, _, _⟩ := hb
  gridx

theorem C96_exact_vec4_norm2 {i : ℤ} {K : ℕ} (v : V4 F32)
    (t : X) (h : Reassoc (glm_vec4_norm2 (v.map .inp)) t)
    (hv : v.On i K)
    (hK : 4 * (K * K) ≤ 2 ^ 24) (lo : -149 ≤ i + i) (hi : i + i ≤ 103) :
    t.run.Exact (glm_vec4_norm2 (v.map toReal)) (i + i) (4 * (K * K)) := by
  simp only [cglm, V4.map] at h
  simp only [cglm, V4.map]
  simp only [V4.On] at hv
  obtain ⟨_, _, _, _⟩ := hv
  gridx

theorem C96_exact_vec4_muladd {i j : ℤ} {K L M : ℕ} (a : V4 F32) (b : V4 F32) (c : V4 F32)
    (t : V4 X) (h : V4.Reassoc (glm_vec4_muladd (a.map .inp) (b.map .inp) (c.map .inp)) t)
    (ha : a.On i K) (hb : b.On j L) (hc : c.On (i + j) M)
    (hK : K * L + M ≤ 2 ^ 24) (lo : -149 ≤ i + j) (hi : i + j ≤ 103) :
    (t.map X.run).Exact (glm_vec4_muladd (a.map toReal) (b.map toReal) (c.map toReal)) (i + j) (K * L + M) := by
  simp only [cglm, V4.map, V4.Reassoc] at h
  simp only [cglm, V4.map, V4.Exact]
  simp only [V4.On] at ha hb hc
  obtain ⟨_, _, _, _⟩ := ha
  obtain ⟨_, _, _, _⟩ := hb
  obtain ⟨_, _, _, _⟩ := hc
  obtain ⟨_, _, _, _⟩ := h
  refine ⟨?_, ?_, ?_, ?_⟩ <;> gridx

theorem C96_exact_vec4_muladds {i j : ℤ} {K L M : ℕ} (a : V4 F32) (s : F32) (c : V4 F32)
    (t : V4 X) (h : V4.Reassoc (glm_vec4_muladds (a.map .inp) (.inp s) (c.map .inp)) t)
    (ha : a.On i K) (hs : s.On j L) (hc : c.On (i + j) M)
    (hK : K * L + M ≤ 2 ^ 24) (lo : -149 ≤ i + j) (hi : i + j ≤ 103) :
    (t.map X.run).Exact (glm_vec4_muladds (a.map toReal) (toReal s) (c.map toReal)) (i + j) (K * L + M) := by
  simp only [cglm, V4.map, V4.Reassoc] at h
  simp only [cglm, V4.map, V4.Exact]
  simp only [V4.On] at ha hc
  obtain ⟨_, _, _, _⟩ := ha
  obtain ⟨_, _, _, _⟩ := hc
  obtain ⟨_, _, _, _⟩ := h
  refine ⟨?_, ?_, ?_, ?_⟩ <;> gridx

theorem C96_exact_vec4_mulsub {i j : ℤ} {K L M : ℕ} (a : V4 F32) (b : V4 F32) (c : V4 F32)
    (t : V4 X) (h : V4.Reassoc (glm_vec4_mulsub (a.map .inp) (b.map .inp) (c.map .inp)) t)
    (ha : a.On i K) (hb : b.On j L) (hc : c.On (i + j) M)
    (hK : K * L + M ≤ 2 ^ 24) (lo : -149 ≤ i + j) (hi : i + j ≤ 103) :
    (t.map X.run).Exact (glm_vec4_mulsub (a.map toReal) (b.map toReal) (c.map toReal)) (i + j) (K * L + M) := by
  simp only [cglm, V4.map, V4.Reassoc] at h
  simp only [cglm, V4.map, V4.Exact]
  simp only [V4.On] at ha hb hc
  obtain ⟨_, _, _, _⟩ := ha
  obtain ⟨_, _, _, _⟩ := hb
  obtain ⟨_, _, _, _⟩ := hc
  obtain ⟨_, _, _, _⟩ := h
  refine ⟨?_, ?_, ?_, ?_⟩ <;> gridx

theorem C96_exact_vec4_mulsubs {i j : ℤ} {K L M : ℕ} (a : V4 F32) (s : F32) (c : V4 F32)
    (t : V4 X) (h : V4.Reassoc (glm_vec4_mulsubs (a.map .inp) (.inp s) (c.map .inp)) t)
    (ha : a.On i K) (hs : s.On j L) (hc : c.On (i + j) M)
    (hK : K * L + M ≤ 2 ^ 24) (lo : -149 ≤ i + j) (hi : i + j ≤ 103) :
    (t.map X.run).Exact (glm_vec4_mulsubs (a.map toReal) (toReal s) (c.map toReal)) (i + j) (K * L + M) := by
  simp only [cglm, V4.map, V4.Reassoc] at h
  simp only [cglm, V4.map, V4.Exact]
  simp only [V4.On] at ha hc
  obtain ⟨_, _, _, _⟩ := ha
  obtain ⟨_, _, _, _⟩ := hc
  obtain ⟨_, _, _, _⟩ := h
  refine ⟨?_, ?_, ?_, ?_⟩ <;> gridx

theorem C96_exact_vec4_addadd {i : ℤ} {K L M : ℕ} (a : V4 F32) (b : V4 F32) (c : V4 F32)
    (t : V4 X) (h : V4.Reassoc (glm_vec4_addadd (a.map .inp) (b.map .inp) (c.map .inp)) t)
    (ha : a.On i K) (hb : b.On i L) (hc : c.On i M)
    (hK : K + L + M ≤ 2 ^ 24) (lo : -149 ≤ i) (hi : i ≤ 103) :
    (t.map X.run).Exact (glm_vec4_addadd (a.map toReal) (b.map toReal) (c.map toReal)) (i) (K + L + M) := by
  simp only [cglm, V4.map, V4.Reassoc] at h
  simp only [cglm, V4.map, V4.Exact]
  simp only [V4.On] at ha hb hc
  obtain ⟨_, _, _, _⟩ := ha
  obtain ⟨_, _, _, _⟩ := hb
  obtain ⟨_, _, _, _⟩ := hc
  obtain ⟨_, _, _, _⟩ := h
  refine ⟨?_, ?_, ?_, ?_⟩ <;> gridx

theorem C96_exact_vec4_subadd {i : ℤ} {K L M : ℕ} (a : V4 F32) (b : V4 F32) (c : V4 F32)
    (t : V4 X) (h : V4.Reassoc (glm_vec4_subadd (a.map .inp) (b.map .inp) (c.map .inp)) t)
    (ha : a.On i K) (hb : b.On i L) (hc : c.On i M)
    (hK : K + L + M ≤ 2 ^ 24) (lo : -149 ≤ i) (hi : i ≤ 103) :
    (t.map X.run).Exact (glm_vec4_subadd (a.map toReal) (b.map toReal) (c.map toReal)) (i) (K + L + M) := by
  simp only [cglm, V4.map, V4.Reassoc] at h
  simp only [cglm, V4.map, V4.Exact]
  simp only [V4.On] at ha hb hc
  obtain ⟨_, _, _, _⟩ := ha
  obtain ⟨_, _, _, _⟩ := hb
  obtain ⟨_, _, _, _⟩ := hc
  obtain ⟨_, _, _, _⟩ := h
  refine ⟨?_, ?_, ?_, ?_⟩ <;> gridx

theorem C96_exact_vec4_addsub {i : ℤ} {K L M : ℕ} (a : V4 F32) (b : V4 F32) (c : V4 F32)
    (t : V4 X) (h : V4.Reassoc (glm_vec4_addsub (a.map .inp) (b.map .inp) (c.map .inp)) t)
    (ha : a.On i K) (hb : b.On i L) (hc : c.On i M)
    (hK : K + L + M ≤ 2 ^ 24) (lo : -149 ≤ i) (hi : i ≤ 103) :
    (t.map X.run).Exact (glm_vec4_addsub (a.map toReal) (b.map toReal) (c.map toReal)) (i) (K + L + M) := by
  simp only [cglm, V4.map, V4.Reassoc] at h
  simp only [cglm, V4.map, V4.Exact]
  simp only [V4.On] at ha hb hc
  obtain ⟨_, _, _, _⟩ := ha
  obtain ⟨_, _, _, _⟩ := hb
  obtain ⟨_, _, _, _⟩ := hc
  obtain ⟨_, _, _, _⟩ := h
  refine ⟨?_, ?_, ?_, ?_⟩ <;> gridx

theorem C96_exact_vec4_subsub {i : ℤ} {K L M : ℕ} (a : V4 F32) (b : V4 F32) (c : V4 F32)
    (t : V4 X) (h : V4.Reassoc (glm_vec4_subsub (a.map .inp) (b.map .inp) (c.map .inp)) t)
    (ha : a.On i K) (hb : b.On i L) (hc : c.On i M)
    (hK : K + L + M ≤ 2 ^ 24) (lo : -149 ≤ i) (hi : i ≤ 103) :
    (t.map X.run).Exact (glm_vec4_subsub (a.map toReal) (b.map toReal) (c.map toReal)) (i) (K + L + M) := by
  simp only [cglm, V4.map, V4.Reassoc] at h
  simp only [cglm, V4.map, V4.Exact]
  simp only [V4.On] at ha hb hc
  obtain ⟨_, _, _, _⟩ := ha
  obtain ⟨_, _, _, _⟩ := hb
  obtain ⟨_, _, _, _⟩ := hc
  obtain ⟨_, _, _, _⟩ := h
  refine ⟨?_, ?_, ?_, ?_⟩ <;> gridx

theorem C96_exact_vec4_hadd {i : ℤ} {K : ℕ} (v : V4 F32)
    (t : X) (h : Reassoc (glm_vec4_hadd (v.map .inp)) t)
    (hv : v.On i K)
    (hK : 4 * K ≤ 2 ^ 24) (lo : -149 ≤ i) (hi : i ≤ 103) :
    t.run.Exact (glm_vec4_hadd (v.map toReal)) (i) (4 * K) := by
  simp only [cglm, V4.map] at h
  simp only [cglm, V4.map]
  simp only [V4.On] at hv
  obtain ⟨_, _, _, _⟩ := hv
  gridx

theorem C96_exact_vec2_cross {i j : ℤ} {K L : ℕ} (a : V2 F32) (b : V2 F32)
    (t : X) (h : Reassoc (glm_vec2_cross (a.map .inp) (b.map .inp)) t)
    (ha : a.On i K) (hb : b.On j L)
    (hK : 2 * (K * L) ≤ 2 ^ 24) (lo : -149 ≤ i + j) (hi : i + j ≤ 103) :
    t.run.Exact (glm_vec2_cross (a.map toReal) (b.map toReal)) (i + j) (2 * (K * L)) := by
  simp only [cglm, V2.map] at h
  simp only [cglm, V2.map]
  simp only [V2.On] at ha hb
  obtain ⟨_, _⟩ := ha
  obtain ⟨_, _⟩ := hb
  gridx

theorem C96_exact_vec3_cross {i j : ℤ} {K L : ℕ} (a : V3 F32) (b : V3 F32)
    (t : V3 X) (h : V3.Reassoc (glm_vec3_cross (a.map .inp) (b.map .inp)) t)
    (ha : a.On i K) (hb : b.On j L)
    (hK : 2 * (K * L) ≤ 2 ^ 24) (lo : -149 ≤ i + j) (hi : i + j ≤ 103) :
    (t.map X.run).Exact (glm_vec3_cross (a.map toReal) (b.map toReal)) (i + j) (2 * (K * L)) := by
  simp only [cglm, V3.map, V3.Reassoc] at h
  simp only [cglm, V3.map, V3.Exact]
  simp only [V3.On] at ha hb
  obtain ⟨_, _, _⟩ := ha
  obtain ⟨_, _, _⟩ := hb
  obtain ⟨_, _, _⟩ := h
  refine ⟨?_, ?_, ?_⟩ <;> gridx

theorem C96_exact_vec2_complex_mul {i j : ℤ} {K L : ℕ} (a : V2 F32) (b : V2 F32)
    (t : V2 X) (h : V2.Reassoc (glm_vec2_complex_mul (a.map .inp) (b.map .inp)) t)
    (ha : a.On i K) (hb : b.On j L)
    (hK : 2 * (K * L) ≤ 2 ^ 24) (lo : -149 ≤ i + j) (hi : i + j ≤ 103) :
    (t.map X.run).Exact (glm_vec2_complex_mul (a.map toReal) (b.map toReal)) (i + j) (2 * (K * L)) := by
  simp only [cglm, V2.map, V2.Reassoc] at h
  simp only [cglm, V2.map, V2.Exact]
  simp only [V2.On] at ha hb
  obtain ⟨_, _⟩ := ha
  obtain ⟨_, _⟩ := hb
  obtain ⟨_, _⟩ := h
  refine ⟨?_, ?_⟩ <;> gridx

theorem C96_exact_quat_mul {i j : ℤ} {K L : ℕ} (p : V4 F32) (q : V4 F32)
    (t : V4 X) (h : V4.Reassoc (glm_quat_mul (p.map .inp) (q.map .inp)) t)
    (hp : p.On i K) (hq : q.On j L)
    (hK : 4 * (K * L) ≤ 2 ^ 24) (lo : -149 ≤ i + j) (hi : i + j ≤ 103) :
    (t.map X.run).Exact (glm_quat_mul (p.map toReal) (q.map toReal)) (i + j) (4 * (K * L)) := by
  simp only [cglm, V4.map, V4.Reassoc] at h
  simp only [cglm, V4.map, V4.Exact]
  simp only [V4.On] at hp hq
  obtain ⟨_, _, _, _⟩ := hp
  obtain ⟨_, _, _, _⟩ := hq
  obtain ⟨_, _, _, _⟩ := h
  refine ⟨?_, ?_, ?_, ?_⟩ <;> gridx

theorem C96_exact_quat_dot {i j : ℤ} {K L : ℕ} (p : V4 F32) (q : V4 F32)
    (t : X) (h : Reassoc (glm_quat_dot (p.map .inp) (q.map .inp)) t)
    (hp : p.On i K) (hq : q.On j L)
    (hK : 4 * (K * L) ≤ 2 ^ 24) (lo : -149 ≤ i + j) (hi : i + j ≤ 103) :
    t.run.Exact (glm_quat_dot (p.map toReal) (q.map toReal)) (i + j) (4 * (K * L)) := by
  simp only [cglm, V4.map] at h
  simp only [cglm, V4.map]
  simp only [V4.On] at hp hq
  obtain ⟨_, _, _, _⟩ := hp
  obtain ⟨_, _, _, _⟩ := hq
  gridx

theorem C96_exact_mat2_mulv {i j : ℤ} {K L : ℕ} (m : M2 F32) (v : V2 F32)
    (t : V2 X) (h : V2.Reassoc (glm_mat2_mulv (m.map .inp) (v.map .inp)) t)
    (hm : m.On i K) (hv : v.On j L)
    (hK : 2 * (K * L) ≤ 2 ^ 24) (lo : -149 ≤ i + j) (hi : i + j ≤ 103) :
    (t.map X.run).Exact (glm_mat2_mulv (m.map toReal) (v.map toReal)) (i + j) (2 * (K * L)) := by
  simp only [cglm, M2.map, V2.map, V2.Reassoc] at h
  simp only [cglm, M2.map, V2.map, V2.Exact]
  simp only [M2.On, V2.On] at hm hv
  obtain ⟨⟨_, _⟩, ⟨_, _⟩⟩ := hm
  obtain ⟨_, _⟩ := hv
  obtain ⟨_, _⟩ := h
  refine ⟨?_, ?_⟩ <;> gridx

theorem C96_exact_mat2_mul {i j : ℤ} {K L : ℕ} (a : M2 F32) (b : M2 F32)
    (t : M2 X) (h : M2.Reassoc (glm_mat2_mul (a.map .inp) (b.map .inp)) t)
    (ha : a.On i K) (hb : b.On j L)
    (hK : 2 * (K * L) ≤ 2 ^ 24) (lo : -149 ≤ i + j) (hi : i + j ≤ 103) :
    (t.map X.run).Exact (glm_mat2_mul (a.map toReal) (b.map toReal)) (i + j) (2 * (K * L)) := by
  simp only [cglm, M2.map, V2.map, M2.Reassoc, V2.Reassoc] at h
  simp only [cglm, M2.map, V2.map, M2.Exact, V2.Exact]
  simp only [M2.On, V2.On] at ha hb
  obtain ⟨⟨_, _⟩, ⟨_, _⟩⟩ := ha
  obtain ⟨⟨_, _⟩, ⟨_, _⟩⟩ := hb
  obtain ⟨⟨_, _⟩, ⟨_, _⟩⟩ := h
  refine ⟨⟨?_, ?_⟩, ⟨?_, ?_⟩⟩ <;> gridx

theorem C96_exact_mat2_scale {i j : ℤ} {K L : ℕ} (m : M2 F32) (s : F32)
    (t : M2 X) (h : M2.Reassoc (glm_mat2_scale (m.map .inp) (.inp s)) t)
    (hm : m.On i K) (hs : s.On j L)
    (hK : K * L ≤ 2 ^ 24) (lo : -149 ≤ i + j) (hi : i + j ≤ 103) :
    (t.map X.run).Exact (glm_mat2_scale (m.map toReal) (toReal s)) (i + j) (K * L) := by
  simp only [cglm, M2.map, V2.map, M2.Reassoc, V2.Reassoc] at h
  simp only [cglm, M2.map, V2.map, M2.Exact, V2.Exact]
  simp only [M2.On, V2.On] at hm
  obtain ⟨⟨_, _⟩, ⟨_, _⟩⟩ := hm
  obtain ⟨⟨_, _⟩, ⟨_, _⟩⟩ := h
  refine ⟨⟨?_, ?_⟩, ⟨?_, ?_⟩⟩ <;> gridx

theorem C96_exact_mat2_trace {i : ℤ} {K : ℕ} (m : M2 F32)
    (t : X) (h : Reassoc (glm_mat2_trace (m.map .inp)) t)
    (hm : m.On i K)
    (hK : 2 * K ≤ 2 ^ 24) (lo : -149 ≤ i) (hi : i ≤ 103) :
    t.run.Exact (glm_mat2_trace (m.map toReal)) (i) (2 * K) := by
  simp only [cglm, M2.map, V2.map] at h
  simp only [cglm, M2.map, V2.map]
  simp only [M2.On, V2.On] at hm
  obtain ⟨⟨_, _⟩, ⟨_, _⟩⟩ := hm
  gridx

theorem C96_exact_mat3_mulv {i j : ℤ} {K L : ℕ} (m : M3 F32) (v : V3 F32)
    (t : V3 X) (h : V3.Reassoc (glm_mat3_mulv (m.map .inp) (v.map .inp)) t)
    (hm : m.On i K) (hv : v.On j L)
    (hK : 3 * (K * L) ≤ 2 ^ 24) (lo : -149 ≤ i + j) (hi : i + j ≤ 103) :
    (t.map X.run).Exact (glm_mat3_mulv (m.map toReal) (v.map toReal)) (i + j) (3 * (K * L)) := by
  simp only [cglm, M3.map, V3.map, V3.Reassoc] at h
  simp only [cglm, M3.map, V3.map, V3.Exact]
  simp only [M3.On, V3.On] at hm hv
  obtain ⟨⟨_, _, _⟩, ⟨_, _, _⟩, ⟨_, _, _⟩⟩ := hm
  obtain ⟨_, _, _⟩ := hv
  obtain ⟨_, _, _⟩ := h
  refine ⟨?_, ?_, ?_⟩ <;> gridx

theorem C96_exact_mat3_mul {i j : ℤ} {K L : ℕ} (a : M3 F32) (b : M3 F32)
    (t : M3 X) (h : M3.Reassoc (glm_mat3_mul (a.map .inp) (b.map .inp)) t)
    (ha : a.On i K) (hb : b.On j L)
    (hK : 3 * (K * L) ≤ 2 ^ 24) (lo : -149 ≤ i + j) (hi : i + j ≤ 103) :
    (t.map X.run).Exact (glm_mat3_mul (a.map toReal) (b.map toReal)) (i + j) (3 * (K * L)) := by
  simp only [cglm, M3.map, V3.map, M3.Reassoc, V3.Reassoc] at h
  simp only [cglm, M3.map, V3.map, M3.Exact, V3.Exact]
  simp only [M3.On, V3.On] at ha hb
  obtain ⟨⟨_, _, _⟩, ⟨_, _, _⟩, ⟨_, _, _⟩⟩ := ha
  obtain ⟨⟨_, _, _⟩, ⟨_, _, _⟩, ⟨_, _, _⟩⟩ := hb
  obtain ⟨⟨_, _, _⟩, ⟨_, _, _⟩, ⟨_, _, _⟩⟩ := h
  refine ⟨⟨?_, ?_, ?_⟩, ⟨?_, ?_, ?_⟩, ⟨?_, ?_, ?_⟩⟩ <;> gridx

theorem C96_exact_mat3_scale {i j : ℤ} {K L : ℕ} (m : M3 F32) (s : F32)
    (t : M3 X) (h : M3.Reassoc (glm_mat3_scale (m.map .inp) (.inp s)) t)
    (hm : m.On i K) (hs : s.On j L)
    (hK : K * L ≤ 2 ^ 24) (lo : -149 ≤ i + j) (hi : i + j ≤ 103) :
    (t.map X.run).Exact (glm_mat3_scale (m.map toReal) (toReal s)) (i + j) (K * L) := by
  simp only [cglm, M3.map, V3.map, M3.Reassoc, V3.Reassoc] at h
  simp only [cglm, M3.map, V3.map, M3.Exact, V3.Exact]
  simp only [M3.On, V3.On] at hm
  obtain ⟨⟨_, _, _⟩, ⟨_, _, _⟩, ⟨_, _, _⟩⟩ := hm
  obtain ⟨⟨_, _, _⟩, ⟨_, _, _⟩, ⟨_, _, _⟩⟩ := h
  refine ⟨⟨?_, ?_, ?_⟩, ⟨?_, ?_, ?_⟩, ⟨?_, ?_, ?_⟩⟩ <;> gridx

theorem C96_exact_mat3_trace {i : ℤ} {K : ℕ} (m : M3 F32)
    (t : X) (h : Reassoc (glm_mat3_trace (m.map .inp)) t)
    (hm : m.On i K)
    (hK : 3 * K ≤ 2 ^ 24) (lo : -149 ≤ i) (hi : i ≤ 103) :
    t.run.Exact (glm_mat3_trace (m.map toReal)) (i) (3 * K) := by
  simp only [cglm, M3.map, V3.map] at h
  simp only [cglm, M3.map, V3.map]
  simp only [M3.On, V3.On] at hm
  obtain ⟨⟨_, _, _⟩, ⟨_, _, _⟩, ⟨_, _, _⟩⟩ := hm
  gridx

theorem C96_exact_mat4_mulv {i j : ℤ} {K L : ℕ} (m : M4 F32) (v : V4 F32)
    (t : V4 X) (h : V4.Reassoc (glm_mat4_mulv (m.map .inp) (v.map .inp)) t)
    (hm : m.On i K) (hv : v.On j L)
    (hK : 4 * (K * L) ≤ 2 ^ 24) (lo : -149 ≤ i + j) (hi : i + j ≤ 103) :
    (t.map X.run).Exact (glm_mat4_mulv (m.map toReal) (v.map toReal)) (i + j) (4 * (K * L)) := by
  simp only [cglm, M4.map, V4.map, V4.Reassoc] at h
  simp only [cglm, M4.map, V4.map, V4.Exact]
  simp only [M4.On, V4.On] at hm hv
  obtain ⟨⟨_, _, _, _⟩, ⟨_, _, _, _⟩, ⟨_, _, _, _⟩, ⟨_, _, _, _⟩⟩ := hm
  obtain ⟨_, _, _, _⟩ := hv
  obtain ⟨_, _, _, _⟩ := h
  refine ⟨?_, ?_, ?_, ?_⟩ <;> gridx

theorem C96_exact_mat4_mul {i j : ℤ} {K L : ℕ} (a : M4 F32) (b : M4 F32)
    (t : M4 X) (h : M4.Reassoc (glm_mat4_mul (a.map .inp) (b.map .inp)) t)
    (ha : a.On i K) (hb : b.On j L)
    (hK : 4 * (K * L) ≤ 2 ^ 24) (lo : -149 ≤ i + j) (hi : i + j ≤ 103) :
    (t.map X.run).Exact (glm_mat4_mul (a.map toReal) (b.map toReal)) (i + j) (4 * (K * L)) := by
  simp only [cglm, M4.map, V4.map, M4.Reassoc, V4.Reassoc] at h
  simp only [cglm, M4.map, V4.map, M4.Exact, V4.Exact]
  simp only [M4.On, V4.On] at ha hb
  obtain ⟨⟨_, _, _, _⟩, ⟨_, _, _, _⟩, ⟨_, _, _, _⟩, ⟨_, _, _, _⟩⟩ := ha
  obtain ⟨⟨_, _, _, _⟩, ⟨_, _, _, _⟩, ⟨_, _, _, _⟩, ⟨_, _, _, _⟩⟩ := hb
  obtain ⟨⟨_, _, _, _⟩, ⟨_, _, _, _⟩, ⟨_, _, _, _⟩, ⟨_, _, _, _⟩⟩ := h
  refine ⟨⟨?_, ?_, ?_, ?_⟩, ⟨?_, ?_, ?_, ?_⟩, ⟨?_, ?_, ?_, ?_⟩, ⟨?_, ?_, ?_, ?_⟩⟩ <;> gridx

theorem C96_exact_mat4_scale {i j : ℤ} {K L : ℕ} (m : M4 F32) (s : F32)
    (t : M4 X) (h : M4.Reassoc (glm_mat4_scale (m.map .inp) (.inp s)) t)
    (hm : m.On i K) (hs : s.On j L)
    (hK : K * L ≤ 2 ^ 24) (lo : -149 ≤ i + j) (hi : i + j ≤ 103) :
    (t.map X.run).Exact (glm_mat4_scale (m.map toReal) (toReal s)) (i + j) (K * L) := by
  simp only [cglm, M4.map, V4.map, M4.Reassoc, V4.Reassoc] at h
  simp only [cglm, M4.map, V4.map, M4.Exact, V4.Exact]
  simp only [M4.On, V4.On] at hm
  obtain ⟨⟨_, _, _, _⟩, ⟨_, _, _, _⟩, ⟨_, _, _, _⟩, ⟨_, _, _, _⟩⟩ := hm
  obtain ⟨⟨_, _, _, _⟩, ⟨_, _, _, _⟩, ⟨_, _, _, _⟩, ⟨_, _, _, _⟩⟩ := h
  refine ⟨⟨?_, ?_, ?_, ?_⟩, ⟨?_, ?_, ?_, ?_⟩, ⟨?_, ?_, ?_, ?_⟩, ⟨?_, ?_, ?_, ?_⟩⟩ <;> gridx

theorem C96_exact_mat4_trace {i : ℤ} {K : ℕ} (m : M4 F32)
    (t : X) (h : Reassoc (glm_mat4_trace (m.map .inp)) t)
    (hm : m.On i K)
    (hK : 4 * K ≤ 2 ^ 24) (lo : -149 ≤ i) (hi : i ≤ 103) :
    t.run.Exact (glm_mat4_trace (m.map toReal)) (i) (4 * K) := by
  simp only [cglm, M4.map, V4.map] at h
  simp only [cglm, M4.map, V4.map]
  simp only [M4.On, V4.On] at hm
  obtain ⟨⟨_, _, _, _⟩, ⟨_, _, _, _⟩, ⟨_, _, _, _⟩, ⟨_, _, _, _⟩⟩ := hm
  gridx

theorem C96_exact_mat2_det {i : ℤ} {K : ℕ} (m : M2 F32)
    (t : X) (h : Reassoc (glm_mat2_det (m.map .inp)) t)
    (hm : m.On i K)
    (hK : 2 * (K * K) ≤ 2 ^ 24) (lo : -149 ≤ i + i) (hi : i + i ≤ 103) :
    t.run.Exact (glm_mat2_det (m.map toReal)) (i + i) (2 * (K * K)) := by
  simp only [cglm, M2.map, V2.map] at h
  simp only [cglm, M2.map, V2.map]
  simp only [M2.On, V2.On] at hm
  obtain ⟨⟨_, _⟩, ⟨_, _⟩⟩ := hm
  gridx

theorem C96_exact_mat2x3_mulv {i j : ℤ} {K L : ℕ} (m : M2x3 F32) (v : V2 F32)
    (t : V3 X) (h : V3.Reassoc (glm_mat2x3_mulv (m.map .inp) (v.map .inp)) t)
    (hm : m.On i K) (hv : v.On j L)
    (hK : 2 * (K * L) ≤ 2 ^ 24) (lo : -149 ≤ i + j) (hi : i + j ≤ 103) :
    (t.map X.run).Exact (glm_mat2x3_mulv (m.map toReal) (v.map toReal)) (i + j) (2 * (K * L)) := by
  simp only [cglm, M2x3.map, V2.map, V3.map, V3.Reassoc] at h
  simp only [cglm, M2x3.map, V2.map, V3.map, V3.Exact]
  simp only [M2x3.On, V2.On, V3.On] at hm hv
  obtain ⟨⟨_, _, _⟩, ⟨_, _, _⟩⟩ := hm
  obtain ⟨_, _⟩ := hv
  obtain ⟨_, _, _⟩ := h
  refine ⟨?_, ?_, ?_⟩ <;> gridx

theorem C96_exact_mat2x3_mul {i j : ℤ} {K L : ℕ} (a : M2x3 F32) (b : M3x2 F32)
    (t : M3 X) (h : M3.Reassoc (glm_mat2x3_mul (a.map .inp) (b.map .inp)) t)
    (ha : a.On i K) (hb : b.On j L)
    (hK : 2 * (K * L) ≤ 2 ^ 24) (lo : -149 ≤ i + j) (hi : i + j ≤ 103) :
    (t.map X.run).Exact (glm_mat2x3_mul (a.map toReal) (b.map toReal)) (i + j) (2 * (K * L)) := by
  simp only [cglm, M2x3.map, M3.map, M3x2.map, V2.map, V3.map, M3.Reassoc, V3.Reassoc] at h
  simp only [cglm, M2x3.map, M3.map, M3x2.map, V2.map, V3.map, M3.Exact, V3.Exact]
  simp only [M2x3.On, M3x2.On, V2.On, V3.On] at ha hb
  obtain ⟨⟨_, _, _⟩, ⟨_, _, _⟩⟩ := ha
  obtain ⟨⟨_, _⟩, ⟨_, _⟩, ⟨_, _⟩⟩ := hb
  obtain ⟨⟨_, _, _⟩, ⟨_, _, _⟩, ⟨_, _, _⟩⟩ := h
  refine ⟨⟨?_, ?_, ?_⟩, ⟨?_, ?_, ?_⟩, ⟨?_, ?_, ?_⟩⟩ <;> gridx

theorem C96_exact_mat2x4_mulv {i j : ℤ} {K L : ℕ} (m : M2x4 F32) (v : V2 F32)
    (t : V4 X) (h : V4.Reassoc (glm_mat2x4_mulv (m.map .inp) (v.map .inp)) t)
    (hm : m.On i K) (hv : v.On j L)
    (hK : 2 * (K * L) ≤ 2 ^ 24) (lo : -149 ≤ i + j) (hi : i + j ≤ 103) :
    (t.map X.run).Exact (glm_mat2x4_mulv (m.map toReal) (v.map toReal)) (i + j) (2 * (K * L)) := by
  simp only [cglm, M2x4.map, V2.map, V4.map, V4.Reassoc] at h
  simp only [cglm, M2x4.map, V2.map, V4.map, V4.Exact]
  simp only [M2x4.On, V2.On, V4.On] at hm hv
  obtain ⟨⟨_, _, _, _⟩, ⟨_, _, _, _⟩⟩ := hm
  obtain ⟨_, _⟩ := hv
  obtain ⟨_, _, _, _⟩ := h
  refine ⟨?_, ?_, ?_, ?_⟩ <;> gridx

theorem C96_exact_mat2x4_mul {i j : ℤ} {K L : ℕ} (a : M2x4 F32) (b : M4x2 F32)
    (t : M4 X) (h : M4.Reassoc (glm_mat2x4_mul (a.map .inp) (b.map .inp)) t)
    (ha : a.On i K) (hb : b.On j L)
    (hK : 2 * (K * L) ≤ 2 ^ 24) (lo : -149 ≤ i + j) (hi : i + j ≤ 103) :
    (t.map X.run).Exact (glm_mat2x4_mul (a.map toReal) (b.map toReal)) (i + j) (2 * (K * L)) := by
  simp only [cglm, M2x4.map, M4.map, M4x2.map, V2.map, V4.map, M4.Reassoc, V4.Reassoc] at h
  simp only [cglm, M2x4.map, M4.map, M4x2.map, V2.map, V4.map, M4.Exact, V4.Exact]
  simp only [M2x4.On, M4x2.On, V2.On, V4.On] at ha hb
  obtain ⟨⟨_, _, _, _⟩, ⟨_, _, _, _⟩⟩ := ha
  obtain ⟨⟨_, _⟩, ⟨_, _⟩, ⟨_, _⟩, ⟨_, _⟩⟩ := hb
  obtain ⟨⟨_, _, _, _⟩, ⟨_, _, _, _⟩, ⟨_, _, _, _⟩, ⟨_, _, _, _⟩⟩ := h
  refine ⟨⟨?_, ?_, ?_, ?_⟩, ⟨?_, ?_, ?_, ?_⟩, ⟨?_, ?_, ?_, ?_⟩, ⟨?_, ?_, ?_, ?_⟩⟩ <;> gridx

theorem C96_exact_mat3x2_mulv {i j : ℤ} {K L : ℕ} (m : M3x2 F32) (v : V3 F32)
    (t : V2 X) (h : V2.Reassoc (glm_mat3x2_mulv (m.map .inp) (v.map .inp)) t)
    (hm : m.On i K) (hv : v.On j L)
    (hK : 3 * (K * L) ≤ 2 ^ 24) (lo : -149 ≤ i + j) (hi : i + j ≤ 103) :
    (t.map X.run).Exact (glm_mat3x2_mulv (m.map toReal) (v.map toReal)) (i + j) (3 * (K * L)) := by
  simp only [cglm, M3x2.map, V2.map, V3.map, V2.Reassoc] at h
  simp only [cglm, M3x2.map, V2.map, V3.map, V2.Exact]
  simp only [M3x2.On, V2.On, V3.On] at hm hv
  obtain ⟨⟨_, _⟩, ⟨_, _⟩, ⟨_, _⟩⟩ := hm
  obtain ⟨_, _, _⟩ := hv
  obtain ⟨_, _⟩ := h
  refine ⟨?_, ?_⟩ <;> gridx

theorem C96_exact_mat3x2_mul {i j : ℤ} {K L : ℕ} (a : M3x2 F32) (b : M2x3 F32)
    (t : M2 X) (h : M2.Reassoc (glm_mat3x2_mul (a.map .inp) (b.map .inp)) t)
    (ha : a.On i K) (hb : b.On j L)
    (hK : 3 * (K * L) ≤ 2 ^ 24) (lo : -149 ≤ i + j) (hi : i + j ≤ 103) :
    (t.map X.run).Exact (glm_mat3x2_mul (a.map toReal) (b.map toReal)) (i + j) (3 * (K * L)) := by
  simp only [cglm, M2.map, M2x3.map, M3x2.map, V2.map, V3.map, M2.Reassoc, V2.Reassoc] at h
  simp only [cglm, M2.map, M2x3.map, M3x2.map, V2.map, V3.map, M2.Exact, V2.Exact]
  simp only [M2x3.On, M3x2.On, V2.On, V3.On] at ha hb
  obtain ⟨⟨_, _⟩, ⟨_, _⟩, ⟨_, _⟩⟩ := ha
  obtain ⟨⟨_, _, _⟩, ⟨_, _, _⟩⟩ := hb
  obtain ⟨⟨_, _⟩, ⟨_, _⟩⟩ := h
  refine ⟨⟨?_, ?_⟩, ⟨?_, ?_⟩⟩ <;> gridx

theorem C96_exact_mat3x4_mulv {i j : ℤ} {K L : ℕ} (m : M3x4 F32) (v : V3 F32)
    (t : V4 X) (h : V4.Reassoc (glm_mat3x4_mulv (m.map .inp) (v.map .inp)) t)
    (hm : m.On i K) (hv : v.On j L)
    (hK : 3 * (K * L) ≤ 2 ^ 24) (lo : -149 ≤ i + j) (hi : i + j ≤ 103) :
    (t.map X.run).Exact (glm_mat3x4_mulv (m.map toReal) (v.map toReal)) (i + j) (3 * (K * L)) := by
  simp only [cglm, M3x4.map, V3.map, V4.map, V4.Reassoc] at h
  simp only [cglm, M3x4.map, V3.map, V4.map, V4.Exact]
  simp only [M3x4.On, V3.On, V4.On] at hm hv
  obtain ⟨⟨_, _, _, _⟩, ⟨_, _, _, _⟩, ⟨_, _, _, _⟩⟩ := hm
  obtain ⟨_, _, _⟩ := hv
  obtain ⟨_, _, _, _⟩ := h
  refine ⟨?_, ?_, ?_, ?_⟩ <;> gridx

theorem C96_exact_mat3x4_mul {i j : ℤ} {K L : ℕ} (a : M3x4 F32) (b : M4x3 F32)
    (t : M4 X) (h : M4.Reassoc (glm_mat3x4_mul (a.map .inp) (b.map .inp)) t)
    (ha : a.On i K) (hb : b.On j L)
    (hK : 3 * (K * L) ≤ 2 ^ 24) (lo : -149 ≤ i + j) (hi : i + j ≤ 103) :
    (t.map X.run).Exact (glm_mat3x4_mul (a.map toReal) (b.map toReal)) (i + j) (3 * (K * L)) := by
  simp only [cglm, M3x4.map, M4.map, M4x3.map, V3.map, V4.map, M4.Reassoc, V4.Reassoc] at h
  simp only [cglm, M3x4.map, M4.map, M4x3.map, V3.map, V4.map, M4.Exact, V4.Exact]
  simp only [M3x4.On, M4x3.On, V3.On, V4.On] at ha hb
  obtain ⟨⟨_, _, _, _⟩, ⟨_, _, _, _⟩, ⟨_, _, _, _⟩⟩ := ha
  obtain ⟨⟨_, _, _⟩, ⟨_, _, _⟩, ⟨_, _, _⟩, ⟨_, _, _⟩⟩ := hb
  obtain ⟨⟨_, _, _, _⟩, ⟨_, _, _, _⟩, ⟨_, _, _, _⟩, ⟨_, _, _, _⟩⟩ := h
  refine ⟨⟨?_, ?_, ?_, ?_⟩, ⟨?_, ?_, ?_, ?_⟩, ⟨?_, ?_, ?_, ?_⟩, ⟨?_, ?_, ?_, ?_⟩⟩ <;> gridx

theorem C96_exact_mat4x2_mulv {i j : ℤ} {K L : ℕ} (m : M4x2 F32) (v : V4 F32)
    (t : V2 X) (h : V2.Reassoc (glm_mat4x2_mulv (m.map .inp) (v.map .inp)) t)
    (hm : m.On i K) (hv : v.On j L)
    (hK : 4 * (K * L) ≤ 2 ^ 24) (lo : -149 ≤ i + j) (hi : i + j ≤ 103) :
    (t.map X.run).Exact (glm_mat4x2_mulv (m.map toReal) (v.map toReal)) (i + j) (4 * (K * L)) := by
  simp only [cglm, M4x2.map, V2.map, V4.map, V2.Reassoc] at h
  simp only [cglm, M4x2.map, V2.map, V4.map, V2.Exact]
  simp only [M4x2.On, V2.On, V4.On] at hm hv
  obtain ⟨⟨_, _⟩, ⟨_, _⟩, ⟨_, _⟩, ⟨_, _⟩⟩ := hm
  obtain ⟨_, _, _, _⟩ := hv
  obtain ⟨_, _⟩ := h
  refine ⟨?_, ?_⟩ <;> gridx

theorem C96_exact_mat4x2_mul {i j : ℤ} {K L : ℕ} (a : M4x2 F32) (b : M2x4 F32)
    (t : M2 X) (h : M2.Reassoc (glm_mat4x2_mul (a.map .inp) (b.map .inp)) t)
    (ha : a.On i K) (hb : b.On j L)
    (hK : 4 * (K * L) ≤ 2 ^ 24) (lo : -149 ≤ i + j) (hi : i + j ≤ 103) :
    (t.map X.run).Exact (glm_mat4x2_mul (a.map toReal) (b.map toReal)) (i + j) (4 * (K * L)) := by
  simp only [cglm, M2.map, M2x4.map, M4x2.map, V2.map, V4.map, M2.Reassoc, V2.Reassoc] at h
  simp only [cglm, M2.map, M2x4.map, M4x2.map, V2.map, V4.map, M2.Exact, V2.Exact]
  simp only [M2x4.On, M4x2.On, V2.On, V4.On] at ha hb
  obtain ⟨⟨_, _⟩, ⟨_, _⟩, ⟨_, _⟩, ⟨_, _⟩⟩ := ha
  obtain ⟨⟨_, _, _, _⟩, ⟨_, _, _, _⟩⟩ := hb
  obtain ⟨⟨_, _⟩, ⟨_, _⟩⟩ := h
  refine ⟨⟨?_, ?_⟩, ⟨?_, ?_⟩⟩ <;> gridx

theorem C96_exact_mat4x3_mulv {i j : ℤ} {K L : ℕ} (m : M4x3 F32) (v : V4 F32)
    (t : V3 X) (h : V3.Reassoc (glm_mat4x3_mulv (m.map .inp) (v.map .inp)) t)
    (hm : m.On i K) (hv : v.On j L)
    (hK : 4 * (K * L) ≤ 2 ^ 24) (lo : -149 ≤ i + j) (hi : i + j ≤ 103) :
    (t.map X.run).Exact (glm_mat4x3_mulv (m.map toReal) (v.map toReal)) (i + j) (4 * (K * L)) := by
  simp only [cglm, M4x3.map, V3.map, V4.map, V3.Reassoc] at h
  simp only [cglm, M4x3.map, V3.map, V4.map, V3.Exact]
  simp only [M4x3.On, V3.On, V4.On] at hm hv
  obtain ⟨⟨_, _, _⟩, ⟨_, _, _⟩, ⟨_, _, _⟩, ⟨_, _, _⟩⟩ := hm
  obtain ⟨_, _, _, _⟩ := hv
  obtain ⟨_, _, _⟩ := h
  refine ⟨?_, ?_, ?_⟩ <;> gridx

theorem C96_exact_mat4x3_mul {i j : ℤ} {K L : ℕ} (a : M4x3 F32) (b : M3x4 F32)
    (t : M3 X) (h : M3.Reassoc (glm_mat4x3_mul (a.map .inp) (b.map .inp)) t)
    (ha : a.On i K) (hb : b.On j L)
    (hK : 4 * (K * L) ≤ 2 ^ 24) (lo : -149 ≤ i + j) (hi : i + j ≤ 103) :
    (t.map X.run).Exact (glm_mat4x3_mul (a.map toReal) (b.map toReal)) (i + j) (4 * (K * L)) := by
  simp only [cglm, M3.map, M3x4.map, M4x3.map, V3.map, V4.map, M3.Reassoc, V3.Reassoc] at h
  simp only [cglm, M3.map, M3x4.map, M4x3.map, V3.map, V4.map, M3.Exact, V3.Exact]
  simp only [M3x4.On, M4x3.On, V3.On, V4.On] at ha hb
  obtain ⟨⟨_, _, _⟩, ⟨_, _, _⟩, ⟨_, _, _⟩, ⟨_, _, _⟩⟩ := ha
  obtain ⟨⟨_, _, _, _⟩, ⟨_, _, _, _⟩, ⟨_, _, _, _⟩⟩ := hb
  obtain ⟨⟨_, _, _⟩, ⟨_, _, _⟩, ⟨_, _, _⟩⟩ := h
  refine ⟨⟨?_, ?_, ?_⟩, ⟨?_, ?_, ?_⟩, ⟨?_, ?_, ?_⟩⟩ <;> gridx

theorem C96_exact_mat4_mulv3 {i j : ℤ} {K L : ℕ} (m : M4 F32) (v : V3 F32) (last : F32)
    (t : V3 X) (h : V3.Reassoc (glm_mat4_mulv3 (m.map .inp) (v.map .inp) (.inp last)) t)
    (hm : m.On i K) (hv : v.On j L) (hlast : last.On j L)
    (hK : 4 * (K * L) ≤ 2 ^ 24) (lo : -149 ≤ i + j) (hi : i + j ≤ 103) :
    (t.map X.run).Exact (glm_mat4_mulv3 (m.map toReal) (v.map toReal) (toReal last)) (i + j) (4 * (K * L)) := by
  simp only [cglm, M4.map, V3.map, V4.map, V3.Reassoc] at h
  simp only [cglm, M4.map, V3.map, V4.map, V3.Exact]
  simp only [M4.On, V3.On, V4.On] at hm hv
  obtain ⟨⟨_, _, _, _⟩, ⟨_, _, _, _⟩, ⟨_, _, _, _⟩, ⟨_, _, _, _⟩⟩ := hm
  obtain ⟨_, _, _⟩ := hv
  obtain ⟨_, _, _⟩ := h
  refine ⟨?_, ?_, ?_⟩ <;> gridx

theorem C96_exact_mul {i j : ℤ} {K L : ℕ} (a : M4 F32) (b : M4 F32)
    (t : M4 X) (h : M4.Reassoc (glm_mul (a.map .inp) (b.map .inp)) t)
    (ha : a.On i K) (hb : b.On j L)
    (hK : 4 * (K * L) ≤ 2 ^ 24) (lo : -149 ≤ i + j) (hi : i + j ≤ 103) :
    (t.map X.run).Exact (glm_mul (a.map toReal) (b.map toReal)) (i + j) (4 * (K * L)) := by
  simp only [cglm, M4.map, V4.map, M4.Reassoc, V4.Reassoc] at h
  simp only [cglm, M4.map, V4.map, M4.Exact, V4.Exact]
  simp only [M4.On, V4.On] at ha hb
  obtain ⟨⟨_, _, _, _⟩, ⟨_, _, _, _⟩, ⟨_, _, _, _⟩, ⟨_, _, _, _⟩⟩ := ha
  obtain ⟨⟨_, _, _, _⟩, ⟨_, _, _, _⟩, ⟨_, _, _, _⟩, ⟨_, _, _, _⟩⟩ := hb
  obtain ⟨⟨_, _, _, _⟩, ⟨_, _, _, _⟩, ⟨_, _, _, _⟩, ⟨_, _, _, _⟩⟩ := h
  refine ⟨⟨?_, ?_, ?_, ?_⟩, ⟨?_, ?_, ?_, ?_⟩, ⟨?_, ?_, ?_, ?_⟩, ⟨?_, ?_, ?_, ?_⟩⟩ <;> gridx

theorem C96_exact_mul_rot {K L : ℕ} (a : M4 F32) (b : M4 F32)
    (t : M4 X) (h : M4.Reassoc (glm_mul_rot (a.map .inp) (b.map .inp)) t)
    (ha : a.On 0 K) (hb : b.On 0 L)
    (hK : 3 * (K * L) + K ≤ 2 ^ 24) :
    (t.map X.run).Exact (glm_mul_rot (a.map toReal) (b.map toReal)) (0) (3 * (K * L) + K) := by
  simp only [cglm, M4.map, V4.map, M4.Reassoc, V4.Reassoc] at h
  simp only [cglm, M4.map, V4.map, M4.Exact, V4.Exact]
  simp only [M4.On, V4.On] at ha hb
  obtain ⟨⟨_, _, _, _⟩, ⟨_, _, _, _⟩, ⟨_, _, _, _⟩, ⟨_, _, _, _⟩⟩ := ha
  obtain ⟨⟨_, _, _, _⟩, ⟨_, _, _, _⟩, ⟨_, _, _, _⟩, ⟨_, _, _, _⟩⟩ := hb
  obtain ⟨⟨_, _, _, _⟩, ⟨_, _, _, _⟩, ⟨_, _, _, _⟩, ⟨_, _, _, _⟩⟩ := h
  refine ⟨⟨?_, ?_, ?_, ?_⟩, ⟨?_, ?_, ?_, ?_⟩, ⟨?_, ?_, ?_, ?_⟩, ⟨?_, ?_, ?_, ?_⟩⟩ <;> gridx

theorem C96_exact_scale_to {K L : ℕ} (m : M4 F32) (v : V3 F32)
    (t : M4 X) (h : M4.Reassoc (glm_scale_to (m.map .inp) (v.map .inp)) t)
    (hm : m.On 0 K) (hv : v.On 0 L)
    (hK : K * L + K ≤ 2 ^ 24) :
    (t.map X.run).Exact (glm_scale_to (m.map toReal) (v.map toReal)) (0) (K * L + K) := by
  simp only [cglm, M4.map, V3.map, V4.map, M4.Reassoc, V4.Reassoc] at h
  simp only [cglm, M4.map, V3.map, V4.map, M4.Exact, V4.Exact]
  simp only [M4.On, V3.On, V4.On] at hm hv
  obtain ⟨⟨_, _, _, _⟩, ⟨_, _, _, _⟩, ⟨_, _, _, _⟩, ⟨_, _, _, _⟩⟩ := hm
  obtain ⟨_, _, _⟩ := hv
  obtain ⟨⟨_, _, _, _⟩, ⟨_, _, _, _⟩, ⟨_, _, _, _⟩, ⟨_, _, _, _⟩⟩ := h
  refine ⟨⟨?_, ?_, ?_, ?_⟩, ⟨?_, ?_, ?_, ?_⟩, ⟨?_, ?_, ?_, ?_⟩, ⟨?_, ?_, ?_, ?_⟩⟩ <;> gridx

end Cglm
