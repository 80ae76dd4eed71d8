import Verif.Wide
import Verif.Gen
/-!
# C95: exact results with excess precision

On small integers and fixed-point numbers (`On` is that of C76) every evaluation method gives the exact result, the value of the same
C function over ℝ.
Written by `tools/widethms.py`.
-/
set_option linter.unusedSimpArgs false
open Cglm F32 Wide
namespace Cglm

theorem C95_exact_vec2_add (E : Method) {i : ℤ} {K L : ℕ} (a : V2 Named) (b : V2 Named)
    (ha : (a.map Named.val).On i K) (hb : (b.map Named.val).On i L)
    (h : K + L ≤ 2 ^ 24) (lo : -149 ≤ i) :
    (glm_vec2_add (a.map (Named.wide E)) (b.map (Named.wide E))).map Wide.val = glm_vec2_add (a.map Named.real) (b.map Named.real) := by
  simp only [cglm, V2.map, V2.mk.injEq]
  simp only [V2.On, V2.map] at ha hb
  obtain ⟨_, _⟩ := ha
  obtain ⟨_, _⟩ := hb
  refine ⟨?_, ?_⟩ <;> gridw

theorem C95_exact_vec2_adds (E : Method) {i : ℤ} {K L : ℕ} (v : V2 Named) (s : Named)
    (hv : (v.map Named.val).On i K) (hs : s.val.On i L)
    (h : K + L ≤ 2 ^ 24) (lo : -149 ≤ i) :
    (glm_vec2_adds (v.map (Named.wide E)) ((Named.wide E) s)).map Wide.val = glm_vec2_adds (v.map Named.real) (Named.real s) := by
  simp only [cglm, V2.map, V2.mk.injEq]
  simp only [V2.On, V2.map] at hv
  obtain ⟨_, _⟩ := hv
  refine ⟨?_, ?_⟩ <;> gridw

theorem C95_exact_vec2_sub (E : Method) {i : ℤ} {K L : ℕ} (a : V2 Named) (b : V2 Named)
    (ha : (a.map Named.val).On i K) (hb : (b.map Named.val).On i L)
    (h : K + L ≤ 2 ^ 24) (lo : -149 ≤ i) :
    (glm_vec2_sub (a.map (Named.wide E)) (b.map (Named.wide E))).map Wide.val = glm_vec2_sub (a.map Named.real) (b.map Named.real) := by
  simp only [cglm, V2.map, V2.mk.injEq]
  simp only [V2.On, V2.map] at ha hb
  obtain ⟨_, _⟩ := ha
  obtain ⟨_, _⟩ := hb
  refine ⟨?_, ?_⟩ <;> gridw

theorem C95_exact_vec2_subs (E : Method) {i : ℤ} {K L : ℕ} (v : V2 Named) (s : Named)
    (hv : (v.map Named.val).On i K) (hs : s.val.On i L)
    (h : K + L ≤ 2 ^ 24) (lo : -149 ≤ i) :
    (glm_vec2_subs (v.map (Named.wide E)) ((Named.wide E) s)).map Wide.val = glm_vec2_subs (v.map Named.real) (Named.real s) := by
  simp only [cglm, V2.map, V2.mk.injEq]
  simp only [V2.On, V2.map] at hv
  obtain ⟨_, _⟩ := hv
  refine ⟨?_, ?_⟩ <;> gridw

theorem C95_exact_vec2_mul (E : Method) {i j : ℤ} {K L : ℕ} (a : V2 Named) (b : V2 Named)
    (ha : (a.map Named.val).On i K) (hb : (b.map Named.val).On j L)
    (h : K * L ≤ 2 ^ 24) (lo : -149 ≤ i + j) :
    (glm_vec2_mul (a.map (Named.wide E)) (b.map (Named.wide E))).map Wide.val = glm_vec2_mul (a.map Named.real) (b.map Named.real) := by
  simp only [cglm, V2.map, V2.mk.injEq]
  simp only [V2.On, V2.map] at ha hb
  obtain ⟨_, _⟩ := ha
  obtain ⟨_, _⟩ := hb
  refine ⟨?_, ?_⟩ <;> gridw

theorem C95_exact_vec2_scale (E : Method) {i j : ℤ} {K L : ℕ} (v : V2 Named) (s : Named)
    (hv : (v.map Named.val).On i K) (hs : s.val.On j L)
    (h : K * L ≤ 2 ^ 24) (lo : -149 ≤ i + j) :
    (glm_vec2_scale (v.map (Named.wide E)) ((Named.wide E) s)).map Wide.val = glm_vec2_scale (v.map Named.real) (Named.real s) := by
  simp only [cglm, V2.map, V2.mk.injEq]
  simp only [V2.On, V2.map] at hv
  obtain ⟨_, _⟩ := hv
  refine ⟨?_, ?_⟩ <;> gridw

theorem C95_exact_vec2_dot (E : Method) {i j : ℤ} {K L : ℕ} (a : V2 Named) (b : V2 Named)
    (ha : (a.map Named.val).On i K) (hb : (b.map Named.val).On j L)
    (h : 2 * (K * L) ≤ 2 ^ 24) (lo : -149 ≤ i + j) :
    (glm_vec2_dot (a.map (Named.wide E)) (b.map (Named.wide E))).val = glm_vec2_dot (a.map Named.real) (b.map Named.real) := by
  simp only [cglm, V2.map]
  simp only [V2.On, V2.map] at ha hb
  obtain ⟨_, _⟩ := ha
  obtain ⟨_, _⟩ := hb
  gridw

theorem C95_exact_vec2_norm2 (E : Method) {i : ℤ} {K : ℕ} (v : V2 Named)
    (hv : (v.map Named.val).On i K)
    (h : 2 * (K * K) ≤ 2 ^ 24) (lo : -149 ≤ i + i) :
    (glm_vec2_norm2 (v.map (Named.wide E))).val = glm_vec2_norm2 (v.map Named.real) := by
  simp only [cglm, V2.map]
  simp only [V2.On, V2.map] at hv
  obtain ⟨_, _⟩ := hv
  gridw

theorem C95_exact_vec2_muladd (E : Method) {i j : ℤ} {K L M : ℕ} (a : V2 Named) (b : V2 Named) (c : V2 Named)
    (ha : (a.map Named.val).On i K) (hb : (b.map Named.val).On j L) (hc : (c.map Named.val).On (i + j) M)
    (h : K * L + M ≤ 2 ^ 24) (lo : -149 ≤ i + j) :
    (glm_vec2_muladd (a.map (Named.wide E)) (b.map (Named.wide E)) (c.map (Named.wide E))).map Wide.val = glm_vec2_muladd (a.map Named.real) (b.map Named.real) (c.map Named.real) := by
  simp only [cglm, V2.map, V2.mk.injEq]
  simp only [V2.On, V2.map] at ha hb hc
  obtain ⟨_, _⟩ := ha
  obtain ⟨_, _⟩ := hb
  obtain ⟨_, _⟩ := hc
  refine ⟨?_, ?_⟩ <;> gridw

theorem C95_exact_vec2_muladds (E : Method) {i j : ℤ} {K L M : ℕ} (a : V2 Named) (s : Named) (c : V2 Named)
    (ha : (a.map Named.val).On i K) (hs : s.val.On j L) (hc : (c.map Named.val).On (i + j) M)
    (h : K * L + M ≤ 2 ^ 24) (lo : -149 ≤ i + j) :
    (glm_vec2_muladds (a.map (Named.wide E)) ((Named.wide E) s) (c.map (Named.wide E))).map Wide.val = glm_vec2_muladds (a.map Named.real) (Named.real s) (c.map Named.real) := by
  simp only [cglm, V2.map, V2.mk.injEq]
  simp only [V2.On, V2.map] at ha hc
  obtain ⟨_, _⟩ := ha
  obtain ⟨_, _⟩ := hc
  refine ⟨?_, ?_⟩ <;> gridw

theorem C95_exact_vec2_mulsub (E : Method) {i j : ℤ} {K L M : ℕ} (a : V2 Named) (b : V2 Named) (c : V2 Named)
    (ha : (a.map Named.val).On i K) (hb : (b.map Named.val).On j L) (hc : (c.map Named.val).On (i + j) M)
    (h : K * L + M ≤ 2 ^ 24) (lo : -149 ≤ i + j) :
    (glm_vec2_mulsub (a.map (Named.wide E)) (b.map (Named.wide E)) (c.map (Named.wide E))).map Wide.val = glm_vec2_mulsub (a.map Named.real) (b.map Named.real) (c.map Named.real) := by
  simp only [cglm, V2.map, V2.mk.injEq]
  simp only [V2.On, V2.map] at ha hb hc
  obtain ⟨_, _⟩ := ha
  obtain ⟨_, _⟩ := hb
  obtain ⟨_, _⟩ := hc
  refine ⟨?_, ?_⟩ <;> gridw

theorem C95_exact_vec2_mulsubs (E : Method) {i j : ℤ} {K L M : ℕ} (a : V2 Named) (s : Named) (c : V2 Named)
    (ha : (a.map Named.val).On i K) (hs : s.val.On j L) (hc : (c.map Named.val).On (i + j) M)
    (h : K * L + M ≤ 2 ^ 24) (lo : -149 ≤ i + j) :
    (glm_vec2_mulsubs (a.map (Named.wide E)) ((Named.wide E) s) (c.map (Named.wide E))).map Wide.val = glm_vec2_mulsubs (a.map Named.real) (Named.real s) (c.map Named.real) := by
  simp only [cglm, V2.map, V2.mk.injEq]
  simp only [V2.On, V2.map] at ha hc
  obtain ⟨_, _⟩ := ha
  obtain ⟨_, _⟩ := hc
  refine ⟨?_, ?_⟩ <;> gridw

theorem C95_exact_vec2_addadd (E : Method) {i : ℤ} {K L M : ℕ} (a : V2 Named) (b : V2 Named) (c : V2 Named)
    (ha : (a.map Named.val).On i K) (hb : (b.map Named.val).On i L) (hc : (c.map Named.val).On i M)
    (h : K + L + M ≤ 2 ^ 24) (lo : -149 ≤ i) :
    (glm_vec2_addadd (a.map (Named.wide E)) (b.map (Named.wide E)) (c.map (Named.wide E))).map Wide.val = glm_vec2_addadd (a.map Named.real) (b.map Named.real) (c.map Named.real) := by
  simp only [cglm, V2.map, V2.mk.injEq]
  simp only [V2.On, V2.map] at ha hb hc
  obtain ⟨_, _⟩ := ha
  obtain ⟨_, _⟩ := hb
  obtain ⟨_, _⟩ := hc
  refine ⟨?_, ?_⟩ <;> gridw

theorem C95_exact_vec2_subadd (E : Method) {i : ℤ} {K L M : ℕ} (a : V2 Named) (b : V2 Named) (c : V2 Named)
    (ha : (a.map Named.val).On i K) (hb : (b.map Named.val).On i L) (hc : (c.map Named.val).On i M)
    (h : K + L + M ≤ 2 ^ 24) (lo : -149 ≤ i) :
    (glm_vec2_subadd (a.map (Named.wide E)) (b.map (Named.wide E)) (c.map (Named.wide E))).map Wide.val = glm_vec2_subadd (a.map Named.real) (b.map Named.real) (c.map Named.real) := by
  simp only [cglm, V2.map, V2.mk.injEq]
  simp only [V2.On, V2.map] at ha hb hc
  obtain ⟨_, _⟩ := ha
  obtain ⟨_, _⟩ := hb
  obtain ⟨_, _⟩ := hc
  refine ⟨?_, ?_⟩ <;> gridw

theorem C95_exact_vec2_addsub (E : Method) {i : ℤ} {K L M : ℕ} (a : V2 Named) (b : V2 Named) (c : V2 Named)
    (ha : (a.map Named.val).On i K) (hb : (b.map Named.val).On i L) (hc : (c.map Named.val).On i M)
    (h : K + L + M ≤ 2 ^ 24) (lo : -149 ≤ i) :
    (glm_vec2_addsub (a.map (Named.wide E)) (b.map (Named.wide E)) (c.map (Named.wide E))).map Wide.val = glm_vec2_addsub (a.map Named.real) (b.map Named.real) (c.map Named.real) := by
  simp only [cglm, V2.map, V2.mk.injEq]
  simp only [V2.On, V2.map] at ha hb hc
  obtain ⟨_, _⟩ := ha
  obtain ⟨_, _⟩ := hb
  obtain ⟨_, _⟩ := hc
  refine ⟨?_, ?_⟩ <;> gridw

theorem C95_exact_vec2_subsub (E : Method) {i : ℤ} {K L M : ℕ} (a : V2 Named) (b : V2 Named) (c : V2 Named)
    (ha : (a.map Named.val).On i K) (hb : (b.map Named.val).On i L) (hc : (c.map Named.val).On i M)
    (h : K + L + M ≤ 2 ^ 24) (lo : -149 ≤ i) :
    (glm_vec2_subsub (a.map (Named.wide E)) (b.map (Named.wide E)) (c.map (Named.wide E))).map Wide.val = glm_vec2_subsub (a.map Named.real) (b.map Named.real) (c.map Named.real) := by
  simp only [cglm, V2.map, V2.mk.injEq]
  simp only [V2.On, V2.map] at ha hb hc
  obtain ⟨_, _⟩ := ha
  obtain ⟨_, _⟩ := hb
  obtain ⟨_, _⟩ := hc
  refine ⟨?_, ?_⟩ <;> gridw

theorem C95_exact_vec2_center (E : Method) {i : ℤ} {K L : ℕ} (a : V2 Named) (b : V2 Named)
    (ha : (a.map Named.val).On i K) (hb : (b.map Named.val).On i L)
    (h : K + L ≤ 2 ^ 24) (lo : -149 ≤ i - 1) :
    (glm_vec2_center (a.map (Named.wide E)) (b.map (Named.wide E))).map Wide.val = glm_vec2_center (a.map Named.real) (b.map Named.real) := by
  simp only [cglm, V2.map, V2.mk.injEq]
  simp only [V2.On, V2.map] at ha hb
  obtain ⟨_, _⟩ := ha
  obtain ⟨_, _⟩ := hb
  refine ⟨?_, ?_⟩ <;> gridw

theorem C95_exact_vec2_distance2 (E : Method) {i : ℤ} {K L : ℕ} (a : V2 Named) (b : V2 Named)
    (ha : (a.map Named.val).On i K) (hb : (b.map Named.val).On i L)
    (h : 2 * ((L + K) * (L + K)) ≤ 2 ^ 24) (lo : -149 ≤ i + i) :
    (glm_vec2_distance2 (a.map (Named.wide E)) (b.map (Named.wide E))).val = glm_vec2_distance2 (a.map Named.real) (b.map Named.real) := by
  simp only [cglm, V2.map]
  simp only [V2.On, V2.map] at ha hb
  obtain ⟨_, _⟩ := ha
  obtain ⟨_, _⟩ := hb
  have := Nat.le_mul_self (L + K)
  gridw

theorem C95_exact_vec3_add (E : Method) {i : ℤ} {K L : ℕ} (a : V3 Named) (b : V3 Named)
    (ha : (a.map Named.val).On i K) (hb : (b.map Named.val).On i L)
    (h : K + L ≤ 2 ^ 24) (lo : -149 ≤ i) :
    (glm_vec3_add (a.map (Named.wide E)) (b.map (Named.wide E))).map Wide.val = glm_vec3_add (a.map Named.real) (b.map Named.real) := by
  simp only [cglm, V3.map, V3.mk.injEq]
  simp only [V3.On, V3.map] at ha hb
  obtain ⟨_, _, _⟩ := ha
  obtain ⟨_, _, _⟩ := hb
  refine ⟨?_, ?_, ?_⟩ <;> gridw

theorem C95_exact_vec3_adds (E : Method) {i : ℤ} {K L : ℕ} (v : V3 Named) (s : Named)
    (hv : (v.map Named.val).On i K) (hs : s.val.On i L)
    (h : K + L ≤ 2 ^ 24) (lo : -149 ≤ i) :
    (glm_vec3_adds (v.map (Named.wide E)) ((Named.wide E) s)).map Wide.val = glm_vec3_adds (v.map Named.real) (Named.real s) := by
  simp only [cglm, V3.map, V3.mk.injEq]
  simp only [V3.On, V3.map] at hv
  obtain ⟨_, _, _⟩ := hv
  refine ⟨?_, ?_, ?_⟩ <;> gridw

theorem C95_exact_vec3_sub (E : Method) {i : ℤ} {K L : ℕ} (a : V3 Named) (b : V3 Named)
    (ha : (a.map Named.val).On i K) (hb : (b.map Named.val).On i L)
    (h : K + L ≤ 2 ^ 24) (lo : -149 ≤ i) :
    (glm_vec3_sub (a.map (Named.wide E)) (b.map (Named.wide E))).map Wide.val = glm_vec3_sub (a.map Named.real) (b.map Named.real) := by
  simp only [cglm, V3.map, V3.mk.injEq]
  simp only [V3.On, V3.map] at ha hb
  obtain ⟨_, _, _⟩ := ha
  obtain ⟨_, _, _⟩ := hb
  refine ⟨?_, ?_, ?_⟩ <;> gridw

theorem C95_exact_vec3_subs (E : Method) {i : ℤ} {K L : ℕ} (v : V3 Named) (s : Named)
    (hv : (v.map Named.val).On i K) (hs : s.val.On i L)
    (h : K + L ≤ 2 ^ 24) (lo : -149 ≤ i) :
    (glm_vec3_subs (v.map (Named.wide E)) ((Named.wide E) s)).map Wide.val = glm_vec3_subs (v.map Named.real) (Named.real s) := by
  simp only [cglm, V3.map, V3.mk.injEq]
  simp only [V3.On, V3.map] at hv
  obtain ⟨_, _, _⟩ := hv
  refine ⟨?_, ?_, ?_⟩ <;> gridw

theorem C95_exact_vec3_mul (E : Method) {i j : ℤ} {K L : ℕ} (a : V3 Named) (b : V3 Named)
    (ha : (a.map Named.val).On i K) (hb : (b.map Named.val).On j L)
    (h : K * L ≤ 2 ^ 24) (lo : -149 ≤ i + j) :
    (glm_vec3_mul (a.map (Named.wide E)) (b.map (Named.wide E))).map Wide.val = glm_vec3_mul (a.map Named.real) (b.map Named.real) := by
  simp only [cglm, V3.map, V3.mk.injEq]
  simp only [V3.On, V3.map] at ha hb
  obtain ⟨_, _, _⟩ := ha
  obtain ⟨_, _, _⟩ := hb
  refine ⟨?_, ?_, ?_⟩ <;> gridw

theorem C95_exact_vec3_scale (E : Method) {i j : ℤ} {K L : ℕ} (v : V3 Named) (s : Named)
    (hv : (v.map Named.val).On i K) (hs : s.val.On j L)
    (h : K * L ≤ 2 ^ 24) (lo : -149 ≤ i + j) :
    (glm_vec3_scale (v.map (Named.wide E)) ((Named.wide E) s)).map Wide.val = glm_vec3_scale (v.map Named.real) (Named.real s) := by
  simp only [cglm, V3.map, V3.mk.injEq]
  simp only [V3.On, V3.map] at hv
  obtain ⟨_, _, _⟩ := hv
  refine ⟨?_, ?_, ?_⟩ <;> gridw

theorem C95_exact_vec3_dot (E : Method) {i j : ℤ} {K L : ℕ} (a : V3 Named) (b : V3 Named)
    (ha : (a.map Named.val).On i K) (hb : (b.map Named.val).On j L)
    (h : 3 * (K * L) ≤ 2 ^ 24) (lo : -149 ≤ i + j) :
    (glm_vec3_dot (a.map (Named.wide E)) (b.map (Named.wide E))).val = glm_vec3_dot (a.map Named.real) (b.map Named.real) := by
  simp only [cglm, V3.map]
  simp only [V3.On, V3.map] at ha hb
  obtain ⟨_, _, _⟩ := ha
  obtain ⟨_, _, _⟩ := hb
  gridw

theorem C95_exact_vec3_norm2 (E : Method) {i : ℤ} {K : ℕ} (v : V3 Named)
    (hv : (v.map Named.val).On i K)
    (h : 3 * (K * K) ≤ 2 ^ 24) (lo : -149 ≤ i + i) :
    (glm_vec3_norm2 (v.map (Named.wide E))).val = glm_vec3_norm2 (v.map Named.real) := by
  simp only [cglm, V3.map]
  simp only [V3.On, V3.map] at hv
  obtain ⟨_, _, _⟩ := hv
  gridw

theorem C95_exact_vec3_muladd (E : Method) {i j : ℤ} {K L M : ℕ} (a : V3 Named) (b : V3 Named) (c : V3 Named)
    (ha : (a.map Named.val).On i K) (hb : (b.map Named.val).On j L) (hc : (c.map Named.val).On (i + j) M)
    (h : K * L + M ≤ 2 ^ 24) (lo : -149 ≤ i + j) :
    (glm_vec3_muladd (a.map (Named.wide E)) (b.map (Named.wide E)) (c.map (Named.wide E))).map Wide.val = glm_vec3_muladd (a.map Named.real) (b.map Named.real) (c.map Named.real) := by
  simp only [cglm, V3.map, V3.mk.injEq]
  simp only [V3.On, V3.map] at ha hb hc
  obtain ⟨_, _, _⟩ := ha
  obtain ⟨_, _, _⟩ := hb
  obtain ⟨_, _, _⟩ := hc
  refine ⟨?_, ?_, ?_⟩ <;> gridw

theorem C95_exact_vec3_muladds (E : Method) {i j : ℤ} {K L M : ℕ} (a : V3 Named) (s : Named) (c : V3 Named)
    (ha : (a.map Named.val).On i K) (hs : s.val.On j L) (hc : (c.map Named.val).On (i + j) M)
    (h : K * L + M ≤ 2 ^ 24) (lo : -149 ≤ i + j) :
    (glm_vec3_muladds (a.map (Named.wide E)) ((Named.wide E) s) (c.map (Named.wide E))).map Wide.val = glm_vec3_muladds (a.map Named.real) (Named.real s) (c.map Named.real) := by
  simp only [cglm, V3.map, V3.mk.injEq]
  simp only [V3.On, V3.map] at ha hc
  obtain ⟨_, _, _⟩ := ha
  obtain ⟨_, _, _⟩ := hc
  refine ⟨?_, ?_, ?_⟩ <;> gridw

theorem C95_exact_vec3_mulsub (E : Method) {i j : ℤ} {K L M : ℕ} (a : V3 Named) (b : V3 Named) (c : V3 Named)
    (ha : (a.map Named.val).On i K) (hb : (b.map Named.val).On j L) (hc : (c.map Named.val).On (i + j) M)
    (h : K * L + M ≤ 2 ^ 24) (lo : -149 ≤ i + j) :
    (glm_vec3_mulsub (a.map (Named.wide E)) (b.map (Named.wide E)) (c.map (Named.wide E))).map Wide.val = glm_vec3_mulsub (a.map Named.real) (b.map Named.real) (c.map Named.real) := by
  simp only [cglm, V3.map, V3.mk.injEq]
  simp only [V3.On, V3.map] at ha hb hc
  obtain ⟨_, _, _⟩ := ha
  obtain ⟨_, _, _⟩ := hb
  obtain ⟨_, _, _⟩ := hc
  refine ⟨?_, ?_, ?_⟩ <;> gridw

theorem C95_exact_vec3_mulsubs (E : Method) {i j : ℤ} {K L M : ℕ} (a : V3 Named) (s : Named) (c : V3 Named)
    (ha : (a.map Named.val).On i K) (hs : s.val.On j L) (hc : (c.map Named.val).On (i + j) M)
    (h : K * L + M ≤ 2 ^ 24) (lo : -149 ≤ i + j) :
    (glm_vec3_mulsubs (a.map (Named.wide E)) ((Named.wide E) s) (c.map (Named.wide E))).map Wide.val = glm_vec3_mulsubs (a.map Named.real) (Named.real s) (c.map Named.real) := by
  simp only [cglm, V3.map, V3.mk.injEq]
  simp only [V3.On, V3.map] at ha hc
  obtain ⟨_, _, _⟩ := ha
  obtain ⟨_, _, _⟩ := hc
  refine ⟨?_, ?_, ?_⟩ <;> gridw

theorem C95_exact_vec3_addadd (E : Method) {i : ℤ} {K L M : ℕ} (a : V3 Named) (b : V3 Named) (c : V3 Named)
    (ha : (a.map Named.val).On i K) (hb : (b.map Named.val).On i L) (hc : (c.map Named.val).On i M)
    (h : K + L + M ≤ 2 ^ 24) (lo : -149 ≤ i) :
    (glm_vec3_addadd (a.map (Named.wide E)) (b.map (Named.wide E)) (c.map (Named.wide E))).map Wide.val = glm_vec3_addadd (a.map Named.real) (b.map Named.real) (c.map Named.real) := by
  simp only [cglm, V3.map, V3.mk.injEq]
  simp only [V3.On, V3.map] at ha hb hc
  obtain ⟨_, _, _⟩ := ha
  obtain ⟨_, _, _⟩ := hb
  obtain ⟨_, _, _⟩ := hc
  refine ⟨?_, ?_, ?_⟩ <;> gridw

theorem C95_exact_vec3_subadd (E : Method) {i : ℤ} {K L M : ℕ} (a : V3 Named) (b : V3 Named) (c : V3 Named)
    (ha : (a.map Named.val).On i K) (hb : (b.map Named.val).On i L) (hc : (c.map Named.val).On i M)
    (h : K + L + M ≤ 2 ^ 24) (lo : -149 ≤ i) :
    (glm_vec3_subadd (a.map (Named.wide E)) (b.map (Named.wide E)) (c.map (Named.wide E))).map Wide.val = glm_vec3_subadd (a.map Named.real) (b.map Named.real) (c.map Named.real) := by
  simp only [cglm, V3.map, V3.mk.injEq]
  simp only [V3.On, V3.map] at ha hb hc
  obtain ⟨_, _, _⟩ := ha
  obtain ⟨_, _, _⟩ := hb
  obtain ⟨_, _, _⟩ := hc
  refine ⟨?_, ?_, ?_⟩ <;> gridw

theorem C95_exact_vec3_addsub (E : Method) {i : ℤ} {K L M : ℕ} (a : V3 Named) (b : V3 Named) (c : V3 Named)
    (ha : (a.map Named.val).On i K) (hb : (b.map Named.val).On i L) (hc : (c.map Named.val).On i M)
    (h : K + L + M ≤ 2 ^ 24) (lo : -149 ≤ i) :
    (glm_vec3_addsub (a.map (Named.wide E)) (b.map (Named.wide E)) (c.map (Named.wide E))).map Wide.val = glm_vec3_addsub (a.map Named.real) (b.map Named.real) (c.map Named.real) := by
  simp only [cglm, V3.map, V3.mk.injEq]
  simp only [V3.On, V3.map] at ha hb hc
  obtain ⟨_, _, _⟩ := ha
  obtain ⟨_, _, _⟩ := hb
  obtain ⟨_, _, _⟩ := hc
  refine ⟨?_, ?_, ?_⟩ <;> gridw

theorem C95_exact_vec3_subsub (E : Method) {i : ℤ} {K L M : ℕ} (a : V3 Named) (b : V3 Named) (c : V3 Named)
    (ha : (a.map Named.val).On i K) (hb : (b.map Named.val).On i L) (hc : (c.map Named.val).On i M)
    (h : K + L + M ≤ 2 ^ 24) (lo : -149 ≤ i) :
    (glm_vec3_subsub (a.map (Named.wide E)) (b.map (Named.wide E)) (c.map (Named.wide E))).map Wide.val = glm_vec3_subsub (a.map Named.real) (b.map Named.real) (c.map Named.real) := by
  simp only [cglm, V3.map, V3.mk.injEq]
  simp only [V3.On, V3.map] at ha hb hc
  obtain ⟨_, _, _⟩ := ha
  obtain ⟨_, _, _⟩ := hb
  obtain ⟨_, _, _⟩ := hc
  refine ⟨?_, ?_, ?_⟩ <;> gridw

theorem C95_exact_vec3_center (E : Method) {i : ℤ} {K L : ℕ} (a : V3 Named) (b : V3 Named)
    (ha : (a.map Named.val).On i K) (hb : (b.map Named.val).On i L)
    (h : K + L ≤ 2 ^ 24) (lo : -149 ≤ i - 1) :
    (glm_vec3_center (a.map (Named.wide E)) (b.map (Named.wide E))).map Wide.val = glm_vec3_center (a.map Named.real) (b.map Named.real) := by
  simp only [cglm, V3.map, V3.mk.injEq]
  simp only [V3.On, V3.map] at ha hb
  obtain ⟨_, _, _⟩ := ha
  obtain ⟨_, _, _⟩ := hb
  refine ⟨?_, ?_, ?_⟩ <;> gridw

theorem C95_exact_vec3_distance2 (E : Method) {i : ℤ} {K L : ℕ} (a : V3 Named) (b : V3 Named)
    (ha : (a.map Named.val).On i K) (hb : (b.map Named.val).On i L)
    (h : 3 * ((K + L) * (K + L)) ≤ 2 ^ 24) (lo : -149 ≤ i + i) :
    (glm_vec3_distance2 (a.map (Named.wide E)) (b.map (Named.wide E))).val = glm_vec3_distance2 (a.map Named.real) (b.map Named.real) := by
  simp only [cglm, V3.map]
  simp only [V3.On, V3.map] at ha hb
  obtain ⟨_, _, _⟩ := ha
  obtain ⟨_, _, _⟩ := hb
  have := Nat.le_mul_self (K + L)
  gridw

theorem C95_exact_vec3_hadd (E : Method) {i : ℤ} {K : ℕ} (v : V3 Named)
    (hv : (v.map Named.val).On i K)
    (h : 3 * K ≤ 2 ^ 24) (lo : -149 ≤ i) :
    (glm_vec3_hadd (v.map (Named.wide E))).val = glm_vec3_hadd (v.map Named.real) := by
  simp only [cglm, V3.map]
  simp only [V3.On, V3.map] at hv
  obtain ⟨_, _, _⟩ := hv
  gridw

theorem C95_exact_vec4_add (E : Method) {i : ℤ} {K L : ℕ} (a : V4 Named) (b : V4 Named)
    (ha : (a.map Named.val).On i K) (hb : (b.map Named.val).On i L)
    (h : K + L ≤ 2 ^ 24) (lo : -149 ≤ i) :
    (glm_vec4_add (a.map (Named.wide E)) (b.map (Named.wide E))).map Wide.val = glm_vec4_add (a.map Named.real) (b.map Named.real) := by
  simp only [cglm, V4.map, V4.mk.injEq]
  simp only [V4.On, V4.map] at ha hb
  obtain ⟨_, _, _, _⟩ := ha
  obtain ⟨_, _, _, _⟩ := hb
  refine ⟨?_, ?_, ?_, ?_⟩ <;> gridw

theorem C95_exact_vec4_adds (E : Method) {i : ℤ} {K L : ℕ} (v : V4 Named) (s : Named)
    (hv : (v.map Named.val).On i K) (hs : s.val.On i L)
    (h : K + L ≤ 2 ^ 24) (lo : -149 ≤ i) :
    (glm_vec4_adds (v.map (Named.wide E)) ((Named.wide E) s)).map Wide.val = glm_vec4_adds (v.map Named.real) (Named.real s) := by
  simp only [cglm, V4.map, V4.mk.injEq]
  simp only [V4.On, V4.map] at hv
  obtain ⟨_, _, _, _⟩ := hv
  refine ⟨?_, ?_, ?_, ?_⟩ <;> gridw

theorem C95_exact_vec4_sub (E : Method) {i : ℤ} {K L : ℕ} (a : V4 Named) (b : V4 Named)
    (ha : (a.map Named.val).On i K) (hb : (b.map Named.val).On i L)
    (h : K + L ≤ 2 ^ 24) (lo : -149 ≤ i) :
    (glm_vec4_sub (a.map (Named.wide E)) (b.map (Named.wide E))).map Wide.val = glm_vec4_sub (a.map Named.real) (b.map Named.real) := by
  simp only [cglm, V4.map, V4.mk.injEq]
  simp only [V4.On, V4.map] at ha hb
  obtain ⟨_, _, _, _⟩ := ha
  obtain ⟨_, _, _, _⟩ := hb
  refine ⟨?_, ?_, ?_, ?_⟩ <;> gridw

theorem C95_exact_vec4_subs (E : Method) {i : ℤ} {K L : ℕ} (v : V4 Named) (s : Named)
    (hv : (v.map Named.val).On i K) (hs : s.val.On i L)
    (h : K + L ≤ 2 ^ 24) (lo : -149 ≤ i) :
    (glm_vec4_subs (v.map (Named.wide E)) ((Named.wide E) s)).map Wide.val = glm_vec4_subs (v.map Named.real) (Named.real s) := by
  simp only [cglm, V4.map, V4.mk.injEq]
  simp only [V4.On, V4.map] at hv
  obtain ⟨_, _, _, _⟩ := hv
  refine ⟨?_, ?_, ?_, ?_⟩ <;> gridw

theorem C95_exact_vec4_mul (E : Method) {i j : ℤ} {K L : ℕ} (a : V4 Named) (b : V4 Named)
    (ha : (a.map Named.val).On i K) (hb : (b.map Named.val).On j L)
    (h : K * L ≤ 2 ^ 24) (lo : -149 ≤ i + j) :
    (glm_vec4_mul (a.map (Named.wide E)) (b.map (Named.wide E))).map Wide.val = glm_vec4_mul (a.map Named.real) (b.map Named.real) := by
  simp only [cglm, V4.map, V4.mk.injEq]
  simp only [V4.On, V4.map] at ha hb
  obtain ⟨_, _, _, _⟩ := ha
  obtain ⟨_, _, _, _⟩ := hb
  refine ⟨?_, ?_, ?_, ?_⟩ <;> gridw

theorem C95_exact_vec4_scale (E : Method) {i j : ℤ} {K L : ℕ} (v : V4 Named) (s : Named)
    (hv : (v.map Named.val).On i K) (hs : s.val.On j L)
    (h : K * L ≤ 2 ^ 24) (lo : -149 ≤ i + j) :
    (glm_vec4_scale (v.map (Named.wide E)) ((Named.wide E) s)).map Wide.val = glm_vec4_scale (v.map Named.real) (Named.real s) := by
  simp only [cglm, V4.map, V4.mk.injEq]
  simp only [V4.On, V4.map] at hv
  obtain ⟨_, _, _, _⟩ := hv
  refine ⟨?_, ?_, ?_, ?_⟩ <;> gridw

theorem C95_exact_vec4_dot (E : Method) {i j : ℤ} {K L : ℕ} (a : V4 Named) (b : V4 Named)
    (ha : (a.map Named.val).On i K) (hb : (b.map Named.val).On j L)
    (h : 4 * (K * L) ≤ 2 ^ 24) (lo : -149 ≤ i + j) :
    (glm_vec4_dot (a.map (Named.wide E)) (b.map (Named.wide E))).val = glm_vec4_dot (a.map Named.real) (b.map Named.real) := by
  simp only [cglm, V4.map]
  simp only [V4.On, V4.map] at ha hb
  obtain ⟨_, _, _, _⟩ := ha
  obtain ⟨_, _, _, _⟩ := hb
  gridw

theorem C95_exact_vec4_norm2 (E : Method) {i : ℤ} {K : ℕ} (v : V4 Named)
    (hv : (v.map Named.val).On i K)
    (h : 4 * (K * K) ≤ 2 ^ 24) (lo : -149 ≤ i + i) :
    (glm_vec4_norm2 (v.map (Named.wide E))).val = glm_vec4_norm2 (v.map Named.real) := by
  simp only [cglm, V4.map]
  simp only [V4.On, V4.map] at hv
  obtain ⟨_, _, _, _⟩ := hv
  gridw

theorem C95_exact_vec4_muladd (E : Method) {i j : ℤ} {K L M : ℕ} (a : V4 Named) (b : V4 Named) (c : V4 Named)
    (ha : (a.map Named.val).On i K) (hb : (b.map Named.val).On j L) (hc : (c.map Named.val).On (i + j) M)
    (h : K * L + M ≤ 2 ^ 24) (lo : -149 ≤ i + j) :
    (glm_vec4_muladd (a.map (Named.wide E)) (b.map (Named.wide E)) (c.map (Named.wide E))).map Wide.val = glm_vec4_muladd (a.map Named.real) (b.map Named.real) (c.map Named.real) := by
  simp only [cglm, V4.map, V4.mk.injEq]
  simp only [V4.On, V4.map] at ha hb hc
  obtain ⟨_, _, _, _⟩ := ha
  obtain ⟨_, _, _, _⟩ := hb
  obtain ⟨_, _, _, _⟩ := hc
  refine ⟨?_, ?_, ?_, ?_⟩ <;> gridw

theorem C95_exact_vec4_muladds (E : Method) {i j : ℤ} {K L M : ℕ} (a : V4 Named) (s : Named) (c : V4 Named)
    (ha : (a.map Named.val).On i K) (hs : s.val.On j L) (hc : (c.map Named.val).On (i + j) M)
    (h : K * L + M ≤ 2 ^ 24) (lo : -149 ≤ i + j) :
    (glm_vec4_muladds (a.map (Named.wide E)) ((Named.wide E) s) (c.map (Named.wide E))).map Wide.val = glm_vec4_muladds (a.map Named.real) (Named.real s) (c.map Named.real) := by
  simp only [cglm, V4.map, V4.mk.injEq]
  simp only [V4.On, V4.map] at ha hc
  obtain ⟨_, _, _, _⟩ := ha
  obtain ⟨_, _, _, _⟩ := hc
  refine ⟨?_, ?_, ?_, ?_⟩ <;> gridw

theorem C95_exact_vec4_mulsub (E : Method) {i j : ℤ} {K L M : ℕ} (a : V4 Named) (b : V4 Named) (c : V4 Named)
    (ha : (a.map Named.val).On i K) (hb : (b.map Named.val).On j L) (hc : (c.map Named.val).On (i + j) M)
    (h : K * L + M ≤ 2 ^ 24) (lo : -149 ≤ i + j) :
    (glm_vec4_mulsub (a.map (Named.wide E)) (b.map (Named.wide E)) (c.map (Named.wide E))).map Wide.val = glm_vec4_mulsub (a.map Named.real) (b.map Named.real) (c.map Named.real) := by
  simp only [cglm, V4.map, V4.mk.injEq]
  simp only [V4.On, V4.map] at ha hb hc
  obtain ⟨_, _, _, _⟩ := ha
  obtain ⟨_, _, _, _⟩ := hb
  obtain ⟨_, _, _, _⟩ := hc
  refine ⟨?_, ?_, ?_, ?_⟩ <;> gridw

theorem C95_exact_vec4_mulsubs (E : Method) {i j : ℤ} {K L M : ℕ} (a : V4 Named) (s : Named) (c : V4 Named)
    (ha : (a.map Named.val).On i K) (hs : s.val.On j L) (hc : (c.map Named.val).On (i + j) M)
    (h : K * L + M ≤ 2 ^ 24) (lo : -149 ≤ i + j) :
    (glm_vec4_mulsubs (a.map (Named.wide E)) ((Named.wide E) s) (c.map (Named.wide E))).map Wide.val = glm_vec4_mulsubs (a.map Named.real) (Named.real s) (c.map Named.real) := by
  simp only [cglm, V4.map, V4.mk.injEq]
  simp only [V4.On, V4.map] at ha hc
  obtain ⟨_, _, _, _⟩ := ha
  obtain ⟨_, _, _, _⟩ := hc
  refine ⟨?_, ?_, ?_, ?_⟩ <;> gridw

theorem C95_exact_vec4_addadd (E : Method) {i : ℤ} {K L M : ℕ} (a : V4 Named) (b : V4 Named) (c : V4 Named)
    (ha : (a.map Named.val).On i K) (hb : (b.map Named.val).On i L) (hc : (c.map Named.val).On i M)
    (h : K + L + M ≤ 2 ^ 24) (lo : -149 ≤ i) :
    (glm_vec4_addadd (a.map (Named.wide E)) (b.map (Named.wide E)) (c.map (Named.wide E))).map Wide.val = glm_vec4_addadd (a.map Named.real) (b.map Named.real) (c.map Named.real) := by
  simp only [cglm, V4.map, V4.mk.injEq]
  simp only [V4.On, V4.map] at ha hb hc
  obtain ⟨_, _, _, _⟩ := ha
  obtain ⟨_, _, _, _⟩ := hb
  obtain ⟨_, _, _, _⟩ := hc
  refine ⟨?_, ?_, ?_, ?_⟩ <;> gridw

theorem C95_exact_vec4_subadd (E : Method) {i : ℤ} {K L M : ℕ} (a : V4 Named) (b : V4 Named) (c : V4 Named)
    (ha : (a.map Named.val).On i K) (hb : (b.map Named.val).On i L) (hc : (c.map Named.val).On i M)
    (h : K + L + M ≤ 2 ^ 24) (lo : -149 ≤ i) :
    (glm_vec4_subadd (a.map (Named.wide E)) (b.map (Named.wide E)) (c.map (Named.wide E))).map Wide.val = glm_vec4_subadd (a.map Named.real) (b.map Named.real) (c.map Named.real) := by
  simp only [cglm, V4.map, V4.mk.injEq]
  simp only [V4.On, V4.map] at ha hb hc
  obtain ⟨_, _, _, _⟩ := ha
  obtain ⟨_, _, _, _⟩ := hb
  obtain ⟨_, _, _, _⟩ := hc
  refine ⟨?_, ?_, ?_, ?_⟩ <;> gridw

theorem C95_exact_vec4_addsub (E : Method) {i : ℤ} {K L M : ℕ} (a : V4 Named) (b : V4 Named) (c : V4 Named)
    (ha : (a.map Named.val).On i K) (hb : (b.map Named.val).On i L) (hc : (c.map Named.val).On i M)
    (h : K + L + M ≤ 2 ^ 24) (lo : -149 ≤ i) :
    (glm_vec4_addsub (a.map (Named.wide E)) (b.map (Named.wide E)) (c.map (Named.wide E))).map Wide.val = glm_vec4_addsub (a.map Named.real) (b.map Named.real) (c.map Named.real) := by
  simp only [cglm, V4.map, V4.mk.injEq]
  simp only [V4.On, V4.map] at ha hb hc
  obtain ⟨_, _, _, _⟩ := ha
  obtain ⟨_, _, _, _⟩ := hb
  obtain ⟨_, _, _, _⟩ := hc
  refine ⟨?_, ?_, ?_, ?_⟩ <;> gridw

theorem C95_exact_vec4_subsub (E : Method) {i : ℤ} {K L M : ℕ} (a : V4 Named) (b : V4 Named) (c : V4 Named)
    (ha : (a.map Named.val).On i K) (hb : (b.map Named.val).On i L) (hc : (c.map Named.val).On i M)
    (h : K + L + M ≤ 2 ^ 24) (lo : -149 ≤ i) :
    (glm_vec4_subsub (a.map (Named.wide E)) (b.map (Named.wide E)) (c.map (Named.wide E))).map Wide.val = glm_vec4_subsub (a.map Named.real) (b.map Named.real) (c.map Named.real) := by
  simp only [cglm, V4.map, V4.mk.injEq]
  simp only [V4.On, V4.map] at ha hb hc
  obtain ⟨_, _, _, _⟩ := ha
  obtain ⟨_, _, _, _⟩ := hb
  obtain ⟨_, _, _, _⟩ := hc
  refine ⟨?_, ?_, ?_, ?_⟩ <;> gridw

theorem C95_exact_vec4_distance2 (E : Method) {i : ℤ} {K L : ℕ} (a : V4 Named) (b : V4 Named)
    (ha : (a.map Named.val).On i K) (hb : (b.map Named.val).On i L)
    (h : 4 * ((K + L) * (K + L)) ≤ 2 ^ 24) (lo : -149 ≤ i + i) :
    (glm_vec4_distance2 (a.map (Named.wide E)) (b.map (Named.wide E))).val = glm_vec4_distance2 (a.map Named.real) (b.map Named.real) := by
  simp only [cglm, V4.map]
  simp only [V4.On, V4.map] at ha hb
  obtain ⟨_, _, _, _⟩ := ha
  obtain ⟨_, _, _, _⟩ := hb
  have := Nat.le_mul_self (K + L)
  gridw

theorem C95_exact_vec4_hadd (E : Method) {i : ℤ} {K : ℕ} (v : V4 Named)
    (hv : (v.map Named.val).On i K)
    (h : 4 * K ≤ 2 ^ 24) (lo : -149 ≤ i) :
    (glm_vec4_hadd (v.map (Named.wide E))).val = glm_vec4_hadd (v.map Named.real) := by
  simp only [cglm, V4.map]
  simp only [V4.On, V4.map] at hv
  obtain ⟨_, _, _, _⟩ := hv
  gridw

theorem C95_exact_vec2_cross (E : Method) {i j : ℤ} {K L : ℕ} (a : V2 Named) (b : V2 Named)
    (ha : (a.map Named.val).On i K) (hb : (b.map Named.val).On j L)
    (h : 2 * (K * L) ≤ 2 ^ 24) (lo : -149 ≤ i + j) :
    (glm_vec2_cross (a.map (Named.wide E)) (b.map (Named.wide E))).val = glm_vec2_cross (a.map Named.real) (b.map Named.real) := by
  simp only [cglm, V2.map]
  simp only [V2.On, V2.map] at ha hb
  obtain ⟨_, _⟩ := ha
  obtain ⟨_, _⟩ := hb
  gridw

theorem C95_exact_vec3_cross (E : Method) {i j : ℤ} {K L : ℕ} (a : V3 Named) (b : V3 Named)
    (ha : (a.map Named.val).On i K) (hb : (b.map Named.val).On j L)
    (h : 2 * (K * L) ≤ 2 ^ 24) (lo : -149 ≤ i + j) :
    (glm_vec3_cross (a.map (Named.wide E)) (b.map (Named.wide E))).map Wide.val = glm_vec3_cross (a.map Named.real) (b.map Named.real) := by
  simp only [cglm, V3.map, V3.mk.injEq]
  simp only [V3.On, V3.map] at ha hb
  obtain ⟨_, _, _⟩ := ha
  obtain ⟨_, _, _⟩ := hb
  refine ⟨?_, ?_, ?_⟩ <;> gridw

theorem C95_exact_vec2_complex_mul (E : Method) {i j : ℤ} {K L : ℕ} (a : V2 Named) (b : V2 Named)
    (ha : (a.map Named.val).On i K) (hb : (b.map Named.val).On j L)
    (h : 2 * (K * L) ≤ 2 ^ 24) (lo : -149 ≤ i + j) :
    (glm_vec2_complex_mul (a.map (Named.wide E)) (b.map (Named.wide E))).map Wide.val = glm_vec2_complex_mul (a.map Named.real) (b.map Named.real) := by
  simp only [cglm, V2.map, V2.mk.injEq]
  simp only [V2.On, V2.map] at ha hb
  obtain ⟨_, _⟩ := ha
  obtain ⟨_, _⟩ := hb
  refine ⟨?_, ?_⟩ <;> gridw

theorem C95_exact_quat_mul (E : Method) {i j : ℤ} {K L : ℕ} (p : V4 Named) (q : V4 Named)
    (hp : (p.map Named.val).On i K) (hq : (q.map Named.val).On j L)
    (h : 4 * (K * L) ≤ 2 ^ 24) (lo : -149 ≤ i + j) :
    (glm_quat_mul (p.map (Named.wide E)) (q.map (Named.wide E))).map Wide.val = glm_quat_mul (p.map Named.real) (q.map Named.real) := by
  simp only [cglm, V4.map, V4.mk.injEq]
  simp only [V4.On, V4.map] at hp hq
  obtain ⟨_, _, _, _⟩ := hp
  obtain ⟨_, _, _, _⟩ := hq
  refine ⟨?_, ?_, ?_, ?_⟩ <;> gridw

theorem C95_exact_quat_dot (E : Method) {i j : ℤ} {K L : ℕ} (p : V4 Named) (q : V4 Named)
    (hp : (p.map Named.val).On i K) (hq : (q.map Named.val).On j L)
    (h : 4 * (K * L) ≤ 2 ^ 24) (lo : -149 ≤ i + j) :
    (glm_quat_dot (p.map (Named.wide E)) (q.map (Named.wide E))).val = glm_quat_dot (p.map Named.real) (q.map Named.real) := by
  simp only [cglm, V4.map]
  simp only [V4.On, V4.map] at hp hq
  obtain ⟨_, _, _, _⟩ := hp
  obtain ⟨_, _, _, _⟩ := hq
  gridw

theorem C95_exact_aabb_center (E : Method) {i : ℤ} {K : ℕ} (box : M2x3 Named)
    (hbox : (box.map Named.val).On i K)
    (h : 2 * K ≤ 2 ^ 24) (lo : -149 ≤ i - 1) :
    (glm_aabb_center (box.map (Named.wide E))).map Wide.val = glm_aabb_center (box.map Named.real) := by
  simp only [cglm, M2x3.map, V3.map, V3.mk.injEq]
  simp only [M2x3.On, V3.On, M2x3.map, V3.map] at hbox
  obtain ⟨⟨_, _, _⟩, ⟨_, _, _⟩⟩ := hbox
  refine ⟨?_, ?_, ?_⟩ <;> gridw

theorem C95_exact_aabb2d_center (E : Method) {i : ℤ} {K : ℕ} (box : M2 Named)
    (hbox : (box.map Named.val).On i K)
    (h : 2 * K ≤ 2 ^ 24) (lo : -149 ≤ i - 1) :
    (glm_aabb2d_center (box.map (Named.wide E))).map Wide.val = glm_aabb2d_center (box.map Named.real) := by
  simp only [cglm, M2.map, V2.map, V2.mk.injEq]
  simp only [M2.On, V2.On, M2.map, V2.map] at hbox
  obtain ⟨⟨_, _⟩, ⟨_, _⟩⟩ := hbox
  refine ⟨?_, ?_⟩ <;> gridw

theorem C95_exact_mat2_mulv (E : Method) {i j : ℤ} {K L : ℕ} (m : M2 Named) (v : V2 Named)
    (hm : (m.map Named.val).On i K) (hv : (v.map Named.val).On j L)
    (h : 2 * (K * L) ≤ 2 ^ 24) (lo : -149 ≤ i + j) :
    (glm_mat2_mulv (m.map (Named.wide E)) (v.map (Named.wide E))).map Wide.val = glm_mat2_mulv (m.map Named.real) (v.map Named.real) := by
  simp only [cglm, M2.map, V2.map, V2.mk.injEq]
  simp only [M2.On, V2.On, M2.map, V2.map] at hm hv
  obtain ⟨⟨_, _⟩, ⟨_, _⟩⟩ := hm
  obtain ⟨_, _⟩ := hv
  refine ⟨?_, ?_⟩ <;> gridw

theorem C95_exact_mat2_mul (E : Method) {i j : ℤ} {K L : ℕ} (a : M2 Named) (b : M2 Named)
    (ha : (a.map Named.val).On i K) (hb : (b.map Named.val).On j L)
    (h : 2 * (K * L) ≤ 2 ^ 24) (lo : -149 ≤ i + j) :
    (glm_mat2_mul (a.map (Named.wide E)) (b.map (Named.wide E))).map Wide.val = glm_mat2_mul (a.map Named.real) (b.map Named.real) := by
  simp only [cglm, M2.map, V2.map, M2.mk.injEq, V2.mk.injEq]
  simp only [M2.On, V2.On, M2.map, V2.map] at ha hb
  obtain ⟨⟨_, _⟩, ⟨_, _⟩⟩ := ha
  obtain ⟨⟨_, _⟩, ⟨_, _⟩⟩ := hb
  refine ⟨⟨?_, ?_⟩, ⟨?_, ?_⟩⟩ <;> gridw

theorem C95_exact_mat2_scale (E : Method) {i j : ℤ} {K L : ℕ} (m : M2 Named) (s : Named)
    (hm : (m.map Named.val).On i K) (hs : s.val.On j L)
    (h : K * L ≤ 2 ^ 24) (lo : -149 ≤ i + j) :
    (glm_mat2_scale (m.map (Named.wide E)) ((Named.wide E) s)).map Wide.val = glm_mat2_scale (m.map Named.real) (Named.real s) := by
  simp only [cglm, M2.map, V2.map, M2.mk.injEq, V2.mk.injEq]
  simp only [M2.On, V2.On, M2.map, V2.map] at hm
  obtain ⟨⟨_, _⟩, ⟨_, _⟩⟩ := hm
  refine ⟨⟨?_, ?_⟩, ⟨?_, ?_⟩⟩ <;> gridw

theorem C95_exact_mat2_trace (E : Method) {i : ℤ} {K : ℕ} (m : M2 Named)
    (hm : (m.map Named.val).On i K)
    (h : 2 * K ≤ 2 ^ 24) (lo : -149 ≤ i) :
    (glm_mat2_trace (m.map (Named.wide E))).val = glm_mat2_trace (m.map Named.real) := by
  simp only [cglm, M2.map, V2.map]
  simp only [M2.On, V2.On, M2.map, V2.map] at hm
  obtain ⟨⟨_, _⟩, ⟨_, _⟩⟩ := hm
  gridw

theorem C95_exact_mat2_rmc (E : Method) {i j k : ℤ} (r : V2 Named) (m : M2 Named) (c : V2 Named)
    (hr : (r.map Named.val).On i 161) (hm : (m.map Named.val).On j 161) (hc : (c.map Named.val).On k 161)
    (lo : -149 ≤ i + j + k) (lo' : -149 ≤ j + k) :
    (glm_mat2_rmc (r.map (Named.wide E)) (m.map (Named.wide E)) (c.map (Named.wide E))).val = glm_mat2_rmc (r.map Named.real) (m.map Named.real) (c.map Named.real) := by
  simp only [cglm, M2.map, V2.map]
  simp only [M2.On, V2.On, M2.map, V2.map] at hr hm hc
  obtain ⟨_, _⟩ := hr
  obtain ⟨⟨_, _⟩, ⟨_, _⟩⟩ := hm
  obtain ⟨_, _⟩ := hc
  gridw

theorem C95_exact_mat3_mulv (E : Method) {i j : ℤ} {K L : ℕ} (m : M3 Named) (v : V3 Named)
    (hm : (m.map Named.val).On i K) (hv : (v.map Named.val).On j L)
    (h : 3 * (K * L) ≤ 2 ^ 24) (lo : -149 ≤ i + j) :
    (glm_mat3_mulv (m.map (Named.wide E)) (v.map (Named.wide E))).map Wide.val = glm_mat3_mulv (m.map Named.real) (v.map Named.real) := by
  simp only [cglm, M3.map, V3.map, V3.mk.injEq]
  simp only [M3.On, V3.On, M3.map, V3.map] at hm hv
  obtain ⟨⟨_, _, _⟩, ⟨_, _, _⟩, ⟨_, _, _⟩⟩ := hm
  obtain ⟨_, _, _⟩ := hv
  refine ⟨?_, ?_, ?_⟩ <;> gridw

theorem C95_exact_mat3_mul (E : Method) {i j : ℤ} {K L : ℕ} (a : M3 Named) (b : M3 Named)
    (ha : (a.map Named.val).On i K) (hb : (b.map Named.val).On j L)
    (h : 3 * (K * L) ≤ 2 ^ 24) (lo : -149 ≤ i + j) :
    (glm_mat3_mul (a.map (Named.wide E)) (b.map (Named.wide E))).map Wide.val = glm_mat3_mul (a.map Named.real) (b.map Named.real) := by
  simp only [cglm, M3.map, V3.map, M3.mk.injEq, V3.mk.injEq]
  simp only [M3.On, V3.On, M3.map, V3.map] at ha hb
  obtain ⟨⟨_, _, _⟩, ⟨_, _, _⟩, ⟨_, _, _⟩⟩ := ha
  obtain ⟨⟨_, _, _⟩, ⟨_, _, _⟩, ⟨_, _, _⟩⟩ := hb
  refine ⟨⟨?_, ?_, ?_⟩, ⟨?_, ?_, ?_⟩, ⟨?_, ?_, ?_⟩⟩ <;> gridw

theorem C95_exact_mat3_scale (E : Method) {i j : ℤ} {K L : ℕ} (m : M3 Named) (s : Named)
    (hm : (m.map Named.val).On i K) (hs : s.val.On j L)
    (h : K * L ≤ 2 ^ 24) (lo : -149 ≤ i + j) :
    (glm_mat3_scale (m.map (Named.wide E)) ((Named.wide E) s)).map Wide.val = glm_mat3_scale (m.map Named.real) (Named.real s) := by
  simp only [cglm, M3.map, V3.map, M3.mk.injEq, V3.mk.injEq]
  simp only [M3.On, V3.On, M3.map, V3.map] at hm
  obtain ⟨⟨_, _, _⟩, ⟨_, _, _⟩, ⟨_, _, _⟩⟩ := hm
  refine ⟨⟨?_, ?_, ?_⟩, ⟨?_, ?_, ?_⟩, ⟨?_, ?_, ?_⟩⟩ <;> gridw

theorem C95_exact_mat3_trace (E : Method) {i : ℤ} {K : ℕ} (m : M3 Named)
    (hm : (m.map Named.val).On i K)
    (h : 3 * K ≤ 2 ^ 24) (lo : -149 ≤ i) :
    (glm_mat3_trace (m.map (Named.wide E))).val = glm_mat3_trace (m.map Named.real) := by
  simp only [cglm, M3.map, V3.map]
  simp only [M3.On, V3.On, M3.map, V3.map] at hm
  obtain ⟨⟨_, _, _⟩, ⟨_, _, _⟩, ⟨_, _, _⟩⟩ := hm
  gridw

theorem C95_exact_mat3_rmc (E : Method) {i j k : ℤ} (r : V3 Named) (m : M3 Named) (c : V3 Named)
    (hr : (r.map Named.val).On i 123) (hm : (m.map Named.val).On j 123) (hc : (c.map Named.val).On k 123)
    (lo : -149 ≤ i + j + k) (lo' : -149 ≤ j + k) :
    (glm_mat3_rmc (r.map (Named.wide E)) (m.map (Named.wide E)) (c.map (Named.wide E))).val = glm_mat3_rmc (r.map Named.real) (m.map Named.real) (c.map Named.real) := by
  simp only [cglm, M3.map, V3.map]
  simp only [M3.On, V3.On, M3.map, V3.map] at hr hm hc
  obtain ⟨_, _, _⟩ := hr
  obtain ⟨⟨_, _, _⟩, ⟨_, _, _⟩, ⟨_, _, _⟩⟩ := hm
  obtain ⟨_, _, _⟩ := hc
  gridw

theorem C95_exact_mat4_mulv (E : Method) {i j : ℤ} {K L : ℕ} (m : M4 Named) (v : V4 Named)
    (hm : (m.map Named.val).On i K) (hv : (v.map Named.val).On j L)
    (h : 4 * (K * L) ≤ 2 ^ 24) (lo : -149 ≤ i + j) :
    (glm_mat4_mulv (m.map (Named.wide E)) (v.map (Named.wide E))).map Wide.val = glm_mat4_mulv (m.map Named.real) (v.map Named.real) := by
  simp only [cglm, M4.map, V4.map, V4.mk.injEq]
  simp only [M4.On, V4.On, M4.map, V4.map] at hm hv
  obtain ⟨⟨_, _, _, _⟩, ⟨_, _, _, _⟩, ⟨_, _, _, _⟩, ⟨_, _, _, _⟩⟩ := hm
  obtain ⟨_, _, _, _⟩ := hv
  refine ⟨?_, ?_, ?_, ?_⟩ <;> gridw

theorem C95_exact_mat4_mul (E : Method) {i j : ℤ} {K L : ℕ} (a : M4 Named) (b : M4 Named)
    (ha : (a.map Named.val).On i K) (hb : (b.map Named.val).On j L)
    (h : 4 * (K * L) ≤ 2 ^ 24) (lo : -149 ≤ i + j) :
    (glm_mat4_mul (a.map (Named.wide E)) (b.map (Named.wide E))).map Wide.val = glm_mat4_mul (a.map Named.real) (b.map Named.real) := by
  simp only [cglm, M4.map, V4.map, M4.mk.injEq, V4.mk.injEq]
  simp only [M4.On, V4.On, M4.map, V4.map] at ha hb
  obtain ⟨⟨_, _, _, _⟩, ⟨_, _, _, _⟩, ⟨_, _, _, _⟩, ⟨_, _, _, _⟩⟩ := ha
  obtain ⟨⟨_, _, _, _⟩, ⟨_, _, _, _⟩, ⟨_, _, _, _⟩, ⟨_, _, _, _⟩⟩ := hb
  refine ⟨⟨?_, ?_, ?_, ?_⟩, ⟨?_, ?_, ?_, ?_⟩, ⟨?_, ?_, ?_, ?_⟩, ⟨?_, ?_, ?_, ?_⟩⟩ <;> gridw

theorem C95_exact_mat4_scale (E : Method) {i j : ℤ} {K L : ℕ} (m : M4 Named) (s : Named)
    (hm : (m.map Named.val).On i K) (hs : s.val.On j L)
    (h : K * L ≤ 2 ^ 24) (lo : -149 ≤ i + j) :
    (glm_mat4_scale (m.map (Named.wide E)) ((Named.wide E) s)).map Wide.val = glm_mat4_scale (m.map Named.real) (Named.real s) := by
  simp only [cglm, M4.map, V4.map, M4.mk.injEq, V4.mk.injEq]
  simp only [M4.On, V4.On, M4.map, V4.map] at hm
  obtain ⟨⟨_, _, _, _⟩, ⟨_, _, _, _⟩, ⟨_, _, _, _⟩, ⟨_, _, _, _⟩⟩ := hm
  refine ⟨⟨?_, ?_, ?_, ?_⟩, ⟨?_, ?_, ?_, ?_⟩, ⟨?_, ?_, ?_, ?_⟩, ⟨?_, ?_, ?_, ?_⟩⟩ <;> gridw

theorem C95_exact_mat4_trace (E : Method) {i : ℤ} {K : ℕ} (m : M4 Named)
    (hm : (m.map Named.val).On i K)
    (h : 4 * K ≤ 2 ^ 24) (lo : -149 ≤ i) :
    (glm_mat4_trace (m.map (Named.wide E))).val = glm_mat4_trace (m.map Named.real) := by
  simp only [cglm, M4.map, V4.map]
  simp only [M4.On, V4.On, M4.map, V4.map] at hm
  obtain ⟨⟨_, _, _, _⟩, ⟨_, _, _, _⟩, ⟨_, _, _, _⟩, ⟨_, _, _, _⟩⟩ := hm
  gridw

theorem C95_exact_mat4_rmc (E : Method) {i j k : ℤ} (r : V4 Named) (m : M4 Named) (c : V4 Named)
    (hr : (r.map Named.val).On i 101) (hm : (m.map Named.val).On j 101) (hc : (c.map Named.val).On k 101)
    (lo : -149 ≤ i + j + k) (lo' : -149 ≤ j + k) :
    (glm_mat4_rmc (r.map (Named.wide E)) (m.map (Named.wide E)) (c.map (Named.wide E))).val = glm_mat4_rmc (r.map Named.real) (m.map Named.real) (c.map Named.real) := by
  simp only [cglm, M4.map, V4.map]
  simp only [M4.On, V4.On, M4.map, V4.map] at hr hm hc
  obtain ⟨_, _, _, _⟩ := hr
  obtain ⟨⟨_, _, _, _⟩, ⟨_, _, _, _⟩, ⟨_, _, _, _⟩, ⟨_, _, _, _⟩⟩ := hm
  obtain ⟨_, _, _, _⟩ := hc
  gridw

theorem C95_exact_mat2_det (E : Method) {i : ℤ} {K : ℕ} (m : M2 Named)
    (hm : (m.map Named.val).On i K)
    (h : 2 * (K * K) ≤ 2 ^ 24) (lo : -149 ≤ i + i) :
    (glm_mat2_det (m.map (Named.wide E))).val = glm_mat2_det (m.map Named.real) := by
  simp only [cglm, M2.map, V2.map]
  simp only [M2.On, V2.On, M2.map, V2.map] at hm
  obtain ⟨⟨_, _⟩, ⟨_, _⟩⟩ := hm
  gridw

theorem C95_exact_mat3_det (E : Method) {i : ℤ} (m : M3 Named)
    (hm : (m.map Named.val).On i 140)
    (lo : -149 ≤ i + i + i) (lo' : -149 ≤ i + i) :
    (glm_mat3_det (m.map (Named.wide E))).val = glm_mat3_det (m.map Named.real) := by
  simp only [cglm, M3.map, V3.map]
  simp only [M3.On, V3.On, M3.map, V3.map] at hm
  obtain ⟨⟨_, _, _⟩, ⟨_, _, _⟩, ⟨_, _, _⟩⟩ := hm
  gridw

theorem C95_exact_mat4_det (E : Method) {i : ℤ} (m : M4 Named)
    (hm : (m.map Named.val).On i 28)
    (lo : -149 ≤ i + i + i + i) (lo' : -149 ≤ i + i) :
    (glm_mat4_det (m.map (Named.wide E))).val = glm_mat4_det (m.map Named.real) := by
  simp only [cglm, M4.map, V4.map]
  simp only [M4.On, V4.On, M4.map, V4.map] at hm
  obtain ⟨⟨_, _, _, _⟩, ⟨_, _, _, _⟩, ⟨_, _, _, _⟩, ⟨_, _, _, _⟩⟩ := hm
  gridw

theorem C95_exact_mat2x3_mulv (E : Method) {i j : ℤ} {K L : ℕ} (m : M2x3 Named) (v : V2 Named)
    (hm : (m.map Named.val).On i K) (hv : (v.map Named.val).On j L)
    (h : 2 * (K * L) ≤ 2 ^ 24) (lo : -149 ≤ i + j) :
    (glm_mat2x3_mulv (m.map (Named.wide E)) (v.map (Named.wide E))).map Wide.val = glm_mat2x3_mulv (m.map Named.real) (v.map Named.real) := by
  simp only [cglm, M2x3.map, V2.map, V3.map, V3.mk.injEq]
  simp only [M2x3.On, V2.On, V3.On, M2x3.map, V2.map, V3.map] at hm hv
  obtain ⟨⟨_, _, _⟩, ⟨_, _, _⟩⟩ := hm
  obtain ⟨_, _⟩ := hv
  refine ⟨?_, ?_, ?_⟩ <;> gridw

theorem C95_exact_mat2x3_mul (E : Method) {i j : ℤ} {K L : ℕ} (a : M2x3 Named) (b : M3x2 Named)
    (ha : (a.map Named.val).On i K) (hb : (b.map Named.val).On j L)
    (h : 2 * (K * L) ≤ 2 ^ 24) (lo : -149 ≤ i + j) :
    (glm_mat2x3_mul (a.map (Named.wide E)) (b.map (Named.wide E))).map Wide.val = glm_mat2x3_mul (a.map Named.real) (b.map Named.real) := by
  simp only [cglm, M2x3.map, M3.map, M3x2.map, V2.map, V3.map, M3.mk.injEq, V3.mk.injEq]
  simp only [M2x3.On, M3x2.On, V2.On, V3.On, M2x3.map, M3x2.map, V2.map, V3.map] at ha hb
  obtain ⟨⟨_, _, _⟩, ⟨_, _, _⟩⟩ := ha
  obtain ⟨⟨_, _⟩, ⟨_, _⟩, ⟨_, _⟩⟩ := hb
  refine ⟨⟨?_, ?_, ?_⟩, ⟨?_, ?_, ?_⟩, ⟨?_, ?_, ?_⟩⟩ <;> gridw

theorem C95_exact_mat2x4_mulv (E : Method) {i j : ℤ} {K L : ℕ} (m : M2x4 Named) (v : V2 Named)
    (hm : (m.map Named.val).On i K) (hv : (v.map Named.val).On j L)
    (h : 2 * (K * L) ≤ 2 ^ 24) (lo : -149 ≤ i + j) :
    (glm_mat2x4_mulv (m.map (Named.wide E)) (v.map (Named.wide E))).map Wide.val = glm_mat2x4_mulv (m.map Named.real) (v.map Named.real) := by
  simp only [cglm, M2x4.map, V2.map, V4.map, V4.mk.injEq]
  simp only [M2x4.On, V2.On, V4.On, M2x4.map, V2.map, V4.map] at hm hv
  obtain ⟨⟨_, _, _, _⟩, ⟨_, _, _, _⟩⟩ := hm
  obtain ⟨_, _⟩ := hv
  refine ⟨?_, ?_, ?_, ?_⟩ <;> gridw

theorem C95_exact_mat2x4_mul (E : Method) {i j : ℤ} {K L : ℕ} (a : M2x4 Named) (b : M4x2 Named)
    (ha : (a.map Named.val).On i K) (hb : (b.map Named.val).On j L)
    (h : 2 * (K * L) ≤ 2 ^ 24) (lo : -149 ≤ i + j) :
    (glm_mat2x4_mul (a.map (Named.wide E)) (b.map (Named.wide E))).map Wide.val = glm_mat2x4_mul (a.map Named.real) (b.map Named.real) := by
  simp only [cglm, M2x4.map, M4.map, M4x2.map, V2.map, V4.map, M4.mk.injEq, V4.mk.injEq]
  simp only [M2x4.On, M4x2.On, V2.On, V4.On, M2x4.map, M4x2.map, V2.map, V4.map] at ha hb
  obtain ⟨⟨_, _, _, _⟩, ⟨_, _, _, _⟩⟩ := ha
  obtain ⟨⟨_, _⟩, ⟨_, _⟩, ⟨_, _⟩, ⟨_, _⟩⟩ := hb
  refine ⟨⟨?_, ?_, ?_, ?_⟩, ⟨?_, ?_, ?_, ?_⟩, ⟨?_, ?_, ?_, ?_⟩, ⟨?_, ?_, ?_, ?_⟩⟩ <;> gridw

theorem C95_exact_mat3x2_mulv (E : Method) {i j : ℤ} {K L : ℕ} (m : M3x2 Named) (v : V3 Named)
    (hm : (m.map Named.val).On i K) (hv : (v.map Named.val).On j L)
    (h : 3 * (K * L) ≤ 2 ^ 24) (lo : -149 ≤ i + j) :
    (glm_mat3x2_mulv (m.map (Named.wide E)) (v.map (Named.wide E))).map Wide.val = glm_mat3x2_mulv (m.map Named.real) (v.map Named.real) := by
  simp only [cglm, M3x2.map, V2.map, V3.map, V2.mk.injEq]
  simp only [M3x2.On, V2.On, V3.On, M3x2.map, V2.map, V3.map] at hm hv
  obtain ⟨⟨_, _⟩, ⟨_, _⟩, ⟨_, _⟩⟩ := hm
  obtain ⟨_, _, _⟩ := hv
  refine ⟨?_, ?_⟩ <;> gridw

theorem C95_exact_mat3x2_mul (E : Method) {i j : ℤ} {K L : ℕ} (a : M3x2 Named) (b : M2x3 Named)
    (ha : (a.map Named.val).On i K) (hb : (b.map Named.val).On j L)
    (h : 3 * (K * L) ≤ 2 ^ 24) (lo : -149 ≤ i + j) :
    (glm_mat3x2_mul (a.map (Named.wide E)) (b.map (Named.wide E))).map Wide.val = glm_mat3x2_mul (a.map Named.real) (b.map Named.real) := by
  simp only [cglm, M2.map, M2x3.map, M3x2.map, V2.map, V3.map, M2.mk.injEq, V2.mk.injEq]
  simp only [M2x3.On, M3x2.On, V2.On, V3.On, M2x3.map, M3x2.map, V2.map, V3.map] at ha hb
  obtain ⟨⟨_, _⟩, ⟨_, _⟩, ⟨_, _⟩⟩ := ha
  obtain ⟨⟨_, _, _⟩, ⟨_, _, _⟩⟩ := hb
  refine ⟨⟨?_, ?_⟩, ⟨?_, ?_⟩⟩ <;> gridw

theorem C95_exact_mat3x4_mulv (E : Method) {i j : ℤ} {K L : ℕ} (m : M3x4 Named) (v : V3 Named)
    (hm : (m.map Named.val).On i K) (hv : (v.map Named.val).On j L)
    (h : 3 * (K * L) ≤ 2 ^ 24) (lo : -149 ≤ i + j) :
    (glm_mat3x4_mulv (m.map (Named.wide E)) (v.map (Named.wide E))).map Wide.val = glm_mat3x4_mulv (m.map Named.real) (v.map Named.real) := by
  simp only [cglm, M3x4.map, V3.map, V4.map, V4.mk.injEq]
  simp only [M3x4.On, V3.On, V4.On, M3x4.map, V3.map, V4.map] at hm hv
  obtain ⟨⟨_, _, _, _⟩, ⟨_, _, _, _⟩, ⟨_, _, _, _⟩⟩ := hm
  obtain ⟨_, _, _⟩ := hv
  refine ⟨?_, ?_, ?_, ?_⟩ <;> gridw

theorem C95_exact_mat3x4_mul (E : Method) {i j : ℤ} {K L : ℕ} (a : M3x4 Named) (b : M4x3 Named)
    (ha : (a.map Named.val).On i K) (hb : (b.map Named.val).On j L)
    (h : 3 * (K * L) ≤ 2 ^ 24) (lo : -149 ≤ i + j) :
    (glm_mat3x4_mul (a.map (Named.wide E)) (b.map (Named.wide E))).map Wide.val = glm_mat3x4_mul (a.map Named.real) (b.map Named.real) := by
  simp only [cglm, M3x4.map, M4.map, M4x3.map, V3.map, V4.map, M4.mk.injEq, V4.mk.injEq]
  simp only [M3x4.On, M4x3.On, V3.On, V4.On, M3x4.map, M4x3.map, V3.map, V4.map] at ha hb
  obtain ⟨⟨_, _, _, _⟩, ⟨_, _, _, _⟩, ⟨_, _, _, _⟩⟩ := ha
  obtain ⟨⟨_, _, _⟩, ⟨_, _, _⟩, ⟨_, _, _⟩, ⟨_, _, _⟩⟩ := hb
  refine ⟨⟨?_, ?_, ?_, ?_⟩, ⟨?_, ?_, ?_, ?_⟩, ⟨?_, ?_, ?_, ?_⟩, ⟨?_, ?_, ?_, ?_⟩⟩ <;> gridw

theorem C95_exact_mat4x2_mulv (E : Method) {i j : ℤ} {K L : ℕ} (m : M4x2 Named) (v : V4 Named)
    (hm : (m.map Named.val).On i K) (hv : (v.map Named.val).On j L)
    (h : 4 * (K * L) ≤ 2 ^ 24) (lo : -149 ≤ i + j) :
    (glm_mat4x2_mulv (m.map (Named.wide E)) (v.map (Named.wide E))).map Wide.val = glm_mat4x2_mulv (m.map Named.real) (v.map Named.real) := by
  simp only [cglm, M4x2.map, V2.map, V4.map, V2.mk.injEq]
  simp only [M4x2.On, V2.On, V4.On, M4x2.map, V2.map, V4.map] at hm hv
  obtain ⟨⟨_, _⟩, ⟨_, _⟩, ⟨_, _⟩, ⟨_, _⟩⟩ := hm
  obtain ⟨_, _, _, _⟩ := hv
  refine ⟨?_, ?_⟩ <;> gridw

theorem C95_exact_mat4x2_mul (E : Method) {i j : ℤ} {K L : ℕ} (a : M4x2 Named) (b : M2x4 Named)
    (ha : (a.map Named.val).On i K) (hb : (b.map Named.val).On j L)
    (h : 4 * (K * L) ≤ 2 ^ 24) (lo : -149 ≤ i + j) :
    (glm_mat4x2_mul (a.map (Named.wide E)) (b.map (Named.wide E))).map Wide.val = glm_mat4x2_mul (a.map Named.real) (b.map Named.real) := by
  simp only [cglm, M2.map, M2x4.map, M4x2.map, V2.map, V4.map, M2.mk.injEq, V2.mk.injEq]
  simp only [M2x4.On, M4x2.On, V2.On, V4.On, M2x4.map, M4x2.map, V2.map, V4.map] at ha hb
  obtain ⟨⟨_, _⟩, ⟨_, _⟩, ⟨_, _⟩, ⟨_, _⟩⟩ := ha
  obtain ⟨⟨_, _, _, _⟩, ⟨_, _, _, _⟩⟩ := hb
  refine ⟨⟨?_, ?_⟩, ⟨?_, ?_⟩⟩ <;> gridw

theorem C95_exact_mat4x3_mulv (E : Method) {i j : ℤ} {K L : ℕ} (m : M4x3 Named) (v : V4 Named)
    (hm : (m.map Named.val).On i K) (hv : (v.map Named.val).On j L)
    (h : 4 * (K * L) ≤ 2 ^ 24) (lo : -149 ≤ i + j) :
    (glm_mat4x3_mulv (m.map (Named.wide E)) (v.map (Named.wide E))).map Wide.val = glm_mat4x3_mulv (m.map Named.real) (v.map Named.real) := by
  simp only [cglm, M4x3.map, V3.map, V4.map, V3.mk.injEq]
  simp only [M4x3.On, V3.On, V4.On, M4x3.map, V3.map, V4.map] at hm hv
  obtain ⟨⟨_, _, _⟩, ⟨_, _, _⟩, ⟨_, _, _⟩, ⟨_, _, _⟩⟩ := hm
  obtain ⟨_, _, _, _⟩ := hv
  refine ⟨?_, ?_, ?_⟩ <;> gridw

theorem C95_exact_mat4x3_mul (E : Method) {i j : ℤ} {K L : ℕ} (a : M4x3 Named) (b : M3x4 Named)
    (ha : (a.map Named.val).On i K) (hb : (b.map Named.val).On j L)
    (h : 4 * (K * L) ≤ 2 ^ 24) (lo : -149 ≤ i + j) :
    (glm_mat4x3_mul (a.map (Named.wide E)) (b.map (Named.wide E))).map Wide.val = glm_mat4x3_mul (a.map Named.real) (b.map Named.real) := by
  simp only [cglm, M3.map, M3x4.map, M4x3.map, V3.map, V4.map, M3.mk.injEq, V3.mk.injEq]
  simp only [M3x4.On, M4x3.On, V3.On, V4.On, M3x4.map, M4x3.map, V3.map, V4.map] at ha hb
  obtain ⟨⟨_, _, _⟩, ⟨_, _, _⟩, ⟨_, _, _⟩, ⟨_, _, _⟩⟩ := ha
  obtain ⟨⟨_, _, _, _⟩, ⟨_, _, _, _⟩, ⟨_, _, _, _⟩⟩ := hb
  refine ⟨⟨?_, ?_, ?_⟩, ⟨?_, ?_, ?_⟩, ⟨?_, ?_, ?_⟩⟩ <;> gridw

theorem C95_exact_mat4_mulv3 (E : Method) {i j : ℤ} {K L : ℕ} (m : M4 Named) (v : V3 Named) (last : Named)
    (hm : (m.map Named.val).On i K) (hv : (v.map Named.val).On j L) (hlast : last.val.On j L)
    (h : 4 * (K * L) ≤ 2 ^ 24) (lo : -149 ≤ i + j) :
    (glm_mat4_mulv3 (m.map (Named.wide E)) (v.map (Named.wide E)) ((Named.wide E) last)).map Wide.val = glm_mat4_mulv3 (m.map Named.real) (v.map Named.real) (Named.real last) := by
  simp only [cglm, M4.map, V3.map, V4.map, V3.mk.injEq]
  simp only [M4.On, V3.On, V4.On, M4.map, V3.map, V4.map] at hm hv
  obtain ⟨⟨_, _, _, _⟩, ⟨_, _, _, _⟩, ⟨_, _, _, _⟩, ⟨_, _, _, _⟩⟩ := hm
  obtain ⟨_, _, _⟩ := hv
  refine ⟨?_, ?_, ?_⟩ <;> gridw

theorem C95_exact_mul (E : Method) {i j : ℤ} {K L : ℕ} (a : M4 Named) (b : M4 Named)
    (ha : (a.map Named.val).On i K) (hb : (b.map Named.val).On j L)
    (h : 4 * (K * L) ≤ 2 ^ 24) (lo : -149 ≤ i + j) :
    (glm_mul (a.map (Named.wide E)) (b.map (Named.wide E))).map Wide.val = glm_mul (a.map Named.real) (b.map Named.real) := by
  simp only [cglm, M4.map, V4.map, M4.mk.injEq, V4.mk.injEq]
  simp only [M4.On, V4.On, M4.map, V4.map] at ha hb
  obtain ⟨⟨_, _, _, _⟩, ⟨_, _, _, _⟩, ⟨_, _, _, _⟩, ⟨_, _, _, _⟩⟩ := ha
  obtain ⟨⟨_, _, _, _⟩, ⟨_, _, _, _⟩, ⟨_, _, _, _⟩, ⟨_, _, _, _⟩⟩ := hb
  refine ⟨⟨?_, ?_, ?_, ?_⟩, ⟨?_, ?_, ?_, ?_⟩, ⟨?_, ?_, ?_, ?_⟩, ⟨?_, ?_, ?_, ?_⟩⟩ <;> gridw

theorem C95_exact_mul_rot (E : Method) {K L : ℕ} (a : M4 Named) (b : M4 Named)
    (ha : (a.map Named.val).On 0 K) (hb : (b.map Named.val).On 0 L)
    (h : 3 * (K * L) + K ≤ 2 ^ 24) :
    (glm_mul_rot (a.map (Named.wide E)) (b.map (Named.wide E))).map Wide.val = glm_mul_rot (a.map Named.real) (b.map Named.real) := by
  simp only [cglm, M4.map, V4.map, M4.mk.injEq, V4.mk.injEq]
  simp only [M4.On, V4.On, M4.map, V4.map] at ha hb
  obtain ⟨⟨_, _, _, _⟩, ⟨_, _, _, _⟩, ⟨_, _, _, _⟩, ⟨_, _, _, _⟩⟩ := ha
  obtain ⟨⟨_, _, _, _⟩, ⟨_, _, _, _⟩, ⟨_, _, _, _⟩, ⟨_, _, _, _⟩⟩ := hb
  refine ⟨⟨?_, ?_, ?_, ?_⟩, ⟨?_, ?_, ?_, ?_⟩, ⟨?_, ?_, ?_, ?_⟩, ⟨?_, ?_, ?_, ?_⟩⟩ <;> gridw

theorem C95_exact_translate (E : Method) {K L : ℕ} (m : M4 Named) (v : V3 Named)
    (hm : (m.map Named.val).On 0 K) (hv : (v.map Named.val).On 0 L)
    (h : 3 * (K * L) + K ≤ 2 ^ 24) :
    (glm_translate (m.map (Named.wide E)) (v.map (Named.wide E))).map Wide.val = glm_translate (m.map Named.real) (v.map Named.real) := by
  simp only [cglm, M4.map, V3.map, V4.map, M4.mk.injEq, V4.mk.injEq]
  simp only [M4.On, V3.On, V4.On, M4.map, V3.map, V4.map] at hm hv
  obtain ⟨⟨_, _, _, _⟩, ⟨_, _, _, _⟩, ⟨_, _, _, _⟩, ⟨_, _, _, _⟩⟩ := hm
  obtain ⟨_, _, _⟩ := hv
  refine ⟨⟨?_, ?_, ?_, ?_⟩, ⟨?_, ?_, ?_, ?_⟩, ⟨?_, ?_, ?_, ?_⟩, ⟨?_, ?_, ?_, ?_⟩⟩ <;> gridw

theorem C95_exact_translate_to (E : Method) {K L : ℕ} (m : M4 Named) (v : V3 Named)
    (hm : (m.map Named.val).On 0 K) (hv : (v.map Named.val).On 0 L)
    (h : 3 * (K * L) + K ≤ 2 ^ 24) :
    (glm_translate_to (m.map (Named.wide E)) (v.map (Named.wide E))).map Wide.val = glm_translate_to (m.map Named.real) (v.map Named.real) := by
  simp only [cglm, M4.map, V3.map, V4.map, M4.mk.injEq, V4.mk.injEq]
  simp only [M4.On, V3.On, V4.On, M4.map, V3.map, V4.map] at hm hv
  obtain ⟨⟨_, _, _, _⟩, ⟨_, _, _, _⟩, ⟨_, _, _, _⟩, ⟨_, _, _, _⟩⟩ := hm
  obtain ⟨_, _, _⟩ := hv
  refine ⟨⟨?_, ?_, ?_, ?_⟩, ⟨?_, ?_, ?_, ?_⟩, ⟨?_, ?_, ?_, ?_⟩, ⟨?_, ?_, ?_, ?_⟩⟩ <;> gridw

theorem C95_exact_translate2d (E : Method) {K L : ℕ} (m : M3 Named) (v : V2 Named)
    (hm : (m.map Named.val).On 0 K) (hv : (v.map Named.val).On 0 L)
    (h : 2 * (K * L) + K ≤ 2 ^ 24) :
    (glm_translate2d (m.map (Named.wide E)) (v.map (Named.wide E))).map Wide.val = glm_translate2d (m.map Named.real) (v.map Named.real) := by
  simp only [cglm, M3.map, V2.map, V3.map, M3.mk.injEq, V3.mk.injEq]
  simp only [M3.On, V2.On, V3.On, M3.map, V2.map, V3.map] at hm hv
  obtain ⟨⟨_, _, _⟩, ⟨_, _, _⟩, ⟨_, _, _⟩⟩ := hm
  obtain ⟨_, _⟩ := hv
  refine ⟨⟨?_, ?_, ?_⟩, ⟨?_, ?_, ?_⟩, ⟨?_, ?_, ?_⟩⟩ <;> gridw

theorem C95_exact_scale_to (E : Method) {K L : ℕ} (m : M4 Named) (v : V3 Named)
    (hm : (m.map Named.val).On 0 K) (hv : (v.map Named.val).On 0 L)
    (h : K * L + K ≤ 2 ^ 24) :
    (glm_scale_to (m.map (Named.wide E)) (v.map (Named.wide E))).map Wide.val = glm_scale_to (m.map Named.real) (v.map Named.real) := by
  simp only [cglm, M4.map, V3.map, V4.map, M4.mk.injEq, V4.mk.injEq]
  simp only [M4.On, V3.On, V4.On, M4.map, V3.map, V4.map] at hm hv
  obtain ⟨⟨_, _, _, _⟩, ⟨_, _, _, _⟩, ⟨_, _, _, _⟩, ⟨_, _, _, _⟩⟩ := hm
  obtain ⟨_, _, _⟩ := hv
  refine ⟨⟨?_, ?_, ?_, ?_⟩, ⟨?_, ?_, ?_, ?_⟩, ⟨?_, ?_, ?_, ?_⟩, ⟨?_, ?_, ?_, ?_⟩⟩ <;> gridw

/-- the hypotheses are met by a non-trivial vector -/
example : ((⟨⟨.ofRat false 3, 0⟩, ⟨.ofRat false (-5), 1⟩⟩ : V2 Named).map Named.val).On 0 5 := by
  simp only [V2.On, V2.map]
  exact ⟨⟨by decide +kernel, 3, by norm_num, by decide +kernel⟩, ⟨by decide +kernel, -5, by norm_num, by decide +kernel⟩⟩

end Cglm
