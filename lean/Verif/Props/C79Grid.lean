import Verif.Contract
import Verif.Gen
/-!
# C79: exact results on small integers and fixed-point numbers under contraction

`π` is an arbitrary policy of a compiler for fusing products and sums (`Contract.lean`).  `On` and `Exact` are those of C76: on
small integers and fixed-point numbers every contraction gives the exact result.  Written by `tools/ctrthms.py`.
-/
set_option linter.unusedSectionVars false
set_option linter.unusedSimpArgs false
open Cglm F32
namespace Cglm
variable [Libm]

theorem C79_grid_vec2_add (π : Policy) {i : ℤ} {K L : ℕ} (a : V2 Named) (b : V2 Named)
    (ha : (a.map Named.val).On i K) (hb : (b.map Named.val).On i L)
    (h : K + L ≤ 2 ^ 24) (lo : -149 ≤ i) (hi : i ≤ 103) :
    ((glm_vec2_add (a.map (Named.run π)) (b.map (Named.run π))).map Ctr.val).Exact (glm_vec2_add (a.map Named.real) (b.map Named.real)) (i) (K + L) := by
  simp only [cglm, V2.map, V2.Exact]
  simp only [V2.On, V2.map] at ha hb
  obtain ⟨_, _⟩ := ha
  obtain ⟨_, _⟩ := hb
  refine ⟨?_, ?_⟩ <;> gridc

theorem C79_grid_vec2_adds (π : Policy) {i : ℤ} {K L : ℕ} (v : V2 Named) (s : Named)
    (hv : (v.map Named.val).On i K) (hs : s.val.On i L)
    (h : K + L ≤ 2 ^ 24) (lo : -149 ≤ i) (hi : i ≤ 103) :
    ((glm_vec2_adds (v.map (Named.run π)) (s.run π)).map Ctr.val).Exact (glm_vec2_adds (v.map Named.real) s.real) (i) (K + L) := by
  simp only [cglm, V2.map, V2.Exact]
  simp only [V2.On, V2.map] at hv
  obtain ⟨_, _⟩ := hv
  refine ⟨?_, ?_⟩ <;> gridc

theorem C79_grid_vec2_sub (π : Policy) {i : ℤ} {K L : ℕ} (a : V2 Named) (b : V2 Named)
    (ha : (a.map Named.val).On i K) (hb : (b.map Named.val).On i L)
    (h : K + L ≤ 2 ^ 24) (lo : -149 ≤ i) (hi : i ≤ 103) :
    ((glm_vec2_sub (a.map (Named.run π)) (b.map (Named.run π))).map Ctr.val).Exact (glm_vec2_sub (a.map Named.real) (b.map Named.real)) (i) (K + L) := by
  simp only [cglm, V2.map, V2.Exact]
  simp only [V2.On, V2.map] at ha hb
  obtain ⟨_, _⟩ := ha
  obtain ⟨_, _⟩ := hb
  refine ⟨?_, ?_⟩ <;> gridc

theorem C79_grid_vec2_subs (π : Policy) {i : ℤ} {K L : ℕ} (v : V2 Named) (s : Named)
    (hv : (v.map Named.val).On i K) (hs : s.val.On i L)
    (h : K + L ≤ 2 ^ 24) (lo : -149 ≤ i) (hi : i ≤ 103) :
    ((glm_vec2_subs (v.map (Named.run π)) (s.run π)).map Ctr.val).Exact (glm_vec2_subs (v.map Named.real) s.real) (i) (K + L) := by
  simp only [cglm, V2.map, V2.Exact]
  simp only [V2.On, V2.map] at hv
  obtain ⟨_, _⟩ := hv
  refine ⟨?_, ?_⟩ <;> gridc

theorem C79_grid_vec2_mul (π : Policy) {i j : ℤ} {K L : ℕ} (a : V2 Named) (b : V2 Named)
    (ha : (a.map Named.val).On i K) (hb : (b.map Named.val).On j L)
    (h : K * L ≤ 2 ^ 24) (lo : -149 ≤ i + j) (hi : i + j ≤ 103) :
    ((glm_vec2_mul (a.map (Named.run π)) (b.map (Named.run π))).map Ctr.val).Exact (glm_vec2_mul (a.map Named.real) (b.map Named.real)) (i + j) (K * L) := by
  simp only [cglm, V2.map, V2.Exact]
  simp only [V2.On, V2.map] at ha hb
  obtain ⟨_, _⟩ := ha
  obtain ⟨_, _⟩ := hb
  refine ⟨?_, ?_⟩ <;> gridc

theorem C79_grid_vec2_scale (π : Policy) {i j : ℤ} {K L : ℕ} (v : V2 Named) (s : Named)
    (hv : (v.map Named.val).On i K) (hs : s.val.On j L)
    (h : K * L ≤ 2 ^ 24) (lo : -149 ≤ i + j) (hi : i + j ≤ 103) :
    ((glm_vec2_scale (v.map (Named.run π)) (s.run π)).map Ctr.val).Exact (glm_vec2_scale (v.map Named.real) s.real) (i + j) (K * L) := by
  simp only [cglm, V2.map, V2.Exact]
  simp only [V2.On, V2.map] at hv
  obtain ⟨_, _⟩ := hv
  refine ⟨?_, ?_⟩ <;> gridc

theorem C79_grid_vec2_dot (π : Policy) {i j : ℤ} {K L : ℕ} (a : V2 Named) (b : V2 Named)
    (ha : (a.map Named.val).On i K) (hb : (b.map Named.val).On j L)
    (h : 2 * (K * L) ≤ 2 ^ 24) (lo : -149 ≤ i + j) (hi : i + j ≤ 103) :
    (glm_vec2_dot (a.map (Named.run π)) (b.map (Named.run π))).val.Exact (glm_vec2_dot (a.map Named.real) (b.map Named.real)) (i + j) (2 * (K * L)) := by
  simp only [cglm, V2.map]
  simp only [V2.On, V2.map] at ha hb
  obtain ⟨_, _⟩ := ha
  obtain ⟨_, _⟩ := hb
  gridc

theorem C79_grid_vec2_norm2 (π : Policy) {i : ℤ} {K : ℕ} (v : V2 Named)
    (hv : (v.map Named.val).On i K)
    (h : 2 * (K * K) ≤ 2 ^ 24) (lo : -149 ≤ i + i) (hi : i + i ≤ 103) :
    (glm_vec2_norm2 (v.map (Named.run π))).val.Exact (glm_vec2_norm2 (v.map Named.real)) (i + i) (2 * (K * K)) := by
  simp only [cglm, V2.map]
  simp only [V2.On, V2.map] at hv
  obtain ⟨_, _⟩ := hv
  gridc

theorem C79_grid_vec2_muladd (π : Policy) {i j : ℤ} {K L M : ℕ} (a : V2 Named) (b : V2 Named) (c : V2 Named)
    (ha : (a.map Named.val).On i K) (hb : (b.map Named.val).On j L) (hc : (c.map Named.val).On (i + j) M)
    (h : K * L + M ≤ 2 ^ 24) (lo : -149 ≤ i + j) (hi : i + j ≤ 103) :
    ((glm_vec2_muladd (a.map (Named.run π)) (b.map (Named.run π)) (c.map (Named.run π))).map Ctr.val).Exact (glm_vec2_muladd (a.map Named.real) (b.map Named.real) (c.map Named.real)) (i + j) (K * L + M) := by
  simp only [cglm, V2.map, V2.Exact]
  simp only [V2.On, V2.map] at ha hb hc
  obtain ⟨_, _⟩ := ha
  obtain ⟨_, _⟩ := hb
  obtain ⟨_, _⟩ := hc
  refine ⟨?_, ?_⟩ <;> gridc

theorem C79_grid_vec2_muladds (π : Policy) {i j : ℤ} {K L M : ℕ} (a : V2 Named) (s : Named) (c : V2 Named)
    (ha : (a.map Named.val).On i K) (hs : s.val.On j L) (hc : (c.map Named.val).On (i + j) M)
    (h : K * L + M ≤ 2 ^ 24) (lo : -149 ≤ i + j) (hi : i + j ≤ 103) :
    ((glm_vec2_muladds (a.map (Named.run π)) (s.run π) (c.map (Named.run π))).map Ctr.val).Exact (glm_vec2_muladds (a.map Named.real) s.real (c.map Named.real)) (i + j) (K * L + M) := by
  simp only [cglm, V2.map, V2.Exact]
  simp only [V2.On, V2.map] at ha hc
  obtain ⟨_, _⟩ := ha
  obtain ⟨_, _⟩ := hc
  refine ⟨?_, ?_⟩ <;> gridc

theorem C79_grid_vec2_mulsub (π : Policy) {i j : ℤ} {K L M : ℕ} (a : V2 Named) (b : V2 Named) (c : V2 Named)
    (ha : (a.map Named.val).On i K) (hb : (b.map Named.val).On j L) (hc : (c.map Named.val).On (i + j) M)
    (h : K * L + M ≤ 2 ^ 24) (lo : -149 ≤ i + j) (hi : i + j ≤ 103) :
    ((glm_vec2_mulsub (a.map (Named.run π)) (b.map (Named.run π)) (c.map (Named.run π))).map Ctr.val).Exact (glm_vec2_mulsub (a.map Named.real) (b.map Named.real) (c.map Named.real)) (i + j) (K * L + M) := by
  simp only [cglm, V2.map, V2.Exact]
  simp only [V2.On, V2.map] at ha hb hc
  obtain ⟨_, _⟩ := ha
  obtain ⟨_, _⟩ := hb
  obtain ⟨_, _⟩ := hc
  refine ⟨?_, ?_⟩ <;> gridc

theorem C79_grid_vec2_mulsubs (π : Policy) {i j : ℤ} {K L M : ℕ} (a : V2 Named) (s : Named) (c : V2 Named)
    (ha : (a.map Named.val).On i K) (hs : s.val.On j L) (hc : (c.map Named.val).On (i + j) M)
    (h : K * L + M ≤ 2 ^ 24) (lo : -149 ≤ i + j) (hi : i + j ≤ 103) :
    ((glm_vec2_mulsubs (a.map (Named.run π)) (s.run π) (c.map (Named.run π))).map Ctr.val).Exact (glm_vec2_mulsubs (a.map Named.real) s.real (c.map Named.real)) (i + j) (K * L + M) := by
  simp only [cglm, V2.map, V2.Exact]
  simp only [V2.On, V2.map] at ha hc
  obtain ⟨_, _⟩ := ha
  obtain ⟨_, _⟩ := hc
  refine ⟨?_, ?_⟩ <;> gridc

theorem C79_grid_vec2_addadd (π : Policy) {i : ℤ} {K L M : ℕ} (a : V2 Named) (b : V2 Named) (c : V2 Named)
    (ha : (a.map Named.val).On i K) (hb : (b.map Named.val).On i L) (hc : (c.map Named.val).On i M)
    (h : K + L + M ≤ 2 ^ 24) (lo : -149 ≤ i) (hi : i ≤ 103) :
    ((glm_vec2_addadd (a.map (Named.run π)) (b.map (Named.run π)) (c.map (Named.run π))).map Ctr.val).Exact (glm_vec2_addadd (a.map Named.real) (b.map Named.real) (c.map Named.real)) (i) (K + L + M) := by
  simp only [cglm, V2.map, V2.Exact]
  simp only [V2.On, V2.map] at ha hb hc
  obtain ⟨_, _⟩ := ha
  obtain ⟨_, _⟩ := hb
  obtain ⟨_, _⟩ := hc
  refine ⟨?_, ?_⟩ <;> gridc

theorem C79_grid_vec2_subadd (π : Policy) {i : ℤ} {K L M : ℕ} (a : V2 Named) (b : V2 Named) (c : V2 Named)
    (ha : (a.map Named.val).On i K) (hb : (b.map Named.val).On i L) (hc : (c.map Named.val).On i M)
    (h : K + L + M ≤ 2 ^ 24) (lo : -149 ≤ i) (hi : i ≤ 103) :
    ((glm_vec2_subadd (a.map (Named.run π)) (b.map (Named.run π)) (c.map (Named.run π))).map Ctr.val).Exact (glm_vec2_subadd (a.map Named.real) (b.map Named.real) (c.map Named.real)) (i) (K + L + M) := by
  simp only [cglm, V2.map, V2.Exact]
  simp only [V2.On, V2.map] at ha hb hc
  obtain ⟨_, _⟩ := ha
  obtain ⟨_, _⟩ := hb
  obtain ⟨_, _⟩ := hc
  refine ⟨?_, ?_⟩ <;> gridc

theorem C79_grid_vec2_addsub (π : Policy) {i : ℤ} {K L M : ℕ} (a : V2 Named) (b : V2 Named) (c : V2 Named)
    (ha : (a.map Named.val).On i K) (hb : (b.map Named.val).On i L) (hc : (c.map Named.val).On i M)
    (h : K + L + M ≤ 2 ^ 24) (lo : -149 ≤ i) (hi : i ≤ 103) :
    ((glm_vec2_addsub (a.map (Named.run π)) (b.map (Named.run π)) (c.map (Named.run π))).map Ctr.val).Exact (glm_vec2_addsub (a.map Named.real) (b.map Named.real) (c.map Named.real)) (i) (K + L + M) := by
  simp only [cglm, V2.map, V2.Exact]
  simp only [V2.On, V2.map] at ha hb hc
  obtain ⟨_, _⟩ := ha
  obtain ⟨_, _⟩ := hb
  obtain ⟨_, _⟩ := hc
  refine ⟨?_, ?_⟩ <;> gridc

theorem C79_grid_vec2_subsub (π : Policy) {i : ℤ} {K L M : ℕ} (a : V2 Named) (b : V2 Named) (c : V2 Named)
    (ha : (a.map Named.val).On i K) (hb : (b.map Named.val).On i L) (hc : (c.map Named.val).On i M)
    (h : K + L + M ≤ 2 ^ 24) (lo : -149 ≤ i) (hi : i ≤ 103) :
    ((glm_vec2_subsub (a.map (Named.run π)) (b.map (Named.run π)) (c.map (Named.run π))).map Ctr.val).Exact (glm_vec2_subsub (a.map Named.real) (b.map Named.real) (c.map Named.real)) (i) (K + L + M) := by
  simp only [cglm, V2.map, V2.Exact]
  simp only [V2.On, V2.map] at ha hb hc
  obtain ⟨_, _⟩ := ha
  obtain ⟨_, _⟩ := hb
  obtain ⟨_, _⟩ := hc
  refine ⟨?_, ?_⟩ <;> gridc

theorem C79_grid_vec2_center (π : Policy) {i : ℤ} {K L : ℕ} (a : V2 Named) (b : V2 Named)
    (ha : (a.map Named.val).On i K) (hb : (b.map Named.val).On i L)
    (h : K + L ≤ 2 ^ 24) (lo : -149 ≤ i - 1) (hi : i ≤ 103) :
    ((glm_vec2_center (a.map (Named.run π)) (b.map (Named.run π))).map Ctr.val).Exact (glm_vec2_center (a.map Named.real) (b.map Named.real)) (i - 1) (K + L) := by
  simp only [cglm, V2.map, V2.Exact]
  simp only [V2.On, V2.map] at ha hb
  obtain ⟨_, _⟩ := ha
  obtain ⟨_, _⟩ := hb
  refine ⟨?_, ?_⟩ <;> gridc

theorem C79_grid_vec2_distance2 (π : Policy) {i : ℤ} {K L : ℕ} (a : V2 Named) (b : V2 Named)
    (ha : (a.map Named.val).On i K) (hb : (b.map Named.val).On i L)
    (h : 2 * ((L + K) * (L + K)) ≤ 2 ^ 24) (lo : -149 ≤ i + i) (hi : i + i ≤ 103) :
    (glm_vec2_distance2 (a.map (Named.run π)) (b.map (Named.run π))).val.Exact (glm_vec2_distance2 (a.map Named.real) (b.map Named.real)) (i + i) (2 * ((L + K) * (L + K))) := by
  simp only [cglm, V2.map]
  simp only [V2.On, V2.map] at ha hb
  obtain ⟨_, _⟩ := ha
  obtain ⟨_, _⟩ := hb
  have := Nat.le_mul_self (L + K)
  gridc

theorem C79_grid_vec3_add (π : Policy) {i : ℤ} {K L : ℕ} (a : V3 Named) (b : V3 Named)
    (ha : (a.map Named.val).On i K) (hb : (b.map Named.val).On i L)
    (h : K + L ≤ 2 ^ 24) (lo : -149 ≤ i) (hi : i ≤ 103) :
    ((glm_vec3_add (a.map (Named.run π)) (b.map (Named.run π))).map Ctr.val).Exact (glm_vec3_add (a.map Named.real) (b.map Named.real)) (i) (K + L) := by
  simp only [cglm, V3.map, V3.Exact]
  simp only [V3.On, V3.map] at ha hb
  obtain ⟨_, _, _⟩ := ha
  obtain ⟨_, _, _⟩ := hb
  refine ⟨?_, ?_, ?_⟩ <;> gridc

theorem C79_grid_vec3_adds (π : Policy) {i : ℤ} {K L : ℕ} (v : V3 Named) (s : Named)
    (hv : (v.map Named.val).On i K) (hs : s.val.On i L)
    (h : K + L ≤ 2 ^ 24) (lo : -149 ≤ i) (hi : i ≤ 103) :
    ((glm_vec3_adds (v.map (Named.run π)) (s.run π)).map Ctr.val).Exact (glm_vec3_adds (v.map Named.real) s.real) (i) (K + L) := by
  simp only [cglm, V3.map, V3.Exact]
  simp only [V3.On, V3.map] at hv
  obtain ⟨_, _, _⟩ := hv
  refine ⟨?_, ?_, ?_⟩ <;> gridc

theorem C79_grid_vec3_sub (π : Policy) {i : ℤ} {K L : ℕ} (a : V3 Named) (b : V3 Named)
    (ha : (a.map Named.val).On i K) (hb : (b.map Named.val).On i L)
    (h : K + L ≤ 2 ^ 24) (lo : -149 ≤ i) (hi : i ≤ 103) :
    ((glm_vec3_sub (a.map (Named.run π)) (b.map (Named.run π))).map Ctr.val).Exact (glm_vec3_sub (a.map Named.real) (b.map Named.real)) (i) (K + L) := by
  simp only [cglm, V3.map, V3.Exact]
  simp only [V3.On, V3.map] at ha hb
  obtain ⟨_, _, _⟩ := ha
  obtain ⟨_, _, _⟩ := hb
  refine ⟨?_, ?_, ?_⟩ <;> gridc

theorem C79_grid_vec3_subs (π : Policy) {i : ℤ} {K L : ℕ} (v : V3 Named) (s : Named)
    (hv : (v.map Named.val).On i K) (hs : s.val.On i L)
    (h : K + L ≤ 2 ^ 24) (lo : -149 ≤ i) (hi : i ≤ 103) :
    ((glm_vec3_subs (v.map (Named.run π)) (s.run π)).map Ctr.val).Exact (glm_vec3_subs (v.map Named.real) s.real) (i) (K + L) := by
  simp only [cglm, V3.map, V3.Exact]
  simp only [V3.On, V3.map] at hv
  obtain ⟨_, _, _⟩ := hv
  refine ⟨?_, ?_, ?_⟩ <;> gridc

theorem C79_grid_vec3_mul (π : Policy) {i j : ℤ} {K L : ℕ} (a : V3 Named) (b : V3 Named)
    (ha : (a.map Named.val).On i K) (hb : (b.map Named.val).On j L)
    (h : K * L ≤ 2 ^ 24) (lo : -149 ≤ i + j) (hi : i + j ≤ 103) :
    ((glm_vec3_mul (a.map (Named.run π)) (b.map (Named.run π))).map Ctr.val).Exact (glm_vec3_mul (a.map Named.real) (b.map Named.real)) (i + j) (K * L) := by
  simp only [cglm, V3.map, V3.Exact]
  simp only [V3.On, V3.map] at ha hb
  obtain ⟨_, _, _⟩ := ha
  obtain ⟨_, _, _⟩ := hb
  refine ⟨?_, ?_, ?_⟩ <;> gridc

theorem C79_grid_vec3_scale (π : Policy) {i j : ℤ} {K L : ℕ} (v : V3 Named) (s : Named)
    (hv : (v.map Named.val).On i K) (hs : s.val.On j L)
    (h : K * L ≤ 2 ^ 24) (lo : -149 ≤ i + j) (hi : i + j ≤ 103) :
    ((glm_vec3_scale (v.map (Named.run π)) (s.run π)).map Ctr.val).Exact (glm_vec3_scale (v.map Named.real) s.real) (i + j) (K * L) := by
  simp only [cglm, V3.map, V3.Exact]
  simp only [V3.On, V3.map] at hv
  obtain ⟨_, _, _⟩ := hv
  refine ⟨?_, ?_, ?_⟩ <;> gridc

theorem C79_grid_vec3_dot (π : Policy) {i j : ℤ} {K L : ℕ} (a : V3 Named) (b : V3 Named)
    (ha : (a.map Named.val).On i K) (hb : (b.map Named.val).On j L)
    (h : 3 * (K * L) ≤ 2 ^ 24) (lo : -149 ≤ i + j) (hi : i + j ≤ 103) :
    (glm_vec3_dot (a.map (Named.run π)) (b.map (Named.run π))).val.Exact (glm_vec3_dot (a.map Named.real) (b.map Named.real)) (i + j) (3 * (K * L)) := by
  simp only [cglm, V3.map]
  simp only [V3.On, V3.map] at ha hb
  obtain ⟨_, _, _⟩ := ha
  obtain ⟨_, _, _⟩ := hb
  gridc

theorem C79_grid_vec3_norm2 (π : Policy) {i : ℤ} {K : ℕ} (v : V3 Named)
    (hv : (v.map Named.val).On i K)
    (h : 3 * (K * K) ≤ 2 ^ 24) (lo : -149 ≤ i + i) (hi : i + i ≤ 103) :
    (glm_vec3_norm2 (v.map (Named.run π))).val.Exact (glm_vec3_norm2 (v.map Named.real)) (i + i) (3 * (K * K)) := by
  simp only [cglm, V3.map]
  simp only [V3.On, V3.map] at hv
  obtain ⟨_, _, _⟩ := hv
  gridc

theorem C79_grid_vec3_muladd (π : Policy) {i j : ℤ} {K L M : ℕ} (a : V3 Named) (b : V3 Named) (c : V3 Named)
    (ha : (a.map Named.val).On i K) (hb : (b.map Named.val).On j L) (hc : (c.map Named.val).On (i + j) M)
    (h : K * L + M ≤ 2 ^ 24) (lo : -149 ≤ i + j) (hi : i + j ≤ 103) :
    ((glm_vec3_muladd (a.map (Named.run π)) (b.map (Named.run π)) (c.map (Named.run π))).map Ctr.val).Exact (glm_vec3_muladd (a.map Named.real) (b.map Named.real) (c.map Named.real)) (i + j) (K * L + M) := by
  simp only [cglm, V3.map, V3.Exact]
  simp only [V3.On, V3.map] at ha hb hc
  obtain ⟨_, _, _⟩ := ha
  obtain ⟨_, _, _⟩ := hb
  obtain ⟨_, _, _⟩ := hc
  refine ⟨?_, ?_, ?_⟩ <;> gridc

theorem C79_grid_vec3_muladds (π : Policy) {i j : ℤ} {K L M : ℕ} (a : V3 Named) (s : Named) (c : V3 Named)
    (ha : (a.map Named.val).On i K) (hs : s.val.On j L) (hc : (c.map Named.val).On (i + j) M)
    (h : K * L + M ≤ 2 ^ 24) (lo : -149 ≤ i + j) (hi : i + j ≤ 103) :
    ((glm_vec3_muladds (a.map (Named.run π)) (s.run π) (c.map (Named.run π))).map Ctr.val).Exact (glm_vec3_muladds (a.map Named.real) s.real (c.map Named.real)) (i + j) (K * L + M) := by
  simp only [cglm, V3.map, V3.Exact]
  simp only [V3.On, V3.map] at ha hc
  obtain ⟨_, _, _⟩ := ha
  obtain ⟨_, _, _⟩ := hc
  refine ⟨?_, ?_, ?_⟩ <;> gridc

theorem C79_grid_vec3_mulsub (π : Policy) {i j : ℤ} {K L M : ℕ} (a : V3 Named) (b : V3 Named) (c : V3 Named)
    (ha : (a.map Named.val).On i K) (hb : (b.map Named.val).On j L) (hc : (c.map Named.val).On (i + j) M)
    (h : K * L + M ≤ 2 ^ 24) (lo : -149 ≤ i + j) (hi : i + j ≤ 103) :
    ((glm_vec3_mulsub (a.map (Named.run π)) (b.map (Named.run π)) (c.map (Named.run π))).map Ctr.val).Exact (glm_vec3_mulsub (a.map Named.real) (b.map Named.real) (c.map Named.real)) (i + j) (K * L + M) := by
  simp only [cglm, V3.map, V3.Exact]
  simp only [V3.On, V3.map] at ha hb hc
  obtain ⟨_, _, _⟩ := ha
  obtain ⟨_, _, _⟩ := hb
  obtain ⟨_, _, _⟩ := hc
  refine ⟨?_, ?_, ?_⟩ <;> gridc

theorem C79_grid_vec3_mulsubs (π : Policy) {i j : ℤ} {K L M : ℕ} (a : V3 Named) (s : Named) (c : V3 Named)
    (ha : (a.map Named.val).On i K) (hs : s.val.On j L) (hc : (c.map Named.val).On (i + j) M)
    (h : K * L + M ≤ 2 ^ 24) (lo : -149 ≤ i + j) (hi : i + j ≤ 103) :
    ((glm_vec3_mulsubs (a.map (Named.run π)) (s.run π) (c.map (Named.run π))).map Ctr.val).Exact (glm_vec3_mulsubs (a.map Named.real) s.real (c.map Named.real)) (i + j) (K * L + M) := by
  simp only [cglm, V3.map, V3.Exact]
  simp only [V3.On, V3.map] at ha hc
  obtain ⟨_, _, _⟩ := ha
  obtain ⟨_, _, _⟩ := hc
  refine ⟨?_, ?_, ?_⟩ <;> gridc

theorem C79_grid_vec3_addadd (π : Policy) {i : ℤ} {K L M : ℕ} (a : V3 Named) (b : V3 Named) (c : V3 Named)
    (ha : (a.map Named.val).On i K) (hb : (b.map Named.val).On i L) (hc : (c.map Named.val).On i M)
    (h : K + L + M ≤ 2 ^ 24) (lo : -149 ≤ i) (hi : i ≤ 103) :
    ((glm_vec3_addadd (a.map (Named.run π)) (b.map (Named.run π)) (c.map (Named.run π))).map Ctr.val).Exact (glm_vec3_addadd (a.map Named.real) (b.map Named.real) (c.map Named.real)) (i) (K + L + M) := by
  simp only [cglm, V3.map, V3.Exact]
  simp only [V3.On, V3.map] at ha hb hc
  obtain ⟨_, _, _⟩ := ha
  obtain ⟨_, _, _⟩ := hb
  obtain ⟨_, _, _⟩ := hc
  refine ⟨?_, ?_, ?_⟩ <;> gridc

theorem C79_grid_vec3_subadd (π : Policy) {i : ℤ} {K L M : ℕ} (a : V3 Named) (b : V3 Named) (c : V3 Named)
    (ha : (a.map Named.val).On i K) (hb : (b.map Named.val).On i L) (hc : (c.map Named.val).On i M)
    (h : K + L + M ≤ 2 ^ 24) (lo : -149 ≤ i) (hi : i ≤ 103) :
    ((glm_vec3_subadd (a.map (Named.run π)) (b.map (Named.run π)) (c.map (Named.run π))).map Ctr.val).Exact (glm_vec3_subadd (a.map Named.real) (b.map Named.real) (c.map Named.real)) (i) (K + L + M) := by
  simp only [cglm, V3.map, V3.Exact]
  simp only [V3.On, V3.map] at ha hb hc
  obtain ⟨_, _, _⟩ := ha
  obtain ⟨_, _, _⟩ := hb
  obtain ⟨_, _, _⟩ := hc
  refine ⟨?_, ?_, ?_⟩ <;> gridc

theorem C79_grid_vec3_addsub (π : Policy) {i : ℤ} {K L M : ℕ} (a : V3 Named) (b : V3 Named) (c : V3 Named)
    (ha : (a.map Named.val).On i K) (hb : (b.map Named.val).On i L) (hc : (c.map Named.val).On i M)
    (h : K + L + M ≤ 2 ^ 24) (lo : -149 ≤ i) (hi : i ≤ 103) :
    ((glm_vec3_addsub (a.map (Named.run π)) (b.map (Named.run π)) (c.map (Named.run π))).map Ctr.val).Exact (glm_vec3_addsub (a.map Named.real) (b.map Named.real) (c.map Named.real)) (i) (K + L + M) := by
  simp only [cglm, V3.map, V3.Exact]
  simp only [V3.On, V3.map] at ha hb hc
  obtain ⟨_, _, _⟩ := ha
  obtain ⟨_, _, _⟩ := hb
  obtain ⟨_, _, _⟩ := hc
  refine ⟨?_, ?_, ?_⟩ <;> gridc

theorem C79_grid_vec3_subsub (π : Policy) {i : ℤ} {K L M : ℕ} (a : V3 Named) (b : V3 Named) (c : V3 Named)
    (ha : (a.map Named.val).On i K) (hb : (b.map Named.val).On i L) (hc : (c.map Named.val).On i M)
    (h : K + L + M ≤ 2 ^ 24) (lo : -149 ≤ i) (hi : i ≤ 103) :
    ((glm_vec3_subsub (a.map (Named.run π)) (b.map (Named.run π)) (c.map (Named.run π))).map Ctr.val).Exact (glm_vec3_subsub (a.map Named.real) (b.map Named.real) (c.map Named.real)) (i) (K + L + M) := by
  simp only [cglm, V3.map, V3.Exact]
  simp only [V3.On, V3.map] at ha hb hc
  obtain ⟨_, _, _⟩ := ha
  obtain ⟨_, _, _⟩ := hb
  obtain ⟨_, _, _⟩ := hc
  refine ⟨?_, ?_, ?_⟩ <;> gridc

theorem C79_grid_vec3_center (π : Policy) {i : ℤ} {K L : ℕ} (a : V3 Named) (b : V3 Named)
    (ha : (a.map Named.val).On i K) (hb : (b.map Named.val).On i L)
    (h : K + L ≤ 2 ^ 24) (lo : -149 ≤ i - 1) (hi : i ≤ 103) :
    ((glm_vec3_center (a.map (Named.run π)) (b.map (Named.run π))).map Ctr.val).Exact (glm_vec3_center (a.map Named.real) (b.map Named.real)) (i - 1) (K + L) := by
  simp only [cglm, V3.map, V3.Exact]
  simp only [V3.On, V3.map] at ha hb
  obtain ⟨_, _, _⟩ := ha
  obtain ⟨_, _, _⟩ := hb
  refine ⟨?_, ?_, ?_⟩ <;> gridc

theorem C79_grid_vec3_distance2 (π : Policy) {i : ℤ} {K L : ℕ} (a : V3 Named) (b : V3 Named)
    (ha : (a.map Named.val).On i K) (hb : (b.map Named.val).On i L)
    (h : 3 * ((K + L) * (K + L)) ≤ 2 ^ 24) (lo : -149 ≤ i + i) (hi : i + i ≤ 103) :
    (glm_vec3_distance2 (a.map (Named.run π)) (b.map (Named.run π))).val.Exact (glm_vec3_distance2 (a.map Named.real) (b.map Named.real)) (i + i) (3 * ((K + L) * (K + L))) := by
  simp only [cglm, V3.map]
  simp only [V3.On, V3.map] at ha hb
  obtain ⟨_, _, _⟩ := ha
  obtain ⟨_, _, _⟩ := hb
  have := Nat.le_mul_self (K + L)
  gridc

theorem C79_grid_vec3_hadd (π : Policy) {i : ℤ} {K : ℕ} (v : V3 Named)
    (hv : (v.map Named.val).On i K)
    (h : 3 * K ≤ 2 ^ 24) (lo : -149 ≤ i) (hi : i ≤ 103) :
    (glm_vec3_hadd (v.map (Named.run π))).val.Exact (glm_vec3_hadd (v.map Named.real)) (i) (3 * K) := by
  simp only [cglm, V3.map]
  simp only [V3.On, V3.map] at hv
  obtain ⟨_, _, _⟩ := hv
  gridc

theorem C79_grid_vec4_add (π : Policy) {i : ℤ} {K L : ℕ} (a : V4 Named) (b : V4 Named)
    (ha : (a.map Named.val).On i K) (hb : (b.map Named.val).On i L)
    (h : K + L ≤ 2 ^ 24) (lo : -149 ≤ i) (hi : i ≤ 103) :
    ((glm_vec4_add (a.map (Named.run π)) (b.map (Named.run π))).map Ctr.val).Exact (glm_vec4_add (a.map Named.real) (b.map Named.real)) (i) (K + L) := by
  simp only [cglm, V4.map, V4.Exact]
  simp only [V4.On, V4.map] at ha hb
  obtain ⟨_, _, _, _⟩ := ha
  obtain ⟨_, _, _, _⟩ := hb
  refine ⟨?_, ?_, ?_, ?_⟩ <;> gridc

theorem C79_grid_vec4_adds (π : Policy) {i : ℤ} {K L : ℕ} (v : V4 Named) (s : Named)
    (hv : (v.map Named.val).On i K) (hs : s.val.On i L)
    (h : K + L ≤ 2 ^ 24) (lo : -149 ≤ i) (hi : i ≤ 103) :
    ((glm_vec4_adds (v.map (Named.run π)) (s.run π)).map Ctr.val).Exact (glm_vec4_adds (v.map Named.real) s.real) (i) (K + L) := by
  simp only [cglm, V4.map, V4.Exact]
  simp only [V4.On, V4.map] at hv
  obtain ⟨_, _, _, _⟩ := hv
  refine ⟨?_, ?_, ?_, ?_⟩ <;> gridc

theorem C79_grid_vec4_sub (π : Policy) {i : ℤ} {K L : ℕ} (a : V4 Named) (b : V4 Named)
    (ha : (a.map Named.val).On i K) (hb : (b.map Named.val).On i L)
    (h : K + L ≤ 2 ^ 24) (lo : -149 ≤ i) (hi : i ≤ 103) :
    ((glm_vec4_sub (a.map (Named.run π)) (b.map (Named.run π))).map Ctr.val).Exact (glm_vec4_sub (a.map Named.real) (b.map Named.real)) (i) (K + L) := by
  simp only [cglm, V4.map, V4.Exact]
  simp only [V4.On, V4.map] at ha hb
  obtain ⟨_, _, _, _⟩ := ha
  obtain ⟨_, _, _, _⟩ := hb
  refine ⟨?_, ?_, ?_, ?_⟩ <;> gridc

theorem C79_grid_vec4_subs (π : Policy) {i : ℤ} {K L : ℕ} (v : V4 Named) (s : Named)
    (hv : (v.map Named.val).On i K) (hs : s.val.On i L)
    (h : K + L ≤ 2 ^ 24) (lo : -149 ≤ i) (hi : i ≤ 103) :
    ((glm_vec4_subs (v.map (Named.run π)) (s.run π)).map Ctr.val).Exact (glm_vec4_subs (v.map Named.real) s.real) (i) (K + L) := by
  simp only [cglm, V4.map, V4.Exact]
  simp only [V4.On, V4.map] at hv
  obtain ⟨_, _, _, _⟩ := hv
  refine ⟨?_, ?_, ?_, ?_⟩ <;> gridc

theorem C79_grid_vec4_mul (π : Policy) {i j : ℤ} {K L : ℕ} (a : V4 Named) (b : V4 Named)
    (ha : (a.map Named.val).On i K) (hb : (b.map Named.val).On j L)
    (h : K * L ≤ 2 ^ 24) (lo : -149 ≤ i + j) (hi : i + j ≤ 103) :
    ((glm_vec4_mul (a.map (Named.run π)) (b.map (Named.run π))).map Ctr.val).Exact (glm_vec4_mul (a.map Named.real) (b.map Named.real)) (i + j) (K * L) := by
  simp only [cglm, V4.map, V4.Exact]
  simp only [V4.On, V4.map] at ha hb
  obtain ⟨_, _, _, _⟩ := ha
  obtain ⟨_, _, _, _⟩ := hb
  refine ⟨?_, ?_, ?_, ?_⟩ <;> gridc

theorem C79_grid_vec4_scale (π : Policy) {i j : ℤ} {K L : ℕ} (v : V4 Named) (s : Named)
    (hv : (v.map Named.val).On i K) (hs : s.val.On j L)
    (h : K * L ≤ 2 ^ 24) (lo : -149 ≤ i + j) (hi : i + j ≤ 103) :
    ((glm_vec4_scale (v.map (Named.run π)) (s.run π)).map Ctr.val).Exact (glm_vec4_scale (v.map Named.real) s.real) (i + j) (K * L) := by
  simp only [cglm, V4.map, V4.Exact]
  simp only [V4.On, V4.map] at hv
  obtain ⟨_, _, _, _⟩ := hv
  refine ⟨?_, ?_, ?_, ?_⟩ <;> gridc

theorem C79_grid_vec4_dot (π : Policy) {i j : ℤ} {K L : ℕ} (a : V4 Named) (b : V4 Named)
    (ha : (a.map Named.val).On i K) (hb : (b.map Named.val).On j L)
    (h : 4 * (K * L) ≤ 2 ^ 24) (lo : -149 ≤ i + j) (hi : i + j ≤ 103) :
    (glm_vec4_dot (a.map (Named.run π)) (b.map (Named.run π))).val.Exact (glm_vec4_dot (a.map Named.real) (b.map Named.real)) (i + j) (4 * (K * L)) := by
  simp only [cglm, V4.map]
  simp only [V4.On, V4.map] at ha hb
  obtain ⟨_, _, _, _⟩ := ha
  obtain ⟨_, _, _, _⟩ := hb
  gridc

theorem C79_grid_vec4_norm2 (π : Policy) {i : ℤ} {K : ℕ} (v : V4 Named)
    (hv : (v.map Named.val).On i K)
    (h : 4 * (K * K) ≤ 2 ^ 24) (lo : -149 ≤ i + i) (hi : i + i ≤ 103) :
    (glm_vec4_norm2 (v.map (Named.run π))).val.Exact (glm_vec4_norm2 (v.map Named.real)) (i + i) (4 * (K * K)) := by
  simp only [cglm, V4.map]
  simp only [V4.On, V4.map] at hv
  obtain ⟨_, _, _, _⟩ := hv
  gridc

theorem C79_grid_vec4_muladd (π : Policy) {i j : ℤ} {K L M : ℕ} (a : V4 Named) (b : V4 Named) (c : V4 Named)
    (ha : (a.map Named.val).On i K) (hb : (b.map Named.val).On j L) (hc : (c.map Named.val).On (i + j) M)
    (h : K * L + M ≤ 2 ^ 24) (lo : -149 ≤ i + j) (hi : i + j ≤ 103) :
    ((glm_vec4_muladd (a.map (Named.run π)) (b.map (Named.run π)) (c.map (Named.run π))).map Ctr.val).Exact (glm_vec4_muladd (a.map Named.real) (b.map Named.real) (c.map Named.real)) (i + j) (K * L + M) := by
  simp only [cglm, V4.map, V4.Exact]
  simp only [V4.On, V4.map] at ha hb hc
  obtain ⟨_, _, _, _⟩ := ha
  obtain ⟨_, _, _, _⟩ := hb
  obtain ⟨_, _, _, _⟩ := hc
  refine ⟨?_, ?_, ?_, ?_⟩ <;> gridc

theorem C79_grid_vec4_muladds (π : Policy) {i j : ℤ} {K L M : ℕ} (a : V4 Named) (s : Named) (c : V4 Named)
    (ha : (a.map Named.val).On i K) (hs : s.val.On j L) (hc : (c.map Named.val).On (i + j) M)
    (h : K * L + M ≤ 2 ^ 24) (lo : -149 ≤ i + j) (hi : i + j ≤ 103) :
    ((glm_vec4_muladds (a.map (Named.run π)) (s.run π) (c.map (Named.run π))).map Ctr.val).Exact (glm_vec4_muladds (a.map Named.real) s.real (c.map Named.real)) (i + j) (K * L + M) := by
  simp only [cglm, V4.map, V4.Exact]
  simp only [V4.On, V4.map] at ha hc
  obtain ⟨_, _, _, _⟩ := ha
  obtain ⟨_, _, _, _⟩ := hc
  refine ⟨?_, ?_, ?_, ?_⟩ <;> gridc

theorem C79_grid_vec4_mulsub (π : Policy) {i j : ℤ} {K L M : ℕ} (a : V4 Named) (b : V4 Named) (c : V4 Named)
    (ha : (a.map Named.val).On i K) (hb : (b.map Named.val).On j L) (hc : (c.map Named.val).On (i + j) M)
    (h : K * L + M ≤ 2 ^ 24) (lo : -149 ≤ i + j) (hi : i + j ≤ 103) :
    ((glm_vec4_mulsub (a.map (Named.run π)) (b.map (Named.run π)) (c.map (Named.run π))).map Ctr.val).Exact (glm_vec4_mulsub (a.map Named.real) (b.map Named.real) (c.map Named.real)) (i + j) (K * L + M) := by
  simp only [cglm, V4.map, V4.Exact]
  simp only [V4.On, V4.map] at ha hb hc
  obtain ⟨_, _, _, _⟩ := ha
  obtain ⟨_, _, _, _⟩ := hb
  obtain ⟨_, _, _, _⟩ := hc
  refine ⟨?_, ?_, ?_, ?_⟩ <;> gridc

theorem C79_grid_vec4_mulsubs (π : Policy) {i j : ℤ} {K L M : ℕ} (a : V4 Named) (s : Named) (c : V4 Named)
    (ha : (a.map Named.val).On i K) (hs : s.val.On j L) (hc : (c.map Named.val).On (i + j) M)
    (h : K * L + M ≤ 2 ^ 24) (lo : -149 ≤ i + j) (hi : i + j ≤ 103) :
    ((glm_vec4_mulsubs (a.map (Named.run π)) (s.run π) (c.map (Named.run π))).map Ctr.val).Exact (glm_vec4_mulsubs (a.map Named.real) s.real (c.map Named.real)) (i + j) (K * L + M) := by
  simp only [cglm, V4.map, V4.Exact]
  simp only [V4.On, V4.map] at ha hc
  obtain ⟨_, _, _, _⟩ := ha
  obtain ⟨_, _, _, _⟩ := hc
  refine ⟨?_, ?_, ?_, ?_⟩ <;> gridc

theorem C79_grid_vec4_addadd (π : Policy) {i : ℤ} {K L M : ℕ} (a : V4 Named) (b : V4 Named) (c : V4 Named)
    (ha : (a.map Named.val).On i K) (hb : (b.map Named.val).On i L) (hc : (c.map Named.val).On i M)
    (h : K + L + M ≤ 2 ^ 24) (lo : -149 ≤ i) (hi : i ≤ 103) :
    ((glm_vec4_addadd (a.map (Named.run π)) (b.map (Named.run π)) (c.map (Named.run π))).map Ctr.val).Exact (glm_vec4_addadd (a.map Named.real) (b.map Named.real) (c.map Named.real)) (i) (K + L + M) := by
  simp only [cglm, V4.map, V4.Exact]
  simp only [V4.On, V4.map] at ha hb hc
  obtain ⟨_, _, _, _⟩ := ha
  obtain ⟨_, _, _, _⟩ := hb
  obtain ⟨_, _, _, _⟩ := hc
  refine ⟨?_, ?_, ?_, ?_⟩ <;> gridc

theorem C79_grid_vec4_subadd (π : Policy) {i : ℤ} {K L M : ℕ} (a : V4 Named) (b : V4 Named) (c : V4 Named)
    (ha : (a.map Named.val).On i K) (hb : (b.map Named.val).On i L) (hc : (c.map Named.val).On i M)
    (h : K + L + M ≤ 2 ^ 24) (lo : -149 ≤ i) (hi : i ≤ 103) :
    ((glm_vec4_subadd (a.map (Named.run π)) (b.map (Named.run π)) (c.map (Named.run π))).map Ctr.val).Exact (glm_vec4_subadd (a.map Named.real) (b.map Named.real) (c.map Named.real)) (i) (K + L + M) := by
  simp only [cglm, V4.map, V4.Exact]
  simp only [V4.On, V4.map] at ha hb hc
  obtain ⟨_, _, _, _⟩ := ha
  obtain ⟨_, _, _, _⟩ := hb
  obtain ⟨_, _, _, _⟩ := hc
  refine ⟨?_, ?_, ?_, ?_⟩ <;> gridc

theorem C79_grid_vec4_addsub (π : Policy) {i : ℤ} {K L M : ℕ} (a : V4 Named) (b : V4 Named) (c : V4 Named)
    (ha : (a.map Named.val).On i K) (hb : (b.map Named.val).On i L) (hc : (c.map Named.val).On i M)
    (h : K + L + M ≤ 2 ^ 24) (lo : -149 ≤ i) (hi : i ≤ 103) :
    ((glm_vec4_addsub (a.map (Named.run π)) (b.map (Named.run π)) (c.map (Named.run π))).map Ctr.val).Exact (glm_vec4_addsub (a.map Named.real) (b.map Named.real) (c.map Named.real)) (i) (K + L + M) := by
  simp only [cglm, V4.map, V4.Exact]
  simp only [V4.On, V4.map] at ha hb hc
  obtain ⟨_, _, _, _⟩ := ha
  obtain ⟨_, _, _, _⟩ := hb
  obtain ⟨_, _, _, _⟩ := hc
  refine ⟨?_, ?_, ?_, ?_⟩ <;> gridc

theorem C79_grid_vec4_subsub (π : Policy) {i : ℤ} {K L M : ℕ} (a : V4 Named) (b : V4 Named) (c : V4 Named)
    (ha : (a.map Named.val).On i K) (hb : (b.map Named.val).On i L) (hc : (c.map Named.val).On i M)
    (h : K + L + M ≤ 2 ^ 24) (lo : -149 ≤ i) (hi : i ≤ 103) :
    ((glm_vec4_subsub (a.map (Named.run π)) (b.map (Named.run π)) (c.map (Named.run π))).map Ctr.val).Exact (glm_vec4_subsub (a.map Named.real) (b.map Named.real) (c.map Named.real)) (i) (K + L + M) := by
  simp only [cglm, V4.map, V4.Exact]
  simp only [V4.On, V4.map] at ha hb hc
  obtain ⟨_, _, _, _⟩ := ha
  obtain ⟨_, _, _, _⟩ := hb
  obtain ⟨_, _, _, _⟩ := hc
  refine ⟨?_, ?_, ?_, ?_⟩ <;> gridc

theorem C79_grid_vec4_distance2 (π : Policy) {i : ℤ} {K L : ℕ} (a : V4 Named) (b : V4 Named)
    (ha : (a.map Named.val).On i K) (hb : (b.map Named.val).On i L)
    (h : 4 * ((K + L) * (K + L)) ≤ 2 ^ 24) (lo : -149 ≤ i + i) (hi : i + i ≤ 103) :
    (glm_vec4_distance2 (a.map (Named.run π)) (b.map (Named.run π))).val.Exact (glm_vec4_distance2 (a.map Named.real) (b.map Named.real)) (i + i) (4 * ((K + L) * (K + L))) := by
  simp only [cglm, V4.map]
  simp only [V4.On, V4.map] at ha hb
  obtain ⟨_, _, _, _⟩ := ha
  obtain ⟨_, _, _, _⟩ := hb
  have := Nat.le_mul_self (K + L)
  gridc

theorem C79_grid_vec4_hadd (π : Policy) {i : ℤ} {K : ℕ} (v : V4 Named)
    (hv : (v.map Named.val).On i K)
    (h : 4 * K ≤ 2 ^ 24) (lo : -149 ≤ i) (hi : i ≤ 103) :
    (glm_vec4_hadd (v.map (Named.run π))).val.Exact (glm_vec4_hadd (v.map Named.real)) (i) (4 * K) := by
  simp only [cglm, V4.map]
  simp only [V4.On, V4.map] at hv
  obtain ⟨_, _, _, _⟩ := hv
  gridc

theorem C79_grid_vec2_cross (π : Policy) {i j : ℤ} {K L : ℕ} (a : V2 Named) (b : V2 Named)
    (ha : (a.map Named.val).On i K) (hb : (b.map Named.val).On j L)
    (h : 2 * (K * L) ≤ 2 ^ 24) (lo : -149 ≤ i + j) (hi : i + j ≤ 103) :
    (glm_vec2_cross (a.map (Named.run π)) (b.map (Named.run π))).val.Exact (glm_vec2_cross (a.map Named.real) (b.map Named.real)) (i + j) (2 * (K * L)) := by
  simp only [cglm, V2.map]
  simp only [V2.On, V2.map] at ha hb
  obtain ⟨_, _⟩ := ha
  obtain ⟨_, _⟩ := hb
  gridc

theorem C79_grid_vec3_cross (π : Policy) {i j : ℤ} {K L : ℕ} (a : V3 Named) (b : V3 Named)
    (ha : (a.map Named.val).On i K) (hb : (b.map Named.val).On j L)
    (h : 2 * (K * L) ≤ 2 ^ 24) (lo : -149 ≤ i + j) (hi : i + j ≤ 103) :
    ((glm_vec3_cross (a.map (Named.run π)) (b.map (Named.run π))).map Ctr.val).Exact (glm_vec3_cross (a.map Named.real) (b.map Named.real)) (i + j) (2 * (K * L)) := by
  simp only [cglm, V3.map, V3.Exact]
  simp only [V3.On, V3.map] at ha hb
  obtain ⟨_, _, _⟩ := ha
  obtain ⟨_, _, _⟩ := hb
  refine ⟨?_, ?_, ?_⟩ <;> gridc

theorem C79_grid_vec2_complex_mul (π : Policy) {i j : ℤ} {K L : ℕ} (a : V2 Named) (b : V2 Named)
    (ha : (a.map Named.val).On i K) (hb : (b.map Named.val).On j L)
    (h : 2 * (K * L) ≤ 2 ^ 24) (lo : -149 ≤ i + j) (hi : i + j ≤ 103) :
    ((glm_vec2_complex_mul (a.map (Named.run π)) (b.map (Named.run π))).map Ctr.val).Exact (glm_vec2_complex_mul (a.map Named.real) (b.map Named.real)) (i + j) (2 * (K * L)) := by
  simp only [cglm, V2.map, V2.Exact]
  simp only [V2.On, V2.map] at ha hb
  obtain ⟨_, _⟩ := ha
  obtain ⟨_, _⟩ := hb
  refine ⟨?_, ?_⟩ <;> gridc

theorem C79_grid_quat_mul (π : Policy) {i j : ℤ} {K L : ℕ} (p : V4 Named) (q : V4 Named)
    (hp : (p.map Named.val).On i K) (hq : (q.map Named.val).On j L)
    (h : 4 * (K * L) ≤ 2 ^ 24) (lo : -149 ≤ i + j) (hi : i + j ≤ 103) :
    ((glm_quat_mul (p.map (Named.run π)) (q.map (Named.run π))).map Ctr.val).Exact (glm_quat_mul (p.map Named.real) (q.map Named.real)) (i + j) (4 * (K * L)) := by
  simp only [cglm, V4.map, V4.Exact]
  simp only [V4.On, V4.map] at hp hq
  obtain ⟨_, _, _, _⟩ := hp
  obtain ⟨_, _, _, _⟩ := hq
  refine ⟨?_, ?_, ?_, ?_⟩ <;> gridc

theorem C79_grid_quat_dot (π : Policy) {i j : ℤ} {K L : ℕ} (p : V4 Named) (q : V4 Named)
    (hp : (p.map Named.val).On i K) (hq : (q.map Named.val).On j L)
    (h : 4 * (K * L) ≤ 2 ^ 24) (lo : -149 ≤ i + j) (hi : i + j ≤ 103) :
    (glm_quat_dot (p.map (Named.run π)) (q.map (Named.run π))).val.Exact (glm_quat_dot (p.map Named.real) (q.map Named.real)) (i + j) (4 * (K * L)) := by
  simp only [cglm, V4.map]
  simp only [V4.On, V4.map] at hp hq
  obtain ⟨_, _, _, _⟩ := hp
  obtain ⟨_, _, _, _⟩ := hq
  gridc

theorem C79_grid_aabb_center (π : Policy) {i : ℤ} {K : ℕ} (box : M2x3 Named)
    (hbox : (box.map Named.val).On i K)
    (h : 2 * K ≤ 2 ^ 24) (lo : -149 ≤ i - 1) (hi : i ≤ 103) :
    ((glm_aabb_center (box.map (Named.run π))).map Ctr.val).Exact (glm_aabb_center (box.map Named.real)) (i - 1) (2 * K) := by
  simp only [cglm, M2x3.map, V3.map, V3.Exact]
  simp only [M2x3.On, V3.On, M2x3.map, V3.map] at hbox
  obtain ⟨⟨_, _, _⟩, ⟨_, _, _⟩⟩ := hbox
  refine ⟨?_, ?_, ?_⟩ <;> gridc

theorem C79_grid_aabb2d_center (π : Policy) {i : ℤ} {K : ℕ} (box : M2 Named)
    (hbox : (box.map Named.val).On i K)
    (h : 2 * K ≤ 2 ^ 24) (lo : -149 ≤ i - 1) (hi : i ≤ 103) :
    ((glm_aabb2d_center (box.map (Named.run π))).map Ctr.val).Exact (glm_aabb2d_center (box.map Named.real)) (i - 1) (2 * K) := by
  simp only [cglm, M2.map, V2.map, V2.Exact]
  simp only [M2.On, V2.On, M2.map, V2.map] at hbox
  obtain ⟨⟨_, _⟩, ⟨_, _⟩⟩ := hbox
  refine ⟨?_, ?_⟩ <;> gridc

theorem C79_grid_mat2_mulv (π : Policy) {i j : ℤ} {K L : ℕ} (m : M2 Named) (v : V2 Named)
    (hm : (m.map Named.val).On i K) (hv : (v.map Named.val).On j L)
    (h : 2 * (K * L) ≤ 2 ^ 24) (lo : -149 ≤ i + j) (hi : i + j ≤ 103) :
    ((glm_mat2_mulv (m.map (Named.run π)) (v.map (Named.run π))).map Ctr.val).Exact (glm_mat2_mulv (m.map Named.real) (v.map Named.real)) (i + j) (2 * (K * L)) := by
  simp only [cglm, M2.map, V2.map, V2.Exact]
  simp only [M2.On, V2.On, M2.map, V2.map] at hm hv
  obtain ⟨⟨_, _⟩, ⟨_, _⟩⟩ := hm
  obtain ⟨_, _⟩ := hv
  refine ⟨?_, ?_⟩ <;> gridc

theorem C79_grid_mat2_mul (π : Policy) {i j : ℤ} {K L : ℕ} (a : M2 Named) (b : M2 Named)
    (ha : (a.map Named.val).On i K) (hb : (b.map Named.val).On j L)
    (h : 2 * (K * L) ≤ 2 ^ 24) (lo : -149 ≤ i + j) (hi : i + j ≤ 103) :
    ((glm_mat2_mul (a.map (Named.run π)) (b.map (Named.run π))).map Ctr.val).Exact (glm_mat2_mul (a.map Named.real) (b.map Named.real)) (i + j) (2 * (K * L)) := by
  simp only [cglm, M2.map, V2.map, M2.Exact, V2.Exact]
  simp only [M2.On, V2.On, M2.map, V2.map] at ha hb
  obtain ⟨⟨_, _⟩, ⟨_, _⟩⟩ := ha
  obtain ⟨⟨_, _⟩, ⟨_, _⟩⟩ := hb
  refine ⟨⟨?_, ?_⟩, ⟨?_, ?_⟩⟩ <;> gridc

theorem C79_grid_mat2_scale (π : Policy) {i j : ℤ} {K L : ℕ} (m : M2 Named) (s : Named)
    (hm : (m.map Named.val).On i K) (hs : s.val.On j L)
    (h : K * L ≤ 2 ^ 24) (lo : -149 ≤ i + j) (hi : i + j ≤ 103) :
    ((glm_mat2_scale (m.map (Named.run π)) (s.run π)).map Ctr.val).Exact (glm_mat2_scale (m.map Named.real) s.real) (i + j) (K * L) := by
  simp only [cglm, M2.map, V2.map, M2.Exact, V2.Exact]
  simp only [M2.On, V2.On, M2.map, V2.map] at hm
  obtain ⟨⟨_, _⟩, ⟨_, _⟩⟩ := hm
  refine ⟨⟨?_, ?_⟩, ⟨?_, ?_⟩⟩ <;> gridc

theorem C79_grid_mat2_trace (π : Policy) {i : ℤ} {K : ℕ} (m : M2 Named)
    (hm : (m.map Named.val).On i K)
    (h : 2 * K ≤ 2 ^ 24) (lo : -149 ≤ i) (hi : i ≤ 103) :
    (glm_mat2_trace (m.map (Named.run π))).val.Exact (glm_mat2_trace (m.map Named.real)) (i) (2 * K) := by
  simp only [cglm, M2.map, V2.map]
  simp only [M2.On, V2.On, M2.map, V2.map] at hm
  obtain ⟨⟨_, _⟩, ⟨_, _⟩⟩ := hm
  gridc

theorem C79_grid_mat2_rmc (π : Policy) {i j k : ℤ} (r : V2 Named) (m : M2 Named) (c : V2 Named)
    (hr : (r.map Named.val).On i 161) (hm : (m.map Named.val).On j 161) (hc : (c.map Named.val).On k 161)
    (lo : -149 ≤ i + j + k) (hi : i + j + k ≤ 103) (lo' : -149 ≤ j + k) (hi' : j + k ≤ 103) :
    (glm_mat2_rmc (r.map (Named.run π)) (m.map (Named.run π)) (c.map (Named.run π))).val.Exact (glm_mat2_rmc (r.map Named.real) (m.map Named.real) (c.map Named.real)) (i + j + k) (4 * 161 ^ 3) := by
  simp only [cglm, M2.map, V2.map]
  simp only [M2.On, V2.On, M2.map, V2.map] at hr hm hc
  obtain ⟨_, _⟩ := hr
  obtain ⟨⟨_, _⟩, ⟨_, _⟩⟩ := hm
  obtain ⟨_, _⟩ := hc
  gridc

theorem C79_grid_mat3_mulv (π : Policy) {i j : ℤ} {K L : ℕ} (m : M3 Named) (v : V3 Named)
    (hm : (m.map Named.val).On i K) (hv : (v.map Named.val).On j L)
    (h : 3 * (K * L) ≤ 2 ^ 24) (lo : -149 ≤ i + j) (hi : i + j ≤ 103) :
    ((glm_mat3_mulv (m.map (Named.run π)) (v.map (Named.run π))).map Ctr.val).Exact (glm_mat3_mulv (m.map Named.real) (v.map Named.real)) (i + j) (3 * (K * L)) := by
  simp only [cglm, M3.map, V3.map, V3.Exact]
  simp only [M3.On, V3.On, M3.map, V3.map] at hm hv
  obtain ⟨⟨_, _, _⟩, ⟨_, _, _⟩, ⟨_, _, _⟩⟩ := hm
  obtain ⟨_, _, _⟩ := hv
  refine ⟨?_, ?_, ?_⟩ <;> gridc

theorem C79_grid_mat3_mul (π : Policy) {i j : ℤ} {K L : ℕ} (a : M3 Named) (b : M3 Named)
    (ha : (a.map Named.val).On i K) (hb : (b.map Named.val).On j L)
    (h : 3 * (K * L) ≤ 2 ^ 24) (lo : -149 ≤ i + j) (hi : i + j ≤ 103) :
    ((glm_mat3_mul (a.map (Named.run π)) (b.map (Named.run π))).map Ctr.val).Exact (glm_mat3_mul (a.map Named.real) (b.map Named.real)) (i + j) (3 * (K * L)) := by
  simp only [cglm, M3.map, V3.map, M3.Exact, V3.Exact]
  simp only [M3.On, V3.On, M3.map, V3.map] at ha hb
  obtain ⟨⟨_, _, _⟩, ⟨_, _, _⟩, ⟨_, _, _⟩⟩ := ha
  obtain ⟨⟨_, _, _⟩, ⟨_, _, _⟩, ⟨_, _, _⟩⟩ := hb
  refine ⟨⟨?_, ?_, ?_⟩, ⟨?_, ?_, ?_⟩, ⟨?_, ?_, ?_⟩⟩ <;> gridc

theorem C79_grid_mat3_scale (π : Policy) {i j : ℤ} {K L : ℕ} (m : M3 Named) (s : Named)
    (hm : (m.map Named.val).On i K) (hs : s.val.On j L)
    (h : K * L ≤ 2 ^ 24) (lo : -149 ≤ i + j) (hi : i + j ≤ 103) :
    ((glm_mat3_scale (m.map (Named.run π)) (s.run π)).map Ctr.val).Exact (glm_mat3_scale (m.map Named.real) s.real) (i + j) (K * L) := by
  simp only [cglm, M3.map, V3.map, M3.Exact, V3.Exact]
  simp only [M3.On, V3.On, M3.map, V3.map] at hm
  obtain ⟨⟨_, _, _⟩, ⟨_, _, _⟩, ⟨_, _, _⟩⟩ := hm
  refine ⟨⟨?_, ?_, ?_⟩, ⟨?_, ?_, ?_⟩, ⟨?_, ?_, ?_⟩⟩ <;> gridc

theorem C79_grid_mat3_trace (π : Policy) {i : ℤ} {K : ℕ} (m : M3 Named)
    (hm : (m.map Named.val).On i K)
    (h : 3 * K ≤ 2 ^ 24) (lo : -149 ≤ i) (hi : i ≤ 103) :
    (glm_mat3_trace (m.map (Named.run π))).val.Exact (glm_mat3_trace (m.map Named.real)) (i) (3 * K) := by
  simp only [cglm, M3.map, V3.map]
  simp only [M3.On, V3.On, M3.map, V3.map] at hm
  obtain ⟨⟨_, _, _⟩, ⟨_, _, _⟩, ⟨_, _, _⟩⟩ := hm
  gridc

theorem C79_grid_mat3_rmc (π : Policy) {i j k : ℤ} (r : V3 Named) (m : M3 Named) (c : V3 Named)
    (hr : (r.map Named.val).On i 123) (hm : (m.map Named.val).On j 123) (hc : (c.map Named.val).On k 123)
    (lo : -149 ≤ i + j + k) (hi : i + j + k ≤ 103) (lo' : -149 ≤ j + k) (hi' : j + k ≤ 103) :
    (glm_mat3_rmc (r.map (Named.run π)) (m.map (Named.run π)) (c.map (Named.run π))).val.Exact (glm_mat3_rmc (r.map Named.real) (m.map Named.real) (c.map Named.real)) (i + j + k) (9 * 123 ^ 3) := by
  simp only [cglm, M3.map, V3.map]
  simp only [M3.On, V3.On, M3.map, V3.map] at hr hm hc
  obtain ⟨_, _, _⟩ := hr
  obtain ⟨⟨_, _, _⟩, ⟨_, _, _⟩, ⟨_, _, _⟩⟩ := hm
  obtain ⟨_, _, _⟩ := hc
  gridc

theorem C79_grid_mat4_mulv (π : Policy) {i j : ℤ} {K L : ℕ} (m : M4 Named) (v : V4 Named)
    (hm : (m.map Named.val).On i K) (hv : (v.map Named.val).On j L)
    (h : 4 * (K * L) ≤ 2 ^ 24) (lo : -149 ≤ i + j) (hi : i + j ≤ 103) :
    ((glm_mat4_mulv (m.map (Named.run π)) (v.map (Named.run π))).map Ctr.val).Exact (glm_mat4_mulv (m.map Named.real) (v.map Named.real)) (i + j) (4 * (K * L)) := by
  simp only [cglm, M4.map, V4.map, V4.Exact]
  simp only [M4.On, V4.On, M4.map, V4.map] at hm hv
  obtain ⟨⟨_, _, _, _⟩, ⟨_, _, _, _⟩, ⟨_, _, _, _⟩, ⟨_, _, _, _⟩⟩ := hm
  obtain ⟨_, _, _, _⟩ := hv
  refine ⟨?_, ?_, ?_, ?_⟩ <;> gridc

theorem C79_grid_mat4_mul (π : Policy) {i j : ℤ} {K L : ℕ} (a : M4 Named) (b : M4 Named)
    (ha : (a.map Named.val).On i K) (hb : (b.map Named.val).On j L)
    (h : 4 * (K * L) ≤ 2 ^ 24) (lo : -149 ≤ i + j) (hi : i + j ≤ 103) :
    ((glm_mat4_mul (a.map (Named.run π)) (b.map (Named.run π))).map Ctr.val).Exact (glm_mat4_mul (a.map Named.real) (b.map Named.real)) (i + j) (4 * (K * L)) := by
  simp only [cglm, M4.map, V4.map, M4.Exact, V4.Exact]
  simp only [M4.On, V4.On, M4.map, V4.map] at ha hb
  obtain ⟨⟨_, _, _, _⟩, ⟨_, _, _, _⟩, ⟨_, _, _, _⟩, ⟨_, _, _, _⟩⟩ := ha
  obtain ⟨⟨_, _, _, _⟩, ⟨_, _, _, _⟩, ⟨_, _, _, _⟩, ⟨_, _, _, _⟩⟩ := hb
  refine ⟨⟨?_, ?_, ?_, ?_⟩, ⟨?_, ?_, ?_, ?_⟩, ⟨?_, ?_, ?_, ?_⟩, ⟨?_, ?_, ?_, ?_⟩⟩ <;> gridc

theorem C79_grid_mat4_scale (π : Policy) {i j : ℤ} {K L : ℕ} (m : M4 Named) (s : Named)
    (hm : (m.map Named.val).On i K) (hs : s.val.On j L)
    (h : K * L ≤ 2 ^ 24) (lo : -149 ≤ i + j) (hi : i + j ≤ 103) :
    ((glm_mat4_scale (m.map (Named.run π)) (s.run π)).map Ctr.val).Exact (glm_mat4_scale (m.map Named.real) s.real) (i + j) (K * L) := by
  simp only [cglm, M4.map, V4.map, M4.Exact, V4.Exact]
  simp only [M4.On, V4.On, M4.map, V4.map] at hm
  obtain ⟨⟨_, _, _, _⟩, ⟨_, _, _, _⟩, ⟨_, _, _, _⟩, ⟨_, _, _, _⟩⟩ := hm
  refine ⟨⟨?_, ?_, ?_, ?_⟩, ⟨?_, ?_, ?_, ?_⟩, ⟨?_, ?_, ?_, ?_⟩, ⟨?_, ?_, ?_, ?_⟩⟩ <;> gridc

theorem C79_grid_mat4_trace (π : Policy) {i : ℤ} {K : ℕ} (m : M4 Named)
    (hm : (m.map Named.val).On i K)
    (h : 4 * K ≤ 2 ^ 24) (lo : -149 ≤ i) (hi : i ≤ 103) :
    (glm_mat4_trace (m.map (Named.run π))).val.Exact (glm_mat4_trace (m.map Named.real)) (i) (4 * K) := by
  simp only [cglm, M4.map, V4.map]
  simp only [M4.On, V4.On, M4.map, V4.map] at hm
  obtain ⟨⟨_, _, _, _⟩, ⟨_, _, _, _⟩, ⟨_, _, _, _⟩, ⟨_, _, _, _⟩⟩ := hm
  gridc

theorem C79_grid_mat4_rmc (π : Policy) {i j k : ℤ} (r : V4 Named) (m : M4 Named) (c : V4 Named)
    (hr : (r.map Named.val).On i 101) (hm : (m.map Named.val).On j 101) (hc : (c.map Named.val).On k 101)
    (lo : -149 ≤ i + j + k) (hi : i + j + k ≤ 103) (lo' : -149 ≤ j + k) (hi' : j + k ≤ 103) :
    (glm_mat4_rmc (r.map (Named.run π)) (m.map (Named.run π)) (c.map (Named.run π))).val.Exact (glm_mat4_rmc (r.map Named.real) (m.map Named.real) (c.map Named.real)) (i + j + k) (16 * 101 ^ 3) := by
  simp only [cglm, M4.map, V4.map]
  simp only [M4.On, V4.On, M4.map, V4.map] at hr hm hc
  obtain ⟨_, _, _, _⟩ := hr
  obtain ⟨⟨_, _, _, _⟩, ⟨_, _, _, _⟩, ⟨_, _, _, _⟩, ⟨_, _, _, _⟩⟩ := hm
  obtain ⟨_, _, _, _⟩ := hc
  gridc

theorem C79_grid_mat2_det (π : Policy) {i : ℤ} {K : ℕ} (m : M2 Named)
    (hm : (m.map Named.val).On i K)
    (h : 2 * (K * K) ≤ 2 ^ 24) (lo : -149 ≤ i + i) (hi : i + i ≤ 103) :
    (glm_mat2_det (m.map (Named.run π))).val.Exact (glm_mat2_det (m.map Named.real)) (i + i) (2 * (K * K)) := by
  simp only [cglm, M2.map, V2.map]
  simp only [M2.On, V2.On, M2.map, V2.map] at hm
  obtain ⟨⟨_, _⟩, ⟨_, _⟩⟩ := hm
  gridc

theorem C79_grid_mat3_det (π : Policy) {i : ℤ} (m : M3 Named)
    (hm : (m.map Named.val).On i 140)
    (lo : -149 ≤ i + i + i) (hi : i + i + i ≤ 103) (lo' : -149 ≤ i + i) (hi' : i + i ≤ 103) :
    (glm_mat3_det (m.map (Named.run π))).val.Exact (glm_mat3_det (m.map Named.real)) (i + i + i) (6 * 140 ^ 3) := by
  simp only [cglm, M3.map, V3.map]
  simp only [M3.On, V3.On, M3.map, V3.map] at hm
  obtain ⟨⟨_, _, _⟩, ⟨_, _, _⟩, ⟨_, _, _⟩⟩ := hm
  gridc

theorem C79_grid_mat4_det (π : Policy) {i : ℤ} (m : M4 Named)
    (hm : (m.map Named.val).On i 28)
    (lo : -149 ≤ i + i + i + i) (hi : i + i + i + i ≤ 103) (lo' : -149 ≤ i + i + i) (hi' : i + i + i ≤ 103) (lo'' : -149 ≤ i + i) (hi'' : i + i ≤ 103) :
    (glm_mat4_det (m.map (Named.run π))).val.Exact (glm_mat4_det (m.map Named.real)) (i + i + i + i) (24 * 28 ^ 4) := by
  simp only [cglm, M4.map, V4.map]
  simp only [M4.On, V4.On, M4.map, V4.map] at hm
  obtain ⟨⟨_, _, _, _⟩, ⟨_, _, _, _⟩, ⟨_, _, _, _⟩, ⟨_, _, _, _⟩⟩ := hm
  gridc

theorem C79_grid_mat2x3_mulv (π : Policy) {i j : ℤ} {K L : ℕ} (m : M2x3 Named) (v : V2 Named)
    (hm : (m.map Named.val).On i K) (hv : (v.map Named.val).On j L)
    (h : 2 * (K * L) ≤ 2 ^ 24) (lo : -149 ≤ i + j) (hi : i + j ≤ 103) :
    ((glm_mat2x3_mulv (m.map (Named.run π)) (v.map (Named.run π))).map Ctr.val).Exact (glm_mat2x3_mulv (m.map Named.real) (v.map Named.real)) (i + j) (2 * (K * L)) := by
  simp only [cglm, M2x3.map, V2.map, V3.map, V3.Exact]
  simp only [M2x3.On, V2.On, V3.On, M2x3.map, V2.map, V3.map] at hm hv
  obtain ⟨⟨_, _, _⟩, ⟨_, _, _⟩⟩ := hm
  obtain ⟨_, _⟩ := hv
  refine ⟨?_, ?_, ?_⟩ <;> gridc

theorem C79_grid_mat2x3_mul (π : Policy) {i j : ℤ} {K L : ℕ} (a : M2x3 Named) (b : M3x2 Named)
    (ha : (a.map Named.val).On i K) (hb : (b.map Named.val).On j L)
    (h : 2 * (K * L) ≤ 2 ^ 24) (lo : -149 ≤ i + j) (hi : i + j ≤ 103) :
    ((glm_mat2x3_mul (a.map (Named.run π)) (b.map (Named.run π))).map Ctr.val).Exact (glm_mat2x3_mul (a.map Named.real) (b.map Named.real)) (i + j) (2 * (K * L)) := by
  simp only [cglm, M3.map, M2x3.map, M3x2.map, V2.map, V3.map, M3.Exact, V3.Exact]
  simp only [M2x3.On, M3x2.On, V2.On, V3.On, M2x3.map, M3x2.map, V2.map, V3.map] at ha hb
  obtain ⟨⟨_, _, _⟩, ⟨_, _, _⟩⟩ := ha
  obtain ⟨⟨_, _⟩, ⟨_, _⟩, ⟨_, _⟩⟩ := hb
  refine ⟨⟨?_, ?_, ?_⟩, ⟨?_, ?_, ?_⟩, ⟨?_, ?_, ?_⟩⟩ <;> gridc

theorem C79_grid_mat2x4_mulv (π : Policy) {i j : ℤ} {K L : ℕ} (m : M2x4 Named) (v : V2 Named)
    (hm : (m.map Named.val).On i K) (hv : (v.map Named.val).On j L)
    (h : 2 * (K * L) ≤ 2 ^ 24) (lo : -149 ≤ i + j) (hi : i + j ≤ 103) :
    ((glm_mat2x4_mulv (m.map (Named.run π)) (v.map (Named.run π))).map Ctr.val).Exact (glm_mat2x4_mulv (m.map Named.real) (v.map Named.real)) (i + j) (2 * (K * L)) := by
  simp only [cglm, M2x4.map, V2.map, V4.map, V4.Exact]
  simp only [M2x4.On, V2.On, V4.On, M2x4.map, V2.map, V4.map] at hm hv
  obtain ⟨⟨_, _, _, _⟩, ⟨_, _, _, _⟩⟩ := hm
  obtain ⟨_, _⟩ := hv
  refine ⟨?_, ?_, ?_, ?_⟩ <;> gridc

theorem C79_grid_mat2x4_mul (π : Policy) {i j : ℤ} {K L : ℕ} (a : M2x4 Named) (b : M4x2 Named)
    (ha : (a.map Named.val).On i K) (hb : (b.map Named.val).On j L)
    (h : 2 * (K * L) ≤ 2 ^ 24) (lo : -149 ≤ i + j) (hi : i + j ≤ 103) :
    ((glm_mat2x4_mul (a.map (Named.run π)) (b.map (Named.run π))).map Ctr.val).Exact (glm_mat2x4_mul (a.map Named.real) (b.map Named.real)) (i + j) (2 * (K * L)) := by
  simp only [cglm, M4.map, M2x4.map, M4x2.map, V2.map, V4.map, M4.Exact, V4.Exact]
  simp only [M2x4.On, M4x2.On, V2.On, V4.On, M2x4.map, M4x2.map, V2.map, V4.map] at ha hb
  obtain ⟨⟨_, _, _, _⟩, ⟨_, _, _, _⟩⟩ := ha
  obtain ⟨⟨_, _⟩, ⟨_, _⟩, ⟨_, _⟩, ⟨_, _⟩⟩ := hb
  refine ⟨⟨?_, ?_, ?_, ?_⟩, ⟨?_, ?_, ?_, ?_⟩, ⟨?_, ?_, ?_, ?_⟩, ⟨?_, ?_, ?_, ?_⟩⟩ <;> gridc

theorem C79_grid_mat3x2_mulv (π : Policy) {i j : ℤ} {K L : ℕ} (m : M3x2 Named) (v : V3 Named)
    (hm : (m.map Named.val).On i K) (hv : (v.map Named.val).On j L)
    (h : 3 * (K * L) ≤ 2 ^ 24) (lo : -149 ≤ i + j) (hi : i + j ≤ 103) :
    ((glm_mat3x2_mulv (m.map (Named.run π)) (v.map (Named.run π))).map Ctr.val).Exact (glm_mat3x2_mulv (m.map Named.real) (v.map Named.real)) (i + j) (3 * (K * L)) := by
  simp only [cglm, M3x2.map, V2.map, V3.map, V2.Exact]
  simp only [M3x2.On, V2.On, V3.On, M3x2.map, V2.map, V3.map] at hm hv
  obtain ⟨⟨_, _⟩, ⟨_, _⟩, ⟨_, _⟩⟩ := hm
  obtain ⟨_, _, _⟩ := hv
  refine ⟨?_, ?_⟩ <;> gridc

theorem C79_grid_mat3x2_mul (π : Policy) {i j : ℤ} {K L : ℕ} (a : M3x2 Named) (b : M2x3 Named)
    (ha : (a.map Named.val).On i K) (hb : (b.map Named.val).On j L)
    (h : 3 * (K * L) ≤ 2 ^ 24) (lo : -149 ≤ i + j) (hi : i + j ≤ 103) :
    ((glm_mat3x2_mul (a.map (Named.run π)) (b.map (Named.run π))).map Ctr.val).Exact (glm_mat3x2_mul (a.map Named.real) (b.map Named.real)) (i + j) (3 * (K * L)) := by
  simp only [cglm, M2.map, M2x3.map, M3x2.map, V2.map, V3.map, M2.Exact, V2.Exact]
  simp only [M2x3.On, M3x2.On, V2.On, V3.On, M2x3.map, M3x2.map, V2.map, V3.map] at ha hb
  obtain ⟨⟨_, _⟩, ⟨_, _⟩, ⟨_, _⟩⟩ := ha
  obtain ⟨⟨_, _, _⟩, ⟨_, _, _⟩⟩ := hb
  refine ⟨⟨?_, ?_⟩, ⟨?_, ?_⟩⟩ <;> gridc

theorem C79_grid_mat3x4_mulv (π : Policy) {i j : ℤ} {K L : ℕ} (m : M3x4 Named) (v : V3 Named)
    (hm : (m.map Named.val).On i K) (hv : (v.map Named.val).On j L)
    (h : 3 * (K * L) ≤ 2 ^ 24) (lo : -149 ≤ i + j) (hi : i + j ≤ 103) :
    ((glm_mat3x4_mulv (m.map (Named.run π)) (v.map (Named.run π))).map Ctr.val).Exact (glm_mat3x4_mulv (m.map Named.real) (v.map Named.real)) (i + j) (3 * (K * L)) := by
  simp only [cglm, M3x4.map, V3.map, V4.map, V4.Exact]
  simp only [M3x4.On, V3.On, V4.On, M3x4.map, V3.map, V4.map] at hm hv
  obtain ⟨⟨_, _, _, _⟩, ⟨_, _, _, _⟩, ⟨_, _, _, _⟩⟩ := hm
  obtain ⟨_, _, _⟩ := hv
  refine ⟨?_, ?_, ?_, ?_⟩ <;> gridc

theorem C79_grid_mat3x4_mul (π : Policy) {i j : ℤ} {K L : ℕ} (a : M3x4 Named) (b : M4x3 Named)
    (ha : (a.map Named.val).On i K) (hb : (b.map Named.val).On j L)
    (h : 3 * (K * L) ≤ 2 ^ 24) (lo : -149 ≤ i + j) (hi : i + j ≤ 103) :
    ((glm_mat3x4_mul (a.map (Named.run π)) (b.map (Named.run π))).map Ctr.val).Exact (glm_mat3x4_mul (a.map Named.real) (b.map Named.real)) (i + j) (3 * (K * L)) := by
  simp only [cglm, M4.map, M3x4.map, M4x3.map, V3.map, V4.map, M4.Exact, V4.Exact]
  simp only [M3x4.On, M4x3.On, V3.On, V4.On, M3x4.map, M4x3.map, V3.map, V4.map] at ha hb
  obtain ⟨⟨_, _, _, _⟩, ⟨_, _, _, _⟩, ⟨_, _, _, _⟩⟩ := ha
  obtain ⟨⟨_, _, _⟩, ⟨_, _, _⟩, ⟨_, _, _⟩, ⟨_, _, _⟩⟩ := hb
  refine ⟨⟨?_, ?_, ?_, ?_⟩, ⟨?_, ?_, ?_, ?_⟩, ⟨?_, ?_, ?_, ?_⟩, ⟨?_, ?_, ?_, ?_⟩⟩ <;> gridc

theorem C79_grid_mat4x2_mulv (π : Policy) {i j : ℤ} {K L : ℕ} (m : M4x2 Named) (v : V4 Named)
    (hm : (m.map Named.val).On i K) (hv : (v.map Named.val).On j L)
    (h : 4 * (K * L) ≤ 2 ^ 24) (lo : -149 ≤ i + j) (hi : i + j ≤ 103) :
    ((glm_mat4x2_mulv (m.map (Named.run π)) (v.map (Named.run π))).map Ctr.val).Exact (glm_mat4x2_mulv (m.map Named.real) (v.map Named.real)) (i + j) (4 * (K * L)) := by
  simp only [cglm, M4x2.map, V2.map, V4.map, V2.Exact]
  simp only [M4x2.On, V2.On, V4.On, M4x2.map, V2.map, V4.map] at hm hv
  obtain ⟨⟨_, _⟩, ⟨_, _⟩, ⟨_, _⟩, ⟨_, _⟩⟩ := hm
  obtain ⟨_, _, _, _⟩ := hv
  refine ⟨?_, ?_⟩ <;> gridc

theorem C79_grid_mat4x2_mul (π : Policy) {i j : ℤ} {K L : ℕ} (a : M4x2 Named) (b : M2x4 Named)
    (ha : (a.map Named.val).On i K) (hb : (b.map Named.val).On j L)
    (h : 4 * (K * L) ≤ 2 ^ 24) (lo : -149 ≤ i + j) (hi : i + j ≤ 103) :
    ((glm_mat4x2_mul (a.map (Named.run π)) (b.map (Named.run π))).map Ctr.val).Exact (glm_mat4x2_mul (a.map Named.real) (b.map Named.real)) (i + j) (4 * (K * L)) := by
  simp only [cglm, M2.map, M2x4.map, M4x2.map, V2.map, V4.map, M2.Exact, V2.Exact]
  simp only [M2x4.On, M4x2.On, V2.On, V4.On, M2x4.map, M4x2.map, V2.map, V4.map] at ha hb
  obtain ⟨⟨_, _⟩, ⟨_, _⟩, ⟨_, _⟩, ⟨_, _⟩⟩ := ha
  obtain ⟨⟨_, _, _, _⟩, ⟨_, _, _, _⟩⟩ := hb
  refine ⟨⟨?_, ?_⟩, ⟨?_, ?_⟩⟩ <;> gridc

theorem C79_grid_mat4x3_mulv (π : Policy) {i j : ℤ} {K L : ℕ} (m : M4x3 Named) (v : V4 Named)
    (hm : (m.map Named.val).On i K) (hv : (v.map Named.val).On j L)
    (h : 4 * (K * L) ≤ 2 ^ 24) (lo : -149 ≤ i + j) (hi : i + j ≤ 103) :
    ((glm_mat4x3_mulv (m.map (Named.run π)) (v.map (Named.run π))).map Ctr.val).Exact (glm_mat4x3_mulv (m.map Named.real) (v.map Named.real)) (i + j) (4 * (K * L)) := by
  simp only [cglm, M4x3.map, V3.map, V4.map, V3.Exact]
  simp only [M4x3.On, V3.On, V4.On, M4x3.map, V3.map, V4.map] at hm hv
  obtain ⟨⟨_, _, _⟩, ⟨_, _, _⟩, ⟨_, _, _⟩, ⟨_, _, _⟩⟩ := hm
  obtain ⟨_, _, _, _⟩ := hv
  refine ⟨?_, ?_, ?_⟩ <;> gridc

theorem C79_grid_mat4x3_mul (π : Policy) {i j : ℤ} {K L : ℕ} (a : M4x3 Named) (b : M3x4 Named)
    (ha : (a.map Named.val).On i K) (hb : (b.map Named.val).On j L)
    (h : 4 * (K * L) ≤ 2 ^ 24) (lo : -149 ≤ i + j) (hi : i + j ≤ 103) :
    ((glm_mat4x3_mul (a.map (Named.run π)) (b.map (Named.run π))).map Ctr.val).Exact (glm_mat4x3_mul (a.map Named.real) (b.map Named.real)) (i + j) (4 * (K * L)) := by
  simp only [cglm, M3.map, M3x4.map, M4x3.map, V3.map, V4.map, M3.Exact, V3.Exact]
  simp only [M3x4.On, M4x3.On, V3.On, V4.On, M3x4.map, M4x3.map, V3.map, V4.map] at ha hb
  obtain ⟨⟨_, _, _⟩, ⟨_, _, _⟩, ⟨_, _, _⟩, ⟨_, _, _⟩⟩ := ha
  obtain ⟨⟨_, _, _, _⟩, ⟨_, _, _, _⟩, ⟨_, _, _, _⟩⟩ := hb
  refine ⟨⟨?_, ?_, ?_⟩, ⟨?_, ?_, ?_⟩, ⟨?_, ?_, ?_⟩⟩ <;> gridc

theorem C79_grid_mat4_mulv3 (π : Policy) {i j : ℤ} {K L : ℕ} (m : M4 Named) (v : V3 Named) (last : Named)
    (hm : (m.map Named.val).On i K) (hv : (v.map Named.val).On j L) (hlast : last.val.On j L)
    (h : 4 * (K * L) ≤ 2 ^ 24) (lo : -149 ≤ i + j) (hi : i + j ≤ 103) :
    ((glm_mat4_mulv3 (m.map (Named.run π)) (v.map (Named.run π)) (last.run π)).map Ctr.val).Exact (glm_mat4_mulv3 (m.map Named.real) (v.map Named.real) last.real) (i + j) (4 * (K * L)) := by
  simp only [cglm, M4.map, V3.map, V4.map, V3.Exact]
  simp only [M4.On, V3.On, V4.On, M4.map, V3.map, V4.map] at hm hv
  obtain ⟨⟨_, _, _, _⟩, ⟨_, _, _, _⟩, ⟨_, _, _, _⟩, ⟨_, _, _, _⟩⟩ := hm
  obtain ⟨_, _, _⟩ := hv
  refine ⟨?_, ?_, ?_⟩ <;> gridc

theorem C79_grid_mul (π : Policy) {i j : ℤ} {K L : ℕ} (a : M4 Named) (b : M4 Named)
    (ha : (a.map Named.val).On i K) (hb : (b.map Named.val).On j L)
    (h : 4 * (K * L) ≤ 2 ^ 24) (lo : -149 ≤ i + j) (hi : i + j ≤ 103) :
    ((glm_mul (a.map (Named.run π)) (b.map (Named.run π))).map Ctr.val).Exact (glm_mul (a.map Named.real) (b.map Named.real)) (i + j) (4 * (K * L)) := by
  simp only [cglm, M4.map, V4.map, M4.Exact, V4.Exact]
  simp only [M4.On, V4.On, M4.map, V4.map] at ha hb
  obtain ⟨⟨_, _, _, _⟩, ⟨_, _, _, _⟩, ⟨_, _, _, _⟩, ⟨_, _, _, _⟩⟩ := ha
  obtain ⟨⟨_, _, _, _⟩, ⟨_, _, _, _⟩, ⟨_, _, _, _⟩, ⟨_, _, _, _⟩⟩ := hb
  refine ⟨⟨?_, ?_, ?_, ?_⟩, ⟨?_, ?_, ?_, ?_⟩, ⟨?_, ?_, ?_, ?_⟩, ⟨?_, ?_, ?_, ?_⟩⟩ <;> gridc

theorem C79_grid_mul_rot (π : Policy) {K L : ℕ} (a : M4 Named) (b : M4 Named)
    (ha : (a.map Named.val).On 0 K) (hb : (b.map Named.val).On 0 L)
    (h : 3 * (K * L) + K ≤ 2 ^ 24) :
    ((glm_mul_rot (a.map (Named.run π)) (b.map (Named.run π))).map Ctr.val).Exact (glm_mul_rot (a.map Named.real) (b.map Named.real)) (0) (3 * (K * L) + K) := by
  simp only [cglm, M4.map, V4.map, M4.Exact, V4.Exact]
  simp only [M4.On, V4.On, M4.map, V4.map] at ha hb
  obtain ⟨⟨_, _, _, _⟩, ⟨_, _, _, _⟩, ⟨_, _, _, _⟩, ⟨_, _, _, _⟩⟩ := ha
  obtain ⟨⟨_, _, _, _⟩, ⟨_, _, _, _⟩, ⟨_, _, _, _⟩, ⟨_, _, _, _⟩⟩ := hb
  refine ⟨⟨?_, ?_, ?_, ?_⟩, ⟨?_, ?_, ?_, ?_⟩, ⟨?_, ?_, ?_, ?_⟩, ⟨?_, ?_, ?_, ?_⟩⟩ <;> gridc

theorem C79_grid_translate (π : Policy) {K L : ℕ} (m : M4 Named) (v : V3 Named)
    (hm : (m.map Named.val).On 0 K) (hv : (v.map Named.val).On 0 L)
    (h : 3 * (K * L) + K ≤ 2 ^ 24) :
    ((glm_translate (m.map (Named.run π)) (v.map (Named.run π))).map Ctr.val).Exact (glm_translate (m.map Named.real) (v.map Named.real)) (0) (3 * (K * L) + K) := by
  simp only [cglm, M4.map, V3.map, V4.map, M4.Exact, V4.Exact]
  simp only [M4.On, V3.On, V4.On, M4.map, V3.map, V4.map] at hm hv
  obtain ⟨⟨_, _, _, _⟩, ⟨_, _, _, _⟩, ⟨_, _, _, _⟩, ⟨_, _, _, _⟩⟩ := hm
  obtain ⟨_, _, _⟩ := hv
  refine ⟨⟨?_, ?_, ?_, ?_⟩, ⟨?_, ?_, ?_, ?_⟩, ⟨?_, ?_, ?_, ?_⟩, ⟨?_, ?_, ?_, ?_⟩⟩ <;> gridc

theorem C79_grid_translate_to (π : Policy) {K L : ℕ} (m : M4 Named) (v : V3 Named)
    (hm : (m.map Named.val).On 0 K) (hv : (v.map Named.val).On 0 L)
    (h : 3 * (K * L) + K ≤ 2 ^ 24) :
    ((glm_translate_to (m.map (Named.run π)) (v.map (Named.run π))).map Ctr.val).Exact (glm_translate_to (m.map Named.real) (v.map Named.real)) (0) (3 * (K * L) + K) := by
  simp only [cglm, M4.map, V3.map, V4.map, M4.Exact, V4.Exact]
  simp only [M4.On, V3.On, V4.On, M4.map, V3.map, V4.map] at hm hv
  obtain ⟨⟨_, _, _, _⟩, ⟨_, _, _, _⟩, ⟨_, _, _, _⟩, ⟨_, _, _, _⟩⟩ := hm
  obtain ⟨_, _, _⟩ := hv
  refine ⟨⟨?_, ?_, ?_, ?_⟩, ⟨?_, ?_, ?_, ?_⟩, ⟨?_, ?_, ?_, ?_⟩, ⟨?_, ?_, ?_, ?_⟩⟩ <;> gridc

theorem C79_grid_translate2d (π : Policy) {K L : ℕ} (m : M3 Named) (v : V2 Named)
    (hm : (m.map Named.val).On 0 K) (hv : (v.map Named.val).On 0 L)
    (h : 2 * (K * L) + K ≤ 2 ^ 24) :
    ((glm_translate2d (m.map (Named.run π)) (v.map (Named.run π))).map Ctr.val).Exact (glm_translate2d (m.map Named.real) (v.map Named.real)) (0) (2 * (K * L) + K) := by
  simp only [cglm, M3.map, V2.map, V3.map, M3.Exact, V3.Exact]
  simp only [M3.On, V2.On, V3.On, M3.map, V2.map, V3.map] at hm hv
  obtain ⟨⟨_, _, _⟩, ⟨_, _, _⟩, ⟨_, _, _⟩⟩ := hm
  obtain ⟨_, _⟩ := hv
  refine ⟨⟨?_, ?_, ?_⟩, ⟨?_, ?_, ?_⟩, ⟨?_, ?_, ?_⟩⟩ <;> gridc

theorem C79_grid_scale_to (π : Policy) {K L : ℕ} (m : M4 Named) (v : V3 Named)
    (hm : (m.map Named.val).On 0 K) (hv : (v.map Named.val).On 0 L)
    (h : K * L + K ≤ 2 ^ 24) :
    ((glm_scale_to (m.map (Named.run π)) (v.map (Named.run π))).map Ctr.val).Exact (glm_scale_to (m.map Named.real) (v.map Named.real)) (0) (K * L + K) := by
  simp only [cglm, M4.map, V3.map, V4.map, M4.Exact, V4.Exact]
  simp only [M4.On, V3.On, V4.On, M4.map, V3.map, V4.map] at hm hv
  obtain ⟨⟨_, _, _, _⟩, ⟨_, _, _, _⟩, ⟨_, _, _, _⟩, ⟨_, _, _, _⟩⟩ := hm
  obtain ⟨_, _, _⟩ := hv
  refine ⟨⟨?_, ?_, ?_, ?_⟩, ⟨?_, ?_, ?_, ?_⟩, ⟨?_, ?_, ?_, ?_⟩, ⟨?_, ?_, ?_, ?_⟩⟩ <;> gridc

end Cglm
