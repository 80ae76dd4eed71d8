import Verif.F32Simd
import Verif.Gen
/-!
# C76: exact results on small integers and fixed-point numbers: vectors

`f.On e K` says: the binary32 number `f` is finite and equal to `n * 2^e` for an integer `n` with `|n| ≤ K`; with `e = 0`
these are the integers up to `K`.  `f.Exact x e K` says: `f` is finite, its value is exactly the real number `x`, and it
is again on the grid `2^e` within `K`.  In every theorem `x` is the same C function evaluated over ℝ on the values of
the arguments.  Written by `tools/gridthms.py`.
-/
set_option linter.unusedSectionVars false
set_option linter.unusedSimpArgs false
open Cglm F32
namespace Cglm
variable [Libm]

theorem C76_vec2_add {i : ℤ} {K L : ℕ} (a : V2 F32) (b : V2 F32)
    (ha : a.On i K) (hb : b.On i L)
    (h : K + L ≤ 2 ^ 24) (lo : -149 ≤ i) (hi : i ≤ 103) :
    (glm_vec2_add a b).Exact (glm_vec2_add (a.map toReal) (b.map toReal)) (i) (K + L) := by
  simp only [cglm, V2.map, V2.Exact]
  simp only [V2.On] at ha hb
  obtain ⟨_, _⟩ := ha
  obtain ⟨_, _⟩ := hb
  refine ⟨?_, ?_⟩ <;> grid

theorem C76_vec2_adds {i : ℤ} {K L : ℕ} (v : V2 F32) (s : F32)
    (hv : v.On i K) (hs : s.On i L)
    (h : K + L ≤ 2 ^ 24) (lo : -149 ≤ i) (hi : i ≤ 103) :
    (glm_vec2_adds v s).Exact (glm_vec2_adds (v.map toReal) (toReal s)) (i) (K + L) := by
  simp only [cglm, V2.map, V2.Exact]
  simp only [V2.On] at hv
  obtain ⟨_, _⟩ := hv
  refine ⟨?_, ?_⟩ <;> grid

theorem C76_vec2_sub {i : ℤ} {K L : ℕ} (a : V2 F32) (b : V2 F32)
    (ha : a.On i K) (hb : b.On i L)
    (h : K + L ≤ 2 ^ 24) (lo : -149 ≤ i) (hi : i ≤ 103) :
    (glm_vec2_sub a b).Exact (glm_vec2_sub (a.map toReal) (b.map toReal)) (i) (K + L) := by
  simp only [cglm, V2.map, V2.Exact]
  simp only [V2.On] at ha hb
  obtain ⟨_, _⟩ := ha
  obtain ⟨_, _⟩ := hb
  refine ⟨?_, ?_⟩ <;> grid

theorem C76_vec2_subs {i : ℤ} {K L : ℕ} (v : V2 F32) (s : F32)
    (hv : v.On i K) (hs : s.On i L)
    (h : K + L ≤ 2 ^ 24) (lo : -149 ≤ i) (hi : i ≤ 103) :
    (glm_vec2_subs v s).Exact (glm_vec2_subs (v.map toReal) (toReal s)) (i) (K + L) := by
  simp only [cglm, V2.map, V2.Exact]
  simp only [V2.On] at hv
  obtain ⟨_, _⟩ := hv
  refine ⟨?_, ?_⟩ <;> grid

theorem C76_vec2_mul {i j : ℤ} {K L : ℕ} (a : V2 F32) (b : V2 F32)
    (ha : a.On i K) (hb : b.On j L)
    (h : K * L ≤ 2 ^ 24) (lo : -149 ≤ i + j) (hi : i + j ≤ 103) :
    (glm_vec2_mul a b).Exact (glm_vec2_mul (a.map toReal) (b.map toReal)) (i + j) (K * L) := by
  simp only [cglm, V2.map, V2.Exact]
  simp only [V2.On] at ha hb
  obtain ⟨_, _⟩ := ha
  obtain ⟨_, _⟩ := hb
  refine ⟨?_, ?_⟩ <;> grid

theorem C76_vec2_scale {i j : ℤ} {K L : ℕ} (v : V2 F32) (s : F32)
    (hv : v.On i K) (hs : s.On j L)
    (h : K * L ≤ 2 ^ 24) (lo : -149 ≤ i + j) (hi : i + j ≤ 103) :
    (glm_vec2_scale v s).Exact (glm_vec2_scale (v.map toReal) (toReal s)) (i + j) (K * L) := by
  simp only [cglm, V2.map, V2.Exact]
  simp only [V2.On] at hv
  obtain ⟨_, _⟩ := hv
  refine ⟨?_, ?_⟩ <;> grid

theorem C76_vec2_dot {i j : ℤ} {K L : ℕ} (a : V2 F32) (b : V2 F32)
    (ha : a.On i K) (hb : b.On j L)
    (h : 2 * (K * L) ≤ 2 ^ 24) (lo : -149 ≤ i + j) (hi : i + j ≤ 103) :
    (glm_vec2_dot a b).Exact (glm_vec2_dot (a.map toReal) (b.map toReal)) (i + j) (2 * (K * L)) := by
  simp only [cglm, V2.map]
  simp only [V2.On] at ha hb
  obtain ⟨_, _⟩ := ha
  obtain ⟨_, _⟩ := hb
  grid

theorem C76_vec2_norm2 {i : ℤ} {K : ℕ} (v : V2 F32)
    (hv : v.On i K)
    (h : 2 * (K * K) ≤ 2 ^ 24) (lo : -149 ≤ i + i) (hi : i + i ≤ 103) :
    (glm_vec2_norm2 v).Exact (glm_vec2_norm2 (v.map toReal)) (i + i) (2 * (K * K)) := by
  simp only [cglm, V2.map]
  simp only [V2.On] at hv
  obtain ⟨_, _⟩ := hv
  grid

theorem C76_vec2_muladd {i j : ℤ} {K L M : ℕ} (a : V2 F32) (b : V2 F32) (c : V2 F32)
    (ha : a.On i K) (hb : b.On j L) (hc : c.On (i + j) M)
    (h : K * L + M ≤ 2 ^ 24) (lo : -149 ≤ i + j) (hi : i + j ≤ 103) :
    (glm_vec2_muladd a b c).Exact (glm_vec2_muladd (a.map toReal) (b.map toReal) (c.map toReal)) (i + j) (K * L + M) := by
  simp only [cglm, V2.map, V2.Exact]
  simp only [V2.On] at ha hb hc
  obtain ⟨_, _⟩ := ha
  obtain ⟨_, _⟩ := hb
  obtain ⟨_, _⟩ := hc
  refine ⟨?_, ?_⟩ <;> grid

theorem C76_vec2_muladds {i j : ℤ} {K L M : ℕ} (a : V2 F32) (s : F32) (c : V2 F32)
    (ha : a.On i K) (hs : s.On j L) (hc : c.On (i + j) M)
    (h : K * L + M ≤ 2 ^ 24) (lo : -149 ≤ i + j) (hi : i + j ≤ 103) :
    (glm_vec2_muladds a s c).Exact (glm_vec2_muladds (a.map toReal) (toReal s) (c.map toReal)) (i + j) (K * L + M) := by
  simp only [cglm, V2.map, V2.Exact]
  simp only [V2.On] at ha hc
  obtain ⟨_, _⟩ := ha
  obtain ⟨_, _⟩ := hc
  refine ⟨?_, ?_⟩ <;> grid

theorem C76_vec2_mulsub {i j : ℤ} {K L M : ℕ} (a : V2 F32) (b : V2 F32) (c : V2 F32)
    (ha : a.On i K) (hb : b.On j L) (hc : c.On (i + j) M)
    (h : K * L + M ≤ 2 ^ 24) (lo : -149 ≤ i + j) (hi : i + j ≤ 103) :
    (glm_vec2_mulsub a b c).Exact (glm_vec2_mulsub (a.map toReal) (b.map toReal) (c.map toReal)) (i + j) (K * L + M) := by
  simp only [cglm, V2.map, V2.Exact]
  simp only [V2.On] at ha hb hc
  obtain ⟨_, _⟩ := ha
  obtain ⟨_, _⟩ := hb
  obtain ⟨_, _⟩ := hc
  refine ⟨?_, ?_⟩ <;> grid

theorem C76_vec2_mulsubs {i j : ℤ} {K L M : ℕ} (a : V2 F32) (s : F32) (c : V2 F32)
    (ha : a.On i K) (hs : s.On j L) (hc : c.On (i + j) M)
    (h : K * L + M ≤ 2 ^ 24) (lo : -149 ≤ i + j) (hi : i + j ≤ 103) :
    (glm_vec2_mulsubs a s c).Exact (glm_vec2_mulsubs (a.map toReal) (toReal s) (c.map toReal)) (i + j) (K * L + M) := by
  simp only [cglm, V2.map, V2.Exact]
  simp only [V2.On] at ha hc
  obtain ⟨_, _⟩ := ha
  obtain ⟨_, _⟩ := hc
  refine ⟨?_, ?_⟩ <;> grid

theorem C76_vec2_addadd {i : ℤ} {K L M : ℕ} (a : V2 F32) (b : V2 F32) (c : V2 F32)
    (ha : a.On i K) (hb : b.On i L) (hc : c.On i M)
    (h : K + L + M ≤ 2 ^ 24) (lo : -149 ≤ i) (hi : i ≤ 103) :
    (glm_vec2_addadd a b c).Exact (glm_vec2_addadd (a.map toReal) (b.map toReal) (c.map toReal)) (i) (K + L + M) := by
  simp only [cglm, V2.map, V2.Exact]
  simp only [V2.On] at ha hb hc
  obtain ⟨_, _⟩ := ha
  obtain ⟨_, _⟩ := hb
  obtain ⟨_, _⟩ := hc
  refine ⟨?_, ?_⟩ <;> grid

theorem C76_vec2_subadd {i : ℤ} {K L M : ℕ} (a : V2 F32) (b : V2 F32) (c : V2 F32)
    (ha : a.On i K) (hb : b.On i L) (hc : c.On i M)
    (h : K + L + M ≤ 2 ^ 24) (lo : -149 ≤ i) (hi : i ≤ 103) :
    (glm_vec2_subadd a b c).Exact (glm_vec2_subadd (a.map toReal) (b.map toReal) (c.map toReal)) (i) (K + L + M) := by
  simp only [cglm, V2.map, V2.Exact]
  simp only [V2.On] at ha hb hc
  obtain ⟨_, _⟩ := ha
  obtain ⟨_, _⟩ := hb
  obtain ⟨_, _⟩ := hc
  refine ⟨?_, ?_⟩ <;> grid

theorem C76_vec2_addsub {i : ℤ} {K L M : ℕ} (a : V2 F32) (b : V2 F32) (c : V2 F32)
    (ha : a.On i K) (hb : b.On i L) (hc : c.On i M)
    (h : K + L + M ≤ 2 ^ 24) (lo : -149 ≤ i) (hi : i ≤ 103) :
    (glm_vec2_addsub a b c).Exact (glm_vec2_addsub (a.map toReal) (b.map toReal) (c.map toReal)) (i) (K + L + M) := by
  simp only [cglm, V2.map, V2.Exact]
  simp only [V2.On] at ha hb hc
  obtain ⟨_, _⟩ := ha
  obtain ⟨_, _⟩ := hb
  obtain ⟨_, _⟩ := hc
  refine ⟨?_, ?_⟩ <;> grid

theorem C76_vec2_subsub {i : ℤ} {K L M : ℕ} (a : V2 F32) (b : V2 F32) (c : V2 F32)
    (ha : a.On i K) (hb : b.On i L) (hc : c.On i M)
    (h : K + L + M ≤ 2 ^ 24) (lo : -149 ≤ i) (hi : i ≤ 103) :
    (glm_vec2_subsub a b c).Exact (glm_vec2_subsub (a.map toReal) (b.map toReal) (c.map toReal)) (i) (K + L + M) := by
  simp only [cglm, V2.map, V2.Exact]
  simp only [V2.On] at ha hb hc
  obtain ⟨_, _⟩ := ha
  obtain ⟨_, _⟩ := hb
  obtain ⟨_, _⟩ := hc
  refine ⟨?_, ?_⟩ <;> grid

theorem C76_vec2_center {i : ℤ} {K L : ℕ} (a : V2 F32) (b : V2 F32)
    (ha : a.On i K) (hb : b.On i L)
    (h : K + L ≤ 2 ^ 24) (lo : -149 ≤ i - 1) (hi : i ≤ 103) :
    (glm_vec2_center a b).Exact (glm_vec2_center (a.map toReal) (b.map toReal)) (i - 1) (K + L) := by
  simp only [cglm, V2.map, V2.Exact]
  simp only [V2.On] at ha hb
  obtain ⟨_, _⟩ := ha
  obtain ⟨_, _⟩ := hb
  refine ⟨?_, ?_⟩ <;> grid

theorem C76_vec2_distance2 {i : ℤ} {K L : ℕ} (a : V2 F32) (b : V2 F32)
    (ha : a.On i K) (hb : b.On i L)
    (h : 2 * ((L + K) * (L + K)) ≤ 2 ^ 24) (lo : -149 ≤ i + i) (hi : i + i ≤ 103) :
    (glm_vec2_distance2 a b).Exact (glm_vec2_distance2 (a.map toReal) (b.map toReal)) (i + i) (2 * ((L + K) * (L + K))) := by
  simp only [cglm, V2.map]
  simp only [V2.On] at ha hb
  obtain ⟨_, _⟩ := ha
  obtain ⟨_, _⟩ := hb
  have := Nat.le_mul_self (L + K)
  grid

theorem C76_vec3_add {i : ℤ} {K L : ℕ} (a : V3 F32) (b : V3 F32)
    (ha : a.On i K) (hb : b.On i L)
    (h : K + L ≤ 2 ^ 24) (lo : -149 ≤ i) (hi : i ≤ 103) :
    (glm_vec3_add a b).Exact (glm_vec3_add (a.map toReal) (b.map toReal)) (i) (K + L) := by
  simp only [cglm, V3.map, V3.Exact]
  simp only [V3.On] at ha hb
  obtain ⟨_, _, _⟩ := ha
  obtain ⟨_, _, _⟩ := hb
  refine ⟨?_, ?_, ?_⟩ <;> grid

theorem C76_vec3_adds {i : ℤ} {K L : ℕ} (v : V3 F32) (s : F32)
    (hv : v.On i K) (hs : s.On i L)
    (h : K + L ≤ 2 ^ 24) (lo : -149 ≤ i) (hi : i ≤ 103) :
    (glm_vec3_adds v s).Exact (glm_vec3_adds (v.map toReal) (toReal s)) (i) (K + L) := by
  simp only [cglm, V3.map, V3.Exact]
  simp only [V3.On] at hv
  obtain ⟨_, _, _⟩ := hv
  refine ⟨?_, ?_, ?_⟩ <;> grid

theorem C76_vec3_sub {i : ℤ} {K L : ℕ} (a : V3 F32) (b : V3 F32)
    (ha : a.On i K) (hb : b.On i L)
    (h : K + L ≤ 2 ^ 24) (lo : -149 ≤ i) (hi : i ≤ 103) :
    (glm_vec3_sub a b).Exact (glm_vec3_sub (a.map toReal) (b.map toReal)) (i) (K + L) := by
  simp only [cglm, V3.map, V3.Exact]
  simp only [V3.On] at ha hb
  obtain ⟨_, _, _⟩ := ha
  obtain ⟨_, _, _⟩ := hb
  refine ⟨?_, ?_, ?_⟩ <;> grid

theorem C76_vec3_subs {i : ℤ} {K L : ℕ} (v : V3 F32) (s : F32)
    (hv : v.On i K) (hs : s.On i L)
    (h : K + L ≤ 2 ^ 24) (lo : -149 ≤ i) (hi : i ≤ 103) :
    (glm_vec3_subs v s).Exact (glm_vec3_subs (v.map toReal) (toReal s)) (i) (K + L) := by
  simp only [cglm, V3.map, V3.Exact]
  simp only [V3.On] at hv
  obtain ⟨_, _, _⟩ := hv
  refine ⟨?_, ?_, ?_⟩ <;> grid

theorem C76_vec3_mul {i j : ℤ} {K L : ℕ} (a : V3 F32) (b : V3 F32)
    (ha : a.On i K) (hb : b.On j L)
    (h : K * L ≤ 2 ^ 24) (lo : -149 ≤ i + j) (hi : i + j ≤ 103) :
    (glm_vec3_mul a b).Exact (glm_vec3_mul (a.map toReal) (b.map toReal)) (i + j) (K * L) := by
  simp only [cglm, V3.map, V3.Exact]
  simp only [V3.On] at ha hb
  obtain ⟨_, _, _⟩ := ha
  obtain ⟨_, _, _⟩ := hb
  refine ⟨?_, ?_, ?_⟩ <;> grid

theorem C76_vec3_scale {i j : ℤ} {K L : ℕ} (v : V3 F32) (s : F32)
    (hv : v.On i K) (hs : s.On j L)
    (h : K * L ≤ 2 ^ 24) (lo : -149 ≤ i + j) (hi : i + j ≤ 103) :
    (glm_vec3_scale v s).Exact (glm_vec3_scale (v.map toReal) (toReal s)) (i + j) (K * L) := by
  simp only [cglm, V3.map, V3.Exact]
  simp only [V3.On] at hv
  obtain ⟨_, _, _⟩ := hv
  refine ⟨?_, ?_, ?_⟩ <;> grid

theorem C76_vec3_dot {i j : ℤ} {K L : ℕ} (a : V3 F32) (b : V3 F32)
    (ha : a.On i K) (hb : b.On j L)
    (h : 3 * (K * L) ≤ 2 ^ 24) (lo : -149 ≤ i + j) (hi : i + j ≤ 103) :
    (glm_vec3_dot a b).Exact (glm_vec3_dot (a.map toReal) (b.map toReal)) (i + j) (3 * (K * L)) := by
  simp only [cglm, V3.map]
  simp only [V3.On] at ha hb
  obtain ⟨_, _, _⟩ := ha
  obtain ⟨_, _, _⟩ := hb
  grid

theorem C76_vec3_norm2 {i : ℤ} {K : ℕ} (v : V3 F32)
    (hv : v.On i K)
    (h : 3 * (K * K) ≤ 2 ^ 24) (lo : -149 ≤ i + i) (hi : i + i ≤ 103) :
    (glm_vec3_norm2 v).Exact (glm_vec3_norm2 (v.map toReal)) (i + i) (3 * (K * K)) := by
  simp only [cglm, V3.map]
  simp only [V3.On] at hv
  obtain ⟨_, _, _⟩ := hv
  grid

theorem C76_vec3_muladd {i j : ℤ} {K L M : ℕ} (a : V3 F32) (b : V3 F32) (c : V3 F32)
    (ha : a.On i K) (hb : b.On j L) (hc : c.On (i + j) M)
    (h : K * L + M ≤ 2 ^ 24) (lo : -149 ≤ i + j) (hi : i + j ≤ 103) :
    (glm_vec3_muladd a b c).Exact (glm_vec3_muladd (a.map toReal) (b.map toReal) (c.map toReal)) (i + j) (K * L + M) := by
  simp only [cglm, V3.map, V3.Exact]
  simp only [V3.On] at ha hb hc
  obtain ⟨_, _, _⟩ := ha
  obtain ⟨_, _, _⟩ := hb
  obtain ⟨_, _, _⟩ := hc
  refine ⟨?_, ?_, ?_⟩ <;> grid

theorem C76_vec3_muladds {i j : ℤ} {K L M : ℕ} (a : V3 F32) (s : F32) (c : V3 F32)
    (ha : a.On i K) (hs : s.On j L) (hc : c.On (i + j) M)
    (h : K * L + M ≤ 2 ^ 24) (lo : -149 ≤ i + j) (hi : i + j ≤ 103) :
    (glm_vec3_muladds a s c).Exact (glm_vec3_muladds (a.map toReal) (toReal s) (c.map toReal)) (i + j) (K * L + M) := by
  simp only [cglm, V3.map, V3.Exact]
  simp only [V3.On] at ha hc
  obtain ⟨_, _, _⟩ := ha
  obtain ⟨_, _, _⟩ := hc
  refine ⟨?_, ?_, ?_⟩ <;> grid

theorem C76_vec3_mulsub {i j : ℤ} {K L M : ℕ} (a : V3 F32) (b : V3 F32) (c : V3 F32)
    (ha : a.On i K) (hb : b.On j L) (hc : c.On (i + j) M)
    (h : K * L + M ≤ 2 ^ 24) (lo : -149 ≤ i + j) (hi : i + j ≤ 103) :
    (glm_vec3_mulsub a b c).Exact (glm_vec3_mulsub (a.map toReal) (b.map toReal) (c.map toReal)) (i + j) (K * L + M) := by
  simp only [cglm, V3.map, V3.Exact]
  simp only [V3.On] at ha hb hc
  obtain ⟨_, _, _⟩ := ha
  obtain ⟨_, _, _⟩ := hb
  obtain ⟨_, _, _⟩ := hc
  refine ⟨?_, ?_, ?_⟩ <;> grid

theorem C76_vec3_mulsubs {i j : ℤ} {K L M : ℕ} (a : V3 F32) (s : F32) (c : V3 F32)
    (ha : a.On i K) (hs : s.On j L) (hc : c.On (i + j) M)
    (h : K * L + M ≤ 2 ^ 24) (lo : -149 ≤ i + j) (hi : i + j ≤ 103) :
    (glm_vec3_mulsubs a s c).Exact (glm_vec3_mulsubs (a.map toReal) (toReal s) (c.map toReal)) (i + j) (K * L + M) := by
  simp only [cglm, V3.map, V3.Exact]
  simp only [V3.On] at ha hc
  obtain ⟨_, _, _⟩ := ha
  obtain ⟨_, _, _⟩ := hc
  refine ⟨?_, ?_, ?_⟩ <;> grid

theorem C76_vec3_addadd {i : ℤ} {K L M : ℕ} (a : V3 F32) (b : V3 F32) (c : V3 F32)
    (ha : a.On i K) (hb : b.On i L) (hc : c.On i M)
    (h : K + L + M ≤ 2 ^ 24) (lo : -149 ≤ i) (hi : i ≤ 103) :
    (glm_vec3_addadd a b c).Exact (glm_vec3_addadd (a.map toReal) (b.map toReal) (c.map toReal)) (i) (K + L + M) := by
  simp only [cglm, V3.map, V3.Exact]
  simp only [V3.On] at ha hb hc
  obtain ⟨_, _, _⟩ := ha
  obtain ⟨_, _, _⟩ := hb
  obtain ⟨_, _, _⟩ := hc
  refine ⟨?_, ?_, ?_⟩ <;> grid

theorem C76_vec3_subadd {i : ℤ} {K L M : ℕ} (a : V3 F32) (b : V3 F32) (c : V3 F32)
    (ha : a.On i K) (hb : b.On i L) (hc : c.On i M)
    (h : K + L + M ≤ 2 ^ 24) (lo : -149 ≤ i) (hi : i ≤ 103) :
    (glm_vec3_subadd a b c).Exact (glm_vec3_subadd (a.map toReal) (b.map toReal) (c.map toReal)) (i) (K + L + M) := by
  simp only [cglm, V3.map, V3.Exact]
  simp only [V3.On] at ha hb hc
  obtain ⟨_, _, _⟩ := ha
  obtain ⟨_, _, _⟩ := hb
  obtain ⟨_, _, _⟩ := hc
  refine ⟨?_, ?_, ?_⟩ <;> grid

theorem C76_vec3_addsub {i : ℤ} {K L M : ℕ} (a : V3 F32) (b : V3 F32) (c : V3 F32)
    (ha : a.On i K) (hb : b.On i L) (hc : c.On i M)
    (h : K + L + M ≤ 2 ^ 24) (lo : -149 ≤ i) (hi : i ≤ 103) :
    (glm_vec3_addsub a b c).Exact (glm_vec3_addsub (a.map toReal) (b.map toReal) (c.map toReal)) (i) (K + L + M) := by
  simp only [cglm, V3.map, V3.Exact]
  simp only [V3.On] at ha hb hc
  obtain ⟨_, _, _⟩ := ha
  obtain ⟨_, _, _⟩ := hb
  obtain ⟨_, _, _⟩ := hc
  refine ⟨?_, ?_, ?_⟩ <;> grid

theorem C76_vec3_subsub {i : ℤ} {K L M : ℕ} (a : V3 F32) (b : V3 F32) (c : V3 F32)
    (ha : a.On i K) (hb : b.On i L) (hc : c.On i M)
    (h : K + L + M ≤ 2 ^ 24) (lo : -149 ≤ i) (hi : i ≤ 103) :
    (glm_vec3_subsub a b c).Exact (glm_vec3_subsub (a.map toReal) (b.map toReal) (c.map toReal)) (i) (K + L + M) := by
  simp only [cglm, V3.map, V3.Exact]
  simp only [V3.On] at ha hb hc
  obtain ⟨_, _, _⟩ := ha
  obtain ⟨_, _, _⟩ := hb
  obtain ⟨_, _, _⟩ := hc
  refine ⟨?_, ?_, ?_⟩ <;> grid

theorem C76_vec3_center {i : ℤ} {K L : ℕ} (a : V3 F32) (b : V3 F32)
    (ha : a.On i K) (hb : b.On i L)
    (h : K + L ≤ 2 ^ 24) (lo : -149 ≤ i - 1) (hi : i ≤ 103) :
    (glm_vec3_center a b).Exact (glm_vec3_center (a.map toReal) (b.map toReal)) (i - 1) (K + L) := by
  simp only [cglm, V3.map, V3.Exact]
  simp only [V3.On] at ha hb
  obtain ⟨_, _, _⟩ := ha
  obtain ⟨_, _, _⟩ := hb
  refine ⟨?_, ?_, ?_⟩ <;> grid

theorem C76_vec3_distance2 {i : ℤ} {K L : ℕ} (a : V3 F32) (b : V3 F32)
    (ha : a.On i K) (hb : b.On i L)
    (h : 3 * ((K + L) * (K + L)) ≤ 2 ^ 24) (lo : -149 ≤ i + i) (hi : i + i ≤ 103) :
    (glm_vec3_distance2 a b).Exact (glm_vec3_distance2 (a.map toReal) (b.map toReal)) (i + i) (3 * ((K + L) * (K + L))) := by
  simp only [cglm, V3.map]
  simp only [V3.On] at ha hb
  obtain ⟨_, _, _⟩ := ha
  obtain ⟨_, _, _⟩ := hb
  have := Nat.le_mul_self (K + L)
  grid

theorem C76_vec3_hadd {i : ℤ} {K : ℕ} (v : V3 F32)
    (hv : v.On i K)
    (h : 3 * K ≤ 2 ^ 24) (lo : -149 ≤ i) (hi : i ≤ 103) :
    (glm_vec3_hadd v).Exact (glm_vec3_hadd (v.map toReal)) (i) (3 * K) := by
  simp only [cglm, V3.map]
  simp only [V3.On] at hv
  obtain ⟨_, _, _⟩ := hv
  grid

theorem C76_vec4_add {i : ℤ} {K L : ℕ} (a : V4 F32) (b : V4 F32)
    (ha : a.On i K) (hb : b.On i L)
    (h : K + L ≤ 2 ^ 24) (lo : -149 ≤ i) (hi : i ≤ 103) :
    (glm_vec4_add a b).Exact (glm_vec4_add (a.map toReal) (b.map toReal)) (i) (K + L) := by
  simp only [cglm, V4.map, V4.Exact]
  simp only [V4.On] at ha hb
  obtain ⟨_, _, _, _⟩ := ha
  obtain ⟨_, _, _, _⟩ := hb
  refine ⟨?_, ?_, ?_, ?_⟩ <;> grid

theorem C76_vec4_adds {i : ℤ} {K L : ℕ} (v : V4 F32) (s : F32)
    (hv : v.On i K) (hs : s.On i L)
    (h : K + L ≤ 2 ^ 24) (lo : -149 ≤ i) (hi : i ≤ 103) :
    (glm_vec4_adds v s).Exact (glm_vec4_adds (v.map toReal) (toReal s)) (i) (K + L) := by
  simp only [cglm, V4.map, V4.Exact]
  simp only [V4.On] at hv
  obtain ⟨_, _, _, _⟩ := hv
  refine ⟨?_, ?_, ?_, ?_⟩ <;> grid

theorem C76_vec4_sub {i : ℤ} {K L : ℕ} (a : V4 F32) (b : V4 F32)
    (ha : a.On i K) (hb : b.On i L)
    (h : K + L ≤ 2 ^ 24) (lo : -149 ≤ i) (hi : i ≤ 103) :
    (glm_vec4_sub a b).Exact (glm_vec4_sub (a.map toReal) (b.map toReal)) (i) (K + L) := by
  simp only [cglm, V4.map, V4.Exact]
  simp only [V4.On] at ha hb
  obtain ⟨_, _, _, _⟩ := ha
  obtain ⟨_, _, _, _⟩ := hb
  refine ⟨?_, ?_, ?_, ?_⟩ <;> grid

theorem C76_vec4_subs {i : ℤ} {K L : ℕ} (v : V4 F32) (s : F32)
    (hv : v.On i K) (hs : s.On i L)
    (h : K + L ≤ 2 ^ 24) (lo : -149 ≤ i) (hi : i ≤ 103) :
    (glm_vec4_subs v s).Exact (glm_vec4_subs (v.map toReal) (toReal s)) (i) (K + L) := by
  simp only [cglm, V4.map, V4.Exact]
  simp only [V4.On] at hv
  obtain ⟨_, _, _, _⟩ := hv
  refine ⟨?_, ?_, ?_, ?_⟩ <;> grid

theorem C76_vec4_mul {i j : ℤ} {K L : ℕ} (a : V4 F32) (b : V4 F32)
    (ha : a.On i K) (hb : b.On j L)
    (h : K * L ≤ 2 ^ 24) (lo : -149 ≤ i + j) (hi : i + j ≤ 103) :
    (glm_vec4_mul a b).Exact (glm_vec4_mul (a.map toReal) (b.map toReal)) (i + j) (K * L) := by
  simp only [cglm, V4.map, V4.Exact]
  simp only [V4.On] at ha hb
  obtain ⟨_, _, _, _⟩ := ha
  obtain ⟨_, _, _, _⟩ := hb
  refine ⟨?_, ?_, ?_, ?_⟩ <;> grid

theorem C76_vec4_scale {i j : ℤ} {K L : ℕ} (v : V4 F32) (s : F32)
    (hv : v.On i K) (hs : s.On j L)
    (h : K * L ≤ 2 ^ 24) (lo : -149 ≤ i + j) (hi : i + j ≤ 103) :
    (glm_vec4_scale v s).Exact (glm_vec4_scale (v.map toReal) (toReal s)) (i + j) (K * L) := by
  simp only [cglm, V4.map, V4.Exact]
  simp only [V4.On] at hv
  obtain ⟨_, _, _, _⟩ := hv
  refine ⟨?_, ?_, ?_, ?_⟩ <;> grid

theorem C76_vec4_dot {i j : ℤ} {K L : ℕ} (a : V4 F32) (b : V4 F32)
    (ha : a.On i K) (hb : b.On j L)
    (h : 4 * (K * L) ≤ 2 ^ 24) (lo : -149 ≤ i + j) (hi : i + j ≤ 103) :
    (glm_vec4_dot a b).Exact (glm_vec4_dot (a.map toReal) (b.map toReal)) (i + j) (4 * (K * L)) := by
  simp only [cglm, V4.map]
  simp only [V4.On] at ha hb
  obtain ⟨_, _, _, _⟩ := ha
  obtain ⟨_, _, _, _⟩ := hb
  grid

theorem C76_vec4_norm2 {i : ℤ} {K : ℕ} (v : V4 F32)
    (hv : v.On i K)
    (h : 4 * (K * K) ≤ 2 ^ 24) (lo : -149 ≤ i + i) (hi : i + i ≤ 103) :
    (glm_vec4_norm2 v).Exact (glm_vec4_norm2 (v.map toReal)) (i + i) (4 * (K * K)) := by
  simp only [cglm, V4.map]
  simp only [V4.On] at hv
  obtain ⟨_, _, _, _⟩ := hv
  grid

theorem C76_vec4_muladd {i j : ℤ} {K L M : ℕ} (a : V4 F32) (b : V4 F32) (c : V4 F32)
    (ha : a.On i K) (hb : b.On j L) (hc : c.On (i + j) M)
    (h : K * L + M ≤ 2 ^ 24) (lo : -149 ≤ i + j) (hi : i + j ≤ 103) :
    (glm_vec4_muladd a b c).Exact (glm_vec4_muladd (a.map toReal) (b.map toReal) (c.map toReal)) (i + j) (K * L + M) := by
  simp only [cglm, V4.map, V4.Exact]
  simp only [V4.On] at ha hb hc
  obtain ⟨_, _, _, _⟩ := ha
  obtain ⟨_, _, _, _⟩ := hb
  obtain ⟨_, _, _, _⟩ := hc
  refine ⟨?_, ?_, ?_, ?_⟩ <;> grid

theorem C76_vec4_muladds {i j : ℤ} {K L M : ℕ} (a : V4 F32) (s : F32) (c : V4 F32)
    (ha : a.On i K) (hs : s.On j L) (hc : c.On (i + j) M)
    (h : K * L + M ≤ 2 ^ 24) (lo : -149 ≤ i + j) (hi : i + j ≤ 103) :
    (glm_vec4_muladds a s c).Exact (glm_vec4_muladds (a.map toReal) (toReal s) (c.map toReal)) (i + j) (K * L + M) := by
  simp only [cglm, V4.map, V4.Exact]
  simp only [V4.On] at ha hc
  obtain ⟨_, _, _, _⟩ := ha
  obtain ⟨_, _, _, _⟩ := hc
  refine ⟨?_, ?_, ?_, ?_⟩ <;> grid

theorem C76_vec4_mulsub {i j : ℤ} {K L M : ℕ} (a : V4 F32) (b : V4 F32) (c : V4 F32)
    (ha : a.On i K) (hb : b.On j L) (hc : c.On (i + j) M)
    (h : K * L + M ≤ 2 ^ 24) (lo : -149 ≤ i + j) (hi : i + j ≤ 103) :
    (glm_vec4_mulsub a b c).Exact (glm_vec4_mulsub (a.map toReal) (b.map toReal) (c.map toReal)) (i + j) (K * L + M) := by
  simp only [cglm, V4.map, V4.Exact]
  simp only [V4.On] at ha hb hc
  obtain ⟨_, _, _, _⟩ := ha
  obtain ⟨_, _, _, _⟩ := hb
  obtain ⟨_, _, _, _⟩ := hc
  refine ⟨?_, ?_, ?_, ?_⟩ <;> grid

theorem C76_vec4_mulsubs {i j : ℤ} {K L M : ℕ} (a : V4 F32) (s : F32) (c : V4 F32)
    (ha : a.On i K) (hs : s.On j L) (hc : c.On (i + j) M)
    (h : K * L + M ≤ 2 ^ 24) (lo : -149 ≤ i + j) (hi : i + j ≤ 103) :
    (glm_vec4_mulsubs a s c).Exact (glm_vec4_mulsubs (a.map toReal) (toReal s) (c.map toReal)) (i + j) (K * L + M) := by
  simp only [cglm, V4.map, V4.Exact]
  simp only [V4.On] at ha hc
  obtain ⟨_, _, _, _⟩ := ha
  obtain ⟨_, _, _, _⟩ := hc
  refine ⟨?_, ?_, ?_, ?_⟩ <;> grid

theorem C76_vec4_addadd {i : ℤ} {K L M : ℕ} (a : V4 F32) (b : V4 F32) (c : V4 F32)
    (ha : a.On i K) (hb : b.On i L) (hc : c.On i M)
    (h : K + L + M ≤ 2 ^ 24) (lo : -149 ≤ i) (hi : i ≤ 103) :
    (glm_vec4_addadd a b c).Exact (glm_vec4_addadd (a.map toReal) (b.map toReal) (c.map toReal)) (i) (K + L + M) := by
  simp only [cglm, V4.map, V4.Exact]
  simp only [V4.On] at ha hb hc
  obtain ⟨_, _, _, _⟩ := ha
  obtain ⟨_, _, _, _⟩ := hb
  obtain ⟨_, _, _, _⟩ := hc
  refine ⟨?_, ?_, ?_, ?_⟩ <;> grid

theorem C76_vec4_subadd {i : ℤ} {K L M : ℕ} (a : V4 F32) (b : V4 F32) (c : V4 F32)
    (ha : a.On i K) (hb : b.On i L) (hc : c.On i M)
    (h : K + L + M ≤ 2 ^ 24) (lo : -149 ≤ i) (hi : i ≤ 103) :
    (glm_vec4_subadd a b c).Exact (glm_vec4_subadd (a.map toReal) (b.map toReal) (c.map toReal)) (i) (K + L + M) := by
  simp only [cglm, V4.map, V4.Exact]
  simp only [V4.On] at ha hb hc
  obtain ⟨_, _, _, _⟩ := ha
  obtain ⟨_, _, _, _⟩ := hb
  obtain ⟨_, _, _, _⟩ := hc
  refine ⟨?_, ?_, ?_, ?_⟩ <;> grid

theorem C76_vec4_addsub {i : ℤ} {K L M : ℕ} (a : V4 F32) (b : V4 F32) (c : V4 F32)
    (ha : a.On i K) (hb : b.On i L) (hc : c.On i M)
    (h : K + L + M ≤ 2 ^ 24) (lo : -149 ≤ i) (hi : i ≤ 103) :
    (glm_vec4_addsub a b c).Exact (glm_vec4_addsub (a.map toReal) (b.map toReal) (c.map toReal)) (i) (K + L + M) := by
  simp only [cglm, V4.map, V4.Exact]
  simp only [V4.On] at ha hb hc
  obtain ⟨_, _, _, _⟩ := ha
  obtain ⟨_, _, _, _⟩ := hb
  obtain ⟨_, _, _, _⟩ := hc
  refine ⟨?_, ?_, ?_, ?_⟩ <;> grid

theorem C76_vec4_subsub {i : ℤ} {K L M : ℕ} (a : V4 F32) (b : V4 F32) (c : V4 F32)
    (ha : a.On i K) (hb : b.On i L) (hc : c.On i M)
    (h : K + L + M ≤ 2 ^ 24) (lo : -149 ≤ i) (hi : i ≤ 103) :
    (glm_vec4_subsub a b c).Exact (glm_vec4_subsub (a.map toReal) (b.map toReal) (c.map toReal)) (i) (K + L + M) := by
  simp only [cglm, V4.map, V4.Exact]
  simp only [V4.On] at ha hb hc
  obtain ⟨_, _, _, _⟩ := ha
  obtain ⟨_, _, _, _⟩ := hb
  obtain ⟨_, _, _, _⟩ := hc
  refine ⟨?_, ?_, ?_, ?_⟩ <;> grid

theorem C76_vec4_distance2 {i : ℤ} {K L : ℕ} (a : V4 F32) (b : V4 F32)
    (ha : a.On i K) (hb : b.On i L)
    (h : 4 * ((K + L) * (K + L)) ≤ 2 ^ 24) (lo : -149 ≤ i + i) (hi : i + i ≤ 103) :
    (glm_vec4_distance2 a b).Exact (glm_vec4_distance2 (a.map toReal) (b.map toReal)) (i + i) (4 * ((K + L) * (K + L))) := by
  simp only [cglm, V4.map]
  simp only [V4.On] at ha hb
  obtain ⟨_, _, _, _⟩ := ha
  obtain ⟨_, _, _, _⟩ := hb
  have := Nat.le_mul_self (K + L)
  grid

theorem C76_vec4_hadd {i : ℤ} {K : ℕ} (v : V4 F32)
    (hv : v.On i K)
    (h : 4 * K ≤ 2 ^ 24) (lo : -149 ≤ i) (hi : i ≤ 103) :
    (glm_vec4_hadd v).Exact (glm_vec4_hadd (v.map toReal)) (i) (4 * K) := by
  simp only [cglm, V4.map]
  simp only [V4.On] at hv
  obtain ⟨_, _, _, _⟩ := hv
  grid

theorem C76_vec2_cross {i j : ℤ} {K L : ℕ} (a : V2 F32) (b : V2 F32)
    (ha : a.On i K) (hb : b.On j L)
    (h : 2 * (K * L) ≤ 2 ^ 24) (lo : -149 ≤ i + j) (hi : i + j ≤ 103) :
    (glm_vec2_cross a b).Exact (glm_vec2_cross (a.map toReal) (b.map toReal)) (i + j) (2 * (K * L)) := by
  simp only [cglm, V2.map]
  simp only [V2.On] at ha hb
  obtain ⟨_, _⟩ := ha
  obtain ⟨_, _⟩ := hb
  grid

theorem C76_vec3_cross {i j : ℤ} {K L : ℕ} (a : V3 F32) (b : V3 F32)
    (ha : a.On i K) (hb : b.On j L)
    (h : 2 * (K * L) ≤ 2 ^ 24) (lo : -149 ≤ i + j) (hi : i + j ≤ 103) :
    (glm_vec3_cross a b).Exact (glm_vec3_cross (a.map toReal) (b.map toReal)) (i + j) (2 * (K * L)) := by
  simp only [cglm, V3.map, V3.Exact]
  simp only [V3.On] at ha hb
  obtain ⟨_, _, _⟩ := ha
  obtain ⟨_, _, _⟩ := hb
  refine ⟨?_, ?_, ?_⟩ <;> grid

theorem C76_vec2_complex_mul {i j : ℤ} {K L : ℕ} (a : V2 F32) (b : V2 F32)
    (ha : a.On i K) (hb : b.On j L)
    (h : 2 * (K * L) ≤ 2 ^ 24) (lo : -149 ≤ i + j) (hi : i + j ≤ 103) :
    (glm_vec2_complex_mul a b).Exact (glm_vec2_complex_mul (a.map toReal) (b.map toReal)) (i + j) (2 * (K * L)) := by
  simp only [cglm, V2.map, V2.Exact]
  simp only [V2.On] at ha hb
  obtain ⟨_, _⟩ := ha
  obtain ⟨_, _⟩ := hb
  refine ⟨?_, ?_⟩ <;> grid

theorem C76_quat_mul {i j : ℤ} {K L : ℕ} (p : V4 F32) (q : V4 F32)
    (hp : p.On i K) (hq : q.On j L)
    (h : 4 * (K * L) ≤ 2 ^ 24) (lo : -149 ≤ i + j) (hi : i + j ≤ 103) :
    (glm_quat_mul p q).Exact (glm_quat_mul (p.map toReal) (q.map toReal)) (i + j) (4 * (K * L)) := by
  simp only [cglm, V4.map, V4.Exact]
  simp only [V4.On] at hp hq
  obtain ⟨_, _, _, _⟩ := hp
  obtain ⟨_, _, _, _⟩ := hq
  refine ⟨?_, ?_, ?_, ?_⟩ <;> grid

theorem C76_quat_dot {i j : ℤ} {K L : ℕ} (p : V4 F32) (q : V4 F32)
    (hp : p.On i K) (hq : q.On j L)
    (h : 4 * (K * L) ≤ 2 ^ 24) (lo : -149 ≤ i + j) (hi : i + j ≤ 103) :
    (glm_quat_dot p q).Exact (glm_quat_dot (p.map toReal) (q.map toReal)) (i + j) (4 * (K * L)) := by
  simp only [cglm, V4.map]
  simp only [V4.On] at hp hq
  obtain ⟨_, _, _, _⟩ := hp
  obtain ⟨_, _, _, _⟩ := hq
  grid

theorem C76_aabb_center {i : ℤ} {K : ℕ} (box : M2x3 F32)
    (hbox : box.On i K)
    (h : 2 * K ≤ 2 ^ 24) (lo : -149 ≤ i - 1) (hi : i ≤ 103) :
    (glm_aabb_center box).Exact (glm_aabb_center (box.map toReal)) (i - 1) (2 * K) := by
  simp only [cglm, M2x3.map, V3.map, V3.Exact]
  simp only [M2x3.On, V3.On] at hbox
  obtain ⟨⟨_, _, _⟩, ⟨_, _, _⟩⟩ := hbox
  refine ⟨?_, ?_, ?_⟩ <;> grid

theorem C76_aabb2d_center {i : ℤ} {K : ℕ} (box : M2 F32)
    (hbox : box.On i K)
    (h : 2 * K ≤ 2 ^ 24) (lo : -149 ≤ i - 1) (hi : i ≤ 103) :
    (glm_aabb2d_center box).Exact (glm_aabb2d_center (box.map toReal)) (i - 1) (2 * K) := by
  simp only [cglm, M2.map, V2.map, V2.Exact]
  simp only [M2.On, V2.On] at hbox
  obtain ⟨⟨_, _⟩, ⟨_, _⟩⟩ := hbox
  refine ⟨?_, ?_⟩ <;> grid

end Cglm
