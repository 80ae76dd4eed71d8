import Verif.F32Simd
import Verif.Props.C76
import Verif.Props.C76Mat
import Verif.Props.C59Neon64
import Verif.Props.C59Neon64X
/-!
# C76: exact results on small integers and fixed-point numbers: Neon64 configuration

`f.On e K` says: the binary32 number `f` is finite and equal to `n * 2^e` for an integer `n` with `|n| ≤ K`; with `e = 0`
these are the integers up to `K`.  `f.Exact x e K` says: `f` is finite, its value is exactly the real number `x`, and it
is again on the grid `2^e` within `K`.  In every theorem `x` is the same C function evaluated over ℝ on the values of
the arguments.  Written by `tools/gridthms.py`.
-/
set_option linter.unusedSectionVars false
set_option linter.unusedSimpArgs false
open Cglm F32
namespace Cglm
variable [Libm]

theorem C76_Neon64_vec4_dot {i j : ℤ} {K L : ℕ} (a : V4 F32) (b : V4 F32)
    (ha : a.On i K) (hb : b.On j L)
    (h : 4 * (K * L) ≤ 2 ^ 24) (lo : -149 ≤ i + j) (hi : i + j ≤ 103) :
    (Neon64.glm_vec4_dot a b).Exact (Cglm.glm_vec4_dot (a.map toReal) (b.map toReal)) (i + j) (4 * (K * L)) := by
  simp only [cglm, Nat.reduceMod, Nat.reduceDiv, Nat.reduceAdd, V4.map]
  simp only [V4.On] at ha hb
  obtain ⟨_, _, _, _⟩ := ha
  obtain ⟨_, _, _, _⟩ := hb
  have := Nat.mul_comm K L
  grid

theorem C76_Neon64_vec4_norm2 {i : ℤ} {K : ℕ} (v : V4 F32)
    (hv : v.On i K)
    (h : 4 * (K * K) ≤ 2 ^ 24) (lo : -149 ≤ i + i) (hi : i + i ≤ 103) :
    (Neon64.glm_vec4_norm2 v).Exact (Cglm.glm_vec4_norm2 (v.map toReal)) (i + i) (4 * (K * K)) := by
  simp only [cglm, Nat.reduceMod, Nat.reduceDiv, Nat.reduceAdd, V4.map]
  simp only [V4.On] at hv
  obtain ⟨_, _, _, _⟩ := hv
  grid

theorem C76_Neon64_vec4_distance2 {i : ℤ} {K L : ℕ} (a : V4 F32) (b : V4 F32)
    (ha : a.On i K) (hb : b.On i L)
    (h : 4 * ((K + L) * (K + L)) ≤ 2 ^ 24) (lo : -149 ≤ i + i) (hi : i + i ≤ 103) :
    (Neon64.glm_vec4_distance2 a b).Exact (Cglm.glm_vec4_distance2 (a.map toReal) (b.map toReal)) (i + i) (4 * ((K + L) * (K + L))) := by
  simp only [cglm, Nat.reduceMod, Nat.reduceDiv, Nat.reduceAdd, V4.map]
  simp only [V4.On] at ha hb
  obtain ⟨_, _, _, _⟩ := ha
  obtain ⟨_, _, _, _⟩ := hb
  have := Nat.le_mul_self (K + L)
  grid

theorem C76_Neon64_vec4_muladd {i j : ℤ} {K L M : ℕ} (a : V4 F32) (b : V4 F32) (c : V4 F32)
    (ha : a.On i K) (hb : b.On j L) (hc : c.On (i + j) M)
    (h : K * L + M ≤ 2 ^ 24) (lo : -149 ≤ i + j) (hi : i + j ≤ 103) :
    (Neon64.glm_vec4_muladd a b c).Exact (Cglm.glm_vec4_muladd (a.map toReal) (b.map toReal) (c.map toReal)) (i + j) (K * L + M) := by
  simp only [cglm, Nat.reduceMod, Nat.reduceDiv, Nat.reduceAdd, V4.map, V4.Exact]
  simp only [V4.On] at ha hb hc
  obtain ⟨_, _, _, _⟩ := ha
  obtain ⟨_, _, _, _⟩ := hb
  obtain ⟨_, _, _, _⟩ := hc
  have := Nat.mul_comm K L
  refine ⟨?_, ?_, ?_, ?_⟩ <;> grid

theorem C76_Neon64_vec4_muladds {i j : ℤ} {K L M : ℕ} (a : V4 F32) (s : F32) (c : V4 F32)
    (ha : a.On i K) (hs : s.On j L) (hc : c.On (i + j) M)
    (h : K * L + M ≤ 2 ^ 24) (lo : -149 ≤ i + j) (hi : i + j ≤ 103) :
    (Neon64.glm_vec4_muladds a s c).Exact (Cglm.glm_vec4_muladds (a.map toReal) (toReal s) (c.map toReal)) (i + j) (K * L + M) := by
  simp only [cglm, Nat.reduceMod, Nat.reduceDiv, Nat.reduceAdd, V4.map, V4.Exact]
  simp only [V4.On] at ha hc
  obtain ⟨_, _, _, _⟩ := ha
  obtain ⟨_, _, _, _⟩ := hc
  have := Nat.mul_comm K L
  refine ⟨?_, ?_, ?_, ?_⟩ <;> grid

theorem C76_Neon64_vec4_mulsub {i j : ℤ} {K L M : ℕ} (a : V4 F32) (b : V4 F32) (c : V4 F32)
    (ha : a.On i K) (hb : b.On j L) (hc : c.On (i + j) M)
    (h : K * L + M ≤ 2 ^ 24) (lo : -149 ≤ i + j) (hi : i + j ≤ 103) :
    (Neon64.glm_vec4_mulsub a b c).Exact (Cglm.glm_vec4_mulsub (a.map toReal) (b.map toReal) (c.map toReal)) (i + j) (K * L + M) := by
  simp only [cglm, Nat.reduceMod, Nat.reduceDiv, Nat.reduceAdd, V4.map, V4.Exact]
  simp only [V4.On] at ha hb hc
  obtain ⟨_, _, _, _⟩ := ha
  obtain ⟨_, _, _, _⟩ := hb
  obtain ⟨_, _, _, _⟩ := hc
  have := Nat.mul_comm K L
  refine ⟨?_, ?_, ?_, ?_⟩ <;> grid

theorem C76_Neon64_vec4_mulsubs {i j : ℤ} {K L M : ℕ} (a : V4 F32) (s : F32) (c : V4 F32)
    (ha : a.On i K) (hs : s.On j L) (hc : c.On (i + j) M)
    (h : K * L + M ≤ 2 ^ 24) (lo : -149 ≤ i + j) (hi : i + j ≤ 103) :
    (Neon64.glm_vec4_mulsubs a s c).Exact (Cglm.glm_vec4_mulsubs (a.map toReal) (toReal s) (c.map toReal)) (i + j) (K * L + M) := by
  simp only [cglm, Nat.reduceMod, Nat.reduceDiv, Nat.reduceAdd, V4.map, V4.Exact]
  simp only [V4.On] at ha hc
  obtain ⟨_, _, _, _⟩ := ha
  obtain ⟨_, _, _, _⟩ := hc
  have := Nat.mul_comm K L
  refine ⟨?_, ?_, ?_, ?_⟩ <;> grid

theorem C76_Neon64_mat2_mul {i j : ℤ} {K L : ℕ} (a : M2 F32) (b : M2 F32)
    (ha : a.On i K) (hb : b.On j L)
    (h : 2 * (K * L) ≤ 2 ^ 24) (lo : -149 ≤ i + j) (hi : i + j ≤ 103) :
    (Neon64.glm_mat2_mul a b).Exact (Cglm.glm_mat2_mul (a.map toReal) (b.map toReal)) (i + j) (2 * (K * L)) := by
  simp only [cglm, Nat.reduceMod, Nat.reduceDiv, Nat.reduceAdd, M2.map, V2.map, M2.Exact, V2.Exact]
  simp only [M2.On, V2.On] at ha hb
  obtain ⟨⟨_, _⟩, ⟨_, _⟩⟩ := ha
  obtain ⟨⟨_, _⟩, ⟨_, _⟩⟩ := hb
  have := Nat.mul_comm K L
  refine ⟨⟨?_, ?_⟩, ⟨?_, ?_⟩⟩ <;> grid

theorem C76_Neon64_mat4_mul {i j : ℤ} {K L : ℕ} (a : M4 F32) (b : M4 F32)
    (ha : a.On i K) (hb : b.On j L)
    (h : 4 * (K * L) ≤ 2 ^ 24) (lo : -149 ≤ i + j) (hi : i + j ≤ 103) :
    (Neon64.glm_mat4_mul a b).Exact (Cglm.glm_mat4_mul (a.map toReal) (b.map toReal)) (i + j) (4 * (K * L)) := by
  simp only [cglm, Nat.reduceMod, Nat.reduceDiv, Nat.reduceAdd, M4.map, V4.map, M4.Exact, V4.Exact]
  simp only [M4.On, V4.On] at ha hb
  obtain ⟨⟨_, _, _, _⟩, ⟨_, _, _, _⟩, ⟨_, _, _, _⟩, ⟨_, _, _, _⟩⟩ := ha
  obtain ⟨⟨_, _, _, _⟩, ⟨_, _, _, _⟩, ⟨_, _, _, _⟩, ⟨_, _, _, _⟩⟩ := hb
  have := Nat.mul_comm K L
  refine ⟨⟨?_, ?_, ?_, ?_⟩, ⟨?_, ?_, ?_, ?_⟩, ⟨?_, ?_, ?_, ?_⟩, ⟨?_, ?_, ?_, ?_⟩⟩ <;> grid

theorem C76_Neon64_mat4_mulv {i j : ℤ} {K L : ℕ} (m : M4 F32) (v : V4 F32)
    (hm : m.On i K) (hv : v.On j L)
    (h : 4 * (K * L) ≤ 2 ^ 24) (lo : -149 ≤ i + j) (hi : i + j ≤ 103) :
    (Neon64.glm_mat4_mulv m v).Exact (Cglm.glm_mat4_mulv (m.map toReal) (v.map toReal)) (i + j) (4 * (K * L)) := by
  rw [C59_Neon64_glm_mat4_mulv]
  exact C76_mat4_mulv m v hm hv h lo hi

theorem C76_Neon64_mat4_mulv3 {i j : ℤ} {K L : ℕ} (m : M4 F32) (v : V3 F32) (last : F32)
    (hm : m.On i K) (hv : v.On j L) (hlast : last.On j L)
    (h : 4 * (K * L) ≤ 2 ^ 24) (lo : -149 ≤ i + j) (hi : i + j ≤ 103) :
    (Neon64.glm_mat4_mulv3 m v last).Exact (Cglm.glm_mat4_mulv3 (m.map toReal) (v.map toReal) (toReal last)) (i + j) (4 * (K * L)) := by
  rw [C59_Neon64_glm_mat4_mulv3]
  exact C76_mat4_mulv3 m v last hm hv hlast h lo hi

theorem C76_Neon64_mat4_det {i : ℤ} (m : M4 F32)
    (hm : m.On i 28)
    (lo : -149 ≤ i + i + i + i) (hi : i + i + i + i ≤ 103) (lo' : -149 ≤ i + i + i) (hi' : i + i + i ≤ 103) (lo'' : -149 ≤ i + i) (hi'' : i + i ≤ 103) :
    (Neon64.glm_mat4_det m).Exact (Cglm.glm_mat4_det (m.map toReal)) (i + i + i + i) (24 * 28 ^ 4) := by
  simp only [cglm, Nat.reduceMod, Nat.reduceDiv, Nat.reduceAdd, M4.map, V4.map]
  simp only [M4.On, V4.On] at hm
  obtain ⟨⟨_, _, _, _⟩, ⟨_, _, _, _⟩, ⟨_, _, _, _⟩, ⟨_, _, _, _⟩⟩ := hm
  grid

theorem C76_Neon64_mat4_rmc {i j k : ℤ} (r : V4 F32) (m : M4 F32) (c : V4 F32)
    (hr : r.On i 101) (hm : m.On j 101) (hc : c.On k 101)
    (lo : -149 ≤ i + j + k) (hi : i + j + k ≤ 103) (lo' : -149 ≤ j + k) (hi' : j + k ≤ 103) :
    (Neon64.glm_mat4_rmc r m c).Exact (Cglm.glm_mat4_rmc (r.map toReal) (m.map toReal) (c.map toReal)) (i + j + k) (16 * 101 ^ 3) := by
  simp only [cglm, Nat.reduceMod, Nat.reduceDiv, Nat.reduceAdd, M4.map, V4.map]
  simp only [M4.On, V4.On] at hr hm hc
  obtain ⟨_, _, _, _⟩ := hr
  obtain ⟨⟨_, _, _, _⟩, ⟨_, _, _, _⟩, ⟨_, _, _, _⟩, ⟨_, _, _, _⟩⟩ := hm
  obtain ⟨_, _, _, _⟩ := hc
  grid

theorem C76_Neon64_quat_mul {i j : ℤ} {K L : ℕ} (p : V4 F32) (q : V4 F32)
    (hp : p.On i K) (hq : q.On j L)
    (h : 4 * (K * L) ≤ 2 ^ 24) (lo : -149 ≤ i + j) (hi : i + j ≤ 103) :
    (Neon64.glm_quat_mul p q).Exact (Cglm.glm_quat_mul (p.map toReal) (q.map toReal)) (i + j) (4 * (K * L)) := by
  simp only [cglm, Nat.reduceMod, Nat.reduceDiv, Nat.reduceAdd, V4.map, V4.Exact]
  simp only [V4.On] at hp hq
  obtain ⟨_, _, _, _⟩ := hp
  obtain ⟨_, _, _, _⟩ := hq
  have := Nat.mul_comm K L
  refine ⟨?_, ?_, ?_, ?_⟩ <;> grid

theorem C76_Neon64_mul {i j : ℤ} {K L : ℕ} (a : M4 F32) (b : M4 F32)
    (ha : a.On i K) (hb : b.On j L)
    (h : 4 * (K * L) ≤ 2 ^ 24) (lo : -149 ≤ i + j) (hi : i + j ≤ 103) :
    (Neon64.glm_mul a b).Exact (Cglm.glm_mul (a.map toReal) (b.map toReal)) (i + j) (4 * (K * L)) := by
  simp only [cglm, Nat.reduceMod, Nat.reduceDiv, Nat.reduceAdd, M4.map, V4.map, M4.Exact, V4.Exact]
  simp only [M4.On, V4.On] at ha hb
  obtain ⟨⟨_, _, _, _⟩, ⟨_, _, _, _⟩, ⟨_, _, _, _⟩, ⟨_, _, _, _⟩⟩ := ha
  obtain ⟨⟨_, _, _, _⟩, ⟨_, _, _, _⟩, ⟨_, _, _, _⟩, ⟨_, _, _, _⟩⟩ := hb
  have := Nat.mul_comm K L
  refine ⟨⟨?_, ?_, ?_, ?_⟩, ⟨?_, ?_, ?_, ?_⟩, ⟨?_, ?_, ?_, ?_⟩, ⟨?_, ?_, ?_, ?_⟩⟩ <;> grid

theorem C76_Neon64_mul_rot {K L : ℕ} (a : M4 F32) (b : M4 F32)
    (ha : a.On 0 K) (hb : b.On 0 L)
    (h : 3 * (K * L) + K ≤ 2 ^ 24) :
    (Neon64.glm_mul_rot a b).Exact (Cglm.glm_mul_rot (a.map toReal) (b.map toReal)) (0) (3 * (K * L) + K) := by
  simp only [cglm, Nat.reduceMod, Nat.reduceDiv, Nat.reduceAdd, M4.map, V4.map, M4.Exact, V4.Exact]
  simp only [M4.On, V4.On] at ha hb
  obtain ⟨⟨_, _, _, _⟩, ⟨_, _, _, _⟩, ⟨_, _, _, _⟩, ⟨_, _, _, _⟩⟩ := ha
  obtain ⟨⟨_, _, _, _⟩, ⟨_, _, _, _⟩, ⟨_, _, _, _⟩, ⟨_, _, _, _⟩⟩ := hb
  have := Nat.mul_comm K L
  refine ⟨⟨?_, ?_, ?_, ?_⟩, ⟨?_, ?_, ?_, ?_⟩, ⟨?_, ?_, ?_, ?_⟩, ⟨?_, ?_, ?_, ?_⟩⟩ <;> grid

theorem C76_Neon64_translate {K L : ℕ} (m : M4 F32) (v : V3 F32)
    (hm : m.On 0 K) (hv : v.On 0 L)
    (h : 3 * (K * L) + K ≤ 2 ^ 24) :
    (Neon64.glm_translate m v).Exact (Cglm.glm_translate (m.map toReal) (v.map toReal)) (0) (3 * (K * L) + K) := by
  simp only [cglm, Nat.reduceMod, Nat.reduceDiv, Nat.reduceAdd, M4.map, V3.map, V4.map, M4.Exact, V4.Exact]
  simp only [M4.On, V3.On, V4.On] at hm hv
  obtain ⟨⟨_, _, _, _⟩, ⟨_, _, _, _⟩, ⟨_, _, _, _⟩, ⟨_, _, _, _⟩⟩ := hm
  obtain ⟨_, _, _⟩ := hv
  have := Nat.mul_comm K L
  refine ⟨⟨?_, ?_, ?_, ?_⟩, ⟨?_, ?_, ?_, ?_⟩, ⟨?_, ?_, ?_, ?_⟩, ⟨?_, ?_, ?_, ?_⟩⟩ <;> grid

end Cglm
