import Verif.F32Simd
import Verif.Gen
/-!
# C76: exact results on small integers and fixed-point numbers: matrices

`f.On e K` says: the binary32 number `f` is finite and equal to `n * 2^e` for an integer `n` with `|n| ≤ K`; with `e = 0`
these are the integers up to `K`.  `f.Exact x e K` says: `f` is finite, its value is exactly the real number `x`, and it
is again on the grid `2^e` within `K`.  In every theorem `x` is the same C function evaluated over ℝ on the values of
the arguments.  Written by `tools/gridthms.py`.
-/
set_option linter.unusedSectionVars false
set_option linter.unusedSimpArgs false
open Cglm F32
namespace Cglm
variable [Libm]

theorem C76_mat2_mulv {i j : ℤ} {K L : ℕ} (m : M2 F32) (v : V2 F32)
    (hm : m.On i K) (hv : v.On j L)
    (h : 2 * (K * L) ≤ 2 ^ 24) (lo : -149 ≤ i + j) (hi : i + j ≤ 103) :
    (glm_mat2_mulv m v).Exact (glm_mat2_mulv (m.map toReal) (v.map toReal)) (i + j) (2 * (K * L)) := by
  simp only [cglm, M2.map, V2.map, V2.Exact]
  simp only [M2.On, V2.On] at hm hv
  obtain ⟨⟨_, _⟩, ⟨_, _⟩⟩ := hm
  obtain ⟨_, _⟩ := hv
  refine ⟨?_, ?_⟩ <;> grid

theorem C76_mat2_mul {i j : ℤ} {K L : ℕ} (a : M2 F32) (b : M2 F32)
    (ha : a.On i K) (hb : b.On j L)
    (h : 2 * (K * L) ≤ 2 ^ 24) (lo : -149 ≤ i + j) (hi : i + j ≤ 103) :
    (glm_mat2_mul a b).Exact (glm_mat2_mul (a.map toReal) (b.map toReal)) (i + j) (2 * (K * L)) := by
  simp only [cglm, M2.map, V2.map, M2.Exact, V2.Exact]
  simp only [M2.On, V2.On] at ha hb
  obtain ⟨⟨_, _⟩, ⟨_, _⟩⟩ := ha
  obtain ⟨⟨_, _⟩, ⟨_, _⟩⟩ := hb
  refine ⟨⟨?_, ?_⟩, ⟨?_, ?_⟩⟩ <;> grid

theorem C76_mat2_scale {i j : ℤ} {K L : ℕ} (m : M2 F32) (s : F32)
    (hm : m.On i K) (hs : s.On j L)
    (h : K * L ≤ 2 ^ 24) (lo : -149 ≤ i + j) (hi : i + j ≤ 103) :
    (glm_mat2_scale m s).Exact (glm_mat2_scale (m.map toReal) (toReal s)) (i + j) (K * L) := by
  simp only [cglm, M2.map, V2.map, M2.Exact, V2.Exact]
  simp only [M2.On, V2.On] at hm
  obtain ⟨⟨_, _⟩, ⟨_, _⟩⟩ := hm
  refine ⟨⟨?_, ?_⟩, ⟨?_, ?_⟩⟩ <;> grid

theorem C76_mat2_trace {i : ℤ} {K : ℕ} (m : M2 F32)
    (hm : m.On i K)
    (h : 2 * K ≤ 2 ^ 24) (lo : -149 ≤ i) (hi : i ≤ 103) :
    (glm_mat2_trace m).Exact (glm_mat2_trace (m.map toReal)) (i) (2 * K) := by
  simp only [cglm, M2.map, V2.map]
  simp only [M2.On, V2.On] at hm
  obtain ⟨⟨_, _⟩, ⟨_, _⟩⟩ := hm
  grid

theorem C76_mat2_rmc {i j k : ℤ} (r : V2 F32) (m : M2 F32) (c : V2 F32)
    (hr : r.On i 161) (hm : m.On j 161) (hc : c.On k 161)
    (lo : -149 ≤ i + j + k) (hi : i + j + k ≤ 103) (lo' : -149 ≤ j + k) (hi' : j + k ≤ 103) :
    (glm_mat2_rmc r m c).Exact (glm_mat2_rmc (r.map toReal) (m.map toReal) (c.map toReal)) (i + j + k) (4 * 161 ^ 3) := by
  simp only [cglm, M2.map, V2.map]
  simp only [M2.On, V2.On] at hr hm hc
  obtain ⟨_, _⟩ := hr
  obtain ⟨⟨_, _⟩, ⟨_, _⟩⟩ := hm
  obtain ⟨_, _⟩ := hc
  grid

theorem C76_mat3_mulv {i j : ℤ} {K L : ℕ} (m : M3 F32) (v : V3 F32)
    (hm : m.On i K) (hv : v.On j L)
    (h : 3 * (K * L) ≤ 2 ^ 24) (lo : -149 ≤ i + j) (hi : i + j ≤ 103) :
    (glm_mat3_mulv m v).Exact (glm_mat3_mulv (m.map toReal) (v.map toReal)) (i + j) (3 * (K * L)) := by
  simp only [cglm, M3.map, V3.map, V3.Exact]
  simp only [M3.On, V3.On] at hm hv
  obtain ⟨⟨_, _, _⟩, ⟨_, _, _⟩, ⟨_, _, _⟩⟩ := hm
  obtain ⟨_, _, _⟩ := hv
  refine ⟨?_, ?_, ?_⟩ <;> grid

theorem C76_mat3_mul {i j : ℤ} {K L : ℕ} (a : M3 F32) (b : M3 F32)
    (ha : a.On i K) (hb : b.On j L)
    (h : 3 * (K * L) ≤ 2 ^ 24) (lo : -149 ≤ i + j) (hi : i + j ≤ 103) :
    (glm_mat3_mul a b).Exact (glm_mat3_mul (a.map toReal) (b.map toReal)) (i + j) (3 * (K * L)) := by
  simp only [cglm, M3.map, V3.map, M3.Exact, V3.Exact]
  simp only [M3.On, V3.On] at ha hb
  obtain ⟨⟨_, _, _⟩, ⟨_, _, _⟩, ⟨_, _, _⟩⟩ := ha
  obtain ⟨⟨_, _, _⟩, ⟨_, _, _⟩, ⟨_, _, _⟩⟩ := hb
  refine ⟨⟨?_, ?_, ?_⟩, ⟨?_, ?_, ?_⟩, ⟨?_, ?_, ?_⟩⟩ <;> grid

theorem C76_mat3_scale {i j : ℤ} {K L : ℕ} (m : M3 F32) (s : F32)
    (hm : m.On i K) (hs : s.On j L)
    (h : K * L ≤ 2 ^ 24) (lo : -149 ≤ i + j) (hi : i + j ≤ 103) :
    (glm_mat3_scale m s).Exact (glm_mat3_scale (m.map toReal) (toReal s)) (i + j) (K * L) := by
  simp only [cglm, M3.map, V3.map, M3.Exact, V3.Exact]
  simp only [M3.On, V3.On] at hm
  obtain ⟨⟨_, _, _⟩, ⟨_, _, _⟩, ⟨_, _, _⟩⟩ := hm
  refine ⟨⟨?_, ?_, ?_⟩, ⟨?_, ?_, ?_⟩, ⟨?_, ?_, ?_⟩⟩ <;> grid

theorem C76_mat3_trace {i : ℤ} {K : ℕ} (m : M3 F32)
    (hm : m.On i K)
    (h : 3 * K ≤ 2 ^ 24) (lo : -149 ≤ i) (hi : i ≤ 103) :
    (glm_mat3_trace m).Exact (glm_mat3_trace (m.map toReal)) (i) (3 * K) := by
  simp only [cglm, M3.map, V3.map]
  simp only [M3.On, V3.On] at hm
  obtain ⟨⟨_, _, _⟩, ⟨_, _, _⟩, ⟨_, _, _⟩⟩ := hm
  grid

theorem C76_mat3_rmc {i j k : ℤ} (r : V3 F32) (m : M3 F32) (c : V3 F32)
    (hr : r.On i 123) (hm : m.On j 123) (hc : c.On k 123)
    (lo : -149 ≤ i + j + k) (hi : i + j + k ≤ 103) (lo' : -149 ≤ j + k) (hi' : j + k ≤ 103) :
    (glm_mat3_rmc r m c).Exact (glm_mat3_rmc (r.map toReal) (m.map toReal) (c.map toReal)) (i + j + k) (9 * 123 ^ 3) := by
  simp only [cglm, M3.map, V3.map]
  simp only [M3.On, V3.On] at hr hm hc
  obtain ⟨_, _, _⟩ := hr
  obtain ⟨⟨_, _, _⟩, ⟨_, _, _⟩, ⟨_, _, _⟩⟩ := hm
  obtain ⟨_, _, _⟩ := hc
  grid

theorem C76_mat4_mulv {i j : ℤ} {K L : ℕ} (m : M4 F32) (v : V4 F32)
    (hm : m.On i K) (hv : v.On j L)
    (h : 4 * (K * L) ≤ 2 ^ 24) (lo : -149 ≤ i + j) (hi : i + j ≤ 103) :
    (glm_mat4_mulv m v).Exact (glm_mat4_mulv (m.map toReal) (v.map toReal)) (i + j) (4 * (K * L)) := by
  simp only [cglm, M4.map, V4.map, V4.Exact]
  simp only [M4.On, V4.On] at hm hv
  obtain ⟨⟨_, _, _, _⟩, ⟨_, _, _, _⟩, ⟨_, _, _, _⟩, ⟨_, _, _, _⟩⟩ := hm
  obtain ⟨_, _, _, _⟩ := hv
  refine ⟨?_, ?_, ?_, ?_⟩ <;> grid

theorem C76_mat4_mul {i j : ℤ} {K L : ℕ} (a : M4 F32) (b : M4 F32)
    (ha : a.On i K) (hb : b.On j L)
    (h : 4 * (K * L) ≤ 2 ^ 24) (lo : -149 ≤ i + j) (hi : i + j ≤ 103) :
    (glm_mat4_mul a b).Exact (glm_mat4_mul (a.map toReal) (b.map toReal)) (i + j) (4 * (K * L)) := by
  simp only [cglm, M4.map, V4.map, M4.Exact, V4.Exact]
  simp only [M4.On, V4.On] at ha hb
  obtain ⟨⟨_, _, _, _⟩, ⟨_, _, _, _⟩, ⟨_, _, _, _⟩, ⟨_, _, _, _⟩⟩ := ha
  obtain ⟨⟨_, _, _, _⟩, ⟨_, _, _, _⟩, ⟨_, _, _, _⟩, ⟨_, _, _, _⟩⟩ := hb
  refine ⟨⟨?_, ?_, ?_, ?_⟩, ⟨?_, ?_, ?_, ?_⟩, ⟨?_, ?_, ?_, ?_⟩, ⟨?_, ?_, ?_, ?_⟩⟩ <;> grid

theorem C76_mat4_scale {i j : ℤ} {K L : ℕ} (m : M4 F32) (s : F32)
    (hm : m.On i K) (hs : s.On j L)
    (h : K * L ≤ 2 ^ 24) (lo : -149 ≤ i + j) (hi : i + j ≤ 103) :
    (glm_mat4_scale m s).Exact (glm_mat4_scale (m.map toReal) (toReal s)) (i + j) (K * L) := by
  simp only [cglm, M4.map, V4.map, M4.Exact, V4.Exact]
  simp only [M4.On, V4.On] at hm
  obtain ⟨⟨_, _, _, _⟩, ⟨_, _, _, _⟩, ⟨_, _, _, _⟩, ⟨_, _, _, _⟩⟩ := hm
  refine ⟨⟨?_, ?_, ?_, ?_⟩, ⟨?_, ?_, ?_, ?_⟩, ⟨?_, ?_, ?_, ?_⟩, ⟨?_, ?_, ?_, ?_⟩⟩ <;> grid

theorem C76_mat4_trace {i : ℤ} {K : ℕ} (m : M4 F32)
    (hm : m.On i K)
    (h : 4 * K ≤ 2 ^ 24) (lo : -149 ≤ i) (hi : i ≤ 103) :
    (glm_mat4_trace m).Exact (glm_mat4_trace (m.map toReal)) (i) (4 * K) := by
  simp only [cglm, M4.map, V4.map]
  simp only [M4.On, V4.On] at hm
  obtain ⟨⟨_, _, _, _⟩, ⟨_, _, _, _⟩, ⟨_, _, _, _⟩, ⟨_, _, _, _⟩⟩ := hm
  grid

theorem C76_mat4_rmc {i j k : ℤ} (r : V4 F32) (m : M4 F32) (c : V4 F32)
    (hr : r.On i 101) (hm : m.On j 101) (hc : c.On k 101)
    (lo : -149 ≤ i + j + k) (hi : i + j + k ≤ 103) (lo' : -149 ≤ j + k) (hi' : j + k ≤ 103) :
    (glm_mat4_rmc r m c).Exact (glm_mat4_rmc (r.map toReal) (m.map toReal) (c.map toReal)) (i + j + k) (16 * 101 ^ 3) := by
  simp only [cglm, M4.map, V4.map]
  simp only [M4.On, V4.On] at hr hm hc
  obtain ⟨_, _, _, _⟩ := hr
  obtain ⟨⟨_, _, _, _⟩, ⟨_, _, _, _⟩, ⟨_, _, _, _⟩, ⟨_, _, _, _⟩⟩ := hm
  obtain ⟨_, _, _, _⟩ := hc
  grid

theorem C76_mat2_det {i : ℤ} {K : ℕ} (m : M2 F32)
    (hm : m.On i K)
    (h : 2 * (K * K) ≤ 2 ^ 24) (lo : -149 ≤ i + i) (hi : i + i ≤ 103) :
    (glm_mat2_det m).Exact (glm_mat2_det (m.map toReal)) (i + i) (2 * (K * K)) := by
  simp only [cglm, M2.map, V2.map]
  simp only [M2.On, V2.On] at hm
  obtain ⟨⟨_, _⟩, ⟨_, _⟩⟩ := hm
  grid

theorem C76_mat3_det {i : ℤ} (m : M3 F32)
    (hm : m.On i 140)
    (lo : -149 ≤ i + i + i) (hi : i + i + i ≤ 103) (lo' : -149 ≤ i + i) (hi' : i + i ≤ 103) :
    (glm_mat3_det m).Exact (glm_mat3_det (m.map toReal)) (i + i + i) (6 * 140 ^ 3) := by
  simp only [cglm, M3.map, V3.map]
  simp only [M3.On, V3.On] at hm
  obtain ⟨⟨_, _, _⟩, ⟨_, _, _⟩, ⟨_, _, _⟩⟩ := hm
  grid

theorem C76_mat4_det {i : ℤ} (m : M4 F32)
    (hm : m.On i 28)
    (lo : -149 ≤ i + i + i + i) (hi : i + i + i + i ≤ 103) (lo' : -149 ≤ i + i + i) (hi' : i + i + i ≤ 103) (lo'' : -149 ≤ i + i) (hi'' : i + i ≤ 103) :
    (glm_mat4_det m).Exact (glm_mat4_det (m.map toReal)) (i + i + i + i) (24 * 28 ^ 4) := by
  simp only [cglm, M4.map, V4.map]
  simp only [M4.On, V4.On] at hm
  obtain ⟨⟨_, _, _, _⟩, ⟨_, _, _, _⟩, ⟨_, _, _, _⟩, ⟨_, _, _, _⟩⟩ := hm
  grid

theorem C76_mat2x3_mulv {i j : ℤ} {K L : ℕ} (m : M2x3 F32) (v : V2 F32)
    (hm : m.On i K) (hv : v.On j L)
    (h : 2 * (K * L) ≤ 2 ^ 24) (lo : -149 ≤ i + j) (hi : i + j ≤ 103) :
    (glm_mat2x3_mulv m v).Exact (glm_mat2x3_mulv (m.map toReal) (v.map toReal)) (i + j) (2 * (K * L)) := by
  simp only [cglm, M2x3.map, V2.map, V3.map, V3.Exact]
  simp only [M2x3.On, V2.On, V3.On] at hm hv
  obtain ⟨⟨_, _, _⟩, ⟨_, _, _⟩⟩ := hm
  obtain ⟨_, _⟩ := hv
  refine ⟨?_, ?_, ?_⟩ <;> grid

theorem C76_mat2x3_mul {i j : ℤ} {K L : ℕ} (a : M2x3 F32) (b : M3x2 F32)
    (ha : a.On i K) (hb : b.On j L)
    (h : 2 * (K * L) ≤ 2 ^ 24) (lo : -149 ≤ i + j) (hi : i + j ≤ 103) :
    (glm_mat2x3_mul a b).Exact (glm_mat2x3_mul (a.map toReal) (b.map toReal)) (i + j) (2 * (K * L)) := by
  simp only [cglm, M2x3.map, M3x2.map, V2.map, V3.map, M3.Exact, V3.Exact]
  simp only [M2x3.On, M3x2.On, V2.On, V3.On] at ha hb
  obtain ⟨⟨_, _, _⟩, ⟨_, _, _⟩⟩ := ha
  obtain ⟨⟨_, _⟩, ⟨_, _⟩, ⟨_, _⟩⟩ := hb
  refine ⟨⟨?_, ?_, ?_⟩, ⟨?_, ?_, ?_⟩, ⟨?_, ?_, ?_⟩⟩ <;> grid

theorem C76_mat2x4_mulv {i j : ℤ} {K L : ℕ} (m : M2x4 F32) (v : V2 F32)
    (hm : m.On i K) (hv : v.On j L)
    (h : 2 * (K * L) ≤ 2 ^ 24) (lo : -149 ≤ i + j) (hi : i + j ≤ 103) :
    (glm_mat2x4_mulv m v).Exact (glm_mat2x4_mulv (m.map toReal) (v.map toReal)) (i + j) (2 * (K * L)) := by
  simp only [cglm, M2x4.map, V2.map, V4.map, V4.Exact]
  simp only [M2x4.On, V2.On, V4.On] at hm hv
  obtain ⟨⟨_, _, _, _⟩, ⟨_, _, _, _⟩⟩ := hm
  obtain ⟨_, _⟩ := hv
  refine ⟨?_, ?_, ?_, ?_⟩ <;> grid

theorem C76_mat2x4_mul {i j : ℤ} {K L : ℕ} (a : M2x4 F32) (b : M4x2 F32)
    (ha : a.On i K) (hb : b.On j L)
    (h : 2 * (K * L) ≤ 2 ^ 24) (lo : -149 ≤ i + j) (hi : i + j ≤ 103) :
    (glm_mat2x4_mul a b).Exact (glm_mat2x4_mul (a.map toReal) (b.map toReal)) (i + j) (2 * (K * L)) := by
  simp only [cglm, M2x4.map, M4x2.map, V2.map, V4.map, M4.Exact, V4.Exact]
  simp only [M2x4.On, M4x2.On, V2.On, V4.On] at ha hb
  obtain ⟨⟨_, _, _, _⟩, ⟨_, _, _, _⟩⟩ := ha
  obtain ⟨⟨_, _⟩, ⟨_, _⟩, ⟨_, _⟩, ⟨_, _⟩⟩ := hb
  refine ⟨⟨?_, ?_, ?_, ?_⟩, ⟨?_, ?_, ?_, ?_⟩, ⟨?_, ?_, ?_, ?_⟩, ⟨?_, ?_, ?_, ?_⟩⟩ <;> grid

theorem C76_mat3x2_mulv {i j : ℤ} {K L : ℕ} (m : M3x2 F32) (v : V3 F32)
    (hm : m.On i K) (hv : v.On j L)
    (h : 3 * (K * L) ≤ 2 ^ 24) (lo : -149 ≤ i + j) (hi : i + j ≤ 103) :
    (glm_mat3x2_mulv m v).Exact (glm_mat3x2_mulv (m.map toReal) (v.map toReal)) (i + j) (3 * (K * L)) := by
  simp only [cglm, M3x2.map, V2.map, V3.map, V2.Exact]
  simp only [M3x2.On, V2.On, V3.On] at hm hv
  obtain ⟨⟨_, _⟩, ⟨_, _⟩, ⟨_, _⟩⟩ := hm
  obtain ⟨_, _, _⟩ := hv
  refine ⟨?_, ?_⟩ <;> grid

theorem C76_mat3x2_mul {i j : ℤ} {K L : ℕ} (a : M3x2 F32) (b : M2x3 F32)
    (ha : a.On i K) (hb : b.On j L)
    (h : 3 * (K * L) ≤ 2 ^ 24) (lo : -149 ≤ i + j) (hi : i + j ≤ 103) :
    (glm_mat3x2_mul a b).Exact (glm_mat3x2_mul (a.map toReal) (b.map toReal)) (i + j) (3 * (K * L)) := by
  simp only [cglm, M2x3.map, M3x2.map, V2.map, V3.map, M2.Exact, V2.Exact]
  simp only [M2x3.On, M3x2.On, V2.On, V3.On] at ha hb
  obtain ⟨⟨_, _⟩, ⟨_, _⟩, ⟨_, _⟩⟩ := ha
  obtain ⟨⟨_, _, _⟩, ⟨_, _, _⟩⟩ := hb
  refine ⟨⟨?_, ?_⟩, ⟨?_, ?_⟩⟩ <;> grid

theorem C76_mat3x4_mulv {i j : ℤ} {K L : ℕ} (m : M3x4 F32) (v : V3 F32)
    (hm : m.On i K) (hv : v.On j L)
    (h : 3 * (K * L) ≤ 2 ^ 24) (lo : -149 ≤ i + j) (hi : i + j ≤ 103) :
    (glm_mat3x4_mulv m v).Exact (glm_mat3x4_mulv (m.map toReal) (v.map toReal)) (i + j) (3 * (K * L)) := by
  simp only [cglm, M3x4.map, V3.map, V4.map, V4.Exact]
  simp only [M3x4.On, V3.On, V4.On] at hm hv
  obtain ⟨⟨_, _, _, _⟩, ⟨_, _, _, _⟩, ⟨_, _, _, _⟩⟩ := hm
  obtain ⟨_, _, _⟩ := hv
  refine ⟨?_, ?_, ?_, ?_⟩ <;> grid

theorem C76_mat3x4_mul {i j : ℤ} {K L : ℕ} (a : M3x4 F32) (b : M4x3 F32)
    (ha : a.On i K) (hb : b.On j L)
    (h : 3 * (K * L) ≤ 2 ^ 24) (lo : -149 ≤ i + j) (hi : i + j ≤ 103) :
    (glm_mat3x4_mul a b).Exact (glm_mat3x4_mul (a.map toReal) (b.map toReal)) (i + j) (3 * (K * L)) := by
  simp only [cglm, M3x4.map, M4x3.map, V3.map, V4.map, M4.Exact, V4.Exact]
  simp only [M3x4.On, M4x3.On, V3.On, V4.On] at ha hb
  obtain ⟨⟨_, _, _, _⟩, ⟨_, _, _, _⟩, ⟨_, _, _, _⟩⟩ := ha
  obtain ⟨⟨_, _, _⟩, ⟨_, _, _⟩, ⟨_, _, _⟩, ⟨_, _, _⟩⟩ := hb
  refine ⟨⟨?_, ?_, ?_, ?_⟩, ⟨?_, ?_, ?_, ?_⟩, ⟨?_, ?_, ?_, ?_⟩, ⟨?_, ?_, ?_, ?_⟩⟩ <;> grid

theorem C76_mat4x2_mulv {i j : ℤ} {K L : ℕ} (m : M4x2 F32) (v : V4 F32)
    (hm : m.On i K) (hv : v.On j L)
    (h : 4 * (K * L) ≤ 2 ^ 24) (lo : -149 ≤ i + j) (hi : i + j ≤ 103) :
    (glm_mat4x2_mulv m v).Exact (glm_mat4x2_mulv (m.map toReal) (v.map toReal)) (i + j) (4 * (K * L)) := by
  simp only [cglm, M4x2.map, V2.map, V4.map, V2.Exact]
  simp only [M4x2.On, V2.On, V4.On] at hm hv
  obtain ⟨⟨_, _⟩, ⟨_, _⟩, ⟨_, _⟩, ⟨_, _⟩⟩ := hm
  obtain ⟨_, _, _, _⟩ := hv
  refine ⟨?_, ?_⟩ <;> grid

theorem C76_mat4x2_mul {i j : ℤ} {K L : ℕ} (a : M4x2 F32) (b : M2x4 F32)
    (ha : a.On i K) (hb : b.On j L)
    (h : 4 * (K * L) ≤ 2 ^ 24) (lo : -149 ≤ i + j) (hi : i + j ≤ 103) :
    (glm_mat4x2_mul a b).Exact (glm_mat4x2_mul (a.map toReal) (b.map toReal)) (i + j) (4 * (K * L)) := by
  simp only [cglm, M2x4.map, M4x2.map, V2.map, V4.map, M2.Exact, V2.Exact]
  simp only [M2x4.On, M4x2.On, V2.On, V4.On] at ha hb
  obtain ⟨⟨_, _⟩, ⟨_, _⟩, ⟨_, _⟩, ⟨_, _⟩⟩ := ha
  obtain ⟨⟨_, _, _, _⟩, ⟨_, _, _, _⟩⟩ := hb
  refine ⟨⟨?_, ?_⟩, ⟨?_, ?_⟩⟩ <;> grid

theorem C76_mat4x3_mulv {i j : ℤ} {K L : ℕ} (m : M4x3 F32) (v : V4 F32)
    (hm : m.On i K) (hv : v.On j L)
    (h : 4 * (K * L) ≤ 2 ^ 24) (lo : -149 ≤ i + j) (hi : i + j ≤ 103) :
    (glm_mat4x3_mulv m v).Exact (glm_mat4x3_mulv (m.map toReal) (v.map toReal)) (i + j) (4 * (K * L)) := by
  simp only [cglm, M4x3.map, V3.map, V4.map, V3.Exact]
  simp only [M4x3.On, V3.On, V4.On] at hm hv
  obtain ⟨⟨_, _, _⟩, ⟨_, _, _⟩, ⟨_, _, _⟩, ⟨_, _, _⟩⟩ := hm
  obtain ⟨_, _, _, _⟩ := hv
  refine ⟨?_, ?_, ?_⟩ <;> grid

theorem C76_mat4x3_mul {i j : ℤ} {K L : ℕ} (a : M4x3 F32) (b : M3x4 F32)
    (ha : a.On i K) (hb : b.On j L)
    (h : 4 * (K * L) ≤ 2 ^ 24) (lo : -149 ≤ i + j) (hi : i + j ≤ 103) :
    (glm_mat4x3_mul a b).Exact (glm_mat4x3_mul (a.map toReal) (b.map toReal)) (i + j) (4 * (K * L)) := by
  simp only [cglm, M3x4.map, M4x3.map, V3.map, V4.map, M3.Exact, V3.Exact]
  simp only [M3x4.On, M4x3.On, V3.On, V4.On] at ha hb
  obtain ⟨⟨_, _, _⟩, ⟨_, _, _⟩, ⟨_, _, _⟩, ⟨_, _, _⟩⟩ := ha
  obtain ⟨⟨_, _, _, _⟩, ⟨_, _, _, _⟩, ⟨_, _, _, _⟩⟩ := hb
  refine ⟨⟨?_, ?_, ?_⟩, ⟨?_, ?_, ?_⟩, ⟨?_, ?_, ?_⟩⟩ <;> grid

theorem C76_mat4_mulv3 {i j : ℤ} {K L : ℕ} (m : M4 F32) (v : V3 F32) (last : F32)
    (hm : m.On i K) (hv : v.On j L) (hlast : last.On j L)
    (h : 4 * (K * L) ≤ 2 ^ 24) (lo : -149 ≤ i + j) (hi : i + j ≤ 103) :
    (glm_mat4_mulv3 m v last).Exact (glm_mat4_mulv3 (m.map toReal) (v.map toReal) (toReal last)) (i + j) (4 * (K * L)) := by
  simp only [cglm, M4.map, V3.map, V4.map, V3.Exact]
  simp only [M4.On, V3.On, V4.On] at hm hv
  obtain ⟨⟨_, _, _, _⟩, ⟨_, _, _, _⟩, ⟨_, _, _, _⟩, ⟨_, _, _, _⟩⟩ := hm
  obtain ⟨_, _, _⟩ := hv
  refine ⟨?_, ?_, ?_⟩ <;> grid

theorem C76_mul {i j : ℤ} {K L : ℕ} (a : M4 F32) (b : M4 F32)
    (ha : a.On i K) (hb : b.On j L)
    (h : 4 * (K * L) ≤ 2 ^ 24) (lo : -149 ≤ i + j) (hi : i + j ≤ 103) :
    (glm_mul a b).Exact (glm_mul (a.map toReal) (b.map toReal)) (i + j) (4 * (K * L)) := by
  simp only [cglm, M4.map, V4.map, M4.Exact, V4.Exact]
  simp only [M4.On, V4.On] at ha hb
  obtain ⟨⟨_, _, _, _⟩, ⟨_, _, _, _⟩, ⟨_, _, _, _⟩, ⟨_, _, _, _⟩⟩ := ha
  obtain ⟨⟨_, _, _, _⟩, ⟨_, _, _, _⟩, ⟨_, _, _, _⟩, ⟨_, _, _, _⟩⟩ := hb
  refine ⟨⟨?_, ?_, ?_, ?_⟩, ⟨?_, ?_, ?_, ?_⟩, ⟨?_, ?_, ?_, ?_⟩, ⟨?_, ?_, ?_, ?_⟩⟩ <;> grid

theorem C76_mul_rot {K L : ℕ} (a : M4 F32) (b : M4 F32)
    (ha : a.On 0 K) (hb : b.On 0 L)
    (h : 3 * (K * L) + K ≤ 2 ^ 24) :
    (glm_mul_rot a b).Exact (glm_mul_rot (a.map toReal) (b.map toReal)) (0) (3 * (K * L) + K) := by
  simp only [cglm, M4.map, V4.map, M4.Exact, V4.Exact]
  simp only [M4.On, V4.On] at ha hb
  obtain ⟨⟨_, _, _, _⟩, ⟨_, _, _, _⟩, ⟨_, _, _, _⟩, ⟨_, _, _, _⟩⟩ := ha
  obtain ⟨⟨_, _, _, _⟩, ⟨_, _, _, _⟩, ⟨_, _, _, _⟩, ⟨_, _, _, _⟩⟩ := hb
  refine ⟨⟨?_, ?_, ?_, ?_⟩, ⟨?_, ?_, ?_, ?_⟩, ⟨?_, ?_, ?_, ?_⟩, ⟨?_, ?_, ?_, ?_⟩⟩ <;> grid

theorem C76_translate {K L : ℕ} (m : M4 F32) (v : V3 F32)
    (hm : m.On 0 K) (hv : v.On 0 L)
    (h : 3 * (K * L) + K ≤ 2 ^ 24) :
    (glm_translate m v).Exact (glm_translate (m.map toReal) (v.map toReal)) (0) (3 * (K * L) + K) := by
  simp only [cglm, M4.map, V3.map, V4.map, M4.Exact, V4.Exact]
  simp only [M4.On, V3.On, V4.On] at hm hv
  obtain ⟨⟨_, _, _, _⟩, ⟨_, _, _, _⟩, ⟨_, _, _, _⟩, ⟨_, _, _, _⟩⟩ := hm
  obtain ⟨_, _, _⟩ := hv
  refine ⟨⟨?_, ?_, ?_, ?_⟩, ⟨?_, ?_, ?_, ?_⟩, ⟨?_, ?_, ?_, ?_⟩, ⟨?_, ?_, ?_, ?_⟩⟩ <;> grid

theorem C76_translate_to {K L : ℕ} (m : M4 F32) (v : V3 F32)
    (hm : m.On 0 K) (hv : v.On 0 L)
    (h : 3 * (K * L) + K ≤ 2 ^ 24) :
    (glm_translate_to m v).Exact (glm_translate_to (m.map toReal) (v.map toReal)) (0) (3 * (K * L) + K) := by
  simp only [cglm, M4.map, V3.map, V4.map, M4.Exact, V4.Exact]
  simp only [M4.On, V3.On, V4.On] at hm hv
  obtain ⟨⟨_, _, _, _⟩, ⟨_, _, _, _⟩, ⟨_, _, _, _⟩, ⟨_, _, _, _⟩⟩ := hm
  obtain ⟨_, _, _⟩ := hv
  refine ⟨⟨?_, ?_, ?_, ?_⟩, ⟨?_, ?_, ?_, ?_⟩, ⟨?_, ?_, ?_, ?_⟩, ⟨?_, ?_, ?_, ?_⟩⟩ <;> grid

theorem C76_translate2d {K L : ℕ} (m : M3 F32) (v : V2 F32)
    (hm : m.On 0 K) (hv : v.On 0 L)
    (h : 2 * (K * L) + K ≤ 2 ^ 24) :
    (glm_translate2d m v).Exact (glm_translate2d (m.map toReal) (v.map toReal)) (0) (2 * (K * L) + K) := by
  simp only [cglm, M3.map, V2.map, V3.map, M3.Exact, V3.Exact]
  simp only [M3.On, V2.On, V3.On] at hm hv
  obtain ⟨⟨_, _, _⟩, ⟨_, _, _⟩, ⟨_, _, _⟩⟩ := hm
  obtain ⟨_, _⟩ := hv
  refine ⟨⟨?_, ?_, ?_⟩, ⟨?_, ?_, ?_⟩, ⟨?_, ?_, ?_⟩⟩ <;> grid

theorem C76_scale_to {K L : ℕ} (m : M4 F32) (v : V3 F32)
    (hm : m.On 0 K) (hv : v.On 0 L)
    (h : K * L + K ≤ 2 ^ 24) :
    (glm_scale_to m v).Exact (glm_scale_to (m.map toReal) (v.map toReal)) (0) (K * L + K) := by
  simp only [cglm, M4.map, V3.map, V4.map, M4.Exact, V4.Exact]
  simp only [M4.On, V3.On, V4.On] at hm hv
  obtain ⟨⟨_, _, _, _⟩, ⟨_, _, _, _⟩, ⟨_, _, _, _⟩, ⟨_, _, _, _⟩⟩ := hm
  obtain ⟨_, _, _⟩ := hv
  refine ⟨⟨?_, ?_, ?_, ?_⟩, ⟨?_, ?_, ?_, ?_⟩, ⟨?_, ?_, ?_, ?_⟩, ⟨?_, ?_, ?_, ?_⟩⟩ <;> grid

end Cglm
