import Verif.Props.C71
import Mathlib.Topology.Algebra.Order.Floor
import Mathlib.Topology.Instances.Real.Lemmas

/-! # C71: no seams between the cells

`noise2 Int.fract` and its companions use the exact fractional part.  They are continuous on the
whole space: nothing jumps where a coordinate crosses an integer and the set of corners changes.
The code agrees with them wherever no fractional part exceeds 0.99999994, the value at which
`glm_vec*_fract` cuts off. -/

namespace Cglm
open Perlin

theorem fade_zero : fade 0 = 0 := by norm_num [fade]
theorem fade_one : fade 1 = 1 := by norm_num [fade]
theorem continuous_fade : Continuous fade := by unfold fade; fun_prop

/-- Fading between the values attached to the two integers around `x`. -/
noncomputable def blend (x : ℝ) (h : ℤ → ℝ) : ℝ :=
  (1 - fade (Int.fract x)) * h ⌊x⌋ + fade (Int.fract x) * h (⌊x⌋ + 1)

theorem blend_on (x : ℝ) (h : ℤ → ℝ) (n : ℤ) (h0 : (n : ℝ) ≤ x) (h1 : x ≤ n + 1) :
    blend x h = (1 - fade (x - n)) * h n + fade (x - n) * h (n + 1) := by
  unfold blend
  rcases h1.lt_or_eq with h1 | rfl
  · have e : ⌊x⌋ = n := Int.floor_eq_iff.2 ⟨h0, h1⟩
    rw [Int.fract, e]
  · have e : ⌊(n : ℝ) + 1⌋ = n + 1 := by
      rw [← Int.cast_one, ← Int.cast_add, Int.floor_intCast]
    rw [Int.fract, e]
    push_cast
    rw [sub_self, add_sub_cancel_left, fade_zero, fade_one]; ring

theorem locallyFinite_cells : LocallyFinite fun n : ℤ => Set.Icc (n : ℝ) (n + 1) := by
  intro x
  refine ⟨Set.Ioo (x - 1) (x + 1), Ioo_mem_nhds (by linarith) (by linarith), ?_⟩
  refine (Set.finite_Icc (⌊x⌋ - 2) (⌊x⌋ + 2)).subset ?_
  rintro n ⟨y, ⟨h1, h2⟩, h3, h4⟩
  have f1 := Int.floor_le x
  have f2 := Int.lt_floor_add_one x
  constructor
  · have : ((⌊x⌋ - 2 : ℤ) : ℝ) < n + 1 := by push_cast; linarith
    have : ⌊x⌋ - 2 < n + 1 := by exact_mod_cast this
    omega
  · have : (n : ℝ) < ((⌊x⌋ + 2 : ℤ) : ℝ) := by push_cast; linarith
    have : n < ⌊x⌋ + 2 := by exact_mod_cast this
    omega

theorem continuous_blend {X : Type*} [TopologicalSpace X] {g : X → ℝ} {h : ℤ → X → ℝ}
    (hg : Continuous g) (hh : ∀ n, Continuous (h n)) :
    Continuous fun q => blend (g q) fun n => h n q := by
  refine (locallyFinite_cells.preimage_continuous hg).continuous ?_ ?_ ?_
  · ext q
    simp only [Set.mem_iUnion, Set.mem_preimage, Set.mem_univ, iff_true]
    exact ⟨⌊g q⌋, Int.floor_le _, (Int.lt_floor_add_one _).le⟩
  · exact fun n => isClosed_Icc.preimage hg
  · intro n
    have hc : Continuous fun q => (1 - fade (g q - n)) * h n q + fade (g q - n) * h (n + 1) q := by
      have := continuous_fade
      have := hh n
      have := hh (n + 1)
      fun_prop
    exact hc.continuousOn.congr fun q hq => blend_on _ _ n hq.1 hq.2

theorem fract_add_one (x : ℝ) : Int.fract x - 1 = x - ((⌊x⌋ + 1 : ℤ) : ℝ) := by
  rw [Int.fract]; push_cast; ring

theorem noise2_blend (p : V2 ℝ) : noise2 Int.fract p =
    blend p.x fun i => blend p.y fun j => ramp2 (grad2 (hash2 i j)) (p.x - i) (p.y - j) := by
  simp only [noise2, Fin.sum_univ_two, Fin.isValue, Fin.val_zero, Fin.val_one, Nat.cast_zero,
    Nat.cast_one, add_zero, sub_zero, weight, if_true, one_ne_zero, if_false, blend, fract_add_one]
  simp only [← Int.self_sub_floor, Int.cast_add, Int.cast_one]
  ring
theorem noise3_blend (p : V3 ℝ) : noise3 Int.fract p =
    blend p.x fun i => blend p.y fun j => blend p.z fun k =>
      ramp3 (grad3 (hash3 i j k)) (p.x - i) (p.y - j) (p.z - k) := by
  simp only [noise3, Fin.sum_univ_two, Fin.isValue, Fin.val_zero, Fin.val_one, Nat.cast_zero,
    Nat.cast_one, add_zero, sub_zero, weight, if_true, one_ne_zero, if_false, blend, fract_add_one]
  simp only [← Int.self_sub_floor, Int.cast_add, Int.cast_one]
  ring
theorem noise4_blend (p : V4 ℝ) : noise4 Int.fract p =
    blend p.x fun i => blend p.y fun j => blend p.z fun k => blend p.w fun l =>
      ramp4 (grad4 (hash4 i j k l)) (p.x - i) (p.y - j) (p.z - k) (p.w - l) := by
  simp only [noise4, Fin.sum_univ_two, Fin.isValue, Fin.val_zero, Fin.val_one, Nat.cast_zero,
    Nat.cast_one, add_zero, sub_zero, weight, if_true, one_ne_zero, if_false, blend, fract_add_one]
  simp only [← Int.self_sub_floor, Int.cast_add, Int.cast_one]
  ring

theorem C71_continuous_vec2 : Continuous fun q : ℝ × ℝ => noise2 Int.fract ⟨q.1, q.2⟩ := by
  simp only [noise2_blend, ramp2]
  refine continuous_blend (by fun_prop) fun i => continuous_blend (by fun_prop) fun j => ?_
  fun_prop
theorem C71_continuous_vec3 :
    Continuous fun q : ℝ × ℝ × ℝ => noise3 Int.fract ⟨q.1, q.2.1, q.2.2⟩ := by
  simp only [noise3_blend, ramp3]
  refine continuous_blend (by fun_prop) fun i => continuous_blend (by fun_prop) fun j =>
    continuous_blend (by fun_prop) fun k => ?_
  fun_prop
theorem C71_continuous_vec4 :
    Continuous fun q : ℝ × ℝ × ℝ × ℝ => noise4 Int.fract ⟨q.1, q.2.1, q.2.2.1, q.2.2.2⟩ := by
  simp only [noise4_blend, ramp4]
  refine continuous_blend (by fun_prop) fun i => continuous_blend (by fun_prop) fun j =>
    continuous_blend (by fun_prop) fun k => continuous_blend (by fun_prop) fun l => ?_
  fun_prop

theorem fr_eq_fract {x : ℝ} (h : Int.fract x ≤ 0.999999940395355224609375) : fr x = Int.fract x := by
  rw [fr, Int.self_sub_floor, min_eq_left h]

/-- The code computes the continuous noise away from the cut-off of the fractional part. -/
theorem C71_agree_vec2 (p : V2 ℝ) (hx : Int.fract p.x ≤ 0.999999940395355224609375)
    (hy : Int.fract p.y ≤ 0.999999940395355224609375) :
    glm_perlin_vec2 p = 2.3 * noise2 Int.fract p := by
  rw [C71_perlin_vec2, noise2, noise2, fr_eq_fract hx, fr_eq_fract hy]
theorem C71_agree_vec3 (p : V3 ℝ) (hx : Int.fract p.x ≤ 0.999999940395355224609375)
    (hy : Int.fract p.y ≤ 0.999999940395355224609375)
    (hz : Int.fract p.z ≤ 0.999999940395355224609375) :
    glm_perlin_vec3 p = 2.2 * noise3 Int.fract p := by
  rw [C71_perlin_vec3, noise3, noise3, fr_eq_fract hx, fr_eq_fract hy, fr_eq_fract hz]
theorem C71_agree_vec4 (p : V4 ℝ) (hx : Int.fract p.x ≤ 0.999999940395355224609375)
    (hy : Int.fract p.y ≤ 0.999999940395355224609375)
    (hz : Int.fract p.z ≤ 0.999999940395355224609375)
    (hw : Int.fract p.w ≤ 0.999999940395355224609375) :
    glm_perlin_vec4 p = 2.2 * noise4 Int.fract p := by
  rw [C71_perlin_vec4, noise4, noise4, fr_eq_fract hx, fr_eq_fract hy, fr_eq_fract hz,
    fr_eq_fract hw]

/-- Such points exist: away from the lattice, with negative coordinates. -/
example : Int.fract (-3 / 2 : ℝ) ≤ 0.999999940395355224609375 := by
  have : ⌊(-3 / 2 : ℝ)⌋ = -2 := by rw [Int.floor_eq_iff]; norm_num
  rw [Int.fract, this]; norm_num

end Cglm
