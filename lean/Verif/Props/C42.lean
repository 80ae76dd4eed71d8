import Verif.Props.C41

/-! # C42: ray / sphere intersection -/

namespace Cglm

/-- the ray parameter `t` is on the surface of the sphere -/
def onSphere (o d : V3 ℝ) (s : V4 ℝ) (t : ℝ) : Prop :=
  ((rayAt o d t).sub s.xyz).dot ((rayAt o d t).sub s.xyz) = s.w * s.w

/-- the line parameter of the point nearest to the center -/
def nearT (o d : V3 ℝ) (s : V4 ℝ) : ℝ := d.dot (s.xyz.sub o)
/-- half chord length, squared -/
def disc (o d : V3 ℝ) (s : V4 ℝ) : ℝ :=
  s.w * s.w - ((s.xyz.sub o).sub (d.smul (nearT o d s))).dot ((s.xyz.sub o).sub (d.smul (nearT o d s)))

theorem onSphere_iff (o d : V3 ℝ) (hd : d.dot d = 1) (s : V4 ℝ) (t : ℝ) :
    onSphere o d s t ↔ (t - nearT o d s) ^ 2 = disc o d s := by
  obtain ⟨o1, o2, o3⟩ := o; obtain ⟨d1, d2, d3⟩ := d; obtain ⟨c1, c2, c3, r⟩ := s
  simp only [onSphere, nearT, disc, rayAt, V3.add, V3.smul, V3.sub, V3.dot, V4.xyz] at *
  generalize hn : d1 * (c1 - o1) + d2 * (c2 - o2) + d3 * (c3 - o3) = n
  constructor
  · intro h; linear_combination h + (n ^ 2 - t ^ 2) * hd + (2 * t - 2 * n) * hn
  · intro h; linear_combination h - (n ^ 2 - t ^ 2) * hd - (2 * t - 2 * n) * hn

theorem ray_sphere_eq (o d : V3 ℝ) (s : V4 ℝ) (a b : ℝ) : glm_ray_sphere o d s a b =
    (if disc o d s < 0 then (false, a, b) else
      let q := if 0 ≤ nearT o d s then nearT o d s + √(disc o d s) else nearT o d s - √(disc o d s)
      let r := ((s.xyz.sub o).dot (s.xyz.sub o) - s.w * s.w) / q
      if r < q then (if r < 0 ∧ q < 0 then (false, r, q) else (true, r, q))
      else (if q < 0 ∧ r < 0 then (false, q, r) else (true, q, r))) := by
  unfold glm_ray_sphere
  have hs : glm_vec3_sub (⟨s.x, s.y, s.z⟩ : V3 ℝ) o = s.xyz.sub o := by simp [cglm, V3.sub, V4.xyz]
  have hm : glm_vec3_mulsubs d (d.dot (s.xyz.sub o)) (s.xyz.sub o) = (s.xyz.sub o).sub (d.smul (nearT o d s)) := by
    ext <;> simp [cglm, V3.sub, V3.smul, nearT] <;> ring
  have hn : ∀ v : V3 ℝ, glm_vec3_norm2 v = v.dot v := fun v => by simp [cglm, V3.dot]
  simp only [hs, glm_vec3_dot_eq, hm, hn, flt_real, fle_real, lit_zero, Bool.and_eq_true, decide_eq_true_eq, sqrtf_real]
  rfl

/-- Vieta: the product of the two line parameters -/
theorem vieta (o d : V3 ℝ) (hd : d.dot d = 1) (s : V4 ℝ) :
    (s.xyz.sub o).dot (s.xyz.sub o) - s.w * s.w = nearT o d s ^ 2 - disc o d s := by
  obtain ⟨o1, o2, o3⟩ := o; obtain ⟨d1, d2, d3⟩ := d; obtain ⟨c1, c2, c3, r⟩ := s
  simp only [nearT, disc, V3.smul, V3.sub, V3.dot, V4.xyz] at *
  generalize hn : d1 * (c1 - o1) + d2 * (c2 - o2) + d3 * (c3 - o3) = n
  linear_combination (-n ^ 2) * hd + 2 * n * hn

/-- what is returned when the line meets the sphere.  Excluded is the case where the code divides zero by zero: the line touches
the sphere exactly at the origin of the ray. -/
theorem C42_roots (o d : V3 ℝ) (hd : d.dot d = 1) (s : V4 ℝ) (a b : ℝ) (h : 0 ≤ disc o d s)
    (hq : ¬ (nearT o d s = 0 ∧ disc o d s = 0)) :
    ∃ t1 t2, (glm_ray_sphere o d s a b).2 = (t1, t2) ∧ t1 ≤ t2 ∧ (∀ t, onSphere o d s t ↔ t = t1 ∨ t = t2) ∧
      ((glm_ray_sphere o d s a b).1 = true ↔ 0 ≤ t2) := by
  rw [ray_sphere_eq, if_neg (not_lt.mpr h)]
  rw [vieta o d hd s]
  simp only [onSphere_iff o d hd]
  have hS := Real.sq_sqrt h
  have hS0 := Real.sqrt_nonneg (disc o d s)
  have hq' : ¬ (nearT o d s = 0 ∧ √(disc o d s) = 0) := by
    rintro ⟨h1, h2⟩; exact hq ⟨h1, (Real.sqrt_eq_zero h).mp h2⟩
  rw [← hS]
  rw [Real.sqrt_sq hS0]
  generalize √(disc o d s) = S at *
  generalize nearT o d s = n at *
  have roots : ∀ t, (t - n) ^ 2 = S ^ 2 ↔ t = n - S ∨ t = n + S := by
    intro t
    rw [sq_eq_sq_iff_eq_or_eq_neg]
    constructor
    · rintro (h | h)
      · right; linarith
      · left; linarith
    · rintro (h | h)
      · right; linarith
      · left; linarith
  by_cases hn : 0 ≤ n
  · have hne : n + S ≠ 0 := fun h0 => hq' ⟨by linarith, by linarith⟩
    have hr : (n ^ 2 - S ^ 2) / (n + S) = n - S := by field_simp; ring
    simp only [if_pos hn, hr]
    by_cases hlt : n - S < n + S
    · refine ⟨n - S, n + S, ?_, hlt.le, roots, ?_⟩
      · simp only [if_pos hlt]; split_ifs <;> rfl
      · simp only [if_pos hlt]; split_ifs with h3
        · simp; linarith
        · simp; linarith
    · have hS0' : S = 0 := by linarith
      refine ⟨n + S, n - S, ?_, by linarith, ?_, ?_⟩
      · simp only [if_neg hlt]; split_ifs <;> rfl
      · intro t; rw [roots]; tauto
      · simp only [if_neg hlt]; split_ifs with h3
        · simp; linarith
        · simp; linarith
  · have hne : n - S ≠ 0 := fun h0 => by linarith
    have hr : (n ^ 2 - S ^ 2) / (n - S) = n + S := by field_simp; ring
    simp only [if_neg hn, hr]
    by_cases hlt : n + S < n - S
    · linarith
    · refine ⟨n - S, n + S, ?_, by linarith, roots, ?_⟩
      · simp only [if_neg hlt]; split_ifs <;> rfl
      · simp only [if_neg hlt]; split_ifs with h3
        · simp; linarith
        · push Not at h3
          simp only [true_iff]
          by_contra h4
          push Not at h4
          have := h3 (by linarith)
          linarith

/-- if the line misses the sphere the test fails and nothing is written -/
theorem C42_miss (o d : V3 ℝ) (hd : d.dot d = 1) (s : V4 ℝ) (a b : ℝ) (h : ∀ t, ¬ onSphere o d s t) :
    glm_ray_sphere o d s a b = (false, a, b) := by
  have : disc o d s < 0 := by
    by_contra hn
    push Not at hn
    apply h (nearT o d s + √(disc o d s))
    rw [onSphere_iff o d hd]
    rw [add_sub_cancel_left, Real.sq_sqrt hn]
  rw [ray_sphere_eq, if_pos this]

/-- decision: the ray (t ≥ 0) meets the sphere -/
theorem C42_hit (o d : V3 ℝ) (hd : d.dot d = 1) (s : V4 ℝ) (a b : ℝ) (hq : ¬ (nearT o d s = 0 ∧ disc o d s = 0)) :
    (glm_ray_sphere o d s a b).1 = true ↔ ∃ t, 0 ≤ t ∧ onSphere o d s t := by
  by_cases h : 0 ≤ disc o d s
  · obtain ⟨t1, t2, -, hle, hr, hb⟩ := C42_roots o d hd s a b h hq
    rw [hb]
    constructor
    · intro h2; exact ⟨t2, h2, (hr t2).mpr (Or.inr rfl)⟩
    · rintro ⟨t, h0, ht⟩
      rcases (hr t).mp ht with rfl | rfl <;> linarith
  · have : ∀ t, ¬ onSphere o d s t := by
      intro t ht; rw [onSphere_iff o d hd] at ht; exact h (ht ▸ sq_nonneg _)
    rw [C42_miss o d hd s a b this]
    simp only [Bool.false_eq_true, false_iff]
    rintro ⟨t, -, ht⟩; exact this t ht

/-- the excluded case is exactly a zero divisor in the code, and it is reachable: a ray along x from (0,1,0) and the unit sphere -/
theorem C42_zero_divisor (o d : V3 ℝ) (s : V4 ℝ) (h : 0 ≤ disc o d s) :
    (if 0 ≤ nearT o d s then nearT o d s + √(disc o d s) else nearT o d s - √(disc o d s)) = 0 ↔
      (nearT o d s = 0 ∧ disc o d s = 0) := by
  have hS0 := Real.sqrt_nonneg (disc o d s)
  rw [← Real.sqrt_eq_zero h]
  split_ifs with hn
  · constructor
    · intro h; exact ⟨by linarith, by linarith⟩
    · rintro ⟨h1, h2⟩; rw [h1, h2]; norm_num
  · constructor
    · intro h; linarith
    · rintro ⟨h1, h2⟩; linarith
theorem C42_zero_divisor_reachable : ∃ (o d : V3 ℝ) (s : V4 ℝ), d.dot d = 1 ∧ 0 < s.w ∧ nearT o d s = 0 ∧ disc o d s = 0 :=
  ⟨⟨0, 1, 0⟩, ⟨1, 0, 0⟩, ⟨0, 0, 0, 1⟩, by norm_num [V3.dot], by norm_num, by norm_num [nearT, V3.dot, V3.sub, V4.xyz],
    by norm_num [disc, nearT, V3.dot, V3.sub, V3.smul, V4.xyz]⟩

/-- a ray from outside through the center -/
example : ¬ (nearT ⟨-3, 0, 0⟩ ⟨1, 0, 0⟩ ⟨0, 0, 0, 1⟩ = 0 ∧ disc ⟨-3, 0, 0⟩ ⟨1, 0, 0⟩ ⟨0, 0, 0, 1⟩ = 0) ∧
    0 ≤ disc ⟨-3, 0, 0⟩ ⟨1, 0, 0⟩ ⟨0, 0, 0, 1⟩ := by
  norm_num [nearT, disc, V3.dot, V3.sub, V3.smul, V4.xyz]

end Cglm
