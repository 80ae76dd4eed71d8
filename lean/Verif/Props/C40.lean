import Verif.Props.C37

/-! # C40: spheres -/

namespace Cglm

theorem V3.cauchy (a b : V3 ℝ) : a.dot b ≤ a.len * b.len := by
  have h : (a.dot b) ^ 2 ≤ (a.len * b.len) ^ 2 := by
    rw [mul_pow, sq a.len, sq b.len, V3.len_sq, V3.len_sq]
    simp only [V3.dot]
    nlinarith [sq_nonneg (a.x * b.y - a.y * b.x), sq_nonneg (a.y * b.z - a.z * b.y), sq_nonneg (a.z * b.x - a.x * b.z)]
  exact le_of_abs_le (abs_le_of_sq_le_sq h (mul_nonneg a.len_nonneg b.len_nonneg))
theorem V3.len_add_le (a b : V3 ℝ) : (a.add b).len ≤ a.len + b.len := by
  have h := V3.cauchy a b
  have e : (a.add b).len * (a.add b).len = a.len * a.len + b.len * b.len + 2 * a.dot b := by
    rw [V3.len_sq, V3.len_sq, V3.len_sq]; simp only [V3.dot, V3.add]; ring
  have h1 := a.len_nonneg; have h2 := b.len_nonneg
  by_contra hn
  push Not at hn
  nlinarith
theorem V3.len_smul (a : V3 ℝ) (s : ℝ) : (a.smul s).len = |s| * a.len := by
  unfold V3.len
  have : (a.smul s).dot (a.smul s) = s ^ 2 * a.dot a := by simp only [V3.dot, V3.smul]; ring
  rw [this, Real.sqrt_mul (sq_nonneg s), Real.sqrt_sq_eq_abs]
theorem V3.dist_comm (a b : V3 ℝ) : (a.sub b).len = (b.sub a).len := by
  unfold V3.len; congr 1; simp only [V3.dot, V3.sub]; ring
theorem V3.dist_triangle (a b c : V3 ℝ) : (a.sub c).len ≤ (a.sub b).len + (b.sub c).len := by
  have : a.sub c = (a.sub b).add (b.sub c) := by ext <;> simp [V3.sub, V3.add]
  rw [this]; exact V3.len_add_le _ _

/-- the closed ball of a sphere `(center, radius)` -/
def V4.ball (s : V4 ℝ) : Set (V3 ℝ) := {p | (p.sub s.xyz).len ≤ s.w}

theorem dist2_eq (a b : V3 ℝ) : glm_vec3_distance2 a b = (a.sub b).len * (a.sub b).len := by
  rw [V3.len_sq]; simp [cglm, V3.dot, V3.sub]
theorem dist_eq (a b : V3 ℝ) : glm_vec3_distance a b = (a.sub b).len := by
  simp [cglm, V3.len, V3.dot, V3.sub]

theorem C40_sphere_sphere (s t : V4 ℝ) (hs : 0 ≤ s.w) (ht : 0 ≤ t.w) :
    glm_sphere_sphere s t = true ↔ (s.ball ∩ t.ball).Nonempty := by
  have hn := V3.len_nonneg (s.xyz.sub t.xyz)
  have e : glm_sphere_sphere s t = true ↔ (s.xyz.sub t.xyz).len ≤ s.w + t.w := by
    unfold glm_sphere_sphere
    have h1 : (⟨s.x, s.y, s.z⟩ : V3 ℝ) = s.xyz := rfl
    have h2 : (⟨t.x, t.y, t.z⟩ : V3 ℝ) = t.xyz := rfl
    have h3 : (glm_pow2 (s.w + t.w) : ℝ) = (s.w + t.w) * (s.w + t.w) := by simp [cglm]
    rw [h1, h2, dist2_eq, h3]
    simp only [fle_real, decide_eq_true_eq]
    constructor
    · intro h; exact abs_le_of_sq_le_sq' (by nlinarith) (by linarith) |>.2
    · intro h; exact mul_self_le_mul_self hn h
  rw [e]
  constructor
  · intro h
    rcases eq_or_lt_of_le (add_nonneg hs ht) with h0 | h0
    · have hz : (s.xyz.sub t.xyz).len = 0 := le_antisymm (by linarith) hn
      refine ⟨s.xyz, ?_, ?_⟩
      · have : s.xyz.sub s.xyz = ⟨0, 0, 0⟩ := by ext <;> simp [V3.sub]
        simp only [V4.ball, Set.mem_setOf_eq, this]
        simpa [V3.len, V3.dot] using hs
      · simp only [V4.ball, Set.mem_setOf_eq, hz]; exact ht
    · have k : s.w / (s.w + t.w) * (s.w + t.w) = s.w := by field_simp
      have k2 : t.w / (s.w + t.w) * (s.w + t.w) = t.w := by field_simp
      have k3 : s.w / (s.w + t.w) + t.w / (s.w + t.w) = 1 := by field_simp
      have p1 : 0 ≤ s.w / (s.w + t.w) := by positivity
      have p2 : 0 ≤ t.w / (s.w + t.w) := by positivity
      generalize s.w / (s.w + t.w) = f at *
      generalize t.w / (s.w + t.w) = g at *
      refine ⟨s.xyz.add ((t.xyz.sub s.xyz).smul f), ?_, ?_⟩
      · have : (s.xyz.add ((t.xyz.sub s.xyz).smul f)).sub s.xyz = (t.xyz.sub s.xyz).smul f := by
          ext <;> simp [V3.sub, V3.add, V3.smul]
        simp only [V4.ball, Set.mem_setOf_eq, this, V3.len_smul, abs_of_nonneg p1]
        rw [V3.dist_comm]; nlinarith
      · have : (s.xyz.add ((t.xyz.sub s.xyz).smul f)).sub t.xyz = (s.xyz.sub t.xyz).smul g := by
          have : g = 1 - f := by linarith
          rw [this]
          ext <;> simp [V3.sub, V3.add, V3.smul] <;> ring
        simp only [V4.ball, Set.mem_setOf_eq, this, V3.len_smul, abs_of_nonneg p2]
        nlinarith
  · rintro ⟨p, hp, hq⟩
    simp only [V4.ball, Set.mem_setOf_eq] at hp hq
    have := V3.dist_triangle s.xyz p t.xyz
    rw [V3.dist_comm s.xyz p] at this
    linarith

theorem C40_sphere_point (s : V4 ℝ) (hs : 0 ≤ s.w) (p : V3 ℝ) : glm_sphere_point s p = true ↔ p ∈ s.ball := by
  unfold glm_sphere_point
  have h1 : (⟨s.x, s.y, s.z⟩ : V3 ℝ) = s.xyz := rfl
  rw [h1, dist2_eq]
  simp only [fle_real, decide_eq_true_eq, V4.ball, Set.mem_setOf_eq]
  exact ⟨fun h => abs_le_of_sq_le_sq' (by nlinarith) hs |>.2, fun h => mul_self_le_mul_self (V3.len_nonneg _) h⟩

theorem C40_sphere_merge (s t : V4 ℝ) (hs : 0 ≤ s.w) (ht : 0 ≤ t.w) :
    s.ball ∪ t.ball ⊆ (glm_sphere_merge s t).ball := by
  have h1 : (⟨s.x, s.y, s.z⟩ : V3 ℝ) = s.xyz := rfl
  have h2 : (⟨t.x, t.y, t.z⟩ : V3 ℝ) = t.xyz := rfl
  have hw : (glm_sphere_merge s t).w = max (max ((s.xyz.sub t.xyz).len + s.w + t.w) s.w) t.w := by
    unfold glm_sphere_merge
    simp only [h1, h2, dist_eq, glm_max_eq]
  have hc : (glm_sphere_merge s t).xyz = (s.xyz.add t.xyz).smul (1 / 2) := by
    unfold glm_sphere_merge
    ext <;> simp [V4.xyz, V3.add, V3.smul, cglm] <;> ring
  have e1 : (s.xyz.sub (glm_sphere_merge s t).xyz) = (s.xyz.sub t.xyz).smul (1 / 2) := by
    rw [hc]; ext <;> simp [V3.add, V3.smul, V3.sub] <;> ring
  have e2 : (t.xyz.sub (glm_sphere_merge s t).xyz) = (t.xyz.sub s.xyz).smul (1 / 2) := by
    rw [hc]; ext <;> simp [V3.add, V3.smul, V3.sub] <;> ring
  have hn := V3.len_nonneg (s.xyz.sub t.xyz)
  have hm : (s.xyz.sub t.xyz).len + s.w + t.w ≤ (glm_sphere_merge s t).w := by
    rw [hw]; exact (le_max_left _ _).trans (le_max_left _ _)
  rintro p (hp | hp) <;> simp only [V4.ball, Set.mem_setOf_eq] at hp ⊢
  · have := V3.dist_triangle p s.xyz (glm_sphere_merge s t).xyz
    rw [e1, V3.len_smul, abs_of_pos (by norm_num)] at this
    linarith
  · have := V3.dist_triangle p t.xyz (glm_sphere_merge s t).xyz
    rw [e2, V3.len_smul, abs_of_pos (by norm_num), V3.dist_comm t.xyz] at this
    linarith

/-- the merged sphere is not the smallest one: for two unit spheres at distance 2 the code returns radius 4 where 2 is enough -/
theorem C40_merge_not_smallest : ∃ s t u : V4 ℝ, 0 ≤ s.w ∧ 0 ≤ t.w ∧ s.ball ∪ t.ball ⊆ u.ball ∧ u.w < (glm_sphere_merge s t).w := by
  refine ⟨⟨-1, 0, 0, 1⟩, ⟨1, 0, 0, 1⟩, ⟨0, 0, 0, 2⟩, by norm_num, by norm_num, ?_, ?_⟩
  · have k : ∀ c : V3 ℝ, c.len = 1 → ∀ p : V3 ℝ, (p.sub c).len ≤ 1 → (p.sub ⟨0, 0, 0⟩).len ≤ 2 := by
      intro c hc p hp
      have h := V3.dist_triangle p c ⟨0, 0, 0⟩
      have : c.sub ⟨0, 0, 0⟩ = c := by ext <;> simp [V3.sub]
      rw [this, hc] at h
      linarith
    rintro p (hp | hp)
    · exact k ⟨-1, 0, 0⟩ (by simp [V3.len, V3.dot]) p hp
    · exact k ⟨1, 0, 0⟩ (by simp [V3.len, V3.dot]) p hp
  · have : (2 : ℝ) < (glm_vec3_distance (⟨-1, 0, 0⟩ : V3 ℝ) ⟨1, 0, 0⟩) + 1 + 1 := by
      have : 0 < (glm_vec3_distance (⟨-1, 0, 0⟩ : V3 ℝ) ⟨1, 0, 0⟩) := by
        rw [dist_eq]; exact Real.sqrt_pos.mpr (by norm_num [V3.dot, V3.sub])
      linarith
    unfold glm_sphere_merge
    simp only [glm_max_eq]
    exact lt_of_lt_of_le this ((le_max_left _ _).trans (le_max_left _ _))

theorem C40_sphere_transform (s : V4 ℝ) (m : M4 ℝ) :
    (glm_sphere_transform s m).xyz = m.apply s.xyz ∧ (glm_sphere_transform s m).w = s.w := by
  constructor
  · rw [M4.apply_eq]
    ext <;> simp [cglm, V4.xyz] <;> ring
  · simp [cglm]
theorem C40_sphere_radii (s : V4 ℝ) : glm_sphere_radii s = s.w := rfl

/-- under a rigid motion the transformed sphere is the image of the sphere (for a scaling matrix it is not: the radius is kept) -/
theorem C40_transform_rigid (s : V4 ℝ) (m : M4 ℝ) (hm : m.block.mat.transpose * m.block.mat = 1) (p : V3 ℝ) :
    m.apply p ∈ (glm_sphere_transform s m).ball ↔ p ∈ s.ball := by
  have e : ((m.apply p).sub (m.apply s.xyz)).dot ((m.apply p).sub (m.apply s.xyz)) = (p.sub s.xyz).dot (p.sub s.xyz) := by
    have h : ∀ i j, (m.block.mat.transpose * m.block.mat) i j = (1 : Matrix (Fin 3) (Fin 3) ℝ) i j := fun i j => by rw [hm]
    have h00 := h 0 0; have h01 := h 0 1; have h02 := h 0 2; have h11 := h 1 1; have h12 := h 1 2; have h22 := h 2 2
    simp [M4.block, M3.mat, Matrix.mul_apply, Fin.sum_univ_succ] at h00 h01 h02 h11 h12 h22
    rw [M4.apply_eq, M4.apply_eq]
    simp only [V3.sub, V3.dot]
    linear_combination (p.x - s.xyz.x) ^ 2 * h00 + (p.y - s.xyz.y) ^ 2 * h11 + (p.z - s.xyz.z) ^ 2 * h22 +
      2 * (p.x - s.xyz.x) * (p.y - s.xyz.y) * h01 + 2 * (p.x - s.xyz.x) * (p.z - s.xyz.z) * h02 +
      2 * (p.y - s.xyz.y) * (p.z - s.xyz.z) * h12
  have hl : ((m.apply p).sub (m.apply s.xyz)).len = (p.sub s.xyz).len := by unfold V3.len; rw [e]
  obtain ⟨h1, h2⟩ := C40_sphere_transform s m
  simp only [V4.ball, Set.mem_setOf_eq, h1, h2, hl]

example : (⟨⟨0, 1, 0, 0⟩, ⟨-1, 0, 0, 0⟩, ⟨0, 0, 1, 0⟩, ⟨5, 6, 7, 1⟩⟩ : M4 ℝ).block.mat.transpose *
    (⟨⟨0, 1, 0, 0⟩, ⟨-1, 0, 0, 0⟩, ⟨0, 0, 1, 0⟩, ⟨5, 6, 7, 1⟩⟩ : M4 ℝ).block.mat = 1 := by
  ext i j; fin_cases i <;> fin_cases j <;> simp [M4.block, M3.mat, Matrix.mul_apply, Fin.sum_univ_succ]

end Cglm
