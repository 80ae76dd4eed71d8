import Verif.Props.C36

/-! # C39: box / sphere and box / circle tests

The code picks the maximum corner of the box for every coordinate where the center is outside, also when the center is below the
minimum (`box[!(a - 1)]` with `a = 1` on both sides).  So the test is sound but misses intersections on the minimum side. -/

namespace Cglm

/-- some point of the box is within the radius of the center -/
def boxMeetsBall (b : M2x3 ℝ) (s : V4 ℝ) : Prop :=
  ∃ p ∈ b.set, (p.x - s.x) ^ 2 + (p.y - s.y) ^ 2 + (p.z - s.z) ^ 2 ≤ s.w ^ 2
def boxMeetsDisk (b : M2 ℝ) (s : V3 ℝ) : Prop :=
  ∃ p ∈ b.set, (p.x - s.x) ^ 2 + (p.y - s.y) ^ 2 ≤ s.z ^ 2

/-- the squared offset the code uses for one coordinate -/
noncomputable def codeOff (l h x : ℝ) : ℝ := if x < l ∨ h < x then (x - h) ^ 2 else 0

theorem codeOff_eq (l h x : ℝ) (hl : l ≤ h) :
    glm_pow2 ((x - (if !(ine (b2i (flt x l) + b2i (flt h x) - 1) 0) then h else l)) *
      ofInt (b2i (ine (b2i (flt x l) + b2i (flt h x)) 0))) = codeOff l h x := by
  unfold codeOff
  by_cases h1 : x < l
  · have h2 : ¬ h < x := by linarith
    simp [cglm, h1, h2, b2i, ine]; ring
  · by_cases h2 : h < x
    · simp [cglm, h1, h2, b2i, ine]; ring
    · simp [cglm, h1, h2, b2i, ine]

/-- nearest point of an interval, and the true squared offset -/
theorem nearest (l h x : ℝ) (hl : l ≤ h) : ∃ y, l ≤ y ∧ y ≤ h ∧ (y - x) ^ 2 ≤ codeOff l h x ∧
    (l ≤ x → ∀ z, l ≤ z → z ≤ h → codeOff l h x ≤ (z - x) ^ 2) := by
  unfold codeOff
  by_cases h1 : x < l
  · refine ⟨l, le_rfl, hl, ?_, fun h => absurd h (not_le.mpr h1)⟩
    rw [if_pos (Or.inl h1)]
    nlinarith
  · by_cases h2 : h < x
    · refine ⟨h, hl, le_rfl, ?_, fun _ z _ hz => ?_⟩
      · rw [if_pos (Or.inr h2)]; exact (by ring : (h - x) ^ 2 = (x - h) ^ 2).le
      · rw [if_pos (Or.inr h2)]; nlinarith
    · refine ⟨x, not_lt.mp h1, not_lt.mp h2, ?_, fun _ z _ _ => ?_⟩
      · rw [if_neg (by tauto)]; simp
      · rw [if_neg (by tauto)]; positivity

theorem sphere_test (b : M2x3 ℝ) (hb : b.Valid) (s : V4 ℝ) : glm_aabb_sphere b s = true ↔
    codeOff b.c0.x b.c1.x s.x + codeOff b.c0.y b.c1.y s.y + codeOff b.c0.z b.c1.z s.z ≤ s.w ^ 2 := by
  unfold glm_aabb_sphere
  simp only [codeOff_eq _ _ _ hb.1, codeOff_eq _ _ _ hb.2.1, codeOff_eq _ _ _ hb.2.2, fle_real, decide_eq_true_eq]
  have : (glm_pow2 s.w : ℝ) = s.w ^ 2 := by simp [cglm]; ring
  rw [this]
theorem circle_test (b : M2 ℝ) (hb : b.Valid) (s : V3 ℝ) : glm_aabb2d_circle b s = true ↔
    codeOff b.c0.x b.c1.x s.x + codeOff b.c0.y b.c1.y s.y ≤ s.z ^ 2 := by
  unfold glm_aabb2d_circle
  simp only [codeOff_eq _ _ _ hb.1, codeOff_eq _ _ _ hb.2, fle_real, decide_eq_true_eq]
  have : (glm_pow2 s.z : ℝ) = s.z ^ 2 := by simp [cglm]; ring
  rw [this]

/-- a reported intersection is a real one -/
theorem C39_sphere_sound_partial (b : M2x3 ℝ) (hb : b.Valid) (s : V4 ℝ) (h : glm_aabb_sphere b s = true) : boxMeetsBall b s := by
  rw [sphere_test b hb] at h
  obtain ⟨x, x1, x2, x3, -⟩ := nearest _ _ s.x hb.1
  obtain ⟨y, y1, y2, y3, -⟩ := nearest _ _ s.y hb.2.1
  obtain ⟨z, z1, z2, z3, -⟩ := nearest _ _ s.z hb.2.2
  exact ⟨⟨x, y, z⟩, ⟨x1, x2, y1, y2, z1, z2⟩, by simp only []; linarith⟩
/-- exact when the center is not below the minimum corner in any coordinate -/
theorem C39_sphere_exact_partial (b : M2x3 ℝ) (hb : b.Valid) (s : V4 ℝ) (hx : b.c0.x ≤ s.x) (hy : b.c0.y ≤ s.y) (hz : b.c0.z ≤ s.z) :
    glm_aabb_sphere b s = true ↔ boxMeetsBall b s := by
  refine ⟨C39_sphere_sound_partial b hb s, ?_⟩
  rintro ⟨p, ⟨h1, h2, h3, h4, h5, h6⟩, hp⟩
  rw [sphere_test b hb]
  obtain ⟨x, x1, x2, -, x3⟩ := nearest _ _ s.x hb.1
  obtain ⟨y, y1, y2, -, y3⟩ := nearest _ _ s.y hb.2.1
  obtain ⟨z, z1, z2, -, z3⟩ := nearest _ _ s.z hb.2.2
  have := x3 hx p.x h1 h2; have := y3 hy p.y h3 h4; have := z3 hz p.z h5 h6
  linarith
/-- the full claim is false.  Witness: the unit cube and the ball of radius 1 at (-1/2, 1/2, 1/2), which contains (0, 1/2, 1/2) -/
theorem C39_sphere_refuted : ¬ ∀ (b : M2x3 ℝ) (s : V4 ℝ), b.Valid → (glm_aabb_sphere b s = true ↔ boxMeetsBall b s) := by
  intro h
  have hv : (⟨⟨0, 0, 0⟩, ⟨1, 1, 1⟩⟩ : M2x3 ℝ).Valid := by norm_num [M2x3.Valid]
  have := (h ⟨⟨0, 0, 0⟩, ⟨1, 1, 1⟩⟩ ⟨-1/2, 1/2, 1/2, 1⟩ hv).mpr ⟨⟨0, 1/2, 1/2⟩, by norm_num [M2x3.set], by norm_num⟩
  rw [sphere_test _ hv] at this
  norm_num [codeOff] at this

theorem C39_circle_sound_partial (b : M2 ℝ) (hb : b.Valid) (s : V3 ℝ) (h : glm_aabb2d_circle b s = true) : boxMeetsDisk b s := by
  rw [circle_test b hb] at h
  obtain ⟨x, x1, x2, x3, -⟩ := nearest _ _ s.x hb.1
  obtain ⟨y, y1, y2, y3, -⟩ := nearest _ _ s.y hb.2
  exact ⟨⟨x, y⟩, ⟨x1, x2, y1, y2⟩, by simp only []; linarith⟩
theorem C39_circle_exact_partial (b : M2 ℝ) (hb : b.Valid) (s : V3 ℝ) (hx : b.c0.x ≤ s.x) (hy : b.c0.y ≤ s.y) :
    glm_aabb2d_circle b s = true ↔ boxMeetsDisk b s := by
  refine ⟨C39_circle_sound_partial b hb s, ?_⟩
  rintro ⟨p, ⟨h1, h2, h3, h4⟩, hp⟩
  rw [circle_test b hb]
  obtain ⟨x, x1, x2, -, x3⟩ := nearest _ _ s.x hb.1
  obtain ⟨y, y1, y2, -, y3⟩ := nearest _ _ s.y hb.2
  have := x3 hx p.x h1 h2; have := y3 hy p.y h3 h4
  linarith
theorem C39_circle_refuted : ¬ ∀ (b : M2 ℝ) (s : V3 ℝ), b.Valid → (glm_aabb2d_circle b s = true ↔ boxMeetsDisk b s) := by
  intro h
  have hv : (⟨⟨0, 0⟩, ⟨1, 1⟩⟩ : M2 ℝ).Valid := by norm_num [M2.Valid]
  have := (h ⟨⟨0, 0⟩, ⟨1, 1⟩⟩ ⟨-1/2, 1/2, 1⟩ hv).mpr ⟨⟨0, 1/2⟩, by norm_num [M2.set], by norm_num⟩
  rw [circle_test _ hv] at this
  norm_num [codeOff] at this

/-- both outcomes occur under the hypotheses of the exactness theorem -/
example : boxMeetsBall ⟨⟨0, 0, 0⟩, ⟨1, 1, 1⟩⟩ ⟨2, 1/2, 1/2, 1⟩ := ⟨⟨1, 1/2, 1/2⟩, by norm_num [M2x3.set], by norm_num⟩

end Cglm
