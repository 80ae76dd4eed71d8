import Verif.Props.C36

/-! # C37: transforming a box -/

namespace Cglm

/-- image of a point under an affine matrix -/
noncomputable def M4.apply (m : M4 ℝ) (p : V3 ℝ) : V3 ℝ :=
  ⟨m.mat.mulVec (p.hom 1).vec 0, m.mat.mulVec (p.hom 1).vec 1, m.mat.mulVec (p.hom 1).vec 2⟩
def V2.hom (v : V2 ℝ) (w : ℝ) : V3 ℝ := ⟨v.x, v.y, w⟩
noncomputable def M3.apply (m : M3 ℝ) (p : V2 ℝ) : V2 ℝ :=
  ⟨m.mat.mulVec (p.hom 1).vec 0, m.mat.mulVec (p.hom 1).vec 1⟩
theorem M4.apply_eq (m : M4 ℝ) (p : V3 ℝ) : m.apply p =
    ⟨m.c0.x * p.x + m.c1.x * p.y + m.c2.x * p.z + m.c3.x, m.c0.y * p.x + m.c1.y * p.y + m.c2.y * p.z + m.c3.y,
      m.c0.z * p.x + m.c1.z * p.y + m.c2.z * p.z + m.c3.z⟩ := by
  ext <;> simp [M4.apply, M4.mat, V3.hom, V4.vec, Matrix.mulVec, dotProduct, Fin.sum_univ_succ] <;> ring
theorem M3.apply_eq (m : M3 ℝ) (p : V2 ℝ) : m.apply p =
    ⟨m.c0.x * p.x + m.c1.x * p.y + m.c2.x, m.c0.y * p.x + m.c1.y * p.y + m.c2.y⟩ := by
  ext <;> simp [M3.apply, M3.mat, V2.hom, V3.vec, Matrix.mulVec, dotProduct, Fin.sum_univ_succ] <;> ring

theorem mm_bounds (c l h x : ℝ) (h1 : l ≤ x) (h2 : x ≤ h) :
    min (c * l) (c * h) ≤ c * x ∧ c * x ≤ max (c * l) (c * h) := by
  rw [min_le_iff, le_max_iff]
  rcases le_total 0 c with hc | hc
  · exact ⟨Or.inl (mul_le_mul_of_nonneg_left h1 hc), Or.inr (mul_le_mul_of_nonneg_left h2 hc)⟩
  · exact ⟨Or.inr (mul_le_mul_of_nonpos_left h2 hc), Or.inl (mul_le_mul_of_nonpos_left h1 hc)⟩
theorem min_pick (c l h : ℝ) : ∃ x, (x = l ∨ x = h) ∧ c * x = min (c * l) (c * h) := by
  rcases min_choice (c * l) (c * h) with e | e <;> rw [e]
  · exact ⟨l, Or.inl rfl, rfl⟩
  · exact ⟨h, Or.inr rfl, rfl⟩
theorem max_pick (c l h : ℝ) : ∃ x, (x = l ∨ x = h) ∧ c * x = max (c * l) (c * h) := by
  rcases max_choice (c * l) (c * h) with e | e <;> rw [e]
  · exact ⟨l, Or.inl rfl, rfl⟩
  · exact ⟨h, Or.inr rfl, rfl⟩

/-- the corners of a box: each coordinate is the minimum or the maximum -/
def M2x3.corners (b : M2x3 ℝ) : Set (V3 ℝ) :=
  {p | (p.x = b.c0.x ∨ p.x = b.c1.x) ∧ (p.y = b.c0.y ∨ p.y = b.c1.y) ∧ (p.z = b.c0.z ∨ p.z = b.c1.z)}
def M2.corners (b : M2 ℝ) : Set (V2 ℝ) := {p | (p.x = b.c0.x ∨ p.x = b.c1.x) ∧ (p.y = b.c0.y ∨ p.y = b.c1.y)}

theorem aabb_transform_eq (b : M2x3 ℝ) (m : M4 ℝ) : glm_aabb_transform b m =
    ⟨⟨min (m.c0.x * b.c0.x) (m.c0.x * b.c1.x) + min (m.c1.x * b.c0.y) (m.c1.x * b.c1.y) + min (m.c2.x * b.c0.z) (m.c2.x * b.c1.z) + m.c3.x,
      min (m.c0.y * b.c0.x) (m.c0.y * b.c1.x) + min (m.c1.y * b.c0.y) (m.c1.y * b.c1.y) + min (m.c2.y * b.c0.z) (m.c2.y * b.c1.z) + m.c3.y,
      min (m.c0.z * b.c0.x) (m.c0.z * b.c1.x) + min (m.c1.z * b.c0.y) (m.c1.z * b.c1.y) + min (m.c2.z * b.c0.z) (m.c2.z * b.c1.z) + m.c3.z⟩,
     ⟨max (m.c0.x * b.c0.x) (m.c0.x * b.c1.x) + max (m.c1.x * b.c0.y) (m.c1.x * b.c1.y) + max (m.c2.x * b.c0.z) (m.c2.x * b.c1.z) + m.c3.x,
      max (m.c0.y * b.c0.x) (m.c0.y * b.c1.x) + max (m.c1.y * b.c0.y) (m.c1.y * b.c1.y) + max (m.c2.y * b.c0.z) (m.c2.y * b.c1.z) + m.c3.y,
      max (m.c0.z * b.c0.x) (m.c0.z * b.c1.x) + max (m.c1.z * b.c0.y) (m.c1.z * b.c1.y) + max (m.c2.z * b.c0.z) (m.c2.z * b.c1.z) + m.c3.z⟩⟩ := by
  simp only [glm_aabb_transform, glm_vec3_scale, glm_vec3, glm_vec3_minadd, glm_vec3_maxadd, glm_vec3_copy, glm_min_eq, glm_max_eq]
  ext <;> simp only [] <;> ring
theorem aabb2d_transform_eq (b : M2 ℝ) (m : M3 ℝ) : glm_aabb2d_transform b m =
    ⟨⟨min (m.c0.x * b.c0.x) (m.c0.x * b.c1.x) + min (m.c1.x * b.c0.y) (m.c1.x * b.c1.y) + m.c2.x,
      min (m.c0.y * b.c0.x) (m.c0.y * b.c1.x) + min (m.c1.y * b.c0.y) (m.c1.y * b.c1.y) + m.c2.y⟩,
     ⟨max (m.c0.x * b.c0.x) (m.c0.x * b.c1.x) + max (m.c1.x * b.c0.y) (m.c1.x * b.c1.y) + m.c2.x,
      max (m.c0.y * b.c0.x) (m.c0.y * b.c1.x) + max (m.c1.y * b.c0.y) (m.c1.y * b.c1.y) + m.c2.y⟩⟩ := by
  simp only [glm_aabb2d_transform, glm_vec2_scale, glm_vec2, glm_vec2_minadd, glm_vec2_maxadd, glm_vec2_copy, glm_min_eq, glm_max_eq]
  ext <;> simp only [] <;> ring

theorem C37_aabb_contains (b : M2x3 ℝ) (m : M4 ℝ) (p : V3 ℝ) (hp : p ∈ b.set) :
    m.apply p ∈ (glm_aabb_transform b m).set := by
  obtain ⟨h1, h2, h3, h4, h5, h6⟩ := hp
  rw [aabb_transform_eq, M4.apply_eq]
  have k := fun c => mm_bounds c _ _ _ h1 h2
  have l := fun c => mm_bounds c _ _ _ h3 h4
  have n := fun c => mm_bounds c _ _ _ h5 h6
  have := k m.c0.x; have := l m.c1.x; have := n m.c2.x
  have := k m.c0.y; have := l m.c1.y; have := n m.c2.y
  have := k m.c0.z; have := l m.c1.z; have := n m.c2.z
  refine ⟨?_, ?_, ?_, ?_, ?_, ?_⟩ <;> simp only [] <;> linarith
theorem C37_aabb2d_contains (b : M2 ℝ) (m : M3 ℝ) (p : V2 ℝ) (hp : p ∈ b.set) :
    m.apply p ∈ (glm_aabb2d_transform b m).set := by
  obtain ⟨h1, h2, h3, h4⟩ := hp
  rw [aabb2d_transform_eq, M3.apply_eq]
  have k := fun c => mm_bounds c _ _ _ h1 h2
  have l := fun c => mm_bounds c _ _ _ h3 h4
  have := k m.c0.x; have := l m.c1.x
  have := k m.c0.y; have := l m.c1.y
  refine ⟨?_, ?_, ?_, ?_⟩ <;> simp only [] <;> linarith

/-- every face of the result is touched by the image of a corner -/
theorem C37_aabb_faces (b : M2x3 ℝ) (m : M4 ℝ) :
    (∃ p ∈ b.corners, (m.apply p).x = (glm_aabb_transform b m).c0.x) ∧ (∃ p ∈ b.corners, (m.apply p).x = (glm_aabb_transform b m).c1.x) ∧
    (∃ p ∈ b.corners, (m.apply p).y = (glm_aabb_transform b m).c0.y) ∧ (∃ p ∈ b.corners, (m.apply p).y = (glm_aabb_transform b m).c1.y) ∧
    (∃ p ∈ b.corners, (m.apply p).z = (glm_aabb_transform b m).c0.z) ∧ (∃ p ∈ b.corners, (m.apply p).z = (glm_aabb_transform b m).c1.z) := by
  simp only [aabb_transform_eq, M4.apply_eq]
  have kmin : ∀ c d e t : ℝ, ∃ p ∈ b.corners, c * p.x + d * p.y + e * p.z + t =
      min (c * b.c0.x) (c * b.c1.x) + min (d * b.c0.y) (d * b.c1.y) + min (e * b.c0.z) (e * b.c1.z) + t := by
    intro c d e t
    obtain ⟨x, hx, ex⟩ := min_pick c b.c0.x b.c1.x
    obtain ⟨y, hy, ey⟩ := min_pick d b.c0.y b.c1.y
    obtain ⟨z, hz, ez⟩ := min_pick e b.c0.z b.c1.z
    exact ⟨⟨x, y, z⟩, ⟨hx, hy, hz⟩, by rw [← ex, ← ey, ← ez]⟩
  have kmax : ∀ c d e t : ℝ, ∃ p ∈ b.corners, c * p.x + d * p.y + e * p.z + t =
      max (c * b.c0.x) (c * b.c1.x) + max (d * b.c0.y) (d * b.c1.y) + max (e * b.c0.z) (e * b.c1.z) + t := by
    intro c d e t
    obtain ⟨x, hx, ex⟩ := max_pick c b.c0.x b.c1.x
    obtain ⟨y, hy, ey⟩ := max_pick d b.c0.y b.c1.y
    obtain ⟨z, hz, ez⟩ := max_pick e b.c0.z b.c1.z
    exact ⟨⟨x, y, z⟩, ⟨hx, hy, hz⟩, by rw [← ex, ← ey, ← ez]⟩
  exact ⟨kmin _ _ _ _, kmax _ _ _ _, kmin _ _ _ _, kmax _ _ _ _, kmin _ _ _ _, kmax _ _ _ _⟩
theorem C37_aabb2d_faces (b : M2 ℝ) (m : M3 ℝ) :
    (∃ p ∈ b.corners, (m.apply p).x = (glm_aabb2d_transform b m).c0.x) ∧ (∃ p ∈ b.corners, (m.apply p).x = (glm_aabb2d_transform b m).c1.x) ∧
    (∃ p ∈ b.corners, (m.apply p).y = (glm_aabb2d_transform b m).c0.y) ∧ (∃ p ∈ b.corners, (m.apply p).y = (glm_aabb2d_transform b m).c1.y) := by
  simp only [aabb2d_transform_eq, M3.apply_eq]
  have kmin : ∀ c d t : ℝ, ∃ p ∈ b.corners, c * p.x + d * p.y + t =
      min (c * b.c0.x) (c * b.c1.x) + min (d * b.c0.y) (d * b.c1.y) + t := by
    intro c d t
    obtain ⟨x, hx, ex⟩ := min_pick c b.c0.x b.c1.x
    obtain ⟨y, hy, ey⟩ := min_pick d b.c0.y b.c1.y
    exact ⟨⟨x, y⟩, ⟨hx, hy⟩, by rw [← ex, ← ey]⟩
  have kmax : ∀ c d t : ℝ, ∃ p ∈ b.corners, c * p.x + d * p.y + t =
      max (c * b.c0.x) (c * b.c1.x) + max (d * b.c0.y) (d * b.c1.y) + t := by
    intro c d t
    obtain ⟨x, hx, ex⟩ := max_pick c b.c0.x b.c1.x
    obtain ⟨y, hy, ey⟩ := max_pick d b.c0.y b.c1.y
    exact ⟨⟨x, y⟩, ⟨hx, hy⟩, by rw [← ex, ← ey]⟩
  exact ⟨kmin _ _ _, kmax _ _ _, kmin _ _ _, kmax _ _ _⟩

theorem corners_sub (b : M2x3 ℝ) (hb : b.Valid) : b.corners ⊆ b.set := by
  obtain ⟨h1, h2, h3⟩ := hb
  rintro p ⟨hx, hy, hz⟩
  simp only [M2x3.set, Set.mem_setOf_eq]
  rcases hx with hx | hx <;> rcases hy with hy | hy <;> rcases hz with hz | hz <;> rw [hx, hy, hz] <;> simp [h1, h2, h3]
theorem corners_sub2 (b : M2 ℝ) (hb : b.Valid) : b.corners ⊆ b.set := by
  obtain ⟨h1, h2⟩ := hb
  rintro p ⟨hx, hy⟩
  simp only [M2.set, Set.mem_setOf_eq]
  rcases hx with hx | hx <;> rcases hy with hy | hy <;> rw [hx, hy] <;> simp [h1, h2]

/-- hence the result is the smallest box containing the image of the box -/
theorem C37_aabb_smallest (b : M2x3 ℝ) (hb : b.Valid) (m : M4 ℝ) (c : M2x3 ℝ) (hc : ∀ p ∈ b.set, m.apply p ∈ c.set) :
    (glm_aabb_transform b m).set ⊆ c.set := by
  obtain ⟨⟨p1, h1, e1⟩, ⟨p2, h2, e2⟩, ⟨p3, h3, e3⟩, ⟨p4, h4, e4⟩, ⟨p5, h5, e5⟩, ⟨p6, h6, e6⟩⟩ := C37_aabb_faces b m
  rintro q ⟨g1, g2, g3, g4, g5, g6⟩
  have k1 := (hc p1 (corners_sub b hb h1)).1; have k2 := (hc p2 (corners_sub b hb h2)).2.1
  have k3 := (hc p3 (corners_sub b hb h3)).2.2.1; have k4 := (hc p4 (corners_sub b hb h4)).2.2.2.1
  have k5 := (hc p5 (corners_sub b hb h5)).2.2.2.2.1; have k6 := (hc p6 (corners_sub b hb h6)).2.2.2.2.2
  exact ⟨by linarith, by linarith, by linarith, by linarith, by linarith, by linarith⟩
theorem C37_aabb2d_smallest (b : M2 ℝ) (hb : b.Valid) (m : M3 ℝ) (c : M2 ℝ) (hc : ∀ p ∈ b.set, m.apply p ∈ c.set) :
    (glm_aabb2d_transform b m).set ⊆ c.set := by
  obtain ⟨⟨p1, h1, e1⟩, ⟨p2, h2, e2⟩, ⟨p3, h3, e3⟩, ⟨p4, h4, e4⟩⟩ := C37_aabb2d_faces b m
  rintro q ⟨g1, g2, g3, g4⟩
  have k1 := (hc p1 (corners_sub2 b hb h1)).1; have k2 := (hc p2 (corners_sub2 b hb h2)).2.1
  have k3 := (hc p3 (corners_sub2 b hb h3)).2.2.1; have k4 := (hc p4 (corners_sub2 b hb h4)).2.2.2
  exact ⟨by linarith, by linarith, by linarith, by linarith⟩

/-- a quarter turn about z moves the box [0,1]x[0,2]x[0,3] to [-2,0]x[0,1]x[0,3] -/
example : glm_aabb_transform ⟨⟨0, 0, 0⟩, ⟨1, 2, 3⟩⟩ (⟨⟨0, 1, 0, 0⟩, ⟨-1, 0, 0, 0⟩, ⟨0, 0, 1, 0⟩, ⟨0, 0, 0, 1⟩⟩ : M4 ℝ) =
    ⟨⟨-2, 0, 0⟩, ⟨0, 1, 3⟩⟩ := by
  rw [aabb_transform_eq]; ext <;> norm_num

end Cglm
