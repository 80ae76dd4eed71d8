import Verif.Props.C35

/-! # C36: axis-aligned boxes as point sets -/

namespace Cglm

theorem vec3_max_eq (v : V3 ℝ) : glm_vec3_max v = max (max v.x v.y) v.z := by
  unfold glm_vec3_max
  simp only [flt_real, decide_eq_true_eq]
  split_ifs <;> simp only [max_def] <;> split_ifs <;> linarith
theorem vec3_min_eq (v : V3 ℝ) : glm_vec3_min v = min (min v.x v.y) v.z := by
  unfold glm_vec3_min
  simp only [flt_real, decide_eq_true_eq]
  split_ifs <;> simp only [min_def] <;> split_ifs <;> linarith
theorem vec2_max_eq (v : V2 ℝ) : glm_vec2_max v = max v.x v.y := by
  unfold glm_vec2_max; rw [glm_max_eq]
theorem vec2_min_eq (v : V2 ℝ) : glm_vec2_min v = min v.x v.y := by
  unfold glm_vec2_min; rw [glm_min_eq]

/-! ## 3D boxes -/

/-- the point set of a box given by its minimum and maximum corner -/
def M2x3.set (b : M2x3 ℝ) : Set (V3 ℝ) := {p | b.c0.x ≤ p.x ∧ p.x ≤ b.c1.x ∧ b.c0.y ≤ p.y ∧ p.y ≤ b.c1.y ∧ b.c0.z ≤ p.z ∧ p.z ≤ b.c1.z}
/-- the minimum is below the maximum: the box is not empty -/
def M2x3.Valid (b : M2x3 ℝ) : Prop := b.c0.x ≤ b.c1.x ∧ b.c0.y ≤ b.c1.y ∧ b.c0.z ≤ b.c1.z

theorem M2x3.valid_iff (b : M2x3 ℝ) : b.Valid ↔ b.set.Nonempty := by
  constructor
  · rintro ⟨hx, hy, hz⟩
    exact ⟨b.c0, ⟨le_rfl, hx, le_rfl, hy, le_rfl, hz⟩⟩
  · rintro ⟨p, lx, ux, ly, uy, lz, uz⟩
    exact ⟨lx.trans ux, ly.trans uy, lz.trans uz⟩
theorem C36_aabb_point (b : M2x3 ℝ) (p : V3 ℝ) : glm_aabb_point b p = true ↔ p ∈ b.set := by
  simp only [glm_aabb_point, fle_real, Bool.and_eq_true, decide_eq_true_eq, M2x3.set, Set.mem_setOf_eq]
  tauto
theorem C36_aabb_contains (b o : M2x3 ℝ) (ho : o.Valid) : glm_aabb_contains b o = true ↔ o.set ⊆ b.set := by
  simp only [glm_aabb_contains, fle_real, Bool.and_eq_true, decide_eq_true_eq]
  constructor
  · intro h p hp
    simp only [M2x3.set, Set.mem_setOf_eq] at hp ⊢
    refine ⟨by linarith, by linarith, by linarith, by linarith, by linarith, by linarith⟩
  · intro h
    obtain ⟨hx, hy, hz⟩ := ho
    have h0 := h (show o.c0 ∈ o.set from ⟨le_rfl, hx, le_rfl, hy, le_rfl, hz⟩)
    have h1 := h (show o.c1 ∈ o.set from ⟨hx, le_rfl, hy, le_rfl, hz, le_rfl⟩)
    simp only [M2x3.set, Set.mem_setOf_eq] at h0 h1
    tauto
theorem C36_aabb_aabb (b o : M2x3 ℝ) (hb : b.Valid) (ho : o.Valid) : glm_aabb_aabb b o = true ↔ (b.set ∩ o.set).Nonempty := by
  simp only [glm_aabb_aabb, fle_real, Bool.and_eq_true, decide_eq_true_eq]
  constructor
  · intro h
    obtain ⟨hx, hy, hz⟩ := ho
    obtain ⟨kx, ky, kz⟩ := hb
    refine ⟨⟨max b.c0.x o.c0.x, max b.c0.y o.c0.y, max b.c0.z o.c0.z⟩, ?_, ?_⟩ <;> simp only [M2x3.set, Set.mem_setOf_eq, le_max_iff, max_le_iff, le_refl, true_or, or_true, true_and] <;> tauto
  · rintro ⟨p, hp, hq⟩
    simp only [M2x3.set, Set.mem_setOf_eq] at hp hq
    refine ⟨⟨⟨by linarith, by linarith⟩, by linarith, by linarith⟩, by linarith, by linarith⟩
theorem C36_aabb_merge (b o : M2x3 ℝ) : b.set ⊆ (glm_aabb_merge b o).set ∧ o.set ⊆ (glm_aabb_merge b o).set ∧
    (b.Valid → o.Valid → ∀ c : M2x3 ℝ, b.set ⊆ c.set → o.set ⊆ c.set → (glm_aabb_merge b o).set ⊆ c.set) := by
  refine ⟨?_, ?_, ?_⟩
  · intro p hp
    simp only [M2x3.set, Set.mem_setOf_eq, glm_aabb_merge, glm_min_eq, glm_max_eq, min_le_iff, le_max_iff] at hp ⊢
    tauto
  · intro p hp
    simp only [M2x3.set, Set.mem_setOf_eq, glm_aabb_merge, glm_min_eq, glm_max_eq, min_le_iff, le_max_iff] at hp ⊢
    tauto
  · intro hb ho c h1 h2
    rw [← C36_aabb_contains c _ hb] at h1
    rw [← C36_aabb_contains c _ ho] at h2
    have hm : (glm_aabb_merge b o).Valid := by
      simp only [M2x3.Valid, glm_aabb_merge, glm_min_eq, glm_max_eq, min_le_iff, le_max_iff] at hb ⊢
      tauto
    rw [← C36_aabb_contains c _ hm]
    simp only [glm_aabb_contains, glm_aabb_merge, fle_real, Bool.and_eq_true, decide_eq_true_eq, glm_min_eq, glm_max_eq, le_min_iff,
      max_le_iff] at h1 h2 ⊢
    tauto
theorem C36_aabb_crop (b o : M2x3 ℝ) : (glm_aabb_crop b o).set = b.set ∩ o.set := by
  ext p
  simp only [M2x3.set, Set.mem_setOf_eq, Set.mem_inter_iff, glm_aabb_crop, glm_min_eq, glm_max_eq, le_min_iff, max_le_iff]
  tauto
/-- crop, but keep at least the clamp box: the least box containing it and the intersection -/
theorem C36_aabb_crop_until (b crop clamp : M2x3 ℝ) :
    clamp.set ⊆ (glm_aabb_crop_until b crop clamp).set ∧ b.set ∩ crop.set ⊆ (glm_aabb_crop_until b crop clamp).set ∧
    (clamp.Valid → (b.set ∩ crop.set).Nonempty → ∀ c : M2x3 ℝ, clamp.set ⊆ c.set → b.set ∩ crop.set ⊆ c.set →
      (glm_aabb_crop_until b crop clamp).set ⊆ c.set) := by
  have h := C36_aabb_merge clamp (glm_aabb_crop b crop)
  rw [M2x3.valid_iff (glm_aabb_crop b crop), C36_aabb_crop] at h
  exact h
/-- the invalidated box is empty, is reported invalid, and is neutral for merging -/
theorem C36_aabb_invalidate (b : M2x3 ℝ) (hb : b.Valid) (h0 : b.set ⊆ {p | |p.x| < FLT_MAX ∧ |p.y| < FLT_MAX ∧ |p.z| < FLT_MAX}) :
    (glm_aabb_invalidate : M2x3 ℝ).set = ∅ ∧ glm_aabb_isvalid (glm_aabb_invalidate : M2x3 ℝ) = false ∧ glm_aabb_isvalid b = true ∧
      glm_aabb_merge glm_aabb_invalidate b = b ∧ glm_aabb_merge b glm_aabb_invalidate = b := by
  have hp : 0 < FLT_MAX := by norm_num [FLT_MAX]
  obtain ⟨hx, hy, hz⟩ := hb
  have h1 := h0 (show b.c0 ∈ b.set from ⟨le_rfl, hx, le_rfl, hy, le_rfl, hz⟩)
  have h2 := h0 (show b.c1 ∈ b.set from ⟨hx, le_rfl, hy, le_rfl, hz, le_rfl⟩)
  simp only [Set.mem_setOf_eq, abs_lt] at h1 h2
  refine ⟨?_, ?_, ?_, ?_, ?_⟩
  · rw [Set.eq_empty_iff_forall_notMem]
    rintro p ⟨ha, hb, -⟩
    simp only [glm_aabb_invalidate, glm_vec3_broadcast, lit_max] at ha hb
    linarith
  · simp [glm_aabb_isvalid, glm_aabb_invalidate, glm_vec3_broadcast, glm_vec3_max, glm_vec3_min, lit_max, cglm]
  · simp only [glm_aabb_isvalid, feq_real, lit_max, Bool.and_eq_true, Bool.not_eq_true', decide_eq_false_iff_not]
    constructor
    · have : glm_vec3_max b.c0 = max (max b.c0.x b.c0.y) b.c0.z := by exact vec3_max_eq _
      rw [this]
      have : max (max b.c0.x b.c0.y) b.c0.z < FLT_MAX := by simp only [max_lt_iff]; tauto
      exact this.ne
    · have : glm_vec3_min b.c1 = min (min b.c1.x b.c1.y) b.c1.z := by exact vec3_min_eq _
      rw [this]
      have : -FLT_MAX < min (min b.c1.x b.c1.y) b.c1.z := by simp only [lt_min_iff]; tauto
      exact this.ne'
  · ext <;> simp only [glm_aabb_merge, glm_aabb_invalidate, glm_vec3_broadcast, lit_max, glm_min_eq, glm_max_eq] <;>
      first | exact min_eq_right (by linarith) | exact max_eq_right (by linarith)
  · ext <;> simp only [glm_aabb_merge, glm_aabb_invalidate, glm_vec3_broadcast, lit_max, glm_min_eq, glm_max_eq] <;>
      first | exact min_eq_left (by linarith) | exact max_eq_left (by linarith)
/-- the size is the diagonal; every point of the box is within the radius of the center, and the center is in the box -/
theorem C36_aabb_center (b : M2x3 ℝ) (hb : b.Valid) :
    glm_aabb_center b ∈ b.set ∧ glm_aabb_radius b = √((b.c1.x - b.c0.x) * (b.c1.x - b.c0.x) + (b.c1.y - b.c0.y) * (b.c1.y - b.c0.y) + (b.c1.z - b.c0.z) * (b.c1.z - b.c0.z)) / 2 ∧
    ∀ p ∈ b.set, (p.x - (glm_aabb_center b).x) * (p.x - (glm_aabb_center b).x) + (p.y - (glm_aabb_center b).y) * (p.y - (glm_aabb_center b).y) + (p.z - (glm_aabb_center b).z) * (p.z - (glm_aabb_center b).z) ≤ glm_aabb_radius b * glm_aabb_radius b := by
  have hd : glm_aabb_radius b = √((b.c1.x - b.c0.x) * (b.c1.x - b.c0.x) + (b.c1.y - b.c0.y) * (b.c1.y - b.c0.y) + (b.c1.z - b.c0.z) * (b.c1.z - b.c0.z)) / 2 := by
    simp [cglm]
    ring_nf
  have hc : glm_aabb_center b = ⟨(b.c0.x + b.c1.x) / 2, (b.c0.y + b.c1.y) / 2, (b.c0.z + b.c1.z) / 2⟩ := by
    ext <;> simp [cglm] <;> ring
  obtain ⟨hx, hy, hz⟩ := hb
  refine ⟨?_, hd, ?_⟩
  · rw [hc]
    refine ⟨by simp only []; linarith, by simp only []; linarith, by simp only []; linarith, by simp only []; linarith, by simp only []; linarith, by simp only []; linarith⟩
  · intro p hp
    obtain ⟨lx, ux, ly, uy, lz, uz⟩ := hp
    rw [hd, hc]
    have hs : √((b.c1.x - b.c0.x) * (b.c1.x - b.c0.x) + (b.c1.y - b.c0.y) * (b.c1.y - b.c0.y) + (b.c1.z - b.c0.z) * (b.c1.z - b.c0.z)) / 2 * (√((b.c1.x - b.c0.x) * (b.c1.x - b.c0.x) + (b.c1.y - b.c0.y) * (b.c1.y - b.c0.y) + (b.c1.z - b.c0.z) * (b.c1.z - b.c0.z)) / 2) = ((b.c1.x - b.c0.x) * (b.c1.x - b.c0.x) + (b.c1.y - b.c0.y) * (b.c1.y - b.c0.y) + (b.c1.z - b.c0.z) * (b.c1.z - b.c0.z)) / 4 := by
      have := Real.mul_self_sqrt (show 0 ≤ (b.c1.x - b.c0.x) * (b.c1.x - b.c0.x) + (b.c1.y - b.c0.y) * (b.c1.y - b.c0.y) + (b.c1.z - b.c0.z) * (b.c1.z - b.c0.z) by positivity)
      linear_combination this / 4
    rw [hs]
    have k : ∀ l h x : ℝ, l ≤ x → x ≤ h → (x - (l + h) / 2) * (x - (l + h) / 2) ≤ (h - l) * (h - l) / 4 := by
      intro l h x h1 h2
      nlinarith [mul_nonneg (sub_nonneg.mpr h1) (sub_nonneg.mpr h2)]
    have kx := k _ _ _ lx ux
    have ky := k _ _ _ ly uy
    have kz := k _ _ _ lz uz
    linarith

example : (⟨⟨0, 0, 0⟩, ⟨1, 2, 3⟩⟩ : M2x3 ℝ).Valid := by norm_num [M2x3.Valid]

/-! ## 2D boxes -/

/-- the point set of a box given by its minimum and maximum corner -/
def M2.set (b : M2 ℝ) : Set (V2 ℝ) := {p | b.c0.x ≤ p.x ∧ p.x ≤ b.c1.x ∧ b.c0.y ≤ p.y ∧ p.y ≤ b.c1.y}
/-- the minimum is below the maximum: the box is not empty -/
def M2.Valid (b : M2 ℝ) : Prop := b.c0.x ≤ b.c1.x ∧ b.c0.y ≤ b.c1.y

theorem M2.valid_iff (b : M2 ℝ) : b.Valid ↔ b.set.Nonempty := by
  constructor
  · rintro ⟨hx, hy⟩
    exact ⟨b.c0, ⟨le_rfl, hx, le_rfl, hy⟩⟩
  · rintro ⟨p, lx, ux, ly, uy⟩
    exact ⟨lx.trans ux, ly.trans uy⟩
theorem C36_aabb2d_point (b : M2 ℝ) (p : V2 ℝ) : glm_aabb2d_point b p = true ↔ p ∈ b.set := by
  simp only [glm_aabb2d_point, fle_real, Bool.and_eq_true, decide_eq_true_eq, M2.set, Set.mem_setOf_eq]
  tauto
theorem C36_aabb2d_contains (b o : M2 ℝ) (ho : o.Valid) : glm_aabb2d_contains b o = true ↔ o.set ⊆ b.set := by
  simp only [glm_aabb2d_contains, fle_real, Bool.and_eq_true, decide_eq_true_eq]
  constructor
  · intro h p hp
    simp only [M2.set, Set.mem_setOf_eq] at hp ⊢
    refine ⟨by linarith, by linarith, by linarith, by linarith⟩
  · intro h
    obtain ⟨hx, hy⟩ := ho
    have h0 := h (show o.c0 ∈ o.set from ⟨le_rfl, hx, le_rfl, hy⟩)
    have h1 := h (show o.c1 ∈ o.set from ⟨hx, le_rfl, hy, le_rfl⟩)
    simp only [M2.set, Set.mem_setOf_eq] at h0 h1
    tauto
theorem C36_aabb2d_aabb (b o : M2 ℝ) (hb : b.Valid) (ho : o.Valid) : glm_aabb2d_aabb b o = true ↔ (b.set ∩ o.set).Nonempty := by
  simp only [glm_aabb2d_aabb, fle_real, Bool.and_eq_true, decide_eq_true_eq]
  constructor
  · intro h
    obtain ⟨hx, hy⟩ := ho
    obtain ⟨kx, ky⟩ := hb
    refine ⟨⟨max b.c0.x o.c0.x, max b.c0.y o.c0.y⟩, ?_, ?_⟩ <;> simp only [M2.set, Set.mem_setOf_eq, le_max_iff, max_le_iff, le_refl, true_or, or_true, true_and] <;> tauto
  · rintro ⟨p, hp, hq⟩
    simp only [M2.set, Set.mem_setOf_eq] at hp hq
    refine ⟨⟨by linarith, by linarith⟩, by linarith, by linarith⟩
theorem C36_aabb2d_merge (b o : M2 ℝ) : b.set ⊆ (glm_aabb2d_merge b o).set ∧ o.set ⊆ (glm_aabb2d_merge b o).set ∧
    (b.Valid → o.Valid → ∀ c : M2 ℝ, b.set ⊆ c.set → o.set ⊆ c.set → (glm_aabb2d_merge b o).set ⊆ c.set) := by
  refine ⟨?_, ?_, ?_⟩
  · intro p hp
    simp only [M2.set, Set.mem_setOf_eq, glm_aabb2d_merge, glm_min_eq, glm_max_eq, min_le_iff, le_max_iff] at hp ⊢
    tauto
  · intro p hp
    simp only [M2.set, Set.mem_setOf_eq, glm_aabb2d_merge, glm_min_eq, glm_max_eq, min_le_iff, le_max_iff] at hp ⊢
    tauto
  · intro hb ho c h1 h2
    rw [← C36_aabb2d_contains c _ hb] at h1
    rw [← C36_aabb2d_contains c _ ho] at h2
    have hm : (glm_aabb2d_merge b o).Valid := by
      simp only [M2.Valid, glm_aabb2d_merge, glm_min_eq, glm_max_eq, min_le_iff, le_max_iff] at hb ⊢
      tauto
    rw [← C36_aabb2d_contains c _ hm]
    simp only [glm_aabb2d_contains, glm_aabb2d_merge, fle_real, Bool.and_eq_true, decide_eq_true_eq, glm_min_eq, glm_max_eq, le_min_iff,
      max_le_iff] at h1 h2 ⊢
    tauto
theorem C36_aabb2d_crop (b o : M2 ℝ) : (glm_aabb2d_crop b o).set = b.set ∩ o.set := by
  ext p
  simp only [M2.set, Set.mem_setOf_eq, Set.mem_inter_iff, glm_aabb2d_crop, glm_min_eq, glm_max_eq, le_min_iff, max_le_iff]
  tauto
/-- crop, but keep at least the clamp box: the least box containing it and the intersection -/
theorem C36_aabb2d_crop_until (b crop clamp : M2 ℝ) :
    clamp.set ⊆ (glm_aabb2d_crop_until b crop clamp).set ∧ b.set ∩ crop.set ⊆ (glm_aabb2d_crop_until b crop clamp).set ∧
    (clamp.Valid → (b.set ∩ crop.set).Nonempty → ∀ c : M2 ℝ, clamp.set ⊆ c.set → b.set ∩ crop.set ⊆ c.set →
      (glm_aabb2d_crop_until b crop clamp).set ⊆ c.set) := by
  have h := C36_aabb2d_merge clamp (glm_aabb2d_crop b crop)
  rw [M2.valid_iff (glm_aabb2d_crop b crop), C36_aabb2d_crop] at h
  exact h
/-- the invalidated box is empty, is reported invalid, and is neutral for merging -/
theorem C36_aabb2d_invalidate (b : M2 ℝ) (hb : b.Valid) (h0 : b.set ⊆ {p | |p.x| < FLT_MAX ∧ |p.y| < FLT_MAX}) :
    (glm_aabb2d_invalidate : M2 ℝ).set = ∅ ∧ glm_aabb2d_isvalid (glm_aabb2d_invalidate : M2 ℝ) = false ∧ glm_aabb2d_isvalid b = true ∧
      glm_aabb2d_merge glm_aabb2d_invalidate b = b ∧ glm_aabb2d_merge b glm_aabb2d_invalidate = b := by
  have hp : 0 < FLT_MAX := by norm_num [FLT_MAX]
  obtain ⟨hx, hy⟩ := hb
  have h1 := h0 (show b.c0 ∈ b.set from ⟨le_rfl, hx, le_rfl, hy⟩)
  have h2 := h0 (show b.c1 ∈ b.set from ⟨hx, le_rfl, hy, le_rfl⟩)
  simp only [Set.mem_setOf_eq, abs_lt] at h1 h2
  refine ⟨?_, ?_, ?_, ?_, ?_⟩
  · rw [Set.eq_empty_iff_forall_notMem]
    rintro p ⟨ha, hb, -⟩
    simp only [glm_aabb2d_invalidate, glm_vec2_fill, lit_max] at ha hb
    linarith
  · simp [glm_aabb2d_isvalid, glm_aabb2d_invalidate, glm_vec2_fill, glm_vec2_max, glm_vec2_min, lit_max, cglm]
  · simp only [glm_aabb2d_isvalid, feq_real, lit_max, Bool.and_eq_true, Bool.not_eq_true', decide_eq_false_iff_not]
    constructor
    · have : glm_vec2_max b.c0 = max b.c0.x b.c0.y := by exact vec2_max_eq _
      rw [this]
      have : max b.c0.x b.c0.y < FLT_MAX := by simp only [max_lt_iff]; tauto
      exact this.ne
    · have : glm_vec2_min b.c1 = min b.c1.x b.c1.y := by exact vec2_min_eq _
      rw [this]
      have : -FLT_MAX < min b.c1.x b.c1.y := by simp only [lt_min_iff]; tauto
      exact this.ne'
  · ext <;> simp only [glm_aabb2d_merge, glm_aabb2d_invalidate, glm_vec2_fill, lit_max, glm_min_eq, glm_max_eq] <;>
      first | exact min_eq_right (by linarith) | exact max_eq_right (by linarith)
  · ext <;> simp only [glm_aabb2d_merge, glm_aabb2d_invalidate, glm_vec2_fill, lit_max, glm_min_eq, glm_max_eq] <;>
      first | exact min_eq_left (by linarith) | exact max_eq_left (by linarith)
/-- the size is the diagonal; every point of the box is within the radius of the center, and the center is in the box -/
theorem C36_aabb2d_center (b : M2 ℝ) (hb : b.Valid) :
    glm_aabb2d_center b ∈ b.set ∧ glm_aabb2d_radius b = √((b.c1.x - b.c0.x) * (b.c1.x - b.c0.x) + (b.c1.y - b.c0.y) * (b.c1.y - b.c0.y)) / 2 ∧
    ∀ p ∈ b.set, (p.x - (glm_aabb2d_center b).x) * (p.x - (glm_aabb2d_center b).x) + (p.y - (glm_aabb2d_center b).y) * (p.y - (glm_aabb2d_center b).y) ≤ glm_aabb2d_radius b * glm_aabb2d_radius b := by
  have hd : glm_aabb2d_radius b = √((b.c1.x - b.c0.x) * (b.c1.x - b.c0.x) + (b.c1.y - b.c0.y) * (b.c1.y - b.c0.y)) / 2 := by
    simp [cglm]
    ring_nf
  have hc : glm_aabb2d_center b = ⟨(b.c0.x + b.c1.x) / 2, (b.c0.y + b.c1.y) / 2⟩ := by
    ext <;> simp [cglm] <;> ring
  obtain ⟨hx, hy⟩ := hb
  refine ⟨?_, hd, ?_⟩
  · rw [hc]
    refine ⟨by simp only []; linarith, by simp only []; linarith, by simp only []; linarith, by simp only []; linarith⟩
  · intro p hp
    obtain ⟨lx, ux, ly, uy⟩ := hp
    rw [hd, hc]
    have hs : √((b.c1.x - b.c0.x) * (b.c1.x - b.c0.x) + (b.c1.y - b.c0.y) * (b.c1.y - b.c0.y)) / 2 * (√((b.c1.x - b.c0.x) * (b.c1.x - b.c0.x) + (b.c1.y - b.c0.y) * (b.c1.y - b.c0.y)) / 2) = ((b.c1.x - b.c0.x) * (b.c1.x - b.c0.x) + (b.c1.y - b.c0.y) * (b.c1.y - b.c0.y)) / 4 := by
      have := Real.mul_self_sqrt (show 0 ≤ (b.c1.x - b.c0.x) * (b.c1.x - b.c0.x) + (b.c1.y - b.c0.y) * (b.c1.y - b.c0.y) by positivity)
      linear_combination this / 4
    rw [hs]
    have k : ∀ l h x : ℝ, l ≤ x → x ≤ h → (x - (l + h) / 2) * (x - (l + h) / 2) ≤ (h - l) * (h - l) / 4 := by
      intro l h x h1 h2
      nlinarith [mul_nonneg (sub_nonneg.mpr h1) (sub_nonneg.mpr h2)]
    have kx := k _ _ _ lx ux
    have ky := k _ _ _ ly uy
    linarith

theorem C36_aabb2d_sizev (b : M2 ℝ) : glm_aabb2d_sizev b = ⟨b.c1.x - b.c0.x, b.c1.y - b.c0.y⟩ := by
  ext <;> simp only [cglm]
/-- the zero box is the origin alone, and copying keeps the box -/
theorem C36_aabb2d_zero : (glm_aabb2d_zero : M2 ℝ).set = {⟨0, 0⟩} := by
  ext ⟨x, y⟩
  simp only [M2.set, cglm, Set.mem_setOf_eq, Set.mem_singleton_iff, V2.mk.injEq]
  constructor
  · rintro ⟨a, b, c, d⟩; exact ⟨le_antisymm b a, le_antisymm d c⟩
  · rintro ⟨rfl, rfl⟩; exact ⟨le_rfl, le_rfl, le_rfl, le_rfl⟩
theorem C36_aabb2d_copy (b : M2 ℝ) : (glm_aabb2d_copy b).set = b.set := rfl

example : (⟨⟨0, 0⟩, ⟨1, 2⟩⟩ : M2 ℝ).Valid := by norm_num [M2.Valid]

end Cglm
