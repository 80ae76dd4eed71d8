import Verif.Props.C38
import Verif.Props.C40

/-! # C74: histories of boxes and spheres

A bounding box is built by starting from the invalidated box and merging boxes into it one after the other. -/

namespace Cglm

/-- the running bounding box of a list of boxes -/
noncomputable def bounds (l : List (M2x3 ℝ)) : M2x3 ℝ := l.foldl glm_aabb_merge glm_aabb_invalidate
/-- the box is not empty, and its coordinates are below the largest single-precision number in magnitude -/
def M2x3.Finite (b : M2x3 ℝ) : Prop := b.Valid ∧ -FLT_MAX < b.c0.x ∧ -FLT_MAX < b.c0.y ∧ -FLT_MAX < b.c0.z ∧ b.c1.x < FLT_MAX ∧ b.c1.y < FLT_MAX ∧ b.c1.z < FLT_MAX

private theorem merge_eq (b o : M2x3 ℝ) : glm_aabb_merge b o = ⟨⟨min b.c0.x o.c0.x, min b.c0.y o.c0.y, min b.c0.z o.c0.z⟩,
    ⟨max b.c1.x o.c1.x, max b.c1.y o.c1.y, max b.c1.z o.c1.z⟩⟩ := by
  ext <;> simp only [glm_aabb_merge, glm_min_eq, glm_max_eq]
private theorem merge_finite {b o : M2x3 ℝ} (hb : b.Finite) (ho : o.Finite) : (glm_aabb_merge b o).Finite := by
  rw [merge_eq]
  simp only [M2x3.Finite, M2x3.Valid] at *
  refine ⟨⟨?_, ?_, ?_⟩, ?_, ?_, ?_, ?_, ?_, ?_⟩
  all_goals simp only [min_le_iff, le_max_iff, lt_min_iff, max_lt_iff]
  all_goals tauto
private theorem invalid {b : M2x3 ℝ} (hb : b.Finite) : (glm_aabb_invalidate : M2x3 ℝ).set = ∅ ∧
    glm_aabb_isvalid (glm_aabb_invalidate : M2x3 ℝ) = false ∧ glm_aabb_isvalid b = true ∧ glm_aabb_merge glm_aabb_invalidate b = b := by
  have := C36_aabb_invalidate b hb.1 (by
    rintro p ⟨lx, ux, ly, uy, lz, uz⟩
    obtain ⟨-, ax, ay, az, mx, my, mz⟩ := hb
    simp only [Set.mem_setOf_eq, abs_lt]
    refine ⟨⟨by linarith, by linarith⟩, ⟨by linarith, by linarith⟩, ⟨by linarith, by linarith⟩⟩)
  exact ⟨this.1, this.2.1, this.2.2.1, this.2.2.2.1⟩
private theorem fold (l : List (M2x3 ℝ)) (hl : ∀ b ∈ l, b.Finite) (b : M2x3 ℝ) (hb : b.Finite) :
    (l.foldl glm_aabb_merge b).Finite ∧ (∀ o ∈ b :: l, o.set ⊆ (l.foldl glm_aabb_merge b).set) ∧
    ∀ c : M2x3 ℝ, (∀ o ∈ b :: l, o.set ⊆ c.set) → (l.foldl glm_aabb_merge b).set ⊆ c.set := by
  induction l generalizing b with
  | nil => exact ⟨hb, by simp, fun c hc => hc b (by simp)⟩
  | cons a l ih =>
    have ha := hl a (by simp)
    obtain ⟨i1, i2, i3⟩ := ih (fun o ho => hl o (by simp [ho])) _ (merge_finite hb ha)
    have e := C36_aabb_merge b a
    refine ⟨i1, ?_, ?_⟩
    · intro o ho
      simp only [List.mem_cons] at ho
      rcases ho with rfl | rfl | ho
      · exact e.1.trans (i2 _ (by simp))
      · exact e.2.1.trans (i2 _ (by simp))
      · exact i2 o (by simp [ho])
    · intro c hc
      refine i3 c fun o ho => ?_
      simp only [List.mem_cons] at ho
      rcases ho with rfl | ho
      · exact e.2.2 hb.1 ha.1 c (hc b (by simp)) (hc a (by simp))
      · exact hc o (by simp [ho])

/-- the running box contains every box that was merged, and is contained in every box that does -/
theorem C74_bounds (l : List (M2x3 ℝ)) (hl : ∀ b ∈ l, b.Finite) :
    (∀ b ∈ l, b.set ⊆ (bounds l).set) ∧ ∀ c : M2x3 ℝ, (∀ b ∈ l, b.set ⊆ c.set) → (bounds l).set ⊆ c.set := by
  cases l with
  | nil =>
    refine ⟨by simp, fun c _ => ?_⟩
    have : (bounds []).set = ∅ := (invalid (b := ⟨⟨0, 0, 0⟩, ⟨0, 0, 0⟩⟩) (by norm_num [M2x3.Finite, M2x3.Valid, FLT_MAX])).1
    rw [this]; exact Set.empty_subset _
  | cons b l =>
    have hb := hl b (by simp)
    obtain ⟨-, h2, h3⟩ := fold l (fun o ho => hl o (by simp [ho])) b hb
    have e : bounds (b :: l) = l.foldl glm_aabb_merge b := by
      unfold bounds
      rw [List.foldl_cons, (invalid hb).2.2.2]
    rw [e]
    exact ⟨h2, h3⟩
/-- the validity test tells whether anything was merged -/
theorem C74_bounds_isvalid (l : List (M2x3 ℝ)) (hl : ∀ b ∈ l, b.Finite) : glm_aabb_isvalid (bounds l) = true ↔ l ≠ [] := by
  cases l with
  | nil =>
    have : glm_aabb_isvalid (bounds []) = false := (invalid (b := ⟨⟨0, 0, 0⟩, ⟨0, 0, 0⟩⟩) (by norm_num [M2x3.Finite, M2x3.Valid, FLT_MAX])).2.1
    simp [this]
  | cons b l =>
    have hb := hl b (by simp)
    have e : bounds (b :: l) = l.foldl glm_aabb_merge b := by
      unfold bounds
      rw [List.foldl_cons, (invalid hb).2.2.2]
    rw [e]
    simp [(invalid (fold l (fun o ho => hl o (by simp [ho])) b hb).1).2.2.1]
/-- the order of merging does not matter, and neither does merging a box twice -/
theorem C74_bounds_order (l l' : List (M2x3 ℝ)) (h : l.Perm l') : bounds l = bounds l' := by
  have rc : ∀ a b c : M2x3 ℝ, glm_aabb_merge (glm_aabb_merge a b) c = glm_aabb_merge (glm_aabb_merge a c) b := by
    intro a b c
    simp only [merge_eq]
    ext <;> first | exact min_right_comm _ _ _ | exact max_right_comm _ _ _
  have : RightCommutative (glm_aabb_merge : M2x3 ℝ → M2x3 ℝ → M2x3 ℝ) := ⟨rc⟩
  exact h.foldl_eq _
theorem C74_bounds_again (l : List (M2x3 ℝ)) (b : M2x3 ℝ) (hb : b ∈ l) : bounds (l ++ [b]) = bounds l := by
  have key : ∀ (l : List (M2x3 ℝ)) (a b : M2x3 ℝ), b ∈ l → glm_aabb_merge (l.foldl glm_aabb_merge a) b = l.foldl glm_aabb_merge a := by
    intro l
    induction l with
    | nil => simp
    | cons d l ih =>
      intro a b hb
      rw [List.foldl_cons]
      simp only [List.mem_cons] at hb
      rcases hb with rfl | hb
      · have abs : ∀ (l : List (M2x3 ℝ)) (x : M2x3 ℝ), glm_aabb_merge x b = x → glm_aabb_merge (l.foldl glm_aabb_merge x) b = l.foldl glm_aabb_merge x := by
          intro l
          induction l with
          | nil => intro x hx; exact hx
          | cons d l ih =>
            intro x hx
            refine ih _ ?_
            rw [merge_eq] at hx
            have h1 := congrArg M2x3.c0 hx; have h2 := congrArg M2x3.c1 hx
            simp only at h1 h2
            simp only [merge_eq]
            have m : ∀ p q r : ℝ, min p q = p → min (min p r) q = min p r := fun p q r h => by rw [min_right_comm, h]
            have n : ∀ p q r : ℝ, max p q = p → max (max p r) q = max p r := fun p q r h => by rw [max_right_comm, h]
            ext
            all_goals simp only
            · exact m _ _ _ (congrArg V3.x h1)
            · exact m _ _ _ (congrArg V3.y h1)
            · exact m _ _ _ (congrArg V3.z h1)
            · exact n _ _ _ (congrArg V3.x h2)
            · exact n _ _ _ (congrArg V3.y h2)
            · exact n _ _ _ (congrArg V3.z h2)
        refine abs l _ ?_
        simp only [merge_eq]
        ext <;> simp
      · exact ih _ b hb
  unfold bounds
  rw [List.foldl_append]
  exact key l _ b hb

/-- the running bounding box of a list of boxes -/
noncomputable def bounds2d (l : List (M2 ℝ)) : M2 ℝ := l.foldl glm_aabb2d_merge glm_aabb2d_invalidate
/-- the box is not empty, and its coordinates are below the largest single-precision number in magnitude -/
def M2.Finite (b : M2 ℝ) : Prop := b.Valid ∧ -FLT_MAX < b.c0.x ∧ -FLT_MAX < b.c0.y ∧ b.c1.x < FLT_MAX ∧ b.c1.y < FLT_MAX

private theorem merge_eq2d (b o : M2 ℝ) : glm_aabb2d_merge b o = ⟨⟨min b.c0.x o.c0.x, min b.c0.y o.c0.y⟩,
    ⟨max b.c1.x o.c1.x, max b.c1.y o.c1.y⟩⟩ := by
  ext <;> simp only [glm_aabb2d_merge, glm_min_eq, glm_max_eq]
private theorem merge_finite2d {b o : M2 ℝ} (hb : b.Finite) (ho : o.Finite) : (glm_aabb2d_merge b o).Finite := by
  rw [merge_eq2d]
  simp only [M2.Finite, M2.Valid] at *
  refine ⟨⟨?_, ?_⟩, ?_, ?_, ?_, ?_⟩
  all_goals simp only [min_le_iff, le_max_iff, lt_min_iff, max_lt_iff]
  all_goals tauto
private theorem invalid2d {b : M2 ℝ} (hb : b.Finite) : (glm_aabb2d_invalidate : M2 ℝ).set = ∅ ∧
    glm_aabb2d_isvalid (glm_aabb2d_invalidate : M2 ℝ) = false ∧ glm_aabb2d_isvalid b = true ∧ glm_aabb2d_merge glm_aabb2d_invalidate b = b := by
  have := C36_aabb2d_invalidate b hb.1 (by
    rintro p ⟨lx, ux, ly, uy⟩
    obtain ⟨-, ax, ay, mx, my⟩ := hb
    simp only [Set.mem_setOf_eq, abs_lt]
    refine ⟨⟨by linarith, by linarith⟩, ⟨by linarith, by linarith⟩⟩)
  exact ⟨this.1, this.2.1, this.2.2.1, this.2.2.2.1⟩
private theorem fold2d (l : List (M2 ℝ)) (hl : ∀ b ∈ l, b.Finite) (b : M2 ℝ) (hb : b.Finite) :
    (l.foldl glm_aabb2d_merge b).Finite ∧ (∀ o ∈ b :: l, o.set ⊆ (l.foldl glm_aabb2d_merge b).set) ∧
    ∀ c : M2 ℝ, (∀ o ∈ b :: l, o.set ⊆ c.set) → (l.foldl glm_aabb2d_merge b).set ⊆ c.set := by
  induction l generalizing b with
  | nil => exact ⟨hb, by simp, fun c hc => hc b (by simp)⟩
  | cons a l ih =>
    have ha := hl a (by simp)
    obtain ⟨i1, i2, i3⟩ := ih (fun o ho => hl o (by simp [ho])) _ (merge_finite2d hb ha)
    have e := C36_aabb2d_merge b a
    refine ⟨i1, ?_, ?_⟩
    · intro o ho
      simp only [List.mem_cons] at ho
      rcases ho with rfl | rfl | ho
      · exact e.1.trans (i2 _ (by simp))
      · exact e.2.1.trans (i2 _ (by simp))
      · exact i2 o (by simp [ho])
    · intro c hc
      refine i3 c fun o ho => ?_
      simp only [List.mem_cons] at ho
      rcases ho with rfl | ho
      · exact e.2.2 hb.1 ha.1 c (hc b (by simp)) (hc a (by simp))
      · exact hc o (by simp [ho])

/-- the running box contains every box that was merged, and is contained in every box that does -/
theorem C74_bounds2d (l : List (M2 ℝ)) (hl : ∀ b ∈ l, b.Finite) :
    (∀ b ∈ l, b.set ⊆ (bounds2d l).set) ∧ ∀ c : M2 ℝ, (∀ b ∈ l, b.set ⊆ c.set) → (bounds2d l).set ⊆ c.set := by
  cases l with
  | nil =>
    refine ⟨by simp, fun c _ => ?_⟩
    have : (bounds2d []).set = ∅ := (invalid2d (b := ⟨⟨0, 0⟩, ⟨0, 0⟩⟩) (by norm_num [M2.Finite, M2.Valid, FLT_MAX])).1
    rw [this]; exact Set.empty_subset _
  | cons b l =>
    have hb := hl b (by simp)
    obtain ⟨-, h2, h3⟩ := fold2d l (fun o ho => hl o (by simp [ho])) b hb
    have e : bounds2d (b :: l) = l.foldl glm_aabb2d_merge b := by
      unfold bounds2d
      rw [List.foldl_cons, (invalid2d hb).2.2.2]
    rw [e]
    exact ⟨h2, h3⟩
/-- the validity test tells whether anything was merged -/
theorem C74_bounds2d_isvalid (l : List (M2 ℝ)) (hl : ∀ b ∈ l, b.Finite) : glm_aabb2d_isvalid (bounds2d l) = true ↔ l ≠ [] := by
  cases l with
  | nil =>
    have : glm_aabb2d_isvalid (bounds2d []) = false := (invalid2d (b := ⟨⟨0, 0⟩, ⟨0, 0⟩⟩) (by norm_num [M2.Finite, M2.Valid, FLT_MAX])).2.1
    simp [this]
  | cons b l =>
    have hb := hl b (by simp)
    have e : bounds2d (b :: l) = l.foldl glm_aabb2d_merge b := by
      unfold bounds2d
      rw [List.foldl_cons, (invalid2d hb).2.2.2]
    rw [e]
    simp [(invalid2d (fold2d l (fun o ho => hl o (by simp [ho])) b hb).1).2.2.1]
/-- the order of merging does not matter, and neither does merging a box twice -/
theorem C74_bounds2d_order (l l' : List (M2 ℝ)) (h : l.Perm l') : bounds2d l = bounds2d l' := by
  have rc : ∀ a b c : M2 ℝ, glm_aabb2d_merge (glm_aabb2d_merge a b) c = glm_aabb2d_merge (glm_aabb2d_merge a c) b := by
    intro a b c
    simp only [merge_eq2d]
    ext <;> first | exact min_right_comm _ _ _ | exact max_right_comm _ _ _
  have : RightCommutative (glm_aabb2d_merge : M2 ℝ → M2 ℝ → M2 ℝ) := ⟨rc⟩
  exact h.foldl_eq _
theorem C74_bounds2d_again (l : List (M2 ℝ)) (b : M2 ℝ) (hb : b ∈ l) : bounds2d (l ++ [b]) = bounds2d l := by
  have key : ∀ (l : List (M2 ℝ)) (a b : M2 ℝ), b ∈ l → glm_aabb2d_merge (l.foldl glm_aabb2d_merge a) b = l.foldl glm_aabb2d_merge a := by
    intro l
    induction l with
    | nil => simp
    | cons d l ih =>
      intro a b hb
      rw [List.foldl_cons]
      simp only [List.mem_cons] at hb
      rcases hb with rfl | hb
      · have abs : ∀ (l : List (M2 ℝ)) (x : M2 ℝ), glm_aabb2d_merge x b = x → glm_aabb2d_merge (l.foldl glm_aabb2d_merge x) b = l.foldl glm_aabb2d_merge x := by
          intro l
          induction l with
          | nil => intro x hx; exact hx
          | cons d l ih =>
            intro x hx
            refine ih _ ?_
            rw [merge_eq2d] at hx
            have h1 := congrArg M2.c0 hx; have h2 := congrArg M2.c1 hx
            simp only at h1 h2
            simp only [merge_eq2d]
            have m : ∀ p q r : ℝ, min p q = p → min (min p r) q = min p r := fun p q r h => by rw [min_right_comm, h]
            have n : ∀ p q r : ℝ, max p q = p → max (max p r) q = max p r := fun p q r h => by rw [max_right_comm, h]
            ext
            all_goals simp only
            · exact m _ _ _ (congrArg V2.x h1)
            · exact m _ _ _ (congrArg V2.y h1)
            · exact n _ _ _ (congrArg V2.x h2)
            · exact n _ _ _ (congrArg V2.y h2)
        refine abs l _ ?_
        simp only [merge_eq2d]
        ext <;> simp
      · exact ih _ b hb
  unfold bounds2d
  rw [List.foldl_append]
  exact key l _ b hb

/-! ## culling a hierarchy -/

/-- a larger box is culled less often -/
theorem C74_cull_mono (b c : M2x3 ℝ) (hb : b.Valid) (h : b.set ⊆ c.set) (f : M6x4 ℝ) (hv : glm_aabb_frustum b f = true) :
    glm_aabb_frustum c f = true := by
  have hc : c.Valid := by rw [M2x3.valid_iff] at *; exact hb.mono h
  rw [C38_exact c hc]
  intro q hq
  obtain ⟨p, hp, hl⟩ := (C38_exact b hb f).mp hv q hq
  exact ⟨p, h hp, hl⟩
/-- so a running box may be used to cull all its parts at once: if it is culled, each part is -/
theorem C74_cull_bounds (l : List (M2x3 ℝ)) (hl : ∀ b ∈ l, b.Finite) (f : M6x4 ℝ) (h : glm_aabb_frustum (bounds l) f = false) :
    ∀ b ∈ l, glm_aabb_frustum b f = false := by
  intro b hb
  by_contra hn
  rw [Bool.not_eq_false] at hn
  rw [C74_cull_mono b _ (hl b hb).1 ((C74_bounds l hl).1 b hb) f hn] at h
  exact Bool.noConfusion h

/-! ## cropping -/

/-- cropping by a list of boxes leaves the common part of all -/
theorem C74_crop (l : List (M2x3 ℝ)) (b : M2x3 ℝ) : (l.foldl glm_aabb_crop b).set = {p | ∀ o ∈ b :: l, p ∈ o.set} := by
  induction l generalizing b with
  | nil => simp
  | cons a l ih =>
    rw [List.foldl_cons, ih]
    ext p
    simp [C36_aabb_crop, and_assoc]
theorem C74_crop2d (l : List (M2 ℝ)) (b : M2 ℝ) : (l.foldl glm_aabb2d_crop b).set = {p | ∀ o ∈ b :: l, p ∈ o.set} := by
  induction l generalizing b with
  | nil => simp
  | cons a l ih =>
    rw [List.foldl_cons, ih]
    ext p
    simp [C36_aabb2d_crop, and_assoc]

/-! ## spheres -/

/-- a running bounding sphere contains every sphere that was merged -/
theorem C74_sphere (l : List (V4 ℝ)) (hl : ∀ s ∈ l, 0 ≤ s.w) (s : V4 ℝ) (hs : 0 ≤ s.w) :
    0 ≤ (l.foldl glm_sphere_merge s).w ∧ ∀ t ∈ s :: l, t.ball ⊆ (l.foldl glm_sphere_merge s).ball := by
  induction l generalizing s with
  | nil => exact ⟨hs, by simp⟩
  | cons a l ih =>
    have ha := hl a (by simp)
    have e := C40_sphere_merge s a hs ha
    have hm : 0 ≤ (glm_sphere_merge s a).w := by
      have c : s.xyz ∈ s.ball := by
        have : s.xyz.sub s.xyz = ⟨0, 0, 0⟩ := by ext <;> simp [V3.sub]
        simp only [V4.ball, Set.mem_setOf_eq, this]
        simpa [V3.len, V3.dot] using hs
      exact (V3.len_nonneg _).trans (e (Or.inl c))
    obtain ⟨i1, i2⟩ := ih (fun o ho => hl o (by simp [ho])) _ hm
    refine ⟨i1, fun t ht => ?_⟩
    simp only [List.mem_cons] at ht
    rcases ht with rfl | rfl | ht
    · exact fun p hp => i2 _ (by simp) (e (Or.inl hp))
    · exact fun p hp => i2 _ (by simp) (e (Or.inr hp))
    · exact i2 t (by simp [ht])

/-- two unit cubes at different places meet the hypotheses -/
example : ∀ b ∈ [(⟨⟨0, 0, 0⟩, ⟨1, 1, 1⟩⟩ : M2x3 ℝ), ⟨⟨5, 0, 0⟩, ⟨6, 1, 1⟩⟩], b.Finite := by
  simp only [List.mem_cons, List.not_mem_nil, or_false, forall_eq_or_imp, forall_eq]
  constructor <;> norm_num [M2x3.Finite, M2x3.Valid, FLT_MAX]
example : ∀ b ∈ [(⟨⟨0, 0⟩, ⟨1, 1⟩⟩ : M2 ℝ), ⟨⟨5, 0⟩, ⟨6, 1⟩⟩], b.Finite := by
  simp only [List.mem_cons, List.not_mem_nil, or_false, forall_eq_or_imp, forall_eq]
  constructor <;> norm_num [M2.Finite, M2.Valid, FLT_MAX]

end Cglm
