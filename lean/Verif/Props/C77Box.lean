import Verif.Props.C77Vec
/-!
# C77: order survives rounding, boxes, spheres and view volumes

Boxes are pairs of corners; `Inside b b'` says that the box `b` lies in the box `b'`.
-/
open Cglm F32
namespace Cglm
set_option linter.unusedSectionVars false
set_option linter.unusedSimpArgs false
variable [Libm]

/-- a finite box with ordered corners -/
def M2x3.Box (b : M2x3 F32) : Prop := b.c0.IsFin ∧ b.c1.IsFin ∧ b.c0.Le b.c1

/-- containment of boxes -/
def M2x3.Inside (b b' : M2x3 F32) : Prop := b'.c0.Le b.c0 ∧ b.c1.Le b'.c1

/-- a finite rectangle with ordered corners -/
def M2.Box (b : M2 F32) : Prop := b.c0.IsFin ∧ b.c1.IsFin ∧ b.c0.Le b.c1

@[inherit_doc M2x3.Inside] def M2.Inside (b b' : M2 F32) : Prop := b'.c0.Le b.c0 ∧ b.c1.Le b'.c1

example : (⟨⟨.ofRat false 0, .ofRat false 1, .ofRat false 2⟩, ⟨.ofRat false 3, .ofRat false 4, .ofRat false 5⟩⟩ : M2x3 F32).Box ∧
    M2x3.Inside ⟨⟨.ofRat false 0, .ofRat false 1, .ofRat false 2⟩, ⟨.ofRat false 3, .ofRat false 4, .ofRat false 5⟩⟩
      ⟨⟨.ofRat false (-1), .ofRat false 1, .ofRat false 2⟩, ⟨.ofRat false 3, .ofRat false 4, .ofRat false 8⟩⟩ := by
  simp only [M2x3.Box, M2x3.Inside, V3.IsFin, V3.Le]; decide +kernel

/-! ### predicates that only compare are exact -/

/-- the tests on boxes are exact: for finite coordinates they give the answer of the exact numbers -/
theorem C77_aabb_point_exact (b : M2x3 F32) (p : V3 F32) (h0 : b.c0.IsFin) (h1 : b.c1.IsFin) (hp : p.IsFin) :
    glm_aabb_point b p = true ↔
      (b.c0.x.val ≤ p.x.val ∧ p.x.val ≤ b.c1.x.val) ∧ (b.c0.y.val ≤ p.y.val ∧ p.y.val ≤ b.c1.y.val) ∧
      (b.c0.z.val ≤ p.z.val ∧ p.z.val ≤ b.c1.z.val) := by
  simp only [cglm, fle_f32, Bool.and_eq_true, le_fin h0.1 hp.1, le_fin hp.1 h1.1, le_fin h0.2.1 hp.2.1,
    le_fin hp.2.1 h1.2.1, le_fin h0.2.2 hp.2.2, le_fin hp.2.2 h1.2.2]
  tauto

theorem C77_aabb_aabb_exact (b c : M2x3 F32) (h0 : b.c0.IsFin) (h1 : b.c1.IsFin) (k0 : c.c0.IsFin) (k1 : c.c1.IsFin) :
    glm_aabb_aabb b c = true ↔
      (b.c0.x.val ≤ c.c1.x.val ∧ c.c0.x.val ≤ b.c1.x.val) ∧ (b.c0.y.val ≤ c.c1.y.val ∧ c.c0.y.val ≤ b.c1.y.val) ∧
      (b.c0.z.val ≤ c.c1.z.val ∧ c.c0.z.val ≤ b.c1.z.val) := by
  simp only [cglm, fle_f32, Bool.and_eq_true, le_fin h0.1 k1.1, le_fin k0.1 h1.1, le_fin h0.2.1 k1.2.1,
    le_fin k0.2.1 h1.2.1, le_fin h0.2.2 k1.2.2, le_fin k0.2.2 h1.2.2]
  tauto

theorem C77_aabb_contains_exact (b c : M2x3 F32) (h0 : b.c0.IsFin) (h1 : b.c1.IsFin) (k0 : c.c0.IsFin) (k1 : c.c1.IsFin) :
    glm_aabb_contains b c = true ↔
      (b.c0.x.val ≤ c.c0.x.val ∧ c.c1.x.val ≤ b.c1.x.val) ∧ (b.c0.y.val ≤ c.c0.y.val ∧ c.c1.y.val ≤ b.c1.y.val) ∧
      (b.c0.z.val ≤ c.c0.z.val ∧ c.c1.z.val ≤ b.c1.z.val) := by
  simp only [cglm, fle_f32, Bool.and_eq_true, le_fin h0.1 k0.1, le_fin k1.1 h1.1, le_fin h0.2.1 k0.2.1,
    le_fin k1.2.1 h1.2.1, le_fin h0.2.2 k0.2.2, le_fin k1.2.2 h1.2.2]
  tauto

theorem C77_aabb2d_point_exact (b : M2 F32) (p : V2 F32) (h0 : b.c0.IsFin) (h1 : b.c1.IsFin) (hp : p.IsFin) :
    glm_aabb2d_point b p = true ↔
      (b.c0.x.val ≤ p.x.val ∧ p.x.val ≤ b.c1.x.val) ∧ (b.c0.y.val ≤ p.y.val ∧ p.y.val ≤ b.c1.y.val) := by
  simp only [cglm, fle_f32, Bool.and_eq_true, le_fin h0.1 hp.1, le_fin hp.1 h1.1, le_fin h0.2 hp.2, le_fin hp.2 h1.2]

theorem C77_aabb2d_aabb_exact (b c : M2 F32) (h0 : b.c0.IsFin) (h1 : b.c1.IsFin) (k0 : c.c0.IsFin) (k1 : c.c1.IsFin) :
    glm_aabb2d_aabb b c = true ↔
      (b.c0.x.val ≤ c.c1.x.val ∧ c.c0.x.val ≤ b.c1.x.val) ∧ (b.c0.y.val ≤ c.c1.y.val ∧ c.c0.y.val ≤ b.c1.y.val) := by
  simp only [cglm, fle_f32, Bool.and_eq_true, le_fin h0.1 k1.1, le_fin k0.1 h1.1, le_fin h0.2 k1.2, le_fin k0.2 h1.2]

theorem C77_aabb2d_contains_exact (b c : M2 F32) (h0 : b.c0.IsFin) (h1 : b.c1.IsFin) (k0 : c.c0.IsFin) (k1 : c.c1.IsFin) :
    glm_aabb2d_contains b c = true ↔
      (b.c0.x.val ≤ c.c0.x.val ∧ c.c1.x.val ≤ b.c1.x.val) ∧ (b.c0.y.val ≤ c.c0.y.val ∧ c.c1.y.val ≤ b.c1.y.val) := by
  simp only [cglm, fle_f32, Bool.and_eq_true, le_fin h0.1 k0.1, le_fin k1.1 h1.1, le_fin h0.2 k0.2, le_fin k1.2 h1.2]

/-! ### merging and cropping -/

theorem F32.min_le {a b : F32} (ha : a ≠ nan) (hb : b ≠ nan) : le (glm_min a b) a = true ∧ le (glm_min a b) b = true := by
  simp only [cglm, flt_f32, key_le_iff]
  split_ifs with h <;> rw [key_lt_iff] at h <;> simp_all [le_of_lt]
theorem F32.le_max {a b : F32} (ha : a ≠ nan) (hb : b ≠ nan) : le a (glm_max a b) = true ∧ le b (glm_max a b) = true := by
  simp only [cglm, flt_f32, key_le_iff]
  split_ifs with h <;> rw [key_lt_iff] at h <;> simp_all [le_of_lt]
theorem F32.le_min {a b c : F32} (ha : le c a = true) (hb : le c b = true) : le c (glm_min a b) = true := by
  simp only [cglm, flt_f32]; split_ifs <;> assumption
theorem F32.max_le {a b c : F32} (ha : le a c = true) (hb : le b c = true) : le (glm_max a b) c = true := by
  simp only [cglm, flt_f32]; split_ifs <;> assumption

/-- the merged box is the smallest one that holds both, without any rounding -/
theorem C77_aabb_merge (b c : M2x3 F32) (hb : b.c0.Num ∧ b.c1.Num) (hc : c.c0.Num ∧ c.c1.Num) :
    b.Inside (glm_aabb_merge b c) ∧ c.Inside (glm_aabb_merge b c) ∧
    ∀ d : M2x3 F32, b.Inside d → c.Inside d → (glm_aabb_merge b c).Inside d := by
  obtain ⟨⟨x0, y0, z0⟩, ⟨x1, y1, z1⟩⟩ := hb
  obtain ⟨⟨u0, v0, w0⟩, ⟨u1, v1, w1⟩⟩ := hc
  refine ⟨⟨⟨(min_le x0 u0).1, (min_le y0 v0).1, (min_le z0 w0).1⟩, ⟨(le_max x1 u1).1, (le_max y1 v1).1, (le_max z1 w1).1⟩⟩,
    ⟨⟨(min_le x0 u0).2, (min_le y0 v0).2, (min_le z0 w0).2⟩, ⟨(le_max x1 u1).2, (le_max y1 v1).2, (le_max z1 w1).2⟩⟩, ?_⟩
  rintro d ⟨⟨a1, a2, a3⟩, ⟨a4, a5, a6⟩⟩ ⟨⟨e1, e2, e3⟩, ⟨e4, e5, e6⟩⟩
  exact ⟨⟨le_min a1 e1, le_min a2 e2, le_min a3 e3⟩, ⟨max_le a4 e4, max_le a5 e5, max_le a6 e6⟩⟩

/-- the cropped box is the largest one inside both -/
theorem C77_aabb_crop (b c : M2x3 F32) (hb : b.c0.Num ∧ b.c1.Num) (hc : c.c0.Num ∧ c.c1.Num) :
    (glm_aabb_crop b c).Inside b ∧ (glm_aabb_crop b c).Inside c ∧
    ∀ d : M2x3 F32, d.Inside b → d.Inside c → d.Inside (glm_aabb_crop b c) := by
  obtain ⟨⟨x0, y0, z0⟩, ⟨x1, y1, z1⟩⟩ := hb
  obtain ⟨⟨u0, v0, w0⟩, ⟨u1, v1, w1⟩⟩ := hc
  refine ⟨⟨⟨(le_max x0 u0).1, (le_max y0 v0).1, (le_max z0 w0).1⟩, ⟨(min_le x1 u1).1, (min_le y1 v1).1, (min_le z1 w1).1⟩⟩,
    ⟨⟨(le_max x0 u0).2, (le_max y0 v0).2, (le_max z0 w0).2⟩, ⟨(min_le x1 u1).2, (min_le y1 v1).2, (min_le z1 w1).2⟩⟩, ?_⟩
  rintro d ⟨⟨a1, a2, a3⟩, ⟨a4, a5, a6⟩⟩ ⟨⟨e1, e2, e3⟩, ⟨e4, e5, e6⟩⟩
  exact ⟨⟨max_le a1 e1, max_le a2 e2, max_le a3 e3⟩, ⟨le_min a4 e4, le_min a5 e5, le_min a6 e6⟩⟩

/-! ### culling -/

/-- at most, or the larger side has overflowed -/
def F32.LeC (a b : F32) : Prop := b = nan ∨ b = inf false ∨ le a b = true

theorem F32.add_nan_cases {a b : F32} (ha : a ≠ nan) (hb : b ≠ nan) (h : a + b = nan) : a = inf false ∨ b = inf false := by
  rcases a with _ | s | s | ⟨q, hq⟩
  · exact absurd rfl ha
  · rcases b with _ | t | t | ⟨r, hr⟩
    · exact absurd rfl hb
    · cases s
      · exact .inl rfl
      · cases t
        · exact .inr rfl
        · cases h
    · cases h
    · cases h
  · by_cases fb : b.isFin = true
    · obtain ⟨x, e⟩ := add_ofRat (a := zero s) rfl fb
      rw [e] at h; exact absurd h (ofRat_ne_nan _ _)
    · rcases b with _ | t | t | ⟨r, hr⟩
      · exact absurd rfl hb
      · cases h
      · simp at fb
      · simp at fb
  · by_cases fb : b.isFin = true
    · obtain ⟨x, e⟩ := add_ofRat (a := fin q hq) rfl fb
      rw [e] at h; exact absurd h (ofRat_ne_nan _ _)
    · rcases b with _ | t | t | ⟨r, hr⟩
      · exact absurd rfl hb
      · cases h
      · simp at fb
      · simp at fb

theorem F32.LeC.add {a a' b b' : F32} (ha : LeC a a') (hb : LeC b b') : LeC (a + b) (a' + b') := by
  by_cases hn : a' + b' = nan
  · exact .inl hn
  rcases ha with rfl | rfl | ha
  · exact absurd (nan_add _) hn
  · exact .inr (.inl (inf_add_eq hn))
  rcases hb with rfl | rfl | hb
  · exact absurd (add_nan _) hn
  · exact .inr (.inl (add_inf_eq hn))
  by_cases h : a + b = nan
  · rcases add_nan_cases (le_ne ha).1 (le_ne hb).1 h with rfl | rfl
    · have := eq_inf_of_le ha; subst this; exact .inr (.inl (inf_add_eq hn))
    · have := eq_inf_of_le hb; subst this; exact .inr (.inl (add_inf_eq hn))
  · exact .inr (.inr (add_le_add' ha hb h hn))

theorem F32.LeC.culled {a b w : F32} (h : LeC a b) (hb : lt b w = true) : lt a w = true := by
  rcases h with rfl | rfl | h
  · simp at hb
  · rw [key_lt_iff] at hb; exact absurd hb.2.2 (not_lt.mpr (key_bound w).2)
  · rw [key_lt_iff] at *
    rw [key_le_iff] at h
    exact ⟨h.1, hb.2.1, lt_of_le_of_lt h.2.2 hb.2.2⟩

theorem F32.LeC.term {p lo hi lo' hi' : F32} (fp : p.isFin = true) (f1 : lo.isFin = true) (f2 : hi.isFin = true)
    (f3 : lo'.isFin = true) (f4 : hi'.isFin = true) (h1 : le lo' lo = true) (h2 : le hi hi' = true) :
    LeC (p * (if flt (lit 0) p = true then hi else lo)) (p * (if flt (lit 0) p = true then hi' else lo')) := by
  have nn : ∀ {x : F32}, x.isFin = true → p * x ≠ nan := fun hx => by rw [mul_ofRat fp hx]; exact ofRat_ne_nan _ _
  have l0 : Has (lit 0 : F32) 0 := .lit rep_zero
  rw [flt_f32]
  split_ifs with c
  · rw [lt_fin l0.1 fp, l0.2] at c
    exact .inr (.inr (mul_le_mul_left' (by rw [key_fin fp]; exact c.le) h2 (nn f2) (nn f4)))
  · rw [lt_fin l0.1 fp, l0.2] at c
    exact .inr (.inr (mul_le_mul_left_neg (by rw [key_fin fp]; exact not_lt.mp c) h1 (nn f3) (nn f1)))

/-- the plane has finite coefficients -/
def V4.FinNormal (p : V4 F32) : Prop := p.x.isFin = true ∧ p.y.isFin = true ∧ p.z.isFin = true

/-- the box lies on the outer side of one plane, as the test computes it -/
private def outside (b : M2x3 F32) (p : V4 F32) : Bool :=
  flt (p.x * (if flt (lit 0) p.x = true then b.c1.x else b.c0.x) + p.y * (if flt (lit 0) p.y = true then b.c1.y else b.c0.y) +
    p.z * (if flt (lit 0) p.z = true then b.c1.z else b.c0.z)) (-p.w)

private theorem frustum_eq (b : M2x3 F32) (p : M6x4 F32) : glm_aabb_frustum b p =
    (!outside b p.c0 && !outside b p.c1 && !outside b p.c2 && !outside b p.c3 && !outside b p.c4 && !outside b p.c5) := by
  have e : glm_aabb_frustum b p = if outside b p.c0 = true then false else if outside b p.c1 = true then false else
      if outside b p.c2 = true then false else if outside b p.c3 = true then false else if outside b p.c4 = true then false else
      if outside b p.c5 = true then false else true := rfl
  rw [e]
  generalize outside b p.c0 = a0
  generalize outside b p.c1 = a1
  generalize outside b p.c2 = a2
  generalize outside b p.c3 = a3
  generalize outside b p.c4 = a4
  generalize outside b p.c5 = a5
  revert a0 a1 a2 a3 a4 a5
  decide

private theorem outside_mono {b b' : M2x3 F32} (hb : b.c0.IsFin ∧ b.c1.IsFin) (hb' : b'.c0.IsFin ∧ b'.c1.IsFin) (hin : b.Inside b')
    {p : V4 F32} (hp : p.FinNormal) (h : outside b' p = true) : outside b p = true := by
  obtain ⟨p1, p2, p3⟩ := hp
  obtain ⟨⟨i1, i2, i3⟩, ⟨i4, i5, i6⟩⟩ := hin
  exact (LeC.add (LeC.add (LeC.term p1 hb.1.1 hb.2.1 hb'.1.1 hb'.2.1 i1 i4)
      (LeC.term p2 hb.1.2.1 hb.2.2.1 hb'.1.2.1 hb'.2.2.1 i2 i5)) (LeC.term p3 hb.1.2.2 hb.2.2.2 hb'.1.2.2 hb'.2.2.2 i3 i6)).culled h

/-- Culling respects containment: if a box is not culled, no box around it is culled.  All roundings and overflows of the
test are included. -/
theorem C77_aabb_frustum (b b' : M2x3 F32) (planes : M6x4 F32) (hb : b.c0.IsFin ∧ b.c1.IsFin) (hb' : b'.c0.IsFin ∧ b'.c1.IsFin)
    (hp : planes.c0.FinNormal ∧ planes.c1.FinNormal ∧ planes.c2.FinNormal ∧ planes.c3.FinNormal ∧ planes.c4.FinNormal ∧
      planes.c5.FinNormal)
    (hin : b.Inside b') (h : glm_aabb_frustum b planes = true) : glm_aabb_frustum b' planes = true := by
  have k : ∀ {p : V4 F32}, p.FinNormal → outside b p = false → outside b' p = false := fun hp h => by
    rw [← Bool.not_eq_true] at h ⊢
    exact fun c => h (outside_mono hb hb' hin hp c)
  obtain ⟨q0, q1, q2, q3, q4, q5⟩ := hp
  rw [frustum_eq] at h ⊢
  simp only [Bool.and_eq_true, Bool.not_eq_true'] at h ⊢
  obtain ⟨⟨⟨⟨⟨h0, h1⟩, h2⟩, h3⟩, h4⟩, h5⟩ := h
  exact ⟨⟨⟨⟨⟨k q0 h0, k q1 h1⟩, k q2 h2⟩, k q3 h3⟩, k q4 h4⟩, k q5 h5⟩

/-! ### spheres -/

theorem F32.le_sq_of {d r r' : F32} (h : le d (r * r) = true) (hr : le (F32.abs r) (F32.abs r') = true) : le d (r' * r') = true :=
  le_trans' h (sq_le_sq' hr)

/-- a larger sphere holds every point the smaller one holds -/
theorem C77_sphere_point (s : V4 F32) (r' : F32) (p : V3 F32) (hr : le (F32.abs s.w) (F32.abs r') = true)
    (h : glm_sphere_point s p = true) : glm_sphere_point ⟨s.x, s.y, s.z, r'⟩ p = true := by
  simp only [glm_sphere_point, fle_f32] at h ⊢
  exact le_sq_of h hr

/-- growing the sphere does not end its contact with a box ... -/
theorem C77_aabb_sphere (b : M2x3 F32) (s : V4 F32) (r' : F32) (hr : le (F32.abs s.w) (F32.abs r') = true)
    (h : glm_aabb_sphere b s = true) : glm_aabb_sphere b ⟨s.x, s.y, s.z, r'⟩ = true := by
  simp only [glm_aabb_sphere, fle_f32] at h ⊢
  exact le_sq_of h hr

theorem C77_aabb2d_circle (b : M2 F32) (c : V3 F32) (r' : F32) (hr : le (F32.abs c.z) (F32.abs r') = true)
    (h : glm_aabb2d_circle b c = true) : glm_aabb2d_circle b ⟨c.x, c.y, r'⟩ = true := by
  simp only [glm_aabb2d_circle, fle_f32] at h ⊢
  exact le_sq_of h hr

/-- ... or with another sphere -/
theorem C77_sphere_sphere (s t : V4 F32) (r' : F32) (h0 : le (zero false) s.w = true) (h1 : le (zero false) t.w = true)
    (hr : le s.w r' = true) (h : glm_sphere_sphere s t = true) : glm_sphere_sphere ⟨s.x, s.y, s.z, r'⟩ t = true := by
  simp only [glm_sphere_sphere, glm_pow2, fle_f32] at h ⊢
  refine le_sq_of h ?_
  have a := add_nonneg_ne (le_ne h0).2 (le_ne h1).2 (nonneg_key h0) (nonneg_key h1)
  have a' := add_nonneg_ne (le_ne hr).2 (le_ne h1).2 ((nonneg_key h0).trans (key_le_iff.mp hr).2.2) (nonneg_key h1)
  have m := add_le_add' hr (le_refl' (le_ne h1).2) a.1 a'.1
  rw [key_le_iff] at m ⊢
  rw [key_abs, key_abs, abs_of_nonneg a.2, abs_of_nonneg a'.2]
  exact ⟨fun e => a.1 (abs_eq_nan.mp e), fun e => a'.1 (abs_eq_nan.mp e), m.2.2⟩

example : le (F32.abs (.ofRat false 2)) (F32.abs (.ofRat false (-3))) = true := by decide +kernel

/-! ### size and transform of a box -/

theorem F32.sub_ne_nan {a b : F32} (ha : a.isFin = true) (hb : b.isFin = true) : a - b ≠ nan := by
  rw [sub_def]
  obtain ⟨s, e⟩ := add_ofRat ha (b := -b) (by rw [neg_isFin]; exact hb)
  rw [e]; exact ofRat_ne_nan _ _

theorem F32.abs_sub_le {a b a' b' : F32} (fa : a.isFin = true) (fb : b.isFin = true) (fa' : a'.isFin = true) (fb' : b'.isFin = true)
    (hab : le a b = true) (h1 : le a' a = true) (h2 : le b b' = true) : le (F32.abs (a - b)) (F32.abs (a' - b')) = true := by
  have k := sub_le_sub' h1 h2 (sub_ne_nan fa' fb') (sub_ne_nan fa fb)
  have k0 := sub_le_sub' hab (le_refl' (isNum_of_isFin fb)) (sub_ne_nan fa fb) (by rw [sub_self_fin fb]; simp)
  rw [sub_self_fin fb] at k0
  rw [key_le_iff] at k k0 ⊢
  have z : key (zero false) = 0 := rfl
  rw [z] at k0
  rw [key_abs, key_abs, abs_of_nonpos k0.2.2, abs_of_nonpos (k.2.2.trans k0.2.2)]
  exact ⟨fun e => k.2.1 (abs_eq_nan.mp e), fun e => k.1 (abs_eq_nan.mp e), neg_le_neg k.2.2⟩

/-- a box is not larger than a box around it -/
theorem C77_aabb_size (b b' : M2x3 F32) (hb : b.Box) (hb' : b'.Box) (hin : b.Inside b') :
    le (glm_aabb_size b) (glm_aabb_size b') = true := by
  obtain ⟨⟨f1, f2, f3⟩, ⟨f4, f5, f6⟩, o1, o2, o3⟩ := hb
  obtain ⟨⟨g1, g2, g3⟩, ⟨g4, g5, g6⟩, -⟩ := hb'
  obtain ⟨⟨i1, i2, i3⟩, ⟨i4, i5, i6⟩⟩ := hin
  have := C77_vec3_norm (glm_vec3_sub b.c0 b.c1) (glm_vec3_sub b'.c0 b'.c1) (by
    simp only [V3.LeAbs, V3.map, V3.Le, cglm]
    exact ⟨abs_sub_le f1 f4 g1 g4 o1 i1 i4, abs_sub_le f2 f5 g2 g5 o2 i2 i5, abs_sub_le f3 f6 g3 g6 o3 i3 i6⟩)
  simp only [cglm] at this ⊢
  exact this

theorem C77_aabb_radius (b b' : M2x3 F32) (hb : b.Box) (hb' : b'.Box) (hin : b.Inside b') (hn : glm_aabb_radius b ≠ nan)
    (hn' : glm_aabb_radius b' ≠ nan) : le (glm_aabb_radius b) (glm_aabb_radius b') = true := by
  have := C77_aabb_size b b' hb hb' hin
  refine LeN.mulR ?_ (.of this) hn hn'
  show 0 ≤ key (ofRat false _); decide +kernel

theorem F32.min_term {m lo hi lo' hi' : F32} (fm : m.isFin = true) (f1 : lo.isFin = true) (f2 : hi.isFin = true)
    (f3 : lo'.isFin = true) (f4 : hi'.isFin = true) (ho : le lo hi = true) (h1 : le lo' lo = true) (h2 : le hi hi' = true) :
    le (glm_min (m * lo') (m * hi')) (glm_min (m * lo) (m * hi)) = true ∧
    le (glm_max (m * lo) (m * hi)) (glm_max (m * lo') (m * hi')) = true := by
  have nn : ∀ {x : F32}, x.isFin = true → m * x ≠ nan := fun hx => by rw [mul_ofRat fm hx]; exact ofRat_ne_nan _ _
  have h3 := le_trans' ho h2
  have h4 := le_trans' h1 ho
  rcases le_total 0 (key m) with c | c
  · have a1 := mul_le_mul_left' c h1 (nn f3) (nn f1)
    have a2 := mul_le_mul_left' c h2 (nn f2) (nn f4)
    have a3 := mul_le_mul_left' c h3 (nn f1) (nn f4)
    have a4 := mul_le_mul_left' c h4 (nn f3) (nn f2)
    exact ⟨le_trans' (min_le (nn f3) (nn f4)).1 (le_min a1 a4), le_trans' (max_le a3 a2) (le_max (nn f3) (nn f4)).2⟩
  · have a1 := mul_le_mul_left_neg c h1 (nn f3) (nn f1)
    have a2 := mul_le_mul_left_neg c h2 (nn f2) (nn f4)
    have a3 := mul_le_mul_left_neg c h3 (nn f1) (nn f4)
    have a4 := mul_le_mul_left_neg c h4 (nn f3) (nn f2)
    exact ⟨le_trans' (min_le (nn f3) (nn f4)).2 (le_min a3 a2), le_trans' (max_le a1 a4) (le_max (nn f3) (nn f4)).1⟩

/-- transforming a box respects containment -/
theorem C77_aabb_transform (b b' : M2x3 F32) (m : M4 F32) (hb : b.Box) (hb' : b'.Box) (hm : m.IsFin) (hin : b.Inside b')
    (hn : (glm_aabb_transform b m).c0.Num ∧ (glm_aabb_transform b m).c1.Num)
    (hn' : (glm_aabb_transform b' m).c0.Num ∧ (glm_aabb_transform b' m).c1.Num) :
    (glm_aabb_transform b m).Inside (glm_aabb_transform b' m) := by
  obtain ⟨⟨f1, f2, f3⟩, ⟨f4, f5, f6⟩, o1, o2, o3⟩ := hb
  obtain ⟨⟨g1, g2, g3⟩, ⟨g4, g5, g6⟩, -⟩ := hb'
  obtain ⟨⟨i1, i2, i3⟩, ⟨i4, i5, i6⟩⟩ := hin
  obtain ⟨⟨a1, a2, a3, -⟩, ⟨a4, a5, a6, -⟩, ⟨a7, a8, a9, -⟩, -⟩ := hm
  have e : ∀ c : M2x3 F32, glm_aabb_transform c m =
      ⟨⟨m.c3.x + glm_min (m.c0.x * c.c0.x) (m.c0.x * c.c1.x) + glm_min (m.c1.x * c.c0.y) (m.c1.x * c.c1.y) +
          glm_min (m.c2.x * c.c0.z) (m.c2.x * c.c1.z),
        m.c3.y + glm_min (m.c0.y * c.c0.x) (m.c0.y * c.c1.x) + glm_min (m.c1.y * c.c0.y) (m.c1.y * c.c1.y) +
          glm_min (m.c2.y * c.c0.z) (m.c2.y * c.c1.z),
        m.c3.z + glm_min (m.c0.z * c.c0.x) (m.c0.z * c.c1.x) + glm_min (m.c1.z * c.c0.y) (m.c1.z * c.c1.y) +
          glm_min (m.c2.z * c.c0.z) (m.c2.z * c.c1.z)⟩,
       ⟨m.c3.x + glm_max (m.c0.x * c.c0.x) (m.c0.x * c.c1.x) + glm_max (m.c1.x * c.c0.y) (m.c1.x * c.c1.y) +
          glm_max (m.c2.x * c.c0.z) (m.c2.x * c.c1.z),
        m.c3.y + glm_max (m.c0.y * c.c0.x) (m.c0.y * c.c1.x) + glm_max (m.c1.y * c.c0.y) (m.c1.y * c.c1.y) +
          glm_max (m.c2.y * c.c0.z) (m.c2.y * c.c1.z),
        m.c3.z + glm_max (m.c0.z * c.c0.x) (m.c0.z * c.c1.x) + glm_max (m.c1.z * c.c0.y) (m.c1.z * c.c1.y) +
          glm_max (m.c2.z * c.c0.z) (m.c2.z * c.c1.z)⟩⟩ := fun c => by
    simp only [glm_aabb_transform, glm_vec3_scale, glm_vec3, glm_vec3_minadd, glm_vec3_maxadd, glm_vec3_copy]
  rw [e] at hn hn' ⊢
  rw [e]
  obtain ⟨⟨n1, n2, n3⟩, ⟨n4, n5, n6⟩⟩ := hn
  obtain ⟨⟨k1, k2, k3⟩, ⟨k4, k5, k6⟩⟩ := hn'
  have tx := @min_term _
  refine ⟨⟨?_, ?_, ?_⟩, ⟨?_, ?_, ?_⟩⟩
  · exact LeN.add (.add (.add (.refl _) (.of (min_term a1 f1 f4 g1 g4 o1 i1 i4).1)) (.of (min_term a4 f2 f5 g2 g5 o2 i2 i5).1))
      (.of (min_term a7 f3 f6 g3 g6 o3 i3 i6).1) k1 n1
  · exact LeN.add (.add (.add (.refl _) (.of (min_term a2 f1 f4 g1 g4 o1 i1 i4).1)) (.of (min_term a5 f2 f5 g2 g5 o2 i2 i5).1))
      (.of (min_term a8 f3 f6 g3 g6 o3 i3 i6).1) k2 n2
  · exact LeN.add (.add (.add (.refl _) (.of (min_term a3 f1 f4 g1 g4 o1 i1 i4).1)) (.of (min_term a6 f2 f5 g2 g5 o2 i2 i5).1))
      (.of (min_term a9 f3 f6 g3 g6 o3 i3 i6).1) k3 n3
  · exact LeN.add (.add (.add (.refl _) (.of (min_term a1 f1 f4 g1 g4 o1 i1 i4).2)) (.of (min_term a4 f2 f5 g2 g5 o2 i2 i5).2))
      (.of (min_term a7 f3 f6 g3 g6 o3 i3 i6).2) n4 k4
  · exact LeN.add (.add (.add (.refl _) (.of (min_term a2 f1 f4 g1 g4 o1 i1 i4).2)) (.of (min_term a5 f2 f5 g2 g5 o2 i2 i5).2))
      (.of (min_term a8 f3 f6 g3 g6 o3 i3 i6).2) n5 k5
  · exact LeN.add (.add (.add (.refl _) (.of (min_term a3 f1 f4 g1 g4 o1 i1 i4).2)) (.of (min_term a6 f2 f5 g2 g5 o2 i2 i5).2))
      (.of (min_term a9 f3 f6 g3 g6 o3 i3 i6).2) n6 k6

/-- A transformed box need not hold the transformed points: the two functions add in different orders, so a corner of the
box can be rounded to a number below the new minimum. -/
theorem C77_aabb_transform_point_fails : ∃ (b : M2x3 F32) (m : M4 F32) (p : V3 F32), b.Box ∧ m.IsFin ∧ p.IsFin ∧
    glm_aabb_point b p = true ∧ glm_aabb_point (glm_aabb_transform b m) (glm_mat4_mulv3 m p (lit 1)) = false := by
  let o : F32 := .ofRat false 1
  let z : F32 := .ofRat false 0
  let p : V3 F32 := ⟨.ofRat false 3, .ofRat false (-1), .ofRat false 2⟩
  refine ⟨⟨p, p⟩, ⟨⟨o, z, z, z⟩, ⟨o, o, z, z⟩, ⟨o, z, o, z⟩, ⟨.ofRat false 16777216, z, z, o⟩⟩, p, ?_, ?_, ?_, ?_, ?_⟩
  · simp only [M2x3.Box, V3.IsFin, V3.Le]; decide +kernel
  · simp only [M4.IsFin, V4.IsFin]; decide +kernel
  · simp only [V3.IsFin]; decide +kernel
  · simp only [cglm, fle_f32]; decide +kernel
  · have e1 : ∀ x : F32, glm_min x x = x := fun x => by unfold glm_min; exact ite_self x
    have e2 : ∀ x : F32, glm_max x x = x := fun x => by unfold glm_max; exact ite_self x
    simp only [glm_aabb_transform, glm_vec3_scale, glm_vec3, glm_vec3_minadd, glm_vec3_maxadd, glm_vec3_copy, e1, e2]
    simp only [cglm, fle_f32, lit_f32]
    decide +kernel

/-! ### matrices without negative entries -/

/-- a matrix without negative entries keeps the order of vectors -/
theorem C77_mat3_mulv (m : M3 F32) (v v' : V3 F32) (hm : m.c0.Nonneg ∧ m.c1.Nonneg ∧ m.c2.Nonneg) (hv : v.Le v')
    (hn : (glm_mat3_mulv m v).Num) (hn' : (glm_mat3_mulv m v').Num) : (glm_mat3_mulv m v).Le (glm_mat3_mulv m v') := by
  obtain ⟨⟨a1, a2, a3⟩, ⟨b1, b2, b3⟩, ⟨c1, c2, c3⟩⟩ := hm
  obtain ⟨v1, v2, v3⟩ := hv
  simp only [V3.Num, V3.Le, cglm] at *
  have k : ∀ {x y z : F32}, le (zero false) x = true → le (zero false) y = true → le (zero false) z = true →
      LeN (x * v.x + y * v.y + z * v.z) (x * v'.x + y * v'.y + z * v'.z) := fun hx hy hz =>
    .add (.add (.mulL (nonneg_key hx) (.of v1)) (.mulL (nonneg_key hy) (.of v2))) (.mulL (nonneg_key hz) (.of v3))
  exact ⟨k a1 b1 c1 hn.1 hn'.1, k a2 b2 c2 hn.2.1 hn'.2.1, k a3 b3 c3 hn.2.2 hn'.2.2⟩

theorem C77_mat4_mulv (m : M4 F32) (v v' : V4 F32) (hm : m.c0.Nonneg ∧ m.c1.Nonneg ∧ m.c2.Nonneg ∧ m.c3.Nonneg) (hv : v.Le v')
    (hn : (glm_mat4_mulv m v).Num) (hn' : (glm_mat4_mulv m v').Num) : (glm_mat4_mulv m v).Le (glm_mat4_mulv m v') := by
  obtain ⟨⟨a1, a2, a3, a4⟩, ⟨b1, b2, b3, b4⟩, ⟨c1, c2, c3, c4⟩, ⟨d1, d2, d3, d4⟩⟩ := hm
  obtain ⟨v1, v2, v3, v4⟩ := hv
  simp only [V4.Num, V4.Le, cglm] at *
  have k : ∀ {x y z w : F32}, le (zero false) x = true → le (zero false) y = true → le (zero false) z = true →
      le (zero false) w = true →
      LeN (x * v.x + y * v.y + z * v.z + w * v.w) (x * v'.x + y * v'.y + z * v'.z + w * v'.w) := fun hx hy hz hw =>
    .add (.add (.add (.mulL (nonneg_key hx) (.of v1)) (.mulL (nonneg_key hy) (.of v2))) (.mulL (nonneg_key hz) (.of v3)))
      (.mulL (nonneg_key hw) (.of v4))
  exact ⟨k a1 b1 c1 d1 hn.1 hn'.1, k a2 b2 c2 d2 hn.2.1 hn'.2.1, k a3 b3 c3 d3 hn.2.2.1 hn'.2.2.1, k a4 b4 c4 d4 hn.2.2.2 hn'.2.2.2⟩

end Cglm
