import Verif.Props.C36

/-! # C38: box / frustum culling -/

namespace Cglm

/-- one step of the test: the box corner farthest along the plane normal -/
theorem plane_test (b : M2x3 ℝ) (hb : b.Valid) (q : V4 ℝ) :
    (q.x * (if flt (lit 0) q.x then b.c1.x else b.c0.x) + q.y * (if flt (lit 0) q.y then b.c1.y else b.c0.y) +
      q.z * (if flt (lit 0) q.z then b.c1.z else b.c0.z) < -q.w) ↔ ∀ p ∈ b.set, planeAt q p < 0 := by
  obtain ⟨hx, hy, hz⟩ := hb
  have k : ∀ c l h : ℝ, l ≤ h → (∃ e, e = (if flt (lit 0) c then h else l) ∧ l ≤ e ∧ e ≤ h ∧ ∀ x, l ≤ x → x ≤ h → c * x ≤ c * e) := by
    intro c l h hl
    by_cases hc : 0 < c
    · exact ⟨h, by simp [cglm, hc], hl, le_rfl, fun x _ hx => mul_le_mul_of_nonneg_left hx hc.le⟩
    · exact ⟨l, by simp [cglm, hc], le_rfl, hl, fun x hx _ => mul_le_mul_of_nonpos_left hx (not_lt.mp hc)⟩
  obtain ⟨x, ex, x1, x2, x3⟩ := k q.x _ _ hx
  obtain ⟨y, ey, y1, y2, y3⟩ := k q.y _ _ hy
  obtain ⟨z, ez, z1, z2, z3⟩ := k q.z _ _ hz
  rw [← ex, ← ey, ← ez]
  unfold planeAt
  constructor
  · rintro h p ⟨h1, h2, h3, h4, h5, h6⟩
    have := x3 _ h1 h2; have := y3 _ h3 h4; have := z3 _ h5 h6
    linarith
  · intro h
    have := h ⟨x, y, z⟩ ⟨x1, x2, y1, y2, z1, z2⟩
    simp only [] at this
    linarith

/-- exact characterization: the test fails iff some plane has the whole box strictly on its negative side -/
theorem C38_exact (b : M2x3 ℝ) (hb : b.Valid) (f : M6x4 ℝ) :
    glm_aabb_frustum b f = true ↔ ∀ q ∈ [f.c0, f.c1, f.c2, f.c3, f.c4, f.c5], ∃ p ∈ b.set, 0 ≤ planeAt q p := by
  have k : ∀ q : V4 ℝ, (∃ p ∈ b.set, 0 ≤ planeAt q p) ↔ ¬ (q.x * (if flt (lit 0) q.x then b.c1.x else b.c0.x) +
      q.y * (if flt (lit 0) q.y then b.c1.y else b.c0.y) + q.z * (if flt (lit 0) q.z then b.c1.z else b.c0.z) < -q.w) := by
    intro q
    rw [plane_test b hb]
    push Not
    rfl
  simp only [List.forall_mem_cons, List.not_mem_nil, false_imp_iff, implies_true, and_true, k]
  unfold glm_aabb_frustum
  generalize f.c0.x * (if flt (lit 0) f.c0.x then b.c1.x else b.c0.x) + f.c0.y * (if flt (lit 0) f.c0.y then b.c1.y else b.c0.y) +
    f.c0.z * (if flt (lit 0) f.c0.z then b.c1.z else b.c0.z) = s0
  generalize f.c1.x * (if flt (lit 0) f.c1.x then b.c1.x else b.c0.x) + f.c1.y * (if flt (lit 0) f.c1.y then b.c1.y else b.c0.y) +
    f.c1.z * (if flt (lit 0) f.c1.z then b.c1.z else b.c0.z) = s1
  generalize f.c2.x * (if flt (lit 0) f.c2.x then b.c1.x else b.c0.x) + f.c2.y * (if flt (lit 0) f.c2.y then b.c1.y else b.c0.y) +
    f.c2.z * (if flt (lit 0) f.c2.z then b.c1.z else b.c0.z) = s2
  generalize f.c3.x * (if flt (lit 0) f.c3.x then b.c1.x else b.c0.x) + f.c3.y * (if flt (lit 0) f.c3.y then b.c1.y else b.c0.y) +
    f.c3.z * (if flt (lit 0) f.c3.z then b.c1.z else b.c0.z) = s3
  generalize f.c4.x * (if flt (lit 0) f.c4.x then b.c1.x else b.c0.x) + f.c4.y * (if flt (lit 0) f.c4.y then b.c1.y else b.c0.y) +
    f.c4.z * (if flt (lit 0) f.c4.z then b.c1.z else b.c0.z) = s4
  generalize f.c5.x * (if flt (lit 0) f.c5.x then b.c1.x else b.c0.x) + f.c5.y * (if flt (lit 0) f.c5.y then b.c1.y else b.c0.y) +
    f.c5.z * (if flt (lit 0) f.c5.z then b.c1.z else b.c0.z) = s5
  simp only [flt_real, decide_eq_true_eq]
  split_ifs with h1 h2 h3 h4 h5 h6 <;> simp only [*, not_true, not_false_eq_true, and_self, false_and, and_false, iff_self]

/-- conservative: a box that is culled has no point inside all six planes -/
theorem C38_conservative (b : M2x3 ℝ) (f : M6x4 ℝ) (h : glm_aabb_frustum b f = false) (p : V3 ℝ) (hp : p ∈ b.set) :
    ∃ q ∈ [f.c0, f.c1, f.c2, f.c3, f.c4, f.c5], planeAt q p < 0 := by
  have hb : b.Valid := (M2x3.valid_iff b).mpr ⟨p, hp⟩
  by_contra hn
  push Not at hn
  have := (C38_exact b hb f).mpr fun q hq => ⟨p, hp, hn q hq⟩
  rw [h] at this
  exact Bool.noConfusion this

/-- with the planes of a matrix: a box containing a point of the clip volume is never culled -/
theorem C38_visible (b : M2x3 ℝ) (m : M4 ℝ) (p : V3 ℝ) (hp : p ∈ b.set) (x y z w : ℝ) (hc : clipv m p = ![x, y, z, w])
    (hin : -w ≤ x ∧ x ≤ w ∧ -w ≤ y ∧ y ≤ w ∧ -w ≤ z ∧ z ≤ w) : glm_aabb_frustum b (glm_frustum_planes m) = true := by
  by_contra hn
  obtain ⟨q, hq, hlt⟩ := C38_conservative b _ (Bool.not_eq_true _ ▸ hn) p hp
  exact absurd (C34_conservative m p x y z w hc hin q hq) (not_le.mpr hlt)

/-- a box that is culled: [2,3]^3 against the planes of the unit cube -/
example : glm_aabb_frustum (⟨⟨2, 2, 2⟩, ⟨3, 3, 3⟩⟩ : M2x3 ℝ)
    ⟨⟨1, 0, 0, 1⟩, ⟨-1, 0, 0, 1⟩, ⟨0, 1, 0, 1⟩, ⟨0, -1, 0, 1⟩, ⟨0, 0, 1, 1⟩, ⟨0, 0, -1, 1⟩⟩ = false := by
  simp [cglm]; norm_num

end Cglm
