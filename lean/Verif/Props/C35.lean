import Verif.Props.C32
import Verif.Props.C34

/-! # C35: frustum corners, center, box, and corners at a split distance -/

namespace Cglm

/-- largest finite single-precision number -/
def FLT_MAX : ℝ := 340282346638528859811704183484516925440
theorem lit_max : (lit 340282346638528859811704183484516925440 : ℝ) = FLT_MAX := by
  simp only [cglm]; rfl

def M8x4.cols (c : M8x4 ℝ) : List (V4 ℝ) := [c.c0, c.c1, c.c2, c.c3, c.c4, c.c5, c.c6, c.c7]

/-- the corners of the clip cube in the documented order:
near left-bottom, left-top, right-top, right-bottom, then far in the same order -/
def cubeCorners : List (V3 ℝ) :=
  [⟨-1, -1, -1⟩, ⟨-1, 1, -1⟩, ⟨1, 1, -1⟩, ⟨1, -1, -1⟩, ⟨-1, -1, 1⟩, ⟨-1, 1, 1⟩, ⟨1, 1, 1⟩, ⟨1, -1, 1⟩]

/-- each corner is the point with w = 1 that `m` projects to the corresponding corner of the clip cube -/
theorem C35_corners (m inv : M4 ℝ) (hi : m.mat * inv.mat = 1)
    (hw : ∀ n ∈ cubeCorners, inv.mat.mulVec (n.hom 1).vec 3 ≠ 0) :
    List.Forall₂ (fun (n : V3 ℝ) (c : V4 ℝ) => c.w = 1 ∧ ndc m c.xyz = n ∧ clipv m c.xyz 3 ≠ 0) cubeCorners
      (glm_frustum_corners inv).cols := by
  have k : ∀ n : V3 ℝ, inv.mat.mulVec (n.hom 1).vec 3 ≠ 0 → ∀ v : V4 ℝ, v = n.hom 1 →
      (glm_vec4_scale (glm_mat4_mulv inv v) (lit 1 / (glm_mat4_mulv inv v).w)).w = 1 ∧
      ndc m (glm_vec4_scale (glm_mat4_mulv inv v) (lit 1 / (glm_mat4_mulv inv v).w)).xyz = n ∧
      clipv m (glm_vec4_scale (glm_mat4_mulv inv v) (lit 1 / (glm_mat4_mulv inv v).w)).xyz 3 ≠ 0 := by
    intro n h v hv
    rw [← C01_mat4_mulv] at h
    have h : (glm_mat4_mulv inv (n.hom 1)).w ≠ 0 := by simpa [V4.vec] using h
    obtain ⟨e1, e2⟩ := proj_inv m inv hi n h
    subst hv
    generalize glm_mat4_mulv inv (n.hom 1) = q at *
    refine ⟨?_, e1, ?_⟩
    · simp [cglm]; field_simp
    · have : clipv m (glm_vec4_scale q (lit 1 / q.w)).xyz 3 = 1 / q.w := e2
      rw [this]; exact one_div_ne_zero h
  simp only [cubeCorners, List.forall_mem_cons, List.not_mem_nil, false_imp_iff, implies_true, and_true] at hw
  obtain ⟨h0, h1, h2, h3, h4, h5, h6, h7⟩ := hw
  unfold M8x4.cols cubeCorners glm_frustum_corners
  refine .cons (k _ h0 _ ?_) (.cons (k _ h1 _ ?_) (.cons (k _ h2 _ ?_) (.cons (k _ h3 _ ?_) (.cons (k _ h4 _ ?_)
    (.cons (k _ h5 _ ?_) (.cons (k _ h6 _ ?_) (.cons (k _ h7 _ ?_) .nil))))))) <;> simp [V3.hom, cglm]

/-- a symmetric perspective frustum and its inverse meet the hypotheses -/
example : (∃ m : M4 ℝ, m.mat * (⟨⟨1, 0, 0, 0⟩, ⟨0, 1, 0, 0⟩, ⟨0, 0, 0, -1/4⟩, ⟨0, 0, -1, 3/4⟩⟩ : M4 ℝ).mat = 1) ∧
    ∀ n ∈ cubeCorners, (⟨⟨1, 0, 0, 0⟩, ⟨0, 1, 0, 0⟩, ⟨0, 0, 0, -1/4⟩, ⟨0, 0, -1, 3/4⟩⟩ : M4 ℝ).mat.mulVec (n.hom 1).vec 3 ≠ 0 := by
  constructor
  · refine ⟨⟨⟨1, 0, 0, 0⟩, ⟨0, 1, 0, 0⟩, ⟨0, 0, -3, -1⟩, ⟨0, 0, -4, 0⟩⟩, ?_⟩
    ext i j
    fin_cases i <;> fin_cases j <;> simp [M4.mat, Matrix.mul_apply, Fin.sum_univ_succ] <;> norm_num
  · simp only [cubeCorners, List.forall_mem_cons, List.not_mem_nil, false_imp_iff, implies_true, and_true]
    refine ⟨?_, ?_, ?_, ?_, ?_, ?_, ?_, ?_⟩ <;>
      simp [M4.mat, V3.hom, V4.vec, Matrix.mulVec, dotProduct, Fin.sum_univ_succ] <;> norm_num

/-- the center is the mean of the eight corners -/
theorem C35_center (c : M8x4 ℝ) :
    glm_frustum_center c = ⟨(c.cols.map V4.x).sum / 8, (c.cols.map V4.y).sum / 8, (c.cols.map V4.z).sum / 8, (c.cols.map V4.w).sum / 8⟩ := by
  ext <;> simp [cglm, M8x4.cols] <;> ring

/-- the eight transformed corners -/
noncomputable def moved (c : M8x4 ℝ) (m : M4 ℝ) : List (Fin 4 → ℝ) := c.cols.map fun v => m.mat.mulVec v.vec

/-- the box contains all transformed corners and is contained in every box that does; coordinates up to FLT_MAX, as for every
finite single-precision value -/
theorem C35_box (c : M8x4 ℝ) (m : M4 ℝ) (hb : ∀ v ∈ moved c m, ∀ i, |v i| ≤ FLT_MAX) :
    let b := glm_frustum_box c m
    (∀ v ∈ moved c m, b.c0.x ≤ v 0 ∧ v 0 ≤ b.c1.x ∧ b.c0.y ≤ v 1 ∧ v 1 ≤ b.c1.y ∧ b.c0.z ≤ v 2 ∧ v 2 ≤ b.c1.z) ∧
    ((∃ v ∈ moved c m, v 0 = b.c0.x) ∧ (∃ v ∈ moved c m, v 0 = b.c1.x) ∧ (∃ v ∈ moved c m, v 1 = b.c0.y) ∧
      (∃ v ∈ moved c m, v 1 = b.c1.y) ∧ (∃ v ∈ moved c m, v 2 = b.c0.z) ∧ (∃ v ∈ moved c m, v 2 = b.c1.z)) := by
  have e : ∀ v : V4 ℝ, m.mat.mulVec v.vec = (glm_mat4_mulv m v).vec := fun v => (C01_mat4_mulv m v).symm
  have e0 : ∀ v : V4 ℝ, v.vec 0 = v.x := fun v => rfl
  have e1 : ∀ v : V4 ℝ, v.vec 1 = v.y := fun v => rfl
  have e2 : ∀ v : V4 ℝ, v.vec 2 = v.z := fun v => rfl
  simp only [moved, M8x4.cols, List.map_cons, List.map_nil, e, List.not_mem_nil, List.mem_cons, or_false,
    forall_eq_or_imp, forall_eq, exists_eq_or_imp, exists_eq_left, e0, e1, e2] at hb ⊢
  unfold glm_frustum_box
  simp only [glm_min_eq, glm_max_eq, glm_vec3_copy, glm_vec3_broadcast, lit_max]
  generalize glm_mat4_mulv m c.c0 = v0 at *
  generalize glm_mat4_mulv m c.c1 = v1 at *
  generalize glm_mat4_mulv m c.c2 = v2 at *
  generalize glm_mat4_mulv m c.c3 = v3 at *
  generalize glm_mat4_mulv m c.c4 = v4 at *
  generalize glm_mat4_mulv m c.c5 = v5 at *
  generalize glm_mat4_mulv m c.c6 = v6 at *
  generalize glm_mat4_mulv m c.c7 = v7 at *
  have kmin : ∀ a b c d e f g h : ℝ, |a| ≤ FLT_MAX → 
      (let r := min (min (min (min (min (min (min (min FLT_MAX a) b) c) d) e) f) g) h
      (r ≤ a ∧ r ≤ b ∧ r ≤ c ∧ r ≤ d ∧ r ≤ e ∧ r ≤ f ∧ r ≤ g ∧ r ≤ h) ∧
      (a = r ∨ b = r ∨ c = r ∨ d = r ∨ e = r ∨ f = r ∨ g = r ∨ h = r)) := by
    intro a b c d e f g h ha
    have : min FLT_MAX a = a := min_eq_right (abs_le.mp ha).2
    intro r
    have hr : r = min (min (min (min (min (min (min a b) c) d) e) f) g) h := by simp only [r, this]
    constructor
    · rw [hr]; simp only [min_le_iff, le_refl, true_or, or_true, and_self]
    · rw [hr]
      rcases min_choice (min (min (min (min (min (min a b) c) d) e) f) g) h with h1 | h1 <;> rw [h1] <;> try tauto
      rcases min_choice (min (min (min (min (min a b) c) d) e) f) g with h1 | h1 <;> rw [h1] <;> try tauto
      rcases min_choice (min (min (min (min a b) c) d) e) f with h1 | h1 <;> rw [h1] <;> try tauto
      rcases min_choice (min (min (min a b) c) d) e with h1 | h1 <;> rw [h1] <;> try tauto
      rcases min_choice (min (min a b) c) d with h1 | h1 <;> rw [h1] <;> try tauto
      rcases min_choice (min a b) c with h1 | h1 <;> rw [h1] <;> try tauto
      rcases min_choice a b with h1 | h1 <;> rw [h1] <;> tauto
  have kmax : ∀ a b c d e f g h : ℝ, |a| ≤ FLT_MAX → 
      (let r := max (max (max (max (max (max (max (max (-FLT_MAX) a) b) c) d) e) f) g) h
      (a ≤ r ∧ b ≤ r ∧ c ≤ r ∧ d ≤ r ∧ e ≤ r ∧ f ≤ r ∧ g ≤ r ∧ h ≤ r) ∧
      (a = r ∨ b = r ∨ c = r ∨ d = r ∨ e = r ∨ f = r ∨ g = r ∨ h = r)) := by
    intro a b c d e f g h ha
    have : max (-FLT_MAX) a = a := max_eq_right (abs_le.mp ha).1
    intro r
    have hr : r = max (max (max (max (max (max (max a b) c) d) e) f) g) h := by simp only [r, this]
    constructor
    · rw [hr]; simp only [le_max_iff, le_refl, true_or, or_true, and_self]
    · rw [hr]
      rcases max_choice (max (max (max (max (max (max a b) c) d) e) f) g) h with h1 | h1 <;> rw [h1] <;> try tauto
      rcases max_choice (max (max (max (max (max a b) c) d) e) f) g with h1 | h1 <;> rw [h1] <;> try tauto
      rcases max_choice (max (max (max (max a b) c) d) e) f with h1 | h1 <;> rw [h1] <;> try tauto
      rcases max_choice (max (max (max a b) c) d) e with h1 | h1 <;> rw [h1] <;> try tauto
      rcases max_choice (max (max a b) c) d with h1 | h1 <;> rw [h1] <;> try tauto
      rcases max_choice (max a b) c with h1 | h1 <;> rw [h1] <;> try tauto
      rcases max_choice a b with h1 | h1 <;> rw [h1] <;> tauto
  have bx := hb.1 0; have by' := hb.1 1; have bz := hb.1 2
  obtain ⟨⟨a1, a2, a3, a4, a5, a6, a7, a8⟩, a9⟩ := kmin v0.x v1.x v2.x v3.x v4.x v5.x v6.x v7.x bx
  obtain ⟨⟨b1, b2, b3, b4, b5, b6, b7, b8⟩, b9⟩ := kmin v0.y v1.y v2.y v3.y v4.y v5.y v6.y v7.y by'
  obtain ⟨⟨c1, c2, c3, c4, c5, c6, c7, c8⟩, c9⟩ := kmin v0.z v1.z v2.z v3.z v4.z v5.z v6.z v7.z bz
  obtain ⟨⟨A1, A2, A3, A4, A5, A6, A7, A8⟩, A9⟩ := kmax v0.x v1.x v2.x v3.x v4.x v5.x v6.x v7.x bx
  obtain ⟨⟨B1, B2, B3, B4, B5, B6, B7, B8⟩, B9⟩ := kmax v0.y v1.y v2.y v3.y v4.y v5.y v6.y v7.y by'
  obtain ⟨⟨C1, C2, C3, C4, C5, C6, C7, C8⟩, C9⟩ := kmax v0.z v1.z v2.z v3.z v4.z v5.z v6.z v7.z bz
  exact ⟨⟨⟨a1, A1, b1, B1, c1, C1⟩, ⟨a2, A2, b2, B2, c2, C2⟩, ⟨a3, A3, b3, B3, c3, C3⟩, ⟨a4, A4, b4, B4, c4, C4⟩,
    ⟨a5, A5, b5, B5, c5, C5⟩, ⟨a6, A6, b6, B6, c6, C6⟩, ⟨a7, A7, b7, B7, c7, C7⟩, ⟨a8, A8, b8, B8, c8, C8⟩⟩,
    a9, A9, b9, B9, c9, C9⟩

/-! ## corners at a split distance -/

/-- what the code computes for one edge: along the edge direction, by the length of the third (right-top) edge times split/far -/
theorem C35_actual_corners_at (c : M8x4 ℝ) (split far : ℝ) (near farc : V4 ℝ)
    (hl : FLT_EPSILON ≤ (farc.addv (near.smul (-1))).len)
    (p : V4 ℝ) (hp : (near, farc, p) ∈ [(c.c0, c.c4, (glm_frustum_corners_at c split far).c0),
      (c.c1, c.c5, (glm_frustum_corners_at c split far).c1), (c.c2, c.c6, (glm_frustum_corners_at c split far).c2),
      (c.c3, c.c7, (glm_frustum_corners_at c split far).c3)]) :
    p = near.addv ((farc.addv (near.smul (-1))).smul
      ((c.c6.xyz.sub c.c2.xyz).len * (split / far) / (farc.addv (near.smul (-1))).len)) := by
  have hd : glm_vec3_distance ⟨c.c6.x, c.c6.y, c.c6.z⟩ ⟨c.c2.x, c.c2.y, c.c2.z⟩ = (c.c6.xyz.sub c.c2.xyz).len := by
    simp [cglm, V3.len, V3.dot, V3.sub, V4.xyz]
  have k : ∀ a b : V4 ℝ, FLT_EPSILON ≤ (b.addv (a.smul (-1))).len → ∀ s,
      glm_vec4_add a (glm_vec4_scale_as (glm_vec4_sub b a) s) =
        a.addv ((b.addv (a.smul (-1))).smul (s / (b.addv (a.smul (-1))).len)) := by
    intro a b h s
    have hs : glm_vec4_sub b a = b.addv (a.smul (-1)) := by ext <;> simp [cglm, V4.addv, V4.smul] <;> ring
    rw [hs]
    generalize b.addv (a.smul (-1)) = e at *
    have h1 : ¬ e.len < FLT_EPSILON := not_lt.mpr h
    unfold glm_vec4_scale_as
    simp only [glm_vec4_norm_eq, flt_real, lit_scientific, eps_lit, h1, decide_false, Bool.false_eq_true, if_false]
    ext <;> simp [cglm, V4.addv, V4.smul] <;> ring
  simp only [List.mem_cons, Prod.mk.injEq, List.not_mem_nil, or_false] at hp
  unfold glm_frustum_corners_at at hp
  simp only [hd] at hp
  rcases hp with ⟨rfl, rfl, rfl⟩ | ⟨rfl, rfl, rfl⟩ | ⟨rfl, rfl, rfl⟩ | ⟨rfl, rfl, rfl⟩ <;> exact k _ _ hl _

/-- for a frustum whose four side edges are equally long (every symmetric one), the result is the documented interpolation
along the edges, at the fraction split/far -/
theorem C35_corners_at_partial (c : M8x4 ℝ) (split far : ℝ) (near farc : V4 ℝ)
    (hl : FLT_EPSILON ≤ (farc.addv (near.smul (-1))).len)
    (heq : (farc.addv (near.smul (-1))).len = (c.c6.xyz.sub c.c2.xyz).len)
    (p : V4 ℝ) (hp : (near, farc, p) ∈ [(c.c0, c.c4, (glm_frustum_corners_at c split far).c0),
      (c.c1, c.c5, (glm_frustum_corners_at c split far).c1), (c.c2, c.c6, (glm_frustum_corners_at c split far).c2),
      (c.c3, c.c7, (glm_frustum_corners_at c split far).c3)]) :
    p = near.addv ((farc.addv (near.smul (-1))).smul (split / far)) := by
  rw [C35_actual_corners_at c split far near farc hl p hp, ← heq]
  have : (farc.addv (near.smul (-1))).len ≠ 0 := (lt_of_lt_of_le FLT_EPSILON_pos hl).ne'
  congr 2
  field_simp

/-- in general it is not: with edges of length 1 and 3, the point at fraction 1/3 of the longer edge is (0,0,1), and the code
returns (0,0,1/3) -/
theorem C35_corners_at_refuted : ¬ ∀ (c : M8x4 ℝ) (split far : ℝ),
    (glm_frustum_corners_at c split far).c0 = c.c0.addv ((c.c4.addv (c.c0.smul (-1))).smul (split / far)) := by
  intro h
  let c : M8x4 ℝ := ⟨⟨0, 0, 0, 1⟩, ⟨0, 0, 0, 1⟩, ⟨0, 0, 0, 1⟩, ⟨0, 0, 0, 1⟩, ⟨0, 0, 3, 1⟩, ⟨0, 0, 1, 1⟩, ⟨0, 0, 1, 1⟩, ⟨0, 0, 1, 1⟩⟩
  have h3 : (c.c4.addv (c.c0.smul (-1))).len = 3 := by
    have : (9 : ℝ) = 3 ^ 2 := by norm_num
    simp only [c, V4.addv, V4.smul, V4.len, V4.dot]
    norm_num
    rw [this, Real.sqrt_sq (by norm_num)]
  have h1 : (c.c6.xyz.sub c.c2.xyz).len = 1 := by
    simp [c, V4.xyz, V3.sub, V3.len, V3.dot]
  have e := C35_actual_corners_at c 1 3 c.c0 c.c4 (by rw [h3]; norm_num [FLT_EPSILON])
    (glm_frustum_corners_at c 1 3).c0 (by simp)
  rw [h c 1 3, h3, h1] at e
  have := congrArg V4.z e
  simp [c, V4.addv, V4.smul] at this

end Cglm
