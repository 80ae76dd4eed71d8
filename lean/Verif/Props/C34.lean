import Verif.Props.C27

/-! # C34: frustum planes -/

namespace Cglm

/-- value of a plane `(a, b, c, d)` at a point: a x + b y + c z + d -/
def planeAt (q : V4 ℝ) (p : V3 ℝ) : ℝ := q.x * p.x + q.y * p.y + q.z * p.z + q.w
def V4.xyz (q : V4 ℝ) : V3 ℝ := ⟨q.x, q.y, q.z⟩
/-- row `i` of a column-major matrix -/
def M4.row (m : M4 ℝ) (i : Fin 4) : V4 ℝ := ⟨m.mat i 0, m.mat i 1, m.mat i 2, m.mat i 3⟩
def V4.addv (a b : V4 ℝ) : V4 ℝ := ⟨a.x + b.x, a.y + b.y, a.z + b.z, a.w + b.w⟩
/-- the clip half-space w + s * (coordinate i) ≥ 0 as a plane, not normalized -/
def clipPlane (m : M4 ℝ) (i : Fin 4) (s : ℝ) : V4 ℝ := (m.row 3).addv ((m.row i).smul s)

theorem planeAt_clipPlane (m : M4 ℝ) (i : Fin 4) (s : ℝ) (p : V3 ℝ) :
    planeAt (clipPlane m i s) p = clipv m p 3 + s * clipv m p i := by
  simp [planeAt, clipPlane, M4.row, V4.addv, V4.smul, clipv, V3.hom, V4.vec, Matrix.mulVec, dotProduct, Fin.sum_univ_succ]
  ring

theorem C34_plane_normalize (q : V4 ℝ) (h : FLT_EPSILON ≤ q.xyz.len) :
    (glm_plane_normalize q).xyz.len = 1 ∧ glm_plane_normalize q = q.smul (1 / q.xyz.len) := by
  have h1 : ¬ glm_vec3_norm q.xyz < FLT_EPSILON := by rw [glm_vec3_norm_eq]; exact not_lt.mpr h
  have e : glm_plane_normalize q = q.smul (1 / q.xyz.len) := by
    unfold glm_plane_normalize
    have : (⟨q.x, q.y, q.z⟩ : V3 ℝ) = q.xyz := rfl
    dsimp only
    rw [this]
    simp only [flt_real, lit_scientific, eps_lit, h1, decide_false, Bool.false_eq_true, if_false, lit_one]
    rw [glm_vec3_norm_eq]
    ext <;> simp [cglm, V4.smul] <;> ring
  refine ⟨?_, e⟩
  rw [e, V3.len_eq_one]
  exact V3.smul_unit q.xyz (lt_of_lt_of_le FLT_EPSILON_pos h)
theorem C34_plane_degenerate (q : V4 ℝ) (h : q.xyz.len < FLT_EPSILON) : glm_plane_normalize q = ⟨0, 0, 0, 0⟩ := by
  have h1 : glm_vec3_norm q.xyz < FLT_EPSILON := by rw [glm_vec3_norm_eq]; exact h
  unfold glm_plane_normalize
  have : (⟨q.x, q.y, q.z⟩ : V3 ℝ) = q.xyz := rfl
  dsimp only
  rw [this]
  simp only [flt_real, lit_scientific, eps_lit, h1, decide_true, if_true]
  simp [cglm]
/-- normalizing does not change the sides of a plane -/
theorem C34_plane_side (q : V4 ℝ) (h : FLT_EPSILON ≤ q.xyz.len) (p : V3 ℝ) :
    planeAt (glm_plane_normalize q) p = planeAt q p / q.xyz.len := by
  rw [(C34_plane_normalize q h).2]
  simp [planeAt, V4.smul]; ring

theorem frustum_planes_eq (m : M4 ℝ) : glm_frustum_planes m =
    ⟨glm_plane_normalize (clipPlane m 0 1), glm_plane_normalize (clipPlane m 0 (-1)), glm_plane_normalize (clipPlane m 1 1),
      glm_plane_normalize (clipPlane m 1 (-1)), glm_plane_normalize (clipPlane m 2 1), glm_plane_normalize (clipPlane m 2 (-1))⟩ := by
  unfold glm_frustum_planes
  have h : ∀ (i : Fin 4) (c : V4 ℝ), c = m.row i → glm_vec4_add (glm_mat4_transpose_to m).c3 c = clipPlane m i 1 ∧
      glm_vec4_sub (glm_mat4_transpose_to m).c3 c = clipPlane m i (-1) := by
    intro i c hc
    subst hc
    constructor <;> ext <;> simp [cglm, clipPlane, V4.addv, V4.smul, M4.row, M4.mat] <;> ring
  have c0 : (glm_mat4_transpose_to m).c0 = m.row 0 := by ext <;> simp [cglm, M4.row, M4.mat]
  have c1 : (glm_mat4_transpose_to m).c1 = m.row 1 := by ext <;> simp [cglm, M4.row, M4.mat]
  have c2 : (glm_mat4_transpose_to m).c2 = m.row 2 := by ext <;> simp [cglm, M4.row, M4.mat]
  simp only [(h 0 _ c0).1, (h 0 _ c0).2, (h 1 _ c1).1, (h 1 _ c1).2, (h 2 _ c2).1, (h 2 _ c2).2]

/-- the planes come out in the documented order left, right, bottom, top, near, far, each with a unit normal, and the value of
a plane at a point is its clip inequality divided by the length of the unnormalized normal -/
theorem C34_planes (m : M4 ℝ) (h : ∀ i : Fin 3, FLT_EPSILON ≤ (clipPlane m i.castSucc 1).xyz.len ∧
      FLT_EPSILON ≤ (clipPlane m i.castSucc (-1)).xyz.len) (p : V3 ℝ) :
    let f := glm_frustum_planes m
    (f.c0.xyz.len = 1 ∧ f.c1.xyz.len = 1 ∧ f.c2.xyz.len = 1 ∧ f.c3.xyz.len = 1 ∧ f.c4.xyz.len = 1 ∧ f.c5.xyz.len = 1) ∧
    (0 ≤ planeAt f.c0 p ↔ -clipv m p 3 ≤ clipv m p 0) ∧ (0 ≤ planeAt f.c1 p ↔ clipv m p 0 ≤ clipv m p 3) ∧
    (0 ≤ planeAt f.c2 p ↔ -clipv m p 3 ≤ clipv m p 1) ∧ (0 ≤ planeAt f.c3 p ↔ clipv m p 1 ≤ clipv m p 3) ∧
    (0 ≤ planeAt f.c4 p ↔ -clipv m p 3 ≤ clipv m p 2) ∧ (0 ≤ planeAt f.c5 p ↔ clipv m p 2 ≤ clipv m p 3) := by
  have h0 := h 0; have h1 := h 1; have h2 := h 2
  have k : ∀ (i : Fin 4) (s : ℝ), FLT_EPSILON ≤ (clipPlane m i s).xyz.len →
      (0 ≤ planeAt (glm_plane_normalize (clipPlane m i s)) p ↔ 0 ≤ clipv m p 3 + s * clipv m p i) := by
    intro i s hl
    have : 0 < (clipPlane m i s).xyz.len := lt_of_lt_of_le FLT_EPSILON_pos hl
    rw [C34_plane_side _ hl, planeAt_clipPlane, le_div_iff₀ this, zero_mul]
  intro f
  have e : f = _ := frustum_planes_eq m
  rw [e]
  refine ⟨⟨(C34_plane_normalize _ h0.1).1, (C34_plane_normalize _ h0.2).1, (C34_plane_normalize _ h1.1).1,
    (C34_plane_normalize _ h1.2).1, (C34_plane_normalize _ h2.1).1, (C34_plane_normalize _ h2.2).1⟩, ?_, ?_, ?_, ?_, ?_, ?_⟩
  · refine (k 0 1 h0.1).trans ?_; constructor <;> intro <;> linarith
  · refine (k 0 (-1) h0.2).trans ?_; constructor <;> intro <;> linarith
  · refine (k 1 1 h1.1).trans ?_; constructor <;> intro <;> linarith
  · refine (k 1 (-1) h1.2).trans ?_; constructor <;> intro <;> linarith
  · refine (k 2 1 h2.1).trans ?_; constructor <;> intro <;> linarith
  · refine (k 2 (-1) h2.2).trans ?_; constructor <;> intro <;> linarith

/-- point-in-frustum test -/
theorem C34_inside (m : M4 ℝ) (h : ∀ i : Fin 3, FLT_EPSILON ≤ (clipPlane m i.castSucc 1).xyz.len ∧
      FLT_EPSILON ≤ (clipPlane m i.castSucc (-1)).xyz.len) (p : V3 ℝ) (x y z w : ℝ) (hc : clipv m p = ![x, y, z, w]) :
    (-w ≤ x ∧ x ≤ w ∧ -w ≤ y ∧ y ≤ w ∧ -w ≤ z ∧ z ≤ w) ↔
      ∀ q ∈ [(glm_frustum_planes m).c0, (glm_frustum_planes m).c1, (glm_frustum_planes m).c2, (glm_frustum_planes m).c3,
        (glm_frustum_planes m).c4, (glm_frustum_planes m).c5], 0 ≤ planeAt q p := by
  obtain ⟨-, h0, h1, h2, h3, h4, h5⟩ := C34_planes m h p
  simp only [List.forall_mem_cons, List.not_mem_nil, false_imp_iff, implies_true, and_true, h0, h1, h2, h3, h4, h5, hc]
  simp

/-- for any matrix, also one with degenerate planes: a point inside the clip volume is never rejected -/
theorem C34_conservative (m : M4 ℝ) (p : V3 ℝ) (x y z w : ℝ) (hc : clipv m p = ![x, y, z, w])
    (hin : -w ≤ x ∧ x ≤ w ∧ -w ≤ y ∧ y ≤ w ∧ -w ≤ z ∧ z ≤ w) :
      ∀ q ∈ [(glm_frustum_planes m).c0, (glm_frustum_planes m).c1, (glm_frustum_planes m).c2, (glm_frustum_planes m).c3,
        (glm_frustum_planes m).c4, (glm_frustum_planes m).c5], 0 ≤ planeAt q p := by
  have k : ∀ (i : Fin 4) (s : ℝ), 0 ≤ clipv m p 3 + s * clipv m p i → 0 ≤ planeAt (glm_plane_normalize (clipPlane m i s)) p := by
    intro i s hl
    rcases lt_or_ge (clipPlane m i s).xyz.len FLT_EPSILON with h | h
    · rw [C34_plane_degenerate _ h]; simp [planeAt]
    · rw [C34_plane_side _ h, planeAt_clipPlane]
      exact div_nonneg hl (V3.len_nonneg _)
  rw [frustum_planes_eq]
  simp only [List.forall_mem_cons, List.not_mem_nil, false_imp_iff, implies_true, and_true]
  obtain ⟨a, b, c, d, e, f⟩ := hin
  exact ⟨k _ _ (by simp [hc]; linarith), k _ _ (by simp [hc]; linarith), k _ _ (by simp [hc]; linarith),
    k _ _ (by simp [hc]; linarith), k _ _ (by simp [hc]; linarith), k _ _ (by simp [hc]; linarith)⟩

/-- the identity matrix (the clip cube itself) meets the hypotheses -/
example : ∀ i : Fin 3, FLT_EPSILON ≤ (clipPlane glm_mat4_identity i.castSucc 1).xyz.len ∧
      FLT_EPSILON ≤ (clipPlane glm_mat4_identity i.castSucc (-1)).xyz.len := by
  intro i
  fin_cases i <;> simp [clipPlane, V4.xyz, V4.addv, V4.smul, M4.row, M4.mat, cglm, V3.len, V3.dot, FLT_EPSILON] <;> norm_num

end Cglm
