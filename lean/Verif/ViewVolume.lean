import Verif.Props.C26
import Verif.Props.C29
import Verif.Props.C35
import Verif.Props.C38

/-! Helper lemmas for C73: the six planes and the eight corners of a projection combined with an isometric view matrix. -/

namespace Cglm

/-- a point is on the inner side of all six planes that `glm_frustum_planes` extracts from `m` -/
def Inside (m : M4 ℝ) (p : V3 ℝ) : Prop :=
  ∀ q ∈ [(glm_frustum_planes m).c0, (glm_frustum_planes m).c1, (glm_frustum_planes m).c2, (glm_frustum_planes m).c3,
    (glm_frustum_planes m).c4, (glm_frustum_planes m).c5], 0 ≤ planeAt q p

/-- the view volume of a perspective camera: depth `d` between near and far, and the offsets `x` and `y` from the axis within the
opening angle; `T` is the tangent of half the vertical field of view -/
def InView (T aspect n f x y d : ℝ) : Prop := n ≤ d ∧ d ≤ f ∧ |x| ≤ aspect * T * d ∧ |y| ≤ T * d

namespace View

theorem mulv3_eq (v : M4 ℝ) (hv : v.Affine) (p : V3 ℝ) :
    v.mat.mulVec (p.hom 1).vec = ((glm_mat4_mulv3 v p 1).hom 1).vec := by
  obtain ⟨h0, h1, h2, h3⟩ := hv
  ext i
  fin_cases i <;> simp [M4.mat, V3.hom, V4.vec, Matrix.mulVec, dotProduct, Fin.sum_univ_succ, cglm, h0, h1, h2, h3] <;> ring

/-- the clip coordinates of a product are those of the projection at the moved point -/
theorem clipv_mul (m v : M4 ℝ) (hv : v.Affine) (p : V3 ℝ) :
    clipv (glm_mat4_mul m v) p = clipv m (glm_mat4_mulv3 v p 1) := by
  unfold clipv
  rw [C01_mat4_mul, ← Matrix.mulVec_mulVec, mulv3_eq v hv]

/-- an isometry does not change the length of the plane normals -/
theorem clipPlane_mul_len (m v : M4 ℝ) (hv : v.Isometry) (i : Fin 4) (s : ℝ) :
    (clipPlane (glm_mat4_mul m v) i s).xyz.len = (clipPlane m i s).xyz.len := by
  obtain ⟨ho, h0, h1, h2, h3⟩ := hv
  rw [Matrix.mem_orthogonalGroup_iff] at ho
  have e := fun i j => congrFun (congrFun ho i) j
  have e00 := e 0 0; have e01 := e 0 1; have e02 := e 0 2; have e11 := e 1 1; have e12 := e 1 2; have e22 := e 2 2
  simp [M3.mat, M4.block, Matrix.mul_apply, Fin.sum_univ_succ] at e00 e01 e02 e11 e12 e22
  have hm : ∀ k : Fin 4, (glm_mat4_mul m v).row k = ⟨m.mat k 0 * v.c0.x + m.mat k 1 * v.c0.y + m.mat k 2 * v.c0.z,
      m.mat k 0 * v.c1.x + m.mat k 1 * v.c1.y + m.mat k 2 * v.c1.z, m.mat k 0 * v.c2.x + m.mat k 1 * v.c2.y + m.mat k 2 * v.c2.z,
      m.mat k 0 * v.c3.x + m.mat k 1 * v.c3.y + m.mat k 2 * v.c3.z + m.mat k 3⟩ := by
    intro k
    unfold M4.row
    rw [C01_mat4_mul]
    simp only [Matrix.mul_apply, Fin.sum_univ_succ]
    ext <;> simp [M4.mat, h0, h1, h2, h3] <;> ring
  unfold V3.len clipPlane
  congr 1
  rw [hm, hm]
  simp only [V4.xyz, V4.addv, V4.smul, V3.dot, M4.row]
  generalize m.mat 3 0 = a0; generalize m.mat 3 1 = a1; generalize m.mat 3 2 = a2
  generalize m.mat i 0 = b0; generalize m.mat i 1 = b1; generalize m.mat i 2 = b2
  linear_combination (a0 + s * b0) ^ 2 * e00 + 2 * (a0 + s * b0) * (a1 + s * b1) * e01 +
    2 * (a0 + s * b0) * (a2 + s * b2) * e02 + (a1 + s * b1) ^ 2 * e11 + 2 * (a1 + s * b1) * (a2 + s * b2) * e12 +
    (a2 + s * b2) ^ 2 * e22

theorem abs_le_len_x (v : V3 ℝ) : |v.x| ≤ v.len := by
  rw [← Real.sqrt_sq_eq_abs]
  apply Real.sqrt_le_sqrt
  simp only [V3.dot]; nlinarith [mul_self_nonneg v.y, mul_self_nonneg v.z]
theorem abs_le_len_y (v : V3 ℝ) : |v.y| ≤ v.len := by
  rw [← Real.sqrt_sq_eq_abs]
  apply Real.sqrt_le_sqrt
  simp only [V3.dot]; nlinarith [mul_self_nonneg v.x, mul_self_nonneg v.z]
theorem abs_le_len_z (v : V3 ℝ) : |v.z| ≤ v.len := by
  rw [← Real.sqrt_sq_eq_abs]
  apply Real.sqrt_le_sqrt
  simp only [V3.dot]; nlinarith [mul_self_nonneg v.x, mul_self_nonneg v.y]
theorem len_z_only (z : ℝ) : (⟨0, 0, z⟩ : V3 ℝ).len = |z| := by
  rw [V3.len, V3.dot, ← Real.sqrt_sq_eq_abs]; congr 1; simp only; ring

theorem plane_nonneg (m : M4 ℝ) (i : Fin 4) (s : ℝ) (h : FLT_EPSILON ≤ (clipPlane m i s).xyz.len) (p : V3 ℝ) :
    0 ≤ planeAt (glm_plane_normalize (clipPlane m i s)) p ↔ 0 ≤ clipv m p 3 + s * clipv m p i := by
  rw [C34_plane_side _ h, planeAt_clipPlane, le_div_iff₀ (lt_of_lt_of_le FLT_EPSILON_pos h), zero_mul]
theorem plane_dropped (m : M4 ℝ) (i : Fin 4) (s : ℝ) (h : (clipPlane m i s).xyz.len < FLT_EPSILON) (p : V3 ℝ) :
    0 ≤ planeAt (glm_plane_normalize (clipPlane m i s)) p := by
  rw [C34_plane_degenerate _ h]; simp [planeAt]

/-- the six inequalities, the far one only where its normal is long enough to be normalized -/
theorem inside_iff (m v : M4 ℝ) (hv : v.Isometry) (p : V3 ℝ) (x y z w : ℝ)
    (hc : clipv m (glm_mat4_mulv3 v p 1) = ![x, y, z, w])
    (h0 : FLT_EPSILON ≤ (clipPlane m 0 1).xyz.len) (h1 : FLT_EPSILON ≤ (clipPlane m 0 (-1)).xyz.len)
    (h2 : FLT_EPSILON ≤ (clipPlane m 1 1).xyz.len) (h3 : FLT_EPSILON ≤ (clipPlane m 1 (-1)).xyz.len)
    (h4 : FLT_EPSILON ≤ (clipPlane m 2 1).xyz.len) :
    Inside (glm_mat4_mul m v) p ↔
      |x| ≤ w ∧ |y| ≤ w ∧ -w ≤ z ∧ (FLT_EPSILON ≤ (clipPlane m 2 (-1)).xyz.len → z ≤ w) := by
  have hc' : clipv (glm_mat4_mul m v) p = ![x, y, z, w] := by rw [clipv_mul m v hv.2, hc]
  unfold Inside
  rw [frustum_planes_eq]
  simp only [List.forall_mem_cons, List.not_mem_nil, false_imp_iff, implies_true, and_true]
  rw [plane_nonneg _ _ _ (by rw [clipPlane_mul_len m v hv]; exact h0), plane_nonneg _ _ _ (by rw [clipPlane_mul_len m v hv]; exact h1),
    plane_nonneg _ _ _ (by rw [clipPlane_mul_len m v hv]; exact h2), plane_nonneg _ _ _ (by rw [clipPlane_mul_len m v hv]; exact h3),
    plane_nonneg _ _ _ (by rw [clipPlane_mul_len m v hv]; exact h4), hc']
  have k : 0 ≤ planeAt (glm_plane_normalize (clipPlane (glm_mat4_mul m v) 2 (-1))) p ↔
      (FLT_EPSILON ≤ (clipPlane m 2 (-1)).xyz.len → z ≤ w) := by
    by_cases h5 : FLT_EPSILON ≤ (clipPlane m 2 (-1)).xyz.len
    · rw [plane_nonneg _ _ _ (by rw [clipPlane_mul_len m v hv]; exact h5), hc']
      simp [h5]
    · have := plane_dropped (glm_mat4_mul m v) 2 (-1) (by rw [clipPlane_mul_len m v hv]; exact not_le.mp h5) p
      simp [h5, this]
  rw [k, abs_le, abs_le]
  simp only [Matrix.cons_val, one_mul, neg_mul]
  constructor
  · rintro ⟨a, b, c, d, e, g⟩
    exact ⟨⟨by linarith, by linarith⟩, ⟨by linarith, by linarith⟩, by linarith, g⟩
  · rintro ⟨⟨a, b⟩, ⟨c, d⟩, e, g⟩
    exact ⟨by linarith, by linarith, by linarith, by linarith, by linarith, g⟩

/-- a symmetric perspective matrix: scale factors `a` and `b`, depth row `(A, B)` and depth sign `s` -/
def persp (a b A B s : ℝ) : M4 ℝ := ⟨⟨a, 0, 0, 0⟩, ⟨0, b, 0, 0⟩, ⟨0, 0, A, s⟩, ⟨0, 0, B, 0⟩⟩

theorem persp_clip (a b A B s : ℝ) (q : V3 ℝ) : clipv (persp a b A B s) q = ![a * q.x, b * q.y, A * q.z + B, s * q.z] := by
  ext i
  fin_cases i <;> simp [clipv, persp, M4.mat, V3.hom, V4.vec, Matrix.mulVec, dotProduct, Fin.sum_univ_succ]

theorem persp_inside (a b A B s : ℝ) (hs : |s| = 1) (hA : FLT_EPSILON ≤ |s + A|) (v : M4 ℝ) (hv : v.Isometry) (p q : V3 ℝ)
    (hq : q = glm_mat4_mulv3 v p 1) :
    Inside (glm_mat4_mul (persp a b A B s) v) p ↔
      |a * q.x| ≤ s * q.z ∧ |b * q.y| ≤ s * q.z ∧ -(s * q.z) ≤ A * q.z + B ∧ (FLT_EPSILON ≤ |s - A| → A * q.z + B ≤ s * q.z) := by
  have he : FLT_EPSILON ≤ 1 := by norm_num [FLT_EPSILON]
  have k : ∀ (i : Fin 4) (t : ℝ), (clipPlane (persp a b A B s) i t).xyz.z = s + t * (persp a b A B s).mat i 2 := by
    intro i t; simp [clipPlane, V4.xyz, V4.addv, V4.smul, M4.row, persp, M4.mat]
  have k0 : ∀ t, FLT_EPSILON ≤ (clipPlane (persp a b A B s) 0 t).xyz.len := by
    intro t
    refine le_trans ?_ (abs_le_len_z _)
    rw [k]; simp [persp, M4.mat, hs, he]
  have k1 : ∀ t, FLT_EPSILON ≤ (clipPlane (persp a b A B s) 1 t).xyz.len := by
    intro t
    refine le_trans ?_ (abs_le_len_z _)
    rw [k]; simp [persp, M4.mat, hs, he]
  have k2 : ∀ t, (clipPlane (persp a b A B s) 2 t).xyz.len = |s + t * A| := by
    intro t
    rw [← len_z_only]
    congr 1
    ext <;> simp [clipPlane, V4.xyz, V4.addv, V4.smul, M4.row, persp, M4.mat]
  rw [inside_iff _ v hv p _ _ _ _ (persp_clip a b A B s _) (k0 1) (k0 (-1)) (k1 1) (k1 (-1)) (by rw [k2, one_mul]; exact hA),
    k2, ← hq, show s + -1 * A = s - A by ring]

theorem rh_no (fovy aspect n f : ℝ) : glm_perspective_rh_no fovy aspect n f =
    persp (1 / Real.tan (fovy / 2) / aspect) (1 / Real.tan (fovy / 2)) (-((f + n) / (f - n))) (-(2 * n * f / (f - n))) (-1) := by
  unfold glm_perspective_rh_no
  rw [half_lit, tanf_real]
  generalize Real.tan (fovy / 2) = T
  rw [show (lit 1 : ℝ) / (n - f) = -(1 / (f - n)) by rw [lit_one, ← neg_sub f n, div_neg]]
  ext <;> simp [persp, cglm] <;> ring
theorem rh_zo (fovy aspect n f : ℝ) : glm_perspective_rh_zo fovy aspect n f =
    persp (1 / Real.tan (fovy / 2) / aspect) (1 / Real.tan (fovy / 2)) (-(f / (f - n))) (-(n * f / (f - n))) (-1) := by
  unfold glm_perspective_rh_zo
  rw [half_lit, tanf_real]
  generalize Real.tan (fovy / 2) = T
  rw [show (lit 1 : ℝ) / (n - f) = -(1 / (f - n)) by rw [lit_one, ← neg_sub f n, div_neg]]
  ext <;> simp [persp, cglm] <;> ring
theorem lh_no (fovy aspect n f : ℝ) : glm_perspective_lh_no fovy aspect n f =
    persp (1 / Real.tan (fovy / 2) / aspect) (1 / Real.tan (fovy / 2)) ((f + n) / (f - n)) (-(2 * n * f / (f - n))) 1 := by
  unfold glm_perspective_lh_no
  rw [half_lit, tanf_real]
  generalize Real.tan (fovy / 2) = T
  rw [show (lit 1 : ℝ) / (n - f) = -(1 / (f - n)) by rw [lit_one, ← neg_sub f n, div_neg]]
  ext <;> simp [persp, cglm] <;> ring
theorem lh_zo (fovy aspect n f : ℝ) : glm_perspective_lh_zo fovy aspect n f =
    persp (1 / Real.tan (fovy / 2) / aspect) (1 / Real.tan (fovy / 2)) (f / (f - n)) (-(n * f / (f - n))) 1 := by
  unfold glm_perspective_lh_zo
  rw [half_lit, tanf_real]
  generalize Real.tan (fovy / 2) = T
  rw [show (lit 1 : ℝ) / (n - f) = -(1 / (f - n)) by rw [lit_one, ← neg_sub f n, div_neg]]
  ext <;> simp [persp, cglm] <;> ring

theorem side_x {T aspect : ℝ} (ht : 0 < T) (ha : 0 < aspect) (x d : ℝ) :
    |1 / T / aspect * x| ≤ d ↔ |x| ≤ aspect * T * d := by
  rw [abs_mul, abs_of_pos (by positivity : (0:ℝ) < 1 / T / aspect), show 1 / T / aspect = (aspect * T)⁻¹ by field_simp,
    inv_mul_le_iff₀ (by positivity)]
theorem side_y {T : ℝ} (ht : 0 < T) (y d : ℝ) : |1 / T * y| ≤ d ↔ |y| ≤ T * d := by
  rw [abs_mul, abs_of_pos (by positivity : (0:ℝ) < 1 / T), one_div, inv_mul_le_iff₀ ht]

/-- depth range [-1,1]: both depth inequalities -/
theorem depth_no {n f : ℝ} (hf : n < f) (hn : 0 < n) (d : ℝ) :
    (-d ≤ (f + n) / (f - n) * d + -(2 * n * f / (f - n)) ↔ n ≤ d) ∧ ((f + n) / (f - n) * d + -(2 * n * f / (f - n)) ≤ d ↔ d ≤ f) := by
  have h : 0 < f - n := by linarith
  rw [show (f + n) / (f - n) * d + -(2 * n * f / (f - n)) = ((f + n) * d - 2 * n * f) / (f - n) by ring,
    le_div_iff₀ h, div_le_iff₀ h]
  constructor <;> constructor <;> intro <;> nlinarith
/-- depth range [0,1], tested against -w ≤ z as if it were [-1,1] -/
theorem depth_zo {n f : ℝ} (hf : n < f) (hn : 0 < n) (d : ℝ) :
    (-d ≤ f / (f - n) * d + -(n * f / (f - n)) ↔ f * n / (2 * f - n) ≤ d) ∧ (f / (f - n) * d + -(n * f / (f - n)) ≤ d ↔ d ≤ f) := by
  have h : 0 < f - n := by linarith
  have h2 : 0 < 2 * f - n := by linarith
  rw [show f / (f - n) * d + -(n * f / (f - n)) = (f * d - n * f) / (f - n) by ring,
    le_div_iff₀ h, div_le_iff₀ h, div_le_iff₀ h2]
  constructor <;> constructor <;> intro <;> nlinarith

theorem persp_det (a b A B s : ℝ) : (persp a b A B s).mat.det = -(a * b * B * s) := by
  rw [← C03_mat4_det]; simp [persp, cglm]; ring

theorem iso_det (v : M4 ℝ) (hv : v.Isometry) : v.mat.det ≠ 0 := by
  intro h0
  have := congrArg Matrix.det (C22_inv_left v hv)
  rw [Matrix.det_mul, h0] at this
  simp at this

/-- an isometry moves different points to different points -/
theorem iso_inj (v : M4 ℝ) (hv : v.Isometry) (p q : V3 ℝ) (h : glm_mat4_mulv3 v p 1 = glm_mat4_mulv3 v q 1) : p = q := by
  have e : v.mat.mulVec (p.hom 1).vec = v.mat.mulVec (q.hom 1).vec := by rw [mulv3_eq v hv.2, mulv3_eq v hv.2, h]
  have e2 := congrArg (glm_inv_tr v).mat.mulVec e
  rw [Matrix.mulVec_mulVec, Matrix.mulVec_mulVec, C22_inv_left v hv, Matrix.one_mulVec, Matrix.one_mulVec] at e2
  have x0 := congrFun e2 0; have x1 := congrFun e2 1; have x2 := congrFun e2 2
  simp [V3.hom, V4.vec] at x0 x1 x2
  ext <;> assumption

/-- the view coordinates of the point that projects to the corner `(i, j, k)` of the clip cube -/
noncomputable def corner (a b A B s : ℝ) (c : V3 ℝ) : V3 ℝ :=
  ⟨c.x * (s * (B / (s * c.z - A))) / a, c.y * (s * (B / (s * c.z - A))) / b, B / (s * c.z - A)⟩

/-- the eight corners of the inverse of projection times view, in view coordinates -/
theorem persp_corners (a b A B s : ℝ) (ha : a ≠ 0) (hb : b ≠ 0) (hB : B ≠ 0) (hs : s * s = 1) (h1 : s + A ≠ 0) (h2 : s - A ≠ 0)
    (v : M4 ℝ) (hv : v.Isometry) :
    List.Forall₂ (fun (k : V3 ℝ) (c : V4 ℝ) => c.w = 1 ∧ glm_mat4_mulv3 v c.xyz 1 = corner a b A B s k) cubeCorners
      (glm_frustum_corners (glm_mat4_inv (glm_mat4_mul (persp a b A B s) v))).cols := by
  have hs0 : s ≠ 0 := by rintro rfl; simp at hs
  have hd : (glm_mat4_mul (persp a b A B s) v).mat.det ≠ 0 := by
    rw [C01_mat4_mul, Matrix.det_mul, persp_det]
    exact mul_ne_zero (neg_ne_zero.mpr (by positivity)) (iso_det v hv)
  have hz : ∀ k ∈ cubeCorners, k.z = 1 ∨ k.z = -1 := by
    intro k hk
    simp only [cubeCorners, List.mem_cons, List.not_mem_nil, or_false] at hk
    rcases hk with rfl | rfl | rfl | rfl | rfl | rfl | rfl | rfl <;> simp
  have hz' : ∀ k ∈ cubeCorners, s * k.z - A ≠ 0 := by
    intro k hk
    rcases hz k hk with e | e <;> rw [e]
    · simpa using h2
    · intro h; apply h1; linarith
  have key := C35_corners _ _ (C04_mat4_inv _ hd).1 (by
    intro k hk hw
    set i := (glm_mat4_inv (glm_mat4_mul (persp a b A B s) v)).mat with hi
    have e := congrArg (fun M => Matrix.mulVec M (k.hom 1).vec) (C04_mat4_inv _ hd).1
    simp only [Matrix.one_mulVec] at e
    rw [C01_mat4_mul, ← Matrix.mulVec_mulVec, ← Matrix.mulVec_mulVec, ← hi] at e
    obtain ⟨-, g0, g1, g2, g3⟩ := hv
    have e3 : v.mat.mulVec (i.mulVec (k.hom 1).vec) 3 = 0 := by
      simp [Matrix.mulVec, dotProduct, Fin.sum_univ_succ, M4.mat, g0, g1, g2, g3] at hw ⊢
      exact hw
    generalize v.mat.mulVec (i.mulVec (k.hom 1).vec) = y at e e3
    have w2 := congrFun e 2; have w3 := congrFun e 3
    simp [persp, Matrix.mulVec, dotProduct, Fin.sum_univ_succ, M4.mat, V3.hom, V4.vec] at w2 w3
    have e3' : y 3 = 0 := e3
    simp [e3'] at w2 w3
    apply hz' k hk
    rw [← w2]
    have : y 2 = s := by
      have : y 2 = s * s * y 2 := by rw [hs, one_mul]
      rw [this, mul_assoc, w3, mul_one]
    rw [this]
    linear_combination A * hs)
  have step : ∀ k ∈ cubeCorners, ∀ c : V4 ℝ, (c.w = 1 ∧ ndc (glm_mat4_mul (persp a b A B s) v) c.xyz = k ∧
      clipv (glm_mat4_mul (persp a b A B s) v) c.xyz 3 ≠ 0) → (c.w = 1 ∧ glm_mat4_mulv3 v c.xyz 1 = corner a b A B s k) := by
    rintro k hk c ⟨hw, hn, h3⟩
    refine ⟨hw, ?_⟩
    have hk' := hz' k hk
    unfold ndc at hn
    rw [clipv_mul _ v hv.2, persp_clip] at hn h3
    generalize glm_mat4_mulv3 v c.xyz 1 = q at hn h3
    subst hn
    simp only [Matrix.cons_val] at h3 hk' ⊢
    have hq : q.z ≠ 0 := by rintro h; apply h3; rw [h, mul_zero]
    have ez : s * ((A * q.z + B) / (s * q.z)) - A = B / q.z := by field_simp; ring
    unfold corner
    simp only [Matrix.cons_val, ez]
    have ez' : B / (B / q.z) = q.z := by field_simp
    rw [ez']
    ext <;> simp only <;> field_simp
  have : ∀ (l : List (V3 ℝ)) (l' : List (V4 ℝ)), (∀ k ∈ l, k ∈ cubeCorners) →
      List.Forall₂ (fun (n : V3 ℝ) (c : V4 ℝ) => c.w = 1 ∧ ndc (glm_mat4_mul (persp a b A B s) v) c.xyz = n ∧
        clipv (glm_mat4_mul (persp a b A B s) v) c.xyz 3 ≠ 0) l l' →
      List.Forall₂ (fun (k : V3 ℝ) (c : V4 ℝ) => c.w = 1 ∧ glm_mat4_mulv3 v c.xyz 1 = corner a b A B s k) l l' := by
    intro l l' hl h
    induction h with
    | nil => exact .nil
    | cons h _ ih => exact .cons (step _ (hl _ (by simp)) _ h) (ih fun k hk => hl k (by simp [hk]))
  exact this _ _ (fun _ h => h) key

end View

end Cglm
