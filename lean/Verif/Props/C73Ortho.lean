import Verif.Props.C73

/-! # C73: the view volume of an orthographic projection, by planes

The planes of an orthographic projection have normals of length `2 / (r - l)`, `2 / (t - b)` and `2 / (f - n)` (`1 / (f - n)` for
the depth range [0,1]) before normalization; the code drops those shorter than `FLT_EPSILON`. -/

namespace Cglm
open View

private theorem len_rh_no (l r b t n f : ℝ) (hx : l < r) (hy : b < t) (hz : n < f) (s : ℝ) (hs : |s| = 1) :
    (clipPlane (glm_ortho_rh_no l r b t n f) 0 s).xyz.len = 2 / (r - l) ∧
    (clipPlane (glm_ortho_rh_no l r b t n f) 1 s).xyz.len = 2 / (t - b) ∧
    (clipPlane (glm_ortho_rh_no l r b t n f) 2 s).xyz.len = 2 / (f - n) := by
  have h3 : 0 < r - l := by linarith
  have h4 : 0 < t - b := by linarith
  have h2 : 0 < f - n := by linarith
  have hss : s * s = 1 := by rw [← abs_mul_abs_self, hs, one_mul]
  refine ⟨?_, ?_, ?_⟩
  · rw [V3.len, Real.sqrt_eq_iff_mul_self_eq (V3.dot_self_nonneg _) (by positivity)]
    simp [clipPlane, V4.xyz, V4.addv, V4.smul, M4.row, M4.mat, V3.dot, cglm]
    field_simp; linarith
  · rw [V3.len, Real.sqrt_eq_iff_mul_self_eq (V3.dot_self_nonneg _) (by positivity)]
    simp [clipPlane, V4.xyz, V4.addv, V4.smul, M4.row, M4.mat, V3.dot, cglm]
    field_simp; linarith
  · rw [V3.len, Real.sqrt_eq_iff_mul_self_eq (V3.dot_self_nonneg _) (by positivity)]
    simp [clipPlane, V4.xyz, V4.addv, V4.smul, M4.row, M4.mat, V3.dot, cglm]
    field_simp; linarith
/-- right-handed, depth [-1,1]: a point passes all planes iff it is in the box -/
theorem C73_ortho_rh_no (l r b t n f : ℝ) (hx : l < r) (hy : b < t) (hz : n < f) (ex : FLT_EPSILON ≤ 2 / (r - l))
    (ey : FLT_EPSILON ≤ 2 / (t - b)) (ez : FLT_EPSILON ≤ 2 / (f - n)) (v : M4 ℝ) (hv : v.Isometry) (p q : V3 ℝ)
    (hq : q = glm_mat4_mulv3 v p 1) :
    Inside (glm_mat4_mul (glm_ortho_rh_no l r b t n f) v) p ↔
      l ≤ q.x ∧ q.x ≤ r ∧ b ≤ q.y ∧ q.y ≤ t ∧ n ≤ -q.z ∧ -q.z ≤ f := by
  have h3 : 0 < r - l := by linarith
  have h4 : 0 < t - b := by linarith
  have h2 : 0 < f - n := by linarith
  obtain ⟨a0, a1, a2⟩ := len_rh_no l r b t n f hx hy hz 1 (by norm_num)
  obtain ⟨b0, b1, b2⟩ := len_rh_no l r b t n f hx hy hz (-1) (by norm_num)
  rw [inside_iff _ v hv p _ _ _ _ (C29_clip_rh_no l r b t n f _) (by rw [a0]; exact ex) (by rw [b0]; exact ex)
    (by rw [a1]; exact ey) (by rw [b1]; exact ey) (by rw [a2]; exact ez), b2, ← hq, abs_le, abs_le,
    le_div_iff₀ h3, div_le_iff₀ h3, le_div_iff₀ h4, div_le_iff₀ h4, le_div_iff₀ h2, div_le_iff₀ h2]
  constructor
  · rintro ⟨⟨a, b⟩, ⟨c, d⟩, e, g⟩
    have g := g ez
    exact ⟨by linarith, by linarith, by linarith, by linarith, by linarith, by linarith⟩
  · rintro ⟨a, b, c, d, e, g⟩
    exact ⟨⟨by linarith, by linarith⟩, ⟨by linarith, by linarith⟩, by linarith, fun _ => by linarith⟩
private theorem len_lh_no (l r b t n f : ℝ) (hx : l < r) (hy : b < t) (hz : n < f) (s : ℝ) (hs : |s| = 1) :
    (clipPlane (glm_ortho_lh_no l r b t n f) 0 s).xyz.len = 2 / (r - l) ∧
    (clipPlane (glm_ortho_lh_no l r b t n f) 1 s).xyz.len = 2 / (t - b) ∧
    (clipPlane (glm_ortho_lh_no l r b t n f) 2 s).xyz.len = 2 / (f - n) := by
  have h3 : 0 < r - l := by linarith
  have h4 : 0 < t - b := by linarith
  have h2 : 0 < f - n := by linarith
  have hss : s * s = 1 := by rw [← abs_mul_abs_self, hs, one_mul]
  refine ⟨?_, ?_, ?_⟩
  · rw [V3.len, Real.sqrt_eq_iff_mul_self_eq (V3.dot_self_nonneg _) (by positivity)]
    simp [clipPlane, V4.xyz, V4.addv, V4.smul, M4.row, M4.mat, V3.dot, cglm]
    field_simp; linarith
  · rw [V3.len, Real.sqrt_eq_iff_mul_self_eq (V3.dot_self_nonneg _) (by positivity)]
    simp [clipPlane, V4.xyz, V4.addv, V4.smul, M4.row, M4.mat, V3.dot, cglm]
    field_simp; linarith
  · rw [V3.len, Real.sqrt_eq_iff_mul_self_eq (V3.dot_self_nonneg _) (by positivity)]
    simp [clipPlane, V4.xyz, V4.addv, V4.smul, M4.row, M4.mat, V3.dot, cglm]
    field_simp; linarith
/-- left-handed, depth [-1,1]: a point passes all planes iff it is in the box -/
theorem C73_ortho_lh_no (l r b t n f : ℝ) (hx : l < r) (hy : b < t) (hz : n < f) (ex : FLT_EPSILON ≤ 2 / (r - l))
    (ey : FLT_EPSILON ≤ 2 / (t - b)) (ez : FLT_EPSILON ≤ 2 / (f - n)) (v : M4 ℝ) (hv : v.Isometry) (p q : V3 ℝ)
    (hq : q = glm_mat4_mulv3 v p 1) :
    Inside (glm_mat4_mul (glm_ortho_lh_no l r b t n f) v) p ↔
      l ≤ q.x ∧ q.x ≤ r ∧ b ≤ q.y ∧ q.y ≤ t ∧ n ≤ q.z ∧ q.z ≤ f := by
  have h3 : 0 < r - l := by linarith
  have h4 : 0 < t - b := by linarith
  have h2 : 0 < f - n := by linarith
  obtain ⟨a0, a1, a2⟩ := len_lh_no l r b t n f hx hy hz 1 (by norm_num)
  obtain ⟨b0, b1, b2⟩ := len_lh_no l r b t n f hx hy hz (-1) (by norm_num)
  rw [inside_iff _ v hv p _ _ _ _ (C29_clip_lh_no l r b t n f _) (by rw [a0]; exact ex) (by rw [b0]; exact ex)
    (by rw [a1]; exact ey) (by rw [b1]; exact ey) (by rw [a2]; exact ez), b2, ← hq, abs_le, abs_le,
    le_div_iff₀ h3, div_le_iff₀ h3, le_div_iff₀ h4, div_le_iff₀ h4, le_div_iff₀ h2, div_le_iff₀ h2]
  constructor
  · rintro ⟨⟨a, b⟩, ⟨c, d⟩, e, g⟩
    have g := g ez
    exact ⟨by linarith, by linarith, by linarith, by linarith, by linarith, by linarith⟩
  · rintro ⟨a, b, c, d, e, g⟩
    exact ⟨⟨by linarith, by linarith⟩, ⟨by linarith, by linarith⟩, by linarith, fun _ => by linarith⟩
private theorem len_rh_zo (l r b t n f : ℝ) (hx : l < r) (hy : b < t) (hz : n < f) (s : ℝ) (hs : |s| = 1) :
    (clipPlane (glm_ortho_rh_zo l r b t n f) 0 s).xyz.len = 2 / (r - l) ∧
    (clipPlane (glm_ortho_rh_zo l r b t n f) 1 s).xyz.len = 2 / (t - b) ∧
    (clipPlane (glm_ortho_rh_zo l r b t n f) 2 s).xyz.len = 1 / (f - n) := by
  have h3 : 0 < r - l := by linarith
  have h4 : 0 < t - b := by linarith
  have h2 : 0 < f - n := by linarith
  have hss : s * s = 1 := by rw [← abs_mul_abs_self, hs, one_mul]
  refine ⟨?_, ?_, ?_⟩
  · rw [V3.len, Real.sqrt_eq_iff_mul_self_eq (V3.dot_self_nonneg _) (by positivity)]
    simp [clipPlane, V4.xyz, V4.addv, V4.smul, M4.row, M4.mat, V3.dot, cglm]
    field_simp; linarith
  · rw [V3.len, Real.sqrt_eq_iff_mul_self_eq (V3.dot_self_nonneg _) (by positivity)]
    simp [clipPlane, V4.xyz, V4.addv, V4.smul, M4.row, M4.mat, V3.dot, cglm]
    field_simp; linarith
  · rw [V3.len, Real.sqrt_eq_iff_mul_self_eq (V3.dot_self_nonneg _) (by positivity)]
    simp [clipPlane, V4.xyz, V4.addv, V4.smul, M4.row, M4.mat, V3.dot, cglm]
    field_simp; linarith
/-- right-handed, depth [0,1]: the near plane is at depth `2 n - f` instead of `n` -/
theorem C73_ortho_rh_zo_partial (l r b t n f : ℝ) (hx : l < r) (hy : b < t) (hz : n < f) (ex : FLT_EPSILON ≤ 2 / (r - l))
    (ey : FLT_EPSILON ≤ 2 / (t - b)) (ez : FLT_EPSILON ≤ 1 / (f - n)) (v : M4 ℝ) (hv : v.Isometry) (p q : V3 ℝ)
    (hq : q = glm_mat4_mulv3 v p 1) :
    Inside (glm_mat4_mul (glm_ortho_rh_zo l r b t n f) v) p ↔
      l ≤ q.x ∧ q.x ≤ r ∧ b ≤ q.y ∧ q.y ≤ t ∧ 2 * n - f ≤ -q.z ∧ -q.z ≤ f := by
  have h3 : 0 < r - l := by linarith
  have h4 : 0 < t - b := by linarith
  have h2 : 0 < f - n := by linarith
  obtain ⟨a0, a1, a2⟩ := len_rh_zo l r b t n f hx hy hz 1 (by norm_num)
  obtain ⟨b0, b1, b2⟩ := len_rh_zo l r b t n f hx hy hz (-1) (by norm_num)
  rw [inside_iff _ v hv p _ _ _ _ (C29_clip_rh_zo l r b t n f _) (by rw [a0]; exact ex) (by rw [b0]; exact ex)
    (by rw [a1]; exact ey) (by rw [b1]; exact ey) (by rw [a2]; exact ez), b2, ← hq, abs_le, abs_le,
    le_div_iff₀ h3, div_le_iff₀ h3, le_div_iff₀ h4, div_le_iff₀ h4, le_div_iff₀ h2, div_le_iff₀ h2]
  constructor
  · rintro ⟨⟨a, b⟩, ⟨c, d⟩, e, g⟩
    have g := g ez
    exact ⟨by linarith, by linarith, by linarith, by linarith, by linarith, by linarith⟩
  · rintro ⟨a, b, c, d, e, g⟩
    exact ⟨⟨by linarith, by linarith⟩, ⟨by linarith, by linarith⟩, by linarith, fun _ => by linarith⟩
private theorem len_lh_zo (l r b t n f : ℝ) (hx : l < r) (hy : b < t) (hz : n < f) (s : ℝ) (hs : |s| = 1) :
    (clipPlane (glm_ortho_lh_zo l r b t n f) 0 s).xyz.len = 2 / (r - l) ∧
    (clipPlane (glm_ortho_lh_zo l r b t n f) 1 s).xyz.len = 2 / (t - b) ∧
    (clipPlane (glm_ortho_lh_zo l r b t n f) 2 s).xyz.len = 1 / (f - n) := by
  have h3 : 0 < r - l := by linarith
  have h4 : 0 < t - b := by linarith
  have h2 : 0 < f - n := by linarith
  have hss : s * s = 1 := by rw [← abs_mul_abs_self, hs, one_mul]
  refine ⟨?_, ?_, ?_⟩
  · rw [V3.len, Real.sqrt_eq_iff_mul_self_eq (V3.dot_self_nonneg _) (by positivity)]
    simp [clipPlane, V4.xyz, V4.addv, V4.smul, M4.row, M4.mat, V3.dot, cglm]
    field_simp; linarith
  · rw [V3.len, Real.sqrt_eq_iff_mul_self_eq (V3.dot_self_nonneg _) (by positivity)]
    simp [clipPlane, V4.xyz, V4.addv, V4.smul, M4.row, M4.mat, V3.dot, cglm]
    field_simp; linarith
  · rw [V3.len, Real.sqrt_eq_iff_mul_self_eq (V3.dot_self_nonneg _) (by positivity)]
    simp [clipPlane, V4.xyz, V4.addv, V4.smul, M4.row, M4.mat, V3.dot, cglm]
    field_simp; linarith
/-- left-handed, depth [0,1]: the near plane is at depth `2 n - f` instead of `n` -/
theorem C73_ortho_lh_zo_partial (l r b t n f : ℝ) (hx : l < r) (hy : b < t) (hz : n < f) (ex : FLT_EPSILON ≤ 2 / (r - l))
    (ey : FLT_EPSILON ≤ 2 / (t - b)) (ez : FLT_EPSILON ≤ 1 / (f - n)) (v : M4 ℝ) (hv : v.Isometry) (p q : V3 ℝ)
    (hq : q = glm_mat4_mulv3 v p 1) :
    Inside (glm_mat4_mul (glm_ortho_lh_zo l r b t n f) v) p ↔
      l ≤ q.x ∧ q.x ≤ r ∧ b ≤ q.y ∧ q.y ≤ t ∧ 2 * n - f ≤ q.z ∧ q.z ≤ f := by
  have h3 : 0 < r - l := by linarith
  have h4 : 0 < t - b := by linarith
  have h2 : 0 < f - n := by linarith
  obtain ⟨a0, a1, a2⟩ := len_lh_zo l r b t n f hx hy hz 1 (by norm_num)
  obtain ⟨b0, b1, b2⟩ := len_lh_zo l r b t n f hx hy hz (-1) (by norm_num)
  rw [inside_iff _ v hv p _ _ _ _ (C29_clip_lh_zo l r b t n f _) (by rw [a0]; exact ex) (by rw [b0]; exact ex)
    (by rw [a1]; exact ey) (by rw [b1]; exact ey) (by rw [a2]; exact ez), b2, ← hq, abs_le, abs_le,
    le_div_iff₀ h3, div_le_iff₀ h3, le_div_iff₀ h4, div_le_iff₀ h4, le_div_iff₀ h2, div_le_iff₀ h2]
  constructor
  · rintro ⟨⟨a, b⟩, ⟨c, d⟩, e, g⟩
    have g := g ez
    exact ⟨by linarith, by linarith, by linarith, by linarith, by linarith, by linarith⟩
  · rintro ⟨a, b, c, d, e, g⟩
    exact ⟨⟨by linarith, by linarith⟩, ⟨by linarith, by linarith⟩, by linarith, fun _ => by linarith⟩

/-- depth [0,1]: with near 1 and far 2 the point at depth 0.5 passes all planes although it is in front of the near plane -/
theorem C73_ortho_refuted_zo : ¬ ∀ (l r b t n f : ℝ), l < r → b < t → n < f → ∀ (v : M4 ℝ), v.Isometry → ∀ p q : V3 ℝ,
    q = glm_mat4_mulv3 v p 1 → Inside (glm_mat4_mul (glm_ortho_rh_zo l r b t n f) v) p → n ≤ -q.z := by
  intro h
  have iso : (glm_mat4_identity : M4 ℝ).Isometry := by
    refine ⟨?_, ?_⟩
    · rw [Matrix.mem_orthogonalGroup_iff]
      ext i j
      fin_cases i <;> fin_cases j <;> simp [M4.block, M3.mat, Matrix.mul_apply, Fin.sum_univ_succ, cglm]
    · simp [M4.Affine, cglm]
  have mv : (⟨0, 0, -0.5⟩ : V3 ℝ) = glm_mat4_mulv3 (glm_mat4_identity : M4 ℝ) ⟨0, 0, -0.5⟩ 1 := by ext <;> simp [cglm]
  have := h (-1) 1 (-1) 1 1 2 (by norm_num) (by norm_num) (by norm_num) _ iso _ _ mv
    ((C73_ortho_rh_zo_partial (-1) 1 (-1) 1 1 2 (by norm_num) (by norm_num) (by norm_num) (by norm_num [FLT_EPSILON])
      (by norm_num [FLT_EPSILON]) (by norm_num [FLT_EPSILON]) _ iso _ _ mv).mpr (by norm_num))
  norm_num at this

/-- the box [-1,1] x [-1,1] x [1,2] meets the hypotheses -/
example : FLT_EPSILON ≤ 2 / ((1 : ℝ) - -1) ∧ FLT_EPSILON ≤ 1 / ((2 : ℝ) - 1) := by norm_num [FLT_EPSILON]

end Cglm
