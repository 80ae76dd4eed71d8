import Verif.Props.C28

/-! # C30: decomposition of a projection

The outputs are (near, far, top, bottom, left, right). -/

namespace Cglm

/-- the right, left .. of the symmetric frustum of `glm_perspective` -/
theorem C30_perspective_is_frustum (fovy aspect n f : ℝ) (h0 : 0 < fovy) (h1 : fovy < Real.pi) (ha : aspect ≠ 0)
    (hn : n ≠ 0) (t : ℝ) (ht : t = n * Real.tan (fovy / 2)) :
    glm_perspective_rh_no fovy aspect n f = glm_frustum_rh_no (-(t * aspect)) (t * aspect) (-t) t n f ∧
    glm_perspective_rh_zo fovy aspect n f = glm_frustum_rh_zo (-(t * aspect)) (t * aspect) (-t) t n f ∧
    glm_perspective_lh_no fovy aspect n f = glm_frustum_lh_no (-(t * aspect)) (t * aspect) (-t) t n f ∧
    glm_perspective_lh_zo fovy aspect n f = glm_frustum_lh_zo (-(t * aspect)) (t * aspect) (-t) t n f := by
  have hT := (tan_half_pos h0 h1).ne'
  unfold glm_perspective_rh_no glm_perspective_rh_zo glm_perspective_lh_no glm_perspective_lh_zo
  rw [half_lit, tanf_real]
  subst ht
  generalize Real.tan (fovy / 2) = T at *
  have e : (n - f)⁻¹ = -(f - n)⁻¹ := by rw [← neg_sub, inv_neg]
  refine ⟨?_, ?_, ?_, ?_⟩ <;> ext <;> simp [cglm, e, div_eq_mul_inv] <;>
    first | (field_simp; done) | ring1 | (left; ring1) | (field_simp; ring1)

/-! ## right-handed, depth [-1,1] -/

private theorem nz_rh_no {l r b t n f : ℝ} (hx : l ≠ r) (hy : b ≠ t) (hf : n ≠ f) :
    r - l ≠ 0 ∧ t - b ≠ 0 ∧ f - n ≠ 0 := ⟨sub_ne_zero.mpr hx.symm, sub_ne_zero.mpr hy.symm, sub_ne_zero.mpr hf.symm⟩
theorem C30_decomp_z_rh_no (l r b t n f : ℝ) (hn : n ≠ 0) (hf : n ≠ f) (hf0 : f ≠ 0) :
    glm_persp_decomp_z_rh_no (glm_frustum_rh_no l r b t n f) = (n, f) ∧
    glm_persp_decomp_near_rh_no (glm_frustum_rh_no l r b t n f) = n ∧
    glm_persp_decomp_far_rh_no (glm_frustum_rh_no l r b t n f) = f := by
  have h2 : f - n ≠ 0 := sub_ne_zero.mpr hf.symm
  have en : (f + n) * (-1 / (f - n)) - 1 = (-(2 * f)) / (f - n) := by field_simp <;> ring
  have ef : (f + n) * (-1 / (f - n)) + 1 = (-(2 * n)) / (f - n) := by field_simp <;> ring
  refine ⟨Prod.ext ?_ ?_, ?_, ?_⟩ <;> simp only [cglm] <;>
    first | (rw [ef]; field_simp; done) | (rw [en]; field_simp; done)
theorem C30_decomp_rh_no (l r b t n f : ℝ) (hx : l ≠ r) (hy : b ≠ t) (hn : n ≠ 0) (hf : n ≠ f) (hf0 : f ≠ 0) :
    glm_persp_decomp_rh_no (glm_frustum_rh_no l r b t n f) = (n, f, t, b, l, r) := by
  obtain ⟨h3, h4, h2⟩ := nz_rh_no hx hy hf
  have hz := (C30_decomp_z_rh_no l r b t n f hn hf hf0).1
  have hzn := congrArg Prod.fst hz
  have hzf := congrArg Prod.snd hz
  simp only [cglm] at hzn hzf
  simp only [cglm, hzn, hzf]
  refine Prod.ext rfl (Prod.ext rfl (Prod.ext ?_ (Prod.ext ?_ (Prod.ext ?_ ?_)))) <;> simp <;> field_simp <;> ring
theorem C30_decompv_rh_no (l r b t n f : ℝ) (hx : l ≠ r) (hy : b ≠ t) (hn : n ≠ 0) (hf : n ≠ f) (hf0 : f ≠ 0) :
    glm_persp_decompv_rh_no (glm_frustum_rh_no l r b t n f) = ⟨n, f, t, b, l, r⟩ := by
  unfold glm_persp_decompv_rh_no
  rw [C30_decomp_rh_no l r b t n f hx hy hn hf hf0]
theorem C30_decomp_x_rh_no (l r b t n f : ℝ) (hx : l ≠ r) (hn : n ≠ 0) (hf : n ≠ f) (hf0 : f ≠ 0) :
    glm_persp_decomp_x_rh_no (glm_frustum_rh_no l r b t n f) = (l, r) := by
  have h3 : r - l ≠ 0 := sub_ne_zero.mpr hx.symm
  have h2 : f - n ≠ 0 := sub_ne_zero.mpr hf.symm
  have hzn := (C30_decomp_z_rh_no l r b t n f hn hf hf0).2.1
  simp only [cglm] at hzn
  simp only [cglm, hzn]
  refine Prod.ext ?_ ?_ <;> simp <;> field_simp <;> ring
theorem C30_decomp_y_rh_no (l r b t n f : ℝ) (hy : b ≠ t) (hn : n ≠ 0) (hf : n ≠ f) (hf0 : f ≠ 0) :
    glm_persp_decomp_y_rh_no (glm_frustum_rh_no l r b t n f) = (t, b) := by
  have h4 : t - b ≠ 0 := sub_ne_zero.mpr hy.symm
  have h2 : f - n ≠ 0 := sub_ne_zero.mpr hf.symm
  have hzn := (C30_decomp_z_rh_no l r b t n f hn hf hf0).2.1
  simp only [cglm] at hzn
  simp only [cglm, hzn]
  refine Prod.ext ?_ ?_ <;> simp <;> field_simp <;> ring

/-! ## right-handed, depth [0,1] -/

private theorem nz_rh_zo {l r b t n f : ℝ} (hx : l ≠ r) (hy : b ≠ t) (hf : n ≠ f) :
    r - l ≠ 0 ∧ t - b ≠ 0 ∧ f - n ≠ 0 := ⟨sub_ne_zero.mpr hx.symm, sub_ne_zero.mpr hy.symm, sub_ne_zero.mpr hf.symm⟩
theorem C30_decomp_z_rh_zo (l r b t n f : ℝ) (hn : n ≠ 0) (hf : n ≠ f) (hf0 : f ≠ 0) :
    glm_persp_decomp_z_rh_zo (glm_frustum_rh_zo l r b t n f) = (n, f) ∧
    glm_persp_decomp_near_rh_zo (glm_frustum_rh_zo l r b t n f) = n ∧
    glm_persp_decomp_far_rh_zo (glm_frustum_rh_zo l r b t n f) = f := by
  have h2 : f - n ≠ 0 := sub_ne_zero.mpr hf.symm
  have en : f * (-1 / (f - n)) = (-f) / (f - n) := by field_simp <;> ring
  have ef : f * (-1 / (f - n)) + 1 = (-n) / (f - n) := by field_simp <;> ring
  refine ⟨Prod.ext ?_ ?_, ?_, ?_⟩ <;> simp only [cglm] <;>
    first | (rw [ef]; field_simp; done) | (rw [en]; field_simp; done)
theorem C30_decomp_rh_zo (l r b t n f : ℝ) (hx : l ≠ r) (hy : b ≠ t) (hn : n ≠ 0) (hf : n ≠ f) (hf0 : f ≠ 0) :
    glm_persp_decomp_rh_zo (glm_frustum_rh_zo l r b t n f) = (n, f, t, b, l, r) := by
  obtain ⟨h3, h4, h2⟩ := nz_rh_zo hx hy hf
  have hz := (C30_decomp_z_rh_zo l r b t n f hn hf hf0).1
  have hzn := congrArg Prod.fst hz
  have hzf := congrArg Prod.snd hz
  simp only [cglm] at hzn hzf
  simp only [cglm, hzn, hzf]
  refine Prod.ext rfl (Prod.ext rfl (Prod.ext ?_ (Prod.ext ?_ (Prod.ext ?_ ?_)))) <;> simp <;> field_simp <;> ring
theorem C30_decompv_rh_zo (l r b t n f : ℝ) (hx : l ≠ r) (hy : b ≠ t) (hn : n ≠ 0) (hf : n ≠ f) (hf0 : f ≠ 0) :
    glm_persp_decompv_rh_zo (glm_frustum_rh_zo l r b t n f) = ⟨n, f, t, b, l, r⟩ := by
  unfold glm_persp_decompv_rh_zo
  rw [C30_decomp_rh_zo l r b t n f hx hy hn hf hf0]
theorem C30_decomp_x_rh_zo (l r b t n f : ℝ) (hx : l ≠ r) (hn : n ≠ 0) (hf : n ≠ f) (hf0 : f ≠ 0) :
    glm_persp_decomp_x_rh_zo (glm_frustum_rh_zo l r b t n f) = (l, r) := by
  have h3 : r - l ≠ 0 := sub_ne_zero.mpr hx.symm
  have h2 : f - n ≠ 0 := sub_ne_zero.mpr hf.symm
  have hzn := (C30_decomp_z_rh_zo l r b t n f hn hf hf0).2.1
  simp only [cglm] at hzn
  simp only [cglm, hzn]
  refine Prod.ext ?_ ?_ <;> simp <;> field_simp <;> ring
theorem C30_decomp_y_rh_zo (l r b t n f : ℝ) (hy : b ≠ t) (hn : n ≠ 0) (hf : n ≠ f) (hf0 : f ≠ 0) :
    glm_persp_decomp_y_rh_zo (glm_frustum_rh_zo l r b t n f) = (t, b) := by
  have h4 : t - b ≠ 0 := sub_ne_zero.mpr hy.symm
  have h2 : f - n ≠ 0 := sub_ne_zero.mpr hf.symm
  have hzn := (C30_decomp_z_rh_zo l r b t n f hn hf hf0).2.1
  simp only [cglm] at hzn
  simp only [cglm, hzn]
  refine Prod.ext ?_ ?_ <;> simp <;> field_simp <;> ring

/-! ## left-handed, depth [-1,1] -/

private theorem nz_lh_no {l r b t n f : ℝ} (hx : l ≠ r) (hy : b ≠ t) (hf : n ≠ f) :
    r - l ≠ 0 ∧ t - b ≠ 0 ∧ f - n ≠ 0 := ⟨sub_ne_zero.mpr hx.symm, sub_ne_zero.mpr hy.symm, sub_ne_zero.mpr hf.symm⟩
theorem C30_decomp_z_lh_no (l r b t n f : ℝ) (hn : n ≠ 0) (hf : n ≠ f) (hf0 : f ≠ 0) :
    glm_persp_decomp_z_lh_no (glm_frustum_lh_no l r b t n f) = (n, f) ∧
    glm_persp_decomp_near_lh_no (glm_frustum_lh_no l r b t n f) = n ∧
    glm_persp_decomp_far_lh_no (glm_frustum_lh_no l r b t n f) = f := by
  have h2 : f - n ≠ 0 := sub_ne_zero.mpr hf.symm
  have en : -(-(f + n) * (-1 / (f - n))) - 1 = (-(2 * f)) / (f - n) := by field_simp <;> ring
  have ef : -(-(f + n) * (-1 / (f - n))) + 1 = (-(2 * n)) / (f - n) := by field_simp <;> ring
  refine ⟨Prod.ext ?_ ?_, ?_, ?_⟩ <;> simp only [cglm] <;>
    first | (rw [ef]; field_simp; done) | (rw [en]; field_simp; done)
theorem C30_decomp_lh_no (l r b t n f : ℝ) (hx : l ≠ r) (hy : b ≠ t) (hn : n ≠ 0) (hf : n ≠ f) (hf0 : f ≠ 0) :
    glm_persp_decomp_lh_no (glm_frustum_lh_no l r b t n f) = (n, f, t, b, l, r) := by
  obtain ⟨h3, h4, h2⟩ := nz_lh_no hx hy hf
  have hz := (C30_decomp_z_lh_no l r b t n f hn hf hf0).1
  have hzn := congrArg Prod.fst hz
  have hzf := congrArg Prod.snd hz
  simp only [cglm] at hzn hzf
  simp only [cglm, hzn, hzf]
  refine Prod.ext rfl (Prod.ext rfl (Prod.ext ?_ (Prod.ext ?_ (Prod.ext ?_ ?_)))) <;> simp <;> field_simp <;> ring
theorem C30_decompv_lh_no (l r b t n f : ℝ) (hx : l ≠ r) (hy : b ≠ t) (hn : n ≠ 0) (hf : n ≠ f) (hf0 : f ≠ 0) :
    glm_persp_decompv_lh_no (glm_frustum_lh_no l r b t n f) = ⟨n, f, t, b, l, r⟩ := by
  unfold glm_persp_decompv_lh_no
  rw [C30_decomp_lh_no l r b t n f hx hy hn hf hf0]
theorem C30_decomp_x_lh_no (l r b t n f : ℝ) (hx : l ≠ r) (hn : n ≠ 0) (hf : n ≠ f) (hf0 : f ≠ 0) :
    glm_persp_decomp_x_lh_no (glm_frustum_lh_no l r b t n f) = (l, r) := by
  have h3 : r - l ≠ 0 := sub_ne_zero.mpr hx.symm
  have h2 : f - n ≠ 0 := sub_ne_zero.mpr hf.symm
  have hzn := (C30_decomp_z_lh_no l r b t n f hn hf hf0).2.1
  simp only [cglm] at hzn
  simp only [cglm, hzn]
  refine Prod.ext ?_ ?_ <;> simp <;> field_simp <;> ring
theorem C30_decomp_y_lh_no (l r b t n f : ℝ) (hy : b ≠ t) (hn : n ≠ 0) (hf : n ≠ f) (hf0 : f ≠ 0) :
    glm_persp_decomp_y_lh_no (glm_frustum_lh_no l r b t n f) = (t, b) := by
  have h4 : t - b ≠ 0 := sub_ne_zero.mpr hy.symm
  have h2 : f - n ≠ 0 := sub_ne_zero.mpr hf.symm
  have hzn := (C30_decomp_z_lh_no l r b t n f hn hf hf0).2.1
  simp only [cglm] at hzn
  simp only [cglm, hzn]
  refine Prod.ext ?_ ?_ <;> simp <;> field_simp <;> ring

/-! ## left-handed, depth [0,1] -/

private theorem nz_lh_zo {l r b t n f : ℝ} (hx : l ≠ r) (hy : b ≠ t) (hf : n ≠ f) :
    r - l ≠ 0 ∧ t - b ≠ 0 ∧ f - n ≠ 0 := ⟨sub_ne_zero.mpr hx.symm, sub_ne_zero.mpr hy.symm, sub_ne_zero.mpr hf.symm⟩
theorem C30_decomp_z_lh_zo (l r b t n f : ℝ) (hn : n ≠ 0) (hf : n ≠ f) (hf0 : f ≠ 0) :
    glm_persp_decomp_z_lh_zo (glm_frustum_lh_zo l r b t n f) = (n, f) ∧
    glm_persp_decomp_near_lh_zo (glm_frustum_lh_zo l r b t n f) = n ∧
    glm_persp_decomp_far_lh_zo (glm_frustum_lh_zo l r b t n f) = f := by
  have h2 : f - n ≠ 0 := sub_ne_zero.mpr hf.symm
  have en : -(-f * (-1 / (f - n))) = (-f) / (f - n) := by field_simp <;> ring
  have ef : -(-f * (-1 / (f - n))) + 1 = (-n) / (f - n) := by field_simp <;> ring
  refine ⟨Prod.ext ?_ ?_, ?_, ?_⟩ <;> simp only [cglm] <;>
    first | (rw [ef]; field_simp; done) | (rw [en]; field_simp; done)
theorem C30_decomp_lh_zo (l r b t n f : ℝ) (hx : l ≠ r) (hy : b ≠ t) (hn : n ≠ 0) (hf : n ≠ f) (hf0 : f ≠ 0) :
    glm_persp_decomp_lh_zo (glm_frustum_lh_zo l r b t n f) = (n, f, t, b, l, r) := by
  obtain ⟨h3, h4, h2⟩ := nz_lh_zo hx hy hf
  have hz := (C30_decomp_z_lh_zo l r b t n f hn hf hf0).1
  have hzn := congrArg Prod.fst hz
  have hzf := congrArg Prod.snd hz
  simp only [cglm] at hzn hzf
  simp only [cglm, hzn, hzf]
  refine Prod.ext rfl (Prod.ext rfl (Prod.ext ?_ (Prod.ext ?_ (Prod.ext ?_ ?_)))) <;> simp <;> field_simp <;> ring
theorem C30_decompv_lh_zo (l r b t n f : ℝ) (hx : l ≠ r) (hy : b ≠ t) (hn : n ≠ 0) (hf : n ≠ f) (hf0 : f ≠ 0) :
    glm_persp_decompv_lh_zo (glm_frustum_lh_zo l r b t n f) = ⟨n, f, t, b, l, r⟩ := by
  unfold glm_persp_decompv_lh_zo
  rw [C30_decomp_lh_zo l r b t n f hx hy hn hf hf0]
/-- `glm_persp_decomp_x/y` of this convention divide by `proj[3][3]`, which is zero for every frustum or perspective
matrix: the C code computes an infinity there (x/0 is 0 in the real model, so the model's value is not the code's) and
the documented result is never returned. -/
theorem C30_decomp_xy_lh_zo_refuted (l r b t n f : ℝ) (fovy aspect : ℝ) :
    (glm_frustum_lh_zo l r b t n f).c3.w = 0 ∧ (glm_perspective_lh_zo fovy aspect n f).c3.w = 0 ∧
    (∀ m : M4 ℝ, glm_persp_decomp_x_lh_zo m =
      (m.c3.z / m.c3.w * (m.c2.x - 1) / m.c0.x, m.c3.z / m.c3.w * (m.c2.x + 1) / m.c0.x)) ∧
    (∀ m : M4 ℝ, glm_persp_decomp_y_lh_zo m =
      (m.c3.z / m.c3.w * (m.c2.y + 1) / m.c1.y, m.c3.z / m.c3.w * (m.c2.y - 1) / m.c1.y)) := by
  refine ⟨?_, ?_, ?_, ?_⟩
  · simp [cglm]
  · simp [cglm]
  · intro m; simp [cglm]
  · intro m; simp [cglm]

/-- the `glm_persp_decomp*` entry points of the default configuration -/
theorem C30_variants (m : M4 ℝ) :
    glm_persp_decomp m = glm_persp_decomp_rh_no m ∧ glm_persp_decompv m = glm_persp_decompv_rh_no m ∧
    glm_persp_decomp_x m = glm_persp_decomp_x_rh_no m ∧ glm_persp_decomp_y m = glm_persp_decomp_y_rh_no m ∧
    glm_persp_decomp_z m = glm_persp_decomp_z_rh_no m ∧ glm_persp_decomp_far m = glm_persp_decomp_far_rh_no m ∧
    glm_persp_decomp_near m = glm_persp_decomp_near_rh_no m := ⟨rfl, rfl, rfl, rfl, rfl, rfl, rfl⟩

example : (0:ℝ) ≠ 1 ∧ (-1:ℝ) ≠ 3 ∧ (1:ℝ) ≠ 0 ∧ (1:ℝ) ≠ 2 ∧ (2:ℝ) ≠ 0 := by norm_num

end Cglm
