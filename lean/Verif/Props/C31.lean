import Verif.Props.C30

/-! # C31: queries and updates of a projection -/

namespace Cglm


/-! ## right-handed, depth [-1,1] -/

theorem C31_fovy_rh_no (fovy aspect n f : ℝ) (h0 : 0 < fovy) (h1 : fovy < Real.pi) :
    glm_persp_fovy_rh_no (glm_perspective_rh_no fovy aspect n f) = fovy := by
  unfold glm_persp_fovy_rh_no glm_persp_fovy glm_perspective_rh_no
  rw [half_lit]
  simp only [cglm, one_div_one_div]
  rw [Real.arctan_tan (by linarith) (by linarith)]; ring
theorem C31_aspect_rh_no (fovy aspect n f : ℝ) (h0 : 0 < fovy) (h1 : fovy < Real.pi) (ha : aspect ≠ 0) :
    glm_persp_aspect_rh_no (glm_perspective_rh_no fovy aspect n f) = aspect := by
  have hT := (tan_half_pos h0 h1).ne'
  unfold glm_persp_aspect_rh_no glm_persp_aspect glm_perspective_rh_no
  rw [half_lit]
  simp only [cglm]
  generalize Real.tan (fovy / 2) = T at *
  field_simp
/-- (near width, near height, far width, far height) of the frustum -/
theorem C31_sizes_rh_no (fovy aspect n f : ℝ) (h0 : 0 < fovy) (h1 : fovy < Real.pi) (ha : aspect ≠ 0) (hn : n ≠ 0)
    (hf : n ≠ f) (hf0 : f ≠ 0) :
    glm_persp_sizes_rh_no (glm_perspective_rh_no fovy aspect n f) fovy =
      ⟨aspect * (2 * n * Real.tan (fovy / 2)), 2 * n * Real.tan (fovy / 2), aspect * (2 * f * Real.tan (fovy / 2)),
        2 * f * Real.tan (fovy / 2)⟩ := by
  have ha' := C31_aspect_rh_no fovy aspect n f h0 h1 ha
  unfold glm_persp_aspect_rh_no at ha'
  unfold glm_persp_sizes_rh_no
  rw [half_lit]
  simp only [ha', tanf_real, lit_2]
  have hp := (C30_perspective_is_frustum fovy aspect n f h0 h1 ha hn _ rfl).1
  rw [hp, (C30_decomp_z_rh_no _ _ _ _ n f hn hf hf0).1]
  ext <;> simp only <;> ring
/-- resizing changes the aspect and nothing else -/
theorem C31_resize_rh_no (fovy aspect aspect' n f : ℝ) (h0 : 0 < fovy) (h1 : fovy < Real.pi) (ha : aspect ≠ 0) :
    glm_perspective_resize_rh_no aspect' (glm_perspective_rh_no fovy aspect n f) = glm_perspective_rh_no fovy aspect' n f := by
  have hT := (tan_half_pos h0 h1).ne'
  unfold glm_perspective_resize_rh_no glm_perspective_rh_no
  rw [half_lit]
  simp only [cglm]
  generalize Real.tan (fovy / 2) = T at *
  have : 1 / T / aspect ≠ 0 := by positivity
  simp only [this, if_false]
/-- matrices without horizontal extent are left alone -/
theorem C31_resize_zero_rh_no (aspect : ℝ) (m : M4 ℝ) (h : m.c0.x = 0) : glm_perspective_resize_rh_no aspect m = m := by
  unfold glm_perspective_resize_rh_no
  simp only [h, cglm, decide_true, if_true]
/-- moving the far plane changes the far distance and nothing else -/
theorem C31_move_far_rh_no (l r b t n f δ : ℝ) (hn : n ≠ 0) (hf : n ≠ f) (hf0 : f ≠ 0) :
    glm_persp_move_far_rh_no (glm_frustum_rh_no l r b t n f) δ = glm_frustum_rh_no l r b t n (f + δ) := by
  obtain ⟨-, hzn, hzf⟩ := C30_decomp_z_rh_no l r b t n f hn hf hf0
  unfold glm_persp_decomp_near_rh_no at hzn
  unfold glm_persp_decomp_far_rh_no at hzf
  unfold glm_persp_move_far_rh_no
  simp only [hzn, hzf]
  have e : 1 / (n - (f + δ)) = -(1 / (f + δ - n)) := by rw [← neg_sub, one_div, inv_neg, one_div]
  ext <;> simp only [cglm, e, neg_div] <;> ring
theorem C31_move_far_perspective_rh_no (fovy aspect n f δ : ℝ) (h0 : 0 < fovy) (h1 : fovy < Real.pi) (ha : aspect ≠ 0)
    (hn : n ≠ 0) (hf : n ≠ f) (hf0 : f ≠ 0) :
    glm_persp_move_far_rh_no (glm_perspective_rh_no fovy aspect n f) δ = glm_perspective_rh_no fovy aspect n (f + δ) := by
  rw [(C30_perspective_is_frustum fovy aspect n f h0 h1 ha hn _ rfl).1,
    (C30_perspective_is_frustum fovy aspect n (f + δ) h0 h1 ha hn _ rfl).1]
  exact C31_move_far_rh_no _ _ _ _ n f δ hn hf hf0

/-! ## right-handed, depth [0,1] -/

theorem C31_fovy_rh_zo (fovy aspect n f : ℝ) (h0 : 0 < fovy) (h1 : fovy < Real.pi) :
    glm_persp_fovy_rh_zo (glm_perspective_rh_zo fovy aspect n f) = fovy := by
  unfold glm_persp_fovy_rh_zo glm_persp_fovy glm_perspective_rh_zo
  rw [half_lit]
  simp only [cglm, one_div_one_div]
  rw [Real.arctan_tan (by linarith) (by linarith)]; ring
theorem C31_aspect_rh_zo (fovy aspect n f : ℝ) (h0 : 0 < fovy) (h1 : fovy < Real.pi) (ha : aspect ≠ 0) :
    glm_persp_aspect_rh_zo (glm_perspective_rh_zo fovy aspect n f) = aspect := by
  have hT := (tan_half_pos h0 h1).ne'
  unfold glm_persp_aspect_rh_zo glm_persp_aspect glm_perspective_rh_zo
  rw [half_lit]
  simp only [cglm]
  generalize Real.tan (fovy / 2) = T at *
  field_simp
/-- (near width, near height, far width, far height) of the frustum -/
theorem C31_sizes_rh_zo (fovy aspect n f : ℝ) (h0 : 0 < fovy) (h1 : fovy < Real.pi) (ha : aspect ≠ 0) (hn : n ≠ 0)
    (hf : n ≠ f) (hf0 : f ≠ 0) :
    glm_persp_sizes_rh_zo (glm_perspective_rh_zo fovy aspect n f) fovy =
      ⟨aspect * (2 * n * Real.tan (fovy / 2)), 2 * n * Real.tan (fovy / 2), aspect * (2 * f * Real.tan (fovy / 2)),
        2 * f * Real.tan (fovy / 2)⟩ := by
  have ha' := C31_aspect_rh_zo fovy aspect n f h0 h1 ha
  unfold glm_persp_aspect_rh_zo at ha'
  unfold glm_persp_sizes_rh_zo
  rw [half_lit]
  simp only [ha', tanf_real, lit_2]
  have hp := (C30_perspective_is_frustum fovy aspect n f h0 h1 ha hn _ rfl).2.1
  rw [hp, (C30_decomp_z_rh_zo _ _ _ _ n f hn hf hf0).1]
  ext <;> simp only <;> ring
/-- resizing changes the aspect and nothing else -/
theorem C31_resize_rh_zo (fovy aspect aspect' n f : ℝ) (h0 : 0 < fovy) (h1 : fovy < Real.pi) (ha : aspect ≠ 0) :
    glm_perspective_resize_rh_zo aspect' (glm_perspective_rh_zo fovy aspect n f) = glm_perspective_rh_zo fovy aspect' n f := by
  have hT := (tan_half_pos h0 h1).ne'
  unfold glm_perspective_resize_rh_zo glm_perspective_rh_zo
  rw [half_lit]
  simp only [cglm]
  generalize Real.tan (fovy / 2) = T at *
  have : 1 / T / aspect ≠ 0 := by positivity
  simp only [this, if_false]
/-- matrices without horizontal extent are left alone -/
theorem C31_resize_zero_rh_zo (aspect : ℝ) (m : M4 ℝ) (h : m.c0.x = 0) : glm_perspective_resize_rh_zo aspect m = m := by
  unfold glm_perspective_resize_rh_zo
  simp only [h, cglm, decide_true, if_true]
/-- moving the far plane changes the far distance and nothing else -/
theorem C31_move_far_rh_zo (l r b t n f δ : ℝ) (hn : n ≠ 0) (hf : n ≠ f) (hf0 : f ≠ 0) :
    glm_persp_move_far_rh_zo (glm_frustum_rh_zo l r b t n f) δ = glm_frustum_rh_zo l r b t n (f + δ) := by
  obtain ⟨-, hzn, hzf⟩ := C30_decomp_z_rh_zo l r b t n f hn hf hf0
  unfold glm_persp_decomp_near_rh_zo at hzn
  unfold glm_persp_decomp_far_rh_zo at hzf
  unfold glm_persp_move_far_rh_zo
  simp only [hzn, hzf]
  have e : 1 / (n - (f + δ)) = -(1 / (f + δ - n)) := by rw [← neg_sub, one_div, inv_neg, one_div]
  ext <;> simp only [cglm, e, neg_div] <;> ring
theorem C31_move_far_perspective_rh_zo (fovy aspect n f δ : ℝ) (h0 : 0 < fovy) (h1 : fovy < Real.pi) (ha : aspect ≠ 0)
    (hn : n ≠ 0) (hf : n ≠ f) (hf0 : f ≠ 0) :
    glm_persp_move_far_rh_zo (glm_perspective_rh_zo fovy aspect n f) δ = glm_perspective_rh_zo fovy aspect n (f + δ) := by
  rw [(C30_perspective_is_frustum fovy aspect n f h0 h1 ha hn _ rfl).2.1,
    (C30_perspective_is_frustum fovy aspect n (f + δ) h0 h1 ha hn _ rfl).2.1]
  exact C31_move_far_rh_zo _ _ _ _ n f δ hn hf hf0

/-! ## left-handed, depth [-1,1] -/

theorem C31_fovy_lh_no (fovy aspect n f : ℝ) (h0 : 0 < fovy) (h1 : fovy < Real.pi) :
    glm_persp_fovy_lh_no (glm_perspective_lh_no fovy aspect n f) = fovy := by
  unfold glm_persp_fovy_lh_no glm_persp_fovy glm_perspective_lh_no
  rw [half_lit]
  simp only [cglm, one_div_one_div]
  rw [Real.arctan_tan (by linarith) (by linarith)]; ring
theorem C31_aspect_lh_no (fovy aspect n f : ℝ) (h0 : 0 < fovy) (h1 : fovy < Real.pi) (ha : aspect ≠ 0) :
    glm_persp_aspect_lh_no (glm_perspective_lh_no fovy aspect n f) = aspect := by
  have hT := (tan_half_pos h0 h1).ne'
  unfold glm_persp_aspect_lh_no glm_persp_aspect glm_perspective_lh_no
  rw [half_lit]
  simp only [cglm]
  generalize Real.tan (fovy / 2) = T at *
  field_simp
/-- (near width, near height, far width, far height) of the frustum -/
theorem C31_sizes_lh_no (fovy aspect n f : ℝ) (h0 : 0 < fovy) (h1 : fovy < Real.pi) (ha : aspect ≠ 0) (hn : n ≠ 0)
    (hf : n ≠ f) (hf0 : f ≠ 0) :
    glm_persp_sizes_lh_no (glm_perspective_lh_no fovy aspect n f) fovy =
      ⟨aspect * (2 * n * Real.tan (fovy / 2)), 2 * n * Real.tan (fovy / 2), aspect * (2 * f * Real.tan (fovy / 2)),
        2 * f * Real.tan (fovy / 2)⟩ := by
  have ha' := C31_aspect_lh_no fovy aspect n f h0 h1 ha
  unfold glm_persp_aspect_lh_no at ha'
  unfold glm_persp_sizes_lh_no
  rw [half_lit]
  simp only [ha', tanf_real, lit_2]
  have hp := (C30_perspective_is_frustum fovy aspect n f h0 h1 ha hn _ rfl).2.2.1
  rw [hp, (C30_decomp_z_lh_no _ _ _ _ n f hn hf hf0).1]
  ext <;> simp only <;> ring
/-- resizing changes the aspect and nothing else -/
theorem C31_resize_lh_no (fovy aspect aspect' n f : ℝ) (h0 : 0 < fovy) (h1 : fovy < Real.pi) (ha : aspect ≠ 0) :
    glm_perspective_resize_lh_no aspect' (glm_perspective_lh_no fovy aspect n f) = glm_perspective_lh_no fovy aspect' n f := by
  have hT := (tan_half_pos h0 h1).ne'
  unfold glm_perspective_resize_lh_no glm_perspective_lh_no
  rw [half_lit]
  simp only [cglm]
  generalize Real.tan (fovy / 2) = T at *
  have : 1 / T / aspect ≠ 0 := by positivity
  simp only [this, if_false]
/-- matrices without horizontal extent are left alone -/
theorem C31_resize_zero_lh_no (aspect : ℝ) (m : M4 ℝ) (h : m.c0.x = 0) : glm_perspective_resize_lh_no aspect m = m := by
  unfold glm_perspective_resize_lh_no
  simp only [h, cglm, decide_true, if_true]
/-- moving the far plane changes the far distance and nothing else -/
theorem C31_move_far_lh_no (l r b t n f δ : ℝ) (hn : n ≠ 0) (hf : n ≠ f) (hf0 : f ≠ 0) :
    glm_persp_move_far_lh_no (glm_frustum_lh_no l r b t n f) δ = glm_frustum_lh_no l r b t n (f + δ) := by
  obtain ⟨-, hzn, hzf⟩ := C30_decomp_z_lh_no l r b t n f hn hf hf0
  unfold glm_persp_decomp_near_lh_no at hzn
  unfold glm_persp_decomp_far_lh_no at hzf
  unfold glm_persp_move_far_lh_no
  simp only [hzn, hzf]
  have e : 1 / (n - (f + δ)) = -(1 / (f + δ - n)) := by rw [← neg_sub, one_div, inv_neg, one_div]
  ext <;> simp only [cglm, e, neg_div] <;> ring
theorem C31_move_far_perspective_lh_no (fovy aspect n f δ : ℝ) (h0 : 0 < fovy) (h1 : fovy < Real.pi) (ha : aspect ≠ 0)
    (hn : n ≠ 0) (hf : n ≠ f) (hf0 : f ≠ 0) :
    glm_persp_move_far_lh_no (glm_perspective_lh_no fovy aspect n f) δ = glm_perspective_lh_no fovy aspect n (f + δ) := by
  rw [(C30_perspective_is_frustum fovy aspect n f h0 h1 ha hn _ rfl).2.2.1,
    (C30_perspective_is_frustum fovy aspect n (f + δ) h0 h1 ha hn _ rfl).2.2.1]
  exact C31_move_far_lh_no _ _ _ _ n f δ hn hf hf0

/-! ## left-handed, depth [0,1] -/

theorem C31_fovy_lh_zo (fovy aspect n f : ℝ) (h0 : 0 < fovy) (h1 : fovy < Real.pi) :
    glm_persp_fovy_lh_zo (glm_perspective_lh_zo fovy aspect n f) = fovy := by
  unfold glm_persp_fovy_lh_zo glm_persp_fovy glm_perspective_lh_zo
  rw [half_lit]
  simp only [cglm, one_div_one_div]
  rw [Real.arctan_tan (by linarith) (by linarith)]; ring
theorem C31_aspect_lh_zo (fovy aspect n f : ℝ) (h0 : 0 < fovy) (h1 : fovy < Real.pi) (ha : aspect ≠ 0) :
    glm_persp_aspect_lh_zo (glm_perspective_lh_zo fovy aspect n f) = aspect := by
  have hT := (tan_half_pos h0 h1).ne'
  unfold glm_persp_aspect_lh_zo glm_persp_aspect glm_perspective_lh_zo
  rw [half_lit]
  simp only [cglm]
  generalize Real.tan (fovy / 2) = T at *
  field_simp
/-- (near width, near height, far width, far height) of the frustum -/
theorem C31_sizes_lh_zo (fovy aspect n f : ℝ) (h0 : 0 < fovy) (h1 : fovy < Real.pi) (ha : aspect ≠ 0) (hn : n ≠ 0)
    (hf : n ≠ f) (hf0 : f ≠ 0) :
    glm_persp_sizes_lh_zo (glm_perspective_lh_zo fovy aspect n f) fovy =
      ⟨aspect * (2 * n * Real.tan (fovy / 2)), 2 * n * Real.tan (fovy / 2), aspect * (2 * f * Real.tan (fovy / 2)),
        2 * f * Real.tan (fovy / 2)⟩ := by
  have ha' := C31_aspect_lh_zo fovy aspect n f h0 h1 ha
  unfold glm_persp_aspect_lh_zo at ha'
  unfold glm_persp_sizes_lh_zo
  rw [half_lit]
  simp only [ha', tanf_real, lit_2]
  have hp := (C30_perspective_is_frustum fovy aspect n f h0 h1 ha hn _ rfl).2.2.2
  rw [hp, (C30_decomp_z_lh_zo _ _ _ _ n f hn hf hf0).1]
  ext <;> simp only <;> ring
/-- resizing changes the aspect and nothing else -/
theorem C31_resize_lh_zo (fovy aspect aspect' n f : ℝ) (h0 : 0 < fovy) (h1 : fovy < Real.pi) (ha : aspect ≠ 0) :
    glm_perspective_resize_lh_zo aspect' (glm_perspective_lh_zo fovy aspect n f) = glm_perspective_lh_zo fovy aspect' n f := by
  have hT := (tan_half_pos h0 h1).ne'
  unfold glm_perspective_resize_lh_zo glm_perspective_lh_zo
  rw [half_lit]
  simp only [cglm]
  generalize Real.tan (fovy / 2) = T at *
  have : 1 / T / aspect ≠ 0 := by positivity
  simp only [this, if_false]
/-- matrices without horizontal extent are left alone -/
theorem C31_resize_zero_lh_zo (aspect : ℝ) (m : M4 ℝ) (h : m.c0.x = 0) : glm_perspective_resize_lh_zo aspect m = m := by
  unfold glm_perspective_resize_lh_zo
  simp only [h, cglm, decide_true, if_true]
/-- moving the far plane changes the far distance and nothing else -/
theorem C31_move_far_lh_zo (l r b t n f δ : ℝ) (hn : n ≠ 0) (hf : n ≠ f) (hf0 : f ≠ 0) :
    glm_persp_move_far_lh_zo (glm_frustum_lh_zo l r b t n f) δ = glm_frustum_lh_zo l r b t n (f + δ) := by
  obtain ⟨-, hzn, hzf⟩ := C30_decomp_z_lh_zo l r b t n f hn hf hf0
  unfold glm_persp_decomp_near_lh_zo at hzn
  unfold glm_persp_decomp_far_lh_zo at hzf
  unfold glm_persp_move_far_lh_zo
  simp only [hzn, hzf]
  have e : 1 / (n - (f + δ)) = -(1 / (f + δ - n)) := by rw [← neg_sub, one_div, inv_neg, one_div]
  ext <;> simp only [cglm, e, neg_div] <;> ring
theorem C31_move_far_perspective_lh_zo (fovy aspect n f δ : ℝ) (h0 : 0 < fovy) (h1 : fovy < Real.pi) (ha : aspect ≠ 0)
    (hn : n ≠ 0) (hf : n ≠ f) (hf0 : f ≠ 0) :
    glm_persp_move_far_lh_zo (glm_perspective_lh_zo fovy aspect n f) δ = glm_perspective_lh_zo fovy aspect n (f + δ) := by
  rw [(C30_perspective_is_frustum fovy aspect n f h0 h1 ha hn _ rfl).2.2.2,
    (C30_perspective_is_frustum fovy aspect n (f + δ) h0 h1 ha hn _ rfl).2.2.2]
  exact C31_move_far_lh_zo _ _ _ _ n f δ hn hf hf0

theorem C31_variants (m : M4 ℝ) (a : ℝ) :
    glm_persp_sizes m a = glm_persp_sizes_rh_no m a ∧ glm_perspective_resize a m = glm_perspective_resize_rh_no a m ∧
    glm_persp_move_far m a = glm_persp_move_far_rh_no m a := ⟨rfl, rfl, rfl⟩

example : 0 < Real.pi / 2 ∧ Real.pi / 2 < Real.pi ∧ (16 / 9 : ℝ) ≠ 0 ∧ (1:ℝ) ≠ 0 ∧ (1:ℝ) ≠ 3 ∧ (3:ℝ) ≠ 0 :=
  ⟨by positivity, by linarith [Real.pi_pos], by norm_num, by norm_num, by norm_num, by norm_num⟩

end Cglm
