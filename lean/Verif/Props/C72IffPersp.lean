import Verif.DefdBad
import Verif.Props.C72Affines

/-! # C72: exact preconditions

Generated by tools/defdthms.py.  The perspective projections.  The result is defined, whatever comparisons with undefined values give, exactly when
the listed conditions on the arguments hold. -/

namespace Cglm
open Dfd

theorem C72_frustum_iff (left : ℝ) (right : ℝ) (bottom : ℝ) (top : ℝ) (nearZ : ℝ) (farZ : ℝ) :
    (∀ o : Orc, ∃ r : M4 ℝ, (glm_frustum (ret left) (ret right) (ret bottom) (ret top) (ret nearZ) (ret farZ) : M4 (Dfd o)) = r.map ret) ↔
      left ≠ right ∧
      bottom ≠ top ∧
      nearZ ≠ farZ := by
  constructor
  · intro h
    obtain ⟨r, hr⟩ := h (fun _ _ => false)
    have h1 : left ≠ right := by dfd_bad hr [glm_frustum, glm_frustum_rh_no]
    have h2 : bottom ≠ top := by dfd_bad hr [glm_frustum, glm_frustum_rh_no]
    have h3 : nearZ ≠ farZ := by dfd_bad hr [glm_frustum, glm_frustum_rh_no]
    exact ⟨h1, h2, h3⟩
  · rintro ⟨h1, h2, h3⟩ o
    exact ⟨_, C72_frustum left right bottom top nearZ farZ h1 h2 h3⟩

theorem C72_perspective_iff (fovy : ℝ) (aspect : ℝ) (nearZ : ℝ) (farZ : ℝ) :
    (∀ o : Orc, ∃ r : M4 ℝ, (glm_perspective (ret fovy) (ret aspect) (ret nearZ) (ret farZ) : M4 (Dfd o)) = r.map ret) ↔
      cosf (fovy * lit 0.5) ≠ 0 ∧
      sinf (fovy * lit 0.5) ≠ 0 ∧
      aspect ≠ 0 ∧
      nearZ ≠ farZ := by
  constructor
  · intro h
    obtain ⟨r, hr⟩ := h (fun _ _ => false)
    have h1 : cosf (fovy * lit 0.5) ≠ 0 := by dfd_bad hr [glm_perspective, glm_perspective_rh_no]
    have h2 : sinf (fovy * lit 0.5) ≠ 0 := by dfd_bad hr [glm_perspective, glm_perspective_rh_no]
    have e : tanf (fovy * lit 0.5) ≠ 0 := tan_ne_zero h1 h2
    have h3 : aspect ≠ 0 := by dfd_bad hr [glm_perspective, glm_perspective_rh_no]
    have h4 : nearZ ≠ farZ := by dfd_bad hr [glm_perspective, glm_perspective_rh_no]
    exact ⟨h1, h2, h3, h4⟩
  · rintro ⟨h1, h2, h3, h4⟩ o
    exact ⟨_, C72_perspective fovy aspect nearZ farZ h1 h2 h3 h4⟩

theorem C72_persp_move_far_iff (proj : M4 ℝ) (deltaFar : ℝ) :
    (∀ o : Orc, ∃ r : M4 ℝ, (glm_persp_move_far (proj.map ret) (ret deltaFar) : M4 (Dfd o)) = r.map ret) ↔
      proj.c2.z ≠ 1 ∧
      proj.c2.z ≠ -1 ∧
      proj.c3.z / (proj.c2.z - lit 1) ≠ proj.c3.z / (proj.c2.z + lit 1) + deltaFar := by
  constructor
  · intro h
    obtain ⟨r, hr⟩ := h (fun _ _ => false)
    have h1 : proj.c2.z ≠ 1 := by dfd_bad hr [glm_persp_move_far, glm_persp_move_far_rh_no]
    have e1 : proj.c2.z - lit 1 ≠ 0 := by simp only [lit_real]; push_cast; intro h; apply h1; linarith
    have h2 : proj.c2.z ≠ -1 := by dfd_bad hr [glm_persp_move_far, glm_persp_move_far_rh_no]
    have e2 : proj.c2.z + lit 1 ≠ 0 := by simp only [lit_real]; push_cast; intro h; apply h2; linarith
    have h3 : proj.c3.z / (proj.c2.z - lit 1) ≠ proj.c3.z / (proj.c2.z + lit 1) + deltaFar := by dfd_bad hr [glm_persp_move_far, glm_persp_move_far_rh_no]
    exact ⟨h1, h2, h3⟩
  · rintro ⟨h1, h2, h3⟩ o
    exact ⟨_, C72_persp_move_far proj deltaFar h1 h2 h3⟩

theorem C72_perspective_default_iff (aspect : ℝ) :
    (∀ o : Orc, ∃ r : M4 ℝ, (glm_perspective_default (ret aspect) : M4 (Dfd o)) = r.map ret) ↔
      aspect ≠ 0 := by
  constructor
  · intro h
    obtain ⟨r, hr⟩ := h (fun _ _ => false)
    have e1 := cos_pi_eighth_ne_zero
    have e2 := sin_pi_eighth_ne_zero
    have e4 := tan_ne_zero e1 e2
    have e3 : (lit 0.01 : ℝ) ≠ lit 100 := by simp only [lit_real]; norm_num
    have h1 : aspect ≠ 0 := by dfd_bad hr [glm_perspective_default, glm_perspective_default_rh_no, glm_perspective_rh_no]
    exact h1
  · rintro h1 o
    exact ⟨_, C72_perspective_default aspect h1⟩

theorem C72_perspective_resize_iff (aspect : ℝ) (proj : M4 ℝ) :
    (∀ o : Orc, ∃ r : M4 ℝ, (glm_perspective_resize (ret aspect) (proj.map ret) : M4 (Dfd o)) = r.map ret) ↔
      (proj.c0.x = 0 ∨ aspect ≠ 0) := by
  constructor
  · intro h
    obtain ⟨r, hr⟩ := h (fun _ _ => false)
    have h1 : proj.c0.x = 0 ∨ aspect ≠ 0 := by
      by_contra hn
      obtain ⟨c1, c2⟩ := not_or.1 hn
      rw [not_not] at c2
      have c : ¬ feq proj.c0.x (lit 0 : ℝ) = true := by
        simpa only [feq, lit_real, decide_eq_true_eq, Rat.cast_zero] using c1
      dfd_prop hr [glm_perspective_resize, c]
    exact h1
  · rintro h1 o
    exact ⟨_, C72_perspective_resize aspect proj h1⟩

theorem C72_persp_decomp_iff (proj : M4 ℝ) :
    (∀ o : Orc, ∃ r : ℝ × ℝ × ℝ × ℝ × ℝ × ℝ, (glm_persp_decomp (proj.map ret) : Dfd o × Dfd o × Dfd o × Dfd o × Dfd o × Dfd o) = (ret r.1, ret r.2.1, ret r.2.2.1, ret r.2.2.2.1, ret r.2.2.2.2.1, ret r.2.2.2.2.2)) ↔
      proj.c2.z ≠ 1 ∧
      proj.c2.z ≠ -1 ∧
      proj.c0.x ≠ 0 ∧
      proj.c1.y ≠ 0 := by
  constructor
  · intro h
    obtain ⟨r, hr⟩ := h (fun _ _ => false)
    have h1 : proj.c2.z ≠ 1 := by dfd_bad hr [glm_persp_decomp, glm_persp_decomp_rh_no]
    have e1 : proj.c2.z - lit 1 ≠ 0 := by simp only [lit_real]; push_cast; intro h; apply h1; linarith
    have h2 : proj.c2.z ≠ -1 := by dfd_bad hr [glm_persp_decomp, glm_persp_decomp_rh_no]
    have e2 : proj.c2.z + lit 1 ≠ 0 := by simp only [lit_real]; push_cast; intro h; apply h2; linarith
    have h3 : proj.c0.x ≠ 0 := by dfd_bad hr [glm_persp_decomp, glm_persp_decomp_rh_no]
    have h4 : proj.c1.y ≠ 0 := by dfd_bad hr [glm_persp_decomp, glm_persp_decomp_rh_no]
    exact ⟨h1, h2, h3, h4⟩
  · rintro ⟨h1, h2, h3, h4⟩ o
    exact ⟨_, C72_persp_decomp proj h1 h2 h3 h4⟩

theorem C72_persp_decompv_iff (proj : M4 ℝ) :
    (∀ o : Orc, ∃ r : V6 ℝ, (glm_persp_decompv (proj.map ret) : V6 (Dfd o)) = r.map ret) ↔
      proj.c2.z ≠ 1 ∧
      proj.c2.z ≠ -1 ∧
      proj.c0.x ≠ 0 ∧
      proj.c1.y ≠ 0 := by
  constructor
  · intro h
    obtain ⟨r, hr⟩ := h (fun _ _ => false)
    have h1 : proj.c2.z ≠ 1 := by dfd_bad hr [glm_persp_decompv, glm_persp_decompv_rh_no, glm_persp_decomp_rh_no]
    have e1 : proj.c2.z - lit 1 ≠ 0 := by simp only [lit_real]; push_cast; intro h; apply h1; linarith
    have h2 : proj.c2.z ≠ -1 := by dfd_bad hr [glm_persp_decompv, glm_persp_decompv_rh_no, glm_persp_decomp_rh_no]
    have e2 : proj.c2.z + lit 1 ≠ 0 := by simp only [lit_real]; push_cast; intro h; apply h2; linarith
    have h3 : proj.c0.x ≠ 0 := by dfd_bad hr [glm_persp_decompv, glm_persp_decompv_rh_no, glm_persp_decomp_rh_no]
    have h4 : proj.c1.y ≠ 0 := by dfd_bad hr [glm_persp_decompv, glm_persp_decompv_rh_no, glm_persp_decomp_rh_no]
    exact ⟨h1, h2, h3, h4⟩
  · rintro ⟨h1, h2, h3, h4⟩ o
    exact ⟨_, C72_persp_decompv proj h1 h2 h3 h4⟩

theorem C72_persp_decomp_x_iff (proj : M4 ℝ) :
    (∀ o : Orc, ∃ r : ℝ × ℝ, (glm_persp_decomp_x (proj.map ret) : Dfd o × Dfd o) = (ret r.1, ret r.2)) ↔
      proj.c2.z ≠ 1 ∧
      proj.c0.x ≠ 0 := by
  constructor
  · intro h
    obtain ⟨r, hr⟩ := h (fun _ _ => false)
    have h1 : proj.c2.z ≠ 1 := by dfd_bad hr [glm_persp_decomp_x, glm_persp_decomp_x_rh_no]
    have e1 : proj.c2.z - lit 1 ≠ 0 := by simp only [lit_real]; push_cast; intro h; apply h1; linarith
    have h2 : proj.c0.x ≠ 0 := by dfd_bad hr [glm_persp_decomp_x, glm_persp_decomp_x_rh_no]
    exact ⟨h1, h2⟩
  · rintro ⟨h1, h2⟩ o
    exact ⟨_, C72_persp_decomp_x proj h1 h2⟩

theorem C72_persp_decomp_y_iff (proj : M4 ℝ) :
    (∀ o : Orc, ∃ r : ℝ × ℝ, (glm_persp_decomp_y (proj.map ret) : Dfd o × Dfd o) = (ret r.1, ret r.2)) ↔
      proj.c2.z ≠ 1 ∧
      proj.c1.y ≠ 0 := by
  constructor
  · intro h
    obtain ⟨r, hr⟩ := h (fun _ _ => false)
    have h1 : proj.c2.z ≠ 1 := by dfd_bad hr [glm_persp_decomp_y, glm_persp_decomp_y_rh_no]
    have e1 : proj.c2.z - lit 1 ≠ 0 := by simp only [lit_real]; push_cast; intro h; apply h1; linarith
    have h2 : proj.c1.y ≠ 0 := by dfd_bad hr [glm_persp_decomp_y, glm_persp_decomp_y_rh_no]
    exact ⟨h1, h2⟩
  · rintro ⟨h1, h2⟩ o
    exact ⟨_, C72_persp_decomp_y proj h1 h2⟩

theorem C72_persp_decomp_z_iff (proj : M4 ℝ) :
    (∀ o : Orc, ∃ r : ℝ × ℝ, (glm_persp_decomp_z (proj.map ret) : Dfd o × Dfd o) = (ret r.1, ret r.2)) ↔
      proj.c2.z ≠ 1 ∧
      proj.c2.z ≠ -1 := by
  constructor
  · intro h
    obtain ⟨r, hr⟩ := h (fun _ _ => false)
    have h1 : proj.c2.z ≠ 1 := by dfd_bad hr [glm_persp_decomp_z, glm_persp_decomp_z_rh_no]
    have e1 : proj.c2.z - lit 1 ≠ 0 := by simp only [lit_real]; push_cast; intro h; apply h1; linarith
    have h2 : proj.c2.z ≠ -1 := by dfd_bad hr [glm_persp_decomp_z, glm_persp_decomp_z_rh_no]
    exact ⟨h1, h2⟩
  · rintro ⟨h1, h2⟩ o
    exact ⟨_, C72_persp_decomp_z proj h1 h2⟩

theorem C72_persp_decomp_far_iff (proj : M4 ℝ) :
    (∀ o : Orc, ∃ r : ℝ, (glm_persp_decomp_far (proj.map ret) : Dfd o) = ret r) ↔
      proj.c2.z ≠ -1 := by
  constructor
  · intro h
    obtain ⟨r, hr⟩ := h (fun _ _ => false)
    have h1 : proj.c2.z ≠ -1 := by dfd_bad hr [glm_persp_decomp_far, glm_persp_decomp_far_rh_no]
    exact h1
  · rintro h1 o
    exact ⟨_, C72_persp_decomp_far proj h1⟩

theorem C72_persp_decomp_near_iff (proj : M4 ℝ) :
    (∀ o : Orc, ∃ r : ℝ, (glm_persp_decomp_near (proj.map ret) : Dfd o) = ret r) ↔
      proj.c2.z ≠ 1 := by
  constructor
  · intro h
    obtain ⟨r, hr⟩ := h (fun _ _ => false)
    have h1 : proj.c2.z ≠ 1 := by dfd_bad hr [glm_persp_decomp_near, glm_persp_decomp_near_rh_no]
    exact h1
  · rintro h1 o
    exact ⟨_, C72_persp_decomp_near proj h1⟩

theorem C72_persp_sizes_iff (proj : M4 ℝ) (fovy : ℝ) :
    (∀ o : Orc, ∃ r : V4 ℝ, (glm_persp_sizes (proj.map ret) (ret fovy) : V4 (Dfd o)) = r.map ret) ↔
      proj.c2.z ≠ 1 ∧
      proj.c2.z ≠ -1 ∧
      proj.c0.x ≠ 0 ∧
      cosf (fovy * lit 0.5) ≠ 0 := by
  constructor
  · intro h
    obtain ⟨r, hr⟩ := h (fun _ _ => false)
    have h1 : proj.c2.z ≠ 1 := by dfd_bad hr [glm_persp_sizes, glm_persp_sizes_rh_no, glm_persp_decomp_z_rh_no, glm_persp_aspect]
    have h2 : proj.c2.z ≠ -1 := by dfd_bad hr [glm_persp_sizes, glm_persp_sizes_rh_no, glm_persp_decomp_z_rh_no, glm_persp_aspect]
    have h3 : proj.c0.x ≠ 0 := by dfd_bad hr [glm_persp_sizes, glm_persp_sizes_rh_no, glm_persp_decomp_z_rh_no, glm_persp_aspect]
    have h4 : cosf (fovy * lit 0.5) ≠ 0 := by dfd_bad hr [glm_persp_sizes, glm_persp_sizes_rh_no, glm_persp_decomp_z_rh_no, glm_persp_aspect]
    exact ⟨h1, h2, h3, h4⟩
  · rintro ⟨h1, h2, h3, h4⟩ o
    exact ⟨_, C72_persp_sizes proj fovy h1 h2 h3 h4⟩

theorem C72_persp_fovy_iff (proj : M4 ℝ) :
    (∀ o : Orc, ∃ r : ℝ, (glm_persp_fovy (proj.map ret) : Dfd o) = ret r) ↔
      proj.c1.y ≠ 0 := by
  constructor
  · intro h
    obtain ⟨r, hr⟩ := h (fun _ _ => false)
    have h1 : proj.c1.y ≠ 0 := by dfd_bad hr [glm_persp_fovy]
    exact h1
  · rintro h1 o
    exact ⟨_, C72_persp_fovy proj h1⟩

theorem C72_persp_aspect_iff (proj : M4 ℝ) :
    (∀ o : Orc, ∃ r : ℝ, (glm_persp_aspect (proj.map ret) : Dfd o) = ret r) ↔
      proj.c0.x ≠ 0 := by
  constructor
  · intro h
    obtain ⟨r, hr⟩ := h (fun _ _ => false)
    have h1 : proj.c0.x ≠ 0 := by dfd_bad hr [glm_persp_aspect]
    exact h1
  · rintro h1 o
    exact ⟨_, C72_persp_aspect proj h1⟩

theorem C72_frustum_lh_no_iff (left : ℝ) (right : ℝ) (bottom : ℝ) (top : ℝ) (nearZ : ℝ) (farZ : ℝ) :
    (∀ o : Orc, ∃ r : M4 ℝ, (glm_frustum_lh_no (ret left) (ret right) (ret bottom) (ret top) (ret nearZ) (ret farZ) : M4 (Dfd o)) = r.map ret) ↔
      left ≠ right ∧
      bottom ≠ top ∧
      nearZ ≠ farZ := by
  constructor
  · intro h
    obtain ⟨r, hr⟩ := h (fun _ _ => false)
    have h1 : left ≠ right := by dfd_bad hr [glm_frustum_lh_no]
    have h2 : bottom ≠ top := by dfd_bad hr [glm_frustum_lh_no]
    have h3 : nearZ ≠ farZ := by dfd_bad hr [glm_frustum_lh_no]
    exact ⟨h1, h2, h3⟩
  · rintro ⟨h1, h2, h3⟩ o
    exact ⟨_, C72_frustum_lh_no left right bottom top nearZ farZ h1 h2 h3⟩

theorem C72_perspective_lh_no_iff (fovy : ℝ) (aspect : ℝ) (nearZ : ℝ) (farZ : ℝ) :
    (∀ o : Orc, ∃ r : M4 ℝ, (glm_perspective_lh_no (ret fovy) (ret aspect) (ret nearZ) (ret farZ) : M4 (Dfd o)) = r.map ret) ↔
      cosf (fovy * lit 0.5) ≠ 0 ∧
      sinf (fovy * lit 0.5) ≠ 0 ∧
      aspect ≠ 0 ∧
      nearZ ≠ farZ := by
  constructor
  · intro h
    obtain ⟨r, hr⟩ := h (fun _ _ => false)
    have h1 : cosf (fovy * lit 0.5) ≠ 0 := by dfd_bad hr [glm_perspective_lh_no]
    have h2 : sinf (fovy * lit 0.5) ≠ 0 := by dfd_bad hr [glm_perspective_lh_no]
    have e : tanf (fovy * lit 0.5) ≠ 0 := tan_ne_zero h1 h2
    have h3 : aspect ≠ 0 := by dfd_bad hr [glm_perspective_lh_no]
    have h4 : nearZ ≠ farZ := by dfd_bad hr [glm_perspective_lh_no]
    exact ⟨h1, h2, h3, h4⟩
  · rintro ⟨h1, h2, h3, h4⟩ o
    exact ⟨_, C72_perspective_lh_no fovy aspect nearZ farZ h1 h2 h3 h4⟩

theorem C72_perspective_default_lh_no_iff (aspect : ℝ) :
    (∀ o : Orc, ∃ r : M4 ℝ, (glm_perspective_default_lh_no (ret aspect) : M4 (Dfd o)) = r.map ret) ↔
      aspect ≠ 0 := by
  constructor
  · intro h
    obtain ⟨r, hr⟩ := h (fun _ _ => false)
    have e1 := cos_pi_eighth_ne_zero
    have e2 := sin_pi_eighth_ne_zero
    have e4 := tan_ne_zero e1 e2
    have e3 : (lit 0.01 : ℝ) ≠ lit 100 := by simp only [lit_real]; norm_num
    have h1 : aspect ≠ 0 := by dfd_bad hr [glm_perspective_default_lh_no, glm_perspective_lh_no]
    exact h1
  · rintro h1 o
    exact ⟨_, C72_perspective_default_lh_no aspect h1⟩

theorem C72_perspective_resize_lh_no_iff (aspect : ℝ) (proj : M4 ℝ) :
    (∀ o : Orc, ∃ r : M4 ℝ, (glm_perspective_resize_lh_no (ret aspect) (proj.map ret) : M4 (Dfd o)) = r.map ret) ↔
      (proj.c0.x = 0 ∨ aspect ≠ 0) := by
  constructor
  · intro h
    obtain ⟨r, hr⟩ := h (fun _ _ => false)
    have h1 : proj.c0.x = 0 ∨ aspect ≠ 0 := by
      by_contra hn
      obtain ⟨c1, c2⟩ := not_or.1 hn
      rw [not_not] at c2
      have c : ¬ feq proj.c0.x (lit 0 : ℝ) = true := by
        simpa only [feq, lit_real, decide_eq_true_eq, Rat.cast_zero] using c1
      dfd_prop hr [glm_perspective_resize_lh_no, c]
    exact h1
  · rintro h1 o
    exact ⟨_, C72_perspective_resize_lh_no aspect proj h1⟩

theorem C72_persp_move_far_lh_no_iff (proj : M4 ℝ) (deltaFar : ℝ) :
    (∀ o : Orc, ∃ r : M4 ℝ, (glm_persp_move_far_lh_no (proj.map ret) (ret deltaFar) : M4 (Dfd o)) = r.map ret) ↔
      proj.c2.z ≠ -1 ∧
      proj.c2.z ≠ 1 ∧
      proj.c3.z / (-proj.c2.z - lit 1) ≠ proj.c3.z / (-proj.c2.z + lit 1) + deltaFar := by
  constructor
  · intro h
    obtain ⟨r, hr⟩ := h (fun _ _ => false)
    have h1 : proj.c2.z ≠ -1 := by dfd_bad hr [glm_persp_move_far_lh_no]
    have e1 : -proj.c2.z - lit 1 ≠ 0 := by simp only [lit_real]; push_cast; intro h; apply h1; linarith
    have h2 : proj.c2.z ≠ 1 := by dfd_bad hr [glm_persp_move_far_lh_no]
    have e2 : -proj.c2.z + lit 1 ≠ 0 := by simp only [lit_real]; push_cast; intro h; apply h2; linarith
    have h3 : proj.c3.z / (-proj.c2.z - lit 1) ≠ proj.c3.z / (-proj.c2.z + lit 1) + deltaFar := by dfd_bad hr [glm_persp_move_far_lh_no]
    exact ⟨h1, h2, h3⟩
  · rintro ⟨h1, h2, h3⟩ o
    exact ⟨_, C72_persp_move_far_lh_no proj deltaFar h1 h2 h3⟩

theorem C72_persp_decomp_lh_no_iff (proj : M4 ℝ) :
    (∀ o : Orc, ∃ r : ℝ × ℝ × ℝ × ℝ × ℝ × ℝ, (glm_persp_decomp_lh_no (proj.map ret) : Dfd o × Dfd o × Dfd o × Dfd o × Dfd o × Dfd o) = (ret r.1, ret r.2.1, ret r.2.2.1, ret r.2.2.2.1, ret r.2.2.2.2.1, ret r.2.2.2.2.2)) ↔
      proj.c2.z ≠ -1 ∧
      proj.c2.z ≠ 1 ∧
      proj.c0.x ≠ 0 ∧
      proj.c1.y ≠ 0 := by
  constructor
  · intro h
    obtain ⟨r, hr⟩ := h (fun _ _ => false)
    have h1 : proj.c2.z ≠ -1 := by dfd_bad hr [glm_persp_decomp_lh_no]
    have e1 : -proj.c2.z - lit 1 ≠ 0 := by simp only [lit_real]; push_cast; intro h; apply h1; linarith
    have h2 : proj.c2.z ≠ 1 := by dfd_bad hr [glm_persp_decomp_lh_no]
    have e2 : -proj.c2.z + lit 1 ≠ 0 := by simp only [lit_real]; push_cast; intro h; apply h2; linarith
    have h3 : proj.c0.x ≠ 0 := by dfd_bad hr [glm_persp_decomp_lh_no]
    have h4 : proj.c1.y ≠ 0 := by dfd_bad hr [glm_persp_decomp_lh_no]
    exact ⟨h1, h2, h3, h4⟩
  · rintro ⟨h1, h2, h3, h4⟩ o
    exact ⟨_, C72_persp_decomp_lh_no proj h1 h2 h3 h4⟩

theorem C72_persp_decompv_lh_no_iff (proj : M4 ℝ) :
    (∀ o : Orc, ∃ r : V6 ℝ, (glm_persp_decompv_lh_no (proj.map ret) : V6 (Dfd o)) = r.map ret) ↔
      proj.c2.z ≠ -1 ∧
      proj.c2.z ≠ 1 ∧
      proj.c0.x ≠ 0 ∧
      proj.c1.y ≠ 0 := by
  constructor
  · intro h
    obtain ⟨r, hr⟩ := h (fun _ _ => false)
    have h1 : proj.c2.z ≠ -1 := by dfd_bad hr [glm_persp_decompv_lh_no, glm_persp_decomp_lh_no]
    have e1 : -proj.c2.z - lit 1 ≠ 0 := by simp only [lit_real]; push_cast; intro h; apply h1; linarith
    have h2 : proj.c2.z ≠ 1 := by dfd_bad hr [glm_persp_decompv_lh_no, glm_persp_decomp_lh_no]
    have e2 : -proj.c2.z + lit 1 ≠ 0 := by simp only [lit_real]; push_cast; intro h; apply h2; linarith
    have h3 : proj.c0.x ≠ 0 := by dfd_bad hr [glm_persp_decompv_lh_no, glm_persp_decomp_lh_no]
    have h4 : proj.c1.y ≠ 0 := by dfd_bad hr [glm_persp_decompv_lh_no, glm_persp_decomp_lh_no]
    exact ⟨h1, h2, h3, h4⟩
  · rintro ⟨h1, h2, h3, h4⟩ o
    exact ⟨_, C72_persp_decompv_lh_no proj h1 h2 h3 h4⟩

theorem C72_persp_decomp_x_lh_no_iff (proj : M4 ℝ) :
    (∀ o : Orc, ∃ r : ℝ × ℝ, (glm_persp_decomp_x_lh_no (proj.map ret) : Dfd o × Dfd o) = (ret r.1, ret r.2)) ↔
      proj.c2.z ≠ -1 ∧
      proj.c0.x ≠ 0 := by
  constructor
  · intro h
    obtain ⟨r, hr⟩ := h (fun _ _ => false)
    have h1 : proj.c2.z ≠ -1 := by dfd_bad hr [glm_persp_decomp_x_lh_no]
    have e1 : -proj.c2.z - lit 1 ≠ 0 := by simp only [lit_real]; push_cast; intro h; apply h1; linarith
    have h2 : proj.c0.x ≠ 0 := by dfd_bad hr [glm_persp_decomp_x_lh_no]
    exact ⟨h1, h2⟩
  · rintro ⟨h1, h2⟩ o
    exact ⟨_, C72_persp_decomp_x_lh_no proj h1 h2⟩

theorem C72_persp_decomp_y_lh_no_iff (proj : M4 ℝ) :
    (∀ o : Orc, ∃ r : ℝ × ℝ, (glm_persp_decomp_y_lh_no (proj.map ret) : Dfd o × Dfd o) = (ret r.1, ret r.2)) ↔
      proj.c2.z ≠ -1 ∧
      proj.c1.y ≠ 0 := by
  constructor
  · intro h
    obtain ⟨r, hr⟩ := h (fun _ _ => false)
    have h1 : proj.c2.z ≠ -1 := by dfd_bad hr [glm_persp_decomp_y_lh_no]
    have e1 : -proj.c2.z - lit 1 ≠ 0 := by simp only [lit_real]; push_cast; intro h; apply h1; linarith
    have h2 : proj.c1.y ≠ 0 := by dfd_bad hr [glm_persp_decomp_y_lh_no]
    exact ⟨h1, h2⟩
  · rintro ⟨h1, h2⟩ o
    exact ⟨_, C72_persp_decomp_y_lh_no proj h1 h2⟩

theorem C72_persp_decomp_z_lh_no_iff (proj : M4 ℝ) :
    (∀ o : Orc, ∃ r : ℝ × ℝ, (glm_persp_decomp_z_lh_no (proj.map ret) : Dfd o × Dfd o) = (ret r.1, ret r.2)) ↔
      proj.c2.z ≠ -1 ∧
      proj.c2.z ≠ 1 := by
  constructor
  · intro h
    obtain ⟨r, hr⟩ := h (fun _ _ => false)
    have h1 : proj.c2.z ≠ -1 := by dfd_bad hr [glm_persp_decomp_z_lh_no]
    have e1 : -proj.c2.z - lit 1 ≠ 0 := by simp only [lit_real]; push_cast; intro h; apply h1; linarith
    have h2 : proj.c2.z ≠ 1 := by dfd_bad hr [glm_persp_decomp_z_lh_no]
    exact ⟨h1, h2⟩
  · rintro ⟨h1, h2⟩ o
    exact ⟨_, C72_persp_decomp_z_lh_no proj h1 h2⟩

theorem C72_persp_decomp_far_lh_no_iff (proj : M4 ℝ) :
    (∀ o : Orc, ∃ r : ℝ, (glm_persp_decomp_far_lh_no (proj.map ret) : Dfd o) = ret r) ↔
      proj.c2.z ≠ 1 := by
  constructor
  · intro h
    obtain ⟨r, hr⟩ := h (fun _ _ => false)
    have h1 : proj.c2.z ≠ 1 := by dfd_bad hr [glm_persp_decomp_far_lh_no]
    exact h1
  · rintro h1 o
    exact ⟨_, C72_persp_decomp_far_lh_no proj h1⟩

theorem C72_persp_decomp_near_lh_no_iff (proj : M4 ℝ) :
    (∀ o : Orc, ∃ r : ℝ, (glm_persp_decomp_near_lh_no (proj.map ret) : Dfd o) = ret r) ↔
      proj.c2.z ≠ -1 := by
  constructor
  · intro h
    obtain ⟨r, hr⟩ := h (fun _ _ => false)
    have h1 : proj.c2.z ≠ -1 := by dfd_bad hr [glm_persp_decomp_near_lh_no]
    exact h1
  · rintro h1 o
    exact ⟨_, C72_persp_decomp_near_lh_no proj h1⟩

theorem C72_persp_sizes_lh_no_iff (proj : M4 ℝ) (fovy : ℝ) :
    (∀ o : Orc, ∃ r : V4 ℝ, (glm_persp_sizes_lh_no (proj.map ret) (ret fovy) : V4 (Dfd o)) = r.map ret) ↔
      proj.c2.z ≠ -1 ∧
      proj.c2.z ≠ 1 ∧
      proj.c0.x ≠ 0 ∧
      cosf (fovy * lit 0.5) ≠ 0 := by
  constructor
  · intro h
    obtain ⟨r, hr⟩ := h (fun _ _ => false)
    have h1 : proj.c2.z ≠ -1 := by dfd_bad hr [glm_persp_sizes_lh_no, glm_persp_decomp_z_lh_no, glm_persp_aspect]
    have h2 : proj.c2.z ≠ 1 := by dfd_bad hr [glm_persp_sizes_lh_no, glm_persp_decomp_z_lh_no, glm_persp_aspect]
    have h3 : proj.c0.x ≠ 0 := by dfd_bad hr [glm_persp_sizes_lh_no, glm_persp_decomp_z_lh_no, glm_persp_aspect]
    have h4 : cosf (fovy * lit 0.5) ≠ 0 := by dfd_bad hr [glm_persp_sizes_lh_no, glm_persp_decomp_z_lh_no, glm_persp_aspect]
    exact ⟨h1, h2, h3, h4⟩
  · rintro ⟨h1, h2, h3, h4⟩ o
    exact ⟨_, C72_persp_sizes_lh_no proj fovy h1 h2 h3 h4⟩

theorem C72_persp_fovy_lh_no_iff (proj : M4 ℝ) :
    (∀ o : Orc, ∃ r : ℝ, (glm_persp_fovy_lh_no (proj.map ret) : Dfd o) = ret r) ↔
      proj.c1.y ≠ 0 := by
  constructor
  · intro h
    obtain ⟨r, hr⟩ := h (fun _ _ => false)
    have h1 : proj.c1.y ≠ 0 := by dfd_bad hr [glm_persp_fovy_lh_no, glm_persp_fovy]
    exact h1
  · rintro h1 o
    exact ⟨_, C72_persp_fovy_lh_no proj h1⟩

theorem C72_persp_aspect_lh_no_iff (proj : M4 ℝ) :
    (∀ o : Orc, ∃ r : ℝ, (glm_persp_aspect_lh_no (proj.map ret) : Dfd o) = ret r) ↔
      proj.c0.x ≠ 0 := by
  constructor
  · intro h
    obtain ⟨r, hr⟩ := h (fun _ _ => false)
    have h1 : proj.c0.x ≠ 0 := by dfd_bad hr [glm_persp_aspect_lh_no, glm_persp_aspect]
    exact h1
  · rintro h1 o
    exact ⟨_, C72_persp_aspect_lh_no proj h1⟩

theorem C72_frustum_lh_zo_iff (left : ℝ) (right : ℝ) (bottom : ℝ) (top : ℝ) (nearZ : ℝ) (farZ : ℝ) :
    (∀ o : Orc, ∃ r : M4 ℝ, (glm_frustum_lh_zo (ret left) (ret right) (ret bottom) (ret top) (ret nearZ) (ret farZ) : M4 (Dfd o)) = r.map ret) ↔
      left ≠ right ∧
      bottom ≠ top ∧
      nearZ ≠ farZ := by
  constructor
  · intro h
    obtain ⟨r, hr⟩ := h (fun _ _ => false)
    have h1 : left ≠ right := by dfd_bad hr [glm_frustum_lh_zo]
    have h2 : bottom ≠ top := by dfd_bad hr [glm_frustum_lh_zo]
    have h3 : nearZ ≠ farZ := by dfd_bad hr [glm_frustum_lh_zo]
    exact ⟨h1, h2, h3⟩
  · rintro ⟨h1, h2, h3⟩ o
    exact ⟨_, C72_frustum_lh_zo left right bottom top nearZ farZ h1 h2 h3⟩

theorem C72_perspective_lh_zo_iff (fovy : ℝ) (aspect : ℝ) (nearZ : ℝ) (farZ : ℝ) :
    (∀ o : Orc, ∃ r : M4 ℝ, (glm_perspective_lh_zo (ret fovy) (ret aspect) (ret nearZ) (ret farZ) : M4 (Dfd o)) = r.map ret) ↔
      cosf (fovy * lit 0.5) ≠ 0 ∧
      sinf (fovy * lit 0.5) ≠ 0 ∧
      aspect ≠ 0 ∧
      nearZ ≠ farZ := by
  constructor
  · intro h
    obtain ⟨r, hr⟩ := h (fun _ _ => false)
    have h1 : cosf (fovy * lit 0.5) ≠ 0 := by dfd_bad hr [glm_perspective_lh_zo]
    have h2 : sinf (fovy * lit 0.5) ≠ 0 := by dfd_bad hr [glm_perspective_lh_zo]
    have e : tanf (fovy * lit 0.5) ≠ 0 := tan_ne_zero h1 h2
    have h3 : aspect ≠ 0 := by dfd_bad hr [glm_perspective_lh_zo]
    have h4 : nearZ ≠ farZ := by dfd_bad hr [glm_perspective_lh_zo]
    exact ⟨h1, h2, h3, h4⟩
  · rintro ⟨h1, h2, h3, h4⟩ o
    exact ⟨_, C72_perspective_lh_zo fovy aspect nearZ farZ h1 h2 h3 h4⟩

theorem C72_persp_move_far_lh_zo_iff (proj : M4 ℝ) (deltaFar : ℝ) :
    (∀ o : Orc, ∃ r : M4 ℝ, (glm_persp_move_far_lh_zo (proj.map ret) (ret deltaFar) : M4 (Dfd o)) = r.map ret) ↔
      proj.c2.z ≠ 0 ∧
      proj.c2.z ≠ 1 ∧
      proj.c3.z / -proj.c2.z ≠ proj.c3.z / (-proj.c2.z + lit 1) + deltaFar := by
  constructor
  · intro h
    obtain ⟨r, hr⟩ := h (fun _ _ => false)
    have h1 : proj.c2.z ≠ 0 := by dfd_bad hr [glm_persp_move_far_lh_zo]
    have e1 : -proj.c2.z ≠ 0 := neg_ne_zero.2 h1
    have h2 : proj.c2.z ≠ 1 := by dfd_bad hr [glm_persp_move_far_lh_zo]
    have e2 : -proj.c2.z + lit 1 ≠ 0 := by simp only [lit_real]; push_cast; intro h; apply h2; linarith
    have h3 : proj.c3.z / -proj.c2.z ≠ proj.c3.z / (-proj.c2.z + lit 1) + deltaFar := by dfd_bad hr [glm_persp_move_far_lh_zo]
    exact ⟨h1, h2, h3⟩
  · rintro ⟨h1, h2, h3⟩ o
    exact ⟨_, C72_persp_move_far_lh_zo proj deltaFar h1 h2 h3⟩

theorem C72_perspective_default_lh_zo_iff (aspect : ℝ) :
    (∀ o : Orc, ∃ r : M4 ℝ, (glm_perspective_default_lh_zo (ret aspect) : M4 (Dfd o)) = r.map ret) ↔
      aspect ≠ 0 := by
  constructor
  · intro h
    obtain ⟨r, hr⟩ := h (fun _ _ => false)
    have e1 := cos_pi_eighth_ne_zero
    have e2 := sin_pi_eighth_ne_zero
    have e4 := tan_ne_zero e1 e2
    have e3 : (lit 0.01 : ℝ) ≠ lit 100 := by simp only [lit_real]; norm_num
    have h1 : aspect ≠ 0 := by dfd_bad hr [glm_perspective_default_lh_zo, glm_perspective_lh_zo]
    exact h1
  · rintro h1 o
    exact ⟨_, C72_perspective_default_lh_zo aspect h1⟩

theorem C72_perspective_resize_lh_zo_iff (aspect : ℝ) (proj : M4 ℝ) :
    (∀ o : Orc, ∃ r : M4 ℝ, (glm_perspective_resize_lh_zo (ret aspect) (proj.map ret) : M4 (Dfd o)) = r.map ret) ↔
      (proj.c0.x = 0 ∨ aspect ≠ 0) := by
  constructor
  · intro h
    obtain ⟨r, hr⟩ := h (fun _ _ => false)
    have h1 : proj.c0.x = 0 ∨ aspect ≠ 0 := by
      by_contra hn
      obtain ⟨c1, c2⟩ := not_or.1 hn
      rw [not_not] at c2
      have c : ¬ feq proj.c0.x (lit 0 : ℝ) = true := by
        simpa only [feq, lit_real, decide_eq_true_eq, Rat.cast_zero] using c1
      dfd_prop hr [glm_perspective_resize_lh_zo, c]
    exact h1
  · rintro h1 o
    exact ⟨_, C72_perspective_resize_lh_zo aspect proj h1⟩

theorem C72_persp_decomp_lh_zo_iff (proj : M4 ℝ) :
    (∀ o : Orc, ∃ r : ℝ × ℝ × ℝ × ℝ × ℝ × ℝ, (glm_persp_decomp_lh_zo (proj.map ret) : Dfd o × Dfd o × Dfd o × Dfd o × Dfd o × Dfd o) = (ret r.1, ret r.2.1, ret r.2.2.1, ret r.2.2.2.1, ret r.2.2.2.2.1, ret r.2.2.2.2.2)) ↔
      proj.c2.z ≠ 0 ∧
      proj.c2.z ≠ 1 ∧
      proj.c0.x ≠ 0 ∧
      proj.c1.y ≠ 0 := by
  constructor
  · intro h
    obtain ⟨r, hr⟩ := h (fun _ _ => false)
    have h1 : proj.c2.z ≠ 0 := by dfd_bad hr [glm_persp_decomp_lh_zo]
    have e1 : -proj.c2.z ≠ 0 := neg_ne_zero.2 h1
    have h2 : proj.c2.z ≠ 1 := by dfd_bad hr [glm_persp_decomp_lh_zo]
    have e2 : -proj.c2.z + lit 1 ≠ 0 := by simp only [lit_real]; push_cast; intro h; apply h2; linarith
    have h3 : proj.c0.x ≠ 0 := by dfd_bad hr [glm_persp_decomp_lh_zo]
    have h4 : proj.c1.y ≠ 0 := by dfd_bad hr [glm_persp_decomp_lh_zo]
    exact ⟨h1, h2, h3, h4⟩
  · rintro ⟨h1, h2, h3, h4⟩ o
    exact ⟨_, C72_persp_decomp_lh_zo proj h1 h2 h3 h4⟩

theorem C72_persp_decompv_lh_zo_iff (proj : M4 ℝ) :
    (∀ o : Orc, ∃ r : V6 ℝ, (glm_persp_decompv_lh_zo (proj.map ret) : V6 (Dfd o)) = r.map ret) ↔
      proj.c2.z ≠ 0 ∧
      proj.c2.z ≠ 1 ∧
      proj.c0.x ≠ 0 ∧
      proj.c1.y ≠ 0 := by
  constructor
  · intro h
    obtain ⟨r, hr⟩ := h (fun _ _ => false)
    have h1 : proj.c2.z ≠ 0 := by dfd_bad hr [glm_persp_decompv_lh_zo, glm_persp_decomp_lh_zo]
    have e1 : -proj.c2.z ≠ 0 := neg_ne_zero.2 h1
    have h2 : proj.c2.z ≠ 1 := by dfd_bad hr [glm_persp_decompv_lh_zo, glm_persp_decomp_lh_zo]
    have e2 : -proj.c2.z + lit 1 ≠ 0 := by simp only [lit_real]; push_cast; intro h; apply h2; linarith
    have h3 : proj.c0.x ≠ 0 := by dfd_bad hr [glm_persp_decompv_lh_zo, glm_persp_decomp_lh_zo]
    have h4 : proj.c1.y ≠ 0 := by dfd_bad hr [glm_persp_decompv_lh_zo, glm_persp_decomp_lh_zo]
    exact ⟨h1, h2, h3, h4⟩
  · rintro ⟨h1, h2, h3, h4⟩ o
    exact ⟨_, C72_persp_decompv_lh_zo proj h1 h2 h3 h4⟩

theorem C72_persp_decomp_x_lh_zo_iff (proj : M4 ℝ) :
    (∀ o : Orc, ∃ r : ℝ × ℝ, (glm_persp_decomp_x_lh_zo (proj.map ret) : Dfd o × Dfd o) = (ret r.1, ret r.2)) ↔
      proj.c3.w ≠ 0 ∧
      proj.c0.x ≠ 0 := by
  constructor
  · intro h
    obtain ⟨r, hr⟩ := h (fun _ _ => false)
    have h1 : proj.c3.w ≠ 0 := by dfd_bad hr [glm_persp_decomp_x_lh_zo]
    have h2 : proj.c0.x ≠ 0 := by dfd_bad hr [glm_persp_decomp_x_lh_zo]
    exact ⟨h1, h2⟩
  · rintro ⟨h1, h2⟩ o
    exact ⟨_, C72_persp_decomp_x_lh_zo proj h1 h2⟩

theorem C72_persp_decomp_y_lh_zo_iff (proj : M4 ℝ) :
    (∀ o : Orc, ∃ r : ℝ × ℝ, (glm_persp_decomp_y_lh_zo (proj.map ret) : Dfd o × Dfd o) = (ret r.1, ret r.2)) ↔
      proj.c3.w ≠ 0 ∧
      proj.c1.y ≠ 0 := by
  constructor
  · intro h
    obtain ⟨r, hr⟩ := h (fun _ _ => false)
    have h1 : proj.c3.w ≠ 0 := by dfd_bad hr [glm_persp_decomp_y_lh_zo]
    have h2 : proj.c1.y ≠ 0 := by dfd_bad hr [glm_persp_decomp_y_lh_zo]
    exact ⟨h1, h2⟩
  · rintro ⟨h1, h2⟩ o
    exact ⟨_, C72_persp_decomp_y_lh_zo proj h1 h2⟩

theorem C72_persp_decomp_z_lh_zo_iff (proj : M4 ℝ) :
    (∀ o : Orc, ∃ r : ℝ × ℝ, (glm_persp_decomp_z_lh_zo (proj.map ret) : Dfd o × Dfd o) = (ret r.1, ret r.2)) ↔
      proj.c2.z ≠ 0 ∧
      proj.c2.z ≠ 1 := by
  constructor
  · intro h
    obtain ⟨r, hr⟩ := h (fun _ _ => false)
    have h1 : proj.c2.z ≠ 0 := by dfd_bad hr [glm_persp_decomp_z_lh_zo]
    have e1 : -proj.c2.z ≠ 0 := neg_ne_zero.2 h1
    have h2 : proj.c2.z ≠ 1 := by dfd_bad hr [glm_persp_decomp_z_lh_zo]
    exact ⟨h1, h2⟩
  · rintro ⟨h1, h2⟩ o
    exact ⟨_, C72_persp_decomp_z_lh_zo proj h1 h2⟩

theorem C72_persp_decomp_far_lh_zo_iff (proj : M4 ℝ) :
    (∀ o : Orc, ∃ r : ℝ, (glm_persp_decomp_far_lh_zo (proj.map ret) : Dfd o) = ret r) ↔
      proj.c2.z ≠ 1 := by
  constructor
  · intro h
    obtain ⟨r, hr⟩ := h (fun _ _ => false)
    have h1 : proj.c2.z ≠ 1 := by dfd_bad hr [glm_persp_decomp_far_lh_zo]
    exact h1
  · rintro h1 o
    exact ⟨_, C72_persp_decomp_far_lh_zo proj h1⟩

theorem C72_persp_decomp_near_lh_zo_iff (proj : M4 ℝ) :
    (∀ o : Orc, ∃ r : ℝ, (glm_persp_decomp_near_lh_zo (proj.map ret) : Dfd o) = ret r) ↔
      proj.c2.z ≠ 0 := by
  constructor
  · intro h
    obtain ⟨r, hr⟩ := h (fun _ _ => false)
    have h1 : proj.c2.z ≠ 0 := by dfd_bad hr [glm_persp_decomp_near_lh_zo]
    exact h1
  · rintro h1 o
    exact ⟨_, C72_persp_decomp_near_lh_zo proj h1⟩

theorem C72_persp_sizes_lh_zo_iff (proj : M4 ℝ) (fovy : ℝ) :
    (∀ o : Orc, ∃ r : V4 ℝ, (glm_persp_sizes_lh_zo (proj.map ret) (ret fovy) : V4 (Dfd o)) = r.map ret) ↔
      proj.c2.z ≠ 0 ∧
      proj.c2.z ≠ 1 ∧
      proj.c0.x ≠ 0 ∧
      cosf (fovy * lit 0.5) ≠ 0 := by
  constructor
  · intro h
    obtain ⟨r, hr⟩ := h (fun _ _ => false)
    have h1 : proj.c2.z ≠ 0 := by dfd_bad hr [glm_persp_sizes_lh_zo, glm_persp_decomp_z_lh_zo, glm_persp_aspect]
    have h2 : proj.c2.z ≠ 1 := by dfd_bad hr [glm_persp_sizes_lh_zo, glm_persp_decomp_z_lh_zo, glm_persp_aspect]
    have h3 : proj.c0.x ≠ 0 := by dfd_bad hr [glm_persp_sizes_lh_zo, glm_persp_decomp_z_lh_zo, glm_persp_aspect]
    have h4 : cosf (fovy * lit 0.5) ≠ 0 := by dfd_bad hr [glm_persp_sizes_lh_zo, glm_persp_decomp_z_lh_zo, glm_persp_aspect]
    exact ⟨h1, h2, h3, h4⟩
  · rintro ⟨h1, h2, h3, h4⟩ o
    exact ⟨_, C72_persp_sizes_lh_zo proj fovy h1 h2 h3 h4⟩

theorem C72_persp_fovy_lh_zo_iff (proj : M4 ℝ) :
    (∀ o : Orc, ∃ r : ℝ, (glm_persp_fovy_lh_zo (proj.map ret) : Dfd o) = ret r) ↔
      proj.c1.y ≠ 0 := by
  constructor
  · intro h
    obtain ⟨r, hr⟩ := h (fun _ _ => false)
    have h1 : proj.c1.y ≠ 0 := by dfd_bad hr [glm_persp_fovy_lh_zo, glm_persp_fovy]
    exact h1
  · rintro h1 o
    exact ⟨_, C72_persp_fovy_lh_zo proj h1⟩

theorem C72_persp_aspect_lh_zo_iff (proj : M4 ℝ) :
    (∀ o : Orc, ∃ r : ℝ, (glm_persp_aspect_lh_zo (proj.map ret) : Dfd o) = ret r) ↔
      proj.c0.x ≠ 0 := by
  constructor
  · intro h
    obtain ⟨r, hr⟩ := h (fun _ _ => false)
    have h1 : proj.c0.x ≠ 0 := by dfd_bad hr [glm_persp_aspect_lh_zo, glm_persp_aspect]
    exact h1
  · rintro h1 o
    exact ⟨_, C72_persp_aspect_lh_zo proj h1⟩

theorem C72_frustum_rh_no_iff (left : ℝ) (right : ℝ) (bottom : ℝ) (top : ℝ) (nearZ : ℝ) (farZ : ℝ) :
    (∀ o : Orc, ∃ r : M4 ℝ, (glm_frustum_rh_no (ret left) (ret right) (ret bottom) (ret top) (ret nearZ) (ret farZ) : M4 (Dfd o)) = r.map ret) ↔
      left ≠ right ∧
      bottom ≠ top ∧
      nearZ ≠ farZ := by
  constructor
  · intro h
    obtain ⟨r, hr⟩ := h (fun _ _ => false)
    have h1 : left ≠ right := by dfd_bad hr [glm_frustum_rh_no]
    have h2 : bottom ≠ top := by dfd_bad hr [glm_frustum_rh_no]
    have h3 : nearZ ≠ farZ := by dfd_bad hr [glm_frustum_rh_no]
    exact ⟨h1, h2, h3⟩
  · rintro ⟨h1, h2, h3⟩ o
    exact ⟨_, C72_frustum_rh_no left right bottom top nearZ farZ h1 h2 h3⟩

theorem C72_perspective_rh_no_iff (fovy : ℝ) (aspect : ℝ) (nearZ : ℝ) (farZ : ℝ) :
    (∀ o : Orc, ∃ r : M4 ℝ, (glm_perspective_rh_no (ret fovy) (ret aspect) (ret nearZ) (ret farZ) : M4 (Dfd o)) = r.map ret) ↔
      cosf (fovy * lit 0.5) ≠ 0 ∧
      sinf (fovy * lit 0.5) ≠ 0 ∧
      aspect ≠ 0 ∧
      nearZ ≠ farZ := by
  constructor
  · intro h
    obtain ⟨r, hr⟩ := h (fun _ _ => false)
    have h1 : cosf (fovy * lit 0.5) ≠ 0 := by dfd_bad hr [glm_perspective_rh_no]
    have h2 : sinf (fovy * lit 0.5) ≠ 0 := by dfd_bad hr [glm_perspective_rh_no]
    have e : tanf (fovy * lit 0.5) ≠ 0 := tan_ne_zero h1 h2
    have h3 : aspect ≠ 0 := by dfd_bad hr [glm_perspective_rh_no]
    have h4 : nearZ ≠ farZ := by dfd_bad hr [glm_perspective_rh_no]
    exact ⟨h1, h2, h3, h4⟩
  · rintro ⟨h1, h2, h3, h4⟩ o
    exact ⟨_, C72_perspective_rh_no fovy aspect nearZ farZ h1 h2 h3 h4⟩

theorem C72_perspective_default_rh_no_iff (aspect : ℝ) :
    (∀ o : Orc, ∃ r : M4 ℝ, (glm_perspective_default_rh_no (ret aspect) : M4 (Dfd o)) = r.map ret) ↔
      aspect ≠ 0 := by
  constructor
  · intro h
    obtain ⟨r, hr⟩ := h (fun _ _ => false)
    have e1 := cos_pi_eighth_ne_zero
    have e2 := sin_pi_eighth_ne_zero
    have e4 := tan_ne_zero e1 e2
    have e3 : (lit 0.01 : ℝ) ≠ lit 100 := by simp only [lit_real]; norm_num
    have h1 : aspect ≠ 0 := by dfd_bad hr [glm_perspective_default_rh_no, glm_perspective_rh_no]
    exact h1
  · rintro h1 o
    exact ⟨_, C72_perspective_default_rh_no aspect h1⟩

theorem C72_perspective_resize_rh_no_iff (aspect : ℝ) (proj : M4 ℝ) :
    (∀ o : Orc, ∃ r : M4 ℝ, (glm_perspective_resize_rh_no (ret aspect) (proj.map ret) : M4 (Dfd o)) = r.map ret) ↔
      (proj.c0.x = 0 ∨ aspect ≠ 0) := by
  constructor
  · intro h
    obtain ⟨r, hr⟩ := h (fun _ _ => false)
    have h1 : proj.c0.x = 0 ∨ aspect ≠ 0 := by
      by_contra hn
      obtain ⟨c1, c2⟩ := not_or.1 hn
      rw [not_not] at c2
      have c : ¬ feq proj.c0.x (lit 0 : ℝ) = true := by
        simpa only [feq, lit_real, decide_eq_true_eq, Rat.cast_zero] using c1
      dfd_prop hr [glm_perspective_resize_rh_no, c]
    exact h1
  · rintro h1 o
    exact ⟨_, C72_perspective_resize_rh_no aspect proj h1⟩

theorem C72_persp_move_far_rh_no_iff (proj : M4 ℝ) (deltaFar : ℝ) :
    (∀ o : Orc, ∃ r : M4 ℝ, (glm_persp_move_far_rh_no (proj.map ret) (ret deltaFar) : M4 (Dfd o)) = r.map ret) ↔
      proj.c2.z ≠ 1 ∧
      proj.c2.z ≠ -1 ∧
      proj.c3.z / (proj.c2.z - lit 1) ≠ proj.c3.z / (proj.c2.z + lit 1) + deltaFar := by
  constructor
  · intro h
    obtain ⟨r, hr⟩ := h (fun _ _ => false)
    have h1 : proj.c2.z ≠ 1 := by dfd_bad hr [glm_persp_move_far_rh_no]
    have e1 : proj.c2.z - lit 1 ≠ 0 := by simp only [lit_real]; push_cast; intro h; apply h1; linarith
    have h2 : proj.c2.z ≠ -1 := by dfd_bad hr [glm_persp_move_far_rh_no]
    have e2 : proj.c2.z + lit 1 ≠ 0 := by simp only [lit_real]; push_cast; intro h; apply h2; linarith
    have h3 : proj.c3.z / (proj.c2.z - lit 1) ≠ proj.c3.z / (proj.c2.z + lit 1) + deltaFar := by dfd_bad hr [glm_persp_move_far_rh_no]
    exact ⟨h1, h2, h3⟩
  · rintro ⟨h1, h2, h3⟩ o
    exact ⟨_, C72_persp_move_far_rh_no proj deltaFar h1 h2 h3⟩

theorem C72_persp_decomp_rh_no_iff (proj : M4 ℝ) :
    (∀ o : Orc, ∃ r : ℝ × ℝ × ℝ × ℝ × ℝ × ℝ, (glm_persp_decomp_rh_no (proj.map ret) : Dfd o × Dfd o × Dfd o × Dfd o × Dfd o × Dfd o) = (ret r.1, ret r.2.1, ret r.2.2.1, ret r.2.2.2.1, ret r.2.2.2.2.1, ret r.2.2.2.2.2)) ↔
      proj.c2.z ≠ 1 ∧
      proj.c2.z ≠ -1 ∧
      proj.c0.x ≠ 0 ∧
      proj.c1.y ≠ 0 := by
  constructor
  · intro h
    obtain ⟨r, hr⟩ := h (fun _ _ => false)
    have h1 : proj.c2.z ≠ 1 := by dfd_bad hr [glm_persp_decomp_rh_no]
    have e1 : proj.c2.z - lit 1 ≠ 0 := by simp only [lit_real]; push_cast; intro h; apply h1; linarith
    have h2 : proj.c2.z ≠ -1 := by dfd_bad hr [glm_persp_decomp_rh_no]
    have e2 : proj.c2.z + lit 1 ≠ 0 := by simp only [lit_real]; push_cast; intro h; apply h2; linarith
    have h3 : proj.c0.x ≠ 0 := by dfd_bad hr [glm_persp_decomp_rh_no]
    have h4 : proj.c1.y ≠ 0 := by dfd_bad hr [glm_persp_decomp_rh_no]
    exact ⟨h1, h2, h3, h4⟩
  · rintro ⟨h1, h2, h3, h4⟩ o
    exact ⟨_, C72_persp_decomp_rh_no proj h1 h2 h3 h4⟩

theorem C72_persp_decompv_rh_no_iff (proj : M4 ℝ) :
    (∀ o : Orc, ∃ r : V6 ℝ, (glm_persp_decompv_rh_no (proj.map ret) : V6 (Dfd o)) = r.map ret) ↔
      proj.c2.z ≠ 1 ∧
      proj.c2.z ≠ -1 ∧
      proj.c0.x ≠ 0 ∧
      proj.c1.y ≠ 0 := by
  constructor
  · intro h
    obtain ⟨r, hr⟩ := h (fun _ _ => false)
    have h1 : proj.c2.z ≠ 1 := by dfd_bad hr [glm_persp_decompv_rh_no, glm_persp_decomp_rh_no]
    have e1 : proj.c2.z - lit 1 ≠ 0 := by simp only [lit_real]; push_cast; intro h; apply h1; linarith
    have h2 : proj.c2.z ≠ -1 := by dfd_bad hr [glm_persp_decompv_rh_no, glm_persp_decomp_rh_no]
    have e2 : proj.c2.z + lit 1 ≠ 0 := by simp only [lit_real]; push_cast; intro h; apply h2; linarith
    have h3 : proj.c0.x ≠ 0 := by dfd_bad hr [glm_persp_decompv_rh_no, glm_persp_decomp_rh_no]
    have h4 : proj.c1.y ≠ 0 := by dfd_bad hr [glm_persp_decompv_rh_no, glm_persp_decomp_rh_no]
    exact ⟨h1, h2, h3, h4⟩
  · rintro ⟨h1, h2, h3, h4⟩ o
    exact ⟨_, C72_persp_decompv_rh_no proj h1 h2 h3 h4⟩

theorem C72_persp_decomp_x_rh_no_iff (proj : M4 ℝ) :
    (∀ o : Orc, ∃ r : ℝ × ℝ, (glm_persp_decomp_x_rh_no (proj.map ret) : Dfd o × Dfd o) = (ret r.1, ret r.2)) ↔
      proj.c2.z ≠ 1 ∧
      proj.c0.x ≠ 0 := by
  constructor
  · intro h
    obtain ⟨r, hr⟩ := h (fun _ _ => false)
    have h1 : proj.c2.z ≠ 1 := by dfd_bad hr [glm_persp_decomp_x_rh_no]
    have e1 : proj.c2.z - lit 1 ≠ 0 := by simp only [lit_real]; push_cast; intro h; apply h1; linarith
    have h2 : proj.c0.x ≠ 0 := by dfd_bad hr [glm_persp_decomp_x_rh_no]
    exact ⟨h1, h2⟩
  · rintro ⟨h1, h2⟩ o
    exact ⟨_, C72_persp_decomp_x_rh_no proj h1 h2⟩

theorem C72_persp_decomp_y_rh_no_iff (proj : M4 ℝ) :
    (∀ o : Orc, ∃ r : ℝ × ℝ, (glm_persp_decomp_y_rh_no (proj.map ret) : Dfd o × Dfd o) = (ret r.1, ret r.2)) ↔
      proj.c2.z ≠ 1 ∧
      proj.c1.y ≠ 0 := by
  constructor
  · intro h
    obtain ⟨r, hr⟩ := h (fun _ _ => false)
    have h1 : proj.c2.z ≠ 1 := by dfd_bad hr [glm_persp_decomp_y_rh_no]
    have e1 : proj.c2.z - lit 1 ≠ 0 := by simp only [lit_real]; push_cast; intro h; apply h1; linarith
    have h2 : proj.c1.y ≠ 0 := by dfd_bad hr [glm_persp_decomp_y_rh_no]
    exact ⟨h1, h2⟩
  · rintro ⟨h1, h2⟩ o
    exact ⟨_, C72_persp_decomp_y_rh_no proj h1 h2⟩

theorem C72_persp_decomp_z_rh_no_iff (proj : M4 ℝ) :
    (∀ o : Orc, ∃ r : ℝ × ℝ, (glm_persp_decomp_z_rh_no (proj.map ret) : Dfd o × Dfd o) = (ret r.1, ret r.2)) ↔
      proj.c2.z ≠ 1 ∧
      proj.c2.z ≠ -1 := by
  constructor
  · intro h
    obtain ⟨r, hr⟩ := h (fun _ _ => false)
    have h1 : proj.c2.z ≠ 1 := by dfd_bad hr [glm_persp_decomp_z_rh_no]
    have e1 : proj.c2.z - lit 1 ≠ 0 := by simp only [lit_real]; push_cast; intro h; apply h1; linarith
    have h2 : proj.c2.z ≠ -1 := by dfd_bad hr [glm_persp_decomp_z_rh_no]
    exact ⟨h1, h2⟩
  · rintro ⟨h1, h2⟩ o
    exact ⟨_, C72_persp_decomp_z_rh_no proj h1 h2⟩

theorem C72_persp_decomp_far_rh_no_iff (proj : M4 ℝ) :
    (∀ o : Orc, ∃ r : ℝ, (glm_persp_decomp_far_rh_no (proj.map ret) : Dfd o) = ret r) ↔
      proj.c2.z ≠ -1 := by
  constructor
  · intro h
    obtain ⟨r, hr⟩ := h (fun _ _ => false)
    have h1 : proj.c2.z ≠ -1 := by dfd_bad hr [glm_persp_decomp_far_rh_no]
    exact h1
  · rintro h1 o
    exact ⟨_, C72_persp_decomp_far_rh_no proj h1⟩

theorem C72_persp_decomp_near_rh_no_iff (proj : M4 ℝ) :
    (∀ o : Orc, ∃ r : ℝ, (glm_persp_decomp_near_rh_no (proj.map ret) : Dfd o) = ret r) ↔
      proj.c2.z ≠ 1 := by
  constructor
  · intro h
    obtain ⟨r, hr⟩ := h (fun _ _ => false)
    have h1 : proj.c2.z ≠ 1 := by dfd_bad hr [glm_persp_decomp_near_rh_no]
    exact h1
  · rintro h1 o
    exact ⟨_, C72_persp_decomp_near_rh_no proj h1⟩

theorem C72_persp_sizes_rh_no_iff (proj : M4 ℝ) (fovy : ℝ) :
    (∀ o : Orc, ∃ r : V4 ℝ, (glm_persp_sizes_rh_no (proj.map ret) (ret fovy) : V4 (Dfd o)) = r.map ret) ↔
      proj.c2.z ≠ 1 ∧
      proj.c2.z ≠ -1 ∧
      proj.c0.x ≠ 0 ∧
      cosf (fovy * lit 0.5) ≠ 0 := by
  constructor
  · intro h
    obtain ⟨r, hr⟩ := h (fun _ _ => false)
    have h1 : proj.c2.z ≠ 1 := by dfd_bad hr [glm_persp_sizes_rh_no, glm_persp_decomp_z_rh_no, glm_persp_aspect]
    have h2 : proj.c2.z ≠ -1 := by dfd_bad hr [glm_persp_sizes_rh_no, glm_persp_decomp_z_rh_no, glm_persp_aspect]
    have h3 : proj.c0.x ≠ 0 := by dfd_bad hr [glm_persp_sizes_rh_no, glm_persp_decomp_z_rh_no, glm_persp_aspect]
    have h4 : cosf (fovy * lit 0.5) ≠ 0 := by dfd_bad hr [glm_persp_sizes_rh_no, glm_persp_decomp_z_rh_no, glm_persp_aspect]
    exact ⟨h1, h2, h3, h4⟩
  · rintro ⟨h1, h2, h3, h4⟩ o
    exact ⟨_, C72_persp_sizes_rh_no proj fovy h1 h2 h3 h4⟩

theorem C72_persp_fovy_rh_no_iff (proj : M4 ℝ) :
    (∀ o : Orc, ∃ r : ℝ, (glm_persp_fovy_rh_no (proj.map ret) : Dfd o) = ret r) ↔
      proj.c1.y ≠ 0 := by
  constructor
  · intro h
    obtain ⟨r, hr⟩ := h (fun _ _ => false)
    have h1 : proj.c1.y ≠ 0 := by dfd_bad hr [glm_persp_fovy_rh_no, glm_persp_fovy]
    exact h1
  · rintro h1 o
    exact ⟨_, C72_persp_fovy_rh_no proj h1⟩

theorem C72_persp_aspect_rh_no_iff (proj : M4 ℝ) :
    (∀ o : Orc, ∃ r : ℝ, (glm_persp_aspect_rh_no (proj.map ret) : Dfd o) = ret r) ↔
      proj.c0.x ≠ 0 := by
  constructor
  · intro h
    obtain ⟨r, hr⟩ := h (fun _ _ => false)
    have h1 : proj.c0.x ≠ 0 := by dfd_bad hr [glm_persp_aspect_rh_no, glm_persp_aspect]
    exact h1
  · rintro h1 o
    exact ⟨_, C72_persp_aspect_rh_no proj h1⟩

theorem C72_frustum_rh_zo_iff (left : ℝ) (right : ℝ) (bottom : ℝ) (top : ℝ) (nearZ : ℝ) (farZ : ℝ) :
    (∀ o : Orc, ∃ r : M4 ℝ, (glm_frustum_rh_zo (ret left) (ret right) (ret bottom) (ret top) (ret nearZ) (ret farZ) : M4 (Dfd o)) = r.map ret) ↔
      left ≠ right ∧
      bottom ≠ top ∧
      nearZ ≠ farZ := by
  constructor
  · intro h
    obtain ⟨r, hr⟩ := h (fun _ _ => false)
    have h1 : left ≠ right := by dfd_bad hr [glm_frustum_rh_zo]
    have h2 : bottom ≠ top := by dfd_bad hr [glm_frustum_rh_zo]
    have h3 : nearZ ≠ farZ := by dfd_bad hr [glm_frustum_rh_zo]
    exact ⟨h1, h2, h3⟩
  · rintro ⟨h1, h2, h3⟩ o
    exact ⟨_, C72_frustum_rh_zo left right bottom top nearZ farZ h1 h2 h3⟩

theorem C72_perspective_rh_zo_iff (fovy : ℝ) (aspect : ℝ) (nearZ : ℝ) (farZ : ℝ) :
    (∀ o : Orc, ∃ r : M4 ℝ, (glm_perspective_rh_zo (ret fovy) (ret aspect) (ret nearZ) (ret farZ) : M4 (Dfd o)) = r.map ret) ↔
      cosf (fovy * lit 0.5) ≠ 0 ∧
      sinf (fovy * lit 0.5) ≠ 0 ∧
      aspect ≠ 0 ∧
      nearZ ≠ farZ := by
  constructor
  · intro h
    obtain ⟨r, hr⟩ := h (fun _ _ => false)
    have h1 : cosf (fovy * lit 0.5) ≠ 0 := by dfd_bad hr [glm_perspective_rh_zo]
    have h2 : sinf (fovy * lit 0.5) ≠ 0 := by dfd_bad hr [glm_perspective_rh_zo]
    have e : tanf (fovy * lit 0.5) ≠ 0 := tan_ne_zero h1 h2
    have h3 : aspect ≠ 0 := by dfd_bad hr [glm_perspective_rh_zo]
    have h4 : nearZ ≠ farZ := by dfd_bad hr [glm_perspective_rh_zo]
    exact ⟨h1, h2, h3, h4⟩
  · rintro ⟨h1, h2, h3, h4⟩ o
    exact ⟨_, C72_perspective_rh_zo fovy aspect nearZ farZ h1 h2 h3 h4⟩

theorem C72_perspective_default_rh_zo_iff (aspect : ℝ) :
    (∀ o : Orc, ∃ r : M4 ℝ, (glm_perspective_default_rh_zo (ret aspect) : M4 (Dfd o)) = r.map ret) ↔
      aspect ≠ 0 := by
  constructor
  · intro h
    obtain ⟨r, hr⟩ := h (fun _ _ => false)
    have e1 := cos_pi_eighth_ne_zero
    have e2 := sin_pi_eighth_ne_zero
    have e4 := tan_ne_zero e1 e2
    have e3 : (lit 0.01 : ℝ) ≠ lit 100 := by simp only [lit_real]; norm_num
    have h1 : aspect ≠ 0 := by dfd_bad hr [glm_perspective_default_rh_zo, glm_perspective_rh_zo]
    exact h1
  · rintro h1 o
    exact ⟨_, C72_perspective_default_rh_zo aspect h1⟩

theorem C72_perspective_resize_rh_zo_iff (aspect : ℝ) (proj : M4 ℝ) :
    (∀ o : Orc, ∃ r : M4 ℝ, (glm_perspective_resize_rh_zo (ret aspect) (proj.map ret) : M4 (Dfd o)) = r.map ret) ↔
      (proj.c0.x = 0 ∨ aspect ≠ 0) := by
  constructor
  · intro h
    obtain ⟨r, hr⟩ := h (fun _ _ => false)
    have h1 : proj.c0.x = 0 ∨ aspect ≠ 0 := by
      by_contra hn
      obtain ⟨c1, c2⟩ := not_or.1 hn
      rw [not_not] at c2
      have c : ¬ feq proj.c0.x (lit 0 : ℝ) = true := by
        simpa only [feq, lit_real, decide_eq_true_eq, Rat.cast_zero] using c1
      dfd_prop hr [glm_perspective_resize_rh_zo, c]
    exact h1
  · rintro h1 o
    exact ⟨_, C72_perspective_resize_rh_zo aspect proj h1⟩

theorem C72_persp_move_far_rh_zo_iff (proj : M4 ℝ) (deltaFar : ℝ) :
    (∀ o : Orc, ∃ r : M4 ℝ, (glm_persp_move_far_rh_zo (proj.map ret) (ret deltaFar) : M4 (Dfd o)) = r.map ret) ↔
      proj.c2.z ≠ 0 ∧
      proj.c2.z ≠ -1 ∧
      proj.c3.z / proj.c2.z ≠ proj.c3.z / (proj.c2.z + lit 1) + deltaFar := by
  constructor
  · intro h
    obtain ⟨r, hr⟩ := h (fun _ _ => false)
    have h1 : proj.c2.z ≠ 0 := by dfd_bad hr [glm_persp_move_far_rh_zo]
    have h2 : proj.c2.z ≠ -1 := by dfd_bad hr [glm_persp_move_far_rh_zo]
    have e2 : proj.c2.z + lit 1 ≠ 0 := by simp only [lit_real]; push_cast; intro h; apply h2; linarith
    have h3 : proj.c3.z / proj.c2.z ≠ proj.c3.z / (proj.c2.z + lit 1) + deltaFar := by dfd_bad hr [glm_persp_move_far_rh_zo]
    exact ⟨h1, h2, h3⟩
  · rintro ⟨h1, h2, h3⟩ o
    exact ⟨_, C72_persp_move_far_rh_zo proj deltaFar h1 h2 h3⟩

theorem C72_persp_decomp_rh_zo_iff (proj : M4 ℝ) :
    (∀ o : Orc, ∃ r : ℝ × ℝ × ℝ × ℝ × ℝ × ℝ, (glm_persp_decomp_rh_zo (proj.map ret) : Dfd o × Dfd o × Dfd o × Dfd o × Dfd o × Dfd o) = (ret r.1, ret r.2.1, ret r.2.2.1, ret r.2.2.2.1, ret r.2.2.2.2.1, ret r.2.2.2.2.2)) ↔
      proj.c2.z ≠ 0 ∧
      proj.c2.z ≠ -1 ∧
      proj.c0.x ≠ 0 ∧
      proj.c1.y ≠ 0 := by
  constructor
  · intro h
    obtain ⟨r, hr⟩ := h (fun _ _ => false)
    have h1 : proj.c2.z ≠ 0 := by dfd_bad hr [glm_persp_decomp_rh_zo]
    have h2 : proj.c2.z ≠ -1 := by dfd_bad hr [glm_persp_decomp_rh_zo]
    have e2 : proj.c2.z + lit 1 ≠ 0 := by simp only [lit_real]; push_cast; intro h; apply h2; linarith
    have h3 : proj.c0.x ≠ 0 := by dfd_bad hr [glm_persp_decomp_rh_zo]
    have h4 : proj.c1.y ≠ 0 := by dfd_bad hr [glm_persp_decomp_rh_zo]
    exact ⟨h1, h2, h3, h4⟩
  · rintro ⟨h1, h2, h3, h4⟩ o
    exact ⟨_, C72_persp_decomp_rh_zo proj h1 h2 h3 h4⟩

theorem C72_persp_decompv_rh_zo_iff (proj : M4 ℝ) :
    (∀ o : Orc, ∃ r : V6 ℝ, (glm_persp_decompv_rh_zo (proj.map ret) : V6 (Dfd o)) = r.map ret) ↔
      proj.c2.z ≠ 0 ∧
      proj.c2.z ≠ -1 ∧
      proj.c0.x ≠ 0 ∧
      proj.c1.y ≠ 0 := by
  constructor
  · intro h
    obtain ⟨r, hr⟩ := h (fun _ _ => false)
    have h1 : proj.c2.z ≠ 0 := by dfd_bad hr [glm_persp_decompv_rh_zo, glm_persp_decomp_rh_zo]
    have h2 : proj.c2.z ≠ -1 := by dfd_bad hr [glm_persp_decompv_rh_zo, glm_persp_decomp_rh_zo]
    have e2 : proj.c2.z + lit 1 ≠ 0 := by simp only [lit_real]; push_cast; intro h; apply h2; linarith
    have h3 : proj.c0.x ≠ 0 := by dfd_bad hr [glm_persp_decompv_rh_zo, glm_persp_decomp_rh_zo]
    have h4 : proj.c1.y ≠ 0 := by dfd_bad hr [glm_persp_decompv_rh_zo, glm_persp_decomp_rh_zo]
    exact ⟨h1, h2, h3, h4⟩
  · rintro ⟨h1, h2, h3, h4⟩ o
    exact ⟨_, C72_persp_decompv_rh_zo proj h1 h2 h3 h4⟩

theorem C72_persp_decomp_x_rh_zo_iff (proj : M4 ℝ) :
    (∀ o : Orc, ∃ r : ℝ × ℝ, (glm_persp_decomp_x_rh_zo (proj.map ret) : Dfd o × Dfd o) = (ret r.1, ret r.2)) ↔
      proj.c2.z ≠ 0 ∧
      proj.c0.x ≠ 0 := by
  constructor
  · intro h
    obtain ⟨r, hr⟩ := h (fun _ _ => false)
    have h1 : proj.c2.z ≠ 0 := by dfd_bad hr [glm_persp_decomp_x_rh_zo]
    have h2 : proj.c0.x ≠ 0 := by dfd_bad hr [glm_persp_decomp_x_rh_zo]
    exact ⟨h1, h2⟩
  · rintro ⟨h1, h2⟩ o
    exact ⟨_, C72_persp_decomp_x_rh_zo proj h1 h2⟩

theorem C72_persp_decomp_y_rh_zo_iff (proj : M4 ℝ) :
    (∀ o : Orc, ∃ r : ℝ × ℝ, (glm_persp_decomp_y_rh_zo (proj.map ret) : Dfd o × Dfd o) = (ret r.1, ret r.2)) ↔
      proj.c2.z ≠ 0 ∧
      proj.c1.y ≠ 0 := by
  constructor
  · intro h
    obtain ⟨r, hr⟩ := h (fun _ _ => false)
    have h1 : proj.c2.z ≠ 0 := by dfd_bad hr [glm_persp_decomp_y_rh_zo]
    have h2 : proj.c1.y ≠ 0 := by dfd_bad hr [glm_persp_decomp_y_rh_zo]
    exact ⟨h1, h2⟩
  · rintro ⟨h1, h2⟩ o
    exact ⟨_, C72_persp_decomp_y_rh_zo proj h1 h2⟩

theorem C72_persp_decomp_z_rh_zo_iff (proj : M4 ℝ) :
    (∀ o : Orc, ∃ r : ℝ × ℝ, (glm_persp_decomp_z_rh_zo (proj.map ret) : Dfd o × Dfd o) = (ret r.1, ret r.2)) ↔
      proj.c2.z ≠ 0 ∧
      proj.c2.z ≠ -1 := by
  constructor
  · intro h
    obtain ⟨r, hr⟩ := h (fun _ _ => false)
    have h1 : proj.c2.z ≠ 0 := by dfd_bad hr [glm_persp_decomp_z_rh_zo]
    have h2 : proj.c2.z ≠ -1 := by dfd_bad hr [glm_persp_decomp_z_rh_zo]
    exact ⟨h1, h2⟩
  · rintro ⟨h1, h2⟩ o
    exact ⟨_, C72_persp_decomp_z_rh_zo proj h1 h2⟩

theorem C72_persp_decomp_far_rh_zo_iff (proj : M4 ℝ) :
    (∀ o : Orc, ∃ r : ℝ, (glm_persp_decomp_far_rh_zo (proj.map ret) : Dfd o) = ret r) ↔
      proj.c2.z ≠ -1 := by
  constructor
  · intro h
    obtain ⟨r, hr⟩ := h (fun _ _ => false)
    have h1 : proj.c2.z ≠ -1 := by dfd_bad hr [glm_persp_decomp_far_rh_zo]
    exact h1
  · rintro h1 o
    exact ⟨_, C72_persp_decomp_far_rh_zo proj h1⟩

theorem C72_persp_decomp_near_rh_zo_iff (proj : M4 ℝ) :
    (∀ o : Orc, ∃ r : ℝ, (glm_persp_decomp_near_rh_zo (proj.map ret) : Dfd o) = ret r) ↔
      proj.c2.z ≠ 0 := by
  constructor
  · intro h
    obtain ⟨r, hr⟩ := h (fun _ _ => false)
    have h1 : proj.c2.z ≠ 0 := by dfd_bad hr [glm_persp_decomp_near_rh_zo]
    exact h1
  · rintro h1 o
    exact ⟨_, C72_persp_decomp_near_rh_zo proj h1⟩

theorem C72_persp_sizes_rh_zo_iff (proj : M4 ℝ) (fovy : ℝ) :
    (∀ o : Orc, ∃ r : V4 ℝ, (glm_persp_sizes_rh_zo (proj.map ret) (ret fovy) : V4 (Dfd o)) = r.map ret) ↔
      proj.c2.z ≠ 0 ∧
      proj.c2.z ≠ -1 ∧
      proj.c0.x ≠ 0 ∧
      cosf (fovy * lit 0.5) ≠ 0 := by
  constructor
  · intro h
    obtain ⟨r, hr⟩ := h (fun _ _ => false)
    have h1 : proj.c2.z ≠ 0 := by dfd_bad hr [glm_persp_sizes_rh_zo, glm_persp_decomp_z_rh_zo, glm_persp_aspect]
    have h2 : proj.c2.z ≠ -1 := by dfd_bad hr [glm_persp_sizes_rh_zo, glm_persp_decomp_z_rh_zo, glm_persp_aspect]
    have h3 : proj.c0.x ≠ 0 := by dfd_bad hr [glm_persp_sizes_rh_zo, glm_persp_decomp_z_rh_zo, glm_persp_aspect]
    have h4 : cosf (fovy * lit 0.5) ≠ 0 := by dfd_bad hr [glm_persp_sizes_rh_zo, glm_persp_decomp_z_rh_zo, glm_persp_aspect]
    exact ⟨h1, h2, h3, h4⟩
  · rintro ⟨h1, h2, h3, h4⟩ o
    exact ⟨_, C72_persp_sizes_rh_zo proj fovy h1 h2 h3 h4⟩

theorem C72_persp_fovy_rh_zo_iff (proj : M4 ℝ) :
    (∀ o : Orc, ∃ r : ℝ, (glm_persp_fovy_rh_zo (proj.map ret) : Dfd o) = ret r) ↔
      proj.c1.y ≠ 0 := by
  constructor
  · intro h
    obtain ⟨r, hr⟩ := h (fun _ _ => false)
    have h1 : proj.c1.y ≠ 0 := by dfd_bad hr [glm_persp_fovy_rh_zo, glm_persp_fovy]
    exact h1
  · rintro h1 o
    exact ⟨_, C72_persp_fovy_rh_zo proj h1⟩

theorem C72_persp_aspect_rh_zo_iff (proj : M4 ℝ) :
    (∀ o : Orc, ∃ r : ℝ, (glm_persp_aspect_rh_zo (proj.map ret) : Dfd o) = ret r) ↔
      proj.c0.x ≠ 0 := by
  constructor
  · intro h
    obtain ⟨r, hr⟩ := h (fun _ _ => false)
    have h1 : proj.c0.x ≠ 0 := by dfd_bad hr [glm_persp_aspect_rh_zo, glm_persp_aspect]
    exact h1
  · rintro h1 o
    exact ⟨_, C72_persp_aspect_rh_zo proj h1⟩

end Cglm
