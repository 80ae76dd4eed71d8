import Verif.DefdBad
import Verif.Props.C72Affines

/-! # C72: exact preconditions

Generated by tools/defdthms.py.  The orthographic projections.  The result is defined, whatever comparisons with undefined values give, exactly when
the listed conditions on the arguments hold. -/

namespace Cglm
open Dfd

theorem C72_ortho_iff (left : ℝ) (right : ℝ) (bottom : ℝ) (top : ℝ) (nearZ : ℝ) (farZ : ℝ) :
    (∀ o : Orc, ∃ r : M4 ℝ, (glm_ortho (ret left) (ret right) (ret bottom) (ret top) (ret nearZ) (ret farZ) : M4 (Dfd o)) = r.map ret) ↔
      left ≠ right ∧
      bottom ≠ top ∧
      nearZ ≠ farZ := by
  constructor
  · intro h
    obtain ⟨r, hr⟩ := h (fun _ _ => false)
    have h1 : left ≠ right := by dfd_bad hr [glm_ortho, glm_ortho_rh_no]
    have h2 : bottom ≠ top := by dfd_bad hr [glm_ortho, glm_ortho_rh_no]
    have h3 : nearZ ≠ farZ := by dfd_bad hr [glm_ortho, glm_ortho_rh_no]
    exact ⟨h1, h2, h3⟩
  · rintro ⟨h1, h2, h3⟩ o
    exact ⟨_, C72_ortho left right bottom top nearZ farZ h1 h2 h3⟩

theorem C72_ortho_aabb_iff (box : M2x3 ℝ) :
    (∀ o : Orc, ∃ r : M4 ℝ, (glm_ortho_aabb (box.map ret) : M4 (Dfd o)) = r.map ret) ↔
      box.c0.x ≠ box.c1.x ∧
      box.c0.y ≠ box.c1.y ∧
      box.c0.z ≠ box.c1.z := by
  constructor
  · intro h
    obtain ⟨r, hr⟩ := h (fun _ _ => false)
    have h1 : box.c0.x ≠ box.c1.x := by dfd_bad hr [glm_ortho_aabb, glm_ortho_aabb_rh_no, glm_ortho_rh_no]
    have h2 : box.c0.y ≠ box.c1.y := by dfd_bad hr [glm_ortho_aabb, glm_ortho_aabb_rh_no, glm_ortho_rh_no]
    have h3 : box.c0.z ≠ box.c1.z := by dfd_bad hr [glm_ortho_aabb, glm_ortho_aabb_rh_no, glm_ortho_rh_no]
    exact ⟨h1, h2, h3⟩
  · rintro ⟨h1, h2, h3⟩ o
    exact ⟨_, C72_ortho_aabb box h1 h2 h3⟩

theorem C72_ortho_aabb_p_iff (box : M2x3 ℝ) (padding : ℝ) :
    (∀ o : Orc, ∃ r : M4 ℝ, (glm_ortho_aabb_p (box.map ret) (ret padding) : M4 (Dfd o)) = r.map ret) ↔
      box.c0.x - padding ≠ box.c1.x + padding ∧
      box.c0.y - padding ≠ box.c1.y + padding ∧
      box.c0.z - padding ≠ box.c1.z + padding := by
  constructor
  · intro h
    obtain ⟨r, hr⟩ := h (fun _ _ => false)
    have h1 : box.c0.x - padding ≠ box.c1.x + padding := by dfd_bad hr [glm_ortho_aabb_p, glm_ortho_aabb_p_rh_no, glm_ortho_rh_no]
    have h2 : box.c0.y - padding ≠ box.c1.y + padding := by dfd_bad hr [glm_ortho_aabb_p, glm_ortho_aabb_p_rh_no, glm_ortho_rh_no]
    have h3 : box.c0.z - padding ≠ box.c1.z + padding := by dfd_bad hr [glm_ortho_aabb_p, glm_ortho_aabb_p_rh_no, glm_ortho_rh_no]
    exact ⟨h1, h2, h3⟩
  · rintro ⟨h1, h2, h3⟩ o
    exact ⟨_, C72_ortho_aabb_p box padding h1 h2 h3⟩

theorem C72_ortho_aabb_pz_iff (box : M2x3 ℝ) (padding : ℝ) :
    (∀ o : Orc, ∃ r : M4 ℝ, (glm_ortho_aabb_pz (box.map ret) (ret padding) : M4 (Dfd o)) = r.map ret) ↔
      box.c0.x ≠ box.c1.x ∧
      box.c0.y ≠ box.c1.y ∧
      box.c0.z - padding ≠ box.c1.z + padding := by
  constructor
  · intro h
    obtain ⟨r, hr⟩ := h (fun _ _ => false)
    have h1 : box.c0.x ≠ box.c1.x := by dfd_bad hr [glm_ortho_aabb_pz, glm_ortho_aabb_pz_rh_no, glm_ortho_rh_no]
    have h2 : box.c0.y ≠ box.c1.y := by dfd_bad hr [glm_ortho_aabb_pz, glm_ortho_aabb_pz_rh_no, glm_ortho_rh_no]
    have h3 : box.c0.z - padding ≠ box.c1.z + padding := by dfd_bad hr [glm_ortho_aabb_pz, glm_ortho_aabb_pz_rh_no, glm_ortho_rh_no]
    exact ⟨h1, h2, h3⟩
  · rintro ⟨h1, h2, h3⟩ o
    exact ⟨_, C72_ortho_aabb_pz box padding h1 h2 h3⟩

theorem C72_ortho_default_iff (aspect : ℝ) :
    (∀ o : Orc, ∃ r : M4 ℝ, (glm_ortho_default (ret aspect) : M4 (Dfd o)) = r.map ret) ↔
      aspect ≠ 0 := by
  constructor
  · intro h
    obtain ⟨r, hr⟩ := h (fun _ _ => false)
    have e3 : (-lit 1 : ℝ) ≠ lit 1 := by simp only [lit_real]; norm_num
    have e4 : (-lit 100 : ℝ) ≠ lit 100 := by simp only [lit_real]; norm_num
    have h1 : aspect ≠ 0 := by dfd_bad hr [glm_ortho_default, glm_ortho_default_rh_no, glm_ortho_rh_no]
    exact h1
  · rintro h1 o
    exact ⟨_, C72_ortho_default aspect h1⟩

theorem C72_ortho_default_s_iff (aspect : ℝ) (size : ℝ) :
    (∀ o : Orc, ∃ r : M4 ℝ, (glm_ortho_default_s (ret aspect) (ret size) : M4 (Dfd o)) = r.map ret) ↔
      aspect ≠ 0 ∧
      size ≠ 0 ∧
      size ≠ -100 := by
  constructor
  · intro h
    obtain ⟨r, hr⟩ := h (fun _ _ => false)
    have h1 : aspect ≠ 0 := by
      by_contra hn
      have c : ¬ fle (lit 1 : ℝ) aspect = true := by
        simp only [fle, lit_real, decide_eq_true_eq]
        push_cast
        linarith
      dfd_prop hr [glm_ortho_default_s, glm_ortho_default_s_rh_no, glm_ortho_rh_no, c]
    have h2 : size ≠ 0 := by dfd_bad hr [glm_ortho_default_s, glm_ortho_default_s_rh_no, glm_ortho_rh_no]
    have e1 : -size * aspect ≠ size * aspect := by
      have := mul_ne_zero h2 h1
      intro h; apply this; linarith
    have e2 : -size / aspect ≠ size / aspect := by
      have := div_ne_zero h2 h1
      intro h; apply this; rw [neg_div] at h; linarith
    have e3 : -size ≠ size := by intro h; apply h2; linarith
    have h3 : size ≠ -100 := by dfd_bad hr [glm_ortho_default_s, glm_ortho_default_s_rh_no, glm_ortho_rh_no]
    exact ⟨h1, h2, h3⟩
  · rintro ⟨h1, h2, h3⟩ o
    exact ⟨_, C72_ortho_default_s aspect size h1 h2 h3⟩

theorem C72_ortho_lh_no_iff (left : ℝ) (right : ℝ) (bottom : ℝ) (top : ℝ) (nearZ : ℝ) (farZ : ℝ) :
    (∀ o : Orc, ∃ r : M4 ℝ, (glm_ortho_lh_no (ret left) (ret right) (ret bottom) (ret top) (ret nearZ) (ret farZ) : M4 (Dfd o)) = r.map ret) ↔
      left ≠ right ∧
      bottom ≠ top ∧
      nearZ ≠ farZ := by
  constructor
  · intro h
    obtain ⟨r, hr⟩ := h (fun _ _ => false)
    have h1 : left ≠ right := by dfd_bad hr [glm_ortho_lh_no]
    have h2 : bottom ≠ top := by dfd_bad hr [glm_ortho_lh_no]
    have h3 : nearZ ≠ farZ := by dfd_bad hr [glm_ortho_lh_no]
    exact ⟨h1, h2, h3⟩
  · rintro ⟨h1, h2, h3⟩ o
    exact ⟨_, C72_ortho_lh_no left right bottom top nearZ farZ h1 h2 h3⟩

theorem C72_ortho_aabb_lh_no_iff (box : M2x3 ℝ) :
    (∀ o : Orc, ∃ r : M4 ℝ, (glm_ortho_aabb_lh_no (box.map ret) : M4 (Dfd o)) = r.map ret) ↔
      box.c0.x ≠ box.c1.x ∧
      box.c0.y ≠ box.c1.y ∧
      box.c0.z ≠ box.c1.z := by
  constructor
  · intro h
    obtain ⟨r, hr⟩ := h (fun _ _ => false)
    have h1 : box.c0.x ≠ box.c1.x := by dfd_bad hr [glm_ortho_aabb_lh_no, glm_ortho_lh_no]
    have h2 : box.c0.y ≠ box.c1.y := by dfd_bad hr [glm_ortho_aabb_lh_no, glm_ortho_lh_no]
    have h3 : box.c0.z ≠ box.c1.z := by dfd_bad hr [glm_ortho_aabb_lh_no, glm_ortho_lh_no]
    exact ⟨h1, h2, h3⟩
  · rintro ⟨h1, h2, h3⟩ o
    exact ⟨_, C72_ortho_aabb_lh_no box h1 h2 h3⟩

theorem C72_ortho_aabb_p_lh_no_iff (box : M2x3 ℝ) (padding : ℝ) :
    (∀ o : Orc, ∃ r : M4 ℝ, (glm_ortho_aabb_p_lh_no (box.map ret) (ret padding) : M4 (Dfd o)) = r.map ret) ↔
      box.c0.x - padding ≠ box.c1.x + padding ∧
      box.c0.y - padding ≠ box.c1.y + padding ∧
      box.c0.z - padding ≠ box.c1.z + padding := by
  constructor
  · intro h
    obtain ⟨r, hr⟩ := h (fun _ _ => false)
    have h1 : box.c0.x - padding ≠ box.c1.x + padding := by dfd_bad hr [glm_ortho_aabb_p_lh_no, glm_ortho_lh_no]
    have h2 : box.c0.y - padding ≠ box.c1.y + padding := by dfd_bad hr [glm_ortho_aabb_p_lh_no, glm_ortho_lh_no]
    have h3 : box.c0.z - padding ≠ box.c1.z + padding := by dfd_bad hr [glm_ortho_aabb_p_lh_no, glm_ortho_lh_no]
    exact ⟨h1, h2, h3⟩
  · rintro ⟨h1, h2, h3⟩ o
    exact ⟨_, C72_ortho_aabb_p_lh_no box padding h1 h2 h3⟩

theorem C72_ortho_aabb_pz_lh_no_iff (box : M2x3 ℝ) (padding : ℝ) :
    (∀ o : Orc, ∃ r : M4 ℝ, (glm_ortho_aabb_pz_lh_no (box.map ret) (ret padding) : M4 (Dfd o)) = r.map ret) ↔
      box.c0.x ≠ box.c1.x ∧
      box.c0.y ≠ box.c1.y ∧
      box.c0.z - padding ≠ box.c1.z + padding := by
  constructor
  · intro h
    obtain ⟨r, hr⟩ := h (fun _ _ => false)
    have h1 : box.c0.x ≠ box.c1.x := by dfd_bad hr [glm_ortho_aabb_pz_lh_no, glm_ortho_lh_no]
    have h2 : box.c0.y ≠ box.c1.y := by dfd_bad hr [glm_ortho_aabb_pz_lh_no, glm_ortho_lh_no]
    have h3 : box.c0.z - padding ≠ box.c1.z + padding := by dfd_bad hr [glm_ortho_aabb_pz_lh_no, glm_ortho_lh_no]
    exact ⟨h1, h2, h3⟩
  · rintro ⟨h1, h2, h3⟩ o
    exact ⟨_, C72_ortho_aabb_pz_lh_no box padding h1 h2 h3⟩

theorem C72_ortho_default_lh_no_iff (aspect : ℝ) :
    (∀ o : Orc, ∃ r : M4 ℝ, (glm_ortho_default_lh_no (ret aspect) : M4 (Dfd o)) = r.map ret) ↔
      aspect ≠ 0 := by
  constructor
  · intro h
    obtain ⟨r, hr⟩ := h (fun _ _ => false)
    have e3 : (-lit 1 : ℝ) ≠ lit 1 := by simp only [lit_real]; norm_num
    have e4 : (-lit 100 : ℝ) ≠ lit 100 := by simp only [lit_real]; norm_num
    have h1 : aspect ≠ 0 := by dfd_bad hr [glm_ortho_default_lh_no, glm_ortho_lh_no]
    exact h1
  · rintro h1 o
    exact ⟨_, C72_ortho_default_lh_no aspect h1⟩

theorem C72_ortho_default_s_lh_no_iff (aspect : ℝ) (size : ℝ) :
    (∀ o : Orc, ∃ r : M4 ℝ, (glm_ortho_default_s_lh_no (ret aspect) (ret size) : M4 (Dfd o)) = r.map ret) ↔
      aspect ≠ 0 ∧
      size ≠ 0 ∧
      size ≠ -100 := by
  constructor
  · intro h
    obtain ⟨r, hr⟩ := h (fun _ _ => false)
    have h1 : aspect ≠ 0 := by
      by_contra hn
      have c : ¬ fle (lit 1 : ℝ) aspect = true := by
        simp only [fle, lit_real, decide_eq_true_eq]
        push_cast
        linarith
      dfd_prop hr [glm_ortho_default_s_lh_no, glm_ortho_lh_no, c]
    have h2 : size ≠ 0 := by dfd_bad hr [glm_ortho_default_s_lh_no, glm_ortho_lh_no]
    have e1 : -size * aspect ≠ size * aspect := by
      have := mul_ne_zero h2 h1
      intro h; apply this; linarith
    have e2 : -size / aspect ≠ size / aspect := by
      have := div_ne_zero h2 h1
      intro h; apply this; rw [neg_div] at h; linarith
    have e3 : -size ≠ size := by intro h; apply h2; linarith
    have h3 : size ≠ -100 := by dfd_bad hr [glm_ortho_default_s_lh_no, glm_ortho_lh_no]
    exact ⟨h1, h2, h3⟩
  · rintro ⟨h1, h2, h3⟩ o
    exact ⟨_, C72_ortho_default_s_lh_no aspect size h1 h2 h3⟩

theorem C72_ortho_lh_zo_iff (left : ℝ) (right : ℝ) (bottom : ℝ) (top : ℝ) (nearZ : ℝ) (farZ : ℝ) :
    (∀ o : Orc, ∃ r : M4 ℝ, (glm_ortho_lh_zo (ret left) (ret right) (ret bottom) (ret top) (ret nearZ) (ret farZ) : M4 (Dfd o)) = r.map ret) ↔
      left ≠ right ∧
      bottom ≠ top ∧
      nearZ ≠ farZ := by
  constructor
  · intro h
    obtain ⟨r, hr⟩ := h (fun _ _ => false)
    have h1 : left ≠ right := by dfd_bad hr [glm_ortho_lh_zo]
    have h2 : bottom ≠ top := by dfd_bad hr [glm_ortho_lh_zo]
    have h3 : nearZ ≠ farZ := by dfd_bad hr [glm_ortho_lh_zo]
    exact ⟨h1, h2, h3⟩
  · rintro ⟨h1, h2, h3⟩ o
    exact ⟨_, C72_ortho_lh_zo left right bottom top nearZ farZ h1 h2 h3⟩

theorem C72_ortho_aabb_lh_zo_iff (box : M2x3 ℝ) :
    (∀ o : Orc, ∃ r : M4 ℝ, (glm_ortho_aabb_lh_zo (box.map ret) : M4 (Dfd o)) = r.map ret) ↔
      box.c0.x ≠ box.c1.x ∧
      box.c0.y ≠ box.c1.y ∧
      box.c0.z ≠ box.c1.z := by
  constructor
  · intro h
    obtain ⟨r, hr⟩ := h (fun _ _ => false)
    have h1 : box.c0.x ≠ box.c1.x := by dfd_bad hr [glm_ortho_aabb_lh_zo, glm_ortho_lh_zo]
    have h2 : box.c0.y ≠ box.c1.y := by dfd_bad hr [glm_ortho_aabb_lh_zo, glm_ortho_lh_zo]
    have h3 : box.c0.z ≠ box.c1.z := by dfd_bad hr [glm_ortho_aabb_lh_zo, glm_ortho_lh_zo]
    exact ⟨h1, h2, h3⟩
  · rintro ⟨h1, h2, h3⟩ o
    exact ⟨_, C72_ortho_aabb_lh_zo box h1 h2 h3⟩

theorem C72_ortho_aabb_p_lh_zo_iff (box : M2x3 ℝ) (padding : ℝ) :
    (∀ o : Orc, ∃ r : M4 ℝ, (glm_ortho_aabb_p_lh_zo (box.map ret) (ret padding) : M4 (Dfd o)) = r.map ret) ↔
      box.c0.x - padding ≠ box.c1.x + padding ∧
      box.c0.y - padding ≠ box.c1.y + padding ∧
      box.c0.z - padding ≠ box.c1.z + padding := by
  constructor
  · intro h
    obtain ⟨r, hr⟩ := h (fun _ _ => false)
    have h1 : box.c0.x - padding ≠ box.c1.x + padding := by dfd_bad hr [glm_ortho_aabb_p_lh_zo, glm_ortho_lh_zo]
    have h2 : box.c0.y - padding ≠ box.c1.y + padding := by dfd_bad hr [glm_ortho_aabb_p_lh_zo, glm_ortho_lh_zo]
    have h3 : box.c0.z - padding ≠ box.c1.z + padding := by dfd_bad hr [glm_ortho_aabb_p_lh_zo, glm_ortho_lh_zo]
    exact ⟨h1, h2, h3⟩
  · rintro ⟨h1, h2, h3⟩ o
    exact ⟨_, C72_ortho_aabb_p_lh_zo box padding h1 h2 h3⟩

theorem C72_ortho_aabb_pz_lh_zo_iff (box : M2x3 ℝ) (padding : ℝ) :
    (∀ o : Orc, ∃ r : M4 ℝ, (glm_ortho_aabb_pz_lh_zo (box.map ret) (ret padding) : M4 (Dfd o)) = r.map ret) ↔
      box.c0.x ≠ box.c1.x ∧
      box.c0.y ≠ box.c1.y ∧
      box.c0.z - padding ≠ box.c1.z + padding := by
  constructor
  · intro h
    obtain ⟨r, hr⟩ := h (fun _ _ => false)
    have h1 : box.c0.x ≠ box.c1.x := by dfd_bad hr [glm_ortho_aabb_pz_lh_zo, glm_ortho_lh_zo]
    have h2 : box.c0.y ≠ box.c1.y := by dfd_bad hr [glm_ortho_aabb_pz_lh_zo, glm_ortho_lh_zo]
    have h3 : box.c0.z - padding ≠ box.c1.z + padding := by dfd_bad hr [glm_ortho_aabb_pz_lh_zo, glm_ortho_lh_zo]
    exact ⟨h1, h2, h3⟩
  · rintro ⟨h1, h2, h3⟩ o
    exact ⟨_, C72_ortho_aabb_pz_lh_zo box padding h1 h2 h3⟩

theorem C72_ortho_default_lh_zo_iff (aspect : ℝ) :
    (∀ o : Orc, ∃ r : M4 ℝ, (glm_ortho_default_lh_zo (ret aspect) : M4 (Dfd o)) = r.map ret) ↔
      aspect ≠ 0 := by
  constructor
  · intro h
    obtain ⟨r, hr⟩ := h (fun _ _ => false)
    have e3 : (-lit 1 : ℝ) ≠ lit 1 := by simp only [lit_real]; norm_num
    have e4 : (-lit 100 : ℝ) ≠ lit 100 := by simp only [lit_real]; norm_num
    have h1 : aspect ≠ 0 := by dfd_bad hr [glm_ortho_default_lh_zo, glm_ortho_lh_zo]
    exact h1
  · rintro h1 o
    exact ⟨_, C72_ortho_default_lh_zo aspect h1⟩

theorem C72_ortho_default_s_lh_zo_iff (aspect : ℝ) (size : ℝ) :
    (∀ o : Orc, ∃ r : M4 ℝ, (glm_ortho_default_s_lh_zo (ret aspect) (ret size) : M4 (Dfd o)) = r.map ret) ↔
      aspect ≠ 0 ∧
      size ≠ 0 ∧
      size ≠ -100 := by
  constructor
  · intro h
    obtain ⟨r, hr⟩ := h (fun _ _ => false)
    have h1 : aspect ≠ 0 := by
      by_contra hn
      have c : ¬ fle (lit 1 : ℝ) aspect = true := by
        simp only [fle, lit_real, decide_eq_true_eq]
        push_cast
        linarith
      dfd_prop hr [glm_ortho_default_s_lh_zo, glm_ortho_lh_zo, c]
    have h2 : size ≠ 0 := by dfd_bad hr [glm_ortho_default_s_lh_zo, glm_ortho_lh_zo]
    have e1 : -size * aspect ≠ size * aspect := by
      have := mul_ne_zero h2 h1
      intro h; apply this; linarith
    have e2 : -size / aspect ≠ size / aspect := by
      have := div_ne_zero h2 h1
      intro h; apply this; rw [neg_div] at h; linarith
    have e3 : -size ≠ size := by intro h; apply h2; linarith
    have h3 : size ≠ -100 := by dfd_bad hr [glm_ortho_default_s_lh_zo, glm_ortho_lh_zo]
    exact ⟨h1, h2, h3⟩
  · rintro ⟨h1, h2, h3⟩ o
    exact ⟨_, C72_ortho_default_s_lh_zo aspect size h1 h2 h3⟩

theorem C72_ortho_rh_no_iff (left : ℝ) (right : ℝ) (bottom : ℝ) (top : ℝ) (nearZ : ℝ) (farZ : ℝ) :
    (∀ o : Orc, ∃ r : M4 ℝ, (glm_ortho_rh_no (ret left) (ret right) (ret bottom) (ret top) (ret nearZ) (ret farZ) : M4 (Dfd o)) = r.map ret) ↔
      left ≠ right ∧
      bottom ≠ top ∧
      nearZ ≠ farZ := by
  constructor
  · intro h
    obtain ⟨r, hr⟩ := h (fun _ _ => false)
    have h1 : left ≠ right := by dfd_bad hr [glm_ortho_rh_no]
    have h2 : bottom ≠ top := by dfd_bad hr [glm_ortho_rh_no]
    have h3 : nearZ ≠ farZ := by dfd_bad hr [glm_ortho_rh_no]
    exact ⟨h1, h2, h3⟩
  · rintro ⟨h1, h2, h3⟩ o
    exact ⟨_, C72_ortho_rh_no left right bottom top nearZ farZ h1 h2 h3⟩

theorem C72_ortho_aabb_rh_no_iff (box : M2x3 ℝ) :
    (∀ o : Orc, ∃ r : M4 ℝ, (glm_ortho_aabb_rh_no (box.map ret) : M4 (Dfd o)) = r.map ret) ↔
      box.c0.x ≠ box.c1.x ∧
      box.c0.y ≠ box.c1.y ∧
      box.c0.z ≠ box.c1.z := by
  constructor
  · intro h
    obtain ⟨r, hr⟩ := h (fun _ _ => false)
    have h1 : box.c0.x ≠ box.c1.x := by dfd_bad hr [glm_ortho_aabb_rh_no, glm_ortho_rh_no]
    have h2 : box.c0.y ≠ box.c1.y := by dfd_bad hr [glm_ortho_aabb_rh_no, glm_ortho_rh_no]
    have h3 : box.c0.z ≠ box.c1.z := by dfd_bad hr [glm_ortho_aabb_rh_no, glm_ortho_rh_no]
    exact ⟨h1, h2, h3⟩
  · rintro ⟨h1, h2, h3⟩ o
    exact ⟨_, C72_ortho_aabb_rh_no box h1 h2 h3⟩

theorem C72_ortho_aabb_p_rh_no_iff (box : M2x3 ℝ) (padding : ℝ) :
    (∀ o : Orc, ∃ r : M4 ℝ, (glm_ortho_aabb_p_rh_no (box.map ret) (ret padding) : M4 (Dfd o)) = r.map ret) ↔
      box.c0.x - padding ≠ box.c1.x + padding ∧
      box.c0.y - padding ≠ box.c1.y + padding ∧
      box.c0.z - padding ≠ box.c1.z + padding := by
  constructor
  · intro h
    obtain ⟨r, hr⟩ := h (fun _ _ => false)
    have h1 : box.c0.x - padding ≠ box.c1.x + padding := by dfd_bad hr [glm_ortho_aabb_p_rh_no, glm_ortho_rh_no]
    have h2 : box.c0.y - padding ≠ box.c1.y + padding := by dfd_bad hr [glm_ortho_aabb_p_rh_no, glm_ortho_rh_no]
    have h3 : box.c0.z - padding ≠ box.c1.z + padding := by dfd_bad hr [glm_ortho_aabb_p_rh_no, glm_ortho_rh_no]
    exact ⟨h1, h2, h3⟩
  · rintro ⟨h1, h2, h3⟩ o
    exact ⟨_, C72_ortho_aabb_p_rh_no box padding h1 h2 h3⟩

theorem C72_ortho_aabb_pz_rh_no_iff (box : M2x3 ℝ) (padding : ℝ) :
    (∀ o : Orc, ∃ r : M4 ℝ, (glm_ortho_aabb_pz_rh_no (box.map ret) (ret padding) : M4 (Dfd o)) = r.map ret) ↔
      box.c0.x ≠ box.c1.x ∧
      box.c0.y ≠ box.c1.y ∧
      box.c0.z - padding ≠ box.c1.z + padding := by
  constructor
  · intro h
    obtain ⟨r, hr⟩ := h (fun _ _ => false)
    have h1 : box.c0.x ≠ box.c1.x := by dfd_bad hr [glm_ortho_aabb_pz_rh_no, glm_ortho_rh_no]
    have h2 : box.c0.y ≠ box.c1.y := by dfd_bad hr [glm_ortho_aabb_pz_rh_no, glm_ortho_rh_no]
    have h3 : box.c0.z - padding ≠ box.c1.z + padding := by dfd_bad hr [glm_ortho_aabb_pz_rh_no, glm_ortho_rh_no]
    exact ⟨h1, h2, h3⟩
  · rintro ⟨h1, h2, h3⟩ o
    exact ⟨_, C72_ortho_aabb_pz_rh_no box padding h1 h2 h3⟩

theorem C72_ortho_default_rh_no_iff (aspect : ℝ) :
    (∀ o : Orc, ∃ r : M4 ℝ, (glm_ortho_default_rh_no (ret aspect) : M4 (Dfd o)) = r.map ret) ↔
      aspect ≠ 0 := by
  constructor
  · intro h
    obtain ⟨r, hr⟩ := h (fun _ _ => false)
    have e3 : (-lit 1 : ℝ) ≠ lit 1 := by simp only [lit_real]; norm_num
    have e4 : (-lit 100 : ℝ) ≠ lit 100 := by simp only [lit_real]; norm_num
    have h1 : aspect ≠ 0 := by dfd_bad hr [glm_ortho_default_rh_no, glm_ortho_rh_no]
    exact h1
  · rintro h1 o
    exact ⟨_, C72_ortho_default_rh_no aspect h1⟩

theorem C72_ortho_default_s_rh_no_iff (aspect : ℝ) (size : ℝ) :
    (∀ o : Orc, ∃ r : M4 ℝ, (glm_ortho_default_s_rh_no (ret aspect) (ret size) : M4 (Dfd o)) = r.map ret) ↔
      aspect ≠ 0 ∧
      size ≠ 0 ∧
      size ≠ -100 := by
  constructor
  · intro h
    obtain ⟨r, hr⟩ := h (fun _ _ => false)
    have h1 : aspect ≠ 0 := by
      by_contra hn
      have c : ¬ fle (lit 1 : ℝ) aspect = true := by
        simp only [fle, lit_real, decide_eq_true_eq]
        push_cast
        linarith
      dfd_prop hr [glm_ortho_default_s_rh_no, glm_ortho_rh_no, c]
    have h2 : size ≠ 0 := by dfd_bad hr [glm_ortho_default_s_rh_no, glm_ortho_rh_no]
    have e1 : -size * aspect ≠ size * aspect := by
      have := mul_ne_zero h2 h1
      intro h; apply this; linarith
    have e2 : -size / aspect ≠ size / aspect := by
      have := div_ne_zero h2 h1
      intro h; apply this; rw [neg_div] at h; linarith
    have e3 : -size ≠ size := by intro h; apply h2; linarith
    have h3 : size ≠ -100 := by dfd_bad hr [glm_ortho_default_s_rh_no, glm_ortho_rh_no]
    exact ⟨h1, h2, h3⟩
  · rintro ⟨h1, h2, h3⟩ o
    exact ⟨_, C72_ortho_default_s_rh_no aspect size h1 h2 h3⟩

theorem C72_ortho_rh_zo_iff (left : ℝ) (right : ℝ) (bottom : ℝ) (top : ℝ) (nearZ : ℝ) (farZ : ℝ) :
    (∀ o : Orc, ∃ r : M4 ℝ, (glm_ortho_rh_zo (ret left) (ret right) (ret bottom) (ret top) (ret nearZ) (ret farZ) : M4 (Dfd o)) = r.map ret) ↔
      left ≠ right ∧
      bottom ≠ top ∧
      nearZ ≠ farZ := by
  constructor
  · intro h
    obtain ⟨r, hr⟩ := h (fun _ _ => false)
    have h1 : left ≠ right := by dfd_bad hr [glm_ortho_rh_zo]
    have h2 : bottom ≠ top := by dfd_bad hr [glm_ortho_rh_zo]
    have h3 : nearZ ≠ farZ := by dfd_bad hr [glm_ortho_rh_zo]
    exact ⟨h1, h2, h3⟩
  · rintro ⟨h1, h2, h3⟩ o
    exact ⟨_, C72_ortho_rh_zo left right bottom top nearZ farZ h1 h2 h3⟩

theorem C72_ortho_aabb_rh_zo_iff (box : M2x3 ℝ) :
    (∀ o : Orc, ∃ r : M4 ℝ, (glm_ortho_aabb_rh_zo (box.map ret) : M4 (Dfd o)) = r.map ret) ↔
      box.c0.x ≠ box.c1.x ∧
      box.c0.y ≠ box.c1.y ∧
      box.c0.z ≠ box.c1.z := by
  constructor
  · intro h
    obtain ⟨r, hr⟩ := h (fun _ _ => false)
    have h1 : box.c0.x ≠ box.c1.x := by dfd_bad hr [glm_ortho_aabb_rh_zo, glm_ortho_rh_zo]
    have h2 : box.c0.y ≠ box.c1.y := by dfd_bad hr [glm_ortho_aabb_rh_zo, glm_ortho_rh_zo]
    have h3 : box.c0.z ≠ box.c1.z := by dfd_bad hr [glm_ortho_aabb_rh_zo, glm_ortho_rh_zo]
    exact ⟨h1, h2, h3⟩
  · rintro ⟨h1, h2, h3⟩ o
    exact ⟨_, C72_ortho_aabb_rh_zo box h1 h2 h3⟩

theorem C72_ortho_aabb_p_rh_zo_iff (box : M2x3 ℝ) (padding : ℝ) :
    (∀ o : Orc, ∃ r : M4 ℝ, (glm_ortho_aabb_p_rh_zo (box.map ret) (ret padding) : M4 (Dfd o)) = r.map ret) ↔
      box.c0.x - padding ≠ box.c1.x + padding ∧
      box.c0.y - padding ≠ box.c1.y + padding ∧
      box.c0.z - padding ≠ box.c1.z + padding := by
  constructor
  · intro h
    obtain ⟨r, hr⟩ := h (fun _ _ => false)
    have h1 : box.c0.x - padding ≠ box.c1.x + padding := by dfd_bad hr [glm_ortho_aabb_p_rh_zo, glm_ortho_rh_zo]
    have h2 : box.c0.y - padding ≠ box.c1.y + padding := by dfd_bad hr [glm_ortho_aabb_p_rh_zo, glm_ortho_rh_zo]
    have h3 : box.c0.z - padding ≠ box.c1.z + padding := by dfd_bad hr [glm_ortho_aabb_p_rh_zo, glm_ortho_rh_zo]
    exact ⟨h1, h2, h3⟩
  · rintro ⟨h1, h2, h3⟩ o
    exact ⟨_, C72_ortho_aabb_p_rh_zo box padding h1 h2 h3⟩

theorem C72_ortho_aabb_pz_rh_zo_iff (box : M2x3 ℝ) (padding : ℝ) :
    (∀ o : Orc, ∃ r : M4 ℝ, (glm_ortho_aabb_pz_rh_zo (box.map ret) (ret padding) : M4 (Dfd o)) = r.map ret) ↔
      box.c0.x ≠ box.c1.x ∧
      box.c0.y ≠ box.c1.y ∧
      box.c0.z - padding ≠ box.c1.z + padding := by
  constructor
  · intro h
    obtain ⟨r, hr⟩ := h (fun _ _ => false)
    have h1 : box.c0.x ≠ box.c1.x := by dfd_bad hr [glm_ortho_aabb_pz_rh_zo, glm_ortho_rh_zo]
    have h2 : box.c0.y ≠ box.c1.y := by dfd_bad hr [glm_ortho_aabb_pz_rh_zo, glm_ortho_rh_zo]
    have h3 : box.c0.z - padding ≠ box.c1.z + padding := by dfd_bad hr [glm_ortho_aabb_pz_rh_zo, glm_ortho_rh_zo]
    exact ⟨h1, h2, h3⟩
  · rintro ⟨h1, h2, h3⟩ o
    exact ⟨_, C72_ortho_aabb_pz_rh_zo box padding h1 h2 h3⟩

theorem C72_ortho_default_rh_zo_iff (aspect : ℝ) :
    (∀ o : Orc, ∃ r : M4 ℝ, (glm_ortho_default_rh_zo (ret aspect) : M4 (Dfd o)) = r.map ret) ↔
      aspect ≠ 0 := by
  constructor
  · intro h
    obtain ⟨r, hr⟩ := h (fun _ _ => false)
    have e3 : (-lit 1 : ℝ) ≠ lit 1 := by simp only [lit_real]; norm_num
    have e4 : (-lit 100 : ℝ) ≠ lit 100 := by simp only [lit_real]; norm_num
    have h1 : aspect ≠ 0 := by dfd_bad hr [glm_ortho_default_rh_zo, glm_ortho_rh_zo]
    exact h1
  · rintro h1 o
    exact ⟨_, C72_ortho_default_rh_zo aspect h1⟩

theorem C72_ortho_default_s_rh_zo_iff (aspect : ℝ) (size : ℝ) :
    (∀ o : Orc, ∃ r : M4 ℝ, (glm_ortho_default_s_rh_zo (ret aspect) (ret size) : M4 (Dfd o)) = r.map ret) ↔
      aspect ≠ 0 ∧
      size ≠ 0 ∧
      size ≠ -100 := by
  constructor
  · intro h
    obtain ⟨r, hr⟩ := h (fun _ _ => false)
    have h1 : aspect ≠ 0 := by
      by_contra hn
      have c : ¬ fle (lit 1 : ℝ) aspect = true := by
        simp only [fle, lit_real, decide_eq_true_eq]
        push_cast
        linarith
      dfd_prop hr [glm_ortho_default_s_rh_zo, glm_ortho_rh_zo, c]
    have h2 : size ≠ 0 := by dfd_bad hr [glm_ortho_default_s_rh_zo, glm_ortho_rh_zo]
    have e1 : -size * aspect ≠ size * aspect := by
      have := mul_ne_zero h2 h1
      intro h; apply this; linarith
    have e2 : -size / aspect ≠ size / aspect := by
      have := div_ne_zero h2 h1
      intro h; apply this; rw [neg_div] at h; linarith
    have e3 : -size ≠ size := by intro h; apply h2; linarith
    have h3 : size ≠ -100 := by dfd_bad hr [glm_ortho_default_s_rh_zo, glm_ortho_rh_zo]
    exact ⟨h1, h2, h3⟩
  · rintro ⟨h1, h2, h3⟩ o
    exact ⟨_, C72_ortho_default_s_rh_zo aspect size h1 h2 h3⟩

end Cglm
