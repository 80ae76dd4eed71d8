import Verif.DefdBad
import Verif.Props.C72Affines
import Verif.Props.C72Geoms
import Verif.Props.C72Quats
import Verif.Props.C72Mats
import Verif.Props.C72Vecs

/-! # C72: exact preconditions

Generated by tools/defdthms.py.  Everything else.  The result is defined, whatever comparisons with undefined values give, exactly when
the listed conditions on the arguments hold. -/

namespace Cglm
open Dfd

theorem C72_decompose_rs_iff (m : M4 ℝ) :
    (∀ o : Orc, ∃ r : M4 ℝ × V3 ℝ, (glm_decompose_rs (m.map ret) : M4 (Dfd o) × V3 (Dfd o)) = (r.1.map ret, r.2.map ret)) ↔
      glm_vec3_norm ⟨m.c0.x, m.c0.y, m.c0.z⟩ ≠ 0 ∧
      glm_vec3_norm ⟨m.c1.x, m.c1.y, m.c1.z⟩ ≠ 0 ∧
      glm_vec3_norm ⟨m.c2.x, m.c2.y, m.c2.z⟩ ≠ 0 := by
  constructor
  · intro h
    obtain ⟨r, hr⟩ := h (fun _ _ => false)
    have h1 : glm_vec3_norm ⟨m.c0.x, m.c0.y, m.c0.z⟩ ≠ 0 := by dfd_bad hr [glm_decompose_rs]
    have h2 : glm_vec3_norm ⟨m.c1.x, m.c1.y, m.c1.z⟩ ≠ 0 := by dfd_bad hr [glm_decompose_rs]
    have h3 : glm_vec3_norm ⟨m.c2.x, m.c2.y, m.c2.z⟩ ≠ 0 := by dfd_bad hr [glm_decompose_rs]
    exact ⟨h1, h2, h3⟩
  · rintro ⟨h1, h2, h3⟩ o
    exact ⟨_, C72_decompose_rs m h1 h2 h3⟩

theorem C72_decompose_iff (m : M4 ℝ) :
    (∀ o : Orc, ∃ r : V4 ℝ × M4 ℝ × V3 ℝ, (glm_decompose (m.map ret) : V4 (Dfd o) × M4 (Dfd o) × V3 (Dfd o)) = (r.1.map ret, r.2.1.map ret, r.2.2.map ret)) ↔
      glm_vec3_norm ⟨m.c0.x, m.c0.y, m.c0.z⟩ ≠ 0 ∧
      glm_vec3_norm ⟨m.c1.x, m.c1.y, m.c1.z⟩ ≠ 0 ∧
      glm_vec3_norm ⟨m.c2.x, m.c2.y, m.c2.z⟩ ≠ 0 := by
  constructor
  · intro h
    obtain ⟨r, hr⟩ := h (fun _ _ => false)
    have h1 : glm_vec3_norm ⟨m.c0.x, m.c0.y, m.c0.z⟩ ≠ 0 := by dfd_bad hr [glm_decompose, glm_decompose_rs]
    have h2 : glm_vec3_norm ⟨m.c1.x, m.c1.y, m.c1.z⟩ ≠ 0 := by dfd_bad hr [glm_decompose, glm_decompose_rs]
    have h3 : glm_vec3_norm ⟨m.c2.x, m.c2.y, m.c2.z⟩ ≠ 0 := by dfd_bad hr [glm_decompose, glm_decompose_rs]
    exact ⟨h1, h2, h3⟩
  · rintro ⟨h1, h2, h3⟩ o
    exact ⟨_, C72_decompose m h1 h2 h3⟩

theorem C72_unprojecti_no_iff (pos : V3 ℝ) (invMat : M4 ℝ) (vp : V4 ℝ) :
    (∀ o : Orc, ∃ r : V3 ℝ, (glm_unprojecti_no (pos.map ret) (invMat.map ret) (vp.map ret) : V3 (Dfd o)) = r.map ret) ↔
      vp.z ≠ 0 ∧
      vp.w ≠ 0 ∧
      (glm_mat4_mulv invMat ⟨(lit 2) * (pos.x - vp.x) / vp.z - (lit 1), (lit 2) * (pos.y - vp.y) / vp.w - (lit 1), (lit 2) * pos.z - (lit 1), lit 1⟩).w ≠ 0 := by
  constructor
  · intro h
    obtain ⟨r, hr⟩ := h (fun _ _ => false)
    have h1 : vp.z ≠ 0 := by dfd_bad hr [glm_unprojecti_no]
    have h2 : vp.w ≠ 0 := by dfd_bad hr [glm_unprojecti_no]
    have h3 : (glm_mat4_mulv invMat ⟨(lit 2) * (pos.x - vp.x) / vp.z - (lit 1), (lit 2) * (pos.y - vp.y) / vp.w - (lit 1), (lit 2) * pos.z - (lit 1), lit 1⟩).w ≠ 0 := by dfd_bad hr [glm_unprojecti_no]
    exact ⟨h1, h2, h3⟩
  · rintro ⟨h1, h2, h3⟩ o
    exact ⟨_, C72_unprojecti_no pos invMat vp h1 h2 h3⟩

theorem C72_project_no_iff (pos : V3 ℝ) (m : M4 ℝ) (vp : V4 ℝ) :
    (∀ o : Orc, ∃ r : V3 ℝ, (glm_project_no (pos.map ret) (m.map ret) (vp.map ret) : V3 (Dfd o)) = r.map ret) ↔
      (glm_mat4_mulv m (glm_vec4 pos (lit 1))).w ≠ 0 := by
  constructor
  · intro h
    obtain ⟨r, hr⟩ := h (fun _ _ => false)
    have h1 : (glm_mat4_mulv m (glm_vec4 pos (lit 1))).w ≠ 0 := by dfd_bad hr [glm_project_no]
    exact h1
  · rintro h1 o
    exact ⟨_, C72_project_no pos m vp h1⟩

theorem C72_project_z_no_iff (v : V3 ℝ) (m : M4 ℝ) :
    (∀ o : Orc, ∃ r : ℝ, (glm_project_z_no (v.map ret) (m.map ret) : Dfd o) = ret r) ↔
      m.c0.w * v.x + m.c1.w * v.y + m.c2.w * v.z + m.c3.w ≠ 0 := by
  constructor
  · intro h
    obtain ⟨r, hr⟩ := h (fun _ _ => false)
    have h1 : m.c0.w * v.x + m.c1.w * v.y + m.c2.w * v.z + m.c3.w ≠ 0 := by dfd_bad hr [glm_project_z_no]
    exact h1
  · rintro h1 o
    exact ⟨_, C72_project_z_no v m h1⟩

theorem C72_unprojecti_zo_iff (pos : V3 ℝ) (invMat : M4 ℝ) (vp : V4 ℝ) :
    (∀ o : Orc, ∃ r : V3 ℝ, (glm_unprojecti_zo (pos.map ret) (invMat.map ret) (vp.map ret) : V3 (Dfd o)) = r.map ret) ↔
      vp.z ≠ 0 ∧
      vp.w ≠ 0 ∧
      (glm_mat4_mulv invMat ⟨(lit 2) * (pos.x - vp.x) / vp.z - (lit 1), (lit 2) * (pos.y - vp.y) / vp.w - (lit 1), pos.z, lit 1⟩).w ≠ 0 := by
  constructor
  · intro h
    obtain ⟨r, hr⟩ := h (fun _ _ => false)
    have h1 : vp.z ≠ 0 := by dfd_bad hr [glm_unprojecti_zo]
    have h2 : vp.w ≠ 0 := by dfd_bad hr [glm_unprojecti_zo]
    have h3 : (glm_mat4_mulv invMat ⟨(lit 2) * (pos.x - vp.x) / vp.z - (lit 1), (lit 2) * (pos.y - vp.y) / vp.w - (lit 1), pos.z, lit 1⟩).w ≠ 0 := by dfd_bad hr [glm_unprojecti_zo]
    exact ⟨h1, h2, h3⟩
  · rintro ⟨h1, h2, h3⟩ o
    exact ⟨_, C72_unprojecti_zo pos invMat vp h1 h2 h3⟩

theorem C72_project_zo_iff (pos : V3 ℝ) (m : M4 ℝ) (vp : V4 ℝ) :
    (∀ o : Orc, ∃ r : V3 ℝ, (glm_project_zo (pos.map ret) (m.map ret) (vp.map ret) : V3 (Dfd o)) = r.map ret) ↔
      (glm_mat4_mulv m (glm_vec4 pos (lit 1))).w ≠ 0 := by
  constructor
  · intro h
    obtain ⟨r, hr⟩ := h (fun _ _ => false)
    have h1 : (glm_mat4_mulv m (glm_vec4 pos (lit 1))).w ≠ 0 := by dfd_bad hr [glm_project_zo]
    exact h1
  · rintro h1 o
    exact ⟨_, C72_project_zo pos m vp h1⟩

theorem C72_project_z_zo_iff (v : V3 ℝ) (m : M4 ℝ) :
    (∀ o : Orc, ∃ r : ℝ, (glm_project_z_zo (v.map ret) (m.map ret) : Dfd o) = ret r) ↔
      m.c0.w * v.x + m.c1.w * v.y + m.c2.w * v.z + m.c3.w ≠ 0 := by
  constructor
  · intro h
    obtain ⟨r, hr⟩ := h (fun _ _ => false)
    have h1 : m.c0.w * v.x + m.c1.w * v.y + m.c2.w * v.z + m.c3.w ≠ 0 := by dfd_bad hr [glm_project_z_zo]
    exact h1
  · rintro h1 o
    exact ⟨_, C72_project_z_zo v m h1⟩

theorem C72_ease_circ_in_iff (t : ℝ) :
    (∀ o : Orc, ∃ r : ℝ, (glm_ease_circ_in (ret t) : Dfd o) = ret r) ↔
      -1 ≤ t ∧
      t ≤ 1 := by
  constructor
  · intro h
    obtain ⟨r, hr⟩ := h (fun _ _ => false)
    have h1 : -1 ≤ t := by
      by_contra hn
      have c : lit 1 - t * t < 0 := by
        simp only [lit_real]
        push_cast
        nlinarith
      dfd_prop hr [glm_ease_circ_in]
    have h2 : t ≤ 1 := by
      by_contra hn
      have c : lit 1 - t * t < 0 := by
        simp only [lit_real]
        push_cast
        nlinarith
      dfd_prop hr [glm_ease_circ_in]
    exact ⟨h1, h2⟩
  · rintro ⟨h1, h2⟩ o
    exact ⟨_, C72_ease_circ_in t h1 h2⟩

theorem C72_ease_circ_out_iff (t : ℝ) :
    (∀ o : Orc, ∃ r : ℝ, (glm_ease_circ_out (ret t) : Dfd o) = ret r) ↔
      0 ≤ t ∧
      t ≤ 2 := by
  constructor
  · intro h
    obtain ⟨r, hr⟩ := h (fun _ _ => false)
    have h1 : 0 ≤ t := by
      by_contra hn
      have c : (lit 2 - t) * t < 0 := by
        simp only [lit_real]
        push_cast
        nlinarith
      dfd_prop hr [glm_ease_circ_out]
    have h2 : t ≤ 2 := by
      by_contra hn
      have c : (lit 2 - t) * t < 0 := by
        simp only [lit_real]
        push_cast
        nlinarith
      dfd_prop hr [glm_ease_circ_out]
    exact ⟨h1, h2⟩
  · rintro ⟨h1, h2⟩ o
    exact ⟨_, C72_ease_circ_out t h1 h2⟩

theorem C72_ease_circ_inout_iff (t : ℝ) :
    (∀ o : Orc, ∃ r : ℝ, (glm_ease_circ_inout (ret t) : Dfd o) = ret r) ↔
      -1 / 2 ≤ t ∧
      t ≤ 3 / 2 := by
  constructor
  · intro h
    obtain ⟨r, hr⟩ := h (fun _ _ => false)
    have h1 : -1 / 2 ≤ t := by
      by_contra hn
      have c : flt t (lit 0.5 : ℝ) = true := by
        simp only [flt, lit_real, decide_eq_true_eq]
        norm_num
        linarith
      have c' : lit 1 - lit 4 * (t * t) < 0 := by
        simp only [lit_real]
        push_cast
        nlinarith
      dfd_prop hr [glm_ease_circ_inout, c]
    have h2 : t ≤ 3 / 2 := by
      by_contra hn
      have c : ¬ flt t (lit 0.5 : ℝ) = true := by
        simp only [flt, lit_real, decide_eq_true_eq]
        norm_num
        linarith
      have c' : -(lit 2 * t - lit 3) * (lit 2 * t - lit 1) < 0 := by
        simp only [lit_real]
        push_cast
        nlinarith
      dfd_prop hr [glm_ease_circ_inout, c]
    exact ⟨h1, h2⟩
  · rintro ⟨h1, h2⟩ o
    exact ⟨_, C72_ease_circ_inout t h1 h2⟩

theorem C72_euler_angles_iff (m : M4 ℝ) :
    (∀ o : Orc, ∃ r : V3 ℝ, (glm_euler_angles (m.map ret) : V3 (Dfd o)) = r.map ret) ↔
      (-1 < m.c2.x → m.c2.x < 1 → ¬ (m.c2.y = 0 ∧ m.c2.z = 0) ∧ ¬ (m.c1.x = 0 ∧ m.c0.x = 0)) ∧
      (m.c2.x ≤ -1 ∨ 1 ≤ m.c2.x → ¬ (m.c0.y = 0 ∧ m.c1.y = 0)) := by
  constructor
  · intro h
    obtain ⟨r, hr⟩ := h (fun _ _ => false)
    have h1 : -1 < m.c2.x → m.c2.x < 1 → ¬ (m.c2.y = 0 ∧ m.c2.z = 0) ∧ ¬ (m.c1.x = 0 ∧ m.c0.x = 0) := by
      intro b1 b2
      have c1 : flt m.c2.x (lit 1 : ℝ) = true := by
        simpa only [flt, lit_real, decide_eq_true_eq, Rat.cast_one] using b2
      have c2 : flt (-lit 1 : ℝ) m.c2.x = true := by
        simpa only [flt, lit_real, decide_eq_true_eq, Rat.cast_one] using b1
      have c3 := b1.le
      have c4 := b2.le
      constructor
      · rintro ⟨d1, d2⟩
        have d : -m.c2.y = 0 ∧ m.c2.z = 0 := ⟨neg_eq_zero.2 d1, d2⟩
        dfd_prop hr [glm_euler_angles, c1, c2]
      · rintro ⟨d1, d2⟩
        have d : -m.c1.x = 0 ∧ m.c0.x = 0 := ⟨neg_eq_zero.2 d1, d2⟩
        dfd_prop hr [glm_euler_angles, c1, c2]
    have h2 : m.c2.x ≤ -1 ∨ 1 ≤ m.c2.x → ¬ (m.c0.y = 0 ∧ m.c1.y = 0) := by
      rintro b1 d
      by_cases c1 : flt m.c2.x (lit 1 : ℝ) = true
      · have c2 : ¬ flt (-lit 1 : ℝ) m.c2.x = true := by
          simp only [flt, lit_real, decide_eq_true_eq, Rat.cast_one] at c1 ⊢
          rcases b1 with b1 | b1 <;> linarith
        dfd_prop hr [glm_euler_angles, c1, c2]
      · dfd_prop hr [glm_euler_angles, c1]
    exact ⟨h1, h2⟩
  · rintro ⟨h1, h2⟩ o
    exact ⟨_, C72_euler_angles m h1 h2⟩

theorem C72_frustum_corners_iff (invMat : M4 ℝ) :
    (∀ o : Orc, ∃ r : M8x4 ℝ, (glm_frustum_corners (invMat.map ret) : M8x4 (Dfd o)) = r.map ret) ↔
      (glm_mat4_mulv invMat ⟨-lit 1, -lit 1, -lit 1, lit 1⟩).w ≠ 0 ∧
      (glm_mat4_mulv invMat ⟨-lit 1, lit 1, -lit 1, lit 1⟩).w ≠ 0 ∧
      (glm_mat4_mulv invMat ⟨lit 1, lit 1, -lit 1, lit 1⟩).w ≠ 0 ∧
      (glm_mat4_mulv invMat ⟨lit 1, -lit 1, -lit 1, lit 1⟩).w ≠ 0 ∧
      (glm_mat4_mulv invMat ⟨-lit 1, -lit 1, lit 1, lit 1⟩).w ≠ 0 ∧
      (glm_mat4_mulv invMat ⟨-lit 1, lit 1, lit 1, lit 1⟩).w ≠ 0 ∧
      (glm_mat4_mulv invMat ⟨lit 1, lit 1, lit 1, lit 1⟩).w ≠ 0 ∧
      (glm_mat4_mulv invMat ⟨lit 1, -lit 1, lit 1, lit 1⟩).w ≠ 0 := by
  constructor
  · intro h
    obtain ⟨r, hr⟩ := h (fun _ _ => false)
    have h1 : (glm_mat4_mulv invMat ⟨-lit 1, -lit 1, -lit 1, lit 1⟩).w ≠ 0 := by dfd_bad hr [glm_frustum_corners]
    have h2 : (glm_mat4_mulv invMat ⟨-lit 1, lit 1, -lit 1, lit 1⟩).w ≠ 0 := by dfd_bad hr [glm_frustum_corners]
    have h3 : (glm_mat4_mulv invMat ⟨lit 1, lit 1, -lit 1, lit 1⟩).w ≠ 0 := by dfd_bad hr [glm_frustum_corners]
    have h4 : (glm_mat4_mulv invMat ⟨lit 1, -lit 1, -lit 1, lit 1⟩).w ≠ 0 := by dfd_bad hr [glm_frustum_corners]
    have h5 : (glm_mat4_mulv invMat ⟨-lit 1, -lit 1, lit 1, lit 1⟩).w ≠ 0 := by dfd_bad hr [glm_frustum_corners]
    have h6 : (glm_mat4_mulv invMat ⟨-lit 1, lit 1, lit 1, lit 1⟩).w ≠ 0 := by dfd_bad hr [glm_frustum_corners]
    have h7 : (glm_mat4_mulv invMat ⟨lit 1, lit 1, lit 1, lit 1⟩).w ≠ 0 := by dfd_bad hr [glm_frustum_corners]
    have h8 : (glm_mat4_mulv invMat ⟨lit 1, -lit 1, lit 1, lit 1⟩).w ≠ 0 := by dfd_bad hr [glm_frustum_corners]
    exact ⟨h1, h2, h3, h4, h5, h6, h7, h8⟩
  · rintro ⟨h1, h2, h3, h4, h5, h6, h7, h8⟩ o
    exact ⟨_, C72_frustum_corners invMat h1 h2 h3 h4 h5 h6 h7 h8⟩

theorem C72_mat2_inv_iff (mat : M2 ℝ) :
    (∀ o : Orc, ∃ r : M2 ℝ, (glm_mat2_inv (mat.map ret) : M2 (Dfd o)) = r.map ret) ↔
      glm_mat2_det mat ≠ 0 := by
  constructor
  · intro h
    obtain ⟨r, hr⟩ := h (fun _ _ => false)
    have h1 : glm_mat2_det mat ≠ 0 := by dfd_bad hr [glm_mat2_inv]
    exact h1
  · rintro h1 o
    exact ⟨_, C72_mat2_inv mat h1⟩

theorem C72_mat3_inv_iff (mat : M3 ℝ) :
    (∀ o : Orc, ∃ r : M3 ℝ, (glm_mat3_inv (mat.map ret) : M3 (Dfd o)) = r.map ret) ↔
      glm_mat3_det mat ≠ 0 := by
  constructor
  · intro h
    obtain ⟨r, hr⟩ := h (fun _ _ => false)
    have h1 : glm_mat3_det mat ≠ 0 := by dfd_bad hr [glm_mat3_inv]
    exact h1
  · rintro h1 o
    exact ⟨_, C72_mat3_inv mat h1⟩

theorem C72_mat4_inv_iff (mat : M4 ℝ) :
    (∀ o : Orc, ∃ r : M4 ℝ, (glm_mat4_inv (mat.map ret) : M4 (Dfd o)) = r.map ret) ↔
      glm_mat4_det mat ≠ 0 := by
  constructor
  · intro h
    obtain ⟨r, hr⟩ := h (fun _ _ => false)
    have h1 : glm_mat4_det mat ≠ 0 := by dfd_bad hr [glm_mat4_inv]
    exact h1
  · rintro h1 o
    exact ⟨_, C72_mat4_inv mat h1⟩

theorem C72_mat4_inv_fast_iff (mat : M4 ℝ) :
    (∀ o : Orc, ∃ r : M4 ℝ, (glm_mat4_inv_fast (mat.map ret) : M4 (Dfd o)) = r.map ret) ↔
      glm_mat4_det mat ≠ 0 := by
  constructor
  · intro h
    obtain ⟨r, hr⟩ := h (fun _ _ => false)
    have h1 : glm_mat4_det mat ≠ 0 := by dfd_bad hr [glm_mat4_inv_fast, glm_mat4_inv]
    exact h1
  · rintro h1 o
    exact ⟨_, C72_mat4_inv_fast mat h1⟩

theorem C72_unprojecti_iff (pos : V3 ℝ) (invMat : M4 ℝ) (vp : V4 ℝ) :
    (∀ o : Orc, ∃ r : V3 ℝ, (glm_unprojecti (pos.map ret) (invMat.map ret) (vp.map ret) : V3 (Dfd o)) = r.map ret) ↔
      vp.z ≠ 0 ∧
      vp.w ≠ 0 ∧
      (glm_mat4_mulv invMat ⟨(lit 2) * (pos.x - vp.x) / vp.z - (lit 1), (lit 2) * (pos.y - vp.y) / vp.w - (lit 1), (lit 2) * pos.z - (lit 1), lit 1⟩).w ≠ 0 := by
  constructor
  · intro h
    obtain ⟨r, hr⟩ := h (fun _ _ => false)
    have h1 : vp.z ≠ 0 := by dfd_bad hr [glm_unprojecti, glm_unprojecti_no]
    have h2 : vp.w ≠ 0 := by dfd_bad hr [glm_unprojecti, glm_unprojecti_no]
    have h3 : (glm_mat4_mulv invMat ⟨(lit 2) * (pos.x - vp.x) / vp.z - (lit 1), (lit 2) * (pos.y - vp.y) / vp.w - (lit 1), (lit 2) * pos.z - (lit 1), lit 1⟩).w ≠ 0 := by dfd_bad hr [glm_unprojecti, glm_unprojecti_no]
    exact ⟨h1, h2, h3⟩
  · rintro ⟨h1, h2, h3⟩ o
    exact ⟨_, C72_unprojecti pos invMat vp h1 h2 h3⟩

theorem C72_unproject_iff (pos : V3 ℝ) (m : M4 ℝ) (vp : V4 ℝ) :
    (∀ o : Orc, ∃ r : V3 ℝ, (glm_unproject (pos.map ret) (m.map ret) (vp.map ret) : V3 (Dfd o)) = r.map ret) ↔
      glm_mat4_det m ≠ 0 ∧
      vp.z ≠ 0 ∧
      vp.w ≠ 0 ∧
      (glm_mat4_mulv (glm_mat4_inv m) ⟨(lit 2) * (pos.x - vp.x) / vp.z - (lit 1), (lit 2) * (pos.y - vp.y) / vp.w - (lit 1), (lit 2) * pos.z - (lit 1), lit 1⟩).w ≠ 0 := by
  constructor
  · intro h
    obtain ⟨r, hr⟩ := h (fun _ _ => false)
    have h1 : glm_mat4_det m ≠ 0 := by dfd_bad hr [glm_unproject, glm_unprojecti, glm_unprojecti_no, glm_mat4_inv]
    have h2 : vp.z ≠ 0 := by dfd_bad hr [glm_unproject, glm_unprojecti, glm_unprojecti_no, glm_mat4_inv]
    have h3 : vp.w ≠ 0 := by dfd_bad hr [glm_unproject, glm_unprojecti, glm_unprojecti_no, glm_mat4_inv]
    have h4 : (glm_mat4_mulv (glm_mat4_inv m) ⟨(lit 2) * (pos.x - vp.x) / vp.z - (lit 1), (lit 2) * (pos.y - vp.y) / vp.w - (lit 1), (lit 2) * pos.z - (lit 1), lit 1⟩).w ≠ 0 := by
      dfd_bad hr [glm_unproject, glm_unprojecti, glm_unprojecti_no]
    exact ⟨h1, h2, h3, h4⟩
  · rintro ⟨h1, h2, h3, h4⟩ o
    exact ⟨_, C72_unproject pos m vp h1 h2 h3 h4⟩

theorem C72_project_iff (pos : V3 ℝ) (m : M4 ℝ) (vp : V4 ℝ) :
    (∀ o : Orc, ∃ r : V3 ℝ, (glm_project (pos.map ret) (m.map ret) (vp.map ret) : V3 (Dfd o)) = r.map ret) ↔
      (glm_mat4_mulv m (glm_vec4 pos (lit 1))).w ≠ 0 := by
  constructor
  · intro h
    obtain ⟨r, hr⟩ := h (fun _ _ => false)
    have h1 : (glm_mat4_mulv m (glm_vec4 pos (lit 1))).w ≠ 0 := by dfd_bad hr [glm_project, glm_project_no]
    exact h1
  · rintro h1 o
    exact ⟨_, C72_project pos m vp h1⟩

theorem C72_project_z_iff (v : V3 ℝ) (m : M4 ℝ) :
    (∀ o : Orc, ∃ r : ℝ, (glm_project_z (v.map ret) (m.map ret) : Dfd o) = ret r) ↔
      m.c0.w * v.x + m.c1.w * v.y + m.c2.w * v.z + m.c3.w ≠ 0 := by
  constructor
  · intro h
    obtain ⟨r, hr⟩ := h (fun _ _ => false)
    have h1 : m.c0.w * v.x + m.c1.w * v.y + m.c2.w * v.z + m.c3.w ≠ 0 := by dfd_bad hr [glm_project_z, glm_project_z_no]
    exact h1
  · rintro h1 o
    exact ⟨_, C72_project_z v m h1⟩

theorem C72_quat_inv_iff (q : V4 ℝ) :
    (∀ o : Orc, ∃ r : V4 ℝ, (glm_quat_inv (q.map ret) : V4 (Dfd o)) = r.map ret) ↔
      glm_vec4_norm2 q ≠ 0 := by
  constructor
  · intro h
    obtain ⟨r, hr⟩ := h (fun _ _ => false)
    have h1 : glm_vec4_norm2 q ≠ 0 := by dfd_bad hr [glm_quat_inv]
    exact h1
  · rintro h1 o
    exact ⟨_, C72_quat_inv q h1⟩

theorem C72_quat_angle_iff (q : V4 ℝ) :
    (∀ o : Orc, ∃ r : ℝ, (glm_quat_angle (q.map ret) : Dfd o) = ret r) ↔
      ¬ (glm_quat_imaglen q = 0 ∧ glm_quat_real q = 0) := by
  constructor
  · intro h
    obtain ⟨r, hr⟩ := h (fun _ _ => false)
    have h1 : ¬ (glm_quat_imaglen q = 0 ∧ glm_quat_real q = 0) := by dfd_bad hr [glm_quat_angle]
    exact h1
  · rintro h1 o
    exact ⟨_, C72_quat_angle q h1⟩

theorem C72_ray_sphere_iff (origin : V3 ℝ) (dir : V3 ℝ) (s : V4 ℝ) (t1 : ℝ) (t2 : ℝ) :
    (∀ o : Orc, ∃ r : Bool × ℝ × ℝ, (glm_ray_sphere (origin.map ret) (dir.map ret) (s.map ret) (ret t1) (ret t2) : Bool × Dfd o × Dfd o) = (r.1, ret r.2.1, ret r.2.2)) ↔
      ¬ (glm_vec3_dot dir (glm_vec3_sub ⟨s.x, s.y, s.z⟩ origin) = 0 ∧ s.w * s.w - glm_vec3_norm2 (glm_vec3_mulsubs dir (glm_vec3_dot dir (glm_vec3_sub ⟨s.x, s.y, s.z⟩ origin)) (glm_vec3_sub ⟨s.x, s.y, s.z⟩ origin)) = 0) := by
  constructor
  · intro h
    obtain ⟨r, hr⟩ := h (fun _ _ => false)
    have h1 : ¬ (glm_vec3_dot dir (glm_vec3_sub ⟨s.x, s.y, s.z⟩ origin) = 0 ∧ s.w * s.w - glm_vec3_norm2 (glm_vec3_mulsubs dir (glm_vec3_dot dir (glm_vec3_sub ⟨s.x, s.y, s.z⟩ origin)) (glm_vec3_sub ⟨s.x, s.y, s.z⟩ origin)) = 0) := by
      rintro ⟨d1, d2⟩
      have c1 : ¬ flt (s.w * s.w - glm_vec3_norm2 (glm_vec3_mulsubs dir (glm_vec3_dot dir (glm_vec3_sub ⟨s.x, s.y, s.z⟩
          origin)) (glm_vec3_sub ⟨s.x, s.y, s.z⟩ origin))) (lit 0 : ℝ) = true := by
        rw [d2]
        simp [flt, lit_real]
      have e := nonneg_of_not_flt c1
      have c : (if fle (lit 0 : ℝ) (glm_vec3_dot dir (glm_vec3_sub ⟨s.x, s.y, s.z⟩ origin)) = true then
          glm_vec3_dot dir (glm_vec3_sub ⟨s.x, s.y, s.z⟩ origin) + sqrtf (s.w * s.w - glm_vec3_norm2 (glm_vec3_mulsubs
            dir (glm_vec3_dot dir (glm_vec3_sub ⟨s.x, s.y, s.z⟩ origin)) (glm_vec3_sub ⟨s.x, s.y, s.z⟩ origin)))
          else glm_vec3_dot dir (glm_vec3_sub ⟨s.x, s.y, s.z⟩ origin) - sqrtf (s.w * s.w - glm_vec3_norm2
            (glm_vec3_mulsubs dir (glm_vec3_dot dir (glm_vec3_sub ⟨s.x, s.y, s.z⟩ origin))
            (glm_vec3_sub ⟨s.x, s.y, s.z⟩ origin)))) = 0 := by
        rw [d2, d1]
        have : sqrtf (0 : ℝ) = 0 := Real.sqrt_zero
        rw [this]
        simp
      dfd_prop hr [glm_ray_sphere, c1]
      split_ifs at hr <;> dfd_prop hr [glm_ray_sphere]
    exact h1
  · rintro h1 o
    exact ⟨_, C72_ray_sphere origin dir s t1 t2 h1⟩

theorem C72_smoothstep_iff (edge0 : ℝ) (edge1 : ℝ) (x : ℝ) :
    (∀ o : Orc, ∃ r : ℝ, (glm_smoothstep (ret edge0) (ret edge1) (ret x) : Dfd o) = ret r) ↔
      edge0 ≠ edge1 := by
  constructor
  · intro h
    obtain ⟨r, hr⟩ := h (fun _ _ => true)
    have h1 : edge0 ≠ edge1 := by dfd_bad hr [glm_smoothstep]
    exact h1
  · rintro h1 o
    exact ⟨_, C72_smoothstep edge0 edge1 x h1⟩

theorem C72_vec2_div_iff (a : V2 ℝ) (b : V2 ℝ) :
    (∀ o : Orc, ∃ r : V2 ℝ, (glm_vec2_div (a.map ret) (b.map ret) : V2 (Dfd o)) = r.map ret) ↔
      b.x ≠ 0 ∧
      b.y ≠ 0 := by
  constructor
  · intro h
    obtain ⟨r, hr⟩ := h (fun _ _ => false)
    have h1 : b.x ≠ 0 := by dfd_bad hr [glm_vec2_div]
    have h2 : b.y ≠ 0 := by dfd_bad hr [glm_vec2_div]
    exact ⟨h1, h2⟩
  · rintro ⟨h1, h2⟩ o
    exact ⟨_, C72_vec2_div a b h1 h2⟩

theorem C72_vec2_divs_iff (v : V2 ℝ) (s : ℝ) :
    (∀ o : Orc, ∃ r : V2 ℝ, (glm_vec2_divs (v.map ret) (ret s) : V2 (Dfd o)) = r.map ret) ↔
      s ≠ 0 := by
  constructor
  · intro h
    obtain ⟨r, hr⟩ := h (fun _ _ => false)
    have h1 : s ≠ 0 := by dfd_bad hr [glm_vec2_divs]
    exact h1
  · rintro h1 o
    exact ⟨_, C72_vec2_divs v s h1⟩

theorem C72_vec2_mods_iff (v : V2 ℝ) (s : ℝ) :
    (∀ o : Orc, ∃ r : V2 ℝ, (glm_vec2_mods (v.map ret) (ret s) : V2 (Dfd o)) = r.map ret) ↔
      s ≠ 0 := by
  constructor
  · intro h
    obtain ⟨r, hr⟩ := h (fun _ _ => false)
    have h1 : s ≠ 0 := by dfd_bad hr [glm_vec2_mods]
    exact h1
  · rintro h1 o
    exact ⟨_, C72_vec2_mods v s h1⟩

theorem C72_vec2_sqrt_iff (v : V2 ℝ) :
    (∀ o : Orc, ∃ r : V2 ℝ, (glm_vec2_sqrt (v.map ret) : V2 (Dfd o)) = r.map ret) ↔
      0 ≤ v.x ∧
      0 ≤ v.y := by
  constructor
  · intro h
    obtain ⟨r, hr⟩ := h (fun _ _ => false)
    have h1 : 0 ≤ v.x := by dfd_bad hr [glm_vec2_sqrt]
    have h2 : 0 ≤ v.y := by dfd_bad hr [glm_vec2_sqrt]
    exact ⟨h1, h2⟩
  · rintro ⟨h1, h2⟩ o
    exact ⟨_, C72_vec2_sqrt v h1 h2⟩

theorem C72_vec2_complex_div_iff (a : V2 ℝ) (b : V2 ℝ) :
    (∀ o : Orc, ∃ r : V2 ℝ, (glm_vec2_complex_div (a.map ret) (b.map ret) : V2 (Dfd o)) = r.map ret) ↔
      ¬ (b.x = 0 ∧ b.y = 0) := by
  constructor
  · intro h
    obtain ⟨r, hr⟩ := h (fun _ _ => false)
    have h1 : ¬ (b.x = 0 ∧ b.y = 0) := by
      rintro ⟨c1, c2⟩
      have c : b.x * b.x + b.y * b.y = 0 := by rw [c1, c2]; ring
      dfd_prop hr [glm_vec2_complex_div]
    exact h1
  · rintro h1 o
    exact ⟨_, C72_vec2_complex_div a b h1⟩

theorem C72_vec3_div_iff (a : V3 ℝ) (b : V3 ℝ) :
    (∀ o : Orc, ∃ r : V3 ℝ, (glm_vec3_div (a.map ret) (b.map ret) : V3 (Dfd o)) = r.map ret) ↔
      b.x ≠ 0 ∧
      b.y ≠ 0 ∧
      b.z ≠ 0 := by
  constructor
  · intro h
    obtain ⟨r, hr⟩ := h (fun _ _ => false)
    have h1 : b.x ≠ 0 := by dfd_bad hr [glm_vec3_div]
    have h2 : b.y ≠ 0 := by dfd_bad hr [glm_vec3_div]
    have h3 : b.z ≠ 0 := by dfd_bad hr [glm_vec3_div]
    exact ⟨h1, h2, h3⟩
  · rintro ⟨h1, h2, h3⟩ o
    exact ⟨_, C72_vec3_div a b h1 h2 h3⟩

theorem C72_vec3_divs_iff (v : V3 ℝ) (s : ℝ) :
    (∀ o : Orc, ∃ r : V3 ℝ, (glm_vec3_divs (v.map ret) (ret s) : V3 (Dfd o)) = r.map ret) ↔
      s ≠ 0 := by
  constructor
  · intro h
    obtain ⟨r, hr⟩ := h (fun _ _ => false)
    have h1 : s ≠ 0 := by dfd_bad hr [glm_vec3_divs]
    exact h1
  · rintro h1 o
    exact ⟨_, C72_vec3_divs v s h1⟩

theorem C72_vec3_angle_iff (a : V3 ℝ) (b : V3 ℝ) :
    (∀ o : Orc, ∃ r : ℝ, (glm_vec3_angle (a.map ret) (b.map ret) : Dfd o) = ret r) ↔
      glm_vec3_norm a ≠ 0 ∧
      glm_vec3_norm b ≠ 0 := by
  constructor
  · intro h
    obtain ⟨r, hr⟩ := h (fun _ _ => false)
    have h1 : glm_vec3_norm a ≠ 0 := by dfd_bad hr [glm_vec3_angle]
    have h2 : glm_vec3_norm b ≠ 0 := by dfd_bad hr [glm_vec3_angle]
    exact ⟨h1, h2⟩
  · rintro ⟨h1, h2⟩ o
    exact ⟨_, C72_vec3_angle a b h1 h2⟩

theorem C72_vec3_proj_iff (a : V3 ℝ) (b : V3 ℝ) :
    (∀ o : Orc, ∃ r : V3 ℝ, (glm_vec3_proj (a.map ret) (b.map ret) : V3 (Dfd o)) = r.map ret) ↔
      glm_vec3_norm2 b ≠ 0 := by
  constructor
  · intro h
    obtain ⟨r, hr⟩ := h (fun _ _ => false)
    have h1 : glm_vec3_norm2 b ≠ 0 := by dfd_bad hr [glm_vec3_proj]
    exact h1
  · rintro h1 o
    exact ⟨_, C72_vec3_proj a b h1⟩

theorem C72_vec3_smoothstep_uni_iff (edge0 : ℝ) (edge1 : ℝ) (x : V3 ℝ) :
    (∀ o : Orc, ∃ r : V3 ℝ, (glm_vec3_smoothstep_uni (ret edge0) (ret edge1) (x.map ret) : V3 (Dfd o)) = r.map ret) ↔
      edge0 ≠ edge1 := by
  constructor
  · intro h
    obtain ⟨r, hr⟩ := h (fun _ _ => true)
    have h1 : edge0 ≠ edge1 := by dfd_bad hr [glm_vec3_smoothstep_uni, glm_smoothstep]
    exact h1
  · rintro h1 o
    exact ⟨_, C72_vec3_smoothstep_uni edge0 edge1 x h1⟩

theorem C72_vec3_smoothstep_iff (edge0 : V3 ℝ) (edge1 : V3 ℝ) (x : V3 ℝ) :
    (∀ o : Orc, ∃ r : V3 ℝ, (glm_vec3_smoothstep (edge0.map ret) (edge1.map ret) (x.map ret) : V3 (Dfd o)) = r.map ret) ↔
      edge0.x ≠ edge1.x ∧
      edge0.y ≠ edge1.y ∧
      edge0.z ≠ edge1.z := by
  constructor
  · intro h
    obtain ⟨r, hr⟩ := h (fun _ _ => true)
    have h1 : edge0.x ≠ edge1.x := by dfd_bad hr [glm_vec3_smoothstep, glm_smoothstep]
    have h2 : edge0.y ≠ edge1.y := by dfd_bad hr [glm_vec3_smoothstep, glm_smoothstep]
    have h3 : edge0.z ≠ edge1.z := by dfd_bad hr [glm_vec3_smoothstep, glm_smoothstep]
    exact ⟨h1, h2, h3⟩
  · rintro ⟨h1, h2, h3⟩ o
    exact ⟨_, C72_vec3_smoothstep edge0 edge1 x h1 h2 h3⟩

theorem C72_vec3_mods_iff (v : V3 ℝ) (s : ℝ) :
    (∀ o : Orc, ∃ r : V3 ℝ, (glm_vec3_mods (v.map ret) (ret s) : V3 (Dfd o)) = r.map ret) ↔
      s ≠ 0 := by
  constructor
  · intro h
    obtain ⟨r, hr⟩ := h (fun _ _ => false)
    have h1 : s ≠ 0 := by dfd_bad hr [glm_vec3_mods]
    exact h1
  · rintro h1 o
    exact ⟨_, C72_vec3_mods v s h1⟩

theorem C72_vec3_sqrt_iff (v : V3 ℝ) :
    (∀ o : Orc, ∃ r : V3 ℝ, (glm_vec3_sqrt (v.map ret) : V3 (Dfd o)) = r.map ret) ↔
      0 ≤ v.x ∧
      0 ≤ v.y ∧
      0 ≤ v.z := by
  constructor
  · intro h
    obtain ⟨r, hr⟩ := h (fun _ _ => false)
    have h1 : 0 ≤ v.x := by dfd_bad hr [glm_vec3_sqrt]
    have h2 : 0 ≤ v.y := by dfd_bad hr [glm_vec3_sqrt]
    have h3 : 0 ≤ v.z := by dfd_bad hr [glm_vec3_sqrt]
    exact ⟨h1, h2, h3⟩
  · rintro ⟨h1, h2, h3⟩ o
    exact ⟨_, C72_vec3_sqrt v h1 h2 h3⟩

theorem C72_vec4_div_iff (a : V4 ℝ) (b : V4 ℝ) :
    (∀ o : Orc, ∃ r : V4 ℝ, (glm_vec4_div (a.map ret) (b.map ret) : V4 (Dfd o)) = r.map ret) ↔
      b.x ≠ 0 ∧
      b.y ≠ 0 ∧
      b.z ≠ 0 ∧
      b.w ≠ 0 := by
  constructor
  · intro h
    obtain ⟨r, hr⟩ := h (fun _ _ => false)
    have h1 : b.x ≠ 0 := by dfd_bad hr [glm_vec4_div]
    have h2 : b.y ≠ 0 := by dfd_bad hr [glm_vec4_div]
    have h3 : b.z ≠ 0 := by dfd_bad hr [glm_vec4_div]
    have h4 : b.w ≠ 0 := by dfd_bad hr [glm_vec4_div]
    exact ⟨h1, h2, h3, h4⟩
  · rintro ⟨h1, h2, h3, h4⟩ o
    exact ⟨_, C72_vec4_div a b h1 h2 h3 h4⟩

theorem C72_vec4_divs_iff (v : V4 ℝ) (s : ℝ) :
    (∀ o : Orc, ∃ r : V4 ℝ, (glm_vec4_divs (v.map ret) (ret s) : V4 (Dfd o)) = r.map ret) ↔
      s ≠ 0 := by
  constructor
  · intro h
    obtain ⟨r, hr⟩ := h (fun _ _ => false)
    have h1 : s ≠ 0 := by dfd_bad hr [glm_vec4_divs]
    exact h1
  · rintro h1 o
    exact ⟨_, C72_vec4_divs v s h1⟩

theorem C72_vec4_smoothstep_uni_iff (edge0 : ℝ) (edge1 : ℝ) (x : V4 ℝ) :
    (∀ o : Orc, ∃ r : V4 ℝ, (glm_vec4_smoothstep_uni (ret edge0) (ret edge1) (x.map ret) : V4 (Dfd o)) = r.map ret) ↔
      edge0 ≠ edge1 := by
  constructor
  · intro h
    obtain ⟨r, hr⟩ := h (fun _ _ => true)
    have h1 : edge0 ≠ edge1 := by dfd_bad hr [glm_vec4_smoothstep_uni, glm_smoothstep]
    exact h1
  · rintro h1 o
    exact ⟨_, C72_vec4_smoothstep_uni edge0 edge1 x h1⟩

theorem C72_vec4_smoothstep_iff (edge0 : V4 ℝ) (edge1 : V4 ℝ) (x : V4 ℝ) :
    (∀ o : Orc, ∃ r : V4 ℝ, (glm_vec4_smoothstep (edge0.map ret) (edge1.map ret) (x.map ret) : V4 (Dfd o)) = r.map ret) ↔
      edge0.x ≠ edge1.x ∧
      edge0.y ≠ edge1.y ∧
      edge0.z ≠ edge1.z ∧
      edge0.w ≠ edge1.w := by
  constructor
  · intro h
    obtain ⟨r, hr⟩ := h (fun _ _ => true)
    have h1 : edge0.x ≠ edge1.x := by dfd_bad hr [glm_vec4_smoothstep, glm_smoothstep]
    have h2 : edge0.y ≠ edge1.y := by dfd_bad hr [glm_vec4_smoothstep, glm_smoothstep]
    have h3 : edge0.z ≠ edge1.z := by dfd_bad hr [glm_vec4_smoothstep, glm_smoothstep]
    have h4 : edge0.w ≠ edge1.w := by dfd_bad hr [glm_vec4_smoothstep, glm_smoothstep]
    exact ⟨h1, h2, h3, h4⟩
  · rintro ⟨h1, h2, h3, h4⟩ o
    exact ⟨_, C72_vec4_smoothstep edge0 edge1 x h1 h2 h3 h4⟩

theorem C72_vec4_mods_iff (v : V4 ℝ) (s : ℝ) :
    (∀ o : Orc, ∃ r : V4 ℝ, (glm_vec4_mods (v.map ret) (ret s) : V4 (Dfd o)) = r.map ret) ↔
      s ≠ 0 := by
  constructor
  · intro h
    obtain ⟨r, hr⟩ := h (fun _ _ => false)
    have h1 : s ≠ 0 := by dfd_bad hr [glm_vec4_mods]
    exact h1
  · rintro h1 o
    exact ⟨_, C72_vec4_mods v s h1⟩

theorem C72_vec4_sqrt_iff (v : V4 ℝ) :
    (∀ o : Orc, ∃ r : V4 ℝ, (glm_vec4_sqrt (v.map ret) : V4 (Dfd o)) = r.map ret) ↔
      0 ≤ v.x ∧
      0 ≤ v.y ∧
      0 ≤ v.z ∧
      0 ≤ v.w := by
  constructor
  · intro h
    obtain ⟨r, hr⟩ := h (fun _ _ => false)
    have h1 : 0 ≤ v.x := by dfd_bad hr [glm_vec4_sqrt]
    have h2 : 0 ≤ v.y := by dfd_bad hr [glm_vec4_sqrt]
    have h3 : 0 ≤ v.z := by dfd_bad hr [glm_vec4_sqrt]
    have h4 : 0 ≤ v.w := by dfd_bad hr [glm_vec4_sqrt]
    exact ⟨h1, h2, h3, h4⟩
  · rintro ⟨h1, h2, h3, h4⟩ o
    exact ⟨_, C72_vec4_sqrt v h1 h2 h3 h4⟩

end Cglm
