import Verif.Props.C09

/-! # C15: the quaternion between two directions

The code has three regions in `c = a·b`: `c ≥ 1 - 1e-5` returns the identity, `c < -1 + 1e-5` a half turn about some
axis orthogonal to `a`, and in between the exact half-angle formula. -/

namespace Cglm
open Quaternion

/-- `glm_vec3_ortho` of a unit vector is orthogonal to it and not zero -/
theorem ortho_dot (a : V3 ℝ) : a.dot (glm_vec3_ortho a) = 0 := by
  simp only [V3.dot, glm_vec3_ortho, glm_vec3_copy]; ring
theorem ortho_ne_zero (a : V3 ℝ) (ha : a.dot a = 1) : glm_vec3_ortho a ≠ ⟨0, 0, 0⟩ := by
  intro h
  simp only [glm_vec3_ortho, glm_vec3_copy, fabsf_real, modfFrac_real, lit_scientific, V3.mk.injEq] at h
  obtain ⟨h1, h2, -⟩ := h
  have hy : a.y = 0 := by linarith
  simp only [V3.dot, hy] at ha
  have hu0 := abs_nonneg a.x
  have hx2 : |a.x| * |a.x| = a.x * a.x := abs_mul_abs_self a.x
  have hz2 : |a.z| * |a.z| = a.z * a.z := abs_mul_abs_self a.z
  have hz0 := abs_nonneg a.z
  have hu1 : |a.x| ≤ 1 := by nlinarith [mul_self_nonneg a.z]
  have hz1 : |a.z| ≤ 1 := by nlinarith [mul_self_nonneg a.x]
  have htr : rtrunc (|a.x| + 0.5) = if |a.x| < 1/2 then 0 else 1 := by
    unfold rtrunc
    rw [if_pos (by norm_num; linarith)]
    split_ifs with h
    · have : ⌊|a.x| + 0.5⌋ = 0 := by rw [Int.floor_eq_iff]; norm_num; constructor <;> linarith
      rw [this]; simp
    · have : ⌊|a.x| + 0.5⌋ = 1 := by rw [Int.floor_eq_iff]; norm_num; constructor <;> linarith
      rw [this]; simp
  rw [htr] at h2
  split_ifs at h2 with hc
  · have e : |a.x| = (|a.x| + 1/2) * |a.z| := by
      have : a.x = (|a.x| + 1/2) * a.z := by norm_num at h2; linarith
      conv_lhs => rw [this]
      rw [abs_mul, abs_of_nonneg (by linarith : (0:ℝ) ≤ |a.x| + 1/2)]
    have hsq : |a.x| * |a.x| = (|a.x| + 1/2) * (|a.x| + 1/2) * (|a.z| * |a.z|) := by
      conv_lhs => rw [e]
      ring
    have hz3 : 3/4 ≤ |a.z| * |a.z| := by nlinarith
    have : (|a.x| + 1/2) * (|a.x| + 1/2) * (3/4) ≤ |a.x| * |a.x| := by
      rw [hsq]; exact mul_le_mul_of_nonneg_left hz3 (mul_self_nonneg _)
    nlinarith
  · have e : |a.x| = (|a.x| - 1/2) * |a.z| := by
      have : a.x = (|a.x| - 1/2) * a.z := by norm_num at h2; linarith
      conv_lhs => rw [this]
      rw [abs_mul, abs_of_nonneg (by linarith : (0:ℝ) ≤ |a.x| - 1/2)]
    have : (|a.x| - 1/2) * |a.z| ≤ |a.x| - 1/2 := mul_le_of_le_one_right (by linarith) hz1
    linarith

/-- if `Q a = b Q` for a non-zero quaternion then its normalization rotates `a` onto `b` -/
theorem rotatev_of_conj (Q : V4 ℝ) (a b : V3 ℝ) (hQ : Q.quat ≠ 0) (h : Q.quat * a.pure = b.pure * Q.quat) :
    glm_quat_rotatev (glm_quat_normalize Q) a = b := by
  obtain ⟨e, hu⟩ := C08_normalize Q hQ
  have hne : (glm_quat_normalize Q).quat ≠ 0 := by
    intro h0; rw [h0, norm_zero] at hu; exact zero_ne_one hu
  rw [← V3.pure_inj, C09_rotatev _ hne]
  have : (glm_quat_normalize Q).quat * a.pure = b.pure * (glm_quat_normalize Q).quat := by
    rw [e, smul_mul_assoc, h, mul_smul_comm]
  rw [this, mul_assoc, mul_inv_cancel₀ hne, mul_one]

/-- between the thresholds: a unit quaternion that rotates `a` exactly onto `b` -/
theorem C15_exact (a b : V3 ℝ) (ha : a.len = 1) (hb : b.len = 1)
    (h1 : -1 + 0.00001 ≤ a.dot b) (h2 : a.dot b < 1 - 0.00001) :
    ‖(glm_quat_from_vecs a b).quat‖ = 1 ∧ glm_quat_rotatev (glm_quat_from_vecs a b) a = b := by
  rw [V3.len_eq_one] at ha hb
  have e : glm_quat_from_vecs a b = glm_quat_normalize ⟨(a.cross b).x, (a.cross b).y, (a.cross b).z, 1 + a.dot b⟩ := by
    unfold glm_quat_from_vecs
    simp only [glm_vec3_dot_eq, glm_vec3_cross_eq, fle_real, flt_real, lit_one, lit_scientific, decide_eq_true_eq,
      not_le.mpr h2, not_lt.mpr h1, if_false]
    rfl
  have hne : (⟨(a.cross b).x, (a.cross b).y, (a.cross b).z, 1 + a.dot b⟩ : V4 ℝ).quat ≠ 0 := by
    intro h
    have := congrArg QuaternionAlgebra.re h
    simp at this
    norm_num at h1; linarith
  rw [e]
  refine ⟨(C08_normalize _ hne).2, rotatev_of_conj _ _ _ hne ?_⟩
  simp only [V3.dot] at ha hb
  ext <;> simp [V3.pure_re, V3.cross, V3.dot]
  · ring
  · linear_combination b.x * ha - a.x * hb
  · linear_combination b.y * ha - a.y * hb
  · linear_combination b.z * ha - a.z * hb

/-- near-parallel: the identity -/
theorem C15_parallel (a b : V3 ℝ) (h : 1 - 0.00001 ≤ a.dot b) : glm_quat_from_vecs a b = ⟨0, 0, 0, 1⟩ := by
  unfold glm_quat_from_vecs
  simp only [glm_vec3_dot_eq, fle_real, lit_one, lit_scientific, decide_eq_true_eq, h, if_true]
  ext <;> simp [cglm]
/-- near-antiparallel: a half turn, taking `a` to `-a` -/
theorem C15_opposite (a b : V3 ℝ) (ha : a.len = 1) (h : a.dot b < -1 + 0.00001) :
    ‖(glm_quat_from_vecs a b).quat‖ = 1 ∧ glm_quat_rotatev (glm_quat_from_vecs a b) a = a.smul (-1) := by
  rw [V3.len_eq_one] at ha
  have e : glm_quat_from_vecs a b =
      glm_quat_normalize ⟨(glm_vec3_ortho a).x, (glm_vec3_ortho a).y, (glm_vec3_ortho a).z, 0⟩ := by
    unfold glm_quat_from_vecs
    simp only [glm_vec3_dot_eq, fle_real, flt_real, lit_one, lit_zero, lit_scientific, decide_eq_true_eq,
      h, if_true]
    rw [if_neg (by norm_num at h ⊢; linarith)]
    rfl
  have hne : (⟨(glm_vec3_ortho a).x, (glm_vec3_ortho a).y, (glm_vec3_ortho a).z, 0⟩ : V4 ℝ).quat ≠ 0 := by
    intro h
    apply ortho_ne_zero a ha
    have h1 := congrArg QuaternionAlgebra.imI h
    have h2 := congrArg QuaternionAlgebra.imJ h
    have h3 := congrArg QuaternionAlgebra.imK h
    ext <;> simpa using by assumption
  rw [e]
  refine ⟨(C08_normalize _ hne).2, rotatev_of_conj _ _ _ hne ?_⟩
  have ho := ortho_dot a
  simp only [V3.dot] at ho
  ext <;> simp [V3.pure_re, V3.smul]
  · linarith
  · ring
  · ring
  · ring

/-- for all unit vectors: a unit quaternion, which takes `a` to within √(2e-5) of `b` -/
theorem C15_all (a b : V3 ℝ) (ha : a.len = 1) (hb : b.len = 1) :
    ‖(glm_quat_from_vecs a b).quat‖ = 1 ∧
    ((glm_quat_rotatev (glm_quat_from_vecs a b) a).sub b).dot ((glm_quat_rotatev (glm_quat_from_vecs a b) a).sub b) ≤ 0.00002 := by
  by_cases h2 : a.dot b < 1 - 0.00001
  · by_cases h1 : -1 + 0.00001 ≤ a.dot b
    · obtain ⟨u, r⟩ := C15_exact a b ha hb h1 h2
      refine ⟨u, ?_⟩
      rw [r]; simp [V3.sub, V3.dot]; norm_num
    · obtain ⟨u, r⟩ := C15_opposite a b ha (not_le.mp h1)
      refine ⟨u, ?_⟩
      rw [V3.len_eq_one] at ha hb
      rw [r]
      simp only [V3.sub, V3.dot, V3.smul] at *
      norm_num at h1 ⊢
      linarith
  · have e := C15_parallel a b (not_lt.mp h2)
    have hu : ‖(⟨0, 0, 0, 1⟩ : V4 ℝ).quat‖ = 1 := by rw [V4.unit_iff]; norm_num
    rw [e]
    refine ⟨hu, ?_⟩
    have : glm_quat_rotatev (⟨0, 0, 0, 1⟩ : V4 ℝ) a = a := by
      rw [C09_rotatev_mat3 _ hu, quat_mat3_hom _ ((V4.unit_iff _).mp hu)]
      ext <;> simp [cglm]
    rw [this]
    rw [V3.len_eq_one] at ha hb
    simp only [V3.sub, V3.dot] at *
    norm_num at h2 ⊢
    linarith
/-- exactly equal and exactly opposite vectors are handled exactly -/
theorem C15_equal_opposite (a : V3 ℝ) (ha : a.len = 1) :
    glm_quat_rotatev (glm_quat_from_vecs a a) a = a ∧
    glm_quat_rotatev (glm_quat_from_vecs a (a.smul (-1))) a = a.smul (-1) := by
  have ha' := V3.len_eq_one.mp ha
  constructor
  · rw [C15_parallel a a (by rw [ha']; norm_num)]
    have hu : ‖(⟨0, 0, 0, 1⟩ : V4 ℝ).quat‖ = 1 := by rw [V4.unit_iff]; norm_num
    rw [C09_rotatev_mat3 _ hu, quat_mat3_hom _ ((V4.unit_iff _).mp hu)]
    ext <;> simp [cglm]
  · refine (C15_opposite a _ ha ?_).2
    have : a.dot (a.smul (-1)) = - a.dot a := by simp only [V3.dot, V3.smul]; ring
    rw [this, ha']; norm_num

/-- unit vectors at a right angle satisfy the hypotheses of `C15_exact` -/
example : (⟨1, 0, 0⟩ : V3 ℝ).len = 1 ∧ (⟨0, 3/5, 4/5⟩ : V3 ℝ).len = 1 ∧
    -1 + 0.00001 ≤ (⟨1, 0, 0⟩ : V3 ℝ).dot ⟨0, 3/5, 4/5⟩ ∧ (⟨1, 0, 0⟩ : V3 ℝ).dot ⟨0, 3/5, 4/5⟩ < 1 - 0.00001 := by
  simp only [V3.len_eq_one, V3.dot]; norm_num

end Cglm
