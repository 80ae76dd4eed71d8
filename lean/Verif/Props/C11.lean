import Verif.RotLemmas

/-! # C11: rotation matrix to quaternion and back -/

namespace Cglm
open Quaternion

/-- the quaternion of a rotation matrix is a unit quaternion, and its matrix is the one given -/
theorem C11_mat3 (m : M3 ℝ) (hm : m.IsRotation) :
    ‖(glm_mat3_quat m).quat‖ = 1 ∧ glm_quat_mat3 (glm_mat3_quat m) = m := by
  have H := hm.eqs
  unfold glm_mat3_quat
  simp only [fle_real, lit_zero, lit_one, lit_scientific, decide_eq_true_eq, Bool.and_eq_true, sqrtf_real]
  have half : (0.5 : ℝ) = 1 / 2 := by norm_num
  simp only [half]
  split_ifs with h0 h1 h2
  · obtain ⟨p1, p2, p3, p4, p5, p6⟩ := H.minor_w
    have hk : 0 < 1 + m.c0.x + m.c1.y + m.c2.z := by linarith
    rw [show 1 + (m.c0.x + m.c1.y + m.c2.z) = 1 + m.c0.x + m.c1.y + m.c2.z by ring]
    generalize hr : √(1 + m.c0.x + m.c1.y + m.c2.z) = r
    have hr0 : r ≠ 0 := by rw [← hr]; exact (Real.sqrt_pos.mpr hk).ne'
    have hrr : r * r = 1 + m.c0.x + m.c1.y + m.c2.z := by rw [← hr]; exact Real.mul_self_sqrt hk.le
    apply quat_of_outer <;> simp only []
    · exact outer_step hk hrr hr0 p1
    · exact outer_step hk hrr hr0 p2
    · exact outer_step hk hrr hr0 p3
    · field_simp; norm_num
    · exact outer_step hk hrr hr0 p4
    · exact outer_step hk hrr hr0 p5
    · field_simp; norm_num
    · exact outer_step hk hrr hr0 p6
    · field_simp; norm_num
    · linear_combination hrr
  · obtain ⟨p1, p2, p3, p4, p5, p6⟩ := H.minor_x
    have hk : 0 < 1 + m.c0.x - m.c1.y - m.c2.z := by linarith
    rw [show 1 - m.c1.y - m.c2.z + m.c0.x = 1 + m.c0.x - m.c1.y - m.c2.z by ring]
    generalize hr : √(1 + m.c0.x - m.c1.y - m.c2.z) = r
    have hr0 : r ≠ 0 := by rw [← hr]; exact (Real.sqrt_pos.mpr hk).ne'
    have hrr : r * r = 1 + m.c0.x - m.c1.y - m.c2.z := by rw [← hr]; exact Real.mul_self_sqrt hk.le
    apply quat_of_outer <;> simp only []
    · linear_combination hrr
    · field_simp; norm_num
    · field_simp; norm_num
    · field_simp; norm_num
    · exact outer_step hk hrr hr0 p1
    · exact outer_step hk hrr hr0 p2
    · exact outer_step hk hrr hr0 p3
    · exact outer_step hk hrr hr0 p4
    · exact outer_step hk hrr hr0 p5
    · exact outer_step hk hrr hr0 p6
  · obtain ⟨p1, p2, p3, p4, p5, p6⟩ := H.minor_y
    have hk : 0 < 1 - m.c0.x + m.c1.y - m.c2.z := by
      by_contra hc; exact h1 ⟨by linarith, by linarith⟩
    rw [show 1 - m.c0.x - m.c2.z + m.c1.y = 1 - m.c0.x + m.c1.y - m.c2.z by ring]
    generalize hr : √(1 - m.c0.x + m.c1.y - m.c2.z) = r
    have hr0 : r ≠ 0 := by rw [← hr]; exact (Real.sqrt_pos.mpr hk).ne'
    have hrr : r * r = 1 - m.c0.x + m.c1.y - m.c2.z := by rw [← hr]; exact Real.mul_self_sqrt hk.le
    apply quat_of_outer <;> simp only []
    · exact outer_step hk hrr hr0 p1
    · field_simp; norm_num
    · exact outer_step hk hrr hr0 p2
    · exact outer_step hk hrr hr0 p3
    · linear_combination hrr
    · field_simp; norm_num
    · field_simp; norm_num
    · exact outer_step hk hrr hr0 p4
    · exact outer_step hk hrr hr0 p5
    · exact outer_step hk hrr hr0 p6
  · obtain ⟨p1, p2, p3, p4, p5, p6⟩ := H.minor_z
    have hk : 0 < 1 - m.c0.x - m.c1.y + m.c2.z := by
      by_contra hc; exact h1 ⟨by linarith, by linarith⟩
    generalize hr : √(1 - m.c0.x - m.c1.y + m.c2.z) = r
    have hr0 : r ≠ 0 := by rw [← hr]; exact (Real.sqrt_pos.mpr hk).ne'
    have hrr : r * r = 1 - m.c0.x - m.c1.y + m.c2.z := by rw [← hr]; exact Real.mul_self_sqrt hk.le
    apply quat_of_outer <;> simp only []
    · exact outer_step hk hrr hr0 p1
    · exact outer_step hk hrr hr0 p2
    · field_simp; norm_num
    · exact outer_step hk hrr hr0 p3
    · exact outer_step hk hrr hr0 p4
    · field_simp; norm_num
    · exact outer_step hk hrr hr0 p5
    · linear_combination hrr
    · field_simp; norm_num
    · exact outer_step hk hrr hr0 p6

/-- the 4x4 conversion reads the upper left block -/
theorem C11_mat4_block (m : M4 ℝ) : glm_mat4_quat m = glm_mat3_quat m.block := rfl
theorem C11_mat4 (m : M3 ℝ) (hm : m.IsRotation) :
    ‖(glm_mat4_quat m.toM4).quat‖ = 1 ∧ glm_quat_mat4 (glm_mat4_quat m.toM4) = m.toM4 := by
  have : glm_mat4_quat m.toM4 = glm_mat3_quat m := rfl
  rw [this, C09_mat4]
  exact ⟨(C11_mat3 m hm).1, by rw [(C11_mat3 m hm).2]⟩

/-- two unit quaternions with the same rotation matrix differ at most in sign -/
theorem C11_double_cover (p q : V4 ℝ) (hp : ‖p.quat‖ = 1) (hq : ‖q.quat‖ = 1) :
    glm_quat_mat3 p = glm_quat_mat3 q ↔ p.quat = q.quat ∨ p.quat = -q.quat := by
  rw [V4.unit_iff] at hp hq
  constructor
  · intro h
    obtain ⟨a1, a2, a3, a4, a5, a6, a7, a8, a9, a10⟩ := outer_of_quat p hp _ h
    obtain ⟨b1, b2, b3, b4, b5, b6, b7, b8, b9, b10⟩ := outer_of_quat q hq _ rfl
    -- (p·q)² = 1, so p = (p·q) q
    have hd : (p.x*q.x + p.y*q.y + p.z*q.z + p.w*q.w) * (p.x*q.x + p.y*q.y + p.z*q.z + p.w*q.w) = 1 := by
      have e1 : p.x*p.x = q.x*q.x := by linarith
      have e2 : p.x*p.y = q.x*q.y := by linarith
      have e3 : p.x*p.z = q.x*q.z := by linarith
      have e4 : p.x*p.w = q.x*q.w := by linarith
      have e5 : p.y*p.y = q.y*q.y := by linarith
      have e6 : p.y*p.z = q.y*q.z := by linarith
      have e7 : p.y*p.w = q.y*q.w := by linarith
      have e8 : p.z*p.z = q.z*q.z := by linarith
      have e9 : p.z*p.w = q.z*q.w := by linarith
      have e10 : p.w*p.w = q.w*q.w := by linarith
      linear_combination (q.x*q.x)*e1 + 2*(q.x*q.y)*e2 + 2*(q.x*q.z)*e3 + 2*(q.x*q.w)*e4 + (q.y*q.y)*e5 +
        2*(q.y*q.z)*e6 + 2*(q.y*q.w)*e7 + (q.z*q.z)*e8 + 2*(q.z*q.w)*e9 + (q.w*q.w)*e10 +
        (q.x * q.x + q.y * q.y + q.z * q.z + q.w * q.w + 1) * hq
    have hcases : p.x*q.x + p.y*q.y + p.z*q.z + p.w*q.w = 1 ∨ p.x*q.x + p.y*q.y + p.z*q.z + p.w*q.w = -1 :=
      mul_self_eq_one_iff.mp hd
    rcases hcases with hc | hc
    · left
      have : V4.dot ⟨p.x-q.x, p.y-q.y, p.z-q.z, p.w-q.w⟩ ⟨p.x-q.x, p.y-q.y, p.z-q.z, p.w-q.w⟩ = 0 := by
        simp only [V4.dot]; linarith
      rw [V4.dot_self_eq_zero, V4.mk.injEq] at this
      rw [V4.quat_inj]
      ext <;> linarith [this.1, this.2.1, this.2.2.1, this.2.2.2]
    · right
      have : V4.dot ⟨p.x+q.x, p.y+q.y, p.z+q.z, p.w+q.w⟩ ⟨p.x+q.x, p.y+q.y, p.z+q.z, p.w+q.w⟩ = 0 := by
        simp only [V4.dot]; linarith
      rw [V4.dot_self_eq_zero, V4.mk.injEq] at this
      ext <;> simp <;> linarith [this.1, this.2.1, this.2.2.1, this.2.2.2]
  · rintro (h | h)
    · rw [V4.quat_inj] at h; rw [h]
    · have h0 := congrArg QuaternionAlgebra.re h; have h1 := congrArg QuaternionAlgebra.imI h
      have h2 := congrArg QuaternionAlgebra.imJ h; have h3 := congrArg QuaternionAlgebra.imK h
      simp at h0 h1 h2 h3
      rw [quat_mat3_hom p hp, quat_mat3_hom q hq, h0, h1, h2, h3]
      ext <;> simp only [] <;> ring

/-- converting a unit quaternion to a matrix and back gives it or its negative -/
theorem C11_quat (q : V4 ℝ) (hq : ‖q.quat‖ = 1) :
    (glm_mat3_quat (glm_quat_mat3 q)).quat = q.quat ∨ (glm_mat3_quat (glm_quat_mat3 q)).quat = -q.quat := by
  have h := C11_mat3 _ (C09_rotation q hq)
  exact (C11_double_cover _ q h.1 hq).mp h.2

/-- rotations whose trace is negative exist in each branch: the half turns -/
example : (⟨⟨1, 0, 0⟩, ⟨0, -1, 0⟩, ⟨0, 0, -1⟩⟩ : M3 ℝ).IsRotation ∧ (⟨⟨-1, 0, 0⟩, ⟨0, 1, 0⟩, ⟨0, 0, -1⟩⟩ : M3 ℝ).IsRotation ∧
    (⟨⟨-1, 0, 0⟩, ⟨0, -1, 0⟩, ⟨0, 0, 1⟩⟩ : M3 ℝ).IsRotation ∧ (⟨⟨3/5, 4/5, 0⟩, ⟨-4/5, 3/5, 0⟩, ⟨0, 0, 1⟩⟩ : M3 ℝ).IsRotation := by
  simp only [M3.isRotation_iff, V3.dot, V3.cross]; norm_num

end Cglm
