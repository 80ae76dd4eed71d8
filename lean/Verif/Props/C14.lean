import Verif.Props.C08

/-! # C14: linear and normalized interpolation of quaternions -/

namespace Cglm
open Quaternion

theorem C14_lerp (p q : V4 ℝ) (t : ℝ) : (glm_quat_lerp p q t).quat = (1 - t) • p.quat + t • q.quat := by
  ext <;> simp [cglm] <;> ring
theorem C14_lerp_ends (p q : V4 ℝ) : glm_quat_lerp p q 0 = p ∧ glm_quat_lerp p q 1 = q := by
  constructor <;> ext <;> simp [cglm]
/-- the clamped variant uses the nearest parameter in [0,1] -/
theorem C14_lerpc (p q : V4 ℝ) (t : ℝ) : glm_quat_lerpc p q t = glm_quat_lerp p q (min (max t 0) 1) := by
  show glm_quat_lerp p q (glm_clamp_zo t) = _
  rw [glm_clamp_zo_eq]

/-- `q` or `-q`, whichever is on the side of `p` -/
noncomputable def V4.near (p q : V4 ℝ) : V4 ℝ := if 0 ≤ p.dot q then q else q.smul (-1)

theorem nlerp_eq (p q : V4 ℝ) (t : ℝ) : glm_quat_nlerp p q t = glm_quat_normalize (glm_quat_lerp p (p.near q) t) := by
  unfold glm_quat_nlerp V4.near
  simp only [glm_vec4_dot_eq, fle_real, lit_zero, lit_one, decide_eq_true_eq]
  congr 2
  split_ifs <;> ext <;> simp [cglm, V4.smul]

/-- the normalized blend: unit direction of `(1-t) p + t (±q)` unless that vanishes -/
theorem C14_nlerp (p q : V4 ℝ) (t : ℝ) (h : (1 - t) • p.quat + t • (p.near q).quat ≠ 0) :
    (glm_quat_nlerp p q t).quat =
      ‖(1 - t) • p.quat + t • (p.near q).quat‖⁻¹ • ((1 - t) • p.quat + t • (p.near q).quat) ∧
    ‖(glm_quat_nlerp p q t).quat‖ = 1 := by
  rw [nlerp_eq]
  have := C08_normalize (glm_quat_lerp p (p.near q) t) (by rw [C14_lerp]; exact h)
  rwa [C14_lerp] at this

theorem near_dot (p q : V4 ℝ) : 0 ≤ p.dot (p.near q) ∧ (p.near q).dot (p.near q) = q.dot q := by
  unfold V4.near
  split_ifs with h
  · exact ⟨h, rfl⟩
  · simp only [V4.dot, V4.smul] at *
    constructor
    · linarith
    · ring

/-- for unit inputs and `t` in [0,1] the blend never vanishes, so the result is a unit quaternion; it is within 90
degrees (of quaternion angle) of `p`: the shorter arc is taken -/
theorem C14_nlerp_unit (p q : V4 ℝ) (t : ℝ) (hp : ‖p.quat‖ = 1) (hq : ‖q.quat‖ = 1) (h0 : 0 ≤ t) (h1 : t ≤ 1) :
    ‖(glm_quat_nlerp p q t).quat‖ = 1 ∧ 0 ≤ p.dot (glm_quat_nlerp p q t) := by
  rw [V4.norm_quat, V4.len_eq_one] at hp hq
  obtain ⟨hn, hn2⟩ := near_dot p q
  rw [hq] at hn2
  have hlerp : glm_quat_lerp p (p.near q) t = ⟨p.x + t * ((p.near q).x - p.x), p.y + t * ((p.near q).y - p.y),
      p.z + t * ((p.near q).z - p.z), p.w + t * ((p.near q).w - p.w)⟩ := by simp [cglm]
  have hd : (glm_quat_lerp p (p.near q) t).dot (glm_quat_lerp p (p.near q) t) =
      (1 - t)^2 + t^2 + 2 * (t * (1 - t)) * p.dot (p.near q) := by
    rw [hlerp]; simp only [V4.dot] at *
    linear_combination (1 - t)^2 * hp + t^2 * hn2
  have hpos : 0 < (glm_quat_lerp p (p.near q) t).dot (glm_quat_lerp p (p.near q) t) := by
    rw [hd]
    have : 0 ≤ t * (1 - t) * p.dot (p.near q) := mul_nonneg (mul_nonneg h0 (by linarith)) hn
    nlinarith [sq_nonneg (t - 1/2)]
  have hne : (glm_quat_lerp p (p.near q) t).quat ≠ 0 := by
    intro h; rw [← V4.normSq_quat, h] at hpos; simp at hpos
  obtain ⟨e, hu⟩ := C08_normalize _ hne
  rw [← nlerp_eq] at e hu
  refine ⟨hu, ?_⟩
  have hN : 0 ≤ ‖(glm_quat_lerp p (p.near q) t).quat‖⁻¹ := inv_nonneg.mpr (norm_nonneg _)
  have hx : (glm_quat_nlerp p q t).x = _ := congrArg QuaternionAlgebra.imI e
  have hy : (glm_quat_nlerp p q t).y = _ := congrArg QuaternionAlgebra.imJ e
  have hz : (glm_quat_nlerp p q t).z = _ := congrArg QuaternionAlgebra.imK e
  have hw : (glm_quat_nlerp p q t).w = _ := congrArg QuaternionAlgebra.re e
  simp only [Quaternion.re_smul, Quaternion.imI_smul, Quaternion.imJ_smul, Quaternion.imK_smul, V4.quat_re, V4.quat_imI,
    V4.quat_imJ, V4.quat_imK, smul_eq_mul] at hx hy hz hw
  have hdot : p.dot (glm_quat_nlerp p q t) =
      ‖(glm_quat_lerp p (p.near q) t).quat‖⁻¹ * ((1 - t) + t * p.dot (p.near q)) := by
    simp only [V4.dot, hx, hy, hz, hw]
    generalize ‖(glm_quat_lerp p (p.near q) t).quat‖⁻¹ = N
    rw [hlerp]; simp only [V4.dot] at *
    linear_combination N * (1 - t) * hp
  rw [hdot]
  exact mul_nonneg hN (add_nonneg (by linarith) (mul_nonneg h0 hn))

/-- the blend can vanish for `t` outside [0,1]: then the result is the identity quaternion -/
example : glm_quat_nlerp (⟨1, 0, 0, 0⟩ : V4 ℝ) ⟨2, 0, 0, 0⟩ (-1) = ⟨0, 0, 0, 1⟩ := by
  have h : glm_quat_lerp (⟨1, 0, 0, 0⟩ : V4 ℝ) (V4.near ⟨1, 0, 0, 0⟩ ⟨2, 0, 0, 0⟩) (-1) = ⟨0, 0, 0, 0⟩ := by
    have : V4.near ⟨1, 0, 0, 0⟩ ⟨2, 0, 0, 0⟩ = ⟨2, 0, 0, 0⟩ := if_pos (by norm_num [V4.dot])
    rw [this]; ext <;> simp [cglm]; norm_num
  rw [nlerp_eq, h, C08_normalize_zero _ rfl]
  ext <;> simp [cglm]
/-- unit inputs on opposite sides -/
example : ‖(⟨0, 0, 0, 1⟩ : V4 ℝ).quat‖ = 1 ∧ ‖(⟨3/5, 0, 0, -4/5⟩ : V4 ℝ).quat‖ = 1 := by
  simp only [V4.unit_iff]; norm_num

end Cglm
