import Verif.Props.C11

/-! # C13: spherical interpolation

With unit quaternions `p`, `q` the code has three regions: `|p·q| = 1` (returns `p`), `sin θ < 0.001` (falls back to
linear interpolation of the *original* `p`, even when `p·q < 0`), and the main formula. -/

namespace Cglm
open Quaternion

/-- the spherical interpolation formula -/
noncomputable def slerpFormula (p q : V4 ℝ) (θ t : ℝ) : V4 ℝ :=
  ⟨(Real.sin ((1 - t) * θ) * p.x + Real.sin (t * θ) * q.x) / Real.sin θ,
   (Real.sin ((1 - t) * θ) * p.y + Real.sin (t * θ) * q.y) / Real.sin θ,
   (Real.sin ((1 - t) * θ) * p.z + Real.sin (t * θ) * q.z) / Real.sin θ,
   (Real.sin ((1 - t) * θ) * p.w + Real.sin (t * θ) * q.w) / Real.sin θ⟩

theorem quat_dot_eq (p q : V4 ℝ) : glm_quat_dot p q = p.dot q := by simp [cglm, V4.dot]

theorem slerpFormula_props (p q : V4 ℝ) (θ t : ℝ) (hp : p.dot p = 1) (hq : q.dot q = 1) (hd : p.dot q = Real.cos θ)
    (hs : Real.sin θ ≠ 0) :
    (slerpFormula p q θ t).dot (slerpFormula p q θ t) = 1 ∧ p.dot (slerpFormula p q θ t) = Real.cos (t * θ) ∧
      q.dot (slerpFormula p q θ t) = Real.cos ((1 - t) * θ) := by
  have e1 : Real.sin ((1 - t) * θ) = Real.sin θ * Real.cos (t * θ) - Real.cos θ * Real.sin (t * θ) := by
    rw [← Real.sin_sub]; congr 1; ring
  have e2 : Real.cos ((1 - t) * θ) = Real.cos θ * Real.cos (t * θ) + Real.sin θ * Real.sin (t * θ) := by
    rw [← Real.cos_sub]; congr 1; ring
  have h1 := Real.sin_sq_add_cos_sq θ
  have h2 := Real.sin_sq_add_cos_sq (t * θ)
  unfold slerpFormula
  rw [e1, e2]
  simp only [V4.dot] at *
  generalize Real.sin θ = S at *
  generalize Real.cos θ = C at *
  generalize Real.sin (t * θ) = b at *
  generalize Real.cos (t * θ) = a at *
  refine ⟨?_, ?_, ?_⟩
  · field_simp
    linear_combination (S * a - C * b)^2 * hp + b^2 * hq + 2 * (S * a - C * b) * b * hd + S^2 * h2 - b^2 * h1
  · field_simp
    linear_combination (S * a - C * b) * hp + b * hd
  · field_simp
    linear_combination (S * a - C * b) * hd + b * hq - b * h1

/-- the main branch is the slerp formula with `p` negated when that gives the shorter arc -/
theorem C13_formula (p q : V4 ℝ) (t : ℝ) (hc : |p.dot q| < 1) (hs : 0.001 ≤ √(1 - p.dot q * p.dot q)) :
    glm_quat_slerp p q t =
      slerpFormula (if p.dot q < 0 then p.smul (-1) else p) q (Real.arccos |p.dot q|) t := by
  unfold glm_quat_slerp
  simp only [quat_dot_eq, fle_real, flt_real, lit_one, lit_zero, fabsf_real, decide_eq_true_eq, not_le.mpr hc, if_false,
    sqrtf_real, lit_scientific, sinf_real, acosf_real]
  unfold slerpFormula
  rw [Real.sin_arccos]
  by_cases h : p.dot q < 0
  · rw [if_pos h, if_pos h, abs_of_neg h]
    simp only [neg_mul_neg]
    rw [if_neg (by rw [abs_of_nonneg (Real.sqrt_nonneg _)]; exact not_lt.mpr hs)]
    have : 1 - (-p.dot q) ^ 2 = 1 - p.dot q * p.dot q := by ring
    rw [this]
    ext <;> simp [cglm, V4.smul] <;> ring
  · rw [if_neg h, if_neg h, abs_of_nonneg (not_lt.mp h)]
    rw [if_neg (by rw [abs_of_nonneg (Real.sqrt_nonneg _)]; exact not_lt.mpr hs)]
    have : 1 - (p.dot q) ^ 2 = 1 - p.dot q * p.dot q := by ring
    rw [this]
    ext <;> simp [cglm] <;> ring
/-- in the fallback region the code interpolates linearly -/
theorem C13_fallback (p q : V4 ℝ) (t : ℝ) (hc : |p.dot q| < 1) (hs : √(1 - p.dot q * p.dot q) < 0.001) :
    glm_quat_slerp p q t = glm_quat_lerp p q t := by
  unfold glm_quat_slerp
  simp only [quat_dot_eq, fle_real, flt_real, lit_one, lit_zero, fabsf_real, decide_eq_true_eq, not_le.mpr hc, if_false,
    sqrtf_real, lit_scientific, neg_mul_neg, abs_of_nonneg (Real.sqrt_nonneg _), hs, if_true, ite_self]
/-- parallel unit quaternions: returns the first -/
theorem C13_parallel (p q : V4 ℝ) (t : ℝ) (hc : 1 ≤ |p.dot q|) : glm_quat_slerp p q t = p := by
  unfold glm_quat_slerp
  simp only [quat_dot_eq, fle_real, lit_one, fabsf_real, decide_eq_true_eq, hc, if_true]
  rfl

/-- main region: the result is a unit quaternion at angle `tθ` from (plus or minus) `p` and `(1-t)θ` from `q`, where θ
is the smaller angle between `±p` and `q`: constant angular velocity along the shorter arc -/
theorem C13_unit_partial (p q : V4 ℝ) (t : ℝ) (hp : ‖p.quat‖ = 1) (hq : ‖q.quat‖ = 1)
    (hc : |p.dot q| < 1) (hs : 0.001 ≤ √(1 - p.dot q * p.dot q)) :
    ‖(glm_quat_slerp p q t).quat‖ = 1 ∧
    (if p.dot q < 0 then p.smul (-1) else p).dot (glm_quat_slerp p q t) = Real.cos (t * Real.arccos |p.dot q|) ∧
    q.dot (glm_quat_slerp p q t) = Real.cos ((1 - t) * Real.arccos |p.dot q|) := by
  rw [V4.norm_quat, V4.len_eq_one] at hp hq
  rw [C13_formula p q t hc hs, V4.norm_quat, V4.len_eq_one]
  have hsin : Real.sin (Real.arccos |p.dot q|) ≠ 0 := by
    rw [Real.sin_arccos, sq_abs, pow_two]
    have : (0:ℝ) < 0.001 := by norm_num
    linarith
  have hcos : Real.cos (Real.arccos |p.dot q|) = |p.dot q| :=
    Real.cos_arccos (by linarith [abs_nonneg (p.dot q)]) hc.le
  apply slerpFormula_props _ _ _ _ _ hq _ hsin
  · split_ifs
    · simp only [V4.dot, V4.smul] at *; linarith
    · exact hp
  · rw [hcos]
    split_ifs with h
    · rw [abs_of_neg h]; simp only [V4.dot, V4.smul]; ring
    · rw [abs_of_nonneg (not_lt.mp h)]

theorem V4.parallel_of_dot {p q : V4 ℝ} (hp : ‖p.quat‖ = 1) (hq : ‖q.quat‖ = 1) (hc : 1 ≤ |p.dot q|) :
    p.quat = q.quat ∨ p.quat = -q.quat := by
  rw [V4.norm_quat, V4.len_eq_one] at hp hq
  rcases le_abs.mp hc with h | h
  · left
    have : V4.dot ⟨p.x-q.x, p.y-q.y, p.z-q.z, p.w-q.w⟩ ⟨p.x-q.x, p.y-q.y, p.z-q.z, p.w-q.w⟩ = 0 := by
      apply le_antisymm _ (V4.dot_self_nonneg _)
      simp only [V4.dot] at *; linarith
    rw [V4.dot_self_eq_zero, V4.mk.injEq] at this
    rw [V4.quat_inj]
    ext <;> linarith [this.1, this.2.1, this.2.2.1, this.2.2.2]
  · right
    have : V4.dot ⟨p.x+q.x, p.y+q.y, p.z+q.z, p.w+q.w⟩ ⟨p.x+q.x, p.y+q.y, p.z+q.z, p.w+q.w⟩ = 0 := by
      apply le_antisymm _ (V4.dot_self_nonneg _)
      simp only [V4.dot] at *; linarith
    rw [V4.dot_self_eq_zero, V4.mk.injEq] at this
    ext <;> simp <;> linarith [this.1, this.2.1, this.2.2.1, this.2.2.2]

/-- end point: the result at `t = 1` is `q` or `-q`, so it represents the same rotation -/
theorem C13_end (p q : V4 ℝ) (hp : ‖p.quat‖ = 1) (hq : ‖q.quat‖ = 1) :
    (glm_quat_slerp p q 1).quat = q.quat ∨ (glm_quat_slerp p q 1).quat = -q.quat := by
  by_cases hc : |p.dot q| < 1
  · left
    by_cases hs : 0.001 ≤ √(1 - p.dot q * p.dot q)
    · have hsin : Real.sin (Real.arccos |p.dot q|) ≠ 0 := by
        rw [Real.sin_arccos, sq_abs, pow_two]
        have : (0:ℝ) < 0.001 := by norm_num
        linarith
      rw [C13_formula p q 1 hc hs, V4.quat_inj]
      ext <;> simp [slerpFormula] <;> field_simp
    · rw [C13_fallback p q 1 hc (not_le.mp hs), V4.quat_inj]
      ext <;> simp [cglm]
  · rw [C13_parallel p q 1 (not_lt.mp hc)]
    exact V4.parallel_of_dot hp hq (not_lt.mp hc)
theorem C13_end_rotation (p q : V4 ℝ) (hp : ‖p.quat‖ = 1) (hq : ‖q.quat‖ = 1) :
    glm_quat_mat3 (glm_quat_slerp p q 1) = glm_quat_mat3 q := by
  have h := C13_end p q hp hq
  refine (C11_double_cover _ q ?_ hq).mpr h
  rcases h with h | h <;> rw [h]
  · exact hq
  · rw [norm_neg]; exact hq
/-- start point: the result at `t = 0` is `p` or `-p`; the missing part is the sign, see `C13_start_refuted` -/
theorem C13_start_partial (p q : V4 ℝ) :
    glm_quat_slerp p q 0 = p ∨ glm_quat_slerp p q 0 = p.smul (-1) := by
  by_cases hc : |p.dot q| < 1
  · by_cases hs : 0.001 ≤ √(1 - p.dot q * p.dot q)
    · have hsin : Real.sin (Real.arccos |p.dot q|) ≠ 0 := by
        rw [Real.sin_arccos, sq_abs, pow_two]
        have : (0:ℝ) < 0.001 := by norm_num
        linarith
      rw [C13_formula p q 0 hc hs]
      split_ifs
      · right; ext <;> simp [slerpFormula, V4.smul] <;> field_simp
      · left; ext <;> simp [slerpFormula] <;> field_simp
    · left
      rw [C13_fallback p q 0 hc (not_le.mp hs)]
      ext <;> simp [cglm]
  · left; exact C13_parallel p q 0 (not_lt.mp hc)
/-- "gives `p` at `t = 0`" fails: for an obtuse pair the result is `-p` -/
theorem C13_start_refuted : ∃ p q : V4 ℝ, ‖p.quat‖ = 1 ∧ ‖q.quat‖ = 1 ∧ glm_quat_slerp p q 0 ≠ p := by
  refine ⟨⟨0, 0, 0, 1⟩, ⟨4/5, 0, 0, -3/5⟩, ?_, ?_, ?_⟩
  · rw [V4.unit_iff]; norm_num
  · rw [V4.unit_iff]; norm_num
  · have hd : (⟨0, 0, 0, 1⟩ : V4 ℝ).dot ⟨4/5, 0, 0, -3/5⟩ = -3/5 := by norm_num [V4.dot]
    have h45 : √((4/5 : ℝ) ^ 2) = 4/5 := Real.sqrt_sq (by norm_num)
    have hs : √(1 - (-3/5 : ℝ) * (-3/5)) = 4/5 := by rw [← h45]; norm_num
    rw [C13_formula _ _ _ (by rw [hd, abs_lt]; norm_num) (by rw [hd, hs]; norm_num)]
    rw [hd, if_pos (by norm_num)]
    intro h
    have hw := congrArg V4.w h
    have hsin : Real.sin (Real.arccos |(-3/5:ℝ)|) = 4/5 := by
      rw [Real.sin_arccos, sq_abs, ← hs]; norm_num
    simp [slerpFormula, V4.smul, hsin] at hw
    norm_num at hw

/-- fallback region with `p·q ≥ 0`: the result is within 1e-6 of unit length (squared) for `t` in [0,1] -/
theorem C13_fallback_bound (p q : V4 ℝ) (t : ℝ) (hp : ‖p.quat‖ = 1) (hq : ‖q.quat‖ = 1) (h0 : 0 ≤ p.dot q)
    (hc : |p.dot q| < 1) (hs : √(1 - p.dot q * p.dot q) < 0.001) (ht0 : 0 ≤ t) (ht1 : t ≤ 1) :
    1 - 0.000001 ≤ ‖(glm_quat_slerp p q t).quat‖ ^ 2 ∧ ‖(glm_quat_slerp p q t).quat‖ ^ 2 ≤ 1 := by
  rw [V4.norm_quat, V4.len_eq_one] at hp hq
  rw [C13_fallback p q t hc hs, V4.norm_quat, pow_two, V4.len_sq]
  have e : (glm_quat_lerp p q t).dot (glm_quat_lerp p q t) = 1 - 2 * (t * (1 - t)) * (1 - p.dot q) := by
    have : glm_quat_lerp p q t = ⟨p.x + t * (q.x - p.x), p.y + t * (q.y - p.y), p.z + t * (q.z - p.z), p.w + t * (q.w - p.w)⟩ := by
      simp [cglm]
    rw [this]
    simp only [V4.dot] at *
    linear_combination (1 - t)^2 * hp + t^2 * hq
  rw [e]
  have h1 : 1 - p.dot q * p.dot q < 0.000001 := by
    have := (Real.sqrt_lt' (by norm_num)).mp hs
    norm_num at this ⊢; linarith
  have hc1 : p.dot q < 1 := lt_of_abs_lt hc
  have h2 : 1 - p.dot q ≤ 0.000001 := by nlinarith
  have ht : 0 ≤ t * (1 - t) := mul_nonneg ht0 (by linarith)
  have ht' : t * (1 - t) ≤ 1/4 := by nlinarith [sq_nonneg (t - 1/2)]
  constructor
  · nlinarith
  · nlinarith
/-- "is a unit quaternion for all `t`" fails in the fallback region when `p·q < 0`: two unit quaternions representing
almost the same rotation, whose slerp at 1/2 has length below 1/1000 -/
theorem C13_unit_refuted : ∃ p q : V4 ℝ, ‖p.quat‖ = 1 ∧ ‖q.quat‖ = 1 ∧ ‖(glm_quat_slerp p q (1/2)).quat‖ < 1/1000 := by
  refine ⟨⟨0, 0, 0, 1⟩, ⟨8000/16000001, 0, 0, -(15999999/16000001)⟩, ?_, ?_, ?_⟩
  · rw [V4.unit_iff]; norm_num
  · rw [V4.unit_iff]; norm_num
  · have hd : (⟨0, 0, 0, 1⟩ : V4 ℝ).dot ⟨8000/16000001, 0, 0, -(15999999/16000001)⟩ = -(15999999/16000001) := by
      norm_num [V4.dot]
    rw [C13_fallback _ _ _ (by rw [hd, abs_lt]; norm_num)
      (by rw [hd]; apply (Real.sqrt_lt' (by norm_num)).mpr; norm_num)]
    rw [V4.norm_quat, V4.len]
    apply (Real.sqrt_lt' (by norm_num)).mpr
    simp [cglm, V4.dot]
    norm_num

/-- the longest-path variant: main region -/
theorem C13_longest (p q : V4 ℝ) (t : ℝ) (hp : ‖p.quat‖ = 1) (hq : ‖q.quat‖ = 1)
    (hc : |p.dot q| < 1) (hs : 0.001 ≤ √(1 - p.dot q * p.dot q)) :
    ‖(glm_quat_slerp_longest p q t).quat‖ = 1 ∧
    (if p.dot q < 0 then p else p.smul (-1)).dot (glm_quat_slerp_longest p q t) =
      Real.cos (t * Real.arccos (-|p.dot q|)) ∧
    q.dot (glm_quat_slerp_longest p q t) = Real.cos ((1 - t) * Real.arccos (-|p.dot q|)) := by
  have hsin : Real.sin (Real.arccos (-|p.dot q|)) = √(1 - p.dot q * p.dot q) := by
    rw [Real.sin_arccos, neg_sq, sq_abs, pow_two]
  have hf : glm_quat_slerp_longest p q t =
      slerpFormula (if p.dot q < 0 then p else p.smul (-1)) q (Real.arccos (-|p.dot q|)) t := by
    unfold glm_quat_slerp_longest
    simp only [quat_dot_eq, fle_real, flt_real, lit_one, lit_zero, fabsf_real, decide_eq_true_eq, not_le.mpr hc, if_false,
      sqrtf_real, lit_scientific, sinf_real, acosf_real]
    unfold slerpFormula
    rw [hsin]
    by_cases h : p.dot q < 0
    · rw [if_pos h]
      simp only [h, decide_true, Bool.not_true, Bool.false_eq_true, if_false, abs_of_neg h, neg_neg]
      rw [if_neg (by rw [abs_of_nonneg (Real.sqrt_nonneg _)]; exact not_lt.mpr hs)]
      ext <;> simp [cglm] <;> ring
    · rw [if_neg h]
      simp only [h, decide_false, Bool.not_false, if_true, abs_of_nonneg (not_lt.mp h), neg_mul_neg]
      rw [if_neg (by rw [abs_of_nonneg (Real.sqrt_nonneg _)]; exact not_lt.mpr hs)]
      ext <;> simp [cglm, V4.smul] <;> ring
  rw [V4.norm_quat, V4.len_eq_one] at hp hq
  rw [hf, V4.norm_quat, V4.len_eq_one]
  have hcos : Real.cos (Real.arccos (-|p.dot q|)) = -|p.dot q| :=
    Real.cos_arccos (by linarith) (by linarith [abs_nonneg (p.dot q)])
  apply slerpFormula_props _ _ _ _ _ hq _ (by rw [hsin]; have : (0:ℝ) < 0.001 := by norm_num
                                              linarith)
  · split_ifs
    · exact hp
    · simp only [V4.dot, V4.smul] at *; linarith
  · rw [hcos]
    split_ifs with h
    · rw [abs_of_neg h, neg_neg]
    · rw [abs_of_nonneg (not_lt.mp h)]; simp only [V4.dot, V4.smul]; ring

/-- the main region is inhabited: 90 degrees apart -/
example : |(⟨0, 0, 0, 1⟩ : V4 ℝ).dot ⟨1, 0, 0, 0⟩| < 1 ∧
    0.001 ≤ √(1 - (⟨0, 0, 0, 1⟩ : V4 ℝ).dot ⟨1, 0, 0, 0⟩ * (⟨0, 0, 0, 1⟩ : V4 ℝ).dot ⟨1, 0, 0, 0⟩) := by
  simp [V4.dot]; norm_num

end Cglm
