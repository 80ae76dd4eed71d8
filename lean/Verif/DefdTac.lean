import Verif.Defd
import Mathlib.Tactic.SplitIfs
import Mathlib.Analysis.Real.Pi.Bounds
import Verif.Gen.Quat
import Verif.Gen.Plane

/-! Tactic for the theorems of C72. -/

namespace Cglm

theorem vec2_dot_self_nonneg (v : V2 ℝ) : 0 ≤ glm_vec2_dot v v := by
  simp only [cglm]; nlinarith [mul_self_nonneg v.x, mul_self_nonneg v.y]
theorem vec3_dot_self_nonneg (v : V3 ℝ) : 0 ≤ glm_vec3_dot v v := by
  simp only [cglm]; nlinarith [mul_self_nonneg v.x, mul_self_nonneg v.y, mul_self_nonneg v.z]
theorem vec4_dot_self_nonneg (v : V4 ℝ) : 0 ≤ glm_vec4_dot v v := by
  simp only [cglm]; nlinarith [mul_self_nonneg v.x, mul_self_nonneg v.y, mul_self_nonneg v.z, mul_self_nonneg v.w]
theorem vec2_norm2_nonneg (v : V2 ℝ) : 0 ≤ glm_vec2_norm2 v := vec2_dot_self_nonneg v
theorem vec3_norm2_nonneg (v : V3 ℝ) : 0 ≤ glm_vec3_norm2 v := vec3_dot_self_nonneg v
theorem vec4_norm2_nonneg (v : V4 ℝ) : 0 ≤ glm_vec4_norm2 v := vec4_dot_self_nonneg v
theorem vec2_distance2_nonneg (v w : V2 ℝ) : 0 ≤ glm_vec2_distance2 v w := by
  simp only [cglm]; nlinarith [mul_self_nonneg (w.x - v.x), mul_self_nonneg (w.y - v.y)]
theorem vec3_distance2_nonneg (v w : V3 ℝ) : 0 ≤ glm_vec3_distance2 v w := by
  simp only [cglm]
  nlinarith [mul_self_nonneg (w.x - v.x), mul_self_nonneg (w.y - v.y), mul_self_nonneg (w.z - v.z)]
theorem vec4_distance2_nonneg (v w : V4 ℝ) : 0 ≤ glm_vec4_distance2 v w := by
  simp only [cglm]
  nlinarith [mul_self_nonneg (w.x - v.x), mul_self_nonneg (w.y - v.y), mul_self_nonneg (w.z - v.z),
    mul_self_nonneg (w.w - v.w)]
theorem quat_dot_self_nonneg (v : V4 ℝ) : 0 ≤ glm_quat_dot v v := vec4_dot_self_nonneg v

/-- a number that is not below a positive literal is not zero -/
theorem ne_zero_of_not_flt {n : ℝ} {q : ℚ} (h : ¬ flt n (lit q : ℝ) = true) (hq : 0 < q) : n ≠ 0 := by
  rintro rfl
  apply h
  simp only [flt, lit_real, decide_eq_true_eq]
  exact_mod_cast hq
/-- a positive number is not zero -/
theorem ne_zero_of_flt {n : ℝ} (h : flt (lit 0 : ℝ) n = true) : n ≠ 0 := by
  simp only [flt, lit_real, decide_eq_true_eq, Rat.cast_zero] at h
  exact h.ne'

theorem ne_zero_of_not_feq {n : ℝ} (h : ¬ feq n (lit 0 : ℝ) = true) : n ≠ 0 := by
  simpa only [feq, lit_real, decide_eq_true_eq, Rat.cast_zero] using h
theorem nonneg_of_not_flt {n : ℝ} (h : ¬ flt n (lit 0 : ℝ) = true) : 0 ≤ n := by
  simpa only [flt, lit_real, decide_eq_true_eq, Rat.cast_zero, not_lt] using h
theorem nonneg_of_flt {n : ℝ} (h : flt (lit 0 : ℝ) n = true) : 0 ≤ n := by
  simp only [flt, lit_real, decide_eq_true_eq, Rat.cast_zero] at h
  exact h.le

theorem vec4_distance_nonneg (a b : V4 ℝ) : 0 ≤ glm_pow2 (a.x - b.x) + glm_pow2 (a.y - b.y) +
    glm_pow2 (a.z - b.z) + glm_pow2 (a.w - b.w) := vec4_distance2_nonneg a b
theorem ne_zero_of_not_flt_fabsf {n : ℝ} {q : ℚ} (h : ¬ flt (fabsf n) (lit q : ℝ) = true) (hq : 0 < q) : n ≠ 0 := by
  rintro rfl
  apply h
  simp only [flt, fabsf, lit_real, decide_eq_true_eq, abs_zero]
  exact_mod_cast hq
theorem sqrtf_ne_zero_of_pos {n : ℝ} (h : 0 < n) : sqrtf n ≠ 0 := (Real.sqrt_pos.2 h).ne'
theorem sqrtf_ne_zero_of_not_fle {n : ℝ} (h : ¬ fle n (lit 0 : ℝ) = true) : sqrtf n ≠ 0 := by
  simp only [fle, lit_real, decide_eq_true_eq, Rat.cast_zero, not_le] at h
  exact sqrtf_ne_zero_of_pos h
theorem ne_zero_of_not_or_left {n : ℝ} {p : Bool} (h : ¬ (fle n (lit 0 : ℝ) || p) = true) : n ≠ 0 := by
  rintro rfl
  apply h
  simp [fle, lit_real]
theorem ne_zero_of_not_or_right {n : ℝ} {p : Bool} (h : ¬ (p || fle n (lit 0 : ℝ)) = true) : n ≠ 0 := by
  rintro rfl
  apply h
  simp [fle, lit_real]
theorem ne_zero_of_not_and {n : ℝ} {q : ℚ} (h : ¬ (flt (-lit q : ℝ) n && flt n (lit q : ℝ)) = true) (hq : 0 < q) :
    n ≠ 0 := by
  rintro rfl
  apply h
  have : (0 : ℝ) < q := by exact_mod_cast hq
  simp [flt, lit_real, this]
theorem le_one_of_not_flt {n : ℝ} (h : ¬ flt (lit 1 : ℝ) n = true) : n ≤ 1 := by
  simpa only [flt, lit_real, decide_eq_true_eq, Rat.cast_one, not_lt] using h
theorem neg_one_le_of_not_flt {n : ℝ} (h : ¬ flt n (-lit 1 : ℝ) = true) : -1 ≤ n := by
  simpa only [flt, lit_real, decide_eq_true_eq, Rat.cast_one, not_lt] using h
theorem tan_ne_zero {a : ℝ} (h1 : cosf a ≠ 0) (h2 : sinf a ≠ 0) : tanf a ≠ 0 := by
  show Real.tan a ≠ 0
  rw [Real.tan_eq_sin_div_cos]
  exact div_ne_zero h2 h1
theorem cos_pi_eighth_ne_zero : cosf (lit 0.785398163397448309615660845819875721 * lit 0.5 : ℝ) ≠ 0 := by
  apply ne_of_gt
  apply Real.cos_pos_of_mem_Ioo
  simp only [lit_real]
  constructor <;> norm_num <;> linarith [Real.pi_gt_three]
theorem sin_pi_eighth_ne_zero : sinf (lit 0.785398163397448309615660845819875721 * lit 0.5 : ℝ) ≠ 0 := by
  apply ne_of_gt
  apply Real.sin_pos_of_pos_of_lt_pi
  · simp only [lit_real]; norm_num
  · simp only [lit_real]; norm_num; linarith [Real.pi_gt_three]
/-- the number `glm_mat2_inv` divides by is the determinant -/
theorem mat2_inv_eq (m : M2 ℝ) : m.c0.x * m.c1.y - m.c0.y * m.c1.x = glm_mat2_det m := by
  simp only [glm_mat2_det]
  ring
theorem mat2_inv_divisor {m : M2 ℝ} (h : glm_mat2_det m ≠ 0) : m.c0.x * m.c1.y - m.c0.y * m.c1.x ≠ 0 := by
  rwa [mat2_inv_eq]
/-- the number `glm_mat3_inv` divides by is the determinant -/
theorem mat3_inv_eq (m : M3 ℝ) :
    m.c0.x * (m.c1.y * m.c2.z - m.c1.z * m.c2.y) - m.c0.y * (m.c1.x * m.c2.z - m.c2.x * m.c1.z) +
      m.c0.z * (m.c1.x * m.c2.y - m.c2.x * m.c1.y) = glm_mat3_det m := by
  simp only [glm_mat3_det]
  ring
theorem mat3_inv_divisor {m : M3 ℝ} (h : glm_mat3_det m ≠ 0) :
    m.c0.x * (m.c1.y * m.c2.z - m.c1.z * m.c2.y) - m.c0.y * (m.c1.x * m.c2.z - m.c2.x * m.c1.z) +
      m.c0.z * (m.c1.x * m.c2.y - m.c2.x * m.c1.y) ≠ 0 := by
  rwa [mat3_inv_eq]
/-- the number `glm_mat4_inv` divides by is the determinant -/
theorem mat4_inv_eq (m : M4 ℝ) :
    (m.c0.x * m.c1.y - m.c0.y * m.c1.x) * (m.c2.z * m.c3.w - m.c2.w * m.c3.z) +
      (m.c0.x * m.c1.w - m.c0.w * m.c1.x) * (m.c2.y * m.c3.z - m.c2.z * m.c3.y) +
      (m.c0.y * m.c1.z - m.c0.z * m.c1.y) * (m.c2.x * m.c3.w - m.c2.w * m.c3.x) +
      (m.c0.z * m.c1.w - m.c0.w * m.c1.z) * (m.c2.x * m.c3.y - m.c2.y * m.c3.x) -
      (m.c0.x * m.c1.z - m.c0.z * m.c1.x) * (m.c2.y * m.c3.w - m.c2.w * m.c3.y) -
      (m.c0.y * m.c1.w - m.c0.w * m.c1.y) * (m.c2.x * m.c3.z - m.c2.z * m.c3.x) = glm_mat4_det m := by
  simp only [glm_mat4_det]
  ring
theorem mat4_inv_divisor {m : M4 ℝ} (h : glm_mat4_det m ≠ 0) :
    (m.c0.x * m.c1.y - m.c0.y * m.c1.x) * (m.c2.z * m.c3.w - m.c2.w * m.c3.z) +
      (m.c0.x * m.c1.w - m.c0.w * m.c1.x) * (m.c2.y * m.c3.z - m.c2.z * m.c3.y) +
      (m.c0.y * m.c1.z - m.c0.z * m.c1.y) * (m.c2.x * m.c3.w - m.c2.w * m.c3.x) +
      (m.c0.z * m.c1.w - m.c0.w * m.c1.z) * (m.c2.x * m.c3.y - m.c2.y * m.c3.x) -
      (m.c0.x * m.c1.z - m.c0.z * m.c1.x) * (m.c2.y * m.c3.w - m.c2.w * m.c3.y) -
      (m.c0.y * m.c1.w - m.c0.w * m.c1.y) * (m.c2.x * m.c3.z - m.c2.z * m.c3.x) ≠ 0 := by
  rwa [mat4_inv_eq]
theorem complex_div_divisor {b : V2 ℝ} (h : ¬ (b.x = 0 ∧ b.y = 0)) : b.x * b.x + b.y * b.y ≠ 0 := by
  intro hz
  apply h
  constructor <;> nlinarith [mul_self_nonneg b.x, mul_self_nonneg b.y]
theorem ray_sphere_divisor {d x : ℝ} (h : ¬ flt x (lit 0 : ℝ) = true) (g : ¬ (d = 0 ∧ x = 0)) :
    (if fle (lit 0 : ℝ) d = true then d + sqrtf x else d - sqrtf x) ≠ 0 := by
  have hx := nonneg_of_not_flt h
  have hs : 0 ≤ sqrtf x := Real.sqrt_nonneg x
  split_ifs with c
  · have hd : 0 ≤ d := by simpa only [fle, lit_real, decide_eq_true_eq, Rat.cast_zero] using c
    intro e
    have e1 : d = 0 := by linarith
    have e2 : sqrtf x = 0 := by linarith
    exact g ⟨e1, (Real.sqrt_eq_zero hx).1 e2⟩
  · have hd : d < 0 := by simpa only [fle, lit_real, decide_eq_true_eq, Rat.cast_zero, not_le] using c
    intro e
    linarith
theorem slerp_range {c : ℝ} (h : ¬ fle (lit 1 : ℝ) (fabsf c) = true) :
    -1 ≤ c ∧ c ≤ 1 ∧ -1 ≤ -c ∧ -c ≤ 1 ∧ 0 ≤ lit 1 - c * c ∧ 0 ≤ lit 1 - -c * -c := by
  have h' : |c| < 1 := by simpa only [fle, fabsf, lit_real, decide_eq_true_eq, Rat.cast_one, not_le] using h
  obtain ⟨h1, h2⟩ := abs_lt.1 h'
  simp only [lit_real]
  push_cast
  refine ⟨by linarith, by linarith, by linarith, by linarith, by nlinarith, by nlinarith⟩

/-- Side conditions: non-zero literals and differences, sums of squares, guarded divisors. -/
macro "dfd_side" : tactic =>
  `(tactic| first
    | assumption
    | exact vec2_norm2_nonneg _ | exact vec3_norm2_nonneg _ | exact vec4_norm2_nonneg _
    | exact vec2_dot_self_nonneg _ | exact vec3_dot_self_nonneg _ | exact vec4_dot_self_nonneg _
    | exact vec2_distance2_nonneg _ _ | exact vec3_distance2_nonneg _ _ | exact vec4_distance2_nonneg _ _
    | exact quat_dot_self_nonneg _
    | (apply Dfd.lit_ne_zero; norm_num; done)
    | (apply sub_ne_zero.2; assumption)
    | (apply sub_ne_zero.2; apply Ne.symm; assumption)
    | (apply ne_zero_of_not_flt; assumption; norm_num; done)
    | (apply ne_zero_of_flt; assumption)
    | (apply ne_zero_of_not_feq; assumption)
    | (apply nonneg_of_not_flt; assumption)
    | (apply nonneg_of_flt; assumption)
    | exact vec4_distance_nonneg _ _
    | (apply ne_zero_of_not_flt_fabsf; assumption; norm_num; done)
    | (apply sqrtf_ne_zero_of_pos; assumption)
    | (apply sqrtf_ne_zero_of_not_fle; assumption)
    | (apply ne_zero_of_not_or_left; assumption)
    | (apply ne_zero_of_not_or_right; assumption)
    | (apply ne_zero_of_not_and; assumption; norm_num; done)
    | (apply le_one_of_not_flt; assumption)
    | (apply neg_one_le_of_not_flt; assumption)
    | (apply le_of_lt; assumption)
    | (simp only [lit_real]; norm_num; done)
    | fail "side condition")

/-- Unfold a generated function on both sides and move defined values outwards. -/
macro "dfd_step " f:ident : tactic =>
  `(tactic| first
    | (simp (disch := dfd_side) only [$f:ident, dfd]; done)
    | (simp (disch := dfd_side) only [$f:ident, dfd]; rfl)
    | (unfold $f:ident; rfl)
    | (simp (disch := dfd_side) only [$f:ident, dfd]
       split_ifs <;> first | rfl | (simp (disch := dfd_side) only [dfd]; done) | (simp (disch := dfd_side) only [dfd]; rfl)))

end Cglm
