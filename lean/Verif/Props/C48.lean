import Verif.Props.C40
import Verif.Gen.Vec2Ext
import Mathlib.Tactic.LinearCombination

/-! # C48: norms, normalization, distances -/

namespace Cglm

def V2.add (a b : V2 ℝ) : V2 ℝ := ⟨a.x + b.x, a.y + b.y⟩
def V2.sub (a b : V2 ℝ) : V2 ℝ := ⟨a.x - b.x, a.y - b.y⟩
def V4.add (a b : V4 ℝ) : V4 ℝ := ⟨a.x + b.x, a.y + b.y, a.z + b.z, a.w + b.w⟩
def V4.sub (a b : V4 ℝ) : V4 ℝ := ⟨a.x - b.x, a.y - b.y, a.z - b.z, a.w - b.w⟩

theorem V2.dot_self_eq_zero {v : V2 ℝ} : v.dot v = 0 ↔ v = ⟨0, 0⟩ := by
  constructor
  · intro h; unfold V2.dot at h
    ext <;> simp only [] <;> nlinarith [mul_self_nonneg v.x, mul_self_nonneg v.y]
  · rintro rfl; simp [V2.dot]

/-! ## vec2 -/

theorem V2.cauchy (a b : V2 ℝ) : a.dot b ≤ a.len * b.len := by
  have h : (a.dot b) ^ 2 ≤ (a.len * b.len) ^ 2 := by
    rw [mul_pow, sq a.len, sq b.len, V2.len_sq, V2.len_sq]
    simp only [V2.dot]
    nlinarith [sq_nonneg (a.x * b.y - a.y * b.x)]
  exact le_of_abs_le (abs_le_of_sq_le_sq h (mul_nonneg a.len_nonneg b.len_nonneg))
theorem V2.len_add_le (a b : V2 ℝ) : (a.add b).len ≤ a.len + b.len := by
  have h := V2.cauchy a b
  have e : (a.add b).len * (a.add b).len = a.len * a.len + b.len * b.len + 2 * a.dot b := by
    rw [V2.len_sq, V2.len_sq, V2.len_sq]; simp only [V2.dot, V2.add]; ring
  have h1 := a.len_nonneg; have h2 := b.len_nonneg
  by_contra hn
  push Not at hn
  nlinarith
theorem V2.len_smul (a : V2 ℝ) (s : ℝ) : (a.smul s).len = |s| * a.len := by
  unfold V2.len
  have : (a.smul s).dot (a.smul s) = s ^ 2 * a.dot a := by simp only [V2.dot, V2.smul]; ring
  rw [this, Real.sqrt_mul (sq_nonneg s), Real.sqrt_sq_eq_abs]
theorem V2.dist_comm (a b : V2 ℝ) : (a.sub b).len = (b.sub a).len := by
  unfold V2.len; congr 1; simp only [V2.dot, V2.sub]; ring
theorem V2.dist_triangle (a b c : V2 ℝ) : (a.sub c).len ≤ (a.sub b).len + (b.sub c).len := by
  have : a.sub c = (a.sub b).add (b.sub c) := by ext <;> simp [V2.sub, V2.add]
  rw [this]; exact V2.len_add_le _ _
theorem glm_vec2_dot_eq (a b : V2 ℝ) : glm_vec2_dot a b = a.dot b := by simp [cglm, V2.dot]

theorem V2.len_eq_zero {v : V2 ℝ} : v.len = 0 ↔ v = ⟨0, 0⟩ := by
  unfold V2.len; rw [Real.sqrt_eq_zero v.dot_self_nonneg, V2.dot_self_eq_zero]
theorem vec2_dist_eq (a b : V2 ℝ) : glm_vec2_distance a b = (a.sub b).len := by
  simp only [cglm, V2.len, V2.dot, V2.sub]; congr 1; ring

theorem C48_vec2_norm2 (v : V2 ℝ) : glm_vec2_norm2 v = v.x ^ 2 + v.y ^ 2 := by simp only [cglm]; ring
theorem C48_vec2_norm (v : V2 ℝ) : glm_vec2_norm v = √(v.x ^ 2 + v.y ^ 2) := by simp only [cglm]; congr 1; ring
theorem C48_vec2_norm_zero (v : V2 ℝ) : glm_vec2_norm v = 0 ↔ v = ⟨0, 0⟩ := by rw [glm_vec2_norm_eq, V2.len_eq_zero]
theorem C48_vec2_norm_scale (v : V2 ℝ) (s : ℝ) : glm_vec2_norm (glm_vec2_scale v s) = |s| * glm_vec2_norm v := by
  rw [glm_vec2_norm_eq, glm_vec2_norm_eq, ← V2.len_smul]; congr 1; ext <;> simp only [cglm, V2.smul] <;> ring
theorem C48_vec2_norm_triangle (a b : V2 ℝ) : glm_vec2_norm (glm_vec2_add a b) ≤ glm_vec2_norm a + glm_vec2_norm b := by
  simp only [glm_vec2_norm_eq]; exact V2.len_add_le a b
theorem C48_vec2_cauchy (a b : V2 ℝ) : |glm_vec2_dot a b| ≤ glm_vec2_norm a * glm_vec2_norm b := by
  simp only [glm_vec2_norm_eq, glm_vec2_dot_eq]
  rw [abs_le']; refine ⟨V2.cauchy a b, ?_⟩
  have := V2.cauchy (a.smul (-1)) b
  rw [V2.len_smul] at this; norm_num at this
  refine le_trans (le_of_eq ?_) this
  simp only [V2.dot, V2.smul]; ring

/-- unit length and the same direction, for vectors that are not too short -/
theorem C48_vec2_normalize (v : V2 ℝ) (h : FLT_EPSILON ≤ v.len) : (glm_vec2_normalize v).len = 1 ∧
    (∃ k > 0, glm_vec2_normalize v = v.smul k) ∧ glm_vec2_normalize_to v = glm_vec2_normalize v := by
  have hp : 0 < v.len := lt_of_lt_of_le FLT_EPSILON_pos h
  have e : glm_vec2_normalize v = v.smul (1 / v.len) := by
    unfold glm_vec2_normalize
    simp only [glm_vec2_norm_eq, flt_real, lit_scientific, eps_lit, decide_eq_true_eq, not_lt.mpr h, if_false]
    ext <;> simp only [glm_vec2_scale, lit_one, V2.smul] <;> ring
  have e' : glm_vec2_normalize_to v = v.smul (1 / v.len) := by
    unfold glm_vec2_normalize_to
    simp only [glm_vec2_norm_eq, flt_real, lit_scientific, eps_lit, decide_eq_true_eq, not_lt.mpr h, if_false]
    ext <;> simp only [glm_vec2_scale, lit_one, V2.smul] <;> ring
  refine ⟨?_, ⟨1 / v.len, by positivity, e⟩, e'.trans e.symm⟩
  rw [e, V2.len_smul, abs_of_pos (by positivity)]; field_simp
example : FLT_EPSILON ≤ (⟨3, -4⟩ : V2 ℝ).len := by
  rw [show (⟨3, -4⟩ : V2 ℝ).len = 5 by unfold V2.len V2.dot; rw [show (5 : ℝ) = √(5 ^ 2) by rw [Real.sqrt_sq]; norm_num]; congr 1; norm_num]
  norm_num [FLT_EPSILON]
theorem C48_vec2_normalize_small (v : V2 ℝ) (h : v.len < FLT_EPSILON) :
    glm_vec2_normalize v = ⟨0, 0⟩ ∧ glm_vec2_normalize_to v = ⟨0, 0⟩ := by
  constructor
  · unfold glm_vec2_normalize
    simp only [glm_vec2_norm_eq, flt_real, lit_scientific, eps_lit, decide_eq_true_eq, h, if_true, lit_zero]
  · unfold glm_vec2_normalize_to
    simp only [glm_vec2_norm_eq, flt_real, lit_scientific, eps_lit, decide_eq_true_eq, h, if_true, glm_vec2_zero, lit_zero]
example : (⟨0, 0⟩ : V2 ℝ).len < FLT_EPSILON := by rw [V2.len_eq_zero.mpr rfl]; exact FLT_EPSILON_pos
/-- scale_as gives the requested length (reversing the direction for a negative one), zero for too short vectors -/
theorem C48_vec2_scale_as (v : V2 ℝ) (s : ℝ) (h : FLT_EPSILON ≤ v.len) :
    (glm_vec2_scale_as v s).len = |s| ∧ glm_vec2_scale_as v s = v.smul (s / v.len) := by
  have hp : 0 < v.len := lt_of_lt_of_le FLT_EPSILON_pos h
  have e : glm_vec2_scale_as v s = v.smul (s / v.len) := by
    unfold glm_vec2_scale_as
    simp only [glm_vec2_norm_eq, flt_real, lit_scientific, eps_lit, decide_eq_true_eq, not_lt.mpr h, if_false]
    ext <;> simp only [glm_vec2_scale, V2.smul] <;> ring
  refine ⟨?_, e⟩
  rw [e, V2.len_smul, abs_div, abs_of_pos hp]; field_simp
theorem C48_vec2_scale_as_small (v : V2 ℝ) (s : ℝ) (h : v.len < FLT_EPSILON) : glm_vec2_scale_as v s = ⟨0, 0⟩ := by
  unfold glm_vec2_scale_as
  simp only [glm_vec2_norm_eq, flt_real, lit_scientific, eps_lit, decide_eq_true_eq, h, if_true, glm_vec2_zero, lit_zero]

/-- the distance is a metric -/
theorem C48_vec2_distance (a b : V2 ℝ) : glm_vec2_distance a b = √((a.x - b.x) ^ 2 + (a.y - b.y) ^ 2) := by simp only [cglm]; congr 1; ring
theorem C48_vec2_distance2 (a b : V2 ℝ) : glm_vec2_distance2 a b = glm_vec2_distance a b ^ 2 := by
  rw [vec2_dist_eq, sq, V2.len_sq]; simp only [cglm, V2.dot, V2.sub]; ring
theorem C48_vec2_distance_zero (a b : V2 ℝ) : glm_vec2_distance a b = 0 ↔ a = b := by
  rw [vec2_dist_eq, V2.len_eq_zero]
  simp only [V2.sub, sub_eq_zero, V2.ext_iff]
theorem C48_vec2_distance_comm (a b : V2 ℝ) : glm_vec2_distance a b = glm_vec2_distance b a := by
  rw [vec2_dist_eq, vec2_dist_eq]; exact V2.dist_comm a b
theorem C48_vec2_distance_triangle (a b c : V2 ℝ) : glm_vec2_distance a c ≤ glm_vec2_distance a b + glm_vec2_distance b c := by
  simp only [vec2_dist_eq]; exact V2.dist_triangle a b c

/-- the center has the same distance from both points, half the distance between them -/
theorem C48_vec2_center (a b : V2 ℝ) : glm_vec2_distance a (glm_vec2_center a b) = glm_vec2_distance a b / 2 ∧
    glm_vec2_distance b (glm_vec2_center a b) = glm_vec2_distance a b / 2 := by
  have e : a.sub (glm_vec2_center a b) = (a.sub b).smul (1 / 2) := by ext <;> simp only [cglm, V2.sub, V2.smul] <;> ring
  have e' : b.sub (glm_vec2_center a b) = (a.sub b).smul (-1 / 2) := by ext <;> simp only [cglm, V2.sub, V2.smul] <;> ring
  simp only [vec2_dist_eq, e, e', V2.len_smul]
  constructor <;> norm_num [abs_div] <;> ring

/-! ## vec3 -/

theorem V3.len_eq_zero {v : V3 ℝ} : v.len = 0 ↔ v = ⟨0, 0, 0⟩ := by
  unfold V3.len; rw [Real.sqrt_eq_zero v.dot_self_nonneg, V3.dot_self_eq_zero]
theorem vec3_dist_eq (a b : V3 ℝ) : glm_vec3_distance a b = (a.sub b).len := by
  simp only [cglm, V3.len, V3.dot, V3.sub]

theorem C48_vec3_norm2 (v : V3 ℝ) : glm_vec3_norm2 v = v.x ^ 2 + v.y ^ 2 + v.z ^ 2 := by simp only [cglm]; ring
theorem C48_vec3_norm (v : V3 ℝ) : glm_vec3_norm v = √(v.x ^ 2 + v.y ^ 2 + v.z ^ 2) := by simp only [cglm]; congr 1; ring
theorem C48_vec3_norm_zero (v : V3 ℝ) : glm_vec3_norm v = 0 ↔ v = ⟨0, 0, 0⟩ := by rw [glm_vec3_norm_eq, V3.len_eq_zero]
theorem C48_vec3_norm_scale (v : V3 ℝ) (s : ℝ) : glm_vec3_norm (glm_vec3_scale v s) = |s| * glm_vec3_norm v := by
  rw [glm_vec3_norm_eq, glm_vec3_norm_eq, ← V3.len_smul]; congr 1; ext <;> simp only [cglm, V3.smul] <;> ring
theorem C48_vec3_norm_triangle (a b : V3 ℝ) : glm_vec3_norm (glm_vec3_add a b) ≤ glm_vec3_norm a + glm_vec3_norm b := by
  simp only [glm_vec3_norm_eq]; exact V3.len_add_le a b
theorem C48_vec3_cauchy (a b : V3 ℝ) : |glm_vec3_dot a b| ≤ glm_vec3_norm a * glm_vec3_norm b := by
  simp only [glm_vec3_norm_eq, glm_vec3_dot_eq]
  rw [abs_le']; refine ⟨V3.cauchy a b, ?_⟩
  have := V3.cauchy (a.smul (-1)) b
  rw [V3.len_smul] at this; norm_num at this
  refine le_trans (le_of_eq ?_) this
  simp only [V3.dot, V3.smul]; ring

/-- unit length and the same direction, for vectors that are not too short -/
theorem C48_vec3_normalize (v : V3 ℝ) (h : FLT_EPSILON ≤ v.len) : (glm_vec3_normalize v).len = 1 ∧
    (∃ k > 0, glm_vec3_normalize v = v.smul k) ∧ glm_vec3_normalize_to v = glm_vec3_normalize v := by
  have hp : 0 < v.len := lt_of_lt_of_le FLT_EPSILON_pos h
  have e : glm_vec3_normalize v = v.smul (1 / v.len) := by
    unfold glm_vec3_normalize
    simp only [glm_vec3_norm_eq, flt_real, lit_scientific, eps_lit, decide_eq_true_eq, not_lt.mpr h, if_false]
    ext <;> simp only [glm_vec3_scale, lit_one, V3.smul] <;> ring
  have e' : glm_vec3_normalize_to v = v.smul (1 / v.len) := by
    unfold glm_vec3_normalize_to
    simp only [glm_vec3_norm_eq, flt_real, lit_scientific, eps_lit, decide_eq_true_eq, not_lt.mpr h, if_false]
    ext <;> simp only [glm_vec3_scale, lit_one, V3.smul] <;> ring
  refine ⟨?_, ⟨1 / v.len, by positivity, e⟩, e'.trans e.symm⟩
  rw [e, V3.len_smul, abs_of_pos (by positivity)]; field_simp
example : FLT_EPSILON ≤ (⟨3, -4, 0⟩ : V3 ℝ).len := by
  rw [show (⟨3, -4, 0⟩ : V3 ℝ).len = 5 by unfold V3.len V3.dot; rw [show (5 : ℝ) = √(5 ^ 2) by rw [Real.sqrt_sq]; norm_num]; congr 1; norm_num]
  norm_num [FLT_EPSILON]
theorem C48_vec3_normalize_small (v : V3 ℝ) (h : v.len < FLT_EPSILON) :
    glm_vec3_normalize v = ⟨0, 0, 0⟩ ∧ glm_vec3_normalize_to v = ⟨0, 0, 0⟩ := by
  constructor
  · unfold glm_vec3_normalize
    simp only [glm_vec3_norm_eq, flt_real, lit_scientific, eps_lit, decide_eq_true_eq, h, if_true, lit_zero]
  · unfold glm_vec3_normalize_to
    simp only [glm_vec3_norm_eq, flt_real, lit_scientific, eps_lit, decide_eq_true_eq, h, if_true, glm_vec3_zero, lit_zero]
example : (⟨0, 0, 0⟩ : V3 ℝ).len < FLT_EPSILON := by rw [V3.len_eq_zero.mpr rfl]; exact FLT_EPSILON_pos
/-- the two unprefixed spellings are the same functions -/
theorem C48_normalize_alias (v : V3 ℝ) : glm_normalize v = glm_vec3_normalize v ∧ glm_normalize_to v = glm_vec3_normalize_to v := ⟨rfl, rfl⟩
/-- scale_as gives the requested length (reversing the direction for a negative one), zero for too short vectors -/
theorem C48_vec3_scale_as (v : V3 ℝ) (s : ℝ) (h : FLT_EPSILON ≤ v.len) :
    (glm_vec3_scale_as v s).len = |s| ∧ glm_vec3_scale_as v s = v.smul (s / v.len) := by
  have hp : 0 < v.len := lt_of_lt_of_le FLT_EPSILON_pos h
  have e : glm_vec3_scale_as v s = v.smul (s / v.len) := by
    unfold glm_vec3_scale_as
    simp only [glm_vec3_norm_eq, flt_real, lit_scientific, eps_lit, decide_eq_true_eq, not_lt.mpr h, if_false]
    ext <;> simp only [glm_vec3_scale, V3.smul] <;> ring
  refine ⟨?_, e⟩
  rw [e, V3.len_smul, abs_div, abs_of_pos hp]; field_simp
theorem C48_vec3_scale_as_small (v : V3 ℝ) (s : ℝ) (h : v.len < FLT_EPSILON) : glm_vec3_scale_as v s = ⟨0, 0, 0⟩ := by
  unfold glm_vec3_scale_as
  simp only [glm_vec3_norm_eq, flt_real, lit_scientific, eps_lit, decide_eq_true_eq, h, if_true, glm_vec3_zero, lit_zero]

/-- the distance is a metric -/
theorem C48_vec3_distance (a b : V3 ℝ) : glm_vec3_distance a b = √((a.x - b.x) ^ 2 + (a.y - b.y) ^ 2 + (a.z - b.z) ^ 2) := by simp only [cglm]; congr 1; ring
theorem C48_vec3_distance2 (a b : V3 ℝ) : glm_vec3_distance2 a b = glm_vec3_distance a b ^ 2 := by
  rw [vec3_dist_eq, sq, V3.len_sq]; simp only [cglm, V3.dot, V3.sub]
theorem C48_vec3_distance_zero (a b : V3 ℝ) : glm_vec3_distance a b = 0 ↔ a = b := by
  rw [vec3_dist_eq, V3.len_eq_zero]
  simp only [V3.sub, sub_eq_zero, V3.ext_iff]
theorem C48_vec3_distance_comm (a b : V3 ℝ) : glm_vec3_distance a b = glm_vec3_distance b a := by
  rw [vec3_dist_eq, vec3_dist_eq]; exact V3.dist_comm a b
theorem C48_vec3_distance_triangle (a b c : V3 ℝ) : glm_vec3_distance a c ≤ glm_vec3_distance a b + glm_vec3_distance b c := by
  simp only [vec3_dist_eq]; exact V3.dist_triangle a b c

/-- the center has the same distance from both points, half the distance between them -/
theorem C48_vec3_center (a b : V3 ℝ) : glm_vec3_distance a (glm_vec3_center a b) = glm_vec3_distance a b / 2 ∧
    glm_vec3_distance b (glm_vec3_center a b) = glm_vec3_distance a b / 2 := by
  have e : a.sub (glm_vec3_center a b) = (a.sub b).smul (1 / 2) := by ext <;> simp only [cglm, V3.sub, V3.smul] <;> ring
  have e' : b.sub (glm_vec3_center a b) = (a.sub b).smul (-1 / 2) := by ext <;> simp only [cglm, V3.sub, V3.smul] <;> ring
  simp only [vec3_dist_eq, e, e', V3.len_smul]
  constructor <;> norm_num [abs_div] <;> ring

/-- the sum norm and the maximum norm -/
theorem C48_vec3_norm_one (v : V3 ℝ) : glm_vec3_norm_one v = |v.x| + |v.y| + |v.z| := by simp only [cglm]
theorem C48_vec3_norm_inf (v : V3 ℝ) : glm_vec3_norm_inf v = max (max |v.x| |v.y|) |v.z| := by
  unfold glm_vec3_norm_inf; rw [vec3_max_eq]; simp only [cglm]
theorem C48_vec3_norm_order (v : V3 ℝ) : glm_vec3_norm_inf v ≤ glm_vec3_norm v ∧ glm_vec3_norm v ≤ glm_vec3_norm_one v := by
  rw [C48_vec3_norm_inf, C48_vec3_norm_one, C48_vec3_norm]
  constructor
  · simp only [max_le_iff]
    refine ⟨⟨?_, ?_⟩, ?_⟩ <;> apply Real.abs_le_sqrt <;> nlinarith [sq_nonneg v.x, sq_nonneg v.y, sq_nonneg v.z]
  · rw [Real.sqrt_le_left (by positivity)]
    have qx := sq_abs v.x
    have qy := sq_abs v.y
    have qz := sq_abs v.z
    have pxy := mul_nonneg (abs_nonneg v.x) (abs_nonneg v.y)
    have pxz := mul_nonneg (abs_nonneg v.x) (abs_nonneg v.z)
    have pyz := mul_nonneg (abs_nonneg v.y) (abs_nonneg v.z)
    nlinarith
theorem C48_vec3_norm_one_triangle (a b : V3 ℝ) : glm_vec3_norm_one (glm_vec3_add a b) ≤ glm_vec3_norm_one a + glm_vec3_norm_one b := by
  simp only [C48_vec3_norm_one, glm_vec3_add]
  linarith [abs_add_le a.x b.x, abs_add_le a.y b.y, abs_add_le a.z b.z]
theorem C48_vec3_norm_inf_triangle (a b : V3 ℝ) : glm_vec3_norm_inf (glm_vec3_add a b) ≤ glm_vec3_norm_inf a + glm_vec3_norm_inf b := by
  simp only [C48_vec3_norm_inf, glm_vec3_add, max_le_iff]
  exact ⟨⟨(abs_add_le _ _).trans (add_le_add ((le_max_left _ _).trans (le_max_left _ _)) ((le_max_left _ _).trans (le_max_left _ _))), (abs_add_le _ _).trans (add_le_add ((le_max_right _ _).trans (le_max_left _ _)) ((le_max_right _ _).trans (le_max_left _ _)))⟩, (abs_add_le _ _).trans (add_le_add (le_max_right _ _) (le_max_right _ _))⟩
theorem C48_vec3_norm_one_zero (v : V3 ℝ) : glm_vec3_norm_one v = 0 ↔ v = ⟨0, 0, 0⟩ := by
  rw [C48_vec3_norm_one]
  constructor
  · intro h
    have px := abs_nonneg v.x
    have py := abs_nonneg v.y
    have pz := abs_nonneg v.z
    ext <;> simp only [] <;> rw [← abs_eq_zero] <;> linarith
  · rintro rfl; simp
theorem C48_vec3_norm_inf_zero (v : V3 ℝ) : glm_vec3_norm_inf v = 0 ↔ v = ⟨0, 0, 0⟩ := by
  constructor
  · intro h
    have := (C48_vec3_norm_inf v).symm.trans h |>.le
    simp only [max_le_iff, abs_nonpos_iff] at this
    ext <;> tauto
  · rintro rfl; rw [C48_vec3_norm_inf]; simp

/-! ## vec4 -/

theorem V4.cauchy (a b : V4 ℝ) : a.dot b ≤ a.len * b.len := by
  have h : (a.dot b) ^ 2 ≤ (a.len * b.len) ^ 2 := by
    rw [mul_pow, sq a.len, sq b.len, V4.len_sq, V4.len_sq]
    simp only [V4.dot]
    nlinarith [sq_nonneg (a.x * b.y - a.y * b.x), sq_nonneg (a.x * b.z - a.z * b.x), sq_nonneg (a.x * b.w - a.w * b.x), sq_nonneg (a.y * b.z - a.z * b.y), sq_nonneg (a.y * b.w - a.w * b.y), sq_nonneg (a.z * b.w - a.w * b.z)]
  exact le_of_abs_le (abs_le_of_sq_le_sq h (mul_nonneg a.len_nonneg b.len_nonneg))
theorem V4.len_add_le (a b : V4 ℝ) : (a.add b).len ≤ a.len + b.len := by
  have h := V4.cauchy a b
  have e : (a.add b).len * (a.add b).len = a.len * a.len + b.len * b.len + 2 * a.dot b := by
    rw [V4.len_sq, V4.len_sq, V4.len_sq]; simp only [V4.dot, V4.add]; ring
  have h1 := a.len_nonneg; have h2 := b.len_nonneg
  by_contra hn
  push Not at hn
  nlinarith
theorem V4.len_smul (a : V4 ℝ) (s : ℝ) : (a.smul s).len = |s| * a.len := by
  unfold V4.len
  have : (a.smul s).dot (a.smul s) = s ^ 2 * a.dot a := by simp only [V4.dot, V4.smul]; ring
  rw [this, Real.sqrt_mul (sq_nonneg s), Real.sqrt_sq_eq_abs]
theorem V4.dist_comm (a b : V4 ℝ) : (a.sub b).len = (b.sub a).len := by
  unfold V4.len; congr 1; simp only [V4.dot, V4.sub]; ring
theorem V4.dist_triangle (a b c : V4 ℝ) : (a.sub c).len ≤ (a.sub b).len + (b.sub c).len := by
  have : a.sub c = (a.sub b).add (b.sub c) := by ext <;> simp [V4.sub, V4.add]
  rw [this]; exact V4.len_add_le _ _
theorem vec4_max_eq (v : V4 ℝ) : glm_vec4_max v = max (max (max v.x v.y) v.z) v.w := by
  unfold glm_vec4_max; rw [vec3_max_eq]
  simp only [flt_real, decide_eq_true_eq]
  split_ifs with h
  · rw [max_eq_right h.le]
  · rw [max_eq_left (not_lt.mp h)]

theorem V4.len_eq_zero {v : V4 ℝ} : v.len = 0 ↔ v = ⟨0, 0, 0, 0⟩ := by
  unfold V4.len; rw [Real.sqrt_eq_zero v.dot_self_nonneg, V4.dot_self_eq_zero]
theorem vec4_dist_eq (a b : V4 ℝ) : glm_vec4_distance a b = (a.sub b).len := by
  simp only [cglm, V4.len, V4.dot, V4.sub]

theorem C48_vec4_norm2 (v : V4 ℝ) : glm_vec4_norm2 v = v.x ^ 2 + v.y ^ 2 + v.z ^ 2 + v.w ^ 2 := by simp only [cglm]; ring
theorem C48_vec4_norm (v : V4 ℝ) : glm_vec4_norm v = √(v.x ^ 2 + v.y ^ 2 + v.z ^ 2 + v.w ^ 2) := by simp only [cglm]; congr 1; ring
theorem C48_vec4_norm_zero (v : V4 ℝ) : glm_vec4_norm v = 0 ↔ v = ⟨0, 0, 0, 0⟩ := by rw [glm_vec4_norm_eq, V4.len_eq_zero]
theorem C48_vec4_norm_scale (v : V4 ℝ) (s : ℝ) : glm_vec4_norm (glm_vec4_scale v s) = |s| * glm_vec4_norm v := by
  rw [glm_vec4_norm_eq, glm_vec4_norm_eq, ← V4.len_smul]; congr 1; ext <;> simp only [cglm, V4.smul] <;> ring
theorem C48_vec4_norm_triangle (a b : V4 ℝ) : glm_vec4_norm (glm_vec4_add a b) ≤ glm_vec4_norm a + glm_vec4_norm b := by
  simp only [glm_vec4_norm_eq]; exact V4.len_add_le a b
theorem C48_vec4_cauchy (a b : V4 ℝ) : |glm_vec4_dot a b| ≤ glm_vec4_norm a * glm_vec4_norm b := by
  simp only [glm_vec4_norm_eq, glm_vec4_dot_eq]
  rw [abs_le']; refine ⟨V4.cauchy a b, ?_⟩
  have := V4.cauchy (a.smul (-1)) b
  rw [V4.len_smul] at this; norm_num at this
  refine le_trans (le_of_eq ?_) this
  simp only [V4.dot, V4.smul]; ring

/-- unit length and the same direction, for vectors that are not too short -/
theorem C48_vec4_normalize (v : V4 ℝ) (h : FLT_EPSILON ≤ v.len) : (glm_vec4_normalize v).len = 1 ∧
    (∃ k > 0, glm_vec4_normalize v = v.smul k) ∧ glm_vec4_normalize_to v = glm_vec4_normalize v := by
  have hp : 0 < v.len := lt_of_lt_of_le FLT_EPSILON_pos h
  have e : glm_vec4_normalize v = v.smul (1 / v.len) := by
    unfold glm_vec4_normalize glm_vec4_normalize_to
    simp only [glm_vec4_norm_eq, flt_real, lit_scientific, eps_lit, decide_eq_true_eq, not_lt.mpr h, if_false]
    ext <;> simp only [glm_vec4_scale, lit_one, V4.smul] <;> ring
  have e' : glm_vec4_normalize_to v = v.smul (1 / v.len) := by
    unfold glm_vec4_normalize_to
    simp only [glm_vec4_norm_eq, flt_real, lit_scientific, eps_lit, decide_eq_true_eq, not_lt.mpr h, if_false]
    ext <;> simp only [glm_vec4_scale, lit_one, V4.smul] <;> ring
  refine ⟨?_, ⟨1 / v.len, by positivity, e⟩, e'.trans e.symm⟩
  rw [e, V4.len_smul, abs_of_pos (by positivity)]; field_simp
example : FLT_EPSILON ≤ (⟨3, -4, 0, 0⟩ : V4 ℝ).len := by
  rw [show (⟨3, -4, 0, 0⟩ : V4 ℝ).len = 5 by unfold V4.len V4.dot; rw [show (5 : ℝ) = √(5 ^ 2) by rw [Real.sqrt_sq]; norm_num]; congr 1; norm_num]
  norm_num [FLT_EPSILON]
theorem C48_vec4_normalize_small (v : V4 ℝ) (h : v.len < FLT_EPSILON) :
    glm_vec4_normalize v = ⟨0, 0, 0, 0⟩ ∧ glm_vec4_normalize_to v = ⟨0, 0, 0, 0⟩ := by
  constructor
  · unfold glm_vec4_normalize glm_vec4_normalize_to
    simp only [glm_vec4_norm_eq, flt_real, lit_scientific, eps_lit, decide_eq_true_eq, h, if_true, glm_vec4_zero, lit_zero]
  · unfold glm_vec4_normalize_to
    simp only [glm_vec4_norm_eq, flt_real, lit_scientific, eps_lit, decide_eq_true_eq, h, if_true, glm_vec4_zero, lit_zero]
example : (⟨0, 0, 0, 0⟩ : V4 ℝ).len < FLT_EPSILON := by rw [V4.len_eq_zero.mpr rfl]; exact FLT_EPSILON_pos
/-- scale_as gives the requested length (reversing the direction for a negative one), zero for too short vectors -/
theorem C48_vec4_scale_as (v : V4 ℝ) (s : ℝ) (h : FLT_EPSILON ≤ v.len) :
    (glm_vec4_scale_as v s).len = |s| ∧ glm_vec4_scale_as v s = v.smul (s / v.len) := by
  have hp : 0 < v.len := lt_of_lt_of_le FLT_EPSILON_pos h
  have e : glm_vec4_scale_as v s = v.smul (s / v.len) := by
    unfold glm_vec4_scale_as
    simp only [glm_vec4_norm_eq, flt_real, lit_scientific, eps_lit, decide_eq_true_eq, not_lt.mpr h, if_false]
    ext <;> simp only [glm_vec4_scale, V4.smul] <;> ring
  refine ⟨?_, e⟩
  rw [e, V4.len_smul, abs_div, abs_of_pos hp]; field_simp
theorem C48_vec4_scale_as_small (v : V4 ℝ) (s : ℝ) (h : v.len < FLT_EPSILON) : glm_vec4_scale_as v s = ⟨0, 0, 0, 0⟩ := by
  unfold glm_vec4_scale_as
  simp only [glm_vec4_norm_eq, flt_real, lit_scientific, eps_lit, decide_eq_true_eq, h, if_true, glm_vec4_zero, lit_zero]

/-- the distance is a metric -/
theorem C48_vec4_distance (a b : V4 ℝ) : glm_vec4_distance a b = √((a.x - b.x) ^ 2 + (a.y - b.y) ^ 2 + (a.z - b.z) ^ 2 + (a.w - b.w) ^ 2) := by simp only [cglm]; congr 1; ring
theorem C48_vec4_distance2 (a b : V4 ℝ) : glm_vec4_distance2 a b = glm_vec4_distance a b ^ 2 := by
  rw [vec4_dist_eq, sq, V4.len_sq]; simp only [cglm, V4.dot, V4.sub]
theorem C48_vec4_distance_zero (a b : V4 ℝ) : glm_vec4_distance a b = 0 ↔ a = b := by
  rw [vec4_dist_eq, V4.len_eq_zero]
  simp only [V4.sub, sub_eq_zero, V4.ext_iff]
theorem C48_vec4_distance_comm (a b : V4 ℝ) : glm_vec4_distance a b = glm_vec4_distance b a := by
  rw [vec4_dist_eq, vec4_dist_eq]; exact V4.dist_comm a b
theorem C48_vec4_distance_triangle (a b c : V4 ℝ) : glm_vec4_distance a c ≤ glm_vec4_distance a b + glm_vec4_distance b c := by
  simp only [vec4_dist_eq]; exact V4.dist_triangle a b c

/-- the sum norm and the maximum norm -/
theorem C48_vec4_norm_one (v : V4 ℝ) : glm_vec4_norm_one v = |v.x| + |v.y| + |v.z| + |v.w| := by simp only [cglm]
theorem C48_vec4_norm_inf (v : V4 ℝ) : glm_vec4_norm_inf v = max (max (max |v.x| |v.y|) |v.z|) |v.w| := by
  unfold glm_vec4_norm_inf; rw [vec4_max_eq]; simp only [cglm]
theorem C48_vec4_norm_order (v : V4 ℝ) : glm_vec4_norm_inf v ≤ glm_vec4_norm v ∧ glm_vec4_norm v ≤ glm_vec4_norm_one v := by
  rw [C48_vec4_norm_inf, C48_vec4_norm_one, C48_vec4_norm]
  constructor
  · simp only [max_le_iff]
    refine ⟨⟨⟨?_, ?_⟩, ?_⟩, ?_⟩ <;> apply Real.abs_le_sqrt <;> nlinarith [sq_nonneg v.x, sq_nonneg v.y, sq_nonneg v.z, sq_nonneg v.w]
  · rw [Real.sqrt_le_left (by positivity)]
    have qx := sq_abs v.x
    have qy := sq_abs v.y
    have qz := sq_abs v.z
    have qw := sq_abs v.w
    have pxy := mul_nonneg (abs_nonneg v.x) (abs_nonneg v.y)
    have pxz := mul_nonneg (abs_nonneg v.x) (abs_nonneg v.z)
    have pxw := mul_nonneg (abs_nonneg v.x) (abs_nonneg v.w)
    have pyz := mul_nonneg (abs_nonneg v.y) (abs_nonneg v.z)
    have pyw := mul_nonneg (abs_nonneg v.y) (abs_nonneg v.w)
    have pzw := mul_nonneg (abs_nonneg v.z) (abs_nonneg v.w)
    nlinarith
theorem C48_vec4_norm_one_triangle (a b : V4 ℝ) : glm_vec4_norm_one (glm_vec4_add a b) ≤ glm_vec4_norm_one a + glm_vec4_norm_one b := by
  simp only [C48_vec4_norm_one, glm_vec4_add]
  linarith [abs_add_le a.x b.x, abs_add_le a.y b.y, abs_add_le a.z b.z, abs_add_le a.w b.w]
theorem C48_vec4_norm_inf_triangle (a b : V4 ℝ) : glm_vec4_norm_inf (glm_vec4_add a b) ≤ glm_vec4_norm_inf a + glm_vec4_norm_inf b := by
  simp only [C48_vec4_norm_inf, glm_vec4_add, max_le_iff]
  exact ⟨⟨⟨(abs_add_le _ _).trans (add_le_add (((le_max_left _ _).trans (le_max_left _ _)).trans (le_max_left _ _)) (((le_max_left _ _).trans (le_max_left _ _)).trans (le_max_left _ _))), (abs_add_le _ _).trans (add_le_add (((le_max_right _ _).trans (le_max_left _ _)).trans (le_max_left _ _)) (((le_max_right _ _).trans (le_max_left _ _)).trans (le_max_left _ _)))⟩, (abs_add_le _ _).trans (add_le_add ((le_max_right _ _).trans (le_max_left _ _)) ((le_max_right _ _).trans (le_max_left _ _)))⟩, (abs_add_le _ _).trans (add_le_add (le_max_right _ _) (le_max_right _ _))⟩
theorem C48_vec4_norm_one_zero (v : V4 ℝ) : glm_vec4_norm_one v = 0 ↔ v = ⟨0, 0, 0, 0⟩ := by
  rw [C48_vec4_norm_one]
  constructor
  · intro h
    have px := abs_nonneg v.x
    have py := abs_nonneg v.y
    have pz := abs_nonneg v.z
    have pw := abs_nonneg v.w
    ext <;> simp only [] <;> rw [← abs_eq_zero] <;> linarith
  · rintro rfl; simp
theorem C48_vec4_norm_inf_zero (v : V4 ℝ) : glm_vec4_norm_inf v = 0 ↔ v = ⟨0, 0, 0, 0⟩ := by
  constructor
  · intro h
    have := (C48_vec4_norm_inf v).symm.trans h |>.le
    simp only [max_le_iff, abs_nonpos_iff] at this
    ext <;> tauto
  · rintro rfl; rw [C48_vec4_norm_inf]; simp

end Cglm
