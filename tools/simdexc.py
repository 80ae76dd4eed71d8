"""Theorems about the SIMD functions that do not compute the scalar function for every input, or only approximate it."""
import os
CLAIM = {'Sse': 'C57', 'Sse2': 'C57', 'Sse3': 'C57', 'Sse4': 'C57', 'Avx': 'C58', 'Fma': 'C58', 'Neon64': 'C59', 'Neon32': 'C59', 'Wasm': 'C60'}
X86 = ('Sse', 'Sse2', 'Sse3', 'Sse4', 'Avx', 'Fma')

HEAD = '''import Verif.SimdX
import Verif.Gen.Simd@C

/-!
# @P, @C build: the functions that differ from the scalar build

Each is compared with the scalar function on the largest set of inputs where they agree, and shown to differ outside it.
Generated by tools/simdexc.py.
-/

set_option linter.unusedSimpArgs false
namespace Cglm

'''

NORMALIZE = '''/-! ### Normalisation: the threshold is on the squared length instead of the length -/

theorem @C_vdot_self (v : V4 ℝ) : @C.glmm_vdot v v = splat4 (v.dot v) := by
  ext <;> simp only [V4.dot, cglm, Nat.reduceMod, Nat.reduceDiv, Nat.reduceAdd] <;> ring1

/-- For every vector: nothing but the set of vectors mapped to zero differs. -/
theorem @P_@C_glm_vec4_normalize_to (v : V4 ℝ) :
    @C.glm_vec4_normalize_to v =
      if v.dot v < FLT_EPSILON then ⟨0, 0, 0, 0⟩ else Cglm.glm_vec4_normalize_to v := by
  rw [V4.normalize_to_real]
  unfold @C.glm_vec4_normalize_to
  dsimp only
  rw [@C_vdot_self]
  simp only [cglm, Nat.reduceMod, Nat.reduceDiv, Nat.reduceAdd]
  have e : (11920928955078125e-23 : ℝ) = FLT_EPSILON := by norm_num [FLT_EPSILON]
  simp only [e]
  split_ifs with h1 h2
  · rfl
  · exact absurd (norm_ge_of_dot_ge v (not_lt.mp h1)) (not_le.mpr h2)
  · rfl

theorem @P_@C_glm_vec4_normalize (v : V4 ℝ) :
    @C.glm_vec4_normalize v =
      if v.dot v < FLT_EPSILON then ⟨0, 0, 0, 0⟩ else Cglm.glm_vec4_normalize v :=
  @P_@C_glm_vec4_normalize_to v

/-- Outside the gap the two builds agree. -/
theorem @P_@C_glm_vec4_normalize_to_partial (v : V4 ℝ) (h : ¬ v.InGap) :
    @C.glm_vec4_normalize_to v = Cglm.glm_vec4_normalize_to v := by
  rw [@P_@C_glm_vec4_normalize_to]
  split_ifs with h1
  · rw [V4.normalize_to_real, if_pos]
    by_contra h2
    exact h ⟨not_lt.mp h2, h1⟩
  · rfl

example : ¬ (⟨3, 0, 4, 0⟩ : V4 ℝ).InGap := by
  rintro ⟨-, h⟩; norm_num [V4.dot, FLT_EPSILON] at h

/-- In the gap they do not: a vector of length `2^-12` is normalised by the scalar build and zeroed by this one. -/
theorem @P_@C_glm_vec4_normalize_to_refuted :
    ∃ v : V4 ℝ, v.InGap ∧ @C.glm_vec4_normalize_to v = ⟨0, 0, 0, 0⟩ ∧ Cglm.glm_vec4_normalize_to v = ⟨1, 0, 0, 0⟩ := by
  have hl : (⟨1 / 4096, 0, 0, 0⟩ : V4 ℝ).len = 1 / 4096 := by
    simp only [V4.len, V4.dot]
    rw [Real.sqrt_eq_iff_mul_self_eq (by norm_num) (by norm_num)]; norm_num
  refine ⟨⟨1 / 4096, 0, 0, 0⟩, ⟨?_, ?_⟩, ?_, ?_⟩
  · rw [hl]; norm_num [FLT_EPSILON]
  · norm_num [V4.dot, FLT_EPSILON]
  · rw [@P_@C_glm_vec4_normalize_to, if_pos]; norm_num [V4.dot, FLT_EPSILON]
  · rw [V4.normalize_to_real, hl, if_neg (by norm_num [FLT_EPSILON])]; norm_num

theorem @P_@C_glm_vec3_rotate_m4_partial (m : M4 ℝ) (v : V3 ℝ) (h0 : ¬ m.c0.InGap) (h1 : ¬ m.c1.InGap) (h2 : ¬ m.c2.InGap) :
    @C.glm_vec3_rotate_m4 m v = Cglm.glm_vec3_rotate_m4 m v := by
  unfold @C.glm_vec3_rotate_m4 Cglm.glm_vec3_rotate_m4
  rw [@P_@C_glm_vec4_normalize_to_partial _ h0, @P_@C_glm_vec4_normalize_to_partial _ h1,
    @P_@C_glm_vec4_normalize_to_partial _ h2]
  generalize Cglm.glm_vec4_normalize_to m.c0 = a
  generalize Cglm.glm_vec4_normalize_to m.c1 = b
  generalize Cglm.glm_vec4_normalize_to m.c2 = c
  ext <;> simp only [cglm, Nat.reduceMod, Nat.reduceDiv, Nat.reduceAdd] <;> ring1

theorem @P_@C_glm_vec3_rotate_m3_partial (m : M3 ℝ) (v : V3 ℝ) (h0 : ¬ V4.InGap ⟨m.c0.x, m.c0.y, m.c0.z, 0⟩)
    (h1 : ¬ V4.InGap ⟨m.c1.x, m.c1.y, m.c1.z, 0⟩) (h2 : ¬ V4.InGap ⟨m.c2.x, m.c2.y, m.c2.z, 0⟩) :
    @C.glm_vec3_rotate_m3 m v = Cglm.glm_vec3_rotate_m3 m v := by
  have e : ∀ w : V3 ℝ, glm_vec4 w (lit 0) = ⟨w.x, w.y, w.z, 0⟩ := fun w => by ext <;> simp only [cglm]
  unfold @C.glm_vec3_rotate_m3 Cglm.glm_vec3_rotate_m3 @C.glm_vec4_normalize Cglm.glm_vec4_normalize
  dsimp only
  rw [e, e, e, @P_@C_glm_vec4_normalize_to_partial _ h0, @P_@C_glm_vec4_normalize_to_partial _ h1,
    @P_@C_glm_vec4_normalize_to_partial _ h2]
  generalize Cglm.glm_vec4_normalize_to (⟨m.c0.x, m.c0.y, m.c0.z, 0⟩ : V4 ℝ) = a
  generalize Cglm.glm_vec4_normalize_to (⟨m.c1.x, m.c1.y, m.c1.z, 0⟩ : V4 ℝ) = b
  generalize Cglm.glm_vec4_normalize_to (⟨m.c2.x, m.c2.y, m.c2.z, 0⟩ : V4 ℝ) = c
  ext <;> simp only [cglm, Nat.reduceMod, Nat.reduceDiv, Nat.reduceAdd] <;> ring1

-- a rotation by a right angle, scaled by 2, meets the hypotheses
example : ¬ V4.InGap ⟨0, 2, 0, 0⟩ ∧ ¬ V4.InGap ⟨-2, 0, 0, 0⟩ ∧ ¬ V4.InGap ⟨0, 0, 2, 0⟩ := by
  refine ⟨?_, ?_, ?_⟩ <;> rintro ⟨-, h⟩ <;> norm_num [V4.dot, FLT_EPSILON] at h

'''

INVTR = '''/-! ### Inverse of a rigid transform: this build writes the bottom row instead of transposing it -/

theorem @P_@C_glm_inv_tr_partial (m : M4 ℝ) (h : m.Affine) : @C.glm_inv_tr m = Cglm.glm_inv_tr m := by
  obtain ⟨h0, h1, h2, h3⟩ := h
  ext <;> simp only [cglm, Nat.reduceMod, Nat.reduceDiv, Nat.reduceAdd, h0, h1, h2, h3] <;> ring1

example : (⟨⟨0, 1, 0, 0⟩, ⟨-1, 0, 0, 0⟩, ⟨0, 0, 1, 0⟩, ⟨5, 6, 7, 1⟩⟩ : M4 ℝ).Affine := ⟨rfl, rfl, rfl, rfl⟩

theorem @P_@C_glm_inv_tr_refuted : ∃ m : M4 ℝ, @C.glm_inv_tr m ≠ Cglm.glm_inv_tr m := by
  refine ⟨⟨⟨1, 0, 0, 2⟩, ⟨0, 1, 0, 0⟩, ⟨0, 0, 1, 0⟩, ⟨0, 0, 0, 1⟩⟩, fun h => ?_⟩
  have := congrArg (fun m => m.c0.w) h
  simp only [cglm, Nat.reduceMod, Nat.reduceDiv, Nat.reduceAdd] at this
  norm_num at this

'''

SIGN = '''/-! ### Signs: the or-ed masks never meet on numbers, whatever the bitwise or of two floats is -/

theorem @P_@C_glm_vec4_sign [CEst ℝ] (v : V4 ℝ) : @C.glm_vec4_sign v = Cglm.glm_vec4_sign v := by
  ext <;> simp only [cglm, Nat.reduceMod, Nat.reduceDiv, Nat.reduceAdd] <;> simp only [b2i, decide_eq_true_eq] <;>
    split_ifs <;> first | (exfalso; linarith) | norm_num

'''

INVFAST = '''/-! ### The fast inverse: the determinant is inverted by the hardware's estimate -/

/-- The fast inverse is the inverse times `d * rcp d`, where `d` is the determinant and `rcp` the estimate. -/
theorem @P_@C_glm_mat4_inv_fast [CEst ℝ] (m : M4 ℝ) (h : Cglm.glm_mat4_det m ≠ 0) :
    @C.glm_mat4_inv_fast m = M4.smul (Cglm.glm_mat4_det m * rcp (Cglm.glm_mat4_det m)) (Cglm.glm_mat4_inv m) := by
  obtain ⟨D, hD⟩ : ∃ D, D = Cglm.glm_mat4_det m := ⟨_, rfl⟩
  rw [← hD] at h ⊢
  simp only [cglm] at hD
  have hD2 : (m.c0.x * m.c1.y - m.c0.y * m.c1.x) * (m.c2.z * m.c3.w - m.c2.w * m.c3.z) +
      (m.c0.x * m.c1.w - m.c0.w * m.c1.x) * (m.c2.y * m.c3.z - m.c2.z * m.c3.y) +
      (m.c0.y * m.c1.z - m.c0.z * m.c1.y) * (m.c2.x * m.c3.w - m.c2.w * m.c3.x) +
      (m.c0.z * m.c1.w - m.c0.w * m.c1.z) * (m.c2.x * m.c3.y - m.c2.y * m.c3.x) -
      (m.c0.x * m.c1.z - m.c0.z * m.c1.x) * (m.c2.y * m.c3.w - m.c2.w * m.c3.y) -
      (m.c0.y * m.c1.w - m.c0.w * m.c1.y) * (m.c2.x * m.c3.z - m.c2.z * m.c3.x) = D := by rw [hD]; ring1
  have hr : rcp D = D * rcp D * (1 / D) := by field_simp
  have key : ∀ C E k C' i : ℝ, E = D → rcp D = k * i → C = C' → C * rcp E = k * (C' * i) := by
    intro C E k C' i hE hk hC; rw [hE, hk, hC]; ring
  have key' : ∀ C E k C' i : ℝ, E = D → rcp D = k * i → C = -C' → C * rcp E = k * (C' * -i) := by
    intro C E k C' i hE hk hC; rw [hE, hk, hC]; ring
  generalize D * rcp D = k at hr ⊢
  simp only [M4.smul, cglm, Nat.reduceMod, Nat.reduceDiv, Nat.reduceAdd]
  simp only [hD2]
  ext <;> dsimp only
  case c0.x | c0.z | c1.y | c1.w | c2.x | c2.z | c3.y | c3.w =>
    exact key _ _ _ _ _ (by rw [hD]; ring1) hr (by ring1)
  all_goals exact key' _ _ _ _ _ (by rw [hD]; ring1) hr (by ring1)

/-- With Intel's bound on `rcpps`, every entry is within relative error `1.5 * 2^-12` of the entry of the inverse. -/
theorem @P_@C_glm_mat4_inv_fast_bound [CEst ℝ] (m : M4 ℝ) (h : Cglm.glm_mat4_det m ≠ 0)
    (hr : ∀ x : ℝ, x ≠ 0 → |rcp x - 1 / x| ≤ 1.5 / 4096 * |1 / x|) (i j : Fin 4) :
    |(@C.glm_mat4_inv_fast m).mat i j - (Cglm.glm_mat4_inv m).mat i j| ≤ 1.5 / 4096 * |(Cglm.glm_mat4_inv m).mat i j| := by
  rw [@P_@C_glm_mat4_inv_fast m h, M4.smul_mat, Matrix.smul_apply, smul_eq_mul]
  generalize (Cglm.glm_mat4_inv m).mat i j = e
  generalize Cglm.glm_mat4_det m = d at *
  have h1 := hr d h
  have h2 : d * rcp d * e - e = d * (rcp d - 1 / d) * e := by field_simp
  rw [h2, abs_mul, abs_mul]
  have h3 : |d| * |1 / d| = 1 := by rw [← abs_mul, mul_one_div_cancel h, abs_one]
  have h4 : |d| * |rcp d - 1 / d| ≤ 1.5 / 4096 := by
    calc |d| * |rcp d - 1 / d| ≤ |d| * (1.5 / 4096 * |1 / d|) := mul_le_mul_of_nonneg_left h1 (abs_nonneg d)
      _ = 1.5 / 4096 * (|d| * |1 / d|) := by ring
      _ = 1.5 / 4096 := by rw [h3, mul_one]
  exact mul_le_mul_of_nonneg_right h4 (abs_nonneg e)

-- a non-singular matrix, and an estimate within the bound that is not exact
example : Cglm.glm_mat4_det (⟨⟨2, 0, 0, 0⟩, ⟨0, 1, 0, 0⟩, ⟨0, 3, 1, 0⟩, ⟨5, 6, 7, 1⟩⟩ : M4 ℝ) ≠ 0 := by
  simp only [cglm]; norm_num
example (x : ℝ) : |(1 + 1 / 4096) / x - 1 / x| ≤ 1.5 / 4096 * |1 / x| := by
  have : (1 + 1 / 4096) / x - 1 / x = 1 / 4096 * (1 / x) := by ring
  rw [this, abs_mul]
  exact mul_le_mul_of_nonneg_right (by rw [abs_of_pos] <;> norm_num) (abs_nonneg _)

'''

MULAVX = '''/-! ### Product of affine matrices: the AVX version is the full product -/

theorem @P_@C_glm_mul_full (m1 m2 : M4 ℝ) : @C.glm_mul m1 m2 = Cglm.glm_mat4_mul m1 m2 := by
  ext <;> simp only [cglm, Nat.reduceMod, Nat.reduceDiv, Nat.reduceAdd] <;> ring1

theorem @P_@C_glm_mul_partial (m1 m2 : M4 ℝ) (h : m2.c0.w = 0 ∧ m2.c1.w = 0 ∧ m2.c2.w = 0) :
    @C.glm_mul m1 m2 = Cglm.glm_mul m1 m2 := by
  obtain ⟨h0, h1, h2⟩ := h
  ext <;> simp only [cglm, Nat.reduceMod, Nat.reduceDiv, Nat.reduceAdd, h0, h1, h2] <;> ring1

example : (⟨⟨0, 1, 0, 0⟩, ⟨-1, 0, 0, 0⟩, ⟨0, 0, 1, 0⟩, ⟨5, 6, 7, 1⟩⟩ : M4 ℝ).c0.w = 0 ∧
    (⟨⟨0, 1, 0, 0⟩, ⟨-1, 0, 0, 0⟩, ⟨0, 0, 1, 0⟩, ⟨5, 6, 7, 1⟩⟩ : M4 ℝ).c1.w = 0 ∧
    (⟨⟨0, 1, 0, 0⟩, ⟨-1, 0, 0, 0⟩, ⟨0, 0, 1, 0⟩, ⟨5, 6, 7, 1⟩⟩ : M4 ℝ).c2.w = 0 := ⟨rfl, rfl, rfl⟩

theorem @P_@C_glm_mul_refuted : ∃ m1 m2 : M4 ℝ, @C.glm_mul m1 m2 ≠ Cglm.glm_mul m1 m2 := by
  refine ⟨⟨⟨1, 0, 0, 0⟩, ⟨0, 1, 0, 0⟩, ⟨0, 0, 1, 0⟩, ⟨3, 0, 0, 1⟩⟩, ⟨⟨1, 0, 0, 2⟩, ⟨0, 1, 0, 0⟩, ⟨0, 0, 1, 0⟩, ⟨0, 0, 0, 1⟩⟩, fun h => ?_⟩
  have := congrArg (fun m => m.c0.x) h
  simp only [cglm, Nat.reduceMod, Nat.reduceDiv, Nat.reduceAdd] at this
  norm_num at this

'''

FNMSUB256 = '''/-! ### `glmm256_fnmsub` does not compute `-(a * b) - c` -/

theorem @P_@C_glmm256_fnmsub_refuted :
    ∃ a b c : V8 ℝ, (@C.glmm256_fnmsub a b c).e0 ≠ -(a.e0 * b.e0) - c.e0 := by
  refine ⟨splat8 1, splat8 1, splat8 3, ?_⟩
  simp only [cglm]
  norm_num

/-- What it computes instead. -/
theorem @P_@C_glmm256_fnmsub_actual (a b c : V8 ℝ) :
    (@C.glmm256_fnmsub a b c).e0 = @ACTUAL := by
  simp only [cglm]@RING

'''

NEON32 = '''/-! ### Division: two Newton steps from the hardware's estimate of the reciprocal -/

/-- The quotient is off by the factor `1 - (1 - b * recpe b)^4`. -/
theorem @P_@C_glm_vec4_div [CEst ℝ] (a b : V4 ℝ) (hx : b.x ≠ 0) (hy : b.y ≠ 0) (hz : b.z ≠ 0) (hw : b.w ≠ 0) :
    @C.glm_vec4_div a b =
      ⟨(Cglm.glm_vec4_div a b).x * (1 - (1 - b.x * recpe b.x) ^ 4), (Cglm.glm_vec4_div a b).y * (1 - (1 - b.y * recpe b.y) ^ 4),
       (Cglm.glm_vec4_div a b).z * (1 - (1 - b.z * recpe b.z) ^ 4), (Cglm.glm_vec4_div a b).w * (1 - (1 - b.w * recpe b.w) ^ 4)⟩ := by
  ext <;> simp only [cglm] <;> field_simp <;> ring

/-- With an estimate good to 8 bits, each quotient is within relative error `2^-32`, below the precision of a float. -/
theorem @P_@C_glm_vec4_div_bound [CEst ℝ] (a b : V4 ℝ) (hx : b.x ≠ 0) (hy : b.y ≠ 0) (hz : b.z ≠ 0) (hw : b.w ≠ 0)
    (hr : ∀ x : ℝ, x ≠ 0 → |1 - x * recpe x| ≤ 1 / 256) (i : Fin 4) :
    |(@C.glm_vec4_div a b).vec i - a.vec i / b.vec i| ≤ 1 / 4294967296 * |a.vec i / b.vec i| := by
  have key : ∀ q x : ℝ, x ≠ 0 → |q * (1 - (1 - x * recpe x) ^ 4) - q| ≤ 1 / 4294967296 * |q| := by
    intro q x hx
    have h1 := hr x hx
    have h2 : q * (1 - (1 - x * recpe x) ^ 4) - q = -((1 - x * recpe x) ^ 4 * q) := by ring
    rw [h2, abs_neg, abs_mul, abs_pow]
    have h3 : |1 - x * recpe x| ^ 4 ≤ (1 / 256) ^ 4 := pow_le_pow_left₀ (abs_nonneg _) h1 4
    calc |1 - x * recpe x| ^ 4 * |q| ≤ (1 / 256) ^ 4 * |q| := mul_le_mul_of_nonneg_right h3 (abs_nonneg q)
      _ = 1 / 4294967296 * |q| := by norm_num
  rw [@P_@C_glm_vec4_div a b hx hy hz hw]
  fin_cases i
  · exact key (a.x / b.x) b.x hx
  · exact key (a.y / b.y) b.y hy
  · exact key (a.z / b.z) b.z hz
  · exact key (a.w / b.w) b.w hw

theorem @P_@C_glm_vec4_divs [CEst ℝ] (v : V4 ℝ) (s : ℝ) (hs : s ≠ 0) :
    @C.glm_vec4_divs v s =
      ⟨(Cglm.glm_vec4_divs v s).x * (1 - (1 - s * recpe s) ^ 4), (Cglm.glm_vec4_divs v s).y * (1 - (1 - s * recpe s) ^ 4),
       (Cglm.glm_vec4_divs v s).z * (1 - (1 - s * recpe s) ^ 4), (Cglm.glm_vec4_divs v s).w * (1 - (1 - s * recpe s) ^ 4)⟩ := by
  ext <;> simp only [cglm] <;> field_simp <;> ring

-- an estimate within the bound
example (x : ℝ) (hx : x ≠ 0) : |1 - x * ((1 - 1 / 300) / x)| ≤ 1 / 256 := by
  have : 1 - x * ((1 - 1 / 300) / x) = 1 / 300 := by field_simp; norm_num
  rw [this, abs_of_pos] <;> norm_num

/-- The inverse is off by the factor `1 - (1 - d * recpe d)^4`, where `d` is the determinant. -/
theorem @P_@C_glm_mat4_inv [CEst ℝ] (m : M4 ℝ) (h : Cglm.glm_mat4_det m ≠ 0) :
    @C.glm_mat4_inv m =
      M4.smul (1 - (1 - Cglm.glm_mat4_det m * recpe (Cglm.glm_mat4_det m)) ^ 4) (Cglm.glm_mat4_inv m) := by
  rw [← newton2_err]
  obtain ⟨D, hD⟩ : ∃ D, D = Cglm.glm_mat4_det m := ⟨_, rfl⟩
  rw [← hD] at h ⊢
  simp only [cglm] at hD
@HE  have hD2 : (m.c0.x * m.c1.y - m.c0.y * m.c1.x) * (m.c2.z * m.c3.w - m.c2.w * m.c3.z) +
      (m.c0.x * m.c1.w - m.c0.w * m.c1.x) * (m.c2.y * m.c3.z - m.c2.z * m.c3.y) +
      (m.c0.y * m.c1.z - m.c0.z * m.c1.y) * (m.c2.x * m.c3.w - m.c2.w * m.c3.x) +
      (m.c0.z * m.c1.w - m.c0.w * m.c1.z) * (m.c2.x * m.c3.y - m.c2.y * m.c3.x) -
      (m.c0.x * m.c1.z - m.c0.z * m.c1.x) * (m.c2.y * m.c3.w - m.c2.w * m.c3.y) -
      (m.c0.y * m.c1.w - m.c0.w * m.c1.y) * (m.c2.x * m.c3.z - m.c2.z * m.c3.x) = D := by rw [hD]; ring1
  have hN : (2 - (2 - recpe D * D) * recpe D * D) * ((2 - recpe D * D) * recpe D) = D * newton2 D * (1 / D) := by
    field_simp; simp only [newton2]; ring1
  generalize D * newton2 D = k at hN ⊢
  clear hD
  simp only [M4.smul, cglm, Nat.reduceAdd]
  simp only [hE0, hE1, hE2, hE3, hN, hD2]
  ext <;> dsimp only <;> ring1

theorem @P_@C_glm_mat4_inv_fast [CEst ℝ] (m : M4 ℝ) (h : Cglm.glm_mat4_det m ≠ 0) :
    @C.glm_mat4_inv_fast m =
      M4.smul (1 - (1 - Cglm.glm_mat4_det m * recpe (Cglm.glm_mat4_det m)) ^ 4) (Cglm.glm_mat4_inv_fast m) :=
  @P_@C_glm_mat4_inv m h

-- a non-singular matrix
example : Cglm.glm_mat4_det (⟨⟨2, 0, 0, 0⟩, ⟨0, 1, 0, 0⟩, ⟨0, 3, 1, 0⟩, ⟨5, 6, 7, 1⟩⟩ : M4 ℝ) ≠ 0 := by
  simp only [cglm]; norm_num

/-- Unprojecting divides by the homogeneous coordinate, so the factor cancels: the result is that of the scalar build. -/
theorem @P_@C_glm_unproject_partial [CEst ℝ] (pos : V3 ℝ) (m : M4 ℝ) (vp : V4 ℝ) (h : Cglm.glm_mat4_det m ≠ 0)
    (hr : |1 - Cglm.glm_mat4_det m * recpe (Cglm.glm_mat4_det m)| ≤ 1 / 256) :
    @C.glm_unproject pos m vp = Cglm.glm_unproject pos m vp := by
  unfold @C.glm_unproject Cglm.glm_unproject
  rw [@P_@C_glm_mat4_inv m h]
  have hk : 1 - (1 - Cglm.glm_mat4_det m * recpe (Cglm.glm_mat4_det m)) ^ 4 ≠ 0 := by
    have h1 : |1 - Cglm.glm_mat4_det m * recpe (Cglm.glm_mat4_det m)| ^ 4 ≤ (1 / 256) ^ 4 := pow_le_pow_left₀ (abs_nonneg _) hr 4
    rw [← abs_pow] at h1
    have h2 := (abs_le.mp h1).2
    have h3 : ((1 : ℝ) / 256) ^ 4 < 1 := by norm_num
    linarith
  generalize 1 - (1 - Cglm.glm_mat4_det m * recpe (Cglm.glm_mat4_det m)) ^ 4 = k at hk
  generalize Cglm.glm_mat4_inv m = n
  have key : ∀ a b a' b' : ℝ, a = k * a' → b = k * b' → a * (1 / b) = a' * (1 / b') := by
    intro a b a' b' ha hb
    rw [ha, hb, mul_one_div, mul_one_div, mul_div_mul_left _ _ hk]
  simp only [M4.smul, cglm, Nat.reduceAdd]
  ext <;> dsimp only
  · exact key _ _ _ _ (by ring1) (by ring1)
  · exact key _ _ _ _ (by ring1) (by ring1)
  · exact key _ _ _ _ (by ring1) (by ring1)

'''
PERLIN = '''/-! ### Noise divides by constants and takes integer parts, so an inexact quotient may change it; with exact ones it agrees -/

theorem Neon32_divs_exact [CEst ℝ] (s : ℝ) (hs : s ≠ 0) (h : s * recpe s = 1) (v : V4 ℝ) :
    Neon32.glm_vec4_divs v s = Cglm.glm_vec4_divs v s := by
  rw [C59_Neon32_glm_vec4_divs v s hs, h]
  ext <;> norm_num

theorem @P_@C_glm_perlin_vec2_partial [CEst ℝ] (point : V2 ℝ) (h : (41 : ℝ) * recpe 41 = 1) :
    @C.glm_perlin_vec2 point = Cglm.glm_perlin_vec2 point := by
  have e := Neon32_divs_exact (lit 41) (by rw [lit_real]; norm_num) (by rw [lit_real]; exact_mod_cast h)
  unfold @C.glm_perlin_vec2 Cglm.glm_perlin_vec2
  simp only [cglm_simd, e]

theorem @P_@C_glm_perlin_vec4_partial [CEst ℝ] (point : V4 ℝ) (h7 : (7 : ℝ) * recpe 7 = 1) (h6 : (6 : ℝ) * recpe 6 = 1) :
    @C.glm_perlin_vec4 point = Cglm.glm_perlin_vec4 point := by
  have e7 := Neon32_divs_exact (lit 7) (by rw [lit_real]; norm_num) (by rw [lit_real]; exact_mod_cast h7)
  have e6 := Neon32_divs_exact (lit 6) (by rw [lit_real]; norm_num) (by rw [lit_real]; exact_mod_cast h6)
  unfold @C.glm_perlin_vec4 Cglm.glm_perlin_vec4
  simp only [cglm_simd, e7, e6]

-- an exact estimate meets the hypotheses
example : (41 : ℝ) * (1 / 41) = 1 ∧ (7 : ℝ) * (1 / 7) = 1 ∧ (6 : ℝ) * (1 / 6) = 1 := by norm_num

'''
A, B = '(m.c0.y * m.c1.w - m.c0.w * m.c1.y)', '(m.c2.x * m.c3.z - m.c2.z * m.c3.x)'
C, D = '(m.c2.y * m.c3.w - m.c2.w * m.c3.y)', '(m.c0.x * m.c1.z - m.c0.z * m.c1.x)'
BASE = '''(m.c2.z * m.c3.w - m.c3.z * m.c2.w) * (m.c0.x * m.c1.y - m.c0.y * m.c1.x) +
      (m.c0.z * m.c1.w - m.c1.z * m.c0.w) * (m.c2.x * m.c3.y - m.c2.y * m.c3.x) +
      ((m.c3.w * m.c2.x - m.c2.w * m.c3.x) * (m.c0.y * m.c1.z - m.c0.z * m.c1.y) +
       (m.c1.w * m.c0.x - m.c0.w * m.c1.x) * (m.c2.y * m.c3.z - m.c2.z * m.c3.y)) -
      '''
HE = ''.join(f'  have hE{k} : {BASE}({p} * {q} +\n       {r} * {s}) = D := by rw [hD]; ring1\n'
             for k, (p, q, r, s) in enumerate([(A, B, C, D), (D, C, B, A), (B, A, D, C), (C, D, A, B)]))

def blocks(c):
    b = []
    if c in X86 or c == 'Wasm': b.append(NORMALIZE)
    b.append(INVTR)
    if c in X86: b += [SIGN, INVFAST]
    if c in ('Avx', 'Fma'):
        b.append(MULAVX)
        b.append(FNMSUB256.replace('@ACTUAL', '-(a.e0 * b.e0 - c.e0)' if c == 'Avx' else 'a.e0 * b.e0 - c.e0').replace('@RING', '' if c == 'Avx' else '; ring1'))
    if c == 'Neon32': b += [NEON32.replace('@HE', HE), PERLIN]
    return b
def write(lean):
    for c, p in CLAIM.items():
        s = HEAD.replace('import Verif.SimdX', 'import Verif.SimdX\nimport Verif.Props.C59Neon32' if c == 'Neon32' else 'import Verif.SimdX') + ''.join(blocks(c)) + 'end Cglm\n'
        open(os.path.join(lean, f'Verif/Props/{p}{c}X.lean'), 'w').write(s.replace('@C', c).replace('@P', p))
