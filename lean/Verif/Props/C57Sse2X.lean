import Verif.SimdX
import Verif.Gen.SimdSse2

/-!
# C57, Sse2 build: the functions that differ from the scalar build

Each is compared with the scalar function on the largest set of inputs where they agree, and shown to differ outside it.
Generated by tools/simdexc.py.
-/

set_option linter.unusedSimpArgs false
namespace Cglm

/-! ### Normalisation: the threshold is on the squared length instead of the length -/

theorem Sse2_vdot_self (v : V4 ℝ) : Sse2.glmm_vdot v v = splat4 (v.dot v) := by
  ext <;> simp only [V4.dot, cglm, Nat.reduceMod, Nat.reduceDiv, Nat.reduceAdd] <;> ring1

/-- For every vector: nothing but the set of vectors mapped to zero differs. -/
theorem C57_Sse2_glm_vec4_normalize_to (v : V4 ℝ) :
    Sse2.glm_vec4_normalize_to v =
      if v.dot v < FLT_EPSILON then ⟨0, 0, 0, 0⟩ else Cglm.glm_vec4_normalize_to v := by
  rw [V4.normalize_to_real]
  unfold Sse2.glm_vec4_normalize_to
  dsimp only
  rw [Sse2_vdot_self]
  simp only [cglm, Nat.reduceMod, Nat.reduceDiv, Nat.reduceAdd]
  have e : (11920928955078125e-23 : ℝ) = FLT_EPSILON := by norm_num [FLT_EPSILON]
  simp only [e]
  split_ifs with h1 h2
  · rfl
  · exact absurd (norm_ge_of_dot_ge v (not_lt.mp h1)) (not_le.mpr h2)
  · rfl

theorem C57_Sse2_glm_vec4_normalize (v : V4 ℝ) :
    Sse2.glm_vec4_normalize v =
      if v.dot v < FLT_EPSILON then ⟨0, 0, 0, 0⟩ else Cglm.glm_vec4_normalize v :=
  C57_Sse2_glm_vec4_normalize_to v

/-- Outside the gap the two builds agree. -/
theorem C57_Sse2_glm_vec4_normalize_to_partial (v : V4 ℝ) (h : ¬ v.InGap) :
    Sse2.glm_vec4_normalize_to v = Cglm.glm_vec4_normalize_to v := by
  rw [C57_Sse2_glm_vec4_normalize_to]
  split_ifs with h1
  · rw [V4.normalize_to_real, if_pos]
    by_contra h2
    exact h ⟨not_lt.mp h2, h1⟩
  · rfl

example : ¬ (⟨3, 0, 4, 0⟩ : V4 ℝ).InGap := by
  rintro ⟨-, h⟩; norm_num [V4.dot, FLT_EPSILON] at h

/-- In the gap they do not: a vector of length `2^-12` is normalised by the scalar build and zeroed by this one. -/
theorem C57_Sse2_glm_vec4_normalize_to_refuted :
    ∃ v : V4 ℝ, v.InGap ∧ Sse2.glm_vec4_normalize_to v = ⟨0, 0, 0, 0⟩ ∧ Cglm.glm_vec4_normalize_to v = ⟨1, 0, 0, 0⟩ := by
  have hl : (⟨1 / 4096, 0, 0, 0⟩ : V4 ℝ).len = 1 / 4096 := by
    simp only [V4.len, V4.dot]
    rw [Real.sqrt_eq_iff_mul_self_eq (by norm_num) (by norm_num)]; norm_num
  refine ⟨⟨1 / 4096, 0, 0, 0⟩, ⟨?_, ?_⟩, ?_, ?_⟩
  · rw [hl]; norm_num [FLT_EPSILON]
  · norm_num [V4.dot, FLT_EPSILON]
  · rw [C57_Sse2_glm_vec4_normalize_to, if_pos]; norm_num [V4.dot, FLT_EPSILON]
  · rw [V4.normalize_to_real, hl, if_neg (by norm_num [FLT_EPSILON])]; norm_num

theorem C57_Sse2_glm_vec3_rotate_m4_partial (m : M4 ℝ) (v : V3 ℝ) (h0 : ¬ m.c0.InGap) (h1 : ¬ m.c1.InGap) (h2 : ¬ m.c2.InGap) :
    Sse2.glm_vec3_rotate_m4 m v = Cglm.glm_vec3_rotate_m4 m v := by
  unfold Sse2.glm_vec3_rotate_m4 Cglm.glm_vec3_rotate_m4
  rw [C57_Sse2_glm_vec4_normalize_to_partial _ h0, C57_Sse2_glm_vec4_normalize_to_partial _ h1,
    C57_Sse2_glm_vec4_normalize_to_partial _ h2]
  generalize Cglm.glm_vec4_normalize_to m.c0 = a
  generalize Cglm.glm_vec4_normalize_to m.c1 = b
  generalize Cglm.glm_vec4_normalize_to m.c2 = c
  ext <;> simp only [cglm, Nat.reduceMod, Nat.reduceDiv, Nat.reduceAdd] <;> ring1

theorem C57_Sse2_glm_vec3_rotate_m3_partial (m : M3 ℝ) (v : V3 ℝ) (h0 : ¬ V4.InGap ⟨m.c0.x, m.c0.y, m.c0.z, 0⟩)
    (h1 : ¬ V4.InGap ⟨m.c1.x, m.c1.y, m.c1.z, 0⟩) (h2 : ¬ V4.InGap ⟨m.c2.x, m.c2.y, m.c2.z, 0⟩) :
    Sse2.glm_vec3_rotate_m3 m v = Cglm.glm_vec3_rotate_m3 m v := by
  have e : ∀ w : V3 ℝ, glm_vec4 w (lit 0) = ⟨w.x, w.y, w.z, 0⟩ := fun w => by ext <;> simp only [cglm]
  unfold Sse2.glm_vec3_rotate_m3 Cglm.glm_vec3_rotate_m3 Sse2.glm_vec4_normalize Cglm.glm_vec4_normalize
  dsimp only
  rw [e, e, e, C57_Sse2_glm_vec4_normalize_to_partial _ h0, C57_Sse2_glm_vec4_normalize_to_partial _ h1,
    C57_Sse2_glm_vec4_normalize_to_partial _ h2]
  generalize Cglm.glm_vec4_normalize_to (⟨m.c0.x, m.c0.y, m.c0.z, 0⟩ : V4 ℝ) = a
  generalize Cglm.glm_vec4_normalize_to (⟨m.c1.x, m.c1.y, m.c1.z, 0⟩ : V4 ℝ) = b
  generalize Cglm.glm_vec4_normalize_to (⟨m.c2.x, m.c2.y, m.c2.z, 0⟩ : V4 ℝ) = c
  ext <;> simp only [cglm, Nat.reduceMod, Nat.reduceDiv, Nat.reduceAdd] <;> ring1

-- a rotation by a right angle, scaled by 2, meets the hypotheses
example : ¬ V4.InGap ⟨0, 2, 0, 0⟩ ∧ ¬ V4.InGap ⟨-2, 0, 0, 0⟩ ∧ ¬ V4.InGap ⟨0, 0, 2, 0⟩ := by
  refine ⟨?_, ?_, ?_⟩ <;> rintro ⟨-, h⟩ <;> norm_num [V4.dot, FLT_EPSILON] at h

/-! ### Inverse of a rigid transform: this build writes the bottom row instead of transposing it -/

theorem C57_Sse2_glm_inv_tr_partial (m : M4 ℝ) (h : m.Affine) : Sse2.glm_inv_tr m = Cglm.glm_inv_tr m := by
  obtain ⟨h0, h1, h2, h3⟩ := h
  ext <;> simp only [cglm, Nat.reduceMod, Nat.reduceDiv, Nat.reduceAdd, h0, h1, h2, h3] <;> ring1

example : (⟨⟨0, 1, 0, 0⟩, ⟨-1, 0, 0, 0⟩, ⟨0, 0, 1, 0⟩, ⟨5, 6, 7, 1⟩⟩ : M4 ℝ).Affine := ⟨rfl, rfl, rfl, rfl⟩

theorem C57_Sse2_glm_inv_tr_refuted : ∃ m : M4 ℝ, Sse2.glm_inv_tr m ≠ Cglm.glm_inv_tr m := by
  refine ⟨⟨⟨1, 0, 0, 2⟩, ⟨0, 1, 0, 0⟩, ⟨0, 0, 1, 0⟩, ⟨0, 0, 0, 1⟩⟩, fun h => ?_⟩
  have := congrArg (fun m => m.c0.w) h
  simp only [cglm, Nat.reduceMod, Nat.reduceDiv, Nat.reduceAdd] at this
  norm_num at this

/-! ### Signs: the or-ed masks never meet on numbers, whatever the bitwise or of two floats is -/

theorem C57_Sse2_glm_vec4_sign [CEst ℝ] (v : V4 ℝ) : Sse2.glm_vec4_sign v = Cglm.glm_vec4_sign v := by
  ext <;> simp only [cglm, Nat.reduceMod, Nat.reduceDiv, Nat.reduceAdd] <;> simp only [b2i, decide_eq_true_eq] <;>
    split_ifs <;> first | (exfalso; linarith) | norm_num

/-! ### The fast inverse: the determinant is inverted by the hardware's estimate -/

/-- The fast inverse is the inverse times `d * rcp d`, where `d` is the determinant and `rcp` the estimate. -/
theorem C57_Sse2_glm_mat4_inv_fast [CEst ℝ] (m : M4 ℝ) (h : Cglm.glm_mat4_det m ≠ 0) :
    Sse2.glm_mat4_inv_fast m = M4.smul (Cglm.glm_mat4_det m * rcp (Cglm.glm_mat4_det m)) (Cglm.glm_mat4_inv m) := by
  obtain ⟨D, hD⟩ : ∃ D, D = Cglm.glm_mat4_det m := ⟨_, rfl⟩
  rw [← hD] at h ⊢
  simp only [cglm] at hD
  have hD2 : (m.c0.x * m.c1.y - m.c0.y * m.c1.x) * (m.c2.z * m.c3.w - m.c2.w * m.c3.z) +
      (m.c0.x * m.c1.w - m.c0.w * m.c1.x) * (m.c2.y * m.c3.z - m.c2.z * m.c3.y) +
      (m.c0.y * m.c1.z - m.c0.z * m.c1.y) * (m.c2.x * m.c3.w - m.c2.w * m.c3.x) +
      (m.c0.z * m.c1.w - m.c0.w * m.c1.z) * (m.c2.x * m.c3.y - m.c2.y * m.c3.x) -
      (m.c0.x * m.c1.z - m.c0.z * m.c1.x) * (m.c2.y * m.c3.w - m.c2.w * m.c3.y) -
      (m.c0.y * m.c1.w - m.c0.w * m.c1.y) * (m.c2.x * m.c3.z - m.c2.z * m.c3.x) = D := by rw [hD]; ring1
  have hr : rcp D = D * rcp D * (1 / D) := by field_simp
  have key : ∀ C E k C' i : ℝ, E = D → rcp D = k * i → C = C' → C * rcp E = k * (C' * i) := by
    intro C E k C' i hE hk hC; rw [hE, hk, hC]; ring
  have key' : ∀ C E k C' i : ℝ, E = D → rcp D = k * i → C = -C' → C * rcp E = k * (C' * -i) := by
    intro C E k C' i hE hk hC; rw [hE, hk, hC]; ring
  generalize D * rcp D = k at hr ⊢
  simp only [M4.smul, cglm, Nat.reduceMod, Nat.reduceDiv, Nat.reduceAdd]
  simp only [hD2]
  ext <;> dsimp only
  case c0.x | c0.z | c1.y | c1.w | c2.x | c2.z | c3.y | c3.w =>
    exact key _ _ _ _ _ (by rw [hD]; ring1) hr (by ring1)
  all_goals exact key' _ _ _ _ _ (by rw [hD]; ring1) hr (by ring1)

/-- With Intel's bound on `rcpps`, every entry is within relative error `1.5 * 2^-12` of the entry of the inverse. -/
theorem C57_Sse2_glm_mat4_inv_fast_bound [CEst ℝ] (m : M4 ℝ) (h : Cglm.glm_mat4_det m ≠ 0)
    (hr : ∀ x : ℝ, x ≠ 0 → |rcp x - 1 / x| ≤ 1.5 / 4096 * |1 / x|) (i j : Fin 4) :
    |(Sse2.glm_mat4_inv_fast m).mat i j - (Cglm.glm_mat4_inv m).mat i j| ≤ 1.5 / 4096 * |(Cglm.glm_mat4_inv m).mat i j| := by
  rw [C57_Sse2_glm_mat4_inv_fast m h, M4.smul_mat, Matrix.smul_apply, smul_eq_mul]
  generalize (Cglm.glm_mat4_inv m).mat i j = e
  generalize Cglm.glm_mat4_det m = d at *
  have h1 := hr d h
  have h2 : d * rcp d * e - e = d * (rcp d - 1 / d) * e := by field_simp
  rw [h2, abs_mul, abs_mul]
  have h3 : |d| * |1 / d| = 1 := by rw [← abs_mul, mul_one_div_cancel h, abs_one]
  have h4 : |d| * |rcp d - 1 / d| ≤ 1.5 / 4096 := by
    calc |d| * |rcp d - 1 / d| ≤ |d| * (1.5 / 4096 * |1 / d|) := mul_le_mul_of_nonneg_left h1 (abs_nonneg d)
      _ = 1.5 / 4096 * (|d| * |1 / d|) := by ring
      _ = 1.5 / 4096 := by rw [h3, mul_one]
  exact mul_le_mul_of_nonneg_right h4 (abs_nonneg e)

-- a non-singular matrix, and an estimate within the bound that is not exact
example : Cglm.glm_mat4_det (⟨⟨2, 0, 0, 0⟩, ⟨0, 1, 0, 0⟩, ⟨0, 3, 1, 0⟩, ⟨5, 6, 7, 1⟩⟩ : M4 ℝ) ≠ 0 := by
  simp only [cglm]; norm_num
example (x : ℝ) : |(1 + 1 / 4096) / x - 1 / x| ≤ 1.5 / 4096 * |1 / x| := by
  have : (1 + 1 / 4096) / x - 1 / x = 1 / 4096 * (1 / x) := by ring
  rw [this, abs_mul]
  exact mul_le_mul_of_nonneg_right (by rw [abs_of_pos] <;> norm_num) (abs_nonneg _)

end Cglm
