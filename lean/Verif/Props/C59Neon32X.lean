import Verif.SimdX
import Verif.Props.C59Neon32
import Verif.Gen.SimdNeon32

/-!
# C59, Neon32 build: the functions that differ from the scalar build

Each is compared with the scalar function on the largest set of inputs where they agree, and shown to differ outside it.
Generated by tools/simdexc.py.
-/

set_option linter.unusedSimpArgs false
namespace Cglm

/-! ### Inverse of a rigid transform: this build writes the bottom row instead of transposing it -/

theorem C59_Neon32_glm_inv_tr_partial (m : M4 ℝ) (h : m.Affine) : Neon32.glm_inv_tr m = Cglm.glm_inv_tr m := by
  obtain ⟨h0, h1, h2, h3⟩ := h
  ext <;> simp only [cglm, Nat.reduceMod, Nat.reduceDiv, Nat.reduceAdd, h0, h1, h2, h3] <;> ring1

example : (⟨⟨0, 1, 0, 0⟩, ⟨-1, 0, 0, 0⟩, ⟨0, 0, 1, 0⟩, ⟨5, 6, 7, 1⟩⟩ : M4 ℝ).Affine := ⟨rfl, rfl, rfl, rfl⟩

theorem C59_Neon32_glm_inv_tr_refuted : ∃ m : M4 ℝ, Neon32.glm_inv_tr m ≠ Cglm.glm_inv_tr m := by
  refine ⟨⟨⟨1, 0, 0, 2⟩, ⟨0, 1, 0, 0⟩, ⟨0, 0, 1, 0⟩, ⟨0, 0, 0, 1⟩⟩, fun h => ?_⟩
  have := congrArg (fun m => m.c0.w) h
  simp only [cglm, Nat.reduceMod, Nat.reduceDiv, Nat.reduceAdd] at this
  norm_num at this

/-! ### Division: two Newton steps from the hardware's estimate of the reciprocal -/

/-- The quotient is off by the factor `1 - (1 - b * recpe b)^4`. -/
theorem C59_Neon32_glm_vec4_div [CEst ℝ] (a b : V4 ℝ) (hx : b.x ≠ 0) (hy : b.y ≠ 0) (hz : b.z ≠ 0) (hw : b.w ≠ 0) :
    Neon32.glm_vec4_div a b =
      ⟨(Cglm.glm_vec4_div a b).x * (1 - (1 - b.x * recpe b.x) ^ 4), (Cglm.glm_vec4_div a b).y * (1 - (1 - b.y * recpe b.y) ^ 4),
       (Cglm.glm_vec4_div a b).z * (1 - (1 - b.z * recpe b.z) ^ 4), (Cglm.glm_vec4_div a b).w * (1 - (1 - b.w * recpe b.w) ^ 4)⟩ := by
  ext <;> simp only [cglm] <;> field_simp <;> ring

/-- With an estimate good to 8 bits, each quotient is within relative error `2^-32`, below the precision of a float. -/
theorem C59_Neon32_glm_vec4_div_bound [CEst ℝ] (a b : V4 ℝ) (hx : b.x ≠ 0) (hy : b.y ≠ 0) (hz : b.z ≠ 0) (hw : b.w ≠ 0)
    (hr : ∀ x : ℝ, x ≠ 0 → |1 - x * recpe x| ≤ 1 / 256) (i : Fin 4) :
    |(Neon32.glm_vec4_div a b).vec i - a.vec i / b.vec i| ≤ 1 / 4294967296 * |a.vec i / b.vec i| := by
  have key : ∀ q x : ℝ, x ≠ 0 → |q * (1 - (1 - x * recpe x) ^ 4) - q| ≤ 1 / 4294967296 * |q| := by
    intro q x hx
    have h1 := hr x hx
    have h2 : q * (1 - (1 - x * recpe x) ^ 4) - q = -((1 - x * recpe x) ^ 4 * q) := by ring
    rw [h2, abs_neg, abs_mul, abs_pow]
    have h3 : |1 - x * recpe x| ^ 4 ≤ (1 / 256) ^ 4 := pow_le_pow_left₀ (abs_nonneg _) h1 4
    calc |1 - x * recpe x| ^ 4 * |q| ≤ (1 / 256) ^ 4 * |q| := mul_le_mul_of_nonneg_right h3 (abs_nonneg q)
      _ = 1 / 4294967296 * |q| := by norm_num
  rw [C59_Neon32_glm_vec4_div a b hx hy hz hw]
  fin_cases i
  · exact key (a.x / b.x) b.x hx
  · exact key (a.y / b.y) b.y hy
  · exact key (a.z / b.z) b.z hz
  · exact key (a.w / b.w) b.w hw

theorem C59_Neon32_glm_vec4_divs [CEst ℝ] (v : V4 ℝ) (s : ℝ) (hs : s ≠ 0) :
    Neon32.glm_vec4_divs v s =
      ⟨(Cglm.glm_vec4_divs v s).x * (1 - (1 - s * recpe s) ^ 4), (Cglm.glm_vec4_divs v s).y * (1 - (1 - s * recpe s) ^ 4),
       (Cglm.glm_vec4_divs v s).z * (1 - (1 - s * recpe s) ^ 4), (Cglm.glm_vec4_divs v s).w * (1 - (1 - s * recpe s) ^ 4)⟩ := by
  ext <;> simp only [cglm] <;> field_simp <;> ring

-- an estimate within the bound
example (x : ℝ) (hx : x ≠ 0) : |1 - x * ((1 - 1 / 300) / x)| ≤ 1 / 256 := by
  have : 1 - x * ((1 - 1 / 300) / x) = 1 / 300 := by field_simp; norm_num
  rw [this, abs_of_pos] <;> norm_num

/-- The inverse is off by the factor `1 - (1 - d * recpe d)^4`, where `d` is the determinant. -/
theorem C59_Neon32_glm_mat4_inv [CEst ℝ] (m : M4 ℝ) (h : Cglm.glm_mat4_det m ≠ 0) :
    Neon32.glm_mat4_inv m =
      M4.smul (1 - (1 - Cglm.glm_mat4_det m * recpe (Cglm.glm_mat4_det m)) ^ 4) (Cglm.glm_mat4_inv m) := by
  rw [← newton2_err]
  obtain ⟨D, hD⟩ : ∃ D, D = Cglm.glm_mat4_det m := ⟨_, rfl⟩
  rw [← hD] at h ⊢
  simp only [cglm] at hD
  have hE0 : (m.c2.z * m.c3.w - m.c3.z * m.c2.w) * (m.c0.x * m.c1.y - m.c0.y * m.c1.x) +
      (m.c0.z * m.c1.w - m.c1.z * m.c0.w) * (m.c2.x * m.c3.y - m.c2.y * m.c3.x) +
      ((m.c3.w * m.c2.x - m.c2.w * m.c3.x) * (m.c0.y * m.c1.z - m.c0.z * m.c1.y) +
       (m.c1.w * m.c0.x - m.c0.w * m.c1.x) * (m.c2.y * m.c3.z - m.c2.z * m.c3.y)) -
      ((m.c0.y * m.c1.w - m.c0.w * m.c1.y) * (m.c2.x * m.c3.z - m.c2.z * m.c3.x) +
       (m.c2.y * m.c3.w - m.c2.w * m.c3.y) * (m.c0.x * m.c1.z - m.c0.z * m.c1.x)) = D := by rw [hD]; ring1
  have hE1 : (m.c2.z * m.c3.w - m.c3.z * m.c2.w) * (m.c0.x * m.c1.y - m.c0.y * m.c1.x) +
      (m.c0.z * m.c1.w - m.c1.z * m.c0.w) * (m.c2.x * m.c3.y - m.c2.y * m.c3.x) +
      ((m.c3.w * m.c2.x - m.c2.w * m.c3.x) * (m.c0.y * m.c1.z - m.c0.z * m.c1.y) +
       (m.c1.w * m.c0.x - m.c0.w * m.c1.x) * (m.c2.y * m.c3.z - m.c2.z * m.c3.y)) -
      ((m.c0.x * m.c1.z - m.c0.z * m.c1.x) * (m.c2.y * m.c3.w - m.c2.w * m.c3.y) +
       (m.c2.x * m.c3.z - m.c2.z * m.c3.x) * (m.c0.y * m.c1.w - m.c0.w * m.c1.y)) = D := by rw [hD]; ring1
  have hE2 : (m.c2.z * m.c3.w - m.c3.z * m.c2.w) * (m.c0.x * m.c1.y - m.c0.y * m.c1.x) +
      (m.c0.z * m.c1.w - m.c1.z * m.c0.w) * (m.c2.x * m.c3.y - m.c2.y * m.c3.x) +
      ((m.c3.w * m.c2.x - m.c2.w * m.c3.x) * (m.c0.y * m.c1.z - m.c0.z * m.c1.y) +
       (m.c1.w * m.c0.x - m.c0.w * m.c1.x) * (m.c2.y * m.c3.z - m.c2.z * m.c3.y)) -
      ((m.c2.x * m.c3.z - m.c2.z * m.c3.x) * (m.c0.y * m.c1.w - m.c0.w * m.c1.y) +
       (m.c0.x * m.c1.z - m.c0.z * m.c1.x) * (m.c2.y * m.c3.w - m.c2.w * m.c3.y)) = D := by rw [hD]; ring1
  have hE3 : (m.c2.z * m.c3.w - m.c3.z * m.c2.w) * (m.c0.x * m.c1.y - m.c0.y * m.c1.x) +
      (m.c0.z * m.c1.w - m.c1.z * m.c0.w) * (m.c2.x * m.c3.y - m.c2.y * m.c3.x) +
      ((m.c3.w * m.c2.x - m.c2.w * m.c3.x) * (m.c0.y * m.c1.z - m.c0.z * m.c1.y) +
       (m.c1.w * m.c0.x - m.c0.w * m.c1.x) * (m.c2.y * m.c3.z - m.c2.z * m.c3.y)) -
      ((m.c2.y * m.c3.w - m.c2.w * m.c3.y) * (m.c0.x * m.c1.z - m.c0.z * m.c1.x) +
       (m.c0.y * m.c1.w - m.c0.w * m.c1.y) * (m.c2.x * m.c3.z - m.c2.z * m.c3.x)) = D := by rw [hD]; ring1
  have hD2 : (m.c0.x * m.c1.y - m.c0.y * m.c1.x) * (m.c2.z * m.c3.w - m.c2.w * m.c3.z) +
      (m.c0.x * m.c1.w - m.c0.w * m.c1.x) * (m.c2.y * m.c3.z - m.c2.z * m.c3.y) +
      (m.c0.y * m.c1.z - m.c0.z * m.c1.y) * (m.c2.x * m.c3.w - m.c2.w * m.c3.x) +
      (m.c0.z * m.c1.w - m.c0.w * m.c1.z) * (m.c2.x * m.c3.y - m.c2.y * m.c3.x) -
      (m.c0.x * m.c1.z - m.c0.z * m.c1.x) * (m.c2.y * m.c3.w - m.c2.w * m.c3.y) -
      (m.c0.y * m.c1.w - m.c0.w * m.c1.y) * (m.c2.x * m.c3.z - m.c2.z * m.c3.x) = D := by rw [hD]; ring1
  have hN : (2 - (2 - recpe D * D) * recpe D * D) * ((2 - recpe D * D) * recpe D) = D * newton2 D * (1 / D) := by
    field_simp; simp only [newton2]; ring1
  generalize D * newton2 D = k at hN ⊢
  clear hD
  simp only [M4.smul, cglm, Nat.reduceAdd]
  simp only [hE0, hE1, hE2, hE3, hN, hD2]
  ext <;> dsimp only <;> ring1

theorem C59_Neon32_glm_mat4_inv_fast [CEst ℝ] (m : M4 ℝ) (h : Cglm.glm_mat4_det m ≠ 0) :
    Neon32.glm_mat4_inv_fast m =
      M4.smul (1 - (1 - Cglm.glm_mat4_det m * recpe (Cglm.glm_mat4_det m)) ^ 4) (Cglm.glm_mat4_inv_fast m) :=
  C59_Neon32_glm_mat4_inv m h

-- a non-singular matrix
example : Cglm.glm_mat4_det (⟨⟨2, 0, 0, 0⟩, ⟨0, 1, 0, 0⟩, ⟨0, 3, 1, 0⟩, ⟨5, 6, 7, 1⟩⟩ : M4 ℝ) ≠ 0 := by
  simp only [cglm]; norm_num

/-- Unprojecting divides by the homogeneous coordinate, so the factor cancels: the result is that of the scalar build. -/
theorem C59_Neon32_glm_unproject_partial [CEst ℝ] (pos : V3 ℝ) (m : M4 ℝ) (vp : V4 ℝ) (h : Cglm.glm_mat4_det m ≠ 0)
    (hr : |1 - Cglm.glm_mat4_det m * recpe (Cglm.glm_mat4_det m)| ≤ 1 / 256) :
    Neon32.glm_unproject pos m vp = Cglm.glm_unproject pos m vp := by
  unfold Neon32.glm_unproject Cglm.glm_unproject
  rw [C59_Neon32_glm_mat4_inv m h]
  have hk : 1 - (1 - Cglm.glm_mat4_det m * recpe (Cglm.glm_mat4_det m)) ^ 4 ≠ 0 := by
    have h1 : |1 - Cglm.glm_mat4_det m * recpe (Cglm.glm_mat4_det m)| ^ 4 ≤ (1 / 256) ^ 4 := pow_le_pow_left₀ (abs_nonneg _) hr 4
    rw [← abs_pow] at h1
    have h2 := (abs_le.mp h1).2
    have h3 : ((1 : ℝ) / 256) ^ 4 < 1 := by norm_num
    linarith
  generalize 1 - (1 - Cglm.glm_mat4_det m * recpe (Cglm.glm_mat4_det m)) ^ 4 = k at hk
  generalize Cglm.glm_mat4_inv m = n
  have key : ∀ a b a' b' : ℝ, a = k * a' → b = k * b' → a * (1 / b) = a' * (1 / b') := by
    intro a b a' b' ha hb
    rw [ha, hb, mul_one_div, mul_one_div, mul_div_mul_left _ _ hk]
  simp only [M4.smul, cglm, Nat.reduceAdd]
  ext <;> dsimp only
  · exact key _ _ _ _ (by ring1) (by ring1)
  · exact key _ _ _ _ (by ring1) (by ring1)
  · exact key _ _ _ _ (by ring1) (by ring1)

/-! ### Noise divides by constants and takes integer parts, so an inexact quotient may change it; with exact ones it agrees -/

theorem Neon32_divs_exact [CEst ℝ] (s : ℝ) (hs : s ≠ 0) (h : s * recpe s = 1) (v : V4 ℝ) :
    Neon32.glm_vec4_divs v s = Cglm.glm_vec4_divs v s := by
  rw [C59_Neon32_glm_vec4_divs v s hs, h]
  ext <;> norm_num

theorem C59_Neon32_glm_perlin_vec2_partial [CEst ℝ] (point : V2 ℝ) (h : (41 : ℝ) * recpe 41 = 1) :
    Neon32.glm_perlin_vec2 point = Cglm.glm_perlin_vec2 point := by
  have e := Neon32_divs_exact (lit 41) (by rw [lit_real]; norm_num) (by rw [lit_real]; exact_mod_cast h)
  unfold Neon32.glm_perlin_vec2 Cglm.glm_perlin_vec2
  simp only [cglm_simd, e]

theorem C59_Neon32_glm_perlin_vec4_partial [CEst ℝ] (point : V4 ℝ) (h7 : (7 : ℝ) * recpe 7 = 1) (h6 : (6 : ℝ) * recpe 6 = 1) :
    Neon32.glm_perlin_vec4 point = Cglm.glm_perlin_vec4 point := by
  have e7 := Neon32_divs_exact (lit 7) (by rw [lit_real]; norm_num) (by rw [lit_real]; exact_mod_cast h7)
  have e6 := Neon32_divs_exact (lit 6) (by rw [lit_real]; norm_num) (by rw [lit_real]; exact_mod_cast h6)
  unfold Neon32.glm_perlin_vec4 Cglm.glm_perlin_vec4
  simp only [cglm_simd, e7, e6]

-- an exact estimate meets the hypotheses
example : (41 : ℝ) * (1 / 41) = 1 ∧ (7 : ℝ) * (1 / 7) = 1 ∧ (6 : ℝ) * (1 / 6) = 1 := by norm_num

end Cglm
