import Verif.F32Norm
import Verif.Gen
/-!
# C64: rounding error of norms, distances and normalisation

`glm_vec3_norm (v.map toReal)` is the length of the vector in exact arithmetic.  The bounds on
normalisation hold on the branch the code takes for vectors whose computed length is finite and not
below `FLT_EPSILON`; the other branch returns the zero vector (C65).
-/
open Cglm F32
namespace Cglm
variable [Libm]

omit [Libm] in
/-- the computed length against the exact one -/
private theorem near_norm2 [Libm] (v : V2 F32) :
    Near (glm_vec2_norm v) (√(v.x.toReal * v.x.toReal + v.y.toReal * v.y.toReal)) (√(v.x.toReal * v.x.toReal + v.y.toReal * v.y.toReal)) 3 (1 / 2 ^ 72) := by
  simp only [cglm, sqrtf_f32]
  refine Near.le (Near.sqrt ((show Near _ _ _ _ _ by near).le (M' := v.x.toReal * v.x.toReal + v.y.toReal * v.y.toReal)
    (k' := 2) (e' := 1 / 2 ^ 146) ?_ ?_ ?_)) le_rfl le_rfl sqrt_e
  · simp only [abs_mul_abs_self]; exact le_rfl
  · norm_num
  · norm_num [ur, ηr]

omit [Libm] in
/-- the computed length against the exact one -/
private theorem near_norm3 [Libm] (v : V3 F32) :
    Near (glm_vec3_norm v) (√(v.x.toReal * v.x.toReal + v.y.toReal * v.y.toReal + v.z.toReal * v.z.toReal)) (√(v.x.toReal * v.x.toReal + v.y.toReal * v.y.toReal + v.z.toReal * v.z.toReal)) 4 (1 / 2 ^ 72) := by
  simp only [cglm, sqrtf_f32]
  refine Near.le (Near.sqrt ((show Near _ _ _ _ _ by near).le (M' := v.x.toReal * v.x.toReal + v.y.toReal * v.y.toReal + v.z.toReal * v.z.toReal)
    (k' := 3) (e' := 1 / 2 ^ 146) ?_ ?_ ?_)) le_rfl le_rfl sqrt_e
  · simp only [abs_mul_abs_self]; exact le_rfl
  · norm_num
  · norm_num [ur, ηr]

omit [Libm] in
/-- the computed length against the exact one -/
private theorem near_norm4 [Libm] (v : V4 F32) :
    Near (glm_vec4_norm v) (√(v.x.toReal * v.x.toReal + v.y.toReal * v.y.toReal + v.z.toReal * v.z.toReal + v.w.toReal * v.w.toReal)) (√(v.x.toReal * v.x.toReal + v.y.toReal * v.y.toReal + v.z.toReal * v.z.toReal + v.w.toReal * v.w.toReal)) 5 (1 / 2 ^ 72) := by
  simp only [cglm, sqrtf_f32]
  refine Near.le (Near.sqrt ((show Near _ _ _ _ _ by near).le (M' := v.x.toReal * v.x.toReal + v.y.toReal * v.y.toReal + v.z.toReal * v.z.toReal + v.w.toReal * v.w.toReal)
    (k' := 4) (e' := 1 / 2 ^ 146) ?_ ?_ ?_)) le_rfl le_rfl sqrt_e
  · simp only [abs_mul_abs_self]; exact le_rfl
  · norm_num
  · norm_num [ur, ηr]

theorem C64_vec2_norm (v : V2 F32) :
    Err (glm_vec2_norm v) (glm_vec2_norm (v.map toReal)) (γ 3) (glm_vec2_norm (v.map toReal)) (1 / 2 ^ 72) := by
  refine (near_norm2 v).err 3 le_rfl (by norm_num [ur]) ?_ ?_ le_rfl <;> simp only [cglm, V2.map, le_refl]

theorem C64_vec3_norm (v : V3 F32) :
    Err (glm_vec3_norm v) (glm_vec3_norm (v.map toReal)) (γ 4) (glm_vec3_norm (v.map toReal)) (1 / 2 ^ 72) := by
  refine (near_norm3 v).err 4 le_rfl (by norm_num [ur]) ?_ ?_ le_rfl <;> simp only [cglm, V3.map, le_refl]

theorem C64_vec4_norm (v : V4 F32) :
    Err (glm_vec4_norm v) (glm_vec4_norm (v.map toReal)) (γ 5) (glm_vec4_norm (v.map toReal)) (1 / 2 ^ 72) := by
  refine (near_norm4 v).err 5 le_rfl (by norm_num [ur]) ?_ ?_ le_rfl <;> simp only [cglm, V4.map, le_refl]

theorem C64_quat_norm (q : V4 F32) :
    Err (glm_quat_norm q) (glm_quat_norm (q.map toReal)) (γ 5) (glm_quat_norm (q.map toReal)) (1 / 2 ^ 72) := by
  refine (near_norm4 q).err 5 le_rfl (by norm_num [ur]) ?_ ?_ le_rfl <;> simp only [cglm, V4.map, le_refl]

/-- Normalising in binary32 is componentwise accurate to `8u`, and the result has length `1` up to `9u`. -/
theorem C64_vec2_normalize (v : V2 F32) (hfin : (glm_vec2_norm v).isFin = true)
    (heps : 1 / 2 ^ 23 ≤ (glm_vec2_norm v).toReal) :
    (glm_vec2_normalize v).IsFin ∧
    (glm_vec2_normalize v).Err (glm_vec2_scale (v.map toReal) (1 / glm_vec2_norm (v.map toReal))) (8 * ur)
      (glm_vec2_scale (v.map mag) (1 / glm_vec2_norm (v.map toReal))) (1 / 2 ^ 150) ∧
    |glm_vec2_norm ((glm_vec2_normalize v).map toReal) - 1| ≤ 9 * ur := by
  obtain ⟨hN, hc⟩ := norm_close (by norm_num) (near_norm2 v) hfin heps
  have hb := not_lt_eps hfin heps
  have hN' := N_le (N := √(v.x.toReal * v.x.toReal + v.y.toReal * v.y.toReal)) (by simpa only [cglm, sqrtf_f32] using hfin) (by linarith) (by simpa only [cglm, sqrtf_f32] using hc)
  have hS : glm_vec2_norm (v.map toReal) = √(v.x.toReal * v.x.toReal + v.y.toReal * v.y.toReal) := by simp only [cglm, V2.map]
  have hf := (sqrt_isFin (a := glm_vec2_dot v v) (by simpa only [cglm, sqrtf_f32] using hfin)).1
  have hv : glm_vec2_normalize v = glm_vec2_scale v (lit 1 / glm_vec2_norm v) := by
    simp only [glm_vec2_normalize, hb, Bool.false_eq_true, if_false]
  rw [hv, hS]
  have Np : 0 < √(v.x.toReal * v.x.toReal + v.y.toReal * v.y.toReal) := lt_of_lt_of_le (by norm_num) hN
  have NN : √(v.x.toReal * v.x.toReal + v.y.toReal * v.y.toReal) * √(v.x.toReal * v.x.toReal + v.y.toReal * v.y.toReal) = v.x.toReal * v.x.toReal + v.y.toReal * v.y.toReal :=
    Real.mul_self_sqrt (by nlinarith [mul_self_nonneg v.x.toReal, mul_self_nonneg v.y.toReal])
  generalize √(v.x.toReal * v.x.toReal + v.y.toReal * v.y.toReal) = N at *
  have fin : v.x.isFin = true ∧ v.y.isFin = true := by
    simp only [cglm] at hf
    obtain ⟨h0, h1⟩ := add_isFin hf
    exact ⟨(mul_isFin h0).1, (mul_isFin h1).1⟩
  obtain ⟨fx, fy⟩ := fin
  have ax : |v.x.toReal| ≤ N := abs_le_of_sq_le_sq (by nlinarith [mul_self_nonneg v.x.toReal, mul_self_nonneg v.y.toReal]) Np.le
  have ay : |v.y.toReal| ≤ N := abs_le_of_sq_le_sq (by nlinarith [mul_self_nonneg v.x.toReal, mul_self_nonneg v.y.toReal]) Np.le
  have ux := unit_comp fx hfin hN hN' hc ax
  have uy := unit_comp fy hfin hN hN' hc ay
  have E : ∀ {f : F32} {c : ℝ}, |f.toReal - c / N| ≤ 8 * ur * |c / N| + ηr → Err f (c * (1 / N)) (8 * ur) (|c| * (1 / N)) (1 / 2 ^ 150) := by
    intro f c h _
    rw [mul_one_div, mul_one_div, show |c| / N = |c / N| by rw [abs_div, abs_of_pos Np]]; exact h
  refine ⟨⟨ux.1, uy.1⟩, ⟨E ux.2, E uy.2⟩, ?_⟩
  have key : |((v.x * (lit 1 / glm_vec2_norm v)).toReal * (v.x * (lit 1 / glm_vec2_norm v)).toReal + (v.y * (lit 1 / glm_vec2_norm v)).toReal * (v.y * (lit 1 / glm_vec2_norm v)).toReal) - 1| ≤ 17 * ur := by
    have sx := sq_err ux.2 (by rw [abs_div, abs_of_pos Np]; exact (div_le_one Np).mpr ax)
    have sy := sq_err uy.2 (by rw [abs_div, abs_of_pos Np]; exact (div_le_one Np).mpr ay)
    have S1 : v.x.toReal / N * (v.x.toReal / N) + v.y.toReal / N * (v.y.toReal / N) = 1 := by
      field_simp; linarith [NN]
    have hu : ur = 1 / 2 ^ 24 := rfl
    rw [abs_le] at sx sy ⊢
    rw [hu] at sx sy ⊢
    constructor <;> linarith [sx.1, sx.2, sy.1, sy.2]
  have := unit_len key (by nlinarith [mul_self_nonneg (v.x * (lit 1 / glm_vec2_norm v)).toReal, mul_self_nonneg (v.y * (lit 1 / glm_vec2_norm v)).toReal])
  simpa only [cglm, V2.map] using this

/-- Normalising in binary32 is componentwise accurate to `8u`, and the result has length `1` up to `9u`. -/
theorem C64_vec3_normalize (v : V3 F32) (hfin : (glm_vec3_norm v).isFin = true)
    (heps : 1 / 2 ^ 23 ≤ (glm_vec3_norm v).toReal) :
    (glm_vec3_normalize v).IsFin ∧
    (glm_vec3_normalize v).Err (glm_vec3_scale (v.map toReal) (1 / glm_vec3_norm (v.map toReal))) (8 * ur)
      (glm_vec3_scale (v.map mag) (1 / glm_vec3_norm (v.map toReal))) (1 / 2 ^ 150) ∧
    |glm_vec3_norm ((glm_vec3_normalize v).map toReal) - 1| ≤ 9 * ur := by
  obtain ⟨hN, hc⟩ := norm_close (by norm_num) (near_norm3 v) hfin heps
  have hb := not_lt_eps hfin heps
  have hN' := N_le (N := √(v.x.toReal * v.x.toReal + v.y.toReal * v.y.toReal + v.z.toReal * v.z.toReal)) (by simpa only [cglm, sqrtf_f32] using hfin) (by linarith) (by simpa only [cglm, sqrtf_f32] using hc)
  have hS : glm_vec3_norm (v.map toReal) = √(v.x.toReal * v.x.toReal + v.y.toReal * v.y.toReal + v.z.toReal * v.z.toReal) := by simp only [cglm, V3.map]
  have hf := (sqrt_isFin (a := glm_vec3_dot v v) (by simpa only [cglm, sqrtf_f32] using hfin)).1
  have hv : glm_vec3_normalize v = glm_vec3_scale v (lit 1 / glm_vec3_norm v) := by
    simp only [glm_vec3_normalize, hb, Bool.false_eq_true, if_false]
  rw [hv, hS]
  have Np : 0 < √(v.x.toReal * v.x.toReal + v.y.toReal * v.y.toReal + v.z.toReal * v.z.toReal) := lt_of_lt_of_le (by norm_num) hN
  have NN : √(v.x.toReal * v.x.toReal + v.y.toReal * v.y.toReal + v.z.toReal * v.z.toReal) * √(v.x.toReal * v.x.toReal + v.y.toReal * v.y.toReal + v.z.toReal * v.z.toReal) = v.x.toReal * v.x.toReal + v.y.toReal * v.y.toReal + v.z.toReal * v.z.toReal :=
    Real.mul_self_sqrt (by nlinarith [mul_self_nonneg v.x.toReal, mul_self_nonneg v.y.toReal, mul_self_nonneg v.z.toReal])
  generalize √(v.x.toReal * v.x.toReal + v.y.toReal * v.y.toReal + v.z.toReal * v.z.toReal) = N at *
  have fin : v.x.isFin = true ∧ v.y.isFin = true ∧ v.z.isFin = true := by
    simp only [cglm] at hf
    obtain ⟨h, h2⟩ := add_isFin hf
    obtain ⟨h0, h1⟩ := add_isFin h
    exact ⟨(mul_isFin h0).1, (mul_isFin h1).1, (mul_isFin h2).1⟩
  obtain ⟨fx, fy, fz⟩ := fin
  have ax : |v.x.toReal| ≤ N := abs_le_of_sq_le_sq (by nlinarith [mul_self_nonneg v.x.toReal, mul_self_nonneg v.y.toReal, mul_self_nonneg v.z.toReal]) Np.le
  have ay : |v.y.toReal| ≤ N := abs_le_of_sq_le_sq (by nlinarith [mul_self_nonneg v.x.toReal, mul_self_nonneg v.y.toReal, mul_self_nonneg v.z.toReal]) Np.le
  have az : |v.z.toReal| ≤ N := abs_le_of_sq_le_sq (by nlinarith [mul_self_nonneg v.x.toReal, mul_self_nonneg v.y.toReal, mul_self_nonneg v.z.toReal]) Np.le
  have ux := unit_comp fx hfin hN hN' hc ax
  have uy := unit_comp fy hfin hN hN' hc ay
  have uz := unit_comp fz hfin hN hN' hc az
  have E : ∀ {f : F32} {c : ℝ}, |f.toReal - c / N| ≤ 8 * ur * |c / N| + ηr → Err f (c * (1 / N)) (8 * ur) (|c| * (1 / N)) (1 / 2 ^ 150) := by
    intro f c h _
    rw [mul_one_div, mul_one_div, show |c| / N = |c / N| by rw [abs_div, abs_of_pos Np]]; exact h
  refine ⟨⟨ux.1, uy.1, uz.1⟩, ⟨E ux.2, E uy.2, E uz.2⟩, ?_⟩
  have key : |((v.x * (lit 1 / glm_vec3_norm v)).toReal * (v.x * (lit 1 / glm_vec3_norm v)).toReal + (v.y * (lit 1 / glm_vec3_norm v)).toReal * (v.y * (lit 1 / glm_vec3_norm v)).toReal + (v.z * (lit 1 / glm_vec3_norm v)).toReal * (v.z * (lit 1 / glm_vec3_norm v)).toReal) - 1| ≤ 17 * ur := by
    have sx := sq_err ux.2 (by rw [abs_div, abs_of_pos Np]; exact (div_le_one Np).mpr ax)
    have sy := sq_err uy.2 (by rw [abs_div, abs_of_pos Np]; exact (div_le_one Np).mpr ay)
    have sz := sq_err uz.2 (by rw [abs_div, abs_of_pos Np]; exact (div_le_one Np).mpr az)
    have S1 : v.x.toReal / N * (v.x.toReal / N) + v.y.toReal / N * (v.y.toReal / N) + v.z.toReal / N * (v.z.toReal / N) = 1 := by
      field_simp; linarith [NN]
    have hu : ur = 1 / 2 ^ 24 := rfl
    rw [abs_le] at sx sy sz ⊢
    rw [hu] at sx sy sz ⊢
    constructor <;> linarith [sx.1, sx.2, sy.1, sy.2, sz.1, sz.2]
  have := unit_len key (by nlinarith [mul_self_nonneg (v.x * (lit 1 / glm_vec3_norm v)).toReal, mul_self_nonneg (v.y * (lit 1 / glm_vec3_norm v)).toReal, mul_self_nonneg (v.z * (lit 1 / glm_vec3_norm v)).toReal])
  simpa only [cglm, V3.map] using this

/-- Normalising in binary32 is componentwise accurate to `8u`, and the result has length `1` up to `9u`. -/
theorem C64_vec4_normalize (v : V4 F32) (hfin : (glm_vec4_norm v).isFin = true)
    (heps : 1 / 2 ^ 23 ≤ (glm_vec4_norm v).toReal) :
    (glm_vec4_normalize v).IsFin ∧
    (glm_vec4_normalize v).Err (glm_vec4_scale (v.map toReal) (1 / glm_vec4_norm (v.map toReal))) (8 * ur)
      (glm_vec4_scale (v.map mag) (1 / glm_vec4_norm (v.map toReal))) (1 / 2 ^ 150) ∧
    |glm_vec4_norm ((glm_vec4_normalize v).map toReal) - 1| ≤ 9 * ur := by
  obtain ⟨hN, hc⟩ := norm_close (by norm_num) (near_norm4 v) hfin heps
  have hb := not_lt_eps hfin heps
  have hN' := N_le (N := √(v.x.toReal * v.x.toReal + v.y.toReal * v.y.toReal + v.z.toReal * v.z.toReal + v.w.toReal * v.w.toReal)) (by simpa only [cglm, sqrtf_f32] using hfin) (by linarith) (by simpa only [cglm, sqrtf_f32] using hc)
  have hS : glm_vec4_norm (v.map toReal) = √(v.x.toReal * v.x.toReal + v.y.toReal * v.y.toReal + v.z.toReal * v.z.toReal + v.w.toReal * v.w.toReal) := by simp only [cglm, V4.map]
  have hf := (sqrt_isFin (a := glm_vec4_dot v v) (by simpa only [cglm, sqrtf_f32] using hfin)).1
  have hv : glm_vec4_normalize v = glm_vec4_scale v (lit 1 / glm_vec4_norm v) := by
    simp only [glm_vec4_normalize, glm_vec4_normalize_to, hb, Bool.false_eq_true, if_false]
  rw [hv, hS]
  have Np : 0 < √(v.x.toReal * v.x.toReal + v.y.toReal * v.y.toReal + v.z.toReal * v.z.toReal + v.w.toReal * v.w.toReal) := lt_of_lt_of_le (by norm_num) hN
  have NN : √(v.x.toReal * v.x.toReal + v.y.toReal * v.y.toReal + v.z.toReal * v.z.toReal + v.w.toReal * v.w.toReal) * √(v.x.toReal * v.x.toReal + v.y.toReal * v.y.toReal + v.z.toReal * v.z.toReal + v.w.toReal * v.w.toReal) = v.x.toReal * v.x.toReal + v.y.toReal * v.y.toReal + v.z.toReal * v.z.toReal + v.w.toReal * v.w.toReal :=
    Real.mul_self_sqrt (by nlinarith [mul_self_nonneg v.x.toReal, mul_self_nonneg v.y.toReal, mul_self_nonneg v.z.toReal, mul_self_nonneg v.w.toReal])
  generalize √(v.x.toReal * v.x.toReal + v.y.toReal * v.y.toReal + v.z.toReal * v.z.toReal + v.w.toReal * v.w.toReal) = N at *
  have fin : v.x.isFin = true ∧ v.y.isFin = true ∧ v.z.isFin = true ∧ v.w.isFin = true := by
    simp only [cglm] at hf
    obtain ⟨h, h3⟩ := add_isFin hf
    obtain ⟨h, h2⟩ := add_isFin h
    obtain ⟨h0, h1⟩ := add_isFin h
    exact ⟨(mul_isFin h0).1, (mul_isFin h1).1, (mul_isFin h2).1, (mul_isFin h3).1⟩
  obtain ⟨fx, fy, fz, fw⟩ := fin
  have ax : |v.x.toReal| ≤ N := abs_le_of_sq_le_sq (by nlinarith [mul_self_nonneg v.x.toReal, mul_self_nonneg v.y.toReal, mul_self_nonneg v.z.toReal, mul_self_nonneg v.w.toReal]) Np.le
  have ay : |v.y.toReal| ≤ N := abs_le_of_sq_le_sq (by nlinarith [mul_self_nonneg v.x.toReal, mul_self_nonneg v.y.toReal, mul_self_nonneg v.z.toReal, mul_self_nonneg v.w.toReal]) Np.le
  have az : |v.z.toReal| ≤ N := abs_le_of_sq_le_sq (by nlinarith [mul_self_nonneg v.x.toReal, mul_self_nonneg v.y.toReal, mul_self_nonneg v.z.toReal, mul_self_nonneg v.w.toReal]) Np.le
  have aw : |v.w.toReal| ≤ N := abs_le_of_sq_le_sq (by nlinarith [mul_self_nonneg v.x.toReal, mul_self_nonneg v.y.toReal, mul_self_nonneg v.z.toReal, mul_self_nonneg v.w.toReal]) Np.le
  have ux := unit_comp fx hfin hN hN' hc ax
  have uy := unit_comp fy hfin hN hN' hc ay
  have uz := unit_comp fz hfin hN hN' hc az
  have uw := unit_comp fw hfin hN hN' hc aw
  have E : ∀ {f : F32} {c : ℝ}, |f.toReal - c / N| ≤ 8 * ur * |c / N| + ηr → Err f (c * (1 / N)) (8 * ur) (|c| * (1 / N)) (1 / 2 ^ 150) := by
    intro f c h _
    rw [mul_one_div, mul_one_div, show |c| / N = |c / N| by rw [abs_div, abs_of_pos Np]]; exact h
  refine ⟨⟨ux.1, uy.1, uz.1, uw.1⟩, ⟨E ux.2, E uy.2, E uz.2, E uw.2⟩, ?_⟩
  have key : |((v.x * (lit 1 / glm_vec4_norm v)).toReal * (v.x * (lit 1 / glm_vec4_norm v)).toReal + (v.y * (lit 1 / glm_vec4_norm v)).toReal * (v.y * (lit 1 / glm_vec4_norm v)).toReal + (v.z * (lit 1 / glm_vec4_norm v)).toReal * (v.z * (lit 1 / glm_vec4_norm v)).toReal + (v.w * (lit 1 / glm_vec4_norm v)).toReal * (v.w * (lit 1 / glm_vec4_norm v)).toReal) - 1| ≤ 17 * ur := by
    have sx := sq_err ux.2 (by rw [abs_div, abs_of_pos Np]; exact (div_le_one Np).mpr ax)
    have sy := sq_err uy.2 (by rw [abs_div, abs_of_pos Np]; exact (div_le_one Np).mpr ay)
    have sz := sq_err uz.2 (by rw [abs_div, abs_of_pos Np]; exact (div_le_one Np).mpr az)
    have sw := sq_err uw.2 (by rw [abs_div, abs_of_pos Np]; exact (div_le_one Np).mpr aw)
    have S1 : v.x.toReal / N * (v.x.toReal / N) + v.y.toReal / N * (v.y.toReal / N) + v.z.toReal / N * (v.z.toReal / N) + v.w.toReal / N * (v.w.toReal / N) = 1 := by
      field_simp; linarith [NN]
    have hu : ur = 1 / 2 ^ 24 := rfl
    rw [abs_le] at sx sy sz sw ⊢
    rw [hu] at sx sy sz sw ⊢
    constructor <;> linarith [sx.1, sx.2, sy.1, sy.2, sz.1, sz.2, sw.1, sw.2]
  have := unit_len key (by nlinarith [mul_self_nonneg (v.x * (lit 1 / glm_vec4_norm v)).toReal, mul_self_nonneg (v.y * (lit 1 / glm_vec4_norm v)).toReal, mul_self_nonneg (v.z * (lit 1 / glm_vec4_norm v)).toReal, mul_self_nonneg (v.w * (lit 1 / glm_vec4_norm v)).toReal])
  simpa only [cglm, V4.map] using this

/-- Normalising in binary32 is componentwise accurate to `8u`, and the result has length `1` up to `9u`. -/
theorem C64_quat_normalize (v : V4 F32) (hfin : (glm_quat_norm v).isFin = true)
    (heps : 1 / 2 ^ 23 ≤ (glm_quat_norm v).toReal) :
    (glm_quat_normalize v).IsFin ∧
    (glm_quat_normalize v).Err (glm_vec4_scale (v.map toReal) (1 / glm_vec4_norm (v.map toReal))) (8 * ur)
      (glm_vec4_scale (v.map mag) (1 / glm_vec4_norm (v.map toReal))) (1 / 2 ^ 150) ∧
    |glm_vec4_norm ((glm_quat_normalize v).map toReal) - 1| ≤ 9 * ur := by
  rw [glm_quat_norm] at hfin heps
  obtain ⟨hN, hc⟩ := norm_close (by norm_num) (near_norm4 v) hfin heps
  have hb : fle (glm_vec4_norm2 v) (lit 0) = false := not_le_zero hfin heps
  have hN' := N_le (N := √(v.x.toReal * v.x.toReal + v.y.toReal * v.y.toReal + v.z.toReal * v.z.toReal + v.w.toReal * v.w.toReal)) (by simpa only [cglm, sqrtf_f32] using hfin) (by linarith) (by simpa only [cglm, sqrtf_f32] using hc)
  have hS : glm_vec4_norm (v.map toReal) = √(v.x.toReal * v.x.toReal + v.y.toReal * v.y.toReal + v.z.toReal * v.z.toReal + v.w.toReal * v.w.toReal) := by simp only [cglm, V4.map]
  have hf := (sqrt_isFin (a := glm_vec4_dot v v) (by simpa only [cglm, sqrtf_f32] using hfin)).1
  have hv : glm_quat_normalize v = glm_vec4_scale v (lit 1 / glm_vec4_norm v) := by
    simp only [glm_vec4_norm, glm_vec4_norm2, glm_quat_normalize, glm_quat_normalize_to, show fle (glm_vec4_dot v v) (lit 0) = false from hb, Bool.false_eq_true, if_false]
  rw [hv, hS]
  have Np : 0 < √(v.x.toReal * v.x.toReal + v.y.toReal * v.y.toReal + v.z.toReal * v.z.toReal + v.w.toReal * v.w.toReal) := lt_of_lt_of_le (by norm_num) hN
  have NN : √(v.x.toReal * v.x.toReal + v.y.toReal * v.y.toReal + v.z.toReal * v.z.toReal + v.w.toReal * v.w.toReal) * √(v.x.toReal * v.x.toReal + v.y.toReal * v.y.toReal + v.z.toReal * v.z.toReal + v.w.toReal * v.w.toReal) = v.x.toReal * v.x.toReal + v.y.toReal * v.y.toReal + v.z.toReal * v.z.toReal + v.w.toReal * v.w.toReal :=
    Real.mul_self_sqrt (by nlinarith [mul_self_nonneg v.x.toReal, mul_self_nonneg v.y.toReal, mul_self_nonneg v.z.toReal, mul_self_nonneg v.w.toReal])
  generalize √(v.x.toReal * v.x.toReal + v.y.toReal * v.y.toReal + v.z.toReal * v.z.toReal + v.w.toReal * v.w.toReal) = N at *
  have fin : v.x.isFin = true ∧ v.y.isFin = true ∧ v.z.isFin = true ∧ v.w.isFin = true := by
    simp only [cglm] at hf
    obtain ⟨h, h3⟩ := add_isFin hf
    obtain ⟨h, h2⟩ := add_isFin h
    obtain ⟨h0, h1⟩ := add_isFin h
    exact ⟨(mul_isFin h0).1, (mul_isFin h1).1, (mul_isFin h2).1, (mul_isFin h3).1⟩
  obtain ⟨fx, fy, fz, fw⟩ := fin
  have ax : |v.x.toReal| ≤ N := abs_le_of_sq_le_sq (by nlinarith [mul_self_nonneg v.x.toReal, mul_self_nonneg v.y.toReal, mul_self_nonneg v.z.toReal, mul_self_nonneg v.w.toReal]) Np.le
  have ay : |v.y.toReal| ≤ N := abs_le_of_sq_le_sq (by nlinarith [mul_self_nonneg v.x.toReal, mul_self_nonneg v.y.toReal, mul_self_nonneg v.z.toReal, mul_self_nonneg v.w.toReal]) Np.le
  have az : |v.z.toReal| ≤ N := abs_le_of_sq_le_sq (by nlinarith [mul_self_nonneg v.x.toReal, mul_self_nonneg v.y.toReal, mul_self_nonneg v.z.toReal, mul_self_nonneg v.w.toReal]) Np.le
  have aw : |v.w.toReal| ≤ N := abs_le_of_sq_le_sq (by nlinarith [mul_self_nonneg v.x.toReal, mul_self_nonneg v.y.toReal, mul_self_nonneg v.z.toReal, mul_self_nonneg v.w.toReal]) Np.le
  have ux := unit_comp fx hfin hN hN' hc ax
  have uy := unit_comp fy hfin hN hN' hc ay
  have uz := unit_comp fz hfin hN hN' hc az
  have uw := unit_comp fw hfin hN hN' hc aw
  have E : ∀ {f : F32} {c : ℝ}, |f.toReal - c / N| ≤ 8 * ur * |c / N| + ηr → Err f (c * (1 / N)) (8 * ur) (|c| * (1 / N)) (1 / 2 ^ 150) := by
    intro f c h _
    rw [mul_one_div, mul_one_div, show |c| / N = |c / N| by rw [abs_div, abs_of_pos Np]]; exact h
  refine ⟨⟨ux.1, uy.1, uz.1, uw.1⟩, ⟨E ux.2, E uy.2, E uz.2, E uw.2⟩, ?_⟩
  have key : |((v.x * (lit 1 / glm_vec4_norm v)).toReal * (v.x * (lit 1 / glm_vec4_norm v)).toReal + (v.y * (lit 1 / glm_vec4_norm v)).toReal * (v.y * (lit 1 / glm_vec4_norm v)).toReal + (v.z * (lit 1 / glm_vec4_norm v)).toReal * (v.z * (lit 1 / glm_vec4_norm v)).toReal + (v.w * (lit 1 / glm_vec4_norm v)).toReal * (v.w * (lit 1 / glm_vec4_norm v)).toReal) - 1| ≤ 17 * ur := by
    have sx := sq_err ux.2 (by rw [abs_div, abs_of_pos Np]; exact (div_le_one Np).mpr ax)
    have sy := sq_err uy.2 (by rw [abs_div, abs_of_pos Np]; exact (div_le_one Np).mpr ay)
    have sz := sq_err uz.2 (by rw [abs_div, abs_of_pos Np]; exact (div_le_one Np).mpr az)
    have sw := sq_err uw.2 (by rw [abs_div, abs_of_pos Np]; exact (div_le_one Np).mpr aw)
    have S1 : v.x.toReal / N * (v.x.toReal / N) + v.y.toReal / N * (v.y.toReal / N) + v.z.toReal / N * (v.z.toReal / N) + v.w.toReal / N * (v.w.toReal / N) = 1 := by
      field_simp; linarith [NN]
    have hu : ur = 1 / 2 ^ 24 := rfl
    rw [abs_le] at sx sy sz sw ⊢
    rw [hu] at sx sy sz sw ⊢
    constructor <;> linarith [sx.1, sx.2, sy.1, sy.2, sz.1, sz.2, sw.1, sw.2]
  have := unit_len key (by nlinarith [mul_self_nonneg (v.x * (lit 1 / glm_vec4_norm v)).toReal, mul_self_nonneg (v.y * (lit 1 / glm_vec4_norm v)).toReal, mul_self_nonneg (v.z * (lit 1 / glm_vec4_norm v)).toReal, mul_self_nonneg (v.w * (lit 1 / glm_vec4_norm v)).toReal])
  simpa only [cglm, V4.map] using this

private theorem near_distance2 (a b : V2 F32) :
    Near (glm_vec2_distance2 a b) ((b.x.toReal - a.x.toReal) * (b.x.toReal - a.x.toReal) + (b.y.toReal - a.y.toReal) * (b.y.toReal - a.y.toReal)) ((b.x.toReal - a.x.toReal) * (b.x.toReal - a.x.toReal) + (b.y.toReal - a.y.toReal) * (b.y.toReal - a.y.toReal)) 4 (1 / 2 ^ 146) := by
  simp only [cglm]
  refine (((Near.subv b.x a.x).mul (Near.subv b.x a.x)).add ((Near.subv b.y a.y).mul (Near.subv b.y a.y))).le ?_ ?_ ?_
  · simp only [abs_mul_abs_self]; exact le_rfl
  · norm_num
  · norm_num [ur, ηr]

/-- relative to the exact squared distance itself: cancellation does not hurt -/
theorem C64_vec2_distance2_rel (a b : V2 F32) :
    Err (glm_vec2_distance2 a b) (glm_vec2_distance2 (a.map toReal) (b.map toReal)) (γ 4)
      (glm_vec2_distance2 (a.map toReal) (b.map toReal)) (1 / 2 ^ 146) := by
  refine (near_distance2 a b).err 4 le_rfl (by norm_num [ur]) ?_ ?_ le_rfl <;> simp only [cglm, V2.map, le_refl]

theorem C64_vec2_distance (a b : V2 F32) :
    Err (glm_vec2_distance a b) (glm_vec2_distance (a.map toReal) (b.map toReal)) (γ 5)
      (glm_vec2_distance (a.map toReal) (b.map toReal)) (1 / 2 ^ 72) := by
  refine ((near_distance2 a b).sqrt.le le_rfl le_rfl sqrt_e).err 5 le_rfl (by norm_num [ur]) ?_ ?_ le_rfl <;> simp only [cglm, V2.map, le_refl]

private theorem near_distance3 (a b : V3 F32) :
    Near (glm_vec3_distance2 a b) ((a.x.toReal - b.x.toReal) * (a.x.toReal - b.x.toReal) + (a.y.toReal - b.y.toReal) * (a.y.toReal - b.y.toReal) + (a.z.toReal - b.z.toReal) * (a.z.toReal - b.z.toReal)) ((a.x.toReal - b.x.toReal) * (a.x.toReal - b.x.toReal) + (a.y.toReal - b.y.toReal) * (a.y.toReal - b.y.toReal) + (a.z.toReal - b.z.toReal) * (a.z.toReal - b.z.toReal)) 5 (1 / 2 ^ 146) := by
  simp only [cglm]
  refine ((((Near.subv a.x b.x).mul (Near.subv a.x b.x)).add ((Near.subv a.y b.y).mul (Near.subv a.y b.y))).add ((Near.subv a.z b.z).mul (Near.subv a.z b.z))).le ?_ ?_ ?_
  · simp only [abs_mul_abs_self]; exact le_rfl
  · norm_num
  · norm_num [ur, ηr]

/-- relative to the exact squared distance itself: cancellation does not hurt -/
theorem C64_vec3_distance2_rel (a b : V3 F32) :
    Err (glm_vec3_distance2 a b) (glm_vec3_distance2 (a.map toReal) (b.map toReal)) (γ 5)
      (glm_vec3_distance2 (a.map toReal) (b.map toReal)) (1 / 2 ^ 146) := by
  refine (near_distance3 a b).err 5 le_rfl (by norm_num [ur]) ?_ ?_ le_rfl <;> simp only [cglm, V3.map, le_refl]

theorem C64_vec3_distance (a b : V3 F32) :
    Err (glm_vec3_distance a b) (glm_vec3_distance (a.map toReal) (b.map toReal)) (γ 6)
      (glm_vec3_distance (a.map toReal) (b.map toReal)) (1 / 2 ^ 72) := by
  refine ((near_distance3 a b).sqrt.le le_rfl le_rfl sqrt_e).err 6 le_rfl (by norm_num [ur]) ?_ ?_ le_rfl <;> simp only [cglm, V3.map, le_refl]

private theorem near_distance4 (a b : V4 F32) :
    Near (glm_vec4_distance2 a b) ((a.x.toReal - b.x.toReal) * (a.x.toReal - b.x.toReal) + (a.y.toReal - b.y.toReal) * (a.y.toReal - b.y.toReal) + (a.z.toReal - b.z.toReal) * (a.z.toReal - b.z.toReal) + (a.w.toReal - b.w.toReal) * (a.w.toReal - b.w.toReal)) ((a.x.toReal - b.x.toReal) * (a.x.toReal - b.x.toReal) + (a.y.toReal - b.y.toReal) * (a.y.toReal - b.y.toReal) + (a.z.toReal - b.z.toReal) * (a.z.toReal - b.z.toReal) + (a.w.toReal - b.w.toReal) * (a.w.toReal - b.w.toReal)) 6 (1 / 2 ^ 146) := by
  simp only [cglm]
  refine (((((Near.subv a.x b.x).mul (Near.subv a.x b.x)).add ((Near.subv a.y b.y).mul (Near.subv a.y b.y))).add ((Near.subv a.z b.z).mul (Near.subv a.z b.z))).add ((Near.subv a.w b.w).mul (Near.subv a.w b.w))).le ?_ ?_ ?_
  · simp only [abs_mul_abs_self]; exact le_rfl
  · norm_num
  · norm_num [ur, ηr]

/-- relative to the exact squared distance itself: cancellation does not hurt -/
theorem C64_vec4_distance2_rel (a b : V4 F32) :
    Err (glm_vec4_distance2 a b) (glm_vec4_distance2 (a.map toReal) (b.map toReal)) (γ 6)
      (glm_vec4_distance2 (a.map toReal) (b.map toReal)) (1 / 2 ^ 146) := by
  refine (near_distance4 a b).err 6 le_rfl (by norm_num [ur]) ?_ ?_ le_rfl <;> simp only [cglm, V4.map, le_refl]

theorem C64_vec4_distance (a b : V4 F32) :
    Err (glm_vec4_distance a b) (glm_vec4_distance (a.map toReal) (b.map toReal)) (γ 7)
      (glm_vec4_distance (a.map toReal) (b.map toReal)) (1 / 2 ^ 72) := by
  refine ((near_distance4 a b).sqrt.le le_rfl le_rfl sqrt_e).err 7 le_rfl (by norm_num [ur]) ?_ ?_ le_rfl <;> simp only [cglm, V4.map, le_refl]

/-- `(1, -3, 5/2)`: finite entries in range, computed length finite and at least `FLT_EPSILON` -/
example : (glm_vec3_norm (⟨.ofRat false 1, .ofRat false (-3), .ofRat false (5/2)⟩ : V3 F32)).isFin = true ∧
    1 / 2 ^ 23 ≤ (glm_vec3_norm (⟨.ofRat false 1, .ofRat false (-3), .ofRat false (5/2)⟩ : V3 F32)).toReal := by
  have h : (F32.sqrt (F32.ofRat false 1 * F32.ofRat false 1 + F32.ofRat false (-3) * F32.ofRat false (-3) +
      F32.ofRat false (5/2) * F32.ofRat false (5/2))).isFin = true := by decide +kernel
  have h2 : 1 ≤ (F32.sqrt (F32.ofRat false 1 * F32.ofRat false 1 + F32.ofRat false (-3) * F32.ofRat false (-3) +
      F32.ofRat false (5/2) * F32.ofRat false (5/2))).val := by decide +kernel
  simp only [cglm, sqrtf_f32]
  refine ⟨h, ?_⟩
  have := toR h2
  push_cast at this
  unfold toReal
  exact le_trans (by norm_num) this

end Cglm
