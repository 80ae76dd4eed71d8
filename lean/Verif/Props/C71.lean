import Verif.Props.C63

/-! # C71: the noise functions are gradient noise

Every lattice point has a gradient that depends only on the coordinates of the lattice point
modulo 289.  At a point `p` of the cell with lower corner `⌊p⌋`, the value of the noise is a
constant times the sum over the corners of the cell of

  (product of the fade weights of the corner) * ⟨gradient of the corner, p - corner⟩.

The specification below is written over ℝ in ordinary notation and does not mention any function
of the library. -/

namespace Cglm
set_option linter.unusedSimpArgs false
namespace Perlin

/-! ## Specification -/

/-- Fractional part, cut off at the largest `float` below 1. -/
noncomputable def fr (x : ℝ) : ℝ := min (x - ⌊x⌋) 0.999999940395355224609375
/-- Remainder of the division by 289, with the sign of `x` (as `fmod`). -/
noncomputable def rem289 (x : ℝ) : ℝ := x - rtrunc (x / 289) * 289
/-- The permutation polynomial `34 x² + x` modulo 289. -/
noncomputable def perm (x : ℝ) : ℝ := (34 * x + 1) * x - ⌊(34 * x + 1) * x / 289⌋ * 289
/-- Quintic fade curve. -/
def fade (t : ℝ) : ℝ := 6 * t ^ 5 - 15 * t ^ 4 + 10 * t ^ 3
/-- Weight of the lower (`0`) and of the upper (`1`) corner along one axis. -/
def weight (c : Fin 2) (t : ℝ) : ℝ := if c = 0 then 1 - fade t else fade t
/-- First-order approximation of `1 / sqrt x` near 0.7. -/
def tis (x : ℝ) : ℝ := 1.79284291400159 - 0.85373472095314 * x
/-- Step function. -/
noncomputable def step (e x : ℝ) : ℝ := if x < e then 0 else 1

/-- Gradient of a two-dimensional lattice point with hash `h`, before normalisation. -/
noncomputable def raw2 (h : ℝ) : V2 ℝ :=
  let x := 2 * fr (h / 41) - 1
  ⟨x - ⌊x + 1 / 2⌋, |x| - 1 / 2⟩
/-- Gradient of a three-dimensional lattice point with hash `h`, before normalisation. -/
noncomputable def raw3 (h : ℝ) : V3 ℝ :=
  let x := fr (h / 7)
  let y := fr (⌊h / 7⌋ / 7) - 1 / 2
  let z := 1 / 2 - |x| - |y|
  ⟨x - step z 0 * (step 0 x - 1 / 2), y - step z 0 * (step 0 y - 1 / 2), z⟩
/-- Gradient of a four-dimensional lattice point with hash `h`, before normalisation. -/
noncomputable def raw4 (h : ℝ) : V4 ℝ :=
  let x := fr (h / 7) - 1 / 2
  let y := fr (⌊h / 7⌋ / 7) - 1 / 2
  let z := fr (⌊(⌊h / 7⌋ : ℝ) / 7⌋ / 6) - 1 / 2
  let w := 3 / 4 - |x| - |y| - |z|
  ⟨x - step w 0 * (step 0 x - 1 / 2), y - step w 0 * (step 0 y - 1 / 2), z, w⟩

noncomputable def grad2 (h : ℝ) : V2 ℝ :=
  let g := raw2 h
  let n := tis (g.x ^ 2 + g.y ^ 2)
  ⟨g.x * n, g.y * n⟩
noncomputable def grad3 (h : ℝ) : V3 ℝ :=
  let g := raw3 h
  let n := tis (g.x ^ 2 + g.y ^ 2 + g.z ^ 2)
  ⟨g.x * n, g.y * n, g.z * n⟩
noncomputable def grad4 (h : ℝ) : V4 ℝ :=
  let g := raw4 h
  let n := tis (g.x ^ 2 + g.y ^ 2 + g.z ^ 2 + g.w ^ 2)
  ⟨g.x * n, g.y * n, g.z * n, g.w * n⟩

/-- Hash of the lattice point. -/
noncomputable def hash2 (i j : ℝ) : ℝ := perm (perm (rem289 i) + rem289 j)
noncomputable def hash3 (i j k : ℝ) : ℝ := perm (hash2 i j + rem289 k)
noncomputable def hash4 (i j k l : ℝ) : ℝ := perm (hash3 i j k + rem289 l)

/-- Contribution of the gradient `g` at offset `d` from the lattice point. -/
def ramp2 (g : V2 ℝ) (dx dy : ℝ) : ℝ := g.x * dx + g.y * dy
def ramp3 (g : V3 ℝ) (dx dy dz : ℝ) : ℝ := g.x * dx + g.y * dy + g.z * dz
def ramp4 (g : V4 ℝ) (dx dy dz dw : ℝ) : ℝ := g.x * dx + g.y * dy + g.z * dz + g.w * dw

/-- Gradient noise; `f` gives the position within the cell. -/
noncomputable def noise2 (f : ℝ → ℝ) (p : V2 ℝ) : ℝ :=
  ∑ a : Fin 2, ∑ b : Fin 2, weight a (f p.x) * weight b (f p.y) *
    ramp2 (grad2 (hash2 (⌊p.x⌋ + (a : ℕ)) (⌊p.y⌋ + (b : ℕ)))) (f p.x - (a : ℕ)) (f p.y - (b : ℕ))
noncomputable def noise3 (f : ℝ → ℝ) (p : V3 ℝ) : ℝ :=
  ∑ a : Fin 2, ∑ b : Fin 2, ∑ c : Fin 2,
    weight a (f p.x) * weight b (f p.y) * weight c (f p.z) *
    ramp3 (grad3 (hash3 (⌊p.x⌋ + (a : ℕ)) (⌊p.y⌋ + (b : ℕ)) (⌊p.z⌋ + (c : ℕ))))
      (f p.x - (a : ℕ)) (f p.y - (b : ℕ)) (f p.z - (c : ℕ))
noncomputable def noise4 (f : ℝ → ℝ) (p : V4 ℝ) : ℝ :=
  ∑ a : Fin 2, ∑ b : Fin 2, ∑ c : Fin 2, ∑ d : Fin 2,
    weight a (f p.x) * weight b (f p.y) * weight c (f p.z) * weight d (f p.w) *
    ramp4 (grad4 (hash4 (⌊p.x⌋ + (a : ℕ)) (⌊p.y⌋ + (b : ℕ)) (⌊p.z⌋ + (c : ℕ)) (⌊p.w⌋ + (d : ℕ))))
      (f p.x - (a : ℕ)) (f p.y - (b : ℕ)) (f p.z - (c : ℕ)) (f p.w - (d : ℕ))

end Perlin

/-! ## The code -/

open Perlin

theorem fract_eq_fr (x : ℝ) : fminf (x - floorf x) (lit 0.999999940395355224609375) = fr x := by
  simp only [cglm, fr]
theorem permf_eq_perm (x : ℝ) : permf x = perm x := by
  simp only [permf, perm, cglm]
  rw [show (x * 34 + 1) * x * (1 / 289) = (34 * x + 1) * x / 289 by ring]; ring
theorem fmodf_eq_rem (x : ℝ) : fmodf x (lit 289) = rem289 x := by
  simp only [cglm, rem289]; ring
theorem fr_nonneg (x : ℝ) : 0 ≤ fr x := by
  have := Int.floor_le x
  unfold fr; exact le_min (by linarith) (by norm_num)
theorem fr_lt_one (x : ℝ) : fr x < 1 := lt_of_le_of_lt (min_le_right _ _) (by norm_num)
theorem fade_range {t : ℝ} (h0 : 0 ≤ t) (h1 : t ≤ 1) : 0 ≤ fade t ∧ fade t ≤ 1 := by
  unfold fade
  constructor
  · have : 0 ≤ t ^ 3 * (6 * (t - 5 / 4) ^ 2 + 5 / 8) := by positivity
    nlinarith
  · have h : 0 ≤ (1 - t) ^ 3 * (6 * t ^ 2 + 3 * t + 1) := by
      have : 0 ≤ 1 - t := by linarith
      positivity
    nlinarith
theorem clamp_fade (x : ℝ) : glm_clamp_zo (fade (fr x)) = fade (fr x) := by
  have := fade_range (fr_nonneg x) (fr_lt_one x).le
  rw [glm_clamp_zo_eq, max_eq_left this.1, min_eq_left this.2]

/-- The gradients as the code computes them for one lane. -/
noncomputable def raw2c (h : ℝ) : V2 ℝ :=
  let x := fminf (h * (lit 1 / lit 41) - floorf (h * (lit 1 / lit 41))) (lit 0.999999940395355224609375) * lit 2 - lit 1
  ⟨x - floorf (x + lit 0.5), fabsf x - lit 0.5⟩
noncomputable def raw3c (h : ℝ) : V3 ℝ :=
  let gx := h * (lit 1 / lit 7)
  let gy := floorf gx * (lit 1 / lit 7)
  let y := fminf (gy - floorf gy) (lit 0.999999940395355224609375) - lit 0.5
  let x := fminf (gx - floorf gx) (lit 0.999999940395355224609375)
  let z := lit 0.5 - fabsf x - fabsf y
  ⟨x - glm_step z (lit 0) * (glm_step (lit 0) x - lit 0.5),
    y - glm_step z (lit 0) * (glm_step (lit 0) y - lit 0.5), z⟩
noncomputable def raw4c (h : ℝ) : V4 ℝ :=
  let gx := h * (lit 1 / lit 7)
  let gy := floorf gx * (lit 1 / lit 7)
  let gz := floorf gy * (lit 1 / lit 6)
  let x := fminf (gx - floorf gx) (lit 0.999999940395355224609375) - lit 0.5
  let y := fminf (gy - floorf gy) (lit 0.999999940395355224609375) - lit 0.5
  let z := fminf (gz - floorf gz) (lit 0.999999940395355224609375) - lit 0.5
  let w := lit 0.75 - fabsf x - fabsf z - fabsf y
  ⟨x - glm_step w (lit 0) * (glm_step (lit 0) x - lit 0.5),
    y - glm_step w (lit 0) * (glm_step (lit 0) y - lit 0.5), z, w⟩
noncomputable def grad2c (h : ℝ) : V2 ℝ :=
  glm_vec2_scale (raw2c h) (lit 1.79284291400159 - glm_vec2_dot (raw2c h) (raw2c h) * lit 0.85373472095314)
noncomputable def grad3c (h : ℝ) : V3 ℝ :=
  glm_vec3_scale (raw3c h) (lit 1.79284291400159 - glm_vec3_dot (raw3c h) (raw3c h) * lit 0.85373472095314)
noncomputable def grad4c (h : ℝ) : V4 ℝ :=
  glm_vec4_scale (raw4c h) (lit 1.79284291400159 - glm_vec4_dot (raw4c h) (raw4c h) * lit 0.85373472095314)

theorem raw2c_eq (h : ℝ) : raw2c h = raw2 h := by
  unfold raw2c raw2
  rw [fract_eq_fr]
  simp only [cglm]
  ext <;> dsimp only <;> norm_num [mul_comm, mul_one_div]
theorem raw3c_eq (h : ℝ) : raw3c h = raw3 h := by
  unfold raw3c raw3
  dsimp only
  simp only [fract_eq_fr]
  simp only [glm_step, cglm, step]
  norm_num [mul_one_div]
theorem raw4c_eq (h : ℝ) : raw4c h = raw4 h := by
  unfold raw4c raw4
  dsimp only
  simp only [fract_eq_fr]
  simp only [glm_step, cglm, step, mul_one_div]
  generalize fr (h / 7) = a
  generalize fr (_ / 7) = b
  generalize fr _ = c
  rw [show ((0.75 : ℝ) - |a - 0.5| - |c - 0.5| - |b - 0.5| : ℝ)
    = 3 / 4 - |a - 1 / 2| - |b - 1 / 2| - |c - 1 / 2| by norm_num; ring]
  norm_num
theorem grad2c_eq (h : ℝ) : grad2c h = grad2 h := by
  simp only [grad2c, grad2, raw2c_eq, tis, cglm]
  ext <;> dsimp only <;> ring
theorem grad3c_eq (h : ℝ) : grad3c h = grad3 h := by
  simp only [grad3c, grad3, raw3c_eq, tis, cglm]
  ext <;> dsimp only <;> ring
theorem grad4c_eq (h : ℝ) : grad4c h = grad4 h := by
  simp only [grad4c, grad4, raw4c_eq, tis, cglm]
  ext <;> dsimp only <;> ring

theorem C71_perlin_vec2 (p : V2 ℝ) : glm_perlin_vec2 p = 2.3 * noise2 fr p := by
  unfold glm_perlin_vec2
  extract_lets -merge Pi Pf Pf_2 Pf_3 Pi_1 i gx gx_1 gx_2 gx_3 gy gy_1 tx tx_1 gx_4 temp norm norm_4 g00 g01 g10 g11 n00 n10 n01 n11 temp_1 temp_2 fade_xy fade_xy_1 fade_xy_2 fade_xy_3 fade_xy_4 n_x
  have hPf : Pf = ⟨fr p.x, fr p.y, fr p.x, fr p.y⟩ := rfl
  have hf : fade_xy_4 = ⟨fade (fr p.x), fade (fr p.y)⟩ := by
    simp only [fade_xy_4, fade_xy_3, fade_xy_2, fade_xy_1, fade_xy, temp_2, temp_1, hPf, cglm, fade]
    ext <;> dsimp only <;> ring
  have h00 : g00 = grad2c (permf (permf (fmodf (floorf p.x) (lit 289)) + fmodf (floorf p.y) (lit 289))) := rfl
  have h01 : g01 = grad2c (permf (permf (fmodf (floorf p.x) (lit 289)) + fmodf (floorf p.y + lit 1) (lit 289))) := rfl
  have h10 : g10 = grad2c (permf (permf (fmodf (floorf p.x + lit 1) (lit 289)) + fmodf (floorf p.y) (lit 289))) := rfl
  have h11 : g11 = grad2c (permf (permf (fmodf (floorf p.x + lit 1) (lit 289)) + fmodf (floorf p.y + lit 1) (lit 289))) := rfl
  have e00 : n00 = ramp2 (grad2 (hash2 ⌊p.x⌋ ⌊p.y⌋)) (fr p.x) (fr p.y) := by
    simp only [n00, h00, Pf_2, Pf_3, hPf, permf_eq_perm, fmodf_eq_rem, grad2c_eq, hash2, floorf_real, lit_one]
    rfl
  have e01 : n01 = ramp2 (grad2 (hash2 ⌊p.x⌋ (⌊p.y⌋ + 1))) (fr p.x) (fr p.y - 1) := by
    simp only [n01, h01, Pf_2, Pf_3, hPf, permf_eq_perm, fmodf_eq_rem, grad2c_eq, hash2, floorf_real, lit_one]
    rfl
  have e10 : n10 = ramp2 (grad2 (hash2 (⌊p.x⌋ + 1) ⌊p.y⌋)) (fr p.x - 1) (fr p.y) := by
    simp only [n10, h10, Pf_2, Pf_3, hPf, permf_eq_perm, fmodf_eq_rem, grad2c_eq, hash2, floorf_real, lit_one]
    rfl
  have e11 : n11 = ramp2 (grad2 (hash2 (⌊p.x⌋ + 1) (⌊p.y⌋ + 1))) (fr p.x - 1) (fr p.y - 1) := by
    simp only [n11, h11, Pf_2, Pf_3, hPf, permf_eq_perm, fmodf_eq_rem, grad2c_eq, hash2, floorf_real, lit_one]
    rfl
  clear_value n00 n01 n10 n11
  simp only [noise2, Fin.sum_univ_two, Fin.isValue, Fin.val_zero, Fin.val_one, Nat.cast_zero,
    Nat.cast_one, add_zero, sub_zero, weight, if_true, one_ne_zero, if_false]
  rw [← e00, ← e01, ← e10, ← e11]
  simp only [n_x, hf, glm_vec2_lerp, clamp_fade, glm_vec2_fill, glm_lerp]
  simp only [cglm]
  ring

theorem C71_perlin_vec3 (p : V3 ℝ) : glm_perlin_vec3 p = 2.2 * noise3 fr p := by
  unfold glm_perlin_vec3
  extract_lets -merge Pi0 Pi1 Pi0_1 Pi1_1 Pf0 Pf1 ixy ixy_0_1 ixy_1_1 ixy_2_1 ixy_3_1 ixy0 ixy1 gx0 gy0 gy0_1 gy0_2 gy0_3 gx0_1 gxa gya gz0 gz0_1 gz0_2 sz temp temp_1 temp_2 gx0_2 temp_3 temp_4 temp_5 temp_6 gy0_4 gx1 gy1 gy1_1 gy1_2 gy1_3 gx1_1 gxa_1 gya_1 gz1 gz1_1 gz1_2 sz_1 temp_7 temp_8 temp_9 gx1_2 temp_10 temp_11 temp_12 temp_13 gy1_4 temp_14 norm norm_4 g000 g010 g100 g110 temp_15 norm_5 norm_6 g001 g011 g101 g111 n000 n100 n010 n110 n001 n101 n011 n111 temp_16 temp_17 fade_xyz fade_xyz_1 fade_xyz_2 fade_xyz_3 fade_xyz_4 n_z n_yz
  have hPf : Pf0 = ⟨fr p.x, fr p.y, fr p.z⟩ := rfl
  have hPf1 : Pf1 = ⟨fr p.x - lit 1, fr p.y - lit 1, fr p.z - lit 1⟩ := rfl
  have hf : fade_xyz_4 = ⟨fade (fr p.x), fade (fr p.y), fade (fr p.z)⟩ := by
    simp only [fade_xyz_4, fade_xyz_3, fade_xyz_2, fade_xyz_1, fade_xyz, temp_17, temp_16, hPf, cglm, fade]
    ext <;> dsimp only <;> ring
  have h000 : g000 = grad3c (permf (permf (permf (fmodf (floorf p.x) (lit 289)) + fmodf (floorf p.y) (lit 289)) + fmodf (floorf p.z) (lit 289))) := rfl
  have h001 : g001 = grad3c (permf (permf (permf (fmodf (floorf p.x) (lit 289)) + fmodf (floorf p.y) (lit 289)) + fmodf (floorf p.z + lit 1) (lit 289))) := rfl
  have h010 : g010 = grad3c (permf (permf (permf (fmodf (floorf p.x) (lit 289)) + fmodf (floorf p.y + lit 1) (lit 289)) + fmodf (floorf p.z) (lit 289))) := rfl
  have h011 : g011 = grad3c (permf (permf (permf (fmodf (floorf p.x) (lit 289)) + fmodf (floorf p.y + lit 1) (lit 289)) + fmodf (floorf p.z + lit 1) (lit 289))) := rfl
  have h100 : g100 = grad3c (permf (permf (permf (fmodf (floorf p.x + lit 1) (lit 289)) + fmodf (floorf p.y) (lit 289)) + fmodf (floorf p.z) (lit 289))) := rfl
  have h101 : g101 = grad3c (permf (permf (permf (fmodf (floorf p.x + lit 1) (lit 289)) + fmodf (floorf p.y) (lit 289)) + fmodf (floorf p.z + lit 1) (lit 289))) := rfl
  have h110 : g110 = grad3c (permf (permf (permf (fmodf (floorf p.x + lit 1) (lit 289)) + fmodf (floorf p.y + lit 1) (lit 289)) + fmodf (floorf p.z) (lit 289))) := rfl
  have h111 : g111 = grad3c (permf (permf (permf (fmodf (floorf p.x + lit 1) (lit 289)) + fmodf (floorf p.y + lit 1) (lit 289)) + fmodf (floorf p.z + lit 1) (lit 289))) := rfl
  have e000 : n000 = ramp3 (grad3 (hash3 ⌊p.x⌋ ⌊p.y⌋ ⌊p.z⌋)) (fr p.x) (fr p.y) (fr p.z) := by
    simp only [n000, h000, hPf, hPf1, permf_eq_perm, fmodf_eq_rem, grad3c_eq, hash3, hash2, floorf_real, lit_one]
    rfl
  have e001 : n001 = ramp3 (grad3 (hash3 ⌊p.x⌋ ⌊p.y⌋ (⌊p.z⌋ + 1))) (fr p.x) (fr p.y) (fr p.z - 1) := by
    simp only [n001, h001, hPf, hPf1, permf_eq_perm, fmodf_eq_rem, grad3c_eq, hash3, hash2, floorf_real, lit_one]
    rfl
  have e010 : n010 = ramp3 (grad3 (hash3 ⌊p.x⌋ (⌊p.y⌋ + 1) ⌊p.z⌋)) (fr p.x) (fr p.y - 1) (fr p.z) := by
    simp only [n010, h010, hPf, hPf1, permf_eq_perm, fmodf_eq_rem, grad3c_eq, hash3, hash2, floorf_real, lit_one]
    rfl
  have e011 : n011 = ramp3 (grad3 (hash3 ⌊p.x⌋ (⌊p.y⌋ + 1) (⌊p.z⌋ + 1))) (fr p.x) (fr p.y - 1) (fr p.z - 1) := by
    simp only [n011, h011, hPf, hPf1, permf_eq_perm, fmodf_eq_rem, grad3c_eq, hash3, hash2, floorf_real, lit_one]
    rfl
  have e100 : n100 = ramp3 (grad3 (hash3 (⌊p.x⌋ + 1) ⌊p.y⌋ ⌊p.z⌋)) (fr p.x - 1) (fr p.y) (fr p.z) := by
    simp only [n100, h100, hPf, hPf1, permf_eq_perm, fmodf_eq_rem, grad3c_eq, hash3, hash2, floorf_real, lit_one]
    rfl
  have e101 : n101 = ramp3 (grad3 (hash3 (⌊p.x⌋ + 1) ⌊p.y⌋ (⌊p.z⌋ + 1))) (fr p.x - 1) (fr p.y) (fr p.z - 1) := by
    simp only [n101, h101, hPf, hPf1, permf_eq_perm, fmodf_eq_rem, grad3c_eq, hash3, hash2, floorf_real, lit_one]
    rfl
  have e110 : n110 = ramp3 (grad3 (hash3 (⌊p.x⌋ + 1) (⌊p.y⌋ + 1) ⌊p.z⌋)) (fr p.x - 1) (fr p.y - 1) (fr p.z) := by
    simp only [n110, h110, hPf, hPf1, permf_eq_perm, fmodf_eq_rem, grad3c_eq, hash3, hash2, floorf_real, lit_one]
    rfl
  have e111 : n111 = ramp3 (grad3 (hash3 (⌊p.x⌋ + 1) (⌊p.y⌋ + 1) (⌊p.z⌋ + 1))) (fr p.x - 1) (fr p.y - 1) (fr p.z - 1) := by
    simp only [n111, h111, hPf, hPf1, permf_eq_perm, fmodf_eq_rem, grad3c_eq, hash3, hash2, floorf_real, lit_one]
    rfl
  clear_value n000 n001 n010 n011 n100 n101 n110 n111
  simp only [noise3, Fin.sum_univ_two, Fin.isValue, Fin.val_zero, Fin.val_one, Nat.cast_zero,
    Nat.cast_one, add_zero, sub_zero, weight, if_true, one_ne_zero, if_false]
  rw [← e000, ← e001, ← e010, ← e011, ← e100, ← e101, ← e110, ← e111]
  simp only [n_yz, n_z, hf, glm_vec2_lerp, clamp_fade, glm_vec4_lerp, glm_vec4_broadcast, glm_vec2_fill, glm_lerp]
  simp only [cglm]
  ring

theorem C71_perlin_vec4 (p : V4 ℝ) : glm_perlin_vec4 p = 2.2 * noise4 fr p := by
  unfold glm_perlin_vec4
  extract_lets -merge Pi0 Pi1 Pi0_1 Pi1_1 Pf0 Pf1 ixy ixy_0_1 ixy_1_1 ixy_2_1 ixy_3_1 ixy0 ixy0_0 ixy0_1 ixy0_2 ixy0_3 ixy1 ixy1_0 ixy1_1 ixy1_2 ixy1_3 ixy00 ixy01 ixy10 ixy11 gx00 gy00 gy00_1 gz00 gz00_1 gx00_1 gx00_2 gy00_2 gy00_3 gz00_2 gz00_3 gxa gya gza gw00 gw00_1 gw00_2 gw00_3 sw temp temp_1 temp_2 gx00_3 temp_3 temp_4 temp_5 temp_6 gy00_4 gx01 gy01 gy01_1 gz01 gz01_1 gx01_1 gx01_2 gy01_2 gy01_3 gz01_2 gz01_3 gxa_1 gya_1 gza_1 gw01 gw01_1 gw01_2 gw01_3 sw_1 temp_7 temp_8 temp_9 gx01_3 temp_10 temp_11 temp_12 temp_13 gy01_4 gx10 gy10 gy10_1 gz10 gz10_1 gx10_1 gx10_2 gy10_2 gy10_3 gz10_2 gz10_3 gxa_2 gya_2 gza_2 gw10 gw10_1 gw10_2 gw10_3 sw_2 temp_14 temp_15 temp_16 gx10_3 temp_17 temp_18 temp_19 temp_20 gy10_4 gx11 gy11 gy11_1 gz11 gz11_1 gx11_1 gx11_2 gy11_2 gy11_3 gz11_2 gz11_3 gxa_3 gya_3 gza_3 gw11 gw11_1 gw11_2 gw11_3 sw_3 temp_21 temp_22 temp_23 gx11_3 temp_24 temp_25 temp_26 temp_27 gy11_4 temp_28 norm norm_4 g0000 g0100 g1000 g1100 temp_29 norm_5 norm_6 g0001 g0101 g1001 g1101 temp_30 norm_7 norm_8 g0010 g0110 g1010 g1110 temp_31 norm_9 norm_10 g0011 g0111 g1011 g1111 n0000 n1000 n0100 n1100 n0010 n1010 n0110 n1110 n0001 n1001 n0101 n1101 n0011 n1011 n0111 n1111 temp_32 temp_33 fade_xyzw fade_xyzw_1 fade_xyzw_2 fade_xyzw_3 fade_xyzw_4 n_0w n_1w n_zw n_yzw
  have hPf : Pf0 = ⟨fr p.x, fr p.y, fr p.z, fr p.w⟩ := rfl
  have hPf1 : Pf1 = ⟨fr p.x - lit 1, fr p.y - lit 1, fr p.z - lit 1, fr p.w - lit 1⟩ := rfl
  have hf : fade_xyzw_4 = ⟨fade (fr p.x), fade (fr p.y), fade (fr p.z), fade (fr p.w)⟩ := by
    simp only [fade_xyzw_4, fade_xyzw_3, fade_xyzw_2, fade_xyzw_1, fade_xyzw, temp_33, temp_32, hPf, cglm, fade]
    ext <;> dsimp only <;> ring
  have h0000 : g0000 = grad4c (permf (permf (permf (permf (fmodf (floorf p.x) (lit 289)) + fmodf (floorf p.y) (lit 289)) + fmodf (floorf p.z) (lit 289)) + fmodf (floorf p.w) (lit 289))) := rfl
  have h0001 : g0001 = grad4c (permf (permf (permf (permf (fmodf (floorf p.x) (lit 289)) + fmodf (floorf p.y) (lit 289)) + fmodf (floorf p.z) (lit 289)) + fmodf (floorf p.w + lit 1) (lit 289))) := rfl
  have h0010 : g0010 = grad4c (permf (permf (permf (permf (fmodf (floorf p.x) (lit 289)) + fmodf (floorf p.y) (lit 289)) + fmodf (floorf p.z + lit 1) (lit 289)) + fmodf (floorf p.w) (lit 289))) := rfl
  have h0011 : g0011 = grad4c (permf (permf (permf (permf (fmodf (floorf p.x) (lit 289)) + fmodf (floorf p.y) (lit 289)) + fmodf (floorf p.z + lit 1) (lit 289)) + fmodf (floorf p.w + lit 1) (lit 289))) := rfl
  have h0100 : g0100 = grad4c (permf (permf (permf (permf (fmodf (floorf p.x) (lit 289)) + fmodf (floorf p.y + lit 1) (lit 289)) + fmodf (floorf p.z) (lit 289)) + fmodf (floorf p.w) (lit 289))) := rfl
  have h0101 : g0101 = grad4c (permf (permf (permf (permf (fmodf (floorf p.x) (lit 289)) + fmodf (floorf p.y + lit 1) (lit 289)) + fmodf (floorf p.z) (lit 289)) + fmodf (floorf p.w + lit 1) (lit 289))) := rfl
  have h0110 : g0110 = grad4c (permf (permf (permf (permf (fmodf (floorf p.x) (lit 289)) + fmodf (floorf p.y + lit 1) (lit 289)) + fmodf (floorf p.z + lit 1) (lit 289)) + fmodf (floorf p.w) (lit 289))) := rfl
  have h0111 : g0111 = grad4c (permf (permf (permf (permf (fmodf (floorf p.x) (lit 289)) + fmodf (floorf p.y + lit 1) (lit 289)) + fmodf (floorf p.z + lit 1) (lit 289)) + fmodf (floorf p.w + lit 1) (lit 289))) := rfl
  have h1000 : g1000 = grad4c (permf (permf (permf (permf (fmodf (floorf p.x + lit 1) (lit 289)) + fmodf (floorf p.y) (lit 289)) + fmodf (floorf p.z) (lit 289)) + fmodf (floorf p.w) (lit 289))) := rfl
  have h1001 : g1001 = grad4c (permf (permf (permf (permf (fmodf (floorf p.x + lit 1) (lit 289)) + fmodf (floorf p.y) (lit 289)) + fmodf (floorf p.z) (lit 289)) + fmodf (floorf p.w + lit 1) (lit 289))) := rfl
  have h1010 : g1010 = grad4c (permf (permf (permf (permf (fmodf (floorf p.x + lit 1) (lit 289)) + fmodf (floorf p.y) (lit 289)) + fmodf (floorf p.z + lit 1) (lit 289)) + fmodf (floorf p.w) (lit 289))) := rfl
  have h1011 : g1011 = grad4c (permf (permf (permf (permf (fmodf (floorf p.x + lit 1) (lit 289)) + fmodf (floorf p.y) (lit 289)) + fmodf (floorf p.z + lit 1) (lit 289)) + fmodf (floorf p.w + lit 1) (lit 289))) := rfl
  have h1100 : g1100 = grad4c (permf (permf (permf (permf (fmodf (floorf p.x + lit 1) (lit 289)) + fmodf (floorf p.y + lit 1) (lit 289)) + fmodf (floorf p.z) (lit 289)) + fmodf (floorf p.w) (lit 289))) := rfl
  have h1101 : g1101 = grad4c (permf (permf (permf (permf (fmodf (floorf p.x + lit 1) (lit 289)) + fmodf (floorf p.y + lit 1) (lit 289)) + fmodf (floorf p.z) (lit 289)) + fmodf (floorf p.w + lit 1) (lit 289))) := rfl
  have h1110 : g1110 = grad4c (permf (permf (permf (permf (fmodf (floorf p.x + lit 1) (lit 289)) + fmodf (floorf p.y + lit 1) (lit 289)) + fmodf (floorf p.z + lit 1) (lit 289)) + fmodf (floorf p.w) (lit 289))) := rfl
  have h1111 : g1111 = grad4c (permf (permf (permf (permf (fmodf (floorf p.x + lit 1) (lit 289)) + fmodf (floorf p.y + lit 1) (lit 289)) + fmodf (floorf p.z + lit 1) (lit 289)) + fmodf (floorf p.w + lit 1) (lit 289))) := rfl
  have e0000 : n0000 = ramp4 (grad4 (hash4 ⌊p.x⌋ ⌊p.y⌋ ⌊p.z⌋ ⌊p.w⌋)) (fr p.x) (fr p.y) (fr p.z) (fr p.w) := by
    simp only [n0000, h0000, hPf, hPf1, permf_eq_perm, fmodf_eq_rem, grad4c_eq, hash4, hash3, hash2, floorf_real, lit_one]
    rfl
  have e0001 : n0001 = ramp4 (grad4 (hash4 ⌊p.x⌋ ⌊p.y⌋ ⌊p.z⌋ (⌊p.w⌋ + 1))) (fr p.x) (fr p.y) (fr p.z) (fr p.w - 1) := by
    simp only [n0001, h0001, hPf, hPf1, permf_eq_perm, fmodf_eq_rem, grad4c_eq, hash4, hash3, hash2, floorf_real, lit_one]
    rfl
  have e0010 : n0010 = ramp4 (grad4 (hash4 ⌊p.x⌋ ⌊p.y⌋ (⌊p.z⌋ + 1) ⌊p.w⌋)) (fr p.x) (fr p.y) (fr p.z - 1) (fr p.w) := by
    simp only [n0010, h0010, hPf, hPf1, permf_eq_perm, fmodf_eq_rem, grad4c_eq, hash4, hash3, hash2, floorf_real, lit_one]
    rfl
  have e0011 : n0011 = ramp4 (grad4 (hash4 ⌊p.x⌋ ⌊p.y⌋ (⌊p.z⌋ + 1) (⌊p.w⌋ + 1))) (fr p.x) (fr p.y) (fr p.z - 1) (fr p.w - 1) := by
    simp only [n0011, h0011, hPf, hPf1, permf_eq_perm, fmodf_eq_rem, grad4c_eq, hash4, hash3, hash2, floorf_real, lit_one]
    rfl
  have e0100 : n0100 = ramp4 (grad4 (hash4 ⌊p.x⌋ (⌊p.y⌋ + 1) ⌊p.z⌋ ⌊p.w⌋)) (fr p.x) (fr p.y - 1) (fr p.z) (fr p.w) := by
    simp only [n0100, h0100, hPf, hPf1, permf_eq_perm, fmodf_eq_rem, grad4c_eq, hash4, hash3, hash2, floorf_real, lit_one]
    rfl
  have e0101 : n0101 = ramp4 (grad4 (hash4 ⌊p.x⌋ (⌊p.y⌋ + 1) ⌊p.z⌋ (⌊p.w⌋ + 1))) (fr p.x) (fr p.y - 1) (fr p.z) (fr p.w - 1) := by
    simp only [n0101, h0101, hPf, hPf1, permf_eq_perm, fmodf_eq_rem, grad4c_eq, hash4, hash3, hash2, floorf_real, lit_one]
    rfl
  have e0110 : n0110 = ramp4 (grad4 (hash4 ⌊p.x⌋ (⌊p.y⌋ + 1) (⌊p.z⌋ + 1) ⌊p.w⌋)) (fr p.x) (fr p.y - 1) (fr p.z - 1) (fr p.w) := by
    simp only [n0110, h0110, hPf, hPf1, permf_eq_perm, fmodf_eq_rem, grad4c_eq, hash4, hash3, hash2, floorf_real, lit_one]
    rfl
  have e0111 : n0111 = ramp4 (grad4 (hash4 ⌊p.x⌋ (⌊p.y⌋ + 1) (⌊p.z⌋ + 1) (⌊p.w⌋ + 1))) (fr p.x) (fr p.y - 1) (fr p.z - 1) (fr p.w - 1) := by
    simp only [n0111, h0111, hPf, hPf1, permf_eq_perm, fmodf_eq_rem, grad4c_eq, hash4, hash3, hash2, floorf_real, lit_one]
    rfl
  have e1000 : n1000 = ramp4 (grad4 (hash4 (⌊p.x⌋ + 1) ⌊p.y⌋ ⌊p.z⌋ ⌊p.w⌋)) (fr p.x - 1) (fr p.y) (fr p.z) (fr p.w) := by
    simp only [n1000, h1000, hPf, hPf1, permf_eq_perm, fmodf_eq_rem, grad4c_eq, hash4, hash3, hash2, floorf_real, lit_one]
    rfl
  have e1001 : n1001 = ramp4 (grad4 (hash4 (⌊p.x⌋ + 1) ⌊p.y⌋ ⌊p.z⌋ (⌊p.w⌋ + 1))) (fr p.x - 1) (fr p.y) (fr p.z) (fr p.w - 1) := by
    simp only [n1001, h1001, hPf, hPf1, permf_eq_perm, fmodf_eq_rem, grad4c_eq, hash4, hash3, hash2, floorf_real, lit_one]
    rfl
  have e1010 : n1010 = ramp4 (grad4 (hash4 (⌊p.x⌋ + 1) ⌊p.y⌋ (⌊p.z⌋ + 1) ⌊p.w⌋)) (fr p.x - 1) (fr p.y) (fr p.z - 1) (fr p.w) := by
    simp only [n1010, h1010, hPf, hPf1, permf_eq_perm, fmodf_eq_rem, grad4c_eq, hash4, hash3, hash2, floorf_real, lit_one]
    rfl
  have e1011 : n1011 = ramp4 (grad4 (hash4 (⌊p.x⌋ + 1) ⌊p.y⌋ (⌊p.z⌋ + 1) (⌊p.w⌋ + 1))) (fr p.x - 1) (fr p.y) (fr p.z - 1) (fr p.w - 1) := by
    simp only [n1011, h1011, hPf, hPf1, permf_eq_perm, fmodf_eq_rem, grad4c_eq, hash4, hash3, hash2, floorf_real, lit_one]
    rfl
  have e1100 : n1100 = ramp4 (grad4 (hash4 (⌊p.x⌋ + 1) (⌊p.y⌋ + 1) ⌊p.z⌋ ⌊p.w⌋)) (fr p.x - 1) (fr p.y - 1) (fr p.z) (fr p.w) := by
    simp only [n1100, h1100, hPf, hPf1, permf_eq_perm, fmodf_eq_rem, grad4c_eq, hash4, hash3, hash2, floorf_real, lit_one]
    rfl
  have e1101 : n1101 = ramp4 (grad4 (hash4 (⌊p.x⌋ + 1) (⌊p.y⌋ + 1) ⌊p.z⌋ (⌊p.w⌋ + 1))) (fr p.x - 1) (fr p.y - 1) (fr p.z) (fr p.w - 1) := by
    simp only [n1101, h1101, hPf, hPf1, permf_eq_perm, fmodf_eq_rem, grad4c_eq, hash4, hash3, hash2, floorf_real, lit_one]
    rfl
  have e1110 : n1110 = ramp4 (grad4 (hash4 (⌊p.x⌋ + 1) (⌊p.y⌋ + 1) (⌊p.z⌋ + 1) ⌊p.w⌋)) (fr p.x - 1) (fr p.y - 1) (fr p.z - 1) (fr p.w) := by
    simp only [n1110, h1110, hPf, hPf1, permf_eq_perm, fmodf_eq_rem, grad4c_eq, hash4, hash3, hash2, floorf_real, lit_one]
    rfl
  have e1111 : n1111 = ramp4 (grad4 (hash4 (⌊p.x⌋ + 1) (⌊p.y⌋ + 1) (⌊p.z⌋ + 1) (⌊p.w⌋ + 1))) (fr p.x - 1) (fr p.y - 1) (fr p.z - 1) (fr p.w - 1) := by
    simp only [n1111, h1111, hPf, hPf1, permf_eq_perm, fmodf_eq_rem, grad4c_eq, hash4, hash3, hash2, floorf_real, lit_one]
    rfl
  clear_value n0000 n0001 n0010 n0011 n0100 n0101 n0110 n0111 n1000 n1001 n1010 n1011 n1100 n1101 n1110 n1111
  simp only [noise4, Fin.sum_univ_two, Fin.isValue, Fin.val_zero, Fin.val_one, Nat.cast_zero,
    Nat.cast_one, add_zero, sub_zero, weight, if_true, one_ne_zero, if_false]
  rw [← e0000, ← e0001, ← e0010, ← e0011, ← e0100, ← e0101, ← e0110, ← e0111, ← e1000, ← e1001, ← e1010, ← e1011, ← e1100, ← e1101, ← e1110, ← e1111]
  simp only [n_yzw, n_zw, n_0w, n_1w, hf, glm_vec2_lerp, clamp_fade, glm_vec4_lerp, glm_vec4_broadcast, glm_vec2_fill, glm_lerp]
  simp only [cglm]
  ring

end Cglm
