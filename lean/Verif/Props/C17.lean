import Verif.Props.C16
import Verif.RotLemmas
import Mathlib.Analysis.Real.Pi.Bounds
import Mathlib.Analysis.SpecialFunctions.Trigonometric.Bounds

/-! # C17: Euler angle extraction -/

namespace Cglm

theorem atan2_cos_sin (k θ : ℝ) (hk : k ≠ 0) :
    Real.cos (atan2f (k * Real.sin θ) (k * Real.cos θ)) = k / |k| * Real.cos θ ∧
    Real.sin (atan2f (k * Real.sin θ) (k * Real.cos θ)) = k / |k| * Real.sin θ := by
  have hn : ‖(⟨k * Real.cos θ, k * Real.sin θ⟩ : ℂ)‖ = |k| := by
    rw [Complex.norm_def, Complex.normSq_mk, ← Real.sqrt_sq_eq_abs]
    congr 1
    linear_combination k^2 * Real.sin_sq_add_cos_sq θ
  have hne : (⟨k * Real.cos θ, k * Real.sin θ⟩ : ℂ) ≠ 0 := by
    rw [← norm_ne_zero_iff, hn]; exact abs_ne_zero.mpr hk
  rw [atan2f_real, Complex.cos_arg hne, Complex.sin_arg, hn]
  exact ⟨by ring, by ring⟩
theorem atan2_exact (k θ : ℝ) (hk : 0 < k) (h1 : -Real.pi < θ) (h2 : θ ≤ Real.pi) :
    atan2f (k * Real.sin θ) (k * Real.cos θ) = θ := by
  rw [atan2f_real]
  have : (⟨k * Real.cos θ, k * Real.sin θ⟩ : ℂ) = (k : ℂ) * (Complex.cos (θ : ℂ) + Complex.sin (θ : ℂ) * Complex.I) := by
    apply Complex.ext <;> simp [← Complex.ofReal_cos, ← Complex.ofReal_sin]
  rw [this]
  exact Complex.arg_mul_cos_add_sin_mul_I hk ⟨h1, h2⟩

theorem euler_angles_regular (a : V3 ℝ) (h1 : -1 < Real.sin a.y) (h2 : Real.sin a.y < 1) :
    glm_euler_angles (glm_euler_xyz a) =
      ⟨atan2f (Real.cos a.y * Real.sin a.x) (Real.cos a.y * Real.cos a.x), Real.arcsin (Real.sin a.y),
       atan2f (Real.cos a.y * Real.sin a.z) (Real.cos a.y * Real.cos a.z)⟩ := by
  unfold glm_euler_angles glm_euler_xyz
  simp only [flt_real, lit_one, sinf_real, cosf_real, asinf_real, decide_eq_true_eq, h1, h2, if_true]
  ext <;> simp only []
  · congr 1 <;> ring
  · congr 1; ring

/-- away from gimbal lock the extracted angles give the same matrix -/
theorem C17_matrix (a : V3 ℝ) (h1 : -1 < Real.sin a.y) (h2 : Real.sin a.y < 1) :
    glm_euler_xyz (glm_euler_angles (glm_euler_xyz a)) = glm_euler_xyz a := by
  rw [euler_angles_regular a h1 h2]
  have hcy : Real.cos a.y ≠ 0 := by
    intro h0
    have := Real.sin_sq_add_cos_sq a.y
    rw [h0] at this
    nlinarith
  obtain ⟨cx, sx⟩ := atan2_cos_sin (Real.cos a.y) a.x hcy
  obtain ⟨cz, sz⟩ := atan2_cos_sin (Real.cos a.y) a.z hcy
  have sy : Real.sin (Real.arcsin (Real.sin a.y)) = Real.sin a.y := Real.sin_arcsin h1.le h2.le
  have cy : Real.cos (Real.arcsin (Real.sin a.y)) = |Real.cos a.y| := by
    rw [Real.cos_arcsin, ← Real.sqrt_sq_eq_abs]
    congr 1
    linarith [Real.sin_sq_add_cos_sq a.y]
  have hsg : Real.cos a.y / |Real.cos a.y| * (Real.cos a.y / |Real.cos a.y|) = 1 := by
    have : |Real.cos a.y| ≠ 0 := abs_ne_zero.mpr hcy
    field_simp
    rw [sq_abs]
  have hab : |Real.cos a.y| * (Real.cos a.y / |Real.cos a.y|) = Real.cos a.y := by
    have : |Real.cos a.y| ≠ 0 := abs_ne_zero.mpr hcy
    field_simp
  simp only [glm_euler_xyz, sinf_real, cosf_real, lit_zero, lit_one, cx, sx, cz, sz, sy, cy]
  generalize Real.cos a.y / |Real.cos a.y| = σ at *
  ext <;> simp only []
  · linear_combination Real.cos a.z * hab
  · linear_combination (Real.cos a.z * Real.sin a.x * Real.sin a.y + Real.cos a.x * Real.sin a.z) * hsg
  · linear_combination (-Real.cos a.x * Real.cos a.z * Real.sin a.y + Real.sin a.x * Real.sin a.z) * hsg
  · linear_combination -Real.sin a.z * hab
  · linear_combination (Real.cos a.x * Real.cos a.z - Real.sin a.x * Real.sin a.y * Real.sin a.z) * hsg
  · linear_combination (Real.cos a.z * Real.sin a.x + Real.cos a.x * Real.sin a.y * Real.sin a.z) * hsg
  · linear_combination -Real.sin a.x * hab
  · linear_combination Real.cos a.x * hab

/-- inside the principal range the angles themselves are recovered -/
theorem C17_principal (a : V3 ℝ) (hx : -Real.pi < a.x ∧ a.x ≤ Real.pi) (hy : -(Real.pi / 2) < a.y ∧ a.y < Real.pi / 2)
    (hz : -Real.pi < a.z ∧ a.z ≤ Real.pi) : glm_euler_angles (glm_euler_xyz a) = a := by
  have hc : 0 < Real.cos a.y := Real.cos_pos_of_mem_Ioo hy
  have hs : Real.sin a.y ^ 2 < 1 := by have := Real.sin_sq_add_cos_sq a.y; nlinarith
  have hs' := abs_lt.mp ((sq_lt_one_iff_abs_lt_one _).mp hs)
  rw [euler_angles_regular a hs'.1 hs'.2, atan2_exact _ _ hc hx.1 hx.2, atan2_exact _ _ hc hz.1 hz.2,
    Real.arcsin_sin hy.1.le hy.2.le]

/-- the constant of the code is π/2 up to 1e-20 -/
theorem half_pi_lit : |(1.57079632679489661923132169163975144 : ℝ) - Real.pi / 2| ≤ 1e-20 := by
  have h1 := Real.pi_gt_d20
  have h2 := Real.pi_lt_d20
  rw [abs_le]
  constructor
  · norm_num at h1 h2 ⊢; linarith
  · norm_num at h1 h2 ⊢; linarith
theorem half_pi_lit_trig :
    |Real.cos (1.57079632679489661923132169163975144 : ℝ)| ≤ 1e-20 ∧
    |Real.sin (1.57079632679489661923132169163975144 : ℝ) - 1| ≤ 1e-20 := by
  have h := half_pi_lit
  generalize (1.57079632679489661923132169163975144 : ℝ) = L at *
  have hc : Real.cos L = Real.sin (Real.pi / 2 - L) := by rw [Real.sin_pi_div_two_sub]
  have hs : Real.sin L = Real.cos (Real.pi / 2 - L) := by rw [Real.cos_pi_div_two_sub]
  have h' : |Real.pi / 2 - L| ≤ 1e-20 := by rw [abs_sub_comm]; exact h
  constructor
  · rw [hc]; exact le_trans Real.abs_sin_le_abs h'
  · rw [hs]
    have h3 := Real.one_sub_sq_div_two_le_cos (x := Real.pi / 2 - L)
    have h4 := Real.cos_le_one (Real.pi / 2 - L)
    have h5 : (Real.pi / 2 - L) ^ 2 ≤ 1e-40 := by
      rw [← sq_abs]
      calc |Real.pi / 2 - L| ^ 2 ≤ (1e-20) ^ 2 := by gcongr
        _ = 1e-40 := by norm_num
    rw [abs_le]
    norm_num at *
    constructor <;> linarith

/-- the shape of an XYZ matrix with `z = 0`: `l`, `k` the cosine and sine of `y`; `S`, `C` those of `x` -/
def gimbalMat (l k S C : ℝ) : M4 ℝ :=
  ⟨⟨l, S * k, -(C * k), 0⟩, ⟨0, C, S, 0⟩, ⟨k, -(l * S), l * C, 0⟩, ⟨0, 0, 0, 1⟩⟩
theorem gimbal_bound (l k k' S C ε : ℝ) (hS : |S| ≤ 1) (hC : |C| ≤ 1) (hl : |l| ≤ ε) (hk : |k - k'| ≤ ε) (i j : Fin 4) :
    |(gimbalMat l k S C).mat i j - (gimbalMat 0 k' S C).mat i j| ≤ ε := by
  have h0 : 0 ≤ ε := le_trans (abs_nonneg _) hl
  have bnd : ∀ u v : ℝ, |u| ≤ ε → |v| ≤ 1 → |v * u| ≤ ε := by
    intro u v hu hv
    rw [abs_mul]
    calc |v| * |u| ≤ 1 * ε := by gcongr
      _ = ε := by ring
  have b1 := bnd _ _ hk hS
  have b2 := bnd _ _ hk hC
  have b3 := bnd _ _ hl hS
  have b4 := bnd _ _ hl hC
  fin_cases i <;> fin_cases j <;> simp [M4.mat, gimbalMat, h0, hl, hk, ← mul_sub, b1, b2, b3, b4, ← abs_mul]
  · rw [mul_comm]; exact b3
  · rw [show -(C * k) + C * k' = -(C * (k - k')) by ring, abs_neg]; exact b2
  · rw [mul_comm]; exact b4
theorem euler_zero_z (x y : ℝ) : glm_euler_xyz ⟨x, y, 0⟩ = gimbalMat (Real.cos y) (Real.sin y) (Real.sin x) (Real.cos x) := by
  ext <;> simp [glm_euler_xyz, gimbalMat, cglm] <;> ring

/-- at gimbal lock (`sin y = ±1`) the code returns `y = ±π/2` by its literal and `z = 0`; every entry of the matrix of
the result is within 1e-20 of the original -/
theorem C17_gimbal (a : V3 ℝ) (h : Real.sin a.y = 1 ∨ Real.sin a.y = -1) (i j : Fin 4) :
    |(glm_euler_xyz (glm_euler_angles (glm_euler_xyz a))).mat i j - (glm_euler_xyz a).mat i j| ≤ 1e-20 := by
  have hc0 : Real.cos a.y = 0 := by
    have := Real.sin_sq_add_cos_sq a.y
    rcases h with h | h <;> rw [h] at this <;> nlinarith
  obtain ⟨hL1, hL2⟩ := half_pi_lit_trig
  rcases h with h | h
  · have e : glm_euler_angles (glm_euler_xyz a) =
        ⟨atan2f (Real.sin (a.x + a.z)) (Real.cos (a.x + a.z)), 1.57079632679489661923132169163975144, 0⟩ := by
      unfold glm_euler_angles glm_euler_xyz
      simp only [flt_real, lit_one, lit_zero, lit_scientific, sinf_real, cosf_real, decide_eq_true_eq, h, lt_irrefl, if_false]
      rw [Real.sin_add, Real.cos_add]
      ext <;> simp only []
      congr 1 <;> ring
    have e2 : glm_euler_xyz a = gimbalMat 0 1 (Real.sin (a.x + a.z)) (Real.cos (a.x + a.z)) := by
      rw [Real.sin_add, Real.cos_add]
      ext <;> simp [glm_euler_xyz, gimbalMat, cglm, h, hc0] <;> ring
    obtain ⟨cx, sx⟩ := atan2_cos_sin 1 (a.x + a.z) one_ne_zero
    simp only [abs_one, div_one, one_mul] at cx sx
    rw [e, euler_zero_z, cx, sx, e2]
    exact gimbal_bound _ _ _ _ _ _ (Real.abs_sin_le_one _) (Real.abs_cos_le_one _) hL1 hL2 i j
  · have e : glm_euler_angles (glm_euler_xyz a) =
        ⟨-atan2f (Real.sin (a.z - a.x)) (Real.cos (a.z - a.x)), -1.57079632679489661923132169163975144, 0⟩ := by
      unfold glm_euler_angles glm_euler_xyz
      simp only [flt_real, lit_one, lit_zero, lit_scientific, sinf_real, cosf_real, decide_eq_true_eq, h, lt_irrefl, if_false]
      rw [if_pos (by norm_num), Real.sin_sub, Real.cos_sub]
      ext <;> simp only []
      congr 2 <;> ring
    have e2 : glm_euler_xyz a = gimbalMat 0 (-1) (-Real.sin (a.z - a.x)) (Real.cos (a.z - a.x)) := by
      rw [Real.sin_sub, Real.cos_sub]
      ext <;> simp [glm_euler_xyz, gimbalMat, cglm, h, hc0] <;> ring
    obtain ⟨cx, sx⟩ := atan2_cos_sin 1 (a.z - a.x) one_ne_zero
    simp only [abs_one, div_one, one_mul] at cx sx
    rw [e, euler_zero_z, Real.cos_neg, Real.sin_neg, Real.cos_neg, Real.sin_neg, cx, sx, e2]
    refine gimbal_bound _ _ _ _ _ _ (by rw [abs_neg]; exact Real.abs_sin_le_one _) (Real.abs_cos_le_one _) hL1 ?_ i j
    rw [← abs_neg]; convert hL2 using 2; ring

/-- the extracted angles reproduce every rotation matrix away from gimbal lock, however it was made -/
theorem C17_any_rotation (r : M3 ℝ) (hr : r.IsRotation) (h1 : -1 < r.c2.x) (h2 : r.c2.x < 1) :
    glm_euler_xyz (glm_euler_angles r.toM4) = r.toM4 := by
  have H := hr.eqs
  have hpos : 0 < 1 - r.c2.x ^ 2 := by nlinarith
  have hk : 0 < √(1 - r.c2.x ^ 2) := Real.sqrt_pos.mpr hpos
  have hkk : √(1 - r.c2.x ^ 2) * √(1 - r.c2.x ^ 2) = 1 - r.c2.x ^ 2 := Real.mul_self_sqrt hpos.le
  have hn1 : ‖(⟨r.c2.z, -r.c2.y⟩ : ℂ)‖ = √(1 - r.c2.x ^ 2) := by
    rw [Complex.norm_def, Complex.normSq_mk]; congr 1; linarith [H.c22]
  have hn2 : ‖(⟨r.c0.x, -r.c1.x⟩ : ℂ)‖ = √(1 - r.c2.x ^ 2) := by
    rw [Complex.norm_def, Complex.normSq_mk]; congr 1; linarith [H.r00]
  have hz1 : (⟨r.c2.z, -r.c2.y⟩ : ℂ) ≠ 0 := by rw [← norm_ne_zero_iff, hn1]; exact hk.ne'
  have hz2 : (⟨r.c0.x, -r.c1.x⟩ : ℂ) ≠ 0 := by rw [← norm_ne_zero_iff, hn2]; exact hk.ne'
  have e : glm_euler_angles r.toM4 = ⟨Complex.arg ⟨r.c2.z, -r.c2.y⟩, Real.arcsin r.c2.x, Complex.arg ⟨r.c0.x, -r.c1.x⟩⟩ := by
    unfold glm_euler_angles
    simp only [M3.toM4, flt_real, lit_one, asinf_real, atan2f_real, decide_eq_true_eq, h1, h2, if_true]
  rw [e]
  simp only [glm_euler_xyz, sinf_real, cosf_real, lit_zero, lit_one, Complex.cos_arg hz1, Complex.cos_arg hz2,
    Complex.sin_arg, hn1, hn2, Real.sin_arcsin h1.le h2.le, Real.cos_arcsin, M3.toM4]
  have hne := hk.ne'
  generalize √(1 - r.c2.x ^ 2) = k at *
  have hk2 : k * k = 1 - r.c2.x ^ 2 := hkk
  ext <;> simp only []
  · field_simp
  · field_simp; linear_combination H.kb + r.c2.x * H.kf - r.c0.y * hk2
  · field_simp; linear_combination H.kc - r.c2.x * H.ke - r.c0.z * hk2
  · field_simp
  · field_simp; linear_combination H.ke - r.c2.x * H.kc - r.c1.y * hk2
  · field_simp; linear_combination H.kf + r.c2.x * H.kb - r.c1.z * hk2
  · field_simp
  · field_simp

example : -1 < Real.sin (⟨2, Real.pi / 6, 3⟩ : V3 ℝ).y ∧ Real.sin (⟨2, Real.pi / 6, 3⟩ : V3 ℝ).y < 1 := by
  simp only [Real.sin_pi_div_six]; norm_num
example : Real.sin (⟨2, Real.pi / 2, 3⟩ : V3 ℝ).y = 1 := Real.sin_pi_div_two

end Cglm
