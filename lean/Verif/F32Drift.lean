import Verif.Props.C08
import Verif.Props.C64
import Verif.Props.C64Fin
import Verif.Props.C64Norm

/-!
# One rounded turn of a quaternion
-/

namespace Cglm
open F32 Quaternion

/-- the quaternion of real numbers that a quaternion of floats is -/
noncomputable def qval (q : V4 F32) : ℍ[ℝ] := (q.map toReal).quat

theorem V4.quat_sq (a : V4 ℝ) : ‖a.quat‖ ^ 2 = a.x ^ 2 + a.y ^ 2 + a.z ^ 2 + a.w ^ 2 := by
  rw [V4.norm_quat, sq, V4.len_sq, V4.dot]; ring

theorem V4.quat_comp (a : V4 ℝ) : |a.x| ≤ ‖a.quat‖ ∧ |a.y| ≤ ‖a.quat‖ ∧ |a.z| ≤ ‖a.quat‖ ∧ |a.w| ≤ ‖a.quat‖ := by
  have h := a.quat_sq
  have n := norm_nonneg a.quat
  refine ⟨?_, ?_, ?_, ?_⟩ <;> refine abs_le_of_sq_le_sq ?_ n <;> nlinarith [sq_nonneg a.x, sq_nonneg a.y, sq_nonneg a.z, sq_nonneg a.w]

/-- an error in each component is an error of the whole -/
theorem V4.quat_le {a b : V4 ℝ} {c e : ℝ} (hc : 0 ≤ c) (he : 0 ≤ e) (hx : |a.x| ≤ c * |b.x| + e) (hy : |a.y| ≤ c * |b.y| + e)
    (hz : |a.z| ≤ c * |b.z| + e) (hw : |a.w| ≤ c * |b.w| + e) : ‖a.quat‖ ≤ c * ‖b.quat‖ + 2 * e := by
  have ha := a.quat_sq
  have hb := b.quat_sq
  have n := norm_nonneg b.quat
  have s : |b.x| + |b.y| + |b.z| + |b.w| ≤ 2 * ‖b.quat‖ := by
    refine abs_le_of_sq_le_sq' ?_ (by positivity) |>.2
    rw [mul_pow, hb, ← sq_abs b.x, ← sq_abs b.y, ← sq_abs b.z, ← sq_abs b.w]
    nlinarith [sq_nonneg (|b.x| - |b.y|), sq_nonneg (|b.x| - |b.z|), sq_nonneg (|b.x| - |b.w|), sq_nonneg (|b.y| - |b.z|), sq_nonneg (|b.y| - |b.w|), sq_nonneg (|b.z| - |b.w|)]
  refine abs_le_of_sq_le_sq' ?_ (by positivity) |>.2
  have q : ∀ {u v : ℝ}, |u| ≤ c * |v| + e → u ^ 2 ≤ c ^ 2 * v ^ 2 + 2 * c * e * |v| + e ^ 2 := by
    intro u v h
    have := pow_le_pow_left₀ (abs_nonneg u) h 2
    rw [sq_abs] at this
    rw [← sq_abs v]
    nlinarith
  have := mul_le_mul_of_nonneg_left s (mul_nonneg (mul_nonneg zero_le_two hc) he)
  rw [ha]
  nlinarith [q hx, q hy, q hz, q hw]

theorem V4.map_sub_quat (a b : V4 ℝ) : a.quat - b.quat = (⟨a.x - b.x, a.y - b.y, a.z - b.z, a.w - b.w⟩ : V4 ℝ).quat := by
  ext <;> simp

variable [Libm]

/-- rounding of a product -/
theorem qmul_err {p q : V4 F32} (hf : (glm_quat_mul p q).IsFin) :
    ‖qval (glm_quat_mul p q) - qval p * qval q‖ ≤ 2 * (γ 4 * (‖qval p‖ * ‖qval q‖) + 1 / 2 ^ 146) := by
  obtain ⟨h1, h2, h3, h4⟩ := C64_quat_mul p q
  obtain ⟨f1, f2, f3, f4⟩ := hf
  have e : qval p * qval q = (glm_quat_mul (p.map toReal) (q.map toReal)).quat := (C08_mul _ _).symm
  rw [e]
  have g : 0 ≤ γ 4 := by unfold γ; norm_num [ur]
  have cs : ∀ (a b c d a' b' c' d' : ℝ), a ^ 2 + b ^ 2 + c ^ 2 + d ^ 2 = ‖qval p‖ ^ 2 → a' ^ 2 + b' ^ 2 + c' ^ 2 + d' ^ 2 = ‖qval q‖ ^ 2 →
      a * a' + b * b' + c * c' + d * d' ≤ ‖qval p‖ * ‖qval q‖ := by
    intro a b c d a' b' c' d' u v
    refine abs_le_of_sq_le_sq' ?_ (by positivity) |>.2
    rw [mul_pow, ← u, ← v]
    nlinarith [sq_nonneg (a * b' - b * a'), sq_nonneg (a * c' - c * a'), sq_nonneg (a * d' - d * a'), sq_nonneg (b * c' - c * b'),
      sq_nonneg (b * d' - d * b'), sq_nonneg (c * d' - d * c')]
  have sp : p.x.mag ^ 2 + p.y.mag ^ 2 + p.z.mag ^ 2 + p.w.mag ^ 2 = ‖qval p‖ ^ 2 := by
    unfold qval; rw [V4.quat_sq]; simp only [mag, sq_abs, V4.map]
  have sq : q.x.mag ^ 2 + q.y.mag ^ 2 + q.z.mag ^ 2 + q.w.mag ^ 2 = ‖qval q‖ ^ 2 := by
    unfold qval; rw [V4.quat_sq]; simp only [mag, sq_abs, V4.map]
  have fin : ∀ {u : ℝ} {B : ℝ}, |u| ≤ γ 4 * B + 1 / 2 ^ 146 → B ≤ ‖qval p‖ * ‖qval q‖ → |u| ≤ 0 * |(0 : ℝ)| + (γ 4 * (‖qval p‖ * ‖qval q‖) + 1 / 2 ^ 146) := by
    intro u B h h'
    have := mul_le_mul_of_nonneg_left h' g
    linarith
  have k1 : p.w.mag * q.x.mag + p.x.mag * q.w.mag + p.y.mag * q.z.mag + p.z.mag * q.y.mag ≤ ‖qval p‖ * ‖qval q‖ := cs _ _ _ _ _ _ _ _ (by linarith) (by linarith)
  have k2 : p.w.mag * q.y.mag + p.x.mag * q.z.mag + p.y.mag * q.w.mag + p.z.mag * q.x.mag ≤ ‖qval p‖ * ‖qval q‖ := cs _ _ _ _ _ _ _ _ (by linarith) (by linarith)
  have k3 : p.w.mag * q.z.mag + p.x.mag * q.y.mag + p.y.mag * q.x.mag + p.z.mag * q.w.mag ≤ ‖qval p‖ * ‖qval q‖ := cs _ _ _ _ _ _ _ _ (by linarith) (by linarith)
  have k4 : p.w.mag * q.w.mag + p.x.mag * q.x.mag + p.y.mag * q.y.mag + p.z.mag * q.z.mag ≤ ‖qval p‖ * ‖qval q‖ := cs _ _ _ _ _ _ _ _ (by linarith) (by linarith)
  have := V4.quat_le (a := ⟨_, _, _, _⟩) (b := ⟨0, 0, 0, 0⟩) le_rfl (by positivity) (fin (h1 f1) k1) (fin (h2 f2) k2) (fin (h3 f3) k3) (fin (h4 f4) k4)
  unfold qval
  rw [V4.map_sub_quat]
  rw [zero_mul, zero_add] at this
  exact this

/-- normalising a quaternion whose length is not far from one -/
theorem qnormalize_err {z : V4 F32} (hf : z.IsFin) (h1 : 1 / 2 ≤ ‖qval z‖) (h2 : ‖qval z‖ ≤ 2) :
    (glm_quat_normalize z).IsFin ∧ ‖qval (glm_quat_normalize z) - ‖qval z‖⁻¹ • qval z‖ ≤ 81 / 10 * ur ∧ |‖qval (glm_quat_normalize z)‖ - 1| ≤ 9 * ur := by
  obtain ⟨f1, f2, f3, f4⟩ := hf
  obtain ⟨c1, c2, c3, c4⟩ := V4.quat_comp (z.map toReal)
  have hb : z.Below (2 ^ 60) := by
    refine ⟨⟨f1, ?_⟩, ⟨f2, ?_⟩, ⟨f3, ?_⟩, ⟨f4, ?_⟩⟩
    · exact c1.trans (h2.trans (by norm_num))
    · exact c2.trans (h2.trans (by norm_num))
    · exact c3.trans (h2.trans (by norm_num))
    · exact c4.trans (h2.trans (by norm_num))
  have hd : (glm_vec4_dot z z).isFin = true := C64_vec4_dot_finite z z hb hb
  have hq := V4.quat_sq (z.map toReal)
  have hD := C64_vec4_dot z z hd
  have hx : glm_vec4_dot (z.map toReal) (z.map toReal) = ‖qval z‖ ^ 2 := by unfold qval; rw [hq]; simp only [cglm, V4.map]; ring
  have hm : glm_vec4_dot (z.map mag) (z.map mag) = ‖qval z‖ ^ 2 := by unfold qval; rw [hq]; simp only [cglm, V4.map, mag, abs_mul_abs_self]; ring
  rw [hx, hm] at hD
  have g : γ 4 ≤ 1 / 2 ^ 20 := by unfold γ; norm_num [ur]
  have hpos : 0 ≤ (glm_vec4_dot z z).toReal := by
    rw [abs_le] at hD; nlinarith [hD.1]
  have hn : (glm_vec4_norm z).isFin = true := by
    have : glm_vec4_norm z = F32.sqrt (glm_vec4_dot z z) := by simp only [glm_vec4_norm, sqrtf_f32]
    rw [this]; exact Fine.sqrt hd hpos
  have hN := C64_quat_norm z hn
  have hnn : glm_quat_norm (z.map toReal) = ‖qval z‖ := C08_norm _
  have g5 : γ 5 ≤ 1 / 2 ^ 20 := by unfold γ; norm_num [ur]
  rw [hnn] at hN
  have heps : 1 / 2 ^ 23 ≤ (glm_quat_norm z).toReal := by
    rw [abs_le] at hN; nlinarith [hN.1]
  obtain ⟨r1, ⟨e1, e2, e3, e4⟩, r3⟩ := C64_quat_normalize z hn heps
  have h4 : glm_vec4_norm (z.map toReal) = ‖qval z‖ := hnn
  rw [h4] at e1 e2 e3 e4
  refine ⟨r1, ?_, ?_⟩
  · have hs : ‖qval z‖⁻¹ • qval z = (glm_vec4_scale (z.map toReal) (1 / ‖qval z‖)).quat := by
      unfold qval; ext <;> simp [cglm, V4.map] <;> ring
    rw [hs]
    conv_lhs => rw [qval]
    rw [V4.map_sub_quat]
    have cp : ∀ {u c : ℝ}, |u| ≤ 8 * ur * (|c| * (1 / ‖qval z‖)) + 1 / 2 ^ 150 → |u| ≤ 8 * ur * |c * (1 / ‖qval z‖)| + 1 / 2 ^ 150 := by
      intro u c h
      rw [abs_mul, abs_of_nonneg (by positivity : 0 ≤ 1 / ‖qval z‖)]; exact h
    have := V4.quat_le (a := ⟨_, _, _, _⟩) (b := glm_vec4_scale (z.map toReal) (1 / ‖qval z‖)) (c := 8 * ur) (e := 1 / 2 ^ 150) (by norm_num [ur]) (by norm_num)
      (cp (e1 r1.1)) (cp (e2 r1.2.1)) (cp (e3 r1.2.2.1)) (cp (e4 r1.2.2.2))
    refine this.trans ?_
    rw [← hs, norm_smul, norm_inv, norm_norm, inv_mul_cancel₀ (by linarith)]
    norm_num [ur]
  · have : glm_vec4_norm ((glm_quat_normalize z).map toReal) = ‖qval (glm_quat_normalize z)‖ := C08_norm _
    rwa [this] at r3

omit [Libm] in
/-- directions of near quaternions -/
theorem unit_sub {z y : ℍ[ℝ]} (hy : y ≠ 0) (hz : z ≠ 0) : ‖‖z‖⁻¹ • z - ‖y‖⁻¹ • y‖ ≤ 2 * ‖z - y‖ / ‖y‖ := by
  have ny : 0 < ‖y‖ := norm_pos_iff.mpr hy
  have nz : 0 < ‖z‖ := norm_pos_iff.mpr hz
  have t : ‖z‖⁻¹ • z - ‖y‖⁻¹ • y = (‖z‖⁻¹ - ‖y‖⁻¹) • z + ‖y‖⁻¹ • (z - y) := by
    rw [sub_smul, smul_sub]; abel
  rw [t]
  refine (norm_add_le _ _).trans ?_
  rw [norm_smul, norm_smul, norm_inv, norm_norm, Real.norm_eq_abs]
  have e : |‖z‖⁻¹ - ‖y‖⁻¹| * ‖z‖ = |‖y‖ - ‖z‖| / ‖y‖ := by
    rw [inv_sub_inv nz.ne' ny.ne', abs_div, abs_of_pos (mul_pos nz ny)]
    field_simp
  have h : |‖y‖ - ‖z‖| ≤ ‖z - y‖ := by rw [norm_sub_rev]; exact abs_norm_sub_norm_le y z
  rw [e]
  have := div_le_div_of_nonneg_right h ny.le
  calc |‖y‖ - ‖z‖| / ‖y‖ + ‖y‖⁻¹ * ‖z - y‖ ≤ ‖z - y‖ / ‖y‖ + ‖y‖⁻¹ * ‖z - y‖ := by linarith
    _ = 2 * ‖z - y‖ / ‖y‖ := by field_simp; ring

end Cglm
