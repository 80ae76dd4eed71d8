import Verif.Props.C84

/-!
# C84: the matrix of a quaternion in binary32
-/

namespace Cglm
open F32 Quaternion

variable [Libm]

/-- `2 / n` when `n` is near one -/
private theorem two_div {n : F32} {N : ℝ} (hn : n.isFin = true) (hN : 1 / 2 ≤ N) (h : |n.toReal - N| ≤ 6 * ur * N) :
    Apx ((lit 2 : F32) / n) (2 / N) (2 / N) 8 4 1 := by
  have hu : ur = 1 / 2 ^ 24 := rfl
  have Np : 0 < N := by linarith
  rw [abs_le] at h
  have n1 : (1 - 6 * ur) * N ≤ n.toReal := by linarith [h.1]
  have n2 : n.toReal ≤ (1 + 6 * ur) * N := by linarith [h.2]
  have np : 0 < n.toReal := lt_of_lt_of_le (by rw [hu]; positivity) n1
  have n0 : n.val ≠ 0 := by
    intro h0; unfold toReal at np; rw [h0] at np; simp at np
  have t2 : (lit 2 : F32).isFin = true ∧ (lit 2 : F32).toReal = 2 := by
    have h : (F32.ofRat false 2).isFin = true := by decide +kernel
    have h2 : (F32.ofRat false 2).val = 2 := by decide +kernel
    exact ⟨h, by rw [lit_f32]; unfold toReal; rw [h2]; norm_num⟩
  obtain ⟨o1, o2⟩ := t2
  have e := rnd_err ((lit 2 : F32).val / n.val)
  have e' : |((rnd ((lit 2 : F32).val / n.val) : ℚ) : ℝ) - 2 / n.toReal| ≤ ur * |2 / n.toReal| + ηr := by
    rw [← o2]; unfold toReal; rw [ur_eq, ηr_eq]; exact_mod_cast e
  have ip : 0 < 2 / n.toReal := by positivity
  rw [abs_of_pos ip] at e'
  have r1 : 2 / n.toReal ≤ (1 + 61 / 10 * ur) * (2 / N) := by
    rw [mul_div_assoc', div_le_div_iff₀ np Np]; rw [hu] at n1 ⊢; nlinarith
  have r2 : (1 - 61 / 10 * ur) * (2 / N) ≤ 2 / n.toReal := by
    rw [mul_div_assoc', div_le_div_iff₀ Np np]; rw [hu] at n2 ⊢; nlinarith
  have g1 : 2 / N ≤ 4 := by rw [div_le_iff₀ Np]; linarith
  have g0 : 0 < 2 / N := by positivity
  have key : |((rnd ((lit 2 : F32).val / n.val) : ℚ) : ℝ) - 2 / N| ≤ 8 * ur * (2 / N) + ηr := by
    generalize 2 / n.toReal = r at *
    generalize 2 / N = g at *
    rw [abs_le] at e' ⊢
    rw [hu] at *
    constructor <;> nlinarith [e'.1, e'.2]
  have hfin : ((lit 2 : F32) / n).isFin = true := by
    refine ((div_fin o1 hn n0).1).mpr (abs_rnd_toReal _ (B := 5) ?_ (by norm_num))
    rw [abs_le] at key ⊢
    have : ηr ≤ 1 / 4 := by norm_num [ηr]
    rw [hu] at key
    constructor <;> nlinarith [key.1, key.2]
  refine ⟨hfin, ?_, by rw [abs_of_pos g0], g1, zero_le_one⟩
  rw [show ((lit 2 : F32) / n).toReal = ((rnd ((lit 2 : F32).val / n.val) : ℚ) : ℝ) by unfold toReal; rw [div_val hn hfin], one_mul]
  exact key.trans (add_le_add (mul_le_mul_of_nonneg_right (Apx.le_pow 8) g0.le) le_rfl)

omit [Libm] in
private theorem near2 {f : F32} {x y e n k : ℝ} (h : f.isFin = true ∧ |f.toReal - x| ≤ e) (hk : x - y = n * k) (h2 : |k| ≤ 2) :
    f.isFin = true ∧ |f.toReal - y| ≤ e + 2 * |n| := by
  refine ⟨h.1, (abs_sub_le f.toReal x y).trans ?_⟩
  rw [hk, abs_mul]
  nlinarith [h.2, abs_nonneg n]

omit [Libm] in
/-- conjugation does not see the length of a quaternion -/
private theorem conj_unit {p q : ℍ[ℝ]} {N : ℝ} (hN : 0 < N) (hq : q = N • p) (hp : ‖p‖ = 1) (v : ℍ[ℝ]) : p * v * star p = q * v * q⁻¹ := by
  have p0 : p ≠ 0 := by intro h; rw [h, norm_zero] at hp; norm_num at hp
  have hs : star p = p⁻¹ := by
    rw [Quaternion.inv_def, Quaternion.normSq_eq_norm_mul_self, hp]; simp
  have hi : (N • p)⁻¹ = N⁻¹ • p⁻¹ := by
    refine inv_eq_of_mul_eq_one_right ?_
    rw [smul_mul_assoc, mul_smul_comm, smul_smul, mul_inv_cancel₀ p0, mul_inv_cancel₀ hN.ne', one_smul]
  rw [hs, hq, hi, smul_mul_assoc, smul_mul_assoc, mul_smul_comm, smul_smul, mul_inv_cancel₀ hN.ne', one_smul]

omit [Libm] in
private theorem half_sum {u v w x : ℝ} (h : u ^ 2 + v ^ 2 + w ^ 2 + x ^ 2 = 1) : |u| * |v| + |w| * |x| ≤ 1 / 2 := by
  have h1 := sq_abs u
  have h2 := sq_abs v
  have h3 := sq_abs w
  have h4 := sq_abs x
  have e1 := sq_nonneg (|u| - |v|)
  have e2 := sq_nonneg (|w| - |x|)
  rw [sub_sq] at e1 e2
  linarith

omit [Libm] in
private theorem half_abs {u v w x : ℝ} (h : u ^ 2 + v ^ 2 + w ^ 2 + x ^ 2 = 1) : |2 * (u * v + w * x)| ≤ 2 ∧ |2 * (u * v - w * x)| ≤ 2 := by
  have := half_sum h
  rw [← abs_mul, ← abs_mul] at this
  rw [abs_mul, abs_mul, abs_two]
  constructor
  · linarith [abs_add_le (u * v) (w * x)]
  · linarith [abs_sub (u * v) (w * x)]

omit [Libm] in
private theorem one_abs {u v : ℝ} (h : u ^ 2 + v ^ 2 ≤ 1) : |-2 * (u * u + v * v)| ≤ 2 := by
  rw [abs_le]; constructor <;> nlinarith [sq_nonneg u, sq_nonneg v]

/-- an entry on the diagonal -/
private theorem diag {S f g : F32} {t N u v y n : ℝ} (hs : Apx S t t 8 4 1) (ht : t * N = 2) (N0 : 0 < N) (N1 : N ≤ 9 / 8) (hf : Apx f (N * u) (N * |u|) 0 (9 / 8) 0)
    (hg : Apx g (N * v) (N * |v|) 0 (9 / 8) 0) (h : u ^ 2 + v ^ 2 ≤ 1) (hy : y = 1 - 2 * (u * u + v * v)) (hn : n = N - 1) :
    (lit 1 - S * f * f - S * g * g).isFin = true ∧ |(lit 1 - S * f * f - S * g * g).toReal - y| ≤ 41 * ur + 2 * |n| := by
  refine near2 (x := 1 - t * (N * u) * (N * u) - t * (N * v) * (N * v)) (k := -2 * (u * u + v * v)) ?_ ?_ (one_abs h)
  · apply Apx.bound 12 (13 / 4)
    · apx <;> norm_num
    · rfl
    · norm_num
    · norm_num
    · have e : ∀ u : ℝ, t * (N * |u|) * (N * |u|) = 2 * N * u ^ 2 := by intro u; rw [← sq_abs u]; linear_combination N * |u| * |u| * ht
      simp only [e]
      nlinarith [mul_le_mul_of_nonneg_left h N0.le]
    · norm_num [ur, ηr]
  · rw [hy, hn]; linear_combination (-(N * u * u) - (N * v * v)) * ht

omit [Libm] in
/-- two entries off the diagonal -/
private theorem off {S f g i j : F32} {t N u v w x : ℝ} (hs : Apx S t t 8 4 1) (ht : t * N = 2) (N0 : 0 < N) (N1 : N ≤ 9 / 8) (hf : Apx f (N * u) (N * |u|) 0 (9 / 8) 0)
    (hg : Apx g (N * v) (N * |v|) 0 (9 / 8) 0) (hi : Apx i (N * w) (N * |w|) 0 (9 / 8) 0) (hj : Apx j (N * x) (N * |x|) 0 (9 / 8) 0)
    (h : u ^ 2 + v ^ 2 + w ^ 2 + x ^ 2 = 1) {y z n : ℝ} (hy : y = 2 * (u * v + w * x)) (hz : z = 2 * (u * v - w * x)) (hn : n = N - 1) :
    ((S * f * g + S * i * j).isFin = true ∧ |(S * f * g + S * i * j).toReal - y| ≤ 41 * ur + 2 * |n|) ∧
      ((S * f * g - S * i * j).isFin = true ∧ |(S * f * g - S * i * j).toReal - z| ≤ 41 * ur + 2 * |n|) := by
  have e : t * (N * |u|) * (N * |v|) + t * (N * |w|) * (N * |x|) ≤ 13 / 4 := by
    have : t * (N * |u|) * (N * |v|) + t * (N * |w|) * (N * |x|) = 2 * N * (|u| * |v| + |w| * |x|) := by linear_combination (N * |u| * |v| + N * |w| * |x|) * ht
    rw [this]
    nlinarith [mul_le_mul_of_nonneg_left (half_sum h) N0.le]
  obtain ⟨k1, k2⟩ := half_abs h
  constructor
  · refine near2 (x := t * (N * u) * (N * v) + t * (N * w) * (N * x)) ?_ ?_ k1
    · apply Apx.bound 12 (13 / 4)
      · apx <;> norm_num
      · rfl
      · norm_num
      · norm_num
      · exact e
      · norm_num [ur, ηr]
    · rw [hy, hn]; linear_combination (N * u * v + N * w * x) * ht
  · refine near2 (x := t * (N * u) * (N * v) - t * (N * w) * (N * x)) ?_ ?_ k2
    · apply Apx.bound 12 (13 / 4)
      · apx <;> norm_num
      · rfl
      · norm_num
      · norm_num
      · exact e
      · norm_num [ur, ηr]
    · rw [hz, hn]; linear_combination (N * u * v - N * w * x) * ht

/-- what the conversions compute with -/
private theorem setup (q : V4 F32) (hf : q.IsFin) (hN : |‖qval q‖ - 1| ≤ 1 / 8) :
    ∃ N t a b c d : ℝ, N = ‖qval q‖ ∧ t * N = 2 ∧ 0 < N ∧ N ≤ 9 / 8 ∧ a ^ 2 + b ^ 2 + c ^ 2 + d ^ 2 = 1 ∧ qval q = N • (⟨a, b, c, d⟩ : V4 ℝ).quat ∧
      flt (lit 0) (glm_quat_norm q) = true ∧ Apx (lit 2 / glm_quat_norm q) t t 8 4 1 ∧ Apx q.x (N * a) (N * |a|) 0 (9 / 8) 0 ∧
      Apx q.y (N * b) (N * |b|) 0 (9 / 8) 0 ∧ Apx q.z (N * c) (N * |c|) 0 (9 / 8) 0 ∧ Apx q.w (N * d) (N * |d|) 0 (9 / 8) 0 := by
  have hN2 := abs_le.mp hN
  obtain ⟨c1, c2, c3, c4⟩ := V4.quat_comp (q.map toReal)
  obtain ⟨f1, f2, f3, f4⟩ := hf
  have hsq := V4.quat_sq (q.map toReal)
  have hnf : (glm_quat_norm q).isFin = true := by
    have hb : q.Below (2 ^ 60) := by
      refine ⟨⟨f1, ?_⟩, ⟨f2, ?_⟩, ⟨f3, ?_⟩, ⟨f4, ?_⟩⟩
      · exact c1.trans ((by linarith [hN2.2] : ‖qval q‖ ≤ 2).trans (by norm_num))
      · exact c2.trans ((by linarith [hN2.2] : ‖qval q‖ ≤ 2).trans (by norm_num))
      · exact c3.trans ((by linarith [hN2.2] : ‖qval q‖ ≤ 2).trans (by norm_num))
      · exact c4.trans ((by linarith [hN2.2] : ‖qval q‖ ≤ 2).trans (by norm_num))
    have hd : (glm_vec4_dot q q).isFin = true := C64_vec4_dot_finite q q hb hb
    have hD := C64_vec4_dot q q hd
    have hx : glm_vec4_dot (q.map toReal) (q.map toReal) = ‖qval q‖ ^ 2 := by unfold qval; rw [hsq]; simp only [cglm, V4.map]; ring
    have hm : glm_vec4_dot (q.map mag) (q.map mag) = ‖qval q‖ ^ 2 := by unfold qval; rw [hsq]; simp only [cglm, V4.map, mag, abs_mul_abs_self]; ring
    rw [hx, hm] at hD
    have g : γ 4 ≤ 1 / 2 ^ 20 := by unfold γ; norm_num [ur]
    have hpos : 0 ≤ (glm_vec4_dot q q).toReal := by
      rw [abs_le] at hD; nlinarith [hD.1, hN2.1]
    have : glm_quat_norm q = F32.sqrt (glm_vec4_dot q q) := by simp only [glm_quat_norm, glm_vec4_norm, sqrtf_f32]
    rw [this]; exact Fine.sqrt hd hpos
  have hn := C64_quat_norm q hnf
  have hnn : glm_quat_norm (q.map toReal) = ‖qval q‖ := C08_norm _
  rw [hnn] at hn
  have g5 : γ 5 ≤ 51 / 10 * ur := by unfold γ; norm_num [ur]
  have hn6 : |(glm_quat_norm q).toReal - ‖qval q‖| ≤ 6 * ur * ‖qval q‖ := by
    refine hn.trans ?_
    have : (1 : ℝ) / 2 ^ 72 ≤ 1 / 2 * ur := by norm_num [ur]
    nlinarith [hN2.1, ur_pos, mul_le_mul_of_nonneg_right g5 (norm_nonneg (qval q)), mul_le_mul_of_nonneg_left hN2.1 ur_pos.le]
  have hs := two_div hnf (by linarith [hN2.1]) hn6
  have hpos : flt (lit 0) (glm_quat_norm q) = true := by
    have z := Apx.zero
    have h0 : (lit 0 : F32).toReal = 0 := by have := z.err; simpa using this
    rw [show flt (lit 0 : F32) (glm_quat_norm q) = F32.lt (lit 0) (glm_quat_norm q) from rfl, lt_fin z.fin hnf, ← Rat.cast_lt (K := ℝ)]
    change (lit 0 : F32).toReal < (glm_quat_norm q).toReal
    rw [h0]
    have := (abs_le.mp hn6).1
    have : 6 * ur ≤ 1 / 2 := by norm_num [ur]
    nlinarith [hN2.1]
  have N0 : 0 < ‖qval q‖ := by linarith [hN2.1]
  set N := ‖qval q‖ with hNdef
  obtain ⟨a, ha⟩ : ∃ a, q.x.toReal = N * a := ⟨q.x.toReal / N, by field_simp⟩
  obtain ⟨b, hb⟩ : ∃ a, q.y.toReal = N * a := ⟨q.y.toReal / N, by field_simp⟩
  obtain ⟨c, hc⟩ : ∃ a, q.z.toReal = N * a := ⟨q.z.toReal / N, by field_simp⟩
  obtain ⟨d, hd⟩ : ∃ a, q.w.toReal = N * a := ⟨q.w.toReal / N, by field_simp⟩
  have h1 : a ^ 2 + b ^ 2 + c ^ 2 + d ^ 2 = 1 := by
    have : N ^ 2 = q.x.toReal ^ 2 + q.y.toReal ^ 2 + q.z.toReal ^ 2 + q.w.toReal ^ 2 := hsq
    rw [ha, hb, hc, hd] at this
    have e : N ^ 2 * (a ^ 2 + b ^ 2 + c ^ 2 + d ^ 2 - 1) = 0 := by linarith
    rcases mul_eq_zero.mp e with e | e
    · nlinarith
    · linarith
  have hq : qval q = N • (⟨a, b, c, d⟩ : V4 ℝ).quat := by
    unfold qval; ext <;> simp [V4.map, ha, hb, hc, hd]
  have xa : ∀ {f : F32} {a : ℝ}, f.isFin = true → f.toReal = N * a → |f.toReal| ≤ N → Apx f (N * a) (N * |a|) 0 (9 / 8) 0 := by
    intro f a h1 h2 h3
    have e : |N * a| = N * |a| := by rw [abs_mul, abs_of_pos N0]
    refine ⟨h1, by simp [h2], e.le, ?_, le_rfl⟩
    rw [← e, ← h2]; linarith [hN2.2]
  exact ⟨N, 2 / N, a, b, c, d, hNdef, by field_simp, N0, by linarith [hN2.2], h1, hq, hpos, hs, xa f1 ha c1, xa f2 hb c2, xa f3 hc c3, xa f4 hd c4⟩

/-- The matrix of a quaternion of length about one: it is the matrix of the turn `v ↦ q v q⁻¹` up to rounding and twice the error of
the length.  The `4 x 4` variant is the same in the upper left corner. -/
theorem C84_quat_mat3 (q : V4 F32) (hf : q.IsFin) (hN : |‖qval q‖ - 1| ≤ 1 / 8) :
    ∃ R : M3 ℝ, R.IsRotation ∧ (∀ v, (glm_mat3_mulv R v).pure = qval q * v.pure * (qval q)⁻¹) ∧
      (glm_quat_mat3 q).CloseTo R (41 * ur + 2 * |‖qval q‖ - 1|) ∧ (glm_quat_mat4 q).CloseTo R.toM4 (41 * ur + 2 * |‖qval q‖ - 1|) := by
  obtain ⟨N, t, a, b, c, d, hN', ht, N0, N1, h1, hq, hpos, hs, hx, hy, hz, hw⟩ := setup q hf hN
  have hu : ‖(⟨a, b, c, d⟩ : V4 ℝ).quat‖ = 1 := by
    rw [V4.unit_iff]; linarith
  refine ⟨glm_quat_mat3 ⟨a, b, c, d⟩, C09_rotation _ hu, fun v => (C09_mat3_conj _ hu v).trans (conj_unit N0 hq hu _), ?_⟩
  rw [V4.unit_iff] at hu
  rw [quat_mat3_hom _ hu, ← hN']
  unfold glm_quat_mat3 glm_quat_mat4
  dsimp only
  rw [hpos, if_pos rfl]
  generalize (lit 2 : F32) / glm_quat_norm q = S at *
  have dx := diag (y := d * d + a * a - b * b - c * c) hs ht N0 N1 hy hz (by nlinarith [sq_nonneg a, sq_nonneg d]) (by linarith) rfl
  have dy := diag (y := d * d - a * a + b * b - c * c) hs ht N0 N1 hx hz (by nlinarith [sq_nonneg b, sq_nonneg d]) (by linarith) rfl
  have dz := diag (y := d * d - a * a - b * b + c * c) hs ht N0 N1 hx hy (by nlinarith [sq_nonneg c, sq_nonneg d]) (by linarith) rfl
  have oxy := off hs ht N0 N1 hx hy hw hz (by linarith) rfl rfl rfl
  have oxz := off hs ht N0 N1 hx hz hw hy (by linarith) rfl rfl rfl
  have oyz := off hs ht N0 N1 hy hz hw hx (by linarith) rfl rfl rfl
  have E0 : 0 ≤ 41 * ur + 2 * |N - 1| := by have := ur_pos; positivity
  have z0 : (lit 0 : F32).isFin = true ∧ |(lit 0 : F32).toReal - 0| ≤ 41 * ur + 2 * |N - 1| := ⟨Apx.zero.fin, by have := Apx.zero.err; simp at this ⊢; simpa [this] using E0⟩
  have z1 : (lit 1 : F32).isFin = true ∧ |(lit 1 : F32).toReal - 1| ≤ 41 * ur + 2 * |N - 1| := ⟨toReal_lit_one.1, by rw [toReal_lit_one.2]; simpa using E0⟩
  exact ⟨⟨⟨dx, oxy.1, oxz.2⟩, ⟨oxy.2, dy, oyz.1⟩, ⟨oxz.1, oyz.2, dz⟩⟩, ⟨dx, oxy.1, oxz.2, z0⟩, ⟨oxy.2, dy, oyz.1, z0⟩, ⟨oxz.1, oyz.2, dz, z0⟩, ⟨z0, z0, z0, z1⟩⟩

/-- The `t` variants are the transposes, entry by entry. -/
theorem C84_quat_mat3t (q : V4 F32) : glm_quat_mat3t q = glm_mat3_transpose_to (glm_quat_mat3 q) ∧ glm_quat_mat4t q = glm_mat4_transpose_to (glm_quat_mat4 q) :=
  ⟨rfl, rfl⟩

/-- The matrix of a quaternion that was normalised: within `59u` of a rotation. -/
theorem C84_normalized_mat3 (q : V4 F32) (hfin : (glm_quat_norm q).isFin = true) (heps : 1 / 2 ^ 23 ≤ (glm_quat_norm q).toReal) :
    ∃ R : M3 ℝ, R.IsRotation ∧ (∀ v, (glm_mat3_mulv R v).pure = qval (glm_quat_normalize q) * v.pure * (qval (glm_quat_normalize q))⁻¹) ∧
      (glm_quat_mat3 (glm_quat_normalize q)).CloseTo R (59 * ur) := by
  obtain ⟨f, -, r⟩ := C64_quat_normalize q hfin heps
  have hn : glm_vec4_norm ((glm_quat_normalize q).map toReal) = ‖qval (glm_quat_normalize q)‖ := C08_norm _
  have r' : |‖qval (glm_quat_normalize q)‖ - 1| ≤ 9 * ur := by rw [← hn]; exact r
  obtain ⟨R, h1, h2, h3, -⟩ := C84_quat_mat3 (glm_quat_normalize q) f (r'.trans (by norm_num [ur]))
  refine ⟨R, h1, h2, ?_⟩
  have m : ∀ {f : F32} {x : ℝ}, (f.isFin = true ∧ |f.toReal - x| ≤ 41 * ur + 2 * |‖qval (glm_quat_normalize q)‖ - 1|) → f.isFin = true ∧ |f.toReal - x| ≤ 59 * ur :=
    fun h => ⟨h.1, h.2.trans (by linarith)⟩
  obtain ⟨⟨a1, a2, a3⟩, ⟨b1, b2, b3⟩, ⟨c1, c2, c3⟩⟩ := h3
  exact ⟨⟨m a1, m a2, m a3⟩, ⟨m b1, m b2, m b3⟩, ⟨m c1, m c2, m c3⟩⟩

omit [Libm] in
private theorem dot_le {a b c x y z e : ℝ} (h : a * a + b * b + c * c = 1) (hx : |x| ≤ e) (hy : |y| ≤ e) (hz : |z| ≤ e) : |a * x + b * y + c * z| ≤ 7 / 4 * e := by
  have e0 : 0 ≤ e := (abs_nonneg _).trans hx
  have q : ∀ {x : ℝ}, |x| ≤ e → x * x ≤ e * e := fun h => by rw [← abs_mul_abs_self]; exact mul_self_le_mul_self (abs_nonneg _) h
  refine abs_le_of_sq_le_sq ?_ (by positivity)
  have k : (a * x + b * y + c * z) ^ 2 ≤ (a * a + b * b + c * c) * (x * x + y * y + z * z) := by
    nlinarith [sq_nonneg (a * y - b * x), sq_nonneg (a * z - c * x), sq_nonneg (b * z - c * y)]
  rw [h, one_mul] at k
  nlinarith [q hx, q hy, q hz]

omit [Libm] in
private theorem dot_pert {a b c x y z a' b' c' x' y' z' e : ℝ} (h : a * a + b * b + c * c = 1) (h' : x * x + y * y + z * z = 1) (he : e ≤ 1 / 8)
    (ha : |a' - a| ≤ e) (hb : |b' - b| ≤ e) (hc : |c' - c| ≤ e) (hx : |x' - x| ≤ e) (hy : |y' - y| ≤ e) (hz : |z' - z| ≤ e) :
    |a' * x' + b' * y' + c' * z' - (a * x + b * y + c * z)| ≤ 4 * e := by
  have e0 : 0 ≤ e := (abs_nonneg _).trans hx
  have k1 := dot_le h hx hy hz
  have k2 := dot_le h' ha hb hc
  have p : ∀ {u v : ℝ}, |u| ≤ e → |v| ≤ e → |u * v| ≤ 1 / 8 * e := fun h1 h2 => by
    rw [abs_mul]; exact mul_le_mul (h1.trans he) h2 (abs_nonneg _) (by norm_num)
  have p1 := p ha hx
  have p2 := p hb hy
  have p3 := p hc hz
  rw [abs_le] at *
  constructor <;> linarith

omit [Libm] in
/-- What is near a rotation has columns of length about one that are about perpendicular: with the bounds above, to about `2⁻¹⁶`. -/
theorem C84_orthogonal (f : M3 F32) (R : M3 ℝ) (e : ℝ) (he : e ≤ 1 / 8) (hR : R.IsRotation) (h : f.CloseTo R e) :
    |(f.c0.map toReal).dot (f.c0.map toReal) - 1| ≤ 4 * e ∧ |(f.c1.map toReal).dot (f.c1.map toReal) - 1| ≤ 4 * e ∧
      |(f.c2.map toReal).dot (f.c2.map toReal) - 1| ≤ 4 * e ∧ |(f.c0.map toReal).dot (f.c1.map toReal)| ≤ 4 * e ∧
      |(f.c0.map toReal).dot (f.c2.map toReal)| ≤ 4 * e ∧ |(f.c1.map toReal).dot (f.c2.map toReal)| ≤ 4 * e := by
  obtain ⟨⟨d0, d1, d2, d3, d4, d5⟩, -⟩ := (M3.isRotation_iff R).mp hR
  obtain ⟨⟨⟨-, a1⟩, ⟨-, a2⟩, ⟨-, a3⟩⟩, ⟨⟨-, b1⟩, ⟨-, b2⟩, ⟨-, b3⟩⟩, ⟨⟨-, c1⟩, ⟨-, c2⟩, ⟨-, c3⟩⟩⟩ := h
  simp only [V3.dot, V3.map] at *
  have k0 := dot_pert d0 d0 he a1 a2 a3 a1 a2 a3
  have k1 := dot_pert d1 d1 he b1 b2 b3 b1 b2 b3
  have k2 := dot_pert d2 d2 he c1 c2 c3 c1 c2 c3
  have k3 := dot_pert d0 d1 he a1 a2 a3 b1 b2 b3
  have k4 := dot_pert d0 d2 he a1 a2 a3 c1 c2 c3
  have k5 := dot_pert d1 d2 he b1 b2 b3 c1 c2 c3
  rw [d0] at k0
  rw [d1] at k1
  rw [d2] at k2
  rw [d3, sub_zero] at k3
  rw [d4, sub_zero] at k4
  rw [d5, sub_zero] at k5
  exact ⟨k0, k1, k2, k3, k4, k5⟩

omit [Libm] in
private theorem triple {a b c a' b' c' e : ℝ} (ha : |a| ≤ 1) (hb : |b| ≤ 1) (hc : |c| ≤ 1) (he : e ≤ 1 / 8) (ha' : |a' - a| ≤ e) (hb' : |b' - b| ≤ e) (hc' : |c' - c| ≤ e) :
    |a' * (b' * c') - a * (b * c)| ≤ 4 * e := by
  have e0 : 0 ≤ e := (abs_nonneg _).trans ha'
  have m : ∀ {x y u v : ℝ}, |x| ≤ u → |y| ≤ v → |x * y| ≤ u * v := fun h1 h2 => by
    rw [abs_mul]; exact mul_le_mul h1 h2 (abs_nonneg _) ((abs_nonneg _).trans h1)
  have t1 : |(a' - a) * (b' * c')| ≤ e * ((1 + 1 / 8) * (1 + 1 / 8)) := by
    refine m ha' (m ?_ ?_)
    · have := abs_add_le b (b' - b); rw [add_sub_cancel] at this; linarith
    · have := abs_add_le c (c' - c); rw [add_sub_cancel] at this; linarith
  have t2 : |a * ((b' - b) * c')| ≤ 1 * (e * (1 + 1 / 8)) := by
    refine m ha (m hb' ?_)
    have := abs_add_le c (c' - c); rw [add_sub_cancel] at this; linarith
  have t3 : |a * (b * (c' - c))| ≤ 1 * (1 * e) := m ha (m hb hc')
  rw [abs_le] at *
  constructor <;> linarith

omit [Libm] in
/-- and it keeps handedness: its determinant is near one. -/
theorem C84_handedness (f : M3 F32) (R : M3 ℝ) (e : ℝ) (he : e ≤ 1 / 8) (hR : R.IsRotation) (h : f.CloseTo R e) :
    |(f.c0.map toReal).dot ((f.c1.map toReal).cross (f.c2.map toReal)) - 1| ≤ 24 * e := by
  obtain ⟨⟨d0, d1, d2, -, -, -⟩, dd⟩ := (M3.isRotation_iff R).mp hR
  obtain ⟨⟨⟨-, a1⟩, ⟨-, a2⟩, ⟨-, a3⟩⟩, ⟨⟨-, b1⟩, ⟨-, b2⟩, ⟨-, b3⟩⟩, ⟨⟨-, c1⟩, ⟨-, c2⟩, ⟨-, c3⟩⟩⟩ := h
  simp only [V3.dot, V3.map, V3.cross] at *
  have n : ∀ {a b c : ℝ}, a * a + b * b + c * c = 1 → |a| ≤ 1 ∧ |b| ≤ 1 ∧ |c| ≤ 1 := by
    intro a b c h
    refine ⟨?_, ?_, ?_⟩ <;> rw [abs_le_one_iff_mul_self_le_one] <;> nlinarith [mul_self_nonneg a, mul_self_nonneg b, mul_self_nonneg c]
  obtain ⟨u1, u2, u3⟩ := n d0
  obtain ⟨v1, v2, v3⟩ := n d1
  obtain ⟨w1, w2, w3⟩ := n d2
  have t1 := triple u1 v2 w3 he a1 b2 c3
  have t2 := triple u1 v3 w2 he a1 b3 c2
  have t3 := triple u2 v3 w1 he a2 b3 c1
  have t4 := triple u2 v1 w3 he a2 b1 c3
  have t5 := triple u3 v1 w2 he a3 b1 c2
  have t6 := triple u3 v2 w1 he a3 b2 c1
  rw [← dd]
  rw [abs_le] at t1 t2 t3 t4 t5 t6 ⊢
  constructor <;> linarith

omit [Libm] in
private theorem pure_sq (v : V3 ℝ) : ‖v.pure‖ ^ 2 = v.x ^ 2 + v.y ^ 2 + v.z ^ 2 := by
  have := V4.quat_sq ⟨v.x, v.y, v.z, 0⟩
  have e : (⟨v.x, v.y, v.z, 0⟩ : V4 ℝ).quat = v.pure := rfl
  rw [e] at this
  rw [this]; ring

omit [Libm] in
private theorem pure_len (v : V3 ℝ) : ‖v.pure‖ = v.len := by
  refine (sq_eq_sq₀ (norm_nonneg _) (V3.len_nonneg _)).mp ?_
  rw [pure_sq, sq v.len, V3.len_sq, V3.dot]; ring

/-- Rotating a vector by a quaternion keeps its length. -/
theorem C84_quat_rotatev_length (q : V4 F32) (v : V3 F32) (hfin : (glm_quat_norm q).isFin = true) (heps : 1 / 2 ^ 23 ≤ (glm_quat_norm q).toReal)
    (hv : v.IsFin) (hV : (v.map toReal).len ≤ 2 ^ 60) :
    |((glm_quat_rotatev q v).map toReal).len - (v.map toReal).len| ≤ 163 * ur * (v.map toReal).len + (1 + (v.map toReal).len) / 2 ^ 139 := by
  obtain ⟨r, hr, ⟨-, h1⟩, ⟨-, h2⟩, ⟨-, h3⟩⟩ := C84_quat_rotatev q v hfin heps hv hV
  have q0 : qval q ≠ 0 := by
    intro h
    have hl := C64_quat_norm q hfin
    have hN : glm_quat_norm (q.map toReal) = ‖qval q‖ := C08_norm _
    rw [hN, h, norm_zero, mul_zero, zero_add, sub_zero] at hl
    have := (le_abs_self _).trans hl
    norm_num at this heps
    linarith
  have hn : ‖r.pure‖ = (v.map toReal).len := by
    rw [hr, norm_mul, norm_mul, norm_inv, mul_comm ‖qval q‖, mul_assoc, mul_inv_cancel₀ (norm_ne_zero_iff.mpr q0), mul_one, pure_len]
  have V0 := V3.len_nonneg (v.map toReal)
  generalize glm_quat_rotatev q v = w at *
  rw [← hn, ← pure_len] at *
  have d : ‖(w.map toReal).pure - r.pure‖ ≤ 7 / 4 * (93 * ur * ‖r.pure‖ + (1 + ‖r.pure‖) / 2 ^ 140) := by
    generalize 93 * ur * ‖r.pure‖ + (1 + ‖r.pure‖) / 2 ^ 140 = e at *
    have e0 : 0 ≤ e := (abs_nonneg _).trans h1
    have : (w.map toReal).pure - r.pure = (⟨w.x.toReal - r.x, w.y.toReal - r.y, w.z.toReal - r.z⟩ : V3 ℝ).pure := by
      have := V4.map_sub_quat ⟨w.x.toReal, w.y.toReal, w.z.toReal, 0⟩ ⟨r.x, r.y, r.z, 0⟩
      rw [sub_self (0 : ℝ)] at this
      exact this
    refine abs_le_of_sq_le_sq ?_ (by positivity) |> (le_abs_self _).trans
    rw [this, pure_sq]
    have q : ∀ {x : ℝ}, |x| ≤ e → x ^ 2 ≤ e ^ 2 := fun h => by rw [← sq_abs]; exact pow_le_pow_left₀ (abs_nonneg _) h 2
    simp only
    nlinarith [q h1, q h2, q h3]
  refine (abs_norm_sub_norm_le _ _).trans (d.trans ?_)
  have := ur_pos
  nlinarith [norm_nonneg r.pure, mul_nonneg this.le (norm_nonneg r.pure)]

/-- a quaternion of length one whose components are floats: the hypotheses hold with no error of the length -/
example : let f := fun q : ℚ => F32.ofRat false q
    (⟨f (1 / 2), f (1 / 2), f (1 / 2), f (1 / 2)⟩ : V4 F32).IsFin ∧ |‖qval ⟨f (1 / 2), f (1 / 2), f (1 / 2), f (1 / 2)⟩‖ - 1| ≤ 1 / 8 := by
  have h : (F32.ofRat false (1 / 2)).isFin = true := by decide +kernel
  have h2 : (F32.ofRat false (1 / 2)).val = 1 / 2 := by decide +kernel
  intro f
  refine ⟨⟨h, h, h, h⟩, ?_⟩
  have : qval ⟨f (1 / 2), f (1 / 2), f (1 / 2), f (1 / 2)⟩ = (⟨1 / 2, 1 / 2, 1 / 2, 1 / 2⟩ : V4 ℝ).quat := by
    unfold qval; ext <;> simp only [V4.quat, V4.map, toReal, f, h2] <;> norm_num
  rw [this, (V4.unit_iff _).mpr (by norm_num)]
  norm_num

end Cglm
