import Verif.F32Drift
import Verif.Props.C09

/-!
# C83: drift of long histories of turns

An orientation is kept as a quaternion of binary32 numbers and turned again and again.  Every turn is a quaternion of floats
near the turn that is meant.  If the orientation is normalised after every turn, its length stays within `9u` of one for ever, and
it moves away from the orientation that is meant by a fixed amount per turn, however long the history.  Without normalisation the
deviation grows geometrically, with a factor near one.  `u` is `2⁻²⁴`.
-/

namespace Cglm
open F32 Quaternion

variable [Libm]

/-- A turn about an axis of the world (product from the left) or of the object (from the right): the floats, and what is meant. -/
structure TurnF where
  left : Bool
  q : V4 F32
  meant : ℍ[ℝ]

namespace TurnF

/-- the floats are finite, the turn that is meant has length one, and they differ by at most `δ` -/
def Ok (δ : ℝ) (t : TurnF) : Prop := t.q.IsFin ∧ ‖t.meant‖ = 1 ∧ ‖qval t.q - t.meant‖ ≤ δ
/-- the call -/
def mul (t : TurnF) (p : V4 F32) : V4 F32 := if t.left then glm_quat_mul t.q p else glm_quat_mul p t.q
/-- what is meant -/
noncomputable def exact (t : TurnF) (x : ℍ[ℝ]) : ℍ[ℝ] := if t.left then t.meant * x else x * t.meant

end TurnF

/-- turn and normalise, again and again -/
def spinF (h : List TurnF) (p : V4 F32) : V4 F32 := h.foldl (fun p t => glm_quat_normalize (t.mul p)) p
/-- turn again and again -/
def turnF (h : List TurnF) (p : V4 F32) : V4 F32 := h.foldl (fun p t => t.mul p) p
/-- the orientation that is meant -/
noncomputable def meantF (h : List TurnF) (x : ℍ[ℝ]) : ℍ[ℝ] := h.foldl (fun x t => t.exact x) x

omit [Libm] in
private theorem below {p : V4 F32} (hf : p.IsFin) (h : ‖qval p‖ ≤ 2 ^ 60) : p.Below (2 ^ 60) := by
  obtain ⟨c1, c2, c3, c4⟩ := V4.quat_comp (p.map toReal)
  exact ⟨⟨hf.1, c1.trans h⟩, ⟨hf.2.1, c2.trans h⟩, ⟨hf.2.2.1, c3.trans h⟩, ⟨hf.2.2.2, c4.trans h⟩⟩

omit [Libm] in
private theorem exact_unit {t : TurnF} {δ : ℝ} (ht : t.Ok δ) {x : ℍ[ℝ]} (hx : ‖x‖ = 1) : ‖t.exact x‖ = 1 := by
  unfold TurnF.exact; split <;> rw [norm_mul, hx, ht.2.1, one_mul]

/-- the product of floats against the product of their values -/
private theorem mul_step {t : TurnF} {δ : ℝ} (ht : t.Ok δ) (hδ : δ ≤ 1) {p : V4 F32} (hp : p.IsFin) (hb : ‖qval p‖ ≤ 2 ^ 60) :
    (t.mul p).IsFin ∧ ‖qval (t.mul p) - (if t.left then qval t.q * qval p else qval p * qval t.q)‖ ≤ 801 / 100 * ur * (‖qval t.q‖ * ‖qval p‖) + 1 / 2 ^ 145 := by
  have hr : ‖qval t.q‖ ≤ 1 + δ := by
    have := norm_sub_norm_le (qval t.q) t.meant
    linarith [ht.2.1, ht.2.2]
  have b1 := below hp hb
  have b2 := below ht.1 (hr.trans (by linarith [show (2 : ℝ) ≤ 2 ^ 60 by norm_num]))
  have g : γ 4 ≤ 4005 / 1000 * ur := by unfold γ; norm_num [ur]
  have nn : 0 ≤ ‖qval t.q‖ * ‖qval p‖ := by positivity
  have := mul_le_mul_of_nonneg_right g nn
  unfold TurnF.mul
  split
  · have f := C64_quat_mul_finite t.q p b2 b1
    refine ⟨f, (qmul_err f).trans ?_⟩
    nlinarith
  · have f := C64_quat_mul_finite p t.q b1 b2
    refine ⟨f, (qmul_err f).trans ?_⟩
    rw [mul_comm ‖qval p‖]
    nlinarith

/-- one turn with normalisation -/
private theorem spin_step {t : TurnF} {δ : ℝ} (ht : t.Ok δ) (hδ : δ ≤ 1 / 2 ^ 10) {p : V4 F32} (hp : p.IsFin)
    (hn : |‖qval p‖ - 1| ≤ 1 / 2 ^ 10) {x : ℍ[ℝ]} (hx : ‖x‖ = 1) {D : ℝ} (hD : ‖‖qval p‖⁻¹ • qval p - x‖ ≤ D) :
    (glm_quat_normalize (t.mul p)).IsFin ∧ |‖qval (glm_quat_normalize (t.mul p))‖ - 1| ≤ 9 * ur ∧
      ‖‖qval (glm_quat_normalize (t.mul p))‖⁻¹ • qval (glm_quat_normalize (t.mul p)) - t.exact x‖ ≤ D + (33 * ur + 2 * δ) := by
  have hu : ur = 1 / 2 ^ 24 := rfl
  rw [abs_le] at hn
  have hr1 : ‖qval t.q‖ ≤ 1 + δ := by
    have := norm_sub_norm_le (qval t.q) t.meant
    linarith [ht.2.1, ht.2.2]
  have hr2 : 1 - δ ≤ ‖qval t.q‖ := by
    have := norm_sub_norm_le t.meant (qval t.q)
    rw [norm_sub_rev] at this
    linarith [ht.2.1, ht.2.2]
  obtain ⟨f, e⟩ := mul_step ht (hδ.trans (by norm_num)) hp (by linarith [hn.2, show (2 : ℝ) ≤ 2 ^ 60 by norm_num])
  set r := qval t.q with hr
  set P := qval p with hP
  set y := (if t.left then r * P else P * r) with hy
  set z := qval (t.mul p) with hz
  have r0 : 0 < ‖r‖ := lt_of_lt_of_le (by norm_num at hδ ⊢; linarith) hr2
  have P0 : 0 < ‖P‖ := lt_of_lt_of_le (by norm_num) (by linarith [hn.1] : 1 - 1 / 2 ^ 10 ≤ ‖P‖)
  have ny : ‖y‖ = ‖r‖ * ‖P‖ := by
    rw [hy]
    split
    · exact norm_mul _ _
    · rw [norm_mul, mul_comm]
  have y1 : 99 / 100 ≤ ‖y‖ := by rw [ny]; nlinarith [hn.1]
  have y2 : ‖y‖ ≤ 101 / 100 := by rw [ny]; nlinarith [hn.2]
  rw [← ny] at e
  have e' : ‖z - y‖ ≤ 802 / 100 * ur * ‖y‖ := e.trans (by rw [hu]; nlinarith)
  have z1 : 1 / 2 ≤ ‖z‖ := by
    have := norm_sub_norm_le y z
    rw [norm_sub_rev] at this
    rw [hu] at e'
    nlinarith
  have z2 : ‖z‖ ≤ 2 := by
    have := norm_sub_norm_le z y
    rw [hu] at e'
    nlinarith
  obtain ⟨g1, g2, g3⟩ := qnormalize_err f z1 z2
  refine ⟨g1, g3, ?_⟩
  rw [← hz] at g2
  set w := ‖z‖⁻¹ • z with hw
  have z0 : z ≠ 0 := by intro h; rw [h, norm_zero] at z1; norm_num at z1
  have y0 : y ≠ 0 := by intro h; rw [h, norm_zero] at y1; norm_num at y1
  have nw : ‖w‖ = 1 := by rw [hw, norm_smul, norm_inv, norm_norm, inv_mul_cancel₀ (norm_ne_zero_iff.mpr z0)]
  have w0 : w ≠ 0 := by intro h; rw [h, norm_zero] at nw; norm_num at nw
  have n0 : qval (glm_quat_normalize (t.mul p)) ≠ 0 := by
    intro h; rw [h, norm_zero] at g3; norm_num [hu] at g3
  have a1 := unit_sub w0 n0
  rw [nw, inv_one, one_smul, div_one] at a1
  have a2 := unit_sub y0 z0
  rw [← hw] at a2
  have a2' : 2 * ‖z - y‖ / ‖y‖ ≤ 1604 / 100 * ur := by
    rw [div_le_iff₀ (by linarith)]; linarith
  have m0 : t.meant ≠ 0 := by intro h; have := ht.2.1; rw [h, norm_zero] at this; norm_num at this
  have a3 := unit_sub m0 (norm_pos_iff.mp r0)
  rw [ht.2.1, inv_one, one_smul, div_one] at a3
  have hyu : ‖y‖⁻¹ • y = if t.left then (‖r‖⁻¹ • r) * (‖P‖⁻¹ • P) else (‖P‖⁻¹ • P) * (‖r‖⁻¹ • r) := by
    rw [ny, hy]
    split
    · rw [smul_mul_smul_comm, mul_inv]
    · rw [smul_mul_smul_comm, mul_inv, mul_comm ‖P‖⁻¹]
  have nr : ‖‖r‖⁻¹ • r‖ = 1 := by rw [norm_smul, norm_inv, norm_norm, inv_mul_cancel₀ r0.ne']
  have a4 : ‖‖y‖⁻¹ • y - t.exact x‖ ≤ 2 * δ + D := by
    rw [hyu]
    unfold TurnF.exact
    set R := ‖r‖⁻¹ • r
    set Q := ‖P‖⁻¹ • P
    split
    · rw [show R * Q - t.meant * x = R * (Q - x) + (R - t.meant) * x by rw [mul_sub, sub_mul]; abel]
      refine (norm_add_le _ _).trans ?_
      rw [norm_mul, norm_mul, nr, hx]
      linarith [ht.2.2]
    · rw [show Q * R - x * t.meant = (Q - x) * R + x * (R - t.meant) by rw [mul_sub, sub_mul]; abel]
      refine (norm_add_le _ _).trans ?_
      rw [norm_mul, norm_mul, nr, hx]
      linarith [ht.2.2]
  have t1 := norm_sub_le_norm_sub_add_norm_sub (‖qval (glm_quat_normalize (t.mul p))‖⁻¹ • qval (glm_quat_normalize (t.mul p))) w (t.exact x)
  have t2 := norm_sub_le_norm_sub_add_norm_sub w (‖y‖⁻¹ • y) (t.exact x)
  have := ur_pos
  linarith

private theorem spin_run {δ : ℝ} (hδ : δ ≤ 1 / 2 ^ 10) : ∀ (h : List TurnF) (_ : ∀ t ∈ h, t.Ok δ) {p : V4 F32} (_ : p.IsFin)
    (_ : |‖qval p‖ - 1| ≤ 1 / 2 ^ 10) {x : ℍ[ℝ]} (_ : ‖x‖ = 1) {D : ℝ} (_ : ‖‖qval p‖⁻¹ • qval p - x‖ ≤ D),
    (spinF h p).IsFin ∧ |‖qval (spinF h p)‖ - 1| ≤ 1 / 2 ^ 10 ∧ (h ≠ [] → |‖qval (spinF h p)‖ - 1| ≤ 9 * ur) ∧ ‖meantF h x‖ = 1 ∧
      ‖‖qval (spinF h p)‖⁻¹ • qval (spinF h p) - meantF h x‖ ≤ D + h.length * (33 * ur + 2 * δ)
  | [], _, p, hp, hn, x, hx, D, hD => ⟨hp, hn, fun h => absurd rfl h, hx, by simpa [spinF, meantF] using hD⟩
  | t :: h, ht, p, hp, hn, x, hx, D, hD => by
    obtain ⟨s1, s2, s3⟩ := spin_step (ht t (by simp)) hδ hp hn hx hD
    have s2' := s2.trans (show 9 * ur ≤ 1 / 2 ^ 10 by norm_num [ur])
    obtain ⟨k1, k2, k3, k4, k5⟩ := spin_run hδ h (fun u hu => ht u (by simp [hu])) s1 s2' (exact_unit (ht t (by simp)) hx) s3
    refine ⟨k1, k2, fun _ => ?_, k4, ?_⟩
    · rcases h with _ | ⟨t', h⟩
      · exact s2
      · exact k3 (by simp)
    · refine k5.trans_eq ?_
      push_cast [List.length_cons]
      ring

/-- The orientation normalised after every turn: it never becomes infinite or NaN and its length never leaves `1 ± 9u`, however many
turns are made; it deviates from what is meant by at most `33u + 2δ` per turn, besides twice the deviation at the start. -/
theorem C83_normalized (h : List TurnF) {δ d : ℝ} (hδ : δ ≤ 1 / 2 ^ 10) (ht : ∀ t ∈ h, t.Ok δ) {p : V4 F32} (hp : p.IsFin)
    {x : ℍ[ℝ]} (hx : ‖x‖ = 1) (hd : ‖qval p - x‖ ≤ d) (hd' : d ≤ 1 / 2 ^ 10) :
    (spinF h p).IsFin ∧ (h ≠ [] → |‖qval (spinF h p)‖ - 1| ≤ 9 * ur ∧
      ‖qval (spinF h p) - meantF h x‖ ≤ 2 * d + h.length * (33 * ur + 2 * δ) + 9 * ur) := by
  have hn : |‖qval p‖ - 1| ≤ 1 / 2 ^ 10 := by
    have := abs_norm_sub_norm_le (qval p) x
    rw [hx] at this
    linarith
  have p0 : qval p ≠ 0 := by intro h; rw [h, norm_zero] at hn; norm_num at hn
  have x0 : x ≠ 0 := by intro h; rw [h, norm_zero] at hx; norm_num at hx
  have hD := unit_sub x0 p0
  rw [hx, inv_one, one_smul, div_one] at hD
  obtain ⟨k1, k2, k3, k4, k5⟩ := spin_run hδ h ht hp hn hx (hD.trans (mul_le_mul_of_nonneg_left hd zero_le_two))
  refine ⟨k1, fun hh => ⟨k3 hh, ?_⟩⟩
  have r0 : qval (spinF h p) ≠ 0 := by intro h; rw [h, norm_zero] at k2; norm_num at k2
  have e : ‖qval (spinF h p) - ‖qval (spinF h p)‖⁻¹ • qval (spinF h p)‖ = |‖qval (spinF h p)‖ - 1| := by
    have : qval (spinF h p) - ‖qval (spinF h p)‖⁻¹ • qval (spinF h p) = (‖qval (spinF h p)‖ - 1) • (‖qval (spinF h p)‖⁻¹ • qval (spinF h p)) := by
      rw [smul_smul, sub_mul, mul_inv_cancel₀ (norm_ne_zero_iff.mpr r0), one_mul, sub_smul, one_smul]
    rw [this, norm_smul, norm_smul, norm_inv, norm_norm, inv_mul_cancel₀ (norm_ne_zero_iff.mpr r0), mul_one, Real.norm_eq_abs]
  have t := norm_sub_le_norm_sub_add_norm_sub (qval (spinF h p)) (‖qval (spinF h p)‖⁻¹ • qval (spinF h p)) (meantF h x)
  linarith [k3 hh]

/-- The same for the points the orientation moves. -/
theorem C83_normalized_points (h : List TurnF) {δ d : ℝ} (hδ : δ ≤ 1 / 2 ^ 10) (ht : ∀ t ∈ h, t.Ok δ) {p : V4 F32} (hp : p.IsFin)
    {x : ℍ[ℝ]} (hx : ‖x‖ = 1) (hd : ‖qval p - x‖ ≤ d) (hd' : d ≤ 1 / 2 ^ 10) (v : V3 ℝ) :
    ‖(glm_quat_rotatev ((spinF h p).map toReal) v).pure - meantF h x * v.pure * (meantF h x)⁻¹‖ ≤
      2 * (2 * d + h.length * (33 * ur + 2 * δ)) * ‖v.pure‖ := by
  have hn : |‖qval p‖ - 1| ≤ 1 / 2 ^ 10 := by
    have := abs_norm_sub_norm_le (qval p) x
    rw [hx] at this
    linarith
  have p0 : qval p ≠ 0 := by intro h; rw [h, norm_zero] at hn; norm_num at hn
  have x0 : x ≠ 0 := by intro h; rw [h, norm_zero] at hx; norm_num at hx
  have hD := unit_sub x0 p0
  rw [hx, inv_one, one_smul, div_one] at hD
  obtain ⟨k1, k2, k3, k4, k5⟩ := spin_run hδ h ht hp hn hx (hD.trans (mul_le_mul_of_nonneg_left hd zero_le_two))
  have r0 : qval (spinF h p) ≠ 0 := by intro h; rw [h, norm_zero] at k2; norm_num at k2
  rw [C09_rotatev _ r0]
  change ‖qval (spinF h p) * v.pure * (qval (spinF h p))⁻¹ - _‖ ≤ _
  set r := qval (spinF h p)
  set X := meantF h x
  set D := 2 * d + h.length * (33 * ur + 2 * δ)
  have nr : ‖r‖ ≠ 0 := norm_ne_zero_iff.mpr r0
  have e : r * v.pure * r⁻¹ = (‖r‖⁻¹ • r) * v.pure * (‖r‖⁻¹ • r)⁻¹ := by
    have hi : (‖r‖⁻¹ • r)⁻¹ = ‖r‖ • r⁻¹ :=
      inv_eq_of_mul_eq_one_right (by rw [smul_mul_smul_comm, inv_mul_cancel₀ nr, mul_inv_cancel₀ r0, one_smul])
    rw [hi]
    simp only [smul_mul_assoc, mul_smul_comm, smul_smul]
    rw [mul_inv_cancel₀ nr, one_smul]
  have nQ : ‖‖r‖⁻¹ • r‖ = 1 := by rw [norm_smul, norm_inv, norm_norm, inv_mul_cancel₀ nr]
  rw [e]
  set Q := ‖r‖⁻¹ • r
  have Q0 : Q ≠ 0 := by intro h; rw [h, norm_zero] at nQ; norm_num at nQ
  have X0 : X ≠ 0 := by intro h; rw [h, norm_zero] at k4; norm_num at k4
  have s : Q * v.pure * Q⁻¹ - X * v.pure * X⁻¹ = (Q - X) * v.pure * Q⁻¹ + X * v.pure * (X⁻¹ * (X - Q) * Q⁻¹) := by
    have : X⁻¹ * (X - Q) * Q⁻¹ = Q⁻¹ - X⁻¹ := by
      rw [mul_sub, inv_mul_cancel₀ X0, sub_mul, one_mul, mul_assoc, mul_inv_cancel₀ Q0, mul_one]
    rw [this]; noncomm_ring
  rw [s]
  refine (norm_add_le _ _).trans ?_
  simp only [norm_mul, norm_inv, nQ, k4, inv_one, mul_one, one_mul]
  rw [norm_sub_rev X Q]
  nlinarith [norm_nonneg v.pure]

/-- Turns without normalisation. -/
theorem C83_plain : ∀ (h : List TurnF) {δ d : ℝ} (_ : δ ≤ 1) (_ : ∀ t ∈ h, t.Ok δ) {p : V4 F32} (_ : p.IsFin)
    {x : ℍ[ℝ]} (_ : ‖x‖ = 1) (_ : ‖qval p - x‖ ≤ d) (_ : (1 + d) * (1 + 9 * ur + 2 * δ) ^ h.length ≤ 2 ^ 50),
    (turnF h p).IsFin ∧ ‖qval (turnF h p) - meantF h x‖ ≤ (1 + d) * (1 + 9 * ur + 2 * δ) ^ h.length - 1
  | [], δ, d, _, _, p, hp, x, _, hd, _ => ⟨hp, by simpa [turnF, meantF] using hd⟩
  | t :: h, δ, d, hδ, ht, p, hp, x, hx, hd, hb => by
    have ht' := ht t (by simp)
    have d0 : 0 ≤ d := (norm_nonneg _).trans hd
    have δ0 : 0 ≤ δ := (norm_nonneg _).trans ht'.2.2
    have u0 := ur_pos
    have hu : ur = 1 / 2 ^ 24 := rfl
    have np : ‖qval p‖ ≤ 1 + d := by
      have := norm_sub_norm_le (qval p) x
      linarith
    have hr : ‖qval t.q‖ ≤ 1 + δ := by
      have := norm_sub_norm_le (qval t.q) t.meant
      linarith [ht'.2.1, ht'.2.2]
    have hd50 : 1 + d ≤ 2 ^ 50 := by
      refine le_trans ?_ hb
      exact le_mul_of_one_le_right (by linarith) (one_le_pow₀ (by linarith))
    obtain ⟨f, e⟩ := mul_step ht' hδ hp (np.trans (hd50.trans (by norm_num)))
    have np0 := norm_nonneg (qval p)
    have hrp : ‖qval t.q‖ * ‖qval p‖ ≤ (1 + δ) * (1 + d) := mul_le_mul hr np np0 (by linarith)
    have e2 : ‖(if t.left then qval t.q * qval p else qval p * qval t.q) - t.exact x‖ ≤ δ * (1 + d) + d := by
      unfold TurnF.exact
      split
      · rw [show qval t.q * qval p - t.meant * x = (qval t.q - t.meant) * qval p + t.meant * (qval p - x) by rw [mul_sub, sub_mul]; abel]
        refine (norm_add_le _ _).trans ?_
        rw [norm_mul, norm_mul, ht'.2.1, one_mul]
        exact add_le_add (mul_le_mul ht'.2.2 np np0 δ0) hd
      · rw [show qval p * qval t.q - x * t.meant = qval p * (qval t.q - t.meant) + (qval p - x) * t.meant by rw [mul_sub, sub_mul]; abel]
        refine (norm_add_le _ _).trans ?_
        rw [norm_mul, norm_mul, ht'.2.1, mul_one, mul_comm ‖qval p‖]
        exact add_le_add (mul_le_mul ht'.2.2 np np0 δ0) hd
    have e3 : ‖qval (t.mul p) - t.exact x‖ ≤ (1 + d) * (1 + 9 * ur + 2 * δ) - 1 := by
      refine (norm_sub_le_norm_sub_add_norm_sub _ _ _).trans ((add_le_add e e2).trans ?_)
      have h1 := mul_le_mul_of_nonneg_left hrp (show 0 ≤ 801 / 100 * ur by linarith)
      have h2 : 801 / 100 * ur * δ * (1 + d) ≤ 1 * δ * (1 + d) := by
        refine mul_le_mul_of_nonneg_right (mul_le_mul_of_nonneg_right ?_ δ0) (by linarith)
        norm_num [hu]
      have h3 : (1 : ℝ) / 2 ^ 145 ≤ 99 / 100 * ur * (1 + d) := by
        have : (1 : ℝ) / 2 ^ 145 ≤ 99 / 100 * ur := by norm_num [hu]
        nlinarith
      nlinarith
    have hpow : (1 + ((1 + d) * (1 + 9 * ur + 2 * δ) - 1)) * (1 + 9 * ur + 2 * δ) ^ h.length = (1 + d) * (1 + 9 * ur + 2 * δ) ^ (t :: h).length := by
      rw [List.length_cons, pow_succ]; ring
    have := C83_plain h hδ (fun u hu => ht u (by simp [hu])) f (exact_unit ht' hx) e3 (by rw [hpow]; exact hb)
    rw [hpow] at this
    exact this

omit [Libm] in
private theorem half_val : ((F32.ofRat false (1 / 2)).val : ℚ) = 1 / 2 := by decide +kernel
omit [Libm] in
private theorem half_fin : (F32.ofRat false (1 / 2)).isFin = true := by decide +kernel

/-- the turn that permutes the axes, exact in floats -/
noncomputable def axesTurn (left : Bool) : TurnF := ⟨left, ⟨.ofRat false (1 / 2), .ofRat false (1 / 2), .ofRat false (1 / 2), .ofRat false (1 / 2)⟩, ⟨1 / 2, 1 / 2, 1 / 2, 1 / 2⟩⟩

-- the hypotheses hold for ten thousand of these turns, starting from the turn itself
example : ∀ t ∈ List.replicate 5000 (axesTurn true) ++ List.replicate 5000 (axesTurn false), t.Ok 0 := by
  have ok : ∀ l, (axesTurn l).Ok 0 := by
    intro l
    have hq : qval (axesTurn l).q = (axesTurn l).meant := by
      unfold qval axesTurn
      ext <;> simp only [V4.quat, V4.map, toReal, half_val] <;> norm_num
    refine ⟨⟨half_fin, half_fin, half_fin, half_fin⟩, ?_, by rw [hq, sub_self, norm_zero]⟩
    have : (axesTurn l).meant = (⟨1 / 2, 1 / 2, 1 / 2, 1 / 2⟩ : V4 ℝ).quat := rfl
    rw [this, V4.norm_quat, V4.len_eq_one, V4.dot]; norm_num
  intro t ht
  rw [List.mem_append, List.mem_replicate, List.mem_replicate] at ht
  rcases ht with ⟨-, rfl⟩ | ⟨-, rfl⟩ <;> exact ok _
example : (1 + 0 : ℝ) * (1 + 9 * ur + 2 * 0) ^ 10000 ≤ 2 ^ 50 := by
  have h1 : (1 + 9 * ur : ℝ) ≤ (1 + ur) ^ 9 := by have := one_add_mul_le_pow (a := ur) (by norm_num [ur]) 9; simpa using this
  have h2 : (1 + 9 * ur : ℝ) ^ 10000 ≤ ((1 + ur) ^ 9) ^ 10000 := pow_le_pow_left₀ (by norm_num [ur]) h1 _
  have h3 : (1 + ur) ^ (9 * 10000) - 1 ≤ 1 := (pow_le_γ (9 * 10000) (by norm_num [ur])).trans (by unfold γ; norm_num [ur])
  rw [pow_mul] at h3
  rw [mul_zero, add_zero, add_zero, one_mul]
  generalize (1 + 9 * ur : ℝ) ^ 10000 = a at *
  generalize ((1 + ur : ℝ) ^ 9) ^ 10000 = b at *
  linarith [show (2 : ℝ) ≤ 2 ^ 50 by norm_num]

end Cglm
