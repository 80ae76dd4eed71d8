import Verif.Modes
import Verif.Props.C95Methods
/-! # C97: results exist in every environment, binary32 as modelled elsewhere is one of them, and environments differ -/
open Cglm F32 Wide
namespace Cglm

/-- **Results exist**: every expression with finite inputs has a result in every environment. -/
theorem C97_exists (M : Mode) (f : Bool) (t : X) (h : t.Fin) : ∃ z, Modes.Runs M f t z := Modes.Runs.exists M f t h

/-- **binary32.**  A finite result of the binary32 model is a run that rounds to nearest and does not flush. -/
theorem C97_binary32 (t : X) (h : t.run.isFin = true) : Modes.Runs .nearest false t t.run.toReal := by
  induction t with
  | inp v => exact .inp h
  | neg a ih =>
    have := (ih (by rw [← h]; show _ = (-a.run).isFin; rw [neg_isFin])).neg
    rwa [show -a.run.toReal = (X.neg a).run.toReal by show _ = (-a.run).toReal; unfold toReal; rw [neg_val]; push_cast; rfl] at this
  | add a b iha ihb =>
    have h' : (a.run + b.run).isFin = true := h
    refine .add (iha (add_isFin h').1) (ihb (add_isFin h').2) (.inl ?_)
    show Nearest _ _ _ (a.run + b.run).toReal
    unfold toReal; rw [add_val h', ← Rat.cast_add]; exact rnd_nearest _
  | sub a b iha ihb =>
    have h' : (a.run - b.run).isFin = true := h
    refine .sub (iha (sub_isFin h').1) (ihb (sub_isFin h').2) (.inl ?_)
    show Nearest _ _ _ (a.run - b.run).toReal
    rw [F32.sub_def] at *
    unfold toReal; rw [add_val h', neg_val, ← sub_eq_add_neg, ← Rat.cast_sub]; exact rnd_nearest _
  | mul a b iha ihb =>
    have h' : (a.run * b.run).isFin = true := h
    refine .mul (iha (mul_isFin h').1) (ihb (mul_isFin h').2) (.inl ?_)
    show Nearest _ _ _ (a.run * b.run).toReal
    unfold toReal; rw [mul_val h', ← Rat.cast_mul]; exact rnd_nearest _

private def big : F32 := .ofRat false (2 ^ 24)
private def one : F32 := .ofRat false 1
private def small : F32 := .ofRat false (1 / 2 ^ 70)

private theorem big_real : big.toReal = 2 ^ 24 := by
  unfold toReal; rw [show big.val = 2 ^ 24 by decide +kernel]; norm_num
private theorem one_real : one.toReal = 1 := by
  unfold toReal; rw [show one.val = 1 by decide +kernel]; norm_num
private theorem small_real : small.toReal = 1 / 2 ^ 70 := by
  unfold toReal; rw [show small.val = 1 / 2 ^ 70 by decide +kernel]; norm_num

/-- **The modes differ**: the dot product of `(2^24, 1)` and `(1, 1)` is less when rounded down than when rounded up. -/
theorem C97_modes_differ [Libm] : ∃ a b : V2 F32, a.NoNeg ∧ b.NoNeg ∧ ∀ f z z', Modes.Runs .down f (glm_vec2_dot (a.map .inp) (b.map .inp)) z →
    Modes.Runs .up false (glm_vec2_dot (a.map .inp) (b.map .inp)) z' → z < z' := by
  have ha : V2.NoNeg ⟨big, one⟩ := by constructor <;> simp only [big_real, one_real] <;> norm_num
  have hb : V2.NoNeg ⟨one, one⟩ := by constructor <;> simp only [one_real] <;> norm_num
  refine ⟨⟨big, one⟩, ⟨one, one⟩, ha, hb, fun f z z' r r' => ?_⟩
  have l := (r.lower (.inl rfl) rfl ⟨⟨ha.1, hb.1⟩, ha.2, hb.2⟩).2
  have u := (r'.upper rfl ⟨⟨ha.1, hb.1⟩, ha.2, hb.2⟩).2
  refine lt_of_le_of_ne (l.trans u) ?_
  intro e
  have hz : z' = 2 ^ 24 + 1 := by
    have : (glm_vec2_dot ((⟨big, one⟩ : V2 F32).map X.inp) ((⟨one, one⟩ : V2 F32).map X.inp)).real = 2 ^ 24 + 1 := by
      show big.toReal * one.toReal + one.toReal * one.toReal = _
      rw [big_real, one_real]; norm_num
    rw [this] at l u
    linarith
  have hf : Fmt 24 (-149) z' := by
    cases r' with
    | add _ _ h =>
      rcases h with h | ⟨h, -⟩
      · exact h.1
      · cases h
  obtain ⟨n, k, hn, -, hk⟩ := hf
  rw [hz] at hk
  rcases le_or_gt k 0 with h | h
  · have h1 : (2 : ℝ) ^ k ≤ 1 := zpow_le_one_of_nonpos₀ (by norm_num) h
    have h2 : (n : ℝ) ≤ 2 ^ 24 := by exact_mod_cast (le_abs_self n).trans hn
    have h3 := Wide.two_zpow_pos k
    have h4 : (0 : ℝ) < n := by
      by_contra h'
      push Not at h'
      have := mul_nonpos_of_nonpos_of_nonneg h' h3.le
      linarith
    have := mul_le_mul h2 h1 h3.le (by norm_num)
    linarith
  · obtain ⟨j, rfl⟩ := Int.eq_ofNat_of_zero_le h.le
    obtain ⟨i, rfl⟩ : ∃ i, j = i + 1 := ⟨j - 1, by omega⟩
    have : (2 ^ 24 + 1 : ℤ) = n * 2 ^ (i + 1) := by
      rw [zpow_natCast] at hk
      exact_mod_cast hk
    have h2 : (2 : ℤ) ∣ 2 ^ 24 + 1 := this ▸ Dvd.intro_left (n * 2 ^ i) (by ring)
    omega

/-- **Flushing matters**: the squared length of `(2^-70, 0)` is `2^-140`, or zero with flushing; so rounding up is no upper bound then. -/
theorem C97_flush_differs [Libm] : ∃ a : V2 F32, a.NoNeg ∧ Modes.Runs .up true (glm_vec2_dot (a.map .inp) (a.map .inp)) 0 ∧
    0 < (glm_vec2_dot (a.map toReal) (a.map toReal)) := by
  have h0 : (F32.ofRat false 0).toReal = 0 := by
    unfold toReal; rw [show (F32.ofRat false 0).val = 0 by decide +kernel]; norm_num
  refine ⟨⟨small, .ofRat false 0⟩, ?_, ?_, ?_⟩
  · constructor <;> simp only [small_real, h0] <;> norm_num
  · refine .add (x := 0) (y := 0) (.mul (.inp (by decide +kernel)) (.inp (by decide +kernel)) (.inr ⟨rfl, ?_, rfl⟩))
      (.mul (.inp (by decide +kernel)) (.inp (by decide +kernel)) (.inr ⟨rfl, ?_, rfl⟩)) (.inr ⟨rfl, ?_, rfl⟩)
    · rw [small_real]; norm_num [abs_of_pos]
    · rw [h0]; norm_num
    · norm_num
  · show 0 < small.toReal * small.toReal + (F32.ofRat false 0).toReal * (F32.ofRat false 0).toReal
    rw [small_real, h0]; norm_num

/-- non-vacuity: a run of the dot product in each environment, on numbers that meet the hypotheses of the exact results -/
example [Libm] (M : Mode) (f : Bool) : (∃ z, Modes.Runs M f (glm_vec2_dot ((⟨big, one⟩ : V2 F32).map .inp) ((⟨one, one⟩ : V2 F32).map .inp)) z) ∧
    (⟨one, one⟩ : V2 F32).On 0 1 := by
  refine ⟨C97_exists M f _ ⟨⟨?_, ?_⟩, ?_, ?_⟩, ?_⟩
  · exact (by decide +kernel : big.isFin = true)
  · exact (by decide +kernel : one.isFin = true)
  · exact (by decide +kernel : one.isFin = true)
  · exact (by decide +kernel : one.isFin = true)
  · have : one.On 0 1 := ⟨by decide +kernel, 1, by norm_num, by decide +kernel⟩
    exact ⟨this, this⟩

end Cglm
