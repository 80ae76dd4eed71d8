import Verif.Props.C44
import Mathlib.Topology.Order.IntermediateValue
import Mathlib.Topology.Algebra.Polynomial
import Mathlib.Tactic.Continuity

/-! # C45: de Casteljau solver -/

namespace Cglm

/-- loop invariant: the current control points describe the original curve on [u, v], the target lies between its end values,
and the interval has been halved `k` times -/
structure DCInv (B : ℝ → ℝ) (x : ℝ) (k : ℕ) (s : DC ℝ) : Prop where
  curve : ∀ r, bernstein s.p0 s.c0 s.c1 s.p1 r = B (s.u + r * (s.v - s.u))
  lo : s.p0 ≤ x
  hi : x ≤ s.p1
  u0 : 0 ≤ s.u
  v1 : s.v ≤ 1
  len : s.v - s.u = (1 / 2) ^ k

theorem lit_e9 : (lit (1 / 10 ^ 9) : ℝ) = 1 / 10 ^ 9 := by simp only [lit_real]; norm_num
theorem lit_e20 : (lit (1 / 10 ^ 20) : ℝ) = 1 / 10 ^ 20 := by simp only [lit_real]; norm_num
theorem lit_half : (lit 0.5 : ℝ) = 1 / 2 := by simp only [lit_scientific]; norm_num

theorem dc_step (B : ℝ → ℝ) (x : ℝ) (k : ℕ) (s : DC ℝ) (h : DCInv B x k s) :
    (∀ t, glm_decasteljau_step x s = .inl t → t = (s.u + s.v) / 2 ∧ 0 ≤ t ∧ t ≤ 1 ∧ |B t - x| < 1 / 10 ^ 9) ∧
    (∀ s', glm_decasteljau_step x s = .inr s' → DCInv B x (k + 1) s') := by
  obtain ⟨hc, hlo, hhi, hu, hv, hl⟩ := h
  have hp : (0 : ℝ) < (1 / 2) ^ k := by positivity
  have hf : bernstein s.p0 s.c0 s.c1 s.p1 (1 / 2) =
      ((((s.p0 + s.c0) * (1 / 2) + (s.c0 + s.c1) * (1 / 2)) * (1 / 2) + ((s.c0 + s.c1) * (1 / 2) + (s.c1 + s.p1) * (1 / 2)) * (1 / 2)) * (1 / 2)) := by
    unfold bernstein; ring
  have hB : B ((s.u + s.v) * (1 / 2)) = bernstein s.p0 s.c0 s.c1 s.p1 (1 / 2) := by rw [hc]; congr 1; ring
  have hclamp : glm_clamp_zo ((s.u + s.v) * (1 / 2)) = (s.u + s.v) * (1 / 2) := by
    rw [glm_clamp_zo_eq, max_eq_left (by linarith), min_eq_left (by linarith)]
  unfold glm_decasteljau_step
  simp only [lit_half, lit_e9, flt_real, fabsf_real, decide_eq_true_eq, hclamp]
  rw [← hf]
  constructor
  · intro t ht
    split_ifs at ht with h1 h2
    · simp only [Sum.inl.injEq] at ht
      subst ht
      rw [hB]
      exact ⟨by ring, by linarith, by linarith, h1⟩
  · intro s' hs'
    split_ifs at hs' with h1 h2
    · simp only [Sum.inr.injEq] at hs'
      subst hs'
      refine ⟨fun r => ?_, h2.le, hhi, ?_, hv, ?_⟩
      · have := hc (1 / 2 + r / 2)
        have e : s.u + (1 / 2 + r / 2) * (s.v - s.u) = (s.u + s.v) * (1 / 2) + r * (s.v - (s.u + s.v) * (1 / 2)) := by ring
        rw [e] at this
        simp only []
        rw [← this, hf]; unfold bernstein; ring
      · simp only []; linarith
      · simp only [pow_succ]; linarith
    · simp only [Sum.inr.injEq] at hs'
      subst hs'
      refine ⟨fun r => ?_, hlo, not_lt.mp h2, hu, ?_, ?_⟩
      · have := hc (r / 2)
        have e : s.u + (r / 2) * (s.v - s.u) = s.u + r * ((s.u + s.v) * (1 / 2) - s.u) := by ring
        rw [e] at this
        simp only []
        rw [← this, hf]; unfold bernstein; ring
      · simp only []; linarith
      · simp only [pow_succ]; linarith

theorem bernstein_cont (p0 c0 c1 p1 : ℝ) : Continuous (bernstein p0 c0 c1 p1) := by
  unfold bernstein; fun_prop

theorem dc_loop (B : ℝ → ℝ) (x : ℝ) (n : ℕ) : ∀ (k : ℕ) (s : DC ℝ), DCInv B x k s →
    let t := glm_decasteljau_loop x s n
    0 ≤ t ∧ t ≤ 1 ∧ (|B t - x| < 1 / 10 ^ 9 ∨ ∃ r, 0 ≤ r ∧ r ≤ 1 ∧ B r = x ∧ |t - r| ≤ (1 / 2) ^ (k + n + 1)) := by
  induction n with
  | zero =>
    intro k s h
    obtain ⟨hc, hlo, hhi, hu, hv, hl⟩ := h
    have hp : (0 : ℝ) < (1 / 2) ^ k := by positivity
    have hclamp : glm_clamp_zo ((s.u + s.v) * (1 / 2)) = (s.u + s.v) * (1 / 2) := by
      rw [glm_clamp_zo_eq, max_eq_left (by linarith), min_eq_left (by linarith)]
    simp only [glm_decasteljau_loop, lit_half, hclamp]
    refine ⟨by linarith, by linarith, Or.inr ?_⟩
    have h0 : bernstein s.p0 s.c0 s.c1 s.p1 0 = s.p0 := by unfold bernstein; ring
    have h1 : bernstein s.p0 s.c0 s.c1 s.p1 1 = s.p1 := by unfold bernstein; ring
    have ivt := intermediate_value_Icc (zero_le_one' ℝ) (bernstein_cont s.p0 s.c0 s.c1 s.p1).continuousOn
    rw [h0, h1] at ivt
    obtain ⟨r, ⟨hr0, hr1⟩, hr⟩ := ivt ⟨hlo, hhi⟩
    rw [hc] at hr
    refine ⟨s.u + r * (s.v - s.u), by nlinarith, by nlinarith, hr, ?_⟩
    rw [add_zero, pow_succ, ← hl, abs_le]
    constructor <;> nlinarith
  | succ n ih =>
    intro k s h
    obtain ⟨h1, h2⟩ := dc_step B x k s h
    simp only [glm_decasteljau_loop]
    cases hs : glm_decasteljau_step x s with
    | inl t =>
      obtain ⟨-, a, b, c⟩ := h1 t hs
      exact ⟨a, b, Or.inl c⟩
    | inr s' =>
      have := ih (k + 1) s' (h2 s' hs)
      rw [show k + (n + 1) + 1 = k + 1 + n + 1 by ring]
      exact this

/-- For a target between the end values, the result is a parameter in [0,1] where the curve is within 1e-9 of the target, or that
is within 2^-1001 of a parameter where the curve hits the target. -/
theorem C45_decasteljau (x p0 c0 c1 p1 : ℝ) (h0 : p0 ≤ x) (h1 : x ≤ p1) :
    let t := glm_decasteljau x p0 c0 c1 p1
    0 ≤ t ∧ t ≤ 1 ∧ (|bernstein p0 c0 c1 p1 t - x| < 1 / 10 ^ 9 ∨
      ∃ r, 0 ≤ r ∧ r ≤ 1 ∧ bernstein p0 c0 c1 p1 r = x ∧ |t - r| ≤ (1 / 2) ^ 1001) := by
  unfold glm_decasteljau
  simp only [lit_e20, flt_real, decide_eq_true_eq, lit_zero, lit_one]
  split_ifs with h2 h3
  · refine ⟨le_rfl, zero_le_one, Or.inl ?_⟩
    have : bernstein p0 c0 c1 p1 0 = p0 := by unfold bernstein; ring
    rw [this, abs_lt]
    constructor <;> norm_num at * <;> linarith
  · refine ⟨zero_le_one, le_rfl, Or.inl ?_⟩
    have : bernstein p0 c0 c1 p1 1 = p1 := by unfold bernstein; ring
    rw [this, abs_lt]
    constructor <;> norm_num at * <;> linarith
  · have := dc_loop (bernstein p0 c0 c1 p1) x 1000 0 ⟨p0, c0, c1, p1, 0, 1⟩
      ⟨fun r => by simp, h0, h1, le_rfl, le_rfl, by simp⟩
    simpa using this

/-- outside the range of the end values the nearer end is returned -/
theorem C45_outside (x p0 c0 c1 p1 : ℝ) : (x < p0 → glm_decasteljau x p0 c0 c1 p1 = 0) ∧
    (p0 + 1 / 10 ^ 20 ≤ x → p1 < x → glm_decasteljau x p0 c0 c1 p1 = 1) := by
  unfold glm_decasteljau
  simp only [lit_e20, flt_real, decide_eq_true_eq, lit_zero, lit_one]
  constructor
  · intro h; rw [if_pos]; norm_num; linarith
  · intro h h1; rw [if_neg (by linarith), if_pos (by norm_num; linarith)]

/-- the solver used as an easing lookup: for control values giving B(s) = s it returns a parameter within 1e-9 of its argument -/
theorem C45_identity (x : ℝ) (h0 : 0 ≤ x) (h1 : x ≤ 1) : |glm_decasteljau x 0 (1 / 3) (2 / 3) 1 - x| < 1 / 10 ^ 9 := by
  have hb : ∀ s, bernstein 0 (1 / 3) (2 / 3) 1 s = s := fun s => by unfold bernstein; ring
  obtain ⟨-, -, h | ⟨r, -, -, hr, ht⟩⟩ := C45_decasteljau x 0 (1 / 3) (2 / 3) 1 h0 h1
  · rwa [hb] at h
  · rw [hb] at hr
    subst hr
    refine lt_of_le_of_lt ht ?_
    calc ((1 : ℝ) / 2) ^ 1001 ≤ (1 / 2) ^ 30 := pow_le_pow_of_le_one (by norm_num) (by norm_num) (by norm_num)
      _ < 1 / 10 ^ 9 := by norm_num

example : (0 : ℝ) ≤ 1/3 ∧ (1/3 : ℝ) ≤ 1 := by norm_num

end Cglm
