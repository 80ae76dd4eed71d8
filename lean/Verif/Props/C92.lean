import Verif.F32Apx
import Verif.F32Btw
import Verif.Props.C46
import Verif.Props.C65

/-!
# C92: easing in binary32

For a float `t` in [0,1] the polynomial easing functions are within a few rounding units of the same functions over the real numbers.
-/

namespace Cglm
open F32

variable [Libm]

/-- a float in [0,1] -/
structure Phase (t : F32) : Prop where
  fin : t.isFin = true
  lo : 0 ≤ t.toReal
  hi : t.toReal ≤ 1

omit [Libm] in
private theorem Phase.fine {t : F32} (h : Phase t) : Fine t 1 := ⟨h.fin, by rw [abs_of_nonneg h.lo]; exact h.hi⟩

private theorem num (q : ℚ) (r : ℝ) (hr : 0 ≤ r) (h : (ofRat false q).isFin = true ∧ (((ofRat false q).val : ℚ) : ℝ) = r) : Apx (lit q : F32) r r 0 r 0 :=
  ⟨h.1, by rw [lit_f32]; unfold toReal; rw [h.2]; simp, by rw [abs_of_nonneg hr], le_rfl, le_rfl⟩

private theorem four : Apx (lit 4 : F32) 4 4 0 4 0 := num 4 4 (by norm_num) ⟨by decide +kernel, by rw [show (ofRat false 4).val = 4 by decide +kernel]; norm_num⟩
private theorem eight : Apx (lit 8 : F32) 8 8 0 8 0 := num 8 8 (by norm_num) ⟨by decide +kernel, by rw [show (ofRat false 8).val = 8 by decide +kernel]; norm_num⟩
private theorem sixteen : Apx (lit 16 : F32) 16 16 0 16 0 := num 16 16 (by norm_num) ⟨by decide +kernel, by rw [show (ofRat false 16).val = 16 by decide +kernel]; norm_num⟩
private theorem oneHalf : Apx (lit 0.5 : F32) (1 / 2) (1 / 2) 0 (1 / 2) 0 :=
  num 0.5 (1 / 2) (by norm_num) ⟨by decide +kernel, by rw [show (ofRat false 0.5).val = 1 / 2 by decide +kernel]; norm_num⟩

private theorem fineOne : Fine (lit 1 : F32) 1 := ⟨toReal_lit_one.1, by rw [toReal_lit_one.2]; norm_num⟩
private theorem realTwo : (lit 2 : F32).toReal = 2 := by simpa [sub_eq_zero] using Apx.two.err
private theorem fineTwo : Fine (lit 2 : F32) 2 := ⟨Apx.two.fin, by rw [realTwo]; norm_num⟩

/-- `t - 1` -/
private theorem back1 {t : F32} (h : Phase t) : Apx (t - lit 1) (t.toReal - 1) (1 - t.toReal) 1 2 0 := by
  have x := Apx.subv h.fine fineOne (by norm_num)
  rw [toReal_lit_one.2, abs_sub_comm, abs_of_nonneg (by linarith [h.hi] : 0 ≤ 1 - t.toReal)] at x
  exact ⟨x.fin, x.err, x.mag, x.le.trans (by norm_num), le_rfl⟩

/-- `t - 2` -/
private theorem back2 {t : F32} (h : Phase t) : Apx (t - lit 2) (t.toReal - 2) (2 - t.toReal) 1 3 0 := by
  have x := Apx.subv h.fine fineTwo (by norm_num)
  rw [realTwo, abs_sub_comm, abs_of_nonneg (by linarith [h.hi] : 0 ≤ 2 - t.toReal)] at x
  exact ⟨x.fin, x.err, x.mag, x.le.trans (by norm_num), le_rfl⟩

omit [Libm] in
private theorem dbl {t : F32} (h : Phase t) : Rep (2 * t.val) := by
  have := rep_scale (rep_val t) 1 (by norm_num) (by
    have h1 : |t.val| ≤ 1 := by have := h.fine.2; unfold toReal at this; exact_mod_cast this
    rw [zpow_one, abs_mul]; norm_num; linarith)
  simpa using this

/-- `2 t` is exact -/
private theorem twice {t : F32} (h : Phase t) : (lit 2 * t).isFin = true ∧ (lit 2 * t).toReal = 2 * t.toReal := by
  have z : Has (lit 2 : F32) 2 := .lit (by simpa using rep_nat 2 (by norm_num))
  have m := z.mul_exact (.of h.fin) (dbl h)
  refine ⟨m.1, ?_⟩
  unfold toReal
  rw [m.2]; push_cast; rfl

/-- `2 t - 2` -/
private theorem back22 {t : F32} (h : Phase t) : Apx (lit 2 * t - lit 2) (2 * t.toReal - 2) (2 - 2 * t.toReal) 1 4 0 := by
  have f : Fine (lit 2 * t) 2 := ⟨(twice h).1, by rw [(twice h).2, abs_of_nonneg (by linarith [h.lo])]; linarith [h.hi]⟩
  have x := Apx.subv f fineTwo (by norm_num)
  rw [realTwo, (twice h).2, abs_sub_comm, abs_of_nonneg (by linarith [h.hi] : 0 ≤ 2 - 2 * t.toReal)] at x
  exact ⟨x.fin, x.err, x.mag, x.le.trans (by norm_num), le_rfl⟩

private theorem before {a b : F32} (ha : a.isFin = true) (hb : b.isFin = true) : (flt a b = true ↔ a.toReal < b.toReal) := by
  rw [flt_f32, key_lt_iff, key_fin ha, key_fin hb]
  unfold toReal
  rw [Rat.cast_lt]
  exact ⟨fun h => h.2.2, fun h => ⟨isNum_of_isFin ha, isNum_of_isFin hb, h⟩⟩

private theorem realHalf : (lit 0.5 : F32).toReal = 1 / 2 := by simpa [sub_eq_zero] using oneHalf.err

private theorem first {t : F32} (h : Phase t) : (flt t (lit 0.5) = true ↔ t.toReal < 1 / 2) := by rw [before h.fin oneHalf.fin, realHalf]

/-- `f` in binary32 is within `K` rounding units of `g` over the real numbers, for floats in [0,1] -/
def EaseNear (f : F32 → F32) (g : ℝ → ℝ) (K : ℝ) : Prop := ∀ t, Phase t → (f t).isFin = true ∧ |(f t).toReal - g t.toReal| ≤ K * ur + 1 / 2 ^ 60

omit [Libm] in
private theorem done {f : F32} {x M A c X : ℝ} {k : ℕ} (h : Apx f x M k A c) (K : ℕ) (m n : ℝ) (hx : x = X) (hk : k ≤ K) (hK : K ≤ 1000) (hm : M ≤ m) (hn : 1001 / 1000 * K * m ≤ n) (hc : c ≤ 2 ^ 80) :
    f.isFin = true ∧ |f.toReal - X| ≤ n * ur + 1 / 2 ^ 60 := by
  refine h.bound K m hx hk hK hm ?_
  have := mul_le_mul_of_nonneg_right hn ur_pos.le
  have : c * ηr ≤ 2 ^ 80 * ηr := mul_le_mul_of_nonneg_right hc (by norm_num [ηr])
  have : (2 : ℝ) ^ 80 * ηr ≤ 1 / 2 ^ 60 := by norm_num [ηr]
  linarith

macro "pows " x:term ", " h0:term ", " h1:term : tactic => `(tactic| (
  have p2 : $x ^ 2 ≤ 1 := pow_le_one₀ $h0 $h1
  have p3 : $x ^ 3 ≤ 1 := pow_le_one₀ $h0 $h1
  have p4 : $x ^ 4 ≤ 1 := pow_le_one₀ $h0 $h1
  have p5 : $x ^ 5 ≤ 1 := pow_le_one₀ $h0 $h1
  linarith))

omit [Libm] in
theorem C92_linear : EaseNear glm_ease_linear glm_ease_linear 0 := fun t h => ⟨h.fin, by simp [cglm]⟩

theorem C92_quad_in : EaseNear glm_ease_quad_in glm_ease_quad_in 2 := fun t h => by
  have v := Apx.var h.fine
  refine done (v.mul v (by norm_num) (by norm_num)) 1 1 2 (by simp only [cglm]) (by norm_num) (by norm_num) ?_ (by norm_num) (by norm_num)
  rw [abs_of_nonneg h.lo]; pows t.toReal, h.lo, h.hi

theorem C92_quad_out : EaseNear glm_ease_quad_out glm_ease_quad_out 3 := fun t h => by
  have v := Apx.var h.fine
  refine done (v.mul (back2 h) (by norm_num) (by norm_num)).neg 2 1 3 (by simp only [cglm] <;> norm_num) (by norm_num) (by norm_num) ?_ (by norm_num) (by norm_num)
  rw [abs_of_nonneg h.lo]
  have := sq_nonneg (1 - t.toReal)
  linarith

theorem C92_quad_inout : EaseNear glm_ease_quad_inout glm_ease_quad_inout 29 := fun t h => by
  have v := Apx.var h.fine
  have tt := v.mul v (by norm_num) (by norm_num)
  unfold glm_ease_quad_inout
  simp only [first h, flt_real, lit_real, decide_eq_true_eq]
  rw [show ((0.5 : ℚ) : ℝ) = 1 / 2 by norm_num]
  split_ifs with c
  · refine done (Apx.two.mul tt (by norm_num) (by norm_num)) 2 2 29 (by norm_num) (by norm_num) (by norm_num) ?_ (by norm_num) (by norm_num)
    rw [abs_of_nonneg h.lo]; pows t.toReal, h.lo, h.hi
  · refine done (((Apx.two.neg.mul tt (by norm_num) (by norm_num)).add (four.mul v (by norm_num) (by norm_num)) (by norm_num) (by norm_num)).sub Apx.one (by norm_num) (by norm_num)) 4 7 29 (by norm_num) (by norm_num) (by norm_num) ?_ (by norm_num) (by norm_num)
    rw [abs_of_nonneg h.lo]; have := h.hi; pows t.toReal, h.lo, h.hi

theorem C92_cubic_in : EaseNear glm_ease_cubic_in glm_ease_cubic_in 3 := fun t h => by
  have v := Apx.var h.fine
  refine done ((v.mul v (by norm_num) (by norm_num)).mul v (by norm_num) (by norm_num)) 2 1 3 (by simp only [cglm]) (by norm_num) (by norm_num) ?_ (by norm_num) (by norm_num)
  rw [abs_of_nonneg h.lo]; pows t.toReal, h.lo, h.hi

theorem C92_cubic_out : EaseNear glm_ease_cubic_out glm_ease_cubic_out 13 := fun t h => by
  have f := back1 h
  refine done (((f.mul f (by norm_num) (by norm_num)).mul f (by norm_num) (by norm_num)).add Apx.one (by norm_num) (by norm_num)) 6 2 13 (by simp only [cglm] <;> norm_num) (by norm_num) (by norm_num) ?_ (by norm_num) (by norm_num)
  have y0 : 0 ≤ 1 - t.toReal := by linarith [h.hi]
  have y1 : 1 - t.toReal ≤ 1 := by linarith [h.lo]
  generalize 1 - t.toReal = y at *
  pows y, y0, y1

theorem C92_cubic_inout : EaseNear glm_ease_cubic_inout glm_ease_cubic_inout 11 := fun t h => by
  have v := Apx.var h.fine
  have f := back22 h
  unfold glm_ease_cubic_inout
  simp only [first h, flt_real, lit_real, decide_eq_true_eq]
  rw [show ((0.5 : ℚ) : ℝ) = 1 / 2 by norm_num]
  split_ifs with c
  · refine done (((four.mul v (by norm_num) (by norm_num)).mul v (by norm_num) (by norm_num)).mul v (by norm_num) (by norm_num)) 3 (1 / 2) 11 (by norm_num) (by norm_num) (by norm_num) ?_ (by norm_num) (by norm_num)
    rw [abs_of_nonneg h.lo]
    have := pow_le_pow_left₀ h.lo c.le 3
    linarith
  · refine done ((((oneHalf.mul f (by norm_num) (by norm_num)).mul f (by norm_num) (by norm_num)).mul f (by norm_num) (by norm_num)).add Apx.one (by norm_num) (by norm_num)) 7 (3 / 2) 11 (by norm_num) (by norm_num) (by norm_num) ?_ (by norm_num) (by norm_num)
    have y0 : 0 ≤ 2 - 2 * t.toReal := by linarith [h.hi]
    have y1 : 2 - 2 * t.toReal ≤ 1 := by linarith [not_lt.mp c]
    generalize 2 - 2 * t.toReal = y at *
    pows y, y0, y1

theorem C92_quart_in : EaseNear glm_ease_quart_in glm_ease_quart_in 4 := fun t h => by
  have v := Apx.var h.fine
  have f := v.mul v (by norm_num) (by norm_num)
  refine done (f.mul f (by norm_num) (by norm_num)) 3 1 4 (by simp only [cglm]) (by norm_num) (by norm_num) ?_ (by norm_num) (by norm_num)
  rw [abs_of_nonneg h.lo]; pows t.toReal, h.lo, h.hi

theorem C92_quart_out : EaseNear glm_ease_quart_out glm_ease_quart_out 17 := fun t h => by
  have f := back1 h
  have g := Apx.subv fineOne h.fine (by norm_num)
  rw [toReal_lit_one.2, abs_of_nonneg (by linarith [h.hi] : 0 ≤ 1 - t.toReal)] at g
  refine done ((((f.mul f (by norm_num) (by norm_num)).mul f (by norm_num) (by norm_num)).mul g (by norm_num) (by norm_num)).add Apx.one (by norm_num) (by norm_num)) 8 2 17 (by simp only [cglm] <;> norm_num) (by norm_num) (by norm_num) ?_ (by norm_num) (by norm_num)
  have y0 : 0 ≤ 1 - t.toReal := by linarith [h.hi]
  have y1 : 1 - t.toReal ≤ 1 := by linarith [h.lo]
  generalize 1 - t.toReal = y at *
  pows y, y0, y1

theorem C92_quart_inout : EaseNear glm_ease_quart_inout glm_ease_quart_inout 14 := fun t h => by
  have v := Apx.var h.fine
  have f := v.mul v (by norm_num) (by norm_num)
  have b := back1 h
  have g := b.mul b (by norm_num) (by norm_num)
  unfold glm_ease_quart_inout
  simp only [first h, flt_real, lit_real, decide_eq_true_eq]
  rw [show ((0.5 : ℚ) : ℝ) = 1 / 2 by norm_num]
  split_ifs with c
  · refine done ((eight.mul f (by norm_num) (by norm_num)).mul f (by norm_num) (by norm_num)) 4 (1 / 2) 14 (by norm_num) (by norm_num) (by norm_num) ?_ (by norm_num) (by norm_num)
    rw [abs_of_nonneg h.lo]
    have := pow_le_pow_left₀ h.lo c.le 4
    linarith
  · refine done (((eight.neg.mul g (by norm_num) (by norm_num)).mul g (by norm_num) (by norm_num)).add Apx.one (by norm_num) (by norm_num)) 9 (3 / 2) 14 (by norm_num) (by norm_num) (by norm_num) ?_ (by norm_num) (by norm_num)
    have y0 : 0 ≤ 1 - t.toReal := by linarith [h.hi]
    have y1 : 1 - t.toReal ≤ 1 / 2 := by linarith [not_lt.mp c]
    generalize 1 - t.toReal = y at *
    have := pow_le_pow_left₀ y0 y1 4
    linarith

theorem C92_quint_in : EaseNear glm_ease_quint_in glm_ease_quint_in 5 := fun t h => by
  have v := Apx.var h.fine
  have f := v.mul v (by norm_num) (by norm_num)
  refine done ((f.mul f (by norm_num) (by norm_num)).mul v (by norm_num) (by norm_num)) 4 1 5 (by simp only [cglm]) (by norm_num) (by norm_num) ?_ (by norm_num) (by norm_num)
  rw [abs_of_nonneg h.lo]; pows t.toReal, h.lo, h.hi

theorem C92_quint_out : EaseNear glm_ease_quint_out glm_ease_quint_out 21 := fun t h => by
  have f := back1 h
  have g := f.mul f (by norm_num) (by norm_num)
  refine done (((g.mul g (by norm_num) (by norm_num)).mul f (by norm_num) (by norm_num)).add Apx.one (by norm_num) (by norm_num)) 10 2 21 (by simp only [cglm] <;> norm_num) (by norm_num) (by norm_num) ?_ (by norm_num) (by norm_num)
  have y0 : 0 ≤ 1 - t.toReal := by linarith [h.hi]
  have y1 : 1 - t.toReal ≤ 1 := by linarith [h.lo]
  generalize 1 - t.toReal = y at *
  pows y, y0, y1

theorem C92_quint_inout : EaseNear glm_ease_quint_inout glm_ease_quint_inout 17 := fun t h => by
  have v := Apx.var h.fine
  have f := v.mul v (by norm_num) (by norm_num)
  have b := back22 h
  have g := b.mul b (by norm_num) (by norm_num)
  unfold glm_ease_quint_inout
  simp only [first h, flt_real, lit_real, decide_eq_true_eq]
  rw [show ((0.5 : ℚ) : ℝ) = 1 / 2 by norm_num]
  split_ifs with c
  · refine done (((sixteen.mul f (by norm_num) (by norm_num)).mul f (by norm_num) (by norm_num)).mul v (by norm_num) (by norm_num)) 5 (1 / 2) 17 (by norm_num) (by norm_num) (by norm_num) ?_ (by norm_num) (by norm_num)
    rw [abs_of_nonneg h.lo]
    have := pow_le_pow_left₀ h.lo c.le 5
    linarith
  · refine done ((((oneHalf.mul g (by norm_num) (by norm_num)).mul g (by norm_num) (by norm_num)).mul b (by norm_num) (by norm_num)).add Apx.one (by norm_num) (by norm_num)) 11 (3 / 2) 17 (by norm_num) (by norm_num) (by norm_num) ?_ (by norm_num) (by norm_num)
    have y0 : 0 ≤ 2 - 2 * t.toReal := by linarith [h.hi]
    have y1 : 2 - 2 * t.toReal ≤ 1 := by linarith [not_lt.mp c]
    generalize 2 - 2 * t.toReal = y at *
    pows y, y0, y1

/-! ### the functions that overshoot -/

private theorem over1 : Apx (lit 1.70158 : F32) (170158 / 100000) (170158 / 100000) 1 2 0 := by
  have h : (ofRat false 1.70158).isFin = true := by decide +kernel
  have h2 : |(ofRat false 1.70158).val - 170158 / 100000| ≤ 1 / 2 ^ 24 := by decide +kernel
  refine ⟨h, ?_, by norm_num, by norm_num, le_rfl⟩
  rw [lit_f32]; unfold toReal
  have : |(((ofRat false 1.70158).val : ℚ) : ℝ) - 170158 / 100000| ≤ 1 / 2 ^ 24 := by
    have := (Rat.cast_le (K := ℝ)).mpr h2
    push_cast at this; exact this
  refine this.trans ?_
  norm_num [ur]

private theorem over2 : Apx (lit 1.525 : F32) (1525 / 1000) (1525 / 1000) 1 2 0 := by
  have h : (ofRat false 1.525).isFin = true := by decide +kernel
  have h2 : |(ofRat false 1.525).val - 1525 / 1000| ≤ 1 / 2 ^ 24 := by decide +kernel
  refine ⟨h, ?_, by norm_num, by norm_num, le_rfl⟩
  rw [lit_f32]; unfold toReal
  have : |(((ofRat false 1.525).val : ℚ) : ℝ) - 1525 / 1000| ≤ 1 / 2 ^ 24 := by
    have := (Rat.cast_le (K := ℝ)).mpr h2
    push_cast at this; exact this
  refine this.trans ?_
  norm_num [ur]

theorem C92_back_in : EaseNear glm_ease_back_in glm_ease_back_in 27 := fun t h => by
  have v := Apx.var h.fine
  refine done ((v.mul v (by norm_num) (by norm_num)).mul (((over1.add Apx.one (by norm_num) (by norm_num)).mul v (by norm_num) (by norm_num)).sub over1 (by norm_num) (by norm_num)) (by norm_num) (by norm_num)) 6 (441 / 100) 27 (by simp only [cglm] <;> norm_num) (by norm_num) (by norm_num) ?_ (by norm_num) (by norm_num)
  rw [abs_of_nonneg h.lo]
  pows t.toReal, h.lo, h.hi

theorem C92_back_out : EaseNear glm_ease_back_out glm_ease_back_out 55 := fun t h => by
  have n := back1 h
  refine done (((n.mul n (by norm_num) (by norm_num)).mul (((over1.add Apx.one (by norm_num) (by norm_num)).mul n (by norm_num) (by norm_num)).add over1 (by norm_num) (by norm_num)) (by norm_num) (by norm_num)).add Apx.one (by norm_num) (by norm_num)) 10 (541 / 100) 55 (by simp only [cglm] <;> norm_num) (by norm_num) (by norm_num) ?_ (by norm_num) (by norm_num)
  have y0 : 0 ≤ 1 - t.toReal := by linarith [h.hi]
  have y1 : 1 - t.toReal ≤ 1 := by linarith [h.lo]
  generalize 1 - t.toReal = y at *
  pows y, y0, y1

/-- `t / 0.5` is exact -/
private theorem ratio2 {t : F32} (h : Phase t) : (t / lit 0.5).isFin = true ∧ (t / lit 0.5).toReal = 2 * t.toReal := by
  have q := (Apx.var h.fine).div (1 / 2) (y := 1 / 2) (l := 0) (B := 1 / 2) ⟨oneHalf.fin, by simpa using oneHalf.err, le_rfl, by norm_num, le_rfl⟩ (by norm_num) (by norm_num) (by norm_num) (by norm_num)
  refine ⟨q.fin, ?_⟩
  unfold toReal
  rw [div_val oneHalf.fin q.fin, lit_f32, show (ofRat false 0.5).val = 1 / 2 by decide +kernel, show t.val / (1 / 2) = 2 * t.val by ring, rnd_rep (dbl h)]
  push_cast; rfl

theorem C92_back_inout : EaseNear glm_ease_back_inout glm_ease_back_inout 55 := fun t h => by
  have r := ratio2 h
  have fn : Fine (t / lit 0.5) 2 := ⟨r.1, by rw [r.2, abs_of_nonneg (by linarith [h.lo])]; linarith [h.hi]⟩
  have n := Apx.var fn
  have m := Apx.subv fn fineTwo (by norm_num)
  rw [r.2] at n
  rw [r.2, realTwo, abs_sub_comm, abs_of_nonneg (by linarith [h.hi] : 0 ≤ 2 - 2 * t.toReal)] at m
  have s := over1.mul over2 (by norm_num) (by norm_num)
  unfold glm_ease_back_inout
  dsimp only
  have e : (0.5 : ℝ) = 1 / 2 := by norm_num
  have e' : (t.toReal / (lit 0.5 : ℝ) : ℝ) = 2 * t.toReal := by simp only [lit_real]; norm_num; ring
  simp only [before r.1 fineOne.1, flt_real, r.2, toReal_lit_one.2, decide_eq_true_eq, e']
  rw [show (lit 1 : ℝ) = 1 by norm_num [lit_real]]
  split_ifs with c
  · refine done (oneHalf.mul ((n.mul n (by norm_num) (by norm_num)).mul (((s.add Apx.one (by norm_num) (by norm_num)).mul n (by norm_num) (by norm_num)).sub s (by norm_num) (by norm_num)) (by norm_num) (by norm_num)) (by norm_num) (by norm_num)) 9 (31 / 10) 55 (by simp only [lit_real]; norm_num) (by norm_num) (by norm_num) ?_ (by norm_num) (by norm_num)
    rw [abs_of_nonneg (by linarith [h.lo] : 0 ≤ 2 * t.toReal)]
    have y0 : 0 ≤ 2 * t.toReal := by linarith [h.lo]
    generalize 2 * t.toReal = y at *
    pows y, y0, c.le
  · refine done (oneHalf.mul (((m.mul m (by norm_num) (by norm_num)).mul (((s.add Apx.one (by norm_num) (by norm_num)).mul m (by norm_num) (by norm_num)).add s (by norm_num) (by norm_num)) (by norm_num) (by norm_num)).add Apx.two (by norm_num) (by norm_num)) (by norm_num) (by norm_num)) 13 (41 / 10) 55 (by simp only [lit_real]; norm_num) (by norm_num) (by norm_num) ?_ (by norm_num) (by norm_num)
    have y0 : 0 ≤ 2 - 2 * t.toReal := by linarith [h.hi]
    have y1 : 2 - 2 * t.toReal ≤ 1 := by linarith [not_lt.mp c]
    generalize 2 - 2 * t.toReal = y at *
    pows y, y0, y1

/-! ### the circular functions -/

omit [Libm] in
private theorem grid_below_one {q : ℚ} (h : Rep q) (h1 : 1 / 2 ≤ q) : ∃ n : ℤ, q = n * 2 ^ (-24 : ℤ) := by
  obtain ⟨m, e, hm, -, -, rfl⟩ := h
  have he : -24 ≤ e := by
    by_contra c
    have : (2 : ℚ) ^ e ≤ 2 ^ (-25 : ℤ) := zpow_le_zpow_right₀ (by norm_num) (by omega)
    have hm' : (m : ℚ) < 2 ^ 24 := by have := (abs_lt.mp hm).2; exact_mod_cast this
    have p := two_zpow_pos e
    have := mul_lt_mul_of_pos_right hm' p
    norm_num at *
    linarith
  refine ⟨m * 2 ^ (e + 24).toNat, ?_⟩
  push_cast
  rw [mul_assoc, ← zpow_natCast, ← zpow_add₀ (by norm_num), Int.toNat_of_nonneg (by omega)]
  congr 2
  omega

omit [Libm] in
private theorem ulp_in {q : ℚ} (k : ℤ) (hk : -126 ≤ k) (h0 : 2 ^ k ≤ q) (h1 : q < 2 ^ (k + 1)) : ulpExp q = k - 23 := by
  have qp : 0 < q := lt_of_lt_of_le (two_zpow_pos k) h0
  have : Int.log 2 |q| = k := by
    rw [abs_of_pos qp]
    apply le_antisymm
    · have := (Int.lt_zpow_iff_log_lt (b := 2) (by norm_num) (x := k + 1) qp).mp (by exact_mod_cast h1)
      omega
    · exact (Int.zpow_le_iff_le_log (b := 2) (by norm_num) qp).mp (by exact_mod_cast h0)
  unfold ulpExp
  rw [this]
  omega

omit [Libm] in
/-- near 1 a square rounded to multiples of `2^-24` is rounded to `2 y - 1` or to something closer -/
private theorem square_err {y r : ℚ} {m : ℤ} (h : Rep y) (h0 : 3 / 4 ≤ y) (hm : r = m * 2 ^ (-24 : ℤ)) (e : |r - y * y| ≤ 2 ^ (-24 : ℤ) / 2) :
    |r - y * y| ≤ (1 - y) * (1 - y) := by
  obtain ⟨n, hn⟩ := grid_below_one h (by linarith)
  have d : 0 ≤ (1 - y) * (1 - y) := mul_self_nonneg _
  by_cases c : m = 2 * n - 2 ^ 24
  · have : r = 2 * y - 1 := by
      rw [hm, c, hn]; push_cast; norm_num; ring
    rw [this, abs_le]
    constructor <;> linarith
  · have far : (2 : ℚ) ^ (-24 : ℤ) ≤ |r - (2 * y - 1)| := by
      have k : r - (2 * y - 1) = ((m - (2 * n - 2 ^ 24) : ℤ) : ℚ) * 2 ^ (-24 : ℤ) := by rw [hm, hn]; push_cast; norm_num; ring
      rw [k, abs_mul, abs_of_pos (two_zpow_pos _)]
      have : (1 : ℚ) ≤ |((m - (2 * n - 2 ^ 24) : ℤ) : ℚ)| := by
        have := Int.one_le_abs (sub_ne_zero.mpr c); exact_mod_cast this
      exact le_mul_of_one_le_left (two_zpow_pos _).le this
    have t := abs_add_le (r - y * y) (y * y - (2 * y - 1))
    rw [sub_add_sub_cancel, abs_of_nonneg (by linarith : 0 ≤ y * y - (2 * y - 1))] at t
    clear hn hm
    generalize (2 : ℚ) ^ (-24 : ℤ) = w at *
    linarith

omit [Libm] in
private theorem square_one {q : ℚ} (h : Rep q) (h0 : 3 / 4 ≤ q) (h1 : q ≤ 1) : |rnd (q * q) - q * q| ≤ (1 - q) * (1 - q) := by
  rcases eq_or_lt_of_le h1 with rfl | h1
  · rw [mul_one, rnd_rep rep_one]; norm_num
  have u := ulp_in (q := q * q) (-1) (by norm_num) (by norm_num; nlinarith) (by norm_num; nlinarith)
  obtain ⟨m, -, hm⟩ := rnd_bits (q * q)
  have e := rnd_err_ulp (q * q)
  rw [u] at hm e
  exact square_err h h0 hm e

omit [Libm] in
private theorem square_half {q : ℚ} (h : Rep q) (h0 : 3 / 8 ≤ q) (h1 : q < 1 / 2) : |4 * rnd (q * q) - 2 * q * (2 * q)| ≤ (1 - 2 * q) * (1 - 2 * q) := by
  have u := ulp_in (q := q * q) (-3) (by norm_num) (by norm_num; nlinarith) (by norm_num; nlinarith)
  obtain ⟨m, -, hm⟩ := rnd_bits (q * q)
  have e := rnd_err_ulp (q * q)
  rw [u] at hm e
  have r := rep_scale h 1 (by norm_num) (by rw [zpow_one, abs_of_nonneg (by linarith)]; norm_num; linarith)
  rw [zpow_one] at r
  refine square_err (m := m) r (by linarith) (by rw [hm]; norm_num; ring) ?_
  rw [show 4 * rnd (q * q) - 2 * q * (2 * q) = 4 * (rnd (q * q) - q * q) by ring, abs_mul]
  norm_num at *
  linarith

omit [Libm] in
private theorem root_err {a b : ℝ} (ha : 0 < a) (hb : 0 ≤ b) : |√b - √a| ≤ |b - a| / √a := by
  have r := Real.sqrt_pos.mpr ha
  rw [le_div_iff₀ r, ← abs_of_pos r, ← abs_mul, abs_of_pos r]
  have e : b - a = (√b - √a) * (√b + √a) := by
    have h1 := Real.mul_self_sqrt hb
    have h2 := Real.mul_self_sqrt ha.le
    linear_combination h2 - h1
  rw [e, abs_mul, abs_mul, abs_of_pos r, abs_of_nonneg (by have := Real.sqrt_nonneg b; linarith : 0 ≤ √b + √a)]
  exact mul_le_mul_of_nonneg_left (by linarith [Real.sqrt_nonneg b]) (abs_nonneg _)

omit [Libm] in
/-- the square, in [0,1] -/
private theorem square {t : F32} (h : Phase t) : (t * t).isFin = true ∧ 0 ≤ (t * t).toReal ∧ (t * t).toReal ≤ 1 ∧ |(t * t).toReal - t.toReal * t.toReal| ≤ ur + 4 * ηr ∧
    (3 / 4 ≤ t.toReal → |(t * t).toReal - t.toReal * t.toReal| ≤ (1 - t.toReal) * (1 - t.toReal)) := by
  have v := Apx.var h.fine
  have q := v.mul v (by norm_num) (by norm_num)
  have m := mul_val q.fin
  have l : 0 ≤ t.val := by have := h.lo; unfold toReal at this; exact_mod_cast this
  have u : t.val ≤ 1 := by have := h.hi; unfold toReal at this; exact_mod_cast this
  have b := rnd_between rep_zero rep_one (mul_nonneg l l) (mul_le_one₀ u l u)
  rw [← m] at b
  refine ⟨q.fin, ?_, ?_, ?_, fun g => ?_⟩
  · unfold toReal; exact_mod_cast b.1
  · unfold toReal; exact_mod_cast b.2
  · have e := q.err
    norm_num at e
    have : t.toReal * t.toReal ≤ 1 := mul_le_one₀ h.hi h.lo h.hi
    have := mul_le_mul_of_nonneg_left this ur_pos.le
    have : 0 < ηr := by norm_num [ηr]
    linarith
  · have e := square_one (rep_val t) (by unfold toReal at g; have : ((3 / 4 : ℚ) : ℝ) ≤ t.val := by push_cast; exact g
                                         exact_mod_cast this) u
    rw [← m] at e
    have := (Rat.cast_le (K := ℝ)).mpr e
    unfold toReal
    push_cast at this
    exact this

omit [Libm] in
private theorem circle {x P G : ℝ} (x0 : 0 ≤ x) (x1 : x ≤ 1) (p1 : P ≤ 1) (e1 : |P - x * x| ≤ ur + 4 * ηr) (e2 : 3 / 4 ≤ x → |P - x * x| ≤ (1 - x) * (1 - x))
    (ge : |G - (1 - P)| ≤ ur * (1 - P)) (g0 : 0 ≤ G) : |√G - √(1 - x * x)| ≤ 1 / 2 ^ 18 * (101 / 100) + 2 * ur := by
  have u0 := ur_pos
  have u1 : ur ≤ 1 / 1000 := by norm_num [ur]
  have xx : x * x ≤ x := mul_le_of_le_one_left x0 x1
  rcases eq_or_lt_of_le x1 with rfl | x1
  · have := e2 (by norm_num)
    norm_num at this
    have : P = 1 := by linarith
    rw [this] at ge
    norm_num at ge
    rw [ge]
    norm_num
    linarith
  have a0 : 0 < 1 - x * x := by linarith
  have r := root_err a0 g0
  set a := 1 - x * x with ha
  have r0 := Real.sqrt_pos.mpr a0
  have rr := Real.mul_self_sqrt a0.le
  have d : |G - a| ≤ 1001 / 1000 * |P - x * x| + ur * a := by
    have t := abs_add_le (G - (1 - P)) (x * x - P)
    rw [show G - (1 - P) + (x * x - P) = G - a by rw [ha]; ring, abs_sub_comm (x * x) P] at t
    have : 1 - P ≤ a + |P - x * x| := by have := neg_abs_le (P - x * x); linarith
    have := mul_le_mul_of_nonneg_left this u0.le
    have := mul_le_mul_of_nonneg_right u1 (abs_nonneg (P - x * x))
    linarith
  refine r.trans ?_
  have s1 : √a ≤ 1 := Real.sqrt_le_one.mpr (by linarith [mul_self_nonneg x])
  have key : |P - x * x| ≤ (1 / 2 ^ 18 * (1001 / 1000)) * √a := by
    have da : 1 - x ≤ a := by linarith
    by_cases c : 1 - x ≤ 1 / 2 ^ 12
    · have := e2 (by norm_num at c; linarith)
      have w : (1 - x) * (1 - x) ≤ 1 / 2 ^ 18 * √(1 - x) := by
        have d0 : 0 ≤ 1 - x := by linarith
        have q := Real.mul_self_sqrt d0
        have q0 := Real.sqrt_nonneg (1 - x)
        have q1 : √(1 - x) ≤ 1 / 2 ^ 6 := by
          rw [show (1 / 2 ^ 6 : ℝ) = √(1 / 2 ^ 12) by rw [show (1 / 2 ^ 12 : ℝ) = (1 / 2 ^ 6) * (1 / 2 ^ 6) by norm_num, Real.sqrt_mul_self (by norm_num)]]
          exact Real.sqrt_le_sqrt c
        generalize √(1 - x) = z at *
        rw [← q]
        have z3 : z ^ 3 ≤ (1 / 2 ^ 6) ^ 3 := pow_le_pow_left₀ q0 q1 3
        have := mul_le_mul_of_nonneg_right z3 q0
        norm_num at *
        linarith
      have w2 : √(1 - x) ≤ √a := Real.sqrt_le_sqrt da
      linarith
    · have z : 1 / 2 ^ 6 ≤ √a := by
        rw [show (1 / 2 ^ 6 : ℝ) = √(1 / 2 ^ 12) by rw [show (1 / 2 ^ 12 : ℝ) = (1 / 2 ^ 6) * (1 / 2 ^ 6) by norm_num, Real.sqrt_mul_self (by norm_num)]]
        exact Real.sqrt_le_sqrt (by linarith)
      refine e1.trans ?_
      have : ur + 4 * ηr ≤ (1 / 2 ^ 18 * (1001 / 1000)) * (1 / 2 ^ 6) := by norm_num [ur, ηr]
      linarith [mul_le_mul_of_nonneg_left z (by norm_num : (0 : ℝ) ≤ 1 / 2 ^ 18 * (1001 / 1000))]
  rw [div_le_iff₀ r0]
  have k2 : ur * a ≤ ur * √a := by
    have := mul_le_of_le_one_left r0.le s1
    rw [rr] at this
    exact mul_le_mul_of_nonneg_left this u0.le
  have k3 : 0 ≤ ur * √a := mul_nonneg u0.le r0.le
  linarith

private theorem root_apx {g : F32} (gf : g.isFin = true) (g0 : 0 ≤ g.toReal) (g1 : g.toReal ≤ 1 + 5 * ur) :
    (sqrtf g).isFin = true ∧ |(sqrtf g).toReal - √g.toReal| ≤ 2 * ur ∧ 0 ≤ (sqrtf g).toReal ∧ (sqrtf g).toReal ≤ 2 := by
  have f := Fine.sqrt gf g0
  have e := sqrt_err f
  rw [← sqrtf_f32] at f e
  have s : √g.toReal ≤ 1 + 5 * ur := by
    rw [Real.sqrt_le_left (by linarith [ur_pos])]
    have := ur_pos
    nlinarith
  have s0 := Real.sqrt_nonneg g.toReal
  have u1 : ur ≤ 1 / 1000 := by norm_num [ur]
  have := mul_le_mul_of_nonneg_left s ur_pos.le
  have := mul_le_mul_of_nonneg_left u1 ur_pos.le
  have := mul_le_mul_of_nonneg_right u1 s0
  obtain ⟨ea, eb⟩ := abs_le.mp e
  exact ⟨f, by linarith, by linarith, by linarith⟩

/-- `1 - sqrt(1 - p)` for `p` close to the square of `x` -/
private theorem quarter {p : F32} {x : ℝ} (x0 : 0 ≤ x) (x1 : x ≤ 1) (pf : p.isFin = true) (p0 : 0 ≤ p.toReal) (p1 : p.toReal ≤ 1) (e1 : |p.toReal - x * x| ≤ ur + 4 * ηr)
    (e2 : 3 / 4 ≤ x → |p.toReal - x * x| ≤ (1 - x) * (1 - x)) :
    (lit 1 - sqrtf (lit 1 - p)).isFin = true ∧ |(lit 1 - sqrtf (lit 1 - p)).toReal - (1 - √(1 - x * x))| ≤ 1 / 2 ^ 18 * (101 / 100) + 5 * ur := by
  have u0 := ur_pos
  have gq := Apx.subv fineOne ⟨pf, by rw [abs_of_nonneg p0]; exact p1⟩ (B := 1) (by norm_num)
  have gf := gq.fin
  have ge := gq.err
  have g0 : 0 ≤ (lit 1 - p).toReal := by
    have := rnd_nonneg (q := (lit 1 : F32).val - p.val) (by
      have h1 : ((lit 1 : F32).val : ℝ) = 1 := toReal_lit_one.2
      have h2 : ((p.val : ℚ) : ℝ) ≤ 1 := p1
      rw [← h1] at h2
      have : p.val ≤ (lit 1 : F32).val := by exact_mod_cast h2
      linarith)
    unfold toReal
    rw [sub_val gf]
    exact_mod_cast this
  rw [toReal_lit_one.2] at ge
  norm_num at ge
  rw [abs_of_nonneg (by linarith : 0 ≤ 1 - p.toReal)] at ge
  have g1 : (lit 1 - p).toReal ≤ 1 + 5 * ur := by
    have := (abs_le.mp ge).2
    have := mul_le_mul_of_nonneg_left (by linarith : 1 - p.toReal ≤ 1) u0.le
    linarith
  have c := circle x0 x1 p1 e1 e2 ge g0
  obtain ⟨rf, re, r0, r2⟩ := root_apx gf g0 g1
  have q := Apx.subv fineOne (B := 2) ⟨rf, by rw [abs_of_nonneg r0]; exact r2⟩ (by norm_num)
  have qe := q.err
  rw [toReal_lit_one.2] at qe
  norm_num at qe
  refine ⟨q.fin, ?_⟩
  generalize (sqrtf (lit 1 - p)).toReal = R at *
  generalize (lit 1 - sqrtf (lit 1 - p)).toReal = F at *
  generalize √(lit 1 - p : F32).toReal = G at *
  have m : |1 - R| ≤ 1 := abs_le.mpr ⟨by linarith, by linarith⟩
  have := mul_le_mul_of_nonneg_left m u0.le
  have t1 := abs_add_le (F - (1 - R)) (G - R)
  have t2 := abs_add_le (F - (1 - R) + (G - R)) (√(1 - x * x) - G)
  rw [abs_sub_comm] at re
  rw [abs_sub_comm] at c
  rw [show F - (1 - R) + (G - R) + (√(1 - x * x) - G) = F - (1 - √(1 - x * x)) by ring] at t2
  linarith

theorem C92_circ_in (t : F32) (h : Phase t) : (glm_ease_circ_in t).isFin = true ∧ |(glm_ease_circ_in t).toReal - glm_ease_circ_in t.toReal| ≤ 1 / 2 ^ 17 := by
  obtain ⟨pf, p0, p1, e1, e2⟩ := square h
  have q := quarter h.lo h.hi pf p0 p1 e1 e2
  have e : glm_ease_circ_in t.toReal = 1 - √(1 - t.toReal * t.toReal) := by simp only [cglm] <;> norm_num
  rw [e]
  exact ⟨q.1, q.2.trans (by norm_num [ur])⟩

omit [Libm] in
/-- a square root of a number with a relative error -/
private theorem root_rel {a G c : ℝ} {k : ℕ} (hk : k ≤ 4) (a0 : 0 ≤ a) (a1 : a ≤ 1) (g0 : 0 ≤ G) (hc : c ≤ 100) (e : |G - a| ≤ ((1 + ur) ^ k - 1) * a + c * ηr) : |√G - √a| ≤ 5 * ur ∧ G ≤ 1 + 5 * ur := by
  have u0 := ur_pos
  have pk := Apx.pow_le (k := k) (by omega)
  have k' : (k : ℝ) ≤ 4 := by exact_mod_cast hk
  have p : (1 + ur) ^ k - 1 ≤ 41 / 10 * ur := by
    have := mul_le_mul_of_nonneg_right (by linarith : 1001 / 1000 * (k : ℝ) ≤ 41 / 10) u0.le
    linarith
  have := mul_le_mul_of_nonneg_right p a0
  have cη : c * ηr ≤ 1 / 2 ^ 140 := by
    have := mul_le_mul_of_nonneg_right hc (by norm_num [ηr] : 0 ≤ ηr)
    have : 100 * ηr ≤ 1 / 2 ^ 140 := by norm_num [ηr]
    linarith
  have ua : ur * a ≤ ur := mul_le_of_le_one_right u0.le a1
  have tiny : (1 : ℝ) / 2 ^ 140 ≤ 1 / 10 * ur := by norm_num [ur]
  refine ⟨?_, by have := (abs_le.mp e).2; linarith⟩
  by_cases s : a ≤ 1 / 2 ^ 60
  · have : G ≤ 1 / 2 ^ 58 := by
      have := (abs_le.mp e).2
      have : ur * a ≤ a := mul_le_of_le_one_left a0 (by norm_num [ur])
      have : (1 : ℝ) / 2 ^ 140 + 6 * (1 / 2 ^ 60) ≤ 2 * (1 / 2 ^ 58) := by norm_num
      have h1 : 41 / 10 * ur * a ≤ 1 / 2 ^ 60 := by
        have : 41 / 10 * ur ≤ 1 := by norm_num [ur]
        have := mul_le_of_le_one_left a0 this
        linarith
      have : (1 : ℝ) / 2 ^ 140 + 2 * (1 / 2 ^ 60) ≤ 1 / 2 ^ 58 := by norm_num
      linarith
    have r : ∀ {z : ℝ}, z ≤ 1 / 2 ^ 58 → √z ≤ ur := fun hz => by
      refine (Real.sqrt_le_sqrt hz).trans ?_
      rw [show (1 / 2 ^ 58 : ℝ) = (1 / 2 ^ 29) * (1 / 2 ^ 29) by norm_num, Real.sqrt_mul_self (by norm_num)]
      norm_num [ur]
    have h1 := r this
    have h2 := r (s.trans (by norm_num))
    rw [abs_le]
    constructor <;> linarith [Real.sqrt_nonneg G, Real.sqrt_nonneg a]
  · have ap : 0 < a := lt_trans (by norm_num) (not_le.mp s)
    refine (root_err ap g0).trans ?_
    have r0 := Real.sqrt_pos.mpr ap
    have rr := Real.mul_self_sqrt a0
    have r1 : √a ≤ 1 := Real.sqrt_le_one.mpr a1
    have ra := mul_le_of_le_one_left r0.le r1
    rw [rr] at ra
    rw [div_le_iff₀ r0]
    have : (1 : ℝ) / 2 ^ 140 ≤ 1 / 10 * (ur * a) := by
      have := mul_le_mul_of_nonneg_left (not_le.mp s).le u0.le
      have : (1 : ℝ) / 2 ^ 140 ≤ 1 / 10 * (ur * (1 / 2 ^ 60)) := by norm_num [ur]
      linarith
    have := mul_le_mul_of_nonneg_left ra u0.le
    have := mul_nonneg u0.le r0.le
    linarith

omit [Libm] in
private theorem mul_pos' {a b : F32} (h : (a * b).isFin = true) (ha : 0 ≤ a.toReal) (hb : 0 ≤ b.toReal) : 0 ≤ (a * b).toReal := by
  unfold toReal at *
  rw [mul_val h]
  exact_mod_cast rnd_nonneg (mul_nonneg (by exact_mod_cast ha) (by exact_mod_cast hb))

omit [Libm] in
private theorem sub_pos' {a b : F32} (h : (a - b).isFin = true) (hb : b.toReal ≤ a.toReal) : 0 ≤ (a - b).toReal := by
  unfold toReal at *
  rw [sub_val h]
  exact_mod_cast rnd_nonneg (sub_nonneg.mpr (by exact_mod_cast hb))

/-- the square root of an approximation -/
private theorem root {g : F32} {a M A c : ℝ} {k : ℕ} (h : Apx g a M k A c) (hk : k ≤ 4) (hM : M = a) (hc : c ≤ 100) (a1 : a ≤ 1) (g0 : 0 ≤ g.toReal) :
    (sqrtf g).isFin = true ∧ |(sqrtf g).toReal - √a| ≤ 7 * ur ∧ 0 ≤ (sqrtf g).toReal ∧ (sqrtf g).toReal ≤ 2 := by
  subst hM
  obtain ⟨e, g1⟩ := root_rel hk h.M0 a1 g0 hc h.err
  obtain ⟨rf, re, r0, r2⟩ := root_apx h.fin g0 g1
  refine ⟨rf, ?_, r0, r2⟩
  have t := abs_add_le ((sqrtf g).toReal - √g.toReal) (√g.toReal - √M)
  rw [sub_add_sub_cancel] at t
  linarith

theorem C92_circ_out : EaseNear glm_ease_circ_out glm_ease_circ_out 7 := fun t h => by
  have x0 := h.lo
  have x1 := h.hi
  have x := Apx.subv fineTwo h.fine (by norm_num)
  rw [realTwo, abs_of_nonneg (by linarith : 0 ≤ 2 - t.toReal)] at x
  have q := x.mul (Apx.var h.fine) (by norm_num) (by norm_num)
  have r := root q (by norm_num) (by rw [abs_of_nonneg x0]) (by norm_num) (by nlinarith [sq_nonneg (1 - t.toReal)])
    (mul_pos' q.fin (sub_pos' x.fin (by rw [realTwo]; linarith)) x0)
  have e : glm_ease_circ_out t.toReal = √((2 - t.toReal) * t.toReal) := by simp only [cglm] <;> norm_num
  rw [e]
  refine ⟨r.1, r.2.1.trans ?_⟩
  norm_num

private theorem quad4 {t : F32} (h : Phase t) (c : t.toReal < 1 / 2) : (lit 4 * (t * t)).isFin = true ∧ 0 ≤ (lit 4 * (t * t)).toReal ∧ (lit 4 * (t * t)).toReal ≤ 1 ∧
    |(lit 4 * (t * t)).toReal - 2 * t.toReal * (2 * t.toReal)| ≤ ur + 4 * ηr ∧
    (3 / 4 ≤ 2 * t.toReal → |(lit 4 * (t * t)).toReal - 2 * t.toReal * (2 * t.toReal)| ≤ (1 - 2 * t.toReal) * (1 - 2 * t.toReal)) := by
  have v := Apx.var h.fine
  have q := v.mul v (by norm_num) (by norm_num)
  have m := mul_val q.fin
  have l : 0 ≤ t.val := by have := h.lo; unfold toReal at this; exact_mod_cast this
  have u : t.val < 1 / 2 := by
    have : ((t.val : ℚ) : ℝ) < ((1 / 2 : ℚ) : ℝ) := by push_cast; exact c
    exact_mod_cast this
  have b0 := rnd_nonneg (mul_nonneg l l)
  have b1 := rnd_le_of_le (x := t.val * t.val) (y := 1 / 4) (rep_dyadic 1 (-2) (by norm_num) (by norm_num) (by norm_num) (by norm_num)) (by nlinarith)
  have z : Has (lit 4 : F32) 4 := .lit (by simpa using rep_nat 4 (by norm_num))
  rw [← m] at b0 b1
  have r := rep_scale (rep_val (t * t)) 2 (by norm_num) (by rw [abs_of_nonneg (mul_nonneg (by norm_num) b0)]; norm_num; linarith)
  have k := z.mul_exact (.of q.fin) (by norm_num at r; exact r)
  have kv : (lit 4 * (t * t)).toReal = 4 * (t * t).toReal := by unfold toReal; rw [k.2]; push_cast; rfl
  refine ⟨k.1, ?_, ?_, ?_, fun g => ?_⟩
  · rw [kv]; unfold toReal; exact mul_nonneg (by norm_num) (by exact_mod_cast b0)
  · have : (((t * t).val : ℚ) : ℝ) ≤ ((1 / 4 : ℚ) : ℝ) := by exact_mod_cast b1
    rw [kv]; unfold toReal; push_cast at this; linarith
  · have e := q.err
    norm_num at e
    have : t.toReal * t.toReal ≤ 1 / 4 := by nlinarith [h.lo]
    have := mul_le_mul_of_nonneg_left this ur_pos.le
    rw [kv, show 4 * (t * t).toReal - 2 * t.toReal * (2 * t.toReal) = 4 * ((t * t).toReal - t.toReal * t.toReal) by ring, abs_mul]
    norm_num
    linarith
  · have e := square_half (rep_val t) (by
      have : ((3 / 8 : ℚ) : ℝ) ≤ t.val := by push_cast; unfold toReal at g; linarith
      exact_mod_cast this) u
    rw [← m] at e
    have := (Rat.cast_le (K := ℝ)).mpr e
    rw [kv]
    unfold toReal
    push_cast at this
    exact this

private theorem lower {f : F32} {X E : ℝ} (h : f.isFin = true ∧ |f.toReal - X| ≤ E) (hX : |X| ≤ 3) (hE : E ≤ 1) :
    (lit 0.5 * f).isFin = true ∧ |(lit 0.5 * f).toReal - 1 / 2 * X| ≤ 1 / 2 * E + 2 * ur + 2 * ηr := by
  have ff : Fine f 4 := ⟨h.1, by have := abs_add_le (f.toReal - X) X; rw [sub_add_cancel] at this; linarith [h.2]⟩
  have q := oneHalf.mul (Apx.var ff) (by norm_num) (by norm_num)
  refine ⟨q.fin, ?_⟩
  have e := q.err
  norm_num at e
  have t := abs_add_le ((lit 0.5 * f).toReal - 1 / 2 * f.toReal) (1 / 2 * (f.toReal - X))
  rw [show (lit 0.5 * f).toReal - 1 / 2 * f.toReal + 1 / 2 * (f.toReal - X) = (lit 0.5 * f).toReal - 1 / 2 * X by ring, abs_mul (1 / 2 : ℝ)] at t
  norm_num at t
  have := mul_le_mul_of_nonneg_left ff.2 ur_pos.le
  have := h.2
  have : 0 < ηr := by norm_num [ηr]
  linarith

theorem C92_circ_inout (t : F32) (h : Phase t) : (glm_ease_circ_inout t).isFin = true ∧ |(glm_ease_circ_inout t).toReal - glm_ease_circ_inout t.toReal| ≤ 1 / 2 ^ 17 := by
  have x0 := h.lo
  have x1 := h.hi
  unfold glm_ease_circ_inout
  simp only [first h, flt_real, lit_real, decide_eq_true_eq]
  rw [show ((0.5 : ℚ) : ℝ) = 1 / 2 by norm_num]
  split_ifs with c
  · obtain ⟨pf, p0, p1, e1, e2⟩ := quad4 h c
    have q := quarter (x := 2 * t.toReal) (by linarith) (by linarith) pf p0 p1 e1 e2
    have s0 := Real.sqrt_nonneg (1 - 2 * t.toReal * (2 * t.toReal))
    have s1 : √(1 - 2 * t.toReal * (2 * t.toReal)) ≤ 1 := Real.sqrt_le_one.mpr (by nlinarith)
    have r := lower q (abs_le.mpr ⟨by linarith, by linarith⟩) (by norm_num [ur])
    refine ⟨r.1, ?_⟩
    have e : (1 / 2 * (((1 : ℚ) : ℝ) - sqrtf (((1 : ℚ) : ℝ) - ((4 : ℚ) : ℝ) * (t.toReal * t.toReal))) : ℝ) = 1 / 2 * (1 - √(1 - 2 * t.toReal * (2 * t.toReal))) := by
      rw [sqrtf_real]; norm_num; ring_nf
    rw [e]
    exact r.2.trans (by norm_num [ur, ηr])
  · have y0 := not_lt.mp c
    have w := twice h
    have fw : Fine (lit 2 * t) 2 := ⟨w.1, by rw [w.2, abs_of_nonneg (by linarith)]; linarith⟩
    have f3 : Fine (lit 3 : F32) 3 := ⟨by show (ofRat false 3).isFin = true; decide +kernel, by rw [lit_f32]; unfold toReal; rw [show (ofRat false 3).val = 3 by decide +kernel]; norm_num⟩
    have v3 : (lit 3 : F32).toReal = 3 := by rw [lit_f32]; unfold toReal; rw [show (ofRat false 3).val = 3 by decide +kernel]; norm_num
    have a := (Apx.subv fw f3 (by norm_num)).neg
    have b := Apx.subv fw fineOne (by norm_num)
    rw [w.2, v3, abs_sub_comm, abs_of_nonneg (by linarith : 0 ≤ 3 - 2 * t.toReal)] at a
    have bp := sub_pos' b.fin (by rw [toReal_lit_one.2, w.2]; linarith)
    rw [w.2, toReal_lit_one.2, abs_of_nonneg (by linarith : 0 ≤ 2 * t.toReal - 1)] at b
    have ap : 0 ≤ (-(lit 2 * t - lit 3)).toReal := by
      have := a.err
      have := (abs_le.mp this).1
      norm_num at this
      have := mul_le_mul_of_nonneg_left (by linarith : 3 - 2 * t.toReal ≤ 2) ur_pos.le
      have : ur ≤ 1 / 1000 := by norm_num [ur]
      linarith
    have q := a.mul b (by norm_num) (by norm_num)
    obtain ⟨rf, re, r0, r2⟩ := root q (by norm_num) (by ring) (by norm_num) (by nlinarith [sq_nonneg (1 - t.toReal)]) (mul_pos' q.fin ap bp)
    have s := Apx.addv (A := 2) ⟨rf, by rw [abs_of_nonneg r0]; exact r2⟩ fineOne (by norm_num)
    have se := s.err
    rw [toReal_lit_one.2] at se
    norm_num at se
    rw [abs_of_nonneg (by linarith : 0 ≤ (sqrtf (-(lit 2 * t - lit 3) * (lit 2 * t - lit 1))).toReal + 1)] at se
    have s0 := Real.sqrt_nonneg (-(2 * t.toReal - 3) * (2 * t.toReal - 1))
    have s1 : √(-(2 * t.toReal - 3) * (2 * t.toReal - 1)) ≤ 1 := Real.sqrt_le_one.mpr (by nlinarith [sq_nonneg (1 - t.toReal)])
    have k := lower (X := √(-(2 * t.toReal - 3) * (2 * t.toReal - 1)) + 1) (E := 10 * ur) ⟨s.fin, by
      have t1 := abs_add_le ((sqrtf (-(lit 2 * t - lit 3) * (lit 2 * t - lit 1)) + lit 1).toReal - ((sqrtf (-(lit 2 * t - lit 3) * (lit 2 * t - lit 1))).toReal + 1))
        ((sqrtf (-(lit 2 * t - lit 3) * (lit 2 * t - lit 1))).toReal - √(-(2 * t.toReal - 3) * (2 * t.toReal - 1)))
      have := mul_le_mul_of_nonneg_left (by linarith : (sqrtf (-(lit 2 * t - lit 3) * (lit 2 * t - lit 1))).toReal + 1 ≤ 3) ur_pos.le
      generalize (sqrtf (-(lit 2 * t - lit 3) * (lit 2 * t - lit 1))).toReal = R at *
      generalize √(-(2 * t.toReal - 3) * (2 * t.toReal - 1)) = S at *
      rw [show ∀ F : ℝ, F - (R + 1) + (R - S) = F - (S + 1) by intro F; ring] at t1
      linarith⟩ (abs_le.mpr ⟨by linarith, by linarith⟩) (by norm_num [ur])
    refine ⟨k.1, ?_⟩
    have e : (1 / 2 * (sqrtf ((-(((2 : ℚ) : ℝ) * t.toReal - ((3 : ℚ) : ℝ))) * (((2 : ℚ) : ℝ) * t.toReal - ((1 : ℚ) : ℝ))) + ((1 : ℚ) : ℝ)) : ℝ) =
        1 / 2 * (√(-(2 * t.toReal - 3) * (2 * t.toReal - 1)) + 1) := by
      rw [sqrtf_real]; norm_num
    rw [e]
    exact k.2.trans (by norm_num [ur, ηr])

/-! ### the ends -/

/-- starts at 0 and ends at 1, exactly -/
def FloatEnds (f : F32 → F32) : Prop := eq (f (lit 0)) (lit 0) = true ∧ eq (f (lit 1)) (lit 1) = true

theorem C92_ends_quad_in : FloatEnds glm_ease_quad_in := by
  unfold FloatEnds glm_ease_quad_in
  simp only [lit_f32, flt_f32, sqrtf_f32]
  decide +kernel
theorem C92_ends_quad_out : FloatEnds glm_ease_quad_out := by
  unfold FloatEnds glm_ease_quad_out
  simp only [lit_f32, flt_f32, sqrtf_f32]
  decide +kernel
theorem C92_ends_quad_inout : FloatEnds glm_ease_quad_inout := by
  unfold FloatEnds glm_ease_quad_inout
  simp only [lit_f32, flt_f32, sqrtf_f32]
  decide +kernel
theorem C92_ends_cubic_in : FloatEnds glm_ease_cubic_in := by
  unfold FloatEnds glm_ease_cubic_in
  simp only [lit_f32, flt_f32, sqrtf_f32]
  decide +kernel
theorem C92_ends_cubic_out : FloatEnds glm_ease_cubic_out := by
  unfold FloatEnds glm_ease_cubic_out
  simp only [lit_f32, flt_f32, sqrtf_f32]
  decide +kernel
theorem C92_ends_cubic_inout : FloatEnds glm_ease_cubic_inout := by
  unfold FloatEnds glm_ease_cubic_inout
  simp only [lit_f32, flt_f32, sqrtf_f32]
  decide +kernel
theorem C92_ends_quart_in : FloatEnds glm_ease_quart_in := by
  unfold FloatEnds glm_ease_quart_in
  simp only [lit_f32, flt_f32, sqrtf_f32]
  decide +kernel
theorem C92_ends_quart_out : FloatEnds glm_ease_quart_out := by
  unfold FloatEnds glm_ease_quart_out
  simp only [lit_f32, flt_f32, sqrtf_f32]
  decide +kernel
theorem C92_ends_quart_inout : FloatEnds glm_ease_quart_inout := by
  unfold FloatEnds glm_ease_quart_inout
  simp only [lit_f32, flt_f32, sqrtf_f32]
  decide +kernel
theorem C92_ends_quint_in : FloatEnds glm_ease_quint_in := by
  unfold FloatEnds glm_ease_quint_in
  simp only [lit_f32, flt_f32, sqrtf_f32]
  decide +kernel
theorem C92_ends_quint_out : FloatEnds glm_ease_quint_out := by
  unfold FloatEnds glm_ease_quint_out
  simp only [lit_f32, flt_f32, sqrtf_f32]
  decide +kernel
theorem C92_ends_quint_inout : FloatEnds glm_ease_quint_inout := by
  unfold FloatEnds glm_ease_quint_inout
  simp only [lit_f32, flt_f32, sqrtf_f32]
  decide +kernel
theorem C92_ends_circ_in : FloatEnds glm_ease_circ_in := by
  unfold FloatEnds glm_ease_circ_in
  simp only [lit_f32, flt_f32, sqrtf_f32]
  decide +kernel
theorem C92_ends_circ_out : FloatEnds glm_ease_circ_out := by
  unfold FloatEnds glm_ease_circ_out
  simp only [lit_f32, flt_f32, sqrtf_f32]
  decide +kernel
theorem C92_ends_circ_inout : FloatEnds glm_ease_circ_inout := by
  unfold FloatEnds glm_ease_circ_inout
  simp only [lit_f32, flt_f32, sqrtf_f32]
  decide +kernel
theorem C92_ends_back_in : FloatEnds glm_ease_back_in := by
  unfold FloatEnds glm_ease_back_in
  simp only [lit_f32, flt_f32, sqrtf_f32]
  decide +kernel
theorem C92_ends_back_out : FloatEnds glm_ease_back_out := by
  unfold FloatEnds glm_ease_back_out
  simp only [lit_f32, flt_f32, sqrtf_f32]
  decide +kernel
theorem C92_ends_back_inout : FloatEnds glm_ease_back_inout := by
  unfold FloatEnds glm_ease_back_inout
  simp only [lit_f32, flt_f32, sqrtf_f32]
  decide +kernel
theorem C92_ends_bounce_in : FloatEnds glm_ease_bounce_in := by
  unfold FloatEnds glm_ease_bounce_in
  simp only [lit_f32, flt_f32, sqrtf_f32, glm_ease_bounce_out]
  decide +kernel
theorem C92_ends_bounce_out : FloatEnds glm_ease_bounce_out := by
  unfold FloatEnds glm_ease_bounce_out
  simp only [lit_f32, flt_f32, sqrtf_f32]
  decide +kernel

/-- The bounce leaves [0,1]: at the last float before 1 it is above 1. -/
theorem C92_bounce_refuted : ¬ ∀ t : F32, Phase t → (glm_ease_bounce_out t).toReal ≤ 1 := by
  intro h
  have v : (ofRat false (1 - 1 / 2 ^ 24)).isFin = true ∧ 0 ≤ (ofRat false (1 - 1 / 2 ^ 24)).val ∧ (ofRat false (1 - 1 / 2 ^ 24)).val ≤ 1 := by decide +kernel
  have t := h (ofRat false (1 - 1 / 2 ^ 24)) ⟨v.1, by unfold toReal; exact_mod_cast v.2.1, by unfold toReal; exact_mod_cast v.2.2⟩
  have k : 1 < (glm_ease_bounce_out (ofRat false (1 - 1 / 2 ^ 24))).val := by
    unfold glm_ease_bounce_out
    simp only [lit_f32, flt_f32]
    decide +kernel
  have : (1 : ℝ) < (glm_ease_bounce_out (ofRat false (1 - 1 / 2 ^ 24))).toReal := by unfold toReal; exact_mod_cast k
  linarith

/-- a float in [0,1] -/
example : Phase (lit 0.5 : F32) := ⟨oneHalf.fin, by rw [realHalf]; norm_num, by rw [realHalf]; norm_num⟩

end Cglm
