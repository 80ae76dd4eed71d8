import Verif.F32Apx
import Verif.Props.C44
import Verif.Props.C65

/-!
# C91: cubic curves in binary32

The ends are exact, the error is a few rounding units of the largest control value, and the curve leaves the convex hull by no more than that.
-/

namespace Cglm
open F32

variable [Libm]

private theorem three : Apx (lit 3 : F32) 3 3 0 3 0 := by
  have h : (F32.ofRat false 3).isFin = true := by decide +kernel
  have h2 : (F32.ofRat false 3).val = 3 := by decide +kernel
  exact ⟨h, by rw [lit_f32]; unfold toReal; rw [h2]; norm_num, by norm_num, le_rfl, le_rfl⟩

omit [Libm] in
/-- `s - s²`: the error is relative to `s` -/
private theorem gap {s : F32} (hs : Fine s 1) (h0 : 0 ≤ s.toReal) :
    Apx (s - s * s) (s.toReal - s.toReal * s.toReal) s.toReal 2 1 2 := by
  have h1 : s.toReal ≤ 1 := (le_abs_self _).trans hs.2
  have q := (Apx.var hs).mul (Apx.var hs) (by norm_num) (by norm_num)
  have g := Apx.subv hs (q.fine (by norm_num)) (by norm_num)
  have e := q.err
  have e' := g.err
  have u0 := ur_pos
  have u1 : ur ≤ 1 / 1000 := by norm_num [ur]
  have η0 : 0 < ηr := by norm_num [ηr]
  norm_num at e e'
  generalize (s * s).toReal = v at *
  have ss : s.toReal * s.toReal ≤ s.toReal := mul_le_of_le_one_left h0 h1
  have s0 : 0 ≤ s.toReal * s.toReal := mul_nonneg h0 h0
  have d : |s.toReal - v| ≤ s.toReal - s.toReal * s.toReal + (ur * (s.toReal * s.toReal) + ηr) := by
    have t := abs_add_le (s.toReal - s.toReal * s.toReal) (s.toReal * s.toReal - v)
    rw [sub_add_sub_cancel, abs_sub_comm (s.toReal * s.toReal) v, abs_of_nonneg (by linarith : 0 ≤ s.toReal - s.toReal * s.toReal)] at t
    linarith
  refine ⟨g.fin, ?_, ?_, h1, by norm_num⟩
  · have t := abs_add_le ((s - s * s).toReal - (s.toReal - v)) (s.toReal * s.toReal - v)
    rw [show (s - s * s).toReal - (s.toReal - v) + (s.toReal * s.toReal - v) = (s - s * s).toReal - (s.toReal - s.toReal * s.toReal) by ring,
      abs_sub_comm (s.toReal * s.toReal) v] at t
    have m := mul_le_mul_of_nonneg_left d u0.le
    have a1 : ur * (ur * (s.toReal * s.toReal)) ≤ ur * ur * s.toReal := by
      have := mul_le_mul_of_nonneg_left ss (mul_nonneg u0.le u0.le); linarith
    have a2 : ur * ηr ≤ ηr := mul_le_of_le_one_left η0.le (by linarith)
    have a3 : 0 ≤ ur * s.toReal := mul_nonneg u0.le h0
    calc _ ≤ _ := t
      _ ≤ (2 * ur + ur * ur) * s.toReal + 2 * ηr := by linarith
      _ = _ := by ring
  · rw [abs_of_nonneg (by linarith)]; linarith

omit [Libm] in
private theorem weigh {p P x : ℝ} (hp : |p| ≤ P) (hx : 0 ≤ x) : |p| * x ≤ P * x := mul_le_mul_of_nonneg_right hp hx

/-- the error on [0,1]: 81 rounding units of the largest magnitude of a control value -/
theorem C91_bezier (s p0 c0 c1 p1 : F32) (P : ℝ) (hs : s.isFin = true) (h0 : 0 ≤ s.toReal) (h1 : s.toReal ≤ 1) (hP : P ≤ 2 ^ 80) (hp0 : Fine p0 P) (hc0 : Fine c0 P)
    (hc1 : Fine c1 P) (hp1 : Fine p1 P) :
    (glm_bezier s p0 c0 c1 p1).isFin = true ∧
    |(glm_bezier s p0 c0 c1 p1).toReal - bernstein p0.toReal c0.toReal c1.toReal p1.toReal s.toReal| ≤ 81 * ur * P + 1 / 2 ^ 60 := by
  have fs : Fine s 1 := ⟨hs, by rw [abs_of_nonneg h0]; exact h1⟩
  have P0 : 0 ≤ P := (abs_nonneg _).trans hp0.2
  have v0 := Apx.var (A := 2 ^ 80) ⟨hp0.1, hp0.2.trans hP⟩
  have v1 := Apx.var (A := 2 ^ 80) ⟨hc0.1, hc0.2.trans hP⟩
  have v2 := Apx.var (A := 2 ^ 80) ⟨hc1.1, hc1.2.trans hP⟩
  have v3 := Apx.var (A := 2 ^ 80) ⟨hp1.1, hp1.2.trans hP⟩
  have vs := Apx.var fs
  have o : Fine (lit 1 : F32) 1 := ⟨toReal_lit_one.1, by rw [toReal_lit_one.2]; norm_num⟩
  have x := Apx.subv o fs (by norm_num)
  rw [toReal_lit_one.2] at x
  have xx := x.mul x (by norm_num) (by norm_num)
  have ss := vs.mul vs (by norm_num) (by norm_num)
  have xs3 := (gap fs h0).mul three (by norm_num) (by norm_num)
  have a := (v0.mul xx (by norm_num) (by norm_num)).add (v1.mul xs3 (by norm_num) (by norm_num)) (by norm_num) (by norm_num)
  have b := ((v2.mul xs3 (by norm_num) (by norm_num)).add (v3.mul ss (by norm_num) (by norm_num)) (by norm_num) (by norm_num)).sub a (by norm_num) (by norm_num)
  have q := a.add (vs.mul b (by norm_num) (by norm_num)) (by norm_num) (by norm_num)
  have s1 : |1 - s.toReal| = 1 - s.toReal := abs_of_nonneg (by linarith)
  have x0 : 0 ≤ (1 - s.toReal) * (1 - s.toReal) := mul_self_nonneg _
  have t0 : 0 ≤ s.toReal * s.toReal := mul_self_nonneg _
  have t1 : s.toReal * s.toReal ≤ s.toReal := mul_le_of_le_one_left h0 h1
  have ma : |p0.toReal| * ((1 - s.toReal) * (1 - s.toReal)) + |c0.toReal| * (s.toReal * 3) ≤ 3 * P := by
    have := weigh hp0.2 x0
    have := weigh hc0.2 (by linarith : 0 ≤ s.toReal * 3)
    have := mul_le_mul_of_nonneg_left (by linarith : (1 - s.toReal) * (1 - s.toReal) + s.toReal * 3 ≤ 3) P0
    linarith
  have mb : |c1.toReal| * (s.toReal * 3) + |p1.toReal| * (s.toReal * s.toReal) ≤ 4 * P := by
    have := weigh hc1.2 (by linarith : 0 ≤ s.toReal * 3)
    have := weigh hp1.2 t0
    have := mul_le_mul_of_nonneg_left (by linarith : s.toReal * 3 + s.toReal * s.toReal ≤ 4) P0
    linarith
  refine q.bound 8 (10 * P) (by unfold bernstein; ring) (by norm_num) (by norm_num) ?_ ?_
  · rw [s1, abs_of_nonneg h0]
    have : s.toReal * ((|c1.toReal| * (s.toReal * 3) + |p1.toReal| * (s.toReal * s.toReal)) + (|p0.toReal| * ((1 - s.toReal) * (1 - s.toReal)) + |c0.toReal| * (s.toReal * 3))) ≤
        1 * (7 * P) := mul_le_mul h1 (by linarith) (by positivity) (by norm_num)
    linarith
  · have : 0 ≤ ur * P := mul_nonneg ur_pos.le P0
    norm_num [ηr]
    linarith

/-- the curve leaves the hull of its control values by at most that -/
theorem C91_bezier_hull (s p0 c0 c1 p1 : F32) (P lo hi : ℝ) (hs : s.isFin = true) (h0 : 0 ≤ s.toReal) (h1 : s.toReal ≤ 1) (hP : P ≤ 2 ^ 80) (hp0 : Fine p0 P) (hc0 : Fine c0 P)
    (hc1 : Fine c1 P) (hp1 : Fine p1 P) (hl : lo ≤ p0.toReal ∧ lo ≤ c0.toReal ∧ lo ≤ c1.toReal ∧ lo ≤ p1.toReal)
    (hh : p0.toReal ≤ hi ∧ c0.toReal ≤ hi ∧ c1.toReal ≤ hi ∧ p1.toReal ≤ hi) :
    lo - (81 * ur * P + 1 / 2 ^ 60) ≤ (glm_bezier s p0 c0 c1 p1).toReal ∧ (glm_bezier s p0 c0 c1 p1).toReal ≤ hi + (81 * ur * P + 1 / 2 ^ 60) := by
  have e := abs_le.mp (C91_bezier s p0 c0 c1 p1 P hs h0 h1 hP hp0 hc0 hc1 hp1).2
  have h := C44_bezier_hull s.toReal p0.toReal c0.toReal c1.toReal p1.toReal lo hi h0 h1 hl hh
  rw [C44_bezier] at h
  constructor <;> linarith [e.1, e.2, h.1, h.2]

/-- the error of a Hermite curve -/
theorem C91_hermite (s p0 t0 t1 p1 : F32) (P T : ℝ) (hs : s.isFin = true) (h0 : 0 ≤ s.toReal) (h1 : s.toReal ≤ 1) (hP : P ≤ 2 ^ 80) (hT : T ≤ 2 ^ 80) (hp0 : Fine p0 P)
    (ht0 : Fine t0 T) (ht1 : Fine t1 T) (hp1 : Fine p1 P) :
    (glm_hermite s p0 t0 t1 p1).isFin = true ∧
    |(glm_hermite s p0 t0 t1 p1).toReal - hermite p0.toReal t0.toReal t1.toReal p1.toReal s.toReal| ≤ (100 * P + 55 * T) * ur + 1 / 2 ^ 60 := by
  have fs : Fine s 1 := ⟨hs, by rw [abs_of_nonneg h0]; exact h1⟩
  have P0 : 0 ≤ P := (abs_nonneg _).trans hp0.2
  have T0 : 0 ≤ T := (abs_nonneg _).trans ht0.2
  have v0 := Apx.var (A := 2 ^ 80) ⟨hp0.1, hp0.2.trans hP⟩
  have v1 := Apx.var (A := 2 ^ 80) ⟨ht0.1, ht0.2.trans hT⟩
  have v2 := Apx.var (A := 2 ^ 80) ⟨ht1.1, ht1.2.trans hT⟩
  have v3 := Apx.var (A := 2 ^ 80) ⟨hp1.1, hp1.2.trans hP⟩
  have vs := Apx.var fs
  have ss := vs.mul vs (by norm_num) (by norm_num)
  have a := ss.add ss (by norm_num) (by norm_num)
  have c := a.add ss (by norm_num) (by norm_num)
  have b := a.mul vs (by norm_num) (by norm_num)
  have d := vs.mul ss (by norm_num) (by norm_num)
  have f := d.sub ss (by norm_num) (by norm_num)
  have e := b.sub c (by norm_num) (by norm_num)
  have q := (((v0.mul (e.add Apx.one (by norm_num) (by norm_num)) (by norm_num) (by norm_num)).add
    (v1.mul ((f.sub ss (by norm_num) (by norm_num)).add vs (by norm_num) (by norm_num)) (by norm_num) (by norm_num)) (by norm_num) (by norm_num)).add
    (v2.mul f (by norm_num) (by norm_num)) (by norm_num) (by norm_num)).sub (v3.mul e (by norm_num) (by norm_num)) (by norm_num) (by norm_num)
  refine q.bound 9 (11 * P + 6 * T) (by unfold hermite; ring) (by norm_num) (by norm_num) ?_ ?_
  · rw [abs_of_nonneg h0]
    have t0' : 0 ≤ s.toReal * s.toReal := mul_self_nonneg _
    have t1' : s.toReal * s.toReal ≤ 1 := (mul_le_of_le_one_left h0 h1).trans h1
    have c0 : 0 ≤ s.toReal * (s.toReal * s.toReal) := mul_nonneg h0 t0'
    have c1 : s.toReal * (s.toReal * s.toReal) ≤ 1 := (mul_le_of_le_one_left t0' h1).trans t1'
    generalize s.toReal * s.toReal = y at *
    generalize s.toReal = x at *
    have c2 : (y + y) * x = 2 * (x * y) := by ring
    rw [c2]
    generalize x * y = z at *
    have k1 : |p0.toReal| * (2 * z + (y + y + y) + 1) ≤ P * 6 := mul_le_mul hp0.2 (by linarith) (by linarith) P0
    have k2 : |t0.toReal| * (z + y + y + x) ≤ T * 4 := mul_le_mul ht0.2 (by linarith) (by linarith) T0
    have k3 : |t1.toReal| * (z + y) ≤ T * 2 := mul_le_mul ht1.2 (by linarith) (by linarith) T0
    have k4 : |p1.toReal| * (2 * z + (y + y + y)) ≤ P * 5 := mul_le_mul hp1.2 (by linarith) (by linarith) P0
    linarith
  · have : 0 ≤ ur * P := mul_nonneg ur_pos.le P0
    have : 0 ≤ ur * T := mul_nonneg ur_pos.le T0
    norm_num [ηr]
    linarith

/-! ### any cubic given by a matrix -/

omit [Libm] in
private theorem coef {a b c d x y z w : F32} {Q C : ℝ} (hQ : Q ≤ 2 ^ 40) (hC : C ≤ 2 ^ 40) (ha : Fine a Q) (hb : Fine b Q) (hc : Fine c Q) (hd : Fine d Q)
    (hx : Fine x C) (hy : Fine y C) (hz : Fine z C) (hw : Fine w C) :
    Apx (a * x + b * y + c * z + d * w) (a.toReal * x.toReal + b.toReal * y.toReal + c.toReal * z.toReal + d.toReal * w.toReal)
      (|a.toReal| * |x.toReal| + |b.toReal| * |y.toReal| + |c.toReal| * |z.toReal| + |d.toReal| * |w.toReal|) 4 (2 ^ 82) 8 ∧
    |a.toReal| * |x.toReal| + |b.toReal| * |y.toReal| + |c.toReal| * |z.toReal| + |d.toReal| * |w.toReal| ≤ 4 * (Q * C) := by
  have v : ∀ {f : F32} {B : ℝ}, B ≤ 2 ^ 40 → Fine f B → Apx f f.toReal |f.toReal| 0 (2 ^ 40) 0 := fun hB h => Apx.var ⟨h.1, h.2.trans hB⟩
  have q := ((((v hQ ha).mul (v hC hx) (by norm_num) (by norm_num)).add ((v hQ hb).mul (v hC hy) (by norm_num) (by norm_num)) (by norm_num) (by norm_num)).add
    ((v hQ hc).mul (v hC hz) (by norm_num) (by norm_num)) (by norm_num) (by norm_num)).add ((v hQ hd).mul (v hC hw) (by norm_num) (by norm_num)) (by norm_num) (by norm_num)
  have Q0 : 0 ≤ Q := (abs_nonneg _).trans ha.2
  have m : ∀ {f g : F32}, Fine f Q → Fine g C → |f.toReal| * |g.toReal| ≤ Q * C := fun h h' => mul_le_mul h.2 h'.2 (abs_nonneg _) Q0
  refine ⟨⟨q.fin, q.err.trans ?_, q.mag, q.le.trans (by norm_num), by norm_num⟩, by linarith [m ha hx, m hb hy, m hc hz, m hd hw]⟩
  norm_num [ηr]

theorem C91_smc (s : F32) (m : M4 F32) (c : V4 F32) (Q C : ℝ) (hs : s.isFin = true) (h0 : 0 ≤ s.toReal) (h1 : s.toReal ≤ 1) (hQ : Q ≤ 2 ^ 40) (hC : C ≤ 2 ^ 40)
    (hm : m.Below Q) (hc : c.Below C) :
    (glm_smc s m c).isFin = true ∧ |(glm_smc s m c).toReal - glm_smc s.toReal (m.map toReal) (c.map toReal)| ≤ 161 * ur * (Q * C) + 1 / 2 ^ 60 := by
  obtain ⟨⟨a1, a2, a3, a4⟩, ⟨b1, b2, b3, b4⟩, ⟨c1, c2, c3, c4⟩, ⟨d1, d2, d3, d4⟩⟩ := hm
  obtain ⟨x1, x2, x3, x4⟩ := hc
  have fs : Fine s 1 := ⟨hs, by rw [abs_of_nonneg h0]; exact h1⟩
  have vs := Apx.var fs
  have ss := vs.mul vs (by norm_num) (by norm_num)
  have sss := ss.mul vs (by norm_num) (by norm_num)
  obtain ⟨r1, m1⟩ := coef hQ hC a1 b1 c1 d1 x1 x2 x3 x4
  obtain ⟨r2, m2⟩ := coef hQ hC a2 b2 c2 d2 x1 x2 x3 x4
  obtain ⟨r3, m3⟩ := coef hQ hC a3 b3 c3 d3 x1 x2 x3 x4
  obtain ⟨r4, m4⟩ := coef hQ hC a4 b4 c4 d4 x1 x2 x3 x4
  have q := (((sss.mul r1 (by norm_num) (by norm_num)).add (ss.mul r2 (by norm_num) (by norm_num)) (by norm_num) (by norm_num)).add (vs.mul r3 (by norm_num) (by norm_num))
    (by norm_num) (by norm_num)).add (Apx.one.mul r4 (by norm_num) (by norm_num)) (by norm_num) (by norm_num)
  have n1 := r1.M0
  have n2 := r2.M0
  have n3 := r3.M0
  have n4 := r4.M0
  have Q0 : 0 ≤ Q := (abs_nonneg _).trans a1.2
  have C0 : 0 ≤ C := (abs_nonneg _).trans x1.2
  have QC : 0 ≤ Q * C := mul_nonneg Q0 C0
  refine q.bound 10 (16 * (Q * C)) (by simp only [cglm, M4.map, V4.map, lit_real]; norm_num) (by norm_num) (by norm_num) ?_ ?_
  · rw [abs_of_nonneg h0]
    have t0 : 0 ≤ s.toReal * s.toReal := mul_self_nonneg _
    have t1 : s.toReal * s.toReal ≤ 1 := (mul_le_of_le_one_left h0 h1).trans h1
    have k1 := mul_le_mul (mul_le_one₀ t1 h0 h1) m1 n1 (by norm_num)
    have k2 := mul_le_mul t1 m2 n2 (by norm_num)
    have k3 := mul_le_mul h1 m3 n3 (by norm_num)
    linarith
  · have : 0 ≤ ur * (Q * C) := mul_nonneg ur_pos.le QC
    norm_num [ηr]
    linarith

/-! ### the ends are exact -/

theorem C91_bezier_start (p0 c0 c1 p1 : F32) (h0 : p0.isFin = true) (h1 : c0.isFin = true) (h2 : c1.isFin = true) (h3 : p1.isFin = true) :
    eq (glm_bezier (lit 0) p0 c0 c1 p1) p0 = true := by
  have e1 : (lit 1 : F32) - lit 0 = lit 1 := by simp only [lit_f32]; decide +kernel
  have e2 : (lit 0 : F32) * lit 0 = lit 0 := by simp only [lit_f32]; decide +kernel
  have e3 : ((lit 0 : F32) - lit 0) * lit 3 = lit 0 := by simp only [lit_f32]; decide +kernel
  have e4 : (lit 1 : F32) * lit 1 = lit 1 := by simp only [lit_f32]; decide +kernel
  unfold glm_bezier
  dsimp only
  rw [e1, e2, e3, e4]
  have z : Has (lit 0 : F32) 0 := .lit rep_zero
  have a := ((Has.of h0).mul_exact (.lit rep_one) (by rw [mul_one]; exact rep_val _)).add_exact ((Has.of h1).mul_exact z (by rw [mul_zero]; exact rep_zero))
    (by rw [mul_one, mul_zero, add_zero]; exact rep_val _)
  have b := ((Has.of h2).mul_exact z (by rw [mul_zero]; exact rep_zero)).add_exact ((Has.of h3).mul_exact z (by rw [mul_zero]; exact rep_zero))
    (by rw [mul_zero, mul_zero, add_zero]; exact rep_zero)
  have c := b.sub_exact a (by simp only [mul_one, mul_zero, add_zero, zero_sub]; exact rep_neg (rep_val p0))
  have d := a.add_exact (z.mul_exact c (by rw [zero_mul]; exact rep_zero)) (by rw [zero_mul, mul_one, mul_zero, add_zero, add_zero]; exact rep_val _)
  exact d.eq (Has.of h0) (by ring)

theorem C91_bezier_end (p0 c0 c1 p1 : F32) (h0 : p0.isFin = true) (h1 : c0.isFin = true) (h2 : c1.isFin = true) (h3 : p1.isFin = true) :
    eq (glm_bezier (lit 1) p0 c0 c1 p1) p1 = true := by
  have e1 : (lit 1 : F32) - lit 1 = lit 0 := by simp only [lit_f32]; decide +kernel
  have e2 : (lit 1 : F32) * lit 1 = lit 1 := by simp only [lit_f32]; decide +kernel
  have e3 : (lit 0 : F32) * lit 0 = lit 0 := by simp only [lit_f32]; decide +kernel
  have e4 : (lit 0 : F32) * lit 3 = lit 0 := by simp only [lit_f32]; decide +kernel
  unfold glm_bezier
  dsimp only
  rw [e2, e1, e3, e4]
  have z : Has (lit 0 : F32) 0 := .lit rep_zero
  have a := ((Has.of h0).mul_exact z (by rw [mul_zero]; exact rep_zero)).add_exact ((Has.of h1).mul_exact z (by rw [mul_zero]; exact rep_zero))
    (by rw [mul_zero, mul_zero, add_zero]; exact rep_zero)
  have b := ((Has.of h2).mul_exact z (by rw [mul_zero]; exact rep_zero)).add_exact ((Has.of h3).mul_exact (.lit rep_one) (by rw [mul_one]; exact rep_val _))
    (by rw [mul_one, mul_zero, zero_add]; exact rep_val _)
  have c := b.sub_exact a (by simp only [mul_one, mul_zero, add_zero, zero_add, sub_zero]; exact rep_val p1)
  have d := a.add_exact ((Has.lit rep_one).mul_exact c (by simp only [mul_one, one_mul, mul_zero, add_zero, zero_add, sub_zero]; exact rep_val _))
    (by simp only [mul_one, one_mul, mul_zero, add_zero, zero_add, sub_zero]; exact rep_val _)
  exact d.eq (Has.of h3) (by ring)

theorem C91_hermite_start (p0 t0 t1 p1 : F32) (h0 : p0.isFin = true) (h1 : t0.isFin = true) (h2 : t1.isFin = true) (h3 : p1.isFin = true) :
    eq (glm_hermite (lit 0) p0 t0 t1 p1) p0 = true := by
  have e1 : (lit 0 : F32) * lit 0 = lit 0 := by simp only [lit_f32]; decide +kernel
  have e2 : (lit 0 : F32) + lit 0 = lit 0 := by simp only [lit_f32]; decide +kernel
  have e3 : (lit 0 : F32) - lit 0 = lit 0 := by simp only [lit_f32]; decide +kernel
  have e4 : (lit 0 : F32) + lit 1 = lit 1 := by simp only [lit_f32]; decide +kernel
  unfold glm_hermite
  dsimp only
  simp only [e1, e2, e3, e4]
  have z : Has (lit 0 : F32) 0 := .lit rep_zero
  have a := (((Has.of h0).mul_exact (.lit rep_one) (by rw [mul_one]; exact rep_val _)).add_exact ((Has.of h1).mul_exact z (by rw [mul_zero]; exact rep_zero))
    (by rw [mul_one, mul_zero, add_zero]; exact rep_val _)).add_exact ((Has.of h2).mul_exact z (by rw [mul_zero]; exact rep_zero))
    (by simp only [mul_one, mul_zero, add_zero]; exact rep_val _)
  have b := a.sub_exact ((Has.of h3).mul_exact z (by rw [mul_zero]; exact rep_zero)) (by simp only [mul_one, mul_zero, add_zero, sub_zero]; exact rep_val _)
  exact b.eq (Has.of h0) (by ring)

theorem C91_hermite_end (p0 t0 t1 p1 : F32) (h0 : p0.isFin = true) (h1 : t0.isFin = true) (h2 : t1.isFin = true) (h3 : p1.isFin = true) :
    eq (glm_hermite (lit 1) p0 t0 t1 p1) p1 = true := by
  have e1 : (lit 1 : F32) * lit 1 = lit 1 := by simp only [lit_f32]; decide +kernel
  have e2 : (lit 1 : F32) - lit 1 = lit 0 := by simp only [lit_f32]; decide +kernel
  have e3 : ((lit 1 : F32) + lit 1) * lit 1 - (lit 1 + lit 1 + lit 1) = ofRat false (-1) := by simp only [lit_f32]; decide +kernel
  have e4 : (ofRat false (-1) : F32) + lit 1 = lit 0 := by simp only [lit_f32]; decide +kernel
  have e5 : (lit 0 : F32) - lit 1 + lit 1 = lit 0 := by simp only [lit_f32]; decide +kernel
  unfold glm_hermite
  dsimp only
  simp only [e1, e2, e3, e4, e5]
  have z : Has (lit 0 : F32) 0 := .lit rep_zero
  have m : Has (ofRat false (-1)) (-1) := ⟨by decide +kernel, by decide +kernel⟩
  have a := (((Has.of h0).mul_exact z (by rw [mul_zero]; exact rep_zero)).add_exact ((Has.of h1).mul_exact z (by rw [mul_zero]; exact rep_zero))
    (by simp only [mul_zero, add_zero]; exact rep_zero)).add_exact ((Has.of h2).mul_exact z (by rw [mul_zero]; exact rep_zero))
    (by simp only [mul_zero, add_zero]; exact rep_zero)
  have b := a.sub_exact ((Has.of h3).mul_exact m (by rw [mul_neg_one]; exact rep_neg (rep_val _))) (by simp only [mul_zero, add_zero, mul_neg_one, zero_sub, neg_neg]; exact rep_val _)
  exact b.eq (Has.of h3) (by ring)

/-- A margin is needed: the constant curve 1 at `s = 0.86f` is above 1. -/
theorem C91_hull_refuted : ¬ ∀ (s p0 c0 c1 p1 : F32) (hi : ℝ), s.isFin = true → 0 ≤ s.toReal → s.toReal ≤ 1 → Fine p0 1 → Fine c0 1 → Fine c1 1 → Fine p1 1 →
    (p0.toReal ≤ hi ∧ c0.toReal ≤ hi ∧ c1.toReal ≤ hi ∧ p1.toReal ≤ hi) → (glm_bezier s p0 c0 c1 p1).toReal ≤ hi := by
  intro h
  have o := toReal_lit_one
  have f1 : Fine (lit 1 : F32) 1 := ⟨o.1, by rw [o.2]; norm_num⟩
  have t := h (ofRat false (86 / 100)) (lit 1) (lit 1) (lit 1) (lit 1) 1 (by decide +kernel)
    (by unfold toReal; exact_mod_cast (show (0 : ℚ) ≤ (ofRat false (86 / 100)).val by decide +kernel)) (by unfold toReal; exact_mod_cast (show (ofRat false (86 / 100)).val ≤ (1 : ℚ) by decide +kernel))
    f1 f1 f1 f1 ⟨o.2.le, o.2.le, o.2.le, o.2.le⟩
  have k : (1 : ℚ) < (glm_bezier (ofRat false (86 / 100)) (lit 1) (lit 1) (lit 1) (lit 1)).val := by
    simp only [cglm, lit_f32]; decide +kernel
  have : (1 : ℝ) < (glm_bezier (ofRat false (86 / 100)) (lit 1) (lit 1) (lit 1) (lit 1)).toReal := by unfold toReal; exact_mod_cast k
  linarith

/-! ### the hypotheses are met -/

/-- the control values 1, 3, 3, 1 -/
example : ∃ (s p c : F32), s.isFin = true ∧ 0 ≤ s.toReal ∧ s.toReal ≤ 1 ∧ Fine p 3 ∧ Fine c 3 ∧ (1 : ℝ) ≤ p.toReal ∧ c.toReal ≤ 3 := by
  refine ⟨lit 1, lit 1, lit 3, toReal_lit_one.1, ?_, ?_, ⟨toReal_lit_one.1, ?_⟩, ⟨three.fin, ?_⟩, ?_, ?_⟩
  all_goals first | rw [toReal_lit_one.2] | rw [show (lit 3 : F32).toReal = 3 by simpa [sub_eq_zero] using three.err]
  all_goals norm_num

end Cglm
