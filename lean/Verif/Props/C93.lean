import Verif.F32Apx
import Verif.F32Order
import Verif.Props.C42

/-!
# C93: ray and sphere in binary32

The code computes the distance of the center from the line of the ray and compares it with the radius.  With `ρ` a bound for the
radius and for the coordinates of the center as seen from the origin of the ray, rounding can change the answer only when that
distance is within `ρ/2^17` of the radius, or when the whole sphere is that close to being behind the origin.
-/

namespace Cglm
open F32

variable [Libm]

/-- the distance of the center of the sphere from the line of the ray -/
noncomputable def lineDist (o d : V3 ℝ) (s : V4 ℝ) : ℝ := ((s.xyz.sub o).sub (d.smul (d.dot (s.xyz.sub o) / d.dot d))).len

/-- the direction is a unit vector up to rounding; `ρ` bounds the radius and the coordinates of the center seen from the origin -/
structure RayBall (o d : V3 F32) (s : V4 F32) (ρ : ℝ) : Prop where
  orig : o.Below (2 ^ 20)
  dir : d.x.isFin = true ∧ d.y.isFin = true ∧ d.z.isFin = true
  unit : |(d.map toReal).dot (d.map toReal) - 1| ≤ 16 * ur
  ball : s.Below (2 ^ 20)
  center : |s.x.toReal - o.x.toReal| ≤ ρ ∧ |s.y.toReal - o.y.toReal| ≤ ρ ∧ |s.z.toReal - o.z.toReal| ≤ ρ
  radius : 0 ≤ s.w.toReal ∧ s.w.toReal ≤ ρ
  size : 1 / 2 ^ 20 ≤ ρ ∧ ρ ≤ 2 ^ 21

omit [Libm] in
private theorem lt_real {a b : F32} (ha : a.isFin = true) (hb : b.isFin = true) : F32.lt a b = true ↔ a.toReal < b.toReal := by
  rw [lt_fin ha hb]; unfold toReal; exact Rat.cast_lt.symm

omit [Libm] in
private theorem le_real {a b : F32} (ha : a.isFin = true) (hb : b.isFin = true) : F32.le a b = true ↔ a.toReal ≤ b.toReal := by
  rw [le_fin ha hb]; unfold toReal; exact Rat.cast_le.symm

omit [Libm] in
private theorem mono {f : F32} {x M M' A A' c : ℝ} {k : ℕ} (h : Apx f x M k A c) (hM : M ≤ M') (hA : M' ≤ A') : Apx f x M' k A' c := by
  refine ⟨h.fin, h.err.trans (add_le_add (mul_le_mul_of_nonneg_left hM ?_) le_rfl), h.mag.trans hM, hA, h.c0⟩
  have := Apx.le_pow k
  have := mul_nonneg (Nat.cast_nonneg k : (0 : ℝ) ≤ k) ur_pos.le
  linarith

omit [Libm] in
/-- two squares that are compared after rounding -/
private theorem squares {X Y x y ρ : ℝ} (ρ0 : 1 / 2 ^ 20 ≤ ρ) (x0 : 0 ≤ x) (x1 : x ≤ 2 * ρ) (y0 : 0 ≤ y) (y1 : y ≤ 2 * ρ) (hX : |X - x * x| ≤ 6 * ur * (x * x) + 1 / 2 ^ 110)
    (hY : |Y - y * y| ≤ 6 * ur * (y * y) + 1 / 2 ^ 110) (h : x + 16 * (ur * ρ) ≤ y) : X + 1 / 2 ^ 85 ≤ Y := by
  have u0 := ur_pos
  have ρp : 0 < ρ := lt_of_lt_of_le (by norm_num) ρ0
  have g0 : 1 / 2 ^ 44 ≤ ur * ρ := by
    have := mul_le_mul_of_nonneg_left ρ0 u0.le
    norm_num [ur] at this ⊢; linarith
  have gp : 0 < ur * ρ := by positivity
  have h1 := mul_le_mul_of_nonneg_left x1 (mul_nonneg u0.le x0)
  have h2 := mul_le_mul_of_nonneg_left y1 (mul_nonneg u0.le y0)
  have h3 : 16 * (ur * ρ) * (x + y) ≤ (y - x) * (x + y) := mul_le_mul_of_nonneg_right (by linarith) (by linarith)
  have h4 : ur * ρ * (16 * (ur * ρ)) ≤ ur * ρ * (x + y) := mul_le_mul_of_nonneg_left (by linarith) gp.le
  have h5 : 1 / 2 ^ 88 ≤ ur * ρ * (ur * ρ) := by
    have := mul_le_mul g0 g0 (by norm_num) gp.le
    norm_num at this ⊢; linarith
  obtain ⟨-, X2⟩ := abs_le.mp hX
  obtain ⟨Y1, -⟩ := abs_le.mp hY
  generalize ur * ρ * (ur * ρ) = w at *
  norm_num at *
  nlinarith

omit [Libm] in
private theorem near_len {a b : V3 ℝ} {g : ℝ} (h1 : |a.x - b.x| ≤ 46 * g) (h2 : |a.y - b.y| ≤ 46 * g) (h3 : |a.z - b.z| ≤ 46 * g) : |a.len - b.len| ≤ 80 * g := by
  have g0 : 0 ≤ g := by have := (abs_nonneg _).trans h1; linarith
  have key : ∀ a b : V3 ℝ, |a.x - b.x| ≤ 46 * g → |a.y - b.y| ≤ 46 * g → |a.z - b.z| ≤ 46 * g → a.len ≤ b.len + 80 * g := by
    intro a b h1 h2 h3
    have l := V3.len_sq a
    have m := V3.len_sq b
    have m0 := V3.len_nonneg b
    refine abs_le_of_sq_le_sq' ?_ (by positivity) |>.2
    have q1 := mul_self_le_mul_self (abs_nonneg _) h1
    have q2 := mul_self_le_mul_self (abs_nonneg _) h2
    have q3 := mul_self_le_mul_self (abs_nonneg _) h3
    rw [abs_mul_abs_self] at q1 q2 q3
    have q : (a.x - b.x) * (a.x - b.x) + (a.y - b.y) * (a.y - b.y) + (a.z - b.z) * (a.z - b.z) ≤ 80 * g * (80 * g) := by nlinarith
    -- Cauchy
    have c : b.x * (a.x - b.x) + b.y * (a.y - b.y) + b.z * (a.z - b.z) ≤ b.len * (80 * g) := by
      refine (abs_le_of_sq_le_sq' ?_ (by positivity)).2
      have : (b.x * (a.x - b.x) + b.y * (a.y - b.y) + b.z * (a.z - b.z)) ^ 2 ≤ b.dot b * ((a.x - b.x) * (a.x - b.x) + (a.y - b.y) * (a.y - b.y) + (a.z - b.z) * (a.z - b.z)) := by
        simp only [V3.dot]
        nlinarith [sq_nonneg (b.x * (a.y - b.y) - b.y * (a.x - b.x)), sq_nonneg (b.x * (a.z - b.z) - b.z * (a.x - b.x)), sq_nonneg (b.y * (a.z - b.z) - b.z * (a.y - b.y))]
      refine this.trans ((mul_le_mul_of_nonneg_left q b.dot_self_nonneg).trans (le_of_eq ?_))
      rw [← m]; ring
    rw [pow_two, l, add_pow_two, pow_two b.len, m]
    simp only [V3.dot]
    nlinarith
  refine abs_le.mpr ⟨?_, ?_⟩
  · have := key b a (by rw [abs_sub_comm]; exact h1) (by rw [abs_sub_comm]; exact h2) (by rw [abs_sub_comm]; exact h3)
    linarith
  · have := key a b h1 h2 h3
    linarith

omit [Libm] in
/-- exact facts about a line and a ball -/
private theorem line {d D : V3 ℝ} {ρ : ℝ} (hu : |d.dot d - 1| ≤ 16 * ur) (h1 : |D.x| ≤ ρ) (h2 : |D.y| ≤ ρ) (h3 : |D.z| ≤ ρ) :
    |d.x| + |d.y| + |d.z| ≤ 174 / 100 ∧ D.len ≤ 174 / 100 * ρ ∧ |d.dot D| ≤ 174 / 100 * ρ ∧ |d.dot D / d.dot d| ≤ 175 / 100 * ρ ∧
    |d.dot D - d.dot D / d.dot d| ≤ 28 * (ur * ρ) ∧
    (D.sub (d.smul (d.dot D / d.dot d))).len * (D.sub (d.smul (d.dot D / d.dot d))).len = D.len * D.len - d.dot D / d.dot d * (d.dot D / d.dot d) * d.dot d ∧
    (D.sub (d.smul (d.dot D / d.dot d))).len ≤ D.len := by
  have u0 := ur_pos
  have u1 : ur ≤ 1 / 100000 := by norm_num [ur]
  have ρ0 := (abs_nonneg _).trans h1
  obtain ⟨a1, a2⟩ := abs_le.mp hu
  have dd0 : 0 < d.dot d := by linarith
  have S : |d.x| + |d.y| + |d.z| ≤ 174 / 100 := by
    refine (abs_le_of_sq_le_sq' ?_ (by norm_num)).2
    have : d.x * d.x + d.y * d.y + d.z * d.z ≤ 1001 / 1000 := by simp only [V3.dot] at a2; linarith
    rw [← abs_mul_abs_self d.x, ← abs_mul_abs_self d.y, ← abs_mul_abs_self d.z] at this
    nlinarith [sq_nonneg (|d.x| - |d.y|), sq_nonneg (|d.x| - |d.z|), sq_nonneg (|d.y| - |d.z|)]
  have L : D.len ≤ 174 / 100 * ρ := by
    refine (abs_le_of_sq_le_sq' ?_ (by positivity)).2
    rw [pow_two, V3.len_sq]
    simp only [V3.dot]
    have q1 := mul_self_le_mul_self (abs_nonneg _) h1
    have q2 := mul_self_le_mul_self (abs_nonneg _) h2
    have q3 := mul_self_le_mul_self (abs_nonneg _) h3
    rw [abs_mul_abs_self] at q1 q2 q3
    nlinarith
  have K : |d.dot D| ≤ 174 / 100 * ρ := by
    simp only [V3.dot]
    have p1 := mul_le_mul_of_nonneg_left h1 (abs_nonneg d.x)
    have p2 := mul_le_mul_of_nonneg_left h2 (abs_nonneg d.y)
    have p3 := mul_le_mul_of_nonneg_left h3 (abs_nonneg d.z)
    rw [← abs_mul] at p1 p2 p3
    have t1 := abs_add_le (d.x * D.x + d.y * D.y) (d.z * D.z)
    have t2 := abs_add_le (d.x * D.x) (d.y * D.y)
    have := mul_le_mul_of_nonneg_right S ρ0
    linarith
  have ab := abs_of_pos dd0
  have K0 : |d.dot D / d.dot d| ≤ 175 / 100 * ρ := by
    rw [abs_div, ab, div_le_iff₀ dd0]
    refine K.trans ?_
    have := mul_le_mul_of_nonneg_left (by linarith : 1 - 16 * ur ≤ d.dot d) (by positivity : 0 ≤ 175 / 100 * ρ)
    have := mul_le_mul_of_nonneg_right u1 ρ0
    linarith
  have E : |d.dot D - d.dot D / d.dot d| ≤ 28 * (ur * ρ) := by
    rw [show d.dot D - d.dot D / d.dot d = d.dot D / d.dot d * (d.dot d - 1) by field_simp, abs_mul]
    calc _ ≤ 175 / 100 * ρ * (16 * ur) := mul_le_mul K0 hu (abs_nonneg _) (by positivity)
      _ = _ := by ring
  have P : (D.sub (d.smul (d.dot D / d.dot d))).len * (D.sub (d.smul (d.dot D / d.dot d))).len = D.len * D.len - d.dot D / d.dot d * (d.dot D / d.dot d) * d.dot d := by
    rw [V3.len_sq, V3.len_sq]
    have : d.dot D / d.dot d * d.dot d = d.dot D := by field_simp
    generalize d.dot D / d.dot d = k at *
    simp only [V3.dot, V3.sub, V3.smul] at *
    linear_combination (2 * k) * this
  refine ⟨S, L, K, K0, E, P, ?_⟩
  refine (abs_le_of_sq_le_sq' ?_ (V3.len_nonneg _)).2
  rw [pow_two, pow_two, P]
  have := mul_nonneg (mul_self_nonneg (d.dot D / d.dot d)) dd0.le
  linarith

omit [Libm] in
private theorem coord_le {v : V3 ℝ} {x : ℝ} (h : x * x ≤ v.dot v) : |x| ≤ v.len := by
  refine abs_le_of_sq_le_sq ?_ (V3.len_nonneg _)
  rw [pow_two, pow_two, V3.len_sq]; exact h

omit [Libm] in
private theorem remedy {x a b c p q r : F32} {ρ X P Q R : ℝ} (ρ1 : ρ ≤ 2 ^ 21) (ρ0 : 1 / 2 ^ 20 ≤ ρ) (ha : Fine a 2) (hb : Fine b 2) (hc : Fine c 2) (hf : Fine x 2)
    (S : |a.toReal| + |b.toReal| + |c.toReal| ≤ 174 / 100) (hx : |x.toReal| ≤ 101 / 100)
    (hp : Apx p P ρ 1 (2 ^ 21) 0) (hq : Apx q Q ρ 1 (2 ^ 21) 0) (hr : Apx r R ρ 1 (2 ^ 21) 0) {y : F32} (hy : Apx y X ρ 1 (2 ^ 21) 0) :
    (y - x * (a * p + b * q + c * r)).isFin = true ∧ |(y - x * (a * p + b * q + c * r)).toReal - (X - x.toReal * (a.toReal * P + b.toReal * Q + c.toReal * R))| ≤ 17 * (ur * ρ) := by
  have a' := Apx.var ha
  have b' := Apx.var hb
  have c' := Apx.var hc
  have x' := Apx.var hf
  have g0 : 1 / 2 ^ 44 ≤ ur * ρ := by
    have := mul_le_mul_of_nonneg_left ρ0 ur_pos.le
    norm_num [ur] at this ⊢; linarith
  have ρp : 0 < ρ := lt_of_lt_of_le (by norm_num) ρ0
  apply Apx.bound 6 (276 / 100 * ρ)
  · apx <;> norm_num
  · rfl
  · norm_num
  · norm_num
  · have h1 := mul_le_mul_of_nonneg_right S ρp.le
    have h2 := mul_le_mul hx h1 (by positivity) (by norm_num)
    nlinarith
  · norm_num [ηr]
    norm_num at g0
    linarith

omit [Libm] in
/-- the numbers that the code computes before the first comparison -/
private theorem core {o d : V3 F32} {s : V4 F32} {ρ : ℝ} (h : RayBall o d s ρ) :
    let O := o.map toReal; let E := d.map toReal; let B := s.map toReal; let D := B.xyz.sub O
    let dp := glm_vec3_sub ⟨s.x, s.y, s.z⟩ o; let ddp := glm_vec3_dot d dp; let n := glm_vec3_norm2 (glm_vec3_mulsubs d ddp dp)
    (ddp.isFin = true ∧ |ddp.toReal - E.dot D| ≤ 8 * (ur * ρ)) ∧
    ((glm_vec3_norm2 dp).isFin = true ∧ |(glm_vec3_norm2 dp).toReal - D.len * D.len| ≤ 51 / 10 * ur * (D.len * D.len) + 1 / 2 ^ 110) ∧
    (n.isFin = true ∧ ∃ L : ℝ, 0 ≤ L ∧ |L - lineDist O E B| ≤ 80 * (ur * ρ) ∧ |n.toReal - L * L| ≤ 31 / 10 * ur * (L * L) + 1 / 2 ^ 110) ∧
    ((s.w * s.w).isFin = true ∧ |(s.w * s.w).toReal - s.w.toReal * s.w.toReal| ≤ 11 / 10 * ur * (s.w.toReal * s.w.toReal) + 1 / 2 ^ 110) := by
  intro O E B D dp ddp n
  obtain ⟨⟨o1, o2, o3⟩, ⟨f1, f2, f3⟩, hu, ⟨s1, s2, s3, s4⟩, ⟨c1, c2, c3⟩, ⟨r0, r1⟩, ⟨ρ0, ρ1⟩⟩ := h
  have ρp : 0 < ρ := lt_of_lt_of_le (by norm_num) ρ0
  have u0 := ur_pos
  have g0 : 1 / 2 ^ 44 ≤ ur * ρ := by
    have := mul_le_mul_of_nonneg_left ρ0 u0.le
    norm_num [ur] at this ⊢; linarith
  obtain ⟨S, L1, K1, K2, K3, P, L2⟩ := line (d := E) (D := D) hu c1 c2 c3
  have S' : |d.x.toReal| + |d.y.toReal| + |d.z.toReal| ≤ 174 / 100 := S
  have F1 : Fine d.x 2 := ⟨f1, by linarith [abs_nonneg d.y.toReal, abs_nonneg d.z.toReal]⟩
  have F2 : Fine d.y 2 := ⟨f2, by linarith [abs_nonneg d.x.toReal, abs_nonneg d.z.toReal]⟩
  have F3 : Fine d.z 2 := ⟨f3, by linarith [abs_nonneg d.x.toReal, abs_nonneg d.y.toReal]⟩
  have one : ∀ x : ℝ, x * x ≤ E.dot E → |x| ≤ 101 / 100 := fun x hx => by
    refine abs_le_of_sq_le_sq ?_ (by norm_num)
    have h2 : E.dot E - 1 ≤ 16 * ur := (abs_le.mp hu).2
    have : 16 * ur ≤ 1 / 1000 := by norm_num [ur]
    rw [pow_two]
    norm_num
    linarith
  have w1 : |d.x.toReal| ≤ 101 / 100 := one _ (by simp only [E, V3.dot, V3.map]; linarith [mul_self_nonneg d.y.toReal, mul_self_nonneg d.z.toReal])
  have w2 : |d.y.toReal| ≤ 101 / 100 := one _ (by simp only [E, V3.dot, V3.map]; linarith [mul_self_nonneg d.x.toReal, mul_self_nonneg d.z.toReal])
  have w3 : |d.z.toReal| ≤ 101 / 100 := one _ (by simp only [E, V3.dot, V3.map]; linarith [mul_self_nonneg d.x.toReal, mul_self_nonneg d.y.toReal])
  have x0 := Apx.subv s1 o1 (by norm_num)
  have y0 := Apx.subv s2 o2 (by norm_num)
  have z0 := Apx.subv s3 o3 (by norm_num)
  have x := mono x0 c1 ρ1
  have y := mono y0 c2 ρ1
  have z := mono z0 c3 ρ1
  refine ⟨?_, ?_, ?_, ?_⟩
  · have a' := Apx.var F1
    have b' := Apx.var F2
    have c' := Apx.var F3
    apply Apx.bound 4 (174 / 100 * ρ)
    · simp only [ddp, dp, glm_vec3_dot, glm_vec3_sub]
      apx <;> norm_num
    · rfl
    · norm_num
    · norm_num
    · have := mul_le_mul_of_nonneg_right S' ρp.le
      linarith
    · norm_num [ηr]
      norm_num at g0
      linarith
  · rw [V3.len_sq]
    clear x y z
    apply Apx.bound 5 (D.dot D)
    · simp only [dp, glm_vec3_norm2, glm_vec3_dot, glm_vec3_sub]
      apx <;> norm_num
    · rfl
    · norm_num
    · norm_num
    · simp only [abs_mul_abs_self]; exact le_rfl
    · have := mul_nonneg u0.le D.dot_self_nonneg
      norm_num [ηr]
      linarith
  · obtain ⟨p1, q1⟩ := remedy (x := d.x) ρ1 ρ0 F1 F2 F3 F1 S' w1 x y z x
    obtain ⟨p2, q2⟩ := remedy (x := d.y) ρ1 ρ0 F1 F2 F3 F2 S' w2 x y z y
    obtain ⟨p3, q3⟩ := remedy (x := d.z) ρ1 ρ0 F1 F2 F3 F3 S' w3 x y z z
    set W := glm_vec3_mulsubs d ddp dp with hW
    have m1 : W.x = (s.x - o.x) - d.x * (d.x * (s.x - o.x) + d.y * (s.y - o.y) + d.z * (s.z - o.z)) := rfl
    have m2 : W.y = (s.y - o.y) - d.y * (d.x * (s.x - o.x) + d.y * (s.y - o.y) + d.z * (s.z - o.z)) := rfl
    have m3 : W.z = (s.z - o.z) - d.z * (d.x * (s.x - o.x) + d.y * (s.y - o.y) + d.z * (s.z - o.z)) := rfl
    rw [← m1] at p1 q1
    rw [← m2] at p2 q2
    rw [← m3] at p3 q3
    have off : ∀ {w e X : ℝ}, |e| ≤ 101 / 100 → |w - (X - e * E.dot D)| ≤ 17 * (ur * ρ) → |w - (X - E.dot D / E.dot E * e)| ≤ 46 * (ur * ρ) := by
      intro w e X he hw
      have e1 : w - (X - E.dot D / E.dot E * e) = (w - (X - e * E.dot D)) - e * (E.dot D - E.dot D / E.dot E) := by ring
      rw [e1]
      have t := abs_sub (w - (X - e * E.dot D)) (e * (E.dot D - E.dot D / E.dot E))
      rw [abs_mul] at t
      have := mul_le_mul he K3 (abs_nonneg _) (by norm_num)
      have := mul_pos u0 ρp
      linarith
    have nl := near_len (a := W.map toReal) (b := D.sub (E.smul (E.dot D / E.dot E))) (g := ur * ρ) (off w1 q1) (off w2 q2) (off w3 q3)
    have LL : (W.map toReal).len ≤ 2 * ρ := by
      have := (abs_le.mp nl).2
      have : 80 * (ur * ρ) ≤ 1 / 10 * ρ := by
        have : 80 * ur ≤ 1 / 10 := by norm_num [ur]
        nlinarith
      linarith
    have LL' : (W.map toReal).len ≤ 2 ^ 22 := by norm_num at ρ1 ⊢; linarith
    have a' := Apx.var (⟨p1, (coord_le (v := W.map toReal) (by simp only [V3.dot, V3.map]; linarith [mul_self_nonneg W.y.toReal, mul_self_nonneg W.z.toReal])).trans LL'⟩ : Fine W.x (2 ^ 22))
    have b' := Apx.var (⟨p2, (coord_le (v := W.map toReal) (by simp only [V3.dot, V3.map]; linarith [mul_self_nonneg W.x.toReal, mul_self_nonneg W.z.toReal])).trans LL'⟩ : Fine W.y (2 ^ 22))
    have c' := Apx.var (⟨p3, (coord_le (v := W.map toReal) (by simp only [V3.dot, V3.map]; linarith [mul_self_nonneg W.x.toReal, mul_self_nonneg W.y.toReal])).trans LL'⟩ : Fine W.z (2 ^ 22))
    have g : n.isFin = true ∧ |n.toReal - (W.map toReal).len * (W.map toReal).len| ≤ 31 / 10 * ur * ((W.map toReal).len * (W.map toReal).len) + 1 / 2 ^ 110 := by
      rw [V3.len_sq]
      apply Apx.bound 3 ((W.map toReal).dot (W.map toReal))
      · simp only [n, ← hW, glm_vec3_norm2, glm_vec3_dot]
        apx <;> norm_num
      · rfl
      · norm_num
      · norm_num
      · simp only [abs_mul_abs_self]; exact le_rfl
      · have := mul_nonneg u0.le (W.map toReal).dot_self_nonneg
        norm_num [ηr]
        linarith
    exact ⟨g.1, _, V3.len_nonneg _, nl, g.2⟩
  · have w := Apx.var s4
    apply Apx.bound 1 (s.w.toReal * s.w.toReal)
    · apx <;> norm_num
    · rfl
    · norm_num
    · norm_num
    · simp only [abs_mul_abs_self, le_refl]
    · have := mul_nonneg u0.le (mul_self_nonneg s.w.toReal)
      norm_num [ηr]; linarith

/-- what follows the first four numbers -/
private def finish (ddp dpp n r2 t1 t2 : F32) : Bool × F32 × F32 :=
  let dscr := r2 - n
  if flt dscr (lit 0) then (false, t1, t2) else
    let q := if fle (lit 0) ddp then ddp + sqrtf dscr else ddp - sqrtf dscr
    let r := (dpp - r2) / q
    if flt r q then (if flt r (lit 0) && flt q (lit 0) then (false, r, q) else (true, r, q))
    else (if flt q (lit 0) && flt r (lit 0) then (false, q, r) else (true, q, r))

private theorem finish_eq (o d : V3 F32) (s : V4 F32) (t1 t2 : F32) : glm_ray_sphere o d s t1 t2 =
    let dp := glm_vec3_sub ⟨s.x, s.y, s.z⟩ o; let ddp := glm_vec3_dot d dp
    finish ddp (glm_vec3_norm2 dp) (glm_vec3_norm2 (glm_vec3_mulsubs d ddp dp)) (s.w * s.w) t1 t2 := rfl

omit [Libm] in
/-- a rounded difference has the sign of the exact one -/
private theorem sub_apx {a b : F32} (ha : Fine a (2 ^ 50)) (hb : Fine b (2 ^ 50)) : (a - b).isFin = true ∧ |(a - b).toReal - (a.toReal - b.toReal)| ≤ ur * |a.toReal - b.toReal| := by
  have k := Apx.subv ha hb (by norm_num)
  have e := k.err
  rw [pow_one, add_sub_cancel_left, zero_mul, add_zero] at e
  exact ⟨k.fin, e⟩

omit [Libm] in
private theorem add_apx {a b : F32} (ha : Fine a (2 ^ 50)) (hb : Fine b (2 ^ 50)) : (a + b).isFin = true ∧ |(a + b).toReal - (a.toReal + b.toReal)| ≤ ur * |a.toReal + b.toReal| := by
  have k := Apx.addv ha hb (by norm_num)
  have e := k.err
  rw [pow_one, add_sub_cancel_left, zero_mul, add_zero] at e
  exact ⟨k.fin, e⟩

omit [Libm] in
private theorem quot_err {N Q : F32} (hN : Fine N (2 ^ 52)) (hQ : Fine Q (2 ^ 51)) (q0 : 1 / 2 ^ 47 ≤ |Q.toReal|) :
    (N / Q).isFin = true ∧ |(N / Q).toReal - N.toReal / Q.toReal| ≤ 21 / 10 * ur * |N.toReal / Q.toReal| + 1 / 2 ^ 149 := by
  have k := (Apx.var hN).div (1 / 2 ^ 47) (Apx.var hQ) (by norm_num) q0 (by norm_num) (by norm_num)
  have e := k.err
  rw [← abs_div] at e
  have c : (1 + ur) ^ (0 + 0 + 2) - 1 ≤ 21 / 10 * ur := by norm_num [ur]
  exact ⟨k.fin, e.trans (add_le_add (mul_le_mul_of_nonneg_right c (abs_nonneg _)) (by norm_num [ηr]))⟩

omit [Libm] in
private theorem quot_sign {N Q : F32} (hN : Fine N (2 ^ 52)) (hQ : Fine Q (2 ^ 51)) (n0 : 1 / 2 ^ 87 ≤ |N.toReal|) (q0 : 1 / 2 ^ 47 ≤ |Q.toReal|) :
    (N / Q).isFin = true ∧ (0 < N.toReal / Q.toReal → 0 < (N / Q).toReal) ∧ (N.toReal / Q.toReal < 0 → (N / Q).toReal < 0) := by
  obtain ⟨f, e⟩ := quot_err hN hQ q0
  have qp : 0 < |Q.toReal| := lt_of_lt_of_le (by norm_num) q0
  have l : 1 / 2 ^ 138 ≤ |N.toReal / Q.toReal| := by
    rw [abs_div, le_div_iff₀ qp]
    have := mul_le_mul_of_nonneg_left hQ.2 (by norm_num : (0 : ℝ) ≤ 1 / 2 ^ 138)
    refine this.trans (le_trans ?_ n0)
    norm_num
  have u1 : 21 / 10 * ur ≤ 1 / 100 := by norm_num [ur]
  have m := mul_le_mul_of_nonneg_right u1 (abs_nonneg (N.toReal / Q.toReal))
  obtain ⟨e1, e2⟩ := abs_le.mp e
  refine ⟨f, fun h => ?_, fun h => ?_⟩
  · rw [abs_of_pos h] at *; linarith
  · rw [abs_of_neg h] at *; linarith

private theorem finish_miss {ddp dpp n r2 : F32} (t1 t2 : F32) (hn : Fine n (2 ^ 50)) (hr : Fine r2 (2 ^ 50)) (h : r2.toReal < n.toReal) : finish ddp dpp n r2 t1 t2 = (false, t1, t2) := by
  obtain ⟨f, e⟩ := sub_apx hr hn
  have hd : flt (r2 - n) (lit 0) = true := by
    rw [flt_f32, lt_real f Apx.zero.fin]
    have z : (lit 0 : F32).toReal = 0 := by have := Apx.zero.err; simpa using this
    rw [z]
    have u1 : ur ≤ 1 / 100 := by norm_num [ur]
    rw [abs_of_neg (by linarith : r2.toReal - n.toReal < 0)] at e
    have := (abs_le.mp e).2
    nlinarith
  unfold finish
  simp only [hd, if_true]

/-- the numbers after the first comparison -/
private theorem finish_hit {ddp dpp n r2 : F32} (t1 t2 : F32) (hk : Fine ddp (2 ^ 25)) (hp : Fine dpp (2 ^ 50)) (hn : Fine n (2 ^ 50)) (hr : Fine r2 (2 ^ 50)) (h : n.toReal + 1 / 2 ^ 85 ≤ r2.toReal) (n0 : -1 ≤ n.toReal) :
    ∃ H q r : F32, H = sqrtf (r2 - n) ∧ Fine H (2 ^ 26) ∧ 1 / 2 ^ 44 ≤ H.toReal ∧ |H.toReal - √(r2 - n).toReal| ≤ ur * √(r2 - n).toReal ∧
      |(r2 - n).toReal - (r2.toReal - n.toReal)| ≤ ur * (r2.toReal - n.toReal) ∧
      q = (if fle (lit 0) ddp then ddp + H else ddp - H) ∧ Fine q (2 ^ 51) ∧ 1 / 2 ^ 47 ≤ |q.toReal| ∧ (0 ≤ ddp.toReal → 0 < q.toReal ∧ |q.toReal - (ddp.toReal + H.toReal)| ≤ ur * (ddp.toReal + H.toReal)) ∧
      (ddp.toReal < 0 → q.toReal < 0 ∧ |q.toReal - (ddp.toReal - H.toReal)| ≤ ur * (H.toReal - ddp.toReal)) ∧
      r = (dpp - r2) / q ∧
      finish ddp dpp n r2 t1 t2 = (!(flt q (lit 0) && flt r (lit 0)), if flt r q then (r, q) else (q, r)) := by
  have u0 := ur_pos
  have u1 : ur ≤ 1 / 100 := by norm_num [ur]
  have z : (lit 0 : F32).toReal = 0 := by have := Apx.zero.err; simpa using this
  obtain ⟨f, e⟩ := sub_apx hr hn
  have dp : 0 < r2.toReal - n.toReal := by linarith [show (0 : ℝ) < 1 / 2 ^ 85 by norm_num]
  rw [abs_of_pos dp] at e
  have e0 := e
  obtain ⟨e1, e2⟩ := abs_le.mp e
  have ud := mul_le_mul_of_nonneg_right u1 dp.le
  have D1 : 1 / 2 ^ 86 ≤ (r2 - n).toReal := by
    norm_num at h ⊢; linarith
  have r5 := (abs_le.mp hr.2).2
  have D2 : (r2 - n).toReal ≤ 2 ^ 51 := by norm_num at r5 ⊢; linarith
  have D0 : 0 ≤ (r2 - n).toReal := le_trans (by norm_num) D1
  have hd : flt (r2 - n) (lit 0) = false := by
    rw [← Bool.not_eq_true, flt_f32, lt_real f Apx.zero.fin, z]; exact not_lt.mpr D0
  have sf := Fine.sqrt f D0
  have se := sqrt_err sf
  rw [← sqrtf_f32] at sf se
  have s1 : 1 / 2 ^ 43 ≤ √(r2 - n).toReal := Real.le_sqrt_of_sq_le (le_trans (by norm_num) D1)
  have s2 : √(r2 - n).toReal ≤ 3 / 4 * 2 ^ 26 := by
    rw [Real.sqrt_le_left (by norm_num)]; exact D2.trans (by norm_num)
  have us := mul_le_mul_of_nonneg_right u1 (Real.sqrt_nonneg (r2 - n).toReal)
  obtain ⟨se1, se2⟩ := abs_le.mp se
  have H1 : 1 / 2 ^ 44 ≤ (sqrtf (r2 - n)).toReal := by norm_num at s1 ⊢; linarith
  have H0 : 0 < (sqrtf (r2 - n)).toReal := lt_of_lt_of_le (by norm_num) H1
  have HF : Fine (sqrtf (r2 - n)) (2 ^ 26) := ⟨sf, by rw [abs_of_pos H0]; norm_num at s2 ⊢; linarith⟩
  have k1 := (abs_le.mp hk.2).1
  have k2 := (abs_le.mp hk.2).2
  have h2 := (abs_le.mp HF.2).2
  have w : ∀ {x : F32} {B C : ℝ}, Fine x B → B ≤ C → Fine x C := fun hx hb => ⟨hx.1, hx.2.trans hb⟩
  have up : 0 ≤ ddp.toReal → fle (lit 0 : F32) ddp = true := fun hh => by rw [fle_f32, le_real Apx.zero.fin hk.1, z]; exact hh
  have dn : ddp.toReal < 0 → fle (lit 0 : F32) ddp = false := fun hh => by
    rw [← Bool.not_eq_true, fle_f32, le_real Apx.zero.fin hk.1, z]; exact not_le.mpr hh
  set q := if fle (lit 0 : F32) ddp then ddp + sqrtf (r2 - n) else ddp - sqrtf (r2 - n) with hq
  have A : 0 ≤ ddp.toReal → q.isFin = true ∧ |q.toReal - (ddp.toReal + (sqrtf (r2 - n)).toReal)| ≤ ur * (ddp.toReal + (sqrtf (r2 - n)).toReal) := fun hh => by
    have := add_apx (w hk (by norm_num)) (w HF (by norm_num) : Fine (sqrtf (r2 - n)) (2 ^ 50))
    rw [abs_of_pos (by linarith : 0 < ddp.toReal + (sqrtf (r2 - n)).toReal)] at this
    rw [hq, if_pos (up hh)]; exact this
  have B : ddp.toReal < 0 → q.isFin = true ∧ |q.toReal - (ddp.toReal - (sqrtf (r2 - n)).toReal)| ≤ ur * ((sqrtf (r2 - n)).toReal - ddp.toReal) := fun hh => by
    have := sub_apx (w hk (by norm_num)) (w HF (by norm_num) : Fine (sqrtf (r2 - n)) (2 ^ 50))
    rw [abs_of_neg (by linarith : ddp.toReal - (sqrtf (r2 - n)).toReal < 0), neg_sub] at this
    rw [hq, if_neg (by rw [dn hh]; simp)]; exact this
  have A' : 0 ≤ ddp.toReal → 0 < q.toReal ∧ 1 / 2 ^ 47 ≤ q.toReal ∧ q.toReal ≤ 2 ^ 51 := fun hh => by
    obtain ⟨-, a⟩ := A hh
    obtain ⟨a1, a2⟩ := abs_le.mp a
    have := mul_le_mul_of_nonneg_right u1 (by linarith : 0 ≤ ddp.toReal + (sqrtf (r2 - n)).toReal)
    norm_num at *
    exact ⟨by linarith, by linarith, by linarith⟩
  have B' : ddp.toReal < 0 → q.toReal < 0 ∧ 1 / 2 ^ 47 ≤ -q.toReal ∧ -q.toReal ≤ 2 ^ 51 := fun hh => by
    obtain ⟨-, a⟩ := B hh
    obtain ⟨a1, a2⟩ := abs_le.mp a
    have := mul_le_mul_of_nonneg_right u1 (by linarith : 0 ≤ (sqrtf (r2 - n)).toReal - ddp.toReal)
    norm_num at *
    exact ⟨by linarith, by linarith, by linarith⟩
  refine ⟨sqrtf (r2 - n), q, (dpp - r2) / q, rfl, HF, H1, se, e0, rfl, ?_, ?_, fun hh => ⟨(A' hh).1, (A hh).2⟩, fun hh => ⟨(B' hh).1, (B hh).2⟩, rfl, ?_⟩
  · rcases le_or_gt 0 ddp.toReal with hh | hh
    · exact ⟨(A hh).1, by rw [abs_of_pos (A' hh).1]; exact (A' hh).2.2⟩
    · exact ⟨(B hh).1, by rw [abs_of_neg (B' hh).1]; exact (B' hh).2.2⟩
  · rcases le_or_gt 0 ddp.toReal with hh | hh
    · rw [abs_of_pos (A' hh).1]; exact (A' hh).2.1
    · rw [abs_of_neg (B' hh).1]; exact (B' hh).2.1
  · unfold finish
    simp only [hd, ← hq, Bool.false_eq_true, if_false]
    generalize flt ((dpp - r2) / q) q = b1
    generalize flt ((dpp - r2) / q) (lit 0) = b2
    generalize flt q (lit 0) = b3
    cases b1 <;> cases b2 <;> cases b3 <;> rfl

omit [Libm] in
/-- the four numbers and their sizes -/
private theorem sizes {o d : V3 F32} {s : V4 F32} {ρ : ℝ} (h : RayBall o d s ρ) :
    let O := o.map toReal; let E := d.map toReal; let B := s.map toReal; let D := B.xyz.sub O
    let dp := glm_vec3_sub ⟨s.x, s.y, s.z⟩ o; let ddp := glm_vec3_dot d dp; let n := glm_vec3_norm2 (glm_vec3_mulsubs d ddp dp)
    Fine ddp (2 ^ 25) ∧ Fine (glm_vec3_norm2 dp) (2 ^ 50) ∧ Fine n (2 ^ 50) ∧ Fine (s.w * s.w) (2 ^ 50) ∧ D.len ≤ 174 / 100 * ρ ∧ lineDist O E B ≤ D.len := by
  intro O E B D dp ddp n
  obtain ⟨⟨f1, e1⟩, ⟨f2, e2⟩, ⟨f3, L, L0, L1, e3⟩, f4, e4⟩ := core h
  obtain ⟨c1, c2, c3⟩ := h.center
  obtain ⟨-, l1, k1, -, -, -, l2⟩ := line (d := E) (D := D) h.unit c1 c2 c3
  obtain ⟨r0, r1⟩ := h.radius
  obtain ⟨ρ0, ρ1⟩ := h.size
  have ρp : 0 < ρ := lt_of_lt_of_le (by norm_num) ρ0
  have u0 := ur_pos
  have u1 : ur ≤ 1 / 10000 := by norm_num [ur]
  have uρ := mul_le_mul_of_nonneg_right u1 ρp.le
  have sq : ∀ {x X e : ℝ}, 0 ≤ x → x ≤ 2 * ρ → 0 ≤ e → e ≤ 6 → |X - x * x| ≤ e * ur * (x * x) + 1 / 2 ^ 110 → |X| ≤ 2 ^ 50 := by
    intro x X e x0 x1 e0 e1 hX
    have q := mul_self_le_mul_self x0 (x1.trans (by linarith : 2 * ρ ≤ 2 ^ 22))
    have := abs_sub_abs_le_abs_sub X (x * x)
    rw [abs_mul_self] at this
    have m : e * ur * (x * x) ≤ 6 * (1 / 10000) * (x * x) := mul_le_mul_of_nonneg_right (mul_le_mul e1 u1 u0.le (by norm_num)) (mul_self_nonneg x)
    norm_num at *
    linarith
  have LL : L ≤ 2 * ρ := by
    have := (abs_le.mp L1).2
    change lineDist O E B ≤ D.len at l2
    linarith
  refine ⟨⟨f1, ?_⟩, ⟨f2, sq (V3.len_nonneg _) (by linarith) (by norm_num) (by norm_num) e2⟩, ⟨f3, sq L0 LL (by norm_num) (by norm_num) e3⟩,
    ⟨f4, sq r0 (by linarith) (by norm_num) (by norm_num) e4⟩, l1, l2⟩
  have := abs_sub_abs_le_abs_sub ddp.toReal (E.dot D)
  have e1' : |ddp.toReal - E.dot D| ≤ 8 * (ur * ρ) := e1
  norm_num at *
  linarith

omit [Libm] in
private theorem weaken {X x e : ℝ} (h : |X - x * x| ≤ e * ur * (x * x) + 1 / 2 ^ 110) (he : e ≤ 6) : |X - x * x| ≤ 6 * ur * (x * x) + 1 / 2 ^ 110 :=
  h.trans (add_le_add (mul_le_mul_of_nonneg_right (mul_le_mul_of_nonneg_right he ur_pos.le) (mul_self_nonneg x)) le_rfl)

omit [Libm] in
private theorem margin (ρ : ℝ) : ρ / 2 ^ 17 = 128 * (ur * ρ) := by norm_num [ur]; ring

/-- **A miss.**  The line of the ray passes the sphere by more than the margin: no intersection, and the outputs are not written. -/
theorem C93_miss (o d : V3 F32) (s : V4 F32) (t1 t2 : F32) (ρ : ℝ) (h : RayBall o d s ρ)
    (hm : s.w.toReal + ρ / 2 ^ 17 ≤ lineDist (o.map toReal) (d.map toReal) (s.map toReal)) : glm_ray_sphere o d s t1 t2 = (false, t1, t2) := by
  rw [finish_eq]
  obtain ⟨z1, z2, z3, z4, l1, l2⟩ := sizes h
  obtain ⟨-, -, ⟨f3, L, L0, L1, e3⟩, f4, e4⟩ := core h
  obtain ⟨r0, r1⟩ := h.radius
  have ρp : 0 < ρ := lt_of_lt_of_le (by norm_num) h.size.1
  have up := mul_pos ur_pos ρp
  have uρ : ur * ρ ≤ 1 / 10000 * ρ := mul_le_mul_of_nonneg_right (by norm_num [ur]) ρp.le
  rw [margin] at hm
  obtain ⟨a1, a2⟩ := abs_le.mp L1
  have := squares h.size.1 r0 (by linarith) L0 (by linarith) (weaken e4 (by norm_num)) (weaken e3 (by norm_num)) (by linarith)
  exact finish_miss t1 t2 z3 z4 (lt_of_lt_of_le (by norm_num) this)

omit [Libm] in
private theorem hit_gap {o d : V3 F32} {s : V4 F32} {ρ : ℝ} (h : RayBall o d s ρ) (hm : lineDist (o.map toReal) (d.map toReal) (s.map toReal) + ρ / 2 ^ 17 ≤ s.w.toReal) :
    let dp := glm_vec3_sub ⟨s.x, s.y, s.z⟩ o; let ddp := glm_vec3_dot d dp
    (glm_vec3_norm2 (glm_vec3_mulsubs d ddp dp)).toReal + 1 / 2 ^ 85 ≤ (s.w * s.w).toReal := by
  intro dp ddp
  obtain ⟨z1, z2, z3, z4, l1, l2⟩ := sizes h
  obtain ⟨-, -, ⟨f3, L, L0, L1, e3⟩, f4, e4⟩ := core h
  obtain ⟨r0, r1⟩ := h.radius
  have ρp : 0 < ρ := lt_of_lt_of_le (by norm_num) h.size.1
  have up := mul_pos ur_pos ρp
  have uρ : ur * ρ ≤ 1 / 10000 * ρ := mul_le_mul_of_nonneg_right (by norm_num [ur]) ρp.le
  rw [margin] at hm
  obtain ⟨a1, a2⟩ := abs_le.mp L1
  exact squares h.size.1 L0 (by linarith) r0 (by linarith) (weaken e3 (by norm_num)) (weaken e4 (by norm_num)) (by linarith)

omit [Libm] in
private theorem n_lower {n L : ℝ} (h : |n - L * L| ≤ 31 / 10 * ur * (L * L) + 1 / 2 ^ 110) : -1 ≤ n := by
  have := (abs_le.mp h).1
  have := mul_self_nonneg L
  have : 31 / 10 * ur * (L * L) ≤ 1 * (L * L) := mul_le_mul_of_nonneg_right (by norm_num [ur]) (mul_self_nonneg L)
  norm_num at *
  linarith

/-- **A hit.**  The line of the ray passes inside the sphere by more than the margin, and the center is ahead of the origin, or the
origin is inside the sphere, by more than the margin: an intersection is reported. -/
theorem C93_hit (o d : V3 F32) (s : V4 F32) (t1 t2 : F32) (ρ : ℝ) (h : RayBall o d s ρ)
    (hm : lineDist (o.map toReal) (d.map toReal) (s.map toReal) + ρ / 2 ^ 17 ≤ s.w.toReal)
    (ha : ρ / 2 ^ 17 ≤ (d.map toReal).dot ((s.map toReal).xyz.sub (o.map toReal)) ∨ ((s.map toReal).xyz.sub (o.map toReal)).len + ρ / 2 ^ 17 ≤ s.w.toReal) :
    (glm_ray_sphere o d s t1 t2).1 = true := by
  rw [finish_eq]
  obtain ⟨z1, z2, z3, z4, l1, l2⟩ := sizes h
  have gap := hit_gap h hm
  obtain ⟨⟨f1, e1⟩, ⟨f2, e2⟩, ⟨f3, L, L0, L1, e3⟩, f4, e4⟩ := core h
  obtain ⟨r0, r1⟩ := h.radius
  have ρp : 0 < ρ := lt_of_lt_of_le (by norm_num) h.size.1
  have up := mul_pos ur_pos ρp
  have z : (lit 0 : F32).toReal = 0 := by have := Apx.zero.err; simpa using this
  obtain ⟨H, q, r, -, HF, H1, -, -, -, qF, q0, qp, qn, hr, key⟩ := finish_hit t1 t2 z1 z2 z3 z4 gap (n_lower e3)
  dsimp only at key ⊢
  rw [key]
  rcases le_or_gt 0 (glm_vec3_dot d (glm_vec3_sub ⟨s.x, s.y, s.z⟩ o)).toReal with c | c
  · have : flt q (lit 0) = false := by
      rw [← Bool.not_eq_true, flt_f32, lt_real qF.1 Apx.zero.fin, z]; exact not_lt.mpr (qp c).1.le
    rw [this]; rfl
  · rw [margin] at ha hm
    rcases ha with ha | ha
    · have := (abs_le.mp e1).1
      linarith
    · have g2 := squares h.size.1 (V3.len_nonneg _) (by linarith) r0 (by linarith) (weaken e2 (by norm_num)) (weaken e4 (by norm_num)) (by linarith)
      obtain ⟨nf, ne⟩ := sub_apx z2 z4
      set N := glm_vec3_norm2 (glm_vec3_sub ⟨s.x, s.y, s.z⟩ o) - s.w * s.w with hN
      set a := (glm_vec3_norm2 (glm_vec3_sub ⟨s.x, s.y, s.z⟩ o)).toReal with ha'
      have a0 : a - (s.w * s.w).toReal < 0 := by have : (0 : ℝ) < 1 / 2 ^ 85 := by norm_num
                                                 linarith
      rw [abs_of_neg a0] at ne
      obtain ⟨n1, n2⟩ := abs_le.mp ne
      have u1 : ur ≤ 1 / 100 := by norm_num [ur]
      have ua := mul_le_mul_of_nonneg_right u1 (by linarith : 0 ≤ -(a - (s.w * s.w).toReal))
      have Nn : N.toReal ≤ -(1 / 2 ^ 87) := by norm_num at *; linarith
      have N0 : N.toReal < 0 := lt_of_le_of_lt Nn (by norm_num)
      have Nb : |N.toReal| ≤ 2 ^ 52 := by
        have b1 := abs_le.mp z2.2
        have b2 := abs_le.mp z4.2
        rw [abs_of_neg N0]
        norm_num at *
        linarith
      obtain ⟨qf, pos, -⟩ := quot_sign ⟨nf, Nb⟩ qF (by rw [abs_of_neg N0]; linarith) q0
      have : flt r (lit 0) = false := by
        rw [hr, ← Bool.not_eq_true, flt_f32, lt_real qf Apx.zero.fin, z]
        exact not_lt.mpr (pos (div_pos_of_neg_of_neg N0 (qn c).1)).le
      rw [this]; simp

/-- **Behind.**  The origin is outside the sphere and the center is behind it, both by more than the margin: no intersection is
reported. -/
theorem C93_behind (o d : V3 F32) (s : V4 F32) (t1 t2 : F32) (ρ : ℝ) (h : RayBall o d s ρ)
    (hb : (d.map toReal).dot ((s.map toReal).xyz.sub (o.map toReal)) ≤ -(ρ / 2 ^ 17)) (ho : s.w.toReal + ρ / 2 ^ 17 ≤ ((s.map toReal).xyz.sub (o.map toReal)).len) :
    (glm_ray_sphere o d s t1 t2).1 = false := by
  rw [finish_eq]
  obtain ⟨z1, z2, z3, z4, l1, l2⟩ := sizes h
  obtain ⟨⟨f1, e1⟩, ⟨f2, e2⟩, ⟨f3, L, L0, L1, e3⟩, f4, e4⟩ := core h
  obtain ⟨r0, r1⟩ := h.radius
  have ρp : 0 < ρ := lt_of_lt_of_le (by norm_num) h.size.1
  have up := mul_pos ur_pos ρp
  have u1 : ur ≤ 1 / 100 := by norm_num [ur]
  have z : (lit 0 : F32).toReal = 0 := by have := Apx.zero.err; simpa using this
  rw [margin] at hb ho
  have g2 := squares h.size.1 r0 (by linarith) (V3.len_nonneg _) (by linarith) (weaken e4 (by norm_num)) (weaken e2 (by norm_num)) (by linarith)
  have c : (glm_vec3_dot d (glm_vec3_sub ⟨s.x, s.y, s.z⟩ o)).toReal < 0 := by
    have := (abs_le.mp e1).2
    linarith
  have c' : (glm_vec3_dot d (glm_vec3_sub ⟨s.x, s.y, s.z⟩ o)).toReal ≤ -(ur * ρ) := by
    have := (abs_le.mp e1).2
    linarith
  obtain ⟨nf, ne⟩ := sub_apx z2 z4
  set N := glm_vec3_norm2 (glm_vec3_sub ⟨s.x, s.y, s.z⟩ o) - s.w * s.w with hN
  set a := (glm_vec3_norm2 (glm_vec3_sub ⟨s.x, s.y, s.z⟩ o)).toReal with ha'
  have a0 : 0 < a - (s.w * s.w).toReal := by have : (0 : ℝ) < 1 / 2 ^ 85 := by norm_num
                                             linarith
  rw [abs_of_pos a0] at ne
  obtain ⟨n1, n2⟩ := abs_le.mp ne
  have ua := mul_le_mul_of_nonneg_right u1 a0.le
  have Nn : 1 / 2 ^ 87 ≤ N.toReal := by norm_num at *; linarith
  have N0 : 0 < N.toReal := lt_of_lt_of_le (by norm_num) Nn
  have Nb : |N.toReal| ≤ 2 ^ 52 := by
    have b1 := abs_le.mp z2.2
    have b2 := abs_le.mp z4.2
    rw [abs_of_pos N0]
    norm_num at *
    linarith
  -- the discriminant may have either sign
  dsimp only
  unfold finish
  set dp := glm_vec3_sub ⟨s.x, s.y, s.z⟩ o
  set ddp := glm_vec3_dot d dp
  set n := glm_vec3_norm2 (glm_vec3_mulsubs d ddp dp)
  obtain ⟨df, de⟩ := sub_apx z4 z3
  rcases lt_or_ge (s.w * s.w - n).toReal 0 with hd | hd
  · have : flt (s.w * s.w - n) (lit 0) = true := by rw [flt_f32, lt_real df Apx.zero.fin, z]; exact hd
    simp only [this, if_true]
  · have hd' : flt (s.w * s.w - n) (lit 0) = false := by rw [← Bool.not_eq_true, flt_f32, lt_real df Apx.zero.fin, z]; exact not_lt.mpr hd
    have sf := Fine.sqrt df hd
    have se := sqrt_err sf
    rw [← sqrtf_f32] at sf se
    set H := sqrtf (s.w * s.w - n) with hH
    obtain ⟨se1, se2⟩ := abs_le.mp se
    have s0 := Real.sqrt_nonneg (s.w * s.w - n).toReal
    have us := mul_le_mul_of_nonneg_right u1 s0
    have b1 := abs_le.mp z3.2
    have b2 := abs_le.mp z4.2
    have dl : (s.w * s.w - n).toReal ≤ 2 ^ 52 := by
      have := (abs_le.mp de).2
      have m := mul_le_mul_of_nonneg_right u1 (abs_nonneg ((s.w * s.w).toReal - n.toReal))
      have := abs_sub (s.w * s.w).toReal n.toReal
      have := z3.2
      have := z4.2
      norm_num at *
      linarith
    have s2 : √(s.w * s.w - n).toReal ≤ 2 ^ 26 := by rw [Real.sqrt_le_left (by norm_num)]; exact dl.trans (by norm_num)
    have H0 : 0 ≤ H.toReal := by linarith
    have HF : Fine H (2 ^ 50) := ⟨sf, by rw [abs_of_nonneg H0]; norm_num at s2 ⊢; linarith⟩
    have fl : fle (lit 0 : F32) ddp = false := by rw [← Bool.not_eq_true, fle_f32, le_real Apx.zero.fin z1.1, z]; exact not_le.mpr c
    obtain ⟨qf, qe⟩ := sub_apx (⟨z1.1, z1.2.trans (by norm_num)⟩ : Fine ddp (2 ^ 50)) HF
    have q0 : ddp.toReal - H.toReal < 0 := by linarith
    rw [abs_of_neg q0] at qe
    obtain ⟨q1, q2⟩ := abs_le.mp qe
    have uq := mul_le_mul_of_nonneg_right u1 (by linarith : 0 ≤ -(ddp.toReal - H.toReal))
    have k1 := (abs_le.mp z1.2).1
    have h2 := (abs_le.mp HF.2).2
    have g0 : 1 / 2 ^ 44 ≤ ur * ρ := by
      have := mul_le_mul_of_nonneg_left h.size.1 ur_pos.le
      norm_num [ur] at this ⊢; linarith
    have qn : (ddp - H).toReal ≤ -(1 / 2 ^ 47) := by norm_num at *; linarith
    have qneg : (ddp - H).toReal < 0 := lt_of_le_of_lt qn (by norm_num)
    have qF : Fine (ddp - H) (2 ^ 51) := ⟨qf, by rw [abs_of_neg qneg]; norm_num at *; linarith⟩
    obtain ⟨rf, -, neg⟩ := quot_sign ⟨nf, Nb⟩ qF (by rw [abs_of_pos N0]; exact Nn) (by rw [abs_of_neg qneg]; linarith)
    have r1 : flt (N / (ddp - H)) (lit 0) = true := by rw [flt_f32, lt_real rf Apx.zero.fin, z]; exact neg (div_neg_of_pos_of_neg N0 qneg)
    have r2 : flt (ddp - H) (lit 0) = true := by rw [flt_f32, lt_real qf Apx.zero.fin, z]; exact qneg
    rw [hN, hH] at r1
    rw [hH] at r2
    simp only [hd', fl, Bool.false_eq_true, if_false, r1, r2, Bool.and_self, if_true]
    split_ifs <;> rfl

/-! ### the distances -/

omit [Libm] in
/-- the root of the discriminant -/
private theorem half_chord {ρ H dd r p n L R x h : ℝ} (ρ0 : 1 / 2 ^ 20 ≤ ρ) (hd : |dd - 1| ≤ 16 * ur) (H0 : 0 < H) (hH : ρ ≤ 64 * H) (p0 : 0 ≤ p) (r0 : 0 ≤ r) (r1 : r ≤ ρ)
    (e0 : p * p + dd * (H * H) = r * r) (L0 : 0 ≤ L) (L1 : |L - p| ≤ 80 * (ur * ρ)) (e1 : |n - L * L| ≤ 31 / 10 * ur * (L * L) + 1 / 2 ^ 110)
    (e2 : |R - r * r| ≤ 11 / 10 * ur * (r * r) + 1 / 2 ^ 110) (e3 : |x - (R - n)| ≤ ur * (R - n)) (x0 : 0 ≤ x) (e4 : |h - √x| ≤ ur * √x) :
    |h - H| ≤ 186 * (ur * (ρ * ρ) / H) ∧ ur * ρ ≤ 101 / 100 * (ur * (ρ * ρ) / H) ∧ ur * (ρ * ρ) / H ≤ 1 / 4096 * H ∧ H ≤ 1001 / 1000 * ρ := by
  have u0 := ur_pos
  have u1 : ur ≤ 1 / 1000000 := by norm_num [ur]
  have ρp : 0 < ρ := lt_of_lt_of_le (by norm_num) ρ0
  obtain ⟨d1, d2⟩ := abs_le.mp hd
  have HH0 : 0 ≤ H * H := mul_self_nonneg H
  have uHH : ur * (H * H) ≤ 1 / 1000000 * (H * H) := mul_le_mul_of_nonneg_right u1 HH0
  have dH1 : (1 - 16 * ur) * (H * H) ≤ dd * (H * H) := mul_le_mul_of_nonneg_right (by linarith) HH0
  have dH2 : dd * (H * H) ≤ (1 + 16 * ur) * (H * H) := mul_le_mul_of_nonneg_right (by linarith) HH0
  have rr := mul_self_le_mul_self r0 r1
  have pp := mul_self_nonneg p
  have Hρ : H ≤ 1001 / 1000 * ρ := by
    refine (abs_le_of_sq_le_sq' ?_ (by positivity)).2
    nlinarith
  have pr : p ≤ r := by
    refine (abs_le_of_sq_le_sq' ?_ r0).2
    nlinarith
  set g := ur * (ρ * ρ) with hg
  have ρρ : 0 < ρ * ρ := by positivity
  have gp : 0 < g := by positivity
  have tiny : 1 / 2 ^ 110 ≤ 1 / 1000 * g := by
    have a := mul_le_mul ρ0 ρ0 (by norm_num) ρp.le
    have := mul_le_mul_of_nonneg_left a u0.le
    norm_num [ur] at this ⊢
    rw [hg]; norm_num [ur]; linarith
  have uρρ : g ≤ 1 / 1000000 * (ρ * ρ) := mul_le_mul_of_nonneg_right u1 ρρ.le
  have ur' : ur * (r * r) ≤ g := mul_le_mul_of_nonneg_left rr u0.le
  -- the computed distance from the line
  obtain ⟨L2, L3⟩ := abs_le.mp L1
  have uρ : ur * ρ ≤ 1 / 1000000 * ρ := mul_le_mul_of_nonneg_right u1 ρp.le
  have Lρ : L ≤ 1001 / 1000 * ρ := by linarith
  have LL : |L * L - p * p| ≤ 161 * g := by
    rw [show L * L - p * p = (L - p) * (L + p) by ring, abs_mul, abs_of_nonneg (by linarith : 0 ≤ L + p)]
    calc |L - p| * (L + p) ≤ 80 * (ur * ρ) * (2001 / 1000 * ρ) := mul_le_mul L1 (by linarith) (by linarith) (by positivity)
      _ = 80 * (2001 / 1000) * g := by rw [hg]; ring
      _ ≤ _ := by linarith
  have uLL : ur * (L * L) ≤ 101 / 100 * g := by
    have := mul_self_le_mul_self L0 Lρ
    have := mul_le_mul_of_nonneg_left this u0.le
    calc _ ≤ _ := this
      _ = 1001 / 1000 * (1001 / 1000) * g := by rw [hg]; ring
      _ ≤ _ := by linarith
  obtain ⟨l1, l2⟩ := abs_le.mp LL
  obtain ⟨n1, n2⟩ := abs_le.mp e1
  obtain ⟨R1, R2⟩ := abs_le.mp e2
  have uHg : ur * (H * H) ≤ 101 / 100 * g := by
    have := mul_self_le_mul_self H0.le Hρ
    have := mul_le_mul_of_nonneg_left this u0.le
    calc _ ≤ _ := this
      _ = 1001 / 1000 * (1001 / 1000) * g := by rw [hg]; ring
      _ ≤ _ := by linarith
  have uRn : ur * (R - n) ≤ 101 / 100 * g := by
    have : R - n ≤ 1001 / 1000 * (ρ * ρ) := by linarith
    have := mul_le_mul_of_nonneg_left this u0.le
    calc _ ≤ _ := this
      _ = 1001 / 1000 * g := by rw [hg]; ring
      _ ≤ _ := by linarith
  obtain ⟨x1, x2⟩ := abs_le.mp e3
  have X : |x - H * H| ≤ 184 * g := abs_le.mpr ⟨by linarith, by linarith⟩
  have gH : g / H * H = g := by field_simp
  have ζ0 : 0 < g / H := by positivity
  have sx := Real.mul_self_sqrt x0
  have s0 := Real.sqrt_nonneg x
  have S : |√x - H| ≤ 184 * (g / H) := by
    have : |√x - H| * H ≤ 184 * (g / H) * H := by
      calc |√x - H| * H ≤ |√x - H| * (√x + H) := mul_le_mul_of_nonneg_left (by linarith) (abs_nonneg _)
        _ = |(√x - H) * (√x + H)| := by rw [abs_mul, abs_of_nonneg (by linarith : 0 ≤ √x + H)]
        _ = |x - H * H| := by rw [show (√x - H) * (√x + H) = √x * √x - H * H by ring, sx]
        _ ≤ 184 * g := X
        _ = _ := by rw [mul_assoc, gH]
    exact le_of_mul_le_mul_right this H0
  have Z1 : ur * ρ ≤ 101 / 100 * (g / H) := by
    have : ur * ρ * H ≤ 101 / 100 * (g / H) * H := by
      rw [mul_assoc (101 / 100), gH]
      have := mul_le_mul_of_nonneg_left Hρ (by positivity : 0 ≤ ur * ρ)
      calc _ ≤ _ := this
        _ = 1001 / 1000 * g := by rw [hg]; ring
        _ ≤ _ := by linarith
    exact le_of_mul_le_mul_right this H0
  have Z2 : g / H ≤ 1 / 4096 * H := by
    have : g / H * H ≤ 1 / 4096 * H * H := by
      rw [gH]
      have := mul_self_le_mul_self ρp.le hH
      have := mul_le_mul_of_nonneg_left this u0.le
      calc g ≤ _ := this
        _ = ur * 4096 * (H * H) := by ring
        _ = 1 / 4096 * H * H := by norm_num [ur]; ring
    exact le_of_mul_le_mul_right this H0
  obtain ⟨s1, s2⟩ := abs_le.mp S
  have us : ur * √x ≤ 2 * (g / H) := by
    have : √x ≤ 11 / 10 * ρ := by linarith
    have := mul_le_mul_of_nonneg_left this u0.le
    linarith
  obtain ⟨h1, h2⟩ := abs_le.mp e4
  exact ⟨abs_le.mpr ⟨by linarith, by linarith⟩, Z1, Z2, Hρ⟩

omit [Libm] in
/-- the two distances, when the computed distance of the foot point is not negative -/
private theorem two_roots {ρ H K dd l r κ h q P R N t ζ : ℝ} (ρ0 : 1 / 2 ^ 20 ≤ ρ) (hd : |dd - 1| ≤ 16 * ur) (H0 : 0 < H) (r0 : 0 ≤ r) (r1 : r ≤ ρ) (l0 : 0 ≤ l) (l1 : l ≤ 174 / 100 * ρ)
    (hK : |K| ≤ 175 / 100 * ρ) (e0 : l * l - r * r = dd * ((K - H) * (K + H))) (hζ : ζ * H = ur * (ρ * ρ)) (hh : |h - H| ≤ 186 * ζ) (Z1 : ur * ρ ≤ 101 / 100 * ζ) (Z2 : ζ ≤ 1 / 4096 * H)
    (Hρ : H ≤ 1001 / 1000 * ρ) (hκ : |κ - K| ≤ 36 * (ur * ρ)) (κ0 : 0 ≤ κ) (hq : |q - (κ + h)| ≤ ur * (κ + h))
    (e1 : |P - l * l| ≤ 51 / 10 * ur * (l * l) + 1 / 2 ^ 110) (e2 : |R - r * r| ≤ 11 / 10 * ur * (r * r) + 1 / 2 ^ 110) (e3 : |N - (P - R)| ≤ ur * |P - R|)
    (e4 : |t - N / q| ≤ 21 / 10 * ur * |N / q| + 1 / 2 ^ 149) : |q - (K + H)| ≤ 226 * ζ ∧ |t - (K - H)| ≤ 330 * ζ := by
  have u0 := ur_pos
  have u1 : ur ≤ 1 / 1000000 := by norm_num [ur]
  have ρp : 0 < ρ := lt_of_lt_of_le (by norm_num) ρ0
  have ρρ : 0 < ρ * ρ := by positivity
  have uρ : ur * ρ ≤ 1 / 1000000 * ρ := mul_le_mul_of_nonneg_right u1 ρp.le
  have uρ0 : 0 < ur * ρ := by positivity
  have ζ0 : 0 < ζ := by linarith
  obtain ⟨k1, k2⟩ := abs_le.mp hK
  obtain ⟨κ1, κ2⟩ := abs_le.mp hκ
  obtain ⟨h1, h2⟩ := abs_le.mp hh
  obtain ⟨q1, q2⟩ := abs_le.mp hq
  have uκ : ur * (κ + h) ≤ 3 * (ur * ρ) := by
    have : κ + h ≤ 3 * ρ := by linarith
    have := mul_le_mul_of_nonneg_left this u0.le
    linarith
  have Q : |q - (K + H)| ≤ 226 * ζ := abs_le.mpr ⟨by linarith, by linarith⟩
  refine ⟨Q, ?_⟩
  set g := ur * (ρ * ρ) with hg
  have gp : 0 < g := by positivity
  have tiny : 1 / 2 ^ 110 ≤ 1 / 1000 * g := by
    have a := mul_le_mul ρ0 ρ0 (by norm_num) ρp.le
    have := mul_le_mul_of_nonneg_left a u0.le
    norm_num [ur] at this ⊢
    rw [hg]; norm_num [ur]; linarith
  have tiny2 : 1 / 2 ^ 149 ≤ 1 / 1000 * ζ := by
    have := mul_le_mul_of_nonneg_left ρ0 u0.le
    norm_num [ur] at this ⊢
    norm_num [ur] at Z1
    linarith
  have uρρ : g ≤ 1 / 1000000 * (ρ * ρ) := mul_le_mul_of_nonneg_right u1 ρρ.le
  have rr := mul_self_le_mul_self r0 r1
  have ll : l * l ≤ 303 / 100 * (ρ * ρ) := by
    have := mul_self_le_mul_self l0 l1
    linarith
  have url : ur * (l * l) ≤ 303 / 100 * g := by
    have := mul_le_mul_of_nonneg_left ll u0.le
    calc _ ≤ _ := this
      _ = 303 / 100 * g := by rw [hg]; ring
  have urr : ur * (r * r) ≤ g := mul_le_mul_of_nonneg_left rr u0.le
  obtain ⟨P1, P2⟩ := abs_le.mp e1
  obtain ⟨R1, R2⟩ := abs_le.mp e2
  have l2 := mul_self_nonneg l
  have r2 := mul_self_nonneg r
  have PR : |P - R| ≤ 31 / 10 * (ρ * ρ) := abs_le.mpr ⟨by linarith, by linarith⟩
  have uPR : ur * |P - R| ≤ 31 / 10 * g := by
    have := mul_le_mul_of_nonneg_left PR u0.le
    calc _ ≤ _ := this
      _ = 31 / 10 * g := by rw [hg]; ring
  obtain ⟨N1, N2⟩ := abs_le.mp e3
  have NN : |N - dd * ((K - H) * (K + H))| ≤ 21 * (ζ * H) := by
    rw [hζ, ← e0]; exact abs_le.mpr ⟨by linarith, by linarith⟩
  -- sizes of the roots
  set T := K + H with hT
  have TH : 98 / 100 * H ≤ T := by linarith
  have Tp : 0 < T := by linarith
  have T2 : T ≤ 2752 / 1000 * ρ := by linarith
  have To : |K - H| ≤ 102 / 100 * T := abs_le.mpr ⟨by linarith, by linarith⟩
  obtain ⟨Q1, Q2⟩ := abs_le.mp Q
  have qT : 94 / 100 * T ≤ q := by linarith
  have qp : 0 < q := by linarith
  have uT : ur * T ≤ 279 / 100 * ζ := by
    have := mul_le_mul_of_nonneg_left T2 u0.le
    linarith
  have main : |N / q - (K - H)| ≤ 320 * ζ := by
    have : |N / q - (K - H)| * q ≤ 320 * ζ * q := by
      rw [← abs_of_pos qp, ← abs_mul, abs_of_pos qp, sub_mul, div_mul_cancel₀ _ qp.ne']
      have id : N - (K - H) * q = (N - dd * ((K - H) * T)) + ((dd - 1) * (K - H) * T - (K - H) * (q - T)) := by ring
      rw [id]
      refine (abs_add_le _ _).trans ?_
      have b1 := abs_sub ((dd - 1) * (K - H) * T) ((K - H) * (q - T))
      rw [abs_mul, abs_mul, abs_mul, abs_of_pos Tp] at b1
      have b2 : |dd - 1| * |K - H| * T ≤ 16 * ur * (102 / 100 * T) * T :=
        mul_le_mul_of_nonneg_right (mul_le_mul hd To (abs_nonneg _) (by positivity)) Tp.le
      have b3 : |K - H| * |q - T| ≤ 102 / 100 * T * (226 * ζ) := mul_le_mul To Q (abs_nonneg _) (by positivity)
      have b4 : 16 * ur * (102 / 100 * T) * T ≤ 16 * (102 / 100) * (279 / 100 * ζ) * T := by
        calc _ = 16 * (102 / 100) * T * (ur * T) := by ring
          _ ≤ 16 * (102 / 100) * T * (279 / 100 * ζ) := mul_le_mul_of_nonneg_left uT (by positivity)
          _ = _ := by ring
      have b5 : ζ * (98 / 100 * H) ≤ ζ * T := mul_le_mul_of_nonneg_left TH ζ0.le
      have b6 : ζ * (94 / 100 * T) ≤ ζ * q := mul_le_mul_of_nonneg_left qT ζ0.le
      have b7 : 0 < ζ * T := by positivity
      linarith
    exact le_of_mul_le_mul_right this qp
  have nq : |N / q| ≤ 3 * ρ := by
    have := abs_sub_abs_le_abs_sub (N / q) (K - H)
    linarith
  have unq : 21 / 10 * ur * |N / q| ≤ 21 / 10 * 3 * (ur * ρ) := by
    have := mul_le_mul_of_nonneg_left nq u0.le
    linarith
  have := abs_sub_le t (N / q) (K - H)
  linarith

omit [Libm] in
private theorem two_roots_neg {ρ H K dd l r κ h q P R N t ζ : ℝ} (ρ0 : 1 / 2 ^ 20 ≤ ρ) (hd : |dd - 1| ≤ 16 * ur) (H0 : 0 < H) (r0 : 0 ≤ r) (r1 : r ≤ ρ) (l0 : 0 ≤ l) (l1 : l ≤ 174 / 100 * ρ)
    (hK : |K| ≤ 175 / 100 * ρ) (e0 : l * l - r * r = dd * ((K - H) * (K + H))) (hζ : ζ * H = ur * (ρ * ρ)) (hh : |h - H| ≤ 186 * ζ) (Z1 : ur * ρ ≤ 101 / 100 * ζ) (Z2 : ζ ≤ 1 / 4096 * H)
    (Hρ : H ≤ 1001 / 1000 * ρ) (hκ : |κ - K| ≤ 36 * (ur * ρ)) (κ0 : κ < 0) (hq : |q - (κ - h)| ≤ ur * (h - κ))
    (e1 : |P - l * l| ≤ 51 / 10 * ur * (l * l) + 1 / 2 ^ 110) (e2 : |R - r * r| ≤ 11 / 10 * ur * (r * r) + 1 / 2 ^ 110) (e3 : |N - (P - R)| ≤ ur * |P - R|)
    (e4 : |t - N / q| ≤ 21 / 10 * ur * |N / q| + 1 / 2 ^ 149) : |q - (K - H)| ≤ 226 * ζ ∧ |t - (K + H)| ≤ 330 * ζ := by
  have := two_roots (K := -K) (κ := -κ) (q := -q) (t := -t) (N := N) ρ0 hd H0 r0 r1 l0 l1 (by rw [abs_neg]; exact hK) (by rw [e0]; ring) hζ hh Z1 Z2 Hρ
    (by rw [show -κ - -K = -(κ - K) by ring, abs_neg]; exact hκ) (by linarith)
    (by rw [show -q - (-κ + h) = -(q - (κ - h)) by ring, abs_neg, show -κ + h = h - κ by ring]; exact hq) e1 e2 e3
    (by rw [div_neg, abs_neg, show -t - -(N / q) = -(t - N / q) by ring, abs_neg]; exact e4)
  rw [show -q - (-K + H) = -(q - (K - H)) by ring, abs_neg, show -t - (-K - H) = -(t - (K + H)) by ring, abs_neg] at this
  exact this

omit [Libm] in
/-- what it means for two points of the line to be on the sphere -/
private theorem chord {o d : V3 ℝ} {s : V4 ℝ} {a b : ℝ} (dd : 0 < d.dot d) (h : a < b) (ha : onSphere o d s a) (hb : onSphere o d s b) :
    d.dot (s.xyz.sub o) / d.dot d = (a + b) / 2 ∧ (s.xyz.sub o).len * (s.xyz.sub o).len - s.w * s.w = d.dot d * (((a + b) / 2 - (b - a) / 2) * ((a + b) / 2 + (b - a) / 2)) ∧
    (s.xyz.sub o).len * (s.xyz.sub o).len - (a + b) / 2 * ((a + b) / 2) * d.dot d + d.dot d * ((b - a) / 2 * ((b - a) / 2)) = s.w * s.w := by
  rw [V3.len_sq]
  have e : ∀ t, onSphere o d s t → d.dot d * (t * t) - 2 * t * d.dot (s.xyz.sub o) + (s.xyz.sub o).dot (s.xyz.sub o) = s.w * s.w := fun t ht => by
    rw [← ht]; simp only [onSphere, rayAt, V3.dot, V3.sub, V3.add, V3.smul, V4.xyz]; ring
  have ea := e a ha
  have eb := e b hb
  generalize d.dot (s.xyz.sub o) = k at *
  generalize (s.xyz.sub o).dot (s.xyz.sub o) = l at *
  have k' : k = d.dot d * ((a + b) / 2) := by
    have : (b - a) * k = (b - a) * (d.dot d * ((a + b) / 2)) := by linear_combination (ea - eb) / 2
    exact mul_left_cancel₀ (by linarith) this
  refine ⟨by rw [k']; field_simp, ?_, ?_⟩
  · rw [k'] at ea; linear_combination ea
  · rw [k'] at ea; linear_combination ea

omit [Libm] in
private theorem chord_margin {ρ H p r dd : ℝ} (ρp : 0 < ρ) (hd : |dd - 1| ≤ 16 * ur) (HH : ρ ≤ 64 * H) (p0 : 0 ≤ p) (r0 : 0 ≤ r) (r1 : r ≤ ρ)
    (e : p * p + dd * (H * H) = r * r) : p + ρ / 2 ^ 17 ≤ r := by
  rw [margin]
  have u0 := ur_pos
  have u1 : ur ≤ 1 / 1000000 := by norm_num [ur]
  have q1 := mul_self_le_mul_self ρp.le HH
  have q2 : (1 - 16 * ur) * (H * H) ≤ dd * (H * H) := mul_le_mul_of_nonneg_right (by linarith [(abs_le.mp hd).1]) (mul_self_nonneg H)
  have q3 : ur * (H * H) ≤ 1 / 1000000 * (H * H) := mul_le_mul_of_nonneg_right u1 (mul_self_nonneg H)
  by_contra n
  rw [not_le] at n
  have pl : p ≤ r := by
    refine (abs_le_of_sq_le_sq' ?_ r0).2
    nlinarith [mul_self_nonneg H]
  have q4 : (r - p) * (r + p) ≤ 128 * (ur * ρ) * (2 * ρ) := mul_le_mul (by linarith) (by linarith) (by linarith) (by positivity)
  have q5 : ur * (ρ * ρ) * 256 ≤ 1 / 65536 * (ρ * ρ) := by norm_num [ur]; linarith [mul_pos ρp ρp]
  have q6 := mul_pos ρp ρp
  nlinarith

/-- the two values in order, and their signs -/
private theorem sorted {q r : F32} {a b ζ ε : ℝ} (rf : r.isFin = true) (qf : q.isFin = true) (ζ0 : 0 < ζ) (ab : a < b) (εζ : ε = 512 * ζ)
    (near : (|q.toReal - b| ≤ 330 * ζ ∧ |r.toReal - a| ≤ 330 * ζ) ∨ (|q.toReal - a| ≤ 330 * ζ ∧ |r.toReal - b| ≤ 330 * ζ)) :
    ∃ u v : F32, (if flt r q then (r, q) else (q, r)) = (u, v) ∧ u.isFin = true ∧ v.isFin = true ∧ u.toReal ≤ v.toReal ∧ |u.toReal - a| ≤ ε ∧ |v.toReal - b| ≤ ε ∧
      (ε < b → (!(flt q (lit 0) && flt r (lit 0))) = true) ∧ (b < -ε → (!(flt q (lit 0) && flt r (lit 0))) = false) := by
  have z : (lit 0 : F32).toReal = 0 := by have := Apx.zero.err; simpa using this
  have flt0 : ∀ {x : F32}, x.isFin = true → (flt x (lit 0) = true ↔ x.toReal < 0) := fun hx => by rw [flt_f32, lt_real hx Apx.zero.fin, z]
  have flt1 : flt r q = true ↔ r.toReal < q.toReal := by rw [flt_f32, lt_real rf qf]
  have sign : (ε < b → (!(flt q (lit 0) && flt r (lit 0))) = true) ∧ (b < -ε → (!(flt q (lit 0) && flt r (lit 0))) = false) := by
    rw [Bool.not_eq_true', ← Bool.not_eq_true, Bool.not_eq_false', Bool.and_eq_true, flt0 qf, flt0 rf, εζ]
    rcases near with ⟨n1, n2⟩ | ⟨n1, n2⟩ <;> (
      obtain ⟨m1, m2⟩ := abs_le.mp n1
      obtain ⟨m3, m4⟩ := abs_le.mp n2
      refine ⟨fun hh => ?_, fun hh => ⟨by linarith, by linarith⟩⟩
      rintro ⟨w1, w2⟩
      linarith)
  rcases lt_or_ge r.toReal q.toReal with c | c
  · refine ⟨r, q, by rw [if_pos (flt1.mpr c)], rf, qf, c.le, ?_, ?_, sign.1, sign.2⟩ <;> rw [εζ, abs_le]
    all_goals
      rcases near with ⟨n1, n2⟩ | ⟨n1, n2⟩ <;> (
        obtain ⟨m1, m2⟩ := abs_le.mp n1
        obtain ⟨m3, m4⟩ := abs_le.mp n2
        exact ⟨by linarith, by linarith⟩)
  · refine ⟨q, r, by rw [if_neg (by rw [flt1]; exact not_lt.mpr c)], qf, rf, c, ?_, ?_, sign.1, sign.2⟩ <;> rw [εζ, abs_le]
    all_goals
      rcases near with ⟨n1, n2⟩ | ⟨n1, n2⟩ <;> (
        obtain ⟨m1, m2⟩ := abs_le.mp n1
        obtain ⟨m3, m4⟩ := abs_le.mp n2
        exact ⟨by linarith, by linarith⟩)

/-- **The distances.**  The line of the ray meets the sphere at the parameters `a < b`, and the chord is not much shorter than `ρ`.
Then the code writes `a` and `b`, in this order, with an error of at most `ρ² / (2^14 (b - a))`, and reports a hit unless both are
negative. -/
theorem C93_distance (o d : V3 F32) (s : V4 F32) (t1 t2 : F32) (ρ : ℝ) (h : RayBall o d s ρ) (a b : ℝ) (hab : ρ ≤ 32 * (b - a))
    (ha : onSphere (o.map toReal) (d.map toReal) (s.map toReal) a) (hb : onSphere (o.map toReal) (d.map toReal) (s.map toReal) b)
    (ε : ℝ) (hε : ε = ρ * ρ / (2 ^ 14 * (b - a))) :
    ∃ u v : F32, (glm_ray_sphere o d s t1 t2).2 = (u, v) ∧ u.isFin = true ∧ v.isFin = true ∧ u.toReal ≤ v.toReal ∧ |u.toReal - a| ≤ ε ∧ |v.toReal - b| ≤ ε ∧
      (ε < b → (glm_ray_sphere o d s t1 t2).1 = true) ∧ (b < -ε → (glm_ray_sphere o d s t1 t2).1 = false) := by
  have u0 := ur_pos
  have u1 : ur ≤ 1 / 1000000 := by norm_num [ur]
  obtain ⟨ρ0, ρ1⟩ := h.size
  obtain ⟨r0, r1⟩ := h.radius
  obtain ⟨c1, c2, c3⟩ := h.center
  have ρp : 0 < ρ := lt_of_lt_of_le (by norm_num) ρ0
  have uρ0 := mul_pos u0 ρp
  have uρ : ur * ρ ≤ 1 / 1000000 * ρ := mul_le_mul_of_nonneg_right u1 ρp.le
  set O := o.map toReal
  set E := d.map toReal
  set B := s.map toReal
  set D := B.xyz.sub O with hD
  have dd0 : 0 < E.dot E := by have := (abs_le.mp h.unit).1
                               have h1 : -(16 * ur) ≤ E.dot E - 1 := this
                               linarith
  obtain ⟨g1, g2, g3⟩ := chord dd0 (by linarith) ha hb
  rw [← hD] at g1 g2 g3
  obtain ⟨-, l1, -, K0, K1, P0, -⟩ := line (d := E) (D := D) h.unit c1 c2 c3
  have P : lineDist O E B * lineDist O E B = D.len * D.len - E.dot D / E.dot E * (E.dot D / E.dot E) * E.dot E := P0
  have p0 : 0 ≤ lineDist O E B := V3.len_nonneg _
  rw [g1] at K0 K1 P
  have hw : B.w = s.w.toReal := rfl
  rw [hw] at g2 g3
  set H := (b - a) / 2 with hH
  set K := (a + b) / 2 with hK
  have H0 : 0 < H := by linarith
  have HH : ρ ≤ 64 * H := by linarith
  have chordEq : lineDist O E B * lineDist O E B + E.dot E * (H * H) = s.w.toReal * s.w.toReal := by linarith
  -- the margin
  have hm : lineDist O E B + ρ / 2 ^ 17 ≤ s.w.toReal := chord_margin ρp h.unit HH p0 r0 r1 chordEq
  rw [finish_eq]
  obtain ⟨z1, z2, z3, z4, -, l2⟩ := sizes h
  have gap := hit_gap h hm
  obtain ⟨⟨f1, e1⟩, ⟨f2, e2⟩, ⟨f3, L, L0, L1, e3⟩, f4, e4⟩ := core h
  have z : (lit 0 : F32).toReal = 0 := by have := Apx.zero.err; simpa using this
  obtain ⟨h', q, r, hh', HF, H1, se, de, -, qF, q0, qp, qn, hr, key⟩ := finish_hit t1 t2 z1 z2 z3 z4 gap (n_lower e3)
  dsimp only at key gap e1 e2 e3 e4 ⊢
  rw [key]
  have x0 : 0 ≤ (s.w * s.w - glm_vec3_norm2 (glm_vec3_mulsubs d (glm_vec3_dot d (glm_vec3_sub ⟨s.x, s.y, s.z⟩ o)) (glm_vec3_sub ⟨s.x, s.y, s.z⟩ o))).toReal := by
    obtain ⟨d1, -⟩ := abs_le.mp de
    have w : 0 ≤ (s.w * s.w).toReal - (glm_vec3_norm2 (glm_vec3_mulsubs d (glm_vec3_dot d (glm_vec3_sub ⟨s.x, s.y, s.z⟩ o)) (glm_vec3_sub ⟨s.x, s.y, s.z⟩ o))).toReal := by
      have : (0 : ℝ) < 1 / 2 ^ 85 := by norm_num
      linarith
    have := mul_le_mul_of_nonneg_right u1 w
    linarith
  obtain ⟨hc, Z1, Z2, Hρ⟩ := half_chord ρ0 h.unit H0 HH p0 r0 r1 chordEq L0 L1 e3 e4 de x0 se
  set ζ := ur * (ρ * ρ) / H with hζ
  have ζH : ζ * H = ur * (ρ * ρ) := by rw [hζ]; field_simp
  have ζ0 : 0 < ζ := by positivity
  have εζ : ε = 512 * ζ := by
    rw [hε, hζ, show b - a = 2 * H by rw [hH]; ring]
    norm_num [ur]; field_simp; norm_num
  have κ : |(glm_vec3_dot d (glm_vec3_sub ⟨s.x, s.y, s.z⟩ o)).toReal - K| ≤ 36 * (ur * ρ) := by
    have := abs_sub_le (glm_vec3_dot d (glm_vec3_sub ⟨s.x, s.y, s.z⟩ o)).toReal (E.dot D) K
    linarith
  obtain ⟨nf, ne⟩ := sub_apx z2 z4
  have nb : Fine (glm_vec3_norm2 (glm_vec3_sub ⟨s.x, s.y, s.z⟩ o) - s.w * s.w) (2 ^ 52) := by
    refine ⟨nf, ?_⟩
    have a1 := abs_sub_abs_le_abs_sub (glm_vec3_norm2 (glm_vec3_sub ⟨s.x, s.y, s.z⟩ o) - s.w * s.w).toReal ((glm_vec3_norm2 (glm_vec3_sub ⟨s.x, s.y, s.z⟩ o)).toReal - (s.w * s.w).toReal)
    have a2 := abs_sub (glm_vec3_norm2 (glm_vec3_sub ⟨s.x, s.y, s.z⟩ o)).toReal (s.w * s.w).toReal
    have a3 := mul_le_mul_of_nonneg_right u1 (abs_nonneg ((glm_vec3_norm2 (glm_vec3_sub ⟨s.x, s.y, s.z⟩ o)).toReal - (s.w * s.w).toReal))
    have a4 := z2.2
    have a5 := z4.2
    norm_num at a4 a5 ⊢
    linarith
  obtain ⟨rf, re⟩ := quot_err nb qF q0
  rw [← hr] at rf re
  have tn : K - H = a := by rw [hK, hH]; ring
  have tf : K + H = b := by rw [hK, hH]; ring
  -- the two values are near `a` and `b`, in one order or the other
  have near : (|q.toReal - b| ≤ 330 * ζ ∧ |r.toReal - a| ≤ 330 * ζ) ∨ (|q.toReal - a| ≤ 330 * ζ ∧ |r.toReal - b| ≤ 330 * ζ) := by
    rcases le_or_gt 0 (glm_vec3_dot d (glm_vec3_sub ⟨s.x, s.y, s.z⟩ o)).toReal with c | c
    · obtain ⟨y1, y2⟩ := two_roots ρ0 h.unit H0 r0 r1 (V3.len_nonneg D) l1 K0 g2 ζH hc Z1 Z2 Hρ κ c (qp c).2 e2 e4 ne re
      rw [tf] at y1; rw [tn] at y2
      exact Or.inl ⟨y1.trans (mul_le_mul_of_nonneg_right (by norm_num) ζ0.le), y2⟩
    · obtain ⟨y1, y2⟩ := two_roots_neg ρ0 h.unit H0 r0 r1 (V3.len_nonneg D) l1 K0 g2 ζH hc Z1 Z2 Hρ κ c (qn c).2 e2 e4 ne re
      rw [tn] at y1; rw [tf] at y2
      exact Or.inr ⟨y1.trans (mul_le_mul_of_nonneg_right (by norm_num) ζ0.le), y2⟩
  exact sorted rf qF.1 ζ0 (by linarith) εζ near

omit [Libm] in
/-- `lineDist` is the distance of the center from the nearest point of the line. -/
theorem C93_lineDist (o d : V3 ℝ) (s : V4 ℝ) (hd : 0 < d.dot d) : (∀ t, lineDist o d s ≤ ((rayAt o d t).sub s.xyz).len) ∧ ∃ t, lineDist o d s = ((rayAt o d t).sub s.xyz).len := by
  have k : d.dot (s.xyz.sub o) / d.dot d * d.dot d = d.dot (s.xyz.sub o) := by field_simp
  refine ⟨fun t => ?_, d.dot (s.xyz.sub o) / d.dot d, ?_⟩
  · refine (abs_le_of_sq_le_sq' ?_ (V3.len_nonneg _)).2
    rw [pow_two, pow_two, lineDist, V3.len_sq, V3.len_sq]
    generalize d.dot (s.xyz.sub o) / d.dot d = c at *
    have := mul_nonneg (sq_nonneg (t - c)) hd.le
    have id : ((rayAt o d t).sub s.xyz).dot ((rayAt o d t).sub s.xyz) = ((s.xyz.sub o).sub (d.smul c)).dot ((s.xyz.sub o).sub (d.smul c)) + (t - c) ^ 2 * d.dot d := by
      simp only [V3.dot, V3.sub, V3.smul, V3.add, rayAt, V4.xyz] at *
      linear_combination (2 * (t - c)) * k
    linarith
  · rw [lineDist, V3.len, V3.len]
    congr 1
    simp only [V3.dot, V3.sub, V3.smul, V3.add, rayAt, V4.xyz]
    ring

/-- Without the margin the claim is false: along the x axis, the unit ball at `(2, 1, 2^-13)` is missed, the code reports a hit. -/
theorem C93_miss_refuted : ¬ ∀ (o d : V3 F32) (s : V4 F32) (t1 t2 : F32) (ρ : ℝ), RayBall o d s ρ →
    s.w.toReal < lineDist (o.map toReal) (d.map toReal) (s.map toReal) → (glm_ray_sphere o d s t1 t2).1 = false := by
  intro h
  have v0 : (ofRat false 0).isFin = true ∧ (ofRat false 0).val = 0 := by decide +kernel
  have v1 : (ofRat false 1).isFin = true ∧ (ofRat false 1).val = 1 := by decide +kernel
  have v2 : (ofRat false 2).isFin = true ∧ (ofRat false 2).val = 2 := by decide +kernel
  have v3 : (ofRat false (1 / 2 ^ 13)).isFin = true ∧ (ofRat false (1 / 2 ^ 13)).val = 1 / 2 ^ 13 := by decide +kernel
  have w0 : (ofRat false 0).toReal = 0 := by simp [toReal, v0.2]
  have w1 : (ofRat false 1).toReal = 1 := by simp [toReal, v1.2]
  have w2 : (ofRat false 2).toReal = 2 := by simp [toReal, v2.2]
  have w3 : (ofRat false (1 / 2 ^ 13)).toReal = 1 / 2 ^ 13 := by simp only [toReal, v3.2]; norm_num
  have t := h ⟨ofRat false 0, ofRat false 0, ofRat false 0⟩ ⟨ofRat false 1, ofRat false 0, ofRat false 0⟩ ⟨ofRat false 2, ofRat false 1, ofRat false (1 / 2 ^ 13), ofRat false 1⟩
    (ofRat false 0) (ofRat false 0) 2
    ⟨⟨⟨v0.1, by rw [w0]; norm_num⟩, ⟨v0.1, by rw [w0]; norm_num⟩, ⟨v0.1, by rw [w0]; norm_num⟩⟩, ⟨v1.1, v0.1, v0.1⟩,
      by simp only [V3.map, V3.dot, w0, w1]; norm_num [ur],
      ⟨⟨v2.1, by rw [w2]; norm_num⟩, ⟨v1.1, by rw [w1]; norm_num⟩, ⟨v3.1, by rw [w3]; norm_num⟩, ⟨v1.1, by rw [w1]; norm_num⟩⟩,
      ⟨by simp only [w0, w2]; norm_num, by simp only [w0, w1]; norm_num, by simp only [w0, w3]; norm_num⟩,
      ⟨by simp only [w1]; norm_num, by simp only [w1]; norm_num⟩, by norm_num, by norm_num⟩
    (by
      have l0 := V3.len_nonneg (((V4.map toReal ⟨ofRat false 2, ofRat false 1, ofRat false (1 / 2 ^ 13), ofRat false 1⟩).xyz.sub (V3.map toReal ⟨ofRat false 0, ofRat false 0, ofRat false 0⟩)).sub
        ((V3.map toReal ⟨ofRat false 1, ofRat false 0, ofRat false 0⟩).smul ((V3.map toReal ⟨ofRat false 1, ofRat false 0, ofRat false 0⟩).dot
          ((V4.map toReal ⟨ofRat false 2, ofRat false 1, ofRat false (1 / 2 ^ 13), ofRat false 1⟩).xyz.sub (V3.map toReal ⟨ofRat false 0, ofRat false 0, ofRat false 0⟩)) /
          (V3.map toReal ⟨ofRat false 1, ofRat false 0, ofRat false 0⟩).dot (V3.map toReal ⟨ofRat false 1, ofRat false 0, ofRat false 0⟩))))
      unfold lineDist
      refine Real.lt_sqrt_of_sq_lt ?_
      simp only [V3.dot, V3.sub, V3.smul, V3.map, V4.map, V4.xyz, w0, w1, w2, w3]
      norm_num)
  rw [finish_eq] at t
  have d1 : glm_vec3_dot ⟨ofRat false 1, ofRat false 0, ofRat false 0⟩ (glm_vec3_sub ⟨ofRat false 2, ofRat false 1, ofRat false (1 / 2 ^ 13)⟩ ⟨ofRat false 0, ofRat false 0, ofRat false 0⟩) = ofRat false 2 := by decide +kernel
  have d2 : glm_vec3_norm2 (glm_vec3_sub ⟨ofRat false 2, ofRat false 1, ofRat false (1 / 2 ^ 13)⟩ ⟨ofRat false 0, ofRat false 0, ofRat false 0⟩) = ofRat false 5 := by decide +kernel
  have d3 : glm_vec3_norm2 (glm_vec3_mulsubs ⟨ofRat false 1, ofRat false 0, ofRat false 0⟩ (ofRat false 2)
    (glm_vec3_sub ⟨ofRat false 2, ofRat false 1, ofRat false (1 / 2 ^ 13)⟩ ⟨ofRat false 0, ofRat false 0, ofRat false 0⟩)) = ofRat false 1 := by decide +kernel
  have d4 : ofRat false 1 * ofRat false 1 = ofRat false 1 := by decide +kernel
  simp only [d1, d2, d3, d4] at t
  have b1 : flt (ofRat false 1 - ofRat false 1) (lit 0 : F32) = false := by rw [flt_f32, lit_f32]; decide +kernel
  have b2 : fle (lit 0 : F32) (ofRat false 2) = true := by rw [fle_f32, lit_f32]; decide +kernel
  have b3 : ofRat false 2 + sqrtf (ofRat false 1 - ofRat false 1) = ofRat false 2 := by rw [sqrtf_f32]; decide +kernel
  have b4 : (ofRat false 5 - ofRat false 1) / ofRat false 2 = ofRat false 2 := by decide +kernel
  have b5 : flt (ofRat false 2) (ofRat false 2) = false := by rw [flt_f32]; decide +kernel
  have b6 : flt (ofRat false 2) (lit 0 : F32) = false := by rw [flt_f32, lit_f32]; decide +kernel
  unfold finish at t
  simp only [b1, b2, b3, b4, b5, b6, if_true, Bool.false_eq_true, if_false, Bool.and_false] at t
  exact Bool.noConfusion t

/-! ### the hypotheses can be met -/

/-- Along the x axis from the origin: the unit ball at `(3, 0, 0)` is hit, at the distances 2 and 4. -/
example : ∃ (o d : V3 F32) (s : V4 F32), RayBall o d s 3 ∧ lineDist (o.map toReal) (d.map toReal) (s.map toReal) + 3 / 2 ^ 17 ≤ s.w.toReal ∧
    3 / 2 ^ 17 ≤ (d.map toReal).dot ((s.map toReal).xyz.sub (o.map toReal)) ∧ (3 : ℝ) ≤ 32 * (4 - 2) ∧
    onSphere (o.map toReal) (d.map toReal) (s.map toReal) 2 ∧ onSphere (o.map toReal) (d.map toReal) (s.map toReal) 4 := by
  have v0 : (ofRat false 0).isFin = true ∧ (ofRat false 0).val = 0 := by decide +kernel
  have v1 : (ofRat false 1).isFin = true ∧ (ofRat false 1).val = 1 := by decide +kernel
  have v3 : (ofRat false 3).isFin = true ∧ (ofRat false 3).val = 3 := by decide +kernel
  have w0 : (ofRat false 0).toReal = 0 := by simp [toReal, v0.2]
  have w1 : (ofRat false 1).toReal = 1 := by simp [toReal, v1.2]
  have w3 : (ofRat false 3).toReal = 3 := by simp [toReal, v3.2]
  refine ⟨⟨ofRat false 0, ofRat false 0, ofRat false 0⟩, ⟨ofRat false 1, ofRat false 0, ofRat false 0⟩, ⟨ofRat false 3, ofRat false 0, ofRat false 0, ofRat false 1⟩,
    ⟨⟨⟨v0.1, by rw [w0]; norm_num⟩, ⟨v0.1, by rw [w0]; norm_num⟩, ⟨v0.1, by rw [w0]; norm_num⟩⟩, ⟨v1.1, v0.1, v0.1⟩,
      by simp only [V3.map, V3.dot, w0, w1]; norm_num [ur],
      ⟨⟨v3.1, by rw [w3]; norm_num⟩, ⟨v0.1, by rw [w0]; norm_num⟩, ⟨v0.1, by rw [w0]; norm_num⟩, ⟨v1.1, by rw [w1]; norm_num⟩⟩,
      ⟨by simp only [w0, w3]; norm_num, by simp only [w0]; norm_num, by simp only [w0]; norm_num⟩,
      ⟨by simp only [w1]; norm_num, by simp only [w1]; norm_num⟩, by norm_num, by norm_num⟩, ?_, ?_, by norm_num, ?_, ?_⟩
  · simp only [lineDist, V3.len, V3.dot, V3.sub, V3.smul, V3.map, V4.map, V4.xyz, w0, w1, w3]
    norm_num
  · simp only [V3.dot, V3.sub, V3.map, V4.map, V4.xyz, w0, w1, w3]; norm_num
  · simp only [onSphere, rayAt, V3.dot, V3.sub, V3.add, V3.smul, V3.map, V4.map, V4.xyz, w0, w1, w3]; norm_num
  · simp only [onSphere, rayAt, V3.dot, V3.sub, V3.add, V3.smul, V3.map, V4.map, V4.xyz, w0, w1, w3]; norm_num

end Cglm
