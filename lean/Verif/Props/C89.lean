import Verif.F32Apx
import Verif.F32Order
import Verif.Props.C41

/-!
# C89: ray and triangle in binary32

The three weights of the point where the ray meets the plane of the triangle decide.  Rounding can change the answer only when one of
them is within `rayMargin` of zero.  The margin is small when the ray is not nearly parallel to the triangle: it is `2^-16` times the
products of the lengths over the exact determinant.
-/

namespace Cglm
open F32

variable [Libm]

/-- `δ`, `ε`, `τ` bound the coordinates of the direction, of the two edges and of the origin as seen from the first vertex -/
structure RaySize (o d v0 v1 v2 : V3 ℝ) (δ ε τ : ℝ) : Prop where
  dir : |d.x| ≤ δ ∧ |d.y| ≤ δ ∧ |d.z| ≤ δ
  edge1 : |v1.x - v0.x| ≤ ε ∧ |v1.y - v0.y| ≤ ε ∧ |v1.z - v0.z| ≤ ε
  edge2 : |v2.x - v0.x| ≤ ε ∧ |v2.y - v0.y| ≤ ε ∧ |v2.z - v0.z| ≤ ε
  orig : |o.x - v0.x| ≤ τ ∧ |o.y - v0.y| ≤ τ ∧ |o.z - v0.z| ≤ τ
  small : δ ≤ 2 ^ 20 ∧ ε ≤ 2 ^ 21 ∧ τ ≤ 2 ^ 21

/-- how close to zero a weight must be for rounding to decide -/
noncomputable def rayMargin (δ ε τ D : ℝ) : ℝ := 256 * ur * (δ * ε * (ε + τ)) / |D|

/-- the error of the distance `t` -/
noncomputable def rayError (δ ε τ D t : ℝ) : ℝ := 80 * ur * (ε * ε * τ) / |D| + rayMargin δ ε τ D * |t| + 1 / 2 ^ 50

omit [Libm] in
private theorem lt_real {a b : F32} (ha : a.isFin = true) (hb : b.isFin = true) : F32.lt a b = true ↔ a.toReal < b.toReal := by
  rw [lt_fin ha hb]; unfold toReal; exact Rat.cast_lt.symm

omit [Libm] in
private theorem mono {f : F32} {x M M' A A' c : ℝ} {k : ℕ} (h : Apx f x M k A c) (hM : M ≤ M') (hA : M' ≤ A') : Apx f x M' k A' c := by
  refine ⟨h.fin, h.err.trans (add_le_add (mul_le_mul_of_nonneg_left hM ?_) le_rfl), h.mag.trans hM, hA, h.c0⟩
  have := Apx.le_pow k
  have := mul_nonneg (Nat.cast_nonneg k : (0 : ℝ) ≤ k) ur_pos.le
  linarith

/-- the product with the computed reciprocal -/
private theorem quot {D N : F32} (hD : Fine D (2 ^ 70)) (hN : Fine N (2 ^ 70)) (h : 1 / 10 ^ 6 ≤ |D.toReal|) :
    Fine ((lit 1 / D) * N) (2 ^ 91) ∧ |((lit 1 / D) * N).toReal * D.toReal - N.toReal| ≤ 41 / 10 * ur * |N.toReal| + 1 / 2 ^ 80 := by
  have u0 := ur_pos
  have dp : 0 < |D.toReal| := lt_of_lt_of_le (by norm_num) h
  have d0 : D.toReal ≠ 0 := abs_pos.mp dp
  have i := Apx.one.div (1 / 10 ^ 6) (Apx.var hD) (by norm_num) h (by norm_num) (by norm_num)
  have j : Apx (lit 1 / D) (1 / D.toReal) (1 / |D.toReal|) 3 (10 ^ 6) 0 := by
    refine ⟨i.fin, i.err.trans ?_, i.mag, i.le.trans (by norm_num), le_rfl⟩
    have : 1 / 2 ^ 70 ≤ 1 / |D.toReal| := one_div_le_one_div_of_le dp hD.2
    have hm := mul_le_mul_of_nonneg_left this u0.le
    have M0 : 0 ≤ 1 / |D.toReal| := by positivity
    generalize 1 / |D.toReal| = M at *
    have e : ((1 + ur) ^ 3 - 1) * M = ((1 + ur) ^ 2 - 1) * M + ur * M + ur * (2 + ur) * (ur * M) := by ring
    have : 0 ≤ ur * (2 + ur) * (ur * M) := by positivity
    have : (2 * 0 / (1 / 10 ^ 6) + 1) * ηr ≤ ur * (1 / 2 ^ 70) := by norm_num [ur, ηr]
    rw [e]
    linarith
  have p := j.mul (Apx.var hN) (by norm_num) (by norm_num)
  obtain ⟨f, q⟩ := p.bound 4 (1 / |D.toReal| * |N.toReal|) rfl (by norm_num) (by norm_num) le_rfl le_rfl
  refine ⟨⟨f, (p.fine (by norm_num)).2.trans (by norm_num)⟩, ?_⟩
  have e : ((lit 1 / D) * N).toReal * D.toReal - N.toReal = (((lit 1 / D) * N).toReal - 1 / D.toReal * N.toReal) * D.toReal := by field_simp
  rw [e, abs_mul]
  refine (mul_le_mul_of_nonneg_right q (abs_nonneg _)).trans ?_
  have hn := mul_nonneg u0.le (abs_nonneg N.toReal)
  have c : 1 / |D.toReal| * |N.toReal| * |D.toReal| = |N.toReal| := by field_simp
  have : (101 / 100 * ((10 : ℝ) ^ 6 * 0 + 2 ^ 70 * 0 + 0 * 0) + 1) * ηr * |D.toReal| ≤ ηr * 2 ^ 70 := by
    have := mul_le_mul_of_nonneg_left hD.2 (by norm_num [ηr] : 0 ≤ ηr)
    norm_num at this ⊢; linarith
  have : ηr * 2 ^ 70 = 1 / 2 ^ 80 := by norm_num [ηr]
  calc _ = 1001 / 1000 * 4 * ur * (1 / |D.toReal| * |N.toReal| * |D.toReal|) + (101 / 100 * ((10 : ℝ) ^ 6 * 0 + 2 ^ 70 * 0 + 0 * 0) + 1) * ηr * |D.toReal| := by push_cast; ring
    _ ≤ _ := by rw [c]; linarith

omit [Libm] in
private theorem weights_pos {D C g b c x y : ℝ} (hg : 0 < g) (h1 : 1024 * g ≤ D) (hu : ur * D ≤ 6 * g) (hC : |C - D| ≤ 43 * g)
    (hx : |x * C - b * D| ≤ 68 * g) (hy : |y * C - c * D| ≤ 68 * g) :
    (256 * g ≤ b * D → 0 ≤ x) ∧ (b * D ≤ -(256 * g) → x < 0) ∧ (256 * g ≤ c * D → 0 ≤ y) ∧ (c * D ≤ -(256 * g) → y < 0) ∧
    (256 * g ≤ (1 - b - c) * D → x + y ≤ 1) ∧ ((1 - b - c) * D ≤ -(256 * g) → 1 + 2 * ur ≤ x + y) := by
  obtain ⟨C1, C2⟩ := abs_le.mp hC
  obtain ⟨x1, x2⟩ := abs_le.mp hx
  obtain ⟨y1, y2⟩ := abs_le.mp hy
  have Cp : 0 < C := by linarith
  have u1 : ur ≤ 1 / 100 := by norm_num [ur]
  have ug : ur * g ≤ 1 / 100 * g := mul_le_mul_of_nonneg_right u1 hg.le
  have uC : ur * C ≤ 7 * g := by
    have := mul_le_mul_of_nonneg_left (by linarith : C ≤ D + 43 * g) ur_pos.le
    linarith
  refine ⟨fun h => ?_, fun h => ?_, fun h => ?_, fun h => ?_, fun h => ?_, fun h => ?_⟩
  · by_contra n
    have := mul_neg_of_neg_of_pos (not_le.mp n) Cp
    linarith
  · by_contra n
    have := mul_nonneg (not_lt.mp n) Cp.le
    linarith
  · by_contra n
    have := mul_neg_of_neg_of_pos (not_le.mp n) Cp
    linarith
  · by_contra n
    have := mul_nonneg (not_lt.mp n) Cp.le
    linarith
  · by_contra n
    have := mul_lt_mul_of_pos_right (not_le.mp n) Cp
    linarith
  · by_contra n
    have := mul_lt_mul_of_pos_right (not_le.mp n) Cp
    linarith

omit [Libm] in
private theorem weights {D C g b c x y : ℝ} (hg : 0 < g) (h1 : 1024 * g ≤ |D|) (hu : ur * |D| ≤ 6 * g) (hC : |C - D| ≤ 43 * g)
    (hx : |x * C - b * D| ≤ 68 * g) (hy : |y * C - c * D| ≤ 68 * g) :
    (256 * g ≤ b * |D| → 0 ≤ x) ∧ (b * |D| ≤ -(256 * g) → x < 0) ∧ (256 * g ≤ c * |D| → 0 ≤ y) ∧ (c * |D| ≤ -(256 * g) → y < 0) ∧
    (256 * g ≤ (1 - b - c) * |D| → x + y ≤ 1) ∧ ((1 - b - c) * |D| ≤ -(256 * g) → 1 + 2 * ur ≤ x + y) := by
  rcases le_or_gt 0 D with h | h
  · rw [abs_of_nonneg h] at *
    exact weights_pos hg h1 hu hC hx hy
  · rw [abs_of_neg h] at *
    refine weights_pos (C := -C) hg h1 hu ?_ ?_ ?_
    · rw [show -C - -D = -(C - D) by ring, abs_neg]; exact hC
    · rw [show x * -C - b * -D = -(x * C - b * D) by ring, abs_neg]; exact hx
    · rw [show y * -C - c * -D = -(y * C - c * D) by ring, abs_neg]; exact hy

omit [Libm] in
private theorem dist_err {D C g F t z : ℝ} (F0 : 0 ≤ F) (h0 : 2 / 10 ^ 6 ≤ |D|) (hg : 0 < g) (h1 : 1024 * g ≤ |D|) (hC : |C - D| ≤ 43 * g)
    (hz : |z * C - t * D| ≤ 74 * ur * F + 2 / 2 ^ 80) : |z - t| ≤ 80 * ur * F / |D| + 256 * g / |D| * |t| + 1 / 2 ^ 50 := by
  have dp : 0 < |D| := lt_of_lt_of_le (by norm_num) h0
  have e : (z - t) * D = (z * C - t * D) - (z - t) * (C - D) - t * (C - D) := by ring
  have a1 := abs_sub ((z * C - t * D) - (z - t) * (C - D)) (t * (C - D))
  have a2 := abs_sub (z * C - t * D) ((z - t) * (C - D))
  rw [← e, abs_mul, abs_mul] at a1
  rw [abs_mul] at a2
  have b1 := mul_le_mul_of_nonneg_left hC (abs_nonneg t)
  have b2 := mul_le_mul_of_nonneg_left (hC.trans (by linarith : 43 * g ≤ 43 / 1024 * |D|)) (abs_nonneg (z - t))
  have k : |z - t| * |D| ≤ 80 * ur * F + 256 * g * |t| + 3 / 2 ^ 80 := by
    have := mul_nonneg ur_pos.le F0
    have := mul_nonneg hg.le (abs_nonneg t)
    norm_num at *
    linarith
  have d : |z - t| ≤ (80 * ur * F + 256 * g * |t| + 3 / 2 ^ 80) / |D| := by rw [le_div_iff₀ dp]; exact k
  refine d.trans ?_
  rw [add_div, add_div, mul_div_right_comm (256 * g)]
  refine add_le_add le_rfl ?_
  rw [div_le_iff₀ dp]
  norm_num at *
  linarith

omit [Libm] in
private theorem apx_sub {a b : F32} {m A : ℝ} (ha : Fine a (2 ^ 20)) (hb : Fine b (2 ^ 20)) (h : |a.toReal - b.toReal| ≤ m) (hm : m ≤ A) :
    Apx (a - b) (a.toReal - b.toReal) m 1 A 0 := mono (Apx.subv ha hb (by norm_num)) h hm

omit [Libm] in
/-- the four triple products -/
private theorem products {o d v0 v1 v2 : V3 F32} {δ ε τ : ℝ} (ho : o.Below (2 ^ 20)) (hd : d.Below (2 ^ 20)) (h0 : v0.Below (2 ^ 20)) (h1 : v1.Below (2 ^ 20)) (h2 : v2.Below (2 ^ 20))
    (hs : RaySize (o.map toReal) (d.map toReal) (v0.map toReal) (v1.map toReal) (v2.map toReal) δ ε τ) :
    let e1 := glm_vec3_sub v1 v0; let e2 := glm_vec3_sub v2 v0; let t := glm_vec3_sub o v0; let p := glm_vec3_cross d e2; let q := glm_vec3_cross t e1
    let O := o.map toReal; let D := d.map toReal; let A := v0.map toReal; let B := v1.map toReal; let C := v2.map toReal
    ((glm_vec3_dot e1 p).isFin = true ∧ |(glm_vec3_dot e1 p).toReal - rayDet D A B C| ≤ 421 / 10 * ur * (δ * ε * ε) + 1 / 2 ^ 100) ∧
    ((glm_vec3_dot t p).isFin = true ∧ |(glm_vec3_dot t p).toReal - (O.sub A).dot (D.cross (C.sub A))| ≤ 421 / 10 * ur * (δ * ε * τ) + 1 / 2 ^ 100) ∧
    ((glm_vec3_dot d q).isFin = true ∧ |(glm_vec3_dot d q).toReal - D.dot ((O.sub A).cross (B.sub A))| ≤ 421 / 10 * ur * (δ * ε * τ) + 1 / 2 ^ 100) ∧
    ((glm_vec3_dot e2 q).isFin = true ∧ |(glm_vec3_dot e2 q).toReal - (C.sub A).dot ((O.sub A).cross (B.sub A))| ≤ 481 / 10 * ur * (ε * ε * τ) + 1 / 2 ^ 100) := by
  intro e1 e2 t p q O D A B C
  obtain ⟨⟨d1, d2, d3⟩, ⟨a1, a2, a3⟩, ⟨b1, b2, b3⟩, ⟨t1, t2, t3⟩, ⟨m1, m2, m3⟩⟩ := hs
  simp only [V3.map] at d1 d2 d3 a1 a2 a3 b1 b2 b3 t1 t2 t3
  have δ0 := (abs_nonneg _).trans d1
  have ε0 := (abs_nonneg _).trans a1
  have τ0 := (abs_nonneg _).trans t1
  have u0 := ur_pos.le
  have D1 : Apx d.x d.x.toReal δ 0 (2 ^ 20) 0 := mono (Apx.var hd.1) d1 m1
  have D2 : Apx d.y d.y.toReal δ 0 (2 ^ 20) 0 := mono (Apx.var hd.2.1) d2 m1
  have D3 : Apx d.z d.z.toReal δ 0 (2 ^ 20) 0 := mono (Apx.var hd.2.2) d3 m1
  have A1 := apx_sub h1.1 h0.1 a1 m2
  have A2 := apx_sub h1.2.1 h0.2.1 a2 m2
  have A3 := apx_sub h1.2.2 h0.2.2 a3 m2
  have B1 := apx_sub h2.1 h0.1 b1 m2
  have B2 := apx_sub h2.2.1 h0.2.1 b2 m2
  have B3 := apx_sub h2.2.2 h0.2.2 b3 m2
  have T1 := apx_sub ho.1 h0.1 t1 m3
  have T2 := apx_sub ho.2.1 h0.2.1 t2 m3
  have T3 := apx_sub ho.2.2 h0.2.2 t3 m3
  refine ⟨?_, ?_, ?_, ?_⟩
  · apply Apx.bound 7 (6 * (δ * ε * ε))
    · simp only [e1, p, e2, glm_vec3_dot, glm_vec3_cross, glm_vec3_sub, glm_vec3_copy]
      apx <;> norm_num
    · simp only [rayDet, V3.dot, V3.cross, V3.sub, V3.map, A, B, C, D]
    · norm_num
    · norm_num
    · exact le_of_eq (by ring)
    · have := mul_nonneg u0 (mul_nonneg (mul_nonneg δ0 ε0) ε0)
      norm_num [ηr]; linarith
  · apply Apx.bound 7 (6 * (δ * ε * τ))
    · simp only [t, p, e2, glm_vec3_dot, glm_vec3_cross, glm_vec3_sub, glm_vec3_copy]
      apx <;> norm_num
    · simp only [V3.dot, V3.cross, V3.sub, V3.map, A, C, D, O]
    · norm_num
    · norm_num
    · exact le_of_eq (by ring)
    · have := mul_nonneg u0 (mul_nonneg (mul_nonneg δ0 ε0) τ0)
      norm_num [ηr]; linarith
  · apply Apx.bound 7 (6 * (δ * ε * τ))
    · simp only [t, q, e1, glm_vec3_dot, glm_vec3_cross, glm_vec3_sub, glm_vec3_copy]
      apx <;> norm_num
    · simp only [V3.dot, V3.cross, V3.sub, V3.map, A, B, D, O]
    · norm_num
    · norm_num
    · exact le_of_eq (by ring)
    · have := mul_nonneg u0 (mul_nonneg (mul_nonneg δ0 ε0) τ0)
      norm_num [ηr]; linarith
  · apply Apx.bound 8 (6 * (ε * ε * τ))
    · simp only [t, q, e1, e2, glm_vec3_dot, glm_vec3_cross, glm_vec3_sub, glm_vec3_copy]
      apx <;> norm_num
    · simp only [V3.dot, V3.cross, V3.sub, V3.map, A, B, C, O]
    · norm_num
    · norm_num
    · exact le_of_eq (by ring)
    · have := mul_nonneg u0 (mul_nonneg (mul_nonneg ε0 ε0) τ0)
      norm_num [ηr]; linarith

omit [Libm] in
/-- what the numerators are when the point of the ray has the given weights -/
private theorem solve {o d v0 v1 v2 : V3 ℝ} {a b c t : ℝ} (h : a + b + c = 1) (e : rayAt o d t = ((v0.smul a).add (v1.smul b)).add (v2.smul c)) :
    (o.sub v0).dot (d.cross (v2.sub v0)) = b * rayDet d v0 v1 v2 ∧ d.dot ((o.sub v0).cross (v1.sub v0)) = c * rayDet d v0 v1 v2 ∧
    (v2.sub v0).dot ((o.sub v0).cross (v1.sub v0)) = t * rayDet d v0 v1 v2 := by
  obtain ⟨o1, o2, o3⟩ := o; obtain ⟨d1, d2, d3⟩ := d; obtain ⟨a1, a2, a3⟩ := v0; obtain ⟨b1, b2, b3⟩ := v1; obtain ⟨c1, c2, c3⟩ := v2
  simp only [rayAt, V3.add, V3.smul, V3.mk.injEq] at e
  obtain ⟨x, y, z⟩ := e
  obtain rfl : a = 1 - b - c := by linarith
  obtain rfl : o1 = (1 - b - c) * a1 + b * b1 + c * c1 - t * d1 := by linarith
  obtain rfl : o2 = (1 - b - c) * a2 + b * b2 + c * c2 - t * d2 := by linarith
  obtain rfl : o3 = (1 - b - c) * a3 + b * b3 + c * c3 - t * d3 := by linarith
  simp only [rayDet, V3.dot, V3.cross, V3.sub]
  refine ⟨?_, ?_, ?_⟩ <;> ring

omit [Libm] in
private theorem num_le {a b c : V3 ℝ} {α β γ : ℝ} (ha : |a.x| ≤ α ∧ |a.y| ≤ α ∧ |a.z| ≤ α) (hb : |b.x| ≤ β ∧ |b.y| ≤ β ∧ |b.z| ≤ β) (hc : |c.x| ≤ γ ∧ |c.y| ≤ γ ∧ |c.z| ≤ γ) :
    |a.dot (b.cross c)| ≤ 6 * (β * γ * α) := by
  obtain ⟨a1, a2, a3⟩ := ha
  obtain ⟨b1, b2, b3⟩ := hb
  obtain ⟨c1, c2, c3⟩ := hc
  have α0 := (abs_nonneg _).trans a1
  have β0 := (abs_nonneg _).trans b1
  have k : ∀ x y z : ℝ, |x| ≤ α → |y| ≤ β → |z| ≤ γ → |x * (y * z)| ≤ β * γ * α := fun x y z h1 h2 h3 => by
    rw [abs_mul, abs_mul]
    calc |x| * (|y| * |z|) ≤ α * (β * γ) := mul_le_mul h1 (mul_le_mul h2 h3 (abs_nonneg _) β0) (by positivity) α0
      _ = _ := by ring
  have e : a.dot (b.cross c) = a.x * (b.y * c.z) + a.y * (b.z * c.x) + a.z * (b.x * c.y) - a.x * (b.z * c.y) - a.y * (b.x * c.z) - a.z * (b.y * c.x) := by
    simp only [V3.dot, V3.cross]; ring
  rw [e]
  obtain ⟨p1, q1⟩ := abs_le.mp (k _ _ _ a1 b2 c3)
  obtain ⟨p2, q2⟩ := abs_le.mp (k _ _ _ a2 b3 c1)
  obtain ⟨p3, q3⟩ := abs_le.mp (k _ _ _ a3 b1 c2)
  obtain ⟨p4, q4⟩ := abs_le.mp (k _ _ _ a1 b3 c2)
  obtain ⟨p5, q5⟩ := abs_le.mp (k _ _ _ a2 b1 c3)
  obtain ⟨p6, q6⟩ := abs_le.mp (k _ _ _ a3 b2 c1)
  exact abs_le.mpr ⟨by linarith, by linarith⟩

/-- what is known about the numbers that the code compares -/
private theorem core {o d v0 v1 v2 : V3 F32} {δ ε τ : ℝ} (ho : o.Below (2 ^ 20)) (hd : d.Below (2 ^ 20)) (h0 : v0.Below (2 ^ 20)) (h1 : v1.Below (2 ^ 20)) (h2 : v2.Below (2 ^ 20))
    (hs : RaySize (o.map toReal) (d.map toReal) (v0.map toReal) (v1.map toReal) (v2.map toReal) δ ε τ)
    {D : ℝ} (hD : D = rayDet (d.map toReal) (v0.map toReal) (v1.map toReal) (v2.map toReal)) (hD0 : 2 / 10 ^ 6 ≤ |D|) (hm : rayMargin δ ε τ D ≤ 1 / 4)
    {a b c t : ℝ} (h : a + b + c = 1) (e : rayAt (o.map toReal) (d.map toReal) t = (((v0.map toReal).smul a).add ((v1.map toReal).smul b)).add ((v2.map toReal).smul c)) :
    let e1 := glm_vec3_sub v1 v0; let e2 := glm_vec3_sub v2 v0; let s := glm_vec3_sub o v0; let p := glm_vec3_cross d e2; let q := glm_vec3_cross s e1
    let C := glm_vec3_dot e1 p; let x := lit 1 / C * glm_vec3_dot s p; let y := lit 1 / C * glm_vec3_dot d q; let z := lit 1 / C * glm_vec3_dot e2 q
    let m := rayMargin δ ε τ D
    C.isFin = true ∧ 11 / 10 ^ 7 ≤ |C.toReal| ∧ Fine x (2 ^ 91) ∧ Fine y (2 ^ 91) ∧ Fine z (2 ^ 91) ∧
    (m ≤ b → 0 ≤ x.toReal) ∧ (b ≤ -m → x.toReal < 0) ∧ (m ≤ c → 0 ≤ y.toReal) ∧ (c ≤ -m → y.toReal < 0) ∧
    (m ≤ a → x.toReal + y.toReal ≤ 1) ∧ (a ≤ -m → 1 + 2 * ur ≤ x.toReal + y.toReal) ∧ |z.toReal - t| ≤ rayError δ ε τ D t := by
  intro e1 e2 s p q C x y z m
  have u0 := ur_pos
  obtain ⟨⟨f1, g1⟩, ⟨f2, g2⟩, ⟨f3, g3⟩, ⟨f4, g4⟩⟩ := products ho hd h0 h1 h2 hs
  obtain ⟨s1, s2, s3⟩ := solve h e
  have dl := num_le (a := (v1.map toReal).sub (v0.map toReal)) (b := d.map toReal) (c := (v2.map toReal).sub (v0.map toReal)) hs.edge1 hs.dir hs.edge2
  change |rayDet (d.map toReal) (v0.map toReal) (v1.map toReal) (v2.map toReal)| ≤ _ at dl
  have δ0 := (abs_nonneg _).trans hs.dir.1
  have ε0 := (abs_nonneg _).trans hs.edge1.1
  have τ0 := (abs_nonneg _).trans hs.orig.1
  obtain ⟨m1, m2, m3⟩ := hs.small
  rw [← hD] at dl s1 s2 s3 g1
  rw [s1] at g2
  rw [s2] at g3
  rw [s3] at g4
  change |C.toReal - D| ≤ _ at g1
  have dp : 0 < |D| := lt_of_lt_of_le (by norm_num) hD0
  -- sizes
  have z1 : 0 ≤ δ * ε * ε := by positivity
  have z2 : 0 ≤ δ * ε * τ := by positivity
  have z3 : 0 ≤ ε * ε * τ := by positivity
  have w1 : δ * ε * ε ≤ 2 ^ 62 := by
    calc δ * ε * ε ≤ 2 ^ 20 * 2 ^ 21 * 2 ^ 21 := mul_le_mul (mul_le_mul m1 m2 ε0 (by norm_num)) m2 ε0 (by norm_num)
      _ = _ := by norm_num
  have w2 : δ * ε * τ ≤ 2 ^ 62 := by
    calc δ * ε * τ ≤ 2 ^ 20 * 2 ^ 21 * 2 ^ 21 := mul_le_mul (mul_le_mul m1 m2 ε0 (by norm_num)) m3 τ0 (by norm_num)
      _ = _ := by norm_num
  have w3 : ε * ε * τ ≤ 2 ^ 63 := by
    calc ε * ε * τ ≤ 2 ^ 21 * 2 ^ 21 * 2 ^ 21 := mul_le_mul (mul_le_mul m2 m2 ε0 (by norm_num)) m3 τ0 (by norm_num)
      _ = _ := by norm_num
  -- the magnitudes of the numerators
  have n2 : |b * D| ≤ 6 * (δ * ε * τ) := by
    rw [← s1]; exact num_le (a := (o.map toReal).sub (v0.map toReal)) (b := d.map toReal) (c := (v2.map toReal).sub (v0.map toReal)) hs.orig hs.dir hs.edge2
  have n3 : |c * D| ≤ 6 * (δ * ε * τ) := by
    rw [← s2]; exact (num_le (a := d.map toReal) (b := (o.map toReal).sub (v0.map toReal)) (c := (v1.map toReal).sub (v0.map toReal)) hs.dir hs.orig hs.edge1).trans (le_of_eq (by ring))
  have n4 : |t * D| ≤ 6 * (ε * ε * τ) := by
    rw [← s3]; exact (num_le (a := (v2.map toReal).sub (v0.map toReal)) (b := (o.map toReal).sub (v0.map toReal)) (c := (v1.map toReal).sub (v0.map toReal)) hs.edge2 hs.orig hs.edge1).trans (le_of_eq (by ring))
  set G := δ * ε * (ε + τ) with hG
  have GG : G = δ * ε * ε + δ * ε * τ := by rw [hG]; ring
  have mD : m * |D| = 256 * (ur * G) := by simp only [m, rayMargin]; field_simp; ring
  have g0 : 1 / 2 ^ 50 ≤ ur * G := by
    have : 1 / 2 ^ 26 ≤ G := by linarith
    have := mul_le_mul_of_nonneg_left this u0.le
    norm_num [ur] at this ⊢; linarith
  have gp : 0 < ur * G := lt_of_lt_of_le (by norm_num) g0
  have gD : 1024 * (ur * G) ≤ |D| := by
    have := mul_le_mul_of_nonneg_right hm dp.le
    change m * |D| ≤ _ at this
    linarith
  have uz1 : ur * (δ * ε * ε) ≤ ur * G := mul_le_mul_of_nonneg_left (by linarith) u0.le
  have uz2 : ur * (δ * ε * τ) ≤ ur * G := mul_le_mul_of_nonneg_left (by linarith) u0.le
  have uz3 : 0 ≤ ur * (ε * ε * τ) := by positivity
  have uz0 : 0 ≤ ur * (δ * ε * τ) := by positivity
  have uD : ur * |D| ≤ 6 * (ur * G) := by
    have := mul_le_mul_of_nonneg_left dl u0.le
    linarith
  have hC : |C.toReal - D| ≤ 43 * (ur * G) := by linarith
  have c1 := abs_sub_abs_le_abs_sub D C.toReal
  have c2 := abs_sub_abs_le_abs_sub C.toReal D
  rw [abs_sub_comm] at c1
  have C0 : 11 / 10 ^ 7 ≤ |C.toReal| := by linarith
  have CF : Fine C (2 ^ 70) := ⟨f1, by linarith⟩
  have ul : ur ≤ 1 / 1000 := by norm_num [ur]
  have F2 : Fine (glm_vec3_dot s p) (2 ^ 70) ∧ |(glm_vec3_dot s p).toReal| ≤ 61 / 10 * (δ * ε * τ) + 1 / 2 ^ 100 := by
    have := abs_sub_abs_le_abs_sub (glm_vec3_dot s p).toReal (b * D)
    have k := mul_le_mul_of_nonneg_right ul z2
    have : |(glm_vec3_dot s p).toReal| ≤ 61 / 10 * (δ * ε * τ) + 1 / 2 ^ 100 := by linarith
    exact ⟨⟨f2, this.trans (by linarith)⟩, this⟩
  have F3 : Fine (glm_vec3_dot d q) (2 ^ 70) ∧ |(glm_vec3_dot d q).toReal| ≤ 61 / 10 * (δ * ε * τ) + 1 / 2 ^ 100 := by
    have := abs_sub_abs_le_abs_sub (glm_vec3_dot d q).toReal (c * D)
    have k := mul_le_mul_of_nonneg_right ul z2
    have : |(glm_vec3_dot d q).toReal| ≤ 61 / 10 * (δ * ε * τ) + 1 / 2 ^ 100 := by linarith
    exact ⟨⟨f3, this.trans (by linarith)⟩, this⟩
  have F4 : Fine (glm_vec3_dot e2 q) (2 ^ 70) ∧ |(glm_vec3_dot e2 q).toReal| ≤ 61 / 10 * (ε * ε * τ) + 1 / 2 ^ 100 := by
    have := abs_sub_abs_le_abs_sub (glm_vec3_dot e2 q).toReal (t * D)
    have k := mul_le_mul_of_nonneg_right ul z3
    have : |(glm_vec3_dot e2 q).toReal| ≤ 61 / 10 * (ε * ε * τ) + 1 / 2 ^ 100 := by linarith
    exact ⟨⟨f4, this.trans (by linarith)⟩, this⟩
  have C6 : 1 / 10 ^ 6 ≤ |C.toReal| := le_trans (by norm_num) C0
  obtain ⟨qx1, qx2⟩ := quot CF F2.1 C6
  obtain ⟨qy1, qy2⟩ := quot CF F3.1 C6
  obtain ⟨qz1, qz2⟩ := quot CF F4.1 C6
  have l2 := mul_le_mul_of_nonneg_left F2.2 u0.le
  have l3 := mul_le_mul_of_nonneg_left F3.2 u0.le
  have l4 := mul_le_mul_of_nonneg_left F4.2 u0.le
  have hx : |x.toReal * C.toReal - b * D| ≤ 68 * (ur * G) := by
    have := abs_sub_le (x.toReal * C.toReal) (glm_vec3_dot s p).toReal (b * D)
    refine this.trans ((add_le_add qx2 g2).trans ?_)
    linarith
  have hy : |y.toReal * C.toReal - c * D| ≤ 68 * (ur * G) := by
    have := abs_sub_le (y.toReal * C.toReal) (glm_vec3_dot d q).toReal (c * D)
    refine this.trans ((add_le_add qy2 g3).trans ?_)
    linarith
  have hz : |z.toReal * C.toReal - t * D| ≤ 74 * ur * (ε * ε * τ) + 2 / 2 ^ 80 := by
    have := abs_sub_le (z.toReal * C.toReal) (glm_vec3_dot e2 q).toReal (t * D)
    refine this.trans ((add_le_add qz2 g4).trans ?_)
    linarith
  obtain ⟨k1, k2, k3, k4, k5, k6⟩ := weights gp gD uD hC hx hy
  have up : ∀ {v : ℝ}, m ≤ v → 256 * (ur * G) ≤ v * |D| := fun hv => by rw [← mD]; exact mul_le_mul_of_nonneg_right hv dp.le
  have dn : ∀ {v : ℝ}, v ≤ -m → v * |D| ≤ -(256 * (ur * G)) := fun hv => by
    rw [← mD, ← neg_mul]; exact mul_le_mul_of_nonneg_right hv dp.le
  obtain rfl : a = 1 - b - c := by linarith
  refine ⟨f1, C0, qx1, qy1, qz1, fun h => k1 (up h), fun h => k2 (dn h), fun h => k3 (up h), fun h => k4 (dn h), fun h => k5 (up h), fun h => k6 (dn h), ?_⟩
  refine (dist_err z3 hD0 gp gD hC hz).trans (le_of_eq ?_)
  simp only [rayError, rayMargin, ← hG]
  ring

private theorem eps : (lit 0.000001 : F32).isFin = true ∧ 9 / 10 ^ 7 < (lit 0.000001 : F32).toReal ∧ (lit 0.000001 : F32).toReal < 11 / 10 ^ 7 := by
  rw [lit_f32]
  have h : (ofRat false 0.000001).isFin = true ∧ 9 / 10 ^ 7 < (ofRat false 0.000001).val ∧ (ofRat false 0.000001).val < 11 / 10 ^ 7 := by decide +kernel
  refine ⟨h.1, ?_, ?_⟩
  · have : (((9 / 10 ^ 7 : ℚ)) : ℝ) < ((ofRat false 0.000001).val : ℝ) := Rat.cast_lt.mpr h.2.1
    unfold toReal; push_cast at this; exact this
  · have : ((ofRat false 0.000001).val : ℝ) < (((11 / 10 ^ 7 : ℚ)) : ℝ) := Rat.cast_lt.mpr h.2.2
    unfold toReal; push_cast at this; exact this

private theorem not_parallel {C : F32} (hf : C.isFin = true) (h : 11 / 10 ^ 7 ≤ |C.toReal|) : (flt (-(lit 0.000001)) C && flt C (lit 0.000001)) = false := by
  obtain ⟨e1, e2, e3⟩ := eps
  rw [← Bool.not_eq_true, Bool.and_eq_true, flt_f32, flt_f32, lt_real (by rw [neg_isFin]; exact e1) hf, lt_real hf e1, toReal_neg]
  rintro ⟨h1, h2⟩
  have := abs_lt.mpr ⟨h1, h2⟩
  linarith

omit [Libm] in
private theorem add_one {x y : F32} (hx : Fine x (2 ^ 91)) (hy : Fine y (2 ^ 91)) : (x + y).isFin = true ∧ (x.toReal + y.toReal ≤ 1 → (x + y).toReal ≤ 1) ∧
    (1 + 2 * ur ≤ x.toReal + y.toReal → 1 < (x + y).toReal) := by
  have a := Apx.addv hx hy (by norm_num)
  have e := a.err
  rw [pow_one, add_sub_cancel_left, zero_mul, add_zero] at e
  refine ⟨a.fin, fun h => ?_, fun h => ?_⟩
  · have m := rnd_mono (x := x.val + y.val) (y := 1) (by have : ((x.val + y.val : ℚ) : ℝ) ≤ (1 : ℚ) := by push_cast; exact h
                                                         exact_mod_cast this)
    rw [show rnd 1 = 1 by decide +kernel] at m
    have v : (x + y).val = rnd (x.val + y.val) := add_val a.fin
    unfold toReal
    rw [v]
    exact_mod_cast m
  · have u0 := ur_pos
    have u1 : ur ≤ 1 / 4 := by norm_num [ur]
    rw [abs_of_nonneg (by linarith : 0 ≤ x.toReal + y.toReal)] at e
    have := (abs_le.mp e).1
    nlinarith

/-- **A hit.**  The ray meets the triangle in a point whose three weights are at least the margin, at a distance `t` that exceeds the
code's threshold of `10^-6` by the error.  Then a hit is reported, and the returned distance is within the error of `t`. -/
theorem C89_hit (o d v0 v1 v2 : V3 F32) (r : F32) (δ ε τ : ℝ) (ho : o.Below (2 ^ 20)) (hd : d.Below (2 ^ 20)) (h0 : v0.Below (2 ^ 20)) (h1 : v1.Below (2 ^ 20)) (h2 : v2.Below (2 ^ 20))
    (hs : RaySize (o.map toReal) (d.map toReal) (v0.map toReal) (v1.map toReal) (v2.map toReal) δ ε τ)
    (D : ℝ) (hD : D = rayDet (d.map toReal) (v0.map toReal) (v1.map toReal) (v2.map toReal)) (hD0 : 2 / 10 ^ 6 ≤ |D|) (hm : rayMargin δ ε τ D ≤ 1 / 4)
    (a b c t : ℝ) (h : a + b + c = 1) (e : rayAt (o.map toReal) (d.map toReal) t = (((v0.map toReal).smul a).add ((v1.map toReal).smul b)).add ((v2.map toReal).smul c))
    (ha : rayMargin δ ε τ D ≤ a) (hb : rayMargin δ ε τ D ≤ b) (hc : rayMargin δ ε τ D ≤ c) (ht : 11 / 10 ^ 7 + rayError δ ε τ D t ≤ t) :
    (glm_ray_triangle o d v0 v1 v2 r).1 = true ∧ (glm_ray_triangle o d v0 v1 v2 r).2.isFin = true ∧
      |(glm_ray_triangle o d v0 v1 v2 r).2.toReal - t| ≤ rayError δ ε τ D t := by
  obtain ⟨k1, k2, x1, y1, z1, k3, -, k4, -, k5, -, k6⟩ := core ho hd h0 h1 h2 hs hD hD0 hm h e
  have X := k3 hb
  have Y := k4 hc
  have XY := k5 ha
  obtain ⟨e1, e2, e3⟩ := eps
  have Z := (abs_le.mp k6).1
  obtain ⟨s1, s2, -⟩ := add_one x1 y1
  have p := not_parallel k1 k2
  have o1 : (lit 1 : F32).isFin = true ∧ (lit 1 : F32).toReal = 1 := toReal_lit_one
  have o0 : (lit 0 : F32).isFin = true ∧ (lit 0 : F32).toReal = 0 := ⟨Apx.zero.fin, by simpa using Apx.zero.err⟩
  unfold glm_ray_triangle
  dsimp only
  rw [if_neg (by rw [p]; simp), if_neg, if_neg]
  · refine ⟨?_, z1.1, k6⟩
    rw [flt_f32, lt_real e1 z1.1]
    linarith
  · rw [Bool.or_eq_true, flt_f32, flt_f32, lt_real y1.1 o0.1, lt_real o1.1 s1, o0.2, o1.2]
    rintro (h | h)
    · linarith
    · linarith [s2 XY]
  · rw [Bool.or_eq_true, flt_f32, flt_f32, lt_real x1.1 o0.1, lt_real o1.1 x1.1, o0.2, o1.2]
    rintro (h | h)
    · linarith
    · linarith

/-- **A miss.**  One of the weights of the point where the ray meets the plane is negative by the margin, or the plane is behind the origin by the
error.  Then no hit is reported. -/
theorem C89_miss (o d v0 v1 v2 : V3 F32) (r : F32) (δ ε τ : ℝ) (ho : o.Below (2 ^ 20)) (hd : d.Below (2 ^ 20)) (h0 : v0.Below (2 ^ 20)) (h1 : v1.Below (2 ^ 20)) (h2 : v2.Below (2 ^ 20))
    (hs : RaySize (o.map toReal) (d.map toReal) (v0.map toReal) (v1.map toReal) (v2.map toReal) δ ε τ)
    (D : ℝ) (hD : D = rayDet (d.map toReal) (v0.map toReal) (v1.map toReal) (v2.map toReal)) (hD0 : 2 / 10 ^ 6 ≤ |D|) (hm : rayMargin δ ε τ D ≤ 1 / 4)
    (a b c t : ℝ) (h : a + b + c = 1) (e : rayAt (o.map toReal) (d.map toReal) t = (((v0.map toReal).smul a).add ((v1.map toReal).smul b)).add ((v2.map toReal).smul c))
    (hw : a ≤ -rayMargin δ ε τ D ∨ b ≤ -rayMargin δ ε τ D ∨ c ≤ -rayMargin δ ε τ D ∨ t + rayError δ ε τ D t ≤ 9 / 10 ^ 7) :
    (glm_ray_triangle o d v0 v1 v2 r).1 = false := by
  obtain ⟨k1, k2, x1, y1, z1, -, k3, -, k4, -, k5, k6⟩ := core ho hd h0 h1 h2 hs hD hD0 hm h e
  obtain ⟨e1, e2, e3⟩ := eps
  have o1 : (lit 1 : F32).isFin = true ∧ (lit 1 : F32).toReal = 1 := toReal_lit_one
  have o0 : (lit 0 : F32).isFin = true ∧ (lit 0 : F32).toReal = 0 := ⟨Apx.zero.fin, by simpa using Apx.zero.err⟩
  have Z := (abs_le.mp k6).2
  unfold glm_ray_triangle
  dsimp only
  split_ifs with n1 n2 n3
  · rfl
  · rfl
  · rfl
  rw [Bool.or_eq_true, not_or, flt_f32, flt_f32, lt_real x1.1 o0.1, lt_real o1.1 x1.1, o0.2, o1.2] at n2
  rw [Bool.or_eq_true, not_or, flt_f32, flt_f32, lt_real y1.1 o0.1, o0.2] at n3
  rcases hw with w | w | w | w
  · exfalso
    have XY := k5 w
    obtain ⟨s1, -, s3⟩ := add_one x1 y1
    rw [lt_real o1.1 s1, o1.2] at n3
    exact n3.2 (s3 XY)
  · exact absurd (k3 w) n2.1
  · exact absurd (k4 w) n3.1
  · rw [← Bool.not_eq_true, flt_f32, lt_real e1 z1.1]
    linarith

/-- The margin is needed, and the test leaves gaps: the ray passes through the second of two triangles with a common edge, and the code reports
a hit of neither. -/
theorem C89_gap_refuted : ¬ ∀ (o d a b c e : V3 F32) (r : F32) (t : ℝ), o.Below (2 ^ 20) → d.Below (2 ^ 20) → a.Below (2 ^ 20) → b.Below (2 ^ 20) → c.Below (2 ^ 20) →
    e.Below (2 ^ 20) → 1 / 2 < t → inTriangle (b.map toReal) (a.map toReal) (e.map toReal) (rayAt (o.map toReal) (d.map toReal) t) →
    (glm_ray_triangle o d a b c r).1 = true ∨ (glm_ray_triangle o d b a e r).1 = true := by
  intro h
  have w0 : (ofRat false (-8)).toReal = -8 := by
    simp only [toReal, show (ofRat false (-8)).val = -8 by decide +kernel]; norm_num
  have w1 : (ofRat false (-7)).toReal = -7 := by
    simp only [toReal, show (ofRat false (-7)).val = -7 by decide +kernel]; norm_num
  have w2 : (ofRat false (-6)).toReal = -6 := by
    simp only [toReal, show (ofRat false (-6)).val = -6 by decide +kernel]; norm_num
  have w3 : (ofRat false (-5)).toReal = -5 := by
    simp only [toReal, show (ofRat false (-5)).val = -5 by decide +kernel]; norm_num
  have w4 : (ofRat false (-3)).toReal = -3 := by
    simp only [toReal, show (ofRat false (-3)).val = -3 by decide +kernel]; norm_num
  have w5 : (ofRat false (-2)).toReal = -2 := by
    simp only [toReal, show (ofRat false (-2)).val = -2 by decide +kernel]; norm_num
  have w6 : (ofRat false (0)).toReal = 0 := by
    simp only [toReal, show (ofRat false (0)).val = 0 by decide +kernel]; norm_num
  have w7 : (ofRat false (1)).toReal = 1 := by
    simp only [toReal, show (ofRat false (1)).val = 1 by decide +kernel]; norm_num
  have w8 : (ofRat false (3)).toReal = 3 := by
    simp only [toReal, show (ofRat false (3)).val = 3 by decide +kernel]; norm_num
  have w9 : (ofRat false (5)).toReal = 5 := by
    simp only [toReal, show (ofRat false (5)).val = 5 by decide +kernel]; norm_num
  have w10 : (ofRat false (9)).toReal = 9 := by
    simp only [toReal, show (ofRat false (9)).val = 9 by decide +kernel]; norm_num
  have w11 : (ofRat false (14380471 / 8388608)).toReal = 14380471 / 8388608 := by
    simp only [toReal, show (ofRat false (14380471 / 8388608)).val = 14380471 / 8388608 by decide +kernel]; norm_num
  have w12 : (ofRat false (10186167 / 2097152)).toReal = 10186167 / 2097152 := by
    simp only [toReal, show (ofRat false (10186167 / 2097152)).val = 10186167 / 2097152 by decide +kernel]; norm_num
  have w13 : (ofRat false (12882505 / 1048576)).toReal = 12882505 / 1048576 := by
    simp only [toReal, show (ofRat false (12882505 / 1048576)).val = 12882505 / 1048576 by decide +kernel]; norm_num
  have t := h ⟨ofRat false (-8), ofRat false (-5), ofRat false (-5)⟩ ⟨ofRat false (14380471 / 8388608), ofRat false (10186167 / 2097152), ofRat false (12882505 / 1048576)⟩
    ⟨ofRat false (-7), ofRat false (-3), ofRat false 3⟩ ⟨ofRat false (-6), ofRat false 1, ofRat false 9⟩ ⟨ofRat false 0, ofRat false (-6), ofRat false 5⟩ ⟨ofRat false (-7), ofRat false (-3), ofRat false (-2)⟩ (ofRat false 0) 1
  simp only [V3.Below, Fine, V3.map, w0, w1, w2, w3, w4, w5, w6, w7, w8, w9, w10, w11, w12, w13] at t
  have f : (ofRat false (-8)).isFin = true ∧ (ofRat false (-5)).isFin = true ∧ (ofRat false (14380471 / 8388608)).isFin = true ∧ (ofRat false (10186167 / 2097152)).isFin = true ∧
    (ofRat false (12882505 / 1048576)).isFin = true ∧ (ofRat false (-7)).isFin = true ∧ (ofRat false (-3)).isFin = true ∧ (ofRat false 3).isFin = true ∧ (ofRat false (-6)).isFin = true ∧
    (ofRat false 1).isFin = true ∧ (ofRat false 9).isFin = true ∧ (ofRat false 0).isFin = true ∧ (ofRat false 5).isFin = true ∧ (ofRat false (-2)).isFin = true := by decide +kernel
  obtain ⟨f1, f2, f3, f4, f5, f6, f7, f8, f9, f10, f11, f12, f13, f14⟩ := f
  have u := t ⟨⟨f1, by norm_num⟩, ⟨f2, by norm_num⟩, ⟨f2, by norm_num⟩⟩ ⟨⟨f3, by norm_num⟩, ⟨f4, by norm_num⟩, ⟨f5, by norm_num⟩⟩ ⟨⟨f6, by norm_num⟩, ⟨f7, by norm_num⟩, ⟨f8, by norm_num⟩⟩
    ⟨⟨f9, by norm_num⟩, ⟨f10, by norm_num⟩, ⟨f11, by norm_num⟩⟩ ⟨⟨f12, by norm_num⟩, ⟨f9, by norm_num⟩, ⟨f13, by norm_num⟩⟩ ⟨⟨f6, by norm_num⟩, ⟨f7, by norm_num⟩, ⟨f14, by norm_num⟩⟩
    (by norm_num) ⟨5991863 / 8388608, 11983723 / 41943040, 1 / 20971520, by norm_num, by norm_num, by norm_num, by norm_num, by
      ext <;> norm_num [rayAt, V3.add, V3.smul]⟩
  revert u
  unfold glm_ray_triangle
  simp only [lit_f32, flt_f32]
  decide +kernel

/-! ### the hypotheses can be met -/

omit [Libm] in
private theorem f0 : Fine (ofRat false 0) (2 ^ 20) ∧ (ofRat false 0).toReal = 0 := by
  have v : (ofRat false 0).isFin = true ∧ (ofRat false 0).val = 0 := by decide +kernel
  have w : (ofRat false 0).toReal = 0 := by simp [toReal, v.2]
  exact ⟨⟨v.1, by rw [w]; norm_num⟩, w⟩
omit [Libm] in
private theorem f1 : Fine (ofRat false 1) (2 ^ 20) ∧ (ofRat false 1).toReal = 1 := by
  have v : (ofRat false 1).isFin = true ∧ (ofRat false 1).val = 1 := by decide +kernel
  have w : (ofRat false 1).toReal = 1 := by simp [toReal, v.2]
  exact ⟨⟨v.1, by rw [w]; norm_num⟩, w⟩
omit [Libm] in
private theorem fm1 : Fine (ofRat false (-1)) (2 ^ 20) ∧ (ofRat false (-1)).toReal = -1 := by
  have v : (ofRat false (-1)).isFin = true ∧ (ofRat false (-1)).val = -1 := by decide +kernel
  have w : (ofRat false (-1)).toReal = -1 := by simp [toReal, v.2]
  exact ⟨⟨v.1, by rw [w]; norm_num⟩, w⟩
omit [Libm] in
private theorem f4 : Fine (ofRat false 4) (2 ^ 20) ∧ (ofRat false 4).toReal = 4 := by
  have v : (ofRat false 4).isFin = true ∧ (ofRat false 4).val = 4 := by decide +kernel
  have w : (ofRat false 4).toReal = 4 := by simp [toReal, v.2]
  exact ⟨⟨v.1, by rw [w]; norm_num⟩, w⟩

omit [Libm] in
/-- the triangle `(0,0,1) (4,0,1) (0,4,1)` and the ray along `z` from `(1,1,0)`, which meets it with the weights `1/2, 1/4, 1/4`; from
`(-1,1,0)` it misses with the weights `1, -1/4, 1/4` -/
example : ∃ (o o' d v0 v1 v2 : V3 F32) (δ ε τ D : ℝ), o.Below (2 ^ 20) ∧ o'.Below (2 ^ 20) ∧ d.Below (2 ^ 20) ∧ v0.Below (2 ^ 20) ∧ v1.Below (2 ^ 20) ∧ v2.Below (2 ^ 20) ∧
    RaySize (o.map toReal) (d.map toReal) (v0.map toReal) (v1.map toReal) (v2.map toReal) δ ε τ ∧
    RaySize (o'.map toReal) (d.map toReal) (v0.map toReal) (v1.map toReal) (v2.map toReal) δ ε τ ∧
    D = rayDet (d.map toReal) (v0.map toReal) (v1.map toReal) (v2.map toReal) ∧ 2 / 10 ^ 6 ≤ |D| ∧ rayMargin δ ε τ D ≤ 1 / 4 ∧
    rayAt (o.map toReal) (d.map toReal) 1 = (((v0.map toReal).smul (1 / 2)).add ((v1.map toReal).smul (1 / 4))).add ((v2.map toReal).smul (1 / 4)) ∧
    rayAt (o'.map toReal) (d.map toReal) 1 = (((v0.map toReal).smul 1).add ((v1.map toReal).smul (-1 / 4))).add ((v2.map toReal).smul (1 / 4)) ∧
    11 / 10 ^ 7 + rayError δ ε τ D 1 ≤ 1 ∧ (-1 / 4 : ℝ) ≤ -rayMargin δ ε τ D := by
  refine ⟨⟨ofRat false 1, ofRat false 1, ofRat false 0⟩, ⟨ofRat false (-1), ofRat false 1, ofRat false 0⟩, ⟨ofRat false 0, ofRat false 0, ofRat false 1⟩,
    ⟨ofRat false 0, ofRat false 0, ofRat false 1⟩, ⟨ofRat false 4, ofRat false 0, ofRat false 1⟩, ⟨ofRat false 0, ofRat false 4, ofRat false 1⟩, 1, 4, 1, -16,
    ⟨f1.1, f1.1, f0.1⟩, ⟨fm1.1, f1.1, f0.1⟩, ⟨f0.1, f0.1, f1.1⟩, ⟨f0.1, f0.1, f1.1⟩, ⟨f4.1, f0.1, f1.1⟩, ⟨f0.1, f4.1, f1.1⟩, ?_, ?_, ?_, by norm_num, ?_, ?_, ?_, ?_, ?_⟩
  · constructor <;> norm_num [V3.map, f0.2, f1.2, f4.2]
  · constructor <;> norm_num [V3.map, f0.2, f1.2, f4.2, fm1.2]
  · norm_num [rayDet, V3.dot, V3.cross, V3.sub, V3.map, f0.2, f1.2, f4.2]
  · norm_num [rayMargin, ur]
  · ext <;> norm_num [rayAt, V3.add, V3.smul, V3.map, f0.2, f1.2, f4.2]
  · ext <;> norm_num [rayAt, V3.add, V3.smul, V3.map, f0.2, f1.2, f4.2, fm1.2]
  · norm_num [rayError, rayMargin, ur]
  · norm_num [rayMargin, ur]

end Cglm
