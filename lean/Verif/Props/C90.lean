import Verif.F32Apx
import Verif.Props.C32

/-!
# C90: window coordinates in binary32

The error of a projected point, in pixels.  It is small when clip `w` is not the result of a cancellation: `κ` bounds the ratio of the sum of the
magnitudes of the terms of `w` to `|w|`.  For a perspective matrix `w` is a single coordinate of the point and `κ = 1`.
-/

namespace Cglm
open F32

variable [Libm]

/-- the sums of the magnitudes of the terms of the clip coordinates -/
def clipMag (m : M4 ℝ) (p : V3 ℝ) : V4 ℝ :=
  ⟨|m.c0.x| * |p.x| + |m.c1.x| * |p.y| + |m.c2.x| * |p.z| + |m.c3.x|, |m.c0.y| * |p.x| + |m.c1.y| * |p.y| + |m.c2.y| * |p.z| + |m.c3.y|,
   |m.c0.z| * |p.x| + |m.c1.z| * |p.y| + |m.c2.z| * |p.z| + |m.c3.z|, |m.c0.w| * |p.x| + |m.c1.w| * |p.y| + |m.c2.w| * |p.z| + |m.c3.w|⟩

/-- the hypotheses: moderate floats, `w` not close to zero and not the result of a cancellation by more than `κ`; `n` bounds the magnitudes of the terms of
the coordinates of `p` (`p` itself when they are given) -/
structure ClipOk (m : M4 F32) (p n : V3 ℝ) (κ : ℕ) : Prop where
  mat : m.Below (2 ^ 20)
  w : 1 / 2 ^ 20 ≤ |clipv (m.map toReal) p 3|
  mag : (clipMag (m.map toReal) n).w ≤ κ * |clipv (m.map toReal) p 3|
  le : κ ≤ 50

omit [Libm] in
private theorem wide {f : F32} {x M A A' c : ℝ} {k l : ℕ} (h : Apx f x M k A c) (hk : k ≤ l) (hA : A ≤ A') : Apx f x M l A' c := by
  refine ⟨h.fin, h.err.trans (add_le_add (mul_le_mul_of_nonneg_right ?_ h.M0) le_rfl), h.mag, h.le.trans hA, h.c0⟩
  have := pow_le_pow_right₀ (by linarith [ur_pos] : 1 ≤ 1 + ur) hk
  linarith

omit [Libm] in
/-- a divisor: the error relative to its value -/
private theorem relative {W : F32} {w T B c : ℝ} {l κ : ℕ} (h : Apx W w T l B c) (hκ : T ≤ κ * |w|) (hw : 1 / 2 ^ 20 ≤ |w|) (hl : l ≤ 10) (hc : c ≤ 2 ^ 40) :
    Apx W w |w| ((l + 1) * κ) B 0 := by
  have u0 := ur_pos
  have wp : 0 < |w| := lt_of_lt_of_le (by norm_num) hw
  have κ1 : (1 : ℝ) ≤ κ := by
    have := h.mag.trans hκ
    by_contra n
    have := mul_lt_mul_of_pos_right (not_le.mp n) wp
    linarith
  refine ⟨h.fin, ?_, le_rfl, h.mag.trans h.le, le_rfl⟩
  rw [zero_mul, add_zero]
  have e := h.err
  have p := Apx.pow_le (k := l) (hl.trans (by norm_num))
  have q := Apx.le_pow ((l + 1) * κ)
  have l' : (l : ℝ) ≤ 10 := by exact_mod_cast hl
  have l0 : (0 : ℝ) ≤ l := Nat.cast_nonneg l
  have cη : c * ηr ≤ 1 / 2 * (ur * |w|) := by
    have h1 : c * ηr ≤ 2 ^ 40 * ηr := mul_le_mul_of_nonneg_right hc (by norm_num [ηr])
    have h2 := mul_le_mul_of_nonneg_left hw u0.le
    have : 2 ^ 40 * ηr ≤ 1 / 2 * (ur * (1 / 2 ^ 20)) := by norm_num [ηr, ur]
    linarith
  have uw : 0 ≤ ur * |w| := by positivity
  have uk : ur * |w| ≤ κ * (ur * |w|) := le_mul_of_one_le_left uw κ1
  have p0 : 0 ≤ (1 + ur) ^ l - 1 := le_trans (by positivity) (Apx.le_pow l)
  have r1 : ((1 + ur) ^ l - 1) * T ≤ 1001 / 1000 * l * ur * (κ * |w|) := mul_le_mul p hκ h.M0 (by positivity)
  have r2 : 1001 / 1000 * l * ur * (κ * |w|) = l * (κ * (ur * |w|)) + 1 / 1000 * l * (κ * (ur * |w|)) := by ring
  have r3 : 1 / 1000 * l * (κ * (ur * |w|)) ≤ 1 / 2 * (κ * (ur * |w|)) := mul_le_mul_of_nonneg_right (by linarith) (by positivity)
  have r4 := mul_le_mul_of_nonneg_right q wp.le
  have r5 : (((l + 1) * κ : ℕ) : ℝ) * ur * |w| = l * (κ * (ur * |w|)) + κ * (ur * |w|) := by push_cast; ring
  linarith

/-- the product with the reciprocal of clip `w` -/
private theorem over {X W : F32} {x w S T A B c c' : ℝ} {k l κ : ℕ} (hX : Apx X x S k A c) (hW : Apx W w T l B c') (hκ : T ≤ κ * |w|) (hκ2 : κ ≤ 50) (hw : 1 / 2 ^ 20 ≤ |w|)
    (hk : k ≤ 10) (hl : l ≤ 10) (hA : A ≤ 2 ^ 50) (hB : B ≤ 2 ^ 50) (hc : c ≤ 2 ^ 30) (hc' : c' ≤ 2 ^ 40) :
    Apx (X * (lit 1 / W)) (x / w) (S / |w|) (k + (l + 1) * κ + 4) (2 ^ 70) (2 ^ 51) := by
  have u0 := ur_pos
  have R := relative hW hκ hw hl hc'
  have wp : 0 < |w| := lt_of_lt_of_le (by norm_num) hw
  have K : (l + 1) * κ ≤ 550 := (Nat.mul_le_mul (by omega : l + 1 ≤ 11) hκ2)
  have i := Apx.one.div (1 / 2 ^ 20) R (by norm_num) hw (by omega) (by norm_num)
  have c0 := hX.c0
  have a0 := hX.A0
  have j : Apx (lit 1 / W) (1 / w) (1 / |w|) ((l + 1) * κ + 3) (2 ^ 20) 0 := by
    refine ⟨i.fin, i.err.trans ?_, i.mag, i.le.trans (by norm_num), le_rfl⟩
    have h1 : 1 / 2 ^ 50 ≤ 1 / |w| := one_div_le_one_div_of_le wp (hW.mag.trans (hW.le.trans hB))
    have hm := mul_le_mul_of_nonneg_left h1 u0.le
    have M0 : 0 ≤ 1 / |w| := by positivity
    have q := Apx.le_pow (0 + (l + 1) * κ + 2)
    have s : (1 + ur) ^ ((l + 1) * κ + 3) = (1 + ur) ^ (0 + (l + 1) * κ + 2) * (1 + ur) := by rw [← pow_succ]; congr 1; ring
    rw [s]
    generalize (1 + ur) ^ (0 + (l + 1) * κ + 2) = P at *
    have P1 : 1 ≤ P := by
      have : (0 : ℝ) ≤ (0 + (l + 1) * κ + 2 : ℕ) * ur := by positivity
      linarith
    generalize 1 / |w| = M at *
    have e : (P * (1 + ur) - 1) * M = (P - 1) * M + ur * M + (P - 1) * (ur * M) := by ring
    have : 0 ≤ (P - 1) * (ur * M) := mul_nonneg (by linarith) (by positivity)
    have : (2 * 0 / (1 / 2 ^ 20) + 1) * ηr ≤ ur * (1 / 2 ^ 50) := by norm_num [ur, ηr]
    rw [e]
    linarith
  have p := hX.mul j (by omega) (by
    have : (A + c) * (2 ^ 20 + 0) ≤ (2 ^ 50 + 2 ^ 30) * (2 ^ 20 + 0) := mul_le_mul_of_nonneg_right (by linarith) (by norm_num)
    exact this.trans (by norm_num))
  rw [mul_one_div, mul_one_div] at p
  have q := wide (l := k + (l + 1) * κ + 4) p (by omega) (A' := 2 ^ 70) (by
    have := mul_le_mul_of_nonneg_right hA (by norm_num : (0 : ℝ) ≤ 2 ^ 20)
    exact this.trans (by norm_num))
  refine ⟨q.fin, q.err.trans (add_le_add le_rfl (mul_le_mul_of_nonneg_right ?_ (by norm_num [ηr]))), q.mag, q.le, by norm_num⟩
  norm_num at *
  linarith

private theorem halfApx : Apx (lit 0.5 : F32) (1 / 2) (1 / 2) 0 (1 / 2) 0 := by
  have h : (F32.ofRat false 0.5).isFin = true := by decide +kernel
  have h2 : (F32.ofRat false 0.5).val = 1 / 2 := by decide +kernel
  exact ⟨h, by rw [lit_f32]; unfold toReal; rw [h2]; norm_num, by norm_num, le_rfl, le_rfl⟩

omit [Libm] in
private theorem clip_eq (m : M4 ℝ) (p : V3 ℝ) : clipv m p 0 = m.c0.x * p.x + m.c1.x * p.y + m.c2.x * p.z + m.c3.x ∧
    clipv m p 1 = m.c0.y * p.x + m.c1.y * p.y + m.c2.y * p.z + m.c3.y ∧ clipv m p 2 = m.c0.z * p.x + m.c1.z * p.y + m.c2.z * p.z + m.c3.z ∧
    clipv m p 3 = m.c0.w * p.x + m.c1.w * p.y + m.c2.w * p.z + m.c3.w := by
  refine ⟨?_, ?_, ?_, ?_⟩ <;> simp [clipv, M4.mat, V3.hom, V4.vec, Matrix.mulVec, dotProduct, Fin.sum_univ_succ] <;> ring

/-- one clip coordinate of a point given by floats -/
private theorem row {a b c e x y z : F32} (ha : Fine a (2 ^ 20)) (hb : Fine b (2 ^ 20)) (hc : Fine c (2 ^ 20)) (he : Fine e (2 ^ 20)) (hx : Fine x (2 ^ 20)) (hy : Fine y (2 ^ 20))
    (hz : Fine z (2 ^ 20)) : Apx (a * x + b * y + c * z + e * lit 1) (a.toReal * x.toReal + b.toReal * y.toReal + c.toReal * z.toReal + e.toReal)
      (|a.toReal| * |x.toReal| + |b.toReal| * |y.toReal| + |c.toReal| * |z.toReal| + |e.toReal|) 4 (2 ^ 50) (2 ^ 10) := by
  have a' := Apx.var ha
  have b' := Apx.var hb
  have c' := Apx.var hc
  have e' := Apx.var he
  have x' := Apx.var hx
  have y' := Apx.var hy
  have z' := Apx.var hz
  have q := (((a'.mul x' (by norm_num) (by norm_num)).add (b'.mul y' (by norm_num) (by norm_num)) (by norm_num) (by norm_num)).add (c'.mul z' (by norm_num) (by norm_num))
    (by norm_num) (by norm_num)).add (e'.mul Apx.one (by norm_num) (by norm_num)) (by norm_num) (by norm_num)
  rw [mul_one, mul_one] at q
  have w := wide q (l := 4) (A' := 2 ^ 50) (by norm_num) (by norm_num)
  exact ⟨w.fin, w.err.trans (add_le_add le_rfl (mul_le_mul_of_nonneg_right (by norm_num) (by norm_num [ηr]))), w.mag, w.le, by norm_num⟩

/-- one window coordinate from a device coordinate -/
private theorem pixel {n s o : F32} {x M : ℝ} {k : ℕ} (h : Apx n x M k (2 ^ 70) (2 ^ 51)) (hk : k ≤ 900) (hs : Fine s (2 ^ 20)) (ho : Fine o (2 ^ 20)) :
    ((n * lit 0.5 + lit 0.5) * s + o).isFin = true ∧
    |((n * lit 0.5 + lit 0.5) * s + o).toReal - (o.toReal + s.toReal * ((x + 1) / 2))| ≤ (k + 5) * ur * (|s.toReal| * ((M + 1) / 2) + |o.toReal|) + 1 / 2 ^ 60 := by
  have p := (((h.mul halfApx (by omega) (by norm_num)).add halfApx (by omega) (by norm_num)).mul (Apx.var hs) (by omega) (by norm_num)).add (Apx.var ho) (by omega) (by norm_num)
  have M0 := h.M0
  apply p.bound (k + 4) (|s.toReal| * ((M + 1) / 2) + |o.toReal|)
  · ring
  · omega
  · omega
  · exact le_of_eq (by ring)
  · have k' : (k : ℝ) ≤ 900 := by exact_mod_cast hk
    have : 0 ≤ ur * (|s.toReal| * ((M + 1) / 2) + |o.toReal|) := mul_nonneg ur_pos.le (by positivity)
    have t : 1001 / 1000 * ((k + 4 : ℕ) : ℝ) * ur * (|s.toReal| * ((M + 1) / 2) + |o.toReal|) ≤ (k + 5) * (ur * (|s.toReal| * ((M + 1) / 2) + |o.toReal|)) := by
      rw [mul_assoc (1001 / 1000 * ((k + 4 : ℕ) : ℝ))]
      refine mul_le_mul_of_nonneg_right ?_ this
      push_cast
      linarith
    rw [mul_assoc (k + 5 : ℝ)]
    refine add_le_add t ?_
    norm_num [ηr]

/-- the depth in `[0, 1]` from a device coordinate -/
private theorem depth {n : F32} {x M : ℝ} {k : ℕ} (h : Apx n x M k (2 ^ 70) (2 ^ 51)) (hk : k ≤ 900) : (n * lit 0.5 + lit 0.5).isFin = true ∧
    |(n * lit 0.5 + lit 0.5).toReal - (x + 1) / 2| ≤ (k + 3) * ur * ((M + 1) / 2) + 1 / 2 ^ 60 := by
  have p := (h.mul halfApx (by omega) (by norm_num)).add halfApx (by omega) (by norm_num)
  have M0 := h.M0
  apply p.bound (k + 2) ((M + 1) / 2)
  · ring
  · omega
  · omega
  · exact le_of_eq (by ring)
  · have k' : (k : ℝ) ≤ 900 := by exact_mod_cast hk
    have : 0 ≤ ur * ((M + 1) / 2) := mul_nonneg ur_pos.le (by positivity)
    have t : 1001 / 1000 * ((k + 2 : ℕ) : ℝ) * ur * ((M + 1) / 2) ≤ (k + 3) * (ur * ((M + 1) / 2)) := by
      rw [mul_assoc (1001 / 1000 * ((k + 2 : ℕ) : ℝ))]
      refine mul_le_mul_of_nonneg_right ?_ this
      push_cast
      linarith
    rw [mul_assoc (k + 3 : ℝ)]
    refine add_le_add t ?_
    norm_num [ηr]

omit [Libm] in
private theorem direct {n : F32} {x M : ℝ} {k : ℕ} (h : Apx n x M k (2 ^ 70) (2 ^ 51)) (hk : k ≤ 900) : n.isFin = true ∧ |n.toReal - x| ≤ (k + 1) * ur * M + 1 / 2 ^ 60 := by
  have M0 := h.M0
  apply h.bound k M rfl le_rfl (by omega) le_rfl
  have k' : (k : ℝ) ≤ 900 := by exact_mod_cast hk
  have : 0 ≤ ur * M := mul_nonneg ur_pos.le M0
  have t : 1001 / 1000 * (k : ℝ) * (ur * M) ≤ (k + 1) * (ur * M) := mul_le_mul_of_nonneg_right (by linarith) this
  have : 2 ^ 51 * ηr ≤ 1 / 2 ^ 60 := by norm_num [ηr]
  linarith

/-- the three device coordinates -/
private theorem device {m : M4 F32} {p : V3 F32} {κ : ℕ} (hp : p.Below (2 ^ 20)) (h : ClipOk m (p.map toReal) (p.map toReal) κ) :
    let c := glm_mat4_mulv m (glm_vec4 p (lit 1)); let M := m.map toReal; let P := p.map toReal; let w := |clipv M P 3|
    Apx (c.x * (lit 1 / c.w)) (ndc M P).x ((clipMag M P).x / w) (5 * κ + 8) (2 ^ 70) (2 ^ 51) ∧
    Apx (c.y * (lit 1 / c.w)) (ndc M P).y ((clipMag M P).y / w) (5 * κ + 8) (2 ^ 70) (2 ^ 51) ∧
    Apx (c.z * (lit 1 / c.w)) (ndc M P).z ((clipMag M P).z / w) (5 * κ + 8) (2 ^ 70) (2 ^ 51) := by
  intro c M P w
  obtain ⟨⟨⟨a1, a2, a3, a4⟩, ⟨b1, b2, b3, b4⟩, ⟨c1, c2, c3, c4⟩, ⟨d1, d2, d3, d4⟩⟩, hw, hm, hκ⟩ := h
  obtain ⟨p1, p2, p3⟩ := hp
  obtain ⟨e0, e1, e2, e3⟩ := clip_eq M P
  have x := row a1 b1 c1 d1 p1 p2 p3
  have y := row a2 b2 c2 d2 p1 p2 p3
  have z := row a3 b3 c3 d3 p1 p2 p3
  have t := row a4 b4 c4 d4 p1 p2 p3
  simp only [M, P] at e0 e1 e2 e3
  have k : ∀ {X : F32} {v S : ℝ}, Apx X v S 4 (2 ^ 50) (2 ^ 10) → Apx (X * (lit 1 / c.w)) (v / clipv M P 3) (S / w) (5 * κ + 8) (2 ^ 70) (2 ^ 51) := fun hX => by
    have q := over hX (κ := κ) (w := clipv M P 3) (W := c.w) (by rw [show clipv M P 3 = _ from e3]; exact t) hm hκ hw (by norm_num) (by norm_num) le_rfl le_rfl (by norm_num) (by norm_num)
    exact wide q (by omega) le_rfl
  refine ⟨?_, ?_, ?_⟩
  · have := k x; unfold ndc; dsimp only; rw [show clipv M P 0 = _ from e0]; exact this
  · have := k y; unfold ndc; dsimp only; rw [show clipv M P 1 = _ from e1]; exact this
  · have := k z; unfold ndc; dsimp only; rw [show clipv M P 2 = _ from e2]; exact this

/-- The error of a computed window position, coordinate by coordinate: `e` times the size of the viewport, times the ratio of the magnitudes of the clip coordinates
and `w`. -/
def WindowNear (q : V3 F32) (E : V3 ℝ) (S : V4 ℝ) (w : ℝ) (vp : V4 ℝ) (e : ℝ) : Prop :=
  (q.x.isFin = true ∧ |q.x.toReal - E.x| ≤ e * (|vp.z| * ((S.x / w + 1) / 2) + |vp.x|) + 1 / 2 ^ 60) ∧
  (q.y.isFin = true ∧ |q.y.toReal - E.y| ≤ e * (|vp.w| * ((S.y / w + 1) / 2) + |vp.y|) + 1 / 2 ^ 60)

theorem C90_project_no (p : V3 F32) (m : M4 F32) (vp : V4 F32) (κ : ℕ) (hp : p.Below (2 ^ 20)) (hv : vp.Below (2 ^ 20)) (h : ClipOk m (p.map toReal) (p.map toReal) κ) :
    let M := m.map toReal; let P := p.map toReal; let V := vp.map toReal; let w := |clipv M P 3|; let S := clipMag M P
    let E := window V (ndc M P) (((ndc M P).z + 1) / 2); let q := glm_project_no p m vp
    WindowNear q E S w V ((5 * κ + 13) * ur) ∧ q.z.isFin = true ∧ |q.z.toReal - E.z| ≤ (5 * κ + 11) * ur * ((S.z / w + 1) / 2) + 1 / 2 ^ 60 := by
  intro M P V w S E q
  obtain ⟨x, y, z⟩ := device hp h
  have hκ := h.le
  have X := pixel x (by omega) hv.2.2.1 hv.1
  have Y := pixel y (by omega) hv.2.2.2 hv.2.1
  have Z := depth z (by omega)
  push_cast at X Y Z
  refine ⟨⟨⟨X.1, X.2.trans (le_of_eq ?_)⟩, ⟨Y.1, Y.2.trans (le_of_eq ?_)⟩⟩, Z.1, Z.2.trans (le_of_eq ?_)⟩
  · simp only [V, V4.map, S, w, M, P]; ring
  · simp only [V, V4.map, S, w, M, P]; ring
  · simp only [S, w, M, P]; ring

theorem C90_project_zo (p : V3 F32) (m : M4 F32) (vp : V4 F32) (κ : ℕ) (hp : p.Below (2 ^ 20)) (hv : vp.Below (2 ^ 20)) (h : ClipOk m (p.map toReal) (p.map toReal) κ) :
    let M := m.map toReal; let P := p.map toReal; let V := vp.map toReal; let w := |clipv M P 3|; let S := clipMag M P
    let E := window V (ndc M P) (ndc M P).z; let q := glm_project_zo p m vp
    WindowNear q E S w V ((5 * κ + 13) * ur) ∧ q.z.isFin = true ∧ |q.z.toReal - E.z| ≤ (5 * κ + 9) * ur * (S.z / w) + 1 / 2 ^ 60 := by
  intro M P V w S E q
  obtain ⟨x, y, z⟩ := device hp h
  have hκ := h.le
  have X := pixel x (by omega) hv.2.2.1 hv.1
  have Y := pixel y (by omega) hv.2.2.2 hv.2.1
  have Z := direct z (by omega)
  push_cast at X Y Z
  refine ⟨⟨⟨X.1, X.2.trans (le_of_eq ?_)⟩, ⟨Y.1, Y.2.trans (le_of_eq ?_)⟩⟩, Z.1, Z.2.trans (le_of_eq ?_)⟩
  · simp only [V, V4.map, S, w, M, P]; ring
  · simp only [V, V4.map, S, w, M, P]; ring
  · simp only [S, w, M, P]; ring

/-! ### depth only -/

omit [Libm] in
private theorem ratio {X W : F32} {x w S T A B c c' : ℝ} {k l κ : ℕ} (hX : Apx X x S k A c) (hW : Apx W w T l B c') (hκ : T ≤ κ * |w|) (hκ2 : κ ≤ 50) (hw : 1 / 2 ^ 20 ≤ |w|)
    (hk : k ≤ 10) (hl : l ≤ 10) (hA : A ≤ 2 ^ 50) (hc : c ≤ 2 ^ 30) (hc' : c' ≤ 2 ^ 40) :
    Apx (X / W) (x / w) (S / |w|) (k + (l + 1) * κ + 2) (2 ^ 70) (2 ^ 52) := by
  have R := relative hW hκ hw hl hc'
  have K : (l + 1) * κ ≤ 550 := (Nat.mul_le_mul (by omega : l + 1 ≤ 11) hκ2)
  have c0 := hX.c0
  have q := hX.div (1 / 2 ^ 20) R (by norm_num) hw (by omega) (by
    rw [div_le_iff₀ (by norm_num)]; norm_num at *; linarith)
  refine ⟨q.fin, q.err.trans (add_le_add le_rfl (mul_le_mul_of_nonneg_right ?_ (by norm_num [ηr]))), q.mag, q.le.trans ?_, by norm_num⟩
  · norm_num at *; linarith
  · rw [div_le_iff₀ (by norm_num)]; norm_num at *; linarith

omit [Libm] in
private theorem row' {a b c e x y z : F32} (ha : Fine a (2 ^ 20)) (hb : Fine b (2 ^ 20)) (hc : Fine c (2 ^ 20)) (he : Fine e (2 ^ 20)) (hx : Fine x (2 ^ 20)) (hy : Fine y (2 ^ 20))
    (hz : Fine z (2 ^ 20)) : Apx (a * x + b * y + c * z + e) (a.toReal * x.toReal + b.toReal * y.toReal + c.toReal * z.toReal + e.toReal)
      (|a.toReal| * |x.toReal| + |b.toReal| * |y.toReal| + |c.toReal| * |z.toReal| + |e.toReal|) 4 (2 ^ 50) (2 ^ 10) := by
  have a' := Apx.var ha
  have b' := Apx.var hb
  have c' := Apx.var hc
  have e' := Apx.var he
  have x' := Apx.var hx
  have y' := Apx.var hy
  have z' := Apx.var hz
  have q := (((a'.mul x' (by norm_num) (by norm_num)).add (b'.mul y' (by norm_num) (by norm_num)) (by norm_num) (by norm_num)).add (c'.mul z' (by norm_num) (by norm_num))
    (by norm_num) (by norm_num)).add e' (by norm_num) (by norm_num)
  have w := wide q (l := 4) (A' := 2 ^ 50) (by norm_num) (by norm_num)
  exact ⟨w.fin, w.err.trans (add_le_add le_rfl (mul_le_mul_of_nonneg_right (by norm_num) (by norm_num [ηr]))), w.mag, w.le, by norm_num⟩

omit [Libm] in
private theorem deviceZ {m : M4 F32} {p : V3 F32} {κ : ℕ} (hp : p.Below (2 ^ 20)) (h : ClipOk m (p.map toReal) (p.map toReal) κ) :
    Apx (glm_project_z_zo p m) (ndc (m.map toReal) (p.map toReal)).z ((clipMag (m.map toReal) (p.map toReal)).z / |clipv (m.map toReal) (p.map toReal) 3|) (5 * κ + 6) (2 ^ 70) (2 ^ 52) := by
  obtain ⟨⟨⟨a1, a2, a3, a4⟩, ⟨b1, b2, b3, b4⟩, ⟨c1, c2, c3, c4⟩, ⟨d1, d2, d3, d4⟩⟩, hw, hm, hκ⟩ := h
  obtain ⟨p1, p2, p3⟩ := hp
  obtain ⟨-, -, e2, e3⟩ := clip_eq (m.map toReal) (p.map toReal)
  have z := row' a3 b3 c3 d3 p1 p2 p3
  have t := row' a4 b4 c4 d4 p1 p2 p3
  have q := ratio z (κ := κ) (w := clipv (m.map toReal) (p.map toReal) 3) (by rw [e3]; exact t) hm hκ hw (by norm_num) (by norm_num) le_rfl (by norm_num) (by norm_num)
  have q := wide q (l := 5 * κ + 6) (by omega) le_rfl
  unfold ndc
  dsimp only
  rw [e2]
  exact q

theorem C90_project_z_no (p : V3 F32) (m : M4 F32) (κ : ℕ) (hp : p.Below (2 ^ 20)) (h : ClipOk m (p.map toReal) (p.map toReal) κ) :
    let M := m.map toReal; let P := p.map toReal; let w := |clipv M P 3|; let S := clipMag M P
    (glm_project_z_no p m).isFin = true ∧ |(glm_project_z_no p m).toReal - ((ndc M P).z + 1) / 2| ≤ (5 * κ + 9) * ur * ((S.z / w + 1) / 2) + 1 / 2 ^ 60 := by
  intro M P w S
  have z := deviceZ hp h
  have hκ := h.le
  have q := (halfApx.mul z (by omega) (by norm_num)).add halfApx (by omega) (by norm_num)
  have M0 := z.M0
  apply q.bound (5 * κ + 8) ((S.z / w + 1) / 2)
  · ring
  · omega
  · omega
  · exact le_of_eq (by simp only [S, w, M, P]; ring)
  · have k' : (κ : ℝ) ≤ 50 := by exact_mod_cast hκ
    have : 0 ≤ ur * ((S.z / w + 1) / 2) := mul_nonneg ur_pos.le (div_nonneg (add_nonneg M0 zero_le_one) (by norm_num))
    have t : 1001 / 1000 * ((5 * κ + 8 : ℕ) : ℝ) * ur * ((S.z / w + 1) / 2) ≤ (5 * κ + 9) * (ur * ((S.z / w + 1) / 2)) := by
      rw [mul_assoc (1001 / 1000 * ((5 * κ + 8 : ℕ) : ℝ))]
      refine mul_le_mul_of_nonneg_right ?_ this
      push_cast
      linarith
    rw [mul_assoc (5 * κ + 9 : ℝ)]
    refine add_le_add t ?_
    norm_num [ηr]

omit [Libm] in
theorem C90_project_z_zo (p : V3 F32) (m : M4 F32) (κ : ℕ) (hp : p.Below (2 ^ 20)) (h : ClipOk m (p.map toReal) (p.map toReal) κ) :
    let M := m.map toReal; let P := p.map toReal; let w := |clipv M P 3|; let S := clipMag M P
    (glm_project_z_zo p m).isFin = true ∧ |(glm_project_z_zo p m).toReal - (ndc M P).z| ≤ (5 * κ + 7) * ur * (S.z / w) + 1 / 2 ^ 60 := by
  intro M P w S
  have z := deviceZ hp h
  have hκ := h.le
  have M0 := z.M0
  apply z.bound (5 * κ + 6) (S.z / w) rfl le_rfl (by omega) le_rfl
  have k' : (κ : ℝ) ≤ 50 := by exact_mod_cast hκ
  have : 0 ≤ ur * (S.z / w) := mul_nonneg ur_pos.le M0
  have t : 1001 / 1000 * ((5 * κ + 6 : ℕ) : ℝ) * ur * (S.z / w) ≤ (5 * κ + 7) * (ur * (S.z / w)) := by
    rw [mul_assoc (1001 / 1000 * ((5 * κ + 6 : ℕ) : ℝ))]
    refine mul_le_mul_of_nonneg_right ?_ this
    push_cast
    linarith
  rw [mul_assoc (5 * κ + 7 : ℝ)]
  refine add_le_add t ?_
  norm_num [ηr]

/-! ### back from the window -/

/-- the magnitudes of the terms of `unwindow` -/
noncomputable def unwindowMag (vp : V4 ℝ) (s : V3 ℝ) (depth : ℝ) : V3 ℝ := ⟨2 * |s.x - vp.x| / |vp.z| + 1, 2 * |s.y - vp.y| / |vp.w| + 1, depth⟩

private theorem undo {x o s : F32} (hx : Fine x (2 ^ 20)) (ho : Fine o (2 ^ 20)) (hs : Fine s (2 ^ 20)) (h1 : 1 ≤ |s.toReal|) :
    Apx (lit 2 * (x - o) / s - lit 1) (2 * (x.toReal - o.toReal) / s.toReal - 1) (2 * |x.toReal - o.toReal| / |s.toReal| + 1) 5 (2 ^ 23) 4 := by
  have d := Apx.subv hx ho (by norm_num)
  have q := ((Apx.two.mul d (by norm_num) (by norm_num)).div 1 (Apx.var hs) (by norm_num) h1 (by norm_num) (by norm_num)).sub Apx.one (by norm_num) (by norm_num)
  have w := wide q (l := 5) (A' := 2 ^ 23) (by norm_num) (by norm_num)
  exact ⟨w.fin, w.err.trans (add_le_add le_rfl (mul_le_mul_of_nonneg_right (by norm_num) (by norm_num [ηr]))), w.mag, w.le, by norm_num⟩

private theorem rowN {a b c e x y z : F32} {X Y Z A B C : ℝ} (ha : Fine a (2 ^ 20)) (hb : Fine b (2 ^ 20)) (hc : Fine c (2 ^ 20)) (he : Fine e (2 ^ 20))
    (hx : Apx x X A 5 (2 ^ 23) 4) (hy : Apx y Y B 5 (2 ^ 23) 4) (hz : Apx z Z C 5 (2 ^ 23) 4) : Apx (a * x + b * y + c * z + e * lit 1)
      (a.toReal * X + b.toReal * Y + c.toReal * Z + e.toReal) (|a.toReal| * A + |b.toReal| * B + |c.toReal| * C + |e.toReal|) 9 (2 ^ 50) (2 ^ 30) := by
  have a' := Apx.var ha
  have b' := Apx.var hb
  have c' := Apx.var hc
  have e' := Apx.var he
  have q := (((a'.mul hx (by norm_num) (by norm_num)).add (b'.mul hy (by norm_num) (by norm_num)) (by norm_num) (by norm_num)).add (c'.mul hz (by norm_num) (by norm_num))
    (by norm_num) (by norm_num)).add (e'.mul Apx.one (by norm_num) (by norm_num)) (by norm_num) (by norm_num)
  rw [mul_one, mul_one] at q
  have w := wide q (l := 9) (A' := 2 ^ 50) (by norm_num) (by norm_num)
  exact ⟨w.fin, w.err.trans (add_le_add le_rfl (mul_le_mul_of_nonneg_right (by norm_num) (by norm_num [ηr]))), w.mag, w.le, by norm_num⟩

/-- a computed point, coordinate by coordinate -/
def PointNear (q : V3 F32) (E : V3 ℝ) (S : V4 ℝ) (w e : ℝ) : Prop :=
  (q.x.isFin = true ∧ |q.x.toReal - E.x| ≤ e * (S.x / w) + 1 / 2 ^ 60) ∧ (q.y.isFin = true ∧ |q.y.toReal - E.y| ≤ e * (S.y / w) + 1 / 2 ^ 60) ∧
  (q.z.isFin = true ∧ |q.z.toReal - E.z| ≤ e * (S.z / w) + 1 / 2 ^ 60)

private theorem back {m : M4 F32} {s : V3 F32} {vp : V4 F32} {κ : ℕ} {n : F32} {d D : ℝ} (hs : s.Below (2 ^ 20)) (hv : vp.Below (2 ^ 20)) (h1 : 1 ≤ |vp.z.toReal|) (h2 : 1 ≤ |vp.w.toReal|)
    (hn : Apx n d D 5 (2 ^ 23) 4) (h : ClipOk m (unwindow (vp.map toReal) (s.map toReal) d) (unwindowMag (vp.map toReal) (s.map toReal) D) κ) :
    let N : V4 F32 := ⟨lit 2 * (s.x - vp.x) / vp.z - lit 1, lit 2 * (s.y - vp.y) / vp.w - lit 1, n, lit 1⟩
    let c := glm_mat4_mulv m N; let M := m.map toReal; let P := unwindow (vp.map toReal) (s.map toReal) d
    PointNear (glm_vec3 (glm_vec4_scale c (lit 1 / c.w))) (ndc M P) (clipMag M (unwindowMag (vp.map toReal) (s.map toReal) D)) |clipv M P 3| ((10 * κ + 14) * ur) := by
  intro N c M P
  obtain ⟨⟨⟨a1, a2, a3, a4⟩, ⟨b1, b2, b3, b4⟩, ⟨c1, c2, c3, c4⟩, ⟨d1, d2, d3, d4⟩⟩, hw, hm, hκ⟩ := h
  obtain ⟨e0, e1, e2, e3⟩ := clip_eq M P
  have nx := undo hs.1 hv.1 hv.2.2.1 h1
  have ny := undo hs.2.1 hv.2.1 hv.2.2.2 h2
  have x := rowN a1 b1 c1 d1 nx ny hn
  have y := rowN a2 b2 c2 d2 nx ny hn
  have z := rowN a3 b3 c3 d3 nx ny hn
  have t := rowN a4 b4 c4 d4 nx ny hn
  have g1 : |(unwindowMag (vp.map toReal) (s.map toReal) D).x| = 2 * |s.x.toReal - vp.x.toReal| / |vp.z.toReal| + 1 := abs_of_nonneg nx.M0
  have g2 : |(unwindowMag (vp.map toReal) (s.map toReal) D).y| = 2 * |s.y.toReal - vp.y.toReal| / |vp.w.toReal| + 1 := abs_of_nonneg ny.M0
  have g3 : |(unwindowMag (vp.map toReal) (s.map toReal) D).z| = D := abs_of_nonneg hn.M0
  have k : ∀ {X : F32} {v S : ℝ}, Apx X v S 9 (2 ^ 50) (2 ^ 30) → (X * (lit 1 / c.w)).isFin = true ∧ |(X * (lit 1 / c.w)).toReal - v / clipv M P 3| ≤ (10 * κ + 14) * ur * (S / |clipv M P 3|) + 1 / 2 ^ 60 := fun hX => by
    have q := over hX (κ := κ) (w := clipv M P 3) (W := c.w) (by rw [e3]; exact t) (by
      simp only [clipMag, g1, g2, g3] at hm; exact hm) hκ hw (by norm_num) (by norm_num) le_rfl le_rfl (by norm_num) (by norm_num)
    have r := direct (wide q (l := 10 * κ + 13) (by omega) le_rfl) (by omega)
    refine ⟨r.1, r.2.trans (le_of_eq ?_)⟩
    push_cast; ring
  refine ⟨?_, ?_, ?_⟩
  · have := k x; unfold ndc; dsimp only; rw [e0]; simp only [clipMag, g1, g2, g3]; exact this
  · have := k y; unfold ndc; dsimp only; rw [e1]; simp only [clipMag, g1, g2, g3]; exact this
  · have := k z; unfold ndc; dsimp only; rw [e2]; simp only [clipMag, g1, g2, g3]; exact this

theorem C90_unprojecti_no (s : V3 F32) (inv : M4 F32) (vp : V4 F32) (κ : ℕ) (hs : s.Below (2 ^ 20)) (hv : vp.Below (2 ^ 20)) (h1 : 1 ≤ |vp.z.toReal|) (h2 : 1 ≤ |vp.w.toReal|)
    (h : ClipOk inv (unwindow (vp.map toReal) (s.map toReal) (2 * s.z.toReal - 1)) (unwindowMag (vp.map toReal) (s.map toReal) (2 * |s.z.toReal| + 1)) κ) :
    let M := inv.map toReal; let V := vp.map toReal; let s' := s.map toReal; let P := unwindow V s' (2 * s'.z - 1)
    PointNear (glm_unprojecti_no s inv vp) (ndc M P) (clipMag M (unwindowMag V s' (2 * |s'.z| + 1))) |clipv M P 3| ((10 * κ + 14) * ur) := by
  have q := (Apx.two.mul (Apx.var hs.2.2) (by norm_num) (by norm_num)).sub Apx.one (by norm_num) (by norm_num)
  have w := wide q (l := 5) (A' := 2 ^ 23) (by norm_num) (by norm_num)
  exact back hs hv h1 h2 ⟨w.fin, w.err.trans (add_le_add le_rfl (mul_le_mul_of_nonneg_right (by norm_num) (by norm_num [ηr]))), w.mag, w.le, by norm_num⟩ h

theorem C90_unprojecti_zo (s : V3 F32) (inv : M4 F32) (vp : V4 F32) (κ : ℕ) (hs : s.Below (2 ^ 20)) (hv : vp.Below (2 ^ 20)) (h1 : 1 ≤ |vp.z.toReal|) (h2 : 1 ≤ |vp.w.toReal|)
    (h : ClipOk inv (unwindow (vp.map toReal) (s.map toReal) s.z.toReal) (unwindowMag (vp.map toReal) (s.map toReal) |s.z.toReal|) κ) :
    let M := inv.map toReal; let V := vp.map toReal; let s' := s.map toReal; let P := unwindow V s' s'.z
    PointNear (glm_unprojecti_zo s inv vp) (ndc M P) (clipMag M (unwindowMag V s' |s'.z|)) |clipv M P 3| ((10 * κ + 14) * ur) := by
  have w := wide (Apx.var hs.2.2) (l := 5) (A' := 2 ^ 23) (by norm_num) (by norm_num)
  exact back hs hv h1 h2 ⟨w.fin, w.err.trans (add_le_add le_rfl (mul_le_mul_of_nonneg_right (by norm_num) (by norm_num [ηr]))), w.mag, w.le, by norm_num⟩ h

/-! ### the hypotheses are met and the last one is needed -/

omit [Libm] in
private theorem f0 : Fine (ofRat false 0) (2 ^ 20) ∧ (ofRat false 0).toReal = 0 := by
  have v : (ofRat false 0).isFin = true ∧ (ofRat false 0).val = 0 := by decide +kernel
  have w : (ofRat false 0).toReal = 0 := by simp only [toReal, v.2]; norm_num
  exact ⟨⟨v.1, by rw [w]; norm_num⟩, w⟩
omit [Libm] in
private theorem f1 : Fine (ofRat false 1) (2 ^ 20) ∧ (ofRat false 1).toReal = 1 := by
  have v : (ofRat false 1).isFin = true ∧ (ofRat false 1).val = 1 := by decide +kernel
  have w : (ofRat false 1).toReal = 1 := by simp only [toReal, v.2]; norm_num
  exact ⟨⟨v.1, by rw [w]; norm_num⟩, w⟩
omit [Libm] in
private theorem fm1 : Fine (ofRat false (-1)) (2 ^ 20) ∧ (ofRat false (-1)).toReal = -1 := by
  have v : (ofRat false (-1)).isFin = true ∧ (ofRat false (-1)).val = -1 := by decide +kernel
  have w : (ofRat false (-1)).toReal = -1 := by simp only [toReal, v.2]; norm_num
  exact ⟨⟨v.1, by rw [w]; norm_num⟩, w⟩
omit [Libm] in
private theorem fm2 : Fine (ofRat false (-2)) (2 ^ 20) ∧ (ofRat false (-2)).toReal = -2 := by
  have v : (ofRat false (-2)).isFin = true ∧ (ofRat false (-2)).val = -2 := by decide +kernel
  have w : (ofRat false (-2)).toReal = -2 := by simp only [toReal, v.2]; norm_num
  exact ⟨⟨v.1, by rw [w]; norm_num⟩, w⟩
omit [Libm] in
private theorem f4096 : Fine (ofRat false 4096) (2 ^ 20) ∧ (ofRat false 4096).toReal = 4096 := by
  have v : (ofRat false 4096).isFin = true ∧ (ofRat false 4096).val = 4096 := by decide +kernel
  have w : (ofRat false 4096).toReal = 4096 := by simp only [toReal, v.2]; norm_num
  exact ⟨⟨v.1, by rw [w]; norm_num⟩, w⟩
omit [Libm] in
private theorem fm4096 : Fine (ofRat false (-4096)) (2 ^ 20) ∧ (ofRat false (-4096)).toReal = -4096 := by
  have v : (ofRat false (-4096)).isFin = true ∧ (ofRat false (-4096)).val = -4096 := by decide +kernel
  have w : (ofRat false (-4096)).toReal = -4096 := by simp only [toReal, v.2]; norm_num
  exact ⟨⟨v.1, by rw [w]; norm_num⟩, w⟩

omit [Libm] in
/-- a perspective matrix and the point `(1, 1, -1)` -/
example : ∃ (p : V3 F32) (m : M4 F32) (vp : V4 F32), p.Below (2 ^ 20) ∧ vp.Below (2 ^ 20) ∧ ClipOk m (p.map toReal) (p.map toReal) 1 := by
  refine ⟨⟨ofRat false 1, ofRat false 1, ofRat false (-1)⟩, ⟨⟨ofRat false 1, ofRat false 0, ofRat false 0, ofRat false 0⟩, ⟨ofRat false 0, ofRat false 1, ofRat false 0, ofRat false 0⟩, ⟨ofRat false 0, ofRat false 0, ofRat false (-1), ofRat false (-1)⟩, ⟨ofRat false 0, ofRat false 0, ofRat false (-2), ofRat false 0⟩⟩, ⟨ofRat false 0, ofRat false 0, ofRat false 4096, ofRat false 4096⟩, ⟨f1.1, f1.1, fm1.1⟩, ⟨f0.1, f0.1, f4096.1, f4096.1⟩, ⟨⟨f1.1, f0.1, f0.1, f0.1⟩, ⟨f0.1, f1.1, f0.1, f0.1⟩, ⟨f0.1, f0.1, fm1.1, fm1.1⟩, ⟨f0.1, f0.1, fm2.1, f0.1⟩⟩, ?_, ?_, by norm_num⟩
  · rw [(clip_eq _ _).2.2.2]
    norm_num [M4.map, V4.map, V3.map, f0.2, f1.2, fm1.2, fm2.2]
  · rw [(clip_eq _ _).2.2.2]
    norm_num [clipMag, M4.map, V4.map, V3.map, f0.2, f1.2, fm1.2, fm2.2]

omit [Libm] in
/-- the corner `(4096, 4096, 1)` of a window of that size -/
example : ∃ (s : V3 F32) (m : M4 F32) (vp : V4 F32), s.Below (2 ^ 20) ∧ vp.Below (2 ^ 20) ∧ 1 ≤ |vp.z.toReal| ∧ 1 ≤ |vp.w.toReal| ∧
    ClipOk m (unwindow (vp.map toReal) (s.map toReal) (2 * s.z.toReal - 1)) (unwindowMag (vp.map toReal) (s.map toReal) (2 * |s.z.toReal| + 1)) 3 ∧
    ClipOk m (unwindow (vp.map toReal) (s.map toReal) s.z.toReal) (unwindowMag (vp.map toReal) (s.map toReal) |s.z.toReal|) 3 := by
  refine ⟨⟨ofRat false 4096, ofRat false 4096, ofRat false 1⟩, ⟨⟨ofRat false 1, ofRat false 0, ofRat false 0, ofRat false 0⟩, ⟨ofRat false 0, ofRat false 1, ofRat false 0, ofRat false 0⟩, ⟨ofRat false 0, ofRat false 0, ofRat false (-1), ofRat false (-1)⟩, ⟨ofRat false 0, ofRat false 0, ofRat false (-2), ofRat false 0⟩⟩, ⟨ofRat false 0, ofRat false 0, ofRat false 4096, ofRat false 4096⟩, ⟨f4096.1, f4096.1, f1.1⟩, ⟨f0.1, f0.1, f4096.1, f4096.1⟩, by rw [f4096.2]; norm_num, by rw [f4096.2]; norm_num,
    ⟨⟨⟨f1.1, f0.1, f0.1, f0.1⟩, ⟨f0.1, f1.1, f0.1, f0.1⟩, ⟨f0.1, f0.1, fm1.1, fm1.1⟩, ⟨f0.1, f0.1, fm2.1, f0.1⟩⟩, ?_, ?_, by norm_num⟩, ⟨⟨⟨f1.1, f0.1, f0.1, f0.1⟩, ⟨f0.1, f1.1, f0.1, f0.1⟩, ⟨f0.1, f0.1, fm1.1, fm1.1⟩, ⟨f0.1, f0.1, fm2.1, f0.1⟩⟩, ?_, ?_, by norm_num⟩⟩
  all_goals
    rw [(clip_eq _ _).2.2.2]
    norm_num [clipMag, unwindow, unwindowMag, M4.map, V4.map, V3.map, f0.2, f1.2, fm1.2, fm2.2, f4096.2]

/-- A bound for `κ` is needed: clip `w` is 1, but the sum is rounded to zero on the way and the result is not a number of pixels. -/
theorem C90_cancel_refuted : ¬ ∀ (p : V3 F32) (m : M4 F32) (vp : V4 F32), p.Below (2 ^ 20) → vp.Below (2 ^ 20) → m.Below (2 ^ 20) →
    clipv (m.map toReal) (p.map toReal) 3 = 1 → (glm_project_no p m vp).x.isFin = true := by
  intro h
  have t := h ⟨ofRat false 4096, ofRat false 1, ofRat false (-4096)⟩ ⟨⟨ofRat false 1, ofRat false 0, ofRat false 0, ofRat false 4096⟩, ⟨ofRat false 0, ofRat false 1, ofRat false 0, ofRat false 1⟩, ⟨ofRat false 0, ofRat false 0, ofRat false 1, ofRat false 4096⟩, ⟨ofRat false 1, ofRat false 0, ofRat false 0, ofRat false 0⟩⟩ ⟨ofRat false 0, ofRat false 0, ofRat false 4096, ofRat false 4096⟩ ⟨f4096.1, f1.1, fm4096.1⟩ ⟨f0.1, f0.1, f4096.1, f4096.1⟩ ⟨⟨f1.1, f0.1, f0.1, f4096.1⟩, ⟨f0.1, f1.1, f0.1, f1.1⟩, ⟨f0.1, f0.1, f1.1, f4096.1⟩, ⟨f1.1, f0.1, f0.1, f0.1⟩⟩ (by
    rw [(clip_eq _ _).2.2.2]
    norm_num [M4.map, V4.map, V3.map, f0.2, f1.2, f4096.2, fm4096.2])
  simp only [cglm, lit_f32] at t
  revert t
  decide +kernel

end Cglm
