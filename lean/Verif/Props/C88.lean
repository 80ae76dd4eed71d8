import Verif.F32Apx
import Verif.F32Order
import Verif.Props.C38
import Verif.Props.C39
import Verif.Props.C40

/-!
# C88: geometric tests in binary32

A test computes a number and compares it.  Rounding can change the answer only when the exact numbers are close.  Each theorem says how
close, in terms of the geometry: the distance of a box from a plane, of a point from a sphere.
-/

namespace Cglm
open F32

variable [Libm]

/-! ### boxes and planes -/

/-- the rounding of the test against one plane: `4u` times the products of the coefficients of the normal and the coordinates of the box -/
noncomputable def cullMargin (b : M2x3 F32) (q : V4 F32) : ℝ :=
  4 * ur * (|q.x.toReal| * max |b.c0.x.toReal| |b.c1.x.toReal| + |q.y.toReal| * max |b.c0.y.toReal| |b.c1.y.toReal| +
    |q.z.toReal| * max |b.c0.z.toReal| |b.c1.z.toReal|) + 1 / 2 ^ 100

/-- the six planes -/
def M6x4.planes {α : Type} (f : M6x4 α) : List (V4 α) := [f.c0, f.c1, f.c2, f.c3, f.c4, f.c5]

private def outside (b : M2x3 F32) (p : V4 F32) : Bool :=
  flt (p.x * (if flt (lit 0) p.x = true then b.c1.x else b.c0.x) + p.y * (if flt (lit 0) p.y = true then b.c1.y else b.c0.y) +
    p.z * (if flt (lit 0) p.z = true then b.c1.z else b.c0.z)) (-p.w)

private theorem frustum_eq (b : M2x3 F32) (p : M6x4 F32) : glm_aabb_frustum b p = true ↔ ∀ q ∈ p.planes, outside b q = false := by
  have e : glm_aabb_frustum b p = if outside b p.c0 = true then false else if outside b p.c1 = true then false else
      if outside b p.c2 = true then false else if outside b p.c3 = true then false else if outside b p.c4 = true then false else
      if outside b p.c5 = true then false else true := rfl
  rw [e]
  simp only [M6x4.planes, List.forall_mem_cons, List.not_mem_nil, false_imp_iff, implies_true, and_true]
  generalize outside b p.c0 = a0
  generalize outside b p.c1 = a1
  generalize outside b p.c2 = a2
  generalize outside b p.c3 = a3
  generalize outside b p.c4 = a4
  generalize outside b p.c5 = a5
  revert a0 a1 a2 a3 a4 a5
  decide

omit [Libm] in
private theorem lt_real {a b : F32} (ha : a.isFin = true) (hb : b.isFin = true) : F32.lt a b = true ↔ a.toReal < b.toReal := by
  rw [lt_fin ha hb]; unfold toReal; exact Rat.cast_lt.symm
omit [Libm] in
private theorem le_real {a b : F32} (ha : a.isFin = true) (hb : b.isFin = true) : F32.le a b = true ↔ a.toReal ≤ b.toReal := by
  rw [le_fin ha hb]; unfold toReal; exact Rat.cast_le.symm

private theorem pick {c l h : F32} (hc : Fine c (2 ^ 30)) (hl : Fine l (2 ^ 30)) (hh : Fine h (2 ^ 30)) :
    Apx (c * (if flt (lit 0) c = true then h else l)) (c.toReal * (if flt (lit 0) c.toReal = true then h.toReal else l.toReal))
      (|c.toReal| * max |l.toReal| |h.toReal|) 1 (2 ^ 60) 1 := by
  have z0 : (lit 0 : F32).isFin = true ∧ (lit 0 : F32).toReal = 0 := ⟨Apx.zero.fin, by simpa using Apx.zero.err⟩
  have e : flt (lit 0) c = true ↔ flt (lit 0) c.toReal = true := by
    rw [flt_f32, lt_real z0.1 hc.1, z0.2]; simp [cglm]
  have key : ∀ t : F32, Fine t (2 ^ 30) → |t.toReal| ≤ max |l.toReal| |h.toReal| →
      Apx (c * t) (c.toReal * t.toReal) (|c.toReal| * max |l.toReal| |h.toReal|) 1 (2 ^ 60) 1 := by
    intro t ht hm
    have a := (Apx.var hc).mul (Apx.var ht) (by norm_num) (by norm_num)
    have mm : |c.toReal| * |t.toReal| ≤ |c.toReal| * max |l.toReal| |h.toReal| := mul_le_mul_of_nonneg_left hm (abs_nonneg _)
    refine ⟨a.fin, a.err.trans ?_, a.mag.trans mm, ?_, zero_le_one⟩
    · have := mul_le_mul_of_nonneg_left mm ur_pos.le
      simp only [zero_add, pow_one, mul_zero, add_sub_cancel_left]
      linarith
    · have := mul_le_mul hc.2 (max_le hl.2 hh.2) (le_max_of_le_left (abs_nonneg _)) (by norm_num)
      norm_num at this ⊢; exact this
  by_cases h0 : flt (lit 0) c = true
  · rw [if_pos h0, if_pos (e.mp h0)]; exact key h hh (le_max_right _ _)
  · rw [if_neg h0, if_neg (fun h1 => h0 (e.mpr h1))]; exact key l hl (le_max_left _ _)

private theorem outside_iff {b : M2x3 F32} {q : V4 F32} (hb : b.Below (2 ^ 30)) (hq : q.Below (2 ^ 30)) : ∃ d : ℝ,
    |d - (q.x.toReal * (if flt (lit 0) q.x.toReal = true then b.c1.x.toReal else b.c0.x.toReal) + q.y.toReal * (if flt (lit 0) q.y.toReal = true then b.c1.y.toReal else b.c0.y.toReal) +
      q.z.toReal * (if flt (lit 0) q.z.toReal = true then b.c1.z.toReal else b.c0.z.toReal))| < cullMargin b q ∧ (outside b q = true ↔ d < -q.w.toReal) := by
  obtain ⟨⟨l1, l2, l3⟩, ⟨h1, h2, h3⟩⟩ := hb
  obtain ⟨q1, q2, q3, q4⟩ := hq
  have p1 := pick q1 l1 h1
  have p2 := pick q2 l2 h2
  have p3 := pick q3 l3 h3
  have s := (p1.add p2 (by norm_num) (by norm_num)).add p3 (by norm_num) (by norm_num)
  refine ⟨(q.x * (if flt (lit 0) q.x = true then b.c1.x else b.c0.x) + q.y * (if flt (lit 0) q.y = true then b.c1.y else b.c0.y) +
      q.z * (if flt (lit 0) q.z = true then b.c1.z else b.c0.z)).toReal, ?_, ?_⟩
  · have h := (s.bound 3 _ rfl (by norm_num) (by norm_num) le_rfl le_rfl).2
    refine lt_of_le_of_lt h ?_
    have n := mul_nonneg ur_pos.le s.M0
    unfold cullMargin
    norm_num [ηr]
    linarith
  · unfold outside
    rw [flt_f32, lt_real s.fin (by rw [neg_isFin]; exact q4.1), toReal_neg]

/-- a box that reaches far enough past each of the six planes is not culled -/
theorem C88_cull_kept (b : M2x3 F32) (f : M6x4 F32) (hb : b.Below (2 ^ 30)) (hf : ∀ q ∈ f.planes, q.Below (2 ^ 30))
    (h : ∀ q ∈ f.planes, ∃ p ∈ (b.map toReal).set, cullMargin b q ≤ planeAt (q.map toReal) p) : glm_aabb_frustum b f = true := by
  rw [frustum_eq]
  intro q hq
  obtain ⟨p, hp, hm⟩ := h q hq
  obtain ⟨d, hd, e⟩ := outside_iff hb (hf q hq)
  rw [← Bool.not_eq_true, e]
  have t := (plane_test (b.map toReal) ((M2x3.valid_iff _).mpr ⟨p, hp⟩) ⟨q.x.toReal, q.y.toReal, q.z.toReal, q.w.toReal - cullMargin b q⟩).not.mpr
    (fun c => by have := c p hp; simp only [planeAt, V4.map] at this hm; linarith)
  simp only [M2x3.map, V3.map] at t
  have := (abs_lt.mp hd).1
  push Not at t
  intro c
  linarith

/-- a box that stays far enough behind one of the planes is culled -/
theorem C88_cull_rejected (b : M2x3 F32) (f : M6x4 F32) (hb : b.Below (2 ^ 30)) (hf : ∀ q ∈ f.planes, q.Below (2 ^ 30)) (hv : (b.map toReal).Valid) (q : V4 F32)
    (hq : q ∈ f.planes) (h : ∀ p ∈ (b.map toReal).set, planeAt (q.map toReal) p < -cullMargin b q) : glm_aabb_frustum b f = false := by
  rw [← Bool.not_eq_true, frustum_eq]
  intro hall
  obtain ⟨d, hd, e⟩ := outside_iff hb (hf q hq)
  have ho := hall q hq
  rw [← Bool.not_eq_true, e] at ho
  have t := (plane_test (b.map toReal) hv ⟨q.x.toReal, q.y.toReal, q.z.toReal, q.w.toReal + cullMargin b q⟩).mpr
    (fun p hp => by have := h p hp; simp only [planeAt, V4.map] at this ⊢; linarith)
  simp only [M2x3.map, V3.map] at t
  have := (abs_lt.mp hd).2
  apply ho
  linarith

/-! ### spheres -/

omit [Libm] in
/-- two squares that are compared after rounding -/
private theorem compare {D R d r e : ℝ} (e1 : 51 / 10 ≤ e) (e2 : e ≤ 71 / 10) (d0 : 0 ≤ d) (r0 : 1 / 2 ^ 40 ≤ r) (hD : |D - d * d| ≤ e * ur * (d * d) + 1 / 2 ^ 110)
    (hR : |R - r * r| ≤ (82 / 10 - e) * ur * (r * r) + 1 / 2 ^ 110) :
    (d ≤ r * (1 - 5 * ur) → D ≤ R) ∧ (r * (1 + 5 * ur) ≤ d → R < D) := by
  have u0 := ur_pos
  have u1 : ur ≤ 1 / 10000 := by norm_num [ur]
  have rr : 1 / 2 ^ 80 ≤ r * r := by
    have := mul_le_mul r0 r0 (by norm_num) (le_trans (by norm_num) r0)
    norm_num at this ⊢; exact this
  have rp : 0 < r := lt_of_lt_of_le (by norm_num) r0
  have ru : 1 / 2 ^ 104 ≤ ur * (r * r) := by
    have := mul_le_mul_of_nonneg_left rr u0.le
    norm_num [ur] at this ⊢; linarith
  have uu : ur * (ur * (r * r)) ≤ 1 / 10000 * (ur * (r * r)) := mul_le_mul_of_nonneg_right u1 (by positivity)
  have uu0 : 0 ≤ ur * (ur * (r * r)) := by positivity
  have uuu : ur * (ur * (ur * (r * r))) ≤ 1 / 10000 * (ur * (ur * (r * r))) := mul_le_mul_of_nonneg_right u1 (by positivity)
  have uuu0 : 0 ≤ ur * (ur * (ur * (r * r))) := by positivity
  obtain ⟨D1, D2⟩ := abs_le.mp hD
  obtain ⟨R1, R2⟩ := abs_le.mp hR
  have eu0 : 0 ≤ e * ur := mul_nonneg (by linarith) u0.le
  have eu : e * ur ≤ 1 / 1000 := by
    have := mul_le_mul e2 u1 u0.le (by norm_num)
    linarith
  have id1 : r * (1 - 5 * ur) * (r * (1 - 5 * ur)) = r * r - 10 * (ur * (r * r)) + 25 * (ur * (ur * (r * r))) := by ring
  have id2 : r * (1 + 5 * ur) * (r * (1 + 5 * ur)) = r * r + 10 * (ur * (r * r)) + 25 * (ur * (ur * (r * r))) := by ring
  have id3 : (82 / 10 - e) * ur * (r * r) = 82 / 10 * (ur * (r * r)) - e * ur * (r * r) := by ring
  rw [id3] at R1 R2
  have w0 : e * ur * (ur * (r * r)) ≤ 1 / 1000 * (ur * (r * r)) := mul_le_mul_of_nonneg_right eu (by positivity)
  have w1 : 0 ≤ e * ur * (ur * (r * r)) := mul_nonneg eu0 (by positivity)
  have w2 : e * ur * (ur * (ur * (r * r))) ≤ 1 / 1000 * (ur * (ur * (r * r))) := mul_le_mul_of_nonneg_right eu uu0
  constructor
  · intro h
    have dd := mul_self_le_mul_self d0 h
    rw [id1] at dd
    have dd' := mul_le_mul_of_nonneg_left dd eu0
    rw [show e * ur * (r * r - 10 * (ur * (r * r)) + 25 * (ur * (ur * (r * r)))) = e * ur * (r * r) - 10 * (e * ur * (ur * (r * r))) + 25 * (e * ur * (ur * (ur * (r * r)))) by ring] at dd'
    norm_num at *
    linarith
  · intro h
    have dd := mul_self_le_mul_self (mul_nonneg rp.le (by linarith)) h
    rw [id2] at dd
    have dd' := mul_le_mul_of_nonneg_left dd (by linarith : 0 ≤ 1 - e * ur)
    rw [show (1 - e * ur) * (r * r + 10 * (ur * (r * r)) + 25 * (ur * (ur * (r * r)))) = r * r + 10 * (ur * (r * r)) + 25 * (ur * (ur * (r * r))) - e * ur * (r * r) -
      10 * (e * ur * (ur * (r * r))) - 25 * (e * ur * (ur * (ur * (r * r)))) by ring, show (1 - e * ur) * (d * d) = d * d - e * ur * (d * d) by ring] at dd'
    norm_num at *
    linarith

omit [Libm] in
private theorem dist2_apx {a b : V3 F32} (ha : a.Below (2 ^ 30)) (hb : b.Below (2 ^ 30)) : (glm_vec3_distance2 a b).isFin = true ∧
    |(glm_vec3_distance2 a b).toReal - ((a.map toReal).sub (b.map toReal)).len * ((a.map toReal).sub (b.map toReal)).len| ≤
      51 / 10 * ur * (((a.map toReal).sub (b.map toReal)).len * ((a.map toReal).sub (b.map toReal)).len) + 1 / 2 ^ 110 := by
  obtain ⟨a1, a2, a3⟩ := ha
  obtain ⟨b1, b2, b3⟩ := hb
  have x := Apx.subv a1 b1 (by norm_num)
  have y := Apx.subv a2 b2 (by norm_num)
  have z := Apx.subv a3 b3 (by norm_num)
  have x' := Apx.subv b1 a1 (by norm_num)
  have y' := Apx.subv b2 a2 (by norm_num)
  have z' := Apx.subv b3 a3 (by norm_num)
  rw [V3.len_sq]
  simp only [glm_vec3_distance2, glm_pow2, V3.dot, V3.sub, V3.map]
  apply Apx.bound 5 ((a.x.toReal - b.x.toReal) * (a.x.toReal - b.x.toReal) + (a.y.toReal - b.y.toReal) * (a.y.toReal - b.y.toReal) + (a.z.toReal - b.z.toReal) * (a.z.toReal - b.z.toReal))
  · apx <;> norm_num
  · ring
  · norm_num
  · norm_num
  · simp only [abs_mul_abs_self]; exact le_of_eq (by ring)
  · have := mul_nonneg ur_pos.le (V3.dot_self_nonneg ⟨a.x.toReal - b.x.toReal, a.y.toReal - b.y.toReal, a.z.toReal - b.z.toReal⟩)
    simp only [V3.dot] at this
    norm_num [ηr]
    linarith

/-- Two spheres: `d` is the distance of the centers, `r` the sum of the radii.  The answer is right unless `d` is within `5u` of `r`. -/
theorem C88_sphere_sphere (s t : V4 F32) (hs : s.Below (2 ^ 30)) (ht : t.Below (2 ^ 30)) (d r : ℝ) (hd : d = ((s.map toReal).xyz.sub (t.map toReal).xyz).len)
    (hr : r = s.w.toReal + t.w.toReal) (h0 : 1 / 2 ^ 40 ≤ r) :
    (d ≤ r * (1 - 5 * ur) → glm_sphere_sphere s t = true) ∧ (r * (1 + 5 * ur) ≤ d → glm_sphere_sphere s t = false) := by
  obtain ⟨s1, s2, s3, s4⟩ := hs
  obtain ⟨t1, t2, t3, t4⟩ := ht
  obtain ⟨f, e⟩ := dist2_apx (a := ⟨s.x, s.y, s.z⟩) (b := ⟨t.x, t.y, t.z⟩) ⟨s1, s2, s3⟩ ⟨t1, t2, t3⟩
  rw [show ((V3.map toReal ⟨s.x, s.y, s.z⟩).sub (V3.map toReal ⟨t.x, t.y, t.z⟩)).len = d from hd.symm] at e
  have w := Apx.addv s4 t4 (by norm_num)
  have R : (glm_pow2 (s.w + t.w)).isFin = true ∧ |(glm_pow2 (s.w + t.w)).toReal - r * r| ≤ 31 / 10 * ur * (r * r) + 1 / 2 ^ 110 := by
    rw [← hr] at w
    unfold glm_pow2
    apply Apx.bound 3 (r * r)
    · apx <;> norm_num
    · rfl
    · norm_num
    · norm_num
    · simp only [abs_mul_abs_self, le_refl]
    · have := mul_nonneg ur_pos.le (mul_self_nonneg r)
      norm_num [ηr]; linarith
  have d0 : 0 ≤ d := hd ▸ V3.len_nonneg _
  obtain ⟨c1, c2⟩ := compare (by norm_num) (by norm_num) d0 h0 e (R.2.trans (by norm_num))
  unfold glm_sphere_sphere
  rw [fle_f32, ← Bool.not_eq_true, le_real f R.1]
  exact ⟨c1, fun h => not_le.mpr (c2 h)⟩

/-- A point and a sphere: the answer is right unless the distance is within `5u` of the radius. -/
theorem C88_sphere_point (s : V4 F32) (p : V3 F32) (hs : s.Below (2 ^ 30)) (hp : p.Below (2 ^ 30)) (d : ℝ) (hd : d = ((p.map toReal).sub (s.map toReal).xyz).len)
    (h0 : 1 / 2 ^ 40 ≤ s.w.toReal) :
    (d ≤ s.w.toReal * (1 - 5 * ur) → glm_sphere_point s p = true) ∧ (s.w.toReal * (1 + 5 * ur) ≤ d → glm_sphere_point s p = false) := by
  obtain ⟨s1, s2, s3, s4⟩ := hs
  obtain ⟨f, e⟩ := dist2_apx (a := p) (b := ⟨s.x, s.y, s.z⟩) hp ⟨s1, s2, s3⟩
  rw [show ((V3.map toReal p).sub (V3.map toReal ⟨s.x, s.y, s.z⟩)).len = d from hd.symm] at e
  have w := Apx.var s4
  have R : (s.w * s.w).isFin = true ∧ |(s.w * s.w).toReal - s.w.toReal * s.w.toReal| ≤ 31 / 10 * ur * (s.w.toReal * s.w.toReal) + 1 / 2 ^ 110 := by
    apply Apx.bound 1 (s.w.toReal * s.w.toReal)
    · apx <;> norm_num
    · rfl
    · norm_num
    · norm_num
    · simp only [abs_mul_abs_self, le_refl]
    · have := mul_nonneg ur_pos.le (mul_self_nonneg s.w.toReal)
      norm_num [ηr]; linarith
  have d0 : 0 ≤ d := hd ▸ V3.len_nonneg _
  obtain ⟨c1, c2⟩ := compare (by norm_num) (by norm_num) d0 h0 e (R.2.trans (by norm_num))
  unfold glm_sphere_point
  rw [fle_f32, ← Bool.not_eq_true, le_real f R.1]
  exact ⟨c1, fun h => not_le.mpr (c2 h)⟩

/-! ### boxes and balls -/

private theorem off_apx {l h x : F32} (hl : Fine l (2 ^ 30)) (hh : Fine h (2 ^ 30)) (hx : Fine x (2 ^ 30)) (hv : l.toReal ≤ h.toReal) :
    Apx (glm_pow2 ((x - (if !(ine (b2i (flt x l) + b2i (flt h x) - 1) 0) then h else l)) * ofInt (b2i (ine (b2i (flt x l) + b2i (flt h x)) 0))))
      (codeOff l.toReal h.toReal x.toReal) (codeOff l.toReal h.toReal x.toReal) 5 (2 ^ 63) (2 ^ 34) := by
  have e1 : flt x l = true ↔ x.toReal < l.toReal := by rw [flt_f32, lt_real hx.1 hl.1]
  have e2 : flt h x = true ↔ h.toReal < x.toReal := by rw [flt_f32, lt_real hh.1 hx.1]
  have z0 : (0 : ℝ) ≤ ηr := by norm_num [ηr]
  have out : Apx (glm_pow2 ((x - h) * lit 1)) ((x.toReal - h.toReal) ^ 2) ((x.toReal - h.toReal) ^ 2) 5 (2 ^ 63) (2 ^ 34) := by
    have a := Apx.subv hx hh (by norm_num)
    have b := a.mul Apx.one (by norm_num) (by norm_num)
    have c := b.mul b (by norm_num) (by norm_num)
    have i : |x.toReal - h.toReal| * 1 * (|x.toReal - h.toReal| * 1) = (x.toReal - h.toReal) ^ 2 := by rw [mul_one, abs_mul_abs_self]; ring
    rw [i] at c
    refine ⟨c.fin, ?_, ?_, c.le.trans (by norm_num), by norm_num⟩
    · have := c.err
      rw [show (x.toReal - h.toReal) * 1 * ((x.toReal - h.toReal) * 1) = (x.toReal - h.toReal) ^ 2 by ring] at this
      refine this.trans (add_le_add (le_of_eq (by norm_num)) (mul_le_mul_of_nonneg_right (by norm_num) z0))
    · rw [abs_of_nonneg (sq_nonneg _)]
  unfold codeOff
  by_cases h1 : x.toReal < l.toReal
  · have h2 : ¬ h.toReal < x.toReal := by linarith
    rw [if_pos (Or.inl h1), e1.mpr h1, Bool.eq_false_iff.mpr (e2.not.mpr h2)]
    simpa [b2i, ine, ofInt] using out
  · by_cases h2 : h.toReal < x.toReal
    · rw [if_pos (Or.inr h2), e2.mpr h2, Bool.eq_false_iff.mpr (e1.not.mpr h1)]
      simpa [b2i, ine, ofInt] using out
    · rw [if_neg (c := x.toReal < l.toReal ∨ h.toReal < x.toReal) (by tauto), Bool.eq_false_iff.mpr (e2.not.mpr h2), Bool.eq_false_iff.mpr (e1.not.mpr h1)]
      have a := Apx.subv hx hl (by norm_num)
      have b := a.mul Apx.zero (by norm_num) (by norm_num)
      have c := b.mul b (by norm_num) (by norm_num)
      have : Apx (glm_pow2 ((x - l) * lit 0)) 0 0 5 (2 ^ 63) (2 ^ 34) := by
        refine ⟨c.fin, ?_, by simp, by norm_num, by norm_num⟩
        have := c.err
        rw [mul_zero, mul_zero, mul_zero, mul_zero, mul_zero] at this
        exact this.trans (add_le_add (by rw [mul_zero]) (mul_le_mul_of_nonneg_right (by norm_num) z0))
      simpa [b2i, ine, ofInt] using this

omit [Libm] in
private theorem codeOff_nonneg (l h x : ℝ) : 0 ≤ codeOff l h x := by unfold codeOff; split_ifs <;> positivity

omit [Libm] in
private theorem rad_apx {r : F32} (h : Fine r (2 ^ 30)) : (glm_pow2 r).isFin = true ∧ |(glm_pow2 r).toReal - r.toReal * r.toReal| ≤ (82 / 10 - 71 / 10) * ur * (r.toReal * r.toReal) + 1 / 2 ^ 110 := by
  have w := Apx.var h
  unfold glm_pow2
  apply Apx.bound 1 (r.toReal * r.toReal)
  · apx <;> norm_num
  · rfl
  · norm_num
  · norm_num
  · simp only [abs_mul_abs_self, le_refl]
  · have := mul_nonneg ur_pos.le (mul_self_nonneg r.toReal)
    norm_num [ηr]; linarith

/-- A box and a ball.  If the code says they meet, the box meets the ball of a radius larger by `5u`.  If the box meets the ball of a radius
smaller by `5u`, the code says so when the center is not below the minimum corner (C39 shows that the code is wrong otherwise, also
without rounding). -/
theorem C88_aabb_sphere (b : M2x3 F32) (s : V4 F32) (hb : b.Below (2 ^ 30)) (hs : s.Below (2 ^ 30)) (hv : (b.map toReal).Valid) (h0 : 1 / 2 ^ 40 ≤ s.w.toReal) :
    (glm_aabb_sphere b s = true → boxMeetsBall (b.map toReal) ⟨s.x.toReal, s.y.toReal, s.z.toReal, s.w.toReal * (1 + 5 * ur)⟩) ∧
    (b.c0.x.toReal ≤ s.x.toReal → b.c0.y.toReal ≤ s.y.toReal → b.c0.z.toReal ≤ s.z.toReal →
      boxMeetsBall (b.map toReal) ⟨s.x.toReal, s.y.toReal, s.z.toReal, s.w.toReal * (1 - 5 * ur)⟩ → glm_aabb_sphere b s = true) := by
  obtain ⟨⟨l1, l2, l3⟩, ⟨m1, m2, m3⟩⟩ := hb
  obtain ⟨s1, s2, s3, s4⟩ := hs
  have x := off_apx l1 m1 s1 hv.1
  have y := off_apx l2 m2 s2 hv.2.1
  have z := off_apx l3 m3 s3 hv.2.2
  have c0 := codeOff_nonneg b.c0.x.toReal b.c1.x.toReal s.x.toReal
  have c1 := codeOff_nonneg b.c0.y.toReal b.c1.y.toReal s.y.toReal
  have c2 := codeOff_nonneg b.c0.z.toReal b.c1.z.toReal s.z.toReal
  have t := (x.add y (by norm_num) (by norm_num)).add z (by norm_num) (by norm_num)
  set S := codeOff b.c0.x.toReal b.c1.x.toReal s.x.toReal + codeOff b.c0.y.toReal b.c1.y.toReal s.y.toReal + codeOff b.c0.z.toReal b.c1.z.toReal s.z.toReal with hS
  have S0 : 0 ≤ S := by positivity
  have q := Real.mul_self_sqrt S0
  have D := t.bound 7 S (X := √S * √S) (E := 71 / 10 * ur * (√S * √S) + 1 / 2 ^ 110) q.symm (by norm_num) (by norm_num) le_rfl
    (by rw [q]; have := mul_nonneg ur_pos.le S0; norm_num [ηr]; linarith)
  have R := rad_apx s4
  obtain ⟨k1, k2⟩ := compare (by norm_num) le_rfl (Real.sqrt_nonneg S) h0 D.2 R.2
  have T := le_real D.1 R.1
  rw [← fle_f32] at T
  change glm_aabb_sphere b s = true ↔ _ at T
  have rp : 0 < s.w.toReal := lt_of_lt_of_le (by norm_num) h0
  have u1 : ur ≤ 1 / 100 := by norm_num [ur]
  constructor
  · intro h
    apply C39_sphere_sound_partial _ hv
    rw [sphere_test _ hv]
    have g : √S ≤ s.w.toReal * (1 + 5 * ur) := by
      by_contra c
      exact absurd (T.mp h) (not_le.mpr (k2 (not_le.mp c).le))
    have := mul_self_le_mul_self (Real.sqrt_nonneg S) g
    rw [q] at this
    simp only [M2x3.map, V3.map]
    rw [← hS, sq]
    exact this
  · intro g1 g2 g3 h
    have e := (C39_sphere_exact_partial (b.map toReal) hv ⟨s.x.toReal, s.y.toReal, s.z.toReal, s.w.toReal * (1 - 5 * ur)⟩ g1 g2 g3).mpr h
    rw [sphere_test _ hv] at e
    simp only [M2x3.map, V3.map] at e
    rw [← hS] at e
    exact T.mpr (k1 (Real.sqrt_le_iff.mpr ⟨mul_nonneg rp.le (by linarith), e⟩))

/-- the same for a box and a disk in the plane -/
theorem C88_aabb2d_circle (b : M2 F32) (s : V3 F32) (hb : b.Below (2 ^ 30)) (hs : s.Below (2 ^ 30)) (hv : (b.map toReal).Valid) (h0 : 1 / 2 ^ 40 ≤ s.z.toReal) :
    (glm_aabb2d_circle b s = true → boxMeetsDisk (b.map toReal) ⟨s.x.toReal, s.y.toReal, s.z.toReal * (1 + 5 * ur)⟩) ∧
    (b.c0.x.toReal ≤ s.x.toReal → b.c0.y.toReal ≤ s.y.toReal →
      boxMeetsDisk (b.map toReal) ⟨s.x.toReal, s.y.toReal, s.z.toReal * (1 - 5 * ur)⟩ → glm_aabb2d_circle b s = true) := by
  obtain ⟨⟨l1, l2⟩, ⟨m1, m2⟩⟩ := hb
  obtain ⟨s1, s2, s3⟩ := hs
  have x := off_apx l1 m1 s1 hv.1
  have y := off_apx l2 m2 s2 hv.2
  have c0 := codeOff_nonneg b.c0.x.toReal b.c1.x.toReal s.x.toReal
  have c1 := codeOff_nonneg b.c0.y.toReal b.c1.y.toReal s.y.toReal
  have t := x.add y (by norm_num) (by norm_num)
  set S := codeOff b.c0.x.toReal b.c1.x.toReal s.x.toReal + codeOff b.c0.y.toReal b.c1.y.toReal s.y.toReal with hS
  have S0 : 0 ≤ S := by positivity
  have q := Real.mul_self_sqrt S0
  have D := t.bound 7 S (X := √S * √S) (E := 71 / 10 * ur * (√S * √S) + 1 / 2 ^ 110) q.symm (by norm_num) (by norm_num) le_rfl
    (by rw [q]; have := mul_nonneg ur_pos.le S0; norm_num [ηr]; linarith)
  have R := rad_apx s3
  obtain ⟨k1, k2⟩ := compare (by norm_num) le_rfl (Real.sqrt_nonneg S) h0 D.2 R.2
  have T := le_real D.1 R.1
  rw [← fle_f32] at T
  change glm_aabb2d_circle b s = true ↔ _ at T
  have rp : 0 < s.z.toReal := lt_of_lt_of_le (by norm_num) h0
  have u1 : ur ≤ 1 / 100 := by norm_num [ur]
  constructor
  · intro h
    apply C39_circle_sound_partial _ hv
    rw [circle_test _ hv]
    have g : √S ≤ s.z.toReal * (1 + 5 * ur) := by
      by_contra c
      exact absurd (T.mp h) (not_le.mpr (k2 (not_le.mp c).le))
    have := mul_self_le_mul_self (Real.sqrt_nonneg S) g
    rw [q] at this
    simp only [M2.map, V2.map]
    rw [← hS, sq]
    exact this
  · intro g1 g2 h
    have e := (C39_circle_exact_partial (b.map toReal) hv ⟨s.x.toReal, s.y.toReal, s.z.toReal * (1 - 5 * ur)⟩ g1 g2).mpr h
    rw [circle_test _ hv] at e
    simp only [M2.map, V2.map] at e
    rw [← hS] at e
    exact T.mpr (k1 (Real.sqrt_le_iff.mpr ⟨mul_nonneg rp.le (by linarith), e⟩))

/-- Without the margin the claim is false: the point `(1, 2^-13, 0)` is outside the unit ball at the origin, the code says it is inside. -/
theorem C88_sphere_point_refuted : ¬ ∀ (s : V4 F32) (p : V3 F32), s.Below (2 ^ 30) → p.Below (2 ^ 30) → 1 / 2 ^ 40 ≤ s.w.toReal →
    (glm_sphere_point s p = true ↔ ((p.map toReal).sub (s.map toReal).xyz).len ≤ s.w.toReal) := by
  intro h
  have v0 : (ofRat false 0).isFin = true ∧ (ofRat false 0).val = 0 := by decide +kernel
  have v1 : (ofRat false 1).isFin = true ∧ (ofRat false 1).val = 1 := by decide +kernel
  have v2 : (ofRat false (1 / 2 ^ 13)).isFin = true ∧ (ofRat false (1 / 2 ^ 13)).val = 1 / 2 ^ 13 := by decide +kernel
  have w0 : (ofRat false 0).toReal = 0 := by simp [toReal, v0.2]
  have w1 : (ofRat false 1).toReal = 1 := by simp [toReal, v1.2]
  have w2 : (ofRat false (1 / 2 ^ 13)).toReal = 1 / 2 ^ 13 := by simp only [toReal, v2.2]; norm_num
  have t := (h ⟨ofRat false 0, ofRat false 0, ofRat false 0, ofRat false 1⟩ ⟨ofRat false 1, ofRat false (1 / 2 ^ 13), ofRat false 0⟩
    ⟨⟨v0.1, by rw [w0]; norm_num⟩, ⟨v0.1, by rw [w0]; norm_num⟩, ⟨v0.1, by rw [w0]; norm_num⟩, ⟨v1.1, by rw [w1]; norm_num⟩⟩
    ⟨⟨v1.1, by rw [w1]; norm_num⟩, ⟨v2.1, by rw [w2]; norm_num⟩, ⟨v0.1, by rw [w0]; norm_num⟩⟩ (by simp only [w1]; norm_num)).mp
    (by unfold glm_sphere_point; rw [fle_f32]; decide +kernel)
  have l2 := V3.len_sq ((V3.map toReal ⟨ofRat false 1, ofRat false (1 / 2 ^ 13), ofRat false 0⟩).sub (V4.map toReal ⟨ofRat false 0, ofRat false 0, ofRat false 0, ofRat false 1⟩).xyz)
  have l0 := V3.len_nonneg ((V3.map toReal ⟨ofRat false 1, ofRat false (1 / 2 ^ 13), ofRat false 0⟩).sub (V4.map toReal ⟨ofRat false 0, ofRat false 0, ofRat false 0, ofRat false 1⟩).xyz)
  simp only [w1] at t
  have m := mul_self_le_mul_self l0 t
  rw [l2] at m
  simp only [V3.dot, V3.sub, V3.map, V4.map, V4.xyz, w0, w1, w2] at m
  norm_num at m

/-! ### the hypotheses can be met -/

omit [Libm] in
private theorem f0 : Fine (ofRat false 0) (2 ^ 30) ∧ (ofRat false 0).toReal = 0 := by
  have v : (ofRat false 0).isFin = true ∧ (ofRat false 0).val = 0 := by decide +kernel
  have w : (ofRat false 0).toReal = 0 := by simp [toReal, v.2]
  exact ⟨⟨v.1, by rw [w]; norm_num⟩, w⟩
omit [Libm] in
private theorem f1 : Fine (ofRat false 1) (2 ^ 30) ∧ (ofRat false 1).toReal = 1 := by
  have v : (ofRat false 1).isFin = true ∧ (ofRat false 1).val = 1 := by decide +kernel
  have w : (ofRat false 1).toReal = 1 := by simp [toReal, v.2]
  exact ⟨⟨v.1, by rw [w]; norm_num⟩, w⟩
omit [Libm] in
private theorem fm1 : Fine (ofRat false (-1)) (2 ^ 30) ∧ (ofRat false (-1)).toReal = -1 := by
  have v : (ofRat false (-1)).isFin = true ∧ (ofRat false (-1)).val = -1 := by decide +kernel
  have w : (ofRat false (-1)).toReal = -1 := by simp [toReal, v.2]
  exact ⟨⟨v.1, by rw [w]; norm_num⟩, w⟩
omit [Libm] in
private theorem f3 : Fine (ofRat false 3) (2 ^ 30) ∧ (ofRat false 3).toReal = 3 := by
  have v : (ofRat false 3).isFin = true ∧ (ofRat false 3).val = 3 := by decide +kernel
  have w : (ofRat false 3).toReal = 3 := by simp [toReal, v.2]
  exact ⟨⟨v.1, by rw [w]; norm_num⟩, w⟩

omit [Libm] in
/-- the six planes of the cube from -1 to 1, and the box from 0 to 1 -/
example : ∃ (b : M2x3 F32) (f : M6x4 F32), b.Below (2 ^ 30) ∧ (∀ q ∈ f.planes, q.Below (2 ^ 30)) ∧
    ∀ q ∈ f.planes, ∃ p ∈ (b.map toReal).set, cullMargin b q ≤ planeAt (q.map toReal) p := by
  refine ⟨⟨⟨ofRat false 0, ofRat false 0, ofRat false 0⟩, ⟨ofRat false 1, ofRat false 1, ofRat false 1⟩⟩,
    ⟨⟨ofRat false 1, ofRat false 0, ofRat false 0, ofRat false 1⟩, ⟨ofRat false (-1), ofRat false 0, ofRat false 0, ofRat false 1⟩,
     ⟨ofRat false 0, ofRat false 1, ofRat false 0, ofRat false 1⟩, ⟨ofRat false 0, ofRat false (-1), ofRat false 0, ofRat false 1⟩,
     ⟨ofRat false 0, ofRat false 0, ofRat false 1, ofRat false 1⟩, ⟨ofRat false 0, ofRat false 0, ofRat false (-1), ofRat false 1⟩⟩,
    ⟨⟨f0.1, f0.1, f0.1⟩, ⟨f1.1, f1.1, f1.1⟩⟩, ?_, ?_⟩
  · simp only [M6x4.planes, List.forall_mem_cons, List.not_mem_nil, false_imp_iff, implies_true, and_true]
    exact ⟨⟨f1.1, f0.1, f0.1, f1.1⟩, ⟨fm1.1, f0.1, f0.1, f1.1⟩, ⟨f0.1, f1.1, f0.1, f1.1⟩, ⟨f0.1, fm1.1, f0.1, f1.1⟩, ⟨f0.1, f0.1, f1.1, f1.1⟩, ⟨f0.1, f0.1, fm1.1, f1.1⟩⟩
  · intro q hq
    refine ⟨⟨0, 0, 0⟩, by norm_num [M2x3.set, M2x3.map, V3.map, f0.2, f1.2], ?_⟩
    simp only [M6x4.planes, List.mem_cons, List.not_mem_nil, or_false] at hq
    rcases hq with rfl | rfl | rfl | rfl | rfl | rfl <;> norm_num [cullMargin, planeAt, V4.map, f0.2, f1.2, fm1.2, ur]

omit [Libm] in
/-- the box from 0 to 1 and a plane it stays behind: `x = 3` -/
example : ∃ (b : M2x3 F32) (q : V4 F32), b.Below (2 ^ 30) ∧ q.Below (2 ^ 30) ∧ (b.map toReal).Valid ∧
    ∀ p ∈ (b.map toReal).set, planeAt (q.map toReal) p < -cullMargin b q := by
  have v : (ofRat false (-3)).isFin = true ∧ (ofRat false (-3)).val = -3 := by decide +kernel
  have w : (ofRat false (-3)).toReal = -3 := by simp [toReal, v.2]
  refine ⟨⟨⟨ofRat false 0, ofRat false 0, ofRat false 0⟩, ⟨ofRat false 1, ofRat false 1, ofRat false 1⟩⟩,
    ⟨ofRat false 1, ofRat false 0, ofRat false 0, ofRat false (-3)⟩, ⟨⟨f0.1, f0.1, f0.1⟩, ⟨f1.1, f1.1, f1.1⟩⟩,
    ⟨f1.1, f0.1, f0.1, ⟨v.1, by rw [w]; norm_num⟩⟩, by norm_num [M2x3.Valid, M2x3.map, V3.map, f0.2, f1.2], ?_⟩
  rintro p ⟨-, h, -⟩
  simp only [M2x3.map, V3.map, f1.2] at h
  norm_num [cullMargin, planeAt, V4.map, f0.2, f1.2, w, ur]
  linarith

omit [Libm] in
/-- two unit balls 3 apart, and a point 3 from the center of a unit ball -/
example : ∃ s t : V4 F32, s.Below (2 ^ 30) ∧ t.Below (2 ^ 30) ∧ 1 / 2 ^ 40 ≤ s.w.toReal + t.w.toReal ∧ 1 / 2 ^ 40 ≤ s.w.toReal ∧
    (s.w.toReal + t.w.toReal) * (1 + 5 * ur) ≤ ((s.map toReal).xyz.sub (t.map toReal).xyz).len := by
  refine ⟨⟨ofRat false 0, ofRat false 0, ofRat false 0, ofRat false 1⟩, ⟨ofRat false 3, ofRat false 0, ofRat false 0, ofRat false 1⟩,
    ⟨f0.1, f0.1, f0.1, f1.1⟩, ⟨f3.1, f0.1, f0.1, f1.1⟩, by norm_num [f1.2], by norm_num [f1.2], ?_⟩
  refine Real.le_sqrt_of_sq_le ?_
  norm_num [V3.dot, V3.sub, V4.map, V4.xyz, f0.2, f1.2, f3.2, ur]

omit [Libm] in
/-- the box from 0 to 1 and the unit ball at `(1, 0, 3)`; the disk with center `(3, 0)` -/
example : ∃ (b : M2x3 F32) (s : V4 F32), b.Below (2 ^ 30) ∧ s.Below (2 ^ 30) ∧ (b.map toReal).Valid ∧ 1 / 2 ^ 40 ≤ s.w.toReal ∧
    b.c0.x.toReal ≤ s.x.toReal ∧ b.c0.y.toReal ≤ s.y.toReal ∧ b.c0.z.toReal ≤ s.z.toReal :=
  ⟨⟨⟨ofRat false 0, ofRat false 0, ofRat false 0⟩, ⟨ofRat false 1, ofRat false 1, ofRat false 1⟩⟩, ⟨ofRat false 1, ofRat false 0, ofRat false 3, ofRat false 1⟩,
    ⟨⟨f0.1, f0.1, f0.1⟩, ⟨f1.1, f1.1, f1.1⟩⟩, ⟨f1.1, f0.1, f3.1, f1.1⟩, by norm_num [M2x3.Valid, M2x3.map, V3.map, f0.2, f1.2], by norm_num [f1.2],
    by norm_num [f0.2, f1.2], by norm_num [f0.2], by norm_num [f0.2, f3.2]⟩
omit [Libm] in
example : ∃ (b : M2 F32) (s : V3 F32), b.Below (2 ^ 30) ∧ s.Below (2 ^ 30) ∧ (b.map toReal).Valid ∧ 1 / 2 ^ 40 ≤ s.z.toReal ∧
    b.c0.x.toReal ≤ s.x.toReal ∧ b.c0.y.toReal ≤ s.y.toReal :=
  ⟨⟨⟨ofRat false 0, ofRat false 0⟩, ⟨ofRat false 1, ofRat false 1⟩⟩, ⟨ofRat false 3, ofRat false 0, ofRat false 1⟩,
    ⟨⟨f0.1, f0.1⟩, ⟨f1.1, f1.1⟩⟩, ⟨f3.1, f0.1, f1.1⟩, by norm_num [M2.Valid, M2.map, V2.map, f0.2, f1.2], by norm_num [f1.2],
    by norm_num [f0.2, f3.2], by norm_num [f0.2]⟩

end Cglm
