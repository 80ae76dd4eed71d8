import Verif.Props.C26
import Verif.Props.C40
import Verif.Props.C84Quat

/-!
# C87: view matrices in binary32

`σ` says how far the viewing direction is from the `up` vector: the cross product of the unit direction with `up` is at least `σ` times as
long as `up`, so `σ` is a lower bound for the sine of the angle.  Every error is a multiple of `u / σ`.
-/

namespace Cglm
open F32

/-- the exact right-handed view matrix: the rows are side, up and backward direction -/
noncomputable def viewRh (eye center up : V3 ℝ) : M4 ℝ :=
  let f := (center.sub eye).unit
  let s := (f.cross up).unit
  let u := s.cross f
  ⟨⟨s.x, u.x, -f.x, 0⟩, ⟨s.y, u.y, -f.y, 0⟩, ⟨s.z, u.z, -f.z, 0⟩, ⟨-s.dot eye, -u.dot eye, f.dot eye, 1⟩⟩
/-- the exact left-handed view matrix: the rows are side, up and forward direction -/
noncomputable def viewLh (eye center up : V3 ℝ) : M4 ℝ :=
  let f := (center.sub eye).unit
  let s := (up.cross f).unit
  let u := f.cross s
  ⟨⟨s.x, u.x, f.x, 0⟩, ⟨s.y, u.y, f.y, 0⟩, ⟨s.z, u.z, f.z, 0⟩, ⟨-s.dot eye, -u.dot eye, -f.dot eye, 1⟩⟩

/-- the arguments of a view matrix: coordinates up to `2²⁰`, a target at least `2⁻²⁰` away, an `up` vector at least `2⁻¹⁰` long
and a direction that is not nearly parallel to it -/
structure ViewOk (eye center up : V3 F32) (σ : ℝ) : Prop where
  eyeB : eye.Below (2 ^ 20)
  centerB : center.Below (2 ^ 20)
  upB : up.Below (2 ^ 20)
  far : 1 / 2 ^ 20 ≤ ((center.map toReal).sub (eye.map toReal)).len
  long : 1 / 2 ^ 10 ≤ (up.map toReal).len
  small : 1 / 2 ^ 10 ≤ σ
  one : σ ≤ 1
  sine : σ * (up.map toReal).len ≤ (((center.map toReal).sub (eye.map toReal)).unit.cross (up.map toReal)).len

/-- the upper three rows and columns within `e`, the translation within `e * E`, the last row exact -/
def M4.ViewNear (f : M4 F32) (x : M4 ℝ) (e E : ℝ) : Prop :=
  (V3.CloseTo ⟨f.c0.x, f.c0.y, f.c0.z⟩ ⟨x.c0.x, x.c0.y, x.c0.z⟩ e ∧ V3.CloseTo ⟨f.c1.x, f.c1.y, f.c1.z⟩ ⟨x.c1.x, x.c1.y, x.c1.z⟩ e ∧
    V3.CloseTo ⟨f.c2.x, f.c2.y, f.c2.z⟩ ⟨x.c2.x, x.c2.y, x.c2.z⟩ e) ∧
  V3.CloseTo ⟨f.c3.x, f.c3.y, f.c3.z⟩ ⟨x.c3.x, x.c3.y, x.c3.z⟩ (e * E + 1 / 2 ^ 100) ∧
  (f.c0.w.toReal = x.c0.w ∧ f.c1.w.toReal = x.c1.w ∧ f.c2.w.toReal = x.c2.w ∧ f.c3.w.toReal = x.c3.w)

private theorem comp_le (v : V3 ℝ) : |v.x| ≤ v.len ∧ |v.y| ≤ v.len ∧ |v.z| ≤ v.len := by
  have h := v.len_sq
  have n0 := v.len_nonneg
  simp only [V3.dot] at h
  exact ⟨abs_le_of_sq_le_sq (by nlinarith [mul_self_nonneg v.y, mul_self_nonneg v.z]) n0, abs_le_of_sq_le_sq (by nlinarith [mul_self_nonneg v.x, mul_self_nonneg v.z]) n0,
    abs_le_of_sq_le_sq (by nlinarith [mul_self_nonneg v.x, mul_self_nonneg v.y]) n0⟩

private theorem len_le {v : V3 ℝ} {e : ℝ} (h1 : |v.x| ≤ e) (h2 : |v.y| ≤ e) (h3 : |v.z| ≤ e) : v.len ≤ 2 * e := by
  have e0 := (abs_nonneg _).trans h1
  refine le_of_abs_le (abs_le_of_sq_le_sq ?_ (by linarith))
  have := sq_le_sq' (abs_le.mp h1).1 (abs_le.mp h1).2
  have := sq_le_sq' (abs_le.mp h2).1 (abs_le.mp h2).2
  have := sq_le_sq' (abs_le.mp h3).1 (abs_le.mp h3).2
  have h := v.len_sq
  simp only [V3.dot] at h
  nlinarith

private theorem unit_le (v : V3 ℝ) (h : 0 < v.len) : |v.unit.x| ≤ 1 ∧ |v.unit.y| ≤ 1 ∧ |v.unit.z| ≤ 1 := by
  obtain ⟨a, b, c⟩ := comp_le v
  have q : ∀ t : ℝ, |t| ≤ v.len → |1 / v.len * t| ≤ 1 := by
    intro t ht
    rw [abs_mul, abs_of_pos (by positivity), one_div, inv_mul_le_iff₀ h, mul_one]; exact ht
  exact ⟨q _ a, q _ b, q _ c⟩

/-- the unit vector of a vector that is near another -/
private theorem unit_close {v w : V3 ℝ} {δ : ℝ} (hv : 0 < v.len) (hw : 0 < w.len) (h : (w.sub v).len ≤ δ * v.len) :
    |w.unit.x - v.unit.x| ≤ 2 * δ ∧ |w.unit.y - v.unit.y| ≤ 2 * δ ∧ |w.unit.z - v.unit.z| ≤ 2 * δ := by
  have t : |v.len - w.len| ≤ δ * v.len := by
    refine le_trans ?_ h
    have h1 := V3.len_add_le (w.sub v) v
    have h2 := V3.len_add_le (v.sub w) w
    rw [show (w.sub v).add v = w by ext <;> simp [V3.add, V3.sub]] at h1
    rw [show (v.sub w).add w = v by ext <;> simp [V3.add, V3.sub], V3.dist_comm] at h2
    rw [abs_le]; constructor <;> linarith
  obtain ⟨c1, c2, c3⟩ := comp_le (w.sub v)
  obtain ⟨u1, u2, u3⟩ := unit_le w hw
  have key : ∀ a b : ℝ, |1 / w.len * a| ≤ 1 → |a - b| ≤ (w.sub v).len → |1 / w.len * a - 1 / v.len * b| ≤ 2 * δ := by
    intro a b h1 h2
    have e : 1 / w.len * a - 1 / v.len * b = (1 / w.len * a * (v.len - w.len) + (a - b)) / v.len := by field_simp; ring
    rw [e, abs_div, abs_of_pos hv, div_le_iff₀ hv]
    refine (abs_add_le _ _).trans ?_
    rw [abs_mul]
    have := mul_le_mul h1 t (abs_nonneg _) zero_le_one
    linarith
  exact ⟨key _ _ u1 c1, key _ _ u2 c2, key _ _ u3 c3⟩

variable [Libm]

private theorem norm_ok (v : V3 F32) (hv : v.Below (2 ^ 24)) (hl : 1 / 2 ^ 21 ≤ (v.map toReal).len) :
    (glm_vec3_norm v).isFin = true ∧ 1 / 2 ^ 23 ≤ (glm_vec3_norm v).toReal := by
  obtain ⟨x, y, z⟩ := v
  obtain ⟨hx, hy, hz⟩ := hv
  replace hx : Apx x x.toReal |x.toReal| 0 (2 ^ 24) 0 := Apx.var hx
  replace hy : Apx y y.toReal |y.toReal| 0 (2 ^ 24) 0 := Apx.var hy
  replace hz : Apx z z.toReal |z.toReal| 0 (2 ^ 24) 0 := Apx.var hz
  have hsq := V3.len_sq (V3.map toReal ⟨x, y, z⟩)
  have hd : (glm_vec3_dot (⟨x, y, z⟩ : V3 F32) ⟨x, y, z⟩).isFin = true ∧ |(glm_vec3_dot (⟨x, y, z⟩ : V3 F32) ⟨x, y, z⟩).toReal - (V3.map toReal ⟨x, y, z⟩).dot (V3.map toReal ⟨x, y, z⟩)| ≤
      4 * ur * (V3.map toReal ⟨x, y, z⟩).dot (V3.map toReal ⟨x, y, z⟩) + 1 / 2 ^ 140 := by
    simp only [glm_vec3_dot, V3.map, V3.dot]
    apply Apx.bound 3 (x.toReal * x.toReal + y.toReal * y.toReal + z.toReal * z.toReal)
    · apx <;> norm_num
    · rfl
    · norm_num
    · norm_num
    · simp only [abs_mul_abs_self, le_refl]
    · have := ur_pos
      have : 0 ≤ ur * (x.toReal * x.toReal + y.toReal * y.toReal + z.toReal * z.toReal) := mul_nonneg ur_pos.le (by nlinarith [mul_self_nonneg x.toReal, mul_self_nonneg y.toReal, mul_self_nonneg z.toReal])
      norm_num [ηr]
      linarith
  have l2 : 1 / 2 ^ 42 ≤ (V3.map toReal ⟨x, y, z⟩).len * (V3.map toReal ⟨x, y, z⟩).len := by
    have := mul_le_mul hl hl (by norm_num) (V3.len_nonneg _)
    norm_num at this ⊢; exact this
  have d0 : 0 ≤ (glm_vec3_dot (⟨x, y, z⟩ : V3 F32) ⟨x, y, z⟩).toReal := by
    rw [hsq] at l2
    have h1 := (abs_le.mp hd.2).1
    have : 4 * ur * (V3.map toReal ⟨x, y, z⟩).dot (V3.map toReal ⟨x, y, z⟩) ≤ 1 / 2 * (V3.map toReal ⟨x, y, z⟩).dot (V3.map toReal ⟨x, y, z⟩) :=
      mul_le_mul_of_nonneg_right (by norm_num [ur]) (V3.dot_self_nonneg _)
    norm_num at *
    linarith
  have hf : (glm_vec3_norm (⟨x, y, z⟩ : V3 F32)).isFin = true := Fine.sqrt hd.1 d0
  refine ⟨hf, ?_⟩
  have e := C64_vec3_norm ⟨x, y, z⟩ hf
  rw [show glm_vec3_norm (V3.map toReal ⟨x, y, z⟩) = (V3.map toReal ⟨x, y, z⟩).len by simp only [cglm, V3.len, V3.dot]] at e
  have h1 := (abs_le.mp e).1
  have : γ 4 * (V3.map toReal ⟨x, y, z⟩).len ≤ 1 / 2 * (V3.map toReal ⟨x, y, z⟩).len := mul_le_mul_of_nonneg_right (by norm_num [γ, ur]) (V3.len_nonneg _)
  norm_num at *
  linarith

/-- a normalised float vector that is near a real one -/
private theorem normal (g : V3 F32) (d : V3 ℝ) (δ M A : ℝ) (k : ℕ) (hg : g.Below (2 ^ 24)) (hd : 1 / 2 ^ 20 ≤ d.len) (h : ((g.map toReal).sub d).len ≤ δ * d.len)
    (hδ : δ ≤ 1 / 4) (hM : 1 ≤ M) (hM' : M ≤ A) (hk : 2 * δ + 9 * ur ≤ k * ur * M) :
    Apx (glm_vec3_normalize g).x d.unit.x M k A 0 ∧ Apx (glm_vec3_normalize g).y d.unit.y M k A 0 ∧ Apx (glm_vec3_normalize g).z d.unit.z M k A 0 := by
  have dp : 0 < d.len := lt_of_lt_of_le (by norm_num) hd
  have gl : 1 / 2 ^ 21 ≤ (g.map toReal).len := by
    have h1 := V3.len_add_le (d.sub (g.map toReal)) (g.map toReal)
    rw [show (d.sub (g.map toReal)).add (g.map toReal) = d by ext <;> simp [V3.add, V3.sub], V3.dist_comm] at h1
    have := mul_le_mul_of_nonneg_right hδ dp.le
    norm_num at *
    linarith
  have gp : 0 < (g.map toReal).len := lt_of_lt_of_le (by norm_num) gl
  obtain ⟨n1, n2⟩ := norm_ok g hg gl
  obtain ⟨⟨f1, f2, f3⟩, ⟨e1, e2, e3⟩, -⟩ := C64_vec3_normalize g n1 n2
  obtain ⟨c1, c2, c3⟩ := unit_close dp gp h
  obtain ⟨u1, u2, u3⟩ := unit_le d dp
  obtain ⟨w1, w2, w3⟩ := unit_le _ gp
  rw [show glm_vec3_norm (g.map toReal) = (g.map toReal).len by simp only [cglm, V3.len, V3.dot]] at e1 e2 e3
  have gi : 0 < 1 / (g.map toReal).len := one_div_pos.mpr gp
  have key : ∀ (f : F32) (t a b : ℝ), f.isFin = true → Err f (t * (1 / (g.map toReal).len)) (8 * ur) (|t| * (1 / (g.map toReal).len)) (1 / 2 ^ 150) →
      a = 1 / (g.map toReal).len * t → |a| ≤ 1 → |a - b| ≤ 2 * δ → |b| ≤ 1 → Apx f b M k A 0 := by
    intro f t a b hf he ha h1 h2 h3
    refine ⟨hf, ?_, h3.trans hM, hM', le_rfl⟩
    have e' := he hf
    rw [mul_comm t, ← ha, show |t| * (1 / (g.map toReal).len) = |a| by rw [ha, abs_mul, abs_of_pos gi]; ring] at e'
    have t3 := abs_sub_le f.toReal a b
    have t4 : 8 * ur * |a| ≤ 8 * ur * 1 := mul_le_mul_of_nonneg_left h1 (by linarith [ur_pos])
    have t5 : (1 : ℝ) / 2 ^ 150 ≤ ur := by norm_num [ur]
    have t6 := one_add_mul_le_pow (a := ur) (by linarith [ur_pos]) k
    have t7 : (k : ℝ) * ur * M ≤ ((1 + ur) ^ k - 1) * M := mul_le_mul_of_nonneg_right (by linarith) (by linarith)
    linarith
  exact ⟨key _ _ _ _ f1 e1 rfl w1 c1 u1, key _ _ _ _ f2 e2 rfl w2 c2 u2, key _ _ _ _ f3 e3 rfl w3 c3 u3⟩

omit [Libm] in
private theorem cw {f : F32} {x M A c L : ℝ} {k : ℕ} (hL : 1 / 2 ^ 10 ≤ L) (h : Apx f x M k A c) (hk : k ≤ 13) (hc : c ≤ 2 ^ 20) (hM : M ≤ 2 * L) :
    (f.isFin = true ∧ |f.toReal - x| ≤ 27 * ur * L) ∧ |x| ≤ 2 * L := by
  refine ⟨h.bound 13 (2 * L) rfl hk (by norm_num) hM ?_, h.mag.trans hM⟩
  have h1 : c * ηr ≤ 2 ^ 20 * ηr := mul_le_mul_of_nonneg_right hc (by norm_num [ηr])
  have h2 := mul_le_mul_of_nonneg_left hL ur_pos.le
  norm_num [ur, ηr] at *
  linarith

/-- the direction and the side of the frame -/
private theorem frame {eye center up : V3 F32} {σ : ℝ} (h : ViewOk eye center up σ) (w : V3 F32) (W : V3 ℝ)
    (hw : w = glm_vec3_cross (glm_vec3_normalize (glm_vec3_sub center eye)) up ∧ W = ((center.map toReal).sub (eye.map toReal)).unit.cross (up.map toReal) ∨
      w = glm_vec3_cross up (glm_vec3_normalize (glm_vec3_sub center eye)) ∧ W = (up.map toReal).cross ((center.map toReal).sub (eye.map toReal)).unit) :
    ∃ a b c S T U : ℝ, ((center.map toReal).sub (eye.map toReal)).unit = ⟨a, b, c⟩ ∧ W.unit = ⟨S, T, U⟩ ∧
      Apx (glm_vec3_normalize (glm_vec3_sub center eye)).x a 1 11 (2 ^ 10) 0 ∧ Apx (glm_vec3_normalize (glm_vec3_sub center eye)).y b 1 11 (2 ^ 10) 0 ∧
      Apx (glm_vec3_normalize (glm_vec3_sub center eye)).z c 1 11 (2 ^ 10) 0 ∧
      Apx (glm_vec3_normalize w).x S (1 / σ) 117 (2 ^ 10) 0 ∧ Apx (glm_vec3_normalize w).y T (1 / σ) 117 (2 ^ 10) 0 ∧ Apx (glm_vec3_normalize w).z U (1 / σ) 117 (2 ^ 10) 0 := by
  obtain ⟨⟨ex, ey, ez⟩, ⟨cx, cy, cz⟩, upB, far, long, small, one, sine⟩ := h
  have u0 := ur_pos
  have σ0 : 0 < σ := lt_of_lt_of_le (by norm_num) small
  have s1 : 1 ≤ 1 / σ := by rw [le_div_iff₀ σ0]; linarith
  have s2 : 1 / σ ≤ 2 ^ 10 := by rw [div_le_iff₀ σ0]; norm_num at small ⊢; linarith
  have g1 := Apx.subv cx ex (by norm_num)
  have g2 := Apx.subv cy ey (by norm_num)
  have g3 := Apx.subv cz ez (by norm_num)
  have d0 : 0 < ((center.map toReal).sub (eye.map toReal)).len := lt_of_lt_of_le (by norm_num) far
  have F := normal (glm_vec3_sub center eye) ((center.map toReal).sub (eye.map toReal)) ur 1 (2 ^ 10) 11
    ⟨⟨g1.fin, (g1.fine (by norm_num)).2.trans (by norm_num)⟩, ⟨g2.fin, (g2.fine (by norm_num)).2.trans (by norm_num)⟩, ⟨g3.fin, (g3.fine (by norm_num)).2.trans (by norm_num)⟩⟩ far (by
      refine le_of_abs_le (abs_le_of_sq_le_sq ?_ (by positivity))
      have q1 := g1.err
      have q2 := g2.err
      have q3 := g3.err
      rw [pow_one, add_sub_cancel_left, zero_mul, add_zero] at q1 q2 q3
      rw [mul_pow, sq, sq (V3.len _), V3.len_sq, V3.len_sq]
      simp only [V3.dot, V3.sub, V3.map, glm_vec3_sub]
      have r1 := mul_self_le_mul_self (abs_nonneg _) q1
      have r2 := mul_self_le_mul_self (abs_nonneg _) q2
      have r3 := mul_self_le_mul_self (abs_nonneg _) q3
      rw [abs_mul_abs_self, mul_mul_mul_comm, abs_mul_abs_self] at r1 r2 r3
      linarith) (by norm_num [ur]) le_rfl (by norm_num) (by norm_num; linarith)
  obtain ⟨f1, f2, f3⟩ := F
  have L0 := V3.len_nonneg (up.map toReal)
  obtain ⟨l1, l2, l3⟩ := comp_le (up.map toReal)
  have hL : (up.map toReal).len ≤ 2 ^ 21 := by
    refine (len_le (e := 2 ^ 20) ?_ ?_ ?_).trans (by norm_num)
    · exact upB.1.2
    · exact upB.2.1.2
    · exact upB.2.2.2
  have WL : σ * (up.map toReal).len ≤ W.len := by
    rcases hw with ⟨-, e⟩ | ⟨-, e⟩
    · rw [e]; exact sine
    · rw [e]; refine sine.trans (le_of_eq ?_); unfold V3.len V3.dot V3.cross; congr 1; simp only; ring
  generalize hf : glm_vec3_normalize (glm_vec3_sub center eye) = f at *
  generalize hD : ((center.map toReal).sub (eye.map toReal)).unit = D at *
  obtain ⟨p, q, r⟩ := up
  obtain ⟨f4, f5, f6⟩ := f
  obtain ⟨a, b, c⟩ := D
  replace hp : Apx p p.toReal |p.toReal| 0 (2 ^ 20) 0 := Apx.var upB.1
  replace hq : Apx q q.toReal |q.toReal| 0 (2 ^ 20) 0 := Apx.var upB.2.1
  replace hr : Apx r r.toReal |r.toReal| 0 (2 ^ 20) 0 := Apx.var upB.2.2
  generalize (V3.map toReal ⟨p, q, r⟩).len = L at *
  have k1 : ((w.x.isFin = true ∧ |w.x.toReal - W.x| ≤ 27 * ur * L) ∧ (w.y.isFin = true ∧ |w.y.toReal - W.y| ≤ 27 * ur * L) ∧ (w.z.isFin = true ∧ |w.z.toReal - W.z| ≤ 27 * ur * L)) ∧
      |W.x| ≤ 2 * L ∧ |W.y| ≤ 2 * L ∧ |W.z| ≤ 2 * L := by
    have k2 : ((w.x.isFin = true ∧ |w.x.toReal - W.x| ≤ 27 * ur * L) ∧ |W.x| ≤ 2 * L) ∧ ((w.y.isFin = true ∧ |w.y.toReal - W.y| ≤ 27 * ur * L) ∧ |W.y| ≤ 2 * L) ∧
        ((w.z.isFin = true ∧ |w.z.toReal - W.z| ≤ 27 * ur * L) ∧ |W.z| ≤ 2 * L) := by
      simp only [V3.map] at l1 l2 l3 f1 f2 f3
      rcases hw with ⟨e1, e2⟩ | ⟨e1, e2⟩ <;> subst e1 e2 <;> simp only [glm_vec3_cross, glm_vec3_copy, V3.cross, V3.map] <;> refine ⟨?_, ?_, ?_⟩ <;> apply cw long
      all_goals first | (apx <;> norm_num; done) | (norm_num; done) | linarith
    exact ⟨⟨k2.1.1, k2.2.1.1, k2.2.2.1⟩, k2.1.2, k2.2.1.2, k2.2.2.2⟩
  obtain ⟨⟨⟨w1, w1'⟩, ⟨w2, w2'⟩, ⟨w3, w3'⟩⟩, m1, m2, m3⟩ := k1
  have hB : w.Below (2 ^ 24) := by
    have q : ∀ (t : F32) (x : ℝ), |t.toReal - x| ≤ 27 * ur * L → |x| ≤ 2 * L → |t.toReal| ≤ 2 ^ 24 := by
      intro t x h1 h2
      have := abs_add_le (t.toReal - x) x
      rw [sub_add_cancel] at this
      have : 27 * ur * L ≤ 1 * L := mul_le_mul_of_nonneg_right (by norm_num [ur]) L0
      norm_num at *
      linarith
    exact ⟨⟨w1, q _ _ w1' m1⟩, ⟨w2, q _ _ w2' m2⟩, ⟨w3, q _ _ w3' m3⟩⟩
  have N := normal w W (54 * ur / σ) (1 / σ) (2 ^ 10) 117 hB
    (by
      have := mul_le_mul small long (by norm_num) σ0.le
      norm_num at *; linarith)
    (by
      refine (len_le (e := 27 * ur * L) w1' w2' w3').trans ?_
      rw [div_mul_eq_mul_div, le_div_iff₀ σ0]
      have := mul_le_mul_of_nonneg_left WL (show 0 ≤ 54 * ur by positivity)
      linarith)
    (by
      rw [div_le_iff₀ σ0]; norm_num [ur] at *; linarith) s1 s2
    (by
      have : 9 * ur * 1 ≤ 9 * ur * (1 / σ) := mul_le_mul_of_nonneg_left s1 (by positivity)
      rw [mul_div_assoc', div_add' _ _ _ σ0.ne', mul_one_div, div_le_div_iff_of_pos_right σ0]
      have : ur * σ ≤ ur * 1 := mul_le_mul_of_nonneg_left one u0.le
      norm_num
      linarith)
  exact ⟨a, b, c, _, _, _, rfl, rfl, f1, f2, f3, N.1, N.2.1, N.2.2⟩

/-- the computed view matrix: directions within `270 * u / σ`, translation within `270 * u / σ` times the size of the eye's coordinates -/
theorem C87_lookat_rh (eye center up : V3 F32) (σ : ℝ) (h : ViewOk eye center up σ) :
    (glm_lookat_rh eye center up).ViewNear (viewRh (eye.map toReal) (center.map toReal) (up.map toReal)) (270 * ur / σ) (|eye.x.toReal| + |eye.y.toReal| + |eye.z.toReal|) := by
  obtain ⟨a, b, c, S, T, U, hD, hW, f1, f2, f3, s1, s2, s3⟩ := frame h _ _ (Or.inl ⟨rfl, rfl⟩)
  have σ0 : 0 < σ := lt_of_lt_of_le (by norm_num) h.small
  have i1 : 1 ≤ 1 / σ := by rw [le_div_iff₀ σ0]; linarith [h.one]
  have hx : Apx eye.x eye.x.toReal |eye.x.toReal| 0 (2 ^ 20) 0 := Apx.var h.eyeB.1
  have hy : Apx eye.y eye.y.toReal |eye.y.toReal| 0 (2 ^ 20) 0 := Apx.var h.eyeB.2.1
  have hz : Apx eye.z eye.z.toReal |eye.z.toReal| 0 (2 ^ 20) 0 := Apx.var h.eyeB.2.2
  unfold glm_lookat_rh viewRh glm_vec3_crossn
  rw [hD] at hW ⊢
  dsimp only
  rw [hW]
  clear h hW hD
  have z0 : (lit 0 : F32).toReal = 0 := by simpa using Apx.zero.err
  generalize glm_vec3_normalize (glm_vec3_cross (glm_vec3_normalize (glm_vec3_sub center eye)) up) = s at *
  generalize glm_vec3_normalize (glm_vec3_sub center eye) = f at *
  obtain ⟨ex, ey, ez⟩ := eye
  obtain ⟨fx, fy, fz⟩ := f
  obtain ⟨sx, sy, sz⟩ := s
  have n1 := abs_nonneg ex.toReal
  have n2 := abs_nonneg ey.toReal
  have n3 := abs_nonneg ez.toReal
  simp only [M4.ViewNear, glm_vec3_cross, glm_vec3_copy, V3.cross, V3.map, V3.dot, glm_vec3_dot] at *
  rw [div_eq_mul_one_div (270 * ur) σ]
  generalize 1 / σ = R at *
  have t1 := mul_le_mul_of_nonneg_right i1 n1
  have t2 := mul_le_mul_of_nonneg_right i1 n2
  have t3 := mul_le_mul_of_nonneg_right i1 n3
  have q0 := mul_le_mul_of_nonneg_left i1 ur_pos.le
  have q1 := mul_nonneg ur_pos.le ((mul_nonneg zero_le_one n1).trans t1)
  have q2 := mul_nonneg ur_pos.le ((mul_nonneg zero_le_one n2).trans t2)
  have q3 := mul_nonneg ur_pos.le ((mul_nonneg zero_le_one n3).trans t3)
  have u1 : 1 / 2 ^ 24 ≤ ur * 1 := by norm_num [ur]
  refine ⟨⟨⟨?_, ?_, ?_⟩, ⟨?_, ?_, ?_⟩, ⟨?_, ?_, ?_⟩⟩, ⟨?_, ?_, ?_⟩, z0, z0, z0, toReal_lit_one.2⟩
  iterate 9
    apply Apx.bound 130 (2 * R)
    · apx <;> norm_num
    · rfl
    · norm_num
    · norm_num
    · linarith
    · norm_num [ηr] at *; linarith
  all_goals
    apply Apx.bound 133 (2 * R * (|ex.toReal| + |ey.toReal| + |ez.toReal|))
    · apx <;> norm_num
    · ring
    · norm_num
    · norm_num
    · linarith
    · norm_num [ηr]; linarith

/-- the computed view matrix: directions within `270 * u / σ`, translation within `270 * u / σ` times the size of the eye's coordinates -/
theorem C87_lookat_lh (eye center up : V3 F32) (σ : ℝ) (h : ViewOk eye center up σ) :
    (glm_lookat_lh eye center up).ViewNear (viewLh (eye.map toReal) (center.map toReal) (up.map toReal)) (270 * ur / σ) (|eye.x.toReal| + |eye.y.toReal| + |eye.z.toReal|) := by
  obtain ⟨a, b, c, S, T, U, hD, hW, f1, f2, f3, s1, s2, s3⟩ := frame h _ _ (Or.inr ⟨rfl, rfl⟩)
  have σ0 : 0 < σ := lt_of_lt_of_le (by norm_num) h.small
  have i1 : 1 ≤ 1 / σ := by rw [le_div_iff₀ σ0]; linarith [h.one]
  have hx : Apx eye.x eye.x.toReal |eye.x.toReal| 0 (2 ^ 20) 0 := Apx.var h.eyeB.1
  have hy : Apx eye.y eye.y.toReal |eye.y.toReal| 0 (2 ^ 20) 0 := Apx.var h.eyeB.2.1
  have hz : Apx eye.z eye.z.toReal |eye.z.toReal| 0 (2 ^ 20) 0 := Apx.var h.eyeB.2.2
  unfold glm_lookat_lh viewLh glm_vec3_crossn
  rw [hD] at hW ⊢
  dsimp only
  rw [hW]
  clear h hW hD
  have z0 : (lit 0 : F32).toReal = 0 := by simpa using Apx.zero.err
  generalize glm_vec3_normalize (glm_vec3_cross up (glm_vec3_normalize (glm_vec3_sub center eye))) = s at *
  generalize glm_vec3_normalize (glm_vec3_sub center eye) = f at *
  obtain ⟨ex, ey, ez⟩ := eye
  obtain ⟨fx, fy, fz⟩ := f
  obtain ⟨sx, sy, sz⟩ := s
  have n1 := abs_nonneg ex.toReal
  have n2 := abs_nonneg ey.toReal
  have n3 := abs_nonneg ez.toReal
  simp only [M4.ViewNear, glm_vec3_cross, glm_vec3_copy, V3.cross, V3.map, V3.dot, glm_vec3_dot] at *
  rw [div_eq_mul_one_div (270 * ur) σ]
  generalize 1 / σ = R at *
  have t1 := mul_le_mul_of_nonneg_right i1 n1
  have t2 := mul_le_mul_of_nonneg_right i1 n2
  have t3 := mul_le_mul_of_nonneg_right i1 n3
  have q0 := mul_le_mul_of_nonneg_left i1 ur_pos.le
  have q1 := mul_nonneg ur_pos.le ((mul_nonneg zero_le_one n1).trans t1)
  have q2 := mul_nonneg ur_pos.le ((mul_nonneg zero_le_one n2).trans t2)
  have q3 := mul_nonneg ur_pos.le ((mul_nonneg zero_le_one n3).trans t3)
  have u1 : 1 / 2 ^ 24 ≤ ur * 1 := by norm_num [ur]
  refine ⟨⟨⟨?_, ?_, ?_⟩, ⟨?_, ?_, ?_⟩, ⟨?_, ?_, ?_⟩⟩, ⟨?_, ?_, ?_⟩, z0, z0, z0, toReal_lit_one.2⟩
  iterate 9
    apply Apx.bound 130 (2 * R)
    · apx <;> norm_num
    · rfl
    · norm_num
    · norm_num
    · linarith
    · norm_num [ηr] at *; linarith
  all_goals
    apply Apx.bound 133 (2 * R * (|ex.toReal| + |ey.toReal| + |ez.toReal|))
    · apx <;> norm_num
    · ring
    · norm_num
    · norm_num
    · linarith
    · norm_num [ηr]; linarith

/-- the upper three rows and columns -/
def M4.dirs {α : Type} (m : M4 α) : M3 α := ⟨⟨m.c0.x, m.c0.y, m.c0.z⟩, ⟨m.c1.x, m.c1.y, m.c1.z⟩, ⟨m.c2.x, m.c2.y, m.c2.z⟩⟩

omit [Libm] in
private theorem frameR {eye center up : V3 F32} {σ : ℝ} (h : ViewOk eye center up σ) : ViewFrame ((center.map toReal).sub (eye.map toReal)) (up.map toReal) := by
  have e : (FLT_EPSILON : ℝ) = 1 / 2 ^ 23 := by norm_num [FLT_EPSILON]
  refine ⟨le_trans (by rw [e]; norm_num) h.far, le_trans ?_ h.sine⟩
  refine le_trans ?_ (mul_le_mul h.small h.long (by norm_num) (le_trans (by norm_num) h.small))
  rw [e]; norm_num

/-- the directions are perpendicular and of length one, to within `1080 * u / σ`, and the determinant is near one -/
theorem C87_orthogonal_rh (eye center up : V3 F32) (σ : ℝ) (h : ViewOk eye center up σ) :
    let m := (glm_lookat_rh eye center up).dirs.map toReal
    |m.c0.dot m.c0 - 1| ≤ 1080 * ur / σ ∧ |m.c1.dot m.c1 - 1| ≤ 1080 * ur / σ ∧ |m.c2.dot m.c2 - 1| ≤ 1080 * ur / σ ∧
      |m.c0.dot m.c1| ≤ 1080 * ur / σ ∧ |m.c0.dot m.c2| ≤ 1080 * ur / σ ∧ |m.c1.dot m.c2| ≤ 1080 * ur / σ ∧ |m.c0.dot (m.c1.cross m.c2) - 1| ≤ 6480 * ur / σ := by
  have σ0 : 0 < σ := lt_of_lt_of_le (by norm_num) h.small
  have he : 270 * ur / σ ≤ 1 / 8 := by
    rw [div_le_iff₀ σ0]; have := h.small; norm_num [ur] at *; linarith
  have hc := (C87_lookat_rh eye center up σ h).1
  have hr := C26_rigid_rh (eye.map toReal) (center.map toReal) (up.map toReal) (frameR h)
  rw [C26_lookat_rh_rows _ _ _ (frameR h) _ _ _ rfl rfl rfl] at hr
  have h1 := C84_orthogonal (glm_lookat_rh eye center up).dirs (viewRh (eye.map toReal) (center.map toReal) (up.map toReal)).dirs _ he hr.1 hc
  have h2 := C84_handedness (glm_lookat_rh eye center up).dirs (viewRh (eye.map toReal) (center.map toReal) (up.map toReal)).dirs _ he hr.1 hc
  rw [show 4 * (270 * ur / σ) = 1080 * ur / σ by ring] at h1
  rw [show 24 * (270 * ur / σ) = 6480 * ur / σ by ring] at h2
  exact ⟨h1.1, h1.2.1, h1.2.2.1, h1.2.2.2.1, h1.2.2.2.2.1, h1.2.2.2.2.2, h2⟩

/-- the directions are perpendicular and of length one, to within `1080 * u / σ`, and the determinant is near one -/
theorem C87_orthogonal_lh (eye center up : V3 F32) (σ : ℝ) (h : ViewOk eye center up σ) :
    let m := (glm_lookat_lh eye center up).dirs.map toReal
    |m.c0.dot m.c0 - 1| ≤ 1080 * ur / σ ∧ |m.c1.dot m.c1 - 1| ≤ 1080 * ur / σ ∧ |m.c2.dot m.c2 - 1| ≤ 1080 * ur / σ ∧
      |m.c0.dot m.c1| ≤ 1080 * ur / σ ∧ |m.c0.dot m.c2| ≤ 1080 * ur / σ ∧ |m.c1.dot m.c2| ≤ 1080 * ur / σ ∧ |m.c0.dot (m.c1.cross m.c2) - 1| ≤ 6480 * ur / σ := by
  have σ0 : 0 < σ := lt_of_lt_of_le (by norm_num) h.small
  have he : 270 * ur / σ ≤ 1 / 8 := by
    rw [div_le_iff₀ σ0]; have := h.small; norm_num [ur] at *; linarith
  have hc := (C87_lookat_lh eye center up σ h).1
  have hr := C26_rigid_lh (eye.map toReal) (center.map toReal) (up.map toReal) (frameR h)
  rw [C26_lookat_lh_rows _ _ _ (frameR h) _ _ _ rfl rfl rfl] at hr
  have h1 := C84_orthogonal (glm_lookat_lh eye center up).dirs (viewLh (eye.map toReal) (center.map toReal) (up.map toReal)).dirs _ he hr.1 hc
  have h2 := C84_handedness (glm_lookat_lh eye center up).dirs (viewLh (eye.map toReal) (center.map toReal) (up.map toReal)).dirs _ he hr.1 hc
  rw [show 4 * (270 * ur / σ) = 1080 * ur / σ by ring] at h1
  rw [show 24 * (270 * ur / σ) = 6480 * ur / σ by ring] at h2
  exact ⟨h1.1, h1.2.1, h1.2.2.1, h1.2.2.2.1, h1.2.2.2.2.1, h1.2.2.2.2.2, h2⟩

/-- the direction that is left after adding it to the eye and subtracting the eye again -/
private theorem look_dir (eye dir : V3 F32) (he : eye.Below (2 ^ 20)) (hd : dir.Below (2 ^ 20)) (hl : 1 / 2 ^ 20 ≤ (dir.map toReal).len)
    (hr : (eye.map toReal).len ≤ 2 ^ 20 * (dir.map toReal).len) :
    (glm_vec3_normalize (glm_vec3_sub (glm_vec3_add eye dir) eye)).CloseTo (dir.map toReal).unit ((5 * ((eye.map toReal).len / (dir.map toReal).len) + 20) * ur) := by
  have u0 := ur_pos
  have D0 : 0 < (dir.map toReal).len := lt_of_lt_of_le (by norm_num) hl
  have E0 := V3.len_nonneg (eye.map toReal)
  obtain ⟨c1, c2, c3⟩ := comp_le (eye.map toReal)
  obtain ⟨d1, d2, d3⟩ := comp_le (dir.map toReal)
  have key : ∀ a b : F32, Fine a (2 ^ 20) → Fine b (2 ^ 20) → |a.toReal| ≤ (eye.map toReal).len → |b.toReal| ≤ (dir.map toReal).len →
      Fine (a + b - a) (2 ^ 24) ∧ |(a + b - a).toReal - b.toReal| ≤ ur * (101 / 100 * (eye.map toReal).len + 21 / 10 * (dir.map toReal).len) := by
    intro a b ha hb a1 b1
    have A := Apx.addv ha hb (by norm_num)
    have F : Fine (a + b) (2 ^ 22) := ⟨A.fin, (A.fine (by norm_num)).2.trans (by norm_num)⟩
    have B := Apx.subv F ha (by norm_num)
    refine ⟨⟨B.fin, (B.fine (by norm_num)).2.trans (by norm_num)⟩, ?_⟩
    have e1 := A.err
    have e2 := B.err
    rw [pow_one, add_sub_cancel_left, zero_mul, add_zero] at e1 e2
    have m1 := abs_add_le a.toReal b.toReal
    have m2 := abs_add_le ((a + b).toReal - (a.toReal + b.toReal)) b.toReal
    rw [show (a + b).toReal - (a.toReal + b.toReal) + b.toReal = (a + b).toReal - a.toReal by ring] at m2
    have m3 := abs_sub_le (a + b - a).toReal ((a + b).toReal - a.toReal) b.toReal
    rw [show (a + b).toReal - a.toReal - b.toReal = (a + b).toReal - (a.toReal + b.toReal) by ring] at m3
    have m4 : ur * |a.toReal + b.toReal| ≤ ur * ((eye.map toReal).len + (dir.map toReal).len) := mul_le_mul_of_nonneg_left (by linarith) u0.le
    have m5 : ur * (ur * ((eye.map toReal).len + (dir.map toReal).len)) ≤ 1 / 100 * (ur * ((eye.map toReal).len + (dir.map toReal).len)) :=
      mul_le_mul_of_nonneg_right (by norm_num [ur]) (by positivity)
    have m6 : ur * |(a + b).toReal - a.toReal| ≤ ur * (ur * ((eye.map toReal).len + (dir.map toReal).len) + (dir.map toReal).len) :=
      mul_le_mul_of_nonneg_left (by linarith) u0.le
    have : 0 ≤ ur * (dir.map toReal).len := by positivity
    linarith
  obtain ⟨k1, k1'⟩ := key _ _ he.1 hd.1 c1 d1
  obtain ⟨k2, k2'⟩ := key _ _ he.2.1 hd.2.1 c2 d2
  obtain ⟨k3, k3'⟩ := key _ _ he.2.2 hd.2.2 c3 d3
  have q : (eye.map toReal).len / (dir.map toReal).len ≤ 2 ^ 20 := by rw [div_le_iff₀ D0]; exact hr
  have q0 : 0 ≤ (eye.map toReal).len / (dir.map toReal).len := by positivity
  have e : ((glm_vec3_sub (glm_vec3_add eye dir) eye).map toReal |>.sub (dir.map toReal)).len ≤
      ur * (202 / 100 * ((eye.map toReal).len / (dir.map toReal).len) + 42 / 10) * (dir.map toReal).len := by
    refine (len_le k1' k2' k3').trans (le_of_eq ?_)
    field_simp
    ring
  generalize (eye.map toReal).len / (dir.map toReal).len = r at *
  have ru : ur * r ≤ ur * 2 ^ 20 := mul_le_mul_of_nonneg_left q u0.le
  have ru0 : 0 ≤ ur * r := by positivity
  obtain ⟨n1, n2, n3⟩ := normal (glm_vec3_sub (glm_vec3_add eye dir) eye) (dir.map toReal) _ (1 + r / 4) (2 ^ 20) 18 ⟨k1, k2, k3⟩ hl e
    (by norm_num [ur] at *; linarith) (by linarith) (by linarith) (by push_cast; linarith)
  refine ⟨?_, ?_, ?_⟩
  · exact n1.bound 18 (1 + r / 4) rfl le_rfl (by norm_num) le_rfl (by push_cast; linarith)
  · exact n2.bound 18 (1 + r / 4) rfl le_rfl (by norm_num) le_rfl (by push_cast; linarith)
  · exact n3.bound 18 (1 + r / 4) rfl le_rfl (by norm_num) le_rfl (by push_cast; linarith)

/-- `look` takes a direction, adds it to the eye and subtracts the eye again: the direction in the matrix is as accurate as
the ratio of the lengths of the two allows -/
theorem C87_look (eye dir up : V3 F32) (he : eye.Below (2 ^ 20)) (hd : dir.Below (2 ^ 20)) (hl : 1 / 2 ^ 20 ≤ (dir.map toReal).len)
    (hr : (eye.map toReal).len ≤ 2 ^ 20 * (dir.map toReal).len) :
    V3.CloseTo ⟨(glm_look_lh eye dir up).c0.z, (glm_look_lh eye dir up).c1.z, (glm_look_lh eye dir up).c2.z⟩ (dir.map toReal).unit
      ((5 * ((eye.map toReal).len / (dir.map toReal).len) + 20) * ur) ∧
    V3.CloseTo ⟨-(glm_look_rh eye dir up).c0.z, -(glm_look_rh eye dir up).c1.z, -(glm_look_rh eye dir up).c2.z⟩ (dir.map toReal).unit
      ((5 * ((eye.map toReal).len / (dir.map toReal).len) + 20) * ur) := by
  have h := look_dir eye dir he hd hl hr
  refine ⟨h, ?_⟩
  simp only [V3.CloseTo, glm_look_rh, glm_lookat_rh, neg_isFin, toReal_neg, neg_neg] at h ⊢
  exact h

private theorem zn (v : V3 F32) (h : v = ⟨ofRat false 0, ofRat false 0, ofRat false 0⟩) : glm_vec3_normalize v = ⟨ofRat false 0, ofRat false 0, ofRat false 0⟩ := by
  subst h
  have h : flt (glm_vec3_norm (⟨ofRat false 0, ofRat false 0, ofRat false 0⟩ : V3 F32)) (lit 0.00000011920928955078125) = true := by
    show F32.lt (F32.sqrt (ofRat false 0 * ofRat false 0 + ofRat false 0 * ofRat false 0 + ofRat false 0 * ofRat false 0)) (ofRat false 0.00000011920928955078125) = true
    decide +kernel
  unfold glm_vec3_normalize
  dsimp only
  rw [if_pos h]
  simp only [lit_f32]

/-- and when the eye is far from the origin the direction is lost: all nine direction numbers are zero -/
theorem C87_look_refuted : ∃ eye dir up : V3 F32, eye.IsFin ∧ (dir.map toReal) = ⟨1, 0, 0⟩ ∧ (up.map toReal) = ⟨0, 1, 0⟩ ∧
    (glm_look_rh eye dir up).dirs.map toReal = ⟨⟨0, 0, 0⟩, ⟨0, 0, 0⟩, ⟨0, 0, 0⟩⟩ ∧ (glm_look_lh eye dir up).dirs.map toReal = ⟨⟨0, 0, 0⟩, ⟨0, 0, 0⟩, ⟨0, 0, 0⟩⟩ := by
  refine ⟨⟨ofRat false (2 ^ 25), ofRat false 0, ofRat false 0⟩, ⟨ofRat false 1, ofRat false 0, ofRat false 0⟩, ⟨ofRat false 0, ofRat false 1, ofRat false 0⟩, ?_, ?_, ?_, ?_⟩
  · refine ⟨?_, ?_, ?_⟩ <;> decide +kernel
  · have h1 : (ofRat false 1).val = 1 := by decide +kernel
    have h0 : (ofRat false 0).val = 0 := by decide +kernel
    simp [V3.map, toReal, h1, h0]
  · have h1 : (ofRat false 1).val = 1 := by decide +kernel
    have h0 : (ofRat false 0).val = 0 := by decide +kernel
    simp [V3.map, toReal, h1, h0]
  · have g : glm_vec3_sub (glm_vec3_add (⟨ofRat false (2 ^ 25), ofRat false 0, ofRat false 0⟩ : V3 F32) ⟨ofRat false 1, ofRat false 0, ofRat false 0⟩) ⟨ofRat false (2 ^ 25), ofRat false 0, ofRat false 0⟩ =
        ⟨ofRat false 0, ofRat false 0, ofRat false 0⟩ := by
      simp only [glm_vec3_sub, glm_vec3_add, V3.mk.injEq]
      decide +kernel
    have c1 : glm_vec3_cross (⟨ofRat false 0, ofRat false 0, ofRat false 0⟩ : V3 F32) ⟨ofRat false 0, ofRat false 1, ofRat false 0⟩ = ⟨ofRat false 0, ofRat false 0, ofRat false 0⟩ := by
      simp only [glm_vec3_cross, glm_vec3_copy, V3.mk.injEq]
      decide +kernel
    have c2 : glm_vec3_cross (⟨ofRat false 0, ofRat false 1, ofRat false 0⟩ : V3 F32) ⟨ofRat false 0, ofRat false 0, ofRat false 0⟩ = ⟨ofRat false 0, ofRat false 0, ofRat false 0⟩ := by
      simp only [glm_vec3_cross, glm_vec3_copy, V3.mk.injEq]
      decide +kernel
    have c3 : glm_vec3_cross (⟨ofRat false 0, ofRat false 0, ofRat false 0⟩ : V3 F32) ⟨ofRat false 0, ofRat false 0, ofRat false 0⟩ = ⟨ofRat false 0, ofRat false 0, ofRat false 0⟩ := by
      simp only [glm_vec3_cross, glm_vec3_copy, V3.mk.injEq]
      decide +kernel
    have h0 : (ofRat false 0).val = 0 := by decide +kernel
    simp only [glm_look_rh, glm_look_lh, glm_lookat_rh, glm_lookat_lh, glm_vec3_crossn, g, zn _ rfl, c1, c2, c3]
    simp [M4.dirs, M3.map, V3.map, toReal, h0]

omit [Libm] in
/-- arguments that meet the hypotheses of the theorems about `lookat` and `look` -/
example : ∃ eye center up : V3 F32, ViewOk eye center up (1 / 2) ∧ up.Below (2 ^ 20) ∧ 1 / 2 ^ 20 ≤ (up.map toReal).len ∧ (eye.map toReal).len ≤ 2 ^ 20 * (up.map toReal).len := by
  have v0 : (ofRat false 0).isFin = true ∧ (ofRat false 0).val = 0 := by decide +kernel
  have v1 : (ofRat false 1).isFin = true ∧ (ofRat false 1).val = 1 := by decide +kernel
  have v2 : (ofRat false 2).isFin = true ∧ (ofRat false 2).val = 2 := by decide +kernel
  have v3 : (ofRat false 3).isFin = true ∧ (ofRat false 3).val = 3 := by decide +kernel
  have v4 : (ofRat false 4).isFin = true ∧ (ofRat false 4).val = 4 := by decide +kernel
  have v6 : (ofRat false 6).isFin = true ∧ (ofRat false 6).val = 6 := by decide +kernel
  have w0 : (ofRat false 0).toReal = 0 := by simp [toReal, v0.2]
  have w1 : (ofRat false 1).toReal = 1 := by simp [toReal, v1.2]
  have w2 : (ofRat false 2).toReal = 2 := by simp [toReal, v2.2]
  have w3 : (ofRat false 3).toReal = 3 := by simp [toReal, v3.2]
  have w4 : (ofRat false 4).toReal = 4 := by simp [toReal, v4.2]
  have w6 : (ofRat false 6).toReal = 6 := by simp [toReal, v6.2]
  have l1 : ((V3.map toReal ⟨ofRat false 4, ofRat false 6, ofRat false 3⟩).sub (V3.map toReal ⟨ofRat false 1, ofRat false 2, ofRat false 3⟩)) = ⟨3, 4, 0⟩ := by
    ext <;> norm_num [V3.map, V3.sub, w1, w2, w3, w4, w6]
  have l2 : (⟨3, 4, 0⟩ : V3 ℝ).len = 5 := by rw [V3.len, Real.sqrt_eq_iff_mul_self_eq (V3.dot_self_nonneg _) (by norm_num)]; norm_num [V3.dot]
  have l3 : V3.map toReal ⟨ofRat false 0, ofRat false 0, ofRat false 1⟩ = ⟨0, 0, 1⟩ := by ext <;> norm_num [V3.map, w0, w1]
  have l4 : (⟨0, 0, 1⟩ : V3 ℝ).len = 1 := by rw [V3.len, Real.sqrt_eq_iff_mul_self_eq (V3.dot_self_nonneg _) (by norm_num)]; norm_num [V3.dot]
  have l5 : ((⟨3, 4, 0⟩ : V3 ℝ).unit.cross ⟨0, 0, 1⟩).len = 1 := by
    rw [V3.len, Real.sqrt_eq_iff_mul_self_eq (V3.dot_self_nonneg _) (by norm_num)]; norm_num [V3.unit, l2, V3.smul, V3.cross, V3.dot]
  have l6 : (V3.map toReal ⟨ofRat false 1, ofRat false 2, ofRat false 3⟩).len ≤ 6 := by
    refine len_le (e := 3) ?_ ?_ ?_ |>.trans (by norm_num) <;> norm_num [V3.map, w1, w2, w3]
  have b : (⟨ofRat false 0, ofRat false 0, ofRat false 1⟩ : V3 F32).Below (2 ^ 20) :=
    ⟨⟨v0.1, by norm_num [w0]⟩, ⟨v0.1, by norm_num [w0]⟩, ⟨v1.1, by norm_num [w1]⟩⟩
  refine ⟨⟨ofRat false 1, ofRat false 2, ofRat false 3⟩, ⟨ofRat false 4, ofRat false 6, ofRat false 3⟩, ⟨ofRat false 0, ofRat false 0, ofRat false 1⟩,
    ⟨⟨⟨v1.1, by norm_num [w1]⟩, ⟨v2.1, by norm_num [w2]⟩, ⟨v3.1, by norm_num [w3]⟩⟩, ⟨⟨v4.1, by norm_num [w4]⟩, ⟨v6.1, by norm_num [w6]⟩, ⟨v3.1, by norm_num [w3]⟩⟩, b,
      by rw [l1, l2]; norm_num, by rw [l3, l4]; norm_num, by norm_num, by norm_num, by rw [l1, l3, l4, l5]; norm_num⟩, b, by rw [l3, l4]; norm_num, by rw [l3, l4]; norm_num at l6 ⊢; linarith⟩

end Cglm
