import Verif.F32Apx
import Verif.Gen.ClipspaceOrthoRhNo
import Verif.Gen.ClipspaceOrthoRhZo
import Verif.Gen.ClipspaceOrthoLhNo
import Verif.Gen.ClipspaceOrthoLhZo
import Verif.Gen.ClipspacePerspRhNo
import Verif.Gen.ClipspacePerspRhZo
import Verif.Gen.ClipspacePerspLhNo
import Verif.Gen.ClipspacePerspLhZo

/-!
# C85: projection matrices in binary32

Every entry of the matrix that a projection call leaves in memory is within `7u` of the entry of the exact matrix, relative to that
entry: no subtraction in these functions cancels anything but the arguments themselves.  What the exact matrices do to the view volume
is C28 to C31.
-/

namespace Cglm
open F32

/-- every entry is finite and within `7u` of the entry it should be, relative to it, but for underflow -/
def V4.RelTo (f : V4 F32) (x : V4 ℝ) : Prop :=
  (f.x.isFin = true ∧ |f.x.toReal - x.x| ≤ 7 * ur * |x.x| + 1 / 2 ^ 60) ∧ (f.y.isFin = true ∧ |f.y.toReal - x.y| ≤ 7 * ur * |x.y| + 1 / 2 ^ 60) ∧
    (f.z.isFin = true ∧ |f.z.toReal - x.z| ≤ 7 * ur * |x.z| + 1 / 2 ^ 60) ∧ (f.w.isFin = true ∧ |f.w.toReal - x.w| ≤ 7 * ur * |x.w| + 1 / 2 ^ 60)
/-- the same for all columns -/
def M4.RelTo (f : M4 F32) (x : M4 ℝ) : Prop := f.c0.RelTo x.c0 ∧ f.c1.RelTo x.c1 ∧ f.c2.RelTo x.c2 ∧ f.c3.RelTo x.c3

/-- a finite float of moderate size -/
def Mod (a : F32) : Prop := a.isFin = true ∧ |a.toReal| ≤ 2 ^ 30
/-- two floats of moderate size that are not too near each other -/
def Apart (a b : F32) : Prop := Mod a ∧ Mod b ∧ 1 / 2 ^ 30 ≤ |a.toReal - b.toReal|

namespace F32.Apx
/-- the form of the statements here -/
theorem rel {f : F32} {x M A c : ℝ} {k : ℕ} (h : Apx f x M k A c) {X : ℝ} (hx : x = X) (hM : M = |x|) (hk : k ≤ 6) (hc : c ≤ 2 ^ 85) :
    f.isFin = true ∧ |f.toReal - X| ≤ 7 * ur * |X| + 1 / 2 ^ 60 := by
  subst hx
  refine h.bound 6 |x| rfl hk (by norm_num) hM.le ?_
  have h1 : c * ηr ≤ 2 ^ 85 * ηr := mul_le_mul_of_nonneg_right hc (by norm_num [ηr])
  have h2 : (2 : ℝ) ^ 85 * ηr ≤ 1 / 2 ^ 60 := by norm_num [ηr]
  have := mul_nonneg ur_pos.le (abs_nonneg x)
  push_cast
  nlinarith
end F32.Apx

variable [Libm]

omit [Libm] in
private theorem apart_apx {a b : F32} (h : Apart a b) : Apx a a.toReal |a.toReal| 0 (2 ^ 30) 0 ∧ Apx b b.toReal |b.toReal| 0 (2 ^ 30) 0 ∧
    Apx (b - a) (b.toReal - a.toReal) |b.toReal - a.toReal| 1 (2 ^ 30 + 2 ^ 30) 0 ∧ Apx (a - b) (a.toReal - b.toReal) |a.toReal - b.toReal| 1 (2 ^ 30 + 2 ^ 30) 0 ∧
    Apx (b + a) (b.toReal + a.toReal) |b.toReal + a.toReal| 1 (2 ^ 30 + 2 ^ 30) 0 ∧ Apx (a + b) (a.toReal + b.toReal) |a.toReal + b.toReal| 1 (2 ^ 30 + 2 ^ 30) 0 ∧
    1 / 2 ^ 30 ≤ |b.toReal - a.toReal| :=
  ⟨Apx.var h.1, Apx.var h.2.1, Apx.subv h.2.1 h.1 (by norm_num), Apx.subv h.1 h.2.1 (by norm_num), Apx.addv h.2.1 h.1 (by norm_num), Apx.addv h.1 h.2.1 (by norm_num),
    by rw [abs_sub_comm]; exact h.2.2⟩

/-- one entry -/
local macro "entry" : tactic => `(tactic| (
  apply Apx.rel
  · repeat' first
      | assumption
      | exact Apx.zero
      | exact Apx.one
      | exact Apx.two
      | with_reducible apply Apx.div (1 / 2 ^ 30)
      | with_reducible apply Apx.mul
      | with_reducible apply Apx.neg
    all_goals norm_num
  all_goals first
    | rfl
    | (norm_num [cglm]; done)
    | (norm_num [abs_mul, abs_div]; done)
    | (simp only [abs_mul, abs_div, abs_neg, abs_one, abs_two]; done)
    | skip))

/-- `glm_ortho_rh_no` -/
theorem C85_ortho_rh_no (l r b t n f : F32) (hx : Apart l r) (hy : Apart b t) (hz : Apart n f) :
    (glm_ortho_rh_no l r b t n f).RelTo (glm_ortho_rh_no l.toReal r.toReal b.toReal t.toReal n.toReal f.toReal) := by
  obtain ⟨x1, x2, x3, x4, x5, x6, x7⟩ := apart_apx hx
  obtain ⟨y1, y2, y3, y4, y5, y6, y7⟩ := apart_apx hy
  obtain ⟨z1, z2, z3, z4, z5, z6, z7⟩ := apart_apx hz
  simp only [M4.RelTo, V4.RelTo, glm_ortho_rh_no, glm_mat4_zero]
  refine ⟨⟨?_, ?_, ?_, ?_⟩, ⟨?_, ?_, ?_, ?_⟩, ⟨?_, ?_, ?_, ?_⟩, ⟨?_, ?_, ?_, ?_⟩⟩ <;> entry

/-- `glm_frustum_rh_no` -/
theorem C85_frustum_rh_no (l r b t n f : F32) (hx : Apart l r) (hy : Apart b t) (hz : Apart n f) :
    (glm_frustum_rh_no l r b t n f).RelTo (glm_frustum_rh_no l.toReal r.toReal b.toReal t.toReal n.toReal f.toReal) := by
  obtain ⟨x1, x2, x3, x4, x5, x6, x7⟩ := apart_apx hx
  obtain ⟨y1, y2, y3, y4, y5, y6, y7⟩ := apart_apx hy
  obtain ⟨z1, z2, z3, z4, z5, z6, z7⟩ := apart_apx hz
  simp only [M4.RelTo, V4.RelTo, glm_frustum_rh_no, glm_mat4_zero]
  refine ⟨⟨?_, ?_, ?_, ?_⟩, ⟨?_, ?_, ?_, ?_⟩, ⟨?_, ?_, ?_, ?_⟩, ⟨?_, ?_, ?_, ?_⟩⟩ <;> entry

/-- `glm_ortho_rh_zo` -/
theorem C85_ortho_rh_zo (l r b t n f : F32) (hx : Apart l r) (hy : Apart b t) (hz : Apart n f) :
    (glm_ortho_rh_zo l r b t n f).RelTo (glm_ortho_rh_zo l.toReal r.toReal b.toReal t.toReal n.toReal f.toReal) := by
  obtain ⟨x1, x2, x3, x4, x5, x6, x7⟩ := apart_apx hx
  obtain ⟨y1, y2, y3, y4, y5, y6, y7⟩ := apart_apx hy
  obtain ⟨z1, z2, z3, z4, z5, z6, z7⟩ := apart_apx hz
  simp only [M4.RelTo, V4.RelTo, glm_ortho_rh_zo, glm_mat4_zero]
  refine ⟨⟨?_, ?_, ?_, ?_⟩, ⟨?_, ?_, ?_, ?_⟩, ⟨?_, ?_, ?_, ?_⟩, ⟨?_, ?_, ?_, ?_⟩⟩ <;> entry

/-- `glm_frustum_rh_zo` -/
theorem C85_frustum_rh_zo (l r b t n f : F32) (hx : Apart l r) (hy : Apart b t) (hz : Apart n f) :
    (glm_frustum_rh_zo l r b t n f).RelTo (glm_frustum_rh_zo l.toReal r.toReal b.toReal t.toReal n.toReal f.toReal) := by
  obtain ⟨x1, x2, x3, x4, x5, x6, x7⟩ := apart_apx hx
  obtain ⟨y1, y2, y3, y4, y5, y6, y7⟩ := apart_apx hy
  obtain ⟨z1, z2, z3, z4, z5, z6, z7⟩ := apart_apx hz
  simp only [M4.RelTo, V4.RelTo, glm_frustum_rh_zo, glm_mat4_zero]
  refine ⟨⟨?_, ?_, ?_, ?_⟩, ⟨?_, ?_, ?_, ?_⟩, ⟨?_, ?_, ?_, ?_⟩, ⟨?_, ?_, ?_, ?_⟩⟩ <;> entry

/-- `glm_ortho_lh_no` -/
theorem C85_ortho_lh_no (l r b t n f : F32) (hx : Apart l r) (hy : Apart b t) (hz : Apart n f) :
    (glm_ortho_lh_no l r b t n f).RelTo (glm_ortho_lh_no l.toReal r.toReal b.toReal t.toReal n.toReal f.toReal) := by
  obtain ⟨x1, x2, x3, x4, x5, x6, x7⟩ := apart_apx hx
  obtain ⟨y1, y2, y3, y4, y5, y6, y7⟩ := apart_apx hy
  obtain ⟨z1, z2, z3, z4, z5, z6, z7⟩ := apart_apx hz
  simp only [M4.RelTo, V4.RelTo, glm_ortho_lh_no, glm_mat4_zero]
  refine ⟨⟨?_, ?_, ?_, ?_⟩, ⟨?_, ?_, ?_, ?_⟩, ⟨?_, ?_, ?_, ?_⟩, ⟨?_, ?_, ?_, ?_⟩⟩ <;> entry

/-- `glm_frustum_lh_no` -/
theorem C85_frustum_lh_no (l r b t n f : F32) (hx : Apart l r) (hy : Apart b t) (hz : Apart n f) :
    (glm_frustum_lh_no l r b t n f).RelTo (glm_frustum_lh_no l.toReal r.toReal b.toReal t.toReal n.toReal f.toReal) := by
  obtain ⟨x1, x2, x3, x4, x5, x6, x7⟩ := apart_apx hx
  obtain ⟨y1, y2, y3, y4, y5, y6, y7⟩ := apart_apx hy
  obtain ⟨z1, z2, z3, z4, z5, z6, z7⟩ := apart_apx hz
  simp only [M4.RelTo, V4.RelTo, glm_frustum_lh_no, glm_mat4_zero]
  refine ⟨⟨?_, ?_, ?_, ?_⟩, ⟨?_, ?_, ?_, ?_⟩, ⟨?_, ?_, ?_, ?_⟩, ⟨?_, ?_, ?_, ?_⟩⟩ <;> entry

/-- `glm_ortho_lh_zo` -/
theorem C85_ortho_lh_zo (l r b t n f : F32) (hx : Apart l r) (hy : Apart b t) (hz : Apart n f) :
    (glm_ortho_lh_zo l r b t n f).RelTo (glm_ortho_lh_zo l.toReal r.toReal b.toReal t.toReal n.toReal f.toReal) := by
  obtain ⟨x1, x2, x3, x4, x5, x6, x7⟩ := apart_apx hx
  obtain ⟨y1, y2, y3, y4, y5, y6, y7⟩ := apart_apx hy
  obtain ⟨z1, z2, z3, z4, z5, z6, z7⟩ := apart_apx hz
  simp only [M4.RelTo, V4.RelTo, glm_ortho_lh_zo, glm_mat4_zero]
  refine ⟨⟨?_, ?_, ?_, ?_⟩, ⟨?_, ?_, ?_, ?_⟩, ⟨?_, ?_, ?_, ?_⟩, ⟨?_, ?_, ?_, ?_⟩⟩ <;> entry

/-- `glm_frustum_lh_zo` -/
theorem C85_frustum_lh_zo (l r b t n f : F32) (hx : Apart l r) (hy : Apart b t) (hz : Apart n f) :
    (glm_frustum_lh_zo l r b t n f).RelTo (glm_frustum_lh_zo l.toReal r.toReal b.toReal t.toReal n.toReal f.toReal) := by
  obtain ⟨x1, x2, x3, x4, x5, x6, x7⟩ := apart_apx hx
  obtain ⟨y1, y2, y3, y4, y5, y6, y7⟩ := apart_apx hy
  obtain ⟨z1, z2, z3, z4, z5, z6, z7⟩ := apart_apx hz
  simp only [M4.RelTo, V4.RelTo, glm_frustum_lh_zo, glm_mat4_zero]
  refine ⟨⟨?_, ?_, ?_, ?_⟩, ⟨?_, ?_, ?_, ?_⟩, ⟨?_, ?_, ?_, ?_⟩, ⟨?_, ?_, ?_, ?_⟩⟩ <;> entry

/-- the C library's tangent of the float `a` is within `2u` of that of the real number `θ`, relative to it -/
def TanOk (a : F32) (θ : ℝ) : Prop := (tanf a : F32).isFin = true ∧ |(tanf a : F32).toReal - Real.tan θ| ≤ 2 * ur * |Real.tan θ|

private theorem tan_apx {a : F32} {θ : ℝ} (h : TanOk a θ) (h2 : |Real.tan θ| ≤ 2 ^ 30) : Apx (tanf a : F32) (Real.tan θ) |Real.tan θ| 2 (2 ^ 30) 0 :=
  ⟨h.1, by rw [zero_mul, add_zero]; exact h.2.trans (mul_le_mul_of_nonneg_right (by nlinarith [ur_pos]) (abs_nonneg _)), le_rfl, h2, le_rfl⟩

/-- `glm_perspective_rh_no` -/
theorem C85_perspective_rh_no (fovy aspect n f : F32) (θ : ℝ) (hθ : TanOk (fovy * lit 0.5) (θ * (1 / 2))) (ht : 1 / 2 ^ 30 ≤ |Real.tan (θ * (1 / 2))|)
    (ht' : |Real.tan (θ * (1 / 2))| ≤ 2 ^ 30) (ha : Mod aspect) (ha' : 1 / 2 ^ 30 ≤ |aspect.toReal|) (hz : Apart n f) :
    (glm_perspective_rh_no fovy aspect n f).RelTo (glm_perspective_rh_no θ aspect.toReal n.toReal f.toReal) := by
  have hT := tan_apx hθ ht'
  have hA := Apx.var ha
  obtain ⟨z1, z2, z3, z4, z5, z6, z7⟩ := apart_apx hz
  have z8 := hz.2.2
  have e : tanf (θ * lit 0.5) = Real.tan (θ * (1 / 2)) := by simp only [tanf_real, lit_real]; norm_num
  simp only [M4.RelTo, V4.RelTo, glm_perspective_rh_no, glm_mat4_zero, e]
  generalize Real.tan (θ * (1 / 2)) = T at *
  refine ⟨⟨?_, ?_, ?_, ?_⟩, ⟨?_, ?_, ?_, ?_⟩, ⟨?_, ?_, ?_, ?_⟩, ⟨?_, ?_, ?_, ?_⟩⟩ <;> entry

/-- `glm_perspective_rh_zo` -/
theorem C85_perspective_rh_zo (fovy aspect n f : F32) (θ : ℝ) (hθ : TanOk (fovy * lit 0.5) (θ * (1 / 2))) (ht : 1 / 2 ^ 30 ≤ |Real.tan (θ * (1 / 2))|)
    (ht' : |Real.tan (θ * (1 / 2))| ≤ 2 ^ 30) (ha : Mod aspect) (ha' : 1 / 2 ^ 30 ≤ |aspect.toReal|) (hz : Apart n f) :
    (glm_perspective_rh_zo fovy aspect n f).RelTo (glm_perspective_rh_zo θ aspect.toReal n.toReal f.toReal) := by
  have hT := tan_apx hθ ht'
  have hA := Apx.var ha
  obtain ⟨z1, z2, z3, z4, z5, z6, z7⟩ := apart_apx hz
  have z8 := hz.2.2
  have e : tanf (θ * lit 0.5) = Real.tan (θ * (1 / 2)) := by simp only [tanf_real, lit_real]; norm_num
  simp only [M4.RelTo, V4.RelTo, glm_perspective_rh_zo, glm_mat4_zero, e]
  generalize Real.tan (θ * (1 / 2)) = T at *
  refine ⟨⟨?_, ?_, ?_, ?_⟩, ⟨?_, ?_, ?_, ?_⟩, ⟨?_, ?_, ?_, ?_⟩, ⟨?_, ?_, ?_, ?_⟩⟩ <;> entry

/-- `glm_perspective_lh_no` -/
theorem C85_perspective_lh_no (fovy aspect n f : F32) (θ : ℝ) (hθ : TanOk (fovy * lit 0.5) (θ * (1 / 2))) (ht : 1 / 2 ^ 30 ≤ |Real.tan (θ * (1 / 2))|)
    (ht' : |Real.tan (θ * (1 / 2))| ≤ 2 ^ 30) (ha : Mod aspect) (ha' : 1 / 2 ^ 30 ≤ |aspect.toReal|) (hz : Apart n f) :
    (glm_perspective_lh_no fovy aspect n f).RelTo (glm_perspective_lh_no θ aspect.toReal n.toReal f.toReal) := by
  have hT := tan_apx hθ ht'
  have hA := Apx.var ha
  obtain ⟨z1, z2, z3, z4, z5, z6, z7⟩ := apart_apx hz
  have z8 := hz.2.2
  have e : tanf (θ * lit 0.5) = Real.tan (θ * (1 / 2)) := by simp only [tanf_real, lit_real]; norm_num
  simp only [M4.RelTo, V4.RelTo, glm_perspective_lh_no, glm_mat4_zero, e]
  generalize Real.tan (θ * (1 / 2)) = T at *
  refine ⟨⟨?_, ?_, ?_, ?_⟩, ⟨?_, ?_, ?_, ?_⟩, ⟨?_, ?_, ?_, ?_⟩, ⟨?_, ?_, ?_, ?_⟩⟩ <;> entry

/-- `glm_perspective_lh_zo` -/
theorem C85_perspective_lh_zo (fovy aspect n f : F32) (θ : ℝ) (hθ : TanOk (fovy * lit 0.5) (θ * (1 / 2))) (ht : 1 / 2 ^ 30 ≤ |Real.tan (θ * (1 / 2))|)
    (ht' : |Real.tan (θ * (1 / 2))| ≤ 2 ^ 30) (ha : Mod aspect) (ha' : 1 / 2 ^ 30 ≤ |aspect.toReal|) (hz : Apart n f) :
    (glm_perspective_lh_zo fovy aspect n f).RelTo (glm_perspective_lh_zo θ aspect.toReal n.toReal f.toReal) := by
  have hT := tan_apx hθ ht'
  have hA := Apx.var ha
  obtain ⟨z1, z2, z3, z4, z5, z6, z7⟩ := apart_apx hz
  have z8 := hz.2.2
  have e : tanf (θ * lit 0.5) = Real.tan (θ * (1 / 2)) := by simp only [tanf_real, lit_real]; norm_num
  simp only [M4.RelTo, V4.RelTo, glm_perspective_lh_zo, glm_mat4_zero, e]
  generalize Real.tan (θ * (1 / 2)) = T at *
  refine ⟨⟨?_, ?_, ?_, ?_⟩, ⟨?_, ?_, ?_, ?_⟩, ⟨?_, ?_, ?_, ?_⟩, ⟨?_, ?_, ?_, ?_⟩⟩ <;> entry

omit [Libm] in
private theorem depth_le {m k a b A B c d e : ℝ} (hd : 0 < d) (hm : |m - a| ≤ 7 * ur * |a| + e) (hk : |k - b| ≤ 7 * ur * |b| + e) (ha : |a| ≤ A) (hb : |b| / d ≤ B)
    (hc : A + B ≤ c) : |(m + k / d) - (a + b / d)| ≤ 7 * ur * c + e * (1 + 1 / d) := by
  have h1 : |k / d - b / d| ≤ 7 * ur * (|b| / d) + e * (1 / d) := by
    rw [← sub_div, abs_div, abs_of_pos hd, div_le_iff₀ hd]
    refine hk.trans (le_of_eq ?_)
    field_simp
  have h2 := abs_add_le (m - a) (k / d - b / d)
  rw [show m - a + (k / d - b / d) = m + k / d - (a + b / d) by ring] at h2
  have h3 : 7 * ur * (|a| + |b| / d) ≤ 7 * ur * c := mul_le_mul_of_nonneg_left (by linarith) (by linarith [ur_pos])
  linarith

omit [Libm] in
private theorem order_of {k b : ℝ} (hk : |k - b| ≤ 7 * ur * |b| + 1 / 2 ^ 60) (hb : b ≤ -(1 / 2 ^ 30)) : k < 0 := by
  have hu : ur = 1 / 2 ^ 24 := rfl
  have hb0 : b < 0 := by norm_num at hb ⊢; linarith
  rw [abs_of_neg hb0, abs_le, hu] at hk
  norm_num at hk hb
  linarith [hk.2]

/-- Depth with the matrix of `glm_perspective_rh_no`: a point at distance `d` in front of the camera gets clip coordinate `w = d` exactly,
its depth is near the exact one between the planes, and nearer points always get smaller depths. -/
theorem C85_depth_rh_no (fovy aspect n f : F32) (θ : ℝ) (hθ : TanOk (fovy * lit 0.5) (θ * (1 / 2))) (ht : 1 / 2 ^ 30 ≤ |Real.tan (θ * (1 / 2))|)
    (ht' : |Real.tan (θ * (1 / 2))| ≤ 2 ^ 30) (ha : Mod aspect) (ha' : 1 / 2 ^ 30 ≤ |aspect.toReal|) (hz : Apart n f) (hn : 1 / 2 ^ 30 ≤ n.toReal)
    (hf : n.toReal < f.toReal) (P : M4 F32) (hP : P = glm_perspective_rh_no fovy aspect n f) :
    (∀ d, P.c2.w.toReal * (-d) + P.c3.w.toReal = d) ∧
      (∀ d, n.toReal ≤ d → d ≤ f.toReal → |(P.c2.z.toReal * (-d) + P.c3.z.toReal) / d - ((f.toReal + n.toReal) / (f.toReal - n.toReal) - 2 * n.toReal * f.toReal / ((f.toReal - n.toReal) * d))| ≤
        28 * ur * (f.toReal / (f.toReal - n.toReal)) + 1 / 2 ^ 60 * (1 + 1 / d)) ∧
      (∀ d d', 0 < d → d < d' → (P.c2.z.toReal * (-d) + P.c3.z.toReal) / d < (P.c2.z.toReal * (-d') + P.c3.z.toReal) / d') := by
  have H := C85_perspective_rh_no fovy aspect n f θ hθ ht ht' ha ha' hz
  rw [← hP] at H
  obtain ⟨-, -, ⟨-, -, ⟨-, h22⟩, -⟩, ⟨-, -, ⟨-, h32⟩, -⟩⟩ := H
  have n0 : 0 < n.toReal := lt_of_lt_of_le (by positivity) hn
  have f0 : 0 < f.toReal := n0.trans hf
  have D : 0 < f.toReal - n.toReal := by linarith
  have D' : n.toReal - f.toReal ≠ 0 := by linarith
  have o1 : (lit 1 : F32).toReal = 1 := toReal_lit_one.2
  have o0 : (lit 0 : F32).toReal = 0 := by have := Apx.zero.err; simpa using this
  have w2 : P.c2.w.toReal = -1 := by rw [hP]; simp only [glm_perspective_rh_no, toReal_neg, o1]
  have w3 : P.c3.w.toReal = 0 := by rw [hP]; simp only [glm_perspective_rh_no, glm_mat4_zero, glm_mat4_copy, glm_mat4_ucopy, o0]
  have x22 : -(glm_perspective_rh_no θ aspect.toReal n.toReal f.toReal).c2.z = (f.toReal + n.toReal) / (f.toReal - n.toReal) := by
    simp only [cglm]; rw [eq_div_iff D.ne']; field_simp; ring
  have x32 : (glm_perspective_rh_no θ aspect.toReal n.toReal f.toReal).c3.z = -(2 * n.toReal * f.toReal / (f.toReal - n.toReal)) := by
    simp only [cglm]; rw [← neg_div, eq_div_iff D.ne']; field_simp; ring
  have h22' : |-P.c2.z.toReal - (f.toReal + n.toReal) / (f.toReal - n.toReal)| ≤ 7 * ur * |(f.toReal + n.toReal) / (f.toReal - n.toReal)| + 1 / 2 ^ 60 := by
    rw [← x22, abs_neg, ← neg_sub', abs_neg]; exact h22
  rw [x32] at h32
  generalize P.c2.z.toReal = m at *
  generalize P.c3.z.toReal = k at *
  have form : ∀ d, 0 < d → (m * (-d) + k) / d = -m + k / d := by intro d hd; field_simp
  refine ⟨fun d => by rw [w2, w3]; ring, fun d h1 h2 => ?_, fun d d' h1 h2 => ?_⟩
  · have d0 : 0 < d := lt_of_lt_of_le n0 h1
    rw [form d d0]
    have e : (f.toReal + n.toReal) / (f.toReal - n.toReal) - 2 * n.toReal * f.toReal / ((f.toReal - n.toReal) * d) = (f.toReal + n.toReal) / (f.toReal - n.toReal) + -(2 * n.toReal * f.toReal / (f.toReal - n.toReal)) / d := by rw [neg_div, div_div, sub_eq_add_neg]
    rw [e]
    refine (depth_le d0 h22' h32 (A := 2 * (f.toReal / (f.toReal - n.toReal))) (B := 2 * (f.toReal / (f.toReal - n.toReal)))
      (c := 4 * (f.toReal / (f.toReal - n.toReal))) ?_ ?_ (by linarith)).trans (by linarith)
    · rw [abs_of_pos (by positivity), mul_div_assoc']; exact div_le_div_of_nonneg_right (by linarith) D.le
    · rw [abs_neg, abs_of_pos (by positivity), mul_div_assoc', div_div, div_le_div_iff₀ (by positivity) D]
      nlinarith [mul_le_mul_of_nonneg_left h1 (mul_pos f0 D).le]
  · have d0' : 0 < d' := h1.trans h2
    rw [form d h1, form d' d0']
    have kn : k < 0 := by
      refine order_of h32 (neg_le_neg (hn.trans ?_))
      rw [le_div_iff₀ D]; nlinarith
    have : k / d < k / d' := by rw [div_lt_div_iff₀ h1 d0']; nlinarith
    linarith

/-- Depth with the matrix of `glm_perspective_rh_zo`: a point at distance `d` in front of the camera gets clip coordinate `w = d` exactly,
its depth is near the exact one between the planes, and nearer points always get smaller depths. -/
theorem C85_depth_rh_zo (fovy aspect n f : F32) (θ : ℝ) (hθ : TanOk (fovy * lit 0.5) (θ * (1 / 2))) (ht : 1 / 2 ^ 30 ≤ |Real.tan (θ * (1 / 2))|)
    (ht' : |Real.tan (θ * (1 / 2))| ≤ 2 ^ 30) (ha : Mod aspect) (ha' : 1 / 2 ^ 30 ≤ |aspect.toReal|) (hz : Apart n f) (hn : 1 / 2 ^ 30 ≤ n.toReal)
    (hf : n.toReal < f.toReal) (P : M4 F32) (hP : P = glm_perspective_rh_zo fovy aspect n f) :
    (∀ d, P.c2.w.toReal * (-d) + P.c3.w.toReal = d) ∧
      (∀ d, n.toReal ≤ d → d ≤ f.toReal → |(P.c2.z.toReal * (-d) + P.c3.z.toReal) / d - (f.toReal / (f.toReal - n.toReal) - n.toReal * f.toReal / ((f.toReal - n.toReal) * d))| ≤
        14 * ur * (f.toReal / (f.toReal - n.toReal)) + 1 / 2 ^ 60 * (1 + 1 / d)) ∧
      (∀ d d', 0 < d → d < d' → (P.c2.z.toReal * (-d) + P.c3.z.toReal) / d < (P.c2.z.toReal * (-d') + P.c3.z.toReal) / d') := by
  have H := C85_perspective_rh_zo fovy aspect n f θ hθ ht ht' ha ha' hz
  rw [← hP] at H
  obtain ⟨-, -, ⟨-, -, ⟨-, h22⟩, -⟩, ⟨-, -, ⟨-, h32⟩, -⟩⟩ := H
  have n0 : 0 < n.toReal := lt_of_lt_of_le (by positivity) hn
  have f0 : 0 < f.toReal := n0.trans hf
  have D : 0 < f.toReal - n.toReal := by linarith
  have D' : n.toReal - f.toReal ≠ 0 := by linarith
  have o1 : (lit 1 : F32).toReal = 1 := toReal_lit_one.2
  have o0 : (lit 0 : F32).toReal = 0 := by have := Apx.zero.err; simpa using this
  have w2 : P.c2.w.toReal = -1 := by rw [hP]; simp only [glm_perspective_rh_zo, toReal_neg, o1]
  have w3 : P.c3.w.toReal = 0 := by rw [hP]; simp only [glm_perspective_rh_zo, glm_mat4_zero, glm_mat4_copy, glm_mat4_ucopy, o0]
  have x22 : -(glm_perspective_rh_zo θ aspect.toReal n.toReal f.toReal).c2.z = f.toReal / (f.toReal - n.toReal) := by
    simp only [cglm]; rw [eq_div_iff D.ne']; field_simp; ring
  have x32 : (glm_perspective_rh_zo θ aspect.toReal n.toReal f.toReal).c3.z = -(n.toReal * f.toReal / (f.toReal - n.toReal)) := by
    simp only [cglm]; rw [← neg_div, eq_div_iff D.ne']; field_simp; ring
  have h22' : |-P.c2.z.toReal - f.toReal / (f.toReal - n.toReal)| ≤ 7 * ur * |f.toReal / (f.toReal - n.toReal)| + 1 / 2 ^ 60 := by
    rw [← x22, abs_neg, ← neg_sub', abs_neg]; exact h22
  rw [x32] at h32
  generalize P.c2.z.toReal = m at *
  generalize P.c3.z.toReal = k at *
  have form : ∀ d, 0 < d → (m * (-d) + k) / d = -m + k / d := by intro d hd; field_simp
  refine ⟨fun d => by rw [w2, w3]; ring, fun d h1 h2 => ?_, fun d d' h1 h2 => ?_⟩
  · have d0 : 0 < d := lt_of_lt_of_le n0 h1
    rw [form d d0]
    have e : f.toReal / (f.toReal - n.toReal) - n.toReal * f.toReal / ((f.toReal - n.toReal) * d) = f.toReal / (f.toReal - n.toReal) + -(n.toReal * f.toReal / (f.toReal - n.toReal)) / d := by rw [neg_div, div_div, sub_eq_add_neg]
    rw [e]
    refine (depth_le d0 h22' h32 (A := (f.toReal / (f.toReal - n.toReal))) (B := (f.toReal / (f.toReal - n.toReal)))
      (c := 2 * (f.toReal / (f.toReal - n.toReal))) ?_ ?_ (by linarith)).trans (by linarith)
    · rw [abs_of_pos (by positivity)]
    · rw [abs_neg, abs_of_pos (by positivity), div_div, div_le_div_iff₀ (by positivity) D]
      nlinarith [mul_le_mul_of_nonneg_left h1 (mul_pos f0 D).le]
  · have d0' : 0 < d' := h1.trans h2
    rw [form d h1, form d' d0']
    have kn : k < 0 := by
      refine order_of h32 (neg_le_neg (hn.trans ?_))
      rw [le_div_iff₀ D]; nlinarith
    have : k / d < k / d' := by rw [div_lt_div_iff₀ h1 d0']; nlinarith
    linarith

/-- Depth with the matrix of `glm_perspective_lh_no`: a point at distance `d` in front of the camera gets clip coordinate `w = d` exactly,
its depth is near the exact one between the planes, and nearer points always get smaller depths. -/
theorem C85_depth_lh_no (fovy aspect n f : F32) (θ : ℝ) (hθ : TanOk (fovy * lit 0.5) (θ * (1 / 2))) (ht : 1 / 2 ^ 30 ≤ |Real.tan (θ * (1 / 2))|)
    (ht' : |Real.tan (θ * (1 / 2))| ≤ 2 ^ 30) (ha : Mod aspect) (ha' : 1 / 2 ^ 30 ≤ |aspect.toReal|) (hz : Apart n f) (hn : 1 / 2 ^ 30 ≤ n.toReal)
    (hf : n.toReal < f.toReal) (P : M4 F32) (hP : P = glm_perspective_lh_no fovy aspect n f) :
    (∀ d, P.c2.w.toReal * (d) + P.c3.w.toReal = d) ∧
      (∀ d, n.toReal ≤ d → d ≤ f.toReal → |(P.c2.z.toReal * (d) + P.c3.z.toReal) / d - ((f.toReal + n.toReal) / (f.toReal - n.toReal) - 2 * n.toReal * f.toReal / ((f.toReal - n.toReal) * d))| ≤
        28 * ur * (f.toReal / (f.toReal - n.toReal)) + 1 / 2 ^ 60 * (1 + 1 / d)) ∧
      (∀ d d', 0 < d → d < d' → (P.c2.z.toReal * (d) + P.c3.z.toReal) / d < (P.c2.z.toReal * (d') + P.c3.z.toReal) / d') := by
  have H := C85_perspective_lh_no fovy aspect n f θ hθ ht ht' ha ha' hz
  rw [← hP] at H
  obtain ⟨-, -, ⟨-, -, ⟨-, h22⟩, -⟩, ⟨-, -, ⟨-, h32⟩, -⟩⟩ := H
  have n0 : 0 < n.toReal := lt_of_lt_of_le (by positivity) hn
  have f0 : 0 < f.toReal := n0.trans hf
  have D : 0 < f.toReal - n.toReal := by linarith
  have D' : n.toReal - f.toReal ≠ 0 := by linarith
  have o1 : (lit 1 : F32).toReal = 1 := toReal_lit_one.2
  have o0 : (lit 0 : F32).toReal = 0 := by have := Apx.zero.err; simpa using this
  have w2 : P.c2.w.toReal = 1 := by rw [hP]; simp only [glm_perspective_lh_no, toReal_neg, o1]
  have w3 : P.c3.w.toReal = 0 := by rw [hP]; simp only [glm_perspective_lh_no, glm_mat4_zero, glm_mat4_copy, glm_mat4_ucopy, o0]
  have x22 : (glm_perspective_lh_no θ aspect.toReal n.toReal f.toReal).c2.z = (f.toReal + n.toReal) / (f.toReal - n.toReal) := by
    simp only [cglm]; rw [eq_div_iff D.ne']; field_simp; ring
  have x32 : (glm_perspective_lh_no θ aspect.toReal n.toReal f.toReal).c3.z = -(2 * n.toReal * f.toReal / (f.toReal - n.toReal)) := by
    simp only [cglm]; rw [← neg_div, eq_div_iff D.ne']; field_simp; ring
  have h22' : |P.c2.z.toReal - (f.toReal + n.toReal) / (f.toReal - n.toReal)| ≤ 7 * ur * |(f.toReal + n.toReal) / (f.toReal - n.toReal)| + 1 / 2 ^ 60 := by
    rw [← x22]; exact h22
  rw [x32] at h32
  generalize P.c2.z.toReal = m at *
  generalize P.c3.z.toReal = k at *
  have form : ∀ d, 0 < d → (m * (d) + k) / d = m + k / d := by intro d hd; field_simp
  refine ⟨fun d => by rw [w2, w3]; ring, fun d h1 h2 => ?_, fun d d' h1 h2 => ?_⟩
  · have d0 : 0 < d := lt_of_lt_of_le n0 h1
    rw [form d d0]
    have e : (f.toReal + n.toReal) / (f.toReal - n.toReal) - 2 * n.toReal * f.toReal / ((f.toReal - n.toReal) * d) = (f.toReal + n.toReal) / (f.toReal - n.toReal) + -(2 * n.toReal * f.toReal / (f.toReal - n.toReal)) / d := by rw [neg_div, div_div, sub_eq_add_neg]
    rw [e]
    refine (depth_le d0 h22' h32 (A := 2 * (f.toReal / (f.toReal - n.toReal))) (B := 2 * (f.toReal / (f.toReal - n.toReal)))
      (c := 4 * (f.toReal / (f.toReal - n.toReal))) ?_ ?_ (by linarith)).trans (by linarith)
    · rw [abs_of_pos (by positivity), mul_div_assoc']; exact div_le_div_of_nonneg_right (by linarith) D.le
    · rw [abs_neg, abs_of_pos (by positivity), mul_div_assoc', div_div, div_le_div_iff₀ (by positivity) D]
      nlinarith [mul_le_mul_of_nonneg_left h1 (mul_pos f0 D).le]
  · have d0' : 0 < d' := h1.trans h2
    rw [form d h1, form d' d0']
    have kn : k < 0 := by
      refine order_of h32 (neg_le_neg (hn.trans ?_))
      rw [le_div_iff₀ D]; nlinarith
    have : k / d < k / d' := by rw [div_lt_div_iff₀ h1 d0']; nlinarith
    linarith

/-- Depth with the matrix of `glm_perspective_lh_zo`: a point at distance `d` in front of the camera gets clip coordinate `w = d` exactly,
its depth is near the exact one between the planes, and nearer points always get smaller depths. -/
theorem C85_depth_lh_zo (fovy aspect n f : F32) (θ : ℝ) (hθ : TanOk (fovy * lit 0.5) (θ * (1 / 2))) (ht : 1 / 2 ^ 30 ≤ |Real.tan (θ * (1 / 2))|)
    (ht' : |Real.tan (θ * (1 / 2))| ≤ 2 ^ 30) (ha : Mod aspect) (ha' : 1 / 2 ^ 30 ≤ |aspect.toReal|) (hz : Apart n f) (hn : 1 / 2 ^ 30 ≤ n.toReal)
    (hf : n.toReal < f.toReal) (P : M4 F32) (hP : P = glm_perspective_lh_zo fovy aspect n f) :
    (∀ d, P.c2.w.toReal * (d) + P.c3.w.toReal = d) ∧
      (∀ d, n.toReal ≤ d → d ≤ f.toReal → |(P.c2.z.toReal * (d) + P.c3.z.toReal) / d - (f.toReal / (f.toReal - n.toReal) - n.toReal * f.toReal / ((f.toReal - n.toReal) * d))| ≤
        14 * ur * (f.toReal / (f.toReal - n.toReal)) + 1 / 2 ^ 60 * (1 + 1 / d)) ∧
      (∀ d d', 0 < d → d < d' → (P.c2.z.toReal * (d) + P.c3.z.toReal) / d < (P.c2.z.toReal * (d') + P.c3.z.toReal) / d') := by
  have H := C85_perspective_lh_zo fovy aspect n f θ hθ ht ht' ha ha' hz
  rw [← hP] at H
  obtain ⟨-, -, ⟨-, -, ⟨-, h22⟩, -⟩, ⟨-, -, ⟨-, h32⟩, -⟩⟩ := H
  have n0 : 0 < n.toReal := lt_of_lt_of_le (by positivity) hn
  have f0 : 0 < f.toReal := n0.trans hf
  have D : 0 < f.toReal - n.toReal := by linarith
  have D' : n.toReal - f.toReal ≠ 0 := by linarith
  have o1 : (lit 1 : F32).toReal = 1 := toReal_lit_one.2
  have o0 : (lit 0 : F32).toReal = 0 := by have := Apx.zero.err; simpa using this
  have w2 : P.c2.w.toReal = 1 := by rw [hP]; simp only [glm_perspective_lh_zo, toReal_neg, o1]
  have w3 : P.c3.w.toReal = 0 := by rw [hP]; simp only [glm_perspective_lh_zo, glm_mat4_zero, glm_mat4_copy, glm_mat4_ucopy, o0]
  have x22 : (glm_perspective_lh_zo θ aspect.toReal n.toReal f.toReal).c2.z = f.toReal / (f.toReal - n.toReal) := by
    simp only [cglm]; rw [eq_div_iff D.ne']; field_simp; ring
  have x32 : (glm_perspective_lh_zo θ aspect.toReal n.toReal f.toReal).c3.z = -(n.toReal * f.toReal / (f.toReal - n.toReal)) := by
    simp only [cglm]; rw [← neg_div, eq_div_iff D.ne']; field_simp; ring
  have h22' : |P.c2.z.toReal - f.toReal / (f.toReal - n.toReal)| ≤ 7 * ur * |f.toReal / (f.toReal - n.toReal)| + 1 / 2 ^ 60 := by
    rw [← x22]; exact h22
  rw [x32] at h32
  generalize P.c2.z.toReal = m at *
  generalize P.c3.z.toReal = k at *
  have form : ∀ d, 0 < d → (m * (d) + k) / d = m + k / d := by intro d hd; field_simp
  refine ⟨fun d => by rw [w2, w3]; ring, fun d h1 h2 => ?_, fun d d' h1 h2 => ?_⟩
  · have d0 : 0 < d := lt_of_lt_of_le n0 h1
    rw [form d d0]
    have e : f.toReal / (f.toReal - n.toReal) - n.toReal * f.toReal / ((f.toReal - n.toReal) * d) = f.toReal / (f.toReal - n.toReal) + -(n.toReal * f.toReal / (f.toReal - n.toReal)) / d := by rw [neg_div, div_div, sub_eq_add_neg]
    rw [e]
    refine (depth_le d0 h22' h32 (A := (f.toReal / (f.toReal - n.toReal))) (B := (f.toReal / (f.toReal - n.toReal)))
      (c := 2 * (f.toReal / (f.toReal - n.toReal))) ?_ ?_ (by linarith)).trans (by linarith)
    · rw [abs_of_pos (by positivity)]
    · rw [abs_neg, abs_of_pos (by positivity), div_div, div_le_div_iff₀ (by positivity) D]
      nlinarith [mul_le_mul_of_nonneg_left h1 (mul_pos f0 D).le]
  · have d0' : 0 < d' := h1.trans h2
    rw [form d h1, form d' d0']
    have kn : k < 0 := by
      refine order_of h32 (neg_le_neg (hn.trans ?_))
      rw [le_div_iff₀ D]; nlinarith
    have : k / d < k / d' := by rw [div_lt_div_iff₀ h1 d0']; nlinarith
    linarith

/-- a camera: `n = 1/8`, `f = 1024`, aspect `3/2`, an opening of a right angle, and a library that gives `1` for its tangent -/
example : ∃ _ : Libm, TanOk (F32.ofRat false (3 / 2) * lit 0.5) (Real.pi / 2 * (1 / 2)) ∧ 1 / 2 ^ 30 ≤ |Real.tan (Real.pi / 2 * (1 / 2))| ∧ |Real.tan (Real.pi / 2 * (1 / 2))| ≤ 2 ^ 30 := by
  have t : Real.tan (Real.pi / 2 * (1 / 2)) = 1 := by rw [show Real.pi / 2 * (1 / 2) = Real.pi / 4 by ring, Real.tan_pi_div_four]
  let L : Libm := ⟨id, id, fun _ => F32.ofRat false 1, id, id, id, fun a _ => a, fun a _ => a⟩
  have h : (F32.ofRat false 1).isFin = true ∧ (F32.ofRat false 1).val = 1 := by decide +kernel
  refine ⟨L, ⟨h.1, ?_⟩, ?_, ?_⟩
  · change |(F32.ofRat false 1).toReal - _| ≤ _
    unfold toReal; rw [t, h.2]; norm_num [ur]
  · rw [t]; norm_num
  · rw [t]; norm_num
example : let f := fun q : ℚ => F32.ofRat false q
    Apart (f (1 / 8)) (f 1024) ∧ Mod (f (3 / 2)) ∧ 1 / 2 ^ 30 ≤ |(f (3 / 2)).toReal| ∧ 1 / 2 ^ 30 ≤ (f (1 / 8)).toReal ∧ (f (1 / 8)).toReal < (f 1024).toReal := by
  have h : (F32.ofRat false (1 / 8)).isFin = true ∧ (F32.ofRat false (1 / 8)).val = 1 / 8 := by decide +kernel
  have g : (F32.ofRat false 1024).isFin = true ∧ (F32.ofRat false 1024).val = 1024 := by decide +kernel
  have k : (F32.ofRat false (3 / 2)).isFin = true ∧ (F32.ofRat false (3 / 2)).val = 3 / 2 := by decide +kernel
  intro f
  simp only [Apart, Mod, toReal, f, h, g, k]
  norm_num

end Cglm
