import Verif.RotLemmas
import Verif.MatTac

/-! # C21: decomposition of affine transforms -/

namespace Cglm

/-- translation after rotation after scaling -/
def trs (t : V3 ℝ) (r : M3 ℝ) (s : V3 ℝ) : Matrix (Fin 4) (Fin 4) ℝ := transMat t * r.toM4.mat * scaleMat s

/-- the code as a case split: lengths of the columns, sign of the determinant -/
private theorem decompose_cases (m : M4 ℝ) (σ : ℝ)
    (hσ : σ = if m.block.c2.dot (m.block.c0.cross m.block.c1) < 0 then -1 else 1) :
    glm_decompose m = (m.c3, ⟨m.c0.smul (σ / m.block.c0.len), m.c1.smul (σ / m.block.c1.len),
      m.c2.smul (σ / m.block.c2.len), ⟨0, 0, 0, 1⟩⟩,
      ⟨σ * m.block.c0.len, σ * m.block.c1.len, σ * m.block.c2.len⟩) := by
  subst hσ
  have hc : m.block.c2.dot (m.block.c0.cross m.block.c1) = (m.block.c0.cross m.block.c1).dot m.block.c2 := by
    simp only [V3.dot, V3.cross]; ring
  rw [hc]
  unfold glm_decompose glm_decompose_rs
  simp only [glm_vec3_norm_eq, glm_vec3_cross_eq, glm_vec3_dot_eq, flt_real, lit_zero, decide_eq_true_eq]
  change _ = (_, _, _)
  by_cases h : (m.block.c0.cross m.block.c1).dot m.block.c2 < 0
  · have h' : (V3.cross ⟨m.c0.x, m.c0.y, m.c0.z⟩ ⟨m.c1.x, m.c1.y, m.c1.z⟩).dot ⟨m.c2.x, m.c2.y, m.c2.z⟩ < 0 := h
    simp only [h, h', if_true]
    refine Prod.ext ?_ (Prod.ext ?_ ?_) <;> ext <;> simp [cglm, V4.smul, M4.block] <;> ring
  · have h' : ¬ (V3.cross ⟨m.c0.x, m.c0.y, m.c0.z⟩ ⟨m.c1.x, m.c1.y, m.c1.z⟩).dot ⟨m.c2.x, m.c2.y, m.c2.z⟩ < 0 := h
    simp only [h, h', if_false]
    refine Prod.ext ?_ (Prod.ext ?_ ?_) <;> ext <;> simp [cglm, V4.smul, M4.block] <;> ring

/-- the columns of a `trs` matrix -/
private theorem trs_cols {m : M4 ℝ} {t : V3 ℝ} {r : M3 ℝ} {s : V3 ℝ} (h : m.mat = trs t r s) :
    m = ⟨(r.c0.smul s.x).hom 0, (r.c1.smul s.y).hom 0, (r.c2.smul s.z).hom 0, t.hom 1⟩ := by
  rw [← M4.mat_inj, h]
  ext i j
  fin_cases i <;> fin_cases j <;>
    simp [trs, M4.mat, M3.toM4, transMat, scaleMat, V3.smul, V3.hom, Matrix.mul_apply, Fin.sum_univ_succ] <;> ring

private theorem len_smul_unit {u : V3 ℝ} (h : u.dot u = 1) (s : ℝ) : (u.smul s).len = |s| := by
  unfold V3.len
  rw [show (u.smul s).dot (u.smul s) = s ^ 2 * u.dot u by simp only [V3.dot, V3.smul]; ring, h, mul_one, Real.sqrt_sq_eq_abs]
private theorem det_trs (r : M3 ℝ) (hr : r.IsRotation) (s : V3 ℝ) :
    (r.c2.smul s.z).dot ((r.c0.smul s.x).cross (r.c1.smul s.y)) = s.x * s.y * s.z := by
  have := ((M3.isRotation_iff r).mp hr).2
  simp only [V3.dot, V3.cross, V3.smul] at *
  linear_combination s.x * s.y * s.z * this

/-- positive scale factors: the three parts come back exactly -/
theorem C21_decompose (m : M4 ℝ) (t : V3 ℝ) (r : M3 ℝ) (s : V3 ℝ) (hr : r.IsRotation)
    (hx : 0 < s.x) (hy : 0 < s.y) (hz : 0 < s.z) (hm : m.mat = trs t r s) :
    glm_decompose m = (t.hom 1, r.toM4, s) := by
  have hm := trs_cols hm
  obtain ⟨⟨h1, h2, h3, -⟩, -⟩ := (M3.isRotation_iff r).mp hr
  rw [decompose_cases m 1 _]
  · have e0 : m.block.c0 = r.c0.smul s.x := by subst hm; rfl
    have e1 : m.block.c1 = r.c1.smul s.y := by subst hm; rfl
    have e2 : m.block.c2 = r.c2.smul s.z := by subst hm; rfl
    rw [e0, e1, e2, len_smul_unit h1, len_smul_unit h2, len_smul_unit h3, abs_of_pos hx, abs_of_pos hy, abs_of_pos hz]
    subst hm
    refine Prod.ext ?_ (Prod.ext ?_ ?_) <;> ext <;> simp [M3.toM4, V4.smul, V3.smul, V3.hom] <;> field_simp
  · have := det_trs r hr s
    subst hm
    change _ = if (r.c2.smul s.z).dot ((r.c0.smul s.x).cross (r.c1.smul s.y)) < 0 then _ else _
    rw [this, if_neg]
    have : 0 < s.x * s.y * s.z := by positivity
    linarith
/-- three negative scale factors come back as well (the sign branch) -/
theorem C21_decompose_neg (m : M4 ℝ) (t : V3 ℝ) (r : M3 ℝ) (s : V3 ℝ) (hr : r.IsRotation)
    (hx : s.x < 0) (hy : s.y < 0) (hz : s.z < 0) (hm : m.mat = trs t r s) :
    glm_decompose m = (t.hom 1, r.toM4, s) := by
  have hm := trs_cols hm
  obtain ⟨⟨h1, h2, h3, -⟩, -⟩ := (M3.isRotation_iff r).mp hr
  rw [decompose_cases m (-1) _]
  · have e0 : m.block.c0 = r.c0.smul s.x := by subst hm; rfl
    have e1 : m.block.c1 = r.c1.smul s.y := by subst hm; rfl
    have e2 : m.block.c2 = r.c2.smul s.z := by subst hm; rfl
    rw [e0, e1, e2, len_smul_unit h1, len_smul_unit h2, len_smul_unit h3, abs_of_neg hx, abs_of_neg hy, abs_of_neg hz]
    subst hm
    have := hx.ne; have := hy.ne; have := hz.ne
    refine Prod.ext ?_ (Prod.ext ?_ ?_) <;> ext <;> simp [M3.toM4, V4.smul, V3.smul, V3.hom] <;> field_simp
  · have := det_trs r hr s
    subst hm
    change _ = if (r.c2.smul s.z).dot ((r.c0.smul s.x).cross (r.c1.smul s.y)) < 0 then _ else _
    rw [this, if_pos]
    have := mul_pos (neg_pos.mpr hx) (neg_pos.mpr hy)
    have := mul_pos this (neg_pos.mpr hz)
    linarith

/-- recomposition returns the matrix, for every affine matrix without a zero column (sheared ones too) -/
theorem C21_recompose (m : M4 ℝ) (ha : m.Affine) (h0 : m.block.c0.len ≠ 0) (h1 : m.block.c1.len ≠ 0)
    (h2 : m.block.c2.len ≠ 0) (t : V4 ℝ) (r : M4 ℝ) (s : V3 ℝ) (hd : glm_decompose m = (t, r, s)) :
    m.mat = transMat ⟨t.x, t.y, t.z⟩ * r.mat * scaleMat s := by
  obtain ⟨a0, a1, a2, a3⟩ := ha
  obtain ⟨σ, hσ⟩ : ∃ σ : ℝ, σ = if m.block.c2.dot (m.block.c0.cross m.block.c1) < 0 then -1 else 1 := ⟨_, rfl⟩
  have hs : σ * σ = 1 := by rw [hσ]; split_ifs <;> norm_num
  rw [decompose_cases m σ hσ] at hd
  simp only [Prod.mk.injEq] at hd
  obtain ⟨rfl, rfl, rfl⟩ := hd
  have key : ∀ x l : ℝ, l ≠ 0 → σ / l * x * (σ * l) = x := by
    intro x l hl; field_simp; linear_combination x * hs
  ext i j
  fin_cases i <;> fin_cases j <;>
    simp [M4.mat, transMat, scaleMat, V4.smul, Matrix.mul_apply, Fin.sum_univ_succ, a0, a1, a2, a3, key _ _ h0, key _ _ h1,
      key _ _ h2]
/-- whatever the signs of the scale factors, the rotation part is a proper rotation; the scale part is positive or negative
throughout, with the right magnitudes -/
theorem C21_rotation (m : M4 ℝ) (t : V3 ℝ) (r : M3 ℝ) (s : V3 ℝ) (hr : r.IsRotation)
    (hx : s.x ≠ 0) (hy : s.y ≠ 0) (hz : s.z ≠ 0) (hm : m.mat = trs t r s) :
    ∃ r' : M3 ℝ, r'.IsRotation ∧ (glm_decompose m).2.1 = r'.toM4 ∧
      (glm_decompose m).2.2 = (⟨|s.x|, |s.y|, |s.z|⟩ : V3 ℝ).smul (if s.x * s.y * s.z < 0 then -1 else 1) := by
  have hm := trs_cols hm
  obtain ⟨⟨h1, h2, h3, h4, h5, h6⟩, h7⟩ := (M3.isRotation_iff r).mp hr
  have hdet := det_trs r hr s
  rw [decompose_cases m _ rfl]
  have e0 : m.block.c0 = r.c0.smul s.x := by subst hm; rfl
  have e1 : m.block.c1 = r.c1.smul s.y := by subst hm; rfl
  have e2 : m.block.c2 = r.c2.smul s.z := by subst hm; rfl
  rw [e0, e1, e2, len_smul_unit h1, len_smul_unit h2, len_smul_unit h3, hdet]
  generalize hσ : (if s.x * s.y * s.z < 0 then (-1 : ℝ) else 1) = σ
  have hs : σ * σ = 1 := by rw [← hσ]; split_ifs <;> norm_num
  have ax := abs_ne_zero.mpr hx; have ay := abs_ne_zero.mpr hy; have az := abs_ne_zero.mpr hz
  have qx := abs_mul_abs_self s.x; have qy := abs_mul_abs_self s.y; have qz := abs_mul_abs_self s.z
  have hprod : σ * (s.x * s.y * s.z) = |s.x| * |s.y| * |s.z| := by
    rw [← abs_mul, ← abs_mul, ← hσ]
    split_ifs with h
    · rw [abs_of_neg h]; ring
    · rw [abs_of_nonneg (not_lt.mp h)]; ring
  refine ⟨⟨r.c0.smul (σ / |s.x| * s.x), r.c1.smul (σ / |s.y| * s.y), r.c2.smul (σ / |s.z| * s.z)⟩, ?_, ?_, ?_⟩
  · have px : (σ / |s.x| * s.x) * (σ / |s.x| * s.x) = 1 := by field_simp; linear_combination s.x^2 * hs - qx
    have py : (σ / |s.y| * s.y) * (σ / |s.y| * s.y) = 1 := by field_simp; linear_combination s.y^2 * hs - qy
    have pz : (σ / |s.z| * s.z) * (σ / |s.z| * s.z) = 1 := by field_simp; linear_combination s.z^2 * hs - qz
    have pp : (σ / |s.x| * s.x) * (σ / |s.y| * s.y) * (σ / |s.z| * s.z) = 1 := by
      field_simp; linear_combination hprod + σ * s.x * s.y * s.z * hs
    rw [M3.isRotation_iff]
    generalize σ / |s.x| * s.x = a at *
    generalize σ / |s.y| * s.y = b at *
    generalize σ / |s.z| * s.z = c at *
    simp only [V3.dot, V3.cross, V3.smul] at *
    refine ⟨⟨?_, ?_, ?_, ?_, ?_, ?_⟩, ?_⟩
    · linear_combination a * a * h1 + px
    · linear_combination b * b * h2 + py
    · linear_combination c * c * h3 + pz
    · linear_combination a * b * h4
    · linear_combination a * c * h5
    · linear_combination b * c * h6
    · linear_combination a * b * c * h7 + pp
  · subst hm
    ext <;> simp [M3.toM4, V4.smul, V3.smul, V3.hom] <;> ring
  · ext <;> simp [V3.smul]

/-- `glm_decompose_scalev` returns the magnitudes of the scale factors -/
theorem C21_scalev (m : M4 ℝ) (t : V3 ℝ) (r : M3 ℝ) (s : V3 ℝ) (hr : r.IsRotation) (hm : m.mat = trs t r s) :
    glm_decompose_scalev m = ⟨|s.x|, |s.y|, |s.z|⟩ := by
  have hm := trs_cols hm
  obtain ⟨⟨h1, h2, h3, -⟩, -⟩ := (M3.isRotation_iff r).mp hr
  unfold glm_decompose_scalev
  simp only [glm_vec3_norm_eq]
  subst hm
  rw [← len_smul_unit h1 s.x, ← len_smul_unit h2 s.y, ← len_smul_unit h3 s.z]
  rfl
/-- `glm_uniscaled` says whether those magnitudes agree up to the tolerance of the `eq` functions -/
theorem C21_uniscaled (m : M4 ℝ) (t : V3 ℝ) (r : M3 ℝ) (s : V3 ℝ) (hr : r.IsRotation) (hm : m.mat = trs t r s) :
    glm_uniscaled m = true ↔ |(|s.y| - |s.x|)| ≤ 1 / 100000 ∧ |(|s.z| - |s.x|)| ≤ 1 / 100000 := by
  unfold glm_uniscaled
  rw [C21_scalev m t r s hr hm]
  simp only [cglm, Bool.and_eq_true, decide_eq_true_eq]
  norm_num

/-- non-trivial instances: a quarter turn about z, scaled by (2,3,4) -/
example : (⟨⟨0, 1, 0⟩, ⟨-1, 0, 0⟩, ⟨0, 0, 1⟩⟩ : M3 ℝ).IsRotation := by
  rw [M3.isRotation_iff]; simp [V3.dot, V3.cross]
example : (⟨⟨0, 2, 0, 0⟩, ⟨-3, 0, 0, 0⟩, ⟨0, 0, 4, 0⟩, ⟨5, 6, 7, 1⟩⟩ : M4 ℝ).mat =
    trs ⟨5, 6, 7⟩ ⟨⟨0, 1, 0⟩, ⟨-1, 0, 0⟩, ⟨0, 0, 1⟩⟩ ⟨2, 3, 4⟩ := by
  ext i j
  fin_cases i <;> fin_cases j <;>
    simp [trs, M4.mat, M3.toM4, transMat, scaleMat, Matrix.mul_apply, Fin.sum_univ_succ]

end Cglm
