import Verif.Props.C20
import Verif.Props.C23

/-! # C19: affine transforms compose on the documented side

`transMat`, `scaleMat` and `rotMat` are the matrices of the specification; a rotation is embedded by `M3.toM4`. -/

namespace Cglm

/-! The `_make` functions -/
theorem C19_translate_make (v : V3 ℝ) : (glm_translate_make v).mat = transMat v := by
  ext i j; fin_cases i <;> fin_cases j <;> simp [M4.mat, transMat, cglm]
theorem C19_scale_make (v : V3 ℝ) : (glm_scale_make v).mat = scaleMat v := by
  ext i j; fin_cases i <;> fin_cases j <;> simp [M4.mat, scaleMat, cglm]

/-! Multiplication from the right (applied before `m`), for every `m` -/
theorem C19_translate (m : M4 ℝ) (v : V3 ℝ) : (glm_translate m v).mat = m.mat * transMat v := by
  ext i j
  fin_cases i <;> fin_cases j <;> simp [M4.mat, transMat, Matrix.mul_apply, Fin.sum_univ_succ, cglm] <;> ring
theorem C19_translate_to (m : M4 ℝ) (v : V3 ℝ) : glm_translate_to m v = glm_translate m v := rfl
theorem C19_translate_x (m : M4 ℝ) (x : ℝ) : (glm_translate_x m x).mat = m.mat * transMat ⟨x, 0, 0⟩ := by
  ext i j
  fin_cases i <;> fin_cases j <;> simp [M4.mat, transMat, Matrix.mul_apply, Fin.sum_univ_succ, cglm] <;> ring
theorem C19_translate_y (m : M4 ℝ) (y : ℝ) : (glm_translate_y m y).mat = m.mat * transMat ⟨0, y, 0⟩ := by
  ext i j
  fin_cases i <;> fin_cases j <;> simp [M4.mat, transMat, Matrix.mul_apply, Fin.sum_univ_succ, cglm] <;> ring
theorem C19_translate_z (m : M4 ℝ) (z : ℝ) : (glm_translate_z m z).mat = m.mat * transMat ⟨0, 0, z⟩ := by
  ext i j
  fin_cases i <;> fin_cases j <;> simp [M4.mat, transMat, Matrix.mul_apply, Fin.sum_univ_succ, cglm] <;> ring
theorem C19_scale (m : M4 ℝ) (v : V3 ℝ) : (glm_scale m v).mat = m.mat * scaleMat v := by
  ext i j
  fin_cases i <;> fin_cases j <;> simp [M4.mat, scaleMat, Matrix.mul_apply, Fin.sum_univ_succ, cglm]
theorem C19_scale_to (m : M4 ℝ) (v : V3 ℝ) : glm_scale_to m v = glm_scale m v := rfl
theorem C19_scale_uni (m : M4 ℝ) (s : ℝ) : (glm_scale_uni m s).mat = m.mat * scaleMat ⟨s, s, s⟩ := C19_scale m ⟨s, s, s⟩
theorem C19_rotate_x (m : M4 ℝ) (θ : ℝ) : (glm_rotate_x m θ).mat = m.mat * (rotMat θ ⟨1, 0, 0⟩).toM4.mat := by
  rw [← C23_mul_rot]
  congr 1
  ext <;> simp [cglm, rotMat, rodrigues, M3.toM4, V3.add, V3.smul, V3.cross, V3.dot]
theorem C19_rotate_y (m : M4 ℝ) (θ : ℝ) : (glm_rotate_y m θ).mat = m.mat * (rotMat θ ⟨0, 1, 0⟩).toM4.mat := by
  rw [← C23_mul_rot]
  congr 1
  ext <;> simp [cglm, rotMat, rodrigues, M3.toM4, V3.add, V3.smul, V3.cross, V3.dot]
theorem C19_rotate_z (m : M4 ℝ) (θ : ℝ) : (glm_rotate_z m θ).mat = m.mat * (rotMat θ ⟨0, 0, 1⟩).toM4.mat := by
  rw [← C23_mul_rot]
  congr 1
  ext <;> simp [cglm, rotMat, rodrigues, M3.toM4, V3.add, V3.smul, V3.cross, V3.dot]
theorem C19_rotate (m : M4 ℝ) (θ : ℝ) (axis : V3 ℝ) (h : FLT_EPSILON ≤ axis.len) :
    (glm_rotate m θ axis).mat = m.mat * (rotMat θ axis.unit).toM4.mat := by
  unfold glm_rotate
  rw [C20_rotate_make θ axis h]
  exact C23_mul_rot m _

/-! Multiplication from the left (applied after `m`).  The shortcut of `glm_translated*` needs an affine `m`. -/
theorem C19_translated (m : M4 ℝ) (v : V3 ℝ) (h : m.Affine) : (glm_translated m v).mat = transMat v * m.mat := by
  obtain ⟨h0, h1, h2, h3⟩ := h
  ext i j
  fin_cases i <;> fin_cases j <;>
    simp [M4.mat, transMat, Matrix.mul_apply, Fin.sum_univ_succ, cglm, h0, h1, h2, h3]
theorem C19_translated_to (m : M4 ℝ) (v : V3 ℝ) : glm_translated_to m v = glm_translated m v := rfl
theorem C19_translated_x (m : M4 ℝ) (x : ℝ) (h : m.Affine) : (glm_translated_x m x).mat = transMat ⟨x, 0, 0⟩ * m.mat := by
  obtain ⟨h0, h1, h2, h3⟩ := h
  ext i j
  fin_cases i <;> fin_cases j <;>
    simp [M4.mat, transMat, Matrix.mul_apply, Fin.sum_univ_succ, cglm, h0, h1, h2, h3]
theorem C19_translated_y (m : M4 ℝ) (y : ℝ) (h : m.Affine) : (glm_translated_y m y).mat = transMat ⟨0, y, 0⟩ * m.mat := by
  obtain ⟨h0, h1, h2, h3⟩ := h
  ext i j
  fin_cases i <;> fin_cases j <;>
    simp [M4.mat, transMat, Matrix.mul_apply, Fin.sum_univ_succ, cglm, h0, h1, h2, h3]
theorem C19_translated_z (m : M4 ℝ) (z : ℝ) (h : m.Affine) : (glm_translated_z m z).mat = transMat ⟨0, 0, z⟩ * m.mat := by
  obtain ⟨h0, h1, h2, h3⟩ := h
  ext i j
  fin_cases i <;> fin_cases j <;>
    simp [M4.mat, transMat, Matrix.mul_apply, Fin.sum_univ_succ, cglm, h0, h1, h2, h3]
/-- for which matrices `glm_translated` is the product with every translation: exactly the affine ones -/
theorem C19_translated_iff (m : M4 ℝ) : (∀ v, (glm_translated m v).mat = transMat v * m.mat) ↔ m.Affine := by
  constructor
  · intro h
    have e := h ⟨1, 0, 0⟩
    have h0 := fun j => congrFun (congrFun e 0) j
    have a := h0 0; have b := h0 1; have c := h0 2; have d := h0 3
    simp [M4.mat, transMat, Matrix.mul_apply, Fin.sum_univ_succ, cglm] at a b c d
    exact ⟨a, b, c, d.symm⟩
  · exact fun h v => C19_translated m v h

/-- `glm_rotated` multiplies with the fast product whose right operand must not translate: for a matrix without
translation it is the product. -/
theorem C19_rotated_partial (r : M3 ℝ) (θ : ℝ) (axis : V3 ℝ) (h : FLT_EPSILON ≤ axis.len) :
    (glm_rotated r.toM4 θ axis).mat = (rotMat θ axis.unit).toM4.mat * r.toM4.mat := by
  unfold glm_rotated
  rw [C20_rotate_make θ axis h]
  exact C23_mul_rot _ r
theorem C19_rotated_x_partial (r : M3 ℝ) (θ : ℝ) :
    (glm_rotated_x r.toM4 θ).mat = (rotMat θ ⟨1, 0, 0⟩).toM4.mat * r.toM4.mat := by
  rw [← C23_mul_rot]
  congr 1
  ext <;> simp [cglm, rotMat, rodrigues, M3.toM4, V3.add, V3.smul, V3.cross, V3.dot]
theorem C19_rotated_y_partial (r : M3 ℝ) (θ : ℝ) :
    (glm_rotated_y r.toM4 θ).mat = (rotMat θ ⟨0, 1, 0⟩).toM4.mat * r.toM4.mat := by
  rw [← C23_mul_rot]
  congr 1
  ext <;> simp [cglm, rotMat, rodrigues, M3.toM4, V3.add, V3.smul, V3.cross, V3.dot]
theorem C19_rotated_z_partial (r : M3 ℝ) (θ : ℝ) :
    (glm_rotated_z r.toM4 θ).mat = (rotMat θ ⟨0, 0, 1⟩).toM4.mat * r.toM4.mat := by
  rw [← C23_mul_rot]
  congr 1
  ext <;> simp [cglm, rotMat, rodrigues, M3.toM4, V3.add, V3.smul, V3.cross, V3.dot]
/-- The translation of `m` is discarded, whatever it is, -/
theorem C19_rotated_loses_translation (m : M4 ℝ) (θ : ℝ) (axis : V3 ℝ) :
    (glm_rotated m θ axis).c3 = ⟨0, 0, 0, 1⟩ ∧ (glm_rotated_x m θ).c3 = ⟨0, 0, 0, 1⟩ ∧
    (glm_rotated_y m θ).c3 = ⟨0, 0, 0, 1⟩ ∧ (glm_rotated_z m θ).c3 = ⟨0, 0, 0, 1⟩ := by
  refine ⟨?_, ?_, ?_, ?_⟩ <;> ext <;> simp [cglm]
/-- so rotating after a translation is not the product `R * m`: the full claim is false of the code.
Witness: the translation by (1,0,0), which `glm_rotated_z(m, 0)` turns into the identity. -/
theorem C19_rotated_refuted : ¬ ∀ (m : M4 ℝ) (θ : ℝ), m.Affine →
    (glm_rotated_z m θ).mat = (rotMat θ ⟨0, 0, 1⟩).toM4.mat * m.mat := by
  intro h
  have e := congrFun (congrFun (h ⟨⟨1, 0, 0, 0⟩, ⟨0, 1, 0, 0⟩, ⟨0, 0, 1, 0⟩, ⟨1, 0, 0, 1⟩⟩ 0 ⟨rfl, rfl, rfl, rfl⟩) 0) 3
  simp [M4.mat, M3.toM4, rotMat, rodrigues, V3.add, V3.smul, V3.cross, V3.dot, Matrix.mul_apply, Fin.sum_univ_succ,
    cglm] at e

example : (⟨⟨2, 0, 0, 0⟩, ⟨0, 3, 0, 0⟩, ⟨0, 0, 4, 0⟩, ⟨5, 6, 7, 1⟩⟩ : M4 ℝ).Affine := ⟨rfl, rfl, rfl, rfl⟩

end Cglm
