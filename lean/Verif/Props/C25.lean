import Verif.MatTac
import Verif.Lemmas

/-! # C25: 2D affine transforms (3x3 homogeneous matrices) -/

namespace Cglm

def transMat2 (v : V2 ℝ) : Matrix (Fin 3) (Fin 3) ℝ := !![1, 0, v.x; 0, 1, v.y; 0, 0, 1]
def scaleMat2 (v : V2 ℝ) : Matrix (Fin 3) (Fin 3) ℝ := !![v.x, 0, 0; 0, v.y, 0; 0, 0, 1]
/-- counterclockwise rotation by `θ` -/
noncomputable def rotMat2 (θ : ℝ) : Matrix (Fin 3) (Fin 3) ℝ :=
  !![Real.cos θ, -Real.sin θ, 0; Real.sin θ, Real.cos θ, 0; 0, 0, 1]
/-- last row (0,0,1) -/
def M3.Affine (m : M3 ℝ) : Prop := m.c0.z = 0 ∧ m.c1.z = 0 ∧ m.c2.z = 1

local macro "entries" : tactic => `(tactic|
  (ext i j; fin_cases i <;> fin_cases j <;>
    simp [M3.mat, transMat2, scaleMat2, rotMat2, Matrix.mul_apply, Fin.sum_univ_succ, cglm] <;> ring))

theorem C25_translate2d_make (v : V2 ℝ) : (glm_translate2d_make v).mat = transMat2 v := by
  ext i j; fin_cases i <;> fin_cases j <;> simp [M3.mat, transMat2, cglm]
theorem C25_scale2d_make (v : V2 ℝ) : (glm_scale2d_make v).mat = scaleMat2 v := by
  ext i j; fin_cases i <;> fin_cases j <;> simp [M3.mat, scaleMat2, cglm]
theorem C25_rotate2d_make (θ : ℝ) : (glm_rotate2d_make θ).mat = rotMat2 θ := by
  ext i j; fin_cases i <;> fin_cases j <;> simp [M3.mat, rotMat2, cglm]

/-! from the right, every `m` -/
theorem C25_translate2d (m : M3 ℝ) (v : V2 ℝ) : (glm_translate2d m v).mat = m.mat * transMat2 v := by entries
theorem C25_translate2d_to (m : M3 ℝ) (v : V2 ℝ) : glm_translate2d_to m v = glm_translate2d m v := rfl
theorem C25_translate2d_x (m : M3 ℝ) (x : ℝ) : (glm_translate2d_x m x).mat = m.mat * transMat2 ⟨x, 0⟩ := by entries
theorem C25_translate2d_y (m : M3 ℝ) (y : ℝ) : (glm_translate2d_y m y).mat = m.mat * transMat2 ⟨0, y⟩ := by entries
theorem C25_scale2d (m : M3 ℝ) (v : V2 ℝ) : (glm_scale2d m v).mat = m.mat * scaleMat2 v := by entries
theorem C25_scale2d_to (m : M3 ℝ) (v : V2 ℝ) : glm_scale2d_to m v = glm_scale2d m v := rfl
theorem C25_scale2d_uni (m : M3 ℝ) (s : ℝ) : (glm_scale2d_uni m s).mat = m.mat * scaleMat2 ⟨s, s⟩ := by entries
theorem C25_rotate2d (m : M3 ℝ) (θ : ℝ) : (glm_rotate2d m θ).mat = m.mat * rotMat2 θ := by entries
theorem C25_rotate2d_to (m : M3 ℝ) (θ : ℝ) : glm_rotate2d_to m θ = glm_rotate2d m θ := rfl

/-! from the left; scaling and rotation for every `m`, translation for affine `m` -/
theorem C25_scaled2d (m : M3 ℝ) (v : V2 ℝ) : (glm_scaled2d m v).mat = scaleMat2 v * m.mat := by entries
theorem C25_scaled2d_uni (m : M3 ℝ) (s : ℝ) : (glm_scaled2d_uni m s).mat = scaleMat2 ⟨s, s⟩ * m.mat := by entries
theorem C25_rotated2d (m : M3 ℝ) (θ : ℝ) : (glm_rotated2d m θ).mat = rotMat2 θ * m.mat := by entries
theorem C25_translated2d (m : M3 ℝ) (v : V2 ℝ) (h : m.Affine) : (glm_translated2d m v).mat = transMat2 v * m.mat := by
  obtain ⟨h0, h1, h2⟩ := h
  ext i j; fin_cases i <;> fin_cases j <;>
    simp [M3.mat, transMat2, Matrix.mul_apply, Fin.sum_univ_succ, cglm, h0, h1, h2]
theorem C25_translated2d_x (m : M3 ℝ) (x : ℝ) (h : m.Affine) :
    (glm_translated2d_x m x).mat = transMat2 ⟨x, 0⟩ * m.mat := by
  obtain ⟨h0, h1, h2⟩ := h
  ext i j; fin_cases i <;> fin_cases j <;>
    simp [M3.mat, transMat2, Matrix.mul_apply, Fin.sum_univ_succ, cglm, h0, h1, h2]
theorem C25_translated2d_y (m : M3 ℝ) (y : ℝ) (h : m.Affine) :
    (glm_translated2d_y m y).mat = transMat2 ⟨0, y⟩ * m.mat := by
  obtain ⟨h0, h1, h2⟩ := h
  ext i j; fin_cases i <;> fin_cases j <;>
    simp [M3.mat, transMat2, Matrix.mul_apply, Fin.sum_univ_succ, cglm, h0, h1, h2]
/-- and only for affine `m` -/
theorem C25_translated2d_iff (m : M3 ℝ) : (∀ v, (glm_translated2d m v).mat = transMat2 v * m.mat) ↔ m.Affine := by
  constructor
  · intro h
    have h0 := fun j => congrFun (congrFun (h ⟨1, 0⟩) 0) j
    have a := h0 0; have b := h0 1; have c := h0 2
    simp [M3.mat, transMat2, Matrix.mul_apply, Fin.sum_univ_succ, cglm] at a b c
    exact ⟨a, b, c.symm⟩
  · exact fun h v => C25_translated2d m v h

/-- rotations compose and are inverted by the opposite angle -/
theorem C25_rotate2d_add (a b : ℝ) : rotMat2 a * rotMat2 b = rotMat2 (a + b) := by
  ext i j; fin_cases i <;> fin_cases j <;>
    simp [rotMat2, Matrix.mul_apply, Fin.sum_univ_succ, Real.cos_add, Real.sin_add] <;> ring

/-! texture transforms: rotate by `-rot`, scale, then translate -/
theorem C25_mat3_textrans (sx sy rot tx ty : ℝ) :
    (glm_mat3_textrans sx sy rot tx ty).mat = transMat2 ⟨tx, ty⟩ * scaleMat2 ⟨sx, sy⟩ * rotMat2 (-rot) := by
  ext i j; fin_cases i <;> fin_cases j <;>
    simp [M3.mat, transMat2, scaleMat2, rotMat2, Matrix.mul_apply, Fin.sum_univ_succ, cglm] <;> ring
theorem C25_mat4_textrans (sx sy rot tx ty : ℝ) :
    (glm_mat4_textrans sx sy rot tx ty).mat = transMat ⟨tx, ty, 0⟩ * scaleMat ⟨sx, sy, 1⟩ *
      !![Real.cos rot, Real.sin rot, 0, 0; -Real.sin rot, Real.cos rot, 0, 0; 0, 0, 1, 0; 0, 0, 0, 1] := by
  ext i j; fin_cases i <;> fin_cases j <;>
    simp [M4.mat, transMat, scaleMat, Matrix.mul_apply, Fin.sum_univ_succ, cglm] <;> ring

example : (⟨⟨1, 2, 0⟩, ⟨3, 4, 0⟩, ⟨5, 6, 1⟩⟩ : M3 ℝ).Affine := ⟨rfl, rfl, rfl⟩
example : (glm_translated2d (⟨⟨1, 2, 0⟩, ⟨3, 4, 0⟩, ⟨5, 6, 1⟩⟩ : M3 ℝ) ⟨10, 20⟩) = ⟨⟨1, 2, 0⟩, ⟨3, 4, 0⟩, ⟨15, 26, 1⟩⟩ := by
  ext <;> norm_num [cglm]

end Cglm
