import Verif.Lemmas
import Mathlib.Tactic.CasesM

/-! # C16: Euler angle matrices -/

namespace Cglm

/-- the three axis rotations -/
noncomputable def Rx (θ : ℝ) : Matrix (Fin 3) (Fin 3) ℝ := (rotMat θ ⟨1, 0, 0⟩).mat
noncomputable def Ry (θ : ℝ) : Matrix (Fin 3) (Fin 3) ℝ := (rotMat θ ⟨0, 1, 0⟩).mat
noncomputable def Rz (θ : ℝ) : Matrix (Fin 3) (Fin 3) ℝ := (rotMat θ ⟨0, 0, 1⟩).mat

theorem Rx_eq (θ : ℝ) : Rx θ = !![1, 0, 0; 0, Real.cos θ, -Real.sin θ; 0, Real.sin θ, Real.cos θ] := by
  ext i j; fin_cases i <;> fin_cases j <;> simp [Rx, rotMat, rodrigues, M3.mat, V3.add, V3.smul, V3.cross, V3.dot]
theorem Ry_eq (θ : ℝ) : Ry θ = !![Real.cos θ, 0, Real.sin θ; 0, 1, 0; -Real.sin θ, 0, Real.cos θ] := by
  ext i j; fin_cases i <;> fin_cases j <;> simp [Ry, rotMat, rodrigues, M3.mat, V3.add, V3.smul, V3.cross, V3.dot]
theorem Rz_eq (θ : ℝ) : Rz θ = !![Real.cos θ, -Real.sin θ, 0; Real.sin θ, Real.cos θ, 0; 0, 0, 1] := by
  ext i j; fin_cases i <;> fin_cases j <;> simp [Rz, rotMat, rodrigues, M3.mat, V3.add, V3.smul, V3.cross, V3.dot]

theorem C16_xyz (a : V3 ℝ) : (glm_euler_xyz a).block.mat = Rx a.x * Ry a.y * Rz a.z ∧
    glm_euler_xyz a = (glm_euler_xyz a).block.toM4 := by
  constructor
  · rw [Rx_eq, Ry_eq, Rz_eq]
    ext i j; fin_cases i <;> fin_cases j <;>
      simp [M4.block, M3.mat, Matrix.mul_apply, Fin.sum_univ_succ, cglm] <;> ring
  · ext <;> simp [M4.block, M3.toM4, cglm]
theorem C16_xzy (a : V3 ℝ) : (glm_euler_xzy a).block.mat = Rx a.x * Rz a.z * Ry a.y ∧
    glm_euler_xzy a = (glm_euler_xzy a).block.toM4 := by
  constructor
  · rw [Rx_eq, Ry_eq, Rz_eq]
    ext i j; fin_cases i <;> fin_cases j <;>
      simp [M4.block, M3.mat, Matrix.mul_apply, Fin.sum_univ_succ, cglm] <;> ring
  · ext <;> simp [M4.block, M3.toM4, cglm]
theorem C16_yxz (a : V3 ℝ) : (glm_euler_yxz a).block.mat = Ry a.y * Rx a.x * Rz a.z ∧
    glm_euler_yxz a = (glm_euler_yxz a).block.toM4 := by
  constructor
  · rw [Rx_eq, Ry_eq, Rz_eq]
    ext i j; fin_cases i <;> fin_cases j <;>
      simp [M4.block, M3.mat, Matrix.mul_apply, Fin.sum_univ_succ, cglm] <;> ring
  · ext <;> simp [M4.block, M3.toM4, cglm]
theorem C16_yzx (a : V3 ℝ) : (glm_euler_yzx a).block.mat = Ry a.y * Rz a.z * Rx a.x ∧
    glm_euler_yzx a = (glm_euler_yzx a).block.toM4 := by
  constructor
  · rw [Rx_eq, Ry_eq, Rz_eq]
    ext i j; fin_cases i <;> fin_cases j <;>
      simp [M4.block, M3.mat, Matrix.mul_apply, Fin.sum_univ_succ, cglm] <;> ring
  · ext <;> simp [M4.block, M3.toM4, cglm]
theorem C16_zxy (a : V3 ℝ) : (glm_euler_zxy a).block.mat = Rz a.z * Rx a.x * Ry a.y ∧
    glm_euler_zxy a = (glm_euler_zxy a).block.toM4 := by
  constructor
  · rw [Rx_eq, Ry_eq, Rz_eq]
    ext i j; fin_cases i <;> fin_cases j <;>
      simp [M4.block, M3.mat, Matrix.mul_apply, Fin.sum_univ_succ, cglm] <;> ring
  · ext <;> simp [M4.block, M3.toM4, cglm]
theorem C16_zyx (a : V3 ℝ) : (glm_euler_zyx a).block.mat = Rz a.z * Ry a.y * Rx a.x ∧
    glm_euler_zyx a = (glm_euler_zyx a).block.toM4 := by
  constructor
  · rw [Rx_eq, Ry_eq, Rz_eq]
    ext i j; fin_cases i <;> fin_cases j <;>
      simp [M4.block, M3.mat, Matrix.mul_apply, Fin.sum_univ_succ, cglm] <;> ring
  · ext <;> simp [M4.block, M3.toM4, cglm]
theorem C16_euler (a : V3 ℝ) : glm_euler a = glm_euler_xyz a := rfl

theorem Rx_mem (θ : ℝ) : Rx θ ∈ Matrix.specialOrthogonalGroup (Fin 3) ℝ := by
  show (rotMat θ ⟨1, 0, 0⟩).IsRotation
  rw [M3.isRotation_iff]
  have h := Real.sin_sq_add_cos_sq θ
  simp [rotMat, rodrigues, V3.add, V3.smul, V3.cross, V3.dot]
  constructorm* _ ∧ _ <;> first | ring1 | linarith
theorem Ry_mem (θ : ℝ) : Ry θ ∈ Matrix.specialOrthogonalGroup (Fin 3) ℝ := by
  show (rotMat θ ⟨0, 1, 0⟩).IsRotation
  rw [M3.isRotation_iff]
  have h := Real.sin_sq_add_cos_sq θ
  simp [rotMat, rodrigues, V3.add, V3.smul, V3.cross, V3.dot]
  constructorm* _ ∧ _ <;> first | ring1 | linarith
theorem Rz_mem (θ : ℝ) : Rz θ ∈ Matrix.specialOrthogonalGroup (Fin 3) ℝ := by
  show (rotMat θ ⟨0, 0, 1⟩).IsRotation
  rw [M3.isRotation_iff]
  have h := Real.sin_sq_add_cos_sq θ
  simp [rotMat, rodrigues, V3.add, V3.smul, V3.cross, V3.dot]
  constructorm* _ ∧ _ <;> first | ring1 | linarith

/-- every Euler matrix is a proper rotation -/
theorem C16_rotation (a : V3 ℝ) : (glm_euler_xyz a).block.IsRotation ∧ (glm_euler_xzy a).block.IsRotation ∧
    (glm_euler_yxz a).block.IsRotation ∧ (glm_euler_yzx a).block.IsRotation ∧ (glm_euler_zxy a).block.IsRotation ∧
    (glm_euler_zyx a).block.IsRotation := by
  unfold M3.IsRotation
  rw [(C16_xyz a).1, (C16_xzy a).1, (C16_yxz a).1, (C16_yzx a).1, (C16_zxy a).1, (C16_zyx a).1]
  have hx := Rx_mem a.x; have hy := Ry_mem a.y; have hz := Rz_mem a.z
  exact ⟨mul_mem (mul_mem hx hy) hz, mul_mem (mul_mem hx hz) hy, mul_mem (mul_mem hy hx) hz, mul_mem (mul_mem hy hz) hx,
    mul_mem (mul_mem hz hx) hy, mul_mem (mul_mem hz hy) hx⟩

/-- the order code built from the axis numbers selects the matrix named; `d` is the previous content of `dest` -/
theorem C16_by_order (a : V3 ℝ) (d : M4 ℝ) :
    glm_euler_by_order a (glm_euler_order 0 1 2).toInt d = glm_euler_xyz a ∧
    glm_euler_by_order a (glm_euler_order 0 2 1).toInt d = glm_euler_xzy a ∧
    glm_euler_by_order a (glm_euler_order 1 0 2).toInt d = glm_euler_yxz a ∧
    glm_euler_by_order a (glm_euler_order 1 2 0).toInt d = glm_euler_yzx a ∧
    glm_euler_by_order a (glm_euler_order 2 0 1).toInt d = glm_euler_zxy a ∧
    glm_euler_by_order a (glm_euler_order 2 1 0).toInt d = glm_euler_zyx a := by
  have hxyz : (glm_euler_order 0 1 2).toInt = 36 := by decide
  have hxzy : (glm_euler_order 0 2 1).toInt = 24 := by decide
  have hyxz : (glm_euler_order 1 0 2).toInt = 33 := by decide
  have hyzx : (glm_euler_order 1 2 0).toInt = 9 := by decide
  have hzxy : (glm_euler_order 2 0 1).toInt = 18 := by decide
  have hzyx : (glm_euler_order 2 1 0).toInt = 6 := by decide
  rw [hxyz, hxzy, hyxz, hyzx, hzxy, hzyx]
  refine ⟨?_, ?_, ?_, ?_, ?_, ?_⟩ <;>
    (ext <;> simp [glm_euler_by_order, glm_euler_xyz, glm_euler_xzy, glm_euler_yxz, glm_euler_yzx, glm_euler_zxy,
      glm_euler_zyx, ieq] <;> ring)

/-- any other code leaves the upper left block as it was -/
theorem C16_by_order_other (a : V3 ℝ) (d : M4 ℝ) (o : Int) (h : o ≠ 36 ∧ o ≠ 24 ∧ o ≠ 33 ∧ o ≠ 9 ∧ o ≠ 18 ∧ o ≠ 6) :
    (glm_euler_by_order a o d).block = d.block := by
  obtain ⟨h1, h2, h3, h4, h5, h6⟩ := h
  ext <;> simp [glm_euler_by_order, ieq, h1, h2, h3, h4, h5, h6, M4.block]

/-- the orders really differ -/
example : (glm_euler_xyz (⟨Real.pi / 2, Real.pi / 2, 0⟩ : V3 ℝ)).c0.y = 1 ∧
    (glm_euler_yxz (⟨Real.pi / 2, Real.pi / 2, 0⟩ : V3 ℝ)).c0.y = 0 := by simp [cglm]

end Cglm
