import Verif.Real
import Verif.Spec
import Verif.Gen
import Verif.Hand
import Mathlib.Data.Matrix.Mul
import Mathlib.Algebra.BigOperators.Fin

/-! Helper lemmas and tactics (no properties here). -/

namespace Cglm
attribute [ext] V2 V3 V4 M2 M3 M4 M2x3 M2x4 M3x2 M3x4 M4x2 M4x3 M6x4 M8x4

theorem V2.vec_inj {a b : V2 ℝ} : a.vec = b.vec ↔ a = b := by
  constructor
  · intro h
    have h0 := congrFun h 0; have h1 := congrFun h 1
    simp [V2.vec] at h0 h1; ext <;> assumption
  · rintro rfl; rfl
theorem V3.vec_inj {a b : V3 ℝ} : a.vec = b.vec ↔ a = b := by
  constructor
  · intro h
    have h0 := congrFun h 0; have h1 := congrFun h 1; have h2 := congrFun h 2
    simp [V3.vec] at h0 h1 h2; ext <;> assumption
  · rintro rfl; rfl
theorem V4.vec_inj {a b : V4 ℝ} : a.vec = b.vec ↔ a = b := by
  constructor
  · intro h
    have h0 := congrFun h 0; have h1 := congrFun h 1; have h2 := congrFun h 2; have h3 := congrFun h 3
    simp [V4.vec] at h0 h1 h2 h3; ext <;> assumption
  · rintro rfl; rfl
theorem M2.mat_inj {a b : M2 ℝ} : a.mat = b.mat ↔ a = b := by
  constructor
  · intro h
    have h0 := fun i j => congrFun (congrFun h i) j
    have e := h0 0 0; have e1 := h0 1 0; have e2 := h0 0 1; have e3 := h0 1 1
    simp [M2.mat] at e e1 e2 e3
    ext <;> assumption
  · rintro rfl; rfl
theorem M3.mat_inj {a b : M3 ℝ} : a.mat = b.mat ↔ a = b := by
  constructor
  · intro h
    have h0 := fun i j => congrFun (congrFun h i) j
    have e00 := h0 0 0; have e01 := h0 0 1; have e02 := h0 0 2
    have e10 := h0 1 0; have e11 := h0 1 1; have e12 := h0 1 2
    have e20 := h0 2 0; have e21 := h0 2 1; have e22 := h0 2 2
    simp [M3.mat] at e00 e01 e02 e10 e11 e12 e20 e21 e22
    ext <;> assumption
  · rintro rfl; rfl
theorem M4.mat_inj {a b : M4 ℝ} : a.mat = b.mat ↔ a = b := by
  constructor
  · intro h
    have h0 := fun i j => congrFun (congrFun h i) j
    have e00 := h0 0 0; have e01 := h0 0 1; have e02 := h0 0 2; have e03 := h0 0 3
    have e10 := h0 1 0; have e11 := h0 1 1; have e12 := h0 1 2; have e13 := h0 1 3
    have e20 := h0 2 0; have e21 := h0 2 1; have e22 := h0 2 2; have e23 := h0 2 3
    have e30 := h0 3 0; have e31 := h0 3 1; have e32 := h0 3 2; have e33 := h0 3 3
    simp [M4.mat] at e00 e01 e02 e03 e10 e11 e12 e13 e20 e21 e22 e23 e30 e31 e32 e33
    ext <;> assumption
  · rintro rfl; rfl
end Cglm

attribute [local simp] Matrix.mul_apply

/-- entrywise goals of a matrix equation between generated functions, in components -/
macro "mat_entries" : tactic =>
  `(tactic| (ext i j; fin_cases i <;> fin_cases j <;>
    simp [Cglm.M2.mat, Cglm.M3.mat, Cglm.M4.mat, Cglm.M2x3.mat, Cglm.M2x4.mat, Cglm.M3x2.mat, Cglm.M3x4.mat,
      Cglm.M4x2.mat, Cglm.M4x3.mat, Matrix.mul_apply, Fin.sum_univ_succ, cglm]))

/-- entrywise proof of a matrix equation between generated functions -/
macro "mat_ring" : tactic => `(tactic| (mat_entries <;> ring))

/-- componentwise goals of a vector equation -/
macro "vec_entries" : tactic =>
  `(tactic| (ext i; fin_cases i <;>
    simp [Cglm.M2.mat, Cglm.M3.mat, Cglm.M4.mat, Cglm.M2x3.mat, Cglm.M2x4.mat, Cglm.M3x2.mat, Cglm.M3x4.mat,
      Cglm.M4x2.mat, Cglm.M4x3.mat, Cglm.V2.vec, Cglm.V3.vec, Cglm.V4.vec, Matrix.mulVec, dotProduct,
      Fin.sum_univ_succ, cglm]))

macro "vec_ring" : tactic => `(tactic| (vec_entries <;> ring))
