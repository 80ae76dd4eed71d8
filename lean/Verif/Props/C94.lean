import Verif.Apple
import Mathlib.Tactic.FinCases
import Mathlib.Data.Fintype.Basic

/-! # C94: conversion to Apple's vector types -/

namespace Cglm.Apple

variable {α : Type}

/-- component `j` of a vector, by position -/
def lane3 (v : V3 α) (j : Fin 3) : α := [v.x, v.y, v.z].get j
/-- component `j` of a vector, by position -/
def lane4 (v : V4 α) (j : Fin 4) : α := [v.x, v.y, v.z, v.w].get j
/-- row `j` of column `i` -/
def entry3 (m : M3 α) (i j : Fin 3) : α := lane3 ([m.c0, m.c1, m.c2].get i) j
/-- row `j` of column `i` -/
def entry4 (m : M4 α) (i j : Fin 4) : α := lane4 ([m.c0, m.c1, m.c2, m.c3].get i) j

/-- Every lane is written, with the entry in the same column and row. -/
theorem C94_mat4 (m : M4 α) (i j : Fin 4) : glm_mat4_applesimd m i j = some (entry4 m i j) := by
  fin_cases i <;> fin_cases j <;> rfl

theorem C94_mat3 (m : M3 α) (i j : Fin 3) : glm_mat3_applesimd m i j = some (entry3 m i j) := by
  fin_cases i <;> fin_cases j <;> rfl

theorem C94_vec4 (v : V4 α) (j : Fin 4) : (glm_vec4_applesimd v)[j]? = some (lane4 v j) := by
  fin_cases j <;> rfl

theorem C94_vec3 (v : V3 α) (j : Fin 3) : (glm_vec3_applesimd v)[j]? = some (lane3 v j) := by
  fin_cases j <;> rfl

/-- No lane outside the variable is written. -/
theorem C94_bounds (m : M4 α) (n : M3 α) (i j : Nat) : (4 ≤ i ∨ 4 ≤ j → glm_mat4_applesimd m i j = none) ∧ (3 ≤ i ∨ 3 ≤ j → glm_mat3_applesimd n i j = none) := by
  constructor <;> intro h <;> simp only [glm_mat4_applesimd, glm_mat3_applesimd, Lanes.set, fresh] <;> repeat rw [if_neg (by omega)]

/-- Nothing is lost: equal results come from equal arguments. -/
theorem C94_injective : Function.Injective (glm_mat4_applesimd (α := α)) ∧ Function.Injective (glm_mat3_applesimd (α := α)) ∧
    Function.Injective (glm_vec4_applesimd (α := α)) ∧ Function.Injective (glm_vec3_applesimd (α := α)) := by
  refine ⟨fun a b h => ?_, fun a b h => ?_, fun a b h => ?_, fun a b h => ?_⟩
  · have k : ∀ i j : Fin 4, entry4 a i j = entry4 b i j := fun i j => by
      have := congrFun (congrFun h i) j
      rw [C94_mat4, C94_mat4] at this
      exact Option.some.inj this
    obtain ⟨⟨_, _, _, _⟩, ⟨_, _, _, _⟩, ⟨_, _, _, _⟩, ⟨_, _, _, _⟩⟩ := a
    obtain ⟨⟨_, _, _, _⟩, ⟨_, _, _, _⟩, ⟨_, _, _, _⟩, ⟨_, _, _, _⟩⟩ := b
    have k0 := k 0; have k1 := k 1; have k2 := k 2; have k3 := k 3
    simp only [M4.mk.injEq, V4.mk.injEq]
    exact ⟨⟨k0 0, k0 1, k0 2, k0 3⟩, ⟨k1 0, k1 1, k1 2, k1 3⟩, ⟨k2 0, k2 1, k2 2, k2 3⟩, ⟨k3 0, k3 1, k3 2, k3 3⟩⟩
  · have k : ∀ i j : Fin 3, entry3 a i j = entry3 b i j := fun i j => by
      have := congrFun (congrFun h i) j
      rw [C94_mat3, C94_mat3] at this
      exact Option.some.inj this
    obtain ⟨⟨_, _, _⟩, ⟨_, _, _⟩, ⟨_, _, _⟩⟩ := a
    obtain ⟨⟨_, _, _⟩, ⟨_, _, _⟩, ⟨_, _, _⟩⟩ := b
    have k0 := k 0; have k1 := k 1; have k2 := k 2
    simp only [M3.mk.injEq, V3.mk.injEq]
    exact ⟨⟨k0 0, k0 1, k0 2⟩, ⟨k1 0, k1 1, k1 2⟩, ⟨k2 0, k2 1, k2 2⟩⟩
  · cases a; cases b
    simp only [glm_vec4_applesimd, List.cons.injEq, and_true] at h
    simp only [V4.mk.injEq]; exact h
  · cases a; cases b
    simp only [glm_vec3_applesimd, List.cons.injEq, and_true] at h
    simp only [V3.mk.injEq]; exact h

/-- The struct functions agree with the array functions. -/
theorem C94_struct : glms_mat4_applesimd (α := α) = glm_mat4_applesimd ∧ glms_mat3_applesimd (α := α) = glm_mat3_applesimd ∧
    glms_vec4_applesimd (α := α) = glm_vec4_applesimd ∧ glms_vec3_applesimd (α := α) = glm_vec3_applesimd := ⟨rfl, rfl, rfl, rfl⟩

/-- **The macro, struct types.**  `applesimd(x)` picks the function of the type of `x`. -/
theorem C94_macro_partial : applesimd mat4s = some "glms_mat4_applesimd" ∧ applesimd mat3s = some "glms_mat3_applesimd" ∧
    applesimd vec4s = some "glms_vec4_applesimd" ∧ applesimd vec3s = some "glms_vec3_applesimd" := by decide

/-- **The macro, array types.**  The documented use `applesimd(mat4_value)` is rejected: the array becomes a pointer before the types
are compared, and no association has a pointer type.  The same holds inside a function that receives the array as a parameter. -/
theorem C94_macro_refuted : ∀ t ∈ [mat4, mat3, vec4, vec3], applesimd t = none ∧ applesimd t.decay = none := by decide

/-- No array, whatever its element type and length, is ever accepted. -/
theorem C94_macro_arrays (e : Ty) (n : Nat) : applesimd (.arr e n) = none := by
  simp only [applesimd, generic, Ty.decay, mat4, mat3, vec4, vec3, mat4s, mat3s, vec4s, vec3s, List.find?, reduceCtorEq, decide_false, Option.map_none]

example : glm_mat4_applesimd (⟨⟨1, 2, 3, 4⟩, ⟨5, 6, 7, 8⟩, ⟨9, 10, 11, 12⟩, ⟨13, 14, 15, 16⟩⟩ : M4 Nat) 2 1 = some 10 := rfl

end Cglm.Apple
