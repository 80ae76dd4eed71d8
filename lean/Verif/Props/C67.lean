import Verif.Hand
import Verif.Real
import Verif.MatTac
import Verif.Spec

/-! # C67: the array initialisers set exactly the first `count` entries -/

namespace Cglm

theorem fillLoop_some {β : Type} (t : β) (fuel : Nat) : ∀ (arr : List β) (i : Nat), i + fuel ≤ arr.length →
    fillLoop t arr i fuel = some (arr.take i ++ List.replicate fuel t ++ arr.drop (i + fuel)) := by
  induction fuel with
  | zero => intro arr i _; simp [fillLoop]
  | succ n ih =>
    intro arr i h
    have hi : i < arr.length := by omega
    rw [fillLoop, if_pos hi, ih _ _ (by rw [List.length_set]; omega)]
    congr 1
    rw [List.take_add_one, List.take_set, List.drop_set, if_pos (by omega), List.replicate_succ]
    simp [hi, List.set_eq_of_length_le, Nat.add_assoc, Nat.add_comm 1 n]
theorem fillLoop_none {β : Type} (t : β) (fuel : Nat) : ∀ (arr : List β) (i : Nat), i ≤ arr.length → arr.length < i + fuel →
    fillLoop t arr i fuel = none := by
  induction fuel with
  | zero => intro arr i _ _; omega
  | succ n ih =>
    intro arr i h1 h2
    rw [fillLoop]
    by_cases hi : i < arr.length
    · rw [if_pos hi]; exact ih _ _ (by rw [List.length_set]; omega) (by rw [List.length_set]; omega)
    · rw [if_neg hi]

section
variable {α : Type} [Add α] [Sub α] [Mul α] [Div α] [Neg α] [CFloat α]

/-- With `count` at most the size of the array: the first `count` entries become the identity and the others stay. -/
theorem C67_mat4 (ms : List (M4 α)) (n : Nat) (h : n ≤ ms.length) :
    glm_mat4_identity_array ms n = some (List.replicate n glm_mat4_identity ++ ms.drop n) := by
  unfold glm_mat4_identity_array; rw [fillLoop_some _ _ _ _ (by omega)]
  simp only [List.take_zero, List.nil_append, Nat.zero_add]; rfl
theorem C67_mat3 (ms : List (M3 α)) (n : Nat) (h : n ≤ ms.length) :
    glm_mat3_identity_array ms n = some (List.replicate n glm_mat3_identity ++ ms.drop n) := by
  unfold glm_mat3_identity_array; rw [fillLoop_some _ _ _ _ (by omega)]
  simp only [List.take_zero, List.nil_append, Nat.zero_add]; rfl
theorem C67_mat2 (ms : List (M2 α)) (n : Nat) (h : n ≤ ms.length) :
    glm_mat2_identity_array ms n = some (List.replicate n glm_mat2_identity ++ ms.drop n) := by
  unfold glm_mat2_identity_array; rw [fillLoop_some _ _ _ _ (by omega)]
  simp only [List.take_zero, List.nil_append, Nat.zero_add]; rfl
theorem C67_quat (qs : List (V4 α)) (n : Nat) (h : n ≤ qs.length) :
    glm_quat_identity_array qs n = some (List.replicate n glm_quat_identity ++ qs.drop n) := by
  unfold glm_quat_identity_array; rw [fillLoop_some _ _ _ _ (by omega)]
  simp only [List.take_zero, List.nil_append, Nat.zero_add]; rfl

/-- A larger `count` writes outside the array. -/
theorem C67_overrun (ms : List (M4 α)) (ms' : List (M3 α)) (ms'' : List (M2 α)) (qs : List (V4 α)) (n : Nat) :
    (ms.length < n → glm_mat4_identity_array ms n = none) ∧ (ms'.length < n → glm_mat3_identity_array ms' n = none) ∧
    (ms''.length < n → glm_mat2_identity_array ms'' n = none) ∧ (qs.length < n → glm_quat_identity_array qs n = none) :=
  ⟨fun h => fillLoop_none _ _ _ _ (by omega) (by omega), fun h => fillLoop_none _ _ _ _ (by omega) (by omega),
    fun h => fillLoop_none _ _ _ _ (by omega) (by omega), fun h => fillLoop_none _ _ _ _ (by omega) (by omega)⟩
end

/-- Over the reals the entries written are the identity matrix and the quaternion 1. -/
theorem C67_identities : (glm_mat4_identity : M4 ℝ).mat = 1 ∧ (glm_mat3_identity : M3 ℝ).mat = 1 ∧
    (glm_mat2_identity : M2 ℝ).mat = 1 ∧ (glm_quat_identity : V4 ℝ).quat = 1 := by
  refine ⟨by mat_entries, by mat_entries, by mat_entries, ?_⟩
  apply QuaternionAlgebra.ext <;> simp [cglm, V4.quat] <;> rfl

example : glm_mat2_identity_array (α := ℝ) [⟨⟨5, 5⟩, ⟨5, 5⟩⟩, ⟨⟨6, 6⟩, ⟨6, 6⟩⟩, ⟨⟨7, 7⟩, ⟨7, 7⟩⟩] 2
    = some [glm_mat2_identity, glm_mat2_identity, ⟨⟨7, 7⟩, ⟨7, 7⟩⟩] := C67_mat2 _ 2 (by simp)

end Cglm
