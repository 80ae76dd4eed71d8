import Verif.Hand
import Verif.Lemmas
import Mathlib.Data.Nat.Bitwise
import Mathlib.Tactic.IntervalCases
import Mathlib.Tactic.NormNum

/-! # C66: swizzles pick lanes by two-bit mask fields

The mask is an `int`; field `k` is `mask / 4^k mod 4` of its 32-bit pattern. -/

namespace Cglm

variable {α : Type}

/-- the number in the k-th two-bit field of the mask -/
def lane (mask : BitVec 32) (k : Nat) : Nat := mask.toNat / 4 ^ k % 4

/-- A vector as a function of the lane number; `none` past the end. -/
def V2.lane? (v : V2 α) : Nat → Option α | 0 => some v.x | 1 => some v.y | _ => none
def V3.lane? (v : V3 α) : Nat → Option α | 0 => some v.x | 1 => some v.y | 2 => some v.z | _ => none
def V4.lane? (v : V4 α) : Nat → Option α | 0 => some v.x | 1 => some v.y | 2 => some v.z | 3 => some v.w | _ => none

theorem maskField_eq (mask : BitVec 32) (k : Nat) (hk : k ≤ 3) : maskField mask k = lane mask k := by
  unfold maskField lane
  have e : (mask &&& (3#32 <<< (2 * k))) >>> (2 * k) = (mask >>> (2 * k)) &&& 3#32 := by
    rw [BitVec.ushiftRight_and_distrib]; congr 1; interval_cases k <;> rfl
  rw [e, BitVec.toNat_and, BitVec.toNat_ushiftRight, Nat.shiftRight_eq_div_pow]
  have := Nat.and_two_pow_sub_one_eq_mod (mask.toNat / 2 ^ (2 * k)) 2
  norm_num at this
  simp only [BitVec.toNat_ofNat]
  norm_num
  rw [this, pow_mul]; norm_num

theorem lane_lt (mask : BitVec 32) (k : Nat) : lane mask k < 4 := Nat.mod_lt _ (by norm_num)

theorem V2.get?_eq (v : V2 α) (n : Nat) : v.get? n = v.lane? n := by
  unfold V2.get?
  split_ifs with h0 h1
  · obtain rfl : n = 0 := by omega
    rfl
  · obtain rfl : n = 1 := by omega
    rfl
  · rcases n with _ | _ | n
    · exact absurd rfl h0
    · exact absurd rfl h1
    · rfl
theorem V3.get?_eq (v : V3 α) (n : Nat) : v.get? n = v.lane? n := by
  unfold V3.get?
  split_ifs with h0 h1 h2
  · obtain rfl : n = 0 := by omega
    rfl
  · obtain rfl : n = 1 := by omega
    rfl
  · obtain rfl : n = 2 := by omega
    rfl
  · rcases n with _ | _ | _ | n
    · exact absurd rfl h0
    · exact absurd rfl h1
    · exact absurd rfl h2
    · rfl
theorem V4.get?_eq (v : V4 α) (n : Nat) : v.get? n = v.lane? n := by
  unfold V4.get?
  split_ifs with h0 h1 h2 h3
  · obtain rfl : n = 0 := by omega
    rfl
  · obtain rfl : n = 1 := by omega
    rfl
  · obtain rfl : n = 2 := by omega
    rfl
  · obtain rfl : n = 3 := by omega
    rfl
  · rcases n with _ | _ | _ | _ | n
    · exact absurd rfl h0
    · exact absurd rfl h1
    · exact absurd rfl h2
    · exact absurd rfl h3
    · rfl

/-- vec4: every mask is defined, and component k of the result is the lane named by field k -/
theorem C66_vec4 (v : V4 α) (mask : BitVec 32) : ∃ r, glm_vec4_swizzle v mask = some r ∧
    v.lane? (lane mask 0) = some r.x ∧ v.lane? (lane mask 1) = some r.y ∧
    v.lane? (lane mask 2) = some r.z ∧ v.lane? (lane mask 3) = some r.w := by
  have d (n : Nat) (h : n < 4) : ∃ a, v.lane? n = some a := by interval_cases n <;> exact ⟨_, rfl⟩
  obtain ⟨a, ha⟩ := d _ (lane_lt mask 0)
  obtain ⟨b, hb⟩ := d _ (lane_lt mask 1)
  obtain ⟨c, hc⟩ := d _ (lane_lt mask 2)
  obtain ⟨e, he⟩ := d _ (lane_lt mask 3)
  refine ⟨⟨a, b, c, e⟩, ?_, ha, hb, hc, he⟩
  unfold glm_vec4_swizzle
  simp only [maskField_eq _ 0 (by norm_num), maskField_eq _ 1 (by norm_num), maskField_eq _ 2 (by norm_num),
    maskField_eq _ 3 (by norm_num), V4.get?_eq, ha, hb, hc, he]
  rfl

/-- vec3: defined exactly when the three fields name lanes 0..2 -/
theorem C66_vec3 (v : V3 α) (mask : BitVec 32) (r : V3 α) : glm_vec3_swizzle v mask = some r ↔
    v.lane? (lane mask 0) = some r.x ∧ v.lane? (lane mask 1) = some r.y ∧ v.lane? (lane mask 2) = some r.z := by
  unfold glm_vec3_swizzle
  simp only [maskField_eq _ 0 (by norm_num), maskField_eq _ 1 (by norm_num), maskField_eq _ 2 (by norm_num), V3.get?_eq]
  cases v.lane? (lane mask 0) <;> cases v.lane? (lane mask 1) <;> cases v.lane? (lane mask 2) <;>
    simp [V3.ext_iff, pure]
/-- a field equal to 3 reads past the end of the vec3 -/
theorem C66_vec3_defined (v : V3 α) (mask : BitVec 32) : (glm_vec3_swizzle v mask).isSome ↔
    lane mask 0 < 3 ∧ lane mask 1 < 3 ∧ lane mask 2 < 3 := by
  have d (n : Nat) (h : n < 4) : (v.lane? n).isSome ↔ n < 3 := by interval_cases n <;> simp [V3.lane?]
  rw [← d _ (lane_lt mask 0), ← d _ (lane_lt mask 1), ← d _ (lane_lt mask 2)]
  unfold glm_vec3_swizzle
  simp only [maskField_eq _ 0 (by norm_num), maskField_eq _ 1 (by norm_num), maskField_eq _ 2 (by norm_num), V3.get?_eq]
  cases v.lane? (lane mask 0) <;> cases v.lane? (lane mask 1) <;> cases v.lane? (lane mask 2) <;>
    simp [pure]

/-- vec2: defined exactly when the two fields name lanes 0..1 -/
theorem C66_vec2 (v : V2 α) (mask : BitVec 32) (r : V2 α) : glm_vec2_swizzle v mask = some r ↔
    v.lane? (lane mask 0) = some r.x ∧ v.lane? (lane mask 1) = some r.y := by
  unfold glm_vec2_swizzle
  simp only [maskField_eq _ 0 (by norm_num), maskField_eq _ 1 (by norm_num), V2.get?_eq]
  cases v.lane? (lane mask 0) <;> cases v.lane? (lane mask 1) <;> simp [V2.ext_iff, pure]
theorem C66_vec2_defined (v : V2 α) (mask : BitVec 32) : (glm_vec2_swizzle v mask).isSome ↔
    lane mask 0 < 2 ∧ lane mask 1 < 2 := by
  have d (n : Nat) (h : n < 4) : (v.lane? n).isSome ↔ n < 2 := by interval_cases n <;> simp [V2.lane?]
  rw [← d _ (lane_lt mask 0), ← d _ (lane_lt mask 1)]
  unfold glm_vec2_swizzle
  simp only [maskField_eq _ 0 (by norm_num), maskField_eq _ 1 (by norm_num), V2.get?_eq]
  cases v.lane? (lane mask 0) <;> cases v.lane? (lane mask 1) <;> simp [pure]

/-! The mask macros put their last argument in field 0. -/

theorem C66_shuffle4 (z y x w : Fin 4) :
    let m := GLM_SHUFFLE4 (BitVec.ofFin (z.castLE (by norm_num))) (BitVec.ofFin (y.castLE (by norm_num)))
      (BitVec.ofFin (x.castLE (by norm_num))) (BitVec.ofFin (w.castLE (by norm_num)))
    lane m 0 = w ∧ lane m 1 = x ∧ lane m 2 = y ∧ lane m 3 = z := by
  revert z y x w; decide +kernel
theorem C66_shuffle3 (z y x : Fin 4) :
    let m := GLM_SHUFFLE3 (BitVec.ofFin (z.castLE (by norm_num))) (BitVec.ofFin (y.castLE (by norm_num)))
      (BitVec.ofFin (x.castLE (by norm_num)))
    lane m 0 = x ∧ lane m 1 = y ∧ lane m 2 = z := by
  revert z y x; decide +kernel
theorem C66_shuffle2 (y x : Fin 4) :
    let m := GLM_SHUFFLE2 (BitVec.ofFin (y.castLE (by norm_num))) (BitVec.ofFin (x.castLE (by norm_num)))
    lane m 0 = x ∧ lane m 1 = y := by
  revert y x; decide +kernel

/-- reversing a vec4 with the mask `GLM_SHUFFLE4(0, 1, 2, 3)` -/
example : glm_vec4_swizzle (⟨10, 11, 12, 13⟩ : V4 Nat) (GLM_SHUFFLE4 0 1 2 3) = some ⟨13, 12, 11, 10⟩ := rfl
/-- a mask with a field 3 on a vec3 -/
example : glm_vec3_swizzle (⟨10, 11, 12⟩ : V3 Nat) (GLM_SHUFFLE3 0 1 3) = none := rfl

end Cglm
