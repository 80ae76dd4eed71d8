import Verif.SimdReal

/-! Tactics for the SIMD equivalence theorems (no properties here). -/

namespace Cglm

attribute [ext] V8

/-- both sides unfold to the same expression -/
macro "simd_exact" : tactic => `(tactic| (simp only [cglm, Nat.reduceMod, Nat.reduceDiv, Nat.reduceAdd]; done))

/-- the same expression up to the order of the operands of `+` and `*` -/
macro "simd_comm" : tactic => `(tactic| (
  simp only [cglm, Nat.reduceMod, Nat.reduceDiv, Nat.reduceAdd]
  simp only [CommArith.add_comm, CommArith.mul_comm]
  done))

/-- equal in exact arithmetic -/
macro "simd_real" : tactic => `(tactic| (
  first
  | (ext <;> simp only [cglm, Nat.reduceMod, Nat.reduceDiv, Nat.reduceAdd] <;> ring1)
  | (simp only [cglm, Nat.reduceMod, Nat.reduceDiv, Nat.reduceAdd]; ring1)
  | (simp only [cglm, Nat.reduceMod, Nat.reduceDiv, Nat.reduceAdd]; congr 1; ring1)))

/-- equal in exact arithmetic, below square roots and comparisons -/
macro "simd_nf" : tactic => `(tactic| (simp only [cglm, Nat.reduceMod, Nat.reduceDiv, Nat.reduceAdd]; ring_nf; done))

theorem ite_lt_min (a b : ℝ) [Decidable (a < b)] : (if a < b then a else b) = min a b := by
  split_ifs with h
  · rw [min_eq_left h.le]
  · rw [min_eq_right (not_lt.mp h)]

theorem ite_lt_max (a b : ℝ) [Decidable (a < b)] : (if a < b then b else a) = max a b := by
  split_ifs with h
  · rw [max_eq_right h.le]
  · rw [max_eq_left (not_lt.mp h)]

theorem ite_lt_max_max (a b c : ℝ) [Decidable (a < b)] :
    (if a < b then max b c else max a c) = max (max a b) c := by
  split_ifs with h
  · rw [max_eq_right h.le]
  · rw [max_eq_left (not_lt.mp h)]

theorem ite_lt_min_min (a b c : ℝ) [Decidable (a < b)] :
    (if a < b then min a c else min b c) = min (min a b) c := by
  split_ifs with h
  · rw [min_eq_left h.le]
  · rw [min_eq_right (not_lt.mp h)]

theorem ite_lt_min_min' (a b c : ℝ) [Decidable (b < a)] :
    (if b < a then min c b else min c a) = min c (min a b) := by
  split_ifs with h
  · rw [min_eq_right h.le]
  · rw [min_eq_left (not_lt.mp h)]

/-- the same minimum or maximum, found in another order -/
macro "simd_order" : tactic => `(tactic| (
  simp only [cglm, Nat.reduceMod, Nat.reduceDiv, Nat.reduceAdd]
  simp only [ite_lt_min, ite_lt_max, ite_lt_max_max, ite_lt_min_min, ite_lt_min_min']
  try simp only [max_assoc, max_comm, max_left_comm, min_assoc, min_comm, min_left_comm]
  done))

/-- a caller: the callees have been related already -/
syntax "simd_callers " ident ident : tactic
macro_rules
  | `(tactic| simd_callers $a $b) => `(tactic| (unfold $a $b; simp only [cglm_simd]; done))

end Cglm
