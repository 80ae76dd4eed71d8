import Verif.Wide
import Verif.Gen
/-! # C95: the evaluation methods of real implementations, and an expression on which they differ -/
open Cglm F32 Wide
namespace Cglm

namespace Wide

private theorem log_cast (q : ℚ) : Int.log 2 |(q : ℝ)| = Int.log 2 |q| := by
  by_cases h : q = 0
  · subst h; simp
  have hq : 0 < |q| := abs_pos.mpr h
  have hr : 0 < |(q : ℝ)| := by exact_mod_cast hq
  apply le_antisymm
  · rw [← Int.zpow_le_iff_le_log (b := 2) (by norm_num) hq]
    have := Int.zpow_log_le_self (b := 2) (by norm_num) hr
    rw [← Rat.cast_abs] at this ⊢
    rw [← Rat.cast_le (K := ℝ)]; push_cast at this ⊢; exact this
  · rw [← Int.zpow_le_iff_le_log (b := 2) (by norm_num) hr]
    have := Int.zpow_log_le_self (b := 2) (by norm_num) hq
    rw [← Rat.cast_le (K := ℝ)] at this; push_cast at this ⊢; exact this

private theorem rne_le (x : ℚ) (n : ℤ) : |(rne x : ℚ) - x| ≤ |(n : ℚ) - x| := by
  rcases eq_or_ne n (rne x) with rfl | h
  · exact le_rfl
  have h1 : (1 : ℚ) ≤ |(n : ℚ) - rne x| := by exact_mod_cast Int.one_le_abs (sub_ne_zero.mpr h)
  have h2 := rne_err x
  have h3 := abs_sub_le (n : ℚ) x (rne x)
  rw [abs_sub_comm x] at h3
  linarith

/-- the rounding of the binary32 model is one to nearest -/
theorem rnd_nearest (q : ℚ) : Nearest 24 (-149) (q : ℝ) (rnd q : ℝ) := by
  have hE : lastBit 24 (-149) (q : ℝ) = ulpExp q := by
    unfold lastBit ulpExp
    rw [log_cast]; congr 1; push_cast; ring
  constructor
  · obtain ⟨m, hm, h⟩ := rnd_bits q
    refine ⟨m, ulpExp q, hm, le_max_right _ _, ?_⟩
    rw [h]; push_cast; rfl
  · intro z hz
    refine le_trans ?_ ((nearest_toGrid (by norm_num) (-149) (q : ℝ)).2 z hz)
    unfold toGrid
    rw [hE]
    have k := rne_le (q / 2 ^ ulpExp q) (round ((q : ℝ) / 2 ^ ulpExp q))
    unfold rnd
    generalize round ((q : ℝ) / 2 ^ ulpExp q) = n at *
    have hp : (0 : ℚ) < 2 ^ ulpExp q := zpow_pos (by norm_num) _
    have s : ∀ n : ℤ, |(n : ℚ) * 2 ^ ulpExp q - q| = |(n : ℚ) - q / 2 ^ ulpExp q| * 2 ^ ulpExp q := fun n => by
      rw [← abs_of_pos hp, ← abs_mul, abs_of_pos hp]; congr 1; field_simp
    have := mul_le_mul_of_nonneg_right k hp.le
    rw [← s, ← s, ← Rat.cast_le (K := ℝ)] at this
    push_cast at this ⊢; exact this

end Wide

/-- **binary32.**  The sums, differences, products and quotients of the binary32 model are results that a method may keep. -/
theorem C95_binary32 (a b : F32) : ((a + b).isFin = true → Kept (a.toReal + b.toReal) (a + b).toReal) ∧
    ((a - b).isFin = true → Kept (a.toReal - b.toReal) (a - b).toReal) ∧
    ((a * b).isFin = true → Kept (a.toReal * b.toReal) (a * b).toReal) ∧
    (b.isFin = true → (a / b).isFin = true → Kept (a.toReal / b.toReal) (a / b).toReal) := by
  refine ⟨fun h => ⟨_, .inl rfl, .inr ?_⟩, fun h => ⟨_, .inl rfl, .inr ?_⟩, fun h => ⟨_, .inl rfl, .inr ?_⟩, fun hb h => ⟨_, .inl rfl, .inr ?_⟩⟩ <;>
    unfold toReal
  · rw [add_val h, ← Rat.cast_add]; exact rnd_nearest _
  · rw [F32.sub_def] at *; rw [add_val h, neg_val, ← sub_eq_add_neg, ← Rat.cast_sub]; exact rnd_nearest _
  · rw [mul_val h, ← Rat.cast_mul]; exact rnd_nearest _
  · rw [div_val hb h, ← Rat.cast_div]; exact rnd_nearest _

/-- **`FLT_EVAL_METHOD` 0**: every operation is rounded to binary32. -/
theorem C95_method0 : ∃ E : Method, ∀ t x, Nearest 24 (-149) x (E.keep t x) :=
  ⟨⟨fun _ x => toGrid 24 (-149) x, fun _ x => ⟨x, .inl rfl, .inr (nearest_toGrid (by norm_num) _ _)⟩⟩, fun _ x => nearest_toGrid (by norm_num) _ _⟩

/-- **`FLT_EVAL_METHOD` 1 and 2**: every operation is rounded to a wide format, `double` or `long double`; the expressions in `s` are
assigned to a variable and rounded to binary32 as well. -/
theorem C95_method12 (p : ℕ) (m : ℤ) (hp : 53 ≤ p) (hm : m ≤ -150) (s : Set Tree) : ∃ E : Method, ∀ t x,
    ∃ y, Nearest p m x y ∧ (t ∈ s → Nearest 24 (-149) y (E.keep t x)) ∧ (t ∉ s → E.keep t x = y) := by
  classical
  refine ⟨⟨fun t x => if t ∈ s then toGrid 24 (-149) (toGrid p m x) else toGrid p m x, fun t x => ⟨toGrid p m x,
    .inr ⟨p, m, hp, hm, nearest_toGrid (by omega) _ _⟩, ?_⟩⟩, fun t x => ⟨toGrid p m x, nearest_toGrid (by omega) _ _, fun h => ?_, fun h => ?_⟩⟩
  · by_cases h : t ∈ s
    · rw [if_pos h]; exact .inr (nearest_toGrid (by norm_num) _ _)
    · rw [if_neg h]; exact .inl rfl
  · show Nearest _ _ _ (if t ∈ s then _ else _)
    rw [if_pos h]; exact nearest_toGrid (by norm_num) _ _
  · show (if t ∈ s then _ else _) = _
    rw [if_neg h]

/-- **The methods differ**: the sum of `(2^24, 1, -2^24)` is 2 or 0 in binary32 and 1 in a wide format.  The bounds hold for both. -/
theorem C95_differ : ∃ (E E' : Method) (v : V3 Named), v.x.val.isFin = true ∧ v.y.val.isFin = true ∧ v.z.val.isFin = true ∧
    (glm_vec3_hadd (v.map (Named.wide E))).val ≠ (glm_vec3_hadd (v.map (Named.wide E'))).val := by
  have h1 : (F32.ofRat false (2 ^ 24)).toReal = 2 ^ 24 := by
    unfold toReal; rw [show (F32.ofRat false (2 ^ 24)).val = 2 ^ 24 by decide +kernel]; norm_num
  have h2 : (F32.ofRat false 1).toReal = 1 := by
    unfold toReal; rw [show (F32.ofRat false 1).val = 1 by decide +kernel]; norm_num
  have h3 : (F32.ofRat false (-2 ^ 24)).toReal = -2 ^ 24 := by
    unfold toReal; rw [show (F32.ofRat false (-2 ^ 24)).val = -2 ^ 24 by decide +kernel]; norm_num
  refine ⟨⟨fun _ x => x, fun _ x => ⟨x, .inl rfl, .inl rfl⟩⟩,
    ⟨fun _ x => toGrid 24 (-149) x, fun _ x => ⟨x, .inl rfl, .inr (nearest_toGrid (by norm_num) _ _)⟩⟩,
    ⟨⟨.ofRat false (2 ^ 24), 0⟩, ⟨.ofRat false 1, 1⟩, ⟨.ofRat false (-2 ^ 24), 2⟩⟩, by decide +kernel, by decide +kernel, by decide +kernel, ?_⟩
  simp only [cglm, V3.map]
  show (F32.ofRat false (2 ^ 24)).toReal + (F32.ofRat false 1).toReal + (F32.ofRat false (-2 ^ 24)).toReal ≠
    toGrid 24 (-149) (toGrid 24 (-149) ((F32.ofRat false (2 ^ 24)).toReal + (F32.ofRat false 1).toReal) + (F32.ofRat false (-2 ^ 24)).toReal)
  rw [h1, h2, h3]
  have hl : lastBit 24 (-149) (2 ^ 24 + 1) = 1 := by
    unfold lastBit
    rw [abs_of_pos (by norm_num), Int.log_of_one_le_right _ (by norm_num), show ⌊(2 ^ 24 + 1 : ℝ)⌋₊ = 2 ^ 24 + 1 by
      rw [show (2 ^ 24 + 1 : ℝ) = ((2 ^ 24 + 1 : ℕ) : ℝ) by norm_num, Nat.floor_natCast]]
    rw [show Nat.log 2 (2 ^ 24 + 1) = 24 by rw [Nat.log_eq_iff (by norm_num)]; norm_num]
    norm_num
  have hg : toGrid 24 (-149) (2 ^ 24 + 1) = 2 ^ 24 + 2 := by
    unfold toGrid
    rw [hl, show round ((2 ^ 24 + 1 : ℝ) / 2 ^ (1 : ℤ)) = 2 ^ 23 + 1 by rw [round_eq, Int.floor_eq_iff]; norm_num]
    norm_num
  rw [hg]
  rw [(nearest_toGrid (p := 24) (by norm_num) (-149) (2 ^ 24 + 2 + -2 ^ 24)).self ⟨1, 1, by norm_num, by norm_num, by norm_num⟩]
  norm_num

end Cglm
