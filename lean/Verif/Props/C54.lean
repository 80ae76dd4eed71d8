import Verif.I32Lemmas

/-! # C54: integer sign -/

namespace Cglm

open I

theorem sar31 (a : Int32) : (I32.sar a 31).toInt = if a.toInt < 0 then -1 else 0 := by
  have h := toInt_inInt a
  have e : a.toInt >>> 31 = if a.toInt < 0 then -1 else 0 := by
    rw [Int.shiftRight_eq_div_pow]
    unfold InInt at h
    split_ifs <;> omega
  unfold I32.sar
  rw [e]
  split_ifs <;> rfl

/-- For every `int` but the smallest, `glm_sign` is -1, 0 or 1 according to the sign.  (Missing for the full claim: the
smallest `int`, for which it is false, `C54_refuted`.) -/
theorem C54_sign_partial (a : Int32) (h : a.toInt ≠ -2147483648) :
    ∃ r, glm_sign a = some r ∧ r.toInt = if a.toInt < 0 then -1 else if a.toInt = 0 then 0 else 1 := by
  have hr := toInt_inInt a
  unfold InInt at hr
  have hn : InInt (-a.toInt) := ⟨by omega, by omega⟩
  have e1 : I32.neg a = some (Int32.ofInt (-a.toInt)) := I32.neg_some.2 hn.toInt_ofInt
  have s1 := sar31 a
  have s2 := sar31 (Int32.ofInt (-a.toInt))
  rw [hn.toInt_ofInt] at s2
  have hz : InInt ((I32.sar a 31).toInt - (I32.sar (Int32.ofInt (-a.toInt)) 31).toInt) := by
    rw [s1, s2]; unfold InInt; split_ifs <;> omega
  have e2 : I32.sub (I32.sar a 31) (I32.sar (Int32.ofInt (-a.toInt)) 31) = some (Int32.ofInt _) :=
    I32.sub_some.2 hz.toInt_ofInt
  refine ⟨Int32.ofInt ((I32.sar a 31).toInt - (I32.sar (Int32.ofInt (-a.toInt)) 31).toInt), ?_, ?_⟩
  · simp only [glm_sign, e1, Option.bind_eq_bind, Option.bind_some]
    exact e2
  · rw [hz.toInt_ofInt, s1, s2]
    split_ifs <;> omega
example : glm_sign (-7) = some (-1) ∧ glm_sign 0 = some 0 ∧ glm_sign 2147483647 = some 1 := by decide

/-- The smallest `int` overflows in the negation: undefined behaviour. -/
theorem C54_refuted : glm_sign (-2147483648) = none := by decide

/-- It is the only undefined input. -/
theorem C54_undefined_iff (a : Int32) : glm_sign a = none ↔ a.toInt = -2147483648 := by
  constructor
  · intro h
    by_contra hne
    obtain ⟨r, hr, -⟩ := C54_sign_partial a hne
    rw [h] at hr; cases hr
  · intro h
    have : a = -2147483648 := Int32.toInt.inj h
    rw [this]; exact C54_refuted

end Cglm
