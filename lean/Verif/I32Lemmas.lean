import Verif.GenInt
import Verif.Real

/-! # Checked integer arithmetic: what `some` means, and the exact-arithmetic conversions -/

namespace Cglm

/-- The values of a 32-bit `int`. -/
def InInt (z : Int) : Prop := -2147483648 ≤ z ∧ z ≤ 2147483647

theorem toInt_inInt (a : Int32) : InInt a.toInt := by
  have h1 := Int32.toInt_lt a
  have h2 := Int32.le_toInt a
  constructor <;> omega

theorem InInt.toInt_ofInt {z : Int} (h : InInt z) : (Int32.ofInt z).toInt = z :=
  Int32.toInt_ofInt_of_le (by have := h.1; omega) (by have := h.2; omega)

theorem chk_eq_some {z : Int} {r : Int32} : chk z = some r ↔ r.toInt = z := by
  unfold chk
  constructor
  · intro h
    split_ifs at h with hz
    cases h; exact InInt.toInt_ofInt hz
  · rintro rfl
    have hr := toInt_inInt r
    unfold InInt at hr
    rw [if_pos hr]
    congr 1
    exact Int32.toInt.inj (InInt.toInt_ofInt (toInt_inInt r))

theorem bind_eq_some' {β γ : Type} {o : Option β} {f : β → Option γ} {r : γ} :
    (o >>= f) = some r ↔ ∃ t, o = some t ∧ f t = some r := by
  cases o <;> simp

theorem I32.add_some {a b r : Int32} : I32.add a b = some r ↔ r.toInt = a.toInt + b.toInt := chk_eq_some
theorem I32.sub_some {a b r : Int32} : I32.sub a b = some r ↔ r.toInt = a.toInt - b.toInt := chk_eq_some
theorem I32.mul_some {a b r : Int32} : I32.mul a b = some r ↔ r.toInt = a.toInt * b.toInt := chk_eq_some
theorem I32.neg_some {a r : Int32} : I32.neg a = some r ↔ r.toInt = -a.toInt := chk_eq_some
theorem I32.abs_some {a r : Int32} : I32.abs a = some r ↔ r.toInt = |a.toInt| := by
  rw [I32.abs, chk_eq_some, Int.abs_eq_natAbs]
theorem I32.div_some {a b r : Int32} : I32.div a b = some r ↔ b.toInt ≠ 0 ∧ r.toInt = a.toInt.tdiv b.toInt := by
  unfold I32.div
  split_ifs with h
  · simp [h]
  · rw [chk_eq_some]; simp [h]
theorem I32.mod_some {a b r : Int32} : I32.mod a b = some r ↔
    b.toInt ≠ 0 ∧ ¬ (a.toInt = -2147483648 ∧ b.toInt = -1) ∧ r.toInt = a.toInt.tmod b.toInt := by
  unfold I32.mod
  split_ifs with h h'
  · simp [h]
  · simp [h']
  · rw [chk_eq_some]; simp only [ne_eq, h, not_false_eq_true, true_and, h']

/-- an intermediate result `t` exists exactly when its value is in range -/
theorem exists_toInt {z : Int} {P : Int32 → Prop} {Q : Prop} (h : ∀ t : Int32, t.toInt = z → (P t ↔ Q)) :
    (∃ t : Int32, t.toInt = z ∧ P t) ↔ InInt z ∧ Q := by
  constructor
  · rintro ⟨t, ht, hp⟩; exact ⟨ht ▸ toInt_inInt t, (h t ht).1 hp⟩
  · rintro ⟨hz, hq⟩; exact ⟨Int32.ofInt z, hz.toInt_ofInt, (h _ hz.toInt_ofInt).2 hq⟩

/-- Conversions in exact arithmetic: every `int` is a real number; `(int)x` truncates toward zero. -/
noncomputable instance : CIntConv ℝ where
  ofI32 i := (i.toInt : ℝ)
  toI32 x := chk (if 0 ≤ x then ⌊x⌋ else ⌈x⌉)

theorem toI32_real (x : ℝ) : toI32 x = chk (if 0 ≤ x then ⌊x⌋ else ⌈x⌉) := rfl

end Cglm
