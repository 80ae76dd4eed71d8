import Verif.CMemSpec
import Verif.F32Btw

/-!
# Results that differ

Contents for overlapping arrays, and a comparison of results that the kernel can evaluate.
-/

namespace Cglm.CMem

/-- the binary32 number with value `n` -/
def whole (n : ℤ) : F32 :=
  if h : n ≠ 0 ∧ n.natAbs < 2 ^ 24 then .fin (Rat.ofInt n) ⟨by
    rw [Rat.ofInt_eq_cast]; exact_mod_cast h.1, F32.rep_dyadic n 0 (by rw [Int.abs_eq_natAbs]; exact_mod_cast h.2) (by norm_num) (by norm_num) (by
    rw [Rat.ofInt_eq_cast]; norm_num)⟩
  else .zero false

/-- contents number `s` of cell `i`: increasing for `s = 0`, of both signs otherwise -/
def w : Nat → Nat → F32
  | 0, i => whole (2 * i * i + 5 * i + 3 : Nat)
  | s, i => whole (((i * (i + s) * 7 + s * 3 + i) % 23 : Nat) - 11 : ℤ)

def Val.same : Val F32 → Val F32 → Bool
  | .f x, .f y => decide (x = y)
  | .i x, .i y => decide (x = y)
  | .b x, .b y => x == y
  | .p x y, .p x' y' => Nat.beq x x' && Nat.beq y y'
  | .undef, .undef => true
  | _, _ => false

theorem Val.same_self (v : Val F32) : v.same v = true := by
  cases v <;> simp [Val.same]

def sameL : List (Val F32) → List (Val F32) → Bool
  | [], [] => true
  | a :: s, b :: t => a.same b && sameL s t
  | _, _ => false

theorem sameL_self (l : List (Val F32)) : sameL l l = true := by
  induction l with
  | nil => rfl
  | cons a l ih => simp [sameL, ih, Val.same_self]

def sameM : Mem F32 → Mem F32 → Bool
  | [], [] => true
  | A :: s, B :: t => sameL A.cells B.cells && sameM s t
  | _, _ => false

theorem sameM_self (m : Mem F32) : sameM m m = true := by
  induction m with
  | nil => rfl
  | cons a l ih => simp [sameM, ih, sameL_self]

/-- both are defined, and the memories differ -/
def differ : Option (Option (Val F32) × Mem F32) → Option (Option (Val F32) × Mem F32) → Bool
  | some (_, m), some (_, k) => !sameM m k
  | _, _ => false

theorem all_differ {ι : Type} {f g : ι → Option (Option (Val F32) × Mem F32)} {l : List ι} (h : (l.all fun p => differ (f p) (g p)) = true) : ∀ p ∈ l, f p ≠ g p := by
  intro p hp e
  have := List.all_eq_true.mp h p hp
  rw [e] at this
  unfold differ at this
  split at this
  · rename_i e1 e2
    rw [e1] at e2
    cases e2
    simp [sameM_self] at this
  · simp at this

end Cglm.CMem
