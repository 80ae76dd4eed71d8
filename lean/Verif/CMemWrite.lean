import Verif.CMemX

/-!
# Facts about `write`
-/

namespace Cglm.CMem

variable {α : Type}

theorem write_append (a b : List (Val α)) : ∀ (m : Mem α) (p : Ptr),
    write m p (a ++ b) = write (write m p a) (p.1, p.2 + a.length) b := by
  induction a with
  | nil => intro m p; rfl
  | cons v a ih =>
    intro m p
    rw [List.cons_append, write, ih, write]
    congr 2
    simp only [List.length_cons]
    omega

theorem write_take (vs : List (Val α)) (n : Nat) : ∀ (m : Mem α) (p : Ptr), (write m p vs).take n = write (m.take n) p vs := by
  induction vs with
  | nil => intro m p; rfl
  | cons v vs ih =>
    intro m p
    rw [write, ih, write]
    congr 1
    apply List.ext_getElem?
    intro i
    simp only [List.getElem?_take, List.getElem?_modify]
    split <;> simp

theorem write_write (m : Mem α) (p : Ptr) (a b : List (Val α)) (h : a.length = b.length) :
    write (write m p a) p b = write m p b := by
  apply Same.ext (((write_same a m p).trans (write_same b _ p)).symm.trans (write_same b m p))
  intro x y
  rw [cell_write, cell_write, cell_write, h]
  split
  · rename_i hc
    have : y - p.2 < a.length := by omega
    rcases cell m x y with _ | v
    · rfl
    · simp [this]
  · rfl

theorem Room.write {m : Mem α} {q : Ptr} {n : Nat} (h : Room m q n) (p : Ptr) (vs : List (Val α)) : Room (CMem.write m p vs) q n := by
  intro k hk
  rw [← (write_same vs m p).cell, ← (write_same vs m p).wr]
  exact h k hk

theorem Holds.write {m : Mem α} {q p : Ptr} {xs : List α} (h : Holds m q xs) {vs : List (Val α)} {n : Nat} (hn : xs.length = n)
    {l : Nat} (hl : vs.length = l) (hs : Apart q n p l) : Holds (CMem.write m p vs) q xs := by
  intro k x hx
  rw [cell_write, if_neg]
  · exact h k x hx
  · have := (List.getElem?_eq_some_iff.1 hx).1
    unfold Apart at hs
    omega

theorem Holds.of_write {m : Mem α} {p : Ptr} {xs : List α} {n : Nat} (r : Room m p n) (hn : xs.length = n) :
    Holds (CMem.write m p (xs.map .f)) p xs := by
  intro k x hx
  have hk := (List.getElem?_eq_some_iff.1 hx).1
  rw [cell_write, if_pos (by simp; omega)]
  obtain ⟨v, hv⟩ := Option.isSome_iff_exists.1 (r k (by omega)).1
  rw [hv]
  simp [hx]

theorem Room.append {m : Mem α} {q : Ptr} {n : Nat} (h : Room m q n) (l : Mem α) : Room (m ++ l) q n := by
  intro k hk
  obtain ⟨h1, h2⟩ := h k hk
  obtain ⟨v, hv⟩ := Option.isSome_iff_exists.1 h1
  have hl := cell_lt hv
  constructor
  · rw [cell, List.getElem?_append_left hl]; exact h1
  · rw [wr, List.getElem?_append_left hl]; exact h2

theorem Room.sub {m : Mem α} {q : Ptr} {n : Nat} (h : Room m q n) {d l : Nat} (hd : d + l ≤ n) : Room m (q.1, q.2 + d) l := by
  intro k hk
  have := h (d + k) (by omega)
  rwa [← Nat.add_assoc] at this

end Cglm.CMem
