import Verif.CMemSim
import Lean.Elab.Tactic

/-!
# Statements about calls in arbitrary memory

`Holds`, `Room`, `Apart` and `writes` are the vocabulary of the memory-safety and aliasing theorems (C55, C56);
`transfer` derives such a theorem from one run on a canonical memory.
-/

namespace Cglm.CMem

variable {α : Type}

/-- An address: object and cell. -/
abbrev Ptr := Nat × Nat
/-- pass an address as an argument -/
def Ptr.val (p : Ptr) : Val α := .p p.1 p.2

/-- The cells from `p` on hold the floats `vs`. -/
def Holds (m : Mem α) (p : Ptr) (vs : List α) : Prop := ∀ (k : Nat) (x : α), vs[k]? = some x → cell m p.1 (p.2 + k) = some (.f x)
/-- There are `n` writable cells from `p` on (initialised or not). -/
def Room (m : Mem α) (p : Ptr) (n : Nat) : Prop := ∀ k < n, (cell m p.1 (p.2 + k)).isSome ∧ wr m p.1 = true
/-- The `n` cells from `p` and the `k` cells from `q` do not overlap. -/
def Apart (p : Ptr) (n : Nat) (q : Ptr) (k : Nat) : Prop := p.1 ≠ q.1 ∨ p.2 + n ≤ q.2 ∨ q.2 + k ≤ p.2

/-- Overwrite the cells from `p` on with `vs`. -/
def write (m : Mem α) (p : Ptr) : List (Val α) → Mem α
  | [] => m
  | v :: vs => write (m.modify p.1 fun B => ⟨B.w, B.cells.set p.2 v⟩) (p.1, p.2 + 1) vs
/-- Overwrite several regions. -/
def writes (m : Mem α) : List (Ptr × List (Val α)) → Mem α
  | [] => m
  | (p, vs) :: l => writes (write m p vs) l

theorem Apart.symm {p q : Ptr} {n k : Nat} (h : Apart p n q k) : Apart q k p n := by
  unfold Apart at *; omega

theorem same_modify (m : Mem α) (b o : Nat) (v : Val α) : Same m (m.modify b fun B => ⟨B.w, B.cells.set o v⟩) := by
  apply List.ext_getElem?
  intro i
  simp only [List.getElem?_map, List.getElem?_modify]
  rcases m[i]? with _ | B
  · rfl
  · by_cases h : b = i <;> simp [h]

theorem cell_modify (m : Mem α) (b o : Nat) (v : Val α) (b' o' : Nat) :
    cell (m.modify b fun B => ⟨B.w, B.cells.set o v⟩) b' o' =
      if b' = b ∧ o' = o then (cell m b' o').map fun _ => v else cell m b' o' := by
  unfold cell
  rw [List.getElem?_modify]
  rcases e : m[b']? with _ | B
  · simp
  · by_cases h1 : b = b'
    · subst h1
      simp only [if_true, true_and, Option.map_eq_map, Option.map_some, Option.bind_some, List.getElem?_set]
      by_cases h2 : o = o'
      · subst h2
        simp only [if_true]
        split
        · rename_i h; simp [h]
        · rename_i h; simp [h]
      · have : ¬ o' = o := fun h => h2 h.symm
        simp [h2, this]
    · have : ¬ b' = b := fun h => h1 h.symm
      simp [h1, this]

theorem write_same (vs : List (Val α)) : ∀ (m : Mem α) (p : Ptr), Same m (write m p vs) := by
  induction vs with
  | nil => intro m p; exact Same.refl _
  | cons v vs ih => intro m p; exact (same_modify m p.1 p.2 v).trans (ih _ _)

theorem cell_write (vs : List (Val α)) : ∀ (m : Mem α) (p : Ptr) (b o : Nat), cell (write m p vs) b o =
    if b = p.1 ∧ p.2 ≤ o ∧ o < p.2 + vs.length then (cell m b o).bind fun _ => vs[o - p.2]? else cell m b o := by
  induction vs with
  | nil =>
    intro m p b o
    rw [if_neg]
    · rfl
    · simp only [List.length_nil]; omega
  | cons v vs ih =>
    intro m p b o
    rw [write, ih, cell_modify]
    simp only [List.length_cons]
    by_cases h0 : b = p.1 ∧ o = p.2
    · obtain ⟨rfl, rfl⟩ := h0
      rw [if_neg (by omega), if_pos ⟨rfl, rfl⟩, if_pos (by omega)]
      cases cell m p.1 p.2 <;> simp
    · rw [if_neg h0]
      by_cases h1 : b = p.1 ∧ p.2 ≤ o ∧ o < p.2 + (vs.length + 1)
      · rw [if_pos (by omega), if_pos h1]
        obtain ⟨rfl, h1, h2⟩ := h1
        obtain ⟨d, hd⟩ : ∃ d, o = p.2 + 1 + d := ⟨o - p.2 - 1, by omega⟩
        subst hd
        have e1 : p.2 + 1 + d - (p.2 + 1) = d := by omega
        have e2 : p.2 + 1 + d - p.2 = d + 1 := by omega
        simp only [e1, e2, List.getElem?_cons_succ]
      · rw [if_neg (by omega), if_neg h1]

theorem writes_same (l : List (Ptr × List (Val α))) : ∀ (m : Mem α), Same m (writes m l) := by
  induction l with
  | nil => intro m; exact Same.refl _
  | cons x l ih => intro m; exact (write_same x.2 m x.1).trans (ih _)

/-- `writes` is the only memory with the new contents in the regions and the old ones elsewhere -/
theorem writes_unique {m' : Mem α} (l : List (Ptr × List (Val α))) : ∀ {m : Mem α}, Same m m' →
    (∀ x ∈ l, ∀ k v, x.2[k]? = some v → cell m' x.1.1 (x.1.2 + k) = some v) →
    (∀ b o, (∀ x ∈ l, ∀ k, k < x.2.length → ¬ (b = x.1.1 ∧ o = x.1.2 + k)) → cell m b o = cell m' b o) → writes m l = m' := by
  induction l with
  | nil => intro m hs _ h; exact hs.ext fun b o => h b o (by simp)
  | cons x l ih =>
    intro m hs h1 h2
    rw [writes]
    apply ih ((write_same x.2 m x.1).symm.trans hs) (fun y hy => h1 y (List.mem_cons_of_mem _ hy))
    intro b o hno
    rw [cell_write]
    by_cases hc : b = x.1.1 ∧ x.1.2 ≤ o ∧ o < x.1.2 + x.2.length
    · rw [if_pos hc]
      obtain ⟨rfl, hc1, hc2⟩ := hc
      have hk : o - x.1.2 < x.2.length := by omega
      have := h1 x List.mem_cons_self (o - x.1.2) x.2[o - x.1.2] (List.getElem?_eq_getElem hk)
      rw [show x.1.2 + (o - x.1.2) = o by omega] at this
      rw [this]
      have hsome : (cell m x.1.1 o).isSome := by rw [hs.cell, this]; rfl
      obtain ⟨u, hu⟩ := Option.isSome_iff_exists.mp hsome
      rw [hu]
      simp [hk]
    · rw [if_neg hc]
      apply h2
      intro y hy k hk hbo
      rcases List.mem_cons.mp hy with rfl | hy
      · exact hc ⟨hbo.1, by omega, by omega⟩
      · exact hno y hy k hk hbo

/-- the writable regions and their contents -/
def outs : List Ptr → Mem α → List (Ptr × List (Val α))
  | q :: j, B :: A => match B.w with
    | true => (q, B.cells) :: outs j A
    | false => outs j A
  | _, _ => []

theorem mem_outs {j : List Ptr} : ∀ {A : Mem α} {x : Ptr × List (Val α)}, x ∈ outs j A ↔
    ∃ (i : Nat) (B : Block α), j[i]? = some x.1 ∧ A[i]? = some B ∧ B.w = true ∧ x.2 = B.cells := by
  induction j with
  | nil => intro A x; simp [outs]
  | cons q j ih =>
    intro A x
    cases A with
    | nil => simp [outs]
    | cons B A =>
      unfold outs
      have step : (∃ (i : Nat) (B' : Block α), (q :: j)[i]? = some x.1 ∧ (B :: A)[i]? = some B' ∧ B'.w = true ∧ x.2 = B'.cells) ↔
          (q = x.1 ∧ B.w = true ∧ x.2 = B.cells) ∨ ∃ (i : Nat) (B' : Block α), j[i]? = some x.1 ∧ A[i]? = some B' ∧ B'.w = true ∧ x.2 = B'.cells := by
        constructor
        · rintro ⟨_ | i, B', h1, h2, h3, h4⟩
          · simp only [List.getElem?_cons_zero, Option.some.injEq] at h1 h2
            subst h2
            exact Or.inl ⟨h1, h3, h4⟩
          · simp only [List.getElem?_cons_succ] at h1 h2
            exact Or.inr ⟨i, B', h1, h2, h3, h4⟩
        · rintro (⟨rfl, h2, h3⟩ | ⟨i, B', h⟩)
          · exact ⟨0, B, rfl, rfl, h2, h3⟩
          · exact ⟨i + 1, B', h⟩
      rw [step]
      cases hw : B.w
      · simp [ih]
      · simp only [List.mem_cons, ih]
        constructor
        · rintro (rfl | h)
          · exact Or.inl ⟨rfl, trivial, rfl⟩
          · exact Or.inr h
        · rintro (⟨rfl, -, h3⟩ | h)
          · left; rw [← h3]
          · exact Or.inr h

/-- every writable cell is initialised -/
def full : Mem α → Bool
  | [] => true
  | B :: A => (!B.w || B.cells.all fun v => match v with | .undef => false | _ => true) && full A

theorem full_cell {A : Mem α} (h : full A = true) {i k : Nat} {v : Val α} (hc : cell A i k = some v) (hw : wr A i = true) : v ≠ .undef := by
  induction A generalizing i with
  | nil => simp [cell] at hc
  | cons B A ih =>
    simp only [full, Bool.and_eq_true, Bool.or_eq_true, Bool.not_eq_true', List.all_eq_true] at h
    cases i with
    | zero =>
      simp only [cell, List.getElem?_cons_zero, Option.bind_some] at hc
      simp only [wr, List.getElem?_cons_zero, Option.map_some, Option.getD_some] at hw
      rcases h.1 with h1 | h1
      · rw [hw] at h1; simp at h1
      · have := h1 v (List.mem_of_getElem? hc)
        rintro rfl
        simp at this
    | succ i => exact ih h.2 (by simpa [cell] using hc) (by simpa [wr] using hw)

variable [Add α] [Sub α] [Mul α] [Div α] [Neg α] [CFloat α]

/-- A canonical run determines the run in every memory. -/
theorem transfer {f : Fn} {j : List Ptr} {A A' m : Mem α} {args args' : List (Val α)} {r : Option (Val α)} (hR : R j A m)
    (ha : ERel j args args') (h : f.run A args = some (r, A')) (hf : full A' = true) :
    f.run m args' = some (r, writes m (outs j A')) := by
  unfold Fn.run at h ⊢
  split at h
  · rename_i o ho
    have hE : ERel (j ++ locs m.length f.locals) (args ++ List.replicate f.nregs .undef) (args' ++ List.replicate f.nregs .undef) :=
      List.rel_append (ha.imp fun a b h => VRel.mono h) (replicate_rel _ _)
    have hL : Locals (j ++ locs m.length f.locals) (A ++ fresh f.locals) (m ++ fresh f.locals) A.length m.length := by
      intro i hi
      simp only [List.length_append, fresh, List.length_map] at hi ⊢
      refine ⟨?_, by omega⟩
      rw [← hR.len, List.getElem?_append_right (by omega), Nat.add_sub_cancel_left]
      exact locs_get (by omega)
    obtain ⟨o', h1, h2⟩ := exec_sim f.body (hR.enter f.locals) hL hE ho
    rw [h1]
    have fin : ∀ {A1 m1 : Mem α}, R (j ++ locs m.length f.locals) A1 m1 →
        Frame (j ++ locs m.length f.locals) (A ++ fresh f.locals) (m ++ fresh f.locals) m1 → Same (A ++ fresh f.locals) A1 →
        A1.take A.length = A' → m1.take m.length = writes m (outs j A') := by
      intro A1 m1 g1 g2 g3 e
      obtain ⟨k1, k2, k3⟩ := hR.leave f.locals g3 g1 g2
      rw [e] at k1 k3
      symm
      apply writes_unique _ k2.1
      · intro x hx k v hv
        obtain ⟨i, B, hi, hB, hw, hx2⟩ := mem_outs.mp hx
        have hc : cell A' i k = some v := by simp [cell, hB, ← hx2, hv]
        have hwr : wr A' i = true := by simp [wr, hB, hw]
        obtain ⟨v', hv', hr⟩ := k1.cells i x.1 k v hi hc
        have := full_cell hf hc hwr
        rw [hv']
        cases v <;> simp_all [CRel]
      · intro b o hno
        rw [k2.2 b o]
        rintro ⟨i, q, k, v, c1, c2, c3, c4, c5⟩
        have hs : (cell A' i k).isSome := by rw [← k3.cell, c2]; rfl
        obtain ⟨v', hv'⟩ := Option.isSome_iff_exists.mp hs
        have hw' : wr A' i = true := by rw [← k3.wr]; exact c3
        unfold cell at hv'
        obtain ⟨B, hB, hB2⟩ := Option.bind_eq_some_iff.mp hv'
        refine hno (q, B.cells) (mem_outs.mpr ⟨i, B, c1, hB, ?_, rfl⟩) k ?_ ⟨c4, c5⟩
        · simpa [wr, hB] using hw'
        · exact (List.getElem?_eq_some_iff.mp hB2).1
    cases h2 with
    | next g1 g2 g3 g4 =>
      simp only [Out.leave, Option.some.injEq, Prod.mk.injEq] at h ⊢
      exact ⟨h.1, fin g2 g3 g4 h.2⟩
    | @ret v v' A1 m1 g1 g2 g3 g4 =>
      cases v with
      | none =>
        subst g1
        simp only [Out.leave, Option.some.injEq, Prod.mk.injEq] at h ⊢
        exact ⟨h.1, fin g2 g3 g4 h.2⟩
      | some u =>
        obtain ⟨u', rfl, hu⟩ := g1
        cases u with
        | p b o => simp [Out.leave] at h
        | undef | f _ | i _ | b _ =>
          obtain rfl := hu
          simp only [Out.leave, Option.some.injEq, Prod.mk.injEq] at h ⊢
          exact ⟨h.1, fin g2 g3 g4 h.2⟩
  · simp at h

/-! ## Building the relation -/

/-- a cell list is present in memory from `p` on, indeterminate cells matching anything -/
def Has (m : Mem α) (p : Ptr) (cs : List (Val α)) : Prop :=
  ∀ k v, cs[k]? = some v → ∃ v', cell m p.1 (p.2 + k) = some v' ∧ CRel v v'

omit [Add α] [Sub α] [Mul α] [Div α] [Neg α] [CFloat α] in
theorem Holds.has {m : Mem α} {p : Ptr} {vs : List α} (h : Holds m p vs) : Has m p (vs.map .f) := by
  intro k v hv
  simp only [List.getElem?_map, Option.map_eq_some_iff] at hv
  obtain ⟨x, hx, rfl⟩ := hv
  exact ⟨_, h k x hx, rfl⟩

omit [Add α] [Sub α] [Mul α] [Div α] [Neg α] [CFloat α] in
theorem Room.has {m : Mem α} {p : Ptr} {n : Nat} (h : Room m p n) : Has m p (List.replicate n .undef) := by
  intro k v hv
  rw [List.getElem?_replicate] at hv
  split at hv
  · rename_i hk
    simp only [Option.some.injEq] at hv
    subst hv
    obtain ⟨v', hv'⟩ := Option.isSome_iff_exists.mp (h k hk).1
    exact ⟨v', hv', trivial⟩
  · simp at hv

/-- apart from all regions -/
def ApartAll (p : Ptr) (n : Nat) : List Ptr → Mem α → Prop
  | q :: j, B :: A => Apart p n q B.cells.length ∧ ApartAll p n j A
  | _, _ => True
/-- apart from all writable regions -/
def ApartW (p : Ptr) (n : Nat) : List Ptr → Mem α → Prop
  | q :: j, B :: A => match B.w with
    | true => Apart p n q B.cells.length ∧ ApartW p n j A
    | false => ApartW p n j A
  | _, _ => True

omit [Add α] [Sub α] [Mul α] [Div α] [Neg α] [CFloat α] in
theorem ApartAll.get {p : Ptr} {n : Nat} {j : List Ptr} : ∀ {A : Mem α}, ApartAll p n j A → ∀ {i q k v}, j[i]? = some q → cell A i k = some v →
    p.1 ≠ q.1 ∨ p.2 + n ≤ q.2 + k ∨ q.2 + k < p.2 := by
  induction j with
  | nil => intro A _ i q k v h; simp at h
  | cons q0 j ih =>
    intro A h i q k v hq hc
    cases A with
    | nil => simp [cell] at hc
    | cons B A =>
      cases i with
      | zero =>
        simp only [List.getElem?_cons_zero, Option.some.injEq] at hq
        subst hq
        simp only [cell, List.getElem?_cons_zero, Option.bind_some] at hc
        have := (List.getElem?_eq_some_iff.mp hc).1
        have h1 := h.1
        unfold Apart at h1
        omega
      | succ i => exact ih h.2 (by simpa using hq) (by simpa [cell] using hc)

omit [Add α] [Sub α] [Mul α] [Div α] [Neg α] [CFloat α] in
theorem ApartW.get {p : Ptr} {n : Nat} {j : List Ptr} : ∀ {A : Mem α}, ApartW p n j A → ∀ {i q k v}, j[i]? = some q → cell A i k = some v →
    wr A i = true → p.1 ≠ q.1 ∨ p.2 + n ≤ q.2 + k ∨ q.2 + k < p.2 := by
  induction j with
  | nil => intro A _ i q k v h; simp at h
  | cons q0 j ih =>
    intro A h i q k v hq hc hw
    cases A with
    | nil => simp [cell] at hc
    | cons B A =>
      unfold ApartW at h
      cases i with
      | zero =>
        simp only [List.getElem?_cons_zero, Option.some.injEq] at hq
        subst hq
        simp only [cell, List.getElem?_cons_zero, Option.bind_some] at hc
        have := (List.getElem?_eq_some_iff.mp hc).1
        have hB : B.w = true := by simpa [wr] using hw
        rw [hB] at h
        have h1 := h.1
        unfold Apart at h1
        omega
      | succ i =>
        refine ih ?_ (by simpa using hq) (by simpa [cell] using hc) (by simpa [wr] using hw)
        cases hB : B.w <;> rw [hB] at h
        · exact h
        · exact h.2

omit [Add α] [Sub α] [Mul α] [Div α] [Neg α] [CFloat α] in
theorem R.nil (m : Mem α) : R [] [] m := ⟨rfl, by simp, by simp, by simp⟩

omit [Add α] [Sub α] [Mul α] [Div α] [Neg α] [CFloat α] in
/-- add a region that is only read -/
theorem R.consR {j : List Ptr} {A m : Mem α} {p : Ptr} {cs : List (Val α)} (h : Has m p cs) (ha : ApartW p cs.length j A) (hR : R j A m) :
    R (p :: j) (⟨false, cs⟩ :: A) m := by
  refine ⟨by simp [hR.len], ?_, ?_, ?_⟩
  · rintro (_ | i) q k v hq hc
    · simp only [List.getElem?_cons_zero, Option.some.injEq] at hq
      subst hq
      exact h k v (by simpa [cell] using hc)
    · exact hR.cells i q k v (by simpa using hq) (by simpa [cell] using hc)
  · rintro (_ | i) q k v hq hc hw
    · simp [wr] at hw
    · exact hR.writable i q k v (by simpa using hq) (by simpa [cell] using hc) (by simpa [wr] using hw)
  · rintro (_ | i) q k v (_ | i') q' k' v' hq hc hq' hc' hw e1 e2
    · simp [wr] at hw
    · simp [wr] at hw
    · simp only [List.getElem?_cons_zero, Option.some.injEq] at hq'
      subst hq'
      have hk : k' < cs.length := by
        simp only [cell, List.getElem?_cons_zero, Option.bind_some] at hc'
        exact (List.getElem?_eq_some_iff.mp hc').1
      have := ha.get (i := i) (q := q) (k := k) (v := v) (by simpa using hq) (by simpa [cell] using hc) (by simpa [wr] using hw)
      omega
    · obtain ⟨rfl, rfl⟩ := hR.sep i q k v i' q' k' v' (by simpa using hq) (by simpa [cell] using hc) (by simpa using hq') (by simpa [cell] using hc')
        (by simpa [wr] using hw) e1 e2
      exact ⟨rfl, rfl⟩

omit [Add α] [Sub α] [Mul α] [Div α] [Neg α] [CFloat α] in
/-- add a region that may be written -/
theorem R.consW {j : List Ptr} {A m : Mem α} {p : Ptr} {cs : List (Val α)} (h : Has m p cs) (hr : Room m p cs.length)
    (ha : ApartAll p cs.length j A) (hR : R j A m) : R (p :: j) (⟨true, cs⟩ :: A) m := by
  have hlt : ∀ k v, cell (⟨true, cs⟩ :: A) 0 k = some v → k < cs.length := by
    intro k v hc
    simp only [cell, List.getElem?_cons_zero, Option.bind_some] at hc
    exact (List.getElem?_eq_some_iff.mp hc).1
  refine ⟨by simp [hR.len], ?_, ?_, ?_⟩
  · rintro (_ | i) q k v hq hc
    · simp only [List.getElem?_cons_zero, Option.some.injEq] at hq
      subst hq
      exact h k v (by simpa [cell] using hc)
    · exact hR.cells i q k v (by simpa using hq) (by simpa [cell] using hc)
  · rintro (_ | i) q k v hq hc hw
    · simp only [List.getElem?_cons_zero, Option.some.injEq] at hq
      subst hq
      exact (hr k (hlt k v hc)).2
    · exact hR.writable i q k v (by simpa using hq) (by simpa [cell] using hc) (by simpa [wr] using hw)
  · rintro (_ | i) q k v (_ | i') q' k' v' hq hc hq' hc' hw e1 e2
    · simp only [List.getElem?_cons_zero, Option.some.injEq] at hq hq'
      subst hq
      subst hq'
      exact ⟨rfl, by omega⟩
    · simp only [List.getElem?_cons_zero, Option.some.injEq] at hq
      subst hq
      have hk := hlt k v hc
      have := ha.get (i := i') (q := q') (k := k') (v := v') (by simpa using hq') (by simpa [cell] using hc')
      omega
    · simp only [List.getElem?_cons_zero, Option.some.injEq] at hq'
      subst hq'
      have hk := hlt k' v' hc'
      have := ha.get (i := i) (q := q) (k := k) (v := v) (by simpa using hq) (by simpa [cell] using hc)
      omega
    · obtain ⟨rfl, rfl⟩ := hR.sep i q k v i' q' k' v' (by simpa using hq) (by simpa [cell] using hc) (by simpa using hq') (by simpa [cell] using hc')
        (by simpa [wr] using hw) e1 e2
      exact ⟨rfl, rfl⟩

/-- `transfer` in terms of the decision-tree run -/
theorem transferT {f : Fn} {j : List Ptr} {A m : Mem α} {args args' : List (Val α)} {r : Option (Val α)} {A' : Mem α} (hR : R j A m)
    (ha : ERel j args args') {t : DT (Option (Option (Val α) × Mem α))} (ht : f.runT A args = t) (h : t.val = some (r, A'))
    (hf : full A' = true) : f.run m args' = some (r, writes m (outs j A')) :=
  transfer hR ha (by rw [← runT_val, ht, h]) hf

/-- `transferT` with the written regions listed -/
theorem transferL {f : Fn} {j : List Ptr} {A m : Mem α} {args args' : List (Val α)} {r : Option (Val α)} {A' : Mem α} (hR : R j A m)
    (ha : ERel j args args') {t : DT (Option (Option (Val α) × Mem α))} (ht : f.runT A args = t) (h : t.val = some (r, A'))
    (hf : full A' = true) {l : List (Ptr × List (Val α))} (hl : outs j A' = l) : f.run m args' = some (r, writes m l) :=
  hl ▸ transferT hR ha ht h hf

omit [Add α] [Sub α] [Mul α] [Div α] [Neg α] [CFloat α]

theorem DT.val_done {β : Type} (b : β) : (DT.done b).val = b := rfl
theorem DT.val_map_eq {β γ : Type} {x : DT β} {k : β → γ} {b : β} {c : γ} (h : x.val = b) (hc : k b = c) : (x.map k).val = c := by
  rw [DT.val_map, h, hc]

theorem ApartW.nil {p : Ptr} {n : Nat} : ApartW p n [] ([] : Mem α) := trivial
theorem ApartW.cons {p q : Ptr} {n : Nat} {j : List Ptr} {cs : List (Val α)} {A : Mem α} (h : Apart p n q cs.length) (t : ApartW p n j A) :
    ApartW p n (q :: j) (⟨true, cs⟩ :: A) := ⟨h, t⟩
theorem ApartW.skip {p q : Ptr} {n : Nat} {j : List Ptr} {cs : List (Val α)} {A : Mem α} (t : ApartW p n j A) :
    ApartW p n (q :: j) (⟨false, cs⟩ :: A) := t
theorem ApartAll.nil {p : Ptr} {n : Nat} : ApartAll p n [] ([] : Mem α) := trivial
theorem ApartAll.cons {p q : Ptr} {n : Nat} {j : List Ptr} {B : Block α} {A : Mem α} (h : Apart p n q B.cells.length) (t : ApartAll p n j A) :
    ApartAll p n (q :: j) (B :: A) := ⟨h, t⟩

theorem ERel.nil {j : List Ptr} : ERel j ([] : List (Val α)) [] := List.Forall₂.nil
theorem ERel.p {j : List Ptr} {i : Nat} {q : Ptr} {as bs : List (Val α)} (h : j[i]? = some q) (t : ERel j as bs) :
    ERel j (.p i 0 :: as) (q.val :: bs) := List.Forall₂.cons ⟨q, h, rfl⟩ t
theorem ERel.f {j : List Ptr} {x : α} {as bs : List (Val α)} (t : ERel j as bs) : ERel j (.f x :: as) (.f x :: bs) := List.Forall₂.cons rfl t
theorem ERel.i {j : List Ptr} {x : Int} {as bs : List (Val α)} (t : ERel j as bs) : ERel j (.i x :: as) (.i x :: bs) := List.Forall₂.cons rfl t
theorem ERel.b {j : List Ptr} {x : Bool} {as bs : List (Val α)} (t : ERel j as bs) : ERel j (.b x :: as) (.b x :: bs) := List.Forall₂.cons rfl t

theorem R.addR {j : List Ptr} {A m : Mem α} {p : Ptr} {cs : List (Val α)} (hR : R j A m) (h : Has m p cs) (ha : ApartW p cs.length j A) :
    R (p :: j) (⟨false, cs⟩ :: A) m := R.consR h ha hR
theorem R.addW {j : List Ptr} {A m : Mem α} {p : Ptr} {cs : List (Val α)} (hR : R j A m) (h : Has m p cs) (hr : Room m p cs.length)
    (ha : ApartAll p cs.length j A) : R (p :: j) (⟨true, cs⟩ :: A) m := R.consW h hr ha hR

/-- what a region holds is unique -/
theorem Holds.inj {m : Mem α} {p : Ptr} {vs ws : List α} (h : Holds m p vs) (h' : Holds m p ws) (hl : vs.length = ws.length) : vs = ws := by
  apply List.ext_getElem hl
  intro k h1 h2
  have e1 := h k _ (List.getElem?_eq_getElem h1)
  have e2 := h' k _ (List.getElem?_eq_getElem h2)
  rw [e1] at e2
  simpa using e2

/-- an object holding exactly `vs` -/
theorem Holds.block {m : Mem α} {b : Nat} {w : Bool} {vs : List α} (h : m[b]? = some ⟨w, vs.map .f⟩) : Holds m (b, 0) vs := by
  intro k x hx
  simp [cell, h, hx]
/-- a writable object -/
theorem Room.block {m : Mem α} {b n : Nat} {cs : List (Val α)} (h : m[b]? = some ⟨true, cs⟩) (hn : cs.length = n) : Room m (b, 0) n := by
  subst hn
  intro k hk
  simp [cell, wr, h, hk]

/-- closes `a = b` by `Eq.refl a`, leaving the check to the kernel -/
elab "kernel_rfl" : tactic => Lean.Elab.Tactic.liftMetaTactic fun g => do
  let t ← Lean.instantiateMVars (← g.getType)
  let some (ty, lhs, _) := t.eq? | Lean.throwError "kernel_rfl: not an equality"
  let u ← Lean.Meta.getLevel ty
  g.assign (Lean.mkApp2 (Lean.mkConst ``Eq.refl [u]) ty lhs)
  return []

end Cglm.CMem
