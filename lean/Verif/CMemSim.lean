import Verif.CMem
import Mathlib.Data.List.Forall2

/-!
# Transfer: one canonical run speaks for every memory

A run of the interpreter on a small canonical memory (one object per argument region, inputs read-only, outputs and
locals possibly uninitialised) determines the run on any memory in which the regions lie anywhere, as long as written
regions do not overlap other regions.  Regions that are only read may overlap each other.
-/

namespace Cglm.CMem

variable {α : Type}

/-- The cell at `blk`, `off`, if there is one. -/
def cell (m : Mem α) (blk off : Nat) : Option (Val α) := m[blk]?.bind fun B => B.cells[off]?
/-- Whether object `blk` exists and is writable. -/
def wr (m : Mem α) (blk : Nat) : Bool := (m[blk]?.map Block.w).getD false

theorem load_eq_some {m : Mem α} {b o : Nat} {v : Val α} : load m b o = some v ↔ cell m b o = some v ∧ v ≠ .undef := by
  unfold load cell
  rcases m[b]? with _ | B
  · simp
  · simp only [Option.bind_some]
    rcases B.cells[o]? with _ | (_ | _ | _ | _ | _) <;> simp <;> rintro rfl <;> simp

/-- objects keep their number, size and writability -/
def Same (m m' : Mem α) : Prop := m.map (fun B => (B.w, B.cells.length)) = m'.map (fun B => (B.w, B.cells.length))

theorem Same.length {m m' : Mem α} (h : Same m m') : m.length = m'.length := by
  simpa using congrArg List.length h

theorem Same.get {m m' : Mem α} (h : Same m m') (b : Nat) :
    m[b]?.map (fun B => (B.w, B.cells.length)) = m'[b]?.map (fun B => (B.w, B.cells.length)) := by
  have := congrArg (fun l => l[b]?) h
  simpa using this

theorem Same.wr {m m' : Mem α} (h : Same m m') (b : Nat) : wr m b = wr m' b := by
  have := h.get b
  unfold CMem.wr
  revert this
  rcases m[b]? with _ | B <;> rcases m'[b]? with _ | B' <;> simp +contextual

theorem Same.cell {m m' : Mem α} (h : Same m m') (b o : Nat) : (cell m b o).isSome = (cell m' b o).isSome := by
  have := h.get b
  unfold CMem.cell
  revert this
  rcases m[b]? with _ | B <;> rcases m'[b]? with _ | B' <;> simp +contextual
  intro _ h
  rw [Bool.eq_iff_iff]
  simp [h]

theorem Same.trans {m m' m'' : Mem α} (h : Same m m') (h' : Same m' m'') : Same m m'' := Eq.trans h h'
theorem Same.symm {m m' : Mem α} (h : Same m m') : Same m' m := Eq.symm h
theorem Same.refl (m : Mem α) : Same m m := rfl

theorem Same.take {m m' : Mem α} (h : Same m m') (n : Nat) : Same (m.take n) (m'.take n) := by
  have := congrArg (List.take n) h
  simpa [Same, List.map_take] using this

/-- two memories with the same objects and cells are equal -/
theorem Same.ext {m m' : Mem α} (h : Same m m') (hc : ∀ b o, CMem.cell m b o = CMem.cell m' b o) : m = m' := by
  apply List.ext_getElem?
  intro b
  have h1 := h.get b
  have h2 := hc b
  unfold CMem.cell at h2
  rcases e : m[b]? with _ | ⟨w, c⟩ <;> rcases e' : m'[b]? with _ | ⟨w', c'⟩ <;> rw [e, e'] at h1 h2 <;> simp at h1 h2 ⊢
  exact ⟨h1.1, List.ext_getElem? h2⟩

theorem cell_lt {m : Mem α} {b o : Nat} {v : Val α} (h : cell m b o = some v) : b < m.length := by
  unfold cell at h
  rcases e : m[b]? with _ | B
  · rw [e] at h; simp at h
  · exact (List.getElem?_eq_some_iff.mp e).1

theorem put1_spec {m m' : Mem α} {b o : Nat} {v : Val α} (h : put1 m b o v = some m') :
    wr m b = true ∧ (cell m b o).isSome ∧ Same m m' ∧ ∀ b' o', cell m' b' o' = if b' = b ∧ o' = o then some v else cell m b' o' := by
  unfold put1 at h
  rcases e : m[b]? with _ | ⟨w, c⟩ <;> rw [e] at h
  · simp at h
  cases w
  · simp at h
  rcases e2 : c[o]? with _ | u <;> simp only [e2] at h
  · simp at h
  simp only [Option.some.injEq] at h
  subst h
  obtain ⟨hb, e⟩ := List.getElem?_eq_some_iff.mp e
  obtain ⟨ho, e2⟩ := List.getElem?_eq_some_iff.mp e2
  refine ⟨by simp [wr, hb, e], by simp [cell, hb, e, ho], ?_, ?_⟩
  · apply List.ext_getElem?
    intro i
    simp only [List.getElem?_map, List.getElem?_set]
    split
    · subst_vars; simp [hb, e]
    · rfl
  · intro b' o'
    simp only [cell, List.getElem?_set]
    by_cases h1 : b = b'
    · subst h1
      simp only [hb, if_true, e, List.getElem?_set, Option.bind_some, List.getElem?_eq_getElem hb]
      by_cases h2 : o = o'
      · subst h2; simp [ho]
      · have : ¬ (o' = o) := fun h => h2 h.symm
        simp [h2, this]
    · have : ¬ (b' = b) := fun h => h1 h.symm
      simp [h1, this]

theorem put1_isSome {m : Mem α} {b o : Nat} (v : Val α) (hw : wr m b = true) (hc : (cell m b o).isSome) : ∃ m', put1 m b o v = some m' := by
  unfold put1
  unfold wr at hw
  unfold cell at hc
  rcases e : m[b]? with _ | ⟨w, c⟩ <;> rw [e] at hw hc
  · simp at hw
  simp at hw hc
  subst hw
  simp [hc]

/-! ## Relating two memories -/

/-- a value and its image: pointers move with their region, everything else is kept -/
def VRel (j : List (Nat × Nat)) : Val α → Val α → Prop
  | .p i o, v => ∃ q, j[i]? = some q ∧ v = .p q.1 (q.2 + o)
  | u, v => v = u

/-- an indeterminate cell may be anything on the other side -/
def CRel : Val α → Val α → Prop
  | .undef, _ => True
  | .p _ _, _ => False
  | u, v => v = u

/-- Region `i` of `A` lies at `j[i]` in `m`; written regions do not overlap others. -/
structure R (j : List (Nat × Nat)) (A m : Mem α) : Prop where
  len : j.length = A.length
  cells : ∀ i q k v, j[i]? = some q → cell A i k = some v → ∃ v', cell m q.1 (q.2 + k) = some v' ∧ CRel v v'
  writable : ∀ i q k v, j[i]? = some q → cell A i k = some v → wr A i = true → wr m q.1 = true
  sep : ∀ i q k v i' q' k' v', j[i]? = some q → cell A i k = some v → j[i']? = some q' → cell A i' k' = some v' → wr A i = true →
    q.1 = q'.1 → q.2 + k = q'.2 + k' → i = i' ∧ k = k'

/-- the cells of `m` that the image of a writable region covers -/
def Covered (j : List (Nat × Nat)) (A : Mem α) (b o : Nat) : Prop :=
  ∃ i q k v, j[i]? = some q ∧ cell A i k = some v ∧ wr A i = true ∧ b = q.1 ∧ o = q.2 + k

/-- nothing outside the written regions changes, and no object is resized -/
def Frame (j : List (Nat × Nat)) (A m m' : Mem α) : Prop :=
  Same m m' ∧ ∀ b o, ¬ Covered j A b o → cell m' b o = cell m b o

theorem Covered.same {j : List (Nat × Nat)} {A A' : Mem α} (h : Same A A') {b o : Nat} : Covered j A b o ↔ Covered j A' b o := by
  constructor
  · rintro ⟨i, q, k, v, h1, h2, h3, h4, h5⟩
    have : (cell A' i k).isSome := by rw [← h.cell, h2]; rfl
    obtain ⟨v', hv'⟩ := Option.isSome_iff_exists.mp this
    exact ⟨i, q, k, v', h1, hv', by rw [← h.wr]; exact h3, h4, h5⟩
  · rintro ⟨i, q, k, v, h1, h2, h3, h4, h5⟩
    have : (cell A i k).isSome := by rw [h.cell, h2]; rfl
    obtain ⟨v', hv'⟩ := Option.isSome_iff_exists.mp this
    exact ⟨i, q, k, v', h1, hv', by rw [h.wr]; exact h3, h4, h5⟩

theorem Frame.refl (j : List (Nat × Nat)) (A m : Mem α) : Frame j A m m := ⟨rfl, fun _ _ _ => rfl⟩
theorem Frame.trans {j : List (Nat × Nat)} {A A' m m' m'' : Mem α} (hs : Same A A') (h : Frame j A m m') (h' : Frame j A' m' m'') :
    Frame j A m m'' :=
  ⟨h.1.trans h'.1, fun b o hc => by rw [h'.2 b o (fun c => hc ((Covered.same hs).mpr c)), h.2 b o hc]⟩

theorem R.load {j : List (Nat × Nat)} {A m : Mem α} (h : R j A m) {i o : Nat} {q : Nat × Nat} {v : Val α} (hq : j[i]? = some q)
    (hl : load A i o = some v) : CMem.load m q.1 (q.2 + o) = some v ∧ VRel j v v := by
  obtain ⟨hc, hu⟩ := load_eq_some.mp hl
  obtain ⟨v', hv', hr⟩ := h.cells i q o v hq hc
  rw [load_eq_some]
  cases v <;> simp_all [CRel, VRel]

theorem R.put1 {j : List (Nat × Nat)} {A A' m : Mem α} (h : R j A m) {i o : Nat} {q : Nat × Nat} {v : Val α} (hq : j[i]? = some q)
    (hv : ∀ b o, v ≠ .p b o) (hs : put1 A i o v = some A') :
    ∃ m', CMem.put1 m q.1 (q.2 + o) v = some m' ∧ R j A' m' ∧ Frame j A m m' ∧ Same A A' := by
  obtain ⟨hw, hc, hsame, hcell⟩ := put1_spec hs
  obtain ⟨u, hu⟩ := Option.isSome_iff_exists.mp hc
  obtain ⟨u', hu', -⟩ := h.cells i q o u hq hu
  obtain ⟨m', hm'⟩ := put1_isSome v (h.writable i q o u hq hu hw) (by rw [hu']; rfl : (cell m q.1 (q.2 + o)).isSome)
  obtain ⟨-, -, hsame', hcell'⟩ := put1_spec hm'
  have back : ∀ i' k' v', cell A' i' k' = some v' → ∃ u, cell A i' k' = some u := by
    intro i' k' v' hv'
    have : (cell A i' k').isSome := by rw [hsame.cell, hv']; rfl
    exact Option.isSome_iff_exists.mp this
  refine ⟨m', hm', ⟨by rw [h.len, hsame.length], ?_, ?_, ?_⟩, ⟨hsame', ?_⟩, hsame⟩
  · intro i' q' k' v' hq' hv'
    rw [hcell'] 
    rw [hcell] at hv'
    by_cases e : i' = i ∧ k' = o
    · obtain ⟨rfl, rfl⟩ := e
      rw [hq] at hq'; cases hq'
      simp only [and_self, if_true, Option.some.injEq] at hv' ⊢
      subst hv'
      refine ⟨v, rfl, ?_⟩
      cases v <;> simp [CRel] <;> exact (hv _ _ rfl)
    · rw [if_neg e] at hv'
      rw [if_neg]
      · exact h.cells i' q' k' v' hq' hv'
      · rintro ⟨e1, e2⟩
        obtain ⟨e3, e4⟩ := h.sep i q o u i' q' k' v' hq hu hq' hv' hw e1.symm e2.symm
        exact e ⟨e3.symm, e4.symm⟩
  · intro i' q' k' v' hq' hv' hw'
    obtain ⟨w, hw''⟩ := back _ _ _ hv'
    rw [← hsame'.wr]
    exact h.writable i' q' k' w hq' hw'' (by rw [hsame.wr]; exact hw')
  · intro i1 q1 k1 v1 i2 q2 k2 v2 h1 h2 h3 h4 h5
    obtain ⟨w1, hw1⟩ := back _ _ _ h2
    obtain ⟨w2, hw2⟩ := back _ _ _ h4
    exact h.sep i1 q1 k1 w1 i2 q2 k2 w2 h1 hw1 h3 hw2 (by rw [hsame.wr]; exact h5)
  · intro b o' hn
    rw [hcell']
    rw [if_neg]
    rintro ⟨rfl, rfl⟩
    exact hn ⟨i, q, o, u, hq, hu, hw, rfl, rfl⟩

/-- environments related pointwise -/
def ERel (j : List (Nat × Nat)) (e e' : List (Val α)) : Prop := List.Forall₂ (VRel j) e e'

theorem VRel.ne_undef {j : List (Nat × Nat)} {v v' : Val α} (h : VRel j v v') (hv : v ≠ .undef) : v' ≠ .undef := by
  cases v <;> simp_all [VRel]
  obtain ⟨a, b, -, rfl⟩ := h
  simp

theorem Forall₂.get {β γ : Type} {P : β → γ → Prop} {l : List β} {l' : List γ} (h : List.Forall₂ P l l') (i : Nat) :
    (l[i]? = none ∧ l'[i]? = none) ∨ ∃ a b, l[i]? = some a ∧ l'[i]? = some b ∧ P a b := by
  induction h generalizing i with
  | nil => left; simp
  | cons hab _ ih =>
    cases i with
    | zero => right; exact ⟨_, _, rfl, rfl, hab⟩
    | succ n => simpa using ih n

theorem Forall₂.set {β γ : Type} {P : β → γ → Prop} {l : List β} {l' : List γ} (h : List.Forall₂ P l l') (i : Nat) {a : β} {b : γ} (hab : P a b) :
    List.Forall₂ P (l.set i a) (l'.set i b) := by
  induction h generalizing i with
  | nil => simp
  | cons h1 h2 ih =>
    cases i with
    | zero => exact .cons hab h2
    | succ n => exact .cons h1 (ih n)

variable [Add α] [Sub α] [Mul α] [Div α] [Neg α] [CFloat α]

/-- local arrays of the running call correspond -/
def Locals (j : List (Nat × Nat)) (A m : Mem α) (base base' : Nat) : Prop :=
  ∀ i, base + i < A.length → j[base + i]? = some (base' + i, 0) ∧ base' + i < m.length

/-- expressions have related values -/
theorem eval_sim {j : List (Nat × Nat)} {A m : Mem α} (hR : R j A m) {base base' : Nat} (hb : Locals j A m base base')
    {env env' : List (Val α)} (he : ERel j env env') :
    ∀ (e : Expr) (v : Val α), e.eval base env A = some v → ∃ v', e.eval base' env' m = some v' ∧ VRel j v v' := by
  intro e
  induction e with
  | reg i =>
    intro v hv
    unfold Expr.eval at hv ⊢
    rcases Forall₂.get he i with ⟨h1, h2⟩ | ⟨a, b, h1, h2, hab⟩
    · rw [h1] at hv; simp at hv
    · rw [h1] at hv
      rw [h2]
      cases a <;> simp at hv <;> subst hv
      all_goals first
        | (obtain rfl := hab; exact ⟨_, rfl, rfl⟩)
        | (obtain ⟨q, hq, rfl⟩ := hab; exact ⟨_, rfl, q, hq, rfl⟩)
  | loc i =>
    intro v hv
    unfold Expr.eval at hv ⊢
    split at hv
    · rename_i h
      obtain ⟨h1, h2⟩ := hb i h
      simp only [Option.some.injEq] at hv
      subst hv
      rw [if_pos h2]
      exact ⟨_, rfl, _, h1, rfl⟩
    · simp at hv
  | flit q => intro v hv; simp only [Expr.eval, Option.some.injEq] at hv ⊢; subst hv; exact ⟨_, rfl, rfl⟩
  | ilit q => intro v hv; simp only [Expr.eval, Option.some.injEq] at hv ⊢; subst hv; exact ⟨_, rfl, rfl⟩
  | blit q => intro v hv; simp only [Expr.eval, Option.some.injEq] at hv ⊢; subst hv; exact ⟨_, rfl, rfl⟩
  | off p n ih =>
    intro v hv
    unfold Expr.eval at hv ⊢
    split at hv
    · rename_i k o hp
      obtain ⟨v', h1, q, hq, rfl⟩ := ih _ hp
      simp only [Option.some.injEq] at hv
      subst hv
      rw [h1]
      exact ⟨_, rfl, q, hq, by simp only [Nat.add_assoc]⟩
    · simp at hv
  | load p ih =>
    intro v hv
    unfold Expr.eval at hv ⊢
    split at hv
    · rename_i k o hp
      obtain ⟨v', h1, q, hq, rfl⟩ := ih _ hp
      obtain ⟨h2, h3⟩ := hR.load hq hv
      rw [h1]
      exact ⟨_, h2, h3⟩
    · simp at hv
  | f1 o a ih =>
    intro v hv
    unfold Expr.eval at hv ⊢
    split at hv
    · rename_i x hx
      obtain ⟨v', h1, rfl⟩ := ih _ hx
      simp only [Option.some.injEq] at hv
      subst hv
      rw [h1]
      exact ⟨_, rfl, rfl⟩
    · simp at hv
  | fp o a ih =>
    intro v hv
    unfold Expr.eval at hv ⊢
    split at hv
    · rename_i x hx
      obtain ⟨v', h1, rfl⟩ := ih _ hx
      simp only [Option.some.injEq] at hv
      subst hv
      rw [h1]
      exact ⟨_, rfl, rfl⟩
    · simp at hv
  | not a ih =>
    intro v hv
    unfold Expr.eval at hv ⊢
    split at hv
    · rename_i x hx
      obtain ⟨v', h1, rfl⟩ := ih _ hx
      simp only [Option.some.injEq] at hv
      subst hv
      rw [h1]
      exact ⟨_, rfl, rfl⟩
    · simp at hv
  | b2i a ih =>
    intro v hv
    unfold Expr.eval at hv ⊢
    split at hv
    · rename_i x hx
      obtain ⟨v', h1, rfl⟩ := ih _ hx
      simp only [Option.some.injEq] at hv
      subst hv
      rw [h1]
      exact ⟨_, rfl, rfl⟩
    · simp at hv
  | ofInt a ih =>
    intro v hv
    unfold Expr.eval at hv ⊢
    split at hv
    · rename_i x hx
      obtain ⟨v', h1, rfl⟩ := ih _ hx
      simp only [Option.some.injEq] at hv
      subst hv
      rw [h1]
      exact ⟨_, rfl, rfl⟩
    · simp at hv
  | f2 o a b iha ihb =>
    intro v hv
    unfold Expr.eval at hv ⊢
    split at hv
    · rename_i x hx
      obtain ⟨x', hx', rfl⟩ := iha _ hx
      split at hv
      · rename_i y hy
        obtain ⟨y', hy', rfl⟩ := ihb _ hy
        simp only [Option.some.injEq] at hv
        subst hv
        rw [hx', hy']
        exact ⟨_, rfl, rfl⟩
      · simp at hv
    · simp at hv
  | fc o a b iha ihb =>
    intro v hv
    unfold Expr.eval at hv ⊢
    split at hv
    · rename_i x hx
      obtain ⟨x', hx', rfl⟩ := iha _ hx
      split at hv
      · rename_i y hy
        obtain ⟨y', hy', rfl⟩ := ihb _ hy
        simp only [Option.some.injEq] at hv
        subst hv
        rw [hx', hy']
        exact ⟨_, rfl, rfl⟩
      · simp at hv
    · simp at hv
  | ic o a b iha ihb =>
    intro v hv
    unfold Expr.eval at hv ⊢
    split at hv
    · rename_i x hx
      obtain ⟨x', hx', rfl⟩ := iha _ hx
      split at hv
      · rename_i y hy
        obtain ⟨y', hy', rfl⟩ := ihb _ hy
        simp only [Option.some.injEq] at hv
        subst hv
        rw [hx', hy']
        exact ⟨_, rfl, rfl⟩
      · simp at hv
    · simp at hv
  | i2 o a b iha ihb =>
    intro v hv
    unfold Expr.eval at hv ⊢
    split at hv
    · rename_i x hx
      obtain ⟨x', hx', rfl⟩ := iha _ hx
      split at hv
      · rename_i y hy
        obtain ⟨y', hy', rfl⟩ := ihb _ hy
        simp only [Option.some.injEq] at hv
        subst hv
        rw [hx', hy']
        exact ⟨_, rfl, rfl⟩
      · simp at hv
    · simp at hv
  | and a b iha ihb =>
    intro v hv
    unfold Expr.eval at hv ⊢
    split at hv
    · rename_i x hx
      obtain ⟨x', hx', rfl⟩ := iha _ hx
      split at hv
      · rename_i y hy
        obtain ⟨y', hy', rfl⟩ := ihb _ hy
        simp only [Option.some.injEq] at hv
        subst hv
        rw [hx', hy']
        exact ⟨_, rfl, rfl⟩
      · simp at hv
    · simp at hv
  | or a b iha ihb =>
    intro v hv
    unfold Expr.eval at hv ⊢
    split at hv
    · rename_i x hx
      obtain ⟨x', hx', rfl⟩ := iha _ hx
      split at hv
      · rename_i y hy
        obtain ⟨y', hy', rfl⟩ := ihb _ hy
        simp only [Option.some.injEq] at hv
        subst hv
        rw [hx', hy']
        exact ⟨_, rfl, rfl⟩
      · simp at hv
    · simp at hv
  | ite c a b ihc iha ihb =>
    intro v hv
    unfold Expr.eval at hv ⊢
    split at hv
    · rename_i z hz
      obtain ⟨z', hz', rfl⟩ := ihc _ hz
      rw [hz']
      split at hv
      all_goals first
        | (rename_i x hx
           obtain ⟨x', hx', rfl⟩ := iha _ hx
           rw [hx']
           split at hv
           · rename_i y hy
             obtain ⟨y', hy', rfl⟩ := ihb _ hy
             simp only [Option.some.injEq] at hv
             subst hv
             rw [hy']
             exact ⟨_, rfl, rfl⟩
           · simp at hv)
        | simp at hv
    · simp at hv

theorem evalArgs_sim {j : List (Nat × Nat)} {A m : Mem α} (hR : R j A m) {base base' : Nat} (hb : Locals j A m base base')
    {env env' : List (Val α)} (he : ERel j env env') :
    ∀ (es : List Expr) (vs : List (Val α)), evalArgs base env A es = some vs → ∃ vs', evalArgs base' env' m es = some vs' ∧ ERel j vs vs' := by
  intro es
  induction es with
  | nil => intro vs h; simp only [evalArgs, Option.some.injEq] at h ⊢; subst h; exact ⟨_, rfl, List.Forall₂.nil⟩
  | cons e es ih =>
    intro vs h
    unfold evalArgs at h ⊢
    split at h
    · rename_i v hv
      obtain ⟨v', h1, h2⟩ := eval_sim hR hb he e v hv
      split at h
      · rename_i ws hws
        obtain ⟨ws', h3, h4⟩ := ih _ hws
        simp only [Option.some.injEq] at h
        subst h
        rw [h1, h3]
        exact ⟨_, rfl, List.Forall₂.cons h2 h4⟩
      · simp at h
    · simp at h

/-- the images of the locals of a call -/
def locs (N : Nat) (L : List Nat) : List (Nat × Nat) := (List.range L.length).map fun t => (N + t, 0)

theorem locs_length (N : Nat) (L : List Nat) : (locs N L).length = L.length := by simp [locs]
theorem locs_get {N : Nat} {L : List Nat} {t : Nat} (h : t < L.length) : (locs N L)[t]? = some (N + t, 0) := by
  simp [locs, h]
theorem locs_get' {N : Nat} {L : List Nat} {t : Nat} {q : Nat × Nat} (h : (locs N L)[t]? = some q) : q = (N + t, 0) ∧ t < L.length := by
  have ht : t < L.length := by
    have := (List.getElem?_eq_some_iff.mp h).1
    rwa [locs_length] at this
  rw [locs_get ht] at h
  exact ⟨(Option.some.inj h).symm, ht⟩

omit [Add α] [Sub α] [Mul α] [Div α] [Neg α] [CFloat α] in
theorem cell_append_left {m m' : Mem α} {b o : Nat} (h : b < m.length) : cell (m ++ m') b o = cell m b o := by
  simp [cell, List.getElem?_append_left h]
omit [Add α] [Sub α] [Mul α] [Div α] [Neg α] [CFloat α] in
theorem cell_append_right {m m' : Mem α} {b o : Nat} : cell (m ++ m') (m.length + b) o = cell m' b o := by
  unfold cell
  rw [List.getElem?_append_right (by omega), Nat.add_sub_cancel_left]
omit [Add α] [Sub α] [Mul α] [Div α] [Neg α] [CFloat α] in
theorem wr_append_left {m m' : Mem α} {b : Nat} (h : b < m.length) : wr (m ++ m') b = wr m b := by
  simp [wr, List.getElem?_append_left h]
omit [Add α] [Sub α] [Mul α] [Div α] [Neg α] [CFloat α] in
theorem wr_append_right {m m' : Mem α} {b : Nat} : wr (m ++ m') (m.length + b) = wr m' b := by
  unfold wr
  rw [List.getElem?_append_right (by omega), Nat.add_sub_cancel_left]
omit [Add α] [Sub α] [Mul α] [Div α] [Neg α] [CFloat α] in
theorem cell_fresh {L : List Nat} {b o : Nat} {v : Val α} (h : cell (fresh L) b o = some v) : v = .undef := by
  unfold cell fresh at h
  simp only [List.getElem?_map, Option.bind_map] at h
  obtain ⟨n, -, h⟩ := Option.bind_eq_some_iff.mp h
  simp only [Function.comp_apply, List.getElem?_replicate] at h
  split at h <;> simp_all
omit [Add α] [Sub α] [Mul α] [Div α] [Neg α] [CFloat α] in
theorem cell_take {m : Mem α} {n b o : Nat} : cell (m.take n) b o = if b < n then cell m b o else none := by
  unfold cell
  rw [List.getElem?_take]
  split <;> simp
omit [Add α] [Sub α] [Mul α] [Div α] [Neg α] [CFloat α] in
theorem wr_take {m : Mem α} {n b : Nat} (h : b < n) : wr (m.take n) b = wr m b := by
  simp [wr, h]

omit [Add α] [Sub α] [Mul α] [Div α] [Neg α] [CFloat α] in
theorem VRel.mono {j l : List (Nat × Nat)} {v v' : Val α} (h : VRel j v v') : VRel (j ++ l) v v' := by
  cases v <;> try exact h
  obtain ⟨q, hq, h⟩ := h
  exact ⟨q, by rw [List.getElem?_append_left (List.getElem?_eq_some_iff.mp hq).1]; exact hq, h⟩

omit [Add α] [Sub α] [Mul α] [Div α] [Neg α] [CFloat α] in
/-- split an index into an old or a new one -/
theorem get_app {j : List (Nat × Nat)} {N : Nat} {L : List Nat} {i : Nat} {q : Nat × Nat} (h : (j ++ locs N L)[i]? = some q) :
    (i < j.length ∧ j[i]? = some q) ∨ ∃ t, i = j.length + t ∧ t < L.length ∧ q = (N + t, 0) := by
  by_cases hi : i < j.length
  · left; rw [List.getElem?_append_left hi] at h; exact ⟨hi, h⟩
  · right
    rw [List.getElem?_append_right (by omega)] at h
    obtain ⟨h1, h2⟩ := locs_get' h
    exact ⟨i - j.length, by omega, h2, h1⟩

omit [Add α] [Sub α] [Mul α] [Div α] [Neg α] [CFloat α] in
/-- entering a call -/
theorem R.enter {j : List (Nat × Nat)} {A m : Mem α} (h : R j A m) (L : List Nat) :
    R (j ++ locs m.length L) (A ++ fresh L) (m ++ fresh L) := by
  have hn := h.len
  have key : ∀ i q k v, (j ++ locs m.length L)[i]? = some q → cell (A ++ fresh L) i k = some v →
      (i < j.length ∧ j[i]? = some q ∧ cell A i k = some v ∧ q.1 < m.length) ∨
      ∃ t, i = j.length + t ∧ t < L.length ∧ q = (m.length + t, 0) ∧ v = .undef ∧ cell (fresh L) t k = some v := by
    intro i q k v hq hv
    rcases get_app hq with ⟨hi, hq⟩ | ⟨t, rfl, ht, rfl⟩
    · left
      rw [cell_append_left (by omega)] at hv
      obtain ⟨v', hv', -⟩ := h.cells i q k v hq hv
      exact ⟨hi, hq, hv, cell_lt hv'⟩
    · right
      rw [hn, cell_append_right] at hv
      exact ⟨t, rfl, ht, rfl, cell_fresh hv, hv⟩
  refine ⟨by simp [hn, locs_length, fresh], ?_, ?_, ?_⟩
  · intro i q k v hq hv
    rcases key i q k v hq hv with ⟨hi, hq, hv, hlt⟩ | ⟨t, rfl, ht, rfl, rfl, hc⟩
    · rw [cell_append_left hlt]
      exact h.cells i q k v hq hv
    · exact ⟨_, by rw [Nat.zero_add, cell_append_right]; exact hc, trivial⟩
  · intro i q k v hq hv hw
    rcases key i q k v hq hv with ⟨hi, hq, hv, hlt⟩ | ⟨t, rfl, ht, rfl, rfl, hc⟩
    · rw [wr_append_left hlt]
      exact h.writable i q k v hq hv (by rwa [wr_append_left (by omega)] at hw)
    · rw [wr_append_right]
      simp [wr, fresh, ht]
  · intro i q k v i' q' k' v' hq hv hq' hv' hw e1 e2
    rcases key i q k v hq hv with ⟨hi, hq, hv, hlt⟩ | ⟨t, rfl, ht, rfl, rfl, hc⟩ <;>
      rcases key i' q' k' v' hq' hv' with ⟨hi', hq', hv', hlt'⟩ | ⟨t', rfl, ht', rfl, rfl, hc'⟩
    · exact h.sep i q k v i' q' k' v' hq hv hq' hv' (by rwa [wr_append_left (by omega)] at hw) e1 e2
    · simp only at e1; omega
    · simp only at e1; omega
    · simp only at e1 e2; omega

omit [Add α] [Sub α] [Mul α] [Div α] [Neg α] [CFloat α] in
/-- leaving a call -/
theorem R.leave {j : List (Nat × Nat)} {A m A' m' : Mem α} (h : R j A m) (L : List Nat) (hA : Same (A ++ fresh L) A')
    (hR : R (j ++ locs m.length L) A' m') (hF : Frame (j ++ locs m.length L) (A ++ fresh L) (m ++ fresh L) m') :
    R j (A'.take A.length) (m'.take m.length) ∧ Frame j A m (m'.take m.length) ∧ Same A (A'.take A.length) := by
  have hn := h.len
  have hsA : Same A (A'.take A.length) := by
    have := hA.take A.length
    rwa [List.take_left'] at this
    rfl
  have key : ∀ i q k v, j[i]? = some q → cell (A'.take A.length) i k = some v →
      (j ++ locs m.length L)[i]? = some q ∧ cell A' i k = some v ∧ q.1 < m.length ∧ i < A.length := by
    intro i q k v hq hv
    have hi : i < j.length := (List.getElem?_eq_some_iff.mp hq).1
    rw [cell_take, if_pos (by omega)] at hv
    have : (cell (A ++ fresh L) i k).isSome := by rw [hA.cell, hv]; rfl
    rw [cell_append_left (by omega)] at this
    obtain ⟨u, hu⟩ := Option.isSome_iff_exists.mp this
    obtain ⟨u', hu', -⟩ := h.cells i q k u hq hu
    exact ⟨by rw [List.getElem?_append_left hi]; exact hq, hv, cell_lt hu', by omega⟩
  refine ⟨⟨by rw [hn, ← hsA.length], ?_, ?_, ?_⟩, ⟨?_, ?_⟩, hsA⟩
  · intro i q k v hq hv
    obtain ⟨h1, h2, h3, h4⟩ := key i q k v hq hv
    rw [cell_take, if_pos h3]
    exact hR.cells i q k v h1 h2
  · intro i q k v hq hv hw
    obtain ⟨h1, h2, h3, h4⟩ := key i q k v hq hv
    rw [wr_take h3]
    exact hR.writable i q k v h1 h2 (by rwa [wr_take h4] at hw)
  · intro i q k v i' q' k' v' hq hv hq' hv' hw
    obtain ⟨h1, h2, h3, h4⟩ := key i q k v hq hv
    obtain ⟨h1', h2', h3', h4'⟩ := key i' q' k' v' hq' hv'
    exact hR.sep i q k v i' q' k' v' h1 h2 h1' h2' (by rwa [wr_take h4] at hw)
  · have := hF.1.take m.length
    rwa [List.take_left'] at this
    rfl
  · intro b o hc
    rw [cell_take]
    split
    · rename_i hb
      rw [hF.2 b o, cell_append_left hb]
      rintro ⟨i, q, k, v, h1, h2, h3, h4, h5⟩
      rcases get_app h1 with ⟨hi, hq⟩ | ⟨t, rfl, ht, rfl⟩
      · rw [cell_append_left (by omega)] at h2
        rw [wr_append_left (by omega)] at h3
        exact hc ⟨i, q, k, v, hq, h2, h3, h4, h5⟩
      · simp only at h4; omega
    · rename_i hb
      cases hm : cell m b o with
      | none => rfl
      | some v => exact absurd (cell_lt hm) hb

/-- related outcomes of a statement -/
inductive ORel (j : List (Nat × Nat)) (A m : Mem α) : Out α → Out α → Prop
  | next {e e' A' m'} : ERel j e e' → R j A' m' → Frame j A m m' → Same A A' → ORel j A m (.next e A') (.next e' m')
  | ret {v v' A' m'} : (match v with | none => v' = none | some u => ∃ u', v' = some u' ∧ VRel j u u') →
      R j A' m' → Frame j A m m' → Same A A' → ORel j A m (.ret v A') (.ret v' m')

omit [Add α] [Sub α] [Mul α] [Div α] [Neg α] [CFloat α] in
theorem Locals.same {j : List (Nat × Nat)} {A m A' m' : Mem α} {b b' : Nat} (h : Locals j A m b b') (hA : Same A A') (hm : Same m m') :
    Locals j A' m' b b' := by
  intro i hi
  rw [← hA.length] at hi
  rw [← hm.length]
  exact h i hi

omit [Add α] [Sub α] [Mul α] [Div α] [Neg α] [CFloat α] in
theorem ORel.trans {j : List (Nat × Nat)} {A m A1 m1 : Mem α} {r r' : Out α} (hA : Same A A1) (hF : Frame j A m m1) (h : ORel j A1 m1 r r') :
    ORel j A m r r' := by
  cases h with
  | next h1 h2 h3 h4 => exact .next h1 h2 (Frame.trans hA hF h3) (hA.trans h4)
  | ret h1 h2 h3 h4 => exact .ret h1 h2 (Frame.trans hA hF h3) (hA.trans h4)

omit [Add α] [Sub α] [Mul α] [Div α] [Neg α] [CFloat α] in
theorem replicate_rel (j : List (Nat × Nat)) (n : Nat) : ERel (α := α) j (List.replicate n .undef) (List.replicate n .undef) := by
  induction n with
  | zero => exact .nil
  | succ n ih => exact .cons rfl ih

/-- statements have related outcomes -/
theorem exec_sim (s : Stmt) : ∀ {j : List (Nat × Nat)} {A m : Mem α} {base base' : Nat} {env env' : List (Val α)} {r : Out α},
    R j A m → Locals j A m base base' → ERel j env env' → s.exec base env A = some r →
    ∃ r', s.exec base' env' m = some r' ∧ ORel j A m r r' := by
  induction s with
  | skip =>
    intro j A m base base' env env' r hR hb he h
    simp only [Stmt.exec, Option.some.injEq] at h ⊢
    subst h
    exact ⟨_, rfl, .next he hR (Frame.refl _ _ _) (Same.refl _)⟩
  | retVoid =>
    intro j A m base base' env env' r hR hb he h
    simp only [Stmt.exec, Option.some.injEq] at h ⊢
    subst h
    exact ⟨_, rfl, .ret rfl hR (Frame.refl _ _ _) (Same.refl _)⟩
  | ret e =>
    intro j A m base base' env env' r hR hb he h
    unfold Stmt.exec at h ⊢
    split at h
    · rename_i v hv
      obtain ⟨v', h1, h2⟩ := eval_sim hR hb he e v hv
      simp only [Option.some.injEq] at h
      subst h
      rw [h1]
      exact ⟨_, rfl, .ret ⟨_, rfl, h2⟩ hR (Frame.refl _ _ _) (Same.refl _)⟩
    · simp at h
  | seq a b iha ihb =>
    intro j A m base base' env env' r hR hb he h
    unfold Stmt.exec at h ⊢
    split at h
    · rename_i e1 A1 ha
      obtain ⟨r1, h1, h2⟩ := iha hR hb he ha
      cases h2 with
      | next g1 g2 g3 g4 =>
        obtain ⟨r', h3, h4⟩ := ihb g2 (hb.same g4 g3.1) g1 h
        rw [h1]
        exact ⟨r', h3, h4.trans g4 g3⟩
    · rename_i v A1 ha
      obtain ⟨r1, h1, h2⟩ := iha hR hb he ha
      simp only [Option.some.injEq] at h
      subst h
      rw [h1]
      cases h2 with
      | ret g1 g2 g3 g4 => exact ⟨_, rfl, .ret g1 g2 g3 g4⟩
    · simp at h
  | set i e =>
    intro j A m base base' env env' r hR hb he h
    unfold Stmt.exec at h ⊢
    split at h
    · rename_i v hv
      obtain ⟨v', h1, h2⟩ := eval_sim hR hb he e v hv
      simp only [Option.some.injEq] at h
      subst h
      rw [h1]
      exact ⟨_, rfl, .next (Forall₂.set he i h2) hR (Frame.refl _ _ _) (Same.refl _)⟩
    · simp at h
  | store p e =>
    intro j A m base base' env env' r hR hb he h
    unfold Stmt.exec at h ⊢
    split at h
    · rename_i k o hp
      obtain ⟨p', h1, q, hq, rfl⟩ := eval_sim hR hb he p _ hp
      rw [h1]
      split at h
      · simp at h
      · rename_i v hv' hv
        obtain ⟨v', h2, h3⟩ := eval_sim hR hb he e _ hv
        split at h
        · rename_i A1 hA1
          simp only [Option.some.injEq] at h
          subst h
          obtain ⟨m', g1, g2, g3, g4⟩ := hR.put1 hq (fun b o e => hv' b o e) hA1
          have : v' = v := by cases v <;> try exact h3
                              exact absurd rfl (hv' _ _)
          subst this
          refine ⟨.next env' m', ?_, .next he g2 g3 g4⟩
          rw [h2]
          cases v' <;> simp only [g1] <;> exact absurd rfl (hv' _ _)
        · simp at h
      · simp at h
    · simp at h
  | havoc p =>
    intro j A m base base' env env' r hR hb he h
    unfold Stmt.exec at h ⊢
    split at h
    · rename_i k o hp
      obtain ⟨p', h1, q, hq, rfl⟩ := eval_sim hR hb he p _ hp
      rw [h1]
      split at h
      · rename_i A1 hA1
        simp only [Option.some.injEq] at h
        subst h
        obtain ⟨m', g1, g2, g3, g4⟩ := hR.put1 hq (fun b o e => by cases e) hA1
        exact ⟨.next env' m', by simp only [g1], .next he g2 g3 g4⟩
      · simp at h
    · simp at h
  | ite c a b iha ihb =>
    intro j A m base base' env env' r hR hb he h
    unfold Stmt.exec at h ⊢
    split at h
    · rename_i z hz
      obtain ⟨z', h1, rfl⟩ := eval_sim hR hb he c _ hz
      rw [h1]
      cases z
      · exact ihb hR hb he h
      · exact iha hR hb he h
    · simp at h
  | call dst L nregs body args ih =>
    intro j A m base base' env env' r hR hb he h
    unfold Stmt.exec at h ⊢
    split at h
    · rename_i vs hvs
      obtain ⟨vs', h1, h2⟩ := evalArgs_sim hR hb he args vs hvs
      rw [h1]
      split at h
      · rename_i r1 hr1
        have hE : ERel (j ++ locs m.length L) (vs ++ List.replicate nregs .undef) (vs' ++ List.replicate nregs .undef) := by
          refine List.rel_append (h2.imp fun a b h => VRel.mono h) ?_
          exact replicate_rel _ nregs
        have hL : Locals (j ++ locs m.length L) (A ++ fresh L) (m ++ fresh L) A.length m.length := by
          intro i hi
          simp only [List.length_append, fresh, List.length_map] at hi ⊢
          refine ⟨?_, by omega⟩
          rw [← hR.len, List.getElem?_append_right (by omega), Nat.add_sub_cancel_left]
          exact locs_get (by omega)
        obtain ⟨r1', h3, h4⟩ := ih (hR.enter L) hL hE hr1
        simp only [h3]
        cases h4 with
        | next g1 g2 g3 g4 =>
          obtain ⟨k1, k2, k3⟩ := hR.leave L g4 g2 g3
          simp only [Out.leave, resume] at h ⊢
          cases dst with
          | none => simp only [Option.some.injEq] at h ⊢; subst h; exact ⟨_, rfl, .next he k1 k2 k3⟩
          | some d => simp at h
        | @ret v v' A' m' g1 g2 g3 g4 =>
          obtain ⟨k1, k2, k3⟩ := hR.leave L g4 g2 g3
          cases v with
          | none =>
            subst g1
            simp only [Out.leave, resume] at h ⊢
            cases dst with
            | none => simp only [Option.some.injEq] at h ⊢; subst h; exact ⟨_, rfl, .next he k1 k2 k3⟩
            | some d => simp at h
          | some u =>
            obtain ⟨u', rfl, hu⟩ := g1
            cases u with
            | p b o => simp [Out.leave] at h
            | undef | f _ | i _ | b _ =>
              obtain rfl := hu
              simp only [Out.leave, resume] at h ⊢
              cases dst with
              | none => simp only [Option.some.injEq] at h ⊢; subst h; exact ⟨_, rfl, .next he k1 k2 k3⟩
              | some d =>
                simp only [Option.some.injEq] at h ⊢; subst h
                exact ⟨_, rfl, .next (Forall₂.set he d rfl) k1 k2 k3⟩
      · simp at h
    · simp at h

end Cglm.CMem
