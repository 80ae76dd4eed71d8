import Verif.CMemSafe

/-!
# Functions that read their inputs before they write

A variant of the analysis of `Verif.CMemSafe`.  After a write to an output nothing is assumed any more about the cells of
the inputs that may be the cell written, as a parameter says (`Hit`): the write may have changed them.  A function it
accepts gives the same result whether or not its outputs overlap its inputs at those cells (`transferO`).
-/

namespace Cglm.CMem

/-- may cell `o` of output `r` be cell `k` of input `i`, as a function of `r o i k` -/
abbrev Hit := Nat → Nat → Nat → Nat → Bool

/-- forget marked cells, from cell `k` on -/
def maskF (h : Nat → Bool) : Nat → List Bool → List Bool
  | _, [] => []
  | k, b :: l => (match h k with | true => false | false => b) :: maskF h (k + 1) l

/-- forget what an input array holds in marked cells -/
def AB.clear (h : Nat → Bool) (B : AB) : AB :=
  match B.w with
  | true => B
  | false => ⟨false, maskF h 0 B.init⟩

/-- forget what the input arrays among the first `n`, numbered from `i` on, hold in marked cells -/
def clearA (h : Nat → Nat → Bool) : Nat → Nat → List AB → List AB
  | _, 0, A => A
  | _, _, [] => []
  | i, n + 1, B :: A => B.clear (h i) :: clearA h (i + 1) n A

/-- The analysis of a statement, `none` if it may be unsafe or depend on overlap; `n` is the number of argument arrays. -/
def Stmt.late (up : Hit) (n : Nat) : Stmt → Nat → List AV → List AB → Option AOut
  | .skip, _, env, A => some ⟨some (env, A), none⟩
  | .seq a b, base, env, A =>
    match a.late up n base env A with
    | some r =>
      match r.next with
      | some (env', A') =>
        match b.late up n base env' A' with
        | some r' =>
          match joinRet r.ret r'.ret with
          | some t => some ⟨r'.next, t⟩
          | none => none
        | none => none
      | none => some r
    | none => none
  | .set i e, base, env, A =>
    match e.ty base env A with
    | some v => some ⟨some (env.set i v, A), none⟩
    | none => none
  | .store p e, base, env, A =>
    match p.ty base env A with
    | some (.p r o) =>
      match A[r]? with
      | some B =>
        match B.w && Nat.blt o B.init.length with
        | true =>
          match e.ty base env A with
          | some .f =>
            match Nat.ble n r with
            | true => some ⟨some (env, mark A r o true), none⟩
            | false => some ⟨some (env, mark (clearA (up r o) 0 n A) r o true), none⟩
          | _ => none
        | false => none
      | none => none
    | _ => none
  | .havoc p, base, env, A =>
    match p.ty base env A with
    | some (.p r o) =>
      match A[r]? with
      | some B =>
        match Nat.ble n r && B.w && Nat.blt o B.init.length with
        | true => some ⟨some (env, mark A r o false), none⟩
        | false => none
      | none => none
    | _ => none
  | .ite c a b, base, env, A =>
    match c.ty base env A with
    | some .b =>
      match a.late up n base env A with
      | some r =>
        match b.late up n base env A with
        | some r' =>
          match joinNext r.next r'.next with
          | some x =>
            match joinRet r.ret r'.ret with
            | some t => some ⟨x, t⟩
            | none => none
          | none => none
        | none => none
      | none => none
    | _ => none
  | .call dst locals nregs body args, base, env, A =>
    match tyArgs base env A args with
    | some vs =>
      match body.late up n A.length (vs ++ List.replicate nregs .u) (A ++ freshA locals) with
      | some r =>
        match r.leave A.length with
        | some (v, A') =>
          match dst with
          | none => some ⟨some (env, A'), none⟩
          | some d =>
            match v with
            | some v => some ⟨some (env.set d v, A'), none⟩
            | none => none
        | none => none
      | none => none
    | none => none
  | .ret e, base, env, A =>
    match e.ty base env A with
    | some v => some ⟨none, some (some v, A)⟩
    | none => none
  | .retVoid, _, _, A => some ⟨none, some (none, A)⟩

/-- The analysis of a call from outside. -/
def Fn.late (up : Hit) (f : Fn) (A : List AB) (args : List AV) : Option (Option AV × List AB) :=
  match f.body.late up A.length A.length (args ++ List.replicate f.nregs .u) (A ++ freshA f.locals) with
  | some r => r.leave A.length
  | none => none

/-- all outputs are initialised at the end -/
def lateOk (A D : List AB) : Bool :=
  A.all (fun B => !B.init.isEmpty) &&
    (D.map fun B => match B.w with | true => B | false => ⟨false, []⟩) ==
      A.map fun B => match B.w with | true => ⟨true, List.replicate B.init.length true⟩ | false => ⟨false, []⟩

/-! ## Weaker knowledge -/

/-- `A'` says less than `A` -/
structure Wk (A A' : List AB) : Prop where
  len : A'.length = A.length
  get : ∀ (r : Nat) B', A'[r]? = some B' → ∃ B, A[r]? = some B ∧ B'.init.length = B.init.length ∧ (B'.w = true → B.w = true) ∧
    ∀ k : Nat, B'.init[k]? = some true → B.init[k]? = some true

theorem Wk.refl (A : List AB) : Wk A A := ⟨rfl, fun _ B h => ⟨B, h, rfl, id, fun _ h => h⟩⟩

theorem joinA_wkL {A A' A'' : List AB} (h : joinA A A' = some A'') : Wk A A'' := by
  obtain ⟨-, h2, h3⟩ := joinA_get h
  refine ⟨h2, fun r B'' hr => ?_⟩
  obtain ⟨B, C, e1, e2, e3, rfl⟩ := h3 r B'' hr
  refine ⟨B, e1, by simp [joinB, e3], by simp [joinB]; exact fun h _ => h, fun k hk => ?_⟩
  obtain ⟨z1, z2, g1, g2, e⟩ := joinB_init hk
  simp at e
  rw [g1, e.1]
theorem joinA_wkR {A A' A'' : List AB} (h : joinA A A' = some A'') : Wk A' A'' := by
  obtain ⟨h1, h2, h3⟩ := joinA_get h
  refine ⟨by omega, fun r B'' hr => ?_⟩
  obtain ⟨B, C, e1, e2, e3, rfl⟩ := h3 r B'' hr
  refine ⟨C, e2, by simp [joinB, e3], by simp [joinB], fun k hk => ?_⟩
  obtain ⟨z1, z2, g1, g2, e⟩ := joinB_init hk
  simp at e
  rw [g2, e.2]

theorem maskF_get (h : Nat → Bool) : ∀ (l : List Bool) (i : Nat), (maskF h i l).length = l.length ∧
    ∀ k : Nat, (maskF h i l)[k]? = some true → l[k]? = some true ∧ h (i + k) = false := by
  intro l
  induction l with
  | nil => intro i; exact ⟨rfl, by simp [maskF]⟩
  | cons b l ih =>
    intro i
    refine ⟨by simp [maskF, (ih (i + 1)).1], ?_⟩
    rintro (_ | k) hk
    · simp only [maskF, List.getElem?_cons_zero, Option.some.injEq] at hk ⊢
      split at hk
      · simp at hk
      · rename_i hh
        exact ⟨hk, hh⟩
    · simp only [maskF, List.getElem?_cons_succ] at hk ⊢
      obtain ⟨h1, h2⟩ := (ih (i + 1)).2 k hk
      exact ⟨h1, by rwa [show i + (k + 1) = i + 1 + k by omega]⟩

theorem AB.clear_spec (h : Nat → Bool) (B : AB) : (B.clear h).init.length = B.init.length ∧ (B.clear h).w = B.w ∧
    ∀ k : Nat, (B.clear h).init[k]? = some true → B.init[k]? = some true ∧ (B.w = true ∨ h k = false) := by
  unfold AB.clear
  split
  · rename_i hw
    exact ⟨rfl, rfl, fun k hk => ⟨hk, Or.inl hw⟩⟩
  · rename_i hw
    obtain ⟨h1, h2⟩ := maskF_get h B.init 0
    refine ⟨h1, hw.symm, fun k hk => ?_⟩
    obtain ⟨h3, h4⟩ := h2 k hk
    exact ⟨h3, Or.inr (by rwa [Nat.zero_add] at h4)⟩

theorem clearA_get (h : Nat → Nat → Bool) (n : Nat) : ∀ (i : Nat) (A : List AB), (clearA h i n A).length = A.length ∧ ∀ (r : Nat) B', (clearA h i n A)[r]? = some B' →
    ∃ B, A[r]? = some B ∧ B'.init.length = B.init.length ∧ B'.w = B.w ∧
      ∀ k : Nat, B'.init[k]? = some true → B.init[k]? = some true ∧ (r < n → B'.w = true ∨ h (i + r) k = false) := by
  induction n with
  | zero => intro i A; exact ⟨by simp [clearA], fun r B' h => ⟨B', by simpa [clearA] using h, rfl, rfl, fun k hk => ⟨hk, fun h => by omega⟩⟩⟩
  | succ n ih =>
    intro i A
    cases A with
    | nil => exact ⟨rfl, by simp [clearA]⟩
    | cons B A =>
      refine ⟨by simp [clearA, (ih (i + 1) A).1], ?_⟩
      rintro (_ | r) B' hB
      · simp only [clearA, List.getElem?_cons_zero, Option.some.injEq] at hB
        subst hB
        obtain ⟨h1, h2, h3⟩ := B.clear_spec (h i)
        exact ⟨B, rfl, h1, h2, fun k hk => ⟨(h3 k hk).1, fun _ => h2 ▸ (h3 k hk).2⟩⟩
      · simp only [clearA, List.getElem?_cons_succ] at hB ⊢
        obtain ⟨B0, h1, h2, h3, h4⟩ := (ih (i + 1) A).2 r B' hB
        exact ⟨B0, h1, h2, h3, fun k hk => ⟨(h4 k hk).1, fun hr => by
          rw [show i + (r + 1) = i + 1 + r by omega]; exact (h4 k hk).2 (by omega)⟩⟩

theorem clearA_wk (h : Nat → Nat → Bool) (n : Nat) (A : List AB) : Wk A (clearA h 0 n A) :=
  ⟨(clearA_get h n 0 A).1, fun r B' hB => by
    obtain ⟨B, h1, h2, h3, h4⟩ := (clearA_get h n 0 A).2 r B' hB
    exact ⟨B, h1, h2, fun h => h3 ▸ h, fun k hk => (h4 k hk).1⟩⟩

/-- a scalar -/
def AV.sc : AV → Bool
  | .f | .i | .b => true
  | _ => false

/-- less is known of a scalar -/
def AV.Wk (a a' : AV) : Prop := a' = a ∨ a' = .u
theorem AV.wkL (a b : AV) : AV.Wk a (a.join b) := by
  unfold AV.join AV.Wk; split <;> simp
theorem AV.wkR (a b : AV) : AV.Wk b (a.join b) := by
  unfold AV.join AV.Wk; split
  · rename_i h; simp [h]
  · simp

def EWk (e e' : List AV) : Prop := List.Forall₂ AV.Wk e e'
theorem EWk.refl (e : List AV) : EWk e e := by
  induction e with
  | nil => exact .nil
  | cons a e ih => exact .cons (Or.inl rfl) ih

theorem joinE_wk {e e' e'' : List AV} (hj : joinE e e' = some e'') : EWk e e'' ∧ EWk e' e'' := by
  unfold joinE at hj
  split at hj
  · rename_i hl
    simp only [Option.some.injEq] at hj
    subst hj
    induction e generalizing e' with
    | nil =>
      cases e' with
      | nil => exact ⟨.nil, .nil⟩
      | cons a e' => simp at hl
    | cons a e ih =>
      cases e' with
      | nil => simp at hl
      | cons b e' =>
        obtain ⟨h1, h2⟩ := ih (e' := e') (by simpa using hl)
        exact ⟨.cons (AV.wkL _ _) h1, .cons (AV.wkR _ _) h2⟩
  · simp at hj

/-- less is known of a result -/
def RWk : Option AV → Option AV → Prop
  | none, a => a = none
  | some v, a => ∃ v', a = some v' ∧ v.Wk v'

theorem RWk.refl (a : Option AV) : RWk a a := by
  cases a with
  | none => rfl
  | some v => exact ⟨v, rfl, Or.inl rfl⟩

theorem joinRet_wk {x y t : Option (Option AV × List AB)} (hj : joinRet x y = some t) {a : Option AV} {A : List AB}
    (h : x = some (a, A) ∨ y = some (a, A)) : ∃ a' A', t = some (a', A') ∧ RWk a a' ∧ Wk A A' := by
  unfold joinRet at hj
  split at hj
  · simp only [Option.some.injEq] at hj
    subst hj
    rcases h with h | h
    · simp at h
    · exact ⟨a, A, h, .refl _, .refl _⟩
  · simp only [Option.some.injEq] at hj
    subst hj
    rcases h with h | h
    · exact ⟨a, A, h, .refl _, .refl _⟩
    · simp at h
  · split at hj
    · rename_i hA
      simp only [Option.some.injEq] at hj
      rcases h with h | h <;> simp only [Option.some.injEq, Prod.mk.injEq] at h <;> obtain ⟨rfl, rfl⟩ := h
      · exact ⟨_, _, hj.symm, ⟨_, rfl, AV.wkL _ _⟩, joinA_wkL hA⟩
      · exact ⟨_, _, hj.symm, ⟨_, rfl, AV.wkR _ _⟩, joinA_wkR hA⟩
    · simp at hj
  · split at hj
    · rename_i hA
      simp only [Option.some.injEq] at hj
      rcases h with h | h <;> simp only [Option.some.injEq, Prod.mk.injEq] at h <;> obtain ⟨rfl, rfl⟩ := h
      · exact ⟨_, _, hj.symm, rfl, joinA_wkL hA⟩
      · exact ⟨_, _, hj.symm, rfl, joinA_wkR hA⟩
    · simp at hj
  · simp at hj

theorem joinNext_wk {x y t : Option (List AV × List AB)} (hj : joinNext x y = some t) {e : List AV} {A : List AB}
    (h : x = some (e, A) ∨ y = some (e, A)) : ∃ e' A', t = some (e', A') ∧ EWk e e' ∧ Wk A A' := by
  unfold joinNext at hj
  split at hj
  · simp only [Option.some.injEq] at hj
    subst hj
    rcases h with h | h
    · simp at h
    · exact ⟨e, A, h, .refl _, .refl _⟩
  · simp only [Option.some.injEq] at hj
    subst hj
    rcases h with h | h
    · exact ⟨e, A, h, .refl _, .refl _⟩
    · simp at h
  · split at hj
    · rename_i hE
      split at hj
      · rename_i hA
        simp only [Option.some.injEq] at hj
        rcases h with h | h <;> simp only [Option.some.injEq, Prod.mk.injEq] at h <;> obtain ⟨rfl, rfl⟩ := h
        · exact ⟨_, _, hj.symm, (joinE_wk hE).1, joinA_wkL hA⟩
        · exact ⟨_, _, hj.symm, (joinE_wk hE).2, joinA_wkR hA⟩
      · simp at hj
    · simp at hj

/-! ## Two runs side by side -/

variable {α : Type}

theorem Ok.weak {c : Ctx α} {A A' : List AB} {m : Mem α} (h : Ok c A m) (hw : Wk A A') : Ok c A' m := by
  refine ⟨hw.len ▸ h.le, by rw [hw.len]; exact h.len, ?_, ?_, h.same, h.frame⟩
  · intro r B' k z hr hk
    obtain ⟨B, e1, e2, e3, e4⟩ := hw.get r B' hr
    have hkl : k < B.init.length := by
      rw [← e2]; exact (List.getElem?_eq_some_iff.mp hk).1
    obtain ⟨v, hv, hz⟩ := h.has r B k _ e1 (List.getElem?_eq_getElem hkl)
    refine ⟨v, hv, fun hh => hz ?_⟩
    subst hh
    have := e4 k hk
    rw [List.getElem?_eq_getElem hkl] at this
    simpa using this
  · intro r B' k hr hw' hk
    obtain ⟨B, e1, e2, e3, e4⟩ := hw.get r B' hr
    exact h.w r B k e1 (e3 hw') (by omega)

/-- different cells of the outputs are different cells of memory -/
def Sep (c : Ctx α) (A : List AB) : Prop :=
  ∀ (r r' : Nat) B B' (i i' : Nat), r < c.P.length → r' < c.P.length → A[r]? = some B → A[r']? = some B' → B.w = true → B'.w = true →
    i < B.init.length → i' < B'.init.length → (c.addr r).1 = (c.addr r').1 → (c.addr r).2 + i = (c.addr r').2 + i' → r = r' ∧ i = i'

theorem Sep.weak {c : Ctx α} {A A' : List AB} (h : Sep c A) (hw : Wk A A') : Sep c A' := by
  intro r r' B B' i i' h1 h2 h3 h4 h5 h6 h7 h8
  obtain ⟨C, e1, e2, e3, -⟩ := hw.get r B h3
  obtain ⟨C', g1, g2, g3, -⟩ := hw.get r' B' h4
  exact h r r' C C' i i' h1 h2 e1 g1 (e3 h5) (g3 h6) (by omega) (by omega)

/-- a cell of an output is no cell of an input but those allowed -/
def Free (up : Hit) (c : Ctx α) (A : List AB) : Prop :=
  ∀ (r r' : Nat) B B' (i i' : Nat), r < c.P.length → r' < c.P.length → A[r]? = some B → A[r']? = some B' → B.w = true →
    i < B.init.length → i' < B'.init.length → up r i r' i' = false → (c.addr r).1 = (c.addr r').1 → (c.addr r).2 + i = (c.addr r').2 + i' → r = r' ∧ i = i'

theorem Free.weak {up : Hit} {c : Ctx α} {A A' : List AB} (h : Free up c A) (hw : Wk A A') : Free up c A' := by
  intro r r' B B' i i' h1 h2 h3 h4 h5 h7 h8
  obtain ⟨C, e1, e2, e3, -⟩ := hw.get r B h3
  obtain ⟨C', g1, g2, g3, -⟩ := hw.get r' B' h4
  exact h r r' C C' i i' h1 h2 e1 g1 (e3 h5) (by omega) (by omega)

/-- how arrays may overlap -/
structure Lap (up : Hit) (c : Ctx α) (A : List AB) : Prop where
  sep : Sep c A
  free : Free up c A

theorem Lap.weak {up : Hit} {c : Ctx α} {A A' : List AB} (h : Lap up c A) (hw : Wk A A') : Lap up c A' :=
  ⟨h.sep.weak hw, h.free.weak hw⟩

/-- two memories, as the analysis says, that agree where it knows something -/
structure Pair (up : Hit) (c d : Ctx α) (A : List AB) (m k : Mem α) : Prop where
  l : Ok c A m
  r : Ok d A k
  sl : Lap up c A
  sr : Lap up d A
  eq : ∀ (r : Nat) B (i : Nat), A[r]? = some B → B.init[i]? = some true →
    cell m (c.addr r).1 ((c.addr r).2 + i) = cell k (d.addr r).1 ((d.addr r).2 + i)

theorem Pair.weak {up : Hit} {c d : Ctx α} {A A' : List AB} {m k : Mem α} (h : Pair up c d A m k) (hw : Wk A A') : Pair up c d A' m k :=
  ⟨h.l.weak hw, h.r.weak hw, h.sl.weak hw, h.sr.weak hw, fun r B' i hr hi => by
    obtain ⟨B, e1, -, -, e4⟩ := hw.get r B' hr
    exact h.eq r B i e1 (e4 i hi)⟩

theorem mark_get {A : List AB} {r o : Nat} {z : Bool} (r' : Nat) (B' : AB) (hr' : (mark A r o z)[r']? = some B') :
    ∃ B0, A[r']? = some B0 ∧ B'.w = B0.w ∧ B'.init.length = B0.init.length ∧
      ∀ k y, B'.init[k]? = some y → (r' = r ∧ k = o ∧ y = z) ∨ (¬ (r' = r ∧ k = o) ∧ B0.init[k]? = some y) := by
  simp only [mark, List.getElem?_modify] at hr'
  rcases e : A[r']? with _ | B0
  · rw [e] at hr'; simp at hr'
  · rw [e] at hr'
    refine ⟨B0, rfl, ?_⟩
    by_cases hrr : r = r'
    · subst hrr
      simp only [if_true, Option.map_eq_map, Option.map_some, Option.some.injEq] at hr'
      subst hr'
      refine ⟨rfl, by simp, ?_⟩
      intro k y hk
      simp only [List.getElem?_set] at hk
      by_cases hko : o = k
      · subst hko
        left
        rw [if_pos rfl] at hk
        split at hk
        · simp at hk; exact ⟨rfl, rfl, hk.symm⟩
        · simp at hk
      · right
        rw [if_neg hko] at hk
        exact ⟨fun hh => hko hh.2.symm, hk⟩
    · simp only [hrr, if_false, Option.map_eq_map, Option.map_some, Option.some.injEq] at hr'
      subst hr'
      exact ⟨rfl, rfl, fun k y hk => Or.inr ⟨fun hh => hrr hh.1.symm, hk⟩⟩

/-- a written cell is none of the others that matter -/
theorem Lap.ne {up : Hit} {c : Ctx α} (hP : ∀ q ∈ c.P, q.1 < c.M.length) {A : List AB} (h : Lap up c A) {r o r' i : Nat} {B B' : AB} (hB : A[r]? = some B)
    (hw : B.w = true) (ho : o < B.init.length) (hB' : A[r']? = some B') (hi : i < B'.init.length) (hw' : r < c.P.length → r' < c.P.length → B'.w = true ∨ up r o r' i = false)
    (hne : ¬ (r' = r ∧ i = o)) : ¬ ((c.addr r').1 = (c.addr r).1 ∧ (c.addr r').2 + i = (c.addr r).2 + o) := by
  rintro ⟨e1, e2⟩
  by_cases h1 : r < c.P.length <;> by_cases h2 : r' < c.P.length
  · rcases hw' h1 h2 with h3 | h3
    · exact hne (h.sep r' r B' B i o h2 h1 hB' hB h3 hw hi ho e1 e2)
    · obtain ⟨q1, q2⟩ := h.free r r' B B' o i h1 h2 hB hB' hw ho hi h3 e1.symm e2.symm
      exact hne ⟨q1.symm, q2.symm⟩
  · have := c.addr_arg hP h1
    rw [c.addr_local (by omega : c.P.length ≤ r')] at e1
    simp only at e1
    omega
  · have := c.addr_arg hP h2
    rw [c.addr_local (by omega : c.P.length ≤ r)] at e1
    simp only at e1
    omega
  · rw [c.addr_local (by omega : c.P.length ≤ r), c.addr_local (by omega : c.P.length ≤ r')] at e1 e2
    simp only at e1 e2
    exact hne ⟨by omega, by omega⟩

theorem Sep.mark {c : Ctx α} {A : List AB} (h : Sep c A) (r o : Nat) (z : Bool) : Sep c (CMem.mark A r o z) := by
  intro s s' B B' i i' h1 h2 h3 h4 h5 h6 h7 h8
  obtain ⟨C, e1, e2, e3, -⟩ := mark_get s B h3
  obtain ⟨C', g1, g2, g3, -⟩ := mark_get s' B' h4
  exact h s s' C C' i i' h1 h2 e1 g1 (e2 ▸ h5) (g2 ▸ h6) (by omega) (by omega)

theorem Lap.mark {up : Hit} {c : Ctx α} {A : List AB} (h : Lap up c A) (r o : Nat) (z : Bool) : Lap up c (CMem.mark A r o z) := by
  refine ⟨h.sep.mark r o z, ?_⟩
  intro s s' B B' i i' h1 h2 h3 h4 h5 h7 h8
  obtain ⟨C, e1, e2, e3, -⟩ := mark_get s B h3
  obtain ⟨C', g1, g2, g3, -⟩ := mark_get s' B' h4
  exact h.free s s' C C' i i' h1 h2 e1 g1 (e2 ▸ h5) (by omega) (by omega)

theorem Pair.mark {up : Hit} {c d : Ctx α} (hn : c.P.length = d.P.length) (hP : ∀ q ∈ c.P, q.1 < c.M.length) (hQ : ∀ q ∈ d.P, q.1 < d.M.length)
    {A : List AB} {m k : Mem α} (h : Pair up c d A m k) {r o : Nat} {B : AB} (hB : A[r]? = some B)
    (hw : B.w = true) (ho : o < B.init.length) (v : Val α) (z : Bool) (hz : z = true → c.K v ∧ d.K v)
    (hl : (c.K v ∧ d.K v) ∨ c.P.length ≤ r)
    (hc : r < c.P.length → ∀ (r' : Nat) B' (i : Nat), r' < c.P.length → A[r']? = some B' → B'.init[i]? = some true →
      B'.w = true ∨ up r o r' i = false) :
    ∃ m' k', put1 m (c.addr r).1 ((c.addr r).2 + o) v = some m' ∧ put1 k (d.addr r).1 ((d.addr r).2 + o) v = some k' ∧
      Pair up c d (CMem.mark A r o z) m' k' := by
  obtain ⟨m', hm, gm⟩ := h.l.mark hP hB hw ho v z (fun e => (hz e).1) (hl.imp And.left id)
  obtain ⟨k', hk, gk⟩ := h.r.mark hQ hB hw ho v z (fun e => (hz e).2) (hl.imp And.right fun e => hn ▸ e)
  refine ⟨m', k', hm, hk, gm, gk, h.sl.mark r o z, h.sr.mark r o z, ?_⟩
  obtain ⟨-, -, -, cm⟩ := put1_spec hm
  obtain ⟨-, -, -, ck⟩ := put1_spec hk
  intro r' B' i hr' hi
  obtain ⟨B0, e0, e1, e2, hy⟩ := mark_get r' B' hr'
  rw [cm, ck]
  rcases hy i true hi with ⟨rfl, rfl, -⟩ | ⟨hne, h0⟩
  · rw [if_pos ⟨rfl, rfl⟩, if_pos ⟨rfl, rfl⟩]
  · have hil := (List.getElem?_eq_some_iff.mp h0).1
    rw [if_neg (h.sl.ne hP hB hw ho e0 hil (fun a b => hc a r' B0 i b e0 h0) hne),
      if_neg (h.sr.ne hQ hB hw ho e0 hil (fun a b => hc (by omega) r' B0 i (by omega) e0 h0) hne)]
    exact h.eq r' B0 i e0 h0

theorem Lap.enter {up : Hit} {c : Ctx α} {A : List AB} (hle : c.P.length ≤ A.length) (h : Lap up c A) (L : List AB) : Lap up c (A ++ L) := by
  constructor
  · intro r r' B B' i i' h1 h2 h3 h4
    rw [List.getElem?_append_left (by omega)] at h3 h4
    exact h.sep r r' B B' i i' h1 h2 h3 h4
  · intro r r' B B' i i' h1 h2 h3 h4
    rw [List.getElem?_append_left (by omega)] at h3 h4
    exact h.free r r' B B' i i' h1 h2 h3 h4

theorem Lap.take {up : Hit} {c : Ctx α} {A : List AB} (h : Lap up c A) (n : Nat) : Lap up c (A.take n) := by
  have htake : ∀ (r : Nat) B, (A.take n)[r]? = some B → A[r]? = some B := by
    intro r B hr
    rw [List.getElem?_take] at hr
    split at hr
    · exact hr
    · simp at hr
  constructor
  · intro r r' B B' i i' h1 h2 h3 h4
    exact h.sep r r' B B' i i' h1 h2 (htake r B h3) (htake r' B' h4)
  · intro r r' B B' i i' h1 h2 h3 h4
    exact h.free r r' B B' i i' h1 h2 (htake r B h3) (htake r' B' h4)

theorem Pair.enter {up : Hit} {c d : Ctx α} {A : List AB} {m k : Mem α} (h : Pair up c d A m k) (L : List Nat) :
    Pair up c d (A ++ freshA L) (m ++ fresh L) (k ++ fresh L) := by
  refine ⟨h.l.enter L, h.r.enter L, h.sl.enter h.l.le _, h.sr.enter h.r.le _, ?_⟩
  intro r B i hr hi
  by_cases hlt : r < A.length
  · rw [List.getElem?_append_left hlt] at hr
    obtain ⟨v, hv, -⟩ := h.l.has r B i true hr hi
    obtain ⟨w, hw, -⟩ := h.r.has r B i true hr hi
    rw [cell_append_left (cell_lt hv), cell_append_left (cell_lt hw)]
    exact h.eq r B i hr hi
  · rw [List.getElem?_append_right (by omega)] at hr
    simp only [freshA, List.getElem?_map, Option.map_eq_some_iff] at hr
    obtain ⟨n, hn, rfl⟩ := hr
    simp [List.getElem?_replicate] at hi

theorem addr_lt {c : Ctx α} (hP : ∀ q ∈ c.P, q.1 < c.M.length) {n k r : Nat} (hle : c.P.length ≤ n) (hk : k = c.M.length + (n - c.P.length)) (hr : r < n) :
    (c.addr r).1 < k := by
  by_cases hr0 : r < c.P.length
  · have := c.addr_arg hP hr0
    omega
  · rw [c.addr_local (by omega)]
    simp only
    omega

theorem Pair.leave {up : Hit} {c d : Ctx α} (hn : c.P.length = d.P.length) (hP : ∀ q ∈ c.P, q.1 < c.M.length) (hQ : ∀ q ∈ d.P, q.1 < d.M.length)
    {A : List AB} {m k : Mem α} (h : Pair up c d A m k) {n i j : Nat} (hA : n ≤ A.length)
    (hle : c.P.length ≤ n) (hi : i = c.M.length + (n - c.P.length)) (hj : j = d.M.length + (n - d.P.length)) :
    Pair up c d (A.take n) (m.take i) (k.take j) := by
  have htake : ∀ (r : Nat) B, (A.take n)[r]? = some B → r < n ∧ A[r]? = some B := by
    intro r B hr
    rw [List.getElem?_take] at hr
    split at hr
    · exact ⟨by assumption, hr⟩
    · simp at hr
  refine ⟨h.l.leave hP hA hle hi, h.r.leave hQ hA (hn ▸ hle) hj, h.sl.take n, h.sr.take n, ?_⟩
  intro r B x hr hx
  obtain ⟨h1, h2⟩ := htake r B hr
  rw [cell_take, cell_take, if_pos (addr_lt hP hle hi h1), if_pos (addr_lt hQ (hn ▸ hle) hj h1)]
  exact h.eq r B x h2 hx

/-- scalars agree -/
def EQ (e : List AV) (env env' : List (Val α)) : Prop := ∀ (i : Nat) a, e[i]? = some a → a.sc = true → env[i]? = env'[i]?

/-- scalars are as the analysis says and agree -/
structure PE (c d : Ctx α) (e : List AV) (env env' : List (Val α)) : Prop where
  l : SE c e env
  r : SE d e env'
  eq : EQ e env env'

theorem SE.weak {c : Ctx α} {e e' : List AV} {env : List (Val α)} (h : SE c e env) (hw : EWk e e') : SE c e' env := by
  unfold SE at *
  induction hw generalizing env with
  | nil => exact h
  | cons h1 _ ih =>
    cases h with
    | cons g1 g2 =>
      refine .cons ?_ (ih g2)
      rcases h1 with rfl | rfl
      · exact g1
      · trivial

theorem PE.weak {c d : Ctx α} {e e' : List AV} {env env' : List (Val α)} (h : PE c d e env env') (hw : EWk e e') : PE c d e' env env' := by
  refine ⟨h.l.weak hw, h.r.weak hw, ?_⟩
  intro i a ha hs
  rcases Forall₂.get hw i with ⟨-, h2⟩ | ⟨x, y, h1, h2, h3⟩
  · rw [h2] at ha; simp at ha
  · rw [h2] at ha
    cases ha
    rcases h3 with rfl | rfl
    · exact h.eq i _ h1 hs
    · simp [AV.sc] at hs

theorem PE.append {c d : Ctx α} {e : List AV} {env env' : List (Val α)} (h : PE c d e env env') (n : Nat) :
    PE c d (e ++ List.replicate n .u) (env ++ List.replicate n .undef) (env' ++ List.replicate n .undef) := by
  have h1 := h.l.length_eq
  have h2 := h.r.length_eq
  refine ⟨h.l.append n, h.r.append n, ?_⟩
  intro i a ha hs
  by_cases hi : i < e.length
  · rw [List.getElem?_append_left hi] at ha
    rw [List.getElem?_append_left (by omega), List.getElem?_append_left (by omega)]
    exact h.eq i a ha hs
  · rw [List.getElem?_append_right (by omega), List.getElem?_replicate] at ha
    split at ha
    · cases ha; simp [AV.sc] at hs
    · simp at ha

theorem PE.set {c d : Ctx α} {e : List AV} {env env' : List (Val α)} (h : PE c d e env env') (i : Nat) {a : AV} {v w : Val α}
    (hv : SV c a v) (hw : SV d a w) (hvw : a.sc = true → v = w) : PE c d (e.set i a) (env.set i v) (env'.set i w) := by
  have h1 := h.l.length_eq
  have h2 := h.r.length_eq
  refine ⟨Forall₂.set h.l i hv, Forall₂.set h.r i hw, ?_⟩
  intro k b hb hs
  rw [List.getElem?_set] at hb ⊢
  rw [List.getElem?_set]
  by_cases hk : i = k
  · subst hk
    simp only [if_true] at hb ⊢
    split at hb
    · cases hb
      rw [if_pos (by omega), if_pos (by omega), hvw hs]
    · simp at hb
  · simp only [hk, if_false] at hb ⊢
    exact h.eq k b hb hs

section
variable [Add α] [Sub α] [Mul α] [Div α] [Neg α] [CFloat α]

theorem ty_eq {up : Hit} {c d : Ctx α} (hn : c.P.length = d.P.length) (hK : ∀ v, c.K v ↔ ∃ x, v = .f x) (hL : ∀ v, d.K v ↔ ∃ x, v = .f x)
    {A : List AB} {m k : Mem α} (hR : Pair up c d A m k) {base b1 b2 : Nat} (hb : c.P.length ≤ base)
    (h1 : b1 = c.M.length + (base - c.P.length)) (h2 : b2 = d.M.length + (base - d.P.length)) {env : List AV} {e1 e2 : List (Val α)}
    (he : PE c d env e1 e2) : ∀ (e : Expr) (a : AV), e.ty base env A = some a → a.sc = true → e.eval b1 e1 m = e.eval b2 e2 k := by
  intro e
  induction e with
  | reg i =>
    intro a ha hs
    simp only [Expr.ty] at ha
    split at ha
    · simp at ha
    · rename_i v _ hv
      simp only [Option.some.injEq] at ha; subst ha
      simp only [Expr.eval, he.eq i v hv hs]
    · simp at ha
  | loc i =>
    intro a ha hs
    simp only [Expr.ty] at ha
    split at ha
    · cases ha; simp [AV.sc] at hs
    · simp at ha
  | flit q | ilit n | blit b => intro a ha hs; rfl
  | off p n ih =>
    intro a ha hs
    simp only [Expr.ty] at ha
    split at ha
    · cases ha; simp [AV.sc] at hs
    · simp at ha
  | load p ih =>
    intro a ha hs
    simp only [Expr.ty] at ha
    split at ha
    · rename_i r o hp
      obtain ⟨v1, g1, f1⟩ := ty_sound hK hR.l hb h1 he.l p _ hp
      obtain ⟨v2, g2, f2⟩ := ty_sound hL hR.r (hn ▸ hb) h2 he.r p _ hp
      simp only [SV] at f1 f2; subst f1; subst f2
      split at ha
      · rename_i B hB
        split at ha
        · rename_i hz
          obtain ⟨v, hc, hx⟩ := hR.l.has r B o true hB hz
          obtain ⟨x, rfl⟩ := (hK v).mp (hx rfl)
          have hc' := hc
          rw [hR.eq r B o hB hz] at hc'
          simp only [Expr.eval, g1, g2]
          rw [load_eq_some.mpr ⟨hc, by simp⟩, load_eq_some.mpr ⟨hc', by simp⟩]
        · simp at ha
      · simp at ha
    · simp at ha
  | f1 o a iha | fp o a iha | not a iha | b2i a iha | ofInt a iha =>
    intro v hv hs
    simp only [Expr.ty] at hv
    split at hv
    · rename_i g1
      simp only [Expr.eval, iha _ g1 rfl]
    · simp at hv
  | f2 o a b iha ihb | fc o a b iha ihb | ic o a b iha ihb | i2 o a b iha ihb | and a b iha ihb | or a b iha ihb =>
    intro v hv hs
    simp only [Expr.ty] at hv
    split at hv
    · rename_i g1
      split at hv
      · rename_i g2
        simp only [Expr.eval, iha _ g1 rfl, ihb _ g2 rfl]
      · simp at hv
    · simp at hv
  | ite q a b ihc iha ihb =>
    intro v hv hs
    simp only [Expr.ty] at hv
    split at hv
    · rename_i g0
      split at hv
      all_goals first
        | (rename_i g1
           split at hv
           · rename_i g2
             simp only [Expr.eval, ihc _ g0 rfl, iha _ g1 rfl, ihb _ g2 rfl]
           · simp at hv)
        | simp at hv
    · simp at hv

theorem tyArgs_eq {up : Hit} {c d : Ctx α} (hn : c.P.length = d.P.length) (hK : ∀ v, c.K v ↔ ∃ x, v = .f x) (hL : ∀ v, d.K v ↔ ∃ x, v = .f x)
    {A : List AB} {m k : Mem α} (hR : Pair up c d A m k) {base b1 b2 : Nat} (hb : c.P.length ≤ base)
    (h1 : b1 = c.M.length + (base - c.P.length)) (h2 : b2 = d.M.length + (base - d.P.length)) {env : List AV} {e1 e2 : List (Val α)}
    (he : PE c d env e1 e2) (es : List Expr) : ∀ vs, tyArgs base env A es = some vs →
      ∃ x y, evalArgs b1 e1 m es = some x ∧ evalArgs b2 e2 k es = some y ∧ PE c d vs x y := by
  induction es with
  | nil =>
    intro vs h
    simp only [tyArgs, Option.some.injEq] at h
    subst h
    exact ⟨[], [], rfl, rfl, .nil, .nil, fun _ _ _ _ => rfl⟩
  | cons e es ih =>
    intro vs h
    simp only [tyArgs] at h
    split at h
    · rename_i v hv
      split at h
      · rename_i vs1 hvs
        simp only [Option.some.injEq] at h
        subst h
        obtain ⟨v1, g1, f1⟩ := ty_sound hK hR.l hb h1 he.l e v hv
        obtain ⟨v2, g2, f2⟩ := ty_sound hL hR.r (hn ▸ hb) h2 he.r e v hv
        obtain ⟨x, y, g3, g4, g5⟩ := ih vs1 hvs
        refine ⟨v1 :: x, v2 :: y, by simp only [evalArgs, g1, g3], by simp only [evalArgs, g2, g4], .cons f1 g5.l, .cons f2 g5.r, ?_⟩
        rintro (_ | i) a ha hs
        · simp only [List.getElem?_cons_zero, Option.some.injEq] at ha ⊢
          subst ha
          have := ty_eq hn hK hL hR hb h1 h2 he e _ hv hs
          rw [g1, g2] at this
          simpa using this
        · exact g5.eq i a (by simpa using ha) hs
      · simp at h
    · simp at h

end

/-- results are as the analysis says and agree -/
structure PR (c d : Ctx α) (a : Option AV) (v w : Option (Val α)) : Prop where
  l : SR c a v
  r : SR d a w
  eq : ∀ u, a = some u → u.sc = true → v = w

theorem PR.weak {c d : Ctx α} {a a' : Option AV} {v w : Option (Val α)} (h : PR c d a v w) (hw : RWk a a') : PR c d a' v w := by
  cases a with
  | none =>
    cases hw
    exact h
  | some u =>
    obtain ⟨u', rfl, rfl | rfl⟩ := hw
    · exact h
    · obtain ⟨h1, h2, -⟩ := h
      cases v with
      | none => exact h1.elim
      | some v =>
        cases w with
        | none => exact h2.elim
        | some w => exact ⟨trivial, trivial, fun _ e hs => by cases e; simp [AV.sc] at hs⟩

/-- two statements end alike -/
inductive PO (up : Hit) (c d : Ctx α) (r : AOut) : Out α → Out α → Prop
  | next {env env' m k e A} : r.next = some (e, A) → PE c d e env env' → Pair up c d A m k → PO up c d r (.next env m) (.next env' k)
  | ret {v w m k a A} : r.ret = some (a, A) → PR c d a v w → Pair up c d A m k → PO up c d r (.ret v m) (.ret w k)

theorem PO.leave {up : Hit} {c d : Ctx α} (hn : c.P.length = d.P.length) (hP : ∀ q ∈ c.P, q.1 < c.M.length) (hQ : ∀ q ∈ d.P, q.1 < d.M.length)
    {r : AOut} {o o' : Out α} (h : PO up c d r o o') {n i j : Nat} {a : Option AV} {A : List AB}
    (hr : r.leave n = some (a, A)) (hle : c.P.length ≤ n) (hi : i = c.M.length + (n - c.P.length)) (hj : j = d.M.length + (n - d.P.length)) :
    ∃ v m k, o.leave i = some (v, m) ∧ o'.leave j = some (v, k) ∧ SR c a v ∧ SR d a v ∧ Pair up c d A m k := by
  unfold AOut.leave at hr
  split at hr
  · rename_i e A0 h1 h2
    split at hr
    · rename_i hA
      simp only [Option.some.injEq, Prod.mk.injEq] at hr
      obtain ⟨rfl, rfl⟩ := hr
      cases h with
      | next g1 g2 g3 =>
        rw [h1] at g1; cases g1
        exact ⟨none, _, _, rfl, rfl, trivial, trivial, g3.leave hn hP hQ hA hle hi hj⟩
      | ret g1 => rw [h2] at g1; simp at g1
    · simp at hr
  · rename_i A0 h1 h2
    split at hr
    · rename_i hA
      simp only [Option.some.injEq, Prod.mk.injEq] at hr
      obtain ⟨rfl, rfl⟩ := hr
      cases h with
      | next g1 g2 g3 => rw [h1] at g1; simp at g1
      | @ret v w _ _ _ _ g1 g2 g3 =>
        rw [h2] at g1; cases g1
        cases v with
        | some v => exact g2.l.elim
        | none =>
          cases w with
          | some w => exact g2.r.elim
          | none => exact ⟨none, _, _, rfl, rfl, trivial, trivial, g3.leave hn hP hQ hA hle hi hj⟩
    · simp at hr
  · rename_i e A0 A1 h1 h2
    split at hr
    · rename_i A2 hJ
      split at hr
      · rename_i hA
        simp only [Option.some.injEq, Prod.mk.injEq] at hr
        obtain ⟨rfl, rfl⟩ := hr
        cases h with
        | next g1 g2 g3 =>
          rw [h1] at g1; cases g1
          exact ⟨none, _, _, rfl, rfl, trivial, trivial, (g3.weak (joinA_wkL hJ)).leave hn hP hQ hA hle hi hj⟩
        | @ret v w _ _ _ _ g1 g2 g3 =>
          rw [h2] at g1; cases g1
          cases v with
          | some v => exact g2.l.elim
          | none =>
            cases w with
            | some w => exact g2.r.elim
            | none => exact ⟨none, _, _, rfl, rfl, trivial, trivial, (g3.weak (joinA_wkR hJ)).leave hn hP hQ hA hle hi hj⟩
      · simp at hr
    · simp at hr
  · rename_i av A0 h1 h2
    cases h with
    | next g1 g2 g3 => rw [h1] at g1; simp at g1
    | @ret v w _ _ _ _ g1 g2 g3 =>
      rw [h2] at g1; cases g1
      cases v with
      | none => exact g2.l.elim
      | some v =>
        cases av with
        | u | p r o => simp at hr
        | f | i | b =>
          have e := g2.eq _ rfl rfl
          subst e
          have hl := g2.l
          have hr' := g2.r
          obtain ⟨x, rfl⟩ := hl
          simp only at hr
          split at hr
          · rename_i hA
            simp only [Option.some.injEq, Prod.mk.injEq] at hr
            obtain ⟨rfl, rfl⟩ := hr
            exact ⟨_, _, _, rfl, rfl, ⟨x, rfl⟩, hr', g3.leave hn hP hQ hA hle hi hj⟩
          · simp at hr
  · simp at hr

variable [Add α] [Sub α] [Mul α] [Div α] [Neg α] [CFloat α]

/-- An accepted statement does the same in both memories. -/
theorem late_sound {up : Hit} {c d : Ctx α} (hn : c.P.length = d.P.length) (hK : ∀ v, c.K v ↔ ∃ x, v = .f x) (hL : ∀ v, d.K v ↔ ∃ x, v = .f x)
    (hP : ∀ q ∈ c.P, q.1 < c.M.length) (hQ : ∀ q ∈ d.P, q.1 < d.M.length) (s : Stmt) :
    ∀ {base b1 b2 : Nat} {env : List AV} {e1 e2 : List (Val α)} {A : List AB} {m k : Mem α} {r : AOut}, s.late up c.P.length base env A = some r →
    Pair up c d A m k → PE c d env e1 e2 → c.P.length ≤ base → b1 = c.M.length + (base - c.P.length) → b2 = d.M.length + (base - d.P.length) →
    ∃ o o', s.exec b1 e1 m = some o ∧ s.exec b2 e2 k = some o' ∧ PO up c d r o o' := by
  induction s with
  | skip =>
    intro base b1 b2 env e1 e2 A m k r h hR he hb h1 h2
    simp only [Stmt.late, Option.some.injEq] at h
    subst h
    exact ⟨_, _, rfl, rfl, .next rfl he hR⟩
  | retVoid =>
    intro base b1 b2 env e1 e2 A m k r h hR he hb h1 h2
    simp only [Stmt.late, Option.some.injEq] at h
    subst h
    exact ⟨_, _, rfl, rfl, .ret rfl ⟨trivial, trivial, fun _ _ _ => rfl⟩ hR⟩
  | ret e =>
    intro base b1 b2 env e1 e2 A m k r h hR he hb h1 h2
    simp only [Stmt.late] at h
    split at h
    · rename_i v hv
      simp only [Option.some.injEq] at h
      subst h
      obtain ⟨v1, g1, f1⟩ := ty_sound hK hR.l hb h1 he.l e v hv
      obtain ⟨v2, g2, f2⟩ := ty_sound hL hR.r (hn ▸ hb) h2 he.r e v hv
      refine ⟨.ret (some v1) m, .ret (some v2) k, by simp only [Stmt.exec, g1], by simp only [Stmt.exec, g2], .ret rfl ⟨f1, f2, ?_⟩ hR⟩
      intro u hu hs
      cases hu
      have := ty_eq hn hK hL hR hb h1 h2 he e _ hv hs
      rwa [g1, g2] at this
    · simp at h
  | set i e =>
    intro base b1 b2 env e1 e2 A m k r h hR he hb h1 h2
    simp only [Stmt.late] at h
    split at h
    · rename_i v hv
      simp only [Option.some.injEq] at h
      subst h
      obtain ⟨v1, g1, f1⟩ := ty_sound hK hR.l hb h1 he.l e v hv
      obtain ⟨v2, g2, f2⟩ := ty_sound hL hR.r (hn ▸ hb) h2 he.r e v hv
      refine ⟨.next (e1.set i v1) m, .next (e2.set i v2) k, by simp only [Stmt.exec, g1], by simp only [Stmt.exec, g2], .next rfl (he.set i f1 f2 ?_) hR⟩
      intro hs
      have := ty_eq hn hK hL hR hb h1 h2 he e _ hv hs
      rw [g1, g2] at this
      simpa using this
    · simp at h
  | store p e =>
    intro base b1 b2 env e1 e2 A m k r h hR he hb h1 h2
    simp only [Stmt.late] at h
    split at h
    · rename_i s o hp
      obtain ⟨p1, g1, f1⟩ := ty_sound hK hR.l hb h1 he.l p _ hp
      obtain ⟨p2, g2, f2⟩ := ty_sound hL hR.r (hn ▸ hb) h2 he.r p _ hp
      simp only [SV] at f1 f2; subst f1; subst f2
      split at h
      · rename_i B hB
        split at h
        · rename_i hc
          simp only [Bool.and_eq_true, Nat.blt_eq] at hc
          split at h
          · rename_i hv
            obtain ⟨v1, g3, x, rfl⟩ := ty_sound hK hR.l hb h1 he.l e _ hv
            have g4 := ty_eq hn hK hL hR hb h1 h2 he e _ hv rfl
            rw [g3] at g4
            have hx : c.K (.f x) ∧ d.K (.f x) := ⟨(hK _).mpr ⟨x, rfl⟩, (hL _).mpr ⟨x, rfl⟩⟩
            split at h
            · rename_i hnr
              simp only [Option.some.injEq] at h
              subst h
              rw [Nat.ble_eq] at hnr
              obtain ⟨m', k', g5, g6, g7⟩ := hR.mark hn hP hQ hB hc.1 hc.2 (.f x) true (fun _ => hx) (Or.inl hx) (fun _ => by omega)
              exact ⟨.next e1 m', .next e2 k', by simp only [Stmt.exec, g1, g3, g5], by simp only [Stmt.exec, g2, ← g4, g6], .next rfl he g7⟩
            · simp only [Option.some.injEq] at h
              subst h
              obtain ⟨l1, l2⟩ := clearA_get (up s o) c.P.length 0 A
              have hs : s < (clearA (up s o) 0 c.P.length A).length := by
                rw [l1]; exact (List.getElem?_eq_some_iff.mp hB).1
              obtain ⟨B0, q1, q2, q3, -⟩ := l2 s _ (List.getElem?_eq_getElem hs)
              rw [hB] at q1; cases q1
              obtain ⟨m', k', g5, g6, g7⟩ := (hR.weak (clearA_wk (up s o) c.P.length A)).mark (o := o) hn hP hQ (List.getElem?_eq_getElem hs) (by rw [q3]; exact hc.1) (by omega) (.f x) true
                (fun _ => hx) (Or.inl hx) (fun _ r' B' i hr' hB' hi => by
                  obtain ⟨_, -, -, -, q4⟩ := l2 r' B' hB'
                  have := (q4 i hi).2 hr'
                  rwa [Nat.zero_add] at this)
              exact ⟨.next e1 m', .next e2 k', by simp only [Stmt.exec, g1, g3, g5], by simp only [Stmt.exec, g2, ← g4, g6], .next rfl he g7⟩
          · simp at h
        · simp at h
      · simp at h
    · simp at h
  | havoc p =>
    intro base b1 b2 env e1 e2 A m k r h hR he hb h1 h2
    simp only [Stmt.late] at h
    split at h
    · rename_i s o hp
      obtain ⟨p1, g1, f1⟩ := ty_sound hK hR.l hb h1 he.l p _ hp
      obtain ⟨p2, g2, f2⟩ := ty_sound hL hR.r (hn ▸ hb) h2 he.r p _ hp
      simp only [SV] at f1 f2; subst f1; subst f2
      split at h
      · rename_i B hB
        split at h
        · rename_i hc
          simp only [Bool.and_eq_true, Nat.blt_eq, Nat.ble_eq] at hc
          simp only [Option.some.injEq] at h
          subst h
          obtain ⟨m', k', g5, g6, g7⟩ := hR.mark hn hP hQ hB hc.1.2 hc.2 .undef false (by simp) (Or.inr hc.1.1) (fun _ => by omega)
          exact ⟨.next e1 m', .next e2 k', by simp only [Stmt.exec, g1, g5], by simp only [Stmt.exec, g2, g6], .next rfl he g7⟩
        · simp at h
      · simp at h
    · simp at h
  | seq a b iha ihb =>
    intro base b1 b2 env e1 e2 A m k r h hR he hb h1 h2
    simp only [Stmt.late] at h
    split at h
    · rename_i ra hra
      obtain ⟨o, o', x1, x2, x3⟩ := iha hra hR he hb h1 h2
      split at h
      · rename_i f1 A1 hnx
        split at h
        · rename_i rb hrb
          split at h
          · rename_i t ht
            simp only [Option.some.injEq] at h
            subst h
            cases x3 with
            | next g1 g2 g3 =>
              rw [hnx] at g1; cases g1
              obtain ⟨q, q', y1, y2, y3⟩ := ihb hrb g3 g2 hb h1 h2
              refine ⟨q, q', by simp only [Stmt.exec, x1, y1], by simp only [Stmt.exec, x2, y2], ?_⟩
              cases y3 with
              | next u1 u2 u3 => exact .next u1 u2 u3
              | ret u1 u2 u3 =>
                obtain ⟨a', A', w1, w2, w3⟩ := joinRet_wk ht (Or.inr u1)
                exact .ret w1 (u2.weak w2) (u3.weak w3)
            | ret u1 u2 u3 =>
              obtain ⟨a', A', w1, w2, w3⟩ := joinRet_wk ht (Or.inl u1)
              exact ⟨_, _, by simp only [Stmt.exec, x1], by simp only [Stmt.exec, x2], .ret w1 (u2.weak w2) (u3.weak w3)⟩
          · simp at h
        · simp at h
      · rename_i hnx
        simp only [Option.some.injEq] at h
        subst h
        cases x3 with
        | next g1 g2 g3 => rw [hnx] at g1; simp at g1
        | ret u1 u2 u3 => exact ⟨_, _, by simp only [Stmt.exec, x1], by simp only [Stmt.exec, x2], .ret u1 u2 u3⟩
    · simp at h
  | ite q a b iha ihb =>
    intro base b1 b2 env e1 e2 A m k r h hR he hb h1 h2
    simp only [Stmt.late] at h
    split at h
    · rename_i hk
      obtain ⟨v, h0, z, rfl⟩ := ty_sound hK hR.l hb h1 he.l q _ hk
      have h0' := ty_eq hn hK hL hR hb h1 h2 he q _ hk rfl
      rw [h0] at h0'
      split at h
      · rename_i ra hra
        split at h
        · rename_i rb hrb
          split at h
          · rename_i x hx
            split at h
            · rename_i t ht
              simp only [Option.some.injEq] at h
              subst h
              cases z with
              | true =>
                obtain ⟨o, o', x1, x2, x3⟩ := iha hra hR he hb h1 h2
                refine ⟨o, o', by simp only [Stmt.exec, h0, x1, if_true], by simp only [Stmt.exec, ← h0', x2, if_true], ?_⟩
                cases x3 with
                | next u1 u2 u3 =>
                  obtain ⟨a', A', w1, w2, w3⟩ := joinNext_wk hx (Or.inl u1)
                  exact .next w1 (u2.weak w2) (u3.weak w3)
                | ret u1 u2 u3 =>
                  obtain ⟨a', A', w1, w2, w3⟩ := joinRet_wk ht (Or.inl u1)
                  exact .ret w1 (u2.weak w2) (u3.weak w3)
              | false =>
                obtain ⟨o, o', x1, x2, x3⟩ := ihb hrb hR he hb h1 h2
                refine ⟨o, o', by simp [Stmt.exec, h0, x1], by simp [Stmt.exec, ← h0', x2], ?_⟩
                cases x3 with
                | next u1 u2 u3 =>
                  obtain ⟨a', A', w1, w2, w3⟩ := joinNext_wk hx (Or.inr u1)
                  exact .next w1 (u2.weak w2) (u3.weak w3)
                | ret u1 u2 u3 =>
                  obtain ⟨a', A', w1, w2, w3⟩ := joinRet_wk ht (Or.inr u1)
                  exact .ret w1 (u2.weak w2) (u3.weak w3)
            · simp at h
          · simp at h
        · simp at h
      · simp at h
    · simp at h
  | call dst locals nregs body args ih =>
    intro base b1 b2 env e1 e2 A m k r h hR he hb h1 h2
    simp only [Stmt.late] at h
    split at h
    · rename_i vs hvs
      obtain ⟨x, y, x1, x2, x3⟩ := tyArgs_eq hn hK hL hR hb h1 h2 he args vs hvs
      split at h
      · rename_i rb hrb
        obtain ⟨o, o', y1, y2, y3⟩ := ih hrb (hR.enter locals) (x3.append nregs) hR.l.le hR.l.len hR.r.len
        split at h
        · rename_i av A' hl
          obtain ⟨v, m', k', z1, z2, z3, z4, z5⟩ := y3.leave hn hP hQ hl hR.l.le hR.l.len hR.r.len
          split at h
          · simp only [Option.some.injEq] at h
            subst h
            exact ⟨.next e1 m', .next e2 k', by simp only [Stmt.exec, x1, y1, z1, resume], by simp only [Stmt.exec, x2, y2, z2, resume], .next rfl he z5⟩
          · rename_i d
            split at h
            · rename_i av
              simp only [Option.some.injEq] at h
              subst h
              cases v with
              | none => exact z3.elim
              | some v =>
                exact ⟨.next (e1.set d v) m', .next (e2.set d v) k', by simp only [Stmt.exec, x1, y1, z1, resume], by simp only [Stmt.exec, x2, y2, z2, resume],
                  .next rfl (he.set d z3 z4 fun _ => rfl) z5⟩
            · simp at h
        · simp at h
      · simp at h
    · simp at h

end Cglm.CMem
