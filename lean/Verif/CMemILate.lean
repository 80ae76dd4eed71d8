import Verif.CMemLate
import Verif.CMemISafe

/-!
# Integer functions that read their inputs before they write

The analysis of `Verif.CMemLate` for functions with checked integer arithmetic.  Arithmetic may be undefined, so the
statement is: if one run is defined, so is the other, and they end alike.
-/

namespace Cglm.CMem

/-- The analysis of a statement, `none` if it may be unsafe or depend on overlap; `n` is the number of argument arrays. -/
def IStmt.late (up : Hit) (n : Nat) : IStmt → Nat → List AV → List AB → Option AOut
  | .skip, _, env, A => some ⟨some (env, A), none⟩
  | .seq a b, base, env, A =>
    match a.late up n base env A with
    | some r =>
      match r.next with
      | some (env', A') =>
        match b.late up n base env' A' with
        | some r' =>
          match joinRet r.ret r'.ret with
          | some t => some ⟨r'.next, t⟩
          | none => none
        | none => none
      | none => some r
    | none => none
  | .set i e, base, env, A =>
    match e.ty base env A with
    | some v => some ⟨some (env.set i v, A), none⟩
    | none => none
  | .store p e, base, env, A =>
    match p.ty base env A with
    | some (.p r o) =>
      match A[r]? with
      | some B =>
        match B.w && Nat.blt o B.init.length with
        | true =>
          match e.ty base env A with
          | some .i =>
            match Nat.ble n r with
            | true => some ⟨some (env, mark A r o true), none⟩
            | false => some ⟨some (env, mark (clearA (up r o) 0 n A) r o true), none⟩
          | _ => none
        | false => none
      | none => none
    | _ => none
  | .ite c a b, base, env, A =>
    match c.ty base env A with
    | some .b =>
      match a.late up n base env A with
      | some r =>
        match b.late up n base env A with
        | some r' =>
          match joinNext r.next r'.next with
          | some x =>
            match joinRet r.ret r'.ret with
            | some t => some ⟨x, t⟩
            | none => none
          | none => none
        | none => none
      | none => none
    | _ => none
  | .call dst locals nregs body args, base, env, A =>
    match ityArgs base env A args with
    | some vs =>
      match body.late up n A.length (vs ++ List.replicate nregs .u) (A ++ freshA locals) with
      | some r =>
        match r.leave A.length with
        | some (v, A') =>
          match dst with
          | none => some ⟨some (env, A'), none⟩
          | some d =>
            match v with
            | some v => some ⟨some (env.set d v, A'), none⟩
            | none => none
        | none => none
      | none => none
    | none => none
  | .ret e, base, env, A =>
    match e.ty base env A with
    | some v => some ⟨none, some (some v, A)⟩
    | none => none
  | .retVoid, _, _, A => some ⟨none, some (none, A)⟩

/-- The analysis of a call from outside. -/
def IFn.late (up : Hit) (f : IFn) (A : List AB) (args : List AV) : Option (Option AV × List AB) :=
  match f.body.late up A.length A.length (args ++ List.replicate f.nregs .u) (A ++ freshA f.locals) with
  | some r => r.leave A.length
  | none => none


variable {α : Type} [Add α] [Sub α] [Mul α] [Div α] [Neg α] [CFloat α] [CIntConv α]

theorem ity_ptr {c : Ctx α} {A : List AB} {m : Mem α} (hR : Ok c A m) {base b1 : Nat} (hb : c.P.length ≤ base)
    (h1 : b1 = c.M.length + (base - c.P.length)) {env : List AV} {e1 : List (Val α)} (he : SE c env e1) :
    ∀ (e : IExpr) (r o : Nat), e.ty base env A = some (.p r o) → e.eval b1 e1 m = some (.p (c.addr r).1 ((c.addr r).2 + o)) := by
  intro e
  induction e with
  | reg i =>
    intro r o ha
    simp only [IExpr.ty] at ha
    split at ha
    · simp at ha
    · rename_i v _ hv
      simp only [Option.some.injEq] at ha; subst ha
      rcases Forall₂.get he i with ⟨g1, -⟩ | ⟨x, y, g1, g2, g3⟩
      · rw [g1] at hv; simp at hv
      · rw [g1] at hv; cases hv
        simp only [SV] at g3; subst g3
        simp only [IExpr.eval, Expr.eval, g2]
    · simp at ha
  | loc i =>
    intro r o ha
    simp only [IExpr.ty] at ha
    split at ha
    · rename_i hl
      simp only [Option.some.injEq, AV.p.injEq] at ha
      obtain ⟨rfl, rfl⟩ := ha
      have hl1 := hR.len
      have hl2 := hR.le
      have : b1 + i < m.length := by omega
      simp only [IExpr.eval, Expr.eval, this, if_true]
      rw [c.addr_local (by omega)]
      simp only [Option.some.injEq, Val.p.injEq, Nat.add_zero, and_true]
      omega
    · simp at ha
  | off p n ih =>
    intro r o ha
    simp only [IExpr.ty] at ha
    split at ha
    · rename_i r0 o0 hp
      simp only [Option.some.injEq, AV.p.injEq] at ha
      obtain ⟨rfl, rfl⟩ := ha
      simp only [IExpr.eval, ih r0 o0 hp, Nat.add_assoc]
    · simp at ha
  | ilit n | blit b => intro r o ha; simp [IExpr.ty] at ha
  | load p ih => intro r o ha; simp only [IExpr.ty] at ha; (repeat' split at ha) <;> simp at ha
  | i1 p a ih | sar a p ih | not a ih | ofInt a ih | toInt a ih | f1 p a ih =>
    intro r o ha; simp only [IExpr.ty] at ha; (repeat' split at ha) <;> simp at ha
  | i2 p a b _ _ | ic p a b _ _ | and a b _ _ | or a b _ _ => intro r o ha; simp only [IExpr.ty] at ha; (repeat' split at ha) <;> simp at ha
  | ite q a b _ _ _ => intro r o ha; simp only [IExpr.ty] at ha; (repeat' split at ha) <;> simp at ha

theorem ity_eq {up : Hit} {c d : Ctx α} (hn : c.P.length = d.P.length) (hK : ∀ v, c.K v ↔ ∃ x, v = .i x)
    {A : List AB} {m k : Mem α} (hR : Pair up c d A m k) {base b1 b2 : Nat} (hb : c.P.length ≤ base)
    (h1 : b1 = c.M.length + (base - c.P.length)) (h2 : b2 = d.M.length + (base - d.P.length)) {env : List AV} {e1 e2 : List (Val α)}
    (he : PE c d env e1 e2) : ∀ (e : IExpr) (a : AV), e.ty base env A = some a → a.sc = true → e.eval b1 e1 m = e.eval b2 e2 k := by
  intro e
  induction e with
  | reg i =>
    intro a ha hs
    simp only [IExpr.ty] at ha
    split at ha
    · simp at ha
    · rename_i v _ hv
      simp only [Option.some.injEq] at ha; subst ha
      simp only [IExpr.eval, Expr.eval, he.eq i v hv hs]
    · simp at ha
  | loc i =>
    intro a ha hs
    simp only [IExpr.ty] at ha
    split at ha
    · cases ha; simp [AV.sc] at hs
    · simp at ha
  | ilit n | blit b => intro a ha hs; rfl
  | off p n ih =>
    intro a ha hs
    simp only [IExpr.ty] at ha
    split at ha
    · cases ha; simp [AV.sc] at hs
    · simp at ha
  | load p ih =>
    intro a ha hs
    simp only [IExpr.ty] at ha
    split at ha
    · rename_i r o hp
      have g1 := ity_ptr hR.l hb h1 he.l p _ _ hp
      have g2 := ity_ptr hR.r (hn ▸ hb) h2 he.r p _ _ hp
      split at ha
      · rename_i B hB
        split at ha
        · rename_i hz
          obtain ⟨v, hc, hx⟩ := hR.l.has r B o true hB hz
          obtain ⟨x, rfl⟩ := (hK v).mp (hx rfl)
          have hc' := hc
          rw [hR.eq r B o hB hz] at hc'
          simp only [IExpr.eval, g1, g2]
          rw [load_eq_some.mpr ⟨hc, by simp⟩, load_eq_some.mpr ⟨hc', by simp⟩]
        · simp at ha
      · simp at ha
    · simp at ha
  | i1 o a iha | sar a o iha | not a iha | ofInt a iha | toInt a iha | f1 o a iha =>
    intro v hv hs
    simp only [IExpr.ty] at hv
    split at hv
    · rename_i g1
      simp only [IExpr.eval, iha _ g1 rfl]
    · simp at hv
  | ic o a b iha ihb | i2 o a b iha ihb | and a b iha ihb | or a b iha ihb =>
    intro v hv hs
    simp only [IExpr.ty] at hv
    split at hv
    · rename_i g1
      split at hv
      · rename_i g2
        simp only [IExpr.eval, iha _ g1 rfl, ihb _ g2 rfl]
      · simp at hv
    · simp at hv
  | ite q a b ihc iha ihb =>
    intro v hv hs
    simp only [IExpr.ty] at hv
    split at hv
    · rename_i g0
      split at hv
      all_goals first
        | (rename_i g1
           split at hv
           · rename_i g2
             simp only [IExpr.eval, ihc _ g0 rfl, iha _ g1 rfl, ihb _ g2 rfl]
           · simp at hv)
        | simp at hv
    · simp at hv

omit [Add α] [Sub α] [Mul α] [Div α] [Neg α] [CFloat α] [CIntConv α] in
theorem ity_not_u {base : Nat} {env : List AV} {A : List AB} (e : IExpr) : e.ty base env A ≠ some .u := by
  intro h
  cases e <;> simp only [IExpr.ty] at h
  case reg i =>
    split at h
    · simp at h
    · rename_i v hv _
      simp only [Option.some.injEq] at h
      exact hv h
    · simp at h
  all_goals ((repeat' split at h) <;> simp at h)

theorem ity_value {c : Ctx α} (hK : ∀ v, c.K v ↔ ∃ x, v = .i x) {A : List AB} {m : Mem α} (hR : Ok c A m) {base b1 : Nat} (hb : c.P.length ≤ base)
    (h1 : b1 = c.M.length + (base - c.P.length)) {env : List AV} {e1 : List (Val α)} (he : SE c env e1) (e : IExpr) (a : AV)
    (ha : e.ty base env A = some a) {v : Val α} (hv : e.eval b1 e1 m = some v) : SV c a v := by
  obtain ⟨w, g1, g2⟩ := ity_sound Arith.zero hK hR hb h1 he e a ha
  rw [eval_evalA Arith.zero_agrees e hv] at g1
  cases g1
  exact g2

/-- an expression with a type has the same value in both memories -/
theorem ity_both {up : Hit} {c d : Ctx α} (hn : c.P.length = d.P.length) (hK : ∀ v, c.K v ↔ ∃ x, v = .i x) (hL : ∀ v, d.K v ↔ ∃ x, v = .i x)
    {A : List AB} {m k : Mem α} (hR : Pair up c d A m k) {base b1 b2 : Nat} (hb : c.P.length ≤ base)
    (h1 : b1 = c.M.length + (base - c.P.length)) (h2 : b2 = d.M.length + (base - d.P.length)) {env : List AV} {e1 e2 : List (Val α)}
    (he : PE c d env e1 e2) (e : IExpr) (a : AV) (ha : e.ty base env A = some a) {v : Val α} (hv : e.eval b1 e1 m = some v) :
    ∃ w, e.eval b2 e2 k = some w ∧ SV c a v ∧ SV d a w ∧ (a.sc = true → v = w) := by
  have hs := ity_value hK hR.l hb h1 he.l e a ha hv
  cases a with
  | u => exact absurd ha (ity_not_u e)
  | p r o =>
    have g2 := ity_ptr hR.r (hn ▸ hb) h2 he.r e _ _ ha
    exact ⟨_, g2, hs, rfl, fun h => by simp [AV.sc] at h⟩
  | f | i | b =>
    have g := ity_eq hn hK hR hb h1 h2 he e _ ha rfl
    rw [hv] at g
    exact ⟨v, g.symm, hs, ity_value hL hR.r (hn ▸ hb) h2 he.r e _ ha g.symm, fun _ => rfl⟩

theorem ityArgs_both {up : Hit} {c d : Ctx α} (hn : c.P.length = d.P.length) (hK : ∀ v, c.K v ↔ ∃ x, v = .i x) (hL : ∀ v, d.K v ↔ ∃ x, v = .i x)
    {A : List AB} {m k : Mem α} (hR : Pair up c d A m k) {base b1 b2 : Nat} (hb : c.P.length ≤ base)
    (h1 : b1 = c.M.length + (base - c.P.length)) (h2 : b2 = d.M.length + (base - d.P.length)) {env : List AV} {e1 e2 : List (Val α)}
    (he : PE c d env e1 e2) (es : List IExpr) : ∀ vs x, ityArgs base env A es = some vs → ievalArgs b1 e1 m es = some x →
      ∃ y, ievalArgs b2 e2 k es = some y ∧ PE c d vs x y := by
  induction es with
  | nil =>
    intro vs x h hx
    simp only [ityArgs, Option.some.injEq] at h
    simp only [ievalArgs, Option.some.injEq] at hx
    subst h; subst hx
    exact ⟨[], rfl, .nil, .nil, fun _ _ _ _ => rfl⟩
  | cons e es ih =>
    intro vs x h hx
    simp only [ityArgs] at h
    simp only [ievalArgs] at hx
    split at h
    · rename_i v hv
      split at h
      · rename_i vs1 hvs
        simp only [Option.some.injEq] at h
        subst h
        split at hx
        · rename_i v1 g1
          split at hx
          · rename_i x1 hx1
            simp only [Option.some.injEq] at hx
            subst hx
            obtain ⟨v2, g2, f1, f2, f3⟩ := ity_both hn hK hL hR hb h1 h2 he e v hv g1
            obtain ⟨y, g4, g5⟩ := ih vs1 x1 hvs hx1
            refine ⟨v2 :: y, by simp only [ievalArgs, g2, g4], .cons f1 g5.l, .cons f2 g5.r, ?_⟩
            rintro (_ | i) a ha hs
            · simp only [List.getElem?_cons_zero, Option.some.injEq] at ha ⊢
              subst ha
              exact f3 hs
            · exact g5.eq i a (by simpa using ha) hs
          · simp at hx
        · simp at hx
      · simp at h
    · simp at h


/-- If an accepted statement is defined in one memory it is defined in the other, and does the same. -/
theorem ilate_sound {up : Hit} {c d : Ctx α} (hn : c.P.length = d.P.length) (hK : ∀ v, c.K v ↔ ∃ x, v = .i x) (hL : ∀ v, d.K v ↔ ∃ x, v = .i x)
    (hP : ∀ q ∈ c.P, q.1 < c.M.length) (hQ : ∀ q ∈ d.P, q.1 < d.M.length) (s : IStmt) :
    ∀ {base b1 b2 : Nat} {env : List AV} {e1 e2 : List (Val α)} {A : List AB} {m k : Mem α} {r : AOut} {o : Out α}, s.late up c.P.length base env A = some r →
    s.exec b1 e1 m = some o →
    Pair up c d A m k → PE c d env e1 e2 → c.P.length ≤ base → b1 = c.M.length + (base - c.P.length) → b2 = d.M.length + (base - d.P.length) →
    ∃ o', s.exec b2 e2 k = some o' ∧ PO up c d r o o' := by
  induction s with
  | skip =>
    intro base b1 b2 env e1 e2 A m k r o h hx hR he hb h1 h2
    simp only [IStmt.late, Option.some.injEq] at h
    simp only [IStmt.exec, Option.some.injEq] at hx
    subst h; subst hx
    exact ⟨_, rfl, .next rfl he hR⟩
  | retVoid =>
    intro base b1 b2 env e1 e2 A m k r o h hx hR he hb h1 h2
    simp only [IStmt.late, Option.some.injEq] at h
    simp only [IStmt.exec, Option.some.injEq] at hx
    subst h; subst hx
    exact ⟨_, rfl, .ret rfl ⟨trivial, trivial, fun _ _ _ => rfl⟩ hR⟩
  | ret e =>
    intro base b1 b2 env e1 e2 A m k r o h hx hR he hb h1 h2
    simp only [IStmt.late] at h
    simp only [IStmt.exec] at hx
    split at h
    · rename_i v hv
      simp only [Option.some.injEq] at h
      subst h
      split at hx
      · rename_i v1 g1
        simp only [Option.some.injEq] at hx
        subst hx
        obtain ⟨v2, g2, f1, f2, f3⟩ := ity_both hn hK hL hR hb h1 h2 he e v hv g1
        refine ⟨.ret (some v2) k, by simp only [IStmt.exec, g2], .ret rfl ⟨f1, f2, ?_⟩ hR⟩
        intro u hu hs
        cases hu
        rw [f3 hs]
      · simp at hx
    · simp at h
  | set i e =>
    intro base b1 b2 env e1 e2 A m k r o h hx hR he hb h1 h2
    simp only [IStmt.late] at h
    simp only [IStmt.exec] at hx
    split at h
    · rename_i v hv
      simp only [Option.some.injEq] at h
      subst h
      split at hx
      · rename_i v1 g1
        simp only [Option.some.injEq] at hx
        subst hx
        obtain ⟨v2, g2, f1, f2, f3⟩ := ity_both hn hK hL hR hb h1 h2 he e v hv g1
        exact ⟨.next (e2.set i v2) k, by simp only [IStmt.exec, g2], .next rfl (he.set i f1 f2 f3) hR⟩
      · simp at hx
    · simp at h
  | store p e =>
    intro base b1 b2 env e1 e2 A m k r q h hx hR he hb h1 h2
    simp only [IStmt.late] at h
    split at h
    · rename_i s o hp
      have g1 := ity_ptr hR.l hb h1 he.l p _ _ hp
      have g2 := ity_ptr hR.r (hn ▸ hb) h2 he.r p _ _ hp
      simp only [IStmt.exec, g1] at hx
      split at h
      · rename_i B hB
        split at h
        · rename_i hc
          simp only [Bool.and_eq_true, Nat.blt_eq] at hc
          split at h
          · rename_i hv
            rcases hev : e.eval b1 e1 m with _ | v1
            · simp [hev] at hx
            obtain ⟨x, rfl⟩ := ity_value hK hR.l hb h1 he.l e _ hv hev
            have g4 := ity_eq hn hK hR hb h1 h2 he e _ hv rfl
            rw [hev] at g4
            simp only [hev] at hx
            have hx' : c.K (.i x) ∧ d.K (.i x) := ⟨(hK _).mpr ⟨x, rfl⟩, (hL _).mpr ⟨x, rfl⟩⟩
            split at h
            · rename_i hnr
              simp only [Option.some.injEq] at h
              subst h
              rw [Nat.ble_eq] at hnr
              obtain ⟨m', k', g5, g6, g7⟩ := hR.mark hn hP hQ hB hc.1 hc.2 (.i x) true (fun _ => hx') (Or.inl hx') (fun _ => by omega)
              simp only [g5, Option.some.injEq] at hx
              subst hx
              exact ⟨.next e2 k', by simp only [IStmt.exec, g2, ← g4, g6], .next rfl he g7⟩
            · simp only [Option.some.injEq] at h
              subst h
              obtain ⟨l1, l2⟩ := clearA_get (up s o) c.P.length 0 A
              have hs : s < (clearA (up s o) 0 c.P.length A).length := by
                rw [l1]; exact (List.getElem?_eq_some_iff.mp hB).1
              obtain ⟨B0, q1, q2, q3, -⟩ := l2 s _ (List.getElem?_eq_getElem hs)
              rw [hB] at q1; cases q1
              obtain ⟨m', k', g5, g6, g7⟩ := (hR.weak (clearA_wk (up s o) c.P.length A)).mark (o := o) hn hP hQ (List.getElem?_eq_getElem hs) (by rw [q3]; exact hc.1) (by omega) (.i x) true
                (fun _ => hx') (Or.inl hx') (fun _ r' B' i hr' hB' hi => by
                  obtain ⟨_, -, -, -, q4⟩ := l2 r' B' hB'
                  have := (q4 i hi).2 hr'
                  rwa [Nat.zero_add] at this)
              simp only [g5, Option.some.injEq] at hx
              subst hx
              exact ⟨.next e2 k', by simp only [IStmt.exec, g2, ← g4, g6], .next rfl he g7⟩
          · simp at h
        · simp at h
      · simp at h
    · simp at h
  | seq a b iha ihb =>
    intro base b1 b2 env e1 e2 A m k r q h hx hR he hb h1 h2
    simp only [IStmt.late] at h
    split at h
    · rename_i ra hra
      rcases hea : a.exec b1 e1 m with _ | oa
      · simp [IStmt.exec, hea] at hx
      obtain ⟨o', x2, x3⟩ := iha hra hea hR he hb h1 h2
      split at h
      · rename_i f1 A1 hnx
        split at h
        · rename_i rb hrb
          split at h
          · rename_i t ht
            simp only [Option.some.injEq] at h
            subst h
            cases x3 with
            | next g1 g2 g3 =>
              rw [hnx] at g1; cases g1
              simp only [IStmt.exec, hea] at hx
              obtain ⟨q', y2, y3⟩ := ihb hrb hx g3 g2 hb h1 h2
              refine ⟨q', by simp only [IStmt.exec, x2, y2], ?_⟩
              cases y3 with
              | next u1 u2 u3 => exact .next u1 u2 u3
              | ret u1 u2 u3 =>
                obtain ⟨a', A', w1, w2, w3⟩ := joinRet_wk ht (Or.inr u1)
                exact .ret w1 (u2.weak w2) (u3.weak w3)
            | ret u1 u2 u3 =>
              obtain ⟨a', A', w1, w2, w3⟩ := joinRet_wk ht (Or.inl u1)
              simp only [IStmt.exec, hea, Option.some.injEq] at hx
              subst hx
              exact ⟨_, by simp only [IStmt.exec, x2], .ret w1 (u2.weak w2) (u3.weak w3)⟩
          · simp at h
        · simp at h
      · rename_i hnx
        simp only [Option.some.injEq] at h
        subst h
        cases x3 with
        | next g1 g2 g3 => rw [hnx] at g1; simp at g1
        | ret u1 u2 u3 =>
          simp only [IStmt.exec, hea, Option.some.injEq] at hx
          subst hx
          exact ⟨_, by simp only [IStmt.exec, x2], .ret u1 u2 u3⟩
    · simp at h
  | ite q a b iha ihb =>
    intro base b1 b2 env e1 e2 A m k r out h hx hR he hb h1 h2
    simp only [IStmt.late] at h
    split at h
    · rename_i hk
      rcases h0 : q.eval b1 e1 m with _ | v
      · simp [IStmt.exec, h0] at hx
      obtain ⟨z, rfl⟩ := ity_value hK hR.l hb h1 he.l q _ hk h0
      have h0' := ity_eq hn hK hR hb h1 h2 he q _ hk rfl
      rw [h0] at h0'
      split at h
      · rename_i ra hra
        split at h
        · rename_i rb hrb
          split at h
          · rename_i x hx'
            split at h
            · rename_i t ht
              simp only [Option.some.injEq] at h
              subst h
              cases z with
              | true =>
                simp only [IStmt.exec, h0, if_true] at hx
                obtain ⟨o', x2, x3⟩ := iha hra hx hR he hb h1 h2
                refine ⟨o', by simp only [IStmt.exec, ← h0', x2, if_true], ?_⟩
                cases x3 with
                | next u1 u2 u3 =>
                  obtain ⟨a', A', w1, w2, w3⟩ := joinNext_wk hx' (Or.inl u1)
                  exact .next w1 (u2.weak w2) (u3.weak w3)
                | ret u1 u2 u3 =>
                  obtain ⟨a', A', w1, w2, w3⟩ := joinRet_wk ht (Or.inl u1)
                  exact .ret w1 (u2.weak w2) (u3.weak w3)
              | false =>
                simp only [IStmt.exec, h0, Bool.false_eq_true, if_false] at hx
                obtain ⟨o', x2, x3⟩ := ihb hrb hx hR he hb h1 h2
                refine ⟨o', by simp [IStmt.exec, ← h0', x2], ?_⟩
                cases x3 with
                | next u1 u2 u3 =>
                  obtain ⟨a', A', w1, w2, w3⟩ := joinNext_wk hx' (Or.inr u1)
                  exact .next w1 (u2.weak w2) (u3.weak w3)
                | ret u1 u2 u3 =>
                  obtain ⟨a', A', w1, w2, w3⟩ := joinRet_wk ht (Or.inr u1)
                  exact .ret w1 (u2.weak w2) (u3.weak w3)
            · simp at h
          · simp at h
        · simp at h
      · simp at h
    · simp at h
  | call dst locals nregs body args ih =>
    intro base b1 b2 env e1 e2 A m k r out h hx hR he hb h1 h2
    simp only [IStmt.late] at h
    split at h
    · rename_i vs hvs
      rcases hxa : ievalArgs b1 e1 m args with _ | x
      · simp [IStmt.exec, hxa] at hx
      obtain ⟨y, x2, x3⟩ := ityArgs_both hn hK hL hR hb h1 h2 he args vs x hvs hxa
      split at h
      · rename_i rb hrb
        rcases hxb : body.exec m.length (x ++ List.replicate nregs .undef) (m ++ fresh locals) with _ | ob
        · simp [IStmt.exec, hxa, hxb] at hx
        obtain ⟨o', y2, y3⟩ := ih hrb hxb (hR.enter locals) (x3.append nregs) hR.l.le hR.l.len hR.r.len
        split at h
        · rename_i av A' hl
          obtain ⟨v, m', k', z1, z2, z3, z4, z5⟩ := y3.leave hn hP hQ hl hR.l.le hR.l.len hR.r.len
          simp only [IStmt.exec, hxa, hxb, z1] at hx
          split at h
          · simp only [Option.some.injEq] at h
            subst h
            simp only [resume, Option.some.injEq] at hx
            subst hx
            exact ⟨.next e2 k', by simp only [IStmt.exec, x2, y2, z2, resume], .next rfl he z5⟩
          · rename_i d
            split at h
            · rename_i av
              simp only [Option.some.injEq] at h
              subst h
              cases v with
              | none => exact z3.elim
              | some v =>
                simp only [resume, Option.some.injEq] at hx
                subst hx
                exact ⟨.next (e2.set d v) k', by simp only [IStmt.exec, x2, y2, z2, resume], .next rfl (he.set d z3 z4 fun _ => rfl) z5⟩
            · simp at h
        · simp at h
      · simp at h
    · simp at h

end Cglm.CMem
