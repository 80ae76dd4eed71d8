import Verif.Thread
import Verif.CMemISafe

/-!
# Calls of integer functions from several threads

As in `Verif.Thread`, a call is turned into the sequence of its single accesses.  An operation that overflows leaves the
thread stuck.  For the proofs there is a second version in which such an operation yields some value and the thread goes on.
-/

namespace Cglm.CMem

variable {α : Type} {N : Nat} {R W : Nat → Nat → Prop}

/-- the value of a checked operation (`iret`) -/
def iact : Option Int32 → Act α (Val α)
  | some n => .done (.i n.toInt)
  | none => .stuck

/-- the operations that may fail -/
structure IOps (α : Type) where
  op2 : IOp2 → Int32 → Int32 → Option Int32
  op1 : IOp1 → Int32 → Option Int32
  conv : α → Option Int32

/-- C's operations, which fail on overflow and division by zero -/
def IOps.checked [CIntConv α] : IOps α := ⟨IOp2.app, IOp1.app, toI32⟩
/-- operations that never fail -/
def Arith.ops (T : Arith α) : IOps α := ⟨fun o x y => some (T.op2 o x y), fun o x => some (T.op1 o x), fun x => some (T.conv x)⟩

section
variable [Add α] [Sub α] [Mul α] [Div α] [Neg α] [CFloat α] [CIntConv α]

/-- Expression evaluation (`IExpr.eval`), one load at a time. -/
def IExpr.act (O : IOps α) (base : Nat) (env : List (Val α)) : IExpr → Act α (Val α)
  | .reg i => (Expr.reg i).act base env
  | .loc i => (Expr.loc i).act base env
  | .ilit n => .done (.i n)
  | .blit b => .done (.b b)
  | .off p n => (p.act O base env).bind fun
    | .p k o => .done (.p k (o + n))
    | _ => .stuck
  | .load p => (p.act O base env).bind fun
    | .p k o => .read k o .done
    | _ => .stuck
  | .i2 o a b => (a.act O base env).bind fun
    | .i x => (b.act O base env).bind fun
      | .i y => iact (O.op2 o (Int32.ofInt x) (Int32.ofInt y))
      | _ => .stuck
    | _ => .stuck
  | .i1 o a => (a.act O base env).bind fun
    | .i x => iact (O.op1 o (Int32.ofInt x))
    | _ => .stuck
  | .sar a k => (a.act O base env).bind fun
    | .i x => iact (some (I32.sar (Int32.ofInt x) k))
    | _ => .stuck
  | .ic o a b => (a.act O base env).bind fun
    | .i x => (b.act O base env).bind fun
      | .i y => .done (.b (o.app x y))
      | _ => .stuck
    | _ => .stuck
  | .and a b => (a.act O base env).bind fun
    | .b true => (b.act O base env).bind fun
      | .b y => .done (.b y)
      | _ => .stuck
    | .b false => .done (.b false)
    | _ => .stuck
  | .or a b => (a.act O base env).bind fun
    | .b false => (b.act O base env).bind fun
      | .b y => .done (.b y)
      | _ => .stuck
    | .b true => .done (.b true)
    | _ => .stuck
  | .not a => (a.act O base env).bind fun
    | .b x => .done (.b (!x))
    | _ => .stuck
  | .ite c a b => (c.act O base env).bind fun
    | .b true => a.act O base env
    | .b false => b.act O base env
    | _ => .stuck
  | .ofInt a => (a.act O base env).bind fun
    | .i x => .done (.f (ofI32 (Int32.ofInt x)))
    | _ => .stuck
  | .toInt a => (a.act O base env).bind fun
    | .f x => iact (O.conv x)
    | _ => .stuck
  | .f1 o a => (a.act O base env).bind fun
    | .f x => .done (.f (o.app x))
    | _ => .stuck

/-- Call arguments (`ievalArgs`). -/
def iactArgs (O : IOps α) (base : Nat) (env : List (Val α)) : List IExpr → Act α (List (Val α))
  | [] => .done []
  | e :: es => (e.act O base env).bind fun v => (iactArgs O base env es).bind fun vs => .done (v :: vs)

/-- Statement execution (`IStmt.exec`), one access at a time. -/
def IStmt.act (O : IOps α) : IStmt → Nat → List (Val α) → Act α (End α)
  | .skip, _, env => .done (.next env)
  | .seq a b, base, env => (a.act O base env).bind fun
    | .next env' => b.act O base env'
    | .ret v => .done (.ret v)
  | .set i e, base, env => (e.act O base env).bind fun v => .done (.next (env.set i v))
  | .store p e, base, env => (p.act O base env).bind fun
    | .p k o => (e.act O base env).bind fun
      | .p _ _ => .stuck
      | v => .write k o v (.done (.next env))
    | _ => .stuck
  | .ite c a b, base, env => (c.act O base env).bind fun
    | .b z => if z then a.act O base env else b.act O base env
    | _ => .stuck
  | .call dst locals nregs body args, base, env => (iactArgs O base env args).bind fun vs =>
    .enter locals fun n => (body.act O n (vs ++ List.replicate nregs .undef)).bind fun x =>
      .leave n (x.value.bind (actResume dst env))
  | .ret e, base, env => (e.act O base env).bind fun v => .done (.ret (some v))
  | .retVoid, _, _ => .done (.ret none)

/-- A call from outside (`IFn.run`), one access at a time. -/
def IFn.act (O : IOps α) (f : IFn) (args : List (Val α)) : Act α (Option (Val α)) :=
  .enter f.locals fun n => (f.body.act O n (args ++ List.replicate f.nregs .undef)).bind fun x => .leave n x.value

omit [Add α] [Sub α] [Mul α] [Div α] [Neg α] [CFloat α] [CIntConv α] in
theorem iact_runs {o : Option Int32} {v : Val α} {m : Mem α} (h : iret o = some v) : Runs N R W (iact o) m v m 0 := by
  obtain ⟨z, rfl, rfl⟩ := iret_some h
  exact .done

theorem iact_ty (T : Arith α) {c : Ctx α} (hK : ∀ v, c.K v ↔ ∃ x, v = .i x) {A : List AB} {m : Mem α} (hR : Ok c A m) {base base' : Nat} (hb : c.P.length ≤ base)
    (hb' : base' = c.M.length + (base - c.P.length)) {env : List AV} {env' : List (Val α)} (he : SE c env env') :
    ∀ (e : IExpr) (v : AV) (v' : Val α), e.ty base env A = some v → e.evalA T base' env' m = some v' →
      ∃ n, Runs c.M.length c.Rd c.W (e.act T.ops base' env') m v' m n := by
  intro e
  induction e with
  | reg i =>
    intro v v' _ h
    simp only [IExpr.evalA, Expr.eval] at h
    simp only [IExpr.act, Expr.act]
    split at h
    · simp at h
    · rename_i w hw hi
      simp only [Option.some.injEq] at h; subst h
      rw [hi]
      cases w <;> first | exact ⟨0, .done⟩ | exact absurd rfl hw
    · simp at h
  | loc i =>
    intro v v' _ h
    simp only [IExpr.evalA, Expr.eval] at h
    split at h
    · simp only [Option.some.injEq] at h; subst h
      exact ⟨0, .done⟩
    · simp at h
  | ilit n | blit n =>
    intro v v' _ h
    simp only [IExpr.evalA, Option.some.injEq] at h; subst h
    exact ⟨0, .done⟩
  | load p ih =>
    intro v v' hv h
    simp only [IExpr.ty] at hv
    simp only [IExpr.evalA] at h
    split at hv
    · rename_i r o hp
      split at h
      · rename_i b o' hp'
        obtain ⟨n1, g1⟩ := ih _ _ hp hp'
        obtain ⟨w, e1, hw⟩ := ity_sound T hK hR hb hb' he p _ hp
        rw [hp'] at e1
        cases e1
        simp only [SV, Val.p.injEq] at hw
        obtain ⟨rfl, rfl⟩ := hw
        refine ⟨_, g1.bind (.read (fun hlt => ?_) h .done)⟩
        by_cases hw : c.W (c.addr r).1 ((c.addr r).2 + o)
        · exact Or.inl hw
        · obtain ⟨h1, h2⟩ := load_eq_some.mp h
          exact Or.inr ⟨v', h2, by rw [← hR.frame _ _ hlt hw]; exact h1⟩
      · simp at h
    · simp at hv
  | off p n ih | not p ih | ofInt p ih | f1 o p ih =>
    intro v v' hv h
    simp only [IExpr.ty] at hv
    simp only [IExpr.evalA] at h
    split at hv
    · rename_i hp
      split at h
      · rename_i hp'
        obtain ⟨n1, g1⟩ := ih _ _ hp hp'
        simp only [Option.some.injEq] at h; subst h
        exact ⟨_, g1.bind .done⟩
      · simp at h
    · simp at hv
  | i1 o p ih | sar p k ih | toInt p ih =>
    intro v v' hv h
    simp only [IExpr.ty] at hv
    simp only [IExpr.evalA] at h
    split at hv
    · rename_i hp
      split at h
      · rename_i hp'
        obtain ⟨n1, g1⟩ := ih _ _ hp hp'
        exact ⟨_, g1.bind (iact_runs (by exact h))⟩
      · simp at h
    · simp at hv
  | i2 o a b iha ihb =>
    intro v v' hv h
    simp only [IExpr.ty] at hv
    simp only [IExpr.evalA] at h
    split at hv
    · rename_i ha
      split at hv
      · rename_i hb
        split at h
        · rename_i ha'
          split at h
          · rename_i hb'
            obtain ⟨n1, g1⟩ := iha _ _ ha ha'
            obtain ⟨n2, g2⟩ := ihb _ _ hb hb'
            exact ⟨_, g1.bind (g2.bind (iact_runs (by exact h)))⟩
          · simp at h
        · simp at h
      · simp at hv
    · simp at hv
  | ic o a b iha ihb =>
    intro v v' hv h
    simp only [IExpr.ty] at hv
    simp only [IExpr.evalA] at h
    split at hv
    · rename_i ha
      split at hv
      · rename_i hb
        split at h
        · rename_i ha'
          split at h
          · rename_i hb'
            obtain ⟨n1, g1⟩ := iha _ _ ha ha'
            obtain ⟨n2, g2⟩ := ihb _ _ hb hb'
            simp only [Option.some.injEq] at h; subst h
            exact ⟨_, g1.bind (g2.bind .done)⟩
          · simp at h
        · simp at h
      · simp at hv
    · simp at hv
  | and a b iha ihb | or a b iha ihb =>
    intro v v' hv h
    simp only [IExpr.ty] at hv
    simp only [IExpr.evalA] at h
    split at hv
    · rename_i ha
      split at hv
      · rename_i hb
        split at h
        · rename_i ha'
          split at h
          · rename_i hb'
            obtain ⟨n1, g1⟩ := iha _ _ ha ha'
            obtain ⟨n2, g2⟩ := ihb _ _ hb hb'
            simp only [Option.some.injEq] at h; subst h
            exact ⟨_, g1.bind (g2.bind .done)⟩
          · simp at h
        · rename_i ha'
          obtain ⟨n1, g1⟩ := iha _ _ ha ha'
          simp only [Option.some.injEq] at h; subst h
          exact ⟨_, g1.bind .done⟩
        · simp at h
      · simp at hv
    · simp at hv
  | ite k a b ihc iha ihb =>
    intro v v' hv h
    simp only [IExpr.ty] at hv
    simp only [IExpr.evalA] at h
    split at hv
    · rename_i h0
      have key : ∃ u w, a.ty base env A = some u ∧ b.ty base env A = some w := by
        split at hv
        all_goals first
          | (rename_i h1
             split at hv
             · rename_i h2; exact ⟨_, _, h1, h2⟩
             · simp at hv)
          | simp at hv
      obtain ⟨u, w, h1, h2⟩ := key
      split at h
      · rename_i h0'
        obtain ⟨n0, g0⟩ := ihc _ _ h0 h0'
        obtain ⟨n1, g1⟩ := iha _ _ h1 h
        exact ⟨_, g0.bind g1⟩
      · rename_i h0'
        obtain ⟨n0, g0⟩ := ihc _ _ h0 h0'
        obtain ⟨n1, g1⟩ := ihb _ _ h2 h
        exact ⟨_, g0.bind g1⟩
      · simp at h
    · simp at hv

theorem iact_tyArgs (T : Arith α) {c : Ctx α} (hK : ∀ v, c.K v ↔ ∃ x, v = .i x) {A : List AB} {m : Mem α} (hR : Ok c A m) {base base' : Nat} (hb : c.P.length ≤ base)
    (hb' : base' = c.M.length + (base - c.P.length)) {env : List AV} {env' : List (Val α)} (he : SE c env env') (es : List IExpr) :
    ∀ vs vs', ityArgs base env A es = some vs → ievalArgsA T base' env' m es = some vs' →
      ∃ n, Runs c.M.length c.Rd c.W (iactArgs T.ops base' env' es) m vs' m n := by
  induction es with
  | nil =>
    intro vs vs' _ h
    simp only [ievalArgsA, Option.some.injEq] at h
    subst h
    exact ⟨0, .done⟩
  | cons e es ih =>
    intro vs vs' hv h
    simp only [ityArgs] at hv
    simp only [ievalArgsA] at h
    split at hv
    · rename_i hv1
      split at hv
      · rename_i hv2
        split at h
        · rename_i h1
          split at h
          · rename_i h2
            simp only [Option.some.injEq] at h
            subst h
            obtain ⟨n1, g1⟩ := iact_ty T hK hR hb hb' he e _ _ hv1 h1
            obtain ⟨n2, g2⟩ := ih _ _ hv2 h2
            exact ⟨_, g1.bind (g2.bind .done)⟩
          · simp at h
        · simp at h
      · simp at hv
    · simp at hv

/-- An accepted statement, one access at a time, does what it does in one go and stays in its cells. -/
theorem iact_sound (T : Arith α) {c : Ctx α} (hK : ∀ v, c.K v ↔ ∃ x, v = .i x) (hP : ∀ q ∈ c.P, q.1 < c.M.length) (s : IStmt) : ∀ {base base' : Nat} {env : List AV} {env' : List (Val α)} {A : List AB}
    {m : Mem α} {r : AOut} {out : Out α}, s.safe base env A = some r → Ok c A m → SE c env env' → c.P.length ≤ base →
    base' = c.M.length + (base - c.P.length) → s.execA T base' env' m = some out → ∃ x m' n, out = End.out m' x ∧
      Runs c.M.length c.Rd c.W (s.act T.ops base' env') m x m' n := by
  induction s with
  | skip =>
    intro base base' env env' A m r out h hR he hb hb' hx
    simp only [IStmt.execA, Option.some.injEq] at hx
    exact ⟨.next env', m, 0, hx.symm, .done⟩
  | retVoid =>
    intro base base' env env' A m r out h hR he hb hb' hx
    simp only [IStmt.execA, Option.some.injEq] at hx
    exact ⟨.ret none, m, 0, hx.symm, .done⟩
  | ret e =>
    intro base base' env env' A m r out h hR he hb hb' hx
    simp only [IStmt.safe] at h
    simp only [IStmt.execA] at hx
    split at h
    · rename_i v hv
      split at hx
      · rename_i v' hv'
        obtain ⟨n, g⟩ := iact_ty T hK hR hb hb' he e _ _ hv hv'
        simp only [Option.some.injEq] at hx
        exact ⟨.ret (some v'), m, _, hx.symm, g.bind .done⟩
      · simp at hx
    · simp at h
  | set i e =>
    intro base base' env env' A m r out h hR he hb hb' hx
    simp only [IStmt.safe] at h
    simp only [IStmt.execA] at hx
    split at h
    · rename_i v hv
      split at hx
      · rename_i v' hv'
        obtain ⟨n, g⟩ := iact_ty T hK hR hb hb' he e _ _ hv hv'
        simp only [Option.some.injEq] at hx
        exact ⟨.next (env'.set i v'), m, _, hx.symm, g.bind .done⟩
      · simp at hx
    · simp at h
  | store p e =>
    intro base base' env env' A m r out h hR he hb hb' hx
    simp only [IStmt.safe] at h
    simp only [IStmt.execA] at hx
    split at h
    · rename_i k o hp
      split at hx
      · rename_i k' o' hp'
        obtain ⟨n1, g1⟩ := iact_ty T hK hR hb hb' he p _ _ hp hp'
        obtain ⟨w, e1, hw⟩ := ity_sound T hK hR hb hb' he p _ hp
        rw [hp'] at e1
        cases e1
        simp only [SV, Val.p.injEq] at hw
        obtain ⟨rfl, rfl⟩ := hw
        split at h
        · rename_i B hB
          split at h
          · rename_i hc
            simp only [Bool.and_eq_true, Nat.blt_eq] at hc
            split at h
            · rename_i hv
              split at hx
              · simp at hx
              · rename_i v' hnp hv'
                obtain ⟨n2, g2⟩ := iact_ty T hK hR hb hb' he e _ _ hv hv'
                obtain ⟨w, e1, hw⟩ := ity_sound T hK hR hb hb' he e _ hv
                rw [hv'] at e1
                cases e1
                obtain ⟨x, rfl⟩ := hw
                split at hx
                · rename_i m' h4
                  simp only [Option.some.injEq] at hx
                  refine ⟨.next env', m', _, hx.symm, g1.bind (g2.bind (.write (fun hlt => ?_) h4 .done))⟩
                  by_cases hk : k < c.P.length
                  · exact (hR.w k B o hB hc.1 hc.2).2 hk
                  · rw [c.addr_local (by omega)] at hlt
                    simp only at hlt
                    omega
                · simp at hx
              · simp at hx
            · simp at h
          · simp at h
        · simp at h
      · simp at hx
    · simp at h
  | seq a b iha ihb =>
    intro base base' env env' A m r out h hR he hb hb' hx
    simp only [IStmt.safe] at h
    simp only [IStmt.execA] at hx
    split at h
    · rename_i ra hra
      split at hx
      · rename_i env1 m1 ha
        obtain ⟨x, m1', n1, e1, g1⟩ := iha hra hR he hb hb' ha
        obtain ⟨o, h1, h2⟩ := isafe_sound T hK hP a hra hR he hb hb'
        rw [ha] at h1
        cases h1
        cases x <;> simp only [End.out, Out.next.injEq, reduceCtorEq] at e1
        obtain ⟨rfl, rfl⟩ := e1
        obtain ⟨e2, A2, q1, q2, q3⟩ := h2
        rw [q1] at h
        simp only at h
        split at h
        · rename_i rb hrb
          obtain ⟨x', m2, n2, e3, g2⟩ := ihb hrb q3 q2 hb hb' hx
          exact ⟨x', m2, _, e3, g1.bind g2⟩
        · simp at h
      · rename_i v m1 ha
        obtain ⟨x, m1', n1, e1, g1⟩ := iha hra hR he hb hb' ha
        cases x <;> simp only [End.out, Out.ret.injEq, reduceCtorEq] at e1
        obtain ⟨rfl, rfl⟩ := e1
        simp only [Option.some.injEq] at hx
        exact ⟨.ret v, m1, _, hx.symm, g1.bind .done⟩
      · simp at hx
    · simp at h
  | ite k a b iha ihb =>
    intro base base' env env' A m r out h hR he hb hb' hx
    simp only [IStmt.safe] at h
    simp only [IStmt.execA] at hx
    split at h
    · rename_i hk
      split at h
      · rename_i ra hra
        split at h
        · rename_i rb hrb
          split at hx
          · rename_i z hz
            obtain ⟨n0, g0⟩ := iact_ty T hK hR hb hb' he k _ _ hk hz
            cases z with
            | true =>
              obtain ⟨y, m1, n1, e1, g1⟩ := iha hra hR he hb hb' (by simpa using hx)
              exact ⟨y, m1, _, e1, g0.bind (by simpa using g1)⟩
            | false =>
              obtain ⟨y, m1, n1, e1, g1⟩ := ihb hrb hR he hb hb' (by simpa using hx)
              exact ⟨y, m1, _, e1, g0.bind (by simpa using g1)⟩
          · simp at hx
        · simp at h
      · simp at h
    · simp at h
  | call dst locals nregs body args ih =>
    intro base base' env env' A m r out h hR he hb hb' hx
    simp only [IStmt.safe] at h
    simp only [IStmt.execA] at hx
    split at h
    · rename_i vs hvs
      split at hx
      · rename_i vs' hvs'
        obtain ⟨n1, g1⟩ := iact_tyArgs T hK hR hb hb' he args _ _ hvs hvs'
        obtain ⟨ws, h1, h2⟩ := ityArgs_sound T hK hR hb hb' he args vs hvs
        rw [hvs'] at h1
        cases h1
        split at h
        · rename_i rb hrb
          split at hx
          · rename_i ob hob
            obtain ⟨x, m1, n2, e3, g2⟩ := ih hrb (hR.enter locals) (h2.append nregs) hR.le hR.len hob
            subst e3
            split at hx
            · rename_i y hy
              obtain ⟨v, m'⟩ := y
              have hN : c.M.length ≤ m.length := by have := hR.len; omega
              obtain ⟨rfl, g3⟩ := End.value_runs (R := c.Rd) (W := c.W) hN hy
              cases dst with
              | none =>
                simp only [resume, Option.some.injEq] at hx
                exact ⟨.next env', _, _, hx.symm, g1.bind (.enter (g2.bind (.leave hN (g3.bind .done))))⟩
              | some d =>
                cases v with
                | none => simp [resume] at hx
                | some v =>
                  simp only [resume, Option.some.injEq] at hx
                  exact ⟨.next (env'.set d v), _, _, hx.symm, g1.bind (.enter (g2.bind (.leave hN (g3.bind .done))))⟩
            · simp at hx
          · simp at hx
        · simp at h
      · simp at hx
    · simp at h

/-! ## The checked version -/

/-- Run on its own, the thread does what the expression does. -/
theorem iact_eval {m : Mem α} {base : Nat} {env : List (Val α)} : ∀ (e : IExpr) (v : Val α), e.eval base env m = some v →
    ∃ n, Runs 0 R W (e.act .checked base env) m v m n := by
  intro e
  induction e with
  | reg i =>
    intro v h
    simp only [IExpr.eval, Expr.eval] at h
    simp only [IExpr.act, Expr.act]
    split at h
    · simp at h
    · rename_i w hw hi
      simp only [Option.some.injEq] at h; subst h
      rw [hi]
      cases w <;> first | exact ⟨0, .done⟩ | exact absurd rfl hw
    · simp at h
  | loc i =>
    intro v h
    simp only [IExpr.eval, Expr.eval] at h
    split at h
    · simp only [Option.some.injEq] at h; subst h
      exact ⟨0, .done⟩
    · simp at h
  | ilit n | blit n =>
    intro v h
    simp only [IExpr.eval, Option.some.injEq] at h; subst h
    exact ⟨0, .done⟩
  | load p ih =>
    intro v h
    simp only [IExpr.eval] at h
    split at h
    · rename_i b o hp
      obtain ⟨n1, g1⟩ := ih _ hp
      exact ⟨_, g1.bind (.read (by omega) h .done)⟩
    · simp at h
  | off p n ih | not p ih | ofInt p ih | f1 o p ih =>
    intro v h
    simp only [IExpr.eval] at h
    split at h
    · rename_i hp
      obtain ⟨n1, g1⟩ := ih _ hp
      simp only [Option.some.injEq] at h; subst h
      exact ⟨_, g1.bind .done⟩
    · simp at h
  | i1 o p ih | sar p k ih | toInt p ih =>
    intro v h
    simp only [IExpr.eval] at h
    split at h
    · rename_i hp
      obtain ⟨n1, g1⟩ := ih _ hp
      exact ⟨_, g1.bind (iact_runs h)⟩
    · simp at h
  | i2 o a b iha ihb =>
    intro v h
    simp only [IExpr.eval] at h
    split at h
    · rename_i ha
      split at h
      · rename_i hb
        obtain ⟨n1, g1⟩ := iha _ ha
        obtain ⟨n2, g2⟩ := ihb _ hb
        exact ⟨_, g1.bind (g2.bind (iact_runs h))⟩
      · simp at h
    · simp at h
  | ic o a b iha ihb =>
    intro v h
    simp only [IExpr.eval] at h
    split at h
    · rename_i ha
      split at h
      · rename_i hb
        obtain ⟨n1, g1⟩ := iha _ ha
        obtain ⟨n2, g2⟩ := ihb _ hb
        simp only [Option.some.injEq] at h; subst h
        exact ⟨_, g1.bind (g2.bind .done)⟩
      · simp at h
    · simp at h
  | and a b iha ihb | or a b iha ihb =>
    intro v h
    simp only [IExpr.eval] at h
    split at h
    · rename_i ha
      split at h
      · rename_i hb
        obtain ⟨n1, g1⟩ := iha _ ha
        obtain ⟨n2, g2⟩ := ihb _ hb
        simp only [Option.some.injEq] at h; subst h
        exact ⟨_, g1.bind (g2.bind .done)⟩
      · simp at h
    · rename_i ha
      obtain ⟨n1, g1⟩ := iha _ ha
      simp only [Option.some.injEq] at h; subst h
      exact ⟨_, g1.bind .done⟩
    · simp at h
  | ite k a b ihc iha ihb =>
    intro v h
    simp only [IExpr.eval] at h
    split at h
    · rename_i h0
      obtain ⟨n0, g0⟩ := ihc _ h0
      obtain ⟨n1, g1⟩ := iha _ h
      exact ⟨_, g0.bind g1⟩
    · rename_i h0
      obtain ⟨n0, g0⟩ := ihc _ h0
      obtain ⟨n1, g1⟩ := ihb _ h
      exact ⟨_, g0.bind g1⟩
    · simp at h

theorem iact_evalArgs {m : Mem α} {base : Nat} {env : List (Val α)} (es : List IExpr) : ∀ vs, ievalArgs base env m es = some vs →
    ∃ n, Runs 0 R W (iactArgs .checked base env es) m vs m n := by
  induction es with
  | nil =>
    intro vs h
    simp only [ievalArgs, Option.some.injEq] at h
    subst h
    exact ⟨0, .done⟩
  | cons e es ih =>
    intro vs h
    simp only [ievalArgs] at h
    split at h
    · rename_i h1
      split at h
      · rename_i h2
        simp only [Option.some.injEq] at h
        subst h
        obtain ⟨n1, g1⟩ := iact_eval (R := R) (W := W) e _ h1
        obtain ⟨n2, g2⟩ := ih _ h2
        exact ⟨_, g1.bind (g2.bind .done)⟩
      · simp at h
    · simp at h

theorem iact_exec (s : IStmt) : ∀ {base : Nat} {env : List (Val α)} {m : Mem α} {out : Out α}, s.exec base env m = some out →
    ∃ x m' n, out = End.out m' x ∧ Runs 0 R W (s.act .checked base env) m x m' n := by
  induction s with
  | skip =>
    intro base env m out hx
    simp only [IStmt.exec, Option.some.injEq] at hx
    exact ⟨.next env, m, 0, hx.symm, .done⟩
  | retVoid =>
    intro base env m out hx
    simp only [IStmt.exec, Option.some.injEq] at hx
    exact ⟨.ret none, m, 0, hx.symm, .done⟩
  | ret e =>
    intro base env m out hx
    simp only [IStmt.exec] at hx
    split at hx
    · rename_i v' hv'
      obtain ⟨n, g⟩ := iact_eval (R := R) (W := W) e _ hv'
      simp only [Option.some.injEq] at hx
      exact ⟨.ret (some v'), m, _, hx.symm, g.bind .done⟩
    · simp at hx
  | set i e =>
    intro base env m out hx
    simp only [IStmt.exec] at hx
    split at hx
    · rename_i v' hv'
      obtain ⟨n, g⟩ := iact_eval (R := R) (W := W) e _ hv'
      simp only [Option.some.injEq] at hx
      exact ⟨.next (env.set i v'), m, _, hx.symm, g.bind .done⟩
    · simp at hx
  | store p e =>
    intro base env m out hx
    simp only [IStmt.exec] at hx
    split at hx
    · rename_i k o hp
      obtain ⟨n1, g1⟩ := iact_eval (R := R) (W := W) p _ hp
      split at hx
      · simp at hx
      · rename_i v' hnp hv'
        obtain ⟨n2, g2⟩ := iact_eval (R := R) (W := W) e _ hv'
        split at hx
        · rename_i m' h4
          simp only [Option.some.injEq] at hx
          refine ⟨.next env, m', _, hx.symm, g1.bind (g2.bind ?_ (n' := 1))⟩
          cases v' with
          | p a b => exact (hnp a b rfl).elim
          | _ => exact .write (by omega) h4 .done
        · simp at hx
      · simp at hx
    · simp at hx
  | seq a b iha ihb =>
    intro base env m out hx
    simp only [IStmt.exec] at hx
    split at hx
    · rename_i env1 m1 ha
      obtain ⟨x, m1', n1, e1, g1⟩ := iha ha
      cases x <;> simp only [End.out, Out.next.injEq, reduceCtorEq] at e1
      obtain ⟨rfl, rfl⟩ := e1
      obtain ⟨x', m2, n2, e3, g2⟩ := ihb hx
      exact ⟨x', m2, _, e3, g1.bind g2⟩
    · rename_i v m1 ha
      obtain ⟨x, m1', n1, e1, g1⟩ := iha ha
      cases x <;> simp only [End.out, Out.ret.injEq, reduceCtorEq] at e1
      obtain ⟨rfl, rfl⟩ := e1
      simp only [Option.some.injEq] at hx
      exact ⟨.ret v, m1, _, hx.symm, g1.bind .done⟩
    · simp at hx
  | ite k a b iha ihb =>
    intro base env m out hx
    simp only [IStmt.exec] at hx
    split at hx
    · rename_i z hz
      obtain ⟨n0, g0⟩ := iact_eval (R := R) (W := W) k _ hz
      cases z with
      | true =>
        obtain ⟨y, m1, n1, e1, g1⟩ := iha (by simpa using hx)
        exact ⟨y, m1, _, e1, g0.bind (by simpa using g1)⟩
      | false =>
        obtain ⟨y, m1, n1, e1, g1⟩ := ihb (by simpa using hx)
        exact ⟨y, m1, _, e1, g0.bind (by simpa using g1)⟩
    · simp at hx
  | call dst locals nregs body args ih =>
    intro base env m out hx
    simp only [IStmt.exec] at hx
    split at hx
    · rename_i vs' hvs'
      obtain ⟨n1, g1⟩ := iact_evalArgs (R := R) (W := W) args _ hvs'
      split at hx
      · rename_i ob hob
        obtain ⟨x, m1, n2, e3, g2⟩ := ih hob
        subst e3
        split at hx
        · rename_i y hy
          obtain ⟨v, m'⟩ := y
          obtain ⟨rfl, g3⟩ := End.value_runs (R := R) (W := W) (Nat.zero_le _) hy
          cases dst with
          | none =>
            simp only [resume, Option.some.injEq] at hx
            exact ⟨.next env, _, _, hx.symm, g1.bind (.enter (g2.bind (.leave (Nat.zero_le _) (g3.bind .done))))⟩
          | some d =>
            cases v with
            | none => simp [resume] at hx
            | some v =>
              simp only [resume, Option.some.injEq] at hx
              exact ⟨.next (env.set d v), _, _, hx.symm, g1.bind (.enter (g2.bind (.leave (Nat.zero_le _) (g3.bind .done))))⟩
        · simp at hx
      · simp at hx
    · simp at hx

end

/-! ## A thread that may get stuck where another goes on -/

/-- `t` does what `t'` does, as long as it does not get stuck -/
inductive Act.Le {β : Type} : Act α β → Act α β → Prop
  | stuck {t} : Le .stuck t
  | done {x} : Le (.done x) (.done x)
  | read {b o k k'} : (∀ v, Le (k v) (k' v)) → Le (.read b o k) (.read b o k')
  | write {b o v k k'} : Le k k' → Le (.write b o v k) (.write b o v k')
  | enter {L k k'} : (∀ n, Le (k n) (k' n)) → Le (.enter L k) (.enter L k')
  | leave {n k k'} : Le k k' → Le (.leave n k) (.leave n k')

namespace Act.Le
variable {β γ : Type}

theorem refl (t : Act α β) : Le t t := by
  induction t with
  | done x => exact .done
  | stuck => exact .stuck
  | read b o k ih => exact .read ih
  | write b o v k ih => exact .write ih
  | enter L k ih => exact .enter ih
  | leave n k ih => exact .leave ih

theorem bind {t t' : Act α β} (h : Le t t') {f f' : β → Act α γ} (hf : ∀ x, Le (f x) (f' x)) : Le (t.bind f) (t'.bind f') := by
  induction h with
  | stuck => exact .stuck
  | done => exact hf _
  | read _ ih => exact .read ih
  | write _ ih => exact .write ih
  | enter _ ih => exact .enter ih
  | leave _ ih => exact .leave ih

/-- If both run to their end on the same memory, the bounds on the accesses of `t'` hold for `t`. -/
theorem runs {t t' : Act α β} (hle : Le t t') {N' : Nat} {R' W' : Nat → Nat → Prop} {m m1 m2 : Mem α} {x y : β} {n k : Nat}
    (h : Runs N' R' W' t m x m1 n) (h' : Runs N R W t' m y m2 k) : Runs N R W t m x m1 n := by
  induction h generalizing t' k with
  | done => exact .done
  | read _ h2 _ ih =>
    cases hle with
    | read hk =>
      cases h' with
      | read g1 g2 g3 =>
        rw [h2] at g2
        cases g2
        exact .read g1 h2 (ih (hk _) g3)
  | write _ h2 _ ih =>
    cases hle with
    | write hk =>
      cases h' with
      | write g1 g2 g3 =>
        rw [h2] at g2
        cases g2
        exact .write g1 h2 (ih hk g3)
  | enter _ ih =>
    cases hle with
    | enter hk =>
      cases h' with
      | enter g3 => exact .enter (ih (hk _) g3)
  | leave _ _ ih =>
    cases hle with
    | leave hk =>
      cases h' with
      | leave g1 g3 => exact .leave g1 (ih hk g3)

end Act.Le

/-- operations that fail at least as often -/
structure IOps.Le (O O' : IOps α) : Prop where
  op2 : ∀ o x y z, O.op2 o x y = some z → O'.op2 o x y = some z
  op1 : ∀ o x z, O.op1 o x = some z → O'.op1 o x = some z
  conv : ∀ x z, O.conv x = some z → O'.conv x = some z

theorem Arith.Agrees.le [CIntConv α] {T : Arith α} (hT : T.Agrees) : IOps.checked.Le T.ops where
  op2 o x y z h := congrArg some (hT.op2 o x y z h)
  op1 o x z h := congrArg some (hT.op1 o x z h)
  conv x z h := congrArg some (hT.conv x z h)

theorem iact_le {o o' : Option Int32} (h : ∀ z, o = some z → o' = some z) : Act.Le (iact o : Act α (Val α)) (iact o') := by
  cases o with
  | none => exact .stuck
  | some z => rw [h z rfl]; exact .refl _

section
variable [Add α] [Sub α] [Mul α] [Div α] [Neg α] [CFloat α] [CIntConv α]

theorem IExpr.act_le {O O' : IOps α} (h : O.Le O') {base : Nat} {env : List (Val α)} (e : IExpr) : Act.Le (e.act O base env) (e.act O' base env) := by
  induction e with
  | reg i | loc i | ilit n | blit n => exact .refl _
  | off p n ih | load p ih | not p ih | ofInt p ih | f1 o p ih | sar p k ih => exact ih.bind fun x => .refl _
  | i1 o p ih =>
    refine ih.bind fun x => ?_
    cases x <;> first | exact .stuck | exact iact_le (h.op1 _ _)
  | toInt p ih =>
    refine ih.bind fun x => ?_
    cases x <;> first | exact .stuck | exact iact_le (h.conv _)
  | i2 o a b iha ihb =>
    refine iha.bind fun x => ?_
    cases x <;> first | exact .stuck | skip
    refine ihb.bind fun y => ?_
    cases y <;> first | exact .stuck | exact iact_le (h.op2 _ _ _)
  | ic o a b iha ihb =>
    refine iha.bind fun x => ?_
    cases x <;> first | exact .stuck | exact ihb.bind fun y => .refl _
  | and a b iha ihb | or a b iha ihb =>
    refine iha.bind fun x => ?_
    cases x with
    | b z => cases z <;> first | exact .done | exact ihb.bind fun y => .refl _
    | _ => exact .stuck
  | ite k a b ihc iha ihb =>
    refine ihc.bind fun x => ?_
    cases x with
    | b z => cases z <;> assumption
    | _ => exact .stuck

theorem iactArgs_le {O O' : IOps α} (h : O.Le O') {base : Nat} {env : List (Val α)} (es : List IExpr) :
    Act.Le (iactArgs O base env es) (iactArgs O' base env es) := by
  induction es with
  | nil => exact .refl _
  | cons e es ih => exact (e.act_le h).bind fun v => ih.bind fun vs => .refl _

theorem IStmt.act_le {O O' : IOps α} (h : O.Le O') (s : IStmt) : ∀ {base : Nat} {env : List (Val α)}, Act.Le (s.act O base env) (s.act O' base env) := by
  induction s with
  | skip | retVoid => intro base env; exact .refl _
  | ret e | set i e => intro base env; exact (e.act_le h).bind fun v => .refl _
  | store p e =>
    intro base env
    refine (p.act_le h).bind fun x => ?_
    cases x <;> first | exact .stuck | exact (e.act_le h).bind fun v => .refl _
  | seq a b iha ihb =>
    intro base env
    refine iha.bind fun x => ?_
    cases x with
    | next env' => exact ihb
    | ret v => exact .refl _
  | ite k a b iha ihb =>
    intro base env
    refine (k.act_le h).bind fun x => ?_
    cases x with
    | b z => cases z <;> simp only [Bool.false_eq_true, if_true, if_false] <;> first | exact iha | exact ihb
    | _ => exact .stuck
  | call dst locals nregs body args ih =>
    intro base env
    exact (iactArgs_le h args).bind fun vs => .enter fun n => ih.bind fun x => .refl _

theorem IFn.act_le {O O' : IOps α} (h : O.Le O') (f : IFn) (args : List (Val α)) : Act.Le (f.act O args) (f.act O' args) :=
  .enter fun n => (f.body.act_le h).bind fun x => .refl _

/-- Run on its own, the thread does what the call does. -/
theorem iact_run {f : IFn} {m m' : Mem α} {args : List (Val α)} {v : Option (Val α)} (h : f.run m args = some (v, m')) :
    ∃ n, Runs 0 R W (f.act .checked args) m v m' n := by
  unfold IFn.run at h
  split at h
  · rename_i r hr
    obtain ⟨x, m1, n, rfl, g⟩ := iact_exec (R := R) (W := W) f.body hr
    obtain ⟨rfl, g2⟩ := End.value_runs (R := R) (W := W) (Nat.zero_le _) h
    exact ⟨_, .enter (g.bind (.leave (Nat.zero_le _) g2))⟩
  · simp at h

end

end Cglm.CMem
