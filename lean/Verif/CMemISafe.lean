import Verif.CMemI
import Verif.CMemSafe

/-!
# Memory safety of the integer-vector functions under arbitrary overlap

With checked arithmetic a call is undefined as soon as an operation overflows, which says nothing about its memory
accesses.  Here the operations that would overflow yield an arbitrary value instead (`Arith`): whatever they yield, an
accepted function makes no bad access.  If no operation fails the two readings agree (`run_runA`).
-/

namespace Cglm.CMem

variable {α : Type}

/-- results of the integer operations, also where C leaves them undefined -/
structure Arith (α : Type) where
  op2 : IOp2 → Int32 → Int32 → Int32
  op1 : IOp1 → Int32 → Int32
  conv : α → Int32

/-- `T` gives the results C prescribes wherever it prescribes one. -/
structure Arith.Agrees [CIntConv α] (T : Arith α) : Prop where
  op2 : ∀ o x y z, o.app x y = some z → T.op2 o x y = z
  op1 : ∀ o x z, o.app x = some z → T.op1 o x = z
  conv : ∀ x z, toI32 x = some z → T.conv x = z

/-- for instance, zero wherever C prescribes nothing -/
def Arith.zero [CIntConv α] : Arith α where
  op2 o x y := (o.app x y).getD 0
  op1 o x := (o.app x).getD 0
  conv x := (toI32 x).getD 0
theorem Arith.zero_agrees [CIntConv α] : (Arith.zero (α := α)).Agrees :=
  ⟨fun o x y z h => by simp [zero, h], fun o x z h => by simp [zero, h], fun x z h => by simp [zero, h]⟩

section
variable [Add α] [Sub α] [Mul α] [Div α] [Neg α] [CFloat α] [CIntConv α]

/-- Evaluation in which a failing operation yields what `T` says. -/
def IExpr.evalA (T : Arith α) (base : Nat) (env : List (Val α)) (m : Mem α) : IExpr → Option (Val α)
  | .reg i => (Expr.reg i).eval base env m
  | .loc i => (Expr.loc i).eval base env m
  | .ilit n => some (.i n)
  | .blit b => some (.b b)
  | .off p n =>
    match p.evalA T base env m with
    | some (.p b o) => some (.p b (o + n))
    | _ => none
  | .load p =>
    match p.evalA T base env m with
    | some (.p b o) => CMem.load m b o
    | _ => none
  | .i2 o a b =>
    match a.evalA T base env m with
    | some (.i x) =>
      match b.evalA T base env m with
      | some (.i y) => some (.i (T.op2 o (Int32.ofInt x) (Int32.ofInt y)).toInt)
      | _ => none
    | _ => none
  | .i1 o a =>
    match a.evalA T base env m with
    | some (.i x) => some (.i (T.op1 o (Int32.ofInt x)).toInt)
    | _ => none
  | .sar a k =>
    match a.evalA T base env m with
    | some (.i x) => some (.i (I32.sar (Int32.ofInt x) k).toInt)
    | _ => none
  | .ic o a b =>
    match a.evalA T base env m with
    | some (.i x) =>
      match b.evalA T base env m with
      | some (.i y) => some (.b (o.app x y))
      | _ => none
    | _ => none
  | .and a b =>
    match a.evalA T base env m with
    | some (.b true) =>
      match b.evalA T base env m with
      | some (.b y) => some (.b y)
      | _ => none
    | some (.b false) => some (.b false)
    | _ => none
  | .or a b =>
    match a.evalA T base env m with
    | some (.b false) =>
      match b.evalA T base env m with
      | some (.b y) => some (.b y)
      | _ => none
    | some (.b true) => some (.b true)
    | _ => none
  | .not a =>
    match a.evalA T base env m with
    | some (.b x) => some (.b (!x))
    | _ => none
  | .ite c a b =>
    match c.evalA T base env m with
    | some (.b true) => a.evalA T base env m
    | some (.b false) => b.evalA T base env m
    | _ => none
  | .ofInt a =>
    match a.evalA T base env m with
    | some (.i x) => some (.f (ofI32 (Int32.ofInt x)))
    | _ => none
  | .toInt a =>
    match a.evalA T base env m with
    | some (.f x) => some (.i (T.conv x).toInt)
    | _ => none
  | .f1 o a =>
    match a.evalA T base env m with
    | some (.f x) => some (.f (o.app x))
    | _ => none

/-- Evaluate call arguments from left to right. -/
def ievalArgsA (T : Arith α) (base : Nat) (env : List (Val α)) (m : Mem α) : List IExpr → Option (List (Val α))
  | [] => some []
  | e :: es =>
    match e.evalA T base env m with
    | some v =>
      match ievalArgsA T base env m es with
      | some vs => some (v :: vs)
      | none => none
    | none => none

/-- Statement execution. -/
def IStmt.execA (T : Arith α) : IStmt → Nat → List (Val α) → Mem α → Option (Out α)
  | .skip, _, env, m => some (.next env m)
  | .seq a b, base, env, m =>
    match a.execA T base env m with
    | some (.next env' m') => b.execA T base env' m'
    | some (.ret v m') => some (.ret v m')
    | none => none
  | .set i e, base, env, m =>
    match e.evalA T base env m with
    | some v => some (.next (env.set i v) m)
    | none => none
  | .store p e, base, env, m =>
    match p.evalA T base env m with
    | some (.p k o) =>
      match e.evalA T base env m with
      | some (.p _ _) => none
      | some v =>
        match put1 m k o v with
        | some m' => some (.next env m')
        | none => none
      | none => none
    | _ => none
  | .ite c a b, base, env, m =>
    match c.evalA T base env m with
    | some (.b z) => if z then a.execA T base env m else b.execA T base env m
    | _ => none
  | .call dst locals nregs body args, base, env, m =>
    match ievalArgsA T base env m args with
    | some vs =>
      match body.execA T m.length (vs ++ List.replicate nregs .undef) (m ++ fresh locals) with
      | some r =>
        match r.leave m.length with
        | some x => resume dst env x
        | none => none
      | none => none
    | none => none
  | .ret e, base, env, m =>
    match e.evalA T base env m with
    | some v => some (.ret (some v) m)
    | none => none
  | .retVoid, _, _, m => some (.ret none m)

/-- Call `f` from outside: result and final memory, or `none` if the call is undefined. -/
def IFn.runA (T : Arith α) (f : IFn) (m : Mem α) (args : List (Val α)) : Option (Option (Val α) × Mem α) :=
  match f.body.execA T m.length (args ++ List.replicate f.nregs .undef) (m ++ fresh f.locals) with
  | some r => r.leave m.length
  | none => none

/-! ## Checked runs -/

omit [Add α] [Sub α] [Mul α] [Div α] [Neg α] [CFloat α] [CIntConv α] in
theorem iret_some {o : Option Int32} {v : Val α} (h : iret o = some v) : ∃ z, o = some z ∧ v = .i z.toInt := by
  cases o <;> simp only [iret, reduceCtorEq, Option.some.injEq] at h
  exact ⟨_, rfl, h.symm⟩

theorem eval_evalA {T : Arith α} (hT : T.Agrees) {base : Nat} {env : List (Val α)} {m : Mem α} :
    ∀ (e : IExpr) {v : Val α}, e.eval base env m = some v → e.evalA T base env m = some v := by
  intro e
  induction e with
  | reg i | loc i | ilit n | blit n => intro v h; exact h
  | off p n ih | load p ih | not p ih | ofInt p ih | f1 o p ih =>
    intro v h
    simp only [IExpr.eval] at h
    split at h
    · rename_i h1; simp only [IExpr.evalA, ih h1]; exact h
    · simp at h
  | i1 o a ih =>
    intro v h
    simp only [IExpr.eval] at h
    split at h
    · rename_i h1
      obtain ⟨z, hz, rfl⟩ := iret_some h
      simp only [IExpr.evalA, ih h1, hT.op1 _ _ _ hz]
    · simp at h
  | sar a k ih =>
    intro v h
    simp only [IExpr.eval] at h
    split at h
    · rename_i h1
      obtain ⟨z, hz, rfl⟩ := iret_some h
      simp only [Option.some.injEq] at hz
      simp only [IExpr.evalA, ih h1, hz]
    · simp at h
  | toInt a ih =>
    intro v h
    simp only [IExpr.eval] at h
    split at h
    · rename_i h1
      obtain ⟨z, hz, rfl⟩ := iret_some h
      simp only [IExpr.evalA, ih h1, hT.conv _ _ hz]
    · simp at h
  | i2 o a b iha ihb =>
    intro v h
    simp only [IExpr.eval] at h
    split at h
    · rename_i h1
      split at h
      · rename_i h2
        obtain ⟨z, hz, rfl⟩ := iret_some h
        simp only [IExpr.evalA, iha h1, ihb h2, hT.op2 _ _ _ _ hz]
      · simp at h
    · simp at h
  | ic o a b iha ihb =>
    intro v h
    simp only [IExpr.eval] at h
    split at h
    · rename_i h1
      split at h
      · rename_i h2; simp only [IExpr.evalA, iha h1, ihb h2]; exact h
      · simp at h
    · simp at h
  | and a b iha ihb | or a b iha ihb =>
    intro v h
    simp only [IExpr.eval] at h
    split at h
    · rename_i h1
      split at h
      · rename_i h2; simp only [IExpr.evalA, iha h1, ihb h2]; exact h
      · simp at h
    · rename_i h1; simp only [IExpr.evalA, iha h1]; exact h
    · simp at h
  | ite c a b ihc iha ihb =>
    intro v h
    simp only [IExpr.eval] at h
    split at h
    · rename_i h1; simp only [IExpr.evalA, ihc h1]; exact iha h
    · rename_i h1; simp only [IExpr.evalA, ihc h1]; exact ihb h
    · simp at h

theorem evalArgs_evalArgsA {T : Arith α} (hT : T.Agrees) {base : Nat} {env : List (Val α)} {m : Mem α} :
    ∀ (es : List IExpr) {vs : List (Val α)}, ievalArgs base env m es = some vs → ievalArgsA T base env m es = some vs := by
  intro es
  induction es with
  | nil => intro vs h; exact h
  | cons e es ih =>
    intro vs h
    simp only [ievalArgs] at h
    split at h
    · rename_i h1
      split at h
      · rename_i h2; simp only [ievalArgsA, eval_evalA hT _ h1, ih h2]; exact h
      · simp at h
    · simp at h

theorem exec_execA {T : Arith α} (hT : T.Agrees) (s : IStmt) : ∀ {base : Nat} {env : List (Val α)} {m : Mem α} {o : Out α},
    s.exec base env m = some o → s.execA T base env m = some o := by
  induction s with
  | skip | retVoid => intro base env m o h; exact h
  | seq a b iha ihb =>
    intro base env m o h
    simp only [IStmt.exec] at h
    split at h
    · rename_i h1; simp only [IStmt.execA, iha h1]; exact ihb h
    · rename_i h1; simp only [IStmt.execA, iha h1]; exact h
    · simp at h
  | set i e | ret e =>
    intro base env m o h
    simp only [IStmt.exec] at h
    split at h
    · rename_i h1; simp only [IStmt.execA, eval_evalA hT _ h1]; exact h
    · simp at h
  | store p e =>
    intro base env m o h
    simp only [IStmt.exec] at h
    simp only [IStmt.execA]
    split at h
    · rename_i h1
      rw [eval_evalA hT _ h1]
      rcases h2 : e.eval base env m with _ | v
      · rw [h2] at h; simp at h
      · rw [h2] at h
        simp only [eval_evalA hT _ h2]
        exact h
    · simp at h
  | ite c a b iha ihb =>
    intro base env m o h
    simp only [IStmt.exec] at h
    split at h
    · rename_i z h1
      simp only [IStmt.execA, eval_evalA hT _ h1]
      split at h
      · rename_i hz; simp only [hz, if_true]; exact iha h
      · rename_i hz; simp only [hz]; exact ihb h
    · simp at h
  | call dst locals nregs body args ih =>
    intro base env m o h
    simp only [IStmt.exec] at h
    split at h
    · rename_i h1
      split at h
      · rename_i h2
        split at h
        · rename_i h3; simp only [IStmt.execA, evalArgs_evalArgsA hT _ h1, ih h2, h3]; exact h
        · simp at h
      · simp at h
    · simp at h

/-- Where the checked call is defined the unchecked one gives the same. -/
theorem run_runA {T : Arith α} (hT : T.Agrees) {f : IFn} {m : Mem α} {args : List (Val α)} {r : Option (Val α) × Mem α}
    (h : f.run m args = some r) : f.runA T m args = some r := by
  unfold IFn.run at h
  split at h
  · rename_i h1; unfold IFn.runA; rw [exec_execA hT _ h1]; exact h
  · simp at h

end

/-! ## Analysis -/

/-- type of an expression, `none` if its evaluation may be undefined -/
def IExpr.ty (base : Nat) (env : List AV) (A : List AB) : IExpr → Option AV
  | .reg i =>
    match env[i]? with
    | some .u => none
    | some v => some v
    | none => none
  | .loc i => if base + i < A.length then some (.p (base + i) 0) else none
  | .ilit _ => some .i
  | .blit _ => some .b
  | .off p n =>
    match p.ty base env A with
    | some (.p r o) => some (.p r (o + n))
    | _ => none
  | .load p =>
    match p.ty base env A with
    | some (.p r o) =>
      match A[r]? with
      | some B =>
        match B.init[o]? with
        | some true => some .i
        | _ => none
      | none => none
    | _ => none
  | .i2 _ a b =>
    match a.ty base env A with
    | some .i =>
      match b.ty base env A with
      | some .i => some .i
      | _ => none
    | _ => none
  | .i1 _ a =>
    match a.ty base env A with
    | some .i => some .i
    | _ => none
  | .sar a _ =>
    match a.ty base env A with
    | some .i => some .i
    | _ => none
  | .ic _ a b =>
    match a.ty base env A with
    | some .i =>
      match b.ty base env A with
      | some .i => some .b
      | _ => none
    | _ => none
  | .and a b =>
    match a.ty base env A with
    | some .b =>
      match b.ty base env A with
      | some .b => some .b
      | _ => none
    | _ => none
  | .or a b =>
    match a.ty base env A with
    | some .b =>
      match b.ty base env A with
      | some .b => some .b
      | _ => none
    | _ => none
  | .not a =>
    match a.ty base env A with
    | some .b => some .b
    | _ => none
  | .ite c a b =>
    match c.ty base env A with
    | some .b =>
      match a.ty base env A with
      | some .f =>
        match b.ty base env A with
        | some .f => some .f
        | _ => none
      | some .i =>
        match b.ty base env A with
        | some .i => some .i
        | _ => none
      | some .b =>
        match b.ty base env A with
        | some .b => some .b
        | _ => none
      | _ => none
    | _ => none
  | .ofInt a =>
    match a.ty base env A with
    | some .i => some .f
    | _ => none
  | .toInt a =>
    match a.ty base env A with
    | some .f => some .i
    | _ => none
  | .f1 _ a =>
    match a.ty base env A with
    | some .f => some .f
    | _ => none

/-- types of call arguments -/
def ityArgs (base : Nat) (env : List AV) (A : List AB) : List IExpr → Option (List AV)
  | [] => some []
  | e :: es =>
    match e.ty base env A with
    | some v =>
      match ityArgs base env A es with
      | some vs => some (v :: vs)
      | none => none
    | none => none

/-- The analysis of a statement, `none` if it may be unsafe. -/
def IStmt.safe : IStmt → Nat → List AV → List AB → Option AOut
  | .skip, _, env, A => some ⟨some (env, A), none⟩
  | .seq a b, base, env, A =>
    match a.safe base env A with
    | some r =>
      match r.next with
      | some (env', A') =>
        match b.safe base env' A' with
        | some r' =>
          match joinRet r.ret r'.ret with
          | some t => some ⟨r'.next, t⟩
          | none => none
        | none => none
      | none => some r
    | none => none
  | .set i e, base, env, A =>
    match e.ty base env A with
    | some v => some ⟨some (env.set i v, A), none⟩
    | none => none
  | .store p e, base, env, A =>
    match p.ty base env A with
    | some (.p r o) =>
      match A[r]? with
      | some B =>
        match B.w && Nat.blt o B.init.length with
        | true =>
          match e.ty base env A with
          | some .i => some ⟨some (env, mark A r o true), none⟩
          | _ => none
        | false => none
      | none => none
    | _ => none
  | .ite c a b, base, env, A =>
    match c.ty base env A with
    | some .b =>
      match a.safe base env A with
      | some r =>
        match b.safe base env A with
        | some r' =>
          match joinNext r.next r'.next with
          | some x =>
            match joinRet r.ret r'.ret with
            | some t => some ⟨x, t⟩
            | none => none
          | none => none
        | none => none
      | none => none
    | _ => none
  | .call dst locals nregs body args, base, env, A =>
    match ityArgs base env A args with
    | some vs =>
      match body.safe A.length (vs ++ List.replicate nregs .u) (A ++ freshA locals) with
      | some r =>
        match r.leave A.length with
        | some (v, A') =>
          match dst with
          | none => some ⟨some (env, A'), none⟩
          | some d =>
            match v with
            | some v => some ⟨some (env.set d v, A'), none⟩
            | none => none
        | none => none
      | none => none
    | none => none
  | .ret e, base, env, A =>
    match e.ty base env A with
    | some v => some ⟨none, some (some v, A)⟩
    | none => none
  | .retVoid, _, _, A => some ⟨none, some (none, A)⟩

/-- The analysis of a call from outside. -/
def IFn.safe (f : IFn) (A : List AB) (args : List AV) : Option (Option AV × List AB) :=
  match f.body.safe A.length (args ++ List.replicate f.nregs .u) (A ++ freshA f.locals) with
  | some r => r.leave A.length
  | none => none

/-! ## Soundness -/

variable [Add α] [Sub α] [Mul α] [Div α] [Neg α] [CFloat α] [CIntConv α]

theorem ity_sound (T : Arith α) {c : Ctx α} (hK : ∀ v, c.K v ↔ ∃ x, v = .i x) {A : List AB} {m : Mem α} (hR : Ok c A m) {base base' : Nat} (hb : c.P.length ≤ base)
    (hb' : base' = c.M.length + (base - c.P.length)) {env : List AV} {env' : List (Val α)} (he : SE c env env') :
    ∀ (e : IExpr) (v : AV), e.ty base env A = some v → ∃ v', e.evalA T base' env' m = some v' ∧ SV c v v' := by
  intro e
  induction e with
  | reg i =>
    intro v hv
    simp only [IExpr.ty] at hv
    simp only [IExpr.evalA, Expr.eval]
    rcases Forall₂.get he i with ⟨h1, h2⟩ | ⟨a, b, h1, h2, h3⟩
    · rw [h1] at hv; simp at hv
    · rw [h1] at hv
      rw [h2]
      cases a with
      | u => simp at hv
      | p r o =>
        simp only [Option.some.injEq] at hv; subst hv
        simp only [SV] at h3; subst h3
        exact ⟨_, rfl, rfl⟩
      | _ =>
        simp only [Option.some.injEq] at hv; subst hv
        obtain ⟨x, rfl⟩ := h3
        exact ⟨_, rfl, x, rfl⟩
  | loc i =>
    intro v hv
    simp only [IExpr.ty] at hv
    split at hv
    · rename_i hi
      simp only [Option.some.injEq] at hv; subst hv
      refine ⟨.p (base' + i) 0, ?_, ?_⟩
      · have h1 := hR.len
        simp only [IExpr.evalA, Expr.eval]
        rw [if_pos (by omega)]
      · simp only [SV]
        rw [c.addr_local (by omega)]
        simp only [Val.p.injEq, Nat.add_zero, and_true]
        omega
    · simp at hv
  | ilit n | blit b =>
    intro v hv
    simp only [IExpr.ty, Option.some.injEq] at hv; subst hv
    exact ⟨_, rfl, _, rfl⟩
  | off p n ih =>
    intro v hv
    simp only [IExpr.ty] at hv
    split at hv
    · rename_i r o hp
      obtain ⟨v1, e1, h1⟩ := ih _ hp
      simp only [SV] at h1; subst h1
      simp only [Option.some.injEq] at hv; subst hv
      exact ⟨_, by simp only [IExpr.evalA, e1]; rfl, by simp only [SV, Nat.add_assoc]⟩
    · simp at hv
  | load p ih =>
    intro v hv
    simp only [IExpr.ty] at hv
    split at hv
    · rename_i r o hp
      obtain ⟨v1, e1, h1⟩ := ih _ hp
      simp only [SV] at h1; subst h1
      split at hv
      · rename_i B hB
        split at hv
        · rename_i hz
          simp only [Option.some.injEq] at hv; subst hv
          obtain ⟨v, hc, hx⟩ := hR.has r B o true hB hz
          obtain ⟨x, rfl⟩ := (hK v).mp (hx rfl)
          refine ⟨.i x, ?_, x, rfl⟩
          simp only [IExpr.evalA, e1]
          exact load_eq_some.mpr ⟨hc, by simp⟩
        · simp at hv
      · simp at hv
    · simp at hv
  | f1 o a iha | i1 o a iha | sar a k iha | not a iha | toInt a iha | ofInt a iha =>
    intro v hv
    simp only [IExpr.ty] at hv
    split at hv
    · rename_i h1
      obtain ⟨v1, e1, x, rfl⟩ := iha _ h1
      simp only [Option.some.injEq] at hv
      subst hv
      exact ⟨_, by simp only [IExpr.evalA, e1]; rfl, _, rfl⟩
    · simp at hv
  | ic o a b iha ihb | i2 o a b iha ihb =>
    intro v hv
    simp only [IExpr.ty] at hv
    split at hv
    · rename_i h1
      split at hv
      · rename_i h2
        obtain ⟨v1, e1, x, rfl⟩ := iha _ h1
        obtain ⟨v2, e2, y, rfl⟩ := ihb _ h2
        simp only [Option.some.injEq] at hv
        subst hv
        exact ⟨_, by simp only [IExpr.evalA, e1, e2]; rfl, _, rfl⟩
      · simp at hv
    · simp at hv
  | and a b iha ihb | or a b iha ihb =>
    intro v hv
    simp only [IExpr.ty] at hv
    split at hv
    · rename_i h1
      split at hv
      · rename_i h2
        obtain ⟨v1, e1, x, rfl⟩ := iha _ h1
        obtain ⟨v2, e2, y, rfl⟩ := ihb _ h2
        simp only [Option.some.injEq] at hv
        subst hv
        cases x <;> exact ⟨_, by simp only [IExpr.evalA, e1, e2]; rfl, _, rfl⟩
      · simp at hv
    · simp at hv
  | ite k a b ihc iha ihb =>
    intro v hv
    simp only [IExpr.ty] at hv
    split at hv
    · rename_i h0
      obtain ⟨v0, e0, z, rfl⟩ := ihc _ h0
      split at hv
      all_goals first
        | (rename_i h1
           split at hv
           · rename_i h2
             obtain ⟨v1, e1, x, rfl⟩ := iha _ h1
             obtain ⟨v2, e2, y, rfl⟩ := ihb _ h2
             simp only [Option.some.injEq] at hv
             subst hv
             cases z <;> exact ⟨_, by simp only [IExpr.evalA, e0, e1, e2]; rfl, _, rfl⟩
           · simp at hv)
        | simp at hv
    · simp at hv

theorem ityArgs_sound (T : Arith α) {c : Ctx α} (hK : ∀ v, c.K v ↔ ∃ x, v = .i x) {A : List AB} {m : Mem α} (hR : Ok c A m) {base base' : Nat} (hb : c.P.length ≤ base)
    (hb' : base' = c.M.length + (base - c.P.length)) {env : List AV} {env' : List (Val α)} (he : SE c env env') (es : List IExpr) :
    ∀ vs, ityArgs base env A es = some vs → ∃ vs', ievalArgsA T base' env' m es = some vs' ∧ SE c vs vs' := by
  induction es with
  | nil =>
    intro vs h
    simp only [ityArgs, Option.some.injEq] at h
    subst h
    exact ⟨[], rfl, .nil⟩
  | cons e es ih =>
    intro vs h
    simp only [ityArgs] at h
    split at h
    · rename_i v hv
      split at h
      · rename_i vs1 hvs
        simp only [Option.some.injEq] at h
        subst h
        obtain ⟨v', h1, h2⟩ := ity_sound T hK hR hb hb' he e v hv
        obtain ⟨vs', h3, h4⟩ := ih vs1 hvs
        exact ⟨v' :: vs', by simp only [ievalArgsA, h1, h3], .cons h2 h4⟩
      · simp at h
    · simp at h

/-- An accepted statement runs without undefined behaviour and ends as the analysis says. -/
theorem isafe_sound (T : Arith α) {c : Ctx α} (hK : ∀ v, c.K v ↔ ∃ x, v = .i x) (hP : ∀ q ∈ c.P, q.1 < c.M.length) (s : IStmt) : ∀ {base base' : Nat} {env : List AV} {env' : List (Val α)} {A : List AB}
    {m : Mem α} {r : AOut}, s.safe base env A = some r → Ok c A m → SE c env env' → c.P.length ≤ base →
    base' = c.M.length + (base - c.P.length) → ∃ o, s.execA T base' env' m = some o ∧ SO c r o := by
  induction s with
  | skip =>
    intro base base' env env' A m r h hR he hb hb'
    simp only [IStmt.safe, Option.some.injEq] at h
    subst h
    exact ⟨_, rfl, _, _, rfl, he, hR⟩
  | retVoid =>
    intro base base' env env' A m r h hR he hb hb'
    simp only [IStmt.safe, Option.some.injEq] at h
    subst h
    exact ⟨_, rfl, _, _, rfl, trivial, hR⟩
  | ret e =>
    intro base base' env env' A m r h hR he hb hb'
    simp only [IStmt.safe] at h
    split at h
    · rename_i v hv
      simp only [Option.some.injEq] at h
      subst h
      obtain ⟨v', h1, h2⟩ := ity_sound T hK hR hb hb' he e v hv
      exact ⟨.ret (some v') m, by simp only [IStmt.execA, h1], _, _, rfl, h2, hR⟩
    · simp at h
  | set i e =>
    intro base base' env env' A m r h hR he hb hb'
    simp only [IStmt.safe] at h
    split at h
    · rename_i v hv
      simp only [Option.some.injEq] at h
      subst h
      obtain ⟨v', h1, h2⟩ := ity_sound T hK hR hb hb' he e v hv
      exact ⟨.next (env'.set i v') m, by simp only [IStmt.execA, h1], _, _, rfl, Forall₂.set he i h2, hR⟩
    · simp at h
  | store p e =>
    intro base base' env env' A m r h hR he hb hb'
    simp only [IStmt.safe] at h
    split at h
    · rename_i k o hp
      obtain ⟨p', h1, h2⟩ := ity_sound T hK hR hb hb' he p _ hp
      simp only [SV] at h2; subst h2
      split at h
      · rename_i B hB
        split at h
        · rename_i hc
          simp only [Bool.and_eq_true, Nat.blt_eq] at hc
          split at h
          · rename_i hv
            simp only [Option.some.injEq] at h
            subst h
            obtain ⟨v', h3, x, rfl⟩ := ity_sound T hK hR hb hb' he e _ hv
            obtain ⟨m', h4, h5⟩ := hR.mark hP hB hc.1 hc.2 (.i x) true (fun _ => (hK _).mpr ⟨x, rfl⟩) (Or.inl ((hK _).mpr ⟨x, rfl⟩))
            exact ⟨.next env' m', by simp only [IStmt.execA, h1, h3, h4], _, _, rfl, he, h5⟩
          · simp at h
        · simp at h
      · simp at h
    · simp at h
  | seq a b iha ihb =>
    intro base base' env env' A m r h hR he hb hb'
    simp only [IStmt.safe] at h
    split at h
    · rename_i ra hra
      obtain ⟨o, h1, h2⟩ := iha hra hR he hb hb'
      split at h
      · rename_i e1 A1 hn
        split at h
        · rename_i rb hrb
          split at h
          · rename_i t ht
            simp only [Option.some.injEq] at h
            subst h
            cases o with
            | next env1 m1 =>
              obtain ⟨e2, A2, g1, g2, g3⟩ := h2
              rw [hn] at g1
              simp only [Option.some.injEq, Prod.mk.injEq] at g1
              obtain ⟨rfl, rfl⟩ := g1
              obtain ⟨o', h3, h4⟩ := ihb hrb g3 g2 hb hb'
              refine ⟨o', by simp only [IStmt.execA, h1, h3], ?_⟩
              cases o' with
              | next env2 m2 => exact h4
              | ret v m2 => exact joinRet_right ht h4
            | ret v m1 => exact ⟨.ret v m1, by simp only [IStmt.execA, h1], joinRet_left ht h2⟩
          · simp at h
        · simp at h
      · rename_i hn
        simp only [Option.some.injEq] at h
        subst h
        cases o with
        | next env1 m1 =>
          obtain ⟨e2, A2, g1, -, -⟩ := h2
          rw [hn] at g1
          simp at g1
        | ret v m1 => exact ⟨.ret v m1, by simp only [IStmt.execA, h1], h2⟩
    · simp at h
  | ite k a b iha ihb =>
    intro base base' env env' A m r h hR he hb hb'
    simp only [IStmt.safe] at h
    split at h
    · rename_i hk
      obtain ⟨v, h0, z, rfl⟩ := ity_sound T hK hR hb hb' he k _ hk
      split at h
      · rename_i ra hra
        split at h
        · rename_i rb hrb
          split at h
          · rename_i x hx
            split at h
            · rename_i t ht
              simp only [Option.some.injEq] at h
              subst h
              cases z with
              | true =>
                obtain ⟨o, h1, h2⟩ := iha hra hR he hb hb'
                refine ⟨o, by simp only [IStmt.execA, h0, h1, if_true], ?_⟩
                cases o with
                | next env1 m1 => exact joinNext_left hx h2
                | ret v m1 => exact joinRet_left ht h2
              | false =>
                obtain ⟨o, h1, h2⟩ := ihb hrb hR he hb hb'
                refine ⟨o, by simp [IStmt.execA, h0, h1], ?_⟩
                cases o with
                | next env1 m1 => exact joinNext_right hx h2
                | ret v m1 => exact joinRet_right ht h2
            · simp at h
          · simp at h
        · simp at h
      · simp at h
    · simp at h
  | call dst locals nregs body args ih =>
    intro base base' env env' A m r h hR he hb hb'
    simp only [IStmt.safe] at h
    split at h
    · rename_i vs hvs
      obtain ⟨vs', h1, h2⟩ := ityArgs_sound T hK hR hb hb' he args vs hvs
      split at h
      · rename_i rb hrb
        obtain ⟨o, h3, h4⟩ := ih hrb (hR.enter locals) (h2.append nregs) hR.le hR.len
        split at h
        · rename_i av A' hl
          obtain ⟨v, m', h5, h6, h7⟩ := h4.leave hP hl hR.le hR.len
          split at h
          · simp only [Option.some.injEq] at h
            subst h
            exact ⟨.next env' m', by simp only [IStmt.execA, h1, h3, h5, resume], _, _, rfl, he, h7⟩
          · rename_i d
            split at h
            · rename_i av
              simp only [Option.some.injEq] at h
              subst h
              cases v with
              | none => exact h6.elim
              | some v =>
                exact ⟨.next (env'.set d v) m', by simp only [IStmt.execA, h1, h3, h5, resume], _, _, rfl, Forall₂.set he d h6, h7⟩
            · simp at h
        · simp at h
      · simp at h
    · simp at h

/-- The `n` cells from `p` on hold integers. -/
def InitI (m : Mem α) (p : Ptr) (n : Nat) : Prop := ∀ k < n, ∃ x, cell m p.1 (p.2 + k) = some (.i x)

omit [Add α] [Sub α] [Mul α] [Div α] [Neg α] [CFloat α] [CIntConv α] in
theorem initK_isI {m : Mem α} {p : Ptr} {n : Nat} : InitK IsI m p n ↔ InitI m p n :=
  ⟨fun h k hk => by obtain ⟨_, h1, x, rfl⟩ := h k hk; exact ⟨x, h1⟩, fun h k hk => by obtain ⟨x, hx⟩ := h k hk; exact ⟨_, hx, x, rfl⟩⟩
omit [Add α] [Sub α] [Mul α] [Div α] [Neg α] [CFloat α] [CIntConv α] in
theorem InitI.replicate {x : Int} {w : Bool} {N o n : Nat} {l : Mem α} (h : o + n ≤ N) : InitI (⟨w, List.replicate N (.i x)⟩ :: l) (0, o) n := by
  intro k hk
  exact ⟨x, by simp [cell, show o + k < N by omega]⟩

/-- Outcome of a call in memory `m` that may write `n` cells from `p` on for each `(p, n)` in `outs`: the call is
defined and returns a value of kind `R`, no other cell changes, objects keep their size and permissions, and the
outputs end up initialised. -/
def SafeI (m : Mem α) (outs : List (Ptr × Nat)) (R : Ret) (res : Option (Option (Val α) × Mem α)) : Prop :=
  ∃ v m', res = some (v, m') ∧ R.Is v ∧ Same m m' ∧
    (∀ b o, (∀ x ∈ outs, ¬ (b = x.1.1 ∧ x.1.2 ≤ o ∧ o < x.1.2 + x.2)) → cell m' b o = cell m b o) ∧
    ∀ x ∈ outs, InitI m' x.1 x.2

/-- The memory accesses of a call are safe: with every way of continuing after an overflow the call is safe, and the
checked call is either undefined (an operation failed) or gives the same. -/
def SafeMem (m : Mem α) (outs : List (Ptr × Nat)) (R : Ret) (f : IFn) (args : List (Val α)) : Prop :=
  ∀ T : Arith α, T.Agrees → SafeI m outs R (f.runA T m args) ∧ (f.run m args = none ∨ f.run m args = f.runA T m args)

/-- A function the analysis accepts makes safe memory accesses however its arguments overlap. -/
theorem isafe_run {f : IFn} (l : List (Arg α)) {m : Mem α} (hl : Arg.AllOk IsI m l) (R : Ret)
    (h : f.safe (Arg.arrays l) (Arg.avs 0 l) = some (R.av, Arg.done l)) : SafeMem m (Arg.outs l) R f (l.map Arg.val) := by
  intro T hT
  constructor
  · have hlen : (Arg.arrays l).length = (Arg.ctx IsI m l).P.length := Arg.length l
    have he : SE (Arg.ctx IsI m l) (Arg.avs 0 l) (l.map Arg.val) := Arg.avs_ok l 0 fun i p hp => by rw [Nat.zero_add]; exact hp
    unfold IFn.safe at h
    split at h
    · rename_i r hr
      rw [hlen] at hr
      obtain ⟨o, h1, h2⟩ := isafe_sound T (c := Arg.ctx IsI m l) (fun _ => Iff.rfl) (Arg.ptr_lt hl) f.body hr ((Arg.start l hl).enter f.locals)
        (he.append f.nregs) (Nat.le_refl _) rfl
      rw [Nat.sub_self, Nat.add_zero] at h1
      obtain ⟨v, m', e, h3, h4, h5, h6⟩ := Arg.finish l hl R h h2
      refine ⟨v, m', ?_, h3, h4, h5, fun x hx => initK_isI.mp (h6 x hx)⟩
      unfold IFn.runA
      rw [show f.body.execA T m.length (l.map Arg.val ++ List.replicate f.nregs .undef) (m ++ fresh f.locals) = some o from h1]
      exact e
    · simp at h
  · rcases e : f.run m (l.map Arg.val) with _ | r
    · exact Or.inl rfl
    · exact Or.inr (run_runA hT e).symm

end Cglm.CMem
