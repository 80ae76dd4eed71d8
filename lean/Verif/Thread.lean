import Verif.CMemSafe

/-!
# Calls from several threads

`Verif.CMem` runs one call at a time.  Here a call is turned into the sequence of its single memory accesses (`Act`), and a
system of threads that share a memory performs these accesses in any order.  Every `load` in an expression is an access
of its own, so another thread may act between any two of them.  Local arrays belong to their thread.
-/

namespace Cglm.CMem

/-- What a thread still has to do: finish, or one access and then more. -/
inductive Act (α β : Type) where
  | done (x : β)
  /-- undefined behaviour -/
  | stuck
  | read (b o : Nat) (k : Val α → Act α β)
  | write (b o : Nat) (v : Val α) (k : Act α β)
  /-- new local arrays; the continuation learns where they are -/
  | enter (L : List Nat) (k : Nat → Act α β)
  /-- the local arrays from number `n` on die -/
  | leave (n : Nat) (k : Act α β)

namespace Act
variable {α β γ : Type}

def bind (t : Act α β) (f : β → Act α γ) : Act α γ :=
  match t with
  | .done x => f x
  | .stuck => .stuck
  | .read b o k => .read b o fun v => (k v).bind f
  | .write b o v k => .write b o v (k.bind f)
  | .enter L k => .enter L fun n => (k n).bind f
  | .leave n k => .leave n (k.bind f)

/-- One access, in the memory the thread sees. -/
def step : Act α β → Mem α → Option (Act α β × Mem α)
  | .done _, _ => none
  | .stuck, _ => none
  | .read b o k, m =>
    match load m b o with
    | some v => some (k v, m)
    | none => none
  | .write b o v k, m =>
    match put1 m b o v with
    | some m' => some (k, m')
    | none => none
  | .enter L k, m => some (k m.length, m ++ fresh L)
  | .leave n k, m => some (k, m.take n)

/-- the cell of the next access, and whether it is written -/
def next : Act α β → Option (Nat × Nat × Bool)
  | .read b o _ => some (b, o, false)
  | .write b o _ _ => some (b, o, true)
  | _ => none

end Act

section
variable {α : Type} [Add α] [Sub α] [Mul α] [Div α] [Neg α] [CFloat α]

/-- Expression evaluation (`Expr.eval`), one load at a time. -/
def Expr.act (base : Nat) (env : List (Val α)) : Expr → Act α (Val α)
  | .reg i =>
    match env[i]? with
    | some .undef => .stuck
    | some v => .done v
    | none => .stuck
  | .loc i => .done (.p (base + i) 0)
  | .flit q => .done (.f (lit q))
  | .ilit n => .done (.i n)
  | .blit b => .done (.b b)
  | .off p n => (p.act base env).bind fun
    | .p k o => .done (.p k (o + n))
    | _ => .stuck
  | .load p => (p.act base env).bind fun
    | .p k o => .read k o .done
    | _ => .stuck
  | .f1 o a => (a.act base env).bind fun
    | .f x => .done (.f (o.app x))
    | _ => .stuck
  | .f2 o a b => (a.act base env).bind fun
    | .f x => (b.act base env).bind fun
      | .f y => .done (.f (o.app x y))
      | _ => .stuck
    | _ => .stuck
  | .fc o a b => (a.act base env).bind fun
    | .f x => (b.act base env).bind fun
      | .f y => .done (.b (o.app x y))
      | _ => .stuck
    | _ => .stuck
  | .fp o a => (a.act base env).bind fun
    | .f x => .done (.b (o.app x))
    | _ => .stuck
  | .ic o a b => (a.act base env).bind fun
    | .i x => (b.act base env).bind fun
      | .i y => .done (.b (o.app x y))
      | _ => .stuck
    | _ => .stuck
  | .i2 o a b => (a.act base env).bind fun
    | .i x => (b.act base env).bind fun
      | .i y => .done (.i (o.app x y))
      | _ => .stuck
    | _ => .stuck
  | .not a => (a.act base env).bind fun
    | .b x => .done (.b (!x))
    | _ => .stuck
  | .and a b => (a.act base env).bind fun
    | .b x => (b.act base env).bind fun
      | .b y => .done (.b (x && y))
      | _ => .stuck
    | _ => .stuck
  | .or a b => (a.act base env).bind fun
    | .b x => (b.act base env).bind fun
      | .b y => .done (.b (x || y))
      | _ => .stuck
    | _ => .stuck
  | .b2i a => (a.act base env).bind fun
    | .b x => .done (.i (Cglm.b2i x))
    | _ => .stuck
  | .ofInt a => (a.act base env).bind fun
    | .i x => .done (.f (Cglm.ofInt x))
    | _ => .stuck
  | .ite c a b => (c.act base env).bind fun
    | .b z => (a.act base env).bind fun
      | .f x => (b.act base env).bind fun
        | .f y => .done (.f (if z then x else y))
        | _ => .stuck
      | .i x => (b.act base env).bind fun
        | .i y => .done (.i (if z then x else y))
        | _ => .stuck
      | .b x => (b.act base env).bind fun
        | .b y => .done (.b (if z then x else y))
        | _ => .stuck
      | _ => .stuck
    | _ => .stuck

/-- Call arguments (`evalArgs`). -/
def actArgs (base : Nat) (env : List (Val α)) : List Expr → Act α (List (Val α))
  | [] => .done []
  | e :: es => (e.act base env).bind fun v => (actArgs base env es).bind fun vs => .done (v :: vs)

/-- How a statement ends (`Out` without the memory). -/
inductive End (α : Type) where
  | next (env : List (Val α))
  | ret (v : Option (Val α))

def End.out (m : Mem α) : End α → Out α
  | .next env => .next env m
  | .ret v => .ret v m

/-- the value of a call (`Out.leave`) -/
def End.value : End α → Act α (Option (Val α))
  | .next _ => .done none
  | .ret none => .done none
  | .ret (some (.p _ _)) => .stuck
  | .ret (some v) => .done (some v)

/-- back in the caller (`resume`) -/
def actResume (dst : Option Nat) (env : List (Val α)) (v : Option (Val α)) : Act α (End α) :=
  match dst with
  | none => .done (.next env)
  | some d =>
    match v with
    | some v => .done (.next (env.set d v))
    | none => .stuck

/-- Statement execution (`Stmt.exec`), one access at a time. -/
def Stmt.act : Stmt → Nat → List (Val α) → Act α (End α)
  | .skip, _, env => .done (.next env)
  | .seq a b, base, env => (a.act base env).bind fun
    | .next env' => b.act base env'
    | .ret v => .done (.ret v)
  | .set i e, base, env => (e.act base env).bind fun v => .done (.next (env.set i v))
  | .store p e, base, env => (p.act base env).bind fun
    | .p k o => (e.act base env).bind fun
      | .p _ _ => .stuck
      | v => .write k o v (.done (.next env))
    | _ => .stuck
  | .havoc p, base, env => (p.act base env).bind fun
    | .p k o => .write k o .undef (.done (.next env))
    | _ => .stuck
  | .ite c a b, base, env => (c.act base env).bind fun
    | .b z => if z then a.act base env else b.act base env
    | _ => .stuck
  | .call dst locals nregs body args, base, env => (actArgs base env args).bind fun vs =>
    .enter locals fun n => (body.act n (vs ++ List.replicate nregs .undef)).bind fun x =>
      .leave n (x.value.bind (actResume dst env))
  | .ret e, base, env => (e.act base env).bind fun v => .done (.ret (some v))
  | .retVoid, _, _ => .done (.ret none)

/-- A call from outside (`Fn.run`), one access at a time. -/
def Fn.act (f : Fn) (args : List (Val α)) : Act α (Option (Val α)) :=
  .enter f.locals fun n => (f.body.act n (args ++ List.replicate f.nregs .undef)).bind fun x => .leave n x.value
end

/-! ## A thread on its own -/

/-- Alone on memory `m` the thread ends with `x` and `m'` after `n` accesses; among the first `N` objects it reads only
cells in `R` and writes only cells in `W`. -/
inductive Runs {α β : Type} (N : Nat) (R W : Nat → Nat → Prop) : Act α β → Mem α → β → Mem α → Nat → Prop
  | done {x m} : Runs N R W (.done x) m x m 0
  | read {b o k m v x m' n} : (b < N → R b o) → load m b o = some v → Runs N R W (k v) m x m' n →
      Runs N R W (.read b o k) m x m' (n + 1)
  | write {b o v k m m1 x m' n} : (b < N → W b o) → put1 m b o v = some m1 → Runs N R W k m1 x m' n →
      Runs N R W (.write b o v k) m x m' (n + 1)
  | enter {L k m x m' n} : Runs N R W (k m.length) (m ++ fresh L) x m' n → Runs N R W (.enter L k) m x m' (n + 1)
  | leave {j k m x m' n} : N ≤ j → Runs N R W k (m.take j) x m' n → Runs N R W (.leave j k) m x m' (n + 1)

variable {α β γ : Type} {N : Nat} {R W : Nat → Nat → Prop}

theorem Runs.bind {t : Act α β} {m : Mem α} {x : β} {m1 : Mem α} {n : Nat} (h : Runs N R W t m x m1 n) {f : β → Act α γ} {y : γ} {m2 : Mem α}
    {n' : Nat} (h' : Runs N R W (f x) m1 y m2 n') : Runs N R W (t.bind f) m y m2 (n + n') := by
  induction h with
  | done => simpa [Act.bind] using h'
  | read h1 h2 _ ih => rw [Nat.add_right_comm]; exact .read h1 h2 (ih h')
  | write h1 h2 _ ih => rw [Nat.add_right_comm]; exact .write h1 h2 (ih h')
  | enter _ ih => rw [Nat.add_right_comm]; exact .enter (ih h')
  | leave h1 _ ih => rw [Nat.add_right_comm]; exact .leave h1 (ih h')

/-- what a thread may read: cells it may write, and cells that are initialised before the call -/
def Ctx.Rd (c : Ctx α) (b o : Nat) : Prop := c.W b o ∨ ∃ v, v ≠ .undef ∧ cell c.M b o = some v

section
variable [Add α] [Sub α] [Mul α] [Div α] [Neg α] [CFloat α]

theorem act_ty {c : Ctx α} (hK : ∀ v, c.K v ↔ ∃ x, v = .f x) {A : List AB} {m : Mem α} (hR : Ok c A m) {base base' : Nat} (hb : c.P.length ≤ base)
    (hb' : base' = c.M.length + (base - c.P.length)) {env : List AV} {env' : List (Val α)} (he : SE c env env') :
    ∀ (e : Expr) (v : AV), e.ty base env A = some v → ∃ v' n, e.eval base' env' m = some v' ∧
      Runs c.M.length c.Rd c.W (e.act base' env') m v' m n ∧ SV c v v' := by
  intro e
  induction e with
  | reg i =>
    intro v hv
    simp only [Expr.ty] at hv
    simp only [Expr.eval, Expr.act]
    rcases Forall₂.get he i with ⟨h1, h2⟩ | ⟨a, b, h1, h2, h3⟩
    · rw [h1] at hv; simp at hv
    · rw [h1] at hv
      rw [h2]
      cases a with
      | u => simp at hv
      | p r o =>
        simp only [Option.some.injEq] at hv; subst hv
        simp only [SV] at h3; subst h3
        exact ⟨_, 0, rfl, .done, rfl⟩
      | _ =>
        simp only [Option.some.injEq] at hv; subst hv
        obtain ⟨x, rfl⟩ := h3
        exact ⟨_, 0, rfl, .done, x, rfl⟩
  | loc i =>
    intro v hv
    simp only [Expr.ty] at hv
    split at hv
    · rename_i hi
      simp only [Option.some.injEq] at hv; subst hv
      refine ⟨.p (base' + i) 0, 0, ?_, .done, ?_⟩
      · have h1 := hR.len
        simp only [Expr.eval]
        rw [if_pos (by omega)]
      · simp only [SV]
        rw [c.addr_local (by omega)]
        simp only [Val.p.injEq, Nat.add_zero, and_true]
        omega
    · simp at hv
  | flit q | ilit n | blit b =>
    intro v hv
    simp only [Expr.ty, Option.some.injEq] at hv; subst hv
    exact ⟨_, 0, rfl, .done, _, rfl⟩
  | off p n ih =>
    intro v hv
    simp only [Expr.ty] at hv
    split at hv
    · rename_i r o hp
      obtain ⟨v1, n1, e1, g1, h1⟩ := ih _ hp
      simp only [SV] at h1; subst h1
      simp only [Option.some.injEq] at hv; subst hv
      exact ⟨_, _, by simp only [Expr.eval, e1], g1.bind .done, by simp only [SV, Nat.add_assoc]⟩
    · simp at hv
  | load p ih =>
    intro v hv
    simp only [Expr.ty] at hv
    split at hv
    · rename_i r o hp
      obtain ⟨v1, n1, e1, g1, h1⟩ := ih _ hp
      simp only [SV] at h1; subst h1
      split at hv
      · rename_i B hB
        split at hv
        · rename_i hz
          simp only [Option.some.injEq] at hv; subst hv
          obtain ⟨v, hc, hx⟩ := hR.has r B o true hB hz
          obtain ⟨x, rfl⟩ := (hK v).mp (hx rfl)
          have hl := load_eq_some.mpr ⟨hc, by simp⟩
          refine ⟨.f x, _, ?_, g1.bind (.read (fun hlt => ?_) hl .done), x, rfl⟩
          · simp only [Expr.eval, e1]
            exact hl
          · by_cases hw : c.W (c.addr r).1 ((c.addr r).2 + o)
            · exact Or.inl hw
            · exact Or.inr ⟨.f x, by simp, by rw [← hR.frame _ _ hlt hw]; exact hc⟩
        · simp at hv
      · simp at hv
    · simp at hv
  | f1 o a iha | fp o a iha | not a iha | b2i a iha | ofInt a iha =>
    intro v hv
    simp only [Expr.ty] at hv
    split at hv
    · rename_i h1
      obtain ⟨v1, n1, e1, g1, x, rfl⟩ := iha _ h1
      simp only [Option.some.injEq] at hv
      subst hv
      exact ⟨_, _, by simp only [Expr.eval, e1], g1.bind .done, _, rfl⟩
    · simp at hv
  | f2 o a b iha ihb | fc o a b iha ihb | ic o a b iha ihb | i2 o a b iha ihb | and a b iha ihb | or a b iha ihb =>
    intro v hv
    simp only [Expr.ty] at hv
    split at hv
    · rename_i h1
      split at hv
      · rename_i h2
        obtain ⟨v1, n1, e1, g1, x, rfl⟩ := iha _ h1
        obtain ⟨v2, n2, e2, g2, y, rfl⟩ := ihb _ h2
        simp only [Option.some.injEq] at hv
        subst hv
        exact ⟨_, _, by simp only [Expr.eval, e1, e2], g1.bind (g2.bind .done), _, rfl⟩
      · simp at hv
    · simp at hv
  | ite k a b ihc iha ihb =>
    intro v hv
    simp only [Expr.ty] at hv
    split at hv
    · rename_i h0
      obtain ⟨v0, n0, e0, g0, z, rfl⟩ := ihc _ h0
      split at hv
      all_goals first
        | (rename_i h1
           split at hv
           · rename_i h2
             obtain ⟨v1, n1, e1, g1, x, rfl⟩ := iha _ h1
             obtain ⟨v2, n2, e2, g2, y, rfl⟩ := ihb _ h2
             simp only [Option.some.injEq] at hv
             subst hv
             exact ⟨_, _, by simp only [Expr.eval, e0, e1, e2], g0.bind (g1.bind (g2.bind .done)), _, rfl⟩
           · simp at hv)
        | simp at hv
    · simp at hv

theorem act_tyArgs {c : Ctx α} (hK : ∀ v, c.K v ↔ ∃ x, v = .f x) {A : List AB} {m : Mem α} (hR : Ok c A m) {base base' : Nat} (hb : c.P.length ≤ base)
    (hb' : base' = c.M.length + (base - c.P.length)) {env : List AV} {env' : List (Val α)} (he : SE c env env') (es : List Expr) :
    ∀ vs, tyArgs base env A es = some vs → ∃ vs' n, evalArgs base' env' m es = some vs' ∧
      Runs c.M.length c.Rd c.W (actArgs base' env' es) m vs' m n ∧ SE c vs vs' := by
  induction es with
  | nil =>
    intro vs h
    simp only [tyArgs, Option.some.injEq] at h
    subst h
    exact ⟨[], 0, rfl, .done, .nil⟩
  | cons e es ih =>
    intro vs h
    simp only [tyArgs] at h
    split at h
    · rename_i v hv
      split at h
      · rename_i vs1 hvs
        simp only [Option.some.injEq] at h
        subst h
        obtain ⟨v', n1, h1, g1, h2⟩ := act_ty hK hR hb hb' he e v hv
        obtain ⟨vs', n2, h3, g2, h4⟩ := ih vs1 hvs
        exact ⟨v' :: vs', _, by simp only [evalArgs, h1, h3], g1.bind (g2.bind .done), .cons h2 h4⟩
      · simp at h
    · simp at h

omit [Add α] [Sub α] [Mul α] [Div α] [Neg α] [CFloat α] in
theorem End.value_runs {x : End α} {m m' : Mem α} {j : Nat} {v : Option (Val α)} (hj : N ≤ j) (h : (x.out m).leave j = some (v, m')) :
    m' = m.take j ∧ Runs N R W x.value m' v m' 0 := by
  cases x with
  | next env =>
    simp only [End.out, Out.leave, Option.some.injEq, Prod.mk.injEq] at h
    obtain ⟨rfl, rfl⟩ := h
    exact ⟨rfl, .done⟩
  | ret u =>
    cases u with
    | none =>
      simp only [End.out, Out.leave, Option.some.injEq, Prod.mk.injEq] at h
      obtain ⟨rfl, rfl⟩ := h
      exact ⟨rfl, .done⟩
    | some u =>
      cases u <;> simp only [End.out, Out.leave, Option.some.injEq, Prod.mk.injEq, reduceCtorEq] at h
      all_goals
        obtain ⟨rfl, rfl⟩ := h
        exact ⟨rfl, .done⟩

/-- An accepted statement, one access at a time, does what it does in one go and stays in its cells. -/
theorem act_sound {c : Ctx α} (hK : ∀ v, c.K v ↔ ∃ x, v = .f x) (hP : ∀ q ∈ c.P, q.1 < c.M.length) (s : Stmt) : ∀ {base base' : Nat} {env : List AV} {env' : List (Val α)} {A : List AB}
    {m : Mem α} {r : AOut}, s.safe c.P.length base env A = some r → Ok c A m → SE c env env' → c.P.length ≤ base →
    base' = c.M.length + (base - c.P.length) → ∃ x m' n, s.exec base' env' m = some (End.out m' x) ∧
      Runs c.M.length c.Rd c.W (s.act base' env') m x m' n ∧ SO c r (End.out m' x) := by
  induction s with
  | skip =>
    intro base base' env env' A m r h hR he hb hb'
    simp only [Stmt.safe, Option.some.injEq] at h
    subst h
    exact ⟨.next env', m, 0, rfl, .done, _, _, rfl, he, hR⟩
  | retVoid =>
    intro base base' env env' A m r h hR he hb hb'
    simp only [Stmt.safe, Option.some.injEq] at h
    subst h
    exact ⟨.ret none, m, 0, rfl, .done, _, _, rfl, trivial, hR⟩
  | ret e =>
    intro base base' env env' A m r h hR he hb hb'
    simp only [Stmt.safe] at h
    split at h
    · rename_i v hv
      simp only [Option.some.injEq] at h
      subst h
      obtain ⟨v', n1, h1, g1, h2⟩ := act_ty hK hR hb hb' he e v hv
      exact ⟨.ret (some v'), m, _, by simp only [Stmt.exec, h1, End.out], g1.bind .done, _, _, rfl, h2, hR⟩
    · simp at h
  | set i e =>
    intro base base' env env' A m r h hR he hb hb'
    simp only [Stmt.safe] at h
    split at h
    · rename_i v hv
      simp only [Option.some.injEq] at h
      subst h
      obtain ⟨v', n1, h1, g1, h2⟩ := act_ty hK hR hb hb' he e v hv
      exact ⟨.next (env'.set i v'), m, _, by simp only [Stmt.exec, h1, End.out], g1.bind .done, _, _, rfl, Forall₂.set he i h2, hR⟩
    · simp at h
  | store p e =>
    intro base base' env env' A m r h hR he hb hb'
    simp only [Stmt.safe] at h
    split at h
    · rename_i k o hp
      obtain ⟨p', n1, h1, g1, h2⟩ := act_ty hK hR hb hb' he p _ hp
      simp only [SV] at h2; subst h2
      split at h
      · rename_i B hB
        split at h
        · rename_i hc
          simp only [Bool.and_eq_true, Nat.blt_eq] at hc
          split at h
          · rename_i hv
            simp only [Option.some.injEq] at h
            subst h
            obtain ⟨v', n2, h3, g2, x, rfl⟩ := act_ty hK hR hb hb' he e _ hv
            obtain ⟨m', h4, h5⟩ := hR.mark hP hB hc.1 hc.2 (.f x) true (fun _ => (hK _).mpr ⟨x, rfl⟩) (Or.inl ((hK _).mpr ⟨x, rfl⟩))
            refine ⟨.next env', m', _, by simp only [Stmt.exec, h1, h3, h4, End.out], g1.bind (g2.bind (.write (fun hlt => ?_) h4 .done)), _, _, rfl, he, h5⟩
            by_cases hk : k < c.P.length
            · exact (hR.w k B o hB hc.1 hc.2).2 hk
            · rw [c.addr_local (by omega)] at hlt
              simp only at hlt
              omega
          · simp at h
        · simp at h
      · simp at h
    · simp at h
  | havoc p =>
    intro base base' env env' A m r h hR he hb hb'
    simp only [Stmt.safe] at h
    split at h
    · rename_i k o hp
      obtain ⟨p', n1, h1, g1, h2⟩ := act_ty hK hR hb hb' he p _ hp
      simp only [SV] at h2; subst h2
      split at h
      · rename_i B hB
        split at h
        · rename_i hc
          simp only [Bool.and_eq_true, Nat.blt_eq, Nat.ble_eq] at hc
          simp only [Option.some.injEq] at h
          subst h
          obtain ⟨m', h4, h5⟩ := hR.mark hP hB hc.1.2 hc.2 .undef false (by simp) (Or.inr hc.1.1)
          refine ⟨.next env', m', _, by simp only [Stmt.exec, h1, h4, End.out], g1.bind (.write (fun hlt => ?_) h4 .done), _, _, rfl, he, h5⟩
          rw [c.addr_local hc.1.1] at hlt
          simp only at hlt
          omega
        · simp at h
      · simp at h
    · simp at h
  | seq a b iha ihb =>
    intro base base' env env' A m r h hR he hb hb'
    simp only [Stmt.safe] at h
    split at h
    · rename_i ra hra
      obtain ⟨x, m1, n1, h1, g1, h2⟩ := iha hra hR he hb hb'
      split at h
      · rename_i e1 A1 hn
        split at h
        · rename_i rb hrb
          split at h
          · rename_i t ht
            simp only [Option.some.injEq] at h
            subst h
            cases x with
            | next env1 =>
              obtain ⟨e2, A2, q1, q2, q3⟩ := h2
              rw [hn] at q1
              simp only [Option.some.injEq, Prod.mk.injEq] at q1
              obtain ⟨rfl, rfl⟩ := q1
              obtain ⟨x', m2, n2, h3, g2, h4⟩ := ihb hrb q3 q2 hb hb'
              refine ⟨x', m2, _, by simp only [Stmt.exec, h1, h3, End.out], g1.bind g2, ?_⟩
              cases x' with
              | next env2 => exact h4
              | ret v => exact joinRet_right ht h4
            | ret v => exact ⟨.ret v, m1, _, by simp only [Stmt.exec, h1, End.out], g1.bind .done, joinRet_left ht h2⟩
          · simp at h
        · simp at h
      · rename_i hn
        simp only [Option.some.injEq] at h
        subst h
        cases x with
        | next env1 =>
          obtain ⟨e2, A2, q1, -, -⟩ := h2
          rw [hn] at q1
          simp at q1
        | ret v => exact ⟨.ret v, m1, _, by simp only [Stmt.exec, h1, End.out], g1.bind .done, h2⟩
    · simp at h
  | ite k a b iha ihb =>
    intro base base' env env' A m r h hR he hb hb'
    simp only [Stmt.safe] at h
    split at h
    · rename_i hk
      obtain ⟨v, n0, h0, g0, z, rfl⟩ := act_ty hK hR hb hb' he k _ hk
      split at h
      · rename_i ra hra
        split at h
        · rename_i rb hrb
          split at h
          · rename_i x hx
            split at h
            · rename_i t ht
              simp only [Option.some.injEq] at h
              subst h
              cases z with
              | true =>
                obtain ⟨y, m1, n1, h1, g1, h2⟩ := iha hra hR he hb hb'
                refine ⟨y, m1, _, by simp only [Stmt.exec, h0, h1, if_true], g0.bind (by simpa using g1), ?_⟩
                cases y with
                | next env1 => exact joinNext_left hx h2
                | ret v => exact joinRet_left ht h2
              | false =>
                obtain ⟨y, m1, n1, h1, g1, h2⟩ := ihb hrb hR he hb hb'
                refine ⟨y, m1, _, by simp [Stmt.exec, h0, h1], g0.bind (by simpa using g1), ?_⟩
                cases y with
                | next env1 => exact joinNext_right hx h2
                | ret v => exact joinRet_right ht h2
            · simp at h
          · simp at h
        · simp at h
      · simp at h
    · simp at h
  | call dst locals nregs body args ih =>
    intro base base' env env' A m r h hR he hb hb'
    simp only [Stmt.safe] at h
    split at h
    · rename_i vs hvs
      obtain ⟨vs', n1, h1, g1, h2⟩ := act_tyArgs hK hR hb hb' he args vs hvs
      split at h
      · rename_i rb hrb
        obtain ⟨x, m1, n2, h3, g2, h4⟩ := ih hrb (hR.enter locals) (h2.append nregs) hR.le hR.len
        split at h
        · rename_i av A' hl
          obtain ⟨v, m', h5, h6, h7⟩ := h4.leave hP hl hR.le hR.len
          have hN : c.M.length ≤ m.length := by have := hR.len; omega
          obtain ⟨rfl, g3⟩ := End.value_runs (R := c.Rd) (W := c.W) hN h5
          split at h
          · simp only [Option.some.injEq] at h
            subst h
            exact ⟨.next env', _, _, by simp only [Stmt.exec, h1, h3, h5, resume]; rfl,
              g1.bind (.enter (g2.bind (.leave hN (g3.bind .done)))), _, _, rfl, he, h7⟩
          · rename_i d
            split at h
            · rename_i av
              simp only [Option.some.injEq] at h
              subst h
              cases v with
              | none => exact h6.elim
              | some v =>
                exact ⟨.next (env'.set d v), _, _, by simp only [Stmt.exec, h1, h3, h5, resume]; rfl,
                  g1.bind (.enter (g2.bind (.leave hN (g3.bind .done)))), _, _, rfl, Forall₂.set he d h6, h7⟩
            · simp at h
        · simp at h
      · simp at h
    · simp at h

end

/-! ## Several threads -/

/-- What the threads still have to do, with the local arrays of each, and the shared memory. -/
structure Conf (α β : Type) where
  threads : List (Act α β × Mem α)
  shared : Mem α

/-- Some thread makes one access. -/
inductive Step : Conf α β → Conf α β → Prop
  | mk {ts : List (Act α β × Mem α)} {s l M : Mem α} {i : Nat} {t t' : Act α β} : ts[i]? = some (t, l) → t.step (s ++ l) = some (t', M) →
      Step ⟨ts, s⟩ ⟨ts.set i (t', M.drop s.length), M.take s.length⟩

/-- `n` accesses, by any threads in any order -/
inductive Steps : Nat → Conf α β → Conf α β → Prop
  | refl {c} : Steps 0 c c
  | step {n c c' c''} : Steps n c c' → Step c' c'' → Steps (n + 1) c c''

def Conf.Finished (c : Conf α β) : Prop := ∀ p ∈ c.threads, ∃ x, p.1 = .done x

/-- two different threads are about to access the same shared cell, one of them to write it -/
def Conf.Race (c : Conf α β) : Prop :=
  ∃ (i j : Nat) (t t' : Act α β × Mem α) (b o : Nat) (z : Bool), i ≠ j ∧ c.threads[i]? = some t ∧ c.threads[j]? = some t' ∧ b < c.shared.length ∧
    t.1.next = some (b, o, true) ∧ t'.1.next = some (b, o, z)

theorem put1_left {s l : Mem α} {b o : Nat} {v : Val α} (h : b < s.length) : put1 (s ++ l) b o v = (put1 s b o v).map (· ++ l) := by
  unfold put1
  rw [List.getElem?_append_left h]
  rcases s[b]? with _ | ⟨_ | _, cs⟩
  · rfl
  · rfl
  · dsimp only
    rcases cs[o]? with _ | _
    · rfl
    · simp [List.set_append_left _ _ h]

theorem put1_right {s l : Mem α} {b o : Nat} {v : Val α} (h : s.length ≤ b) : put1 (s ++ l) b o v = (put1 l (b - s.length) o v).map (s ++ ·) := by
  unfold put1
  rw [List.getElem?_append_right h]
  rcases l[b - s.length]? with _ | ⟨_ | _, cs⟩
  · rfl
  · rfl
  · dsimp only
    rcases cs[o]? with _ | _
    · rfl
    · simp [List.set_append_right _ _ h]

theorem load_left {s l : Mem α} {b o : Nat} (h : b < s.length) : load (s ++ l) b o = load s b o := by
  unfold load; rw [List.getElem?_append_left h]
theorem load_right {s l : Mem α} {b o : Nat} (h : s.length ≤ b) : load (s ++ l) b o = load l (b - s.length) o := by
  unfold load; rw [List.getElem?_append_right h]

/-- The thread would run on `μ`; the memory is `s`, which agrees with `μ` on the thread's cells.  Then it takes the same
step. -/
theorem Runs.sync {t : Act α β} {μ l s M' : Mem α} {x : β} {n : Nat} (h : Runs N R W t (μ ++ l) x M' n) (hN : μ.length = N) (hs : Same μ s)
    (ha : ∀ b o, R b o ∨ W b o → cell s b o = cell μ b o) :
    (t = .done x ∧ M' = μ ++ l ∧ n = 0) ∨ ∃ t' μ' l' s' n', n = n' + 1 ∧ t.step (s ++ l) = some (t', s' ++ l') ∧
      Runs N R W t' (μ' ++ l') x M' n' ∧ Same μ μ' ∧ Same s s' ∧ (∀ b o, W b o → cell s' b o = cell μ' b o) ∧
      (∀ b o, ¬ W b o → cell s' b o = cell s b o ∧ cell μ' b o = cell μ b o) ∧
      ∀ M'' n'', Runs N R W t' (s' ++ l') x M'' n'' → Runs N R W t (s ++ l) x M'' (n'' + 1) := by
  have hsN : s.length = N := by rw [← hs.length]; exact hN
  generalize hM : μ ++ l = M at h
  cases h with
  | done => subst hM; exact Or.inl ⟨rfl, rfl, rfl⟩
  | @read b o k _ v _ _ n h1 h2 h3 =>
    subst hM
    right
    have hl : load (s ++ l) b o = some v := by
      by_cases hb : b < N
      · rw [load_left (by omega)] at h2 ⊢
        rw [load_eq_some] at h2 ⊢
        exact ⟨by rw [ha b o (Or.inl (h1 hb))]; exact h2.1, h2.2⟩
      · rw [load_right (by omega)] at h2 ⊢
        rwa [hsN, ← hN]
    exact ⟨k v, μ, l, s, n, rfl, by simp only [Act.step, hl], h3, .refl _, .refl _, fun b o hw => ha b o (Or.inr hw), fun _ _ _ => ⟨rfl, rfl⟩,
      fun _ _ h => .read h1 hl h⟩
  | @write b o v k _ m1 _ _ n h1 h2 h3 =>
    subst hM
    right
    by_cases hb : b < N
    · rw [put1_left (by omega)] at h2
      rcases e : put1 μ b o v with _ | μ'
      · rw [e] at h2; simp at h2
      · rw [e] at h2
        simp only [Option.map_some, Option.some.injEq] at h2
        subst h2
        obtain ⟨p1, p2, p3, p4⟩ := put1_spec e
        obtain ⟨s', e'⟩ := put1_isSome (m := s) (b := b) (o := o) v (by rw [← hs.wr]; exact p1) (by rw [← hs.cell]; exact p2)
        obtain ⟨-, -, q3, q4⟩ := put1_spec e'
        have hp : put1 (s ++ l) b o v = some (s' ++ l) := by rw [put1_left (by omega), e']; rfl
        refine ⟨k, μ', l, s', n, rfl, by simp only [Act.step, hp], h3, p3, q3, ?_, ?_, fun _ _ h => .write h1 hp h⟩
        · intro b' o' hw
          rw [p4, q4]
          split
          · rfl
          · exact ha b' o' (Or.inr hw)
        · intro b' o' hw
          rw [p4, q4]
          split
          · rename_i hh
            exact absurd (hh.1 ▸ hh.2 ▸ h1 hb) hw
          · exact ⟨rfl, rfl⟩
    · rw [put1_right (by omega)] at h2
      rcases e : put1 l (b - μ.length) o v with _ | l'
      · rw [e] at h2; simp at h2
      · rw [e] at h2
        simp only [Option.map_some, Option.some.injEq] at h2
        subst h2
        have hp : put1 (s ++ l) b o v = some (s ++ l') := by rw [put1_right (by omega), hsN, ← hN, e]; rfl
        exact ⟨k, μ, l', s, n, rfl, by simp only [Act.step, hp], h3, .refl _, .refl _, fun b o hw => ha b o (Or.inr hw), fun _ _ _ => ⟨rfl, rfl⟩,
          fun _ _ h => .write h1 hp h⟩
  | @enter L k _ _ _ n h3 =>
    subst hM
    right
    have hlen : (s ++ l).length = (μ ++ l).length := by simp [hs.length]
    refine ⟨k (μ ++ l).length, μ, l ++ fresh L, s, n, rfl, by simp only [Act.step, hlen, List.append_assoc], by rw [← List.append_assoc]; exact h3, .refl _, .refl _, fun b o hw => ha b o (Or.inr hw), fun _ _ _ => ⟨rfl, rfl⟩,
      fun _ _ h => .enter (by rw [hlen, List.append_assoc]; exact h)⟩
  | @leave j k _ _ _ n h1 h3 =>
    subst hM
    right
    have ht : ∀ a : Mem α, a.length = N → (a ++ l).take j = a ++ l.take (j - N) := by
      intro a ha
      rw [List.take_append, ha, List.take_of_length_le (by omega)]
    exact ⟨k, μ, l.take (j - N), s, n, rfl, by simp only [Act.step, ht s hsN], by rw [← ht μ hN]; exact h3, .refl _, .refl _, fun b o hw => ha b o (Or.inr hw), fun _ _ _ => ⟨rfl, rfl⟩,
      fun _ _ h => .leave h1 (by rw [ht s hsN]; exact h)⟩

/-- The thread does the same on any memory that agrees on its cells. -/
theorem Runs.transfer (n : Nat) : ∀ {t : Act α β} {μ l s M' : Mem α} {x : β}, Runs N R W t (μ ++ l) x M' n → μ.length = N → Same μ s →
    (∀ b o, R b o ∨ W b o → cell s b o = cell μ b o) → ∃ M'', Runs N R W t (s ++ l) x M'' n := by
  induction n with
  | zero =>
    intro t μ l s M' x h hN hs ha
    rcases h.sync hN hs ha with ⟨rfl, -, -⟩ | ⟨_, _, _, _, _, h1, _⟩
    · exact ⟨_, .done⟩
    · omega
  | succ n ih =>
    intro t μ l s M' x h hN hs ha
    rcases h.sync hN hs ha with ⟨-, -, h1⟩ | ⟨t', μ', l', s', n', h1, -, h3, h4, h5, h6, h7, h8⟩
    · omega
    · obtain rfl : n = n' := by omega
      obtain ⟨M'', h9⟩ := ih h3 (by rw [← h4.length]; exact hN) ((h4.symm.trans hs).trans h5) (by
        intro b o hr
        by_cases hw : W b o
        · exact h6 b o hw
        · rw [(h7 b o hw).1, (h7 b o hw).2]; exact ha b o hr)
      exact ⟨M'', h8 _ _ h9⟩

theorem Runs.zero {t : Act α β} {m : Mem α} {x : β} {m' : Mem α} (h : Runs N R W t m x m' 0) : ∃ x, t = .done x := by
  cases h; exact ⟨_, rfl⟩

/-- the next access is to a cell of the thread -/
theorem Runs.next {t : Act α β} {m : Mem α} {x : β} {m' : Mem α} {n : Nat} (h : Runs N R W t m x m' n) {b o : Nat} {z : Bool}
    (ht : t.next = some (b, o, z)) (hb : b < N) : (z = true → W b o) ∧ (R b o ∨ W b o) := by
  cases h with
  | write q _ _ =>
    simp only [Act.next, Option.some.injEq, Prod.mk.injEq] at ht; obtain ⟨rfl, rfl, rfl⟩ := ht
    exact ⟨fun _ => q hb, Or.inr (q hb)⟩
  | read q _ _ =>
    simp only [Act.next, Option.some.injEq, Prod.mk.injEq] at ht; obtain ⟨rfl, rfl, rfl⟩ := ht
    exact ⟨by simp, Or.inl (q hb)⟩
  | done | enter _ | leave _ _ => simp [Act.next] at ht

/-- A thread on its own has one way to go. -/
theorem Runs.det {R' W' : Nat → Nat → Prop} {t : Act α β} {m : Mem α} {x x' : β} {m1 m2 : Mem α} {n n' : Nat} (h : Runs N R W t m x m1 n)
    (h' : Runs N R' W' t m x' m2 n') : x = x' ∧ m1 = m2 ∧ n = n' := by
  induction h generalizing n' with
  | done => cases h'; exact ⟨rfl, rfl, rfl⟩
  | read _ h2 _ ih =>
    cases h' with
    | read _ g2 g3 =>
      rw [h2] at g2
      cases g2
      obtain ⟨a, b, c⟩ := ih g3
      exact ⟨a, b, by omega⟩
  | write _ h2 _ ih =>
    cases h' with
    | write _ g2 g3 =>
      rw [h2] at g2
      cases g2
      obtain ⟨a, b, c⟩ := ih g3
      exact ⟨a, b, by omega⟩
  | enter _ ih =>
    cases h' with
    | enter g3 =>
      obtain ⟨a, b, c⟩ := ih g3
      exact ⟨a, b, by omega⟩
  | leave _ _ ih =>
    cases h' with
    | leave _ g3 =>
      obtain ⟨a, b, c⟩ := ih g3
      exact ⟨a, b, by omega⟩

/-- A thread with its cells and what it does alone. -/
structure Job (α β : Type) where
  act : Act α β
  R : Nat → Nat → Prop
  W : Nat → Nat → Prop
  x : β
  fin : Mem α
  n : Nat

/-- alone on `m` the job ends as it says -/
def Job.Ok (m : Mem α) (J : Job α β) : Prop := Runs m.length J.R J.W J.act m J.x J.fin J.n

/-- no job writes what another one reads or writes -/
def Separate (Js : List (Job α β)) : Prop :=
  ∀ (i j : Nat) (I J : Job α β), i ≠ j → Js[i]? = some I → Js[j]? = some J → ∀ b o, I.W b o → ¬ J.R b o ∧ ¬ J.W b o

/-- one thread in the middle of everything: what it would be doing alone -/
def During (m s : Mem α) (J : Job α β) (p : Act α β × Mem α) (n : Nat) : Prop :=
  ∃ μ, Runs m.length J.R J.W p.1 (μ ++ p.2) J.x J.fin n ∧ Same m μ ∧ (∀ b o, ¬ J.W b o → cell μ b o = cell m b o) ∧
    ∀ b o, J.W b o → cell s b o = cell μ b o

/-- the state of the system when `k` accesses are left -/
structure Mid (m : Mem α) (Js : List (Job α β)) (c : Conf α β) (k : Nat) : Prop where
  len : c.threads.length = Js.length
  same : Same m c.shared
  rest : ∀ b o, (∀ J ∈ Js, ¬ J.W b o) → cell c.shared b o = cell m b o
  cnt : ∃ ns : List Nat, ns.length = Js.length ∧ ns.sum = k ∧
    ∀ (i : Nat) (J : Job α β) (p : Act α β × Mem α) (n : Nat), Js[i]? = some J → c.threads[i]? = some p → ns[i]? = some n → During m c.shared J p n

theorem During.agree {m s : Mem α} {Js : List (Job α β)} (hsep : Separate Js) (hrest : ∀ b o, (∀ J ∈ Js, ¬ J.W b o) → cell s b o = cell m b o)
    {i : Nat} {J : Job α β} (hi : Js[i]? = some J) {μ : Mem α} (h1 : ∀ b o, ¬ J.W b o → cell μ b o = cell m b o)
    (h2 : ∀ b o, J.W b o → cell s b o = cell μ b o) : ∀ b o, J.R b o ∨ J.W b o → cell s b o = cell μ b o := by
  intro b o hr
  by_cases hw : J.W b o
  · exact h2 b o hw
  · have hr : J.R b o := by tauto
    rw [h1 b o hw]
    apply hrest
    intro K hK hKw
    obtain ⟨j, hj⟩ := List.mem_iff_getElem?.mp hK
    by_cases e : j = i
    · subst e; rw [hi] at hj; cases hj; exact hw hKw
    · exact (hsep j i K J e hj hi b o hKw).1 hr

theorem Mid.thread {m : Mem α} {Js : List (Job α β)} {c : Conf α β} {k : Nat} (h : Mid m Js c k) {i : Nat} {p : Act α β × Mem α}
    (hp : c.threads[i]? = some p) : ∃ J, Js[i]? = some J := by
  have hlt : i < c.threads.length := by
    by_contra hn
    rw [List.getElem?_eq_none (by omega)] at hp
    simp at hp
  exact ⟨Js[i]'(by rw [← h.len]; exact hlt), List.getElem?_eq_getElem _⟩

theorem sum_set {ns : List Nat} {i n : Nat} (h : ns[i]? = some (n + 1)) : (ns.set i n).sum + 1 = ns.sum := by
  induction ns generalizing i with
  | nil => simp at h
  | cons a ns ih =>
    cases i with
    | zero => simp at h; subst h; simp; omega
    | succ i => simp at h; have := ih h; simp; omega

/-- An access leads from one state in the middle to another. -/
theorem Mid.step {m : Mem α} {Js : List (Job α β)} (hsep : Separate Js) {c c' : Conf α β} {k : Nat} (h : Mid m Js c k) (hs : Step c c') :
    ∃ k', k = k' + 1 ∧ Mid m Js c' k' := by
  obtain ⟨hi, hst⟩ := hs
  rename_i ts s l M i t t'
  obtain ⟨J, hJ⟩ := h.thread hi
  obtain ⟨ns, hn1, hn2, hn3⟩ := h.cnt
  have hlt : i < Js.length := by
    by_contra hn
    rw [List.getElem?_eq_none (by omega)] at hJ
    simp at hJ
  have hni : ns[i]? = some (ns[i]'(by omega)) := List.getElem?_eq_getElem _
  obtain ⟨μ, d1, d2, d3, d4⟩ := hn3 i J (t, l) _ hJ hi hni
  have hlen : s.length = m.length := h.same.length.symm
  have hag := During.agree hsep h.rest hJ d3 d4
  rcases d1.sync d2.length.symm (d2.symm.trans h.same) hag with ⟨e, -, -⟩ | ⟨t1, μ', l', s', n', e1, e2, e3, e4, e5, e6, e7, -⟩
  · simp only at e; subst e; simp [Act.step] at hst
  · simp only at e2
    rw [hst] at e2
    simp only [Option.some.injEq, Prod.mk.injEq] at e2
    obtain ⟨rfl, rfl⟩ := e2
    have hl' : s'.length = s.length := e5.length.symm
    have htake : (s' ++ l').take s.length = s' := by rw [← hl']; simp
    have hdrop : (s' ++ l').drop s.length = l' := by rw [← hl']; simp
    rw [e1] at hni
    refine ⟨(ns.set i n').sum, by rw [sum_set hni]; exact hn2.symm, ?_⟩
    rw [htake, hdrop]
    refine ⟨by simpa using h.len, h.same.trans e5, ?_, ns.set i n', by simpa using hn1, rfl, ?_⟩
    · intro b o hb
      rw [(e7 b o (hb J (List.mem_of_getElem? hJ))).1]
      exact h.rest b o hb
    · intro j I p n hI hp hn
      by_cases e : j = i
      · subst e
        rw [hJ] at hI; cases hI
        have hts : j < ts.length := by have := h.len; simp only at this; omega
        simp only [List.getElem?_set_self hts, Option.some.injEq] at hp
        rw [List.getElem?_set_self (by omega), Option.some.injEq] at hn
        subst hp; subst hn
        refine ⟨μ', e3, d2.trans e4, ?_, e6⟩
        intro b o hw
        rw [(e7 b o hw).2]
        exact d3 b o hw
      · simp only [List.getElem?_set_ne (Ne.symm e)] at hp
        rw [List.getElem?_set_ne (Ne.symm e)] at hn
        obtain ⟨ν, f1, f2, f3, f4⟩ := hn3 j I p n hI hp hn
        refine ⟨ν, f1, f2, f3, ?_⟩
        intro b o hw
        rw [(e7 b o (hsep j i I J e hI hJ b o hw).2).1]
        exact f4 b o hw

/-- In the middle, a thread that has not finished can go on. -/
theorem Mid.progress {m : Mem α} {Js : List (Job α β)} (hsep : Separate Js) {c : Conf α β} {k : Nat} (h : Mid m Js c k) {i : Nat}
    {p : Act α β × Mem α} (hp : c.threads[i]? = some p) : (∃ x, p.1 = .done x) ∨ ∃ q, p.1.step (c.shared ++ p.2) = some q := by
  obtain ⟨J, hJ⟩ := h.thread hp
  obtain ⟨ns, hn1, hn2, hn3⟩ := h.cnt
  have hlt : i < Js.length := by
    by_contra hn
    rw [List.getElem?_eq_none (by omega)] at hJ
    simp at hJ
  obtain ⟨μ, d1, d2, d3, d4⟩ := hn3 i J p _ hJ hp (List.getElem?_eq_getElem (by omega))
  rcases d1.sync d2.length.symm (d2.symm.trans h.same) (During.agree hsep h.rest hJ d3 d4) with ⟨e, -, -⟩ | ⟨_, _, _, _, _, -, e2, -⟩
  · exact Or.inl ⟨_, e⟩
  · exact Or.inr ⟨_, e2⟩

/-- In the middle there is no race. -/
theorem Mid.no_race {m : Mem α} {Js : List (Job α β)} (hsep : Separate Js) {c : Conf α β} {k : Nat} (h : Mid m Js c k) : ¬ c.Race := by
  rintro ⟨i, j, t, t', b, o, z, hij, hi, hj, hb, h1, h2⟩
  obtain ⟨I, hI⟩ := h.thread hi
  obtain ⟨J, hJ⟩ := h.thread hj
  obtain ⟨ns, hn1, hn2, hn3⟩ := h.cnt
  have lt : ∀ {r : Nat} {K : Job α β}, Js[r]? = some K → r < ns.length := by
    intro r K hK
    by_contra hn
    rw [List.getElem?_eq_none (by omega)] at hK
    simp at hK
  obtain ⟨μ, d1, -⟩ := hn3 i I t _ hI hi (List.getElem?_eq_getElem (lt hI))
  obtain ⟨ν, g1, -⟩ := hn3 j J t' _ hJ hj (List.getElem?_eq_getElem (lt hJ))
  have hbm : b < m.length := by rw [h.same.length]; exact hb
  have hW : I.W b o := (d1.next h1 hbm).1 rfl
  have hsep := hsep i j I J hij hI hJ b o hW
  exact (g1.next h2 hbm).2.elim hsep.1 hsep.2

theorem Mid.start {m : Mem α} {Js : List (Job α β)} (hJs : ∀ J ∈ Js, J.Ok m) :
    Mid m Js ⟨Js.map fun J => (J.act, []), m⟩ (Js.map Job.n).sum := by
  refine ⟨by simp, .refl _, fun _ _ _ => rfl, Js.map Job.n, by simp, rfl, ?_⟩
  intro i J p n hJ hp hn
  simp only [List.getElem?_map, hJ, Option.map_some, Option.some.injEq] at hp hn
  subst hp; subst hn
  exact ⟨m, by simpa [Job.Ok] using hJs J (List.mem_of_getElem? hJ), .refl _, fun _ _ _ => rfl, fun _ _ _ => rfl⟩

theorem Mid.steps {m : Mem α} {Js : List (Job α β)} (hsep : Separate Js) {n : Nat} {c c' : Conf α β} (hs : Steps n c c') :
    ∀ {k : Nat}, Mid m Js c k → ∃ k', k = k' + n ∧ Mid m Js c' k' := by
  induction hs with
  | refl => intro k h; exact ⟨k, rfl, h⟩
  | step _ h2 ih =>
    intro k h
    obtain ⟨k1, rfl, h1⟩ := ih h
    obtain ⟨k2, rfl, h3⟩ := h1.step hsep h2
    exact ⟨k2, by omega, h3⟩

/-- When no access is left all threads have finished. -/
theorem Mid.all_done {m : Mem α} {Js : List (Job α β)} {c : Conf α β} (h : Mid m Js c 0) : c.Finished := by
  intro p hp
  obtain ⟨i, hi⟩ := List.mem_iff_getElem?.mp hp
  obtain ⟨J, hJ⟩ := h.thread hi
  obtain ⟨ns, hn1, hn2, hn3⟩ := h.cnt
  have hlt : i < ns.length := by
    by_contra hn
    rw [List.getElem?_eq_none (by omega)] at hJ
    simp at hJ
  have h0 : ns[i] = 0 := by
    have hle : ∀ (l : List Nat) (j : Nat) (hj : j < l.length), l[j] ≤ l.sum := by
      intro l
      induction l with
      | nil => intro j hj; simp at hj
      | cons a l ih =>
        intro j hj
        cases j with
        | zero => simp
        | succ j => have := ih j (by simpa using hj); simp; omega
    have := hle ns i hlt
    omega
  obtain ⟨μ, d1, -⟩ := hn3 i J p _ hJ hi (List.getElem?_eq_getElem hlt)
  rw [h0] at d1
  exact d1.zero

/-- At the end every thread has its own result, its cells hold what it would have left there alone, and no other cell
has changed. -/
theorem Mid.finish {m : Mem α} {Js : List (Job α β)} {c : Conf α β} {k : Nat} (h : Mid m Js c k) (hf : c.Finished) :
    c.threads.map Prod.fst = Js.map (fun J => .done J.x) ∧ k = 0 ∧ Same m c.shared ∧
    (∀ J ∈ Js, ∀ b o, J.W b o → b < m.length → cell c.shared b o = cell J.fin b o) ∧
    ∀ b o, (∀ J ∈ Js, ¬ J.W b o) → cell c.shared b o = cell m b o := by
  obtain ⟨ns, hn1, hn2, hn3⟩ := h.cnt
  have key : ∀ (i : Nat) (J : Job α β) (p : Act α β × Mem α) (n : Nat), Js[i]? = some J → c.threads[i]? = some p → ns[i]? = some n →
      p.1 = .done J.x ∧ n = 0 ∧ ∀ b o, J.W b o → b < m.length → cell c.shared b o = cell J.fin b o := by
    intro i J p n hJ hp hn
    obtain ⟨μ, d1, d2, d3, d4⟩ := hn3 i J p n hJ hp hn
    obtain ⟨x, hx⟩ := hf p (List.mem_of_getElem? hp)
    rw [hx] at d1 ⊢
    generalize hM : μ ++ p.2 = M at d1
    generalize hfin : J.fin = F at d1
    generalize hy : J.x = y at d1
    cases d1
    subst hM
    refine ⟨rfl, rfl, ?_⟩
    intro b o hw hb
    rw [d4 b o hw, cell_append_left (by rw [← d2.length]; exact hb)]
  have lt : ∀ {r : Nat} {K : Job α β}, Js[r]? = some K → r < Js.length := by
    intro r K hK
    by_contra hn
    rw [List.getElem?_eq_none (by omega)] at hK
    simp at hK
  refine ⟨?_, ?_, h.same, ?_, h.rest⟩
  · apply List.ext_getElem?
    intro i
    by_cases hi : i < Js.length
    · have e1 : c.threads[i]? = some (c.threads[i]'(by rw [h.len]; exact hi)) := List.getElem?_eq_getElem _
      have e2 : Js[i]? = some Js[i] := List.getElem?_eq_getElem _
      simp only [List.getElem?_map, e1, e2, Option.map_some]
      rw [(key i _ _ _ e2 e1 (List.getElem?_eq_getElem (by omega))).1]
    · rw [List.getElem?_eq_none (by simp; have := h.len; omega), List.getElem?_eq_none (by simp; omega)]
  · have : ∀ n ∈ ns, n = 0 := by
      intro n hn
      obtain ⟨i, hi⟩ := List.mem_iff_getElem?.mp hn
      have hlt : i < Js.length := by
        by_contra hh
        rw [List.getElem?_eq_none (by omega)] at hi
        simp at hi
      exact (key i _ _ n (List.getElem?_eq_getElem hlt) (List.getElem?_eq_getElem (by rw [h.len]; exact hlt)) hi).2.1
    rw [← hn2]
    clear hn3 key hn1 hn2
    induction ns with
    | nil => rfl
    | cons a ns ih =>
      rw [List.sum_cons, this a (by simp), ih fun n hn => this n (by simp [hn])]
  · intro J hJ b o hw hb
    obtain ⟨i, hi⟩ := List.mem_iff_getElem?.mp hJ
    have hlt := lt hi
    exact (key i J _ _ hi (List.getElem?_eq_getElem (by rw [h.len]; exact hlt)) (List.getElem?_eq_getElem (by omega))).2.2 b o hw hb

end Cglm.CMem
