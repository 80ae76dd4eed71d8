import Verif.CMemX
import Verif.I32

/-!
# Memory-level model of the integer-vector functions

The language of `Verif.CMem` with checked 32-bit arithmetic: an overflow, a division by zero or an out-of-range
conversion is undefined (`none`), as in the value-level model of `Verif.I32`.  An `int` cell holds `.i n`.
-/

namespace Cglm.CMem

/-- binary operators on `int` -/
inductive IOp2 where | add | sub | mul | div | mod
/-- unary operators on `int` -/
inductive IOp1 where | neg | abs

def IOp2.app : IOp2 → Int32 → Int32 → Option Int32
  | .add => I32.add | .sub => I32.sub | .mul => I32.mul | .div => I32.div | .mod => I32.mod
def IOp1.app : IOp1 → Int32 → Option Int32
  | .neg => I32.neg | .abs => I32.abs

/-- Expressions with checked integer arithmetic. -/
inductive IExpr where
  /-- register of the current frame -/
  | reg (i : Nat)
  /-- `&local[i]` -/
  | loc (i : Nat)
  | ilit (n : Int)
  | blit (b : Bool)
  /-- pointer `p` moved by `n` cells -/
  | off (p : IExpr) (n : Nat)
  /-- read the cell at `p` -/
  | load (p : IExpr)
  | i2 (o : IOp2) (a b : IExpr)
  | i1 (o : IOp1) (a : IExpr)
  /-- `a >> k`, arithmetic -/
  | sar (a : IExpr) (k : Nat)
  | ic (o : IC) (a b : IExpr)
  /-- `a && b` -/
  | and (a b : IExpr)
  /-- `a || b` -/
  | or (a b : IExpr)
  | not (a : IExpr)
  /-- `c ? a : b` -/
  | ite (c a b : IExpr)
  /-- `(float)a` -/
  | ofInt (a : IExpr)
  /-- `(int)a` -/
  | toInt (a : IExpr)
  | f1 (o : F1) (a : IExpr)

/-- Statements with checked integer arithmetic. -/
inductive IStmt where
  | skip
  | seq (a b : IStmt)
  | set (i : Nat) (e : IExpr)
  /-- `*p = e` -/
  | store (p e : IExpr)
  | ite (c : IExpr) (a b : IStmt)
  | call (dst : Option Nat) (locals : List Nat) (nregs : Nat) (body : IStmt) (args : List IExpr)
  | ret (e : IExpr)
  | retVoid

/-- A C function with checked integer arithmetic. -/
structure IFn where
  /-- sizes of the local arrays -/
  locals : List Nat
  /-- number of scalar locals -/
  nregs : Nat
  body : IStmt

variable {α : Type} [Add α] [Sub α] [Mul α] [Div α] [Neg α] [CFloat α] [CIntConv α]

/-- the value of a checked operation -/
def iret : Option Int32 → Option (Val α)
  | some n => some (.i n.toInt)
  | none => none

def IExpr.eval (base : Nat) (env : List (Val α)) (m : Mem α) : IExpr → Option (Val α)
  | .reg i => (Expr.reg i).eval base env m
  | .loc i => (Expr.loc i).eval base env m
  | .ilit n => some (.i n)
  | .blit b => some (.b b)
  | .off p n =>
    match p.eval base env m with
    | some (.p b o) => some (.p b (o + n))
    | _ => none
  | .load p =>
    match p.eval base env m with
    | some (.p b o) => CMem.load m b o
    | _ => none
  | .i2 o a b =>
    match a.eval base env m with
    | some (.i x) =>
      match b.eval base env m with
      | some (.i y) => iret (o.app (Int32.ofInt x) (Int32.ofInt y))
      | _ => none
    | _ => none
  | .i1 o a =>
    match a.eval base env m with
    | some (.i x) => iret (o.app (Int32.ofInt x))
    | _ => none
  | .sar a k =>
    match a.eval base env m with
    | some (.i x) => iret (some (I32.sar (Int32.ofInt x) k))
    | _ => none
  | .ic o a b =>
    match a.eval base env m with
    | some (.i x) =>
      match b.eval base env m with
      | some (.i y) => some (.b (o.app x y))
      | _ => none
    | _ => none
  | .and a b =>
    match a.eval base env m with
    | some (.b true) =>
      match b.eval base env m with
      | some (.b y) => some (.b y)
      | _ => none
    | some (.b false) => some (.b false)
    | _ => none
  | .or a b =>
    match a.eval base env m with
    | some (.b false) =>
      match b.eval base env m with
      | some (.b y) => some (.b y)
      | _ => none
    | some (.b true) => some (.b true)
    | _ => none
  | .not a =>
    match a.eval base env m with
    | some (.b x) => some (.b (!x))
    | _ => none
  | .ite c a b =>
    match c.eval base env m with
    | some (.b true) => a.eval base env m
    | some (.b false) => b.eval base env m
    | _ => none
  | .ofInt a =>
    match a.eval base env m with
    | some (.i x) => some (.f (ofI32 (Int32.ofInt x)))
    | _ => none
  | .toInt a =>
    match a.eval base env m with
    | some (.f x) => iret (toI32 x)
    | _ => none
  | .f1 o a =>
    match a.eval base env m with
    | some (.f x) => some (.f (o.app x))
    | _ => none

/-- Evaluate call arguments from left to right. -/
def ievalArgs (base : Nat) (env : List (Val α)) (m : Mem α) : List IExpr → Option (List (Val α))
  | [] => some []
  | e :: es =>
    match e.eval base env m with
    | some v =>
      match ievalArgs base env m es with
      | some vs => some (v :: vs)
      | none => none
    | none => none

/-- Statement execution. -/
def IStmt.exec : IStmt → Nat → List (Val α) → Mem α → Option (Out α)
  | .skip, _, env, m => some (.next env m)
  | .seq a b, base, env, m =>
    match a.exec base env m with
    | some (.next env' m') => b.exec base env' m'
    | some (.ret v m') => some (.ret v m')
    | none => none
  | .set i e, base, env, m =>
    match e.eval base env m with
    | some v => some (.next (env.set i v) m)
    | none => none
  | .store p e, base, env, m =>
    match p.eval base env m with
    | some (.p k o) =>
      match e.eval base env m with
      | some (.p _ _) => none
      | some v =>
        match put1 m k o v with
        | some m' => some (.next env m')
        | none => none
      | none => none
    | _ => none
  | .ite c a b, base, env, m =>
    match c.eval base env m with
    | some (.b z) => if z then a.exec base env m else b.exec base env m
    | _ => none
  | .call dst locals nregs body args, base, env, m =>
    match ievalArgs base env m args with
    | some vs =>
      match body.exec m.length (vs ++ List.replicate nregs .undef) (m ++ fresh locals) with
      | some r =>
        match r.leave m.length with
        | some x => resume dst env x
        | none => none
      | none => none
    | none => none
  | .ret e, base, env, m =>
    match e.eval base env m with
    | some v => some (.ret (some v) m)
    | none => none
  | .retVoid, _, _, m => some (.ret none m)

/-- Call `f` from outside: result and final memory, or `none` if the call is undefined. -/
def IFn.run (f : IFn) (m : Mem α) (args : List (Val α)) : Option (Option (Val α) × Mem α) :=
  match f.body.exec m.length (args ++ List.replicate f.nregs .undef) (m ++ fresh f.locals) with
  | some r => r.leave m.length
  | none => none

/-! ## Transfer -/

omit [Add α] [Sub α] [Mul α] [Div α] [Neg α] [CFloat α] [CIntConv α] in
theorem iret_rel {j : List (Nat × Nat)} {o : Option Int32} {v : Val α} (h : iret o = some v) : VRel j v v := by
  cases o <;> simp only [iret, reduceCtorEq, Option.some.injEq] at h
  subst h
  rfl

theorem ieval_sim {j : List (Nat × Nat)} {A m : Mem α} (hR : R j A m) {base base' : Nat} (hb : Locals j A m base base')
    {env env' : List (Val α)} (he : ERel j env env') :
    ∀ (e : IExpr) (v : Val α), e.eval base env A = some v → ∃ v', e.eval base' env' m = some v' ∧ VRel j v v' := by
  intro e
  induction e with
  | reg i => exact eval_sim hR hb he (.reg i)
  | loc i => exact eval_sim hR hb he (.loc i)
  | ilit n => exact eval_sim hR hb he (.ilit n)
  | blit b => exact eval_sim hR hb he (.blit b)
  | off p n ih =>
    intro v hv
    unfold IExpr.eval at hv ⊢
    split at hv
    · rename_i b o hp
      obtain ⟨p', h1, q, hq, rfl⟩ := ih _ hp
      rw [h1]
      simp only [Option.some.injEq] at hv
      subst hv
      exact ⟨_, rfl, q, hq, by rw [Nat.add_assoc]⟩
    · simp at hv
  | load p ih =>
    intro v hv
    unfold IExpr.eval at hv ⊢
    split at hv
    · rename_i b o hp
      obtain ⟨p', h1, q, hq, rfl⟩ := ih _ hp
      rw [h1]
      exact ⟨v, hR.load hq hv⟩
    · simp at hv
  | i1 o a ih | sar a k ih | toInt a ih =>
    intro v hv
    unfold IExpr.eval at hv ⊢
    split at hv
    · rename_i x hx
      obtain ⟨x', h1, rfl⟩ := ih _ hx
      rw [h1]
      exact ⟨_, hv, iret_rel hv⟩
    · simp at hv
  | not a ih | ofInt a ih | f1 o a ih =>
    intro v hv
    unfold IExpr.eval at hv ⊢
    split at hv
    · rename_i x hx
      obtain ⟨x', h1, rfl⟩ := ih _ hx
      rw [h1]
      simp only [Option.some.injEq] at hv
      subst hv
      exact ⟨_, rfl, rfl⟩
    · simp at hv
  | i2 o a b iha ihb =>
    intro v hv
    unfold IExpr.eval at hv ⊢
    split at hv
    · rename_i x hx
      obtain ⟨x', h1, rfl⟩ := iha _ hx
      rw [h1]
      split at hv
      · rename_i y hy
        obtain ⟨y', h2, rfl⟩ := ihb _ hy
        rw [h2]
        exact ⟨_, hv, iret_rel hv⟩
      · simp at hv
    · simp at hv
  | ic o a b iha ihb =>
    intro v hv
    unfold IExpr.eval at hv ⊢
    split at hv
    · rename_i x hx
      obtain ⟨x', h1, rfl⟩ := iha _ hx
      rw [h1]
      split at hv
      · rename_i y hy
        obtain ⟨y', h2, rfl⟩ := ihb _ hy
        rw [h2]
        simp only [Option.some.injEq] at hv
        subst hv
        exact ⟨_, rfl, rfl⟩
      · simp at hv
    · simp at hv
  | and a b iha ihb | or a b iha ihb =>
    intro v hv
    unfold IExpr.eval at hv ⊢
    split at hv
    · rename_i hx
      obtain ⟨x', h1, rfl⟩ := iha _ hx
      rw [h1]
      split at hv
      · rename_i y hy
        obtain ⟨y', h2, rfl⟩ := ihb _ hy
        rw [h2]
        simp only [Option.some.injEq] at hv
        subst hv
        exact ⟨_, rfl, rfl⟩
      · simp at hv
    · rename_i hx
      obtain ⟨x', h1, rfl⟩ := iha _ hx
      rw [h1]
      simp only [Option.some.injEq] at hv
      subst hv
      exact ⟨_, rfl, rfl⟩
    · simp at hv
  | ite c a b ihc iha ihb =>
    intro v hv
    unfold IExpr.eval at hv ⊢
    split at hv
    · rename_i hx
      obtain ⟨x', h1, rfl⟩ := ihc _ hx
      rw [h1]
      exact iha _ hv
    · rename_i hx
      obtain ⟨x', h1, rfl⟩ := ihc _ hx
      rw [h1]
      exact ihb _ hv
    · simp at hv

theorem ievalArgs_sim {j : List (Nat × Nat)} {A m : Mem α} (hR : R j A m) {base base' : Nat} (hb : Locals j A m base base')
    {env env' : List (Val α)} (he : ERel j env env') :
    ∀ (es : List IExpr) (vs : List (Val α)), ievalArgs base env A es = some vs → ∃ vs', ievalArgs base' env' m es = some vs' ∧ ERel j vs vs' := by
  intro es
  induction es with
  | nil => intro vs h; simp only [ievalArgs, Option.some.injEq] at h ⊢; subst h; exact ⟨_, rfl, List.Forall₂.nil⟩
  | cons e es ih =>
    intro vs h
    unfold ievalArgs at h ⊢
    split at h
    · rename_i v hv
      obtain ⟨v', h1, h2⟩ := ieval_sim hR hb he e v hv
      split at h
      · rename_i ws hws
        obtain ⟨ws', h3, h4⟩ := ih _ hws
        simp only [Option.some.injEq] at h
        subst h
        rw [h1, h3]
        exact ⟨_, rfl, List.Forall₂.cons h2 h4⟩
      · simp at h
    · simp at h

/-- statements have related outcomes -/
theorem iexec_sim (s : IStmt) : ∀ {j : List (Nat × Nat)} {A m : Mem α} {base base' : Nat} {env env' : List (Val α)} {r : Out α},
    R j A m → Locals j A m base base' → ERel j env env' → s.exec base env A = some r →
    ∃ r', s.exec base' env' m = some r' ∧ ORel j A m r r' := by
  induction s with
  | skip =>
    intro j A m base base' env env' r hR hb he h
    simp only [IStmt.exec, Option.some.injEq] at h ⊢
    subst h
    exact ⟨_, rfl, .next he hR (Frame.refl _ _ _) (Same.refl _)⟩
  | retVoid =>
    intro j A m base base' env env' r hR hb he h
    simp only [IStmt.exec, Option.some.injEq] at h ⊢
    subst h
    exact ⟨_, rfl, .ret rfl hR (Frame.refl _ _ _) (Same.refl _)⟩
  | ret e =>
    intro j A m base base' env env' r hR hb he h
    unfold IStmt.exec at h ⊢
    split at h
    · rename_i v hv
      obtain ⟨v', h1, h2⟩ := ieval_sim hR hb he e v hv
      simp only [Option.some.injEq] at h
      subst h
      rw [h1]
      exact ⟨_, rfl, .ret ⟨_, rfl, h2⟩ hR (Frame.refl _ _ _) (Same.refl _)⟩
    · simp at h
  | seq a b iha ihb =>
    intro j A m base base' env env' r hR hb he h
    unfold IStmt.exec at h ⊢
    split at h
    · rename_i e1 A1 ha
      obtain ⟨r1, h1, h2⟩ := iha hR hb he ha
      cases h2 with
      | next g1 g2 g3 g4 =>
        obtain ⟨r', h3, h4⟩ := ihb g2 (hb.same g4 g3.1) g1 h
        rw [h1]
        exact ⟨r', h3, h4.trans g4 g3⟩
    · rename_i v A1 ha
      obtain ⟨r1, h1, h2⟩ := iha hR hb he ha
      simp only [Option.some.injEq] at h
      subst h
      rw [h1]
      cases h2 with
      | ret g1 g2 g3 g4 => exact ⟨_, rfl, .ret g1 g2 g3 g4⟩
    · simp at h
  | set i e =>
    intro j A m base base' env env' r hR hb he h
    unfold IStmt.exec at h ⊢
    split at h
    · rename_i v hv
      obtain ⟨v', h1, h2⟩ := ieval_sim hR hb he e v hv
      simp only [Option.some.injEq] at h
      subst h
      rw [h1]
      exact ⟨_, rfl, .next (Forall₂.set he i h2) hR (Frame.refl _ _ _) (Same.refl _)⟩
    · simp at h
  | store p e =>
    intro j A m base base' env env' r hR hb he h
    unfold IStmt.exec at h ⊢
    split at h
    · rename_i k o hp
      obtain ⟨p', h1, q, hq, rfl⟩ := ieval_sim hR hb he p _ hp
      rw [h1]
      split at h
      · simp at h
      · rename_i v hv' hv
        obtain ⟨v', h2, h3⟩ := ieval_sim hR hb he e _ hv
        split at h
        · rename_i A1 hA1
          simp only [Option.some.injEq] at h
          subst h
          obtain ⟨m', g1, g2, g3, g4⟩ := hR.put1 hq (fun b o e => hv' b o e) hA1
          have : v' = v := by cases v <;> try exact h3
                              exact absurd rfl (hv' _ _)
          subst this
          refine ⟨.next env' m', ?_, .next he g2 g3 g4⟩
          rw [h2]
          cases v' <;> simp only [g1] <;> exact absurd rfl (hv' _ _)
        · simp at h
      · simp at h
    · simp at h
  | ite c a b iha ihb =>
    intro j A m base base' env env' r hR hb he h
    unfold IStmt.exec at h ⊢
    split at h
    · rename_i z hz
      obtain ⟨z', h1, rfl⟩ := ieval_sim hR hb he c _ hz
      rw [h1]
      cases z
      · exact ihb hR hb he h
      · exact iha hR hb he h
    · simp at h
  | call dst L nregs body args ih =>
    intro j A m base base' env env' r hR hb he h
    unfold IStmt.exec at h ⊢
    split at h
    · rename_i vs hvs
      obtain ⟨vs', h1, h2⟩ := ievalArgs_sim hR hb he args vs hvs
      rw [h1]
      split at h
      · rename_i r1 hr1
        have hE : ERel (j ++ locs m.length L) (vs ++ List.replicate nregs .undef) (vs' ++ List.replicate nregs .undef) := by
          refine List.rel_append (h2.imp fun a b h => VRel.mono h) ?_
          exact replicate_rel _ nregs
        have hL : Locals (j ++ locs m.length L) (A ++ fresh L) (m ++ fresh L) A.length m.length := by
          intro i hi
          simp only [List.length_append, fresh, List.length_map] at hi ⊢
          refine ⟨?_, by omega⟩
          rw [← hR.len, List.getElem?_append_right (by omega), Nat.add_sub_cancel_left]
          exact locs_get (by omega)
        obtain ⟨r1', h3, h4⟩ := ih (hR.enter L) hL hE hr1
        simp only [h3]
        cases h4 with
        | next g1 g2 g3 g4 =>
          obtain ⟨k1, k2, k3⟩ := hR.leave L g4 g2 g3
          simp only [Out.leave, resume] at h ⊢
          cases dst with
          | none => simp only [Option.some.injEq] at h ⊢; subst h; exact ⟨_, rfl, .next he k1 k2 k3⟩
          | some d => simp at h
        | @ret v v' A' m' g1 g2 g3 g4 =>
          obtain ⟨k1, k2, k3⟩ := hR.leave L g4 g2 g3
          cases v with
          | none =>
            subst g1
            simp only [Out.leave, resume] at h ⊢
            cases dst with
            | none => simp only [Option.some.injEq] at h ⊢; subst h; exact ⟨_, rfl, .next he k1 k2 k3⟩
            | some d => simp at h
          | some u =>
            obtain ⟨u', rfl, hu⟩ := g1
            cases u with
            | p b o => simp [Out.leave] at h
            | undef | f _ | i _ | b _ =>
              obtain rfl := hu
              simp only [Out.leave, resume] at h ⊢
              cases dst with
              | none => simp only [Option.some.injEq] at h ⊢; subst h; exact ⟨_, rfl, .next he k1 k2 k3⟩
              | some d =>
                simp only [Option.some.injEq] at h ⊢; subst h
                exact ⟨_, rfl, .next (Forall₂.set he d rfl) k1 k2 k3⟩
      · simp at h
    · simp at h

/-- A canonical run determines the run in every memory. -/
theorem itransfer {f : IFn} {j : List Ptr} {A A' m : Mem α} {args args' : List (Val α)} {r : Option (Val α)} (hR : R j A m)
    (ha : ERel j args args') (h : f.run A args = some (r, A')) (hf : full A' = true) :
    f.run m args' = some (r, writes m (outs j A')) := by
  unfold IFn.run at h ⊢
  split at h
  · rename_i o ho
    have hE : ERel (j ++ locs m.length f.locals) (args ++ List.replicate f.nregs .undef) (args' ++ List.replicate f.nregs .undef) :=
      List.rel_append (ha.imp fun a b h => VRel.mono h) (replicate_rel _ _)
    have hL : Locals (j ++ locs m.length f.locals) (A ++ fresh f.locals) (m ++ fresh f.locals) A.length m.length := by
      intro i hi
      simp only [List.length_append, fresh, List.length_map] at hi ⊢
      refine ⟨?_, by omega⟩
      rw [← hR.len, List.getElem?_append_right (by omega), Nat.add_sub_cancel_left]
      exact locs_get (by omega)
    obtain ⟨o', h1, h2⟩ := iexec_sim f.body (hR.enter f.locals) hL hE ho
    rw [h1]
    have fin : ∀ {A1 m1 : Mem α}, R (j ++ locs m.length f.locals) A1 m1 →
        Frame (j ++ locs m.length f.locals) (A ++ fresh f.locals) (m ++ fresh f.locals) m1 → Same (A ++ fresh f.locals) A1 →
        A1.take A.length = A' → m1.take m.length = writes m (outs j A') := by
      intro A1 m1 g1 g2 g3 e
      obtain ⟨k1, k2, k3⟩ := hR.leave f.locals g3 g1 g2
      rw [e] at k1 k3
      exact (frame_writes k1 k2 k3 hf).symm
    cases h2 with
    | next g1 g2 g3 g4 =>
      simp only [Out.leave, Option.some.injEq, Prod.mk.injEq] at h ⊢
      exact ⟨h.1, fin g2 g3 g4 h.2⟩
    | @ret v v' A1 m1 g1 g2 g3 g4 =>
      cases v with
      | none =>
        subst g1
        simp only [Out.leave, Option.some.injEq, Prod.mk.injEq] at h ⊢
        exact ⟨h.1, fin g2 g3 g4 h.2⟩
      | some u =>
        obtain ⟨u', rfl, hu⟩ := g1
        cases u with
        | p b o => simp [Out.leave] at h
        | undef | f _ | i _ | b _ =>
          obtain rfl := hu
          simp only [Out.leave, Option.some.injEq, Prod.mk.injEq] at h ⊢
          exact ⟨h.1, fin g2 g3 g4 h.2⟩
  · simp at h


/-! ## Integer arrays -/

/-- The cells from `p` on hold the integers `vs`. -/
def HoldsI (m : Mem α) (p : Ptr) (vs : List Int32) : Prop :=
  ∀ (k : Nat) (x : Int32), vs[k]? = some x → cell m p.1 (p.2 + k) = some (.i x.toInt)
/-- integers as memory cells -/
def icells (vs : List Int32) : List (Val α) := vs.map fun x => .i x.toInt

omit [Add α] [Sub α] [Mul α] [Div α] [Neg α] [CFloat α] [CIntConv α] in
theorem HoldsI.has {m : Mem α} {p : Ptr} {vs : List Int32} (h : HoldsI m p vs) : Has m p (icells vs) := by
  intro k v hv
  simp only [icells, List.getElem?_map, Option.map_eq_some_iff] at hv
  obtain ⟨x, hx, rfl⟩ := hv
  exact ⟨_, h k x hx, rfl⟩
omit [Add α] [Sub α] [Mul α] [Div α] [Neg α] [CFloat α] [CIntConv α] in
theorem HoldsI.inj {m : Mem α} {p : Ptr} {xs ys : List Int32} (h : HoldsI m p xs) (h' : HoldsI m p ys) (hl : xs.length = ys.length) : xs = ys := by
  apply List.ext_getElem hl
  intro k h1 h2
  have e1 := h k _ (List.getElem?_eq_getElem h1)
  have e2 := h' k _ (List.getElem?_eq_getElem h2)
  rw [e1] at e2
  simp only [Option.some.injEq, Val.i.injEq] at e2
  exact Int32.toInt_inj.1 e2
omit [Add α] [Sub α] [Mul α] [Div α] [Neg α] [CFloat α] [CIntConv α] in
theorem HoldsI.block {m : Mem α} {b : Nat} {vs : List Int32} {w : Bool} (h : m[b]? = some ⟨w, icells vs⟩) : HoldsI m (b, 0) vs := by
  intro k x hx
  simp [cell, h, icells, hx]

end Cglm.CMem
