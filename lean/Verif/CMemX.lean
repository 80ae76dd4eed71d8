import Verif.CMemSpec

/-!
# Memory-level model: computed indices and loops

The functions of `Verif.Hand` index arrays by run-time integers or loop over caller arrays.  This file extends the
language of `Verif.CMem` by these two constructs.  An index must be within the declared array, if the declaration has
a length: `mat[4]` on a `mat4` is undefined.  A loop runs on a budget of passes; running out of it is
`none`, so a theorem that gives a result for every large enough budget says that the loop terminates.
-/

namespace Cglm.CMem

/-- Expressions with computed indices. -/
inductive XExpr where
  | ex (e : Expr)
  /-- address of element `i` of the array at `p`, whose elements take `n` cells and whose declared length is `len` -/
  | idx (p i : XExpr) (n : Nat) (len : Option Nat)
  /-- pointer `p` moved by `n` cells -/
  | off (p : XExpr) (n : Nat)
  /-- read the cell at `p` -/
  | load (p : XExpr)
  /-- `(a & (3 << 2k)) >> 2k` on `int` -/
  | field (a : XExpr) (k : Nat)
  /-- `a << k` on `int`, on the bit pattern -/
  | shl (a : XExpr) (k : Nat)
  /-- `a | b` on `int`, on the bit pattern -/
  | bor (a b : XExpr)
  /-- `a + 1` on `size_t`, `uint32_t` or `int`; the counters here stay below a bound of the same type -/
  | succ (a : XExpr)
  /-- `a < b` on integers -/
  | lt (a b : XExpr)

/-- Statements with computed indices and loops. -/
inductive XStmt where
  | st (s : Stmt)
  | seq (a b : XStmt)
  | set (i : Nat) (e : XExpr)
  /-- `*p = e` -/
  | store (p e : XExpr)
  /-- call of a function without result -/
  | call (f : Fn) (args : List XExpr)
  | ret (e : XExpr)
  | while_ (c : XExpr) (body : XStmt)

/-- A C function with computed indices or loops. -/
structure XFn where
  /-- sizes of the local arrays -/
  locals : List Nat
  /-- number of scalar locals -/
  nregs : Nat
  body : XStmt

variable {α : Type} [Add α] [Sub α] [Mul α] [Div α] [Neg α] [CFloat α]

/-- `(x & (3 << 2k)) >> 2k` on 32-bit `int` -/
def bits2 (x : Int) (k : Nat) : Int := ((BitVec.ofInt 32 x &&& (3#32 <<< (2 * k))) >>> (2 * k)).toNat

/-- `k` is an index of an array with this declared length (if any) -/
def inLen : Option Nat → Int → Bool
  | none, .ofNat _ => true
  | some l, .ofNat k => Nat.blt k l
  | _, .negSucc _ => false

def XExpr.eval (base : Nat) (env : List (Val α)) (m : Mem α) : XExpr → Option (Val α)
  | .ex e => e.eval base env m
  | .idx p i n len =>
    match p.eval base env m with
    | some (.p b o) =>
      match i.eval base env m with
      | some (.i k) =>
        if inLen len k then some (.p b (o + k.toNat * n)) else none
      | _ => none
    | _ => none
  | .off p n =>
    match p.eval base env m with
    | some (.p b o) => some (.p b (o + n))
    | _ => none
  | .load p =>
    match p.eval base env m with
    | some (.p b o) => CMem.load m b o
    | _ => none
  | .field a k =>
    match a.eval base env m with
    | some (.i x) => some (.i (bits2 x k))
    | _ => none
  | .shl a k =>
    match a.eval base env m with
    | some (.i x) => some (.i (BitVec.ofInt 32 x <<< k).toInt)
    | _ => none
  | .bor a b =>
    match a.eval base env m with
    | some (.i x) =>
      match b.eval base env m with
      | some (.i y) => some (.i (BitVec.ofInt 32 x ||| BitVec.ofInt 32 y).toInt)
      | _ => none
    | _ => none
  | .succ a =>
    match a.eval base env m with
    | some (.i x) => some (.i (x + 1))
    | _ => none
  | .lt a b =>
    match a.eval base env m with
    | some (.i x) =>
      match b.eval base env m with
      | some (.i y) => some (.b (decide (x < y)))
      | _ => none
    | _ => none

/-- Evaluate call arguments from left to right. -/
def xevalArgs (base : Nat) (env : List (Val α)) (m : Mem α) : List XExpr → Option (List (Val α))
  | [] => some []
  | e :: es =>
    match e.eval base env m with
    | some v =>
      match xevalArgs base env m es with
      | some vs => some (v :: vs)
      | none => none
    | none => none

/-- Run `body` while `cond` holds, at most as often as the budget says. -/
def iter (cond : List (Val α) → Mem α → Option (Val α)) (body : List (Val α) → Mem α → Option (Out α)) :
    Nat → List (Val α) → Mem α → Option (Out α)
  | 0, _, _ => none
  | n + 1, env, m =>
    match cond env m with
    | some (.b true) =>
      match body env m with
      | some (.next env' m') => iter cond body n env' m'
      | some (.ret v m') => some (.ret v m')
      | none => none
    | some (.b false) => some (.next env m)
    | _ => none

/-- Statement execution with a budget for each loop. -/
def XStmt.exec (fuel : Nat) : XStmt → Nat → List (Val α) → Mem α → Option (Out α)
  | .st s, base, env, m => s.exec base env m
  | .seq a b, base, env, m =>
    match a.exec fuel base env m with
    | some (.next env' m') => b.exec fuel base env' m'
    | some (.ret v m') => some (.ret v m')
    | none => none
  | .set i e, base, env, m =>
    match e.eval base env m with
    | some v => some (.next (env.set i v) m)
    | none => none
  | .store p e, base, env, m =>
    match p.eval base env m with
    | some (.p k o) =>
      match e.eval base env m with
      | some (.p _ _) => none
      | some v =>
        match put1 m k o v with
        | some m' => some (.next env m')
        | none => none
      | none => none
    | _ => none
  | .call f args, base, env, m =>
    match xevalArgs base env m args with
    | some vs =>
      match f.run m vs with
      | some (_, m') => some (.next env m')
      | none => none
    | none => none
  | .ret e, base, env, m =>
    match e.eval base env m with
    | some v => some (.ret (some v) m)
    | none => none
  | .while_ c body, base, env, m => iter (fun env m => c.eval base env m) (fun env m => body.exec fuel base env m) fuel env m

/-- Call `f` from outside, with a budget for its loops. -/
def XFn.run (f : XFn) (fuel : Nat) (m : Mem α) (args : List (Val α)) : Option (Option (Val α) × Mem α) :=
  match f.body.exec fuel m.length (args ++ List.replicate f.nregs .undef) (m ++ fresh f.locals) with
  | some r => r.leave m.length
  | none => none

/-! ## Transfer -/

theorem run_sim {f : Fn} {j : List Ptr} {A A' m : Mem α} {args args' : List (Val α)} {r : Option (Val α)} (hR : R j A m)
    (ha : ERel j args args') (h : f.run A args = some (r, A')) :
    ∃ m', f.run m args' = some (r, m') ∧ R j A' m' ∧ Frame j A m m' ∧ Same A A' := by
  unfold Fn.run at h ⊢
  split at h
  · rename_i o ho
    have hE : ERel (j ++ locs m.length f.locals) (args ++ List.replicate f.nregs .undef) (args' ++ List.replicate f.nregs .undef) :=
      List.rel_append (ha.imp fun a b h => VRel.mono h) (replicate_rel _ _)
    have hL : Locals (j ++ locs m.length f.locals) (A ++ fresh f.locals) (m ++ fresh f.locals) A.length m.length := by
      intro i hi
      simp only [List.length_append, fresh, List.length_map] at hi ⊢
      refine ⟨?_, by omega⟩
      rw [← hR.len, List.getElem?_append_right (by omega), Nat.add_sub_cancel_left]
      exact locs_get (by omega)
    obtain ⟨o', h1, h2⟩ := exec_sim f.body (hR.enter f.locals) hL hE ho
    rw [h1]
    cases h2 with
    | next g1 g2 g3 g4 =>
      obtain ⟨k1, k2, k3⟩ := hR.leave f.locals g4 g2 g3
      simp only [Out.leave, Option.some.injEq, Prod.mk.injEq] at h ⊢
      obtain ⟨rfl, rfl⟩ := h
      exact ⟨_, ⟨rfl, rfl⟩, k1, k2, k3⟩
    | @ret v v' A1 m1 g1 g2 g3 g4 =>
      obtain ⟨k1, k2, k3⟩ := hR.leave f.locals g4 g2 g3
      cases v with
      | none =>
        subst g1
        simp only [Out.leave, Option.some.injEq, Prod.mk.injEq] at h ⊢
        obtain ⟨rfl, rfl⟩ := h
        exact ⟨_, ⟨rfl, rfl⟩, k1, k2, k3⟩
      | some u =>
        obtain ⟨u', rfl, hu⟩ := g1
        cases u with
        | p b o => simp [Out.leave] at h
        | undef | f _ | i _ | b _ =>
          obtain rfl := hu
          simp only [Out.leave, Option.some.injEq, Prod.mk.injEq] at h ⊢
          obtain ⟨rfl, rfl⟩ := h
          exact ⟨_, ⟨rfl, rfl⟩, k1, k2, k3⟩
  · simp at h

theorem xeval_sim {j : List (Nat × Nat)} {A m : Mem α} (hR : R j A m) {base base' : Nat} (hb : Locals j A m base base')
    {env env' : List (Val α)} (he : ERel j env env') :
    ∀ (e : XExpr) (v : Val α), e.eval base env A = some v → ∃ v', e.eval base' env' m = some v' ∧ VRel j v v' := by
  intro e
  induction e with
  | ex e => exact eval_sim hR hb he e
  | idx p i n len ihp ihi =>
    intro v hv
    unfold XExpr.eval at hv ⊢
    split at hv
    · rename_i b o hp
      obtain ⟨p', h1, q, hq, rfl⟩ := ihp _ hp
      rw [h1]
      split at hv
      · rename_i k hk
        obtain ⟨k', h2, rfl⟩ := ihi _ hk
        rw [h2]
        dsimp only
        split at hv
        · rename_i hc
          simp only [Option.some.injEq] at hv
          subst hv
          rw [if_pos hc]
          exact ⟨_, rfl, q, hq, by rw [Nat.add_assoc]⟩
        · simp at hv
      · simp at hv
    · simp at hv
  | off p n ih =>
    intro v hv
    unfold XExpr.eval at hv ⊢
    split at hv
    · rename_i b o hp
      obtain ⟨p', h1, q, hq, rfl⟩ := ih _ hp
      rw [h1]
      simp only [Option.some.injEq] at hv
      subst hv
      exact ⟨_, rfl, q, hq, by rw [Nat.add_assoc]⟩
    · simp at hv
  | load p ih =>
    intro v hv
    unfold XExpr.eval at hv ⊢
    split at hv
    · rename_i b o hp
      obtain ⟨p', h1, q, hq, rfl⟩ := ih _ hp
      rw [h1]
      exact ⟨v, hR.load hq hv⟩
    · simp at hv
  | field a k ih | shl a k ih | succ a ih =>
    intro v hv
    unfold XExpr.eval at hv ⊢
    split at hv
    · rename_i x hx
      obtain ⟨x', h1, rfl⟩ := ih _ hx
      rw [h1]
      simp only [Option.some.injEq] at hv
      subst hv
      exact ⟨_, rfl, rfl⟩
    · simp at hv
  | bor a b iha ihb | lt a b iha ihb =>
    intro v hv
    unfold XExpr.eval at hv ⊢
    split at hv
    · rename_i x hx
      obtain ⟨x', h1, rfl⟩ := iha _ hx
      rw [h1]
      split at hv
      · rename_i y hy
        obtain ⟨y', h2, rfl⟩ := ihb _ hy
        rw [h2]
        simp only [Option.some.injEq] at hv
        subst hv
        exact ⟨_, rfl, rfl⟩
      · simp at hv
    · simp at hv

theorem xevalArgs_sim {j : List (Nat × Nat)} {A m : Mem α} (hR : R j A m) {base base' : Nat} (hb : Locals j A m base base')
    {env env' : List (Val α)} (he : ERel j env env') :
    ∀ (es : List XExpr) (vs : List (Val α)), xevalArgs base env A es = some vs → ∃ vs', xevalArgs base' env' m es = some vs' ∧ ERel j vs vs' := by
  intro es
  induction es with
  | nil => intro vs h; simp only [xevalArgs, Option.some.injEq] at h ⊢; subst h; exact ⟨_, rfl, List.Forall₂.nil⟩
  | cons e es ih =>
    intro vs h
    unfold xevalArgs at h ⊢
    split at h
    · rename_i v hv
      obtain ⟨v', h1, h2⟩ := xeval_sim hR hb he e v hv
      split at h
      · rename_i ws hws
        obtain ⟨ws', h3, h4⟩ := ih _ hws
        simp only [Option.some.injEq] at h
        subst h
        rw [h1, h3]
        exact ⟨_, rfl, List.Forall₂.cons h2 h4⟩
      · simp at h
    · simp at h

/-- statements have related outcomes -/
theorem xexec_sim (fuel : Nat) (s : XStmt) : ∀ {j : List (Nat × Nat)} {A m : Mem α} {base base' : Nat} {env env' : List (Val α)} {r : Out α},
    R j A m → Locals j A m base base' → ERel j env env' → s.exec fuel base env A = some r →
    ∃ r', s.exec fuel base' env' m = some r' ∧ ORel j A m r r' := by
  induction s with
  | st s => intro j A m base base' env env' r hR hb he h; exact exec_sim s hR hb he h
  | ret e =>
    intro j A m base base' env env' r hR hb he h
    unfold XStmt.exec at h ⊢
    split at h
    · rename_i v hv
      obtain ⟨v', h1, h2⟩ := xeval_sim hR hb he e v hv
      simp only [Option.some.injEq] at h
      subst h
      rw [h1]
      exact ⟨_, rfl, .ret ⟨_, rfl, h2⟩ hR (Frame.refl _ _ _) (Same.refl _)⟩
    · simp at h
  | seq a b iha ihb =>
    intro j A m base base' env env' r hR hb he h
    unfold XStmt.exec at h ⊢
    split at h
    · rename_i e1 A1 ha
      obtain ⟨r1, h1, h2⟩ := iha hR hb he ha
      cases h2 with
      | next g1 g2 g3 g4 =>
        obtain ⟨r', h3, h4⟩ := ihb g2 (hb.same g4 g3.1) g1 h
        rw [h1]
        exact ⟨r', h3, h4.trans g4 g3⟩
    · rename_i v A1 ha
      obtain ⟨r1, h1, h2⟩ := iha hR hb he ha
      simp only [Option.some.injEq] at h
      subst h
      rw [h1]
      cases h2 with
      | ret g1 g2 g3 g4 => exact ⟨_, rfl, .ret g1 g2 g3 g4⟩
    · simp at h
  | set i e =>
    intro j A m base base' env env' r hR hb he h
    unfold XStmt.exec at h ⊢
    split at h
    · rename_i v hv
      obtain ⟨v', h1, h2⟩ := xeval_sim hR hb he e v hv
      simp only [Option.some.injEq] at h
      subst h
      rw [h1]
      exact ⟨_, rfl, .next (Forall₂.set he i h2) hR (Frame.refl _ _ _) (Same.refl _)⟩
    · simp at h
  | store p e =>
    intro j A m base base' env env' r hR hb he h
    unfold XStmt.exec at h ⊢
    split at h
    · rename_i k o hp
      obtain ⟨p', h1, q, hq, rfl⟩ := xeval_sim hR hb he p _ hp
      rw [h1]
      split at h
      · simp at h
      · rename_i v hv' hv
        obtain ⟨v', h2, h3⟩ := xeval_sim hR hb he e _ hv
        split at h
        · rename_i A1 hA1
          simp only [Option.some.injEq] at h
          subst h
          obtain ⟨m', g1, g2, g3, g4⟩ := hR.put1 hq (fun b o e => hv' b o e) hA1
          have : v' = v := by cases v <;> try exact h3
                              exact absurd rfl (hv' _ _)
          subst this
          refine ⟨.next env' m', ?_, .next he g2 g3 g4⟩
          rw [h2]
          cases v' <;> simp only [g1] <;> exact absurd rfl (hv' _ _)
        · simp at h
      · simp at h
    · simp at h
  | call f args =>
    intro j A m base base' env env' r hR hb he h
    unfold XStmt.exec at h ⊢
    split at h
    · rename_i vs hvs
      obtain ⟨vs', h1, h2⟩ := xevalArgs_sim hR hb he args vs hvs
      rw [h1]
      split at h
      · rename_i u A' hr
        obtain ⟨m', g1, g2, g3, g4⟩ := run_sim hR h2 hr
        simp only [g1]
        simp only [Option.some.injEq] at h
        subst h
        exact ⟨_, rfl, .next he g2 g3 g4⟩
      · simp at h
    · simp at h
  | while_ c body ih =>
    intro j A m base base' env env' r hR hb he h
    unfold XStmt.exec at h ⊢
    suffices H : ∀ n {A m : Mem α} {env env' : List (Val α)}, R j A m → Locals j A m base base' → ERel j env env' →
        iter (fun env m => c.eval base env m) (fun env m => body.exec fuel base env m) n env A = some r →
        ∃ r', iter (fun env m => c.eval base' env m) (fun env m => body.exec fuel base' env m) n env' m = some r' ∧ ORel j A m r r' from
      H fuel hR hb he h
    intro n
    induction n with
    | zero => intro A m env env' _ _ _ h; simp [iter] at h
    | succ n ihn =>
      intro A m env env' hR hb he h
      unfold iter at h ⊢
      split at h
      · rename_i hc
        obtain ⟨z, h1, rfl⟩ := xeval_sim hR hb he c _ hc
        simp only [h1]
        split at h
        · rename_i e1 A1 ha
          obtain ⟨r1, h1, h2⟩ := ih hR hb he ha
          cases h2 with
          | next g1 g2 g3 g4 =>
            obtain ⟨r', h3, h4⟩ := ihn g2 (hb.same g4 g3.1) g1 h
            simp only [h1]
            exact ⟨r', h3, h4.trans g4 g3⟩
        · rename_i v A1 ha
          obtain ⟨r1, h1, h2⟩ := ih hR hb he ha
          simp only [Option.some.injEq] at h
          subst h
          simp only [h1]
          cases h2 with
          | ret g1 g2 g3 g4 => exact ⟨_, rfl, .ret g1 g2 g3 g4⟩
        · simp at h
      · rename_i hc
        obtain ⟨z, h1, rfl⟩ := xeval_sim hR hb he c _ hc
        simp only [h1]
        simp only [Option.some.injEq] at h
        subst h
        exact ⟨_, rfl, .next he hR (Frame.refl _ _ _) (Same.refl _)⟩
      · simp at h

omit [Add α] [Sub α] [Mul α] [Div α] [Neg α] [CFloat α] in
/-- memory after a framed run whose written regions are all initialised -/
theorem frame_writes {j : List Ptr} {A A' m m' : Mem α} (k1 : R j A' m') (k2 : Frame j A m m') (k3 : Same A A') (hf : full A' = true) :
    writes m (outs j A') = m' := by
  apply writes_unique _ k2.1
  · intro x hx k v hv
    obtain ⟨i, B, hi, hB, hw, hx2⟩ := mem_outs.mp hx
    have hc : cell A' i k = some v := by simp [cell, hB, ← hx2, hv]
    have hwr : wr A' i = true := by simp [wr, hB, hw]
    obtain ⟨v', hv', hr⟩ := k1.cells i x.1 k v hi hc
    have := full_cell hf hc hwr
    rw [hv']
    cases v <;> simp_all [CRel]
  · intro b o hno
    rw [k2.2 b o]
    rintro ⟨i, q, k, v, c1, c2, c3, c4, c5⟩
    have hs : (cell A' i k).isSome := by rw [← k3.cell, c2]; rfl
    obtain ⟨v', hv'⟩ := Option.isSome_iff_exists.mp hs
    have hw' : wr A' i = true := by rw [← k3.wr]; exact c3
    unfold cell at hv'
    obtain ⟨B, hB, hB2⟩ := Option.bind_eq_some_iff.mp hv'
    refine hno (q, B.cells) (mem_outs.mpr ⟨i, B, c1, hB, ?_, rfl⟩) k ?_ ⟨c4, c5⟩
    · simpa [wr, hB] using hw'
    · exact (List.getElem?_eq_some_iff.mp hB2).1

/-- A canonical run determines the run in every memory. -/
theorem xtransfer {f : XFn} {fuel : Nat} {j : List Ptr} {A A' m : Mem α} {args args' : List (Val α)} {r : Option (Val α)} (hR : R j A m)
    (ha : ERel j args args') (h : f.run fuel A args = some (r, A')) (hf : full A' = true) :
    f.run fuel m args' = some (r, writes m (outs j A')) := by
  unfold XFn.run at h ⊢
  split at h
  · rename_i o ho
    have hE : ERel (j ++ locs m.length f.locals) (args ++ List.replicate f.nregs .undef) (args' ++ List.replicate f.nregs .undef) :=
      List.rel_append (ha.imp fun a b h => VRel.mono h) (replicate_rel _ _)
    have hL : Locals (j ++ locs m.length f.locals) (A ++ fresh f.locals) (m ++ fresh f.locals) A.length m.length := by
      intro i hi
      simp only [List.length_append, fresh, List.length_map] at hi ⊢
      refine ⟨?_, by omega⟩
      rw [← hR.len, List.getElem?_append_right (by omega), Nat.add_sub_cancel_left]
      exact locs_get (by omega)
    obtain ⟨o', h1, h2⟩ := xexec_sim fuel f.body (hR.enter f.locals) hL hE ho
    rw [h1]
    have fin : ∀ {A1 m1 : Mem α}, R (j ++ locs m.length f.locals) A1 m1 →
        Frame (j ++ locs m.length f.locals) (A ++ fresh f.locals) (m ++ fresh f.locals) m1 → Same (A ++ fresh f.locals) A1 →
        A1.take A.length = A' → m1.take m.length = writes m (outs j A') := by
      intro A1 m1 g1 g2 g3 e
      obtain ⟨k1, k2, k3⟩ := hR.leave f.locals g3 g1 g2
      rw [e] at k1 k3
      exact (frame_writes k1 k2 k3 hf).symm
    cases h2 with
    | next g1 g2 g3 g4 =>
      simp only [Out.leave, Option.some.injEq, Prod.mk.injEq] at h ⊢
      exact ⟨h.1, fin g2 g3 g4 h.2⟩
    | @ret v v' A1 m1 g1 g2 g3 g4 =>
      cases v with
      | none =>
        subst g1
        simp only [Out.leave, Option.some.injEq, Prod.mk.injEq] at h ⊢
        exact ⟨h.1, fin g2 g3 g4 h.2⟩
      | some u =>
        obtain ⟨u', rfl, hu⟩ := g1
        cases u with
        | p b o => simp [Out.leave] at h
        | undef | f _ | i _ | b _ =>
          obtain rfl := hu
          simp only [Out.leave, Option.some.injEq, Prod.mk.injEq] at h ⊢
          exact ⟨h.1, fin g2 g3 g4 h.2⟩
  · simp at h

/-! ## Undefined runs -/

/-- register `k` holds the integer `c` -/
def RegI (k : Nat) (c : Int) (env : List (Val α)) : Prop := env[k]? = some (.i c)
/-- the expression is undefined whenever register `k` holds `c` -/
def XExpr.Dies (α : Type) [Add α] [Sub α] [Mul α] [Div α] [Neg α] [CFloat α] (k : Nat) (c : Int) (e : XExpr) : Prop :=
  ∀ base (env : List (Val α)) m, RegI k c env → e.eval base env m = none
/-- the statement is undefined whenever register `k` holds `c` -/
def XStmt.Dies (α : Type) [Add α] [Sub α] [Mul α] [Div α] [Neg α] [CFloat α] (k : Nat) (c : Int) (s : XStmt) : Prop :=
  ∀ fuel base (env : List (Val α)) m, RegI k c env → s.exec fuel base env m = none
/-- the statement goes on with the next one and keeps register `k` -/
def XStmt.Keeps (α : Type) [Add α] [Sub α] [Mul α] [Div α] [Neg α] [CFloat α] (k : Nat) (s : XStmt) : Prop :=
  ∀ fuel base (env : List (Val α)) m o, s.exec fuel base env m = some o → ∃ env' m', o = .next env' m' ∧ env'[k]? = env[k]?

theorem inLen_some {l : Nat} {k : Int} (h : ¬ (0 ≤ k ∧ k < l)) : inLen (some l) k = false := by
  cases k with
  | ofNat k =>
    rw [inLen, Bool.eq_false_iff]
    intro hb
    exact h ⟨Int.natCast_nonneg k, Int.ofNat_lt.2 (by rwa [Nat.blt_eq] at hb)⟩
  | negSucc k => rfl

theorem dies_idx {k : Nat} {c : Int} {l : Nat} (h : ¬ (0 ≤ c ∧ c < l)) (p : XExpr) (n : Nat) :
    (XExpr.idx p (.ex (.reg k)) n (some l)).Dies α k c := by
  intro base env m hr
  unfold XExpr.eval
  split
  · simp only [XExpr.eval, Expr.eval, RegI] at hr ⊢
    simp [hr, inLen_some h]
  · rfl
theorem dies_idx' {k : Nat} {c c' : Int} {l : Nat} (h : ¬ (0 ≤ c' ∧ c' < l)) (p i : XExpr) (n : Nat)
    (hi : ∀ base (env : List (Val α)) m, RegI k c env → i.eval base env m = some (.i c')) :
    (XExpr.idx p i n (some l)).Dies α k c := by
  intro base env m hr
  unfold XExpr.eval
  rw [hi base env m hr]
  split
  · simp [inLen_some h]
  · rfl
theorem dies_off {k : Nat} {c : Int} {p : XExpr} (h : p.Dies α k c) (n : Nat) : (XExpr.off p n).Dies α k c := by
  intro base env m hr
  rw [XExpr.eval, h base env m hr]
theorem dies_load {k : Nat} {c : Int} {p : XExpr} (h : p.Dies α k c) : (XExpr.load p).Dies α k c := by
  intro base env m hr
  rw [XExpr.eval, h base env m hr]
theorem dies_set {k : Nat} {c : Int} {e : XExpr} (h : e.Dies α k c) (i : Nat) : (XStmt.set i e).Dies α k c := by
  intro fuel base env m hr
  rw [XStmt.exec, h base env m hr]
theorem dies_store_left {k : Nat} {c : Int} {p : XExpr} (h : p.Dies α k c) (e : XExpr) : (XStmt.store p e).Dies α k c := by
  intro fuel base env m hr
  rw [XStmt.exec, h base env m hr]
theorem dies_store_right {k : Nat} {c : Int} {e : XExpr} (p : XExpr) (h : e.Dies α k c) : (XStmt.store p e).Dies α k c := by
  intro fuel base env m hr
  rw [XStmt.exec, h base env m hr]
  split <;> rfl
theorem dies_call {k : Nat} {c : Int} {e : XExpr} (h : e.Dies α k c) (f : Fn) (es : List XExpr) :
    (XStmt.call f (e :: es)).Dies α k c := by
  intro fuel base env m hr
  rw [XStmt.exec, xevalArgs, h base env m hr]
theorem dies_seq {k : Nat} {c : Int} {a : XStmt} (h : a.Dies α k c) (b : XStmt) : (XStmt.seq a b).Dies α k c := by
  intro fuel base env m hr
  rw [XStmt.exec, h fuel base env m hr]
theorem dies_next {k : Nat} {c : Int} {a b : XStmt} (ha : a.Keeps α k) (hb : b.Dies α k c) : (XStmt.seq a b).Dies α k c := by
  intro fuel base env m hr
  rw [XStmt.exec]
  rcases e : a.exec fuel base env m with _ | o
  · rfl
  · obtain ⟨env', m', rfl, he⟩ := ha fuel base env m o e
    exact hb fuel base env' m' (by rw [RegI, he]; exact hr)
theorem keeps_set {k i : Nat} (h : i ≠ k) (e : XExpr) : (XStmt.set i e).Keeps α k := by
  intro fuel base env m o ho
  rw [XStmt.exec] at ho
  split at ho
  · cases ho
    exact ⟨_, _, rfl, List.getElem?_set_ne h⟩
  · cases ho
theorem keeps_store {k : Nat} (p e : XExpr) : (XStmt.store p e).Keeps α k := by
  intro fuel base env m o ho
  rw [XStmt.exec] at ho
  split at ho
  · split at ho
    · cases ho
    · split at ho
      · cases ho
        exact ⟨_, _, rfl, rfl⟩
      · cases ho
    · cases ho
  · cases ho
theorem keeps_call {k : Nat} (f : Fn) (es : List XExpr) : (XStmt.call f es).Keeps α k := by
  intro fuel base env m o ho
  rw [XStmt.exec] at ho
  split at ho
  · split at ho
    · cases ho
      exact ⟨_, _, rfl, rfl⟩
    · cases ho
  · cases ho

theorem run_dies {f : XFn} {k : Nat} {c : Int} (h : f.body.Dies α k c) (fuel : Nat) {m : Mem α} {args : List (Val α)}
    (hr : args[k]? = some (.i c)) : f.run fuel m args = none := by
  unfold XFn.run
  rw [h]
  rw [RegI, List.getElem?_append_left (List.getElem?_eq_some_iff.1 hr).1, hr]

end Cglm.CMem
