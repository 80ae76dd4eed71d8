import Verif.CMemSpec

/-!
# Memory safety under arbitrary overlap

A static analysis of the syntax trees of `Verif.CMem`: it tracks which cells of each argument and local array are
known to hold a float, and where pointers point, and accepts a function only if every access is inside an array,
every read cell is initialised and every written array is an output.  It never assumes that two arguments are
different, so its verdict (`safe_run`) holds for every way in which arguments overlap.
-/

namespace Cglm.CMem

/-- What is known of a scalar: nothing, its type, or the cell it points to (array, cell). -/
inductive AV where
  | u | f | i | b
  | p (r o : Nat)
deriving DecidableEq

/-- What is known of an array: may it be written, and which of its cells hold a float. -/
structure AB where
  w : Bool
  init : List Bool
deriving DecidableEq

/-- type of an expression, `none` if its evaluation may be undefined -/
def Expr.ty (base : Nat) (env : List AV) (A : List AB) : Expr → Option AV
  | .reg i =>
    match env[i]? with
    | some .u => none
    | some v => some v
    | none => none
  | .loc i => if base + i < A.length then some (.p (base + i) 0) else none
  | .flit _ => some .f
  | .ilit _ => some .i
  | .blit _ => some .b
  | .off p n =>
    match p.ty base env A with
    | some (.p r o) => some (.p r (o + n))
    | _ => none
  | .load p =>
    match p.ty base env A with
    | some (.p r o) =>
      match A[r]? with
      | some B =>
        match B.init[o]? with
        | some true => some .f
        | _ => none
      | none => none
    | _ => none
  | .f1 _ a =>
    match a.ty base env A with
    | some .f => some .f
    | _ => none
  | .f2 _ a b =>
    match a.ty base env A with
    | some .f =>
      match b.ty base env A with
      | some .f => some .f
      | _ => none
    | _ => none
  | .fc _ a b =>
    match a.ty base env A with
    | some .f =>
      match b.ty base env A with
      | some .f => some .b
      | _ => none
    | _ => none
  | .fp _ a =>
    match a.ty base env A with
    | some .f => some .b
    | _ => none
  | .ic _ a b =>
    match a.ty base env A with
    | some .i =>
      match b.ty base env A with
      | some .i => some .b
      | _ => none
    | _ => none
  | .i2 _ a b =>
    match a.ty base env A with
    | some .i =>
      match b.ty base env A with
      | some .i => some .i
      | _ => none
    | _ => none
  | .not a =>
    match a.ty base env A with
    | some .b => some .b
    | _ => none
  | .and a b =>
    match a.ty base env A with
    | some .b =>
      match b.ty base env A with
      | some .b => some .b
      | _ => none
    | _ => none
  | .or a b =>
    match a.ty base env A with
    | some .b =>
      match b.ty base env A with
      | some .b => some .b
      | _ => none
    | _ => none
  | .b2i a =>
    match a.ty base env A with
    | some .b => some .i
    | _ => none
  | .ofInt a =>
    match a.ty base env A with
    | some .i => some .f
    | _ => none
  | .ite c a b =>
    match c.ty base env A with
    | some .b =>
      match a.ty base env A with
      | some .f =>
        match b.ty base env A with
        | some .f => some .f
        | _ => none
      | some .i =>
        match b.ty base env A with
        | some .i => some .i
        | _ => none
      | some .b =>
        match b.ty base env A with
        | some .b => some .b
        | _ => none
      | _ => none
    | _ => none

/-- types of call arguments -/
def tyArgs (base : Nat) (env : List AV) (A : List AB) : List Expr → Option (List AV)
  | [] => some []
  | e :: es =>
    match e.ty base env A with
    | some v =>
      match tyArgs base env A es with
      | some vs => some (v :: vs)
      | none => none
    | none => none

/-- what two branches agree on -/
def AV.join (v w : AV) : AV := if v = w then v else .u
def joinB (B C : AB) : AB := ⟨B.w && C.w, List.zipWith (· && ·) B.init C.init⟩
def joinE (e e' : List AV) : Option (List AV) := if e.length = e'.length then some (List.zipWith AV.join e e') else none
def joinA (A A' : List AB) : Option (List AB) :=
  if A.map (·.init.length) = A'.map (·.init.length) then some (List.zipWith joinB A A') else none

/-- How a statement may end: by going on, by returning, or either. -/
structure AOut where
  next : Option (List AV × List AB)
  ret : Option (Option AV × List AB)

def joinNext : Option (List AV × List AB) → Option (List AV × List AB) → Option (Option (List AV × List AB))
  | none, x => some x
  | x, none => some x
  | some (e, A), some (e', A') =>
    match joinE e e' with
    | some e'' =>
      match joinA A A' with
      | some A'' => some (some (e'', A''))
      | none => none
    | none => none
def joinRet : Option (Option AV × List AB) → Option (Option AV × List AB) → Option (Option (Option AV × List AB))
  | none, x => some x
  | x, none => some x
  | some (some v, A), some (some w, A') =>
    match joinA A A' with
    | some A'' => some (some (some (v.join w), A''))
    | none => none
  | some (none, A), some (none, A') =>
    match joinA A A' with
    | some A'' => some (some (none, A''))
    | none => none
  | _, _ => none

/-- uninitialised local arrays -/
def freshA (locals : List Nat) : List AB := locals.map fun n => ⟨true, List.replicate n false⟩

/-- what is known when a call whose caller had `n` arrays is over -/
def AOut.leave (n : Nat) (r : AOut) : Option (Option AV × List AB) :=
  match r.next, r.ret with
  | some (_, A), none => if n ≤ A.length then some (none, A.take n) else none
  | none, some (none, A) => if n ≤ A.length then some (none, A.take n) else none
  | some (_, A), some (none, A') =>
    match joinA A A' with
    | some A'' => if n ≤ A''.length then some (none, A''.take n) else none
    | none => none
  | none, some (some v, A) =>
    match v with
    | .f | .i | .b => if n ≤ A.length then some (some v, A.take n) else none
    | _ => none
  | _, _ => none

/-- mark a cell -/
def mark (A : List AB) (r o : Nat) (z : Bool) : List AB := A.modify r fun B => ⟨B.w, B.init.set o z⟩

/-- The analysis of a statement, `none` if it may be unsafe; `n` is the number of argument arrays. -/
def Stmt.safe (n : Nat) : Stmt → Nat → List AV → List AB → Option AOut
  | .skip, _, env, A => some ⟨some (env, A), none⟩
  | .seq a b, base, env, A =>
    match a.safe n base env A with
    | some r =>
      match r.next with
      | some (env', A') =>
        match b.safe n base env' A' with
        | some r' =>
          match joinRet r.ret r'.ret with
          | some t => some ⟨r'.next, t⟩
          | none => none
        | none => none
      | none => some r
    | none => none
  | .set i e, base, env, A =>
    match e.ty base env A with
    | some v => some ⟨some (env.set i v, A), none⟩
    | none => none
  | .store p e, base, env, A =>
    match p.ty base env A with
    | some (.p r o) =>
      match A[r]? with
      | some B =>
        match B.w && Nat.blt o B.init.length with
        | true =>
          match e.ty base env A with
          | some .f => some ⟨some (env, mark A r o true), none⟩
          | _ => none
        | false => none
      | none => none
    | _ => none
  | .havoc p, base, env, A =>
    match p.ty base env A with
    | some (.p r o) =>
      match A[r]? with
      | some B =>
        match Nat.ble n r && B.w && Nat.blt o B.init.length with
        | true => some ⟨some (env, mark A r o false), none⟩
        | false => none
      | none => none
    | _ => none
  | .ite c a b, base, env, A =>
    match c.ty base env A with
    | some .b =>
      match a.safe n base env A with
      | some r =>
        match b.safe n base env A with
        | some r' =>
          match joinNext r.next r'.next with
          | some x =>
            match joinRet r.ret r'.ret with
            | some t => some ⟨x, t⟩
            | none => none
          | none => none
        | none => none
      | none => none
    | _ => none
  | .call dst locals nregs body args, base, env, A =>
    match tyArgs base env A args with
    | some vs =>
      match body.safe n A.length (vs ++ List.replicate nregs .u) (A ++ freshA locals) with
      | some r =>
        match r.leave A.length with
        | some (v, A') =>
          match dst with
          | none => some ⟨some (env, A'), none⟩
          | some d =>
            match v with
            | some v => some ⟨some (env.set d v, A'), none⟩
            | none => none
        | none => none
      | none => none
    | none => none
  | .ret e, base, env, A =>
    match e.ty base env A with
    | some v => some ⟨none, some (some v, A)⟩
    | none => none
  | .retVoid, _, _, A => some ⟨none, some (none, A)⟩

/-- The analysis of a call from outside. -/
def Fn.safe (f : Fn) (A : List AB) (args : List AV) : Option (Option AV × List AB) :=
  match f.body.safe A.length A.length (args ++ List.replicate f.nregs .u) (A ++ freshA f.locals) with
  | some r => r.leave A.length
  | none => none

/-! ## Soundness -/

variable {α : Type}

/-- The setting of a call: addresses of the argument arrays, memory before the call, cells the call may change. -/
structure Ctx (α : Type) where
  /-- what an initialised cell holds -/
  K : Val α → Prop
  P : List Ptr
  M : Mem α
  W : Nat → Nat → Prop

/-- where an array lies -/
def Ctx.addr (c : Ctx α) (r : Nat) : Ptr := (c.P[r]?).getD (c.M.length + (r - c.P.length), 0)

theorem Ctx.addr_local (c : Ctx α) {r : Nat} (h : c.P.length ≤ r) : c.addr r = (c.M.length + (r - c.P.length), 0) := by
  simp [addr, List.getElem?_eq_none h]
theorem Ctx.addr_arg {c : Ctx α} (hP : ∀ q ∈ c.P, q.1 < c.M.length) {r : Nat} (h : r < c.P.length) : (c.addr r).1 < c.M.length := by
  simp only [addr, List.getElem?_eq_getElem h, Option.getD_some]
  exact hP _ (List.getElem_mem h)

/-- a value is as the analysis says -/
def SV (c : Ctx α) : AV → Val α → Prop
  | .u, _ => True
  | .f, v => ∃ x, v = .f x
  | .i, v => ∃ x, v = .i x
  | .b, v => ∃ x, v = .b x
  | .p r o, v => v = .p (c.addr r).1 ((c.addr r).2 + o)

/-- the memory is as the analysis says -/
structure Ok (c : Ctx α) (A : List AB) (m : Mem α) : Prop where
  le : c.P.length ≤ A.length
  len : m.length = c.M.length + (A.length - c.P.length)
  has : ∀ r B k z, A[r]? = some B → B.init[k]? = some z →
    ∃ v, cell m (c.addr r).1 ((c.addr r).2 + k) = some v ∧ (z = true → c.K v)
  w : ∀ r B k, A[r]? = some B → B.w = true → k < B.init.length →
    wr m (c.addr r).1 = true ∧ (r < c.P.length → c.W (c.addr r).1 ((c.addr r).2 + k))
  same : Same c.M (m.take c.M.length)
  frame : ∀ b o, b < c.M.length → ¬ c.W b o → cell m b o = cell c.M b o

theorem joinA_get {A A' A'' : List AB} (h : joinA A A' = some A'') : A.length = A'.length ∧ A''.length = A.length ∧
    ∀ (r : Nat) B'', A''[r]? = some B'' → ∃ B C, A[r]? = some B ∧ A'[r]? = some C ∧ B.init.length = C.init.length ∧ B'' = joinB B C := by
  unfold joinA at h
  split at h
  · rename_i hl
    simp only [Option.some.injEq] at h
    subst h
    have hlen : A.length = A'.length := by simpa using congrArg List.length hl
    refine ⟨hlen, by simp [hlen], ?_⟩
    intro r B'' hr
    rw [List.getElem?_zipWith] at hr
    rcases e1 : A[r]? with _ | B <;> rcases e2 : A'[r]? with _ | C <;> rw [e1, e2] at hr <;> simp at hr
    refine ⟨B, C, rfl, rfl, ?_, hr.symm⟩
    have := congrArg (·[r]?) hl
    simpa [e1, e2] using this
  · simp at h

theorem joinB_init {B C : AB} {k : Nat} {z : Bool} (h : (joinB B C).init[k]? = some z) :
    ∃ z1 z2, B.init[k]? = some z1 ∧ C.init[k]? = some z2 ∧ z = (z1 && z2) := by
  simp only [joinB, List.getElem?_zipWith] at h
  rcases e1 : B.init[k]? with _ | z1 <;> rcases e2 : C.init[k]? with _ | z2 <;> rw [e1, e2] at h <;> simp at h
  exact ⟨z1, z2, rfl, rfl, h.symm⟩

theorem Ok.joinL {c : Ctx α} {A A' A'' : List AB} {m : Mem α} (h : Ok c A m) (hj : joinA A A' = some A'') : Ok c A'' m := by
  obtain ⟨h1, h2, h3⟩ := joinA_get hj
  refine ⟨h2 ▸ h.le, by rw [h2]; exact h.len, ?_, ?_, h.same, h.frame⟩
  · intro r B'' k z hr hk
    obtain ⟨B, C, e1, e2, e3, rfl⟩ := h3 r B'' hr
    obtain ⟨z1, z2, g1, g2, rfl⟩ := joinB_init hk
    obtain ⟨v, hv, hz⟩ := h.has r B k z1 e1 g1
    exact ⟨v, hv, fun hh => hz (by simp at hh; exact hh.1)⟩
  · intro r B'' k hr hw hk
    obtain ⟨B, C, e1, e2, e3, rfl⟩ := h3 r B'' hr
    simp only [joinB, Bool.and_eq_true, List.length_zipWith] at hw hk
    exact h.w r B k e1 hw.1 (by omega)

theorem Ok.joinR {c : Ctx α} {A A' A'' : List AB} {m : Mem α} (h : Ok c A' m) (hj : joinA A A' = some A'') : Ok c A'' m := by
  obtain ⟨h1, h2, h3⟩ := joinA_get hj
  refine ⟨by rw [h2, h1]; exact h.le, by rw [h2, h1]; exact h.len, ?_, ?_, h.same, h.frame⟩
  · intro r B'' k z hr hk
    obtain ⟨B, C, e1, e2, e3, rfl⟩ := h3 r B'' hr
    obtain ⟨z1, z2, g1, g2, rfl⟩ := joinB_init hk
    obtain ⟨v, hv, hz⟩ := h.has r C k z2 e2 g2
    exact ⟨v, hv, fun hh => hz (by simp at hh; exact hh.2)⟩
  · intro r B'' k hr hw hk
    obtain ⟨B, C, e1, e2, e3, rfl⟩ := h3 r B'' hr
    simp only [joinB, Bool.and_eq_true, List.length_zipWith] at hw hk
    exact h.w r C k e2 hw.2 (by omega)

theorem SV.joinL {c : Ctx α} {v w : AV} {x : Val α} (h : SV c v x) : SV c (v.join w) x := by
  unfold AV.join; split
  · exact h
  · trivial
theorem SV.joinR {c : Ctx α} {v w : AV} {x : Val α} (h : SV c w x) : SV c (v.join w) x := by
  unfold AV.join; split
  · rename_i e; exact e ▸ h
  · trivial

/-- the scalars are as the analysis says -/
def SE (c : Ctx α) (e : List AV) (env : List (Val α)) : Prop := List.Forall₂ (SV c) e env

theorem SE.joinL {c : Ctx α} {e e' e'' : List AV} {env : List (Val α)} (h : SE c e env) (hj : joinE e e' = some e'') : SE c e'' env := by
  unfold joinE at hj
  split at hj
  · rename_i hl
    simp only [Option.some.injEq] at hj
    subst hj
    unfold SE at *
    induction h generalizing e' with
    | nil => simp
    | cons h1 h2 ih =>
      cases e' with
      | nil => simp at hl
      | cons a e' => exact .cons h1.joinL (ih (by simpa using hl))
  · simp at hj
theorem SE.joinR {c : Ctx α} {e e' e'' : List AV} {env : List (Val α)} (h : SE c e' env) (hj : joinE e e' = some e'') : SE c e'' env := by
  unfold joinE at hj
  split at hj
  · rename_i hl
    simp only [Option.some.injEq] at hj
    subst hj
    unfold SE at *
    induction h generalizing e with
    | nil => simp
    | cons h1 h2 ih =>
      cases e with
      | nil => simp at hl
      | cons a e => exact .cons h1.joinR (ih (by simpa using hl))
  · simp at hj

section
variable [Add α] [Sub α] [Mul α] [Div α] [Neg α] [CFloat α]

theorem ty_sound {c : Ctx α} (hK : ∀ v, c.K v ↔ ∃ x, v = .f x) {A : List AB} {m : Mem α} (hR : Ok c A m) {base base' : Nat} (hb : c.P.length ≤ base)
    (hb' : base' = c.M.length + (base - c.P.length)) {env : List AV} {env' : List (Val α)} (he : SE c env env') :
    ∀ (e : Expr) (v : AV), e.ty base env A = some v → ∃ v', e.eval base' env' m = some v' ∧ SV c v v' := by
  intro e
  induction e with
  | reg i =>
    intro v hv
    simp only [Expr.ty] at hv
    simp only [Expr.eval]
    rcases Forall₂.get he i with ⟨h1, h2⟩ | ⟨a, b, h1, h2, h3⟩
    · rw [h1] at hv; simp at hv
    · rw [h1] at hv
      rw [h2]
      cases a with
      | u => simp at hv
      | p r o =>
        simp only [Option.some.injEq] at hv; subst hv
        simp only [SV] at h3; subst h3
        exact ⟨_, rfl, rfl⟩
      | _ =>
        simp only [Option.some.injEq] at hv; subst hv
        obtain ⟨x, rfl⟩ := h3
        exact ⟨_, rfl, x, rfl⟩
  | loc i =>
    intro v hv
    simp only [Expr.ty] at hv
    split at hv
    · rename_i hi
      simp only [Option.some.injEq] at hv; subst hv
      refine ⟨.p (base' + i) 0, ?_, ?_⟩
      · have h1 := hR.len
        simp only [Expr.eval]
        rw [if_pos (by omega)]
      · simp only [SV]
        rw [c.addr_local (by omega)]
        simp only [Val.p.injEq, Nat.add_zero, and_true]
        omega
    · simp at hv
  | flit q | ilit n | blit b =>
    intro v hv
    simp only [Expr.ty, Option.some.injEq] at hv; subst hv
    exact ⟨_, rfl, _, rfl⟩
  | off p n ih =>
    intro v hv
    simp only [Expr.ty] at hv
    split at hv
    · rename_i r o hp
      obtain ⟨v1, e1, h1⟩ := ih _ hp
      simp only [SV] at h1; subst h1
      simp only [Option.some.injEq] at hv; subst hv
      exact ⟨_, by simp only [Expr.eval, e1]; rfl, by simp only [SV, Nat.add_assoc]⟩
    · simp at hv
  | load p ih =>
    intro v hv
    simp only [Expr.ty] at hv
    split at hv
    · rename_i r o hp
      obtain ⟨v1, e1, h1⟩ := ih _ hp
      simp only [SV] at h1; subst h1
      split at hv
      · rename_i B hB
        split at hv
        · rename_i hz
          simp only [Option.some.injEq] at hv; subst hv
          obtain ⟨v, hc, hx⟩ := hR.has r B o true hB hz
          obtain ⟨x, rfl⟩ := (hK v).mp (hx rfl)
          refine ⟨.f x, ?_, x, rfl⟩
          simp only [Expr.eval, e1]
          exact load_eq_some.mpr ⟨hc, by simp⟩
        · simp at hv
      · simp at hv
    · simp at hv
  | f1 o a iha | fp o a iha | not a iha | b2i a iha | ofInt a iha =>
    intro v hv
    simp only [Expr.ty] at hv
    split at hv
    · rename_i h1
      obtain ⟨v1, e1, x, rfl⟩ := iha _ h1
      simp only [Option.some.injEq] at hv
      subst hv
      exact ⟨_, by simp only [Expr.eval, e1]; rfl, _, rfl⟩
    · simp at hv
  | f2 o a b iha ihb | fc o a b iha ihb | ic o a b iha ihb | i2 o a b iha ihb | and a b iha ihb | or a b iha ihb =>
    intro v hv
    simp only [Expr.ty] at hv
    split at hv
    · rename_i h1
      split at hv
      · rename_i h2
        obtain ⟨v1, e1, x, rfl⟩ := iha _ h1
        obtain ⟨v2, e2, y, rfl⟩ := ihb _ h2
        simp only [Option.some.injEq] at hv
        subst hv
        exact ⟨_, by simp only [Expr.eval, e1, e2]; rfl, _, rfl⟩
      · simp at hv
    · simp at hv
  | ite k a b ihc iha ihb =>
    intro v hv
    simp only [Expr.ty] at hv
    split at hv
    · rename_i h0
      obtain ⟨v0, e0, z, rfl⟩ := ihc _ h0
      split at hv
      all_goals first
        | (rename_i h1
           split at hv
           · rename_i h2
             obtain ⟨v1, e1, x, rfl⟩ := iha _ h1
             obtain ⟨v2, e2, y, rfl⟩ := ihb _ h2
             simp only [Option.some.injEq] at hv
             subst hv
             exact ⟨_, by simp only [Expr.eval, e0, e1, e2]; rfl, _, rfl⟩
           · simp at hv)
        | simp at hv
    · simp at hv

theorem tyArgs_sound {c : Ctx α} (hK : ∀ v, c.K v ↔ ∃ x, v = .f x) {A : List AB} {m : Mem α} (hR : Ok c A m) {base base' : Nat} (hb : c.P.length ≤ base)
    (hb' : base' = c.M.length + (base - c.P.length)) {env : List AV} {env' : List (Val α)} (he : SE c env env') (es : List Expr) :
    ∀ vs, tyArgs base env A es = some vs → ∃ vs', evalArgs base' env' m es = some vs' ∧ SE c vs vs' := by
  induction es with
  | nil =>
    intro vs h
    simp only [tyArgs, Option.some.injEq] at h
    subst h
    exact ⟨[], rfl, .nil⟩
  | cons e es ih =>
    intro vs h
    simp only [tyArgs] at h
    split at h
    · rename_i v hv
      split at h
      · rename_i vs1 hvs
        simp only [Option.some.injEq] at h
        subst h
        obtain ⟨v', h1, h2⟩ := ty_sound hK hR hb hb' he e v hv
        obtain ⟨vs', h3, h4⟩ := ih vs1 hvs
        exact ⟨v' :: vs', by simp only [evalArgs, h1, h3], .cons h2 h4⟩
      · simp at h
    · simp at h

end

/-- the value of a call is as the analysis says -/
def SR (c : Ctx α) : Option AV → Option (Val α) → Prop
  | none, none => True
  | some a, some v => SV c a v
  | _, _ => False

/-- a statement ends as the analysis says -/
def SO (c : Ctx α) (r : AOut) : Out α → Prop
  | .next env m => ∃ e A, r.next = some (e, A) ∧ SE c e env ∧ Ok c A m
  | .ret v m => ∃ a A, r.ret = some (a, A) ∧ SR c a v ∧ Ok c A m

theorem Ok.mark {c : Ctx α} (hP : ∀ q ∈ c.P, q.1 < c.M.length) {A : List AB} {m : Mem α} (h : Ok c A m) {r o : Nat} {B : AB} (hB : A[r]? = some B)
    (hw : B.w = true) (ho : o < B.init.length) (v : Val α) (z : Bool) (hz : z = true → c.K v)
    (hl : c.K v ∨ c.P.length ≤ r) :
    ∃ m', put1 m (c.addr r).1 ((c.addr r).2 + o) v = some m' ∧ Ok c (CMem.mark A r o z) m' := by
  obtain ⟨v0, hc, -⟩ := h.has r B o _ hB (List.getElem?_eq_getElem ho)
  obtain ⟨hwr, hW⟩ := h.w r B o hB hw ho
  obtain ⟨m', hm'⟩ := put1_isSome v hwr (by rw [hc]; rfl)
  obtain ⟨-, -, hs, hcell⟩ := put1_spec hm'
  have hmark : ∀ r' B', (CMem.mark A r o z)[r']? = some B' → ∃ B0, A[r']? = some B0 ∧ B'.w = B0.w ∧ B'.init.length = B0.init.length ∧
      ∀ k y, B'.init[k]? = some y → (r' = r ∧ k = o ∧ y = z) ∨ (¬ (r' = r ∧ k = o) ∧ B0.init[k]? = some y) := by
    intro r' B' hr'
    simp only [CMem.mark, List.getElem?_modify] at hr'
    rcases e : A[r']? with _ | B0
    · rw [e] at hr'; simp at hr'
    · rw [e] at hr'
      refine ⟨B0, rfl, ?_⟩
      by_cases hrr : r = r'
      · subst hrr
        simp only [if_true, Option.map_eq_map, Option.map_some, Option.some.injEq] at hr'
        subst hr'
        refine ⟨rfl, by simp, ?_⟩
        intro k y hk
        simp only [List.getElem?_set] at hk
        by_cases hko : o = k
        · subst hko
          left
          rw [if_pos rfl] at hk
          split at hk
          · simp at hk; exact ⟨rfl, rfl, hk.symm⟩
          · simp at hk
        · right
          rw [if_neg hko] at hk
          exact ⟨fun hh => hko hh.2.symm, hk⟩
      · simp only [hrr, if_false, Option.map_eq_map, Option.map_some, Option.some.injEq] at hr'
        subst hr'
        exact ⟨rfl, rfl, fun k y hk => Or.inr ⟨fun hh => hrr hh.1.symm, hk⟩⟩
  have hlen : (CMem.mark A r o z).length = A.length := by simp [CMem.mark]
  refine ⟨m', hm', by rw [hlen]; exact h.le, by rw [hlen, ← hs.length]; exact h.len, ?_, ?_, h.same.trans (hs.take _), ?_⟩
  · intro r' B' k y hr' hk
    obtain ⟨B0, e0, -, -, hy⟩ := hmark r' B' hr'
    rw [hcell]
    split
    · rename_i hhit
      refine ⟨v, rfl, ?_⟩
      intro hyt
      rcases hl with hl | hl
      · exact hl
      · rcases hy k y hk with ⟨-, -, rfl⟩ | ⟨hne, -⟩
        · exact hz hyt
        · exfalso
          by_cases hr0 : r' < c.P.length
          · have := c.addr_arg hP hr0
            rw [c.addr_local hl] at hhit
            simp only at hhit
            omega
          · rw [c.addr_local hl, c.addr_local (by omega)] at hhit
            simp only at hhit
            exact hne ⟨by omega, by omega⟩
    · rename_i hmiss
      rcases hy k y hk with ⟨rfl, rfl, -⟩ | ⟨-, hk0⟩
      · exact absurd ⟨rfl, rfl⟩ hmiss
      · exact h.has r' B0 k y e0 hk0
  · intro r' B' k hr' hw' hk
    obtain ⟨B0, e0, e1, e2, -⟩ := hmark r' B' hr'
    obtain ⟨g1, g2⟩ := h.w r' B0 k e0 (e1 ▸ hw') (e2 ▸ hk)
    exact ⟨by rw [← hs.wr]; exact g1, g2⟩
  · intro b o' hb hno
    rw [hcell]
    split
    · rename_i hhit
      exfalso
      by_cases hr0 : r < c.P.length
      · exact hno (hhit.1 ▸ hhit.2 ▸ hW hr0)
      · rw [c.addr_local (by omega)] at hhit
        simp only at hhit
        omega
    · exact h.frame b o' hb hno

theorem Ok.enter {c : Ctx α} {A : List AB} {m : Mem α} (h : Ok c A m) (L : List Nat) : Ok c (A ++ freshA L) (m ++ fresh L) := by
  have hle := h.le
  have hlen := h.len
  have hloc : ∀ t, c.addr (A.length + t) = (m.length + t, 0) := by
    intro t
    rw [c.addr_local (by omega)]
    simp only [Prod.mk.injEq, and_true]
    omega
  have hsplit : ∀ r B, (A ++ freshA L)[r]? = some B → A[r]? = some B ∨ ∃ t n, r = A.length + t ∧ L[t]? = some n ∧ B = ⟨true, List.replicate n false⟩ := by
    intro r B hr
    by_cases hlt : r < A.length
    · rw [List.getElem?_append_left hlt] at hr; exact Or.inl hr
    · rw [List.getElem?_append_right (by omega)] at hr
      simp only [freshA, List.getElem?_map, Option.map_eq_some_iff] at hr
      obtain ⟨n, hn, rfl⟩ := hr
      exact Or.inr ⟨r - A.length, n, by omega, hn, rfl⟩
  have hbl : ∀ {b o : Nat}, (cell m b o).isSome → b < m.length := by
    intro b o hc
    obtain ⟨v, hv⟩ := Option.isSome_iff_exists.mp hc
    exact cell_lt hv
  refine ⟨by simp; omega, by simp [fresh, freshA]; omega, ?_, ?_, ?_, ?_⟩
  · intro r B k z hr hk
    rcases hsplit r B hr with hr | ⟨t, n, rfl, hn, rfl⟩
    · obtain ⟨v, hv, hz⟩ := h.has r B k z hr hk
      exact ⟨v, by rw [cell_append_left (cell_lt hv)]; exact hv, hz⟩
    · rw [hloc, cell_append_right]
      simp only [List.getElem?_replicate] at hk
      split at hk
      · rename_i hkn
        simp only [Option.some.injEq] at hk
        subst hk
        exact ⟨.undef, by simp [cell, fresh, hn, hkn], by simp⟩
      · simp at hk
  · intro r B k hr hw hk
    rcases hsplit r B hr with hr | ⟨t, n, rfl, hn, rfl⟩
    · obtain ⟨v, hv, -⟩ := h.has r B k _ hr (List.getElem?_eq_getElem hk)
      rw [wr_append_left (cell_lt hv)]
      exact h.w r B k hr hw hk
    · rw [hloc]
      simp only [wr_append_right]
      exact ⟨by simp [wr, fresh, hn], fun hh => by omega⟩
  · rw [List.take_append_of_le_length (by omega)]; exact h.same
  · intro b o hb hno
    rw [cell_append_left (by omega)]
    exact h.frame b o hb hno

theorem Ok.leave {c : Ctx α} (hP : ∀ q ∈ c.P, q.1 < c.M.length) {A : List AB} {m : Mem α} (h : Ok c A m) {n k : Nat} (hn : n ≤ A.length)
    (hle : c.P.length ≤ n) (hk : k = c.M.length + (n - c.P.length)) : Ok c (A.take n) (m.take k) := by
  have hlen := h.len
  have haddr : ∀ r, r < n → (c.addr r).1 < k := by
    intro r hr
    by_cases hr0 : r < c.P.length
    · have := c.addr_arg hP hr0
      omega
    · rw [c.addr_local (by omega)]
      simp only
      omega
  have htake : ∀ r B, (A.take n)[r]? = some B → r < n ∧ A[r]? = some B := by
    intro r B hr
    rw [List.getElem?_take] at hr
    split at hr
    · exact ⟨by assumption, hr⟩
    · simp at hr
  refine ⟨by simp; omega, by simp; omega, ?_, ?_, ?_, ?_⟩
  · intro r B i z hr hi
    obtain ⟨h1, h2⟩ := htake r B hr
    rw [cell_take, if_pos (haddr r h1)]
    exact h.has r B i z h2 hi
  · intro r B i hr hw hi
    obtain ⟨h1, h2⟩ := htake r B hr
    rw [wr_take (haddr r h1)]
    exact h.w r B i h2 hw hi
  · rw [List.take_take, Nat.min_eq_left (by omega)]; exact h.same
  · intro b o hb hno
    rw [cell_take, if_pos (by omega)]
    exact h.frame b o hb hno

theorem SO.leave {c : Ctx α} (hP : ∀ q ∈ c.P, q.1 < c.M.length) {r : AOut} {o : Out α} (h : SO c r o) {n k : Nat} {a : Option AV} {A : List AB}
    (hr : r.leave n = some (a, A)) (hle : c.P.length ≤ n) (hk : k = c.M.length + (n - c.P.length)) :
    ∃ v m, o.leave k = some (v, m) ∧ SR c a v ∧ Ok c A m := by
  unfold AOut.leave at hr
  split at hr
  · rename_i e A0 h1 h2
    split at hr
    · rename_i hn
      simp only [Option.some.injEq, Prod.mk.injEq] at hr
      obtain ⟨rfl, rfl⟩ := hr
      cases o with
      | next env m =>
        obtain ⟨e', A', g1, -, g3⟩ := h
        rw [h1] at g1
        simp only [Option.some.injEq, Prod.mk.injEq] at g1
        obtain ⟨rfl, rfl⟩ := g1
        exact ⟨none, _, rfl, trivial, g3.leave hP hn hle hk⟩
      | ret v m =>
        obtain ⟨a', A', g1, -, -⟩ := h
        rw [h2] at g1
        simp at g1
    · simp at hr
  · rename_i A0 h1 h2
    split at hr
    · rename_i hn
      simp only [Option.some.injEq, Prod.mk.injEq] at hr
      obtain ⟨rfl, rfl⟩ := hr
      cases o with
      | next env m =>
        obtain ⟨e', A', g1, -, -⟩ := h
        rw [h1] at g1
        simp at g1
      | ret v m =>
        obtain ⟨a', A', g1, g2, g3⟩ := h
        rw [h2] at g1
        simp only [Option.some.injEq, Prod.mk.injEq] at g1
        obtain ⟨rfl, rfl⟩ := g1
        cases v with
        | none => exact ⟨none, _, rfl, trivial, g3.leave hP hn hle hk⟩
        | some v => exact g2.elim
    · simp at hr
  · rename_i e A0 A1 h1 h2
    split at hr
    · rename_i A2 hj
      split at hr
      · rename_i hn
        simp only [Option.some.injEq, Prod.mk.injEq] at hr
        obtain ⟨rfl, rfl⟩ := hr
        cases o with
        | next env m =>
          obtain ⟨e', A', g1, -, g3⟩ := h
          rw [h1] at g1
          simp only [Option.some.injEq, Prod.mk.injEq] at g1
          obtain ⟨rfl, rfl⟩ := g1
          exact ⟨none, _, rfl, trivial, (g3.joinL hj).leave hP hn hle hk⟩
        | ret v m =>
          obtain ⟨a', A', g1, g2, g3⟩ := h
          rw [h2] at g1
          simp only [Option.some.injEq, Prod.mk.injEq] at g1
          obtain ⟨rfl, rfl⟩ := g1
          cases v with
          | none => exact ⟨none, _, rfl, trivial, (g3.joinR hj).leave hP hn hle hk⟩
          | some v => exact g2.elim
      · simp at hr
    · simp at hr
  · rename_i av A0 h1 h2
    cases o with
    | next env m =>
      obtain ⟨e', A', g1, -, -⟩ := h
      rw [h1] at g1
      simp at g1
    | ret v m =>
      obtain ⟨a', A', g1, g2, g3⟩ := h
      rw [h2] at g1
      simp only [Option.some.injEq, Prod.mk.injEq] at g1
      obtain ⟨rfl, rfl⟩ := g1
      cases v with
      | none => exact g2.elim
      | some v =>
        cases av with
        | u | p r o => simp at hr
        | f | i | b =>
          obtain ⟨x, rfl⟩ := g2
          simp only at hr
          split at hr
          · rename_i hn
            simp only [Option.some.injEq, Prod.mk.injEq] at hr
            obtain ⟨rfl, rfl⟩ := hr
            exact ⟨_, _, rfl, ⟨x, rfl⟩, g3.leave hP hn hle hk⟩
          · simp at hr
  · simp at hr

theorem SR.joinL {c : Ctx α} {a b : AV} {v : Option (Val α)} (h : SR c (some a) v) : SR c (some (a.join b)) v := by
  cases v with
  | none => exact h
  | some v => exact SV.joinL h
theorem SR.joinR {c : Ctx α} {a b : AV} {v : Option (Val α)} (h : SR c (some b) v) : SR c (some (a.join b)) v := by
  cases v with
  | none => exact h
  | some v => exact SV.joinR h

theorem joinRet_left {c : Ctx α} {x y t : Option (Option AV × List AB)} (hj : joinRet x y = some t) {v : Option (Val α)} {m : Mem α}
    (h : ∃ a A, x = some (a, A) ∧ SR c a v ∧ Ok c A m) : ∃ a A, t = some (a, A) ∧ SR c a v ∧ Ok c A m := by
  obtain ⟨a, A, rfl, h1, h2⟩ := h
  unfold joinRet at hj
  split at hj
  · rename_i e; simp at e
  · rename_i e
    simp only [Option.some.injEq] at hj
    exact ⟨a, A, hj.symm, h1, h2⟩
  · rename_i v1 A1 v2 A2 e
    simp only [Option.some.injEq, Prod.mk.injEq] at e
    obtain ⟨rfl, rfl⟩ := e
    split at hj
    · rename_i A3 hA
      simp only [Option.some.injEq] at hj
      exact ⟨_, _, hj.symm, h1.joinL, h2.joinL hA⟩
    · simp at hj
  · rename_i A1 A2 e
    simp only [Option.some.injEq, Prod.mk.injEq] at e
    obtain ⟨rfl, rfl⟩ := e
    split at hj
    · rename_i A3 hA
      simp only [Option.some.injEq] at hj
      exact ⟨_, _, hj.symm, h1, h2.joinL hA⟩
    · simp at hj
  · simp at hj

theorem joinRet_right {c : Ctx α} {x y t : Option (Option AV × List AB)} (hj : joinRet x y = some t) {v : Option (Val α)} {m : Mem α}
    (h : ∃ a A, y = some (a, A) ∧ SR c a v ∧ Ok c A m) : ∃ a A, t = some (a, A) ∧ SR c a v ∧ Ok c A m := by
  obtain ⟨a, A, rfl, h1, h2⟩ := h
  unfold joinRet at hj
  split at hj
  · simp only [Option.some.injEq] at hj
    exact ⟨a, A, hj.symm, h1, h2⟩
  · rename_i e
    simp at e
  · rename_i v1 A1 v2 A2 e
    simp only [Option.some.injEq, Prod.mk.injEq] at e
    obtain ⟨rfl, rfl⟩ := e
    split at hj
    · rename_i A3 hA
      simp only [Option.some.injEq] at hj
      exact ⟨_, _, hj.symm, h1.joinR, h2.joinR hA⟩
    · simp at hj
  · rename_i A1 A2 e
    simp only [Option.some.injEq, Prod.mk.injEq] at e
    obtain ⟨rfl, rfl⟩ := e
    split at hj
    · rename_i A3 hA
      simp only [Option.some.injEq] at hj
      exact ⟨_, _, hj.symm, h1, h2.joinR hA⟩
    · simp at hj
  · simp at hj

theorem joinNext_left {c : Ctx α} {x y t : Option (List AV × List AB)} (hj : joinNext x y = some t) {env : List (Val α)} {m : Mem α}
    (h : ∃ e A, x = some (e, A) ∧ SE c e env ∧ Ok c A m) : ∃ e A, t = some (e, A) ∧ SE c e env ∧ Ok c A m := by
  obtain ⟨a, A, rfl, h1, h2⟩ := h
  unfold joinNext at hj
  split at hj
  · rename_i e; simp at e
  · simp only [Option.some.injEq] at hj
    exact ⟨a, A, hj.symm, h1, h2⟩
  · rename_i e1 A1 e2 A2 e
    simp only [Option.some.injEq, Prod.mk.injEq] at e
    obtain ⟨rfl, rfl⟩ := e
    split at hj
    · rename_i e3 hE
      split at hj
      · rename_i A3 hA
        simp only [Option.some.injEq] at hj
        exact ⟨_, _, hj.symm, h1.joinL hE, h2.joinL hA⟩
      · simp at hj
    · simp at hj

theorem joinNext_right {c : Ctx α} {x y t : Option (List AV × List AB)} (hj : joinNext x y = some t) {env : List (Val α)} {m : Mem α}
    (h : ∃ e A, y = some (e, A) ∧ SE c e env ∧ Ok c A m) : ∃ e A, t = some (e, A) ∧ SE c e env ∧ Ok c A m := by
  obtain ⟨a, A, rfl, h1, h2⟩ := h
  unfold joinNext at hj
  split at hj
  · simp only [Option.some.injEq] at hj
    exact ⟨a, A, hj.symm, h1, h2⟩
  · rename_i e; simp at e
  · rename_i e1 A1 e2 A2 e
    simp only [Option.some.injEq, Prod.mk.injEq] at e
    obtain ⟨rfl, rfl⟩ := e
    split at hj
    · rename_i e3 hE
      split at hj
      · rename_i A3 hA
        simp only [Option.some.injEq] at hj
        exact ⟨_, _, hj.symm, h1.joinR hE, h2.joinR hA⟩
      · simp at hj
    · simp at hj

theorem SE.append {c : Ctx α} {e : List AV} {env : List (Val α)} (h : SE c e env) (n : Nat) :
    SE c (e ++ List.replicate n .u) (env ++ List.replicate n .undef) := by
  apply List.rel_append h
  induction n with
  | zero => exact .nil
  | succ n ih => exact .cons trivial ih

variable [Add α] [Sub α] [Mul α] [Div α] [Neg α] [CFloat α]

/-- An accepted statement runs without undefined behaviour and ends as the analysis says. -/
theorem safe_sound {c : Ctx α} (hK : ∀ v, c.K v ↔ ∃ x, v = .f x) (hP : ∀ q ∈ c.P, q.1 < c.M.length) (s : Stmt) : ∀ {base base' : Nat} {env : List AV} {env' : List (Val α)} {A : List AB}
    {m : Mem α} {r : AOut}, s.safe c.P.length base env A = some r → Ok c A m → SE c env env' → c.P.length ≤ base →
    base' = c.M.length + (base - c.P.length) → ∃ o, s.exec base' env' m = some o ∧ SO c r o := by
  induction s with
  | skip =>
    intro base base' env env' A m r h hR he hb hb'
    simp only [Stmt.safe, Option.some.injEq] at h
    subst h
    exact ⟨_, rfl, _, _, rfl, he, hR⟩
  | retVoid =>
    intro base base' env env' A m r h hR he hb hb'
    simp only [Stmt.safe, Option.some.injEq] at h
    subst h
    exact ⟨_, rfl, _, _, rfl, trivial, hR⟩
  | ret e =>
    intro base base' env env' A m r h hR he hb hb'
    simp only [Stmt.safe] at h
    split at h
    · rename_i v hv
      simp only [Option.some.injEq] at h
      subst h
      obtain ⟨v', h1, h2⟩ := ty_sound hK hR hb hb' he e v hv
      exact ⟨.ret (some v') m, by simp only [Stmt.exec, h1], _, _, rfl, h2, hR⟩
    · simp at h
  | set i e =>
    intro base base' env env' A m r h hR he hb hb'
    simp only [Stmt.safe] at h
    split at h
    · rename_i v hv
      simp only [Option.some.injEq] at h
      subst h
      obtain ⟨v', h1, h2⟩ := ty_sound hK hR hb hb' he e v hv
      exact ⟨.next (env'.set i v') m, by simp only [Stmt.exec, h1], _, _, rfl, Forall₂.set he i h2, hR⟩
    · simp at h
  | store p e =>
    intro base base' env env' A m r h hR he hb hb'
    simp only [Stmt.safe] at h
    split at h
    · rename_i k o hp
      obtain ⟨p', h1, h2⟩ := ty_sound hK hR hb hb' he p _ hp
      simp only [SV] at h2; subst h2
      split at h
      · rename_i B hB
        split at h
        · rename_i hc
          simp only [Bool.and_eq_true, Nat.blt_eq] at hc
          split at h
          · rename_i hv
            simp only [Option.some.injEq] at h
            subst h
            obtain ⟨v', h3, x, rfl⟩ := ty_sound hK hR hb hb' he e _ hv
            obtain ⟨m', h4, h5⟩ := hR.mark hP hB hc.1 hc.2 (.f x) true (fun _ => (hK _).mpr ⟨x, rfl⟩) (Or.inl ((hK _).mpr ⟨x, rfl⟩))
            exact ⟨.next env' m', by simp only [Stmt.exec, h1, h3, h4], _, _, rfl, he, h5⟩
          · simp at h
        · simp at h
      · simp at h
    · simp at h
  | havoc p =>
    intro base base' env env' A m r h hR he hb hb'
    simp only [Stmt.safe] at h
    split at h
    · rename_i k o hp
      obtain ⟨p', h1, h2⟩ := ty_sound hK hR hb hb' he p _ hp
      simp only [SV] at h2; subst h2
      split at h
      · rename_i B hB
        split at h
        · rename_i hc
          simp only [Bool.and_eq_true, Nat.blt_eq, Nat.ble_eq] at hc
          simp only [Option.some.injEq] at h
          subst h
          obtain ⟨m', h4, h5⟩ := hR.mark hP hB hc.1.2 hc.2 .undef false (by simp) (Or.inr hc.1.1)
          exact ⟨.next env' m', by simp only [Stmt.exec, h1, h4], _, _, rfl, he, h5⟩
        · simp at h
      · simp at h
    · simp at h
  | seq a b iha ihb =>
    intro base base' env env' A m r h hR he hb hb'
    simp only [Stmt.safe] at h
    split at h
    · rename_i ra hra
      obtain ⟨o, h1, h2⟩ := iha hra hR he hb hb'
      split at h
      · rename_i e1 A1 hn
        split at h
        · rename_i rb hrb
          split at h
          · rename_i t ht
            simp only [Option.some.injEq] at h
            subst h
            cases o with
            | next env1 m1 =>
              obtain ⟨e2, A2, g1, g2, g3⟩ := h2
              rw [hn] at g1
              simp only [Option.some.injEq, Prod.mk.injEq] at g1
              obtain ⟨rfl, rfl⟩ := g1
              obtain ⟨o', h3, h4⟩ := ihb hrb g3 g2 hb hb'
              refine ⟨o', by simp only [Stmt.exec, h1, h3], ?_⟩
              cases o' with
              | next env2 m2 => exact h4
              | ret v m2 => exact joinRet_right ht h4
            | ret v m1 => exact ⟨.ret v m1, by simp only [Stmt.exec, h1], joinRet_left ht h2⟩
          · simp at h
        · simp at h
      · rename_i hn
        simp only [Option.some.injEq] at h
        subst h
        cases o with
        | next env1 m1 =>
          obtain ⟨e2, A2, g1, -, -⟩ := h2
          rw [hn] at g1
          simp at g1
        | ret v m1 => exact ⟨.ret v m1, by simp only [Stmt.exec, h1], h2⟩
    · simp at h
  | ite k a b iha ihb =>
    intro base base' env env' A m r h hR he hb hb'
    simp only [Stmt.safe] at h
    split at h
    · rename_i hk
      obtain ⟨v, h0, z, rfl⟩ := ty_sound hK hR hb hb' he k _ hk
      split at h
      · rename_i ra hra
        split at h
        · rename_i rb hrb
          split at h
          · rename_i x hx
            split at h
            · rename_i t ht
              simp only [Option.some.injEq] at h
              subst h
              cases z with
              | true =>
                obtain ⟨o, h1, h2⟩ := iha hra hR he hb hb'
                refine ⟨o, by simp only [Stmt.exec, h0, h1, if_true], ?_⟩
                cases o with
                | next env1 m1 => exact joinNext_left hx h2
                | ret v m1 => exact joinRet_left ht h2
              | false =>
                obtain ⟨o, h1, h2⟩ := ihb hrb hR he hb hb'
                refine ⟨o, by simp [Stmt.exec, h0, h1], ?_⟩
                cases o with
                | next env1 m1 => exact joinNext_right hx h2
                | ret v m1 => exact joinRet_right ht h2
            · simp at h
          · simp at h
        · simp at h
      · simp at h
    · simp at h
  | call dst locals nregs body args ih =>
    intro base base' env env' A m r h hR he hb hb'
    simp only [Stmt.safe] at h
    split at h
    · rename_i vs hvs
      obtain ⟨vs', h1, h2⟩ := tyArgs_sound hK hR hb hb' he args vs hvs
      split at h
      · rename_i rb hrb
        obtain ⟨o, h3, h4⟩ := ih hrb (hR.enter locals) (h2.append nregs) hR.le hR.len
        split at h
        · rename_i av A' hl
          obtain ⟨v, m', h5, h6, h7⟩ := h4.leave hP hl hR.le hR.len
          split at h
          · simp only [Option.some.injEq] at h
            subst h
            exact ⟨.next env' m', by simp only [Stmt.exec, h1, h3, h5, resume], _, _, rfl, he, h7⟩
          · rename_i d
            split at h
            · rename_i av
              simp only [Option.some.injEq] at h
              subst h
              cases v with
              | none => exact h6.elim
              | some v =>
                exact ⟨.next (env'.set d v) m', by simp only [Stmt.exec, h1, h3, h5, resume], _, _, rfl, Forall₂.set he d h6, h7⟩
            · simp at h
        · simp at h
      · simp at h
    · simp at h

/-! ## Calls from outside -/

/-- The `n` cells from `p` on hold floats. -/
def Init (m : Mem α) (p : Ptr) (n : Nat) : Prop := ∀ k < n, ∃ x, cell m p.1 (p.2 + k) = some (.f x)

omit [Add α] [Sub α] [Mul α] [Div α] [Neg α] [CFloat α] in
theorem Init.replicate {x : α} {w : Bool} {N o n : Nat} {l : Mem α} (h : o + n ≤ N) : Init (⟨w, List.replicate N (.f x)⟩ :: l) (0, o) n := by
  intro k hk
  exact ⟨x, by simp [cell, show o + k < N by omega]⟩
omit [Add α] [Sub α] [Mul α] [Div α] [Neg α] [CFloat α] in
theorem Room.replicate {v : Val α} {N o n : Nat} {l : Mem α} (h : o + n ≤ N) : Room (⟨true, List.replicate N v⟩ :: l) (0, o) n := by
  intro k hk
  simp [cell, wr, show o + k < N by omega]

/-- the kind of result a function returns -/
inductive Ret where
  | void | float | int | bool

/-- `v` is a result of that kind -/
def Ret.Is : Ret → Option (Val α) → Prop
  | .void, v => v = none
  | .float, v => ∃ x, v = some (.f x)
  | .int, v => ∃ x, v = some (.i x)
  | .bool, v => ∃ x, v = some (.b x)

/-- Outcome of a call in memory `m` that may write `n` cells from `p` on for each `(p, n)` in `outs`: the call is
defined and returns a value of kind `R`, no other cell changes, objects keep their size and permissions, and the
outputs end up initialised. -/
def Safe (m : Mem α) (outs : List (Ptr × Nat)) (R : Ret) (res : Option (Option (Val α) × Mem α)) : Prop :=
  ∃ v m', res = some (v, m') ∧ R.Is v ∧ Same m m' ∧
    (∀ b o, (∀ x ∈ outs, ¬ (b = x.1.1 ∧ x.1.2 ≤ o ∧ o < x.1.2 + x.2)) → cell m' b o = cell m b o) ∧
    ∀ x ∈ outs, Init m' x.1 x.2

def Ret.av : Ret → Option AV
  | .void => none
  | .float => some .f
  | .int => some .i
  | .bool => some .b

/-- The `n` cells from `p` on hold values of kind `K`. -/
def InitK (K : Val α → Prop) (m : Mem α) (p : Ptr) (n : Nat) : Prop := ∀ k < n, ∃ v, cell m p.1 (p.2 + k) = some v ∧ K v
/-- a float -/
def IsF (v : Val α) : Prop := ∃ x, v = .f x
/-- an integer -/
def IsI (v : Val α) : Prop := ∃ x, v = .i x

omit [Add α] [Sub α] [Mul α] [Div α] [Neg α] [CFloat α] in
theorem initK_isF {m : Mem α} {p : Ptr} {n : Nat} : InitK IsF m p n ↔ Init m p n :=
  ⟨fun h k hk => by obtain ⟨_, h1, x, rfl⟩ := h k hk; exact ⟨x, h1⟩, fun h k hk => by obtain ⟨x, hx⟩ := h k hk; exact ⟨_, hx, x, rfl⟩⟩

/-- an argument of a call: an initialised array, an array to be written, both, or a scalar -/
inductive Arg (α : Type) where
  | inp (p : Ptr) (n : Nat)
  | out (p : Ptr) (n : Nat)
  | io (p : Ptr) (n : Nat)
  | f (x : α)
  | i (n : Int)
  | b (b : Bool)

def Arg.val : Arg α → Val α
  | .inp p _ | .out p _ | .io p _ => p.val
  | .f x => .f x
  | .i n => .i n
  | .b z => .b z
/-- the argument is as the function requires -/
def Arg.Ok (K : Val α → Prop) (m : Mem α) : Arg α → Prop
  | .inp p n => InitK K m p n ∧ 0 < n
  | .out p n => Room m p n ∧ 0 < n
  | .io p n => InitK K m p n ∧ Room m p n ∧ 0 < n
  | _ => True

def Arg.ptrs : List (Arg α) → List Ptr
  | [] => []
  | .inp p _ :: l | .out p _ :: l | .io p _ :: l => p :: ptrs l
  | _ :: l => ptrs l
def Arg.arrays : List (Arg α) → List AB
  | [] => []
  | .inp _ n :: l => ⟨false, List.replicate n true⟩ :: arrays l
  | .out _ n :: l => ⟨true, List.replicate n false⟩ :: arrays l
  | .io _ n :: l => ⟨true, List.replicate n true⟩ :: arrays l
  | _ :: l => arrays l
def Arg.outs : List (Arg α) → List (Ptr × Nat)
  | [] => []
  | .out p n :: l | .io p n :: l => (p, n) :: outs l
  | _ :: l => outs l
def Arg.avs (k : Nat) : List (Arg α) → List AV
  | [] => []
  | .inp _ _ :: l | .out _ _ :: l | .io _ _ :: l => .p k 0 :: avs (k + 1) l
  | .f _ :: l => .f :: avs k l
  | .i _ :: l => .i :: avs k l
  | .b _ :: l => .b :: avs k l

/-- the arrays after a call that initialises its outputs -/
def Arg.done : List (Arg α) → List AB
  | [] => []
  | .inp _ n :: l => ⟨false, List.replicate n true⟩ :: done l
  | .out _ n :: l => ⟨true, List.replicate n true⟩ :: done l
  | .io _ n :: l => ⟨true, List.replicate n true⟩ :: done l
  | _ :: l => done l
def Arg.AllOk (K : Val α → Prop) (m : Mem α) : List (Arg α) → Prop
  | [] => True
  | a :: l => a.Ok K m ∧ AllOk K m l

omit [Add α] [Sub α] [Mul α] [Div α] [Neg α] [CFloat α] in
theorem Arg.length (l : List (Arg α)) : (Arg.arrays l).length = (Arg.ptrs l).length := by
  induction l with
  | nil => rfl
  | cons a l ih => cases a <;> simp [Arg.arrays, Arg.ptrs, ih]

omit [Add α] [Sub α] [Mul α] [Div α] [Neg α] [CFloat α] in
theorem Arg.get {K : Val α → Prop} {m : Mem α} {l : List (Arg α)} (h : Arg.AllOk K m l) {r : Nat} {B : AB} (hr : (Arg.arrays l)[r]? = some B) :
    ∃ p n, (Arg.ptrs l)[r]? = some p ∧ ((B = ⟨false, List.replicate n true⟩ ∧ InitK K m p n) ∨
      ((B = ⟨true, List.replicate n false⟩ ∨ (B = ⟨true, List.replicate n true⟩ ∧ InitK K m p n)) ∧ Room m p n ∧ (p, n) ∈ Arg.outs l)) := by
  induction l generalizing r with
  | nil => simp [Arg.arrays] at hr
  | cons a l ih =>
    have hsub : ∀ {x}, x ∈ Arg.outs l → x ∈ Arg.outs (a :: l) := by
      intro x hx
      cases a <;> simp [Arg.outs, hx]
    have lift : ∀ {r' : Nat}, (Arg.arrays l)[r']? = some B → ∃ p n, (Arg.ptrs l)[r']? = some p ∧ ((B = ⟨false, List.replicate n true⟩ ∧ InitK K m p n) ∨
      ((B = ⟨true, List.replicate n false⟩ ∨ (B = ⟨true, List.replicate n true⟩ ∧ InitK K m p n)) ∧ Room m p n ∧ (p, n) ∈ Arg.outs (a :: l))) := by
      intro r' hr'
      obtain ⟨p, n, h1, h2⟩ := ih h.2 hr'
      refine ⟨p, n, h1, ?_⟩
      rcases h2 with h2 | ⟨h2, h3, h4⟩
      · exact Or.inl h2
      · exact Or.inr ⟨h2, h3, hsub h4⟩
    cases a with
    | inp p n =>
      cases r with
      | zero =>
        simp only [Arg.arrays, List.getElem?_cons_zero, Option.some.injEq] at hr
        exact ⟨p, n, rfl, Or.inl ⟨hr.symm, h.1.1⟩⟩
      | succ r => exact lift hr
    | out p n =>
      cases r with
      | zero =>
        simp only [Arg.arrays, List.getElem?_cons_zero, Option.some.injEq] at hr
        exact ⟨p, n, rfl, Or.inr ⟨Or.inl hr.symm, h.1.1, List.mem_cons_self⟩⟩
      | succ r => exact lift hr
    | io p n =>
      cases r with
      | zero =>
        simp only [Arg.arrays, List.getElem?_cons_zero, Option.some.injEq] at hr
        exact ⟨p, n, rfl, Or.inr ⟨Or.inr ⟨hr.symm, h.1.1⟩, h.1.2.1, List.mem_cons_self⟩⟩
      | succ r => exact lift hr
    | f x | i x | b x => exact lift hr

omit [Add α] [Sub α] [Mul α] [Div α] [Neg α] [CFloat α] in
theorem Arg.ptr_lt {K : Val α → Prop} {m : Mem α} {l : List (Arg α)} (h : Arg.AllOk K m l) : ∀ q ∈ Arg.ptrs l, q.1 < m.length := by
  induction l with
  | nil => intro q hq; simp [Arg.ptrs] at hq
  | cons a l ih =>
    intro q hq
    cases a with
    | inp p n =>
      rcases List.mem_cons.mp hq with rfl | hq
      · obtain ⟨x, hx, -⟩ := h.1.1 0 h.1.2
        exact cell_lt hx
      · exact ih h.2 q hq
    | out p n =>
      rcases List.mem_cons.mp hq with rfl | hq
      · obtain ⟨x, hx⟩ := Option.isSome_iff_exists.mp (h.1.1 0 h.1.2).1
        exact cell_lt hx
      · exact ih h.2 q hq
    | io p n =>
      rcases List.mem_cons.mp hq with rfl | hq
      · obtain ⟨x, hx, -⟩ := h.1.1 0 h.1.2.2
        exact cell_lt hx
      · exact ih h.2 q hq
    | f x | i x | b x => exact ih h.2 q hq

omit [Add α] [Sub α] [Mul α] [Div α] [Neg α] [CFloat α] in
theorem Arg.avs_ok {c : Ctx α} (l : List (Arg α)) : ∀ k, (∀ i p, (Arg.ptrs l)[i]? = some p → c.P[k + i]? = some p) →
    SE c (Arg.avs k l) (l.map Arg.val) := by
  induction l with
  | nil => intro k _; exact .nil
  | cons a l ih =>
    intro k hk
    cases a with
    | inp p n | out p n | io p n =>
      refine .cons ?_ (ih (k + 1) fun i q hq => ?_)
      · have := hk 0 p rfl
        simp only [Nat.add_zero] at this
        simp [SV, Ctx.addr, this, Arg.val, Ptr.val]
      · have := hk (i + 1) q hq
        rwa [show k + 1 + i = k + (i + 1) by omega]
    | f x | i x | b x => exact .cons ⟨_, rfl⟩ (ih k hk)

omit [Add α] [Sub α] [Mul α] [Div α] [Neg α] [CFloat α] in
theorem Arg.done_get (l : List (Arg α)) : ∀ x ∈ Arg.outs l, ∃ r : Nat, (Arg.ptrs l)[r]? = some x.1 ∧
    (Arg.done l)[r]? = some ⟨true, List.replicate x.2 true⟩ := by
  induction l with
  | nil => intro x hx; simp [Arg.outs] at hx
  | cons a l ih =>
    intro x hx
    have lift : ∀ {p B}, x ∈ Arg.outs l → ∃ r : Nat, (p :: Arg.ptrs l)[r]? = some x.1 ∧ (B :: Arg.done l)[r]? = some ⟨true, List.replicate x.2 true⟩ := by
      intro p B hx
      obtain ⟨r, h1, h2⟩ := ih x hx
      exact ⟨r + 1, h1, h2⟩
    cases a with
    | inp p n => exact lift hx
    | out p n | io p n =>
      rcases List.mem_cons.mp hx with rfl | hx
      · exact ⟨0, rfl, rfl⟩
      · exact lift hx
    | f y | i y | b y => exact ih x hx

omit [Add α] [Sub α] [Mul α] [Div α] [Neg α] [CFloat α] in
theorem Arg.done_length (l : List (Arg α)) : (Arg.done l).length = (Arg.ptrs l).length := by
  induction l with
  | nil => rfl
  | cons a l ih => cases a <;> simp [Arg.done, Arg.ptrs, ih]

/-- outcome of an accepted call: `Safe` with cells of any kind -/
def SafeK (K : Val α → Prop) (m : Mem α) (outs : List (Ptr × Nat)) (R : Ret) (res : Option (Option (Val α) × Mem α)) : Prop :=
  ∃ v m', res = some (v, m') ∧ R.Is v ∧ Same m m' ∧
    (∀ b o, (∀ x ∈ outs, ¬ (b = x.1.1 ∧ x.1.2 ≤ o ∧ o < x.1.2 + x.2)) → cell m' b o = cell m b o) ∧
    ∀ x ∈ outs, InitK K m' x.1 x.2

/-- the setting of a call with these arguments -/
def Arg.ctx (K : Val α → Prop) (m : Mem α) (l : List (Arg α)) : Ctx α :=
  ⟨K, Arg.ptrs l, m, fun b o => ∃ x ∈ Arg.outs l, b = x.1.1 ∧ x.1.2 ≤ o ∧ o < x.1.2 + x.2⟩

omit [Add α] [Sub α] [Mul α] [Div α] [Neg α] [CFloat α] in
theorem Arg.addr {K : Val α → Prop} {m : Mem α} {l : List (Arg α)} {r : Nat} {p : Ptr} (hp : (Arg.ptrs l)[r]? = some p) :
    (Arg.ctx K m l).addr r = p := by
  show ((Arg.ptrs l)[r]?).getD _ = p
  rw [hp]; rfl

omit [Add α] [Sub α] [Mul α] [Div α] [Neg α] [CFloat α] in
theorem Arg.start {K : Val α → Prop} (l : List (Arg α)) {m : Mem α} (hl : Arg.AllOk K m l) : CMem.Ok (Arg.ctx K m l) (Arg.arrays l) m := by
  have hlen : (Arg.arrays l).length = (Arg.ctx K m l).P.length := Arg.length l
  refine ⟨by omega, by show m.length = m.length + _; omega, ?_, ?_, by show Same m (m.take m.length); rw [List.take_length]; exact Same.refl m, fun _ _ _ _ => rfl⟩
  · intro r B k z hr hk
    obtain ⟨p, n, h1, h2⟩ := Arg.get hl hr
    rw [Arg.addr h1]
    have rep : ∀ {y : Bool}, (List.replicate n y)[k]? = some z → k < n ∧ y = z := by
      intro y hy
      rw [List.getElem?_replicate] at hy
      split at hy
      · simp at hy; exact ⟨by assumption, hy⟩
      · simp at hy
    rcases h2 with ⟨rfl, hi⟩ | ⟨rfl | ⟨rfl, hi⟩, hroom, -⟩
    · obtain ⟨x, hx, h3⟩ := hi k (rep hk).1
      exact ⟨_, hx, fun _ => h3⟩
    · obtain ⟨v, hv⟩ := Option.isSome_iff_exists.mp (hroom k (rep hk).1).1
      exact ⟨v, hv, fun hz => by have := (rep hk).2; simp [hz] at this⟩
    · obtain ⟨x, hx, h3⟩ := hi k (rep hk).1
      exact ⟨_, hx, fun _ => h3⟩
  · intro r B k hr hw hk
    obtain ⟨p, n, h1, h2⟩ := Arg.get hl hr
    rw [Arg.addr h1]
    have fin : k < n → Room m p n → (p, n) ∈ Arg.outs l → wr m p.1 = true ∧ (r < (Arg.ctx K m l).P.length → (Arg.ctx K m l).W p.1 (p.2 + k)) := by
      intro hkn hroom hmem
      exact ⟨(hroom k hkn).2, fun _ => ⟨(p, n), hmem, rfl, by simp, by simp; omega⟩⟩
    rcases h2 with ⟨rfl, hi⟩ | ⟨rfl | ⟨rfl, hi⟩, hroom, hmem⟩
    · simp at hw
    · exact fin (by simpa using hk) hroom hmem
    · exact fin (by simpa using hk) hroom hmem

omit [Add α] [Sub α] [Mul α] [Div α] [Neg α] [CFloat α] in
/-- from the end of the body of an accepted function to the end of the call -/
theorem Arg.finish {K : Val α → Prop} (l : List (Arg α)) {m : Mem α} (hl : Arg.AllOk K m l) (R : Ret) {r : AOut} {o : Out α}
    (h : r.leave (Arg.arrays l).length = some (R.av, Arg.done l)) (h2 : SO (Arg.ctx K m l) r o) : SafeK K m (Arg.outs l) R (o.leave m.length) := by
  have hlen : (Arg.arrays l).length = (Arg.ctx K m l).P.length := Arg.length l
  have hP : ∀ q ∈ (Arg.ctx K m l).P, q.1 < (Arg.ctx K m l).M.length := Arg.ptr_lt hl
  have hk : (Arg.ctx K m l).M.length = (Arg.ctx K m l).M.length + ((Arg.arrays l).length - (Arg.ctx K m l).P.length) := by omega
  obtain ⟨v', m', h3, h4, h5⟩ := h2.leave hP h (by omega) hk
  have hm' : m'.length = m.length := by
    have := h5.len
    rw [Arg.done_length l] at this
    simpa [Arg.ctx] using this
  have hsame : Same m m' := by
    have := h5.same
    rwa [show (Arg.ctx K m l).M.length = m'.length from hm'.symm, List.take_length] at this
  refine ⟨v', m', h3, ?_, hsame, ?_, ?_⟩
  · clear h
    rcases R with _ | _ | _ | _ <;> rcases v' with _ | v'
    · rfl
    · exact h4.elim
    · exact h4.elim
    · obtain ⟨x, rfl⟩ := h4; exact ⟨x, rfl⟩
    · exact h4.elim
    · obtain ⟨x, rfl⟩ := h4; exact ⟨x, rfl⟩
    · exact h4.elim
    · obtain ⟨x, rfl⟩ := h4; exact ⟨x, rfl⟩
  · intro b o' hb
    by_cases hbl : b < m.length
    · exact h5.frame b o' hbl fun ⟨x, hx, hx'⟩ => hb x hx hx'
    · unfold cell
      rw [List.getElem?_eq_none (by omega), List.getElem?_eq_none (by omega)]
  · intro x hx k hk
    obtain ⟨r, g1, g2⟩ := Arg.done_get l x hx
    obtain ⟨v, g3, g4⟩ := h5.has r _ k true g2 (by simp [hk])
    rw [Arg.addr g1] at g3
    exact ⟨v, g3, g4 rfl⟩

/-- A function the analysis accepts is safe however its arguments overlap. -/
theorem safe_run {f : Fn} (l : List (Arg α)) {m : Mem α} (hl : Arg.AllOk IsF m l) (R : Ret)
    (h : f.safe (Arg.arrays l) (Arg.avs 0 l) = some (R.av, Arg.done l)) : Safe m (Arg.outs l) R (f.run m (l.map Arg.val)) := by
  have hlen : (Arg.arrays l).length = (Arg.ctx IsF m l).P.length := Arg.length l
  have he : SE (Arg.ctx IsF m l) (Arg.avs 0 l) (l.map Arg.val) := Arg.avs_ok l 0 fun i p hp => by rw [Nat.zero_add]; exact hp
  unfold Fn.safe at h
  split at h
  · rename_i r hr
    rw [hlen] at hr
    obtain ⟨o, h1, h2⟩ := safe_sound (c := Arg.ctx IsF m l) (fun _ => Iff.rfl) (Arg.ptr_lt hl) f.body hr ((Arg.start l hl).enter f.locals)
      (he.append f.nregs) (Nat.le_refl _) rfl
    rw [Nat.sub_self, Nat.add_zero] at h1
    obtain ⟨v, m', e, h3, h4, h5, h6⟩ := Arg.finish l hl R h h2
    refine ⟨v, m', ?_, h3, h4, h5, fun x hx => initK_isF.mp (h6 x hx)⟩
    unfold Fn.run
    rw [show f.body.exec m.length (l.map Arg.val ++ List.replicate f.nregs .undef) (m ++ fresh f.locals) = some o from h1]
    exact e
  · simp at h

end Cglm.CMem
