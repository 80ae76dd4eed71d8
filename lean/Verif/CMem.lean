import Verif.Base

/-!
# Memory-level model of the C functions

`Verif.Gen` models each function by its value-level input/output relation, which hides memory.  This file gives the
C functions a second, lower-level model: an abstract syntax with pointers, loads, stores, local arrays and calls,
and an interpreter over a memory of objects.  The interpreter fails (`none`) on everything the C standard leaves
undefined among what these functions can do: access outside an object, reading an uninitialised cell, writing to a
read-only object, ill-typed operations.  `tools/memgen.py` prints the syntax trees from the same parse of the headers.

Simplifications, all recorded here:
* a memory cell holds a whole `float`/`int`/`bool`; there is no byte representation and no type punning;
* evaluation order inside an expression is left to right; calls nested in expressions are hoisted in that order;
* `&&`, `||` and `?:` evaluate all operands (they contain no stores, so a run defined here is defined in C with the
  same value, but not conversely);
* loops with literal bounds are unrolled by the translator.
-/

namespace Cglm.CMem

/-- Unary `float` operations. -/
inductive F1 where
  | neg | sqrtf | sinf | cosf | tanf | asinf | acosf | atanf | floorf | fabsf | modfFrac
deriving DecidableEq, Repr
/-- Binary `float` operations. -/
inductive F2 where
  | add | sub | mul | div | atan2f | fmodf | powf | fminf
deriving DecidableEq, Repr
/-- `float` comparisons. -/
inductive FC where
  | lt | le | eq
deriving DecidableEq, Repr
/-- `float` classification. -/
inductive FP where
  | isnan | isinf
deriving DecidableEq, Repr
/-- `int` comparisons. -/
inductive IC where
  | lt | le | gt | ge | eq | ne
deriving DecidableEq, Repr

/-- `int` arithmetic.  Unbounded: the functions here only add, subtract and multiply truth values. -/
inductive I2 where
  | add | sub | mul
deriving DecidableEq, Repr

/-- Call-free C expressions.  Pointers are counted in `float` cells. -/
inductive Expr where
  /-- parameter or scalar local -/
  | reg (i : Nat)
  /-- address of the `i`-th local array of the current call -/
  | loc (i : Nat)
  | flit (q : Rat)
  | ilit (n : Int)
  | blit (b : Bool)
  /-- pointer `p` moved by `n` cells -/
  | off (p : Expr) (n : Nat)
  /-- read the cell at `p` -/
  | load (p : Expr)
  | f1 (o : F1) (a : Expr)
  | f2 (o : F2) (a b : Expr)
  | fc (o : FC) (a b : Expr)
  | fp (o : FP) (a : Expr)
  | ic (o : IC) (a b : Expr)
  | i2 (o : I2) (a b : Expr)
  | not (a : Expr)
  | and (a b : Expr)
  | or (a b : Expr)
  | b2i (a : Expr)
  | ofInt (a : Expr)
  | ite (c a b : Expr)
deriving Repr

/-- C statements.  A call carries the callee itself: sizes of its local arrays, number of scalar locals, body. -/
inductive Stmt where
  | skip
  | seq (a b : Stmt)
  /-- assign a scalar local -/
  | set (i : Nat) (e : Expr)
  /-- `*p = e` -/
  | store (p e : Expr)
  /-- `*p` becomes indeterminate -/
  | havoc (p : Expr)
  | ite (c : Expr) (a b : Stmt)
  | call (dst : Option Nat) (locals : List Nat) (nregs : Nat) (body : Stmt) (args : List Expr)
  | ret (e : Expr)
  | retVoid

/-- A C function. -/
structure Fn where
  /-- sizes of the local arrays -/
  locals : List Nat
  /-- number of scalar locals -/
  nregs : Nat
  body : Stmt

/-- Contents of a variable or memory cell. -/
inductive Val (α : Type) where
  | undef
  | f (a : α)
  | i (n : Int)
  | b (b : Bool)
  /-- pointer: object, cell -/
  | p (blk off : Nat)

/-- An object: may it be written, and its cells. -/
structure Block (α : Type) where
  w : Bool
  cells : List (Val α)

/-- Memory: the live objects. -/
abbrev Mem (α : Type) := List (Block α)

variable {α : Type} [Add α] [Sub α] [Mul α] [Div α] [Neg α] [CFloat α]

def F1.app : F1 → α → α
  | .neg, x => -x
  | .sqrtf, x => Cglm.sqrtf x
  | .sinf, x => Cglm.sinf x
  | .cosf, x => Cglm.cosf x
  | .tanf, x => Cglm.tanf x
  | .asinf, x => Cglm.asinf x
  | .acosf, x => Cglm.acosf x
  | .atanf, x => Cglm.atanf x
  | .floorf, x => Cglm.floorf x
  | .fabsf, x => Cglm.fabsf x
  | .modfFrac, x => Cglm.modfFrac x
def F2.app : F2 → α → α → α
  | .add, x, y => x + y
  | .sub, x, y => x - y
  | .mul, x, y => x * y
  | .div, x, y => x / y
  | .atan2f, x, y => Cglm.atan2f x y
  | .fmodf, x, y => Cglm.fmodf x y
  | .powf, x, y => Cglm.powf x y
  | .fminf, x, y => Cglm.fminf x y
def FC.app : FC → α → α → Bool
  | .lt, x, y => flt x y
  | .le, x, y => fle x y
  | .eq, x, y => feq x y
def FP.app : FP → α → Bool
  | .isnan, x => isnanf x
  | .isinf, x => isinff x
def IC.app : IC → Int → Int → Bool
  | .lt, x, y => ilt x y
  | .le, x, y => ile x y
  | .gt, x, y => igt x y
  | .ge, x, y => ige x y
  | .eq, x, y => ieq x y
  | .ne, x, y => ine x y

def I2.app : I2 → Int → Int → Int
  | .add, x, y => x + y
  | .sub, x, y => x - y
  | .mul, x, y => x * y

/-- Read a cell; `none` outside an object or when the cell is indeterminate. -/
def load (m : Mem α) (blk off : Nat) : Option (Val α) :=
  match m[blk]? with
  | some B =>
    match B.cells[off]? with
    | some .undef => none
    | some v => some v
    | none => none
  | none => none

/-- Change a cell; `none` outside a writable object. -/
def put1 (m : Mem α) (blk off : Nat) (v : Val α) : Option (Mem α) :=
  match m[blk]? with
  | some B =>
    match B.w with
    | true =>
      match B.cells[off]? with
      | some _ => some (m.set blk ⟨true, B.cells.set off v⟩)
      | none => none
    | false => none
  | none => none

/-- Expression evaluation in an environment of scalars; `base` is the object number of the first local array. -/
def Expr.eval (base : Nat) (env : List (Val α)) (m : Mem α) : Expr → Option (Val α)
  | .reg i =>
    match env[i]? with
    | some .undef => none
    | some v => some v
    | none => none
  | .loc i => if base + i < m.length then some (.p (base + i) 0) else none
  | .flit q => some (.f (lit q))
  | .ilit n => some (.i n)
  | .blit b => some (.b b)
  | .off p n =>
    match p.eval base env m with
    | some (.p k o) => some (.p k (o + n))
    | _ => none
  | .load p =>
    match p.eval base env m with
    | some (.p k o) => CMem.load m k o
    | _ => none
  | .f1 o a =>
    match a.eval base env m with
    | some (.f x) => some (.f (o.app x))
    | _ => none
  | .f2 o a b =>
    match a.eval base env m with
    | some (.f x) =>
      match b.eval base env m with
      | some (.f y) => some (.f (o.app x y))
      | _ => none
    | _ => none
  | .fc o a b =>
    match a.eval base env m with
    | some (.f x) =>
      match b.eval base env m with
      | some (.f y) => some (.b (o.app x y))
      | _ => none
    | _ => none
  | .fp o a =>
    match a.eval base env m with
    | some (.f x) => some (.b (o.app x))
    | _ => none
  | .ic o a b =>
    match a.eval base env m with
    | some (.i x) =>
      match b.eval base env m with
      | some (.i y) => some (.b (o.app x y))
      | _ => none
    | _ => none
  | .i2 o a b =>
    match a.eval base env m with
    | some (.i x) =>
      match b.eval base env m with
      | some (.i y) => some (.i (o.app x y))
      | _ => none
    | _ => none
  | .not a =>
    match a.eval base env m with
    | some (.b x) => some (.b (!x))
    | _ => none
  | .and a b =>
    match a.eval base env m with
    | some (.b x) =>
      match b.eval base env m with
      | some (.b y) => some (.b (x && y))
      | _ => none
    | _ => none
  | .or a b =>
    match a.eval base env m with
    | some (.b x) =>
      match b.eval base env m with
      | some (.b y) => some (.b (x || y))
      | _ => none
    | _ => none
  | .b2i a =>
    match a.eval base env m with
    | some (.b x) => some (.i (Cglm.b2i x))
    | _ => none
  | .ofInt a =>
    match a.eval base env m with
    | some (.i x) => some (.f (Cglm.ofInt x))
    | _ => none
  | .ite c a b =>
    match c.eval base env m with
    | some (.b z) =>
      match a.eval base env m with
      | some (.f x) =>
        match b.eval base env m with
        | some (.f y) => some (.f (if z then x else y))
        | _ => none
      | some (.i x) =>
        match b.eval base env m with
        | some (.i y) => some (.i (if z then x else y))
        | _ => none
      | some (.b x) =>
        match b.eval base env m with
        | some (.b y) => some (.b (if z then x else y))
        | _ => none
      | _ => none
    | _ => none

/-- Evaluate call arguments from left to right. -/
def evalArgs (base : Nat) (env : List (Val α)) (m : Mem α) : List Expr → Option (List (Val α))
  | [] => some []
  | e :: es =>
    match e.eval base env m with
    | some v =>
      match evalArgs base env m es with
      | some vs => some (v :: vs)
      | none => none
    | none => none

/-- Fresh, uninitialised local arrays. -/
def fresh (locals : List Nat) : Mem α := locals.map fun n => ⟨true, List.replicate n .undef⟩

/-- How a statement ends. -/
inductive Out (α : Type) where
  | next (env : List (Val α)) (m : Mem α)
  | ret (v : Option (Val α)) (m : Mem α)

/-- Value and memory handed back to the caller, whose memory had `n` objects: the callee's locals die.
A pointer is never returned. -/
def Out.leave (n : Nat) : Out α → Option (Option (Val α) × Mem α)
  | .next _ m => some (none, m.take n)
  | .ret none m => some (none, m.take n)
  | .ret (some (.p _ _)) _ => none
  | .ret (some v) m => some (some v, m.take n)

/-- Resume the caller with the value of a call. -/
def resume (dst : Option Nat) (env : List (Val α)) : Option (Val α) × Mem α → Option (Out α)
  | (v, m) =>
    match dst with
    | none => some (.next env m)
    | some d =>
      match v with
      | some v => some (.next (env.set d v) m)
      | none => none

/-- Statement execution. -/
def Stmt.exec : Stmt → Nat → List (Val α) → Mem α → Option (Out α)
  | .skip, _, env, m => some (.next env m)
  | .seq a b, base, env, m =>
    match a.exec base env m with
    | some (.next env' m') => b.exec base env' m'
    | some (.ret v m') => some (.ret v m')
    | none => none
  | .set i e, base, env, m =>
    match e.eval base env m with
    | some v => some (.next (env.set i v) m)
    | none => none
  | .store p e, base, env, m =>
    match p.eval base env m with
    | some (.p k o) =>
      match e.eval base env m with
      | some (.p _ _) => none
      | some v =>
        match put1 m k o v with
        | some m' => some (.next env m')
        | none => none
      | none => none
    | _ => none
  | .havoc p, base, env, m =>
    match p.eval base env m with
    | some (.p k o) =>
      match put1 m k o .undef with
      | some m' => some (.next env m')
      | none => none
    | _ => none
  | .ite c a b, base, env, m =>
    match c.eval base env m with
    | some (.b z) => if z then a.exec base env m else b.exec base env m
    | _ => none
  | .call dst locals nregs body args, base, env, m =>
    match evalArgs base env m args with
    | some vs =>
      match body.exec m.length (vs ++ List.replicate nregs .undef) (m ++ fresh locals) with
      | some r =>
        match r.leave m.length with
        | some x => resume dst env x
        | none => none
      | none => none
    | none => none
  | .ret e, base, env, m =>
    match e.eval base env m with
    | some v => some (.ret (some v) m)
    | none => none
  | .retVoid, _, _, m => some (.ret none m)

/-- Call `f` from outside: result and final memory, or `none` if the call is undefined. -/
def Fn.run (f : Fn) (m : Mem α) (args : List (Val α)) : Option (Option (Val α) × Mem α) :=
  match f.body.exec m.length (args ++ List.replicate f.nregs .undef) (m ++ fresh f.locals) with
  | some r => r.leave m.length
  | none => none

/-! ## Decision-tree execution

The same interpreter, but a branch becomes a node of a tree instead of a case distinction on the condition, so that
a run on symbolic scalars reduces to a value. -/

inductive DT (β : Type) where
  | done (b : β)
  | br (c : Bool) (t f : DT β)

namespace DT
def bind {β γ : Type} (x : DT β) (k : β → DT γ) : DT γ :=
  match x with
  | .done b => k b
  | .br c t f => .br c (t.bind k) (f.bind k)
def map {β γ : Type} (k : β → γ) : DT β → DT γ
  | .done b => .done (k b)
  | .br c t f => .br c (t.map k) (f.map k)
def val {β : Type} : DT β → β
  | .done b => b
  | .br c t f => if c then t.val else f.val

theorem val_bind {β γ : Type} (x : DT β) (k : β → DT γ) : (x.bind k).val = (k x.val).val := by
  induction x with
  | done b => rfl
  | br c t f iht ihf => cases c <;> simp [bind, val, iht, ihf]
theorem val_map {β γ : Type} (x : DT β) (k : β → γ) : (x.map k).val = k x.val := by
  induction x with
  | done b => rfl
  | br c t f iht ihf => cases c <;> simp [map, val, iht, ihf]
end DT

/-- end of a call -/
def callEnd (n : Nat) (dst : Option Nat) (env : List (Val α)) : Option (Out α) → Option (Out α)
  | some r =>
    match r.leave n with
    | some x => resume dst env x
    | none => none
  | none => none

/-- no store and no local array: the statement leaves memory alone -/
def Stmt.pure : Stmt → Bool
  | .skip | .set _ _ | .ret _ | .retVoid => true
  | .seq a b => a.pure && b.pure
  | .ite _ a b => a.pure && b.pure
  | .store _ _ | .havoc _ => false
  | .call _ locals _ body _ => locals.isEmpty && body.pure

/-- the value returned by a tree all of whose leaves return a `float` -/
def DT.retF : DT (Option (Out α)) → Option α
  | .done (some (.ret (some (.f x)) _)) => some x
  | .done _ => none
  | .br c t f =>
    match t.retF, f.retF with
    | some x, some y => some (if c then x else y)
    | _, _ => none
/-- the value returned by a tree all of whose leaves return a `bool` -/
def DT.retB : DT (Option (Out α)) → Option Bool
  | .done (some (.ret (some (.b x)) _)) => some x
  | .done _ => none
  | .br c t f =>
    match t.retB, f.retB with
    | some x, some y => some (if c then x else y)
    | _, _ => none

/-- `Stmt.exec` as a tree.  The tree of a call that leaves memory alone is folded into one conditional value. -/
def Stmt.execT : Stmt → Nat → List (Val α) → Mem α → DT (Option (Out α))
  | .skip, _, env, m => .done (some (.next env m))
  | .seq a b, base, env, m =>
    (a.execT base env m).bind fun r =>
      match r with
      | some (.next env' m') => b.execT base env' m'
      | some (.ret v m') => .done (some (.ret v m'))
      | none => .done none
  | .ite c a b, base, env, m =>
    match c.eval base env m with
    | some (.b z) => .br z (a.execT base env m) (b.execT base env m)
    | _ => .done none
  | .call dst locals nregs body args, base, env, m =>
    match evalArgs base env m args with
    | some vs =>
      let t := body.execT m.length (vs ++ List.replicate nregs .undef) (m ++ fresh locals)
      match locals.isEmpty && body.pure with
      | true =>
        match t.retF with
        | some x => .done (resume dst env (some (.f x), m))
        | none =>
          match t.retB with
          | some x => .done (resume dst env (some (.b x), m))
          | none => t.bind fun r => .done (callEnd m.length dst env r)
      | false => t.bind fun r => .done (callEnd m.length dst env r)
    | none => .done none
  | s, base, env, m => .done (s.exec base env m)

def Fn.runT (f : Fn) (m : Mem α) (args : List (Val α)) : DT (Option (Option (Val α) × Mem α)) :=
  (f.body.execT m.length (args ++ List.replicate f.nregs .undef) (m ++ fresh f.locals)).map fun r =>
    match r with
    | some r => r.leave m.length
    | none => none

omit [Add α] [Sub α] [Mul α] [Div α] [Neg α] [CFloat α] in
theorem DT.retF_val {t : DT (Option (Out α))} : ∀ {x : α}, t.retF = some x → ∃ m', t.val = some (.ret (some (.f x)) m') := by
  induction t with
  | done o =>
    intro x h
    rcases o with _ | (⟨_, _⟩ | ⟨(_ | (_ | _ | _ | _ | _)), m'⟩) <;> simp [DT.retF] at h
    exact ⟨m', by rw [DT.val, h]⟩
  | br c t f iht ihf =>
    intro x h
    rw [DT.retF] at h
    split at h
    · rename_i y z hy hz
      simp only [Option.some.injEq] at h
      obtain ⟨m1, h1⟩ := iht hy
      obtain ⟨m2, h2⟩ := ihf hz
      cases c
      · simp only [Bool.false_eq_true, if_false] at h
        exact ⟨m2, by simp [DT.val, h2, h]⟩
      · simp only [if_true] at h
        exact ⟨m1, by simp [DT.val, h1, h]⟩
    · simp at h
omit [Add α] [Sub α] [Mul α] [Div α] [Neg α] [CFloat α] in
theorem DT.retB_val {t : DT (Option (Out α))} : ∀ {x : Bool}, t.retB = some x → ∃ m', t.val = some (.ret (some (.b x)) m') := by
  induction t with
  | done o =>
    intro x h
    rcases o with _ | (⟨_, _⟩ | ⟨(_ | (_ | _ | _ | _ | _)), m'⟩) <;> simp [DT.retB] at h
    exact ⟨m', by rw [DT.val, h]⟩
  | br c t f iht ihf =>
    intro x h
    rw [DT.retB] at h
    split at h
    · rename_i y z hy hz
      simp only [Option.some.injEq] at h
      obtain ⟨m1, h1⟩ := iht hy
      obtain ⟨m2, h2⟩ := ihf hz
      cases c
      · simp only [Bool.false_eq_true, if_false] at h
        exact ⟨m2, by simp [DT.val, h2, h]⟩
      · simp only [if_true] at h
        exact ⟨m1, by simp [DT.val, h1, h]⟩
    · simp at h

/-- memory at the end of a statement -/
def Out.mem : Out α → Mem α
  | .next _ m => m
  | .ret _ m => m

omit [Add α] [Sub α] [Mul α] [Div α] [Neg α] [CFloat α] in
theorem leave_mem {n : Nat} {r : Out α} {x} (h : r.leave n = some x) : x.2 = r.mem.take n := by
  rcases r with ⟨_, _⟩ | ⟨(_ | (_ | _ | _ | _ | _)), m'⟩ <;> simp [Out.leave] at h <;> subst h <;> rfl
omit [Add α] [Sub α] [Mul α] [Div α] [Neg α] [CFloat α] in
theorem resume_mem {dst : Option Nat} {env : List (Val α)} {x} {o : Out α} (h : resume dst env x = some o) : o.mem = x.2 := by
  rcases x with ⟨v, m⟩
  rcases dst with _ | d <;> rcases v with _ | v <;> simp [resume] at h <;> subst h <;> rfl

theorem pure_mem (s : Stmt) : s.pure = true → ∀ {base : Nat} {env : List (Val α)} {m : Mem α} {o : Out α},
    s.exec base env m = some o → o.mem = m := by
  induction s with
  | skip => intro _ base env m o h; simp only [Stmt.exec, Option.some.injEq] at h; subst h; rfl
  | retVoid => intro _ base env m o h; simp only [Stmt.exec, Option.some.injEq] at h; subst h; rfl
  | store => intro h; simp [Stmt.pure] at h
  | havoc => intro h; simp [Stmt.pure] at h
  | set i e =>
    intro _ base env m o h
    rw [Stmt.exec] at h
    split at h
    · simp only [Option.some.injEq] at h; subst h; rfl
    · simp at h
  | ret e =>
    intro _ base env m o h
    rw [Stmt.exec] at h
    split at h
    · simp only [Option.some.injEq] at h; subst h; rfl
    · simp at h
  | seq a b iha ihb =>
    intro hp base env m o h
    simp only [Stmt.pure, Bool.and_eq_true] at hp
    rw [Stmt.exec] at h
    split at h
    · rename_i env' m' e
      rw [ihb hp.2 h]
      exact iha hp.1 e
    · rename_i v m' e
      simp only [Option.some.injEq] at h; subst h
      exact iha hp.1 e
    · simp at h
  | ite c a b iha ihb =>
    intro hp base env m o h
    simp only [Stmt.pure, Bool.and_eq_true] at hp
    rw [Stmt.exec] at h
    split at h
    · split at h
      · exact iha hp.1 h
      · exact ihb hp.2 h
    · simp at h
  | call dst locals nregs body args ih =>
    intro hp base env m o h
    simp only [Stmt.pure, Bool.and_eq_true, List.isEmpty_iff] at hp
    obtain ⟨rfl, hp⟩ := hp
    rw [Stmt.exec] at h
    split at h
    · split at h
      · rename_i r e
        split at h
        · rename_i x hx
          rw [resume_mem h, leave_mem hx, ih hp e]
          simp [fresh]
        · simp at h
      · simp at h
    · simp at h

theorem execT_val (s : Stmt) : ∀ (base : Nat) (env : List (Val α)) (m : Mem α), (s.execT base env m).val = s.exec base env m := by
  induction s with
  | seq a b iha ihb =>
    intro base env m
    rw [Stmt.execT, Stmt.exec, DT.val_bind, iha]
    rcases a.exec base env m with _ | (⟨env', m'⟩ | ⟨v, m'⟩)
    · rfl
    · exact ihb _ _ _
    · rfl
  | ite c a b iha ihb =>
    intro base env m
    rw [Stmt.execT, Stmt.exec]
    split
    · simp only [DT.val, iha, ihb]
    · rfl
  | call dst locals nregs body args ih =>
    intro base env m
    rw [Stmt.execT, Stmt.exec]
    split
    · rename_i vs hvs
      have general : ∀ t : DT (Option (Out α)), t.val = body.exec m.length (vs ++ List.replicate nregs .undef) (m ++ fresh locals) →
          (t.bind fun r => .done (callEnd m.length dst env r)).val = Stmt.exec (.call dst locals nregs body args) base env m := by
        intro t ht
        rw [DT.val_bind, ht, Stmt.exec, hvs]; rfl
      have known : ∀ v : Val α, (∃ m', body.exec m.length (vs ++ List.replicate nregs .undef) (m ++ fresh locals) = some (.ret (some v) m')) →
          (∀ b o, v ≠ .p b o) → (locals.isEmpty && body.pure) = true →
          (DT.done (resume dst env (some v, m))).val = Stmt.exec (.call dst locals nregs body args) base env m := by
        rintro v ⟨m', e⟩ hv hp
        simp only [Bool.and_eq_true, List.isEmpty_iff] at hp
        obtain ⟨rfl, hp⟩ := hp
        have hm := pure_mem body hp e
        simp only [Out.mem, fresh, List.map_nil, List.append_nil] at hm
        subst hm
        rw [Stmt.exec, hvs]
        simp only [e]
        cases v <;> simp_all [Out.leave, DT.val]
      have hg := general _ (ih _ _ _)
      rw [Stmt.exec, hvs] at hg known
      dsimp only
      split
      · rename_i hp
        split
        · rename_i x hx
          obtain ⟨m', h⟩ := DT.retF_val hx
          rw [ih] at h
          exact known _ ⟨m', h⟩ (by simp) hp
        · split
          · rename_i x hx
            obtain ⟨m', h⟩ := DT.retB_val hx
            rw [ih] at h
            exact known _ ⟨m', h⟩ (by simp) hp
          · exact hg
      · exact hg
    · rfl
  | skip => intros; rfl
  | set => intros; rfl
  | store => intros; rfl
  | havoc => intros; rfl
  | ret => intros; rfl
  | retVoid => intros; rfl

theorem runT_val (f : Fn) (m : Mem α) (args : List (Val α)) : (f.runT m args).val = f.run m args := by
  rw [Fn.runT, DT.val_map, execT_val]; rfl

end Cglm.CMem
