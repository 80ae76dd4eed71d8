import Verif.Types
import Mathlib.Algebra.Order.Ring.Nat
import Mathlib.Data.List.Forall2
import Mathlib.Tactic.Linarith
/-!
# Which memory a function touches

For each function: the objects its pointer parameters stand for, its local objects, and what it may do with them — accesses of a
width, with the alignment the instruction (or a promise to the compiler) needs, and calls that pass places on.  Conditions are
dropped: every statement counts as reachable.  An index that is not a constant stands for every value in range.
-/
namespace Cglm.Acc
open Cglm.Layout (Config)

/-- where the alignment of a type comes from -/
inductive Al where
  /-- `CGLM_ALIGN_IF(16)` -/
  | vec
  /-- `CGLM_ALIGN_MAT` -/
  | mat
  /-- `CGLM_ALIGN(8)` -/
  | b8
  /-- `CGLM_ALIGN(16)` -/
  | b16
deriving DecidableEq, Repr

/-- what the alignment macros mean in a configuration -/
structure Aln where
  /-- `CGLM_ALIGN` is an attribute -/
  attr : Bool
  /-- `CGLM_ALL_UNALIGNED` -/
  relaxed : Bool
  /-- `__AVX__` -/
  avx : Bool
deriving DecidableEq, Repr

/-- the alignment macros of a configuration -/
def aln (c : Config) : Aln := ⟨c.attr, c.allUnaligned, c.avx⟩

/-- one attribute -/
def Al.align (a : Aln) : Al → Nat
  | .vec => if a.relaxed then 4 else if a.attr then 16 else 4
  | .mat => if a.attr then (if a.avx then 32 else 16) else 4
  | .b8 => if a.attr then 8 else 4
  | .b16 => if a.attr then 16 else 4

/-- an object: its size and its alignment attributes -/
structure Var where
  size : Nat
  al : List Al
deriving DecidableEq, Repr

/-- all attributes of an object; every type asks for at least 4 -/
def Var.align (a : Aln) (v : Var) : Nat := v.al.foldl (fun n x => max n (x.align a)) 4

/-- the alignment a caller has to provide: that of the type, or that of `float` with `CGLM_ALL_UNALIGNED` -/
def Var.asks (a : Aln) (v : Var) : Nat := if a.relaxed then 4 else v.align a

/-- a parameter: the object behind it, and whether it is an output -/
structure Param where
  var : Var
  out : Bool
deriving DecidableEq, Repr

/-- a place in variable `var` (parameters first, then locals): a byte offset and indices `k < count` with their strides -/
structure Place where
  var : Nat
  off : Nat
  ix : List (Nat × Nat)
deriving DecidableEq, Repr

/-- what a function may do -/
inductive Ev where
  /-- touch `width` bytes; the address must be a multiple of `req` -/
  | access (p : Place) (width req : Nat) (write : Bool)
  /-- call function `f` with these pointer arguments -/
  | call (f : Nat) (args : List Place)
deriving DecidableEq, Repr

/-- read four bytes at a constant place -/
abbrev rd (v o : Nat) : Ev := .access ⟨v, o, []⟩ 4 4 false
/-- write four bytes at a constant place -/
abbrev wr (v o : Nat) : Ev := .access ⟨v, o, []⟩ 4 4 true
/-- any access at a constant place -/
abbrev ac (v o w r : Nat) (b : Bool) : Ev := .access ⟨v, o, []⟩ w r b

/-- a function: its local objects and what it may do -/
structure Fn where
  locals : List Var
  evs : List Ev

/-- a search tree, so that the kernel finds functions quickly -/
inductive Tree (α : Type) where
  | leaf
  | node (k : Nat) (v : α) (l r : Tree α)

/-- look up -/
def Tree.find {α : Type} (k : Nat) : Tree α → Option α
  | .leaf => none
  | .node j v l r => if Nat.beq k j then some v else if Nat.blt k j then l.find k else r.find k

/-- every entry -/
def Tree.all {α : Type} (p : Nat → α → Bool) : Tree α → Bool
  | .leaf => true
  | .node j v l r => p j v && l.all p && r.all p

/-- a program: parameter lists, the functions of the scalar build, and those that a configuration replaces or adds -/
structure Prog where
  sigs : Tree (List Param)
  base : Tree Fn
  own : Tree Fn

/-- the parameters of a function -/
def Prog.sig (P : Prog) (f : Nat) : Option (List Param) := P.sigs.find f
/-- the body of a function -/
def Prog.fn (P : Prog) (f : Nat) : Option Fn :=
  match P.own.find f with
  | some x => some x
  | none => P.base.find f

/-! ### What is touched -/

/-- an object in memory -/
structure Obj where
  start : Nat
  size : Nat
  /-- the function may change it: an output of the outermost call, or a local object of some function called -/
  out : Bool
  /-- a local object of some function called -/
  isLocal : Bool

/-- a pointer: an address in an object -/
structure Ptr where
  obj : Obj
  addr : Nat

/-- an access that takes place -/
structure Touch where
  ptr : Ptr
  width : Nat
  req : Nat
  write : Bool

/-- an admissible argument for a parameter -/
structure Param.Admits (a : Aln) (v : Param) (p : Ptr) : Prop where
  first : p.obj.start ≤ p.addr
  last : p.addr + v.var.size ≤ p.obj.start + p.obj.size
  aligned : v.var.asks a ∣ p.addr
  out : v.out = true → p.obj.out = true

/-- a pointer to a fresh local object -/
structure Var.Fresh (a : Aln) (v : Var) (p : Ptr) : Prop where
  obj : p.obj = ⟨p.addr, v.size, true, true⟩
  aligned : v.align a ∣ p.addr

/-- the value of an index expression: some index in range, for each stride -/
inductive IxVal : List (Nat × Nat) → Nat → Prop
  | nil : IxVal [] 0
  | cons {s n ix d} (k : Nat) : k < n → IxVal ix d → IxVal ((s, n) :: ix) (k * s + d)

/-- what a place denotes in an environment -/
def Place.At (env : List Ptr) (p : Place) (q : Ptr) : Prop :=
  ∃ b d, env[p.var]? = some b ∧ IxVal p.ix d ∧ q = ⟨b.obj, b.addr + (p.off + d)⟩

/-- calling function `f` of program `P` with pointers `args` may make the access `t`, itself or through the functions it calls -/
inductive Touches (a : Aln) (P : Prog) : Nat → List Ptr → Touch → Prop
  | access {f : Nat} {args locs : List Ptr} {fn : Fn} {p : Place} {w r : Nat} {b : Bool} {q : Ptr} :
      P.fn f = some fn → List.Forall₂ (Var.Fresh a) fn.locals locs → .access p w r b ∈ fn.evs → p.At (args ++ locs) q →
      Touches a P f args ⟨q, w, r, b⟩
  | call {f g : Nat} {args locs qs : List Ptr} {fn : Fn} {ps : List Place} {t : Touch} :
      P.fn f = some fn → List.Forall₂ (Var.Fresh a) fn.locals locs → .call g ps ∈ fn.evs →
      List.Forall₂ (Place.At (args ++ locs)) ps qs → Touches a P g qs t → Touches a P f args t

/-- an access as it should be: inside its object, aligned, and not a write to an input -/
structure Touch.Good (t : Touch) : Prop where
  first : t.ptr.obj.start ≤ t.ptr.addr
  last : t.ptr.addr + t.width ≤ t.ptr.obj.start + t.ptr.obj.size
  aligned : t.req ∣ t.ptr.addr
  output : t.write = true → t.ptr.obj.out = true

/-! ### A check, and why it is enough -/

/-- size, alignment and direction of each variable in scope -/
def scope (a : Aln) (ps : List Param) (ls : List Var) : List (Nat × Nat × Bool) :=
  ps.map (fun p => (p.var.size, p.var.asks a, p.out)) ++ ls.map (fun v => (v.size, v.align a, true))

/-- the largest offset the indices of a place can add -/
def reach : List (Nat × Nat) → Nat
  | [] => 0
  | (s, n) :: r => (n - 1) * s + reach r

/-- all strides are multiples of `r` -/
def strides (r : Nat) : List (Nat × Nat) → Bool
  | [] => true
  | (s, _) :: t => Nat.beq (s % r) 0 && strides r t

/-- `w` bytes at a place, with an alignment, to be written or not -/
def fits (sc : List (Nat × Nat × Bool)) (p : Place) (w r : Nat) (b : Bool) : Bool :=
  match sc[p.var]? with
  | none => false
  | some (n, al, out) =>
    Nat.ble (p.off + reach p.ix + w) n && Nat.beq (al % r) 0 && Nat.beq (p.off % r) 0 && strides r p.ix && (!b || out)

/-- the arguments of a call fit its parameters -/
def fitsAll (a : Aln) (sc : List (Nat × Nat × Bool)) : List Place → List Param → Bool
  | [], [] => true
  | p :: ps, v :: vs => fits sc p v.var.size (v.var.asks a) v.out && fitsAll a sc ps vs
  | _, _ => false

/-- one event -/
def evOk (a : Aln) (bad : List Nat) (sigs : Tree (List Param)) (sc : List (Nat × Nat × Bool)) : Ev → Bool
  | .access p w r b => fits sc p w r b
  | .call g ps =>
    !bad.contains g &&
    match sigs.find g with
    | none => false
    | some vs => fitsAll a sc ps vs

/-- one function -/
def fnOk (a : Aln) (bad : List Nat) (sigs : Tree (List Param)) (k : Nat) (fn : Fn) : Bool :=
  bad.contains k ||
  match sigs.find k with
  | none => false
  | some vs =>
    let sc := scope a vs fn.locals
    fn.evs.all (evOk a bad sigs sc)

theorem Tree.all_find {α : Type} {p : Nat → α → Bool} {k : Nat} {x : α} :
    {t : Tree α} → t.all p = true → t.find k = some x → p k x = true
  | .leaf, _, e => by cases e
  | .node j v l r, h, e => by
    simp only [Tree.all, Bool.and_eq_true] at h
    simp only [Tree.find] at e
    split at e
    · next hk => cases e; rw [Nat.eq_of_beq_eq_true hk]; exact h.1.1
    · split at e
      · exact Tree.all_find h.1.2 e
      · exact Tree.all_find h.2 e

/-- a pointer with room, alignment and permission, as the scope says -/
structure InScope (s : Nat × Nat × Bool) (p : Ptr) : Prop where
  first : p.obj.start ≤ p.addr
  last : p.addr + s.1 ≤ p.obj.start + p.obj.size
  aligned : s.2.1 ∣ p.addr
  out : s.2.2 = true → p.obj.out = true

theorem scope_ok {a : Aln} {ps : List Param} {ls : List Var} {args locs : List Ptr}
    (h : List.Forall₂ (Param.Admits a) ps args) (k : List.Forall₂ (Var.Fresh a) ls locs) :
    List.Forall₂ InScope (scope a ps ls) (args ++ locs) := by
  unfold scope
  refine List.rel_append ?_ ?_
  · rw [List.forall₂_map_left_iff]
    exact h.imp fun x y hx => ⟨hx.first, hx.last, hx.aligned, hx.out⟩
  · rw [List.forall₂_map_left_iff]
    exact k.imp fun x y hx => ⟨by rw [hx.obj], by rw [hx.obj], hx.aligned, fun _ => by rw [hx.obj]⟩

theorem forall₂_get {α β : Type} {R : α → β → Prop} : {l : List α} → {m : List β} → List.Forall₂ R l m → {i : Nat} → {y : β} →
    m[i]? = some y → ∃ x, l[i]? = some x ∧ R x y
  | _, _, .nil, i, y, h => by simp at h
  | _, _, .cons hr t, 0, y, h => by simp at h; subst h; exact ⟨_, rfl, hr⟩
  | _, _, .cons hr t, i + 1, y, h => by simpa using forall₂_get t (by simpa using h)

theorem IxVal.le {ix : List (Nat × Nat)} {d : Nat} (h : IxVal ix d) : d ≤ reach ix := by
  induction h with
  | nil => exact le_rfl
  | cons k hk _ ih => exact Nat.add_le_add (Nat.mul_le_mul_right _ (by omega)) ih

theorem IxVal.dvd {r : Nat} {ix : List (Nat × Nat)} {d : Nat} (h : IxVal ix d) (hs : strides r ix = true) : r ∣ d := by
  induction h with
  | nil => exact dvd_zero _
  | cons k _ _ ih =>
    simp only [strides, Bool.and_eq_true] at hs
    exact Nat.dvd_add (Dvd.dvd.mul_left (Nat.dvd_of_mod_eq_zero (Nat.eq_of_beq_eq_true hs.1)) _) (ih hs.2)

theorem fits_sound {sc : List (Nat × Nat × Bool)} {env : List Ptr} (he : List.Forall₂ InScope sc env) {p : Place} {w r : Nat} {b : Bool}
    {q : Ptr} (hf : fits sc p w r b = true) (hq : p.At env q) :
    q.obj.start ≤ q.addr ∧ q.addr + w ≤ q.obj.start + q.obj.size ∧ r ∣ q.addr ∧ (b = true → q.obj.out = true) := by
  obtain ⟨x, d, hx, hd, rfl⟩ := hq
  obtain ⟨⟨n, al, out⟩, hs, h1, h2, h3, h4⟩ := forall₂_get he hx
  unfold fits at hf
  rw [hs] at hf
  simp only [Bool.and_eq_true] at hf
  obtain ⟨⟨⟨⟨k1, k2⟩, k3⟩, k4⟩, k5⟩ := hf
  have k1 := Nat.le_of_ble_eq_true k1
  have hle := hd.le
  simp only at h1 h2 h3 h4 ⊢
  refine ⟨by omega, by omega, ?_, fun hb => ?_⟩
  · refine Nat.dvd_add ((Nat.dvd_of_mod_eq_zero (Nat.eq_of_beq_eq_true k2)).trans h3) (Nat.dvd_add ?_ (hd.dvd k4))
    exact Nat.dvd_of_mod_eq_zero (Nat.eq_of_beq_eq_true k3)
  · subst hb; simp only [Bool.not_true, Bool.false_or] at k5; exact h4 k5

theorem fitsAll_sound {a : Aln} {sc : List (Nat × Nat × Bool)} {env : List Ptr} (he : List.Forall₂ InScope sc env) :
    {ps : List Place} → {vs : List Param} → {qs : List Ptr} → fitsAll a sc ps vs = true → List.Forall₂ (Place.At env) ps qs →
    List.Forall₂ (Param.Admits a) vs qs
  | [], [], _, _, .nil => .nil
  | [], _ :: _, _, h, _ => by simp [fitsAll] at h
  | _ :: _, [], _, h, _ => by simp [fitsAll] at h
  | p :: ps, v :: vs, _, h, .cons hq t => by
    simp only [fitsAll, Bool.and_eq_true] at h
    obtain ⟨k1, k2, k3, k4⟩ := fits_sound he h.1 hq
    exact .cons ⟨k1, k2, k3, k4⟩ (fitsAll_sound he h.2 t)

/-- the check of every function is enough for every access at every depth of calls -/
theorem touches_good {a : Aln} {P : Prog} {bad : List Nat} (hb : P.base.all (fnOk a bad P.sigs) = true)
    (ho : P.own.all (fnOk a bad P.sigs) = true) {f : Nat} {args : List Ptr} {t : Touch} (ht : Touches a P f args t) :
    f ∉ bad → ∀ {vs}, P.sig f = some vs → List.Forall₂ (Param.Admits a) vs args → t.Good := by
  have key : ∀ {f fn}, P.fn f = some fn → fnOk a bad P.sigs f fn = true := by
    intro f fn h
    unfold Prog.fn at h
    split at h
    · next x hx => cases h; exact Tree.all_find ho hx
    · exact Tree.all_find hb h
  have body : ∀ {f fn vs}, P.fn f = some fn → f ∉ bad → P.sig f = some vs →
      ∀ e ∈ fn.evs, evOk a bad P.sigs (scope a vs fn.locals) e = true := by
    intro f fn vs h hn hs e he
    have hk := key h
    unfold fnOk at hk
    rw [Bool.or_eq_true] at hk
    rcases hk with hk | hk
    · exact absurd (by simpa using hk) hn
    · unfold Prog.sig at hs
      rw [hs] at hk
      exact List.all_eq_true.mp hk e he
  induction ht with
  | access hfn hl he hq =>
    intro hn vs hs hv
    obtain ⟨k1, k2, k3, k4⟩ := fits_sound (scope_ok hv hl) (body hfn hn hs _ he) hq
    exact ⟨k1, k2, k3, k4⟩
  | call hfn hl he hq _ ih =>
    intro hn vs hs hv
    have hk := body hfn hn hs _ he
    simp only [evOk, Bool.and_eq_true] at hk
    obtain ⟨k1, k2⟩ := hk
    split at k2
    · cases k2
    · next ws hw =>
      exact ih (by simpa using k1) hw (fitsAll_sound (scope_ok hv hl) k2 hq)

/-- whatever is touched is an object given by the caller, or a local object -/
theorem touches_obj {a : Aln} {P : Prog} {f : Nat} {args : List Ptr} {t : Touch} (ht : Touches a P f args t) :
    t.ptr.obj ∈ args.map Ptr.obj ∨ t.ptr.obj.isLocal = true := by
  have base : ∀ {args locs : List Ptr} {ls : List Var} {p : Place} {q : Ptr}, List.Forall₂ (Var.Fresh a) ls locs → p.At (args ++ locs) q →
      q.obj ∈ args.map Ptr.obj ∨ q.obj.isLocal = true := by
    intro args locs ls p q hl hq
    obtain ⟨x, d, hx, -, rfl⟩ := hq
    rcases List.mem_append.mp (List.mem_of_getElem? hx) with h | h
    · exact .inl (List.mem_map.mpr ⟨x, h, rfl⟩)
    · refine .inr ?_
      obtain ⟨i, hi⟩ := List.getElem?_of_mem h
      obtain ⟨v, -, hv⟩ := forall₂_get hl hi
      show x.obj.isLocal = true
      rw [hv.obj]
  induction ht with
  | access _ hl _ hq => exact base hl hq
  | call _ hl _ hq _ ih =>
    rcases ih with h | h
    · obtain ⟨q, hmem, e⟩ := List.mem_map.mp h
      obtain ⟨i, hi⟩ := List.getElem?_of_mem hmem
      obtain ⟨p, -, hp⟩ := forall₂_get hq hi
      rw [← e]
      exact base hl hp
    · exact .inr h

theorem Tree.all_imp {α : Type} {p q r : Nat → α → Bool} (h : ∀ k x, p k x = true → q k x = true → r k x = true) :
    {t : Tree α} → t.all p = true → t.all q = true → t.all r = true
  | .leaf, _, _ => rfl
  | .node j v l s, hp, hq => by
    simp only [Tree.all, Bool.and_eq_true] at hp hq ⊢
    exact ⟨⟨h j v hp.1.1 hq.1.1, Tree.all_imp h hp.1.2 hq.1.2⟩, Tree.all_imp h hp.2 hq.2⟩

/-- functions that are no exceptions and call none pass without exceptions -/
theorem all_nil {a : Aln} {bad : List Nat} {sigs : Tree (List Param)} {t : Tree Fn} (h : t.all (fnOk a bad sigs) = true)
    (hk : t.all (fun k _ => !bad.contains k) = true) : t.all (fnOk a [] sigs) = true := by
  refine Tree.all_imp ?_ h hk
  intro k fn h1 h2
  unfold fnOk at h1 ⊢
  simp only [Bool.not_eq_true'] at h2
  rw [h2, Bool.false_or] at h1
  rw [show ([] : List Nat).contains k = false from rfl, Bool.false_or]
  split at h1
  · cases h1
  · next vs hv =>
    simp only at h1 ⊢
    rw [List.all_eq_true] at h1 ⊢
    intro e he
    have := h1 e he
    cases e with
    | access p w r b => exact this
    | call g ps =>
      simp only [evOk, Bool.and_eq_true] at this ⊢
      exact ⟨rfl, this.2⟩

/-- the least alignment: `CGLM_ALL_UNALIGNED` and no attributes -/
def least : Aln := ⟨false, true, false⟩

theorem Al.align_least (x : Al) : x.align least = 4 := by cases x <;> rfl
theorem Al.four_dvd (a : Aln) (x : Al) : 4 ∣ x.align a := by
  rcases a with ⟨_ | _, _ | _, _ | _⟩ <;> cases x <;> decide

theorem foldl_least (l : List Al) : ∀ n, l.foldl (fun n x => max n (x.align least)) (max n 4) = max n 4 := by
  induction l with
  | nil => intro n; rfl
  | cons x l ih => intro n; rw [List.foldl_cons, x.align_least, max_assoc, max_self]; exact ih n

theorem Var.align_least (v : Var) : v.align least = 4 := foldl_least v.al 4

theorem four_dvd_foldl (a : Aln) (l : List Al) : ∀ n, 4 ∣ n → 4 ∣ l.foldl (fun n x => max n (x.align a)) n := by
  induction l with
  | nil => intro n h; exact h
  | cons x l ih =>
    intro n h
    rw [List.foldl_cons]
    refine ih _ ?_
    rcases le_total n (x.align a) with k | k
    · rw [max_eq_right k]; exact x.four_dvd a
    · rw [max_eq_left k]; exact h

/-- what is touched with stronger alignment of locals is touched with the least -/
theorem Touches.least {a : Aln} {P : Prog} {f : Nat} {args : List Ptr} {t : Touch} (ht : Touches a P f args t) :
    Touches least P f args t := by
  have weak : ∀ {ls : List Var} {locs : List Ptr}, List.Forall₂ (Var.Fresh a) ls locs → List.Forall₂ (Var.Fresh Acc.least) ls locs :=
    fun h => h.imp fun v p hp => ⟨hp.obj, by rw [v.align_least]; exact (four_dvd_foldl a v.al 4 dvd_rfl).trans hp.aligned⟩
  induction ht with
  | access h hl he hq => exact .access h (weak hl) he hq
  | call h hl he hq _ ih => exact .call h (weak hl) he hq ih

theorem Param.Admits.least {a : Aln} (ha : a.relaxed = true) {v : Param} {p : Ptr} (h : v.Admits a p) : v.Admits least p :=
  ⟨h.first, h.last, by have := h.aligned; rw [Var.asks, if_pos ha] at this; exact this, h.out⟩

end Cglm.Acc
