import Verif.CMemOver

/-!
# Components that are not read

`transferPart` is `transferC` for memories in which some cells of the arguments hold anything at all, even nothing.
-/

namespace Cglm.CMem

variable {α : Type}

/-- The cells from `p` on hold `vs`, except that those in `l` may hold anything, and may be indeterminate. -/
def Part (m : Mem α) (p : Ptr) (l : List Nat) (vs : List α) : Prop :=
  ∀ (k : Nat) (x : α), vs[k]? = some x → ∃ v, cell m p.1 (p.2 + k) = some v ∧ (k ∉ l → v = .f x)

/-- number of an array, cells of it -/
abbrev Spots := List (Nat × List Nat)

/-- the cells of array `i` -/
def Spots.of : Spots → Nat → List Nat
  | [], _ => []
  | x :: t, i => match Nat.beq x.1 i with | true => x.2 | false => Spots.of t i

def isIn (l : List Nat) (k : Nat) : Bool := l.any fun x => Nat.beq x k

/-- without the values of the cells in `l`, from cell `k` on -/
def blankL (l : List Nat) : Nat → List (Val α) → List (Val α)
  | _, [] => []
  | k, v :: t => (match isIn l k with | true => .undef | false => v) :: blankL l (k + 1) t

/-- without the values of the cells in `u`, from array `i` on -/
def blankA (u : Spots) : Nat → Mem α → Mem α
  | _, [] => []
  | i, B :: A => ⟨B.w, blankL (u.of i) 0 B.cells⟩ :: blankA u (i + 1) A

/-- without knowledge of the cells in `u`, from array `i` on -/
def forgetA (u : Spots) : Nat → List AB → List AB
  | _, [] => []
  | i, B :: A => ⟨B.w, maskF (isIn (u.of i)) 0 B.init⟩ :: forgetA u (i + 1) A

/-- the analysis of `CMemLate` accepts the function although the cells in `u` are not known -/
def Entry.part (hit : Hit) (u : Spots) (e : Entry) : Bool :=
  match e.fn.late hit (forgetA u 0 (Shape.arrays e.args)) (Shape.avs 0 e.args) with
  | some (_, D) => lateOk (Shape.arrays e.args) D
  | none => false

theorem isIn_mem {l : List Nat} {k : Nat} : isIn l k = true ↔ k ∈ l := by
  simp [isIn]

theorem blankL_get (l : List Nat) : ∀ (cs : List (Val α)) (i k : Nat), (blankL l i cs)[k]? = cs[k]?.map fun v => match isIn l (i + k) with | true => .undef | false => v := by
  intro cs
  induction cs with
  | nil => intro i k; simp [blankL]
  | cons v t ih =>
    rintro i (_ | k)
    · simp [blankL]
    · simp only [blankL, List.getElem?_cons_succ, ih]
      rw [show i + 1 + k = i + (k + 1) by omega]

theorem blankA_get (u : Spots) : ∀ (A : Mem α) (i r : Nat), (blankA u i A)[r]? = A[r]?.map fun B => ⟨B.w, blankL (u.of (i + r)) 0 B.cells⟩ := by
  intro A
  induction A with
  | nil => intro i r; simp [blankA]
  | cons B A ih =>
    rintro i (_ | r)
    · simp [blankA]
    · simp only [blankA, List.getElem?_cons_succ, ih]
      rw [show i + 1 + r = i + (r + 1) by omega]

theorem blankA_length (u : Spots) : ∀ (A : Mem α) (i : Nat), (blankA u i A).length = A.length := by
  intro A
  induction A with
  | nil => intro i; rfl
  | cons B A ih => intro i; simp [blankA, ih]

theorem blankL_map (kn : Val α → Bool) (hk : kn .undef = false) (l : List Nat) : ∀ (cs : List (Val α)) (i : Nat), (blankL l i cs).map kn = maskF (isIn l) i (cs.map kn) := by
  intro cs
  induction cs with
  | nil => intro i; rfl
  | cons v t ih =>
    intro i
    simp only [blankL, List.map_cons, maskF, ih, List.cons.injEq, and_true]
    cases isIn l i with
    | true => exact hk
    | false => rfl

theorem blankA_map (kn : Val α → Bool) (hk : kn .undef = false) (u : Spots) : ∀ (A : Mem α) (i : Nat), (blankA u i A).map (Block.abs kn) = forgetA u i (A.map (Block.abs kn)) := by
  intro A
  induction A with
  | nil => intro i; rfl
  | cons B A ih =>
    intro i
    simp only [blankA, List.map_cons, forgetA, ih, Block.abs, blankL_map kn hk]

theorem blankA_wk (kn : Val α → Bool) (hk : kn .undef = false) (u : Spots) (A : Mem α) : Wk (A.map (Block.abs kn)) ((blankA u 0 A).map (Block.abs kn)) := by
  refine ⟨by simp [blankA_length], ?_⟩
  intro r B' hr
  rw [List.getElem?_map, blankA_get] at hr
  simp only [Option.map_eq_some_iff] at hr
  obtain ⟨_, ⟨B, hB, rfl⟩, rfl⟩ := hr
  refine ⟨B.abs kn, by simp [hB], ?_, fun h => h, ?_⟩
  · simp only [Block.abs, blankL_map kn hk]
    exact (maskF_get _ _ _).1
  · intro k h
    simp only [Block.abs, blankL_map kn hk] at h
    exact ((maskF_get _ _ _).2 k h).1

theorem blankA_cell (u : Spots) (A : Mem α) (i k : Nat) : cell (blankA u 0 A) i k = (cell A i k).map fun v => match isIn (u.of i) k with | true => .undef | false => v := by
  unfold cell
  rw [blankA_get]
  cases A[i]? with
  | none => rfl
  | some B => simp only [Option.map_some, Option.bind_some, blankL_get, Nat.zero_add]

theorem blankA_wr (u : Spots) (A : Mem α) (i : Nat) : wr (blankA u 0 A) i = wr A i := by
  unfold wr
  rw [blankA_get]
  cases A[i]? <;> rfl

theorem blankA_ctx (kn : Val α → Bool) (u : Spots) (j : List Ptr) (A m : Mem α) : ctxO kn j (blankA u 0 A) m = ctxO kn j A m := by
  unfold ctxO
  congr 1
  funext b o
  apply propext
  constructor
  · rintro ⟨i, q, k, v, h1, h2, h3, h4, h5⟩
    rw [blankA_cell, Option.map_eq_some_iff] at h2
    obtain ⟨w, h2, -⟩ := h2
    exact ⟨i, q, k, w, h1, h2, blankA_wr u A i ▸ h3, h4, h5⟩
  · rintro ⟨i, q, k, v, h1, h2, h3, h4, h5⟩
    exact ⟨i, q, k, _, h1, by rw [blankA_cell, h2]; rfl, by rw [blankA_wr]; exact h3, h4, h5⟩

theorem Part.has {m : Mem α} {p : Ptr} {l : List Nat} {vs : List α} (h : Part m p l vs) : Has m p (blankL l 0 (vs.map .f)) := by
  intro k v hv
  simp only [blankL_get, List.getElem?_map, Option.map_map, Option.map_eq_some_iff, Nat.zero_add] at hv
  obtain ⟨x, hx, rfl⟩ := hv
  obtain ⟨w, h1, h2⟩ := h k x hx
  refine ⟨w, h1, ?_⟩
  cases hi : isIn l k with
  | true => simp [CRel]
  | false =>
    have : k ∉ l := fun hm => by rw [isIn_mem.mpr hm] at hi; simp at hi
    simp [CRel, h2 this]

/-- an array with arbitrary cells in a given memory -/
theorem Part.within {m : Mem α} {b o : Nat} {w : Bool} {cs : List (Val α)} {l : List Nat} {vs : List α} (h : m[b]? = some ⟨w, cs⟩)
    (hn : vs.length = ((cs.drop o).take vs.length).length) (e : blankL l 0 ((cs.drop o).take vs.length) = blankL l 0 (vs.map .f)) : Part m (b, o) l vs := by
  intro k x hx
  have hk := (List.getElem?_eq_some_iff.mp hx).1
  have h3 : k < ((cs.drop o).take vs.length).length := by omega
  have h4 : cs[o + k]? = some ((cs.drop o).take vs.length)[k] := by
    have := List.getElem?_eq_getElem h3
    rw [List.getElem?_take, if_pos hk, List.getElem?_drop] at this
    exact this
  refine ⟨_, by simp only [cell, h, Option.bind_some]; exact h4, fun hm => ?_⟩
  have := congrArg (fun l => l[k]?) e
  have hi : isIn l k = false := by
    cases hh : isIn l k with
    | true => exact absurd (isIn_mem.mp hh) hm
    | false => rfl
  simp only [blankL_get, Nat.zero_add, hi, List.getElem?_eq_getElem h3, Option.map_some, List.getElem?_map, hx, Option.some.injEq] at this
  exact this

/-- no pointers in memory -/
def flat (A : Mem α) : Bool := A.all fun B => B.cells.all fun v => match v with | .p _ _ => false | _ => true

theorem flat_spec {A : Mem α} (h : flat A = true) (i : Nat) (B : Block α) (hB : A[i]? = some B) (b o : Nat) : Val.p b o ∉ B.cells := by
  intro hm
  have := List.all_eq_true.mp (List.all_eq_true.mp h B (List.mem_of_getElem? hB)) _ hm
  simp at this

variable [Add α] [Sub α] [Mul α] [Div α] [Neg α] [CFloat α]

theorem transferP {hit : Hit} {u : Spots} {e : Entry} (he : e.part hit u = true) {j : List Ptr} {A A' m : Mem α} {args args' : List (Val α)} {r : Option (Val α)}
    (hA : A.map (Block.abs Val.known) = Shape.arrays e.args) (hargs : args.map Val.abs = Shape.avs 0 e.args) (hp : flat A = true)
    (hR : RO true j (blankA u 0 A) m) (hF : Free hit (ctxO Val.known j (blankA u 0 A) m) ((blankA u 0 A).map (Block.abs Val.known))) (ha : ERel j args args')
    (h : e.fn.run A args = some (r, A')) : e.fn.run m args' = some (r, writes m (outs j A')) := by
  have hlen := blankA_length u A 0
  have hw := blankA_wk Val.known rfl u A
  have h0 : RO true (CMem.home A.length) A A := .home true (flat_spec hp)
  have hj : j.length = A.length := hR.len.trans hlen
  unfold Entry.part at he
  split at he
  · rename_i av D hD
    obtain ⟨d1, d2, d3⟩ := lateOk_spec he
    rw [← hA] at hD d1 d2 d3
    rw [← hargs, ← blankA_map Val.known rfl] at hD
    unfold Fn.late at hD
    split at hD
    · rename_i ro hro
      obtain ⟨-, -, hP, -⟩ := h0.frames d2
      obtain ⟨hn, hc, -, hQ⟩ := hR.frames (kn := Val.known) (fun r B hr => by
        obtain ⟨C, e1, e2, -⟩ := hw.get r B hr
        have := d2 r C e1
        omega)
      have hpair : Pair hit (ctxO Val.known (CMem.home A.length) A A) (ctxO Val.known j (blankA u 0 A) m) ((blankA u 0 A).map (Block.abs Val.known)) A m := by
        refine ⟨(h0.start rfl).weak hw, hR.start rfl, ⟨h0.apart.weak hw, (home_free hit A).weak hw⟩, ⟨hR.apart, hF⟩, ?_⟩
        intro r B i hr hi
        obtain ⟨h1, h2, h3⟩ := abs_get hr
        have hq : j[r]? = some (j[r]'(hR.len ▸ h1)) := List.getElem?_eq_getElem _
        rw [ctxO_addr (home_at (hlen ▸ h1)), ctxO_addr hq]
        rw [h3, Option.map_eq_some_iff] at hi
        obtain ⟨v, hv, hz⟩ := hi
        obtain ⟨v', hv', hcr⟩ := hR.cells r _ i v hq hv
        rw [hv', Nat.zero_add]
        rw [blankA_cell, Option.map_eq_some_iff] at hv
        obtain ⟨w, hw1, hw2⟩ := hv
        rw [hw1]
        split at hw2
        · subst hw2; simp [Val.known] at hz
        · subst hw2
          cases w with
          | undef => simp [Val.known] at hz
          | p b o => exact hcr.elim
          | f x | i x | b x => cases hcr; rfl
      rw [blankA_ctx] at hpair hn hQ
      rw [hlen, blankA_ctx] at hn hc
      have hK : ∀ v : Val α, v.known = true ↔ ∃ x, v = .f x := fun v => by cases v <;> simp [Val.known]
      have hn' : (ctxO Val.known (CMem.home A.length) A A).P.length = (ctxO Val.known j A m).P.length := by simp [ctxO, CMem.home, hj]
      have hc' : (ctxO Val.known (CMem.home A.length) A A).P.length = ((blankA u 0 A).map (Block.abs Val.known)).length := by simp [ctxO, CMem.home, hlen]
      rw [← hc'] at hro
      have eA : A.length = (ctxO Val.known (home A.length) A A).M.length + ((ctxO Val.known (home A.length) A A).P.length - (ctxO Val.known (home A.length) A A).P.length) := by
        simp [ctxO]
      have em : m.length = (ctxO Val.known j A m).M.length + ((ctxO Val.known (home A.length) A A).P.length - (ctxO Val.known j A m).P.length) := by
        rw [hn']; simp [ctxO]
      obtain ⟨o, o', x1, x2, x3⟩ := late_sound hn' hK hK hP hQ e.fn.body (b1 := A.length) (b2 := m.length) hro (hpair.enter e.fn.locals)
        ((ERel.pe hj ha).append e.fn.nregs) (Nat.le_refl _) eA em
      obtain ⟨v, m1, k1, z1, z2, -, -, z5⟩ := x3.leave hn' hP hQ hD (Nat.le_of_eq hc') (i := A.length) (j := m.length) (by rw [← hc']; exact eA) (by rw [← hc']; exact em)
      unfold Fn.run at h ⊢
      rw [x1] at h
      rw [x2]
      simp only [z1, Option.some.injEq, Prod.mk.injEq] at h
      obtain ⟨rfl, rfl⟩ := h
      simp only [z2, Option.some.injEq, Prod.mk.injEq, true_and]
      exact z5.done hj d1 d3
    · simp at hD
  · simp at he

/-- `transferP` for the decision-tree run, with the written regions listed -/
theorem transferPart {l : Cells} {u : Spots} {e : Entry} (he : e.part (.but l) u = true) {j : List Ptr} {A A0 A' m : Mem α} {args args' : List (Val α)} {r : Option (Val α)}
    (h0 : blankA u 0 A = A0) (hR : RO true j A0 m) (hc : Clears j l) (ha : ERel j args args') {t : DT (Option (Option (Val α) × Mem α))} (ht : e.fn.runT A args = t) (h : t.val = some (r, A'))
    (hA : A.map (Block.abs Val.known) = Shape.arrays e.args) (hargs : args.map Val.abs = Shape.avs 0 e.args) (hp : flat A = true)
    {w : List (Ptr × List (Val α))} (hl : outs j A' = w) : e.fn.run m args' = some (r, writes m w) := by
  subst h0 hl
  exact transferP he hA hargs hp hR (hc.free _ m) ha (by rw [← runT_val, ht, h])

/-- `transferPart` for a function without outputs -/
theorem transferPart0 {u : Spots} {e : Entry} (he : e.part (.but []) u = true) {j : List Ptr} {A A0 A' m : Mem α} {args args' : List (Val α)} {r : Option (Val α)}
    (h0 : blankA u 0 A = A0) (hR : RO true j A0 m) (ha : ERel j args args') {t : DT (Option (Option (Val α) × Mem α))} (ht : e.fn.runT A args = t) (h : t.val = some (r, A'))
    (hA : A.map (Block.abs Val.known) = Shape.arrays e.args) (hargs : args.map Val.abs = Shape.avs 0 e.args) (hp : flat A = true)
    (hl : outs j A' = []) : e.fn.run m args' = some (r, m) :=
  transferPart he h0 hR .nil ha ht h hA hargs hp hl

end Cglm.CMem
