import Verif.CMemOver
import Verif.CMemILate
import Verif.CMemIEntry

/-!
# Calls of integer functions whose outputs overlap their inputs
-/

namespace Cglm.CMem

/-- the analysis of `CMemILate` accepts the function -/
def IEntry.late (up : Hit) (e : IEntry) : Bool :=
  match e.fn.late up (Shape.arrays e.args) (Shape.avs 0 e.args) with
  | some (_, D) => lateOk (Shape.arrays e.args) D
  | none => false

variable {α : Type}

/-- part of an object -/
theorem HoldsI.within {m : Mem α} {b o : Nat} {w : Bool} {cs : List (Val α)} {vs : List Int32} (h : m[b]? = some ⟨w, cs⟩)
    (e : (cs.drop o).take vs.length = icells vs) : HoldsI m (b, o) vs := by
  intro k x hx
  have hk := (List.getElem?_eq_some_iff.mp hx).1
  have := congrArg (fun l => l[k]?) e
  simp only [List.getElem?_take, if_pos hk, List.getElem?_drop, icells, List.getElem?_map, hx, Option.map_some] at this
  simp [cell, h, this]

variable [Add α] [Sub α] [Mul α] [Div α] [Neg α] [CFloat α] [CIntConv α]

/-- A defined canonical run determines the run in every memory, even where outputs overlap inputs. -/
theorem itransferO {up : Bool} {e : IEntry} (he : e.late (.of up) = true) {j : List Ptr} {A A' m : Mem α} {args args' : List (Val α)} {r : Option (Val α)}
    (hR : RO up j A m) (ha : ERel j args args') (h : e.fn.run A args = some (r, A'))
    (hA : A.map (Block.abs Val.knownI) = Shape.arrays e.args) (hargs : args.map Val.abs = Shape.avs 0 e.args)
    {l : List (Ptr × List (Val α))} (hl : outs j A' = l) : e.fn.run m args' = some (r, writes m l) := by
  subst hl
  unfold IEntry.late at he
  split at he
  · rename_i av D hD
    obtain ⟨d1, d2, d3⟩ := lateOk_spec he
    rw [← hA] at hD d1 d2 d3
    rw [← hargs] at hD
    unfold IFn.late at hD
    split at hD
    · rename_i ro hro
      obtain ⟨hn, hc, hP, hQ⟩ := hR.frames d2
      have hK : ∀ v : Val α, v.knownI = true ↔ ∃ x, v = .i x := fun v => by cases v <;> simp [Val.knownI]
      rw [← hc] at hro
      have eA : A.length = (ctxO Val.knownI (home A.length) A A).M.length + ((ctxO Val.knownI (home A.length) A A).P.length - (ctxO Val.knownI (home A.length) A A).P.length) := by
        simp [ctxO]
      have em : m.length = (ctxO Val.knownI j A m).M.length + ((ctxO Val.knownI (home A.length) A A).P.length - (ctxO Val.knownI j A m).P.length) := by
        rw [hn]; simp [ctxO]
      unfold IFn.run at h ⊢
      split at h
      · rename_i o ho
        obtain ⟨o', x2, x3⟩ := ilate_sound hn hK hK hP hQ e.fn.body (b1 := A.length) (b2 := m.length) hro ho ((hR.pair rfl hR.free).enter e.fn.locals)
          ((ERel.pe hR.len ha).append e.fn.nregs) (Nat.le_refl _) eA em
        obtain ⟨v, m1, k1, z1, z2, -, -, z5⟩ := x3.leave hn hP hQ hD (Nat.le_of_eq hc) (i := A.length) (j := m.length) (by rw [← hc]; exact eA) (by rw [← hc]; exact em)
        rw [z1] at h
        rw [x2]
        simp only [Option.some.injEq, Prod.mk.injEq] at h
        obtain ⟨rfl, rfl⟩ := h
        simp only [z2, Option.some.injEq, Prod.mk.injEq, true_and]
        exact z5.done hR.len d1 d3
      · simp at h
    · simp at hD
  · simp at he

end Cglm.CMem
