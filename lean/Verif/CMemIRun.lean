import Verif.CMemI
import Verif.CMemTypes

/-!
# Stepping through integer-vector functions

`irun h [I.f] [C.f]` proves a canonical run of `C.f` from `h : I.f args = some r`: the operations that succeed in `h`
are exactly those the run performs.
-/

namespace Cglm.CMem

theorem IC.app_lt (x y : Int32) : IC.app .lt x.toInt y.toInt = I32.lt x y := by simp [IC.app, ilt, I32.lt]
theorem IC.app_le (x y : Int32) : IC.app .le x.toInt y.toInt = I32.le x y := by simp [IC.app, ile, I32.le]
theorem IC.app_gt (x y : Int32) : IC.app .gt x.toInt y.toInt = I32.gt x y := by simp [IC.app, igt, I32.gt]
theorem IC.app_ge (x y : Int32) : IC.app .ge x.toInt y.toInt = I32.ge x y := by simp [IC.app, ige, I32.ge]
theorem IC.app_eq (x y : Int32) : IC.app .eq x.toInt y.toInt = I32.eq x y := by simp [IC.app, ieq, I32.eq]
theorem IC.app_ne (x y : Int32) : IC.app .ne x.toInt y.toInt = I32.ne x y := by simp [IC.app, ine, I32.ne]

open Lean Parser.Tactic in
/-- prove a canonical run from the value-level result -/
macro "irun" h:ident "[" vs:ident,* "]" "[" ds:ident,* "]" : tactic => do
  let vs : TSyntaxArray ``simpLemma ← vs.getElems.mapM fun v => `(simpLemma| $v:ident)
  let ds : TSyntaxArray ``simpLemma ← ds.getElems.mapM fun v => `(simpLemma| $v:ident)
  `(tactic| (
    simp only [$vs,*, Option.pure_def, Option.bind_eq_bind, Option.bind_assoc, Option.bind_some] at $h:ident
    try simp only [Option.bind_eq_some_iff, Option.some.injEq] at $h:ident
    repeat' (first | (obtain ⟨_, hx, $h:ident⟩ := $h:ident; try (split at hx <;> (simp only [Option.some.injEq] at hx; subst hx))) | (split at $h:ident))
    all_goals
      (try simp only [Option.some.injEq] at $h:ident)
      (try subst $h)
      (try simp only [Bool.not_eq_true] at *)
      simp -implicitDefEqProofs [$ds,*, IFn.run, IStmt.exec, IExpr.eval, Expr.eval, ievalArgs, load, put1, iret, IOp2.app, IOp1.app,
        F1.app, Out.leave, resume, fresh, icells, V2.list, V3.list, V4.list, IC.app_lt, IC.app_gt, IC.app_le, IC.app_ge, IC.app_eq, IC.app_ne, Int32.ofInt_toInt, *]))

/-! ## Clamping in place -/

/-- the value `clamp` leaves in a component -/
def clampI (lo hi x : Int32) : Int32 := if I32.lt x lo then lo else if I32.gt x hi then hi else x

variable {α : Type} [Add α] [Sub α] [Mul α] [Div α] [Neg α] [CFloat α] [CIntConv α]

/-- clamp the cell `p` points to between two scalars -/
def clampS (p : IExpr) : IStmt :=
  .ite (.ic .lt (.load p) (.reg 1)) (.store p (.reg 1)) (.ite (.ic .gt (.load p) (.reg 2)) (.store p (.reg 2)) .skip)

theorem clampS_exec {p : IExpr} {cs : List Int32} {k base : Nat} {lo hi x : Int32} (hx : cs[k]? = some x)
    (hp : p.eval (α := α) base [.p 0 0, .i lo.toInt, .i hi.toInt] [⟨true, icells cs⟩] = some (.p 0 k)) :
    (clampS p).exec (α := α) base [.p 0 0, .i lo.toInt, .i hi.toInt] [⟨true, icells cs⟩] =
      some (.next [.p 0 0, .i lo.toInt, .i hi.toInt] [⟨true, icells (cs.set k (clampI lo hi x))⟩]) := by
  have e : (icells cs : List (Val α))[k]? = some (.i x.toInt) := by simp [icells, hx]
  have e1 : ∀ y : Int32, (icells cs : List (Val α)).set k (.i y.toInt) = icells (cs.set k y) := by
    intro y; simp [icells, List.map_set]
  rcases h1 : I32.lt x lo with _ | _
  · rcases h2 : I32.gt x hi with _ | _
    · have e2 : cs.set k x = cs := by
        apply List.ext_getElem?
        intro j
        rw [List.getElem?_set]
        split
        · rename_i hj
          subst hj
          split
          · exact hx.symm
          · rename_i hl
            rw [List.getElem?_eq_none (by omega)] at hx
            exact absurd hx (by simp)
        · rfl
      simp [clampS, IStmt.exec, IExpr.eval, hp, Expr.eval, load, e, IC.app_lt, IC.app_gt, h1, h2, clampI, e2]
    · simp [clampS, IStmt.exec, IExpr.eval, hp, Expr.eval, load, e, IC.app_lt, IC.app_gt, h1, h2, clampI, put1, e1]
  · simp [clampS, IStmt.exec, IExpr.eval, hp, Expr.eval, load, e, IC.app_lt, h1, clampI, put1, e1]

theorem iexec_seq {a b : IStmt} {base : Nat} {env env' : List (Val α)} {m m' : Mem α} (h : a.exec base env m = some (.next env' m')) :
    (IStmt.seq a b).exec base env m = b.exec base env' m' := by
  simp [IStmt.exec, h]

end Cglm.CMem
