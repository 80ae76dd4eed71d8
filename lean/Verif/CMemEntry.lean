import Verif.CMemSafe

/-!
# Functions with the sizes of their arguments
-/

namespace Cglm.CMem

/-- an argument without its value: an input, output or changed array of so many cells, or a scalar -/
inductive Shape where
  | inp (n : Nat) | out (n : Nat) | io (n : Nat) | f | i | b

/-- a function with its arguments and its result -/
structure Entry where
  fn : Fn
  args : List Shape
  ret : Ret

def Shape.arrays : List Shape → List AB
  | [] => []
  | .inp n :: l => ⟨false, List.replicate n true⟩ :: arrays l
  | .out n :: l => ⟨true, List.replicate n false⟩ :: arrays l
  | .io n :: l => ⟨true, List.replicate n true⟩ :: arrays l
  | _ :: l => arrays l
def Shape.done : List Shape → List AB
  | [] => []
  | .inp n :: l => ⟨false, List.replicate n true⟩ :: done l
  | .out n :: l => ⟨true, List.replicate n true⟩ :: done l
  | .io n :: l => ⟨true, List.replicate n true⟩ :: done l
  | _ :: l => done l
def Shape.avs (k : Nat) : List Shape → List AV
  | [] => []
  | .inp _ :: l | .out _ :: l | .io _ :: l => .p k 0 :: avs (k + 1) l
  | .f :: l => .f :: avs k l
  | .i :: l => .i :: avs k l
  | .b :: l => .b :: avs k l

/-- the analysis of `CMemSafe` accepts the function -/
def Entry.ok (e : Entry) : Bool := e.fn.safe (Shape.arrays e.args) (Shape.avs 0 e.args) == some (e.ret.av, Shape.done e.args)

variable {α : Type}

def Arg.shape : Arg α → Shape
  | .inp _ n => .inp n
  | .out _ n => .out n
  | .io _ n => .io n
  | .f _ => .f
  | .i _ => .i
  | .b _ => .b

theorem Arg.arrays_shape (l : List (Arg α)) : Arg.arrays l = Shape.arrays (l.map Arg.shape) := by
  induction l with
  | nil => rfl
  | cons a l ih => cases a <;> simp [Arg.arrays, Shape.arrays, Arg.shape, ih]
theorem Arg.done_shape (l : List (Arg α)) : Arg.done l = Shape.done (l.map Arg.shape) := by
  induction l with
  | nil => rfl
  | cons a l ih => cases a <;> simp [Arg.done, Shape.done, Arg.shape, ih]
theorem Arg.avs_shape (l : List (Arg α)) : ∀ k, Arg.avs k l = Shape.avs k (l.map Arg.shape) := by
  induction l with
  | nil => intro k; rfl
  | cons a l ih => intro k; cases a <;> simp [Arg.avs, Shape.avs, Arg.shape, ih]

/-- A function whose entry the analysis accepts is safe on arguments of these shapes, however they overlap. -/
theorem safe_entry [Add α] [Sub α] [Mul α] [Div α] [Neg α] [CFloat α] {e : Entry} (he : e.ok = true) (l : List (Arg α)) {m : Mem α}
    (hl : Arg.AllOk IsF m l) (hs : l.map Arg.shape = e.args) : Safe m (Arg.outs l) e.ret (e.fn.run m (l.map Arg.val)) := by
  refine safe_run l hl e.ret ?_
  rw [Arg.arrays_shape, Arg.avs_shape, Arg.done_shape, hs]
  exact eq_of_beq he

end Cglm.CMem
