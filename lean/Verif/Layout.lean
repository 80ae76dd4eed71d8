/-!
# Memory layout of C types

Sizes, alignments and member offsets of types built from four-byte scalars, arrays, structures, unions and alignment
attributes, by the rules every ABI cglm is built for follows: members in order, each at the next multiple of its alignment; the
members of a union all at offset 0; the size of an aggregate rounded up to its alignment; an alignment attribute on a typedef or
aggregate raises the alignment.  Simplified: `float` and `int` have four bytes and alignment 4.
-/

namespace Cglm.Layout

/-- `float` or `int` -/
inductive Scalar where
  | float
  | int
deriving DecidableEq, Repr

mutual
/-- a C type; a member with the empty name is an anonymous structure -/
inductive CTy where
  | scalar (s : Scalar)
  | arr (n : Nat) (t : CTy)
  | struct (fs : Members)
  | union (fs : Members)
  /-- `typedef __attribute((aligned(a))) t` -/
  | alignedTypedef (a : Nat) (t : CTy)
  /-- `union __attribute((aligned(a))) { … }`: the size is rounded up too -/
  | alignedUnion (a : Nat) (fs : Members)
/-- the members of an aggregate -/
inductive Members where
  | nil
  | cons (name : String) (t : CTy) (rest : Members)
end

/-- the next multiple of `a` -/
def roundUp (n a : Nat) : Nat := (n + a - 1) / a * a

mutual
/-- `_Alignof` -/
def CTy.align : CTy → Nat
  | .scalar _ => 4
  | .arr _ t => t.align
  | .struct fs => fs.align
  | .union fs => fs.align
  | .alignedTypedef a t => max a t.align
  | .alignedUnion a fs => max a fs.align
/-- the strictest alignment of the members -/
def Members.align : Members → Nat
  | .nil => 1
  | .cons _ t r => max t.align r.align
end

mutual
/-- `sizeof` -/
def CTy.size : CTy → Nat
  | .scalar _ => 4
  | .arr n t => n * t.size
  | .struct fs => roundUp (fs.endAt 0) fs.align
  | .union fs => roundUp fs.maxSize fs.align
  | .alignedTypedef _ t => t.size
  | .alignedUnion a fs => roundUp fs.maxSize (max a fs.align)
/-- the end of the last member, when the first may start at `o` -/
def Members.endAt (o : Nat) : Members → Nat
  | .nil => o
  | .cons _ t r => r.endAt (roundUp o t.align + t.size)
/-- the size of the largest member -/
def Members.maxSize : Members → Nat
  | .nil => 0
  | .cons _ t r => max t.size r.maxSize
end

/-- one step from an object to a part of it -/
inductive Sel where
  | field (name : String)
  | index (i : Nat)
deriving DecidableEq, Repr

mutual
/-- the place and type of a part -/
def CTy.step (s : Sel) : CTy → Option (Nat × CTy)
  | .scalar _ => none
  | .arr n t =>
    match s with
    | .index i => if i < n then some (i * t.size, t) else none
    | .field _ => none
  | .struct fs =>
    match s with
    | .field f => fs.inStruct f 0
    | .index _ => none
  | .union fs =>
    match s with
    | .field f => fs.inUnion f
    | .index _ => none
  | .alignedTypedef _ t => t.step s
  | .alignedUnion _ fs =>
    match s with
    | .field f => fs.inUnion f
    | .index _ => none
/-- the member `f` of a structure, when the first member may start at `o`; members of anonymous structures are found too -/
def Members.inStruct (f : String) (o : Nat) : Members → Option (Nat × CTy)
  | .nil => none
  | .cons g t r =>
    let here := roundUp o t.align
    if g = f then some (here, t)
    else
      match (if g = "" then t.step (.field f) else none) with
      | some (p, u) => some (here + p, u)
      | none => r.inStruct f (here + t.size)
/-- the member `f` of a union -/
def Members.inUnion (f : String) : Members → Option (Nat × CTy)
  | .nil => none
  | .cons g t r =>
    if g = f then some (0, t)
    else
      match (if g = "" then t.step (.field f) else none) with
      | some x => some x
      | none => r.inUnion f
end

/-- the place and type of the part at the end of a path such as `.col[1].y` -/
def CTy.part (t : CTy) : List Sel → Option (Nat × CTy)
  | [] => some (0, t)
  | s :: p =>
    match t.step s with
    | none => none
    | some (o, u) =>
      match u.part p with
      | none => none
      | some (o', v) => some (o + o', v)

/-- the byte offset of a scalar part -/
def CTy.scalarAt (t : CTy) (p : List Sel) : Option (Nat × Scalar) :=
  match t.part p with
  | some (o, .scalar s) => some (o, s)
  | _ => none

end Cglm.Layout
