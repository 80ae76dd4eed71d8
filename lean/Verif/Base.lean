/-!
# Value types and scalar operations of the model

cglm's `vec2/vec3/vec4`, `mat*`, box and plane arrays (include/cglm/types.h:76-92) are C arrays of `float`.
The value-level model represents an array by a structure with one field per element; a matrix is a structure
of columns because cglm's matrices are arrays of columns (`mat4` is `vec4[4]`, include/cglm/types.h:90).

`CFloat` lists what the C code asks of `float` besides `+ - * /` and unary minus.  Keeping the ring operations
as the ordinary Lean classes lets the same definitions run over `ℝ` (the mathematical reading) and over the
IEEE-754 binary32 model (`Verif.F32`).
-/

namespace Cglm

/-- `float[2]`, e.g. `vec2` (include/cglm/types.h:80). -/
structure V2 (α : Type) where
  x : α
  y : α
deriving DecidableEq, Repr, Inhabited

/-- `float[3]`, e.g. `vec3` (include/cglm/types.h:81). -/
structure V3 (α : Type) where
  x : α
  y : α
  z : α
deriving DecidableEq, Repr, Inhabited

/-- `float[4]`: `vec4`, `versor` = (x,y,z,w), plane = (a,b,c,d), sphere = (centre, radius)
(include/cglm/types.h:82-83). -/
structure V4 (α : Type) where
  x : α
  y : α
  z : α
  w : α
deriving DecidableEq, Repr, Inhabited

/-- A plain `float[6]` buffer behind a `float *` parameter. -/
structure V6 (α : Type) where
  e0 : α
  e1 : α
  e2 : α
  e3 : α
  e4 : α
  e5 : α
deriving DecidableEq, Repr, Inhabited

/-- A plain `float[8]` buffer behind a `float *` parameter. -/
structure V8 (α : Type) where
  e0 : α
  e1 : α
  e2 : α
  e3 : α
  e4 : α
  e5 : α
  e6 : α
  e7 : α
deriving DecidableEq, Repr, Inhabited

/-- A plain `float[9]` buffer behind a `float *` parameter. -/
structure V9 (α : Type) where
  e0 : α
  e1 : α
  e2 : α
  e3 : α
  e4 : α
  e5 : α
  e6 : α
  e7 : α
  e8 : α
deriving DecidableEq, Repr, Inhabited

/-- A plain `float[12]` buffer behind a `float *` parameter. -/
structure V12 (α : Type) where
  e0 : α
  e1 : α
  e2 : α
  e3 : α
  e4 : α
  e5 : α
  e6 : α
  e7 : α
  e8 : α
  e9 : α
  e10 : α
  e11 : α
deriving DecidableEq, Repr, Inhabited

/-- A plain `float[16]` buffer behind a `float *` parameter. -/
structure V16 (α : Type) where
  e0 : α
  e1 : α
  e2 : α
  e3 : α
  e4 : α
  e5 : α
  e6 : α
  e7 : α
  e8 : α
  e9 : α
  e10 : α
  e11 : α
  e12 : α
  e13 : α
  e14 : α
  e15 : α
deriving DecidableEq, Repr, Inhabited

/-- `mat2` = `vec2[2]`; also a 2D box (min, max) (include/cglm/types.h, include/cglm/aabb2d.h).  Field `ci` is column (row of the C array) `i`. -/
structure M2 (α : Type) where
  c0 : V2 α
  c1 : V2 α
deriving DecidableEq, Repr, Inhabited

/-- `mat3` = `vec3[3]`.  Field `ci` is column (row of the C array) `i`. -/
structure M3 (α : Type) where
  c0 : V3 α
  c1 : V3 α
  c2 : V3 α
deriving DecidableEq, Repr, Inhabited

/-- `mat4` = `vec4[4]`; also four frustum corners.  Field `ci` is column (row of the C array) `i`. -/
structure M4 (α : Type) where
  c0 : V4 α
  c1 : V4 α
  c2 : V4 α
  c3 : V4 α
deriving DecidableEq, Repr, Inhabited

/-- `mat2x3` = `vec3[2]`; also an axis-aligned box (min, max).  Field `ci` is column (row of the C array) `i`. -/
structure M2x3 (α : Type) where
  c0 : V3 α
  c1 : V3 α
deriving DecidableEq, Repr, Inhabited

/-- `mat2x4` = `vec4[2]`.  Field `ci` is column (row of the C array) `i`. -/
structure M2x4 (α : Type) where
  c0 : V4 α
  c1 : V4 α
deriving DecidableEq, Repr, Inhabited

/-- `mat3x2` = `vec2[3]`; also the points of a 2D affine transform.  Field `ci` is column (row of the C array) `i`. -/
structure M3x2 (α : Type) where
  c0 : V2 α
  c1 : V2 α
  c2 : V2 α
deriving DecidableEq, Repr, Inhabited

/-- `mat3x4` = `vec4[3]`.  Field `ci` is column (row of the C array) `i`. -/
structure M3x4 (α : Type) where
  c0 : V4 α
  c1 : V4 α
  c2 : V4 α
deriving DecidableEq, Repr, Inhabited

/-- `mat4x2` = `vec2[4]`.  Field `ci` is column (row of the C array) `i`. -/
structure M4x2 (α : Type) where
  c0 : V2 α
  c1 : V2 α
  c2 : V2 α
  c3 : V2 α
deriving DecidableEq, Repr, Inhabited

/-- `mat4x3` = `vec3[4]`.  Field `ci` is column (row of the C array) `i`. -/
structure M4x3 (α : Type) where
  c0 : V3 α
  c1 : V3 α
  c2 : V3 α
  c3 : V3 α
deriving DecidableEq, Repr, Inhabited

/-- Six frustum planes, `vec4[6]`.  Field `ci` is column (row of the C array) `i`. -/
structure M6x4 (α : Type) where
  c0 : V4 α
  c1 : V4 α
  c2 : V4 α
  c3 : V4 α
  c4 : V4 α
  c5 : V4 α
deriving DecidableEq, Repr, Inhabited

/-- Eight frustum corners, `vec4[8]`.  Field `ci` is column (row of the C array) `i`. -/
structure M8x4 (α : Type) where
  c0 : V4 α
  c1 : V4 α
  c2 : V4 α
  c3 : V4 α
  c4 : V4 α
  c5 : V4 α
  c6 : V4 α
  c7 : V4 α
deriving DecidableEq, Repr, Inhabited

/-- What the C code uses of `float` beyond `+ - * /` and negation: literals, comparisons and libm calls. -/
class CFloat (α : Type) where
  /-- a C floating literal (rounded to `float` when the scalar type is the IEEE one) -/
  lit : Rat → α
  /-- `a < b` -/
  flt : α → α → Bool
  /-- `a <= b` -/
  fle : α → α → Bool
  /-- `a == b` -/
  feq : α → α → Bool
  sqrtf : α → α
  sinf : α → α
  cosf : α → α
  tanf : α → α
  asinf : α → α
  acosf : α → α
  atanf : α → α
  atan2f : α → α → α
  floorf : α → α
  fabsf : α → α
  fmodf : α → α → α
  powf : α → α → α
  fminf : α → α → α
  /-- value returned by `modff(x, &ip)`: the fractional part, with the sign of `x` -/
  modfFrac : α → α
  isnanf : α → Bool
  isinff : α → Bool

export CFloat (lit flt fle feq sqrtf sinf cosf tanf asinf acosf atanf atan2f floorf fabsf fmodf powf fminf modfFrac isnanf isinff)

/-- `(float)i` for an `int` -/
def ofInt {α : Type} [CFloat α] (i : Int) : α := lit (i : Rat)

/-- C truth value as `int` -/
def b2i (b : Bool) : Int := if b then 1 else 0
/-- `i < j` on `int` -/
def ilt (i j : Int) : Bool := decide (i < j)
/-- `i <= j` on `int` -/
def ile (i j : Int) : Bool := decide (i ≤ j)
/-- `i > j` on `int` -/
def igt (i j : Int) : Bool := decide (j < i)
/-- `i >= j` on `int` -/
def ige (i j : Int) : Bool := decide (j ≤ i)
/-- `i == j` on `int` -/
def ieq (i j : Int) : Bool := decide (i = j)
/-- `i != j` on `int` -/
def ine (i j : Int) : Bool := !decide (i = j)

end Cglm
