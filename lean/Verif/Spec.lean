import Verif.Base
import Mathlib.LinearAlgebra.Matrix.Notation
import Mathlib.Algebra.Quaternion
import Mathlib.Data.Real.Basic
import Mathlib.Analysis.Real.Sqrt
import Mathlib.LinearAlgebra.UnitaryGroup
import Mathlib.Analysis.SpecialFunctions.Trigonometric.Basic

/-!
# Specification vocabulary

How the arrays of cglm denote mathematical objects.  A matrix array is column-major: `m[i][j]` (`ci`, component `j`) is
the entry in row `j`, column `i`.
-/

namespace Cglm

variable {α : Type}

def V2.vec (v : V2 α) : Fin 2 → α := ![v.x, v.y]
def V3.vec (v : V3 α) : Fin 3 → α := ![v.x, v.y, v.z]
def V4.vec (v : V4 α) : Fin 4 → α := ![v.x, v.y, v.z, v.w]
def M2.mat (m : M2 α) : Matrix (Fin 2) (Fin 2) α := !![m.c0.x, m.c1.x; m.c0.y, m.c1.y]
def M3.mat (m : M3 α) : Matrix (Fin 3) (Fin 3) α :=
  !![m.c0.x, m.c1.x, m.c2.x; m.c0.y, m.c1.y, m.c2.y; m.c0.z, m.c1.z, m.c2.z]
def M4.mat (m : M4 α) : Matrix (Fin 4) (Fin 4) α :=
  !![m.c0.x, m.c1.x, m.c2.x, m.c3.x; m.c0.y, m.c1.y, m.c2.y, m.c3.y;
     m.c0.z, m.c1.z, m.c2.z, m.c3.z; m.c0.w, m.c1.w, m.c2.w, m.c3.w]
/-- `mat2x3`: two columns of three, a 3-row 2-column matrix. -/
def M2x3.mat (m : M2x3 α) : Matrix (Fin 3) (Fin 2) α := !![m.c0.x, m.c1.x; m.c0.y, m.c1.y; m.c0.z, m.c1.z]
def M2x4.mat (m : M2x4 α) : Matrix (Fin 4) (Fin 2) α :=
  !![m.c0.x, m.c1.x; m.c0.y, m.c1.y; m.c0.z, m.c1.z; m.c0.w, m.c1.w]
def M3x2.mat (m : M3x2 α) : Matrix (Fin 2) (Fin 3) α := !![m.c0.x, m.c1.x, m.c2.x; m.c0.y, m.c1.y, m.c2.y]
def M3x4.mat (m : M3x4 α) : Matrix (Fin 4) (Fin 3) α :=
  !![m.c0.x, m.c1.x, m.c2.x; m.c0.y, m.c1.y, m.c2.y; m.c0.z, m.c1.z, m.c2.z; m.c0.w, m.c1.w, m.c2.w]
def M4x2.mat (m : M4x2 α) : Matrix (Fin 2) (Fin 4) α :=
  !![m.c0.x, m.c1.x, m.c2.x, m.c3.x; m.c0.y, m.c1.y, m.c2.y, m.c3.y]
def M4x3.mat (m : M4x3 α) : Matrix (Fin 3) (Fin 4) α :=
  !![m.c0.x, m.c1.x, m.c2.x, m.c3.x; m.c0.y, m.c1.y, m.c2.y, m.c3.y; m.c0.z, m.c1.z, m.c2.z, m.c3.z]

/-- the columns of a square matrix -/
def M2.col (m : M2 α) : Fin 2 → V2 α := ![m.c0, m.c1]
def M3.col (m : M3 α) : Fin 3 → V3 α := ![m.c0, m.c1, m.c2]
def M4.col (m : M4 α) : Fin 4 → V4 α := ![m.c0, m.c1, m.c2, m.c3]

/-- the transposition of `i` and `j` -/
def swapIdx {n : ℕ} (i j c : Fin n) : Fin n := if c = i then j else if c = j then i else c

/-- A `versor` (x,y,z,w) is the quaternion w + xi + yj + zk (include/cglm/types.h:83). -/
def V4.quat (q : V4 ℝ) : Quaternion ℝ := ⟨q.w, q.x, q.y, q.z⟩

/-- Euclidean dot product and length -/
def V2.dot (a b : V2 ℝ) : ℝ := a.x * b.x + a.y * b.y
def V3.dot (a b : V3 ℝ) : ℝ := a.x * b.x + a.y * b.y + a.z * b.z
def V4.dot (a b : V4 ℝ) : ℝ := a.x * b.x + a.y * b.y + a.z * b.z + a.w * b.w
noncomputable def V2.len (v : V2 ℝ) : ℝ := √(v.dot v)
noncomputable def V3.len (v : V3 ℝ) : ℝ := √(v.dot v)
noncomputable def V4.len (v : V4 ℝ) : ℝ := √(v.dot v)
/-- scaling -/
def V2.smul (s : ℝ) (v : V2 ℝ) : V2 ℝ := ⟨s * v.x, s * v.y⟩
def V3.smul (s : ℝ) (v : V3 ℝ) : V3 ℝ := ⟨s * v.x, s * v.y, s * v.z⟩
def V4.smul (s : ℝ) (v : V4 ℝ) : V4 ℝ := ⟨s * v.x, s * v.y, s * v.z, s * v.w⟩
def V3.add (a b : V3 ℝ) : V3 ℝ := ⟨a.x + b.x, a.y + b.y, a.z + b.z⟩
def V3.sub (a b : V3 ℝ) : V3 ℝ := ⟨a.x - b.x, a.y - b.y, a.z - b.z⟩
/-- the cross product -/
def V3.cross (a b : V3 ℝ) : V3 ℝ := ⟨a.y * b.z - a.z * b.y, a.z * b.x - a.x * b.z, a.x * b.y - a.y * b.x⟩

/-- `FLT_EPSILON` of binary32, 2^-23 -/
noncomputable def FLT_EPSILON : ℝ := 1 / 8388608

/-- a vector as a pure quaternion -/
def V3.pure (v : V3 ℝ) : Quaternion ℝ := ⟨0, v.x, v.y, v.z⟩

/-- proper rotations: orthogonal, determinant 1 -/
def M3.IsRotation (m : M3 ℝ) : Prop := m.mat ∈ Matrix.specialOrthogonalGroup (Fin 3) ℝ

/-- the 4x4 matrix with 3x3 block `m` and no translation -/
def M3.toM4 (m : M3 α) [Zero α] [One α] : M4 α :=
  ⟨⟨m.c0.x, m.c0.y, m.c0.z, 0⟩, ⟨m.c1.x, m.c1.y, m.c1.z, 0⟩, ⟨m.c2.x, m.c2.y, m.c2.z, 0⟩, ⟨0, 0, 0, 1⟩⟩

/-- a point or direction with its homogeneous coordinate -/
def V3.hom (v : V3 α) (w : α) : V4 α := ⟨v.x, v.y, v.z, w⟩

/-- the upper left 3x3 block -/
def M4.block (m : M4 α) : M3 α := ⟨⟨m.c0.x, m.c0.y, m.c0.z⟩, ⟨m.c1.x, m.c1.y, m.c1.z⟩, ⟨m.c2.x, m.c2.y, m.c2.z⟩⟩

/-- the unit vector in the direction of `v` -/
noncomputable def V3.unit (v : V3 ℝ) : V3 ℝ := v.smul (1 / v.len)

/-- rotation of `v` by `θ` about the unit axis `u` (Rodrigues' formula) -/
noncomputable def rodrigues (θ : ℝ) (u v : V3 ℝ) : V3 ℝ :=
  ((v.smul (Real.cos θ)).add ((u.cross v).smul (Real.sin θ))).add (u.smul ((1 - Real.cos θ) * u.dot v))
/-- its matrix: the columns are the images of the basis vectors -/
noncomputable def rotMat (θ : ℝ) (u : V3 ℝ) : M3 ℝ :=
  ⟨rodrigues θ u ⟨1, 0, 0⟩, rodrigues θ u ⟨0, 1, 0⟩, rodrigues θ u ⟨0, 0, 1⟩⟩

/-- translation and scaling matrices -/
def transMat (v : V3 ℝ) : Matrix (Fin 4) (Fin 4) ℝ := !![1, 0, 0, v.x; 0, 1, 0, v.y; 0, 0, 1, v.z; 0, 0, 0, 1]
def scaleMat (v : V3 ℝ) : Matrix (Fin 4) (Fin 4) ℝ := !![v.x, 0, 0, 0; 0, v.y, 0, 0; 0, 0, v.z, 0; 0, 0, 0, 1]

/-- last row (0,0,0,1) -/
def M4.Affine (m : M4 ℝ) : Prop := m.c0.w = 0 ∧ m.c1.w = 0 ∧ m.c2.w = 0 ∧ m.c3.w = 1

end Cglm
