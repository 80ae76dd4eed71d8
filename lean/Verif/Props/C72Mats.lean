/- Generated by tools/defdthms.py, joined by tools/merge.py; do not edit by hand. -/
import Verif.DefdTac
import Verif.Gen.Mat2
import Verif.Props.C72Vecs
import Verif.Gen.Mat2x3
import Verif.Gen.Mat2x4
import Verif.Gen.Mat3
import Verif.Gen.Mat3x2
import Verif.Gen.Mat3x4
import Verif.Gen.Mat4
import Verif.Gen.Mat4x2
import Verif.Gen.Mat4x3

section C72Mat2

/-! # C72: defined arithmetic, Mat2

Generated by tools/defdthms.py.  On defined arguments the function evaluated over `Dfd o`, where division by zero and
the like are visible, gives the (defined) result of the function over ℝ.  Where arguments are excluded, the
hypotheses say which. -/

namespace Cglm
open Dfd
variable {o : Orc}


@[dfd] theorem C72_mat2_make (src : V4 ℝ) :
    (glm_mat2_make (src.map ret) : M2 (Dfd o)) = (glm_mat2_make src).map ret := by
  dfd_step glm_mat2_make

@[dfd] theorem C72_mat2_copy (mat : M2 ℝ) :
    (glm_mat2_copy (mat.map ret) : M2 (Dfd o)) = (glm_mat2_copy mat).map ret := by
  dfd_step glm_mat2_copy

@[dfd] theorem C72_mat2_identity :
    (glm_mat2_identity : M2 (Dfd o)) = glm_mat2_identity.map ret := by
  dfd_step glm_mat2_identity

@[dfd] theorem C72_mat2_zero :
    (glm_mat2_zero : M2 (Dfd o)) = glm_mat2_zero.map ret := by
  dfd_step glm_mat2_zero

@[dfd] theorem C72_mat2_mul (m1 : M2 ℝ) (m2 : M2 ℝ) :
    (glm_mat2_mul (m1.map ret) (m2.map ret) : M2 (Dfd o)) = (glm_mat2_mul m1 m2).map ret := by
  dfd_step glm_mat2_mul

@[dfd] theorem C72_mat2_mulv (m : M2 ℝ) (v : V2 ℝ) :
    (glm_mat2_mulv (m.map ret) (v.map ret) : V2 (Dfd o)) = (glm_mat2_mulv m v).map ret := by
  dfd_step glm_mat2_mulv

@[dfd] theorem C72_mat2_transpose_to (mat : M2 ℝ) :
    (glm_mat2_transpose_to (mat.map ret) : M2 (Dfd o)) = (glm_mat2_transpose_to mat).map ret := by
  dfd_step glm_mat2_transpose_to

@[dfd] theorem C72_mat2_transpose (m : M2 ℝ) :
    (glm_mat2_transpose (m.map ret) : M2 (Dfd o)) = (glm_mat2_transpose m).map ret := by
  dfd_step glm_mat2_transpose

@[dfd] theorem C72_mat2_scale (m : M2 ℝ) (s : ℝ) :
    (glm_mat2_scale (m.map ret) (ret s) : M2 (Dfd o)) = (glm_mat2_scale m s).map ret := by
  dfd_step glm_mat2_scale

@[dfd] theorem C72_mat2_inv (mat : M2 ℝ)
    (h1 : glm_mat2_det mat ≠ 0) :
    (glm_mat2_inv (mat.map ret) : M2 (Dfd o)) = (glm_mat2_inv mat).map ret := by
  have e := mat2_inv_divisor h1
  dfd_step glm_mat2_inv

@[dfd] theorem C72_mat2_det (m : M2 ℝ) :
    (glm_mat2_det (m.map ret) : Dfd o) = ret (glm_mat2_det m) := by
  dfd_step glm_mat2_det

@[dfd] theorem C72_mat2_trace (m : M2 ℝ) :
    (glm_mat2_trace (m.map ret) : Dfd o) = ret (glm_mat2_trace m) := by
  dfd_step glm_mat2_trace

@[dfd] theorem C72_mat2_rmc (r : V2 ℝ) (m : M2 ℝ) (c : V2 ℝ) :
    (glm_mat2_rmc (r.map ret) (m.map ret) (c.map ret) : Dfd o) = ret (glm_mat2_rmc r m c) := by
  dfd_step glm_mat2_rmc

end Cglm

end C72Mat2

section C72Mat2x3

/-! # C72: defined arithmetic, Mat2x3

Generated by tools/defdthms.py.  On defined arguments the function evaluated over `Dfd o`, where division by zero and
the like are visible, gives the (defined) result of the function over ℝ.  Where arguments are excluded, the
hypotheses say which. -/

namespace Cglm
open Dfd
variable {o : Orc}


@[dfd] theorem C72_mat2x3_copy (src : M2x3 ℝ) :
    (glm_mat2x3_copy (src.map ret) : M2x3 (Dfd o)) = (glm_mat2x3_copy src).map ret := by
  dfd_step glm_mat2x3_copy

@[dfd] theorem C72_mat2x3_zero :
    (glm_mat2x3_zero : M2x3 (Dfd o)) = glm_mat2x3_zero.map ret := by
  dfd_step glm_mat2x3_zero

@[dfd] theorem C72_mat2x3_make (src : V6 ℝ) :
    (glm_mat2x3_make (src.map ret) : M2x3 (Dfd o)) = (glm_mat2x3_make src).map ret := by
  dfd_step glm_mat2x3_make

@[dfd] theorem C72_mat2x3_mul (m1 : M2x3 ℝ) (m2 : M3x2 ℝ) :
    (glm_mat2x3_mul (m1.map ret) (m2.map ret) : M3 (Dfd o)) = (glm_mat2x3_mul m1 m2).map ret := by
  dfd_step glm_mat2x3_mul

@[dfd] theorem C72_mat2x3_mulv (m : M2x3 ℝ) (v : V2 ℝ) :
    (glm_mat2x3_mulv (m.map ret) (v.map ret) : V3 (Dfd o)) = (glm_mat2x3_mulv m v).map ret := by
  dfd_step glm_mat2x3_mulv

@[dfd] theorem C72_mat2x3_transpose (src : M2x3 ℝ) :
    (glm_mat2x3_transpose (src.map ret) : M3x2 (Dfd o)) = (glm_mat2x3_transpose src).map ret := by
  dfd_step glm_mat2x3_transpose

@[dfd] theorem C72_mat2x3_scale (m : M2x3 ℝ) (s : ℝ) :
    (glm_mat2x3_scale (m.map ret) (ret s) : M2x3 (Dfd o)) = (glm_mat2x3_scale m s).map ret := by
  dfd_step glm_mat2x3_scale

end Cglm

end C72Mat2x3

section C72Mat2x4

/-! # C72: defined arithmetic, Mat2x4

Generated by tools/defdthms.py.  On defined arguments the function evaluated over `Dfd o`, where division by zero and
the like are visible, gives the (defined) result of the function over ℝ.  Where arguments are excluded, the
hypotheses say which. -/

namespace Cglm
open Dfd
variable {o : Orc}


@[dfd] theorem C72_mat2x4_copy (src : M2x4 ℝ) :
    (glm_mat2x4_copy (src.map ret) : M2x4 (Dfd o)) = (glm_mat2x4_copy src).map ret := by
  dfd_step glm_mat2x4_copy

@[dfd] theorem C72_mat2x4_zero :
    (glm_mat2x4_zero : M2x4 (Dfd o)) = glm_mat2x4_zero.map ret := by
  dfd_step glm_mat2x4_zero

@[dfd] theorem C72_mat2x4_make (src : V8 ℝ) :
    (glm_mat2x4_make (src.map ret) : M2x4 (Dfd o)) = (glm_mat2x4_make src).map ret := by
  dfd_step glm_mat2x4_make

@[dfd] theorem C72_mat2x4_mul (m1 : M2x4 ℝ) (m2 : M4x2 ℝ) :
    (glm_mat2x4_mul (m1.map ret) (m2.map ret) : M4 (Dfd o)) = (glm_mat2x4_mul m1 m2).map ret := by
  dfd_step glm_mat2x4_mul

@[dfd] theorem C72_mat2x4_mulv (m : M2x4 ℝ) (v : V2 ℝ) :
    (glm_mat2x4_mulv (m.map ret) (v.map ret) : V4 (Dfd o)) = (glm_mat2x4_mulv m v).map ret := by
  dfd_step glm_mat2x4_mulv

@[dfd] theorem C72_mat2x4_transpose (src : M2x4 ℝ) :
    (glm_mat2x4_transpose (src.map ret) : M4x2 (Dfd o)) = (glm_mat2x4_transpose src).map ret := by
  dfd_step glm_mat2x4_transpose

@[dfd] theorem C72_mat2x4_scale (m : M2x4 ℝ) (s : ℝ) :
    (glm_mat2x4_scale (m.map ret) (ret s) : M2x4 (Dfd o)) = (glm_mat2x4_scale m s).map ret := by
  dfd_step glm_mat2x4_scale

end Cglm

end C72Mat2x4

section C72Mat3

/-! # C72: defined arithmetic, Mat3

Generated by tools/defdthms.py.  On defined arguments the function evaluated over `Dfd o`, where division by zero and
the like are visible, gives the (defined) result of the function over ℝ.  Where arguments are excluded, the
hypotheses say which. -/

namespace Cglm
open Dfd
variable {o : Orc}


@[dfd] theorem C72_mat3_copy (mat : M3 ℝ) :
    (glm_mat3_copy (mat.map ret) : M3 (Dfd o)) = (glm_mat3_copy mat).map ret := by
  dfd_step glm_mat3_copy

@[dfd] theorem C72_mat3_identity :
    (glm_mat3_identity : M3 (Dfd o)) = glm_mat3_identity.map ret := by
  dfd_step glm_mat3_identity

@[dfd] theorem C72_mat3_zero :
    (glm_mat3_zero : M3 (Dfd o)) = glm_mat3_zero.map ret := by
  dfd_step glm_mat3_zero

@[dfd] theorem C72_mat3_mul (m1 : M3 ℝ) (m2 : M3 ℝ) :
    (glm_mat3_mul (m1.map ret) (m2.map ret) : M3 (Dfd o)) = (glm_mat3_mul m1 m2).map ret := by
  dfd_step glm_mat3_mul

@[dfd] theorem C72_mat3_transpose_to (m : M3 ℝ) :
    (glm_mat3_transpose_to (m.map ret) : M3 (Dfd o)) = (glm_mat3_transpose_to m).map ret := by
  dfd_step glm_mat3_transpose_to

@[dfd] theorem C72_mat3_transpose (m : M3 ℝ) :
    (glm_mat3_transpose (m.map ret) : M3 (Dfd o)) = (glm_mat3_transpose m).map ret := by
  dfd_step glm_mat3_transpose

@[dfd] theorem C72_mat3_mulv (m : M3 ℝ) (v : V3 ℝ) :
    (glm_mat3_mulv (m.map ret) (v.map ret) : V3 (Dfd o)) = (glm_mat3_mulv m v).map ret := by
  dfd_step glm_mat3_mulv

@[dfd] theorem C72_mat3_trace (m : M3 ℝ) :
    (glm_mat3_trace (m.map ret) : Dfd o) = ret (glm_mat3_trace m) := by
  dfd_step glm_mat3_trace

@[dfd] theorem C72_mat3_quat (m : M3 ℝ) :
    (glm_mat3_quat (m.map ret) : V4 (Dfd o)) = (glm_mat3_quat m).map ret := by
  by_cases c1 : fle (lit 0 : ℝ) (m.c0.x + m.c1.y + m.c2.z) = true
  · have e : 0 < lit 1 + (m.c0.x + m.c1.y + m.c2.z) := by
      simp only [fle, lit_real, decide_eq_true_eq] at c1 ⊢
      push_cast at c1 ⊢
      linarith
    simp (disch := dfd_side) only [glm_mat3_quat, dfd, c1, if_true]
  · have b1 : m.c0.x + m.c1.y + m.c2.z < 0 := by
      simpa only [fle, lit_real, decide_eq_true_eq, Rat.cast_zero, not_le] using c1
    by_cases c2 : (fle m.c1.y m.c0.x && fle m.c2.z m.c0.x) = true
    · have e : 0 < lit 1 - m.c1.y - m.c2.z + m.c0.x := by
        simp only [Bool.and_eq_true, fle, decide_eq_true_eq] at c2
        simp only [lit_real]; push_cast
        rcases le_total m.c1.y 0 with h | h <;> linarith [c2.1, c2.2]
      simp (disch := dfd_side) only [glm_mat3_quat, dfd, c1, c2, if_true, if_false, Bool.false_eq_true]
    · by_cases c3 : fle m.c2.z m.c1.y = true
      · have e : 0 < lit 1 - m.c0.x - m.c2.z + m.c1.y := by
          simp only [Bool.and_eq_true, fle, decide_eq_true_eq] at c2 c3
          simp only [lit_real]; push_cast
          have : m.c0.x < m.c1.y := by by_contra h; exact c2 ⟨by linarith, by linarith⟩
          rcases le_total m.c0.x 0 with h | h <;> linarith
        simp (disch := dfd_side) only [glm_mat3_quat, dfd, c1, c2, c3, if_true, if_false, Bool.false_eq_true]
      · have e : 0 < lit 1 - m.c0.x - m.c1.y + m.c2.z := by
          simp only [Bool.and_eq_true, fle, decide_eq_true_eq] at c2 c3
          simp only [lit_real]; push_cast
          have : m.c0.x < m.c2.z := by by_contra h; exact c2 ⟨by linarith, by linarith⟩
          rcases le_total m.c0.x 0 with h | h <;> linarith
        simp (disch := dfd_side) only [glm_mat3_quat, dfd, c1, c2, c3, if_false, Bool.false_eq_true]

@[dfd] theorem C72_mat3_scale (m : M3 ℝ) (s : ℝ) :
    (glm_mat3_scale (m.map ret) (ret s) : M3 (Dfd o)) = (glm_mat3_scale m s).map ret := by
  dfd_step glm_mat3_scale

@[dfd] theorem C72_mat3_det (mat : M3 ℝ) :
    (glm_mat3_det (mat.map ret) : Dfd o) = ret (glm_mat3_det mat) := by
  dfd_step glm_mat3_det

@[dfd] theorem C72_mat3_inv (mat : M3 ℝ)
    (h1 : glm_mat3_det mat ≠ 0) :
    (glm_mat3_inv (mat.map ret) : M3 (Dfd o)) = (glm_mat3_inv mat).map ret := by
  have e := mat3_inv_divisor h1
  dfd_step glm_mat3_inv

@[dfd] theorem C72_mat3_rmc (r : V3 ℝ) (m : M3 ℝ) (c : V3 ℝ) :
    (glm_mat3_rmc (r.map ret) (m.map ret) (c.map ret) : Dfd o) = ret (glm_mat3_rmc r m c) := by
  dfd_step glm_mat3_rmc

@[dfd] theorem C72_mat3_make (src : V9 ℝ) :
    (glm_mat3_make (src.map ret) : M3 (Dfd o)) = (glm_mat3_make src).map ret := by
  dfd_step glm_mat3_make

@[dfd] theorem C72_mat3_textrans (sx : ℝ) (sy : ℝ) (rot : ℝ) (tx : ℝ) (ty : ℝ) :
    (glm_mat3_textrans (ret sx) (ret sy) (ret rot) (ret tx) (ret ty) : M3 (Dfd o)) = (glm_mat3_textrans sx sy rot tx ty).map ret := by
  dfd_step glm_mat3_textrans

end Cglm

end C72Mat3

section C72Mat3x2

/-! # C72: defined arithmetic, Mat3x2

Generated by tools/defdthms.py.  On defined arguments the function evaluated over `Dfd o`, where division by zero and
the like are visible, gives the (defined) result of the function over ℝ.  Where arguments are excluded, the
hypotheses say which. -/

namespace Cglm
open Dfd
variable {o : Orc}


@[dfd] theorem C72_mat3x2_copy (src : M3x2 ℝ) :
    (glm_mat3x2_copy (src.map ret) : M3x2 (Dfd o)) = (glm_mat3x2_copy src).map ret := by
  dfd_step glm_mat3x2_copy

@[dfd] theorem C72_mat3x2_zero :
    (glm_mat3x2_zero : M3x2 (Dfd o)) = glm_mat3x2_zero.map ret := by
  dfd_step glm_mat3x2_zero

@[dfd] theorem C72_mat3x2_make (src : V6 ℝ) :
    (glm_mat3x2_make (src.map ret) : M3x2 (Dfd o)) = (glm_mat3x2_make src).map ret := by
  dfd_step glm_mat3x2_make

@[dfd] theorem C72_mat3x2_mul (m1 : M3x2 ℝ) (m2 : M2x3 ℝ) :
    (glm_mat3x2_mul (m1.map ret) (m2.map ret) : M2 (Dfd o)) = (glm_mat3x2_mul m1 m2).map ret := by
  dfd_step glm_mat3x2_mul

@[dfd] theorem C72_mat3x2_mulv (m : M3x2 ℝ) (v : V3 ℝ) :
    (glm_mat3x2_mulv (m.map ret) (v.map ret) : V2 (Dfd o)) = (glm_mat3x2_mulv m v).map ret := by
  dfd_step glm_mat3x2_mulv

@[dfd] theorem C72_mat3x2_transpose (src : M3x2 ℝ) :
    (glm_mat3x2_transpose (src.map ret) : M2x3 (Dfd o)) = (glm_mat3x2_transpose src).map ret := by
  dfd_step glm_mat3x2_transpose

@[dfd] theorem C72_mat3x2_scale (m : M3x2 ℝ) (s : ℝ) :
    (glm_mat3x2_scale (m.map ret) (ret s) : M3x2 (Dfd o)) = (glm_mat3x2_scale m s).map ret := by
  dfd_step glm_mat3x2_scale

end Cglm

end C72Mat3x2

section C72Mat3x4

/-! # C72: defined arithmetic, Mat3x4

Generated by tools/defdthms.py.  On defined arguments the function evaluated over `Dfd o`, where division by zero and
the like are visible, gives the (defined) result of the function over ℝ.  Where arguments are excluded, the
hypotheses say which. -/

namespace Cglm
open Dfd
variable {o : Orc}


@[dfd] theorem C72_mat3x4_copy (src : M3x4 ℝ) :
    (glm_mat3x4_copy (src.map ret) : M3x4 (Dfd o)) = (glm_mat3x4_copy src).map ret := by
  dfd_step glm_mat3x4_copy

@[dfd] theorem C72_mat3x4_zero :
    (glm_mat3x4_zero : M3x4 (Dfd o)) = glm_mat3x4_zero.map ret := by
  dfd_step glm_mat3x4_zero

@[dfd] theorem C72_mat3x4_make (src : V12 ℝ) :
    (glm_mat3x4_make (src.map ret) : M3x4 (Dfd o)) = (glm_mat3x4_make src).map ret := by
  dfd_step glm_mat3x4_make

@[dfd] theorem C72_mat3x4_mul (m1 : M3x4 ℝ) (m2 : M4x3 ℝ) :
    (glm_mat3x4_mul (m1.map ret) (m2.map ret) : M4 (Dfd o)) = (glm_mat3x4_mul m1 m2).map ret := by
  dfd_step glm_mat3x4_mul

@[dfd] theorem C72_mat3x4_mulv (m : M3x4 ℝ) (v : V3 ℝ) :
    (glm_mat3x4_mulv (m.map ret) (v.map ret) : V4 (Dfd o)) = (glm_mat3x4_mulv m v).map ret := by
  dfd_step glm_mat3x4_mulv

@[dfd] theorem C72_mat3x4_transpose (src : M3x4 ℝ) :
    (glm_mat3x4_transpose (src.map ret) : M4x3 (Dfd o)) = (glm_mat3x4_transpose src).map ret := by
  dfd_step glm_mat3x4_transpose

@[dfd] theorem C72_mat3x4_scale (m : M3x4 ℝ) (s : ℝ) :
    (glm_mat3x4_scale (m.map ret) (ret s) : M3x4 (Dfd o)) = (glm_mat3x4_scale m s).map ret := by
  dfd_step glm_mat3x4_scale

end Cglm

end C72Mat3x4

section C72Mat4

/-! # C72: defined arithmetic, Mat4

Generated by tools/defdthms.py.  On defined arguments the function evaluated over `Dfd o`, where division by zero and
the like are visible, gives the (defined) result of the function over ℝ.  Where arguments are excluded, the
hypotheses say which. -/

namespace Cglm
open Dfd
variable {o : Orc}


@[dfd] theorem C72_mat4_ucopy (mat : M4 ℝ) :
    (glm_mat4_ucopy (mat.map ret) : M4 (Dfd o)) = (glm_mat4_ucopy mat).map ret := by
  dfd_step glm_mat4_ucopy

@[dfd] theorem C72_mat4_copy (mat : M4 ℝ) :
    (glm_mat4_copy (mat.map ret) : M4 (Dfd o)) = (glm_mat4_copy mat).map ret := by
  dfd_step glm_mat4_copy

@[dfd] theorem C72_mat4_identity :
    (glm_mat4_identity : M4 (Dfd o)) = glm_mat4_identity.map ret := by
  dfd_step glm_mat4_identity

@[dfd] theorem C72_mat4_zero :
    (glm_mat4_zero : M4 (Dfd o)) = glm_mat4_zero.map ret := by
  dfd_step glm_mat4_zero

@[dfd] theorem C72_mat4_pick3 (mat : M4 ℝ) :
    (glm_mat4_pick3 (mat.map ret) : M3 (Dfd o)) = (glm_mat4_pick3 mat).map ret := by
  dfd_step glm_mat4_pick3

@[dfd] theorem C72_mat4_pick3t (mat : M4 ℝ) :
    (glm_mat4_pick3t (mat.map ret) : M3 (Dfd o)) = (glm_mat4_pick3t mat).map ret := by
  dfd_step glm_mat4_pick3t

@[dfd] theorem C72_mat4_ins3 (mat : M3 ℝ) (dest : M4 ℝ) :
    (glm_mat4_ins3 (mat.map ret) (dest.map ret) : M4 (Dfd o)) = (glm_mat4_ins3 mat dest).map ret := by
  dfd_step glm_mat4_ins3

@[dfd] theorem C72_mat4_mul (m1 : M4 ℝ) (m2 : M4 ℝ) :
    (glm_mat4_mul (m1.map ret) (m2.map ret) : M4 (Dfd o)) = (glm_mat4_mul m1 m2).map ret := by
  dfd_step glm_mat4_mul

@[dfd] theorem C72_mat4_mulv (m : M4 ℝ) (v : V4 ℝ) :
    (glm_mat4_mulv (m.map ret) (v.map ret) : V4 (Dfd o)) = (glm_mat4_mulv m v).map ret := by
  dfd_step glm_mat4_mulv

@[dfd] theorem C72_mat4_trace (m : M4 ℝ) :
    (glm_mat4_trace (m.map ret) : Dfd o) = ret (glm_mat4_trace m) := by
  dfd_step glm_mat4_trace

@[dfd] theorem C72_mat4_trace3 (m : M4 ℝ) :
    (glm_mat4_trace3 (m.map ret) : Dfd o) = ret (glm_mat4_trace3 m) := by
  dfd_step glm_mat4_trace3

@[dfd] theorem C72_mat4_quat (m : M4 ℝ) :
    (glm_mat4_quat (m.map ret) : V4 (Dfd o)) = (glm_mat4_quat m).map ret := by
  by_cases c1 : fle (lit 0 : ℝ) (m.c0.x + m.c1.y + m.c2.z) = true
  · have e : 0 < lit 1 + (m.c0.x + m.c1.y + m.c2.z) := by
      simp only [fle, lit_real, decide_eq_true_eq] at c1 ⊢
      push_cast at c1 ⊢
      linarith
    simp (disch := dfd_side) only [glm_mat4_quat, dfd, c1, if_true]
  · have b1 : m.c0.x + m.c1.y + m.c2.z < 0 := by
      simpa only [fle, lit_real, decide_eq_true_eq, Rat.cast_zero, not_le] using c1
    by_cases c2 : (fle m.c1.y m.c0.x && fle m.c2.z m.c0.x) = true
    · have e : 0 < lit 1 - m.c1.y - m.c2.z + m.c0.x := by
        simp only [Bool.and_eq_true, fle, decide_eq_true_eq] at c2
        simp only [lit_real]; push_cast
        rcases le_total m.c1.y 0 with h | h <;> linarith [c2.1, c2.2]
      simp (disch := dfd_side) only [glm_mat4_quat, dfd, c1, c2, if_true, if_false, Bool.false_eq_true]
    · by_cases c3 : fle m.c2.z m.c1.y = true
      · have e : 0 < lit 1 - m.c0.x - m.c2.z + m.c1.y := by
          simp only [Bool.and_eq_true, fle, decide_eq_true_eq] at c2 c3
          simp only [lit_real]; push_cast
          have : m.c0.x < m.c1.y := by by_contra h; exact c2 ⟨by linarith, by linarith⟩
          rcases le_total m.c0.x 0 with h | h <;> linarith
        simp (disch := dfd_side) only [glm_mat4_quat, dfd, c1, c2, c3, if_true, if_false, Bool.false_eq_true]
      · have e : 0 < lit 1 - m.c0.x - m.c1.y + m.c2.z := by
          simp only [Bool.and_eq_true, fle, decide_eq_true_eq] at c2 c3
          simp only [lit_real]; push_cast
          have : m.c0.x < m.c2.z := by by_contra h; exact c2 ⟨by linarith, by linarith⟩
          rcases le_total m.c0.x 0 with h | h <;> linarith
        simp (disch := dfd_side) only [glm_mat4_quat, dfd, c1, c2, c3, if_false, Bool.false_eq_true]

@[dfd] theorem C72_mat4_mulv3 (m : M4 ℝ) (v : V3 ℝ) (last : ℝ) :
    (glm_mat4_mulv3 (m.map ret) (v.map ret) (ret last) : V3 (Dfd o)) = (glm_mat4_mulv3 m v last).map ret := by
  dfd_step glm_mat4_mulv3

@[dfd] theorem C72_mat4_transpose_to (m : M4 ℝ) :
    (glm_mat4_transpose_to (m.map ret) : M4 (Dfd o)) = (glm_mat4_transpose_to m).map ret := by
  dfd_step glm_mat4_transpose_to

@[dfd] theorem C72_mat4_transpose (m : M4 ℝ) :
    (glm_mat4_transpose (m.map ret) : M4 (Dfd o)) = (glm_mat4_transpose m).map ret := by
  dfd_step glm_mat4_transpose

@[dfd] theorem C72_mat4_scale_p (m : M4 ℝ) (s : ℝ) :
    (glm_mat4_scale_p (m.map ret) (ret s) : M4 (Dfd o)) = (glm_mat4_scale_p m s).map ret := by
  dfd_step glm_mat4_scale_p

@[dfd] theorem C72_mat4_scale (m : M4 ℝ) (s : ℝ) :
    (glm_mat4_scale (m.map ret) (ret s) : M4 (Dfd o)) = (glm_mat4_scale m s).map ret := by
  dfd_step glm_mat4_scale

@[dfd] theorem C72_mat4_det (mat : M4 ℝ) :
    (glm_mat4_det (mat.map ret) : Dfd o) = ret (glm_mat4_det mat) := by
  dfd_step glm_mat4_det

@[dfd] theorem C72_mat4_inv (mat : M4 ℝ)
    (h1 : glm_mat4_det mat ≠ 0) :
    (glm_mat4_inv (mat.map ret) : M4 (Dfd o)) = (glm_mat4_inv mat).map ret := by
  have e := mat4_inv_divisor h1
  dfd_step glm_mat4_inv

@[dfd] theorem C72_mat4_inv_fast (mat : M4 ℝ)
    (h1 : glm_mat4_det mat ≠ 0) :
    (glm_mat4_inv_fast (mat.map ret) : M4 (Dfd o)) = (glm_mat4_inv_fast mat).map ret := by
  dfd_step glm_mat4_inv_fast

@[dfd] theorem C72_mat4_rmc (r : V4 ℝ) (m : M4 ℝ) (c : V4 ℝ) :
    (glm_mat4_rmc (r.map ret) (m.map ret) (c.map ret) : Dfd o) = ret (glm_mat4_rmc r m c) := by
  dfd_step glm_mat4_rmc

@[dfd] theorem C72_mat4_make (src : V16 ℝ) :
    (glm_mat4_make (src.map ret) : M4 (Dfd o)) = (glm_mat4_make src).map ret := by
  dfd_step glm_mat4_make

@[dfd] theorem C72_mat4_textrans (sx : ℝ) (sy : ℝ) (rot : ℝ) (tx : ℝ) (ty : ℝ) :
    (glm_mat4_textrans (ret sx) (ret sy) (ret rot) (ret tx) (ret ty) : M4 (Dfd o)) = (glm_mat4_textrans sx sy rot tx ty).map ret := by
  dfd_step glm_mat4_textrans

end Cglm

end C72Mat4

section C72Mat4x2

/-! # C72: defined arithmetic, Mat4x2

Generated by tools/defdthms.py.  On defined arguments the function evaluated over `Dfd o`, where division by zero and
the like are visible, gives the (defined) result of the function over ℝ.  Where arguments are excluded, the
hypotheses say which. -/

namespace Cglm
open Dfd
variable {o : Orc}


@[dfd] theorem C72_mat4x2_copy (src : M4x2 ℝ) :
    (glm_mat4x2_copy (src.map ret) : M4x2 (Dfd o)) = (glm_mat4x2_copy src).map ret := by
  dfd_step glm_mat4x2_copy

@[dfd] theorem C72_mat4x2_zero :
    (glm_mat4x2_zero : M4x2 (Dfd o)) = glm_mat4x2_zero.map ret := by
  dfd_step glm_mat4x2_zero

@[dfd] theorem C72_mat4x2_make (src : V8 ℝ) :
    (glm_mat4x2_make (src.map ret) : M4x2 (Dfd o)) = (glm_mat4x2_make src).map ret := by
  dfd_step glm_mat4x2_make

@[dfd] theorem C72_mat4x2_mul (m1 : M4x2 ℝ) (m2 : M2x4 ℝ) :
    (glm_mat4x2_mul (m1.map ret) (m2.map ret) : M2 (Dfd o)) = (glm_mat4x2_mul m1 m2).map ret := by
  dfd_step glm_mat4x2_mul

@[dfd] theorem C72_mat4x2_mulv (m : M4x2 ℝ) (v : V4 ℝ) :
    (glm_mat4x2_mulv (m.map ret) (v.map ret) : V2 (Dfd o)) = (glm_mat4x2_mulv m v).map ret := by
  dfd_step glm_mat4x2_mulv

@[dfd] theorem C72_mat4x2_transpose (m : M4x2 ℝ) :
    (glm_mat4x2_transpose (m.map ret) : M2x4 (Dfd o)) = (glm_mat4x2_transpose m).map ret := by
  dfd_step glm_mat4x2_transpose

@[dfd] theorem C72_mat4x2_scale (m : M4x2 ℝ) (s : ℝ) :
    (glm_mat4x2_scale (m.map ret) (ret s) : M4x2 (Dfd o)) = (glm_mat4x2_scale m s).map ret := by
  dfd_step glm_mat4x2_scale

end Cglm

end C72Mat4x2

section C72Mat4x3

/-! # C72: defined arithmetic, Mat4x3

Generated by tools/defdthms.py.  On defined arguments the function evaluated over `Dfd o`, where division by zero and
the like are visible, gives the (defined) result of the function over ℝ.  Where arguments are excluded, the
hypotheses say which. -/

namespace Cglm
open Dfd
variable {o : Orc}


@[dfd] theorem C72_mat4x3_copy (src : M4x3 ℝ) :
    (glm_mat4x3_copy (src.map ret) : M4x3 (Dfd o)) = (glm_mat4x3_copy src).map ret := by
  dfd_step glm_mat4x3_copy

@[dfd] theorem C72_mat4x3_zero :
    (glm_mat4x3_zero : M4x3 (Dfd o)) = glm_mat4x3_zero.map ret := by
  dfd_step glm_mat4x3_zero

@[dfd] theorem C72_mat4x3_make (src : V12 ℝ) :
    (glm_mat4x3_make (src.map ret) : M4x3 (Dfd o)) = (glm_mat4x3_make src).map ret := by
  dfd_step glm_mat4x3_make

@[dfd] theorem C72_mat4x3_mul (m1 : M4x3 ℝ) (m2 : M3x4 ℝ) :
    (glm_mat4x3_mul (m1.map ret) (m2.map ret) : M3 (Dfd o)) = (glm_mat4x3_mul m1 m2).map ret := by
  dfd_step glm_mat4x3_mul

@[dfd] theorem C72_mat4x3_mulv (m : M4x3 ℝ) (v : V4 ℝ) :
    (glm_mat4x3_mulv (m.map ret) (v.map ret) : V3 (Dfd o)) = (glm_mat4x3_mulv m v).map ret := by
  dfd_step glm_mat4x3_mulv

@[dfd] theorem C72_mat4x3_transpose (src : M4x3 ℝ) :
    (glm_mat4x3_transpose (src.map ret) : M3x4 (Dfd o)) = (glm_mat4x3_transpose src).map ret := by
  dfd_step glm_mat4x3_transpose

@[dfd] theorem C72_mat4x3_scale (m : M4x3 ℝ) (s : ℝ) :
    (glm_mat4x3_scale (m.map ret) (ret s) : M4x3 (Dfd o)) = (glm_mat4x3_scale m s).map ret := by
  dfd_step glm_mat4x3_scale

end Cglm

end C72Mat4x3
