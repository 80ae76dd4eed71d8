/- Generated by tools/defdthms.py, joined by tools/merge.py; do not edit by hand. -/
import Verif.DefdTac
import Verif.Gen.Affine
import Verif.Props.C72Mats
import Verif.Props.C72Vecs
import Verif.Gen.Affine2d
import Verif.Gen.Affine2dPost
import Verif.Gen.AffineMat
import Verif.Gen.AffinePre
import Verif.Gen.AffinePost
import Verif.Gen.ClipspaceOrthoRhNo
import Verif.Gen.ClipspacePersp
import Verif.Gen.ClipspacePerspRhNo
import Verif.Gen.ClipspaceViewRh
import Verif.Gen.Cam
import Verif.Gen.ClipspaceOrthoLhNo
import Verif.Gen.ClipspaceOrthoLhZo
import Verif.Gen.ClipspaceOrthoRhZo
import Verif.Gen.ClipspacePerspLhNo
import Verif.Gen.ClipspacePerspLhZo
import Verif.Gen.ClipspacePerspRhZo
import Verif.Gen.ClipspaceProjectNo
import Verif.Gen.ClipspaceProjectZo
import Verif.Gen.ClipspaceViewLh
import Verif.Gen.ClipspaceViewLhNo
import Verif.Gen.ClipspaceViewLhZo
import Verif.Gen.ClipspaceViewRhNo
import Verif.Gen.ClipspaceViewRhZo
import Verif.Gen.Project

section C72Affine

/-! # C72: defined arithmetic, Affine

Generated by tools/defdthms.py.  On defined arguments the function evaluated over `Dfd o`, where division by zero and
the like are visible, gives the (defined) result of the function over ℝ.  Where arguments are excluded, the
hypotheses say which. -/

namespace Cglm
open Dfd
variable {o : Orc}


@[dfd] theorem C72_translate_make (v : V3 ℝ) :
    (glm_translate_make (v.map ret) : M4 (Dfd o)) = (glm_translate_make v).map ret := by
  dfd_step glm_translate_make

@[dfd] theorem C72_scale_to (m : M4 ℝ) (v : V3 ℝ) :
    (glm_scale_to (m.map ret) (v.map ret) : M4 (Dfd o)) = (glm_scale_to m v).map ret := by
  dfd_step glm_scale_to

@[dfd] theorem C72_scale_make (v : V3 ℝ) :
    (glm_scale_make (v.map ret) : M4 (Dfd o)) = (glm_scale_make v).map ret := by
  dfd_step glm_scale_make

@[dfd] theorem C72_scale (m : M4 ℝ) (v : V3 ℝ) :
    (glm_scale (m.map ret) (v.map ret) : M4 (Dfd o)) = (glm_scale m v).map ret := by
  dfd_step glm_scale

@[dfd] theorem C72_scale_uni (m : M4 ℝ) (s : ℝ) :
    (glm_scale_uni (m.map ret) (ret s) : M4 (Dfd o)) = (glm_scale_uni m s).map ret := by
  dfd_step glm_scale_uni

@[dfd] theorem C72_rotate_make (angle : ℝ) (axis : V3 ℝ) :
    (glm_rotate_make (ret angle) (axis.map ret) : M4 (Dfd o)) = (glm_rotate_make angle axis).map ret := by
  dfd_step glm_rotate_make

@[dfd] theorem C72_decompose_scalev (m : M4 ℝ) :
    (glm_decompose_scalev (m.map ret) : V3 (Dfd o)) = (glm_decompose_scalev m).map ret := by
  dfd_step glm_decompose_scalev

@[dfd] theorem C72_uniscaled (m : M4 ℝ) :
    (glm_uniscaled (m.map (ret (o := o))) : Bool) = glm_uniscaled m := by
  dfd_step glm_uniscaled

@[dfd] theorem C72_decompose_rs (m : M4 ℝ)
    (h1 : glm_vec3_norm ⟨m.c0.x, m.c0.y, m.c0.z⟩ ≠ 0)
    (h2 : glm_vec3_norm ⟨m.c1.x, m.c1.y, m.c1.z⟩ ≠ 0)
    (h3 : glm_vec3_norm ⟨m.c2.x, m.c2.y, m.c2.z⟩ ≠ 0) :
    (glm_decompose_rs (m.map ret) : M4 (Dfd o) × V3 (Dfd o)) = ((glm_decompose_rs m).1.map ret, (glm_decompose_rs m).2.map ret) := by
  dfd_step glm_decompose_rs

@[dfd] theorem C72_decompose (m : M4 ℝ)
    (h1 : glm_vec3_norm ⟨m.c0.x, m.c0.y, m.c0.z⟩ ≠ 0)
    (h2 : glm_vec3_norm ⟨m.c1.x, m.c1.y, m.c1.z⟩ ≠ 0)
    (h3 : glm_vec3_norm ⟨m.c2.x, m.c2.y, m.c2.z⟩ ≠ 0) :
    (glm_decompose (m.map ret) : V4 (Dfd o) × M4 (Dfd o) × V3 (Dfd o)) = ((glm_decompose m).1.map ret, (glm_decompose m).2.1.map ret, (glm_decompose m).2.2.map ret) := by
  dfd_step glm_decompose

end Cglm

end C72Affine

section C72Affine2d

/-! # C72: defined arithmetic, Affine2d

Generated by tools/defdthms.py.  On defined arguments the function evaluated over `Dfd o`, where division by zero and
the like are visible, gives the (defined) result of the function over ℝ.  Where arguments are excluded, the
hypotheses say which. -/

namespace Cglm
open Dfd
variable {o : Orc}


@[dfd] theorem C72_translate2d (m : M3 ℝ) (v : V2 ℝ) :
    (glm_translate2d (m.map ret) (v.map ret) : M3 (Dfd o)) = (glm_translate2d m v).map ret := by
  dfd_step glm_translate2d

@[dfd] theorem C72_translate2d_to (m : M3 ℝ) (v : V2 ℝ) :
    (glm_translate2d_to (m.map ret) (v.map ret) : M3 (Dfd o)) = (glm_translate2d_to m v).map ret := by
  dfd_step glm_translate2d_to

@[dfd] theorem C72_translate2d_x (m : M3 ℝ) (x : ℝ) :
    (glm_translate2d_x (m.map ret) (ret x) : M3 (Dfd o)) = (glm_translate2d_x m x).map ret := by
  dfd_step glm_translate2d_x

@[dfd] theorem C72_translate2d_y (m : M3 ℝ) (y : ℝ) :
    (glm_translate2d_y (m.map ret) (ret y) : M3 (Dfd o)) = (glm_translate2d_y m y).map ret := by
  dfd_step glm_translate2d_y

@[dfd] theorem C72_translate2d_make (v : V2 ℝ) :
    (glm_translate2d_make (v.map ret) : M3 (Dfd o)) = (glm_translate2d_make v).map ret := by
  dfd_step glm_translate2d_make

@[dfd] theorem C72_scale2d_to (m : M3 ℝ) (v : V2 ℝ) :
    (glm_scale2d_to (m.map ret) (v.map ret) : M3 (Dfd o)) = (glm_scale2d_to m v).map ret := by
  dfd_step glm_scale2d_to

@[dfd] theorem C72_scale2d_make (v : V2 ℝ) :
    (glm_scale2d_make (v.map ret) : M3 (Dfd o)) = (glm_scale2d_make v).map ret := by
  dfd_step glm_scale2d_make

@[dfd] theorem C72_scale2d (m : M3 ℝ) (v : V2 ℝ) :
    (glm_scale2d (m.map ret) (v.map ret) : M3 (Dfd o)) = (glm_scale2d m v).map ret := by
  dfd_step glm_scale2d

@[dfd] theorem C72_scale2d_uni (m : M3 ℝ) (s : ℝ) :
    (glm_scale2d_uni (m.map ret) (ret s) : M3 (Dfd o)) = (glm_scale2d_uni m s).map ret := by
  dfd_step glm_scale2d_uni

@[dfd] theorem C72_rotate2d_make (angle : ℝ) :
    (glm_rotate2d_make (ret angle) : M3 (Dfd o)) = (glm_rotate2d_make angle).map ret := by
  dfd_step glm_rotate2d_make

@[dfd] theorem C72_rotate2d (m : M3 ℝ) (angle : ℝ) :
    (glm_rotate2d (m.map ret) (ret angle) : M3 (Dfd o)) = (glm_rotate2d m angle).map ret := by
  dfd_step glm_rotate2d

@[dfd] theorem C72_rotate2d_to (m : M3 ℝ) (angle : ℝ) :
    (glm_rotate2d_to (m.map ret) (ret angle) : M3 (Dfd o)) = (glm_rotate2d_to m angle).map ret := by
  dfd_step glm_rotate2d_to

end Cglm

end C72Affine2d

section C72Affine2dPost

/-! # C72: defined arithmetic, Affine2dPost

Generated by tools/defdthms.py.  On defined arguments the function evaluated over `Dfd o`, where division by zero and
the like are visible, gives the (defined) result of the function over ℝ.  Where arguments are excluded, the
hypotheses say which. -/

namespace Cglm
open Dfd
variable {o : Orc}


@[dfd] theorem C72_translated2d (m : M3 ℝ) (v : V2 ℝ) :
    (glm_translated2d (m.map ret) (v.map ret) : M3 (Dfd o)) = (glm_translated2d m v).map ret := by
  dfd_step glm_translated2d

@[dfd] theorem C72_translated2d_x (m : M3 ℝ) (x : ℝ) :
    (glm_translated2d_x (m.map ret) (ret x) : M3 (Dfd o)) = (glm_translated2d_x m x).map ret := by
  dfd_step glm_translated2d_x

@[dfd] theorem C72_translated2d_y (m : M3 ℝ) (y : ℝ) :
    (glm_translated2d_y (m.map ret) (ret y) : M3 (Dfd o)) = (glm_translated2d_y m y).map ret := by
  dfd_step glm_translated2d_y

@[dfd] theorem C72_rotated2d (m : M3 ℝ) (angle : ℝ) :
    (glm_rotated2d (m.map ret) (ret angle) : M3 (Dfd o)) = (glm_rotated2d m angle).map ret := by
  dfd_step glm_rotated2d

@[dfd] theorem C72_scaled2d (m : M3 ℝ) (v : V2 ℝ) :
    (glm_scaled2d (m.map ret) (v.map ret) : M3 (Dfd o)) = (glm_scaled2d m v).map ret := by
  dfd_step glm_scaled2d

@[dfd] theorem C72_scaled2d_uni (m : M3 ℝ) (s : ℝ) :
    (glm_scaled2d_uni (m.map ret) (ret s) : M3 (Dfd o)) = (glm_scaled2d_uni m s).map ret := by
  dfd_step glm_scaled2d_uni

end Cglm

end C72Affine2dPost

section C72AffineMat

/-! # C72: defined arithmetic, AffineMat

Generated by tools/defdthms.py.  On defined arguments the function evaluated over `Dfd o`, where division by zero and
the like are visible, gives the (defined) result of the function over ℝ.  Where arguments are excluded, the
hypotheses say which. -/

namespace Cglm
open Dfd
variable {o : Orc}


@[dfd] theorem C72_mul (m1 : M4 ℝ) (m2 : M4 ℝ) :
    (glm_mul (m1.map ret) (m2.map ret) : M4 (Dfd o)) = (glm_mul m1 m2).map ret := by
  dfd_step glm_mul

@[dfd] theorem C72_mul_rot (m1 : M4 ℝ) (m2 : M4 ℝ) :
    (glm_mul_rot (m1.map ret) (m2.map ret) : M4 (Dfd o)) = (glm_mul_rot m1 m2).map ret := by
  dfd_step glm_mul_rot

@[dfd] theorem C72_inv_tr (mat : M4 ℝ) :
    (glm_inv_tr (mat.map ret) : M4 (Dfd o)) = (glm_inv_tr mat).map ret := by
  dfd_step glm_inv_tr

end Cglm

end C72AffineMat

section C72AffinePre

/-! # C72: defined arithmetic, AffinePre

Generated by tools/defdthms.py.  On defined arguments the function evaluated over `Dfd o`, where division by zero and
the like are visible, gives the (defined) result of the function over ℝ.  Where arguments are excluded, the
hypotheses say which. -/

namespace Cglm
open Dfd
variable {o : Orc}


@[dfd] theorem C72_translate (m : M4 ℝ) (v : V3 ℝ) :
    (glm_translate (m.map ret) (v.map ret) : M4 (Dfd o)) = (glm_translate m v).map ret := by
  dfd_step glm_translate

@[dfd] theorem C72_translate_to (m : M4 ℝ) (v : V3 ℝ) :
    (glm_translate_to (m.map ret) (v.map ret) : M4 (Dfd o)) = (glm_translate_to m v).map ret := by
  dfd_step glm_translate_to

@[dfd] theorem C72_translate_x (m : M4 ℝ) (x : ℝ) :
    (glm_translate_x (m.map ret) (ret x) : M4 (Dfd o)) = (glm_translate_x m x).map ret := by
  dfd_step glm_translate_x

@[dfd] theorem C72_translate_y (m : M4 ℝ) (y : ℝ) :
    (glm_translate_y (m.map ret) (ret y) : M4 (Dfd o)) = (glm_translate_y m y).map ret := by
  dfd_step glm_translate_y

@[dfd] theorem C72_translate_z (m : M4 ℝ) (z : ℝ) :
    (glm_translate_z (m.map ret) (ret z) : M4 (Dfd o)) = (glm_translate_z m z).map ret := by
  dfd_step glm_translate_z

@[dfd] theorem C72_rotate_x (m : M4 ℝ) (angle : ℝ) :
    (glm_rotate_x (m.map ret) (ret angle) : M4 (Dfd o)) = (glm_rotate_x m angle).map ret := by
  dfd_step glm_rotate_x

@[dfd] theorem C72_rotate_y (m : M4 ℝ) (angle : ℝ) :
    (glm_rotate_y (m.map ret) (ret angle) : M4 (Dfd o)) = (glm_rotate_y m angle).map ret := by
  dfd_step glm_rotate_y

@[dfd] theorem C72_rotate_z (m : M4 ℝ) (angle : ℝ) :
    (glm_rotate_z (m.map ret) (ret angle) : M4 (Dfd o)) = (glm_rotate_z m angle).map ret := by
  dfd_step glm_rotate_z

@[dfd] theorem C72_rotate (m : M4 ℝ) (angle : ℝ) (axis : V3 ℝ) :
    (glm_rotate (m.map ret) (ret angle) (axis.map ret) : M4 (Dfd o)) = (glm_rotate m angle axis).map ret := by
  dfd_step glm_rotate

@[dfd] theorem C72_rotate_at (m : M4 ℝ) (pivot : V3 ℝ) (angle : ℝ) (axis : V3 ℝ) :
    (glm_rotate_at (m.map ret) (pivot.map ret) (ret angle) (axis.map ret) : M4 (Dfd o)) = (glm_rotate_at m pivot angle axis).map ret := by
  dfd_step glm_rotate_at

@[dfd] theorem C72_rotate_atm (pivot : V3 ℝ) (angle : ℝ) (axis : V3 ℝ) :
    (glm_rotate_atm (pivot.map ret) (ret angle) (axis.map ret) : M4 (Dfd o)) = (glm_rotate_atm pivot angle axis).map ret := by
  dfd_step glm_rotate_atm

@[dfd] theorem C72_spin (m : M4 ℝ) (angle : ℝ) (axis : V3 ℝ) :
    (glm_spin (m.map ret) (ret angle) (axis.map ret) : M4 (Dfd o)) = (glm_spin m angle axis).map ret := by
  dfd_step glm_spin

end Cglm

end C72AffinePre

section C72AffinePost

/-! # C72: defined arithmetic, AffinePost

Generated by tools/defdthms.py.  On defined arguments the function evaluated over `Dfd o`, where division by zero and
the like are visible, gives the (defined) result of the function over ℝ.  Where arguments are excluded, the
hypotheses say which. -/

namespace Cglm
open Dfd
variable {o : Orc}


@[dfd] theorem C72_translated (m : M4 ℝ) (v : V3 ℝ) :
    (glm_translated (m.map ret) (v.map ret) : M4 (Dfd o)) = (glm_translated m v).map ret := by
  dfd_step glm_translated

@[dfd] theorem C72_translated_to (m : M4 ℝ) (v : V3 ℝ) :
    (glm_translated_to (m.map ret) (v.map ret) : M4 (Dfd o)) = (glm_translated_to m v).map ret := by
  dfd_step glm_translated_to

@[dfd] theorem C72_translated_x (m : M4 ℝ) (x : ℝ) :
    (glm_translated_x (m.map ret) (ret x) : M4 (Dfd o)) = (glm_translated_x m x).map ret := by
  dfd_step glm_translated_x

@[dfd] theorem C72_translated_y (m : M4 ℝ) (y : ℝ) :
    (glm_translated_y (m.map ret) (ret y) : M4 (Dfd o)) = (glm_translated_y m y).map ret := by
  dfd_step glm_translated_y

@[dfd] theorem C72_translated_z (m : M4 ℝ) (z : ℝ) :
    (glm_translated_z (m.map ret) (ret z) : M4 (Dfd o)) = (glm_translated_z m z).map ret := by
  dfd_step glm_translated_z

@[dfd] theorem C72_rotated_x (m : M4 ℝ) (angle : ℝ) :
    (glm_rotated_x (m.map ret) (ret angle) : M4 (Dfd o)) = (glm_rotated_x m angle).map ret := by
  dfd_step glm_rotated_x

@[dfd] theorem C72_rotated_y (m : M4 ℝ) (angle : ℝ) :
    (glm_rotated_y (m.map ret) (ret angle) : M4 (Dfd o)) = (glm_rotated_y m angle).map ret := by
  dfd_step glm_rotated_y

@[dfd] theorem C72_rotated_z (m : M4 ℝ) (angle : ℝ) :
    (glm_rotated_z (m.map ret) (ret angle) : M4 (Dfd o)) = (glm_rotated_z m angle).map ret := by
  dfd_step glm_rotated_z

@[dfd] theorem C72_rotated (m : M4 ℝ) (angle : ℝ) (axis : V3 ℝ) :
    (glm_rotated (m.map ret) (ret angle) (axis.map ret) : M4 (Dfd o)) = (glm_rotated m angle axis).map ret := by
  dfd_step glm_rotated

@[dfd] theorem C72_rotated_at (m : M4 ℝ) (pivot : V3 ℝ) (angle : ℝ) (axis : V3 ℝ) :
    (glm_rotated_at (m.map ret) (pivot.map ret) (ret angle) (axis.map ret) : M4 (Dfd o)) = (glm_rotated_at m pivot angle axis).map ret := by
  dfd_step glm_rotated_at

@[dfd] theorem C72_spinned (m : M4 ℝ) (angle : ℝ) (axis : V3 ℝ) :
    (glm_spinned (m.map ret) (ret angle) (axis.map ret) : M4 (Dfd o)) = (glm_spinned m angle axis).map ret := by
  dfd_step glm_spinned

end Cglm

end C72AffinePost

section C72ClipspaceOrthoRhNo

/-! # C72: defined arithmetic, ClipspaceOrthoRhNo

Generated by tools/defdthms.py.  On defined arguments the function evaluated over `Dfd o`, where division by zero and
the like are visible, gives the (defined) result of the function over ℝ.  Where arguments are excluded, the
hypotheses say which. -/

namespace Cglm
open Dfd
variable {o : Orc}


@[dfd] theorem C72_ortho_rh_no (left : ℝ) (right : ℝ) (bottom : ℝ) (top : ℝ) (nearZ : ℝ) (farZ : ℝ)
    (h1 : left ≠ right)
    (h2 : bottom ≠ top)
    (h3 : nearZ ≠ farZ) :
    (glm_ortho_rh_no (ret left) (ret right) (ret bottom) (ret top) (ret nearZ) (ret farZ) : M4 (Dfd o)) = (glm_ortho_rh_no left right bottom top nearZ farZ).map ret := by
  dfd_step glm_ortho_rh_no

@[dfd] theorem C72_ortho_aabb_rh_no (box : M2x3 ℝ)
    (h1 : box.c0.x ≠ box.c1.x)
    (h2 : box.c0.y ≠ box.c1.y)
    (h3 : box.c0.z ≠ box.c1.z) :
    (glm_ortho_aabb_rh_no (box.map ret) : M4 (Dfd o)) = (glm_ortho_aabb_rh_no box).map ret := by
  have e : -box.c1.z ≠ -box.c0.z := fun h => h3 (neg_injective h).symm
  dfd_step glm_ortho_aabb_rh_no

@[dfd] theorem C72_ortho_aabb_p_rh_no (box : M2x3 ℝ) (padding : ℝ)
    (h1 : box.c0.x - padding ≠ box.c1.x + padding)
    (h2 : box.c0.y - padding ≠ box.c1.y + padding)
    (h3 : box.c0.z - padding ≠ box.c1.z + padding) :
    (glm_ortho_aabb_p_rh_no (box.map ret) (ret padding) : M4 (Dfd o)) = (glm_ortho_aabb_p_rh_no box padding).map ret := by
  have e : -(box.c1.z + padding) ≠ -(box.c0.z - padding) := fun h => h3 (neg_injective h).symm
  dfd_step glm_ortho_aabb_p_rh_no

@[dfd] theorem C72_ortho_aabb_pz_rh_no (box : M2x3 ℝ) (padding : ℝ)
    (h1 : box.c0.x ≠ box.c1.x)
    (h2 : box.c0.y ≠ box.c1.y)
    (h3 : box.c0.z - padding ≠ box.c1.z + padding) :
    (glm_ortho_aabb_pz_rh_no (box.map ret) (ret padding) : M4 (Dfd o)) = (glm_ortho_aabb_pz_rh_no box padding).map ret := by
  have e : -(box.c1.z + padding) ≠ -(box.c0.z - padding) := fun h => h3 (neg_injective h).symm
  dfd_step glm_ortho_aabb_pz_rh_no

@[dfd] theorem C72_ortho_default_rh_no (aspect : ℝ)
    (h1 : aspect ≠ 0) :
    (glm_ortho_default_rh_no (ret aspect) : M4 (Dfd o)) = (glm_ortho_default_rh_no aspect).map ret := by
  have e1 : -aspect ≠ aspect := by intro h; apply h1; linarith
  have e2 : -(lit 1 / aspect) ≠ lit 1 / aspect := by
    have : (lit 1 / aspect : ℝ) ≠ 0 := div_ne_zero (Dfd.lit_ne_zero (by norm_num)) h1
    intro h; apply this; linarith
  have e3 : (-lit 1 : ℝ) ≠ lit 1 := by simp only [lit_real]; norm_num
  have e4 : (-lit 100 : ℝ) ≠ lit 100 := by simp only [lit_real]; norm_num
  dfd_step glm_ortho_default_rh_no

@[dfd] theorem C72_ortho_default_s_rh_no (aspect : ℝ) (size : ℝ)
    (h1 : aspect ≠ 0)
    (h2 : size ≠ 0)
    (h3 : size ≠ -100) :
    (glm_ortho_default_s_rh_no (ret aspect) (ret size) : M4 (Dfd o)) = (glm_ortho_default_s_rh_no aspect size).map ret := by
  have e1 : -size * aspect ≠ size * aspect := by
    have := mul_ne_zero h2 h1
    intro h; apply this; linarith
  have e2 : -size / aspect ≠ size / aspect := by
    have := div_ne_zero h2 h1
    intro h; apply this; rw [neg_div] at h; linarith
  have e3 : -size ≠ size := by intro h; apply h2; linarith
  have e4 : -size - lit 100 ≠ size + lit 100 := by
    simp only [lit_real]
    intro h; apply h3; push_cast at h; linarith
  dfd_step glm_ortho_default_s_rh_no

end Cglm

end C72ClipspaceOrthoRhNo

section C72ClipspacePersp

/-! # C72: defined arithmetic, ClipspacePersp

Generated by tools/defdthms.py.  On defined arguments the function evaluated over `Dfd o`, where division by zero and
the like are visible, gives the (defined) result of the function over ℝ.  Where arguments are excluded, the
hypotheses say which. -/

namespace Cglm
open Dfd
variable {o : Orc}


@[dfd] theorem C72_persp_fovy (proj : M4 ℝ)
    (h1 : proj.c1.y ≠ 0) :
    (glm_persp_fovy (proj.map ret) : Dfd o) = ret (glm_persp_fovy proj) := by
  dfd_step glm_persp_fovy

@[dfd] theorem C72_persp_aspect (proj : M4 ℝ)
    (h1 : proj.c0.x ≠ 0) :
    (glm_persp_aspect (proj.map ret) : Dfd o) = ret (glm_persp_aspect proj) := by
  dfd_step glm_persp_aspect

end Cglm

end C72ClipspacePersp

section C72ClipspacePerspRhNo

/-! # C72: defined arithmetic, ClipspacePerspRhNo

Generated by tools/defdthms.py.  On defined arguments the function evaluated over `Dfd o`, where division by zero and
the like are visible, gives the (defined) result of the function over ℝ.  Where arguments are excluded, the
hypotheses say which. -/

namespace Cglm
open Dfd
variable {o : Orc}


@[dfd] theorem C72_frustum_rh_no (left : ℝ) (right : ℝ) (bottom : ℝ) (top : ℝ) (nearZ : ℝ) (farZ : ℝ)
    (h1 : left ≠ right)
    (h2 : bottom ≠ top)
    (h3 : nearZ ≠ farZ) :
    (glm_frustum_rh_no (ret left) (ret right) (ret bottom) (ret top) (ret nearZ) (ret farZ) : M4 (Dfd o)) = (glm_frustum_rh_no left right bottom top nearZ farZ).map ret := by
  dfd_step glm_frustum_rh_no

@[dfd] theorem C72_perspective_rh_no (fovy : ℝ) (aspect : ℝ) (nearZ : ℝ) (farZ : ℝ)
    (h1 : cosf (fovy * lit 0.5) ≠ 0)
    (h2 : sinf (fovy * lit 0.5) ≠ 0)
    (h3 : aspect ≠ 0)
    (h4 : nearZ ≠ farZ) :
    (glm_perspective_rh_no (ret fovy) (ret aspect) (ret nearZ) (ret farZ) : M4 (Dfd o)) = (glm_perspective_rh_no fovy aspect nearZ farZ).map ret := by
  have e : tanf (fovy * lit 0.5) ≠ 0 := tan_ne_zero h1 h2
  dfd_step glm_perspective_rh_no

@[dfd] theorem C72_perspective_default_rh_no (aspect : ℝ)
    (h1 : aspect ≠ 0) :
    (glm_perspective_default_rh_no (ret aspect) : M4 (Dfd o)) = (glm_perspective_default_rh_no aspect).map ret := by
  have e1 := cos_pi_eighth_ne_zero
  have e2 := sin_pi_eighth_ne_zero
  have e4 := tan_ne_zero e1 e2
  have e3 : (lit 0.01 : ℝ) ≠ lit 100 := by simp only [lit_real]; norm_num
  dfd_step glm_perspective_default_rh_no

@[dfd] theorem C72_perspective_resize_rh_no (aspect : ℝ) (proj : M4 ℝ)
    (h1 : proj.c0.x = 0 ∨ aspect ≠ 0) :
    (glm_perspective_resize_rh_no (ret aspect) (proj.map ret) : M4 (Dfd o)) = (glm_perspective_resize_rh_no aspect proj).map ret := by
  by_cases c : feq proj.c0.x (lit 0 : ℝ) = true
  · simp (disch := dfd_side) only [glm_perspective_resize_rh_no, dfd, c, if_true]
  · have e : aspect ≠ 0 := h1.resolve_left (ne_zero_of_not_feq c)
    dfd_step glm_perspective_resize_rh_no

@[dfd] theorem C72_persp_move_far_rh_no (proj : M4 ℝ) (deltaFar : ℝ)
    (h1 : proj.c2.z ≠ 1)
    (h2 : proj.c2.z ≠ -1)
    (h3 : proj.c3.z / (proj.c2.z - lit 1) ≠ proj.c3.z / (proj.c2.z + lit 1) + deltaFar) :
    (glm_persp_move_far_rh_no (proj.map ret) (ret deltaFar) : M4 (Dfd o)) = (glm_persp_move_far_rh_no proj deltaFar).map ret := by
  have e1 : proj.c2.z - lit 1 ≠ 0 := by simp only [lit_real]; push_cast; intro h; apply h1; linarith
  have e2 : proj.c2.z + lit 1 ≠ 0 := by simp only [lit_real]; push_cast; intro h; apply h2; linarith
  dfd_step glm_persp_move_far_rh_no

@[dfd] theorem C72_persp_decomp_rh_no (proj : M4 ℝ)
    (h1 : proj.c2.z ≠ 1)
    (h2 : proj.c2.z ≠ -1)
    (h3 : proj.c0.x ≠ 0)
    (h4 : proj.c1.y ≠ 0) :
    (glm_persp_decomp_rh_no (proj.map ret) : Dfd o × Dfd o × Dfd o × Dfd o × Dfd o × Dfd o) = (ret ((glm_persp_decomp_rh_no proj).1), ret ((glm_persp_decomp_rh_no proj).2.1), ret ((glm_persp_decomp_rh_no proj).2.2.1), ret ((glm_persp_decomp_rh_no proj).2.2.2.1), ret ((glm_persp_decomp_rh_no proj).2.2.2.2.1), ret ((glm_persp_decomp_rh_no proj).2.2.2.2.2)) := by
  have e1 : proj.c2.z - lit 1 ≠ 0 := by simp only [lit_real]; push_cast; intro h; apply h1; linarith
  have e2 : proj.c2.z + lit 1 ≠ 0 := by simp only [lit_real]; push_cast; intro h; apply h2; linarith
  dfd_step glm_persp_decomp_rh_no

@[dfd] theorem C72_persp_decompv_rh_no (proj : M4 ℝ)
    (h1 : proj.c2.z ≠ 1)
    (h2 : proj.c2.z ≠ -1)
    (h3 : proj.c0.x ≠ 0)
    (h4 : proj.c1.y ≠ 0) :
    (glm_persp_decompv_rh_no (proj.map ret) : V6 (Dfd o)) = (glm_persp_decompv_rh_no proj).map ret := by
  have e1 : proj.c2.z - lit 1 ≠ 0 := by simp only [lit_real]; push_cast; intro h; apply h1; linarith
  have e2 : proj.c2.z + lit 1 ≠ 0 := by simp only [lit_real]; push_cast; intro h; apply h2; linarith
  dfd_step glm_persp_decompv_rh_no

@[dfd] theorem C72_persp_decomp_x_rh_no (proj : M4 ℝ)
    (h1 : proj.c2.z ≠ 1)
    (h2 : proj.c0.x ≠ 0) :
    (glm_persp_decomp_x_rh_no (proj.map ret) : Dfd o × Dfd o) = (ret ((glm_persp_decomp_x_rh_no proj).1), ret ((glm_persp_decomp_x_rh_no proj).2)) := by
  have e1 : proj.c2.z - lit 1 ≠ 0 := by simp only [lit_real]; push_cast; intro h; apply h1; linarith
  dfd_step glm_persp_decomp_x_rh_no

@[dfd] theorem C72_persp_decomp_y_rh_no (proj : M4 ℝ)
    (h1 : proj.c2.z ≠ 1)
    (h2 : proj.c1.y ≠ 0) :
    (glm_persp_decomp_y_rh_no (proj.map ret) : Dfd o × Dfd o) = (ret ((glm_persp_decomp_y_rh_no proj).1), ret ((glm_persp_decomp_y_rh_no proj).2)) := by
  have e1 : proj.c2.z - lit 1 ≠ 0 := by simp only [lit_real]; push_cast; intro h; apply h1; linarith
  dfd_step glm_persp_decomp_y_rh_no

@[dfd] theorem C72_persp_decomp_z_rh_no (proj : M4 ℝ)
    (h1 : proj.c2.z ≠ 1)
    (h2 : proj.c2.z ≠ -1) :
    (glm_persp_decomp_z_rh_no (proj.map ret) : Dfd o × Dfd o) = (ret ((glm_persp_decomp_z_rh_no proj).1), ret ((glm_persp_decomp_z_rh_no proj).2)) := by
  have e1 : proj.c2.z - lit 1 ≠ 0 := by simp only [lit_real]; push_cast; intro h; apply h1; linarith
  have e2 : proj.c2.z + lit 1 ≠ 0 := by simp only [lit_real]; push_cast; intro h; apply h2; linarith
  dfd_step glm_persp_decomp_z_rh_no

@[dfd] theorem C72_persp_decomp_far_rh_no (proj : M4 ℝ)
    (h1 : proj.c2.z ≠ -1) :
    (glm_persp_decomp_far_rh_no (proj.map ret) : Dfd o) = ret (glm_persp_decomp_far_rh_no proj) := by
  have e2 : proj.c2.z + lit 1 ≠ 0 := by simp only [lit_real]; push_cast; intro h; apply h1; linarith
  dfd_step glm_persp_decomp_far_rh_no

@[dfd] theorem C72_persp_decomp_near_rh_no (proj : M4 ℝ)
    (h1 : proj.c2.z ≠ 1) :
    (glm_persp_decomp_near_rh_no (proj.map ret) : Dfd o) = ret (glm_persp_decomp_near_rh_no proj) := by
  have e1 : proj.c2.z - lit 1 ≠ 0 := by simp only [lit_real]; push_cast; intro h; apply h1; linarith
  dfd_step glm_persp_decomp_near_rh_no

@[dfd] theorem C72_persp_sizes_rh_no (proj : M4 ℝ) (fovy : ℝ)
    (h1 : proj.c2.z ≠ 1)
    (h2 : proj.c2.z ≠ -1)
    (h3 : proj.c0.x ≠ 0)
    (h4 : cosf (fovy * lit 0.5) ≠ 0) :
    (glm_persp_sizes_rh_no (proj.map ret) (ret fovy) : V4 (Dfd o)) = (glm_persp_sizes_rh_no proj fovy).map ret := by
  dfd_step glm_persp_sizes_rh_no

@[dfd] theorem C72_persp_fovy_rh_no (proj : M4 ℝ)
    (h1 : proj.c1.y ≠ 0) :
    (glm_persp_fovy_rh_no (proj.map ret) : Dfd o) = ret (glm_persp_fovy_rh_no proj) := by
  dfd_step glm_persp_fovy_rh_no

@[dfd] theorem C72_persp_aspect_rh_no (proj : M4 ℝ)
    (h1 : proj.c0.x ≠ 0) :
    (glm_persp_aspect_rh_no (proj.map ret) : Dfd o) = ret (glm_persp_aspect_rh_no proj) := by
  dfd_step glm_persp_aspect_rh_no

end Cglm

end C72ClipspacePerspRhNo

section C72ClipspaceViewRh

/-! # C72: defined arithmetic, ClipspaceViewRh

Generated by tools/defdthms.py.  On defined arguments the function evaluated over `Dfd o`, where division by zero and
the like are visible, gives the (defined) result of the function over ℝ.  Where arguments are excluded, the
hypotheses say which. -/

namespace Cglm
open Dfd
variable {o : Orc}


@[dfd] theorem C72_lookat_rh (eye : V3 ℝ) (center : V3 ℝ) (up : V3 ℝ) :
    (glm_lookat_rh (eye.map ret) (center.map ret) (up.map ret) : M4 (Dfd o)) = (glm_lookat_rh eye center up).map ret := by
  dfd_step glm_lookat_rh

@[dfd] theorem C72_look_rh (eye : V3 ℝ) (dir : V3 ℝ) (up : V3 ℝ) :
    (glm_look_rh (eye.map ret) (dir.map ret) (up.map ret) : M4 (Dfd o)) = (glm_look_rh eye dir up).map ret := by
  dfd_step glm_look_rh

@[dfd] theorem C72_look_anyup_rh (eye : V3 ℝ) (dir : V3 ℝ) :
    (glm_look_anyup_rh (eye.map ret) (dir.map ret) : M4 (Dfd o)) = (glm_look_anyup_rh eye dir).map ret := by
  dfd_step glm_look_anyup_rh

end Cglm

end C72ClipspaceViewRh

section C72Cam

/-! # C72: defined arithmetic, Cam

Generated by tools/defdthms.py.  On defined arguments the function evaluated over `Dfd o`, where division by zero and
the like are visible, gives the (defined) result of the function over ℝ.  Where arguments are excluded, the
hypotheses say which. -/

namespace Cglm
open Dfd
variable {o : Orc}


@[dfd] theorem C72_frustum (left : ℝ) (right : ℝ) (bottom : ℝ) (top : ℝ) (nearZ : ℝ) (farZ : ℝ)
    (h1 : left ≠ right)
    (h2 : bottom ≠ top)
    (h3 : nearZ ≠ farZ) :
    (glm_frustum (ret left) (ret right) (ret bottom) (ret top) (ret nearZ) (ret farZ) : M4 (Dfd o)) = (glm_frustum left right bottom top nearZ farZ).map ret := by
  dfd_step glm_frustum

@[dfd] theorem C72_ortho (left : ℝ) (right : ℝ) (bottom : ℝ) (top : ℝ) (nearZ : ℝ) (farZ : ℝ)
    (h1 : left ≠ right)
    (h2 : bottom ≠ top)
    (h3 : nearZ ≠ farZ) :
    (glm_ortho (ret left) (ret right) (ret bottom) (ret top) (ret nearZ) (ret farZ) : M4 (Dfd o)) = (glm_ortho left right bottom top nearZ farZ).map ret := by
  dfd_step glm_ortho

@[dfd] theorem C72_ortho_aabb (box : M2x3 ℝ)
    (h1 : box.c0.x ≠ box.c1.x)
    (h2 : box.c0.y ≠ box.c1.y)
    (h3 : box.c0.z ≠ box.c1.z) :
    (glm_ortho_aabb (box.map ret) : M4 (Dfd o)) = (glm_ortho_aabb box).map ret := by
  have e : -box.c1.z ≠ -box.c0.z := fun h => h3 (neg_injective h).symm
  dfd_step glm_ortho_aabb

@[dfd] theorem C72_ortho_aabb_p (box : M2x3 ℝ) (padding : ℝ)
    (h1 : box.c0.x - padding ≠ box.c1.x + padding)
    (h2 : box.c0.y - padding ≠ box.c1.y + padding)
    (h3 : box.c0.z - padding ≠ box.c1.z + padding) :
    (glm_ortho_aabb_p (box.map ret) (ret padding) : M4 (Dfd o)) = (glm_ortho_aabb_p box padding).map ret := by
  have e : -(box.c1.z + padding) ≠ -(box.c0.z - padding) := fun h => h3 (neg_injective h).symm
  dfd_step glm_ortho_aabb_p

@[dfd] theorem C72_ortho_aabb_pz (box : M2x3 ℝ) (padding : ℝ)
    (h1 : box.c0.x ≠ box.c1.x)
    (h2 : box.c0.y ≠ box.c1.y)
    (h3 : box.c0.z - padding ≠ box.c1.z + padding) :
    (glm_ortho_aabb_pz (box.map ret) (ret padding) : M4 (Dfd o)) = (glm_ortho_aabb_pz box padding).map ret := by
  have e : -(box.c1.z + padding) ≠ -(box.c0.z - padding) := fun h => h3 (neg_injective h).symm
  dfd_step glm_ortho_aabb_pz

@[dfd] theorem C72_ortho_default (aspect : ℝ)
    (h1 : aspect ≠ 0) :
    (glm_ortho_default (ret aspect) : M4 (Dfd o)) = (glm_ortho_default aspect).map ret := by
  have e1 : -aspect ≠ aspect := by intro h; apply h1; linarith
  have e2 : -(lit 1 / aspect) ≠ lit 1 / aspect := by
    have : (lit 1 / aspect : ℝ) ≠ 0 := div_ne_zero (Dfd.lit_ne_zero (by norm_num)) h1
    intro h; apply this; linarith
  have e3 : (-lit 1 : ℝ) ≠ lit 1 := by simp only [lit_real]; norm_num
  have e4 : (-lit 100 : ℝ) ≠ lit 100 := by simp only [lit_real]; norm_num
  dfd_step glm_ortho_default

@[dfd] theorem C72_ortho_default_s (aspect : ℝ) (size : ℝ)
    (h1 : aspect ≠ 0)
    (h2 : size ≠ 0)
    (h3 : size ≠ -100) :
    (glm_ortho_default_s (ret aspect) (ret size) : M4 (Dfd o)) = (glm_ortho_default_s aspect size).map ret := by
  have e1 : -size * aspect ≠ size * aspect := by
    have := mul_ne_zero h2 h1
    intro h; apply this; linarith
  have e2 : -size / aspect ≠ size / aspect := by
    have := div_ne_zero h2 h1
    intro h; apply this; rw [neg_div] at h; linarith
  have e3 : -size ≠ size := by intro h; apply h2; linarith
  have e4 : -size - lit 100 ≠ size + lit 100 := by
    simp only [lit_real]
    intro h; apply h3; push_cast at h; linarith
  dfd_step glm_ortho_default_s

@[dfd] theorem C72_perspective (fovy : ℝ) (aspect : ℝ) (nearZ : ℝ) (farZ : ℝ)
    (h1 : cosf (fovy * lit 0.5) ≠ 0)
    (h2 : sinf (fovy * lit 0.5) ≠ 0)
    (h3 : aspect ≠ 0)
    (h4 : nearZ ≠ farZ) :
    (glm_perspective (ret fovy) (ret aspect) (ret nearZ) (ret farZ) : M4 (Dfd o)) = (glm_perspective fovy aspect nearZ farZ).map ret := by
  have e : tanf (fovy * lit 0.5) ≠ 0 := tan_ne_zero h1 h2
  dfd_step glm_perspective

@[dfd] theorem C72_persp_move_far (proj : M4 ℝ) (deltaFar : ℝ)
    (h1 : proj.c2.z ≠ 1)
    (h2 : proj.c2.z ≠ -1)
    (h3 : proj.c3.z / (proj.c2.z - lit 1) ≠ proj.c3.z / (proj.c2.z + lit 1) + deltaFar) :
    (glm_persp_move_far (proj.map ret) (ret deltaFar) : M4 (Dfd o)) = (glm_persp_move_far proj deltaFar).map ret := by
  have e1 : proj.c2.z - lit 1 ≠ 0 := by simp only [lit_real]; push_cast; intro h; apply h1; linarith
  have e2 : proj.c2.z + lit 1 ≠ 0 := by simp only [lit_real]; push_cast; intro h; apply h2; linarith
  dfd_step glm_persp_move_far

@[dfd] theorem C72_perspective_default (aspect : ℝ)
    (h1 : aspect ≠ 0) :
    (glm_perspective_default (ret aspect) : M4 (Dfd o)) = (glm_perspective_default aspect).map ret := by
  have e1 := cos_pi_eighth_ne_zero
  have e2 := sin_pi_eighth_ne_zero
  have e4 := tan_ne_zero e1 e2
  have e3 : (lit 0.01 : ℝ) ≠ lit 100 := by simp only [lit_real]; norm_num
  dfd_step glm_perspective_default

@[dfd] theorem C72_perspective_resize (aspect : ℝ) (proj : M4 ℝ)
    (h1 : proj.c0.x = 0 ∨ aspect ≠ 0) :
    (glm_perspective_resize (ret aspect) (proj.map ret) : M4 (Dfd o)) = (glm_perspective_resize aspect proj).map ret := by
  by_cases c : feq proj.c0.x (lit 0 : ℝ) = true
  · simp (disch := dfd_side) only [glm_perspective_resize, dfd, c, if_true]
  · have e : aspect ≠ 0 := h1.resolve_left (ne_zero_of_not_feq c)
    dfd_step glm_perspective_resize

@[dfd] theorem C72_lookat (eye : V3 ℝ) (center : V3 ℝ) (up : V3 ℝ) :
    (glm_lookat (eye.map ret) (center.map ret) (up.map ret) : M4 (Dfd o)) = (glm_lookat eye center up).map ret := by
  dfd_step glm_lookat

@[dfd] theorem C72_look (eye : V3 ℝ) (dir : V3 ℝ) (up : V3 ℝ) :
    (glm_look (eye.map ret) (dir.map ret) (up.map ret) : M4 (Dfd o)) = (glm_look eye dir up).map ret := by
  dfd_step glm_look

@[dfd] theorem C72_look_anyup (eye : V3 ℝ) (dir : V3 ℝ) :
    (glm_look_anyup (eye.map ret) (dir.map ret) : M4 (Dfd o)) = (glm_look_anyup eye dir).map ret := by
  dfd_step glm_look_anyup

@[dfd] theorem C72_persp_decomp (proj : M4 ℝ)
    (h1 : proj.c2.z ≠ 1)
    (h2 : proj.c2.z ≠ -1)
    (h3 : proj.c0.x ≠ 0)
    (h4 : proj.c1.y ≠ 0) :
    (glm_persp_decomp (proj.map ret) : Dfd o × Dfd o × Dfd o × Dfd o × Dfd o × Dfd o) = (ret ((glm_persp_decomp proj).1), ret ((glm_persp_decomp proj).2.1), ret ((glm_persp_decomp proj).2.2.1), ret ((glm_persp_decomp proj).2.2.2.1), ret ((glm_persp_decomp proj).2.2.2.2.1), ret ((glm_persp_decomp proj).2.2.2.2.2)) := by
  have e1 : proj.c2.z - lit 1 ≠ 0 := by simp only [lit_real]; push_cast; intro h; apply h1; linarith
  have e2 : proj.c2.z + lit 1 ≠ 0 := by simp only [lit_real]; push_cast; intro h; apply h2; linarith
  dfd_step glm_persp_decomp

@[dfd] theorem C72_persp_decompv (proj : M4 ℝ)
    (h1 : proj.c2.z ≠ 1)
    (h2 : proj.c2.z ≠ -1)
    (h3 : proj.c0.x ≠ 0)
    (h4 : proj.c1.y ≠ 0) :
    (glm_persp_decompv (proj.map ret) : V6 (Dfd o)) = (glm_persp_decompv proj).map ret := by
  have e1 : proj.c2.z - lit 1 ≠ 0 := by simp only [lit_real]; push_cast; intro h; apply h1; linarith
  have e2 : proj.c2.z + lit 1 ≠ 0 := by simp only [lit_real]; push_cast; intro h; apply h2; linarith
  dfd_step glm_persp_decompv

@[dfd] theorem C72_persp_decomp_x (proj : M4 ℝ)
    (h1 : proj.c2.z ≠ 1)
    (h2 : proj.c0.x ≠ 0) :
    (glm_persp_decomp_x (proj.map ret) : Dfd o × Dfd o) = (ret ((glm_persp_decomp_x proj).1), ret ((glm_persp_decomp_x proj).2)) := by
  have e1 : proj.c2.z - lit 1 ≠ 0 := by simp only [lit_real]; push_cast; intro h; apply h1; linarith
  dfd_step glm_persp_decomp_x

@[dfd] theorem C72_persp_decomp_y (proj : M4 ℝ)
    (h1 : proj.c2.z ≠ 1)
    (h2 : proj.c1.y ≠ 0) :
    (glm_persp_decomp_y (proj.map ret) : Dfd o × Dfd o) = (ret ((glm_persp_decomp_y proj).1), ret ((glm_persp_decomp_y proj).2)) := by
  have e1 : proj.c2.z - lit 1 ≠ 0 := by simp only [lit_real]; push_cast; intro h; apply h1; linarith
  dfd_step glm_persp_decomp_y

@[dfd] theorem C72_persp_decomp_z (proj : M4 ℝ)
    (h1 : proj.c2.z ≠ 1)
    (h2 : proj.c2.z ≠ -1) :
    (glm_persp_decomp_z (proj.map ret) : Dfd o × Dfd o) = (ret ((glm_persp_decomp_z proj).1), ret ((glm_persp_decomp_z proj).2)) := by
  have e1 : proj.c2.z - lit 1 ≠ 0 := by simp only [lit_real]; push_cast; intro h; apply h1; linarith
  have e2 : proj.c2.z + lit 1 ≠ 0 := by simp only [lit_real]; push_cast; intro h; apply h2; linarith
  dfd_step glm_persp_decomp_z

@[dfd] theorem C72_persp_decomp_far (proj : M4 ℝ)
    (h1 : proj.c2.z ≠ -1) :
    (glm_persp_decomp_far (proj.map ret) : Dfd o) = ret (glm_persp_decomp_far proj) := by
  have e2 : proj.c2.z + lit 1 ≠ 0 := by simp only [lit_real]; push_cast; intro h; apply h1; linarith
  dfd_step glm_persp_decomp_far

@[dfd] theorem C72_persp_decomp_near (proj : M4 ℝ)
    (h1 : proj.c2.z ≠ 1) :
    (glm_persp_decomp_near (proj.map ret) : Dfd o) = ret (glm_persp_decomp_near proj) := by
  have e1 : proj.c2.z - lit 1 ≠ 0 := by simp only [lit_real]; push_cast; intro h; apply h1; linarith
  dfd_step glm_persp_decomp_near

@[dfd] theorem C72_persp_sizes (proj : M4 ℝ) (fovy : ℝ)
    (h1 : proj.c2.z ≠ 1)
    (h2 : proj.c2.z ≠ -1)
    (h3 : proj.c0.x ≠ 0)
    (h4 : cosf (fovy * lit 0.5) ≠ 0) :
    (glm_persp_sizes (proj.map ret) (ret fovy) : V4 (Dfd o)) = (glm_persp_sizes proj fovy).map ret := by
  dfd_step glm_persp_sizes

end Cglm

end C72Cam

section C72ClipspaceOrthoLhNo

/-! # C72: defined arithmetic, ClipspaceOrthoLhNo

Generated by tools/defdthms.py.  On defined arguments the function evaluated over `Dfd o`, where division by zero and
the like are visible, gives the (defined) result of the function over ℝ.  Where arguments are excluded, the
hypotheses say which. -/

namespace Cglm
open Dfd
variable {o : Orc}


@[dfd] theorem C72_ortho_lh_no (left : ℝ) (right : ℝ) (bottom : ℝ) (top : ℝ) (nearZ : ℝ) (farZ : ℝ)
    (h1 : left ≠ right)
    (h2 : bottom ≠ top)
    (h3 : nearZ ≠ farZ) :
    (glm_ortho_lh_no (ret left) (ret right) (ret bottom) (ret top) (ret nearZ) (ret farZ) : M4 (Dfd o)) = (glm_ortho_lh_no left right bottom top nearZ farZ).map ret := by
  dfd_step glm_ortho_lh_no

@[dfd] theorem C72_ortho_aabb_lh_no (box : M2x3 ℝ)
    (h1 : box.c0.x ≠ box.c1.x)
    (h2 : box.c0.y ≠ box.c1.y)
    (h3 : box.c0.z ≠ box.c1.z) :
    (glm_ortho_aabb_lh_no (box.map ret) : M4 (Dfd o)) = (glm_ortho_aabb_lh_no box).map ret := by
  have e : -box.c1.z ≠ -box.c0.z := fun h => h3 (neg_injective h).symm
  dfd_step glm_ortho_aabb_lh_no

@[dfd] theorem C72_ortho_aabb_p_lh_no (box : M2x3 ℝ) (padding : ℝ)
    (h1 : box.c0.x - padding ≠ box.c1.x + padding)
    (h2 : box.c0.y - padding ≠ box.c1.y + padding)
    (h3 : box.c0.z - padding ≠ box.c1.z + padding) :
    (glm_ortho_aabb_p_lh_no (box.map ret) (ret padding) : M4 (Dfd o)) = (glm_ortho_aabb_p_lh_no box padding).map ret := by
  have e : -(box.c1.z + padding) ≠ -(box.c0.z - padding) := fun h => h3 (neg_injective h).symm
  dfd_step glm_ortho_aabb_p_lh_no

@[dfd] theorem C72_ortho_aabb_pz_lh_no (box : M2x3 ℝ) (padding : ℝ)
    (h1 : box.c0.x ≠ box.c1.x)
    (h2 : box.c0.y ≠ box.c1.y)
    (h3 : box.c0.z - padding ≠ box.c1.z + padding) :
    (glm_ortho_aabb_pz_lh_no (box.map ret) (ret padding) : M4 (Dfd o)) = (glm_ortho_aabb_pz_lh_no box padding).map ret := by
  have e : -(box.c1.z + padding) ≠ -(box.c0.z - padding) := fun h => h3 (neg_injective h).symm
  dfd_step glm_ortho_aabb_pz_lh_no

@[dfd] theorem C72_ortho_default_lh_no (aspect : ℝ)
    (h1 : aspect ≠ 0) :
    (glm_ortho_default_lh_no (ret aspect) : M4 (Dfd o)) = (glm_ortho_default_lh_no aspect).map ret := by
  have e1 : -aspect ≠ aspect := by intro h; apply h1; linarith
  have e2 : -(lit 1 / aspect) ≠ lit 1 / aspect := by
    have : (lit 1 / aspect : ℝ) ≠ 0 := div_ne_zero (Dfd.lit_ne_zero (by norm_num)) h1
    intro h; apply this; linarith
  have e3 : (-lit 1 : ℝ) ≠ lit 1 := by simp only [lit_real]; norm_num
  have e4 : (-lit 100 : ℝ) ≠ lit 100 := by simp only [lit_real]; norm_num
  dfd_step glm_ortho_default_lh_no

@[dfd] theorem C72_ortho_default_s_lh_no (aspect : ℝ) (size : ℝ)
    (h1 : aspect ≠ 0)
    (h2 : size ≠ 0)
    (h3 : size ≠ -100) :
    (glm_ortho_default_s_lh_no (ret aspect) (ret size) : M4 (Dfd o)) = (glm_ortho_default_s_lh_no aspect size).map ret := by
  have e1 : -size * aspect ≠ size * aspect := by
    have := mul_ne_zero h2 h1
    intro h; apply this; linarith
  have e2 : -size / aspect ≠ size / aspect := by
    have := div_ne_zero h2 h1
    intro h; apply this; rw [neg_div] at h; linarith
  have e3 : -size ≠ size := by intro h; apply h2; linarith
  have e4 : -size - lit 100 ≠ size + lit 100 := by
    simp only [lit_real]
    intro h; apply h3; push_cast at h; linarith
  dfd_step glm_ortho_default_s_lh_no

end Cglm

end C72ClipspaceOrthoLhNo

section C72ClipspaceOrthoLhZo

/-! # C72: defined arithmetic, ClipspaceOrthoLhZo

Generated by tools/defdthms.py.  On defined arguments the function evaluated over `Dfd o`, where division by zero and
the like are visible, gives the (defined) result of the function over ℝ.  Where arguments are excluded, the
hypotheses say which. -/

namespace Cglm
open Dfd
variable {o : Orc}


@[dfd] theorem C72_ortho_lh_zo (left : ℝ) (right : ℝ) (bottom : ℝ) (top : ℝ) (nearZ : ℝ) (farZ : ℝ)
    (h1 : left ≠ right)
    (h2 : bottom ≠ top)
    (h3 : nearZ ≠ farZ) :
    (glm_ortho_lh_zo (ret left) (ret right) (ret bottom) (ret top) (ret nearZ) (ret farZ) : M4 (Dfd o)) = (glm_ortho_lh_zo left right bottom top nearZ farZ).map ret := by
  dfd_step glm_ortho_lh_zo

@[dfd] theorem C72_ortho_aabb_lh_zo (box : M2x3 ℝ)
    (h1 : box.c0.x ≠ box.c1.x)
    (h2 : box.c0.y ≠ box.c1.y)
    (h3 : box.c0.z ≠ box.c1.z) :
    (glm_ortho_aabb_lh_zo (box.map ret) : M4 (Dfd o)) = (glm_ortho_aabb_lh_zo box).map ret := by
  have e : -box.c1.z ≠ -box.c0.z := fun h => h3 (neg_injective h).symm
  dfd_step glm_ortho_aabb_lh_zo

@[dfd] theorem C72_ortho_aabb_p_lh_zo (box : M2x3 ℝ) (padding : ℝ)
    (h1 : box.c0.x - padding ≠ box.c1.x + padding)
    (h2 : box.c0.y - padding ≠ box.c1.y + padding)
    (h3 : box.c0.z - padding ≠ box.c1.z + padding) :
    (glm_ortho_aabb_p_lh_zo (box.map ret) (ret padding) : M4 (Dfd o)) = (glm_ortho_aabb_p_lh_zo box padding).map ret := by
  have e : -(box.c1.z + padding) ≠ -(box.c0.z - padding) := fun h => h3 (neg_injective h).symm
  dfd_step glm_ortho_aabb_p_lh_zo

@[dfd] theorem C72_ortho_aabb_pz_lh_zo (box : M2x3 ℝ) (padding : ℝ)
    (h1 : box.c0.x ≠ box.c1.x)
    (h2 : box.c0.y ≠ box.c1.y)
    (h3 : box.c0.z - padding ≠ box.c1.z + padding) :
    (glm_ortho_aabb_pz_lh_zo (box.map ret) (ret padding) : M4 (Dfd o)) = (glm_ortho_aabb_pz_lh_zo box padding).map ret := by
  have e : -(box.c1.z + padding) ≠ -(box.c0.z - padding) := fun h => h3 (neg_injective h).symm
  dfd_step glm_ortho_aabb_pz_lh_zo

@[dfd] theorem C72_ortho_default_lh_zo (aspect : ℝ)
    (h1 : aspect ≠ 0) :
    (glm_ortho_default_lh_zo (ret aspect) : M4 (Dfd o)) = (glm_ortho_default_lh_zo aspect).map ret := by
  have e1 : -aspect ≠ aspect := by intro h; apply h1; linarith
  have e2 : -(lit 1 / aspect) ≠ lit 1 / aspect := by
    have : (lit 1 / aspect : ℝ) ≠ 0 := div_ne_zero (Dfd.lit_ne_zero (by norm_num)) h1
    intro h; apply this; linarith
  have e3 : (-lit 1 : ℝ) ≠ lit 1 := by simp only [lit_real]; norm_num
  have e4 : (-lit 100 : ℝ) ≠ lit 100 := by simp only [lit_real]; norm_num
  dfd_step glm_ortho_default_lh_zo

@[dfd] theorem C72_ortho_default_s_lh_zo (aspect : ℝ) (size : ℝ)
    (h1 : aspect ≠ 0)
    (h2 : size ≠ 0)
    (h3 : size ≠ -100) :
    (glm_ortho_default_s_lh_zo (ret aspect) (ret size) : M4 (Dfd o)) = (glm_ortho_default_s_lh_zo aspect size).map ret := by
  have e1 : -size * aspect ≠ size * aspect := by
    have := mul_ne_zero h2 h1
    intro h; apply this; linarith
  have e2 : -size / aspect ≠ size / aspect := by
    have := div_ne_zero h2 h1
    intro h; apply this; rw [neg_div] at h; linarith
  have e3 : -size ≠ size := by intro h; apply h2; linarith
  have e4 : -size - lit 100 ≠ size + lit 100 := by
    simp only [lit_real]
    intro h; apply h3; push_cast at h; linarith
  dfd_step glm_ortho_default_s_lh_zo

end Cglm

end C72ClipspaceOrthoLhZo

section C72ClipspaceOrthoRhZo

/-! # C72: defined arithmetic, ClipspaceOrthoRhZo

Generated by tools/defdthms.py.  On defined arguments the function evaluated over `Dfd o`, where division by zero and
the like are visible, gives the (defined) result of the function over ℝ.  Where arguments are excluded, the
hypotheses say which. -/

namespace Cglm
open Dfd
variable {o : Orc}


@[dfd] theorem C72_ortho_rh_zo (left : ℝ) (right : ℝ) (bottom : ℝ) (top : ℝ) (nearZ : ℝ) (farZ : ℝ)
    (h1 : left ≠ right)
    (h2 : bottom ≠ top)
    (h3 : nearZ ≠ farZ) :
    (glm_ortho_rh_zo (ret left) (ret right) (ret bottom) (ret top) (ret nearZ) (ret farZ) : M4 (Dfd o)) = (glm_ortho_rh_zo left right bottom top nearZ farZ).map ret := by
  dfd_step glm_ortho_rh_zo

@[dfd] theorem C72_ortho_aabb_rh_zo (box : M2x3 ℝ)
    (h1 : box.c0.x ≠ box.c1.x)
    (h2 : box.c0.y ≠ box.c1.y)
    (h3 : box.c0.z ≠ box.c1.z) :
    (glm_ortho_aabb_rh_zo (box.map ret) : M4 (Dfd o)) = (glm_ortho_aabb_rh_zo box).map ret := by
  have e : -box.c1.z ≠ -box.c0.z := fun h => h3 (neg_injective h).symm
  dfd_step glm_ortho_aabb_rh_zo

@[dfd] theorem C72_ortho_aabb_p_rh_zo (box : M2x3 ℝ) (padding : ℝ)
    (h1 : box.c0.x - padding ≠ box.c1.x + padding)
    (h2 : box.c0.y - padding ≠ box.c1.y + padding)
    (h3 : box.c0.z - padding ≠ box.c1.z + padding) :
    (glm_ortho_aabb_p_rh_zo (box.map ret) (ret padding) : M4 (Dfd o)) = (glm_ortho_aabb_p_rh_zo box padding).map ret := by
  have e : -(box.c1.z + padding) ≠ -(box.c0.z - padding) := fun h => h3 (neg_injective h).symm
  dfd_step glm_ortho_aabb_p_rh_zo

@[dfd] theorem C72_ortho_aabb_pz_rh_zo (box : M2x3 ℝ) (padding : ℝ)
    (h1 : box.c0.x ≠ box.c1.x)
    (h2 : box.c0.y ≠ box.c1.y)
    (h3 : box.c0.z - padding ≠ box.c1.z + padding) :
    (glm_ortho_aabb_pz_rh_zo (box.map ret) (ret padding) : M4 (Dfd o)) = (glm_ortho_aabb_pz_rh_zo box padding).map ret := by
  have e : -(box.c1.z + padding) ≠ -(box.c0.z - padding) := fun h => h3 (neg_injective h).symm
  dfd_step glm_ortho_aabb_pz_rh_zo

@[dfd] theorem C72_ortho_default_rh_zo (aspect : ℝ)
    (h1 : aspect ≠ 0) :
    (glm_ortho_default_rh_zo (ret aspect) : M4 (Dfd o)) = (glm_ortho_default_rh_zo aspect).map ret := by
  have e1 : -aspect ≠ aspect := by intro h; apply h1; linarith
  have e2 : -(lit 1 / aspect) ≠ lit 1 / aspect := by
    have : (lit 1 / aspect : ℝ) ≠ 0 := div_ne_zero (Dfd.lit_ne_zero (by norm_num)) h1
    intro h; apply this; linarith
  have e3 : (-lit 1 : ℝ) ≠ lit 1 := by simp only [lit_real]; norm_num
  have e4 : (-lit 100 : ℝ) ≠ lit 100 := by simp only [lit_real]; norm_num
  dfd_step glm_ortho_default_rh_zo

@[dfd] theorem C72_ortho_default_s_rh_zo (aspect : ℝ) (size : ℝ)
    (h1 : aspect ≠ 0)
    (h2 : size ≠ 0)
    (h3 : size ≠ -100) :
    (glm_ortho_default_s_rh_zo (ret aspect) (ret size) : M4 (Dfd o)) = (glm_ortho_default_s_rh_zo aspect size).map ret := by
  have e1 : -size * aspect ≠ size * aspect := by
    have := mul_ne_zero h2 h1
    intro h; apply this; linarith
  have e2 : -size / aspect ≠ size / aspect := by
    have := div_ne_zero h2 h1
    intro h; apply this; rw [neg_div] at h; linarith
  have e3 : -size ≠ size := by intro h; apply h2; linarith
  have e4 : -size - lit 100 ≠ size + lit 100 := by
    simp only [lit_real]
    intro h; apply h3; push_cast at h; linarith
  dfd_step glm_ortho_default_s_rh_zo

end Cglm

end C72ClipspaceOrthoRhZo

section C72ClipspacePerspLhNo

/-! # C72: defined arithmetic, ClipspacePerspLhNo

Generated by tools/defdthms.py.  On defined arguments the function evaluated over `Dfd o`, where division by zero and
the like are visible, gives the (defined) result of the function over ℝ.  Where arguments are excluded, the
hypotheses say which. -/

namespace Cglm
open Dfd
variable {o : Orc}


@[dfd] theorem C72_frustum_lh_no (left : ℝ) (right : ℝ) (bottom : ℝ) (top : ℝ) (nearZ : ℝ) (farZ : ℝ)
    (h1 : left ≠ right)
    (h2 : bottom ≠ top)
    (h3 : nearZ ≠ farZ) :
    (glm_frustum_lh_no (ret left) (ret right) (ret bottom) (ret top) (ret nearZ) (ret farZ) : M4 (Dfd o)) = (glm_frustum_lh_no left right bottom top nearZ farZ).map ret := by
  dfd_step glm_frustum_lh_no

@[dfd] theorem C72_perspective_lh_no (fovy : ℝ) (aspect : ℝ) (nearZ : ℝ) (farZ : ℝ)
    (h1 : cosf (fovy * lit 0.5) ≠ 0)
    (h2 : sinf (fovy * lit 0.5) ≠ 0)
    (h3 : aspect ≠ 0)
    (h4 : nearZ ≠ farZ) :
    (glm_perspective_lh_no (ret fovy) (ret aspect) (ret nearZ) (ret farZ) : M4 (Dfd o)) = (glm_perspective_lh_no fovy aspect nearZ farZ).map ret := by
  have e : tanf (fovy * lit 0.5) ≠ 0 := tan_ne_zero h1 h2
  dfd_step glm_perspective_lh_no

@[dfd] theorem C72_perspective_default_lh_no (aspect : ℝ)
    (h1 : aspect ≠ 0) :
    (glm_perspective_default_lh_no (ret aspect) : M4 (Dfd o)) = (glm_perspective_default_lh_no aspect).map ret := by
  have e1 := cos_pi_eighth_ne_zero
  have e2 := sin_pi_eighth_ne_zero
  have e4 := tan_ne_zero e1 e2
  have e3 : (lit 0.01 : ℝ) ≠ lit 100 := by simp only [lit_real]; norm_num
  dfd_step glm_perspective_default_lh_no

@[dfd] theorem C72_perspective_resize_lh_no (aspect : ℝ) (proj : M4 ℝ)
    (h1 : proj.c0.x = 0 ∨ aspect ≠ 0) :
    (glm_perspective_resize_lh_no (ret aspect) (proj.map ret) : M4 (Dfd o)) = (glm_perspective_resize_lh_no aspect proj).map ret := by
  by_cases c : feq proj.c0.x (lit 0 : ℝ) = true
  · simp (disch := dfd_side) only [glm_perspective_resize_lh_no, dfd, c, if_true]
  · have e : aspect ≠ 0 := h1.resolve_left (ne_zero_of_not_feq c)
    dfd_step glm_perspective_resize_lh_no

@[dfd] theorem C72_persp_move_far_lh_no (proj : M4 ℝ) (deltaFar : ℝ)
    (h1 : proj.c2.z ≠ -1)
    (h2 : proj.c2.z ≠ 1)
    (h3 : proj.c3.z / (-proj.c2.z - lit 1) ≠ proj.c3.z / (-proj.c2.z + lit 1) + deltaFar) :
    (glm_persp_move_far_lh_no (proj.map ret) (ret deltaFar) : M4 (Dfd o)) = (glm_persp_move_far_lh_no proj deltaFar).map ret := by
  have e1 : -proj.c2.z - lit 1 ≠ 0 := by simp only [lit_real]; push_cast; intro h; apply h1; linarith
  have e2 : -proj.c2.z + lit 1 ≠ 0 := by simp only [lit_real]; push_cast; intro h; apply h2; linarith
  dfd_step glm_persp_move_far_lh_no

@[dfd] theorem C72_persp_decomp_lh_no (proj : M4 ℝ)
    (h1 : proj.c2.z ≠ -1)
    (h2 : proj.c2.z ≠ 1)
    (h3 : proj.c0.x ≠ 0)
    (h4 : proj.c1.y ≠ 0) :
    (glm_persp_decomp_lh_no (proj.map ret) : Dfd o × Dfd o × Dfd o × Dfd o × Dfd o × Dfd o) = (ret ((glm_persp_decomp_lh_no proj).1), ret ((glm_persp_decomp_lh_no proj).2.1), ret ((glm_persp_decomp_lh_no proj).2.2.1), ret ((glm_persp_decomp_lh_no proj).2.2.2.1), ret ((glm_persp_decomp_lh_no proj).2.2.2.2.1), ret ((glm_persp_decomp_lh_no proj).2.2.2.2.2)) := by
  have e1 : -proj.c2.z - lit 1 ≠ 0 := by simp only [lit_real]; push_cast; intro h; apply h1; linarith
  have e2 : -proj.c2.z + lit 1 ≠ 0 := by simp only [lit_real]; push_cast; intro h; apply h2; linarith
  dfd_step glm_persp_decomp_lh_no

@[dfd] theorem C72_persp_decompv_lh_no (proj : M4 ℝ)
    (h1 : proj.c2.z ≠ -1)
    (h2 : proj.c2.z ≠ 1)
    (h3 : proj.c0.x ≠ 0)
    (h4 : proj.c1.y ≠ 0) :
    (glm_persp_decompv_lh_no (proj.map ret) : V6 (Dfd o)) = (glm_persp_decompv_lh_no proj).map ret := by
  have e1 : -proj.c2.z - lit 1 ≠ 0 := by simp only [lit_real]; push_cast; intro h; apply h1; linarith
  have e2 : -proj.c2.z + lit 1 ≠ 0 := by simp only [lit_real]; push_cast; intro h; apply h2; linarith
  dfd_step glm_persp_decompv_lh_no

@[dfd] theorem C72_persp_decomp_x_lh_no (proj : M4 ℝ)
    (h1 : proj.c2.z ≠ -1)
    (h2 : proj.c0.x ≠ 0) :
    (glm_persp_decomp_x_lh_no (proj.map ret) : Dfd o × Dfd o) = (ret ((glm_persp_decomp_x_lh_no proj).1), ret ((glm_persp_decomp_x_lh_no proj).2)) := by
  have e1 : -proj.c2.z - lit 1 ≠ 0 := by simp only [lit_real]; push_cast; intro h; apply h1; linarith
  dfd_step glm_persp_decomp_x_lh_no

@[dfd] theorem C72_persp_decomp_y_lh_no (proj : M4 ℝ)
    (h1 : proj.c2.z ≠ -1)
    (h2 : proj.c1.y ≠ 0) :
    (glm_persp_decomp_y_lh_no (proj.map ret) : Dfd o × Dfd o) = (ret ((glm_persp_decomp_y_lh_no proj).1), ret ((glm_persp_decomp_y_lh_no proj).2)) := by
  have e1 : -proj.c2.z - lit 1 ≠ 0 := by simp only [lit_real]; push_cast; intro h; apply h1; linarith
  dfd_step glm_persp_decomp_y_lh_no

@[dfd] theorem C72_persp_decomp_z_lh_no (proj : M4 ℝ)
    (h1 : proj.c2.z ≠ -1)
    (h2 : proj.c2.z ≠ 1) :
    (glm_persp_decomp_z_lh_no (proj.map ret) : Dfd o × Dfd o) = (ret ((glm_persp_decomp_z_lh_no proj).1), ret ((glm_persp_decomp_z_lh_no proj).2)) := by
  have e1 : -proj.c2.z - lit 1 ≠ 0 := by simp only [lit_real]; push_cast; intro h; apply h1; linarith
  have e2 : -proj.c2.z + lit 1 ≠ 0 := by simp only [lit_real]; push_cast; intro h; apply h2; linarith
  dfd_step glm_persp_decomp_z_lh_no

@[dfd] theorem C72_persp_decomp_far_lh_no (proj : M4 ℝ)
    (h1 : proj.c2.z ≠ 1) :
    (glm_persp_decomp_far_lh_no (proj.map ret) : Dfd o) = ret (glm_persp_decomp_far_lh_no proj) := by
  have e2 : -proj.c2.z + lit 1 ≠ 0 := by simp only [lit_real]; push_cast; intro h; apply h1; linarith
  dfd_step glm_persp_decomp_far_lh_no

@[dfd] theorem C72_persp_decomp_near_lh_no (proj : M4 ℝ)
    (h1 : proj.c2.z ≠ -1) :
    (glm_persp_decomp_near_lh_no (proj.map ret) : Dfd o) = ret (glm_persp_decomp_near_lh_no proj) := by
  have e1 : -proj.c2.z - lit 1 ≠ 0 := by simp only [lit_real]; push_cast; intro h; apply h1; linarith
  dfd_step glm_persp_decomp_near_lh_no

@[dfd] theorem C72_persp_sizes_lh_no (proj : M4 ℝ) (fovy : ℝ)
    (h1 : proj.c2.z ≠ -1)
    (h2 : proj.c2.z ≠ 1)
    (h3 : proj.c0.x ≠ 0)
    (h4 : cosf (fovy * lit 0.5) ≠ 0) :
    (glm_persp_sizes_lh_no (proj.map ret) (ret fovy) : V4 (Dfd o)) = (glm_persp_sizes_lh_no proj fovy).map ret := by
  dfd_step glm_persp_sizes_lh_no

@[dfd] theorem C72_persp_fovy_lh_no (proj : M4 ℝ)
    (h1 : proj.c1.y ≠ 0) :
    (glm_persp_fovy_lh_no (proj.map ret) : Dfd o) = ret (glm_persp_fovy_lh_no proj) := by
  dfd_step glm_persp_fovy_lh_no

@[dfd] theorem C72_persp_aspect_lh_no (proj : M4 ℝ)
    (h1 : proj.c0.x ≠ 0) :
    (glm_persp_aspect_lh_no (proj.map ret) : Dfd o) = ret (glm_persp_aspect_lh_no proj) := by
  dfd_step glm_persp_aspect_lh_no

end Cglm

end C72ClipspacePerspLhNo

section C72ClipspacePerspLhZo

/-! # C72: defined arithmetic, ClipspacePerspLhZo

Generated by tools/defdthms.py.  On defined arguments the function evaluated over `Dfd o`, where division by zero and
the like are visible, gives the (defined) result of the function over ℝ.  Where arguments are excluded, the
hypotheses say which. -/

namespace Cglm
open Dfd
variable {o : Orc}


@[dfd] theorem C72_frustum_lh_zo (left : ℝ) (right : ℝ) (bottom : ℝ) (top : ℝ) (nearZ : ℝ) (farZ : ℝ)
    (h1 : left ≠ right)
    (h2 : bottom ≠ top)
    (h3 : nearZ ≠ farZ) :
    (glm_frustum_lh_zo (ret left) (ret right) (ret bottom) (ret top) (ret nearZ) (ret farZ) : M4 (Dfd o)) = (glm_frustum_lh_zo left right bottom top nearZ farZ).map ret := by
  dfd_step glm_frustum_lh_zo

@[dfd] theorem C72_perspective_lh_zo (fovy : ℝ) (aspect : ℝ) (nearZ : ℝ) (farZ : ℝ)
    (h1 : cosf (fovy * lit 0.5) ≠ 0)
    (h2 : sinf (fovy * lit 0.5) ≠ 0)
    (h3 : aspect ≠ 0)
    (h4 : nearZ ≠ farZ) :
    (glm_perspective_lh_zo (ret fovy) (ret aspect) (ret nearZ) (ret farZ) : M4 (Dfd o)) = (glm_perspective_lh_zo fovy aspect nearZ farZ).map ret := by
  have e : tanf (fovy * lit 0.5) ≠ 0 := tan_ne_zero h1 h2
  dfd_step glm_perspective_lh_zo

@[dfd] theorem C72_persp_move_far_lh_zo (proj : M4 ℝ) (deltaFar : ℝ)
    (h1 : proj.c2.z ≠ 0)
    (h2 : proj.c2.z ≠ 1)
    (h3 : proj.c3.z / -proj.c2.z ≠ proj.c3.z / (-proj.c2.z + lit 1) + deltaFar) :
    (glm_persp_move_far_lh_zo (proj.map ret) (ret deltaFar) : M4 (Dfd o)) = (glm_persp_move_far_lh_zo proj deltaFar).map ret := by
  have e1 : -proj.c2.z ≠ 0 := neg_ne_zero.2 h1
  have e2 : -proj.c2.z + lit 1 ≠ 0 := by simp only [lit_real]; push_cast; intro h; apply h2; linarith
  dfd_step glm_persp_move_far_lh_zo

@[dfd] theorem C72_perspective_default_lh_zo (aspect : ℝ)
    (h1 : aspect ≠ 0) :
    (glm_perspective_default_lh_zo (ret aspect) : M4 (Dfd o)) = (glm_perspective_default_lh_zo aspect).map ret := by
  have e1 := cos_pi_eighth_ne_zero
  have e2 := sin_pi_eighth_ne_zero
  have e4 := tan_ne_zero e1 e2
  have e3 : (lit 0.01 : ℝ) ≠ lit 100 := by simp only [lit_real]; norm_num
  dfd_step glm_perspective_default_lh_zo

@[dfd] theorem C72_perspective_resize_lh_zo (aspect : ℝ) (proj : M4 ℝ)
    (h1 : proj.c0.x = 0 ∨ aspect ≠ 0) :
    (glm_perspective_resize_lh_zo (ret aspect) (proj.map ret) : M4 (Dfd o)) = (glm_perspective_resize_lh_zo aspect proj).map ret := by
  by_cases c : feq proj.c0.x (lit 0 : ℝ) = true
  · simp (disch := dfd_side) only [glm_perspective_resize_lh_zo, dfd, c, if_true]
  · have e : aspect ≠ 0 := h1.resolve_left (ne_zero_of_not_feq c)
    dfd_step glm_perspective_resize_lh_zo

@[dfd] theorem C72_persp_decomp_lh_zo (proj : M4 ℝ)
    (h1 : proj.c2.z ≠ 0)
    (h2 : proj.c2.z ≠ 1)
    (h3 : proj.c0.x ≠ 0)
    (h4 : proj.c1.y ≠ 0) :
    (glm_persp_decomp_lh_zo (proj.map ret) : Dfd o × Dfd o × Dfd o × Dfd o × Dfd o × Dfd o) = (ret ((glm_persp_decomp_lh_zo proj).1), ret ((glm_persp_decomp_lh_zo proj).2.1), ret ((glm_persp_decomp_lh_zo proj).2.2.1), ret ((glm_persp_decomp_lh_zo proj).2.2.2.1), ret ((glm_persp_decomp_lh_zo proj).2.2.2.2.1), ret ((glm_persp_decomp_lh_zo proj).2.2.2.2.2)) := by
  have e1 : -proj.c2.z ≠ 0 := neg_ne_zero.2 h1
  have e2 : -proj.c2.z + lit 1 ≠ 0 := by simp only [lit_real]; push_cast; intro h; apply h2; linarith
  dfd_step glm_persp_decomp_lh_zo

@[dfd] theorem C72_persp_decompv_lh_zo (proj : M4 ℝ)
    (h1 : proj.c2.z ≠ 0)
    (h2 : proj.c2.z ≠ 1)
    (h3 : proj.c0.x ≠ 0)
    (h4 : proj.c1.y ≠ 0) :
    (glm_persp_decompv_lh_zo (proj.map ret) : V6 (Dfd o)) = (glm_persp_decompv_lh_zo proj).map ret := by
  have e1 : -proj.c2.z ≠ 0 := neg_ne_zero.2 h1
  have e2 : -proj.c2.z + lit 1 ≠ 0 := by simp only [lit_real]; push_cast; intro h; apply h2; linarith
  dfd_step glm_persp_decompv_lh_zo

@[dfd] theorem C72_persp_decomp_x_lh_zo (proj : M4 ℝ)
    (h1 : proj.c3.w ≠ 0)
    (h2 : proj.c0.x ≠ 0) :
    (glm_persp_decomp_x_lh_zo (proj.map ret) : Dfd o × Dfd o) = (ret ((glm_persp_decomp_x_lh_zo proj).1), ret ((glm_persp_decomp_x_lh_zo proj).2)) := by
  dfd_step glm_persp_decomp_x_lh_zo

@[dfd] theorem C72_persp_decomp_y_lh_zo (proj : M4 ℝ)
    (h1 : proj.c3.w ≠ 0)
    (h2 : proj.c1.y ≠ 0) :
    (glm_persp_decomp_y_lh_zo (proj.map ret) : Dfd o × Dfd o) = (ret ((glm_persp_decomp_y_lh_zo proj).1), ret ((glm_persp_decomp_y_lh_zo proj).2)) := by
  dfd_step glm_persp_decomp_y_lh_zo

@[dfd] theorem C72_persp_decomp_z_lh_zo (proj : M4 ℝ)
    (h1 : proj.c2.z ≠ 0)
    (h2 : proj.c2.z ≠ 1) :
    (glm_persp_decomp_z_lh_zo (proj.map ret) : Dfd o × Dfd o) = (ret ((glm_persp_decomp_z_lh_zo proj).1), ret ((glm_persp_decomp_z_lh_zo proj).2)) := by
  have e1 : -proj.c2.z ≠ 0 := neg_ne_zero.2 h1
  have e2 : -proj.c2.z + lit 1 ≠ 0 := by simp only [lit_real]; push_cast; intro h; apply h2; linarith
  dfd_step glm_persp_decomp_z_lh_zo

@[dfd] theorem C72_persp_decomp_far_lh_zo (proj : M4 ℝ)
    (h1 : proj.c2.z ≠ 1) :
    (glm_persp_decomp_far_lh_zo (proj.map ret) : Dfd o) = ret (glm_persp_decomp_far_lh_zo proj) := by
  have e2 : -proj.c2.z + lit 1 ≠ 0 := by simp only [lit_real]; push_cast; intro h; apply h1; linarith
  dfd_step glm_persp_decomp_far_lh_zo

@[dfd] theorem C72_persp_decomp_near_lh_zo (proj : M4 ℝ)
    (h1 : proj.c2.z ≠ 0) :
    (glm_persp_decomp_near_lh_zo (proj.map ret) : Dfd o) = ret (glm_persp_decomp_near_lh_zo proj) := by
  have e1 : -proj.c2.z ≠ 0 := neg_ne_zero.2 h1
  dfd_step glm_persp_decomp_near_lh_zo

@[dfd] theorem C72_persp_sizes_lh_zo (proj : M4 ℝ) (fovy : ℝ)
    (h1 : proj.c2.z ≠ 0)
    (h2 : proj.c2.z ≠ 1)
    (h3 : proj.c0.x ≠ 0)
    (h4 : cosf (fovy * lit 0.5) ≠ 0) :
    (glm_persp_sizes_lh_zo (proj.map ret) (ret fovy) : V4 (Dfd o)) = (glm_persp_sizes_lh_zo proj fovy).map ret := by
  dfd_step glm_persp_sizes_lh_zo

@[dfd] theorem C72_persp_fovy_lh_zo (proj : M4 ℝ)
    (h1 : proj.c1.y ≠ 0) :
    (glm_persp_fovy_lh_zo (proj.map ret) : Dfd o) = ret (glm_persp_fovy_lh_zo proj) := by
  dfd_step glm_persp_fovy_lh_zo

@[dfd] theorem C72_persp_aspect_lh_zo (proj : M4 ℝ)
    (h1 : proj.c0.x ≠ 0) :
    (glm_persp_aspect_lh_zo (proj.map ret) : Dfd o) = ret (glm_persp_aspect_lh_zo proj) := by
  dfd_step glm_persp_aspect_lh_zo

end Cglm

end C72ClipspacePerspLhZo

section C72ClipspacePerspRhZo

/-! # C72: defined arithmetic, ClipspacePerspRhZo

Generated by tools/defdthms.py.  On defined arguments the function evaluated over `Dfd o`, where division by zero and
the like are visible, gives the (defined) result of the function over ℝ.  Where arguments are excluded, the
hypotheses say which. -/

namespace Cglm
open Dfd
variable {o : Orc}


@[dfd] theorem C72_frustum_rh_zo (left : ℝ) (right : ℝ) (bottom : ℝ) (top : ℝ) (nearZ : ℝ) (farZ : ℝ)
    (h1 : left ≠ right)
    (h2 : bottom ≠ top)
    (h3 : nearZ ≠ farZ) :
    (glm_frustum_rh_zo (ret left) (ret right) (ret bottom) (ret top) (ret nearZ) (ret farZ) : M4 (Dfd o)) = (glm_frustum_rh_zo left right bottom top nearZ farZ).map ret := by
  dfd_step glm_frustum_rh_zo

@[dfd] theorem C72_perspective_rh_zo (fovy : ℝ) (aspect : ℝ) (nearZ : ℝ) (farZ : ℝ)
    (h1 : cosf (fovy * lit 0.5) ≠ 0)
    (h2 : sinf (fovy * lit 0.5) ≠ 0)
    (h3 : aspect ≠ 0)
    (h4 : nearZ ≠ farZ) :
    (glm_perspective_rh_zo (ret fovy) (ret aspect) (ret nearZ) (ret farZ) : M4 (Dfd o)) = (glm_perspective_rh_zo fovy aspect nearZ farZ).map ret := by
  have e : tanf (fovy * lit 0.5) ≠ 0 := tan_ne_zero h1 h2
  dfd_step glm_perspective_rh_zo

@[dfd] theorem C72_perspective_default_rh_zo (aspect : ℝ)
    (h1 : aspect ≠ 0) :
    (glm_perspective_default_rh_zo (ret aspect) : M4 (Dfd o)) = (glm_perspective_default_rh_zo aspect).map ret := by
  have e1 := cos_pi_eighth_ne_zero
  have e2 := sin_pi_eighth_ne_zero
  have e4 := tan_ne_zero e1 e2
  have e3 : (lit 0.01 : ℝ) ≠ lit 100 := by simp only [lit_real]; norm_num
  dfd_step glm_perspective_default_rh_zo

@[dfd] theorem C72_perspective_resize_rh_zo (aspect : ℝ) (proj : M4 ℝ)
    (h1 : proj.c0.x = 0 ∨ aspect ≠ 0) :
    (glm_perspective_resize_rh_zo (ret aspect) (proj.map ret) : M4 (Dfd o)) = (glm_perspective_resize_rh_zo aspect proj).map ret := by
  by_cases c : feq proj.c0.x (lit 0 : ℝ) = true
  · simp (disch := dfd_side) only [glm_perspective_resize_rh_zo, dfd, c, if_true]
  · have e : aspect ≠ 0 := h1.resolve_left (ne_zero_of_not_feq c)
    dfd_step glm_perspective_resize_rh_zo

@[dfd] theorem C72_persp_move_far_rh_zo (proj : M4 ℝ) (deltaFar : ℝ)
    (h1 : proj.c2.z ≠ 0)
    (h2 : proj.c2.z ≠ -1)
    (h3 : proj.c3.z / proj.c2.z ≠ proj.c3.z / (proj.c2.z + lit 1) + deltaFar) :
    (glm_persp_move_far_rh_zo (proj.map ret) (ret deltaFar) : M4 (Dfd o)) = (glm_persp_move_far_rh_zo proj deltaFar).map ret := by
  have e2 : proj.c2.z + lit 1 ≠ 0 := by simp only [lit_real]; push_cast; intro h; apply h2; linarith
  dfd_step glm_persp_move_far_rh_zo

@[dfd] theorem C72_persp_decomp_rh_zo (proj : M4 ℝ)
    (h1 : proj.c2.z ≠ 0)
    (h2 : proj.c2.z ≠ -1)
    (h3 : proj.c0.x ≠ 0)
    (h4 : proj.c1.y ≠ 0) :
    (glm_persp_decomp_rh_zo (proj.map ret) : Dfd o × Dfd o × Dfd o × Dfd o × Dfd o × Dfd o) = (ret ((glm_persp_decomp_rh_zo proj).1), ret ((glm_persp_decomp_rh_zo proj).2.1), ret ((glm_persp_decomp_rh_zo proj).2.2.1), ret ((glm_persp_decomp_rh_zo proj).2.2.2.1), ret ((glm_persp_decomp_rh_zo proj).2.2.2.2.1), ret ((glm_persp_decomp_rh_zo proj).2.2.2.2.2)) := by
  have e2 : proj.c2.z + lit 1 ≠ 0 := by simp only [lit_real]; push_cast; intro h; apply h2; linarith
  dfd_step glm_persp_decomp_rh_zo

@[dfd] theorem C72_persp_decompv_rh_zo (proj : M4 ℝ)
    (h1 : proj.c2.z ≠ 0)
    (h2 : proj.c2.z ≠ -1)
    (h3 : proj.c0.x ≠ 0)
    (h4 : proj.c1.y ≠ 0) :
    (glm_persp_decompv_rh_zo (proj.map ret) : V6 (Dfd o)) = (glm_persp_decompv_rh_zo proj).map ret := by
  have e2 : proj.c2.z + lit 1 ≠ 0 := by simp only [lit_real]; push_cast; intro h; apply h2; linarith
  dfd_step glm_persp_decompv_rh_zo

@[dfd] theorem C72_persp_decomp_x_rh_zo (proj : M4 ℝ)
    (h1 : proj.c2.z ≠ 0)
    (h2 : proj.c0.x ≠ 0) :
    (glm_persp_decomp_x_rh_zo (proj.map ret) : Dfd o × Dfd o) = (ret ((glm_persp_decomp_x_rh_zo proj).1), ret ((glm_persp_decomp_x_rh_zo proj).2)) := by
  dfd_step glm_persp_decomp_x_rh_zo

@[dfd] theorem C72_persp_decomp_y_rh_zo (proj : M4 ℝ)
    (h1 : proj.c2.z ≠ 0)
    (h2 : proj.c1.y ≠ 0) :
    (glm_persp_decomp_y_rh_zo (proj.map ret) : Dfd o × Dfd o) = (ret ((glm_persp_decomp_y_rh_zo proj).1), ret ((glm_persp_decomp_y_rh_zo proj).2)) := by
  dfd_step glm_persp_decomp_y_rh_zo

@[dfd] theorem C72_persp_decomp_z_rh_zo (proj : M4 ℝ)
    (h1 : proj.c2.z ≠ 0)
    (h2 : proj.c2.z ≠ -1) :
    (glm_persp_decomp_z_rh_zo (proj.map ret) : Dfd o × Dfd o) = (ret ((glm_persp_decomp_z_rh_zo proj).1), ret ((glm_persp_decomp_z_rh_zo proj).2)) := by
  have e2 : proj.c2.z + lit 1 ≠ 0 := by simp only [lit_real]; push_cast; intro h; apply h2; linarith
  dfd_step glm_persp_decomp_z_rh_zo

@[dfd] theorem C72_persp_decomp_far_rh_zo (proj : M4 ℝ)
    (h1 : proj.c2.z ≠ -1) :
    (glm_persp_decomp_far_rh_zo (proj.map ret) : Dfd o) = ret (glm_persp_decomp_far_rh_zo proj) := by
  have e2 : proj.c2.z + lit 1 ≠ 0 := by simp only [lit_real]; push_cast; intro h; apply h1; linarith
  dfd_step glm_persp_decomp_far_rh_zo

@[dfd] theorem C72_persp_decomp_near_rh_zo (proj : M4 ℝ)
    (h1 : proj.c2.z ≠ 0) :
    (glm_persp_decomp_near_rh_zo (proj.map ret) : Dfd o) = ret (glm_persp_decomp_near_rh_zo proj) := by
  dfd_step glm_persp_decomp_near_rh_zo

@[dfd] theorem C72_persp_sizes_rh_zo (proj : M4 ℝ) (fovy : ℝ)
    (h1 : proj.c2.z ≠ 0)
    (h2 : proj.c2.z ≠ -1)
    (h3 : proj.c0.x ≠ 0)
    (h4 : cosf (fovy * lit 0.5) ≠ 0) :
    (glm_persp_sizes_rh_zo (proj.map ret) (ret fovy) : V4 (Dfd o)) = (glm_persp_sizes_rh_zo proj fovy).map ret := by
  dfd_step glm_persp_sizes_rh_zo

@[dfd] theorem C72_persp_fovy_rh_zo (proj : M4 ℝ)
    (h1 : proj.c1.y ≠ 0) :
    (glm_persp_fovy_rh_zo (proj.map ret) : Dfd o) = ret (glm_persp_fovy_rh_zo proj) := by
  dfd_step glm_persp_fovy_rh_zo

@[dfd] theorem C72_persp_aspect_rh_zo (proj : M4 ℝ)
    (h1 : proj.c0.x ≠ 0) :
    (glm_persp_aspect_rh_zo (proj.map ret) : Dfd o) = ret (glm_persp_aspect_rh_zo proj) := by
  dfd_step glm_persp_aspect_rh_zo

end Cglm

end C72ClipspacePerspRhZo

section C72ClipspaceProjectNo

/-! # C72: defined arithmetic, ClipspaceProjectNo

Generated by tools/defdthms.py.  On defined arguments the function evaluated over `Dfd o`, where division by zero and
the like are visible, gives the (defined) result of the function over ℝ.  Where arguments are excluded, the
hypotheses say which. -/

namespace Cglm
open Dfd
variable {o : Orc}


@[dfd] theorem C72_unprojecti_no (pos : V3 ℝ) (invMat : M4 ℝ) (vp : V4 ℝ)
    (h1 : vp.z ≠ 0)
    (h2 : vp.w ≠ 0)
    (h3 : (glm_mat4_mulv invMat ⟨(lit 2) * (pos.x - vp.x) / vp.z - (lit 1), (lit 2) * (pos.y - vp.y) / vp.w - (lit 1), (lit 2) * pos.z - (lit 1), lit 1⟩).w ≠ 0) :
    (glm_unprojecti_no (pos.map ret) (invMat.map ret) (vp.map ret) : V3 (Dfd o)) = (glm_unprojecti_no pos invMat vp).map ret := by
  dfd_step glm_unprojecti_no

@[dfd] theorem C72_project_no (pos : V3 ℝ) (m : M4 ℝ) (vp : V4 ℝ)
    (h1 : (glm_mat4_mulv m (glm_vec4 pos (lit 1))).w ≠ 0) :
    (glm_project_no (pos.map ret) (m.map ret) (vp.map ret) : V3 (Dfd o)) = (glm_project_no pos m vp).map ret := by
  dfd_step glm_project_no

@[dfd] theorem C72_project_z_no (v : V3 ℝ) (m : M4 ℝ)
    (h1 : m.c0.w * v.x + m.c1.w * v.y + m.c2.w * v.z + m.c3.w ≠ 0) :
    (glm_project_z_no (v.map ret) (m.map ret) : Dfd o) = ret (glm_project_z_no v m) := by
  dfd_step glm_project_z_no

end Cglm

end C72ClipspaceProjectNo

section C72ClipspaceProjectZo

/-! # C72: defined arithmetic, ClipspaceProjectZo

Generated by tools/defdthms.py.  On defined arguments the function evaluated over `Dfd o`, where division by zero and
the like are visible, gives the (defined) result of the function over ℝ.  Where arguments are excluded, the
hypotheses say which. -/

namespace Cglm
open Dfd
variable {o : Orc}


@[dfd] theorem C72_unprojecti_zo (pos : V3 ℝ) (invMat : M4 ℝ) (vp : V4 ℝ)
    (h1 : vp.z ≠ 0)
    (h2 : vp.w ≠ 0)
    (h3 : (glm_mat4_mulv invMat ⟨(lit 2) * (pos.x - vp.x) / vp.z - (lit 1), (lit 2) * (pos.y - vp.y) / vp.w - (lit 1), pos.z, lit 1⟩).w ≠ 0) :
    (glm_unprojecti_zo (pos.map ret) (invMat.map ret) (vp.map ret) : V3 (Dfd o)) = (glm_unprojecti_zo pos invMat vp).map ret := by
  dfd_step glm_unprojecti_zo

@[dfd] theorem C72_project_zo (pos : V3 ℝ) (m : M4 ℝ) (vp : V4 ℝ)
    (h1 : (glm_mat4_mulv m (glm_vec4 pos (lit 1))).w ≠ 0) :
    (glm_project_zo (pos.map ret) (m.map ret) (vp.map ret) : V3 (Dfd o)) = (glm_project_zo pos m vp).map ret := by
  dfd_step glm_project_zo

@[dfd] theorem C72_project_z_zo (v : V3 ℝ) (m : M4 ℝ)
    (h1 : m.c0.w * v.x + m.c1.w * v.y + m.c2.w * v.z + m.c3.w ≠ 0) :
    (glm_project_z_zo (v.map ret) (m.map ret) : Dfd o) = ret (glm_project_z_zo v m) := by
  dfd_step glm_project_z_zo

end Cglm

end C72ClipspaceProjectZo

section C72ClipspaceViewLh

/-! # C72: defined arithmetic, ClipspaceViewLh

Generated by tools/defdthms.py.  On defined arguments the function evaluated over `Dfd o`, where division by zero and
the like are visible, gives the (defined) result of the function over ℝ.  Where arguments are excluded, the
hypotheses say which. -/

namespace Cglm
open Dfd
variable {o : Orc}


@[dfd] theorem C72_lookat_lh (eye : V3 ℝ) (center : V3 ℝ) (up : V3 ℝ) :
    (glm_lookat_lh (eye.map ret) (center.map ret) (up.map ret) : M4 (Dfd o)) = (glm_lookat_lh eye center up).map ret := by
  dfd_step glm_lookat_lh

@[dfd] theorem C72_look_lh (eye : V3 ℝ) (dir : V3 ℝ) (up : V3 ℝ) :
    (glm_look_lh (eye.map ret) (dir.map ret) (up.map ret) : M4 (Dfd o)) = (glm_look_lh eye dir up).map ret := by
  dfd_step glm_look_lh

@[dfd] theorem C72_look_anyup_lh (eye : V3 ℝ) (dir : V3 ℝ) :
    (glm_look_anyup_lh (eye.map ret) (dir.map ret) : M4 (Dfd o)) = (glm_look_anyup_lh eye dir).map ret := by
  dfd_step glm_look_anyup_lh

end Cglm

end C72ClipspaceViewLh

section C72ClipspaceViewLhNo

/-! # C72: defined arithmetic, ClipspaceViewLhNo

Generated by tools/defdthms.py.  On defined arguments the function evaluated over `Dfd o`, where division by zero and
the like are visible, gives the (defined) result of the function over ℝ.  Where arguments are excluded, the
hypotheses say which. -/

namespace Cglm
open Dfd
variable {o : Orc}


@[dfd] theorem C72_lookat_lh_no (eye : V3 ℝ) (center : V3 ℝ) (up : V3 ℝ) :
    (glm_lookat_lh_no (eye.map ret) (center.map ret) (up.map ret) : M4 (Dfd o)) = (glm_lookat_lh_no eye center up).map ret := by
  dfd_step glm_lookat_lh_no

@[dfd] theorem C72_look_lh_no (eye : V3 ℝ) (dir : V3 ℝ) (up : V3 ℝ) :
    (glm_look_lh_no (eye.map ret) (dir.map ret) (up.map ret) : M4 (Dfd o)) = (glm_look_lh_no eye dir up).map ret := by
  dfd_step glm_look_lh_no

@[dfd] theorem C72_look_anyup_lh_no (eye : V3 ℝ) (dir : V3 ℝ) :
    (glm_look_anyup_lh_no (eye.map ret) (dir.map ret) : M4 (Dfd o)) = (glm_look_anyup_lh_no eye dir).map ret := by
  dfd_step glm_look_anyup_lh_no

end Cglm

end C72ClipspaceViewLhNo

section C72ClipspaceViewLhZo

/-! # C72: defined arithmetic, ClipspaceViewLhZo

Generated by tools/defdthms.py.  On defined arguments the function evaluated over `Dfd o`, where division by zero and
the like are visible, gives the (defined) result of the function over ℝ.  Where arguments are excluded, the
hypotheses say which. -/

namespace Cglm
open Dfd
variable {o : Orc}


@[dfd] theorem C72_lookat_lh_zo (eye : V3 ℝ) (center : V3 ℝ) (up : V3 ℝ) :
    (glm_lookat_lh_zo (eye.map ret) (center.map ret) (up.map ret) : M4 (Dfd o)) = (glm_lookat_lh_zo eye center up).map ret := by
  dfd_step glm_lookat_lh_zo

@[dfd] theorem C72_look_lh_zo (eye : V3 ℝ) (dir : V3 ℝ) (up : V3 ℝ) :
    (glm_look_lh_zo (eye.map ret) (dir.map ret) (up.map ret) : M4 (Dfd o)) = (glm_look_lh_zo eye dir up).map ret := by
  dfd_step glm_look_lh_zo

@[dfd] theorem C72_look_anyup_lh_zo (eye : V3 ℝ) (dir : V3 ℝ) :
    (glm_look_anyup_lh_zo (eye.map ret) (dir.map ret) : M4 (Dfd o)) = (glm_look_anyup_lh_zo eye dir).map ret := by
  dfd_step glm_look_anyup_lh_zo

end Cglm

end C72ClipspaceViewLhZo

section C72ClipspaceViewRhNo

/-! # C72: defined arithmetic, ClipspaceViewRhNo

Generated by tools/defdthms.py.  On defined arguments the function evaluated over `Dfd o`, where division by zero and
the like are visible, gives the (defined) result of the function over ℝ.  Where arguments are excluded, the
hypotheses say which. -/

namespace Cglm
open Dfd
variable {o : Orc}


@[dfd] theorem C72_lookat_rh_no (eye : V3 ℝ) (center : V3 ℝ) (up : V3 ℝ) :
    (glm_lookat_rh_no (eye.map ret) (center.map ret) (up.map ret) : M4 (Dfd o)) = (glm_lookat_rh_no eye center up).map ret := by
  dfd_step glm_lookat_rh_no

@[dfd] theorem C72_look_rh_no (eye : V3 ℝ) (dir : V3 ℝ) (up : V3 ℝ) :
    (glm_look_rh_no (eye.map ret) (dir.map ret) (up.map ret) : M4 (Dfd o)) = (glm_look_rh_no eye dir up).map ret := by
  dfd_step glm_look_rh_no

@[dfd] theorem C72_look_anyup_rh_no (eye : V3 ℝ) (dir : V3 ℝ) :
    (glm_look_anyup_rh_no (eye.map ret) (dir.map ret) : M4 (Dfd o)) = (glm_look_anyup_rh_no eye dir).map ret := by
  dfd_step glm_look_anyup_rh_no

end Cglm

end C72ClipspaceViewRhNo

section C72ClipspaceViewRhZo

/-! # C72: defined arithmetic, ClipspaceViewRhZo

Generated by tools/defdthms.py.  On defined arguments the function evaluated over `Dfd o`, where division by zero and
the like are visible, gives the (defined) result of the function over ℝ.  Where arguments are excluded, the
hypotheses say which. -/

namespace Cglm
open Dfd
variable {o : Orc}


@[dfd] theorem C72_lookat_rh_zo (eye : V3 ℝ) (center : V3 ℝ) (up : V3 ℝ) :
    (glm_lookat_rh_zo (eye.map ret) (center.map ret) (up.map ret) : M4 (Dfd o)) = (glm_lookat_rh_zo eye center up).map ret := by
  dfd_step glm_lookat_rh_zo

@[dfd] theorem C72_look_rh_zo (eye : V3 ℝ) (dir : V3 ℝ) (up : V3 ℝ) :
    (glm_look_rh_zo (eye.map ret) (dir.map ret) (up.map ret) : M4 (Dfd o)) = (glm_look_rh_zo eye dir up).map ret := by
  dfd_step glm_look_rh_zo

@[dfd] theorem C72_look_anyup_rh_zo (eye : V3 ℝ) (dir : V3 ℝ) :
    (glm_look_anyup_rh_zo (eye.map ret) (dir.map ret) : M4 (Dfd o)) = (glm_look_anyup_rh_zo eye dir).map ret := by
  dfd_step glm_look_anyup_rh_zo

end Cglm

end C72ClipspaceViewRhZo

section C72Project

/-! # C72: defined arithmetic, Project

Generated by tools/defdthms.py.  On defined arguments the function evaluated over `Dfd o`, where division by zero and
the like are visible, gives the (defined) result of the function over ℝ.  Where arguments are excluded, the
hypotheses say which. -/

namespace Cglm
open Dfd
variable {o : Orc}


@[dfd] theorem C72_unprojecti (pos : V3 ℝ) (invMat : M4 ℝ) (vp : V4 ℝ)
    (h1 : vp.z ≠ 0)
    (h2 : vp.w ≠ 0)
    (h3 : (glm_mat4_mulv invMat ⟨(lit 2) * (pos.x - vp.x) / vp.z - (lit 1), (lit 2) * (pos.y - vp.y) / vp.w - (lit 1), (lit 2) * pos.z - (lit 1), lit 1⟩).w ≠ 0) :
    (glm_unprojecti (pos.map ret) (invMat.map ret) (vp.map ret) : V3 (Dfd o)) = (glm_unprojecti pos invMat vp).map ret := by
  dfd_step glm_unprojecti

@[dfd] theorem C72_unproject (pos : V3 ℝ) (m : M4 ℝ) (vp : V4 ℝ)
    (h1 : glm_mat4_det m ≠ 0)
    (h2 : vp.z ≠ 0)
    (h3 : vp.w ≠ 0)
    (h4 : (glm_mat4_mulv (glm_mat4_inv m) ⟨(lit 2) * (pos.x - vp.x) / vp.z - (lit 1), (lit 2) * (pos.y - vp.y) / vp.w - (lit 1), (lit 2) * pos.z - (lit 1), lit 1⟩).w ≠ 0) :
    (glm_unproject (pos.map ret) (m.map ret) (vp.map ret) : V3 (Dfd o)) = (glm_unproject pos m vp).map ret := by
  dfd_step glm_unproject

@[dfd] theorem C72_project (pos : V3 ℝ) (m : M4 ℝ) (vp : V4 ℝ)
    (h1 : (glm_mat4_mulv m (glm_vec4 pos (lit 1))).w ≠ 0) :
    (glm_project (pos.map ret) (m.map ret) (vp.map ret) : V3 (Dfd o)) = (glm_project pos m vp).map ret := by
  dfd_step glm_project

@[dfd] theorem C72_project_z (v : V3 ℝ) (m : M4 ℝ)
    (h1 : m.c0.w * v.x + m.c1.w * v.y + m.c2.w * v.z + m.c3.w ≠ 0) :
    (glm_project_z (v.map ret) (m.map ret) : Dfd o) = ret (glm_project_z v m) := by
  dfd_step glm_project_z

@[dfd] theorem C72_pickmatrix (center : V2 ℝ) (size : V2 ℝ) (vp : V4 ℝ) (dest : M4 ℝ) :
    (glm_pickmatrix (center.map ret) (size.map ret) (vp.map ret) (dest.map ret) : M4 (Dfd o)) = (glm_pickmatrix center size vp dest).map ret := by
  dfd_step glm_pickmatrix

end Cglm

end C72Project
