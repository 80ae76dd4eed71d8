/- Generated by tools/defdthms.py, joined by tools/merge.py; do not edit by hand. -/
import Verif.DefdTac
import Verif.Gen.HandedEulerToQuatRh
import Verif.Gen.Euler
import Verif.Gen.HandedEulerToQuatLh
import Verif.Gen.Quat
import Verif.Props.C72Affines
import Verif.Props.C72Mats
import Verif.Props.C72Vecs

section C72HandedEulerToQuatRh

/-! # C72: defined arithmetic, HandedEulerToQuatRh

Generated by tools/defdthms.py.  On defined arguments the function evaluated over `Dfd o`, where division by zero and
the like are visible, gives the (defined) result of the function over ℝ.  Where arguments are excluded, the
hypotheses say which. -/

namespace Cglm
open Dfd
variable {o : Orc}


@[dfd] theorem C72_euler_xyz_quat_rh (angles : V3 ℝ) :
    (glm_euler_xyz_quat_rh (angles.map ret) : V4 (Dfd o)) = (glm_euler_xyz_quat_rh angles).map ret := by
  dfd_step glm_euler_xyz_quat_rh

@[dfd] theorem C72_euler_xzy_quat_rh (angles : V3 ℝ) :
    (glm_euler_xzy_quat_rh (angles.map ret) : V4 (Dfd o)) = (glm_euler_xzy_quat_rh angles).map ret := by
  dfd_step glm_euler_xzy_quat_rh

@[dfd] theorem C72_euler_yxz_quat_rh (angles : V3 ℝ) :
    (glm_euler_yxz_quat_rh (angles.map ret) : V4 (Dfd o)) = (glm_euler_yxz_quat_rh angles).map ret := by
  dfd_step glm_euler_yxz_quat_rh

@[dfd] theorem C72_euler_yzx_quat_rh (angles : V3 ℝ) :
    (glm_euler_yzx_quat_rh (angles.map ret) : V4 (Dfd o)) = (glm_euler_yzx_quat_rh angles).map ret := by
  dfd_step glm_euler_yzx_quat_rh

@[dfd] theorem C72_euler_zxy_quat_rh (angles : V3 ℝ) :
    (glm_euler_zxy_quat_rh (angles.map ret) : V4 (Dfd o)) = (glm_euler_zxy_quat_rh angles).map ret := by
  dfd_step glm_euler_zxy_quat_rh

@[dfd] theorem C72_euler_zyx_quat_rh (angles : V3 ℝ) :
    (glm_euler_zyx_quat_rh (angles.map ret) : V4 (Dfd o)) = (glm_euler_zyx_quat_rh angles).map ret := by
  dfd_step glm_euler_zyx_quat_rh

end Cglm

end C72HandedEulerToQuatRh

section C72Euler

/-! # C72: defined arithmetic, Euler

Generated by tools/defdthms.py.  On defined arguments the function evaluated over `Dfd o`, where division by zero and
the like are visible, gives the (defined) result of the function over ℝ.  Where arguments are excluded, the
hypotheses say which. -/

namespace Cglm
open Dfd
variable {o : Orc}


@[dfd] theorem C72_euler_angles (m : M4 ℝ)
    (h1 : -1 < m.c2.x → m.c2.x < 1 → ¬ (m.c2.y = 0 ∧ m.c2.z = 0) ∧ ¬ (m.c1.x = 0 ∧ m.c0.x = 0))
    (h2 : m.c2.x ≤ -1 ∨ 1 ≤ m.c2.x → ¬ (m.c0.y = 0 ∧ m.c1.y = 0)) :
    (glm_euler_angles (m.map ret) : V3 (Dfd o)) = (glm_euler_angles m).map ret := by
  by_cases c1 : flt m.c2.x (lit 1 : ℝ) = true
  · by_cases c2 : flt (-lit 1 : ℝ) m.c2.x = true
    · have b1 : m.c2.x < 1 := by simpa only [flt, lit_real, decide_eq_true_eq, Rat.cast_one] using c1
      have b2 : -1 < m.c2.x := by simpa only [flt, lit_real, decide_eq_true_eq, Rat.cast_one] using c2
      have b3 := b1.le
      have b4 := b2.le
      have e1 : ¬ (-m.c2.y = 0 ∧ m.c2.z = 0) := by simpa only [neg_eq_zero] using (h1 b2 b1).1
      have e2 : ¬ (-m.c1.x = 0 ∧ m.c0.x = 0) := by simpa only [neg_eq_zero] using (h1 b2 b1).2
      simp (disch := dfd_side) only [glm_euler_angles, dfd, c1, c2, if_true]
    · have b2 : m.c2.x ≤ -1 := by simpa only [flt, lit_real, decide_eq_true_eq, Rat.cast_one, not_lt] using c2
      have e := h2 (Or.inl b2)
      simp (disch := dfd_side) only [glm_euler_angles, dfd, c1, c2, if_true, if_false, Bool.false_eq_true]
  · have b1 : 1 ≤ m.c2.x := by simpa only [flt, lit_real, decide_eq_true_eq, Rat.cast_one, not_lt] using c1
    have e := h2 (Or.inr b1)
    simp (disch := dfd_side) only [glm_euler_angles, dfd, c1, if_false, Bool.false_eq_true]

@[dfd] theorem C72_euler_xyz (angles : V3 ℝ) :
    (glm_euler_xyz (angles.map ret) : M4 (Dfd o)) = (glm_euler_xyz angles).map ret := by
  dfd_step glm_euler_xyz

@[dfd] theorem C72_euler (angles : V3 ℝ) :
    (glm_euler (angles.map ret) : M4 (Dfd o)) = (glm_euler angles).map ret := by
  dfd_step glm_euler

@[dfd] theorem C72_euler_xzy (angles : V3 ℝ) :
    (glm_euler_xzy (angles.map ret) : M4 (Dfd o)) = (glm_euler_xzy angles).map ret := by
  dfd_step glm_euler_xzy

@[dfd] theorem C72_euler_yxz (angles : V3 ℝ) :
    (glm_euler_yxz (angles.map ret) : M4 (Dfd o)) = (glm_euler_yxz angles).map ret := by
  dfd_step glm_euler_yxz

@[dfd] theorem C72_euler_yzx (angles : V3 ℝ) :
    (glm_euler_yzx (angles.map ret) : M4 (Dfd o)) = (glm_euler_yzx angles).map ret := by
  dfd_step glm_euler_yzx

@[dfd] theorem C72_euler_zxy (angles : V3 ℝ) :
    (glm_euler_zxy (angles.map ret) : M4 (Dfd o)) = (glm_euler_zxy angles).map ret := by
  dfd_step glm_euler_zxy

@[dfd] theorem C72_euler_zyx (angles : V3 ℝ) :
    (glm_euler_zyx (angles.map ret) : M4 (Dfd o)) = (glm_euler_zyx angles).map ret := by
  dfd_step glm_euler_zyx

@[dfd] theorem C72_euler_xyz_quat (angles : V3 ℝ) :
    (glm_euler_xyz_quat (angles.map ret) : V4 (Dfd o)) = (glm_euler_xyz_quat angles).map ret := by
  dfd_step glm_euler_xyz_quat

@[dfd] theorem C72_euler_xzy_quat (angles : V3 ℝ) :
    (glm_euler_xzy_quat (angles.map ret) : V4 (Dfd o)) = (glm_euler_xzy_quat angles).map ret := by
  dfd_step glm_euler_xzy_quat

@[dfd] theorem C72_euler_yxz_quat (angles : V3 ℝ) :
    (glm_euler_yxz_quat (angles.map ret) : V4 (Dfd o)) = (glm_euler_yxz_quat angles).map ret := by
  dfd_step glm_euler_yxz_quat

@[dfd] theorem C72_euler_yzx_quat (angles : V3 ℝ) :
    (glm_euler_yzx_quat (angles.map ret) : V4 (Dfd o)) = (glm_euler_yzx_quat angles).map ret := by
  dfd_step glm_euler_yzx_quat

@[dfd] theorem C72_euler_zxy_quat (angles : V3 ℝ) :
    (glm_euler_zxy_quat (angles.map ret) : V4 (Dfd o)) = (glm_euler_zxy_quat angles).map ret := by
  dfd_step glm_euler_zxy_quat

@[dfd] theorem C72_euler_zyx_quat (angles : V3 ℝ) :
    (glm_euler_zyx_quat (angles.map ret) : V4 (Dfd o)) = (glm_euler_zyx_quat angles).map ret := by
  dfd_step glm_euler_zyx_quat

end Cglm

end C72Euler

section C72HandedEulerToQuatLh

/-! # C72: defined arithmetic, HandedEulerToQuatLh

Generated by tools/defdthms.py.  On defined arguments the function evaluated over `Dfd o`, where division by zero and
the like are visible, gives the (defined) result of the function over ℝ.  Where arguments are excluded, the
hypotheses say which. -/

namespace Cglm
open Dfd
variable {o : Orc}


@[dfd] theorem C72_euler_xyz_quat_lh (angles : V3 ℝ) :
    (glm_euler_xyz_quat_lh (angles.map ret) : V4 (Dfd o)) = (glm_euler_xyz_quat_lh angles).map ret := by
  dfd_step glm_euler_xyz_quat_lh

@[dfd] theorem C72_euler_xzy_quat_lh (angles : V3 ℝ) :
    (glm_euler_xzy_quat_lh (angles.map ret) : V4 (Dfd o)) = (glm_euler_xzy_quat_lh angles).map ret := by
  dfd_step glm_euler_xzy_quat_lh

@[dfd] theorem C72_euler_yxz_quat_lh (angles : V3 ℝ) :
    (glm_euler_yxz_quat_lh (angles.map ret) : V4 (Dfd o)) = (glm_euler_yxz_quat_lh angles).map ret := by
  dfd_step glm_euler_yxz_quat_lh

@[dfd] theorem C72_euler_yzx_quat_lh (angles : V3 ℝ) :
    (glm_euler_yzx_quat_lh (angles.map ret) : V4 (Dfd o)) = (glm_euler_yzx_quat_lh angles).map ret := by
  dfd_step glm_euler_yzx_quat_lh

@[dfd] theorem C72_euler_zxy_quat_lh (angles : V3 ℝ) :
    (glm_euler_zxy_quat_lh (angles.map ret) : V4 (Dfd o)) = (glm_euler_zxy_quat_lh angles).map ret := by
  dfd_step glm_euler_zxy_quat_lh

@[dfd] theorem C72_euler_zyx_quat_lh (angles : V3 ℝ) :
    (glm_euler_zyx_quat_lh (angles.map ret) : V4 (Dfd o)) = (glm_euler_zyx_quat_lh angles).map ret := by
  dfd_step glm_euler_zyx_quat_lh

end Cglm

end C72HandedEulerToQuatLh

section C72Quat

/-! # C72: defined arithmetic, Quat

Generated by tools/defdthms.py.  On defined arguments the function evaluated over `Dfd o`, where division by zero and
the like are visible, gives the (defined) result of the function over ℝ.  Where arguments are excluded, the
hypotheses say which. -/

namespace Cglm
open Dfd
variable {o : Orc}


@[dfd] theorem C72_quat_identity :
    (glm_quat_identity : V4 (Dfd o)) = glm_quat_identity.map ret := by
  dfd_step glm_quat_identity

@[dfd] theorem C72_quat_init (x : ℝ) (y : ℝ) (z : ℝ) (w : ℝ) :
    (glm_quat_init (ret x) (ret y) (ret z) (ret w) : V4 (Dfd o)) = (glm_quat_init x y z w).map ret := by
  dfd_step glm_quat_init

@[dfd] theorem C72_quatv (angle : ℝ) (axis : V3 ℝ) :
    (glm_quatv (ret angle) (axis.map ret) : V4 (Dfd o)) = (glm_quatv angle axis).map ret := by
  dfd_step glm_quatv

@[dfd] theorem C72_quat (angle : ℝ) (x : ℝ) (y : ℝ) (z : ℝ) :
    (glm_quat (ret angle) (ret x) (ret y) (ret z) : V4 (Dfd o)) = (glm_quat angle x y z).map ret := by
  dfd_step glm_quat

@[dfd] theorem C72_quat_copy (q : V4 ℝ) :
    (glm_quat_copy (q.map ret) : V4 (Dfd o)) = (glm_quat_copy q).map ret := by
  dfd_step glm_quat_copy

@[dfd] theorem C72_quat_norm (q : V4 ℝ) :
    (glm_quat_norm (q.map ret) : Dfd o) = ret (glm_quat_norm q) := by
  dfd_step glm_quat_norm

@[dfd] theorem C72_quat_normalize_to (q : V4 ℝ) :
    (glm_quat_normalize_to (q.map ret) : V4 (Dfd o)) = (glm_quat_normalize_to q).map ret := by
  dfd_step glm_quat_normalize_to

@[dfd] theorem C72_quat_normalize (q : V4 ℝ) :
    (glm_quat_normalize (q.map ret) : V4 (Dfd o)) = (glm_quat_normalize q).map ret := by
  dfd_step glm_quat_normalize

@[dfd] theorem C72_quat_dot (p : V4 ℝ) (q : V4 ℝ) :
    (glm_quat_dot (p.map ret) (q.map ret) : Dfd o) = ret (glm_quat_dot p q) := by
  dfd_step glm_quat_dot

@[dfd] theorem C72_quat_conjugate (q : V4 ℝ) :
    (glm_quat_conjugate (q.map ret) : V4 (Dfd o)) = (glm_quat_conjugate q).map ret := by
  dfd_step glm_quat_conjugate

@[dfd] theorem C72_quat_inv (q : V4 ℝ)
    (h1 : glm_vec4_norm2 q ≠ 0) :
    (glm_quat_inv (q.map ret) : V4 (Dfd o)) = (glm_quat_inv q).map ret := by
  dfd_step glm_quat_inv

@[dfd] theorem C72_quat_add (p : V4 ℝ) (q : V4 ℝ) :
    (glm_quat_add (p.map ret) (q.map ret) : V4 (Dfd o)) = (glm_quat_add p q).map ret := by
  dfd_step glm_quat_add

@[dfd] theorem C72_quat_sub (p : V4 ℝ) (q : V4 ℝ) :
    (glm_quat_sub (p.map ret) (q.map ret) : V4 (Dfd o)) = (glm_quat_sub p q).map ret := by
  dfd_step glm_quat_sub

@[dfd] theorem C72_quat_real (q : V4 ℝ) :
    (glm_quat_real (q.map ret) : Dfd o) = ret (glm_quat_real q) := by
  dfd_step glm_quat_real

@[dfd] theorem C72_quat_imag (q : V4 ℝ) :
    (glm_quat_imag (q.map ret) : V3 (Dfd o)) = (glm_quat_imag q).map ret := by
  dfd_step glm_quat_imag

@[dfd] theorem C72_quat_imagn (q : V4 ℝ) :
    (glm_quat_imagn (q.map ret) : V3 (Dfd o)) = (glm_quat_imagn q).map ret := by
  dfd_step glm_quat_imagn

@[dfd] theorem C72_quat_imaglen (q : V4 ℝ) :
    (glm_quat_imaglen (q.map ret) : Dfd o) = ret (glm_quat_imaglen q) := by
  dfd_step glm_quat_imaglen

@[dfd] theorem C72_quat_angle (q : V4 ℝ)
    (h1 : ¬ (glm_quat_imaglen q = 0 ∧ glm_quat_real q = 0)) :
    (glm_quat_angle (q.map ret) : Dfd o) = ret (glm_quat_angle q) := by
  dfd_step glm_quat_angle

@[dfd] theorem C72_quat_axis (q : V4 ℝ) :
    (glm_quat_axis (q.map ret) : V3 (Dfd o)) = (glm_quat_axis q).map ret := by
  dfd_step glm_quat_axis

@[dfd] theorem C72_quat_mul (p : V4 ℝ) (q : V4 ℝ) :
    (glm_quat_mul (p.map ret) (q.map ret) : V4 (Dfd o)) = (glm_quat_mul p q).map ret := by
  dfd_step glm_quat_mul

@[dfd] theorem C72_quat_mat4 (q : V4 ℝ) :
    (glm_quat_mat4 (q.map ret) : M4 (Dfd o)) = (glm_quat_mat4 q).map ret := by
  dfd_step glm_quat_mat4

@[dfd] theorem C72_quat_mat4t (q : V4 ℝ) :
    (glm_quat_mat4t (q.map ret) : M4 (Dfd o)) = (glm_quat_mat4t q).map ret := by
  dfd_step glm_quat_mat4t

@[dfd] theorem C72_quat_mat3 (q : V4 ℝ) :
    (glm_quat_mat3 (q.map ret) : M3 (Dfd o)) = (glm_quat_mat3 q).map ret := by
  dfd_step glm_quat_mat3

@[dfd] theorem C72_quat_mat3t (q : V4 ℝ) :
    (glm_quat_mat3t (q.map ret) : M3 (Dfd o)) = (glm_quat_mat3t q).map ret := by
  dfd_step glm_quat_mat3t

@[dfd] theorem C72_quat_lerp (frm : V4 ℝ) (dst : V4 ℝ) (t : ℝ) :
    (glm_quat_lerp (frm.map ret) (dst.map ret) (ret t) : V4 (Dfd o)) = (glm_quat_lerp frm dst t).map ret := by
  dfd_step glm_quat_lerp

@[dfd] theorem C72_quat_lerpc (frm : V4 ℝ) (dst : V4 ℝ) (t : ℝ) :
    (glm_quat_lerpc (frm.map ret) (dst.map ret) (ret t) : V4 (Dfd o)) = (glm_quat_lerpc frm dst t).map ret := by
  dfd_step glm_quat_lerpc

@[dfd] theorem C72_quat_nlerp (frm : V4 ℝ) (dst : V4 ℝ) (t : ℝ) :
    (glm_quat_nlerp (frm.map ret) (dst.map ret) (ret t) : V4 (Dfd o)) = (glm_quat_nlerp frm dst t).map ret := by
  dfd_step glm_quat_nlerp

@[dfd] theorem C72_quat_slerp (frm : V4 ℝ) (dst : V4 ℝ) (t : ℝ) :
    (glm_quat_slerp (frm.map ret) (dst.map ret) (ret t) : V4 (Dfd o)) = (glm_quat_slerp frm dst t).map ret := by
  by_cases c1 : fle (lit 1 : ℝ) (fabsf (glm_quat_dot frm dst)) = true
  · simp (disch := dfd_side) only [glm_quat_slerp, dfd, c1, if_true]
  · obtain ⟨e1, e2, e3, e4, e5, e6⟩ := slerp_range c1
    dfd_step glm_quat_slerp

@[dfd] theorem C72_quat_slerp_longest (frm : V4 ℝ) (dst : V4 ℝ) (t : ℝ) :
    (glm_quat_slerp_longest (frm.map ret) (dst.map ret) (ret t) : V4 (Dfd o)) = (glm_quat_slerp_longest frm dst t).map ret := by
  by_cases c1 : fle (lit 1 : ℝ) (fabsf (glm_quat_dot frm dst)) = true
  · simp (disch := dfd_side) only [glm_quat_slerp_longest, dfd, c1, if_true]
  · obtain ⟨e1, e2, e3, e4, e5, e6⟩ := slerp_range c1
    dfd_step glm_quat_slerp_longest

@[dfd] theorem C72_quat_look (eye : V3 ℝ) (ori : V4 ℝ) :
    (glm_quat_look (eye.map ret) (ori.map ret) : M4 (Dfd o)) = (glm_quat_look eye ori).map ret := by
  dfd_step glm_quat_look

@[dfd] theorem C72_quat_for (dir : V3 ℝ) (up : V3 ℝ) :
    (glm_quat_for (dir.map ret) (up.map ret) : V4 (Dfd o)) = (glm_quat_for dir up).map ret := by
  dfd_step glm_quat_for

@[dfd] theorem C72_quat_forp (frm : V3 ℝ) (dst : V3 ℝ) (up : V3 ℝ) :
    (glm_quat_forp (frm.map ret) (dst.map ret) (up.map ret) : V4 (Dfd o)) = (glm_quat_forp frm dst up).map ret := by
  dfd_step glm_quat_forp

@[dfd] theorem C72_quat_rotatev (q : V4 ℝ) (v : V3 ℝ) :
    (glm_quat_rotatev (q.map ret) (v.map ret) : V3 (Dfd o)) = (glm_quat_rotatev q v).map ret := by
  dfd_step glm_quat_rotatev

@[dfd] theorem C72_quat_rotate (m : M4 ℝ) (q : V4 ℝ) :
    (glm_quat_rotate (m.map ret) (q.map ret) : M4 (Dfd o)) = (glm_quat_rotate m q).map ret := by
  dfd_step glm_quat_rotate

@[dfd] theorem C72_quat_rotate_at (m : M4 ℝ) (q : V4 ℝ) (pivot : V3 ℝ) :
    (glm_quat_rotate_at (m.map ret) (q.map ret) (pivot.map ret) : M4 (Dfd o)) = (glm_quat_rotate_at m q pivot).map ret := by
  dfd_step glm_quat_rotate_at

@[dfd] theorem C72_quat_rotate_atm (q : V4 ℝ) (pivot : V3 ℝ) :
    (glm_quat_rotate_atm (q.map ret) (pivot.map ret) : M4 (Dfd o)) = (glm_quat_rotate_atm q pivot).map ret := by
  dfd_step glm_quat_rotate_atm

@[dfd] theorem C72_quat_make (src : V4 ℝ) :
    (glm_quat_make (src.map ret) : V4 (Dfd o)) = (glm_quat_make src).map ret := by
  dfd_step glm_quat_make

@[dfd] theorem C72_quat_from_vecs (a : V3 ℝ) (b : V3 ℝ) :
    (glm_quat_from_vecs (a.map ret) (b.map ret) : V4 (Dfd o)) = (glm_quat_from_vecs a b).map ret := by
  dfd_step glm_quat_from_vecs

end Cglm

end C72Quat
