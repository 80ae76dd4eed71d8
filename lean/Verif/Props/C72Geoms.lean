/- Generated by tools/defdthms.py, joined by tools/merge.py; do not edit by hand. -/
import Verif.DefdTac
import Verif.Gen.Aabb2d
import Verif.Props.C72Vecs
import Verif.Gen.Bezier
import Verif.Gen.Box
import Verif.Gen.Color
import Verif.Gen.Curve
import Verif.Props.C72Mats
import Verif.Gen.Ease
import Verif.Gen.Plane
import Verif.Gen.Frustum
import Verif.Gen.Ray
import Verif.Gen.Sphere

section C72Aabb2d

/-! # C72: defined arithmetic, Aabb2d

Generated by tools/defdthms.py.  On defined arguments the function evaluated over `Dfd o`, where division by zero and
the like are visible, gives the (defined) result of the function over ℝ.  Where arguments are excluded, the
hypotheses say which. -/

namespace Cglm
open Dfd
variable {o : Orc}


@[dfd] theorem C72_aabb2d_zero :
    (glm_aabb2d_zero : M2 (Dfd o)) = glm_aabb2d_zero.map ret := by
  dfd_step glm_aabb2d_zero

@[dfd] theorem C72_aabb2d_copy (aabb : M2 ℝ) :
    (glm_aabb2d_copy (aabb.map ret) : M2 (Dfd o)) = (glm_aabb2d_copy aabb).map ret := by
  dfd_step glm_aabb2d_copy

@[dfd] theorem C72_aabb2d_transform (aabb : M2 ℝ) (m : M3 ℝ) :
    (glm_aabb2d_transform (aabb.map ret) (m.map ret) : M2 (Dfd o)) = (glm_aabb2d_transform aabb m).map ret := by
  dfd_step glm_aabb2d_transform

@[dfd] theorem C72_aabb2d_merge (aabb1 : M2 ℝ) (aabb2 : M2 ℝ) :
    (glm_aabb2d_merge (aabb1.map ret) (aabb2.map ret) : M2 (Dfd o)) = (glm_aabb2d_merge aabb1 aabb2).map ret := by
  dfd_step glm_aabb2d_merge

@[dfd] theorem C72_aabb2d_crop (aabb : M2 ℝ) (cropAabb : M2 ℝ) :
    (glm_aabb2d_crop (aabb.map ret) (cropAabb.map ret) : M2 (Dfd o)) = (glm_aabb2d_crop aabb cropAabb).map ret := by
  dfd_step glm_aabb2d_crop

@[dfd] theorem C72_aabb2d_crop_until (aabb : M2 ℝ) (cropAabb : M2 ℝ) (clampAabb : M2 ℝ) :
    (glm_aabb2d_crop_until (aabb.map ret) (cropAabb.map ret) (clampAabb.map ret) : M2 (Dfd o)) = (glm_aabb2d_crop_until aabb cropAabb clampAabb).map ret := by
  dfd_step glm_aabb2d_crop_until

@[dfd] theorem C72_aabb2d_invalidate :
    (glm_aabb2d_invalidate : M2 (Dfd o)) = glm_aabb2d_invalidate.map ret := by
  dfd_step glm_aabb2d_invalidate

@[dfd] theorem C72_aabb2d_isvalid (aabb : M2 ℝ) :
    (glm_aabb2d_isvalid (aabb.map (ret (o := o))) : Bool) = glm_aabb2d_isvalid aabb := by
  dfd_step glm_aabb2d_isvalid

@[dfd] theorem C72_aabb2d_diag (aabb : M2 ℝ) :
    (glm_aabb2d_diag (aabb.map ret) : Dfd o) = ret (glm_aabb2d_diag aabb) := by
  dfd_step glm_aabb2d_diag

@[dfd] theorem C72_aabb2d_sizev (aabb : M2 ℝ) :
    (glm_aabb2d_sizev (aabb.map ret) : V2 (Dfd o)) = (glm_aabb2d_sizev aabb).map ret := by
  dfd_step glm_aabb2d_sizev

@[dfd] theorem C72_aabb2d_radius (aabb : M2 ℝ) :
    (glm_aabb2d_radius (aabb.map ret) : Dfd o) = ret (glm_aabb2d_radius aabb) := by
  dfd_step glm_aabb2d_radius

@[dfd] theorem C72_aabb2d_center (aabb : M2 ℝ) :
    (glm_aabb2d_center (aabb.map ret) : V2 (Dfd o)) = (glm_aabb2d_center aabb).map ret := by
  dfd_step glm_aabb2d_center

@[dfd] theorem C72_aabb2d_aabb (aabb : M2 ℝ) (other : M2 ℝ) :
    (glm_aabb2d_aabb (aabb.map (ret (o := o))) (other.map (ret (o := o))) : Bool) = glm_aabb2d_aabb aabb other := by
  dfd_step glm_aabb2d_aabb

@[dfd] theorem C72_aabb2d_circle (aabb : M2 ℝ) (c : V3 ℝ) :
    (glm_aabb2d_circle (aabb.map (ret (o := o))) (c.map (ret (o := o))) : Bool) = glm_aabb2d_circle aabb c := by
  dfd_step glm_aabb2d_circle

@[dfd] theorem C72_aabb2d_point (aabb : M2 ℝ) (point : V2 ℝ) :
    (glm_aabb2d_point (aabb.map (ret (o := o))) (point.map (ret (o := o))) : Bool) = glm_aabb2d_point aabb point := by
  dfd_step glm_aabb2d_point

@[dfd] theorem C72_aabb2d_contains (aabb : M2 ℝ) (other : M2 ℝ) :
    (glm_aabb2d_contains (aabb.map (ret (o := o))) (other.map (ret (o := o))) : Bool) = glm_aabb2d_contains aabb other := by
  dfd_step glm_aabb2d_contains

end Cglm

end C72Aabb2d

section C72Bezier

/-! # C72: defined arithmetic, Bezier

Generated by tools/defdthms.py.  On defined arguments the function evaluated over `Dfd o`, where division by zero and
the like are visible, gives the (defined) result of the function over ℝ.  Where arguments are excluded, the
hypotheses say which. -/

namespace Cglm
open Dfd
variable {o : Orc}


@[dfd] theorem C72_bezier (s : ℝ) (p0 : ℝ) (c0 : ℝ) (c1 : ℝ) (p1 : ℝ) :
    (glm_bezier (ret s) (ret p0) (ret c0) (ret c1) (ret p1) : Dfd o) = ret (glm_bezier s p0 c0 c1 p1) := by
  dfd_step glm_bezier

@[dfd] theorem C72_hermite (s : ℝ) (p0 : ℝ) (t0 : ℝ) (t1 : ℝ) (p1 : ℝ) :
    (glm_hermite (ret s) (ret p0) (ret t0) (ret t1) (ret p1) : Dfd o) = ret (glm_hermite s p0 t0 t1 p1) := by
  dfd_step glm_hermite

end Cglm

end C72Bezier

section C72Box

/-! # C72: defined arithmetic, Box

Generated by tools/defdthms.py.  On defined arguments the function evaluated over `Dfd o`, where division by zero and
the like are visible, gives the (defined) result of the function over ℝ.  Where arguments are excluded, the
hypotheses say which. -/

namespace Cglm
open Dfd
variable {o : Orc}


@[dfd] theorem C72_aabb_transform (box : M2x3 ℝ) (m : M4 ℝ) :
    (glm_aabb_transform (box.map ret) (m.map ret) : M2x3 (Dfd o)) = (glm_aabb_transform box m).map ret := by
  dfd_step glm_aabb_transform

@[dfd] theorem C72_aabb_merge (box1 : M2x3 ℝ) (box2 : M2x3 ℝ) :
    (glm_aabb_merge (box1.map ret) (box2.map ret) : M2x3 (Dfd o)) = (glm_aabb_merge box1 box2).map ret := by
  dfd_step glm_aabb_merge

@[dfd] theorem C72_aabb_crop (box : M2x3 ℝ) (cropBox : M2x3 ℝ) :
    (glm_aabb_crop (box.map ret) (cropBox.map ret) : M2x3 (Dfd o)) = (glm_aabb_crop box cropBox).map ret := by
  dfd_step glm_aabb_crop

@[dfd] theorem C72_aabb_crop_until (box : M2x3 ℝ) (cropBox : M2x3 ℝ) (clampBox : M2x3 ℝ) :
    (glm_aabb_crop_until (box.map ret) (cropBox.map ret) (clampBox.map ret) : M2x3 (Dfd o)) = (glm_aabb_crop_until box cropBox clampBox).map ret := by
  dfd_step glm_aabb_crop_until

@[dfd] theorem C72_aabb_frustum (box : M2x3 ℝ) (planes : M6x4 ℝ) :
    (glm_aabb_frustum (box.map (ret (o := o))) (planes.map (ret (o := o))) : Bool) = glm_aabb_frustum box planes := by
  dfd_step glm_aabb_frustum

@[dfd] theorem C72_aabb_invalidate :
    (glm_aabb_invalidate : M2x3 (Dfd o)) = glm_aabb_invalidate.map ret := by
  dfd_step glm_aabb_invalidate

@[dfd] theorem C72_aabb_isvalid (box : M2x3 ℝ) :
    (glm_aabb_isvalid (box.map (ret (o := o))) : Bool) = glm_aabb_isvalid box := by
  dfd_step glm_aabb_isvalid

@[dfd] theorem C72_aabb_size (box : M2x3 ℝ) :
    (glm_aabb_size (box.map ret) : Dfd o) = ret (glm_aabb_size box) := by
  dfd_step glm_aabb_size

@[dfd] theorem C72_aabb_radius (box : M2x3 ℝ) :
    (glm_aabb_radius (box.map ret) : Dfd o) = ret (glm_aabb_radius box) := by
  dfd_step glm_aabb_radius

@[dfd] theorem C72_aabb_center (box : M2x3 ℝ) :
    (glm_aabb_center (box.map ret) : V3 (Dfd o)) = (glm_aabb_center box).map ret := by
  dfd_step glm_aabb_center

@[dfd] theorem C72_aabb_aabb (box : M2x3 ℝ) (other : M2x3 ℝ) :
    (glm_aabb_aabb (box.map (ret (o := o))) (other.map (ret (o := o))) : Bool) = glm_aabb_aabb box other := by
  dfd_step glm_aabb_aabb

@[dfd] theorem C72_aabb_sphere (box : M2x3 ℝ) (s : V4 ℝ) :
    (glm_aabb_sphere (box.map (ret (o := o))) (s.map (ret (o := o))) : Bool) = glm_aabb_sphere box s := by
  dfd_step glm_aabb_sphere

@[dfd] theorem C72_aabb_point (box : M2x3 ℝ) (point : V3 ℝ) :
    (glm_aabb_point (box.map (ret (o := o))) (point.map (ret (o := o))) : Bool) = glm_aabb_point box point := by
  dfd_step glm_aabb_point

@[dfd] theorem C72_aabb_contains (box : M2x3 ℝ) (other : M2x3 ℝ) :
    (glm_aabb_contains (box.map (ret (o := o))) (other.map (ret (o := o))) : Bool) = glm_aabb_contains box other := by
  dfd_step glm_aabb_contains

end Cglm

end C72Box

section C72Color

/-! # C72: defined arithmetic, Color

Generated by tools/defdthms.py.  On defined arguments the function evaluated over `Dfd o`, where division by zero and
the like are visible, gives the (defined) result of the function over ℝ.  Where arguments are excluded, the
hypotheses say which. -/

namespace Cglm
open Dfd
variable {o : Orc}


@[dfd] theorem C72_luminance (rgb : V3 ℝ) :
    (glm_luminance (rgb.map ret) : Dfd o) = ret (glm_luminance rgb) := by
  dfd_step glm_luminance

end Cglm

end C72Color

section C72Curve

/-! # C72: defined arithmetic, Curve

Generated by tools/defdthms.py.  On defined arguments the function evaluated over `Dfd o`, where division by zero and
the like are visible, gives the (defined) result of the function over ℝ.  Where arguments are excluded, the
hypotheses say which. -/

namespace Cglm
open Dfd
variable {o : Orc}


@[dfd] theorem C72_smc (s : ℝ) (m : M4 ℝ) (c : V4 ℝ) :
    (glm_smc (ret s) (m.map ret) (c.map ret) : Dfd o) = ret (glm_smc s m c) := by
  dfd_step glm_smc

end Cglm

end C72Curve

section C72Ease

/-! # C72: defined arithmetic, Ease

Generated by tools/defdthms.py.  On defined arguments the function evaluated over `Dfd o`, where division by zero and
the like are visible, gives the (defined) result of the function over ℝ.  Where arguments are excluded, the
hypotheses say which. -/

namespace Cglm
open Dfd
variable {o : Orc}


@[dfd] theorem C72_ease_linear (t : ℝ) :
    (glm_ease_linear (ret t) : Dfd o) = ret (glm_ease_linear t) := by
  dfd_step glm_ease_linear

@[dfd] theorem C72_ease_sine_in (t : ℝ) :
    (glm_ease_sine_in (ret t) : Dfd o) = ret (glm_ease_sine_in t) := by
  dfd_step glm_ease_sine_in

@[dfd] theorem C72_ease_sine_out (t : ℝ) :
    (glm_ease_sine_out (ret t) : Dfd o) = ret (glm_ease_sine_out t) := by
  dfd_step glm_ease_sine_out

@[dfd] theorem C72_ease_sine_inout (t : ℝ) :
    (glm_ease_sine_inout (ret t) : Dfd o) = ret (glm_ease_sine_inout t) := by
  dfd_step glm_ease_sine_inout

@[dfd] theorem C72_ease_quad_in (t : ℝ) :
    (glm_ease_quad_in (ret t) : Dfd o) = ret (glm_ease_quad_in t) := by
  dfd_step glm_ease_quad_in

@[dfd] theorem C72_ease_quad_out (t : ℝ) :
    (glm_ease_quad_out (ret t) : Dfd o) = ret (glm_ease_quad_out t) := by
  dfd_step glm_ease_quad_out

@[dfd] theorem C72_ease_quad_inout (t : ℝ) :
    (glm_ease_quad_inout (ret t) : Dfd o) = ret (glm_ease_quad_inout t) := by
  dfd_step glm_ease_quad_inout

@[dfd] theorem C72_ease_cubic_in (t : ℝ) :
    (glm_ease_cubic_in (ret t) : Dfd o) = ret (glm_ease_cubic_in t) := by
  dfd_step glm_ease_cubic_in

@[dfd] theorem C72_ease_cubic_out (t : ℝ) :
    (glm_ease_cubic_out (ret t) : Dfd o) = ret (glm_ease_cubic_out t) := by
  dfd_step glm_ease_cubic_out

@[dfd] theorem C72_ease_cubic_inout (t : ℝ) :
    (glm_ease_cubic_inout (ret t) : Dfd o) = ret (glm_ease_cubic_inout t) := by
  dfd_step glm_ease_cubic_inout

@[dfd] theorem C72_ease_quart_in (t : ℝ) :
    (glm_ease_quart_in (ret t) : Dfd o) = ret (glm_ease_quart_in t) := by
  dfd_step glm_ease_quart_in

@[dfd] theorem C72_ease_quart_out (t : ℝ) :
    (glm_ease_quart_out (ret t) : Dfd o) = ret (glm_ease_quart_out t) := by
  dfd_step glm_ease_quart_out

@[dfd] theorem C72_ease_quart_inout (t : ℝ) :
    (glm_ease_quart_inout (ret t) : Dfd o) = ret (glm_ease_quart_inout t) := by
  dfd_step glm_ease_quart_inout

@[dfd] theorem C72_ease_quint_in (t : ℝ) :
    (glm_ease_quint_in (ret t) : Dfd o) = ret (glm_ease_quint_in t) := by
  dfd_step glm_ease_quint_in

@[dfd] theorem C72_ease_quint_out (t : ℝ) :
    (glm_ease_quint_out (ret t) : Dfd o) = ret (glm_ease_quint_out t) := by
  dfd_step glm_ease_quint_out

@[dfd] theorem C72_ease_quint_inout (t : ℝ) :
    (glm_ease_quint_inout (ret t) : Dfd o) = ret (glm_ease_quint_inout t) := by
  dfd_step glm_ease_quint_inout

@[dfd] theorem C72_ease_exp_in (t : ℝ) :
    (glm_ease_exp_in (ret t) : Dfd o) = ret (glm_ease_exp_in t) := by
  dfd_step glm_ease_exp_in

@[dfd] theorem C72_ease_exp_out (t : ℝ) :
    (glm_ease_exp_out (ret t) : Dfd o) = ret (glm_ease_exp_out t) := by
  dfd_step glm_ease_exp_out

@[dfd] theorem C72_ease_exp_inout (t : ℝ) :
    (glm_ease_exp_inout (ret t) : Dfd o) = ret (glm_ease_exp_inout t) := by
  dfd_step glm_ease_exp_inout

@[dfd] theorem C72_ease_circ_in (t : ℝ)
    (h1 : -1 ≤ t)
    (h2 : t ≤ 1) :
    (glm_ease_circ_in (ret t) : Dfd o) = ret (glm_ease_circ_in t) := by
  have e : 0 ≤ lit 1 - t * t := by simp only [lit_real]; push_cast; nlinarith
  dfd_step glm_ease_circ_in

@[dfd] theorem C72_ease_circ_out (t : ℝ)
    (h1 : 0 ≤ t)
    (h2 : t ≤ 2) :
    (glm_ease_circ_out (ret t) : Dfd o) = ret (glm_ease_circ_out t) := by
  have e : 0 ≤ (lit 2 - t) * t := by simp only [lit_real]; push_cast; nlinarith
  dfd_step glm_ease_circ_out

@[dfd] theorem C72_ease_circ_inout (t : ℝ)
    (h1 : -1 / 2 ≤ t)
    (h2 : t ≤ 3 / 2) :
    (glm_ease_circ_inout (ret t) : Dfd o) = ret (glm_ease_circ_inout t) := by
  by_cases hc : flt t (lit 0.5 : ℝ) = true
  · have e : 0 ≤ lit 1 - lit 4 * (t * t) := by
      simp only [flt, lit_real, decide_eq_true_eq] at hc ⊢
      push_cast at hc ⊢
      norm_num at hc
      nlinarith
    simp (disch := dfd_side) only [glm_ease_circ_inout, dfd, hc, if_true]
  · have e : 0 ≤ -(lit 2 * t - lit 3) * (lit 2 * t - lit 1) := by
      simp only [flt, lit_real, decide_eq_true_eq] at hc ⊢
      push_cast at hc ⊢
      norm_num at hc
      nlinarith
    simp (disch := dfd_side) only [glm_ease_circ_inout, dfd, hc, if_false, Bool.false_eq_true]

@[dfd] theorem C72_ease_back_in (t : ℝ) :
    (glm_ease_back_in (ret t) : Dfd o) = ret (glm_ease_back_in t) := by
  dfd_step glm_ease_back_in

@[dfd] theorem C72_ease_back_out (t : ℝ) :
    (glm_ease_back_out (ret t) : Dfd o) = ret (glm_ease_back_out t) := by
  dfd_step glm_ease_back_out

@[dfd] theorem C72_ease_back_inout (t : ℝ) :
    (glm_ease_back_inout (ret t) : Dfd o) = ret (glm_ease_back_inout t) := by
  dfd_step glm_ease_back_inout

@[dfd] theorem C72_ease_elast_in (t : ℝ) :
    (glm_ease_elast_in (ret t) : Dfd o) = ret (glm_ease_elast_in t) := by
  dfd_step glm_ease_elast_in

@[dfd] theorem C72_ease_elast_out (t : ℝ) :
    (glm_ease_elast_out (ret t) : Dfd o) = ret (glm_ease_elast_out t) := by
  dfd_step glm_ease_elast_out

@[dfd] theorem C72_ease_elast_inout (t : ℝ) :
    (glm_ease_elast_inout (ret t) : Dfd o) = ret (glm_ease_elast_inout t) := by
  dfd_step glm_ease_elast_inout

@[dfd] theorem C72_ease_bounce_out (t : ℝ) :
    (glm_ease_bounce_out (ret t) : Dfd o) = ret (glm_ease_bounce_out t) := by
  dfd_step glm_ease_bounce_out

@[dfd] theorem C72_ease_bounce_in (t : ℝ) :
    (glm_ease_bounce_in (ret t) : Dfd o) = ret (glm_ease_bounce_in t) := by
  dfd_step glm_ease_bounce_in

@[dfd] theorem C72_ease_bounce_inout (t : ℝ) :
    (glm_ease_bounce_inout (ret t) : Dfd o) = ret (glm_ease_bounce_inout t) := by
  dfd_step glm_ease_bounce_inout

end Cglm

end C72Ease

section C72Plane

/-! # C72: defined arithmetic, Plane

Generated by tools/defdthms.py.  On defined arguments the function evaluated over `Dfd o`, where division by zero and
the like are visible, gives the (defined) result of the function over ℝ.  Where arguments are excluded, the
hypotheses say which. -/

namespace Cglm
open Dfd
variable {o : Orc}


@[dfd] theorem C72_plane_normalize (plane : V4 ℝ) :
    (glm_plane_normalize (plane.map ret) : V4 (Dfd o)) = (glm_plane_normalize plane).map ret := by
  dfd_step glm_plane_normalize

end Cglm

end C72Plane

section C72Frustum

/-! # C72: defined arithmetic, Frustum

Generated by tools/defdthms.py.  On defined arguments the function evaluated over `Dfd o`, where division by zero and
the like are visible, gives the (defined) result of the function over ℝ.  Where arguments are excluded, the
hypotheses say which. -/

namespace Cglm
open Dfd
variable {o : Orc}


@[dfd] theorem C72_frustum_planes (m : M4 ℝ) :
    (glm_frustum_planes (m.map ret) : M6x4 (Dfd o)) = (glm_frustum_planes m).map ret := by
  dfd_step glm_frustum_planes

@[dfd] theorem C72_frustum_corners (invMat : M4 ℝ)
    (h1 : (glm_mat4_mulv invMat ⟨-lit 1, -lit 1, -lit 1, lit 1⟩).w ≠ 0)
    (h2 : (glm_mat4_mulv invMat ⟨-lit 1, lit 1, -lit 1, lit 1⟩).w ≠ 0)
    (h3 : (glm_mat4_mulv invMat ⟨lit 1, lit 1, -lit 1, lit 1⟩).w ≠ 0)
    (h4 : (glm_mat4_mulv invMat ⟨lit 1, -lit 1, -lit 1, lit 1⟩).w ≠ 0)
    (h5 : (glm_mat4_mulv invMat ⟨-lit 1, -lit 1, lit 1, lit 1⟩).w ≠ 0)
    (h6 : (glm_mat4_mulv invMat ⟨-lit 1, lit 1, lit 1, lit 1⟩).w ≠ 0)
    (h7 : (glm_mat4_mulv invMat ⟨lit 1, lit 1, lit 1, lit 1⟩).w ≠ 0)
    (h8 : (glm_mat4_mulv invMat ⟨lit 1, -lit 1, lit 1, lit 1⟩).w ≠ 0) :
    (glm_frustum_corners (invMat.map ret) : M8x4 (Dfd o)) = (glm_frustum_corners invMat).map ret := by
  dfd_step glm_frustum_corners

@[dfd] theorem C72_frustum_center (corners : M8x4 ℝ) :
    (glm_frustum_center (corners.map ret) : V4 (Dfd o)) = (glm_frustum_center corners).map ret := by
  dfd_step glm_frustum_center

@[dfd] theorem C72_frustum_box (corners : M8x4 ℝ) (m : M4 ℝ) :
    (glm_frustum_box (corners.map ret) (m.map ret) : M2x3 (Dfd o)) = (glm_frustum_box corners m).map ret := by
  dfd_step glm_frustum_box

@[dfd] theorem C72_frustum_corners_at (corners : M8x4 ℝ) (splitDist : ℝ) (farDist : ℝ)
    (h1 : farDist ≠ 0) :
    (glm_frustum_corners_at (corners.map ret) (ret splitDist) (ret farDist) : M4 (Dfd o)) = (glm_frustum_corners_at corners splitDist farDist).map ret := by
  dfd_step glm_frustum_corners_at

end Cglm

end C72Frustum

section C72Ray

/-! # C72: defined arithmetic, Ray

Generated by tools/defdthms.py.  On defined arguments the function evaluated over `Dfd o`, where division by zero and
the like are visible, gives the (defined) result of the function over ℝ.  Where arguments are excluded, the
hypotheses say which. -/

namespace Cglm
open Dfd
variable {o : Orc}


@[dfd] theorem C72_ray_triangle (origin : V3 ℝ) (direction : V3 ℝ) (v0 : V3 ℝ) (v1 : V3 ℝ) (v2 : V3 ℝ) (d : ℝ) :
    (glm_ray_triangle (origin.map ret) (direction.map ret) (v0.map ret) (v1.map ret) (v2.map ret) (ret d) : Bool × Dfd o) = ((glm_ray_triangle origin direction v0 v1 v2 d).1, ret ((glm_ray_triangle origin direction v0 v1 v2 d).2)) := by
  dfd_step glm_ray_triangle

@[dfd] theorem C72_ray_sphere (origin : V3 ℝ) (dir : V3 ℝ) (s : V4 ℝ) (t1 : ℝ) (t2 : ℝ)
    (h1 : ¬ (glm_vec3_dot dir (glm_vec3_sub ⟨s.x, s.y, s.z⟩ origin) = 0 ∧ s.w * s.w - glm_vec3_norm2 (glm_vec3_mulsubs dir (glm_vec3_dot dir (glm_vec3_sub ⟨s.x, s.y, s.z⟩ origin)) (glm_vec3_sub ⟨s.x, s.y, s.z⟩ origin)) = 0)) :
    (glm_ray_sphere (origin.map ret) (dir.map ret) (s.map ret) (ret t1) (ret t2) : Bool × Dfd o × Dfd o) = ((glm_ray_sphere origin dir s t1 t2).1, ret ((glm_ray_sphere origin dir s t1 t2).2.1), ret ((glm_ray_sphere origin dir s t1 t2).2.2)) := by
  by_cases c1 : flt (s.w * s.w - glm_vec3_norm2 (glm_vec3_mulsubs dir (glm_vec3_dot dir (glm_vec3_sub ⟨s.x, s.y, s.z⟩ origin)) (glm_vec3_sub ⟨s.x, s.y, s.z⟩ origin))) (lit 0 : ℝ) = true
  · simp (disch := dfd_side) only [glm_ray_sphere, dfd, c1, if_true]
  · have e := nonneg_of_not_flt c1
    have e2 := ray_sphere_divisor c1 h1
    dfd_step glm_ray_sphere

@[dfd] theorem C72_ray_at (orig : V3 ℝ) (dir : V3 ℝ) (t : ℝ) :
    (glm_ray_at (orig.map ret) (dir.map ret) (ret t) : V3 (Dfd o)) = (glm_ray_at orig dir t).map ret := by
  dfd_step glm_ray_at

end Cglm

end C72Ray

section C72Sphere

/-! # C72: defined arithmetic, Sphere

Generated by tools/defdthms.py.  On defined arguments the function evaluated over `Dfd o`, where division by zero and
the like are visible, gives the (defined) result of the function over ℝ.  Where arguments are excluded, the
hypotheses say which. -/

namespace Cglm
open Dfd
variable {o : Orc}


@[dfd] theorem C72_sphere_radii (s : V4 ℝ) :
    (glm_sphere_radii (s.map ret) : Dfd o) = ret (glm_sphere_radii s) := by
  dfd_step glm_sphere_radii

@[dfd] theorem C72_sphere_transform (s : V4 ℝ) (m : M4 ℝ) :
    (glm_sphere_transform (s.map ret) (m.map ret) : V4 (Dfd o)) = (glm_sphere_transform s m).map ret := by
  dfd_step glm_sphere_transform

@[dfd] theorem C72_sphere_merge (s1 : V4 ℝ) (s2 : V4 ℝ) :
    (glm_sphere_merge (s1.map ret) (s2.map ret) : V4 (Dfd o)) = (glm_sphere_merge s1 s2).map ret := by
  dfd_step glm_sphere_merge

@[dfd] theorem C72_sphere_sphere (s1 : V4 ℝ) (s2 : V4 ℝ) :
    (glm_sphere_sphere (s1.map (ret (o := o))) (s2.map (ret (o := o))) : Bool) = glm_sphere_sphere s1 s2 := by
  dfd_step glm_sphere_sphere

@[dfd] theorem C72_sphere_point (s : V4 ℝ) (point : V3 ℝ) :
    (glm_sphere_point (s.map (ret (o := o))) (point.map (ret (o := o))) : Bool) = glm_sphere_point s point := by
  dfd_step glm_sphere_point

end Cglm

end C72Sphere
