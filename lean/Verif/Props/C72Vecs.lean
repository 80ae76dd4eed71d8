/- Generated by tools/defdthms.py, joined by tools/merge.py; do not edit by hand. -/
import Verif.DefdTac
import Verif.Gen.Util
import Verif.Gen.Vec2Ext
import Verif.Gen.Vec2
import Verif.Gen.Vec3Ext
import Verif.Gen.Vec4Ext
import Verif.Gen.Vec4
import Verif.Gen.Vec3

section C72Util

/-! # C72: defined arithmetic, Util

Generated by tools/defdthms.py.  On defined arguments the function evaluated over `Dfd o`, where division by zero and
the like are visible, gives the (defined) result of the function over ℝ.  Where arguments are excluded, the
hypotheses say which. -/

namespace Cglm
open Dfd
variable {o : Orc}


@[dfd] theorem C72_signf (val : ℝ) :
    (glm_signf (ret val) : Dfd o) = ret (glm_signf val) := by
  dfd_step glm_signf

@[dfd] theorem C72_rad (deg : ℝ) :
    (glm_rad (ret deg) : Dfd o) = ret (glm_rad deg) := by
  dfd_step glm_rad

@[dfd] theorem C72_deg (rad : ℝ) :
    (glm_deg (ret rad) : Dfd o) = ret (glm_deg rad) := by
  dfd_step glm_deg

@[dfd] theorem C72_make_rad (deg : ℝ) :
    (glm_make_rad (ret deg) : Dfd o) = ret (glm_make_rad deg) := by
  dfd_step glm_make_rad

@[dfd] theorem C72_make_deg (rad : ℝ) :
    (glm_make_deg (ret rad) : Dfd o) = ret (glm_make_deg rad) := by
  dfd_step glm_make_deg

@[dfd] theorem C72_pow2 (x : ℝ) :
    (glm_pow2 (ret x) : Dfd o) = ret (glm_pow2 x) := by
  dfd_step glm_pow2

@[dfd] theorem C72_min (a : ℝ) (b : ℝ) :
    (glm_min (ret a) (ret b) : Dfd o) = ret (glm_min a b) := by
  dfd_step glm_min

@[dfd] theorem C72_max (a : ℝ) (b : ℝ) :
    (glm_max (ret a) (ret b) : Dfd o) = ret (glm_max a b) := by
  dfd_step glm_max

@[dfd] theorem C72_clamp (val : ℝ) (minVal : ℝ) (maxVal : ℝ) :
    (glm_clamp (ret val) (ret minVal) (ret maxVal) : Dfd o) = ret (glm_clamp val minVal maxVal) := by
  dfd_step glm_clamp

@[dfd] theorem C72_clamp_zo (val : ℝ) :
    (glm_clamp_zo (ret val) : Dfd o) = ret (glm_clamp_zo val) := by
  dfd_step glm_clamp_zo

@[dfd] theorem C72_lerp (frm : ℝ) (dst : ℝ) (t : ℝ) :
    (glm_lerp (ret frm) (ret dst) (ret t) : Dfd o) = ret (glm_lerp frm dst t) := by
  dfd_step glm_lerp

@[dfd] theorem C72_lerpc (frm : ℝ) (dst : ℝ) (t : ℝ) :
    (glm_lerpc (ret frm) (ret dst) (ret t) : Dfd o) = ret (glm_lerpc frm dst t) := by
  dfd_step glm_lerpc

@[dfd] theorem C72_step (edge : ℝ) (x : ℝ) :
    (glm_step (ret edge) (ret x) : Dfd o) = ret (glm_step edge x) := by
  dfd_step glm_step

@[dfd] theorem C72_smooth (t : ℝ) :
    (glm_smooth (ret t) : Dfd o) = ret (glm_smooth t) := by
  dfd_step glm_smooth

@[dfd] theorem C72_smoothstep (edge0 : ℝ) (edge1 : ℝ) (x : ℝ)
    (h1 : edge0 ≠ edge1) :
    (glm_smoothstep (ret edge0) (ret edge1) (ret x) : Dfd o) = ret (glm_smoothstep edge0 edge1 x) := by
  dfd_step glm_smoothstep

@[dfd] theorem C72_smoothinterp (frm : ℝ) (dst : ℝ) (t : ℝ) :
    (glm_smoothinterp (ret frm) (ret dst) (ret t) : Dfd o) = ret (glm_smoothinterp frm dst t) := by
  dfd_step glm_smoothinterp

@[dfd] theorem C72_smoothinterpc (frm : ℝ) (dst : ℝ) (t : ℝ) :
    (glm_smoothinterpc (ret frm) (ret dst) (ret t) : Dfd o) = ret (glm_smoothinterpc frm dst t) := by
  dfd_step glm_smoothinterpc

@[dfd] theorem C72_eq (a : ℝ) (b : ℝ) :
    (glm_eq (ret (o := o) a) (ret (o := o) b) : Bool) = glm_eq a b := by
  dfd_step glm_eq

@[dfd] theorem C72_percent (frm : ℝ) (dst : ℝ) (current : ℝ) :
    (glm_percent (ret frm) (ret dst) (ret current) : Dfd o) = ret (glm_percent frm dst current) := by
  dfd_step glm_percent

@[dfd] theorem C72_percentc (frm : ℝ) (dst : ℝ) (current : ℝ) :
    (glm_percentc (ret frm) (ret dst) (ret current) : Dfd o) = ret (glm_percentc frm dst current) := by
  dfd_step glm_percentc

@[dfd] theorem C72_swapf (a : ℝ) (b : ℝ) :
    (glm_swapf (ret a) (ret b) : Dfd o × Dfd o) = (ret ((glm_swapf a b).1), ret ((glm_swapf a b).2)) := by
  dfd_step glm_swapf

end Cglm

end C72Util

section C72Vec2Ext

/-! # C72: defined arithmetic, Vec2Ext

Generated by tools/defdthms.py.  On defined arguments the function evaluated over `Dfd o`, where division by zero and
the like are visible, gives the (defined) result of the function over ℝ.  Where arguments are excluded, the
hypotheses say which. -/

namespace Cglm
open Dfd
variable {o : Orc}


@[dfd] theorem C72_vec2_fill (val : ℝ) :
    (glm_vec2_fill (ret val) : V2 (Dfd o)) = (glm_vec2_fill val).map ret := by
  dfd_step glm_vec2_fill

@[dfd] theorem C72_vec2_eq (v : V2 ℝ) (val : ℝ) :
    (glm_vec2_eq (v.map (ret (o := o))) (ret (o := o) val) : Bool) = glm_vec2_eq v val := by
  dfd_step glm_vec2_eq

@[dfd] theorem C72_vec2_eq_eps (v : V2 ℝ) (val : ℝ) :
    (glm_vec2_eq_eps (v.map (ret (o := o))) (ret (o := o) val) : Bool) = glm_vec2_eq_eps v val := by
  dfd_step glm_vec2_eq_eps

@[dfd] theorem C72_vec2_eq_all (v : V2 ℝ) :
    (glm_vec2_eq_all (v.map (ret (o := o))) : Bool) = glm_vec2_eq_all v := by
  dfd_step glm_vec2_eq_all

@[dfd] theorem C72_vec2_eqv (a : V2 ℝ) (b : V2 ℝ) :
    (glm_vec2_eqv (a.map (ret (o := o))) (b.map (ret (o := o))) : Bool) = glm_vec2_eqv a b := by
  dfd_step glm_vec2_eqv

@[dfd] theorem C72_vec2_eqv_eps (a : V2 ℝ) (b : V2 ℝ) :
    (glm_vec2_eqv_eps (a.map (ret (o := o))) (b.map (ret (o := o))) : Bool) = glm_vec2_eqv_eps a b := by
  dfd_step glm_vec2_eqv_eps

@[dfd] theorem C72_vec2_max (v : V2 ℝ) :
    (glm_vec2_max (v.map ret) : Dfd o) = ret (glm_vec2_max v) := by
  dfd_step glm_vec2_max

@[dfd] theorem C72_vec2_min (v : V2 ℝ) :
    (glm_vec2_min (v.map ret) : Dfd o) = ret (glm_vec2_min v) := by
  dfd_step glm_vec2_min

@[dfd] theorem C72_vec2_isnan (v : V2 ℝ) :
    (glm_vec2_isnan (v.map (ret (o := o))) : Bool) = glm_vec2_isnan v := by
  dfd_step glm_vec2_isnan

@[dfd] theorem C72_vec2_isinf (v : V2 ℝ) :
    (glm_vec2_isinf (v.map (ret (o := o))) : Bool) = glm_vec2_isinf v := by
  dfd_step glm_vec2_isinf

@[dfd] theorem C72_vec2_isvalid (v : V2 ℝ) :
    (glm_vec2_isvalid (v.map (ret (o := o))) : Bool) = glm_vec2_isvalid v := by
  dfd_step glm_vec2_isvalid

@[dfd] theorem C72_vec2_sign (v : V2 ℝ) :
    (glm_vec2_sign (v.map ret) : V2 (Dfd o)) = (glm_vec2_sign v).map ret := by
  dfd_step glm_vec2_sign

@[dfd] theorem C72_vec2_abs (v : V2 ℝ) :
    (glm_vec2_abs (v.map ret) : V2 (Dfd o)) = (glm_vec2_abs v).map ret := by
  dfd_step glm_vec2_abs

@[dfd] theorem C72_vec2_fract (v : V2 ℝ) :
    (glm_vec2_fract (v.map ret) : V2 (Dfd o)) = (glm_vec2_fract v).map ret := by
  dfd_step glm_vec2_fract

@[dfd] theorem C72_vec2_floor (v : V2 ℝ) :
    (glm_vec2_floor (v.map ret) : V2 (Dfd o)) = (glm_vec2_floor v).map ret := by
  dfd_step glm_vec2_floor

@[dfd] theorem C72_vec2_mods (v : V2 ℝ) (s : ℝ)
    (h1 : s ≠ 0) :
    (glm_vec2_mods (v.map ret) (ret s) : V2 (Dfd o)) = (glm_vec2_mods v s).map ret := by
  dfd_step glm_vec2_mods

@[dfd] theorem C72_vec2_sqrt (v : V2 ℝ)
    (h1 : 0 ≤ v.x)
    (h2 : 0 ≤ v.y) :
    (glm_vec2_sqrt (v.map ret) : V2 (Dfd o)) = (glm_vec2_sqrt v).map ret := by
  dfd_step glm_vec2_sqrt

@[dfd] theorem C72_vec2_complex_mul (a : V2 ℝ) (b : V2 ℝ) :
    (glm_vec2_complex_mul (a.map ret) (b.map ret) : V2 (Dfd o)) = (glm_vec2_complex_mul a b).map ret := by
  dfd_step glm_vec2_complex_mul

@[dfd] theorem C72_vec2_steps (edge : ℝ) (x : V2 ℝ) :
    (glm_vec2_steps (ret edge) (x.map ret) : V2 (Dfd o)) = (glm_vec2_steps edge x).map ret := by
  dfd_step glm_vec2_steps

@[dfd] theorem C72_vec2_stepr (edge : V2 ℝ) (x : ℝ) :
    (glm_vec2_stepr (edge.map ret) (ret x) : V2 (Dfd o)) = (glm_vec2_stepr edge x).map ret := by
  dfd_step glm_vec2_stepr

@[dfd] theorem C72_vec2_complex_div (a : V2 ℝ) (b : V2 ℝ)
    (h1 : ¬ (b.x = 0 ∧ b.y = 0)) :
    (glm_vec2_complex_div (a.map ret) (b.map ret) : V2 (Dfd o)) = (glm_vec2_complex_div a b).map ret := by
  have e := complex_div_divisor h1
  dfd_step glm_vec2_complex_div

@[dfd] theorem C72_vec2_complex_conjugate (a : V2 ℝ) :
    (glm_vec2_complex_conjugate (a.map ret) : V2 (Dfd o)) = (glm_vec2_complex_conjugate a).map ret := by
  dfd_step glm_vec2_complex_conjugate

end Cglm

end C72Vec2Ext

section C72Vec2

/-! # C72: defined arithmetic, Vec2

Generated by tools/defdthms.py.  On defined arguments the function evaluated over `Dfd o`, where division by zero and
the like are visible, gives the (defined) result of the function over ℝ.  Where arguments are excluded, the
hypotheses say which. -/

namespace Cglm
open Dfd
variable {o : Orc}


@[dfd] theorem C72_vec2 (v : V2 ℝ) :
    (glm_vec2 (v.map ret) : V2 (Dfd o)) = (glm_vec2 v).map ret := by
  dfd_step glm_vec2

@[dfd] theorem C72_vec2_copy (a : V2 ℝ) :
    (glm_vec2_copy (a.map ret) : V2 (Dfd o)) = (glm_vec2_copy a).map ret := by
  dfd_step glm_vec2_copy

@[dfd] theorem C72_vec2_zero :
    (glm_vec2_zero : V2 (Dfd o)) = glm_vec2_zero.map ret := by
  dfd_step glm_vec2_zero

@[dfd] theorem C72_vec2_one :
    (glm_vec2_one : V2 (Dfd o)) = glm_vec2_one.map ret := by
  dfd_step glm_vec2_one

@[dfd] theorem C72_vec2_dot (a : V2 ℝ) (b : V2 ℝ) :
    (glm_vec2_dot (a.map ret) (b.map ret) : Dfd o) = ret (glm_vec2_dot a b) := by
  dfd_step glm_vec2_dot

@[dfd] theorem C72_vec2_cross (a : V2 ℝ) (b : V2 ℝ) :
    (glm_vec2_cross (a.map ret) (b.map ret) : Dfd o) = ret (glm_vec2_cross a b) := by
  dfd_step glm_vec2_cross

@[dfd] theorem C72_vec2_norm2 (v : V2 ℝ) :
    (glm_vec2_norm2 (v.map ret) : Dfd o) = ret (glm_vec2_norm2 v) := by
  dfd_step glm_vec2_norm2

@[dfd] theorem C72_vec2_norm (vec : V2 ℝ) :
    (glm_vec2_norm (vec.map ret) : Dfd o) = ret (glm_vec2_norm vec) := by
  dfd_step glm_vec2_norm

@[dfd] theorem C72_vec2_add (a : V2 ℝ) (b : V2 ℝ) :
    (glm_vec2_add (a.map ret) (b.map ret) : V2 (Dfd o)) = (glm_vec2_add a b).map ret := by
  dfd_step glm_vec2_add

@[dfd] theorem C72_vec2_adds (v : V2 ℝ) (s : ℝ) :
    (glm_vec2_adds (v.map ret) (ret s) : V2 (Dfd o)) = (glm_vec2_adds v s).map ret := by
  dfd_step glm_vec2_adds

@[dfd] theorem C72_vec2_sub (a : V2 ℝ) (b : V2 ℝ) :
    (glm_vec2_sub (a.map ret) (b.map ret) : V2 (Dfd o)) = (glm_vec2_sub a b).map ret := by
  dfd_step glm_vec2_sub

@[dfd] theorem C72_vec2_subs (v : V2 ℝ) (s : ℝ) :
    (glm_vec2_subs (v.map ret) (ret s) : V2 (Dfd o)) = (glm_vec2_subs v s).map ret := by
  dfd_step glm_vec2_subs

@[dfd] theorem C72_vec2_mul (a : V2 ℝ) (b : V2 ℝ) :
    (glm_vec2_mul (a.map ret) (b.map ret) : V2 (Dfd o)) = (glm_vec2_mul a b).map ret := by
  dfd_step glm_vec2_mul

@[dfd] theorem C72_vec2_scale (v : V2 ℝ) (s : ℝ) :
    (glm_vec2_scale (v.map ret) (ret s) : V2 (Dfd o)) = (glm_vec2_scale v s).map ret := by
  dfd_step glm_vec2_scale

@[dfd] theorem C72_vec2_scale_as (v : V2 ℝ) (s : ℝ) :
    (glm_vec2_scale_as (v.map ret) (ret s) : V2 (Dfd o)) = (glm_vec2_scale_as v s).map ret := by
  dfd_step glm_vec2_scale_as

@[dfd] theorem C72_vec2_div (a : V2 ℝ) (b : V2 ℝ)
    (h1 : b.x ≠ 0)
    (h2 : b.y ≠ 0) :
    (glm_vec2_div (a.map ret) (b.map ret) : V2 (Dfd o)) = (glm_vec2_div a b).map ret := by
  dfd_step glm_vec2_div

@[dfd] theorem C72_vec2_divs (v : V2 ℝ) (s : ℝ)
    (h1 : s ≠ 0) :
    (glm_vec2_divs (v.map ret) (ret s) : V2 (Dfd o)) = (glm_vec2_divs v s).map ret := by
  dfd_step glm_vec2_divs

@[dfd] theorem C72_vec2_addadd (a : V2 ℝ) (b : V2 ℝ) (dest : V2 ℝ) :
    (glm_vec2_addadd (a.map ret) (b.map ret) (dest.map ret) : V2 (Dfd o)) = (glm_vec2_addadd a b dest).map ret := by
  dfd_step glm_vec2_addadd

@[dfd] theorem C72_vec2_subadd (a : V2 ℝ) (b : V2 ℝ) (dest : V2 ℝ) :
    (glm_vec2_subadd (a.map ret) (b.map ret) (dest.map ret) : V2 (Dfd o)) = (glm_vec2_subadd a b dest).map ret := by
  dfd_step glm_vec2_subadd

@[dfd] theorem C72_vec2_muladd (a : V2 ℝ) (b : V2 ℝ) (dest : V2 ℝ) :
    (glm_vec2_muladd (a.map ret) (b.map ret) (dest.map ret) : V2 (Dfd o)) = (glm_vec2_muladd a b dest).map ret := by
  dfd_step glm_vec2_muladd

@[dfd] theorem C72_vec2_muladds (a : V2 ℝ) (s : ℝ) (dest : V2 ℝ) :
    (glm_vec2_muladds (a.map ret) (ret s) (dest.map ret) : V2 (Dfd o)) = (glm_vec2_muladds a s dest).map ret := by
  dfd_step glm_vec2_muladds

@[dfd] theorem C72_vec2_maxadd (a : V2 ℝ) (b : V2 ℝ) (dest : V2 ℝ) :
    (glm_vec2_maxadd (a.map ret) (b.map ret) (dest.map ret) : V2 (Dfd o)) = (glm_vec2_maxadd a b dest).map ret := by
  dfd_step glm_vec2_maxadd

@[dfd] theorem C72_vec2_minadd (a : V2 ℝ) (b : V2 ℝ) (dest : V2 ℝ) :
    (glm_vec2_minadd (a.map ret) (b.map ret) (dest.map ret) : V2 (Dfd o)) = (glm_vec2_minadd a b dest).map ret := by
  dfd_step glm_vec2_minadd

@[dfd] theorem C72_vec2_subsub (a : V2 ℝ) (b : V2 ℝ) (dest : V2 ℝ) :
    (glm_vec2_subsub (a.map ret) (b.map ret) (dest.map ret) : V2 (Dfd o)) = (glm_vec2_subsub a b dest).map ret := by
  dfd_step glm_vec2_subsub

@[dfd] theorem C72_vec2_addsub (a : V2 ℝ) (b : V2 ℝ) (dest : V2 ℝ) :
    (glm_vec2_addsub (a.map ret) (b.map ret) (dest.map ret) : V2 (Dfd o)) = (glm_vec2_addsub a b dest).map ret := by
  dfd_step glm_vec2_addsub

@[dfd] theorem C72_vec2_mulsub (a : V2 ℝ) (b : V2 ℝ) (dest : V2 ℝ) :
    (glm_vec2_mulsub (a.map ret) (b.map ret) (dest.map ret) : V2 (Dfd o)) = (glm_vec2_mulsub a b dest).map ret := by
  dfd_step glm_vec2_mulsub

@[dfd] theorem C72_vec2_mulsubs (a : V2 ℝ) (s : ℝ) (dest : V2 ℝ) :
    (glm_vec2_mulsubs (a.map ret) (ret s) (dest.map ret) : V2 (Dfd o)) = (glm_vec2_mulsubs a s dest).map ret := by
  dfd_step glm_vec2_mulsubs

@[dfd] theorem C72_vec2_maxsub (a : V2 ℝ) (b : V2 ℝ) (dest : V2 ℝ) :
    (glm_vec2_maxsub (a.map ret) (b.map ret) (dest.map ret) : V2 (Dfd o)) = (glm_vec2_maxsub a b dest).map ret := by
  dfd_step glm_vec2_maxsub

@[dfd] theorem C72_vec2_minsub (a : V2 ℝ) (b : V2 ℝ) (dest : V2 ℝ) :
    (glm_vec2_minsub (a.map ret) (b.map ret) (dest.map ret) : V2 (Dfd o)) = (glm_vec2_minsub a b dest).map ret := by
  dfd_step glm_vec2_minsub

@[dfd] theorem C72_vec2_negate_to (v : V2 ℝ) :
    (glm_vec2_negate_to (v.map ret) : V2 (Dfd o)) = (glm_vec2_negate_to v).map ret := by
  dfd_step glm_vec2_negate_to

@[dfd] theorem C72_vec2_negate (v : V2 ℝ) :
    (glm_vec2_negate (v.map ret) : V2 (Dfd o)) = (glm_vec2_negate v).map ret := by
  dfd_step glm_vec2_negate

@[dfd] theorem C72_vec2_normalize (v : V2 ℝ) :
    (glm_vec2_normalize (v.map ret) : V2 (Dfd o)) = (glm_vec2_normalize v).map ret := by
  dfd_step glm_vec2_normalize

@[dfd] theorem C72_vec2_normalize_to (v : V2 ℝ) :
    (glm_vec2_normalize_to (v.map ret) : V2 (Dfd o)) = (glm_vec2_normalize_to v).map ret := by
  dfd_step glm_vec2_normalize_to

@[dfd] theorem C72_vec2_rotate (v : V2 ℝ) (angle : ℝ) :
    (glm_vec2_rotate (v.map ret) (ret angle) : V2 (Dfd o)) = (glm_vec2_rotate v angle).map ret := by
  dfd_step glm_vec2_rotate

@[dfd] theorem C72_vec2_center (a : V2 ℝ) (b : V2 ℝ) :
    (glm_vec2_center (a.map ret) (b.map ret) : V2 (Dfd o)) = (glm_vec2_center a b).map ret := by
  dfd_step glm_vec2_center

@[dfd] theorem C72_vec2_distance2 (a : V2 ℝ) (b : V2 ℝ) :
    (glm_vec2_distance2 (a.map ret) (b.map ret) : Dfd o) = ret (glm_vec2_distance2 a b) := by
  dfd_step glm_vec2_distance2

@[dfd] theorem C72_vec2_distance (a : V2 ℝ) (b : V2 ℝ) :
    (glm_vec2_distance (a.map ret) (b.map ret) : Dfd o) = ret (glm_vec2_distance a b) := by
  dfd_step glm_vec2_distance

@[dfd] theorem C72_vec2_maxv (a : V2 ℝ) (b : V2 ℝ) :
    (glm_vec2_maxv (a.map ret) (b.map ret) : V2 (Dfd o)) = (glm_vec2_maxv a b).map ret := by
  dfd_step glm_vec2_maxv

@[dfd] theorem C72_vec2_minv (a : V2 ℝ) (b : V2 ℝ) :
    (glm_vec2_minv (a.map ret) (b.map ret) : V2 (Dfd o)) = (glm_vec2_minv a b).map ret := by
  dfd_step glm_vec2_minv

@[dfd] theorem C72_vec2_clamp (v : V2 ℝ) (minval : ℝ) (maxval : ℝ) :
    (glm_vec2_clamp (v.map ret) (ret minval) (ret maxval) : V2 (Dfd o)) = (glm_vec2_clamp v minval maxval).map ret := by
  dfd_step glm_vec2_clamp

@[dfd] theorem C72_vec2_lerp (frm : V2 ℝ) (dst : V2 ℝ) (t : ℝ) :
    (glm_vec2_lerp (frm.map ret) (dst.map ret) (ret t) : V2 (Dfd o)) = (glm_vec2_lerp frm dst t).map ret := by
  dfd_step glm_vec2_lerp

@[dfd] theorem C72_vec2_step (edge : V2 ℝ) (x : V2 ℝ) :
    (glm_vec2_step (edge.map ret) (x.map ret) : V2 (Dfd o)) = (glm_vec2_step edge x).map ret := by
  dfd_step glm_vec2_step

@[dfd] theorem C72_vec2_make (src : V2 ℝ) :
    (glm_vec2_make (src.map ret) : V2 (Dfd o)) = (glm_vec2_make src).map ret := by
  dfd_step glm_vec2_make

@[dfd] theorem C72_vec2_reflect (v : V2 ℝ) (n : V2 ℝ) :
    (glm_vec2_reflect (v.map ret) (n.map ret) : V2 (Dfd o)) = (glm_vec2_reflect v n).map ret := by
  dfd_step glm_vec2_reflect

@[dfd] theorem C72_vec2_refract (v : V2 ℝ) (n : V2 ℝ) (eta : ℝ) :
    (glm_vec2_refract (v.map ret) (n.map ret) (ret eta) : Bool × V2 (Dfd o)) = ((glm_vec2_refract v n eta).1, (glm_vec2_refract v n eta).2.map ret) := by
  dfd_step glm_vec2_refract

end Cglm

end C72Vec2

section C72Vec3Ext

/-! # C72: defined arithmetic, Vec3Ext

Generated by tools/defdthms.py.  On defined arguments the function evaluated over `Dfd o`, where division by zero and
the like are visible, gives the (defined) result of the function over ℝ.  Where arguments are excluded, the
hypotheses say which. -/

namespace Cglm
open Dfd
variable {o : Orc}


@[dfd] theorem C72_vec3_broadcast (val : ℝ) :
    (glm_vec3_broadcast (ret val) : V3 (Dfd o)) = (glm_vec3_broadcast val).map ret := by
  dfd_step glm_vec3_broadcast

@[dfd] theorem C72_vec3_fill (val : ℝ) :
    (glm_vec3_fill (ret val) : V3 (Dfd o)) = (glm_vec3_fill val).map ret := by
  dfd_step glm_vec3_fill

@[dfd] theorem C72_vec3_eq (v : V3 ℝ) (val : ℝ) :
    (glm_vec3_eq (v.map (ret (o := o))) (ret (o := o) val) : Bool) = glm_vec3_eq v val := by
  dfd_step glm_vec3_eq

@[dfd] theorem C72_vec3_eq_eps (v : V3 ℝ) (val : ℝ) :
    (glm_vec3_eq_eps (v.map (ret (o := o))) (ret (o := o) val) : Bool) = glm_vec3_eq_eps v val := by
  dfd_step glm_vec3_eq_eps

@[dfd] theorem C72_vec3_eq_all (v : V3 ℝ) :
    (glm_vec3_eq_all (v.map (ret (o := o))) : Bool) = glm_vec3_eq_all v := by
  dfd_step glm_vec3_eq_all

@[dfd] theorem C72_vec3_eqv (a : V3 ℝ) (b : V3 ℝ) :
    (glm_vec3_eqv (a.map (ret (o := o))) (b.map (ret (o := o))) : Bool) = glm_vec3_eqv a b := by
  dfd_step glm_vec3_eqv

@[dfd] theorem C72_vec3_eqv_eps (a : V3 ℝ) (b : V3 ℝ) :
    (glm_vec3_eqv_eps (a.map (ret (o := o))) (b.map (ret (o := o))) : Bool) = glm_vec3_eqv_eps a b := by
  dfd_step glm_vec3_eqv_eps

@[dfd] theorem C72_vec3_max (v : V3 ℝ) :
    (glm_vec3_max (v.map ret) : Dfd o) = ret (glm_vec3_max v) := by
  dfd_step glm_vec3_max

@[dfd] theorem C72_vec3_min (v : V3 ℝ) :
    (glm_vec3_min (v.map ret) : Dfd o) = ret (glm_vec3_min v) := by
  dfd_step glm_vec3_min

@[dfd] theorem C72_vec3_isnan (v : V3 ℝ) :
    (glm_vec3_isnan (v.map (ret (o := o))) : Bool) = glm_vec3_isnan v := by
  dfd_step glm_vec3_isnan

@[dfd] theorem C72_vec3_isinf (v : V3 ℝ) :
    (glm_vec3_isinf (v.map (ret (o := o))) : Bool) = glm_vec3_isinf v := by
  dfd_step glm_vec3_isinf

@[dfd] theorem C72_vec3_isvalid (v : V3 ℝ) :
    (glm_vec3_isvalid (v.map (ret (o := o))) : Bool) = glm_vec3_isvalid v := by
  dfd_step glm_vec3_isvalid

@[dfd] theorem C72_vec3_sign (v : V3 ℝ) :
    (glm_vec3_sign (v.map ret) : V3 (Dfd o)) = (glm_vec3_sign v).map ret := by
  dfd_step glm_vec3_sign

@[dfd] theorem C72_vec3_abs (v : V3 ℝ) :
    (glm_vec3_abs (v.map ret) : V3 (Dfd o)) = (glm_vec3_abs v).map ret := by
  dfd_step glm_vec3_abs

@[dfd] theorem C72_vec3_fract (v : V3 ℝ) :
    (glm_vec3_fract (v.map ret) : V3 (Dfd o)) = (glm_vec3_fract v).map ret := by
  dfd_step glm_vec3_fract

@[dfd] theorem C72_vec3_floor (v : V3 ℝ) :
    (glm_vec3_floor (v.map ret) : V3 (Dfd o)) = (glm_vec3_floor v).map ret := by
  dfd_step glm_vec3_floor

@[dfd] theorem C72_vec3_mods (v : V3 ℝ) (s : ℝ)
    (h1 : s ≠ 0) :
    (glm_vec3_mods (v.map ret) (ret s) : V3 (Dfd o)) = (glm_vec3_mods v s).map ret := by
  dfd_step glm_vec3_mods

@[dfd] theorem C72_vec3_steps (edge : ℝ) (x : V3 ℝ) :
    (glm_vec3_steps (ret edge) (x.map ret) : V3 (Dfd o)) = (glm_vec3_steps edge x).map ret := by
  dfd_step glm_vec3_steps

@[dfd] theorem C72_vec3_stepr (edge : V3 ℝ) (x : ℝ) :
    (glm_vec3_stepr (edge.map ret) (ret x) : V3 (Dfd o)) = (glm_vec3_stepr edge x).map ret := by
  dfd_step glm_vec3_stepr

@[dfd] theorem C72_vec3_hadd (v : V3 ℝ) :
    (glm_vec3_hadd (v.map ret) : Dfd o) = ret (glm_vec3_hadd v) := by
  dfd_step glm_vec3_hadd

@[dfd] theorem C72_vec3_sqrt (v : V3 ℝ)
    (h1 : 0 ≤ v.x)
    (h2 : 0 ≤ v.y)
    (h3 : 0 ≤ v.z) :
    (glm_vec3_sqrt (v.map ret) : V3 (Dfd o)) = (glm_vec3_sqrt v).map ret := by
  dfd_step glm_vec3_sqrt

end Cglm

end C72Vec3Ext

section C72Vec4Ext

/-! # C72: defined arithmetic, Vec4Ext

Generated by tools/defdthms.py.  On defined arguments the function evaluated over `Dfd o`, where division by zero and
the like are visible, gives the (defined) result of the function over ℝ.  Where arguments are excluded, the
hypotheses say which. -/

namespace Cglm
open Dfd
variable {o : Orc}


@[dfd] theorem C72_vec4_broadcast (val : ℝ) :
    (glm_vec4_broadcast (ret val) : V4 (Dfd o)) = (glm_vec4_broadcast val).map ret := by
  dfd_step glm_vec4_broadcast

@[dfd] theorem C72_vec4_fill (val : ℝ) :
    (glm_vec4_fill (ret val) : V4 (Dfd o)) = (glm_vec4_fill val).map ret := by
  dfd_step glm_vec4_fill

@[dfd] theorem C72_vec4_eq (v : V4 ℝ) (val : ℝ) :
    (glm_vec4_eq (v.map (ret (o := o))) (ret (o := o) val) : Bool) = glm_vec4_eq v val := by
  dfd_step glm_vec4_eq

@[dfd] theorem C72_vec4_eq_eps (v : V4 ℝ) (val : ℝ) :
    (glm_vec4_eq_eps (v.map (ret (o := o))) (ret (o := o) val) : Bool) = glm_vec4_eq_eps v val := by
  dfd_step glm_vec4_eq_eps

@[dfd] theorem C72_vec4_eq_all (v : V4 ℝ) :
    (glm_vec4_eq_all (v.map (ret (o := o))) : Bool) = glm_vec4_eq_all v := by
  dfd_step glm_vec4_eq_all

@[dfd] theorem C72_vec4_eqv (a : V4 ℝ) (b : V4 ℝ) :
    (glm_vec4_eqv (a.map (ret (o := o))) (b.map (ret (o := o))) : Bool) = glm_vec4_eqv a b := by
  dfd_step glm_vec4_eqv

@[dfd] theorem C72_vec4_eqv_eps (a : V4 ℝ) (b : V4 ℝ) :
    (glm_vec4_eqv_eps (a.map (ret (o := o))) (b.map (ret (o := o))) : Bool) = glm_vec4_eqv_eps a b := by
  dfd_step glm_vec4_eqv_eps

@[dfd] theorem C72_vec4_max (v : V4 ℝ) :
    (glm_vec4_max (v.map ret) : Dfd o) = ret (glm_vec4_max v) := by
  dfd_step glm_vec4_max

@[dfd] theorem C72_vec4_min (v : V4 ℝ) :
    (glm_vec4_min (v.map ret) : Dfd o) = ret (glm_vec4_min v) := by
  dfd_step glm_vec4_min

@[dfd] theorem C72_vec4_isnan (v : V4 ℝ) :
    (glm_vec4_isnan (v.map (ret (o := o))) : Bool) = glm_vec4_isnan v := by
  dfd_step glm_vec4_isnan

@[dfd] theorem C72_vec4_isinf (v : V4 ℝ) :
    (glm_vec4_isinf (v.map (ret (o := o))) : Bool) = glm_vec4_isinf v := by
  dfd_step glm_vec4_isinf

@[dfd] theorem C72_vec4_isvalid (v : V4 ℝ) :
    (glm_vec4_isvalid (v.map (ret (o := o))) : Bool) = glm_vec4_isvalid v := by
  dfd_step glm_vec4_isvalid

@[dfd] theorem C72_vec4_sign (v : V4 ℝ) :
    (glm_vec4_sign (v.map ret) : V4 (Dfd o)) = (glm_vec4_sign v).map ret := by
  dfd_step glm_vec4_sign

@[dfd] theorem C72_vec4_abs (v : V4 ℝ) :
    (glm_vec4_abs (v.map ret) : V4 (Dfd o)) = (glm_vec4_abs v).map ret := by
  dfd_step glm_vec4_abs

@[dfd] theorem C72_vec4_fract (v : V4 ℝ) :
    (glm_vec4_fract (v.map ret) : V4 (Dfd o)) = (glm_vec4_fract v).map ret := by
  dfd_step glm_vec4_fract

@[dfd] theorem C72_vec4_floor (v : V4 ℝ) :
    (glm_vec4_floor (v.map ret) : V4 (Dfd o)) = (glm_vec4_floor v).map ret := by
  dfd_step glm_vec4_floor

@[dfd] theorem C72_vec4_mods (v : V4 ℝ) (s : ℝ)
    (h1 : s ≠ 0) :
    (glm_vec4_mods (v.map ret) (ret s) : V4 (Dfd o)) = (glm_vec4_mods v s).map ret := by
  dfd_step glm_vec4_mods

@[dfd] theorem C72_vec4_steps (edge : ℝ) (x : V4 ℝ) :
    (glm_vec4_steps (ret edge) (x.map ret) : V4 (Dfd o)) = (glm_vec4_steps edge x).map ret := by
  dfd_step glm_vec4_steps

@[dfd] theorem C72_vec4_stepr (edge : V4 ℝ) (x : ℝ) :
    (glm_vec4_stepr (edge.map ret) (ret x) : V4 (Dfd o)) = (glm_vec4_stepr edge x).map ret := by
  dfd_step glm_vec4_stepr

@[dfd] theorem C72_vec4_hadd (v : V4 ℝ) :
    (glm_vec4_hadd (v.map ret) : Dfd o) = ret (glm_vec4_hadd v) := by
  dfd_step glm_vec4_hadd

@[dfd] theorem C72_vec4_sqrt (v : V4 ℝ)
    (h1 : 0 ≤ v.x)
    (h2 : 0 ≤ v.y)
    (h3 : 0 ≤ v.z)
    (h4 : 0 ≤ v.w) :
    (glm_vec4_sqrt (v.map ret) : V4 (Dfd o)) = (glm_vec4_sqrt v).map ret := by
  dfd_step glm_vec4_sqrt

end Cglm

end C72Vec4Ext

section C72Vec4

/-! # C72: defined arithmetic, Vec4

Generated by tools/defdthms.py.  On defined arguments the function evaluated over `Dfd o`, where division by zero and
the like are visible, gives the (defined) result of the function over ℝ.  Where arguments are excluded, the
hypotheses say which. -/

namespace Cglm
open Dfd
variable {o : Orc}


@[dfd] theorem C72_vec4 (v3 : V3 ℝ) (last : ℝ) :
    (glm_vec4 (v3.map ret) (ret last) : V4 (Dfd o)) = (glm_vec4 v3 last).map ret := by
  dfd_step glm_vec4

@[dfd] theorem C72_vec4_copy3 (a : V4 ℝ) :
    (glm_vec4_copy3 (a.map ret) : V3 (Dfd o)) = (glm_vec4_copy3 a).map ret := by
  dfd_step glm_vec4_copy3

@[dfd] theorem C72_vec4_copy (v : V4 ℝ) :
    (glm_vec4_copy (v.map ret) : V4 (Dfd o)) = (glm_vec4_copy v).map ret := by
  dfd_step glm_vec4_copy

@[dfd] theorem C72_vec4_ucopy (v : V4 ℝ) :
    (glm_vec4_ucopy (v.map ret) : V4 (Dfd o)) = (glm_vec4_ucopy v).map ret := by
  dfd_step glm_vec4_ucopy

@[dfd] theorem C72_vec4_zero :
    (glm_vec4_zero : V4 (Dfd o)) = glm_vec4_zero.map ret := by
  dfd_step glm_vec4_zero

@[dfd] theorem C72_vec4_one :
    (glm_vec4_one : V4 (Dfd o)) = glm_vec4_one.map ret := by
  dfd_step glm_vec4_one

@[dfd] theorem C72_vec4_dot (a : V4 ℝ) (b : V4 ℝ) :
    (glm_vec4_dot (a.map ret) (b.map ret) : Dfd o) = ret (glm_vec4_dot a b) := by
  dfd_step glm_vec4_dot

@[dfd] theorem C72_vec4_norm2 (v : V4 ℝ) :
    (glm_vec4_norm2 (v.map ret) : Dfd o) = ret (glm_vec4_norm2 v) := by
  dfd_step glm_vec4_norm2

@[dfd] theorem C72_vec4_norm (v : V4 ℝ) :
    (glm_vec4_norm (v.map ret) : Dfd o) = ret (glm_vec4_norm v) := by
  dfd_step glm_vec4_norm

@[dfd] theorem C72_vec4_norm_one (v : V4 ℝ) :
    (glm_vec4_norm_one (v.map ret) : Dfd o) = ret (glm_vec4_norm_one v) := by
  dfd_step glm_vec4_norm_one

@[dfd] theorem C72_vec4_norm_inf (v : V4 ℝ) :
    (glm_vec4_norm_inf (v.map ret) : Dfd o) = ret (glm_vec4_norm_inf v) := by
  dfd_step glm_vec4_norm_inf

@[dfd] theorem C72_vec4_add (a : V4 ℝ) (b : V4 ℝ) :
    (glm_vec4_add (a.map ret) (b.map ret) : V4 (Dfd o)) = (glm_vec4_add a b).map ret := by
  dfd_step glm_vec4_add

@[dfd] theorem C72_vec4_adds (v : V4 ℝ) (s : ℝ) :
    (glm_vec4_adds (v.map ret) (ret s) : V4 (Dfd o)) = (glm_vec4_adds v s).map ret := by
  dfd_step glm_vec4_adds

@[dfd] theorem C72_vec4_sub (a : V4 ℝ) (b : V4 ℝ) :
    (glm_vec4_sub (a.map ret) (b.map ret) : V4 (Dfd o)) = (glm_vec4_sub a b).map ret := by
  dfd_step glm_vec4_sub

@[dfd] theorem C72_vec4_subs (v : V4 ℝ) (s : ℝ) :
    (glm_vec4_subs (v.map ret) (ret s) : V4 (Dfd o)) = (glm_vec4_subs v s).map ret := by
  dfd_step glm_vec4_subs

@[dfd] theorem C72_vec4_mul (a : V4 ℝ) (b : V4 ℝ) :
    (glm_vec4_mul (a.map ret) (b.map ret) : V4 (Dfd o)) = (glm_vec4_mul a b).map ret := by
  dfd_step glm_vec4_mul

@[dfd] theorem C72_vec4_scale (v : V4 ℝ) (s : ℝ) :
    (glm_vec4_scale (v.map ret) (ret s) : V4 (Dfd o)) = (glm_vec4_scale v s).map ret := by
  dfd_step glm_vec4_scale

@[dfd] theorem C72_vec4_scale_as (v : V4 ℝ) (s : ℝ) :
    (glm_vec4_scale_as (v.map ret) (ret s) : V4 (Dfd o)) = (glm_vec4_scale_as v s).map ret := by
  dfd_step glm_vec4_scale_as

@[dfd] theorem C72_vec4_div (a : V4 ℝ) (b : V4 ℝ)
    (h1 : b.x ≠ 0)
    (h2 : b.y ≠ 0)
    (h3 : b.z ≠ 0)
    (h4 : b.w ≠ 0) :
    (glm_vec4_div (a.map ret) (b.map ret) : V4 (Dfd o)) = (glm_vec4_div a b).map ret := by
  dfd_step glm_vec4_div

@[dfd] theorem C72_vec4_divs (v : V4 ℝ) (s : ℝ)
    (h1 : s ≠ 0) :
    (glm_vec4_divs (v.map ret) (ret s) : V4 (Dfd o)) = (glm_vec4_divs v s).map ret := by
  dfd_step glm_vec4_divs

@[dfd] theorem C72_vec4_addadd (a : V4 ℝ) (b : V4 ℝ) (dest : V4 ℝ) :
    (glm_vec4_addadd (a.map ret) (b.map ret) (dest.map ret) : V4 (Dfd o)) = (glm_vec4_addadd a b dest).map ret := by
  dfd_step glm_vec4_addadd

@[dfd] theorem C72_vec4_subadd (a : V4 ℝ) (b : V4 ℝ) (dest : V4 ℝ) :
    (glm_vec4_subadd (a.map ret) (b.map ret) (dest.map ret) : V4 (Dfd o)) = (glm_vec4_subadd a b dest).map ret := by
  dfd_step glm_vec4_subadd

@[dfd] theorem C72_vec4_muladd (a : V4 ℝ) (b : V4 ℝ) (dest : V4 ℝ) :
    (glm_vec4_muladd (a.map ret) (b.map ret) (dest.map ret) : V4 (Dfd o)) = (glm_vec4_muladd a b dest).map ret := by
  dfd_step glm_vec4_muladd

@[dfd] theorem C72_vec4_muladds (a : V4 ℝ) (s : ℝ) (dest : V4 ℝ) :
    (glm_vec4_muladds (a.map ret) (ret s) (dest.map ret) : V4 (Dfd o)) = (glm_vec4_muladds a s dest).map ret := by
  dfd_step glm_vec4_muladds

@[dfd] theorem C72_vec4_maxadd (a : V4 ℝ) (b : V4 ℝ) (dest : V4 ℝ) :
    (glm_vec4_maxadd (a.map ret) (b.map ret) (dest.map ret) : V4 (Dfd o)) = (glm_vec4_maxadd a b dest).map ret := by
  dfd_step glm_vec4_maxadd

@[dfd] theorem C72_vec4_minadd (a : V4 ℝ) (b : V4 ℝ) (dest : V4 ℝ) :
    (glm_vec4_minadd (a.map ret) (b.map ret) (dest.map ret) : V4 (Dfd o)) = (glm_vec4_minadd a b dest).map ret := by
  dfd_step glm_vec4_minadd

@[dfd] theorem C72_vec4_subsub (a : V4 ℝ) (b : V4 ℝ) (dest : V4 ℝ) :
    (glm_vec4_subsub (a.map ret) (b.map ret) (dest.map ret) : V4 (Dfd o)) = (glm_vec4_subsub a b dest).map ret := by
  dfd_step glm_vec4_subsub

@[dfd] theorem C72_vec4_addsub (a : V4 ℝ) (b : V4 ℝ) (dest : V4 ℝ) :
    (glm_vec4_addsub (a.map ret) (b.map ret) (dest.map ret) : V4 (Dfd o)) = (glm_vec4_addsub a b dest).map ret := by
  dfd_step glm_vec4_addsub

@[dfd] theorem C72_vec4_mulsub (a : V4 ℝ) (b : V4 ℝ) (dest : V4 ℝ) :
    (glm_vec4_mulsub (a.map ret) (b.map ret) (dest.map ret) : V4 (Dfd o)) = (glm_vec4_mulsub a b dest).map ret := by
  dfd_step glm_vec4_mulsub

@[dfd] theorem C72_vec4_mulsubs (a : V4 ℝ) (s : ℝ) (dest : V4 ℝ) :
    (glm_vec4_mulsubs (a.map ret) (ret s) (dest.map ret) : V4 (Dfd o)) = (glm_vec4_mulsubs a s dest).map ret := by
  dfd_step glm_vec4_mulsubs

@[dfd] theorem C72_vec4_maxsub (a : V4 ℝ) (b : V4 ℝ) (dest : V4 ℝ) :
    (glm_vec4_maxsub (a.map ret) (b.map ret) (dest.map ret) : V4 (Dfd o)) = (glm_vec4_maxsub a b dest).map ret := by
  dfd_step glm_vec4_maxsub

@[dfd] theorem C72_vec4_minsub (a : V4 ℝ) (b : V4 ℝ) (dest : V4 ℝ) :
    (glm_vec4_minsub (a.map ret) (b.map ret) (dest.map ret) : V4 (Dfd o)) = (glm_vec4_minsub a b dest).map ret := by
  dfd_step glm_vec4_minsub

@[dfd] theorem C72_vec4_negate_to (v : V4 ℝ) :
    (glm_vec4_negate_to (v.map ret) : V4 (Dfd o)) = (glm_vec4_negate_to v).map ret := by
  dfd_step glm_vec4_negate_to

@[dfd] theorem C72_vec4_negate (v : V4 ℝ) :
    (glm_vec4_negate (v.map ret) : V4 (Dfd o)) = (glm_vec4_negate v).map ret := by
  dfd_step glm_vec4_negate

@[dfd] theorem C72_vec4_normalize_to (v : V4 ℝ) :
    (glm_vec4_normalize_to (v.map ret) : V4 (Dfd o)) = (glm_vec4_normalize_to v).map ret := by
  dfd_step glm_vec4_normalize_to

@[dfd] theorem C72_vec4_normalize (v : V4 ℝ) :
    (glm_vec4_normalize (v.map ret) : V4 (Dfd o)) = (glm_vec4_normalize v).map ret := by
  dfd_step glm_vec4_normalize

@[dfd] theorem C72_vec4_distance (a : V4 ℝ) (b : V4 ℝ) :
    (glm_vec4_distance (a.map ret) (b.map ret) : Dfd o) = ret (glm_vec4_distance a b) := by
  dfd_step glm_vec4_distance

@[dfd] theorem C72_vec4_distance2 (a : V4 ℝ) (b : V4 ℝ) :
    (glm_vec4_distance2 (a.map ret) (b.map ret) : Dfd o) = ret (glm_vec4_distance2 a b) := by
  dfd_step glm_vec4_distance2

@[dfd] theorem C72_vec4_maxv (a : V4 ℝ) (b : V4 ℝ) :
    (glm_vec4_maxv (a.map ret) (b.map ret) : V4 (Dfd o)) = (glm_vec4_maxv a b).map ret := by
  dfd_step glm_vec4_maxv

@[dfd] theorem C72_vec4_minv (a : V4 ℝ) (b : V4 ℝ) :
    (glm_vec4_minv (a.map ret) (b.map ret) : V4 (Dfd o)) = (glm_vec4_minv a b).map ret := by
  dfd_step glm_vec4_minv

@[dfd] theorem C72_vec4_clamp (v : V4 ℝ) (minVal : ℝ) (maxVal : ℝ) :
    (glm_vec4_clamp (v.map ret) (ret minVal) (ret maxVal) : V4 (Dfd o)) = (glm_vec4_clamp v minVal maxVal).map ret := by
  dfd_step glm_vec4_clamp

@[dfd] theorem C72_vec4_lerp (frm : V4 ℝ) (dst : V4 ℝ) (t : ℝ) :
    (glm_vec4_lerp (frm.map ret) (dst.map ret) (ret t) : V4 (Dfd o)) = (glm_vec4_lerp frm dst t).map ret := by
  dfd_step glm_vec4_lerp

@[dfd] theorem C72_vec4_lerpc (frm : V4 ℝ) (dst : V4 ℝ) (t : ℝ) :
    (glm_vec4_lerpc (frm.map ret) (dst.map ret) (ret t) : V4 (Dfd o)) = (glm_vec4_lerpc frm dst t).map ret := by
  dfd_step glm_vec4_lerpc

@[dfd] theorem C72_vec4_mix (frm : V4 ℝ) (dst : V4 ℝ) (t : ℝ) :
    (glm_vec4_mix (frm.map ret) (dst.map ret) (ret t) : V4 (Dfd o)) = (glm_vec4_mix frm dst t).map ret := by
  dfd_step glm_vec4_mix

@[dfd] theorem C72_vec4_mixc (frm : V4 ℝ) (dst : V4 ℝ) (t : ℝ) :
    (glm_vec4_mixc (frm.map ret) (dst.map ret) (ret t) : V4 (Dfd o)) = (glm_vec4_mixc frm dst t).map ret := by
  dfd_step glm_vec4_mixc

@[dfd] theorem C72_vec4_step (edge : V4 ℝ) (x : V4 ℝ) :
    (glm_vec4_step (edge.map ret) (x.map ret) : V4 (Dfd o)) = (glm_vec4_step edge x).map ret := by
  dfd_step glm_vec4_step

@[dfd] theorem C72_vec4_smoothstep_uni (edge0 : ℝ) (edge1 : ℝ) (x : V4 ℝ)
    (h1 : edge0 ≠ edge1) :
    (glm_vec4_smoothstep_uni (ret edge0) (ret edge1) (x.map ret) : V4 (Dfd o)) = (glm_vec4_smoothstep_uni edge0 edge1 x).map ret := by
  dfd_step glm_vec4_smoothstep_uni

@[dfd] theorem C72_vec4_smoothstep (edge0 : V4 ℝ) (edge1 : V4 ℝ) (x : V4 ℝ)
    (h1 : edge0.x ≠ edge1.x)
    (h2 : edge0.y ≠ edge1.y)
    (h3 : edge0.z ≠ edge1.z)
    (h4 : edge0.w ≠ edge1.w) :
    (glm_vec4_smoothstep (edge0.map ret) (edge1.map ret) (x.map ret) : V4 (Dfd o)) = (glm_vec4_smoothstep edge0 edge1 x).map ret := by
  dfd_step glm_vec4_smoothstep

@[dfd] theorem C72_vec4_smoothinterp (frm : V4 ℝ) (dst : V4 ℝ) (t : ℝ) :
    (glm_vec4_smoothinterp (frm.map ret) (dst.map ret) (ret t) : V4 (Dfd o)) = (glm_vec4_smoothinterp frm dst t).map ret := by
  dfd_step glm_vec4_smoothinterp

@[dfd] theorem C72_vec4_smoothinterpc (frm : V4 ℝ) (dst : V4 ℝ) (t : ℝ) :
    (glm_vec4_smoothinterpc (frm.map ret) (dst.map ret) (ret t) : V4 (Dfd o)) = (glm_vec4_smoothinterpc frm dst t).map ret := by
  dfd_step glm_vec4_smoothinterpc

@[dfd] theorem C72_vec4_cubic (s : ℝ) :
    (glm_vec4_cubic (ret s) : V4 (Dfd o)) = (glm_vec4_cubic s).map ret := by
  dfd_step glm_vec4_cubic

@[dfd] theorem C72_vec4_make (src : V4 ℝ) :
    (glm_vec4_make (src.map ret) : V4 (Dfd o)) = (glm_vec4_make src).map ret := by
  dfd_step glm_vec4_make

@[dfd] theorem C72_vec4_reflect (v : V4 ℝ) (n : V4 ℝ) :
    (glm_vec4_reflect (v.map ret) (n.map ret) : V4 (Dfd o)) = (glm_vec4_reflect v n).map ret := by
  dfd_step glm_vec4_reflect

@[dfd] theorem C72_vec4_refract (v : V4 ℝ) (n : V4 ℝ) (eta : ℝ) :
    (glm_vec4_refract (v.map ret) (n.map ret) (ret eta) : Bool × V4 (Dfd o)) = ((glm_vec4_refract v n eta).1, (glm_vec4_refract v n eta).2.map ret) := by
  dfd_step glm_vec4_refract

end Cglm

end C72Vec4

section C72Vec3

/-! # C72: defined arithmetic, Vec3

Generated by tools/defdthms.py.  On defined arguments the function evaluated over `Dfd o`, where division by zero and
the like are visible, gives the (defined) result of the function over ℝ.  Where arguments are excluded, the
hypotheses say which. -/

namespace Cglm
open Dfd
variable {o : Orc}


@[dfd] theorem C72_vec3 (v4 : V4 ℝ) :
    (glm_vec3 (v4.map ret) : V3 (Dfd o)) = (glm_vec3 v4).map ret := by
  dfd_step glm_vec3

@[dfd] theorem C72_vec3_copy (a : V3 ℝ) :
    (glm_vec3_copy (a.map ret) : V3 (Dfd o)) = (glm_vec3_copy a).map ret := by
  dfd_step glm_vec3_copy

@[dfd] theorem C72_vec3_zero :
    (glm_vec3_zero : V3 (Dfd o)) = glm_vec3_zero.map ret := by
  dfd_step glm_vec3_zero

@[dfd] theorem C72_vec3_one :
    (glm_vec3_one : V3 (Dfd o)) = glm_vec3_one.map ret := by
  dfd_step glm_vec3_one

@[dfd] theorem C72_vec3_dot (a : V3 ℝ) (b : V3 ℝ) :
    (glm_vec3_dot (a.map ret) (b.map ret) : Dfd o) = ret (glm_vec3_dot a b) := by
  dfd_step glm_vec3_dot

@[dfd] theorem C72_vec3_norm2 (v : V3 ℝ) :
    (glm_vec3_norm2 (v.map ret) : Dfd o) = ret (glm_vec3_norm2 v) := by
  dfd_step glm_vec3_norm2

@[dfd] theorem C72_vec3_norm (v : V3 ℝ) :
    (glm_vec3_norm (v.map ret) : Dfd o) = ret (glm_vec3_norm v) := by
  dfd_step glm_vec3_norm

@[dfd] theorem C72_vec3_norm_one (v : V3 ℝ) :
    (glm_vec3_norm_one (v.map ret) : Dfd o) = ret (glm_vec3_norm_one v) := by
  dfd_step glm_vec3_norm_one

@[dfd] theorem C72_vec3_norm_inf (v : V3 ℝ) :
    (glm_vec3_norm_inf (v.map ret) : Dfd o) = ret (glm_vec3_norm_inf v) := by
  dfd_step glm_vec3_norm_inf

@[dfd] theorem C72_vec3_add (a : V3 ℝ) (b : V3 ℝ) :
    (glm_vec3_add (a.map ret) (b.map ret) : V3 (Dfd o)) = (glm_vec3_add a b).map ret := by
  dfd_step glm_vec3_add

@[dfd] theorem C72_vec3_adds (v : V3 ℝ) (s : ℝ) :
    (glm_vec3_adds (v.map ret) (ret s) : V3 (Dfd o)) = (glm_vec3_adds v s).map ret := by
  dfd_step glm_vec3_adds

@[dfd] theorem C72_vec3_sub (a : V3 ℝ) (b : V3 ℝ) :
    (glm_vec3_sub (a.map ret) (b.map ret) : V3 (Dfd o)) = (glm_vec3_sub a b).map ret := by
  dfd_step glm_vec3_sub

@[dfd] theorem C72_vec3_subs (v : V3 ℝ) (s : ℝ) :
    (glm_vec3_subs (v.map ret) (ret s) : V3 (Dfd o)) = (glm_vec3_subs v s).map ret := by
  dfd_step glm_vec3_subs

@[dfd] theorem C72_vec3_mul (a : V3 ℝ) (b : V3 ℝ) :
    (glm_vec3_mul (a.map ret) (b.map ret) : V3 (Dfd o)) = (glm_vec3_mul a b).map ret := by
  dfd_step glm_vec3_mul

@[dfd] theorem C72_vec3_scale (v : V3 ℝ) (s : ℝ) :
    (glm_vec3_scale (v.map ret) (ret s) : V3 (Dfd o)) = (glm_vec3_scale v s).map ret := by
  dfd_step glm_vec3_scale

@[dfd] theorem C72_vec3_scale_as (v : V3 ℝ) (s : ℝ) :
    (glm_vec3_scale_as (v.map ret) (ret s) : V3 (Dfd o)) = (glm_vec3_scale_as v s).map ret := by
  dfd_step glm_vec3_scale_as

@[dfd] theorem C72_vec3_div (a : V3 ℝ) (b : V3 ℝ)
    (h1 : b.x ≠ 0)
    (h2 : b.y ≠ 0)
    (h3 : b.z ≠ 0) :
    (glm_vec3_div (a.map ret) (b.map ret) : V3 (Dfd o)) = (glm_vec3_div a b).map ret := by
  dfd_step glm_vec3_div

@[dfd] theorem C72_vec3_divs (v : V3 ℝ) (s : ℝ)
    (h1 : s ≠ 0) :
    (glm_vec3_divs (v.map ret) (ret s) : V3 (Dfd o)) = (glm_vec3_divs v s).map ret := by
  dfd_step glm_vec3_divs

@[dfd] theorem C72_vec3_addadd (a : V3 ℝ) (b : V3 ℝ) (dest : V3 ℝ) :
    (glm_vec3_addadd (a.map ret) (b.map ret) (dest.map ret) : V3 (Dfd o)) = (glm_vec3_addadd a b dest).map ret := by
  dfd_step glm_vec3_addadd

@[dfd] theorem C72_vec3_subadd (a : V3 ℝ) (b : V3 ℝ) (dest : V3 ℝ) :
    (glm_vec3_subadd (a.map ret) (b.map ret) (dest.map ret) : V3 (Dfd o)) = (glm_vec3_subadd a b dest).map ret := by
  dfd_step glm_vec3_subadd

@[dfd] theorem C72_vec3_muladd (a : V3 ℝ) (b : V3 ℝ) (dest : V3 ℝ) :
    (glm_vec3_muladd (a.map ret) (b.map ret) (dest.map ret) : V3 (Dfd o)) = (glm_vec3_muladd a b dest).map ret := by
  dfd_step glm_vec3_muladd

@[dfd] theorem C72_vec3_muladds (a : V3 ℝ) (s : ℝ) (dest : V3 ℝ) :
    (glm_vec3_muladds (a.map ret) (ret s) (dest.map ret) : V3 (Dfd o)) = (glm_vec3_muladds a s dest).map ret := by
  dfd_step glm_vec3_muladds

@[dfd] theorem C72_vec3_maxadd (a : V3 ℝ) (b : V3 ℝ) (dest : V3 ℝ) :
    (glm_vec3_maxadd (a.map ret) (b.map ret) (dest.map ret) : V3 (Dfd o)) = (glm_vec3_maxadd a b dest).map ret := by
  dfd_step glm_vec3_maxadd

@[dfd] theorem C72_vec3_minadd (a : V3 ℝ) (b : V3 ℝ) (dest : V3 ℝ) :
    (glm_vec3_minadd (a.map ret) (b.map ret) (dest.map ret) : V3 (Dfd o)) = (glm_vec3_minadd a b dest).map ret := by
  dfd_step glm_vec3_minadd

@[dfd] theorem C72_vec3_subsub (a : V3 ℝ) (b : V3 ℝ) (dest : V3 ℝ) :
    (glm_vec3_subsub (a.map ret) (b.map ret) (dest.map ret) : V3 (Dfd o)) = (glm_vec3_subsub a b dest).map ret := by
  dfd_step glm_vec3_subsub

@[dfd] theorem C72_vec3_addsub (a : V3 ℝ) (b : V3 ℝ) (dest : V3 ℝ) :
    (glm_vec3_addsub (a.map ret) (b.map ret) (dest.map ret) : V3 (Dfd o)) = (glm_vec3_addsub a b dest).map ret := by
  dfd_step glm_vec3_addsub

@[dfd] theorem C72_vec3_mulsub (a : V3 ℝ) (b : V3 ℝ) (dest : V3 ℝ) :
    (glm_vec3_mulsub (a.map ret) (b.map ret) (dest.map ret) : V3 (Dfd o)) = (glm_vec3_mulsub a b dest).map ret := by
  dfd_step glm_vec3_mulsub

@[dfd] theorem C72_vec3_mulsubs (a : V3 ℝ) (s : ℝ) (dest : V3 ℝ) :
    (glm_vec3_mulsubs (a.map ret) (ret s) (dest.map ret) : V3 (Dfd o)) = (glm_vec3_mulsubs a s dest).map ret := by
  dfd_step glm_vec3_mulsubs

@[dfd] theorem C72_vec3_maxsub (a : V3 ℝ) (b : V3 ℝ) (dest : V3 ℝ) :
    (glm_vec3_maxsub (a.map ret) (b.map ret) (dest.map ret) : V3 (Dfd o)) = (glm_vec3_maxsub a b dest).map ret := by
  dfd_step glm_vec3_maxsub

@[dfd] theorem C72_vec3_minsub (a : V3 ℝ) (b : V3 ℝ) (dest : V3 ℝ) :
    (glm_vec3_minsub (a.map ret) (b.map ret) (dest.map ret) : V3 (Dfd o)) = (glm_vec3_minsub a b dest).map ret := by
  dfd_step glm_vec3_minsub

@[dfd] theorem C72_vec3_negate_to (v : V3 ℝ) :
    (glm_vec3_negate_to (v.map ret) : V3 (Dfd o)) = (glm_vec3_negate_to v).map ret := by
  dfd_step glm_vec3_negate_to

@[dfd] theorem C72_vec3_negate (v : V3 ℝ) :
    (glm_vec3_negate (v.map ret) : V3 (Dfd o)) = (glm_vec3_negate v).map ret := by
  dfd_step glm_vec3_negate

@[dfd] theorem C72_vec3_normalize (v : V3 ℝ) :
    (glm_vec3_normalize (v.map ret) : V3 (Dfd o)) = (glm_vec3_normalize v).map ret := by
  dfd_step glm_vec3_normalize

@[dfd] theorem C72_vec3_normalize_to (v : V3 ℝ) :
    (glm_vec3_normalize_to (v.map ret) : V3 (Dfd o)) = (glm_vec3_normalize_to v).map ret := by
  dfd_step glm_vec3_normalize_to

@[dfd] theorem C72_vec3_cross (a : V3 ℝ) (b : V3 ℝ) :
    (glm_vec3_cross (a.map ret) (b.map ret) : V3 (Dfd o)) = (glm_vec3_cross a b).map ret := by
  dfd_step glm_vec3_cross

@[dfd] theorem C72_vec3_crossn (a : V3 ℝ) (b : V3 ℝ) :
    (glm_vec3_crossn (a.map ret) (b.map ret) : V3 (Dfd o)) = (glm_vec3_crossn a b).map ret := by
  dfd_step glm_vec3_crossn

@[dfd] theorem C72_vec3_angle (a : V3 ℝ) (b : V3 ℝ)
    (h1 : glm_vec3_norm a ≠ 0)
    (h2 : glm_vec3_norm b ≠ 0) :
    (glm_vec3_angle (a.map ret) (b.map ret) : Dfd o) = ret (glm_vec3_angle a b) := by
  have e := mul_ne_zero h1 h2
  dfd_step glm_vec3_angle

@[dfd] theorem C72_vec3_rotate (v : V3 ℝ) (angle : ℝ) (axis : V3 ℝ) :
    (glm_vec3_rotate (v.map ret) (ret angle) (axis.map ret) : V3 (Dfd o)) = (glm_vec3_rotate v angle axis).map ret := by
  dfd_step glm_vec3_rotate

@[dfd] theorem C72_vec3_rotate_m4 (m : M4 ℝ) (v : V3 ℝ) :
    (glm_vec3_rotate_m4 (m.map ret) (v.map ret) : V3 (Dfd o)) = (glm_vec3_rotate_m4 m v).map ret := by
  dfd_step glm_vec3_rotate_m4

@[dfd] theorem C72_vec3_rotate_m3 (m : M3 ℝ) (v : V3 ℝ) :
    (glm_vec3_rotate_m3 (m.map ret) (v.map ret) : V3 (Dfd o)) = (glm_vec3_rotate_m3 m v).map ret := by
  dfd_step glm_vec3_rotate_m3

@[dfd] theorem C72_vec3_proj (a : V3 ℝ) (b : V3 ℝ)
    (h1 : glm_vec3_norm2 b ≠ 0) :
    (glm_vec3_proj (a.map ret) (b.map ret) : V3 (Dfd o)) = (glm_vec3_proj a b).map ret := by
  dfd_step glm_vec3_proj

@[dfd] theorem C72_vec3_center (a : V3 ℝ) (b : V3 ℝ) :
    (glm_vec3_center (a.map ret) (b.map ret) : V3 (Dfd o)) = (glm_vec3_center a b).map ret := by
  dfd_step glm_vec3_center

@[dfd] theorem C72_vec3_distance2 (a : V3 ℝ) (b : V3 ℝ) :
    (glm_vec3_distance2 (a.map ret) (b.map ret) : Dfd o) = ret (glm_vec3_distance2 a b) := by
  dfd_step glm_vec3_distance2

@[dfd] theorem C72_vec3_distance (a : V3 ℝ) (b : V3 ℝ) :
    (glm_vec3_distance (a.map ret) (b.map ret) : Dfd o) = ret (glm_vec3_distance a b) := by
  dfd_step glm_vec3_distance

@[dfd] theorem C72_vec3_maxv (a : V3 ℝ) (b : V3 ℝ) :
    (glm_vec3_maxv (a.map ret) (b.map ret) : V3 (Dfd o)) = (glm_vec3_maxv a b).map ret := by
  dfd_step glm_vec3_maxv

@[dfd] theorem C72_vec3_minv (a : V3 ℝ) (b : V3 ℝ) :
    (glm_vec3_minv (a.map ret) (b.map ret) : V3 (Dfd o)) = (glm_vec3_minv a b).map ret := by
  dfd_step glm_vec3_minv

@[dfd] theorem C72_vec3_ortho (v : V3 ℝ) :
    (glm_vec3_ortho (v.map ret) : V3 (Dfd o)) = (glm_vec3_ortho v).map ret := by
  dfd_step glm_vec3_ortho

@[dfd] theorem C72_vec3_clamp (v : V3 ℝ) (minVal : ℝ) (maxVal : ℝ) :
    (glm_vec3_clamp (v.map ret) (ret minVal) (ret maxVal) : V3 (Dfd o)) = (glm_vec3_clamp v minVal maxVal).map ret := by
  dfd_step glm_vec3_clamp

@[dfd] theorem C72_vec3_lerp (frm : V3 ℝ) (dst : V3 ℝ) (t : ℝ) :
    (glm_vec3_lerp (frm.map ret) (dst.map ret) (ret t) : V3 (Dfd o)) = (glm_vec3_lerp frm dst t).map ret := by
  dfd_step glm_vec3_lerp

@[dfd] theorem C72_vec3_lerpc (frm : V3 ℝ) (dst : V3 ℝ) (t : ℝ) :
    (glm_vec3_lerpc (frm.map ret) (dst.map ret) (ret t) : V3 (Dfd o)) = (glm_vec3_lerpc frm dst t).map ret := by
  dfd_step glm_vec3_lerpc

@[dfd] theorem C72_vec3_mix (frm : V3 ℝ) (dst : V3 ℝ) (t : ℝ) :
    (glm_vec3_mix (frm.map ret) (dst.map ret) (ret t) : V3 (Dfd o)) = (glm_vec3_mix frm dst t).map ret := by
  dfd_step glm_vec3_mix

@[dfd] theorem C72_vec3_mixc (frm : V3 ℝ) (dst : V3 ℝ) (t : ℝ) :
    (glm_vec3_mixc (frm.map ret) (dst.map ret) (ret t) : V3 (Dfd o)) = (glm_vec3_mixc frm dst t).map ret := by
  dfd_step glm_vec3_mixc

@[dfd] theorem C72_vec3_step (edge : V3 ℝ) (x : V3 ℝ) :
    (glm_vec3_step (edge.map ret) (x.map ret) : V3 (Dfd o)) = (glm_vec3_step edge x).map ret := by
  dfd_step glm_vec3_step

@[dfd] theorem C72_vec3_smoothstep_uni (edge0 : ℝ) (edge1 : ℝ) (x : V3 ℝ)
    (h1 : edge0 ≠ edge1) :
    (glm_vec3_smoothstep_uni (ret edge0) (ret edge1) (x.map ret) : V3 (Dfd o)) = (glm_vec3_smoothstep_uni edge0 edge1 x).map ret := by
  dfd_step glm_vec3_smoothstep_uni

@[dfd] theorem C72_vec3_smoothstep (edge0 : V3 ℝ) (edge1 : V3 ℝ) (x : V3 ℝ)
    (h1 : edge0.x ≠ edge1.x)
    (h2 : edge0.y ≠ edge1.y)
    (h3 : edge0.z ≠ edge1.z) :
    (glm_vec3_smoothstep (edge0.map ret) (edge1.map ret) (x.map ret) : V3 (Dfd o)) = (glm_vec3_smoothstep edge0 edge1 x).map ret := by
  dfd_step glm_vec3_smoothstep

@[dfd] theorem C72_vec3_smoothinterp (frm : V3 ℝ) (dst : V3 ℝ) (t : ℝ) :
    (glm_vec3_smoothinterp (frm.map ret) (dst.map ret) (ret t) : V3 (Dfd o)) = (glm_vec3_smoothinterp frm dst t).map ret := by
  dfd_step glm_vec3_smoothinterp

@[dfd] theorem C72_vec3_smoothinterpc (frm : V3 ℝ) (dst : V3 ℝ) (t : ℝ) :
    (glm_vec3_smoothinterpc (frm.map ret) (dst.map ret) (ret t) : V3 (Dfd o)) = (glm_vec3_smoothinterpc frm dst t).map ret := by
  dfd_step glm_vec3_smoothinterpc

@[dfd] theorem C72_cross (a : V3 ℝ) (b : V3 ℝ) :
    (glm_cross (a.map ret) (b.map ret) : V3 (Dfd o)) = (glm_cross a b).map ret := by
  dfd_step glm_cross

@[dfd] theorem C72_dot (a : V3 ℝ) (b : V3 ℝ) :
    (glm_dot (a.map ret) (b.map ret) : Dfd o) = ret (glm_dot a b) := by
  dfd_step glm_dot

@[dfd] theorem C72_normalize (v : V3 ℝ) :
    (glm_normalize (v.map ret) : V3 (Dfd o)) = (glm_normalize v).map ret := by
  dfd_step glm_normalize

@[dfd] theorem C72_normalize_to (v : V3 ℝ) :
    (glm_normalize_to (v.map ret) : V3 (Dfd o)) = (glm_normalize_to v).map ret := by
  dfd_step glm_normalize_to

@[dfd] theorem C72_vec3_make (src : V3 ℝ) :
    (glm_vec3_make (src.map ret) : V3 (Dfd o)) = (glm_vec3_make src).map ret := by
  dfd_step glm_vec3_make

@[dfd] theorem C72_vec3_faceforward (n : V3 ℝ) (v : V3 ℝ) (nref : V3 ℝ) :
    (glm_vec3_faceforward (n.map ret) (v.map ret) (nref.map ret) : V3 (Dfd o)) = (glm_vec3_faceforward n v nref).map ret := by
  dfd_step glm_vec3_faceforward

@[dfd] theorem C72_vec3_reflect (v : V3 ℝ) (n : V3 ℝ) :
    (glm_vec3_reflect (v.map ret) (n.map ret) : V3 (Dfd o)) = (glm_vec3_reflect v n).map ret := by
  dfd_step glm_vec3_reflect

@[dfd] theorem C72_vec3_refract (v : V3 ℝ) (n : V3 ℝ) (eta : ℝ) :
    (glm_vec3_refract (v.map ret) (n.map ret) (ret eta) : Bool × V3 (Dfd o)) = ((glm_vec3_refract v n eta).1, (glm_vec3_refract v n eta).2.map ret) := by
  dfd_step glm_vec3_refract

end Cglm

end C72Vec3
