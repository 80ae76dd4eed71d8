/- Generated by tools/safethms.py; do not edit by hand. -/
import Verif.Lib.Geom
import Verif.Lib.Vec
import Verif.Lib.Mat
import Verif.Lib.Affine
import Verif.Lib.Clip
import Verif.Lib.Quat

/-!
# All functions of the array interface

682 functions.  The functions whose arrays have a length given at run time are not here.
-/

namespace Cglm.CMem
open Lib

def lib : List Entry := partGeom1 ++ partGeom2 ++ partGeom3 ++ partGeom4 ++ partVec1 ++ partVec2 ++ partVec3 ++ partVec4 ++ partVec5 ++ partVec6 ++ partMat1 ++ partMat2 ++ partMat3 ++ partAffine1 ++ partAffine2 ++ partClip1 ++ partClip2 ++ partClip3 ++ partQuat1 ++ partQuat2

theorem all_ok_append {a b : List Entry} (ha : a.all Entry.ok = true) (hb : b.all Entry.ok = true) : (a ++ b).all Entry.ok = true := by
  rw [List.all_append, ha, hb]
  rfl

/-- the analysis accepts every function -/
theorem lib_ok : lib.all Entry.ok = true :=
  all_ok_append (all_ok_append (all_ok_append (all_ok_append (all_ok_append (all_ok_append (all_ok_append (all_ok_append (all_ok_append (all_ok_append (all_ok_append (all_ok_append (all_ok_append (all_ok_append (all_ok_append (all_ok_append (all_ok_append (all_ok_append (all_ok_append (partGeom1_ok) partGeom2_ok) partGeom3_ok) partGeom4_ok) partVec1_ok) partVec2_ok) partVec3_ok) partVec4_ok) partVec5_ok) partVec6_ok) partMat1_ok) partMat2_ok) partMat3_ok) partAffine1_ok) partAffine2_ok) partClip1_ok) partClip2_ok) partClip3_ok) partQuat1_ok) partQuat2_ok

end Cglm.CMem
