/- Generated by tools/safethms.py; do not edit by hand. -/
import Verif.CMemEntry
import Verif.Mem.Affines

/-!
# The functions of the array interface with their arguments

Arrays are counted in floats.  The analysis of `CMemSafe` accepts every function.
-/

namespace Cglm.CMem.Lib

/-! ## include/cglm/affine-mat.h -/

/-- the parameters of `glm_mul`: include/cglm/affine-mat.h:54-96 -/
def glm_mul : Entry := ⟨C.glm_mul, [.inp 16, .inp 16, .out 16], .void⟩
theorem glm_mul_ok : glm_mul.ok = true := by kernel_rfl
/-- the parameters of `glm_mul_rot`: include/cglm/affine-mat.h:114-153 -/
def glm_mul_rot : Entry := ⟨C.glm_mul_rot, [.inp 16, .inp 16, .out 16], .void⟩
theorem glm_mul_rot_ok : glm_mul_rot.ok = true := by kernel_rfl
/-- the parameters of `glm_inv_tr`: include/cglm/affine-mat.h:165-187 -/
def glm_inv_tr : Entry := ⟨C.glm_inv_tr, [.io 16], .void⟩
theorem glm_inv_tr_ok : glm_inv_tr.ok = true := by kernel_rfl

/-! ## include/cglm/affine.h -/

/-- the parameters of `glm_translate_make`: include/cglm/affine.h:50-55 -/
def glm_translate_make : Entry := ⟨C.glm_translate_make, [.out 16, .inp 3], .void⟩
theorem glm_translate_make_ok : glm_translate_make.ok = true := by kernel_rfl
/-- the parameters of `glm_scale_to`: include/cglm/affine.h:65-73 -/
def glm_scale_to : Entry := ⟨C.glm_scale_to, [.inp 16, .inp 3, .out 16], .void⟩
theorem glm_scale_to_ok : glm_scale_to.ok = true := by kernel_rfl
/-- the parameters of `glm_scale_make`: include/cglm/affine.h:81-88 -/
def glm_scale_make : Entry := ⟨C.glm_scale_make, [.out 16, .inp 3], .void⟩
theorem glm_scale_make_ok : glm_scale_make.ok = true := by kernel_rfl
/-- the parameters of `glm_scale`: include/cglm/affine.h:97-101 -/
def glm_scale : Entry := ⟨C.glm_scale, [.io 16, .inp 3], .void⟩
theorem glm_scale_ok : glm_scale.ok = true := by kernel_rfl
/-- the parameters of `glm_scale_uni`: include/cglm/affine.h:110-115 -/
def glm_scale_uni : Entry := ⟨C.glm_scale_uni, [.io 16, .f], .void⟩
theorem glm_scale_uni_ok : glm_scale_uni.ok = true := by kernel_rfl
/-- the parameters of `glm_rotate_make`: include/cglm/affine.h:126-148 -/
def glm_rotate_make : Entry := ⟨C.glm_rotate_make, [.out 16, .f, .inp 3], .void⟩
theorem glm_rotate_make_ok : glm_rotate_make.ok = true := by kernel_rfl
/-- the parameters of `glm_decompose_scalev`: include/cglm/affine.h:156-162 -/
def glm_decompose_scalev : Entry := ⟨C.glm_decompose_scalev, [.inp 16, .out 3], .void⟩
theorem glm_decompose_scalev_ok : glm_decompose_scalev.ok = true := by kernel_rfl
/-- the parameters of `glm_uniscaled`: include/cglm/affine.h:172-178 -/
def glm_uniscaled : Entry := ⟨C.glm_uniscaled, [.inp 16], .bool⟩
theorem glm_uniscaled_ok : glm_uniscaled.ok = true := by kernel_rfl
/-- the parameters of `glm_decompose_rs`: include/cglm/affine.h:188-217 -/
def glm_decompose_rs : Entry := ⟨C.glm_decompose_rs, [.inp 16, .out 16, .out 3], .void⟩
theorem glm_decompose_rs_ok : glm_decompose_rs.ok = true := by kernel_rfl
/-- the parameters of `glm_decompose`: include/cglm/affine.h:228-233 -/
def glm_decompose : Entry := ⟨C.glm_decompose, [.inp 16, .out 4, .out 16, .out 3], .void⟩
theorem glm_decompose_ok : glm_decompose.ok = true := by kernel_rfl

/-! ## include/cglm/affine-pre.h -/

/-- the parameters of `glm_translate`: include/cglm/affine-pre.h:41-61 -/
def glm_translate : Entry := ⟨C.glm_translate, [.io 16, .inp 3], .void⟩
theorem glm_translate_ok : glm_translate.ok = true := by kernel_rfl
/-- the parameters of `glm_translate_to`: include/cglm/affine-pre.h:73-78 -/
def glm_translate_to : Entry := ⟨C.glm_translate_to, [.inp 16, .inp 3, .out 16], .void⟩
theorem glm_translate_to_ok : glm_translate_to.ok = true := by kernel_rfl
/-- the parameters of `glm_translate_x`: include/cglm/affine-pre.h:86-96 -/
def glm_translate_x : Entry := ⟨C.glm_translate_x, [.io 16, .f], .void⟩
theorem glm_translate_x_ok : glm_translate_x.ok = true := by kernel_rfl
/-- the parameters of `glm_translate_y`: include/cglm/affine-pre.h:104-114 -/
def glm_translate_y : Entry := ⟨C.glm_translate_y, [.io 16, .f], .void⟩
theorem glm_translate_y_ok : glm_translate_y.ok = true := by kernel_rfl
/-- the parameters of `glm_translate_z`: include/cglm/affine-pre.h:122-132 -/
def glm_translate_z : Entry := ⟨C.glm_translate_z, [.io 16, .f], .void⟩
theorem glm_translate_z_ok : glm_translate_z.ok = true := by kernel_rfl
/-- the parameters of `glm_rotate_x`: include/cglm/affine-pre.h:142-157 -/
def glm_rotate_x : Entry := ⟨C.glm_rotate_x, [.inp 16, .f, .out 16], .void⟩
theorem glm_rotate_x_ok : glm_rotate_x.ok = true := by kernel_rfl
/-- the parameters of `glm_rotate_y`: include/cglm/affine-pre.h:167-182 -/
def glm_rotate_y : Entry := ⟨C.glm_rotate_y, [.inp 16, .f, .out 16], .void⟩
theorem glm_rotate_y_ok : glm_rotate_y.ok = true := by kernel_rfl
/-- the parameters of `glm_rotate_z`: include/cglm/affine-pre.h:192-207 -/
def glm_rotate_z : Entry := ⟨C.glm_rotate_z, [.inp 16, .f, .out 16], .void⟩
theorem glm_rotate_z_ok : glm_rotate_z.ok = true := by kernel_rfl
/-- the parameters of `glm_rotate`: include/cglm/affine-pre.h:234-240 -/
def glm_rotate : Entry := ⟨C.glm_rotate, [.io 16, .f, .inp 3], .void⟩
theorem glm_rotate_ok : glm_rotate.ok = true := by kernel_rfl
/-- the parameters of `glm_rotate_at`: include/cglm/affine-pre.h:251-261 -/
def glm_rotate_at : Entry := ⟨C.glm_rotate_at, [.io 16, .inp 3, .f, .inp 3], .void⟩
theorem glm_rotate_at_ok : glm_rotate_at.ok = true := by kernel_rfl
/-- the parameters of `glm_rotate_atm`: include/cglm/affine-pre.h:276-286 -/
def glm_rotate_atm : Entry := ⟨C.glm_rotate_atm, [.out 16, .inp 3, .f, .inp 3], .void⟩
theorem glm_rotate_atm_ok : glm_rotate_atm.ok = true := by kernel_rfl
/-- the parameters of `glm_spin`: include/cglm/affine-pre.h:296-302 -/
def glm_spin : Entry := ⟨C.glm_spin, [.io 16, .f, .inp 3], .void⟩
theorem glm_spin_ok : glm_spin.ok = true := by kernel_rfl

/-! ## include/cglm/affine-post.h -/

/-- the parameters of `glm_translated`: include/cglm/affine-post.h:42-46 -/
def glm_translated : Entry := ⟨C.glm_translated, [.io 16, .inp 3], .void⟩
theorem glm_translated_ok : glm_translated.ok = true := by kernel_rfl
/-- the parameters of `glm_translated_to`: include/cglm/affine-post.h:60-65 -/
def glm_translated_to : Entry := ⟨C.glm_translated_to, [.inp 16, .inp 3, .out 16], .void⟩
theorem glm_translated_to_ok : glm_translated_to.ok = true := by kernel_rfl
/-- the parameters of `glm_translated_x`: include/cglm/affine-post.h:75-79 -/
def glm_translated_x : Entry := ⟨C.glm_translated_x, [.io 16, .f], .void⟩
theorem glm_translated_x_ok : glm_translated_x.ok = true := by kernel_rfl
/-- the parameters of `glm_translated_y`: include/cglm/affine-post.h:89-93 -/
def glm_translated_y : Entry := ⟨C.glm_translated_y, [.io 16, .f], .void⟩
theorem glm_translated_y_ok : glm_translated_y.ok = true := by kernel_rfl
/-- the parameters of `glm_translated_z`: include/cglm/affine-post.h:103-107 -/
def glm_translated_z : Entry := ⟨C.glm_translated_z, [.io 16, .f], .void⟩
theorem glm_translated_z_ok : glm_translated_z.ok = true := by kernel_rfl
/-- the parameters of `glm_rotated_x`: include/cglm/affine-post.h:119-134 -/
def glm_rotated_x : Entry := ⟨C.glm_rotated_x, [.inp 16, .f, .out 16], .void⟩
theorem glm_rotated_x_ok : glm_rotated_x.ok = true := by kernel_rfl
/-- the parameters of `glm_rotated_y`: include/cglm/affine-post.h:146-161 -/
def glm_rotated_y : Entry := ⟨C.glm_rotated_y, [.inp 16, .f, .out 16], .void⟩
theorem glm_rotated_y_ok : glm_rotated_y.ok = true := by kernel_rfl
/-- the parameters of `glm_rotated_z`: include/cglm/affine-post.h:173-188 -/
def glm_rotated_z : Entry := ⟨C.glm_rotated_z, [.inp 16, .f, .out 16], .void⟩
theorem glm_rotated_z_ok : glm_rotated_z.ok = true := by kernel_rfl
/-- the parameters of `glm_rotated`: include/cglm/affine-post.h:199-205 -/
def glm_rotated : Entry := ⟨C.glm_rotated, [.io 16, .f, .inp 3], .void⟩
theorem glm_rotated_ok : glm_rotated.ok = true := by kernel_rfl
/-- the parameters of `glm_rotated_at`: include/cglm/affine-post.h:218-228 -/
def glm_rotated_at : Entry := ⟨C.glm_rotated_at, [.io 16, .inp 3, .f, .inp 3], .void⟩
theorem glm_rotated_at_ok : glm_rotated_at.ok = true := by kernel_rfl
/-- the parameters of `glm_spinned`: include/cglm/affine-post.h:239-245 -/
def glm_spinned : Entry := ⟨C.glm_spinned, [.io 16, .f, .inp 3], .void⟩
theorem glm_spinned_ok : glm_spinned.ok = true := by kernel_rfl

/-! ## include/cglm/affine2d.h -/

/-- the parameters of `glm_translate2d`: include/cglm/affine2d.h:39-45 -/
def glm_translate2d : Entry := ⟨C.glm_translate2d, [.io 9, .inp 2], .void⟩
theorem glm_translate2d_ok : glm_translate2d.ok = true := by kernel_rfl
/-- the parameters of `glm_translate2d_to`: include/cglm/affine2d.h:57-62 -/
def glm_translate2d_to : Entry := ⟨C.glm_translate2d_to, [.inp 9, .inp 2, .out 9], .void⟩
theorem glm_translate2d_to_ok : glm_translate2d_to.ok = true := by kernel_rfl
/-- the parameters of `glm_translate2d_x`: include/cglm/affine2d.h:70-76 -/
def glm_translate2d_x : Entry := ⟨C.glm_translate2d_x, [.io 9, .f], .void⟩
theorem glm_translate2d_x_ok : glm_translate2d_x.ok = true := by kernel_rfl
/-- the parameters of `glm_translate2d_y`: include/cglm/affine2d.h:84-90 -/
def glm_translate2d_y : Entry := ⟨C.glm_translate2d_y, [.io 9, .f], .void⟩
theorem glm_translate2d_y_ok : glm_translate2d_y.ok = true := by kernel_rfl
/-- the parameters of `glm_translate2d_make`: include/cglm/affine2d.h:98-104 -/
def glm_translate2d_make : Entry := ⟨C.glm_translate2d_make, [.out 9, .inp 2], .void⟩
theorem glm_translate2d_make_ok : glm_translate2d_make.ok = true := by kernel_rfl
/-- the parameters of `glm_scale2d_to`: include/cglm/affine2d.h:114-128 -/
def glm_scale2d_to : Entry := ⟨C.glm_scale2d_to, [.inp 9, .inp 2, .out 9], .void⟩
theorem glm_scale2d_to_ok : glm_scale2d_to.ok = true := by kernel_rfl
/-- the parameters of `glm_scale2d_make`: include/cglm/affine2d.h:136-142 -/
def glm_scale2d_make : Entry := ⟨C.glm_scale2d_make, [.out 9, .inp 2], .void⟩
theorem glm_scale2d_make_ok : glm_scale2d_make.ok = true := by kernel_rfl
/-- the parameters of `glm_scale2d`: include/cglm/affine2d.h:151-161 -/
def glm_scale2d : Entry := ⟨C.glm_scale2d, [.io 9, .inp 2], .void⟩
theorem glm_scale2d_ok : glm_scale2d.ok = true := by kernel_rfl
/-- the parameters of `glm_scale2d_uni`: include/cglm/affine2d.h:170-180 -/
def glm_scale2d_uni : Entry := ⟨C.glm_scale2d_uni, [.io 9, .f], .void⟩
theorem glm_scale2d_uni_ok : glm_scale2d_uni.ok = true := by kernel_rfl
/-- the parameters of `glm_rotate2d_make`: include/cglm/affine2d.h:188-207 -/
def glm_rotate2d_make : Entry := ⟨C.glm_rotate2d_make, [.out 9, .f], .void⟩
theorem glm_rotate2d_make_ok : glm_rotate2d_make.ok = true := by kernel_rfl
/-- the parameters of `glm_rotate2d`: include/cglm/affine2d.h:216-234 -/
def glm_rotate2d : Entry := ⟨C.glm_rotate2d, [.io 9, .f], .void⟩
theorem glm_rotate2d_ok : glm_rotate2d.ok = true := by kernel_rfl
/-- the parameters of `glm_rotate2d_to`: include/cglm/affine2d.h:244-266 -/
def glm_rotate2d_to : Entry := ⟨C.glm_rotate2d_to, [.inp 9, .f, .out 9], .void⟩
theorem glm_rotate2d_to_ok : glm_rotate2d_to.ok = true := by kernel_rfl

/-! ## include/cglm/affine2d-post.h -/

/-- the parameters of `glm_translated2d`: include/cglm/affine2d-post.h:32-36 -/
def glm_translated2d : Entry := ⟨C.glm_translated2d, [.io 9, .inp 2], .void⟩
theorem glm_translated2d_ok : glm_translated2d.ok = true := by kernel_rfl
/-- the parameters of `glm_translated2d_x`: include/cglm/affine2d-post.h:46-50 -/
def glm_translated2d_x : Entry := ⟨C.glm_translated2d_x, [.io 9, .f], .void⟩
theorem glm_translated2d_x_ok : glm_translated2d_x.ok = true := by kernel_rfl
/-- the parameters of `glm_translated2d_y`: include/cglm/affine2d-post.h:60-64 -/
def glm_translated2d_y : Entry := ⟨C.glm_translated2d_y, [.io 9, .f], .void⟩
theorem glm_translated2d_y_ok : glm_translated2d_y.ok = true := by kernel_rfl
/-- the parameters of `glm_rotated2d`: include/cglm/affine2d-post.h:74-90 -/
def glm_rotated2d : Entry := ⟨C.glm_rotated2d, [.io 9, .f], .void⟩
theorem glm_rotated2d_ok : glm_rotated2d.ok = true := by kernel_rfl
/-- the parameters of `glm_scaled2d`: include/cglm/affine2d-post.h:100-110 -/
def glm_scaled2d : Entry := ⟨C.glm_scaled2d, [.io 9, .inp 2], .void⟩
theorem glm_scaled2d_ok : glm_scaled2d.ok = true := by kernel_rfl
/-- the parameters of `glm_scaled2d_uni`: include/cglm/affine2d-post.h:120-130 -/
def glm_scaled2d_uni : Entry := ⟨C.glm_scaled2d_uni, [.io 9, .f], .void⟩
theorem glm_scaled2d_uni_ok : glm_scaled2d_uni.ok = true := by kernel_rfl

def partAffine1 : List Entry := [glm_mul, glm_mul_rot, glm_inv_tr, glm_translate_make, glm_scale_to, glm_scale_make, glm_scale, glm_scale_uni, glm_rotate_make, glm_decompose_scalev, glm_uniscaled, glm_decompose_rs, glm_decompose, glm_translate, glm_translate_to, glm_translate_x, glm_translate_y, glm_translate_z, glm_rotate_x, glm_rotate_y, glm_rotate_z, glm_rotate, glm_rotate_at, glm_rotate_atm, glm_spin, glm_translated, glm_translated_to, glm_translated_x, glm_translated_y, glm_translated_z, glm_rotated_x, glm_rotated_y, glm_rotated_z, glm_rotated, glm_rotated_at, glm_spinned, glm_translate2d, glm_translate2d_to, glm_translate2d_x, glm_translate2d_y]
theorem partAffine1_ok : partAffine1.all Entry.ok = true := by
  simp only [partAffine1, List.all_cons, List.all_nil, glm_mul_ok, glm_mul_rot_ok, glm_inv_tr_ok, glm_translate_make_ok, glm_scale_to_ok, glm_scale_make_ok, glm_scale_ok, glm_scale_uni_ok, glm_rotate_make_ok, glm_decompose_scalev_ok, glm_uniscaled_ok, glm_decompose_rs_ok, glm_decompose_ok, glm_translate_ok, glm_translate_to_ok, glm_translate_x_ok, glm_translate_y_ok, glm_translate_z_ok, glm_rotate_x_ok, glm_rotate_y_ok, glm_rotate_z_ok, glm_rotate_ok, glm_rotate_at_ok, glm_rotate_atm_ok, glm_spin_ok, glm_translated_ok, glm_translated_to_ok, glm_translated_x_ok, glm_translated_y_ok, glm_translated_z_ok, glm_rotated_x_ok, glm_rotated_y_ok, glm_rotated_z_ok, glm_rotated_ok, glm_rotated_at_ok, glm_spinned_ok, glm_translate2d_ok, glm_translate2d_to_ok, glm_translate2d_x_ok, glm_translate2d_y_ok, Bool.and_self]
def partAffine2 : List Entry := [glm_translate2d_make, glm_scale2d_to, glm_scale2d_make, glm_scale2d, glm_scale2d_uni, glm_rotate2d_make, glm_rotate2d, glm_rotate2d_to, glm_translated2d, glm_translated2d_x, glm_translated2d_y, glm_rotated2d, glm_scaled2d, glm_scaled2d_uni]
theorem partAffine2_ok : partAffine2.all Entry.ok = true := by
  simp only [partAffine2, List.all_cons, List.all_nil, glm_translate2d_make_ok, glm_scale2d_to_ok, glm_scale2d_make_ok, glm_scale2d_ok, glm_scale2d_uni_ok, glm_rotate2d_make_ok, glm_rotate2d_ok, glm_rotate2d_to_ok, glm_translated2d_ok, glm_translated2d_x_ok, glm_translated2d_y_ok, glm_rotated2d_ok, glm_scaled2d_ok, glm_scaled2d_uni_ok, Bool.and_self]

end Cglm.CMem.Lib
