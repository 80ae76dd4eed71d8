/- Generated by tools/safethms.py; do not edit by hand. -/
import Verif.CMemEntry
import Verif.Mem.Quats

/-!
# The functions of the array interface with their arguments

Arrays are counted in floats.  The analysis of `CMemSafe` accepts every function.
-/

namespace Cglm.CMem.Lib

/-! ## include/cglm/quat.h -/

/-- the parameters of `glm_quat_identity`: include/cglm/quat.h:99-104 -/
def glm_quat_identity : Entry := ⟨C.glm_quat_identity, [.out 4], .void⟩
theorem glm_quat_identity_ok : glm_quat_identity.ok = true := by kernel_rfl
/-- the parameters of `glm_quat_init`: include/cglm/quat.h:134-141 -/
def glm_quat_init : Entry := ⟨C.glm_quat_init, [.out 4, .f, .f, .f, .f], .void⟩
theorem glm_quat_init_ok : glm_quat_init.ok = true := by kernel_rfl
/-- the parameters of `glm_quatv`: include/cglm/quat.h:150-166 -/
def glm_quatv : Entry := ⟨C.glm_quatv, [.out 4, .f, .inp 3], .void⟩
theorem glm_quatv_ok : glm_quatv.ok = true := by kernel_rfl
/-- the parameters of `glm_quat`: include/cglm/quat.h:177-182 -/
def glm_quat : Entry := ⟨C.glm_quat, [.out 4, .f, .f, .f, .f], .void⟩
theorem glm_quat_ok : glm_quat.ok = true := by kernel_rfl
/-- the parameters of `glm_quat_copy`: include/cglm/quat.h:190-194 -/
def glm_quat_copy : Entry := ⟨C.glm_quat_copy, [.inp 4, .out 4], .void⟩
theorem glm_quat_copy_ok : glm_quat_copy.ok = true := by kernel_rfl
/-- the parameters of `glm_quat_norm`: include/cglm/quat.h:232-236 -/
def glm_quat_norm : Entry := ⟨C.glm_quat_norm, [.inp 4], .float⟩
theorem glm_quat_norm_ok : glm_quat_norm.ok = true := by kernel_rfl
/-- the parameters of `glm_quat_normalize_to`: include/cglm/quat.h:244-288 -/
def glm_quat_normalize_to : Entry := ⟨C.glm_quat_normalize_to, [.inp 4, .out 4], .void⟩
theorem glm_quat_normalize_to_ok : glm_quat_normalize_to.ok = true := by kernel_rfl
/-- the parameters of `glm_quat_normalize`: include/cglm/quat.h:295-299 -/
def glm_quat_normalize : Entry := ⟨C.glm_quat_normalize, [.io 4], .void⟩
theorem glm_quat_normalize_ok : glm_quat_normalize.ok = true := by kernel_rfl
/-- the parameters of `glm_quat_dot`: include/cglm/quat.h:307-311 -/
def glm_quat_dot : Entry := ⟨C.glm_quat_dot, [.inp 4, .inp 4], .float⟩
theorem glm_quat_dot_ok : glm_quat_dot.ok = true := by kernel_rfl
/-- the parameters of `glm_quat_conjugate`: include/cglm/quat.h:319-324 -/
def glm_quat_conjugate : Entry := ⟨C.glm_quat_conjugate, [.inp 4, .out 4], .void⟩
theorem glm_quat_conjugate_ok : glm_quat_conjugate.ok = true := by kernel_rfl
/-- the parameters of `glm_quat_inv`: include/cglm/quat.h:332-338 -/
def glm_quat_inv : Entry := ⟨C.glm_quat_inv, [.inp 4, .out 4], .void⟩
theorem glm_quat_inv_ok : glm_quat_inv.ok = true := by kernel_rfl
/-- the parameters of `glm_quat_add`: include/cglm/quat.h:347-351 -/
def glm_quat_add : Entry := ⟨C.glm_quat_add, [.inp 4, .inp 4, .out 4], .void⟩
theorem glm_quat_add_ok : glm_quat_add.ok = true := by kernel_rfl
/-- the parameters of `glm_quat_sub`: include/cglm/quat.h:360-364 -/
def glm_quat_sub : Entry := ⟨C.glm_quat_sub, [.inp 4, .inp 4, .out 4], .void⟩
theorem glm_quat_sub_ok : glm_quat_sub.ok = true := by kernel_rfl
/-- the parameters of `glm_quat_real`: include/cglm/quat.h:371-375 -/
def glm_quat_real : Entry := ⟨C.glm_quat_real, [.inp 4], .float⟩
theorem glm_quat_real_ok : glm_quat_real.ok = true := by kernel_rfl
/-- the parameters of `glm_quat_imag`: include/cglm/quat.h:383-389 -/
def glm_quat_imag : Entry := ⟨C.glm_quat_imag, [.inp 4, .out 3], .void⟩
theorem glm_quat_imag_ok : glm_quat_imag.ok = true := by kernel_rfl
/-- the parameters of `glm_quat_imagn`: include/cglm/quat.h:396-400 -/
def glm_quat_imagn : Entry := ⟨C.glm_quat_imagn, [.inp 4, .out 3], .void⟩
theorem glm_quat_imagn_ok : glm_quat_imagn.ok = true := by kernel_rfl
/-- the parameters of `glm_quat_imaglen`: include/cglm/quat.h:407-411 -/
def glm_quat_imaglen : Entry := ⟨C.glm_quat_imaglen, [.inp 4], .float⟩
theorem glm_quat_imaglen_ok : glm_quat_imaglen.ok = true := by kernel_rfl
/-- the parameters of `glm_quat_angle`: include/cglm/quat.h:418-427 -/
def glm_quat_angle : Entry := ⟨C.glm_quat_angle, [.inp 4], .float⟩
theorem glm_quat_angle_ok : glm_quat_angle.ok = true := by kernel_rfl
/-- the parameters of `glm_quat_axis`: include/cglm/quat.h:435-439 -/
def glm_quat_axis : Entry := ⟨C.glm_quat_axis, [.inp 4, .out 3], .void⟩
theorem glm_quat_axis_ok : glm_quat_axis.ok = true := by kernel_rfl
/-- the parameters of `glm_quat_mul`: include/cglm/quat.h:453-474 -/
def glm_quat_mul : Entry := ⟨C.glm_quat_mul, [.inp 4, .inp 4, .out 4], .void⟩
theorem glm_quat_mul_ok : glm_quat_mul.ok = true := by kernel_rfl
/-- the parameters of `glm_quat_mat4`: include/cglm/quat.h:482-521 -/
def glm_quat_mat4 : Entry := ⟨C.glm_quat_mat4, [.inp 4, .out 16], .void⟩
theorem glm_quat_mat4_ok : glm_quat_mat4.ok = true := by kernel_rfl
/-- the parameters of `glm_quat_mat4t`: include/cglm/quat.h:529-568 -/
def glm_quat_mat4t : Entry := ⟨C.glm_quat_mat4t, [.inp 4, .out 16], .void⟩
theorem glm_quat_mat4t_ok : glm_quat_mat4t.ok = true := by kernel_rfl
/-- the parameters of `glm_quat_mat3`: include/cglm/quat.h:576-607 -/
def glm_quat_mat3 : Entry := ⟨C.glm_quat_mat3, [.inp 4, .out 9], .void⟩
theorem glm_quat_mat3_ok : glm_quat_mat3.ok = true := by kernel_rfl
/-- the parameters of `glm_quat_mat3t`: include/cglm/quat.h:615-646 -/
def glm_quat_mat3t : Entry := ⟨C.glm_quat_mat3t, [.inp 4, .out 9], .void⟩
theorem glm_quat_mat3t_ok : glm_quat_mat3t.ok = true := by kernel_rfl
/-- the parameters of `glm_quat_lerp`: include/cglm/quat.h:657-661 -/
def glm_quat_lerp : Entry := ⟨C.glm_quat_lerp, [.inp 4, .inp 4, .f, .out 4], .void⟩
theorem glm_quat_lerp_ok : glm_quat_lerp.ok = true := by kernel_rfl
/-- the parameters of `glm_quat_lerpc`: include/cglm/quat.h:672-676 -/
def glm_quat_lerpc : Entry := ⟨C.glm_quat_lerpc, [.inp 4, .inp 4, .f, .out 4], .void⟩
theorem glm_quat_lerpc_ok : glm_quat_lerpc.ok = true := by kernel_rfl
/-- the parameters of `glm_quat_nlerp`: include/cglm/quat.h:688-699 -/
def glm_quat_nlerp : Entry := ⟨C.glm_quat_nlerp, [.inp 4, .inp 4, .f, .out 4], .void⟩
theorem glm_quat_nlerp_ok : glm_quat_nlerp.ok = true := by kernel_rfl
/-- the parameters of `glm_quat_slerp`: include/cglm/quat.h:710-744 -/
def glm_quat_slerp : Entry := ⟨C.glm_quat_slerp, [.inp 4, .inp 4, .f, .out 4], .void⟩
theorem glm_quat_slerp_ok : glm_quat_slerp.ok = true := by kernel_rfl
/-- the parameters of `glm_quat_slerp_longest`: include/cglm/quat.h:755-790 -/
def glm_quat_slerp_longest : Entry := ⟨C.glm_quat_slerp_longest, [.inp 4, .inp 4, .f, .out 4], .void⟩
theorem glm_quat_slerp_longest_ok : glm_quat_slerp_longest.ok = true := by kernel_rfl
/-- the parameters of `glm_quat_look`: include/cglm/quat.h:799-808 -/
def glm_quat_look : Entry := ⟨C.glm_quat_look, [.inp 3, .inp 4, .out 16], .void⟩
theorem glm_quat_look_ok : glm_quat_look.ok = true := by kernel_rfl
/-- the parameters of `glm_quat_for`: include/cglm/quat.h:817-831 -/
def glm_quat_for : Entry := ⟨C.glm_quat_for, [.inp 3, .inp 3, .out 4], .void⟩
theorem glm_quat_for_ok : glm_quat_for.ok = true := by kernel_rfl
/-- the parameters of `glm_quat_forp`: include/cglm/quat.h:842-848 -/
def glm_quat_forp : Entry := ⟨C.glm_quat_forp, [.inp 3, .inp 3, .inp 3, .out 4], .void⟩
theorem glm_quat_forp_ok : glm_quat_forp.ok = true := by kernel_rfl
/-- the parameters of `glm_quat_rotatev`: include/cglm/quat.h:857-876 -/
def glm_quat_rotatev : Entry := ⟨C.glm_quat_rotatev, [.inp 4, .inp 3, .out 3], .void⟩
theorem glm_quat_rotatev_ok : glm_quat_rotatev.ok = true := by kernel_rfl
/-- the parameters of `glm_quat_rotate`: include/cglm/quat.h:885-891 -/
def glm_quat_rotate : Entry := ⟨C.glm_quat_rotate, [.inp 16, .inp 4, .out 16], .void⟩
theorem glm_quat_rotate_ok : glm_quat_rotate.ok = true := by kernel_rfl
/-- the parameters of `glm_quat_rotate_at`: include/cglm/quat.h:900-910 -/
def glm_quat_rotate_at : Entry := ⟨C.glm_quat_rotate_at, [.io 16, .inp 4, .inp 3], .void⟩
theorem glm_quat_rotate_at_ok : glm_quat_rotate_at.ok = true := by kernel_rfl
/-- the parameters of `glm_quat_rotate_atm`: include/cglm/quat.h:924-934 -/
def glm_quat_rotate_atm : Entry := ⟨C.glm_quat_rotate_atm, [.out 16, .inp 4, .inp 3], .void⟩
theorem glm_quat_rotate_atm_ok : glm_quat_rotate_atm.ok = true := by kernel_rfl
/-- the parameters of `glm_quat_make`: include/cglm/quat.h:942-947 -/
def glm_quat_make : Entry := ⟨C.glm_quat_make, [.inp 4, .out 4], .void⟩
theorem glm_quat_make_ok : glm_quat_make.ok = true := by kernel_rfl
/-- the parameters of `glm_quat_from_vecs`: include/cglm/quat.h:203-225 -/
def glm_quat_from_vecs : Entry := ⟨C.glm_quat_from_vecs, [.inp 3, .inp 3, .out 4], .void⟩
theorem glm_quat_from_vecs_ok : glm_quat_from_vecs.ok = true := by kernel_rfl

/-! ## include/cglm/handed/euler_to_quat_rh.h -/

/-- the parameters of `glm_euler_xyz_quat_rh`: include/cglm/handed/euler_to_quat_rh.h:35-50 -/
def glm_euler_xyz_quat_rh : Entry := ⟨C.glm_euler_xyz_quat_rh, [.inp 3, .out 4], .void⟩
theorem glm_euler_xyz_quat_rh_ok : glm_euler_xyz_quat_rh.ok = true := by kernel_rfl
/-- the parameters of `glm_euler_xzy_quat_rh`: include/cglm/handed/euler_to_quat_rh.h:59-74 -/
def glm_euler_xzy_quat_rh : Entry := ⟨C.glm_euler_xzy_quat_rh, [.inp 3, .out 4], .void⟩
theorem glm_euler_xzy_quat_rh_ok : glm_euler_xzy_quat_rh.ok = true := by kernel_rfl
/-- the parameters of `glm_euler_yxz_quat_rh`: include/cglm/handed/euler_to_quat_rh.h:83-97 -/
def glm_euler_yxz_quat_rh : Entry := ⟨C.glm_euler_yxz_quat_rh, [.inp 3, .out 4], .void⟩
theorem glm_euler_yxz_quat_rh_ok : glm_euler_yxz_quat_rh.ok = true := by kernel_rfl
/-- the parameters of `glm_euler_yzx_quat_rh`: include/cglm/handed/euler_to_quat_rh.h:106-121 -/
def glm_euler_yzx_quat_rh : Entry := ⟨C.glm_euler_yzx_quat_rh, [.inp 3, .out 4], .void⟩
theorem glm_euler_yzx_quat_rh_ok : glm_euler_yzx_quat_rh.ok = true := by kernel_rfl
/-- the parameters of `glm_euler_zxy_quat_rh`: include/cglm/handed/euler_to_quat_rh.h:130-144 -/
def glm_euler_zxy_quat_rh : Entry := ⟨C.glm_euler_zxy_quat_rh, [.inp 3, .out 4], .void⟩
theorem glm_euler_zxy_quat_rh_ok : glm_euler_zxy_quat_rh.ok = true := by kernel_rfl
/-- the parameters of `glm_euler_zyx_quat_rh`: include/cglm/handed/euler_to_quat_rh.h:153-167 -/
def glm_euler_zyx_quat_rh : Entry := ⟨C.glm_euler_zyx_quat_rh, [.inp 3, .out 4], .void⟩
theorem glm_euler_zyx_quat_rh_ok : glm_euler_zyx_quat_rh.ok = true := by kernel_rfl

/-! ## include/cglm/euler.h -/

/-- the parameters of `glm_euler_angles`: include/cglm/euler.h:117-147 -/
def glm_euler_angles : Entry := ⟨C.glm_euler_angles, [.inp 16, .out 3], .void⟩
theorem glm_euler_angles_ok : glm_euler_angles.ok = true := by kernel_rfl
/-- the parameters of `glm_euler_xyz`: include/cglm/euler.h:155-185 -/
def glm_euler_xyz : Entry := ⟨C.glm_euler_xyz, [.inp 3, .out 16], .void⟩
theorem glm_euler_xyz_ok : glm_euler_xyz.ok = true := by kernel_rfl
/-- the parameters of `glm_euler`: include/cglm/euler.h:193-197 -/
def glm_euler : Entry := ⟨C.glm_euler, [.inp 3, .out 16], .void⟩
theorem glm_euler_ok : glm_euler.ok = true := by kernel_rfl
/-- the parameters of `glm_euler_xzy`: include/cglm/euler.h:205-236 -/
def glm_euler_xzy : Entry := ⟨C.glm_euler_xzy, [.inp 3, .out 16], .void⟩
theorem glm_euler_xzy_ok : glm_euler_xzy.ok = true := by kernel_rfl
/-- the parameters of `glm_euler_yxz`: include/cglm/euler.h:244-275 -/
def glm_euler_yxz : Entry := ⟨C.glm_euler_yxz, [.inp 3, .out 16], .void⟩
theorem glm_euler_yxz_ok : glm_euler_yxz.ok = true := by kernel_rfl
/-- the parameters of `glm_euler_yzx`: include/cglm/euler.h:283-314 -/
def glm_euler_yzx : Entry := ⟨C.glm_euler_yzx, [.inp 3, .out 16], .void⟩
theorem glm_euler_yzx_ok : glm_euler_yzx.ok = true := by kernel_rfl
/-- the parameters of `glm_euler_zxy`: include/cglm/euler.h:322-352 -/
def glm_euler_zxy : Entry := ⟨C.glm_euler_zxy, [.inp 3, .out 16], .void⟩
theorem glm_euler_zxy_ok : glm_euler_zxy.ok = true := by kernel_rfl
/-- the parameters of `glm_euler_zyx`: include/cglm/euler.h:360-390 -/
def glm_euler_zyx : Entry := ⟨C.glm_euler_zyx, [.inp 3, .out 16], .void⟩
theorem glm_euler_zyx_ok : glm_euler_zyx.ok = true := by kernel_rfl
/-- the parameters of `glm_euler_by_order`: include/cglm/euler.h:399-495 -/
def glm_euler_by_order : Entry := ⟨C.glm_euler_by_order, [.inp 3, .i, .io 16], .void⟩
theorem glm_euler_by_order_ok : glm_euler_by_order.ok = true := by kernel_rfl
/-- the parameters of `glm_euler_xyz_quat`: include/cglm/euler.h:505-513 -/
def glm_euler_xyz_quat : Entry := ⟨C.glm_euler_xyz_quat, [.inp 3, .out 4], .void⟩
theorem glm_euler_xyz_quat_ok : glm_euler_xyz_quat.ok = true := by kernel_rfl
/-- the parameters of `glm_euler_xzy_quat`: include/cglm/euler.h:522-530 -/
def glm_euler_xzy_quat : Entry := ⟨C.glm_euler_xzy_quat, [.inp 3, .out 4], .void⟩
theorem glm_euler_xzy_quat_ok : glm_euler_xzy_quat.ok = true := by kernel_rfl
/-- the parameters of `glm_euler_yxz_quat`: include/cglm/euler.h:539-547 -/
def glm_euler_yxz_quat : Entry := ⟨C.glm_euler_yxz_quat, [.inp 3, .out 4], .void⟩
theorem glm_euler_yxz_quat_ok : glm_euler_yxz_quat.ok = true := by kernel_rfl
/-- the parameters of `glm_euler_yzx_quat`: include/cglm/euler.h:556-564 -/
def glm_euler_yzx_quat : Entry := ⟨C.glm_euler_yzx_quat, [.inp 3, .out 4], .void⟩
theorem glm_euler_yzx_quat_ok : glm_euler_yzx_quat.ok = true := by kernel_rfl
/-- the parameters of `glm_euler_zxy_quat`: include/cglm/euler.h:573-581 -/
def glm_euler_zxy_quat : Entry := ⟨C.glm_euler_zxy_quat, [.inp 3, .out 4], .void⟩
theorem glm_euler_zxy_quat_ok : glm_euler_zxy_quat.ok = true := by kernel_rfl
/-- the parameters of `glm_euler_zyx_quat`: include/cglm/euler.h:590-598 -/
def glm_euler_zyx_quat : Entry := ⟨C.glm_euler_zyx_quat, [.inp 3, .out 4], .void⟩
theorem glm_euler_zyx_quat_ok : glm_euler_zyx_quat.ok = true := by kernel_rfl

/-! ## include/cglm/handed/euler_to_quat_lh.h -/

/-- the parameters of `glm_euler_xyz_quat_lh`: include/cglm/handed/euler_to_quat_lh.h:36-50 -/
def glm_euler_xyz_quat_lh : Entry := ⟨C.glm_euler_xyz_quat_lh, [.inp 3, .out 4], .void⟩
theorem glm_euler_xyz_quat_lh_ok : glm_euler_xyz_quat_lh.ok = true := by kernel_rfl
/-- the parameters of `glm_euler_xzy_quat_lh`: include/cglm/handed/euler_to_quat_lh.h:59-73 -/
def glm_euler_xzy_quat_lh : Entry := ⟨C.glm_euler_xzy_quat_lh, [.inp 3, .out 4], .void⟩
theorem glm_euler_xzy_quat_lh_ok : glm_euler_xzy_quat_lh.ok = true := by kernel_rfl
/-- the parameters of `glm_euler_yxz_quat_lh`: include/cglm/handed/euler_to_quat_lh.h:82-96 -/
def glm_euler_yxz_quat_lh : Entry := ⟨C.glm_euler_yxz_quat_lh, [.inp 3, .out 4], .void⟩
theorem glm_euler_yxz_quat_lh_ok : glm_euler_yxz_quat_lh.ok = true := by kernel_rfl
/-- the parameters of `glm_euler_yzx_quat_lh`: include/cglm/handed/euler_to_quat_lh.h:105-119 -/
def glm_euler_yzx_quat_lh : Entry := ⟨C.glm_euler_yzx_quat_lh, [.inp 3, .out 4], .void⟩
theorem glm_euler_yzx_quat_lh_ok : glm_euler_yzx_quat_lh.ok = true := by kernel_rfl
/-- the parameters of `glm_euler_zxy_quat_lh`: include/cglm/handed/euler_to_quat_lh.h:128-142 -/
def glm_euler_zxy_quat_lh : Entry := ⟨C.glm_euler_zxy_quat_lh, [.inp 3, .out 4], .void⟩
theorem glm_euler_zxy_quat_lh_ok : glm_euler_zxy_quat_lh.ok = true := by kernel_rfl
/-- the parameters of `glm_euler_zyx_quat_lh`: include/cglm/handed/euler_to_quat_lh.h:151-165 -/
def glm_euler_zyx_quat_lh : Entry := ⟨C.glm_euler_zyx_quat_lh, [.inp 3, .out 4], .void⟩
theorem glm_euler_zyx_quat_lh_ok : glm_euler_zyx_quat_lh.ok = true := by kernel_rfl

def partQuat1 : List Entry := [glm_quat_identity, glm_quat_init, glm_quatv, glm_quat, glm_quat_copy, glm_quat_norm, glm_quat_normalize_to, glm_quat_normalize, glm_quat_dot, glm_quat_conjugate, glm_quat_inv, glm_quat_add, glm_quat_sub, glm_quat_real, glm_quat_imag, glm_quat_imagn, glm_quat_imaglen, glm_quat_angle, glm_quat_axis, glm_quat_mul, glm_quat_mat4, glm_quat_mat4t, glm_quat_mat3, glm_quat_mat3t, glm_quat_lerp, glm_quat_lerpc, glm_quat_nlerp, glm_quat_slerp, glm_quat_slerp_longest, glm_quat_look, glm_quat_for, glm_quat_forp, glm_quat_rotatev, glm_quat_rotate, glm_quat_rotate_at, glm_quat_rotate_atm, glm_quat_make, glm_quat_from_vecs, glm_euler_xyz_quat_rh, glm_euler_xzy_quat_rh]
theorem partQuat1_ok : partQuat1.all Entry.ok = true := by
  simp only [partQuat1, List.all_cons, List.all_nil, glm_quat_identity_ok, glm_quat_init_ok, glm_quatv_ok, glm_quat_ok, glm_quat_copy_ok, glm_quat_norm_ok, glm_quat_normalize_to_ok, glm_quat_normalize_ok, glm_quat_dot_ok, glm_quat_conjugate_ok, glm_quat_inv_ok, glm_quat_add_ok, glm_quat_sub_ok, glm_quat_real_ok, glm_quat_imag_ok, glm_quat_imagn_ok, glm_quat_imaglen_ok, glm_quat_angle_ok, glm_quat_axis_ok, glm_quat_mul_ok, glm_quat_mat4_ok, glm_quat_mat4t_ok, glm_quat_mat3_ok, glm_quat_mat3t_ok, glm_quat_lerp_ok, glm_quat_lerpc_ok, glm_quat_nlerp_ok, glm_quat_slerp_ok, glm_quat_slerp_longest_ok, glm_quat_look_ok, glm_quat_for_ok, glm_quat_forp_ok, glm_quat_rotatev_ok, glm_quat_rotate_ok, glm_quat_rotate_at_ok, glm_quat_rotate_atm_ok, glm_quat_make_ok, glm_quat_from_vecs_ok, glm_euler_xyz_quat_rh_ok, glm_euler_xzy_quat_rh_ok, Bool.and_self]
def partQuat2 : List Entry := [glm_euler_yxz_quat_rh, glm_euler_yzx_quat_rh, glm_euler_zxy_quat_rh, glm_euler_zyx_quat_rh, glm_euler_angles, glm_euler_xyz, glm_euler, glm_euler_xzy, glm_euler_yxz, glm_euler_yzx, glm_euler_zxy, glm_euler_zyx, glm_euler_by_order, glm_euler_xyz_quat, glm_euler_xzy_quat, glm_euler_yxz_quat, glm_euler_yzx_quat, glm_euler_zxy_quat, glm_euler_zyx_quat, glm_euler_xyz_quat_lh, glm_euler_xzy_quat_lh, glm_euler_yxz_quat_lh, glm_euler_yzx_quat_lh, glm_euler_zxy_quat_lh, glm_euler_zyx_quat_lh]
theorem partQuat2_ok : partQuat2.all Entry.ok = true := by
  simp only [partQuat2, List.all_cons, List.all_nil, glm_euler_yxz_quat_rh_ok, glm_euler_yzx_quat_rh_ok, glm_euler_zxy_quat_rh_ok, glm_euler_zyx_quat_rh_ok, glm_euler_angles_ok, glm_euler_xyz_ok, glm_euler_ok, glm_euler_xzy_ok, glm_euler_yxz_ok, glm_euler_yzx_ok, glm_euler_zxy_ok, glm_euler_zyx_ok, glm_euler_by_order_ok, glm_euler_xyz_quat_ok, glm_euler_xzy_quat_ok, glm_euler_yxz_quat_ok, glm_euler_yzx_quat_ok, glm_euler_zxy_quat_ok, glm_euler_zyx_quat_ok, glm_euler_xyz_quat_lh_ok, glm_euler_xzy_quat_lh_ok, glm_euler_yxz_quat_lh_ok, glm_euler_yzx_quat_lh_ok, glm_euler_zxy_quat_lh_ok, glm_euler_zyx_quat_lh_ok, Bool.and_self]

end Cglm.CMem.Lib
