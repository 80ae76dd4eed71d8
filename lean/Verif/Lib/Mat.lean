/- Generated by tools/safethms.py; do not edit by hand. -/
import Verif.CMemEntry
import Verif.Mem.Mats

/-!
# The functions of the array interface with their arguments

Arrays are counted in floats.  The analysis of `CMemSafe` accepts every function.
-/

namespace Cglm.CMem.Lib

/-! ## include/cglm/mat4.h -/

/-- the parameters of `glm_mat4_ucopy`: include/cglm/mat4.h:107-119 -/
def glm_mat4_ucopy : Entry := ⟨C.glm_mat4_ucopy, [.inp 16, .out 16], .void⟩
theorem glm_mat4_ucopy_ok : glm_mat4_ucopy.ok = true := by kernel_rfl
/-- the parameters of `glm_mat4_copy`: include/cglm/mat4.h:127-151 -/
def glm_mat4_copy : Entry := ⟨C.glm_mat4_copy, [.inp 16, .out 16], .void⟩
theorem glm_mat4_copy_ok : glm_mat4_copy.ok = true := by kernel_rfl
/-- the parameters of `glm_mat4_identity`: include/cglm/mat4.h:167-172 -/
def glm_mat4_identity : Entry := ⟨C.glm_mat4_identity, [.out 16], .void⟩
theorem glm_mat4_identity_ok : glm_mat4_identity.ok = true := by kernel_rfl
/-- the parameters of `glm_mat4_zero`: include/cglm/mat4.h:198-231 -/
def glm_mat4_zero : Entry := ⟨C.glm_mat4_zero, [.out 16], .void⟩
theorem glm_mat4_zero_ok : glm_mat4_zero.ok = true := by kernel_rfl
/-- the parameters of `glm_mat4_pick3`: include/cglm/mat4.h:239-253 -/
def glm_mat4_pick3 : Entry := ⟨C.glm_mat4_pick3, [.inp 16, .out 9], .void⟩
theorem glm_mat4_pick3_ok : glm_mat4_pick3.ok = true := by kernel_rfl
/-- the parameters of `glm_mat4_pick3t`: include/cglm/mat4.h:263-277 -/
def glm_mat4_pick3t : Entry := ⟨C.glm_mat4_pick3t, [.inp 16, .out 9], .void⟩
theorem glm_mat4_pick3t_ok : glm_mat4_pick3t.ok = true := by kernel_rfl
/-- the parameters of `glm_mat4_ins3`: include/cglm/mat4.h:285-299 -/
def glm_mat4_ins3 : Entry := ⟨C.glm_mat4_ins3, [.inp 9, .io 16], .void⟩
theorem glm_mat4_ins3_ok : glm_mat4_ins3.ok = true := by kernel_rfl
/-- the parameters of `glm_mat4_mul`: include/cglm/mat4.h:315-354 -/
def glm_mat4_mul : Entry := ⟨C.glm_mat4_mul, [.inp 16, .inp 16, .out 16], .void⟩
theorem glm_mat4_mul_ok : glm_mat4_mul.ok = true := by kernel_rfl
/-- the parameters of `glm_mat4_mulv`: include/cglm/mat4.h:397-414 -/
def glm_mat4_mulv : Entry := ⟨C.glm_mat4_mulv, [.inp 16, .inp 4, .out 4], .void⟩
theorem glm_mat4_mulv_ok : glm_mat4_mulv.ok = true := by kernel_rfl
/-- the parameters of `glm_mat4_trace`: include/cglm/mat4.h:423-427 -/
def glm_mat4_trace : Entry := ⟨C.glm_mat4_trace, [.inp 16], .float⟩
theorem glm_mat4_trace_ok : glm_mat4_trace.ok = true := by kernel_rfl
/-- the parameters of `glm_mat4_trace3`: include/cglm/mat4.h:436-440 -/
def glm_mat4_trace3 : Entry := ⟨C.glm_mat4_trace3, [.inp 16], .float⟩
theorem glm_mat4_trace3_ok : glm_mat4_trace3.ok = true := by kernel_rfl
/-- the parameters of `glm_mat4_quat`: include/cglm/mat4.h:448-489 -/
def glm_mat4_quat : Entry := ⟨C.glm_mat4_quat, [.inp 16, .out 4], .void⟩
theorem glm_mat4_quat_ok : glm_mat4_quat.ok = true := by kernel_rfl
/-- the parameters of `glm_mat4_mulv3`: include/cglm/mat4.h:502-509 -/
def glm_mat4_mulv3 : Entry := ⟨C.glm_mat4_mulv3, [.inp 16, .inp 3, .f, .out 3], .void⟩
theorem glm_mat4_mulv3_ok : glm_mat4_mulv3.ok = true := by kernel_rfl
/-- the parameters of `glm_mat4_transpose_to`: include/cglm/mat4.h:519-540 -/
def glm_mat4_transpose_to : Entry := ⟨C.glm_mat4_transpose_to, [.inp 16, .out 16], .void⟩
theorem glm_mat4_transpose_to_ok : glm_mat4_transpose_to.ok = true := by kernel_rfl
/-- the parameters of `glm_mat4_transpose`: include/cglm/mat4.h:547-563 -/
def glm_mat4_transpose : Entry := ⟨C.glm_mat4_transpose, [.io 16], .void⟩
theorem glm_mat4_transpose_ok : glm_mat4_transpose.ok = true := by kernel_rfl
/-- the parameters of `glm_mat4_scale_p`: include/cglm/mat4.h:573-580 -/
def glm_mat4_scale_p : Entry := ⟨C.glm_mat4_scale_p, [.io 16, .f], .void⟩
theorem glm_mat4_scale_p_ok : glm_mat4_scale_p.ok = true := by kernel_rfl
/-- the parameters of `glm_mat4_scale`: include/cglm/mat4.h:590-604 -/
def glm_mat4_scale : Entry := ⟨C.glm_mat4_scale, [.io 16, .f], .void⟩
theorem glm_mat4_scale_ok : glm_mat4_scale.ok = true := by kernel_rfl
/-- the parameters of `glm_mat4_det`: include/cglm/mat4.h:613-642 -/
def glm_mat4_det : Entry := ⟨C.glm_mat4_det, [.inp 16], .float⟩
theorem glm_mat4_det_ok : glm_mat4_det.ok = true := by kernel_rfl
/-- the parameters of `glm_mat4_inv`: include/cglm/mat4.h:650-692 -/
def glm_mat4_inv : Entry := ⟨C.glm_mat4_inv, [.inp 16, .out 16], .void⟩
theorem glm_mat4_inv_ok : glm_mat4_inv.ok = true := by kernel_rfl
/-- the parameters of `glm_mat4_inv_fast`: include/cglm/mat4.h:706-716 -/
def glm_mat4_inv_fast : Entry := ⟨C.glm_mat4_inv_fast, [.inp 16, .out 16], .void⟩
theorem glm_mat4_inv_fast_ok : glm_mat4_inv_fast.ok = true := by kernel_rfl
/-- the parameters of `glm_mat4_rmc`: include/cglm/mat4.h:775-781 -/
def glm_mat4_rmc : Entry := ⟨C.glm_mat4_rmc, [.inp 4, .inp 16, .inp 4], .float⟩
theorem glm_mat4_rmc_ok : glm_mat4_rmc.ok = true := by kernel_rfl
/-- the parameters of `glm_mat4_make`: include/cglm/mat4.h:789-801 -/
def glm_mat4_make : Entry := ⟨C.glm_mat4_make, [.inp 16, .out 16], .void⟩
theorem glm_mat4_make_ok : glm_mat4_make.ok = true := by kernel_rfl
/-- the parameters of `glm_mat4_textrans`: include/cglm/mat4.h:813-829 -/
def glm_mat4_textrans : Entry := ⟨C.glm_mat4_textrans, [.f, .f, .f, .f, .f, .out 16], .void⟩
theorem glm_mat4_textrans_ok : glm_mat4_textrans.ok = true := by kernel_rfl

/-! ## include/cglm/mat4x2.h -/

/-- the parameters of `glm_mat4x2_copy`: include/cglm/mat4x2.h:39-46 -/
def glm_mat4x2_copy : Entry := ⟨C.glm_mat4x2_copy, [.inp 8, .out 8], .void⟩
theorem glm_mat4x2_copy_ok : glm_mat4x2_copy.ok = true := by kernel_rfl
/-- the parameters of `glm_mat4x2_zero`: include/cglm/mat4x2.h:53-58 -/
def glm_mat4x2_zero : Entry := ⟨C.glm_mat4x2_zero, [.out 8], .void⟩
theorem glm_mat4x2_zero_ok : glm_mat4x2_zero.ok = true := by kernel_rfl
/-- the parameters of `glm_mat4x2_make`: include/cglm/mat4x2.h:66-80 -/
def glm_mat4x2_make : Entry := ⟨C.glm_mat4x2_make, [.inp 8, .out 8], .void⟩
theorem glm_mat4x2_make_ok : glm_mat4x2_make.ok = true := by kernel_rfl
/-- the parameters of `glm_mat4x2_mul`: include/cglm/mat4x2.h:93-109 -/
def glm_mat4x2_mul : Entry := ⟨C.glm_mat4x2_mul, [.inp 8, .inp 8, .out 4], .void⟩
theorem glm_mat4x2_mul_ok : glm_mat4x2_mul.ok = true := by kernel_rfl
/-- the parameters of `glm_mat4x2_mulv`: include/cglm/mat4x2.h:118-125 -/
def glm_mat4x2_mulv : Entry := ⟨C.glm_mat4x2_mulv, [.inp 8, .inp 4, .out 2], .void⟩
theorem glm_mat4x2_mulv_ok : glm_mat4x2_mulv.ok = true := by kernel_rfl
/-- the parameters of `glm_mat4x2_transpose`: include/cglm/mat4x2.h:133-138 -/
def glm_mat4x2_transpose : Entry := ⟨C.glm_mat4x2_transpose, [.inp 8, .out 8], .void⟩
theorem glm_mat4x2_transpose_ok : glm_mat4x2_transpose.ok = true := by kernel_rfl
/-- the parameters of `glm_mat4x2_scale`: include/cglm/mat4x2.h:146-151 -/
def glm_mat4x2_scale : Entry := ⟨C.glm_mat4x2_scale, [.io 8, .f], .void⟩
theorem glm_mat4x2_scale_ok : glm_mat4x2_scale.ok = true := by kernel_rfl

/-! ## include/cglm/mat4x3.h -/

/-- the parameters of `glm_mat4x3_copy`: include/cglm/mat4x3.h:40-47 -/
def glm_mat4x3_copy : Entry := ⟨C.glm_mat4x3_copy, [.inp 12, .out 12], .void⟩
theorem glm_mat4x3_copy_ok : glm_mat4x3_copy.ok = true := by kernel_rfl
/-- the parameters of `glm_mat4x3_zero`: include/cglm/mat4x3.h:54-59 -/
def glm_mat4x3_zero : Entry := ⟨C.glm_mat4x3_zero, [.out 12], .void⟩
theorem glm_mat4x3_zero_ok : glm_mat4x3_zero.ok = true := by kernel_rfl
/-- the parameters of `glm_mat4x3_make`: include/cglm/mat4x3.h:67-85 -/
def glm_mat4x3_make : Entry := ⟨C.glm_mat4x3_make, [.inp 12, .out 12], .void⟩
theorem glm_mat4x3_make_ok : glm_mat4x3_make.ok = true := by kernel_rfl
/-- the parameters of `glm_mat4x3_mul`: include/cglm/mat4x3.h:98-121 -/
def glm_mat4x3_mul : Entry := ⟨C.glm_mat4x3_mul, [.inp 12, .inp 12, .out 9], .void⟩
theorem glm_mat4x3_mul_ok : glm_mat4x3_mul.ok = true := by kernel_rfl
/-- the parameters of `glm_mat4x3_mulv`: include/cglm/mat4x3.h:130-138 -/
def glm_mat4x3_mulv : Entry := ⟨C.glm_mat4x3_mulv, [.inp 12, .inp 4, .out 3], .void⟩
theorem glm_mat4x3_mulv_ok : glm_mat4x3_mulv.ok = true := by kernel_rfl
/-- the parameters of `glm_mat4x3_transpose`: include/cglm/mat4x3.h:146-152 -/
def glm_mat4x3_transpose : Entry := ⟨C.glm_mat4x3_transpose, [.inp 12, .out 12], .void⟩
theorem glm_mat4x3_transpose_ok : glm_mat4x3_transpose.ok = true := by kernel_rfl
/-- the parameters of `glm_mat4x3_scale`: include/cglm/mat4x3.h:160-166 -/
def glm_mat4x3_scale : Entry := ⟨C.glm_mat4x3_scale, [.io 12, .f], .void⟩
theorem glm_mat4x3_scale_ok : glm_mat4x3_scale.ok = true := by kernel_rfl

/-! ## include/cglm/mat3.h -/

/-- the parameters of `glm_mat3_copy`: include/cglm/mat3.h:72-86 -/
def glm_mat3_copy : Entry := ⟨C.glm_mat3_copy, [.inp 9, .out 9], .void⟩
theorem glm_mat3_copy_ok : glm_mat3_copy.ok = true := by kernel_rfl
/-- the parameters of `glm_mat3_identity`: include/cglm/mat3.h:102-107 -/
def glm_mat3_identity : Entry := ⟨C.glm_mat3_identity, [.out 9], .void⟩
theorem glm_mat3_identity_ok : glm_mat3_identity.ok = true := by kernel_rfl
/-- the parameters of `glm_mat3_zero`: include/cglm/mat3.h:133-138 -/
def glm_mat3_zero : Entry := ⟨C.glm_mat3_zero, [.out 9], .void⟩
theorem glm_mat3_zero_ok : glm_mat3_zero.ok = true := by kernel_rfl
/-- the parameters of `glm_mat3_mul`: include/cglm/mat3.h:154-180 -/
def glm_mat3_mul : Entry := ⟨C.glm_mat3_mul, [.inp 9, .inp 9, .out 9], .void⟩
theorem glm_mat3_mul_ok : glm_mat3_mul.ok = true := by kernel_rfl
/-- the parameters of `glm_mat3_transpose_to`: include/cglm/mat3.h:190-202 -/
def glm_mat3_transpose_to : Entry := ⟨C.glm_mat3_transpose_to, [.inp 9, .out 9], .void⟩
theorem glm_mat3_transpose_to_ok : glm_mat3_transpose_to.ok = true := by kernel_rfl
/-- the parameters of `glm_mat3_transpose`: include/cglm/mat3.h:209-227 -/
def glm_mat3_transpose : Entry := ⟨C.glm_mat3_transpose, [.io 9], .void⟩
theorem glm_mat3_transpose_ok : glm_mat3_transpose.ok = true := by kernel_rfl
/-- the parameters of `glm_mat3_mulv`: include/cglm/mat3.h:236-244 -/
def glm_mat3_mulv : Entry := ⟨C.glm_mat3_mulv, [.inp 9, .inp 3, .out 3], .void⟩
theorem glm_mat3_mulv_ok : glm_mat3_mulv.ok = true := by kernel_rfl
/-- the parameters of `glm_mat3_trace`: include/cglm/mat3.h:253-257 -/
def glm_mat3_trace : Entry := ⟨C.glm_mat3_trace, [.inp 9], .float⟩
theorem glm_mat3_trace_ok : glm_mat3_trace.ok = true := by kernel_rfl
/-- the parameters of `glm_mat3_quat`: include/cglm/mat3.h:265-306 -/
def glm_mat3_quat : Entry := ⟨C.glm_mat3_quat, [.inp 9, .out 4], .void⟩
theorem glm_mat3_quat_ok : glm_mat3_quat.ok = true := by kernel_rfl
/-- the parameters of `glm_mat3_scale`: include/cglm/mat3.h:316-322 -/
def glm_mat3_scale : Entry := ⟨C.glm_mat3_scale, [.io 9, .f], .void⟩
theorem glm_mat3_scale_ok : glm_mat3_scale.ok = true := by kernel_rfl
/-- the parameters of `glm_mat3_det`: include/cglm/mat3.h:331-339 -/
def glm_mat3_det : Entry := ⟨C.glm_mat3_det, [.inp 9], .float⟩
theorem glm_mat3_det_ok : glm_mat3_det.ok = true := by kernel_rfl
/-- the parameters of `glm_mat3_inv`: include/cglm/mat3.h:347-366 -/
def glm_mat3_inv : Entry := ⟨C.glm_mat3_inv, [.inp 9, .out 9], .void⟩
theorem glm_mat3_inv_ok : glm_mat3_inv.ok = true := by kernel_rfl
/-- the parameters of `glm_mat3_rmc`: include/cglm/mat3.h:422-428 -/
def glm_mat3_rmc : Entry := ⟨C.glm_mat3_rmc, [.inp 3, .inp 9, .inp 3], .float⟩
theorem glm_mat3_rmc_ok : glm_mat3_rmc.ok = true := by kernel_rfl
/-- the parameters of `glm_mat3_make`: include/cglm/mat3.h:436-450 -/
def glm_mat3_make : Entry := ⟨C.glm_mat3_make, [.inp 9, .out 9], .void⟩
theorem glm_mat3_make_ok : glm_mat3_make.ok = true := by kernel_rfl
/-- the parameters of `glm_mat3_textrans`: include/cglm/mat3.h:462-478 -/
def glm_mat3_textrans : Entry := ⟨C.glm_mat3_textrans, [.f, .f, .f, .f, .f, .out 9], .void⟩
theorem glm_mat3_textrans_ok : glm_mat3_textrans.ok = true := by kernel_rfl

/-! ## include/cglm/mat3x2.h -/

/-- the parameters of `glm_mat3x2_copy`: include/cglm/mat3x2.h:39-45 -/
def glm_mat3x2_copy : Entry := ⟨C.glm_mat3x2_copy, [.inp 6, .out 6], .void⟩
theorem glm_mat3x2_copy_ok : glm_mat3x2_copy.ok = true := by kernel_rfl
/-- the parameters of `glm_mat3x2_zero`: include/cglm/mat3x2.h:52-57 -/
def glm_mat3x2_zero : Entry := ⟨C.glm_mat3x2_zero, [.out 6], .void⟩
theorem glm_mat3x2_zero_ok : glm_mat3x2_zero.ok = true := by kernel_rfl
/-- the parameters of `glm_mat3x2_make`: include/cglm/mat3x2.h:65-76 -/
def glm_mat3x2_make : Entry := ⟨C.glm_mat3x2_make, [.inp 6, .out 6], .void⟩
theorem glm_mat3x2_make_ok : glm_mat3x2_make.ok = true := by kernel_rfl
/-- the parameters of `glm_mat3x2_mul`: include/cglm/mat3x2.h:89-104 -/
def glm_mat3x2_mul : Entry := ⟨C.glm_mat3x2_mul, [.inp 6, .inp 6, .out 4], .void⟩
theorem glm_mat3x2_mul_ok : glm_mat3x2_mul.ok = true := by kernel_rfl
/-- the parameters of `glm_mat3x2_mulv`: include/cglm/mat3x2.h:113-120 -/
def glm_mat3x2_mulv : Entry := ⟨C.glm_mat3x2_mulv, [.inp 6, .inp 3, .out 2], .void⟩
theorem glm_mat3x2_mulv_ok : glm_mat3x2_mulv.ok = true := by kernel_rfl
/-- the parameters of `glm_mat3x2_transpose`: include/cglm/mat3x2.h:128-133 -/
def glm_mat3x2_transpose : Entry := ⟨C.glm_mat3x2_transpose, [.inp 6, .out 6], .void⟩
theorem glm_mat3x2_transpose_ok : glm_mat3x2_transpose.ok = true := by kernel_rfl
/-- the parameters of `glm_mat3x2_scale`: include/cglm/mat3x2.h:141-146 -/
def glm_mat3x2_scale : Entry := ⟨C.glm_mat3x2_scale, [.io 6, .f], .void⟩
theorem glm_mat3x2_scale_ok : glm_mat3x2_scale.ok = true := by kernel_rfl

/-! ## include/cglm/mat3x4.h -/

/-- the parameters of `glm_mat3x4_copy`: include/cglm/mat3x4.h:41-47 -/
def glm_mat3x4_copy : Entry := ⟨C.glm_mat3x4_copy, [.inp 12, .out 12], .void⟩
theorem glm_mat3x4_copy_ok : glm_mat3x4_copy.ok = true := by kernel_rfl
/-- the parameters of `glm_mat3x4_zero`: include/cglm/mat3x4.h:54-59 -/
def glm_mat3x4_zero : Entry := ⟨C.glm_mat3x4_zero, [.out 12], .void⟩
theorem glm_mat3x4_zero_ok : glm_mat3x4_zero.ok = true := by kernel_rfl
/-- the parameters of `glm_mat3x4_make`: include/cglm/mat3x4.h:67-84 -/
def glm_mat3x4_make : Entry := ⟨C.glm_mat3x4_make, [.inp 12, .out 12], .void⟩
theorem glm_mat3x4_make_ok : glm_mat3x4_make.ok = true := by kernel_rfl
/-- the parameters of `glm_mat3x4_mul`: include/cglm/mat3x4.h:97-128 -/
def glm_mat3x4_mul : Entry := ⟨C.glm_mat3x4_mul, [.inp 12, .inp 12, .out 16], .void⟩
theorem glm_mat3x4_mul_ok : glm_mat3x4_mul.ok = true := by kernel_rfl
/-- the parameters of `glm_mat3x4_mulv`: include/cglm/mat3x4.h:137-146 -/
def glm_mat3x4_mulv : Entry := ⟨C.glm_mat3x4_mulv, [.inp 12, .inp 3, .out 4], .void⟩
theorem glm_mat3x4_mulv_ok : glm_mat3x4_mulv.ok = true := by kernel_rfl
/-- the parameters of `glm_mat3x4_transpose`: include/cglm/mat3x4.h:154-161 -/
def glm_mat3x4_transpose : Entry := ⟨C.glm_mat3x4_transpose, [.inp 12, .out 12], .void⟩
theorem glm_mat3x4_transpose_ok : glm_mat3x4_transpose.ok = true := by kernel_rfl
/-- the parameters of `glm_mat3x4_scale`: include/cglm/mat3x4.h:169-175 -/
def glm_mat3x4_scale : Entry := ⟨C.glm_mat3x4_scale, [.io 12, .f], .void⟩
theorem glm_mat3x4_scale_ok : glm_mat3x4_scale.ok = true := by kernel_rfl

/-! ## include/cglm/mat2.h -/

/-- the parameters of `glm_mat2_make`: include/cglm/mat2.h:65-72 -/
def glm_mat2_make : Entry := ⟨C.glm_mat2_make, [.inp 4, .out 4], .void⟩
theorem glm_mat2_make_ok : glm_mat2_make.ok = true := by kernel_rfl
/-- the parameters of `glm_mat2_copy`: include/cglm/mat2.h:80-84 -/
def glm_mat2_copy : Entry := ⟨C.glm_mat2_copy, [.inp 4, .out 4], .void⟩
theorem glm_mat2_copy_ok : glm_mat2_copy.ok = true := by kernel_rfl
/-- the parameters of `glm_mat2_identity`: include/cglm/mat2.h:102-107 -/
def glm_mat2_identity : Entry := ⟨C.glm_mat2_identity, [.out 4], .void⟩
theorem glm_mat2_identity_ok : glm_mat2_identity.ok = true := by kernel_rfl
/-- the parameters of `glm_mat2_zero`: include/cglm/mat2.h:131-136 -/
def glm_mat2_zero : Entry := ⟨C.glm_mat2_zero, [.out 4], .void⟩
theorem glm_mat2_zero_ok : glm_mat2_zero.ok = true := by kernel_rfl
/-- the parameters of `glm_mat2_mul`: include/cglm/mat2.h:152-172 -/
def glm_mat2_mul : Entry := ⟨C.glm_mat2_mul, [.inp 4, .inp 4, .out 4], .void⟩
theorem glm_mat2_mul_ok : glm_mat2_mul.ok = true := by kernel_rfl
/-- the parameters of `glm_mat2_mulv`: include/cglm/mat2.h:181-186 -/
def glm_mat2_mulv : Entry := ⟨C.glm_mat2_mulv, [.inp 4, .inp 2, .out 2], .void⟩
theorem glm_mat2_mulv_ok : glm_mat2_mulv.ok = true := by kernel_rfl
/-- the parameters of `glm_mat2_transpose_to`: include/cglm/mat2.h:194-207 -/
def glm_mat2_transpose_to : Entry := ⟨C.glm_mat2_transpose_to, [.inp 4, .out 4], .void⟩
theorem glm_mat2_transpose_to_ok : glm_mat2_transpose_to.ok = true := by kernel_rfl
/-- the parameters of `glm_mat2_transpose`: include/cglm/mat2.h:214-221 -/
def glm_mat2_transpose : Entry := ⟨C.glm_mat2_transpose, [.io 4], .void⟩
theorem glm_mat2_transpose_ok : glm_mat2_transpose.ok = true := by kernel_rfl
/-- the parameters of `glm_mat2_scale`: include/cglm/mat2.h:229-245 -/
def glm_mat2_scale : Entry := ⟨C.glm_mat2_scale, [.io 4, .f], .void⟩
theorem glm_mat2_scale_ok : glm_mat2_scale.ok = true := by kernel_rfl
/-- the parameters of `glm_mat2_inv`: include/cglm/mat2.h:253-266 -/
def glm_mat2_inv : Entry := ⟨C.glm_mat2_inv, [.inp 4, .out 4], .void⟩
theorem glm_mat2_inv_ok : glm_mat2_inv.ok = true := by kernel_rfl
/-- the parameters of `glm_mat2_det`: include/cglm/mat2.h:319-323 -/
def glm_mat2_det : Entry := ⟨C.glm_mat2_det, [.inp 4], .float⟩
theorem glm_mat2_det_ok : glm_mat2_det.ok = true := by kernel_rfl
/-- the parameters of `glm_mat2_trace`: include/cglm/mat2.h:335-339 -/
def glm_mat2_trace : Entry := ⟨C.glm_mat2_trace, [.inp 4], .float⟩
theorem glm_mat2_trace_ok : glm_mat2_trace.ok = true := by kernel_rfl
/-- the parameters of `glm_mat2_rmc`: include/cglm/mat2.h:355-361 -/
def glm_mat2_rmc : Entry := ⟨C.glm_mat2_rmc, [.inp 2, .inp 4, .inp 2], .float⟩
theorem glm_mat2_rmc_ok : glm_mat2_rmc.ok = true := by kernel_rfl

/-! ## include/cglm/mat2x3.h -/

/-- the parameters of `glm_mat2x3_copy`: include/cglm/mat2x3.h:39-44 -/
def glm_mat2x3_copy : Entry := ⟨C.glm_mat2x3_copy, [.inp 6, .out 6], .void⟩
theorem glm_mat2x3_copy_ok : glm_mat2x3_copy.ok = true := by kernel_rfl
/-- the parameters of `glm_mat2x3_zero`: include/cglm/mat2x3.h:51-56 -/
def glm_mat2x3_zero : Entry := ⟨C.glm_mat2x3_zero, [.out 6], .void⟩
theorem glm_mat2x3_zero_ok : glm_mat2x3_zero.ok = true := by kernel_rfl
/-- the parameters of `glm_mat2x3_make`: include/cglm/mat2x3.h:64-74 -/
def glm_mat2x3_make : Entry := ⟨C.glm_mat2x3_make, [.inp 6, .out 6], .void⟩
theorem glm_mat2x3_make_ok : glm_mat2x3_make.ok = true := by kernel_rfl
/-- the parameters of `glm_mat2x3_mul`: include/cglm/mat2x3.h:87-108 -/
def glm_mat2x3_mul : Entry := ⟨C.glm_mat2x3_mul, [.inp 6, .inp 6, .out 9], .void⟩
theorem glm_mat2x3_mul_ok : glm_mat2x3_mul.ok = true := by kernel_rfl
/-- the parameters of `glm_mat2x3_mulv`: include/cglm/mat2x3.h:117-125 -/
def glm_mat2x3_mulv : Entry := ⟨C.glm_mat2x3_mulv, [.inp 6, .inp 2, .out 3], .void⟩
theorem glm_mat2x3_mulv_ok : glm_mat2x3_mulv.ok = true := by kernel_rfl
/-- the parameters of `glm_mat2x3_transpose`: include/cglm/mat2x3.h:133-139 -/
def glm_mat2x3_transpose : Entry := ⟨C.glm_mat2x3_transpose, [.inp 6, .out 6], .void⟩
theorem glm_mat2x3_transpose_ok : glm_mat2x3_transpose.ok = true := by kernel_rfl
/-- the parameters of `glm_mat2x3_scale`: include/cglm/mat2x3.h:147-152 -/
def glm_mat2x3_scale : Entry := ⟨C.glm_mat2x3_scale, [.io 6, .f], .void⟩
theorem glm_mat2x3_scale_ok : glm_mat2x3_scale.ok = true := by kernel_rfl

/-! ## include/cglm/mat2x4.h -/

/-- the parameters of `glm_mat2x4_copy`: include/cglm/mat2x4.h:40-45 -/
def glm_mat2x4_copy : Entry := ⟨C.glm_mat2x4_copy, [.inp 8, .out 8], .void⟩
theorem glm_mat2x4_copy_ok : glm_mat2x4_copy.ok = true := by kernel_rfl
/-- the parameters of `glm_mat2x4_zero`: include/cglm/mat2x4.h:52-57 -/
def glm_mat2x4_zero : Entry := ⟨C.glm_mat2x4_zero, [.out 8], .void⟩
theorem glm_mat2x4_zero_ok : glm_mat2x4_zero.ok = true := by kernel_rfl
/-- the parameters of `glm_mat2x4_make`: include/cglm/mat2x4.h:65-77 -/
def glm_mat2x4_make : Entry := ⟨C.glm_mat2x4_make, [.inp 8, .out 8], .void⟩
theorem glm_mat2x4_make_ok : glm_mat2x4_make.ok = true := by kernel_rfl
/-- the parameters of `glm_mat2x4_mul`: include/cglm/mat2x4.h:90-120 -/
def glm_mat2x4_mul : Entry := ⟨C.glm_mat2x4_mul, [.inp 8, .inp 8, .out 16], .void⟩
theorem glm_mat2x4_mul_ok : glm_mat2x4_mul.ok = true := by kernel_rfl
/-- the parameters of `glm_mat2x4_mulv`: include/cglm/mat2x4.h:129-138 -/
def glm_mat2x4_mulv : Entry := ⟨C.glm_mat2x4_mulv, [.inp 8, .inp 2, .out 4], .void⟩
theorem glm_mat2x4_mulv_ok : glm_mat2x4_mulv.ok = true := by kernel_rfl
/-- the parameters of `glm_mat2x4_transpose`: include/cglm/mat2x4.h:146-153 -/
def glm_mat2x4_transpose : Entry := ⟨C.glm_mat2x4_transpose, [.inp 8, .out 8], .void⟩
theorem glm_mat2x4_transpose_ok : glm_mat2x4_transpose.ok = true := by kernel_rfl
/-- the parameters of `glm_mat2x4_scale`: include/cglm/mat2x4.h:161-166 -/
def glm_mat2x4_scale : Entry := ⟨C.glm_mat2x4_scale, [.io 8, .f], .void⟩
theorem glm_mat2x4_scale_ok : glm_mat2x4_scale.ok = true := by kernel_rfl

def partMat1 : List Entry := [glm_mat4_ucopy, glm_mat4_copy, glm_mat4_identity, glm_mat4_zero, glm_mat4_pick3, glm_mat4_pick3t, glm_mat4_ins3, glm_mat4_mul, glm_mat4_mulv, glm_mat4_trace, glm_mat4_trace3, glm_mat4_quat, glm_mat4_mulv3, glm_mat4_transpose_to, glm_mat4_transpose, glm_mat4_scale_p, glm_mat4_scale, glm_mat4_det, glm_mat4_inv, glm_mat4_inv_fast, glm_mat4_rmc, glm_mat4_make, glm_mat4_textrans, glm_mat4x2_copy, glm_mat4x2_zero, glm_mat4x2_make, glm_mat4x2_mul, glm_mat4x2_mulv, glm_mat4x2_transpose, glm_mat4x2_scale, glm_mat4x3_copy, glm_mat4x3_zero, glm_mat4x3_make, glm_mat4x3_mul, glm_mat4x3_mulv, glm_mat4x3_transpose, glm_mat4x3_scale, glm_mat3_copy, glm_mat3_identity, glm_mat3_zero]
theorem partMat1_ok : partMat1.all Entry.ok = true := by
  simp only [partMat1, List.all_cons, List.all_nil, glm_mat4_ucopy_ok, glm_mat4_copy_ok, glm_mat4_identity_ok, glm_mat4_zero_ok, glm_mat4_pick3_ok, glm_mat4_pick3t_ok, glm_mat4_ins3_ok, glm_mat4_mul_ok, glm_mat4_mulv_ok, glm_mat4_trace_ok, glm_mat4_trace3_ok, glm_mat4_quat_ok, glm_mat4_mulv3_ok, glm_mat4_transpose_to_ok, glm_mat4_transpose_ok, glm_mat4_scale_p_ok, glm_mat4_scale_ok, glm_mat4_det_ok, glm_mat4_inv_ok, glm_mat4_inv_fast_ok, glm_mat4_rmc_ok, glm_mat4_make_ok, glm_mat4_textrans_ok, glm_mat4x2_copy_ok, glm_mat4x2_zero_ok, glm_mat4x2_make_ok, glm_mat4x2_mul_ok, glm_mat4x2_mulv_ok, glm_mat4x2_transpose_ok, glm_mat4x2_scale_ok, glm_mat4x3_copy_ok, glm_mat4x3_zero_ok, glm_mat4x3_make_ok, glm_mat4x3_mul_ok, glm_mat4x3_mulv_ok, glm_mat4x3_transpose_ok, glm_mat4x3_scale_ok, glm_mat3_copy_ok, glm_mat3_identity_ok, glm_mat3_zero_ok, Bool.and_self]
def partMat2 : List Entry := [glm_mat3_mul, glm_mat3_transpose_to, glm_mat3_transpose, glm_mat3_mulv, glm_mat3_trace, glm_mat3_quat, glm_mat3_scale, glm_mat3_det, glm_mat3_inv, glm_mat3_rmc, glm_mat3_make, glm_mat3_textrans, glm_mat3x2_copy, glm_mat3x2_zero, glm_mat3x2_make, glm_mat3x2_mul, glm_mat3x2_mulv, glm_mat3x2_transpose, glm_mat3x2_scale, glm_mat3x4_copy, glm_mat3x4_zero, glm_mat3x4_make, glm_mat3x4_mul, glm_mat3x4_mulv, glm_mat3x4_transpose, glm_mat3x4_scale, glm_mat2_make, glm_mat2_copy, glm_mat2_identity, glm_mat2_zero, glm_mat2_mul, glm_mat2_mulv, glm_mat2_transpose_to, glm_mat2_transpose, glm_mat2_scale, glm_mat2_inv, glm_mat2_det, glm_mat2_trace, glm_mat2_rmc, glm_mat2x3_copy]
theorem partMat2_ok : partMat2.all Entry.ok = true := by
  simp only [partMat2, List.all_cons, List.all_nil, glm_mat3_mul_ok, glm_mat3_transpose_to_ok, glm_mat3_transpose_ok, glm_mat3_mulv_ok, glm_mat3_trace_ok, glm_mat3_quat_ok, glm_mat3_scale_ok, glm_mat3_det_ok, glm_mat3_inv_ok, glm_mat3_rmc_ok, glm_mat3_make_ok, glm_mat3_textrans_ok, glm_mat3x2_copy_ok, glm_mat3x2_zero_ok, glm_mat3x2_make_ok, glm_mat3x2_mul_ok, glm_mat3x2_mulv_ok, glm_mat3x2_transpose_ok, glm_mat3x2_scale_ok, glm_mat3x4_copy_ok, glm_mat3x4_zero_ok, glm_mat3x4_make_ok, glm_mat3x4_mul_ok, glm_mat3x4_mulv_ok, glm_mat3x4_transpose_ok, glm_mat3x4_scale_ok, glm_mat2_make_ok, glm_mat2_copy_ok, glm_mat2_identity_ok, glm_mat2_zero_ok, glm_mat2_mul_ok, glm_mat2_mulv_ok, glm_mat2_transpose_to_ok, glm_mat2_transpose_ok, glm_mat2_scale_ok, glm_mat2_inv_ok, glm_mat2_det_ok, glm_mat2_trace_ok, glm_mat2_rmc_ok, glm_mat2x3_copy_ok, Bool.and_self]
def partMat3 : List Entry := [glm_mat2x3_zero, glm_mat2x3_make, glm_mat2x3_mul, glm_mat2x3_mulv, glm_mat2x3_transpose, glm_mat2x3_scale, glm_mat2x4_copy, glm_mat2x4_zero, glm_mat2x4_make, glm_mat2x4_mul, glm_mat2x4_mulv, glm_mat2x4_transpose, glm_mat2x4_scale]
theorem partMat3_ok : partMat3.all Entry.ok = true := by
  simp only [partMat3, List.all_cons, List.all_nil, glm_mat2x3_zero_ok, glm_mat2x3_make_ok, glm_mat2x3_mul_ok, glm_mat2x3_mulv_ok, glm_mat2x3_transpose_ok, glm_mat2x3_scale_ok, glm_mat2x4_copy_ok, glm_mat2x4_zero_ok, glm_mat2x4_make_ok, glm_mat2x4_mul_ok, glm_mat2x4_mulv_ok, glm_mat2x4_transpose_ok, glm_mat2x4_scale_ok, Bool.and_self]

end Cglm.CMem.Lib
