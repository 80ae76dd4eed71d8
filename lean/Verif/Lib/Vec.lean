/- Generated by tools/safethms.py; do not edit by hand. -/
import Verif.CMemEntry
import Verif.Mem.Vecs

/-!
# The functions of the array interface with their arguments

Arrays are counted in floats.  The analysis of `CMemSafe` accepts every function.
-/

namespace Cglm.CMem.Lib

/-! ## include/cglm/vec2-ext.h -/

/-- the parameters of `glm_vec2_fill`: include/cglm/vec2-ext.h:46-50 -/
def glm_vec2_fill : Entry := ⟨C.glm_vec2_fill, [.out 2, .f], .void⟩
theorem glm_vec2_fill_ok : glm_vec2_fill.ok = true := by kernel_rfl
/-- the parameters of `glm_vec2_eq`: include/cglm/vec2-ext.h:58-62 -/
def glm_vec2_eq : Entry := ⟨C.glm_vec2_eq, [.inp 2, .f], .bool⟩
theorem glm_vec2_eq_ok : glm_vec2_eq.ok = true := by kernel_rfl
/-- the parameters of `glm_vec2_eq_eps`: include/cglm/vec2-ext.h:70-75 -/
def glm_vec2_eq_eps : Entry := ⟨C.glm_vec2_eq_eps, [.inp 2, .f], .bool⟩
theorem glm_vec2_eq_eps_ok : glm_vec2_eq_eps.ok = true := by kernel_rfl
/-- the parameters of `glm_vec2_eq_all`: include/cglm/vec2-ext.h:82-86 -/
def glm_vec2_eq_all : Entry := ⟨C.glm_vec2_eq_all, [.inp 2], .bool⟩
theorem glm_vec2_eq_all_ok : glm_vec2_eq_all.ok = true := by kernel_rfl
/-- the parameters of `glm_vec2_eqv`: include/cglm/vec2-ext.h:94-98 -/
def glm_vec2_eqv : Entry := ⟨C.glm_vec2_eqv, [.inp 2, .inp 2], .bool⟩
theorem glm_vec2_eqv_ok : glm_vec2_eqv.ok = true := by kernel_rfl
/-- the parameters of `glm_vec2_eqv_eps`: include/cglm/vec2-ext.h:106-111 -/
def glm_vec2_eqv_eps : Entry := ⟨C.glm_vec2_eqv_eps, [.inp 2, .inp 2], .bool⟩
theorem glm_vec2_eqv_eps_ok : glm_vec2_eqv_eps.ok = true := by kernel_rfl
/-- the parameters of `glm_vec2_max`: include/cglm/vec2-ext.h:118-122 -/
def glm_vec2_max : Entry := ⟨C.glm_vec2_max, [.inp 2], .float⟩
theorem glm_vec2_max_ok : glm_vec2_max.ok = true := by kernel_rfl
/-- the parameters of `glm_vec2_min`: include/cglm/vec2-ext.h:129-133 -/
def glm_vec2_min : Entry := ⟨C.glm_vec2_min, [.inp 2], .float⟩
theorem glm_vec2_min_ok : glm_vec2_min.ok = true := by kernel_rfl
/-- the parameters of `glm_vec2_isnan`: include/cglm/vec2-ext.h:141-149 -/
def glm_vec2_isnan : Entry := ⟨C.glm_vec2_isnan, [.inp 2], .bool⟩
theorem glm_vec2_isnan_ok : glm_vec2_isnan.ok = true := by kernel_rfl
/-- the parameters of `glm_vec2_isinf`: include/cglm/vec2-ext.h:157-165 -/
def glm_vec2_isinf : Entry := ⟨C.glm_vec2_isinf, [.inp 2], .bool⟩
theorem glm_vec2_isinf_ok : glm_vec2_isinf.ok = true := by kernel_rfl
/-- the parameters of `glm_vec2_isvalid`: include/cglm/vec2-ext.h:173-177 -/
def glm_vec2_isvalid : Entry := ⟨C.glm_vec2_isvalid, [.inp 2], .bool⟩
theorem glm_vec2_isvalid_ok : glm_vec2_isvalid.ok = true := by kernel_rfl
/-- the parameters of `glm_vec2_sign`: include/cglm/vec2-ext.h:186-191 -/
def glm_vec2_sign : Entry := ⟨C.glm_vec2_sign, [.inp 2, .out 2], .void⟩
theorem glm_vec2_sign_ok : glm_vec2_sign.ok = true := by kernel_rfl
/-- the parameters of `glm_vec2_abs`: include/cglm/vec2-ext.h:199-204 -/
def glm_vec2_abs : Entry := ⟨C.glm_vec2_abs, [.inp 2, .out 2], .void⟩
theorem glm_vec2_abs_ok : glm_vec2_abs.ok = true := by kernel_rfl
/-- the parameters of `glm_vec2_fract`: include/cglm/vec2-ext.h:212-217 -/
def glm_vec2_fract : Entry := ⟨C.glm_vec2_fract, [.inp 2, .out 2], .void⟩
theorem glm_vec2_fract_ok : glm_vec2_fract.ok = true := by kernel_rfl
/-- the parameters of `glm_vec2_floor`: include/cglm/vec2-ext.h:225-230 -/
def glm_vec2_floor : Entry := ⟨C.glm_vec2_floor, [.inp 2, .out 2], .void⟩
theorem glm_vec2_floor_ok : glm_vec2_floor.ok = true := by kernel_rfl
/-- the parameters of `glm_vec2_mods`: include/cglm/vec2-ext.h:239-244 -/
def glm_vec2_mods : Entry := ⟨C.glm_vec2_mods, [.inp 2, .f, .out 2], .void⟩
theorem glm_vec2_mods_ok : glm_vec2_mods.ok = true := by kernel_rfl
/-- the parameters of `glm_vec2_sqrt`: include/cglm/vec2-ext.h:252-257 -/
def glm_vec2_sqrt : Entry := ⟨C.glm_vec2_sqrt, [.inp 2, .out 2], .void⟩
theorem glm_vec2_sqrt_ok : glm_vec2_sqrt.ok = true := by kernel_rfl
/-- the parameters of `glm_vec2_complex_mul`: include/cglm/vec2-ext.h:266-274 -/
def glm_vec2_complex_mul : Entry := ⟨C.glm_vec2_complex_mul, [.inp 2, .inp 2, .out 2], .void⟩
theorem glm_vec2_complex_mul_ok : glm_vec2_complex_mul.ok = true := by kernel_rfl
/-- the parameters of `glm_vec2_steps`: include/cglm/vec2-ext.h:284-289 -/
def glm_vec2_steps : Entry := ⟨C.glm_vec2_steps, [.f, .inp 2, .out 2], .void⟩
theorem glm_vec2_steps_ok : glm_vec2_steps.ok = true := by kernel_rfl
/-- the parameters of `glm_vec2_stepr`: include/cglm/vec2-ext.h:299-304 -/
def glm_vec2_stepr : Entry := ⟨C.glm_vec2_stepr, [.inp 2, .f, .out 2], .void⟩
theorem glm_vec2_stepr_ok : glm_vec2_stepr.ok = true := by kernel_rfl
/-- the parameters of `glm_vec2_complex_div`: include/cglm/vec2-ext.h:313-322 -/
def glm_vec2_complex_div : Entry := ⟨C.glm_vec2_complex_div, [.inp 2, .inp 2, .out 2], .void⟩
theorem glm_vec2_complex_div_ok : glm_vec2_complex_div.ok = true := by kernel_rfl
/-- the parameters of `glm_vec2_complex_conjugate`: include/cglm/vec2-ext.h:330-335 -/
def glm_vec2_complex_conjugate : Entry := ⟨C.glm_vec2_complex_conjugate, [.inp 2, .out 2], .void⟩
theorem glm_vec2_complex_conjugate_ok : glm_vec2_complex_conjugate.ok = true := by kernel_rfl

/-! ## include/cglm/vec2.h -/

/-- the parameters of `glm_vec2`: include/cglm/vec2.h:83-88 -/
def glm_vec2 : Entry := ⟨C.glm_vec2, [.inp 2, .out 2], .void⟩
theorem glm_vec2_ok : glm_vec2.ok = true := by kernel_rfl
/-- the parameters of `glm_vec2_copy`: include/cglm/vec2.h:96-101 -/
def glm_vec2_copy : Entry := ⟨C.glm_vec2_copy, [.inp 2, .out 2], .void⟩
theorem glm_vec2_copy_ok : glm_vec2_copy.ok = true := by kernel_rfl
/-- the parameters of `glm_vec2_zero`: include/cglm/vec2.h:108-112 -/
def glm_vec2_zero : Entry := ⟨C.glm_vec2_zero, [.out 2], .void⟩
theorem glm_vec2_zero_ok : glm_vec2_zero.ok = true := by kernel_rfl
/-- the parameters of `glm_vec2_one`: include/cglm/vec2.h:119-123 -/
def glm_vec2_one : Entry := ⟨C.glm_vec2_one, [.out 2], .void⟩
theorem glm_vec2_one_ok : glm_vec2_one.ok = true := by kernel_rfl
/-- the parameters of `glm_vec2_dot`: include/cglm/vec2.h:133-137 -/
def glm_vec2_dot : Entry := ⟨C.glm_vec2_dot, [.inp 2, .inp 2], .float⟩
theorem glm_vec2_dot_ok : glm_vec2_dot.ok = true := by kernel_rfl
/-- the parameters of `glm_vec2_cross`: include/cglm/vec2.h:149-154 -/
def glm_vec2_cross : Entry := ⟨C.glm_vec2_cross, [.inp 2, .inp 2], .float⟩
theorem glm_vec2_cross_ok : glm_vec2_cross.ok = true := by kernel_rfl
/-- the parameters of `glm_vec2_norm2`: include/cglm/vec2.h:167-171 -/
def glm_vec2_norm2 : Entry := ⟨C.glm_vec2_norm2, [.inp 2], .float⟩
theorem glm_vec2_norm2_ok : glm_vec2_norm2.ok = true := by kernel_rfl
/-- the parameters of `glm_vec2_norm`: include/cglm/vec2.h:180-184 -/
def glm_vec2_norm : Entry := ⟨C.glm_vec2_norm, [.inp 2], .float⟩
theorem glm_vec2_norm_ok : glm_vec2_norm.ok = true := by kernel_rfl
/-- the parameters of `glm_vec2_add`: include/cglm/vec2.h:193-198 -/
def glm_vec2_add : Entry := ⟨C.glm_vec2_add, [.inp 2, .inp 2, .out 2], .void⟩
theorem glm_vec2_add_ok : glm_vec2_add.ok = true := by kernel_rfl
/-- the parameters of `glm_vec2_adds`: include/cglm/vec2.h:207-212 -/
def glm_vec2_adds : Entry := ⟨C.glm_vec2_adds, [.inp 2, .f, .out 2], .void⟩
theorem glm_vec2_adds_ok : glm_vec2_adds.ok = true := by kernel_rfl
/-- the parameters of `glm_vec2_sub`: include/cglm/vec2.h:221-226 -/
def glm_vec2_sub : Entry := ⟨C.glm_vec2_sub, [.inp 2, .inp 2, .out 2], .void⟩
theorem glm_vec2_sub_ok : glm_vec2_sub.ok = true := by kernel_rfl
/-- the parameters of `glm_vec2_subs`: include/cglm/vec2.h:235-240 -/
def glm_vec2_subs : Entry := ⟨C.glm_vec2_subs, [.inp 2, .f, .out 2], .void⟩
theorem glm_vec2_subs_ok : glm_vec2_subs.ok = true := by kernel_rfl
/-- the parameters of `glm_vec2_mul`: include/cglm/vec2.h:249-254 -/
def glm_vec2_mul : Entry := ⟨C.glm_vec2_mul, [.inp 2, .inp 2, .out 2], .void⟩
theorem glm_vec2_mul_ok : glm_vec2_mul.ok = true := by kernel_rfl
/-- the parameters of `glm_vec2_scale`: include/cglm/vec2.h:263-268 -/
def glm_vec2_scale : Entry := ⟨C.glm_vec2_scale, [.inp 2, .f, .out 2], .void⟩
theorem glm_vec2_scale_ok : glm_vec2_scale.ok = true := by kernel_rfl
/-- the parameters of `glm_vec2_scale_as`: include/cglm/vec2.h:277-289 -/
def glm_vec2_scale_as : Entry := ⟨C.glm_vec2_scale_as, [.inp 2, .f, .out 2], .void⟩
theorem glm_vec2_scale_as_ok : glm_vec2_scale_as.ok = true := by kernel_rfl
/-- the parameters of `glm_vec2_div`: include/cglm/vec2.h:298-303 -/
def glm_vec2_div : Entry := ⟨C.glm_vec2_div, [.inp 2, .inp 2, .out 2], .void⟩
theorem glm_vec2_div_ok : glm_vec2_div.ok = true := by kernel_rfl
/-- the parameters of `glm_vec2_divs`: include/cglm/vec2.h:312-317 -/
def glm_vec2_divs : Entry := ⟨C.glm_vec2_divs, [.inp 2, .f, .out 2], .void⟩
theorem glm_vec2_divs_ok : glm_vec2_divs.ok = true := by kernel_rfl
/-- the parameters of `glm_vec2_addadd`: include/cglm/vec2.h:328-333 -/
def glm_vec2_addadd : Entry := ⟨C.glm_vec2_addadd, [.inp 2, .inp 2, .io 2], .void⟩
theorem glm_vec2_addadd_ok : glm_vec2_addadd.ok = true := by kernel_rfl
/-- the parameters of `glm_vec2_subadd`: include/cglm/vec2.h:344-349 -/
def glm_vec2_subadd : Entry := ⟨C.glm_vec2_subadd, [.inp 2, .inp 2, .io 2], .void⟩
theorem glm_vec2_subadd_ok : glm_vec2_subadd.ok = true := by kernel_rfl
/-- the parameters of `glm_vec2_muladd`: include/cglm/vec2.h:360-365 -/
def glm_vec2_muladd : Entry := ⟨C.glm_vec2_muladd, [.inp 2, .inp 2, .io 2], .void⟩
theorem glm_vec2_muladd_ok : glm_vec2_muladd.ok = true := by kernel_rfl
/-- the parameters of `glm_vec2_muladds`: include/cglm/vec2.h:376-381 -/
def glm_vec2_muladds : Entry := ⟨C.glm_vec2_muladds, [.inp 2, .f, .io 2], .void⟩
theorem glm_vec2_muladds_ok : glm_vec2_muladds.ok = true := by kernel_rfl
/-- the parameters of `glm_vec2_maxadd`: include/cglm/vec2.h:392-397 -/
def glm_vec2_maxadd : Entry := ⟨C.glm_vec2_maxadd, [.inp 2, .inp 2, .io 2], .void⟩
theorem glm_vec2_maxadd_ok : glm_vec2_maxadd.ok = true := by kernel_rfl
/-- the parameters of `glm_vec2_minadd`: include/cglm/vec2.h:408-413 -/
def glm_vec2_minadd : Entry := ⟨C.glm_vec2_minadd, [.inp 2, .inp 2, .io 2], .void⟩
theorem glm_vec2_minadd_ok : glm_vec2_minadd.ok = true := by kernel_rfl
/-- the parameters of `glm_vec2_subsub`: include/cglm/vec2.h:424-429 -/
def glm_vec2_subsub : Entry := ⟨C.glm_vec2_subsub, [.inp 2, .inp 2, .io 2], .void⟩
theorem glm_vec2_subsub_ok : glm_vec2_subsub.ok = true := by kernel_rfl
/-- the parameters of `glm_vec2_addsub`: include/cglm/vec2.h:440-445 -/
def glm_vec2_addsub : Entry := ⟨C.glm_vec2_addsub, [.inp 2, .inp 2, .io 2], .void⟩
theorem glm_vec2_addsub_ok : glm_vec2_addsub.ok = true := by kernel_rfl
/-- the parameters of `glm_vec2_mulsub`: include/cglm/vec2.h:456-461 -/
def glm_vec2_mulsub : Entry := ⟨C.glm_vec2_mulsub, [.inp 2, .inp 2, .io 2], .void⟩
theorem glm_vec2_mulsub_ok : glm_vec2_mulsub.ok = true := by kernel_rfl
/-- the parameters of `glm_vec2_mulsubs`: include/cglm/vec2.h:472-477 -/
def glm_vec2_mulsubs : Entry := ⟨C.glm_vec2_mulsubs, [.inp 2, .f, .io 2], .void⟩
theorem glm_vec2_mulsubs_ok : glm_vec2_mulsubs.ok = true := by kernel_rfl
/-- the parameters of `glm_vec2_maxsub`: include/cglm/vec2.h:488-493 -/
def glm_vec2_maxsub : Entry := ⟨C.glm_vec2_maxsub, [.inp 2, .inp 2, .io 2], .void⟩
theorem glm_vec2_maxsub_ok : glm_vec2_maxsub.ok = true := by kernel_rfl
/-- the parameters of `glm_vec2_minsub`: include/cglm/vec2.h:504-509 -/
def glm_vec2_minsub : Entry := ⟨C.glm_vec2_minsub, [.inp 2, .inp 2, .io 2], .void⟩
theorem glm_vec2_minsub_ok : glm_vec2_minsub.ok = true := by kernel_rfl
/-- the parameters of `glm_vec2_negate_to`: include/cglm/vec2.h:517-522 -/
def glm_vec2_negate_to : Entry := ⟨C.glm_vec2_negate_to, [.inp 2, .out 2], .void⟩
theorem glm_vec2_negate_to_ok : glm_vec2_negate_to.ok = true := by kernel_rfl
/-- the parameters of `glm_vec2_negate`: include/cglm/vec2.h:529-533 -/
def glm_vec2_negate : Entry := ⟨C.glm_vec2_negate, [.io 2], .void⟩
theorem glm_vec2_negate_ok : glm_vec2_negate.ok = true := by kernel_rfl
/-- the parameters of `glm_vec2_normalize`: include/cglm/vec2.h:540-553 -/
def glm_vec2_normalize : Entry := ⟨C.glm_vec2_normalize, [.io 2], .void⟩
theorem glm_vec2_normalize_ok : glm_vec2_normalize.ok = true := by kernel_rfl
/-- the parameters of `glm_vec2_normalize_to`: include/cglm/vec2.h:561-574 -/
def glm_vec2_normalize_to : Entry := ⟨C.glm_vec2_normalize_to, [.inp 2, .out 2], .void⟩
theorem glm_vec2_normalize_to_ok : glm_vec2_normalize_to.ok = true := by kernel_rfl
/-- the parameters of `glm_vec2_rotate`: include/cglm/vec2.h:587-600 -/
def glm_vec2_rotate : Entry := ⟨C.glm_vec2_rotate, [.inp 2, .f, .out 2], .void⟩
theorem glm_vec2_rotate_ok : glm_vec2_rotate.ok = true := by kernel_rfl
/-- the parameters of `glm_vec2_center`: include/cglm/vec2.h:609-614 -/
def glm_vec2_center : Entry := ⟨C.glm_vec2_center, [.inp 2, .inp 2, .out 2], .void⟩
theorem glm_vec2_center_ok : glm_vec2_center.ok = true := by kernel_rfl
/-- the parameters of `glm_vec2_distance2`: include/cglm/vec2.h:623-627 -/
def glm_vec2_distance2 : Entry := ⟨C.glm_vec2_distance2, [.inp 2, .inp 2], .float⟩
theorem glm_vec2_distance2_ok : glm_vec2_distance2.ok = true := by kernel_rfl
/-- the parameters of `glm_vec2_distance`: include/cglm/vec2.h:636-640 -/
def glm_vec2_distance : Entry := ⟨C.glm_vec2_distance, [.inp 2, .inp 2], .float⟩
theorem glm_vec2_distance_ok : glm_vec2_distance.ok = true := by kernel_rfl
/-- the parameters of `glm_vec2_maxv`: include/cglm/vec2.h:649-654 -/
def glm_vec2_maxv : Entry := ⟨C.glm_vec2_maxv, [.inp 2, .inp 2, .out 2], .void⟩
theorem glm_vec2_maxv_ok : glm_vec2_maxv.ok = true := by kernel_rfl
/-- the parameters of `glm_vec2_minv`: include/cglm/vec2.h:663-668 -/
def glm_vec2_minv : Entry := ⟨C.glm_vec2_minv, [.inp 2, .inp 2, .out 2], .void⟩
theorem glm_vec2_minv_ok : glm_vec2_minv.ok = true := by kernel_rfl
/-- the parameters of `glm_vec2_clamp`: include/cglm/vec2.h:677-682 -/
def glm_vec2_clamp : Entry := ⟨C.glm_vec2_clamp, [.io 2, .f, .f], .void⟩
theorem glm_vec2_clamp_ok : glm_vec2_clamp.ok = true := by kernel_rfl
/-- the parameters of `glm_vec2_lerp`: include/cglm/vec2.h:712-722 -/
def glm_vec2_lerp : Entry := ⟨C.glm_vec2_lerp, [.inp 2, .inp 2, .f, .out 2], .void⟩
theorem glm_vec2_lerp_ok : glm_vec2_lerp.ok = true := by kernel_rfl
/-- the parameters of `glm_vec2_step`: include/cglm/vec2.h:731-736 -/
def glm_vec2_step : Entry := ⟨C.glm_vec2_step, [.inp 2, .inp 2, .out 2], .void⟩
theorem glm_vec2_step_ok : glm_vec2_step.ok = true := by kernel_rfl
/-- the parameters of `glm_vec2_make`: include/cglm/vec2.h:744-748 -/
def glm_vec2_make : Entry := ⟨C.glm_vec2_make, [.inp 2, .out 2], .void⟩
theorem glm_vec2_make_ok : glm_vec2_make.ok = true := by kernel_rfl
/-- the parameters of `glm_vec2_reflect`: include/cglm/vec2.h:757-763 -/
def glm_vec2_reflect : Entry := ⟨C.glm_vec2_reflect, [.inp 2, .inp 2, .out 2], .void⟩
theorem glm_vec2_reflect_ok : glm_vec2_reflect.ok = true := by kernel_rfl
/-- the parameters of `glm_vec2_refract`: include/cglm/vec2.h:779-796 -/
def glm_vec2_refract : Entry := ⟨C.glm_vec2_refract, [.inp 2, .inp 2, .f, .out 2], .bool⟩
theorem glm_vec2_refract_ok : glm_vec2_refract.ok = true := by kernel_rfl

/-! ## include/cglm/vec3-ext.h -/

/-- the parameters of `glm_vec3_broadcast`: include/cglm/vec3-ext.h:49-53 -/
def glm_vec3_broadcast : Entry := ⟨C.glm_vec3_broadcast, [.f, .out 3], .void⟩
theorem glm_vec3_broadcast_ok : glm_vec3_broadcast.ok = true := by kernel_rfl
/-- the parameters of `glm_vec3_fill`: include/cglm/vec3-ext.h:61-65 -/
def glm_vec3_fill : Entry := ⟨C.glm_vec3_fill, [.out 3, .f], .void⟩
theorem glm_vec3_fill_ok : glm_vec3_fill.ok = true := by kernel_rfl
/-- the parameters of `glm_vec3_eq`: include/cglm/vec3-ext.h:73-77 -/
def glm_vec3_eq : Entry := ⟨C.glm_vec3_eq, [.inp 3, .f], .bool⟩
theorem glm_vec3_eq_ok : glm_vec3_eq.ok = true := by kernel_rfl
/-- the parameters of `glm_vec3_eq_eps`: include/cglm/vec3-ext.h:85-91 -/
def glm_vec3_eq_eps : Entry := ⟨C.glm_vec3_eq_eps, [.inp 3, .f], .bool⟩
theorem glm_vec3_eq_eps_ok : glm_vec3_eq_eps.ok = true := by kernel_rfl
/-- the parameters of `glm_vec3_eq_all`: include/cglm/vec3-ext.h:98-102 -/
def glm_vec3_eq_all : Entry := ⟨C.glm_vec3_eq_all, [.inp 3], .bool⟩
theorem glm_vec3_eq_all_ok : glm_vec3_eq_all.ok = true := by kernel_rfl
/-- the parameters of `glm_vec3_eqv`: include/cglm/vec3-ext.h:110-116 -/
def glm_vec3_eqv : Entry := ⟨C.glm_vec3_eqv, [.inp 3, .inp 3], .bool⟩
theorem glm_vec3_eqv_ok : glm_vec3_eqv.ok = true := by kernel_rfl
/-- the parameters of `glm_vec3_eqv_eps`: include/cglm/vec3-ext.h:124-130 -/
def glm_vec3_eqv_eps : Entry := ⟨C.glm_vec3_eqv_eps, [.inp 3, .inp 3], .bool⟩
theorem glm_vec3_eqv_eps_ok : glm_vec3_eqv_eps.ok = true := by kernel_rfl
/-- the parameters of `glm_vec3_max`: include/cglm/vec3-ext.h:137-149 -/
def glm_vec3_max : Entry := ⟨C.glm_vec3_max, [.inp 3], .float⟩
theorem glm_vec3_max_ok : glm_vec3_max.ok = true := by kernel_rfl
/-- the parameters of `glm_vec3_min`: include/cglm/vec3-ext.h:156-168 -/
def glm_vec3_min : Entry := ⟨C.glm_vec3_min, [.inp 3], .float⟩
theorem glm_vec3_min_ok : glm_vec3_min.ok = true := by kernel_rfl
/-- the parameters of `glm_vec3_isnan`: include/cglm/vec3-ext.h:176-184 -/
def glm_vec3_isnan : Entry := ⟨C.glm_vec3_isnan, [.inp 3], .bool⟩
theorem glm_vec3_isnan_ok : glm_vec3_isnan.ok = true := by kernel_rfl
/-- the parameters of `glm_vec3_isinf`: include/cglm/vec3-ext.h:192-200 -/
def glm_vec3_isinf : Entry := ⟨C.glm_vec3_isinf, [.inp 3], .bool⟩
theorem glm_vec3_isinf_ok : glm_vec3_isinf.ok = true := by kernel_rfl
/-- the parameters of `glm_vec3_isvalid`: include/cglm/vec3-ext.h:208-212 -/
def glm_vec3_isvalid : Entry := ⟨C.glm_vec3_isvalid, [.inp 3], .bool⟩
theorem glm_vec3_isvalid_ok : glm_vec3_isvalid.ok = true := by kernel_rfl
/-- the parameters of `glm_vec3_sign`: include/cglm/vec3-ext.h:221-227 -/
def glm_vec3_sign : Entry := ⟨C.glm_vec3_sign, [.inp 3, .out 3], .void⟩
theorem glm_vec3_sign_ok : glm_vec3_sign.ok = true := by kernel_rfl
/-- the parameters of `glm_vec3_abs`: include/cglm/vec3-ext.h:235-241 -/
def glm_vec3_abs : Entry := ⟨C.glm_vec3_abs, [.inp 3, .out 3], .void⟩
theorem glm_vec3_abs_ok : glm_vec3_abs.ok = true := by kernel_rfl
/-- the parameters of `glm_vec3_fract`: include/cglm/vec3-ext.h:249-255 -/
def glm_vec3_fract : Entry := ⟨C.glm_vec3_fract, [.inp 3, .out 3], .void⟩
theorem glm_vec3_fract_ok : glm_vec3_fract.ok = true := by kernel_rfl
/-- the parameters of `glm_vec3_floor`: include/cglm/vec3-ext.h:263-269 -/
def glm_vec3_floor : Entry := ⟨C.glm_vec3_floor, [.inp 3, .out 3], .void⟩
theorem glm_vec3_floor_ok : glm_vec3_floor.ok = true := by kernel_rfl
/-- the parameters of `glm_vec3_mods`: include/cglm/vec3-ext.h:278-284 -/
def glm_vec3_mods : Entry := ⟨C.glm_vec3_mods, [.inp 3, .f, .out 3], .void⟩
theorem glm_vec3_mods_ok : glm_vec3_mods.ok = true := by kernel_rfl
/-- the parameters of `glm_vec3_steps`: include/cglm/vec3-ext.h:294-300 -/
def glm_vec3_steps : Entry := ⟨C.glm_vec3_steps, [.f, .inp 3, .out 3], .void⟩
theorem glm_vec3_steps_ok : glm_vec3_steps.ok = true := by kernel_rfl
/-- the parameters of `glm_vec3_stepr`: include/cglm/vec3-ext.h:310-316 -/
def glm_vec3_stepr : Entry := ⟨C.glm_vec3_stepr, [.inp 3, .f, .out 3], .void⟩
theorem glm_vec3_stepr_ok : glm_vec3_stepr.ok = true := by kernel_rfl
/-- the parameters of `glm_vec3_hadd`: include/cglm/vec3-ext.h:325-329 -/
def glm_vec3_hadd : Entry := ⟨C.glm_vec3_hadd, [.inp 3], .float⟩
theorem glm_vec3_hadd_ok : glm_vec3_hadd.ok = true := by kernel_rfl
/-- the parameters of `glm_vec3_sqrt`: include/cglm/vec3-ext.h:337-343 -/
def glm_vec3_sqrt : Entry := ⟨C.glm_vec3_sqrt, [.inp 3, .out 3], .void⟩
theorem glm_vec3_sqrt_ok : glm_vec3_sqrt.ok = true := by kernel_rfl

/-! ## include/cglm/vec4-ext.h -/

/-- the parameters of `glm_vec4_broadcast`: include/cglm/vec4-ext.h:49-59 -/
def glm_vec4_broadcast : Entry := ⟨C.glm_vec4_broadcast, [.f, .out 4], .void⟩
theorem glm_vec4_broadcast_ok : glm_vec4_broadcast.ok = true := by kernel_rfl
/-- the parameters of `glm_vec4_fill`: include/cglm/vec4-ext.h:67-77 -/
def glm_vec4_fill : Entry := ⟨C.glm_vec4_fill, [.out 4, .f], .void⟩
theorem glm_vec4_fill_ok : glm_vec4_fill.ok = true := by kernel_rfl
/-- the parameters of `glm_vec4_eq`: include/cglm/vec4-ext.h:85-92 -/
def glm_vec4_eq : Entry := ⟨C.glm_vec4_eq, [.inp 4, .f], .bool⟩
theorem glm_vec4_eq_ok : glm_vec4_eq.ok = true := by kernel_rfl
/-- the parameters of `glm_vec4_eq_eps`: include/cglm/vec4-ext.h:100-107 -/
def glm_vec4_eq_eps : Entry := ⟨C.glm_vec4_eq_eps, [.inp 4, .f], .bool⟩
theorem glm_vec4_eq_eps_ok : glm_vec4_eq_eps.ok = true := by kernel_rfl
/-- the parameters of `glm_vec4_eq_all`: include/cglm/vec4-ext.h:114-118 -/
def glm_vec4_eq_all : Entry := ⟨C.glm_vec4_eq_all, [.inp 4], .bool⟩
theorem glm_vec4_eq_all_ok : glm_vec4_eq_all.ok = true := by kernel_rfl
/-- the parameters of `glm_vec4_eqv`: include/cglm/vec4-ext.h:126-133 -/
def glm_vec4_eqv : Entry := ⟨C.glm_vec4_eqv, [.inp 4, .inp 4], .bool⟩
theorem glm_vec4_eqv_ok : glm_vec4_eqv.ok = true := by kernel_rfl
/-- the parameters of `glm_vec4_eqv_eps`: include/cglm/vec4-ext.h:141-148 -/
def glm_vec4_eqv_eps : Entry := ⟨C.glm_vec4_eqv_eps, [.inp 4, .inp 4], .bool⟩
theorem glm_vec4_eqv_eps_ok : glm_vec4_eqv_eps.ok = true := by kernel_rfl
/-- the parameters of `glm_vec4_max`: include/cglm/vec4-ext.h:155-165 -/
def glm_vec4_max : Entry := ⟨C.glm_vec4_max, [.inp 4], .float⟩
theorem glm_vec4_max_ok : glm_vec4_max.ok = true := by kernel_rfl
/-- the parameters of `glm_vec4_min`: include/cglm/vec4-ext.h:172-182 -/
def glm_vec4_min : Entry := ⟨C.glm_vec4_min, [.inp 4], .float⟩
theorem glm_vec4_min_ok : glm_vec4_min.ok = true := by kernel_rfl
/-- the parameters of `glm_vec4_isnan`: include/cglm/vec4-ext.h:190-198 -/
def glm_vec4_isnan : Entry := ⟨C.glm_vec4_isnan, [.inp 4], .bool⟩
theorem glm_vec4_isnan_ok : glm_vec4_isnan.ok = true := by kernel_rfl
/-- the parameters of `glm_vec4_isinf`: include/cglm/vec4-ext.h:206-214 -/
def glm_vec4_isinf : Entry := ⟨C.glm_vec4_isinf, [.inp 4], .bool⟩
theorem glm_vec4_isinf_ok : glm_vec4_isinf.ok = true := by kernel_rfl
/-- the parameters of `glm_vec4_isvalid`: include/cglm/vec4-ext.h:222-226 -/
def glm_vec4_isvalid : Entry := ⟨C.glm_vec4_isvalid, [.inp 4], .bool⟩
theorem glm_vec4_isvalid_ok : glm_vec4_isvalid.ok = true := by kernel_rfl
/-- the parameters of `glm_vec4_sign`: include/cglm/vec4-ext.h:235-255 -/
def glm_vec4_sign : Entry := ⟨C.glm_vec4_sign, [.inp 4, .out 4], .void⟩
theorem glm_vec4_sign_ok : glm_vec4_sign.ok = true := by kernel_rfl
/-- the parameters of `glm_vec4_abs`: include/cglm/vec4-ext.h:263-278 -/
def glm_vec4_abs : Entry := ⟨C.glm_vec4_abs, [.inp 4, .out 4], .void⟩
theorem glm_vec4_abs_ok : glm_vec4_abs.ok = true := by kernel_rfl
/-- the parameters of `glm_vec4_fract`: include/cglm/vec4-ext.h:286-293 -/
def glm_vec4_fract : Entry := ⟨C.glm_vec4_fract, [.inp 4, .out 4], .void⟩
theorem glm_vec4_fract_ok : glm_vec4_fract.ok = true := by kernel_rfl
/-- the parameters of `glm_vec4_floor`: include/cglm/vec4-ext.h:301-308 -/
def glm_vec4_floor : Entry := ⟨C.glm_vec4_floor, [.inp 4, .out 4], .void⟩
theorem glm_vec4_floor_ok : glm_vec4_floor.ok = true := by kernel_rfl
/-- the parameters of `glm_vec4_mods`: include/cglm/vec4-ext.h:317-324 -/
def glm_vec4_mods : Entry := ⟨C.glm_vec4_mods, [.inp 4, .f, .out 4], .void⟩
theorem glm_vec4_mods_ok : glm_vec4_mods.ok = true := by kernel_rfl
/-- the parameters of `glm_vec4_steps`: include/cglm/vec4-ext.h:334-341 -/
def glm_vec4_steps : Entry := ⟨C.glm_vec4_steps, [.f, .inp 4, .out 4], .void⟩
theorem glm_vec4_steps_ok : glm_vec4_steps.ok = true := by kernel_rfl
/-- the parameters of `glm_vec4_stepr`: include/cglm/vec4-ext.h:351-358 -/
def glm_vec4_stepr : Entry := ⟨C.glm_vec4_stepr, [.inp 4, .f, .out 4], .void⟩
theorem glm_vec4_stepr_ok : glm_vec4_stepr.ok = true := by kernel_rfl
/-- the parameters of `glm_vec4_hadd`: include/cglm/vec4-ext.h:367-377 -/
def glm_vec4_hadd : Entry := ⟨C.glm_vec4_hadd, [.inp 4], .float⟩
theorem glm_vec4_hadd_ok : glm_vec4_hadd.ok = true := by kernel_rfl
/-- the parameters of `glm_vec4_sqrt`: include/cglm/vec4-ext.h:385-398 -/
def glm_vec4_sqrt : Entry := ⟨C.glm_vec4_sqrt, [.inp 4, .out 4], .void⟩
theorem glm_vec4_sqrt_ok : glm_vec4_sqrt.ok = true := by kernel_rfl

/-! ## include/cglm/vec4.h -/

/-- the parameters of `glm_vec4`: include/cglm/vec4.h:118-125 -/
def glm_vec4 : Entry := ⟨C.glm_vec4, [.inp 3, .f, .out 4], .void⟩
theorem glm_vec4_ok : glm_vec4.ok = true := by kernel_rfl
/-- the parameters of `glm_vec4_copy3`: include/cglm/vec4.h:133-139 -/
def glm_vec4_copy3 : Entry := ⟨C.glm_vec4_copy3, [.inp 4, .out 3], .void⟩
theorem glm_vec4_copy3_ok : glm_vec4_copy3.ok = true := by kernel_rfl
/-- the parameters of `glm_vec4_copy`: include/cglm/vec4.h:147-162 -/
def glm_vec4_copy : Entry := ⟨C.glm_vec4_copy, [.inp 4, .out 4], .void⟩
theorem glm_vec4_copy_ok : glm_vec4_copy.ok = true := by kernel_rfl
/-- the parameters of `glm_vec4_ucopy`: include/cglm/vec4.h:172-184 -/
def glm_vec4_ucopy : Entry := ⟨C.glm_vec4_ucopy, [.inp 4, .out 4], .void⟩
theorem glm_vec4_ucopy_ok : glm_vec4_ucopy.ok = true := by kernel_rfl
/-- the parameters of `glm_vec4_zero`: include/cglm/vec4.h:191-206 -/
def glm_vec4_zero : Entry := ⟨C.glm_vec4_zero, [.out 4], .void⟩
theorem glm_vec4_zero_ok : glm_vec4_zero.ok = true := by kernel_rfl
/-- the parameters of `glm_vec4_one`: include/cglm/vec4.h:213-228 -/
def glm_vec4_one : Entry := ⟨C.glm_vec4_one, [.out 4], .void⟩
theorem glm_vec4_one_ok : glm_vec4_one.ok = true := by kernel_rfl
/-- the parameters of `glm_vec4_dot`: include/cglm/vec4.h:238-246 -/
def glm_vec4_dot : Entry := ⟨C.glm_vec4_dot, [.inp 4, .inp 4], .float⟩
theorem glm_vec4_dot_ok : glm_vec4_dot.ok = true := by kernel_rfl
/-- the parameters of `glm_vec4_norm2`: include/cglm/vec4.h:259-263 -/
def glm_vec4_norm2 : Entry := ⟨C.glm_vec4_norm2, [.inp 4], .float⟩
theorem glm_vec4_norm2_ok : glm_vec4_norm2.ok = true := by kernel_rfl
/-- the parameters of `glm_vec4_norm`: include/cglm/vec4.h:273-281 -/
def glm_vec4_norm : Entry := ⟨C.glm_vec4_norm, [.inp 4], .float⟩
theorem glm_vec4_norm_ok : glm_vec4_norm.ok = true := by kernel_rfl
/-- the parameters of `glm_vec4_norm_one`: include/cglm/vec4.h:297-307 -/
def glm_vec4_norm_one : Entry := ⟨C.glm_vec4_norm_one, [.inp 4], .float⟩
theorem glm_vec4_norm_one_ok : glm_vec4_norm_one.ok = true := by kernel_rfl
/-- the parameters of `glm_vec4_norm_inf`: include/cglm/vec4.h:322-332 -/
def glm_vec4_norm_inf : Entry := ⟨C.glm_vec4_norm_inf, [.inp 4], .float⟩
theorem glm_vec4_norm_inf_ok : glm_vec4_norm_inf.ok = true := by kernel_rfl
/-- the parameters of `glm_vec4_add`: include/cglm/vec4.h:341-356 -/
def glm_vec4_add : Entry := ⟨C.glm_vec4_add, [.inp 4, .inp 4, .out 4], .void⟩
theorem glm_vec4_add_ok : glm_vec4_add.ok = true := by kernel_rfl
/-- the parameters of `glm_vec4_adds`: include/cglm/vec4.h:365-380 -/
def glm_vec4_adds : Entry := ⟨C.glm_vec4_adds, [.inp 4, .f, .out 4], .void⟩
theorem glm_vec4_adds_ok : glm_vec4_adds.ok = true := by kernel_rfl
/-- the parameters of `glm_vec4_sub`: include/cglm/vec4.h:389-404 -/
def glm_vec4_sub : Entry := ⟨C.glm_vec4_sub, [.inp 4, .inp 4, .out 4], .void⟩
theorem glm_vec4_sub_ok : glm_vec4_sub.ok = true := by kernel_rfl
/-- the parameters of `glm_vec4_subs`: include/cglm/vec4.h:413-428 -/
def glm_vec4_subs : Entry := ⟨C.glm_vec4_subs, [.inp 4, .f, .out 4], .void⟩
theorem glm_vec4_subs_ok : glm_vec4_subs.ok = true := by kernel_rfl
/-- the parameters of `glm_vec4_mul`: include/cglm/vec4.h:437-452 -/
def glm_vec4_mul : Entry := ⟨C.glm_vec4_mul, [.inp 4, .inp 4, .out 4], .void⟩
theorem glm_vec4_mul_ok : glm_vec4_mul.ok = true := by kernel_rfl
/-- the parameters of `glm_vec4_scale`: include/cglm/vec4.h:461-476 -/
def glm_vec4_scale : Entry := ⟨C.glm_vec4_scale, [.inp 4, .f, .out 4], .void⟩
theorem glm_vec4_scale_ok : glm_vec4_scale.ok = true := by kernel_rfl
/-- the parameters of `glm_vec4_scale_as`: include/cglm/vec4.h:485-497 -/
def glm_vec4_scale_as : Entry := ⟨C.glm_vec4_scale_as, [.inp 4, .f, .out 4], .void⟩
theorem glm_vec4_scale_as_ok : glm_vec4_scale_as.ok = true := by kernel_rfl
/-- the parameters of `glm_vec4_div`: include/cglm/vec4.h:506-517 -/
def glm_vec4_div : Entry := ⟨C.glm_vec4_div, [.inp 4, .inp 4, .out 4], .void⟩
theorem glm_vec4_div_ok : glm_vec4_div.ok = true := by kernel_rfl
/-- the parameters of `glm_vec4_divs`: include/cglm/vec4.h:526-534 -/
def glm_vec4_divs : Entry := ⟨C.glm_vec4_divs, [.inp 4, .f, .out 4], .void⟩
theorem glm_vec4_divs_ok : glm_vec4_divs.ok = true := by kernel_rfl
/-- the parameters of `glm_vec4_addadd`: include/cglm/vec4.h:545-566 -/
def glm_vec4_addadd : Entry := ⟨C.glm_vec4_addadd, [.inp 4, .inp 4, .io 4], .void⟩
theorem glm_vec4_addadd_ok : glm_vec4_addadd.ok = true := by kernel_rfl
/-- the parameters of `glm_vec4_subadd`: include/cglm/vec4.h:577-598 -/
def glm_vec4_subadd : Entry := ⟨C.glm_vec4_subadd, [.inp 4, .inp 4, .io 4], .void⟩
theorem glm_vec4_subadd_ok : glm_vec4_subadd.ok = true := by kernel_rfl
/-- the parameters of `glm_vec4_muladd`: include/cglm/vec4.h:609-620 -/
def glm_vec4_muladd : Entry := ⟨C.glm_vec4_muladd, [.inp 4, .inp 4, .io 4], .void⟩
theorem glm_vec4_muladd_ok : glm_vec4_muladd.ok = true := by kernel_rfl
/-- the parameters of `glm_vec4_muladds`: include/cglm/vec4.h:631-642 -/
def glm_vec4_muladds : Entry := ⟨C.glm_vec4_muladds, [.inp 4, .f, .io 4], .void⟩
theorem glm_vec4_muladds_ok : glm_vec4_muladds.ok = true := by kernel_rfl
/-- the parameters of `glm_vec4_maxadd`: include/cglm/vec4.h:653-671 -/
def glm_vec4_maxadd : Entry := ⟨C.glm_vec4_maxadd, [.inp 4, .inp 4, .io 4], .void⟩
theorem glm_vec4_maxadd_ok : glm_vec4_maxadd.ok = true := by kernel_rfl
/-- the parameters of `glm_vec4_minadd`: include/cglm/vec4.h:682-700 -/
def glm_vec4_minadd : Entry := ⟨C.glm_vec4_minadd, [.inp 4, .inp 4, .io 4], .void⟩
theorem glm_vec4_minadd_ok : glm_vec4_minadd.ok = true := by kernel_rfl
/-- the parameters of `glm_vec4_subsub`: include/cglm/vec4.h:711-732 -/
def glm_vec4_subsub : Entry := ⟨C.glm_vec4_subsub, [.inp 4, .inp 4, .io 4], .void⟩
theorem glm_vec4_subsub_ok : glm_vec4_subsub.ok = true := by kernel_rfl
/-- the parameters of `glm_vec4_addsub`: include/cglm/vec4.h:743-764 -/
def glm_vec4_addsub : Entry := ⟨C.glm_vec4_addsub, [.inp 4, .inp 4, .io 4], .void⟩
theorem glm_vec4_addsub_ok : glm_vec4_addsub.ok = true := by kernel_rfl
/-- the parameters of `glm_vec4_mulsub`: include/cglm/vec4.h:775-786 -/
def glm_vec4_mulsub : Entry := ⟨C.glm_vec4_mulsub, [.inp 4, .inp 4, .io 4], .void⟩
theorem glm_vec4_mulsub_ok : glm_vec4_mulsub.ok = true := by kernel_rfl
/-- the parameters of `glm_vec4_mulsubs`: include/cglm/vec4.h:797-808 -/
def glm_vec4_mulsubs : Entry := ⟨C.glm_vec4_mulsubs, [.inp 4, .f, .io 4], .void⟩
theorem glm_vec4_mulsubs_ok : glm_vec4_mulsubs.ok = true := by kernel_rfl
/-- the parameters of `glm_vec4_maxsub`: include/cglm/vec4.h:819-837 -/
def glm_vec4_maxsub : Entry := ⟨C.glm_vec4_maxsub, [.inp 4, .inp 4, .io 4], .void⟩
theorem glm_vec4_maxsub_ok : glm_vec4_maxsub.ok = true := by kernel_rfl
/-- the parameters of `glm_vec4_minsub`: include/cglm/vec4.h:848-866 -/
def glm_vec4_minsub : Entry := ⟨C.glm_vec4_minsub, [.inp 4, .inp 4, .io 4], .void⟩
theorem glm_vec4_minsub_ok : glm_vec4_minsub.ok = true := by kernel_rfl
/-- the parameters of `glm_vec4_negate_to`: include/cglm/vec4.h:874-889 -/
def glm_vec4_negate_to : Entry := ⟨C.glm_vec4_negate_to, [.inp 4, .out 4], .void⟩
theorem glm_vec4_negate_to_ok : glm_vec4_negate_to.ok = true := by kernel_rfl
/-- the parameters of `glm_vec4_negate`: include/cglm/vec4.h:896-900 -/
def glm_vec4_negate : Entry := ⟨C.glm_vec4_negate, [.io 4], .void⟩
theorem glm_vec4_negate_ok : glm_vec4_negate.ok = true := by kernel_rfl
/-- the parameters of `glm_vec4_normalize_to`: include/cglm/vec4.h:908-952 -/
def glm_vec4_normalize_to : Entry := ⟨C.glm_vec4_normalize_to, [.inp 4, .out 4], .void⟩
theorem glm_vec4_normalize_to_ok : glm_vec4_normalize_to.ok = true := by kernel_rfl
/-- the parameters of `glm_vec4_normalize`: include/cglm/vec4.h:959-963 -/
def glm_vec4_normalize : Entry := ⟨C.glm_vec4_normalize, [.io 4], .void⟩
theorem glm_vec4_normalize_ok : glm_vec4_normalize.ok = true := by kernel_rfl
/-- the parameters of `glm_vec4_distance`: include/cglm/vec4.h:972-987 -/
def glm_vec4_distance : Entry := ⟨C.glm_vec4_distance, [.inp 4, .inp 4], .float⟩
theorem glm_vec4_distance_ok : glm_vec4_distance.ok = true := by kernel_rfl
/-- the parameters of `glm_vec4_distance2`: include/cglm/vec4.h:996-1011 -/
def glm_vec4_distance2 : Entry := ⟨C.glm_vec4_distance2, [.inp 4, .inp 4], .float⟩
theorem glm_vec4_distance2_ok : glm_vec4_distance2.ok = true := by kernel_rfl
/-- the parameters of `glm_vec4_maxv`: include/cglm/vec4.h:1020-1031 -/
def glm_vec4_maxv : Entry := ⟨C.glm_vec4_maxv, [.inp 4, .inp 4, .out 4], .void⟩
theorem glm_vec4_maxv_ok : glm_vec4_maxv.ok = true := by kernel_rfl
/-- the parameters of `glm_vec4_minv`: include/cglm/vec4.h:1040-1051 -/
def glm_vec4_minv : Entry := ⟨C.glm_vec4_minv, [.inp 4, .inp 4, .out 4], .void⟩
theorem glm_vec4_minv_ok : glm_vec4_minv.ok = true := by kernel_rfl
/-- the parameters of `glm_vec4_clamp`: include/cglm/vec4.h:1060-1078 -/
def glm_vec4_clamp : Entry := ⟨C.glm_vec4_clamp, [.io 4, .f, .f], .void⟩
theorem glm_vec4_clamp_ok : glm_vec4_clamp.ok = true := by kernel_rfl
/-- the parameters of `glm_vec4_lerp`: include/cglm/vec4.h:1090-1100 -/
def glm_vec4_lerp : Entry := ⟨C.glm_vec4_lerp, [.inp 4, .inp 4, .f, .out 4], .void⟩
theorem glm_vec4_lerp_ok : glm_vec4_lerp.ok = true := by kernel_rfl
/-- the parameters of `glm_vec4_lerpc`: include/cglm/vec4.h:1112-1116 -/
def glm_vec4_lerpc : Entry := ⟨C.glm_vec4_lerpc, [.inp 4, .inp 4, .f, .out 4], .void⟩
theorem glm_vec4_lerpc_ok : glm_vec4_lerpc.ok = true := by kernel_rfl
/-- the parameters of `glm_vec4_mix`: include/cglm/vec4.h:1128-1132 -/
def glm_vec4_mix : Entry := ⟨C.glm_vec4_mix, [.inp 4, .inp 4, .f, .out 4], .void⟩
theorem glm_vec4_mix_ok : glm_vec4_mix.ok = true := by kernel_rfl
/-- the parameters of `glm_vec4_mixc`: include/cglm/vec4.h:1144-1148 -/
def glm_vec4_mixc : Entry := ⟨C.glm_vec4_mixc, [.inp 4, .inp 4, .f, .out 4], .void⟩
theorem glm_vec4_mixc_ok : glm_vec4_mixc.ok = true := by kernel_rfl
/-- the parameters of `glm_vec4_step`: include/cglm/vec4.h:1157-1164 -/
def glm_vec4_step : Entry := ⟨C.glm_vec4_step, [.inp 4, .inp 4, .out 4], .void⟩
theorem glm_vec4_step_ok : glm_vec4_step.ok = true := by kernel_rfl
/-- the parameters of `glm_vec4_smoothstep_uni`: include/cglm/vec4.h:1174-1181 -/
def glm_vec4_smoothstep_uni : Entry := ⟨C.glm_vec4_smoothstep_uni, [.f, .f, .inp 4, .out 4], .void⟩
theorem glm_vec4_smoothstep_uni_ok : glm_vec4_smoothstep_uni.ok = true := by kernel_rfl
/-- the parameters of `glm_vec4_smoothstep`: include/cglm/vec4.h:1191-1198 -/
def glm_vec4_smoothstep : Entry := ⟨C.glm_vec4_smoothstep, [.inp 4, .inp 4, .inp 4, .out 4], .void⟩
theorem glm_vec4_smoothstep_ok : glm_vec4_smoothstep.ok = true := by kernel_rfl
/-- the parameters of `glm_vec4_smoothinterp`: include/cglm/vec4.h:1210-1220 -/
def glm_vec4_smoothinterp : Entry := ⟨C.glm_vec4_smoothinterp, [.inp 4, .inp 4, .f, .out 4], .void⟩
theorem glm_vec4_smoothinterp_ok : glm_vec4_smoothinterp.ok = true := by kernel_rfl
/-- the parameters of `glm_vec4_smoothinterpc`: include/cglm/vec4.h:1232-1236 -/
def glm_vec4_smoothinterpc : Entry := ⟨C.glm_vec4_smoothinterpc, [.inp 4, .inp 4, .f, .out 4], .void⟩
theorem glm_vec4_smoothinterpc_ok : glm_vec4_smoothinterpc.ok = true := by kernel_rfl
/-- the parameters of `glm_vec4_cubic`: include/cglm/vec4.h:1244-1255 -/
def glm_vec4_cubic : Entry := ⟨C.glm_vec4_cubic, [.f, .out 4], .void⟩
theorem glm_vec4_cubic_ok : glm_vec4_cubic.ok = true := by kernel_rfl
/-- the parameters of `glm_vec4_make`: include/cglm/vec4.h:1285-1290 -/
def glm_vec4_make : Entry := ⟨C.glm_vec4_make, [.inp 4, .out 4], .void⟩
theorem glm_vec4_make_ok : glm_vec4_make.ok = true := by kernel_rfl
/-- the parameters of `glm_vec4_reflect`: include/cglm/vec4.h:1299-1309 -/
def glm_vec4_reflect : Entry := ⟨C.glm_vec4_reflect, [.inp 4, .inp 4, .out 4], .void⟩
theorem glm_vec4_reflect_ok : glm_vec4_reflect.ok = true := by kernel_rfl
/-- the parameters of `glm_vec4_refract`: include/cglm/vec4.h:1329-1346 -/
def glm_vec4_refract : Entry := ⟨C.glm_vec4_refract, [.inp 4, .inp 4, .f, .out 4], .bool⟩
theorem glm_vec4_refract_ok : glm_vec4_refract.ok = true := by kernel_rfl

/-! ## include/cglm/vec3.h -/

/-- the parameters of `glm_vec3`: include/cglm/vec3.h:141-147 -/
def glm_vec3 : Entry := ⟨C.glm_vec3, [.inp 4, .out 3], .void⟩
theorem glm_vec3_ok : glm_vec3.ok = true := by kernel_rfl
/-- the parameters of `glm_vec3_copy`: include/cglm/vec3.h:155-161 -/
def glm_vec3_copy : Entry := ⟨C.glm_vec3_copy, [.inp 3, .out 3], .void⟩
theorem glm_vec3_copy_ok : glm_vec3_copy.ok = true := by kernel_rfl
/-- the parameters of `glm_vec3_zero`: include/cglm/vec3.h:168-172 -/
def glm_vec3_zero : Entry := ⟨C.glm_vec3_zero, [.out 3], .void⟩
theorem glm_vec3_zero_ok : glm_vec3_zero.ok = true := by kernel_rfl
/-- the parameters of `glm_vec3_one`: include/cglm/vec3.h:179-183 -/
def glm_vec3_one : Entry := ⟨C.glm_vec3_one, [.out 3], .void⟩
theorem glm_vec3_one_ok : glm_vec3_one.ok = true := by kernel_rfl
/-- the parameters of `glm_vec3_dot`: include/cglm/vec3.h:193-197 -/
def glm_vec3_dot : Entry := ⟨C.glm_vec3_dot, [.inp 3, .inp 3], .float⟩
theorem glm_vec3_dot_ok : glm_vec3_dot.ok = true := by kernel_rfl
/-- the parameters of `glm_vec3_norm2`: include/cglm/vec3.h:210-214 -/
def glm_vec3_norm2 : Entry := ⟨C.glm_vec3_norm2, [.inp 3], .float⟩
theorem glm_vec3_norm2_ok : glm_vec3_norm2.ok = true := by kernel_rfl
/-- the parameters of `glm_vec3_norm`: include/cglm/vec3.h:224-228 -/
def glm_vec3_norm : Entry := ⟨C.glm_vec3_norm, [.inp 3], .float⟩
theorem glm_vec3_norm_ok : glm_vec3_norm.ok = true := by kernel_rfl
/-- the parameters of `glm_vec3_norm_one`: include/cglm/vec3.h:244-250 -/
def glm_vec3_norm_one : Entry := ⟨C.glm_vec3_norm_one, [.inp 3], .float⟩
theorem glm_vec3_norm_one_ok : glm_vec3_norm_one.ok = true := by kernel_rfl
/-- the parameters of `glm_vec3_norm_inf`: include/cglm/vec3.h:265-271 -/
def glm_vec3_norm_inf : Entry := ⟨C.glm_vec3_norm_inf, [.inp 3], .float⟩
theorem glm_vec3_norm_inf_ok : glm_vec3_norm_inf.ok = true := by kernel_rfl
/-- the parameters of `glm_vec3_add`: include/cglm/vec3.h:280-286 -/
def glm_vec3_add : Entry := ⟨C.glm_vec3_add, [.inp 3, .inp 3, .out 3], .void⟩
theorem glm_vec3_add_ok : glm_vec3_add.ok = true := by kernel_rfl
/-- the parameters of `glm_vec3_adds`: include/cglm/vec3.h:295-301 -/
def glm_vec3_adds : Entry := ⟨C.glm_vec3_adds, [.inp 3, .f, .out 3], .void⟩
theorem glm_vec3_adds_ok : glm_vec3_adds.ok = true := by kernel_rfl
/-- the parameters of `glm_vec3_sub`: include/cglm/vec3.h:310-316 -/
def glm_vec3_sub : Entry := ⟨C.glm_vec3_sub, [.inp 3, .inp 3, .out 3], .void⟩
theorem glm_vec3_sub_ok : glm_vec3_sub.ok = true := by kernel_rfl
/-- the parameters of `glm_vec3_subs`: include/cglm/vec3.h:325-331 -/
def glm_vec3_subs : Entry := ⟨C.glm_vec3_subs, [.inp 3, .f, .out 3], .void⟩
theorem glm_vec3_subs_ok : glm_vec3_subs.ok = true := by kernel_rfl
/-- the parameters of `glm_vec3_mul`: include/cglm/vec3.h:340-346 -/
def glm_vec3_mul : Entry := ⟨C.glm_vec3_mul, [.inp 3, .inp 3, .out 3], .void⟩
theorem glm_vec3_mul_ok : glm_vec3_mul.ok = true := by kernel_rfl
/-- the parameters of `glm_vec3_scale`: include/cglm/vec3.h:355-361 -/
def glm_vec3_scale : Entry := ⟨C.glm_vec3_scale, [.inp 3, .f, .out 3], .void⟩
theorem glm_vec3_scale_ok : glm_vec3_scale.ok = true := by kernel_rfl
/-- the parameters of `glm_vec3_scale_as`: include/cglm/vec3.h:370-382 -/
def glm_vec3_scale_as : Entry := ⟨C.glm_vec3_scale_as, [.inp 3, .f, .out 3], .void⟩
theorem glm_vec3_scale_as_ok : glm_vec3_scale_as.ok = true := by kernel_rfl
/-- the parameters of `glm_vec3_div`: include/cglm/vec3.h:391-397 -/
def glm_vec3_div : Entry := ⟨C.glm_vec3_div, [.inp 3, .inp 3, .out 3], .void⟩
theorem glm_vec3_div_ok : glm_vec3_div.ok = true := by kernel_rfl
/-- the parameters of `glm_vec3_divs`: include/cglm/vec3.h:406-412 -/
def glm_vec3_divs : Entry := ⟨C.glm_vec3_divs, [.inp 3, .f, .out 3], .void⟩
theorem glm_vec3_divs_ok : glm_vec3_divs.ok = true := by kernel_rfl
/-- the parameters of `glm_vec3_addadd`: include/cglm/vec3.h:423-429 -/
def glm_vec3_addadd : Entry := ⟨C.glm_vec3_addadd, [.inp 3, .inp 3, .io 3], .void⟩
theorem glm_vec3_addadd_ok : glm_vec3_addadd.ok = true := by kernel_rfl
/-- the parameters of `glm_vec3_subadd`: include/cglm/vec3.h:440-446 -/
def glm_vec3_subadd : Entry := ⟨C.glm_vec3_subadd, [.inp 3, .inp 3, .io 3], .void⟩
theorem glm_vec3_subadd_ok : glm_vec3_subadd.ok = true := by kernel_rfl
/-- the parameters of `glm_vec3_muladd`: include/cglm/vec3.h:457-463 -/
def glm_vec3_muladd : Entry := ⟨C.glm_vec3_muladd, [.inp 3, .inp 3, .io 3], .void⟩
theorem glm_vec3_muladd_ok : glm_vec3_muladd.ok = true := by kernel_rfl
/-- the parameters of `glm_vec3_muladds`: include/cglm/vec3.h:474-480 -/
def glm_vec3_muladds : Entry := ⟨C.glm_vec3_muladds, [.inp 3, .f, .io 3], .void⟩
theorem glm_vec3_muladds_ok : glm_vec3_muladds.ok = true := by kernel_rfl
/-- the parameters of `glm_vec3_maxadd`: include/cglm/vec3.h:491-497 -/
def glm_vec3_maxadd : Entry := ⟨C.glm_vec3_maxadd, [.inp 3, .inp 3, .io 3], .void⟩
theorem glm_vec3_maxadd_ok : glm_vec3_maxadd.ok = true := by kernel_rfl
/-- the parameters of `glm_vec3_minadd`: include/cglm/vec3.h:508-514 -/
def glm_vec3_minadd : Entry := ⟨C.glm_vec3_minadd, [.inp 3, .inp 3, .io 3], .void⟩
theorem glm_vec3_minadd_ok : glm_vec3_minadd.ok = true := by kernel_rfl
/-- the parameters of `glm_vec3_subsub`: include/cglm/vec3.h:525-531 -/
def glm_vec3_subsub : Entry := ⟨C.glm_vec3_subsub, [.inp 3, .inp 3, .io 3], .void⟩
theorem glm_vec3_subsub_ok : glm_vec3_subsub.ok = true := by kernel_rfl
/-- the parameters of `glm_vec3_addsub`: include/cglm/vec3.h:542-548 -/
def glm_vec3_addsub : Entry := ⟨C.glm_vec3_addsub, [.inp 3, .inp 3, .io 3], .void⟩
theorem glm_vec3_addsub_ok : glm_vec3_addsub.ok = true := by kernel_rfl
/-- the parameters of `glm_vec3_mulsub`: include/cglm/vec3.h:559-565 -/
def glm_vec3_mulsub : Entry := ⟨C.glm_vec3_mulsub, [.inp 3, .inp 3, .io 3], .void⟩
theorem glm_vec3_mulsub_ok : glm_vec3_mulsub.ok = true := by kernel_rfl
/-- the parameters of `glm_vec3_mulsubs`: include/cglm/vec3.h:576-582 -/
def glm_vec3_mulsubs : Entry := ⟨C.glm_vec3_mulsubs, [.inp 3, .f, .io 3], .void⟩
theorem glm_vec3_mulsubs_ok : glm_vec3_mulsubs.ok = true := by kernel_rfl
/-- the parameters of `glm_vec3_maxsub`: include/cglm/vec3.h:593-599 -/
def glm_vec3_maxsub : Entry := ⟨C.glm_vec3_maxsub, [.inp 3, .inp 3, .io 3], .void⟩
theorem glm_vec3_maxsub_ok : glm_vec3_maxsub.ok = true := by kernel_rfl
/-- the parameters of `glm_vec3_minsub`: include/cglm/vec3.h:610-616 -/
def glm_vec3_minsub : Entry := ⟨C.glm_vec3_minsub, [.inp 3, .inp 3, .io 3], .void⟩
theorem glm_vec3_minsub_ok : glm_vec3_minsub.ok = true := by kernel_rfl
/-- the parameters of `glm_vec3_negate_to`: include/cglm/vec3.h:624-630 -/
def glm_vec3_negate_to : Entry := ⟨C.glm_vec3_negate_to, [.inp 3, .out 3], .void⟩
theorem glm_vec3_negate_to_ok : glm_vec3_negate_to.ok = true := by kernel_rfl
/-- the parameters of `glm_vec3_negate`: include/cglm/vec3.h:637-641 -/
def glm_vec3_negate : Entry := ⟨C.glm_vec3_negate, [.io 3], .void⟩
theorem glm_vec3_negate_ok : glm_vec3_negate.ok = true := by kernel_rfl
/-- the parameters of `glm_vec3_normalize`: include/cglm/vec3.h:648-661 -/
def glm_vec3_normalize : Entry := ⟨C.glm_vec3_normalize, [.io 3], .void⟩
theorem glm_vec3_normalize_ok : glm_vec3_normalize.ok = true := by kernel_rfl
/-- the parameters of `glm_vec3_normalize_to`: include/cglm/vec3.h:669-682 -/
def glm_vec3_normalize_to : Entry := ⟨C.glm_vec3_normalize_to, [.inp 3, .out 3], .void⟩
theorem glm_vec3_normalize_to_ok : glm_vec3_normalize_to.ok = true := by kernel_rfl
/-- the parameters of `glm_vec3_cross`: include/cglm/vec3.h:691-700 -/
def glm_vec3_cross : Entry := ⟨C.glm_vec3_cross, [.inp 3, .inp 3, .out 3], .void⟩
theorem glm_vec3_cross_ok : glm_vec3_cross.ok = true := by kernel_rfl
/-- the parameters of `glm_vec3_crossn`: include/cglm/vec3.h:709-714 -/
def glm_vec3_crossn : Entry := ⟨C.glm_vec3_crossn, [.inp 3, .inp 3, .out 3], .void⟩
theorem glm_vec3_crossn_ok : glm_vec3_crossn.ok = true := by kernel_rfl
/-- the parameters of `glm_vec3_angle`: include/cglm/vec3.h:724-739 -/
def glm_vec3_angle : Entry := ⟨C.glm_vec3_angle, [.inp 3, .inp 3], .float⟩
theorem glm_vec3_angle_ok : glm_vec3_angle.ok = true := by kernel_rfl
/-- the parameters of `glm_vec3_rotate`: include/cglm/vec3.h:748-771 -/
def glm_vec3_rotate : Entry := ⟨C.glm_vec3_rotate, [.io 3, .f, .inp 3], .void⟩
theorem glm_vec3_rotate_ok : glm_vec3_rotate.ok = true := by kernel_rfl
/-- the parameters of `glm_vec3_rotate_m4`: include/cglm/vec3.h:786-800 -/
def glm_vec3_rotate_m4 : Entry := ⟨C.glm_vec3_rotate_m4, [.inp 16, .inp 3, .out 3], .void⟩
theorem glm_vec3_rotate_m4_ok : glm_vec3_rotate_m4.ok = true := by kernel_rfl
/-- the parameters of `glm_vec3_rotate_m3`: include/cglm/vec3.h:809-827 -/
def glm_vec3_rotate_m3 : Entry := ⟨C.glm_vec3_rotate_m3, [.inp 9, .inp 3, .out 3], .void⟩
theorem glm_vec3_rotate_m3_ok : glm_vec3_rotate_m3.ok = true := by kernel_rfl
/-- the parameters of `glm_vec3_proj`: include/cglm/vec3.h:836-842 -/
def glm_vec3_proj : Entry := ⟨C.glm_vec3_proj, [.inp 3, .inp 3, .out 3], .void⟩
theorem glm_vec3_proj_ok : glm_vec3_proj.ok = true := by kernel_rfl
/-- the parameters of `glm_vec3_center`: include/cglm/vec3.h:851-856 -/
def glm_vec3_center : Entry := ⟨C.glm_vec3_center, [.inp 3, .inp 3, .out 3], .void⟩
theorem glm_vec3_center_ok : glm_vec3_center.ok = true := by kernel_rfl
/-- the parameters of `glm_vec3_distance2`: include/cglm/vec3.h:865-871 -/
def glm_vec3_distance2 : Entry := ⟨C.glm_vec3_distance2, [.inp 3, .inp 3], .float⟩
theorem glm_vec3_distance2_ok : glm_vec3_distance2.ok = true := by kernel_rfl
/-- the parameters of `glm_vec3_distance`: include/cglm/vec3.h:880-884 -/
def glm_vec3_distance : Entry := ⟨C.glm_vec3_distance, [.inp 3, .inp 3], .float⟩
theorem glm_vec3_distance_ok : glm_vec3_distance.ok = true := by kernel_rfl
/-- the parameters of `glm_vec3_maxv`: include/cglm/vec3.h:893-899 -/
def glm_vec3_maxv : Entry := ⟨C.glm_vec3_maxv, [.inp 3, .inp 3, .out 3], .void⟩
theorem glm_vec3_maxv_ok : glm_vec3_maxv.ok = true := by kernel_rfl
/-- the parameters of `glm_vec3_minv`: include/cglm/vec3.h:908-914 -/
def glm_vec3_minv : Entry := ⟨C.glm_vec3_minv, [.inp 3, .inp 3, .out 3], .void⟩
theorem glm_vec3_minv_ok : glm_vec3_minv.ok = true := by kernel_rfl
/-- the parameters of `glm_vec3_ortho`: include/cglm/vec3.h:922-929 -/
def glm_vec3_ortho : Entry := ⟨C.glm_vec3_ortho, [.inp 3, .out 3], .void⟩
theorem glm_vec3_ortho_ok : glm_vec3_ortho.ok = true := by kernel_rfl
/-- the parameters of `glm_vec3_clamp`: include/cglm/vec3.h:938-944 -/
def glm_vec3_clamp : Entry := ⟨C.glm_vec3_clamp, [.io 3, .f, .f], .void⟩
theorem glm_vec3_clamp_ok : glm_vec3_clamp.ok = true := by kernel_rfl
/-- the parameters of `glm_vec3_lerp`: include/cglm/vec3.h:956-966 -/
def glm_vec3_lerp : Entry := ⟨C.glm_vec3_lerp, [.inp 3, .inp 3, .f, .out 3], .void⟩
theorem glm_vec3_lerp_ok : glm_vec3_lerp.ok = true := by kernel_rfl
/-- the parameters of `glm_vec3_lerpc`: include/cglm/vec3.h:978-982 -/
def glm_vec3_lerpc : Entry := ⟨C.glm_vec3_lerpc, [.inp 3, .inp 3, .f, .out 3], .void⟩
theorem glm_vec3_lerpc_ok : glm_vec3_lerpc.ok = true := by kernel_rfl
/-- the parameters of `glm_vec3_mix`: include/cglm/vec3.h:994-998 -/
def glm_vec3_mix : Entry := ⟨C.glm_vec3_mix, [.inp 3, .inp 3, .f, .out 3], .void⟩
theorem glm_vec3_mix_ok : glm_vec3_mix.ok = true := by kernel_rfl
/-- the parameters of `glm_vec3_mixc`: include/cglm/vec3.h:1010-1014 -/
def glm_vec3_mixc : Entry := ⟨C.glm_vec3_mixc, [.inp 3, .inp 3, .f, .out 3], .void⟩
theorem glm_vec3_mixc_ok : glm_vec3_mixc.ok = true := by kernel_rfl
/-- the parameters of `glm_vec3_step`: include/cglm/vec3.h:1023-1029 -/
def glm_vec3_step : Entry := ⟨C.glm_vec3_step, [.inp 3, .inp 3, .out 3], .void⟩
theorem glm_vec3_step_ok : glm_vec3_step.ok = true := by kernel_rfl
/-- the parameters of `glm_vec3_smoothstep_uni`: include/cglm/vec3.h:1039-1045 -/
def glm_vec3_smoothstep_uni : Entry := ⟨C.glm_vec3_smoothstep_uni, [.f, .f, .inp 3, .out 3], .void⟩
theorem glm_vec3_smoothstep_uni_ok : glm_vec3_smoothstep_uni.ok = true := by kernel_rfl
/-- the parameters of `glm_vec3_smoothstep`: include/cglm/vec3.h:1055-1061 -/
def glm_vec3_smoothstep : Entry := ⟨C.glm_vec3_smoothstep, [.inp 3, .inp 3, .inp 3, .out 3], .void⟩
theorem glm_vec3_smoothstep_ok : glm_vec3_smoothstep.ok = true := by kernel_rfl
/-- the parameters of `glm_vec3_smoothinterp`: include/cglm/vec3.h:1073-1083 -/
def glm_vec3_smoothinterp : Entry := ⟨C.glm_vec3_smoothinterp, [.inp 3, .inp 3, .f, .out 3], .void⟩
theorem glm_vec3_smoothinterp_ok : glm_vec3_smoothinterp.ok = true := by kernel_rfl
/-- the parameters of `glm_vec3_smoothinterpc`: include/cglm/vec3.h:1095-1099 -/
def glm_vec3_smoothinterpc : Entry := ⟨C.glm_vec3_smoothinterpc, [.inp 3, .inp 3, .f, .out 3], .void⟩
theorem glm_vec3_smoothinterpc_ok : glm_vec3_smoothinterpc.ok = true := by kernel_rfl
/-- the parameters of `glm_cross`: include/cglm/vec3.h:1131-1135 -/
def glm_cross : Entry := ⟨C.glm_cross, [.inp 3, .inp 3, .out 3], .void⟩
theorem glm_cross_ok : glm_cross.ok = true := by kernel_rfl
/-- the parameters of `glm_dot`: include/cglm/vec3.h:1147-1151 -/
def glm_dot : Entry := ⟨C.glm_dot, [.inp 3, .inp 3], .float⟩
theorem glm_dot_ok : glm_dot.ok = true := by kernel_rfl
/-- the parameters of `glm_normalize`: include/cglm/vec3.h:1160-1164 -/
def glm_normalize : Entry := ⟨C.glm_normalize, [.io 3], .void⟩
theorem glm_normalize_ok : glm_normalize.ok = true := by kernel_rfl
/-- the parameters of `glm_normalize_to`: include/cglm/vec3.h:1174-1178 -/
def glm_normalize_to : Entry := ⟨C.glm_normalize_to, [.inp 3, .out 3], .void⟩
theorem glm_normalize_to_ok : glm_normalize_to.ok = true := by kernel_rfl
/-- the parameters of `glm_vec3_make`: include/cglm/vec3.h:1186-1192 -/
def glm_vec3_make : Entry := ⟨C.glm_vec3_make, [.inp 3, .out 3], .void⟩
theorem glm_vec3_make_ok : glm_vec3_make.ok = true := by kernel_rfl
/-- the parameters of `glm_vec3_faceforward`: include/cglm/vec3.h:1204-1214 -/
def glm_vec3_faceforward : Entry := ⟨C.glm_vec3_faceforward, [.inp 3, .inp 3, .inp 3, .out 3], .void⟩
theorem glm_vec3_faceforward_ok : glm_vec3_faceforward.ok = true := by kernel_rfl
/-- the parameters of `glm_vec3_reflect`: include/cglm/vec3.h:1223-1229 -/
def glm_vec3_reflect : Entry := ⟨C.glm_vec3_reflect, [.inp 3, .inp 3, .out 3], .void⟩
theorem glm_vec3_reflect_ok : glm_vec3_reflect.ok = true := by kernel_rfl
/-- the parameters of `glm_vec3_refract`: include/cglm/vec3.h:1245-1262 -/
def glm_vec3_refract : Entry := ⟨C.glm_vec3_refract, [.inp 3, .inp 3, .f, .out 3], .bool⟩
theorem glm_vec3_refract_ok : glm_vec3_refract.ok = true := by kernel_rfl

def partVec1 : List Entry := [glm_vec2_fill, glm_vec2_eq, glm_vec2_eq_eps, glm_vec2_eq_all, glm_vec2_eqv, glm_vec2_eqv_eps, glm_vec2_max, glm_vec2_min, glm_vec2_isnan, glm_vec2_isinf, glm_vec2_isvalid, glm_vec2_sign, glm_vec2_abs, glm_vec2_fract, glm_vec2_floor, glm_vec2_mods, glm_vec2_sqrt, glm_vec2_complex_mul, glm_vec2_steps, glm_vec2_stepr, glm_vec2_complex_div, glm_vec2_complex_conjugate, glm_vec2, glm_vec2_copy, glm_vec2_zero, glm_vec2_one, glm_vec2_dot, glm_vec2_cross, glm_vec2_norm2, glm_vec2_norm, glm_vec2_add, glm_vec2_adds, glm_vec2_sub, glm_vec2_subs, glm_vec2_mul, glm_vec2_scale, glm_vec2_scale_as, glm_vec2_div, glm_vec2_divs, glm_vec2_addadd]
theorem partVec1_ok : partVec1.all Entry.ok = true := by
  simp only [partVec1, List.all_cons, List.all_nil, glm_vec2_fill_ok, glm_vec2_eq_ok, glm_vec2_eq_eps_ok, glm_vec2_eq_all_ok, glm_vec2_eqv_ok, glm_vec2_eqv_eps_ok, glm_vec2_max_ok, glm_vec2_min_ok, glm_vec2_isnan_ok, glm_vec2_isinf_ok, glm_vec2_isvalid_ok, glm_vec2_sign_ok, glm_vec2_abs_ok, glm_vec2_fract_ok, glm_vec2_floor_ok, glm_vec2_mods_ok, glm_vec2_sqrt_ok, glm_vec2_complex_mul_ok, glm_vec2_steps_ok, glm_vec2_stepr_ok, glm_vec2_complex_div_ok, glm_vec2_complex_conjugate_ok, glm_vec2_ok, glm_vec2_copy_ok, glm_vec2_zero_ok, glm_vec2_one_ok, glm_vec2_dot_ok, glm_vec2_cross_ok, glm_vec2_norm2_ok, glm_vec2_norm_ok, glm_vec2_add_ok, glm_vec2_adds_ok, glm_vec2_sub_ok, glm_vec2_subs_ok, glm_vec2_mul_ok, glm_vec2_scale_ok, glm_vec2_scale_as_ok, glm_vec2_div_ok, glm_vec2_divs_ok, glm_vec2_addadd_ok, Bool.and_self]
def partVec2 : List Entry := [glm_vec2_subadd, glm_vec2_muladd, glm_vec2_muladds, glm_vec2_maxadd, glm_vec2_minadd, glm_vec2_subsub, glm_vec2_addsub, glm_vec2_mulsub, glm_vec2_mulsubs, glm_vec2_maxsub, glm_vec2_minsub, glm_vec2_negate_to, glm_vec2_negate, glm_vec2_normalize, glm_vec2_normalize_to, glm_vec2_rotate, glm_vec2_center, glm_vec2_distance2, glm_vec2_distance, glm_vec2_maxv, glm_vec2_minv, glm_vec2_clamp, glm_vec2_lerp, glm_vec2_step, glm_vec2_make, glm_vec2_reflect, glm_vec2_refract, glm_vec3_broadcast, glm_vec3_fill, glm_vec3_eq, glm_vec3_eq_eps, glm_vec3_eq_all, glm_vec3_eqv, glm_vec3_eqv_eps, glm_vec3_max, glm_vec3_min, glm_vec3_isnan, glm_vec3_isinf, glm_vec3_isvalid, glm_vec3_sign]
theorem partVec2_ok : partVec2.all Entry.ok = true := by
  simp only [partVec2, List.all_cons, List.all_nil, glm_vec2_subadd_ok, glm_vec2_muladd_ok, glm_vec2_muladds_ok, glm_vec2_maxadd_ok, glm_vec2_minadd_ok, glm_vec2_subsub_ok, glm_vec2_addsub_ok, glm_vec2_mulsub_ok, glm_vec2_mulsubs_ok, glm_vec2_maxsub_ok, glm_vec2_minsub_ok, glm_vec2_negate_to_ok, glm_vec2_negate_ok, glm_vec2_normalize_ok, glm_vec2_normalize_to_ok, glm_vec2_rotate_ok, glm_vec2_center_ok, glm_vec2_distance2_ok, glm_vec2_distance_ok, glm_vec2_maxv_ok, glm_vec2_minv_ok, glm_vec2_clamp_ok, glm_vec2_lerp_ok, glm_vec2_step_ok, glm_vec2_make_ok, glm_vec2_reflect_ok, glm_vec2_refract_ok, glm_vec3_broadcast_ok, glm_vec3_fill_ok, glm_vec3_eq_ok, glm_vec3_eq_eps_ok, glm_vec3_eq_all_ok, glm_vec3_eqv_ok, glm_vec3_eqv_eps_ok, glm_vec3_max_ok, glm_vec3_min_ok, glm_vec3_isnan_ok, glm_vec3_isinf_ok, glm_vec3_isvalid_ok, glm_vec3_sign_ok, Bool.and_self]
def partVec3 : List Entry := [glm_vec3_abs, glm_vec3_fract, glm_vec3_floor, glm_vec3_mods, glm_vec3_steps, glm_vec3_stepr, glm_vec3_hadd, glm_vec3_sqrt, glm_vec4_broadcast, glm_vec4_fill, glm_vec4_eq, glm_vec4_eq_eps, glm_vec4_eq_all, glm_vec4_eqv, glm_vec4_eqv_eps, glm_vec4_max, glm_vec4_min, glm_vec4_isnan, glm_vec4_isinf, glm_vec4_isvalid, glm_vec4_sign, glm_vec4_abs, glm_vec4_fract, glm_vec4_floor, glm_vec4_mods, glm_vec4_steps, glm_vec4_stepr, glm_vec4_hadd, glm_vec4_sqrt, glm_vec4, glm_vec4_copy3, glm_vec4_copy, glm_vec4_ucopy, glm_vec4_zero, glm_vec4_one, glm_vec4_dot, glm_vec4_norm2, glm_vec4_norm, glm_vec4_norm_one, glm_vec4_norm_inf]
theorem partVec3_ok : partVec3.all Entry.ok = true := by
  simp only [partVec3, List.all_cons, List.all_nil, glm_vec3_abs_ok, glm_vec3_fract_ok, glm_vec3_floor_ok, glm_vec3_mods_ok, glm_vec3_steps_ok, glm_vec3_stepr_ok, glm_vec3_hadd_ok, glm_vec3_sqrt_ok, glm_vec4_broadcast_ok, glm_vec4_fill_ok, glm_vec4_eq_ok, glm_vec4_eq_eps_ok, glm_vec4_eq_all_ok, glm_vec4_eqv_ok, glm_vec4_eqv_eps_ok, glm_vec4_max_ok, glm_vec4_min_ok, glm_vec4_isnan_ok, glm_vec4_isinf_ok, glm_vec4_isvalid_ok, glm_vec4_sign_ok, glm_vec4_abs_ok, glm_vec4_fract_ok, glm_vec4_floor_ok, glm_vec4_mods_ok, glm_vec4_steps_ok, glm_vec4_stepr_ok, glm_vec4_hadd_ok, glm_vec4_sqrt_ok, glm_vec4_ok, glm_vec4_copy3_ok, glm_vec4_copy_ok, glm_vec4_ucopy_ok, glm_vec4_zero_ok, glm_vec4_one_ok, glm_vec4_dot_ok, glm_vec4_norm2_ok, glm_vec4_norm_ok, glm_vec4_norm_one_ok, glm_vec4_norm_inf_ok, Bool.and_self]
def partVec4 : List Entry := [glm_vec4_add, glm_vec4_adds, glm_vec4_sub, glm_vec4_subs, glm_vec4_mul, glm_vec4_scale, glm_vec4_scale_as, glm_vec4_div, glm_vec4_divs, glm_vec4_addadd, glm_vec4_subadd, glm_vec4_muladd, glm_vec4_muladds, glm_vec4_maxadd, glm_vec4_minadd, glm_vec4_subsub, glm_vec4_addsub, glm_vec4_mulsub, glm_vec4_mulsubs, glm_vec4_maxsub, glm_vec4_minsub, glm_vec4_negate_to, glm_vec4_negate, glm_vec4_normalize_to, glm_vec4_normalize, glm_vec4_distance, glm_vec4_distance2, glm_vec4_maxv, glm_vec4_minv, glm_vec4_clamp, glm_vec4_lerp, glm_vec4_lerpc, glm_vec4_mix, glm_vec4_mixc, glm_vec4_step, glm_vec4_smoothstep_uni, glm_vec4_smoothstep, glm_vec4_smoothinterp, glm_vec4_smoothinterpc, glm_vec4_cubic]
theorem partVec4_ok : partVec4.all Entry.ok = true := by
  simp only [partVec4, List.all_cons, List.all_nil, glm_vec4_add_ok, glm_vec4_adds_ok, glm_vec4_sub_ok, glm_vec4_subs_ok, glm_vec4_mul_ok, glm_vec4_scale_ok, glm_vec4_scale_as_ok, glm_vec4_div_ok, glm_vec4_divs_ok, glm_vec4_addadd_ok, glm_vec4_subadd_ok, glm_vec4_muladd_ok, glm_vec4_muladds_ok, glm_vec4_maxadd_ok, glm_vec4_minadd_ok, glm_vec4_subsub_ok, glm_vec4_addsub_ok, glm_vec4_mulsub_ok, glm_vec4_mulsubs_ok, glm_vec4_maxsub_ok, glm_vec4_minsub_ok, glm_vec4_negate_to_ok, glm_vec4_negate_ok, glm_vec4_normalize_to_ok, glm_vec4_normalize_ok, glm_vec4_distance_ok, glm_vec4_distance2_ok, glm_vec4_maxv_ok, glm_vec4_minv_ok, glm_vec4_clamp_ok, glm_vec4_lerp_ok, glm_vec4_lerpc_ok, glm_vec4_mix_ok, glm_vec4_mixc_ok, glm_vec4_step_ok, glm_vec4_smoothstep_uni_ok, glm_vec4_smoothstep_ok, glm_vec4_smoothinterp_ok, glm_vec4_smoothinterpc_ok, glm_vec4_cubic_ok, Bool.and_self]
def partVec5 : List Entry := [glm_vec4_make, glm_vec4_reflect, glm_vec4_refract, glm_vec3, glm_vec3_copy, glm_vec3_zero, glm_vec3_one, glm_vec3_dot, glm_vec3_norm2, glm_vec3_norm, glm_vec3_norm_one, glm_vec3_norm_inf, glm_vec3_add, glm_vec3_adds, glm_vec3_sub, glm_vec3_subs, glm_vec3_mul, glm_vec3_scale, glm_vec3_scale_as, glm_vec3_div, glm_vec3_divs, glm_vec3_addadd, glm_vec3_subadd, glm_vec3_muladd, glm_vec3_muladds, glm_vec3_maxadd, glm_vec3_minadd, glm_vec3_subsub, glm_vec3_addsub, glm_vec3_mulsub, glm_vec3_mulsubs, glm_vec3_maxsub, glm_vec3_minsub, glm_vec3_negate_to, glm_vec3_negate, glm_vec3_normalize, glm_vec3_normalize_to, glm_vec3_cross, glm_vec3_crossn, glm_vec3_angle]
theorem partVec5_ok : partVec5.all Entry.ok = true := by
  simp only [partVec5, List.all_cons, List.all_nil, glm_vec4_make_ok, glm_vec4_reflect_ok, glm_vec4_refract_ok, glm_vec3_ok, glm_vec3_copy_ok, glm_vec3_zero_ok, glm_vec3_one_ok, glm_vec3_dot_ok, glm_vec3_norm2_ok, glm_vec3_norm_ok, glm_vec3_norm_one_ok, glm_vec3_norm_inf_ok, glm_vec3_add_ok, glm_vec3_adds_ok, glm_vec3_sub_ok, glm_vec3_subs_ok, glm_vec3_mul_ok, glm_vec3_scale_ok, glm_vec3_scale_as_ok, glm_vec3_div_ok, glm_vec3_divs_ok, glm_vec3_addadd_ok, glm_vec3_subadd_ok, glm_vec3_muladd_ok, glm_vec3_muladds_ok, glm_vec3_maxadd_ok, glm_vec3_minadd_ok, glm_vec3_subsub_ok, glm_vec3_addsub_ok, glm_vec3_mulsub_ok, glm_vec3_mulsubs_ok, glm_vec3_maxsub_ok, glm_vec3_minsub_ok, glm_vec3_negate_to_ok, glm_vec3_negate_ok, glm_vec3_normalize_ok, glm_vec3_normalize_to_ok, glm_vec3_cross_ok, glm_vec3_crossn_ok, glm_vec3_angle_ok, Bool.and_self]
def partVec6 : List Entry := [glm_vec3_rotate, glm_vec3_rotate_m4, glm_vec3_rotate_m3, glm_vec3_proj, glm_vec3_center, glm_vec3_distance2, glm_vec3_distance, glm_vec3_maxv, glm_vec3_minv, glm_vec3_ortho, glm_vec3_clamp, glm_vec3_lerp, glm_vec3_lerpc, glm_vec3_mix, glm_vec3_mixc, glm_vec3_step, glm_vec3_smoothstep_uni, glm_vec3_smoothstep, glm_vec3_smoothinterp, glm_vec3_smoothinterpc, glm_cross, glm_dot, glm_normalize, glm_normalize_to, glm_vec3_make, glm_vec3_faceforward, glm_vec3_reflect, glm_vec3_refract]
theorem partVec6_ok : partVec6.all Entry.ok = true := by
  simp only [partVec6, List.all_cons, List.all_nil, glm_vec3_rotate_ok, glm_vec3_rotate_m4_ok, glm_vec3_rotate_m3_ok, glm_vec3_proj_ok, glm_vec3_center_ok, glm_vec3_distance2_ok, glm_vec3_distance_ok, glm_vec3_maxv_ok, glm_vec3_minv_ok, glm_vec3_ortho_ok, glm_vec3_clamp_ok, glm_vec3_lerp_ok, glm_vec3_lerpc_ok, glm_vec3_mix_ok, glm_vec3_mixc_ok, glm_vec3_step_ok, glm_vec3_smoothstep_uni_ok, glm_vec3_smoothstep_ok, glm_vec3_smoothinterp_ok, glm_vec3_smoothinterpc_ok, glm_cross_ok, glm_dot_ok, glm_normalize_ok, glm_normalize_to_ok, glm_vec3_make_ok, glm_vec3_faceforward_ok, glm_vec3_reflect_ok, glm_vec3_refract_ok, Bool.and_self]

end Cglm.CMem.Lib
