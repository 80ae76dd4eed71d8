/- Generated by tools/safethms.py; do not edit by hand. -/
import Verif.CMemIEntry
import Verif.Mem.Ints

/-!
# The integer-vector functions with their arguments

Arrays are counted in elements.  The analysis of `CMemISafe` accepts every function.
-/

namespace Cglm.CMem.LibI

/-! ## include/cglm/util.h -/

/-- the parameters of `glm_sign`: include/cglm/util.h:48-52 -/
def glm_sign : IEntry := ⟨CI.glm_sign, [.i], .int⟩
theorem glm_sign_ok : glm_sign.ok = true := by kernel_rfl
/-- the parameters of `glm_imin`: include/cglm/util.h:158-164 -/
def glm_imin : IEntry := ⟨CI.glm_imin, [.i, .i], .int⟩
theorem glm_imin_ok : glm_imin.ok = true := by kernel_rfl
/-- the parameters of `glm_imax`: include/cglm/util.h:174-180 -/
def glm_imax : IEntry := ⟨CI.glm_imax, [.i, .i], .int⟩
theorem glm_imax_ok : glm_imax.ok = true := by kernel_rfl

/-! ## include/cglm/ivec2.h -/

/-- the parameters of `glm_ivec2`: include/cglm/ivec2.h:76-81 -/
def glm_ivec2 : IEntry := ⟨CI.glm_ivec2, [.inp 2, .out 2], .void⟩
theorem glm_ivec2_ok : glm_ivec2.ok = true := by kernel_rfl
/-- the parameters of `glm_ivec2_copy`: include/cglm/ivec2.h:89-94 -/
def glm_ivec2_copy : IEntry := ⟨CI.glm_ivec2_copy, [.inp 2, .out 2], .void⟩
theorem glm_ivec2_copy_ok : glm_ivec2_copy.ok = true := by kernel_rfl
/-- the parameters of `glm_ivec2_zero`: include/cglm/ivec2.h:101-105 -/
def glm_ivec2_zero : IEntry := ⟨CI.glm_ivec2_zero, [.out 2], .void⟩
theorem glm_ivec2_zero_ok : glm_ivec2_zero.ok = true := by kernel_rfl
/-- the parameters of `glm_ivec2_one`: include/cglm/ivec2.h:112-116 -/
def glm_ivec2_one : IEntry := ⟨CI.glm_ivec2_one, [.out 2], .void⟩
theorem glm_ivec2_one_ok : glm_ivec2_one.ok = true := by kernel_rfl
/-- the parameters of `glm_ivec2_dot`: include/cglm/ivec2.h:126-130 -/
def glm_ivec2_dot : IEntry := ⟨CI.glm_ivec2_dot, [.inp 2, .inp 2], .int⟩
theorem glm_ivec2_dot_ok : glm_ivec2_dot.ok = true := by kernel_rfl
/-- the parameters of `glm_ivec2_cross`: include/cglm/ivec2.h:142-146 -/
def glm_ivec2_cross : IEntry := ⟨CI.glm_ivec2_cross, [.inp 2, .inp 2], .int⟩
theorem glm_ivec2_cross_ok : glm_ivec2_cross.ok = true := by kernel_rfl
/-- the parameters of `glm_ivec2_add`: include/cglm/ivec2.h:155-160 -/
def glm_ivec2_add : IEntry := ⟨CI.glm_ivec2_add, [.inp 2, .inp 2, .out 2], .void⟩
theorem glm_ivec2_add_ok : glm_ivec2_add.ok = true := by kernel_rfl
/-- the parameters of `glm_ivec2_adds`: include/cglm/ivec2.h:169-174 -/
def glm_ivec2_adds : IEntry := ⟨CI.glm_ivec2_adds, [.inp 2, .i, .out 2], .void⟩
theorem glm_ivec2_adds_ok : glm_ivec2_adds.ok = true := by kernel_rfl
/-- the parameters of `glm_ivec2_sub`: include/cglm/ivec2.h:183-188 -/
def glm_ivec2_sub : IEntry := ⟨CI.glm_ivec2_sub, [.inp 2, .inp 2, .out 2], .void⟩
theorem glm_ivec2_sub_ok : glm_ivec2_sub.ok = true := by kernel_rfl
/-- the parameters of `glm_ivec2_subs`: include/cglm/ivec2.h:197-202 -/
def glm_ivec2_subs : IEntry := ⟨CI.glm_ivec2_subs, [.inp 2, .i, .out 2], .void⟩
theorem glm_ivec2_subs_ok : glm_ivec2_subs.ok = true := by kernel_rfl
/-- the parameters of `glm_ivec2_mul`: include/cglm/ivec2.h:211-216 -/
def glm_ivec2_mul : IEntry := ⟨CI.glm_ivec2_mul, [.inp 2, .inp 2, .out 2], .void⟩
theorem glm_ivec2_mul_ok : glm_ivec2_mul.ok = true := by kernel_rfl
/-- the parameters of `glm_ivec2_scale`: include/cglm/ivec2.h:225-230 -/
def glm_ivec2_scale : IEntry := ⟨CI.glm_ivec2_scale, [.inp 2, .i, .out 2], .void⟩
theorem glm_ivec2_scale_ok : glm_ivec2_scale.ok = true := by kernel_rfl
/-- the parameters of `glm_ivec2_div`: include/cglm/ivec2.h:239-244 -/
def glm_ivec2_div : IEntry := ⟨CI.glm_ivec2_div, [.inp 2, .inp 2, .out 2], .void⟩
theorem glm_ivec2_div_ok : glm_ivec2_div.ok = true := by kernel_rfl
/-- the parameters of `glm_ivec2_divs`: include/cglm/ivec2.h:253-258 -/
def glm_ivec2_divs : IEntry := ⟨CI.glm_ivec2_divs, [.inp 2, .i, .out 2], .void⟩
theorem glm_ivec2_divs_ok : glm_ivec2_divs.ok = true := by kernel_rfl
/-- the parameters of `glm_ivec2_mod`: include/cglm/ivec2.h:267-272 -/
def glm_ivec2_mod : IEntry := ⟨CI.glm_ivec2_mod, [.inp 2, .inp 2, .out 2], .void⟩
theorem glm_ivec2_mod_ok : glm_ivec2_mod.ok = true := by kernel_rfl
/-- the parameters of `glm_ivec2_addadd`: include/cglm/ivec2.h:283-288 -/
def glm_ivec2_addadd : IEntry := ⟨CI.glm_ivec2_addadd, [.inp 2, .inp 2, .io 2], .void⟩
theorem glm_ivec2_addadd_ok : glm_ivec2_addadd.ok = true := by kernel_rfl
/-- the parameters of `glm_ivec2_addadds`: include/cglm/ivec2.h:299-304 -/
def glm_ivec2_addadds : IEntry := ⟨CI.glm_ivec2_addadds, [.inp 2, .i, .io 2], .void⟩
theorem glm_ivec2_addadds_ok : glm_ivec2_addadds.ok = true := by kernel_rfl
/-- the parameters of `glm_ivec2_subadd`: include/cglm/ivec2.h:315-320 -/
def glm_ivec2_subadd : IEntry := ⟨CI.glm_ivec2_subadd, [.inp 2, .inp 2, .io 2], .void⟩
theorem glm_ivec2_subadd_ok : glm_ivec2_subadd.ok = true := by kernel_rfl
/-- the parameters of `glm_ivec2_subadds`: include/cglm/ivec2.h:331-336 -/
def glm_ivec2_subadds : IEntry := ⟨CI.glm_ivec2_subadds, [.inp 2, .i, .io 2], .void⟩
theorem glm_ivec2_subadds_ok : glm_ivec2_subadds.ok = true := by kernel_rfl
/-- the parameters of `glm_ivec2_muladd`: include/cglm/ivec2.h:347-352 -/
def glm_ivec2_muladd : IEntry := ⟨CI.glm_ivec2_muladd, [.inp 2, .inp 2, .io 2], .void⟩
theorem glm_ivec2_muladd_ok : glm_ivec2_muladd.ok = true := by kernel_rfl
/-- the parameters of `glm_ivec2_muladds`: include/cglm/ivec2.h:363-368 -/
def glm_ivec2_muladds : IEntry := ⟨CI.glm_ivec2_muladds, [.inp 2, .i, .io 2], .void⟩
theorem glm_ivec2_muladds_ok : glm_ivec2_muladds.ok = true := by kernel_rfl
/-- the parameters of `glm_ivec2_maxadd`: include/cglm/ivec2.h:379-384 -/
def glm_ivec2_maxadd : IEntry := ⟨CI.glm_ivec2_maxadd, [.inp 2, .inp 2, .io 2], .void⟩
theorem glm_ivec2_maxadd_ok : glm_ivec2_maxadd.ok = true := by kernel_rfl
/-- the parameters of `glm_ivec2_minadd`: include/cglm/ivec2.h:395-400 -/
def glm_ivec2_minadd : IEntry := ⟨CI.glm_ivec2_minadd, [.inp 2, .inp 2, .io 2], .void⟩
theorem glm_ivec2_minadd_ok : glm_ivec2_minadd.ok = true := by kernel_rfl
/-- the parameters of `glm_ivec2_subsub`: include/cglm/ivec2.h:411-416 -/
def glm_ivec2_subsub : IEntry := ⟨CI.glm_ivec2_subsub, [.inp 2, .inp 2, .io 2], .void⟩
theorem glm_ivec2_subsub_ok : glm_ivec2_subsub.ok = true := by kernel_rfl
/-- the parameters of `glm_ivec2_subsubs`: include/cglm/ivec2.h:427-432 -/
def glm_ivec2_subsubs : IEntry := ⟨CI.glm_ivec2_subsubs, [.inp 2, .i, .io 2], .void⟩
theorem glm_ivec2_subsubs_ok : glm_ivec2_subsubs.ok = true := by kernel_rfl
/-- the parameters of `glm_ivec2_addsub`: include/cglm/ivec2.h:443-448 -/
def glm_ivec2_addsub : IEntry := ⟨CI.glm_ivec2_addsub, [.inp 2, .inp 2, .io 2], .void⟩
theorem glm_ivec2_addsub_ok : glm_ivec2_addsub.ok = true := by kernel_rfl
/-- the parameters of `glm_ivec2_addsubs`: include/cglm/ivec2.h:459-464 -/
def glm_ivec2_addsubs : IEntry := ⟨CI.glm_ivec2_addsubs, [.inp 2, .i, .io 2], .void⟩
theorem glm_ivec2_addsubs_ok : glm_ivec2_addsubs.ok = true := by kernel_rfl
/-- the parameters of `glm_ivec2_mulsub`: include/cglm/ivec2.h:475-480 -/
def glm_ivec2_mulsub : IEntry := ⟨CI.glm_ivec2_mulsub, [.inp 2, .inp 2, .io 2], .void⟩
theorem glm_ivec2_mulsub_ok : glm_ivec2_mulsub.ok = true := by kernel_rfl
/-- the parameters of `glm_ivec2_mulsubs`: include/cglm/ivec2.h:491-496 -/
def glm_ivec2_mulsubs : IEntry := ⟨CI.glm_ivec2_mulsubs, [.inp 2, .i, .io 2], .void⟩
theorem glm_ivec2_mulsubs_ok : glm_ivec2_mulsubs.ok = true := by kernel_rfl
/-- the parameters of `glm_ivec2_maxsub`: include/cglm/ivec2.h:507-512 -/
def glm_ivec2_maxsub : IEntry := ⟨CI.glm_ivec2_maxsub, [.inp 2, .inp 2, .io 2], .void⟩
theorem glm_ivec2_maxsub_ok : glm_ivec2_maxsub.ok = true := by kernel_rfl
/-- the parameters of `glm_ivec2_minsub`: include/cglm/ivec2.h:523-528 -/
def glm_ivec2_minsub : IEntry := ⟨CI.glm_ivec2_minsub, [.inp 2, .inp 2, .io 2], .void⟩
theorem glm_ivec2_minsub_ok : glm_ivec2_minsub.ok = true := by kernel_rfl
/-- the parameters of `glm_ivec2_distance2`: include/cglm/ivec2.h:537-544 -/
def glm_ivec2_distance2 : IEntry := ⟨CI.glm_ivec2_distance2, [.inp 2, .inp 2], .int⟩
theorem glm_ivec2_distance2_ok : glm_ivec2_distance2.ok = true := by kernel_rfl
/-- the parameters of `glm_ivec2_distance`: include/cglm/ivec2.h:553-557 -/
def glm_ivec2_distance : IEntry := ⟨CI.glm_ivec2_distance, [.inp 2, .inp 2], .float⟩
theorem glm_ivec2_distance_ok : glm_ivec2_distance.ok = true := by kernel_rfl
/-- the parameters of `glm_ivec2_fill`: include/cglm/ivec2.h:566-570 -/
def glm_ivec2_fill : IEntry := ⟨CI.glm_ivec2_fill, [.out 2, .i], .void⟩
theorem glm_ivec2_fill_ok : glm_ivec2_fill.ok = true := by kernel_rfl
/-- the parameters of `glm_ivec2_eq`: include/cglm/ivec2.h:578-582 -/
def glm_ivec2_eq : IEntry := ⟨CI.glm_ivec2_eq, [.inp 2, .i], .bool⟩
theorem glm_ivec2_eq_ok : glm_ivec2_eq.ok = true := by kernel_rfl
/-- the parameters of `glm_ivec2_eqv`: include/cglm/ivec2.h:590-595 -/
def glm_ivec2_eqv : IEntry := ⟨CI.glm_ivec2_eqv, [.inp 2, .inp 2], .bool⟩
theorem glm_ivec2_eqv_ok : glm_ivec2_eqv.ok = true := by kernel_rfl
/-- the parameters of `glm_ivec2_maxv`: include/cglm/ivec2.h:604-609 -/
def glm_ivec2_maxv : IEntry := ⟨CI.glm_ivec2_maxv, [.inp 2, .inp 2, .out 2], .void⟩
theorem glm_ivec2_maxv_ok : glm_ivec2_maxv.ok = true := by kernel_rfl
/-- the parameters of `glm_ivec2_minv`: include/cglm/ivec2.h:618-623 -/
def glm_ivec2_minv : IEntry := ⟨CI.glm_ivec2_minv, [.inp 2, .inp 2, .out 2], .void⟩
theorem glm_ivec2_minv_ok : glm_ivec2_minv.ok = true := by kernel_rfl
/-- the parameters of `glm_ivec2_clamp`: include/cglm/ivec2.h:632-644 -/
def glm_ivec2_clamp : IEntry := ⟨CI.glm_ivec2_clamp, [.io 2, .i, .i], .void⟩
theorem glm_ivec2_clamp_ok : glm_ivec2_clamp.ok = true := by kernel_rfl
/-- the parameters of `glm_ivec2_abs`: include/cglm/ivec2.h:652-657 -/
def glm_ivec2_abs : IEntry := ⟨CI.glm_ivec2_abs, [.inp 2, .out 2], .void⟩
theorem glm_ivec2_abs_ok : glm_ivec2_abs.ok = true := by kernel_rfl

/-! ## include/cglm/ivec3.h -/

/-- the parameters of `glm_ivec3`: include/cglm/ivec3.h:77-83 -/
def glm_ivec3 : IEntry := ⟨CI.glm_ivec3, [.inp 4, .out 3], .void⟩
theorem glm_ivec3_ok : glm_ivec3.ok = true := by kernel_rfl
/-- the parameters of `glm_ivec3_copy`: include/cglm/ivec3.h:91-97 -/
def glm_ivec3_copy : IEntry := ⟨CI.glm_ivec3_copy, [.inp 3, .out 3], .void⟩
theorem glm_ivec3_copy_ok : glm_ivec3_copy.ok = true := by kernel_rfl
/-- the parameters of `glm_ivec3_zero`: include/cglm/ivec3.h:104-108 -/
def glm_ivec3_zero : IEntry := ⟨CI.glm_ivec3_zero, [.out 3], .void⟩
theorem glm_ivec3_zero_ok : glm_ivec3_zero.ok = true := by kernel_rfl
/-- the parameters of `glm_ivec3_one`: include/cglm/ivec3.h:115-119 -/
def glm_ivec3_one : IEntry := ⟨CI.glm_ivec3_one, [.out 3], .void⟩
theorem glm_ivec3_one_ok : glm_ivec3_one.ok = true := by kernel_rfl
/-- the parameters of `glm_ivec3_dot`: include/cglm/ivec3.h:129-133 -/
def glm_ivec3_dot : IEntry := ⟨CI.glm_ivec3_dot, [.inp 3, .inp 3], .int⟩
theorem glm_ivec3_dot_ok : glm_ivec3_dot.ok = true := by kernel_rfl
/-- the parameters of `glm_ivec3_norm2`: include/cglm/ivec3.h:146-150 -/
def glm_ivec3_norm2 : IEntry := ⟨CI.glm_ivec3_norm2, [.inp 3], .int⟩
theorem glm_ivec3_norm2_ok : glm_ivec3_norm2.ok = true := by kernel_rfl
/-- the parameters of `glm_ivec3_norm`: include/cglm/ivec3.h:160-164 -/
def glm_ivec3_norm : IEntry := ⟨CI.glm_ivec3_norm, [.inp 3], .int⟩
theorem glm_ivec3_norm_ok : glm_ivec3_norm.ok = true := by kernel_rfl
/-- the parameters of `glm_ivec3_add`: include/cglm/ivec3.h:173-179 -/
def glm_ivec3_add : IEntry := ⟨CI.glm_ivec3_add, [.inp 3, .inp 3, .out 3], .void⟩
theorem glm_ivec3_add_ok : glm_ivec3_add.ok = true := by kernel_rfl
/-- the parameters of `glm_ivec3_adds`: include/cglm/ivec3.h:188-194 -/
def glm_ivec3_adds : IEntry := ⟨CI.glm_ivec3_adds, [.inp 3, .i, .out 3], .void⟩
theorem glm_ivec3_adds_ok : glm_ivec3_adds.ok = true := by kernel_rfl
/-- the parameters of `glm_ivec3_sub`: include/cglm/ivec3.h:203-209 -/
def glm_ivec3_sub : IEntry := ⟨CI.glm_ivec3_sub, [.inp 3, .inp 3, .out 3], .void⟩
theorem glm_ivec3_sub_ok : glm_ivec3_sub.ok = true := by kernel_rfl
/-- the parameters of `glm_ivec3_subs`: include/cglm/ivec3.h:218-224 -/
def glm_ivec3_subs : IEntry := ⟨CI.glm_ivec3_subs, [.inp 3, .i, .out 3], .void⟩
theorem glm_ivec3_subs_ok : glm_ivec3_subs.ok = true := by kernel_rfl
/-- the parameters of `glm_ivec3_mul`: include/cglm/ivec3.h:233-239 -/
def glm_ivec3_mul : IEntry := ⟨CI.glm_ivec3_mul, [.inp 3, .inp 3, .out 3], .void⟩
theorem glm_ivec3_mul_ok : glm_ivec3_mul.ok = true := by kernel_rfl
/-- the parameters of `glm_ivec3_scale`: include/cglm/ivec3.h:248-254 -/
def glm_ivec3_scale : IEntry := ⟨CI.glm_ivec3_scale, [.inp 3, .i, .out 3], .void⟩
theorem glm_ivec3_scale_ok : glm_ivec3_scale.ok = true := by kernel_rfl
/-- the parameters of `glm_ivec3_div`: include/cglm/ivec3.h:263-269 -/
def glm_ivec3_div : IEntry := ⟨CI.glm_ivec3_div, [.inp 3, .inp 3, .out 3], .void⟩
theorem glm_ivec3_div_ok : glm_ivec3_div.ok = true := by kernel_rfl
/-- the parameters of `glm_ivec3_divs`: include/cglm/ivec3.h:278-284 -/
def glm_ivec3_divs : IEntry := ⟨CI.glm_ivec3_divs, [.inp 3, .i, .out 3], .void⟩
theorem glm_ivec3_divs_ok : glm_ivec3_divs.ok = true := by kernel_rfl
/-- the parameters of `glm_ivec3_mod`: include/cglm/ivec3.h:295-301 -/
def glm_ivec3_mod : IEntry := ⟨CI.glm_ivec3_mod, [.inp 3, .inp 3, .out 3], .void⟩
theorem glm_ivec3_mod_ok : glm_ivec3_mod.ok = true := by kernel_rfl
/-- the parameters of `glm_ivec3_addadd`: include/cglm/ivec3.h:312-318 -/
def glm_ivec3_addadd : IEntry := ⟨CI.glm_ivec3_addadd, [.inp 3, .inp 3, .io 3], .void⟩
theorem glm_ivec3_addadd_ok : glm_ivec3_addadd.ok = true := by kernel_rfl
/-- the parameters of `glm_ivec3_addadds`: include/cglm/ivec3.h:329-335 -/
def glm_ivec3_addadds : IEntry := ⟨CI.glm_ivec3_addadds, [.inp 3, .i, .io 3], .void⟩
theorem glm_ivec3_addadds_ok : glm_ivec3_addadds.ok = true := by kernel_rfl
/-- the parameters of `glm_ivec3_subadd`: include/cglm/ivec3.h:346-352 -/
def glm_ivec3_subadd : IEntry := ⟨CI.glm_ivec3_subadd, [.inp 3, .inp 3, .io 3], .void⟩
theorem glm_ivec3_subadd_ok : glm_ivec3_subadd.ok = true := by kernel_rfl
/-- the parameters of `glm_ivec3_subadds`: include/cglm/ivec3.h:363-369 -/
def glm_ivec3_subadds : IEntry := ⟨CI.glm_ivec3_subadds, [.inp 3, .i, .io 3], .void⟩
theorem glm_ivec3_subadds_ok : glm_ivec3_subadds.ok = true := by kernel_rfl
/-- the parameters of `glm_ivec3_muladd`: include/cglm/ivec3.h:380-386 -/
def glm_ivec3_muladd : IEntry := ⟨CI.glm_ivec3_muladd, [.inp 3, .inp 3, .io 3], .void⟩
theorem glm_ivec3_muladd_ok : glm_ivec3_muladd.ok = true := by kernel_rfl
/-- the parameters of `glm_ivec3_muladds`: include/cglm/ivec3.h:397-403 -/
def glm_ivec3_muladds : IEntry := ⟨CI.glm_ivec3_muladds, [.inp 3, .i, .io 3], .void⟩
theorem glm_ivec3_muladds_ok : glm_ivec3_muladds.ok = true := by kernel_rfl
/-- the parameters of `glm_ivec3_maxadd`: include/cglm/ivec3.h:414-420 -/
def glm_ivec3_maxadd : IEntry := ⟨CI.glm_ivec3_maxadd, [.inp 3, .inp 3, .io 3], .void⟩
theorem glm_ivec3_maxadd_ok : glm_ivec3_maxadd.ok = true := by kernel_rfl
/-- the parameters of `glm_ivec3_minadd`: include/cglm/ivec3.h:431-437 -/
def glm_ivec3_minadd : IEntry := ⟨CI.glm_ivec3_minadd, [.inp 3, .inp 3, .io 3], .void⟩
theorem glm_ivec3_minadd_ok : glm_ivec3_minadd.ok = true := by kernel_rfl
/-- the parameters of `glm_ivec3_subsub`: include/cglm/ivec3.h:448-454 -/
def glm_ivec3_subsub : IEntry := ⟨CI.glm_ivec3_subsub, [.inp 3, .inp 3, .io 3], .void⟩
theorem glm_ivec3_subsub_ok : glm_ivec3_subsub.ok = true := by kernel_rfl
/-- the parameters of `glm_ivec3_subsubs`: include/cglm/ivec3.h:465-471 -/
def glm_ivec3_subsubs : IEntry := ⟨CI.glm_ivec3_subsubs, [.inp 3, .i, .io 3], .void⟩
theorem glm_ivec3_subsubs_ok : glm_ivec3_subsubs.ok = true := by kernel_rfl
/-- the parameters of `glm_ivec3_addsub`: include/cglm/ivec3.h:482-488 -/
def glm_ivec3_addsub : IEntry := ⟨CI.glm_ivec3_addsub, [.inp 3, .inp 3, .io 3], .void⟩
theorem glm_ivec3_addsub_ok : glm_ivec3_addsub.ok = true := by kernel_rfl
/-- the parameters of `glm_ivec3_addsubs`: include/cglm/ivec3.h:499-505 -/
def glm_ivec3_addsubs : IEntry := ⟨CI.glm_ivec3_addsubs, [.inp 3, .i, .io 3], .void⟩
theorem glm_ivec3_addsubs_ok : glm_ivec3_addsubs.ok = true := by kernel_rfl
/-- the parameters of `glm_ivec3_mulsub`: include/cglm/ivec3.h:516-522 -/
def glm_ivec3_mulsub : IEntry := ⟨CI.glm_ivec3_mulsub, [.inp 3, .inp 3, .io 3], .void⟩
theorem glm_ivec3_mulsub_ok : glm_ivec3_mulsub.ok = true := by kernel_rfl
/-- the parameters of `glm_ivec3_mulsubs`: include/cglm/ivec3.h:533-539 -/
def glm_ivec3_mulsubs : IEntry := ⟨CI.glm_ivec3_mulsubs, [.inp 3, .i, .io 3], .void⟩
theorem glm_ivec3_mulsubs_ok : glm_ivec3_mulsubs.ok = true := by kernel_rfl
/-- the parameters of `glm_ivec3_maxsub`: include/cglm/ivec3.h:550-556 -/
def glm_ivec3_maxsub : IEntry := ⟨CI.glm_ivec3_maxsub, [.inp 3, .inp 3, .io 3], .void⟩
theorem glm_ivec3_maxsub_ok : glm_ivec3_maxsub.ok = true := by kernel_rfl
/-- the parameters of `glm_ivec3_minsub`: include/cglm/ivec3.h:567-573 -/
def glm_ivec3_minsub : IEntry := ⟨CI.glm_ivec3_minsub, [.inp 3, .inp 3, .io 3], .void⟩
theorem glm_ivec3_minsub_ok : glm_ivec3_minsub.ok = true := by kernel_rfl
/-- the parameters of `glm_ivec3_distance2`: include/cglm/ivec3.h:582-590 -/
def glm_ivec3_distance2 : IEntry := ⟨CI.glm_ivec3_distance2, [.inp 3, .inp 3], .int⟩
theorem glm_ivec3_distance2_ok : glm_ivec3_distance2.ok = true := by kernel_rfl
/-- the parameters of `glm_ivec3_distance`: include/cglm/ivec3.h:599-603 -/
def glm_ivec3_distance : IEntry := ⟨CI.glm_ivec3_distance, [.inp 3, .inp 3], .float⟩
theorem glm_ivec3_distance_ok : glm_ivec3_distance.ok = true := by kernel_rfl
/-- the parameters of `glm_ivec3_fill`: include/cglm/ivec3.h:611-615 -/
def glm_ivec3_fill : IEntry := ⟨CI.glm_ivec3_fill, [.out 3, .i], .void⟩
theorem glm_ivec3_fill_ok : glm_ivec3_fill.ok = true := by kernel_rfl
/-- the parameters of `glm_ivec3_eq`: include/cglm/ivec3.h:623-627 -/
def glm_ivec3_eq : IEntry := ⟨CI.glm_ivec3_eq, [.inp 3, .i], .bool⟩
theorem glm_ivec3_eq_ok : glm_ivec3_eq.ok = true := by kernel_rfl
/-- the parameters of `glm_ivec3_eqv`: include/cglm/ivec3.h:635-641 -/
def glm_ivec3_eqv : IEntry := ⟨CI.glm_ivec3_eqv, [.inp 3, .inp 3], .bool⟩
theorem glm_ivec3_eqv_ok : glm_ivec3_eqv.ok = true := by kernel_rfl
/-- the parameters of `glm_ivec3_maxv`: include/cglm/ivec3.h:650-656 -/
def glm_ivec3_maxv : IEntry := ⟨CI.glm_ivec3_maxv, [.inp 3, .inp 3, .out 3], .void⟩
theorem glm_ivec3_maxv_ok : glm_ivec3_maxv.ok = true := by kernel_rfl
/-- the parameters of `glm_ivec3_minv`: include/cglm/ivec3.h:665-671 -/
def glm_ivec3_minv : IEntry := ⟨CI.glm_ivec3_minv, [.inp 3, .inp 3, .out 3], .void⟩
theorem glm_ivec3_minv_ok : glm_ivec3_minv.ok = true := by kernel_rfl
/-- the parameters of `glm_ivec3_clamp`: include/cglm/ivec3.h:680-697 -/
def glm_ivec3_clamp : IEntry := ⟨CI.glm_ivec3_clamp, [.io 3, .i, .i], .void⟩
theorem glm_ivec3_clamp_ok : glm_ivec3_clamp.ok = true := by kernel_rfl
/-- the parameters of `glm_ivec3_abs`: include/cglm/ivec3.h:705-711 -/
def glm_ivec3_abs : IEntry := ⟨CI.glm_ivec3_abs, [.inp 3, .out 3], .void⟩
theorem glm_ivec3_abs_ok : glm_ivec3_abs.ok = true := by kernel_rfl

/-! ## include/cglm/ivec4.h -/

/-- the parameters of `glm_ivec4`: include/cglm/ivec4.h:69-76 -/
def glm_ivec4 : IEntry := ⟨CI.glm_ivec4, [.inp 3, .i, .out 4], .void⟩
theorem glm_ivec4_ok : glm_ivec4.ok = true := by kernel_rfl
/-- the parameters of `glm_ivec4_copy`: include/cglm/ivec4.h:84-91 -/
def glm_ivec4_copy : IEntry := ⟨CI.glm_ivec4_copy, [.inp 4, .out 4], .void⟩
theorem glm_ivec4_copy_ok : glm_ivec4_copy.ok = true := by kernel_rfl
/-- the parameters of `glm_ivec4_zero`: include/cglm/ivec4.h:98-102 -/
def glm_ivec4_zero : IEntry := ⟨CI.glm_ivec4_zero, [.out 4], .void⟩
theorem glm_ivec4_zero_ok : glm_ivec4_zero.ok = true := by kernel_rfl
/-- the parameters of `glm_ivec4_one`: include/cglm/ivec4.h:109-113 -/
def glm_ivec4_one : IEntry := ⟨CI.glm_ivec4_one, [.out 4], .void⟩
theorem glm_ivec4_one_ok : glm_ivec4_one.ok = true := by kernel_rfl
/-- the parameters of `glm_ivec4_add`: include/cglm/ivec4.h:122-129 -/
def glm_ivec4_add : IEntry := ⟨CI.glm_ivec4_add, [.inp 4, .inp 4, .out 4], .void⟩
theorem glm_ivec4_add_ok : glm_ivec4_add.ok = true := by kernel_rfl
/-- the parameters of `glm_ivec4_adds`: include/cglm/ivec4.h:138-145 -/
def glm_ivec4_adds : IEntry := ⟨CI.glm_ivec4_adds, [.inp 4, .i, .out 4], .void⟩
theorem glm_ivec4_adds_ok : glm_ivec4_adds.ok = true := by kernel_rfl
/-- the parameters of `glm_ivec4_sub`: include/cglm/ivec4.h:154-161 -/
def glm_ivec4_sub : IEntry := ⟨CI.glm_ivec4_sub, [.inp 4, .inp 4, .out 4], .void⟩
theorem glm_ivec4_sub_ok : glm_ivec4_sub.ok = true := by kernel_rfl
/-- the parameters of `glm_ivec4_subs`: include/cglm/ivec4.h:170-177 -/
def glm_ivec4_subs : IEntry := ⟨CI.glm_ivec4_subs, [.inp 4, .i, .out 4], .void⟩
theorem glm_ivec4_subs_ok : glm_ivec4_subs.ok = true := by kernel_rfl
/-- the parameters of `glm_ivec4_mul`: include/cglm/ivec4.h:186-193 -/
def glm_ivec4_mul : IEntry := ⟨CI.glm_ivec4_mul, [.inp 4, .inp 4, .out 4], .void⟩
theorem glm_ivec4_mul_ok : glm_ivec4_mul.ok = true := by kernel_rfl
/-- the parameters of `glm_ivec4_scale`: include/cglm/ivec4.h:202-209 -/
def glm_ivec4_scale : IEntry := ⟨CI.glm_ivec4_scale, [.inp 4, .i, .out 4], .void⟩
theorem glm_ivec4_scale_ok : glm_ivec4_scale.ok = true := by kernel_rfl
/-- the parameters of `glm_ivec4_addadd`: include/cglm/ivec4.h:220-227 -/
def glm_ivec4_addadd : IEntry := ⟨CI.glm_ivec4_addadd, [.inp 4, .inp 4, .io 4], .void⟩
theorem glm_ivec4_addadd_ok : glm_ivec4_addadd.ok = true := by kernel_rfl
/-- the parameters of `glm_ivec4_addadds`: include/cglm/ivec4.h:238-245 -/
def glm_ivec4_addadds : IEntry := ⟨CI.glm_ivec4_addadds, [.inp 4, .i, .io 4], .void⟩
theorem glm_ivec4_addadds_ok : glm_ivec4_addadds.ok = true := by kernel_rfl
/-- the parameters of `glm_ivec4_subadd`: include/cglm/ivec4.h:256-263 -/
def glm_ivec4_subadd : IEntry := ⟨CI.glm_ivec4_subadd, [.inp 4, .inp 4, .io 4], .void⟩
theorem glm_ivec4_subadd_ok : glm_ivec4_subadd.ok = true := by kernel_rfl
/-- the parameters of `glm_ivec4_subadds`: include/cglm/ivec4.h:274-281 -/
def glm_ivec4_subadds : IEntry := ⟨CI.glm_ivec4_subadds, [.inp 4, .i, .io 4], .void⟩
theorem glm_ivec4_subadds_ok : glm_ivec4_subadds.ok = true := by kernel_rfl
/-- the parameters of `glm_ivec4_muladd`: include/cglm/ivec4.h:292-299 -/
def glm_ivec4_muladd : IEntry := ⟨CI.glm_ivec4_muladd, [.inp 4, .inp 4, .io 4], .void⟩
theorem glm_ivec4_muladd_ok : glm_ivec4_muladd.ok = true := by kernel_rfl
/-- the parameters of `glm_ivec4_muladds`: include/cglm/ivec4.h:310-317 -/
def glm_ivec4_muladds : IEntry := ⟨CI.glm_ivec4_muladds, [.inp 4, .i, .io 4], .void⟩
theorem glm_ivec4_muladds_ok : glm_ivec4_muladds.ok = true := by kernel_rfl
/-- the parameters of `glm_ivec4_maxadd`: include/cglm/ivec4.h:328-335 -/
def glm_ivec4_maxadd : IEntry := ⟨CI.glm_ivec4_maxadd, [.inp 4, .inp 4, .io 4], .void⟩
theorem glm_ivec4_maxadd_ok : glm_ivec4_maxadd.ok = true := by kernel_rfl
/-- the parameters of `glm_ivec4_minadd`: include/cglm/ivec4.h:346-353 -/
def glm_ivec4_minadd : IEntry := ⟨CI.glm_ivec4_minadd, [.inp 4, .inp 4, .io 4], .void⟩
theorem glm_ivec4_minadd_ok : glm_ivec4_minadd.ok = true := by kernel_rfl
/-- the parameters of `glm_ivec4_subsub`: include/cglm/ivec4.h:364-371 -/
def glm_ivec4_subsub : IEntry := ⟨CI.glm_ivec4_subsub, [.inp 4, .inp 4, .io 4], .void⟩
theorem glm_ivec4_subsub_ok : glm_ivec4_subsub.ok = true := by kernel_rfl
/-- the parameters of `glm_ivec4_subsubs`: include/cglm/ivec4.h:382-389 -/
def glm_ivec4_subsubs : IEntry := ⟨CI.glm_ivec4_subsubs, [.inp 4, .i, .io 4], .void⟩
theorem glm_ivec4_subsubs_ok : glm_ivec4_subsubs.ok = true := by kernel_rfl
/-- the parameters of `glm_ivec4_addsub`: include/cglm/ivec4.h:400-407 -/
def glm_ivec4_addsub : IEntry := ⟨CI.glm_ivec4_addsub, [.inp 4, .inp 4, .io 4], .void⟩
theorem glm_ivec4_addsub_ok : glm_ivec4_addsub.ok = true := by kernel_rfl
/-- the parameters of `glm_ivec4_addsubs`: include/cglm/ivec4.h:418-425 -/
def glm_ivec4_addsubs : IEntry := ⟨CI.glm_ivec4_addsubs, [.inp 4, .i, .io 4], .void⟩
theorem glm_ivec4_addsubs_ok : glm_ivec4_addsubs.ok = true := by kernel_rfl
/-- the parameters of `glm_ivec4_mulsub`: include/cglm/ivec4.h:436-443 -/
def glm_ivec4_mulsub : IEntry := ⟨CI.glm_ivec4_mulsub, [.inp 4, .inp 4, .io 4], .void⟩
theorem glm_ivec4_mulsub_ok : glm_ivec4_mulsub.ok = true := by kernel_rfl
/-- the parameters of `glm_ivec4_mulsubs`: include/cglm/ivec4.h:454-461 -/
def glm_ivec4_mulsubs : IEntry := ⟨CI.glm_ivec4_mulsubs, [.inp 4, .i, .io 4], .void⟩
theorem glm_ivec4_mulsubs_ok : glm_ivec4_mulsubs.ok = true := by kernel_rfl
/-- the parameters of `glm_ivec4_maxsub`: include/cglm/ivec4.h:472-479 -/
def glm_ivec4_maxsub : IEntry := ⟨CI.glm_ivec4_maxsub, [.inp 4, .inp 4, .io 4], .void⟩
theorem glm_ivec4_maxsub_ok : glm_ivec4_maxsub.ok = true := by kernel_rfl
/-- the parameters of `glm_ivec4_minsub`: include/cglm/ivec4.h:490-497 -/
def glm_ivec4_minsub : IEntry := ⟨CI.glm_ivec4_minsub, [.inp 4, .inp 4, .io 4], .void⟩
theorem glm_ivec4_minsub_ok : glm_ivec4_minsub.ok = true := by kernel_rfl
/-- the parameters of `glm_ivec4_distance2`: include/cglm/ivec4.h:506-515 -/
def glm_ivec4_distance2 : IEntry := ⟨CI.glm_ivec4_distance2, [.inp 4, .inp 4], .int⟩
theorem glm_ivec4_distance2_ok : glm_ivec4_distance2.ok = true := by kernel_rfl
/-- the parameters of `glm_ivec4_distance`: include/cglm/ivec4.h:524-528 -/
def glm_ivec4_distance : IEntry := ⟨CI.glm_ivec4_distance, [.inp 4, .inp 4], .float⟩
theorem glm_ivec4_distance_ok : glm_ivec4_distance.ok = true := by kernel_rfl
/-- the parameters of `glm_ivec4_maxv`: include/cglm/ivec4.h:537-544 -/
def glm_ivec4_maxv : IEntry := ⟨CI.glm_ivec4_maxv, [.inp 4, .inp 4, .out 4], .void⟩
theorem glm_ivec4_maxv_ok : glm_ivec4_maxv.ok = true := by kernel_rfl
/-- the parameters of `glm_ivec4_minv`: include/cglm/ivec4.h:553-560 -/
def glm_ivec4_minv : IEntry := ⟨CI.glm_ivec4_minv, [.inp 4, .inp 4, .out 4], .void⟩
theorem glm_ivec4_minv_ok : glm_ivec4_minv.ok = true := by kernel_rfl
/-- the parameters of `glm_ivec4_clamp`: include/cglm/ivec4.h:569-591 -/
def glm_ivec4_clamp : IEntry := ⟨CI.glm_ivec4_clamp, [.io 4, .i, .i], .void⟩
theorem glm_ivec4_clamp_ok : glm_ivec4_clamp.ok = true := by kernel_rfl
/-- the parameters of `glm_ivec4_abs`: include/cglm/ivec4.h:599-606 -/
def glm_ivec4_abs : IEntry := ⟨CI.glm_ivec4_abs, [.inp 4, .out 4], .void⟩
theorem glm_ivec4_abs_ok : glm_ivec4_abs.ok = true := by kernel_rfl

def part1 : List IEntry := [glm_sign, glm_imin, glm_imax, glm_ivec2, glm_ivec2_copy, glm_ivec2_zero, glm_ivec2_one, glm_ivec2_dot, glm_ivec2_cross, glm_ivec2_add, glm_ivec2_adds, glm_ivec2_sub, glm_ivec2_subs, glm_ivec2_mul, glm_ivec2_scale, glm_ivec2_div, glm_ivec2_divs, glm_ivec2_mod, glm_ivec2_addadd, glm_ivec2_addadds, glm_ivec2_subadd, glm_ivec2_subadds, glm_ivec2_muladd, glm_ivec2_muladds, glm_ivec2_maxadd, glm_ivec2_minadd, glm_ivec2_subsub, glm_ivec2_subsubs, glm_ivec2_addsub, glm_ivec2_addsubs, glm_ivec2_mulsub, glm_ivec2_mulsubs, glm_ivec2_maxsub, glm_ivec2_minsub, glm_ivec2_distance2, glm_ivec2_distance, glm_ivec2_fill, glm_ivec2_eq, glm_ivec2_eqv, glm_ivec2_maxv]
theorem part1_ok : part1.all IEntry.ok = true := by
  simp only [part1, List.all_cons, List.all_nil, glm_sign_ok, glm_imin_ok, glm_imax_ok, glm_ivec2_ok, glm_ivec2_copy_ok, glm_ivec2_zero_ok, glm_ivec2_one_ok, glm_ivec2_dot_ok, glm_ivec2_cross_ok, glm_ivec2_add_ok, glm_ivec2_adds_ok, glm_ivec2_sub_ok, glm_ivec2_subs_ok, glm_ivec2_mul_ok, glm_ivec2_scale_ok, glm_ivec2_div_ok, glm_ivec2_divs_ok, glm_ivec2_mod_ok, glm_ivec2_addadd_ok, glm_ivec2_addadds_ok, glm_ivec2_subadd_ok, glm_ivec2_subadds_ok, glm_ivec2_muladd_ok, glm_ivec2_muladds_ok, glm_ivec2_maxadd_ok, glm_ivec2_minadd_ok, glm_ivec2_subsub_ok, glm_ivec2_subsubs_ok, glm_ivec2_addsub_ok, glm_ivec2_addsubs_ok, glm_ivec2_mulsub_ok, glm_ivec2_mulsubs_ok, glm_ivec2_maxsub_ok, glm_ivec2_minsub_ok, glm_ivec2_distance2_ok, glm_ivec2_distance_ok, glm_ivec2_fill_ok, glm_ivec2_eq_ok, glm_ivec2_eqv_ok, glm_ivec2_maxv_ok, Bool.and_self]
def part2 : List IEntry := [glm_ivec2_minv, glm_ivec2_clamp, glm_ivec2_abs, glm_ivec3, glm_ivec3_copy, glm_ivec3_zero, glm_ivec3_one, glm_ivec3_dot, glm_ivec3_norm2, glm_ivec3_norm, glm_ivec3_add, glm_ivec3_adds, glm_ivec3_sub, glm_ivec3_subs, glm_ivec3_mul, glm_ivec3_scale, glm_ivec3_div, glm_ivec3_divs, glm_ivec3_mod, glm_ivec3_addadd, glm_ivec3_addadds, glm_ivec3_subadd, glm_ivec3_subadds, glm_ivec3_muladd, glm_ivec3_muladds, glm_ivec3_maxadd, glm_ivec3_minadd, glm_ivec3_subsub, glm_ivec3_subsubs, glm_ivec3_addsub, glm_ivec3_addsubs, glm_ivec3_mulsub, glm_ivec3_mulsubs, glm_ivec3_maxsub, glm_ivec3_minsub, glm_ivec3_distance2, glm_ivec3_distance, glm_ivec3_fill, glm_ivec3_eq, glm_ivec3_eqv]
theorem part2_ok : part2.all IEntry.ok = true := by
  simp only [part2, List.all_cons, List.all_nil, glm_ivec2_minv_ok, glm_ivec2_clamp_ok, glm_ivec2_abs_ok, glm_ivec3_ok, glm_ivec3_copy_ok, glm_ivec3_zero_ok, glm_ivec3_one_ok, glm_ivec3_dot_ok, glm_ivec3_norm2_ok, glm_ivec3_norm_ok, glm_ivec3_add_ok, glm_ivec3_adds_ok, glm_ivec3_sub_ok, glm_ivec3_subs_ok, glm_ivec3_mul_ok, glm_ivec3_scale_ok, glm_ivec3_div_ok, glm_ivec3_divs_ok, glm_ivec3_mod_ok, glm_ivec3_addadd_ok, glm_ivec3_addadds_ok, glm_ivec3_subadd_ok, glm_ivec3_subadds_ok, glm_ivec3_muladd_ok, glm_ivec3_muladds_ok, glm_ivec3_maxadd_ok, glm_ivec3_minadd_ok, glm_ivec3_subsub_ok, glm_ivec3_subsubs_ok, glm_ivec3_addsub_ok, glm_ivec3_addsubs_ok, glm_ivec3_mulsub_ok, glm_ivec3_mulsubs_ok, glm_ivec3_maxsub_ok, glm_ivec3_minsub_ok, glm_ivec3_distance2_ok, glm_ivec3_distance_ok, glm_ivec3_fill_ok, glm_ivec3_eq_ok, glm_ivec3_eqv_ok, Bool.and_self]
def part3 : List IEntry := [glm_ivec3_maxv, glm_ivec3_minv, glm_ivec3_clamp, glm_ivec3_abs, glm_ivec4, glm_ivec4_copy, glm_ivec4_zero, glm_ivec4_one, glm_ivec4_add, glm_ivec4_adds, glm_ivec4_sub, glm_ivec4_subs, glm_ivec4_mul, glm_ivec4_scale, glm_ivec4_addadd, glm_ivec4_addadds, glm_ivec4_subadd, glm_ivec4_subadds, glm_ivec4_muladd, glm_ivec4_muladds, glm_ivec4_maxadd, glm_ivec4_minadd, glm_ivec4_subsub, glm_ivec4_subsubs, glm_ivec4_addsub, glm_ivec4_addsubs, glm_ivec4_mulsub, glm_ivec4_mulsubs, glm_ivec4_maxsub, glm_ivec4_minsub, glm_ivec4_distance2, glm_ivec4_distance, glm_ivec4_maxv, glm_ivec4_minv, glm_ivec4_clamp, glm_ivec4_abs]
theorem part3_ok : part3.all IEntry.ok = true := by
  simp only [part3, List.all_cons, List.all_nil, glm_ivec3_maxv_ok, glm_ivec3_minv_ok, glm_ivec3_clamp_ok, glm_ivec3_abs_ok, glm_ivec4_ok, glm_ivec4_copy_ok, glm_ivec4_zero_ok, glm_ivec4_one_ok, glm_ivec4_add_ok, glm_ivec4_adds_ok, glm_ivec4_sub_ok, glm_ivec4_subs_ok, glm_ivec4_mul_ok, glm_ivec4_scale_ok, glm_ivec4_addadd_ok, glm_ivec4_addadds_ok, glm_ivec4_subadd_ok, glm_ivec4_subadds_ok, glm_ivec4_muladd_ok, glm_ivec4_muladds_ok, glm_ivec4_maxadd_ok, glm_ivec4_minadd_ok, glm_ivec4_subsub_ok, glm_ivec4_subsubs_ok, glm_ivec4_addsub_ok, glm_ivec4_addsubs_ok, glm_ivec4_mulsub_ok, glm_ivec4_mulsubs_ok, glm_ivec4_maxsub_ok, glm_ivec4_minsub_ok, glm_ivec4_distance2_ok, glm_ivec4_distance_ok, glm_ivec4_maxv_ok, glm_ivec4_minv_ok, glm_ivec4_clamp_ok, glm_ivec4_abs_ok, Bool.and_self]

end LibI

/-- 116 functions -/
def ilib : List IEntry := LibI.part1 ++ LibI.part2 ++ LibI.part3

/-- the analysis accepts every function -/
theorem ilib_ok : ilib.all IEntry.ok = true := by
  simp only [ilib, List.all_append, LibI.part1_ok, LibI.part2_ok, LibI.part3_ok, Bool.and_self]

end Cglm.CMem
