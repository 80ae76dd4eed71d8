import Verif.Access
/-! Generated by tools/accgen.py from the headers and src; do not edit by hand. -/
namespace Cglm.Acc

/-- `glm_sign`: include/cglm/util.h:48-52 -/
def f_glm_sign : Fn := ⟨[],
  []⟩
/-- `glm_signf`: include/cglm/util.h:61-65 -/
def f_glm_signf : Fn := ⟨[],
  []⟩
/-- `glm_rad`: include/cglm/util.h:72-76 -/
def f_glm_rad : Fn := ⟨[],
  []⟩
/-- `glm_deg`: include/cglm/util.h:83-87 -/
def f_glm_deg : Fn := ⟨[],
  []⟩
/-- `glm_make_rad`: include/cglm/util.h:94-98 -/
def f_glm_make_rad : Fn := ⟨[],
  [rd 0 0, wr 0 0]⟩
/-- `glm_make_deg`: include/cglm/util.h:105-109 -/
def f_glm_make_deg : Fn := ⟨[],
  [rd 0 0, wr 0 0]⟩
/-- `glm_pow2`: include/cglm/util.h:116-120 -/
def f_glm_pow2 : Fn := ⟨[],
  []⟩
/-- `glm_min`: include/cglm/util.h:128-134 -/
def f_glm_min : Fn := ⟨[],
  []⟩
/-- `glm_max`: include/cglm/util.h:142-148 -/
def f_glm_max : Fn := ⟨[],
  []⟩
/-- `glm_imin`: include/cglm/util.h:158-164 -/
def f_glm_imin : Fn := ⟨[],
  []⟩
/-- `glm_imax`: include/cglm/util.h:174-180 -/
def f_glm_imax : Fn := ⟨[],
  []⟩
/-- `glm_clamp`: include/cglm/util.h:189-193 -/
def f_glm_clamp : Fn := ⟨[],
  [.call 8 [], .call 7 []]⟩
/-- `glm_clamp_zo`: include/cglm/util.h:200-204 -/
def f_glm_clamp_zo : Fn := ⟨[],
  [.call 11 []]⟩
/-- `glm_lerp`: include/cglm/util.h:215-219 -/
def f_glm_lerp : Fn := ⟨[],
  []⟩
/-- `glm_lerpc`: include/cglm/util.h:230-234 -/
def f_glm_lerpc : Fn := ⟨[],
  [.call 12 [], .call 13 []]⟩
/-- `glm_step`: include/cglm/util.h:243-253 -/
def f_glm_step : Fn := ⟨[],
  []⟩
/-- `glm_smooth`: include/cglm/util.h:262-266 -/
def f_glm_smooth : Fn := ⟨[],
  []⟩
/-- `glm_smoothstep`: include/cglm/util.h:277-283 -/
def f_glm_smoothstep : Fn := ⟨[],
  [.call 12 [], .call 16 []]⟩
/-- `glm_smoothinterp`: include/cglm/util.h:294-298 -/
def f_glm_smoothinterp : Fn := ⟨[],
  [.call 16 []]⟩
/-- `glm_smoothinterpc`: include/cglm/util.h:309-313 -/
def f_glm_smoothinterpc : Fn := ⟨[],
  [.call 12 [], .call 18 []]⟩
/-- `glm_eq`: include/cglm/util.h:321-325 -/
def f_glm_eq : Fn := ⟨[],
  []⟩
/-- `glm_percent`: include/cglm/util.h:336-345 -/
def f_glm_percent : Fn := ⟨[],
  []⟩
/-- `glm_percentc`: include/cglm/util.h:354-358 -/
def f_glm_percentc : Fn := ⟨[],
  [.call 21 [], .call 12 []]⟩
/-- `glm_swapf`: include/cglm/util.h:366-373 -/
def f_glm_swapf : Fn := ⟨[],
  [rd 0 0, rd 1 0, wr 0 0, wr 1 0]⟩
/-- `glm_vec2_fill`: include/cglm/vec2-ext.h:46-50 -/
def f_glm_vec2_fill : Fn := ⟨[],
  [wr 0 4, wr 0 0]⟩
/-- `glm_vec2_eq`: include/cglm/vec2-ext.h:58-62 -/
def f_glm_vec2_eq : Fn := ⟨[],
  [rd 0 0, rd 0 4]⟩
/-- `glm_vec2_eq_eps`: include/cglm/vec2-ext.h:70-75 -/
def f_glm_vec2_eq_eps : Fn := ⟨[],
  [rd 0 0, rd 0 4]⟩
/-- `glm_vec2_eq_all`: include/cglm/vec2-ext.h:82-86 -/
def f_glm_vec2_eq_all : Fn := ⟨[],
  [rd 0 0, .call 26 [⟨0, 0, []⟩]]⟩
/-- `glm_vec2_eqv`: include/cglm/vec2-ext.h:94-98 -/
def f_glm_vec2_eqv : Fn := ⟨[],
  [rd 0 0, rd 1 0, rd 0 4, rd 1 4]⟩
/-- `glm_vec2_eqv_eps`: include/cglm/vec2-ext.h:106-111 -/
def f_glm_vec2_eqv_eps : Fn := ⟨[],
  [rd 0 0, rd 1 0, rd 0 4, rd 1 4]⟩
/-- `glm_vec2_max`: include/cglm/vec2-ext.h:118-122 -/
def f_glm_vec2_max : Fn := ⟨[],
  [rd 0 0, rd 0 4, .call 8 []]⟩
/-- `glm_vec2_min`: include/cglm/vec2-ext.h:129-133 -/
def f_glm_vec2_min : Fn := ⟨[],
  [rd 0 0, rd 0 4, .call 7 []]⟩
/-- `glm_vec2_isnan`: include/cglm/vec2-ext.h:141-149 -/
def f_glm_vec2_isnan : Fn := ⟨[],
  [rd 0 0, rd 0 4]⟩
/-- `glm_vec2_isinf`: include/cglm/vec2-ext.h:157-165 -/
def f_glm_vec2_isinf : Fn := ⟨[],
  [rd 0 0, rd 0 4]⟩
/-- `glm_vec2_isvalid`: include/cglm/vec2-ext.h:173-177 -/
def f_glm_vec2_isvalid : Fn := ⟨[],
  [.call 32 [⟨0, 0, []⟩], .call 33 [⟨0, 0, []⟩]]⟩
/-- `glm_vec2_sign`: include/cglm/vec2-ext.h:186-191 -/
def f_glm_vec2_sign : Fn := ⟨[],
  [rd 0 0, .call 1 [], wr 1 0, rd 0 4, wr 1 4]⟩
/-- `glm_vec2_abs`: include/cglm/vec2-ext.h:199-204 -/
def f_glm_vec2_abs : Fn := ⟨[],
  [rd 0 0, wr 1 0, rd 0 4, wr 1 4]⟩
/-- `glm_vec2_fract`: include/cglm/vec2-ext.h:212-217 -/
def f_glm_vec2_fract : Fn := ⟨[],
  [rd 0 0, wr 1 0, rd 0 4, wr 1 4]⟩
/-- `glm_vec2_floor`: include/cglm/vec2-ext.h:225-230 -/
def f_glm_vec2_floor : Fn := ⟨[],
  [rd 0 0, wr 1 0, rd 0 4, wr 1 4]⟩
/-- `glm_vec2_mods`: include/cglm/vec2-ext.h:239-244 -/
def f_glm_vec2_mods : Fn := ⟨[],
  [rd 0 0, wr 1 0, rd 0 4, wr 1 4]⟩
/-- `glm_vec2_sqrt`: include/cglm/vec2-ext.h:252-257 -/
def f_glm_vec2_sqrt : Fn := ⟨[],
  [rd 0 0, wr 1 0, rd 0 4, wr 1 4]⟩
/-- `glm_vec2_complex_mul`: include/cglm/vec2-ext.h:266-274 -/
def f_glm_vec2_complex_mul : Fn := ⟨[],
  [rd 0 0, rd 1 0, rd 0 4, rd 1 4, wr 2 0, wr 2 4]⟩
/-- `glm_vec2_steps`: include/cglm/vec2-ext.h:284-289 -/
def f_glm_vec2_steps : Fn := ⟨[],
  [rd 0 0, .call 15 [], wr 1 0, rd 0 4, wr 1 4]⟩
/-- `glm_vec2_stepr`: include/cglm/vec2-ext.h:299-304 -/
def f_glm_vec2_stepr : Fn := ⟨[],
  [rd 0 0, .call 15 [], wr 1 0, rd 0 4, wr 1 4]⟩
/-- `glm_vec2_complex_div`: include/cglm/vec2-ext.h:313-322 -/
def f_glm_vec2_complex_div : Fn := ⟨[],
  [rd 1 0, rd 1 4, rd 0 0, rd 0 4, wr 2 0, wr 2 4]⟩
/-- `glm_vec2_complex_conjugate`: include/cglm/vec2-ext.h:330-335 -/
def f_glm_vec2_complex_conjugate : Fn := ⟨[],
  [rd 0 0, wr 1 0, rd 0 4, wr 1 4]⟩
/-- `glm_vec2`: include/cglm/vec2.h:83-88 -/
def f_glm_vec2 : Fn := ⟨[],
  [rd 0 0, wr 1 0, rd 0 4, wr 1 4]⟩
/-- `glm_vec2_copy`: include/cglm/vec2.h:96-101 -/
def f_glm_vec2_copy : Fn := ⟨[],
  [rd 0 0, wr 1 0, rd 0 4, wr 1 4]⟩
/-- `glm_vec2_zero`: include/cglm/vec2.h:108-112 -/
def f_glm_vec2_zero : Fn := ⟨[],
  [wr 0 4, wr 0 0]⟩
/-- `glm_vec2_one`: include/cglm/vec2.h:119-123 -/
def f_glm_vec2_one : Fn := ⟨[],
  [wr 0 4, wr 0 0]⟩
/-- `glm_vec2_dot`: include/cglm/vec2.h:133-137 -/
def f_glm_vec2_dot : Fn := ⟨[],
  [rd 0 0, rd 1 0, rd 0 4, rd 1 4]⟩
/-- `glm_vec2_cross`: include/cglm/vec2.h:149-154 -/
def f_glm_vec2_cross : Fn := ⟨[],
  [rd 0 0, rd 1 4, rd 0 4, rd 1 0]⟩
/-- `glm_vec2_norm2`: include/cglm/vec2.h:167-171 -/
def f_glm_vec2_norm2 : Fn := ⟨[],
  [.call 50 [⟨0, 0, []⟩, ⟨0, 0, []⟩]]⟩
/-- `glm_vec2_norm`: include/cglm/vec2.h:180-184 -/
def f_glm_vec2_norm : Fn := ⟨[],
  [.call 52 [⟨0, 0, []⟩]]⟩
/-- `glm_vec2_add`: include/cglm/vec2.h:193-198 -/
def f_glm_vec2_add : Fn := ⟨[],
  [rd 0 0, rd 1 0, wr 2 0, rd 0 4, rd 1 4, wr 2 4]⟩
/-- `glm_vec2_adds`: include/cglm/vec2.h:207-212 -/
def f_glm_vec2_adds : Fn := ⟨[],
  [rd 0 0, wr 1 0, rd 0 4, wr 1 4]⟩
/-- `glm_vec2_sub`: include/cglm/vec2.h:221-226 -/
def f_glm_vec2_sub : Fn := ⟨[],
  [rd 0 0, rd 1 0, wr 2 0, rd 0 4, rd 1 4, wr 2 4]⟩
/-- `glm_vec2_subs`: include/cglm/vec2.h:235-240 -/
def f_glm_vec2_subs : Fn := ⟨[],
  [rd 0 0, wr 1 0, rd 0 4, wr 1 4]⟩
/-- `glm_vec2_mul`: include/cglm/vec2.h:249-254 -/
def f_glm_vec2_mul : Fn := ⟨[],
  [rd 0 0, rd 1 0, wr 2 0, rd 0 4, rd 1 4, wr 2 4]⟩
/-- `glm_vec2_scale`: include/cglm/vec2.h:263-268 -/
def f_glm_vec2_scale : Fn := ⟨[],
  [rd 0 0, wr 1 0, rd 0 4, wr 1 4]⟩
/-- `glm_vec2_scale_as`: include/cglm/vec2.h:277-289 -/
def f_glm_vec2_scale_as : Fn := ⟨[],
  [.call 53 [⟨0, 0, []⟩], .call 48 [⟨1, 0, []⟩], .call 59 [⟨0, 0, []⟩, ⟨1, 0, []⟩]]⟩
/-- `glm_vec2_div`: include/cglm/vec2.h:298-303 -/
def f_glm_vec2_div : Fn := ⟨[],
  [rd 0 0, rd 1 0, wr 2 0, rd 0 4, rd 1 4, wr 2 4]⟩
/-- `glm_vec2_divs`: include/cglm/vec2.h:312-317 -/
def f_glm_vec2_divs : Fn := ⟨[],
  [rd 0 0, wr 1 0, rd 0 4, wr 1 4]⟩
/-- `glm_vec2_addadd`: include/cglm/vec2.h:328-333 -/
def f_glm_vec2_addadd : Fn := ⟨[],
  [rd 0 0, rd 1 0, rd 2 0, wr 2 0, rd 0 4, rd 1 4, rd 2 4, wr 2 4]⟩
/-- `glm_vec2_subadd`: include/cglm/vec2.h:344-349 -/
def f_glm_vec2_subadd : Fn := ⟨[],
  [rd 0 0, rd 1 0, rd 2 0, wr 2 0, rd 0 4, rd 1 4, rd 2 4, wr 2 4]⟩
/-- `glm_vec2_muladd`: include/cglm/vec2.h:360-365 -/
def f_glm_vec2_muladd : Fn := ⟨[],
  [rd 0 0, rd 1 0, rd 2 0, wr 2 0, rd 0 4, rd 1 4, rd 2 4, wr 2 4]⟩
/-- `glm_vec2_muladds`: include/cglm/vec2.h:376-381 -/
def f_glm_vec2_muladds : Fn := ⟨[],
  [rd 0 0, rd 1 0, wr 1 0, rd 0 4, rd 1 4, wr 1 4]⟩
/-- `glm_vec2_maxadd`: include/cglm/vec2.h:392-397 -/
def f_glm_vec2_maxadd : Fn := ⟨[],
  [rd 0 0, rd 1 0, .call 8 [], rd 2 0, wr 2 0, rd 0 4, rd 1 4, rd 2 4, wr 2 4]⟩
/-- `glm_vec2_minadd`: include/cglm/vec2.h:408-413 -/
def f_glm_vec2_minadd : Fn := ⟨[],
  [rd 0 0, rd 1 0, .call 7 [], rd 2 0, wr 2 0, rd 0 4, rd 1 4, rd 2 4, wr 2 4]⟩
/-- `glm_vec2_subsub`: include/cglm/vec2.h:424-429 -/
def f_glm_vec2_subsub : Fn := ⟨[],
  [rd 0 0, rd 1 0, rd 2 0, wr 2 0, rd 0 4, rd 1 4, rd 2 4, wr 2 4]⟩
/-- `glm_vec2_addsub`: include/cglm/vec2.h:440-445 -/
def f_glm_vec2_addsub : Fn := ⟨[],
  [rd 0 0, rd 1 0, rd 2 0, wr 2 0, rd 0 4, rd 1 4, rd 2 4, wr 2 4]⟩
/-- `glm_vec2_mulsub`: include/cglm/vec2.h:456-461 -/
def f_glm_vec2_mulsub : Fn := ⟨[],
  [rd 0 0, rd 1 0, rd 2 0, wr 2 0, rd 0 4, rd 1 4, rd 2 4, wr 2 4]⟩
/-- `glm_vec2_mulsubs`: include/cglm/vec2.h:472-477 -/
def f_glm_vec2_mulsubs : Fn := ⟨[],
  [rd 0 0, rd 1 0, wr 1 0, rd 0 4, rd 1 4, wr 1 4]⟩
/-- `glm_vec2_maxsub`: include/cglm/vec2.h:488-493 -/
def f_glm_vec2_maxsub : Fn := ⟨[],
  [rd 0 0, rd 1 0, .call 8 [], rd 2 0, wr 2 0, rd 0 4, rd 1 4, rd 2 4, wr 2 4]⟩
/-- `glm_vec2_minsub`: include/cglm/vec2.h:504-509 -/
def f_glm_vec2_minsub : Fn := ⟨[],
  [rd 0 0, rd 1 0, .call 7 [], rd 2 0, wr 2 0, rd 0 4, rd 1 4, rd 2 4, wr 2 4]⟩
/-- `glm_vec2_negate_to`: include/cglm/vec2.h:517-522 -/
def f_glm_vec2_negate_to : Fn := ⟨[],
  [rd 0 0, wr 1 0, rd 0 4, wr 1 4]⟩
/-- `glm_vec2_negate`: include/cglm/vec2.h:529-533 -/
def f_glm_vec2_negate : Fn := ⟨[],
  [.call 75 [⟨0, 0, []⟩, ⟨0, 0, []⟩]]⟩
/-- `glm_vec2_normalize`: include/cglm/vec2.h:540-553 -/
def f_glm_vec2_normalize : Fn := ⟨[],
  [.call 53 [⟨0, 0, []⟩], wr 0 4, wr 0 0, .call 59 [⟨0, 0, []⟩, ⟨0, 0, []⟩]]⟩
/-- `glm_vec2_normalize_to`: include/cglm/vec2.h:561-574 -/
def f_glm_vec2_normalize_to : Fn := ⟨[],
  [.call 53 [⟨0, 0, []⟩], .call 48 [⟨1, 0, []⟩], .call 59 [⟨0, 0, []⟩, ⟨1, 0, []⟩]]⟩
/-- `glm_vec2_rotate`: include/cglm/vec2.h:587-600 -/
def f_glm_vec2_rotate : Fn := ⟨[],
  [rd 0 0, rd 0 4, wr 1 0, wr 1 4]⟩
/-- `glm_vec2_center`: include/cglm/vec2.h:609-614 -/
def f_glm_vec2_center : Fn := ⟨[],
  [.call 54 [⟨0, 0, []⟩, ⟨1, 0, []⟩, ⟨2, 0, []⟩], .call 59 [⟨2, 0, []⟩, ⟨2, 0, []⟩]]⟩
/-- `glm_vec2_distance2`: include/cglm/vec2.h:623-627 -/
def f_glm_vec2_distance2 : Fn := ⟨[],
  [rd 1 0, rd 0 0, .call 6 [], rd 1 4, rd 0 4]⟩
/-- `glm_vec2_distance`: include/cglm/vec2.h:636-640 -/
def f_glm_vec2_distance : Fn := ⟨[],
  [.call 81 [⟨0, 0, []⟩, ⟨1, 0, []⟩]]⟩
/-- `glm_vec2_maxv`: include/cglm/vec2.h:649-654 -/
def f_glm_vec2_maxv : Fn := ⟨[],
  [rd 0 0, rd 1 0, .call 8 [], wr 2 0, rd 0 4, rd 1 4, wr 2 4]⟩
/-- `glm_vec2_minv`: include/cglm/vec2.h:663-668 -/
def f_glm_vec2_minv : Fn := ⟨[],
  [rd 0 0, rd 1 0, .call 7 [], wr 2 0, rd 0 4, rd 1 4, wr 2 4]⟩
/-- `glm_vec2_clamp`: include/cglm/vec2.h:677-682 -/
def f_glm_vec2_clamp : Fn := ⟨[],
  [rd 0 0, .call 11 [], wr 0 0, rd 0 4, wr 0 4]⟩
/-- `glm_vec2_swizzle`: include/cglm/vec2.h:691-700 -/
def f_glm_vec2_swizzle : Fn := ⟨[⟨8, []⟩],
  [.access ⟨0, 0, [(4, 2)]⟩ 4 4 false, wr 2 0, wr 2 4, .call 47 [⟨2, 0, []⟩, ⟨1, 0, []⟩]]⟩
/-- `glm_vec2_lerp`: include/cglm/vec2.h:712-722 -/
def f_glm_vec2_lerp : Fn := ⟨[⟨8, []⟩, ⟨8, []⟩],
  [.call 12 [], .call 24 [⟨3, 0, []⟩], .call 56 [⟨1, 0, []⟩, ⟨0, 0, []⟩, ⟨4, 0, []⟩],
   .call 58 [⟨3, 0, []⟩, ⟨4, 0, []⟩, ⟨4, 0, []⟩], .call 54 [⟨0, 0, []⟩, ⟨4, 0, []⟩, ⟨2, 0, []⟩]]⟩
/-- `glm_vec2_step`: include/cglm/vec2.h:731-736 -/
def f_glm_vec2_step : Fn := ⟨[],
  [rd 0 0, rd 1 0, .call 15 [], wr 2 0, rd 0 4, rd 1 4, wr 2 4]⟩
/-- `glm_vec2_make`: include/cglm/vec2.h:744-748 -/
def f_glm_vec2_make : Fn := ⟨[],
  [rd 0 0, wr 1 0, rd 0 4, wr 1 4]⟩
/-- `glm_vec2_reflect`: include/cglm/vec2.h:757-763 -/
def f_glm_vec2_reflect : Fn := ⟨[⟨8, []⟩],
  [.call 50 [⟨0, 0, []⟩, ⟨1, 0, []⟩], .call 59 [⟨1, 0, []⟩, ⟨3, 0, []⟩], .call 56 [⟨0, 0, []⟩, ⟨3, 0, []⟩, ⟨2, 0, []⟩]]⟩
/-- `glm_vec2_refract`: include/cglm/vec2.h:779-796 -/
def f_glm_vec2_refract : Fn := ⟨[],
  [.call 50 [⟨1, 0, []⟩, ⟨0, 0, []⟩], .call 48 [⟨2, 0, []⟩], .call 59 [⟨0, 0, []⟩, ⟨2, 0, []⟩],
   .call 72 [⟨1, 0, []⟩, ⟨2, 0, []⟩]]⟩
/-- `glm_vec3_broadcast`: include/cglm/vec3-ext.h:49-53 -/
def f_glm_vec3_broadcast : Fn := ⟨[],
  [wr 0 8, wr 0 4, wr 0 0]⟩
/-- `glm_vec3_fill`: include/cglm/vec3-ext.h:61-65 -/
def f_glm_vec3_fill : Fn := ⟨[],
  [wr 0 8, wr 0 4, wr 0 0]⟩
/-- `glm_vec3_eq`: include/cglm/vec3-ext.h:73-77 -/
def f_glm_vec3_eq : Fn := ⟨[],
  [rd 0 0, rd 0 4, rd 0 8]⟩
/-- `glm_vec3_eq_eps`: include/cglm/vec3-ext.h:85-91 -/
def f_glm_vec3_eq_eps : Fn := ⟨[],
  [rd 0 0, rd 0 4, rd 0 8]⟩
/-- `glm_vec3_eq_all`: include/cglm/vec3-ext.h:98-102 -/
def f_glm_vec3_eq_all : Fn := ⟨[],
  [rd 0 0, .call 95 [⟨0, 0, []⟩]]⟩
/-- `glm_vec3_eqv`: include/cglm/vec3-ext.h:110-116 -/
def f_glm_vec3_eqv : Fn := ⟨[],
  [rd 0 0, rd 1 0, rd 0 4, rd 1 4, rd 0 8, rd 1 8]⟩
/-- `glm_vec3_eqv_eps`: include/cglm/vec3-ext.h:124-130 -/
def f_glm_vec3_eqv_eps : Fn := ⟨[],
  [rd 0 0, rd 1 0, rd 0 4, rd 1 4, rd 0 8, rd 1 8]⟩
/-- `glm_vec3_max`: include/cglm/vec3-ext.h:137-149 -/
def f_glm_vec3_max : Fn := ⟨[],
  [rd 0 0, rd 0 4, rd 0 8]⟩
/-- `glm_vec3_min`: include/cglm/vec3-ext.h:156-168 -/
def f_glm_vec3_min : Fn := ⟨[],
  [rd 0 0, rd 0 4, rd 0 8]⟩
/-- `glm_vec3_isnan`: include/cglm/vec3-ext.h:176-184 -/
def f_glm_vec3_isnan : Fn := ⟨[],
  [rd 0 0, rd 0 4, rd 0 8]⟩
/-- `glm_vec3_isinf`: include/cglm/vec3-ext.h:192-200 -/
def f_glm_vec3_isinf : Fn := ⟨[],
  [rd 0 0, rd 0 4, rd 0 8]⟩
/-- `glm_vec3_isvalid`: include/cglm/vec3-ext.h:208-212 -/
def f_glm_vec3_isvalid : Fn := ⟨[],
  [.call 101 [⟨0, 0, []⟩], .call 102 [⟨0, 0, []⟩]]⟩
/-- `glm_vec3_sign`: include/cglm/vec3-ext.h:221-227 -/
def f_glm_vec3_sign : Fn := ⟨[],
  [rd 0 0, .call 1 [], wr 1 0, rd 0 4, wr 1 4, rd 0 8, wr 1 8]⟩
/-- `glm_vec3_abs`: include/cglm/vec3-ext.h:235-241 -/
def f_glm_vec3_abs : Fn := ⟨[],
  [rd 0 0, wr 1 0, rd 0 4, wr 1 4, rd 0 8, wr 1 8]⟩
/-- `glm_vec3_fract`: include/cglm/vec3-ext.h:249-255 -/
def f_glm_vec3_fract : Fn := ⟨[],
  [rd 0 0, wr 1 0, rd 0 4, wr 1 4, rd 0 8, wr 1 8]⟩
/-- `glm_vec3_floor`: include/cglm/vec3-ext.h:263-269 -/
def f_glm_vec3_floor : Fn := ⟨[],
  [rd 0 0, wr 1 0, rd 0 4, wr 1 4, rd 0 8, wr 1 8]⟩
/-- `glm_vec3_mods`: include/cglm/vec3-ext.h:278-284 -/
def f_glm_vec3_mods : Fn := ⟨[],
  [rd 0 0, wr 1 0, rd 0 4, wr 1 4, rd 0 8, wr 1 8]⟩
/-- `glm_vec3_steps`: include/cglm/vec3-ext.h:294-300 -/
def f_glm_vec3_steps : Fn := ⟨[],
  [rd 0 0, .call 15 [], wr 1 0, rd 0 4, wr 1 4, rd 0 8, wr 1 8]⟩
/-- `glm_vec3_stepr`: include/cglm/vec3-ext.h:310-316 -/
def f_glm_vec3_stepr : Fn := ⟨[],
  [rd 0 0, .call 15 [], wr 1 0, rd 0 4, wr 1 4, rd 0 8, wr 1 8]⟩
/-- `glm_vec3_hadd`: include/cglm/vec3-ext.h:325-329 -/
def f_glm_vec3_hadd : Fn := ⟨[],
  [rd 0 0, rd 0 4, rd 0 8]⟩
/-- `glm_vec3_sqrt`: include/cglm/vec3-ext.h:337-343 -/
def f_glm_vec3_sqrt : Fn := ⟨[],
  [rd 0 0, wr 1 0, rd 0 4, wr 1 4, rd 0 8, wr 1 8]⟩
/-- `glm_vec4_broadcast`: include/cglm/vec4-ext.h:49-59 -/
def f_glm_vec4_broadcast : Fn := ⟨[],
  [wr 0 12, wr 0 8, wr 0 4, wr 0 0]⟩
/-- `glm_vec4_fill`: include/cglm/vec4-ext.h:67-77 -/
def f_glm_vec4_fill : Fn := ⟨[],
  [wr 0 12, wr 0 8, wr 0 4, wr 0 0]⟩
/-- `glm_vec4_eq`: include/cglm/vec4-ext.h:85-92 -/
def f_glm_vec4_eq : Fn := ⟨[],
  [rd 0 0, rd 0 4, rd 0 8, rd 0 12]⟩
/-- `glm_vec4_eq_eps`: include/cglm/vec4-ext.h:100-107 -/
def f_glm_vec4_eq_eps : Fn := ⟨[],
  [rd 0 0, rd 0 4, rd 0 8, rd 0 12]⟩
/-- `glm_vec4_eq_all`: include/cglm/vec4-ext.h:114-118 -/
def f_glm_vec4_eq_all : Fn := ⟨[],
  [rd 0 0, .call 116 [⟨0, 0, []⟩]]⟩
/-- `glm_vec4_eqv`: include/cglm/vec4-ext.h:126-133 -/
def f_glm_vec4_eqv : Fn := ⟨[],
  [rd 0 0, rd 1 0, rd 0 4, rd 1 4, rd 0 8, rd 1 8, rd 0 12, rd 1 12]⟩
/-- `glm_vec4_eqv_eps`: include/cglm/vec4-ext.h:141-148 -/
def f_glm_vec4_eqv_eps : Fn := ⟨[],
  [rd 0 0, rd 1 0, rd 0 4, rd 1 4, rd 0 8, rd 1 8, rd 0 12, rd 1 12]⟩
/-- `glm_vec4_max`: include/cglm/vec4-ext.h:155-165 -/
def f_glm_vec4_max : Fn := ⟨[],
  [.call 99 [⟨0, 0, []⟩], rd 0 12]⟩
/-- `glm_vec4_min`: include/cglm/vec4-ext.h:172-182 -/
def f_glm_vec4_min : Fn := ⟨[],
  [.call 100 [⟨0, 0, []⟩], rd 0 12]⟩
/-- `glm_vec4_isnan`: include/cglm/vec4-ext.h:190-198 -/
def f_glm_vec4_isnan : Fn := ⟨[],
  [rd 0 0, rd 0 4, rd 0 8, rd 0 12]⟩
/-- `glm_vec4_isinf`: include/cglm/vec4-ext.h:206-214 -/
def f_glm_vec4_isinf : Fn := ⟨[],
  [rd 0 0, rd 0 4, rd 0 8, rd 0 12]⟩
/-- `glm_vec4_isvalid`: include/cglm/vec4-ext.h:222-226 -/
def f_glm_vec4_isvalid : Fn := ⟨[],
  [.call 122 [⟨0, 0, []⟩], .call 123 [⟨0, 0, []⟩]]⟩
/-- `glm_vec4_sign`: include/cglm/vec4-ext.h:235-255 -/
def f_glm_vec4_sign : Fn := ⟨[],
  [rd 0 0, .call 1 [], wr 1 0, rd 0 4, wr 1 4, rd 0 8, wr 1 8, rd 0 12, wr 1 12]⟩
/-- `glm_vec4_abs`: include/cglm/vec4-ext.h:263-278 -/
def f_glm_vec4_abs : Fn := ⟨[],
  [rd 0 0, wr 1 0, rd 0 4, wr 1 4, rd 0 8, wr 1 8, rd 0 12, wr 1 12]⟩
/-- `glm_vec4_fract`: include/cglm/vec4-ext.h:286-293 -/
def f_glm_vec4_fract : Fn := ⟨[],
  [rd 0 0, wr 1 0, rd 0 4, wr 1 4, rd 0 8, wr 1 8, rd 0 12, wr 1 12]⟩
/-- `glm_vec4_floor`: include/cglm/vec4-ext.h:301-308 -/
def f_glm_vec4_floor : Fn := ⟨[],
  [rd 0 0, wr 1 0, rd 0 4, wr 1 4, rd 0 8, wr 1 8, rd 0 12, wr 1 12]⟩
/-- `glm_vec4_mods`: include/cglm/vec4-ext.h:317-324 -/
def f_glm_vec4_mods : Fn := ⟨[],
  [rd 0 0, wr 1 0, rd 0 4, wr 1 4, rd 0 8, wr 1 8, rd 0 12, wr 1 12]⟩
/-- `glm_vec4_steps`: include/cglm/vec4-ext.h:334-341 -/
def f_glm_vec4_steps : Fn := ⟨[],
  [rd 0 0, .call 15 [], wr 1 0, rd 0 4, wr 1 4, rd 0 8, wr 1 8, rd 0 12, wr 1 12]⟩
/-- `glm_vec4_stepr`: include/cglm/vec4-ext.h:351-358 -/
def f_glm_vec4_stepr : Fn := ⟨[],
  [rd 0 0, .call 15 [], wr 1 0, rd 0 4, wr 1 4, rd 0 8, wr 1 8, rd 0 12, wr 1 12]⟩
/-- `glm_vec4_hadd`: include/cglm/vec4-ext.h:367-377 -/
def f_glm_vec4_hadd : Fn := ⟨[],
  [rd 0 0, rd 0 4, rd 0 8, rd 0 12]⟩
/-- `glm_vec4_sqrt`: include/cglm/vec4-ext.h:385-398 -/
def f_glm_vec4_sqrt : Fn := ⟨[],
  [rd 0 0, wr 1 0, rd 0 4, wr 1 4, rd 0 8, wr 1 8, rd 0 12, wr 1 12]⟩
/-- `glm_vec4`: include/cglm/vec4.h:118-125 -/
def f_glm_vec4 : Fn := ⟨[],
  [rd 0 0, wr 1 0, rd 0 4, wr 1 4, rd 0 8, wr 1 8, wr 1 12]⟩
/-- `glm_vec4_copy3`: include/cglm/vec4.h:133-139 -/
def f_glm_vec4_copy3 : Fn := ⟨[],
  [rd 0 0, wr 1 0, rd 0 4, wr 1 4, rd 0 8, wr 1 8]⟩
/-- `glm_vec4_copy`: include/cglm/vec4.h:147-162 -/
def f_glm_vec4_copy : Fn := ⟨[],
  [rd 0 0, wr 1 0, rd 0 4, wr 1 4, rd 0 8, wr 1 8, rd 0 12, wr 1 12]⟩
/-- `glm_vec4_ucopy`: include/cglm/vec4.h:172-184 -/
def f_glm_vec4_ucopy : Fn := ⟨[],
  [rd 0 0, wr 1 0, rd 0 4, wr 1 4, rd 0 8, wr 1 8, rd 0 12, wr 1 12]⟩
/-- `glm_vec4_zero`: include/cglm/vec4.h:191-206 -/
def f_glm_vec4_zero : Fn := ⟨[],
  [wr 0 0, wr 0 4, wr 0 8, wr 0 12]⟩
/-- `glm_vec4_one`: include/cglm/vec4.h:213-228 -/
def f_glm_vec4_one : Fn := ⟨[],
  [wr 0 0, wr 0 4, wr 0 8, wr 0 12]⟩
/-- `glm_vec4_dot`: include/cglm/vec4.h:238-246 -/
def f_glm_vec4_dot : Fn := ⟨[],
  [rd 0 0, rd 1 0, rd 0 4, rd 1 4, rd 0 8, rd 1 8, rd 0 12, rd 1 12]⟩
/-- `glm_vec4_norm2`: include/cglm/vec4.h:259-263 -/
def f_glm_vec4_norm2 : Fn := ⟨[],
  [.call 140 [⟨0, 0, []⟩, ⟨0, 0, []⟩]]⟩
/-- `glm_vec4_norm`: include/cglm/vec4.h:273-281 -/
def f_glm_vec4_norm : Fn := ⟨[],
  [.call 140 [⟨0, 0, []⟩, ⟨0, 0, []⟩]]⟩
/-- `glm_vec4_norm_one`: include/cglm/vec4.h:297-307 -/
def f_glm_vec4_norm_one : Fn := ⟨[⟨16, [.vec]⟩],
  [.call 126 [⟨0, 0, []⟩, ⟨1, 0, []⟩], .call 132 [⟨1, 0, []⟩]]⟩
/-- `glm_vec4_norm_inf`: include/cglm/vec4.h:322-332 -/
def f_glm_vec4_norm_inf : Fn := ⟨[⟨16, [.vec]⟩],
  [.call 126 [⟨0, 0, []⟩, ⟨1, 0, []⟩], .call 120 [⟨1, 0, []⟩]]⟩
/-- `glm_vec4_add`: include/cglm/vec4.h:341-356 -/
def f_glm_vec4_add : Fn := ⟨[],
  [rd 0 0, rd 1 0, wr 2 0, rd 0 4, rd 1 4, wr 2 4, rd 0 8, rd 1 8, wr 2 8, rd 0 12, rd 1 12, wr 2 12]⟩
/-- `glm_vec4_adds`: include/cglm/vec4.h:365-380 -/
def f_glm_vec4_adds : Fn := ⟨[],
  [rd 0 0, wr 1 0, rd 0 4, wr 1 4, rd 0 8, wr 1 8, rd 0 12, wr 1 12]⟩
/-- `glm_vec4_sub`: include/cglm/vec4.h:389-404 -/
def f_glm_vec4_sub : Fn := ⟨[],
  [rd 0 0, rd 1 0, wr 2 0, rd 0 4, rd 1 4, wr 2 4, rd 0 8, rd 1 8, wr 2 8, rd 0 12, rd 1 12, wr 2 12]⟩
/-- `glm_vec4_subs`: include/cglm/vec4.h:413-428 -/
def f_glm_vec4_subs : Fn := ⟨[],
  [rd 0 0, wr 1 0, rd 0 4, wr 1 4, rd 0 8, wr 1 8, rd 0 12, wr 1 12]⟩
/-- `glm_vec4_mul`: include/cglm/vec4.h:437-452 -/
def f_glm_vec4_mul : Fn := ⟨[],
  [rd 0 0, rd 1 0, wr 2 0, rd 0 4, rd 1 4, wr 2 4, rd 0 8, rd 1 8, wr 2 8, rd 0 12, rd 1 12, wr 2 12]⟩
/-- `glm_vec4_scale`: include/cglm/vec4.h:461-476 -/
def f_glm_vec4_scale : Fn := ⟨[],
  [rd 0 0, wr 1 0, rd 0 4, wr 1 4, rd 0 8, wr 1 8, rd 0 12, wr 1 12]⟩
/-- `glm_vec4_scale_as`: include/cglm/vec4.h:485-497 -/
def f_glm_vec4_scale_as : Fn := ⟨[],
  [.call 142 [⟨0, 0, []⟩], .call 138 [⟨1, 0, []⟩], .call 150 [⟨0, 0, []⟩, ⟨1, 0, []⟩]]⟩
/-- `glm_vec4_div`: include/cglm/vec4.h:506-517 -/
def f_glm_vec4_div : Fn := ⟨[],
  [rd 0 0, rd 1 0, wr 2 0, rd 0 4, rd 1 4, wr 2 4, rd 0 8, rd 1 8, wr 2 8, rd 0 12, rd 1 12, wr 2 12]⟩
/-- `glm_vec4_divs`: include/cglm/vec4.h:526-534 -/
def f_glm_vec4_divs : Fn := ⟨[],
  [.call 150 [⟨0, 0, []⟩, ⟨1, 0, []⟩]]⟩
/-- `glm_vec4_addadd`: include/cglm/vec4.h:545-566 -/
def f_glm_vec4_addadd : Fn := ⟨[],
  [rd 0 0, rd 1 0, rd 2 0, wr 2 0, rd 0 4, rd 1 4, rd 2 4, wr 2 4, rd 0 8, rd 1 8, rd 2 8, wr 2 8, rd 0 12, rd 1 12, rd 2 12,
   wr 2 12]⟩
/-- `glm_vec4_subadd`: include/cglm/vec4.h:577-598 -/
def f_glm_vec4_subadd : Fn := ⟨[],
  [rd 0 0, rd 1 0, rd 2 0, wr 2 0, rd 0 4, rd 1 4, rd 2 4, wr 2 4, rd 0 8, rd 1 8, rd 2 8, wr 2 8, rd 0 12, rd 1 12, rd 2 12,
   wr 2 12]⟩
/-- `glm_vec4_muladd`: include/cglm/vec4.h:609-620 -/
def f_glm_vec4_muladd : Fn := ⟨[],
  [rd 0 0, rd 1 0, rd 2 0, wr 2 0, rd 0 4, rd 1 4, rd 2 4, wr 2 4, rd 0 8, rd 1 8, rd 2 8, wr 2 8, rd 0 12, rd 1 12, rd 2 12,
   wr 2 12]⟩
/-- `glm_vec4_muladds`: include/cglm/vec4.h:631-642 -/
def f_glm_vec4_muladds : Fn := ⟨[],
  [rd 0 0, rd 1 0, wr 1 0, rd 0 4, rd 1 4, wr 1 4, rd 0 8, rd 1 8, wr 1 8, rd 0 12, rd 1 12, wr 1 12]⟩
/-- `glm_vec4_maxadd`: include/cglm/vec4.h:653-671 -/
def f_glm_vec4_maxadd : Fn := ⟨[],
  [rd 0 0, rd 1 0, .call 8 [], rd 2 0, wr 2 0, rd 0 4, rd 1 4, rd 2 4, wr 2 4, rd 0 8, rd 1 8, rd 2 8, wr 2 8, rd 0 12,
   rd 1 12, rd 2 12, wr 2 12]⟩
/-- `glm_vec4_minadd`: include/cglm/vec4.h:682-700 -/
def f_glm_vec4_minadd : Fn := ⟨[],
  [rd 0 0, rd 1 0, .call 7 [], rd 2 0, wr 2 0, rd 0 4, rd 1 4, rd 2 4, wr 2 4, rd 0 8, rd 1 8, rd 2 8, wr 2 8, rd 0 12,
   rd 1 12, rd 2 12, wr 2 12]⟩
/-- `glm_vec4_subsub`: include/cglm/vec4.h:711-732 -/
def f_glm_vec4_subsub : Fn := ⟨[],
  [rd 0 0, rd 1 0, rd 2 0, wr 2 0, rd 0 4, rd 1 4, rd 2 4, wr 2 4, rd 0 8, rd 1 8, rd 2 8, wr 2 8, rd 0 12, rd 1 12, rd 2 12,
   wr 2 12]⟩
/-- `glm_vec4_addsub`: include/cglm/vec4.h:743-764 -/
def f_glm_vec4_addsub : Fn := ⟨[],
  [rd 0 0, rd 1 0, rd 2 0, wr 2 0, rd 0 4, rd 1 4, rd 2 4, wr 2 4, rd 0 8, rd 1 8, rd 2 8, wr 2 8, rd 0 12, rd 1 12, rd 2 12,
   wr 2 12]⟩
/-- `glm_vec4_mulsub`: include/cglm/vec4.h:775-786 -/
def f_glm_vec4_mulsub : Fn := ⟨[],
  [rd 0 0, rd 1 0, rd 2 0, wr 2 0, rd 0 4, rd 1 4, rd 2 4, wr 2 4, rd 0 8, rd 1 8, rd 2 8, wr 2 8, rd 0 12, rd 1 12, rd 2 12,
   wr 2 12]⟩
/-- `glm_vec4_mulsubs`: include/cglm/vec4.h:797-808 -/
def f_glm_vec4_mulsubs : Fn := ⟨[],
  [rd 0 0, rd 1 0, wr 1 0, rd 0 4, rd 1 4, wr 1 4, rd 0 8, rd 1 8, wr 1 8, rd 0 12, rd 1 12, wr 1 12]⟩
/-- `glm_vec4_maxsub`: include/cglm/vec4.h:819-837 -/
def f_glm_vec4_maxsub : Fn := ⟨[],
  [rd 0 0, rd 1 0, .call 8 [], rd 2 0, wr 2 0, rd 0 4, rd 1 4, rd 2 4, wr 2 4, rd 0 8, rd 1 8, rd 2 8, wr 2 8, rd 0 12,
   rd 1 12, rd 2 12, wr 2 12]⟩
/-- `glm_vec4_minsub`: include/cglm/vec4.h:848-866 -/
def f_glm_vec4_minsub : Fn := ⟨[],
  [rd 0 0, rd 1 0, .call 7 [], rd 2 0, wr 2 0, rd 0 4, rd 1 4, rd 2 4, wr 2 4, rd 0 8, rd 1 8, rd 2 8, wr 2 8, rd 0 12,
   rd 1 12, rd 2 12, wr 2 12]⟩
/-- `glm_vec4_negate_to`: include/cglm/vec4.h:874-889 -/
def f_glm_vec4_negate_to : Fn := ⟨[],
  [rd 0 0, wr 1 0, rd 0 4, wr 1 4, rd 0 8, wr 1 8, rd 0 12, wr 1 12]⟩
/-- `glm_vec4_negate`: include/cglm/vec4.h:896-900 -/
def f_glm_vec4_negate : Fn := ⟨[],
  [.call 166 [⟨0, 0, []⟩, ⟨0, 0, []⟩]]⟩
/-- `glm_vec4_normalize_to`: include/cglm/vec4.h:908-952 -/
def f_glm_vec4_normalize_to : Fn := ⟨[],
  [.call 142 [⟨0, 0, []⟩], .call 138 [⟨1, 0, []⟩], .call 150 [⟨0, 0, []⟩, ⟨1, 0, []⟩]]⟩
/-- `glm_vec4_normalize`: include/cglm/vec4.h:959-963 -/
def f_glm_vec4_normalize : Fn := ⟨[],
  [.call 168 [⟨0, 0, []⟩, ⟨0, 0, []⟩]]⟩
/-- `glm_vec4_distance`: include/cglm/vec4.h:972-987 -/
def f_glm_vec4_distance : Fn := ⟨[],
  [rd 0 0, rd 1 0, .call 6 [], rd 0 4, rd 1 4, rd 0 8, rd 1 8, rd 0 12, rd 1 12]⟩
/-- `glm_vec4_distance2`: include/cglm/vec4.h:996-1011 -/
def f_glm_vec4_distance2 : Fn := ⟨[],
  [rd 0 0, rd 1 0, .call 6 [], rd 0 4, rd 1 4, rd 0 8, rd 1 8, rd 0 12, rd 1 12]⟩
/-- `glm_vec4_maxv`: include/cglm/vec4.h:1020-1031 -/
def f_glm_vec4_maxv : Fn := ⟨[],
  [rd 0 0, rd 1 0, .call 8 [], wr 2 0, rd 0 4, rd 1 4, wr 2 4, rd 0 8, rd 1 8, wr 2 8, rd 0 12, rd 1 12, wr 2 12]⟩
/-- `glm_vec4_minv`: include/cglm/vec4.h:1040-1051 -/
def f_glm_vec4_minv : Fn := ⟨[],
  [rd 0 0, rd 1 0, .call 7 [], wr 2 0, rd 0 4, rd 1 4, wr 2 4, rd 0 8, rd 1 8, wr 2 8, rd 0 12, rd 1 12, wr 2 12]⟩
/-- `glm_vec4_clamp`: include/cglm/vec4.h:1060-1078 -/
def f_glm_vec4_clamp : Fn := ⟨[],
  [rd 0 0, .call 11 [], wr 0 0, rd 0 4, wr 0 4, rd 0 8, wr 0 8, rd 0 12, wr 0 12]⟩
/-- `glm_vec4_lerp`: include/cglm/vec4.h:1090-1100 -/
def f_glm_vec4_lerp : Fn := ⟨[⟨16, [.vec]⟩, ⟨16, [.vec]⟩],
  [.call 113 [⟨3, 0, []⟩], .call 147 [⟨1, 0, []⟩, ⟨0, 0, []⟩, ⟨4, 0, []⟩], .call 149 [⟨3, 0, []⟩, ⟨4, 0, []⟩, ⟨4, 0, []⟩],
   .call 145 [⟨0, 0, []⟩, ⟨4, 0, []⟩, ⟨2, 0, []⟩]]⟩
/-- `glm_vec4_lerpc`: include/cglm/vec4.h:1112-1116 -/
def f_glm_vec4_lerpc : Fn := ⟨[],
  [.call 12 [], .call 175 [⟨0, 0, []⟩, ⟨1, 0, []⟩, ⟨2, 0, []⟩]]⟩
/-- `glm_vec4_mix`: include/cglm/vec4.h:1128-1132 -/
def f_glm_vec4_mix : Fn := ⟨[],
  [.call 175 [⟨0, 0, []⟩, ⟨1, 0, []⟩, ⟨2, 0, []⟩]]⟩
/-- `glm_vec4_mixc`: include/cglm/vec4.h:1144-1148 -/
def f_glm_vec4_mixc : Fn := ⟨[],
  [.call 176 [⟨0, 0, []⟩, ⟨1, 0, []⟩, ⟨2, 0, []⟩]]⟩
/-- `glm_vec4_step`: include/cglm/vec4.h:1157-1164 -/
def f_glm_vec4_step : Fn := ⟨[],
  [rd 0 0, rd 1 0, .call 15 [], wr 2 0, rd 0 4, rd 1 4, wr 2 4, rd 0 8, rd 1 8, wr 2 8, rd 0 12, rd 1 12, wr 2 12]⟩
/-- `glm_vec4_smoothstep_uni`: include/cglm/vec4.h:1174-1181 -/
def f_glm_vec4_smoothstep_uni : Fn := ⟨[],
  [rd 0 0, .call 17 [], wr 1 0, rd 0 4, wr 1 4, rd 0 8, wr 1 8, rd 0 12, wr 1 12]⟩
/-- `glm_vec4_smoothstep`: include/cglm/vec4.h:1191-1198 -/
def f_glm_vec4_smoothstep : Fn := ⟨[],
  [rd 0 0, rd 1 0, rd 2 0, .call 17 [], wr 3 0, rd 0 4, rd 1 4, rd 2 4, wr 3 4, rd 0 8, rd 1 8, rd 2 8, wr 3 8, rd 0 12,
   rd 1 12, rd 2 12, wr 3 12]⟩
/-- `glm_vec4_smoothinterp`: include/cglm/vec4.h:1210-1220 -/
def f_glm_vec4_smoothinterp : Fn := ⟨[⟨16, [.vec]⟩, ⟨16, [.vec]⟩],
  [.call 16 [], .call 113 [⟨3, 0, []⟩], .call 147 [⟨1, 0, []⟩, ⟨0, 0, []⟩, ⟨4, 0, []⟩],
   .call 149 [⟨3, 0, []⟩, ⟨4, 0, []⟩, ⟨4, 0, []⟩], .call 145 [⟨0, 0, []⟩, ⟨4, 0, []⟩, ⟨2, 0, []⟩]]⟩
/-- `glm_vec4_smoothinterpc`: include/cglm/vec4.h:1232-1236 -/
def f_glm_vec4_smoothinterpc : Fn := ⟨[],
  [.call 12 [], .call 182 [⟨0, 0, []⟩, ⟨1, 0, []⟩, ⟨2, 0, []⟩]]⟩
/-- `glm_vec4_cubic`: include/cglm/vec4.h:1244-1255 -/
def f_glm_vec4_cubic : Fn := ⟨[],
  [wr 0 0, wr 0 4, wr 0 8, wr 0 12]⟩
/-- `glm_vec4_swizzle`: include/cglm/vec4.h:1266-1277 -/
def f_glm_vec4_swizzle : Fn := ⟨[⟨16, [.vec]⟩],
  [.access ⟨0, 0, [(4, 4)]⟩ 4 4 false, wr 2 0, wr 2 4, wr 2 8, wr 2 12, .call 136 [⟨2, 0, []⟩, ⟨1, 0, []⟩]]⟩
/-- `glm_vec4_make`: include/cglm/vec4.h:1285-1290 -/
def f_glm_vec4_make : Fn := ⟨[],
  [rd 0 0, wr 1 0, rd 0 4, wr 1 4, rd 0 8, wr 1 8, rd 0 12, wr 1 12]⟩
/-- `glm_vec4_reflect`: include/cglm/vec4.h:1299-1309 -/
def f_glm_vec4_reflect : Fn := ⟨[⟨16, [.vec]⟩],
  [.call 140 [⟨0, 0, []⟩, ⟨1, 0, []⟩], .call 150 [⟨1, 0, []⟩, ⟨3, 0, []⟩], .call 147 [⟨0, 0, []⟩, ⟨3, 0, []⟩, ⟨2, 0, []⟩],
   rd 0 12, wr 2 12]⟩
/-- `glm_vec4_refract`: include/cglm/vec4.h:1329-1346 -/
def f_glm_vec4_refract : Fn := ⟨[],
  [.call 140 [⟨1, 0, []⟩, ⟨0, 0, []⟩], .call 138 [⟨2, 0, []⟩], .call 150 [⟨0, 0, []⟩, ⟨2, 0, []⟩],
   .call 163 [⟨1, 0, []⟩, ⟨2, 0, []⟩]]⟩
/-- `glm_vec3`: include/cglm/vec3.h:141-147 -/
def f_glm_vec3 : Fn := ⟨[],
  [rd 0 0, wr 1 0, rd 0 4, wr 1 4, rd 0 8, wr 1 8]⟩
/-- `glm_vec3_copy`: include/cglm/vec3.h:155-161 -/
def f_glm_vec3_copy : Fn := ⟨[],
  [rd 0 0, wr 1 0, rd 0 4, wr 1 4, rd 0 8, wr 1 8]⟩
/-- `glm_vec3_zero`: include/cglm/vec3.h:168-172 -/
def f_glm_vec3_zero : Fn := ⟨[],
  [wr 0 8, wr 0 4, wr 0 0]⟩
/-- `glm_vec3_one`: include/cglm/vec3.h:179-183 -/
def f_glm_vec3_one : Fn := ⟨[],
  [wr 0 8, wr 0 4, wr 0 0]⟩
/-- `glm_vec3_dot`: include/cglm/vec3.h:193-197 -/
def f_glm_vec3_dot : Fn := ⟨[],
  [rd 0 0, rd 1 0, rd 0 4, rd 1 4, rd 0 8, rd 1 8]⟩
/-- `glm_vec3_norm2`: include/cglm/vec3.h:210-214 -/
def f_glm_vec3_norm2 : Fn := ⟨[],
  [.call 193 [⟨0, 0, []⟩, ⟨0, 0, []⟩]]⟩
/-- `glm_vec3_norm`: include/cglm/vec3.h:224-228 -/
def f_glm_vec3_norm : Fn := ⟨[],
  [.call 194 [⟨0, 0, []⟩]]⟩
/-- `glm_vec3_norm_one`: include/cglm/vec3.h:244-250 -/
def f_glm_vec3_norm_one : Fn := ⟨[⟨12, []⟩],
  [.call 105 [⟨0, 0, []⟩, ⟨1, 0, []⟩], .call 111 [⟨1, 0, []⟩]]⟩
/-- `glm_vec3_norm_inf`: include/cglm/vec3.h:265-271 -/
def f_glm_vec3_norm_inf : Fn := ⟨[⟨12, []⟩],
  [.call 105 [⟨0, 0, []⟩, ⟨1, 0, []⟩], .call 99 [⟨1, 0, []⟩]]⟩
/-- `glm_vec3_add`: include/cglm/vec3.h:280-286 -/
def f_glm_vec3_add : Fn := ⟨[],
  [rd 0 0, rd 1 0, wr 2 0, rd 0 4, rd 1 4, wr 2 4, rd 0 8, rd 1 8, wr 2 8]⟩
/-- `glm_vec3_adds`: include/cglm/vec3.h:295-301 -/
def f_glm_vec3_adds : Fn := ⟨[],
  [rd 0 0, wr 1 0, rd 0 4, wr 1 4, rd 0 8, wr 1 8]⟩
/-- `glm_vec3_sub`: include/cglm/vec3.h:310-316 -/
def f_glm_vec3_sub : Fn := ⟨[],
  [rd 0 0, rd 1 0, wr 2 0, rd 0 4, rd 1 4, wr 2 4, rd 0 8, rd 1 8, wr 2 8]⟩
/-- `glm_vec3_subs`: include/cglm/vec3.h:325-331 -/
def f_glm_vec3_subs : Fn := ⟨[],
  [rd 0 0, wr 1 0, rd 0 4, wr 1 4, rd 0 8, wr 1 8]⟩
/-- `glm_vec3_mul`: include/cglm/vec3.h:340-346 -/
def f_glm_vec3_mul : Fn := ⟨[],
  [rd 0 0, rd 1 0, wr 2 0, rd 0 4, rd 1 4, wr 2 4, rd 0 8, rd 1 8, wr 2 8]⟩
/-- `glm_vec3_scale`: include/cglm/vec3.h:355-361 -/
def f_glm_vec3_scale : Fn := ⟨[],
  [rd 0 0, wr 1 0, rd 0 4, wr 1 4, rd 0 8, wr 1 8]⟩
/-- `glm_vec3_scale_as`: include/cglm/vec3.h:370-382 -/
def f_glm_vec3_scale_as : Fn := ⟨[],
  [.call 195 [⟨0, 0, []⟩], .call 191 [⟨1, 0, []⟩], .call 203 [⟨0, 0, []⟩, ⟨1, 0, []⟩]]⟩
/-- `glm_vec3_div`: include/cglm/vec3.h:391-397 -/
def f_glm_vec3_div : Fn := ⟨[],
  [rd 0 0, rd 1 0, wr 2 0, rd 0 4, rd 1 4, wr 2 4, rd 0 8, rd 1 8, wr 2 8]⟩
/-- `glm_vec3_divs`: include/cglm/vec3.h:406-412 -/
def f_glm_vec3_divs : Fn := ⟨[],
  [rd 0 0, wr 1 0, rd 0 4, wr 1 4, rd 0 8, wr 1 8]⟩
/-- `glm_vec3_addadd`: include/cglm/vec3.h:423-429 -/
def f_glm_vec3_addadd : Fn := ⟨[],
  [rd 0 0, rd 1 0, rd 2 0, wr 2 0, rd 0 4, rd 1 4, rd 2 4, wr 2 4, rd 0 8, rd 1 8, rd 2 8, wr 2 8]⟩
/-- `glm_vec3_subadd`: include/cglm/vec3.h:440-446 -/
def f_glm_vec3_subadd : Fn := ⟨[],
  [rd 0 0, rd 1 0, rd 2 0, wr 2 0, rd 0 4, rd 1 4, rd 2 4, wr 2 4, rd 0 8, rd 1 8, rd 2 8, wr 2 8]⟩
/-- `glm_vec3_muladd`: include/cglm/vec3.h:457-463 -/
def f_glm_vec3_muladd : Fn := ⟨[],
  [rd 0 0, rd 1 0, rd 2 0, wr 2 0, rd 0 4, rd 1 4, rd 2 4, wr 2 4, rd 0 8, rd 1 8, rd 2 8, wr 2 8]⟩
/-- `glm_vec3_muladds`: include/cglm/vec3.h:474-480 -/
def f_glm_vec3_muladds : Fn := ⟨[],
  [rd 0 0, rd 1 0, wr 1 0, rd 0 4, rd 1 4, wr 1 4, rd 0 8, rd 1 8, wr 1 8]⟩
/-- `glm_vec3_maxadd`: include/cglm/vec3.h:491-497 -/
def f_glm_vec3_maxadd : Fn := ⟨[],
  [rd 0 0, rd 1 0, .call 8 [], rd 2 0, wr 2 0, rd 0 4, rd 1 4, rd 2 4, wr 2 4, rd 0 8, rd 1 8, rd 2 8, wr 2 8]⟩
/-- `glm_vec3_minadd`: include/cglm/vec3.h:508-514 -/
def f_glm_vec3_minadd : Fn := ⟨[],
  [rd 0 0, rd 1 0, .call 7 [], rd 2 0, wr 2 0, rd 0 4, rd 1 4, rd 2 4, wr 2 4, rd 0 8, rd 1 8, rd 2 8, wr 2 8]⟩
/-- `glm_vec3_subsub`: include/cglm/vec3.h:525-531 -/
def f_glm_vec3_subsub : Fn := ⟨[],
  [rd 0 0, rd 1 0, rd 2 0, wr 2 0, rd 0 4, rd 1 4, rd 2 4, wr 2 4, rd 0 8, rd 1 8, rd 2 8, wr 2 8]⟩
/-- `glm_vec3_addsub`: include/cglm/vec3.h:542-548 -/
def f_glm_vec3_addsub : Fn := ⟨[],
  [rd 0 0, rd 1 0, rd 2 0, wr 2 0, rd 0 4, rd 1 4, rd 2 4, wr 2 4, rd 0 8, rd 1 8, rd 2 8, wr 2 8]⟩
/-- `glm_vec3_mulsub`: include/cglm/vec3.h:559-565 -/
def f_glm_vec3_mulsub : Fn := ⟨[],
  [rd 0 0, rd 1 0, rd 2 0, wr 2 0, rd 0 4, rd 1 4, rd 2 4, wr 2 4, rd 0 8, rd 1 8, rd 2 8, wr 2 8]⟩
/-- `glm_vec3_mulsubs`: include/cglm/vec3.h:576-582 -/
def f_glm_vec3_mulsubs : Fn := ⟨[],
  [rd 0 0, rd 1 0, wr 1 0, rd 0 4, rd 1 4, wr 1 4, rd 0 8, rd 1 8, wr 1 8]⟩
/-- `glm_vec3_maxsub`: include/cglm/vec3.h:593-599 -/
def f_glm_vec3_maxsub : Fn := ⟨[],
  [rd 0 0, rd 1 0, .call 8 [], rd 2 0, wr 2 0, rd 0 4, rd 1 4, rd 2 4, wr 2 4, rd 0 8, rd 1 8, rd 2 8, wr 2 8]⟩
/-- `glm_vec3_minsub`: include/cglm/vec3.h:610-616 -/
def f_glm_vec3_minsub : Fn := ⟨[],
  [rd 0 0, rd 1 0, .call 7 [], rd 2 0, wr 2 0, rd 0 4, rd 1 4, rd 2 4, wr 2 4, rd 0 8, rd 1 8, rd 2 8, wr 2 8]⟩
/-- `glm_vec3_negate_to`: include/cglm/vec3.h:624-630 -/
def f_glm_vec3_negate_to : Fn := ⟨[],
  [rd 0 0, wr 1 0, rd 0 4, wr 1 4, rd 0 8, wr 1 8]⟩
/-- `glm_vec3_negate`: include/cglm/vec3.h:637-641 -/
def f_glm_vec3_negate : Fn := ⟨[],
  [.call 219 [⟨0, 0, []⟩, ⟨0, 0, []⟩]]⟩
/-- `glm_vec3_normalize`: include/cglm/vec3.h:648-661 -/
def f_glm_vec3_normalize : Fn := ⟨[],
  [.call 195 [⟨0, 0, []⟩], wr 0 8, wr 0 4, wr 0 0, .call 203 [⟨0, 0, []⟩, ⟨0, 0, []⟩]]⟩
/-- `glm_vec3_normalize_to`: include/cglm/vec3.h:669-682 -/
def f_glm_vec3_normalize_to : Fn := ⟨[],
  [.call 195 [⟨0, 0, []⟩], .call 191 [⟨1, 0, []⟩], .call 203 [⟨0, 0, []⟩, ⟨1, 0, []⟩]]⟩
/-- `glm_vec3_cross`: include/cglm/vec3.h:691-700 -/
def f_glm_vec3_cross : Fn := ⟨[⟨12, []⟩],
  [rd 0 4, rd 1 8, rd 0 8, rd 1 4, wr 3 0, rd 1 0, rd 0 0, wr 3 4, wr 3 8, .call 190 [⟨3, 0, []⟩, ⟨2, 0, []⟩]]⟩
/-- `glm_vec3_crossn`: include/cglm/vec3.h:709-714 -/
def f_glm_vec3_crossn : Fn := ⟨[],
  [.call 223 [⟨0, 0, []⟩, ⟨1, 0, []⟩, ⟨2, 0, []⟩], .call 221 [⟨2, 0, []⟩]]⟩
/-- `glm_vec3_angle`: include/cglm/vec3.h:724-739 -/
def f_glm_vec3_angle : Fn := ⟨[],
  [.call 195 [⟨0, 0, []⟩], .call 195 [⟨1, 0, []⟩], .call 193 [⟨0, 0, []⟩, ⟨1, 0, []⟩]]⟩
/-- `glm_vec3_rotate`: include/cglm/vec3.h:748-771 -/
def f_glm_vec3_rotate : Fn := ⟨[⟨12, []⟩, ⟨12, []⟩, ⟨12, []⟩],
  [.call 222 [⟨1, 0, []⟩, ⟨4, 0, []⟩], .call 203 [⟨0, 0, []⟩, ⟨2, 0, []⟩], .call 223 [⟨4, 0, []⟩, ⟨0, 0, []⟩, ⟨3, 0, []⟩],
   .call 203 [⟨3, 0, []⟩, ⟨3, 0, []⟩], .call 198 [⟨2, 0, []⟩, ⟨3, 0, []⟩, ⟨2, 0, []⟩], .call 193 [⟨4, 0, []⟩, ⟨0, 0, []⟩],
   .call 203 [⟨4, 0, []⟩, ⟨3, 0, []⟩], .call 198 [⟨2, 0, []⟩, ⟨3, 0, []⟩, ⟨0, 0, []⟩]]⟩
/-- `glm_vec3_rotate_m4`: include/cglm/vec3.h:786-800 -/
def f_glm_vec3_rotate_m4 : Fn := ⟨[⟨16, [.vec]⟩, ⟨16, [.vec]⟩, ⟨16, [.vec]⟩, ⟨16, [.vec]⟩],
  [.call 168 [⟨0, 0, []⟩, ⟨3, 0, []⟩], .call 168 [⟨0, 16, []⟩, ⟨4, 0, []⟩], .call 168 [⟨0, 32, []⟩, ⟨5, 0, []⟩], rd 1 0,
   .call 150 [⟨3, 0, []⟩, ⟨6, 0, []⟩], rd 1 4, .call 157 [⟨4, 0, []⟩, ⟨6, 0, []⟩], rd 1 8, .call 157 [⟨5, 0, []⟩, ⟨6, 0, []⟩],
   .call 189 [⟨6, 0, []⟩, ⟨2, 0, []⟩]]⟩
/-- `glm_vec3_rotate_m3`: include/cglm/vec3.h:809-827 -/
def f_glm_vec3_rotate_m3 : Fn := ⟨[⟨16, [.vec]⟩, ⟨16, [.vec]⟩, ⟨16, [.vec]⟩, ⟨16, [.vec]⟩],
  [.call 134 [⟨0, 0, []⟩, ⟨4, 0, []⟩], .call 134 [⟨0, 12, []⟩, ⟨5, 0, []⟩], .call 134 [⟨0, 24, []⟩, ⟨6, 0, []⟩],
   .call 169 [⟨4, 0, []⟩], .call 169 [⟨5, 0, []⟩], .call 169 [⟨6, 0, []⟩], rd 1 0, .call 150 [⟨4, 0, []⟩, ⟨3, 0, []⟩], rd 1 4,
   .call 157 [⟨5, 0, []⟩, ⟨3, 0, []⟩], rd 1 8, .call 157 [⟨6, 0, []⟩, ⟨3, 0, []⟩], .call 189 [⟨3, 0, []⟩, ⟨2, 0, []⟩]]⟩
/-- `glm_vec3_proj`: include/cglm/vec3.h:836-842 -/
def f_glm_vec3_proj : Fn := ⟨[],
  [.call 193 [⟨0, 0, []⟩, ⟨1, 0, []⟩], .call 194 [⟨1, 0, []⟩], .call 203 [⟨1, 0, []⟩, ⟨2, 0, []⟩]]⟩
/-- `glm_vec3_center`: include/cglm/vec3.h:851-856 -/
def f_glm_vec3_center : Fn := ⟨[],
  [.call 198 [⟨0, 0, []⟩, ⟨1, 0, []⟩, ⟨2, 0, []⟩], .call 203 [⟨2, 0, []⟩, ⟨2, 0, []⟩]]⟩
/-- `glm_vec3_distance2`: include/cglm/vec3.h:865-871 -/
def f_glm_vec3_distance2 : Fn := ⟨[],
  [rd 0 0, rd 1 0, .call 6 [], rd 0 4, rd 1 4, rd 0 8, rd 1 8]⟩
/-- `glm_vec3_distance`: include/cglm/vec3.h:880-884 -/
def f_glm_vec3_distance : Fn := ⟨[],
  [.call 231 [⟨0, 0, []⟩, ⟨1, 0, []⟩]]⟩
/-- `glm_vec3_maxv`: include/cglm/vec3.h:893-899 -/
def f_glm_vec3_maxv : Fn := ⟨[],
  [rd 0 0, rd 1 0, .call 8 [], wr 2 0, rd 0 4, rd 1 4, wr 2 4, rd 0 8, rd 1 8, wr 2 8]⟩
/-- `glm_vec3_minv`: include/cglm/vec3.h:908-914 -/
def f_glm_vec3_minv : Fn := ⟨[],
  [rd 0 0, rd 1 0, .call 7 [], wr 2 0, rd 0 4, rd 1 4, wr 2 4, rd 0 8, rd 1 8, wr 2 8]⟩
/-- `glm_vec3_ortho`: include/cglm/vec3.h:922-929 -/
def f_glm_vec3_ortho : Fn := ⟨[⟨4, []⟩, ⟨12, []⟩],
  [rd 0 0, wr 2 0, rd 0 4, rd 0 8, .call 190 [⟨3, 0, []⟩, ⟨1, 0, []⟩]]⟩
/-- `glm_vec3_clamp`: include/cglm/vec3.h:938-944 -/
def f_glm_vec3_clamp : Fn := ⟨[],
  [rd 0 0, .call 11 [], wr 0 0, rd 0 4, wr 0 4, rd 0 8, wr 0 8]⟩
/-- `glm_vec3_lerp`: include/cglm/vec3.h:956-966 -/
def f_glm_vec3_lerp : Fn := ⟨[⟨12, []⟩, ⟨12, []⟩],
  [.call 92 [⟨3, 0, []⟩], .call 200 [⟨1, 0, []⟩, ⟨0, 0, []⟩, ⟨4, 0, []⟩], .call 202 [⟨3, 0, []⟩, ⟨4, 0, []⟩, ⟨4, 0, []⟩],
   .call 198 [⟨0, 0, []⟩, ⟨4, 0, []⟩, ⟨2, 0, []⟩]]⟩
/-- `glm_vec3_lerpc`: include/cglm/vec3.h:978-982 -/
def f_glm_vec3_lerpc : Fn := ⟨[],
  [.call 12 [], .call 237 [⟨0, 0, []⟩, ⟨1, 0, []⟩, ⟨2, 0, []⟩]]⟩
/-- `glm_vec3_mix`: include/cglm/vec3.h:994-998 -/
def f_glm_vec3_mix : Fn := ⟨[],
  [.call 237 [⟨0, 0, []⟩, ⟨1, 0, []⟩, ⟨2, 0, []⟩]]⟩
/-- `glm_vec3_mixc`: include/cglm/vec3.h:1010-1014 -/
def f_glm_vec3_mixc : Fn := ⟨[],
  [.call 238 [⟨0, 0, []⟩, ⟨1, 0, []⟩, ⟨2, 0, []⟩]]⟩
/-- `glm_vec3_step`: include/cglm/vec3.h:1023-1029 -/
def f_glm_vec3_step : Fn := ⟨[],
  [rd 0 0, rd 1 0, .call 15 [], wr 2 0, rd 0 4, rd 1 4, wr 2 4, rd 0 8, rd 1 8, wr 2 8]⟩
/-- `glm_vec3_smoothstep_uni`: include/cglm/vec3.h:1039-1045 -/
def f_glm_vec3_smoothstep_uni : Fn := ⟨[],
  [rd 0 0, .call 17 [], wr 1 0, rd 0 4, wr 1 4, rd 0 8, wr 1 8]⟩
/-- `glm_vec3_smoothstep`: include/cglm/vec3.h:1055-1061 -/
def f_glm_vec3_smoothstep : Fn := ⟨[],
  [rd 0 0, rd 1 0, rd 2 0, .call 17 [], wr 3 0, rd 0 4, rd 1 4, rd 2 4, wr 3 4, rd 0 8, rd 1 8, rd 2 8, wr 3 8]⟩
/-- `glm_vec3_smoothinterp`: include/cglm/vec3.h:1073-1083 -/
def f_glm_vec3_smoothinterp : Fn := ⟨[⟨12, []⟩, ⟨12, []⟩],
  [.call 16 [], .call 92 [⟨3, 0, []⟩], .call 200 [⟨1, 0, []⟩, ⟨0, 0, []⟩, ⟨4, 0, []⟩],
   .call 202 [⟨3, 0, []⟩, ⟨4, 0, []⟩, ⟨4, 0, []⟩], .call 198 [⟨0, 0, []⟩, ⟨4, 0, []⟩, ⟨2, 0, []⟩]]⟩
/-- `glm_vec3_smoothinterpc`: include/cglm/vec3.h:1095-1099 -/
def f_glm_vec3_smoothinterpc : Fn := ⟨[],
  [.call 12 [], .call 244 [⟨0, 0, []⟩, ⟨1, 0, []⟩, ⟨2, 0, []⟩]]⟩
/-- `glm_vec3_swizzle`: include/cglm/vec3.h:1110-1120 -/
def f_glm_vec3_swizzle : Fn := ⟨[⟨12, []⟩],
  [.access ⟨0, 0, [(4, 3)]⟩ 4 4 false, wr 2 0, wr 2 4, wr 2 8, .call 190 [⟨2, 0, []⟩, ⟨1, 0, []⟩]]⟩
/-- `glm_cross`: include/cglm/vec3.h:1131-1135 -/
def f_glm_cross : Fn := ⟨[],
  [.call 223 [⟨0, 0, []⟩, ⟨1, 0, []⟩, ⟨2, 0, []⟩]]⟩
/-- `glm_dot`: include/cglm/vec3.h:1147-1151 -/
def f_glm_dot : Fn := ⟨[],
  [.call 193 [⟨0, 0, []⟩, ⟨1, 0, []⟩]]⟩
/-- `glm_normalize`: include/cglm/vec3.h:1160-1164 -/
def f_glm_normalize : Fn := ⟨[],
  [.call 221 [⟨0, 0, []⟩]]⟩
/-- `glm_normalize_to`: include/cglm/vec3.h:1174-1178 -/
def f_glm_normalize_to : Fn := ⟨[],
  [.call 222 [⟨0, 0, []⟩, ⟨1, 0, []⟩]]⟩
/-- `glm_vec3_make`: include/cglm/vec3.h:1186-1192 -/
def f_glm_vec3_make : Fn := ⟨[],
  [rd 0 0, wr 1 0, rd 0 4, wr 1 4, rd 0 8, wr 1 8]⟩
/-- `glm_vec3_faceforward`: include/cglm/vec3.h:1204-1214 -/
def f_glm_vec3_faceforward : Fn := ⟨[],
  [.call 193 [⟨1, 0, []⟩, ⟨2, 0, []⟩], .call 190 [⟨0, 0, []⟩, ⟨3, 0, []⟩], .call 219 [⟨0, 0, []⟩, ⟨3, 0, []⟩]]⟩
/-- `glm_vec3_reflect`: include/cglm/vec3.h:1223-1229 -/
def f_glm_vec3_reflect : Fn := ⟨[⟨12, []⟩],
  [.call 193 [⟨0, 0, []⟩, ⟨1, 0, []⟩], .call 203 [⟨1, 0, []⟩, ⟨3, 0, []⟩], .call 200 [⟨0, 0, []⟩, ⟨3, 0, []⟩, ⟨2, 0, []⟩]]⟩
/-- `glm_vec3_refract`: include/cglm/vec3.h:1245-1262 -/
def f_glm_vec3_refract : Fn := ⟨[],
  [.call 193 [⟨1, 0, []⟩, ⟨0, 0, []⟩], .call 191 [⟨2, 0, []⟩], .call 203 [⟨0, 0, []⟩, ⟨2, 0, []⟩],
   .call 216 [⟨1, 0, []⟩, ⟨2, 0, []⟩]]⟩
/-- `glm_ivec2`: include/cglm/ivec2.h:76-81 -/
def f_glm_ivec2 : Fn := ⟨[],
  [rd 0 0, wr 1 0, rd 0 4, wr 1 4]⟩
/-- `glm_ivec2_copy`: include/cglm/ivec2.h:89-94 -/
def f_glm_ivec2_copy : Fn := ⟨[],
  [rd 0 0, wr 1 0, rd 0 4, wr 1 4]⟩
/-- `glm_ivec2_zero`: include/cglm/ivec2.h:101-105 -/
def f_glm_ivec2_zero : Fn := ⟨[],
  [wr 0 4, wr 0 0]⟩
/-- `glm_ivec2_one`: include/cglm/ivec2.h:112-116 -/
def f_glm_ivec2_one : Fn := ⟨[],
  [wr 0 4, wr 0 0]⟩
/-- `glm_ivec2_dot`: include/cglm/ivec2.h:126-130 -/
def f_glm_ivec2_dot : Fn := ⟨[],
  [rd 0 0, rd 1 0, rd 0 4, rd 1 4]⟩
/-- `glm_ivec2_cross`: include/cglm/ivec2.h:142-146 -/
def f_glm_ivec2_cross : Fn := ⟨[],
  [rd 0 0, rd 1 4, rd 0 4, rd 1 0]⟩
/-- `glm_ivec2_add`: include/cglm/ivec2.h:155-160 -/
def f_glm_ivec2_add : Fn := ⟨[],
  [rd 0 0, rd 1 0, wr 2 0, rd 0 4, rd 1 4, wr 2 4]⟩
/-- `glm_ivec2_adds`: include/cglm/ivec2.h:169-174 -/
def f_glm_ivec2_adds : Fn := ⟨[],
  [rd 0 0, wr 1 0, rd 0 4, wr 1 4]⟩
/-- `glm_ivec2_sub`: include/cglm/ivec2.h:183-188 -/
def f_glm_ivec2_sub : Fn := ⟨[],
  [rd 0 0, rd 1 0, wr 2 0, rd 0 4, rd 1 4, wr 2 4]⟩
/-- `glm_ivec2_subs`: include/cglm/ivec2.h:197-202 -/
def f_glm_ivec2_subs : Fn := ⟨[],
  [rd 0 0, wr 1 0, rd 0 4, wr 1 4]⟩
/-- `glm_ivec2_mul`: include/cglm/ivec2.h:211-216 -/
def f_glm_ivec2_mul : Fn := ⟨[],
  [rd 0 0, rd 1 0, wr 2 0, rd 0 4, rd 1 4, wr 2 4]⟩
/-- `glm_ivec2_scale`: include/cglm/ivec2.h:225-230 -/
def f_glm_ivec2_scale : Fn := ⟨[],
  [rd 0 0, wr 1 0, rd 0 4, wr 1 4]⟩
/-- `glm_ivec2_div`: include/cglm/ivec2.h:239-244 -/
def f_glm_ivec2_div : Fn := ⟨[],
  [rd 0 0, rd 1 0, wr 2 0, rd 0 4, rd 1 4, wr 2 4]⟩
/-- `glm_ivec2_divs`: include/cglm/ivec2.h:253-258 -/
def f_glm_ivec2_divs : Fn := ⟨[],
  [rd 0 0, wr 1 0, rd 0 4, wr 1 4]⟩
/-- `glm_ivec2_mod`: include/cglm/ivec2.h:267-272 -/
def f_glm_ivec2_mod : Fn := ⟨[],
  [rd 0 0, rd 1 0, wr 2 0, rd 0 4, rd 1 4, wr 2 4]⟩
/-- `glm_ivec2_addadd`: include/cglm/ivec2.h:283-288 -/
def f_glm_ivec2_addadd : Fn := ⟨[],
  [rd 0 0, rd 1 0, rd 2 0, wr 2 0, rd 0 4, rd 1 4, rd 2 4, wr 2 4]⟩
/-- `glm_ivec2_addadds`: include/cglm/ivec2.h:299-304 -/
def f_glm_ivec2_addadds : Fn := ⟨[],
  [rd 0 0, rd 1 0, wr 1 0, rd 0 4, rd 1 4, wr 1 4]⟩
/-- `glm_ivec2_subadd`: include/cglm/ivec2.h:315-320 -/
def f_glm_ivec2_subadd : Fn := ⟨[],
  [rd 0 0, rd 1 0, rd 2 0, wr 2 0, rd 0 4, rd 1 4, rd 2 4, wr 2 4]⟩
/-- `glm_ivec2_subadds`: include/cglm/ivec2.h:331-336 -/
def f_glm_ivec2_subadds : Fn := ⟨[],
  [rd 0 0, rd 1 0, wr 1 0, rd 0 4, rd 1 4, wr 1 4]⟩
/-- `glm_ivec2_muladd`: include/cglm/ivec2.h:347-352 -/
def f_glm_ivec2_muladd : Fn := ⟨[],
  [rd 0 0, rd 1 0, rd 2 0, wr 2 0, rd 0 4, rd 1 4, rd 2 4, wr 2 4]⟩
/-- `glm_ivec2_muladds`: include/cglm/ivec2.h:363-368 -/
def f_glm_ivec2_muladds : Fn := ⟨[],
  [rd 0 0, rd 1 0, wr 1 0, rd 0 4, rd 1 4, wr 1 4]⟩
/-- `glm_ivec2_maxadd`: include/cglm/ivec2.h:379-384 -/
def f_glm_ivec2_maxadd : Fn := ⟨[],
  [rd 0 0, rd 1 0, .call 10 [], rd 2 0, wr 2 0, rd 0 4, rd 1 4, rd 2 4, wr 2 4]⟩
/-- `glm_ivec2_minadd`: include/cglm/ivec2.h:395-400 -/
def f_glm_ivec2_minadd : Fn := ⟨[],
  [rd 0 0, rd 1 0, .call 9 [], rd 2 0, wr 2 0, rd 0 4, rd 1 4, rd 2 4, wr 2 4]⟩
/-- `glm_ivec2_subsub`: include/cglm/ivec2.h:411-416 -/
def f_glm_ivec2_subsub : Fn := ⟨[],
  [rd 0 0, rd 1 0, rd 2 0, wr 2 0, rd 0 4, rd 1 4, rd 2 4, wr 2 4]⟩
/-- `glm_ivec2_subsubs`: include/cglm/ivec2.h:427-432 -/
def f_glm_ivec2_subsubs : Fn := ⟨[],
  [rd 0 0, rd 1 0, wr 1 0, rd 0 4, rd 1 4, wr 1 4]⟩
/-- `glm_ivec2_addsub`: include/cglm/ivec2.h:443-448 -/
def f_glm_ivec2_addsub : Fn := ⟨[],
  [rd 0 0, rd 1 0, rd 2 0, wr 2 0, rd 0 4, rd 1 4, rd 2 4, wr 2 4]⟩
/-- `glm_ivec2_addsubs`: include/cglm/ivec2.h:459-464 -/
def f_glm_ivec2_addsubs : Fn := ⟨[],
  [rd 0 0, rd 1 0, wr 1 0, rd 0 4, rd 1 4, wr 1 4]⟩
/-- `glm_ivec2_mulsub`: include/cglm/ivec2.h:475-480 -/
def f_glm_ivec2_mulsub : Fn := ⟨[],
  [rd 0 0, rd 1 0, rd 2 0, wr 2 0, rd 0 4, rd 1 4, rd 2 4, wr 2 4]⟩
/-- `glm_ivec2_mulsubs`: include/cglm/ivec2.h:491-496 -/
def f_glm_ivec2_mulsubs : Fn := ⟨[],
  [rd 0 0, rd 1 0, wr 1 0, rd 0 4, rd 1 4, wr 1 4]⟩
/-- `glm_ivec2_maxsub`: include/cglm/ivec2.h:507-512 -/
def f_glm_ivec2_maxsub : Fn := ⟨[],
  [rd 0 0, rd 1 0, .call 10 [], rd 2 0, wr 2 0, rd 0 4, rd 1 4, rd 2 4, wr 2 4]⟩
/-- `glm_ivec2_minsub`: include/cglm/ivec2.h:523-528 -/
def f_glm_ivec2_minsub : Fn := ⟨[],
  [rd 0 0, rd 1 0, .call 9 [], rd 2 0, wr 2 0, rd 0 4, rd 1 4, rd 2 4, wr 2 4]⟩
/-- `glm_ivec2_distance2`: include/cglm/ivec2.h:537-544 -/
def f_glm_ivec2_distance2 : Fn := ⟨[],
  [rd 0 0, rd 1 0, rd 0 4, rd 1 4]⟩
/-- `glm_ivec2_distance`: include/cglm/ivec2.h:553-557 -/
def f_glm_ivec2_distance : Fn := ⟨[],
  [.call 286 [⟨0, 0, []⟩, ⟨1, 0, []⟩]]⟩
/-- `glm_ivec2_fill`: include/cglm/ivec2.h:566-570 -/
def f_glm_ivec2_fill : Fn := ⟨[],
  [wr 0 4, wr 0 0]⟩
/-- `glm_ivec2_eq`: include/cglm/ivec2.h:578-582 -/
def f_glm_ivec2_eq : Fn := ⟨[],
  [rd 0 0, rd 0 4]⟩
/-- `glm_ivec2_eqv`: include/cglm/ivec2.h:590-595 -/
def f_glm_ivec2_eqv : Fn := ⟨[],
  [rd 0 0, rd 1 0, rd 0 4, rd 1 4]⟩
/-- `glm_ivec2_maxv`: include/cglm/ivec2.h:604-609 -/
def f_glm_ivec2_maxv : Fn := ⟨[],
  [rd 0 0, rd 1 0, wr 2 0, rd 0 4, rd 1 4, wr 2 4]⟩
/-- `glm_ivec2_minv`: include/cglm/ivec2.h:618-623 -/
def f_glm_ivec2_minv : Fn := ⟨[],
  [rd 0 0, rd 1 0, wr 2 0, rd 0 4, rd 1 4, wr 2 4]⟩
/-- `glm_ivec2_clamp`: include/cglm/ivec2.h:632-644 -/
def f_glm_ivec2_clamp : Fn := ⟨[],
  [rd 0 0, wr 0 0, rd 0 4, wr 0 4]⟩
/-- `glm_ivec2_abs`: include/cglm/ivec2.h:652-657 -/
def f_glm_ivec2_abs : Fn := ⟨[],
  [rd 0 0, wr 1 0, rd 0 4, wr 1 4]⟩
/-- `glm_ivec3`: include/cglm/ivec3.h:77-83 -/
def f_glm_ivec3 : Fn := ⟨[],
  [rd 0 0, wr 1 0, rd 0 4, wr 1 4, rd 0 8, wr 1 8]⟩
/-- `glm_ivec3_copy`: include/cglm/ivec3.h:91-97 -/
def f_glm_ivec3_copy : Fn := ⟨[],
  [rd 0 0, wr 1 0, rd 0 4, wr 1 4, rd 0 8, wr 1 8]⟩
/-- `glm_ivec3_zero`: include/cglm/ivec3.h:104-108 -/
def f_glm_ivec3_zero : Fn := ⟨[],
  [wr 0 8, wr 0 4, wr 0 0]⟩
/-- `glm_ivec3_one`: include/cglm/ivec3.h:115-119 -/
def f_glm_ivec3_one : Fn := ⟨[],
  [wr 0 8, wr 0 4, wr 0 0]⟩
/-- `glm_ivec3_dot`: include/cglm/ivec3.h:129-133 -/
def f_glm_ivec3_dot : Fn := ⟨[],
  [rd 0 0, rd 1 0, rd 0 4, rd 1 4, rd 0 8, rd 1 8]⟩
/-- `glm_ivec3_norm2`: include/cglm/ivec3.h:146-150 -/
def f_glm_ivec3_norm2 : Fn := ⟨[],
  [.call 299 [⟨0, 0, []⟩, ⟨0, 0, []⟩]]⟩
/-- `glm_ivec3_norm`: include/cglm/ivec3.h:160-164 -/
def f_glm_ivec3_norm : Fn := ⟨[],
  [.call 300 [⟨0, 0, []⟩]]⟩
/-- `glm_ivec3_add`: include/cglm/ivec3.h:173-179 -/
def f_glm_ivec3_add : Fn := ⟨[],
  [rd 0 0, rd 1 0, wr 2 0, rd 0 4, rd 1 4, wr 2 4, rd 0 8, rd 1 8, wr 2 8]⟩
/-- `glm_ivec3_adds`: include/cglm/ivec3.h:188-194 -/
def f_glm_ivec3_adds : Fn := ⟨[],
  [rd 0 0, wr 1 0, rd 0 4, wr 1 4, rd 0 8, wr 1 8]⟩
/-- `glm_ivec3_sub`: include/cglm/ivec3.h:203-209 -/
def f_glm_ivec3_sub : Fn := ⟨[],
  [rd 0 0, rd 1 0, wr 2 0, rd 0 4, rd 1 4, wr 2 4, rd 0 8, rd 1 8, wr 2 8]⟩
/-- `glm_ivec3_subs`: include/cglm/ivec3.h:218-224 -/
def f_glm_ivec3_subs : Fn := ⟨[],
  [rd 0 0, wr 1 0, rd 0 4, wr 1 4, rd 0 8, wr 1 8]⟩
/-- `glm_ivec3_mul`: include/cglm/ivec3.h:233-239 -/
def f_glm_ivec3_mul : Fn := ⟨[],
  [rd 0 0, rd 1 0, wr 2 0, rd 0 4, rd 1 4, wr 2 4, rd 0 8, rd 1 8, wr 2 8]⟩
/-- `glm_ivec3_scale`: include/cglm/ivec3.h:248-254 -/
def f_glm_ivec3_scale : Fn := ⟨[],
  [rd 0 0, wr 1 0, rd 0 4, wr 1 4, rd 0 8, wr 1 8]⟩
/-- `glm_ivec3_div`: include/cglm/ivec3.h:263-269 -/
def f_glm_ivec3_div : Fn := ⟨[],
  [rd 0 0, rd 1 0, wr 2 0, rd 0 4, rd 1 4, wr 2 4, rd 0 8, rd 1 8, wr 2 8]⟩
/-- `glm_ivec3_divs`: include/cglm/ivec3.h:278-284 -/
def f_glm_ivec3_divs : Fn := ⟨[],
  [rd 0 0, wr 1 0, rd 0 4, wr 1 4, rd 0 8, wr 1 8]⟩
/-- `glm_ivec3_mod`: include/cglm/ivec3.h:295-301 -/
def f_glm_ivec3_mod : Fn := ⟨[],
  [rd 0 0, rd 1 0, wr 2 0, rd 0 4, rd 1 4, wr 2 4, rd 0 8, rd 1 8, wr 2 8]⟩
/-- `glm_ivec3_addadd`: include/cglm/ivec3.h:312-318 -/
def f_glm_ivec3_addadd : Fn := ⟨[],
  [rd 0 0, rd 1 0, rd 2 0, wr 2 0, rd 0 4, rd 1 4, rd 2 4, wr 2 4, rd 0 8, rd 1 8, rd 2 8, wr 2 8]⟩
/-- `glm_ivec3_addadds`: include/cglm/ivec3.h:329-335 -/
def f_glm_ivec3_addadds : Fn := ⟨[],
  [rd 0 0, rd 1 0, wr 1 0, rd 0 4, rd 1 4, wr 1 4, rd 0 8, rd 1 8, wr 1 8]⟩
/-- `glm_ivec3_subadd`: include/cglm/ivec3.h:346-352 -/
def f_glm_ivec3_subadd : Fn := ⟨[],
  [rd 0 0, rd 1 0, rd 2 0, wr 2 0, rd 0 4, rd 1 4, rd 2 4, wr 2 4, rd 0 8, rd 1 8, rd 2 8, wr 2 8]⟩
/-- `glm_ivec3_subadds`: include/cglm/ivec3.h:363-369 -/
def f_glm_ivec3_subadds : Fn := ⟨[],
  [rd 0 0, rd 1 0, wr 1 0, rd 0 4, rd 1 4, wr 1 4, rd 0 8, rd 1 8, wr 1 8]⟩
/-- `glm_ivec3_muladd`: include/cglm/ivec3.h:380-386 -/
def f_glm_ivec3_muladd : Fn := ⟨[],
  [rd 0 0, rd 1 0, rd 2 0, wr 2 0, rd 0 4, rd 1 4, rd 2 4, wr 2 4, rd 0 8, rd 1 8, rd 2 8, wr 2 8]⟩
/-- `glm_ivec3_muladds`: include/cglm/ivec3.h:397-403 -/
def f_glm_ivec3_muladds : Fn := ⟨[],
  [rd 0 0, rd 1 0, wr 1 0, rd 0 4, rd 1 4, wr 1 4, rd 0 8, rd 1 8, wr 1 8]⟩
/-- `glm_ivec3_maxadd`: include/cglm/ivec3.h:414-420 -/
def f_glm_ivec3_maxadd : Fn := ⟨[],
  [rd 0 0, rd 1 0, .call 10 [], rd 2 0, wr 2 0, rd 0 4, rd 1 4, rd 2 4, wr 2 4, rd 0 8, rd 1 8, rd 2 8, wr 2 8]⟩
/-- `glm_ivec3_minadd`: include/cglm/ivec3.h:431-437 -/
def f_glm_ivec3_minadd : Fn := ⟨[],
  [rd 0 0, rd 1 0, .call 9 [], rd 2 0, wr 2 0, rd 0 4, rd 1 4, rd 2 4, wr 2 4, rd 0 8, rd 1 8, rd 2 8, wr 2 8]⟩
/-- `glm_ivec3_subsub`: include/cglm/ivec3.h:448-454 -/
def f_glm_ivec3_subsub : Fn := ⟨[],
  [rd 0 0, rd 1 0, rd 2 0, wr 2 0, rd 0 4, rd 1 4, rd 2 4, wr 2 4, rd 0 8, rd 1 8, rd 2 8, wr 2 8]⟩
/-- `glm_ivec3_subsubs`: include/cglm/ivec3.h:465-471 -/
def f_glm_ivec3_subsubs : Fn := ⟨[],
  [rd 0 0, rd 1 0, wr 1 0, rd 0 4, rd 1 4, wr 1 4, rd 0 8, rd 1 8, wr 1 8]⟩
/-- `glm_ivec3_addsub`: include/cglm/ivec3.h:482-488 -/
def f_glm_ivec3_addsub : Fn := ⟨[],
  [rd 0 0, rd 1 0, rd 2 0, wr 2 0, rd 0 4, rd 1 4, rd 2 4, wr 2 4, rd 0 8, rd 1 8, rd 2 8, wr 2 8]⟩
/-- `glm_ivec3_addsubs`: include/cglm/ivec3.h:499-505 -/
def f_glm_ivec3_addsubs : Fn := ⟨[],
  [rd 0 0, rd 1 0, wr 1 0, rd 0 4, rd 1 4, wr 1 4, rd 0 8, rd 1 8, wr 1 8]⟩
/-- `glm_ivec3_mulsub`: include/cglm/ivec3.h:516-522 -/
def f_glm_ivec3_mulsub : Fn := ⟨[],
  [rd 0 0, rd 1 0, rd 2 0, wr 2 0, rd 0 4, rd 1 4, rd 2 4, wr 2 4, rd 0 8, rd 1 8, rd 2 8, wr 2 8]⟩
/-- `glm_ivec3_mulsubs`: include/cglm/ivec3.h:533-539 -/
def f_glm_ivec3_mulsubs : Fn := ⟨[],
  [rd 0 0, rd 1 0, wr 1 0, rd 0 4, rd 1 4, wr 1 4, rd 0 8, rd 1 8, wr 1 8]⟩
/-- `glm_ivec3_maxsub`: include/cglm/ivec3.h:550-556 -/
def f_glm_ivec3_maxsub : Fn := ⟨[],
  [rd 0 0, rd 1 0, .call 10 [], rd 2 0, wr 2 0, rd 0 4, rd 1 4, rd 2 4, wr 2 4, rd 0 8, rd 1 8, rd 2 8, wr 2 8]⟩
/-- `glm_ivec3_minsub`: include/cglm/ivec3.h:567-573 -/
def f_glm_ivec3_minsub : Fn := ⟨[],
  [rd 0 0, rd 1 0, .call 9 [], rd 2 0, wr 2 0, rd 0 4, rd 1 4, rd 2 4, wr 2 4, rd 0 8, rd 1 8, rd 2 8, wr 2 8]⟩
/-- `glm_ivec3_distance2`: include/cglm/ivec3.h:582-590 -/
def f_glm_ivec3_distance2 : Fn := ⟨[],
  [rd 0 0, rd 1 0, rd 0 4, rd 1 4, rd 0 8, rd 1 8]⟩
/-- `glm_ivec3_distance`: include/cglm/ivec3.h:599-603 -/
def f_glm_ivec3_distance : Fn := ⟨[],
  [.call 327 [⟨0, 0, []⟩, ⟨1, 0, []⟩]]⟩
/-- `glm_ivec3_fill`: include/cglm/ivec3.h:611-615 -/
def f_glm_ivec3_fill : Fn := ⟨[],
  [wr 0 8, wr 0 4, wr 0 0]⟩
/-- `glm_ivec3_eq`: include/cglm/ivec3.h:623-627 -/
def f_glm_ivec3_eq : Fn := ⟨[],
  [rd 0 0, rd 0 4, rd 0 8]⟩
/-- `glm_ivec3_eqv`: include/cglm/ivec3.h:635-641 -/
def f_glm_ivec3_eqv : Fn := ⟨[],
  [rd 0 0, rd 1 0, rd 0 4, rd 1 4, rd 0 8, rd 1 8]⟩
/-- `glm_ivec3_maxv`: include/cglm/ivec3.h:650-656 -/
def f_glm_ivec3_maxv : Fn := ⟨[],
  [rd 0 0, rd 1 0, wr 2 0, rd 0 4, rd 1 4, wr 2 4, rd 0 8, rd 1 8, wr 2 8]⟩
/-- `glm_ivec3_minv`: include/cglm/ivec3.h:665-671 -/
def f_glm_ivec3_minv : Fn := ⟨[],
  [rd 0 0, rd 1 0, wr 2 0, rd 0 4, rd 1 4, wr 2 4, rd 0 8, rd 1 8, wr 2 8]⟩
/-- `glm_ivec3_clamp`: include/cglm/ivec3.h:680-697 -/
def f_glm_ivec3_clamp : Fn := ⟨[],
  [rd 0 0, wr 0 0, rd 0 4, wr 0 4, rd 0 8, wr 0 8]⟩
/-- `glm_ivec3_abs`: include/cglm/ivec3.h:705-711 -/
def f_glm_ivec3_abs : Fn := ⟨[],
  [rd 0 0, wr 1 0, rd 0 4, wr 1 4, rd 0 8, wr 1 8]⟩
/-- `glm_ivec4`: include/cglm/ivec4.h:69-76 -/
def f_glm_ivec4 : Fn := ⟨[],
  [rd 0 0, wr 1 0, rd 0 4, wr 1 4, rd 0 8, wr 1 8, wr 1 12]⟩
/-- `glm_ivec4_copy`: include/cglm/ivec4.h:84-91 -/
def f_glm_ivec4_copy : Fn := ⟨[],
  [rd 0 0, wr 1 0, rd 0 4, wr 1 4, rd 0 8, wr 1 8, rd 0 12, wr 1 12]⟩
/-- `glm_ivec4_zero`: include/cglm/ivec4.h:98-102 -/
def f_glm_ivec4_zero : Fn := ⟨[],
  [wr 0 12, wr 0 8, wr 0 4, wr 0 0]⟩
/-- `glm_ivec4_one`: include/cglm/ivec4.h:109-113 -/
def f_glm_ivec4_one : Fn := ⟨[],
  [wr 0 12, wr 0 8, wr 0 4, wr 0 0]⟩
/-- `glm_ivec4_add`: include/cglm/ivec4.h:122-129 -/
def f_glm_ivec4_add : Fn := ⟨[],
  [rd 0 0, rd 1 0, wr 2 0, rd 0 4, rd 1 4, wr 2 4, rd 0 8, rd 1 8, wr 2 8, rd 0 12, rd 1 12, wr 2 12]⟩
/-- `glm_ivec4_adds`: include/cglm/ivec4.h:138-145 -/
def f_glm_ivec4_adds : Fn := ⟨[],
  [rd 0 0, wr 1 0, rd 0 4, wr 1 4, rd 0 8, wr 1 8, rd 0 12, wr 1 12]⟩
/-- `glm_ivec4_sub`: include/cglm/ivec4.h:154-161 -/
def f_glm_ivec4_sub : Fn := ⟨[],
  [rd 0 0, rd 1 0, wr 2 0, rd 0 4, rd 1 4, wr 2 4, rd 0 8, rd 1 8, wr 2 8, rd 0 12, rd 1 12, wr 2 12]⟩
/-- `glm_ivec4_subs`: include/cglm/ivec4.h:170-177 -/
def f_glm_ivec4_subs : Fn := ⟨[],
  [rd 0 0, wr 1 0, rd 0 4, wr 1 4, rd 0 8, wr 1 8, rd 0 12, wr 1 12]⟩
/-- `glm_ivec4_mul`: include/cglm/ivec4.h:186-193 -/
def f_glm_ivec4_mul : Fn := ⟨[],
  [rd 0 0, rd 1 0, wr 2 0, rd 0 4, rd 1 4, wr 2 4, rd 0 8, rd 1 8, wr 2 8, rd 0 12, rd 1 12, wr 2 12]⟩
/-- `glm_ivec4_scale`: include/cglm/ivec4.h:202-209 -/
def f_glm_ivec4_scale : Fn := ⟨[],
  [rd 0 0, wr 1 0, rd 0 4, wr 1 4, rd 0 8, wr 1 8, rd 0 12, wr 1 12]⟩
/-- `glm_ivec4_addadd`: include/cglm/ivec4.h:220-227 -/
def f_glm_ivec4_addadd : Fn := ⟨[],
  [rd 0 0, rd 1 0, rd 2 0, wr 2 0, rd 0 4, rd 1 4, rd 2 4, wr 2 4, rd 0 8, rd 1 8, rd 2 8, wr 2 8, rd 0 12, rd 1 12, rd 2 12,
   wr 2 12]⟩
/-- `glm_ivec4_addadds`: include/cglm/ivec4.h:238-245 -/
def f_glm_ivec4_addadds : Fn := ⟨[],
  [rd 0 0, rd 1 0, wr 1 0, rd 0 4, rd 1 4, wr 1 4, rd 0 8, rd 1 8, wr 1 8, rd 0 12, rd 1 12, wr 1 12]⟩
/-- `glm_ivec4_subadd`: include/cglm/ivec4.h:256-263 -/
def f_glm_ivec4_subadd : Fn := ⟨[],
  [rd 0 0, rd 1 0, rd 2 0, wr 2 0, rd 0 4, rd 1 4, rd 2 4, wr 2 4, rd 0 8, rd 1 8, rd 2 8, wr 2 8, rd 0 12, rd 1 12, rd 2 12,
   wr 2 12]⟩
/-- `glm_ivec4_subadds`: include/cglm/ivec4.h:274-281 -/
def f_glm_ivec4_subadds : Fn := ⟨[],
  [rd 0 0, rd 1 0, wr 1 0, rd 0 4, rd 1 4, wr 1 4, rd 0 8, rd 1 8, wr 1 8, rd 0 12, rd 1 12, wr 1 12]⟩
/-- `glm_ivec4_muladd`: include/cglm/ivec4.h:292-299 -/
def f_glm_ivec4_muladd : Fn := ⟨[],
  [rd 0 0, rd 1 0, rd 2 0, wr 2 0, rd 0 4, rd 1 4, rd 2 4, wr 2 4, rd 0 8, rd 1 8, rd 2 8, wr 2 8, rd 0 12, rd 1 12, rd 2 12,
   wr 2 12]⟩
/-- `glm_ivec4_muladds`: include/cglm/ivec4.h:310-317 -/
def f_glm_ivec4_muladds : Fn := ⟨[],
  [rd 0 0, rd 1 0, wr 1 0, rd 0 4, rd 1 4, wr 1 4, rd 0 8, rd 1 8, wr 1 8, rd 0 12, rd 1 12, wr 1 12]⟩
/-- `glm_ivec4_maxadd`: include/cglm/ivec4.h:328-335 -/
def f_glm_ivec4_maxadd : Fn := ⟨[],
  [rd 0 0, rd 1 0, .call 10 [], rd 2 0, wr 2 0, rd 0 4, rd 1 4, rd 2 4, wr 2 4, rd 0 8, rd 1 8, rd 2 8, wr 2 8, rd 0 12,
   rd 1 12, rd 2 12, wr 2 12]⟩
/-- `glm_ivec4_minadd`: include/cglm/ivec4.h:346-353 -/
def f_glm_ivec4_minadd : Fn := ⟨[],
  [rd 0 0, rd 1 0, .call 9 [], rd 2 0, wr 2 0, rd 0 4, rd 1 4, rd 2 4, wr 2 4, rd 0 8, rd 1 8, rd 2 8, wr 2 8, rd 0 12,
   rd 1 12, rd 2 12, wr 2 12]⟩
/-- `glm_ivec4_subsub`: include/cglm/ivec4.h:364-371 -/
def f_glm_ivec4_subsub : Fn := ⟨[],
  [rd 0 0, rd 1 0, rd 2 0, wr 2 0, rd 0 4, rd 1 4, rd 2 4, wr 2 4, rd 0 8, rd 1 8, rd 2 8, wr 2 8, rd 0 12, rd 1 12, rd 2 12,
   wr 2 12]⟩
/-- `glm_ivec4_subsubs`: include/cglm/ivec4.h:382-389 -/
def f_glm_ivec4_subsubs : Fn := ⟨[],
  [rd 0 0, rd 1 0, wr 1 0, rd 0 4, rd 1 4, wr 1 4, rd 0 8, rd 1 8, wr 1 8, rd 0 12, rd 1 12, wr 1 12]⟩
/-- `glm_ivec4_addsub`: include/cglm/ivec4.h:400-407 -/
def f_glm_ivec4_addsub : Fn := ⟨[],
  [rd 0 0, rd 1 0, rd 2 0, wr 2 0, rd 0 4, rd 1 4, rd 2 4, wr 2 4, rd 0 8, rd 1 8, rd 2 8, wr 2 8, rd 0 12, rd 1 12, rd 2 12,
   wr 2 12]⟩
/-- `glm_ivec4_addsubs`: include/cglm/ivec4.h:418-425 -/
def f_glm_ivec4_addsubs : Fn := ⟨[],
  [rd 0 0, rd 1 0, wr 1 0, rd 0 4, rd 1 4, wr 1 4, rd 0 8, rd 1 8, wr 1 8, rd 0 12, rd 1 12, wr 1 12]⟩
/-- `glm_ivec4_mulsub`: include/cglm/ivec4.h:436-443 -/
def f_glm_ivec4_mulsub : Fn := ⟨[],
  [rd 0 0, rd 1 0, rd 2 0, wr 2 0, rd 0 4, rd 1 4, rd 2 4, wr 2 4, rd 0 8, rd 1 8, rd 2 8, wr 2 8, rd 0 12, rd 1 12, rd 2 12,
   wr 2 12]⟩
/-- `glm_ivec4_mulsubs`: include/cglm/ivec4.h:454-461 -/
def f_glm_ivec4_mulsubs : Fn := ⟨[],
  [rd 0 0, rd 1 0, wr 1 0, rd 0 4, rd 1 4, wr 1 4, rd 0 8, rd 1 8, wr 1 8, rd 0 12, rd 1 12, wr 1 12]⟩
/-- `glm_ivec4_maxsub`: include/cglm/ivec4.h:472-479 -/
def f_glm_ivec4_maxsub : Fn := ⟨[],
  [rd 0 0, rd 1 0, .call 10 [], rd 2 0, wr 2 0, rd 0 4, rd 1 4, rd 2 4, wr 2 4, rd 0 8, rd 1 8, rd 2 8, wr 2 8, rd 0 12,
   rd 1 12, rd 2 12, wr 2 12]⟩
/-- `glm_ivec4_minsub`: include/cglm/ivec4.h:490-497 -/
def f_glm_ivec4_minsub : Fn := ⟨[],
  [rd 0 0, rd 1 0, .call 9 [], rd 2 0, wr 2 0, rd 0 4, rd 1 4, rd 2 4, wr 2 4, rd 0 8, rd 1 8, rd 2 8, wr 2 8, rd 0 12,
   rd 1 12, rd 2 12, wr 2 12]⟩
/-- `glm_ivec4_distance2`: include/cglm/ivec4.h:506-515 -/
def f_glm_ivec4_distance2 : Fn := ⟨[],
  [rd 0 0, rd 1 0, rd 0 4, rd 1 4, rd 0 8, rd 1 8, rd 0 12, rd 1 12]⟩
/-- `glm_ivec4_distance`: include/cglm/ivec4.h:524-528 -/
def f_glm_ivec4_distance : Fn := ⟨[],
  [.call 362 [⟨0, 0, []⟩, ⟨1, 0, []⟩]]⟩
/-- `glm_ivec4_maxv`: include/cglm/ivec4.h:537-544 -/
def f_glm_ivec4_maxv : Fn := ⟨[],
  [rd 0 0, rd 1 0, wr 2 0, rd 0 4, rd 1 4, wr 2 4, rd 0 8, rd 1 8, wr 2 8, rd 0 12, rd 1 12, wr 2 12]⟩
/-- `glm_ivec4_minv`: include/cglm/ivec4.h:553-560 -/
def f_glm_ivec4_minv : Fn := ⟨[],
  [rd 0 0, rd 1 0, wr 2 0, rd 0 4, rd 1 4, wr 2 4, rd 0 8, rd 1 8, wr 2 8, rd 0 12, rd 1 12, wr 2 12]⟩
/-- `glm_ivec4_clamp`: include/cglm/ivec4.h:569-591 -/
def f_glm_ivec4_clamp : Fn := ⟨[],
  [rd 0 0, wr 0 0, rd 0 4, wr 0 4, rd 0 8, wr 0 8, rd 0 12, wr 0 12]⟩
/-- `glm_ivec4_abs`: include/cglm/ivec4.h:599-606 -/
def f_glm_ivec4_abs : Fn := ⟨[],
  [rd 0 0, wr 1 0, rd 0 4, wr 1 4, rd 0 8, wr 1 8, rd 0 12, wr 1 12]⟩
/-- `glm_mat4_ucopy`: include/cglm/mat4.h:107-119 -/
def f_glm_mat4_ucopy : Fn := ⟨[],
  [rd 0 0, wr 1 0, rd 0 16, wr 1 16, rd 0 4, wr 1 4, rd 0 20, wr 1 20, rd 0 8, wr 1 8, rd 0 24, wr 1 24, rd 0 12, wr 1 12,
   rd 0 28, wr 1 28, rd 0 32, wr 1 32, rd 0 48, wr 1 48, rd 0 36, wr 1 36, rd 0 52, wr 1 52, rd 0 40, wr 1 40, rd 0 56,
   wr 1 56, rd 0 44, wr 1 44, rd 0 60, wr 1 60]⟩
/-- `glm_mat4_copy`: include/cglm/mat4.h:127-151 -/
def f_glm_mat4_copy : Fn := ⟨[],
  [.call 368 [⟨0, 0, []⟩, ⟨1, 0, []⟩]]⟩
/-- `glm_mat4_identity`: include/cglm/mat4.h:167-172 -/
def f_glm_mat4_identity : Fn := ⟨[⟨64, [.mat, .vec]⟩],
  [.call 369 [⟨1, 0, []⟩, ⟨0, 0, []⟩]]⟩
/-- `glm_mat4_identity_array`: include/cglm/mat4.h:182-191 -/
def f_glm_mat4_identity_array : Fn := ⟨[⟨64, [.mat, .vec]⟩],
  [.call 369 [⟨1, 0, []⟩, ⟨0, 0, []⟩]]⟩
/-- `glm_mat4_zero`: include/cglm/mat4.h:198-231 -/
def f_glm_mat4_zero : Fn := ⟨[⟨64, [.mat, .vec]⟩],
  [.call 369 [⟨1, 0, []⟩, ⟨0, 0, []⟩]]⟩
/-- `glm_mat4_pick3`: include/cglm/mat4.h:239-253 -/
def f_glm_mat4_pick3 : Fn := ⟨[],
  [rd 0 0, wr 1 0, rd 0 4, wr 1 4, rd 0 8, wr 1 8, rd 0 16, wr 1 12, rd 0 20, wr 1 16, rd 0 24, wr 1 20, rd 0 32, wr 1 24,
   rd 0 36, wr 1 28, rd 0 40, wr 1 32]⟩
/-- `glm_mat4_pick3t`: include/cglm/mat4.h:263-277 -/
def f_glm_mat4_pick3t : Fn := ⟨[],
  [rd 0 0, wr 1 0, rd 0 16, wr 1 4, rd 0 32, wr 1 8, rd 0 4, wr 1 12, rd 0 20, wr 1 16, rd 0 36, wr 1 20, rd 0 8, wr 1 24,
   rd 0 24, wr 1 28, rd 0 40, wr 1 32]⟩
/-- `glm_mat4_ins3`: include/cglm/mat4.h:285-299 -/
def f_glm_mat4_ins3 : Fn := ⟨[],
  [rd 0 0, wr 1 0, rd 0 4, wr 1 4, rd 0 8, wr 1 8, rd 0 12, wr 1 16, rd 0 16, wr 1 20, rd 0 20, wr 1 24, rd 0 24, wr 1 32,
   rd 0 28, wr 1 36, rd 0 32, wr 1 40]⟩
/-- `glm_mat4_mul`: include/cglm/mat4.h:315-354 -/
def f_glm_mat4_mul : Fn := ⟨[],
  [rd 0 0, rd 0 4, rd 0 8, rd 0 12, rd 0 16, rd 0 20, rd 0 24, rd 0 28, rd 0 32, rd 0 36, rd 0 40, rd 0 44, rd 0 48, rd 0 52,
   rd 0 56, rd 0 60, rd 1 0, rd 1 4, rd 1 8, rd 1 12, rd 1 16, rd 1 20, rd 1 24, rd 1 28, rd 1 32, rd 1 36, rd 1 40, rd 1 44,
   rd 1 48, rd 1 52, rd 1 56, rd 1 60, wr 2 0, wr 2 4, wr 2 8, wr 2 12, wr 2 16, wr 2 20, wr 2 24, wr 2 28, wr 2 32, wr 2 36,
   wr 2 40, wr 2 44, wr 2 48, wr 2 52, wr 2 56, wr 2 60]⟩
/-- `glm_mat4_mulN`: include/cglm/mat4.h:375-388 -/
def f_glm_mat4_mulN : Fn := ⟨[],
  [.call 376 [⟨0, 0, []⟩, ⟨0, 0, []⟩, ⟨1, 0, []⟩], .call 376 [⟨1, 0, []⟩, ⟨0, 0, []⟩, ⟨1, 0, []⟩]]⟩
/-- `glm_mat4_mulv`: include/cglm/mat4.h:397-414 -/
def f_glm_mat4_mulv : Fn := ⟨[⟨16, [.vec]⟩],
  [rd 0 0, rd 1 0, rd 0 16, rd 1 4, rd 0 32, rd 1 8, rd 0 48, rd 1 12, wr 3 0, rd 0 4, rd 0 20, rd 0 36, rd 0 52, wr 3 4,
   rd 0 8, rd 0 24, rd 0 40, rd 0 56, wr 3 8, rd 0 12, rd 0 28, rd 0 44, rd 0 60, wr 3 12, .call 136 [⟨3, 0, []⟩, ⟨2, 0, []⟩]]⟩
/-- `glm_mat4_trace`: include/cglm/mat4.h:423-427 -/
def f_glm_mat4_trace : Fn := ⟨[],
  [rd 0 0, rd 0 20, rd 0 40, rd 0 60]⟩
/-- `glm_mat4_trace3`: include/cglm/mat4.h:436-440 -/
def f_glm_mat4_trace3 : Fn := ⟨[],
  [rd 0 0, rd 0 20, rd 0 40]⟩
/-- `glm_mat4_quat`: include/cglm/mat4.h:448-489 -/
def f_glm_mat4_quat : Fn := ⟨[],
  [rd 0 0, rd 0 20, rd 0 40, rd 0 24, rd 0 36, wr 1 0, rd 0 32, rd 0 8, wr 1 4, rd 0 4, rd 0 16, wr 1 8, wr 1 12]⟩
/-- `glm_mat4_mulv3`: include/cglm/mat4.h:502-509 -/
def f_glm_mat4_mulv3 : Fn := ⟨[⟨16, [.vec]⟩],
  [.call 134 [⟨1, 0, []⟩, ⟨3, 0, []⟩], .call 378 [⟨0, 0, []⟩, ⟨3, 0, []⟩, ⟨3, 0, []⟩], .call 189 [⟨3, 0, []⟩, ⟨2, 0, []⟩]]⟩
/-- `glm_mat4_transpose_to`: include/cglm/mat4.h:519-540 -/
def f_glm_mat4_transpose_to : Fn := ⟨[],
  [rd 0 0, wr 1 0, rd 0 4, wr 1 16, rd 0 16, wr 1 4, rd 0 20, wr 1 20, rd 0 32, wr 1 8, rd 0 36, wr 1 24, rd 0 48, wr 1 12,
   rd 0 52, wr 1 28, rd 0 8, wr 1 32, rd 0 12, wr 1 48, rd 0 24, wr 1 36, rd 0 28, wr 1 52, rd 0 40, wr 1 40, rd 0 44,
   wr 1 56, rd 0 56, wr 1 44, rd 0 60, wr 1 60]⟩
/-- `glm_mat4_transpose`: include/cglm/mat4.h:547-563 -/
def f_glm_mat4_transpose : Fn := ⟨[⟨64, [.mat, .vec]⟩],
  [.call 383 [⟨0, 0, []⟩, ⟨1, 0, []⟩], .call 368 [⟨1, 0, []⟩, ⟨0, 0, []⟩]]⟩
/-- `glm_mat4_scale_p`: include/cglm/mat4.h:573-580 -/
def f_glm_mat4_scale_p : Fn := ⟨[],
  [rd 0 0, wr 0 0, rd 0 4, wr 0 4, rd 0 8, wr 0 8, rd 0 12, wr 0 12, rd 0 16, wr 0 16, rd 0 20, wr 0 20, rd 0 24, wr 0 24,
   rd 0 28, wr 0 28, rd 0 32, wr 0 32, rd 0 36, wr 0 36, rd 0 40, wr 0 40, rd 0 44, wr 0 44, rd 0 48, wr 0 48, rd 0 52,
   wr 0 52, rd 0 56, wr 0 56, rd 0 60, wr 0 60]⟩
/-- `glm_mat4_scale`: include/cglm/mat4.h:590-604 -/
def f_glm_mat4_scale : Fn := ⟨[],
  [.call 385 [⟨0, 0, []⟩]]⟩
/-- `glm_mat4_det`: include/cglm/mat4.h:613-642 -/
def f_glm_mat4_det : Fn := ⟨[⟨24, []⟩],
  [rd 0 0, rd 0 4, rd 0 8, rd 0 12, rd 0 16, rd 0 20, rd 0 24, rd 0 28, rd 0 32, rd 0 36, rd 0 40, rd 0 44, rd 0 48, rd 0 52,
   rd 0 56, rd 0 60, wr 1 0, wr 1 4, wr 1 8, wr 1 12, wr 1 16, wr 1 20, rd 1 0, rd 1 4, rd 1 8, rd 1 12, rd 1 16, rd 1 20]⟩
/-- `glm_mat4_inv`: include/cglm/mat4.h:650-692 -/
def f_glm_mat4_inv : Fn := ⟨[],
  [rd 0 0, rd 0 4, rd 0 8, rd 0 12, rd 0 16, rd 0 20, rd 0 24, rd 0 28, rd 0 32, rd 0 36, rd 0 40, rd 0 44, rd 0 48, rd 0 52,
   rd 0 56, rd 0 60, wr 1 0, wr 1 4, wr 1 8, wr 1 12, wr 1 16, wr 1 20, wr 1 24, wr 1 28, wr 1 32, wr 1 36, wr 1 40, wr 1 44,
   wr 1 48, wr 1 52, wr 1 56, wr 1 60]⟩
/-- `glm_mat4_inv_fast`: include/cglm/mat4.h:706-716 -/
def f_glm_mat4_inv_fast : Fn := ⟨[],
  [.call 388 [⟨0, 0, []⟩, ⟨1, 0, []⟩]]⟩
/-- `glm_mat4_swap_col`: include/cglm/mat4.h:725-732 -/
def f_glm_mat4_swap_col : Fn := ⟨[⟨16, [.b16, .vec]⟩],
  [.call 136 [⟨0, 0, [(16, 4)]⟩, ⟨1, 0, []⟩], .call 136 [⟨0, 0, [(16, 4)]⟩, ⟨0, 0, [(16, 4)]⟩],
   .call 136 [⟨1, 0, []⟩, ⟨0, 0, [(16, 4)]⟩]]⟩
/-- `glm_mat4_swap_row`: include/cglm/mat4.h:741-759 -/
def f_glm_mat4_swap_row : Fn := ⟨[⟨16, [.b16, .vec]⟩],
  [.access ⟨0, 0, [(4, 4)]⟩ 4 4 false, wr 1 0, .access ⟨0, 16, [(4, 4)]⟩ 4 4 false, wr 1 4,
   .access ⟨0, 32, [(4, 4)]⟩ 4 4 false, wr 1 8, .access ⟨0, 48, [(4, 4)]⟩ 4 4 false, wr 1 12,
   .access ⟨0, 0, [(4, 4)]⟩ 4 4 true, .access ⟨0, 16, [(4, 4)]⟩ 4 4 true, .access ⟨0, 32, [(4, 4)]⟩ 4 4 true,
   .access ⟨0, 48, [(4, 4)]⟩ 4 4 true, rd 1 0, rd 1 4, rd 1 8, rd 1 12]⟩
/-- `glm_mat4_rmc`: include/cglm/mat4.h:775-781 -/
def f_glm_mat4_rmc : Fn := ⟨[⟨16, [.vec]⟩],
  [.call 378 [⟨1, 0, []⟩, ⟨2, 0, []⟩, ⟨3, 0, []⟩], .call 140 [⟨0, 0, []⟩, ⟨3, 0, []⟩]]⟩
/-- `glm_mat4_make`: include/cglm/mat4.h:789-801 -/
def f_glm_mat4_make : Fn := ⟨[],
  [rd 0 0, wr 1 0, rd 0 16, wr 1 16, rd 0 4, wr 1 4, rd 0 20, wr 1 20, rd 0 8, wr 1 8, rd 0 24, wr 1 24, rd 0 12, wr 1 12,
   rd 0 28, wr 1 28, rd 0 32, wr 1 32, rd 0 48, wr 1 48, rd 0 36, wr 1 36, rd 0 52, wr 1 52, rd 0 40, wr 1 40, rd 0 56,
   wr 1 56, rd 0 44, wr 1 44, rd 0 60, wr 1 60]⟩
/-- `glm_mat4_textrans`: include/cglm/mat4.h:813-829 -/
def f_glm_mat4_textrans : Fn := ⟨[],
  [.call 370 [⟨0, 0, []⟩], wr 0 0, wr 0 4, wr 0 16, wr 0 20, wr 0 48, wr 0 52]⟩
/-- `glm_mat4x2_copy`: include/cglm/mat4x2.h:39-46 -/
def f_glm_mat4x2_copy : Fn := ⟨[],
  [.call 47 [⟨0, 0, []⟩, ⟨1, 0, []⟩], .call 47 [⟨0, 8, []⟩, ⟨1, 8, []⟩], .call 47 [⟨0, 16, []⟩, ⟨1, 16, []⟩],
   .call 47 [⟨0, 24, []⟩, ⟨1, 24, []⟩]]⟩
/-- `glm_mat4x2_zero`: include/cglm/mat4x2.h:53-58 -/
def f_glm_mat4x2_zero : Fn := ⟨[⟨32, [.mat]⟩],
  [.call 395 [⟨1, 0, []⟩, ⟨0, 0, []⟩]]⟩
/-- `glm_mat4x2_make`: include/cglm/mat4x2.h:66-80 -/
def f_glm_mat4x2_make : Fn := ⟨[],
  [rd 0 0, wr 1 0, rd 0 4, wr 1 4, rd 0 8, wr 1 8, rd 0 12, wr 1 12, rd 0 16, wr 1 16, rd 0 20, wr 1 20, rd 0 24, wr 1 24,
   rd 0 28, wr 1 28]⟩
/-- `glm_mat4x2_mul`: include/cglm/mat4x2.h:93-109 -/
def f_glm_mat4x2_mul : Fn := ⟨[],
  [rd 0 0, rd 0 4, rd 0 8, rd 0 12, rd 0 16, rd 0 20, rd 0 24, rd 0 28, rd 1 0, rd 1 4, rd 1 8, rd 1 12, rd 1 16, rd 1 20,
   rd 1 24, rd 1 28, wr 2 0, wr 2 4, wr 2 8, wr 2 12]⟩
/-- `glm_mat4x2_mulv`: include/cglm/mat4x2.h:118-125 -/
def f_glm_mat4x2_mulv : Fn := ⟨[],
  [rd 1 0, rd 1 4, rd 1 8, rd 1 12, rd 0 0, rd 0 8, rd 0 16, rd 0 24, wr 2 0, rd 0 4, rd 0 12, rd 0 20, rd 0 28, wr 2 4]⟩
/-- `glm_mat4x2_transpose`: include/cglm/mat4x2.h:133-138 -/
def f_glm_mat4x2_transpose : Fn := ⟨[],
  [rd 0 0, wr 1 0, rd 0 8, wr 1 4, rd 0 16, wr 1 8, rd 0 24, wr 1 12, rd 0 4, wr 1 16, rd 0 12, wr 1 20, rd 0 20, wr 1 24,
   rd 0 28, wr 1 28]⟩
/-- `glm_mat4x2_scale`: include/cglm/mat4x2.h:146-151 -/
def f_glm_mat4x2_scale : Fn := ⟨[],
  [rd 0 0, wr 0 0, rd 0 4, wr 0 4, rd 0 8, wr 0 8, rd 0 12, wr 0 12, rd 0 16, wr 0 16, rd 0 20, wr 0 20, rd 0 24, wr 0 24,
   rd 0 28, wr 0 28]⟩
/-- `glm_mat4x3_copy`: include/cglm/mat4x3.h:40-47 -/
def f_glm_mat4x3_copy : Fn := ⟨[],
  [.call 190 [⟨0, 0, []⟩, ⟨1, 0, []⟩], .call 190 [⟨0, 12, []⟩, ⟨1, 12, []⟩], .call 190 [⟨0, 24, []⟩, ⟨1, 24, []⟩],
   .call 190 [⟨0, 36, []⟩, ⟨1, 36, []⟩]]⟩
/-- `glm_mat4x3_zero`: include/cglm/mat4x3.h:54-59 -/
def f_glm_mat4x3_zero : Fn := ⟨[⟨48, [.mat]⟩],
  [.call 402 [⟨1, 0, []⟩, ⟨0, 0, []⟩]]⟩
/-- `glm_mat4x3_make`: include/cglm/mat4x3.h:67-85 -/
def f_glm_mat4x3_make : Fn := ⟨[],
  [rd 0 0, wr 1 0, rd 0 4, wr 1 4, rd 0 8, wr 1 8, rd 0 12, wr 1 12, rd 0 16, wr 1 16, rd 0 20, wr 1 20, rd 0 24, wr 1 24,
   rd 0 28, wr 1 28, rd 0 32, wr 1 32, rd 0 36, wr 1 36, rd 0 40, wr 1 40, rd 0 44, wr 1 44]⟩
/-- `glm_mat4x3_mul`: include/cglm/mat4x3.h:98-121 -/
def f_glm_mat4x3_mul : Fn := ⟨[],
  [rd 0 0, rd 0 4, rd 0 8, rd 0 12, rd 0 16, rd 0 20, rd 0 24, rd 0 28, rd 0 32, rd 0 36, rd 0 40, rd 0 44, rd 1 0, rd 1 4,
   rd 1 8, rd 1 12, rd 1 16, rd 1 20, rd 1 24, rd 1 28, rd 1 32, rd 1 36, rd 1 40, rd 1 44, wr 2 0, wr 2 4, wr 2 8, wr 2 12,
   wr 2 16, wr 2 20, wr 2 24, wr 2 28, wr 2 32]⟩
/-- `glm_mat4x3_mulv`: include/cglm/mat4x3.h:130-138 -/
def f_glm_mat4x3_mulv : Fn := ⟨[],
  [rd 1 0, rd 1 4, rd 1 8, rd 1 12, rd 0 0, rd 0 12, rd 0 24, rd 0 36, wr 2 0, rd 0 4, rd 0 16, rd 0 28, rd 0 40, wr 2 4,
   rd 0 8, rd 0 20, rd 0 32, rd 0 44, wr 2 8]⟩
/-- `glm_mat4x3_transpose`: include/cglm/mat4x3.h:146-152 -/
def f_glm_mat4x3_transpose : Fn := ⟨[],
  [rd 0 0, wr 1 0, rd 0 12, wr 1 4, rd 0 24, wr 1 8, rd 0 36, wr 1 12, rd 0 4, wr 1 16, rd 0 16, wr 1 20, rd 0 28, wr 1 24,
   rd 0 40, wr 1 28, rd 0 8, wr 1 32, rd 0 20, wr 1 36, rd 0 32, wr 1 40, rd 0 44, wr 1 44]⟩
/-- `glm_mat4x3_scale`: include/cglm/mat4x3.h:160-166 -/
def f_glm_mat4x3_scale : Fn := ⟨[],
  [rd 0 0, wr 0 0, rd 0 4, wr 0 4, rd 0 8, wr 0 8, rd 0 12, wr 0 12, rd 0 16, wr 0 16, rd 0 20, wr 0 20, rd 0 24, wr 0 24,
   rd 0 28, wr 0 28, rd 0 32, wr 0 32, rd 0 36, wr 0 36, rd 0 40, wr 0 40, rd 0 44, wr 0 44]⟩
/-- `glm_mat3_copy`: include/cglm/mat3.h:72-86 -/
def f_glm_mat3_copy : Fn := ⟨[],
  [rd 0 0, wr 1 0, rd 0 4, wr 1 4, rd 0 8, wr 1 8, rd 0 12, wr 1 12, rd 0 16, wr 1 16, rd 0 20, wr 1 20, rd 0 24, wr 1 24,
   rd 0 28, wr 1 28, rd 0 32, wr 1 32]⟩
/-- `glm_mat3_identity`: include/cglm/mat3.h:102-107 -/
def f_glm_mat3_identity : Fn := ⟨[⟨36, [.mat]⟩],
  [.call 409 [⟨1, 0, []⟩, ⟨0, 0, []⟩]]⟩
/-- `glm_mat3_identity_array`: include/cglm/mat3.h:117-126 -/
def f_glm_mat3_identity_array : Fn := ⟨[⟨36, [.mat]⟩],
  [.call 409 [⟨1, 0, []⟩, ⟨0, 0, []⟩]]⟩
/-- `glm_mat3_zero`: include/cglm/mat3.h:133-138 -/
def f_glm_mat3_zero : Fn := ⟨[⟨36, [.mat]⟩],
  [.call 409 [⟨1, 0, []⟩, ⟨0, 0, []⟩]]⟩
/-- `glm_mat3_mul`: include/cglm/mat3.h:154-180 -/
def f_glm_mat3_mul : Fn := ⟨[],
  [rd 0 0, rd 0 4, rd 0 8, rd 0 12, rd 0 16, rd 0 20, rd 0 24, rd 0 28, rd 0 32, rd 1 0, rd 1 4, rd 1 8, rd 1 12, rd 1 16,
   rd 1 20, rd 1 24, rd 1 28, rd 1 32, wr 2 0, wr 2 4, wr 2 8, wr 2 12, wr 2 16, wr 2 20, wr 2 24, wr 2 28, wr 2 32]⟩
/-- `glm_mat3_transpose_to`: include/cglm/mat3.h:190-202 -/
def f_glm_mat3_transpose_to : Fn := ⟨[],
  [rd 0 0, wr 1 0, rd 0 12, wr 1 4, rd 0 24, wr 1 8, rd 0 4, wr 1 12, rd 0 16, wr 1 16, rd 0 28, wr 1 20, rd 0 8, wr 1 24,
   rd 0 20, wr 1 28, rd 0 32, wr 1 32]⟩
/-- `glm_mat3_transpose`: include/cglm/mat3.h:209-227 -/
def f_glm_mat3_transpose : Fn := ⟨[⟨36, [.mat]⟩],
  [rd 0 12, wr 1 4, rd 0 24, wr 1 8, rd 0 4, wr 1 12, rd 0 28, wr 1 20, rd 0 8, wr 1 24, rd 0 20, wr 1 28, rd 1 4, wr 0 4,
   rd 1 8, wr 0 8, rd 1 12, wr 0 12, rd 1 20, wr 0 20, rd 1 24, wr 0 24, rd 1 28, wr 0 28]⟩
/-- `glm_mat3_mulv`: include/cglm/mat3.h:236-244 -/
def f_glm_mat3_mulv : Fn := ⟨[⟨12, []⟩],
  [rd 0 0, rd 1 0, rd 0 12, rd 1 4, rd 0 24, rd 1 8, wr 3 0, rd 0 4, rd 0 16, rd 0 28, wr 3 4, rd 0 8, rd 0 20, rd 0 32,
   wr 3 8, .call 190 [⟨3, 0, []⟩, ⟨2, 0, []⟩]]⟩
/-- `glm_mat3_trace`: include/cglm/mat3.h:253-257 -/
def f_glm_mat3_trace : Fn := ⟨[],
  [rd 0 0, rd 0 16, rd 0 32]⟩
/-- `glm_mat3_quat`: include/cglm/mat3.h:265-306 -/
def f_glm_mat3_quat : Fn := ⟨[],
  [rd 0 0, rd 0 16, rd 0 32, rd 0 20, rd 0 28, wr 1 0, rd 0 24, rd 0 8, wr 1 4, rd 0 4, rd 0 12, wr 1 8, wr 1 12]⟩
/-- `glm_mat3_scale`: include/cglm/mat3.h:316-322 -/
def f_glm_mat3_scale : Fn := ⟨[],
  [rd 0 0, wr 0 0, rd 0 4, wr 0 4, rd 0 8, wr 0 8, rd 0 12, wr 0 12, rd 0 16, wr 0 16, rd 0 20, wr 0 20, rd 0 24, wr 0 24,
   rd 0 28, wr 0 28, rd 0 32, wr 0 32]⟩
/-- `glm_mat3_det`: include/cglm/mat3.h:331-339 -/
def f_glm_mat3_det : Fn := ⟨[],
  [rd 0 0, rd 0 4, rd 0 8, rd 0 12, rd 0 16, rd 0 20, rd 0 24, rd 0 28, rd 0 32]⟩
/-- `glm_mat3_inv`: include/cglm/mat3.h:347-366 -/
def f_glm_mat3_inv : Fn := ⟨[],
  [rd 0 0, rd 0 4, rd 0 8, rd 0 12, rd 0 16, rd 0 20, rd 0 24, rd 0 28, rd 0 32, wr 1 0, wr 1 4, wr 1 8, wr 1 12, wr 1 16,
   wr 1 20, wr 1 24, wr 1 28, wr 1 32]⟩
/-- `glm_mat3_swap_col`: include/cglm/mat3.h:375-382 -/
def f_glm_mat3_swap_col : Fn := ⟨[⟨12, []⟩],
  [.call 190 [⟨0, 0, [(12, 3)]⟩, ⟨1, 0, []⟩], .call 190 [⟨0, 0, [(12, 3)]⟩, ⟨0, 0, [(12, 3)]⟩],
   .call 190 [⟨1, 0, []⟩, ⟨0, 0, [(12, 3)]⟩]]⟩
/-- `glm_mat3_swap_row`: include/cglm/mat3.h:391-406 -/
def f_glm_mat3_swap_row : Fn := ⟨[⟨12, []⟩],
  [.access ⟨0, 0, [(4, 3)]⟩ 4 4 false, wr 1 0, .access ⟨0, 12, [(4, 3)]⟩ 4 4 false, wr 1 4,
   .access ⟨0, 24, [(4, 3)]⟩ 4 4 false, wr 1 8, .access ⟨0, 0, [(4, 3)]⟩ 4 4 true, .access ⟨0, 12, [(4, 3)]⟩ 4 4 true,
   .access ⟨0, 24, [(4, 3)]⟩ 4 4 true, rd 1 0, rd 1 4, rd 1 8]⟩
/-- `glm_mat3_rmc`: include/cglm/mat3.h:422-428 -/
def f_glm_mat3_rmc : Fn := ⟨[⟨12, []⟩],
  [.call 416 [⟨1, 0, []⟩, ⟨2, 0, []⟩, ⟨3, 0, []⟩], .call 193 [⟨0, 0, []⟩, ⟨3, 0, []⟩]]⟩
/-- `glm_mat3_make`: include/cglm/mat3.h:436-450 -/
def f_glm_mat3_make : Fn := ⟨[],
  [rd 0 0, wr 1 0, rd 0 4, wr 1 4, rd 0 8, wr 1 8, rd 0 12, wr 1 12, rd 0 16, wr 1 16, rd 0 20, wr 1 20, rd 0 24, wr 1 24,
   rd 0 28, wr 1 28, rd 0 32, wr 1 32]⟩
/-- `glm_mat3_textrans`: include/cglm/mat3.h:462-478 -/
def f_glm_mat3_textrans : Fn := ⟨[],
  [.call 410 [⟨0, 0, []⟩], wr 0 0, wr 0 4, wr 0 12, wr 0 16, wr 0 24, wr 0 28]⟩
/-- `glm_mat3x2_copy`: include/cglm/mat3x2.h:39-45 -/
def f_glm_mat3x2_copy : Fn := ⟨[],
  [.call 47 [⟨0, 0, []⟩, ⟨1, 0, []⟩], .call 47 [⟨0, 8, []⟩, ⟨1, 8, []⟩], .call 47 [⟨0, 16, []⟩, ⟨1, 16, []⟩]]⟩
/-- `glm_mat3x2_zero`: include/cglm/mat3x2.h:52-57 -/
def f_glm_mat3x2_zero : Fn := ⟨[⟨24, [.mat]⟩],
  [.call 427 [⟨1, 0, []⟩, ⟨0, 0, []⟩]]⟩
/-- `glm_mat3x2_make`: include/cglm/mat3x2.h:65-76 -/
def f_glm_mat3x2_make : Fn := ⟨[],
  [rd 0 0, wr 1 0, rd 0 4, wr 1 4, rd 0 8, wr 1 8, rd 0 12, wr 1 12, rd 0 16, wr 1 16, rd 0 20, wr 1 20]⟩
/-- `glm_mat3x2_mul`: include/cglm/mat3x2.h:89-104 -/
def f_glm_mat3x2_mul : Fn := ⟨[],
  [rd 0 0, rd 0 4, rd 0 8, rd 0 12, rd 0 16, rd 0 20, rd 1 0, rd 1 4, rd 1 8, rd 1 12, rd 1 16, rd 1 20, wr 2 0, wr 2 4,
   wr 2 8, wr 2 12]⟩
/-- `glm_mat3x2_mulv`: include/cglm/mat3x2.h:113-120 -/
def f_glm_mat3x2_mulv : Fn := ⟨[],
  [rd 1 0, rd 1 4, rd 1 8, rd 0 0, rd 0 8, rd 0 16, wr 2 0, rd 0 4, rd 0 12, rd 0 20, wr 2 4]⟩
/-- `glm_mat3x2_transpose`: include/cglm/mat3x2.h:128-133 -/
def f_glm_mat3x2_transpose : Fn := ⟨[],
  [rd 0 0, wr 1 0, rd 0 8, wr 1 4, rd 0 16, wr 1 8, rd 0 4, wr 1 12, rd 0 12, wr 1 16, rd 0 20, wr 1 20]⟩
/-- `glm_mat3x2_scale`: include/cglm/mat3x2.h:141-146 -/
def f_glm_mat3x2_scale : Fn := ⟨[],
  [rd 0 0, wr 0 0, rd 0 4, wr 0 4, rd 0 8, wr 0 8, rd 0 12, wr 0 12, rd 0 16, wr 0 16, rd 0 20, wr 0 20]⟩
/-- `glm_mat3x4_copy`: include/cglm/mat3x4.h:41-47 -/
def f_glm_mat3x4_copy : Fn := ⟨[],
  [.call 137 [⟨0, 0, []⟩, ⟨1, 0, []⟩], .call 137 [⟨0, 16, []⟩, ⟨1, 16, []⟩], .call 137 [⟨0, 32, []⟩, ⟨1, 32, []⟩]]⟩
/-- `glm_mat3x4_zero`: include/cglm/mat3x4.h:54-59 -/
def f_glm_mat3x4_zero : Fn := ⟨[⟨48, [.mat, .vec]⟩],
  [.call 434 [⟨1, 0, []⟩, ⟨0, 0, []⟩]]⟩
/-- `glm_mat3x4_make`: include/cglm/mat3x4.h:67-84 -/
def f_glm_mat3x4_make : Fn := ⟨[],
  [rd 0 0, wr 1 0, rd 0 4, wr 1 4, rd 0 8, wr 1 8, rd 0 12, wr 1 12, rd 0 16, wr 1 16, rd 0 20, wr 1 20, rd 0 24, wr 1 24,
   rd 0 28, wr 1 28, rd 0 32, wr 1 32, rd 0 36, wr 1 36, rd 0 40, wr 1 40, rd 0 44, wr 1 44]⟩
/-- `glm_mat3x4_mul`: include/cglm/mat3x4.h:97-128 -/
def f_glm_mat3x4_mul : Fn := ⟨[],
  [rd 0 0, rd 0 4, rd 0 8, rd 0 12, rd 0 16, rd 0 20, rd 0 24, rd 0 28, rd 0 32, rd 0 36, rd 0 40, rd 0 44, rd 1 0, rd 1 4,
   rd 1 8, rd 1 12, rd 1 16, rd 1 20, rd 1 24, rd 1 28, rd 1 32, rd 1 36, rd 1 40, rd 1 44, wr 2 0, wr 2 4, wr 2 8, wr 2 12,
   wr 2 16, wr 2 20, wr 2 24, wr 2 28, wr 2 32, wr 2 36, wr 2 40, wr 2 44, wr 2 48, wr 2 52, wr 2 56, wr 2 60]⟩
/-- `glm_mat3x4_mulv`: include/cglm/mat3x4.h:137-146 -/
def f_glm_mat3x4_mulv : Fn := ⟨[],
  [rd 1 0, rd 1 4, rd 1 8, rd 0 0, rd 0 16, rd 0 32, wr 2 0, rd 0 4, rd 0 20, rd 0 36, wr 2 4, rd 0 8, rd 0 24, rd 0 40,
   wr 2 8, rd 0 12, rd 0 28, rd 0 44, wr 2 12]⟩
/-- `glm_mat3x4_transpose`: include/cglm/mat3x4.h:154-161 -/
def f_glm_mat3x4_transpose : Fn := ⟨[],
  [rd 0 0, wr 1 0, rd 0 16, wr 1 4, rd 0 32, wr 1 8, rd 0 4, wr 1 12, rd 0 20, wr 1 16, rd 0 36, wr 1 20, rd 0 8, wr 1 24,
   rd 0 24, wr 1 28, rd 0 40, wr 1 32, rd 0 12, wr 1 36, rd 0 28, wr 1 40, rd 0 44, wr 1 44]⟩
/-- `glm_mat3x4_scale`: include/cglm/mat3x4.h:169-175 -/
def f_glm_mat3x4_scale : Fn := ⟨[],
  [rd 0 0, wr 0 0, rd 0 4, wr 0 4, rd 0 8, wr 0 8, rd 0 12, wr 0 12, rd 0 16, wr 0 16, rd 0 20, wr 0 20, rd 0 24, wr 0 24,
   rd 0 28, wr 0 28, rd 0 32, wr 0 32, rd 0 36, wr 0 36, rd 0 40, wr 0 40, rd 0 44, wr 0 44]⟩
/-- `glm_mat2_make`: include/cglm/mat2.h:65-72 -/
def f_glm_mat2_make : Fn := ⟨[],
  [rd 0 0, wr 1 0, rd 0 4, wr 1 4, rd 0 8, wr 1 8, rd 0 12, wr 1 12]⟩
/-- `glm_mat2_copy`: include/cglm/mat2.h:80-84 -/
def f_glm_mat2_copy : Fn := ⟨[],
  [.call 137 [⟨0, 0, []⟩, ⟨1, 0, []⟩]]⟩
/-- `glm_mat2_identity`: include/cglm/mat2.h:102-107 -/
def f_glm_mat2_identity : Fn := ⟨[⟨16, [.mat, .vec]⟩],
  [.call 442 [⟨1, 0, []⟩, ⟨0, 0, []⟩]]⟩
/-- `glm_mat2_identity_array`: include/cglm/mat2.h:115-124 -/
def f_glm_mat2_identity_array : Fn := ⟨[⟨16, [.mat, .vec]⟩],
  [.call 442 [⟨1, 0, []⟩, ⟨0, 0, []⟩]]⟩
/-- `glm_mat2_zero`: include/cglm/mat2.h:131-136 -/
def f_glm_mat2_zero : Fn := ⟨[⟨16, [.mat, .vec]⟩],
  [.call 442 [⟨1, 0, []⟩, ⟨0, 0, []⟩]]⟩
/-- `glm_mat2_mul`: include/cglm/mat2.h:152-172 -/
def f_glm_mat2_mul : Fn := ⟨[],
  [rd 0 0, rd 0 4, rd 0 8, rd 0 12, rd 1 0, rd 1 4, rd 1 8, rd 1 12, wr 2 0, wr 2 4, wr 2 8, wr 2 12]⟩
/-- `glm_mat2_mulv`: include/cglm/mat2.h:181-186 -/
def f_glm_mat2_mulv : Fn := ⟨[],
  [rd 0 0, rd 1 0, rd 0 8, rd 1 4, wr 2 0, rd 0 4, rd 0 12, wr 2 4]⟩
/-- `glm_mat2_transpose_to`: include/cglm/mat2.h:194-207 -/
def f_glm_mat2_transpose_to : Fn := ⟨[],
  [rd 0 0, wr 1 0, rd 0 8, wr 1 4, rd 0 4, wr 1 8, rd 0 12, wr 1 12]⟩
/-- `glm_mat2_transpose`: include/cglm/mat2.h:214-221 -/
def f_glm_mat2_transpose : Fn := ⟨[],
  [rd 0 4, rd 0 8, wr 0 4, wr 0 8]⟩
/-- `glm_mat2_scale`: include/cglm/mat2.h:229-245 -/
def f_glm_mat2_scale : Fn := ⟨[],
  [rd 0 0, wr 0 0, rd 0 4, wr 0 4, rd 0 8, wr 0 8, rd 0 12, wr 0 12]⟩
/-- `glm_mat2_inv`: include/cglm/mat2.h:253-266 -/
def f_glm_mat2_inv : Fn := ⟨[],
  [rd 0 0, rd 0 4, rd 0 8, rd 0 12, wr 1 0, wr 1 4, wr 1 8, wr 1 12]⟩
/-- `glm_mat2_swap_col`: include/cglm/mat2.h:275-288 -/
def f_glm_mat2_swap_col : Fn := ⟨[],
  [.access ⟨0, 0, [(8, 2)]⟩ 4 4 false, .access ⟨0, 4, [(8, 2)]⟩ 4 4 false, .access ⟨0, 0, [(8, 2)]⟩ 4 4 true,
   .access ⟨0, 4, [(8, 2)]⟩ 4 4 true]⟩
/-- `glm_mat2_swap_row`: include/cglm/mat2.h:297-310 -/
def f_glm_mat2_swap_row : Fn := ⟨[],
  [.access ⟨0, 0, [(4, 2)]⟩ 4 4 false, .access ⟨0, 8, [(4, 2)]⟩ 4 4 false, .access ⟨0, 0, [(4, 2)]⟩ 4 4 true,
   .access ⟨0, 8, [(4, 2)]⟩ 4 4 true]⟩
/-- `glm_mat2_det`: include/cglm/mat2.h:319-323 -/
def f_glm_mat2_det : Fn := ⟨[],
  [rd 0 0, rd 0 12, rd 0 8, rd 0 4]⟩
/-- `glm_mat2_trace`: include/cglm/mat2.h:335-339 -/
def f_glm_mat2_trace : Fn := ⟨[],
  [rd 0 0, rd 0 12]⟩
/-- `glm_mat2_rmc`: include/cglm/mat2.h:355-361 -/
def f_glm_mat2_rmc : Fn := ⟨[⟨8, []⟩],
  [.call 447 [⟨1, 0, []⟩, ⟨2, 0, []⟩, ⟨3, 0, []⟩], .call 50 [⟨0, 0, []⟩, ⟨3, 0, []⟩]]⟩
/-- `glm_mat2x3_copy`: include/cglm/mat2x3.h:39-44 -/
def f_glm_mat2x3_copy : Fn := ⟨[],
  [.call 190 [⟨0, 0, []⟩, ⟨1, 0, []⟩], .call 190 [⟨0, 12, []⟩, ⟨1, 12, []⟩]]⟩
/-- `glm_mat2x3_zero`: include/cglm/mat2x3.h:51-56 -/
def f_glm_mat2x3_zero : Fn := ⟨[⟨24, [.mat]⟩],
  [.call 457 [⟨1, 0, []⟩, ⟨0, 0, []⟩]]⟩
/-- `glm_mat2x3_make`: include/cglm/mat2x3.h:64-74 -/
def f_glm_mat2x3_make : Fn := ⟨[],
  [rd 0 0, wr 1 0, rd 0 4, wr 1 4, rd 0 8, wr 1 8, rd 0 12, wr 1 12, rd 0 16, wr 1 16, rd 0 20, wr 1 20]⟩
/-- `glm_mat2x3_mul`: include/cglm/mat2x3.h:87-108 -/
def f_glm_mat2x3_mul : Fn := ⟨[],
  [rd 0 0, rd 0 4, rd 0 8, rd 0 12, rd 0 16, rd 0 20, rd 1 0, rd 1 4, rd 1 8, rd 1 12, rd 1 16, rd 1 20, wr 2 0, wr 2 4,
   wr 2 8, wr 2 12, wr 2 16, wr 2 20, wr 2 24, wr 2 28, wr 2 32]⟩
/-- `glm_mat2x3_mulv`: include/cglm/mat2x3.h:117-125 -/
def f_glm_mat2x3_mulv : Fn := ⟨[],
  [rd 1 0, rd 1 4, rd 0 0, rd 0 12, wr 2 0, rd 0 4, rd 0 16, wr 2 4, rd 0 8, rd 0 20, wr 2 8]⟩
/-- `glm_mat2x3_transpose`: include/cglm/mat2x3.h:133-139 -/
def f_glm_mat2x3_transpose : Fn := ⟨[],
  [rd 0 0, wr 1 0, rd 0 12, wr 1 4, rd 0 4, wr 1 8, rd 0 16, wr 1 12, rd 0 8, wr 1 16, rd 0 20, wr 1 20]⟩
/-- `glm_mat2x3_scale`: include/cglm/mat2x3.h:147-152 -/
def f_glm_mat2x3_scale : Fn := ⟨[],
  [rd 0 0, wr 0 0, rd 0 4, wr 0 4, rd 0 8, wr 0 8, rd 0 12, wr 0 12, rd 0 16, wr 0 16, rd 0 20, wr 0 20]⟩
/-- `glm_mat2x4_copy`: include/cglm/mat2x4.h:40-45 -/
def f_glm_mat2x4_copy : Fn := ⟨[],
  [.call 137 [⟨0, 0, []⟩, ⟨1, 0, []⟩], .call 137 [⟨0, 16, []⟩, ⟨1, 16, []⟩]]⟩
/-- `glm_mat2x4_zero`: include/cglm/mat2x4.h:52-57 -/
def f_glm_mat2x4_zero : Fn := ⟨[⟨32, [.mat, .vec]⟩],
  [.call 464 [⟨1, 0, []⟩, ⟨0, 0, []⟩]]⟩
/-- `glm_mat2x4_make`: include/cglm/mat2x4.h:65-77 -/
def f_glm_mat2x4_make : Fn := ⟨[],
  [rd 0 0, wr 1 0, rd 0 4, wr 1 4, rd 0 8, wr 1 8, rd 0 12, wr 1 12, rd 0 16, wr 1 16, rd 0 20, wr 1 20, rd 0 24, wr 1 24,
   rd 0 28, wr 1 28]⟩
/-- `glm_mat2x4_mul`: include/cglm/mat2x4.h:90-120 -/
def f_glm_mat2x4_mul : Fn := ⟨[],
  [rd 0 0, rd 0 4, rd 0 8, rd 0 12, rd 0 16, rd 0 20, rd 0 24, rd 0 28, rd 1 0, rd 1 4, rd 1 8, rd 1 12, rd 1 16, rd 1 20,
   rd 1 24, rd 1 28, wr 2 0, wr 2 4, wr 2 8, wr 2 12, wr 2 16, wr 2 20, wr 2 24, wr 2 28, wr 2 32, wr 2 36, wr 2 40, wr 2 44,
   wr 2 48, wr 2 52, wr 2 56, wr 2 60]⟩
/-- `glm_mat2x4_mulv`: include/cglm/mat2x4.h:129-138 -/
def f_glm_mat2x4_mulv : Fn := ⟨[],
  [rd 1 0, rd 1 4, rd 0 0, rd 0 16, wr 2 0, rd 0 4, rd 0 20, wr 2 4, rd 0 8, rd 0 24, wr 2 8, rd 0 12, rd 0 28, wr 2 12]⟩
/-- `glm_mat2x4_transpose`: include/cglm/mat2x4.h:146-153 -/
def f_glm_mat2x4_transpose : Fn := ⟨[],
  [rd 0 0, wr 1 0, rd 0 16, wr 1 4, rd 0 4, wr 1 8, rd 0 20, wr 1 12, rd 0 8, wr 1 16, rd 0 24, wr 1 20, rd 0 12, wr 1 24,
   rd 0 28, wr 1 28]⟩
/-- `glm_mat2x4_scale`: include/cglm/mat2x4.h:161-166 -/
def f_glm_mat2x4_scale : Fn := ⟨[],
  [rd 0 0, wr 0 0, rd 0 4, wr 0 4, rd 0 8, wr 0 8, rd 0 12, wr 0 12, rd 0 16, wr 0 16, rd 0 20, wr 0 20, rd 0 24, wr 0 24,
   rd 0 28, wr 0 28]⟩
/-- `glm_mul`: include/cglm/affine-mat.h:54-96 -/
def f_glm_mul : Fn := ⟨[],
  [rd 0 0, rd 0 4, rd 0 8, rd 0 12, rd 0 16, rd 0 20, rd 0 24, rd 0 28, rd 0 32, rd 0 36, rd 0 40, rd 0 44, rd 0 48, rd 0 52,
   rd 0 56, rd 0 60, rd 1 0, rd 1 4, rd 1 8, rd 1 16, rd 1 20, rd 1 24, rd 1 32, rd 1 36, rd 1 40, rd 1 48, rd 1 52, rd 1 56,
   rd 1 60, wr 2 0, wr 2 4, wr 2 8, wr 2 12, wr 2 16, wr 2 20, wr 2 24, wr 2 28, wr 2 32, wr 2 36, wr 2 40, wr 2 44, wr 2 48,
   wr 2 52, wr 2 56, wr 2 60]⟩
/-- `glm_mul_rot`: include/cglm/affine-mat.h:114-153 -/
def f_glm_mul_rot : Fn := ⟨[],
  [rd 0 0, rd 0 4, rd 0 8, rd 0 12, rd 0 16, rd 0 20, rd 0 24, rd 0 28, rd 0 32, rd 0 36, rd 0 40, rd 0 44, rd 0 48, rd 0 52,
   rd 0 56, rd 0 60, rd 1 0, rd 1 4, rd 1 8, rd 1 16, rd 1 20, rd 1 24, rd 1 32, rd 1 36, rd 1 40, wr 2 0, wr 2 4, wr 2 8,
   wr 2 12, wr 2 16, wr 2 20, wr 2 24, wr 2 28, wr 2 32, wr 2 36, wr 2 40, wr 2 44, wr 2 48, wr 2 52, wr 2 56, wr 2 60]⟩
/-- `glm_inv_tr`: include/cglm/affine-mat.h:165-187 -/
def f_glm_inv_tr : Fn := ⟨[⟨36, [.mat]⟩, ⟨12, [.b8]⟩],
  [.call 374 [⟨0, 0, []⟩, ⟨1, 0, []⟩], .call 375 [⟨1, 0, []⟩, ⟨0, 0, []⟩], .call 416 [⟨1, 0, []⟩, ⟨0, 48, []⟩, ⟨2, 0, []⟩],
   .call 220 [⟨2, 0, []⟩], .call 190 [⟨2, 0, []⟩, ⟨0, 48, []⟩]]⟩
/-- `glm_translate_make`: include/cglm/affine.h:50-55 -/
def f_glm_translate_make : Fn := ⟨[],
  [.call 370 [⟨0, 0, []⟩], .call 190 [⟨1, 0, []⟩, ⟨0, 48, []⟩]]⟩
/-- `glm_scale_to`: include/cglm/affine.h:65-73 -/
def f_glm_scale_to : Fn := ⟨[],
  [rd 1 0, .call 150 [⟨0, 0, []⟩, ⟨2, 0, []⟩], rd 1 4, .call 150 [⟨0, 16, []⟩, ⟨2, 16, []⟩], rd 1 8,
   .call 150 [⟨0, 32, []⟩, ⟨2, 32, []⟩], .call 136 [⟨0, 48, []⟩, ⟨2, 48, []⟩]]⟩
/-- `glm_scale_make`: include/cglm/affine.h:81-88 -/
def f_glm_scale_make : Fn := ⟨[],
  [.call 370 [⟨0, 0, []⟩], rd 1 0, wr 0 0, rd 1 4, wr 0 20, rd 1 8, wr 0 40]⟩
/-- `glm_scale`: include/cglm/affine.h:97-101 -/
def f_glm_scale : Fn := ⟨[],
  [.call 475 [⟨0, 0, []⟩, ⟨1, 0, []⟩, ⟨0, 0, []⟩]]⟩
/-- `glm_scale_uni`: include/cglm/affine.h:110-115 -/
def f_glm_scale_uni : Fn := ⟨[⟨12, [.b8]⟩],
  [.call 475 [⟨0, 0, []⟩, ⟨1, 0, []⟩, ⟨0, 0, []⟩]]⟩
/-- `glm_rotate_make`: include/cglm/affine.h:126-148 -/
def f_glm_rotate_make : Fn := ⟨[⟨12, [.b8]⟩, ⟨12, [.b8]⟩, ⟨12, [.b8]⟩],
  [.call 222 [⟨1, 0, []⟩, ⟨2, 0, []⟩], .call 203 [⟨2, 0, []⟩, ⟨3, 0, []⟩], .call 203 [⟨2, 0, []⟩, ⟨4, 0, []⟩], rd 3 0,
   .call 203 [⟨2, 0, []⟩, ⟨0, 0, []⟩], rd 3 4, .call 203 [⟨2, 0, []⟩, ⟨0, 16, []⟩], rd 3 8,
   .call 203 [⟨2, 0, []⟩, ⟨0, 32, []⟩], rd 0 0, wr 0 0, rd 4 8, rd 0 16, wr 0 16, rd 4 4, rd 0 32, wr 0 32, rd 0 4, wr 0 4,
   rd 0 20, wr 0 20, rd 4 0, rd 0 36, wr 0 36, rd 0 8, wr 0 8, rd 0 24, wr 0 24, rd 0 40, wr 0 40, wr 0 56, wr 0 52, wr 0 48,
   wr 0 44, wr 0 28, wr 0 12, wr 0 60]⟩
/-- `glm_decompose_scalev`: include/cglm/affine.h:156-162 -/
def f_glm_decompose_scalev : Fn := ⟨[],
  [.call 195 [⟨0, 0, []⟩], wr 1 0, .call 195 [⟨0, 16, []⟩], wr 1 4, .call 195 [⟨0, 32, []⟩], wr 1 8]⟩
/-- `glm_uniscaled`: include/cglm/affine.h:172-178 -/
def f_glm_uniscaled : Fn := ⟨[⟨12, [.b8]⟩],
  [.call 480 [⟨0, 0, []⟩, ⟨1, 0, []⟩], .call 96 [⟨1, 0, []⟩]]⟩
/-- `glm_decompose_rs`: include/cglm/affine.h:188-217 -/
def f_glm_decompose_rs : Fn := ⟨[⟨16, [.b16, .vec]⟩, ⟨12, [.b8]⟩],
  [.call 136 [⟨0, 0, []⟩, ⟨1, 0, []⟩], .call 136 [⟨0, 16, []⟩, ⟨1, 16, []⟩], .call 136 [⟨0, 32, []⟩, ⟨1, 32, []⟩],
   .call 136 [⟨3, 0, []⟩, ⟨1, 48, []⟩], .call 195 [⟨0, 0, []⟩], wr 2 0, .call 195 [⟨0, 16, []⟩], wr 2 4,
   .call 195 [⟨0, 32, []⟩], wr 2 8, rd 2 0, .call 150 [⟨1, 0, []⟩, ⟨1, 0, []⟩], rd 2 4, .call 150 [⟨1, 16, []⟩, ⟨1, 16, []⟩],
   rd 2 8, .call 150 [⟨1, 32, []⟩, ⟨1, 32, []⟩], .call 223 [⟨0, 0, []⟩, ⟨0, 16, []⟩, ⟨4, 0, []⟩],
   .call 193 [⟨4, 0, []⟩, ⟨0, 32, []⟩], .call 167 [⟨1, 0, []⟩], .call 167 [⟨1, 16, []⟩], .call 167 [⟨1, 32, []⟩],
   .call 220 [⟨2, 0, []⟩]]⟩
/-- `glm_decompose`: include/cglm/affine.h:228-233 -/
def f_glm_decompose : Fn := ⟨[],
  [.call 136 [⟨0, 48, []⟩, ⟨1, 0, []⟩], .call 482 [⟨0, 0, []⟩, ⟨2, 0, []⟩, ⟨3, 0, []⟩]]⟩
/-- `glm_translate`: include/cglm/affine-pre.h:41-61 -/
def f_glm_translate : Fn := ⟨[],
  [rd 1 0, .call 157 [⟨0, 0, []⟩, ⟨0, 48, []⟩], rd 1 4, .call 157 [⟨0, 16, []⟩, ⟨0, 48, []⟩], rd 1 8,
   .call 157 [⟨0, 32, []⟩, ⟨0, 48, []⟩]]⟩
/-- `glm_translate_to`: include/cglm/affine-pre.h:73-78 -/
def f_glm_translate_to : Fn := ⟨[],
  [.call 369 [⟨0, 0, []⟩, ⟨2, 0, []⟩], .call 484 [⟨2, 0, []⟩, ⟨1, 0, []⟩]]⟩
/-- `glm_translate_x`: include/cglm/affine-pre.h:86-96 -/
def f_glm_translate_x : Fn := ⟨[⟨16, [.vec]⟩],
  [.call 150 [⟨0, 0, []⟩, ⟨1, 0, []⟩], .call 145 [⟨1, 0, []⟩, ⟨0, 48, []⟩, ⟨0, 48, []⟩]]⟩
/-- `glm_translate_y`: include/cglm/affine-pre.h:104-114 -/
def f_glm_translate_y : Fn := ⟨[⟨16, [.vec]⟩],
  [.call 150 [⟨0, 16, []⟩, ⟨1, 0, []⟩], .call 145 [⟨1, 0, []⟩, ⟨0, 48, []⟩, ⟨0, 48, []⟩]]⟩
/-- `glm_translate_z`: include/cglm/affine-pre.h:122-132 -/
def f_glm_translate_z : Fn := ⟨[⟨16, [.vec]⟩],
  [.call 150 [⟨0, 32, []⟩, ⟨1, 0, []⟩], .call 145 [⟨1, 0, []⟩, ⟨0, 48, []⟩, ⟨0, 48, []⟩]]⟩
/-- `glm_rotate_x`: include/cglm/affine-pre.h:142-157 -/
def f_glm_rotate_x : Fn := ⟨[⟨64, [.mat, .vec]⟩],
  [wr 2 20, wr 2 24, wr 2 36, wr 2 40, .call 472 [⟨0, 0, []⟩, ⟨2, 0, []⟩, ⟨1, 0, []⟩]]⟩
/-- `glm_rotate_y`: include/cglm/affine-pre.h:167-182 -/
def f_glm_rotate_y : Fn := ⟨[⟨64, [.mat, .vec]⟩],
  [wr 2 0, wr 2 8, wr 2 32, wr 2 40, .call 472 [⟨0, 0, []⟩, ⟨2, 0, []⟩, ⟨1, 0, []⟩]]⟩
/-- `glm_rotate_z`: include/cglm/affine-pre.h:192-207 -/
def f_glm_rotate_z : Fn := ⟨[⟨64, [.mat, .vec]⟩],
  [wr 2 0, wr 2 4, wr 2 16, wr 2 20, .call 472 [⟨0, 0, []⟩, ⟨2, 0, []⟩, ⟨1, 0, []⟩]]⟩
/-- `glm_rotate`: include/cglm/affine-pre.h:234-240 -/
def f_glm_rotate : Fn := ⟨[⟨64, [.mat, .vec]⟩],
  [.call 479 [⟨2, 0, []⟩, ⟨1, 0, []⟩], .call 472 [⟨0, 0, []⟩, ⟨2, 0, []⟩, ⟨0, 0, []⟩]]⟩
/-- `glm_rotate_at`: include/cglm/affine-pre.h:251-261 -/
def f_glm_rotate_at : Fn := ⟨[⟨12, [.b8]⟩],
  [.call 219 [⟨1, 0, []⟩, ⟨3, 0, []⟩], .call 484 [⟨0, 0, []⟩, ⟨1, 0, []⟩], .call 492 [⟨0, 0, []⟩, ⟨2, 0, []⟩],
   .call 484 [⟨0, 0, []⟩, ⟨3, 0, []⟩]]⟩
/-- `glm_rotate_atm`: include/cglm/affine-pre.h:276-286 -/
def f_glm_rotate_atm : Fn := ⟨[⟨12, [.b8]⟩],
  [.call 219 [⟨1, 0, []⟩, ⟨3, 0, []⟩], .call 474 [⟨0, 0, []⟩, ⟨1, 0, []⟩], .call 492 [⟨0, 0, []⟩, ⟨2, 0, []⟩],
   .call 484 [⟨0, 0, []⟩, ⟨3, 0, []⟩]]⟩
/-- `glm_spin`: include/cglm/affine-pre.h:296-302 -/
def f_glm_spin : Fn := ⟨[⟨64, [.mat, .vec]⟩],
  [.call 494 [⟨2, 0, []⟩, ⟨0, 48, []⟩, ⟨1, 0, []⟩], .call 376 [⟨0, 0, []⟩, ⟨2, 0, []⟩, ⟨0, 0, []⟩]]⟩
/-- `glm_translated`: include/cglm/affine-post.h:42-46 -/
def f_glm_translated : Fn := ⟨[],
  [.call 198 [⟨0, 48, []⟩, ⟨1, 0, []⟩, ⟨0, 48, []⟩]]⟩
/-- `glm_translated_to`: include/cglm/affine-post.h:60-65 -/
def f_glm_translated_to : Fn := ⟨[],
  [.call 369 [⟨0, 0, []⟩, ⟨2, 0, []⟩], .call 496 [⟨2, 0, []⟩, ⟨1, 0, []⟩]]⟩
/-- `glm_translated_x`: include/cglm/affine-post.h:75-79 -/
def f_glm_translated_x : Fn := ⟨[],
  [rd 0 48, wr 0 48]⟩
/-- `glm_translated_y`: include/cglm/affine-post.h:89-93 -/
def f_glm_translated_y : Fn := ⟨[],
  [rd 0 52, wr 0 52]⟩
/-- `glm_translated_z`: include/cglm/affine-post.h:103-107 -/
def f_glm_translated_z : Fn := ⟨[],
  [rd 0 56, wr 0 56]⟩
/-- `glm_rotated_x`: include/cglm/affine-post.h:119-134 -/
def f_glm_rotated_x : Fn := ⟨[⟨64, [.mat, .vec]⟩],
  [wr 2 20, wr 2 24, wr 2 36, wr 2 40, .call 472 [⟨2, 0, []⟩, ⟨0, 0, []⟩, ⟨1, 0, []⟩]]⟩
/-- `glm_rotated_y`: include/cglm/affine-post.h:146-161 -/
def f_glm_rotated_y : Fn := ⟨[⟨64, [.mat, .vec]⟩],
  [wr 2 0, wr 2 8, wr 2 32, wr 2 40, .call 472 [⟨2, 0, []⟩, ⟨0, 0, []⟩, ⟨1, 0, []⟩]]⟩
/-- `glm_rotated_z`: include/cglm/affine-post.h:173-188 -/
def f_glm_rotated_z : Fn := ⟨[⟨64, [.mat, .vec]⟩],
  [wr 2 0, wr 2 4, wr 2 16, wr 2 20, .call 472 [⟨2, 0, []⟩, ⟨0, 0, []⟩, ⟨1, 0, []⟩]]⟩
/-- `glm_rotated`: include/cglm/affine-post.h:199-205 -/
def f_glm_rotated : Fn := ⟨[⟨64, [.mat, .vec]⟩],
  [.call 479 [⟨2, 0, []⟩, ⟨1, 0, []⟩], .call 472 [⟨2, 0, []⟩, ⟨0, 0, []⟩, ⟨0, 0, []⟩]]⟩
/-- `glm_rotated_at`: include/cglm/affine-post.h:218-228 -/
def f_glm_rotated_at : Fn := ⟨[⟨12, [.b8]⟩],
  [.call 219 [⟨1, 0, []⟩, ⟨3, 0, []⟩], .call 496 [⟨0, 0, []⟩, ⟨1, 0, []⟩], .call 504 [⟨0, 0, []⟩, ⟨2, 0, []⟩],
   .call 496 [⟨0, 0, []⟩, ⟨3, 0, []⟩]]⟩
/-- `glm_spinned`: include/cglm/affine-post.h:239-245 -/
def f_glm_spinned : Fn := ⟨[⟨64, [.mat, .vec]⟩],
  [.call 494 [⟨2, 0, []⟩, ⟨0, 48, []⟩, ⟨1, 0, []⟩], .call 376 [⟨2, 0, []⟩, ⟨0, 0, []⟩, ⟨0, 0, []⟩]]⟩
/-- `glm_plane_normalize`: include/cglm/plane.h:31-42 -/
def f_glm_plane_normalize : Fn := ⟨[],
  [.call 195 [⟨0, 0, []⟩], .call 138 [⟨0, 0, []⟩], .call 150 [⟨0, 0, []⟩, ⟨0, 0, []⟩]]⟩
/-- `glm_persp_fovy`: include/cglm/clipspace/persp.h:31-35 -/
def f_glm_persp_fovy : Fn := ⟨[],
  [rd 0 20]⟩
/-- `glm_persp_aspect`: include/cglm/clipspace/persp.h:42-46 -/
def f_glm_persp_aspect : Fn := ⟨[],
  [rd 0 20, rd 0 0]⟩
/-- `glm_ortho_lh_zo`: include/cglm/clipspace/ortho_lh_zo.h:47-68 -/
def f_glm_ortho_lh_zo : Fn := ⟨[],
  [.call 372 [⟨0, 0, []⟩], wr 0 0, wr 0 20, wr 0 40, wr 0 48, wr 0 52, wr 0 56, wr 0 60]⟩
/-- `glm_ortho_aabb_lh_zo`: include/cglm/clipspace/ortho_lh_zo.h:79-86 -/
def f_glm_ortho_aabb_lh_zo : Fn := ⟨[],
  [rd 0 0, rd 0 12, rd 0 4, rd 0 16, rd 0 20, rd 0 8, .call 510 [⟨1, 0, []⟩]]⟩
/-- `glm_ortho_aabb_p_lh_zo`: include/cglm/clipspace/ortho_lh_zo.h:98-105 -/
def f_glm_ortho_aabb_p_lh_zo : Fn := ⟨[],
  [rd 0 0, rd 0 12, rd 0 4, rd 0 16, rd 0 20, rd 0 8, .call 510 [⟨1, 0, []⟩]]⟩
/-- `glm_ortho_aabb_pz_lh_zo`: include/cglm/clipspace/ortho_lh_zo.h:117-124 -/
def f_glm_ortho_aabb_pz_lh_zo : Fn := ⟨[],
  [rd 0 0, rd 0 12, rd 0 4, rd 0 16, rd 0 20, rd 0 8, .call 510 [⟨1, 0, []⟩]]⟩
/-- `glm_ortho_default_lh_zo`: include/cglm/clipspace/ortho_lh_zo.h:133-144 -/
def f_glm_ortho_default_lh_zo : Fn := ⟨[],
  [.call 510 [⟨0, 0, []⟩]]⟩
/-- `glm_ortho_default_s_lh_zo`: include/cglm/clipspace/ortho_lh_zo.h:154-175 -/
def f_glm_ortho_default_s_lh_zo : Fn := ⟨[],
  [.call 510 [⟨0, 0, []⟩]]⟩
/-- `glm_frustum_lh_zo`: include/cglm/clipspace/persp_lh_zo.h:64-86 -/
def f_glm_frustum_lh_zo : Fn := ⟨[],
  [.call 372 [⟨0, 0, []⟩], wr 0 0, wr 0 20, wr 0 32, wr 0 36, wr 0 40, wr 0 44, wr 0 56]⟩
/-- `glm_perspective_lh_zo`: include/cglm/clipspace/persp_lh_zo.h:98-117 -/
def f_glm_perspective_lh_zo : Fn := ⟨[],
  [.call 372 [⟨0, 0, []⟩], wr 0 0, wr 0 20, wr 0 40, wr 0 44, wr 0 56]⟩
/-- `glm_persp_move_far_lh_zo`: include/cglm/clipspace/persp_lh_zo.h:129-143 -/
def f_glm_persp_move_far_lh_zo : Fn := ⟨[],
  [rd 0 40, rd 0 56, wr 0 40, wr 0 56]⟩
/-- `glm_perspective_default_lh_zo`: include/cglm/clipspace/persp_lh_zo.h:153-157 -/
def f_glm_perspective_default_lh_zo : Fn := ⟨[],
  [.call 517 [⟨0, 0, []⟩]]⟩
/-- `glm_perspective_resize_lh_zo`: include/cglm/clipspace/persp_lh_zo.h:167-174 -/
def f_glm_perspective_resize_lh_zo : Fn := ⟨[],
  [rd 0 0, rd 0 20, wr 0 0]⟩
/-- `glm_persp_decomp_lh_zo`: include/cglm/clipspace/persp_lh_zo.h:189-217 -/
def f_glm_persp_decomp_lh_zo : Fn := ⟨[],
  [rd 0 0, rd 0 20, rd 0 32, rd 0 36, rd 0 40, rd 0 56, wr 1 0, wr 2 0, wr 4 0, wr 3 0, wr 5 0, wr 6 0]⟩
/-- `glm_persp_decompv_lh_zo`: include/cglm/clipspace/persp_lh_zo.h:228-233 -/
def f_glm_persp_decompv_lh_zo : Fn := ⟨[],
  [.call 521 [⟨0, 0, []⟩, ⟨1, 0, []⟩, ⟨1, 4, []⟩, ⟨1, 8, []⟩, ⟨1, 12, []⟩, ⟨1, 16, []⟩, ⟨1, 20, []⟩]]⟩
/-- `glm_persp_decomp_x_lh_zo`: include/cglm/clipspace/persp_lh_zo.h:243-256 -/
def f_glm_persp_decomp_x_lh_zo : Fn := ⟨[],
  [rd 0 0, rd 0 32, rd 0 56, rd 0 60, wr 1 0, wr 2 0]⟩
/-- `glm_persp_decomp_y_lh_zo`: include/cglm/clipspace/persp_lh_zo.h:268-281 -/
def f_glm_persp_decomp_y_lh_zo : Fn := ⟨[],
  [rd 0 36, rd 0 20, rd 0 56, rd 0 60, wr 2 0, wr 1 0]⟩
/-- `glm_persp_decomp_z_lh_zo`: include/cglm/clipspace/persp_lh_zo.h:293-305 -/
def f_glm_persp_decomp_z_lh_zo : Fn := ⟨[],
  [rd 0 56, rd 0 40, wr 1 0, wr 2 0]⟩
/-- `glm_persp_decomp_far_lh_zo`: include/cglm/clipspace/persp_lh_zo.h:315-319 -/
def f_glm_persp_decomp_far_lh_zo : Fn := ⟨[],
  [rd 0 56, rd 0 40, wr 1 0]⟩
/-- `glm_persp_decomp_near_lh_zo`: include/cglm/clipspace/persp_lh_zo.h:329-333 -/
def f_glm_persp_decomp_near_lh_zo : Fn := ⟨[],
  [rd 0 56, rd 0 40, wr 1 0]⟩
/-- `glm_persp_sizes_lh_zo`: include/cglm/clipspace/persp_lh_zo.h:344-358 -/
def f_glm_persp_sizes_lh_zo : Fn := ⟨[⟨4, []⟩, ⟨4, []⟩],
  [.call 509 [⟨0, 0, []⟩], .call 525 [⟨0, 0, []⟩, ⟨2, 0, []⟩, ⟨3, 0, []⟩], wr 1 4, wr 1 12, rd 1 4, wr 1 0, rd 1 12, wr 1 8]⟩
/-- `glm_persp_fovy_lh_zo`: include/cglm/clipspace/persp_lh_zo.h:369-373 -/
def f_glm_persp_fovy_lh_zo : Fn := ⟨[],
  [.call 508 [⟨0, 0, []⟩]]⟩
/-- `glm_persp_aspect_lh_zo`: include/cglm/clipspace/persp_lh_zo.h:381-385 -/
def f_glm_persp_aspect_lh_zo : Fn := ⟨[],
  [.call 509 [⟨0, 0, []⟩]]⟩
/-- `glm_ortho_lh_no`: include/cglm/clipspace/ortho_lh_no.h:48-69 -/
def f_glm_ortho_lh_no : Fn := ⟨[],
  [.call 372 [⟨0, 0, []⟩], wr 0 0, wr 0 20, wr 0 40, wr 0 48, wr 0 52, wr 0 56, wr 0 60]⟩
/-- `glm_ortho_aabb_lh_no`: include/cglm/clipspace/ortho_lh_no.h:81-88 -/
def f_glm_ortho_aabb_lh_no : Fn := ⟨[],
  [rd 0 0, rd 0 12, rd 0 4, rd 0 16, rd 0 20, rd 0 8, .call 531 [⟨1, 0, []⟩]]⟩
/-- `glm_ortho_aabb_p_lh_no`: include/cglm/clipspace/ortho_lh_no.h:101-108 -/
def f_glm_ortho_aabb_p_lh_no : Fn := ⟨[],
  [rd 0 0, rd 0 12, rd 0 4, rd 0 16, rd 0 20, rd 0 8, .call 531 [⟨1, 0, []⟩]]⟩
/-- `glm_ortho_aabb_pz_lh_no`: include/cglm/clipspace/ortho_lh_no.h:121-128 -/
def f_glm_ortho_aabb_pz_lh_no : Fn := ⟨[],
  [rd 0 0, rd 0 12, rd 0 4, rd 0 16, rd 0 20, rd 0 8, .call 531 [⟨1, 0, []⟩]]⟩
/-- `glm_ortho_default_lh_no`: include/cglm/clipspace/ortho_lh_no.h:138-149 -/
def f_glm_ortho_default_lh_no : Fn := ⟨[],
  [.call 531 [⟨0, 0, []⟩]]⟩
/-- `glm_ortho_default_s_lh_no`: include/cglm/clipspace/ortho_lh_no.h:160-181 -/
def f_glm_ortho_default_s_lh_no : Fn := ⟨[],
  [.call 531 [⟨0, 0, []⟩]]⟩
/-- `glm_frustum_lh_no`: include/cglm/clipspace/persp_lh_no.h:65-87 -/
def f_glm_frustum_lh_no : Fn := ⟨[],
  [.call 372 [⟨0, 0, []⟩], wr 0 0, wr 0 20, wr 0 32, wr 0 36, wr 0 40, wr 0 44, wr 0 56]⟩
/-- `glm_perspective_lh_no`: include/cglm/clipspace/persp_lh_no.h:100-120 -/
def f_glm_perspective_lh_no : Fn := ⟨[],
  [.call 372 [⟨0, 0, []⟩], wr 0 0, wr 0 20, wr 0 40, wr 0 44, wr 0 56]⟩
/-- `glm_perspective_default_lh_no`: include/cglm/clipspace/persp_lh_no.h:130-134 -/
def f_glm_perspective_default_lh_no : Fn := ⟨[],
  [.call 538 [⟨0, 0, []⟩]]⟩
/-- `glm_perspective_resize_lh_no`: include/cglm/clipspace/persp_lh_no.h:145-152 -/
def f_glm_perspective_resize_lh_no : Fn := ⟨[],
  [rd 0 0, rd 0 20, wr 0 0]⟩
/-- `glm_persp_move_far_lh_no`: include/cglm/clipspace/persp_lh_no.h:164-178 -/
def f_glm_persp_move_far_lh_no : Fn := ⟨[],
  [rd 0 40, rd 0 56, wr 0 40, wr 0 56]⟩
/-- `glm_persp_decomp_lh_no`: include/cglm/clipspace/persp_lh_no.h:193-221 -/
def f_glm_persp_decomp_lh_no : Fn := ⟨[],
  [rd 0 0, rd 0 20, rd 0 32, rd 0 36, rd 0 40, rd 0 56, wr 1 0, wr 2 0, wr 4 0, wr 3 0, wr 5 0, wr 6 0]⟩
/-- `glm_persp_decompv_lh_no`: include/cglm/clipspace/persp_lh_no.h:232-237 -/
def f_glm_persp_decompv_lh_no : Fn := ⟨[],
  [.call 542 [⟨0, 0, []⟩, ⟨1, 0, []⟩, ⟨1, 4, []⟩, ⟨1, 8, []⟩, ⟨1, 12, []⟩, ⟨1, 16, []⟩, ⟨1, 20, []⟩]]⟩
/-- `glm_persp_decomp_x_lh_no`: include/cglm/clipspace/persp_lh_no.h:249-263 -/
def f_glm_persp_decomp_x_lh_no : Fn := ⟨[],
  [rd 0 0, rd 0 32, rd 0 40, rd 0 56, wr 1 0, wr 2 0]⟩
/-- `glm_persp_decomp_y_lh_no`: include/cglm/clipspace/persp_lh_no.h:275-289 -/
def f_glm_persp_decomp_y_lh_no : Fn := ⟨[],
  [rd 0 36, rd 0 20, rd 0 40, rd 0 56, wr 2 0, wr 1 0]⟩
/-- `glm_persp_decomp_z_lh_no`: include/cglm/clipspace/persp_lh_no.h:301-313 -/
def f_glm_persp_decomp_z_lh_no : Fn := ⟨[],
  [rd 0 56, rd 0 40, wr 1 0, wr 2 0]⟩
/-- `glm_persp_decomp_far_lh_no`: include/cglm/clipspace/persp_lh_no.h:323-327 -/
def f_glm_persp_decomp_far_lh_no : Fn := ⟨[],
  [rd 0 56, rd 0 40, wr 1 0]⟩
/-- `glm_persp_decomp_near_lh_no`: include/cglm/clipspace/persp_lh_no.h:337-341 -/
def f_glm_persp_decomp_near_lh_no : Fn := ⟨[],
  [rd 0 56, rd 0 40, wr 1 0]⟩
/-- `glm_persp_sizes_lh_no`: include/cglm/clipspace/persp_lh_no.h:352-366 -/
def f_glm_persp_sizes_lh_no : Fn := ⟨[⟨4, []⟩, ⟨4, []⟩],
  [.call 509 [⟨0, 0, []⟩], .call 546 [⟨0, 0, []⟩, ⟨2, 0, []⟩, ⟨3, 0, []⟩], wr 1 4, wr 1 12, rd 1 4, wr 1 0, rd 1 12, wr 1 8]⟩
/-- `glm_persp_fovy_lh_no`: include/cglm/clipspace/persp_lh_no.h:377-381 -/
def f_glm_persp_fovy_lh_no : Fn := ⟨[],
  [.call 508 [⟨0, 0, []⟩]]⟩
/-- `glm_persp_aspect_lh_no`: include/cglm/clipspace/persp_lh_no.h:389-393 -/
def f_glm_persp_aspect_lh_no : Fn := ⟨[],
  [.call 509 [⟨0, 0, []⟩]]⟩
/-- `glm_ortho_rh_zo`: include/cglm/clipspace/ortho_rh_zo.h:47-68 -/
def f_glm_ortho_rh_zo : Fn := ⟨[],
  [.call 372 [⟨0, 0, []⟩], wr 0 0, wr 0 20, wr 0 40, wr 0 48, wr 0 52, wr 0 56, wr 0 60]⟩
/-- `glm_ortho_aabb_rh_zo`: include/cglm/clipspace/ortho_rh_zo.h:80-87 -/
def f_glm_ortho_aabb_rh_zo : Fn := ⟨[],
  [rd 0 0, rd 0 12, rd 0 4, rd 0 16, rd 0 20, rd 0 8, .call 552 [⟨1, 0, []⟩]]⟩
/-- `glm_ortho_aabb_p_rh_zo`: include/cglm/clipspace/ortho_rh_zo.h:100-107 -/
def f_glm_ortho_aabb_p_rh_zo : Fn := ⟨[],
  [rd 0 0, rd 0 12, rd 0 4, rd 0 16, rd 0 20, rd 0 8, .call 552 [⟨1, 0, []⟩]]⟩
/-- `glm_ortho_aabb_pz_rh_zo`: include/cglm/clipspace/ortho_rh_zo.h:120-127 -/
def f_glm_ortho_aabb_pz_rh_zo : Fn := ⟨[],
  [rd 0 0, rd 0 12, rd 0 4, rd 0 16, rd 0 20, rd 0 8, .call 552 [⟨1, 0, []⟩]]⟩
/-- `glm_ortho_default_rh_zo`: include/cglm/clipspace/ortho_rh_zo.h:136-147 -/
def f_glm_ortho_default_rh_zo : Fn := ⟨[],
  [.call 552 [⟨0, 0, []⟩]]⟩
/-- `glm_ortho_default_s_rh_zo`: include/cglm/clipspace/ortho_rh_zo.h:158-179 -/
def f_glm_ortho_default_s_rh_zo : Fn := ⟨[],
  [.call 552 [⟨0, 0, []⟩]]⟩
/-- `glm_frustum_rh_zo`: include/cglm/clipspace/persp_rh_zo.h:64-86 -/
def f_glm_frustum_rh_zo : Fn := ⟨[],
  [.call 372 [⟨0, 0, []⟩], wr 0 0, wr 0 20, wr 0 32, wr 0 36, wr 0 40, wr 0 44, wr 0 56]⟩
/-- `glm_perspective_rh_zo`: include/cglm/clipspace/persp_rh_zo.h:98-117 -/
def f_glm_perspective_rh_zo : Fn := ⟨[],
  [.call 372 [⟨0, 0, []⟩], wr 0 0, wr 0 20, wr 0 40, wr 0 44, wr 0 56]⟩
/-- `glm_perspective_default_rh_zo`: include/cglm/clipspace/persp_rh_zo.h:127-131 -/
def f_glm_perspective_default_rh_zo : Fn := ⟨[],
  [.call 559 [⟨0, 0, []⟩]]⟩
/-- `glm_perspective_resize_rh_zo`: include/cglm/clipspace/persp_rh_zo.h:142-149 -/
def f_glm_perspective_resize_rh_zo : Fn := ⟨[],
  [rd 0 0, rd 0 20, wr 0 0]⟩
/-- `glm_persp_move_far_rh_zo`: include/cglm/clipspace/persp_rh_zo.h:160-174 -/
def f_glm_persp_move_far_rh_zo : Fn := ⟨[],
  [rd 0 40, rd 0 56, wr 0 40, wr 0 56]⟩
/-- `glm_persp_decomp_rh_zo`: include/cglm/clipspace/persp_rh_zo.h:189-217 -/
def f_glm_persp_decomp_rh_zo : Fn := ⟨[],
  [rd 0 0, rd 0 20, rd 0 32, rd 0 36, rd 0 40, rd 0 56, wr 1 0, wr 2 0, wr 4 0, wr 3 0, wr 5 0, wr 6 0]⟩
/-- `glm_persp_decompv_rh_zo`: include/cglm/clipspace/persp_rh_zo.h:228-233 -/
def f_glm_persp_decompv_rh_zo : Fn := ⟨[],
  [.call 563 [⟨0, 0, []⟩, ⟨1, 0, []⟩, ⟨1, 4, []⟩, ⟨1, 8, []⟩, ⟨1, 12, []⟩, ⟨1, 16, []⟩, ⟨1, 20, []⟩]]⟩
/-- `glm_persp_decomp_x_rh_zo`: include/cglm/clipspace/persp_rh_zo.h:243-257 -/
def f_glm_persp_decomp_x_rh_zo : Fn := ⟨[],
  [rd 0 0, rd 0 32, rd 0 40, rd 0 56, wr 1 0, wr 2 0]⟩
/-- `glm_persp_decomp_y_rh_zo`: include/cglm/clipspace/persp_rh_zo.h:269-283 -/
def f_glm_persp_decomp_y_rh_zo : Fn := ⟨[],
  [rd 0 36, rd 0 20, rd 0 40, rd 0 56, wr 2 0, wr 1 0]⟩
/-- `glm_persp_decomp_z_rh_zo`: include/cglm/clipspace/persp_rh_zo.h:295-307 -/
def f_glm_persp_decomp_z_rh_zo : Fn := ⟨[],
  [rd 0 56, rd 0 40, wr 1 0, wr 2 0]⟩
/-- `glm_persp_decomp_far_rh_zo`: include/cglm/clipspace/persp_rh_zo.h:317-321 -/
def f_glm_persp_decomp_far_rh_zo : Fn := ⟨[],
  [rd 0 56, rd 0 40, wr 1 0]⟩
/-- `glm_persp_decomp_near_rh_zo`: include/cglm/clipspace/persp_rh_zo.h:331-335 -/
def f_glm_persp_decomp_near_rh_zo : Fn := ⟨[],
  [rd 0 56, rd 0 40, wr 1 0]⟩
/-- `glm_persp_sizes_rh_zo`: include/cglm/clipspace/persp_rh_zo.h:346-360 -/
def f_glm_persp_sizes_rh_zo : Fn := ⟨[⟨4, []⟩, ⟨4, []⟩],
  [.call 509 [⟨0, 0, []⟩], .call 567 [⟨0, 0, []⟩, ⟨2, 0, []⟩, ⟨3, 0, []⟩], wr 1 4, wr 1 12, rd 1 4, wr 1 0, rd 1 12, wr 1 8]⟩
/-- `glm_persp_fovy_rh_zo`: include/cglm/clipspace/persp_rh_zo.h:371-375 -/
def f_glm_persp_fovy_rh_zo : Fn := ⟨[],
  [.call 508 [⟨0, 0, []⟩]]⟩
/-- `glm_persp_aspect_rh_zo`: include/cglm/clipspace/persp_rh_zo.h:383-387 -/
def f_glm_persp_aspect_rh_zo : Fn := ⟨[],
  [.call 509 [⟨0, 0, []⟩]]⟩
/-- `glm_ortho_rh_no`: include/cglm/clipspace/ortho_rh_no.h:48-69 -/
def f_glm_ortho_rh_no : Fn := ⟨[],
  [.call 372 [⟨0, 0, []⟩], wr 0 0, wr 0 20, wr 0 40, wr 0 48, wr 0 52, wr 0 56, wr 0 60]⟩
/-- `glm_ortho_aabb_rh_no`: include/cglm/clipspace/ortho_rh_no.h:81-88 -/
def f_glm_ortho_aabb_rh_no : Fn := ⟨[],
  [rd 0 0, rd 0 12, rd 0 4, rd 0 16, rd 0 20, rd 0 8, .call 573 [⟨1, 0, []⟩]]⟩
/-- `glm_ortho_aabb_p_rh_no`: include/cglm/clipspace/ortho_rh_no.h:101-108 -/
def f_glm_ortho_aabb_p_rh_no : Fn := ⟨[],
  [rd 0 0, rd 0 12, rd 0 4, rd 0 16, rd 0 20, rd 0 8, .call 573 [⟨1, 0, []⟩]]⟩
/-- `glm_ortho_aabb_pz_rh_no`: include/cglm/clipspace/ortho_rh_no.h:121-128 -/
def f_glm_ortho_aabb_pz_rh_no : Fn := ⟨[],
  [rd 0 0, rd 0 12, rd 0 4, rd 0 16, rd 0 20, rd 0 8, .call 573 [⟨1, 0, []⟩]]⟩
/-- `glm_ortho_default_rh_no`: include/cglm/clipspace/ortho_rh_no.h:138-149 -/
def f_glm_ortho_default_rh_no : Fn := ⟨[],
  [.call 573 [⟨0, 0, []⟩]]⟩
/-- `glm_ortho_default_s_rh_no`: include/cglm/clipspace/ortho_rh_no.h:160-181 -/
def f_glm_ortho_default_s_rh_no : Fn := ⟨[],
  [.call 573 [⟨0, 0, []⟩]]⟩
/-- `glm_frustum_rh_no`: include/cglm/clipspace/persp_rh_no.h:65-87 -/
def f_glm_frustum_rh_no : Fn := ⟨[],
  [.call 372 [⟨0, 0, []⟩], wr 0 0, wr 0 20, wr 0 32, wr 0 36, wr 0 40, wr 0 44, wr 0 56]⟩
/-- `glm_perspective_rh_no`: include/cglm/clipspace/persp_rh_no.h:100-120 -/
def f_glm_perspective_rh_no : Fn := ⟨[],
  [.call 372 [⟨0, 0, []⟩], wr 0 0, wr 0 20, wr 0 40, wr 0 44, wr 0 56]⟩
/-- `glm_perspective_default_rh_no`: include/cglm/clipspace/persp_rh_no.h:130-134 -/
def f_glm_perspective_default_rh_no : Fn := ⟨[],
  [.call 580 [⟨0, 0, []⟩]]⟩
/-- `glm_perspective_resize_rh_no`: include/cglm/clipspace/persp_rh_no.h:145-152 -/
def f_glm_perspective_resize_rh_no : Fn := ⟨[],
  [rd 0 0, rd 0 20, wr 0 0]⟩
/-- `glm_persp_move_far_rh_no`: include/cglm/clipspace/persp_rh_no.h:164-178 -/
def f_glm_persp_move_far_rh_no : Fn := ⟨[],
  [rd 0 40, rd 0 56, wr 0 40, wr 0 56]⟩
/-- `glm_persp_decomp_rh_no`: include/cglm/clipspace/persp_rh_no.h:193-221 -/
def f_glm_persp_decomp_rh_no : Fn := ⟨[],
  [rd 0 0, rd 0 20, rd 0 32, rd 0 36, rd 0 40, rd 0 56, wr 1 0, wr 2 0, wr 4 0, wr 3 0, wr 5 0, wr 6 0]⟩
/-- `glm_persp_decompv_rh_no`: include/cglm/clipspace/persp_rh_no.h:232-237 -/
def f_glm_persp_decompv_rh_no : Fn := ⟨[],
  [.call 584 [⟨0, 0, []⟩, ⟨1, 0, []⟩, ⟨1, 4, []⟩, ⟨1, 8, []⟩, ⟨1, 12, []⟩, ⟨1, 16, []⟩, ⟨1, 20, []⟩]]⟩
/-- `glm_persp_decomp_x_rh_no`: include/cglm/clipspace/persp_rh_no.h:249-263 -/
def f_glm_persp_decomp_x_rh_no : Fn := ⟨[],
  [rd 0 0, rd 0 32, rd 0 40, rd 0 56, wr 1 0, wr 2 0]⟩
/-- `glm_persp_decomp_y_rh_no`: include/cglm/clipspace/persp_rh_no.h:275-289 -/
def f_glm_persp_decomp_y_rh_no : Fn := ⟨[],
  [rd 0 36, rd 0 20, rd 0 40, rd 0 56, wr 2 0, wr 1 0]⟩
/-- `glm_persp_decomp_z_rh_no`: include/cglm/clipspace/persp_rh_no.h:301-313 -/
def f_glm_persp_decomp_z_rh_no : Fn := ⟨[],
  [rd 0 56, rd 0 40, wr 1 0, wr 2 0]⟩
/-- `glm_persp_decomp_far_rh_no`: include/cglm/clipspace/persp_rh_no.h:323-327 -/
def f_glm_persp_decomp_far_rh_no : Fn := ⟨[],
  [rd 0 56, rd 0 40, wr 1 0]⟩
/-- `glm_persp_decomp_near_rh_no`: include/cglm/clipspace/persp_rh_no.h:337-341 -/
def f_glm_persp_decomp_near_rh_no : Fn := ⟨[],
  [rd 0 56, rd 0 40, wr 1 0]⟩
/-- `glm_persp_sizes_rh_no`: include/cglm/clipspace/persp_rh_no.h:352-366 -/
def f_glm_persp_sizes_rh_no : Fn := ⟨[⟨4, []⟩, ⟨4, []⟩],
  [.call 509 [⟨0, 0, []⟩], .call 588 [⟨0, 0, []⟩, ⟨2, 0, []⟩, ⟨3, 0, []⟩], wr 1 4, wr 1 12, rd 1 4, wr 1 0, rd 1 12, wr 1 8]⟩
/-- `glm_persp_fovy_rh_no`: include/cglm/clipspace/persp_rh_no.h:377-381 -/
def f_glm_persp_fovy_rh_no : Fn := ⟨[],
  [.call 508 [⟨0, 0, []⟩]]⟩
/-- `glm_persp_aspect_rh_no`: include/cglm/clipspace/persp_rh_no.h:389-393 -/
def f_glm_persp_aspect_rh_no : Fn := ⟨[],
  [.call 509 [⟨0, 0, []⟩]]⟩
/-- `glm_lookat_lh`: include/cglm/clipspace/view_lh.h:32-57 -/
def f_glm_lookat_lh : Fn := ⟨[⟨12, [.b8]⟩, ⟨12, [.b8]⟩, ⟨12, [.b8]⟩],
  [.call 200 [⟨1, 0, []⟩, ⟨0, 0, []⟩, ⟨4, 0, []⟩], .call 221 [⟨4, 0, []⟩], .call 224 [⟨2, 0, []⟩, ⟨4, 0, []⟩, ⟨6, 0, []⟩],
   .call 223 [⟨4, 0, []⟩, ⟨6, 0, []⟩, ⟨5, 0, []⟩], rd 6 0, wr 3 0, rd 5 0, wr 3 4, rd 4 0, wr 3 8, rd 6 4, wr 3 16, rd 5 4,
   wr 3 20, rd 4 4, wr 3 24, rd 6 8, wr 3 32, rd 5 8, wr 3 36, rd 4 8, wr 3 40, .call 193 [⟨6, 0, []⟩, ⟨0, 0, []⟩], wr 3 48,
   .call 193 [⟨5, 0, []⟩, ⟨0, 0, []⟩], wr 3 52, .call 193 [⟨4, 0, []⟩, ⟨0, 0, []⟩], wr 3 56, wr 3 44, wr 3 28, wr 3 12,
   wr 3 60]⟩
/-- `glm_look_lh`: include/cglm/clipspace/view_lh.h:73-79 -/
def f_glm_look_lh : Fn := ⟨[⟨12, [.b8]⟩],
  [.call 198 [⟨0, 0, []⟩, ⟨1, 0, []⟩, ⟨4, 0, []⟩], .call 594 [⟨0, 0, []⟩, ⟨4, 0, []⟩, ⟨2, 0, []⟩, ⟨3, 0, []⟩]]⟩
/-- `glm_look_anyup_lh`: include/cglm/clipspace/view_lh.h:91-97 -/
def f_glm_look_anyup_lh : Fn := ⟨[⟨12, [.b8]⟩],
  [.call 235 [⟨1, 0, []⟩, ⟨3, 0, []⟩], .call 595 [⟨0, 0, []⟩, ⟨1, 0, []⟩, ⟨3, 0, []⟩, ⟨2, 0, []⟩]]⟩
/-- `glm_lookat_lh_zo`: include/cglm/clipspace/view_lh_zo.h:32-36 -/
def f_glm_lookat_lh_zo : Fn := ⟨[],
  [.call 594 [⟨0, 0, []⟩, ⟨1, 0, []⟩, ⟨2, 0, []⟩, ⟨3, 0, []⟩]]⟩
/-- `glm_look_lh_zo`: include/cglm/clipspace/view_lh_zo.h:52-56 -/
def f_glm_look_lh_zo : Fn := ⟨[],
  [.call 595 [⟨0, 0, []⟩, ⟨1, 0, []⟩, ⟨2, 0, []⟩, ⟨3, 0, []⟩]]⟩
/-- `glm_look_anyup_lh_zo`: include/cglm/clipspace/view_lh_zo.h:68-72 -/
def f_glm_look_anyup_lh_zo : Fn := ⟨[],
  [.call 596 [⟨0, 0, []⟩, ⟨1, 0, []⟩, ⟨2, 0, []⟩]]⟩
/-- `glm_lookat_lh_no`: include/cglm/clipspace/view_lh_no.h:32-36 -/
def f_glm_lookat_lh_no : Fn := ⟨[],
  [.call 594 [⟨0, 0, []⟩, ⟨1, 0, []⟩, ⟨2, 0, []⟩, ⟨3, 0, []⟩]]⟩
/-- `glm_look_lh_no`: include/cglm/clipspace/view_lh_no.h:52-56 -/
def f_glm_look_lh_no : Fn := ⟨[],
  [.call 595 [⟨0, 0, []⟩, ⟨1, 0, []⟩, ⟨2, 0, []⟩, ⟨3, 0, []⟩]]⟩
/-- `glm_look_anyup_lh_no`: include/cglm/clipspace/view_lh_no.h:68-72 -/
def f_glm_look_anyup_lh_no : Fn := ⟨[],
  [.call 596 [⟨0, 0, []⟩, ⟨1, 0, []⟩, ⟨2, 0, []⟩]]⟩
/-- `glm_lookat_rh`: include/cglm/clipspace/view_rh.h:32-57 -/
def f_glm_lookat_rh : Fn := ⟨[⟨12, [.b8]⟩, ⟨12, [.b8]⟩, ⟨12, [.b8]⟩],
  [.call 200 [⟨1, 0, []⟩, ⟨0, 0, []⟩, ⟨4, 0, []⟩], .call 221 [⟨4, 0, []⟩], .call 224 [⟨4, 0, []⟩, ⟨2, 0, []⟩, ⟨6, 0, []⟩],
   .call 223 [⟨6, 0, []⟩, ⟨4, 0, []⟩, ⟨5, 0, []⟩], rd 6 0, wr 3 0, rd 5 0, wr 3 4, rd 4 0, wr 3 8, rd 6 4, wr 3 16, rd 5 4,
   wr 3 20, rd 4 4, wr 3 24, rd 6 8, wr 3 32, rd 5 8, wr 3 36, rd 4 8, wr 3 40, .call 193 [⟨6, 0, []⟩, ⟨0, 0, []⟩], wr 3 48,
   .call 193 [⟨5, 0, []⟩, ⟨0, 0, []⟩], wr 3 52, .call 193 [⟨4, 0, []⟩, ⟨0, 0, []⟩], wr 3 56, wr 3 44, wr 3 28, wr 3 12,
   wr 3 60]⟩
/-- `glm_look_rh`: include/cglm/clipspace/view_rh.h:73-79 -/
def f_glm_look_rh : Fn := ⟨[⟨12, [.b8]⟩],
  [.call 198 [⟨0, 0, []⟩, ⟨1, 0, []⟩, ⟨4, 0, []⟩], .call 603 [⟨0, 0, []⟩, ⟨4, 0, []⟩, ⟨2, 0, []⟩, ⟨3, 0, []⟩]]⟩
/-- `glm_look_anyup_rh`: include/cglm/clipspace/view_rh.h:91-97 -/
def f_glm_look_anyup_rh : Fn := ⟨[⟨12, [.b8]⟩],
  [.call 235 [⟨1, 0, []⟩, ⟨3, 0, []⟩], .call 604 [⟨0, 0, []⟩, ⟨1, 0, []⟩, ⟨3, 0, []⟩, ⟨2, 0, []⟩]]⟩
/-- `glm_lookat_rh_zo`: include/cglm/clipspace/view_rh_zo.h:32-36 -/
def f_glm_lookat_rh_zo : Fn := ⟨[],
  [.call 603 [⟨0, 0, []⟩, ⟨1, 0, []⟩, ⟨2, 0, []⟩, ⟨3, 0, []⟩]]⟩
/-- `glm_look_rh_zo`: include/cglm/clipspace/view_rh_zo.h:52-56 -/
def f_glm_look_rh_zo : Fn := ⟨[],
  [.call 604 [⟨0, 0, []⟩, ⟨1, 0, []⟩, ⟨2, 0, []⟩, ⟨3, 0, []⟩]]⟩
/-- `glm_look_anyup_rh_zo`: include/cglm/clipspace/view_rh_zo.h:68-72 -/
def f_glm_look_anyup_rh_zo : Fn := ⟨[],
  [.call 605 [⟨0, 0, []⟩, ⟨1, 0, []⟩, ⟨2, 0, []⟩]]⟩
/-- `glm_lookat_rh_no`: include/cglm/clipspace/view_rh_no.h:32-36 -/
def f_glm_lookat_rh_no : Fn := ⟨[],
  [.call 603 [⟨0, 0, []⟩, ⟨1, 0, []⟩, ⟨2, 0, []⟩, ⟨3, 0, []⟩]]⟩
/-- `glm_look_rh_no`: include/cglm/clipspace/view_rh_no.h:52-56 -/
def f_glm_look_rh_no : Fn := ⟨[],
  [.call 604 [⟨0, 0, []⟩, ⟨1, 0, []⟩, ⟨2, 0, []⟩, ⟨3, 0, []⟩]]⟩
/-- `glm_look_anyup_rh_no`: include/cglm/clipspace/view_rh_no.h:68-72 -/
def f_glm_look_anyup_rh_no : Fn := ⟨[],
  [.call 605 [⟨0, 0, []⟩, ⟨1, 0, []⟩, ⟨2, 0, []⟩]]⟩
/-- `glm_frustum`: include/cglm/cam.h:100-115 -/
def f_glm_frustum : Fn := ⟨[],
  [.call 579 [⟨0, 0, []⟩]]⟩
/-- `glm_ortho`: include/cglm/cam.h:128-143 -/
def f_glm_ortho : Fn := ⟨[],
  [.call 573 [⟨0, 0, []⟩]]⟩
/-- `glm_ortho_aabb`: include/cglm/cam.h:153-165 -/
def f_glm_ortho_aabb : Fn := ⟨[],
  [.call 574 [⟨0, 0, []⟩, ⟨1, 0, []⟩]]⟩
/-- `glm_ortho_aabb_p`: include/cglm/cam.h:176-188 -/
def f_glm_ortho_aabb_p : Fn := ⟨[],
  [.call 575 [⟨0, 0, []⟩, ⟨1, 0, []⟩]]⟩
/-- `glm_ortho_aabb_pz`: include/cglm/cam.h:199-211 -/
def f_glm_ortho_aabb_pz : Fn := ⟨[],
  [.call 576 [⟨0, 0, []⟩, ⟨1, 0, []⟩]]⟩
/-- `glm_ortho_default`: include/cglm/cam.h:219-231 -/
def f_glm_ortho_default : Fn := ⟨[],
  [.call 577 [⟨0, 0, []⟩]]⟩
/-- `glm_ortho_default_s`: include/cglm/cam.h:240-252 -/
def f_glm_ortho_default_s : Fn := ⟨[],
  [.call 578 [⟨0, 0, []⟩]]⟩
/-- `glm_perspective`: include/cglm/cam.h:263-275 -/
def f_glm_perspective : Fn := ⟨[],
  [.call 580 [⟨0, 0, []⟩]]⟩
/-- `glm_persp_move_far`: include/cglm/cam.h:285-297 -/
def f_glm_persp_move_far : Fn := ⟨[],
  [.call 583 [⟨0, 0, []⟩]]⟩
/-- `glm_perspective_default`: include/cglm/cam.h:306-318 -/
def f_glm_perspective_default : Fn := ⟨[],
  [.call 581 [⟨0, 0, []⟩]]⟩
/-- `glm_perspective_resize`: include/cglm/cam.h:328-335 -/
def f_glm_perspective_resize : Fn := ⟨[],
  [rd 0 0, rd 0 20, wr 0 0]⟩
/-- `glm_lookat`: include/cglm/cam.h:348-356 -/
def f_glm_lookat : Fn := ⟨[],
  [.call 603 [⟨0, 0, []⟩, ⟨1, 0, []⟩, ⟨2, 0, []⟩, ⟨3, 0, []⟩]]⟩
/-- `glm_look`: include/cglm/cam.h:372-380 -/
def f_glm_look : Fn := ⟨[],
  [.call 604 [⟨0, 0, []⟩, ⟨1, 0, []⟩, ⟨2, 0, []⟩, ⟨3, 0, []⟩]]⟩
/-- `glm_look_anyup`: include/cglm/cam.h:392-400 -/
def f_glm_look_anyup : Fn := ⟨[],
  [.call 605 [⟨0, 0, []⟩, ⟨1, 0, []⟩, ⟨2, 0, []⟩]]⟩
/-- `glm_persp_decomp`: include/cglm/cam.h:413-428 -/
def f_glm_persp_decomp : Fn := ⟨[],
  [.call 584 [⟨0, 0, []⟩, ⟨1, 0, []⟩, ⟨2, 0, []⟩, ⟨3, 0, []⟩, ⟨4, 0, []⟩, ⟨5, 0, []⟩, ⟨6, 0, []⟩]]⟩
/-- `glm_persp_decompv`: include/cglm/cam.h:437-449 -/
def f_glm_persp_decompv : Fn := ⟨[],
  [.call 585 [⟨0, 0, []⟩, ⟨1, 0, []⟩]]⟩
/-- `glm_persp_decomp_x`: include/cglm/cam.h:459-473 -/
def f_glm_persp_decomp_x : Fn := ⟨[],
  [.call 586 [⟨0, 0, []⟩, ⟨1, 0, []⟩, ⟨2, 0, []⟩]]⟩
/-- `glm_persp_decomp_y`: include/cglm/cam.h:483-497 -/
def f_glm_persp_decomp_y : Fn := ⟨[],
  [.call 587 [⟨0, 0, []⟩, ⟨1, 0, []⟩, ⟨2, 0, []⟩]]⟩
/-- `glm_persp_decomp_z`: include/cglm/cam.h:507-519 -/
def f_glm_persp_decomp_z : Fn := ⟨[],
  [.call 588 [⟨0, 0, []⟩, ⟨1, 0, []⟩, ⟨2, 0, []⟩]]⟩
/-- `glm_persp_decomp_far`: include/cglm/cam.h:527-539 -/
def f_glm_persp_decomp_far : Fn := ⟨[],
  [.call 589 [⟨0, 0, []⟩, ⟨1, 0, []⟩]]⟩
/-- `glm_persp_decomp_near`: include/cglm/cam.h:547-559 -/
def f_glm_persp_decomp_near : Fn := ⟨[],
  [.call 590 [⟨0, 0, []⟩, ⟨1, 0, []⟩]]⟩
/-- `glm_persp_sizes`: include/cglm/cam.h:568-580 -/
def f_glm_persp_sizes : Fn := ⟨[],
  [.call 591 [⟨0, 0, []⟩, ⟨1, 0, []⟩]]⟩
/-- `glm_frustum_planes`: include/cglm/frustum.h:70-90 -/
def f_glm_frustum_planes : Fn := ⟨[⟨64, [.mat, .vec]⟩],
  [.call 383 [⟨0, 0, []⟩, ⟨2, 0, []⟩], .call 145 [⟨2, 48, []⟩, ⟨2, 0, []⟩, ⟨1, 0, []⟩],
   .call 147 [⟨2, 48, []⟩, ⟨2, 0, []⟩, ⟨1, 16, []⟩], .call 145 [⟨2, 48, []⟩, ⟨2, 16, []⟩, ⟨1, 32, []⟩],
   .call 147 [⟨2, 48, []⟩, ⟨2, 16, []⟩, ⟨1, 48, []⟩], .call 145 [⟨2, 48, []⟩, ⟨2, 32, []⟩, ⟨1, 64, []⟩],
   .call 147 [⟨2, 48, []⟩, ⟨2, 32, []⟩, ⟨1, 80, []⟩], .call 507 [⟨1, 0, []⟩], .call 507 [⟨1, 16, []⟩],
   .call 507 [⟨1, 32, []⟩], .call 507 [⟨1, 48, []⟩], .call 507 [⟨1, 64, []⟩], .call 507 [⟨1, 80, []⟩]]⟩
/-- `glm_frustum_corners`: include/cglm/frustum.h:115-150 -/
def f_glm_frustum_corners : Fn := ⟨[⟨128, [.vec]⟩, ⟨128, [.vec]⟩],
  [.call 378 [⟨0, 0, []⟩, ⟨3, 0, []⟩, ⟨2, 0, []⟩], .call 378 [⟨0, 0, []⟩, ⟨3, 16, []⟩, ⟨2, 16, []⟩],
   .call 378 [⟨0, 0, []⟩, ⟨3, 32, []⟩, ⟨2, 32, []⟩], .call 378 [⟨0, 0, []⟩, ⟨3, 48, []⟩, ⟨2, 48, []⟩],
   .call 378 [⟨0, 0, []⟩, ⟨3, 64, []⟩, ⟨2, 64, []⟩], .call 378 [⟨0, 0, []⟩, ⟨3, 80, []⟩, ⟨2, 80, []⟩],
   .call 378 [⟨0, 0, []⟩, ⟨3, 96, []⟩, ⟨2, 96, []⟩], .call 378 [⟨0, 0, []⟩, ⟨3, 112, []⟩, ⟨2, 112, []⟩], rd 2 12,
   .call 150 [⟨2, 0, []⟩, ⟨1, 0, []⟩], rd 2 28, .call 150 [⟨2, 16, []⟩, ⟨1, 16, []⟩], rd 2 44,
   .call 150 [⟨2, 32, []⟩, ⟨1, 32, []⟩], rd 2 60, .call 150 [⟨2, 48, []⟩, ⟨1, 48, []⟩], rd 2 76,
   .call 150 [⟨2, 64, []⟩, ⟨1, 64, []⟩], rd 2 92, .call 150 [⟨2, 80, []⟩, ⟨1, 80, []⟩], rd 2 108,
   .call 150 [⟨2, 96, []⟩, ⟨1, 96, []⟩], rd 2 124, .call 150 [⟨2, 112, []⟩, ⟨1, 112, []⟩]]⟩
/-- `glm_frustum_center`: include/cglm/frustum.h:158-174 -/
def f_glm_frustum_center : Fn := ⟨[⟨16, [.vec]⟩],
  [.call 136 [⟨0, 0, []⟩, ⟨2, 0, []⟩], .call 145 [⟨0, 16, []⟩, ⟨2, 0, []⟩, ⟨2, 0, []⟩],
   .call 145 [⟨0, 32, []⟩, ⟨2, 0, []⟩, ⟨2, 0, []⟩], .call 145 [⟨0, 48, []⟩, ⟨2, 0, []⟩, ⟨2, 0, []⟩],
   .call 145 [⟨0, 64, []⟩, ⟨2, 0, []⟩, ⟨2, 0, []⟩], .call 145 [⟨0, 80, []⟩, ⟨2, 0, []⟩, ⟨2, 0, []⟩],
   .call 145 [⟨0, 96, []⟩, ⟨2, 0, []⟩, ⟨2, 0, []⟩], .call 145 [⟨0, 112, []⟩, ⟨2, 0, []⟩, ⟨2, 0, []⟩],
   .call 150 [⟨2, 0, []⟩, ⟨1, 0, []⟩]]⟩
/-- `glm_frustum_box`: include/cglm/frustum.h:183-207 -/
def f_glm_frustum_box : Fn := ⟨[⟨16, [.vec]⟩, ⟨12, []⟩, ⟨12, []⟩],
  [.call 92 [⟨4, 0, []⟩], .call 92 [⟨5, 0, []⟩], .call 378 [⟨1, 0, []⟩, ⟨0, 0, []⟩, ⟨3, 0, []⟩], rd 4 0, rd 3 0, .call 7 [],
   wr 4 0, rd 4 4, rd 3 4, wr 4 4, rd 4 8, rd 3 8, wr 4 8, rd 5 0, .call 8 [], wr 5 0, rd 5 4, wr 5 4, rd 5 8, wr 5 8,
   .call 378 [⟨1, 0, []⟩, ⟨0, 16, []⟩, ⟨3, 0, []⟩], .call 378 [⟨1, 0, []⟩, ⟨0, 32, []⟩, ⟨3, 0, []⟩],
   .call 378 [⟨1, 0, []⟩, ⟨0, 48, []⟩, ⟨3, 0, []⟩], .call 378 [⟨1, 0, []⟩, ⟨0, 64, []⟩, ⟨3, 0, []⟩],
   .call 378 [⟨1, 0, []⟩, ⟨0, 80, []⟩, ⟨3, 0, []⟩], .call 378 [⟨1, 0, []⟩, ⟨0, 96, []⟩, ⟨3, 0, []⟩],
   .call 378 [⟨1, 0, []⟩, ⟨0, 112, []⟩, ⟨3, 0, []⟩], .call 190 [⟨4, 0, []⟩, ⟨2, 0, []⟩], .call 190 [⟨5, 0, []⟩, ⟨2, 12, []⟩]]⟩
/-- `glm_frustum_corners_at`: include/cglm/frustum.h:221-253 -/
def f_glm_frustum_corners_at : Fn := ⟨[⟨16, [.vec]⟩],
  [.call 232 [⟨0, 96, []⟩, ⟨0, 32, []⟩], .call 147 [⟨0, 64, []⟩, ⟨0, 0, []⟩, ⟨2, 0, []⟩], .call 151 [⟨2, 0, []⟩, ⟨2, 0, []⟩],
   .call 145 [⟨0, 0, []⟩, ⟨2, 0, []⟩, ⟨1, 0, []⟩], .call 147 [⟨0, 80, []⟩, ⟨0, 16, []⟩, ⟨2, 0, []⟩],
   .call 145 [⟨0, 16, []⟩, ⟨2, 0, []⟩, ⟨1, 16, []⟩], .call 147 [⟨0, 96, []⟩, ⟨0, 32, []⟩, ⟨2, 0, []⟩],
   .call 145 [⟨0, 32, []⟩, ⟨2, 0, []⟩, ⟨1, 32, []⟩], .call 147 [⟨0, 112, []⟩, ⟨0, 48, []⟩, ⟨2, 0, []⟩],
   .call 145 [⟨0, 48, []⟩, ⟨2, 0, []⟩, ⟨1, 48, []⟩]]⟩
/-- `glm_quat_identity`: include/cglm/quat.h:99-104 -/
def f_glm_quat_identity : Fn := ⟨[⟨16, [.b16, .vec]⟩],
  [.call 136 [⟨1, 0, []⟩, ⟨0, 0, []⟩]]⟩
/-- `glm_quat_identity_array`: include/cglm/quat.h:114-123 -/
def f_glm_quat_identity_array : Fn := ⟨[⟨16, [.b16, .vec]⟩],
  [.call 136 [⟨1, 0, []⟩, ⟨0, 0, []⟩]]⟩
/-- `glm_quat_init`: include/cglm/quat.h:134-141 -/
def f_glm_quat_init : Fn := ⟨[],
  [wr 0 0, wr 0 4, wr 0 8, wr 0 12]⟩
/-- `glm_quatv`: include/cglm/quat.h:150-166 -/
def f_glm_quatv : Fn := ⟨[⟨12, [.b8]⟩],
  [.call 250 [⟨1, 0, []⟩, ⟨2, 0, []⟩], rd 2 0, wr 0 0, rd 2 4, wr 0 4, rd 2 8, wr 0 8, wr 0 12]⟩
/-- `glm_quat`: include/cglm/quat.h:177-182 -/
def f_glm_quat : Fn := ⟨[⟨12, [.b8]⟩],
  [.call 642 [⟨0, 0, []⟩, ⟨1, 0, []⟩]]⟩
/-- `glm_quat_copy`: include/cglm/quat.h:190-194 -/
def f_glm_quat_copy : Fn := ⟨[],
  [.call 136 [⟨0, 0, []⟩, ⟨1, 0, []⟩]]⟩
/-- `glm_quat_from_vecs`: include/cglm/quat.h:203-225 -/
def f_glm_quat_from_vecs : Fn := ⟨[⟨12, [.b8]⟩],
  [.call 193 [⟨0, 0, []⟩, ⟨1, 0, []⟩], .call 639 [⟨2, 0, []⟩], .call 235 [⟨0, 0, []⟩, ⟨3, 0, []⟩],
   .call 223 [⟨0, 0, []⟩, ⟨1, 0, []⟩, ⟨3, 0, []⟩], rd 3 0, rd 3 4, rd 3 8, .call 641 [⟨2, 0, []⟩], .call 648 [⟨2, 0, []⟩]]⟩
/-- `glm_quat_norm`: include/cglm/quat.h:232-236 -/
def f_glm_quat_norm : Fn := ⟨[],
  [.call 142 [⟨0, 0, []⟩]]⟩
/-- `glm_quat_normalize_to`: include/cglm/quat.h:244-288 -/
def f_glm_quat_normalize_to : Fn := ⟨[],
  [.call 141 [⟨0, 0, []⟩], .call 639 [⟨1, 0, []⟩], .call 150 [⟨0, 0, []⟩, ⟨1, 0, []⟩]]⟩
/-- `glm_quat_normalize`: include/cglm/quat.h:295-299 -/
def f_glm_quat_normalize : Fn := ⟨[],
  [.call 647 [⟨0, 0, []⟩, ⟨0, 0, []⟩]]⟩
/-- `glm_quat_dot`: include/cglm/quat.h:307-311 -/
def f_glm_quat_dot : Fn := ⟨[],
  [.call 140 [⟨0, 0, []⟩, ⟨1, 0, []⟩]]⟩
/-- `glm_quat_conjugate`: include/cglm/quat.h:319-324 -/
def f_glm_quat_conjugate : Fn := ⟨[],
  [.call 166 [⟨0, 0, []⟩, ⟨1, 0, []⟩], rd 1 12, wr 1 12]⟩
/-- `glm_quat_inv`: include/cglm/quat.h:332-338 -/
def f_glm_quat_inv : Fn := ⟨[⟨16, [.b16, .vec]⟩],
  [.call 650 [⟨0, 0, []⟩, ⟨2, 0, []⟩], .call 141 [⟨0, 0, []⟩], .call 150 [⟨2, 0, []⟩, ⟨1, 0, []⟩]]⟩
/-- `glm_quat_add`: include/cglm/quat.h:347-351 -/
def f_glm_quat_add : Fn := ⟨[],
  [.call 145 [⟨0, 0, []⟩, ⟨1, 0, []⟩, ⟨2, 0, []⟩]]⟩
/-- `glm_quat_sub`: include/cglm/quat.h:360-364 -/
def f_glm_quat_sub : Fn := ⟨[],
  [.call 147 [⟨0, 0, []⟩, ⟨1, 0, []⟩, ⟨2, 0, []⟩]]⟩
/-- `glm_quat_real`: include/cglm/quat.h:371-375 -/
def f_glm_quat_real : Fn := ⟨[],
  [rd 0 12]⟩
/-- `glm_quat_imag`: include/cglm/quat.h:383-389 -/
def f_glm_quat_imag : Fn := ⟨[],
  [rd 0 0, wr 1 0, rd 0 4, wr 1 4, rd 0 8, wr 1 8]⟩
/-- `glm_quat_imagn`: include/cglm/quat.h:396-400 -/
def f_glm_quat_imagn : Fn := ⟨[],
  [.call 250 [⟨0, 0, []⟩, ⟨1, 0, []⟩]]⟩
/-- `glm_quat_imaglen`: include/cglm/quat.h:407-411 -/
def f_glm_quat_imaglen : Fn := ⟨[],
  [.call 195 [⟨0, 0, []⟩]]⟩
/-- `glm_quat_angle`: include/cglm/quat.h:418-427 -/
def f_glm_quat_angle : Fn := ⟨[],
  [.call 657 [⟨0, 0, []⟩], .call 654 [⟨0, 0, []⟩]]⟩
/-- `glm_quat_axis`: include/cglm/quat.h:435-439 -/
def f_glm_quat_axis : Fn := ⟨[],
  [.call 656 [⟨0, 0, []⟩, ⟨1, 0, []⟩]]⟩
/-- `glm_quat_mul`: include/cglm/quat.h:453-474 -/
def f_glm_quat_mul : Fn := ⟨[],
  [rd 0 12, rd 1 0, rd 0 0, rd 1 12, rd 0 4, rd 1 8, rd 0 8, rd 1 4, wr 2 0, wr 2 4, wr 2 8, wr 2 12]⟩
/-- `glm_quat_mat4`: include/cglm/quat.h:482-521 -/
def f_glm_quat_mat4 : Fn := ⟨[],
  [.call 646 [⟨0, 0, []⟩], rd 0 0, rd 0 4, rd 0 8, rd 0 12, wr 1 0, wr 1 20, wr 1 40, wr 1 4, wr 1 24, wr 1 32, wr 1 16,
   wr 1 36, wr 1 8, wr 1 12, wr 1 28, wr 1 44, wr 1 48, wr 1 52, wr 1 56, wr 1 60]⟩
/-- `glm_quat_mat4t`: include/cglm/quat.h:529-568 -/
def f_glm_quat_mat4t : Fn := ⟨[],
  [.call 646 [⟨0, 0, []⟩], rd 0 0, rd 0 4, rd 0 8, rd 0 12, wr 1 0, wr 1 20, wr 1 40, wr 1 16, wr 1 36, wr 1 8, wr 1 4,
   wr 1 24, wr 1 32, wr 1 12, wr 1 28, wr 1 44, wr 1 48, wr 1 52, wr 1 56, wr 1 60]⟩
/-- `glm_quat_mat3`: include/cglm/quat.h:576-607 -/
def f_glm_quat_mat3 : Fn := ⟨[],
  [.call 646 [⟨0, 0, []⟩], rd 0 0, rd 0 4, rd 0 8, rd 0 12, wr 1 0, wr 1 16, wr 1 32, wr 1 4, wr 1 20, wr 1 24, wr 1 12,
   wr 1 28, wr 1 8]⟩
/-- `glm_quat_mat3t`: include/cglm/quat.h:615-646 -/
def f_glm_quat_mat3t : Fn := ⟨[],
  [.call 646 [⟨0, 0, []⟩], rd 0 0, rd 0 4, rd 0 8, rd 0 12, wr 1 0, wr 1 16, wr 1 32, wr 1 12, wr 1 28, wr 1 8, wr 1 4,
   wr 1 20, wr 1 24]⟩
/-- `glm_quat_lerp`: include/cglm/quat.h:657-661 -/
def f_glm_quat_lerp : Fn := ⟨[],
  [.call 175 [⟨0, 0, []⟩, ⟨1, 0, []⟩, ⟨2, 0, []⟩]]⟩
/-- `glm_quat_lerpc`: include/cglm/quat.h:672-676 -/
def f_glm_quat_lerpc : Fn := ⟨[],
  [.call 176 [⟨0, 0, []⟩, ⟨1, 0, []⟩, ⟨2, 0, []⟩]]⟩
/-- `glm_quat_nlerp`: include/cglm/quat.h:688-699 -/
def f_glm_quat_nlerp : Fn := ⟨[⟨16, [.vec]⟩],
  [.call 140 [⟨0, 0, []⟩, ⟨1, 0, []⟩], .call 150 [⟨1, 0, []⟩, ⟨3, 0, []⟩], .call 665 [⟨0, 0, []⟩, ⟨3, 0, []⟩, ⟨2, 0, []⟩],
   .call 648 [⟨2, 0, []⟩]]⟩
/-- `glm_quat_slerp`: include/cglm/quat.h:710-744 -/
def f_glm_quat_slerp : Fn := ⟨[⟨16, [.b16, .vec]⟩, ⟨16, [.b16, .vec]⟩],
  [.call 649 [⟨0, 0, []⟩, ⟨1, 0, []⟩], .call 644 [⟨0, 0, []⟩, ⟨3, 0, []⟩], .call 644 [⟨3, 0, []⟩, ⟨2, 0, []⟩],
   .call 167 [⟨3, 0, []⟩], .call 665 [⟨0, 0, []⟩, ⟨1, 0, []⟩, ⟨2, 0, []⟩], .call 150 [⟨3, 0, []⟩, ⟨3, 0, []⟩],
   .call 150 [⟨1, 0, []⟩, ⟨4, 0, []⟩], .call 145 [⟨3, 0, []⟩, ⟨4, 0, []⟩, ⟨3, 0, []⟩], .call 150 [⟨3, 0, []⟩, ⟨2, 0, []⟩]]⟩
/-- `glm_quat_slerp_longest`: include/cglm/quat.h:755-790 -/
def f_glm_quat_slerp_longest : Fn := ⟨[⟨16, [.b16, .vec]⟩, ⟨16, [.b16, .vec]⟩],
  [.call 649 [⟨0, 0, []⟩, ⟨1, 0, []⟩], .call 644 [⟨0, 0, []⟩, ⟨3, 0, []⟩], .call 644 [⟨3, 0, []⟩, ⟨2, 0, []⟩],
   .call 167 [⟨3, 0, []⟩], .call 665 [⟨0, 0, []⟩, ⟨1, 0, []⟩, ⟨2, 0, []⟩], .call 150 [⟨3, 0, []⟩, ⟨3, 0, []⟩],
   .call 150 [⟨1, 0, []⟩, ⟨4, 0, []⟩], .call 145 [⟨3, 0, []⟩, ⟨4, 0, []⟩, ⟨3, 0, []⟩], .call 150 [⟨3, 0, []⟩, ⟨2, 0, []⟩]]⟩
/-- `glm_quat_look`: include/cglm/quat.h:799-808 -/
def f_glm_quat_look : Fn := ⟨[],
  [.call 662 [⟨1, 0, []⟩, ⟨2, 0, []⟩], .call 382 [⟨2, 0, []⟩, ⟨0, 0, []⟩, ⟨2, 48, []⟩], .call 220 [⟨2, 48, []⟩]]⟩
/-- `glm_quat_for`: include/cglm/quat.h:817-831 -/
def f_glm_quat_for : Fn := ⟨[⟨36, [.mat]⟩],
  [.call 222 [⟨0, 0, []⟩, ⟨3, 24, []⟩], .call 220 [⟨3, 24, []⟩], .call 224 [⟨1, 0, []⟩, ⟨3, 24, []⟩, ⟨3, 0, []⟩],
   .call 223 [⟨3, 24, []⟩, ⟨3, 0, []⟩, ⟨3, 12, []⟩], .call 418 [⟨3, 0, []⟩, ⟨2, 0, []⟩]]⟩
/-- `glm_quat_forp`: include/cglm/quat.h:842-848 -/
def f_glm_quat_forp : Fn := ⟨[⟨12, [.b8]⟩],
  [.call 200 [⟨1, 0, []⟩, ⟨0, 0, []⟩, ⟨4, 0, []⟩], .call 671 [⟨4, 0, []⟩, ⟨2, 0, []⟩, ⟨3, 0, []⟩]]⟩
/-- `glm_quat_rotatev`: include/cglm/quat.h:857-876 -/
def f_glm_quat_rotatev : Fn := ⟨[⟨16, [.b16, .vec]⟩, ⟨12, [.b8]⟩, ⟨12, [.b8]⟩, ⟨12, [.b8]⟩],
  [.call 647 [⟨0, 0, []⟩, ⟨3, 0, []⟩], .call 655 [⟨3, 0, []⟩, ⟨4, 0, []⟩], .call 654 [⟨3, 0, []⟩],
   .call 193 [⟨4, 0, []⟩, ⟨1, 0, []⟩], .call 203 [⟨4, 0, []⟩, ⟨5, 0, []⟩], .call 193 [⟨4, 0, []⟩, ⟨4, 0, []⟩],
   .call 203 [⟨1, 0, []⟩, ⟨6, 0, []⟩], .call 198 [⟨5, 0, []⟩, ⟨6, 0, []⟩, ⟨5, 0, []⟩],
   .call 223 [⟨4, 0, []⟩, ⟨1, 0, []⟩, ⟨6, 0, []⟩], .call 203 [⟨6, 0, []⟩, ⟨6, 0, []⟩],
   .call 198 [⟨5, 0, []⟩, ⟨6, 0, []⟩, ⟨2, 0, []⟩]]⟩
/-- `glm_quat_rotate`: include/cglm/quat.h:885-891 -/
def f_glm_quat_rotate : Fn := ⟨[⟨64, [.mat, .vec]⟩],
  [.call 661 [⟨1, 0, []⟩, ⟨3, 0, []⟩], .call 472 [⟨0, 0, []⟩, ⟨3, 0, []⟩, ⟨2, 0, []⟩]]⟩
/-- `glm_quat_rotate_at`: include/cglm/quat.h:900-910 -/
def f_glm_quat_rotate_at : Fn := ⟨[⟨12, [.b8]⟩],
  [.call 219 [⟨2, 0, []⟩, ⟨3, 0, []⟩], .call 484 [⟨0, 0, []⟩, ⟨2, 0, []⟩], .call 674 [⟨0, 0, []⟩, ⟨1, 0, []⟩, ⟨0, 0, []⟩],
   .call 484 [⟨0, 0, []⟩, ⟨3, 0, []⟩]]⟩
/-- `glm_quat_rotate_atm`: include/cglm/quat.h:924-934 -/
def f_glm_quat_rotate_atm : Fn := ⟨[⟨12, [.b8]⟩],
  [.call 219 [⟨2, 0, []⟩, ⟨3, 0, []⟩], .call 474 [⟨0, 0, []⟩, ⟨2, 0, []⟩], .call 674 [⟨0, 0, []⟩, ⟨1, 0, []⟩, ⟨0, 0, []⟩],
   .call 484 [⟨0, 0, []⟩, ⟨3, 0, []⟩]]⟩
/-- `glm_quat_make`: include/cglm/quat.h:942-947 -/
def f_glm_quat_make : Fn := ⟨[],
  [rd 0 0, wr 1 0, rd 0 4, wr 1 4, rd 0 8, wr 1 8, rd 0 12, wr 1 12]⟩
/-- `glm_euler_xyz_quat_rh`: include/cglm/handed/euler_to_quat_rh.h:35-50 -/
def f_glm_euler_xyz_quat_rh : Fn := ⟨[],
  [rd 0 0, rd 0 4, rd 0 8, wr 1 0, wr 1 4, wr 1 8, wr 1 12]⟩
/-- `glm_euler_xzy_quat_rh`: include/cglm/handed/euler_to_quat_rh.h:59-74 -/
def f_glm_euler_xzy_quat_rh : Fn := ⟨[],
  [rd 0 0, rd 0 4, rd 0 8, wr 1 0, wr 1 4, wr 1 8, wr 1 12]⟩
/-- `glm_euler_yxz_quat_rh`: include/cglm/handed/euler_to_quat_rh.h:83-97 -/
def f_glm_euler_yxz_quat_rh : Fn := ⟨[],
  [rd 0 0, rd 0 4, rd 0 8, wr 1 0, wr 1 4, wr 1 8, wr 1 12]⟩
/-- `glm_euler_yzx_quat_rh`: include/cglm/handed/euler_to_quat_rh.h:106-121 -/
def f_glm_euler_yzx_quat_rh : Fn := ⟨[],
  [rd 0 0, rd 0 4, rd 0 8, wr 1 0, wr 1 4, wr 1 8, wr 1 12]⟩
/-- `glm_euler_zxy_quat_rh`: include/cglm/handed/euler_to_quat_rh.h:130-144 -/
def f_glm_euler_zxy_quat_rh : Fn := ⟨[],
  [rd 0 0, rd 0 4, rd 0 8, wr 1 0, wr 1 4, wr 1 8, wr 1 12]⟩
/-- `glm_euler_zyx_quat_rh`: include/cglm/handed/euler_to_quat_rh.h:153-167 -/
def f_glm_euler_zyx_quat_rh : Fn := ⟨[],
  [rd 0 0, rd 0 4, rd 0 8, wr 1 0, wr 1 4, wr 1 8, wr 1 12]⟩
/-- `glm_euler_order`: include/cglm/euler.h:105-109 -/
def f_glm_euler_order : Fn := ⟨[],
  [rd 0 0, rd 0 4, rd 0 8]⟩
/-- `glm_euler_angles`: include/cglm/euler.h:117-147 -/
def f_glm_euler_angles : Fn := ⟨[],
  [rd 0 0, rd 0 16, rd 0 32, rd 0 4, rd 0 20, rd 0 36, rd 0 40, wr 1 0, wr 1 4, wr 1 8]⟩
/-- `glm_euler_xyz`: include/cglm/euler.h:155-185 -/
def f_glm_euler_xyz : Fn := ⟨[],
  [rd 0 0, rd 0 4, rd 0 8, wr 1 0, wr 1 4, wr 1 8, wr 1 16, wr 1 20, wr 1 24, wr 1 32, wr 1 36, wr 1 40, wr 1 12, wr 1 28,
   wr 1 44, wr 1 48, wr 1 52, wr 1 56, wr 1 60]⟩
/-- `glm_euler`: include/cglm/euler.h:193-197 -/
def f_glm_euler : Fn := ⟨[],
  [.call 686 [⟨0, 0, []⟩, ⟨1, 0, []⟩]]⟩
/-- `glm_euler_xzy`: include/cglm/euler.h:205-236 -/
def f_glm_euler_xzy : Fn := ⟨[],
  [rd 0 0, rd 0 4, rd 0 8, wr 1 0, wr 1 4, wr 1 8, wr 1 16, wr 1 20, wr 1 24, wr 1 32, wr 1 36, wr 1 40, wr 1 12, wr 1 28,
   wr 1 44, wr 1 48, wr 1 52, wr 1 56, wr 1 60]⟩
/-- `glm_euler_yxz`: include/cglm/euler.h:244-275 -/
def f_glm_euler_yxz : Fn := ⟨[],
  [rd 0 0, rd 0 4, rd 0 8, wr 1 0, wr 1 4, wr 1 8, wr 1 16, wr 1 20, wr 1 24, wr 1 32, wr 1 36, wr 1 40, wr 1 12, wr 1 28,
   wr 1 44, wr 1 48, wr 1 52, wr 1 56, wr 1 60]⟩
/-- `glm_euler_yzx`: include/cglm/euler.h:283-314 -/
def f_glm_euler_yzx : Fn := ⟨[],
  [rd 0 0, rd 0 4, rd 0 8, wr 1 0, wr 1 4, wr 1 8, wr 1 16, wr 1 20, wr 1 24, wr 1 32, wr 1 36, wr 1 40, wr 1 12, wr 1 28,
   wr 1 44, wr 1 48, wr 1 52, wr 1 56, wr 1 60]⟩
/-- `glm_euler_zxy`: include/cglm/euler.h:322-352 -/
def f_glm_euler_zxy : Fn := ⟨[],
  [rd 0 0, rd 0 4, rd 0 8, wr 1 0, wr 1 4, wr 1 8, wr 1 16, wr 1 20, wr 1 24, wr 1 32, wr 1 36, wr 1 40, wr 1 12, wr 1 28,
   wr 1 44, wr 1 48, wr 1 52, wr 1 56, wr 1 60]⟩
/-- `glm_euler_zyx`: include/cglm/euler.h:360-390 -/
def f_glm_euler_zyx : Fn := ⟨[],
  [rd 0 0, rd 0 4, rd 0 8, wr 1 0, wr 1 4, wr 1 8, wr 1 16, wr 1 20, wr 1 24, wr 1 32, wr 1 36, wr 1 40, wr 1 12, wr 1 28,
   wr 1 44, wr 1 48, wr 1 52, wr 1 56, wr 1 60]⟩
/-- `glm_euler_by_order`: include/cglm/euler.h:399-495 -/
def f_glm_euler_by_order : Fn := ⟨[],
  [rd 0 0, rd 0 4, rd 0 8, wr 1 0, wr 1 4, wr 1 8, wr 1 16, wr 1 20, wr 1 24, wr 1 32, wr 1 36, wr 1 40, wr 1 12, wr 1 28,
   wr 1 44, wr 1 48, wr 1 52, wr 1 56, wr 1 60]⟩
/-- `glm_euler_xyz_quat`: include/cglm/euler.h:505-513 -/
def f_glm_euler_xyz_quat : Fn := ⟨[],
  [.call 678 [⟨0, 0, []⟩, ⟨1, 0, []⟩]]⟩
/-- `glm_euler_xzy_quat`: include/cglm/euler.h:522-530 -/
def f_glm_euler_xzy_quat : Fn := ⟨[],
  [.call 679 [⟨0, 0, []⟩, ⟨1, 0, []⟩]]⟩
/-- `glm_euler_yxz_quat`: include/cglm/euler.h:539-547 -/
def f_glm_euler_yxz_quat : Fn := ⟨[],
  [.call 680 [⟨0, 0, []⟩, ⟨1, 0, []⟩]]⟩
/-- `glm_euler_yzx_quat`: include/cglm/euler.h:556-564 -/
def f_glm_euler_yzx_quat : Fn := ⟨[],
  [.call 681 [⟨0, 0, []⟩, ⟨1, 0, []⟩]]⟩
/-- `glm_euler_zxy_quat`: include/cglm/euler.h:573-581 -/
def f_glm_euler_zxy_quat : Fn := ⟨[],
  [.call 682 [⟨0, 0, []⟩, ⟨1, 0, []⟩]]⟩
/-- `glm_euler_zyx_quat`: include/cglm/euler.h:590-598 -/
def f_glm_euler_zyx_quat : Fn := ⟨[],
  [.call 683 [⟨0, 0, []⟩, ⟨1, 0, []⟩]]⟩
/-- `glm_perlin_vec4`: include/cglm/noise.h:296-497 -/
def f_glm_perlin_vec4 : Fn := ⟨[⟨16, [.vec]⟩, ⟨16, [.vec]⟩, ⟨16, [.vec]⟩, ⟨16, [.vec]⟩, ⟨16, [.vec]⟩, ⟨16, [.vec]⟩, ⟨16, [.vec]⟩, ⟨16, [.vec]⟩, ⟨16, [.vec]⟩, ⟨16, [.vec]⟩, ⟨16, [.vec]⟩, ⟨16, [.vec]⟩, ⟨16, [.vec]⟩, ⟨16, [.vec]⟩, ⟨16, [.vec]⟩, ⟨16, [.vec]⟩, ⟨16, [.vec]⟩, ⟨16, [.vec]⟩, ⟨16, [.vec]⟩, ⟨16, [.vec]⟩, ⟨16, [.vec]⟩, ⟨16, [.vec]⟩, ⟨16, [.vec]⟩, ⟨16, [.vec]⟩, ⟨16, [.vec]⟩, ⟨16, [.vec]⟩, ⟨16, [.vec]⟩, ⟨16, [.vec]⟩, ⟨16, [.vec]⟩, ⟨16, [.vec]⟩, ⟨16, [.vec]⟩, ⟨16, [.vec]⟩, ⟨16, [.vec]⟩, ⟨16, [.vec]⟩, ⟨16, [.vec]⟩, ⟨16, [.vec]⟩, ⟨16, [.vec]⟩, ⟨16, [.vec]⟩, ⟨16, [.vec]⟩, ⟨16, [.vec]⟩, ⟨16, [.vec]⟩, ⟨16, [.vec]⟩, ⟨16, [.vec]⟩, ⟨16, [.vec]⟩, ⟨16, [.vec]⟩, ⟨16, [.vec]⟩, ⟨16, [.vec]⟩, ⟨16, [.vec]⟩, ⟨16, [.vec]⟩, ⟨16, [.vec]⟩, ⟨16, [.vec]⟩, ⟨16, [.vec]⟩, ⟨16, [.vec]⟩, ⟨16, [.vec]⟩, ⟨16, [.vec]⟩, ⟨16, [.vec]⟩, ⟨16, [.vec]⟩, ⟨16, [.vec]⟩, ⟨16, [.vec]⟩, ⟨16, [.vec]⟩, ⟨16, [.vec]⟩, ⟨16, [.vec]⟩, ⟨16, [.vec]⟩, ⟨16, [.vec]⟩, ⟨16, [.vec]⟩, ⟨16, [.vec]⟩, ⟨16, [.vec]⟩, ⟨16, [.vec]⟩, ⟨16, [.vec]⟩, ⟨16, [.vec]⟩, ⟨16, [.vec]⟩, ⟨16, [.vec]⟩, ⟨16, [.vec]⟩, ⟨16, [.vec]⟩, ⟨16, [.vec]⟩, ⟨16, [.vec]⟩, ⟨16, [.vec]⟩, ⟨16, [.vec]⟩, ⟨16, [.vec]⟩, ⟨16, [.vec]⟩, ⟨16, [.vec]⟩, ⟨16, [.vec]⟩, ⟨16, [.vec]⟩, ⟨16, [.vec]⟩, ⟨16, [.vec]⟩, ⟨16, [.vec]⟩, ⟨16, [.vec]⟩, ⟨16, [.vec]⟩, ⟨16, [.vec]⟩, ⟨16, [.vec]⟩, ⟨16, [.vec]⟩, ⟨16, [.vec]⟩, ⟨16, [.vec]⟩, ⟨16, [.vec]⟩, ⟨16, [.vec]⟩, ⟨16, [.vec]⟩, ⟨16, [.vec]⟩, ⟨16, [.vec]⟩, ⟨16, [.vec]⟩, ⟨16, [.vec]⟩, ⟨8, []⟩, ⟨8, []⟩, ⟨8, []⟩],
  [.call 128 [⟨0, 0, []⟩, ⟨1, 0, []⟩], .call 146 [⟨1, 0, []⟩, ⟨2, 0, []⟩], .call 129 [⟨1, 0, []⟩, ⟨1, 0, []⟩],
   .call 129 [⟨2, 0, []⟩, ⟨2, 0, []⟩], .call 127 [⟨0, 0, []⟩, ⟨3, 0, []⟩], .call 148 [⟨3, 0, []⟩, ⟨4, 0, []⟩], rd 1 0, rd 2 0,
   rd 1 4, rd 2 4, rd 1 8, rd 2 8, rd 1 12, rd 2 12, rd 5 0, wr 11 0, rd 5 4, wr 11 4, rd 5 8, wr 11 8, rd 5 12, wr 11 12,
   .call 145 [⟨11, 0, []⟩, ⟨6, 0, []⟩, ⟨11, 0, []⟩], rd 11 0, rd 11 4, rd 11 8, rd 11 12,
   .call 145 [⟨11, 0, []⟩, ⟨7, 0, []⟩, ⟨12, 0, []⟩], rd 12 0, wr 12 0, rd 12 4, wr 12 4, rd 12 8, wr 12 8, rd 12 12, wr 12 12,
   .call 145 [⟨11, 0, []⟩, ⟨8, 0, []⟩, ⟨13, 0, []⟩], rd 13 0, wr 13 0, rd 13 4, wr 13 4, rd 13 8, wr 13 8, rd 13 12, wr 13 12,
   .call 145 [⟨12, 0, []⟩, ⟨9, 0, []⟩, ⟨14, 0, []⟩], rd 14 0, wr 14 0, rd 14 4, wr 14 4, rd 14 8, wr 14 8, rd 14 12, wr 14 12,
   .call 145 [⟨12, 0, []⟩, ⟨10, 0, []⟩, ⟨15, 0, []⟩], rd 15 0, wr 15 0, rd 15 4, wr 15 4, rd 15 8, wr 15 8, rd 15 12,
   wr 15 12, .call 145 [⟨13, 0, []⟩, ⟨9, 0, []⟩, ⟨16, 0, []⟩], rd 16 0, wr 16 0, rd 16 4, wr 16 4, rd 16 8, wr 16 8, rd 16 12,
   wr 16 12, .call 145 [⟨13, 0, []⟩, ⟨10, 0, []⟩, ⟨17, 0, []⟩], rd 17 0, wr 17 0, rd 17 4, wr 17 4, rd 17 8, wr 17 8,
   rd 17 12, wr 17 12, .call 153 [⟨14, 0, []⟩, ⟨18, 0, []⟩], .call 128 [⟨18, 0, []⟩, ⟨19, 0, []⟩],
   .call 153 [⟨19, 0, []⟩, ⟨19, 0, []⟩], .call 128 [⟨19, 0, []⟩, ⟨20, 0, []⟩], .call 153 [⟨20, 0, []⟩, ⟨20, 0, []⟩],
   .call 127 [⟨18, 0, []⟩, ⟨18, 0, []⟩], .call 148 [⟨18, 0, []⟩, ⟨18, 0, []⟩], .call 127 [⟨19, 0, []⟩, ⟨19, 0, []⟩],
   .call 148 [⟨19, 0, []⟩, ⟨19, 0, []⟩], .call 127 [⟨20, 0, []⟩, ⟨20, 0, []⟩], .call 148 [⟨20, 0, []⟩, ⟨20, 0, []⟩],
   .call 126 [⟨18, 0, []⟩, ⟨22, 0, []⟩], .call 126 [⟨19, 0, []⟩, ⟨23, 0, []⟩], .call 126 [⟨20, 0, []⟩, ⟨24, 0, []⟩],
   .call 114 [⟨21, 0, []⟩], .call 147 [⟨21, 0, []⟩, ⟨22, 0, []⟩, ⟨21, 0, []⟩],
   .call 147 [⟨21, 0, []⟩, ⟨24, 0, []⟩, ⟨21, 0, []⟩], .call 147 [⟨21, 0, []⟩, ⟨23, 0, []⟩, ⟨21, 0, []⟩],
   .call 131 [⟨21, 0, []⟩, ⟨25, 0, []⟩], .call 179 [⟨26, 0, []⟩, ⟨18, 0, []⟩, ⟨26, 0, []⟩],
   .call 148 [⟨26, 0, []⟩, ⟨26, 0, []⟩], .call 149 [⟨25, 0, []⟩, ⟨26, 0, []⟩, ⟨26, 0, []⟩],
   .call 147 [⟨18, 0, []⟩, ⟨26, 0, []⟩, ⟨18, 0, []⟩], .call 138 [⟨26, 0, []⟩],
   .call 179 [⟨26, 0, []⟩, ⟨19, 0, []⟩, ⟨26, 0, []⟩], .call 147 [⟨19, 0, []⟩, ⟨26, 0, []⟩, ⟨19, 0, []⟩],
   .call 153 [⟨15, 0, []⟩, ⟨27, 0, []⟩], .call 128 [⟨27, 0, []⟩, ⟨28, 0, []⟩], .call 153 [⟨28, 0, []⟩, ⟨28, 0, []⟩],
   .call 128 [⟨28, 0, []⟩, ⟨29, 0, []⟩], .call 153 [⟨29, 0, []⟩, ⟨29, 0, []⟩], .call 127 [⟨27, 0, []⟩, ⟨27, 0, []⟩],
   .call 148 [⟨27, 0, []⟩, ⟨27, 0, []⟩], .call 127 [⟨28, 0, []⟩, ⟨28, 0, []⟩], .call 148 [⟨28, 0, []⟩, ⟨28, 0, []⟩],
   .call 127 [⟨29, 0, []⟩, ⟨29, 0, []⟩], .call 148 [⟨29, 0, []⟩, ⟨29, 0, []⟩], .call 126 [⟨27, 0, []⟩, ⟨31, 0, []⟩],
   .call 126 [⟨28, 0, []⟩, ⟨32, 0, []⟩], .call 126 [⟨29, 0, []⟩, ⟨33, 0, []⟩], .call 114 [⟨30, 0, []⟩],
   .call 147 [⟨30, 0, []⟩, ⟨31, 0, []⟩, ⟨30, 0, []⟩], .call 147 [⟨30, 0, []⟩, ⟨33, 0, []⟩, ⟨30, 0, []⟩],
   .call 147 [⟨30, 0, []⟩, ⟨32, 0, []⟩, ⟨30, 0, []⟩], .call 131 [⟨30, 0, []⟩, ⟨34, 0, []⟩],
   .call 179 [⟨35, 0, []⟩, ⟨27, 0, []⟩, ⟨35, 0, []⟩], .call 148 [⟨35, 0, []⟩, ⟨35, 0, []⟩],
   .call 149 [⟨34, 0, []⟩, ⟨35, 0, []⟩, ⟨35, 0, []⟩], .call 147 [⟨27, 0, []⟩, ⟨35, 0, []⟩, ⟨27, 0, []⟩],
   .call 138 [⟨35, 0, []⟩], .call 179 [⟨35, 0, []⟩, ⟨28, 0, []⟩, ⟨35, 0, []⟩],
   .call 147 [⟨28, 0, []⟩, ⟨35, 0, []⟩, ⟨28, 0, []⟩], .call 153 [⟨16, 0, []⟩, ⟨36, 0, []⟩],
   .call 128 [⟨36, 0, []⟩, ⟨37, 0, []⟩], .call 153 [⟨37, 0, []⟩, ⟨37, 0, []⟩], .call 128 [⟨37, 0, []⟩, ⟨38, 0, []⟩],
   .call 153 [⟨38, 0, []⟩, ⟨38, 0, []⟩], .call 127 [⟨36, 0, []⟩, ⟨36, 0, []⟩], .call 148 [⟨36, 0, []⟩, ⟨36, 0, []⟩],
   .call 127 [⟨37, 0, []⟩, ⟨37, 0, []⟩], .call 148 [⟨37, 0, []⟩, ⟨37, 0, []⟩], .call 127 [⟨38, 0, []⟩, ⟨38, 0, []⟩],
   .call 148 [⟨38, 0, []⟩, ⟨38, 0, []⟩], .call 126 [⟨36, 0, []⟩, ⟨40, 0, []⟩], .call 126 [⟨37, 0, []⟩, ⟨41, 0, []⟩],
   .call 126 [⟨38, 0, []⟩, ⟨42, 0, []⟩], .call 114 [⟨39, 0, []⟩], .call 147 [⟨39, 0, []⟩, ⟨40, 0, []⟩, ⟨39, 0, []⟩],
   .call 147 [⟨39, 0, []⟩, ⟨42, 0, []⟩, ⟨39, 0, []⟩], .call 147 [⟨39, 0, []⟩, ⟨41, 0, []⟩, ⟨39, 0, []⟩],
   .call 131 [⟨39, 0, []⟩, ⟨43, 0, []⟩], .call 179 [⟨44, 0, []⟩, ⟨36, 0, []⟩, ⟨44, 0, []⟩],
   .call 148 [⟨44, 0, []⟩, ⟨44, 0, []⟩], .call 149 [⟨43, 0, []⟩, ⟨44, 0, []⟩, ⟨44, 0, []⟩],
   .call 147 [⟨36, 0, []⟩, ⟨44, 0, []⟩, ⟨36, 0, []⟩], .call 138 [⟨44, 0, []⟩],
   .call 179 [⟨44, 0, []⟩, ⟨37, 0, []⟩, ⟨44, 0, []⟩], .call 147 [⟨37, 0, []⟩, ⟨44, 0, []⟩, ⟨37, 0, []⟩],
   .call 153 [⟨17, 0, []⟩, ⟨45, 0, []⟩], .call 128 [⟨45, 0, []⟩, ⟨46, 0, []⟩], .call 153 [⟨46, 0, []⟩, ⟨46, 0, []⟩],
   .call 128 [⟨46, 0, []⟩, ⟨47, 0, []⟩], .call 153 [⟨47, 0, []⟩, ⟨47, 0, []⟩], .call 127 [⟨45, 0, []⟩, ⟨45, 0, []⟩],
   .call 148 [⟨45, 0, []⟩, ⟨45, 0, []⟩], .call 127 [⟨46, 0, []⟩, ⟨46, 0, []⟩], .call 148 [⟨46, 0, []⟩, ⟨46, 0, []⟩],
   .call 127 [⟨47, 0, []⟩, ⟨47, 0, []⟩], .call 148 [⟨47, 0, []⟩, ⟨47, 0, []⟩], .call 126 [⟨45, 0, []⟩, ⟨49, 0, []⟩],
   .call 126 [⟨46, 0, []⟩, ⟨50, 0, []⟩], .call 126 [⟨47, 0, []⟩, ⟨51, 0, []⟩], .call 114 [⟨48, 0, []⟩],
   .call 147 [⟨48, 0, []⟩, ⟨49, 0, []⟩, ⟨48, 0, []⟩], .call 147 [⟨48, 0, []⟩, ⟨51, 0, []⟩, ⟨48, 0, []⟩],
   .call 147 [⟨48, 0, []⟩, ⟨50, 0, []⟩, ⟨48, 0, []⟩], .call 131 [⟨48, 0, []⟩, ⟨52, 0, []⟩],
   .call 179 [⟨53, 0, []⟩, ⟨45, 0, []⟩, ⟨53, 0, []⟩], .call 148 [⟨53, 0, []⟩, ⟨53, 0, []⟩],
   .call 149 [⟨52, 0, []⟩, ⟨53, 0, []⟩, ⟨53, 0, []⟩], .call 147 [⟨45, 0, []⟩, ⟨53, 0, []⟩, ⟨45, 0, []⟩],
   .call 138 [⟨53, 0, []⟩], .call 179 [⟨53, 0, []⟩, ⟨46, 0, []⟩, ⟨53, 0, []⟩],
   .call 147 [⟨46, 0, []⟩, ⟨53, 0, []⟩, ⟨46, 0, []⟩], rd 18 0, rd 19 0, rd 20 0, rd 21 0, rd 18 8, rd 19 8, rd 20 8, rd 21 8,
   rd 18 4, rd 19 4, rd 20 4, rd 21 4, rd 18 12, rd 19 12, rd 20 12, rd 21 12, rd 27 0, rd 28 0, rd 29 0, rd 30 0, rd 27 8,
   rd 28 8, rd 29 8, rd 30 8, rd 27 4, rd 28 4, rd 29 4, rd 30 4, rd 27 12, rd 28 12, rd 29 12, rd 30 12, rd 36 0, rd 37 0,
   rd 38 0, rd 39 0, rd 36 8, rd 37 8, rd 38 8, rd 39 8, rd 36 4, rd 37 4, rd 38 4, rd 39 4, rd 36 12, rd 37 12, rd 38 12,
   rd 39 12, rd 45 0, rd 46 0, rd 47 0, rd 48 0, rd 45 8, rd 46 8, rd 47 8, rd 48 8, rd 45 4, rd 46 4, rd 47 4, rd 48 4,
   rd 45 12, rd 46 12, rd 47 12, rd 48 12, .call 140 [⟨54, 0, []⟩, ⟨54, 0, []⟩], wr 70 0,
   .call 140 [⟨55, 0, []⟩, ⟨55, 0, []⟩], wr 70 4, .call 140 [⟨56, 0, []⟩, ⟨56, 0, []⟩], wr 70 8,
   .call 140 [⟨57, 0, []⟩, ⟨57, 0, []⟩], wr 70 12, .call 150 [⟨70, 0, []⟩, ⟨71, 0, []⟩], .call 114 [⟨70, 0, []⟩],
   .call 147 [⟨70, 0, []⟩, ⟨71, 0, []⟩, ⟨70, 0, []⟩], rd 70 0, .call 150 [⟨54, 0, []⟩, ⟨54, 0, []⟩], rd 70 4,
   .call 150 [⟨55, 0, []⟩, ⟨55, 0, []⟩], rd 70 8, .call 150 [⟨56, 0, []⟩, ⟨56, 0, []⟩], rd 70 12,
   .call 150 [⟨57, 0, []⟩, ⟨57, 0, []⟩], .call 140 [⟨58, 0, []⟩, ⟨58, 0, []⟩], wr 72 0, .call 140 [⟨59, 0, []⟩, ⟨59, 0, []⟩],
   wr 72 4, .call 140 [⟨60, 0, []⟩, ⟨60, 0, []⟩], wr 72 8, .call 140 [⟨61, 0, []⟩, ⟨61, 0, []⟩], wr 72 12,
   .call 150 [⟨72, 0, []⟩, ⟨73, 0, []⟩], .call 114 [⟨72, 0, []⟩], .call 147 [⟨72, 0, []⟩, ⟨73, 0, []⟩, ⟨72, 0, []⟩], rd 72 0,
   .call 150 [⟨58, 0, []⟩, ⟨58, 0, []⟩], rd 72 4, .call 150 [⟨59, 0, []⟩, ⟨59, 0, []⟩], rd 72 8,
   .call 150 [⟨60, 0, []⟩, ⟨60, 0, []⟩], rd 72 12, .call 150 [⟨61, 0, []⟩, ⟨61, 0, []⟩], .call 140 [⟨62, 0, []⟩, ⟨62, 0, []⟩],
   wr 74 0, .call 140 [⟨63, 0, []⟩, ⟨63, 0, []⟩], wr 74 4, .call 140 [⟨64, 0, []⟩, ⟨64, 0, []⟩], wr 74 8,
   .call 140 [⟨65, 0, []⟩, ⟨65, 0, []⟩], wr 74 12, .call 150 [⟨74, 0, []⟩, ⟨75, 0, []⟩], .call 114 [⟨74, 0, []⟩],
   .call 147 [⟨74, 0, []⟩, ⟨75, 0, []⟩, ⟨74, 0, []⟩], rd 74 0, .call 150 [⟨62, 0, []⟩, ⟨62, 0, []⟩], rd 74 4,
   .call 150 [⟨63, 0, []⟩, ⟨63, 0, []⟩], rd 74 8, .call 150 [⟨64, 0, []⟩, ⟨64, 0, []⟩], rd 74 12,
   .call 150 [⟨65, 0, []⟩, ⟨65, 0, []⟩], .call 140 [⟨66, 0, []⟩, ⟨66, 0, []⟩], wr 76 0, .call 140 [⟨67, 0, []⟩, ⟨67, 0, []⟩],
   wr 76 4, .call 140 [⟨68, 0, []⟩, ⟨68, 0, []⟩], wr 76 8, .call 140 [⟨69, 0, []⟩, ⟨69, 0, []⟩], wr 76 12,
   .call 150 [⟨76, 0, []⟩, ⟨77, 0, []⟩], .call 114 [⟨76, 0, []⟩], .call 147 [⟨76, 0, []⟩, ⟨77, 0, []⟩, ⟨76, 0, []⟩], rd 76 0,
   .call 150 [⟨66, 0, []⟩, ⟨66, 0, []⟩], rd 76 4, .call 150 [⟨67, 0, []⟩, ⟨67, 0, []⟩], rd 76 8,
   .call 150 [⟨68, 0, []⟩, ⟨68, 0, []⟩], rd 76 12, .call 150 [⟨69, 0, []⟩, ⟨69, 0, []⟩], .call 140 [⟨54, 0, []⟩, ⟨3, 0, []⟩],
   rd 4 0, rd 3 4, rd 3 8, rd 3 12, .call 140 [⟨56, 0, []⟩, ⟨78, 0, []⟩], rd 3 0, rd 4 4,
   .call 140 [⟨55, 0, []⟩, ⟨79, 0, []⟩], .call 140 [⟨57, 0, []⟩, ⟨80, 0, []⟩], rd 4 8, .call 140 [⟨62, 0, []⟩, ⟨81, 0, []⟩],
   .call 140 [⟨64, 0, []⟩, ⟨82, 0, []⟩], .call 140 [⟨63, 0, []⟩, ⟨83, 0, []⟩], .call 140 [⟨65, 0, []⟩, ⟨84, 0, []⟩], rd 4 12,
   .call 140 [⟨58, 0, []⟩, ⟨85, 0, []⟩], .call 140 [⟨60, 0, []⟩, ⟨86, 0, []⟩], .call 140 [⟨59, 0, []⟩, ⟨87, 0, []⟩],
   .call 140 [⟨61, 0, []⟩, ⟨88, 0, []⟩], .call 140 [⟨66, 0, []⟩, ⟨89, 0, []⟩], .call 140 [⟨68, 0, []⟩, ⟨90, 0, []⟩],
   .call 140 [⟨67, 0, []⟩, ⟨91, 0, []⟩], .call 140 [⟨69, 0, []⟩, ⟨4, 0, []⟩], .call 149 [⟨3, 0, []⟩, ⟨3, 0, []⟩, ⟨93, 0, []⟩],
   .call 149 [⟨93, 0, []⟩, ⟨3, 0, []⟩, ⟨93, 0, []⟩], .call 150 [⟨3, 0, []⟩, ⟨92, 0, []⟩],
   .call 148 [⟨92, 0, []⟩, ⟨92, 0, []⟩], .call 149 [⟨3, 0, []⟩, ⟨92, 0, []⟩, ⟨92, 0, []⟩],
   .call 146 [⟨92, 0, []⟩, ⟨92, 0, []⟩], .call 149 [⟨93, 0, []⟩, ⟨92, 0, []⟩, ⟨92, 0, []⟩], rd 92 12,
   .call 175 [⟨94, 0, []⟩, ⟨95, 0, []⟩, ⟨96, 0, []⟩], .call 175 [⟨97, 0, []⟩, ⟨98, 0, []⟩, ⟨99, 0, []⟩], rd 92 8,
   .call 175 [⟨96, 0, []⟩, ⟨99, 0, []⟩, ⟨100, 0, []⟩], rd 100 0, rd 100 4, rd 100 8, rd 100 12, rd 92 4,
   .call 87 [⟨102, 0, []⟩, ⟨103, 0, []⟩, ⟨101, 0, []⟩], rd 101 0, rd 101 4, rd 92 0, .call 13 []]⟩
/-- `glm_perlin_vec3`: include/cglm/noise.h:506-625 -/
def f_glm_perlin_vec3 : Fn := ⟨[⟨12, []⟩, ⟨12, []⟩, ⟨12, []⟩, ⟨12, []⟩, ⟨16, [.vec]⟩, ⟨16, [.vec]⟩, ⟨16, [.vec]⟩, ⟨16, [.vec]⟩, ⟨16, [.vec]⟩, ⟨16, [.vec]⟩, ⟨16, [.vec]⟩, ⟨16, [.vec]⟩, ⟨16, [.vec]⟩, ⟨16, [.vec]⟩, ⟨16, [.vec]⟩, ⟨16, [.vec]⟩, ⟨16, [.vec]⟩, ⟨16, [.vec]⟩, ⟨16, [.vec]⟩, ⟨16, [.vec]⟩, ⟨16, [.vec]⟩, ⟨16, [.vec]⟩, ⟨16, [.vec]⟩, ⟨16, [.vec]⟩, ⟨16, [.vec]⟩, ⟨12, []⟩, ⟨12, []⟩, ⟨12, []⟩, ⟨12, []⟩, ⟨12, []⟩, ⟨12, []⟩, ⟨12, []⟩, ⟨12, []⟩, ⟨16, [.vec]⟩, ⟨16, [.vec]⟩, ⟨16, [.vec]⟩, ⟨16, [.vec]⟩, ⟨12, []⟩, ⟨12, []⟩, ⟨12, []⟩, ⟨12, []⟩, ⟨12, []⟩, ⟨12, []⟩, ⟨12, []⟩, ⟨12, []⟩, ⟨16, [.vec]⟩, ⟨16, [.vec]⟩, ⟨16, [.vec]⟩, ⟨8, []⟩, ⟨8, []⟩, ⟨8, []⟩],
  [.call 107 [⟨0, 0, []⟩, ⟨1, 0, []⟩], .call 199 [⟨1, 0, []⟩, ⟨2, 0, []⟩], .call 108 [⟨1, 0, []⟩, ⟨1, 0, []⟩],
   .call 108 [⟨2, 0, []⟩, ⟨2, 0, []⟩], .call 106 [⟨0, 0, []⟩, ⟨3, 0, []⟩], .call 201 [⟨3, 0, []⟩, ⟨4, 0, []⟩], rd 1 0, rd 2 0,
   rd 1 4, rd 2 4, rd 1 8, rd 2 8, rd 5 0, wr 9 0, rd 5 4, wr 9 4, rd 5 8, wr 9 8, rd 5 12, wr 9 12,
   .call 145 [⟨9, 0, []⟩, ⟨6, 0, []⟩, ⟨9, 0, []⟩], rd 9 0, rd 9 4, rd 9 8, rd 9 12,
   .call 145 [⟨9, 0, []⟩, ⟨7, 0, []⟩, ⟨10, 0, []⟩], rd 10 0, wr 10 0, rd 10 4, wr 10 4, rd 10 8, wr 10 8, rd 10 12, wr 10 12,
   .call 145 [⟨9, 0, []⟩, ⟨8, 0, []⟩, ⟨11, 0, []⟩], rd 11 0, wr 11 0, rd 11 4, wr 11 4, rd 11 8, wr 11 8, rd 11 12, wr 11 12,
   .call 150 [⟨10, 0, []⟩, ⟨12, 0, []⟩], .call 128 [⟨12, 0, []⟩, ⟨13, 0, []⟩], .call 150 [⟨13, 0, []⟩, ⟨13, 0, []⟩],
   .call 127 [⟨13, 0, []⟩, ⟨13, 0, []⟩], .call 148 [⟨13, 0, []⟩, ⟨13, 0, []⟩], .call 127 [⟨12, 0, []⟩, ⟨12, 0, []⟩],
   .call 126 [⟨12, 0, []⟩, ⟨15, 0, []⟩], .call 126 [⟨13, 0, []⟩, ⟨16, 0, []⟩], .call 114 [⟨14, 0, []⟩],
   .call 147 [⟨14, 0, []⟩, ⟨15, 0, []⟩, ⟨14, 0, []⟩], .call 147 [⟨14, 0, []⟩, ⟨16, 0, []⟩, ⟨14, 0, []⟩],
   .call 131 [⟨14, 0, []⟩, ⟨17, 0, []⟩], .call 179 [⟨18, 0, []⟩, ⟨12, 0, []⟩, ⟨18, 0, []⟩],
   .call 148 [⟨18, 0, []⟩, ⟨18, 0, []⟩], .call 149 [⟨17, 0, []⟩, ⟨18, 0, []⟩, ⟨18, 0, []⟩],
   .call 147 [⟨12, 0, []⟩, ⟨18, 0, []⟩, ⟨12, 0, []⟩], .call 138 [⟨18, 0, []⟩],
   .call 179 [⟨18, 0, []⟩, ⟨13, 0, []⟩, ⟨18, 0, []⟩], .call 147 [⟨13, 0, []⟩, ⟨18, 0, []⟩, ⟨13, 0, []⟩],
   .call 150 [⟨11, 0, []⟩, ⟨19, 0, []⟩], .call 128 [⟨19, 0, []⟩, ⟨20, 0, []⟩], .call 150 [⟨20, 0, []⟩, ⟨20, 0, []⟩],
   .call 127 [⟨20, 0, []⟩, ⟨20, 0, []⟩], .call 148 [⟨20, 0, []⟩, ⟨20, 0, []⟩], .call 127 [⟨19, 0, []⟩, ⟨19, 0, []⟩],
   .call 126 [⟨19, 0, []⟩, ⟨22, 0, []⟩], .call 126 [⟨20, 0, []⟩, ⟨23, 0, []⟩], .call 114 [⟨21, 0, []⟩],
   .call 147 [⟨21, 0, []⟩, ⟨22, 0, []⟩, ⟨21, 0, []⟩], .call 147 [⟨21, 0, []⟩, ⟨23, 0, []⟩, ⟨21, 0, []⟩],
   .call 131 [⟨21, 0, []⟩, ⟨24, 0, []⟩], .call 179 [⟨25, 0, []⟩, ⟨19, 0, []⟩, ⟨25, 0, []⟩],
   .call 148 [⟨25, 0, []⟩, ⟨25, 0, []⟩], .call 149 [⟨24, 0, []⟩, ⟨25, 0, []⟩, ⟨25, 0, []⟩],
   .call 147 [⟨19, 0, []⟩, ⟨25, 0, []⟩, ⟨19, 0, []⟩], .call 138 [⟨25, 0, []⟩],
   .call 179 [⟨25, 0, []⟩, ⟨20, 0, []⟩, ⟨25, 0, []⟩], .call 147 [⟨20, 0, []⟩, ⟨25, 0, []⟩, ⟨20, 0, []⟩], rd 12 0, rd 13 0,
   rd 14 0, rd 12 4, rd 13 4, rd 14 4, rd 12 8, rd 13 8, rd 14 8, rd 12 12, rd 13 12, rd 14 12, rd 19 0, rd 20 0, rd 21 0,
   rd 19 4, rd 20 4, rd 21 4, rd 19 8, rd 20 8, rd 21 8, rd 19 12, rd 20 12, rd 21 12, .call 193 [⟨26, 0, []⟩, ⟨26, 0, []⟩],
   wr 34 0, .call 193 [⟨28, 0, []⟩, ⟨28, 0, []⟩], wr 34 4, .call 193 [⟨27, 0, []⟩, ⟨27, 0, []⟩], wr 34 8,
   .call 193 [⟨29, 0, []⟩, ⟨29, 0, []⟩], wr 34 12, .call 150 [⟨34, 0, []⟩, ⟨35, 0, []⟩], .call 114 [⟨34, 0, []⟩],
   .call 147 [⟨34, 0, []⟩, ⟨35, 0, []⟩, ⟨34, 0, []⟩], rd 34 0, .call 203 [⟨26, 0, []⟩, ⟨26, 0, []⟩], rd 34 4,
   .call 203 [⟨28, 0, []⟩, ⟨28, 0, []⟩], rd 34 8, .call 203 [⟨27, 0, []⟩, ⟨27, 0, []⟩], rd 34 12,
   .call 203 [⟨29, 0, []⟩, ⟨29, 0, []⟩], .call 193 [⟨30, 0, []⟩, ⟨30, 0, []⟩], wr 36 0, .call 193 [⟨32, 0, []⟩, ⟨32, 0, []⟩],
   wr 36 4, .call 193 [⟨31, 0, []⟩, ⟨31, 0, []⟩], wr 36 8, .call 193 [⟨33, 0, []⟩, ⟨33, 0, []⟩], wr 36 12,
   .call 150 [⟨36, 0, []⟩, ⟨37, 0, []⟩], .call 114 [⟨36, 0, []⟩], .call 147 [⟨36, 0, []⟩, ⟨37, 0, []⟩, ⟨36, 0, []⟩], rd 36 0,
   .call 203 [⟨30, 0, []⟩, ⟨30, 0, []⟩], rd 36 4, .call 203 [⟨32, 0, []⟩, ⟨32, 0, []⟩], rd 36 8,
   .call 203 [⟨31, 0, []⟩, ⟨31, 0, []⟩], rd 36 12, .call 203 [⟨33, 0, []⟩, ⟨33, 0, []⟩], .call 193 [⟨26, 0, []⟩, ⟨3, 0, []⟩],
   rd 4 0, rd 3 4, rd 3 8, .call 193 [⟨27, 0, []⟩, ⟨38, 0, []⟩], rd 3 0, rd 4 4, .call 193 [⟨28, 0, []⟩, ⟨39, 0, []⟩],
   .call 193 [⟨29, 0, []⟩, ⟨40, 0, []⟩], rd 4 8, .call 193 [⟨30, 0, []⟩, ⟨41, 0, []⟩], .call 193 [⟨31, 0, []⟩, ⟨42, 0, []⟩],
   .call 193 [⟨32, 0, []⟩, ⟨43, 0, []⟩], .call 193 [⟨33, 0, []⟩, ⟨4, 0, []⟩], .call 202 [⟨3, 0, []⟩, ⟨3, 0, []⟩, ⟨45, 0, []⟩],
   .call 202 [⟨45, 0, []⟩, ⟨3, 0, []⟩, ⟨45, 0, []⟩], .call 203 [⟨3, 0, []⟩, ⟨44, 0, []⟩],
   .call 201 [⟨44, 0, []⟩, ⟨44, 0, []⟩], .call 202 [⟨3, 0, []⟩, ⟨44, 0, []⟩, ⟨44, 0, []⟩],
   .call 199 [⟨44, 0, []⟩, ⟨44, 0, []⟩], .call 202 [⟨45, 0, []⟩, ⟨44, 0, []⟩, ⟨44, 0, []⟩], rd 44 8,
   .call 175 [⟨47, 0, []⟩, ⟨48, 0, []⟩, ⟨46, 0, []⟩], rd 46 0, rd 46 4, rd 46 8, rd 46 12, rd 44 4,
   .call 87 [⟨50, 0, []⟩, ⟨51, 0, []⟩, ⟨49, 0, []⟩], rd 49 0, rd 49 4, rd 44 0, .call 13 []]⟩
/-- `glm_perlin_vec2`: include/cglm/noise.h:633-717 -/
def f_glm_perlin_vec2 : Fn := ⟨[⟨16, [.vec]⟩, ⟨16, [.vec]⟩, ⟨16, [.vec]⟩, ⟨16, [.vec]⟩, ⟨16, [.vec]⟩, ⟨16, [.vec]⟩, ⟨16, [.vec]⟩, ⟨16, [.vec]⟩, ⟨16, [.vec]⟩, ⟨16, [.vec]⟩, ⟨8, []⟩, ⟨8, []⟩, ⟨8, []⟩, ⟨8, []⟩, ⟨16, [.vec]⟩, ⟨16, [.vec]⟩, ⟨8, []⟩, ⟨8, []⟩, ⟨8, []⟩, ⟨8, []⟩, ⟨8, []⟩, ⟨8, []⟩, ⟨8, []⟩, ⟨8, []⟩, ⟨8, []⟩, ⟨8, []⟩],
  [rd 0 0, rd 0 4, .call 128 [⟨1, 0, []⟩, ⟨1, 0, []⟩], rd 1 8, wr 1 8, rd 1 12, wr 1 12, .call 127 [⟨2, 0, []⟩, ⟨2, 0, []⟩],
   rd 2 8, wr 2 8, rd 2 12, wr 2 12, .call 129 [⟨1, 0, []⟩, ⟨1, 0, []⟩], rd 1 0, rd 1 4, rd 2 0, rd 2 4, rd 3 0, wr 7 0,
   rd 3 4, wr 7 4, rd 3 8, wr 7 8, rd 3 12, wr 7 12, .call 145 [⟨7, 0, []⟩, ⟨4, 0, []⟩, ⟨7, 0, []⟩], rd 7 0, rd 7 4, rd 7 8,
   rd 7 12, .call 153 [⟨7, 0, []⟩, ⟨8, 0, []⟩], .call 127 [⟨8, 0, []⟩, ⟨8, 0, []⟩], .call 150 [⟨8, 0, []⟩, ⟨8, 0, []⟩],
   .call 148 [⟨8, 0, []⟩, ⟨8, 0, []⟩], .call 126 [⟨8, 0, []⟩, ⟨9, 0, []⟩], .call 148 [⟨9, 0, []⟩, ⟨9, 0, []⟩],
   .call 146 [⟨8, 0, []⟩, ⟨10, 0, []⟩], .call 128 [⟨10, 0, []⟩, ⟨10, 0, []⟩], .call 147 [⟨8, 0, []⟩, ⟨10, 0, []⟩, ⟨8, 0, []⟩],
   rd 8 0, rd 9 0, rd 8 4, rd 9 4, rd 8 8, rd 9 8, rd 8 12, rd 9 12, .call 50 [⟨11, 0, []⟩, ⟨11, 0, []⟩], wr 15 0,
   .call 50 [⟨13, 0, []⟩, ⟨13, 0, []⟩], wr 15 4, .call 50 [⟨12, 0, []⟩, ⟨12, 0, []⟩], wr 15 8,
   .call 50 [⟨14, 0, []⟩, ⟨14, 0, []⟩], wr 15 12, .call 150 [⟨15, 0, []⟩, ⟨16, 0, []⟩], .call 114 [⟨15, 0, []⟩],
   .call 147 [⟨15, 0, []⟩, ⟨16, 0, []⟩, ⟨15, 0, []⟩], rd 15 0, .call 59 [⟨11, 0, []⟩, ⟨11, 0, []⟩], rd 15 4,
   .call 59 [⟨13, 0, []⟩, ⟨13, 0, []⟩], rd 15 8, .call 59 [⟨12, 0, []⟩, ⟨12, 0, []⟩], rd 15 12,
   .call 59 [⟨14, 0, []⟩, ⟨14, 0, []⟩], rd 5 0, rd 6 0, .call 50 [⟨11, 0, []⟩, ⟨17, 0, []⟩], rd 5 4, rd 6 4,
   .call 50 [⟨12, 0, []⟩, ⟨18, 0, []⟩], rd 5 8, rd 6 8, .call 50 [⟨13, 0, []⟩, ⟨19, 0, []⟩], rd 5 12, rd 6 12,
   .call 50 [⟨14, 0, []⟩, ⟨20, 0, []⟩], .call 58 [⟨22, 0, []⟩, ⟨22, 0, []⟩, ⟨23, 0, []⟩],
   .call 58 [⟨23, 0, []⟩, ⟨22, 0, []⟩, ⟨23, 0, []⟩], .call 59 [⟨22, 0, []⟩, ⟨21, 0, []⟩], .call 57 [⟨21, 0, []⟩, ⟨21, 0, []⟩],
   .call 58 [⟨22, 0, []⟩, ⟨21, 0, []⟩, ⟨21, 0, []⟩], .call 55 [⟨21, 0, []⟩, ⟨21, 0, []⟩],
   .call 58 [⟨23, 0, []⟩, ⟨21, 0, []⟩, ⟨21, 0, []⟩], rd 21 0, .call 87 [⟨25, 0, []⟩, ⟨26, 0, []⟩, ⟨24, 0, []⟩], rd 24 0,
   rd 24 4, rd 21 4, .call 13 []]⟩
/-- `glm_aabb2d_zero`: include/cglm/aabb2d.h:23-28 -/
def f_glm_aabb2d_zero : Fn := ⟨[],
  [.call 48 [⟨0, 0, []⟩], .call 48 [⟨0, 8, []⟩]]⟩
/-- `glm_aabb2d_copy`: include/cglm/aabb2d.h:36-41 -/
def f_glm_aabb2d_copy : Fn := ⟨[],
  [.call 47 [⟨0, 0, []⟩, ⟨1, 0, []⟩], .call 47 [⟨0, 8, []⟩, ⟨1, 8, []⟩]]⟩
/-- `glm_aabb2d_transform`: include/cglm/aabb2d.h:50-73 -/
def f_glm_aabb2d_transform : Fn := ⟨[⟨16, []⟩, ⟨8, []⟩, ⟨8, []⟩, ⟨8, []⟩, ⟨8, []⟩],
  [rd 0 0, .call 59 [⟨1, 0, []⟩, ⟨4, 0, []⟩], rd 0 8, .call 59 [⟨1, 0, []⟩, ⟨5, 0, []⟩], rd 0 4,
   .call 59 [⟨1, 12, []⟩, ⟨6, 0, []⟩], rd 0 12, .call 59 [⟨1, 12, []⟩, ⟨7, 0, []⟩], .call 46 [⟨1, 24, []⟩, ⟨3, 0, []⟩],
   .call 68 [⟨4, 0, []⟩, ⟨5, 0, []⟩, ⟨3, 0, []⟩], .call 68 [⟨6, 0, []⟩, ⟨7, 0, []⟩, ⟨3, 0, []⟩],
   .call 46 [⟨1, 24, []⟩, ⟨3, 8, []⟩], .call 67 [⟨4, 0, []⟩, ⟨5, 0, []⟩, ⟨3, 8, []⟩],
   .call 67 [⟨6, 0, []⟩, ⟨7, 0, []⟩, ⟨3, 8, []⟩], .call 47 [⟨3, 0, []⟩, ⟨2, 0, []⟩], .call 47 [⟨3, 8, []⟩, ⟨2, 8, []⟩]]⟩
/-- `glm_aabb2d_merge`: include/cglm/aabb2d.h:85-93 -/
def f_glm_aabb2d_merge : Fn := ⟨[],
  [rd 0 0, rd 1 0, .call 7 [], wr 2 0, rd 0 4, rd 1 4, wr 2 4, rd 0 8, rd 1 8, .call 8 [], wr 2 8, rd 0 12, rd 1 12, wr 2 12]⟩
/-- `glm_aabb2d_crop`: include/cglm/aabb2d.h:106-114 -/
def f_glm_aabb2d_crop : Fn := ⟨[],
  [rd 0 0, rd 1 0, .call 8 [], wr 2 0, rd 0 4, rd 1 4, wr 2 4, rd 0 8, rd 1 8, .call 7 [], wr 2 8, rd 0 12, rd 1 12, wr 2 12]⟩
/-- `glm_aabb2d_crop_until`: include/cglm/aabb2d.h:128-136 -/
def f_glm_aabb2d_crop_until : Fn := ⟨[],
  [.call 707 [⟨0, 0, []⟩, ⟨1, 0, []⟩, ⟨3, 0, []⟩], .call 706 [⟨2, 0, []⟩, ⟨3, 0, []⟩, ⟨3, 0, []⟩]]⟩
/-- `glm_aabb2d_invalidate`: include/cglm/aabb2d.h:143-148 -/
def f_glm_aabb2d_invalidate : Fn := ⟨[],
  [.call 24 [⟨0, 0, []⟩], .call 24 [⟨0, 8, []⟩]]⟩
/-- `glm_aabb2d_isvalid`: include/cglm/aabb2d.h:155-160 -/
def f_glm_aabb2d_isvalid : Fn := ⟨[],
  [.call 30 [⟨0, 0, []⟩], .call 31 [⟨0, 8, []⟩]]⟩
/-- `glm_aabb2d_diag`: include/cglm/aabb2d.h:167-171 -/
def f_glm_aabb2d_diag : Fn := ⟨[],
  [.call 82 [⟨0, 0, []⟩, ⟨0, 8, []⟩]]⟩
/-- `glm_aabb2d_sizev`: include/cglm/aabb2d.h:179-183 -/
def f_glm_aabb2d_sizev : Fn := ⟨[],
  [.call 56 [⟨0, 8, []⟩, ⟨0, 0, []⟩, ⟨1, 0, []⟩]]⟩
/-- `glm_aabb2d_radius`: include/cglm/aabb2d.h:190-194 -/
def f_glm_aabb2d_radius : Fn := ⟨[],
  [.call 711 [⟨0, 0, []⟩]]⟩
/-- `glm_aabb2d_center`: include/cglm/aabb2d.h:202-206 -/
def f_glm_aabb2d_center : Fn := ⟨[],
  [.call 80 [⟨0, 0, []⟩, ⟨0, 8, []⟩, ⟨1, 0, []⟩]]⟩
/-- `glm_aabb2d_aabb`: include/cglm/aabb2d.h:214-219 -/
def f_glm_aabb2d_aabb : Fn := ⟨[],
  [rd 0 0, rd 1 8, rd 0 8, rd 1 0, rd 0 4, rd 1 12, rd 0 12, rd 1 4]⟩
/-- `glm_aabb2d_circle`: include/cglm/aabb2d.h:229-242 -/
def f_glm_aabb2d_circle : Fn := ⟨[],
  [rd 1 0, rd 0 0, rd 0 8, rd 1 4, rd 0 4, rd 0 12, .access ⟨0, 0, [(8, 2)]⟩ 4 4 false, .call 6 [],
   .access ⟨0, 4, [(8, 2)]⟩ 4 4 false, rd 1 8]⟩
/-- `glm_aabb2d_point`: include/cglm/aabb2d.h:250-255 -/
def f_glm_aabb2d_point : Fn := ⟨[],
  [rd 1 0, rd 0 0, rd 0 8, rd 1 4, rd 0 4, rd 0 12]⟩
/-- `glm_aabb2d_contains`: include/cglm/aabb2d.h:263-268 -/
def f_glm_aabb2d_contains : Fn := ⟨[],
  [rd 0 0, rd 1 0, rd 0 8, rd 1 8, rd 0 4, rd 1 4, rd 0 12, rd 1 12]⟩
/-- `glm_aabb_transform`: include/cglm/box.h:23-51 -/
def f_glm_aabb_transform : Fn := ⟨[⟨24, []⟩, ⟨12, []⟩, ⟨12, []⟩, ⟨12, []⟩, ⟨12, []⟩, ⟨12, []⟩, ⟨12, []⟩],
  [rd 0 0, .call 203 [⟨1, 0, []⟩, ⟨4, 0, []⟩], rd 0 12, .call 203 [⟨1, 0, []⟩, ⟨5, 0, []⟩], rd 0 4,
   .call 203 [⟨1, 16, []⟩, ⟨6, 0, []⟩], rd 0 16, .call 203 [⟨1, 16, []⟩, ⟨7, 0, []⟩], rd 0 8,
   .call 203 [⟨1, 32, []⟩, ⟨8, 0, []⟩], rd 0 20, .call 203 [⟨1, 32, []⟩, ⟨9, 0, []⟩], .call 189 [⟨1, 48, []⟩, ⟨3, 0, []⟩],
   .call 212 [⟨4, 0, []⟩, ⟨5, 0, []⟩, ⟨3, 0, []⟩], .call 212 [⟨6, 0, []⟩, ⟨7, 0, []⟩, ⟨3, 0, []⟩],
   .call 212 [⟨8, 0, []⟩, ⟨9, 0, []⟩, ⟨3, 0, []⟩], .call 189 [⟨1, 48, []⟩, ⟨3, 12, []⟩],
   .call 211 [⟨4, 0, []⟩, ⟨5, 0, []⟩, ⟨3, 12, []⟩], .call 211 [⟨6, 0, []⟩, ⟨7, 0, []⟩, ⟨3, 12, []⟩],
   .call 211 [⟨8, 0, []⟩, ⟨9, 0, []⟩, ⟨3, 12, []⟩], .call 190 [⟨3, 0, []⟩, ⟨2, 0, []⟩], .call 190 [⟨3, 12, []⟩, ⟨2, 12, []⟩]]⟩
/-- `glm_aabb_merge`: include/cglm/box.h:63-73 -/
def f_glm_aabb_merge : Fn := ⟨[],
  [rd 0 0, rd 1 0, .call 7 [], wr 2 0, rd 0 4, rd 1 4, wr 2 4, rd 0 8, rd 1 8, wr 2 8, rd 0 12, rd 1 12, .call 8 [], wr 2 12,
   rd 0 16, rd 1 16, wr 2 16, rd 0 20, rd 1 20, wr 2 20]⟩
/-- `glm_aabb_crop`: include/cglm/box.h:86-96 -/
def f_glm_aabb_crop : Fn := ⟨[],
  [rd 0 0, rd 1 0, .call 8 [], wr 2 0, rd 0 4, rd 1 4, wr 2 4, rd 0 8, rd 1 8, wr 2 8, rd 0 12, rd 1 12, .call 7 [], wr 2 12,
   rd 0 16, rd 1 16, wr 2 16, rd 0 20, rd 1 20, wr 2 20]⟩
/-- `glm_aabb_crop_until`: include/cglm/box.h:110-118 -/
def f_glm_aabb_crop_until : Fn := ⟨[],
  [.call 721 [⟨0, 0, []⟩, ⟨1, 0, []⟩, ⟨3, 0, []⟩], .call 720 [⟨2, 0, []⟩, ⟨3, 0, []⟩, ⟨3, 0, []⟩]]⟩
/-- `glm_aabb_frustum`: include/cglm/box.h:134-151 -/
def f_glm_aabb_frustum : Fn := ⟨[],
  [rd 1 0, .access ⟨0, 0, [(12, 2)]⟩ 4 4 false, rd 1 4, .access ⟨0, 4, [(12, 2)]⟩ 4 4 false, rd 1 8,
   .access ⟨0, 8, [(12, 2)]⟩ 4 4 false, rd 1 12, rd 1 16, rd 1 20, rd 1 24, rd 1 28, rd 1 32, rd 1 36, rd 1 40, rd 1 44,
   rd 1 48, rd 1 52, rd 1 56, rd 1 60, rd 1 64, rd 1 68, rd 1 72, rd 1 76, rd 1 80, rd 1 84, rd 1 88, rd 1 92]⟩
/-- `glm_aabb_invalidate`: include/cglm/box.h:158-163 -/
def f_glm_aabb_invalidate : Fn := ⟨[],
  [.call 92 [⟨0, 0, []⟩], .call 92 [⟨0, 12, []⟩]]⟩
/-- `glm_aabb_isvalid`: include/cglm/box.h:170-175 -/
def f_glm_aabb_isvalid : Fn := ⟨[],
  [.call 99 [⟨0, 0, []⟩], .call 100 [⟨0, 12, []⟩]]⟩
/-- `glm_aabb_size`: include/cglm/box.h:182-186 -/
def f_glm_aabb_size : Fn := ⟨[],
  [.call 232 [⟨0, 0, []⟩, ⟨0, 12, []⟩]]⟩
/-- `glm_aabb_radius`: include/cglm/box.h:193-197 -/
def f_glm_aabb_radius : Fn := ⟨[],
  [.call 726 [⟨0, 0, []⟩]]⟩
/-- `glm_aabb_center`: include/cglm/box.h:205-209 -/
def f_glm_aabb_center : Fn := ⟨[],
  [.call 230 [⟨0, 0, []⟩, ⟨0, 12, []⟩, ⟨1, 0, []⟩]]⟩
/-- `glm_aabb_aabb`: include/cglm/box.h:217-223 -/
def f_glm_aabb_aabb : Fn := ⟨[],
  [rd 0 0, rd 1 12, rd 0 12, rd 1 0, rd 0 4, rd 1 16, rd 0 16, rd 1 4, rd 0 8, rd 1 20, rd 0 20, rd 1 8]⟩
/-- `glm_aabb_sphere`: include/cglm/box.h:236-251 -/
def f_glm_aabb_sphere : Fn := ⟨[],
  [rd 1 0, rd 0 0, rd 0 12, rd 1 4, rd 0 4, rd 0 16, rd 1 8, rd 0 8, rd 0 20, .access ⟨0, 0, [(12, 2)]⟩ 4 4 false, .call 6 [],
   .access ⟨0, 4, [(12, 2)]⟩ 4 4 false, .access ⟨0, 8, [(12, 2)]⟩ 4 4 false, rd 1 12]⟩
/-- `glm_aabb_point`: include/cglm/box.h:259-265 -/
def f_glm_aabb_point : Fn := ⟨[],
  [rd 1 0, rd 0 0, rd 0 12, rd 1 4, rd 0 4, rd 0 16, rd 1 8, rd 0 8, rd 0 20]⟩
/-- `glm_aabb_contains`: include/cglm/box.h:273-279 -/
def f_glm_aabb_contains : Fn := ⟨[],
  [rd 0 0, rd 1 0, rd 0 12, rd 1 12, rd 0 4, rd 1 4, rd 0 16, rd 1 16, rd 0 8, rd 1 8, rd 0 20, rd 1 20]⟩
/-- `glm_luminance`: include/cglm/color.h:19-24 -/
def f_glm_luminance : Fn := ⟨[⟨12, []⟩],
  [.call 248 [⟨0, 0, []⟩, ⟨1, 0, []⟩]]⟩
/-- `glm_unprojecti_zo`: include/cglm/clipspace/project_zo.h:42-55 -/
def f_glm_unprojecti_zo : Fn := ⟨[⟨16, [.vec]⟩],
  [rd 0 0, rd 2 0, rd 2 8, wr 4 0, rd 0 4, rd 2 4, rd 2 12, wr 4 4, rd 0 8, wr 4 8, wr 4 12,
   .call 378 [⟨1, 0, []⟩, ⟨4, 0, []⟩, ⟨4, 0, []⟩], rd 4 12, .call 150 [⟨4, 0, []⟩, ⟨4, 0, []⟩],
   .call 189 [⟨4, 0, []⟩, ⟨3, 0, []⟩]]⟩
/-- `glm_project_zo`: include/cglm/clipspace/project_zo.h:69-86 -/
def f_glm_project_zo : Fn := ⟨[⟨16, [.b16, .vec]⟩],
  [.call 134 [⟨0, 0, []⟩, ⟨4, 0, []⟩], .call 378 [⟨1, 0, []⟩, ⟨4, 0, []⟩, ⟨4, 0, []⟩], rd 4 12,
   .call 150 [⟨4, 0, []⟩, ⟨4, 0, []⟩], rd 4 8, wr 3 8, .call 146 [⟨4, 0, []⟩, ⟨4, 0, []⟩], rd 4 0, rd 2 8, rd 2 0, wr 3 0,
   rd 4 4, rd 2 12, rd 2 4, wr 3 4]⟩
/-- `glm_project_z_zo`: include/cglm/clipspace/project_zo.h:100-109 -/
def f_glm_project_z_zo : Fn := ⟨[],
  [rd 1 8, rd 0 0, rd 1 24, rd 0 4, rd 1 40, rd 0 8, rd 1 56, rd 1 12, rd 1 28, rd 1 44, rd 1 60]⟩
/-- `glm_unprojecti_no`: include/cglm/clipspace/project_no.h:42-55 -/
def f_glm_unprojecti_no : Fn := ⟨[⟨16, [.vec]⟩],
  [rd 0 0, rd 2 0, rd 2 8, wr 4 0, rd 0 4, rd 2 4, rd 2 12, wr 4 4, rd 0 8, wr 4 8, wr 4 12,
   .call 378 [⟨1, 0, []⟩, ⟨4, 0, []⟩, ⟨4, 0, []⟩], rd 4 12, .call 150 [⟨4, 0, []⟩, ⟨4, 0, []⟩],
   .call 189 [⟨4, 0, []⟩, ⟨3, 0, []⟩]]⟩
/-- `glm_project_no`: include/cglm/clipspace/project_no.h:69-84 -/
def f_glm_project_no : Fn := ⟨[⟨16, [.b16, .vec]⟩],
  [.call 134 [⟨0, 0, []⟩, ⟨4, 0, []⟩], .call 378 [⟨1, 0, []⟩, ⟨4, 0, []⟩, ⟨4, 0, []⟩], rd 4 12,
   .call 150 [⟨4, 0, []⟩, ⟨4, 0, []⟩], .call 146 [⟨4, 0, []⟩, ⟨4, 0, []⟩], rd 4 0, rd 2 8, rd 2 0, wr 3 0, rd 4 4, rd 2 12,
   rd 2 4, wr 3 4, rd 4 8, wr 3 8]⟩
/-- `glm_project_z_no`: include/cglm/clipspace/project_no.h:98-107 -/
def f_glm_project_z_no : Fn := ⟨[],
  [rd 1 8, rd 0 0, rd 1 24, rd 0 4, rd 1 40, rd 0 8, rd 1 56, rd 1 12, rd 1 28, rd 1 44, rd 1 60]⟩
/-- `glm_unprojecti`: include/cglm/project.h:53-61 -/
def f_glm_unprojecti : Fn := ⟨[],
  [.call 737 [⟨0, 0, []⟩, ⟨1, 0, []⟩, ⟨2, 0, []⟩, ⟨3, 0, []⟩]]⟩
/-- `glm_unproject`: include/cglm/project.h:87-93 -/
def f_glm_unproject : Fn := ⟨[⟨64, [.mat, .vec]⟩],
  [.call 388 [⟨1, 0, []⟩, ⟨4, 0, []⟩], .call 740 [⟨0, 0, []⟩, ⟨4, 0, []⟩, ⟨2, 0, []⟩, ⟨3, 0, []⟩]]⟩
/-- `glm_project`: include/cglm/project.h:107-115 -/
def f_glm_project : Fn := ⟨[],
  [.call 738 [⟨0, 0, []⟩, ⟨1, 0, []⟩, ⟨2, 0, []⟩, ⟨3, 0, []⟩]]⟩
/-- `glm_project_z`: include/cglm/project.h:129-137 -/
def f_glm_project_z : Fn := ⟨[],
  [.call 739 [⟨0, 0, []⟩, ⟨1, 0, []⟩]]⟩
/-- `glm_pickmatrix`: include/cglm/project.h:147-170 -/
def f_glm_pickmatrix : Fn := ⟨[⟨64, [.mat, .vec]⟩, ⟨12, []⟩],
  [rd 1 0, rd 1 4, rd 2 8, rd 0 0, rd 2 0, wr 5 0, rd 2 12, rd 0 4, rd 2 4, wr 5 4, wr 5 8,
   .call 474 [⟨4, 0, []⟩, ⟨5, 0, []⟩], .call 477 [⟨4, 0, []⟩, ⟨5, 0, []⟩], .call 369 [⟨4, 0, []⟩, ⟨3, 0, []⟩]]⟩
/-- `glm_sphere_radii`: include/cglm/sphere.h:28-32 -/
def f_glm_sphere_radii : Fn := ⟨[],
  [rd 0 12]⟩
/-- `glm_sphere_transform`: include/cglm/sphere.h:41-46 -/
def f_glm_sphere_transform : Fn := ⟨[],
  [.call 382 [⟨1, 0, []⟩, ⟨0, 0, []⟩, ⟨2, 0, []⟩], rd 0 12, wr 2 12]⟩
/-- `glm_sphere_merge`: include/cglm/sphere.h:58-71 -/
def f_glm_sphere_merge : Fn := ⟨[],
  [.call 232 [⟨0, 0, []⟩, ⟨1, 0, []⟩], rd 0 12, rd 1 12, .call 8 [], .call 230 [⟨0, 0, []⟩, ⟨1, 0, []⟩, ⟨2, 0, []⟩], wr 2 12]⟩
/-- `glm_sphere_sphere`: include/cglm/sphere.h:79-83 -/
def f_glm_sphere_sphere : Fn := ⟨[],
  [.call 231 [⟨0, 0, []⟩, ⟨1, 0, []⟩], rd 0 12, rd 1 12, .call 6 []]⟩
/-- `glm_sphere_point`: include/cglm/sphere.h:91-97 -/
def f_glm_sphere_point : Fn := ⟨[],
  [rd 0 12, .call 231 [⟨1, 0, []⟩, ⟨0, 0, []⟩]]⟩
/-- `glm_ease_linear`: include/cglm/ease.h:13-17 -/
def f_glm_ease_linear : Fn := ⟨[],
  []⟩
/-- `glm_ease_sine_in`: include/cglm/ease.h:19-23 -/
def f_glm_ease_sine_in : Fn := ⟨[],
  []⟩
/-- `glm_ease_sine_out`: include/cglm/ease.h:25-29 -/
def f_glm_ease_sine_out : Fn := ⟨[],
  []⟩
/-- `glm_ease_sine_inout`: include/cglm/ease.h:31-35 -/
def f_glm_ease_sine_inout : Fn := ⟨[],
  []⟩
/-- `glm_ease_quad_in`: include/cglm/ease.h:37-41 -/
def f_glm_ease_quad_in : Fn := ⟨[],
  []⟩
/-- `glm_ease_quad_out`: include/cglm/ease.h:43-47 -/
def f_glm_ease_quad_out : Fn := ⟨[],
  []⟩
/-- `glm_ease_quad_inout`: include/cglm/ease.h:49-59 -/
def f_glm_ease_quad_inout : Fn := ⟨[],
  []⟩
/-- `glm_ease_cubic_in`: include/cglm/ease.h:61-65 -/
def f_glm_ease_cubic_in : Fn := ⟨[],
  []⟩
/-- `glm_ease_cubic_out`: include/cglm/ease.h:67-73 -/
def f_glm_ease_cubic_out : Fn := ⟨[],
  []⟩
/-- `glm_ease_cubic_inout`: include/cglm/ease.h:75-86 -/
def f_glm_ease_cubic_inout : Fn := ⟨[],
  []⟩
/-- `glm_ease_quart_in`: include/cglm/ease.h:88-94 -/
def f_glm_ease_quart_in : Fn := ⟨[],
  []⟩
/-- `glm_ease_quart_out`: include/cglm/ease.h:96-104 -/
def f_glm_ease_quart_out : Fn := ⟨[],
  []⟩
/-- `glm_ease_quart_inout`: include/cglm/ease.h:106-120 -/
def f_glm_ease_quart_inout : Fn := ⟨[],
  []⟩
/-- `glm_ease_quint_in`: include/cglm/ease.h:122-128 -/
def f_glm_ease_quint_in : Fn := ⟨[],
  []⟩
/-- `glm_ease_quint_out`: include/cglm/ease.h:130-139 -/
def f_glm_ease_quint_out : Fn := ⟨[],
  []⟩
/-- `glm_ease_quint_inout`: include/cglm/ease.h:141-155 -/
def f_glm_ease_quint_inout : Fn := ⟨[],
  []⟩
/-- `glm_ease_exp_in`: include/cglm/ease.h:157-164 -/
def f_glm_ease_exp_in : Fn := ⟨[],
  []⟩
/-- `glm_ease_exp_out`: include/cglm/ease.h:166-173 -/
def f_glm_ease_exp_out : Fn := ⟨[],
  []⟩
/-- `glm_ease_exp_inout`: include/cglm/ease.h:175-185 -/
def f_glm_ease_exp_inout : Fn := ⟨[],
  []⟩
/-- `glm_ease_circ_in`: include/cglm/ease.h:187-191 -/
def f_glm_ease_circ_in : Fn := ⟨[],
  []⟩
/-- `glm_ease_circ_out`: include/cglm/ease.h:193-197 -/
def f_glm_ease_circ_out : Fn := ⟨[],
  []⟩
/-- `glm_ease_circ_inout`: include/cglm/ease.h:199-206 -/
def f_glm_ease_circ_inout : Fn := ⟨[],
  []⟩
/-- `glm_ease_back_in`: include/cglm/ease.h:208-217 -/
def f_glm_ease_back_in : Fn := ⟨[],
  []⟩
/-- `glm_ease_back_out`: include/cglm/ease.h:219-229 -/
def f_glm_ease_back_out : Fn := ⟨[],
  []⟩
/-- `glm_ease_back_inout`: include/cglm/ease.h:231-252 -/
def f_glm_ease_back_inout : Fn := ⟨[],
  []⟩
/-- `glm_ease_elast_in`: include/cglm/ease.h:254-258 -/
def f_glm_ease_elast_in : Fn := ⟨[],
  []⟩
/-- `glm_ease_elast_out`: include/cglm/ease.h:260-264 -/
def f_glm_ease_elast_out : Fn := ⟨[],
  []⟩
/-- `glm_ease_elast_inout`: include/cglm/ease.h:266-279 -/
def f_glm_ease_elast_inout : Fn := ⟨[],
  []⟩
/-- `glm_ease_bounce_out`: include/cglm/ease.h:281-300 -/
def f_glm_ease_bounce_out : Fn := ⟨[],
  []⟩
/-- `glm_ease_bounce_in`: include/cglm/ease.h:302-306 -/
def f_glm_ease_bounce_in : Fn := ⟨[],
  [.call 778 []]⟩
/-- `glm_ease_bounce_inout`: include/cglm/ease.h:308-315 -/
def f_glm_ease_bounce_inout : Fn := ⟨[],
  [.call 778 []]⟩
/-- `glm_smc`: include/cglm/curve.h:32-38 -/
def f_glm_smc : Fn := ⟨[⟨16, [.vec]⟩],
  [.call 184 [⟨2, 0, []⟩], .call 392 [⟨2, 0, []⟩, ⟨0, 0, []⟩, ⟨1, 0, []⟩]]⟩
/-- `glm_bezier`: include/cglm/bezier.h:48-60 -/
def f_glm_bezier : Fn := ⟨[],
  []⟩
/-- `glm_hermite`: include/cglm/bezier.h:82-96 -/
def f_glm_hermite : Fn := ⟨[],
  []⟩
/-- `glm_decasteljau`: include/cglm/bezier.h:109-152 -/
def f_glm_decasteljau : Fn := ⟨[],
  [.call 12 []]⟩
/-- `glm_ray_triangle`: include/cglm/ray.h:40-80 -/
def f_glm_ray_triangle : Fn := ⟨[⟨12, []⟩, ⟨12, []⟩, ⟨12, []⟩, ⟨12, []⟩, ⟨12, []⟩],
  [.call 200 [⟨3, 0, []⟩, ⟨2, 0, []⟩, ⟨6, 0, []⟩], .call 200 [⟨4, 0, []⟩, ⟨2, 0, []⟩, ⟨7, 0, []⟩],
   .call 223 [⟨1, 0, []⟩, ⟨7, 0, []⟩, ⟨8, 0, []⟩], .call 193 [⟨6, 0, []⟩, ⟨8, 0, []⟩],
   .call 200 [⟨0, 0, []⟩, ⟨2, 0, []⟩, ⟨9, 0, []⟩], .call 193 [⟨9, 0, []⟩, ⟨8, 0, []⟩],
   .call 223 [⟨9, 0, []⟩, ⟨6, 0, []⟩, ⟨10, 0, []⟩], .call 193 [⟨1, 0, []⟩, ⟨10, 0, []⟩], .call 193 [⟨7, 0, []⟩, ⟨10, 0, []⟩],
   wr 5 0]⟩
/-- `glm_ray_sphere`: include/cglm/ray.h:102-156 -/
def f_glm_ray_sphere : Fn := ⟨[⟨12, []⟩],
  [.call 200 [⟨2, 0, []⟩, ⟨0, 0, []⟩, ⟨5, 0, []⟩], .call 193 [⟨1, 0, []⟩, ⟨5, 0, []⟩], .call 194 [⟨5, 0, []⟩],
   .call 216 [⟨1, 0, []⟩, ⟨5, 0, []⟩], rd 2 12, wr 3 0, wr 4 0]⟩
/-- `glm_ray_at`: include/cglm/ray.h:166-172 -/
def f_glm_ray_at : Fn := ⟨[⟨12, []⟩],
  [.call 203 [⟨1, 0, []⟩, ⟨3, 0, []⟩], .call 198 [⟨0, 0, []⟩, ⟨3, 0, []⟩, ⟨2, 0, []⟩]]⟩
/-- `glm_translate2d`: include/cglm/affine2d.h:39-45 -/
def f_glm_translate2d : Fn := ⟨[],
  [rd 0 0, rd 1 0, rd 0 12, rd 1 4, rd 0 24, wr 0 24, rd 0 4, rd 0 16, rd 0 28, wr 0 28, rd 0 8, rd 0 20, rd 0 32, wr 0 32]⟩
/-- `glm_translate2d_to`: include/cglm/affine2d.h:57-62 -/
def f_glm_translate2d_to : Fn := ⟨[],
  [.call 409 [⟨0, 0, []⟩, ⟨2, 0, []⟩], .call 788 [⟨2, 0, []⟩, ⟨1, 0, []⟩]]⟩
/-- `glm_translate2d_x`: include/cglm/affine2d.h:70-76 -/
def f_glm_translate2d_x : Fn := ⟨[],
  [rd 0 0, rd 0 24, wr 0 24, rd 0 4, rd 0 28, wr 0 28, rd 0 8, rd 0 32, wr 0 32]⟩
/-- `glm_translate2d_y`: include/cglm/affine2d.h:84-90 -/
def f_glm_translate2d_y : Fn := ⟨[],
  [rd 0 12, rd 0 24, wr 0 24, rd 0 16, rd 0 28, wr 0 28, rd 0 20, rd 0 32, wr 0 32]⟩
/-- `glm_translate2d_make`: include/cglm/affine2d.h:98-104 -/
def f_glm_translate2d_make : Fn := ⟨[],
  [.call 410 [⟨0, 0, []⟩], rd 1 0, wr 0 24, rd 1 4, wr 0 28]⟩
/-- `glm_scale2d_to`: include/cglm/affine2d.h:114-128 -/
def f_glm_scale2d_to : Fn := ⟨[],
  [rd 0 0, rd 1 0, wr 2 0, rd 0 4, wr 2 4, rd 0 8, wr 2 8, rd 0 12, rd 1 4, wr 2 12, rd 0 16, wr 2 16, rd 0 20, wr 2 20,
   rd 0 24, wr 2 24, rd 0 28, wr 2 28, rd 0 32, wr 2 32]⟩
/-- `glm_scale2d_make`: include/cglm/affine2d.h:136-142 -/
def f_glm_scale2d_make : Fn := ⟨[],
  [.call 410 [⟨0, 0, []⟩], rd 1 0, wr 0 0, rd 1 4, wr 0 16]⟩
/-- `glm_scale2d`: include/cglm/affine2d.h:151-161 -/
def f_glm_scale2d : Fn := ⟨[],
  [rd 0 0, rd 1 0, wr 0 0, rd 0 4, wr 0 4, rd 0 8, wr 0 8, rd 0 12, rd 1 4, wr 0 12, rd 0 16, wr 0 16, rd 0 20, wr 0 20]⟩
/-- `glm_scale2d_uni`: include/cglm/affine2d.h:170-180 -/
def f_glm_scale2d_uni : Fn := ⟨[],
  [rd 0 0, wr 0 0, rd 0 4, wr 0 4, rd 0 8, wr 0 8, rd 0 12, wr 0 12, rd 0 16, wr 0 16, rd 0 20, wr 0 20]⟩
/-- `glm_rotate2d_make`: include/cglm/affine2d.h:188-207 -/
def f_glm_rotate2d_make : Fn := ⟨[],
  [wr 0 0, wr 0 4, wr 0 8, wr 0 12, wr 0 16, wr 0 20, wr 0 24, wr 0 28, wr 0 32]⟩
/-- `glm_rotate2d`: include/cglm/affine2d.h:216-234 -/
def f_glm_rotate2d : Fn := ⟨[],
  [rd 0 0, rd 0 12, rd 0 4, rd 0 16, rd 0 8, rd 0 20, wr 0 0, wr 0 4, wr 0 8, wr 0 12, wr 0 16, wr 0 20]⟩
/-- `glm_rotate2d_to`: include/cglm/affine2d.h:244-266 -/
def f_glm_rotate2d_to : Fn := ⟨[],
  [rd 0 0, rd 0 12, rd 0 4, rd 0 16, rd 0 8, rd 0 20, wr 1 0, wr 1 4, wr 1 8, wr 1 12, wr 1 16, wr 1 20, rd 0 24, wr 1 24,
   rd 0 28, wr 1 28, rd 0 32, wr 1 32]⟩
/-- `glm_translated2d`: include/cglm/affine2d-post.h:32-36 -/
def f_glm_translated2d : Fn := ⟨[],
  [.call 54 [⟨0, 24, []⟩, ⟨1, 0, []⟩, ⟨0, 24, []⟩]]⟩
/-- `glm_translated2d_x`: include/cglm/affine2d-post.h:46-50 -/
def f_glm_translated2d_x : Fn := ⟨[],
  [rd 0 24, wr 0 24]⟩
/-- `glm_translated2d_y`: include/cglm/affine2d-post.h:60-64 -/
def f_glm_translated2d_y : Fn := ⟨[],
  [rd 0 28, wr 0 28]⟩
/-- `glm_rotated2d`: include/cglm/affine2d-post.h:74-90 -/
def f_glm_rotated2d : Fn := ⟨[],
  [rd 0 0, rd 0 12, rd 0 24, rd 0 4, rd 0 16, rd 0 28, wr 0 0, wr 0 12, wr 0 24, wr 0 4, wr 0 16, wr 0 28]⟩
/-- `glm_scaled2d`: include/cglm/affine2d-post.h:100-110 -/
def f_glm_scaled2d : Fn := ⟨[],
  [rd 1 0, rd 0 0, wr 0 0, rd 0 12, wr 0 12, rd 0 24, wr 0 24, rd 1 4, rd 0 4, wr 0 4, rd 0 16, wr 0 16, rd 0 28, wr 0 28]⟩
/-- `glm_scaled2d_uni`: include/cglm/affine2d-post.h:120-130 -/
def f_glm_scaled2d_uni : Fn := ⟨[],
  [rd 0 0, wr 0 0, rd 0 12, wr 0 12, rd 0 24, wr 0 24, rd 0 4, wr 0 4, rd 0 16, wr 0 16, rd 0 28, wr 0 28]⟩
/-- `glm_euler_xyz_quat_lh`: include/cglm/handed/euler_to_quat_lh.h:36-50 -/
def f_glm_euler_xyz_quat_lh : Fn := ⟨[],
  [rd 0 0, rd 0 4, rd 0 8, wr 1 0, wr 1 4, wr 1 8, wr 1 12]⟩
/-- `glm_euler_xzy_quat_lh`: include/cglm/handed/euler_to_quat_lh.h:59-73 -/
def f_glm_euler_xzy_quat_lh : Fn := ⟨[],
  [rd 0 0, rd 0 4, rd 0 8, wr 1 0, wr 1 4, wr 1 8, wr 1 12]⟩
/-- `glm_euler_yxz_quat_lh`: include/cglm/handed/euler_to_quat_lh.h:82-96 -/
def f_glm_euler_yxz_quat_lh : Fn := ⟨[],
  [rd 0 0, rd 0 4, rd 0 8, wr 1 0, wr 1 4, wr 1 8, wr 1 12]⟩
/-- `glm_euler_yzx_quat_lh`: include/cglm/handed/euler_to_quat_lh.h:105-119 -/
def f_glm_euler_yzx_quat_lh : Fn := ⟨[],
  [rd 0 0, rd 0 4, rd 0 8, wr 1 0, wr 1 4, wr 1 8, wr 1 12]⟩
/-- `glm_euler_zxy_quat_lh`: include/cglm/handed/euler_to_quat_lh.h:128-142 -/
def f_glm_euler_zxy_quat_lh : Fn := ⟨[],
  [rd 0 0, rd 0 4, rd 0 8, wr 1 0, wr 1 4, wr 1 8, wr 1 12]⟩
/-- `glm_euler_zyx_quat_lh`: include/cglm/handed/euler_to_quat_lh.h:151-165 -/
def f_glm_euler_zyx_quat_lh : Fn := ⟨[],
  [rd 0 0, rd 0 4, rd 0 8, wr 1 0, wr 1 4, wr 1 8, wr 1 12]⟩
/-- `glmc_vec3_mix`: include/cglm/call/vec3.h:224-228 -/
def f_glmc_vec3_mix : Fn := ⟨[],
  [.call 2059 [⟨0, 0, []⟩, ⟨1, 0, []⟩, ⟨2, 0, []⟩]]⟩
/-- `glmc_vec3_mixc`: include/cglm/call/vec3.h:230-234 -/
def f_glmc_vec3_mixc : Fn := ⟨[],
  [.call 2060 [⟨0, 0, []⟩, ⟨1, 0, []⟩, ⟨2, 0, []⟩]]⟩
/-- `glmc_vec4_mix`: include/cglm/call/vec4.h:197-201 -/
def f_glmc_vec4_mix : Fn := ⟨[],
  [.call 2134 [⟨0, 0, []⟩, ⟨1, 0, []⟩, ⟨2, 0, []⟩]]⟩
/-- `glmc_vec4_mixc`: include/cglm/call/vec4.h:203-207 -/
def f_glmc_vec4_mixc : Fn := ⟨[],
  [.call 2135 [⟨0, 0, []⟩, ⟨1, 0, []⟩, ⟨2, 0, []⟩]]⟩

end Cglm.Acc
