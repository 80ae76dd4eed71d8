/- Generated by tools/memgen.py, joined by tools/merge.py; do not edit by hand. -/
import Verif.CMem

section Util

/- Generated from include/cglm/util.h by tools/memgen.py (memory semantics); do not edit by hand. -/

set_option maxRecDepth 10000

namespace Cglm.C
open CMem

/-- `glm_signf`: include/cglm/util.h:61-65. -/
def glm_signf : Fn where
  locals := []
  nregs := 0
  body := .ret (.ofInt (.i2 .sub (.b2i (.fc .lt (.flit 0) (.reg 0))) (.b2i (.fc .lt (.reg 0) (.flit 0)))))

/-- `glm_rad`: include/cglm/util.h:72-76. -/
def glm_rad : Fn where
  locals := []
  nregs := 0
  body := .ret (.f2 .div (.f2 .mul (.reg 0) (.flit 3.14159265358979323846264338327950288)) (.flit 180))

/-- `glm_deg`: include/cglm/util.h:83-87. -/
def glm_deg : Fn where
  locals := []
  nregs := 0
  body := .ret (.f2 .div (.f2 .mul (.reg 0) (.flit 180)) (.flit 3.14159265358979323846264338327950288))

/-- `glm_make_rad`: include/cglm/util.h:94-98. -/
def glm_make_rad : Fn where
  locals := []
  nregs := 0
  body := .store (.reg 0) (.f2 .div (.f2 .mul (.load (.reg 0)) (.flit 3.14159265358979323846264338327950288)) (.flit 180))

/-- `glm_make_deg`: include/cglm/util.h:105-109. -/
def glm_make_deg : Fn where
  locals := []
  nregs := 0
  body := .store (.reg 0) (.f2 .div (.f2 .mul (.load (.reg 0)) (.flit 180)) (.flit 3.14159265358979323846264338327950288))

/-- `glm_pow2`: include/cglm/util.h:116-120. -/
def glm_pow2 : Fn where
  locals := []
  nregs := 0
  body := .ret (.f2 .mul (.reg 0) (.reg 0))

/-- `glm_min`: include/cglm/util.h:128-134. -/
def glm_min : Fn where
  locals := []
  nregs := 0
  body := 
    .seq (.ite (.fc .lt (.reg 0) (.reg 1)) (.ret (.reg 0)) (.skip)) <|
    .ret (.reg 1)

/-- `glm_max`: include/cglm/util.h:142-148. -/
def glm_max : Fn where
  locals := []
  nregs := 0
  body := 
    .seq (.ite (.fc .lt (.reg 1) (.reg 0)) (.ret (.reg 0)) (.skip)) <|
    .ret (.reg 1)

/-- `glm_imin`: include/cglm/util.h:158-164. -/
def glm_imin : Fn where
  locals := []
  nregs := 0
  body := 
    .seq (.ite (.ic .lt (.reg 0) (.reg 1)) (.ret (.reg 0)) (.skip)) <|
    .ret (.reg 1)

/-- `glm_imax`: include/cglm/util.h:174-180. -/
def glm_imax : Fn where
  locals := []
  nregs := 0
  body := 
    .seq (.ite (.ic .gt (.reg 0) (.reg 1)) (.ret (.reg 0)) (.skip)) <|
    .ret (.reg 1)

/-- `glm_clamp`: include/cglm/util.h:189-193. -/
def glm_clamp : Fn where
  locals := []
  nregs := 2
  body := 
    .seq (.call (some 3) glm_max.locals glm_max.nregs glm_max.body [.reg 0, .reg 1]) <|
    .seq (.call (some 4) glm_min.locals glm_min.nregs glm_min.body [.reg 3, .reg 2]) <|
    .ret (.reg 4)

/-- `glm_clamp_zo`: include/cglm/util.h:200-204. -/
def glm_clamp_zo : Fn where
  locals := []
  nregs := 1
  body := 
    .seq (.call (some 1) glm_clamp.locals glm_clamp.nregs glm_clamp.body [.reg 0, .flit 0, .flit 1]) <|
    .ret (.reg 1)

/-- `glm_lerp`: include/cglm/util.h:215-219. -/
def glm_lerp : Fn where
  locals := []
  nregs := 0
  body := .ret (.f2 .add (.reg 0) (.f2 .mul (.reg 2) (.f2 .sub (.reg 1) (.reg 0))))

/-- `glm_lerpc`: include/cglm/util.h:230-234. -/
def glm_lerpc : Fn where
  locals := []
  nregs := 2
  body := 
    .seq (.call (some 3) glm_clamp_zo.locals glm_clamp_zo.nregs glm_clamp_zo.body [.reg 2]) <|
    .seq (.call (some 4) glm_lerp.locals glm_lerp.nregs glm_lerp.body [.reg 0, .reg 1, .reg 3]) <|
    .ret (.reg 4)

/-- `glm_step`: include/cglm/util.h:243-253. -/
def glm_step : Fn where
  locals := []
  nregs := 0
  body := .ret (.ite (.fc .lt (.reg 1) (.reg 0)) (.flit 0) (.flit 1))

/-- `glm_smooth`: include/cglm/util.h:262-266. -/
def glm_smooth : Fn where
  locals := []
  nregs := 0
  body := .ret (.f2 .mul (.f2 .mul (.reg 0) (.reg 0)) (.f2 .sub (.flit 3) (.f2 .mul (.flit 2) (.reg 0))))

/-- `glm_smoothstep`: include/cglm/util.h:277-283. -/
def glm_smoothstep : Fn where
  locals := []
  nregs := 3
  body := 
    .seq (.call (some 4) glm_clamp_zo.locals glm_clamp_zo.nregs glm_clamp_zo.body [.f2 .div (.f2 .sub (.reg 2) (.reg 0)) (.f2 .sub (.reg 1) (.reg 0))]) <|
    .seq (.set 3 (.reg 4)) <|
    .seq (.call (some 5) glm_smooth.locals glm_smooth.nregs glm_smooth.body [.reg 3]) <|
    .ret (.reg 5)

/-- `glm_smoothinterp`: include/cglm/util.h:294-298. -/
def glm_smoothinterp : Fn where
  locals := []
  nregs := 1
  body := 
    .seq (.call (some 3) glm_smooth.locals glm_smooth.nregs glm_smooth.body [.reg 2]) <|
    .ret (.f2 .add (.reg 0) (.f2 .mul (.reg 3) (.f2 .sub (.reg 1) (.reg 0))))

/-- `glm_smoothinterpc`: include/cglm/util.h:309-313. -/
def glm_smoothinterpc : Fn where
  locals := []
  nregs := 2
  body := 
    .seq (.call (some 3) glm_clamp_zo.locals glm_clamp_zo.nregs glm_clamp_zo.body [.reg 2]) <|
    .seq (.call (some 4) glm_smoothinterp.locals glm_smoothinterp.nregs glm_smoothinterp.body [.reg 0, .reg 1, .reg 3]) <|
    .ret (.reg 4)

/-- `glm_eq`: include/cglm/util.h:321-325. -/
def glm_eq : Fn where
  locals := []
  nregs := 0
  body := .ret (.fc .le (.f1 .fabsf (.f2 .sub (.reg 0) (.reg 1))) (.flit 0.00001))

/-- `glm_percent`: include/cglm/util.h:336-345. -/
def glm_percent : Fn where
  locals := []
  nregs := 1
  body := 
    .seq (.set 3 (.f2 .sub (.reg 1) (.reg 0))) <|
    .seq (.ite (.fc .eq (.reg 3) (.flit 0)) (.ret (.flit 1)) (.skip)) <|
    .ret (.f2 .div (.f2 .sub (.reg 2) (.reg 0)) (.reg 3))

/-- `glm_percentc`: include/cglm/util.h:354-358. -/
def glm_percentc : Fn where
  locals := []
  nregs := 2
  body := 
    .seq (.call (some 3) glm_percent.locals glm_percent.nregs glm_percent.body [.reg 0, .reg 1, .reg 2]) <|
    .seq (.call (some 4) glm_clamp_zo.locals glm_clamp_zo.nregs glm_clamp_zo.body [.reg 3]) <|
    .ret (.reg 4)

/-- `glm_swapf`: include/cglm/util.h:366-373. -/
def glm_swapf : Fn where
  locals := []
  nregs := 1
  body := 
    .seq (.set 2 (.load (.reg 0))) <|
    .seq (.store (.reg 0) (.load (.reg 1))) <|
    .store (.reg 1) (.reg 2)

end Cglm.C

end Util

section Vec2Ext

/- Generated from include/cglm/vec2-ext.h by tools/memgen.py (memory semantics); do not edit by hand. -/

set_option maxRecDepth 10000

namespace Cglm.C
open CMem

/-- `glm_vec2_fill`: include/cglm/vec2-ext.h:46-50. -/
def glm_vec2_fill : Fn where
  locals := []
  nregs := 0
  body := 
    .seq (.store (.off (.reg 0) 1) (.reg 1)) <|
    .store (.reg 0) (.load (.off (.reg 0) 1))

/-- `glm_vec2_eq`: include/cglm/vec2-ext.h:58-62. -/
def glm_vec2_eq : Fn where
  locals := []
  nregs := 0
  body := .ret (.and (.fc .eq (.load (.reg 0)) (.reg 1)) (.fc .eq (.load (.reg 0)) (.load (.off (.reg 0) 1))))

/-- `glm_vec2_eq_eps`: include/cglm/vec2-ext.h:70-75. -/
def glm_vec2_eq_eps : Fn where
  locals := []
  nregs := 0
  body := .ret (.and (.fc .le (.f1 .fabsf (.f2 .sub (.load (.reg 0)) (.reg 1))) (.flit 0.00001)) (.fc .le (.f1 .fabsf (.f2 .sub (.load (.off (.reg 0) 1)) (.reg 1))) (.flit 0.00001)))

/-- `glm_vec2_eq_all`: include/cglm/vec2-ext.h:82-86. -/
def glm_vec2_eq_all : Fn where
  locals := []
  nregs := 1
  body := 
    .seq (.call (some 1) glm_vec2_eq_eps.locals glm_vec2_eq_eps.nregs glm_vec2_eq_eps.body [.reg 0, .load (.reg 0)]) <|
    .ret (.reg 1)

/-- `glm_vec2_eqv`: include/cglm/vec2-ext.h:94-98. -/
def glm_vec2_eqv : Fn where
  locals := []
  nregs := 0
  body := .ret (.and (.fc .eq (.load (.reg 0)) (.load (.reg 1))) (.fc .eq (.load (.off (.reg 0) 1)) (.load (.off (.reg 1) 1))))

/-- `glm_vec2_eqv_eps`: include/cglm/vec2-ext.h:106-111. -/
def glm_vec2_eqv_eps : Fn where
  locals := []
  nregs := 0
  body := .ret (.and (.fc .le (.f1 .fabsf (.f2 .sub (.load (.reg 0)) (.load (.reg 1)))) (.flit 0.00001)) (.fc .le (.f1 .fabsf (.f2 .sub (.load (.off (.reg 0) 1)) (.load (.off (.reg 1) 1)))) (.flit 0.00001)))

/-- `glm_vec2_max`: include/cglm/vec2-ext.h:118-122. -/
def glm_vec2_max : Fn where
  locals := []
  nregs := 1
  body := 
    .seq (.call (some 1) glm_max.locals glm_max.nregs glm_max.body [.load (.reg 0), .load (.off (.reg 0) 1)]) <|
    .ret (.reg 1)

/-- `glm_vec2_min`: include/cglm/vec2-ext.h:129-133. -/
def glm_vec2_min : Fn where
  locals := []
  nregs := 1
  body := 
    .seq (.call (some 1) glm_min.locals glm_min.nregs glm_min.body [.load (.reg 0), .load (.off (.reg 0) 1)]) <|
    .ret (.reg 1)

/-- `glm_vec2_isnan`: include/cglm/vec2-ext.h:141-149. -/
def glm_vec2_isnan : Fn where
  locals := []
  nregs := 0
  body := .ret (.or (.fp .isnan (.load (.reg 0))) (.fp .isnan (.load (.off (.reg 0) 1))))

/-- `glm_vec2_isinf`: include/cglm/vec2-ext.h:157-165. -/
def glm_vec2_isinf : Fn where
  locals := []
  nregs := 0
  body := .ret (.or (.fp .isinf (.load (.reg 0))) (.fp .isinf (.load (.off (.reg 0) 1))))

/-- `glm_vec2_isvalid`: include/cglm/vec2-ext.h:173-177.  Simplified: the right operand of `&&`/`||` is always evaluated. -/
def glm_vec2_isvalid : Fn where
  locals := []
  nregs := 2
  body := 
    .seq (.call (some 1) glm_vec2_isnan.locals glm_vec2_isnan.nregs glm_vec2_isnan.body [.reg 0]) <|
    .seq (.call (some 2) glm_vec2_isinf.locals glm_vec2_isinf.nregs glm_vec2_isinf.body [.reg 0]) <|
    .ret (.and (.not (.reg 1)) (.not (.reg 2)))

/-- `glm_vec2_sign`: include/cglm/vec2-ext.h:186-191. -/
def glm_vec2_sign : Fn where
  locals := []
  nregs := 2
  body := 
    .seq (.call (some 2) glm_signf.locals glm_signf.nregs glm_signf.body [.load (.reg 0)]) <|
    .seq (.store (.reg 1) (.reg 2)) <|
    .seq (.call (some 3) glm_signf.locals glm_signf.nregs glm_signf.body [.load (.off (.reg 0) 1)]) <|
    .store (.off (.reg 1) 1) (.reg 3)

/-- `glm_vec2_abs`: include/cglm/vec2-ext.h:199-204. -/
def glm_vec2_abs : Fn where
  locals := []
  nregs := 0
  body := 
    .seq (.store (.reg 1) (.f1 .fabsf (.load (.reg 0)))) <|
    .store (.off (.reg 1) 1) (.f1 .fabsf (.load (.off (.reg 0) 1)))

/-- `glm_vec2_fract`: include/cglm/vec2-ext.h:212-217. -/
def glm_vec2_fract : Fn where
  locals := []
  nregs := 0
  body := 
    .seq (.store (.reg 1) (.f2 .fminf (.f2 .sub (.load (.reg 0)) (.f1 .floorf (.load (.reg 0)))) (.flit 0.999999940395355224609375))) <|
    .store (.off (.reg 1) 1) (.f2 .fminf (.f2 .sub (.load (.off (.reg 0) 1)) (.f1 .floorf (.load (.off (.reg 0) 1)))) (.flit 0.999999940395355224609375))

/-- `glm_vec2_floor`: include/cglm/vec2-ext.h:225-230. -/
def glm_vec2_floor : Fn where
  locals := []
  nregs := 0
  body := 
    .seq (.store (.reg 1) (.f1 .floorf (.load (.reg 0)))) <|
    .store (.off (.reg 1) 1) (.f1 .floorf (.load (.off (.reg 0) 1)))

/-- `glm_vec2_mods`: include/cglm/vec2-ext.h:239-244. -/
def glm_vec2_mods : Fn where
  locals := []
  nregs := 0
  body := 
    .seq (.store (.reg 2) (.f2 .fmodf (.load (.reg 0)) (.reg 1))) <|
    .store (.off (.reg 2) 1) (.f2 .fmodf (.load (.off (.reg 0) 1)) (.reg 1))

/-- `glm_vec2_sqrt`: include/cglm/vec2-ext.h:252-257. -/
def glm_vec2_sqrt : Fn where
  locals := []
  nregs := 0
  body := 
    .seq (.store (.reg 1) (.f1 .sqrtf (.load (.reg 0)))) <|
    .store (.off (.reg 1) 1) (.f1 .sqrtf (.load (.off (.reg 0) 1)))

/-- `glm_vec2_complex_mul`: include/cglm/vec2-ext.h:266-274. -/
def glm_vec2_complex_mul : Fn where
  locals := []
  nregs := 2
  body := 
    .seq (.set 3 (.f2 .sub (.f2 .mul (.load (.reg 0)) (.load (.reg 1))) (.f2 .mul (.load (.off (.reg 0) 1)) (.load (.off (.reg 1) 1))))) <|
    .seq (.set 4 (.f2 .add (.f2 .mul (.load (.reg 0)) (.load (.off (.reg 1) 1))) (.f2 .mul (.load (.off (.reg 0) 1)) (.load (.reg 1))))) <|
    .seq (.store (.reg 2) (.reg 3)) <|
    .store (.off (.reg 2) 1) (.reg 4)

/-- `glm_vec2_steps`: include/cglm/vec2-ext.h:284-289. -/
def glm_vec2_steps : Fn where
  locals := []
  nregs := 2
  body := 
    .seq (.call (some 3) glm_step.locals glm_step.nregs glm_step.body [.reg 0, .load (.reg 1)]) <|
    .seq (.store (.reg 2) (.reg 3)) <|
    .seq (.call (some 4) glm_step.locals glm_step.nregs glm_step.body [.reg 0, .load (.off (.reg 1) 1)]) <|
    .store (.off (.reg 2) 1) (.reg 4)

/-- `glm_vec2_stepr`: include/cglm/vec2-ext.h:299-304. -/
def glm_vec2_stepr : Fn where
  locals := []
  nregs := 2
  body := 
    .seq (.call (some 3) glm_step.locals glm_step.nregs glm_step.body [.load (.reg 0), .reg 1]) <|
    .seq (.store (.reg 2) (.reg 3)) <|
    .seq (.call (some 4) glm_step.locals glm_step.nregs glm_step.body [.load (.off (.reg 0) 1), .reg 1]) <|
    .store (.off (.reg 2) 1) (.reg 4)

/-- `glm_vec2_complex_div`: include/cglm/vec2-ext.h:313-322. -/
def glm_vec2_complex_div : Fn where
  locals := []
  nregs := 3
  body := 
    .seq (.set 5 (.f2 .div (.flit 1) (.f2 .add (.f2 .mul (.load (.reg 1)) (.load (.reg 1))) (.f2 .mul (.load (.off (.reg 1) 1)) (.load (.off (.reg 1) 1)))))) <|
    .seq (.set 3 (.f2 .mul (.reg 5) (.f2 .add (.f2 .mul (.load (.reg 0)) (.load (.reg 1))) (.f2 .mul (.load (.off (.reg 0) 1)) (.load (.off (.reg 1) 1)))))) <|
    .seq (.set 4 (.f2 .mul (.reg 5) (.f2 .sub (.f2 .mul (.load (.off (.reg 0) 1)) (.load (.reg 1))) (.f2 .mul (.load (.reg 0)) (.load (.off (.reg 1) 1)))))) <|
    .seq (.store (.reg 2) (.reg 3)) <|
    .store (.off (.reg 2) 1) (.reg 4)

/-- `glm_vec2_complex_conjugate`: include/cglm/vec2-ext.h:330-335. -/
def glm_vec2_complex_conjugate : Fn where
  locals := []
  nregs := 0
  body := 
    .seq (.store (.reg 1) (.load (.reg 0))) <|
    .store (.off (.reg 1) 1) (.f1 .neg (.load (.off (.reg 0) 1)))

end Cglm.C

end Vec2Ext

section Vec2

/- Generated from include/cglm/vec2.h by tools/memgen.py (memory semantics); do not edit by hand. -/

set_option maxRecDepth 10000

namespace Cglm.C
open CMem

/-- `glm_vec2`: include/cglm/vec2.h:83-88. -/
def glm_vec2 : Fn where
  locals := []
  nregs := 0
  body := 
    .seq (.store (.reg 1) (.load (.reg 0))) <|
    .store (.off (.reg 1) 1) (.load (.off (.reg 0) 1))

/-- `glm_vec2_copy`: include/cglm/vec2.h:96-101. -/
def glm_vec2_copy : Fn where
  locals := []
  nregs := 0
  body := 
    .seq (.store (.reg 1) (.load (.reg 0))) <|
    .store (.off (.reg 1) 1) (.load (.off (.reg 0) 1))

/-- `glm_vec2_zero`: include/cglm/vec2.h:108-112. -/
def glm_vec2_zero : Fn where
  locals := []
  nregs := 0
  body := 
    .seq (.store (.off (.reg 0) 1) (.flit 0)) <|
    .store (.reg 0) (.load (.off (.reg 0) 1))

/-- `glm_vec2_one`: include/cglm/vec2.h:119-123. -/
def glm_vec2_one : Fn where
  locals := []
  nregs := 0
  body := 
    .seq (.store (.off (.reg 0) 1) (.flit 1)) <|
    .store (.reg 0) (.load (.off (.reg 0) 1))

/-- `glm_vec2_dot`: include/cglm/vec2.h:133-137. -/
def glm_vec2_dot : Fn where
  locals := []
  nregs := 0
  body := .ret (.f2 .add (.f2 .mul (.load (.reg 0)) (.load (.reg 1))) (.f2 .mul (.load (.off (.reg 0) 1)) (.load (.off (.reg 1) 1))))

/-- `glm_vec2_cross`: include/cglm/vec2.h:149-154. -/
def glm_vec2_cross : Fn where
  locals := []
  nregs := 0
  body := .ret (.f2 .sub (.f2 .mul (.load (.reg 0)) (.load (.off (.reg 1) 1))) (.f2 .mul (.load (.off (.reg 0) 1)) (.load (.reg 1))))

/-- `glm_vec2_norm2`: include/cglm/vec2.h:167-171. -/
def glm_vec2_norm2 : Fn where
  locals := []
  nregs := 1
  body := 
    .seq (.call (some 1) glm_vec2_dot.locals glm_vec2_dot.nregs glm_vec2_dot.body [.reg 0, .reg 0]) <|
    .ret (.reg 1)

/-- `glm_vec2_norm`: include/cglm/vec2.h:180-184. -/
def glm_vec2_norm : Fn where
  locals := []
  nregs := 1
  body := 
    .seq (.call (some 1) glm_vec2_norm2.locals glm_vec2_norm2.nregs glm_vec2_norm2.body [.reg 0]) <|
    .ret (.f1 .sqrtf (.reg 1))

/-- `glm_vec2_add`: include/cglm/vec2.h:193-198. -/
def glm_vec2_add : Fn where
  locals := []
  nregs := 0
  body := 
    .seq (.store (.reg 2) (.f2 .add (.load (.reg 0)) (.load (.reg 1)))) <|
    .store (.off (.reg 2) 1) (.f2 .add (.load (.off (.reg 0) 1)) (.load (.off (.reg 1) 1)))

/-- `glm_vec2_adds`: include/cglm/vec2.h:207-212. -/
def glm_vec2_adds : Fn where
  locals := []
  nregs := 0
  body := 
    .seq (.store (.reg 2) (.f2 .add (.load (.reg 0)) (.reg 1))) <|
    .store (.off (.reg 2) 1) (.f2 .add (.load (.off (.reg 0) 1)) (.reg 1))

/-- `glm_vec2_sub`: include/cglm/vec2.h:221-226. -/
def glm_vec2_sub : Fn where
  locals := []
  nregs := 0
  body := 
    .seq (.store (.reg 2) (.f2 .sub (.load (.reg 0)) (.load (.reg 1)))) <|
    .store (.off (.reg 2) 1) (.f2 .sub (.load (.off (.reg 0) 1)) (.load (.off (.reg 1) 1)))

/-- `glm_vec2_subs`: include/cglm/vec2.h:235-240. -/
def glm_vec2_subs : Fn where
  locals := []
  nregs := 0
  body := 
    .seq (.store (.reg 2) (.f2 .sub (.load (.reg 0)) (.reg 1))) <|
    .store (.off (.reg 2) 1) (.f2 .sub (.load (.off (.reg 0) 1)) (.reg 1))

/-- `glm_vec2_mul`: include/cglm/vec2.h:249-254. -/
def glm_vec2_mul : Fn where
  locals := []
  nregs := 0
  body := 
    .seq (.store (.reg 2) (.f2 .mul (.load (.reg 0)) (.load (.reg 1)))) <|
    .store (.off (.reg 2) 1) (.f2 .mul (.load (.off (.reg 0) 1)) (.load (.off (.reg 1) 1)))

/-- `glm_vec2_scale`: include/cglm/vec2.h:263-268. -/
def glm_vec2_scale : Fn where
  locals := []
  nregs := 0
  body := 
    .seq (.store (.reg 2) (.f2 .mul (.load (.reg 0)) (.reg 1))) <|
    .store (.off (.reg 2) 1) (.f2 .mul (.load (.off (.reg 0) 1)) (.reg 1))

/-- `glm_vec2_scale_as`: include/cglm/vec2.h:277-289. -/
def glm_vec2_scale_as : Fn where
  locals := []
  nregs := 2
  body := 
    .seq (.call (some 4) glm_vec2_norm.locals glm_vec2_norm.nregs glm_vec2_norm.body [.reg 0]) <|
    .seq (.set 3 (.reg 4)) <|
    .seq (.ite (.fc .lt (.reg 3) (.flit 0.00000011920928955078125)) (.seq (.call none glm_vec2_zero.locals glm_vec2_zero.nregs glm_vec2_zero.body [.reg 2]) (.retVoid)) (.skip)) <|
    .call none glm_vec2_scale.locals glm_vec2_scale.nregs glm_vec2_scale.body [.reg 0, .f2 .div (.reg 1) (.reg 3), .reg 2]

/-- `glm_vec2_div`: include/cglm/vec2.h:298-303. -/
def glm_vec2_div : Fn where
  locals := []
  nregs := 0
  body := 
    .seq (.store (.reg 2) (.f2 .div (.load (.reg 0)) (.load (.reg 1)))) <|
    .store (.off (.reg 2) 1) (.f2 .div (.load (.off (.reg 0) 1)) (.load (.off (.reg 1) 1)))

/-- `glm_vec2_divs`: include/cglm/vec2.h:312-317. -/
def glm_vec2_divs : Fn where
  locals := []
  nregs := 0
  body := 
    .seq (.store (.reg 2) (.f2 .div (.load (.reg 0)) (.reg 1))) <|
    .store (.off (.reg 2) 1) (.f2 .div (.load (.off (.reg 0) 1)) (.reg 1))

/-- `glm_vec2_addadd`: include/cglm/vec2.h:328-333. -/
def glm_vec2_addadd : Fn where
  locals := []
  nregs := 0
  body := 
    .seq (.store (.reg 2) (.f2 .add (.load (.reg 2)) (.f2 .add (.load (.reg 0)) (.load (.reg 1))))) <|
    .store (.off (.reg 2) 1) (.f2 .add (.load (.off (.reg 2) 1)) (.f2 .add (.load (.off (.reg 0) 1)) (.load (.off (.reg 1) 1))))

/-- `glm_vec2_subadd`: include/cglm/vec2.h:344-349. -/
def glm_vec2_subadd : Fn where
  locals := []
  nregs := 0
  body := 
    .seq (.store (.reg 2) (.f2 .add (.load (.reg 2)) (.f2 .sub (.load (.reg 0)) (.load (.reg 1))))) <|
    .store (.off (.reg 2) 1) (.f2 .add (.load (.off (.reg 2) 1)) (.f2 .sub (.load (.off (.reg 0) 1)) (.load (.off (.reg 1) 1))))

/-- `glm_vec2_muladd`: include/cglm/vec2.h:360-365. -/
def glm_vec2_muladd : Fn where
  locals := []
  nregs := 0
  body := 
    .seq (.store (.reg 2) (.f2 .add (.load (.reg 2)) (.f2 .mul (.load (.reg 0)) (.load (.reg 1))))) <|
    .store (.off (.reg 2) 1) (.f2 .add (.load (.off (.reg 2) 1)) (.f2 .mul (.load (.off (.reg 0) 1)) (.load (.off (.reg 1) 1))))

/-- `glm_vec2_muladds`: include/cglm/vec2.h:376-381. -/
def glm_vec2_muladds : Fn where
  locals := []
  nregs := 0
  body := 
    .seq (.store (.reg 2) (.f2 .add (.load (.reg 2)) (.f2 .mul (.load (.reg 0)) (.reg 1)))) <|
    .store (.off (.reg 2) 1) (.f2 .add (.load (.off (.reg 2) 1)) (.f2 .mul (.load (.off (.reg 0) 1)) (.reg 1)))

/-- `glm_vec2_maxadd`: include/cglm/vec2.h:392-397. -/
def glm_vec2_maxadd : Fn where
  locals := []
  nregs := 2
  body := 
    .seq (.call (some 3) glm_max.locals glm_max.nregs glm_max.body [.load (.reg 0), .load (.reg 1)]) <|
    .seq (.store (.reg 2) (.f2 .add (.load (.reg 2)) (.reg 3))) <|
    .seq (.call (some 4) glm_max.locals glm_max.nregs glm_max.body [.load (.off (.reg 0) 1), .load (.off (.reg 1) 1)]) <|
    .store (.off (.reg 2) 1) (.f2 .add (.load (.off (.reg 2) 1)) (.reg 4))

/-- `glm_vec2_minadd`: include/cglm/vec2.h:408-413. -/
def glm_vec2_minadd : Fn where
  locals := []
  nregs := 2
  body := 
    .seq (.call (some 3) glm_min.locals glm_min.nregs glm_min.body [.load (.reg 0), .load (.reg 1)]) <|
    .seq (.store (.reg 2) (.f2 .add (.load (.reg 2)) (.reg 3))) <|
    .seq (.call (some 4) glm_min.locals glm_min.nregs glm_min.body [.load (.off (.reg 0) 1), .load (.off (.reg 1) 1)]) <|
    .store (.off (.reg 2) 1) (.f2 .add (.load (.off (.reg 2) 1)) (.reg 4))

/-- `glm_vec2_subsub`: include/cglm/vec2.h:424-429. -/
def glm_vec2_subsub : Fn where
  locals := []
  nregs := 0
  body := 
    .seq (.store (.reg 2) (.f2 .sub (.load (.reg 2)) (.f2 .sub (.load (.reg 0)) (.load (.reg 1))))) <|
    .store (.off (.reg 2) 1) (.f2 .sub (.load (.off (.reg 2) 1)) (.f2 .sub (.load (.off (.reg 0) 1)) (.load (.off (.reg 1) 1))))

/-- `glm_vec2_addsub`: include/cglm/vec2.h:440-445. -/
def glm_vec2_addsub : Fn where
  locals := []
  nregs := 0
  body := 
    .seq (.store (.reg 2) (.f2 .sub (.load (.reg 2)) (.f2 .add (.load (.reg 0)) (.load (.reg 1))))) <|
    .store (.off (.reg 2) 1) (.f2 .sub (.load (.off (.reg 2) 1)) (.f2 .add (.load (.off (.reg 0) 1)) (.load (.off (.reg 1) 1))))

/-- `glm_vec2_mulsub`: include/cglm/vec2.h:456-461. -/
def glm_vec2_mulsub : Fn where
  locals := []
  nregs := 0
  body := 
    .seq (.store (.reg 2) (.f2 .sub (.load (.reg 2)) (.f2 .mul (.load (.reg 0)) (.load (.reg 1))))) <|
    .store (.off (.reg 2) 1) (.f2 .sub (.load (.off (.reg 2) 1)) (.f2 .mul (.load (.off (.reg 0) 1)) (.load (.off (.reg 1) 1))))

/-- `glm_vec2_mulsubs`: include/cglm/vec2.h:472-477. -/
def glm_vec2_mulsubs : Fn where
  locals := []
  nregs := 0
  body := 
    .seq (.store (.reg 2) (.f2 .sub (.load (.reg 2)) (.f2 .mul (.load (.reg 0)) (.reg 1)))) <|
    .store (.off (.reg 2) 1) (.f2 .sub (.load (.off (.reg 2) 1)) (.f2 .mul (.load (.off (.reg 0) 1)) (.reg 1)))

/-- `glm_vec2_maxsub`: include/cglm/vec2.h:488-493. -/
def glm_vec2_maxsub : Fn where
  locals := []
  nregs := 2
  body := 
    .seq (.call (some 3) glm_max.locals glm_max.nregs glm_max.body [.load (.reg 0), .load (.reg 1)]) <|
    .seq (.store (.reg 2) (.f2 .sub (.load (.reg 2)) (.reg 3))) <|
    .seq (.call (some 4) glm_max.locals glm_max.nregs glm_max.body [.load (.off (.reg 0) 1), .load (.off (.reg 1) 1)]) <|
    .store (.off (.reg 2) 1) (.f2 .sub (.load (.off (.reg 2) 1)) (.reg 4))

/-- `glm_vec2_minsub`: include/cglm/vec2.h:504-509. -/
def glm_vec2_minsub : Fn where
  locals := []
  nregs := 2
  body := 
    .seq (.call (some 3) glm_min.locals glm_min.nregs glm_min.body [.load (.reg 0), .load (.reg 1)]) <|
    .seq (.store (.reg 2) (.f2 .sub (.load (.reg 2)) (.reg 3))) <|
    .seq (.call (some 4) glm_min.locals glm_min.nregs glm_min.body [.load (.off (.reg 0) 1), .load (.off (.reg 1) 1)]) <|
    .store (.off (.reg 2) 1) (.f2 .sub (.load (.off (.reg 2) 1)) (.reg 4))

/-- `glm_vec2_negate_to`: include/cglm/vec2.h:517-522. -/
def glm_vec2_negate_to : Fn where
  locals := []
  nregs := 0
  body := 
    .seq (.store (.reg 1) (.f1 .neg (.load (.reg 0)))) <|
    .store (.off (.reg 1) 1) (.f1 .neg (.load (.off (.reg 0) 1)))

/-- `glm_vec2_negate`: include/cglm/vec2.h:529-533. -/
def glm_vec2_negate : Fn where
  locals := []
  nregs := 0
  body := .call none glm_vec2_negate_to.locals glm_vec2_negate_to.nregs glm_vec2_negate_to.body [.reg 0, .reg 0]

/-- `glm_vec2_normalize`: include/cglm/vec2.h:540-553. -/
def glm_vec2_normalize : Fn where
  locals := []
  nregs := 2
  body := 
    .seq (.call (some 2) glm_vec2_norm.locals glm_vec2_norm.nregs glm_vec2_norm.body [.reg 0]) <|
    .seq (.set 1 (.reg 2)) <|
    .seq (.ite (.fc .lt (.reg 1) (.flit 0.00000011920928955078125)) (.seq (.store (.off (.reg 0) 1) (.flit 0)) (.seq (.store (.reg 0) (.load (.off (.reg 0) 1))) (.retVoid))) (.skip)) <|
    .call none glm_vec2_scale.locals glm_vec2_scale.nregs glm_vec2_scale.body [.reg 0, .f2 .div (.flit 1) (.reg 1), .reg 0]

/-- `glm_vec2_normalize_to`: include/cglm/vec2.h:561-574. -/
def glm_vec2_normalize_to : Fn where
  locals := []
  nregs := 2
  body := 
    .seq (.call (some 3) glm_vec2_norm.locals glm_vec2_norm.nregs glm_vec2_norm.body [.reg 0]) <|
    .seq (.set 2 (.reg 3)) <|
    .seq (.ite (.fc .lt (.reg 2) (.flit 0.00000011920928955078125)) (.seq (.call none glm_vec2_zero.locals glm_vec2_zero.nregs glm_vec2_zero.body [.reg 1]) (.retVoid)) (.skip)) <|
    .call none glm_vec2_scale.locals glm_vec2_scale.nregs glm_vec2_scale.body [.reg 0, .f2 .div (.flit 1) (.reg 2), .reg 1]

/-- `glm_vec2_rotate`: include/cglm/vec2.h:587-600. -/
def glm_vec2_rotate : Fn where
  locals := []
  nregs := 4
  body := 
    .seq (.set 3 (.f1 .cosf (.reg 1))) <|
    .seq (.set 4 (.f1 .sinf (.reg 1))) <|
    .seq (.set 5 (.load (.reg 0))) <|
    .seq (.set 6 (.load (.off (.reg 0) 1))) <|
    .seq (.store (.reg 2) (.f2 .sub (.f2 .mul (.reg 3) (.reg 5)) (.f2 .mul (.reg 4) (.reg 6)))) <|
    .store (.off (.reg 2) 1) (.f2 .add (.f2 .mul (.reg 4) (.reg 5)) (.f2 .mul (.reg 3) (.reg 6)))

/-- `glm_vec2_center`: include/cglm/vec2.h:609-614. -/
def glm_vec2_center : Fn where
  locals := []
  nregs := 0
  body := 
    .seq (.call none glm_vec2_add.locals glm_vec2_add.nregs glm_vec2_add.body [.reg 0, .reg 1, .reg 2]) <|
    .call none glm_vec2_scale.locals glm_vec2_scale.nregs glm_vec2_scale.body [.reg 2, .flit 0.5, .reg 2]

/-- `glm_vec2_distance2`: include/cglm/vec2.h:623-627. -/
def glm_vec2_distance2 : Fn where
  locals := []
  nregs := 2
  body := 
    .seq (.call (some 2) glm_pow2.locals glm_pow2.nregs glm_pow2.body [.f2 .sub (.load (.reg 1)) (.load (.reg 0))]) <|
    .seq (.call (some 3) glm_pow2.locals glm_pow2.nregs glm_pow2.body [.f2 .sub (.load (.off (.reg 1) 1)) (.load (.off (.reg 0) 1))]) <|
    .ret (.f2 .add (.reg 2) (.reg 3))

/-- `glm_vec2_distance`: include/cglm/vec2.h:636-640. -/
def glm_vec2_distance : Fn where
  locals := []
  nregs := 1
  body := 
    .seq (.call (some 2) glm_vec2_distance2.locals glm_vec2_distance2.nregs glm_vec2_distance2.body [.reg 0, .reg 1]) <|
    .ret (.f1 .sqrtf (.reg 2))

/-- `glm_vec2_maxv`: include/cglm/vec2.h:649-654. -/
def glm_vec2_maxv : Fn where
  locals := []
  nregs := 2
  body := 
    .seq (.call (some 3) glm_max.locals glm_max.nregs glm_max.body [.load (.reg 0), .load (.reg 1)]) <|
    .seq (.store (.reg 2) (.reg 3)) <|
    .seq (.call (some 4) glm_max.locals glm_max.nregs glm_max.body [.load (.off (.reg 0) 1), .load (.off (.reg 1) 1)]) <|
    .store (.off (.reg 2) 1) (.reg 4)

/-- `glm_vec2_minv`: include/cglm/vec2.h:663-668. -/
def glm_vec2_minv : Fn where
  locals := []
  nregs := 2
  body := 
    .seq (.call (some 3) glm_min.locals glm_min.nregs glm_min.body [.load (.reg 0), .load (.reg 1)]) <|
    .seq (.store (.reg 2) (.reg 3)) <|
    .seq (.call (some 4) glm_min.locals glm_min.nregs glm_min.body [.load (.off (.reg 0) 1), .load (.off (.reg 1) 1)]) <|
    .store (.off (.reg 2) 1) (.reg 4)

/-- `glm_vec2_clamp`: include/cglm/vec2.h:677-682. -/
def glm_vec2_clamp : Fn where
  locals := []
  nregs := 2
  body := 
    .seq (.call (some 3) glm_clamp.locals glm_clamp.nregs glm_clamp.body [.load (.reg 0), .reg 1, .reg 2]) <|
    .seq (.store (.reg 0) (.reg 3)) <|
    .seq (.call (some 4) glm_clamp.locals glm_clamp.nregs glm_clamp.body [.load (.off (.reg 0) 1), .reg 1, .reg 2]) <|
    .store (.off (.reg 0) 1) (.reg 4)

/-- `glm_vec2_lerp`: include/cglm/vec2.h:712-722. -/
def glm_vec2_lerp : Fn where
  locals := [2, 2]
  nregs := 1
  body := 
    .seq (.call (some 4) glm_clamp_zo.locals glm_clamp_zo.nregs glm_clamp_zo.body [.reg 2]) <|
    .seq (.call none glm_vec2_fill.locals glm_vec2_fill.nregs glm_vec2_fill.body [.loc 0, .reg 4]) <|
    .seq (.call none glm_vec2_sub.locals glm_vec2_sub.nregs glm_vec2_sub.body [.reg 1, .reg 0, .loc 1]) <|
    .seq (.call none glm_vec2_mul.locals glm_vec2_mul.nregs glm_vec2_mul.body [.loc 0, .loc 1, .loc 1]) <|
    .call none glm_vec2_add.locals glm_vec2_add.nregs glm_vec2_add.body [.reg 0, .loc 1, .reg 3]

/-- `glm_vec2_step`: include/cglm/vec2.h:731-736. -/
def glm_vec2_step : Fn where
  locals := []
  nregs := 2
  body := 
    .seq (.call (some 3) glm_step.locals glm_step.nregs glm_step.body [.load (.reg 0), .load (.reg 1)]) <|
    .seq (.store (.reg 2) (.reg 3)) <|
    .seq (.call (some 4) glm_step.locals glm_step.nregs glm_step.body [.load (.off (.reg 0) 1), .load (.off (.reg 1) 1)]) <|
    .store (.off (.reg 2) 1) (.reg 4)

/-- `glm_vec2_make`: include/cglm/vec2.h:744-748. -/
def glm_vec2_make : Fn where
  locals := []
  nregs := 0
  body := 
    .seq (.store (.reg 1) (.load (.reg 0))) <|
    .store (.off (.reg 1) 1) (.load (.off (.reg 0) 1))

/-- `glm_vec2_reflect`: include/cglm/vec2.h:757-763. -/
def glm_vec2_reflect : Fn where
  locals := [2]
  nregs := 1
  body := 
    .seq (.call (some 3) glm_vec2_dot.locals glm_vec2_dot.nregs glm_vec2_dot.body [.reg 0, .reg 1]) <|
    .seq (.call none glm_vec2_scale.locals glm_vec2_scale.nregs glm_vec2_scale.body [.reg 1, .f2 .mul (.flit 2) (.reg 3), .loc 0]) <|
    .call none glm_vec2_sub.locals glm_vec2_sub.nregs glm_vec2_sub.body [.reg 0, .loc 0, .reg 2]

/-- `glm_vec2_refract`: include/cglm/vec2.h:779-796. -/
def glm_vec2_refract : Fn where
  locals := []
  nregs := 4
  body := 
    .seq (.call (some 7) glm_vec2_dot.locals glm_vec2_dot.nregs glm_vec2_dot.body [.reg 1, .reg 0]) <|
    .seq (.set 4 (.reg 7)) <|
    .seq (.set 5 (.f2 .mul (.reg 2) (.reg 4))) <|
    .seq (.set 6 (.f2 .add (.f2 .sub (.flit 1) (.f2 .mul (.reg 2) (.reg 2))) (.f2 .mul (.reg 5) (.reg 5)))) <|
    .seq (.ite (.fc .lt (.reg 6) (.flit 0)) (.seq (.call none glm_vec2_zero.locals glm_vec2_zero.nregs glm_vec2_zero.body [.reg 3]) (.ret (.blit false))) (.skip)) <|
    .seq (.call none glm_vec2_scale.locals glm_vec2_scale.nregs glm_vec2_scale.body [.reg 0, .reg 2, .reg 3]) <|
    .seq (.call none glm_vec2_mulsubs.locals glm_vec2_mulsubs.nregs glm_vec2_mulsubs.body [.reg 1, .f2 .add (.reg 5) (.f1 .sqrtf (.reg 6)), .reg 3]) <|
    .ret (.blit true)

end Cglm.C

end Vec2

section Vec3Ext

/- Generated from include/cglm/vec3-ext.h by tools/memgen.py (memory semantics); do not edit by hand. -/

set_option maxRecDepth 10000

namespace Cglm.C
open CMem

/-- `glm_vec3_broadcast`: include/cglm/vec3-ext.h:49-53. -/
def glm_vec3_broadcast : Fn where
  locals := []
  nregs := 0
  body := 
    .seq (.store (.off (.reg 1) 2) (.reg 0)) <|
    .seq (.store (.off (.reg 1) 1) (.load (.off (.reg 1) 2))) <|
    .store (.reg 1) (.load (.off (.reg 1) 1))

/-- `glm_vec3_fill`: include/cglm/vec3-ext.h:61-65. -/
def glm_vec3_fill : Fn where
  locals := []
  nregs := 0
  body := 
    .seq (.store (.off (.reg 0) 2) (.reg 1)) <|
    .seq (.store (.off (.reg 0) 1) (.load (.off (.reg 0) 2))) <|
    .store (.reg 0) (.load (.off (.reg 0) 1))

/-- `glm_vec3_eq`: include/cglm/vec3-ext.h:73-77. -/
def glm_vec3_eq : Fn where
  locals := []
  nregs := 0
  body := .ret (.and (.and (.fc .eq (.load (.reg 0)) (.reg 1)) (.fc .eq (.load (.reg 0)) (.load (.off (.reg 0) 1)))) (.fc .eq (.load (.reg 0)) (.load (.off (.reg 0) 2))))

/-- `glm_vec3_eq_eps`: include/cglm/vec3-ext.h:85-91. -/
def glm_vec3_eq_eps : Fn where
  locals := []
  nregs := 0
  body := .ret (.and (.and (.fc .le (.f1 .fabsf (.f2 .sub (.load (.reg 0)) (.reg 1))) (.flit 0.00001)) (.fc .le (.f1 .fabsf (.f2 .sub (.load (.off (.reg 0) 1)) (.reg 1))) (.flit 0.00001))) (.fc .le (.f1 .fabsf (.f2 .sub (.load (.off (.reg 0) 2)) (.reg 1))) (.flit 0.00001)))

/-- `glm_vec3_eq_all`: include/cglm/vec3-ext.h:98-102. -/
def glm_vec3_eq_all : Fn where
  locals := []
  nregs := 1
  body := 
    .seq (.call (some 1) glm_vec3_eq_eps.locals glm_vec3_eq_eps.nregs glm_vec3_eq_eps.body [.reg 0, .load (.reg 0)]) <|
    .ret (.reg 1)

/-- `glm_vec3_eqv`: include/cglm/vec3-ext.h:110-116. -/
def glm_vec3_eqv : Fn where
  locals := []
  nregs := 0
  body := .ret (.and (.and (.fc .eq (.load (.reg 0)) (.load (.reg 1))) (.fc .eq (.load (.off (.reg 0) 1)) (.load (.off (.reg 1) 1)))) (.fc .eq (.load (.off (.reg 0) 2)) (.load (.off (.reg 1) 2))))

/-- `glm_vec3_eqv_eps`: include/cglm/vec3-ext.h:124-130. -/
def glm_vec3_eqv_eps : Fn where
  locals := []
  nregs := 0
  body := .ret (.and (.and (.fc .le (.f1 .fabsf (.f2 .sub (.load (.reg 0)) (.load (.reg 1)))) (.flit 0.00001)) (.fc .le (.f1 .fabsf (.f2 .sub (.load (.off (.reg 0) 1)) (.load (.off (.reg 1) 1)))) (.flit 0.00001))) (.fc .le (.f1 .fabsf (.f2 .sub (.load (.off (.reg 0) 2)) (.load (.off (.reg 1) 2)))) (.flit 0.00001)))

/-- `glm_vec3_max`: include/cglm/vec3-ext.h:137-149. -/
def glm_vec3_max : Fn where
  locals := []
  nregs := 1
  body := 
    .seq (.set 1 (.load (.reg 0))) <|
    .seq (.ite (.fc .lt (.reg 1) (.load (.off (.reg 0) 1))) (.set 1 (.load (.off (.reg 0) 1))) (.skip)) <|
    .seq (.ite (.fc .lt (.reg 1) (.load (.off (.reg 0) 2))) (.set 1 (.load (.off (.reg 0) 2))) (.skip)) <|
    .ret (.reg 1)

/-- `glm_vec3_min`: include/cglm/vec3-ext.h:156-168. -/
def glm_vec3_min : Fn where
  locals := []
  nregs := 1
  body := 
    .seq (.set 1 (.load (.reg 0))) <|
    .seq (.ite (.fc .lt (.load (.off (.reg 0) 1)) (.reg 1)) (.set 1 (.load (.off (.reg 0) 1))) (.skip)) <|
    .seq (.ite (.fc .lt (.load (.off (.reg 0) 2)) (.reg 1)) (.set 1 (.load (.off (.reg 0) 2))) (.skip)) <|
    .ret (.reg 1)

/-- `glm_vec3_isnan`: include/cglm/vec3-ext.h:176-184. -/
def glm_vec3_isnan : Fn where
  locals := []
  nregs := 0
  body := .ret (.or (.or (.fp .isnan (.load (.reg 0))) (.fp .isnan (.load (.off (.reg 0) 1)))) (.fp .isnan (.load (.off (.reg 0) 2))))

/-- `glm_vec3_isinf`: include/cglm/vec3-ext.h:192-200. -/
def glm_vec3_isinf : Fn where
  locals := []
  nregs := 0
  body := .ret (.or (.or (.fp .isinf (.load (.reg 0))) (.fp .isinf (.load (.off (.reg 0) 1)))) (.fp .isinf (.load (.off (.reg 0) 2))))

/-- `glm_vec3_isvalid`: include/cglm/vec3-ext.h:208-212.  Simplified: the right operand of `&&`/`||` is always evaluated. -/
def glm_vec3_isvalid : Fn where
  locals := []
  nregs := 2
  body := 
    .seq (.call (some 1) glm_vec3_isnan.locals glm_vec3_isnan.nregs glm_vec3_isnan.body [.reg 0]) <|
    .seq (.call (some 2) glm_vec3_isinf.locals glm_vec3_isinf.nregs glm_vec3_isinf.body [.reg 0]) <|
    .ret (.and (.not (.reg 1)) (.not (.reg 2)))

/-- `glm_vec3_sign`: include/cglm/vec3-ext.h:221-227. -/
def glm_vec3_sign : Fn where
  locals := []
  nregs := 3
  body := 
    .seq (.call (some 2) glm_signf.locals glm_signf.nregs glm_signf.body [.load (.reg 0)]) <|
    .seq (.store (.reg 1) (.reg 2)) <|
    .seq (.call (some 3) glm_signf.locals glm_signf.nregs glm_signf.body [.load (.off (.reg 0) 1)]) <|
    .seq (.store (.off (.reg 1) 1) (.reg 3)) <|
    .seq (.call (some 4) glm_signf.locals glm_signf.nregs glm_signf.body [.load (.off (.reg 0) 2)]) <|
    .store (.off (.reg 1) 2) (.reg 4)

/-- `glm_vec3_abs`: include/cglm/vec3-ext.h:235-241. -/
def glm_vec3_abs : Fn where
  locals := []
  nregs := 0
  body := 
    .seq (.store (.reg 1) (.f1 .fabsf (.load (.reg 0)))) <|
    .seq (.store (.off (.reg 1) 1) (.f1 .fabsf (.load (.off (.reg 0) 1)))) <|
    .store (.off (.reg 1) 2) (.f1 .fabsf (.load (.off (.reg 0) 2)))

/-- `glm_vec3_fract`: include/cglm/vec3-ext.h:249-255. -/
def glm_vec3_fract : Fn where
  locals := []
  nregs := 0
  body := 
    .seq (.store (.reg 1) (.f2 .fminf (.f2 .sub (.load (.reg 0)) (.f1 .floorf (.load (.reg 0)))) (.flit 0.999999940395355224609375))) <|
    .seq (.store (.off (.reg 1) 1) (.f2 .fminf (.f2 .sub (.load (.off (.reg 0) 1)) (.f1 .floorf (.load (.off (.reg 0) 1)))) (.flit 0.999999940395355224609375))) <|
    .store (.off (.reg 1) 2) (.f2 .fminf (.f2 .sub (.load (.off (.reg 0) 2)) (.f1 .floorf (.load (.off (.reg 0) 2)))) (.flit 0.999999940395355224609375))

/-- `glm_vec3_floor`: include/cglm/vec3-ext.h:263-269. -/
def glm_vec3_floor : Fn where
  locals := []
  nregs := 0
  body := 
    .seq (.store (.reg 1) (.f1 .floorf (.load (.reg 0)))) <|
    .seq (.store (.off (.reg 1) 1) (.f1 .floorf (.load (.off (.reg 0) 1)))) <|
    .store (.off (.reg 1) 2) (.f1 .floorf (.load (.off (.reg 0) 2)))

/-- `glm_vec3_mods`: include/cglm/vec3-ext.h:278-284. -/
def glm_vec3_mods : Fn where
  locals := []
  nregs := 0
  body := 
    .seq (.store (.reg 2) (.f2 .fmodf (.load (.reg 0)) (.reg 1))) <|
    .seq (.store (.off (.reg 2) 1) (.f2 .fmodf (.load (.off (.reg 0) 1)) (.reg 1))) <|
    .store (.off (.reg 2) 2) (.f2 .fmodf (.load (.off (.reg 0) 2)) (.reg 1))

/-- `glm_vec3_steps`: include/cglm/vec3-ext.h:294-300. -/
def glm_vec3_steps : Fn where
  locals := []
  nregs := 3
  body := 
    .seq (.call (some 3) glm_step.locals glm_step.nregs glm_step.body [.reg 0, .load (.reg 1)]) <|
    .seq (.store (.reg 2) (.reg 3)) <|
    .seq (.call (some 4) glm_step.locals glm_step.nregs glm_step.body [.reg 0, .load (.off (.reg 1) 1)]) <|
    .seq (.store (.off (.reg 2) 1) (.reg 4)) <|
    .seq (.call (some 5) glm_step.locals glm_step.nregs glm_step.body [.reg 0, .load (.off (.reg 1) 2)]) <|
    .store (.off (.reg 2) 2) (.reg 5)

/-- `glm_vec3_stepr`: include/cglm/vec3-ext.h:310-316. -/
def glm_vec3_stepr : Fn where
  locals := []
  nregs := 3
  body := 
    .seq (.call (some 3) glm_step.locals glm_step.nregs glm_step.body [.load (.reg 0), .reg 1]) <|
    .seq (.store (.reg 2) (.reg 3)) <|
    .seq (.call (some 4) glm_step.locals glm_step.nregs glm_step.body [.load (.off (.reg 0) 1), .reg 1]) <|
    .seq (.store (.off (.reg 2) 1) (.reg 4)) <|
    .seq (.call (some 5) glm_step.locals glm_step.nregs glm_step.body [.load (.off (.reg 0) 2), .reg 1]) <|
    .store (.off (.reg 2) 2) (.reg 5)

/-- `glm_vec3_hadd`: include/cglm/vec3-ext.h:325-329. -/
def glm_vec3_hadd : Fn where
  locals := []
  nregs := 0
  body := .ret (.f2 .add (.f2 .add (.load (.reg 0)) (.load (.off (.reg 0) 1))) (.load (.off (.reg 0) 2)))

/-- `glm_vec3_sqrt`: include/cglm/vec3-ext.h:337-343. -/
def glm_vec3_sqrt : Fn where
  locals := []
  nregs := 0
  body := 
    .seq (.store (.reg 1) (.f1 .sqrtf (.load (.reg 0)))) <|
    .seq (.store (.off (.reg 1) 1) (.f1 .sqrtf (.load (.off (.reg 0) 1)))) <|
    .store (.off (.reg 1) 2) (.f1 .sqrtf (.load (.off (.reg 0) 2)))

end Cglm.C

end Vec3Ext

section Vec4Ext

/- Generated from include/cglm/vec4-ext.h by tools/memgen.py (memory semantics); do not edit by hand. -/

set_option maxRecDepth 10000

namespace Cglm.C
open CMem

/-- `glm_vec4_broadcast`: include/cglm/vec4-ext.h:49-59. -/
def glm_vec4_broadcast : Fn where
  locals := []
  nregs := 0
  body := 
    .seq (.store (.off (.reg 1) 3) (.reg 0)) <|
    .seq (.store (.off (.reg 1) 2) (.load (.off (.reg 1) 3))) <|
    .seq (.store (.off (.reg 1) 1) (.load (.off (.reg 1) 2))) <|
    .store (.reg 1) (.load (.off (.reg 1) 1))

/-- `glm_vec4_fill`: include/cglm/vec4-ext.h:67-77. -/
def glm_vec4_fill : Fn where
  locals := []
  nregs := 0
  body := 
    .seq (.store (.off (.reg 0) 3) (.reg 1)) <|
    .seq (.store (.off (.reg 0) 2) (.load (.off (.reg 0) 3))) <|
    .seq (.store (.off (.reg 0) 1) (.load (.off (.reg 0) 2))) <|
    .store (.reg 0) (.load (.off (.reg 0) 1))

/-- `glm_vec4_eq`: include/cglm/vec4-ext.h:85-92. -/
def glm_vec4_eq : Fn where
  locals := []
  nregs := 0
  body := .ret (.and (.and (.and (.fc .eq (.load (.reg 0)) (.reg 1)) (.fc .eq (.load (.reg 0)) (.load (.off (.reg 0) 1)))) (.fc .eq (.load (.reg 0)) (.load (.off (.reg 0) 2)))) (.fc .eq (.load (.reg 0)) (.load (.off (.reg 0) 3))))

/-- `glm_vec4_eq_eps`: include/cglm/vec4-ext.h:100-107. -/
def glm_vec4_eq_eps : Fn where
  locals := []
  nregs := 0
  body := .ret (.and (.and (.and (.fc .le (.f1 .fabsf (.f2 .sub (.load (.reg 0)) (.reg 1))) (.flit 0.00001)) (.fc .le (.f1 .fabsf (.f2 .sub (.load (.off (.reg 0) 1)) (.reg 1))) (.flit 0.00001))) (.fc .le (.f1 .fabsf (.f2 .sub (.load (.off (.reg 0) 2)) (.reg 1))) (.flit 0.00001))) (.fc .le (.f1 .fabsf (.f2 .sub (.load (.off (.reg 0) 3)) (.reg 1))) (.flit 0.00001)))

/-- `glm_vec4_eq_all`: include/cglm/vec4-ext.h:114-118. -/
def glm_vec4_eq_all : Fn where
  locals := []
  nregs := 1
  body := 
    .seq (.call (some 1) glm_vec4_eq_eps.locals glm_vec4_eq_eps.nregs glm_vec4_eq_eps.body [.reg 0, .load (.reg 0)]) <|
    .ret (.reg 1)

/-- `glm_vec4_eqv`: include/cglm/vec4-ext.h:126-133. -/
def glm_vec4_eqv : Fn where
  locals := []
  nregs := 0
  body := .ret (.and (.and (.and (.fc .eq (.load (.reg 0)) (.load (.reg 1))) (.fc .eq (.load (.off (.reg 0) 1)) (.load (.off (.reg 1) 1)))) (.fc .eq (.load (.off (.reg 0) 2)) (.load (.off (.reg 1) 2)))) (.fc .eq (.load (.off (.reg 0) 3)) (.load (.off (.reg 1) 3))))

/-- `glm_vec4_eqv_eps`: include/cglm/vec4-ext.h:141-148. -/
def glm_vec4_eqv_eps : Fn where
  locals := []
  nregs := 0
  body := .ret (.and (.and (.and (.fc .le (.f1 .fabsf (.f2 .sub (.load (.reg 0)) (.load (.reg 1)))) (.flit 0.00001)) (.fc .le (.f1 .fabsf (.f2 .sub (.load (.off (.reg 0) 1)) (.load (.off (.reg 1) 1)))) (.flit 0.00001))) (.fc .le (.f1 .fabsf (.f2 .sub (.load (.off (.reg 0) 2)) (.load (.off (.reg 1) 2)))) (.flit 0.00001))) (.fc .le (.f1 .fabsf (.f2 .sub (.load (.off (.reg 0) 3)) (.load (.off (.reg 1) 3)))) (.flit 0.00001)))

/-- `glm_vec4_max`: include/cglm/vec4-ext.h:155-165. -/
def glm_vec4_max : Fn where
  locals := []
  nregs := 2
  body := 
    .seq (.call (some 2) glm_vec3_max.locals glm_vec3_max.nregs glm_vec3_max.body [.reg 0]) <|
    .seq (.set 1 (.reg 2)) <|
    .seq (.ite (.fc .lt (.reg 1) (.load (.off (.reg 0) 3))) (.set 1 (.load (.off (.reg 0) 3))) (.skip)) <|
    .ret (.reg 1)

/-- `glm_vec4_min`: include/cglm/vec4-ext.h:172-182. -/
def glm_vec4_min : Fn where
  locals := []
  nregs := 2
  body := 
    .seq (.call (some 2) glm_vec3_min.locals glm_vec3_min.nregs glm_vec3_min.body [.reg 0]) <|
    .seq (.set 1 (.reg 2)) <|
    .seq (.ite (.fc .lt (.load (.off (.reg 0) 3)) (.reg 1)) (.set 1 (.load (.off (.reg 0) 3))) (.skip)) <|
    .ret (.reg 1)

/-- `glm_vec4_isnan`: include/cglm/vec4-ext.h:190-198. -/
def glm_vec4_isnan : Fn where
  locals := []
  nregs := 0
  body := .ret (.or (.or (.or (.fp .isnan (.load (.reg 0))) (.fp .isnan (.load (.off (.reg 0) 1)))) (.fp .isnan (.load (.off (.reg 0) 2)))) (.fp .isnan (.load (.off (.reg 0) 3))))

/-- `glm_vec4_isinf`: include/cglm/vec4-ext.h:206-214. -/
def glm_vec4_isinf : Fn where
  locals := []
  nregs := 0
  body := .ret (.or (.or (.or (.fp .isinf (.load (.reg 0))) (.fp .isinf (.load (.off (.reg 0) 1)))) (.fp .isinf (.load (.off (.reg 0) 2)))) (.fp .isinf (.load (.off (.reg 0) 3))))

/-- `glm_vec4_isvalid`: include/cglm/vec4-ext.h:222-226.  Simplified: the right operand of `&&`/`||` is always evaluated. -/
def glm_vec4_isvalid : Fn where
  locals := []
  nregs := 2
  body := 
    .seq (.call (some 1) glm_vec4_isnan.locals glm_vec4_isnan.nregs glm_vec4_isnan.body [.reg 0]) <|
    .seq (.call (some 2) glm_vec4_isinf.locals glm_vec4_isinf.nregs glm_vec4_isinf.body [.reg 0]) <|
    .ret (.and (.not (.reg 1)) (.not (.reg 2)))

/-- `glm_vec4_sign`: include/cglm/vec4-ext.h:235-255. -/
def glm_vec4_sign : Fn where
  locals := []
  nregs := 4
  body := 
    .seq (.call (some 2) glm_signf.locals glm_signf.nregs glm_signf.body [.load (.reg 0)]) <|
    .seq (.store (.reg 1) (.reg 2)) <|
    .seq (.call (some 3) glm_signf.locals glm_signf.nregs glm_signf.body [.load (.off (.reg 0) 1)]) <|
    .seq (.store (.off (.reg 1) 1) (.reg 3)) <|
    .seq (.call (some 4) glm_signf.locals glm_signf.nregs glm_signf.body [.load (.off (.reg 0) 2)]) <|
    .seq (.store (.off (.reg 1) 2) (.reg 4)) <|
    .seq (.call (some 5) glm_signf.locals glm_signf.nregs glm_signf.body [.load (.off (.reg 0) 3)]) <|
    .store (.off (.reg 1) 3) (.reg 5)

/-- `glm_vec4_abs`: include/cglm/vec4-ext.h:263-278. -/
def glm_vec4_abs : Fn where
  locals := []
  nregs := 0
  body := 
    .seq (.store (.reg 1) (.f1 .fabsf (.load (.reg 0)))) <|
    .seq (.store (.off (.reg 1) 1) (.f1 .fabsf (.load (.off (.reg 0) 1)))) <|
    .seq (.store (.off (.reg 1) 2) (.f1 .fabsf (.load (.off (.reg 0) 2)))) <|
    .store (.off (.reg 1) 3) (.f1 .fabsf (.load (.off (.reg 0) 3)))

/-- `glm_vec4_fract`: include/cglm/vec4-ext.h:286-293. -/
def glm_vec4_fract : Fn where
  locals := []
  nregs := 0
  body := 
    .seq (.store (.reg 1) (.f2 .fminf (.f2 .sub (.load (.reg 0)) (.f1 .floorf (.load (.reg 0)))) (.flit 0.999999940395355224609375))) <|
    .seq (.store (.off (.reg 1) 1) (.f2 .fminf (.f2 .sub (.load (.off (.reg 0) 1)) (.f1 .floorf (.load (.off (.reg 0) 1)))) (.flit 0.999999940395355224609375))) <|
    .seq (.store (.off (.reg 1) 2) (.f2 .fminf (.f2 .sub (.load (.off (.reg 0) 2)) (.f1 .floorf (.load (.off (.reg 0) 2)))) (.flit 0.999999940395355224609375))) <|
    .store (.off (.reg 1) 3) (.f2 .fminf (.f2 .sub (.load (.off (.reg 0) 3)) (.f1 .floorf (.load (.off (.reg 0) 3)))) (.flit 0.999999940395355224609375))

/-- `glm_vec4_floor`: include/cglm/vec4-ext.h:301-308. -/
def glm_vec4_floor : Fn where
  locals := []
  nregs := 0
  body := 
    .seq (.store (.reg 1) (.f1 .floorf (.load (.reg 0)))) <|
    .seq (.store (.off (.reg 1) 1) (.f1 .floorf (.load (.off (.reg 0) 1)))) <|
    .seq (.store (.off (.reg 1) 2) (.f1 .floorf (.load (.off (.reg 0) 2)))) <|
    .store (.off (.reg 1) 3) (.f1 .floorf (.load (.off (.reg 0) 3)))

/-- `glm_vec4_mods`: include/cglm/vec4-ext.h:317-324. -/
def glm_vec4_mods : Fn where
  locals := []
  nregs := 0
  body := 
    .seq (.store (.reg 2) (.f2 .fmodf (.load (.reg 0)) (.reg 1))) <|
    .seq (.store (.off (.reg 2) 1) (.f2 .fmodf (.load (.off (.reg 0) 1)) (.reg 1))) <|
    .seq (.store (.off (.reg 2) 2) (.f2 .fmodf (.load (.off (.reg 0) 2)) (.reg 1))) <|
    .store (.off (.reg 2) 3) (.f2 .fmodf (.load (.off (.reg 0) 3)) (.reg 1))

/-- `glm_vec4_steps`: include/cglm/vec4-ext.h:334-341. -/
def glm_vec4_steps : Fn where
  locals := []
  nregs := 4
  body := 
    .seq (.call (some 3) glm_step.locals glm_step.nregs glm_step.body [.reg 0, .load (.reg 1)]) <|
    .seq (.store (.reg 2) (.reg 3)) <|
    .seq (.call (some 4) glm_step.locals glm_step.nregs glm_step.body [.reg 0, .load (.off (.reg 1) 1)]) <|
    .seq (.store (.off (.reg 2) 1) (.reg 4)) <|
    .seq (.call (some 5) glm_step.locals glm_step.nregs glm_step.body [.reg 0, .load (.off (.reg 1) 2)]) <|
    .seq (.store (.off (.reg 2) 2) (.reg 5)) <|
    .seq (.call (some 6) glm_step.locals glm_step.nregs glm_step.body [.reg 0, .load (.off (.reg 1) 3)]) <|
    .store (.off (.reg 2) 3) (.reg 6)

/-- `glm_vec4_stepr`: include/cglm/vec4-ext.h:351-358. -/
def glm_vec4_stepr : Fn where
  locals := []
  nregs := 4
  body := 
    .seq (.call (some 3) glm_step.locals glm_step.nregs glm_step.body [.load (.reg 0), .reg 1]) <|
    .seq (.store (.reg 2) (.reg 3)) <|
    .seq (.call (some 4) glm_step.locals glm_step.nregs glm_step.body [.load (.off (.reg 0) 1), .reg 1]) <|
    .seq (.store (.off (.reg 2) 1) (.reg 4)) <|
    .seq (.call (some 5) glm_step.locals glm_step.nregs glm_step.body [.load (.off (.reg 0) 2), .reg 1]) <|
    .seq (.store (.off (.reg 2) 2) (.reg 5)) <|
    .seq (.call (some 6) glm_step.locals glm_step.nregs glm_step.body [.load (.off (.reg 0) 3), .reg 1]) <|
    .store (.off (.reg 2) 3) (.reg 6)

/-- `glm_vec4_hadd`: include/cglm/vec4-ext.h:367-377. -/
def glm_vec4_hadd : Fn where
  locals := []
  nregs := 0
  body := .ret (.f2 .add (.f2 .add (.f2 .add (.load (.reg 0)) (.load (.off (.reg 0) 1))) (.load (.off (.reg 0) 2))) (.load (.off (.reg 0) 3)))

/-- `glm_vec4_sqrt`: include/cglm/vec4-ext.h:385-398. -/
def glm_vec4_sqrt : Fn where
  locals := []
  nregs := 0
  body := 
    .seq (.store (.reg 1) (.f1 .sqrtf (.load (.reg 0)))) <|
    .seq (.store (.off (.reg 1) 1) (.f1 .sqrtf (.load (.off (.reg 0) 1)))) <|
    .seq (.store (.off (.reg 1) 2) (.f1 .sqrtf (.load (.off (.reg 0) 2)))) <|
    .store (.off (.reg 1) 3) (.f1 .sqrtf (.load (.off (.reg 0) 3)))

end Cglm.C

end Vec4Ext

section Vec4

/- Generated from include/cglm/vec4.h by tools/memgen.py (memory semantics); do not edit by hand. -/

set_option maxRecDepth 10000

namespace Cglm.C
open CMem

/-- `glm_vec4`: include/cglm/vec4.h:118-125. -/
def glm_vec4 : Fn where
  locals := []
  nregs := 0
  body := 
    .seq (.store (.reg 2) (.load (.reg 0))) <|
    .seq (.store (.off (.reg 2) 1) (.load (.off (.reg 0) 1))) <|
    .seq (.store (.off (.reg 2) 2) (.load (.off (.reg 0) 2))) <|
    .store (.off (.reg 2) 3) (.reg 1)

/-- `glm_vec4_copy3`: include/cglm/vec4.h:133-139. -/
def glm_vec4_copy3 : Fn where
  locals := []
  nregs := 0
  body := 
    .seq (.store (.reg 1) (.load (.reg 0))) <|
    .seq (.store (.off (.reg 1) 1) (.load (.off (.reg 0) 1))) <|
    .store (.off (.reg 1) 2) (.load (.off (.reg 0) 2))

/-- `glm_vec4_copy`: include/cglm/vec4.h:147-162. -/
def glm_vec4_copy : Fn where
  locals := []
  nregs := 0
  body := 
    .seq (.store (.reg 1) (.load (.reg 0))) <|
    .seq (.store (.off (.reg 1) 1) (.load (.off (.reg 0) 1))) <|
    .seq (.store (.off (.reg 1) 2) (.load (.off (.reg 0) 2))) <|
    .store (.off (.reg 1) 3) (.load (.off (.reg 0) 3))

/-- `glm_vec4_ucopy`: include/cglm/vec4.h:172-184. -/
def glm_vec4_ucopy : Fn where
  locals := []
  nregs := 0
  body := 
    .seq (.store (.reg 1) (.load (.reg 0))) <|
    .seq (.store (.off (.reg 1) 1) (.load (.off (.reg 0) 1))) <|
    .seq (.store (.off (.reg 1) 2) (.load (.off (.reg 0) 2))) <|
    .store (.off (.reg 1) 3) (.load (.off (.reg 0) 3))

/-- `glm_vec4_zero`: include/cglm/vec4.h:191-206. -/
def glm_vec4_zero : Fn where
  locals := []
  nregs := 0
  body := 
    .seq (.store (.reg 0) (.flit 0)) <|
    .seq (.store (.off (.reg 0) 1) (.flit 0)) <|
    .seq (.store (.off (.reg 0) 2) (.flit 0)) <|
    .store (.off (.reg 0) 3) (.flit 0)

/-- `glm_vec4_one`: include/cglm/vec4.h:213-228. -/
def glm_vec4_one : Fn where
  locals := []
  nregs := 0
  body := 
    .seq (.store (.reg 0) (.flit 1)) <|
    .seq (.store (.off (.reg 0) 1) (.flit 1)) <|
    .seq (.store (.off (.reg 0) 2) (.flit 1)) <|
    .store (.off (.reg 0) 3) (.flit 1)

/-- `glm_vec4_dot`: include/cglm/vec4.h:238-246. -/
def glm_vec4_dot : Fn where
  locals := []
  nregs := 0
  body := .ret (.f2 .add (.f2 .add (.f2 .add (.f2 .mul (.load (.reg 0)) (.load (.reg 1))) (.f2 .mul (.load (.off (.reg 0) 1)) (.load (.off (.reg 1) 1)))) (.f2 .mul (.load (.off (.reg 0) 2)) (.load (.off (.reg 1) 2)))) (.f2 .mul (.load (.off (.reg 0) 3)) (.load (.off (.reg 1) 3))))

/-- `glm_vec4_norm2`: include/cglm/vec4.h:259-263. -/
def glm_vec4_norm2 : Fn where
  locals := []
  nregs := 1
  body := 
    .seq (.call (some 1) glm_vec4_dot.locals glm_vec4_dot.nregs glm_vec4_dot.body [.reg 0, .reg 0]) <|
    .ret (.reg 1)

/-- `glm_vec4_norm`: include/cglm/vec4.h:273-281. -/
def glm_vec4_norm : Fn where
  locals := []
  nregs := 1
  body := 
    .seq (.call (some 1) glm_vec4_dot.locals glm_vec4_dot.nregs glm_vec4_dot.body [.reg 0, .reg 0]) <|
    .ret (.f1 .sqrtf (.reg 1))

/-- `glm_vec4_norm_one`: include/cglm/vec4.h:297-307. -/
def glm_vec4_norm_one : Fn where
  locals := [4]
  nregs := 1
  body := 
    .seq (.call none glm_vec4_abs.locals glm_vec4_abs.nregs glm_vec4_abs.body [.reg 0, .loc 0]) <|
    .seq (.call (some 1) glm_vec4_hadd.locals glm_vec4_hadd.nregs glm_vec4_hadd.body [.loc 0]) <|
    .ret (.reg 1)

/-- `glm_vec4_norm_inf`: include/cglm/vec4.h:322-332. -/
def glm_vec4_norm_inf : Fn where
  locals := [4]
  nregs := 1
  body := 
    .seq (.call none glm_vec4_abs.locals glm_vec4_abs.nregs glm_vec4_abs.body [.reg 0, .loc 0]) <|
    .seq (.call (some 1) glm_vec4_max.locals glm_vec4_max.nregs glm_vec4_max.body [.loc 0]) <|
    .ret (.reg 1)

/-- `glm_vec4_add`: include/cglm/vec4.h:341-356. -/
def glm_vec4_add : Fn where
  locals := []
  nregs := 0
  body := 
    .seq (.store (.reg 2) (.f2 .add (.load (.reg 0)) (.load (.reg 1)))) <|
    .seq (.store (.off (.reg 2) 1) (.f2 .add (.load (.off (.reg 0) 1)) (.load (.off (.reg 1) 1)))) <|
    .seq (.store (.off (.reg 2) 2) (.f2 .add (.load (.off (.reg 0) 2)) (.load (.off (.reg 1) 2)))) <|
    .store (.off (.reg 2) 3) (.f2 .add (.load (.off (.reg 0) 3)) (.load (.off (.reg 1) 3)))

/-- `glm_vec4_adds`: include/cglm/vec4.h:365-380. -/
def glm_vec4_adds : Fn where
  locals := []
  nregs := 0
  body := 
    .seq (.store (.reg 2) (.f2 .add (.load (.reg 0)) (.reg 1))) <|
    .seq (.store (.off (.reg 2) 1) (.f2 .add (.load (.off (.reg 0) 1)) (.reg 1))) <|
    .seq (.store (.off (.reg 2) 2) (.f2 .add (.load (.off (.reg 0) 2)) (.reg 1))) <|
    .store (.off (.reg 2) 3) (.f2 .add (.load (.off (.reg 0) 3)) (.reg 1))

/-- `glm_vec4_sub`: include/cglm/vec4.h:389-404. -/
def glm_vec4_sub : Fn where
  locals := []
  nregs := 0
  body := 
    .seq (.store (.reg 2) (.f2 .sub (.load (.reg 0)) (.load (.reg 1)))) <|
    .seq (.store (.off (.reg 2) 1) (.f2 .sub (.load (.off (.reg 0) 1)) (.load (.off (.reg 1) 1)))) <|
    .seq (.store (.off (.reg 2) 2) (.f2 .sub (.load (.off (.reg 0) 2)) (.load (.off (.reg 1) 2)))) <|
    .store (.off (.reg 2) 3) (.f2 .sub (.load (.off (.reg 0) 3)) (.load (.off (.reg 1) 3)))

/-- `glm_vec4_subs`: include/cglm/vec4.h:413-428. -/
def glm_vec4_subs : Fn where
  locals := []
  nregs := 0
  body := 
    .seq (.store (.reg 2) (.f2 .sub (.load (.reg 0)) (.reg 1))) <|
    .seq (.store (.off (.reg 2) 1) (.f2 .sub (.load (.off (.reg 0) 1)) (.reg 1))) <|
    .seq (.store (.off (.reg 2) 2) (.f2 .sub (.load (.off (.reg 0) 2)) (.reg 1))) <|
    .store (.off (.reg 2) 3) (.f2 .sub (.load (.off (.reg 0) 3)) (.reg 1))

/-- `glm_vec4_mul`: include/cglm/vec4.h:437-452. -/
def glm_vec4_mul : Fn where
  locals := []
  nregs := 0
  body := 
    .seq (.store (.reg 2) (.f2 .mul (.load (.reg 0)) (.load (.reg 1)))) <|
    .seq (.store (.off (.reg 2) 1) (.f2 .mul (.load (.off (.reg 0) 1)) (.load (.off (.reg 1) 1)))) <|
    .seq (.store (.off (.reg 2) 2) (.f2 .mul (.load (.off (.reg 0) 2)) (.load (.off (.reg 1) 2)))) <|
    .store (.off (.reg 2) 3) (.f2 .mul (.load (.off (.reg 0) 3)) (.load (.off (.reg 1) 3)))

/-- `glm_vec4_scale`: include/cglm/vec4.h:461-476. -/
def glm_vec4_scale : Fn where
  locals := []
  nregs := 0
  body := 
    .seq (.store (.reg 2) (.f2 .mul (.load (.reg 0)) (.reg 1))) <|
    .seq (.store (.off (.reg 2) 1) (.f2 .mul (.load (.off (.reg 0) 1)) (.reg 1))) <|
    .seq (.store (.off (.reg 2) 2) (.f2 .mul (.load (.off (.reg 0) 2)) (.reg 1))) <|
    .store (.off (.reg 2) 3) (.f2 .mul (.load (.off (.reg 0) 3)) (.reg 1))

/-- `glm_vec4_scale_as`: include/cglm/vec4.h:485-497. -/
def glm_vec4_scale_as : Fn where
  locals := []
  nregs := 2
  body := 
    .seq (.call (some 4) glm_vec4_norm.locals glm_vec4_norm.nregs glm_vec4_norm.body [.reg 0]) <|
    .seq (.set 3 (.reg 4)) <|
    .seq (.ite (.fc .lt (.reg 3) (.flit 0.00000011920928955078125)) (.seq (.call none glm_vec4_zero.locals glm_vec4_zero.nregs glm_vec4_zero.body [.reg 2]) (.retVoid)) (.skip)) <|
    .call none glm_vec4_scale.locals glm_vec4_scale.nregs glm_vec4_scale.body [.reg 0, .f2 .div (.reg 1) (.reg 3), .reg 2]

/-- `glm_vec4_div`: include/cglm/vec4.h:506-517. -/
def glm_vec4_div : Fn where
  locals := []
  nregs := 0
  body := 
    .seq (.store (.reg 2) (.f2 .div (.load (.reg 0)) (.load (.reg 1)))) <|
    .seq (.store (.off (.reg 2) 1) (.f2 .div (.load (.off (.reg 0) 1)) (.load (.off (.reg 1) 1)))) <|
    .seq (.store (.off (.reg 2) 2) (.f2 .div (.load (.off (.reg 0) 2)) (.load (.off (.reg 1) 2)))) <|
    .store (.off (.reg 2) 3) (.f2 .div (.load (.off (.reg 0) 3)) (.load (.off (.reg 1) 3)))

/-- `glm_vec4_divs`: include/cglm/vec4.h:526-534. -/
def glm_vec4_divs : Fn where
  locals := []
  nregs := 0
  body := .call none glm_vec4_scale.locals glm_vec4_scale.nregs glm_vec4_scale.body [.reg 0, .f2 .div (.flit 1) (.reg 1), .reg 2]

/-- `glm_vec4_addadd`: include/cglm/vec4.h:545-566. -/
def glm_vec4_addadd : Fn where
  locals := []
  nregs := 0
  body := 
    .seq (.store (.reg 2) (.f2 .add (.load (.reg 2)) (.f2 .add (.load (.reg 0)) (.load (.reg 1))))) <|
    .seq (.store (.off (.reg 2) 1) (.f2 .add (.load (.off (.reg 2) 1)) (.f2 .add (.load (.off (.reg 0) 1)) (.load (.off (.reg 1) 1))))) <|
    .seq (.store (.off (.reg 2) 2) (.f2 .add (.load (.off (.reg 2) 2)) (.f2 .add (.load (.off (.reg 0) 2)) (.load (.off (.reg 1) 2))))) <|
    .store (.off (.reg 2) 3) (.f2 .add (.load (.off (.reg 2) 3)) (.f2 .add (.load (.off (.reg 0) 3)) (.load (.off (.reg 1) 3))))

/-- `glm_vec4_subadd`: include/cglm/vec4.h:577-598. -/
def glm_vec4_subadd : Fn where
  locals := []
  nregs := 0
  body := 
    .seq (.store (.reg 2) (.f2 .add (.load (.reg 2)) (.f2 .sub (.load (.reg 0)) (.load (.reg 1))))) <|
    .seq (.store (.off (.reg 2) 1) (.f2 .add (.load (.off (.reg 2) 1)) (.f2 .sub (.load (.off (.reg 0) 1)) (.load (.off (.reg 1) 1))))) <|
    .seq (.store (.off (.reg 2) 2) (.f2 .add (.load (.off (.reg 2) 2)) (.f2 .sub (.load (.off (.reg 0) 2)) (.load (.off (.reg 1) 2))))) <|
    .store (.off (.reg 2) 3) (.f2 .add (.load (.off (.reg 2) 3)) (.f2 .sub (.load (.off (.reg 0) 3)) (.load (.off (.reg 1) 3))))

/-- `glm_vec4_muladd`: include/cglm/vec4.h:609-620. -/
def glm_vec4_muladd : Fn where
  locals := []
  nregs := 0
  body := 
    .seq (.store (.reg 2) (.f2 .add (.load (.reg 2)) (.f2 .mul (.load (.reg 0)) (.load (.reg 1))))) <|
    .seq (.store (.off (.reg 2) 1) (.f2 .add (.load (.off (.reg 2) 1)) (.f2 .mul (.load (.off (.reg 0) 1)) (.load (.off (.reg 1) 1))))) <|
    .seq (.store (.off (.reg 2) 2) (.f2 .add (.load (.off (.reg 2) 2)) (.f2 .mul (.load (.off (.reg 0) 2)) (.load (.off (.reg 1) 2))))) <|
    .store (.off (.reg 2) 3) (.f2 .add (.load (.off (.reg 2) 3)) (.f2 .mul (.load (.off (.reg 0) 3)) (.load (.off (.reg 1) 3))))

/-- `glm_vec4_muladds`: include/cglm/vec4.h:631-642. -/
def glm_vec4_muladds : Fn where
  locals := []
  nregs := 0
  body := 
    .seq (.store (.reg 2) (.f2 .add (.load (.reg 2)) (.f2 .mul (.load (.reg 0)) (.reg 1)))) <|
    .seq (.store (.off (.reg 2) 1) (.f2 .add (.load (.off (.reg 2) 1)) (.f2 .mul (.load (.off (.reg 0) 1)) (.reg 1)))) <|
    .seq (.store (.off (.reg 2) 2) (.f2 .add (.load (.off (.reg 2) 2)) (.f2 .mul (.load (.off (.reg 0) 2)) (.reg 1)))) <|
    .store (.off (.reg 2) 3) (.f2 .add (.load (.off (.reg 2) 3)) (.f2 .mul (.load (.off (.reg 0) 3)) (.reg 1)))

/-- `glm_vec4_maxadd`: include/cglm/vec4.h:653-671. -/
def glm_vec4_maxadd : Fn where
  locals := []
  nregs := 4
  body := 
    .seq (.call (some 3) glm_max.locals glm_max.nregs glm_max.body [.load (.reg 0), .load (.reg 1)]) <|
    .seq (.store (.reg 2) (.f2 .add (.load (.reg 2)) (.reg 3))) <|
    .seq (.call (some 4) glm_max.locals glm_max.nregs glm_max.body [.load (.off (.reg 0) 1), .load (.off (.reg 1) 1)]) <|
    .seq (.store (.off (.reg 2) 1) (.f2 .add (.load (.off (.reg 2) 1)) (.reg 4))) <|
    .seq (.call (some 5) glm_max.locals glm_max.nregs glm_max.body [.load (.off (.reg 0) 2), .load (.off (.reg 1) 2)]) <|
    .seq (.store (.off (.reg 2) 2) (.f2 .add (.load (.off (.reg 2) 2)) (.reg 5))) <|
    .seq (.call (some 6) glm_max.locals glm_max.nregs glm_max.body [.load (.off (.reg 0) 3), .load (.off (.reg 1) 3)]) <|
    .store (.off (.reg 2) 3) (.f2 .add (.load (.off (.reg 2) 3)) (.reg 6))

/-- `glm_vec4_minadd`: include/cglm/vec4.h:682-700. -/
def glm_vec4_minadd : Fn where
  locals := []
  nregs := 4
  body := 
    .seq (.call (some 3) glm_min.locals glm_min.nregs glm_min.body [.load (.reg 0), .load (.reg 1)]) <|
    .seq (.store (.reg 2) (.f2 .add (.load (.reg 2)) (.reg 3))) <|
    .seq (.call (some 4) glm_min.locals glm_min.nregs glm_min.body [.load (.off (.reg 0) 1), .load (.off (.reg 1) 1)]) <|
    .seq (.store (.off (.reg 2) 1) (.f2 .add (.load (.off (.reg 2) 1)) (.reg 4))) <|
    .seq (.call (some 5) glm_min.locals glm_min.nregs glm_min.body [.load (.off (.reg 0) 2), .load (.off (.reg 1) 2)]) <|
    .seq (.store (.off (.reg 2) 2) (.f2 .add (.load (.off (.reg 2) 2)) (.reg 5))) <|
    .seq (.call (some 6) glm_min.locals glm_min.nregs glm_min.body [.load (.off (.reg 0) 3), .load (.off (.reg 1) 3)]) <|
    .store (.off (.reg 2) 3) (.f2 .add (.load (.off (.reg 2) 3)) (.reg 6))

/-- `glm_vec4_subsub`: include/cglm/vec4.h:711-732. -/
def glm_vec4_subsub : Fn where
  locals := []
  nregs := 0
  body := 
    .seq (.store (.reg 2) (.f2 .sub (.load (.reg 2)) (.f2 .sub (.load (.reg 0)) (.load (.reg 1))))) <|
    .seq (.store (.off (.reg 2) 1) (.f2 .sub (.load (.off (.reg 2) 1)) (.f2 .sub (.load (.off (.reg 0) 1)) (.load (.off (.reg 1) 1))))) <|
    .seq (.store (.off (.reg 2) 2) (.f2 .sub (.load (.off (.reg 2) 2)) (.f2 .sub (.load (.off (.reg 0) 2)) (.load (.off (.reg 1) 2))))) <|
    .store (.off (.reg 2) 3) (.f2 .sub (.load (.off (.reg 2) 3)) (.f2 .sub (.load (.off (.reg 0) 3)) (.load (.off (.reg 1) 3))))

/-- `glm_vec4_addsub`: include/cglm/vec4.h:743-764. -/
def glm_vec4_addsub : Fn where
  locals := []
  nregs := 0
  body := 
    .seq (.store (.reg 2) (.f2 .sub (.load (.reg 2)) (.f2 .add (.load (.reg 0)) (.load (.reg 1))))) <|
    .seq (.store (.off (.reg 2) 1) (.f2 .sub (.load (.off (.reg 2) 1)) (.f2 .add (.load (.off (.reg 0) 1)) (.load (.off (.reg 1) 1))))) <|
    .seq (.store (.off (.reg 2) 2) (.f2 .sub (.load (.off (.reg 2) 2)) (.f2 .add (.load (.off (.reg 0) 2)) (.load (.off (.reg 1) 2))))) <|
    .store (.off (.reg 2) 3) (.f2 .sub (.load (.off (.reg 2) 3)) (.f2 .add (.load (.off (.reg 0) 3)) (.load (.off (.reg 1) 3))))

/-- `glm_vec4_mulsub`: include/cglm/vec4.h:775-786. -/
def glm_vec4_mulsub : Fn where
  locals := []
  nregs := 0
  body := 
    .seq (.store (.reg 2) (.f2 .sub (.load (.reg 2)) (.f2 .mul (.load (.reg 0)) (.load (.reg 1))))) <|
    .seq (.store (.off (.reg 2) 1) (.f2 .sub (.load (.off (.reg 2) 1)) (.f2 .mul (.load (.off (.reg 0) 1)) (.load (.off (.reg 1) 1))))) <|
    .seq (.store (.off (.reg 2) 2) (.f2 .sub (.load (.off (.reg 2) 2)) (.f2 .mul (.load (.off (.reg 0) 2)) (.load (.off (.reg 1) 2))))) <|
    .store (.off (.reg 2) 3) (.f2 .sub (.load (.off (.reg 2) 3)) (.f2 .mul (.load (.off (.reg 0) 3)) (.load (.off (.reg 1) 3))))

/-- `glm_vec4_mulsubs`: include/cglm/vec4.h:797-808. -/
def glm_vec4_mulsubs : Fn where
  locals := []
  nregs := 0
  body := 
    .seq (.store (.reg 2) (.f2 .sub (.load (.reg 2)) (.f2 .mul (.load (.reg 0)) (.reg 1)))) <|
    .seq (.store (.off (.reg 2) 1) (.f2 .sub (.load (.off (.reg 2) 1)) (.f2 .mul (.load (.off (.reg 0) 1)) (.reg 1)))) <|
    .seq (.store (.off (.reg 2) 2) (.f2 .sub (.load (.off (.reg 2) 2)) (.f2 .mul (.load (.off (.reg 0) 2)) (.reg 1)))) <|
    .store (.off (.reg 2) 3) (.f2 .sub (.load (.off (.reg 2) 3)) (.f2 .mul (.load (.off (.reg 0) 3)) (.reg 1)))

/-- `glm_vec4_maxsub`: include/cglm/vec4.h:819-837. -/
def glm_vec4_maxsub : Fn where
  locals := []
  nregs := 4
  body := 
    .seq (.call (some 3) glm_max.locals glm_max.nregs glm_max.body [.load (.reg 0), .load (.reg 1)]) <|
    .seq (.store (.reg 2) (.f2 .sub (.load (.reg 2)) (.reg 3))) <|
    .seq (.call (some 4) glm_max.locals glm_max.nregs glm_max.body [.load (.off (.reg 0) 1), .load (.off (.reg 1) 1)]) <|
    .seq (.store (.off (.reg 2) 1) (.f2 .sub (.load (.off (.reg 2) 1)) (.reg 4))) <|
    .seq (.call (some 5) glm_max.locals glm_max.nregs glm_max.body [.load (.off (.reg 0) 2), .load (.off (.reg 1) 2)]) <|
    .seq (.store (.off (.reg 2) 2) (.f2 .sub (.load (.off (.reg 2) 2)) (.reg 5))) <|
    .seq (.call (some 6) glm_max.locals glm_max.nregs glm_max.body [.load (.off (.reg 0) 3), .load (.off (.reg 1) 3)]) <|
    .store (.off (.reg 2) 3) (.f2 .sub (.load (.off (.reg 2) 3)) (.reg 6))

/-- `glm_vec4_minsub`: include/cglm/vec4.h:848-866. -/
def glm_vec4_minsub : Fn where
  locals := []
  nregs := 4
  body := 
    .seq (.call (some 3) glm_min.locals glm_min.nregs glm_min.body [.load (.reg 0), .load (.reg 1)]) <|
    .seq (.store (.reg 2) (.f2 .sub (.load (.reg 2)) (.reg 3))) <|
    .seq (.call (some 4) glm_min.locals glm_min.nregs glm_min.body [.load (.off (.reg 0) 1), .load (.off (.reg 1) 1)]) <|
    .seq (.store (.off (.reg 2) 1) (.f2 .sub (.load (.off (.reg 2) 1)) (.reg 4))) <|
    .seq (.call (some 5) glm_min.locals glm_min.nregs glm_min.body [.load (.off (.reg 0) 2), .load (.off (.reg 1) 2)]) <|
    .seq (.store (.off (.reg 2) 2) (.f2 .sub (.load (.off (.reg 2) 2)) (.reg 5))) <|
    .seq (.call (some 6) glm_min.locals glm_min.nregs glm_min.body [.load (.off (.reg 0) 3), .load (.off (.reg 1) 3)]) <|
    .store (.off (.reg 2) 3) (.f2 .sub (.load (.off (.reg 2) 3)) (.reg 6))

/-- `glm_vec4_negate_to`: include/cglm/vec4.h:874-889. -/
def glm_vec4_negate_to : Fn where
  locals := []
  nregs := 0
  body := 
    .seq (.store (.reg 1) (.f1 .neg (.load (.reg 0)))) <|
    .seq (.store (.off (.reg 1) 1) (.f1 .neg (.load (.off (.reg 0) 1)))) <|
    .seq (.store (.off (.reg 1) 2) (.f1 .neg (.load (.off (.reg 0) 2)))) <|
    .store (.off (.reg 1) 3) (.f1 .neg (.load (.off (.reg 0) 3)))

/-- `glm_vec4_negate`: include/cglm/vec4.h:896-900. -/
def glm_vec4_negate : Fn where
  locals := []
  nregs := 0
  body := .call none glm_vec4_negate_to.locals glm_vec4_negate_to.nregs glm_vec4_negate_to.body [.reg 0, .reg 0]

/-- `glm_vec4_normalize_to`: include/cglm/vec4.h:908-952. -/
def glm_vec4_normalize_to : Fn where
  locals := []
  nregs := 2
  body := 
    .seq (.call (some 3) glm_vec4_norm.locals glm_vec4_norm.nregs glm_vec4_norm.body [.reg 0]) <|
    .seq (.set 2 (.reg 3)) <|
    .seq (.ite (.fc .lt (.reg 2) (.flit 0.00000011920928955078125)) (.seq (.call none glm_vec4_zero.locals glm_vec4_zero.nregs glm_vec4_zero.body [.reg 1]) (.retVoid)) (.skip)) <|
    .call none glm_vec4_scale.locals glm_vec4_scale.nregs glm_vec4_scale.body [.reg 0, .f2 .div (.flit 1) (.reg 2), .reg 1]

/-- `glm_vec4_normalize`: include/cglm/vec4.h:959-963. -/
def glm_vec4_normalize : Fn where
  locals := []
  nregs := 0
  body := .call none glm_vec4_normalize_to.locals glm_vec4_normalize_to.nregs glm_vec4_normalize_to.body [.reg 0, .reg 0]

/-- `glm_vec4_distance`: include/cglm/vec4.h:972-987. -/
def glm_vec4_distance : Fn where
  locals := []
  nregs := 4
  body := 
    .seq (.call (some 2) glm_pow2.locals glm_pow2.nregs glm_pow2.body [.f2 .sub (.load (.reg 0)) (.load (.reg 1))]) <|
    .seq (.call (some 3) glm_pow2.locals glm_pow2.nregs glm_pow2.body [.f2 .sub (.load (.off (.reg 0) 1)) (.load (.off (.reg 1) 1))]) <|
    .seq (.call (some 4) glm_pow2.locals glm_pow2.nregs glm_pow2.body [.f2 .sub (.load (.off (.reg 0) 2)) (.load (.off (.reg 1) 2))]) <|
    .seq (.call (some 5) glm_pow2.locals glm_pow2.nregs glm_pow2.body [.f2 .sub (.load (.off (.reg 0) 3)) (.load (.off (.reg 1) 3))]) <|
    .ret (.f1 .sqrtf (.f2 .add (.f2 .add (.f2 .add (.reg 2) (.reg 3)) (.reg 4)) (.reg 5)))

/-- `glm_vec4_distance2`: include/cglm/vec4.h:996-1011. -/
def glm_vec4_distance2 : Fn where
  locals := []
  nregs := 4
  body := 
    .seq (.call (some 2) glm_pow2.locals glm_pow2.nregs glm_pow2.body [.f2 .sub (.load (.reg 0)) (.load (.reg 1))]) <|
    .seq (.call (some 3) glm_pow2.locals glm_pow2.nregs glm_pow2.body [.f2 .sub (.load (.off (.reg 0) 1)) (.load (.off (.reg 1) 1))]) <|
    .seq (.call (some 4) glm_pow2.locals glm_pow2.nregs glm_pow2.body [.f2 .sub (.load (.off (.reg 0) 2)) (.load (.off (.reg 1) 2))]) <|
    .seq (.call (some 5) glm_pow2.locals glm_pow2.nregs glm_pow2.body [.f2 .sub (.load (.off (.reg 0) 3)) (.load (.off (.reg 1) 3))]) <|
    .ret (.f2 .add (.f2 .add (.f2 .add (.reg 2) (.reg 3)) (.reg 4)) (.reg 5))

/-- `glm_vec4_maxv`: include/cglm/vec4.h:1020-1031. -/
def glm_vec4_maxv : Fn where
  locals := []
  nregs := 4
  body := 
    .seq (.call (some 3) glm_max.locals glm_max.nregs glm_max.body [.load (.reg 0), .load (.reg 1)]) <|
    .seq (.store (.reg 2) (.reg 3)) <|
    .seq (.call (some 4) glm_max.locals glm_max.nregs glm_max.body [.load (.off (.reg 0) 1), .load (.off (.reg 1) 1)]) <|
    .seq (.store (.off (.reg 2) 1) (.reg 4)) <|
    .seq (.call (some 5) glm_max.locals glm_max.nregs glm_max.body [.load (.off (.reg 0) 2), .load (.off (.reg 1) 2)]) <|
    .seq (.store (.off (.reg 2) 2) (.reg 5)) <|
    .seq (.call (some 6) glm_max.locals glm_max.nregs glm_max.body [.load (.off (.reg 0) 3), .load (.off (.reg 1) 3)]) <|
    .store (.off (.reg 2) 3) (.reg 6)

/-- `glm_vec4_minv`: include/cglm/vec4.h:1040-1051. -/
def glm_vec4_minv : Fn where
  locals := []
  nregs := 4
  body := 
    .seq (.call (some 3) glm_min.locals glm_min.nregs glm_min.body [.load (.reg 0), .load (.reg 1)]) <|
    .seq (.store (.reg 2) (.reg 3)) <|
    .seq (.call (some 4) glm_min.locals glm_min.nregs glm_min.body [.load (.off (.reg 0) 1), .load (.off (.reg 1) 1)]) <|
    .seq (.store (.off (.reg 2) 1) (.reg 4)) <|
    .seq (.call (some 5) glm_min.locals glm_min.nregs glm_min.body [.load (.off (.reg 0) 2), .load (.off (.reg 1) 2)]) <|
    .seq (.store (.off (.reg 2) 2) (.reg 5)) <|
    .seq (.call (some 6) glm_min.locals glm_min.nregs glm_min.body [.load (.off (.reg 0) 3), .load (.off (.reg 1) 3)]) <|
    .store (.off (.reg 2) 3) (.reg 6)

/-- `glm_vec4_clamp`: include/cglm/vec4.h:1060-1078. -/
def glm_vec4_clamp : Fn where
  locals := []
  nregs := 4
  body := 
    .seq (.call (some 3) glm_clamp.locals glm_clamp.nregs glm_clamp.body [.load (.reg 0), .reg 1, .reg 2]) <|
    .seq (.store (.reg 0) (.reg 3)) <|
    .seq (.call (some 4) glm_clamp.locals glm_clamp.nregs glm_clamp.body [.load (.off (.reg 0) 1), .reg 1, .reg 2]) <|
    .seq (.store (.off (.reg 0) 1) (.reg 4)) <|
    .seq (.call (some 5) glm_clamp.locals glm_clamp.nregs glm_clamp.body [.load (.off (.reg 0) 2), .reg 1, .reg 2]) <|
    .seq (.store (.off (.reg 0) 2) (.reg 5)) <|
    .seq (.call (some 6) glm_clamp.locals glm_clamp.nregs glm_clamp.body [.load (.off (.reg 0) 3), .reg 1, .reg 2]) <|
    .store (.off (.reg 0) 3) (.reg 6)

/-- `glm_vec4_lerp`: include/cglm/vec4.h:1090-1100. -/
def glm_vec4_lerp : Fn where
  locals := [4, 4]
  nregs := 0
  body := 
    .seq (.call none glm_vec4_broadcast.locals glm_vec4_broadcast.nregs glm_vec4_broadcast.body [.reg 2, .loc 0]) <|
    .seq (.call none glm_vec4_sub.locals glm_vec4_sub.nregs glm_vec4_sub.body [.reg 1, .reg 0, .loc 1]) <|
    .seq (.call none glm_vec4_mul.locals glm_vec4_mul.nregs glm_vec4_mul.body [.loc 0, .loc 1, .loc 1]) <|
    .call none glm_vec4_add.locals glm_vec4_add.nregs glm_vec4_add.body [.reg 0, .loc 1, .reg 3]

/-- `glm_vec4_lerpc`: include/cglm/vec4.h:1112-1116. -/
def glm_vec4_lerpc : Fn where
  locals := []
  nregs := 1
  body := 
    .seq (.call (some 4) glm_clamp_zo.locals glm_clamp_zo.nregs glm_clamp_zo.body [.reg 2]) <|
    .call none glm_vec4_lerp.locals glm_vec4_lerp.nregs glm_vec4_lerp.body [.reg 0, .reg 1, .reg 4, .reg 3]

/-- `glm_vec4_mix`: include/cglm/vec4.h:1128-1132. -/
def glm_vec4_mix : Fn where
  locals := []
  nregs := 0
  body := .call none glm_vec4_lerp.locals glm_vec4_lerp.nregs glm_vec4_lerp.body [.reg 0, .reg 1, .reg 2, .reg 3]

/-- `glm_vec4_mixc`: include/cglm/vec4.h:1144-1148. -/
def glm_vec4_mixc : Fn where
  locals := []
  nregs := 0
  body := .call none glm_vec4_lerpc.locals glm_vec4_lerpc.nregs glm_vec4_lerpc.body [.reg 0, .reg 1, .reg 2, .reg 3]

/-- `glm_vec4_step`: include/cglm/vec4.h:1157-1164. -/
def glm_vec4_step : Fn where
  locals := []
  nregs := 4
  body := 
    .seq (.call (some 3) glm_step.locals glm_step.nregs glm_step.body [.load (.reg 0), .load (.reg 1)]) <|
    .seq (.store (.reg 2) (.reg 3)) <|
    .seq (.call (some 4) glm_step.locals glm_step.nregs glm_step.body [.load (.off (.reg 0) 1), .load (.off (.reg 1) 1)]) <|
    .seq (.store (.off (.reg 2) 1) (.reg 4)) <|
    .seq (.call (some 5) glm_step.locals glm_step.nregs glm_step.body [.load (.off (.reg 0) 2), .load (.off (.reg 1) 2)]) <|
    .seq (.store (.off (.reg 2) 2) (.reg 5)) <|
    .seq (.call (some 6) glm_step.locals glm_step.nregs glm_step.body [.load (.off (.reg 0) 3), .load (.off (.reg 1) 3)]) <|
    .store (.off (.reg 2) 3) (.reg 6)

/-- `glm_vec4_smoothstep_uni`: include/cglm/vec4.h:1174-1181. -/
def glm_vec4_smoothstep_uni : Fn where
  locals := []
  nregs := 4
  body := 
    .seq (.call (some 4) glm_smoothstep.locals glm_smoothstep.nregs glm_smoothstep.body [.reg 0, .reg 1, .load (.reg 2)]) <|
    .seq (.store (.reg 3) (.reg 4)) <|
    .seq (.call (some 5) glm_smoothstep.locals glm_smoothstep.nregs glm_smoothstep.body [.reg 0, .reg 1, .load (.off (.reg 2) 1)]) <|
    .seq (.store (.off (.reg 3) 1) (.reg 5)) <|
    .seq (.call (some 6) glm_smoothstep.locals glm_smoothstep.nregs glm_smoothstep.body [.reg 0, .reg 1, .load (.off (.reg 2) 2)]) <|
    .seq (.store (.off (.reg 3) 2) (.reg 6)) <|
    .seq (.call (some 7) glm_smoothstep.locals glm_smoothstep.nregs glm_smoothstep.body [.reg 0, .reg 1, .load (.off (.reg 2) 3)]) <|
    .store (.off (.reg 3) 3) (.reg 7)

/-- `glm_vec4_smoothstep`: include/cglm/vec4.h:1191-1198. -/
def glm_vec4_smoothstep : Fn where
  locals := []
  nregs := 4
  body := 
    .seq (.call (some 4) glm_smoothstep.locals glm_smoothstep.nregs glm_smoothstep.body [.load (.reg 0), .load (.reg 1), .load (.reg 2)]) <|
    .seq (.store (.reg 3) (.reg 4)) <|
    .seq (.call (some 5) glm_smoothstep.locals glm_smoothstep.nregs glm_smoothstep.body [.load (.off (.reg 0) 1), .load (.off (.reg 1) 1), .load (.off (.reg 2) 1)]) <|
    .seq (.store (.off (.reg 3) 1) (.reg 5)) <|
    .seq (.call (some 6) glm_smoothstep.locals glm_smoothstep.nregs glm_smoothstep.body [.load (.off (.reg 0) 2), .load (.off (.reg 1) 2), .load (.off (.reg 2) 2)]) <|
    .seq (.store (.off (.reg 3) 2) (.reg 6)) <|
    .seq (.call (some 7) glm_smoothstep.locals glm_smoothstep.nregs glm_smoothstep.body [.load (.off (.reg 0) 3), .load (.off (.reg 1) 3), .load (.off (.reg 2) 3)]) <|
    .store (.off (.reg 3) 3) (.reg 7)

/-- `glm_vec4_smoothinterp`: include/cglm/vec4.h:1210-1220. -/
def glm_vec4_smoothinterp : Fn where
  locals := [4, 4]
  nregs := 1
  body := 
    .seq (.call (some 4) glm_smooth.locals glm_smooth.nregs glm_smooth.body [.reg 2]) <|
    .seq (.call none glm_vec4_broadcast.locals glm_vec4_broadcast.nregs glm_vec4_broadcast.body [.reg 4, .loc 0]) <|
    .seq (.call none glm_vec4_sub.locals glm_vec4_sub.nregs glm_vec4_sub.body [.reg 1, .reg 0, .loc 1]) <|
    .seq (.call none glm_vec4_mul.locals glm_vec4_mul.nregs glm_vec4_mul.body [.loc 0, .loc 1, .loc 1]) <|
    .call none glm_vec4_add.locals glm_vec4_add.nregs glm_vec4_add.body [.reg 0, .loc 1, .reg 3]

/-- `glm_vec4_smoothinterpc`: include/cglm/vec4.h:1232-1236. -/
def glm_vec4_smoothinterpc : Fn where
  locals := []
  nregs := 1
  body := 
    .seq (.call (some 4) glm_clamp_zo.locals glm_clamp_zo.nregs glm_clamp_zo.body [.reg 2]) <|
    .call none glm_vec4_smoothinterp.locals glm_vec4_smoothinterp.nregs glm_vec4_smoothinterp.body [.reg 0, .reg 1, .reg 4, .reg 3]

/-- `glm_vec4_cubic`: include/cglm/vec4.h:1244-1255. -/
def glm_vec4_cubic : Fn where
  locals := []
  nregs := 1
  body := 
    .seq (.set 2 (.f2 .mul (.reg 0) (.reg 0))) <|
    .seq (.store (.reg 1) (.f2 .mul (.reg 2) (.reg 0))) <|
    .seq (.store (.off (.reg 1) 1) (.reg 2)) <|
    .seq (.store (.off (.reg 1) 2) (.reg 0)) <|
    .store (.off (.reg 1) 3) (.flit 1)

/-- `glm_vec4_make`: include/cglm/vec4.h:1285-1290. -/
def glm_vec4_make : Fn where
  locals := []
  nregs := 0
  body := 
    .seq (.store (.reg 1) (.load (.reg 0))) <|
    .seq (.store (.off (.reg 1) 1) (.load (.off (.reg 0) 1))) <|
    .seq (.store (.off (.reg 1) 2) (.load (.off (.reg 0) 2))) <|
    .store (.off (.reg 1) 3) (.load (.off (.reg 0) 3))

/-- `glm_vec4_reflect`: include/cglm/vec4.h:1299-1309. -/
def glm_vec4_reflect : Fn where
  locals := [4]
  nregs := 1
  body := 
    .seq (.call (some 3) glm_vec4_dot.locals glm_vec4_dot.nregs glm_vec4_dot.body [.reg 0, .reg 1]) <|
    .seq (.call none glm_vec4_scale.locals glm_vec4_scale.nregs glm_vec4_scale.body [.reg 1, .f2 .mul (.flit 2) (.reg 3), .loc 0]) <|
    .seq (.call none glm_vec4_sub.locals glm_vec4_sub.nregs glm_vec4_sub.body [.reg 0, .loc 0, .reg 2]) <|
    .store (.off (.reg 2) 3) (.load (.off (.reg 0) 3))

/-- `glm_vec4_refract`: include/cglm/vec4.h:1329-1346. -/
def glm_vec4_refract : Fn where
  locals := []
  nregs := 4
  body := 
    .seq (.call (some 7) glm_vec4_dot.locals glm_vec4_dot.nregs glm_vec4_dot.body [.reg 1, .reg 0]) <|
    .seq (.set 4 (.reg 7)) <|
    .seq (.set 5 (.f2 .mul (.reg 2) (.reg 4))) <|
    .seq (.set 6 (.f2 .add (.f2 .sub (.flit 1) (.f2 .mul (.reg 2) (.reg 2))) (.f2 .mul (.reg 5) (.reg 5)))) <|
    .seq (.ite (.fc .lt (.reg 6) (.flit 0)) (.seq (.call none glm_vec4_zero.locals glm_vec4_zero.nregs glm_vec4_zero.body [.reg 3]) (.ret (.blit false))) (.skip)) <|
    .seq (.call none glm_vec4_scale.locals glm_vec4_scale.nregs glm_vec4_scale.body [.reg 0, .reg 2, .reg 3]) <|
    .seq (.call none glm_vec4_mulsubs.locals glm_vec4_mulsubs.nregs glm_vec4_mulsubs.body [.reg 1, .f2 .add (.reg 5) (.f1 .sqrtf (.reg 6)), .reg 3]) <|
    .ret (.blit true)

end Cglm.C

end Vec4

section Vec3

/- Generated from include/cglm/vec3.h by tools/memgen.py (memory semantics); do not edit by hand. -/

set_option maxRecDepth 10000

namespace Cglm.C
open CMem

/-- `glm_vec3`: include/cglm/vec3.h:141-147. -/
def glm_vec3 : Fn where
  locals := []
  nregs := 0
  body := 
    .seq (.store (.reg 1) (.load (.reg 0))) <|
    .seq (.store (.off (.reg 1) 1) (.load (.off (.reg 0) 1))) <|
    .store (.off (.reg 1) 2) (.load (.off (.reg 0) 2))

/-- `glm_vec3_copy`: include/cglm/vec3.h:155-161. -/
def glm_vec3_copy : Fn where
  locals := []
  nregs := 0
  body := 
    .seq (.store (.reg 1) (.load (.reg 0))) <|
    .seq (.store (.off (.reg 1) 1) (.load (.off (.reg 0) 1))) <|
    .store (.off (.reg 1) 2) (.load (.off (.reg 0) 2))

/-- `glm_vec3_zero`: include/cglm/vec3.h:168-172. -/
def glm_vec3_zero : Fn where
  locals := []
  nregs := 0
  body := 
    .seq (.store (.off (.reg 0) 2) (.flit 0)) <|
    .seq (.store (.off (.reg 0) 1) (.load (.off (.reg 0) 2))) <|
    .store (.reg 0) (.load (.off (.reg 0) 1))

/-- `glm_vec3_one`: include/cglm/vec3.h:179-183. -/
def glm_vec3_one : Fn where
  locals := []
  nregs := 0
  body := 
    .seq (.store (.off (.reg 0) 2) (.flit 1)) <|
    .seq (.store (.off (.reg 0) 1) (.load (.off (.reg 0) 2))) <|
    .store (.reg 0) (.load (.off (.reg 0) 1))

/-- `glm_vec3_dot`: include/cglm/vec3.h:193-197. -/
def glm_vec3_dot : Fn where
  locals := []
  nregs := 0
  body := .ret (.f2 .add (.f2 .add (.f2 .mul (.load (.reg 0)) (.load (.reg 1))) (.f2 .mul (.load (.off (.reg 0) 1)) (.load (.off (.reg 1) 1)))) (.f2 .mul (.load (.off (.reg 0) 2)) (.load (.off (.reg 1) 2))))

/-- `glm_vec3_norm2`: include/cglm/vec3.h:210-214. -/
def glm_vec3_norm2 : Fn where
  locals := []
  nregs := 1
  body := 
    .seq (.call (some 1) glm_vec3_dot.locals glm_vec3_dot.nregs glm_vec3_dot.body [.reg 0, .reg 0]) <|
    .ret (.reg 1)

/-- `glm_vec3_norm`: include/cglm/vec3.h:224-228. -/
def glm_vec3_norm : Fn where
  locals := []
  nregs := 1
  body := 
    .seq (.call (some 1) glm_vec3_norm2.locals glm_vec3_norm2.nregs glm_vec3_norm2.body [.reg 0]) <|
    .ret (.f1 .sqrtf (.reg 1))

/-- `glm_vec3_norm_one`: include/cglm/vec3.h:244-250. -/
def glm_vec3_norm_one : Fn where
  locals := [3]
  nregs := 1
  body := 
    .seq (.call none glm_vec3_abs.locals glm_vec3_abs.nregs glm_vec3_abs.body [.reg 0, .loc 0]) <|
    .seq (.call (some 1) glm_vec3_hadd.locals glm_vec3_hadd.nregs glm_vec3_hadd.body [.loc 0]) <|
    .ret (.reg 1)

/-- `glm_vec3_norm_inf`: include/cglm/vec3.h:265-271. -/
def glm_vec3_norm_inf : Fn where
  locals := [3]
  nregs := 1
  body := 
    .seq (.call none glm_vec3_abs.locals glm_vec3_abs.nregs glm_vec3_abs.body [.reg 0, .loc 0]) <|
    .seq (.call (some 1) glm_vec3_max.locals glm_vec3_max.nregs glm_vec3_max.body [.loc 0]) <|
    .ret (.reg 1)

/-- `glm_vec3_add`: include/cglm/vec3.h:280-286. -/
def glm_vec3_add : Fn where
  locals := []
  nregs := 0
  body := 
    .seq (.store (.reg 2) (.f2 .add (.load (.reg 0)) (.load (.reg 1)))) <|
    .seq (.store (.off (.reg 2) 1) (.f2 .add (.load (.off (.reg 0) 1)) (.load (.off (.reg 1) 1)))) <|
    .store (.off (.reg 2) 2) (.f2 .add (.load (.off (.reg 0) 2)) (.load (.off (.reg 1) 2)))

/-- `glm_vec3_adds`: include/cglm/vec3.h:295-301. -/
def glm_vec3_adds : Fn where
  locals := []
  nregs := 0
  body := 
    .seq (.store (.reg 2) (.f2 .add (.load (.reg 0)) (.reg 1))) <|
    .seq (.store (.off (.reg 2) 1) (.f2 .add (.load (.off (.reg 0) 1)) (.reg 1))) <|
    .store (.off (.reg 2) 2) (.f2 .add (.load (.off (.reg 0) 2)) (.reg 1))

/-- `glm_vec3_sub`: include/cglm/vec3.h:310-316. -/
def glm_vec3_sub : Fn where
  locals := []
  nregs := 0
  body := 
    .seq (.store (.reg 2) (.f2 .sub (.load (.reg 0)) (.load (.reg 1)))) <|
    .seq (.store (.off (.reg 2) 1) (.f2 .sub (.load (.off (.reg 0) 1)) (.load (.off (.reg 1) 1)))) <|
    .store (.off (.reg 2) 2) (.f2 .sub (.load (.off (.reg 0) 2)) (.load (.off (.reg 1) 2)))

/-- `glm_vec3_subs`: include/cglm/vec3.h:325-331. -/
def glm_vec3_subs : Fn where
  locals := []
  nregs := 0
  body := 
    .seq (.store (.reg 2) (.f2 .sub (.load (.reg 0)) (.reg 1))) <|
    .seq (.store (.off (.reg 2) 1) (.f2 .sub (.load (.off (.reg 0) 1)) (.reg 1))) <|
    .store (.off (.reg 2) 2) (.f2 .sub (.load (.off (.reg 0) 2)) (.reg 1))

/-- `glm_vec3_mul`: include/cglm/vec3.h:340-346. -/
def glm_vec3_mul : Fn where
  locals := []
  nregs := 0
  body := 
    .seq (.store (.reg 2) (.f2 .mul (.load (.reg 0)) (.load (.reg 1)))) <|
    .seq (.store (.off (.reg 2) 1) (.f2 .mul (.load (.off (.reg 0) 1)) (.load (.off (.reg 1) 1)))) <|
    .store (.off (.reg 2) 2) (.f2 .mul (.load (.off (.reg 0) 2)) (.load (.off (.reg 1) 2)))

/-- `glm_vec3_scale`: include/cglm/vec3.h:355-361. -/
def glm_vec3_scale : Fn where
  locals := []
  nregs := 0
  body := 
    .seq (.store (.reg 2) (.f2 .mul (.load (.reg 0)) (.reg 1))) <|
    .seq (.store (.off (.reg 2) 1) (.f2 .mul (.load (.off (.reg 0) 1)) (.reg 1))) <|
    .store (.off (.reg 2) 2) (.f2 .mul (.load (.off (.reg 0) 2)) (.reg 1))

/-- `glm_vec3_scale_as`: include/cglm/vec3.h:370-382. -/
def glm_vec3_scale_as : Fn where
  locals := []
  nregs := 2
  body := 
    .seq (.call (some 4) glm_vec3_norm.locals glm_vec3_norm.nregs glm_vec3_norm.body [.reg 0]) <|
    .seq (.set 3 (.reg 4)) <|
    .seq (.ite (.fc .lt (.reg 3) (.flit 0.00000011920928955078125)) (.seq (.call none glm_vec3_zero.locals glm_vec3_zero.nregs glm_vec3_zero.body [.reg 2]) (.retVoid)) (.skip)) <|
    .call none glm_vec3_scale.locals glm_vec3_scale.nregs glm_vec3_scale.body [.reg 0, .f2 .div (.reg 1) (.reg 3), .reg 2]

/-- `glm_vec3_div`: include/cglm/vec3.h:391-397. -/
def glm_vec3_div : Fn where
  locals := []
  nregs := 0
  body := 
    .seq (.store (.reg 2) (.f2 .div (.load (.reg 0)) (.load (.reg 1)))) <|
    .seq (.store (.off (.reg 2) 1) (.f2 .div (.load (.off (.reg 0) 1)) (.load (.off (.reg 1) 1)))) <|
    .store (.off (.reg 2) 2) (.f2 .div (.load (.off (.reg 0) 2)) (.load (.off (.reg 1) 2)))

/-- `glm_vec3_divs`: include/cglm/vec3.h:406-412. -/
def glm_vec3_divs : Fn where
  locals := []
  nregs := 0
  body := 
    .seq (.store (.reg 2) (.f2 .div (.load (.reg 0)) (.reg 1))) <|
    .seq (.store (.off (.reg 2) 1) (.f2 .div (.load (.off (.reg 0) 1)) (.reg 1))) <|
    .store (.off (.reg 2) 2) (.f2 .div (.load (.off (.reg 0) 2)) (.reg 1))

/-- `glm_vec3_addadd`: include/cglm/vec3.h:423-429. -/
def glm_vec3_addadd : Fn where
  locals := []
  nregs := 0
  body := 
    .seq (.store (.reg 2) (.f2 .add (.load (.reg 2)) (.f2 .add (.load (.reg 0)) (.load (.reg 1))))) <|
    .seq (.store (.off (.reg 2) 1) (.f2 .add (.load (.off (.reg 2) 1)) (.f2 .add (.load (.off (.reg 0) 1)) (.load (.off (.reg 1) 1))))) <|
    .store (.off (.reg 2) 2) (.f2 .add (.load (.off (.reg 2) 2)) (.f2 .add (.load (.off (.reg 0) 2)) (.load (.off (.reg 1) 2))))

/-- `glm_vec3_subadd`: include/cglm/vec3.h:440-446. -/
def glm_vec3_subadd : Fn where
  locals := []
  nregs := 0
  body := 
    .seq (.store (.reg 2) (.f2 .add (.load (.reg 2)) (.f2 .sub (.load (.reg 0)) (.load (.reg 1))))) <|
    .seq (.store (.off (.reg 2) 1) (.f2 .add (.load (.off (.reg 2) 1)) (.f2 .sub (.load (.off (.reg 0) 1)) (.load (.off (.reg 1) 1))))) <|
    .store (.off (.reg 2) 2) (.f2 .add (.load (.off (.reg 2) 2)) (.f2 .sub (.load (.off (.reg 0) 2)) (.load (.off (.reg 1) 2))))

/-- `glm_vec3_muladd`: include/cglm/vec3.h:457-463. -/
def glm_vec3_muladd : Fn where
  locals := []
  nregs := 0
  body := 
    .seq (.store (.reg 2) (.f2 .add (.load (.reg 2)) (.f2 .mul (.load (.reg 0)) (.load (.reg 1))))) <|
    .seq (.store (.off (.reg 2) 1) (.f2 .add (.load (.off (.reg 2) 1)) (.f2 .mul (.load (.off (.reg 0) 1)) (.load (.off (.reg 1) 1))))) <|
    .store (.off (.reg 2) 2) (.f2 .add (.load (.off (.reg 2) 2)) (.f2 .mul (.load (.off (.reg 0) 2)) (.load (.off (.reg 1) 2))))

/-- `glm_vec3_muladds`: include/cglm/vec3.h:474-480. -/
def glm_vec3_muladds : Fn where
  locals := []
  nregs := 0
  body := 
    .seq (.store (.reg 2) (.f2 .add (.load (.reg 2)) (.f2 .mul (.load (.reg 0)) (.reg 1)))) <|
    .seq (.store (.off (.reg 2) 1) (.f2 .add (.load (.off (.reg 2) 1)) (.f2 .mul (.load (.off (.reg 0) 1)) (.reg 1)))) <|
    .store (.off (.reg 2) 2) (.f2 .add (.load (.off (.reg 2) 2)) (.f2 .mul (.load (.off (.reg 0) 2)) (.reg 1)))

/-- `glm_vec3_maxadd`: include/cglm/vec3.h:491-497. -/
def glm_vec3_maxadd : Fn where
  locals := []
  nregs := 3
  body := 
    .seq (.call (some 3) glm_max.locals glm_max.nregs glm_max.body [.load (.reg 0), .load (.reg 1)]) <|
    .seq (.store (.reg 2) (.f2 .add (.load (.reg 2)) (.reg 3))) <|
    .seq (.call (some 4) glm_max.locals glm_max.nregs glm_max.body [.load (.off (.reg 0) 1), .load (.off (.reg 1) 1)]) <|
    .seq (.store (.off (.reg 2) 1) (.f2 .add (.load (.off (.reg 2) 1)) (.reg 4))) <|
    .seq (.call (some 5) glm_max.locals glm_max.nregs glm_max.body [.load (.off (.reg 0) 2), .load (.off (.reg 1) 2)]) <|
    .store (.off (.reg 2) 2) (.f2 .add (.load (.off (.reg 2) 2)) (.reg 5))

/-- `glm_vec3_minadd`: include/cglm/vec3.h:508-514. -/
def glm_vec3_minadd : Fn where
  locals := []
  nregs := 3
  body := 
    .seq (.call (some 3) glm_min.locals glm_min.nregs glm_min.body [.load (.reg 0), .load (.reg 1)]) <|
    .seq (.store (.reg 2) (.f2 .add (.load (.reg 2)) (.reg 3))) <|
    .seq (.call (some 4) glm_min.locals glm_min.nregs glm_min.body [.load (.off (.reg 0) 1), .load (.off (.reg 1) 1)]) <|
    .seq (.store (.off (.reg 2) 1) (.f2 .add (.load (.off (.reg 2) 1)) (.reg 4))) <|
    .seq (.call (some 5) glm_min.locals glm_min.nregs glm_min.body [.load (.off (.reg 0) 2), .load (.off (.reg 1) 2)]) <|
    .store (.off (.reg 2) 2) (.f2 .add (.load (.off (.reg 2) 2)) (.reg 5))

/-- `glm_vec3_subsub`: include/cglm/vec3.h:525-531. -/
def glm_vec3_subsub : Fn where
  locals := []
  nregs := 0
  body := 
    .seq (.store (.reg 2) (.f2 .sub (.load (.reg 2)) (.f2 .sub (.load (.reg 0)) (.load (.reg 1))))) <|
    .seq (.store (.off (.reg 2) 1) (.f2 .sub (.load (.off (.reg 2) 1)) (.f2 .sub (.load (.off (.reg 0) 1)) (.load (.off (.reg 1) 1))))) <|
    .store (.off (.reg 2) 2) (.f2 .sub (.load (.off (.reg 2) 2)) (.f2 .sub (.load (.off (.reg 0) 2)) (.load (.off (.reg 1) 2))))

/-- `glm_vec3_addsub`: include/cglm/vec3.h:542-548. -/
def glm_vec3_addsub : Fn where
  locals := []
  nregs := 0
  body := 
    .seq (.store (.reg 2) (.f2 .sub (.load (.reg 2)) (.f2 .add (.load (.reg 0)) (.load (.reg 1))))) <|
    .seq (.store (.off (.reg 2) 1) (.f2 .sub (.load (.off (.reg 2) 1)) (.f2 .add (.load (.off (.reg 0) 1)) (.load (.off (.reg 1) 1))))) <|
    .store (.off (.reg 2) 2) (.f2 .sub (.load (.off (.reg 2) 2)) (.f2 .add (.load (.off (.reg 0) 2)) (.load (.off (.reg 1) 2))))

/-- `glm_vec3_mulsub`: include/cglm/vec3.h:559-565. -/
def glm_vec3_mulsub : Fn where
  locals := []
  nregs := 0
  body := 
    .seq (.store (.reg 2) (.f2 .sub (.load (.reg 2)) (.f2 .mul (.load (.reg 0)) (.load (.reg 1))))) <|
    .seq (.store (.off (.reg 2) 1) (.f2 .sub (.load (.off (.reg 2) 1)) (.f2 .mul (.load (.off (.reg 0) 1)) (.load (.off (.reg 1) 1))))) <|
    .store (.off (.reg 2) 2) (.f2 .sub (.load (.off (.reg 2) 2)) (.f2 .mul (.load (.off (.reg 0) 2)) (.load (.off (.reg 1) 2))))

/-- `glm_vec3_mulsubs`: include/cglm/vec3.h:576-582. -/
def glm_vec3_mulsubs : Fn where
  locals := []
  nregs := 0
  body := 
    .seq (.store (.reg 2) (.f2 .sub (.load (.reg 2)) (.f2 .mul (.load (.reg 0)) (.reg 1)))) <|
    .seq (.store (.off (.reg 2) 1) (.f2 .sub (.load (.off (.reg 2) 1)) (.f2 .mul (.load (.off (.reg 0) 1)) (.reg 1)))) <|
    .store (.off (.reg 2) 2) (.f2 .sub (.load (.off (.reg 2) 2)) (.f2 .mul (.load (.off (.reg 0) 2)) (.reg 1)))

/-- `glm_vec3_maxsub`: include/cglm/vec3.h:593-599. -/
def glm_vec3_maxsub : Fn where
  locals := []
  nregs := 3
  body := 
    .seq (.call (some 3) glm_max.locals glm_max.nregs glm_max.body [.load (.reg 0), .load (.reg 1)]) <|
    .seq (.store (.reg 2) (.f2 .sub (.load (.reg 2)) (.reg 3))) <|
    .seq (.call (some 4) glm_max.locals glm_max.nregs glm_max.body [.load (.off (.reg 0) 1), .load (.off (.reg 1) 1)]) <|
    .seq (.store (.off (.reg 2) 1) (.f2 .sub (.load (.off (.reg 2) 1)) (.reg 4))) <|
    .seq (.call (some 5) glm_max.locals glm_max.nregs glm_max.body [.load (.off (.reg 0) 2), .load (.off (.reg 1) 2)]) <|
    .store (.off (.reg 2) 2) (.f2 .sub (.load (.off (.reg 2) 2)) (.reg 5))

/-- `glm_vec3_minsub`: include/cglm/vec3.h:610-616. -/
def glm_vec3_minsub : Fn where
  locals := []
  nregs := 3
  body := 
    .seq (.call (some 3) glm_min.locals glm_min.nregs glm_min.body [.load (.reg 0), .load (.reg 1)]) <|
    .seq (.store (.reg 2) (.f2 .sub (.load (.reg 2)) (.reg 3))) <|
    .seq (.call (some 4) glm_min.locals glm_min.nregs glm_min.body [.load (.off (.reg 0) 1), .load (.off (.reg 1) 1)]) <|
    .seq (.store (.off (.reg 2) 1) (.f2 .sub (.load (.off (.reg 2) 1)) (.reg 4))) <|
    .seq (.call (some 5) glm_min.locals glm_min.nregs glm_min.body [.load (.off (.reg 0) 2), .load (.off (.reg 1) 2)]) <|
    .store (.off (.reg 2) 2) (.f2 .sub (.load (.off (.reg 2) 2)) (.reg 5))

/-- `glm_vec3_negate_to`: include/cglm/vec3.h:624-630. -/
def glm_vec3_negate_to : Fn where
  locals := []
  nregs := 0
  body := 
    .seq (.store (.reg 1) (.f1 .neg (.load (.reg 0)))) <|
    .seq (.store (.off (.reg 1) 1) (.f1 .neg (.load (.off (.reg 0) 1)))) <|
    .store (.off (.reg 1) 2) (.f1 .neg (.load (.off (.reg 0) 2)))

/-- `glm_vec3_negate`: include/cglm/vec3.h:637-641. -/
def glm_vec3_negate : Fn where
  locals := []
  nregs := 0
  body := .call none glm_vec3_negate_to.locals glm_vec3_negate_to.nregs glm_vec3_negate_to.body [.reg 0, .reg 0]

/-- `glm_vec3_normalize`: include/cglm/vec3.h:648-661. -/
def glm_vec3_normalize : Fn where
  locals := []
  nregs := 2
  body := 
    .seq (.call (some 2) glm_vec3_norm.locals glm_vec3_norm.nregs glm_vec3_norm.body [.reg 0]) <|
    .seq (.set 1 (.reg 2)) <|
    .seq (.ite (.fc .lt (.reg 1) (.flit 0.00000011920928955078125)) (.seq (.store (.off (.reg 0) 2) (.flit 0)) (.seq (.store (.off (.reg 0) 1) (.load (.off (.reg 0) 2))) (.seq (.store (.reg 0) (.load (.off (.reg 0) 1))) (.retVoid)))) (.skip)) <|
    .call none glm_vec3_scale.locals glm_vec3_scale.nregs glm_vec3_scale.body [.reg 0, .f2 .div (.flit 1) (.reg 1), .reg 0]

/-- `glm_vec3_normalize_to`: include/cglm/vec3.h:669-682. -/
def glm_vec3_normalize_to : Fn where
  locals := []
  nregs := 2
  body := 
    .seq (.call (some 3) glm_vec3_norm.locals glm_vec3_norm.nregs glm_vec3_norm.body [.reg 0]) <|
    .seq (.set 2 (.reg 3)) <|
    .seq (.ite (.fc .lt (.reg 2) (.flit 0.00000011920928955078125)) (.seq (.call none glm_vec3_zero.locals glm_vec3_zero.nregs glm_vec3_zero.body [.reg 1]) (.retVoid)) (.skip)) <|
    .call none glm_vec3_scale.locals glm_vec3_scale.nregs glm_vec3_scale.body [.reg 0, .f2 .div (.flit 1) (.reg 2), .reg 1]

/-- `glm_vec3_cross`: include/cglm/vec3.h:691-700. -/
def glm_vec3_cross : Fn where
  locals := [3]
  nregs := 0
  body := 
    .seq (.store (.loc 0) (.f2 .sub (.f2 .mul (.load (.off (.reg 0) 1)) (.load (.off (.reg 1) 2))) (.f2 .mul (.load (.off (.reg 0) 2)) (.load (.off (.reg 1) 1))))) <|
    .seq (.store (.off (.loc 0) 1) (.f2 .sub (.f2 .mul (.load (.off (.reg 0) 2)) (.load (.reg 1))) (.f2 .mul (.load (.reg 0)) (.load (.off (.reg 1) 2))))) <|
    .seq (.store (.off (.loc 0) 2) (.f2 .sub (.f2 .mul (.load (.reg 0)) (.load (.off (.reg 1) 1))) (.f2 .mul (.load (.off (.reg 0) 1)) (.load (.reg 1))))) <|
    .call none glm_vec3_copy.locals glm_vec3_copy.nregs glm_vec3_copy.body [.loc 0, .reg 2]

/-- `glm_vec3_crossn`: include/cglm/vec3.h:709-714. -/
def glm_vec3_crossn : Fn where
  locals := []
  nregs := 0
  body := 
    .seq (.call none glm_vec3_cross.locals glm_vec3_cross.nregs glm_vec3_cross.body [.reg 0, .reg 1, .reg 2]) <|
    .call none glm_vec3_normalize.locals glm_vec3_normalize.nregs glm_vec3_normalize.body [.reg 2]

/-- `glm_vec3_angle`: include/cglm/vec3.h:724-739. -/
def glm_vec3_angle : Fn where
  locals := []
  nregs := 5
  body := 
    .seq (.call (some 4) glm_vec3_norm.locals glm_vec3_norm.nregs glm_vec3_norm.body [.reg 0]) <|
    .seq (.call (some 5) glm_vec3_norm.locals glm_vec3_norm.nregs glm_vec3_norm.body [.reg 1]) <|
    .seq (.set 2 (.f2 .div (.flit 1) (.f2 .mul (.reg 4) (.reg 5)))) <|
    .seq (.call (some 6) glm_vec3_dot.locals glm_vec3_dot.nregs glm_vec3_dot.body [.reg 0, .reg 1]) <|
    .seq (.set 3 (.f2 .mul (.reg 6) (.reg 2))) <|
    .seq (.ite (.fc .lt (.flit 1) (.reg 3)) (.ret (.flit 0)) (.ite (.fc .lt (.reg 3) (.f1 .neg (.flit 1))) (.ret (.flit 3.14159265358979323846264338327950288)) (.skip))) <|
    .ret (.f1 .acosf (.reg 3))

/-- `glm_vec3_rotate`: include/cglm/vec3.h:748-771. -/
def glm_vec3_rotate : Fn where
  locals := [3, 3, 3]
  nregs := 3
  body := 
    .seq (.set 3 (.f1 .cosf (.reg 1))) <|
    .seq (.set 4 (.f1 .sinf (.reg 1))) <|
    .seq (.call none glm_vec3_normalize_to.locals glm_vec3_normalize_to.nregs glm_vec3_normalize_to.body [.reg 2, .loc 2]) <|
    .seq (.call none glm_vec3_scale.locals glm_vec3_scale.nregs glm_vec3_scale.body [.reg 0, .reg 3, .loc 0]) <|
    .seq (.call none glm_vec3_cross.locals glm_vec3_cross.nregs glm_vec3_cross.body [.loc 2, .reg 0, .loc 1]) <|
    .seq (.call none glm_vec3_scale.locals glm_vec3_scale.nregs glm_vec3_scale.body [.loc 1, .reg 4, .loc 1]) <|
    .seq (.call none glm_vec3_add.locals glm_vec3_add.nregs glm_vec3_add.body [.loc 0, .loc 1, .loc 0]) <|
    .seq (.call (some 5) glm_vec3_dot.locals glm_vec3_dot.nregs glm_vec3_dot.body [.loc 2, .reg 0]) <|
    .seq (.call none glm_vec3_scale.locals glm_vec3_scale.nregs glm_vec3_scale.body [.loc 2, .f2 .mul (.reg 5) (.f2 .sub (.flit 1) (.reg 3)), .loc 1]) <|
    .call none glm_vec3_add.locals glm_vec3_add.nregs glm_vec3_add.body [.loc 0, .loc 1, .reg 0]

/-- `glm_vec3_rotate_m4`: include/cglm/vec3.h:786-800. -/
def glm_vec3_rotate_m4 : Fn where
  locals := [4, 4, 4, 4]
  nregs := 0
  body := 
    .seq (.call none glm_vec4_normalize_to.locals glm_vec4_normalize_to.nregs glm_vec4_normalize_to.body [.reg 0, .loc 0]) <|
    .seq (.call none glm_vec4_normalize_to.locals glm_vec4_normalize_to.nregs glm_vec4_normalize_to.body [.off (.reg 0) 4, .loc 1]) <|
    .seq (.call none glm_vec4_normalize_to.locals glm_vec4_normalize_to.nregs glm_vec4_normalize_to.body [.off (.reg 0) 8, .loc 2]) <|
    .seq (.call none glm_vec4_scale.locals glm_vec4_scale.nregs glm_vec4_scale.body [.loc 0, .load (.reg 1), .loc 3]) <|
    .seq (.call none glm_vec4_muladds.locals glm_vec4_muladds.nregs glm_vec4_muladds.body [.loc 1, .load (.off (.reg 1) 1), .loc 3]) <|
    .seq (.call none glm_vec4_muladds.locals glm_vec4_muladds.nregs glm_vec4_muladds.body [.loc 2, .load (.off (.reg 1) 2), .loc 3]) <|
    .call none glm_vec3.locals glm_vec3.nregs glm_vec3.body [.loc 3, .reg 2]

/-- `glm_vec3_rotate_m3`: include/cglm/vec3.h:809-827. -/
def glm_vec3_rotate_m3 : Fn where
  locals := [4, 4, 4, 4]
  nregs := 0
  body := 
    .seq (.call none glm_vec4.locals glm_vec4.nregs glm_vec4.body [.reg 0, .flit 0, .loc 1]) <|
    .seq (.call none glm_vec4.locals glm_vec4.nregs glm_vec4.body [.off (.reg 0) 3, .flit 0, .loc 2]) <|
    .seq (.call none glm_vec4.locals glm_vec4.nregs glm_vec4.body [.off (.reg 0) 6, .flit 0, .loc 3]) <|
    .seq (.call none glm_vec4_normalize.locals glm_vec4_normalize.nregs glm_vec4_normalize.body [.loc 1]) <|
    .seq (.call none glm_vec4_normalize.locals glm_vec4_normalize.nregs glm_vec4_normalize.body [.loc 2]) <|
    .seq (.call none glm_vec4_normalize.locals glm_vec4_normalize.nregs glm_vec4_normalize.body [.loc 3]) <|
    .seq (.call none glm_vec4_scale.locals glm_vec4_scale.nregs glm_vec4_scale.body [.loc 1, .load (.reg 1), .loc 0]) <|
    .seq (.call none glm_vec4_muladds.locals glm_vec4_muladds.nregs glm_vec4_muladds.body [.loc 2, .load (.off (.reg 1) 1), .loc 0]) <|
    .seq (.call none glm_vec4_muladds.locals glm_vec4_muladds.nregs glm_vec4_muladds.body [.loc 3, .load (.off (.reg 1) 2), .loc 0]) <|
    .call none glm_vec3.locals glm_vec3.nregs glm_vec3.body [.loc 0, .reg 2]

/-- `glm_vec3_proj`: include/cglm/vec3.h:836-842. -/
def glm_vec3_proj : Fn where
  locals := []
  nregs := 2
  body := 
    .seq (.call (some 3) glm_vec3_dot.locals glm_vec3_dot.nregs glm_vec3_dot.body [.reg 0, .reg 1]) <|
    .seq (.call (some 4) glm_vec3_norm2.locals glm_vec3_norm2.nregs glm_vec3_norm2.body [.reg 1]) <|
    .call none glm_vec3_scale.locals glm_vec3_scale.nregs glm_vec3_scale.body [.reg 1, .f2 .div (.reg 3) (.reg 4), .reg 2]

/-- `glm_vec3_center`: include/cglm/vec3.h:851-856. -/
def glm_vec3_center : Fn where
  locals := []
  nregs := 0
  body := 
    .seq (.call none glm_vec3_add.locals glm_vec3_add.nregs glm_vec3_add.body [.reg 0, .reg 1, .reg 2]) <|
    .call none glm_vec3_scale.locals glm_vec3_scale.nregs glm_vec3_scale.body [.reg 2, .flit 0.5, .reg 2]

/-- `glm_vec3_distance2`: include/cglm/vec3.h:865-871. -/
def glm_vec3_distance2 : Fn where
  locals := []
  nregs := 3
  body := 
    .seq (.call (some 2) glm_pow2.locals glm_pow2.nregs glm_pow2.body [.f2 .sub (.load (.reg 0)) (.load (.reg 1))]) <|
    .seq (.call (some 3) glm_pow2.locals glm_pow2.nregs glm_pow2.body [.f2 .sub (.load (.off (.reg 0) 1)) (.load (.off (.reg 1) 1))]) <|
    .seq (.call (some 4) glm_pow2.locals glm_pow2.nregs glm_pow2.body [.f2 .sub (.load (.off (.reg 0) 2)) (.load (.off (.reg 1) 2))]) <|
    .ret (.f2 .add (.f2 .add (.reg 2) (.reg 3)) (.reg 4))

/-- `glm_vec3_distance`: include/cglm/vec3.h:880-884. -/
def glm_vec3_distance : Fn where
  locals := []
  nregs := 1
  body := 
    .seq (.call (some 2) glm_vec3_distance2.locals glm_vec3_distance2.nregs glm_vec3_distance2.body [.reg 0, .reg 1]) <|
    .ret (.f1 .sqrtf (.reg 2))

/-- `glm_vec3_maxv`: include/cglm/vec3.h:893-899. -/
def glm_vec3_maxv : Fn where
  locals := []
  nregs := 3
  body := 
    .seq (.call (some 3) glm_max.locals glm_max.nregs glm_max.body [.load (.reg 0), .load (.reg 1)]) <|
    .seq (.store (.reg 2) (.reg 3)) <|
    .seq (.call (some 4) glm_max.locals glm_max.nregs glm_max.body [.load (.off (.reg 0) 1), .load (.off (.reg 1) 1)]) <|
    .seq (.store (.off (.reg 2) 1) (.reg 4)) <|
    .seq (.call (some 5) glm_max.locals glm_max.nregs glm_max.body [.load (.off (.reg 0) 2), .load (.off (.reg 1) 2)]) <|
    .store (.off (.reg 2) 2) (.reg 5)

/-- `glm_vec3_minv`: include/cglm/vec3.h:908-914. -/
def glm_vec3_minv : Fn where
  locals := []
  nregs := 3
  body := 
    .seq (.call (some 3) glm_min.locals glm_min.nregs glm_min.body [.load (.reg 0), .load (.reg 1)]) <|
    .seq (.store (.reg 2) (.reg 3)) <|
    .seq (.call (some 4) glm_min.locals glm_min.nregs glm_min.body [.load (.off (.reg 0) 1), .load (.off (.reg 1) 1)]) <|
    .seq (.store (.off (.reg 2) 1) (.reg 4)) <|
    .seq (.call (some 5) glm_min.locals glm_min.nregs glm_min.body [.load (.off (.reg 0) 2), .load (.off (.reg 1) 2)]) <|
    .store (.off (.reg 2) 2) (.reg 5)

/-- `glm_vec3_ortho`: include/cglm/vec3.h:922-929. -/
def glm_vec3_ortho : Fn where
  locals := [1, 3]
  nregs := 1
  body := 
    .seq (.havoc (.loc 0)) <|
    .seq (.set 2 (.f1 .modfFrac (.f2 .add (.f1 .fabsf (.load (.reg 0))) (.flit 0.5)))) <|
    .seq (.store (.loc 1) (.f1 .neg (.load (.off (.reg 0) 1)))) <|
    .seq (.store (.off (.loc 1) 1) (.f2 .sub (.load (.reg 0)) (.f2 .mul (.reg 2) (.load (.off (.reg 0) 2))))) <|
    .seq (.store (.off (.loc 1) 2) (.f2 .mul (.reg 2) (.load (.off (.reg 0) 1)))) <|
    .call none glm_vec3_copy.locals glm_vec3_copy.nregs glm_vec3_copy.body [.loc 1, .reg 1]

/-- `glm_vec3_clamp`: include/cglm/vec3.h:938-944. -/
def glm_vec3_clamp : Fn where
  locals := []
  nregs := 3
  body := 
    .seq (.call (some 3) glm_clamp.locals glm_clamp.nregs glm_clamp.body [.load (.reg 0), .reg 1, .reg 2]) <|
    .seq (.store (.reg 0) (.reg 3)) <|
    .seq (.call (some 4) glm_clamp.locals glm_clamp.nregs glm_clamp.body [.load (.off (.reg 0) 1), .reg 1, .reg 2]) <|
    .seq (.store (.off (.reg 0) 1) (.reg 4)) <|
    .seq (.call (some 5) glm_clamp.locals glm_clamp.nregs glm_clamp.body [.load (.off (.reg 0) 2), .reg 1, .reg 2]) <|
    .store (.off (.reg 0) 2) (.reg 5)

/-- `glm_vec3_lerp`: include/cglm/vec3.h:956-966. -/
def glm_vec3_lerp : Fn where
  locals := [3, 3]
  nregs := 0
  body := 
    .seq (.call none glm_vec3_broadcast.locals glm_vec3_broadcast.nregs glm_vec3_broadcast.body [.reg 2, .loc 0]) <|
    .seq (.call none glm_vec3_sub.locals glm_vec3_sub.nregs glm_vec3_sub.body [.reg 1, .reg 0, .loc 1]) <|
    .seq (.call none glm_vec3_mul.locals glm_vec3_mul.nregs glm_vec3_mul.body [.loc 0, .loc 1, .loc 1]) <|
    .call none glm_vec3_add.locals glm_vec3_add.nregs glm_vec3_add.body [.reg 0, .loc 1, .reg 3]

/-- `glm_vec3_lerpc`: include/cglm/vec3.h:978-982. -/
def glm_vec3_lerpc : Fn where
  locals := []
  nregs := 1
  body := 
    .seq (.call (some 4) glm_clamp_zo.locals glm_clamp_zo.nregs glm_clamp_zo.body [.reg 2]) <|
    .call none glm_vec3_lerp.locals glm_vec3_lerp.nregs glm_vec3_lerp.body [.reg 0, .reg 1, .reg 4, .reg 3]

/-- `glm_vec3_mix`: include/cglm/vec3.h:994-998. -/
def glm_vec3_mix : Fn where
  locals := []
  nregs := 0
  body := .call none glm_vec3_lerp.locals glm_vec3_lerp.nregs glm_vec3_lerp.body [.reg 0, .reg 1, .reg 2, .reg 3]

/-- `glm_vec3_mixc`: include/cglm/vec3.h:1010-1014. -/
def glm_vec3_mixc : Fn where
  locals := []
  nregs := 0
  body := .call none glm_vec3_lerpc.locals glm_vec3_lerpc.nregs glm_vec3_lerpc.body [.reg 0, .reg 1, .reg 2, .reg 3]

/-- `glm_vec3_step`: include/cglm/vec3.h:1023-1029. -/
def glm_vec3_step : Fn where
  locals := []
  nregs := 3
  body := 
    .seq (.call (some 3) glm_step.locals glm_step.nregs glm_step.body [.load (.reg 0), .load (.reg 1)]) <|
    .seq (.store (.reg 2) (.reg 3)) <|
    .seq (.call (some 4) glm_step.locals glm_step.nregs glm_step.body [.load (.off (.reg 0) 1), .load (.off (.reg 1) 1)]) <|
    .seq (.store (.off (.reg 2) 1) (.reg 4)) <|
    .seq (.call (some 5) glm_step.locals glm_step.nregs glm_step.body [.load (.off (.reg 0) 2), .load (.off (.reg 1) 2)]) <|
    .store (.off (.reg 2) 2) (.reg 5)

/-- `glm_vec3_smoothstep_uni`: include/cglm/vec3.h:1039-1045. -/
def glm_vec3_smoothstep_uni : Fn where
  locals := []
  nregs := 3
  body := 
    .seq (.call (some 4) glm_smoothstep.locals glm_smoothstep.nregs glm_smoothstep.body [.reg 0, .reg 1, .load (.reg 2)]) <|
    .seq (.store (.reg 3) (.reg 4)) <|
    .seq (.call (some 5) glm_smoothstep.locals glm_smoothstep.nregs glm_smoothstep.body [.reg 0, .reg 1, .load (.off (.reg 2) 1)]) <|
    .seq (.store (.off (.reg 3) 1) (.reg 5)) <|
    .seq (.call (some 6) glm_smoothstep.locals glm_smoothstep.nregs glm_smoothstep.body [.reg 0, .reg 1, .load (.off (.reg 2) 2)]) <|
    .store (.off (.reg 3) 2) (.reg 6)

/-- `glm_vec3_smoothstep`: include/cglm/vec3.h:1055-1061. -/
def glm_vec3_smoothstep : Fn where
  locals := []
  nregs := 3
  body := 
    .seq (.call (some 4) glm_smoothstep.locals glm_smoothstep.nregs glm_smoothstep.body [.load (.reg 0), .load (.reg 1), .load (.reg 2)]) <|
    .seq (.store (.reg 3) (.reg 4)) <|
    .seq (.call (some 5) glm_smoothstep.locals glm_smoothstep.nregs glm_smoothstep.body [.load (.off (.reg 0) 1), .load (.off (.reg 1) 1), .load (.off (.reg 2) 1)]) <|
    .seq (.store (.off (.reg 3) 1) (.reg 5)) <|
    .seq (.call (some 6) glm_smoothstep.locals glm_smoothstep.nregs glm_smoothstep.body [.load (.off (.reg 0) 2), .load (.off (.reg 1) 2), .load (.off (.reg 2) 2)]) <|
    .store (.off (.reg 3) 2) (.reg 6)

/-- `glm_vec3_smoothinterp`: include/cglm/vec3.h:1073-1083. -/
def glm_vec3_smoothinterp : Fn where
  locals := [3, 3]
  nregs := 1
  body := 
    .seq (.call (some 4) glm_smooth.locals glm_smooth.nregs glm_smooth.body [.reg 2]) <|
    .seq (.call none glm_vec3_broadcast.locals glm_vec3_broadcast.nregs glm_vec3_broadcast.body [.reg 4, .loc 0]) <|
    .seq (.call none glm_vec3_sub.locals glm_vec3_sub.nregs glm_vec3_sub.body [.reg 1, .reg 0, .loc 1]) <|
    .seq (.call none glm_vec3_mul.locals glm_vec3_mul.nregs glm_vec3_mul.body [.loc 0, .loc 1, .loc 1]) <|
    .call none glm_vec3_add.locals glm_vec3_add.nregs glm_vec3_add.body [.reg 0, .loc 1, .reg 3]

/-- `glm_vec3_smoothinterpc`: include/cglm/vec3.h:1095-1099. -/
def glm_vec3_smoothinterpc : Fn where
  locals := []
  nregs := 1
  body := 
    .seq (.call (some 4) glm_clamp_zo.locals glm_clamp_zo.nregs glm_clamp_zo.body [.reg 2]) <|
    .call none glm_vec3_smoothinterp.locals glm_vec3_smoothinterp.nregs glm_vec3_smoothinterp.body [.reg 0, .reg 1, .reg 4, .reg 3]

/-- `glm_cross`: include/cglm/vec3.h:1131-1135. -/
def glm_cross : Fn where
  locals := []
  nregs := 0
  body := .call none glm_vec3_cross.locals glm_vec3_cross.nregs glm_vec3_cross.body [.reg 0, .reg 1, .reg 2]

/-- `glm_dot`: include/cglm/vec3.h:1147-1151. -/
def glm_dot : Fn where
  locals := []
  nregs := 1
  body := 
    .seq (.call (some 2) glm_vec3_dot.locals glm_vec3_dot.nregs glm_vec3_dot.body [.reg 0, .reg 1]) <|
    .ret (.reg 2)

/-- `glm_normalize`: include/cglm/vec3.h:1160-1164. -/
def glm_normalize : Fn where
  locals := []
  nregs := 0
  body := .call none glm_vec3_normalize.locals glm_vec3_normalize.nregs glm_vec3_normalize.body [.reg 0]

/-- `glm_normalize_to`: include/cglm/vec3.h:1174-1178. -/
def glm_normalize_to : Fn where
  locals := []
  nregs := 0
  body := .call none glm_vec3_normalize_to.locals glm_vec3_normalize_to.nregs glm_vec3_normalize_to.body [.reg 0, .reg 1]

/-- `glm_vec3_make`: include/cglm/vec3.h:1186-1192. -/
def glm_vec3_make : Fn where
  locals := []
  nregs := 0
  body := 
    .seq (.store (.reg 1) (.load (.reg 0))) <|
    .seq (.store (.off (.reg 1) 1) (.load (.off (.reg 0) 1))) <|
    .store (.off (.reg 1) 2) (.load (.off (.reg 0) 2))

/-- `glm_vec3_faceforward`: include/cglm/vec3.h:1204-1214. -/
def glm_vec3_faceforward : Fn where
  locals := []
  nregs := 1
  body := 
    .seq (.call (some 4) glm_vec3_dot.locals glm_vec3_dot.nregs glm_vec3_dot.body [.reg 1, .reg 2]) <|
    .ite (.fc .lt (.reg 4) (.flit 0)) (.call none glm_vec3_copy.locals glm_vec3_copy.nregs glm_vec3_copy.body [.reg 0, .reg 3]) (.call none glm_vec3_negate_to.locals glm_vec3_negate_to.nregs glm_vec3_negate_to.body [.reg 0, .reg 3])

/-- `glm_vec3_reflect`: include/cglm/vec3.h:1223-1229. -/
def glm_vec3_reflect : Fn where
  locals := [3]
  nregs := 1
  body := 
    .seq (.call (some 3) glm_vec3_dot.locals glm_vec3_dot.nregs glm_vec3_dot.body [.reg 0, .reg 1]) <|
    .seq (.call none glm_vec3_scale.locals glm_vec3_scale.nregs glm_vec3_scale.body [.reg 1, .f2 .mul (.flit 2) (.reg 3), .loc 0]) <|
    .call none glm_vec3_sub.locals glm_vec3_sub.nregs glm_vec3_sub.body [.reg 0, .loc 0, .reg 2]

/-- `glm_vec3_refract`: include/cglm/vec3.h:1245-1262. -/
def glm_vec3_refract : Fn where
  locals := []
  nregs := 4
  body := 
    .seq (.call (some 7) glm_vec3_dot.locals glm_vec3_dot.nregs glm_vec3_dot.body [.reg 1, .reg 0]) <|
    .seq (.set 4 (.reg 7)) <|
    .seq (.set 5 (.f2 .mul (.reg 2) (.reg 4))) <|
    .seq (.set 6 (.f2 .add (.f2 .sub (.flit 1) (.f2 .mul (.reg 2) (.reg 2))) (.f2 .mul (.reg 5) (.reg 5)))) <|
    .seq (.ite (.fc .lt (.reg 6) (.flit 0)) (.seq (.call none glm_vec3_zero.locals glm_vec3_zero.nregs glm_vec3_zero.body [.reg 3]) (.ret (.blit false))) (.skip)) <|
    .seq (.call none glm_vec3_scale.locals glm_vec3_scale.nregs glm_vec3_scale.body [.reg 0, .reg 2, .reg 3]) <|
    .seq (.call none glm_vec3_mulsubs.locals glm_vec3_mulsubs.nregs glm_vec3_mulsubs.body [.reg 1, .f2 .add (.reg 5) (.f1 .sqrtf (.reg 6)), .reg 3]) <|
    .ret (.blit true)

end Cglm.C

end Vec3
