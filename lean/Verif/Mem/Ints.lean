/- Generated by tools/imemgen.py, joined by tools/merge.py; do not edit by hand. -/
import Verif.CMemI

section IUtil

/- Generated from include/cglm/util.h by tools/imemgen.py (memory semantics); do not edit by hand. -/

set_option maxRecDepth 10000

namespace Cglm.CI
open CMem

/-- `glm_sign`: include/cglm/util.h:48-52. -/
def glm_sign : IFn where
  locals := []
  nregs := 0
  body := .ret (.i2 .sub (.sar (.reg 0) 31) (.sar (.i1 .neg (.reg 0)) 31))

/-- `glm_imin`: include/cglm/util.h:158-164. -/
def glm_imin : IFn where
  locals := []
  nregs := 0
  body := 
    .seq (.ite (.ic .lt (.reg 0) (.reg 1)) (.ret (.reg 0)) (.skip)) <|
    .ret (.reg 1)

/-- `glm_imax`: include/cglm/util.h:174-180. -/
def glm_imax : IFn where
  locals := []
  nregs := 0
  body := 
    .seq (.ite (.ic .gt (.reg 0) (.reg 1)) (.ret (.reg 0)) (.skip)) <|
    .ret (.reg 1)

end Cglm.CI

end IUtil

section IIvec2

/- Generated from include/cglm/ivec2.h by tools/imemgen.py (memory semantics); do not edit by hand. -/

set_option maxRecDepth 10000

namespace Cglm.CI
open CMem

/-- `glm_ivec2`: include/cglm/ivec2.h:76-81. -/
def glm_ivec2 : IFn where
  locals := []
  nregs := 0
  body := 
    .seq (.store (.reg 1) (.load (.reg 0))) <|
    .store (.off (.reg 1) 1) (.load (.off (.reg 0) 1))

/-- `glm_ivec2_copy`: include/cglm/ivec2.h:89-94. -/
def glm_ivec2_copy : IFn where
  locals := []
  nregs := 0
  body := 
    .seq (.store (.reg 1) (.load (.reg 0))) <|
    .store (.off (.reg 1) 1) (.load (.off (.reg 0) 1))

/-- `glm_ivec2_zero`: include/cglm/ivec2.h:101-105. -/
def glm_ivec2_zero : IFn where
  locals := []
  nregs := 0
  body := 
    .seq (.store (.off (.reg 0) 1) (.ilit 0)) <|
    .store (.reg 0) (.load (.off (.reg 0) 1))

/-- `glm_ivec2_one`: include/cglm/ivec2.h:112-116. -/
def glm_ivec2_one : IFn where
  locals := []
  nregs := 0
  body := 
    .seq (.store (.off (.reg 0) 1) (.ilit 1)) <|
    .store (.reg 0) (.load (.off (.reg 0) 1))

/-- `glm_ivec2_dot`: include/cglm/ivec2.h:126-130. -/
def glm_ivec2_dot : IFn where
  locals := []
  nregs := 0
  body := .ret (.i2 .add (.i2 .mul (.load (.reg 0)) (.load (.reg 1))) (.i2 .mul (.load (.off (.reg 0) 1)) (.load (.off (.reg 1) 1))))

/-- `glm_ivec2_cross`: include/cglm/ivec2.h:142-146. -/
def glm_ivec2_cross : IFn where
  locals := []
  nregs := 0
  body := .ret (.i2 .sub (.i2 .mul (.load (.reg 0)) (.load (.off (.reg 1) 1))) (.i2 .mul (.load (.off (.reg 0) 1)) (.load (.reg 1))))

/-- `glm_ivec2_add`: include/cglm/ivec2.h:155-160. -/
def glm_ivec2_add : IFn where
  locals := []
  nregs := 0
  body := 
    .seq (.store (.reg 2) (.i2 .add (.load (.reg 0)) (.load (.reg 1)))) <|
    .store (.off (.reg 2) 1) (.i2 .add (.load (.off (.reg 0) 1)) (.load (.off (.reg 1) 1)))

/-- `glm_ivec2_adds`: include/cglm/ivec2.h:169-174. -/
def glm_ivec2_adds : IFn where
  locals := []
  nregs := 0
  body := 
    .seq (.store (.reg 2) (.i2 .add (.load (.reg 0)) (.reg 1))) <|
    .store (.off (.reg 2) 1) (.i2 .add (.load (.off (.reg 0) 1)) (.reg 1))

/-- `glm_ivec2_sub`: include/cglm/ivec2.h:183-188. -/
def glm_ivec2_sub : IFn where
  locals := []
  nregs := 0
  body := 
    .seq (.store (.reg 2) (.i2 .sub (.load (.reg 0)) (.load (.reg 1)))) <|
    .store (.off (.reg 2) 1) (.i2 .sub (.load (.off (.reg 0) 1)) (.load (.off (.reg 1) 1)))

/-- `glm_ivec2_subs`: include/cglm/ivec2.h:197-202. -/
def glm_ivec2_subs : IFn where
  locals := []
  nregs := 0
  body := 
    .seq (.store (.reg 2) (.i2 .sub (.load (.reg 0)) (.reg 1))) <|
    .store (.off (.reg 2) 1) (.i2 .sub (.load (.off (.reg 0) 1)) (.reg 1))

/-- `glm_ivec2_mul`: include/cglm/ivec2.h:211-216. -/
def glm_ivec2_mul : IFn where
  locals := []
  nregs := 0
  body := 
    .seq (.store (.reg 2) (.i2 .mul (.load (.reg 0)) (.load (.reg 1)))) <|
    .store (.off (.reg 2) 1) (.i2 .mul (.load (.off (.reg 0) 1)) (.load (.off (.reg 1) 1)))

/-- `glm_ivec2_scale`: include/cglm/ivec2.h:225-230. -/
def glm_ivec2_scale : IFn where
  locals := []
  nregs := 0
  body := 
    .seq (.store (.reg 2) (.i2 .mul (.load (.reg 0)) (.reg 1))) <|
    .store (.off (.reg 2) 1) (.i2 .mul (.load (.off (.reg 0) 1)) (.reg 1))

/-- `glm_ivec2_div`: include/cglm/ivec2.h:239-244. -/
def glm_ivec2_div : IFn where
  locals := []
  nregs := 0
  body := 
    .seq (.store (.reg 2) (.i2 .div (.load (.reg 0)) (.load (.reg 1)))) <|
    .store (.off (.reg 2) 1) (.i2 .div (.load (.off (.reg 0) 1)) (.load (.off (.reg 1) 1)))

/-- `glm_ivec2_divs`: include/cglm/ivec2.h:253-258. -/
def glm_ivec2_divs : IFn where
  locals := []
  nregs := 0
  body := 
    .seq (.store (.reg 2) (.i2 .div (.load (.reg 0)) (.reg 1))) <|
    .store (.off (.reg 2) 1) (.i2 .div (.load (.off (.reg 0) 1)) (.reg 1))

/-- `glm_ivec2_mod`: include/cglm/ivec2.h:267-272. -/
def glm_ivec2_mod : IFn where
  locals := []
  nregs := 0
  body := 
    .seq (.store (.reg 2) (.i2 .mod (.load (.reg 0)) (.load (.reg 1)))) <|
    .store (.off (.reg 2) 1) (.i2 .mod (.load (.off (.reg 0) 1)) (.load (.off (.reg 1) 1)))

/-- `glm_ivec2_addadd`: include/cglm/ivec2.h:283-288. -/
def glm_ivec2_addadd : IFn where
  locals := []
  nregs := 0
  body := 
    .seq (.store (.reg 2) (.i2 .add (.load (.reg 2)) (.i2 .add (.load (.reg 0)) (.load (.reg 1))))) <|
    .store (.off (.reg 2) 1) (.i2 .add (.load (.off (.reg 2) 1)) (.i2 .add (.load (.off (.reg 0) 1)) (.load (.off (.reg 1) 1))))

/-- `glm_ivec2_addadds`: include/cglm/ivec2.h:299-304. -/
def glm_ivec2_addadds : IFn where
  locals := []
  nregs := 0
  body := 
    .seq (.store (.reg 2) (.i2 .add (.load (.reg 2)) (.i2 .add (.load (.reg 0)) (.reg 1)))) <|
    .store (.off (.reg 2) 1) (.i2 .add (.load (.off (.reg 2) 1)) (.i2 .add (.load (.off (.reg 0) 1)) (.reg 1)))

/-- `glm_ivec2_subadd`: include/cglm/ivec2.h:315-320. -/
def glm_ivec2_subadd : IFn where
  locals := []
  nregs := 0
  body := 
    .seq (.store (.reg 2) (.i2 .add (.load (.reg 2)) (.i2 .sub (.load (.reg 0)) (.load (.reg 1))))) <|
    .store (.off (.reg 2) 1) (.i2 .add (.load (.off (.reg 2) 1)) (.i2 .sub (.load (.off (.reg 0) 1)) (.load (.off (.reg 1) 1))))

/-- `glm_ivec2_subadds`: include/cglm/ivec2.h:331-336. -/
def glm_ivec2_subadds : IFn where
  locals := []
  nregs := 0
  body := 
    .seq (.store (.reg 2) (.i2 .add (.load (.reg 2)) (.i2 .sub (.load (.reg 0)) (.reg 1)))) <|
    .store (.off (.reg 2) 1) (.i2 .add (.load (.off (.reg 2) 1)) (.i2 .sub (.load (.off (.reg 0) 1)) (.reg 1)))

/-- `glm_ivec2_muladd`: include/cglm/ivec2.h:347-352. -/
def glm_ivec2_muladd : IFn where
  locals := []
  nregs := 0
  body := 
    .seq (.store (.reg 2) (.i2 .add (.load (.reg 2)) (.i2 .mul (.load (.reg 0)) (.load (.reg 1))))) <|
    .store (.off (.reg 2) 1) (.i2 .add (.load (.off (.reg 2) 1)) (.i2 .mul (.load (.off (.reg 0) 1)) (.load (.off (.reg 1) 1))))

/-- `glm_ivec2_muladds`: include/cglm/ivec2.h:363-368. -/
def glm_ivec2_muladds : IFn where
  locals := []
  nregs := 0
  body := 
    .seq (.store (.reg 2) (.i2 .add (.load (.reg 2)) (.i2 .mul (.load (.reg 0)) (.reg 1)))) <|
    .store (.off (.reg 2) 1) (.i2 .add (.load (.off (.reg 2) 1)) (.i2 .mul (.load (.off (.reg 0) 1)) (.reg 1)))

/-- `glm_ivec2_maxadd`: include/cglm/ivec2.h:379-384. -/
def glm_ivec2_maxadd : IFn where
  locals := []
  nregs := 2
  body := 
    .seq (.call (some 3) glm_imax.locals glm_imax.nregs glm_imax.body [.load (.reg 0), .load (.reg 1)]) <|
    .seq (.store (.reg 2) (.i2 .add (.load (.reg 2)) (.reg 3))) <|
    .seq (.call (some 4) glm_imax.locals glm_imax.nregs glm_imax.body [.load (.off (.reg 0) 1), .load (.off (.reg 1) 1)]) <|
    .store (.off (.reg 2) 1) (.i2 .add (.load (.off (.reg 2) 1)) (.reg 4))

/-- `glm_ivec2_minadd`: include/cglm/ivec2.h:395-400. -/
def glm_ivec2_minadd : IFn where
  locals := []
  nregs := 2
  body := 
    .seq (.call (some 3) glm_imin.locals glm_imin.nregs glm_imin.body [.load (.reg 0), .load (.reg 1)]) <|
    .seq (.store (.reg 2) (.i2 .add (.load (.reg 2)) (.reg 3))) <|
    .seq (.call (some 4) glm_imin.locals glm_imin.nregs glm_imin.body [.load (.off (.reg 0) 1), .load (.off (.reg 1) 1)]) <|
    .store (.off (.reg 2) 1) (.i2 .add (.load (.off (.reg 2) 1)) (.reg 4))

/-- `glm_ivec2_subsub`: include/cglm/ivec2.h:411-416. -/
def glm_ivec2_subsub : IFn where
  locals := []
  nregs := 0
  body := 
    .seq (.store (.reg 2) (.i2 .sub (.load (.reg 2)) (.i2 .sub (.load (.reg 0)) (.load (.reg 1))))) <|
    .store (.off (.reg 2) 1) (.i2 .sub (.load (.off (.reg 2) 1)) (.i2 .sub (.load (.off (.reg 0) 1)) (.load (.off (.reg 1) 1))))

/-- `glm_ivec2_subsubs`: include/cglm/ivec2.h:427-432. -/
def glm_ivec2_subsubs : IFn where
  locals := []
  nregs := 0
  body := 
    .seq (.store (.reg 2) (.i2 .sub (.load (.reg 2)) (.i2 .sub (.load (.reg 0)) (.reg 1)))) <|
    .store (.off (.reg 2) 1) (.i2 .sub (.load (.off (.reg 2) 1)) (.i2 .sub (.load (.off (.reg 0) 1)) (.reg 1)))

/-- `glm_ivec2_addsub`: include/cglm/ivec2.h:443-448. -/
def glm_ivec2_addsub : IFn where
  locals := []
  nregs := 0
  body := 
    .seq (.store (.reg 2) (.i2 .sub (.load (.reg 2)) (.i2 .add (.load (.reg 0)) (.load (.reg 1))))) <|
    .store (.off (.reg 2) 1) (.i2 .sub (.load (.off (.reg 2) 1)) (.i2 .add (.load (.off (.reg 0) 1)) (.load (.off (.reg 1) 1))))

/-- `glm_ivec2_addsubs`: include/cglm/ivec2.h:459-464. -/
def glm_ivec2_addsubs : IFn where
  locals := []
  nregs := 0
  body := 
    .seq (.store (.reg 2) (.i2 .sub (.load (.reg 2)) (.i2 .add (.load (.reg 0)) (.reg 1)))) <|
    .store (.off (.reg 2) 1) (.i2 .sub (.load (.off (.reg 2) 1)) (.i2 .add (.load (.off (.reg 0) 1)) (.reg 1)))

/-- `glm_ivec2_mulsub`: include/cglm/ivec2.h:475-480. -/
def glm_ivec2_mulsub : IFn where
  locals := []
  nregs := 0
  body := 
    .seq (.store (.reg 2) (.i2 .sub (.load (.reg 2)) (.i2 .mul (.load (.reg 0)) (.load (.reg 1))))) <|
    .store (.off (.reg 2) 1) (.i2 .sub (.load (.off (.reg 2) 1)) (.i2 .mul (.load (.off (.reg 0) 1)) (.load (.off (.reg 1) 1))))

/-- `glm_ivec2_mulsubs`: include/cglm/ivec2.h:491-496. -/
def glm_ivec2_mulsubs : IFn where
  locals := []
  nregs := 0
  body := 
    .seq (.store (.reg 2) (.i2 .sub (.load (.reg 2)) (.i2 .mul (.load (.reg 0)) (.reg 1)))) <|
    .store (.off (.reg 2) 1) (.i2 .sub (.load (.off (.reg 2) 1)) (.i2 .mul (.load (.off (.reg 0) 1)) (.reg 1)))

/-- `glm_ivec2_maxsub`: include/cglm/ivec2.h:507-512. -/
def glm_ivec2_maxsub : IFn where
  locals := []
  nregs := 2
  body := 
    .seq (.call (some 3) glm_imax.locals glm_imax.nregs glm_imax.body [.load (.reg 0), .load (.reg 1)]) <|
    .seq (.store (.reg 2) (.i2 .sub (.load (.reg 2)) (.reg 3))) <|
    .seq (.call (some 4) glm_imax.locals glm_imax.nregs glm_imax.body [.load (.off (.reg 0) 1), .load (.off (.reg 1) 1)]) <|
    .store (.off (.reg 2) 1) (.i2 .sub (.load (.off (.reg 2) 1)) (.reg 4))

/-- `glm_ivec2_minsub`: include/cglm/ivec2.h:523-528. -/
def glm_ivec2_minsub : IFn where
  locals := []
  nregs := 2
  body := 
    .seq (.call (some 3) glm_imin.locals glm_imin.nregs glm_imin.body [.load (.reg 0), .load (.reg 1)]) <|
    .seq (.store (.reg 2) (.i2 .sub (.load (.reg 2)) (.reg 3))) <|
    .seq (.call (some 4) glm_imin.locals glm_imin.nregs glm_imin.body [.load (.off (.reg 0) 1), .load (.off (.reg 1) 1)]) <|
    .store (.off (.reg 2) 1) (.i2 .sub (.load (.off (.reg 2) 1)) (.reg 4))

/-- `glm_ivec2_distance2`: include/cglm/ivec2.h:537-544. -/
def glm_ivec2_distance2 : IFn where
  locals := []
  nregs := 2
  body := 
    .seq (.set 2 (.i2 .sub (.load (.reg 0)) (.load (.reg 1)))) <|
    .seq (.set 3 (.i2 .sub (.load (.off (.reg 0) 1)) (.load (.off (.reg 1) 1)))) <|
    .ret (.i2 .add (.i2 .mul (.reg 2) (.reg 2)) (.i2 .mul (.reg 3) (.reg 3)))

/-- `glm_ivec2_distance`: include/cglm/ivec2.h:553-557. -/
def glm_ivec2_distance : IFn where
  locals := []
  nregs := 1
  body := 
    .seq (.call (some 2) glm_ivec2_distance2.locals glm_ivec2_distance2.nregs glm_ivec2_distance2.body [.reg 0, .reg 1]) <|
    .ret (.f1 .sqrtf (.ofInt (.reg 2)))

/-- `glm_ivec2_fill`: include/cglm/ivec2.h:566-570. -/
def glm_ivec2_fill : IFn where
  locals := []
  nregs := 0
  body := 
    .seq (.store (.off (.reg 0) 1) (.reg 1)) <|
    .store (.reg 0) (.load (.off (.reg 0) 1))

/-- `glm_ivec2_eq`: include/cglm/ivec2.h:578-582. -/
def glm_ivec2_eq : IFn where
  locals := []
  nregs := 0
  body := .ret (.and (.ic .eq (.load (.reg 0)) (.reg 1)) (.ic .eq (.load (.reg 0)) (.load (.off (.reg 0) 1))))

/-- `glm_ivec2_eqv`: include/cglm/ivec2.h:590-595. -/
def glm_ivec2_eqv : IFn where
  locals := []
  nregs := 0
  body := .ret (.and (.ic .eq (.load (.reg 0)) (.load (.reg 1))) (.ic .eq (.load (.off (.reg 0) 1)) (.load (.off (.reg 1) 1))))

/-- `glm_ivec2_maxv`: include/cglm/ivec2.h:604-609. -/
def glm_ivec2_maxv : IFn where
  locals := []
  nregs := 0
  body := 
    .seq (.store (.reg 2) (.ite (.ic .gt (.load (.reg 0)) (.load (.reg 1))) (.load (.reg 0)) (.load (.reg 1)))) <|
    .store (.off (.reg 2) 1) (.ite (.ic .gt (.load (.off (.reg 0) 1)) (.load (.off (.reg 1) 1))) (.load (.off (.reg 0) 1)) (.load (.off (.reg 1) 1)))

/-- `glm_ivec2_minv`: include/cglm/ivec2.h:618-623. -/
def glm_ivec2_minv : IFn where
  locals := []
  nregs := 0
  body := 
    .seq (.store (.reg 2) (.ite (.ic .lt (.load (.reg 0)) (.load (.reg 1))) (.load (.reg 0)) (.load (.reg 1)))) <|
    .store (.off (.reg 2) 1) (.ite (.ic .lt (.load (.off (.reg 0) 1)) (.load (.off (.reg 1) 1))) (.load (.off (.reg 0) 1)) (.load (.off (.reg 1) 1)))

/-- `glm_ivec2_clamp`: include/cglm/ivec2.h:632-644. -/
def glm_ivec2_clamp : IFn where
  locals := []
  nregs := 0
  body := 
    .seq (.ite (.ic .lt (.load (.reg 0)) (.reg 1)) (.store (.reg 0) (.reg 1)) (.ite (.ic .gt (.load (.reg 0)) (.reg 2)) (.store (.reg 0) (.reg 2)) (.skip))) <|
    .ite (.ic .lt (.load (.off (.reg 0) 1)) (.reg 1)) (.store (.off (.reg 0) 1) (.reg 1)) (.ite (.ic .gt (.load (.off (.reg 0) 1)) (.reg 2)) (.store (.off (.reg 0) 1) (.reg 2)) (.skip))

/-- `glm_ivec2_abs`: include/cglm/ivec2.h:652-657. -/
def glm_ivec2_abs : IFn where
  locals := []
  nregs := 0
  body := 
    .seq (.store (.reg 1) (.i1 .abs (.load (.reg 0)))) <|
    .store (.off (.reg 1) 1) (.i1 .abs (.load (.off (.reg 0) 1)))

end Cglm.CI

end IIvec2

section IIvec3

/- Generated from include/cglm/ivec3.h by tools/imemgen.py (memory semantics); do not edit by hand. -/

set_option maxRecDepth 10000

namespace Cglm.CI
open CMem

/-- `glm_ivec3`: include/cglm/ivec3.h:77-83. -/
def glm_ivec3 : IFn where
  locals := []
  nregs := 0
  body := 
    .seq (.store (.reg 1) (.load (.reg 0))) <|
    .seq (.store (.off (.reg 1) 1) (.load (.off (.reg 0) 1))) <|
    .store (.off (.reg 1) 2) (.load (.off (.reg 0) 2))

/-- `glm_ivec3_copy`: include/cglm/ivec3.h:91-97. -/
def glm_ivec3_copy : IFn where
  locals := []
  nregs := 0
  body := 
    .seq (.store (.reg 1) (.load (.reg 0))) <|
    .seq (.store (.off (.reg 1) 1) (.load (.off (.reg 0) 1))) <|
    .store (.off (.reg 1) 2) (.load (.off (.reg 0) 2))

/-- `glm_ivec3_zero`: include/cglm/ivec3.h:104-108. -/
def glm_ivec3_zero : IFn where
  locals := []
  nregs := 0
  body := 
    .seq (.store (.off (.reg 0) 2) (.ilit 0)) <|
    .seq (.store (.off (.reg 0) 1) (.load (.off (.reg 0) 2))) <|
    .store (.reg 0) (.load (.off (.reg 0) 1))

/-- `glm_ivec3_one`: include/cglm/ivec3.h:115-119. -/
def glm_ivec3_one : IFn where
  locals := []
  nregs := 0
  body := 
    .seq (.store (.off (.reg 0) 2) (.ilit 1)) <|
    .seq (.store (.off (.reg 0) 1) (.load (.off (.reg 0) 2))) <|
    .store (.reg 0) (.load (.off (.reg 0) 1))

/-- `glm_ivec3_dot`: include/cglm/ivec3.h:129-133. -/
def glm_ivec3_dot : IFn where
  locals := []
  nregs := 0
  body := .ret (.i2 .add (.i2 .add (.i2 .mul (.load (.reg 0)) (.load (.reg 1))) (.i2 .mul (.load (.off (.reg 0) 1)) (.load (.off (.reg 1) 1)))) (.i2 .mul (.load (.off (.reg 0) 2)) (.load (.off (.reg 1) 2))))

/-- `glm_ivec3_norm2`: include/cglm/ivec3.h:146-150. -/
def glm_ivec3_norm2 : IFn where
  locals := []
  nregs := 1
  body := 
    .seq (.call (some 1) glm_ivec3_dot.locals glm_ivec3_dot.nregs glm_ivec3_dot.body [.reg 0, .reg 0]) <|
    .ret (.reg 1)

/-- `glm_ivec3_norm`: include/cglm/ivec3.h:160-164. -/
def glm_ivec3_norm : IFn where
  locals := []
  nregs := 1
  body := 
    .seq (.call (some 1) glm_ivec3_norm2.locals glm_ivec3_norm2.nregs glm_ivec3_norm2.body [.reg 0]) <|
    .ret (.toInt (.f1 .sqrtf (.ofInt (.reg 1))))

/-- `glm_ivec3_add`: include/cglm/ivec3.h:173-179. -/
def glm_ivec3_add : IFn where
  locals := []
  nregs := 0
  body := 
    .seq (.store (.reg 2) (.i2 .add (.load (.reg 0)) (.load (.reg 1)))) <|
    .seq (.store (.off (.reg 2) 1) (.i2 .add (.load (.off (.reg 0) 1)) (.load (.off (.reg 1) 1)))) <|
    .store (.off (.reg 2) 2) (.i2 .add (.load (.off (.reg 0) 2)) (.load (.off (.reg 1) 2)))

/-- `glm_ivec3_adds`: include/cglm/ivec3.h:188-194. -/
def glm_ivec3_adds : IFn where
  locals := []
  nregs := 0
  body := 
    .seq (.store (.reg 2) (.i2 .add (.load (.reg 0)) (.reg 1))) <|
    .seq (.store (.off (.reg 2) 1) (.i2 .add (.load (.off (.reg 0) 1)) (.reg 1))) <|
    .store (.off (.reg 2) 2) (.i2 .add (.load (.off (.reg 0) 2)) (.reg 1))

/-- `glm_ivec3_sub`: include/cglm/ivec3.h:203-209. -/
def glm_ivec3_sub : IFn where
  locals := []
  nregs := 0
  body := 
    .seq (.store (.reg 2) (.i2 .sub (.load (.reg 0)) (.load (.reg 1)))) <|
    .seq (.store (.off (.reg 2) 1) (.i2 .sub (.load (.off (.reg 0) 1)) (.load (.off (.reg 1) 1)))) <|
    .store (.off (.reg 2) 2) (.i2 .sub (.load (.off (.reg 0) 2)) (.load (.off (.reg 1) 2)))

/-- `glm_ivec3_subs`: include/cglm/ivec3.h:218-224. -/
def glm_ivec3_subs : IFn where
  locals := []
  nregs := 0
  body := 
    .seq (.store (.reg 2) (.i2 .sub (.load (.reg 0)) (.reg 1))) <|
    .seq (.store (.off (.reg 2) 1) (.i2 .sub (.load (.off (.reg 0) 1)) (.reg 1))) <|
    .store (.off (.reg 2) 2) (.i2 .sub (.load (.off (.reg 0) 2)) (.reg 1))

/-- `glm_ivec3_mul`: include/cglm/ivec3.h:233-239. -/
def glm_ivec3_mul : IFn where
  locals := []
  nregs := 0
  body := 
    .seq (.store (.reg 2) (.i2 .mul (.load (.reg 0)) (.load (.reg 1)))) <|
    .seq (.store (.off (.reg 2) 1) (.i2 .mul (.load (.off (.reg 0) 1)) (.load (.off (.reg 1) 1)))) <|
    .store (.off (.reg 2) 2) (.i2 .mul (.load (.off (.reg 0) 2)) (.load (.off (.reg 1) 2)))

/-- `glm_ivec3_scale`: include/cglm/ivec3.h:248-254. -/
def glm_ivec3_scale : IFn where
  locals := []
  nregs := 0
  body := 
    .seq (.store (.reg 2) (.i2 .mul (.load (.reg 0)) (.reg 1))) <|
    .seq (.store (.off (.reg 2) 1) (.i2 .mul (.load (.off (.reg 0) 1)) (.reg 1))) <|
    .store (.off (.reg 2) 2) (.i2 .mul (.load (.off (.reg 0) 2)) (.reg 1))

/-- `glm_ivec3_div`: include/cglm/ivec3.h:263-269. -/
def glm_ivec3_div : IFn where
  locals := []
  nregs := 0
  body := 
    .seq (.store (.reg 2) (.i2 .div (.load (.reg 0)) (.load (.reg 1)))) <|
    .seq (.store (.off (.reg 2) 1) (.i2 .div (.load (.off (.reg 0) 1)) (.load (.off (.reg 1) 1)))) <|
    .store (.off (.reg 2) 2) (.i2 .div (.load (.off (.reg 0) 2)) (.load (.off (.reg 1) 2)))

/-- `glm_ivec3_divs`: include/cglm/ivec3.h:278-284. -/
def glm_ivec3_divs : IFn where
  locals := []
  nregs := 0
  body := 
    .seq (.store (.reg 2) (.i2 .div (.load (.reg 0)) (.reg 1))) <|
    .seq (.store (.off (.reg 2) 1) (.i2 .div (.load (.off (.reg 0) 1)) (.reg 1))) <|
    .store (.off (.reg 2) 2) (.i2 .div (.load (.off (.reg 0) 2)) (.reg 1))

/-- `glm_ivec3_mod`: include/cglm/ivec3.h:295-301. -/
def glm_ivec3_mod : IFn where
  locals := []
  nregs := 0
  body := 
    .seq (.store (.reg 2) (.i2 .mod (.load (.reg 0)) (.load (.reg 1)))) <|
    .seq (.store (.off (.reg 2) 1) (.i2 .mod (.load (.off (.reg 0) 1)) (.load (.off (.reg 1) 1)))) <|
    .store (.off (.reg 2) 2) (.i2 .mod (.load (.off (.reg 0) 2)) (.load (.off (.reg 1) 2)))

/-- `glm_ivec3_addadd`: include/cglm/ivec3.h:312-318. -/
def glm_ivec3_addadd : IFn where
  locals := []
  nregs := 0
  body := 
    .seq (.store (.reg 2) (.i2 .add (.load (.reg 2)) (.i2 .add (.load (.reg 0)) (.load (.reg 1))))) <|
    .seq (.store (.off (.reg 2) 1) (.i2 .add (.load (.off (.reg 2) 1)) (.i2 .add (.load (.off (.reg 0) 1)) (.load (.off (.reg 1) 1))))) <|
    .store (.off (.reg 2) 2) (.i2 .add (.load (.off (.reg 2) 2)) (.i2 .add (.load (.off (.reg 0) 2)) (.load (.off (.reg 1) 2))))

/-- `glm_ivec3_addadds`: include/cglm/ivec3.h:329-335. -/
def glm_ivec3_addadds : IFn where
  locals := []
  nregs := 0
  body := 
    .seq (.store (.reg 2) (.i2 .add (.load (.reg 2)) (.i2 .add (.load (.reg 0)) (.reg 1)))) <|
    .seq (.store (.off (.reg 2) 1) (.i2 .add (.load (.off (.reg 2) 1)) (.i2 .add (.load (.off (.reg 0) 1)) (.reg 1)))) <|
    .store (.off (.reg 2) 2) (.i2 .add (.load (.off (.reg 2) 2)) (.i2 .add (.load (.off (.reg 0) 2)) (.reg 1)))

/-- `glm_ivec3_subadd`: include/cglm/ivec3.h:346-352. -/
def glm_ivec3_subadd : IFn where
  locals := []
  nregs := 0
  body := 
    .seq (.store (.reg 2) (.i2 .add (.load (.reg 2)) (.i2 .sub (.load (.reg 0)) (.load (.reg 1))))) <|
    .seq (.store (.off (.reg 2) 1) (.i2 .add (.load (.off (.reg 2) 1)) (.i2 .sub (.load (.off (.reg 0) 1)) (.load (.off (.reg 1) 1))))) <|
    .store (.off (.reg 2) 2) (.i2 .add (.load (.off (.reg 2) 2)) (.i2 .sub (.load (.off (.reg 0) 2)) (.load (.off (.reg 1) 2))))

/-- `glm_ivec3_subadds`: include/cglm/ivec3.h:363-369. -/
def glm_ivec3_subadds : IFn where
  locals := []
  nregs := 0
  body := 
    .seq (.store (.reg 2) (.i2 .add (.load (.reg 2)) (.i2 .sub (.load (.reg 0)) (.reg 1)))) <|
    .seq (.store (.off (.reg 2) 1) (.i2 .add (.load (.off (.reg 2) 1)) (.i2 .sub (.load (.off (.reg 0) 1)) (.reg 1)))) <|
    .store (.off (.reg 2) 2) (.i2 .add (.load (.off (.reg 2) 2)) (.i2 .sub (.load (.off (.reg 0) 2)) (.reg 1)))

/-- `glm_ivec3_muladd`: include/cglm/ivec3.h:380-386. -/
def glm_ivec3_muladd : IFn where
  locals := []
  nregs := 0
  body := 
    .seq (.store (.reg 2) (.i2 .add (.load (.reg 2)) (.i2 .mul (.load (.reg 0)) (.load (.reg 1))))) <|
    .seq (.store (.off (.reg 2) 1) (.i2 .add (.load (.off (.reg 2) 1)) (.i2 .mul (.load (.off (.reg 0) 1)) (.load (.off (.reg 1) 1))))) <|
    .store (.off (.reg 2) 2) (.i2 .add (.load (.off (.reg 2) 2)) (.i2 .mul (.load (.off (.reg 0) 2)) (.load (.off (.reg 1) 2))))

/-- `glm_ivec3_muladds`: include/cglm/ivec3.h:397-403. -/
def glm_ivec3_muladds : IFn where
  locals := []
  nregs := 0
  body := 
    .seq (.store (.reg 2) (.i2 .add (.load (.reg 2)) (.i2 .mul (.load (.reg 0)) (.reg 1)))) <|
    .seq (.store (.off (.reg 2) 1) (.i2 .add (.load (.off (.reg 2) 1)) (.i2 .mul (.load (.off (.reg 0) 1)) (.reg 1)))) <|
    .store (.off (.reg 2) 2) (.i2 .add (.load (.off (.reg 2) 2)) (.i2 .mul (.load (.off (.reg 0) 2)) (.reg 1)))

/-- `glm_ivec3_maxadd`: include/cglm/ivec3.h:414-420. -/
def glm_ivec3_maxadd : IFn where
  locals := []
  nregs := 3
  body := 
    .seq (.call (some 3) glm_imax.locals glm_imax.nregs glm_imax.body [.load (.reg 0), .load (.reg 1)]) <|
    .seq (.store (.reg 2) (.i2 .add (.load (.reg 2)) (.reg 3))) <|
    .seq (.call (some 4) glm_imax.locals glm_imax.nregs glm_imax.body [.load (.off (.reg 0) 1), .load (.off (.reg 1) 1)]) <|
    .seq (.store (.off (.reg 2) 1) (.i2 .add (.load (.off (.reg 2) 1)) (.reg 4))) <|
    .seq (.call (some 5) glm_imax.locals glm_imax.nregs glm_imax.body [.load (.off (.reg 0) 2), .load (.off (.reg 1) 2)]) <|
    .store (.off (.reg 2) 2) (.i2 .add (.load (.off (.reg 2) 2)) (.reg 5))

/-- `glm_ivec3_minadd`: include/cglm/ivec3.h:431-437. -/
def glm_ivec3_minadd : IFn where
  locals := []
  nregs := 3
  body := 
    .seq (.call (some 3) glm_imin.locals glm_imin.nregs glm_imin.body [.load (.reg 0), .load (.reg 1)]) <|
    .seq (.store (.reg 2) (.i2 .add (.load (.reg 2)) (.reg 3))) <|
    .seq (.call (some 4) glm_imin.locals glm_imin.nregs glm_imin.body [.load (.off (.reg 0) 1), .load (.off (.reg 1) 1)]) <|
    .seq (.store (.off (.reg 2) 1) (.i2 .add (.load (.off (.reg 2) 1)) (.reg 4))) <|
    .seq (.call (some 5) glm_imin.locals glm_imin.nregs glm_imin.body [.load (.off (.reg 0) 2), .load (.off (.reg 1) 2)]) <|
    .store (.off (.reg 2) 2) (.i2 .add (.load (.off (.reg 2) 2)) (.reg 5))

/-- `glm_ivec3_subsub`: include/cglm/ivec3.h:448-454. -/
def glm_ivec3_subsub : IFn where
  locals := []
  nregs := 0
  body := 
    .seq (.store (.reg 2) (.i2 .sub (.load (.reg 2)) (.i2 .sub (.load (.reg 0)) (.load (.reg 1))))) <|
    .seq (.store (.off (.reg 2) 1) (.i2 .sub (.load (.off (.reg 2) 1)) (.i2 .sub (.load (.off (.reg 0) 1)) (.load (.off (.reg 1) 1))))) <|
    .store (.off (.reg 2) 2) (.i2 .sub (.load (.off (.reg 2) 2)) (.i2 .sub (.load (.off (.reg 0) 2)) (.load (.off (.reg 1) 2))))

/-- `glm_ivec3_subsubs`: include/cglm/ivec3.h:465-471. -/
def glm_ivec3_subsubs : IFn where
  locals := []
  nregs := 0
  body := 
    .seq (.store (.reg 2) (.i2 .sub (.load (.reg 2)) (.i2 .sub (.load (.reg 0)) (.reg 1)))) <|
    .seq (.store (.off (.reg 2) 1) (.i2 .sub (.load (.off (.reg 2) 1)) (.i2 .sub (.load (.off (.reg 0) 1)) (.reg 1)))) <|
    .store (.off (.reg 2) 2) (.i2 .sub (.load (.off (.reg 2) 2)) (.i2 .sub (.load (.off (.reg 0) 2)) (.reg 1)))

/-- `glm_ivec3_addsub`: include/cglm/ivec3.h:482-488. -/
def glm_ivec3_addsub : IFn where
  locals := []
  nregs := 0
  body := 
    .seq (.store (.reg 2) (.i2 .sub (.load (.reg 2)) (.i2 .add (.load (.reg 0)) (.load (.reg 1))))) <|
    .seq (.store (.off (.reg 2) 1) (.i2 .sub (.load (.off (.reg 2) 1)) (.i2 .add (.load (.off (.reg 0) 1)) (.load (.off (.reg 1) 1))))) <|
    .store (.off (.reg 2) 2) (.i2 .sub (.load (.off (.reg 2) 2)) (.i2 .add (.load (.off (.reg 0) 2)) (.load (.off (.reg 1) 2))))

/-- `glm_ivec3_addsubs`: include/cglm/ivec3.h:499-505. -/
def glm_ivec3_addsubs : IFn where
  locals := []
  nregs := 0
  body := 
    .seq (.store (.reg 2) (.i2 .sub (.load (.reg 2)) (.i2 .add (.load (.reg 0)) (.reg 1)))) <|
    .seq (.store (.off (.reg 2) 1) (.i2 .sub (.load (.off (.reg 2) 1)) (.i2 .add (.load (.off (.reg 0) 1)) (.reg 1)))) <|
    .store (.off (.reg 2) 2) (.i2 .sub (.load (.off (.reg 2) 2)) (.i2 .add (.load (.off (.reg 0) 2)) (.reg 1)))

/-- `glm_ivec3_mulsub`: include/cglm/ivec3.h:516-522. -/
def glm_ivec3_mulsub : IFn where
  locals := []
  nregs := 0
  body := 
    .seq (.store (.reg 2) (.i2 .sub (.load (.reg 2)) (.i2 .mul (.load (.reg 0)) (.load (.reg 1))))) <|
    .seq (.store (.off (.reg 2) 1) (.i2 .sub (.load (.off (.reg 2) 1)) (.i2 .mul (.load (.off (.reg 0) 1)) (.load (.off (.reg 1) 1))))) <|
    .store (.off (.reg 2) 2) (.i2 .sub (.load (.off (.reg 2) 2)) (.i2 .mul (.load (.off (.reg 0) 2)) (.load (.off (.reg 1) 2))))

/-- `glm_ivec3_mulsubs`: include/cglm/ivec3.h:533-539. -/
def glm_ivec3_mulsubs : IFn where
  locals := []
  nregs := 0
  body := 
    .seq (.store (.reg 2) (.i2 .sub (.load (.reg 2)) (.i2 .mul (.load (.reg 0)) (.reg 1)))) <|
    .seq (.store (.off (.reg 2) 1) (.i2 .sub (.load (.off (.reg 2) 1)) (.i2 .mul (.load (.off (.reg 0) 1)) (.reg 1)))) <|
    .store (.off (.reg 2) 2) (.i2 .sub (.load (.off (.reg 2) 2)) (.i2 .mul (.load (.off (.reg 0) 2)) (.reg 1)))

/-- `glm_ivec3_maxsub`: include/cglm/ivec3.h:550-556. -/
def glm_ivec3_maxsub : IFn where
  locals := []
  nregs := 3
  body := 
    .seq (.call (some 3) glm_imax.locals glm_imax.nregs glm_imax.body [.load (.reg 0), .load (.reg 1)]) <|
    .seq (.store (.reg 2) (.i2 .sub (.load (.reg 2)) (.reg 3))) <|
    .seq (.call (some 4) glm_imax.locals glm_imax.nregs glm_imax.body [.load (.off (.reg 0) 1), .load (.off (.reg 1) 1)]) <|
    .seq (.store (.off (.reg 2) 1) (.i2 .sub (.load (.off (.reg 2) 1)) (.reg 4))) <|
    .seq (.call (some 5) glm_imax.locals glm_imax.nregs glm_imax.body [.load (.off (.reg 0) 2), .load (.off (.reg 1) 2)]) <|
    .store (.off (.reg 2) 2) (.i2 .sub (.load (.off (.reg 2) 2)) (.reg 5))

/-- `glm_ivec3_minsub`: include/cglm/ivec3.h:567-573. -/
def glm_ivec3_minsub : IFn where
  locals := []
  nregs := 3
  body := 
    .seq (.call (some 3) glm_imin.locals glm_imin.nregs glm_imin.body [.load (.reg 0), .load (.reg 1)]) <|
    .seq (.store (.reg 2) (.i2 .sub (.load (.reg 2)) (.reg 3))) <|
    .seq (.call (some 4) glm_imin.locals glm_imin.nregs glm_imin.body [.load (.off (.reg 0) 1), .load (.off (.reg 1) 1)]) <|
    .seq (.store (.off (.reg 2) 1) (.i2 .sub (.load (.off (.reg 2) 1)) (.reg 4))) <|
    .seq (.call (some 5) glm_imin.locals glm_imin.nregs glm_imin.body [.load (.off (.reg 0) 2), .load (.off (.reg 1) 2)]) <|
    .store (.off (.reg 2) 2) (.i2 .sub (.load (.off (.reg 2) 2)) (.reg 5))

/-- `glm_ivec3_distance2`: include/cglm/ivec3.h:582-590. -/
def glm_ivec3_distance2 : IFn where
  locals := []
  nregs := 3
  body := 
    .seq (.set 2 (.i2 .sub (.load (.reg 0)) (.load (.reg 1)))) <|
    .seq (.set 3 (.i2 .sub (.load (.off (.reg 0) 1)) (.load (.off (.reg 1) 1)))) <|
    .seq (.set 4 (.i2 .sub (.load (.off (.reg 0) 2)) (.load (.off (.reg 1) 2)))) <|
    .ret (.i2 .add (.i2 .add (.i2 .mul (.reg 2) (.reg 2)) (.i2 .mul (.reg 3) (.reg 3))) (.i2 .mul (.reg 4) (.reg 4)))

/-- `glm_ivec3_distance`: include/cglm/ivec3.h:599-603. -/
def glm_ivec3_distance : IFn where
  locals := []
  nregs := 1
  body := 
    .seq (.call (some 2) glm_ivec3_distance2.locals glm_ivec3_distance2.nregs glm_ivec3_distance2.body [.reg 0, .reg 1]) <|
    .ret (.f1 .sqrtf (.ofInt (.reg 2)))

/-- `glm_ivec3_fill`: include/cglm/ivec3.h:611-615. -/
def glm_ivec3_fill : IFn where
  locals := []
  nregs := 0
  body := 
    .seq (.store (.off (.reg 0) 2) (.reg 1)) <|
    .seq (.store (.off (.reg 0) 1) (.load (.off (.reg 0) 2))) <|
    .store (.reg 0) (.load (.off (.reg 0) 1))

/-- `glm_ivec3_eq`: include/cglm/ivec3.h:623-627. -/
def glm_ivec3_eq : IFn where
  locals := []
  nregs := 0
  body := .ret (.and (.and (.ic .eq (.load (.reg 0)) (.reg 1)) (.ic .eq (.load (.reg 0)) (.load (.off (.reg 0) 1)))) (.ic .eq (.load (.reg 0)) (.load (.off (.reg 0) 2))))

/-- `glm_ivec3_eqv`: include/cglm/ivec3.h:635-641. -/
def glm_ivec3_eqv : IFn where
  locals := []
  nregs := 0
  body := .ret (.and (.and (.ic .eq (.load (.reg 0)) (.load (.reg 1))) (.ic .eq (.load (.off (.reg 0) 1)) (.load (.off (.reg 1) 1)))) (.ic .eq (.load (.off (.reg 0) 2)) (.load (.off (.reg 1) 2))))

/-- `glm_ivec3_maxv`: include/cglm/ivec3.h:650-656. -/
def glm_ivec3_maxv : IFn where
  locals := []
  nregs := 0
  body := 
    .seq (.store (.reg 2) (.ite (.ic .gt (.load (.reg 0)) (.load (.reg 1))) (.load (.reg 0)) (.load (.reg 1)))) <|
    .seq (.store (.off (.reg 2) 1) (.ite (.ic .gt (.load (.off (.reg 0) 1)) (.load (.off (.reg 1) 1))) (.load (.off (.reg 0) 1)) (.load (.off (.reg 1) 1)))) <|
    .store (.off (.reg 2) 2) (.ite (.ic .gt (.load (.off (.reg 0) 2)) (.load (.off (.reg 1) 2))) (.load (.off (.reg 0) 2)) (.load (.off (.reg 1) 2)))

/-- `glm_ivec3_minv`: include/cglm/ivec3.h:665-671. -/
def glm_ivec3_minv : IFn where
  locals := []
  nregs := 0
  body := 
    .seq (.store (.reg 2) (.ite (.ic .lt (.load (.reg 0)) (.load (.reg 1))) (.load (.reg 0)) (.load (.reg 1)))) <|
    .seq (.store (.off (.reg 2) 1) (.ite (.ic .lt (.load (.off (.reg 0) 1)) (.load (.off (.reg 1) 1))) (.load (.off (.reg 0) 1)) (.load (.off (.reg 1) 1)))) <|
    .store (.off (.reg 2) 2) (.ite (.ic .lt (.load (.off (.reg 0) 2)) (.load (.off (.reg 1) 2))) (.load (.off (.reg 0) 2)) (.load (.off (.reg 1) 2)))

/-- `glm_ivec3_clamp`: include/cglm/ivec3.h:680-697. -/
def glm_ivec3_clamp : IFn where
  locals := []
  nregs := 0
  body := 
    .seq (.ite (.ic .lt (.load (.reg 0)) (.reg 1)) (.store (.reg 0) (.reg 1)) (.ite (.ic .gt (.load (.reg 0)) (.reg 2)) (.store (.reg 0) (.reg 2)) (.skip))) <|
    .seq (.ite (.ic .lt (.load (.off (.reg 0) 1)) (.reg 1)) (.store (.off (.reg 0) 1) (.reg 1)) (.ite (.ic .gt (.load (.off (.reg 0) 1)) (.reg 2)) (.store (.off (.reg 0) 1) (.reg 2)) (.skip))) <|
    .ite (.ic .lt (.load (.off (.reg 0) 2)) (.reg 1)) (.store (.off (.reg 0) 2) (.reg 1)) (.ite (.ic .gt (.load (.off (.reg 0) 2)) (.reg 2)) (.store (.off (.reg 0) 2) (.reg 2)) (.skip))

/-- `glm_ivec3_abs`: include/cglm/ivec3.h:705-711. -/
def glm_ivec3_abs : IFn where
  locals := []
  nregs := 0
  body := 
    .seq (.store (.reg 1) (.i1 .abs (.load (.reg 0)))) <|
    .seq (.store (.off (.reg 1) 1) (.i1 .abs (.load (.off (.reg 0) 1)))) <|
    .store (.off (.reg 1) 2) (.i1 .abs (.load (.off (.reg 0) 2)))

end Cglm.CI

end IIvec3

section IIvec4

/- Generated from include/cglm/ivec4.h by tools/imemgen.py (memory semantics); do not edit by hand. -/

set_option maxRecDepth 10000

namespace Cglm.CI
open CMem

/-- `glm_ivec4`: include/cglm/ivec4.h:69-76. -/
def glm_ivec4 : IFn where
  locals := []
  nregs := 0
  body := 
    .seq (.store (.reg 2) (.load (.reg 0))) <|
    .seq (.store (.off (.reg 2) 1) (.load (.off (.reg 0) 1))) <|
    .seq (.store (.off (.reg 2) 2) (.load (.off (.reg 0) 2))) <|
    .store (.off (.reg 2) 3) (.reg 1)

/-- `glm_ivec4_copy`: include/cglm/ivec4.h:84-91. -/
def glm_ivec4_copy : IFn where
  locals := []
  nregs := 0
  body := 
    .seq (.store (.reg 1) (.load (.reg 0))) <|
    .seq (.store (.off (.reg 1) 1) (.load (.off (.reg 0) 1))) <|
    .seq (.store (.off (.reg 1) 2) (.load (.off (.reg 0) 2))) <|
    .store (.off (.reg 1) 3) (.load (.off (.reg 0) 3))

/-- `glm_ivec4_zero`: include/cglm/ivec4.h:98-102. -/
def glm_ivec4_zero : IFn where
  locals := []
  nregs := 0
  body := 
    .seq (.store (.off (.reg 0) 3) (.ilit 0)) <|
    .seq (.store (.off (.reg 0) 2) (.load (.off (.reg 0) 3))) <|
    .seq (.store (.off (.reg 0) 1) (.load (.off (.reg 0) 2))) <|
    .store (.reg 0) (.load (.off (.reg 0) 1))

/-- `glm_ivec4_one`: include/cglm/ivec4.h:109-113. -/
def glm_ivec4_one : IFn where
  locals := []
  nregs := 0
  body := 
    .seq (.store (.off (.reg 0) 3) (.ilit 1)) <|
    .seq (.store (.off (.reg 0) 2) (.load (.off (.reg 0) 3))) <|
    .seq (.store (.off (.reg 0) 1) (.load (.off (.reg 0) 2))) <|
    .store (.reg 0) (.load (.off (.reg 0) 1))

/-- `glm_ivec4_add`: include/cglm/ivec4.h:122-129. -/
def glm_ivec4_add : IFn where
  locals := []
  nregs := 0
  body := 
    .seq (.store (.reg 2) (.i2 .add (.load (.reg 0)) (.load (.reg 1)))) <|
    .seq (.store (.off (.reg 2) 1) (.i2 .add (.load (.off (.reg 0) 1)) (.load (.off (.reg 1) 1)))) <|
    .seq (.store (.off (.reg 2) 2) (.i2 .add (.load (.off (.reg 0) 2)) (.load (.off (.reg 1) 2)))) <|
    .store (.off (.reg 2) 3) (.i2 .add (.load (.off (.reg 0) 3)) (.load (.off (.reg 1) 3)))

/-- `glm_ivec4_adds`: include/cglm/ivec4.h:138-145. -/
def glm_ivec4_adds : IFn where
  locals := []
  nregs := 0
  body := 
    .seq (.store (.reg 2) (.i2 .add (.load (.reg 0)) (.reg 1))) <|
    .seq (.store (.off (.reg 2) 1) (.i2 .add (.load (.off (.reg 0) 1)) (.reg 1))) <|
    .seq (.store (.off (.reg 2) 2) (.i2 .add (.load (.off (.reg 0) 2)) (.reg 1))) <|
    .store (.off (.reg 2) 3) (.i2 .add (.load (.off (.reg 0) 3)) (.reg 1))

/-- `glm_ivec4_sub`: include/cglm/ivec4.h:154-161. -/
def glm_ivec4_sub : IFn where
  locals := []
  nregs := 0
  body := 
    .seq (.store (.reg 2) (.i2 .sub (.load (.reg 0)) (.load (.reg 1)))) <|
    .seq (.store (.off (.reg 2) 1) (.i2 .sub (.load (.off (.reg 0) 1)) (.load (.off (.reg 1) 1)))) <|
    .seq (.store (.off (.reg 2) 2) (.i2 .sub (.load (.off (.reg 0) 2)) (.load (.off (.reg 1) 2)))) <|
    .store (.off (.reg 2) 3) (.i2 .sub (.load (.off (.reg 0) 3)) (.load (.off (.reg 1) 3)))

/-- `glm_ivec4_subs`: include/cglm/ivec4.h:170-177. -/
def glm_ivec4_subs : IFn where
  locals := []
  nregs := 0
  body := 
    .seq (.store (.reg 2) (.i2 .sub (.load (.reg 0)) (.reg 1))) <|
    .seq (.store (.off (.reg 2) 1) (.i2 .sub (.load (.off (.reg 0) 1)) (.reg 1))) <|
    .seq (.store (.off (.reg 2) 2) (.i2 .sub (.load (.off (.reg 0) 2)) (.reg 1))) <|
    .store (.off (.reg 2) 3) (.i2 .sub (.load (.off (.reg 0) 3)) (.reg 1))

/-- `glm_ivec4_mul`: include/cglm/ivec4.h:186-193. -/
def glm_ivec4_mul : IFn where
  locals := []
  nregs := 0
  body := 
    .seq (.store (.reg 2) (.i2 .mul (.load (.reg 0)) (.load (.reg 1)))) <|
    .seq (.store (.off (.reg 2) 1) (.i2 .mul (.load (.off (.reg 0) 1)) (.load (.off (.reg 1) 1)))) <|
    .seq (.store (.off (.reg 2) 2) (.i2 .mul (.load (.off (.reg 0) 2)) (.load (.off (.reg 1) 2)))) <|
    .store (.off (.reg 2) 3) (.i2 .mul (.load (.off (.reg 0) 3)) (.load (.off (.reg 1) 3)))

/-- `glm_ivec4_scale`: include/cglm/ivec4.h:202-209. -/
def glm_ivec4_scale : IFn where
  locals := []
  nregs := 0
  body := 
    .seq (.store (.reg 2) (.i2 .mul (.load (.reg 0)) (.reg 1))) <|
    .seq (.store (.off (.reg 2) 1) (.i2 .mul (.load (.off (.reg 0) 1)) (.reg 1))) <|
    .seq (.store (.off (.reg 2) 2) (.i2 .mul (.load (.off (.reg 0) 2)) (.reg 1))) <|
    .store (.off (.reg 2) 3) (.i2 .mul (.load (.off (.reg 0) 3)) (.reg 1))

/-- `glm_ivec4_addadd`: include/cglm/ivec4.h:220-227. -/
def glm_ivec4_addadd : IFn where
  locals := []
  nregs := 0
  body := 
    .seq (.store (.reg 2) (.i2 .add (.load (.reg 2)) (.i2 .add (.load (.reg 0)) (.load (.reg 1))))) <|
    .seq (.store (.off (.reg 2) 1) (.i2 .add (.load (.off (.reg 2) 1)) (.i2 .add (.load (.off (.reg 0) 1)) (.load (.off (.reg 1) 1))))) <|
    .seq (.store (.off (.reg 2) 2) (.i2 .add (.load (.off (.reg 2) 2)) (.i2 .add (.load (.off (.reg 0) 2)) (.load (.off (.reg 1) 2))))) <|
    .store (.off (.reg 2) 3) (.i2 .add (.load (.off (.reg 2) 3)) (.i2 .add (.load (.off (.reg 0) 3)) (.load (.off (.reg 1) 3))))

/-- `glm_ivec4_addadds`: include/cglm/ivec4.h:238-245. -/
def glm_ivec4_addadds : IFn where
  locals := []
  nregs := 0
  body := 
    .seq (.store (.reg 2) (.i2 .add (.load (.reg 2)) (.i2 .add (.load (.reg 0)) (.reg 1)))) <|
    .seq (.store (.off (.reg 2) 1) (.i2 .add (.load (.off (.reg 2) 1)) (.i2 .add (.load (.off (.reg 0) 1)) (.reg 1)))) <|
    .seq (.store (.off (.reg 2) 2) (.i2 .add (.load (.off (.reg 2) 2)) (.i2 .add (.load (.off (.reg 0) 2)) (.reg 1)))) <|
    .store (.off (.reg 2) 3) (.i2 .add (.load (.off (.reg 2) 3)) (.i2 .add (.load (.off (.reg 0) 3)) (.reg 1)))

/-- `glm_ivec4_subadd`: include/cglm/ivec4.h:256-263. -/
def glm_ivec4_subadd : IFn where
  locals := []
  nregs := 0
  body := 
    .seq (.store (.reg 2) (.i2 .add (.load (.reg 2)) (.i2 .sub (.load (.reg 0)) (.load (.reg 1))))) <|
    .seq (.store (.off (.reg 2) 1) (.i2 .add (.load (.off (.reg 2) 1)) (.i2 .sub (.load (.off (.reg 0) 1)) (.load (.off (.reg 1) 1))))) <|
    .seq (.store (.off (.reg 2) 2) (.i2 .add (.load (.off (.reg 2) 2)) (.i2 .sub (.load (.off (.reg 0) 2)) (.load (.off (.reg 1) 2))))) <|
    .store (.off (.reg 2) 3) (.i2 .add (.load (.off (.reg 2) 3)) (.i2 .sub (.load (.off (.reg 0) 3)) (.load (.off (.reg 1) 3))))

/-- `glm_ivec4_subadds`: include/cglm/ivec4.h:274-281. -/
def glm_ivec4_subadds : IFn where
  locals := []
  nregs := 0
  body := 
    .seq (.store (.reg 2) (.i2 .add (.load (.reg 2)) (.i2 .sub (.load (.reg 0)) (.reg 1)))) <|
    .seq (.store (.off (.reg 2) 1) (.i2 .add (.load (.off (.reg 2) 1)) (.i2 .sub (.load (.off (.reg 0) 1)) (.reg 1)))) <|
    .seq (.store (.off (.reg 2) 2) (.i2 .add (.load (.off (.reg 2) 2)) (.i2 .sub (.load (.off (.reg 0) 2)) (.reg 1)))) <|
    .store (.off (.reg 2) 3) (.i2 .add (.load (.off (.reg 2) 3)) (.i2 .sub (.load (.off (.reg 0) 3)) (.reg 1)))

/-- `glm_ivec4_muladd`: include/cglm/ivec4.h:292-299. -/
def glm_ivec4_muladd : IFn where
  locals := []
  nregs := 0
  body := 
    .seq (.store (.reg 2) (.i2 .add (.load (.reg 2)) (.i2 .mul (.load (.reg 0)) (.load (.reg 1))))) <|
    .seq (.store (.off (.reg 2) 1) (.i2 .add (.load (.off (.reg 2) 1)) (.i2 .mul (.load (.off (.reg 0) 1)) (.load (.off (.reg 1) 1))))) <|
    .seq (.store (.off (.reg 2) 2) (.i2 .add (.load (.off (.reg 2) 2)) (.i2 .mul (.load (.off (.reg 0) 2)) (.load (.off (.reg 1) 2))))) <|
    .store (.off (.reg 2) 3) (.i2 .add (.load (.off (.reg 2) 3)) (.i2 .mul (.load (.off (.reg 0) 3)) (.load (.off (.reg 1) 3))))

/-- `glm_ivec4_muladds`: include/cglm/ivec4.h:310-317. -/
def glm_ivec4_muladds : IFn where
  locals := []
  nregs := 0
  body := 
    .seq (.store (.reg 2) (.i2 .add (.load (.reg 2)) (.i2 .mul (.load (.reg 0)) (.reg 1)))) <|
    .seq (.store (.off (.reg 2) 1) (.i2 .add (.load (.off (.reg 2) 1)) (.i2 .mul (.load (.off (.reg 0) 1)) (.reg 1)))) <|
    .seq (.store (.off (.reg 2) 2) (.i2 .add (.load (.off (.reg 2) 2)) (.i2 .mul (.load (.off (.reg 0) 2)) (.reg 1)))) <|
    .store (.off (.reg 2) 3) (.i2 .add (.load (.off (.reg 2) 3)) (.i2 .mul (.load (.off (.reg 0) 3)) (.reg 1)))

/-- `glm_ivec4_maxadd`: include/cglm/ivec4.h:328-335. -/
def glm_ivec4_maxadd : IFn where
  locals := []
  nregs := 4
  body := 
    .seq (.call (some 3) glm_imax.locals glm_imax.nregs glm_imax.body [.load (.reg 0), .load (.reg 1)]) <|
    .seq (.store (.reg 2) (.i2 .add (.load (.reg 2)) (.reg 3))) <|
    .seq (.call (some 4) glm_imax.locals glm_imax.nregs glm_imax.body [.load (.off (.reg 0) 1), .load (.off (.reg 1) 1)]) <|
    .seq (.store (.off (.reg 2) 1) (.i2 .add (.load (.off (.reg 2) 1)) (.reg 4))) <|
    .seq (.call (some 5) glm_imax.locals glm_imax.nregs glm_imax.body [.load (.off (.reg 0) 2), .load (.off (.reg 1) 2)]) <|
    .seq (.store (.off (.reg 2) 2) (.i2 .add (.load (.off (.reg 2) 2)) (.reg 5))) <|
    .seq (.call (some 6) glm_imax.locals glm_imax.nregs glm_imax.body [.load (.off (.reg 0) 3), .load (.off (.reg 1) 3)]) <|
    .store (.off (.reg 2) 3) (.i2 .add (.load (.off (.reg 2) 3)) (.reg 6))

/-- `glm_ivec4_minadd`: include/cglm/ivec4.h:346-353. -/
def glm_ivec4_minadd : IFn where
  locals := []
  nregs := 4
  body := 
    .seq (.call (some 3) glm_imin.locals glm_imin.nregs glm_imin.body [.load (.reg 0), .load (.reg 1)]) <|
    .seq (.store (.reg 2) (.i2 .add (.load (.reg 2)) (.reg 3))) <|
    .seq (.call (some 4) glm_imin.locals glm_imin.nregs glm_imin.body [.load (.off (.reg 0) 1), .load (.off (.reg 1) 1)]) <|
    .seq (.store (.off (.reg 2) 1) (.i2 .add (.load (.off (.reg 2) 1)) (.reg 4))) <|
    .seq (.call (some 5) glm_imin.locals glm_imin.nregs glm_imin.body [.load (.off (.reg 0) 2), .load (.off (.reg 1) 2)]) <|
    .seq (.store (.off (.reg 2) 2) (.i2 .add (.load (.off (.reg 2) 2)) (.reg 5))) <|
    .seq (.call (some 6) glm_imin.locals glm_imin.nregs glm_imin.body [.load (.off (.reg 0) 3), .load (.off (.reg 1) 3)]) <|
    .store (.off (.reg 2) 3) (.i2 .add (.load (.off (.reg 2) 3)) (.reg 6))

/-- `glm_ivec4_subsub`: include/cglm/ivec4.h:364-371. -/
def glm_ivec4_subsub : IFn where
  locals := []
  nregs := 0
  body := 
    .seq (.store (.reg 2) (.i2 .sub (.load (.reg 2)) (.i2 .sub (.load (.reg 0)) (.load (.reg 1))))) <|
    .seq (.store (.off (.reg 2) 1) (.i2 .sub (.load (.off (.reg 2) 1)) (.i2 .sub (.load (.off (.reg 0) 1)) (.load (.off (.reg 1) 1))))) <|
    .seq (.store (.off (.reg 2) 2) (.i2 .sub (.load (.off (.reg 2) 2)) (.i2 .sub (.load (.off (.reg 0) 2)) (.load (.off (.reg 1) 2))))) <|
    .store (.off (.reg 2) 3) (.i2 .sub (.load (.off (.reg 2) 3)) (.i2 .sub (.load (.off (.reg 0) 3)) (.load (.off (.reg 1) 3))))

/-- `glm_ivec4_subsubs`: include/cglm/ivec4.h:382-389. -/
def glm_ivec4_subsubs : IFn where
  locals := []
  nregs := 0
  body := 
    .seq (.store (.reg 2) (.i2 .sub (.load (.reg 2)) (.i2 .sub (.load (.reg 0)) (.reg 1)))) <|
    .seq (.store (.off (.reg 2) 1) (.i2 .sub (.load (.off (.reg 2) 1)) (.i2 .sub (.load (.off (.reg 0) 1)) (.reg 1)))) <|
    .seq (.store (.off (.reg 2) 2) (.i2 .sub (.load (.off (.reg 2) 2)) (.i2 .sub (.load (.off (.reg 0) 2)) (.reg 1)))) <|
    .store (.off (.reg 2) 3) (.i2 .sub (.load (.off (.reg 2) 3)) (.i2 .sub (.load (.off (.reg 0) 3)) (.reg 1)))

/-- `glm_ivec4_addsub`: include/cglm/ivec4.h:400-407. -/
def glm_ivec4_addsub : IFn where
  locals := []
  nregs := 0
  body := 
    .seq (.store (.reg 2) (.i2 .sub (.load (.reg 2)) (.i2 .add (.load (.reg 0)) (.load (.reg 1))))) <|
    .seq (.store (.off (.reg 2) 1) (.i2 .sub (.load (.off (.reg 2) 1)) (.i2 .add (.load (.off (.reg 0) 1)) (.load (.off (.reg 1) 1))))) <|
    .seq (.store (.off (.reg 2) 2) (.i2 .sub (.load (.off (.reg 2) 2)) (.i2 .add (.load (.off (.reg 0) 2)) (.load (.off (.reg 1) 2))))) <|
    .store (.off (.reg 2) 3) (.i2 .sub (.load (.off (.reg 2) 3)) (.i2 .add (.load (.off (.reg 0) 3)) (.load (.off (.reg 1) 3))))

/-- `glm_ivec4_addsubs`: include/cglm/ivec4.h:418-425. -/
def glm_ivec4_addsubs : IFn where
  locals := []
  nregs := 0
  body := 
    .seq (.store (.reg 2) (.i2 .sub (.load (.reg 2)) (.i2 .add (.load (.reg 0)) (.reg 1)))) <|
    .seq (.store (.off (.reg 2) 1) (.i2 .sub (.load (.off (.reg 2) 1)) (.i2 .add (.load (.off (.reg 0) 1)) (.reg 1)))) <|
    .seq (.store (.off (.reg 2) 2) (.i2 .sub (.load (.off (.reg 2) 2)) (.i2 .add (.load (.off (.reg 0) 2)) (.reg 1)))) <|
    .store (.off (.reg 2) 3) (.i2 .sub (.load (.off (.reg 2) 3)) (.i2 .add (.load (.off (.reg 0) 3)) (.reg 1)))

/-- `glm_ivec4_mulsub`: include/cglm/ivec4.h:436-443. -/
def glm_ivec4_mulsub : IFn where
  locals := []
  nregs := 0
  body := 
    .seq (.store (.reg 2) (.i2 .sub (.load (.reg 2)) (.i2 .mul (.load (.reg 0)) (.load (.reg 1))))) <|
    .seq (.store (.off (.reg 2) 1) (.i2 .sub (.load (.off (.reg 2) 1)) (.i2 .mul (.load (.off (.reg 0) 1)) (.load (.off (.reg 1) 1))))) <|
    .seq (.store (.off (.reg 2) 2) (.i2 .sub (.load (.off (.reg 2) 2)) (.i2 .mul (.load (.off (.reg 0) 2)) (.load (.off (.reg 1) 2))))) <|
    .store (.off (.reg 2) 3) (.i2 .sub (.load (.off (.reg 2) 3)) (.i2 .mul (.load (.off (.reg 0) 3)) (.load (.off (.reg 1) 3))))

/-- `glm_ivec4_mulsubs`: include/cglm/ivec4.h:454-461. -/
def glm_ivec4_mulsubs : IFn where
  locals := []
  nregs := 0
  body := 
    .seq (.store (.reg 2) (.i2 .sub (.load (.reg 2)) (.i2 .mul (.load (.reg 0)) (.reg 1)))) <|
    .seq (.store (.off (.reg 2) 1) (.i2 .sub (.load (.off (.reg 2) 1)) (.i2 .mul (.load (.off (.reg 0) 1)) (.reg 1)))) <|
    .seq (.store (.off (.reg 2) 2) (.i2 .sub (.load (.off (.reg 2) 2)) (.i2 .mul (.load (.off (.reg 0) 2)) (.reg 1)))) <|
    .store (.off (.reg 2) 3) (.i2 .sub (.load (.off (.reg 2) 3)) (.i2 .mul (.load (.off (.reg 0) 3)) (.reg 1)))

/-- `glm_ivec4_maxsub`: include/cglm/ivec4.h:472-479. -/
def glm_ivec4_maxsub : IFn where
  locals := []
  nregs := 4
  body := 
    .seq (.call (some 3) glm_imax.locals glm_imax.nregs glm_imax.body [.load (.reg 0), .load (.reg 1)]) <|
    .seq (.store (.reg 2) (.i2 .sub (.load (.reg 2)) (.reg 3))) <|
    .seq (.call (some 4) glm_imax.locals glm_imax.nregs glm_imax.body [.load (.off (.reg 0) 1), .load (.off (.reg 1) 1)]) <|
    .seq (.store (.off (.reg 2) 1) (.i2 .sub (.load (.off (.reg 2) 1)) (.reg 4))) <|
    .seq (.call (some 5) glm_imax.locals glm_imax.nregs glm_imax.body [.load (.off (.reg 0) 2), .load (.off (.reg 1) 2)]) <|
    .seq (.store (.off (.reg 2) 2) (.i2 .sub (.load (.off (.reg 2) 2)) (.reg 5))) <|
    .seq (.call (some 6) glm_imax.locals glm_imax.nregs glm_imax.body [.load (.off (.reg 0) 3), .load (.off (.reg 1) 3)]) <|
    .store (.off (.reg 2) 3) (.i2 .sub (.load (.off (.reg 2) 3)) (.reg 6))

/-- `glm_ivec4_minsub`: include/cglm/ivec4.h:490-497. -/
def glm_ivec4_minsub : IFn where
  locals := []
  nregs := 4
  body := 
    .seq (.call (some 3) glm_imin.locals glm_imin.nregs glm_imin.body [.load (.reg 0), .load (.reg 1)]) <|
    .seq (.store (.reg 2) (.i2 .sub (.load (.reg 2)) (.reg 3))) <|
    .seq (.call (some 4) glm_imin.locals glm_imin.nregs glm_imin.body [.load (.off (.reg 0) 1), .load (.off (.reg 1) 1)]) <|
    .seq (.store (.off (.reg 2) 1) (.i2 .sub (.load (.off (.reg 2) 1)) (.reg 4))) <|
    .seq (.call (some 5) glm_imin.locals glm_imin.nregs glm_imin.body [.load (.off (.reg 0) 2), .load (.off (.reg 1) 2)]) <|
    .seq (.store (.off (.reg 2) 2) (.i2 .sub (.load (.off (.reg 2) 2)) (.reg 5))) <|
    .seq (.call (some 6) glm_imin.locals glm_imin.nregs glm_imin.body [.load (.off (.reg 0) 3), .load (.off (.reg 1) 3)]) <|
    .store (.off (.reg 2) 3) (.i2 .sub (.load (.off (.reg 2) 3)) (.reg 6))

/-- `glm_ivec4_distance2`: include/cglm/ivec4.h:506-515. -/
def glm_ivec4_distance2 : IFn where
  locals := []
  nregs := 4
  body := 
    .seq (.set 2 (.i2 .sub (.load (.reg 0)) (.load (.reg 1)))) <|
    .seq (.set 3 (.i2 .sub (.load (.off (.reg 0) 1)) (.load (.off (.reg 1) 1)))) <|
    .seq (.set 4 (.i2 .sub (.load (.off (.reg 0) 2)) (.load (.off (.reg 1) 2)))) <|
    .seq (.set 5 (.i2 .sub (.load (.off (.reg 0) 3)) (.load (.off (.reg 1) 3)))) <|
    .ret (.i2 .add (.i2 .add (.i2 .add (.i2 .mul (.reg 2) (.reg 2)) (.i2 .mul (.reg 3) (.reg 3))) (.i2 .mul (.reg 4) (.reg 4))) (.i2 .mul (.reg 5) (.reg 5)))

/-- `glm_ivec4_distance`: include/cglm/ivec4.h:524-528. -/
def glm_ivec4_distance : IFn where
  locals := []
  nregs := 1
  body := 
    .seq (.call (some 2) glm_ivec4_distance2.locals glm_ivec4_distance2.nregs glm_ivec4_distance2.body [.reg 0, .reg 1]) <|
    .ret (.f1 .sqrtf (.ofInt (.reg 2)))

/-- `glm_ivec4_maxv`: include/cglm/ivec4.h:537-544. -/
def glm_ivec4_maxv : IFn where
  locals := []
  nregs := 0
  body := 
    .seq (.store (.reg 2) (.ite (.ic .gt (.load (.reg 0)) (.load (.reg 1))) (.load (.reg 0)) (.load (.reg 1)))) <|
    .seq (.store (.off (.reg 2) 1) (.ite (.ic .gt (.load (.off (.reg 0) 1)) (.load (.off (.reg 1) 1))) (.load (.off (.reg 0) 1)) (.load (.off (.reg 1) 1)))) <|
    .seq (.store (.off (.reg 2) 2) (.ite (.ic .gt (.load (.off (.reg 0) 2)) (.load (.off (.reg 1) 2))) (.load (.off (.reg 0) 2)) (.load (.off (.reg 1) 2)))) <|
    .store (.off (.reg 2) 3) (.ite (.ic .gt (.load (.off (.reg 0) 3)) (.load (.off (.reg 1) 3))) (.load (.off (.reg 0) 3)) (.load (.off (.reg 1) 3)))

/-- `glm_ivec4_minv`: include/cglm/ivec4.h:553-560. -/
def glm_ivec4_minv : IFn where
  locals := []
  nregs := 0
  body := 
    .seq (.store (.reg 2) (.ite (.ic .lt (.load (.reg 0)) (.load (.reg 1))) (.load (.reg 0)) (.load (.reg 1)))) <|
    .seq (.store (.off (.reg 2) 1) (.ite (.ic .lt (.load (.off (.reg 0) 1)) (.load (.off (.reg 1) 1))) (.load (.off (.reg 0) 1)) (.load (.off (.reg 1) 1)))) <|
    .seq (.store (.off (.reg 2) 2) (.ite (.ic .lt (.load (.off (.reg 0) 2)) (.load (.off (.reg 1) 2))) (.load (.off (.reg 0) 2)) (.load (.off (.reg 1) 2)))) <|
    .store (.off (.reg 2) 3) (.ite (.ic .lt (.load (.off (.reg 0) 3)) (.load (.off (.reg 1) 3))) (.load (.off (.reg 0) 3)) (.load (.off (.reg 1) 3)))

/-- `glm_ivec4_clamp`: include/cglm/ivec4.h:569-591. -/
def glm_ivec4_clamp : IFn where
  locals := []
  nregs := 0
  body := 
    .seq (.ite (.ic .lt (.load (.reg 0)) (.reg 1)) (.store (.reg 0) (.reg 1)) (.ite (.ic .gt (.load (.reg 0)) (.reg 2)) (.store (.reg 0) (.reg 2)) (.skip))) <|
    .seq (.ite (.ic .lt (.load (.off (.reg 0) 1)) (.reg 1)) (.store (.off (.reg 0) 1) (.reg 1)) (.ite (.ic .gt (.load (.off (.reg 0) 1)) (.reg 2)) (.store (.off (.reg 0) 1) (.reg 2)) (.skip))) <|
    .seq (.ite (.ic .lt (.load (.off (.reg 0) 2)) (.reg 1)) (.store (.off (.reg 0) 2) (.reg 1)) (.ite (.ic .gt (.load (.off (.reg 0) 2)) (.reg 2)) (.store (.off (.reg 0) 2) (.reg 2)) (.skip))) <|
    .ite (.ic .lt (.load (.off (.reg 0) 3)) (.reg 1)) (.store (.off (.reg 0) 3) (.reg 1)) (.ite (.ic .gt (.load (.off (.reg 0) 3)) (.reg 2)) (.store (.off (.reg 0) 3) (.reg 2)) (.skip))

/-- `glm_ivec4_abs`: include/cglm/ivec4.h:599-606. -/
def glm_ivec4_abs : IFn where
  locals := []
  nregs := 0
  body := 
    .seq (.store (.reg 1) (.i1 .abs (.load (.reg 0)))) <|
    .seq (.store (.off (.reg 1) 1) (.i1 .abs (.load (.off (.reg 0) 1)))) <|
    .seq (.store (.off (.reg 1) 2) (.i1 .abs (.load (.off (.reg 0) 2)))) <|
    .store (.off (.reg 1) 3) (.i1 .abs (.load (.off (.reg 0) 3)))

end Cglm.CI

end IIvec4
