/- Generated by tools/memgen.py, joined by tools/merge.py; do not edit by hand. -/
import Verif.CMem
import Verif.Mem.Vecs

section Mat2

/- Generated from include/cglm/mat2.h by tools/memgen.py (memory semantics); do not edit by hand. -/

set_option maxRecDepth 10000

namespace Cglm.C
open CMem

/-- `glm_mat2_make`: include/cglm/mat2.h:65-72. -/
def glm_mat2_make : Fn where
  locals := []
  nregs := 0
  body := 
    .seq (.store (.reg 1) (.load (.reg 0))) <|
    .seq (.store (.off (.reg 1) 1) (.load (.off (.reg 0) 1))) <|
    .seq (.store (.off (.reg 1) 2) (.load (.off (.reg 0) 2))) <|
    .store (.off (.reg 1) 3) (.load (.off (.reg 0) 3))

/-- `glm_mat2_copy`: include/cglm/mat2.h:80-84. -/
def glm_mat2_copy : Fn where
  locals := []
  nregs := 0
  body := .call none glm_vec4_ucopy.locals glm_vec4_ucopy.nregs glm_vec4_ucopy.body [.reg 0, .reg 1]

/-- `glm_mat2_identity`: include/cglm/mat2.h:102-107. -/
def glm_mat2_identity : Fn where
  locals := [4]
  nregs := 0
  body := 
    .seq (.store (.loc 0) (.flit 1)) <|
    .seq (.store (.off (.loc 0) 1) (.flit 0)) <|
    .seq (.store (.off (.loc 0) 2) (.flit 0)) <|
    .seq (.store (.off (.loc 0) 3) (.flit 1)) <|
    .call none glm_mat2_copy.locals glm_mat2_copy.nregs glm_mat2_copy.body [.loc 0, .reg 0]

/-- `glm_mat2_zero`: include/cglm/mat2.h:131-136. -/
def glm_mat2_zero : Fn where
  locals := [4]
  nregs := 0
  body := 
    .seq (.store (.loc 0) (.flit 0)) <|
    .seq (.store (.off (.loc 0) 1) (.flit 0)) <|
    .seq (.store (.off (.loc 0) 2) (.flit 0)) <|
    .seq (.store (.off (.loc 0) 3) (.flit 0)) <|
    .call none glm_mat2_copy.locals glm_mat2_copy.nregs glm_mat2_copy.body [.loc 0, .reg 0]

/-- `glm_mat2_mul`: include/cglm/mat2.h:152-172. -/
def glm_mat2_mul : Fn where
  locals := []
  nregs := 8
  body := 
    .seq (.set 3 (.load (.reg 0))) <|
    .seq (.set 4 (.load (.off (.reg 0) 1))) <|
    .seq (.set 5 (.load (.off (.reg 0) 2))) <|
    .seq (.set 6 (.load (.off (.reg 0) 3))) <|
    .seq (.set 7 (.load (.reg 1))) <|
    .seq (.set 8 (.load (.off (.reg 1) 1))) <|
    .seq (.set 9 (.load (.off (.reg 1) 2))) <|
    .seq (.set 10 (.load (.off (.reg 1) 3))) <|
    .seq (.store (.reg 2) (.f2 .add (.f2 .mul (.reg 3) (.reg 7)) (.f2 .mul (.reg 5) (.reg 8)))) <|
    .seq (.store (.off (.reg 2) 1) (.f2 .add (.f2 .mul (.reg 4) (.reg 7)) (.f2 .mul (.reg 6) (.reg 8)))) <|
    .seq (.store (.off (.reg 2) 2) (.f2 .add (.f2 .mul (.reg 3) (.reg 9)) (.f2 .mul (.reg 5) (.reg 10)))) <|
    .store (.off (.reg 2) 3) (.f2 .add (.f2 .mul (.reg 4) (.reg 9)) (.f2 .mul (.reg 6) (.reg 10)))

/-- `glm_mat2_mulv`: include/cglm/mat2.h:181-186. -/
def glm_mat2_mulv : Fn where
  locals := []
  nregs := 0
  body := 
    .seq (.store (.reg 2) (.f2 .add (.f2 .mul (.load (.reg 0)) (.load (.reg 1))) (.f2 .mul (.load (.off (.reg 0) 2)) (.load (.off (.reg 1) 1))))) <|
    .store (.off (.reg 2) 1) (.f2 .add (.f2 .mul (.load (.off (.reg 0) 1)) (.load (.reg 1))) (.f2 .mul (.load (.off (.reg 0) 3)) (.load (.off (.reg 1) 1))))

/-- `glm_mat2_transpose_to`: include/cglm/mat2.h:194-207. -/
def glm_mat2_transpose_to : Fn where
  locals := []
  nregs := 0
  body := 
    .seq (.store (.reg 1) (.load (.reg 0))) <|
    .seq (.store (.off (.reg 1) 1) (.load (.off (.reg 0) 2))) <|
    .seq (.store (.off (.reg 1) 2) (.load (.off (.reg 0) 1))) <|
    .store (.off (.reg 1) 3) (.load (.off (.reg 0) 3))

/-- `glm_mat2_transpose`: include/cglm/mat2.h:214-221. -/
def glm_mat2_transpose : Fn where
  locals := []
  nregs := 1
  body := 
    .seq (.set 1 (.load (.off (.reg 0) 1))) <|
    .seq (.store (.off (.reg 0) 1) (.load (.off (.reg 0) 2))) <|
    .store (.off (.reg 0) 2) (.reg 1)

/-- `glm_mat2_scale`: include/cglm/mat2.h:229-245. -/
def glm_mat2_scale : Fn where
  locals := []
  nregs := 0
  body := 
    .seq (.store (.reg 0) (.f2 .mul (.load (.reg 0)) (.reg 1))) <|
    .seq (.store (.off (.reg 0) 1) (.f2 .mul (.load (.off (.reg 0) 1)) (.reg 1))) <|
    .seq (.store (.off (.reg 0) 2) (.f2 .mul (.load (.off (.reg 0) 2)) (.reg 1))) <|
    .store (.off (.reg 0) 3) (.f2 .mul (.load (.off (.reg 0) 3)) (.reg 1))

/-- `glm_mat2_inv`: include/cglm/mat2.h:253-266. -/
def glm_mat2_inv : Fn where
  locals := []
  nregs := 5
  body := 
    .seq (.set 3 (.load (.reg 0))) <|
    .seq (.set 4 (.load (.off (.reg 0) 1))) <|
    .seq (.set 5 (.load (.off (.reg 0) 2))) <|
    .seq (.set 6 (.load (.off (.reg 0) 3))) <|
    .seq (.set 2 (.f2 .div (.flit 1) (.f2 .sub (.f2 .mul (.reg 3) (.reg 6)) (.f2 .mul (.reg 4) (.reg 5))))) <|
    .seq (.store (.reg 1) (.f2 .mul (.reg 6) (.reg 2))) <|
    .seq (.store (.off (.reg 1) 1) (.f2 .mul (.f1 .neg (.reg 4)) (.reg 2))) <|
    .seq (.store (.off (.reg 1) 2) (.f2 .mul (.f1 .neg (.reg 5)) (.reg 2))) <|
    .store (.off (.reg 1) 3) (.f2 .mul (.reg 3) (.reg 2))

/-- `glm_mat2_det`: include/cglm/mat2.h:319-323. -/
def glm_mat2_det : Fn where
  locals := []
  nregs := 0
  body := .ret (.f2 .sub (.f2 .mul (.load (.reg 0)) (.load (.off (.reg 0) 3))) (.f2 .mul (.load (.off (.reg 0) 2)) (.load (.off (.reg 0) 1))))

/-- `glm_mat2_trace`: include/cglm/mat2.h:335-339. -/
def glm_mat2_trace : Fn where
  locals := []
  nregs := 0
  body := .ret (.f2 .add (.load (.reg 0)) (.load (.off (.reg 0) 3)))

/-- `glm_mat2_rmc`: include/cglm/mat2.h:355-361. -/
def glm_mat2_rmc : Fn where
  locals := [2]
  nregs := 1
  body := 
    .seq (.call none glm_mat2_mulv.locals glm_mat2_mulv.nregs glm_mat2_mulv.body [.reg 1, .reg 2, .loc 0]) <|
    .seq (.call (some 3) glm_vec2_dot.locals glm_vec2_dot.nregs glm_vec2_dot.body [.reg 0, .loc 0]) <|
    .ret (.reg 3)

end Cglm.C

end Mat2

section Mat2x3

/- Generated from include/cglm/mat2x3.h by tools/memgen.py (memory semantics); do not edit by hand. -/

set_option maxRecDepth 10000

namespace Cglm.C
open CMem

/-- `glm_mat2x3_copy`: include/cglm/mat2x3.h:39-44. -/
def glm_mat2x3_copy : Fn where
  locals := []
  nregs := 0
  body := 
    .seq (.call none glm_vec3_copy.locals glm_vec3_copy.nregs glm_vec3_copy.body [.reg 0, .reg 1]) <|
    .call none glm_vec3_copy.locals glm_vec3_copy.nregs glm_vec3_copy.body [.off (.reg 0) 3, .off (.reg 1) 3]

/-- `glm_mat2x3_zero`: include/cglm/mat2x3.h:51-56. -/
def glm_mat2x3_zero : Fn where
  locals := [6]
  nregs := 0
  body := 
    .seq (.store (.loc 0) (.flit 0)) <|
    .seq (.store (.off (.loc 0) 1) (.flit 0)) <|
    .seq (.store (.off (.loc 0) 2) (.flit 0)) <|
    .seq (.store (.off (.loc 0) 3) (.flit 0)) <|
    .seq (.store (.off (.loc 0) 4) (.flit 0)) <|
    .seq (.store (.off (.loc 0) 5) (.flit 0)) <|
    .call none glm_mat2x3_copy.locals glm_mat2x3_copy.nregs glm_mat2x3_copy.body [.loc 0, .reg 0]

/-- `glm_mat2x3_make`: include/cglm/mat2x3.h:64-74. -/
def glm_mat2x3_make : Fn where
  locals := []
  nregs := 0
  body := 
    .seq (.store (.reg 1) (.load (.reg 0))) <|
    .seq (.store (.off (.reg 1) 1) (.load (.off (.reg 0) 1))) <|
    .seq (.store (.off (.reg 1) 2) (.load (.off (.reg 0) 2))) <|
    .seq (.store (.off (.reg 1) 3) (.load (.off (.reg 0) 3))) <|
    .seq (.store (.off (.reg 1) 4) (.load (.off (.reg 0) 4))) <|
    .store (.off (.reg 1) 5) (.load (.off (.reg 0) 5))

/-- `glm_mat2x3_mul`: include/cglm/mat2x3.h:87-108. -/
def glm_mat2x3_mul : Fn where
  locals := []
  nregs := 12
  body := 
    .seq (.set 3 (.load (.reg 0))) <|
    .seq (.set 4 (.load (.off (.reg 0) 1))) <|
    .seq (.set 5 (.load (.off (.reg 0) 2))) <|
    .seq (.set 6 (.load (.off (.reg 0) 3))) <|
    .seq (.set 7 (.load (.off (.reg 0) 4))) <|
    .seq (.set 8 (.load (.off (.reg 0) 5))) <|
    .seq (.set 9 (.load (.reg 1))) <|
    .seq (.set 10 (.load (.off (.reg 1) 1))) <|
    .seq (.set 11 (.load (.off (.reg 1) 2))) <|
    .seq (.set 12 (.load (.off (.reg 1) 3))) <|
    .seq (.set 13 (.load (.off (.reg 1) 4))) <|
    .seq (.set 14 (.load (.off (.reg 1) 5))) <|
    .seq (.store (.reg 2) (.f2 .add (.f2 .mul (.reg 3) (.reg 9)) (.f2 .mul (.reg 6) (.reg 10)))) <|
    .seq (.store (.off (.reg 2) 1) (.f2 .add (.f2 .mul (.reg 4) (.reg 9)) (.f2 .mul (.reg 7) (.reg 10)))) <|
    .seq (.store (.off (.reg 2) 2) (.f2 .add (.f2 .mul (.reg 5) (.reg 9)) (.f2 .mul (.reg 8) (.reg 10)))) <|
    .seq (.store (.off (.reg 2) 3) (.f2 .add (.f2 .mul (.reg 3) (.reg 11)) (.f2 .mul (.reg 6) (.reg 12)))) <|
    .seq (.store (.off (.reg 2) 4) (.f2 .add (.f2 .mul (.reg 4) (.reg 11)) (.f2 .mul (.reg 7) (.reg 12)))) <|
    .seq (.store (.off (.reg 2) 5) (.f2 .add (.f2 .mul (.reg 5) (.reg 11)) (.f2 .mul (.reg 8) (.reg 12)))) <|
    .seq (.store (.off (.reg 2) 6) (.f2 .add (.f2 .mul (.reg 3) (.reg 13)) (.f2 .mul (.reg 6) (.reg 14)))) <|
    .seq (.store (.off (.reg 2) 7) (.f2 .add (.f2 .mul (.reg 4) (.reg 13)) (.f2 .mul (.reg 7) (.reg 14)))) <|
    .store (.off (.reg 2) 8) (.f2 .add (.f2 .mul (.reg 5) (.reg 13)) (.f2 .mul (.reg 8) (.reg 14)))

/-- `glm_mat2x3_mulv`: include/cglm/mat2x3.h:117-125. -/
def glm_mat2x3_mulv : Fn where
  locals := []
  nregs := 2
  body := 
    .seq (.set 3 (.load (.reg 1))) <|
    .seq (.set 4 (.load (.off (.reg 1) 1))) <|
    .seq (.store (.reg 2) (.f2 .add (.f2 .mul (.load (.reg 0)) (.reg 3)) (.f2 .mul (.load (.off (.reg 0) 3)) (.reg 4)))) <|
    .seq (.store (.off (.reg 2) 1) (.f2 .add (.f2 .mul (.load (.off (.reg 0) 1)) (.reg 3)) (.f2 .mul (.load (.off (.reg 0) 4)) (.reg 4)))) <|
    .store (.off (.reg 2) 2) (.f2 .add (.f2 .mul (.load (.off (.reg 0) 2)) (.reg 3)) (.f2 .mul (.load (.off (.reg 0) 5)) (.reg 4)))

/-- `glm_mat2x3_transpose`: include/cglm/mat2x3.h:133-139. -/
def glm_mat2x3_transpose : Fn where
  locals := []
  nregs := 0
  body := 
    .seq (.store (.reg 1) (.load (.reg 0))) <|
    .seq (.store (.off (.reg 1) 1) (.load (.off (.reg 0) 3))) <|
    .seq (.store (.off (.reg 1) 2) (.load (.off (.reg 0) 1))) <|
    .seq (.store (.off (.reg 1) 3) (.load (.off (.reg 0) 4))) <|
    .seq (.store (.off (.reg 1) 4) (.load (.off (.reg 0) 2))) <|
    .store (.off (.reg 1) 5) (.load (.off (.reg 0) 5))

/-- `glm_mat2x3_scale`: include/cglm/mat2x3.h:147-152. -/
def glm_mat2x3_scale : Fn where
  locals := []
  nregs := 0
  body := 
    .seq (.store (.reg 0) (.f2 .mul (.load (.reg 0)) (.reg 1))) <|
    .seq (.store (.off (.reg 0) 1) (.f2 .mul (.load (.off (.reg 0) 1)) (.reg 1))) <|
    .seq (.store (.off (.reg 0) 2) (.f2 .mul (.load (.off (.reg 0) 2)) (.reg 1))) <|
    .seq (.store (.off (.reg 0) 3) (.f2 .mul (.load (.off (.reg 0) 3)) (.reg 1))) <|
    .seq (.store (.off (.reg 0) 4) (.f2 .mul (.load (.off (.reg 0) 4)) (.reg 1))) <|
    .store (.off (.reg 0) 5) (.f2 .mul (.load (.off (.reg 0) 5)) (.reg 1))

end Cglm.C

end Mat2x3

section Mat2x4

/- Generated from include/cglm/mat2x4.h by tools/memgen.py (memory semantics); do not edit by hand. -/

set_option maxRecDepth 10000

namespace Cglm.C
open CMem

/-- `glm_mat2x4_copy`: include/cglm/mat2x4.h:40-45. -/
def glm_mat2x4_copy : Fn where
  locals := []
  nregs := 0
  body := 
    .seq (.call none glm_vec4_ucopy.locals glm_vec4_ucopy.nregs glm_vec4_ucopy.body [.reg 0, .reg 1]) <|
    .call none glm_vec4_ucopy.locals glm_vec4_ucopy.nregs glm_vec4_ucopy.body [.off (.reg 0) 4, .off (.reg 1) 4]

/-- `glm_mat2x4_zero`: include/cglm/mat2x4.h:52-57. -/
def glm_mat2x4_zero : Fn where
  locals := [8]
  nregs := 0
  body := 
    .seq (.store (.loc 0) (.flit 0)) <|
    .seq (.store (.off (.loc 0) 1) (.flit 0)) <|
    .seq (.store (.off (.loc 0) 2) (.flit 0)) <|
    .seq (.store (.off (.loc 0) 3) (.flit 0)) <|
    .seq (.store (.off (.loc 0) 4) (.flit 0)) <|
    .seq (.store (.off (.loc 0) 5) (.flit 0)) <|
    .seq (.store (.off (.loc 0) 6) (.flit 0)) <|
    .seq (.store (.off (.loc 0) 7) (.flit 0)) <|
    .call none glm_mat2x4_copy.locals glm_mat2x4_copy.nregs glm_mat2x4_copy.body [.loc 0, .reg 0]

/-- `glm_mat2x4_make`: include/cglm/mat2x4.h:65-77. -/
def glm_mat2x4_make : Fn where
  locals := []
  nregs := 0
  body := 
    .seq (.store (.reg 1) (.load (.reg 0))) <|
    .seq (.store (.off (.reg 1) 1) (.load (.off (.reg 0) 1))) <|
    .seq (.store (.off (.reg 1) 2) (.load (.off (.reg 0) 2))) <|
    .seq (.store (.off (.reg 1) 3) (.load (.off (.reg 0) 3))) <|
    .seq (.store (.off (.reg 1) 4) (.load (.off (.reg 0) 4))) <|
    .seq (.store (.off (.reg 1) 5) (.load (.off (.reg 0) 5))) <|
    .seq (.store (.off (.reg 1) 6) (.load (.off (.reg 0) 6))) <|
    .store (.off (.reg 1) 7) (.load (.off (.reg 0) 7))

/-- `glm_mat2x4_mul`: include/cglm/mat2x4.h:90-120. -/
def glm_mat2x4_mul : Fn where
  locals := []
  nregs := 16
  body := 
    .seq (.set 3 (.load (.reg 0))) <|
    .seq (.set 4 (.load (.off (.reg 0) 1))) <|
    .seq (.set 5 (.load (.off (.reg 0) 2))) <|
    .seq (.set 6 (.load (.off (.reg 0) 3))) <|
    .seq (.set 7 (.load (.off (.reg 0) 4))) <|
    .seq (.set 8 (.load (.off (.reg 0) 5))) <|
    .seq (.set 9 (.load (.off (.reg 0) 6))) <|
    .seq (.set 10 (.load (.off (.reg 0) 7))) <|
    .seq (.set 11 (.load (.reg 1))) <|
    .seq (.set 12 (.load (.off (.reg 1) 1))) <|
    .seq (.set 13 (.load (.off (.reg 1) 2))) <|
    .seq (.set 14 (.load (.off (.reg 1) 3))) <|
    .seq (.set 15 (.load (.off (.reg 1) 4))) <|
    .seq (.set 16 (.load (.off (.reg 1) 5))) <|
    .seq (.set 17 (.load (.off (.reg 1) 6))) <|
    .seq (.set 18 (.load (.off (.reg 1) 7))) <|
    .seq (.store (.reg 2) (.f2 .add (.f2 .mul (.reg 3) (.reg 11)) (.f2 .mul (.reg 7) (.reg 12)))) <|
    .seq (.store (.off (.reg 2) 1) (.f2 .add (.f2 .mul (.reg 4) (.reg 11)) (.f2 .mul (.reg 8) (.reg 12)))) <|
    .seq (.store (.off (.reg 2) 2) (.f2 .add (.f2 .mul (.reg 5) (.reg 11)) (.f2 .mul (.reg 9) (.reg 12)))) <|
    .seq (.store (.off (.reg 2) 3) (.f2 .add (.f2 .mul (.reg 6) (.reg 11)) (.f2 .mul (.reg 10) (.reg 12)))) <|
    .seq (.store (.off (.reg 2) 4) (.f2 .add (.f2 .mul (.reg 3) (.reg 13)) (.f2 .mul (.reg 7) (.reg 14)))) <|
    .seq (.store (.off (.reg 2) 5) (.f2 .add (.f2 .mul (.reg 4) (.reg 13)) (.f2 .mul (.reg 8) (.reg 14)))) <|
    .seq (.store (.off (.reg 2) 6) (.f2 .add (.f2 .mul (.reg 5) (.reg 13)) (.f2 .mul (.reg 9) (.reg 14)))) <|
    .seq (.store (.off (.reg 2) 7) (.f2 .add (.f2 .mul (.reg 6) (.reg 13)) (.f2 .mul (.reg 10) (.reg 14)))) <|
    .seq (.store (.off (.reg 2) 8) (.f2 .add (.f2 .mul (.reg 3) (.reg 15)) (.f2 .mul (.reg 7) (.reg 16)))) <|
    .seq (.store (.off (.reg 2) 9) (.f2 .add (.f2 .mul (.reg 4) (.reg 15)) (.f2 .mul (.reg 8) (.reg 16)))) <|
    .seq (.store (.off (.reg 2) 10) (.f2 .add (.f2 .mul (.reg 5) (.reg 15)) (.f2 .mul (.reg 9) (.reg 16)))) <|
    .seq (.store (.off (.reg 2) 11) (.f2 .add (.f2 .mul (.reg 6) (.reg 15)) (.f2 .mul (.reg 10) (.reg 16)))) <|
    .seq (.store (.off (.reg 2) 12) (.f2 .add (.f2 .mul (.reg 3) (.reg 17)) (.f2 .mul (.reg 7) (.reg 18)))) <|
    .seq (.store (.off (.reg 2) 13) (.f2 .add (.f2 .mul (.reg 4) (.reg 17)) (.f2 .mul (.reg 8) (.reg 18)))) <|
    .seq (.store (.off (.reg 2) 14) (.f2 .add (.f2 .mul (.reg 5) (.reg 17)) (.f2 .mul (.reg 9) (.reg 18)))) <|
    .store (.off (.reg 2) 15) (.f2 .add (.f2 .mul (.reg 6) (.reg 17)) (.f2 .mul (.reg 10) (.reg 18)))

/-- `glm_mat2x4_mulv`: include/cglm/mat2x4.h:129-138. -/
def glm_mat2x4_mulv : Fn where
  locals := []
  nregs := 2
  body := 
    .seq (.set 3 (.load (.reg 1))) <|
    .seq (.set 4 (.load (.off (.reg 1) 1))) <|
    .seq (.store (.reg 2) (.f2 .add (.f2 .mul (.load (.reg 0)) (.reg 3)) (.f2 .mul (.load (.off (.reg 0) 4)) (.reg 4)))) <|
    .seq (.store (.off (.reg 2) 1) (.f2 .add (.f2 .mul (.load (.off (.reg 0) 1)) (.reg 3)) (.f2 .mul (.load (.off (.reg 0) 5)) (.reg 4)))) <|
    .seq (.store (.off (.reg 2) 2) (.f2 .add (.f2 .mul (.load (.off (.reg 0) 2)) (.reg 3)) (.f2 .mul (.load (.off (.reg 0) 6)) (.reg 4)))) <|
    .store (.off (.reg 2) 3) (.f2 .add (.f2 .mul (.load (.off (.reg 0) 3)) (.reg 3)) (.f2 .mul (.load (.off (.reg 0) 7)) (.reg 4)))

/-- `glm_mat2x4_transpose`: include/cglm/mat2x4.h:146-153. -/
def glm_mat2x4_transpose : Fn where
  locals := []
  nregs := 0
  body := 
    .seq (.store (.reg 1) (.load (.reg 0))) <|
    .seq (.store (.off (.reg 1) 1) (.load (.off (.reg 0) 4))) <|
    .seq (.store (.off (.reg 1) 2) (.load (.off (.reg 0) 1))) <|
    .seq (.store (.off (.reg 1) 3) (.load (.off (.reg 0) 5))) <|
    .seq (.store (.off (.reg 1) 4) (.load (.off (.reg 0) 2))) <|
    .seq (.store (.off (.reg 1) 5) (.load (.off (.reg 0) 6))) <|
    .seq (.store (.off (.reg 1) 6) (.load (.off (.reg 0) 3))) <|
    .store (.off (.reg 1) 7) (.load (.off (.reg 0) 7))

/-- `glm_mat2x4_scale`: include/cglm/mat2x4.h:161-166. -/
def glm_mat2x4_scale : Fn where
  locals := []
  nregs := 0
  body := 
    .seq (.store (.reg 0) (.f2 .mul (.load (.reg 0)) (.reg 1))) <|
    .seq (.store (.off (.reg 0) 1) (.f2 .mul (.load (.off (.reg 0) 1)) (.reg 1))) <|
    .seq (.store (.off (.reg 0) 2) (.f2 .mul (.load (.off (.reg 0) 2)) (.reg 1))) <|
    .seq (.store (.off (.reg 0) 3) (.f2 .mul (.load (.off (.reg 0) 3)) (.reg 1))) <|
    .seq (.store (.off (.reg 0) 4) (.f2 .mul (.load (.off (.reg 0) 4)) (.reg 1))) <|
    .seq (.store (.off (.reg 0) 5) (.f2 .mul (.load (.off (.reg 0) 5)) (.reg 1))) <|
    .seq (.store (.off (.reg 0) 6) (.f2 .mul (.load (.off (.reg 0) 6)) (.reg 1))) <|
    .store (.off (.reg 0) 7) (.f2 .mul (.load (.off (.reg 0) 7)) (.reg 1))

end Cglm.C

end Mat2x4

section Mat3

/- Generated from include/cglm/mat3.h by tools/memgen.py (memory semantics); do not edit by hand. -/

set_option maxRecDepth 10000

namespace Cglm.C
open CMem

/-- `glm_mat3_copy`: include/cglm/mat3.h:72-86. -/
def glm_mat3_copy : Fn where
  locals := []
  nregs := 0
  body := 
    .seq (.store (.reg 1) (.load (.reg 0))) <|
    .seq (.store (.off (.reg 1) 1) (.load (.off (.reg 0) 1))) <|
    .seq (.store (.off (.reg 1) 2) (.load (.off (.reg 0) 2))) <|
    .seq (.store (.off (.reg 1) 3) (.load (.off (.reg 0) 3))) <|
    .seq (.store (.off (.reg 1) 4) (.load (.off (.reg 0) 4))) <|
    .seq (.store (.off (.reg 1) 5) (.load (.off (.reg 0) 5))) <|
    .seq (.store (.off (.reg 1) 6) (.load (.off (.reg 0) 6))) <|
    .seq (.store (.off (.reg 1) 7) (.load (.off (.reg 0) 7))) <|
    .store (.off (.reg 1) 8) (.load (.off (.reg 0) 8))

/-- `glm_mat3_identity`: include/cglm/mat3.h:102-107. -/
def glm_mat3_identity : Fn where
  locals := [9]
  nregs := 0
  body := 
    .seq (.store (.loc 0) (.flit 1)) <|
    .seq (.store (.off (.loc 0) 1) (.flit 0)) <|
    .seq (.store (.off (.loc 0) 2) (.flit 0)) <|
    .seq (.store (.off (.loc 0) 3) (.flit 0)) <|
    .seq (.store (.off (.loc 0) 4) (.flit 1)) <|
    .seq (.store (.off (.loc 0) 5) (.flit 0)) <|
    .seq (.store (.off (.loc 0) 6) (.flit 0)) <|
    .seq (.store (.off (.loc 0) 7) (.flit 0)) <|
    .seq (.store (.off (.loc 0) 8) (.flit 1)) <|
    .call none glm_mat3_copy.locals glm_mat3_copy.nregs glm_mat3_copy.body [.loc 0, .reg 0]

/-- `glm_mat3_zero`: include/cglm/mat3.h:133-138. -/
def glm_mat3_zero : Fn where
  locals := [9]
  nregs := 0
  body := 
    .seq (.store (.loc 0) (.flit 0)) <|
    .seq (.store (.off (.loc 0) 1) (.flit 0)) <|
    .seq (.store (.off (.loc 0) 2) (.flit 0)) <|
    .seq (.store (.off (.loc 0) 3) (.flit 0)) <|
    .seq (.store (.off (.loc 0) 4) (.flit 0)) <|
    .seq (.store (.off (.loc 0) 5) (.flit 0)) <|
    .seq (.store (.off (.loc 0) 6) (.flit 0)) <|
    .seq (.store (.off (.loc 0) 7) (.flit 0)) <|
    .seq (.store (.off (.loc 0) 8) (.flit 0)) <|
    .call none glm_mat3_copy.locals glm_mat3_copy.nregs glm_mat3_copy.body [.loc 0, .reg 0]

/-- `glm_mat3_mul`: include/cglm/mat3.h:154-180. -/
def glm_mat3_mul : Fn where
  locals := []
  nregs := 18
  body := 
    .seq (.set 3 (.load (.reg 0))) <|
    .seq (.set 4 (.load (.off (.reg 0) 1))) <|
    .seq (.set 5 (.load (.off (.reg 0) 2))) <|
    .seq (.set 6 (.load (.off (.reg 0) 3))) <|
    .seq (.set 7 (.load (.off (.reg 0) 4))) <|
    .seq (.set 8 (.load (.off (.reg 0) 5))) <|
    .seq (.set 9 (.load (.off (.reg 0) 6))) <|
    .seq (.set 10 (.load (.off (.reg 0) 7))) <|
    .seq (.set 11 (.load (.off (.reg 0) 8))) <|
    .seq (.set 12 (.load (.reg 1))) <|
    .seq (.set 13 (.load (.off (.reg 1) 1))) <|
    .seq (.set 14 (.load (.off (.reg 1) 2))) <|
    .seq (.set 15 (.load (.off (.reg 1) 3))) <|
    .seq (.set 16 (.load (.off (.reg 1) 4))) <|
    .seq (.set 17 (.load (.off (.reg 1) 5))) <|
    .seq (.set 18 (.load (.off (.reg 1) 6))) <|
    .seq (.set 19 (.load (.off (.reg 1) 7))) <|
    .seq (.set 20 (.load (.off (.reg 1) 8))) <|
    .seq (.store (.reg 2) (.f2 .add (.f2 .add (.f2 .mul (.reg 3) (.reg 12)) (.f2 .mul (.reg 6) (.reg 13))) (.f2 .mul (.reg 9) (.reg 14)))) <|
    .seq (.store (.off (.reg 2) 1) (.f2 .add (.f2 .add (.f2 .mul (.reg 4) (.reg 12)) (.f2 .mul (.reg 7) (.reg 13))) (.f2 .mul (.reg 10) (.reg 14)))) <|
    .seq (.store (.off (.reg 2) 2) (.f2 .add (.f2 .add (.f2 .mul (.reg 5) (.reg 12)) (.f2 .mul (.reg 8) (.reg 13))) (.f2 .mul (.reg 11) (.reg 14)))) <|
    .seq (.store (.off (.reg 2) 3) (.f2 .add (.f2 .add (.f2 .mul (.reg 3) (.reg 15)) (.f2 .mul (.reg 6) (.reg 16))) (.f2 .mul (.reg 9) (.reg 17)))) <|
    .seq (.store (.off (.reg 2) 4) (.f2 .add (.f2 .add (.f2 .mul (.reg 4) (.reg 15)) (.f2 .mul (.reg 7) (.reg 16))) (.f2 .mul (.reg 10) (.reg 17)))) <|
    .seq (.store (.off (.reg 2) 5) (.f2 .add (.f2 .add (.f2 .mul (.reg 5) (.reg 15)) (.f2 .mul (.reg 8) (.reg 16))) (.f2 .mul (.reg 11) (.reg 17)))) <|
    .seq (.store (.off (.reg 2) 6) (.f2 .add (.f2 .add (.f2 .mul (.reg 3) (.reg 18)) (.f2 .mul (.reg 6) (.reg 19))) (.f2 .mul (.reg 9) (.reg 20)))) <|
    .seq (.store (.off (.reg 2) 7) (.f2 .add (.f2 .add (.f2 .mul (.reg 4) (.reg 18)) (.f2 .mul (.reg 7) (.reg 19))) (.f2 .mul (.reg 10) (.reg 20)))) <|
    .store (.off (.reg 2) 8) (.f2 .add (.f2 .add (.f2 .mul (.reg 5) (.reg 18)) (.f2 .mul (.reg 8) (.reg 19))) (.f2 .mul (.reg 11) (.reg 20)))

/-- `glm_mat3_transpose_to`: include/cglm/mat3.h:190-202. -/
def glm_mat3_transpose_to : Fn where
  locals := []
  nregs := 0
  body := 
    .seq (.store (.reg 1) (.load (.reg 0))) <|
    .seq (.store (.off (.reg 1) 1) (.load (.off (.reg 0) 3))) <|
    .seq (.store (.off (.reg 1) 2) (.load (.off (.reg 0) 6))) <|
    .seq (.store (.off (.reg 1) 3) (.load (.off (.reg 0) 1))) <|
    .seq (.store (.off (.reg 1) 4) (.load (.off (.reg 0) 4))) <|
    .seq (.store (.off (.reg 1) 5) (.load (.off (.reg 0) 7))) <|
    .seq (.store (.off (.reg 1) 6) (.load (.off (.reg 0) 2))) <|
    .seq (.store (.off (.reg 1) 7) (.load (.off (.reg 0) 5))) <|
    .store (.off (.reg 1) 8) (.load (.off (.reg 0) 8))

/-- `glm_mat3_transpose`: include/cglm/mat3.h:209-227. -/
def glm_mat3_transpose : Fn where
  locals := [9]
  nregs := 0
  body := 
    .seq (.store (.off (.loc 0) 1) (.load (.off (.reg 0) 3))) <|
    .seq (.store (.off (.loc 0) 2) (.load (.off (.reg 0) 6))) <|
    .seq (.store (.off (.loc 0) 3) (.load (.off (.reg 0) 1))) <|
    .seq (.store (.off (.loc 0) 5) (.load (.off (.reg 0) 7))) <|
    .seq (.store (.off (.loc 0) 6) (.load (.off (.reg 0) 2))) <|
    .seq (.store (.off (.loc 0) 7) (.load (.off (.reg 0) 5))) <|
    .seq (.store (.off (.reg 0) 1) (.load (.off (.loc 0) 1))) <|
    .seq (.store (.off (.reg 0) 2) (.load (.off (.loc 0) 2))) <|
    .seq (.store (.off (.reg 0) 3) (.load (.off (.loc 0) 3))) <|
    .seq (.store (.off (.reg 0) 5) (.load (.off (.loc 0) 5))) <|
    .seq (.store (.off (.reg 0) 6) (.load (.off (.loc 0) 6))) <|
    .store (.off (.reg 0) 7) (.load (.off (.loc 0) 7))

/-- `glm_mat3_mulv`: include/cglm/mat3.h:236-244. -/
def glm_mat3_mulv : Fn where
  locals := [3]
  nregs := 0
  body := 
    .seq (.store (.loc 0) (.f2 .add (.f2 .add (.f2 .mul (.load (.reg 0)) (.load (.reg 1))) (.f2 .mul (.load (.off (.reg 0) 3)) (.load (.off (.reg 1) 1)))) (.f2 .mul (.load (.off (.reg 0) 6)) (.load (.off (.reg 1) 2))))) <|
    .seq (.store (.off (.loc 0) 1) (.f2 .add (.f2 .add (.f2 .mul (.load (.off (.reg 0) 1)) (.load (.reg 1))) (.f2 .mul (.load (.off (.reg 0) 4)) (.load (.off (.reg 1) 1)))) (.f2 .mul (.load (.off (.reg 0) 7)) (.load (.off (.reg 1) 2))))) <|
    .seq (.store (.off (.loc 0) 2) (.f2 .add (.f2 .add (.f2 .mul (.load (.off (.reg 0) 2)) (.load (.reg 1))) (.f2 .mul (.load (.off (.reg 0) 5)) (.load (.off (.reg 1) 1)))) (.f2 .mul (.load (.off (.reg 0) 8)) (.load (.off (.reg 1) 2))))) <|
    .call none glm_vec3_copy.locals glm_vec3_copy.nregs glm_vec3_copy.body [.loc 0, .reg 2]

/-- `glm_mat3_trace`: include/cglm/mat3.h:253-257. -/
def glm_mat3_trace : Fn where
  locals := []
  nregs := 0
  body := .ret (.f2 .add (.f2 .add (.load (.reg 0)) (.load (.off (.reg 0) 4))) (.load (.off (.reg 0) 8)))

/-- `glm_mat3_quat`: include/cglm/mat3.h:265-306. -/
def glm_mat3_quat : Fn where
  locals := []
  nregs := 3
  body := 
    .seq (.set 2 (.f2 .add (.f2 .add (.load (.reg 0)) (.load (.off (.reg 0) 4))) (.load (.off (.reg 0) 8)))) <|
    .ite (.fc .le (.flit 0) (.reg 2)) (.seq (.set 3 (.f1 .sqrtf (.f2 .add (.flit 1) (.reg 2)))) (.seq (.set 4 (.f2 .div (.flit 0.5) (.reg 3))) (.seq (.store (.reg 1) (.f2 .mul (.reg 4) (.f2 .sub (.load (.off (.reg 0) 5)) (.load (.off (.reg 0) 7))))) (.seq (.store (.off (.reg 1) 1) (.f2 .mul (.reg 4) (.f2 .sub (.load (.off (.reg 0) 6)) (.load (.off (.reg 0) 2))))) (.seq (.store (.off (.reg 1) 2) (.f2 .mul (.reg 4) (.f2 .sub (.load (.off (.reg 0) 1)) (.load (.off (.reg 0) 3))))) (.store (.off (.reg 1) 3) (.f2 .mul (.reg 3) (.flit 0.5)))))))) (.ite (.and (.fc .le (.load (.off (.reg 0) 4)) (.load (.reg 0))) (.fc .le (.load (.off (.reg 0) 8)) (.load (.reg 0)))) (.seq (.set 3 (.f1 .sqrtf (.f2 .add (.f2 .sub (.f2 .sub (.flit 1) (.load (.off (.reg 0) 4))) (.load (.off (.reg 0) 8))) (.load (.reg 0))))) (.seq (.set 4 (.f2 .div (.flit 0.5) (.reg 3))) (.seq (.store (.reg 1) (.f2 .mul (.reg 3) (.flit 0.5))) (.seq (.store (.off (.reg 1) 1) (.f2 .mul (.reg 4) (.f2 .add (.load (.off (.reg 0) 1)) (.load (.off (.reg 0) 3))))) (.seq (.store (.off (.reg 1) 2) (.f2 .mul (.reg 4) (.f2 .add (.load (.off (.reg 0) 2)) (.load (.off (.reg 0) 6))))) (.store (.off (.reg 1) 3) (.f2 .mul (.reg 4) (.f2 .sub (.load (.off (.reg 0) 5)) (.load (.off (.reg 0) 7)))))))))) (.ite (.fc .le (.load (.off (.reg 0) 8)) (.load (.off (.reg 0) 4))) (.seq (.set 3 (.f1 .sqrtf (.f2 .add (.f2 .sub (.f2 .sub (.flit 1) (.load (.reg 0))) (.load (.off (.reg 0) 8))) (.load (.off (.reg 0) 4))))) (.seq (.set 4 (.f2 .div (.flit 0.5) (.reg 3))) (.seq (.store (.reg 1) (.f2 .mul (.reg 4) (.f2 .add (.load (.off (.reg 0) 1)) (.load (.off (.reg 0) 3))))) (.seq (.store (.off (.reg 1) 1) (.f2 .mul (.reg 3) (.flit 0.5))) (.seq (.store (.off (.reg 1) 2) (.f2 .mul (.reg 4) (.f2 .add (.load (.off (.reg 0) 5)) (.load (.off (.reg 0) 7))))) (.store (.off (.reg 1) 3) (.f2 .mul (.reg 4) (.f2 .sub (.load (.off (.reg 0) 6)) (.load (.off (.reg 0) 2)))))))))) (.seq (.set 3 (.f1 .sqrtf (.f2 .add (.f2 .sub (.f2 .sub (.flit 1) (.load (.reg 0))) (.load (.off (.reg 0) 4))) (.load (.off (.reg 0) 8))))) (.seq (.set 4 (.f2 .div (.flit 0.5) (.reg 3))) (.seq (.store (.reg 1) (.f2 .mul (.reg 4) (.f2 .add (.load (.off (.reg 0) 2)) (.load (.off (.reg 0) 6))))) (.seq (.store (.off (.reg 1) 1) (.f2 .mul (.reg 4) (.f2 .add (.load (.off (.reg 0) 5)) (.load (.off (.reg 0) 7))))) (.seq (.store (.off (.reg 1) 2) (.f2 .mul (.reg 3) (.flit 0.5))) (.store (.off (.reg 1) 3) (.f2 .mul (.reg 4) (.f2 .sub (.load (.off (.reg 0) 1)) (.load (.off (.reg 0) 3))))))))))))

/-- `glm_mat3_scale`: include/cglm/mat3.h:316-322. -/
def glm_mat3_scale : Fn where
  locals := []
  nregs := 0
  body := 
    .seq (.store (.reg 0) (.f2 .mul (.load (.reg 0)) (.reg 1))) <|
    .seq (.store (.off (.reg 0) 1) (.f2 .mul (.load (.off (.reg 0) 1)) (.reg 1))) <|
    .seq (.store (.off (.reg 0) 2) (.f2 .mul (.load (.off (.reg 0) 2)) (.reg 1))) <|
    .seq (.store (.off (.reg 0) 3) (.f2 .mul (.load (.off (.reg 0) 3)) (.reg 1))) <|
    .seq (.store (.off (.reg 0) 4) (.f2 .mul (.load (.off (.reg 0) 4)) (.reg 1))) <|
    .seq (.store (.off (.reg 0) 5) (.f2 .mul (.load (.off (.reg 0) 5)) (.reg 1))) <|
    .seq (.store (.off (.reg 0) 6) (.f2 .mul (.load (.off (.reg 0) 6)) (.reg 1))) <|
    .seq (.store (.off (.reg 0) 7) (.f2 .mul (.load (.off (.reg 0) 7)) (.reg 1))) <|
    .store (.off (.reg 0) 8) (.f2 .mul (.load (.off (.reg 0) 8)) (.reg 1))

/-- `glm_mat3_det`: include/cglm/mat3.h:331-339. -/
def glm_mat3_det : Fn where
  locals := []
  nregs := 9
  body := 
    .seq (.set 1 (.load (.reg 0))) <|
    .seq (.set 2 (.load (.off (.reg 0) 1))) <|
    .seq (.set 3 (.load (.off (.reg 0) 2))) <|
    .seq (.set 4 (.load (.off (.reg 0) 3))) <|
    .seq (.set 5 (.load (.off (.reg 0) 4))) <|
    .seq (.set 6 (.load (.off (.reg 0) 5))) <|
    .seq (.set 7 (.load (.off (.reg 0) 6))) <|
    .seq (.set 8 (.load (.off (.reg 0) 7))) <|
    .seq (.set 9 (.load (.off (.reg 0) 8))) <|
    .ret (.f2 .add (.f2 .sub (.f2 .mul (.reg 1) (.f2 .sub (.f2 .mul (.reg 5) (.reg 9)) (.f2 .mul (.reg 8) (.reg 6)))) (.f2 .mul (.reg 4) (.f2 .sub (.f2 .mul (.reg 2) (.reg 9)) (.f2 .mul (.reg 8) (.reg 3))))) (.f2 .mul (.reg 7) (.f2 .sub (.f2 .mul (.reg 2) (.reg 6)) (.f2 .mul (.reg 5) (.reg 3)))))

/-- `glm_mat3_inv`: include/cglm/mat3.h:347-366. -/
def glm_mat3_inv : Fn where
  locals := []
  nregs := 14
  body := 
    .seq (.set 2 (.load (.reg 0))) <|
    .seq (.set 3 (.load (.off (.reg 0) 1))) <|
    .seq (.set 4 (.load (.off (.reg 0) 2))) <|
    .seq (.set 5 (.load (.off (.reg 0) 3))) <|
    .seq (.set 6 (.load (.off (.reg 0) 4))) <|
    .seq (.set 7 (.load (.off (.reg 0) 5))) <|
    .seq (.set 8 (.load (.off (.reg 0) 6))) <|
    .seq (.set 9 (.load (.off (.reg 0) 7))) <|
    .seq (.set 10 (.load (.off (.reg 0) 8))) <|
    .seq (.set 11 (.f2 .sub (.f2 .mul (.reg 6) (.reg 10)) (.f2 .mul (.reg 7) (.reg 9)))) <|
    .seq (.set 12 (.f2 .sub (.f2 .mul (.reg 5) (.reg 10)) (.f2 .mul (.reg 8) (.reg 7)))) <|
    .seq (.set 13 (.f2 .sub (.f2 .mul (.reg 5) (.reg 9)) (.f2 .mul (.reg 8) (.reg 6)))) <|
    .seq (.set 14 (.f2 .div (.flit 1) (.f2 .add (.f2 .sub (.f2 .mul (.reg 2) (.reg 11)) (.f2 .mul (.reg 3) (.reg 12))) (.f2 .mul (.reg 4) (.reg 13))))) <|
    .seq (.set 15 (.f1 .neg (.reg 14))) <|
    .seq (.store (.reg 1) (.f2 .mul (.reg 14) (.reg 11))) <|
    .seq (.store (.off (.reg 1) 1) (.f2 .mul (.reg 15) (.f2 .sub (.f2 .mul (.reg 3) (.reg 10)) (.f2 .mul (.reg 9) (.reg 4))))) <|
    .seq (.store (.off (.reg 1) 2) (.f2 .mul (.reg 14) (.f2 .sub (.f2 .mul (.reg 3) (.reg 7)) (.f2 .mul (.reg 6) (.reg 4))))) <|
    .seq (.store (.off (.reg 1) 3) (.f2 .mul (.reg 15) (.reg 12))) <|
    .seq (.store (.off (.reg 1) 4) (.f2 .mul (.reg 14) (.f2 .sub (.f2 .mul (.reg 2) (.reg 10)) (.f2 .mul (.reg 8) (.reg 4))))) <|
    .seq (.store (.off (.reg 1) 5) (.f2 .mul (.reg 15) (.f2 .sub (.f2 .mul (.reg 2) (.reg 7)) (.f2 .mul (.reg 5) (.reg 4))))) <|
    .seq (.store (.off (.reg 1) 6) (.f2 .mul (.reg 14) (.reg 13))) <|
    .seq (.store (.off (.reg 1) 7) (.f2 .mul (.reg 15) (.f2 .sub (.f2 .mul (.reg 2) (.reg 9)) (.f2 .mul (.reg 8) (.reg 3))))) <|
    .store (.off (.reg 1) 8) (.f2 .mul (.reg 14) (.f2 .sub (.f2 .mul (.reg 2) (.reg 6)) (.f2 .mul (.reg 5) (.reg 3))))

/-- `glm_mat3_rmc`: include/cglm/mat3.h:422-428. -/
def glm_mat3_rmc : Fn where
  locals := [3]
  nregs := 1
  body := 
    .seq (.call none glm_mat3_mulv.locals glm_mat3_mulv.nregs glm_mat3_mulv.body [.reg 1, .reg 2, .loc 0]) <|
    .seq (.call (some 3) glm_vec3_dot.locals glm_vec3_dot.nregs glm_vec3_dot.body [.reg 0, .loc 0]) <|
    .ret (.reg 3)

/-- `glm_mat3_make`: include/cglm/mat3.h:436-450. -/
def glm_mat3_make : Fn where
  locals := []
  nregs := 0
  body := 
    .seq (.store (.reg 1) (.load (.reg 0))) <|
    .seq (.store (.off (.reg 1) 1) (.load (.off (.reg 0) 1))) <|
    .seq (.store (.off (.reg 1) 2) (.load (.off (.reg 0) 2))) <|
    .seq (.store (.off (.reg 1) 3) (.load (.off (.reg 0) 3))) <|
    .seq (.store (.off (.reg 1) 4) (.load (.off (.reg 0) 4))) <|
    .seq (.store (.off (.reg 1) 5) (.load (.off (.reg 0) 5))) <|
    .seq (.store (.off (.reg 1) 6) (.load (.off (.reg 0) 6))) <|
    .seq (.store (.off (.reg 1) 7) (.load (.off (.reg 0) 7))) <|
    .store (.off (.reg 1) 8) (.load (.off (.reg 0) 8))

/-- `glm_mat3_textrans`: include/cglm/mat3.h:462-478. -/
def glm_mat3_textrans : Fn where
  locals := []
  nregs := 2
  body := 
    .seq (.set 6 (.f1 .cosf (.reg 2))) <|
    .seq (.set 7 (.f1 .sinf (.reg 2))) <|
    .seq (.call none glm_mat3_identity.locals glm_mat3_identity.nregs glm_mat3_identity.body [.reg 5]) <|
    .seq (.store (.reg 5) (.f2 .mul (.reg 6) (.reg 0))) <|
    .seq (.store (.off (.reg 5) 1) (.f2 .mul (.f1 .neg (.reg 7)) (.reg 1))) <|
    .seq (.store (.off (.reg 5) 3) (.f2 .mul (.reg 7) (.reg 0))) <|
    .seq (.store (.off (.reg 5) 4) (.f2 .mul (.reg 6) (.reg 1))) <|
    .seq (.store (.off (.reg 5) 6) (.reg 3)) <|
    .store (.off (.reg 5) 7) (.reg 4)

end Cglm.C

end Mat3

section Mat3x2

/- Generated from include/cglm/mat3x2.h by tools/memgen.py (memory semantics); do not edit by hand. -/

set_option maxRecDepth 10000

namespace Cglm.C
open CMem

/-- `glm_mat3x2_copy`: include/cglm/mat3x2.h:39-45. -/
def glm_mat3x2_copy : Fn where
  locals := []
  nregs := 0
  body := 
    .seq (.call none glm_vec2_copy.locals glm_vec2_copy.nregs glm_vec2_copy.body [.reg 0, .reg 1]) <|
    .seq (.call none glm_vec2_copy.locals glm_vec2_copy.nregs glm_vec2_copy.body [.off (.reg 0) 2, .off (.reg 1) 2]) <|
    .call none glm_vec2_copy.locals glm_vec2_copy.nregs glm_vec2_copy.body [.off (.reg 0) 4, .off (.reg 1) 4]

/-- `glm_mat3x2_zero`: include/cglm/mat3x2.h:52-57. -/
def glm_mat3x2_zero : Fn where
  locals := [6]
  nregs := 0
  body := 
    .seq (.store (.loc 0) (.flit 0)) <|
    .seq (.store (.off (.loc 0) 1) (.flit 0)) <|
    .seq (.store (.off (.loc 0) 2) (.flit 0)) <|
    .seq (.store (.off (.loc 0) 3) (.flit 0)) <|
    .seq (.store (.off (.loc 0) 4) (.flit 0)) <|
    .seq (.store (.off (.loc 0) 5) (.flit 0)) <|
    .call none glm_mat3x2_copy.locals glm_mat3x2_copy.nregs glm_mat3x2_copy.body [.loc 0, .reg 0]

/-- `glm_mat3x2_make`: include/cglm/mat3x2.h:65-76. -/
def glm_mat3x2_make : Fn where
  locals := []
  nregs := 0
  body := 
    .seq (.store (.reg 1) (.load (.reg 0))) <|
    .seq (.store (.off (.reg 1) 1) (.load (.off (.reg 0) 1))) <|
    .seq (.store (.off (.reg 1) 2) (.load (.off (.reg 0) 2))) <|
    .seq (.store (.off (.reg 1) 3) (.load (.off (.reg 0) 3))) <|
    .seq (.store (.off (.reg 1) 4) (.load (.off (.reg 0) 4))) <|
    .store (.off (.reg 1) 5) (.load (.off (.reg 0) 5))

/-- `glm_mat3x2_mul`: include/cglm/mat3x2.h:89-104. -/
def glm_mat3x2_mul : Fn where
  locals := []
  nregs := 12
  body := 
    .seq (.set 3 (.load (.reg 0))) <|
    .seq (.set 4 (.load (.off (.reg 0) 1))) <|
    .seq (.set 5 (.load (.off (.reg 0) 2))) <|
    .seq (.set 6 (.load (.off (.reg 0) 3))) <|
    .seq (.set 7 (.load (.off (.reg 0) 4))) <|
    .seq (.set 8 (.load (.off (.reg 0) 5))) <|
    .seq (.set 9 (.load (.reg 1))) <|
    .seq (.set 10 (.load (.off (.reg 1) 1))) <|
    .seq (.set 11 (.load (.off (.reg 1) 2))) <|
    .seq (.set 12 (.load (.off (.reg 1) 3))) <|
    .seq (.set 13 (.load (.off (.reg 1) 4))) <|
    .seq (.set 14 (.load (.off (.reg 1) 5))) <|
    .seq (.store (.reg 2) (.f2 .add (.f2 .add (.f2 .mul (.reg 3) (.reg 9)) (.f2 .mul (.reg 5) (.reg 10))) (.f2 .mul (.reg 7) (.reg 11)))) <|
    .seq (.store (.off (.reg 2) 1) (.f2 .add (.f2 .add (.f2 .mul (.reg 4) (.reg 9)) (.f2 .mul (.reg 6) (.reg 10))) (.f2 .mul (.reg 8) (.reg 11)))) <|
    .seq (.store (.off (.reg 2) 2) (.f2 .add (.f2 .add (.f2 .mul (.reg 3) (.reg 12)) (.f2 .mul (.reg 5) (.reg 13))) (.f2 .mul (.reg 7) (.reg 14)))) <|
    .store (.off (.reg 2) 3) (.f2 .add (.f2 .add (.f2 .mul (.reg 4) (.reg 12)) (.f2 .mul (.reg 6) (.reg 13))) (.f2 .mul (.reg 8) (.reg 14)))

/-- `glm_mat3x2_mulv`: include/cglm/mat3x2.h:113-120. -/
def glm_mat3x2_mulv : Fn where
  locals := []
  nregs := 3
  body := 
    .seq (.set 3 (.load (.reg 1))) <|
    .seq (.set 4 (.load (.off (.reg 1) 1))) <|
    .seq (.set 5 (.load (.off (.reg 1) 2))) <|
    .seq (.store (.reg 2) (.f2 .add (.f2 .add (.f2 .mul (.load (.reg 0)) (.reg 3)) (.f2 .mul (.load (.off (.reg 0) 2)) (.reg 4))) (.f2 .mul (.load (.off (.reg 0) 4)) (.reg 5)))) <|
    .store (.off (.reg 2) 1) (.f2 .add (.f2 .add (.f2 .mul (.load (.off (.reg 0) 1)) (.reg 3)) (.f2 .mul (.load (.off (.reg 0) 3)) (.reg 4))) (.f2 .mul (.load (.off (.reg 0) 5)) (.reg 5)))

/-- `glm_mat3x2_transpose`: include/cglm/mat3x2.h:128-133. -/
def glm_mat3x2_transpose : Fn where
  locals := []
  nregs := 0
  body := 
    .seq (.store (.reg 1) (.load (.reg 0))) <|
    .seq (.store (.off (.reg 1) 1) (.load (.off (.reg 0) 2))) <|
    .seq (.store (.off (.reg 1) 2) (.load (.off (.reg 0) 4))) <|
    .seq (.store (.off (.reg 1) 3) (.load (.off (.reg 0) 1))) <|
    .seq (.store (.off (.reg 1) 4) (.load (.off (.reg 0) 3))) <|
    .store (.off (.reg 1) 5) (.load (.off (.reg 0) 5))

/-- `glm_mat3x2_scale`: include/cglm/mat3x2.h:141-146. -/
def glm_mat3x2_scale : Fn where
  locals := []
  nregs := 0
  body := 
    .seq (.store (.reg 0) (.f2 .mul (.load (.reg 0)) (.reg 1))) <|
    .seq (.store (.off (.reg 0) 1) (.f2 .mul (.load (.off (.reg 0) 1)) (.reg 1))) <|
    .seq (.store (.off (.reg 0) 2) (.f2 .mul (.load (.off (.reg 0) 2)) (.reg 1))) <|
    .seq (.store (.off (.reg 0) 3) (.f2 .mul (.load (.off (.reg 0) 3)) (.reg 1))) <|
    .seq (.store (.off (.reg 0) 4) (.f2 .mul (.load (.off (.reg 0) 4)) (.reg 1))) <|
    .store (.off (.reg 0) 5) (.f2 .mul (.load (.off (.reg 0) 5)) (.reg 1))

end Cglm.C

end Mat3x2

section Mat3x4

/- Generated from include/cglm/mat3x4.h by tools/memgen.py (memory semantics); do not edit by hand. -/

set_option maxRecDepth 10000

namespace Cglm.C
open CMem

/-- `glm_mat3x4_copy`: include/cglm/mat3x4.h:41-47. -/
def glm_mat3x4_copy : Fn where
  locals := []
  nregs := 0
  body := 
    .seq (.call none glm_vec4_ucopy.locals glm_vec4_ucopy.nregs glm_vec4_ucopy.body [.reg 0, .reg 1]) <|
    .seq (.call none glm_vec4_ucopy.locals glm_vec4_ucopy.nregs glm_vec4_ucopy.body [.off (.reg 0) 4, .off (.reg 1) 4]) <|
    .call none glm_vec4_ucopy.locals glm_vec4_ucopy.nregs glm_vec4_ucopy.body [.off (.reg 0) 8, .off (.reg 1) 8]

/-- `glm_mat3x4_zero`: include/cglm/mat3x4.h:54-59. -/
def glm_mat3x4_zero : Fn where
  locals := [12]
  nregs := 0
  body := 
    .seq (.store (.loc 0) (.flit 0)) <|
    .seq (.store (.off (.loc 0) 1) (.flit 0)) <|
    .seq (.store (.off (.loc 0) 2) (.flit 0)) <|
    .seq (.store (.off (.loc 0) 3) (.flit 0)) <|
    .seq (.store (.off (.loc 0) 4) (.flit 0)) <|
    .seq (.store (.off (.loc 0) 5) (.flit 0)) <|
    .seq (.store (.off (.loc 0) 6) (.flit 0)) <|
    .seq (.store (.off (.loc 0) 7) (.flit 0)) <|
    .seq (.store (.off (.loc 0) 8) (.flit 0)) <|
    .seq (.store (.off (.loc 0) 9) (.flit 0)) <|
    .seq (.store (.off (.loc 0) 10) (.flit 0)) <|
    .seq (.store (.off (.loc 0) 11) (.flit 0)) <|
    .call none glm_mat3x4_copy.locals glm_mat3x4_copy.nregs glm_mat3x4_copy.body [.loc 0, .reg 0]

/-- `glm_mat3x4_make`: include/cglm/mat3x4.h:67-84. -/
def glm_mat3x4_make : Fn where
  locals := []
  nregs := 0
  body := 
    .seq (.store (.reg 1) (.load (.reg 0))) <|
    .seq (.store (.off (.reg 1) 1) (.load (.off (.reg 0) 1))) <|
    .seq (.store (.off (.reg 1) 2) (.load (.off (.reg 0) 2))) <|
    .seq (.store (.off (.reg 1) 3) (.load (.off (.reg 0) 3))) <|
    .seq (.store (.off (.reg 1) 4) (.load (.off (.reg 0) 4))) <|
    .seq (.store (.off (.reg 1) 5) (.load (.off (.reg 0) 5))) <|
    .seq (.store (.off (.reg 1) 6) (.load (.off (.reg 0) 6))) <|
    .seq (.store (.off (.reg 1) 7) (.load (.off (.reg 0) 7))) <|
    .seq (.store (.off (.reg 1) 8) (.load (.off (.reg 0) 8))) <|
    .seq (.store (.off (.reg 1) 9) (.load (.off (.reg 0) 9))) <|
    .seq (.store (.off (.reg 1) 10) (.load (.off (.reg 0) 10))) <|
    .store (.off (.reg 1) 11) (.load (.off (.reg 0) 11))

/-- `glm_mat3x4_mul`: include/cglm/mat3x4.h:97-128. -/
def glm_mat3x4_mul : Fn where
  locals := []
  nregs := 24
  body := 
    .seq (.set 3 (.load (.reg 0))) <|
    .seq (.set 4 (.load (.off (.reg 0) 1))) <|
    .seq (.set 5 (.load (.off (.reg 0) 2))) <|
    .seq (.set 6 (.load (.off (.reg 0) 3))) <|
    .seq (.set 7 (.load (.off (.reg 0) 4))) <|
    .seq (.set 8 (.load (.off (.reg 0) 5))) <|
    .seq (.set 9 (.load (.off (.reg 0) 6))) <|
    .seq (.set 10 (.load (.off (.reg 0) 7))) <|
    .seq (.set 11 (.load (.off (.reg 0) 8))) <|
    .seq (.set 12 (.load (.off (.reg 0) 9))) <|
    .seq (.set 13 (.load (.off (.reg 0) 10))) <|
    .seq (.set 14 (.load (.off (.reg 0) 11))) <|
    .seq (.set 15 (.load (.reg 1))) <|
    .seq (.set 16 (.load (.off (.reg 1) 1))) <|
    .seq (.set 17 (.load (.off (.reg 1) 2))) <|
    .seq (.set 18 (.load (.off (.reg 1) 3))) <|
    .seq (.set 19 (.load (.off (.reg 1) 4))) <|
    .seq (.set 20 (.load (.off (.reg 1) 5))) <|
    .seq (.set 21 (.load (.off (.reg 1) 6))) <|
    .seq (.set 22 (.load (.off (.reg 1) 7))) <|
    .seq (.set 23 (.load (.off (.reg 1) 8))) <|
    .seq (.set 24 (.load (.off (.reg 1) 9))) <|
    .seq (.set 25 (.load (.off (.reg 1) 10))) <|
    .seq (.set 26 (.load (.off (.reg 1) 11))) <|
    .seq (.store (.reg 2) (.f2 .add (.f2 .add (.f2 .mul (.reg 3) (.reg 15)) (.f2 .mul (.reg 7) (.reg 16))) (.f2 .mul (.reg 11) (.reg 17)))) <|
    .seq (.store (.off (.reg 2) 1) (.f2 .add (.f2 .add (.f2 .mul (.reg 4) (.reg 15)) (.f2 .mul (.reg 8) (.reg 16))) (.f2 .mul (.reg 12) (.reg 17)))) <|
    .seq (.store (.off (.reg 2) 2) (.f2 .add (.f2 .add (.f2 .mul (.reg 5) (.reg 15)) (.f2 .mul (.reg 9) (.reg 16))) (.f2 .mul (.reg 13) (.reg 17)))) <|
    .seq (.store (.off (.reg 2) 3) (.f2 .add (.f2 .add (.f2 .mul (.reg 6) (.reg 15)) (.f2 .mul (.reg 10) (.reg 16))) (.f2 .mul (.reg 14) (.reg 17)))) <|
    .seq (.store (.off (.reg 2) 4) (.f2 .add (.f2 .add (.f2 .mul (.reg 3) (.reg 18)) (.f2 .mul (.reg 7) (.reg 19))) (.f2 .mul (.reg 11) (.reg 20)))) <|
    .seq (.store (.off (.reg 2) 5) (.f2 .add (.f2 .add (.f2 .mul (.reg 4) (.reg 18)) (.f2 .mul (.reg 8) (.reg 19))) (.f2 .mul (.reg 12) (.reg 20)))) <|
    .seq (.store (.off (.reg 2) 6) (.f2 .add (.f2 .add (.f2 .mul (.reg 5) (.reg 18)) (.f2 .mul (.reg 9) (.reg 19))) (.f2 .mul (.reg 13) (.reg 20)))) <|
    .seq (.store (.off (.reg 2) 7) (.f2 .add (.f2 .add (.f2 .mul (.reg 6) (.reg 18)) (.f2 .mul (.reg 10) (.reg 19))) (.f2 .mul (.reg 14) (.reg 20)))) <|
    .seq (.store (.off (.reg 2) 8) (.f2 .add (.f2 .add (.f2 .mul (.reg 3) (.reg 21)) (.f2 .mul (.reg 7) (.reg 22))) (.f2 .mul (.reg 11) (.reg 23)))) <|
    .seq (.store (.off (.reg 2) 9) (.f2 .add (.f2 .add (.f2 .mul (.reg 4) (.reg 21)) (.f2 .mul (.reg 8) (.reg 22))) (.f2 .mul (.reg 12) (.reg 23)))) <|
    .seq (.store (.off (.reg 2) 10) (.f2 .add (.f2 .add (.f2 .mul (.reg 5) (.reg 21)) (.f2 .mul (.reg 9) (.reg 22))) (.f2 .mul (.reg 13) (.reg 23)))) <|
    .seq (.store (.off (.reg 2) 11) (.f2 .add (.f2 .add (.f2 .mul (.reg 6) (.reg 21)) (.f2 .mul (.reg 10) (.reg 22))) (.f2 .mul (.reg 14) (.reg 23)))) <|
    .seq (.store (.off (.reg 2) 12) (.f2 .add (.f2 .add (.f2 .mul (.reg 3) (.reg 24)) (.f2 .mul (.reg 7) (.reg 25))) (.f2 .mul (.reg 11) (.reg 26)))) <|
    .seq (.store (.off (.reg 2) 13) (.f2 .add (.f2 .add (.f2 .mul (.reg 4) (.reg 24)) (.f2 .mul (.reg 8) (.reg 25))) (.f2 .mul (.reg 12) (.reg 26)))) <|
    .seq (.store (.off (.reg 2) 14) (.f2 .add (.f2 .add (.f2 .mul (.reg 5) (.reg 24)) (.f2 .mul (.reg 9) (.reg 25))) (.f2 .mul (.reg 13) (.reg 26)))) <|
    .store (.off (.reg 2) 15) (.f2 .add (.f2 .add (.f2 .mul (.reg 6) (.reg 24)) (.f2 .mul (.reg 10) (.reg 25))) (.f2 .mul (.reg 14) (.reg 26)))

/-- `glm_mat3x4_mulv`: include/cglm/mat3x4.h:137-146. -/
def glm_mat3x4_mulv : Fn where
  locals := []
  nregs := 3
  body := 
    .seq (.set 3 (.load (.reg 1))) <|
    .seq (.set 4 (.load (.off (.reg 1) 1))) <|
    .seq (.set 5 (.load (.off (.reg 1) 2))) <|
    .seq (.store (.reg 2) (.f2 .add (.f2 .add (.f2 .mul (.load (.reg 0)) (.reg 3)) (.f2 .mul (.load (.off (.reg 0) 4)) (.reg 4))) (.f2 .mul (.load (.off (.reg 0) 8)) (.reg 5)))) <|
    .seq (.store (.off (.reg 2) 1) (.f2 .add (.f2 .add (.f2 .mul (.load (.off (.reg 0) 1)) (.reg 3)) (.f2 .mul (.load (.off (.reg 0) 5)) (.reg 4))) (.f2 .mul (.load (.off (.reg 0) 9)) (.reg 5)))) <|
    .seq (.store (.off (.reg 2) 2) (.f2 .add (.f2 .add (.f2 .mul (.load (.off (.reg 0) 2)) (.reg 3)) (.f2 .mul (.load (.off (.reg 0) 6)) (.reg 4))) (.f2 .mul (.load (.off (.reg 0) 10)) (.reg 5)))) <|
    .store (.off (.reg 2) 3) (.f2 .add (.f2 .add (.f2 .mul (.load (.off (.reg 0) 3)) (.reg 3)) (.f2 .mul (.load (.off (.reg 0) 7)) (.reg 4))) (.f2 .mul (.load (.off (.reg 0) 11)) (.reg 5)))

/-- `glm_mat3x4_transpose`: include/cglm/mat3x4.h:154-161. -/
def glm_mat3x4_transpose : Fn where
  locals := []
  nregs := 0
  body := 
    .seq (.store (.reg 1) (.load (.reg 0))) <|
    .seq (.store (.off (.reg 1) 1) (.load (.off (.reg 0) 4))) <|
    .seq (.store (.off (.reg 1) 2) (.load (.off (.reg 0) 8))) <|
    .seq (.store (.off (.reg 1) 3) (.load (.off (.reg 0) 1))) <|
    .seq (.store (.off (.reg 1) 4) (.load (.off (.reg 0) 5))) <|
    .seq (.store (.off (.reg 1) 5) (.load (.off (.reg 0) 9))) <|
    .seq (.store (.off (.reg 1) 6) (.load (.off (.reg 0) 2))) <|
    .seq (.store (.off (.reg 1) 7) (.load (.off (.reg 0) 6))) <|
    .seq (.store (.off (.reg 1) 8) (.load (.off (.reg 0) 10))) <|
    .seq (.store (.off (.reg 1) 9) (.load (.off (.reg 0) 3))) <|
    .seq (.store (.off (.reg 1) 10) (.load (.off (.reg 0) 7))) <|
    .store (.off (.reg 1) 11) (.load (.off (.reg 0) 11))

/-- `glm_mat3x4_scale`: include/cglm/mat3x4.h:169-175. -/
def glm_mat3x4_scale : Fn where
  locals := []
  nregs := 0
  body := 
    .seq (.store (.reg 0) (.f2 .mul (.load (.reg 0)) (.reg 1))) <|
    .seq (.store (.off (.reg 0) 1) (.f2 .mul (.load (.off (.reg 0) 1)) (.reg 1))) <|
    .seq (.store (.off (.reg 0) 2) (.f2 .mul (.load (.off (.reg 0) 2)) (.reg 1))) <|
    .seq (.store (.off (.reg 0) 3) (.f2 .mul (.load (.off (.reg 0) 3)) (.reg 1))) <|
    .seq (.store (.off (.reg 0) 4) (.f2 .mul (.load (.off (.reg 0) 4)) (.reg 1))) <|
    .seq (.store (.off (.reg 0) 5) (.f2 .mul (.load (.off (.reg 0) 5)) (.reg 1))) <|
    .seq (.store (.off (.reg 0) 6) (.f2 .mul (.load (.off (.reg 0) 6)) (.reg 1))) <|
    .seq (.store (.off (.reg 0) 7) (.f2 .mul (.load (.off (.reg 0) 7)) (.reg 1))) <|
    .seq (.store (.off (.reg 0) 8) (.f2 .mul (.load (.off (.reg 0) 8)) (.reg 1))) <|
    .seq (.store (.off (.reg 0) 9) (.f2 .mul (.load (.off (.reg 0) 9)) (.reg 1))) <|
    .seq (.store (.off (.reg 0) 10) (.f2 .mul (.load (.off (.reg 0) 10)) (.reg 1))) <|
    .store (.off (.reg 0) 11) (.f2 .mul (.load (.off (.reg 0) 11)) (.reg 1))

end Cglm.C

end Mat3x4

section Mat4

/- Generated from include/cglm/mat4.h by tools/memgen.py (memory semantics); do not edit by hand. -/

set_option maxRecDepth 10000

namespace Cglm.C
open CMem

/-- `glm_mat4_ucopy`: include/cglm/mat4.h:107-119. -/
def glm_mat4_ucopy : Fn where
  locals := []
  nregs := 0
  body := 
    .seq (.store (.reg 1) (.load (.reg 0))) <|
    .seq (.store (.off (.reg 1) 4) (.load (.off (.reg 0) 4))) <|
    .seq (.store (.off (.reg 1) 1) (.load (.off (.reg 0) 1))) <|
    .seq (.store (.off (.reg 1) 5) (.load (.off (.reg 0) 5))) <|
    .seq (.store (.off (.reg 1) 2) (.load (.off (.reg 0) 2))) <|
    .seq (.store (.off (.reg 1) 6) (.load (.off (.reg 0) 6))) <|
    .seq (.store (.off (.reg 1) 3) (.load (.off (.reg 0) 3))) <|
    .seq (.store (.off (.reg 1) 7) (.load (.off (.reg 0) 7))) <|
    .seq (.store (.off (.reg 1) 8) (.load (.off (.reg 0) 8))) <|
    .seq (.store (.off (.reg 1) 12) (.load (.off (.reg 0) 12))) <|
    .seq (.store (.off (.reg 1) 9) (.load (.off (.reg 0) 9))) <|
    .seq (.store (.off (.reg 1) 13) (.load (.off (.reg 0) 13))) <|
    .seq (.store (.off (.reg 1) 10) (.load (.off (.reg 0) 10))) <|
    .seq (.store (.off (.reg 1) 14) (.load (.off (.reg 0) 14))) <|
    .seq (.store (.off (.reg 1) 11) (.load (.off (.reg 0) 11))) <|
    .store (.off (.reg 1) 15) (.load (.off (.reg 0) 15))

/-- `glm_mat4_copy`: include/cglm/mat4.h:127-151. -/
def glm_mat4_copy : Fn where
  locals := []
  nregs := 0
  body := .call none glm_mat4_ucopy.locals glm_mat4_ucopy.nregs glm_mat4_ucopy.body [.reg 0, .reg 1]

/-- `glm_mat4_identity`: include/cglm/mat4.h:167-172. -/
def glm_mat4_identity : Fn where
  locals := [16]
  nregs := 0
  body := 
    .seq (.store (.loc 0) (.flit 1)) <|
    .seq (.store (.off (.loc 0) 1) (.flit 0)) <|
    .seq (.store (.off (.loc 0) 2) (.flit 0)) <|
    .seq (.store (.off (.loc 0) 3) (.flit 0)) <|
    .seq (.store (.off (.loc 0) 4) (.flit 0)) <|
    .seq (.store (.off (.loc 0) 5) (.flit 1)) <|
    .seq (.store (.off (.loc 0) 6) (.flit 0)) <|
    .seq (.store (.off (.loc 0) 7) (.flit 0)) <|
    .seq (.store (.off (.loc 0) 8) (.flit 0)) <|
    .seq (.store (.off (.loc 0) 9) (.flit 0)) <|
    .seq (.store (.off (.loc 0) 10) (.flit 1)) <|
    .seq (.store (.off (.loc 0) 11) (.flit 0)) <|
    .seq (.store (.off (.loc 0) 12) (.flit 0)) <|
    .seq (.store (.off (.loc 0) 13) (.flit 0)) <|
    .seq (.store (.off (.loc 0) 14) (.flit 0)) <|
    .seq (.store (.off (.loc 0) 15) (.flit 1)) <|
    .call none glm_mat4_copy.locals glm_mat4_copy.nregs glm_mat4_copy.body [.loc 0, .reg 0]

/-- `glm_mat4_zero`: include/cglm/mat4.h:198-231. -/
def glm_mat4_zero : Fn where
  locals := [16]
  nregs := 0
  body := 
    .seq (.store (.loc 0) (.flit 0)) <|
    .seq (.store (.off (.loc 0) 1) (.flit 0)) <|
    .seq (.store (.off (.loc 0) 2) (.flit 0)) <|
    .seq (.store (.off (.loc 0) 3) (.flit 0)) <|
    .seq (.store (.off (.loc 0) 4) (.flit 0)) <|
    .seq (.store (.off (.loc 0) 5) (.flit 0)) <|
    .seq (.store (.off (.loc 0) 6) (.flit 0)) <|
    .seq (.store (.off (.loc 0) 7) (.flit 0)) <|
    .seq (.store (.off (.loc 0) 8) (.flit 0)) <|
    .seq (.store (.off (.loc 0) 9) (.flit 0)) <|
    .seq (.store (.off (.loc 0) 10) (.flit 0)) <|
    .seq (.store (.off (.loc 0) 11) (.flit 0)) <|
    .seq (.store (.off (.loc 0) 12) (.flit 0)) <|
    .seq (.store (.off (.loc 0) 13) (.flit 0)) <|
    .seq (.store (.off (.loc 0) 14) (.flit 0)) <|
    .seq (.store (.off (.loc 0) 15) (.flit 0)) <|
    .call none glm_mat4_copy.locals glm_mat4_copy.nregs glm_mat4_copy.body [.loc 0, .reg 0]

/-- `glm_mat4_pick3`: include/cglm/mat4.h:239-253. -/
def glm_mat4_pick3 : Fn where
  locals := []
  nregs := 0
  body := 
    .seq (.store (.reg 1) (.load (.reg 0))) <|
    .seq (.store (.off (.reg 1) 1) (.load (.off (.reg 0) 1))) <|
    .seq (.store (.off (.reg 1) 2) (.load (.off (.reg 0) 2))) <|
    .seq (.store (.off (.reg 1) 3) (.load (.off (.reg 0) 4))) <|
    .seq (.store (.off (.reg 1) 4) (.load (.off (.reg 0) 5))) <|
    .seq (.store (.off (.reg 1) 5) (.load (.off (.reg 0) 6))) <|
    .seq (.store (.off (.reg 1) 6) (.load (.off (.reg 0) 8))) <|
    .seq (.store (.off (.reg 1) 7) (.load (.off (.reg 0) 9))) <|
    .store (.off (.reg 1) 8) (.load (.off (.reg 0) 10))

/-- `glm_mat4_pick3t`: include/cglm/mat4.h:263-277. -/
def glm_mat4_pick3t : Fn where
  locals := []
  nregs := 0
  body := 
    .seq (.store (.reg 1) (.load (.reg 0))) <|
    .seq (.store (.off (.reg 1) 1) (.load (.off (.reg 0) 4))) <|
    .seq (.store (.off (.reg 1) 2) (.load (.off (.reg 0) 8))) <|
    .seq (.store (.off (.reg 1) 3) (.load (.off (.reg 0) 1))) <|
    .seq (.store (.off (.reg 1) 4) (.load (.off (.reg 0) 5))) <|
    .seq (.store (.off (.reg 1) 5) (.load (.off (.reg 0) 9))) <|
    .seq (.store (.off (.reg 1) 6) (.load (.off (.reg 0) 2))) <|
    .seq (.store (.off (.reg 1) 7) (.load (.off (.reg 0) 6))) <|
    .store (.off (.reg 1) 8) (.load (.off (.reg 0) 10))

/-- `glm_mat4_ins3`: include/cglm/mat4.h:285-299. -/
def glm_mat4_ins3 : Fn where
  locals := []
  nregs := 0
  body := 
    .seq (.store (.reg 1) (.load (.reg 0))) <|
    .seq (.store (.off (.reg 1) 1) (.load (.off (.reg 0) 1))) <|
    .seq (.store (.off (.reg 1) 2) (.load (.off (.reg 0) 2))) <|
    .seq (.store (.off (.reg 1) 4) (.load (.off (.reg 0) 3))) <|
    .seq (.store (.off (.reg 1) 5) (.load (.off (.reg 0) 4))) <|
    .seq (.store (.off (.reg 1) 6) (.load (.off (.reg 0) 5))) <|
    .seq (.store (.off (.reg 1) 8) (.load (.off (.reg 0) 6))) <|
    .seq (.store (.off (.reg 1) 9) (.load (.off (.reg 0) 7))) <|
    .store (.off (.reg 1) 10) (.load (.off (.reg 0) 8))

/-- `glm_mat4_mul`: include/cglm/mat4.h:315-354. -/
def glm_mat4_mul : Fn where
  locals := []
  nregs := 32
  body := 
    .seq (.set 3 (.load (.reg 0))) <|
    .seq (.set 4 (.load (.off (.reg 0) 1))) <|
    .seq (.set 5 (.load (.off (.reg 0) 2))) <|
    .seq (.set 6 (.load (.off (.reg 0) 3))) <|
    .seq (.set 7 (.load (.off (.reg 0) 4))) <|
    .seq (.set 8 (.load (.off (.reg 0) 5))) <|
    .seq (.set 9 (.load (.off (.reg 0) 6))) <|
    .seq (.set 10 (.load (.off (.reg 0) 7))) <|
    .seq (.set 11 (.load (.off (.reg 0) 8))) <|
    .seq (.set 12 (.load (.off (.reg 0) 9))) <|
    .seq (.set 13 (.load (.off (.reg 0) 10))) <|
    .seq (.set 14 (.load (.off (.reg 0) 11))) <|
    .seq (.set 15 (.load (.off (.reg 0) 12))) <|
    .seq (.set 16 (.load (.off (.reg 0) 13))) <|
    .seq (.set 17 (.load (.off (.reg 0) 14))) <|
    .seq (.set 18 (.load (.off (.reg 0) 15))) <|
    .seq (.set 19 (.load (.reg 1))) <|
    .seq (.set 20 (.load (.off (.reg 1) 1))) <|
    .seq (.set 21 (.load (.off (.reg 1) 2))) <|
    .seq (.set 22 (.load (.off (.reg 1) 3))) <|
    .seq (.set 23 (.load (.off (.reg 1) 4))) <|
    .seq (.set 24 (.load (.off (.reg 1) 5))) <|
    .seq (.set 25 (.load (.off (.reg 1) 6))) <|
    .seq (.set 26 (.load (.off (.reg 1) 7))) <|
    .seq (.set 27 (.load (.off (.reg 1) 8))) <|
    .seq (.set 28 (.load (.off (.reg 1) 9))) <|
    .seq (.set 29 (.load (.off (.reg 1) 10))) <|
    .seq (.set 30 (.load (.off (.reg 1) 11))) <|
    .seq (.set 31 (.load (.off (.reg 1) 12))) <|
    .seq (.set 32 (.load (.off (.reg 1) 13))) <|
    .seq (.set 33 (.load (.off (.reg 1) 14))) <|
    .seq (.set 34 (.load (.off (.reg 1) 15))) <|
    .seq (.store (.reg 2) (.f2 .add (.f2 .add (.f2 .add (.f2 .mul (.reg 3) (.reg 19)) (.f2 .mul (.reg 7) (.reg 20))) (.f2 .mul (.reg 11) (.reg 21))) (.f2 .mul (.reg 15) (.reg 22)))) <|
    .seq (.store (.off (.reg 2) 1) (.f2 .add (.f2 .add (.f2 .add (.f2 .mul (.reg 4) (.reg 19)) (.f2 .mul (.reg 8) (.reg 20))) (.f2 .mul (.reg 12) (.reg 21))) (.f2 .mul (.reg 16) (.reg 22)))) <|
    .seq (.store (.off (.reg 2) 2) (.f2 .add (.f2 .add (.f2 .add (.f2 .mul (.reg 5) (.reg 19)) (.f2 .mul (.reg 9) (.reg 20))) (.f2 .mul (.reg 13) (.reg 21))) (.f2 .mul (.reg 17) (.reg 22)))) <|
    .seq (.store (.off (.reg 2) 3) (.f2 .add (.f2 .add (.f2 .add (.f2 .mul (.reg 6) (.reg 19)) (.f2 .mul (.reg 10) (.reg 20))) (.f2 .mul (.reg 14) (.reg 21))) (.f2 .mul (.reg 18) (.reg 22)))) <|
    .seq (.store (.off (.reg 2) 4) (.f2 .add (.f2 .add (.f2 .add (.f2 .mul (.reg 3) (.reg 23)) (.f2 .mul (.reg 7) (.reg 24))) (.f2 .mul (.reg 11) (.reg 25))) (.f2 .mul (.reg 15) (.reg 26)))) <|
    .seq (.store (.off (.reg 2) 5) (.f2 .add (.f2 .add (.f2 .add (.f2 .mul (.reg 4) (.reg 23)) (.f2 .mul (.reg 8) (.reg 24))) (.f2 .mul (.reg 12) (.reg 25))) (.f2 .mul (.reg 16) (.reg 26)))) <|
    .seq (.store (.off (.reg 2) 6) (.f2 .add (.f2 .add (.f2 .add (.f2 .mul (.reg 5) (.reg 23)) (.f2 .mul (.reg 9) (.reg 24))) (.f2 .mul (.reg 13) (.reg 25))) (.f2 .mul (.reg 17) (.reg 26)))) <|
    .seq (.store (.off (.reg 2) 7) (.f2 .add (.f2 .add (.f2 .add (.f2 .mul (.reg 6) (.reg 23)) (.f2 .mul (.reg 10) (.reg 24))) (.f2 .mul (.reg 14) (.reg 25))) (.f2 .mul (.reg 18) (.reg 26)))) <|
    .seq (.store (.off (.reg 2) 8) (.f2 .add (.f2 .add (.f2 .add (.f2 .mul (.reg 3) (.reg 27)) (.f2 .mul (.reg 7) (.reg 28))) (.f2 .mul (.reg 11) (.reg 29))) (.f2 .mul (.reg 15) (.reg 30)))) <|
    .seq (.store (.off (.reg 2) 9) (.f2 .add (.f2 .add (.f2 .add (.f2 .mul (.reg 4) (.reg 27)) (.f2 .mul (.reg 8) (.reg 28))) (.f2 .mul (.reg 12) (.reg 29))) (.f2 .mul (.reg 16) (.reg 30)))) <|
    .seq (.store (.off (.reg 2) 10) (.f2 .add (.f2 .add (.f2 .add (.f2 .mul (.reg 5) (.reg 27)) (.f2 .mul (.reg 9) (.reg 28))) (.f2 .mul (.reg 13) (.reg 29))) (.f2 .mul (.reg 17) (.reg 30)))) <|
    .seq (.store (.off (.reg 2) 11) (.f2 .add (.f2 .add (.f2 .add (.f2 .mul (.reg 6) (.reg 27)) (.f2 .mul (.reg 10) (.reg 28))) (.f2 .mul (.reg 14) (.reg 29))) (.f2 .mul (.reg 18) (.reg 30)))) <|
    .seq (.store (.off (.reg 2) 12) (.f2 .add (.f2 .add (.f2 .add (.f2 .mul (.reg 3) (.reg 31)) (.f2 .mul (.reg 7) (.reg 32))) (.f2 .mul (.reg 11) (.reg 33))) (.f2 .mul (.reg 15) (.reg 34)))) <|
    .seq (.store (.off (.reg 2) 13) (.f2 .add (.f2 .add (.f2 .add (.f2 .mul (.reg 4) (.reg 31)) (.f2 .mul (.reg 8) (.reg 32))) (.f2 .mul (.reg 12) (.reg 33))) (.f2 .mul (.reg 16) (.reg 34)))) <|
    .seq (.store (.off (.reg 2) 14) (.f2 .add (.f2 .add (.f2 .add (.f2 .mul (.reg 5) (.reg 31)) (.f2 .mul (.reg 9) (.reg 32))) (.f2 .mul (.reg 13) (.reg 33))) (.f2 .mul (.reg 17) (.reg 34)))) <|
    .store (.off (.reg 2) 15) (.f2 .add (.f2 .add (.f2 .add (.f2 .mul (.reg 6) (.reg 31)) (.f2 .mul (.reg 10) (.reg 32))) (.f2 .mul (.reg 14) (.reg 33))) (.f2 .mul (.reg 18) (.reg 34)))

/-- `glm_mat4_mulv`: include/cglm/mat4.h:397-414. -/
def glm_mat4_mulv : Fn where
  locals := [4]
  nregs := 0
  body := 
    .seq (.store (.loc 0) (.f2 .add (.f2 .add (.f2 .add (.f2 .mul (.load (.reg 0)) (.load (.reg 1))) (.f2 .mul (.load (.off (.reg 0) 4)) (.load (.off (.reg 1) 1)))) (.f2 .mul (.load (.off (.reg 0) 8)) (.load (.off (.reg 1) 2)))) (.f2 .mul (.load (.off (.reg 0) 12)) (.load (.off (.reg 1) 3))))) <|
    .seq (.store (.off (.loc 0) 1) (.f2 .add (.f2 .add (.f2 .add (.f2 .mul (.load (.off (.reg 0) 1)) (.load (.reg 1))) (.f2 .mul (.load (.off (.reg 0) 5)) (.load (.off (.reg 1) 1)))) (.f2 .mul (.load (.off (.reg 0) 9)) (.load (.off (.reg 1) 2)))) (.f2 .mul (.load (.off (.reg 0) 13)) (.load (.off (.reg 1) 3))))) <|
    .seq (.store (.off (.loc 0) 2) (.f2 .add (.f2 .add (.f2 .add (.f2 .mul (.load (.off (.reg 0) 2)) (.load (.reg 1))) (.f2 .mul (.load (.off (.reg 0) 6)) (.load (.off (.reg 1) 1)))) (.f2 .mul (.load (.off (.reg 0) 10)) (.load (.off (.reg 1) 2)))) (.f2 .mul (.load (.off (.reg 0) 14)) (.load (.off (.reg 1) 3))))) <|
    .seq (.store (.off (.loc 0) 3) (.f2 .add (.f2 .add (.f2 .add (.f2 .mul (.load (.off (.reg 0) 3)) (.load (.reg 1))) (.f2 .mul (.load (.off (.reg 0) 7)) (.load (.off (.reg 1) 1)))) (.f2 .mul (.load (.off (.reg 0) 11)) (.load (.off (.reg 1) 2)))) (.f2 .mul (.load (.off (.reg 0) 15)) (.load (.off (.reg 1) 3))))) <|
    .call none glm_vec4_copy.locals glm_vec4_copy.nregs glm_vec4_copy.body [.loc 0, .reg 2]

/-- `glm_mat4_trace`: include/cglm/mat4.h:423-427. -/
def glm_mat4_trace : Fn where
  locals := []
  nregs := 0
  body := .ret (.f2 .add (.f2 .add (.f2 .add (.load (.reg 0)) (.load (.off (.reg 0) 5))) (.load (.off (.reg 0) 10))) (.load (.off (.reg 0) 15)))

/-- `glm_mat4_trace3`: include/cglm/mat4.h:436-440. -/
def glm_mat4_trace3 : Fn where
  locals := []
  nregs := 0
  body := .ret (.f2 .add (.f2 .add (.load (.reg 0)) (.load (.off (.reg 0) 5))) (.load (.off (.reg 0) 10)))

/-- `glm_mat4_quat`: include/cglm/mat4.h:448-489. -/
def glm_mat4_quat : Fn where
  locals := []
  nregs := 3
  body := 
    .seq (.set 2 (.f2 .add (.f2 .add (.load (.reg 0)) (.load (.off (.reg 0) 5))) (.load (.off (.reg 0) 10)))) <|
    .ite (.fc .le (.flit 0) (.reg 2)) (.seq (.set 3 (.f1 .sqrtf (.f2 .add (.flit 1) (.reg 2)))) (.seq (.set 4 (.f2 .div (.flit 0.5) (.reg 3))) (.seq (.store (.reg 1) (.f2 .mul (.reg 4) (.f2 .sub (.load (.off (.reg 0) 6)) (.load (.off (.reg 0) 9))))) (.seq (.store (.off (.reg 1) 1) (.f2 .mul (.reg 4) (.f2 .sub (.load (.off (.reg 0) 8)) (.load (.off (.reg 0) 2))))) (.seq (.store (.off (.reg 1) 2) (.f2 .mul (.reg 4) (.f2 .sub (.load (.off (.reg 0) 1)) (.load (.off (.reg 0) 4))))) (.store (.off (.reg 1) 3) (.f2 .mul (.reg 3) (.flit 0.5)))))))) (.ite (.and (.fc .le (.load (.off (.reg 0) 5)) (.load (.reg 0))) (.fc .le (.load (.off (.reg 0) 10)) (.load (.reg 0)))) (.seq (.set 3 (.f1 .sqrtf (.f2 .add (.f2 .sub (.f2 .sub (.flit 1) (.load (.off (.reg 0) 5))) (.load (.off (.reg 0) 10))) (.load (.reg 0))))) (.seq (.set 4 (.f2 .div (.flit 0.5) (.reg 3))) (.seq (.store (.reg 1) (.f2 .mul (.reg 3) (.flit 0.5))) (.seq (.store (.off (.reg 1) 1) (.f2 .mul (.reg 4) (.f2 .add (.load (.off (.reg 0) 1)) (.load (.off (.reg 0) 4))))) (.seq (.store (.off (.reg 1) 2) (.f2 .mul (.reg 4) (.f2 .add (.load (.off (.reg 0) 2)) (.load (.off (.reg 0) 8))))) (.store (.off (.reg 1) 3) (.f2 .mul (.reg 4) (.f2 .sub (.load (.off (.reg 0) 6)) (.load (.off (.reg 0) 9)))))))))) (.ite (.fc .le (.load (.off (.reg 0) 10)) (.load (.off (.reg 0) 5))) (.seq (.set 3 (.f1 .sqrtf (.f2 .add (.f2 .sub (.f2 .sub (.flit 1) (.load (.reg 0))) (.load (.off (.reg 0) 10))) (.load (.off (.reg 0) 5))))) (.seq (.set 4 (.f2 .div (.flit 0.5) (.reg 3))) (.seq (.store (.reg 1) (.f2 .mul (.reg 4) (.f2 .add (.load (.off (.reg 0) 1)) (.load (.off (.reg 0) 4))))) (.seq (.store (.off (.reg 1) 1) (.f2 .mul (.reg 3) (.flit 0.5))) (.seq (.store (.off (.reg 1) 2) (.f2 .mul (.reg 4) (.f2 .add (.load (.off (.reg 0) 6)) (.load (.off (.reg 0) 9))))) (.store (.off (.reg 1) 3) (.f2 .mul (.reg 4) (.f2 .sub (.load (.off (.reg 0) 8)) (.load (.off (.reg 0) 2)))))))))) (.seq (.set 3 (.f1 .sqrtf (.f2 .add (.f2 .sub (.f2 .sub (.flit 1) (.load (.reg 0))) (.load (.off (.reg 0) 5))) (.load (.off (.reg 0) 10))))) (.seq (.set 4 (.f2 .div (.flit 0.5) (.reg 3))) (.seq (.store (.reg 1) (.f2 .mul (.reg 4) (.f2 .add (.load (.off (.reg 0) 2)) (.load (.off (.reg 0) 8))))) (.seq (.store (.off (.reg 1) 1) (.f2 .mul (.reg 4) (.f2 .add (.load (.off (.reg 0) 6)) (.load (.off (.reg 0) 9))))) (.seq (.store (.off (.reg 1) 2) (.f2 .mul (.reg 3) (.flit 0.5))) (.store (.off (.reg 1) 3) (.f2 .mul (.reg 4) (.f2 .sub (.load (.off (.reg 0) 1)) (.load (.off (.reg 0) 4))))))))))))

/-- `glm_mat4_mulv3`: include/cglm/mat4.h:502-509. -/
def glm_mat4_mulv3 : Fn where
  locals := [4]
  nregs := 0
  body := 
    .seq (.call none glm_vec4.locals glm_vec4.nregs glm_vec4.body [.reg 1, .reg 2, .loc 0]) <|
    .seq (.call none glm_mat4_mulv.locals glm_mat4_mulv.nregs glm_mat4_mulv.body [.reg 0, .loc 0, .loc 0]) <|
    .call none glm_vec3.locals glm_vec3.nregs glm_vec3.body [.loc 0, .reg 3]

/-- `glm_mat4_transpose_to`: include/cglm/mat4.h:519-540. -/
def glm_mat4_transpose_to : Fn where
  locals := []
  nregs := 0
  body := 
    .seq (.store (.reg 1) (.load (.reg 0))) <|
    .seq (.store (.off (.reg 1) 4) (.load (.off (.reg 0) 1))) <|
    .seq (.store (.off (.reg 1) 1) (.load (.off (.reg 0) 4))) <|
    .seq (.store (.off (.reg 1) 5) (.load (.off (.reg 0) 5))) <|
    .seq (.store (.off (.reg 1) 2) (.load (.off (.reg 0) 8))) <|
    .seq (.store (.off (.reg 1) 6) (.load (.off (.reg 0) 9))) <|
    .seq (.store (.off (.reg 1) 3) (.load (.off (.reg 0) 12))) <|
    .seq (.store (.off (.reg 1) 7) (.load (.off (.reg 0) 13))) <|
    .seq (.store (.off (.reg 1) 8) (.load (.off (.reg 0) 2))) <|
    .seq (.store (.off (.reg 1) 12) (.load (.off (.reg 0) 3))) <|
    .seq (.store (.off (.reg 1) 9) (.load (.off (.reg 0) 6))) <|
    .seq (.store (.off (.reg 1) 13) (.load (.off (.reg 0) 7))) <|
    .seq (.store (.off (.reg 1) 10) (.load (.off (.reg 0) 10))) <|
    .seq (.store (.off (.reg 1) 14) (.load (.off (.reg 0) 11))) <|
    .seq (.store (.off (.reg 1) 11) (.load (.off (.reg 0) 14))) <|
    .store (.off (.reg 1) 15) (.load (.off (.reg 0) 15))

/-- `glm_mat4_transpose`: include/cglm/mat4.h:547-563. -/
def glm_mat4_transpose : Fn where
  locals := [16]
  nregs := 0
  body := 
    .seq (.call none glm_mat4_transpose_to.locals glm_mat4_transpose_to.nregs glm_mat4_transpose_to.body [.reg 0, .loc 0]) <|
    .call none glm_mat4_ucopy.locals glm_mat4_ucopy.nregs glm_mat4_ucopy.body [.loc 0, .reg 0]

/-- `glm_mat4_scale_p`: include/cglm/mat4.h:573-580. -/
def glm_mat4_scale_p : Fn where
  locals := []
  nregs := 0
  body := 
    .seq (.store (.reg 0) (.f2 .mul (.load (.reg 0)) (.reg 1))) <|
    .seq (.store (.off (.reg 0) 1) (.f2 .mul (.load (.off (.reg 0) 1)) (.reg 1))) <|
    .seq (.store (.off (.reg 0) 2) (.f2 .mul (.load (.off (.reg 0) 2)) (.reg 1))) <|
    .seq (.store (.off (.reg 0) 3) (.f2 .mul (.load (.off (.reg 0) 3)) (.reg 1))) <|
    .seq (.store (.off (.reg 0) 4) (.f2 .mul (.load (.off (.reg 0) 4)) (.reg 1))) <|
    .seq (.store (.off (.reg 0) 5) (.f2 .mul (.load (.off (.reg 0) 5)) (.reg 1))) <|
    .seq (.store (.off (.reg 0) 6) (.f2 .mul (.load (.off (.reg 0) 6)) (.reg 1))) <|
    .seq (.store (.off (.reg 0) 7) (.f2 .mul (.load (.off (.reg 0) 7)) (.reg 1))) <|
    .seq (.store (.off (.reg 0) 8) (.f2 .mul (.load (.off (.reg 0) 8)) (.reg 1))) <|
    .seq (.store (.off (.reg 0) 9) (.f2 .mul (.load (.off (.reg 0) 9)) (.reg 1))) <|
    .seq (.store (.off (.reg 0) 10) (.f2 .mul (.load (.off (.reg 0) 10)) (.reg 1))) <|
    .seq (.store (.off (.reg 0) 11) (.f2 .mul (.load (.off (.reg 0) 11)) (.reg 1))) <|
    .seq (.store (.off (.reg 0) 12) (.f2 .mul (.load (.off (.reg 0) 12)) (.reg 1))) <|
    .seq (.store (.off (.reg 0) 13) (.f2 .mul (.load (.off (.reg 0) 13)) (.reg 1))) <|
    .seq (.store (.off (.reg 0) 14) (.f2 .mul (.load (.off (.reg 0) 14)) (.reg 1))) <|
    .store (.off (.reg 0) 15) (.f2 .mul (.load (.off (.reg 0) 15)) (.reg 1))

/-- `glm_mat4_scale`: include/cglm/mat4.h:590-604. -/
def glm_mat4_scale : Fn where
  locals := []
  nregs := 0
  body := .call none glm_mat4_scale_p.locals glm_mat4_scale_p.nregs glm_mat4_scale_p.body [.reg 0, .reg 1]

/-- `glm_mat4_det`: include/cglm/mat4.h:613-642. -/
def glm_mat4_det : Fn where
  locals := [6]
  nregs := 16
  body := 
    .seq (.set 1 (.load (.reg 0))) <|
    .seq (.set 2 (.load (.off (.reg 0) 1))) <|
    .seq (.set 3 (.load (.off (.reg 0) 2))) <|
    .seq (.set 4 (.load (.off (.reg 0) 3))) <|
    .seq (.set 5 (.load (.off (.reg 0) 4))) <|
    .seq (.set 6 (.load (.off (.reg 0) 5))) <|
    .seq (.set 7 (.load (.off (.reg 0) 6))) <|
    .seq (.set 8 (.load (.off (.reg 0) 7))) <|
    .seq (.set 9 (.load (.off (.reg 0) 8))) <|
    .seq (.set 10 (.load (.off (.reg 0) 9))) <|
    .seq (.set 11 (.load (.off (.reg 0) 10))) <|
    .seq (.set 12 (.load (.off (.reg 0) 11))) <|
    .seq (.set 13 (.load (.off (.reg 0) 12))) <|
    .seq (.set 14 (.load (.off (.reg 0) 13))) <|
    .seq (.set 15 (.load (.off (.reg 0) 14))) <|
    .seq (.set 16 (.load (.off (.reg 0) 15))) <|
    .seq (.store (.loc 0) (.f2 .sub (.f2 .mul (.reg 11) (.reg 16)) (.f2 .mul (.reg 15) (.reg 12)))) <|
    .seq (.store (.off (.loc 0) 1) (.f2 .sub (.f2 .mul (.reg 10) (.reg 16)) (.f2 .mul (.reg 14) (.reg 12)))) <|
    .seq (.store (.off (.loc 0) 2) (.f2 .sub (.f2 .mul (.reg 10) (.reg 15)) (.f2 .mul (.reg 14) (.reg 11)))) <|
    .seq (.store (.off (.loc 0) 3) (.f2 .sub (.f2 .mul (.reg 9) (.reg 16)) (.f2 .mul (.reg 13) (.reg 12)))) <|
    .seq (.store (.off (.loc 0) 4) (.f2 .sub (.f2 .mul (.reg 9) (.reg 15)) (.f2 .mul (.reg 13) (.reg 11)))) <|
    .seq (.store (.off (.loc 0) 5) (.f2 .sub (.f2 .mul (.reg 9) (.reg 14)) (.f2 .mul (.reg 13) (.reg 10)))) <|
    .ret (.f2 .sub (.f2 .add (.f2 .sub (.f2 .mul (.reg 1) (.f2 .add (.f2 .sub (.f2 .mul (.reg 6) (.load (.loc 0))) (.f2 .mul (.reg 7) (.load (.off (.loc 0) 1)))) (.f2 .mul (.reg 8) (.load (.off (.loc 0) 2))))) (.f2 .mul (.reg 2) (.f2 .add (.f2 .sub (.f2 .mul (.reg 5) (.load (.loc 0))) (.f2 .mul (.reg 7) (.load (.off (.loc 0) 3)))) (.f2 .mul (.reg 8) (.load (.off (.loc 0) 4)))))) (.f2 .mul (.reg 3) (.f2 .add (.f2 .sub (.f2 .mul (.reg 5) (.load (.off (.loc 0) 1))) (.f2 .mul (.reg 6) (.load (.off (.loc 0) 3)))) (.f2 .mul (.reg 8) (.load (.off (.loc 0) 5)))))) (.f2 .mul (.reg 4) (.f2 .add (.f2 .sub (.f2 .mul (.reg 5) (.load (.off (.loc 0) 2))) (.f2 .mul (.reg 6) (.load (.off (.loc 0) 4)))) (.f2 .mul (.reg 7) (.load (.off (.loc 0) 5))))))

/-- `glm_mat4_inv`: include/cglm/mat4.h:650-692. -/
def glm_mat4_inv : Fn where
  locals := []
  nregs := 30
  body := 
    .seq (.set 2 (.load (.reg 0))) <|
    .seq (.set 3 (.load (.off (.reg 0) 1))) <|
    .seq (.set 4 (.load (.off (.reg 0) 2))) <|
    .seq (.set 5 (.load (.off (.reg 0) 3))) <|
    .seq (.set 6 (.load (.off (.reg 0) 4))) <|
    .seq (.set 7 (.load (.off (.reg 0) 5))) <|
    .seq (.set 8 (.load (.off (.reg 0) 6))) <|
    .seq (.set 9 (.load (.off (.reg 0) 7))) <|
    .seq (.set 10 (.load (.off (.reg 0) 8))) <|
    .seq (.set 11 (.load (.off (.reg 0) 9))) <|
    .seq (.set 12 (.load (.off (.reg 0) 10))) <|
    .seq (.set 13 (.load (.off (.reg 0) 11))) <|
    .seq (.set 14 (.load (.off (.reg 0) 12))) <|
    .seq (.set 15 (.load (.off (.reg 0) 13))) <|
    .seq (.set 16 (.load (.off (.reg 0) 14))) <|
    .seq (.set 17 (.load (.off (.reg 0) 15))) <|
    .seq (.set 18 (.f2 .sub (.f2 .mul (.reg 12) (.reg 17)) (.f2 .mul (.reg 13) (.reg 16)))) <|
    .seq (.set 19 (.f2 .sub (.f2 .mul (.reg 4) (.reg 9)) (.f2 .mul (.reg 5) (.reg 8)))) <|
    .seq (.set 20 (.f2 .sub (.f2 .mul (.reg 10) (.reg 17)) (.f2 .mul (.reg 13) (.reg 14)))) <|
    .seq (.set 21 (.f2 .sub (.f2 .mul (.reg 2) (.reg 9)) (.f2 .mul (.reg 5) (.reg 6)))) <|
    .seq (.set 22 (.f2 .sub (.f2 .mul (.reg 11) (.reg 17)) (.f2 .mul (.reg 13) (.reg 15)))) <|
    .seq (.set 23 (.f2 .sub (.f2 .mul (.reg 3) (.reg 9)) (.f2 .mul (.reg 5) (.reg 7)))) <|
    .seq (.set 24 (.f2 .sub (.f2 .mul (.reg 10) (.reg 15)) (.f2 .mul (.reg 11) (.reg 14)))) <|
    .seq (.set 25 (.f2 .sub (.f2 .mul (.reg 2) (.reg 7)) (.f2 .mul (.reg 3) (.reg 6)))) <|
    .seq (.set 26 (.f2 .sub (.f2 .mul (.reg 11) (.reg 16)) (.f2 .mul (.reg 12) (.reg 15)))) <|
    .seq (.set 27 (.f2 .sub (.f2 .mul (.reg 3) (.reg 8)) (.f2 .mul (.reg 4) (.reg 7)))) <|
    .seq (.set 28 (.f2 .sub (.f2 .mul (.reg 10) (.reg 16)) (.f2 .mul (.reg 12) (.reg 14)))) <|
    .seq (.set 29 (.f2 .sub (.f2 .mul (.reg 2) (.reg 8)) (.f2 .mul (.reg 4) (.reg 6)))) <|
    .seq (.set 30 (.f2 .div (.flit 1) (.f2 .sub (.f2 .sub (.f2 .add (.f2 .add (.f2 .add (.f2 .mul (.reg 25) (.reg 18)) (.f2 .mul (.reg 21) (.reg 26))) (.f2 .mul (.reg 27) (.reg 20))) (.f2 .mul (.reg 19) (.reg 24))) (.f2 .mul (.reg 29) (.reg 22))) (.f2 .mul (.reg 23) (.reg 28))))) <|
    .seq (.set 31 (.f1 .neg (.reg 30))) <|
    .seq (.store (.reg 1) (.f2 .mul (.f2 .add (.f2 .sub (.f2 .mul (.reg 7) (.reg 18)) (.f2 .mul (.reg 8) (.reg 22))) (.f2 .mul (.reg 9) (.reg 26))) (.reg 30))) <|
    .seq (.store (.off (.reg 1) 1) (.f2 .mul (.f2 .add (.f2 .sub (.f2 .mul (.reg 3) (.reg 18)) (.f2 .mul (.reg 4) (.reg 22))) (.f2 .mul (.reg 5) (.reg 26))) (.reg 31))) <|
    .seq (.store (.off (.reg 1) 2) (.f2 .mul (.f2 .add (.f2 .sub (.f2 .mul (.reg 15) (.reg 19)) (.f2 .mul (.reg 16) (.reg 23))) (.f2 .mul (.reg 17) (.reg 27))) (.reg 30))) <|
    .seq (.store (.off (.reg 1) 3) (.f2 .mul (.f2 .add (.f2 .sub (.f2 .mul (.reg 11) (.reg 19)) (.f2 .mul (.reg 12) (.reg 23))) (.f2 .mul (.reg 13) (.reg 27))) (.reg 31))) <|
    .seq (.store (.off (.reg 1) 4) (.f2 .mul (.f2 .add (.f2 .sub (.f2 .mul (.reg 6) (.reg 18)) (.f2 .mul (.reg 8) (.reg 20))) (.f2 .mul (.reg 9) (.reg 28))) (.reg 31))) <|
    .seq (.store (.off (.reg 1) 5) (.f2 .mul (.f2 .add (.f2 .sub (.f2 .mul (.reg 2) (.reg 18)) (.f2 .mul (.reg 4) (.reg 20))) (.f2 .mul (.reg 5) (.reg 28))) (.reg 30))) <|
    .seq (.store (.off (.reg 1) 6) (.f2 .mul (.f2 .add (.f2 .sub (.f2 .mul (.reg 14) (.reg 19)) (.f2 .mul (.reg 16) (.reg 21))) (.f2 .mul (.reg 17) (.reg 29))) (.reg 31))) <|
    .seq (.store (.off (.reg 1) 7) (.f2 .mul (.f2 .add (.f2 .sub (.f2 .mul (.reg 10) (.reg 19)) (.f2 .mul (.reg 12) (.reg 21))) (.f2 .mul (.reg 13) (.reg 29))) (.reg 30))) <|
    .seq (.store (.off (.reg 1) 8) (.f2 .mul (.f2 .add (.f2 .sub (.f2 .mul (.reg 6) (.reg 22)) (.f2 .mul (.reg 7) (.reg 20))) (.f2 .mul (.reg 9) (.reg 24))) (.reg 30))) <|
    .seq (.store (.off (.reg 1) 9) (.f2 .mul (.f2 .add (.f2 .sub (.f2 .mul (.reg 2) (.reg 22)) (.f2 .mul (.reg 3) (.reg 20))) (.f2 .mul (.reg 5) (.reg 24))) (.reg 31))) <|
    .seq (.store (.off (.reg 1) 10) (.f2 .mul (.f2 .add (.f2 .sub (.f2 .mul (.reg 14) (.reg 23)) (.f2 .mul (.reg 15) (.reg 21))) (.f2 .mul (.reg 17) (.reg 25))) (.reg 30))) <|
    .seq (.store (.off (.reg 1) 11) (.f2 .mul (.f2 .add (.f2 .sub (.f2 .mul (.reg 10) (.reg 23)) (.f2 .mul (.reg 11) (.reg 21))) (.f2 .mul (.reg 13) (.reg 25))) (.reg 31))) <|
    .seq (.store (.off (.reg 1) 12) (.f2 .mul (.f2 .add (.f2 .sub (.f2 .mul (.reg 6) (.reg 26)) (.f2 .mul (.reg 7) (.reg 28))) (.f2 .mul (.reg 8) (.reg 24))) (.reg 31))) <|
    .seq (.store (.off (.reg 1) 13) (.f2 .mul (.f2 .add (.f2 .sub (.f2 .mul (.reg 2) (.reg 26)) (.f2 .mul (.reg 3) (.reg 28))) (.f2 .mul (.reg 4) (.reg 24))) (.reg 30))) <|
    .seq (.store (.off (.reg 1) 14) (.f2 .mul (.f2 .add (.f2 .sub (.f2 .mul (.reg 14) (.reg 27)) (.f2 .mul (.reg 15) (.reg 29))) (.f2 .mul (.reg 16) (.reg 25))) (.reg 31))) <|
    .store (.off (.reg 1) 15) (.f2 .mul (.f2 .add (.f2 .sub (.f2 .mul (.reg 10) (.reg 27)) (.f2 .mul (.reg 11) (.reg 29))) (.f2 .mul (.reg 12) (.reg 25))) (.reg 30))

/-- `glm_mat4_inv_fast`: include/cglm/mat4.h:706-716. -/
def glm_mat4_inv_fast : Fn where
  locals := []
  nregs := 0
  body := .call none glm_mat4_inv.locals glm_mat4_inv.nregs glm_mat4_inv.body [.reg 0, .reg 1]

/-- `glm_mat4_rmc`: include/cglm/mat4.h:775-781. -/
def glm_mat4_rmc : Fn where
  locals := [4]
  nregs := 1
  body := 
    .seq (.call none glm_mat4_mulv.locals glm_mat4_mulv.nregs glm_mat4_mulv.body [.reg 1, .reg 2, .loc 0]) <|
    .seq (.call (some 3) glm_vec4_dot.locals glm_vec4_dot.nregs glm_vec4_dot.body [.reg 0, .loc 0]) <|
    .ret (.reg 3)

/-- `glm_mat4_make`: include/cglm/mat4.h:789-801. -/
def glm_mat4_make : Fn where
  locals := []
  nregs := 0
  body := 
    .seq (.store (.reg 1) (.load (.reg 0))) <|
    .seq (.store (.off (.reg 1) 4) (.load (.off (.reg 0) 4))) <|
    .seq (.store (.off (.reg 1) 1) (.load (.off (.reg 0) 1))) <|
    .seq (.store (.off (.reg 1) 5) (.load (.off (.reg 0) 5))) <|
    .seq (.store (.off (.reg 1) 2) (.load (.off (.reg 0) 2))) <|
    .seq (.store (.off (.reg 1) 6) (.load (.off (.reg 0) 6))) <|
    .seq (.store (.off (.reg 1) 3) (.load (.off (.reg 0) 3))) <|
    .seq (.store (.off (.reg 1) 7) (.load (.off (.reg 0) 7))) <|
    .seq (.store (.off (.reg 1) 8) (.load (.off (.reg 0) 8))) <|
    .seq (.store (.off (.reg 1) 12) (.load (.off (.reg 0) 12))) <|
    .seq (.store (.off (.reg 1) 9) (.load (.off (.reg 0) 9))) <|
    .seq (.store (.off (.reg 1) 13) (.load (.off (.reg 0) 13))) <|
    .seq (.store (.off (.reg 1) 10) (.load (.off (.reg 0) 10))) <|
    .seq (.store (.off (.reg 1) 14) (.load (.off (.reg 0) 14))) <|
    .seq (.store (.off (.reg 1) 11) (.load (.off (.reg 0) 11))) <|
    .store (.off (.reg 1) 15) (.load (.off (.reg 0) 15))

/-- `glm_mat4_textrans`: include/cglm/mat4.h:813-829. -/
def glm_mat4_textrans : Fn where
  locals := []
  nregs := 2
  body := 
    .seq (.set 6 (.f1 .cosf (.reg 2))) <|
    .seq (.set 7 (.f1 .sinf (.reg 2))) <|
    .seq (.call none glm_mat4_identity.locals glm_mat4_identity.nregs glm_mat4_identity.body [.reg 5]) <|
    .seq (.store (.reg 5) (.f2 .mul (.reg 6) (.reg 0))) <|
    .seq (.store (.off (.reg 5) 1) (.f2 .mul (.f1 .neg (.reg 7)) (.reg 1))) <|
    .seq (.store (.off (.reg 5) 4) (.f2 .mul (.reg 7) (.reg 0))) <|
    .seq (.store (.off (.reg 5) 5) (.f2 .mul (.reg 6) (.reg 1))) <|
    .seq (.store (.off (.reg 5) 12) (.reg 3)) <|
    .store (.off (.reg 5) 13) (.reg 4)

end Cglm.C

end Mat4

section Mat4x2

/- Generated from include/cglm/mat4x2.h by tools/memgen.py (memory semantics); do not edit by hand. -/

set_option maxRecDepth 10000

namespace Cglm.C
open CMem

/-- `glm_mat4x2_copy`: include/cglm/mat4x2.h:39-46. -/
def glm_mat4x2_copy : Fn where
  locals := []
  nregs := 0
  body := 
    .seq (.call none glm_vec2_copy.locals glm_vec2_copy.nregs glm_vec2_copy.body [.reg 0, .reg 1]) <|
    .seq (.call none glm_vec2_copy.locals glm_vec2_copy.nregs glm_vec2_copy.body [.off (.reg 0) 2, .off (.reg 1) 2]) <|
    .seq (.call none glm_vec2_copy.locals glm_vec2_copy.nregs glm_vec2_copy.body [.off (.reg 0) 4, .off (.reg 1) 4]) <|
    .call none glm_vec2_copy.locals glm_vec2_copy.nregs glm_vec2_copy.body [.off (.reg 0) 6, .off (.reg 1) 6]

/-- `glm_mat4x2_zero`: include/cglm/mat4x2.h:53-58. -/
def glm_mat4x2_zero : Fn where
  locals := [8]
  nregs := 0
  body := 
    .seq (.store (.loc 0) (.flit 0)) <|
    .seq (.store (.off (.loc 0) 1) (.flit 0)) <|
    .seq (.store (.off (.loc 0) 2) (.flit 0)) <|
    .seq (.store (.off (.loc 0) 3) (.flit 0)) <|
    .seq (.store (.off (.loc 0) 4) (.flit 0)) <|
    .seq (.store (.off (.loc 0) 5) (.flit 0)) <|
    .seq (.store (.off (.loc 0) 6) (.flit 0)) <|
    .seq (.store (.off (.loc 0) 7) (.flit 0)) <|
    .call none glm_mat4x2_copy.locals glm_mat4x2_copy.nregs glm_mat4x2_copy.body [.loc 0, .reg 0]

/-- `glm_mat4x2_make`: include/cglm/mat4x2.h:66-80. -/
def glm_mat4x2_make : Fn where
  locals := []
  nregs := 0
  body := 
    .seq (.store (.reg 1) (.load (.reg 0))) <|
    .seq (.store (.off (.reg 1) 1) (.load (.off (.reg 0) 1))) <|
    .seq (.store (.off (.reg 1) 2) (.load (.off (.reg 0) 2))) <|
    .seq (.store (.off (.reg 1) 3) (.load (.off (.reg 0) 3))) <|
    .seq (.store (.off (.reg 1) 4) (.load (.off (.reg 0) 4))) <|
    .seq (.store (.off (.reg 1) 5) (.load (.off (.reg 0) 5))) <|
    .seq (.store (.off (.reg 1) 6) (.load (.off (.reg 0) 6))) <|
    .store (.off (.reg 1) 7) (.load (.off (.reg 0) 7))

/-- `glm_mat4x2_mul`: include/cglm/mat4x2.h:93-109. -/
def glm_mat4x2_mul : Fn where
  locals := []
  nregs := 16
  body := 
    .seq (.set 3 (.load (.reg 0))) <|
    .seq (.set 4 (.load (.off (.reg 0) 1))) <|
    .seq (.set 5 (.load (.off (.reg 0) 2))) <|
    .seq (.set 6 (.load (.off (.reg 0) 3))) <|
    .seq (.set 7 (.load (.off (.reg 0) 4))) <|
    .seq (.set 8 (.load (.off (.reg 0) 5))) <|
    .seq (.set 9 (.load (.off (.reg 0) 6))) <|
    .seq (.set 10 (.load (.off (.reg 0) 7))) <|
    .seq (.set 11 (.load (.reg 1))) <|
    .seq (.set 12 (.load (.off (.reg 1) 1))) <|
    .seq (.set 13 (.load (.off (.reg 1) 2))) <|
    .seq (.set 14 (.load (.off (.reg 1) 3))) <|
    .seq (.set 15 (.load (.off (.reg 1) 4))) <|
    .seq (.set 16 (.load (.off (.reg 1) 5))) <|
    .seq (.set 17 (.load (.off (.reg 1) 6))) <|
    .seq (.set 18 (.load (.off (.reg 1) 7))) <|
    .seq (.store (.reg 2) (.f2 .add (.f2 .add (.f2 .add (.f2 .mul (.reg 3) (.reg 11)) (.f2 .mul (.reg 5) (.reg 12))) (.f2 .mul (.reg 7) (.reg 13))) (.f2 .mul (.reg 9) (.reg 14)))) <|
    .seq (.store (.off (.reg 2) 1) (.f2 .add (.f2 .add (.f2 .add (.f2 .mul (.reg 4) (.reg 11)) (.f2 .mul (.reg 6) (.reg 12))) (.f2 .mul (.reg 8) (.reg 13))) (.f2 .mul (.reg 10) (.reg 14)))) <|
    .seq (.store (.off (.reg 2) 2) (.f2 .add (.f2 .add (.f2 .add (.f2 .mul (.reg 3) (.reg 15)) (.f2 .mul (.reg 5) (.reg 16))) (.f2 .mul (.reg 7) (.reg 17))) (.f2 .mul (.reg 9) (.reg 18)))) <|
    .store (.off (.reg 2) 3) (.f2 .add (.f2 .add (.f2 .add (.f2 .mul (.reg 4) (.reg 15)) (.f2 .mul (.reg 6) (.reg 16))) (.f2 .mul (.reg 8) (.reg 17))) (.f2 .mul (.reg 10) (.reg 18)))

/-- `glm_mat4x2_mulv`: include/cglm/mat4x2.h:118-125. -/
def glm_mat4x2_mulv : Fn where
  locals := []
  nregs := 4
  body := 
    .seq (.set 3 (.load (.reg 1))) <|
    .seq (.set 4 (.load (.off (.reg 1) 1))) <|
    .seq (.set 5 (.load (.off (.reg 1) 2))) <|
    .seq (.set 6 (.load (.off (.reg 1) 3))) <|
    .seq (.store (.reg 2) (.f2 .add (.f2 .add (.f2 .add (.f2 .mul (.load (.reg 0)) (.reg 3)) (.f2 .mul (.load (.off (.reg 0) 2)) (.reg 4))) (.f2 .mul (.load (.off (.reg 0) 4)) (.reg 5))) (.f2 .mul (.load (.off (.reg 0) 6)) (.reg 6)))) <|
    .store (.off (.reg 2) 1) (.f2 .add (.f2 .add (.f2 .add (.f2 .mul (.load (.off (.reg 0) 1)) (.reg 3)) (.f2 .mul (.load (.off (.reg 0) 3)) (.reg 4))) (.f2 .mul (.load (.off (.reg 0) 5)) (.reg 5))) (.f2 .mul (.load (.off (.reg 0) 7)) (.reg 6)))

/-- `glm_mat4x2_transpose`: include/cglm/mat4x2.h:133-138. -/
def glm_mat4x2_transpose : Fn where
  locals := []
  nregs := 0
  body := 
    .seq (.store (.reg 1) (.load (.reg 0))) <|
    .seq (.store (.off (.reg 1) 1) (.load (.off (.reg 0) 2))) <|
    .seq (.store (.off (.reg 1) 2) (.load (.off (.reg 0) 4))) <|
    .seq (.store (.off (.reg 1) 3) (.load (.off (.reg 0) 6))) <|
    .seq (.store (.off (.reg 1) 4) (.load (.off (.reg 0) 1))) <|
    .seq (.store (.off (.reg 1) 5) (.load (.off (.reg 0) 3))) <|
    .seq (.store (.off (.reg 1) 6) (.load (.off (.reg 0) 5))) <|
    .store (.off (.reg 1) 7) (.load (.off (.reg 0) 7))

/-- `glm_mat4x2_scale`: include/cglm/mat4x2.h:146-151. -/
def glm_mat4x2_scale : Fn where
  locals := []
  nregs := 0
  body := 
    .seq (.store (.reg 0) (.f2 .mul (.load (.reg 0)) (.reg 1))) <|
    .seq (.store (.off (.reg 0) 1) (.f2 .mul (.load (.off (.reg 0) 1)) (.reg 1))) <|
    .seq (.store (.off (.reg 0) 2) (.f2 .mul (.load (.off (.reg 0) 2)) (.reg 1))) <|
    .seq (.store (.off (.reg 0) 3) (.f2 .mul (.load (.off (.reg 0) 3)) (.reg 1))) <|
    .seq (.store (.off (.reg 0) 4) (.f2 .mul (.load (.off (.reg 0) 4)) (.reg 1))) <|
    .seq (.store (.off (.reg 0) 5) (.f2 .mul (.load (.off (.reg 0) 5)) (.reg 1))) <|
    .seq (.store (.off (.reg 0) 6) (.f2 .mul (.load (.off (.reg 0) 6)) (.reg 1))) <|
    .store (.off (.reg 0) 7) (.f2 .mul (.load (.off (.reg 0) 7)) (.reg 1))

end Cglm.C

end Mat4x2

section Mat4x3

/- Generated from include/cglm/mat4x3.h by tools/memgen.py (memory semantics); do not edit by hand. -/

set_option maxRecDepth 10000

namespace Cglm.C
open CMem

/-- `glm_mat4x3_copy`: include/cglm/mat4x3.h:40-47. -/
def glm_mat4x3_copy : Fn where
  locals := []
  nregs := 0
  body := 
    .seq (.call none glm_vec3_copy.locals glm_vec3_copy.nregs glm_vec3_copy.body [.reg 0, .reg 1]) <|
    .seq (.call none glm_vec3_copy.locals glm_vec3_copy.nregs glm_vec3_copy.body [.off (.reg 0) 3, .off (.reg 1) 3]) <|
    .seq (.call none glm_vec3_copy.locals glm_vec3_copy.nregs glm_vec3_copy.body [.off (.reg 0) 6, .off (.reg 1) 6]) <|
    .call none glm_vec3_copy.locals glm_vec3_copy.nregs glm_vec3_copy.body [.off (.reg 0) 9, .off (.reg 1) 9]

/-- `glm_mat4x3_zero`: include/cglm/mat4x3.h:54-59. -/
def glm_mat4x3_zero : Fn where
  locals := [12]
  nregs := 0
  body := 
    .seq (.store (.loc 0) (.flit 0)) <|
    .seq (.store (.off (.loc 0) 1) (.flit 0)) <|
    .seq (.store (.off (.loc 0) 2) (.flit 0)) <|
    .seq (.store (.off (.loc 0) 3) (.flit 0)) <|
    .seq (.store (.off (.loc 0) 4) (.flit 0)) <|
    .seq (.store (.off (.loc 0) 5) (.flit 0)) <|
    .seq (.store (.off (.loc 0) 6) (.flit 0)) <|
    .seq (.store (.off (.loc 0) 7) (.flit 0)) <|
    .seq (.store (.off (.loc 0) 8) (.flit 0)) <|
    .seq (.store (.off (.loc 0) 9) (.flit 0)) <|
    .seq (.store (.off (.loc 0) 10) (.flit 0)) <|
    .seq (.store (.off (.loc 0) 11) (.flit 0)) <|
    .call none glm_mat4x3_copy.locals glm_mat4x3_copy.nregs glm_mat4x3_copy.body [.loc 0, .reg 0]

/-- `glm_mat4x3_make`: include/cglm/mat4x3.h:67-85. -/
def glm_mat4x3_make : Fn where
  locals := []
  nregs := 0
  body := 
    .seq (.store (.reg 1) (.load (.reg 0))) <|
    .seq (.store (.off (.reg 1) 1) (.load (.off (.reg 0) 1))) <|
    .seq (.store (.off (.reg 1) 2) (.load (.off (.reg 0) 2))) <|
    .seq (.store (.off (.reg 1) 3) (.load (.off (.reg 0) 3))) <|
    .seq (.store (.off (.reg 1) 4) (.load (.off (.reg 0) 4))) <|
    .seq (.store (.off (.reg 1) 5) (.load (.off (.reg 0) 5))) <|
    .seq (.store (.off (.reg 1) 6) (.load (.off (.reg 0) 6))) <|
    .seq (.store (.off (.reg 1) 7) (.load (.off (.reg 0) 7))) <|
    .seq (.store (.off (.reg 1) 8) (.load (.off (.reg 0) 8))) <|
    .seq (.store (.off (.reg 1) 9) (.load (.off (.reg 0) 9))) <|
    .seq (.store (.off (.reg 1) 10) (.load (.off (.reg 0) 10))) <|
    .store (.off (.reg 1) 11) (.load (.off (.reg 0) 11))

/-- `glm_mat4x3_mul`: include/cglm/mat4x3.h:98-121. -/
def glm_mat4x3_mul : Fn where
  locals := []
  nregs := 24
  body := 
    .seq (.set 3 (.load (.reg 0))) <|
    .seq (.set 4 (.load (.off (.reg 0) 1))) <|
    .seq (.set 5 (.load (.off (.reg 0) 2))) <|
    .seq (.set 6 (.load (.off (.reg 0) 3))) <|
    .seq (.set 7 (.load (.off (.reg 0) 4))) <|
    .seq (.set 8 (.load (.off (.reg 0) 5))) <|
    .seq (.set 9 (.load (.off (.reg 0) 6))) <|
    .seq (.set 10 (.load (.off (.reg 0) 7))) <|
    .seq (.set 11 (.load (.off (.reg 0) 8))) <|
    .seq (.set 12 (.load (.off (.reg 0) 9))) <|
    .seq (.set 13 (.load (.off (.reg 0) 10))) <|
    .seq (.set 14 (.load (.off (.reg 0) 11))) <|
    .seq (.set 15 (.load (.reg 1))) <|
    .seq (.set 16 (.load (.off (.reg 1) 1))) <|
    .seq (.set 17 (.load (.off (.reg 1) 2))) <|
    .seq (.set 18 (.load (.off (.reg 1) 3))) <|
    .seq (.set 19 (.load (.off (.reg 1) 4))) <|
    .seq (.set 20 (.load (.off (.reg 1) 5))) <|
    .seq (.set 21 (.load (.off (.reg 1) 6))) <|
    .seq (.set 22 (.load (.off (.reg 1) 7))) <|
    .seq (.set 23 (.load (.off (.reg 1) 8))) <|
    .seq (.set 24 (.load (.off (.reg 1) 9))) <|
    .seq (.set 25 (.load (.off (.reg 1) 10))) <|
    .seq (.set 26 (.load (.off (.reg 1) 11))) <|
    .seq (.store (.reg 2) (.f2 .add (.f2 .add (.f2 .add (.f2 .mul (.reg 3) (.reg 15)) (.f2 .mul (.reg 6) (.reg 16))) (.f2 .mul (.reg 9) (.reg 17))) (.f2 .mul (.reg 12) (.reg 18)))) <|
    .seq (.store (.off (.reg 2) 1) (.f2 .add (.f2 .add (.f2 .add (.f2 .mul (.reg 4) (.reg 15)) (.f2 .mul (.reg 7) (.reg 16))) (.f2 .mul (.reg 10) (.reg 17))) (.f2 .mul (.reg 13) (.reg 18)))) <|
    .seq (.store (.off (.reg 2) 2) (.f2 .add (.f2 .add (.f2 .add (.f2 .mul (.reg 5) (.reg 15)) (.f2 .mul (.reg 8) (.reg 16))) (.f2 .mul (.reg 11) (.reg 17))) (.f2 .mul (.reg 14) (.reg 18)))) <|
    .seq (.store (.off (.reg 2) 3) (.f2 .add (.f2 .add (.f2 .add (.f2 .mul (.reg 3) (.reg 19)) (.f2 .mul (.reg 6) (.reg 20))) (.f2 .mul (.reg 9) (.reg 21))) (.f2 .mul (.reg 12) (.reg 22)))) <|
    .seq (.store (.off (.reg 2) 4) (.f2 .add (.f2 .add (.f2 .add (.f2 .mul (.reg 4) (.reg 19)) (.f2 .mul (.reg 7) (.reg 20))) (.f2 .mul (.reg 10) (.reg 21))) (.f2 .mul (.reg 13) (.reg 22)))) <|
    .seq (.store (.off (.reg 2) 5) (.f2 .add (.f2 .add (.f2 .add (.f2 .mul (.reg 5) (.reg 19)) (.f2 .mul (.reg 8) (.reg 20))) (.f2 .mul (.reg 11) (.reg 21))) (.f2 .mul (.reg 14) (.reg 22)))) <|
    .seq (.store (.off (.reg 2) 6) (.f2 .add (.f2 .add (.f2 .add (.f2 .mul (.reg 3) (.reg 23)) (.f2 .mul (.reg 6) (.reg 24))) (.f2 .mul (.reg 9) (.reg 25))) (.f2 .mul (.reg 12) (.reg 26)))) <|
    .seq (.store (.off (.reg 2) 7) (.f2 .add (.f2 .add (.f2 .add (.f2 .mul (.reg 4) (.reg 23)) (.f2 .mul (.reg 7) (.reg 24))) (.f2 .mul (.reg 10) (.reg 25))) (.f2 .mul (.reg 13) (.reg 26)))) <|
    .store (.off (.reg 2) 8) (.f2 .add (.f2 .add (.f2 .add (.f2 .mul (.reg 5) (.reg 23)) (.f2 .mul (.reg 8) (.reg 24))) (.f2 .mul (.reg 11) (.reg 25))) (.f2 .mul (.reg 14) (.reg 26)))

/-- `glm_mat4x3_mulv`: include/cglm/mat4x3.h:130-138. -/
def glm_mat4x3_mulv : Fn where
  locals := []
  nregs := 4
  body := 
    .seq (.set 3 (.load (.reg 1))) <|
    .seq (.set 4 (.load (.off (.reg 1) 1))) <|
    .seq (.set 5 (.load (.off (.reg 1) 2))) <|
    .seq (.set 6 (.load (.off (.reg 1) 3))) <|
    .seq (.store (.reg 2) (.f2 .add (.f2 .add (.f2 .add (.f2 .mul (.load (.reg 0)) (.reg 3)) (.f2 .mul (.load (.off (.reg 0) 3)) (.reg 4))) (.f2 .mul (.load (.off (.reg 0) 6)) (.reg 5))) (.f2 .mul (.load (.off (.reg 0) 9)) (.reg 6)))) <|
    .seq (.store (.off (.reg 2) 1) (.f2 .add (.f2 .add (.f2 .add (.f2 .mul (.load (.off (.reg 0) 1)) (.reg 3)) (.f2 .mul (.load (.off (.reg 0) 4)) (.reg 4))) (.f2 .mul (.load (.off (.reg 0) 7)) (.reg 5))) (.f2 .mul (.load (.off (.reg 0) 10)) (.reg 6)))) <|
    .store (.off (.reg 2) 2) (.f2 .add (.f2 .add (.f2 .add (.f2 .mul (.load (.off (.reg 0) 2)) (.reg 3)) (.f2 .mul (.load (.off (.reg 0) 5)) (.reg 4))) (.f2 .mul (.load (.off (.reg 0) 8)) (.reg 5))) (.f2 .mul (.load (.off (.reg 0) 11)) (.reg 6)))

/-- `glm_mat4x3_transpose`: include/cglm/mat4x3.h:146-152. -/
def glm_mat4x3_transpose : Fn where
  locals := []
  nregs := 0
  body := 
    .seq (.store (.reg 1) (.load (.reg 0))) <|
    .seq (.store (.off (.reg 1) 1) (.load (.off (.reg 0) 3))) <|
    .seq (.store (.off (.reg 1) 2) (.load (.off (.reg 0) 6))) <|
    .seq (.store (.off (.reg 1) 3) (.load (.off (.reg 0) 9))) <|
    .seq (.store (.off (.reg 1) 4) (.load (.off (.reg 0) 1))) <|
    .seq (.store (.off (.reg 1) 5) (.load (.off (.reg 0) 4))) <|
    .seq (.store (.off (.reg 1) 6) (.load (.off (.reg 0) 7))) <|
    .seq (.store (.off (.reg 1) 7) (.load (.off (.reg 0) 10))) <|
    .seq (.store (.off (.reg 1) 8) (.load (.off (.reg 0) 2))) <|
    .seq (.store (.off (.reg 1) 9) (.load (.off (.reg 0) 5))) <|
    .seq (.store (.off (.reg 1) 10) (.load (.off (.reg 0) 8))) <|
    .store (.off (.reg 1) 11) (.load (.off (.reg 0) 11))

/-- `glm_mat4x3_scale`: include/cglm/mat4x3.h:160-166. -/
def glm_mat4x3_scale : Fn where
  locals := []
  nregs := 0
  body := 
    .seq (.store (.reg 0) (.f2 .mul (.load (.reg 0)) (.reg 1))) <|
    .seq (.store (.off (.reg 0) 1) (.f2 .mul (.load (.off (.reg 0) 1)) (.reg 1))) <|
    .seq (.store (.off (.reg 0) 2) (.f2 .mul (.load (.off (.reg 0) 2)) (.reg 1))) <|
    .seq (.store (.off (.reg 0) 3) (.f2 .mul (.load (.off (.reg 0) 3)) (.reg 1))) <|
    .seq (.store (.off (.reg 0) 4) (.f2 .mul (.load (.off (.reg 0) 4)) (.reg 1))) <|
    .seq (.store (.off (.reg 0) 5) (.f2 .mul (.load (.off (.reg 0) 5)) (.reg 1))) <|
    .seq (.store (.off (.reg 0) 6) (.f2 .mul (.load (.off (.reg 0) 6)) (.reg 1))) <|
    .seq (.store (.off (.reg 0) 7) (.f2 .mul (.load (.off (.reg 0) 7)) (.reg 1))) <|
    .seq (.store (.off (.reg 0) 8) (.f2 .mul (.load (.off (.reg 0) 8)) (.reg 1))) <|
    .seq (.store (.off (.reg 0) 9) (.f2 .mul (.load (.off (.reg 0) 9)) (.reg 1))) <|
    .seq (.store (.off (.reg 0) 10) (.f2 .mul (.load (.off (.reg 0) 10)) (.reg 1))) <|
    .store (.off (.reg 0) 11) (.f2 .mul (.load (.off (.reg 0) 11)) (.reg 1))

end Cglm.C

end Mat4x3
