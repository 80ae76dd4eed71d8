/- Generated by tools/memgen.py, joined by tools/merge.py; do not edit by hand. -/
import Verif.CMem
import Verif.Mem.Mats
import Verif.Mem.Vecs

section Affine

/- Generated from include/cglm/affine.h by tools/memgen.py (memory semantics); do not edit by hand. -/

set_option maxRecDepth 10000

namespace Cglm.C
open CMem

/-- `glm_translate_make`: include/cglm/affine.h:50-55. -/
def glm_translate_make : Fn where
  locals := []
  nregs := 0
  body := 
    .seq (.call none glm_mat4_identity.locals glm_mat4_identity.nregs glm_mat4_identity.body [.reg 0]) <|
    .call none glm_vec3_copy.locals glm_vec3_copy.nregs glm_vec3_copy.body [.reg 1, .off (.reg 0) 12]

/-- `glm_scale_to`: include/cglm/affine.h:65-73. -/
def glm_scale_to : Fn where
  locals := []
  nregs := 0
  body := 
    .seq (.call none glm_vec4_scale.locals glm_vec4_scale.nregs glm_vec4_scale.body [.reg 0, .load (.reg 1), .reg 2]) <|
    .seq (.call none glm_vec4_scale.locals glm_vec4_scale.nregs glm_vec4_scale.body [.off (.reg 0) 4, .load (.off (.reg 1) 1), .off (.reg 2) 4]) <|
    .seq (.call none glm_vec4_scale.locals glm_vec4_scale.nregs glm_vec4_scale.body [.off (.reg 0) 8, .load (.off (.reg 1) 2), .off (.reg 2) 8]) <|
    .call none glm_vec4_copy.locals glm_vec4_copy.nregs glm_vec4_copy.body [.off (.reg 0) 12, .off (.reg 2) 12]

/-- `glm_scale_make`: include/cglm/affine.h:81-88. -/
def glm_scale_make : Fn where
  locals := []
  nregs := 0
  body := 
    .seq (.call none glm_mat4_identity.locals glm_mat4_identity.nregs glm_mat4_identity.body [.reg 0]) <|
    .seq (.store (.reg 0) (.load (.reg 1))) <|
    .seq (.store (.off (.reg 0) 5) (.load (.off (.reg 1) 1))) <|
    .store (.off (.reg 0) 10) (.load (.off (.reg 1) 2))

/-- `glm_scale`: include/cglm/affine.h:97-101. -/
def glm_scale : Fn where
  locals := []
  nregs := 0
  body := .call none glm_scale_to.locals glm_scale_to.nregs glm_scale_to.body [.reg 0, .reg 1, .reg 0]

/-- `glm_scale_uni`: include/cglm/affine.h:110-115. -/
def glm_scale_uni : Fn where
  locals := [3]
  nregs := 0
  body := 
    .seq (.store (.loc 0) (.reg 1)) <|
    .seq (.store (.off (.loc 0) 1) (.reg 1)) <|
    .seq (.store (.off (.loc 0) 2) (.reg 1)) <|
    .call none glm_scale_to.locals glm_scale_to.nregs glm_scale_to.body [.reg 0, .loc 0, .reg 0]

/-- `glm_rotate_make`: include/cglm/affine.h:126-148. -/
def glm_rotate_make : Fn where
  locals := [3, 3, 3]
  nregs := 1
  body := 
    .seq (.set 3 (.f1 .cosf (.reg 1))) <|
    .seq (.call none glm_vec3_normalize_to.locals glm_vec3_normalize_to.nregs glm_vec3_normalize_to.body [.reg 2, .loc 0]) <|
    .seq (.call none glm_vec3_scale.locals glm_vec3_scale.nregs glm_vec3_scale.body [.loc 0, .f2 .sub (.flit 1) (.reg 3), .loc 1]) <|
    .seq (.call none glm_vec3_scale.locals glm_vec3_scale.nregs glm_vec3_scale.body [.loc 0, .f1 .sinf (.reg 1), .loc 2]) <|
    .seq (.call none glm_vec3_scale.locals glm_vec3_scale.nregs glm_vec3_scale.body [.loc 0, .load (.loc 1), .reg 0]) <|
    .seq (.call none glm_vec3_scale.locals glm_vec3_scale.nregs glm_vec3_scale.body [.loc 0, .load (.off (.loc 1) 1), .off (.reg 0) 4]) <|
    .seq (.call none glm_vec3_scale.locals glm_vec3_scale.nregs glm_vec3_scale.body [.loc 0, .load (.off (.loc 1) 2), .off (.reg 0) 8]) <|
    .seq (.store (.reg 0) (.f2 .add (.load (.reg 0)) (.reg 3))) <|
    .seq (.store (.off (.reg 0) 4) (.f2 .sub (.load (.off (.reg 0) 4)) (.load (.off (.loc 2) 2)))) <|
    .seq (.store (.off (.reg 0) 8) (.f2 .add (.load (.off (.reg 0) 8)) (.load (.off (.loc 2) 1)))) <|
    .seq (.store (.off (.reg 0) 1) (.f2 .add (.load (.off (.reg 0) 1)) (.load (.off (.loc 2) 2)))) <|
    .seq (.store (.off (.reg 0) 5) (.f2 .add (.load (.off (.reg 0) 5)) (.reg 3))) <|
    .seq (.store (.off (.reg 0) 9) (.f2 .sub (.load (.off (.reg 0) 9)) (.load (.loc 2)))) <|
    .seq (.store (.off (.reg 0) 2) (.f2 .sub (.load (.off (.reg 0) 2)) (.load (.off (.loc 2) 1)))) <|
    .seq (.store (.off (.reg 0) 6) (.f2 .add (.load (.off (.reg 0) 6)) (.load (.loc 2)))) <|
    .seq (.store (.off (.reg 0) 10) (.f2 .add (.load (.off (.reg 0) 10)) (.reg 3))) <|
    .seq (.store (.off (.reg 0) 14) (.flit 0)) <|
    .seq (.store (.off (.reg 0) 13) (.load (.off (.reg 0) 14))) <|
    .seq (.store (.off (.reg 0) 12) (.load (.off (.reg 0) 13))) <|
    .seq (.store (.off (.reg 0) 11) (.load (.off (.reg 0) 12))) <|
    .seq (.store (.off (.reg 0) 7) (.load (.off (.reg 0) 11))) <|
    .seq (.store (.off (.reg 0) 3) (.load (.off (.reg 0) 7))) <|
    .store (.off (.reg 0) 15) (.flit 1)

/-- `glm_decompose_scalev`: include/cglm/affine.h:156-162. -/
def glm_decompose_scalev : Fn where
  locals := []
  nregs := 3
  body := 
    .seq (.call (some 2) glm_vec3_norm.locals glm_vec3_norm.nregs glm_vec3_norm.body [.reg 0]) <|
    .seq (.store (.reg 1) (.reg 2)) <|
    .seq (.call (some 3) glm_vec3_norm.locals glm_vec3_norm.nregs glm_vec3_norm.body [.off (.reg 0) 4]) <|
    .seq (.store (.off (.reg 1) 1) (.reg 3)) <|
    .seq (.call (some 4) glm_vec3_norm.locals glm_vec3_norm.nregs glm_vec3_norm.body [.off (.reg 0) 8]) <|
    .store (.off (.reg 1) 2) (.reg 4)

/-- `glm_uniscaled`: include/cglm/affine.h:172-178. -/
def glm_uniscaled : Fn where
  locals := [3]
  nregs := 1
  body := 
    .seq (.call none glm_decompose_scalev.locals glm_decompose_scalev.nregs glm_decompose_scalev.body [.reg 0, .loc 0]) <|
    .seq (.call (some 1) glm_vec3_eq_all.locals glm_vec3_eq_all.nregs glm_vec3_eq_all.body [.loc 0]) <|
    .ret (.reg 1)

/-- `glm_decompose_rs`: include/cglm/affine.h:188-217. -/
def glm_decompose_rs : Fn where
  locals := [4, 3]
  nregs := 4
  body := 
    .seq (.store (.loc 0) (.flit 0)) <|
    .seq (.store (.off (.loc 0) 1) (.flit 0)) <|
    .seq (.store (.off (.loc 0) 2) (.flit 0)) <|
    .seq (.store (.off (.loc 0) 3) (.flit 1)) <|
    .seq (.call none glm_vec4_copy.locals glm_vec4_copy.nregs glm_vec4_copy.body [.reg 0, .reg 1]) <|
    .seq (.call none glm_vec4_copy.locals glm_vec4_copy.nregs glm_vec4_copy.body [.off (.reg 0) 4, .off (.reg 1) 4]) <|
    .seq (.call none glm_vec4_copy.locals glm_vec4_copy.nregs glm_vec4_copy.body [.off (.reg 0) 8, .off (.reg 1) 8]) <|
    .seq (.call none glm_vec4_copy.locals glm_vec4_copy.nregs glm_vec4_copy.body [.loc 0, .off (.reg 1) 12]) <|
    .seq (.call (some 3) glm_vec3_norm.locals glm_vec3_norm.nregs glm_vec3_norm.body [.reg 0]) <|
    .seq (.store (.reg 2) (.reg 3)) <|
    .seq (.call (some 4) glm_vec3_norm.locals glm_vec3_norm.nregs glm_vec3_norm.body [.off (.reg 0) 4]) <|
    .seq (.store (.off (.reg 2) 1) (.reg 4)) <|
    .seq (.call (some 5) glm_vec3_norm.locals glm_vec3_norm.nregs glm_vec3_norm.body [.off (.reg 0) 8]) <|
    .seq (.store (.off (.reg 2) 2) (.reg 5)) <|
    .seq (.call none glm_vec4_scale.locals glm_vec4_scale.nregs glm_vec4_scale.body [.reg 1, .f2 .div (.flit 1) (.load (.reg 2)), .reg 1]) <|
    .seq (.call none glm_vec4_scale.locals glm_vec4_scale.nregs glm_vec4_scale.body [.off (.reg 1) 4, .f2 .div (.flit 1) (.load (.off (.reg 2) 1)), .off (.reg 1) 4]) <|
    .seq (.call none glm_vec4_scale.locals glm_vec4_scale.nregs glm_vec4_scale.body [.off (.reg 1) 8, .f2 .div (.flit 1) (.load (.off (.reg 2) 2)), .off (.reg 1) 8]) <|
    .seq (.call none glm_vec3_cross.locals glm_vec3_cross.nregs glm_vec3_cross.body [.reg 0, .off (.reg 0) 4, .loc 1]) <|
    .seq (.call (some 6) glm_vec3_dot.locals glm_vec3_dot.nregs glm_vec3_dot.body [.loc 1, .off (.reg 0) 8]) <|
    .ite (.fc .lt (.reg 6) (.flit 0)) (.seq (.call none glm_vec4_negate.locals glm_vec4_negate.nregs glm_vec4_negate.body [.reg 1]) (.seq (.call none glm_vec4_negate.locals glm_vec4_negate.nregs glm_vec4_negate.body [.off (.reg 1) 4]) (.seq (.call none glm_vec4_negate.locals glm_vec4_negate.nregs glm_vec4_negate.body [.off (.reg 1) 8]) (.call none glm_vec3_negate.locals glm_vec3_negate.nregs glm_vec3_negate.body [.reg 2])))) (.skip)

/-- `glm_decompose`: include/cglm/affine.h:228-233. -/
def glm_decompose : Fn where
  locals := []
  nregs := 0
  body := 
    .seq (.call none glm_vec4_copy.locals glm_vec4_copy.nregs glm_vec4_copy.body [.off (.reg 0) 12, .reg 1]) <|
    .call none glm_decompose_rs.locals glm_decompose_rs.nregs glm_decompose_rs.body [.reg 0, .reg 2, .reg 3]

end Cglm.C

end Affine

section Affine2d

/- Generated from include/cglm/affine2d.h by tools/memgen.py (memory semantics); do not edit by hand. -/

set_option maxRecDepth 10000

namespace Cglm.C
open CMem

/-- `glm_translate2d`: include/cglm/affine2d.h:39-45. -/
def glm_translate2d : Fn where
  locals := []
  nregs := 0
  body := 
    .seq (.store (.off (.reg 0) 6) (.f2 .add (.f2 .add (.f2 .mul (.load (.reg 0)) (.load (.reg 1))) (.f2 .mul (.load (.off (.reg 0) 3)) (.load (.off (.reg 1) 1)))) (.load (.off (.reg 0) 6)))) <|
    .seq (.store (.off (.reg 0) 7) (.f2 .add (.f2 .add (.f2 .mul (.load (.off (.reg 0) 1)) (.load (.reg 1))) (.f2 .mul (.load (.off (.reg 0) 4)) (.load (.off (.reg 1) 1)))) (.load (.off (.reg 0) 7)))) <|
    .store (.off (.reg 0) 8) (.f2 .add (.f2 .add (.f2 .mul (.load (.off (.reg 0) 2)) (.load (.reg 1))) (.f2 .mul (.load (.off (.reg 0) 5)) (.load (.off (.reg 1) 1)))) (.load (.off (.reg 0) 8)))

/-- `glm_translate2d_to`: include/cglm/affine2d.h:57-62. -/
def glm_translate2d_to : Fn where
  locals := []
  nregs := 0
  body := 
    .seq (.call none glm_mat3_copy.locals glm_mat3_copy.nregs glm_mat3_copy.body [.reg 0, .reg 2]) <|
    .call none glm_translate2d.locals glm_translate2d.nregs glm_translate2d.body [.reg 2, .reg 1]

/-- `glm_translate2d_x`: include/cglm/affine2d.h:70-76. -/
def glm_translate2d_x : Fn where
  locals := []
  nregs := 0
  body := 
    .seq (.store (.off (.reg 0) 6) (.f2 .add (.f2 .mul (.load (.reg 0)) (.reg 1)) (.load (.off (.reg 0) 6)))) <|
    .seq (.store (.off (.reg 0) 7) (.f2 .add (.f2 .mul (.load (.off (.reg 0) 1)) (.reg 1)) (.load (.off (.reg 0) 7)))) <|
    .store (.off (.reg 0) 8) (.f2 .add (.f2 .mul (.load (.off (.reg 0) 2)) (.reg 1)) (.load (.off (.reg 0) 8)))

/-- `glm_translate2d_y`: include/cglm/affine2d.h:84-90. -/
def glm_translate2d_y : Fn where
  locals := []
  nregs := 0
  body := 
    .seq (.store (.off (.reg 0) 6) (.f2 .add (.f2 .mul (.load (.off (.reg 0) 3)) (.reg 1)) (.load (.off (.reg 0) 6)))) <|
    .seq (.store (.off (.reg 0) 7) (.f2 .add (.f2 .mul (.load (.off (.reg 0) 4)) (.reg 1)) (.load (.off (.reg 0) 7)))) <|
    .store (.off (.reg 0) 8) (.f2 .add (.f2 .mul (.load (.off (.reg 0) 5)) (.reg 1)) (.load (.off (.reg 0) 8)))

/-- `glm_translate2d_make`: include/cglm/affine2d.h:98-104. -/
def glm_translate2d_make : Fn where
  locals := []
  nregs := 0
  body := 
    .seq (.call none glm_mat3_identity.locals glm_mat3_identity.nregs glm_mat3_identity.body [.reg 0]) <|
    .seq (.store (.off (.reg 0) 6) (.load (.reg 1))) <|
    .store (.off (.reg 0) 7) (.load (.off (.reg 1) 1))

/-- `glm_scale2d_to`: include/cglm/affine2d.h:114-128. -/
def glm_scale2d_to : Fn where
  locals := []
  nregs := 0
  body := 
    .seq (.store (.reg 2) (.f2 .mul (.load (.reg 0)) (.load (.reg 1)))) <|
    .seq (.store (.off (.reg 2) 1) (.f2 .mul (.load (.off (.reg 0) 1)) (.load (.reg 1)))) <|
    .seq (.store (.off (.reg 2) 2) (.f2 .mul (.load (.off (.reg 0) 2)) (.load (.reg 1)))) <|
    .seq (.store (.off (.reg 2) 3) (.f2 .mul (.load (.off (.reg 0) 3)) (.load (.off (.reg 1) 1)))) <|
    .seq (.store (.off (.reg 2) 4) (.f2 .mul (.load (.off (.reg 0) 4)) (.load (.off (.reg 1) 1)))) <|
    .seq (.store (.off (.reg 2) 5) (.f2 .mul (.load (.off (.reg 0) 5)) (.load (.off (.reg 1) 1)))) <|
    .seq (.store (.off (.reg 2) 6) (.load (.off (.reg 0) 6))) <|
    .seq (.store (.off (.reg 2) 7) (.load (.off (.reg 0) 7))) <|
    .store (.off (.reg 2) 8) (.load (.off (.reg 0) 8))

/-- `glm_scale2d_make`: include/cglm/affine2d.h:136-142. -/
def glm_scale2d_make : Fn where
  locals := []
  nregs := 0
  body := 
    .seq (.call none glm_mat3_identity.locals glm_mat3_identity.nregs glm_mat3_identity.body [.reg 0]) <|
    .seq (.store (.reg 0) (.load (.reg 1))) <|
    .store (.off (.reg 0) 4) (.load (.off (.reg 1) 1))

/-- `glm_scale2d`: include/cglm/affine2d.h:151-161. -/
def glm_scale2d : Fn where
  locals := []
  nregs := 0
  body := 
    .seq (.store (.reg 0) (.f2 .mul (.load (.reg 0)) (.load (.reg 1)))) <|
    .seq (.store (.off (.reg 0) 1) (.f2 .mul (.load (.off (.reg 0) 1)) (.load (.reg 1)))) <|
    .seq (.store (.off (.reg 0) 2) (.f2 .mul (.load (.off (.reg 0) 2)) (.load (.reg 1)))) <|
    .seq (.store (.off (.reg 0) 3) (.f2 .mul (.load (.off (.reg 0) 3)) (.load (.off (.reg 1) 1)))) <|
    .seq (.store (.off (.reg 0) 4) (.f2 .mul (.load (.off (.reg 0) 4)) (.load (.off (.reg 1) 1)))) <|
    .store (.off (.reg 0) 5) (.f2 .mul (.load (.off (.reg 0) 5)) (.load (.off (.reg 1) 1)))

/-- `glm_scale2d_uni`: include/cglm/affine2d.h:170-180. -/
def glm_scale2d_uni : Fn where
  locals := []
  nregs := 0
  body := 
    .seq (.store (.reg 0) (.f2 .mul (.load (.reg 0)) (.reg 1))) <|
    .seq (.store (.off (.reg 0) 1) (.f2 .mul (.load (.off (.reg 0) 1)) (.reg 1))) <|
    .seq (.store (.off (.reg 0) 2) (.f2 .mul (.load (.off (.reg 0) 2)) (.reg 1))) <|
    .seq (.store (.off (.reg 0) 3) (.f2 .mul (.load (.off (.reg 0) 3)) (.reg 1))) <|
    .seq (.store (.off (.reg 0) 4) (.f2 .mul (.load (.off (.reg 0) 4)) (.reg 1))) <|
    .store (.off (.reg 0) 5) (.f2 .mul (.load (.off (.reg 0) 5)) (.reg 1))

/-- `glm_rotate2d_make`: include/cglm/affine2d.h:188-207. -/
def glm_rotate2d_make : Fn where
  locals := []
  nregs := 2
  body := 
    .seq (.set 3 (.f1 .sinf (.reg 1))) <|
    .seq (.set 2 (.f1 .cosf (.reg 1))) <|
    .seq (.store (.reg 0) (.reg 2)) <|
    .seq (.store (.off (.reg 0) 1) (.reg 3)) <|
    .seq (.store (.off (.reg 0) 2) (.flit 0)) <|
    .seq (.store (.off (.reg 0) 3) (.f1 .neg (.reg 3))) <|
    .seq (.store (.off (.reg 0) 4) (.reg 2)) <|
    .seq (.store (.off (.reg 0) 5) (.flit 0)) <|
    .seq (.store (.off (.reg 0) 6) (.flit 0)) <|
    .seq (.store (.off (.reg 0) 7) (.flit 0)) <|
    .store (.off (.reg 0) 8) (.flit 1)

/-- `glm_rotate2d`: include/cglm/affine2d.h:216-234. -/
def glm_rotate2d : Fn where
  locals := []
  nregs := 8
  body := 
    .seq (.set 2 (.load (.reg 0))) <|
    .seq (.set 3 (.load (.off (.reg 0) 3))) <|
    .seq (.set 4 (.load (.off (.reg 0) 1))) <|
    .seq (.set 5 (.load (.off (.reg 0) 4))) <|
    .seq (.set 6 (.load (.off (.reg 0) 2))) <|
    .seq (.set 7 (.load (.off (.reg 0) 5))) <|
    .seq (.set 9 (.f1 .sinf (.reg 1))) <|
    .seq (.set 8 (.f1 .cosf (.reg 1))) <|
    .seq (.store (.reg 0) (.f2 .add (.f2 .mul (.reg 2) (.reg 8)) (.f2 .mul (.reg 3) (.reg 9)))) <|
    .seq (.store (.off (.reg 0) 1) (.f2 .add (.f2 .mul (.reg 4) (.reg 8)) (.f2 .mul (.reg 5) (.reg 9)))) <|
    .seq (.store (.off (.reg 0) 2) (.f2 .add (.f2 .mul (.reg 6) (.reg 8)) (.f2 .mul (.reg 7) (.reg 9)))) <|
    .seq (.store (.off (.reg 0) 3) (.f2 .add (.f2 .mul (.reg 2) (.f1 .neg (.reg 9))) (.f2 .mul (.reg 3) (.reg 8)))) <|
    .seq (.store (.off (.reg 0) 4) (.f2 .add (.f2 .mul (.reg 4) (.f1 .neg (.reg 9))) (.f2 .mul (.reg 5) (.reg 8)))) <|
    .store (.off (.reg 0) 5) (.f2 .add (.f2 .mul (.reg 6) (.f1 .neg (.reg 9))) (.f2 .mul (.reg 7) (.reg 8)))

/-- `glm_rotate2d_to`: include/cglm/affine2d.h:244-266. -/
def glm_rotate2d_to : Fn where
  locals := []
  nregs := 8
  body := 
    .seq (.set 3 (.load (.reg 0))) <|
    .seq (.set 4 (.load (.off (.reg 0) 3))) <|
    .seq (.set 5 (.load (.off (.reg 0) 1))) <|
    .seq (.set 6 (.load (.off (.reg 0) 4))) <|
    .seq (.set 7 (.load (.off (.reg 0) 2))) <|
    .seq (.set 8 (.load (.off (.reg 0) 5))) <|
    .seq (.set 10 (.f1 .sinf (.reg 1))) <|
    .seq (.set 9 (.f1 .cosf (.reg 1))) <|
    .seq (.store (.reg 2) (.f2 .add (.f2 .mul (.reg 3) (.reg 9)) (.f2 .mul (.reg 4) (.reg 10)))) <|
    .seq (.store (.off (.reg 2) 1) (.f2 .add (.f2 .mul (.reg 5) (.reg 9)) (.f2 .mul (.reg 6) (.reg 10)))) <|
    .seq (.store (.off (.reg 2) 2) (.f2 .add (.f2 .mul (.reg 7) (.reg 9)) (.f2 .mul (.reg 8) (.reg 10)))) <|
    .seq (.store (.off (.reg 2) 3) (.f2 .add (.f2 .mul (.reg 3) (.f1 .neg (.reg 10))) (.f2 .mul (.reg 4) (.reg 9)))) <|
    .seq (.store (.off (.reg 2) 4) (.f2 .add (.f2 .mul (.reg 5) (.f1 .neg (.reg 10))) (.f2 .mul (.reg 6) (.reg 9)))) <|
    .seq (.store (.off (.reg 2) 5) (.f2 .add (.f2 .mul (.reg 7) (.f1 .neg (.reg 10))) (.f2 .mul (.reg 8) (.reg 9)))) <|
    .seq (.store (.off (.reg 2) 6) (.load (.off (.reg 0) 6))) <|
    .seq (.store (.off (.reg 2) 7) (.load (.off (.reg 0) 7))) <|
    .store (.off (.reg 2) 8) (.load (.off (.reg 0) 8))

end Cglm.C

end Affine2d

section Affine2dPost

/- Generated from include/cglm/affine2d-post.h by tools/memgen.py (memory semantics); do not edit by hand. -/

set_option maxRecDepth 10000

namespace Cglm.C
open CMem

/-- `glm_translated2d`: include/cglm/affine2d-post.h:32-36. -/
def glm_translated2d : Fn where
  locals := []
  nregs := 0
  body := .call none glm_vec2_add.locals glm_vec2_add.nregs glm_vec2_add.body [.off (.reg 0) 6, .reg 1, .off (.reg 0) 6]

/-- `glm_translated2d_x`: include/cglm/affine2d-post.h:46-50. -/
def glm_translated2d_x : Fn where
  locals := []
  nregs := 0
  body := .store (.off (.reg 0) 6) (.f2 .add (.load (.off (.reg 0) 6)) (.reg 1))

/-- `glm_translated2d_y`: include/cglm/affine2d-post.h:60-64. -/
def glm_translated2d_y : Fn where
  locals := []
  nregs := 0
  body := .store (.off (.reg 0) 7) (.f2 .add (.load (.off (.reg 0) 7)) (.reg 1))

/-- `glm_rotated2d`: include/cglm/affine2d-post.h:74-90. -/
def glm_rotated2d : Fn where
  locals := []
  nregs := 8
  body := 
    .seq (.set 2 (.f1 .cosf (.reg 1))) <|
    .seq (.set 3 (.f1 .sinf (.reg 1))) <|
    .seq (.set 4 (.load (.reg 0))) <|
    .seq (.set 5 (.load (.off (.reg 0) 3))) <|
    .seq (.set 6 (.load (.off (.reg 0) 6))) <|
    .seq (.set 7 (.load (.off (.reg 0) 1))) <|
    .seq (.set 8 (.load (.off (.reg 0) 4))) <|
    .seq (.set 9 (.load (.off (.reg 0) 7))) <|
    .seq (.store (.reg 0) (.f2 .sub (.f2 .mul (.reg 2) (.reg 4)) (.f2 .mul (.reg 3) (.reg 7)))) <|
    .seq (.store (.off (.reg 0) 3) (.f2 .sub (.f2 .mul (.reg 2) (.reg 5)) (.f2 .mul (.reg 3) (.reg 8)))) <|
    .seq (.store (.off (.reg 0) 6) (.f2 .sub (.f2 .mul (.reg 2) (.reg 6)) (.f2 .mul (.reg 3) (.reg 9)))) <|
    .seq (.store (.off (.reg 0) 1) (.f2 .add (.f2 .mul (.reg 3) (.reg 4)) (.f2 .mul (.reg 2) (.reg 7)))) <|
    .seq (.store (.off (.reg 0) 4) (.f2 .add (.f2 .mul (.reg 3) (.reg 5)) (.f2 .mul (.reg 2) (.reg 8)))) <|
    .store (.off (.reg 0) 7) (.f2 .add (.f2 .mul (.reg 3) (.reg 6)) (.f2 .mul (.reg 2) (.reg 9)))

/-- `glm_scaled2d`: include/cglm/affine2d-post.h:100-110. -/
def glm_scaled2d : Fn where
  locals := []
  nregs := 0
  body := 
    .seq (.store (.reg 0) (.f2 .mul (.load (.reg 0)) (.load (.reg 1)))) <|
    .seq (.store (.off (.reg 0) 3) (.f2 .mul (.load (.off (.reg 0) 3)) (.load (.reg 1)))) <|
    .seq (.store (.off (.reg 0) 6) (.f2 .mul (.load (.off (.reg 0) 6)) (.load (.reg 1)))) <|
    .seq (.store (.off (.reg 0) 1) (.f2 .mul (.load (.off (.reg 0) 1)) (.load (.off (.reg 1) 1)))) <|
    .seq (.store (.off (.reg 0) 4) (.f2 .mul (.load (.off (.reg 0) 4)) (.load (.off (.reg 1) 1)))) <|
    .store (.off (.reg 0) 7) (.f2 .mul (.load (.off (.reg 0) 7)) (.load (.off (.reg 1) 1)))

/-- `glm_scaled2d_uni`: include/cglm/affine2d-post.h:120-130. -/
def glm_scaled2d_uni : Fn where
  locals := []
  nregs := 0
  body := 
    .seq (.store (.reg 0) (.f2 .mul (.load (.reg 0)) (.reg 1))) <|
    .seq (.store (.off (.reg 0) 3) (.f2 .mul (.load (.off (.reg 0) 3)) (.reg 1))) <|
    .seq (.store (.off (.reg 0) 6) (.f2 .mul (.load (.off (.reg 0) 6)) (.reg 1))) <|
    .seq (.store (.off (.reg 0) 1) (.f2 .mul (.load (.off (.reg 0) 1)) (.reg 1))) <|
    .seq (.store (.off (.reg 0) 4) (.f2 .mul (.load (.off (.reg 0) 4)) (.reg 1))) <|
    .store (.off (.reg 0) 7) (.f2 .mul (.load (.off (.reg 0) 7)) (.reg 1))

end Cglm.C

end Affine2dPost

section AffineMat

/- Generated from include/cglm/affine-mat.h by tools/memgen.py (memory semantics); do not edit by hand. -/

set_option maxRecDepth 10000

namespace Cglm.C
open CMem

/-- `glm_mul`: include/cglm/affine-mat.h:54-96. -/
def glm_mul : Fn where
  locals := []
  nregs := 29
  body := 
    .seq (.set 3 (.load (.reg 0))) <|
    .seq (.set 4 (.load (.off (.reg 0) 1))) <|
    .seq (.set 5 (.load (.off (.reg 0) 2))) <|
    .seq (.set 6 (.load (.off (.reg 0) 3))) <|
    .seq (.set 7 (.load (.off (.reg 0) 4))) <|
    .seq (.set 8 (.load (.off (.reg 0) 5))) <|
    .seq (.set 9 (.load (.off (.reg 0) 6))) <|
    .seq (.set 10 (.load (.off (.reg 0) 7))) <|
    .seq (.set 11 (.load (.off (.reg 0) 8))) <|
    .seq (.set 12 (.load (.off (.reg 0) 9))) <|
    .seq (.set 13 (.load (.off (.reg 0) 10))) <|
    .seq (.set 14 (.load (.off (.reg 0) 11))) <|
    .seq (.set 15 (.load (.off (.reg 0) 12))) <|
    .seq (.set 16 (.load (.off (.reg 0) 13))) <|
    .seq (.set 17 (.load (.off (.reg 0) 14))) <|
    .seq (.set 18 (.load (.off (.reg 0) 15))) <|
    .seq (.set 19 (.load (.reg 1))) <|
    .seq (.set 20 (.load (.off (.reg 1) 1))) <|
    .seq (.set 21 (.load (.off (.reg 1) 2))) <|
    .seq (.set 22 (.load (.off (.reg 1) 4))) <|
    .seq (.set 23 (.load (.off (.reg 1) 5))) <|
    .seq (.set 24 (.load (.off (.reg 1) 6))) <|
    .seq (.set 25 (.load (.off (.reg 1) 8))) <|
    .seq (.set 26 (.load (.off (.reg 1) 9))) <|
    .seq (.set 27 (.load (.off (.reg 1) 10))) <|
    .seq (.set 28 (.load (.off (.reg 1) 12))) <|
    .seq (.set 29 (.load (.off (.reg 1) 13))) <|
    .seq (.set 30 (.load (.off (.reg 1) 14))) <|
    .seq (.set 31 (.load (.off (.reg 1) 15))) <|
    .seq (.store (.reg 2) (.f2 .add (.f2 .add (.f2 .mul (.reg 3) (.reg 19)) (.f2 .mul (.reg 7) (.reg 20))) (.f2 .mul (.reg 11) (.reg 21)))) <|
    .seq (.store (.off (.reg 2) 1) (.f2 .add (.f2 .add (.f2 .mul (.reg 4) (.reg 19)) (.f2 .mul (.reg 8) (.reg 20))) (.f2 .mul (.reg 12) (.reg 21)))) <|
    .seq (.store (.off (.reg 2) 2) (.f2 .add (.f2 .add (.f2 .mul (.reg 5) (.reg 19)) (.f2 .mul (.reg 9) (.reg 20))) (.f2 .mul (.reg 13) (.reg 21)))) <|
    .seq (.store (.off (.reg 2) 3) (.f2 .add (.f2 .add (.f2 .mul (.reg 6) (.reg 19)) (.f2 .mul (.reg 10) (.reg 20))) (.f2 .mul (.reg 14) (.reg 21)))) <|
    .seq (.store (.off (.reg 2) 4) (.f2 .add (.f2 .add (.f2 .mul (.reg 3) (.reg 22)) (.f2 .mul (.reg 7) (.reg 23))) (.f2 .mul (.reg 11) (.reg 24)))) <|
    .seq (.store (.off (.reg 2) 5) (.f2 .add (.f2 .add (.f2 .mul (.reg 4) (.reg 22)) (.f2 .mul (.reg 8) (.reg 23))) (.f2 .mul (.reg 12) (.reg 24)))) <|
    .seq (.store (.off (.reg 2) 6) (.f2 .add (.f2 .add (.f2 .mul (.reg 5) (.reg 22)) (.f2 .mul (.reg 9) (.reg 23))) (.f2 .mul (.reg 13) (.reg 24)))) <|
    .seq (.store (.off (.reg 2) 7) (.f2 .add (.f2 .add (.f2 .mul (.reg 6) (.reg 22)) (.f2 .mul (.reg 10) (.reg 23))) (.f2 .mul (.reg 14) (.reg 24)))) <|
    .seq (.store (.off (.reg 2) 8) (.f2 .add (.f2 .add (.f2 .mul (.reg 3) (.reg 25)) (.f2 .mul (.reg 7) (.reg 26))) (.f2 .mul (.reg 11) (.reg 27)))) <|
    .seq (.store (.off (.reg 2) 9) (.f2 .add (.f2 .add (.f2 .mul (.reg 4) (.reg 25)) (.f2 .mul (.reg 8) (.reg 26))) (.f2 .mul (.reg 12) (.reg 27)))) <|
    .seq (.store (.off (.reg 2) 10) (.f2 .add (.f2 .add (.f2 .mul (.reg 5) (.reg 25)) (.f2 .mul (.reg 9) (.reg 26))) (.f2 .mul (.reg 13) (.reg 27)))) <|
    .seq (.store (.off (.reg 2) 11) (.f2 .add (.f2 .add (.f2 .mul (.reg 6) (.reg 25)) (.f2 .mul (.reg 10) (.reg 26))) (.f2 .mul (.reg 14) (.reg 27)))) <|
    .seq (.store (.off (.reg 2) 12) (.f2 .add (.f2 .add (.f2 .add (.f2 .mul (.reg 3) (.reg 28)) (.f2 .mul (.reg 7) (.reg 29))) (.f2 .mul (.reg 11) (.reg 30))) (.f2 .mul (.reg 15) (.reg 31)))) <|
    .seq (.store (.off (.reg 2) 13) (.f2 .add (.f2 .add (.f2 .add (.f2 .mul (.reg 4) (.reg 28)) (.f2 .mul (.reg 8) (.reg 29))) (.f2 .mul (.reg 12) (.reg 30))) (.f2 .mul (.reg 16) (.reg 31)))) <|
    .seq (.store (.off (.reg 2) 14) (.f2 .add (.f2 .add (.f2 .add (.f2 .mul (.reg 5) (.reg 28)) (.f2 .mul (.reg 9) (.reg 29))) (.f2 .mul (.reg 13) (.reg 30))) (.f2 .mul (.reg 17) (.reg 31)))) <|
    .store (.off (.reg 2) 15) (.f2 .add (.f2 .add (.f2 .add (.f2 .mul (.reg 6) (.reg 28)) (.f2 .mul (.reg 10) (.reg 29))) (.f2 .mul (.reg 14) (.reg 30))) (.f2 .mul (.reg 18) (.reg 31)))

/-- `glm_mul_rot`: include/cglm/affine-mat.h:114-153. -/
def glm_mul_rot : Fn where
  locals := []
  nregs := 25
  body := 
    .seq (.set 3 (.load (.reg 0))) <|
    .seq (.set 4 (.load (.off (.reg 0) 1))) <|
    .seq (.set 5 (.load (.off (.reg 0) 2))) <|
    .seq (.set 6 (.load (.off (.reg 0) 3))) <|
    .seq (.set 7 (.load (.off (.reg 0) 4))) <|
    .seq (.set 8 (.load (.off (.reg 0) 5))) <|
    .seq (.set 9 (.load (.off (.reg 0) 6))) <|
    .seq (.set 10 (.load (.off (.reg 0) 7))) <|
    .seq (.set 11 (.load (.off (.reg 0) 8))) <|
    .seq (.set 12 (.load (.off (.reg 0) 9))) <|
    .seq (.set 13 (.load (.off (.reg 0) 10))) <|
    .seq (.set 14 (.load (.off (.reg 0) 11))) <|
    .seq (.set 15 (.load (.off (.reg 0) 12))) <|
    .seq (.set 16 (.load (.off (.reg 0) 13))) <|
    .seq (.set 17 (.load (.off (.reg 0) 14))) <|
    .seq (.set 18 (.load (.off (.reg 0) 15))) <|
    .seq (.set 19 (.load (.reg 1))) <|
    .seq (.set 20 (.load (.off (.reg 1) 1))) <|
    .seq (.set 21 (.load (.off (.reg 1) 2))) <|
    .seq (.set 22 (.load (.off (.reg 1) 4))) <|
    .seq (.set 23 (.load (.off (.reg 1) 5))) <|
    .seq (.set 24 (.load (.off (.reg 1) 6))) <|
    .seq (.set 25 (.load (.off (.reg 1) 8))) <|
    .seq (.set 26 (.load (.off (.reg 1) 9))) <|
    .seq (.set 27 (.load (.off (.reg 1) 10))) <|
    .seq (.store (.reg 2) (.f2 .add (.f2 .add (.f2 .mul (.reg 3) (.reg 19)) (.f2 .mul (.reg 7) (.reg 20))) (.f2 .mul (.reg 11) (.reg 21)))) <|
    .seq (.store (.off (.reg 2) 1) (.f2 .add (.f2 .add (.f2 .mul (.reg 4) (.reg 19)) (.f2 .mul (.reg 8) (.reg 20))) (.f2 .mul (.reg 12) (.reg 21)))) <|
    .seq (.store (.off (.reg 2) 2) (.f2 .add (.f2 .add (.f2 .mul (.reg 5) (.reg 19)) (.f2 .mul (.reg 9) (.reg 20))) (.f2 .mul (.reg 13) (.reg 21)))) <|
    .seq (.store (.off (.reg 2) 3) (.f2 .add (.f2 .add (.f2 .mul (.reg 6) (.reg 19)) (.f2 .mul (.reg 10) (.reg 20))) (.f2 .mul (.reg 14) (.reg 21)))) <|
    .seq (.store (.off (.reg 2) 4) (.f2 .add (.f2 .add (.f2 .mul (.reg 3) (.reg 22)) (.f2 .mul (.reg 7) (.reg 23))) (.f2 .mul (.reg 11) (.reg 24)))) <|
    .seq (.store (.off (.reg 2) 5) (.f2 .add (.f2 .add (.f2 .mul (.reg 4) (.reg 22)) (.f2 .mul (.reg 8) (.reg 23))) (.f2 .mul (.reg 12) (.reg 24)))) <|
    .seq (.store (.off (.reg 2) 6) (.f2 .add (.f2 .add (.f2 .mul (.reg 5) (.reg 22)) (.f2 .mul (.reg 9) (.reg 23))) (.f2 .mul (.reg 13) (.reg 24)))) <|
    .seq (.store (.off (.reg 2) 7) (.f2 .add (.f2 .add (.f2 .mul (.reg 6) (.reg 22)) (.f2 .mul (.reg 10) (.reg 23))) (.f2 .mul (.reg 14) (.reg 24)))) <|
    .seq (.store (.off (.reg 2) 8) (.f2 .add (.f2 .add (.f2 .mul (.reg 3) (.reg 25)) (.f2 .mul (.reg 7) (.reg 26))) (.f2 .mul (.reg 11) (.reg 27)))) <|
    .seq (.store (.off (.reg 2) 9) (.f2 .add (.f2 .add (.f2 .mul (.reg 4) (.reg 25)) (.f2 .mul (.reg 8) (.reg 26))) (.f2 .mul (.reg 12) (.reg 27)))) <|
    .seq (.store (.off (.reg 2) 10) (.f2 .add (.f2 .add (.f2 .mul (.reg 5) (.reg 25)) (.f2 .mul (.reg 9) (.reg 26))) (.f2 .mul (.reg 13) (.reg 27)))) <|
    .seq (.store (.off (.reg 2) 11) (.f2 .add (.f2 .add (.f2 .mul (.reg 6) (.reg 25)) (.f2 .mul (.reg 10) (.reg 26))) (.f2 .mul (.reg 14) (.reg 27)))) <|
    .seq (.store (.off (.reg 2) 12) (.reg 15)) <|
    .seq (.store (.off (.reg 2) 13) (.reg 16)) <|
    .seq (.store (.off (.reg 2) 14) (.reg 17)) <|
    .store (.off (.reg 2) 15) (.reg 18)

/-- `glm_inv_tr`: include/cglm/affine-mat.h:165-187. -/
def glm_inv_tr : Fn where
  locals := [9, 3]
  nregs := 0
  body := 
    .seq (.call none glm_mat4_pick3t.locals glm_mat4_pick3t.nregs glm_mat4_pick3t.body [.reg 0, .loc 0]) <|
    .seq (.call none glm_mat4_ins3.locals glm_mat4_ins3.nregs glm_mat4_ins3.body [.loc 0, .reg 0]) <|
    .seq (.call none glm_mat3_mulv.locals glm_mat3_mulv.nregs glm_mat3_mulv.body [.loc 0, .off (.reg 0) 12, .loc 1]) <|
    .seq (.call none glm_vec3_negate.locals glm_vec3_negate.nregs glm_vec3_negate.body [.loc 1]) <|
    .call none glm_vec3_copy.locals glm_vec3_copy.nregs glm_vec3_copy.body [.loc 1, .off (.reg 0) 12]

end Cglm.C

end AffineMat

section AffinePre

/- Generated from include/cglm/affine-pre.h by tools/memgen.py (memory semantics); do not edit by hand. -/

set_option maxRecDepth 10000

namespace Cglm.C
open CMem

/-- `glm_translate`: include/cglm/affine-pre.h:41-61. -/
def glm_translate : Fn where
  locals := []
  nregs := 0
  body := 
    .seq (.call none glm_vec4_muladds.locals glm_vec4_muladds.nregs glm_vec4_muladds.body [.reg 0, .load (.reg 1), .off (.reg 0) 12]) <|
    .seq (.call none glm_vec4_muladds.locals glm_vec4_muladds.nregs glm_vec4_muladds.body [.off (.reg 0) 4, .load (.off (.reg 1) 1), .off (.reg 0) 12]) <|
    .call none glm_vec4_muladds.locals glm_vec4_muladds.nregs glm_vec4_muladds.body [.off (.reg 0) 8, .load (.off (.reg 1) 2), .off (.reg 0) 12]

/-- `glm_translate_to`: include/cglm/affine-pre.h:73-78. -/
def glm_translate_to : Fn where
  locals := []
  nregs := 0
  body := 
    .seq (.call none glm_mat4_copy.locals glm_mat4_copy.nregs glm_mat4_copy.body [.reg 0, .reg 2]) <|
    .call none glm_translate.locals glm_translate.nregs glm_translate.body [.reg 2, .reg 1]

/-- `glm_translate_x`: include/cglm/affine-pre.h:86-96. -/
def glm_translate_x : Fn where
  locals := [4]
  nregs := 0
  body := 
    .seq (.call none glm_vec4_scale.locals glm_vec4_scale.nregs glm_vec4_scale.body [.reg 0, .reg 1, .loc 0]) <|
    .call none glm_vec4_add.locals glm_vec4_add.nregs glm_vec4_add.body [.loc 0, .off (.reg 0) 12, .off (.reg 0) 12]

/-- `glm_translate_y`: include/cglm/affine-pre.h:104-114. -/
def glm_translate_y : Fn where
  locals := [4]
  nregs := 0
  body := 
    .seq (.call none glm_vec4_scale.locals glm_vec4_scale.nregs glm_vec4_scale.body [.off (.reg 0) 4, .reg 1, .loc 0]) <|
    .call none glm_vec4_add.locals glm_vec4_add.nregs glm_vec4_add.body [.loc 0, .off (.reg 0) 12, .off (.reg 0) 12]

/-- `glm_translate_z`: include/cglm/affine-pre.h:122-132. -/
def glm_translate_z : Fn where
  locals := [4]
  nregs := 0
  body := 
    .seq (.call none glm_vec4_scale.locals glm_vec4_scale.nregs glm_vec4_scale.body [.off (.reg 0) 8, .reg 1, .loc 0]) <|
    .call none glm_vec4_add.locals glm_vec4_add.nregs glm_vec4_add.body [.loc 0, .off (.reg 0) 12, .off (.reg 0) 12]

/-- `glm_rotate_x`: include/cglm/affine-pre.h:142-157. -/
def glm_rotate_x : Fn where
  locals := [16]
  nregs := 2
  body := 
    .seq (.store (.loc 0) (.flit 1)) <|
    .seq (.store (.off (.loc 0) 1) (.flit 0)) <|
    .seq (.store (.off (.loc 0) 2) (.flit 0)) <|
    .seq (.store (.off (.loc 0) 3) (.flit 0)) <|
    .seq (.store (.off (.loc 0) 4) (.flit 0)) <|
    .seq (.store (.off (.loc 0) 5) (.flit 1)) <|
    .seq (.store (.off (.loc 0) 6) (.flit 0)) <|
    .seq (.store (.off (.loc 0) 7) (.flit 0)) <|
    .seq (.store (.off (.loc 0) 8) (.flit 0)) <|
    .seq (.store (.off (.loc 0) 9) (.flit 0)) <|
    .seq (.store (.off (.loc 0) 10) (.flit 1)) <|
    .seq (.store (.off (.loc 0) 11) (.flit 0)) <|
    .seq (.store (.off (.loc 0) 12) (.flit 0)) <|
    .seq (.store (.off (.loc 0) 13) (.flit 0)) <|
    .seq (.store (.off (.loc 0) 14) (.flit 0)) <|
    .seq (.store (.off (.loc 0) 15) (.flit 1)) <|
    .seq (.set 3 (.f1 .cosf (.reg 1))) <|
    .seq (.set 4 (.f1 .sinf (.reg 1))) <|
    .seq (.store (.off (.loc 0) 5) (.reg 3)) <|
    .seq (.store (.off (.loc 0) 6) (.reg 4)) <|
    .seq (.store (.off (.loc 0) 9) (.f1 .neg (.reg 4))) <|
    .seq (.store (.off (.loc 0) 10) (.reg 3)) <|
    .call none glm_mul_rot.locals glm_mul_rot.nregs glm_mul_rot.body [.reg 0, .loc 0, .reg 2]

/-- `glm_rotate_y`: include/cglm/affine-pre.h:167-182. -/
def glm_rotate_y : Fn where
  locals := [16]
  nregs := 2
  body := 
    .seq (.store (.loc 0) (.flit 1)) <|
    .seq (.store (.off (.loc 0) 1) (.flit 0)) <|
    .seq (.store (.off (.loc 0) 2) (.flit 0)) <|
    .seq (.store (.off (.loc 0) 3) (.flit 0)) <|
    .seq (.store (.off (.loc 0) 4) (.flit 0)) <|
    .seq (.store (.off (.loc 0) 5) (.flit 1)) <|
    .seq (.store (.off (.loc 0) 6) (.flit 0)) <|
    .seq (.store (.off (.loc 0) 7) (.flit 0)) <|
    .seq (.store (.off (.loc 0) 8) (.flit 0)) <|
    .seq (.store (.off (.loc 0) 9) (.flit 0)) <|
    .seq (.store (.off (.loc 0) 10) (.flit 1)) <|
    .seq (.store (.off (.loc 0) 11) (.flit 0)) <|
    .seq (.store (.off (.loc 0) 12) (.flit 0)) <|
    .seq (.store (.off (.loc 0) 13) (.flit 0)) <|
    .seq (.store (.off (.loc 0) 14) (.flit 0)) <|
    .seq (.store (.off (.loc 0) 15) (.flit 1)) <|
    .seq (.set 3 (.f1 .cosf (.reg 1))) <|
    .seq (.set 4 (.f1 .sinf (.reg 1))) <|
    .seq (.store (.loc 0) (.reg 3)) <|
    .seq (.store (.off (.loc 0) 2) (.f1 .neg (.reg 4))) <|
    .seq (.store (.off (.loc 0) 8) (.reg 4)) <|
    .seq (.store (.off (.loc 0) 10) (.reg 3)) <|
    .call none glm_mul_rot.locals glm_mul_rot.nregs glm_mul_rot.body [.reg 0, .loc 0, .reg 2]

/-- `glm_rotate_z`: include/cglm/affine-pre.h:192-207. -/
def glm_rotate_z : Fn where
  locals := [16]
  nregs := 2
  body := 
    .seq (.store (.loc 0) (.flit 1)) <|
    .seq (.store (.off (.loc 0) 1) (.flit 0)) <|
    .seq (.store (.off (.loc 0) 2) (.flit 0)) <|
    .seq (.store (.off (.loc 0) 3) (.flit 0)) <|
    .seq (.store (.off (.loc 0) 4) (.flit 0)) <|
    .seq (.store (.off (.loc 0) 5) (.flit 1)) <|
    .seq (.store (.off (.loc 0) 6) (.flit 0)) <|
    .seq (.store (.off (.loc 0) 7) (.flit 0)) <|
    .seq (.store (.off (.loc 0) 8) (.flit 0)) <|
    .seq (.store (.off (.loc 0) 9) (.flit 0)) <|
    .seq (.store (.off (.loc 0) 10) (.flit 1)) <|
    .seq (.store (.off (.loc 0) 11) (.flit 0)) <|
    .seq (.store (.off (.loc 0) 12) (.flit 0)) <|
    .seq (.store (.off (.loc 0) 13) (.flit 0)) <|
    .seq (.store (.off (.loc 0) 14) (.flit 0)) <|
    .seq (.store (.off (.loc 0) 15) (.flit 1)) <|
    .seq (.set 3 (.f1 .cosf (.reg 1))) <|
    .seq (.set 4 (.f1 .sinf (.reg 1))) <|
    .seq (.store (.loc 0) (.reg 3)) <|
    .seq (.store (.off (.loc 0) 1) (.reg 4)) <|
    .seq (.store (.off (.loc 0) 4) (.f1 .neg (.reg 4))) <|
    .seq (.store (.off (.loc 0) 5) (.reg 3)) <|
    .call none glm_mul_rot.locals glm_mul_rot.nregs glm_mul_rot.body [.reg 0, .loc 0, .reg 2]

/-- `glm_rotate`: include/cglm/affine-pre.h:234-240. -/
def glm_rotate : Fn where
  locals := [16]
  nregs := 0
  body := 
    .seq (.call none glm_rotate_make.locals glm_rotate_make.nregs glm_rotate_make.body [.loc 0, .reg 1, .reg 2]) <|
    .call none glm_mul_rot.locals glm_mul_rot.nregs glm_mul_rot.body [.reg 0, .loc 0, .reg 0]

/-- `glm_rotate_at`: include/cglm/affine-pre.h:251-261. -/
def glm_rotate_at : Fn where
  locals := [3]
  nregs := 0
  body := 
    .seq (.call none glm_vec3_negate_to.locals glm_vec3_negate_to.nregs glm_vec3_negate_to.body [.reg 1, .loc 0]) <|
    .seq (.call none glm_translate.locals glm_translate.nregs glm_translate.body [.reg 0, .reg 1]) <|
    .seq (.call none glm_rotate.locals glm_rotate.nregs glm_rotate.body [.reg 0, .reg 2, .reg 3]) <|
    .call none glm_translate.locals glm_translate.nregs glm_translate.body [.reg 0, .loc 0]

/-- `glm_rotate_atm`: include/cglm/affine-pre.h:276-286. -/
def glm_rotate_atm : Fn where
  locals := [3]
  nregs := 0
  body := 
    .seq (.call none glm_vec3_negate_to.locals glm_vec3_negate_to.nregs glm_vec3_negate_to.body [.reg 1, .loc 0]) <|
    .seq (.call none glm_translate_make.locals glm_translate_make.nregs glm_translate_make.body [.reg 0, .reg 1]) <|
    .seq (.call none glm_rotate.locals glm_rotate.nregs glm_rotate.body [.reg 0, .reg 2, .reg 3]) <|
    .call none glm_translate.locals glm_translate.nregs glm_translate.body [.reg 0, .loc 0]

/-- `glm_spin`: include/cglm/affine-pre.h:296-302. -/
def glm_spin : Fn where
  locals := [16]
  nregs := 0
  body := 
    .seq (.call none glm_rotate_atm.locals glm_rotate_atm.nregs glm_rotate_atm.body [.loc 0, .off (.reg 0) 12, .reg 1, .reg 2]) <|
    .call none glm_mat4_mul.locals glm_mat4_mul.nregs glm_mat4_mul.body [.reg 0, .loc 0, .reg 0]

end Cglm.C

end AffinePre

section AffinePost

/- Generated from include/cglm/affine-post.h by tools/memgen.py (memory semantics); do not edit by hand. -/

set_option maxRecDepth 10000

namespace Cglm.C
open CMem

/-- `glm_translated`: include/cglm/affine-post.h:42-46. -/
def glm_translated : Fn where
  locals := []
  nregs := 0
  body := .call none glm_vec3_add.locals glm_vec3_add.nregs glm_vec3_add.body [.off (.reg 0) 12, .reg 1, .off (.reg 0) 12]

/-- `glm_translated_to`: include/cglm/affine-post.h:60-65. -/
def glm_translated_to : Fn where
  locals := []
  nregs := 0
  body := 
    .seq (.call none glm_mat4_copy.locals glm_mat4_copy.nregs glm_mat4_copy.body [.reg 0, .reg 2]) <|
    .call none glm_translated.locals glm_translated.nregs glm_translated.body [.reg 2, .reg 1]

/-- `glm_translated_x`: include/cglm/affine-post.h:75-79. -/
def glm_translated_x : Fn where
  locals := []
  nregs := 0
  body := .store (.off (.reg 0) 12) (.f2 .add (.load (.off (.reg 0) 12)) (.reg 1))

/-- `glm_translated_y`: include/cglm/affine-post.h:89-93. -/
def glm_translated_y : Fn where
  locals := []
  nregs := 0
  body := .store (.off (.reg 0) 13) (.f2 .add (.load (.off (.reg 0) 13)) (.reg 1))

/-- `glm_translated_z`: include/cglm/affine-post.h:103-107. -/
def glm_translated_z : Fn where
  locals := []
  nregs := 0
  body := .store (.off (.reg 0) 14) (.f2 .add (.load (.off (.reg 0) 14)) (.reg 1))

/-- `glm_rotated_x`: include/cglm/affine-post.h:119-134. -/
def glm_rotated_x : Fn where
  locals := [16]
  nregs := 2
  body := 
    .seq (.store (.loc 0) (.flit 1)) <|
    .seq (.store (.off (.loc 0) 1) (.flit 0)) <|
    .seq (.store (.off (.loc 0) 2) (.flit 0)) <|
    .seq (.store (.off (.loc 0) 3) (.flit 0)) <|
    .seq (.store (.off (.loc 0) 4) (.flit 0)) <|
    .seq (.store (.off (.loc 0) 5) (.flit 1)) <|
    .seq (.store (.off (.loc 0) 6) (.flit 0)) <|
    .seq (.store (.off (.loc 0) 7) (.flit 0)) <|
    .seq (.store (.off (.loc 0) 8) (.flit 0)) <|
    .seq (.store (.off (.loc 0) 9) (.flit 0)) <|
    .seq (.store (.off (.loc 0) 10) (.flit 1)) <|
    .seq (.store (.off (.loc 0) 11) (.flit 0)) <|
    .seq (.store (.off (.loc 0) 12) (.flit 0)) <|
    .seq (.store (.off (.loc 0) 13) (.flit 0)) <|
    .seq (.store (.off (.loc 0) 14) (.flit 0)) <|
    .seq (.store (.off (.loc 0) 15) (.flit 1)) <|
    .seq (.set 3 (.f1 .cosf (.reg 1))) <|
    .seq (.set 4 (.f1 .sinf (.reg 1))) <|
    .seq (.store (.off (.loc 0) 5) (.reg 3)) <|
    .seq (.store (.off (.loc 0) 6) (.reg 4)) <|
    .seq (.store (.off (.loc 0) 9) (.f1 .neg (.reg 4))) <|
    .seq (.store (.off (.loc 0) 10) (.reg 3)) <|
    .call none glm_mul_rot.locals glm_mul_rot.nregs glm_mul_rot.body [.loc 0, .reg 0, .reg 2]

/-- `glm_rotated_y`: include/cglm/affine-post.h:146-161. -/
def glm_rotated_y : Fn where
  locals := [16]
  nregs := 2
  body := 
    .seq (.store (.loc 0) (.flit 1)) <|
    .seq (.store (.off (.loc 0) 1) (.flit 0)) <|
    .seq (.store (.off (.loc 0) 2) (.flit 0)) <|
    .seq (.store (.off (.loc 0) 3) (.flit 0)) <|
    .seq (.store (.off (.loc 0) 4) (.flit 0)) <|
    .seq (.store (.off (.loc 0) 5) (.flit 1)) <|
    .seq (.store (.off (.loc 0) 6) (.flit 0)) <|
    .seq (.store (.off (.loc 0) 7) (.flit 0)) <|
    .seq (.store (.off (.loc 0) 8) (.flit 0)) <|
    .seq (.store (.off (.loc 0) 9) (.flit 0)) <|
    .seq (.store (.off (.loc 0) 10) (.flit 1)) <|
    .seq (.store (.off (.loc 0) 11) (.flit 0)) <|
    .seq (.store (.off (.loc 0) 12) (.flit 0)) <|
    .seq (.store (.off (.loc 0) 13) (.flit 0)) <|
    .seq (.store (.off (.loc 0) 14) (.flit 0)) <|
    .seq (.store (.off (.loc 0) 15) (.flit 1)) <|
    .seq (.set 3 (.f1 .cosf (.reg 1))) <|
    .seq (.set 4 (.f1 .sinf (.reg 1))) <|
    .seq (.store (.loc 0) (.reg 3)) <|
    .seq (.store (.off (.loc 0) 2) (.f1 .neg (.reg 4))) <|
    .seq (.store (.off (.loc 0) 8) (.reg 4)) <|
    .seq (.store (.off (.loc 0) 10) (.reg 3)) <|
    .call none glm_mul_rot.locals glm_mul_rot.nregs glm_mul_rot.body [.loc 0, .reg 0, .reg 2]

/-- `glm_rotated_z`: include/cglm/affine-post.h:173-188. -/
def glm_rotated_z : Fn where
  locals := [16]
  nregs := 2
  body := 
    .seq (.store (.loc 0) (.flit 1)) <|
    .seq (.store (.off (.loc 0) 1) (.flit 0)) <|
    .seq (.store (.off (.loc 0) 2) (.flit 0)) <|
    .seq (.store (.off (.loc 0) 3) (.flit 0)) <|
    .seq (.store (.off (.loc 0) 4) (.flit 0)) <|
    .seq (.store (.off (.loc 0) 5) (.flit 1)) <|
    .seq (.store (.off (.loc 0) 6) (.flit 0)) <|
    .seq (.store (.off (.loc 0) 7) (.flit 0)) <|
    .seq (.store (.off (.loc 0) 8) (.flit 0)) <|
    .seq (.store (.off (.loc 0) 9) (.flit 0)) <|
    .seq (.store (.off (.loc 0) 10) (.flit 1)) <|
    .seq (.store (.off (.loc 0) 11) (.flit 0)) <|
    .seq (.store (.off (.loc 0) 12) (.flit 0)) <|
    .seq (.store (.off (.loc 0) 13) (.flit 0)) <|
    .seq (.store (.off (.loc 0) 14) (.flit 0)) <|
    .seq (.store (.off (.loc 0) 15) (.flit 1)) <|
    .seq (.set 3 (.f1 .cosf (.reg 1))) <|
    .seq (.set 4 (.f1 .sinf (.reg 1))) <|
    .seq (.store (.loc 0) (.reg 3)) <|
    .seq (.store (.off (.loc 0) 1) (.reg 4)) <|
    .seq (.store (.off (.loc 0) 4) (.f1 .neg (.reg 4))) <|
    .seq (.store (.off (.loc 0) 5) (.reg 3)) <|
    .call none glm_mul_rot.locals glm_mul_rot.nregs glm_mul_rot.body [.loc 0, .reg 0, .reg 2]

/-- `glm_rotated`: include/cglm/affine-post.h:199-205. -/
def glm_rotated : Fn where
  locals := [16]
  nregs := 0
  body := 
    .seq (.call none glm_rotate_make.locals glm_rotate_make.nregs glm_rotate_make.body [.loc 0, .reg 1, .reg 2]) <|
    .call none glm_mul_rot.locals glm_mul_rot.nregs glm_mul_rot.body [.loc 0, .reg 0, .reg 0]

/-- `glm_rotated_at`: include/cglm/affine-post.h:218-228. -/
def glm_rotated_at : Fn where
  locals := [3]
  nregs := 0
  body := 
    .seq (.call none glm_vec3_negate_to.locals glm_vec3_negate_to.nregs glm_vec3_negate_to.body [.reg 1, .loc 0]) <|
    .seq (.call none glm_translated.locals glm_translated.nregs glm_translated.body [.reg 0, .reg 1]) <|
    .seq (.call none glm_rotated.locals glm_rotated.nregs glm_rotated.body [.reg 0, .reg 2, .reg 3]) <|
    .call none glm_translated.locals glm_translated.nregs glm_translated.body [.reg 0, .loc 0]

/-- `glm_spinned`: include/cglm/affine-post.h:239-245. -/
def glm_spinned : Fn where
  locals := [16]
  nregs := 0
  body := 
    .seq (.call none glm_rotate_atm.locals glm_rotate_atm.nregs glm_rotate_atm.body [.loc 0, .off (.reg 0) 12, .reg 1, .reg 2]) <|
    .call none glm_mat4_mul.locals glm_mat4_mul.nregs glm_mat4_mul.body [.loc 0, .reg 0, .reg 0]

end Cglm.C

end AffinePost

section ClipspaceOrthoRhNo

/- Generated from include/cglm/clipspace/ortho_rh_no.h by tools/memgen.py (memory semantics); do not edit by hand. -/

set_option maxRecDepth 10000

namespace Cglm.C
open CMem

/-- `glm_ortho_rh_no`: include/cglm/clipspace/ortho_rh_no.h:48-69. -/
def glm_ortho_rh_no : Fn where
  locals := []
  nregs := 3
  body := 
    .seq (.call none glm_mat4_zero.locals glm_mat4_zero.nregs glm_mat4_zero.body [.reg 6]) <|
    .seq (.set 7 (.f2 .div (.flit 1) (.f2 .sub (.reg 1) (.reg 0)))) <|
    .seq (.set 8 (.f2 .div (.flit 1) (.f2 .sub (.reg 3) (.reg 2)))) <|
    .seq (.set 9 (.f2 .div (.f1 .neg (.flit 1)) (.f2 .sub (.reg 5) (.reg 4)))) <|
    .seq (.store (.reg 6) (.f2 .mul (.flit 2) (.reg 7))) <|
    .seq (.store (.off (.reg 6) 5) (.f2 .mul (.flit 2) (.reg 8))) <|
    .seq (.store (.off (.reg 6) 10) (.f2 .mul (.flit 2) (.reg 9))) <|
    .seq (.store (.off (.reg 6) 12) (.f2 .mul (.f1 .neg (.f2 .add (.reg 1) (.reg 0))) (.reg 7))) <|
    .seq (.store (.off (.reg 6) 13) (.f2 .mul (.f1 .neg (.f2 .add (.reg 3) (.reg 2))) (.reg 8))) <|
    .seq (.store (.off (.reg 6) 14) (.f2 .mul (.f2 .add (.reg 5) (.reg 4)) (.reg 9))) <|
    .store (.off (.reg 6) 15) (.flit 1)

/-- `glm_ortho_aabb_rh_no`: include/cglm/clipspace/ortho_rh_no.h:81-88. -/
def glm_ortho_aabb_rh_no : Fn where
  locals := []
  nregs := 0
  body := .call none glm_ortho_rh_no.locals glm_ortho_rh_no.nregs glm_ortho_rh_no.body [.load (.reg 0), .load (.off (.reg 0) 3), .load (.off (.reg 0) 1), .load (.off (.reg 0) 4), .f1 .neg (.load (.off (.reg 0) 5)), .f1 .neg (.load (.off (.reg 0) 2)), .reg 1]

/-- `glm_ortho_aabb_p_rh_no`: include/cglm/clipspace/ortho_rh_no.h:101-108. -/
def glm_ortho_aabb_p_rh_no : Fn where
  locals := []
  nregs := 0
  body := .call none glm_ortho_rh_no.locals glm_ortho_rh_no.nregs glm_ortho_rh_no.body [.f2 .sub (.load (.reg 0)) (.reg 1), .f2 .add (.load (.off (.reg 0) 3)) (.reg 1), .f2 .sub (.load (.off (.reg 0) 1)) (.reg 1), .f2 .add (.load (.off (.reg 0) 4)) (.reg 1), .f1 .neg (.f2 .add (.load (.off (.reg 0) 5)) (.reg 1)), .f1 .neg (.f2 .sub (.load (.off (.reg 0) 2)) (.reg 1)), .reg 2]

/-- `glm_ortho_aabb_pz_rh_no`: include/cglm/clipspace/ortho_rh_no.h:121-128. -/
def glm_ortho_aabb_pz_rh_no : Fn where
  locals := []
  nregs := 0
  body := .call none glm_ortho_rh_no.locals glm_ortho_rh_no.nregs glm_ortho_rh_no.body [.load (.reg 0), .load (.off (.reg 0) 3), .load (.off (.reg 0) 1), .load (.off (.reg 0) 4), .f1 .neg (.f2 .add (.load (.off (.reg 0) 5)) (.reg 1)), .f1 .neg (.f2 .sub (.load (.off (.reg 0) 2)) (.reg 1)), .reg 2]

/-- `glm_ortho_default_rh_no`: include/cglm/clipspace/ortho_rh_no.h:138-149. -/
def glm_ortho_default_rh_no : Fn where
  locals := []
  nregs := 0
  body := 
    .seq (.ite (.fc .le (.flit 1) (.reg 0)) (.seq (.call none glm_ortho_rh_no.locals glm_ortho_rh_no.nregs glm_ortho_rh_no.body [.f1 .neg (.reg 0), .reg 0, .f1 .neg (.flit 1), .flit 1, .f1 .neg (.flit 100), .flit 100, .reg 1]) (.retVoid)) (.skip)) <|
    .seq (.set 0 (.f2 .div (.flit 1) (.reg 0))) <|
    .call none glm_ortho_rh_no.locals glm_ortho_rh_no.nregs glm_ortho_rh_no.body [.f1 .neg (.flit 1), .flit 1, .f1 .neg (.reg 0), .reg 0, .f1 .neg (.flit 100), .flit 100, .reg 1]

/-- `glm_ortho_default_s_rh_no`: include/cglm/clipspace/ortho_rh_no.h:160-181. -/
def glm_ortho_default_s_rh_no : Fn where
  locals := []
  nregs := 0
  body := 
    .seq (.ite (.fc .le (.flit 1) (.reg 0)) (.seq (.call none glm_ortho_rh_no.locals glm_ortho_rh_no.nregs glm_ortho_rh_no.body [.f2 .mul (.f1 .neg (.reg 1)) (.reg 0), .f2 .mul (.reg 1) (.reg 0), .f1 .neg (.reg 1), .reg 1, .f2 .sub (.f1 .neg (.reg 1)) (.flit 100), .f2 .add (.reg 1) (.flit 100), .reg 2]) (.retVoid)) (.skip)) <|
    .call none glm_ortho_rh_no.locals glm_ortho_rh_no.nregs glm_ortho_rh_no.body [.f1 .neg (.reg 1), .reg 1, .f2 .div (.f1 .neg (.reg 1)) (.reg 0), .f2 .div (.reg 1) (.reg 0), .f2 .sub (.f1 .neg (.reg 1)) (.flit 100), .f2 .add (.reg 1) (.flit 100), .reg 2]

end Cglm.C

end ClipspaceOrthoRhNo

section ClipspacePersp

/- Generated from include/cglm/clipspace/persp.h by tools/memgen.py (memory semantics); do not edit by hand. -/

set_option maxRecDepth 10000

namespace Cglm.C
open CMem

/-- `glm_persp_fovy`: include/cglm/clipspace/persp.h:31-35. -/
def glm_persp_fovy : Fn where
  locals := []
  nregs := 0
  body := .ret (.f2 .mul (.flit 2) (.f1 .atanf (.f2 .div (.flit 1) (.load (.off (.reg 0) 5)))))

/-- `glm_persp_aspect`: include/cglm/clipspace/persp.h:42-46. -/
def glm_persp_aspect : Fn where
  locals := []
  nregs := 0
  body := .ret (.f2 .div (.load (.off (.reg 0) 5)) (.load (.reg 0)))

end Cglm.C

end ClipspacePersp

section ClipspacePerspRhNo

/- Generated from include/cglm/clipspace/persp_rh_no.h by tools/memgen.py (memory semantics); do not edit by hand. -/

set_option maxRecDepth 10000

namespace Cglm.C
open CMem

/-- `glm_frustum_rh_no`: include/cglm/clipspace/persp_rh_no.h:65-87. -/
def glm_frustum_rh_no : Fn where
  locals := []
  nregs := 4
  body := 
    .seq (.call none glm_mat4_zero.locals glm_mat4_zero.nregs glm_mat4_zero.body [.reg 6]) <|
    .seq (.set 7 (.f2 .div (.flit 1) (.f2 .sub (.reg 1) (.reg 0)))) <|
    .seq (.set 8 (.f2 .div (.flit 1) (.f2 .sub (.reg 3) (.reg 2)))) <|
    .seq (.set 9 (.f2 .div (.f1 .neg (.flit 1)) (.f2 .sub (.reg 5) (.reg 4)))) <|
    .seq (.set 10 (.f2 .mul (.flit 2) (.reg 4))) <|
    .seq (.store (.reg 6) (.f2 .mul (.reg 10) (.reg 7))) <|
    .seq (.store (.off (.reg 6) 5) (.f2 .mul (.reg 10) (.reg 8))) <|
    .seq (.store (.off (.reg 6) 8) (.f2 .mul (.f2 .add (.reg 1) (.reg 0)) (.reg 7))) <|
    .seq (.store (.off (.reg 6) 9) (.f2 .mul (.f2 .add (.reg 3) (.reg 2)) (.reg 8))) <|
    .seq (.store (.off (.reg 6) 10) (.f2 .mul (.f2 .add (.reg 5) (.reg 4)) (.reg 9))) <|
    .seq (.store (.off (.reg 6) 11) (.f1 .neg (.flit 1))) <|
    .store (.off (.reg 6) 14) (.f2 .mul (.f2 .mul (.reg 5) (.reg 10)) (.reg 9))

/-- `glm_perspective_rh_no`: include/cglm/clipspace/persp_rh_no.h:100-120. -/
def glm_perspective_rh_no : Fn where
  locals := []
  nregs := 2
  body := 
    .seq (.call none glm_mat4_zero.locals glm_mat4_zero.nregs glm_mat4_zero.body [.reg 4]) <|
    .seq (.set 5 (.f2 .div (.flit 1) (.f1 .tanf (.f2 .mul (.reg 0) (.flit 0.5))))) <|
    .seq (.set 6 (.f2 .div (.flit 1) (.f2 .sub (.reg 2) (.reg 3)))) <|
    .seq (.store (.reg 4) (.f2 .div (.reg 5) (.reg 1))) <|
    .seq (.store (.off (.reg 4) 5) (.reg 5)) <|
    .seq (.store (.off (.reg 4) 10) (.f2 .mul (.f2 .add (.reg 2) (.reg 3)) (.reg 6))) <|
    .seq (.store (.off (.reg 4) 11) (.f1 .neg (.flit 1))) <|
    .store (.off (.reg 4) 14) (.f2 .mul (.f2 .mul (.f2 .mul (.flit 2) (.reg 2)) (.reg 3)) (.reg 6))

/-- `glm_perspective_default_rh_no`: include/cglm/clipspace/persp_rh_no.h:130-134. -/
def glm_perspective_default_rh_no : Fn where
  locals := []
  nregs := 0
  body := .call none glm_perspective_rh_no.locals glm_perspective_rh_no.nregs glm_perspective_rh_no.body [.flit 0.785398163397448309615660845819875721, .reg 0, .flit 0.01, .flit 100, .reg 1]

/-- `glm_perspective_resize_rh_no`: include/cglm/clipspace/persp_rh_no.h:145-152. -/
def glm_perspective_resize_rh_no : Fn where
  locals := []
  nregs := 0
  body := 
    .seq (.ite (.fc .eq (.load (.reg 1)) (.flit 0)) (.retVoid) (.skip)) <|
    .store (.reg 1) (.f2 .div (.load (.off (.reg 1) 5)) (.reg 0))

/-- `glm_persp_move_far_rh_no`: include/cglm/clipspace/persp_rh_no.h:164-178. -/
def glm_persp_move_far_rh_no : Fn where
  locals := []
  nregs := 5
  body := 
    .seq (.set 5 (.load (.off (.reg 0) 10))) <|
    .seq (.set 6 (.load (.off (.reg 0) 14))) <|
    .seq (.set 4 (.f2 .div (.reg 6) (.f2 .sub (.reg 5) (.flit 1)))) <|
    .seq (.set 3 (.f2 .add (.f2 .div (.reg 6) (.f2 .add (.reg 5) (.flit 1))) (.reg 1))) <|
    .seq (.set 2 (.f2 .div (.flit 1) (.f2 .sub (.reg 4) (.reg 3)))) <|
    .seq (.store (.off (.reg 0) 10) (.f2 .mul (.f2 .add (.reg 3) (.reg 4)) (.reg 2))) <|
    .store (.off (.reg 0) 14) (.f2 .mul (.f2 .mul (.f2 .mul (.flit 2) (.reg 4)) (.reg 3)) (.reg 2))

/-- `glm_persp_decomp_rh_no`: include/cglm/clipspace/persp_rh_no.h:193-221. -/
def glm_persp_decomp_rh_no : Fn where
  locals := []
  nregs := 10
  body := 
    .seq (.set 7 (.load (.reg 0))) <|
    .seq (.set 8 (.load (.off (.reg 0) 5))) <|
    .seq (.set 9 (.load (.off (.reg 0) 8))) <|
    .seq (.set 10 (.load (.off (.reg 0) 9))) <|
    .seq (.set 11 (.load (.off (.reg 0) 10))) <|
    .seq (.set 12 (.load (.off (.reg 0) 14))) <|
    .seq (.set 13 (.f2 .div (.reg 12) (.f2 .sub (.reg 11) (.flit 1)))) <|
    .seq (.set 14 (.f2 .div (.reg 12) (.f2 .add (.reg 11) (.flit 1)))) <|
    .seq (.set 15 (.f2 .div (.reg 13) (.reg 8))) <|
    .seq (.set 16 (.f2 .div (.reg 13) (.reg 7))) <|
    .seq (.store (.reg 1) (.reg 13)) <|
    .seq (.store (.reg 2) (.reg 14)) <|
    .seq (.store (.reg 4) (.f2 .mul (.reg 15) (.f2 .sub (.reg 10) (.flit 1)))) <|
    .seq (.store (.reg 3) (.f2 .mul (.reg 15) (.f2 .add (.reg 10) (.flit 1)))) <|
    .seq (.store (.reg 5) (.f2 .mul (.reg 16) (.f2 .sub (.reg 9) (.flit 1)))) <|
    .store (.reg 6) (.f2 .mul (.reg 16) (.f2 .add (.reg 9) (.flit 1)))

/-- `glm_persp_decompv_rh_no`: include/cglm/clipspace/persp_rh_no.h:232-237. -/
def glm_persp_decompv_rh_no : Fn where
  locals := []
  nregs := 0
  body := .call none glm_persp_decomp_rh_no.locals glm_persp_decomp_rh_no.nregs glm_persp_decomp_rh_no.body [.reg 0, .reg 1, .off (.reg 1) 1, .off (.reg 1) 2, .off (.reg 1) 3, .off (.reg 1) 4, .off (.reg 1) 5]

/-- `glm_persp_decomp_x_rh_no`: include/cglm/clipspace/persp_rh_no.h:249-263. -/
def glm_persp_decomp_x_rh_no : Fn where
  locals := []
  nregs := 4
  body := 
    .seq (.set 5 (.load (.reg 0))) <|
    .seq (.set 4 (.load (.off (.reg 0) 8))) <|
    .seq (.set 6 (.load (.off (.reg 0) 10))) <|
    .seq (.set 3 (.f2 .div (.load (.off (.reg 0) 14)) (.f2 .sub (.reg 6) (.flit 1)))) <|
    .seq (.store (.reg 1) (.f2 .div (.f2 .mul (.reg 3) (.f2 .sub (.reg 4) (.flit 1))) (.reg 5))) <|
    .store (.reg 2) (.f2 .div (.f2 .mul (.reg 3) (.f2 .add (.reg 4) (.flit 1))) (.reg 5))

/-- `glm_persp_decomp_y_rh_no`: include/cglm/clipspace/persp_rh_no.h:275-289. -/
def glm_persp_decomp_y_rh_no : Fn where
  locals := []
  nregs := 4
  body := 
    .seq (.set 4 (.load (.off (.reg 0) 9))) <|
    .seq (.set 5 (.load (.off (.reg 0) 5))) <|
    .seq (.set 6 (.load (.off (.reg 0) 10))) <|
    .seq (.set 3 (.f2 .div (.load (.off (.reg 0) 14)) (.f2 .sub (.reg 6) (.flit 1)))) <|
    .seq (.store (.reg 2) (.f2 .div (.f2 .mul (.reg 3) (.f2 .sub (.reg 4) (.flit 1))) (.reg 5))) <|
    .store (.reg 1) (.f2 .div (.f2 .mul (.reg 3) (.f2 .add (.reg 4) (.flit 1))) (.reg 5))

/-- `glm_persp_decomp_z_rh_no`: include/cglm/clipspace/persp_rh_no.h:301-313. -/
def glm_persp_decomp_z_rh_no : Fn where
  locals := []
  nregs := 2
  body := 
    .seq (.set 3 (.load (.off (.reg 0) 14))) <|
    .seq (.set 4 (.load (.off (.reg 0) 10))) <|
    .seq (.store (.reg 1) (.f2 .div (.reg 3) (.f2 .sub (.reg 4) (.flit 1)))) <|
    .store (.reg 2) (.f2 .div (.reg 3) (.f2 .add (.reg 4) (.flit 1)))

/-- `glm_persp_decomp_far_rh_no`: include/cglm/clipspace/persp_rh_no.h:323-327. -/
def glm_persp_decomp_far_rh_no : Fn where
  locals := []
  nregs := 0
  body := .store (.reg 1) (.f2 .div (.load (.off (.reg 0) 14)) (.f2 .add (.load (.off (.reg 0) 10)) (.flit 1)))

/-- `glm_persp_decomp_near_rh_no`: include/cglm/clipspace/persp_rh_no.h:337-341. -/
def glm_persp_decomp_near_rh_no : Fn where
  locals := []
  nregs := 0
  body := .store (.reg 1) (.f2 .div (.load (.off (.reg 0) 14)) (.f2 .sub (.load (.off (.reg 0) 10)) (.flit 1)))

/-- `glm_persp_sizes_rh_no`: include/cglm/clipspace/persp_rh_no.h:352-366. -/
def glm_persp_sizes_rh_no : Fn where
  locals := [1, 1]
  nregs := 3
  body := 
    .seq (.set 3 (.f2 .mul (.flit 2) (.f1 .tanf (.f2 .mul (.reg 1) (.flit 0.5))))) <|
    .seq (.call (some 5) glm_persp_aspect.locals glm_persp_aspect.nregs glm_persp_aspect.body [.reg 0]) <|
    .seq (.set 4 (.reg 5)) <|
    .seq (.call none glm_persp_decomp_z_rh_no.locals glm_persp_decomp_z_rh_no.nregs glm_persp_decomp_z_rh_no.body [.reg 0, .loc 0, .loc 1]) <|
    .seq (.store (.off (.reg 2) 1) (.f2 .mul (.reg 3) (.load (.loc 0)))) <|
    .seq (.store (.off (.reg 2) 3) (.f2 .mul (.reg 3) (.load (.loc 1)))) <|
    .seq (.store (.reg 2) (.f2 .mul (.reg 4) (.load (.off (.reg 2) 1)))) <|
    .store (.off (.reg 2) 2) (.f2 .mul (.reg 4) (.load (.off (.reg 2) 3)))

/-- `glm_persp_fovy_rh_no`: include/cglm/clipspace/persp_rh_no.h:377-381. -/
def glm_persp_fovy_rh_no : Fn where
  locals := []
  nregs := 1
  body := 
    .seq (.call (some 1) glm_persp_fovy.locals glm_persp_fovy.nregs glm_persp_fovy.body [.reg 0]) <|
    .ret (.reg 1)

/-- `glm_persp_aspect_rh_no`: include/cglm/clipspace/persp_rh_no.h:389-393. -/
def glm_persp_aspect_rh_no : Fn where
  locals := []
  nregs := 1
  body := 
    .seq (.call (some 1) glm_persp_aspect.locals glm_persp_aspect.nregs glm_persp_aspect.body [.reg 0]) <|
    .ret (.reg 1)

end Cglm.C

end ClipspacePerspRhNo

section ClipspaceViewRh

/- Generated from include/cglm/clipspace/view_rh.h by tools/memgen.py (memory semantics); do not edit by hand. -/

set_option maxRecDepth 10000

namespace Cglm.C
open CMem

/-- `glm_lookat_rh`: include/cglm/clipspace/view_rh.h:32-57. -/
def glm_lookat_rh : Fn where
  locals := [3, 3, 3]
  nregs := 3
  body := 
    .seq (.call none glm_vec3_sub.locals glm_vec3_sub.nregs glm_vec3_sub.body [.reg 1, .reg 0, .loc 0]) <|
    .seq (.call none glm_vec3_normalize.locals glm_vec3_normalize.nregs glm_vec3_normalize.body [.loc 0]) <|
    .seq (.call none glm_vec3_crossn.locals glm_vec3_crossn.nregs glm_vec3_crossn.body [.loc 0, .reg 2, .loc 2]) <|
    .seq (.call none glm_vec3_cross.locals glm_vec3_cross.nregs glm_vec3_cross.body [.loc 2, .loc 0, .loc 1]) <|
    .seq (.store (.reg 3) (.load (.loc 2))) <|
    .seq (.store (.off (.reg 3) 1) (.load (.loc 1))) <|
    .seq (.store (.off (.reg 3) 2) (.f1 .neg (.load (.loc 0)))) <|
    .seq (.store (.off (.reg 3) 4) (.load (.off (.loc 2) 1))) <|
    .seq (.store (.off (.reg 3) 5) (.load (.off (.loc 1) 1))) <|
    .seq (.store (.off (.reg 3) 6) (.f1 .neg (.load (.off (.loc 0) 1)))) <|
    .seq (.store (.off (.reg 3) 8) (.load (.off (.loc 2) 2))) <|
    .seq (.store (.off (.reg 3) 9) (.load (.off (.loc 1) 2))) <|
    .seq (.store (.off (.reg 3) 10) (.f1 .neg (.load (.off (.loc 0) 2)))) <|
    .seq (.call (some 4) glm_vec3_dot.locals glm_vec3_dot.nregs glm_vec3_dot.body [.loc 2, .reg 0]) <|
    .seq (.store (.off (.reg 3) 12) (.f1 .neg (.reg 4))) <|
    .seq (.call (some 5) glm_vec3_dot.locals glm_vec3_dot.nregs glm_vec3_dot.body [.loc 1, .reg 0]) <|
    .seq (.store (.off (.reg 3) 13) (.f1 .neg (.reg 5))) <|
    .seq (.call (some 6) glm_vec3_dot.locals glm_vec3_dot.nregs glm_vec3_dot.body [.loc 0, .reg 0]) <|
    .seq (.store (.off (.reg 3) 14) (.reg 6)) <|
    .seq (.store (.off (.reg 3) 11) (.flit 0)) <|
    .seq (.store (.off (.reg 3) 7) (.load (.off (.reg 3) 11))) <|
    .seq (.store (.off (.reg 3) 3) (.load (.off (.reg 3) 7))) <|
    .store (.off (.reg 3) 15) (.flit 1)

/-- `glm_look_rh`: include/cglm/clipspace/view_rh.h:73-79. -/
def glm_look_rh : Fn where
  locals := [3]
  nregs := 0
  body := 
    .seq (.call none glm_vec3_add.locals glm_vec3_add.nregs glm_vec3_add.body [.reg 0, .reg 1, .loc 0]) <|
    .call none glm_lookat_rh.locals glm_lookat_rh.nregs glm_lookat_rh.body [.reg 0, .loc 0, .reg 2, .reg 3]

/-- `glm_look_anyup_rh`: include/cglm/clipspace/view_rh.h:91-97. -/
def glm_look_anyup_rh : Fn where
  locals := [3]
  nregs := 0
  body := 
    .seq (.call none glm_vec3_ortho.locals glm_vec3_ortho.nregs glm_vec3_ortho.body [.reg 1, .loc 0]) <|
    .call none glm_look_rh.locals glm_look_rh.nregs glm_look_rh.body [.reg 0, .reg 1, .loc 0, .reg 2]

end Cglm.C

end ClipspaceViewRh

section Cam

/- Generated from include/cglm/cam.h by tools/memgen.py (memory semantics); do not edit by hand. -/

set_option maxRecDepth 10000

namespace Cglm.C
open CMem

/-- `glm_frustum`: include/cglm/cam.h:100-115. -/
def glm_frustum : Fn where
  locals := []
  nregs := 0
  body := .call none glm_frustum_rh_no.locals glm_frustum_rh_no.nregs glm_frustum_rh_no.body [.reg 0, .reg 1, .reg 2, .reg 3, .reg 4, .reg 5, .reg 6]

/-- `glm_ortho`: include/cglm/cam.h:128-143. -/
def glm_ortho : Fn where
  locals := []
  nregs := 0
  body := .call none glm_ortho_rh_no.locals glm_ortho_rh_no.nregs glm_ortho_rh_no.body [.reg 0, .reg 1, .reg 2, .reg 3, .reg 4, .reg 5, .reg 6]

/-- `glm_ortho_aabb`: include/cglm/cam.h:153-165. -/
def glm_ortho_aabb : Fn where
  locals := []
  nregs := 0
  body := .call none glm_ortho_aabb_rh_no.locals glm_ortho_aabb_rh_no.nregs glm_ortho_aabb_rh_no.body [.reg 0, .reg 1]

/-- `glm_ortho_aabb_p`: include/cglm/cam.h:176-188. -/
def glm_ortho_aabb_p : Fn where
  locals := []
  nregs := 0
  body := .call none glm_ortho_aabb_p_rh_no.locals glm_ortho_aabb_p_rh_no.nregs glm_ortho_aabb_p_rh_no.body [.reg 0, .reg 1, .reg 2]

/-- `glm_ortho_aabb_pz`: include/cglm/cam.h:199-211. -/
def glm_ortho_aabb_pz : Fn where
  locals := []
  nregs := 0
  body := .call none glm_ortho_aabb_pz_rh_no.locals glm_ortho_aabb_pz_rh_no.nregs glm_ortho_aabb_pz_rh_no.body [.reg 0, .reg 1, .reg 2]

/-- `glm_ortho_default`: include/cglm/cam.h:219-231. -/
def glm_ortho_default : Fn where
  locals := []
  nregs := 0
  body := .call none glm_ortho_default_rh_no.locals glm_ortho_default_rh_no.nregs glm_ortho_default_rh_no.body [.reg 0, .reg 1]

/-- `glm_ortho_default_s`: include/cglm/cam.h:240-252. -/
def glm_ortho_default_s : Fn where
  locals := []
  nregs := 0
  body := .call none glm_ortho_default_s_rh_no.locals glm_ortho_default_s_rh_no.nregs glm_ortho_default_s_rh_no.body [.reg 0, .reg 1, .reg 2]

/-- `glm_perspective`: include/cglm/cam.h:263-275. -/
def glm_perspective : Fn where
  locals := []
  nregs := 0
  body := .call none glm_perspective_rh_no.locals glm_perspective_rh_no.nregs glm_perspective_rh_no.body [.reg 0, .reg 1, .reg 2, .reg 3, .reg 4]

/-- `glm_persp_move_far`: include/cglm/cam.h:285-297. -/
def glm_persp_move_far : Fn where
  locals := []
  nregs := 0
  body := .call none glm_persp_move_far_rh_no.locals glm_persp_move_far_rh_no.nregs glm_persp_move_far_rh_no.body [.reg 0, .reg 1]

/-- `glm_perspective_default`: include/cglm/cam.h:306-318. -/
def glm_perspective_default : Fn where
  locals := []
  nregs := 0
  body := .call none glm_perspective_default_rh_no.locals glm_perspective_default_rh_no.nregs glm_perspective_default_rh_no.body [.reg 0, .reg 1]

/-- `glm_perspective_resize`: include/cglm/cam.h:328-335. -/
def glm_perspective_resize : Fn where
  locals := []
  nregs := 0
  body := 
    .seq (.ite (.fc .eq (.load (.reg 1)) (.flit 0)) (.retVoid) (.skip)) <|
    .store (.reg 1) (.f2 .div (.load (.off (.reg 1) 5)) (.reg 0))

/-- `glm_lookat`: include/cglm/cam.h:348-356. -/
def glm_lookat : Fn where
  locals := []
  nregs := 0
  body := .call none glm_lookat_rh.locals glm_lookat_rh.nregs glm_lookat_rh.body [.reg 0, .reg 1, .reg 2, .reg 3]

/-- `glm_look`: include/cglm/cam.h:372-380. -/
def glm_look : Fn where
  locals := []
  nregs := 0
  body := .call none glm_look_rh.locals glm_look_rh.nregs glm_look_rh.body [.reg 0, .reg 1, .reg 2, .reg 3]

/-- `glm_look_anyup`: include/cglm/cam.h:392-400. -/
def glm_look_anyup : Fn where
  locals := []
  nregs := 0
  body := .call none glm_look_anyup_rh.locals glm_look_anyup_rh.nregs glm_look_anyup_rh.body [.reg 0, .reg 1, .reg 2]

/-- `glm_persp_decomp`: include/cglm/cam.h:413-428. -/
def glm_persp_decomp : Fn where
  locals := []
  nregs := 0
  body := .call none glm_persp_decomp_rh_no.locals glm_persp_decomp_rh_no.nregs glm_persp_decomp_rh_no.body [.reg 0, .reg 1, .reg 2, .reg 3, .reg 4, .reg 5, .reg 6]

/-- `glm_persp_decompv`: include/cglm/cam.h:437-449. -/
def glm_persp_decompv : Fn where
  locals := []
  nregs := 0
  body := .call none glm_persp_decompv_rh_no.locals glm_persp_decompv_rh_no.nregs glm_persp_decompv_rh_no.body [.reg 0, .reg 1]

/-- `glm_persp_decomp_x`: include/cglm/cam.h:459-473. -/
def glm_persp_decomp_x : Fn where
  locals := []
  nregs := 0
  body := .call none glm_persp_decomp_x_rh_no.locals glm_persp_decomp_x_rh_no.nregs glm_persp_decomp_x_rh_no.body [.reg 0, .reg 1, .reg 2]

/-- `glm_persp_decomp_y`: include/cglm/cam.h:483-497. -/
def glm_persp_decomp_y : Fn where
  locals := []
  nregs := 0
  body := .call none glm_persp_decomp_y_rh_no.locals glm_persp_decomp_y_rh_no.nregs glm_persp_decomp_y_rh_no.body [.reg 0, .reg 1, .reg 2]

/-- `glm_persp_decomp_z`: include/cglm/cam.h:507-519. -/
def glm_persp_decomp_z : Fn where
  locals := []
  nregs := 0
  body := .call none glm_persp_decomp_z_rh_no.locals glm_persp_decomp_z_rh_no.nregs glm_persp_decomp_z_rh_no.body [.reg 0, .reg 1, .reg 2]

/-- `glm_persp_decomp_far`: include/cglm/cam.h:527-539. -/
def glm_persp_decomp_far : Fn where
  locals := []
  nregs := 0
  body := .call none glm_persp_decomp_far_rh_no.locals glm_persp_decomp_far_rh_no.nregs glm_persp_decomp_far_rh_no.body [.reg 0, .reg 1]

/-- `glm_persp_decomp_near`: include/cglm/cam.h:547-559. -/
def glm_persp_decomp_near : Fn where
  locals := []
  nregs := 0
  body := .call none glm_persp_decomp_near_rh_no.locals glm_persp_decomp_near_rh_no.nregs glm_persp_decomp_near_rh_no.body [.reg 0, .reg 1]

/-- `glm_persp_sizes`: include/cglm/cam.h:568-580. -/
def glm_persp_sizes : Fn where
  locals := []
  nregs := 0
  body := .call none glm_persp_sizes_rh_no.locals glm_persp_sizes_rh_no.nregs glm_persp_sizes_rh_no.body [.reg 0, .reg 1, .reg 2]

end Cglm.C

end Cam

section ClipspaceOrthoLhNo

/- Generated from include/cglm/clipspace/ortho_lh_no.h by tools/memgen.py (memory semantics); do not edit by hand. -/

set_option maxRecDepth 10000

namespace Cglm.C
open CMem

/-- `glm_ortho_lh_no`: include/cglm/clipspace/ortho_lh_no.h:48-69. -/
def glm_ortho_lh_no : Fn where
  locals := []
  nregs := 3
  body := 
    .seq (.call none glm_mat4_zero.locals glm_mat4_zero.nregs glm_mat4_zero.body [.reg 6]) <|
    .seq (.set 7 (.f2 .div (.flit 1) (.f2 .sub (.reg 1) (.reg 0)))) <|
    .seq (.set 8 (.f2 .div (.flit 1) (.f2 .sub (.reg 3) (.reg 2)))) <|
    .seq (.set 9 (.f2 .div (.f1 .neg (.flit 1)) (.f2 .sub (.reg 5) (.reg 4)))) <|
    .seq (.store (.reg 6) (.f2 .mul (.flit 2) (.reg 7))) <|
    .seq (.store (.off (.reg 6) 5) (.f2 .mul (.flit 2) (.reg 8))) <|
    .seq (.store (.off (.reg 6) 10) (.f2 .mul (.f1 .neg (.flit 2)) (.reg 9))) <|
    .seq (.store (.off (.reg 6) 12) (.f2 .mul (.f1 .neg (.f2 .add (.reg 1) (.reg 0))) (.reg 7))) <|
    .seq (.store (.off (.reg 6) 13) (.f2 .mul (.f1 .neg (.f2 .add (.reg 3) (.reg 2))) (.reg 8))) <|
    .seq (.store (.off (.reg 6) 14) (.f2 .mul (.f2 .add (.reg 5) (.reg 4)) (.reg 9))) <|
    .store (.off (.reg 6) 15) (.flit 1)

/-- `glm_ortho_aabb_lh_no`: include/cglm/clipspace/ortho_lh_no.h:81-88. -/
def glm_ortho_aabb_lh_no : Fn where
  locals := []
  nregs := 0
  body := .call none glm_ortho_lh_no.locals glm_ortho_lh_no.nregs glm_ortho_lh_no.body [.load (.reg 0), .load (.off (.reg 0) 3), .load (.off (.reg 0) 1), .load (.off (.reg 0) 4), .f1 .neg (.load (.off (.reg 0) 5)), .f1 .neg (.load (.off (.reg 0) 2)), .reg 1]

/-- `glm_ortho_aabb_p_lh_no`: include/cglm/clipspace/ortho_lh_no.h:101-108. -/
def glm_ortho_aabb_p_lh_no : Fn where
  locals := []
  nregs := 0
  body := .call none glm_ortho_lh_no.locals glm_ortho_lh_no.nregs glm_ortho_lh_no.body [.f2 .sub (.load (.reg 0)) (.reg 1), .f2 .add (.load (.off (.reg 0) 3)) (.reg 1), .f2 .sub (.load (.off (.reg 0) 1)) (.reg 1), .f2 .add (.load (.off (.reg 0) 4)) (.reg 1), .f1 .neg (.f2 .add (.load (.off (.reg 0) 5)) (.reg 1)), .f1 .neg (.f2 .sub (.load (.off (.reg 0) 2)) (.reg 1)), .reg 2]

/-- `glm_ortho_aabb_pz_lh_no`: include/cglm/clipspace/ortho_lh_no.h:121-128. -/
def glm_ortho_aabb_pz_lh_no : Fn where
  locals := []
  nregs := 0
  body := .call none glm_ortho_lh_no.locals glm_ortho_lh_no.nregs glm_ortho_lh_no.body [.load (.reg 0), .load (.off (.reg 0) 3), .load (.off (.reg 0) 1), .load (.off (.reg 0) 4), .f1 .neg (.f2 .add (.load (.off (.reg 0) 5)) (.reg 1)), .f1 .neg (.f2 .sub (.load (.off (.reg 0) 2)) (.reg 1)), .reg 2]

/-- `glm_ortho_default_lh_no`: include/cglm/clipspace/ortho_lh_no.h:138-149. -/
def glm_ortho_default_lh_no : Fn where
  locals := []
  nregs := 0
  body := 
    .seq (.ite (.fc .le (.flit 1) (.reg 0)) (.seq (.call none glm_ortho_lh_no.locals glm_ortho_lh_no.nregs glm_ortho_lh_no.body [.f1 .neg (.reg 0), .reg 0, .f1 .neg (.flit 1), .flit 1, .f1 .neg (.flit 100), .flit 100, .reg 1]) (.retVoid)) (.skip)) <|
    .seq (.set 0 (.f2 .div (.flit 1) (.reg 0))) <|
    .call none glm_ortho_lh_no.locals glm_ortho_lh_no.nregs glm_ortho_lh_no.body [.f1 .neg (.flit 1), .flit 1, .f1 .neg (.reg 0), .reg 0, .f1 .neg (.flit 100), .flit 100, .reg 1]

/-- `glm_ortho_default_s_lh_no`: include/cglm/clipspace/ortho_lh_no.h:160-181. -/
def glm_ortho_default_s_lh_no : Fn where
  locals := []
  nregs := 0
  body := 
    .seq (.ite (.fc .le (.flit 1) (.reg 0)) (.seq (.call none glm_ortho_lh_no.locals glm_ortho_lh_no.nregs glm_ortho_lh_no.body [.f2 .mul (.f1 .neg (.reg 1)) (.reg 0), .f2 .mul (.reg 1) (.reg 0), .f1 .neg (.reg 1), .reg 1, .f2 .sub (.f1 .neg (.reg 1)) (.flit 100), .f2 .add (.reg 1) (.flit 100), .reg 2]) (.retVoid)) (.skip)) <|
    .call none glm_ortho_lh_no.locals glm_ortho_lh_no.nregs glm_ortho_lh_no.body [.f1 .neg (.reg 1), .reg 1, .f2 .div (.f1 .neg (.reg 1)) (.reg 0), .f2 .div (.reg 1) (.reg 0), .f2 .sub (.f1 .neg (.reg 1)) (.flit 100), .f2 .add (.reg 1) (.flit 100), .reg 2]

end Cglm.C

end ClipspaceOrthoLhNo

section ClipspaceOrthoLhZo

/- Generated from include/cglm/clipspace/ortho_lh_zo.h by tools/memgen.py (memory semantics); do not edit by hand. -/

set_option maxRecDepth 10000

namespace Cglm.C
open CMem

/-- `glm_ortho_lh_zo`: include/cglm/clipspace/ortho_lh_zo.h:47-68. -/
def glm_ortho_lh_zo : Fn where
  locals := []
  nregs := 3
  body := 
    .seq (.call none glm_mat4_zero.locals glm_mat4_zero.nregs glm_mat4_zero.body [.reg 6]) <|
    .seq (.set 7 (.f2 .div (.flit 1) (.f2 .sub (.reg 1) (.reg 0)))) <|
    .seq (.set 8 (.f2 .div (.flit 1) (.f2 .sub (.reg 3) (.reg 2)))) <|
    .seq (.set 9 (.f2 .div (.f1 .neg (.flit 1)) (.f2 .sub (.reg 5) (.reg 4)))) <|
    .seq (.store (.reg 6) (.f2 .mul (.flit 2) (.reg 7))) <|
    .seq (.store (.off (.reg 6) 5) (.f2 .mul (.flit 2) (.reg 8))) <|
    .seq (.store (.off (.reg 6) 10) (.f1 .neg (.reg 9))) <|
    .seq (.store (.off (.reg 6) 12) (.f2 .mul (.f1 .neg (.f2 .add (.reg 1) (.reg 0))) (.reg 7))) <|
    .seq (.store (.off (.reg 6) 13) (.f2 .mul (.f1 .neg (.f2 .add (.reg 3) (.reg 2))) (.reg 8))) <|
    .seq (.store (.off (.reg 6) 14) (.f2 .mul (.reg 4) (.reg 9))) <|
    .store (.off (.reg 6) 15) (.flit 1)

/-- `glm_ortho_aabb_lh_zo`: include/cglm/clipspace/ortho_lh_zo.h:79-86. -/
def glm_ortho_aabb_lh_zo : Fn where
  locals := []
  nregs := 0
  body := .call none glm_ortho_lh_zo.locals glm_ortho_lh_zo.nregs glm_ortho_lh_zo.body [.load (.reg 0), .load (.off (.reg 0) 3), .load (.off (.reg 0) 1), .load (.off (.reg 0) 4), .f1 .neg (.load (.off (.reg 0) 5)), .f1 .neg (.load (.off (.reg 0) 2)), .reg 1]

/-- `glm_ortho_aabb_p_lh_zo`: include/cglm/clipspace/ortho_lh_zo.h:98-105. -/
def glm_ortho_aabb_p_lh_zo : Fn where
  locals := []
  nregs := 0
  body := .call none glm_ortho_lh_zo.locals glm_ortho_lh_zo.nregs glm_ortho_lh_zo.body [.f2 .sub (.load (.reg 0)) (.reg 1), .f2 .add (.load (.off (.reg 0) 3)) (.reg 1), .f2 .sub (.load (.off (.reg 0) 1)) (.reg 1), .f2 .add (.load (.off (.reg 0) 4)) (.reg 1), .f1 .neg (.f2 .add (.load (.off (.reg 0) 5)) (.reg 1)), .f1 .neg (.f2 .sub (.load (.off (.reg 0) 2)) (.reg 1)), .reg 2]

/-- `glm_ortho_aabb_pz_lh_zo`: include/cglm/clipspace/ortho_lh_zo.h:117-124. -/
def glm_ortho_aabb_pz_lh_zo : Fn where
  locals := []
  nregs := 0
  body := .call none glm_ortho_lh_zo.locals glm_ortho_lh_zo.nregs glm_ortho_lh_zo.body [.load (.reg 0), .load (.off (.reg 0) 3), .load (.off (.reg 0) 1), .load (.off (.reg 0) 4), .f1 .neg (.f2 .add (.load (.off (.reg 0) 5)) (.reg 1)), .f1 .neg (.f2 .sub (.load (.off (.reg 0) 2)) (.reg 1)), .reg 2]

/-- `glm_ortho_default_lh_zo`: include/cglm/clipspace/ortho_lh_zo.h:133-144. -/
def glm_ortho_default_lh_zo : Fn where
  locals := []
  nregs := 0
  body := 
    .seq (.ite (.fc .le (.flit 1) (.reg 0)) (.seq (.call none glm_ortho_lh_zo.locals glm_ortho_lh_zo.nregs glm_ortho_lh_zo.body [.f1 .neg (.reg 0), .reg 0, .f1 .neg (.flit 1), .flit 1, .f1 .neg (.flit 100), .flit 100, .reg 1]) (.retVoid)) (.skip)) <|
    .seq (.set 0 (.f2 .div (.flit 1) (.reg 0))) <|
    .call none glm_ortho_lh_zo.locals glm_ortho_lh_zo.nregs glm_ortho_lh_zo.body [.f1 .neg (.flit 1), .flit 1, .f1 .neg (.reg 0), .reg 0, .f1 .neg (.flit 100), .flit 100, .reg 1]

/-- `glm_ortho_default_s_lh_zo`: include/cglm/clipspace/ortho_lh_zo.h:154-175. -/
def glm_ortho_default_s_lh_zo : Fn where
  locals := []
  nregs := 0
  body := 
    .seq (.ite (.fc .le (.flit 1) (.reg 0)) (.seq (.call none glm_ortho_lh_zo.locals glm_ortho_lh_zo.nregs glm_ortho_lh_zo.body [.f2 .mul (.f1 .neg (.reg 1)) (.reg 0), .f2 .mul (.reg 1) (.reg 0), .f1 .neg (.reg 1), .reg 1, .f2 .sub (.f1 .neg (.reg 1)) (.flit 100), .f2 .add (.reg 1) (.flit 100), .reg 2]) (.retVoid)) (.skip)) <|
    .call none glm_ortho_lh_zo.locals glm_ortho_lh_zo.nregs glm_ortho_lh_zo.body [.f1 .neg (.reg 1), .reg 1, .f2 .div (.f1 .neg (.reg 1)) (.reg 0), .f2 .div (.reg 1) (.reg 0), .f2 .sub (.f1 .neg (.reg 1)) (.flit 100), .f2 .add (.reg 1) (.flit 100), .reg 2]

end Cglm.C

end ClipspaceOrthoLhZo

section ClipspaceOrthoRhZo

/- Generated from include/cglm/clipspace/ortho_rh_zo.h by tools/memgen.py (memory semantics); do not edit by hand. -/

set_option maxRecDepth 10000

namespace Cglm.C
open CMem

/-- `glm_ortho_rh_zo`: include/cglm/clipspace/ortho_rh_zo.h:47-68. -/
def glm_ortho_rh_zo : Fn where
  locals := []
  nregs := 3
  body := 
    .seq (.call none glm_mat4_zero.locals glm_mat4_zero.nregs glm_mat4_zero.body [.reg 6]) <|
    .seq (.set 7 (.f2 .div (.flit 1) (.f2 .sub (.reg 1) (.reg 0)))) <|
    .seq (.set 8 (.f2 .div (.flit 1) (.f2 .sub (.reg 3) (.reg 2)))) <|
    .seq (.set 9 (.f2 .div (.f1 .neg (.flit 1)) (.f2 .sub (.reg 5) (.reg 4)))) <|
    .seq (.store (.reg 6) (.f2 .mul (.flit 2) (.reg 7))) <|
    .seq (.store (.off (.reg 6) 5) (.f2 .mul (.flit 2) (.reg 8))) <|
    .seq (.store (.off (.reg 6) 10) (.reg 9)) <|
    .seq (.store (.off (.reg 6) 12) (.f2 .mul (.f1 .neg (.f2 .add (.reg 1) (.reg 0))) (.reg 7))) <|
    .seq (.store (.off (.reg 6) 13) (.f2 .mul (.f1 .neg (.f2 .add (.reg 3) (.reg 2))) (.reg 8))) <|
    .seq (.store (.off (.reg 6) 14) (.f2 .mul (.reg 4) (.reg 9))) <|
    .store (.off (.reg 6) 15) (.flit 1)

/-- `glm_ortho_aabb_rh_zo`: include/cglm/clipspace/ortho_rh_zo.h:80-87. -/
def glm_ortho_aabb_rh_zo : Fn where
  locals := []
  nregs := 0
  body := .call none glm_ortho_rh_zo.locals glm_ortho_rh_zo.nregs glm_ortho_rh_zo.body [.load (.reg 0), .load (.off (.reg 0) 3), .load (.off (.reg 0) 1), .load (.off (.reg 0) 4), .f1 .neg (.load (.off (.reg 0) 5)), .f1 .neg (.load (.off (.reg 0) 2)), .reg 1]

/-- `glm_ortho_aabb_p_rh_zo`: include/cglm/clipspace/ortho_rh_zo.h:100-107. -/
def glm_ortho_aabb_p_rh_zo : Fn where
  locals := []
  nregs := 0
  body := .call none glm_ortho_rh_zo.locals glm_ortho_rh_zo.nregs glm_ortho_rh_zo.body [.f2 .sub (.load (.reg 0)) (.reg 1), .f2 .add (.load (.off (.reg 0) 3)) (.reg 1), .f2 .sub (.load (.off (.reg 0) 1)) (.reg 1), .f2 .add (.load (.off (.reg 0) 4)) (.reg 1), .f1 .neg (.f2 .add (.load (.off (.reg 0) 5)) (.reg 1)), .f1 .neg (.f2 .sub (.load (.off (.reg 0) 2)) (.reg 1)), .reg 2]

/-- `glm_ortho_aabb_pz_rh_zo`: include/cglm/clipspace/ortho_rh_zo.h:120-127. -/
def glm_ortho_aabb_pz_rh_zo : Fn where
  locals := []
  nregs := 0
  body := .call none glm_ortho_rh_zo.locals glm_ortho_rh_zo.nregs glm_ortho_rh_zo.body [.load (.reg 0), .load (.off (.reg 0) 3), .load (.off (.reg 0) 1), .load (.off (.reg 0) 4), .f1 .neg (.f2 .add (.load (.off (.reg 0) 5)) (.reg 1)), .f1 .neg (.f2 .sub (.load (.off (.reg 0) 2)) (.reg 1)), .reg 2]

/-- `glm_ortho_default_rh_zo`: include/cglm/clipspace/ortho_rh_zo.h:136-147. -/
def glm_ortho_default_rh_zo : Fn where
  locals := []
  nregs := 0
  body := 
    .seq (.ite (.fc .le (.flit 1) (.reg 0)) (.seq (.call none glm_ortho_rh_zo.locals glm_ortho_rh_zo.nregs glm_ortho_rh_zo.body [.f1 .neg (.reg 0), .reg 0, .f1 .neg (.flit 1), .flit 1, .f1 .neg (.flit 100), .flit 100, .reg 1]) (.retVoid)) (.skip)) <|
    .seq (.set 0 (.f2 .div (.flit 1) (.reg 0))) <|
    .call none glm_ortho_rh_zo.locals glm_ortho_rh_zo.nregs glm_ortho_rh_zo.body [.f1 .neg (.flit 1), .flit 1, .f1 .neg (.reg 0), .reg 0, .f1 .neg (.flit 100), .flit 100, .reg 1]

/-- `glm_ortho_default_s_rh_zo`: include/cglm/clipspace/ortho_rh_zo.h:158-179. -/
def glm_ortho_default_s_rh_zo : Fn where
  locals := []
  nregs := 0
  body := 
    .seq (.ite (.fc .le (.flit 1) (.reg 0)) (.seq (.call none glm_ortho_rh_zo.locals glm_ortho_rh_zo.nregs glm_ortho_rh_zo.body [.f2 .mul (.f1 .neg (.reg 1)) (.reg 0), .f2 .mul (.reg 1) (.reg 0), .f1 .neg (.reg 1), .reg 1, .f2 .sub (.f1 .neg (.reg 1)) (.flit 100), .f2 .add (.reg 1) (.flit 100), .reg 2]) (.retVoid)) (.skip)) <|
    .call none glm_ortho_rh_zo.locals glm_ortho_rh_zo.nregs glm_ortho_rh_zo.body [.f1 .neg (.reg 1), .reg 1, .f2 .div (.f1 .neg (.reg 1)) (.reg 0), .f2 .div (.reg 1) (.reg 0), .f2 .sub (.f1 .neg (.reg 1)) (.flit 100), .f2 .add (.reg 1) (.flit 100), .reg 2]

end Cglm.C

end ClipspaceOrthoRhZo

section ClipspacePerspLhNo

/- Generated from include/cglm/clipspace/persp_lh_no.h by tools/memgen.py (memory semantics); do not edit by hand. -/

set_option maxRecDepth 10000

namespace Cglm.C
open CMem

/-- `glm_frustum_lh_no`: include/cglm/clipspace/persp_lh_no.h:65-87. -/
def glm_frustum_lh_no : Fn where
  locals := []
  nregs := 4
  body := 
    .seq (.call none glm_mat4_zero.locals glm_mat4_zero.nregs glm_mat4_zero.body [.reg 6]) <|
    .seq (.set 7 (.f2 .div (.flit 1) (.f2 .sub (.reg 1) (.reg 0)))) <|
    .seq (.set 8 (.f2 .div (.flit 1) (.f2 .sub (.reg 3) (.reg 2)))) <|
    .seq (.set 9 (.f2 .div (.f1 .neg (.flit 1)) (.f2 .sub (.reg 5) (.reg 4)))) <|
    .seq (.set 10 (.f2 .mul (.flit 2) (.reg 4))) <|
    .seq (.store (.reg 6) (.f2 .mul (.reg 10) (.reg 7))) <|
    .seq (.store (.off (.reg 6) 5) (.f2 .mul (.reg 10) (.reg 8))) <|
    .seq (.store (.off (.reg 6) 8) (.f2 .mul (.f2 .add (.reg 1) (.reg 0)) (.reg 7))) <|
    .seq (.store (.off (.reg 6) 9) (.f2 .mul (.f2 .add (.reg 3) (.reg 2)) (.reg 8))) <|
    .seq (.store (.off (.reg 6) 10) (.f2 .mul (.f1 .neg (.f2 .add (.reg 5) (.reg 4))) (.reg 9))) <|
    .seq (.store (.off (.reg 6) 11) (.flit 1)) <|
    .store (.off (.reg 6) 14) (.f2 .mul (.f2 .mul (.reg 5) (.reg 10)) (.reg 9))

/-- `glm_perspective_lh_no`: include/cglm/clipspace/persp_lh_no.h:100-120. -/
def glm_perspective_lh_no : Fn where
  locals := []
  nregs := 2
  body := 
    .seq (.call none glm_mat4_zero.locals glm_mat4_zero.nregs glm_mat4_zero.body [.reg 4]) <|
    .seq (.set 5 (.f2 .div (.flit 1) (.f1 .tanf (.f2 .mul (.reg 0) (.flit 0.5))))) <|
    .seq (.set 6 (.f2 .div (.flit 1) (.f2 .sub (.reg 2) (.reg 3)))) <|
    .seq (.store (.reg 4) (.f2 .div (.reg 5) (.reg 1))) <|
    .seq (.store (.off (.reg 4) 5) (.reg 5)) <|
    .seq (.store (.off (.reg 4) 10) (.f2 .mul (.f1 .neg (.f2 .add (.reg 2) (.reg 3))) (.reg 6))) <|
    .seq (.store (.off (.reg 4) 11) (.flit 1)) <|
    .store (.off (.reg 4) 14) (.f2 .mul (.f2 .mul (.f2 .mul (.flit 2) (.reg 2)) (.reg 3)) (.reg 6))

/-- `glm_perspective_default_lh_no`: include/cglm/clipspace/persp_lh_no.h:130-134. -/
def glm_perspective_default_lh_no : Fn where
  locals := []
  nregs := 0
  body := .call none glm_perspective_lh_no.locals glm_perspective_lh_no.nregs glm_perspective_lh_no.body [.flit 0.785398163397448309615660845819875721, .reg 0, .flit 0.01, .flit 100, .reg 1]

/-- `glm_perspective_resize_lh_no`: include/cglm/clipspace/persp_lh_no.h:145-152. -/
def glm_perspective_resize_lh_no : Fn where
  locals := []
  nregs := 0
  body := 
    .seq (.ite (.fc .eq (.load (.reg 1)) (.flit 0)) (.retVoid) (.skip)) <|
    .store (.reg 1) (.f2 .div (.load (.off (.reg 1) 5)) (.reg 0))

/-- `glm_persp_move_far_lh_no`: include/cglm/clipspace/persp_lh_no.h:164-178. -/
def glm_persp_move_far_lh_no : Fn where
  locals := []
  nregs := 5
  body := 
    .seq (.set 5 (.f1 .neg (.load (.off (.reg 0) 10)))) <|
    .seq (.set 6 (.load (.off (.reg 0) 14))) <|
    .seq (.set 4 (.f2 .div (.reg 6) (.f2 .sub (.reg 5) (.flit 1)))) <|
    .seq (.set 3 (.f2 .add (.f2 .div (.reg 6) (.f2 .add (.reg 5) (.flit 1))) (.reg 1))) <|
    .seq (.set 2 (.f2 .div (.flit 1) (.f2 .sub (.reg 4) (.reg 3)))) <|
    .seq (.store (.off (.reg 0) 10) (.f2 .mul (.f1 .neg (.f2 .add (.reg 3) (.reg 4))) (.reg 2))) <|
    .store (.off (.reg 0) 14) (.f2 .mul (.f2 .mul (.f2 .mul (.flit 2) (.reg 4)) (.reg 3)) (.reg 2))

/-- `glm_persp_decomp_lh_no`: include/cglm/clipspace/persp_lh_no.h:193-221. -/
def glm_persp_decomp_lh_no : Fn where
  locals := []
  nregs := 10
  body := 
    .seq (.set 7 (.load (.reg 0))) <|
    .seq (.set 8 (.load (.off (.reg 0) 5))) <|
    .seq (.set 9 (.load (.off (.reg 0) 8))) <|
    .seq (.set 10 (.load (.off (.reg 0) 9))) <|
    .seq (.set 11 (.f1 .neg (.load (.off (.reg 0) 10)))) <|
    .seq (.set 12 (.load (.off (.reg 0) 14))) <|
    .seq (.set 13 (.f2 .div (.reg 12) (.f2 .sub (.reg 11) (.flit 1)))) <|
    .seq (.set 14 (.f2 .div (.reg 12) (.f2 .add (.reg 11) (.flit 1)))) <|
    .seq (.set 15 (.f2 .div (.reg 13) (.reg 8))) <|
    .seq (.set 16 (.f2 .div (.reg 13) (.reg 7))) <|
    .seq (.store (.reg 1) (.reg 13)) <|
    .seq (.store (.reg 2) (.reg 14)) <|
    .seq (.store (.reg 4) (.f2 .mul (.reg 15) (.f2 .sub (.reg 10) (.flit 1)))) <|
    .seq (.store (.reg 3) (.f2 .mul (.reg 15) (.f2 .add (.reg 10) (.flit 1)))) <|
    .seq (.store (.reg 5) (.f2 .mul (.reg 16) (.f2 .sub (.reg 9) (.flit 1)))) <|
    .store (.reg 6) (.f2 .mul (.reg 16) (.f2 .add (.reg 9) (.flit 1)))

/-- `glm_persp_decompv_lh_no`: include/cglm/clipspace/persp_lh_no.h:232-237. -/
def glm_persp_decompv_lh_no : Fn where
  locals := []
  nregs := 0
  body := .call none glm_persp_decomp_lh_no.locals glm_persp_decomp_lh_no.nregs glm_persp_decomp_lh_no.body [.reg 0, .reg 1, .off (.reg 1) 1, .off (.reg 1) 2, .off (.reg 1) 3, .off (.reg 1) 4, .off (.reg 1) 5]

/-- `glm_persp_decomp_x_lh_no`: include/cglm/clipspace/persp_lh_no.h:249-263. -/
def glm_persp_decomp_x_lh_no : Fn where
  locals := []
  nregs := 4
  body := 
    .seq (.set 5 (.load (.reg 0))) <|
    .seq (.set 4 (.load (.off (.reg 0) 8))) <|
    .seq (.set 6 (.f1 .neg (.load (.off (.reg 0) 10)))) <|
    .seq (.set 3 (.f2 .div (.load (.off (.reg 0) 14)) (.f2 .sub (.reg 6) (.flit 1)))) <|
    .seq (.store (.reg 1) (.f2 .div (.f2 .mul (.reg 3) (.f2 .sub (.reg 4) (.flit 1))) (.reg 5))) <|
    .store (.reg 2) (.f2 .div (.f2 .mul (.reg 3) (.f2 .add (.reg 4) (.flit 1))) (.reg 5))

/-- `glm_persp_decomp_y_lh_no`: include/cglm/clipspace/persp_lh_no.h:275-289. -/
def glm_persp_decomp_y_lh_no : Fn where
  locals := []
  nregs := 4
  body := 
    .seq (.set 4 (.load (.off (.reg 0) 9))) <|
    .seq (.set 5 (.load (.off (.reg 0) 5))) <|
    .seq (.set 6 (.f1 .neg (.load (.off (.reg 0) 10)))) <|
    .seq (.set 3 (.f2 .div (.load (.off (.reg 0) 14)) (.f2 .sub (.reg 6) (.flit 1)))) <|
    .seq (.store (.reg 2) (.f2 .div (.f2 .mul (.reg 3) (.f2 .sub (.reg 4) (.flit 1))) (.reg 5))) <|
    .store (.reg 1) (.f2 .div (.f2 .mul (.reg 3) (.f2 .add (.reg 4) (.flit 1))) (.reg 5))

/-- `glm_persp_decomp_z_lh_no`: include/cglm/clipspace/persp_lh_no.h:301-313. -/
def glm_persp_decomp_z_lh_no : Fn where
  locals := []
  nregs := 2
  body := 
    .seq (.set 3 (.load (.off (.reg 0) 14))) <|
    .seq (.set 4 (.f1 .neg (.load (.off (.reg 0) 10)))) <|
    .seq (.store (.reg 1) (.f2 .div (.reg 3) (.f2 .sub (.reg 4) (.flit 1)))) <|
    .store (.reg 2) (.f2 .div (.reg 3) (.f2 .add (.reg 4) (.flit 1)))

/-- `glm_persp_decomp_far_lh_no`: include/cglm/clipspace/persp_lh_no.h:323-327. -/
def glm_persp_decomp_far_lh_no : Fn where
  locals := []
  nregs := 0
  body := .store (.reg 1) (.f2 .div (.load (.off (.reg 0) 14)) (.f2 .add (.f1 .neg (.load (.off (.reg 0) 10))) (.flit 1)))

/-- `glm_persp_decomp_near_lh_no`: include/cglm/clipspace/persp_lh_no.h:337-341. -/
def glm_persp_decomp_near_lh_no : Fn where
  locals := []
  nregs := 0
  body := .store (.reg 1) (.f2 .div (.load (.off (.reg 0) 14)) (.f2 .sub (.f1 .neg (.load (.off (.reg 0) 10))) (.flit 1)))

/-- `glm_persp_sizes_lh_no`: include/cglm/clipspace/persp_lh_no.h:352-366. -/
def glm_persp_sizes_lh_no : Fn where
  locals := [1, 1]
  nregs := 3
  body := 
    .seq (.set 3 (.f2 .mul (.flit 2) (.f1 .tanf (.f2 .mul (.reg 1) (.flit 0.5))))) <|
    .seq (.call (some 5) glm_persp_aspect.locals glm_persp_aspect.nregs glm_persp_aspect.body [.reg 0]) <|
    .seq (.set 4 (.reg 5)) <|
    .seq (.call none glm_persp_decomp_z_lh_no.locals glm_persp_decomp_z_lh_no.nregs glm_persp_decomp_z_lh_no.body [.reg 0, .loc 0, .loc 1]) <|
    .seq (.store (.off (.reg 2) 1) (.f2 .mul (.reg 3) (.load (.loc 0)))) <|
    .seq (.store (.off (.reg 2) 3) (.f2 .mul (.reg 3) (.load (.loc 1)))) <|
    .seq (.store (.reg 2) (.f2 .mul (.reg 4) (.load (.off (.reg 2) 1)))) <|
    .store (.off (.reg 2) 2) (.f2 .mul (.reg 4) (.load (.off (.reg 2) 3)))

/-- `glm_persp_fovy_lh_no`: include/cglm/clipspace/persp_lh_no.h:377-381. -/
def glm_persp_fovy_lh_no : Fn where
  locals := []
  nregs := 1
  body := 
    .seq (.call (some 1) glm_persp_fovy.locals glm_persp_fovy.nregs glm_persp_fovy.body [.reg 0]) <|
    .ret (.reg 1)

/-- `glm_persp_aspect_lh_no`: include/cglm/clipspace/persp_lh_no.h:389-393. -/
def glm_persp_aspect_lh_no : Fn where
  locals := []
  nregs := 1
  body := 
    .seq (.call (some 1) glm_persp_aspect.locals glm_persp_aspect.nregs glm_persp_aspect.body [.reg 0]) <|
    .ret (.reg 1)

end Cglm.C

end ClipspacePerspLhNo

section ClipspacePerspLhZo

/- Generated from include/cglm/clipspace/persp_lh_zo.h by tools/memgen.py (memory semantics); do not edit by hand. -/

set_option maxRecDepth 10000

namespace Cglm.C
open CMem

/-- `glm_frustum_lh_zo`: include/cglm/clipspace/persp_lh_zo.h:64-86. -/
def glm_frustum_lh_zo : Fn where
  locals := []
  nregs := 4
  body := 
    .seq (.call none glm_mat4_zero.locals glm_mat4_zero.nregs glm_mat4_zero.body [.reg 6]) <|
    .seq (.set 7 (.f2 .div (.flit 1) (.f2 .sub (.reg 1) (.reg 0)))) <|
    .seq (.set 8 (.f2 .div (.flit 1) (.f2 .sub (.reg 3) (.reg 2)))) <|
    .seq (.set 9 (.f2 .div (.f1 .neg (.flit 1)) (.f2 .sub (.reg 5) (.reg 4)))) <|
    .seq (.set 10 (.f2 .mul (.flit 2) (.reg 4))) <|
    .seq (.store (.reg 6) (.f2 .mul (.reg 10) (.reg 7))) <|
    .seq (.store (.off (.reg 6) 5) (.f2 .mul (.reg 10) (.reg 8))) <|
    .seq (.store (.off (.reg 6) 8) (.f2 .mul (.f2 .add (.reg 1) (.reg 0)) (.reg 7))) <|
    .seq (.store (.off (.reg 6) 9) (.f2 .mul (.f2 .add (.reg 3) (.reg 2)) (.reg 8))) <|
    .seq (.store (.off (.reg 6) 10) (.f2 .mul (.f1 .neg (.reg 5)) (.reg 9))) <|
    .seq (.store (.off (.reg 6) 11) (.flit 1)) <|
    .store (.off (.reg 6) 14) (.f2 .mul (.f2 .mul (.reg 5) (.reg 4)) (.reg 9))

/-- `glm_perspective_lh_zo`: include/cglm/clipspace/persp_lh_zo.h:98-117. -/
def glm_perspective_lh_zo : Fn where
  locals := []
  nregs := 2
  body := 
    .seq (.call none glm_mat4_zero.locals glm_mat4_zero.nregs glm_mat4_zero.body [.reg 4]) <|
    .seq (.set 5 (.f2 .div (.flit 1) (.f1 .tanf (.f2 .mul (.reg 0) (.flit 0.5))))) <|
    .seq (.set 6 (.f2 .div (.flit 1) (.f2 .sub (.reg 2) (.reg 3)))) <|
    .seq (.store (.reg 4) (.f2 .div (.reg 5) (.reg 1))) <|
    .seq (.store (.off (.reg 4) 5) (.reg 5)) <|
    .seq (.store (.off (.reg 4) 10) (.f2 .mul (.f1 .neg (.reg 3)) (.reg 6))) <|
    .seq (.store (.off (.reg 4) 11) (.flit 1)) <|
    .store (.off (.reg 4) 14) (.f2 .mul (.f2 .mul (.reg 2) (.reg 3)) (.reg 6))

/-- `glm_persp_move_far_lh_zo`: include/cglm/clipspace/persp_lh_zo.h:129-143. -/
def glm_persp_move_far_lh_zo : Fn where
  locals := []
  nregs := 5
  body := 
    .seq (.set 5 (.f1 .neg (.load (.off (.reg 0) 10)))) <|
    .seq (.set 6 (.load (.off (.reg 0) 14))) <|
    .seq (.set 4 (.f2 .div (.reg 6) (.reg 5))) <|
    .seq (.set 3 (.f2 .add (.f2 .div (.reg 6) (.f2 .add (.reg 5) (.flit 1))) (.reg 1))) <|
    .seq (.set 2 (.f2 .div (.flit 1) (.f2 .sub (.reg 4) (.reg 3)))) <|
    .seq (.store (.off (.reg 0) 10) (.f2 .mul (.f1 .neg (.reg 3)) (.reg 2))) <|
    .store (.off (.reg 0) 14) (.f2 .mul (.f2 .mul (.reg 4) (.reg 3)) (.reg 2))

/-- `glm_perspective_default_lh_zo`: include/cglm/clipspace/persp_lh_zo.h:153-157. -/
def glm_perspective_default_lh_zo : Fn where
  locals := []
  nregs := 0
  body := .call none glm_perspective_lh_zo.locals glm_perspective_lh_zo.nregs glm_perspective_lh_zo.body [.flit 0.785398163397448309615660845819875721, .reg 0, .flit 0.01, .flit 100, .reg 1]

/-- `glm_perspective_resize_lh_zo`: include/cglm/clipspace/persp_lh_zo.h:167-174. -/
def glm_perspective_resize_lh_zo : Fn where
  locals := []
  nregs := 0
  body := 
    .seq (.ite (.fc .eq (.load (.reg 1)) (.flit 0)) (.retVoid) (.skip)) <|
    .store (.reg 1) (.f2 .div (.load (.off (.reg 1) 5)) (.reg 0))

/-- `glm_persp_decomp_lh_zo`: include/cglm/clipspace/persp_lh_zo.h:189-217. -/
def glm_persp_decomp_lh_zo : Fn where
  locals := []
  nregs := 10
  body := 
    .seq (.set 7 (.load (.reg 0))) <|
    .seq (.set 8 (.load (.off (.reg 0) 5))) <|
    .seq (.set 9 (.load (.off (.reg 0) 8))) <|
    .seq (.set 10 (.load (.off (.reg 0) 9))) <|
    .seq (.set 11 (.f1 .neg (.load (.off (.reg 0) 10)))) <|
    .seq (.set 12 (.load (.off (.reg 0) 14))) <|
    .seq (.set 13 (.f2 .div (.reg 12) (.reg 11))) <|
    .seq (.set 14 (.f2 .div (.reg 12) (.f2 .add (.reg 11) (.flit 1)))) <|
    .seq (.set 15 (.f2 .div (.reg 13) (.reg 8))) <|
    .seq (.set 16 (.f2 .div (.reg 13) (.reg 7))) <|
    .seq (.store (.reg 1) (.reg 13)) <|
    .seq (.store (.reg 2) (.reg 14)) <|
    .seq (.store (.reg 4) (.f2 .mul (.reg 15) (.f2 .sub (.reg 10) (.flit 1)))) <|
    .seq (.store (.reg 3) (.f2 .mul (.reg 15) (.f2 .add (.reg 10) (.flit 1)))) <|
    .seq (.store (.reg 5) (.f2 .mul (.reg 16) (.f2 .sub (.reg 9) (.flit 1)))) <|
    .store (.reg 6) (.f2 .mul (.reg 16) (.f2 .add (.reg 9) (.flit 1)))

/-- `glm_persp_decompv_lh_zo`: include/cglm/clipspace/persp_lh_zo.h:228-233. -/
def glm_persp_decompv_lh_zo : Fn where
  locals := []
  nregs := 0
  body := .call none glm_persp_decomp_lh_zo.locals glm_persp_decomp_lh_zo.nregs glm_persp_decomp_lh_zo.body [.reg 0, .reg 1, .off (.reg 1) 1, .off (.reg 1) 2, .off (.reg 1) 3, .off (.reg 1) 4, .off (.reg 1) 5]

/-- `glm_persp_decomp_x_lh_zo`: include/cglm/clipspace/persp_lh_zo.h:243-256. -/
def glm_persp_decomp_x_lh_zo : Fn where
  locals := []
  nregs := 3
  body := 
    .seq (.set 5 (.load (.reg 0))) <|
    .seq (.set 4 (.load (.off (.reg 0) 8))) <|
    .seq (.set 3 (.f2 .div (.load (.off (.reg 0) 14)) (.load (.off (.reg 0) 15)))) <|
    .seq (.store (.reg 1) (.f2 .div (.f2 .mul (.reg 3) (.f2 .sub (.reg 4) (.flit 1))) (.reg 5))) <|
    .store (.reg 2) (.f2 .div (.f2 .mul (.reg 3) (.f2 .add (.reg 4) (.flit 1))) (.reg 5))

/-- `glm_persp_decomp_y_lh_zo`: include/cglm/clipspace/persp_lh_zo.h:268-281. -/
def glm_persp_decomp_y_lh_zo : Fn where
  locals := []
  nregs := 3
  body := 
    .seq (.set 4 (.load (.off (.reg 0) 9))) <|
    .seq (.set 5 (.load (.off (.reg 0) 5))) <|
    .seq (.set 3 (.f2 .div (.load (.off (.reg 0) 14)) (.load (.off (.reg 0) 15)))) <|
    .seq (.store (.reg 2) (.f2 .div (.f2 .mul (.reg 3) (.f2 .sub (.reg 4) (.flit 1))) (.reg 5))) <|
    .store (.reg 1) (.f2 .div (.f2 .mul (.reg 3) (.f2 .add (.reg 4) (.flit 1))) (.reg 5))

/-- `glm_persp_decomp_z_lh_zo`: include/cglm/clipspace/persp_lh_zo.h:293-305. -/
def glm_persp_decomp_z_lh_zo : Fn where
  locals := []
  nregs := 2
  body := 
    .seq (.set 3 (.load (.off (.reg 0) 14))) <|
    .seq (.set 4 (.f1 .neg (.load (.off (.reg 0) 10)))) <|
    .seq (.store (.reg 1) (.f2 .div (.reg 3) (.reg 4))) <|
    .store (.reg 2) (.f2 .div (.reg 3) (.f2 .add (.reg 4) (.flit 1)))

/-- `glm_persp_decomp_far_lh_zo`: include/cglm/clipspace/persp_lh_zo.h:315-319. -/
def glm_persp_decomp_far_lh_zo : Fn where
  locals := []
  nregs := 0
  body := .store (.reg 1) (.f2 .div (.load (.off (.reg 0) 14)) (.f2 .add (.f1 .neg (.load (.off (.reg 0) 10))) (.flit 1)))

/-- `glm_persp_decomp_near_lh_zo`: include/cglm/clipspace/persp_lh_zo.h:329-333. -/
def glm_persp_decomp_near_lh_zo : Fn where
  locals := []
  nregs := 0
  body := .store (.reg 1) (.f2 .div (.load (.off (.reg 0) 14)) (.f1 .neg (.load (.off (.reg 0) 10))))

/-- `glm_persp_sizes_lh_zo`: include/cglm/clipspace/persp_lh_zo.h:344-358. -/
def glm_persp_sizes_lh_zo : Fn where
  locals := [1, 1]
  nregs := 3
  body := 
    .seq (.set 3 (.f2 .mul (.flit 2) (.f1 .tanf (.f2 .mul (.reg 1) (.flit 0.5))))) <|
    .seq (.call (some 5) glm_persp_aspect.locals glm_persp_aspect.nregs glm_persp_aspect.body [.reg 0]) <|
    .seq (.set 4 (.reg 5)) <|
    .seq (.call none glm_persp_decomp_z_lh_zo.locals glm_persp_decomp_z_lh_zo.nregs glm_persp_decomp_z_lh_zo.body [.reg 0, .loc 0, .loc 1]) <|
    .seq (.store (.off (.reg 2) 1) (.f2 .mul (.reg 3) (.load (.loc 0)))) <|
    .seq (.store (.off (.reg 2) 3) (.f2 .mul (.reg 3) (.load (.loc 1)))) <|
    .seq (.store (.reg 2) (.f2 .mul (.reg 4) (.load (.off (.reg 2) 1)))) <|
    .store (.off (.reg 2) 2) (.f2 .mul (.reg 4) (.load (.off (.reg 2) 3)))

/-- `glm_persp_fovy_lh_zo`: include/cglm/clipspace/persp_lh_zo.h:369-373. -/
def glm_persp_fovy_lh_zo : Fn where
  locals := []
  nregs := 1
  body := 
    .seq (.call (some 1) glm_persp_fovy.locals glm_persp_fovy.nregs glm_persp_fovy.body [.reg 0]) <|
    .ret (.reg 1)

/-- `glm_persp_aspect_lh_zo`: include/cglm/clipspace/persp_lh_zo.h:381-385. -/
def glm_persp_aspect_lh_zo : Fn where
  locals := []
  nregs := 1
  body := 
    .seq (.call (some 1) glm_persp_aspect.locals glm_persp_aspect.nregs glm_persp_aspect.body [.reg 0]) <|
    .ret (.reg 1)

end Cglm.C

end ClipspacePerspLhZo

section ClipspacePerspRhZo

/- Generated from include/cglm/clipspace/persp_rh_zo.h by tools/memgen.py (memory semantics); do not edit by hand. -/

set_option maxRecDepth 10000

namespace Cglm.C
open CMem

/-- `glm_frustum_rh_zo`: include/cglm/clipspace/persp_rh_zo.h:64-86. -/
def glm_frustum_rh_zo : Fn where
  locals := []
  nregs := 4
  body := 
    .seq (.call none glm_mat4_zero.locals glm_mat4_zero.nregs glm_mat4_zero.body [.reg 6]) <|
    .seq (.set 7 (.f2 .div (.flit 1) (.f2 .sub (.reg 1) (.reg 0)))) <|
    .seq (.set 8 (.f2 .div (.flit 1) (.f2 .sub (.reg 3) (.reg 2)))) <|
    .seq (.set 9 (.f2 .div (.f1 .neg (.flit 1)) (.f2 .sub (.reg 5) (.reg 4)))) <|
    .seq (.set 10 (.f2 .mul (.flit 2) (.reg 4))) <|
    .seq (.store (.reg 6) (.f2 .mul (.reg 10) (.reg 7))) <|
    .seq (.store (.off (.reg 6) 5) (.f2 .mul (.reg 10) (.reg 8))) <|
    .seq (.store (.off (.reg 6) 8) (.f2 .mul (.f2 .add (.reg 1) (.reg 0)) (.reg 7))) <|
    .seq (.store (.off (.reg 6) 9) (.f2 .mul (.f2 .add (.reg 3) (.reg 2)) (.reg 8))) <|
    .seq (.store (.off (.reg 6) 10) (.f2 .mul (.reg 5) (.reg 9))) <|
    .seq (.store (.off (.reg 6) 11) (.f1 .neg (.flit 1))) <|
    .store (.off (.reg 6) 14) (.f2 .mul (.f2 .mul (.reg 5) (.reg 4)) (.reg 9))

/-- `glm_perspective_rh_zo`: include/cglm/clipspace/persp_rh_zo.h:98-117. -/
def glm_perspective_rh_zo : Fn where
  locals := []
  nregs := 2
  body := 
    .seq (.call none glm_mat4_zero.locals glm_mat4_zero.nregs glm_mat4_zero.body [.reg 4]) <|
    .seq (.set 5 (.f2 .div (.flit 1) (.f1 .tanf (.f2 .mul (.reg 0) (.flit 0.5))))) <|
    .seq (.set 6 (.f2 .div (.flit 1) (.f2 .sub (.reg 2) (.reg 3)))) <|
    .seq (.store (.reg 4) (.f2 .div (.reg 5) (.reg 1))) <|
    .seq (.store (.off (.reg 4) 5) (.reg 5)) <|
    .seq (.store (.off (.reg 4) 10) (.f2 .mul (.reg 3) (.reg 6))) <|
    .seq (.store (.off (.reg 4) 11) (.f1 .neg (.flit 1))) <|
    .store (.off (.reg 4) 14) (.f2 .mul (.f2 .mul (.reg 2) (.reg 3)) (.reg 6))

/-- `glm_perspective_default_rh_zo`: include/cglm/clipspace/persp_rh_zo.h:127-131. -/
def glm_perspective_default_rh_zo : Fn where
  locals := []
  nregs := 0
  body := .call none glm_perspective_rh_zo.locals glm_perspective_rh_zo.nregs glm_perspective_rh_zo.body [.flit 0.785398163397448309615660845819875721, .reg 0, .flit 0.01, .flit 100, .reg 1]

/-- `glm_perspective_resize_rh_zo`: include/cglm/clipspace/persp_rh_zo.h:142-149. -/
def glm_perspective_resize_rh_zo : Fn where
  locals := []
  nregs := 0
  body := 
    .seq (.ite (.fc .eq (.load (.reg 1)) (.flit 0)) (.retVoid) (.skip)) <|
    .store (.reg 1) (.f2 .div (.load (.off (.reg 1) 5)) (.reg 0))

/-- `glm_persp_move_far_rh_zo`: include/cglm/clipspace/persp_rh_zo.h:160-174. -/
def glm_persp_move_far_rh_zo : Fn where
  locals := []
  nregs := 5
  body := 
    .seq (.set 5 (.load (.off (.reg 0) 10))) <|
    .seq (.set 6 (.load (.off (.reg 0) 14))) <|
    .seq (.set 4 (.f2 .div (.reg 6) (.reg 5))) <|
    .seq (.set 3 (.f2 .add (.f2 .div (.reg 6) (.f2 .add (.reg 5) (.flit 1))) (.reg 1))) <|
    .seq (.set 2 (.f2 .div (.flit 1) (.f2 .sub (.reg 4) (.reg 3)))) <|
    .seq (.store (.off (.reg 0) 10) (.f2 .mul (.reg 3) (.reg 2))) <|
    .store (.off (.reg 0) 14) (.f2 .mul (.f2 .mul (.reg 4) (.reg 3)) (.reg 2))

/-- `glm_persp_decomp_rh_zo`: include/cglm/clipspace/persp_rh_zo.h:189-217. -/
def glm_persp_decomp_rh_zo : Fn where
  locals := []
  nregs := 10
  body := 
    .seq (.set 7 (.load (.reg 0))) <|
    .seq (.set 8 (.load (.off (.reg 0) 5))) <|
    .seq (.set 9 (.load (.off (.reg 0) 8))) <|
    .seq (.set 10 (.load (.off (.reg 0) 9))) <|
    .seq (.set 11 (.load (.off (.reg 0) 10))) <|
    .seq (.set 12 (.load (.off (.reg 0) 14))) <|
    .seq (.set 13 (.f2 .div (.reg 12) (.reg 11))) <|
    .seq (.set 14 (.f2 .div (.reg 12) (.f2 .add (.reg 11) (.flit 1)))) <|
    .seq (.set 15 (.f2 .div (.reg 13) (.reg 8))) <|
    .seq (.set 16 (.f2 .div (.reg 13) (.reg 7))) <|
    .seq (.store (.reg 1) (.reg 13)) <|
    .seq (.store (.reg 2) (.reg 14)) <|
    .seq (.store (.reg 4) (.f2 .mul (.reg 15) (.f2 .sub (.reg 10) (.flit 1)))) <|
    .seq (.store (.reg 3) (.f2 .mul (.reg 15) (.f2 .add (.reg 10) (.flit 1)))) <|
    .seq (.store (.reg 5) (.f2 .mul (.reg 16) (.f2 .sub (.reg 9) (.flit 1)))) <|
    .store (.reg 6) (.f2 .mul (.reg 16) (.f2 .add (.reg 9) (.flit 1)))

/-- `glm_persp_decompv_rh_zo`: include/cglm/clipspace/persp_rh_zo.h:228-233. -/
def glm_persp_decompv_rh_zo : Fn where
  locals := []
  nregs := 0
  body := .call none glm_persp_decomp_rh_zo.locals glm_persp_decomp_rh_zo.nregs glm_persp_decomp_rh_zo.body [.reg 0, .reg 1, .off (.reg 1) 1, .off (.reg 1) 2, .off (.reg 1) 3, .off (.reg 1) 4, .off (.reg 1) 5]

/-- `glm_persp_decomp_x_rh_zo`: include/cglm/clipspace/persp_rh_zo.h:243-257. -/
def glm_persp_decomp_x_rh_zo : Fn where
  locals := []
  nregs := 4
  body := 
    .seq (.set 5 (.load (.reg 0))) <|
    .seq (.set 4 (.load (.off (.reg 0) 8))) <|
    .seq (.set 6 (.load (.off (.reg 0) 10))) <|
    .seq (.set 3 (.f2 .div (.load (.off (.reg 0) 14)) (.reg 6))) <|
    .seq (.store (.reg 1) (.f2 .div (.f2 .mul (.reg 3) (.f2 .sub (.reg 4) (.flit 1))) (.reg 5))) <|
    .store (.reg 2) (.f2 .div (.f2 .mul (.reg 3) (.f2 .add (.reg 4) (.flit 1))) (.reg 5))

/-- `glm_persp_decomp_y_rh_zo`: include/cglm/clipspace/persp_rh_zo.h:269-283. -/
def glm_persp_decomp_y_rh_zo : Fn where
  locals := []
  nregs := 4
  body := 
    .seq (.set 4 (.load (.off (.reg 0) 9))) <|
    .seq (.set 5 (.load (.off (.reg 0) 5))) <|
    .seq (.set 6 (.load (.off (.reg 0) 10))) <|
    .seq (.set 3 (.f2 .div (.load (.off (.reg 0) 14)) (.reg 6))) <|
    .seq (.store (.reg 2) (.f2 .div (.f2 .mul (.reg 3) (.f2 .sub (.reg 4) (.flit 1))) (.reg 5))) <|
    .store (.reg 1) (.f2 .div (.f2 .mul (.reg 3) (.f2 .add (.reg 4) (.flit 1))) (.reg 5))

/-- `glm_persp_decomp_z_rh_zo`: include/cglm/clipspace/persp_rh_zo.h:295-307. -/
def glm_persp_decomp_z_rh_zo : Fn where
  locals := []
  nregs := 2
  body := 
    .seq (.set 3 (.load (.off (.reg 0) 14))) <|
    .seq (.set 4 (.load (.off (.reg 0) 10))) <|
    .seq (.store (.reg 1) (.f2 .div (.reg 3) (.reg 4))) <|
    .store (.reg 2) (.f2 .div (.reg 3) (.f2 .add (.reg 4) (.flit 1)))

/-- `glm_persp_decomp_far_rh_zo`: include/cglm/clipspace/persp_rh_zo.h:317-321. -/
def glm_persp_decomp_far_rh_zo : Fn where
  locals := []
  nregs := 0
  body := .store (.reg 1) (.f2 .div (.load (.off (.reg 0) 14)) (.f2 .add (.load (.off (.reg 0) 10)) (.flit 1)))

/-- `glm_persp_decomp_near_rh_zo`: include/cglm/clipspace/persp_rh_zo.h:331-335. -/
def glm_persp_decomp_near_rh_zo : Fn where
  locals := []
  nregs := 0
  body := .store (.reg 1) (.f2 .div (.load (.off (.reg 0) 14)) (.load (.off (.reg 0) 10)))

/-- `glm_persp_sizes_rh_zo`: include/cglm/clipspace/persp_rh_zo.h:346-360. -/
def glm_persp_sizes_rh_zo : Fn where
  locals := [1, 1]
  nregs := 3
  body := 
    .seq (.set 3 (.f2 .mul (.flit 2) (.f1 .tanf (.f2 .mul (.reg 1) (.flit 0.5))))) <|
    .seq (.call (some 5) glm_persp_aspect.locals glm_persp_aspect.nregs glm_persp_aspect.body [.reg 0]) <|
    .seq (.set 4 (.reg 5)) <|
    .seq (.call none glm_persp_decomp_z_rh_zo.locals glm_persp_decomp_z_rh_zo.nregs glm_persp_decomp_z_rh_zo.body [.reg 0, .loc 0, .loc 1]) <|
    .seq (.store (.off (.reg 2) 1) (.f2 .mul (.reg 3) (.load (.loc 0)))) <|
    .seq (.store (.off (.reg 2) 3) (.f2 .mul (.reg 3) (.load (.loc 1)))) <|
    .seq (.store (.reg 2) (.f2 .mul (.reg 4) (.load (.off (.reg 2) 1)))) <|
    .store (.off (.reg 2) 2) (.f2 .mul (.reg 4) (.load (.off (.reg 2) 3)))

/-- `glm_persp_fovy_rh_zo`: include/cglm/clipspace/persp_rh_zo.h:371-375. -/
def glm_persp_fovy_rh_zo : Fn where
  locals := []
  nregs := 1
  body := 
    .seq (.call (some 1) glm_persp_fovy.locals glm_persp_fovy.nregs glm_persp_fovy.body [.reg 0]) <|
    .ret (.reg 1)

/-- `glm_persp_aspect_rh_zo`: include/cglm/clipspace/persp_rh_zo.h:383-387. -/
def glm_persp_aspect_rh_zo : Fn where
  locals := []
  nregs := 1
  body := 
    .seq (.call (some 1) glm_persp_aspect.locals glm_persp_aspect.nregs glm_persp_aspect.body [.reg 0]) <|
    .ret (.reg 1)

end Cglm.C

end ClipspacePerspRhZo

section ClipspaceProjectNo

/- Generated from include/cglm/clipspace/project_no.h by tools/memgen.py (memory semantics); do not edit by hand. -/

set_option maxRecDepth 10000

namespace Cglm.C
open CMem

/-- `glm_unprojecti_no`: include/cglm/clipspace/project_no.h:42-55. -/
def glm_unprojecti_no : Fn where
  locals := [4]
  nregs := 0
  body := 
    .seq (.store (.loc 0) (.f2 .sub (.f2 .div (.f2 .mul (.flit 2) (.f2 .sub (.load (.reg 0)) (.load (.reg 2)))) (.load (.off (.reg 2) 2))) (.flit 1))) <|
    .seq (.store (.off (.loc 0) 1) (.f2 .sub (.f2 .div (.f2 .mul (.flit 2) (.f2 .sub (.load (.off (.reg 0) 1)) (.load (.off (.reg 2) 1)))) (.load (.off (.reg 2) 3))) (.flit 1))) <|
    .seq (.store (.off (.loc 0) 2) (.f2 .sub (.f2 .mul (.flit 2) (.load (.off (.reg 0) 2))) (.flit 1))) <|
    .seq (.store (.off (.loc 0) 3) (.flit 1)) <|
    .seq (.call none glm_mat4_mulv.locals glm_mat4_mulv.nregs glm_mat4_mulv.body [.reg 1, .loc 0, .loc 0]) <|
    .seq (.call none glm_vec4_scale.locals glm_vec4_scale.nregs glm_vec4_scale.body [.loc 0, .f2 .div (.flit 1) (.load (.off (.loc 0) 3)), .loc 0]) <|
    .call none glm_vec3.locals glm_vec3.nregs glm_vec3.body [.loc 0, .reg 3]

/-- `glm_project_no`: include/cglm/clipspace/project_no.h:69-84. -/
def glm_project_no : Fn where
  locals := [4]
  nregs := 0
  body := 
    .seq (.call none glm_vec4.locals glm_vec4.nregs glm_vec4.body [.reg 0, .flit 1, .loc 0]) <|
    .seq (.call none glm_mat4_mulv.locals glm_mat4_mulv.nregs glm_mat4_mulv.body [.reg 1, .loc 0, .loc 0]) <|
    .seq (.call none glm_vec4_scale.locals glm_vec4_scale.nregs glm_vec4_scale.body [.loc 0, .f2 .div (.flit 1) (.load (.off (.loc 0) 3)), .loc 0]) <|
    .seq (.call none glm_vec4_scale.locals glm_vec4_scale.nregs glm_vec4_scale.body [.loc 0, .flit 0.5, .loc 0]) <|
    .seq (.call none glm_vec4_adds.locals glm_vec4_adds.nregs glm_vec4_adds.body [.loc 0, .flit 0.5, .loc 0]) <|
    .seq (.store (.reg 3) (.f2 .add (.f2 .mul (.load (.loc 0)) (.load (.off (.reg 2) 2))) (.load (.reg 2)))) <|
    .seq (.store (.off (.reg 3) 1) (.f2 .add (.f2 .mul (.load (.off (.loc 0) 1)) (.load (.off (.reg 2) 3))) (.load (.off (.reg 2) 1)))) <|
    .store (.off (.reg 3) 2) (.load (.off (.loc 0) 2))

/-- `glm_project_z_no`: include/cglm/clipspace/project_no.h:98-107. -/
def glm_project_z_no : Fn where
  locals := []
  nregs := 2
  body := 
    .seq (.set 2 (.f2 .add (.f2 .add (.f2 .add (.f2 .mul (.load (.off (.reg 1) 2)) (.load (.reg 0))) (.f2 .mul (.load (.off (.reg 1) 6)) (.load (.off (.reg 0) 1)))) (.f2 .mul (.load (.off (.reg 1) 10)) (.load (.off (.reg 0) 2)))) (.load (.off (.reg 1) 14)))) <|
    .seq (.set 3 (.f2 .add (.f2 .add (.f2 .add (.f2 .mul (.load (.off (.reg 1) 3)) (.load (.reg 0))) (.f2 .mul (.load (.off (.reg 1) 7)) (.load (.off (.reg 0) 1)))) (.f2 .mul (.load (.off (.reg 1) 11)) (.load (.off (.reg 0) 2)))) (.load (.off (.reg 1) 15)))) <|
    .ret (.f2 .add (.f2 .mul (.flit 0.5) (.f2 .div (.reg 2) (.reg 3))) (.flit 0.5))

end Cglm.C

end ClipspaceProjectNo

section ClipspaceProjectZo

/- Generated from include/cglm/clipspace/project_zo.h by tools/memgen.py (memory semantics); do not edit by hand. -/

set_option maxRecDepth 10000

namespace Cglm.C
open CMem

/-- `glm_unprojecti_zo`: include/cglm/clipspace/project_zo.h:42-55. -/
def glm_unprojecti_zo : Fn where
  locals := [4]
  nregs := 0
  body := 
    .seq (.store (.loc 0) (.f2 .sub (.f2 .div (.f2 .mul (.flit 2) (.f2 .sub (.load (.reg 0)) (.load (.reg 2)))) (.load (.off (.reg 2) 2))) (.flit 1))) <|
    .seq (.store (.off (.loc 0) 1) (.f2 .sub (.f2 .div (.f2 .mul (.flit 2) (.f2 .sub (.load (.off (.reg 0) 1)) (.load (.off (.reg 2) 1)))) (.load (.off (.reg 2) 3))) (.flit 1))) <|
    .seq (.store (.off (.loc 0) 2) (.load (.off (.reg 0) 2))) <|
    .seq (.store (.off (.loc 0) 3) (.flit 1)) <|
    .seq (.call none glm_mat4_mulv.locals glm_mat4_mulv.nregs glm_mat4_mulv.body [.reg 1, .loc 0, .loc 0]) <|
    .seq (.call none glm_vec4_scale.locals glm_vec4_scale.nregs glm_vec4_scale.body [.loc 0, .f2 .div (.flit 1) (.load (.off (.loc 0) 3)), .loc 0]) <|
    .call none glm_vec3.locals glm_vec3.nregs glm_vec3.body [.loc 0, .reg 3]

/-- `glm_project_zo`: include/cglm/clipspace/project_zo.h:69-86. -/
def glm_project_zo : Fn where
  locals := [4]
  nregs := 0
  body := 
    .seq (.call none glm_vec4.locals glm_vec4.nregs glm_vec4.body [.reg 0, .flit 1, .loc 0]) <|
    .seq (.call none glm_mat4_mulv.locals glm_mat4_mulv.nregs glm_mat4_mulv.body [.reg 1, .loc 0, .loc 0]) <|
    .seq (.call none glm_vec4_scale.locals glm_vec4_scale.nregs glm_vec4_scale.body [.loc 0, .f2 .div (.flit 1) (.load (.off (.loc 0) 3)), .loc 0]) <|
    .seq (.store (.off (.reg 3) 2) (.load (.off (.loc 0) 2))) <|
    .seq (.call none glm_vec4_scale.locals glm_vec4_scale.nregs glm_vec4_scale.body [.loc 0, .flit 0.5, .loc 0]) <|
    .seq (.call none glm_vec4_adds.locals glm_vec4_adds.nregs glm_vec4_adds.body [.loc 0, .flit 0.5, .loc 0]) <|
    .seq (.store (.reg 3) (.f2 .add (.f2 .mul (.load (.loc 0)) (.load (.off (.reg 2) 2))) (.load (.reg 2)))) <|
    .store (.off (.reg 3) 1) (.f2 .add (.f2 .mul (.load (.off (.loc 0) 1)) (.load (.off (.reg 2) 3))) (.load (.off (.reg 2) 1)))

/-- `glm_project_z_zo`: include/cglm/clipspace/project_zo.h:100-109. -/
def glm_project_z_zo : Fn where
  locals := []
  nregs := 2
  body := 
    .seq (.set 2 (.f2 .add (.f2 .add (.f2 .add (.f2 .mul (.load (.off (.reg 1) 2)) (.load (.reg 0))) (.f2 .mul (.load (.off (.reg 1) 6)) (.load (.off (.reg 0) 1)))) (.f2 .mul (.load (.off (.reg 1) 10)) (.load (.off (.reg 0) 2)))) (.load (.off (.reg 1) 14)))) <|
    .seq (.set 3 (.f2 .add (.f2 .add (.f2 .add (.f2 .mul (.load (.off (.reg 1) 3)) (.load (.reg 0))) (.f2 .mul (.load (.off (.reg 1) 7)) (.load (.off (.reg 0) 1)))) (.f2 .mul (.load (.off (.reg 1) 11)) (.load (.off (.reg 0) 2)))) (.load (.off (.reg 1) 15)))) <|
    .ret (.f2 .div (.reg 2) (.reg 3))

end Cglm.C

end ClipspaceProjectZo

section ClipspaceViewLh

/- Generated from include/cglm/clipspace/view_lh.h by tools/memgen.py (memory semantics); do not edit by hand. -/

set_option maxRecDepth 10000

namespace Cglm.C
open CMem

/-- `glm_lookat_lh`: include/cglm/clipspace/view_lh.h:32-57. -/
def glm_lookat_lh : Fn where
  locals := [3, 3, 3]
  nregs := 3
  body := 
    .seq (.call none glm_vec3_sub.locals glm_vec3_sub.nregs glm_vec3_sub.body [.reg 1, .reg 0, .loc 0]) <|
    .seq (.call none glm_vec3_normalize.locals glm_vec3_normalize.nregs glm_vec3_normalize.body [.loc 0]) <|
    .seq (.call none glm_vec3_crossn.locals glm_vec3_crossn.nregs glm_vec3_crossn.body [.reg 2, .loc 0, .loc 2]) <|
    .seq (.call none glm_vec3_cross.locals glm_vec3_cross.nregs glm_vec3_cross.body [.loc 0, .loc 2, .loc 1]) <|
    .seq (.store (.reg 3) (.load (.loc 2))) <|
    .seq (.store (.off (.reg 3) 1) (.load (.loc 1))) <|
    .seq (.store (.off (.reg 3) 2) (.load (.loc 0))) <|
    .seq (.store (.off (.reg 3) 4) (.load (.off (.loc 2) 1))) <|
    .seq (.store (.off (.reg 3) 5) (.load (.off (.loc 1) 1))) <|
    .seq (.store (.off (.reg 3) 6) (.load (.off (.loc 0) 1))) <|
    .seq (.store (.off (.reg 3) 8) (.load (.off (.loc 2) 2))) <|
    .seq (.store (.off (.reg 3) 9) (.load (.off (.loc 1) 2))) <|
    .seq (.store (.off (.reg 3) 10) (.load (.off (.loc 0) 2))) <|
    .seq (.call (some 4) glm_vec3_dot.locals glm_vec3_dot.nregs glm_vec3_dot.body [.loc 2, .reg 0]) <|
    .seq (.store (.off (.reg 3) 12) (.f1 .neg (.reg 4))) <|
    .seq (.call (some 5) glm_vec3_dot.locals glm_vec3_dot.nregs glm_vec3_dot.body [.loc 1, .reg 0]) <|
    .seq (.store (.off (.reg 3) 13) (.f1 .neg (.reg 5))) <|
    .seq (.call (some 6) glm_vec3_dot.locals glm_vec3_dot.nregs glm_vec3_dot.body [.loc 0, .reg 0]) <|
    .seq (.store (.off (.reg 3) 14) (.f1 .neg (.reg 6))) <|
    .seq (.store (.off (.reg 3) 11) (.flit 0)) <|
    .seq (.store (.off (.reg 3) 7) (.load (.off (.reg 3) 11))) <|
    .seq (.store (.off (.reg 3) 3) (.load (.off (.reg 3) 7))) <|
    .store (.off (.reg 3) 15) (.flit 1)

/-- `glm_look_lh`: include/cglm/clipspace/view_lh.h:73-79. -/
def glm_look_lh : Fn where
  locals := [3]
  nregs := 0
  body := 
    .seq (.call none glm_vec3_add.locals glm_vec3_add.nregs glm_vec3_add.body [.reg 0, .reg 1, .loc 0]) <|
    .call none glm_lookat_lh.locals glm_lookat_lh.nregs glm_lookat_lh.body [.reg 0, .loc 0, .reg 2, .reg 3]

/-- `glm_look_anyup_lh`: include/cglm/clipspace/view_lh.h:91-97. -/
def glm_look_anyup_lh : Fn where
  locals := [3]
  nregs := 0
  body := 
    .seq (.call none glm_vec3_ortho.locals glm_vec3_ortho.nregs glm_vec3_ortho.body [.reg 1, .loc 0]) <|
    .call none glm_look_lh.locals glm_look_lh.nregs glm_look_lh.body [.reg 0, .reg 1, .loc 0, .reg 2]

end Cglm.C

end ClipspaceViewLh

section ClipspaceViewLhNo

/- Generated from include/cglm/clipspace/view_lh_no.h by tools/memgen.py (memory semantics); do not edit by hand. -/

set_option maxRecDepth 10000

namespace Cglm.C
open CMem

/-- `glm_lookat_lh_no`: include/cglm/clipspace/view_lh_no.h:32-36. -/
def glm_lookat_lh_no : Fn where
  locals := []
  nregs := 0
  body := .call none glm_lookat_lh.locals glm_lookat_lh.nregs glm_lookat_lh.body [.reg 0, .reg 1, .reg 2, .reg 3]

/-- `glm_look_lh_no`: include/cglm/clipspace/view_lh_no.h:52-56. -/
def glm_look_lh_no : Fn where
  locals := []
  nregs := 0
  body := .call none glm_look_lh.locals glm_look_lh.nregs glm_look_lh.body [.reg 0, .reg 1, .reg 2, .reg 3]

/-- `glm_look_anyup_lh_no`: include/cglm/clipspace/view_lh_no.h:68-72. -/
def glm_look_anyup_lh_no : Fn where
  locals := []
  nregs := 0
  body := .call none glm_look_anyup_lh.locals glm_look_anyup_lh.nregs glm_look_anyup_lh.body [.reg 0, .reg 1, .reg 2]

end Cglm.C

end ClipspaceViewLhNo

section ClipspaceViewLhZo

/- Generated from include/cglm/clipspace/view_lh_zo.h by tools/memgen.py (memory semantics); do not edit by hand. -/

set_option maxRecDepth 10000

namespace Cglm.C
open CMem

/-- `glm_lookat_lh_zo`: include/cglm/clipspace/view_lh_zo.h:32-36. -/
def glm_lookat_lh_zo : Fn where
  locals := []
  nregs := 0
  body := .call none glm_lookat_lh.locals glm_lookat_lh.nregs glm_lookat_lh.body [.reg 0, .reg 1, .reg 2, .reg 3]

/-- `glm_look_lh_zo`: include/cglm/clipspace/view_lh_zo.h:52-56. -/
def glm_look_lh_zo : Fn where
  locals := []
  nregs := 0
  body := .call none glm_look_lh.locals glm_look_lh.nregs glm_look_lh.body [.reg 0, .reg 1, .reg 2, .reg 3]

/-- `glm_look_anyup_lh_zo`: include/cglm/clipspace/view_lh_zo.h:68-72. -/
def glm_look_anyup_lh_zo : Fn where
  locals := []
  nregs := 0
  body := .call none glm_look_anyup_lh.locals glm_look_anyup_lh.nregs glm_look_anyup_lh.body [.reg 0, .reg 1, .reg 2]

end Cglm.C

end ClipspaceViewLhZo

section ClipspaceViewRhNo

/- Generated from include/cglm/clipspace/view_rh_no.h by tools/memgen.py (memory semantics); do not edit by hand. -/

set_option maxRecDepth 10000

namespace Cglm.C
open CMem

/-- `glm_lookat_rh_no`: include/cglm/clipspace/view_rh_no.h:32-36. -/
def glm_lookat_rh_no : Fn where
  locals := []
  nregs := 0
  body := .call none glm_lookat_rh.locals glm_lookat_rh.nregs glm_lookat_rh.body [.reg 0, .reg 1, .reg 2, .reg 3]

/-- `glm_look_rh_no`: include/cglm/clipspace/view_rh_no.h:52-56. -/
def glm_look_rh_no : Fn where
  locals := []
  nregs := 0
  body := .call none glm_look_rh.locals glm_look_rh.nregs glm_look_rh.body [.reg 0, .reg 1, .reg 2, .reg 3]

/-- `glm_look_anyup_rh_no`: include/cglm/clipspace/view_rh_no.h:68-72. -/
def glm_look_anyup_rh_no : Fn where
  locals := []
  nregs := 0
  body := .call none glm_look_anyup_rh.locals glm_look_anyup_rh.nregs glm_look_anyup_rh.body [.reg 0, .reg 1, .reg 2]

end Cglm.C

end ClipspaceViewRhNo

section ClipspaceViewRhZo

/- Generated from include/cglm/clipspace/view_rh_zo.h by tools/memgen.py (memory semantics); do not edit by hand. -/

set_option maxRecDepth 10000

namespace Cglm.C
open CMem

/-- `glm_lookat_rh_zo`: include/cglm/clipspace/view_rh_zo.h:32-36. -/
def glm_lookat_rh_zo : Fn where
  locals := []
  nregs := 0
  body := .call none glm_lookat_rh.locals glm_lookat_rh.nregs glm_lookat_rh.body [.reg 0, .reg 1, .reg 2, .reg 3]

/-- `glm_look_rh_zo`: include/cglm/clipspace/view_rh_zo.h:52-56. -/
def glm_look_rh_zo : Fn where
  locals := []
  nregs := 0
  body := .call none glm_look_rh.locals glm_look_rh.nregs glm_look_rh.body [.reg 0, .reg 1, .reg 2, .reg 3]

/-- `glm_look_anyup_rh_zo`: include/cglm/clipspace/view_rh_zo.h:68-72. -/
def glm_look_anyup_rh_zo : Fn where
  locals := []
  nregs := 0
  body := .call none glm_look_anyup_rh.locals glm_look_anyup_rh.nregs glm_look_anyup_rh.body [.reg 0, .reg 1, .reg 2]

end Cglm.C

end ClipspaceViewRhZo

section Project

/- Generated from include/cglm/project.h by tools/memgen.py (memory semantics); do not edit by hand. -/

set_option maxRecDepth 10000

namespace Cglm.C
open CMem

/-- `glm_unprojecti`: include/cglm/project.h:53-61. -/
def glm_unprojecti : Fn where
  locals := []
  nregs := 0
  body := .call none glm_unprojecti_no.locals glm_unprojecti_no.nregs glm_unprojecti_no.body [.reg 0, .reg 1, .reg 2, .reg 3]

/-- `glm_unproject`: include/cglm/project.h:87-93. -/
def glm_unproject : Fn where
  locals := [16]
  nregs := 0
  body := 
    .seq (.call none glm_mat4_inv.locals glm_mat4_inv.nregs glm_mat4_inv.body [.reg 1, .loc 0]) <|
    .call none glm_unprojecti.locals glm_unprojecti.nregs glm_unprojecti.body [.reg 0, .loc 0, .reg 2, .reg 3]

/-- `glm_project`: include/cglm/project.h:107-115. -/
def glm_project : Fn where
  locals := []
  nregs := 0
  body := .call none glm_project_no.locals glm_project_no.nregs glm_project_no.body [.reg 0, .reg 1, .reg 2, .reg 3]

/-- `glm_project_z`: include/cglm/project.h:129-137. -/
def glm_project_z : Fn where
  locals := []
  nregs := 1
  body := 
    .seq (.call (some 2) glm_project_z_no.locals glm_project_z_no.nregs glm_project_z_no.body [.reg 0, .reg 1]) <|
    .ret (.reg 2)

/-- `glm_pickmatrix`: include/cglm/project.h:147-170. -/
def glm_pickmatrix : Fn where
  locals := [16, 3]
  nregs := 0
  body := 
    .seq (.ite (.or (.fc .le (.load (.reg 1)) (.flit 0)) (.fc .le (.load (.off (.reg 1) 1)) (.flit 0))) (.retVoid) (.skip)) <|
    .seq (.store (.loc 1) (.f2 .div (.f2 .sub (.load (.off (.reg 2) 2)) (.f2 .mul (.flit 2) (.f2 .sub (.load (.reg 0)) (.load (.reg 2))))) (.load (.reg 1)))) <|
    .seq (.store (.off (.loc 1) 1) (.f2 .div (.f2 .sub (.load (.off (.reg 2) 3)) (.f2 .mul (.flit 2) (.f2 .sub (.load (.off (.reg 0) 1)) (.load (.off (.reg 2) 1))))) (.load (.off (.reg 1) 1)))) <|
    .seq (.store (.off (.loc 1) 2) (.flit 0)) <|
    .seq (.call none glm_translate_make.locals glm_translate_make.nregs glm_translate_make.body [.loc 0, .loc 1]) <|
    .seq (.store (.loc 1) (.f2 .div (.load (.off (.reg 2) 2)) (.load (.reg 1)))) <|
    .seq (.store (.off (.loc 1) 1) (.f2 .div (.load (.off (.reg 2) 3)) (.load (.off (.reg 1) 1)))) <|
    .seq (.store (.off (.loc 1) 2) (.flit 1)) <|
    .seq (.call none glm_scale.locals glm_scale.nregs glm_scale.body [.loc 0, .loc 1]) <|
    .call none glm_mat4_copy.locals glm_mat4_copy.nregs glm_mat4_copy.body [.loc 0, .reg 3]

end Cglm.C

end Project
