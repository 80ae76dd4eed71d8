import Verif.CMemX
import Verif.Mem.Mats
import Verif.Mem.Quats
import Verif.Mem.Vecs

/-!
# Memory-level syntax of the functions with computed indices or loops
-/

namespace Cglm.C
open CMem

/-- `glm_mat4_swap_col`: include/cglm/mat4.h:725-732. -/
def glm_mat4_swap_col : XFn where
  locals := [4]
  nregs := 0
  body :=
    .seq (.call glm_vec4_copy [.idx (.ex (.reg 0)) (.ex (.reg 1)) 4 (some 4), .ex (.loc 0)]) <|
    .seq (.call glm_vec4_copy [.idx (.ex (.reg 0)) (.ex (.reg 2)) 4 (some 4), .idx (.ex (.reg 0)) (.ex (.reg 1)) 4 (some 4)]) <|
    .call glm_vec4_copy [.ex (.loc 0), .idx (.ex (.reg 0)) (.ex (.reg 2)) 4 (some 4)]

/-- `glm_mat3_swap_col`: include/cglm/mat3.h:375-382. -/
def glm_mat3_swap_col : XFn where
  locals := [3]
  nregs := 0
  body :=
    .seq (.call glm_vec3_copy [.idx (.ex (.reg 0)) (.ex (.reg 1)) 3 (some 3), .ex (.loc 0)]) <|
    .seq (.call glm_vec3_copy [.idx (.ex (.reg 0)) (.ex (.reg 2)) 3 (some 3), .idx (.ex (.reg 0)) (.ex (.reg 1)) 3 (some 3)]) <|
    .call glm_vec3_copy [.ex (.loc 0), .idx (.ex (.reg 0)) (.ex (.reg 2)) 3 (some 3)]

/-- `glm_mat2_swap_col`: include/cglm/mat2.h:275-288. -/
def glm_mat2_swap_col : XFn where
  locals := []
  nregs := 2
  body :=
    .seq (.set 3 (.load (.idx (.ex (.reg 0)) (.ex (.reg 1)) 2 (some 2)))) <|
    .seq (.set 4 (.load (.off (.idx (.ex (.reg 0)) (.ex (.reg 1)) 2 (some 2)) 1))) <|
    .seq (.store (.idx (.ex (.reg 0)) (.ex (.reg 1)) 2 (some 2)) (.load (.idx (.ex (.reg 0)) (.ex (.reg 2)) 2 (some 2)))) <|
    .seq (.store (.off (.idx (.ex (.reg 0)) (.ex (.reg 1)) 2 (some 2)) 1) (.load (.off (.idx (.ex (.reg 0)) (.ex (.reg 2)) 2 (some 2)) 1))) <|
    .seq (.store (.idx (.ex (.reg 0)) (.ex (.reg 2)) 2 (some 2)) (.ex (.reg 3))) <|
    .store (.off (.idx (.ex (.reg 0)) (.ex (.reg 2)) 2 (some 2)) 1) (.ex (.reg 4))

/-- `glm_mat4_swap_row`: include/cglm/mat4.h:741-759. -/
def glm_mat4_swap_row : XFn where
  locals := [4]
  nregs := 0
  body :=
    .seq (.store (.ex (.loc 0)) (.load (.idx (.ex (.reg 0)) (.ex (.reg 1)) 1 (some 4)))) <|
    .seq (.store (.ex (.off (.loc 0) 1)) (.load (.idx (.ex (.off (.reg 0) 4)) (.ex (.reg 1)) 1 (some 4)))) <|
    .seq (.store (.ex (.off (.loc 0) 2)) (.load (.idx (.ex (.off (.reg 0) 8)) (.ex (.reg 1)) 1 (some 4)))) <|
    .seq (.store (.ex (.off (.loc 0) 3)) (.load (.idx (.ex (.off (.reg 0) 12)) (.ex (.reg 1)) 1 (some 4)))) <|
    .seq (.store (.idx (.ex (.reg 0)) (.ex (.reg 1)) 1 (some 4)) (.load (.idx (.ex (.reg 0)) (.ex (.reg 2)) 1 (some 4)))) <|
    .seq (.store (.idx (.ex (.off (.reg 0) 4)) (.ex (.reg 1)) 1 (some 4)) (.load (.idx (.ex (.off (.reg 0) 4)) (.ex (.reg 2)) 1 (some 4)))) <|
    .seq (.store (.idx (.ex (.off (.reg 0) 8)) (.ex (.reg 1)) 1 (some 4)) (.load (.idx (.ex (.off (.reg 0) 8)) (.ex (.reg 2)) 1 (some 4)))) <|
    .seq (.store (.idx (.ex (.off (.reg 0) 12)) (.ex (.reg 1)) 1 (some 4)) (.load (.idx (.ex (.off (.reg 0) 12)) (.ex (.reg 2)) 1 (some 4)))) <|
    .seq (.store (.idx (.ex (.reg 0)) (.ex (.reg 2)) 1 (some 4)) (.ex (.load (.loc 0)))) <|
    .seq (.store (.idx (.ex (.off (.reg 0) 4)) (.ex (.reg 2)) 1 (some 4)) (.ex (.load (.off (.loc 0) 1)))) <|
    .seq (.store (.idx (.ex (.off (.reg 0) 8)) (.ex (.reg 2)) 1 (some 4)) (.ex (.load (.off (.loc 0) 2)))) <|
    .store (.idx (.ex (.off (.reg 0) 12)) (.ex (.reg 2)) 1 (some 4)) (.ex (.load (.off (.loc 0) 3)))

/-- `glm_mat3_swap_row`: include/cglm/mat3.h:391-406. -/
def glm_mat3_swap_row : XFn where
  locals := [3]
  nregs := 0
  body :=
    .seq (.store (.ex (.loc 0)) (.load (.idx (.ex (.reg 0)) (.ex (.reg 1)) 1 (some 3)))) <|
    .seq (.store (.ex (.off (.loc 0) 1)) (.load (.idx (.ex (.off (.reg 0) 3)) (.ex (.reg 1)) 1 (some 3)))) <|
    .seq (.store (.ex (.off (.loc 0) 2)) (.load (.idx (.ex (.off (.reg 0) 6)) (.ex (.reg 1)) 1 (some 3)))) <|
    .seq (.store (.idx (.ex (.reg 0)) (.ex (.reg 1)) 1 (some 3)) (.load (.idx (.ex (.reg 0)) (.ex (.reg 2)) 1 (some 3)))) <|
    .seq (.store (.idx (.ex (.off (.reg 0) 3)) (.ex (.reg 1)) 1 (some 3)) (.load (.idx (.ex (.off (.reg 0) 3)) (.ex (.reg 2)) 1 (some 3)))) <|
    .seq (.store (.idx (.ex (.off (.reg 0) 6)) (.ex (.reg 1)) 1 (some 3)) (.load (.idx (.ex (.off (.reg 0) 6)) (.ex (.reg 2)) 1 (some 3)))) <|
    .seq (.store (.idx (.ex (.reg 0)) (.ex (.reg 2)) 1 (some 3)) (.ex (.load (.loc 0)))) <|
    .seq (.store (.idx (.ex (.off (.reg 0) 3)) (.ex (.reg 2)) 1 (some 3)) (.ex (.load (.off (.loc 0) 1)))) <|
    .store (.idx (.ex (.off (.reg 0) 6)) (.ex (.reg 2)) 1 (some 3)) (.ex (.load (.off (.loc 0) 2)))

/-- `glm_mat2_swap_row`: include/cglm/mat2.h:297-310. -/
def glm_mat2_swap_row : XFn where
  locals := []
  nregs := 2
  body :=
    .seq (.set 3 (.load (.idx (.ex (.reg 0)) (.ex (.reg 1)) 1 (some 2)))) <|
    .seq (.set 4 (.load (.idx (.ex (.off (.reg 0) 2)) (.ex (.reg 1)) 1 (some 2)))) <|
    .seq (.store (.idx (.ex (.reg 0)) (.ex (.reg 1)) 1 (some 2)) (.load (.idx (.ex (.reg 0)) (.ex (.reg 2)) 1 (some 2)))) <|
    .seq (.store (.idx (.ex (.off (.reg 0) 2)) (.ex (.reg 1)) 1 (some 2)) (.load (.idx (.ex (.off (.reg 0) 2)) (.ex (.reg 2)) 1 (some 2)))) <|
    .seq (.store (.idx (.ex (.reg 0)) (.ex (.reg 2)) 1 (some 2)) (.ex (.reg 3))) <|
    .store (.idx (.ex (.off (.reg 0) 2)) (.ex (.reg 2)) 1 (some 2)) (.ex (.reg 4))

/-- `glm_vec2_swizzle`: include/cglm/vec2.h:691-700. -/
def glm_vec2_swizzle : XFn where
  locals := [2]
  nregs := 0
  body :=
    .seq (.store (.ex (.loc 0)) (.load (.idx (.ex (.reg 0)) (.field (.ex (.reg 1)) 0) 1 (some 2)))) <|
    .seq (.store (.ex (.off (.loc 0) 1)) (.load (.idx (.ex (.reg 0)) (.field (.ex (.reg 1)) 1) 1 (some 2)))) <|
    .call glm_vec2_copy [.ex (.loc 0), (.ex (.reg 2))]

/-- `glm_vec3_swizzle`: include/cglm/vec3.h:1110-1120. -/
def glm_vec3_swizzle : XFn where
  locals := [3]
  nregs := 0
  body :=
    .seq (.store (.ex (.loc 0)) (.load (.idx (.ex (.reg 0)) (.field (.ex (.reg 1)) 0) 1 (some 3)))) <|
    .seq (.store (.ex (.off (.loc 0) 1)) (.load (.idx (.ex (.reg 0)) (.field (.ex (.reg 1)) 1) 1 (some 3)))) <|
    .seq (.store (.ex (.off (.loc 0) 2)) (.load (.idx (.ex (.reg 0)) (.field (.ex (.reg 1)) 2) 1 (some 3)))) <|
    .call glm_vec3_copy [.ex (.loc 0), (.ex (.reg 2))]

/-- `glm_vec4_swizzle`: include/cglm/vec4.h:1266-1277. -/
def glm_vec4_swizzle : XFn where
  locals := [4]
  nregs := 0
  body :=
    .seq (.store (.ex (.loc 0)) (.load (.idx (.ex (.reg 0)) (.field (.ex (.reg 1)) 0) 1 (some 4)))) <|
    .seq (.store (.ex (.off (.loc 0) 1)) (.load (.idx (.ex (.reg 0)) (.field (.ex (.reg 1)) 1) 1 (some 4)))) <|
    .seq (.store (.ex (.off (.loc 0) 2)) (.load (.idx (.ex (.reg 0)) (.field (.ex (.reg 1)) 2) 1 (some 4)))) <|
    .seq (.store (.ex (.off (.loc 0) 3)) (.load (.idx (.ex (.reg 0)) (.field (.ex (.reg 1)) 3) 1 (some 4)))) <|
    .call glm_vec4_copy [.ex (.loc 0), (.ex (.reg 2))]

/-- `glm_mat4_identity_array`: include/cglm/mat4.h:182-191. -/
def glm_mat4_identity_array : XFn where
  locals := [16]
  nregs := 1
  body :=
    .seq (.st (
      .seq (.store (.loc 0) (.flit 1)) <|
      .seq (.store (.off (.loc 0) 1) (.flit 0)) <|
      .seq (.store (.off (.loc 0) 2) (.flit 0)) <|
      .seq (.store (.off (.loc 0) 3) (.flit 0)) <|
      .seq (.store (.off (.loc 0) 4) (.flit 0)) <|
      .seq (.store (.off (.loc 0) 5) (.flit 1)) <|
      .seq (.store (.off (.loc 0) 6) (.flit 0)) <|
      .seq (.store (.off (.loc 0) 7) (.flit 0)) <|
      .seq (.store (.off (.loc 0) 8) (.flit 0)) <|
      .seq (.store (.off (.loc 0) 9) (.flit 0)) <|
      .seq (.store (.off (.loc 0) 10) (.flit 1)) <|
      .seq (.store (.off (.loc 0) 11) (.flit 0)) <|
      .seq (.store (.off (.loc 0) 12) (.flit 0)) <|
      .seq (.store (.off (.loc 0) 13) (.flit 0)) <|
      .seq (.store (.off (.loc 0) 14) (.flit 0)) <|
      .store (.off (.loc 0) 15) (.flit 1))) <|
    .seq (.set 2 (.ex (.ilit 0))) <|
    .while_ (.lt (.ex (.reg 2)) (.ex (.reg 1))) (.seq (.call glm_mat4_copy [.ex (.loc 0), .idx (.ex (.reg 0)) (.ex (.reg 2)) 16 none]) (.set 2 (.succ (.ex (.reg 2)))))

/-- `glm_mat3_identity_array`: include/cglm/mat3.h:117-126. -/
def glm_mat3_identity_array : XFn where
  locals := [9]
  nregs := 1
  body :=
    .seq (.st (
      .seq (.store (.loc 0) (.flit 1)) <|
      .seq (.store (.off (.loc 0) 1) (.flit 0)) <|
      .seq (.store (.off (.loc 0) 2) (.flit 0)) <|
      .seq (.store (.off (.loc 0) 3) (.flit 0)) <|
      .seq (.store (.off (.loc 0) 4) (.flit 1)) <|
      .seq (.store (.off (.loc 0) 5) (.flit 0)) <|
      .seq (.store (.off (.loc 0) 6) (.flit 0)) <|
      .seq (.store (.off (.loc 0) 7) (.flit 0)) <|
      .store (.off (.loc 0) 8) (.flit 1))) <|
    .seq (.set 2 (.ex (.ilit 0))) <|
    .while_ (.lt (.ex (.reg 2)) (.ex (.reg 1))) (.seq (.call glm_mat3_copy [.ex (.loc 0), .idx (.ex (.reg 0)) (.ex (.reg 2)) 9 none]) (.set 2 (.succ (.ex (.reg 2)))))

/-- `glm_mat2_identity_array`: include/cglm/mat2.h:115-124. -/
def glm_mat2_identity_array : XFn where
  locals := [4]
  nregs := 1
  body :=
    .seq (.st (
      .seq (.store (.loc 0) (.flit 1)) <|
      .seq (.store (.off (.loc 0) 1) (.flit 0)) <|
      .seq (.store (.off (.loc 0) 2) (.flit 0)) <|
      .store (.off (.loc 0) 3) (.flit 1))) <|
    .seq (.set 2 (.ex (.ilit 0))) <|
    .while_ (.lt (.ex (.reg 2)) (.ex (.reg 1))) (.seq (.call glm_mat2_copy [.ex (.loc 0), .idx (.ex (.reg 0)) (.ex (.reg 2)) 4 none]) (.set 2 (.succ (.ex (.reg 2)))))

/-- `glm_quat_identity_array`: include/cglm/quat.h:114-123. -/
def glm_quat_identity_array : XFn where
  locals := [4]
  nregs := 1
  body :=
    .seq (.st (
      .seq (.store (.loc 0) (.flit 0)) <|
      .seq (.store (.off (.loc 0) 1) (.flit 0)) <|
      .seq (.store (.off (.loc 0) 2) (.flit 0)) <|
      .store (.off (.loc 0) 3) (.flit 1))) <|
    .seq (.set 2 (.ex (.ilit 0))) <|
    .while_ (.lt (.ex (.reg 2)) (.ex (.reg 1))) (.seq (.call glm_vec4_copy [.ex (.loc 0), .idx (.ex (.reg 0)) (.ex (.reg 2)) 4 none]) (.set 2 (.succ (.ex (.reg 2)))))

/-- `glm_mat4_mulN`: include/cglm/mat4.h:375-388, assertions disabled.  The first argument is an array of pointers. -/
def glm_mat4_mulN : XFn where
  locals := []
  nregs := 1
  body :=
    .seq (.call glm_mat4_mul [.load (.ex (.reg 0)), .load (.off (.ex (.reg 0)) 1), (.ex (.reg 2))]) <|
    .seq (.set 3 (.ex (.ilit 2))) <|
    .while_ (.lt (.ex (.reg 3)) (.ex (.reg 1))) (.seq (.call glm_mat4_mul [(.ex (.reg 2)), .load (.idx (.ex (.reg 0)) (.ex (.reg 3)) 1 none), (.ex (.reg 2))]) (.set 3 (.succ (.ex (.reg 3)))))

/-- `glm_euler_order`: include/cglm/euler.h:105-109. -/
def glm_euler_order : XFn where
  locals := []
  nregs := 0
  body :=
    .ret (.bor (.bor (.shl (.load (.ex (.reg 0))) 0) (.shl (.load (.off (.ex (.reg 0)) 1)) 2)) (.shl (.load (.off (.ex (.reg 0)) 2)) 4))

/-- `glm_decasteljau`: include/cglm/bezier.h:109-152.  Registers: 0..4 prm p0 c0 c1 p1, 5 6 u v, 7..12 a b c d e f, 13 i,
14 the result of `glm_clamp_zo`. -/
def glm_decasteljau : XFn where
  locals := []
  nregs := 10
  body :=
    .seq (.st (.ite (.fc .lt (.f2 .sub (.reg 0) (.reg 1)) (.flit (1 / 10 ^ 20))) (.ret (.flit 0)) .skip)) <|
    .seq (.st (.ite (.fc .lt (.f2 .sub (.reg 4) (.reg 0)) (.flit (1 / 10 ^ 20))) (.ret (.flit 1)) .skip)) <|
    .seq (.st (.seq (.set 5 (.flit 0)) (.set 6 (.flit 1)))) <|
    .seq (.set 13 (.ex (.ilit 0))) <|
    .seq (.while_ (.lt (.ex (.reg 13)) (.ex (.ilit 1000))) (.seq (.st (
      .seq (.set 7 (.f2 .mul (.f2 .add (.reg 1) (.reg 2)) (.flit 0.5))) <|
      .seq (.set 8 (.f2 .mul (.f2 .add (.reg 2) (.reg 3)) (.flit 0.5))) <|
      .seq (.set 9 (.f2 .mul (.f2 .add (.reg 3) (.reg 4)) (.flit 0.5))) <|
      .seq (.set 10 (.f2 .mul (.f2 .add (.reg 7) (.reg 8)) (.flit 0.5))) <|
      .seq (.set 11 (.f2 .mul (.f2 .add (.reg 8) (.reg 9)) (.flit 0.5))) <|
      .seq (.set 12 (.f2 .mul (.f2 .add (.reg 10) (.reg 11)) (.flit 0.5))) <|
      .seq (.ite (.fc .lt (.f1 .fabsf (.f2 .sub (.reg 12) (.reg 0))) (.flit (1 / 10 ^ 9)))
        (.seq (.call (some 14) glm_clamp_zo.locals glm_clamp_zo.nregs glm_clamp_zo.body
          [.f2 .mul (.f2 .add (.reg 5) (.reg 6)) (.flit 0.5)]) (.ret (.reg 14))) .skip) <|
      .ite (.fc .lt (.reg 12) (.reg 0))
        (.seq (.set 1 (.reg 12)) <| .seq (.set 2 (.reg 11)) <| .seq (.set 3 (.reg 9)) <|
          .set 5 (.f2 .mul (.f2 .add (.reg 5) (.reg 6)) (.flit 0.5)))
        (.seq (.set 2 (.reg 7)) <| .seq (.set 3 (.reg 10)) <| .seq (.set 4 (.reg 12)) <|
          .set 6 (.f2 .mul (.f2 .add (.reg 5) (.reg 6)) (.flit 0.5)))))
      (.set 13 (.succ (.ex (.reg 13)))))) <|
    .st (.seq (.call (some 14) glm_clamp_zo.locals glm_clamp_zo.nregs glm_clamp_zo.body
      [.f2 .mul (.f2 .add (.reg 5) (.reg 6)) (.flit 0.5)]) (.ret (.reg 14)))

end Cglm.C
