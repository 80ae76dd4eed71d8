/- Generated by tools/memgen.py, joined by tools/merge.py; do not edit by hand. -/
import Verif.CMem
import Verif.Mem.Affines
import Verif.Mem.Mats
import Verif.Mem.Vecs

section HandedEulerToQuatRh

/- Generated from include/cglm/handed/euler_to_quat_rh.h by tools/memgen.py (memory semantics); do not edit by hand. -/

set_option maxRecDepth 10000

namespace Cglm.C
open CMem

/-- `glm_euler_xyz_quat_rh`: include/cglm/handed/euler_to_quat_rh.h:35-50. -/
def glm_euler_xyz_quat_rh : Fn where
  locals := []
  nregs := 6
  body := 
    .seq (.set 5 (.f1 .sinf (.f2 .mul (.load (.reg 0)) (.flit 0.5)))) <|
    .seq (.set 2 (.f1 .cosf (.f2 .mul (.load (.reg 0)) (.flit 0.5)))) <|
    .seq (.set 6 (.f1 .sinf (.f2 .mul (.load (.off (.reg 0) 1)) (.flit 0.5)))) <|
    .seq (.set 3 (.f1 .cosf (.f2 .mul (.load (.off (.reg 0) 1)) (.flit 0.5)))) <|
    .seq (.set 7 (.f1 .sinf (.f2 .mul (.load (.off (.reg 0) 2)) (.flit 0.5)))) <|
    .seq (.set 4 (.f1 .cosf (.f2 .mul (.load (.off (.reg 0) 2)) (.flit 0.5)))) <|
    .seq (.store (.reg 1) (.f2 .add (.f2 .mul (.f2 .mul (.reg 2) (.reg 6)) (.reg 7)) (.f2 .mul (.f2 .mul (.reg 5) (.reg 3)) (.reg 4)))) <|
    .seq (.store (.off (.reg 1) 1) (.f2 .sub (.f2 .mul (.f2 .mul (.reg 2) (.reg 6)) (.reg 4)) (.f2 .mul (.f2 .mul (.reg 5) (.reg 3)) (.reg 7)))) <|
    .seq (.store (.off (.reg 1) 2) (.f2 .add (.f2 .mul (.f2 .mul (.reg 2) (.reg 3)) (.reg 7)) (.f2 .mul (.f2 .mul (.reg 5) (.reg 6)) (.reg 4)))) <|
    .store (.off (.reg 1) 3) (.f2 .sub (.f2 .mul (.f2 .mul (.reg 2) (.reg 3)) (.reg 4)) (.f2 .mul (.f2 .mul (.reg 5) (.reg 6)) (.reg 7)))

/-- `glm_euler_xzy_quat_rh`: include/cglm/handed/euler_to_quat_rh.h:59-74. -/
def glm_euler_xzy_quat_rh : Fn where
  locals := []
  nregs := 6
  body := 
    .seq (.set 5 (.f1 .sinf (.f2 .mul (.load (.reg 0)) (.flit 0.5)))) <|
    .seq (.set 2 (.f1 .cosf (.f2 .mul (.load (.reg 0)) (.flit 0.5)))) <|
    .seq (.set 6 (.f1 .sinf (.f2 .mul (.load (.off (.reg 0) 1)) (.flit 0.5)))) <|
    .seq (.set 3 (.f1 .cosf (.f2 .mul (.load (.off (.reg 0) 1)) (.flit 0.5)))) <|
    .seq (.set 7 (.f1 .sinf (.f2 .mul (.load (.off (.reg 0) 2)) (.flit 0.5)))) <|
    .seq (.set 4 (.f1 .cosf (.f2 .mul (.load (.off (.reg 0) 2)) (.flit 0.5)))) <|
    .seq (.store (.reg 1) (.f2 .add (.f2 .mul (.f2 .mul (.f1 .neg (.reg 2)) (.reg 7)) (.reg 6)) (.f2 .mul (.f2 .mul (.reg 5) (.reg 4)) (.reg 3)))) <|
    .seq (.store (.off (.reg 1) 1) (.f2 .sub (.f2 .mul (.f2 .mul (.reg 2) (.reg 4)) (.reg 6)) (.f2 .mul (.f2 .mul (.reg 5) (.reg 7)) (.reg 3)))) <|
    .seq (.store (.off (.reg 1) 2) (.f2 .add (.f2 .mul (.f2 .mul (.reg 2) (.reg 7)) (.reg 3)) (.f2 .mul (.f2 .mul (.reg 5) (.reg 4)) (.reg 6)))) <|
    .store (.off (.reg 1) 3) (.f2 .add (.f2 .mul (.f2 .mul (.reg 2) (.reg 4)) (.reg 3)) (.f2 .mul (.f2 .mul (.reg 5) (.reg 7)) (.reg 6)))

/-- `glm_euler_yxz_quat_rh`: include/cglm/handed/euler_to_quat_rh.h:83-97. -/
def glm_euler_yxz_quat_rh : Fn where
  locals := []
  nregs := 6
  body := 
    .seq (.set 5 (.f1 .sinf (.f2 .mul (.load (.reg 0)) (.flit 0.5)))) <|
    .seq (.set 2 (.f1 .cosf (.f2 .mul (.load (.reg 0)) (.flit 0.5)))) <|
    .seq (.set 6 (.f1 .sinf (.f2 .mul (.load (.off (.reg 0) 1)) (.flit 0.5)))) <|
    .seq (.set 3 (.f1 .cosf (.f2 .mul (.load (.off (.reg 0) 1)) (.flit 0.5)))) <|
    .seq (.set 7 (.f1 .sinf (.f2 .mul (.load (.off (.reg 0) 2)) (.flit 0.5)))) <|
    .seq (.set 4 (.f1 .cosf (.f2 .mul (.load (.off (.reg 0) 2)) (.flit 0.5)))) <|
    .seq (.store (.reg 1) (.f2 .add (.f2 .mul (.f2 .mul (.reg 3) (.reg 5)) (.reg 4)) (.f2 .mul (.f2 .mul (.reg 6) (.reg 2)) (.reg 7)))) <|
    .seq (.store (.off (.reg 1) 1) (.f2 .add (.f2 .mul (.f2 .mul (.f1 .neg (.reg 3)) (.reg 5)) (.reg 7)) (.f2 .mul (.f2 .mul (.reg 6) (.reg 2)) (.reg 4)))) <|
    .seq (.store (.off (.reg 1) 2) (.f2 .sub (.f2 .mul (.f2 .mul (.reg 3) (.reg 2)) (.reg 7)) (.f2 .mul (.f2 .mul (.reg 6) (.reg 5)) (.reg 4)))) <|
    .store (.off (.reg 1) 3) (.f2 .add (.f2 .mul (.f2 .mul (.reg 3) (.reg 2)) (.reg 4)) (.f2 .mul (.f2 .mul (.reg 6) (.reg 5)) (.reg 7)))

/-- `glm_euler_yzx_quat_rh`: include/cglm/handed/euler_to_quat_rh.h:106-121. -/
def glm_euler_yzx_quat_rh : Fn where
  locals := []
  nregs := 6
  body := 
    .seq (.set 5 (.f1 .sinf (.f2 .mul (.load (.reg 0)) (.flit 0.5)))) <|
    .seq (.set 2 (.f1 .cosf (.f2 .mul (.load (.reg 0)) (.flit 0.5)))) <|
    .seq (.set 6 (.f1 .sinf (.f2 .mul (.load (.off (.reg 0) 1)) (.flit 0.5)))) <|
    .seq (.set 3 (.f1 .cosf (.f2 .mul (.load (.off (.reg 0) 1)) (.flit 0.5)))) <|
    .seq (.set 7 (.f1 .sinf (.f2 .mul (.load (.off (.reg 0) 2)) (.flit 0.5)))) <|
    .seq (.set 4 (.f1 .cosf (.f2 .mul (.load (.off (.reg 0) 2)) (.flit 0.5)))) <|
    .seq (.store (.reg 1) (.f2 .add (.f2 .mul (.f2 .mul (.reg 3) (.reg 4)) (.reg 5)) (.f2 .mul (.f2 .mul (.reg 6) (.reg 7)) (.reg 2)))) <|
    .seq (.store (.off (.reg 1) 1) (.f2 .add (.f2 .mul (.f2 .mul (.reg 3) (.reg 7)) (.reg 5)) (.f2 .mul (.f2 .mul (.reg 6) (.reg 4)) (.reg 2)))) <|
    .seq (.store (.off (.reg 1) 2) (.f2 .sub (.f2 .mul (.f2 .mul (.reg 3) (.reg 7)) (.reg 2)) (.f2 .mul (.f2 .mul (.reg 6) (.reg 4)) (.reg 5)))) <|
    .store (.off (.reg 1) 3) (.f2 .sub (.f2 .mul (.f2 .mul (.reg 3) (.reg 4)) (.reg 2)) (.f2 .mul (.f2 .mul (.reg 6) (.reg 7)) (.reg 5)))

/-- `glm_euler_zxy_quat_rh`: include/cglm/handed/euler_to_quat_rh.h:130-144. -/
def glm_euler_zxy_quat_rh : Fn where
  locals := []
  nregs := 6
  body := 
    .seq (.set 5 (.f1 .sinf (.f2 .mul (.load (.reg 0)) (.flit 0.5)))) <|
    .seq (.set 2 (.f1 .cosf (.f2 .mul (.load (.reg 0)) (.flit 0.5)))) <|
    .seq (.set 6 (.f1 .sinf (.f2 .mul (.load (.off (.reg 0) 1)) (.flit 0.5)))) <|
    .seq (.set 3 (.f1 .cosf (.f2 .mul (.load (.off (.reg 0) 1)) (.flit 0.5)))) <|
    .seq (.set 7 (.f1 .sinf (.f2 .mul (.load (.off (.reg 0) 2)) (.flit 0.5)))) <|
    .seq (.set 4 (.f1 .cosf (.f2 .mul (.load (.off (.reg 0) 2)) (.flit 0.5)))) <|
    .seq (.store (.reg 1) (.f2 .sub (.f2 .mul (.f2 .mul (.reg 4) (.reg 5)) (.reg 3)) (.f2 .mul (.f2 .mul (.reg 7) (.reg 2)) (.reg 6)))) <|
    .seq (.store (.off (.reg 1) 1) (.f2 .add (.f2 .mul (.f2 .mul (.reg 4) (.reg 2)) (.reg 6)) (.f2 .mul (.f2 .mul (.reg 7) (.reg 5)) (.reg 3)))) <|
    .seq (.store (.off (.reg 1) 2) (.f2 .add (.f2 .mul (.f2 .mul (.reg 4) (.reg 5)) (.reg 6)) (.f2 .mul (.f2 .mul (.reg 7) (.reg 2)) (.reg 3)))) <|
    .store (.off (.reg 1) 3) (.f2 .sub (.f2 .mul (.f2 .mul (.reg 4) (.reg 2)) (.reg 3)) (.f2 .mul (.f2 .mul (.reg 7) (.reg 5)) (.reg 6)))

/-- `glm_euler_zyx_quat_rh`: include/cglm/handed/euler_to_quat_rh.h:153-167. -/
def glm_euler_zyx_quat_rh : Fn where
  locals := []
  nregs := 6
  body := 
    .seq (.set 5 (.f1 .sinf (.f2 .mul (.load (.reg 0)) (.flit 0.5)))) <|
    .seq (.set 2 (.f1 .cosf (.f2 .mul (.load (.reg 0)) (.flit 0.5)))) <|
    .seq (.set 6 (.f1 .sinf (.f2 .mul (.load (.off (.reg 0) 1)) (.flit 0.5)))) <|
    .seq (.set 3 (.f1 .cosf (.f2 .mul (.load (.off (.reg 0) 1)) (.flit 0.5)))) <|
    .seq (.set 7 (.f1 .sinf (.f2 .mul (.load (.off (.reg 0) 2)) (.flit 0.5)))) <|
    .seq (.set 4 (.f1 .cosf (.f2 .mul (.load (.off (.reg 0) 2)) (.flit 0.5)))) <|
    .seq (.store (.reg 1) (.f2 .sub (.f2 .mul (.f2 .mul (.reg 4) (.reg 3)) (.reg 5)) (.f2 .mul (.f2 .mul (.reg 7) (.reg 6)) (.reg 2)))) <|
    .seq (.store (.off (.reg 1) 1) (.f2 .add (.f2 .mul (.f2 .mul (.reg 4) (.reg 6)) (.reg 2)) (.f2 .mul (.f2 .mul (.reg 7) (.reg 3)) (.reg 5)))) <|
    .seq (.store (.off (.reg 1) 2) (.f2 .add (.f2 .mul (.f2 .mul (.f1 .neg (.reg 4)) (.reg 6)) (.reg 5)) (.f2 .mul (.f2 .mul (.reg 7) (.reg 3)) (.reg 2)))) <|
    .store (.off (.reg 1) 3) (.f2 .add (.f2 .mul (.f2 .mul (.reg 4) (.reg 3)) (.reg 2)) (.f2 .mul (.f2 .mul (.reg 7) (.reg 6)) (.reg 5)))

end Cglm.C

end HandedEulerToQuatRh

section Euler

/- Generated from include/cglm/euler.h by tools/memgen.py (memory semantics); do not edit by hand. -/

set_option maxRecDepth 10000

namespace Cglm.C
open CMem

/-- `glm_euler_angles`: include/cglm/euler.h:117-147. -/
def glm_euler_angles : Fn where
  locals := []
  nregs := 10
  body := 
    .seq (.set 2 (.load (.reg 0))) <|
    .seq (.set 4 (.load (.off (.reg 0) 4))) <|
    .seq (.set 6 (.load (.off (.reg 0) 8))) <|
    .seq (.set 3 (.load (.off (.reg 0) 1))) <|
    .seq (.set 5 (.load (.off (.reg 0) 5))) <|
    .seq (.set 7 (.load (.off (.reg 0) 9))) <|
    .seq (.set 8 (.load (.off (.reg 0) 10))) <|
    .seq (.ite (.fc .lt (.reg 6) (.flit 1)) (.ite (.fc .lt (.f1 .neg (.flit 1)) (.reg 6)) (.seq (.set 10 (.f1 .asinf (.reg 6))) (.seq (.set 9 (.f2 .atan2f (.f1 .neg (.reg 7)) (.reg 8))) (.set 11 (.f2 .atan2f (.f1 .neg (.reg 4)) (.reg 2))))) (.seq (.set 10 (.f1 .neg (.flit 1.57079632679489661923132169163975144))) (.seq (.set 9 (.f1 .neg (.f2 .atan2f (.reg 3) (.reg 5)))) (.set 11 (.flit 0))))) (.seq (.set 10 (.flit 1.57079632679489661923132169163975144)) (.seq (.set 9 (.f2 .atan2f (.reg 3) (.reg 5))) (.set 11 (.flit 0))))) <|
    .seq (.store (.reg 1) (.reg 9)) <|
    .seq (.store (.off (.reg 1) 1) (.reg 10)) <|
    .store (.off (.reg 1) 2) (.reg 11)

/-- `glm_euler_xyz`: include/cglm/euler.h:155-185. -/
def glm_euler_xyz : Fn where
  locals := []
  nregs := 9
  body := 
    .seq (.set 5 (.f1 .sinf (.load (.reg 0)))) <|
    .seq (.set 2 (.f1 .cosf (.load (.reg 0)))) <|
    .seq (.set 6 (.f1 .sinf (.load (.off (.reg 0) 1)))) <|
    .seq (.set 3 (.f1 .cosf (.load (.off (.reg 0) 1)))) <|
    .seq (.set 7 (.f1 .sinf (.load (.off (.reg 0) 2)))) <|
    .seq (.set 4 (.f1 .cosf (.load (.off (.reg 0) 2)))) <|
    .seq (.set 8 (.f2 .mul (.reg 4) (.reg 5))) <|
    .seq (.set 9 (.f2 .mul (.reg 2) (.reg 4))) <|
    .seq (.set 10 (.f2 .mul (.reg 6) (.reg 7))) <|
    .seq (.store (.reg 1) (.f2 .mul (.reg 3) (.reg 4))) <|
    .seq (.store (.off (.reg 1) 1) (.f2 .add (.f2 .mul (.reg 8) (.reg 6)) (.f2 .mul (.reg 2) (.reg 7)))) <|
    .seq (.store (.off (.reg 1) 2) (.f2 .add (.f2 .mul (.f1 .neg (.reg 9)) (.reg 6)) (.f2 .mul (.reg 5) (.reg 7)))) <|
    .seq (.store (.off (.reg 1) 4) (.f2 .mul (.f1 .neg (.reg 3)) (.reg 7))) <|
    .seq (.store (.off (.reg 1) 5) (.f2 .sub (.reg 9) (.f2 .mul (.reg 5) (.reg 10)))) <|
    .seq (.store (.off (.reg 1) 6) (.f2 .add (.reg 8) (.f2 .mul (.reg 2) (.reg 10)))) <|
    .seq (.store (.off (.reg 1) 8) (.reg 6)) <|
    .seq (.store (.off (.reg 1) 9) (.f2 .mul (.f1 .neg (.reg 3)) (.reg 5))) <|
    .seq (.store (.off (.reg 1) 10) (.f2 .mul (.reg 2) (.reg 3))) <|
    .seq (.store (.off (.reg 1) 3) (.flit 0)) <|
    .seq (.store (.off (.reg 1) 7) (.flit 0)) <|
    .seq (.store (.off (.reg 1) 11) (.flit 0)) <|
    .seq (.store (.off (.reg 1) 12) (.flit 0)) <|
    .seq (.store (.off (.reg 1) 13) (.flit 0)) <|
    .seq (.store (.off (.reg 1) 14) (.flit 0)) <|
    .store (.off (.reg 1) 15) (.flit 1)

/-- `glm_euler`: include/cglm/euler.h:193-197. -/
def glm_euler : Fn where
  locals := []
  nregs := 0
  body := .call none glm_euler_xyz.locals glm_euler_xyz.nregs glm_euler_xyz.body [.reg 0, .reg 1]

/-- `glm_euler_xzy`: include/cglm/euler.h:205-236. -/
def glm_euler_xzy : Fn where
  locals := []
  nregs := 10
  body := 
    .seq (.set 5 (.f1 .sinf (.load (.reg 0)))) <|
    .seq (.set 2 (.f1 .cosf (.load (.reg 0)))) <|
    .seq (.set 6 (.f1 .sinf (.load (.off (.reg 0) 1)))) <|
    .seq (.set 3 (.f1 .cosf (.load (.off (.reg 0) 1)))) <|
    .seq (.set 7 (.f1 .sinf (.load (.off (.reg 0) 2)))) <|
    .seq (.set 4 (.f1 .cosf (.load (.off (.reg 0) 2)))) <|
    .seq (.set 8 (.f2 .mul (.reg 5) (.reg 6))) <|
    .seq (.set 9 (.f2 .mul (.reg 3) (.reg 5))) <|
    .seq (.set 10 (.f2 .mul (.reg 2) (.reg 6))) <|
    .seq (.set 11 (.f2 .mul (.reg 2) (.reg 3))) <|
    .seq (.store (.reg 1) (.f2 .mul (.reg 3) (.reg 4))) <|
    .seq (.store (.off (.reg 1) 1) (.f2 .add (.reg 8) (.f2 .mul (.reg 11) (.reg 7)))) <|
    .seq (.store (.off (.reg 1) 2) (.f2 .add (.f1 .neg (.reg 10)) (.f2 .mul (.reg 9) (.reg 7)))) <|
    .seq (.store (.off (.reg 1) 4) (.f1 .neg (.reg 7))) <|
    .seq (.store (.off (.reg 1) 5) (.f2 .mul (.reg 2) (.reg 4))) <|
    .seq (.store (.off (.reg 1) 6) (.f2 .mul (.reg 4) (.reg 5))) <|
    .seq (.store (.off (.reg 1) 8) (.f2 .mul (.reg 4) (.reg 6))) <|
    .seq (.store (.off (.reg 1) 9) (.f2 .add (.f1 .neg (.reg 9)) (.f2 .mul (.reg 10) (.reg 7)))) <|
    .seq (.store (.off (.reg 1) 10) (.f2 .add (.reg 11) (.f2 .mul (.reg 8) (.reg 7)))) <|
    .seq (.store (.off (.reg 1) 3) (.flit 0)) <|
    .seq (.store (.off (.reg 1) 7) (.flit 0)) <|
    .seq (.store (.off (.reg 1) 11) (.flit 0)) <|
    .seq (.store (.off (.reg 1) 12) (.flit 0)) <|
    .seq (.store (.off (.reg 1) 13) (.flit 0)) <|
    .seq (.store (.off (.reg 1) 14) (.flit 0)) <|
    .store (.off (.reg 1) 15) (.flit 1)

/-- `glm_euler_yxz`: include/cglm/euler.h:244-275. -/
def glm_euler_yxz : Fn where
  locals := []
  nregs := 10
  body := 
    .seq (.set 5 (.f1 .sinf (.load (.reg 0)))) <|
    .seq (.set 2 (.f1 .cosf (.load (.reg 0)))) <|
    .seq (.set 6 (.f1 .sinf (.load (.off (.reg 0) 1)))) <|
    .seq (.set 3 (.f1 .cosf (.load (.off (.reg 0) 1)))) <|
    .seq (.set 7 (.f1 .sinf (.load (.off (.reg 0) 2)))) <|
    .seq (.set 4 (.f1 .cosf (.load (.off (.reg 0) 2)))) <|
    .seq (.set 8 (.f2 .mul (.reg 3) (.reg 4))) <|
    .seq (.set 9 (.f2 .mul (.reg 6) (.reg 7))) <|
    .seq (.set 10 (.f2 .mul (.reg 4) (.reg 6))) <|
    .seq (.set 11 (.f2 .mul (.reg 3) (.reg 7))) <|
    .seq (.store (.reg 1) (.f2 .add (.reg 8) (.f2 .mul (.reg 5) (.reg 9)))) <|
    .seq (.store (.off (.reg 1) 1) (.f2 .mul (.reg 2) (.reg 7))) <|
    .seq (.store (.off (.reg 1) 2) (.f2 .add (.f1 .neg (.reg 10)) (.f2 .mul (.reg 11) (.reg 5)))) <|
    .seq (.store (.off (.reg 1) 4) (.f2 .add (.f1 .neg (.reg 11)) (.f2 .mul (.reg 10) (.reg 5)))) <|
    .seq (.store (.off (.reg 1) 5) (.f2 .mul (.reg 2) (.reg 4))) <|
    .seq (.store (.off (.reg 1) 6) (.f2 .add (.f2 .mul (.reg 8) (.reg 5)) (.reg 9))) <|
    .seq (.store (.off (.reg 1) 8) (.f2 .mul (.reg 2) (.reg 6))) <|
    .seq (.store (.off (.reg 1) 9) (.f1 .neg (.reg 5))) <|
    .seq (.store (.off (.reg 1) 10) (.f2 .mul (.reg 2) (.reg 3))) <|
    .seq (.store (.off (.reg 1) 3) (.flit 0)) <|
    .seq (.store (.off (.reg 1) 7) (.flit 0)) <|
    .seq (.store (.off (.reg 1) 11) (.flit 0)) <|
    .seq (.store (.off (.reg 1) 12) (.flit 0)) <|
    .seq (.store (.off (.reg 1) 13) (.flit 0)) <|
    .seq (.store (.off (.reg 1) 14) (.flit 0)) <|
    .store (.off (.reg 1) 15) (.flit 1)

/-- `glm_euler_yzx`: include/cglm/euler.h:283-314. -/
def glm_euler_yzx : Fn where
  locals := []
  nregs := 10
  body := 
    .seq (.set 5 (.f1 .sinf (.load (.reg 0)))) <|
    .seq (.set 2 (.f1 .cosf (.load (.reg 0)))) <|
    .seq (.set 6 (.f1 .sinf (.load (.off (.reg 0) 1)))) <|
    .seq (.set 3 (.f1 .cosf (.load (.off (.reg 0) 1)))) <|
    .seq (.set 7 (.f1 .sinf (.load (.off (.reg 0) 2)))) <|
    .seq (.set 4 (.f1 .cosf (.load (.off (.reg 0) 2)))) <|
    .seq (.set 8 (.f2 .mul (.reg 5) (.reg 6))) <|
    .seq (.set 9 (.f2 .mul (.reg 2) (.reg 3))) <|
    .seq (.set 10 (.f2 .mul (.reg 3) (.reg 5))) <|
    .seq (.set 11 (.f2 .mul (.reg 2) (.reg 6))) <|
    .seq (.store (.reg 1) (.f2 .mul (.reg 3) (.reg 4))) <|
    .seq (.store (.off (.reg 1) 1) (.reg 7)) <|
    .seq (.store (.off (.reg 1) 2) (.f2 .mul (.f1 .neg (.reg 4)) (.reg 6))) <|
    .seq (.store (.off (.reg 1) 4) (.f2 .sub (.reg 8) (.f2 .mul (.reg 9) (.reg 7)))) <|
    .seq (.store (.off (.reg 1) 5) (.f2 .mul (.reg 2) (.reg 4))) <|
    .seq (.store (.off (.reg 1) 6) (.f2 .add (.reg 10) (.f2 .mul (.reg 11) (.reg 7)))) <|
    .seq (.store (.off (.reg 1) 8) (.f2 .add (.reg 11) (.f2 .mul (.reg 10) (.reg 7)))) <|
    .seq (.store (.off (.reg 1) 9) (.f2 .mul (.f1 .neg (.reg 4)) (.reg 5))) <|
    .seq (.store (.off (.reg 1) 10) (.f2 .sub (.reg 9) (.f2 .mul (.reg 8) (.reg 7)))) <|
    .seq (.store (.off (.reg 1) 3) (.flit 0)) <|
    .seq (.store (.off (.reg 1) 7) (.flit 0)) <|
    .seq (.store (.off (.reg 1) 11) (.flit 0)) <|
    .seq (.store (.off (.reg 1) 12) (.flit 0)) <|
    .seq (.store (.off (.reg 1) 13) (.flit 0)) <|
    .seq (.store (.off (.reg 1) 14) (.flit 0)) <|
    .store (.off (.reg 1) 15) (.flit 1)

/-- `glm_euler_zxy`: include/cglm/euler.h:322-352. -/
def glm_euler_zxy : Fn where
  locals := []
  nregs := 9
  body := 
    .seq (.set 5 (.f1 .sinf (.load (.reg 0)))) <|
    .seq (.set 2 (.f1 .cosf (.load (.reg 0)))) <|
    .seq (.set 6 (.f1 .sinf (.load (.off (.reg 0) 1)))) <|
    .seq (.set 3 (.f1 .cosf (.load (.off (.reg 0) 1)))) <|
    .seq (.set 7 (.f1 .sinf (.load (.off (.reg 0) 2)))) <|
    .seq (.set 4 (.f1 .cosf (.load (.off (.reg 0) 2)))) <|
    .seq (.set 8 (.f2 .mul (.reg 3) (.reg 4))) <|
    .seq (.set 9 (.f2 .mul (.reg 5) (.reg 6))) <|
    .seq (.set 10 (.f2 .mul (.reg 3) (.reg 7))) <|
    .seq (.store (.reg 1) (.f2 .sub (.reg 8) (.f2 .mul (.reg 9) (.reg 7)))) <|
    .seq (.store (.off (.reg 1) 1) (.f2 .add (.f2 .mul (.reg 4) (.reg 9)) (.reg 10))) <|
    .seq (.store (.off (.reg 1) 2) (.f2 .mul (.f1 .neg (.reg 2)) (.reg 6))) <|
    .seq (.store (.off (.reg 1) 4) (.f2 .mul (.f1 .neg (.reg 2)) (.reg 7))) <|
    .seq (.store (.off (.reg 1) 5) (.f2 .mul (.reg 2) (.reg 4))) <|
    .seq (.store (.off (.reg 1) 6) (.reg 5)) <|
    .seq (.store (.off (.reg 1) 8) (.f2 .add (.f2 .mul (.reg 4) (.reg 6)) (.f2 .mul (.reg 10) (.reg 5)))) <|
    .seq (.store (.off (.reg 1) 9) (.f2 .add (.f2 .mul (.f1 .neg (.reg 8)) (.reg 5)) (.f2 .mul (.reg 6) (.reg 7)))) <|
    .seq (.store (.off (.reg 1) 10) (.f2 .mul (.reg 2) (.reg 3))) <|
    .seq (.store (.off (.reg 1) 3) (.flit 0)) <|
    .seq (.store (.off (.reg 1) 7) (.flit 0)) <|
    .seq (.store (.off (.reg 1) 11) (.flit 0)) <|
    .seq (.store (.off (.reg 1) 12) (.flit 0)) <|
    .seq (.store (.off (.reg 1) 13) (.flit 0)) <|
    .seq (.store (.off (.reg 1) 14) (.flit 0)) <|
    .store (.off (.reg 1) 15) (.flit 1)

/-- `glm_euler_zyx`: include/cglm/euler.h:360-390. -/
def glm_euler_zyx : Fn where
  locals := []
  nregs := 9
  body := 
    .seq (.set 5 (.f1 .sinf (.load (.reg 0)))) <|
    .seq (.set 2 (.f1 .cosf (.load (.reg 0)))) <|
    .seq (.set 6 (.f1 .sinf (.load (.off (.reg 0) 1)))) <|
    .seq (.set 3 (.f1 .cosf (.load (.off (.reg 0) 1)))) <|
    .seq (.set 7 (.f1 .sinf (.load (.off (.reg 0) 2)))) <|
    .seq (.set 4 (.f1 .cosf (.load (.off (.reg 0) 2)))) <|
    .seq (.set 8 (.f2 .mul (.reg 4) (.reg 5))) <|
    .seq (.set 9 (.f2 .mul (.reg 2) (.reg 4))) <|
    .seq (.set 10 (.f2 .mul (.reg 6) (.reg 7))) <|
    .seq (.store (.reg 1) (.f2 .mul (.reg 3) (.reg 4))) <|
    .seq (.store (.off (.reg 1) 1) (.f2 .mul (.reg 3) (.reg 7))) <|
    .seq (.store (.off (.reg 1) 2) (.f1 .neg (.reg 6))) <|
    .seq (.store (.off (.reg 1) 4) (.f2 .sub (.f2 .mul (.reg 8) (.reg 6)) (.f2 .mul (.reg 2) (.reg 7)))) <|
    .seq (.store (.off (.reg 1) 5) (.f2 .add (.reg 9) (.f2 .mul (.reg 5) (.reg 10)))) <|
    .seq (.store (.off (.reg 1) 6) (.f2 .mul (.reg 3) (.reg 5))) <|
    .seq (.store (.off (.reg 1) 8) (.f2 .add (.f2 .mul (.reg 9) (.reg 6)) (.f2 .mul (.reg 5) (.reg 7)))) <|
    .seq (.store (.off (.reg 1) 9) (.f2 .add (.f1 .neg (.reg 8)) (.f2 .mul (.reg 2) (.reg 10)))) <|
    .seq (.store (.off (.reg 1) 10) (.f2 .mul (.reg 2) (.reg 3))) <|
    .seq (.store (.off (.reg 1) 3) (.flit 0)) <|
    .seq (.store (.off (.reg 1) 7) (.flit 0)) <|
    .seq (.store (.off (.reg 1) 11) (.flit 0)) <|
    .seq (.store (.off (.reg 1) 12) (.flit 0)) <|
    .seq (.store (.off (.reg 1) 13) (.flit 0)) <|
    .seq (.store (.off (.reg 1) 14) (.flit 0)) <|
    .store (.off (.reg 1) 15) (.flit 1)

/-- `glm_euler_by_order`: include/cglm/euler.h:399-495. -/
def glm_euler_by_order : Fn where
  locals := []
  nregs := 15
  body := 
    .seq (.set 6 (.f1 .sinf (.load (.reg 0)))) <|
    .seq (.set 3 (.f1 .cosf (.load (.reg 0)))) <|
    .seq (.set 7 (.f1 .sinf (.load (.off (.reg 0) 1)))) <|
    .seq (.set 4 (.f1 .cosf (.load (.off (.reg 0) 1)))) <|
    .seq (.set 8 (.f1 .sinf (.load (.off (.reg 0) 2)))) <|
    .seq (.set 5 (.f1 .cosf (.load (.off (.reg 0) 2)))) <|
    .seq (.set 9 (.f2 .mul (.reg 4) (.reg 5))) <|
    .seq (.set 10 (.f2 .mul (.reg 4) (.reg 8))) <|
    .seq (.set 11 (.f2 .mul (.reg 4) (.reg 6))) <|
    .seq (.set 12 (.f2 .mul (.reg 3) (.reg 4))) <|
    .seq (.set 13 (.f2 .mul (.reg 5) (.reg 7))) <|
    .seq (.set 14 (.f2 .mul (.reg 3) (.reg 5))) <|
    .seq (.set 15 (.f2 .mul (.reg 5) (.reg 6))) <|
    .seq (.set 16 (.f2 .mul (.reg 3) (.reg 8))) <|
    .seq (.set 17 (.f2 .mul (.reg 7) (.reg 8))) <|
    .seq (.ite (.ic .eq (.reg 1) (.ilit 24)) (.seq (.store (.reg 2) (.reg 9)) (.seq (.store (.off (.reg 2) 1) (.f2 .add (.f2 .mul (.reg 6) (.reg 7)) (.f2 .mul (.reg 3) (.reg 10)))) (.seq (.store (.off (.reg 2) 2) (.f2 .add (.f2 .mul (.f1 .neg (.reg 3)) (.reg 7)) (.f2 .mul (.reg 11) (.reg 8)))) (.seq (.store (.off (.reg 2) 4) (.f1 .neg (.reg 8))) (.seq (.store (.off (.reg 2) 5) (.reg 14)) (.seq (.store (.off (.reg 2) 6) (.reg 15)) (.seq (.store (.off (.reg 2) 8) (.reg 13)) (.seq (.store (.off (.reg 2) 9) (.f2 .add (.f1 .neg (.reg 11)) (.f2 .mul (.reg 3) (.reg 17)))) (.store (.off (.reg 2) 10) (.f2 .add (.reg 12) (.f2 .mul (.reg 6) (.reg 17)))))))))))) (.ite (.ic .eq (.reg 1) (.ilit 36)) (.seq (.store (.reg 2) (.reg 9)) (.seq (.store (.off (.reg 2) 1) (.f2 .add (.f2 .mul (.reg 15) (.reg 7)) (.reg 16))) (.seq (.store (.off (.reg 2) 2) (.f2 .add (.f2 .mul (.f1 .neg (.reg 3)) (.reg 13)) (.f2 .mul (.reg 6) (.reg 8)))) (.seq (.store (.off (.reg 2) 4) (.f1 .neg (.reg 10))) (.seq (.store (.off (.reg 2) 5) (.f2 .sub (.reg 14) (.f2 .mul (.reg 6) (.reg 17)))) (.seq (.store (.off (.reg 2) 6) (.f2 .add (.reg 15) (.f2 .mul (.reg 3) (.reg 17)))) (.seq (.store (.off (.reg 2) 8) (.reg 7)) (.seq (.store (.off (.reg 2) 9) (.f1 .neg (.reg 11))) (.store (.off (.reg 2) 10) (.reg 12)))))))))) (.ite (.ic .eq (.reg 1) (.ilit 33)) (.seq (.store (.reg 2) (.f2 .add (.reg 9) (.f2 .mul (.reg 6) (.reg 17)))) (.seq (.store (.off (.reg 2) 1) (.reg 16)) (.seq (.store (.off (.reg 2) 2) (.f2 .add (.f1 .neg (.reg 13)) (.f2 .mul (.reg 11) (.reg 8)))) (.seq (.store (.off (.reg 2) 4) (.f2 .sub (.f2 .mul (.reg 15) (.reg 7)) (.reg 10))) (.seq (.store (.off (.reg 2) 5) (.reg 14)) (.seq (.store (.off (.reg 2) 6) (.f2 .add (.f2 .mul (.reg 9) (.reg 6)) (.reg 17))) (.seq (.store (.off (.reg 2) 8) (.f2 .mul (.reg 3) (.reg 7))) (.seq (.store (.off (.reg 2) 9) (.f1 .neg (.reg 6))) (.store (.off (.reg 2) 10) (.reg 12)))))))))) (.ite (.ic .eq (.reg 1) (.ilit 9)) (.seq (.store (.reg 2) (.reg 9)) (.seq (.store (.off (.reg 2) 1) (.reg 8)) (.seq (.store (.off (.reg 2) 2) (.f1 .neg (.reg 13))) (.seq (.store (.off (.reg 2) 4) (.f2 .sub (.f2 .mul (.reg 6) (.reg 7)) (.f2 .mul (.reg 3) (.reg 10)))) (.seq (.store (.off (.reg 2) 5) (.reg 14)) (.seq (.store (.off (.reg 2) 6) (.f2 .add (.reg 11) (.f2 .mul (.reg 3) (.reg 17)))) (.seq (.store (.off (.reg 2) 8) (.f2 .add (.f2 .mul (.reg 3) (.reg 7)) (.f2 .mul (.reg 11) (.reg 8)))) (.seq (.store (.off (.reg 2) 9) (.f1 .neg (.reg 15))) (.store (.off (.reg 2) 10) (.f2 .sub (.reg 12) (.f2 .mul (.reg 6) (.reg 17)))))))))))) (.ite (.ic .eq (.reg 1) (.ilit 18)) (.seq (.store (.reg 2) (.f2 .sub (.reg 9) (.f2 .mul (.reg 6) (.reg 17)))) (.seq (.store (.off (.reg 2) 1) (.f2 .add (.f2 .mul (.reg 15) (.reg 7)) (.reg 10))) (.seq (.store (.off (.reg 2) 2) (.f2 .mul (.f1 .neg (.reg 3)) (.reg 7))) (.seq (.store (.off (.reg 2) 4) (.f1 .neg (.reg 16))) (.seq (.store (.off (.reg 2) 5) (.reg 14)) (.seq (.store (.off (.reg 2) 6) (.reg 6)) (.seq (.store (.off (.reg 2) 8) (.f2 .add (.reg 13) (.f2 .mul (.reg 11) (.reg 8)))) (.seq (.store (.off (.reg 2) 9) (.f2 .add (.f2 .mul (.f1 .neg (.reg 9)) (.reg 6)) (.reg 17))) (.store (.off (.reg 2) 10) (.reg 12)))))))))) (.ite (.ic .eq (.reg 1) (.ilit 6)) (.seq (.store (.reg 2) (.reg 9)) (.seq (.store (.off (.reg 2) 1) (.reg 10)) (.seq (.store (.off (.reg 2) 2) (.f1 .neg (.reg 7))) (.seq (.store (.off (.reg 2) 4) (.f2 .sub (.f2 .mul (.reg 15) (.reg 7)) (.reg 16))) (.seq (.store (.off (.reg 2) 5) (.f2 .add (.reg 14) (.f2 .mul (.reg 6) (.reg 17)))) (.seq (.store (.off (.reg 2) 6) (.reg 11)) (.seq (.store (.off (.reg 2) 8) (.f2 .add (.f2 .mul (.reg 3) (.reg 13)) (.f2 .mul (.reg 6) (.reg 8)))) (.seq (.store (.off (.reg 2) 9) (.f2 .add (.f1 .neg (.reg 15)) (.f2 .mul (.reg 3) (.reg 17)))) (.store (.off (.reg 2) 10) (.reg 12)))))))))) (.skip))))))) <|
    .seq (.store (.off (.reg 2) 3) (.flit 0)) <|
    .seq (.store (.off (.reg 2) 7) (.flit 0)) <|
    .seq (.store (.off (.reg 2) 11) (.flit 0)) <|
    .seq (.store (.off (.reg 2) 12) (.flit 0)) <|
    .seq (.store (.off (.reg 2) 13) (.flit 0)) <|
    .seq (.store (.off (.reg 2) 14) (.flit 0)) <|
    .store (.off (.reg 2) 15) (.flit 1)

/-- `glm_euler_xyz_quat`: include/cglm/euler.h:505-513. -/
def glm_euler_xyz_quat : Fn where
  locals := []
  nregs := 0
  body := .call none glm_euler_xyz_quat_rh.locals glm_euler_xyz_quat_rh.nregs glm_euler_xyz_quat_rh.body [.reg 0, .reg 1]

/-- `glm_euler_xzy_quat`: include/cglm/euler.h:522-530. -/
def glm_euler_xzy_quat : Fn where
  locals := []
  nregs := 0
  body := .call none glm_euler_xzy_quat_rh.locals glm_euler_xzy_quat_rh.nregs glm_euler_xzy_quat_rh.body [.reg 0, .reg 1]

/-- `glm_euler_yxz_quat`: include/cglm/euler.h:539-547. -/
def glm_euler_yxz_quat : Fn where
  locals := []
  nregs := 0
  body := .call none glm_euler_yxz_quat_rh.locals glm_euler_yxz_quat_rh.nregs glm_euler_yxz_quat_rh.body [.reg 0, .reg 1]

/-- `glm_euler_yzx_quat`: include/cglm/euler.h:556-564. -/
def glm_euler_yzx_quat : Fn where
  locals := []
  nregs := 0
  body := .call none glm_euler_yzx_quat_rh.locals glm_euler_yzx_quat_rh.nregs glm_euler_yzx_quat_rh.body [.reg 0, .reg 1]

/-- `glm_euler_zxy_quat`: include/cglm/euler.h:573-581. -/
def glm_euler_zxy_quat : Fn where
  locals := []
  nregs := 0
  body := .call none glm_euler_zxy_quat_rh.locals glm_euler_zxy_quat_rh.nregs glm_euler_zxy_quat_rh.body [.reg 0, .reg 1]

/-- `glm_euler_zyx_quat`: include/cglm/euler.h:590-598. -/
def glm_euler_zyx_quat : Fn where
  locals := []
  nregs := 0
  body := .call none glm_euler_zyx_quat_rh.locals glm_euler_zyx_quat_rh.nregs glm_euler_zyx_quat_rh.body [.reg 0, .reg 1]

end Cglm.C

end Euler

section HandedEulerToQuatLh

/- Generated from include/cglm/handed/euler_to_quat_lh.h by tools/memgen.py (memory semantics); do not edit by hand. -/

set_option maxRecDepth 10000

namespace Cglm.C
open CMem

/-- `glm_euler_xyz_quat_lh`: include/cglm/handed/euler_to_quat_lh.h:36-50. -/
def glm_euler_xyz_quat_lh : Fn where
  locals := []
  nregs := 6
  body := 
    .seq (.set 5 (.f1 .sinf (.f2 .mul (.load (.reg 0)) (.flit 0.5)))) <|
    .seq (.set 2 (.f1 .cosf (.f2 .mul (.load (.reg 0)) (.flit 0.5)))) <|
    .seq (.set 6 (.f1 .sinf (.f2 .mul (.load (.off (.reg 0) 1)) (.flit 0.5)))) <|
    .seq (.set 3 (.f1 .cosf (.f2 .mul (.load (.off (.reg 0) 1)) (.flit 0.5)))) <|
    .seq (.set 7 (.f1 .neg (.f1 .sinf (.f2 .mul (.load (.off (.reg 0) 2)) (.flit 0.5))))) <|
    .seq (.set 4 (.f1 .cosf (.f2 .mul (.load (.off (.reg 0) 2)) (.flit 0.5)))) <|
    .seq (.store (.reg 1) (.f2 .add (.f2 .mul (.f2 .mul (.reg 2) (.reg 6)) (.reg 7)) (.f2 .mul (.f2 .mul (.reg 5) (.reg 3)) (.reg 4)))) <|
    .seq (.store (.off (.reg 1) 1) (.f2 .sub (.f2 .mul (.f2 .mul (.reg 2) (.reg 6)) (.reg 4)) (.f2 .mul (.f2 .mul (.reg 5) (.reg 3)) (.reg 7)))) <|
    .seq (.store (.off (.reg 1) 2) (.f2 .add (.f2 .mul (.f2 .mul (.reg 2) (.reg 3)) (.reg 7)) (.f2 .mul (.f2 .mul (.reg 5) (.reg 6)) (.reg 4)))) <|
    .store (.off (.reg 1) 3) (.f2 .sub (.f2 .mul (.f2 .mul (.reg 2) (.reg 3)) (.reg 4)) (.f2 .mul (.f2 .mul (.reg 5) (.reg 6)) (.reg 7)))

/-- `glm_euler_xzy_quat_lh`: include/cglm/handed/euler_to_quat_lh.h:59-73. -/
def glm_euler_xzy_quat_lh : Fn where
  locals := []
  nregs := 6
  body := 
    .seq (.set 5 (.f1 .sinf (.f2 .mul (.load (.reg 0)) (.flit 0.5)))) <|
    .seq (.set 2 (.f1 .cosf (.f2 .mul (.load (.reg 0)) (.flit 0.5)))) <|
    .seq (.set 6 (.f1 .sinf (.f2 .mul (.load (.off (.reg 0) 1)) (.flit 0.5)))) <|
    .seq (.set 3 (.f1 .cosf (.f2 .mul (.load (.off (.reg 0) 1)) (.flit 0.5)))) <|
    .seq (.set 7 (.f1 .neg (.f1 .sinf (.f2 .mul (.load (.off (.reg 0) 2)) (.flit 0.5))))) <|
    .seq (.set 4 (.f1 .cosf (.f2 .mul (.load (.off (.reg 0) 2)) (.flit 0.5)))) <|
    .seq (.store (.reg 1) (.f2 .add (.f2 .mul (.f2 .mul (.f1 .neg (.reg 2)) (.reg 7)) (.reg 6)) (.f2 .mul (.f2 .mul (.reg 5) (.reg 4)) (.reg 3)))) <|
    .seq (.store (.off (.reg 1) 1) (.f2 .sub (.f2 .mul (.f2 .mul (.reg 2) (.reg 4)) (.reg 6)) (.f2 .mul (.f2 .mul (.reg 5) (.reg 7)) (.reg 3)))) <|
    .seq (.store (.off (.reg 1) 2) (.f2 .add (.f2 .mul (.f2 .mul (.reg 2) (.reg 7)) (.reg 3)) (.f2 .mul (.f2 .mul (.reg 5) (.reg 4)) (.reg 6)))) <|
    .store (.off (.reg 1) 3) (.f2 .add (.f2 .mul (.f2 .mul (.reg 2) (.reg 4)) (.reg 3)) (.f2 .mul (.f2 .mul (.reg 5) (.reg 7)) (.reg 6)))

/-- `glm_euler_yxz_quat_lh`: include/cglm/handed/euler_to_quat_lh.h:82-96. -/
def glm_euler_yxz_quat_lh : Fn where
  locals := []
  nregs := 6
  body := 
    .seq (.set 5 (.f1 .sinf (.f2 .mul (.load (.reg 0)) (.flit 0.5)))) <|
    .seq (.set 2 (.f1 .cosf (.f2 .mul (.load (.reg 0)) (.flit 0.5)))) <|
    .seq (.set 6 (.f1 .sinf (.f2 .mul (.load (.off (.reg 0) 1)) (.flit 0.5)))) <|
    .seq (.set 3 (.f1 .cosf (.f2 .mul (.load (.off (.reg 0) 1)) (.flit 0.5)))) <|
    .seq (.set 7 (.f1 .neg (.f1 .sinf (.f2 .mul (.load (.off (.reg 0) 2)) (.flit 0.5))))) <|
    .seq (.set 4 (.f1 .cosf (.f2 .mul (.load (.off (.reg 0) 2)) (.flit 0.5)))) <|
    .seq (.store (.reg 1) (.f2 .add (.f2 .mul (.f2 .mul (.reg 3) (.reg 5)) (.reg 4)) (.f2 .mul (.f2 .mul (.reg 6) (.reg 2)) (.reg 7)))) <|
    .seq (.store (.off (.reg 1) 1) (.f2 .add (.f2 .mul (.f2 .mul (.f1 .neg (.reg 3)) (.reg 5)) (.reg 7)) (.f2 .mul (.f2 .mul (.reg 6) (.reg 2)) (.reg 4)))) <|
    .seq (.store (.off (.reg 1) 2) (.f2 .sub (.f2 .mul (.f2 .mul (.reg 3) (.reg 2)) (.reg 7)) (.f2 .mul (.f2 .mul (.reg 6) (.reg 5)) (.reg 4)))) <|
    .store (.off (.reg 1) 3) (.f2 .add (.f2 .mul (.f2 .mul (.reg 3) (.reg 2)) (.reg 4)) (.f2 .mul (.f2 .mul (.reg 6) (.reg 5)) (.reg 7)))

/-- `glm_euler_yzx_quat_lh`: include/cglm/handed/euler_to_quat_lh.h:105-119. -/
def glm_euler_yzx_quat_lh : Fn where
  locals := []
  nregs := 6
  body := 
    .seq (.set 5 (.f1 .sinf (.f2 .mul (.load (.reg 0)) (.flit 0.5)))) <|
    .seq (.set 2 (.f1 .cosf (.f2 .mul (.load (.reg 0)) (.flit 0.5)))) <|
    .seq (.set 6 (.f1 .sinf (.f2 .mul (.load (.off (.reg 0) 1)) (.flit 0.5)))) <|
    .seq (.set 3 (.f1 .cosf (.f2 .mul (.load (.off (.reg 0) 1)) (.flit 0.5)))) <|
    .seq (.set 7 (.f1 .neg (.f1 .sinf (.f2 .mul (.load (.off (.reg 0) 2)) (.flit 0.5))))) <|
    .seq (.set 4 (.f1 .cosf (.f2 .mul (.load (.off (.reg 0) 2)) (.flit 0.5)))) <|
    .seq (.store (.reg 1) (.f2 .add (.f2 .mul (.f2 .mul (.reg 3) (.reg 4)) (.reg 5)) (.f2 .mul (.f2 .mul (.reg 6) (.reg 7)) (.reg 2)))) <|
    .seq (.store (.off (.reg 1) 1) (.f2 .add (.f2 .mul (.f2 .mul (.reg 3) (.reg 7)) (.reg 5)) (.f2 .mul (.f2 .mul (.reg 6) (.reg 4)) (.reg 2)))) <|
    .seq (.store (.off (.reg 1) 2) (.f2 .sub (.f2 .mul (.f2 .mul (.reg 3) (.reg 7)) (.reg 2)) (.f2 .mul (.f2 .mul (.reg 6) (.reg 4)) (.reg 5)))) <|
    .store (.off (.reg 1) 3) (.f2 .sub (.f2 .mul (.f2 .mul (.reg 3) (.reg 4)) (.reg 2)) (.f2 .mul (.f2 .mul (.reg 6) (.reg 7)) (.reg 5)))

/-- `glm_euler_zxy_quat_lh`: include/cglm/handed/euler_to_quat_lh.h:128-142. -/
def glm_euler_zxy_quat_lh : Fn where
  locals := []
  nregs := 6
  body := 
    .seq (.set 5 (.f1 .sinf (.f2 .mul (.load (.reg 0)) (.flit 0.5)))) <|
    .seq (.set 2 (.f1 .cosf (.f2 .mul (.load (.reg 0)) (.flit 0.5)))) <|
    .seq (.set 6 (.f1 .sinf (.f2 .mul (.load (.off (.reg 0) 1)) (.flit 0.5)))) <|
    .seq (.set 3 (.f1 .cosf (.f2 .mul (.load (.off (.reg 0) 1)) (.flit 0.5)))) <|
    .seq (.set 7 (.f1 .neg (.f1 .sinf (.f2 .mul (.load (.off (.reg 0) 2)) (.flit 0.5))))) <|
    .seq (.set 4 (.f1 .cosf (.f2 .mul (.load (.off (.reg 0) 2)) (.flit 0.5)))) <|
    .seq (.store (.reg 1) (.f2 .sub (.f2 .mul (.f2 .mul (.reg 4) (.reg 5)) (.reg 3)) (.f2 .mul (.f2 .mul (.reg 7) (.reg 2)) (.reg 6)))) <|
    .seq (.store (.off (.reg 1) 1) (.f2 .add (.f2 .mul (.f2 .mul (.reg 4) (.reg 2)) (.reg 6)) (.f2 .mul (.f2 .mul (.reg 7) (.reg 5)) (.reg 3)))) <|
    .seq (.store (.off (.reg 1) 2) (.f2 .add (.f2 .mul (.f2 .mul (.reg 4) (.reg 5)) (.reg 6)) (.f2 .mul (.f2 .mul (.reg 7) (.reg 2)) (.reg 3)))) <|
    .store (.off (.reg 1) 3) (.f2 .sub (.f2 .mul (.f2 .mul (.reg 4) (.reg 2)) (.reg 3)) (.f2 .mul (.f2 .mul (.reg 7) (.reg 5)) (.reg 6)))

/-- `glm_euler_zyx_quat_lh`: include/cglm/handed/euler_to_quat_lh.h:151-165. -/
def glm_euler_zyx_quat_lh : Fn where
  locals := []
  nregs := 6
  body := 
    .seq (.set 5 (.f1 .sinf (.f2 .mul (.load (.reg 0)) (.flit 0.5)))) <|
    .seq (.set 2 (.f1 .cosf (.f2 .mul (.load (.reg 0)) (.flit 0.5)))) <|
    .seq (.set 6 (.f1 .sinf (.f2 .mul (.load (.off (.reg 0) 1)) (.flit 0.5)))) <|
    .seq (.set 3 (.f1 .cosf (.f2 .mul (.load (.off (.reg 0) 1)) (.flit 0.5)))) <|
    .seq (.set 7 (.f1 .neg (.f1 .sinf (.f2 .mul (.load (.off (.reg 0) 2)) (.flit 0.5))))) <|
    .seq (.set 4 (.f1 .cosf (.f2 .mul (.load (.off (.reg 0) 2)) (.flit 0.5)))) <|
    .seq (.store (.reg 1) (.f2 .sub (.f2 .mul (.f2 .mul (.reg 4) (.reg 3)) (.reg 5)) (.f2 .mul (.f2 .mul (.reg 7) (.reg 6)) (.reg 2)))) <|
    .seq (.store (.off (.reg 1) 1) (.f2 .add (.f2 .mul (.f2 .mul (.reg 4) (.reg 6)) (.reg 2)) (.f2 .mul (.f2 .mul (.reg 7) (.reg 3)) (.reg 5)))) <|
    .seq (.store (.off (.reg 1) 2) (.f2 .add (.f2 .mul (.f2 .mul (.f1 .neg (.reg 4)) (.reg 6)) (.reg 5)) (.f2 .mul (.f2 .mul (.reg 7) (.reg 3)) (.reg 2)))) <|
    .store (.off (.reg 1) 3) (.f2 .add (.f2 .mul (.f2 .mul (.reg 4) (.reg 3)) (.reg 2)) (.f2 .mul (.f2 .mul (.reg 7) (.reg 6)) (.reg 5)))

end Cglm.C

end HandedEulerToQuatLh

section Quat

/- Generated from include/cglm/quat.h by tools/memgen.py (memory semantics); do not edit by hand. -/

set_option maxRecDepth 10000

namespace Cglm.C
open CMem

/-- `glm_quat_identity`: include/cglm/quat.h:99-104. -/
def glm_quat_identity : Fn where
  locals := [4]
  nregs := 0
  body := 
    .seq (.store (.loc 0) (.flit 0)) <|
    .seq (.store (.off (.loc 0) 1) (.flit 0)) <|
    .seq (.store (.off (.loc 0) 2) (.flit 0)) <|
    .seq (.store (.off (.loc 0) 3) (.flit 1)) <|
    .call none glm_vec4_copy.locals glm_vec4_copy.nregs glm_vec4_copy.body [.loc 0, .reg 0]

/-- `glm_quat_init`: include/cglm/quat.h:134-141. -/
def glm_quat_init : Fn where
  locals := []
  nregs := 0
  body := 
    .seq (.store (.reg 0) (.reg 1)) <|
    .seq (.store (.off (.reg 0) 1) (.reg 2)) <|
    .seq (.store (.off (.reg 0) 2) (.reg 3)) <|
    .store (.off (.reg 0) 3) (.reg 4)

/-- `glm_quatv`: include/cglm/quat.h:150-166. -/
def glm_quatv : Fn where
  locals := [3]
  nregs := 3
  body := 
    .seq (.set 3 (.f2 .mul (.reg 1) (.flit 0.5))) <|
    .seq (.set 4 (.f1 .cosf (.reg 3))) <|
    .seq (.set 5 (.f1 .sinf (.reg 3))) <|
    .seq (.call none glm_normalize_to.locals glm_normalize_to.nregs glm_normalize_to.body [.reg 2, .loc 0]) <|
    .seq (.store (.reg 0) (.f2 .mul (.reg 5) (.load (.loc 0)))) <|
    .seq (.store (.off (.reg 0) 1) (.f2 .mul (.reg 5) (.load (.off (.loc 0) 1)))) <|
    .seq (.store (.off (.reg 0) 2) (.f2 .mul (.reg 5) (.load (.off (.loc 0) 2)))) <|
    .store (.off (.reg 0) 3) (.reg 4)

/-- `glm_quat`: include/cglm/quat.h:177-182. -/
def glm_quat : Fn where
  locals := [3]
  nregs := 0
  body := 
    .seq (.store (.loc 0) (.reg 2)) <|
    .seq (.store (.off (.loc 0) 1) (.reg 3)) <|
    .seq (.store (.off (.loc 0) 2) (.reg 4)) <|
    .call none glm_quatv.locals glm_quatv.nregs glm_quatv.body [.reg 0, .reg 1, .loc 0]

/-- `glm_quat_copy`: include/cglm/quat.h:190-194. -/
def glm_quat_copy : Fn where
  locals := []
  nregs := 0
  body := .call none glm_vec4_copy.locals glm_vec4_copy.nregs glm_vec4_copy.body [.reg 0, .reg 1]

/-- `glm_quat_norm`: include/cglm/quat.h:232-236. -/
def glm_quat_norm : Fn where
  locals := []
  nregs := 1
  body := 
    .seq (.call (some 1) glm_vec4_norm.locals glm_vec4_norm.nregs glm_vec4_norm.body [.reg 0]) <|
    .ret (.reg 1)

/-- `glm_quat_normalize_to`: include/cglm/quat.h:244-288. -/
def glm_quat_normalize_to : Fn where
  locals := []
  nregs := 2
  body := 
    .seq (.call (some 3) glm_vec4_norm2.locals glm_vec4_norm2.nregs glm_vec4_norm2.body [.reg 0]) <|
    .seq (.set 2 (.reg 3)) <|
    .seq (.ite (.fc .le (.reg 2) (.flit 0)) (.seq (.call none glm_quat_identity.locals glm_quat_identity.nregs glm_quat_identity.body [.reg 1]) (.retVoid)) (.skip)) <|
    .call none glm_vec4_scale.locals glm_vec4_scale.nregs glm_vec4_scale.body [.reg 0, .f2 .div (.flit 1) (.f1 .sqrtf (.reg 2)), .reg 1]

/-- `glm_quat_normalize`: include/cglm/quat.h:295-299. -/
def glm_quat_normalize : Fn where
  locals := []
  nregs := 0
  body := .call none glm_quat_normalize_to.locals glm_quat_normalize_to.nregs glm_quat_normalize_to.body [.reg 0, .reg 0]

/-- `glm_quat_dot`: include/cglm/quat.h:307-311. -/
def glm_quat_dot : Fn where
  locals := []
  nregs := 1
  body := 
    .seq (.call (some 2) glm_vec4_dot.locals glm_vec4_dot.nregs glm_vec4_dot.body [.reg 0, .reg 1]) <|
    .ret (.reg 2)

/-- `glm_quat_conjugate`: include/cglm/quat.h:319-324. -/
def glm_quat_conjugate : Fn where
  locals := []
  nregs := 0
  body := 
    .seq (.call none glm_vec4_negate_to.locals glm_vec4_negate_to.nregs glm_vec4_negate_to.body [.reg 0, .reg 1]) <|
    .store (.off (.reg 1) 3) (.f1 .neg (.load (.off (.reg 1) 3)))

/-- `glm_quat_inv`: include/cglm/quat.h:332-338. -/
def glm_quat_inv : Fn where
  locals := [4]
  nregs := 1
  body := 
    .seq (.call none glm_quat_conjugate.locals glm_quat_conjugate.nregs glm_quat_conjugate.body [.reg 0, .loc 0]) <|
    .seq (.call (some 2) glm_vec4_norm2.locals glm_vec4_norm2.nregs glm_vec4_norm2.body [.reg 0]) <|
    .call none glm_vec4_scale.locals glm_vec4_scale.nregs glm_vec4_scale.body [.loc 0, .f2 .div (.flit 1) (.reg 2), .reg 1]

/-- `glm_quat_add`: include/cglm/quat.h:347-351. -/
def glm_quat_add : Fn where
  locals := []
  nregs := 0
  body := .call none glm_vec4_add.locals glm_vec4_add.nregs glm_vec4_add.body [.reg 0, .reg 1, .reg 2]

/-- `glm_quat_sub`: include/cglm/quat.h:360-364. -/
def glm_quat_sub : Fn where
  locals := []
  nregs := 0
  body := .call none glm_vec4_sub.locals glm_vec4_sub.nregs glm_vec4_sub.body [.reg 0, .reg 1, .reg 2]

/-- `glm_quat_real`: include/cglm/quat.h:371-375. -/
def glm_quat_real : Fn where
  locals := []
  nregs := 0
  body := .ret (.load (.off (.reg 0) 3))

/-- `glm_quat_imag`: include/cglm/quat.h:383-389. -/
def glm_quat_imag : Fn where
  locals := []
  nregs := 0
  body := 
    .seq (.store (.reg 1) (.load (.reg 0))) <|
    .seq (.store (.off (.reg 1) 1) (.load (.off (.reg 0) 1))) <|
    .store (.off (.reg 1) 2) (.load (.off (.reg 0) 2))

/-- `glm_quat_imagn`: include/cglm/quat.h:396-400. -/
def glm_quat_imagn : Fn where
  locals := []
  nregs := 0
  body := .call none glm_normalize_to.locals glm_normalize_to.nregs glm_normalize_to.body [.reg 0, .reg 1]

/-- `glm_quat_imaglen`: include/cglm/quat.h:407-411. -/
def glm_quat_imaglen : Fn where
  locals := []
  nregs := 1
  body := 
    .seq (.call (some 1) glm_vec3_norm.locals glm_vec3_norm.nregs glm_vec3_norm.body [.reg 0]) <|
    .ret (.reg 1)

/-- `glm_quat_angle`: include/cglm/quat.h:418-427. -/
def glm_quat_angle : Fn where
  locals := []
  nregs := 2
  body := 
    .seq (.call (some 1) glm_quat_imaglen.locals glm_quat_imaglen.nregs glm_quat_imaglen.body [.reg 0]) <|
    .seq (.call (some 2) glm_quat_real.locals glm_quat_real.nregs glm_quat_real.body [.reg 0]) <|
    .ret (.f2 .mul (.flit 2) (.f2 .atan2f (.reg 1) (.reg 2)))

/-- `glm_quat_axis`: include/cglm/quat.h:435-439. -/
def glm_quat_axis : Fn where
  locals := []
  nregs := 0
  body := .call none glm_quat_imagn.locals glm_quat_imagn.nregs glm_quat_imagn.body [.reg 0, .reg 1]

/-- `glm_quat_mul`: include/cglm/quat.h:453-474. -/
def glm_quat_mul : Fn where
  locals := []
  nregs := 0
  body := 
    .seq (.store (.reg 2) (.f2 .sub (.f2 .add (.f2 .add (.f2 .mul (.load (.off (.reg 0) 3)) (.load (.reg 1))) (.f2 .mul (.load (.reg 0)) (.load (.off (.reg 1) 3)))) (.f2 .mul (.load (.off (.reg 0) 1)) (.load (.off (.reg 1) 2)))) (.f2 .mul (.load (.off (.reg 0) 2)) (.load (.off (.reg 1) 1))))) <|
    .seq (.store (.off (.reg 2) 1) (.f2 .add (.f2 .add (.f2 .sub (.f2 .mul (.load (.off (.reg 0) 3)) (.load (.off (.reg 1) 1))) (.f2 .mul (.load (.reg 0)) (.load (.off (.reg 1) 2)))) (.f2 .mul (.load (.off (.reg 0) 1)) (.load (.off (.reg 1) 3)))) (.f2 .mul (.load (.off (.reg 0) 2)) (.load (.reg 1))))) <|
    .seq (.store (.off (.reg 2) 2) (.f2 .add (.f2 .sub (.f2 .add (.f2 .mul (.load (.off (.reg 0) 3)) (.load (.off (.reg 1) 2))) (.f2 .mul (.load (.reg 0)) (.load (.off (.reg 1) 1)))) (.f2 .mul (.load (.off (.reg 0) 1)) (.load (.reg 1)))) (.f2 .mul (.load (.off (.reg 0) 2)) (.load (.off (.reg 1) 3))))) <|
    .store (.off (.reg 2) 3) (.f2 .sub (.f2 .sub (.f2 .sub (.f2 .mul (.load (.off (.reg 0) 3)) (.load (.off (.reg 1) 3))) (.f2 .mul (.load (.reg 0)) (.load (.reg 1)))) (.f2 .mul (.load (.off (.reg 0) 1)) (.load (.off (.reg 1) 1)))) (.f2 .mul (.load (.off (.reg 0) 2)) (.load (.off (.reg 1) 2))))

/-- `glm_quat_mat4`: include/cglm/quat.h:482-521. -/
def glm_quat_mat4 : Fn where
  locals := []
  nregs := 16
  body := 
    .seq (.call (some 17) glm_quat_norm.locals glm_quat_norm.nregs glm_quat_norm.body [.reg 0]) <|
    .seq (.set 15 (.reg 17)) <|
    .seq (.set 16 (.ite (.fc .lt (.flit 0) (.reg 15)) (.f2 .div (.flit 2) (.reg 15)) (.flit 0))) <|
    .seq (.set 3 (.load (.reg 0))) <|
    .seq (.set 4 (.load (.off (.reg 0) 1))) <|
    .seq (.set 5 (.load (.off (.reg 0) 2))) <|
    .seq (.set 2 (.load (.off (.reg 0) 3))) <|
    .seq (.set 6 (.f2 .mul (.f2 .mul (.reg 16) (.reg 3)) (.reg 3))) <|
    .seq (.set 9 (.f2 .mul (.f2 .mul (.reg 16) (.reg 3)) (.reg 4))) <|
    .seq (.set 12 (.f2 .mul (.f2 .mul (.reg 16) (.reg 2)) (.reg 3))) <|
    .seq (.set 7 (.f2 .mul (.f2 .mul (.reg 16) (.reg 4)) (.reg 4))) <|
    .seq (.set 10 (.f2 .mul (.f2 .mul (.reg 16) (.reg 4)) (.reg 5))) <|
    .seq (.set 13 (.f2 .mul (.f2 .mul (.reg 16) (.reg 2)) (.reg 4))) <|
    .seq (.set 8 (.f2 .mul (.f2 .mul (.reg 16) (.reg 5)) (.reg 5))) <|
    .seq (.set 11 (.f2 .mul (.f2 .mul (.reg 16) (.reg 3)) (.reg 5))) <|
    .seq (.set 14 (.f2 .mul (.f2 .mul (.reg 16) (.reg 2)) (.reg 5))) <|
    .seq (.store (.reg 1) (.f2 .sub (.f2 .sub (.flit 1) (.reg 7)) (.reg 8))) <|
    .seq (.store (.off (.reg 1) 5) (.f2 .sub (.f2 .sub (.flit 1) (.reg 6)) (.reg 8))) <|
    .seq (.store (.off (.reg 1) 10) (.f2 .sub (.f2 .sub (.flit 1) (.reg 6)) (.reg 7))) <|
    .seq (.store (.off (.reg 1) 1) (.f2 .add (.reg 9) (.reg 14))) <|
    .seq (.store (.off (.reg 1) 6) (.f2 .add (.reg 10) (.reg 12))) <|
    .seq (.store (.off (.reg 1) 8) (.f2 .add (.reg 11) (.reg 13))) <|
    .seq (.store (.off (.reg 1) 4) (.f2 .sub (.reg 9) (.reg 14))) <|
    .seq (.store (.off (.reg 1) 9) (.f2 .sub (.reg 10) (.reg 12))) <|
    .seq (.store (.off (.reg 1) 2) (.f2 .sub (.reg 11) (.reg 13))) <|
    .seq (.store (.off (.reg 1) 3) (.flit 0)) <|
    .seq (.store (.off (.reg 1) 7) (.flit 0)) <|
    .seq (.store (.off (.reg 1) 11) (.flit 0)) <|
    .seq (.store (.off (.reg 1) 12) (.flit 0)) <|
    .seq (.store (.off (.reg 1) 13) (.flit 0)) <|
    .seq (.store (.off (.reg 1) 14) (.flit 0)) <|
    .store (.off (.reg 1) 15) (.flit 1)

/-- `glm_quat_mat4t`: include/cglm/quat.h:529-568. -/
def glm_quat_mat4t : Fn where
  locals := []
  nregs := 16
  body := 
    .seq (.call (some 17) glm_quat_norm.locals glm_quat_norm.nregs glm_quat_norm.body [.reg 0]) <|
    .seq (.set 15 (.reg 17)) <|
    .seq (.set 16 (.ite (.fc .lt (.flit 0) (.reg 15)) (.f2 .div (.flit 2) (.reg 15)) (.flit 0))) <|
    .seq (.set 3 (.load (.reg 0))) <|
    .seq (.set 4 (.load (.off (.reg 0) 1))) <|
    .seq (.set 5 (.load (.off (.reg 0) 2))) <|
    .seq (.set 2 (.load (.off (.reg 0) 3))) <|
    .seq (.set 6 (.f2 .mul (.f2 .mul (.reg 16) (.reg 3)) (.reg 3))) <|
    .seq (.set 9 (.f2 .mul (.f2 .mul (.reg 16) (.reg 3)) (.reg 4))) <|
    .seq (.set 12 (.f2 .mul (.f2 .mul (.reg 16) (.reg 2)) (.reg 3))) <|
    .seq (.set 7 (.f2 .mul (.f2 .mul (.reg 16) (.reg 4)) (.reg 4))) <|
    .seq (.set 10 (.f2 .mul (.f2 .mul (.reg 16) (.reg 4)) (.reg 5))) <|
    .seq (.set 13 (.f2 .mul (.f2 .mul (.reg 16) (.reg 2)) (.reg 4))) <|
    .seq (.set 8 (.f2 .mul (.f2 .mul (.reg 16) (.reg 5)) (.reg 5))) <|
    .seq (.set 11 (.f2 .mul (.f2 .mul (.reg 16) (.reg 3)) (.reg 5))) <|
    .seq (.set 14 (.f2 .mul (.f2 .mul (.reg 16) (.reg 2)) (.reg 5))) <|
    .seq (.store (.reg 1) (.f2 .sub (.f2 .sub (.flit 1) (.reg 7)) (.reg 8))) <|
    .seq (.store (.off (.reg 1) 5) (.f2 .sub (.f2 .sub (.flit 1) (.reg 6)) (.reg 8))) <|
    .seq (.store (.off (.reg 1) 10) (.f2 .sub (.f2 .sub (.flit 1) (.reg 6)) (.reg 7))) <|
    .seq (.store (.off (.reg 1) 4) (.f2 .add (.reg 9) (.reg 14))) <|
    .seq (.store (.off (.reg 1) 9) (.f2 .add (.reg 10) (.reg 12))) <|
    .seq (.store (.off (.reg 1) 2) (.f2 .add (.reg 11) (.reg 13))) <|
    .seq (.store (.off (.reg 1) 1) (.f2 .sub (.reg 9) (.reg 14))) <|
    .seq (.store (.off (.reg 1) 6) (.f2 .sub (.reg 10) (.reg 12))) <|
    .seq (.store (.off (.reg 1) 8) (.f2 .sub (.reg 11) (.reg 13))) <|
    .seq (.store (.off (.reg 1) 3) (.flit 0)) <|
    .seq (.store (.off (.reg 1) 7) (.flit 0)) <|
    .seq (.store (.off (.reg 1) 11) (.flit 0)) <|
    .seq (.store (.off (.reg 1) 12) (.flit 0)) <|
    .seq (.store (.off (.reg 1) 13) (.flit 0)) <|
    .seq (.store (.off (.reg 1) 14) (.flit 0)) <|
    .store (.off (.reg 1) 15) (.flit 1)

/-- `glm_quat_mat3`: include/cglm/quat.h:576-607. -/
def glm_quat_mat3 : Fn where
  locals := []
  nregs := 16
  body := 
    .seq (.call (some 17) glm_quat_norm.locals glm_quat_norm.nregs glm_quat_norm.body [.reg 0]) <|
    .seq (.set 15 (.reg 17)) <|
    .seq (.set 16 (.ite (.fc .lt (.flit 0) (.reg 15)) (.f2 .div (.flit 2) (.reg 15)) (.flit 0))) <|
    .seq (.set 3 (.load (.reg 0))) <|
    .seq (.set 4 (.load (.off (.reg 0) 1))) <|
    .seq (.set 5 (.load (.off (.reg 0) 2))) <|
    .seq (.set 2 (.load (.off (.reg 0) 3))) <|
    .seq (.set 6 (.f2 .mul (.f2 .mul (.reg 16) (.reg 3)) (.reg 3))) <|
    .seq (.set 9 (.f2 .mul (.f2 .mul (.reg 16) (.reg 3)) (.reg 4))) <|
    .seq (.set 12 (.f2 .mul (.f2 .mul (.reg 16) (.reg 2)) (.reg 3))) <|
    .seq (.set 7 (.f2 .mul (.f2 .mul (.reg 16) (.reg 4)) (.reg 4))) <|
    .seq (.set 10 (.f2 .mul (.f2 .mul (.reg 16) (.reg 4)) (.reg 5))) <|
    .seq (.set 13 (.f2 .mul (.f2 .mul (.reg 16) (.reg 2)) (.reg 4))) <|
    .seq (.set 8 (.f2 .mul (.f2 .mul (.reg 16) (.reg 5)) (.reg 5))) <|
    .seq (.set 11 (.f2 .mul (.f2 .mul (.reg 16) (.reg 3)) (.reg 5))) <|
    .seq (.set 14 (.f2 .mul (.f2 .mul (.reg 16) (.reg 2)) (.reg 5))) <|
    .seq (.store (.reg 1) (.f2 .sub (.f2 .sub (.flit 1) (.reg 7)) (.reg 8))) <|
    .seq (.store (.off (.reg 1) 4) (.f2 .sub (.f2 .sub (.flit 1) (.reg 6)) (.reg 8))) <|
    .seq (.store (.off (.reg 1) 8) (.f2 .sub (.f2 .sub (.flit 1) (.reg 6)) (.reg 7))) <|
    .seq (.store (.off (.reg 1) 1) (.f2 .add (.reg 9) (.reg 14))) <|
    .seq (.store (.off (.reg 1) 5) (.f2 .add (.reg 10) (.reg 12))) <|
    .seq (.store (.off (.reg 1) 6) (.f2 .add (.reg 11) (.reg 13))) <|
    .seq (.store (.off (.reg 1) 3) (.f2 .sub (.reg 9) (.reg 14))) <|
    .seq (.store (.off (.reg 1) 7) (.f2 .sub (.reg 10) (.reg 12))) <|
    .store (.off (.reg 1) 2) (.f2 .sub (.reg 11) (.reg 13))

/-- `glm_quat_mat3t`: include/cglm/quat.h:615-646. -/
def glm_quat_mat3t : Fn where
  locals := []
  nregs := 16
  body := 
    .seq (.call (some 17) glm_quat_norm.locals glm_quat_norm.nregs glm_quat_norm.body [.reg 0]) <|
    .seq (.set 15 (.reg 17)) <|
    .seq (.set 16 (.ite (.fc .lt (.flit 0) (.reg 15)) (.f2 .div (.flit 2) (.reg 15)) (.flit 0))) <|
    .seq (.set 3 (.load (.reg 0))) <|
    .seq (.set 4 (.load (.off (.reg 0) 1))) <|
    .seq (.set 5 (.load (.off (.reg 0) 2))) <|
    .seq (.set 2 (.load (.off (.reg 0) 3))) <|
    .seq (.set 6 (.f2 .mul (.f2 .mul (.reg 16) (.reg 3)) (.reg 3))) <|
    .seq (.set 9 (.f2 .mul (.f2 .mul (.reg 16) (.reg 3)) (.reg 4))) <|
    .seq (.set 12 (.f2 .mul (.f2 .mul (.reg 16) (.reg 2)) (.reg 3))) <|
    .seq (.set 7 (.f2 .mul (.f2 .mul (.reg 16) (.reg 4)) (.reg 4))) <|
    .seq (.set 10 (.f2 .mul (.f2 .mul (.reg 16) (.reg 4)) (.reg 5))) <|
    .seq (.set 13 (.f2 .mul (.f2 .mul (.reg 16) (.reg 2)) (.reg 4))) <|
    .seq (.set 8 (.f2 .mul (.f2 .mul (.reg 16) (.reg 5)) (.reg 5))) <|
    .seq (.set 11 (.f2 .mul (.f2 .mul (.reg 16) (.reg 3)) (.reg 5))) <|
    .seq (.set 14 (.f2 .mul (.f2 .mul (.reg 16) (.reg 2)) (.reg 5))) <|
    .seq (.store (.reg 1) (.f2 .sub (.f2 .sub (.flit 1) (.reg 7)) (.reg 8))) <|
    .seq (.store (.off (.reg 1) 4) (.f2 .sub (.f2 .sub (.flit 1) (.reg 6)) (.reg 8))) <|
    .seq (.store (.off (.reg 1) 8) (.f2 .sub (.f2 .sub (.flit 1) (.reg 6)) (.reg 7))) <|
    .seq (.store (.off (.reg 1) 3) (.f2 .add (.reg 9) (.reg 14))) <|
    .seq (.store (.off (.reg 1) 7) (.f2 .add (.reg 10) (.reg 12))) <|
    .seq (.store (.off (.reg 1) 2) (.f2 .add (.reg 11) (.reg 13))) <|
    .seq (.store (.off (.reg 1) 1) (.f2 .sub (.reg 9) (.reg 14))) <|
    .seq (.store (.off (.reg 1) 5) (.f2 .sub (.reg 10) (.reg 12))) <|
    .store (.off (.reg 1) 6) (.f2 .sub (.reg 11) (.reg 13))

/-- `glm_quat_lerp`: include/cglm/quat.h:657-661. -/
def glm_quat_lerp : Fn where
  locals := []
  nregs := 0
  body := .call none glm_vec4_lerp.locals glm_vec4_lerp.nregs glm_vec4_lerp.body [.reg 0, .reg 1, .reg 2, .reg 3]

/-- `glm_quat_lerpc`: include/cglm/quat.h:672-676. -/
def glm_quat_lerpc : Fn where
  locals := []
  nregs := 0
  body := .call none glm_vec4_lerpc.locals glm_vec4_lerpc.nregs glm_vec4_lerpc.body [.reg 0, .reg 1, .reg 2, .reg 3]

/-- `glm_quat_nlerp`: include/cglm/quat.h:688-699. -/
def glm_quat_nlerp : Fn where
  locals := [4]
  nregs := 2
  body := 
    .seq (.call (some 5) glm_vec4_dot.locals glm_vec4_dot.nregs glm_vec4_dot.body [.reg 0, .reg 1]) <|
    .seq (.set 4 (.reg 5)) <|
    .seq (.call none glm_vec4_scale.locals glm_vec4_scale.nregs glm_vec4_scale.body [.reg 1, .ite (.fc .le (.flit 0) (.reg 4)) (.flit 1) (.f1 .neg (.flit 1)), .loc 0]) <|
    .seq (.call none glm_quat_lerp.locals glm_quat_lerp.nregs glm_quat_lerp.body [.reg 0, .loc 0, .reg 2, .reg 3]) <|
    .call none glm_quat_normalize.locals glm_quat_normalize.nregs glm_quat_normalize.body [.reg 3]

/-- `glm_quat_slerp`: include/cglm/quat.h:710-744. -/
def glm_quat_slerp : Fn where
  locals := [4, 4]
  nregs := 4
  body := 
    .seq (.call (some 7) glm_quat_dot.locals glm_quat_dot.nregs glm_quat_dot.body [.reg 0, .reg 1]) <|
    .seq (.set 4 (.reg 7)) <|
    .seq (.call none glm_quat_copy.locals glm_quat_copy.nregs glm_quat_copy.body [.reg 0, .loc 0]) <|
    .seq (.ite (.fc .le (.flit 1) (.f1 .fabsf (.reg 4))) (.seq (.call none glm_quat_copy.locals glm_quat_copy.nregs glm_quat_copy.body [.loc 0, .reg 3]) (.retVoid)) (.skip)) <|
    .seq (.ite (.fc .lt (.reg 4) (.flit 0)) (.seq (.call none glm_vec4_negate.locals glm_vec4_negate.nregs glm_vec4_negate.body [.loc 0]) (.set 4 (.f1 .neg (.reg 4)))) (.skip)) <|
    .seq (.set 5 (.f1 .sqrtf (.f2 .sub (.flit 1) (.f2 .mul (.reg 4) (.reg 4))))) <|
    .seq (.ite (.fc .lt (.f1 .fabsf (.reg 5)) (.flit 0.001)) (.seq (.call none glm_quat_lerp.locals glm_quat_lerp.nregs glm_quat_lerp.body [.reg 0, .reg 1, .reg 2, .reg 3]) (.retVoid)) (.skip)) <|
    .seq (.set 6 (.f1 .acosf (.reg 4))) <|
    .seq (.call none glm_vec4_scale.locals glm_vec4_scale.nregs glm_vec4_scale.body [.loc 0, .f1 .sinf (.f2 .mul (.f2 .sub (.flit 1) (.reg 2)) (.reg 6)), .loc 0]) <|
    .seq (.call none glm_vec4_scale.locals glm_vec4_scale.nregs glm_vec4_scale.body [.reg 1, .f1 .sinf (.f2 .mul (.reg 2) (.reg 6)), .loc 1]) <|
    .seq (.call none glm_vec4_add.locals glm_vec4_add.nregs glm_vec4_add.body [.loc 0, .loc 1, .loc 0]) <|
    .call none glm_vec4_scale.locals glm_vec4_scale.nregs glm_vec4_scale.body [.loc 0, .f2 .div (.flit 1) (.reg 5), .reg 3]

/-- `glm_quat_slerp_longest`: include/cglm/quat.h:755-790. -/
def glm_quat_slerp_longest : Fn where
  locals := [4, 4]
  nregs := 4
  body := 
    .seq (.call (some 7) glm_quat_dot.locals glm_quat_dot.nregs glm_quat_dot.body [.reg 0, .reg 1]) <|
    .seq (.set 4 (.reg 7)) <|
    .seq (.call none glm_quat_copy.locals glm_quat_copy.nregs glm_quat_copy.body [.reg 0, .loc 0]) <|
    .seq (.ite (.fc .le (.flit 1) (.f1 .fabsf (.reg 4))) (.seq (.call none glm_quat_copy.locals glm_quat_copy.nregs glm_quat_copy.body [.loc 0, .reg 3]) (.retVoid)) (.skip)) <|
    .seq (.ite (.not (.fc .lt (.reg 4) (.flit 0))) (.seq (.call none glm_vec4_negate.locals glm_vec4_negate.nregs glm_vec4_negate.body [.loc 0]) (.set 4 (.f1 .neg (.reg 4)))) (.skip)) <|
    .seq (.set 5 (.f1 .sqrtf (.f2 .sub (.flit 1) (.f2 .mul (.reg 4) (.reg 4))))) <|
    .seq (.ite (.fc .lt (.f1 .fabsf (.reg 5)) (.flit 0.001)) (.seq (.call none glm_quat_lerp.locals glm_quat_lerp.nregs glm_quat_lerp.body [.reg 0, .reg 1, .reg 2, .reg 3]) (.retVoid)) (.skip)) <|
    .seq (.set 6 (.f1 .acosf (.reg 4))) <|
    .seq (.call none glm_vec4_scale.locals glm_vec4_scale.nregs glm_vec4_scale.body [.loc 0, .f1 .sinf (.f2 .mul (.f2 .sub (.flit 1) (.reg 2)) (.reg 6)), .loc 0]) <|
    .seq (.call none glm_vec4_scale.locals glm_vec4_scale.nregs glm_vec4_scale.body [.reg 1, .f1 .sinf (.f2 .mul (.reg 2) (.reg 6)), .loc 1]) <|
    .seq (.call none glm_vec4_add.locals glm_vec4_add.nregs glm_vec4_add.body [.loc 0, .loc 1, .loc 0]) <|
    .call none glm_vec4_scale.locals glm_vec4_scale.nregs glm_vec4_scale.body [.loc 0, .f2 .div (.flit 1) (.reg 5), .reg 3]

/-- `glm_quat_look`: include/cglm/quat.h:799-808. -/
def glm_quat_look : Fn where
  locals := []
  nregs := 0
  body := 
    .seq (.call none glm_quat_mat4t.locals glm_quat_mat4t.nregs glm_quat_mat4t.body [.reg 1, .reg 2]) <|
    .seq (.call none glm_mat4_mulv3.locals glm_mat4_mulv3.nregs glm_mat4_mulv3.body [.reg 2, .reg 0, .flit 1, .off (.reg 2) 12]) <|
    .call none glm_vec3_negate.locals glm_vec3_negate.nregs glm_vec3_negate.body [.off (.reg 2) 12]

/-- `glm_quat_for`: include/cglm/quat.h:817-831. -/
def glm_quat_for : Fn where
  locals := [9]
  nregs := 0
  body := 
    .seq (.call none glm_vec3_normalize_to.locals glm_vec3_normalize_to.nregs glm_vec3_normalize_to.body [.reg 0, .off (.loc 0) 6]) <|
    .seq (.call none glm_vec3_negate.locals glm_vec3_negate.nregs glm_vec3_negate.body [.off (.loc 0) 6]) <|
    .seq (.call none glm_vec3_crossn.locals glm_vec3_crossn.nregs glm_vec3_crossn.body [.reg 1, .off (.loc 0) 6, .loc 0]) <|
    .seq (.call none glm_vec3_cross.locals glm_vec3_cross.nregs glm_vec3_cross.body [.off (.loc 0) 6, .loc 0, .off (.loc 0) 3]) <|
    .call none glm_mat3_quat.locals glm_mat3_quat.nregs glm_mat3_quat.body [.loc 0, .reg 2]

/-- `glm_quat_forp`: include/cglm/quat.h:842-848. -/
def glm_quat_forp : Fn where
  locals := [3]
  nregs := 0
  body := 
    .seq (.call none glm_vec3_sub.locals glm_vec3_sub.nregs glm_vec3_sub.body [.reg 1, .reg 0, .loc 0]) <|
    .call none glm_quat_for.locals glm_quat_for.nregs glm_quat_for.body [.loc 0, .reg 2, .reg 3]

/-- `glm_quat_rotatev`: include/cglm/quat.h:857-876. -/
def glm_quat_rotatev : Fn where
  locals := [4, 3, 3, 3]
  nregs := 4
  body := 
    .seq (.call none glm_quat_normalize_to.locals glm_quat_normalize_to.nregs glm_quat_normalize_to.body [.reg 0, .loc 0]) <|
    .seq (.call none glm_quat_imag.locals glm_quat_imag.nregs glm_quat_imag.body [.loc 0, .loc 1]) <|
    .seq (.call (some 4) glm_quat_real.locals glm_quat_real.nregs glm_quat_real.body [.loc 0]) <|
    .seq (.set 3 (.reg 4)) <|
    .seq (.call (some 5) glm_vec3_dot.locals glm_vec3_dot.nregs glm_vec3_dot.body [.loc 1, .reg 1]) <|
    .seq (.call none glm_vec3_scale.locals glm_vec3_scale.nregs glm_vec3_scale.body [.loc 1, .f2 .mul (.flit 2) (.reg 5), .loc 2]) <|
    .seq (.call (some 6) glm_vec3_dot.locals glm_vec3_dot.nregs glm_vec3_dot.body [.loc 1, .loc 1]) <|
    .seq (.call none glm_vec3_scale.locals glm_vec3_scale.nregs glm_vec3_scale.body [.reg 1, .f2 .sub (.f2 .mul (.reg 3) (.reg 3)) (.reg 6), .loc 3]) <|
    .seq (.call none glm_vec3_add.locals glm_vec3_add.nregs glm_vec3_add.body [.loc 2, .loc 3, .loc 2]) <|
    .seq (.call none glm_vec3_cross.locals glm_vec3_cross.nregs glm_vec3_cross.body [.loc 1, .reg 1, .loc 3]) <|
    .seq (.call none glm_vec3_scale.locals glm_vec3_scale.nregs glm_vec3_scale.body [.loc 3, .f2 .mul (.flit 2) (.reg 3), .loc 3]) <|
    .call none glm_vec3_add.locals glm_vec3_add.nregs glm_vec3_add.body [.loc 2, .loc 3, .reg 2]

/-- `glm_quat_rotate`: include/cglm/quat.h:885-891. -/
def glm_quat_rotate : Fn where
  locals := [16]
  nregs := 0
  body := 
    .seq (.call none glm_quat_mat4.locals glm_quat_mat4.nregs glm_quat_mat4.body [.reg 1, .loc 0]) <|
    .call none glm_mul_rot.locals glm_mul_rot.nregs glm_mul_rot.body [.reg 0, .loc 0, .reg 2]

/-- `glm_quat_rotate_at`: include/cglm/quat.h:900-910. -/
def glm_quat_rotate_at : Fn where
  locals := [3]
  nregs := 0
  body := 
    .seq (.call none glm_vec3_negate_to.locals glm_vec3_negate_to.nregs glm_vec3_negate_to.body [.reg 2, .loc 0]) <|
    .seq (.call none glm_translate.locals glm_translate.nregs glm_translate.body [.reg 0, .reg 2]) <|
    .seq (.call none glm_quat_rotate.locals glm_quat_rotate.nregs glm_quat_rotate.body [.reg 0, .reg 1, .reg 0]) <|
    .call none glm_translate.locals glm_translate.nregs glm_translate.body [.reg 0, .loc 0]

/-- `glm_quat_rotate_atm`: include/cglm/quat.h:924-934. -/
def glm_quat_rotate_atm : Fn where
  locals := [3]
  nregs := 0
  body := 
    .seq (.call none glm_vec3_negate_to.locals glm_vec3_negate_to.nregs glm_vec3_negate_to.body [.reg 2, .loc 0]) <|
    .seq (.call none glm_translate_make.locals glm_translate_make.nregs glm_translate_make.body [.reg 0, .reg 2]) <|
    .seq (.call none glm_quat_rotate.locals glm_quat_rotate.nregs glm_quat_rotate.body [.reg 0, .reg 1, .reg 0]) <|
    .call none glm_translate.locals glm_translate.nregs glm_translate.body [.reg 0, .loc 0]

/-- `glm_quat_make`: include/cglm/quat.h:942-947. -/
def glm_quat_make : Fn where
  locals := []
  nregs := 0
  body := 
    .seq (.store (.reg 1) (.load (.reg 0))) <|
    .seq (.store (.off (.reg 1) 1) (.load (.off (.reg 0) 1))) <|
    .seq (.store (.off (.reg 1) 2) (.load (.off (.reg 0) 2))) <|
    .store (.off (.reg 1) 3) (.load (.off (.reg 0) 3))

/-- `glm_quat_from_vecs`: include/cglm/quat.h:203-225. -/
def glm_quat_from_vecs : Fn where
  locals := [3]
  nregs := 3
  body := 
    .seq (.call (some 5) glm_vec3_dot.locals glm_vec3_dot.nregs glm_vec3_dot.body [.reg 0, .reg 1]) <|
    .seq (.set 3 (.reg 5)) <|
    .seq (.ite (.fc .le (.f2 .sub (.flit 1) (.flit 0.00001)) (.reg 3)) (.seq (.call none glm_quat_identity.locals glm_quat_identity.nregs glm_quat_identity.body [.reg 2]) (.retVoid)) (.skip)) <|
    .seq (.ite (.fc .lt (.reg 3) (.f2 .add (.f1 .neg (.flit 1)) (.flit 0.00001))) (.seq (.call none glm_vec3_ortho.locals glm_vec3_ortho.nregs glm_vec3_ortho.body [.reg 0, .loc 0]) (.set 4 (.flit 0))) (.seq (.call none glm_vec3_cross.locals glm_vec3_cross.nregs glm_vec3_cross.body [.reg 0, .reg 1, .loc 0]) (.set 4 (.f2 .add (.flit 1) (.reg 3))))) <|
    .seq (.call none glm_quat_init.locals glm_quat_init.nregs glm_quat_init.body [.reg 2, .load (.loc 0), .load (.off (.loc 0) 1), .load (.off (.loc 0) 2), .reg 4]) <|
    .call none glm_quat_normalize.locals glm_quat_normalize.nregs glm_quat_normalize.body [.reg 2]

end Cglm.C

end Quat
