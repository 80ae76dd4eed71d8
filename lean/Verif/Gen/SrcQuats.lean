/- Generated by tools/gen.py, joined by tools/merge.py; do not edit by hand. -/
import Verif.Base
import Verif.Attr
import Verif.Gen.Euler
import Verif.Gen.Quat

section SrcEuler

/- Generated from src/euler.c by tools/gen.py (value semantics); do not edit by hand. -/

set_option linter.unusedVariables false
set_option linter.unusedSectionVars false

namespace Cglm

variable {α : Type} [Add α] [Sub α] [Mul α] [Div α] [Neg α] [CFloat α]

/-- `glmc_euler_angles`: src/euler.c:11-15. -/
@[cglm]
def glmc_euler_angles (m : M4 α) : V3 α :=
  glm_euler_angles m

/-- `glmc_euler`: src/euler.c:17-21. -/
@[cglm]
def glmc_euler (angles : V3 α) : M4 α :=
  glm_euler angles

/-- `glmc_euler_xyz`: src/euler.c:23-27. -/
@[cglm]
def glmc_euler_xyz (angles : V3 α) : M4 α :=
  glm_euler_xyz angles

/-- `glmc_euler_zyx`: src/euler.c:29-33. -/
@[cglm]
def glmc_euler_zyx (angles : V3 α) : M4 α :=
  glm_euler_zyx angles

/-- `glmc_euler_zxy`: src/euler.c:35-39. -/
@[cglm]
def glmc_euler_zxy (angles : V3 α) : M4 α :=
  glm_euler_zxy angles

/-- `glmc_euler_xzy`: src/euler.c:41-45. -/
@[cglm]
def glmc_euler_xzy (angles : V3 α) : M4 α :=
  glm_euler_xzy angles

/-- `glmc_euler_yzx`: src/euler.c:47-51. -/
@[cglm]
def glmc_euler_yzx (angles : V3 α) : M4 α :=
  glm_euler_yzx angles

/-- `glmc_euler_yxz`: src/euler.c:53-57. -/
@[cglm]
def glmc_euler_yxz (angles : V3 α) : M4 α :=
  glm_euler_yxz angles

/-- `glmc_euler_by_order`: src/euler.c:59-63. -/
@[cglm]
def glmc_euler_by_order (angles : V3 α) (axis : Int) (dest : M4 α) : M4 α :=
  glm_euler_by_order angles axis dest

/-- `glmc_euler_xyz_quat`: src/euler.c:65-69. -/
@[cglm]
def glmc_euler_xyz_quat (angles : V3 α) : V4 α :=
  glm_euler_xyz_quat angles

/-- `glmc_euler_xzy_quat`: src/euler.c:71-75. -/
@[cglm]
def glmc_euler_xzy_quat (angles : V3 α) : V4 α :=
  glm_euler_xzy_quat angles

/-- `glmc_euler_yxz_quat`: src/euler.c:77-81. -/
@[cglm]
def glmc_euler_yxz_quat (angles : V3 α) : V4 α :=
  glm_euler_yxz_quat angles

/-- `glmc_euler_yzx_quat`: src/euler.c:83-87. -/
@[cglm]
def glmc_euler_yzx_quat (angles : V3 α) : V4 α :=
  glm_euler_yzx_quat angles

/-- `glmc_euler_zxy_quat`: src/euler.c:89-93. -/
@[cglm]
def glmc_euler_zxy_quat (angles : V3 α) : V4 α :=
  glm_euler_zxy_quat angles

/-- `glmc_euler_zyx_quat`: src/euler.c:95-99. -/
@[cglm]
def glmc_euler_zyx_quat (angles : V3 α) : V4 α :=
  glm_euler_zyx_quat angles

end Cglm

end SrcEuler

section SrcQuat

/- Generated from src/quat.c by tools/gen.py (value semantics); do not edit by hand. -/

set_option linter.unusedVariables false
set_option linter.unusedSectionVars false

namespace Cglm

variable {α : Type} [Add α] [Sub α] [Mul α] [Div α] [Neg α] [CFloat α]

/-- `glmc_quat_identity`: src/quat.c:11-15. -/
@[cglm]
def glmc_quat_identity : V4 α :=
  glm_quat_identity

/-- `glmc_quat_init`: src/quat.c:23-27. -/
@[cglm]
def glmc_quat_init (x : α) (y : α) (z : α) (w : α) : V4 α :=
  glm_quat_init x y z w

/-- `glmc_quat`: src/quat.c:29-33. -/
@[cglm]
def glmc_quat (angle : α) (x : α) (y : α) (z : α) : V4 α :=
  glm_quat angle x y z

/-- `glmc_quatv`: src/quat.c:35-39. -/
@[cglm]
def glmc_quatv (angle : α) (axis : V3 α) : V4 α :=
  glm_quatv angle axis

/-- `glmc_quat_copy`: src/quat.c:41-45. -/
@[cglm]
def glmc_quat_copy (q : V4 α) : V4 α :=
  glm_quat_copy q

/-- `glmc_quat_norm`: src/quat.c:53-57. -/
@[cglm]
def glmc_quat_norm (q : V4 α) : α :=
  glm_quat_norm q

/-- `glmc_quat_normalize_to`: src/quat.c:59-63. -/
@[cglm]
def glmc_quat_normalize_to (q : V4 α) : V4 α :=
  glm_quat_normalize_to q

/-- `glmc_quat_normalize`: src/quat.c:65-69. -/
@[cglm]
def glmc_quat_normalize (q : V4 α) : V4 α :=
  glm_quat_normalize q

/-- `glmc_quat_dot`: src/quat.c:71-75. -/
@[cglm]
def glmc_quat_dot (p : V4 α) (q : V4 α) : α :=
  glm_quat_dot p q

/-- `glmc_quat_conjugate`: src/quat.c:77-81. -/
@[cglm]
def glmc_quat_conjugate (q : V4 α) : V4 α :=
  glm_quat_conjugate q

/-- `glmc_quat_inv`: src/quat.c:83-87. -/
@[cglm]
def glmc_quat_inv (q : V4 α) : V4 α :=
  glm_quat_inv q

/-- `glmc_quat_add`: src/quat.c:89-93. -/
@[cglm]
def glmc_quat_add (p : V4 α) (q : V4 α) : V4 α :=
  glm_quat_add p q

/-- `glmc_quat_sub`: src/quat.c:95-99. -/
@[cglm]
def glmc_quat_sub (p : V4 α) (q : V4 α) : V4 α :=
  glm_quat_sub p q

/-- `glmc_quat_real`: src/quat.c:101-105. -/
@[cglm]
def glmc_quat_real (q : V4 α) : α :=
  glm_quat_real q

/-- `glmc_quat_imag`: src/quat.c:107-111. -/
@[cglm]
def glmc_quat_imag (q : V4 α) : V3 α :=
  glm_quat_imag q

/-- `glmc_quat_imagn`: src/quat.c:113-117. -/
@[cglm]
def glmc_quat_imagn (q : V4 α) : V3 α :=
  glm_quat_imagn q

/-- `glmc_quat_imaglen`: src/quat.c:119-123. -/
@[cglm]
def glmc_quat_imaglen (q : V4 α) : α :=
  glm_quat_imaglen q

/-- `glmc_quat_angle`: src/quat.c:125-129. -/
@[cglm]
def glmc_quat_angle (q : V4 α) : α :=
  glm_quat_angle q

/-- `glmc_quat_axis`: src/quat.c:131-135. -/
@[cglm]
def glmc_quat_axis (q : V4 α) : V3 α :=
  glm_quat_axis q

/-- `glmc_quat_mul`: src/quat.c:137-141. -/
@[cglm]
def glmc_quat_mul (p : V4 α) (q : V4 α) : V4 α :=
  glm_quat_mul p q

/-- `glmc_quat_mat4`: src/quat.c:143-147. -/
@[cglm]
def glmc_quat_mat4 (q : V4 α) : M4 α :=
  glm_quat_mat4 q

/-- `glmc_quat_mat4t`: src/quat.c:149-153. -/
@[cglm]
def glmc_quat_mat4t (q : V4 α) : M4 α :=
  glm_quat_mat4t q

/-- `glmc_quat_mat3`: src/quat.c:155-159. -/
@[cglm]
def glmc_quat_mat3 (q : V4 α) : M3 α :=
  glm_quat_mat3 q

/-- `glmc_quat_mat3t`: src/quat.c:161-165. -/
@[cglm]
def glmc_quat_mat3t (q : V4 α) : M3 α :=
  glm_quat_mat3t q

/-- `glmc_quat_lerp`: src/quat.c:167-171. -/
@[cglm]
def glmc_quat_lerp (frm : V4 α) (to : V4 α) (t : α) : V4 α :=
  glm_quat_lerp frm to t

/-- `glmc_quat_lerpc`: src/quat.c:173-177. -/
@[cglm]
def glmc_quat_lerpc (frm : V4 α) (to : V4 α) (t : α) : V4 α :=
  glm_quat_lerpc frm to t

/-- `glmc_quat_nlerp`: src/quat.c:179-183. -/
@[cglm]
def glmc_quat_nlerp (frm : V4 α) (to : V4 α) (t : α) : V4 α :=
  glm_quat_nlerp frm to t

/-- `glmc_quat_slerp`: src/quat.c:185-189. -/
@[cglm]
def glmc_quat_slerp (frm : V4 α) (to : V4 α) (t : α) : V4 α :=
  glm_quat_slerp frm to t

/-- `glmc_quat_slerp_longest`: src/quat.c:191-195. -/
@[cglm]
def glmc_quat_slerp_longest (frm : V4 α) (to : V4 α) (t : α) : V4 α :=
  glm_quat_slerp_longest frm to t

/-- `glmc_quat_look`: src/quat.c:197-201. -/
@[cglm]
def glmc_quat_look (eye : V3 α) (ori : V4 α) : M4 α :=
  glm_quat_look eye ori

/-- `glmc_quat_for`: src/quat.c:203-207. -/
@[cglm]
def glmc_quat_for (dir : V3 α) (up : V3 α) : V4 α :=
  glm_quat_for dir up

/-- `glmc_quat_forp`: src/quat.c:209-213. -/
@[cglm]
def glmc_quat_forp (frm : V3 α) (to : V3 α) (up : V3 α) : V4 α :=
  glm_quat_forp frm to up

/-- `glmc_quat_rotatev`: src/quat.c:215-219. -/
@[cglm]
def glmc_quat_rotatev (q : V4 α) (v : V3 α) : V3 α :=
  glm_quat_rotatev q v

/-- `glmc_quat_rotate`: src/quat.c:221-225. -/
@[cglm]
def glmc_quat_rotate (m : M4 α) (q : V4 α) : M4 α :=
  glm_quat_rotate m q

/-- `glmc_quat_rotate_at`: src/quat.c:227-231. -/
@[cglm]
def glmc_quat_rotate_at (model : M4 α) (q : V4 α) (pivot : V3 α) : M4 α :=
  glm_quat_rotate_at model q pivot

/-- `glmc_quat_rotate_atm`: src/quat.c:233-237. -/
@[cglm]
def glmc_quat_rotate_atm (q : V4 α) (pivot : V3 α) : M4 α :=
  glm_quat_rotate_atm q pivot

/-- `glmc_quat_make`: src/quat.c:239-243. -/
@[cglm]
def glmc_quat_make (src : V4 α) : V4 α :=
  glm_quat_make src

/-- `glmc_quat_from_vecs`: src/quat.c:47-51. -/
@[cglm]
def glmc_quat_from_vecs (a : V3 α) (b : V3 α) : V4 α :=
  glm_quat_from_vecs a b

end Cglm

end SrcQuat
