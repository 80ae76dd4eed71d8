/- Generated by tools/gen.py, joined by tools/merge.py; do not edit by hand. -/
import Verif.Base
import Verif.Attr
import Verif.Gen.Euler
import Verif.Gen.Quat
import Verif.Gen.Vec3

section StructEuler

/- Generated from include/cglm/struct/euler.h by tools/gen.py (value semantics); do not edit by hand. -/

set_option linter.unusedVariables false
set_option linter.unusedSectionVars false

namespace Cglm

variable {α : Type} [Add α] [Sub α] [Mul α] [Div α] [Neg α] [CFloat α]

/-- `glms_euler_angles`: include/cglm/struct/euler.h:50-56. -/
@[cglm]
def glms_euler_angles (m : M4 α) : V3 α :=
  glm_euler_angles m

/-- `glms_euler_xyz`: include/cglm/struct/euler.h:64-70. -/
@[cglm]
def glms_euler_xyz (angles : V3 α) : M4 α :=
  glm_euler_xyz angles

/-- `glms_euler_xzy`: include/cglm/struct/euler.h:78-84. -/
@[cglm]
def glms_euler_xzy (angles : V3 α) : M4 α :=
  glm_euler_xzy angles

/-- `glms_euler_yxz`: include/cglm/struct/euler.h:93-99. -/
@[cglm]
def glms_euler_yxz (angles : V3 α) : M4 α :=
  glm_euler_yxz angles

/-- `glms_euler_yzx`: include/cglm/struct/euler.h:107-113. -/
@[cglm]
def glms_euler_yzx (angles : V3 α) : M4 α :=
  glm_euler_yzx angles

/-- `glms_euler_zxy`: include/cglm/struct/euler.h:121-127. -/
@[cglm]
def glms_euler_zxy (angles : V3 α) : M4 α :=
  glm_euler_zxy angles

/-- `glms_euler_zyx`: include/cglm/struct/euler.h:135-141. -/
@[cglm]
def glms_euler_zyx (angles : V3 α) : M4 α :=
  glm_euler_zyx angles

/-- `glms_euler_by_order`: include/cglm/struct/euler.h:150-156. -/
@[cglm]
def glms_euler_by_order (angles : V3 α) (ord : Int) (uninit_dest : M4 α) : M4 α :=
  glm_euler_by_order angles ord uninit_dest

/-- `glms_euler_xyz_quat`: include/cglm/struct/euler.h:165-171. -/
@[cglm]
def glms_euler_xyz_quat (angles : V3 α) : V4 α :=
  glm_euler_xyz_quat angles

/-- `glms_euler_xzy_quat`: include/cglm/struct/euler.h:180-186. -/
@[cglm]
def glms_euler_xzy_quat (angles : V3 α) : V4 α :=
  glm_euler_xzy_quat angles

/-- `glms_euler_yxz_quat`: include/cglm/struct/euler.h:195-201. -/
@[cglm]
def glms_euler_yxz_quat (angles : V3 α) : V4 α :=
  glm_euler_yxz_quat angles

/-- `glms_euler_yzx_quat`: include/cglm/struct/euler.h:210-216. -/
@[cglm]
def glms_euler_yzx_quat (angles : V3 α) : V4 α :=
  glm_euler_yzx_quat angles

/-- `glms_euler_zxy_quat`: include/cglm/struct/euler.h:225-231. -/
@[cglm]
def glms_euler_zxy_quat (angles : V3 α) : V4 α :=
  glm_euler_zxy_quat angles

/-- `glms_euler_zyx_quat`: include/cglm/struct/euler.h:240-246. -/
@[cglm]
def glms_euler_zyx_quat (angles : V3 α) : V4 α :=
  glm_euler_zyx_quat angles

end Cglm

end StructEuler

section StructQuat

/- Generated from include/cglm/struct/quat.h by tools/gen.py (value semantics); do not edit by hand. -/

set_option linter.unusedVariables false
set_option linter.unusedSectionVars false

namespace Cglm

variable {α : Type} [Add α] [Sub α] [Mul α] [Div α] [Neg α] [CFloat α]

/-- `glms_quat_identity`: include/cglm/struct/quat.h:80-86. -/
@[cglm]
def glms_quat_identity : V4 α :=
  glm_quat_identity

/-- `glms_quat_init`: include/cglm/struct/quat.h:116-122. -/
@[cglm]
def glms_quat_init (x : α) (y : α) (z : α) (w : α) : V4 α :=
  glm_quat_init x y z w

/-- `glms_quatv`: include/cglm/struct/quat.h:131-137. -/
@[cglm]
def glms_quatv (angle : α) (axis : V3 α) : V4 α :=
  glm_quatv angle axis

/-- `glms_quat`: include/cglm/struct/quat.h:148-154. -/
@[cglm]
def glms_quat (angle : α) (x : α) (y : α) (z : α) : V4 α :=
  glm_quat angle x y z

/-- `glms_quat_norm`: include/cglm/struct/quat.h:176-180. -/
@[cglm]
def glms_quat_norm (q : V4 α) : α :=
  glm_quat_norm q

/-- `glms_quat_normalize`: include/cglm/struct/quat.h:188-194. -/
@[cglm]
def glms_quat_normalize (q : V4 α) : V4 α :=
  glm_quat_normalize_to q

/-- `glms_quat_dot`: include/cglm/struct/quat.h:203-207. -/
@[cglm]
def glms_quat_dot (p : V4 α) (q : V4 α) : α :=
  glm_quat_dot p q

/-- `glms_quat_conjugate`: include/cglm/struct/quat.h:215-221. -/
@[cglm]
def glms_quat_conjugate (q : V4 α) : V4 α :=
  glm_quat_conjugate q

/-- `glms_quat_inv`: include/cglm/struct/quat.h:229-235. -/
@[cglm]
def glms_quat_inv (q : V4 α) : V4 α :=
  glm_quat_inv q

/-- `glms_quat_add`: include/cglm/struct/quat.h:244-250. -/
@[cglm]
def glms_quat_add (p : V4 α) (q : V4 α) : V4 α :=
  glm_quat_add p q

/-- `glms_quat_sub`: include/cglm/struct/quat.h:259-265. -/
@[cglm]
def glms_quat_sub (p : V4 α) (q : V4 α) : V4 α :=
  glm_quat_sub p q

/-- `glms_quat_imagn`: include/cglm/struct/quat.h:272-278. -/
@[cglm]
def glms_quat_imagn (q : V4 α) : V3 α :=
  glm_normalize_to ⟨q.x, q.y, q.z⟩

/-- `glms_quat_imaglen`: include/cglm/struct/quat.h:285-289. -/
@[cglm]
def glms_quat_imaglen (q : V4 α) : α :=
  glm_quat_imaglen q

/-- `glms_quat_angle`: include/cglm/struct/quat.h:296-300. -/
@[cglm]
def glms_quat_angle (q : V4 α) : α :=
  glm_quat_angle q

/-- `glms_quat_axis`: include/cglm/struct/quat.h:308-314. -/
@[cglm]
def glms_quat_axis (q : V4 α) : V3 α :=
  glm_quat_axis q

/-- `glms_quat_mul`: include/cglm/struct/quat.h:328-334. -/
@[cglm]
def glms_quat_mul (p : V4 α) (q : V4 α) : V4 α :=
  glm_quat_mul p q

/-- `glms_quat_mat4`: include/cglm/struct/quat.h:342-348. -/
@[cglm]
def glms_quat_mat4 (q : V4 α) : M4 α :=
  glm_quat_mat4 q

/-- `glms_quat_mat4t`: include/cglm/struct/quat.h:356-362. -/
@[cglm]
def glms_quat_mat4t (q : V4 α) : M4 α :=
  glm_quat_mat4t q

/-- `glms_quat_mat3`: include/cglm/struct/quat.h:370-376. -/
@[cglm]
def glms_quat_mat3 (q : V4 α) : M3 α :=
  glm_quat_mat3 q

/-- `glms_quat_mat3t`: include/cglm/struct/quat.h:384-390. -/
@[cglm]
def glms_quat_mat3t (q : V4 α) : M3 α :=
  glm_quat_mat3t q

/-- `glms_quat_lerp`: include/cglm/struct/quat.h:401-407. -/
@[cglm]
def glms_quat_lerp (frm : V4 α) (to : V4 α) (t : α) : V4 α :=
  glm_quat_lerp frm to t

/-- `glms_quat_lerpc`: include/cglm/struct/quat.h:418-424. -/
@[cglm]
def glms_quat_lerpc (frm : V4 α) (to : V4 α) (t : α) : V4 α :=
  glm_quat_lerpc frm to t

/-- `glms_quat_nlerp`: include/cglm/struct/quat.h:436-442. -/
@[cglm]
def glms_quat_nlerp (frm : V4 α) (to : V4 α) (t : α) : V4 α :=
  glm_quat_nlerp frm to t

/-- `glms_quat_slerp`: include/cglm/struct/quat.h:453-459. -/
@[cglm]
def glms_quat_slerp (frm : V4 α) (to : V4 α) (t : α) : V4 α :=
  glm_quat_slerp frm to t

/-- `glms_quat_slerp_longest`: include/cglm/struct/quat.h:470-476. -/
@[cglm]
def glms_quat_slerp_longest (frm : V4 α) (to : V4 α) (t : α) : V4 α :=
  glm_quat_slerp_longest frm to t

/-- `glms_quat_look`: include/cglm/struct/quat.h:485-491. -/
@[cglm]
def glms_quat_look (eye : V3 α) (ori : V4 α) : M4 α :=
  glm_quat_look eye ori

/-- `glms_quat_for`: include/cglm/struct/quat.h:500-506. -/
@[cglm]
def glms_quat_for (dir : V3 α) (up : V3 α) : V4 α :=
  glm_quat_for dir up

/-- `glms_quat_forp`: include/cglm/struct/quat.h:517-523. -/
@[cglm]
def glms_quat_forp (frm : V3 α) (to : V3 α) (up : V3 α) : V4 α :=
  glm_quat_forp frm to up

/-- `glms_quat_rotatev`: include/cglm/struct/quat.h:532-538. -/
@[cglm]
def glms_quat_rotatev (q : V4 α) (v : V3 α) : V3 α :=
  glm_quat_rotatev q v

/-- `glms_quat_rotate`: include/cglm/struct/quat.h:547-552. -/
@[cglm]
def glms_quat_rotate (m : M4 α) (q : V4 α) : M4 α :=
  glm_quat_rotate m q

/-- `glms_quat_rotate_at`: include/cglm/struct/quat.h:561-566. -/
@[cglm]
def glms_quat_rotate_at (m : M4 α) (q : V4 α) (pivot : V3 α) : M4 α :=
  glm_quat_rotate_at m q pivot

/-- `glms_quat_rotate_atm`: include/cglm/struct/quat.h:579-585. -/
@[cglm]
def glms_quat_rotate_atm (q : V4 α) (pivot : V3 α) : M4 α :=
  glm_quat_rotate_atm q pivot

/-- `glms_quat_make`: include/cglm/struct/quat.h:593-599. -/
@[cglm]
def glms_quat_make (src : V4 α) : V4 α :=
  glm_quat_make src

/-- `glms_quat_from_vecs`: include/cglm/struct/quat.h:163-169. -/
@[cglm]
def glms_quat_from_vecs (a : V3 α) (b : V3 α) : V4 α :=
  glm_quat_from_vecs a b

end Cglm

end StructQuat
