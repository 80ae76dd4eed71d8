/- Generated by tools/gen.py, joined by tools/merge.py; do not edit by hand. -/
import Verif.Base
import Verif.Attr
import Verif.Gen.Mat2
import Verif.Gen.Mat2x3
import Verif.Gen.Mat2x4
import Verif.Gen.Mat3
import Verif.Gen.Mat3x2
import Verif.Gen.Mat3x4
import Verif.Gen.Mat4
import Verif.Gen.Mat4x2
import Verif.Gen.Mat4x3

section StructMat2

/- Generated from include/cglm/struct/mat2.h by tools/gen.py (value semantics); do not edit by hand. -/

set_option linter.unusedVariables false
set_option linter.unusedSectionVars false

namespace Cglm

variable {α : Type} [Add α] [Sub α] [Mul α] [Div α] [Neg α] [CFloat α]

/-- `glms_mat2_make`: include/cglm/struct/mat2.h:55-61. -/
@[cglm]
def glms_mat2_make (src : V4 α) : M2 α :=
  glm_mat2_make src

/-- `glms_mat2_identity`: include/cglm/struct/mat2.h:79-85. -/
@[cglm]
def glms_mat2_identity : M2 α :=
  glm_mat2_identity

/-- `glms_mat2_zero`: include/cglm/struct/mat2.h:109-115. -/
@[cglm]
def glms_mat2_zero : M2 α :=
  glm_mat2_zero

/-- `glms_mat2_mul`: include/cglm/struct/mat2.h:131-137. -/
@[cglm]
def glms_mat2_mul (m1 : M2 α) (m2 : M2 α) : M2 α :=
  glm_mat2_mul m1 m2

/-- `glms_mat2_mulv`: include/cglm/struct/mat2.h:146-152. -/
@[cglm]
def glms_mat2_mulv (m : M2 α) (v : V2 α) : V2 α :=
  glm_mat2_mulv m v

/-- `glms_mat2_transpose`: include/cglm/struct/mat2.h:160-165. -/
@[cglm]
def glms_mat2_transpose (m : M2 α) : M2 α :=
  glm_mat2_transpose m

/-- `glms_mat2_scale`: include/cglm/struct/mat2.h:174-179. -/
@[cglm]
def glms_mat2_scale (m : M2 α) (s : α) : M2 α :=
  glm_mat2_scale m s

/-- `glms_mat2_inv`: include/cglm/struct/mat2.h:187-193. -/
@[cglm]
def glms_mat2_inv (m : M2 α) : M2 α :=
  glm_mat2_inv m

/-- `glms_mat2_det`: include/cglm/struct/mat2.h:232-236. -/
@[cglm]
def glms_mat2_det (m : M2 α) : α :=
  glm_mat2_det m

/-- `glms_mat2_trace`: include/cglm/struct/mat2.h:248-252. -/
@[cglm]
def glms_mat2_trace (m : M2 α) : α :=
  glm_mat2_trace m

/-- `glms_mat2_rmc`: include/cglm/struct/mat2.h:268-272. -/
@[cglm]
def glms_mat2_rmc (r : V2 α) (m : M2 α) (c : V2 α) : α :=
  glm_mat2_rmc r m c

end Cglm

end StructMat2

section StructMat2x3

/- Generated from include/cglm/struct/mat2x3.h by tools/gen.py (value semantics); do not edit by hand. -/

set_option linter.unusedVariables false
set_option linter.unusedSectionVars false

namespace Cglm

variable {α : Type} [Add α] [Sub α] [Mul α] [Div α] [Neg α] [CFloat α]

/-- `glms_mat2x3_zero`: include/cglm/struct/mat2x3.h:42-48. -/
@[cglm]
def glms_mat2x3_zero : M2x3 α :=
  glm_mat2x3_zero

/-- `glms_mat2x3_make`: include/cglm/struct/mat2x3.h:56-62. -/
@[cglm]
def glms_mat2x3_make (src : V6 α) : M2x3 α :=
  glm_mat2x3_make src

/-- `glms_mat2x3_mul`: include/cglm/struct/mat2x3.h:75-81. -/
@[cglm]
def glms_mat2x3_mul (m1 : M2x3 α) (m2 : M3x2 α) : M3 α :=
  glm_mat2x3_mul m1 m2

/-- `glms_mat2x3_mulv`: include/cglm/struct/mat2x3.h:90-96. -/
@[cglm]
def glms_mat2x3_mulv (m : M2x3 α) (v : V2 α) : V3 α :=
  glm_mat2x3_mulv m v

/-- `glms_mat2x3_transpose`: include/cglm/struct/mat2x3.h:104-110. -/
@[cglm]
def glms_mat2x3_transpose (m : M2x3 α) : M3x2 α :=
  glm_mat2x3_transpose m

/-- `glms_mat2x3_scale`: include/cglm/struct/mat2x3.h:118-123. -/
@[cglm]
def glms_mat2x3_scale (m : M2x3 α) (s : α) : M2x3 α :=
  glm_mat2x3_scale m s

end Cglm

end StructMat2x3

section StructMat2x4

/- Generated from include/cglm/struct/mat2x4.h by tools/gen.py (value semantics); do not edit by hand. -/

set_option linter.unusedVariables false
set_option linter.unusedSectionVars false

namespace Cglm

variable {α : Type} [Add α] [Sub α] [Mul α] [Div α] [Neg α] [CFloat α]

/-- `glms_mat2x4_zero`: include/cglm/struct/mat2x4.h:42-48. -/
@[cglm]
def glms_mat2x4_zero : M2x4 α :=
  glm_mat2x4_zero

/-- `glms_mat2x4_make`: include/cglm/struct/mat2x4.h:56-62. -/
@[cglm]
def glms_mat2x4_make (src : V8 α) : M2x4 α :=
  glm_mat2x4_make src

/-- `glms_mat2x4_mul`: include/cglm/struct/mat2x4.h:75-81. -/
@[cglm]
def glms_mat2x4_mul (m1 : M2x4 α) (m2 : M4x2 α) : M4 α :=
  glm_mat2x4_mul m1 m2

/-- `glms_mat2x4_mulv`: include/cglm/struct/mat2x4.h:90-96. -/
@[cglm]
def glms_mat2x4_mulv (m : M2x4 α) (v : V2 α) : V4 α :=
  glm_mat2x4_mulv m v

/-- `glms_mat2x4_transpose`: include/cglm/struct/mat2x4.h:104-110. -/
@[cglm]
def glms_mat2x4_transpose (m : M2x4 α) : M4x2 α :=
  glm_mat2x4_transpose m

/-- `glms_mat2x4_scale`: include/cglm/struct/mat2x4.h:118-123. -/
@[cglm]
def glms_mat2x4_scale (m : M2x4 α) (s : α) : M2x4 α :=
  glm_mat2x4_scale m s

end Cglm

end StructMat2x4

section StructMat3

/- Generated from include/cglm/struct/mat3.h by tools/gen.py (value semantics); do not edit by hand. -/

set_option linter.unusedVariables false
set_option linter.unusedSectionVars false

namespace Cglm

variable {α : Type} [Add α] [Sub α] [Mul α] [Div α] [Neg α] [CFloat α]

/-- `glms_mat3_copy`: include/cglm/struct/mat3.h:59-65. -/
@[cglm]
def glms_mat3_copy (mat : M3 α) : M3 α :=
  glm_mat3_copy mat

/-- `glms_mat3_identity`: include/cglm/struct/mat3.h:81-87. -/
@[cglm]
def glms_mat3_identity : M3 α :=
  glm_mat3_identity

/-- `glms_mat3_zero`: include/cglm/struct/mat3.h:113-119. -/
@[cglm]
def glms_mat3_zero : M3 α :=
  glm_mat3_zero

/-- `glms_mat3_mul`: include/cglm/struct/mat3.h:135-141. -/
@[cglm]
def glms_mat3_mul (m1 : M3 α) (m2 : M3 α) : M3 α :=
  glm_mat3_mul m1 m2

/-- `glms_mat3_transpose`: include/cglm/struct/mat3.h:148-153. -/
@[cglm]
def glms_mat3_transpose (m : M3 α) : M3 α :=
  glm_mat3_transpose m

/-- `glms_mat3_mulv`: include/cglm/struct/mat3.h:162-168. -/
@[cglm]
def glms_mat3_mulv (m : M3 α) (v : V3 α) : V3 α :=
  glm_mat3_mulv m v

/-- `glms_mat3_trace`: include/cglm/struct/mat3.h:177-181. -/
@[cglm]
def glms_mat3_trace (m : M3 α) : α :=
  glm_mat3_trace m

/-- `glms_mat3_quat`: include/cglm/struct/mat3.h:189-195. -/
@[cglm]
def glms_mat3_quat (m : M3 α) : V4 α :=
  glm_mat3_quat m

/-- `glms_mat3_scale`: include/cglm/struct/mat3.h:206-211. -/
@[cglm]
def glms_mat3_scale (m : M3 α) (s : α) : M3 α :=
  glm_mat3_scale m s

/-- `glms_mat3_det`: include/cglm/struct/mat3.h:220-224. -/
@[cglm]
def glms_mat3_det (mat : M3 α) : α :=
  glm_mat3_det mat

/-- `glms_mat3_inv`: include/cglm/struct/mat3.h:232-238. -/
@[cglm]
def glms_mat3_inv (mat : M3 α) : M3 α :=
  glm_mat3_inv mat

/-- `glms_mat3_rmc`: include/cglm/struct/mat3.h:284-288. -/
@[cglm]
def glms_mat3_rmc (r : V3 α) (m : M3 α) (c : V3 α) : α :=
  glm_mat3_rmc r m c

/-- `glms_mat3_make`: include/cglm/struct/mat3.h:296-302. -/
@[cglm]
def glms_mat3_make (src : V9 α) : M3 α :=
  glm_mat3_make src

/-- `glms_mat3_textrans`: include/cglm/struct/mat3.h:314-320. -/
@[cglm]
def glms_mat3_textrans (sx : α) (sy : α) (rot : α) (tx : α) (ty : α) : M3 α :=
  glm_mat3_textrans sx sy rot tx ty

end Cglm

end StructMat3

section StructMat3x2

/- Generated from include/cglm/struct/mat3x2.h by tools/gen.py (value semantics); do not edit by hand. -/

set_option linter.unusedVariables false
set_option linter.unusedSectionVars false

namespace Cglm

variable {α : Type} [Add α] [Sub α] [Mul α] [Div α] [Neg α] [CFloat α]

/-- `glms_mat3x2_zero`: include/cglm/struct/mat3x2.h:42-48. -/
@[cglm]
def glms_mat3x2_zero : M3x2 α :=
  glm_mat3x2_zero

/-- `glms_mat3x2_make`: include/cglm/struct/mat3x2.h:56-62. -/
@[cglm]
def glms_mat3x2_make (src : V6 α) : M3x2 α :=
  glm_mat3x2_make src

/-- `glms_mat3x2_mul`: include/cglm/struct/mat3x2.h:75-81. -/
@[cglm]
def glms_mat3x2_mul (m1 : M3x2 α) (m2 : M2x3 α) : M2 α :=
  glm_mat3x2_mul m1 m2

/-- `glms_mat3x2_mulv`: include/cglm/struct/mat3x2.h:90-96. -/
@[cglm]
def glms_mat3x2_mulv (m : M3x2 α) (v : V3 α) : V2 α :=
  glm_mat3x2_mulv m v

/-- `glms_mat3x2_transpose`: include/cglm/struct/mat3x2.h:104-110. -/
@[cglm]
def glms_mat3x2_transpose (m : M3x2 α) : M2x3 α :=
  glm_mat3x2_transpose m

/-- `glms_mat3x2_scale`: include/cglm/struct/mat3x2.h:118-123. -/
@[cglm]
def glms_mat3x2_scale (m : M3x2 α) (s : α) : M3x2 α :=
  glm_mat3x2_scale m s

end Cglm

end StructMat3x2

section StructMat3x4

/- Generated from include/cglm/struct/mat3x4.h by tools/gen.py (value semantics); do not edit by hand. -/

set_option linter.unusedVariables false
set_option linter.unusedSectionVars false

namespace Cglm

variable {α : Type} [Add α] [Sub α] [Mul α] [Div α] [Neg α] [CFloat α]

/-- `glms_mat3x4_zero`: include/cglm/struct/mat3x4.h:42-48. -/
@[cglm]
def glms_mat3x4_zero : M3x4 α :=
  glm_mat3x4_zero

/-- `glms_mat3x4_make`: include/cglm/struct/mat3x4.h:56-62. -/
@[cglm]
def glms_mat3x4_make (src : V12 α) : M3x4 α :=
  glm_mat3x4_make src

/-- `glms_mat3x4_mul`: include/cglm/struct/mat3x4.h:75-81. -/
@[cglm]
def glms_mat3x4_mul (m1 : M3x4 α) (m2 : M4x3 α) : M4 α :=
  glm_mat3x4_mul m1 m2

/-- `glms_mat3x4_mulv`: include/cglm/struct/mat3x4.h:90-96. -/
@[cglm]
def glms_mat3x4_mulv (m : M3x4 α) (v : V3 α) : V4 α :=
  glm_mat3x4_mulv m v

/-- `glms_mat3x4_transpose`: include/cglm/struct/mat3x4.h:104-110. -/
@[cglm]
def glms_mat3x4_transpose (m : M3x4 α) : M4x3 α :=
  glm_mat3x4_transpose m

/-- `glms_mat3x4_scale`: include/cglm/struct/mat3x4.h:118-123. -/
@[cglm]
def glms_mat3x4_scale (m : M3x4 α) (s : α) : M3x4 α :=
  glm_mat3x4_scale m s

end Cglm

end StructMat3x4

section StructMat4

/- Generated from include/cglm/struct/mat4.h by tools/gen.py (value semantics); do not edit by hand. -/

set_option linter.unusedVariables false
set_option linter.unusedSectionVars false

namespace Cglm

variable {α : Type} [Add α] [Sub α] [Mul α] [Div α] [Neg α] [CFloat α]

/-- `glms_mat4_ucopy`: include/cglm/struct/mat4.h:77-83. -/
@[cglm]
def glms_mat4_ucopy (mat : M4 α) : M4 α :=
  glm_mat4_ucopy mat

/-- `glms_mat4_copy`: include/cglm/struct/mat4.h:91-97. -/
@[cglm]
def glms_mat4_copy (mat : M4 α) : M4 α :=
  glm_mat4_copy mat

/-- `glms_mat4_identity`: include/cglm/struct/mat4.h:113-119. -/
@[cglm]
def glms_mat4_identity : M4 α :=
  glm_mat4_identity

/-- `glms_mat4_zero`: include/cglm/struct/mat4.h:145-151. -/
@[cglm]
def glms_mat4_zero : M4 α :=
  glm_mat4_zero

/-- `glms_mat4_pick3`: include/cglm/struct/mat4.h:159-165. -/
@[cglm]
def glms_mat4_pick3 (mat : M4 α) : M3 α :=
  glm_mat4_pick3 mat

/-- `glms_mat4_pick3t`: include/cglm/struct/mat4.h:175-181. -/
@[cglm]
def glms_mat4_pick3t (mat : M4 α) : M3 α :=
  glm_mat4_pick3t mat

/-- `glms_mat4_ins3`: include/cglm/struct/mat4.h:190-195. -/
@[cglm]
def glms_mat4_ins3 (mat : M3 α) (dest : M4 α) : M4 α :=
  glm_mat4_ins3 mat dest

/-- `glms_mat4_mul`: include/cglm/struct/mat4.h:211-217. -/
@[cglm]
def glms_mat4_mul (m1 : M4 α) (m2 : M4 α) : M4 α :=
  glm_mat4_mul m1 m2

/-- `glms_mat4_mulv`: include/cglm/struct/mat4.h:258-264. -/
@[cglm]
def glms_mat4_mulv (m : M4 α) (v : V4 α) : V4 α :=
  glm_mat4_mulv m v

/-- `glms_mat4_trace`: include/cglm/struct/mat4.h:273-277. -/
@[cglm]
def glms_mat4_trace (m : M4 α) : α :=
  glm_mat4_trace m

/-- `glms_mat4_trace3`: include/cglm/struct/mat4.h:286-290. -/
@[cglm]
def glms_mat4_trace3 (m : M4 α) : α :=
  glm_mat4_trace3 m

/-- `glms_mat4_quat`: include/cglm/struct/mat4.h:298-304. -/
@[cglm]
def glms_mat4_quat (m : M4 α) : V4 α :=
  glm_mat4_quat m

/-- `glms_mat4_mulv3`: include/cglm/struct/mat4.h:314-320. -/
@[cglm]
def glms_mat4_mulv3 (m : M4 α) (v : V3 α) (last : α) : V3 α :=
  glm_mat4_mulv3 m v last

/-- `glms_mat4_transpose`: include/cglm/struct/mat4.h:328-333. -/
@[cglm]
def glms_mat4_transpose (m : M4 α) : M4 α :=
  glm_mat4_transpose m

/-- `glms_mat4_scale_p`: include/cglm/struct/mat4.h:344-349. -/
@[cglm]
def glms_mat4_scale_p (m : M4 α) (s : α) : M4 α :=
  glm_mat4_scale_p m s

/-- `glms_mat4_scale`: include/cglm/struct/mat4.h:360-365. -/
@[cglm]
def glms_mat4_scale (m : M4 α) (s : α) : M4 α :=
  glm_mat4_scale m s

/-- `glms_mat4_det`: include/cglm/struct/mat4.h:374-378. -/
@[cglm]
def glms_mat4_det (mat : M4 α) : α :=
  glm_mat4_det mat

/-- `glms_mat4_inv`: include/cglm/struct/mat4.h:386-392. -/
@[cglm]
def glms_mat4_inv (mat : M4 α) : M4 α :=
  glm_mat4_inv mat

/-- `glms_mat4_inv_fast`: include/cglm/struct/mat4.h:406-412. -/
@[cglm]
def glms_mat4_inv_fast (mat : M4 α) : M4 α :=
  glm_mat4_inv_fast mat

/-- `glms_mat4_rmc`: include/cglm/struct/mat4.h:458-462. -/
@[cglm]
def glms_mat4_rmc (r : V4 α) (m : M4 α) (c : V4 α) : α :=
  glm_mat4_rmc r m c

/-- `glms_mat4_make`: include/cglm/struct/mat4.h:470-476. -/
@[cglm]
def glms_mat4_make (src : V16 α) : M4 α :=
  glm_mat4_make src

/-- `glms_mat4_textrans`: include/cglm/struct/mat4.h:488-494. -/
@[cglm]
def glms_mat4_textrans (sx : α) (sy : α) (rot : α) (tx : α) (ty : α) : M4 α :=
  glm_mat4_textrans sx sy rot tx ty

end Cglm

end StructMat4

section StructMat4x2

/- Generated from include/cglm/struct/mat4x2.h by tools/gen.py (value semantics); do not edit by hand. -/

set_option linter.unusedVariables false
set_option linter.unusedSectionVars false

namespace Cglm

variable {α : Type} [Add α] [Sub α] [Mul α] [Div α] [Neg α] [CFloat α]

/-- `glms_mat4x2_zero`: include/cglm/struct/mat4x2.h:43-49. -/
@[cglm]
def glms_mat4x2_zero : M4x2 α :=
  glm_mat4x2_zero

/-- `glms_mat4x2_make`: include/cglm/struct/mat4x2.h:57-63. -/
@[cglm]
def glms_mat4x2_make (src : V8 α) : M4x2 α :=
  glm_mat4x2_make src

/-- `glms_mat4x2_mul`: include/cglm/struct/mat4x2.h:76-82. -/
@[cglm]
def glms_mat4x2_mul (m1 : M4x2 α) (m2 : M2x4 α) : M2 α :=
  glm_mat4x2_mul m1 m2

/-- `glms_mat4x2_mulv`: include/cglm/struct/mat4x2.h:91-97. -/
@[cglm]
def glms_mat4x2_mulv (m : M4x2 α) (v : V4 α) : V2 α :=
  glm_mat4x2_mulv m v

/-- `glms_mat4x2_transpose`: include/cglm/struct/mat4x2.h:105-111. -/
@[cglm]
def glms_mat4x2_transpose (m : M4x2 α) : M2x4 α :=
  glm_mat4x2_transpose m

/-- `glms_mat4x2_scale`: include/cglm/struct/mat4x2.h:119-124. -/
@[cglm]
def glms_mat4x2_scale (m : M4x2 α) (s : α) : M4x2 α :=
  glm_mat4x2_scale m s

end Cglm

end StructMat4x2

section StructMat4x3

/- Generated from include/cglm/struct/mat4x3.h by tools/gen.py (value semantics); do not edit by hand. -/

set_option linter.unusedVariables false
set_option linter.unusedSectionVars false

namespace Cglm

variable {α : Type} [Add α] [Sub α] [Mul α] [Div α] [Neg α] [CFloat α]

/-- `glms_mat4x3_zero`: include/cglm/struct/mat4x3.h:42-48. -/
@[cglm]
def glms_mat4x3_zero : M4x3 α :=
  glm_mat4x3_zero

/-- `glms_mat4x3_make`: include/cglm/struct/mat4x3.h:56-62. -/
@[cglm]
def glms_mat4x3_make (src : V12 α) : M4x3 α :=
  glm_mat4x3_make src

/-- `glms_mat4x3_mul`: include/cglm/struct/mat4x3.h:75-81. -/
@[cglm]
def glms_mat4x3_mul (m1 : M4x3 α) (m2 : M3x4 α) : M3 α :=
  glm_mat4x3_mul m1 m2

/-- `glms_mat4x3_mulv`: include/cglm/struct/mat4x3.h:90-96. -/
@[cglm]
def glms_mat4x3_mulv (m : M4x3 α) (v : V4 α) : V3 α :=
  glm_mat4x3_mulv m v

/-- `glms_mat4x3_transpose`: include/cglm/struct/mat4x3.h:104-110. -/
@[cglm]
def glms_mat4x3_transpose (m : M4x3 α) : M3x4 α :=
  glm_mat4x3_transpose m

/-- `glms_mat4x3_scale`: include/cglm/struct/mat4x3.h:118-123. -/
@[cglm]
def glms_mat4x3_scale (m : M4x3 α) (s : α) : M4x3 α :=
  glm_mat4x3_scale m s

end Cglm

end StructMat4x3
