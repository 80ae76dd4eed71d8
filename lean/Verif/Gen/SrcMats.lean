/- Generated by tools/gen.py, joined by tools/merge.py; do not edit by hand. -/
import Verif.Base
import Verif.Attr
import Verif.Gen.Mat2
import Verif.Gen.Mat2x3
import Verif.Gen.Mat2x4
import Verif.Gen.Mat3
import Verif.Gen.Mat3x2
import Verif.Gen.Mat3x4
import Verif.Gen.Mat4
import Verif.Gen.Mat4x2
import Verif.Gen.Mat4x3

section SrcMat2

/- Generated from src/mat2.c by tools/gen.py (value semantics); do not edit by hand. -/

set_option linter.unusedVariables false
set_option linter.unusedSectionVars false

namespace Cglm

variable {α : Type} [Add α] [Sub α] [Mul α] [Div α] [Neg α] [CFloat α]

/-- `glmc_mat2_make`: src/mat2.c:11-15. -/
@[cglm]
def glmc_mat2_make (src : V4 α) : M2 α :=
  glm_mat2_make src

/-- `glmc_mat2_copy`: src/mat2.c:17-21. -/
@[cglm]
def glmc_mat2_copy (mat : M2 α) : M2 α :=
  glm_mat2_copy mat

/-- `glmc_mat2_identity`: src/mat2.c:23-27. -/
@[cglm]
def glmc_mat2_identity : M2 α :=
  glm_mat2_identity

/-- `glmc_mat2_zero`: src/mat2.c:35-39. -/
@[cglm]
def glmc_mat2_zero : M2 α :=
  glm_mat2_zero

/-- `glmc_mat2_mul`: src/mat2.c:41-45. -/
@[cglm]
def glmc_mat2_mul (m1 : M2 α) (m2 : M2 α) : M2 α :=
  glm_mat2_mul m1 m2

/-- `glmc_mat2_mulv`: src/mat2.c:47-51. -/
@[cglm]
def glmc_mat2_mulv (m : M2 α) (v : V2 α) : V2 α :=
  glm_mat2_mulv m v

/-- `glmc_mat2_transpose_to`: src/mat2.c:53-57. -/
@[cglm]
def glmc_mat2_transpose_to (mat : M2 α) : M2 α :=
  glm_mat2_transpose_to mat

/-- `glmc_mat2_transpose`: src/mat2.c:59-63. -/
@[cglm]
def glmc_mat2_transpose (m : M2 α) : M2 α :=
  glm_mat2_transpose m

/-- `glmc_mat2_scale`: src/mat2.c:65-69. -/
@[cglm]
def glmc_mat2_scale (m : M2 α) (s : α) : M2 α :=
  glm_mat2_scale m s

/-- `glmc_mat2_inv`: src/mat2.c:71-75. -/
@[cglm]
def glmc_mat2_inv (mat : M2 α) : M2 α :=
  glm_mat2_inv mat

/-- `glmc_mat2_det`: src/mat2.c:89-93. -/
@[cglm]
def glmc_mat2_det (m : M2 α) : α :=
  glm_mat2_det m

/-- `glmc_mat2_trace`: src/mat2.c:95-99. -/
@[cglm]
def glmc_mat2_trace (m : M2 α) : α :=
  glm_mat2_trace m

/-- `glmc_mat2_rmc`: src/mat2.c:101-105. -/
@[cglm]
def glmc_mat2_rmc (r : V2 α) (m : M2 α) (c : V2 α) : α :=
  glm_mat2_rmc r m c

end Cglm

end SrcMat2

section SrcMat2x3

/- Generated from src/mat2x3.c by tools/gen.py (value semantics); do not edit by hand. -/

set_option linter.unusedVariables false
set_option linter.unusedSectionVars false

namespace Cglm

variable {α : Type} [Add α] [Sub α] [Mul α] [Div α] [Neg α] [CFloat α]

/-- `glmc_mat2x3_copy`: src/mat2x3.c:11-15. -/
@[cglm]
def glmc_mat2x3_copy (src : M2x3 α) : M2x3 α :=
  glm_mat2x3_copy src

/-- `glmc_mat2x3_zero`: src/mat2x3.c:17-21. -/
@[cglm]
def glmc_mat2x3_zero : M2x3 α :=
  glm_mat2x3_zero

/-- `glmc_mat2x3_make`: src/mat2x3.c:23-27. -/
@[cglm]
def glmc_mat2x3_make (src : V6 α) : M2x3 α :=
  glm_mat2x3_make src

/-- `glmc_mat2x3_mul`: src/mat2x3.c:29-33. -/
@[cglm]
def glmc_mat2x3_mul (m1 : M2x3 α) (m2 : M3x2 α) : M3 α :=
  glm_mat2x3_mul m1 m2

/-- `glmc_mat2x3_mulv`: src/mat2x3.c:35-39. -/
@[cglm]
def glmc_mat2x3_mulv (m : M2x3 α) (v : V2 α) : V3 α :=
  glm_mat2x3_mulv m v

/-- `glmc_mat2x3_transpose`: src/mat2x3.c:41-45. -/
@[cglm]
def glmc_mat2x3_transpose (src : M2x3 α) : M3x2 α :=
  glm_mat2x3_transpose src

/-- `glmc_mat2x3_scale`: src/mat2x3.c:47-51. -/
@[cglm]
def glmc_mat2x3_scale (m : M2x3 α) (s : α) : M2x3 α :=
  glm_mat2x3_scale m s

end Cglm

end SrcMat2x3

section SrcMat2x4

/- Generated from src/mat2x4.c by tools/gen.py (value semantics); do not edit by hand. -/

set_option linter.unusedVariables false
set_option linter.unusedSectionVars false

namespace Cglm

variable {α : Type} [Add α] [Sub α] [Mul α] [Div α] [Neg α] [CFloat α]

/-- `glmc_mat2x4_copy`: src/mat2x4.c:11-15. -/
@[cglm]
def glmc_mat2x4_copy (src : M2x4 α) : M2x4 α :=
  glm_mat2x4_copy src

/-- `glmc_mat2x4_zero`: src/mat2x4.c:17-21. -/
@[cglm]
def glmc_mat2x4_zero : M2x4 α :=
  glm_mat2x4_zero

/-- `glmc_mat2x4_make`: src/mat2x4.c:23-27. -/
@[cglm]
def glmc_mat2x4_make (src : V8 α) : M2x4 α :=
  glm_mat2x4_make src

/-- `glmc_mat2x4_mul`: src/mat2x4.c:29-33. -/
@[cglm]
def glmc_mat2x4_mul (m1 : M2x4 α) (m2 : M4x2 α) : M4 α :=
  glm_mat2x4_mul m1 m2

/-- `glmc_mat2x4_mulv`: src/mat2x4.c:35-39. -/
@[cglm]
def glmc_mat2x4_mulv (m : M2x4 α) (v : V2 α) : V4 α :=
  glm_mat2x4_mulv m v

/-- `glmc_mat2x4_transpose`: src/mat2x4.c:41-45. -/
@[cglm]
def glmc_mat2x4_transpose (src : M2x4 α) : M4x2 α :=
  glm_mat2x4_transpose src

/-- `glmc_mat2x4_scale`: src/mat2x4.c:47-51. -/
@[cglm]
def glmc_mat2x4_scale (m : M2x4 α) (s : α) : M2x4 α :=
  glm_mat2x4_scale m s

end Cglm

end SrcMat2x4

section SrcMat3

/- Generated from src/mat3.c by tools/gen.py (value semantics); do not edit by hand. -/

set_option linter.unusedVariables false
set_option linter.unusedSectionVars false

namespace Cglm

variable {α : Type} [Add α] [Sub α] [Mul α] [Div α] [Neg α] [CFloat α]

/-- `glmc_mat3_copy`: src/mat3.c:11-15. -/
@[cglm]
def glmc_mat3_copy (mat : M3 α) : M3 α :=
  glm_mat3_copy mat

/-- `glmc_mat3_identity`: src/mat3.c:17-21. -/
@[cglm]
def glmc_mat3_identity : M3 α :=
  glm_mat3_identity

/-- `glmc_mat3_zero`: src/mat3.c:23-27. -/
@[cglm]
def glmc_mat3_zero : M3 α :=
  glm_mat3_zero

/-- `glmc_mat3_mul`: src/mat3.c:35-39. -/
@[cglm]
def glmc_mat3_mul (m1 : M3 α) (m2 : M3 α) : M3 α :=
  glm_mat3_mul m1 m2

/-- `glmc_mat3_transpose_to`: src/mat3.c:41-45. -/
@[cglm]
def glmc_mat3_transpose_to (m : M3 α) : M3 α :=
  glm_mat3_transpose_to m

/-- `glmc_mat3_transpose`: src/mat3.c:47-51. -/
@[cglm]
def glmc_mat3_transpose (m : M3 α) : M3 α :=
  glm_mat3_transpose m

/-- `glmc_mat3_mulv`: src/mat3.c:53-57. -/
@[cglm]
def glmc_mat3_mulv (m : M3 α) (v : V3 α) : V3 α :=
  glm_mat3_mulv m v

/-- `glmc_mat3_trace`: src/mat3.c:59-63. -/
@[cglm]
def glmc_mat3_trace (m : M3 α) : α :=
  glm_mat3_trace m

/-- `glmc_mat3_quat`: src/mat3.c:65-69. -/
@[cglm]
def glmc_mat3_quat (m : M3 α) : V4 α :=
  glm_mat3_quat m

/-- `glmc_mat3_scale`: src/mat3.c:71-75. -/
@[cglm]
def glmc_mat3_scale (m : M3 α) (s : α) : M3 α :=
  glm_mat3_scale m s

/-- `glmc_mat3_det`: src/mat3.c:77-81. -/
@[cglm]
def glmc_mat3_det (mat : M3 α) : α :=
  glm_mat3_det mat

/-- `glmc_mat3_inv`: src/mat3.c:83-87. -/
@[cglm]
def glmc_mat3_inv (mat : M3 α) : M3 α :=
  glm_mat3_inv mat

/-- `glmc_mat3_rmc`: src/mat3.c:101-105. -/
@[cglm]
def glmc_mat3_rmc (r : V3 α) (m : M3 α) (c : V3 α) : α :=
  glm_mat3_rmc r m c

/-- `glmc_mat3_make`: src/mat3.c:107-111. -/
@[cglm]
def glmc_mat3_make (src : V9 α) : M3 α :=
  glm_mat3_make src

/-- `glmc_mat3_textrans`: src/mat3.c:113-117. -/
@[cglm]
def glmc_mat3_textrans (sx : α) (sy : α) (rot : α) (tx : α) (ty : α) : M3 α :=
  glm_mat3_textrans sx sy rot tx ty

end Cglm

end SrcMat3

section SrcMat3x2

/- Generated from src/mat3x2.c by tools/gen.py (value semantics); do not edit by hand. -/

set_option linter.unusedVariables false
set_option linter.unusedSectionVars false

namespace Cglm

variable {α : Type} [Add α] [Sub α] [Mul α] [Div α] [Neg α] [CFloat α]

/-- `glmc_mat3x2_copy`: src/mat3x2.c:11-15. -/
@[cglm]
def glmc_mat3x2_copy (src : M3x2 α) : M3x2 α :=
  glm_mat3x2_copy src

/-- `glmc_mat3x2_zero`: src/mat3x2.c:17-21. -/
@[cglm]
def glmc_mat3x2_zero : M3x2 α :=
  glm_mat3x2_zero

/-- `glmc_mat3x2_make`: src/mat3x2.c:23-27. -/
@[cglm]
def glmc_mat3x2_make (src : V6 α) : M3x2 α :=
  glm_mat3x2_make src

/-- `glmc_mat3x2_mul`: src/mat3x2.c:29-33. -/
@[cglm]
def glmc_mat3x2_mul (m1 : M3x2 α) (m2 : M2x3 α) : M2 α :=
  glm_mat3x2_mul m1 m2

/-- `glmc_mat3x2_mulv`: src/mat3x2.c:35-39. -/
@[cglm]
def glmc_mat3x2_mulv (m : M3x2 α) (v : V3 α) : V2 α :=
  glm_mat3x2_mulv m v

/-- `glmc_mat3x2_transpose`: src/mat3x2.c:41-45. -/
@[cglm]
def glmc_mat3x2_transpose (src : M3x2 α) : M2x3 α :=
  glm_mat3x2_transpose src

/-- `glmc_mat3x2_scale`: src/mat3x2.c:47-51. -/
@[cglm]
def glmc_mat3x2_scale (m : M3x2 α) (s : α) : M3x2 α :=
  glm_mat3x2_scale m s

end Cglm

end SrcMat3x2

section SrcMat3x4

/- Generated from src/mat3x4.c by tools/gen.py (value semantics); do not edit by hand. -/

set_option linter.unusedVariables false
set_option linter.unusedSectionVars false

namespace Cglm

variable {α : Type} [Add α] [Sub α] [Mul α] [Div α] [Neg α] [CFloat α]

/-- `glmc_mat3x4_copy`: src/mat3x4.c:11-15. -/
@[cglm]
def glmc_mat3x4_copy (src : M3x4 α) : M3x4 α :=
  glm_mat3x4_copy src

/-- `glmc_mat3x4_zero`: src/mat3x4.c:17-21. -/
@[cglm]
def glmc_mat3x4_zero : M3x4 α :=
  glm_mat3x4_zero

/-- `glmc_mat3x4_make`: src/mat3x4.c:23-27. -/
@[cglm]
def glmc_mat3x4_make (src : V12 α) : M3x4 α :=
  glm_mat3x4_make src

/-- `glmc_mat3x4_mul`: src/mat3x4.c:29-33. -/
@[cglm]
def glmc_mat3x4_mul (m1 : M3x4 α) (m2 : M4x3 α) : M4 α :=
  glm_mat3x4_mul m1 m2

/-- `glmc_mat3x4_mulv`: src/mat3x4.c:35-39. -/
@[cglm]
def glmc_mat3x4_mulv (m : M3x4 α) (v : V3 α) : V4 α :=
  glm_mat3x4_mulv m v

/-- `glmc_mat3x4_transpose`: src/mat3x4.c:41-45. -/
@[cglm]
def glmc_mat3x4_transpose (src : M3x4 α) : M4x3 α :=
  glm_mat3x4_transpose src

/-- `glmc_mat3x4_scale`: src/mat3x4.c:47-51. -/
@[cglm]
def glmc_mat3x4_scale (m : M3x4 α) (s : α) : M3x4 α :=
  glm_mat3x4_scale m s

end Cglm

end SrcMat3x4

section SrcMat4

/- Generated from src/mat4.c by tools/gen.py (value semantics); do not edit by hand. -/

set_option linter.unusedVariables false
set_option linter.unusedSectionVars false

namespace Cglm

variable {α : Type} [Add α] [Sub α] [Mul α] [Div α] [Neg α] [CFloat α]

/-- `glmc_mat4_ucopy`: src/mat4.c:11-15. -/
@[cglm]
def glmc_mat4_ucopy (mat : M4 α) : M4 α :=
  glm_mat4_copy mat

/-- `glmc_mat4_copy`: src/mat4.c:17-21. -/
@[cglm]
def glmc_mat4_copy (mat : M4 α) : M4 α :=
  glm_mat4_copy mat

/-- `glmc_mat4_identity`: src/mat4.c:23-27. -/
@[cglm]
def glmc_mat4_identity : M4 α :=
  glm_mat4_identity

/-- `glmc_mat4_zero`: src/mat4.c:35-39. -/
@[cglm]
def glmc_mat4_zero : M4 α :=
  glm_mat4_zero

/-- `glmc_mat4_pick3`: src/mat4.c:41-45. -/
@[cglm]
def glmc_mat4_pick3 (mat : M4 α) : M3 α :=
  glm_mat4_pick3 mat

/-- `glmc_mat4_pick3t`: src/mat4.c:47-51. -/
@[cglm]
def glmc_mat4_pick3t (mat : M4 α) : M3 α :=
  glm_mat4_pick3t mat

/-- `glmc_mat4_ins3`: src/mat4.c:53-57. -/
@[cglm]
def glmc_mat4_ins3 (mat : M3 α) (dest : M4 α) : M4 α :=
  glm_mat4_ins3 mat dest

/-- `glmc_mat4_mul`: src/mat4.c:59-63. -/
@[cglm]
def glmc_mat4_mul (m1 : M4 α) (m2 : M4 α) : M4 α :=
  glm_mat4_mul m1 m2

/-- `glmc_mat4_mulv`: src/mat4.c:71-75. -/
@[cglm]
def glmc_mat4_mulv (m : M4 α) (v : V4 α) : V4 α :=
  glm_mat4_mulv m v

/-- `glmc_mat4_mulv3`: src/mat4.c:77-81. -/
@[cglm]
def glmc_mat4_mulv3 (m : M4 α) (v : V3 α) (last : α) : V3 α :=
  glm_mat4_mulv3 m v last

/-- `glmc_mat4_trace`: src/mat4.c:83-87. -/
@[cglm]
def glmc_mat4_trace (m : M4 α) : α :=
  glm_mat4_trace m

/-- `glmc_mat4_trace3`: src/mat4.c:89-93. -/
@[cglm]
def glmc_mat4_trace3 (m : M4 α) : α :=
  glm_mat4_trace3 m

/-- `glmc_mat4_quat`: src/mat4.c:95-99. -/
@[cglm]
def glmc_mat4_quat (m : M4 α) : V4 α :=
  glm_mat4_quat m

/-- `glmc_mat4_transpose_to`: src/mat4.c:101-105. -/
@[cglm]
def glmc_mat4_transpose_to (m : M4 α) : M4 α :=
  glm_mat4_transpose_to m

/-- `glmc_mat4_transpose`: src/mat4.c:107-111. -/
@[cglm]
def glmc_mat4_transpose (m : M4 α) : M4 α :=
  glm_mat4_transpose m

/-- `glmc_mat4_scale_p`: src/mat4.c:113-117. -/
@[cglm]
def glmc_mat4_scale_p (m : M4 α) (s : α) : M4 α :=
  glm_mat4_scale_p m s

/-- `glmc_mat4_scale`: src/mat4.c:119-123. -/
@[cglm]
def glmc_mat4_scale (m : M4 α) (s : α) : M4 α :=
  glm_mat4_scale m s

/-- `glmc_mat4_det`: src/mat4.c:125-129. -/
@[cglm]
def glmc_mat4_det (mat : M4 α) : α :=
  glm_mat4_det mat

/-- `glmc_mat4_inv`: src/mat4.c:131-135. -/
@[cglm]
def glmc_mat4_inv (mat : M4 α) : M4 α :=
  glm_mat4_inv mat

/-- `glmc_mat4_inv_precise`: src/mat4.c:137-141. -/
@[cglm]
def glmc_mat4_inv_precise (mat : M4 α) : M4 α :=
  glm_mat4_inv mat

/-- `glmc_mat4_inv_fast`: src/mat4.c:143-147. -/
@[cglm]
def glmc_mat4_inv_fast (mat : M4 α) : M4 α :=
  glm_mat4_inv_fast mat

/-- `glmc_mat4_rmc`: src/mat4.c:161-165. -/
@[cglm]
def glmc_mat4_rmc (r : V4 α) (m : M4 α) (c : V4 α) : α :=
  glm_mat4_rmc r m c

/-- `glmc_mat4_make`: src/mat4.c:167-171. -/
@[cglm]
def glmc_mat4_make (src : V16 α) : M4 α :=
  glm_mat4_make src

/-- `glmc_mat4_textrans`: src/mat4.c:173-177. -/
@[cglm]
def glmc_mat4_textrans (sx : α) (sy : α) (rot : α) (tx : α) (ty : α) : M4 α :=
  glm_mat4_textrans sx sy rot tx ty

end Cglm

end SrcMat4

section SrcMat4x2

/- Generated from src/mat4x2.c by tools/gen.py (value semantics); do not edit by hand. -/

set_option linter.unusedVariables false
set_option linter.unusedSectionVars false

namespace Cglm

variable {α : Type} [Add α] [Sub α] [Mul α] [Div α] [Neg α] [CFloat α]

/-- `glmc_mat4x2_copy`: src/mat4x2.c:11-15. -/
@[cglm]
def glmc_mat4x2_copy (src : M4x2 α) : M4x2 α :=
  glm_mat4x2_copy src

/-- `glmc_mat4x2_zero`: src/mat4x2.c:17-21. -/
@[cglm]
def glmc_mat4x2_zero : M4x2 α :=
  glm_mat4x2_zero

/-- `glmc_mat4x2_make`: src/mat4x2.c:23-27. -/
@[cglm]
def glmc_mat4x2_make (src : V8 α) : M4x2 α :=
  glm_mat4x2_make src

/-- `glmc_mat4x2_mul`: src/mat4x2.c:29-33. -/
@[cglm]
def glmc_mat4x2_mul (m1 : M4x2 α) (m2 : M2x4 α) : M2 α :=
  glm_mat4x2_mul m1 m2

/-- `glmc_mat4x2_mulv`: src/mat4x2.c:35-39. -/
@[cglm]
def glmc_mat4x2_mulv (m : M4x2 α) (v : V4 α) : V2 α :=
  glm_mat4x2_mulv m v

/-- `glmc_mat4x2_transpose`: src/mat4x2.c:41-45. -/
@[cglm]
def glmc_mat4x2_transpose (src : M4x2 α) : M2x4 α :=
  glm_mat4x2_transpose src

/-- `glmc_mat4x2_scale`: src/mat4x2.c:47-51. -/
@[cglm]
def glmc_mat4x2_scale (m : M4x2 α) (s : α) : M4x2 α :=
  glm_mat4x2_scale m s

end Cglm

end SrcMat4x2

section SrcMat4x3

/- Generated from src/mat4x3.c by tools/gen.py (value semantics); do not edit by hand. -/

set_option linter.unusedVariables false
set_option linter.unusedSectionVars false

namespace Cglm

variable {α : Type} [Add α] [Sub α] [Mul α] [Div α] [Neg α] [CFloat α]

/-- `glmc_mat4x3_copy`: src/mat4x3.c:11-15. -/
@[cglm]
def glmc_mat4x3_copy (src : M4x3 α) : M4x3 α :=
  glm_mat4x3_copy src

/-- `glmc_mat4x3_zero`: src/mat4x3.c:17-21. -/
@[cglm]
def glmc_mat4x3_zero : M4x3 α :=
  glm_mat4x3_zero

/-- `glmc_mat4x3_make`: src/mat4x3.c:23-27. -/
@[cglm]
def glmc_mat4x3_make (src : V12 α) : M4x3 α :=
  glm_mat4x3_make src

/-- `glmc_mat4x3_mul`: src/mat4x3.c:29-33. -/
@[cglm]
def glmc_mat4x3_mul (m1 : M4x3 α) (m2 : M3x4 α) : M3 α :=
  glm_mat4x3_mul m1 m2

/-- `glmc_mat4x3_mulv`: src/mat4x3.c:35-39. -/
@[cglm]
def glmc_mat4x3_mulv (m : M4x3 α) (v : V4 α) : V3 α :=
  glm_mat4x3_mulv m v

/-- `glmc_mat4x3_transpose`: src/mat4x3.c:41-45. -/
@[cglm]
def glmc_mat4x3_transpose (src : M4x3 α) : M3x4 α :=
  glm_mat4x3_transpose src

/-- `glmc_mat4x3_scale`: src/mat4x3.c:47-51. -/
@[cglm]
def glmc_mat4x3_scale (m : M4x3 α) (s : α) : M4x3 α :=
  glm_mat4x3_scale m s

end Cglm

end SrcMat4x3
