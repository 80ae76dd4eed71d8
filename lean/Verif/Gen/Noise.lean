/- Generated from include/cglm/noise.h by tools/gen.py (value semantics); do not edit by hand. -/
import Verif.Base
import Verif.Attr
import Verif.Gen.Util
import Verif.Gen.Vec2
import Verif.Gen.Vec3
import Verif.Gen.Vec3Ext
import Verif.Gen.Vec4
import Verif.Gen.Vec4Ext

set_option linter.unusedVariables false
set_option linter.unusedSectionVars false

namespace Cglm

variable {α : Type} [Add α] [Sub α] [Mul α] [Div α] [Neg α] [CFloat α]

/-- `glm_perlin_vec4`: include/cglm/noise.h:296-497. -/
@[cglm]
def glm_perlin_vec4 (point : V4 α) : α :=
  let Pi0 := glm_vec4_floor point
  let Pi1 := glm_vec4_adds Pi0 (lit 1)
  let Pi0_1 := glm_vec4_mods Pi0 (lit 289)
  let Pi1_1 := glm_vec4_mods Pi1 (lit 289)
  let Pf0 := glm_vec4_fract point
  let Pf1 := glm_vec4_subs Pf0 (lit 1)
  let ixy := glm_vec4_add ⟨(Pi0_1.x * (lit 34) + (lit 1)) * Pi0_1.x - floorf ((Pi0_1.x * (lit 34) + (lit 1)) * Pi0_1.x * ((lit 1) / (lit 289))) * (lit 289), (Pi1_1.x * (lit 34) + (lit 1)) * Pi1_1.x - floorf ((Pi1_1.x * (lit 34) + (lit 1)) * Pi1_1.x * ((lit 1) / (lit 289))) * (lit 289), (Pi0_1.x * (lit 34) + (lit 1)) * Pi0_1.x - floorf ((Pi0_1.x * (lit 34) + (lit 1)) * Pi0_1.x * ((lit 1) / (lit 289))) * (lit 289), (Pi1_1.x * (lit 34) + (lit 1)) * Pi1_1.x - floorf ((Pi1_1.x * (lit 34) + (lit 1)) * Pi1_1.x * ((lit 1) / (lit 289))) * (lit 289)⟩ ⟨Pi0_1.y, Pi0_1.y, Pi1_1.y, Pi1_1.y⟩
  let ixy_0_1 := (ixy.x * (lit 34) + (lit 1)) * ixy.x - floorf ((ixy.x * (lit 34) + (lit 1)) * ixy.x * ((lit 1) / (lit 289))) * (lit 289)
  let ixy_1_1 := (ixy.y * (lit 34) + (lit 1)) * ixy.y - floorf ((ixy.y * (lit 34) + (lit 1)) * ixy.y * ((lit 1) / (lit 289))) * (lit 289)
  let ixy_2_1 := (ixy.z * (lit 34) + (lit 1)) * ixy.z - floorf ((ixy.z * (lit 34) + (lit 1)) * ixy.z * ((lit 1) / (lit 289))) * (lit 289)
  let ixy_3_1 := (ixy.w * (lit 34) + (lit 1)) * ixy.w - floorf ((ixy.w * (lit 34) + (lit 1)) * ixy.w * ((lit 1) / (lit 289))) * (lit 289)
  let ixy0 := glm_vec4_add ⟨ixy_0_1, ixy_1_1, ixy_2_1, ixy_3_1⟩ ⟨Pi0_1.z, Pi0_1.z, Pi0_1.z, Pi0_1.z⟩
  let ixy0_0 := (ixy0.x * (lit 34) + (lit 1)) * ixy0.x - floorf ((ixy0.x * (lit 34) + (lit 1)) * ixy0.x * ((lit 1) / (lit 289))) * (lit 289)
  let ixy0_1 := (ixy0.y * (lit 34) + (lit 1)) * ixy0.y - floorf ((ixy0.y * (lit 34) + (lit 1)) * ixy0.y * ((lit 1) / (lit 289))) * (lit 289)
  let ixy0_2 := (ixy0.z * (lit 34) + (lit 1)) * ixy0.z - floorf ((ixy0.z * (lit 34) + (lit 1)) * ixy0.z * ((lit 1) / (lit 289))) * (lit 289)
  let ixy0_3 := (ixy0.w * (lit 34) + (lit 1)) * ixy0.w - floorf ((ixy0.w * (lit 34) + (lit 1)) * ixy0.w * ((lit 1) / (lit 289))) * (lit 289)
  let ixy1 := glm_vec4_add ⟨ixy_0_1, ixy_1_1, ixy_2_1, ixy_3_1⟩ ⟨Pi1_1.z, Pi1_1.z, Pi1_1.z, Pi1_1.z⟩
  let ixy1_0 := (ixy1.x * (lit 34) + (lit 1)) * ixy1.x - floorf ((ixy1.x * (lit 34) + (lit 1)) * ixy1.x * ((lit 1) / (lit 289))) * (lit 289)
  let ixy1_1 := (ixy1.y * (lit 34) + (lit 1)) * ixy1.y - floorf ((ixy1.y * (lit 34) + (lit 1)) * ixy1.y * ((lit 1) / (lit 289))) * (lit 289)
  let ixy1_2 := (ixy1.z * (lit 34) + (lit 1)) * ixy1.z - floorf ((ixy1.z * (lit 34) + (lit 1)) * ixy1.z * ((lit 1) / (lit 289))) * (lit 289)
  let ixy1_3 := (ixy1.w * (lit 34) + (lit 1)) * ixy1.w - floorf ((ixy1.w * (lit 34) + (lit 1)) * ixy1.w * ((lit 1) / (lit 289))) * (lit 289)
  let ixy00 := glm_vec4_add ⟨ixy0_0, ixy0_1, ixy0_2, ixy0_3⟩ ⟨Pi0_1.w, Pi0_1.w, Pi0_1.w, Pi0_1.w⟩
  let ixy01 := glm_vec4_add ⟨ixy0_0, ixy0_1, ixy0_2, ixy0_3⟩ ⟨Pi1_1.w, Pi1_1.w, Pi1_1.w, Pi1_1.w⟩
  let ixy10 := glm_vec4_add ⟨ixy1_0, ixy1_1, ixy1_2, ixy1_3⟩ ⟨Pi0_1.w, Pi0_1.w, Pi0_1.w, Pi0_1.w⟩
  let ixy11 := glm_vec4_add ⟨ixy1_0, ixy1_1, ixy1_2, ixy1_3⟩ ⟨Pi1_1.w, Pi1_1.w, Pi1_1.w, Pi1_1.w⟩
  let gx00 := glm_vec4_divs ⟨(ixy00.x * (lit 34) + (lit 1)) * ixy00.x - floorf ((ixy00.x * (lit 34) + (lit 1)) * ixy00.x * ((lit 1) / (lit 289))) * (lit 289), (ixy00.y * (lit 34) + (lit 1)) * ixy00.y - floorf ((ixy00.y * (lit 34) + (lit 1)) * ixy00.y * ((lit 1) / (lit 289))) * (lit 289), (ixy00.z * (lit 34) + (lit 1)) * ixy00.z - floorf ((ixy00.z * (lit 34) + (lit 1)) * ixy00.z * ((lit 1) / (lit 289))) * (lit 289), (ixy00.w * (lit 34) + (lit 1)) * ixy00.w - floorf ((ixy00.w * (lit 34) + (lit 1)) * ixy00.w * ((lit 1) / (lit 289))) * (lit 289)⟩ (lit 7)
  let gy00 := glm_vec4_floor gx00
  let gy00_1 := glm_vec4_divs gy00 (lit 7)
  let gz00 := glm_vec4_floor gy00_1
  let gz00_1 := glm_vec4_divs gz00 (lit 6)
  let gx00_1 := glm_vec4_fract gx00
  let gx00_2 := glm_vec4_subs gx00_1 (lit 0.5)
  let gy00_2 := glm_vec4_fract gy00_1
  let gy00_3 := glm_vec4_subs gy00_2 (lit 0.5)
  let gz00_2 := glm_vec4_fract gz00_1
  let gz00_3 := glm_vec4_subs gz00_2 (lit 0.5)
  let gxa := glm_vec4_abs gx00_2
  let gya := glm_vec4_abs gy00_3
  let gza := glm_vec4_abs gz00_3
  let gw00 := glm_vec4_fill (lit 0.75)
  let gw00_1 := glm_vec4_sub gw00 gxa
  let gw00_2 := glm_vec4_sub gw00_1 gza
  let gw00_3 := glm_vec4_sub gw00_2 gya
  let sw := glm_vec4_stepr gw00_3 (lit 0)
  let temp := glm_vec4_step ⟨lit 0, lit 0, lit 0, lit 0⟩ gx00_2
  let temp_1 := glm_vec4_subs temp (lit 0.5)
  let temp_2 := glm_vec4_mul sw temp_1
  let gx00_3 := glm_vec4_sub gx00_2 temp_2
  let temp_3 := glm_vec4_zero
  let temp_4 := glm_vec4_step temp_3 gy00_3
  let temp_5 := glm_vec4_subs temp_4 (lit 0.5)
  let temp_6 := glm_vec4_mul sw temp_5
  let gy00_4 := glm_vec4_sub gy00_3 temp_6
  let gx01 := glm_vec4_divs ⟨(ixy01.x * (lit 34) + (lit 1)) * ixy01.x - floorf ((ixy01.x * (lit 34) + (lit 1)) * ixy01.x * ((lit 1) / (lit 289))) * (lit 289), (ixy01.y * (lit 34) + (lit 1)) * ixy01.y - floorf ((ixy01.y * (lit 34) + (lit 1)) * ixy01.y * ((lit 1) / (lit 289))) * (lit 289), (ixy01.z * (lit 34) + (lit 1)) * ixy01.z - floorf ((ixy01.z * (lit 34) + (lit 1)) * ixy01.z * ((lit 1) / (lit 289))) * (lit 289), (ixy01.w * (lit 34) + (lit 1)) * ixy01.w - floorf ((ixy01.w * (lit 34) + (lit 1)) * ixy01.w * ((lit 1) / (lit 289))) * (lit 289)⟩ (lit 7)
  let gy01 := glm_vec4_floor gx01
  let gy01_1 := glm_vec4_divs gy01 (lit 7)
  let gz01 := glm_vec4_floor gy01_1
  let gz01_1 := glm_vec4_divs gz01 (lit 6)
  let gx01_1 := glm_vec4_fract gx01
  let gx01_2 := glm_vec4_subs gx01_1 (lit 0.5)
  let gy01_2 := glm_vec4_fract gy01_1
  let gy01_3 := glm_vec4_subs gy01_2 (lit 0.5)
  let gz01_2 := glm_vec4_fract gz01_1
  let gz01_3 := glm_vec4_subs gz01_2 (lit 0.5)
  let gxa_1 := glm_vec4_abs gx01_2
  let gya_1 := glm_vec4_abs gy01_3
  let gza_1 := glm_vec4_abs gz01_3
  let gw01 := glm_vec4_fill (lit 0.75)
  let gw01_1 := glm_vec4_sub gw01 gxa_1
  let gw01_2 := glm_vec4_sub gw01_1 gza_1
  let gw01_3 := glm_vec4_sub gw01_2 gya_1
  let sw_1 := glm_vec4_stepr gw01_3 (lit 0)
  let temp_7 := glm_vec4_step ⟨lit 0, lit 0, lit 0, lit 0⟩ gx01_2
  let temp_8 := glm_vec4_subs temp_7 (lit 0.5)
  let temp_9 := glm_vec4_mul sw_1 temp_8
  let gx01_3 := glm_vec4_sub gx01_2 temp_9
  let temp_10 := glm_vec4_zero
  let temp_11 := glm_vec4_step temp_10 gy01_3
  let temp_12 := glm_vec4_subs temp_11 (lit 0.5)
  let temp_13 := glm_vec4_mul sw_1 temp_12
  let gy01_4 := glm_vec4_sub gy01_3 temp_13
  let gx10 := glm_vec4_divs ⟨(ixy10.x * (lit 34) + (lit 1)) * ixy10.x - floorf ((ixy10.x * (lit 34) + (lit 1)) * ixy10.x * ((lit 1) / (lit 289))) * (lit 289), (ixy10.y * (lit 34) + (lit 1)) * ixy10.y - floorf ((ixy10.y * (lit 34) + (lit 1)) * ixy10.y * ((lit 1) / (lit 289))) * (lit 289), (ixy10.z * (lit 34) + (lit 1)) * ixy10.z - floorf ((ixy10.z * (lit 34) + (lit 1)) * ixy10.z * ((lit 1) / (lit 289))) * (lit 289), (ixy10.w * (lit 34) + (lit 1)) * ixy10.w - floorf ((ixy10.w * (lit 34) + (lit 1)) * ixy10.w * ((lit 1) / (lit 289))) * (lit 289)⟩ (lit 7)
  let gy10 := glm_vec4_floor gx10
  let gy10_1 := glm_vec4_divs gy10 (lit 7)
  let gz10 := glm_vec4_floor gy10_1
  let gz10_1 := glm_vec4_divs gz10 (lit 6)
  let gx10_1 := glm_vec4_fract gx10
  let gx10_2 := glm_vec4_subs gx10_1 (lit 0.5)
  let gy10_2 := glm_vec4_fract gy10_1
  let gy10_3 := glm_vec4_subs gy10_2 (lit 0.5)
  let gz10_2 := glm_vec4_fract gz10_1
  let gz10_3 := glm_vec4_subs gz10_2 (lit 0.5)
  let gxa_2 := glm_vec4_abs gx10_2
  let gya_2 := glm_vec4_abs gy10_3
  let gza_2 := glm_vec4_abs gz10_3
  let gw10 := glm_vec4_fill (lit 0.75)
  let gw10_1 := glm_vec4_sub gw10 gxa_2
  let gw10_2 := glm_vec4_sub gw10_1 gza_2
  let gw10_3 := glm_vec4_sub gw10_2 gya_2
  let sw_2 := glm_vec4_stepr gw10_3 (lit 0)
  let temp_14 := glm_vec4_step ⟨lit 0, lit 0, lit 0, lit 0⟩ gx10_2
  let temp_15 := glm_vec4_subs temp_14 (lit 0.5)
  let temp_16 := glm_vec4_mul sw_2 temp_15
  let gx10_3 := glm_vec4_sub gx10_2 temp_16
  let temp_17 := glm_vec4_zero
  let temp_18 := glm_vec4_step temp_17 gy10_3
  let temp_19 := glm_vec4_subs temp_18 (lit 0.5)
  let temp_20 := glm_vec4_mul sw_2 temp_19
  let gy10_4 := glm_vec4_sub gy10_3 temp_20
  let gx11 := glm_vec4_divs ⟨(ixy11.x * (lit 34) + (lit 1)) * ixy11.x - floorf ((ixy11.x * (lit 34) + (lit 1)) * ixy11.x * ((lit 1) / (lit 289))) * (lit 289), (ixy11.y * (lit 34) + (lit 1)) * ixy11.y - floorf ((ixy11.y * (lit 34) + (lit 1)) * ixy11.y * ((lit 1) / (lit 289))) * (lit 289), (ixy11.z * (lit 34) + (lit 1)) * ixy11.z - floorf ((ixy11.z * (lit 34) + (lit 1)) * ixy11.z * ((lit 1) / (lit 289))) * (lit 289), (ixy11.w * (lit 34) + (lit 1)) * ixy11.w - floorf ((ixy11.w * (lit 34) + (lit 1)) * ixy11.w * ((lit 1) / (lit 289))) * (lit 289)⟩ (lit 7)
  let gy11 := glm_vec4_floor gx11
  let gy11_1 := glm_vec4_divs gy11 (lit 7)
  let gz11 := glm_vec4_floor gy11_1
  let gz11_1 := glm_vec4_divs gz11 (lit 6)
  let gx11_1 := glm_vec4_fract gx11
  let gx11_2 := glm_vec4_subs gx11_1 (lit 0.5)
  let gy11_2 := glm_vec4_fract gy11_1
  let gy11_3 := glm_vec4_subs gy11_2 (lit 0.5)
  let gz11_2 := glm_vec4_fract gz11_1
  let gz11_3 := glm_vec4_subs gz11_2 (lit 0.5)
  let gxa_3 := glm_vec4_abs gx11_2
  let gya_3 := glm_vec4_abs gy11_3
  let gza_3 := glm_vec4_abs gz11_3
  let gw11 := glm_vec4_fill (lit 0.75)
  let gw11_1 := glm_vec4_sub gw11 gxa_3
  let gw11_2 := glm_vec4_sub gw11_1 gza_3
  let gw11_3 := glm_vec4_sub gw11_2 gya_3
  let sw_3 := glm_vec4_stepr gw11_3 (lit 0)
  let temp_21 := glm_vec4_step ⟨lit 0, lit 0, lit 0, lit 0⟩ gx11_2
  let temp_22 := glm_vec4_subs temp_21 (lit 0.5)
  let temp_23 := glm_vec4_mul sw_3 temp_22
  let gx11_3 := glm_vec4_sub gx11_2 temp_23
  let temp_24 := glm_vec4_zero
  let temp_25 := glm_vec4_step temp_24 gy11_3
  let temp_26 := glm_vec4_subs temp_25 (lit 0.5)
  let temp_27 := glm_vec4_mul sw_3 temp_26
  let gy11_4 := glm_vec4_sub gy11_3 temp_27
  let temp_28 := glm_vec4_scale ⟨glm_vec4_dot ⟨gx00_3.x, gy00_4.x, gz00_3.x, gw00_3.x⟩ ⟨gx00_3.x, gy00_4.x, gz00_3.x, gw00_3.x⟩, glm_vec4_dot ⟨gx00_3.z, gy00_4.z, gz00_3.z, gw00_3.z⟩ ⟨gx00_3.z, gy00_4.z, gz00_3.z, gw00_3.z⟩, glm_vec4_dot ⟨gx00_3.y, gy00_4.y, gz00_3.y, gw00_3.y⟩ ⟨gx00_3.y, gy00_4.y, gz00_3.y, gw00_3.y⟩, glm_vec4_dot ⟨gx00_3.w, gy00_4.w, gz00_3.w, gw00_3.w⟩ ⟨gx00_3.w, gy00_4.w, gz00_3.w, gw00_3.w⟩⟩ (lit 0.85373472095314)
  let norm := glm_vec4_fill (lit 1.79284291400159)
  let norm_4 := glm_vec4_sub norm temp_28
  let g0000 := glm_vec4_scale ⟨gx00_3.x, gy00_4.x, gz00_3.x, gw00_3.x⟩ norm_4.x
  let g0100 := glm_vec4_scale ⟨gx00_3.z, gy00_4.z, gz00_3.z, gw00_3.z⟩ norm_4.y
  let g1000 := glm_vec4_scale ⟨gx00_3.y, gy00_4.y, gz00_3.y, gw00_3.y⟩ norm_4.z
  let g1100 := glm_vec4_scale ⟨gx00_3.w, gy00_4.w, gz00_3.w, gw00_3.w⟩ norm_4.w
  let temp_29 := glm_vec4_scale ⟨glm_vec4_dot ⟨gx01_3.x, gy01_4.x, gz01_3.x, gw01_3.x⟩ ⟨gx01_3.x, gy01_4.x, gz01_3.x, gw01_3.x⟩, glm_vec4_dot ⟨gx01_3.z, gy01_4.z, gz01_3.z, gw01_3.z⟩ ⟨gx01_3.z, gy01_4.z, gz01_3.z, gw01_3.z⟩, glm_vec4_dot ⟨gx01_3.y, gy01_4.y, gz01_3.y, gw01_3.y⟩ ⟨gx01_3.y, gy01_4.y, gz01_3.y, gw01_3.y⟩, glm_vec4_dot ⟨gx01_3.w, gy01_4.w, gz01_3.w, gw01_3.w⟩ ⟨gx01_3.w, gy01_4.w, gz01_3.w, gw01_3.w⟩⟩ (lit 0.85373472095314)
  let norm_5 := glm_vec4_fill (lit 1.79284291400159)
  let norm_6 := glm_vec4_sub norm_5 temp_29
  let g0001 := glm_vec4_scale ⟨gx01_3.x, gy01_4.x, gz01_3.x, gw01_3.x⟩ norm_6.x
  let g0101 := glm_vec4_scale ⟨gx01_3.z, gy01_4.z, gz01_3.z, gw01_3.z⟩ norm_6.y
  let g1001 := glm_vec4_scale ⟨gx01_3.y, gy01_4.y, gz01_3.y, gw01_3.y⟩ norm_6.z
  let g1101 := glm_vec4_scale ⟨gx01_3.w, gy01_4.w, gz01_3.w, gw01_3.w⟩ norm_6.w
  let temp_30 := glm_vec4_scale ⟨glm_vec4_dot ⟨gx10_3.x, gy10_4.x, gz10_3.x, gw10_3.x⟩ ⟨gx10_3.x, gy10_4.x, gz10_3.x, gw10_3.x⟩, glm_vec4_dot ⟨gx10_3.z, gy10_4.z, gz10_3.z, gw10_3.z⟩ ⟨gx10_3.z, gy10_4.z, gz10_3.z, gw10_3.z⟩, glm_vec4_dot ⟨gx10_3.y, gy10_4.y, gz10_3.y, gw10_3.y⟩ ⟨gx10_3.y, gy10_4.y, gz10_3.y, gw10_3.y⟩, glm_vec4_dot ⟨gx10_3.w, gy10_4.w, gz10_3.w, gw10_3.w⟩ ⟨gx10_3.w, gy10_4.w, gz10_3.w, gw10_3.w⟩⟩ (lit 0.85373472095314)
  let norm_7 := glm_vec4_fill (lit 1.79284291400159)
  let norm_8 := glm_vec4_sub norm_7 temp_30
  let g0010 := glm_vec4_scale ⟨gx10_3.x, gy10_4.x, gz10_3.x, gw10_3.x⟩ norm_8.x
  let g0110 := glm_vec4_scale ⟨gx10_3.z, gy10_4.z, gz10_3.z, gw10_3.z⟩ norm_8.y
  let g1010 := glm_vec4_scale ⟨gx10_3.y, gy10_4.y, gz10_3.y, gw10_3.y⟩ norm_8.z
  let g1110 := glm_vec4_scale ⟨gx10_3.w, gy10_4.w, gz10_3.w, gw10_3.w⟩ norm_8.w
  let temp_31 := glm_vec4_scale ⟨glm_vec4_dot ⟨gx11_3.x, gy11_4.x, gz11_3.x, gw11_3.x⟩ ⟨gx11_3.x, gy11_4.x, gz11_3.x, gw11_3.x⟩, glm_vec4_dot ⟨gx11_3.z, gy11_4.z, gz11_3.z, gw11_3.z⟩ ⟨gx11_3.z, gy11_4.z, gz11_3.z, gw11_3.z⟩, glm_vec4_dot ⟨gx11_3.y, gy11_4.y, gz11_3.y, gw11_3.y⟩ ⟨gx11_3.y, gy11_4.y, gz11_3.y, gw11_3.y⟩, glm_vec4_dot ⟨gx11_3.w, gy11_4.w, gz11_3.w, gw11_3.w⟩ ⟨gx11_3.w, gy11_4.w, gz11_3.w, gw11_3.w⟩⟩ (lit 0.85373472095314)
  let norm_9 := glm_vec4_fill (lit 1.79284291400159)
  let norm_10 := glm_vec4_sub norm_9 temp_31
  let g0011 := glm_vec4_scale ⟨gx11_3.x, gy11_4.x, gz11_3.x, gw11_3.x⟩ norm_10.x
  let g0111 := glm_vec4_scale ⟨gx11_3.z, gy11_4.z, gz11_3.z, gw11_3.z⟩ norm_10.y
  let g1011 := glm_vec4_scale ⟨gx11_3.y, gy11_4.y, gz11_3.y, gw11_3.y⟩ norm_10.z
  let g1111 := glm_vec4_scale ⟨gx11_3.w, gy11_4.w, gz11_3.w, gw11_3.w⟩ norm_10.w
  let n0000 := glm_vec4_dot g0000 Pf0
  let n1000 := glm_vec4_dot g1000 ⟨Pf1.x, Pf0.y, Pf0.z, Pf0.w⟩
  let n0100 := glm_vec4_dot g0100 ⟨Pf0.x, Pf1.y, Pf0.z, Pf0.w⟩
  let n1100 := glm_vec4_dot g1100 ⟨Pf1.x, Pf1.y, Pf0.z, Pf0.w⟩
  let n0010 := glm_vec4_dot g0010 ⟨Pf0.x, Pf0.y, Pf1.z, Pf0.w⟩
  let n1010 := glm_vec4_dot g1010 ⟨Pf1.x, Pf0.y, Pf1.z, Pf0.w⟩
  let n0110 := glm_vec4_dot g0110 ⟨Pf0.x, Pf1.y, Pf1.z, Pf0.w⟩
  let n1110 := glm_vec4_dot g1110 ⟨Pf1.x, Pf1.y, Pf1.z, Pf0.w⟩
  let n0001 := glm_vec4_dot g0001 ⟨Pf0.x, Pf0.y, Pf0.z, Pf1.w⟩
  let n1001 := glm_vec4_dot g1001 ⟨Pf1.x, Pf0.y, Pf0.z, Pf1.w⟩
  let n0101 := glm_vec4_dot g0101 ⟨Pf0.x, Pf1.y, Pf0.z, Pf1.w⟩
  let n1101 := glm_vec4_dot g1101 ⟨Pf1.x, Pf1.y, Pf0.z, Pf1.w⟩
  let n0011 := glm_vec4_dot g0011 ⟨Pf0.x, Pf0.y, Pf1.z, Pf1.w⟩
  let n1011 := glm_vec4_dot g1011 ⟨Pf1.x, Pf0.y, Pf1.z, Pf1.w⟩
  let n0111 := glm_vec4_dot g0111 ⟨Pf0.x, Pf1.y, Pf1.z, Pf1.w⟩
  let n1111 := glm_vec4_dot g1111 Pf1
  let temp_32 := glm_vec4_mul Pf0 Pf0
  let temp_33 := glm_vec4_mul temp_32 Pf0
  let fade_xyzw := glm_vec4_scale Pf0 (lit 6)
  let fade_xyzw_1 := glm_vec4_subs fade_xyzw (lit 15)
  let fade_xyzw_2 := glm_vec4_mul Pf0 fade_xyzw_1
  let fade_xyzw_3 := glm_vec4_adds fade_xyzw_2 (lit 10)
  let fade_xyzw_4 := glm_vec4_mul temp_33 fade_xyzw_3
  let n_0w := glm_vec4_lerp ⟨n0000, n1000, n0100, n1100⟩ ⟨n0001, n1001, n0101, n1101⟩ fade_xyzw_4.w
  let n_1w := glm_vec4_lerp ⟨n0010, n1010, n0110, n1110⟩ ⟨n0011, n1011, n0111, n1111⟩ fade_xyzw_4.w
  let n_zw := glm_vec4_lerp n_0w n_1w fade_xyzw_4.z
  let n_yzw := glm_vec2_lerp ⟨n_zw.x, n_zw.y⟩ ⟨n_zw.z, n_zw.w⟩ fade_xyzw_4.y
  glm_lerp n_yzw.x n_yzw.y fade_xyzw_4.x * (lit 2.2)

/-- `glm_perlin_vec3`: include/cglm/noise.h:506-625. -/
@[cglm]
def glm_perlin_vec3 (point : V3 α) : α :=
  let Pi0 := glm_vec3_floor point
  let Pi1 := glm_vec3_adds Pi0 (lit 1)
  let Pi0_1 := glm_vec3_mods Pi0 (lit 289)
  let Pi1_1 := glm_vec3_mods Pi1 (lit 289)
  let Pf0 := glm_vec3_fract point
  let Pf1 := glm_vec3_subs Pf0 (lit 1)
  let ixy := glm_vec4_add ⟨(Pi0_1.x * (lit 34) + (lit 1)) * Pi0_1.x - floorf ((Pi0_1.x * (lit 34) + (lit 1)) * Pi0_1.x * ((lit 1) / (lit 289))) * (lit 289), (Pi1_1.x * (lit 34) + (lit 1)) * Pi1_1.x - floorf ((Pi1_1.x * (lit 34) + (lit 1)) * Pi1_1.x * ((lit 1) / (lit 289))) * (lit 289), (Pi0_1.x * (lit 34) + (lit 1)) * Pi0_1.x - floorf ((Pi0_1.x * (lit 34) + (lit 1)) * Pi0_1.x * ((lit 1) / (lit 289))) * (lit 289), (Pi1_1.x * (lit 34) + (lit 1)) * Pi1_1.x - floorf ((Pi1_1.x * (lit 34) + (lit 1)) * Pi1_1.x * ((lit 1) / (lit 289))) * (lit 289)⟩ ⟨Pi0_1.y, Pi0_1.y, Pi1_1.y, Pi1_1.y⟩
  let ixy_0_1 := (ixy.x * (lit 34) + (lit 1)) * ixy.x - floorf ((ixy.x * (lit 34) + (lit 1)) * ixy.x * ((lit 1) / (lit 289))) * (lit 289)
  let ixy_1_1 := (ixy.y * (lit 34) + (lit 1)) * ixy.y - floorf ((ixy.y * (lit 34) + (lit 1)) * ixy.y * ((lit 1) / (lit 289))) * (lit 289)
  let ixy_2_1 := (ixy.z * (lit 34) + (lit 1)) * ixy.z - floorf ((ixy.z * (lit 34) + (lit 1)) * ixy.z * ((lit 1) / (lit 289))) * (lit 289)
  let ixy_3_1 := (ixy.w * (lit 34) + (lit 1)) * ixy.w - floorf ((ixy.w * (lit 34) + (lit 1)) * ixy.w * ((lit 1) / (lit 289))) * (lit 289)
  let ixy0 := glm_vec4_add ⟨ixy_0_1, ixy_1_1, ixy_2_1, ixy_3_1⟩ ⟨Pi0_1.z, Pi0_1.z, Pi0_1.z, Pi0_1.z⟩
  let ixy1 := glm_vec4_add ⟨ixy_0_1, ixy_1_1, ixy_2_1, ixy_3_1⟩ ⟨Pi1_1.z, Pi1_1.z, Pi1_1.z, Pi1_1.z⟩
  let gx0 := glm_vec4_scale ⟨(ixy0.x * (lit 34) + (lit 1)) * ixy0.x - floorf ((ixy0.x * (lit 34) + (lit 1)) * ixy0.x * ((lit 1) / (lit 289))) * (lit 289), (ixy0.y * (lit 34) + (lit 1)) * ixy0.y - floorf ((ixy0.y * (lit 34) + (lit 1)) * ixy0.y * ((lit 1) / (lit 289))) * (lit 289), (ixy0.z * (lit 34) + (lit 1)) * ixy0.z - floorf ((ixy0.z * (lit 34) + (lit 1)) * ixy0.z * ((lit 1) / (lit 289))) * (lit 289), (ixy0.w * (lit 34) + (lit 1)) * ixy0.w - floorf ((ixy0.w * (lit 34) + (lit 1)) * ixy0.w * ((lit 1) / (lit 289))) * (lit 289)⟩ ((lit 1) / (lit 7))
  let gy0 := glm_vec4_floor gx0
  let gy0_1 := glm_vec4_scale gy0 ((lit 1) / (lit 7))
  let gy0_2 := glm_vec4_fract gy0_1
  let gy0_3 := glm_vec4_subs gy0_2 (lit 0.5)
  let gx0_1 := glm_vec4_fract gx0
  let gxa := glm_vec4_abs gx0_1
  let gya := glm_vec4_abs gy0_3
  let gz0 := glm_vec4_fill (lit 0.5)
  let gz0_1 := glm_vec4_sub gz0 gxa
  let gz0_2 := glm_vec4_sub gz0_1 gya
  let sz := glm_vec4_stepr gz0_2 (lit 0)
  let temp := glm_vec4_step ⟨lit 0, lit 0, lit 0, lit 0⟩ gx0_1
  let temp_1 := glm_vec4_subs temp (lit 0.5)
  let temp_2 := glm_vec4_mul sz temp_1
  let gx0_2 := glm_vec4_sub gx0_1 temp_2
  let temp_3 := glm_vec4_zero
  let temp_4 := glm_vec4_step temp_3 gy0_3
  let temp_5 := glm_vec4_subs temp_4 (lit 0.5)
  let temp_6 := glm_vec4_mul sz temp_5
  let gy0_4 := glm_vec4_sub gy0_3 temp_6
  let gx1 := glm_vec4_scale ⟨(ixy1.x * (lit 34) + (lit 1)) * ixy1.x - floorf ((ixy1.x * (lit 34) + (lit 1)) * ixy1.x * ((lit 1) / (lit 289))) * (lit 289), (ixy1.y * (lit 34) + (lit 1)) * ixy1.y - floorf ((ixy1.y * (lit 34) + (lit 1)) * ixy1.y * ((lit 1) / (lit 289))) * (lit 289), (ixy1.z * (lit 34) + (lit 1)) * ixy1.z - floorf ((ixy1.z * (lit 34) + (lit 1)) * ixy1.z * ((lit 1) / (lit 289))) * (lit 289), (ixy1.w * (lit 34) + (lit 1)) * ixy1.w - floorf ((ixy1.w * (lit 34) + (lit 1)) * ixy1.w * ((lit 1) / (lit 289))) * (lit 289)⟩ ((lit 1) / (lit 7))
  let gy1 := glm_vec4_floor gx1
  let gy1_1 := glm_vec4_scale gy1 ((lit 1) / (lit 7))
  let gy1_2 := glm_vec4_fract gy1_1
  let gy1_3 := glm_vec4_subs gy1_2 (lit 0.5)
  let gx1_1 := glm_vec4_fract gx1
  let gxa_1 := glm_vec4_abs gx1_1
  let gya_1 := glm_vec4_abs gy1_3
  let gz1 := glm_vec4_fill (lit 0.5)
  let gz1_1 := glm_vec4_sub gz1 gxa_1
  let gz1_2 := glm_vec4_sub gz1_1 gya_1
  let sz_1 := glm_vec4_stepr gz1_2 (lit 0)
  let temp_7 := glm_vec4_step ⟨lit 0, lit 0, lit 0, lit 0⟩ gx1_1
  let temp_8 := glm_vec4_subs temp_7 (lit 0.5)
  let temp_9 := glm_vec4_mul sz_1 temp_8
  let gx1_2 := glm_vec4_sub gx1_1 temp_9
  let temp_10 := glm_vec4_zero
  let temp_11 := glm_vec4_step temp_10 gy1_3
  let temp_12 := glm_vec4_subs temp_11 (lit 0.5)
  let temp_13 := glm_vec4_mul sz_1 temp_12
  let gy1_4 := glm_vec4_sub gy1_3 temp_13
  let temp_14 := glm_vec4_scale ⟨glm_vec3_dot ⟨gx0_2.x, gy0_4.x, gz0_2.x⟩ ⟨gx0_2.x, gy0_4.x, gz0_2.x⟩, glm_vec3_dot ⟨gx0_2.z, gy0_4.z, gz0_2.z⟩ ⟨gx0_2.z, gy0_4.z, gz0_2.z⟩, glm_vec3_dot ⟨gx0_2.y, gy0_4.y, gz0_2.y⟩ ⟨gx0_2.y, gy0_4.y, gz0_2.y⟩, glm_vec3_dot ⟨gx0_2.w, gy0_4.w, gz0_2.w⟩ ⟨gx0_2.w, gy0_4.w, gz0_2.w⟩⟩ (lit 0.85373472095314)
  let norm := glm_vec4_fill (lit 1.79284291400159)
  let norm_4 := glm_vec4_sub norm temp_14
  let g000 := glm_vec3_scale ⟨gx0_2.x, gy0_4.x, gz0_2.x⟩ norm_4.x
  let g010 := glm_vec3_scale ⟨gx0_2.z, gy0_4.z, gz0_2.z⟩ norm_4.y
  let g100 := glm_vec3_scale ⟨gx0_2.y, gy0_4.y, gz0_2.y⟩ norm_4.z
  let g110 := glm_vec3_scale ⟨gx0_2.w, gy0_4.w, gz0_2.w⟩ norm_4.w
  let temp_15 := glm_vec4_scale ⟨glm_vec3_dot ⟨gx1_2.x, gy1_4.x, gz1_2.x⟩ ⟨gx1_2.x, gy1_4.x, gz1_2.x⟩, glm_vec3_dot ⟨gx1_2.z, gy1_4.z, gz1_2.z⟩ ⟨gx1_2.z, gy1_4.z, gz1_2.z⟩, glm_vec3_dot ⟨gx1_2.y, gy1_4.y, gz1_2.y⟩ ⟨gx1_2.y, gy1_4.y, gz1_2.y⟩, glm_vec3_dot ⟨gx1_2.w, gy1_4.w, gz1_2.w⟩ ⟨gx1_2.w, gy1_4.w, gz1_2.w⟩⟩ (lit 0.85373472095314)
  let norm_5 := glm_vec4_fill (lit 1.79284291400159)
  let norm_6 := glm_vec4_sub norm_5 temp_15
  let g001 := glm_vec3_scale ⟨gx1_2.x, gy1_4.x, gz1_2.x⟩ norm_6.x
  let g011 := glm_vec3_scale ⟨gx1_2.z, gy1_4.z, gz1_2.z⟩ norm_6.y
  let g101 := glm_vec3_scale ⟨gx1_2.y, gy1_4.y, gz1_2.y⟩ norm_6.z
  let g111 := glm_vec3_scale ⟨gx1_2.w, gy1_4.w, gz1_2.w⟩ norm_6.w
  let n000 := glm_vec3_dot g000 Pf0
  let n100 := glm_vec3_dot g100 ⟨Pf1.x, Pf0.y, Pf0.z⟩
  let n010 := glm_vec3_dot g010 ⟨Pf0.x, Pf1.y, Pf0.z⟩
  let n110 := glm_vec3_dot g110 ⟨Pf1.x, Pf1.y, Pf0.z⟩
  let n001 := glm_vec3_dot g001 ⟨Pf0.x, Pf0.y, Pf1.z⟩
  let n101 := glm_vec3_dot g101 ⟨Pf1.x, Pf0.y, Pf1.z⟩
  let n011 := glm_vec3_dot g011 ⟨Pf0.x, Pf1.y, Pf1.z⟩
  let n111 := glm_vec3_dot g111 Pf1
  let temp_16 := glm_vec3_mul Pf0 Pf0
  let temp_17 := glm_vec3_mul temp_16 Pf0
  let fade_xyz := glm_vec3_scale Pf0 (lit 6)
  let fade_xyz_1 := glm_vec3_subs fade_xyz (lit 15)
  let fade_xyz_2 := glm_vec3_mul Pf0 fade_xyz_1
  let fade_xyz_3 := glm_vec3_adds fade_xyz_2 (lit 10)
  let fade_xyz_4 := glm_vec3_mul temp_17 fade_xyz_3
  let n_z := glm_vec4_lerp ⟨n000, n100, n010, n110⟩ ⟨n001, n101, n011, n111⟩ fade_xyz_4.z
  let n_yz := glm_vec2_lerp ⟨n_z.x, n_z.y⟩ ⟨n_z.z, n_z.w⟩ fade_xyz_4.y
  glm_lerp n_yz.x n_yz.y fade_xyz_4.x * (lit 2.2)

/-- `glm_perlin_vec2`: include/cglm/noise.h:633-717. -/
@[cglm]
def glm_perlin_vec2 (point : V2 α) : α :=
  let Pi := glm_vec4_floor ⟨point.x, point.y, point.x, point.y⟩
  let Pf := glm_vec4_fract ⟨point.x, point.y, point.x, point.y⟩
  let Pf_2 := Pf.z - (lit 1)
  let Pf_3 := Pf.w - (lit 1)
  let Pi_1 := glm_vec4_mods ⟨Pi.x, Pi.y, Pi.z + (lit 1), Pi.w + (lit 1)⟩ (lit 289)
  let i := glm_vec4_add ⟨(Pi_1.x * (lit 34) + (lit 1)) * Pi_1.x - floorf ((Pi_1.x * (lit 34) + (lit 1)) * Pi_1.x * ((lit 1) / (lit 289))) * (lit 289), (Pi_1.z * (lit 34) + (lit 1)) * Pi_1.z - floorf ((Pi_1.z * (lit 34) + (lit 1)) * Pi_1.z * ((lit 1) / (lit 289))) * (lit 289), (Pi_1.x * (lit 34) + (lit 1)) * Pi_1.x - floorf ((Pi_1.x * (lit 34) + (lit 1)) * Pi_1.x * ((lit 1) / (lit 289))) * (lit 289), (Pi_1.z * (lit 34) + (lit 1)) * Pi_1.z - floorf ((Pi_1.z * (lit 34) + (lit 1)) * Pi_1.z * ((lit 1) / (lit 289))) * (lit 289)⟩ ⟨Pi_1.y, Pi_1.y, Pi_1.w, Pi_1.w⟩
  let gx := glm_vec4_divs ⟨(i.x * (lit 34) + (lit 1)) * i.x - floorf ((i.x * (lit 34) + (lit 1)) * i.x * ((lit 1) / (lit 289))) * (lit 289), (i.y * (lit 34) + (lit 1)) * i.y - floorf ((i.y * (lit 34) + (lit 1)) * i.y * ((lit 1) / (lit 289))) * (lit 289), (i.z * (lit 34) + (lit 1)) * i.z - floorf ((i.z * (lit 34) + (lit 1)) * i.z * ((lit 1) / (lit 289))) * (lit 289), (i.w * (lit 34) + (lit 1)) * i.w - floorf ((i.w * (lit 34) + (lit 1)) * i.w * ((lit 1) / (lit 289))) * (lit 289)⟩ (lit 41)
  let gx_1 := glm_vec4_fract gx
  let gx_2 := glm_vec4_scale gx_1 (lit 2)
  let gx_3 := glm_vec4_subs gx_2 (lit 1)
  let gy := glm_vec4_abs gx_3
  let gy_1 := glm_vec4_subs gy (lit 0.5)
  let tx := glm_vec4_adds gx_3 (lit 0.5)
  let tx_1 := glm_vec4_floor tx
  let gx_4 := glm_vec4_sub gx_3 tx_1
  let temp := glm_vec4_scale ⟨glm_vec2_dot ⟨gx_4.x, gy_1.x⟩ ⟨gx_4.x, gy_1.x⟩, glm_vec2_dot ⟨gx_4.z, gy_1.z⟩ ⟨gx_4.z, gy_1.z⟩, glm_vec2_dot ⟨gx_4.y, gy_1.y⟩ ⟨gx_4.y, gy_1.y⟩, glm_vec2_dot ⟨gx_4.w, gy_1.w⟩ ⟨gx_4.w, gy_1.w⟩⟩ (lit 0.85373472095314)
  let norm := glm_vec4_fill (lit 1.79284291400159)
  let norm_4 := glm_vec4_sub norm temp
  let g00 := glm_vec2_scale ⟨gx_4.x, gy_1.x⟩ norm_4.x
  let g01 := glm_vec2_scale ⟨gx_4.z, gy_1.z⟩ norm_4.y
  let g10 := glm_vec2_scale ⟨gx_4.y, gy_1.y⟩ norm_4.z
  let g11 := glm_vec2_scale ⟨gx_4.w, gy_1.w⟩ norm_4.w
  let n00 := glm_vec2_dot g00 ⟨Pf.x, Pf.y⟩
  let n10 := glm_vec2_dot g10 ⟨Pf_2, Pf.y⟩
  let n01 := glm_vec2_dot g01 ⟨Pf.x, Pf_3⟩
  let n11 := glm_vec2_dot g11 ⟨Pf_2, Pf_3⟩
  let temp_1 := glm_vec2_mul ⟨Pf.x, Pf.y⟩ ⟨Pf.x, Pf.y⟩
  let temp_2 := glm_vec2_mul temp_1 ⟨Pf.x, Pf.y⟩
  let fade_xy := glm_vec2_scale ⟨Pf.x, Pf.y⟩ (lit 6)
  let fade_xy_1 := glm_vec2_subs fade_xy (lit 15)
  let fade_xy_2 := glm_vec2_mul ⟨Pf.x, Pf.y⟩ fade_xy_1
  let fade_xy_3 := glm_vec2_adds fade_xy_2 (lit 10)
  let fade_xy_4 := glm_vec2_mul temp_2 fade_xy_3
  let n_x := glm_vec2_lerp ⟨n00, n01⟩ ⟨n10, n11⟩ fade_xy_4.x
  glm_lerp n_x.x n_x.y fade_xy_4.y * (lit 2.3)

end Cglm
