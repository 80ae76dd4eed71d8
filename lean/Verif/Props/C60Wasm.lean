import Verif.SimdTac
import Verif.Gen.SimdWasm

/-!
# C60, Wasm build: the functions of this build compute the functions of the scalar build

Statements over a variable scalar type `α` hold for every arithmetic, so those functions are bit-identical; with
`[CommArith α]` they need `a + b = b + a` and `a * b = b * a` only, which IEEE arithmetic has; the rest re-associate sums or
contract products, and are stated over the real numbers.  The functions that differ from the scalar build are treated in
`Props/C60WasmX.lean`.  Generated by tools/simdthms.py.
-/

set_option linter.unusedSectionVars false
set_option linter.unusedVariables false
set_option linter.unusedSimpArgs false
namespace Cglm
variable {α : Type} [Add α] [Sub α] [Mul α] [Div α] [Neg α] [CFloat α]

theorem C60_Wasm_glmm_abs (x : V4 α) :
    Wasm.glmm_abs x = Cglm.glm_vec4_abs x := by
  simd_exact

theorem C60_Wasm_glmm_min (a : V4 α) (b : V4 α) :
    Wasm.glmm_min a b = Cglm.glm_vec4_minv a b := by
  simd_exact

theorem C60_Wasm_glmm_max (a : V4 α) (b : V4 α) :
    Wasm.glmm_max a b = Cglm.glm_vec4_maxv a b := by
  simd_exact

theorem C60_Wasm_glmm_vhadd (v : V4 ℝ) :
    Wasm.glmm_vhadd v = splat4 (Cglm.glm_vec4_hadd v) := by
  simd_real

theorem C60_Wasm_glmm_vhadds (v : V4 ℝ) :
    (Wasm.glmm_vhadds v).x = Cglm.glm_vec4_hadd v := by
  simd_real

theorem C60_Wasm_glmm_hadd (v : V4 ℝ) :
    Wasm.glmm_hadd v = Cglm.glm_vec4_hadd v := by
  simd_real

theorem C60_Wasm_glmm_vhmin (v : V4 ℝ) :
    (Wasm.glmm_vhmin v).x = Cglm.glm_vec4_min v := by
  simd_order

theorem C60_Wasm_glmm_hmin (v : V4 ℝ) :
    Wasm.glmm_hmin v = Cglm.glm_vec4_min v := by
  simd_order

theorem C60_Wasm_glmm_vhmax (v : V4 ℝ) :
    (Wasm.glmm_vhmax v).x = Cglm.glm_vec4_max v := by
  simd_order

theorem C60_Wasm_glmm_hmax (v : V4 ℝ) :
    Wasm.glmm_hmax v = Cglm.glm_vec4_max v := by
  simd_order

theorem C60_Wasm_glmm_vdots (a : V4 ℝ) (b : V4 ℝ) :
    (Wasm.glmm_vdots a b).x = Cglm.glm_vec4_dot a b := by
  simd_real

theorem C60_Wasm_glmm_vdot (a : V4 ℝ) (b : V4 ℝ) :
    Wasm.glmm_vdot a b = splat4 (Cglm.glm_vec4_dot a b) := by
  simd_real

theorem C60_Wasm_glmm_dot (a : V4 ℝ) (b : V4 ℝ) :
    Wasm.glmm_dot a b = Cglm.glm_vec4_dot a b := by
  simd_real

theorem C60_Wasm_glmm_norm (a : V4 ℝ) :
    Wasm.glmm_norm a = Cglm.glm_vec4_norm a := by
  simd_real

theorem C60_Wasm_glmm_norm2 (a : V4 ℝ) :
    Wasm.glmm_norm2 a = Cglm.glm_vec4_norm2 a := by
  simd_real

theorem C60_Wasm_glmm_norm_one (a : V4 ℝ) :
    Wasm.glmm_norm_one a = Cglm.glm_vec4_norm_one a := by
  simd_real

theorem C60_Wasm_glmm_norm_inf (a : V4 ℝ) :
    Wasm.glmm_norm_inf a = Cglm.glm_vec4_norm_inf a := by
  simd_order

theorem C60_Wasm_glmm_load3 (v : V3 α) :
    Wasm.glmm_load3 v = ⟨v.x, v.y, v.z, lit 0⟩ := by
  simd_exact

theorem C60_Wasm_glmm_store3 (vx : V4 α) :
    Wasm.glmm_store3 vx = ⟨vx.x, vx.y, vx.z⟩ := by
  simd_exact

theorem C60_Wasm_glmm_div (a : V4 α) (b : V4 α) :
    Wasm.glmm_div a b = Cglm.glm_vec4_div a b := by
  simd_exact

theorem C60_Wasm_glmm_fmadd [CommArith α] (a : V4 α) (b : V4 α) (c : V4 α) :
    Wasm.glmm_fmadd a b c = ⟨a.x * b.x + c.x, a.y * b.y + c.y, a.z * b.z + c.z, a.w * b.w + c.w⟩ := by
  simd_comm

theorem C60_Wasm_glmm_fnmadd (a : V4 α) (b : V4 α) (c : V4 α) :
    Wasm.glmm_fnmadd a b c = ⟨c.x - a.x * b.x, c.y - a.y * b.y, c.z - a.z * b.z, c.w - a.w * b.w⟩ := by
  simd_exact

theorem C60_Wasm_glmm_fmsub (a : V4 α) (b : V4 α) (c : V4 α) :
    Wasm.glmm_fmsub a b c = ⟨a.x * b.x - c.x, a.y * b.y - c.y, a.z * b.z - c.z, a.w * b.w - c.w⟩ := by
  simd_exact

theorem C60_Wasm_glmm_fnmsub (a : V4 ℝ) (b : V4 ℝ) (c : V4 ℝ) :
    Wasm.glmm_fnmsub a b c = ⟨-(a.x * b.x) - c.x, -(a.y * b.y) - c.y, -(a.z * b.z) - c.z, -(a.w * b.w) - c.w⟩ := by
  simd_real

@[cglm_simd] theorem C60_Wasm_glm_vec4_broadcast (val : α) :
    Wasm.glm_vec4_broadcast val = Cglm.glm_vec4_broadcast val := by
  simd_exact

@[cglm_simd] theorem C60_Wasm_glm_vec4_fill (val : α) :
    Wasm.glm_vec4_fill val = Cglm.glm_vec4_fill val := by
  simd_exact

@[cglm_simd] theorem C60_Wasm_glm_vec4_abs (v : V4 α) :
    Wasm.glm_vec4_abs v = Cglm.glm_vec4_abs v := by
  simd_exact

@[cglm_simd] theorem C60_Wasm_glm_vec4_hadd (v : V4 ℝ) :
    Wasm.glm_vec4_hadd v = Cglm.glm_vec4_hadd v := by
  simd_real

@[cglm_simd] theorem C60_Wasm_glm_vec4_sqrt (v : V4 α) :
    Wasm.glm_vec4_sqrt v = Cglm.glm_vec4_sqrt v := by
  simd_exact

@[cglm_simd] theorem C60_Wasm_glm_vec4_zero :
    (Wasm.glm_vec4_zero : V4 α) = Cglm.glm_vec4_zero := by
  simd_exact

@[cglm_simd] theorem C60_Wasm_glm_vec4_one :
    (Wasm.glm_vec4_one : V4 α) = Cglm.glm_vec4_one := by
  simd_exact

@[cglm_simd] theorem C60_Wasm_glm_vec4_dot (a : V4 ℝ) (b : V4 ℝ) :
    Wasm.glm_vec4_dot a b = Cglm.glm_vec4_dot a b := by
  simd_real

@[cglm_simd] theorem C60_Wasm_glm_vec4_norm2 (v : V4 ℝ) :
    Wasm.glm_vec4_norm2 v = Cglm.glm_vec4_norm2 v := by
  simd_callers Wasm.glm_vec4_norm2 Cglm.glm_vec4_norm2

@[cglm_simd] theorem C60_Wasm_glm_vec4_norm (v : V4 ℝ) :
    Wasm.glm_vec4_norm v = Cglm.glm_vec4_norm v := by
  simd_real

@[cglm_simd] theorem C60_Wasm_glm_vec4_norm_one (v : V4 ℝ) :
    Wasm.glm_vec4_norm_one v = Cglm.glm_vec4_norm_one v := by
  simd_real

@[cglm_simd] theorem C60_Wasm_glm_vec4_norm_inf (v : V4 ℝ) :
    Wasm.glm_vec4_norm_inf v = Cglm.glm_vec4_norm_inf v := by
  simd_order

@[cglm_simd] theorem C60_Wasm_glm_vec4_add (a : V4 α) (b : V4 α) :
    Wasm.glm_vec4_add a b = Cglm.glm_vec4_add a b := by
  simd_exact

@[cglm_simd] theorem C60_Wasm_glm_vec4_adds (v : V4 α) (s : α) :
    Wasm.glm_vec4_adds v s = Cglm.glm_vec4_adds v s := by
  simd_exact

@[cglm_simd] theorem C60_Wasm_glm_vec4_sub (a : V4 α) (b : V4 α) :
    Wasm.glm_vec4_sub a b = Cglm.glm_vec4_sub a b := by
  simd_exact

@[cglm_simd] theorem C60_Wasm_glm_vec4_subs (v : V4 α) (s : α) :
    Wasm.glm_vec4_subs v s = Cglm.glm_vec4_subs v s := by
  simd_exact

@[cglm_simd] theorem C60_Wasm_glm_vec4_mul (a : V4 α) (b : V4 α) :
    Wasm.glm_vec4_mul a b = Cglm.glm_vec4_mul a b := by
  simd_exact

@[cglm_simd] theorem C60_Wasm_glm_vec4_scale (v : V4 α) (s : α) :
    Wasm.glm_vec4_scale v s = Cglm.glm_vec4_scale v s := by
  simd_exact

@[cglm_simd] theorem C60_Wasm_glm_vec4_scale_as (v : V4 ℝ) (s : ℝ) :
    Wasm.glm_vec4_scale_as v s = Cglm.glm_vec4_scale_as v s := by
  simd_callers Wasm.glm_vec4_scale_as Cglm.glm_vec4_scale_as

@[cglm_simd] theorem C60_Wasm_glm_vec4_div (a : V4 α) (b : V4 α) :
    Wasm.glm_vec4_div a b = Cglm.glm_vec4_div a b := by
  simd_exact

@[cglm_simd] theorem C60_Wasm_glm_vec4_divs (v : V4 ℝ) (s : ℝ) :
    Wasm.glm_vec4_divs v s = Cglm.glm_vec4_divs v s := by
  simd_real

@[cglm_simd] theorem C60_Wasm_glm_vec4_addadd (a : V4 α) (b : V4 α) (dest : V4 α) :
    Wasm.glm_vec4_addadd a b dest = Cglm.glm_vec4_addadd a b dest := by
  simd_exact

@[cglm_simd] theorem C60_Wasm_glm_vec4_subadd (a : V4 α) (b : V4 α) (dest : V4 α) :
    Wasm.glm_vec4_subadd a b dest = Cglm.glm_vec4_subadd a b dest := by
  simd_exact

@[cglm_simd] theorem C60_Wasm_glm_vec4_muladd (a : V4 α) (b : V4 α) (dest : V4 α) :
    Wasm.glm_vec4_muladd a b dest = Cglm.glm_vec4_muladd a b dest := by
  simd_exact

@[cglm_simd] theorem C60_Wasm_glm_vec4_muladds (a : V4 α) (s : α) (dest : V4 α) :
    Wasm.glm_vec4_muladds a s dest = Cglm.glm_vec4_muladds a s dest := by
  simd_exact

@[cglm_simd] theorem C60_Wasm_glm_vec4_maxadd (a : V4 α) (b : V4 α) (dest : V4 α) :
    Wasm.glm_vec4_maxadd a b dest = Cglm.glm_vec4_maxadd a b dest := by
  simd_exact

@[cglm_simd] theorem C60_Wasm_glm_vec4_minadd (a : V4 α) (b : V4 α) (dest : V4 α) :
    Wasm.glm_vec4_minadd a b dest = Cglm.glm_vec4_minadd a b dest := by
  simd_exact

@[cglm_simd] theorem C60_Wasm_glm_vec4_subsub (a : V4 α) (b : V4 α) (dest : V4 α) :
    Wasm.glm_vec4_subsub a b dest = Cglm.glm_vec4_subsub a b dest := by
  simd_exact

@[cglm_simd] theorem C60_Wasm_glm_vec4_addsub (a : V4 α) (b : V4 α) (dest : V4 α) :
    Wasm.glm_vec4_addsub a b dest = Cglm.glm_vec4_addsub a b dest := by
  simd_exact

@[cglm_simd] theorem C60_Wasm_glm_vec4_mulsub (a : V4 α) (b : V4 α) (dest : V4 α) :
    Wasm.glm_vec4_mulsub a b dest = Cglm.glm_vec4_mulsub a b dest := by
  simd_exact

@[cglm_simd] theorem C60_Wasm_glm_vec4_mulsubs (a : V4 α) (s : α) (dest : V4 α) :
    Wasm.glm_vec4_mulsubs a s dest = Cglm.glm_vec4_mulsubs a s dest := by
  simd_exact

@[cglm_simd] theorem C60_Wasm_glm_vec4_maxsub (a : V4 α) (b : V4 α) (dest : V4 α) :
    Wasm.glm_vec4_maxsub a b dest = Cglm.glm_vec4_maxsub a b dest := by
  simd_exact

@[cglm_simd] theorem C60_Wasm_glm_vec4_minsub (a : V4 α) (b : V4 α) (dest : V4 α) :
    Wasm.glm_vec4_minsub a b dest = Cglm.glm_vec4_minsub a b dest := by
  simd_exact

@[cglm_simd] theorem C60_Wasm_glm_vec4_negate_to (v : V4 α) :
    Wasm.glm_vec4_negate_to v = Cglm.glm_vec4_negate_to v := by
  simd_exact

@[cglm_simd] theorem C60_Wasm_glm_vec4_negate (v : V4 α) :
    Wasm.glm_vec4_negate v = Cglm.glm_vec4_negate v := by
  simd_callers Wasm.glm_vec4_negate Cglm.glm_vec4_negate

@[cglm_simd] theorem C60_Wasm_glm_vec4_distance (a : V4 ℝ) (b : V4 ℝ) :
    Wasm.glm_vec4_distance a b = Cglm.glm_vec4_distance a b := by
  simd_real

@[cglm_simd] theorem C60_Wasm_glm_vec4_distance2 (a : V4 ℝ) (b : V4 ℝ) :
    Wasm.glm_vec4_distance2 a b = Cglm.glm_vec4_distance2 a b := by
  simd_real

@[cglm_simd] theorem C60_Wasm_glm_vec4_maxv (a : V4 α) (b : V4 α) :
    Wasm.glm_vec4_maxv a b = Cglm.glm_vec4_maxv a b := by
  simd_exact

@[cglm_simd] theorem C60_Wasm_glm_vec4_minv (a : V4 α) (b : V4 α) :
    Wasm.glm_vec4_minv a b = Cglm.glm_vec4_minv a b := by
  simd_exact

@[cglm_simd] theorem C60_Wasm_glm_vec4_clamp (v : V4 ℝ) (minVal : ℝ) (maxVal : ℝ) :
    Wasm.glm_vec4_clamp v minVal maxVal = Cglm.glm_vec4_clamp v minVal maxVal := by
  simd_real

@[cglm_simd] theorem C60_Wasm_glm_vec4_lerp (frm : V4 α) («to» : V4 α) (t : α) :
    Wasm.glm_vec4_lerp frm «to» t = Cglm.glm_vec4_lerp frm «to» t := by
  simd_callers Wasm.glm_vec4_lerp Cglm.glm_vec4_lerp

@[cglm_simd] theorem C60_Wasm_glm_vec4_lerpc (frm : V4 α) («to» : V4 α) (t : α) :
    Wasm.glm_vec4_lerpc frm «to» t = Cglm.glm_vec4_lerpc frm «to» t := by
  simd_callers Wasm.glm_vec4_lerpc Cglm.glm_vec4_lerpc

@[cglm_simd] theorem C60_Wasm_glm_vec4_mix (frm : V4 α) («to» : V4 α) (t : α) :
    Wasm.glm_vec4_mix frm «to» t = Cglm.glm_vec4_mix frm «to» t := by
  simd_callers Wasm.glm_vec4_mix Cglm.glm_vec4_mix

@[cglm_simd] theorem C60_Wasm_glm_vec4_mixc (frm : V4 α) («to» : V4 α) (t : α) :
    Wasm.glm_vec4_mixc frm «to» t = Cglm.glm_vec4_mixc frm «to» t := by
  simd_callers Wasm.glm_vec4_mixc Cglm.glm_vec4_mixc

@[cglm_simd] theorem C60_Wasm_glm_vec4_smoothinterp (frm : V4 α) («to» : V4 α) (t : α) :
    Wasm.glm_vec4_smoothinterp frm «to» t = Cglm.glm_vec4_smoothinterp frm «to» t := by
  simd_callers Wasm.glm_vec4_smoothinterp Cglm.glm_vec4_smoothinterp

@[cglm_simd] theorem C60_Wasm_glm_vec4_smoothinterpc (frm : V4 α) («to» : V4 α) (t : α) :
    Wasm.glm_vec4_smoothinterpc frm «to» t = Cglm.glm_vec4_smoothinterpc frm «to» t := by
  simd_callers Wasm.glm_vec4_smoothinterpc Cglm.glm_vec4_smoothinterpc

@[cglm_simd] theorem C60_Wasm_glm_vec4_reflect (v : V4 ℝ) (n : V4 ℝ) :
    Wasm.glm_vec4_reflect v n = Cglm.glm_vec4_reflect v n := by
  simd_callers Wasm.glm_vec4_reflect Cglm.glm_vec4_reflect

@[cglm_simd] theorem C60_Wasm_glm_vec4_refract (v : V4 ℝ) (n : V4 ℝ) (eta : ℝ) :
    Wasm.glm_vec4_refract v n eta = Cglm.glm_vec4_refract v n eta := by
  simd_callers Wasm.glm_vec4_refract Cglm.glm_vec4_refract

theorem C60_Wasm_glm_mat4_scale_wasm (m : M4 α) (s : α) :
    Wasm.glm_mat4_scale_wasm m s = Cglm.glm_mat4_scale m s := by
  simd_exact

theorem C60_Wasm_glm_mat4_transp_wasm (m : M4 α) :
    Wasm.glm_mat4_transp_wasm m = Cglm.glm_mat4_transpose_to m := by
  simd_exact

theorem C60_Wasm_glm_mat4_mul_wasm [CommArith α] (m1 : M4 α) (m2 : M4 α) :
    Wasm.glm_mat4_mul_wasm m1 m2 = Cglm.glm_mat4_mul m1 m2 := by
  simd_comm

theorem C60_Wasm_glm_mat4_mulv_wasm (m : M4 ℝ) (v : V4 ℝ) :
    Wasm.glm_mat4_mulv_wasm m v = Cglm.glm_mat4_mulv m v := by
  simd_real

theorem C60_Wasm_glm_mat4_det_wasm (mat : M4 ℝ) :
    Wasm.glm_mat4_det_wasm mat = Cglm.glm_mat4_det mat := by
  simd_real

theorem C60_Wasm_glm_mat4_inv_fast_wasm (mat : M4 ℝ) :
    Wasm.glm_mat4_inv_fast_wasm mat = Cglm.glm_mat4_inv_fast mat := by
  simd_real

theorem C60_Wasm_glm_mat4_inv_wasm (mat : M4 ℝ) :
    Wasm.glm_mat4_inv_wasm mat = Cglm.glm_mat4_inv mat := by
  simd_real

@[cglm_simd] theorem C60_Wasm_glm_mat4_copy (mat : M4 α) :
    Wasm.glm_mat4_copy mat = Cglm.glm_mat4_copy mat := by
  simd_exact

@[cglm_simd] theorem C60_Wasm_glm_mat4_identity :
    (Wasm.glm_mat4_identity : M4 α) = Cglm.glm_mat4_identity := by
  simd_callers Wasm.glm_mat4_identity Cglm.glm_mat4_identity

@[cglm_simd] theorem C60_Wasm_glm_mat4_zero :
    (Wasm.glm_mat4_zero : M4 α) = Cglm.glm_mat4_zero := by
  simd_exact

@[cglm_simd] theorem C60_Wasm_glm_mat4_mul [CommArith α] (m1 : M4 α) (m2 : M4 α) :
    Wasm.glm_mat4_mul m1 m2 = Cglm.glm_mat4_mul m1 m2 := by
  simd_comm

@[cglm_simd] theorem C60_Wasm_glm_mat4_mulv (m : M4 ℝ) (v : V4 ℝ) :
    Wasm.glm_mat4_mulv m v = Cglm.glm_mat4_mulv m v := by
  simd_real

@[cglm_simd] theorem C60_Wasm_glm_mat4_mulv3 (m : M4 ℝ) (v : V3 ℝ) (last : ℝ) :
    Wasm.glm_mat4_mulv3 m v last = Cglm.glm_mat4_mulv3 m v last := by
  simd_callers Wasm.glm_mat4_mulv3 Cglm.glm_mat4_mulv3

@[cglm_simd] theorem C60_Wasm_glm_mat4_transpose_to (m : M4 α) :
    Wasm.glm_mat4_transpose_to m = Cglm.glm_mat4_transpose_to m := by
  simd_exact

@[cglm_simd] theorem C60_Wasm_glm_mat4_transpose (m : M4 α) :
    Wasm.glm_mat4_transpose m = Cglm.glm_mat4_transpose m := by
  simd_exact

@[cglm_simd] theorem C60_Wasm_glm_mat4_scale (m : M4 α) (s : α) :
    Wasm.glm_mat4_scale m s = Cglm.glm_mat4_scale m s := by
  simd_exact

@[cglm_simd] theorem C60_Wasm_glm_mat4_det (mat : M4 ℝ) :
    Wasm.glm_mat4_det mat = Cglm.glm_mat4_det mat := by
  simd_real

@[cglm_simd] theorem C60_Wasm_glm_mat4_inv (mat : M4 ℝ) :
    Wasm.glm_mat4_inv mat = Cglm.glm_mat4_inv mat := by
  simd_real

@[cglm_simd] theorem C60_Wasm_glm_mat4_inv_fast (mat : M4 ℝ) :
    Wasm.glm_mat4_inv_fast mat = Cglm.glm_mat4_inv_fast mat := by
  simd_real

@[cglm_simd] theorem C60_Wasm_glm_mat4_rmc (r : V4 ℝ) (m : M4 ℝ) (c : V4 ℝ) :
    Wasm.glm_mat4_rmc r m c = Cglm.glm_mat4_rmc r m c := by
  simd_callers Wasm.glm_mat4_rmc Cglm.glm_mat4_rmc

@[cglm_simd] theorem C60_Wasm_glm_mat4_textrans (sx : α) (sy : α) (rot : α) (tx : α) (ty : α) :
    Wasm.glm_mat4_textrans sx sy rot tx ty = Cglm.glm_mat4_textrans sx sy rot tx ty := by
  simd_callers Wasm.glm_mat4_textrans Cglm.glm_mat4_textrans

theorem C60_Wasm_glm_mat3_mul_wasm (m1 : M3 ℝ) (m2 : M3 ℝ) :
    Wasm.glm_mat3_mul_wasm m1 m2 = Cglm.glm_mat3_mul m1 m2 := by
  simd_real

@[cglm_simd] theorem C60_Wasm_glm_mat3_mul (m1 : M3 ℝ) (m2 : M3 ℝ) :
    Wasm.glm_mat3_mul m1 m2 = Cglm.glm_mat3_mul m1 m2 := by
  simd_real

theorem C60_Wasm_glm_mat2_mul_wasm [CommArith α] (m1 : M2 α) (m2 : M2 α) :
    Wasm.glm_mat2_mul_wasm m1 m2 = Cglm.glm_mat2_mul m1 m2 := by
  simd_comm

theorem C60_Wasm_glm_mat2_transp_wasm (m : M2 α) :
    Wasm.glm_mat2_transp_wasm m = Cglm.glm_mat2_transpose_to m := by
  simd_exact

@[cglm_simd] theorem C60_Wasm_glm_mat2_mul [CommArith α] (m1 : M2 α) (m2 : M2 α) :
    Wasm.glm_mat2_mul m1 m2 = Cglm.glm_mat2_mul m1 m2 := by
  simd_comm

@[cglm_simd] theorem C60_Wasm_glm_mat2_transpose_to (mat : M2 α) :
    Wasm.glm_mat2_transpose_to mat = Cglm.glm_mat2_transpose_to mat := by
  simd_exact

@[cglm_simd] theorem C60_Wasm_glm_mat2_scale (m : M2 α) (s : α) :
    Wasm.glm_mat2_scale m s = Cglm.glm_mat2_scale m s := by
  simd_exact

theorem C60_Wasm_glm_mul_wasm [CommArith α] (m1 : M4 α) (m2 : M4 α) :
    Wasm.glm_mul_wasm m1 m2 = Cglm.glm_mul m1 m2 := by
  simd_comm

theorem C60_Wasm_glm_mul_rot_wasm [CommArith α] (m1 : M4 α) (m2 : M4 α) :
    Wasm.glm_mul_rot_wasm m1 m2 = Cglm.glm_mul_rot m1 m2 := by
  simd_comm

@[cglm_simd] theorem C60_Wasm_glm_mul [CommArith α] (m1 : M4 α) (m2 : M4 α) :
    Wasm.glm_mul m1 m2 = Cglm.glm_mul m1 m2 := by
  simd_comm

@[cglm_simd] theorem C60_Wasm_glm_mul_rot [CommArith α] (m1 : M4 α) (m2 : M4 α) :
    Wasm.glm_mul_rot m1 m2 = Cglm.glm_mul_rot m1 m2 := by
  simd_comm

@[cglm_simd] theorem C60_Wasm_glm_translate_make (v : V3 α) :
    Wasm.glm_translate_make v = Cglm.glm_translate_make v := by
  simd_callers Wasm.glm_translate_make Cglm.glm_translate_make

@[cglm_simd] theorem C60_Wasm_glm_scale_to (m : M4 α) (v : V3 α) :
    Wasm.glm_scale_to m v = Cglm.glm_scale_to m v := by
  simd_callers Wasm.glm_scale_to Cglm.glm_scale_to

@[cglm_simd] theorem C60_Wasm_glm_scale_make (v : V3 α) :
    Wasm.glm_scale_make v = Cglm.glm_scale_make v := by
  simd_callers Wasm.glm_scale_make Cglm.glm_scale_make

@[cglm_simd] theorem C60_Wasm_glm_scale (m : M4 α) (v : V3 α) :
    Wasm.glm_scale m v = Cglm.glm_scale m v := by
  simd_callers Wasm.glm_scale Cglm.glm_scale

@[cglm_simd] theorem C60_Wasm_glm_scale_uni (m : M4 α) (s : α) :
    Wasm.glm_scale_uni m s = Cglm.glm_scale_uni m s := by
  simd_callers Wasm.glm_scale_uni Cglm.glm_scale_uni

@[cglm_simd] theorem C60_Wasm_glm_decompose_rs (m : M4 α) :
    Wasm.glm_decompose_rs m = Cglm.glm_decompose_rs m := by
  simd_callers Wasm.glm_decompose_rs Cglm.glm_decompose_rs

@[cglm_simd] theorem C60_Wasm_glm_decompose (m : M4 α) :
    Wasm.glm_decompose m = Cglm.glm_decompose m := by
  simd_callers Wasm.glm_decompose Cglm.glm_decompose

@[cglm_simd] theorem C60_Wasm_glm_translate (m : M4 ℝ) (v : V3 ℝ) :
    Wasm.glm_translate m v = Cglm.glm_translate m v := by
  simd_real

@[cglm_simd] theorem C60_Wasm_glm_translate_to (m : M4 ℝ) (v : V3 ℝ) :
    Wasm.glm_translate_to m v = Cglm.glm_translate_to m v := by
  simd_callers Wasm.glm_translate_to Cglm.glm_translate_to

@[cglm_simd] theorem C60_Wasm_glm_translate_x [CommArith α] (m : M4 α) (x : α) :
    Wasm.glm_translate_x m x = Cglm.glm_translate_x m x := by
  simd_comm

@[cglm_simd] theorem C60_Wasm_glm_translate_y [CommArith α] (m : M4 α) (y : α) :
    Wasm.glm_translate_y m y = Cglm.glm_translate_y m y := by
  simd_comm

@[cglm_simd] theorem C60_Wasm_glm_translate_z [CommArith α] (m : M4 α) (z : α) :
    Wasm.glm_translate_z m z = Cglm.glm_translate_z m z := by
  simd_comm

@[cglm_simd] theorem C60_Wasm_glm_rotate_x [CommArith α] (m : M4 α) (angle : α) :
    Wasm.glm_rotate_x m angle = Cglm.glm_rotate_x m angle := by
  simd_callers Wasm.glm_rotate_x Cglm.glm_rotate_x

@[cglm_simd] theorem C60_Wasm_glm_rotate_y [CommArith α] (m : M4 α) (angle : α) :
    Wasm.glm_rotate_y m angle = Cglm.glm_rotate_y m angle := by
  simd_callers Wasm.glm_rotate_y Cglm.glm_rotate_y

@[cglm_simd] theorem C60_Wasm_glm_rotate_z [CommArith α] (m : M4 α) (angle : α) :
    Wasm.glm_rotate_z m angle = Cglm.glm_rotate_z m angle := by
  simd_callers Wasm.glm_rotate_z Cglm.glm_rotate_z

@[cglm_simd] theorem C60_Wasm_glm_rotate [CommArith α] (m : M4 α) (angle : α) (axis : V3 α) :
    Wasm.glm_rotate m angle axis = Cglm.glm_rotate m angle axis := by
  simd_callers Wasm.glm_rotate Cglm.glm_rotate

@[cglm_simd] theorem C60_Wasm_glm_rotate_at (m : M4 ℝ) (pivot : V3 ℝ) (angle : ℝ) (axis : V3 ℝ) :
    Wasm.glm_rotate_at m pivot angle axis = Cglm.glm_rotate_at m pivot angle axis := by
  simd_callers Wasm.glm_rotate_at Cglm.glm_rotate_at

@[cglm_simd] theorem C60_Wasm_glm_rotate_atm (pivot : V3 ℝ) (angle : ℝ) (axis : V3 ℝ) :
    Wasm.glm_rotate_atm pivot angle axis = Cglm.glm_rotate_atm pivot angle axis := by
  simd_callers Wasm.glm_rotate_atm Cglm.glm_rotate_atm

@[cglm_simd] theorem C60_Wasm_glm_spin (m : M4 ℝ) (angle : ℝ) (axis : V3 ℝ) :
    Wasm.glm_spin m angle axis = Cglm.glm_spin m angle axis := by
  simd_callers Wasm.glm_spin Cglm.glm_spin

@[cglm_simd] theorem C60_Wasm_glm_translated_to (m : M4 α) (v : V3 α) :
    Wasm.glm_translated_to m v = Cglm.glm_translated_to m v := by
  simd_callers Wasm.glm_translated_to Cglm.glm_translated_to

@[cglm_simd] theorem C60_Wasm_glm_rotated_x [CommArith α] (m : M4 α) (angle : α) :
    Wasm.glm_rotated_x m angle = Cglm.glm_rotated_x m angle := by
  simd_callers Wasm.glm_rotated_x Cglm.glm_rotated_x

@[cglm_simd] theorem C60_Wasm_glm_rotated_y [CommArith α] (m : M4 α) (angle : α) :
    Wasm.glm_rotated_y m angle = Cglm.glm_rotated_y m angle := by
  simd_callers Wasm.glm_rotated_y Cglm.glm_rotated_y

@[cglm_simd] theorem C60_Wasm_glm_rotated_z [CommArith α] (m : M4 α) (angle : α) :
    Wasm.glm_rotated_z m angle = Cglm.glm_rotated_z m angle := by
  simd_callers Wasm.glm_rotated_z Cglm.glm_rotated_z

@[cglm_simd] theorem C60_Wasm_glm_rotated [CommArith α] (m : M4 α) (angle : α) (axis : V3 α) :
    Wasm.glm_rotated m angle axis = Cglm.glm_rotated m angle axis := by
  simd_callers Wasm.glm_rotated Cglm.glm_rotated

@[cglm_simd] theorem C60_Wasm_glm_rotated_at [CommArith α] (m : M4 α) (pivot : V3 α) (angle : α) (axis : V3 α) :
    Wasm.glm_rotated_at m pivot angle axis = Cglm.glm_rotated_at m pivot angle axis := by
  simd_callers Wasm.glm_rotated_at Cglm.glm_rotated_at

@[cglm_simd] theorem C60_Wasm_glm_spinned (m : M4 ℝ) (angle : ℝ) (axis : V3 ℝ) :
    Wasm.glm_spinned m angle axis = Cglm.glm_spinned m angle axis := by
  simd_callers Wasm.glm_spinned Cglm.glm_spinned

@[cglm_simd] theorem C60_Wasm_glm_plane_normalize (plane : V4 α) :
    Wasm.glm_plane_normalize plane = Cglm.glm_plane_normalize plane := by
  simd_callers Wasm.glm_plane_normalize Cglm.glm_plane_normalize

@[cglm_simd] theorem C60_Wasm_glm_ortho_lh_zo (left : α) (right : α) (bottom : α) (top : α) (nearZ : α) (farZ : α) :
    Wasm.glm_ortho_lh_zo left right bottom top nearZ farZ = Cglm.glm_ortho_lh_zo left right bottom top nearZ farZ := by
  simd_callers Wasm.glm_ortho_lh_zo Cglm.glm_ortho_lh_zo

@[cglm_simd] theorem C60_Wasm_glm_ortho_aabb_lh_zo (box : M2x3 α) :
    Wasm.glm_ortho_aabb_lh_zo box = Cglm.glm_ortho_aabb_lh_zo box := by
  simd_callers Wasm.glm_ortho_aabb_lh_zo Cglm.glm_ortho_aabb_lh_zo

@[cglm_simd] theorem C60_Wasm_glm_ortho_aabb_p_lh_zo (box : M2x3 α) (padding : α) :
    Wasm.glm_ortho_aabb_p_lh_zo box padding = Cglm.glm_ortho_aabb_p_lh_zo box padding := by
  simd_callers Wasm.glm_ortho_aabb_p_lh_zo Cglm.glm_ortho_aabb_p_lh_zo

@[cglm_simd] theorem C60_Wasm_glm_ortho_aabb_pz_lh_zo (box : M2x3 α) (padding : α) :
    Wasm.glm_ortho_aabb_pz_lh_zo box padding = Cglm.glm_ortho_aabb_pz_lh_zo box padding := by
  simd_callers Wasm.glm_ortho_aabb_pz_lh_zo Cglm.glm_ortho_aabb_pz_lh_zo

@[cglm_simd] theorem C60_Wasm_glm_ortho_default_lh_zo (aspect : α) :
    Wasm.glm_ortho_default_lh_zo aspect = Cglm.glm_ortho_default_lh_zo aspect := by
  simd_callers Wasm.glm_ortho_default_lh_zo Cglm.glm_ortho_default_lh_zo

@[cglm_simd] theorem C60_Wasm_glm_ortho_default_s_lh_zo (aspect : α) (size : α) :
    Wasm.glm_ortho_default_s_lh_zo aspect size = Cglm.glm_ortho_default_s_lh_zo aspect size := by
  simd_callers Wasm.glm_ortho_default_s_lh_zo Cglm.glm_ortho_default_s_lh_zo

@[cglm_simd] theorem C60_Wasm_glm_frustum_lh_zo (left : α) (right : α) (bottom : α) (top : α) (nearZ : α) (farZ : α) :
    Wasm.glm_frustum_lh_zo left right bottom top nearZ farZ = Cglm.glm_frustum_lh_zo left right bottom top nearZ farZ := by
  simd_callers Wasm.glm_frustum_lh_zo Cglm.glm_frustum_lh_zo

@[cglm_simd] theorem C60_Wasm_glm_perspective_lh_zo (fovy : α) (aspect : α) (nearZ : α) (farZ : α) :
    Wasm.glm_perspective_lh_zo fovy aspect nearZ farZ = Cglm.glm_perspective_lh_zo fovy aspect nearZ farZ := by
  simd_callers Wasm.glm_perspective_lh_zo Cglm.glm_perspective_lh_zo

@[cglm_simd] theorem C60_Wasm_glm_perspective_default_lh_zo (aspect : α) :
    Wasm.glm_perspective_default_lh_zo aspect = Cglm.glm_perspective_default_lh_zo aspect := by
  simd_callers Wasm.glm_perspective_default_lh_zo Cglm.glm_perspective_default_lh_zo

@[cglm_simd] theorem C60_Wasm_glm_ortho_lh_no (left : α) (right : α) (bottom : α) (top : α) (nearZ : α) (farZ : α) :
    Wasm.glm_ortho_lh_no left right bottom top nearZ farZ = Cglm.glm_ortho_lh_no left right bottom top nearZ farZ := by
  simd_callers Wasm.glm_ortho_lh_no Cglm.glm_ortho_lh_no

@[cglm_simd] theorem C60_Wasm_glm_ortho_aabb_lh_no (box : M2x3 α) :
    Wasm.glm_ortho_aabb_lh_no box = Cglm.glm_ortho_aabb_lh_no box := by
  simd_callers Wasm.glm_ortho_aabb_lh_no Cglm.glm_ortho_aabb_lh_no

@[cglm_simd] theorem C60_Wasm_glm_ortho_aabb_p_lh_no (box : M2x3 α) (padding : α) :
    Wasm.glm_ortho_aabb_p_lh_no box padding = Cglm.glm_ortho_aabb_p_lh_no box padding := by
  simd_callers Wasm.glm_ortho_aabb_p_lh_no Cglm.glm_ortho_aabb_p_lh_no

@[cglm_simd] theorem C60_Wasm_glm_ortho_aabb_pz_lh_no (box : M2x3 α) (padding : α) :
    Wasm.glm_ortho_aabb_pz_lh_no box padding = Cglm.glm_ortho_aabb_pz_lh_no box padding := by
  simd_callers Wasm.glm_ortho_aabb_pz_lh_no Cglm.glm_ortho_aabb_pz_lh_no

@[cglm_simd] theorem C60_Wasm_glm_ortho_default_lh_no (aspect : α) :
    Wasm.glm_ortho_default_lh_no aspect = Cglm.glm_ortho_default_lh_no aspect := by
  simd_callers Wasm.glm_ortho_default_lh_no Cglm.glm_ortho_default_lh_no

@[cglm_simd] theorem C60_Wasm_glm_ortho_default_s_lh_no (aspect : α) (size : α) :
    Wasm.glm_ortho_default_s_lh_no aspect size = Cglm.glm_ortho_default_s_lh_no aspect size := by
  simd_callers Wasm.glm_ortho_default_s_lh_no Cglm.glm_ortho_default_s_lh_no

@[cglm_simd] theorem C60_Wasm_glm_frustum_lh_no (left : α) (right : α) (bottom : α) (top : α) (nearZ : α) (farZ : α) :
    Wasm.glm_frustum_lh_no left right bottom top nearZ farZ = Cglm.glm_frustum_lh_no left right bottom top nearZ farZ := by
  simd_callers Wasm.glm_frustum_lh_no Cglm.glm_frustum_lh_no

@[cglm_simd] theorem C60_Wasm_glm_perspective_lh_no (fovy : α) (aspect : α) (nearZ : α) (farZ : α) :
    Wasm.glm_perspective_lh_no fovy aspect nearZ farZ = Cglm.glm_perspective_lh_no fovy aspect nearZ farZ := by
  simd_callers Wasm.glm_perspective_lh_no Cglm.glm_perspective_lh_no

@[cglm_simd] theorem C60_Wasm_glm_perspective_default_lh_no (aspect : α) :
    Wasm.glm_perspective_default_lh_no aspect = Cglm.glm_perspective_default_lh_no aspect := by
  simd_callers Wasm.glm_perspective_default_lh_no Cglm.glm_perspective_default_lh_no

@[cglm_simd] theorem C60_Wasm_glm_ortho_rh_zo (left : α) (right : α) (bottom : α) (top : α) (nearZ : α) (farZ : α) :
    Wasm.glm_ortho_rh_zo left right bottom top nearZ farZ = Cglm.glm_ortho_rh_zo left right bottom top nearZ farZ := by
  simd_callers Wasm.glm_ortho_rh_zo Cglm.glm_ortho_rh_zo

@[cglm_simd] theorem C60_Wasm_glm_ortho_aabb_rh_zo (box : M2x3 α) :
    Wasm.glm_ortho_aabb_rh_zo box = Cglm.glm_ortho_aabb_rh_zo box := by
  simd_callers Wasm.glm_ortho_aabb_rh_zo Cglm.glm_ortho_aabb_rh_zo

@[cglm_simd] theorem C60_Wasm_glm_ortho_aabb_p_rh_zo (box : M2x3 α) (padding : α) :
    Wasm.glm_ortho_aabb_p_rh_zo box padding = Cglm.glm_ortho_aabb_p_rh_zo box padding := by
  simd_callers Wasm.glm_ortho_aabb_p_rh_zo Cglm.glm_ortho_aabb_p_rh_zo

@[cglm_simd] theorem C60_Wasm_glm_ortho_aabb_pz_rh_zo (box : M2x3 α) (padding : α) :
    Wasm.glm_ortho_aabb_pz_rh_zo box padding = Cglm.glm_ortho_aabb_pz_rh_zo box padding := by
  simd_callers Wasm.glm_ortho_aabb_pz_rh_zo Cglm.glm_ortho_aabb_pz_rh_zo

@[cglm_simd] theorem C60_Wasm_glm_ortho_default_rh_zo (aspect : α) :
    Wasm.glm_ortho_default_rh_zo aspect = Cglm.glm_ortho_default_rh_zo aspect := by
  simd_callers Wasm.glm_ortho_default_rh_zo Cglm.glm_ortho_default_rh_zo

@[cglm_simd] theorem C60_Wasm_glm_ortho_default_s_rh_zo (aspect : α) (size : α) :
    Wasm.glm_ortho_default_s_rh_zo aspect size = Cglm.glm_ortho_default_s_rh_zo aspect size := by
  simd_callers Wasm.glm_ortho_default_s_rh_zo Cglm.glm_ortho_default_s_rh_zo

@[cglm_simd] theorem C60_Wasm_glm_frustum_rh_zo (left : α) (right : α) (bottom : α) (top : α) (nearZ : α) (farZ : α) :
    Wasm.glm_frustum_rh_zo left right bottom top nearZ farZ = Cglm.glm_frustum_rh_zo left right bottom top nearZ farZ := by
  simd_callers Wasm.glm_frustum_rh_zo Cglm.glm_frustum_rh_zo

@[cglm_simd] theorem C60_Wasm_glm_perspective_rh_zo (fovy : α) (aspect : α) (nearZ : α) (farZ : α) :
    Wasm.glm_perspective_rh_zo fovy aspect nearZ farZ = Cglm.glm_perspective_rh_zo fovy aspect nearZ farZ := by
  simd_callers Wasm.glm_perspective_rh_zo Cglm.glm_perspective_rh_zo

@[cglm_simd] theorem C60_Wasm_glm_perspective_default_rh_zo (aspect : α) :
    Wasm.glm_perspective_default_rh_zo aspect = Cglm.glm_perspective_default_rh_zo aspect := by
  simd_callers Wasm.glm_perspective_default_rh_zo Cglm.glm_perspective_default_rh_zo

@[cglm_simd] theorem C60_Wasm_glm_ortho_rh_no (left : α) (right : α) (bottom : α) (top : α) (nearZ : α) (farZ : α) :
    Wasm.glm_ortho_rh_no left right bottom top nearZ farZ = Cglm.glm_ortho_rh_no left right bottom top nearZ farZ := by
  simd_callers Wasm.glm_ortho_rh_no Cglm.glm_ortho_rh_no

@[cglm_simd] theorem C60_Wasm_glm_ortho_aabb_rh_no (box : M2x3 α) :
    Wasm.glm_ortho_aabb_rh_no box = Cglm.glm_ortho_aabb_rh_no box := by
  simd_callers Wasm.glm_ortho_aabb_rh_no Cglm.glm_ortho_aabb_rh_no

@[cglm_simd] theorem C60_Wasm_glm_ortho_aabb_p_rh_no (box : M2x3 α) (padding : α) :
    Wasm.glm_ortho_aabb_p_rh_no box padding = Cglm.glm_ortho_aabb_p_rh_no box padding := by
  simd_callers Wasm.glm_ortho_aabb_p_rh_no Cglm.glm_ortho_aabb_p_rh_no

@[cglm_simd] theorem C60_Wasm_glm_ortho_aabb_pz_rh_no (box : M2x3 α) (padding : α) :
    Wasm.glm_ortho_aabb_pz_rh_no box padding = Cglm.glm_ortho_aabb_pz_rh_no box padding := by
  simd_callers Wasm.glm_ortho_aabb_pz_rh_no Cglm.glm_ortho_aabb_pz_rh_no

@[cglm_simd] theorem C60_Wasm_glm_ortho_default_rh_no (aspect : α) :
    Wasm.glm_ortho_default_rh_no aspect = Cglm.glm_ortho_default_rh_no aspect := by
  simd_callers Wasm.glm_ortho_default_rh_no Cglm.glm_ortho_default_rh_no

@[cglm_simd] theorem C60_Wasm_glm_ortho_default_s_rh_no (aspect : α) (size : α) :
    Wasm.glm_ortho_default_s_rh_no aspect size = Cglm.glm_ortho_default_s_rh_no aspect size := by
  simd_callers Wasm.glm_ortho_default_s_rh_no Cglm.glm_ortho_default_s_rh_no

@[cglm_simd] theorem C60_Wasm_glm_frustum_rh_no (left : α) (right : α) (bottom : α) (top : α) (nearZ : α) (farZ : α) :
    Wasm.glm_frustum_rh_no left right bottom top nearZ farZ = Cglm.glm_frustum_rh_no left right bottom top nearZ farZ := by
  simd_callers Wasm.glm_frustum_rh_no Cglm.glm_frustum_rh_no

@[cglm_simd] theorem C60_Wasm_glm_perspective_rh_no (fovy : α) (aspect : α) (nearZ : α) (farZ : α) :
    Wasm.glm_perspective_rh_no fovy aspect nearZ farZ = Cglm.glm_perspective_rh_no fovy aspect nearZ farZ := by
  simd_callers Wasm.glm_perspective_rh_no Cglm.glm_perspective_rh_no

@[cglm_simd] theorem C60_Wasm_glm_perspective_default_rh_no (aspect : α) :
    Wasm.glm_perspective_default_rh_no aspect = Cglm.glm_perspective_default_rh_no aspect := by
  simd_callers Wasm.glm_perspective_default_rh_no Cglm.glm_perspective_default_rh_no

@[cglm_simd] theorem C60_Wasm_glm_frustum (left : α) (right : α) (bottom : α) (top : α) (nearZ : α) (farZ : α) :
    Wasm.glm_frustum left right bottom top nearZ farZ = Cglm.glm_frustum left right bottom top nearZ farZ := by
  simd_callers Wasm.glm_frustum Cglm.glm_frustum

@[cglm_simd] theorem C60_Wasm_glm_ortho (left : α) (right : α) (bottom : α) (top : α) (nearZ : α) (farZ : α) :
    Wasm.glm_ortho left right bottom top nearZ farZ = Cglm.glm_ortho left right bottom top nearZ farZ := by
  simd_callers Wasm.glm_ortho Cglm.glm_ortho

@[cglm_simd] theorem C60_Wasm_glm_ortho_aabb (box : M2x3 α) :
    Wasm.glm_ortho_aabb box = Cglm.glm_ortho_aabb box := by
  simd_callers Wasm.glm_ortho_aabb Cglm.glm_ortho_aabb

@[cglm_simd] theorem C60_Wasm_glm_ortho_aabb_p (box : M2x3 α) (padding : α) :
    Wasm.glm_ortho_aabb_p box padding = Cglm.glm_ortho_aabb_p box padding := by
  simd_callers Wasm.glm_ortho_aabb_p Cglm.glm_ortho_aabb_p

@[cglm_simd] theorem C60_Wasm_glm_ortho_aabb_pz (box : M2x3 α) (padding : α) :
    Wasm.glm_ortho_aabb_pz box padding = Cglm.glm_ortho_aabb_pz box padding := by
  simd_callers Wasm.glm_ortho_aabb_pz Cglm.glm_ortho_aabb_pz

@[cglm_simd] theorem C60_Wasm_glm_ortho_default (aspect : α) :
    Wasm.glm_ortho_default aspect = Cglm.glm_ortho_default aspect := by
  simd_callers Wasm.glm_ortho_default Cglm.glm_ortho_default

@[cglm_simd] theorem C60_Wasm_glm_ortho_default_s (aspect : α) (size : α) :
    Wasm.glm_ortho_default_s aspect size = Cglm.glm_ortho_default_s aspect size := by
  simd_callers Wasm.glm_ortho_default_s Cglm.glm_ortho_default_s

@[cglm_simd] theorem C60_Wasm_glm_perspective (fovy : α) (aspect : α) (nearZ : α) (farZ : α) :
    Wasm.glm_perspective fovy aspect nearZ farZ = Cglm.glm_perspective fovy aspect nearZ farZ := by
  simd_callers Wasm.glm_perspective Cglm.glm_perspective

@[cglm_simd] theorem C60_Wasm_glm_perspective_default (aspect : α) :
    Wasm.glm_perspective_default aspect = Cglm.glm_perspective_default aspect := by
  simd_callers Wasm.glm_perspective_default Cglm.glm_perspective_default

@[cglm_simd] theorem C60_Wasm_glm_frustum_planes (m : M4 α) :
    Wasm.glm_frustum_planes m = Cglm.glm_frustum_planes m := by
  simd_callers Wasm.glm_frustum_planes Cglm.glm_frustum_planes

@[cglm_simd] theorem C60_Wasm_glm_frustum_corners (invMat : M4 ℝ) :
    Wasm.glm_frustum_corners invMat = Cglm.glm_frustum_corners invMat := by
  simd_callers Wasm.glm_frustum_corners Cglm.glm_frustum_corners

@[cglm_simd] theorem C60_Wasm_glm_frustum_center (corners : M8x4 α) :
    Wasm.glm_frustum_center corners = Cglm.glm_frustum_center corners := by
  simd_callers Wasm.glm_frustum_center Cglm.glm_frustum_center

@[cglm_simd] theorem C60_Wasm_glm_frustum_box (corners : M8x4 ℝ) (m : M4 ℝ) :
    Wasm.glm_frustum_box corners m = Cglm.glm_frustum_box corners m := by
  simd_callers Wasm.glm_frustum_box Cglm.glm_frustum_box

@[cglm_simd] theorem C60_Wasm_glm_frustum_corners_at (corners : M8x4 ℝ) (splitDist : ℝ) (farDist : ℝ) :
    Wasm.glm_frustum_corners_at corners splitDist farDist = Cglm.glm_frustum_corners_at corners splitDist farDist := by
  simd_callers Wasm.glm_frustum_corners_at Cglm.glm_frustum_corners_at

theorem C60_Wasm_glm_quat_mul_wasm (p : V4 ℝ) (q : V4 ℝ) :
    Wasm.glm_quat_mul_wasm p q = Cglm.glm_quat_mul p q := by
  simd_real

@[cglm_simd] theorem C60_Wasm_glm_quat_norm (q : V4 ℝ) :
    Wasm.glm_quat_norm q = Cglm.glm_quat_norm q := by
  simd_callers Wasm.glm_quat_norm Cglm.glm_quat_norm

@[cglm_simd] theorem C60_Wasm_glm_quat_normalize_to (q : V4 ℝ) :
    Wasm.glm_quat_normalize_to q = Cglm.glm_quat_normalize_to q := by
  simd_nf

@[cglm_simd] theorem C60_Wasm_glm_quat_normalize (q : V4 ℝ) :
    Wasm.glm_quat_normalize q = Cglm.glm_quat_normalize q := by
  simd_callers Wasm.glm_quat_normalize Cglm.glm_quat_normalize

@[cglm_simd] theorem C60_Wasm_glm_quat_dot (p : V4 ℝ) (q : V4 ℝ) :
    Wasm.glm_quat_dot p q = Cglm.glm_quat_dot p q := by
  simd_callers Wasm.glm_quat_dot Cglm.glm_quat_dot

@[cglm_simd] theorem C60_Wasm_glm_quat_conjugate (q : V4 α) :
    Wasm.glm_quat_conjugate q = Cglm.glm_quat_conjugate q := by
  simd_callers Wasm.glm_quat_conjugate Cglm.glm_quat_conjugate

@[cglm_simd] theorem C60_Wasm_glm_quat_inv (q : V4 ℝ) :
    Wasm.glm_quat_inv q = Cglm.glm_quat_inv q := by
  simd_callers Wasm.glm_quat_inv Cglm.glm_quat_inv

@[cglm_simd] theorem C60_Wasm_glm_quat_add (p : V4 α) (q : V4 α) :
    Wasm.glm_quat_add p q = Cglm.glm_quat_add p q := by
  simd_callers Wasm.glm_quat_add Cglm.glm_quat_add

@[cglm_simd] theorem C60_Wasm_glm_quat_sub (p : V4 α) (q : V4 α) :
    Wasm.glm_quat_sub p q = Cglm.glm_quat_sub p q := by
  simd_callers Wasm.glm_quat_sub Cglm.glm_quat_sub

@[cglm_simd] theorem C60_Wasm_glm_quat_mul (p : V4 ℝ) (q : V4 ℝ) :
    Wasm.glm_quat_mul p q = Cglm.glm_quat_mul p q := by
  simd_real

@[cglm_simd] theorem C60_Wasm_glm_quat_mat4 (q : V4 ℝ) :
    Wasm.glm_quat_mat4 q = Cglm.glm_quat_mat4 q := by
  simd_callers Wasm.glm_quat_mat4 Cglm.glm_quat_mat4

@[cglm_simd] theorem C60_Wasm_glm_quat_mat4t (q : V4 ℝ) :
    Wasm.glm_quat_mat4t q = Cglm.glm_quat_mat4t q := by
  simd_callers Wasm.glm_quat_mat4t Cglm.glm_quat_mat4t

@[cglm_simd] theorem C60_Wasm_glm_quat_mat3 (q : V4 ℝ) :
    Wasm.glm_quat_mat3 q = Cglm.glm_quat_mat3 q := by
  simd_callers Wasm.glm_quat_mat3 Cglm.glm_quat_mat3

@[cglm_simd] theorem C60_Wasm_glm_quat_mat3t (q : V4 ℝ) :
    Wasm.glm_quat_mat3t q = Cglm.glm_quat_mat3t q := by
  simd_callers Wasm.glm_quat_mat3t Cglm.glm_quat_mat3t

@[cglm_simd] theorem C60_Wasm_glm_quat_lerp (frm : V4 α) («to» : V4 α) (t : α) :
    Wasm.glm_quat_lerp frm «to» t = Cglm.glm_quat_lerp frm «to» t := by
  simd_callers Wasm.glm_quat_lerp Cglm.glm_quat_lerp

@[cglm_simd] theorem C60_Wasm_glm_quat_lerpc (frm : V4 α) («to» : V4 α) (t : α) :
    Wasm.glm_quat_lerpc frm «to» t = Cglm.glm_quat_lerpc frm «to» t := by
  simd_callers Wasm.glm_quat_lerpc Cglm.glm_quat_lerpc

@[cglm_simd] theorem C60_Wasm_glm_quat_nlerp (frm : V4 ℝ) («to» : V4 ℝ) (t : ℝ) :
    Wasm.glm_quat_nlerp frm «to» t = Cglm.glm_quat_nlerp frm «to» t := by
  simd_callers Wasm.glm_quat_nlerp Cglm.glm_quat_nlerp

@[cglm_simd] theorem C60_Wasm_glm_quat_slerp (frm : V4 ℝ) («to» : V4 ℝ) (t : ℝ) :
    Wasm.glm_quat_slerp frm «to» t = Cglm.glm_quat_slerp frm «to» t := by
  simd_callers Wasm.glm_quat_slerp Cglm.glm_quat_slerp

@[cglm_simd] theorem C60_Wasm_glm_quat_slerp_longest (frm : V4 ℝ) («to» : V4 ℝ) (t : ℝ) :
    Wasm.glm_quat_slerp_longest frm «to» t = Cglm.glm_quat_slerp_longest frm «to» t := by
  simd_callers Wasm.glm_quat_slerp_longest Cglm.glm_quat_slerp_longest

@[cglm_simd] theorem C60_Wasm_glm_quat_look (eye : V3 ℝ) (ori : V4 ℝ) :
    Wasm.glm_quat_look eye ori = Cglm.glm_quat_look eye ori := by
  simd_callers Wasm.glm_quat_look Cglm.glm_quat_look

@[cglm_simd] theorem C60_Wasm_glm_quat_rotatev (q : V4 ℝ) (v : V3 ℝ) :
    Wasm.glm_quat_rotatev q v = Cglm.glm_quat_rotatev q v := by
  simd_callers Wasm.glm_quat_rotatev Cglm.glm_quat_rotatev

@[cglm_simd] theorem C60_Wasm_glm_quat_rotate (m : M4 ℝ) (q : V4 ℝ) :
    Wasm.glm_quat_rotate m q = Cglm.glm_quat_rotate m q := by
  simd_callers Wasm.glm_quat_rotate Cglm.glm_quat_rotate

@[cglm_simd] theorem C60_Wasm_glm_quat_rotate_at (m : M4 ℝ) (q : V4 ℝ) (pivot : V3 ℝ) :
    Wasm.glm_quat_rotate_at m q pivot = Cglm.glm_quat_rotate_at m q pivot := by
  simd_callers Wasm.glm_quat_rotate_at Cglm.glm_quat_rotate_at

@[cglm_simd] theorem C60_Wasm_glm_quat_rotate_atm (q : V4 ℝ) (pivot : V3 ℝ) :
    Wasm.glm_quat_rotate_atm q pivot = Cglm.glm_quat_rotate_atm q pivot := by
  simd_callers Wasm.glm_quat_rotate_atm Cglm.glm_quat_rotate_atm

@[cglm_simd] theorem C60_Wasm_glm_perlin_vec4 (point : V4 ℝ) :
    Wasm.glm_perlin_vec4 point = Cglm.glm_perlin_vec4 point := by
  simd_callers Wasm.glm_perlin_vec4 Cglm.glm_perlin_vec4

@[cglm_simd] theorem C60_Wasm_glm_perlin_vec3 (point : V3 α) :
    Wasm.glm_perlin_vec3 point = Cglm.glm_perlin_vec3 point := by
  simd_callers Wasm.glm_perlin_vec3 Cglm.glm_perlin_vec3

@[cglm_simd] theorem C60_Wasm_glm_perlin_vec2 (point : V2 ℝ) :
    Wasm.glm_perlin_vec2 point = Cglm.glm_perlin_vec2 point := by
  simd_callers Wasm.glm_perlin_vec2 Cglm.glm_perlin_vec2

@[cglm_simd] theorem C60_Wasm_glm_unprojecti_zo (pos : V3 ℝ) (invMat : M4 ℝ) (vp : V4 ℝ) :
    Wasm.glm_unprojecti_zo pos invMat vp = Cglm.glm_unprojecti_zo pos invMat vp := by
  simd_callers Wasm.glm_unprojecti_zo Cglm.glm_unprojecti_zo

@[cglm_simd] theorem C60_Wasm_glm_project_zo (pos : V3 ℝ) (m : M4 ℝ) (vp : V4 ℝ) :
    Wasm.glm_project_zo pos m vp = Cglm.glm_project_zo pos m vp := by
  simd_callers Wasm.glm_project_zo Cglm.glm_project_zo

@[cglm_simd] theorem C60_Wasm_glm_unprojecti_no (pos : V3 ℝ) (invMat : M4 ℝ) (vp : V4 ℝ) :
    Wasm.glm_unprojecti_no pos invMat vp = Cglm.glm_unprojecti_no pos invMat vp := by
  simd_callers Wasm.glm_unprojecti_no Cglm.glm_unprojecti_no

@[cglm_simd] theorem C60_Wasm_glm_project_no (pos : V3 ℝ) (m : M4 ℝ) (vp : V4 ℝ) :
    Wasm.glm_project_no pos m vp = Cglm.glm_project_no pos m vp := by
  simd_callers Wasm.glm_project_no Cglm.glm_project_no

@[cglm_simd] theorem C60_Wasm_glm_unprojecti (pos : V3 ℝ) (invMat : M4 ℝ) (vp : V4 ℝ) :
    Wasm.glm_unprojecti pos invMat vp = Cglm.glm_unprojecti pos invMat vp := by
  simd_callers Wasm.glm_unprojecti Cglm.glm_unprojecti

@[cglm_simd] theorem C60_Wasm_glm_unproject (pos : V3 ℝ) (m : M4 ℝ) (vp : V4 ℝ) :
    Wasm.glm_unproject pos m vp = Cglm.glm_unproject pos m vp := by
  simd_callers Wasm.glm_unproject Cglm.glm_unproject

@[cglm_simd] theorem C60_Wasm_glm_project (pos : V3 ℝ) (m : M4 ℝ) (vp : V4 ℝ) :
    Wasm.glm_project pos m vp = Cglm.glm_project pos m vp := by
  simd_callers Wasm.glm_project Cglm.glm_project

@[cglm_simd] theorem C60_Wasm_glm_pickmatrix (center : V2 α) (size : V2 α) (vp : V4 α) (dest : M4 α) :
    Wasm.glm_pickmatrix center size vp dest = Cglm.glm_pickmatrix center size vp dest := by
  simd_callers Wasm.glm_pickmatrix Cglm.glm_pickmatrix

@[cglm_simd] theorem C60_Wasm_glm_sphere_transform (s : V4 ℝ) (m : M4 ℝ) :
    Wasm.glm_sphere_transform s m = Cglm.glm_sphere_transform s m := by
  simd_callers Wasm.glm_sphere_transform Cglm.glm_sphere_transform

@[cglm_simd] theorem C60_Wasm_glm_smc (s : ℝ) (m : M4 ℝ) (c : V4 ℝ) :
    Wasm.glm_smc s m c = Cglm.glm_smc s m c := by
  simd_callers Wasm.glm_smc Cglm.glm_smc

@[cglm_simd] theorem C60_Wasm_glm_quat_from_vecs (a : V3 ℝ) (b : V3 ℝ) :
    Wasm.glm_quat_from_vecs a b = Cglm.glm_quat_from_vecs a b := by
  simd_callers Wasm.glm_quat_from_vecs Cglm.glm_quat_from_vecs

end Cglm
