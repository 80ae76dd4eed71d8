/- Generated by tools/memgen.py, joined by tools/merge.py; do not edit by hand. -/
import Verif.CMemTypes
import Verif.Gen.Util
import Verif.Mem.Vecs
import Verif.Gen.Vec2Ext
import Verif.Gen.Vec2
import Verif.Gen.Vec3Ext
import Verif.Gen.Vec4Ext
import Verif.Gen.Vec4
import Verif.Gen.Vec3

section UtilRun

/-! Runs of the functions of include/cglm/util.h on canonical memories. -/

set_option linter.unusedVariables false
set_option linter.unusedSectionVars false

namespace Cglm
open CMem

variable {α : Type} [Add α] [Sub α] [Mul α] [Div α] [Neg α] [CFloat α]

theorem glm_signf_run (val : α) :
    C.glm_signf.runT (α := α) [] [.f val] =
      .done (some (some (.f (Cglm.glm_signf val)), [])) := by kernel_rfl
theorem glm_rad_run (deg : α) :
    C.glm_rad.runT (α := α) [] [.f deg] =
      .done (some (some (.f (Cglm.glm_rad deg)), [])) := by kernel_rfl
theorem glm_deg_run (rad : α) :
    C.glm_deg.runT (α := α) [] [.f rad] =
      .done (some (some (.f (Cglm.glm_deg rad)), [])) := by kernel_rfl
theorem glm_make_rad_run (deg : α) :
    C.glm_make_rad.runT (α := α) [⟨true, [deg].map .f⟩] [.p 0 0] =
      .done (some (none, [⟨true, [(Cglm.glm_make_rad deg)].map .f⟩])) := by kernel_rfl
theorem glm_make_deg_run (rad : α) :
    C.glm_make_deg.runT (α := α) [⟨true, [rad].map .f⟩] [.p 0 0] =
      .done (some (none, [⟨true, [(Cglm.glm_make_deg rad)].map .f⟩])) := by kernel_rfl
theorem glm_pow2_run (x : α) :
    C.glm_pow2.runT (α := α) [] [.f x] =
      .done (some (some (.f (Cglm.glm_pow2 x)), [])) := by kernel_rfl
/-- `glm_min` with its branches as a tree -/
def glm_min_dt (a : α) (b : α) : DT (α) :=
  .br (flt a b) (
    .done a) (
    .done b)
theorem glm_min_dt_val (a : α) (b : α) : (glm_min_dt a b).val = Cglm.glm_min a b := by
  unfold glm_min_dt
  simp only [DT.val]
  kernel_rfl
theorem glm_min_run (a : α) (b : α) :
    C.glm_min.runT (α := α) [] [.f a, .f b] =
      (Cglm.glm_min_dt a b).map fun r => some (some (.f r), []) := by kernel_rfl
/-- `glm_max` with its branches as a tree -/
def glm_max_dt (a : α) (b : α) : DT (α) :=
  .br (flt b a) (
    .done a) (
    .done b)
theorem glm_max_dt_val (a : α) (b : α) : (glm_max_dt a b).val = Cglm.glm_max a b := by
  unfold glm_max_dt
  simp only [DT.val]
  kernel_rfl
theorem glm_max_run (a : α) (b : α) :
    C.glm_max.runT (α := α) [] [.f a, .f b] =
      (Cglm.glm_max_dt a b).map fun r => some (some (.f r), []) := by kernel_rfl
/-- `glm_imin` with its branches as a tree -/
def glm_imin_dt (a : Int) (b : Int) : DT (Int) :=
  .br (ilt a b) (
    .done a) (
    .done b)
theorem glm_imin_dt_val (a : Int) (b : Int) : (glm_imin_dt a b).val = Cglm.glm_imin a b := by
  unfold glm_imin_dt
  simp only [DT.val]
  kernel_rfl
theorem glm_imin_run (a : Int) (b : Int) :
    C.glm_imin.runT (α := α) [] [.i a, .i b] =
      (Cglm.glm_imin_dt a b).map fun r => some (some (.i r), []) := by kernel_rfl
/-- `glm_imax` with its branches as a tree -/
def glm_imax_dt (a : Int) (b : Int) : DT (Int) :=
  .br (igt a b) (
    .done a) (
    .done b)
theorem glm_imax_dt_val (a : Int) (b : Int) : (glm_imax_dt a b).val = Cglm.glm_imax a b := by
  unfold glm_imax_dt
  simp only [DT.val]
  kernel_rfl
theorem glm_imax_run (a : Int) (b : Int) :
    C.glm_imax.runT (α := α) [] [.i a, .i b] =
      (Cglm.glm_imax_dt a b).map fun r => some (some (.i r), []) := by kernel_rfl
theorem glm_clamp_run (val : α) (minVal : α) (maxVal : α) :
    C.glm_clamp.runT (α := α) [] [.f val, .f minVal, .f maxVal] =
      .done (some (some (.f (Cglm.glm_clamp val minVal maxVal)), [])) := by kernel_rfl
theorem glm_clamp_zo_run (val : α) :
    C.glm_clamp_zo.runT (α := α) [] [.f val] =
      .done (some (some (.f (Cglm.glm_clamp_zo val)), [])) := by kernel_rfl
theorem glm_lerp_run (frm : α) («to» : α) (t : α) :
    C.glm_lerp.runT (α := α) [] [.f frm, .f «to», .f t] =
      .done (some (some (.f (Cglm.glm_lerp frm «to» t)), [])) := by kernel_rfl
theorem glm_lerpc_run (frm : α) («to» : α) (t : α) :
    C.glm_lerpc.runT (α := α) [] [.f frm, .f «to», .f t] =
      .done (some (some (.f (Cglm.glm_lerpc frm «to» t)), [])) := by kernel_rfl
theorem glm_step_run (edge : α) (x : α) :
    C.glm_step.runT (α := α) [] [.f edge, .f x] =
      .done (some (some (.f (Cglm.glm_step edge x)), [])) := by kernel_rfl
theorem glm_smooth_run (t : α) :
    C.glm_smooth.runT (α := α) [] [.f t] =
      .done (some (some (.f (Cglm.glm_smooth t)), [])) := by kernel_rfl
theorem glm_smoothstep_run (edge0 : α) (edge1 : α) (x : α) :
    C.glm_smoothstep.runT (α := α) [] [.f edge0, .f edge1, .f x] =
      .done (some (some (.f (Cglm.glm_smoothstep edge0 edge1 x)), [])) := by kernel_rfl
theorem glm_smoothinterp_run (frm : α) («to» : α) (t : α) :
    C.glm_smoothinterp.runT (α := α) [] [.f frm, .f «to», .f t] =
      .done (some (some (.f (Cglm.glm_smoothinterp frm «to» t)), [])) := by kernel_rfl
theorem glm_smoothinterpc_run (frm : α) («to» : α) (t : α) :
    C.glm_smoothinterpc.runT (α := α) [] [.f frm, .f «to», .f t] =
      .done (some (some (.f (Cglm.glm_smoothinterpc frm «to» t)), [])) := by kernel_rfl
theorem glm_eq_run (a : α) (b : α) :
    C.glm_eq.runT (α := α) [] [.f a, .f b] =
      .done (some (some (.b (Cglm.glm_eq a b)), [])) := by kernel_rfl
/-- `glm_percent` with its branches as a tree -/
def glm_percent_dt (frm : α) («to» : α) (current : α) : DT (α) :=
  let t := «to» - frm
  .br (feq t (lit 0)) (
    .done (lit 1)) (
    .done ((current - frm) / t))
theorem glm_percent_dt_val (frm : α) («to» : α) (current : α) : (glm_percent_dt frm «to» current).val = Cglm.glm_percent frm «to» current := by
  unfold glm_percent_dt
  simp only [DT.val]
  kernel_rfl
theorem glm_percent_run (frm : α) («to» : α) (current : α) :
    C.glm_percent.runT (α := α) [] [.f frm, .f «to», .f current] =
      (Cglm.glm_percent_dt frm «to» current).map fun r => some (some (.f r), []) := by kernel_rfl
theorem glm_percentc_run (frm : α) («to» : α) (current : α) :
    C.glm_percentc.runT (α := α) [] [.f frm, .f «to», .f current] =
      .done (some (some (.f (Cglm.glm_percentc frm «to» current)), [])) := by kernel_rfl
theorem glm_swapf_run (a : α) (b : α) :
    C.glm_swapf.runT (α := α) [⟨true, [a].map .f⟩, ⟨true, [b].map .f⟩] [.p 0 0, .p 1 0] =
      .done (some (none, [⟨true, [(Cglm.glm_swapf a b).1].map .f⟩, ⟨true, [(Cglm.glm_swapf a b).2].map .f⟩])) := by kernel_rfl

end Cglm

end UtilRun

section Vec2ExtRun

/-! Runs of the functions of include/cglm/vec2-ext.h on canonical memories. -/

set_option linter.unusedVariables false
set_option linter.unusedSectionVars false

namespace Cglm
open CMem

variable {α : Type} [Add α] [Sub α] [Mul α] [Div α] [Neg α] [CFloat α]

theorem glm_vec2_fill_run (val : α) :
    C.glm_vec2_fill.runT (α := α) [⟨true, List.replicate 2 .undef⟩] [.p 0 0, .f val] =
      .done (some (none, [⟨true, (Cglm.glm_vec2_fill val).list.map .f⟩])) := by kernel_rfl
theorem glm_vec2_eq_run (v : V2 α) (val : α) :
    C.glm_vec2_eq.runT (α := α) [⟨false, v.list.map .f⟩] [.p 0 0, .f val] =
      .done (some (some (.b (Cglm.glm_vec2_eq v val)), [⟨false, v.list.map .f⟩])) := by kernel_rfl
theorem glm_vec2_eq_eps_run (v : V2 α) (val : α) :
    C.glm_vec2_eq_eps.runT (α := α) [⟨false, v.list.map .f⟩] [.p 0 0, .f val] =
      .done (some (some (.b (Cglm.glm_vec2_eq_eps v val)), [⟨false, v.list.map .f⟩])) := by kernel_rfl
theorem glm_vec2_eq_all_run (v : V2 α) :
    C.glm_vec2_eq_all.runT (α := α) [⟨false, v.list.map .f⟩] [.p 0 0] =
      .done (some (some (.b (Cglm.glm_vec2_eq_all v)), [⟨false, v.list.map .f⟩])) := by kernel_rfl
theorem glm_vec2_eqv_run (a : V2 α) (b : V2 α) :
    C.glm_vec2_eqv.runT (α := α) [⟨false, a.list.map .f⟩, ⟨false, b.list.map .f⟩] [.p 0 0, .p 1 0] =
      .done (some (some (.b (Cglm.glm_vec2_eqv a b)), [⟨false, a.list.map .f⟩, ⟨false, b.list.map .f⟩])) := by kernel_rfl
theorem glm_vec2_eqv_eps_run (a : V2 α) (b : V2 α) :
    C.glm_vec2_eqv_eps.runT (α := α) [⟨false, a.list.map .f⟩, ⟨false, b.list.map .f⟩] [.p 0 0, .p 1 0] =
      .done (some (some (.b (Cglm.glm_vec2_eqv_eps a b)), [⟨false, a.list.map .f⟩, ⟨false, b.list.map .f⟩])) := by kernel_rfl
theorem glm_vec2_max_run (v : V2 α) :
    C.glm_vec2_max.runT (α := α) [⟨false, v.list.map .f⟩] [.p 0 0] =
      .done (some (some (.f (Cglm.glm_vec2_max v)), [⟨false, v.list.map .f⟩])) := by kernel_rfl
theorem glm_vec2_min_run (v : V2 α) :
    C.glm_vec2_min.runT (α := α) [⟨false, v.list.map .f⟩] [.p 0 0] =
      .done (some (some (.f (Cglm.glm_vec2_min v)), [⟨false, v.list.map .f⟩])) := by kernel_rfl
theorem glm_vec2_isnan_run (v : V2 α) :
    C.glm_vec2_isnan.runT (α := α) [⟨false, v.list.map .f⟩] [.p 0 0] =
      .done (some (some (.b (Cglm.glm_vec2_isnan v)), [⟨false, v.list.map .f⟩])) := by kernel_rfl
theorem glm_vec2_isinf_run (v : V2 α) :
    C.glm_vec2_isinf.runT (α := α) [⟨false, v.list.map .f⟩] [.p 0 0] =
      .done (some (some (.b (Cglm.glm_vec2_isinf v)), [⟨false, v.list.map .f⟩])) := by kernel_rfl
theorem glm_vec2_isvalid_run (v : V2 α) :
    C.glm_vec2_isvalid.runT (α := α) [⟨false, v.list.map .f⟩] [.p 0 0] =
      .done (some (some (.b (Cglm.glm_vec2_isvalid v)), [⟨false, v.list.map .f⟩])) := by kernel_rfl
theorem glm_vec2_sign_run (v : V2 α) :
    C.glm_vec2_sign.runT (α := α) [⟨false, v.list.map .f⟩, ⟨true, List.replicate 2 .undef⟩] [.p 0 0, .p 1 0] =
      .done (some (none, [⟨false, v.list.map .f⟩, ⟨true, (Cglm.glm_vec2_sign v).list.map .f⟩])) := by kernel_rfl
theorem glm_vec2_sign_run_v (v : V2 α) :
    C.glm_vec2_sign.runT (α := α) [⟨true, v.list.map .f⟩] [.p 0 0, .p 0 0] =
      .done (some (none, [⟨true, (Cglm.glm_vec2_sign v).list.map .f⟩])) := by kernel_rfl
theorem glm_vec2_abs_run (v : V2 α) :
    C.glm_vec2_abs.runT (α := α) [⟨false, v.list.map .f⟩, ⟨true, List.replicate 2 .undef⟩] [.p 0 0, .p 1 0] =
      .done (some (none, [⟨false, v.list.map .f⟩, ⟨true, (Cglm.glm_vec2_abs v).list.map .f⟩])) := by kernel_rfl
theorem glm_vec2_abs_run_v (v : V2 α) :
    C.glm_vec2_abs.runT (α := α) [⟨true, v.list.map .f⟩] [.p 0 0, .p 0 0] =
      .done (some (none, [⟨true, (Cglm.glm_vec2_abs v).list.map .f⟩])) := by kernel_rfl
theorem glm_vec2_fract_run (v : V2 α) :
    C.glm_vec2_fract.runT (α := α) [⟨false, v.list.map .f⟩, ⟨true, List.replicate 2 .undef⟩] [.p 0 0, .p 1 0] =
      .done (some (none, [⟨false, v.list.map .f⟩, ⟨true, (Cglm.glm_vec2_fract v).list.map .f⟩])) := by kernel_rfl
theorem glm_vec2_fract_run_v (v : V2 α) :
    C.glm_vec2_fract.runT (α := α) [⟨true, v.list.map .f⟩] [.p 0 0, .p 0 0] =
      .done (some (none, [⟨true, (Cglm.glm_vec2_fract v).list.map .f⟩])) := by kernel_rfl
theorem glm_vec2_floor_run (v : V2 α) :
    C.glm_vec2_floor.runT (α := α) [⟨false, v.list.map .f⟩, ⟨true, List.replicate 2 .undef⟩] [.p 0 0, .p 1 0] =
      .done (some (none, [⟨false, v.list.map .f⟩, ⟨true, (Cglm.glm_vec2_floor v).list.map .f⟩])) := by kernel_rfl
theorem glm_vec2_floor_run_v (v : V2 α) :
    C.glm_vec2_floor.runT (α := α) [⟨true, v.list.map .f⟩] [.p 0 0, .p 0 0] =
      .done (some (none, [⟨true, (Cglm.glm_vec2_floor v).list.map .f⟩])) := by kernel_rfl
theorem glm_vec2_mods_run (v : V2 α) (s : α) :
    C.glm_vec2_mods.runT (α := α) [⟨false, v.list.map .f⟩, ⟨true, List.replicate 2 .undef⟩] [.p 0 0, .f s, .p 1 0] =
      .done (some (none, [⟨false, v.list.map .f⟩, ⟨true, (Cglm.glm_vec2_mods v s).list.map .f⟩])) := by kernel_rfl
theorem glm_vec2_mods_run_v (v : V2 α) (s : α) :
    C.glm_vec2_mods.runT (α := α) [⟨true, v.list.map .f⟩] [.p 0 0, .f s, .p 0 0] =
      .done (some (none, [⟨true, (Cglm.glm_vec2_mods v s).list.map .f⟩])) := by kernel_rfl
theorem glm_vec2_sqrt_run (v : V2 α) :
    C.glm_vec2_sqrt.runT (α := α) [⟨false, v.list.map .f⟩, ⟨true, List.replicate 2 .undef⟩] [.p 0 0, .p 1 0] =
      .done (some (none, [⟨false, v.list.map .f⟩, ⟨true, (Cglm.glm_vec2_sqrt v).list.map .f⟩])) := by kernel_rfl
theorem glm_vec2_sqrt_run_v (v : V2 α) :
    C.glm_vec2_sqrt.runT (α := α) [⟨true, v.list.map .f⟩] [.p 0 0, .p 0 0] =
      .done (some (none, [⟨true, (Cglm.glm_vec2_sqrt v).list.map .f⟩])) := by kernel_rfl
theorem glm_vec2_complex_mul_run (a : V2 α) (b : V2 α) :
    C.glm_vec2_complex_mul.runT (α := α) [⟨false, a.list.map .f⟩, ⟨false, b.list.map .f⟩, ⟨true, List.replicate 2 .undef⟩] [.p 0 0, .p 1 0, .p 2 0] =
      .done (some (none, [⟨false, a.list.map .f⟩, ⟨false, b.list.map .f⟩, ⟨true, (Cglm.glm_vec2_complex_mul a b).list.map .f⟩])) := by kernel_rfl
theorem glm_vec2_complex_mul_run_b (a : V2 α) (b : V2 α) :
    C.glm_vec2_complex_mul.runT (α := α) [⟨false, a.list.map .f⟩, ⟨true, b.list.map .f⟩] [.p 0 0, .p 1 0, .p 1 0] =
      .done (some (none, [⟨false, a.list.map .f⟩, ⟨true, (Cglm.glm_vec2_complex_mul a b).list.map .f⟩])) := by kernel_rfl
theorem glm_vec2_complex_mul_run_a (a : V2 α) (b : V2 α) :
    C.glm_vec2_complex_mul.runT (α := α) [⟨false, b.list.map .f⟩, ⟨true, a.list.map .f⟩] [.p 1 0, .p 0 0, .p 1 0] =
      .done (some (none, [⟨false, b.list.map .f⟩, ⟨true, (Cglm.glm_vec2_complex_mul a b).list.map .f⟩])) := by kernel_rfl
theorem glm_vec2_complex_mul_run_a_b (a : V2 α) :
    C.glm_vec2_complex_mul.runT (α := α) [⟨true, a.list.map .f⟩] [.p 0 0, .p 0 0, .p 0 0] =
      .done (some (none, [⟨true, (Cglm.glm_vec2_complex_mul a a).list.map .f⟩])) := by kernel_rfl
theorem glm_vec2_steps_run (edge : α) (x : V2 α) :
    C.glm_vec2_steps.runT (α := α) [⟨false, x.list.map .f⟩, ⟨true, List.replicate 2 .undef⟩] [.f edge, .p 0 0, .p 1 0] =
      .done (some (none, [⟨false, x.list.map .f⟩, ⟨true, (Cglm.glm_vec2_steps edge x).list.map .f⟩])) := by kernel_rfl
theorem glm_vec2_steps_run_x (edge : α) (x : V2 α) :
    C.glm_vec2_steps.runT (α := α) [⟨true, x.list.map .f⟩] [.f edge, .p 0 0, .p 0 0] =
      .done (some (none, [⟨true, (Cglm.glm_vec2_steps edge x).list.map .f⟩])) := by kernel_rfl
theorem glm_vec2_stepr_run (edge : V2 α) (x : α) :
    C.glm_vec2_stepr.runT (α := α) [⟨false, edge.list.map .f⟩, ⟨true, List.replicate 2 .undef⟩] [.p 0 0, .f x, .p 1 0] =
      .done (some (none, [⟨false, edge.list.map .f⟩, ⟨true, (Cglm.glm_vec2_stepr edge x).list.map .f⟩])) := by kernel_rfl
theorem glm_vec2_stepr_run_edge (edge : V2 α) (x : α) :
    C.glm_vec2_stepr.runT (α := α) [⟨true, edge.list.map .f⟩] [.p 0 0, .f x, .p 0 0] =
      .done (some (none, [⟨true, (Cglm.glm_vec2_stepr edge x).list.map .f⟩])) := by kernel_rfl
theorem glm_vec2_complex_div_run (a : V2 α) (b : V2 α) :
    C.glm_vec2_complex_div.runT (α := α) [⟨false, a.list.map .f⟩, ⟨false, b.list.map .f⟩, ⟨true, List.replicate 2 .undef⟩] [.p 0 0, .p 1 0, .p 2 0] =
      .done (some (none, [⟨false, a.list.map .f⟩, ⟨false, b.list.map .f⟩, ⟨true, (Cglm.glm_vec2_complex_div a b).list.map .f⟩])) := by kernel_rfl
theorem glm_vec2_complex_div_run_b (a : V2 α) (b : V2 α) :
    C.glm_vec2_complex_div.runT (α := α) [⟨false, a.list.map .f⟩, ⟨true, b.list.map .f⟩] [.p 0 0, .p 1 0, .p 1 0] =
      .done (some (none, [⟨false, a.list.map .f⟩, ⟨true, (Cglm.glm_vec2_complex_div a b).list.map .f⟩])) := by kernel_rfl
theorem glm_vec2_complex_div_run_a (a : V2 α) (b : V2 α) :
    C.glm_vec2_complex_div.runT (α := α) [⟨false, b.list.map .f⟩, ⟨true, a.list.map .f⟩] [.p 1 0, .p 0 0, .p 1 0] =
      .done (some (none, [⟨false, b.list.map .f⟩, ⟨true, (Cglm.glm_vec2_complex_div a b).list.map .f⟩])) := by kernel_rfl
theorem glm_vec2_complex_div_run_a_b (a : V2 α) :
    C.glm_vec2_complex_div.runT (α := α) [⟨true, a.list.map .f⟩] [.p 0 0, .p 0 0, .p 0 0] =
      .done (some (none, [⟨true, (Cglm.glm_vec2_complex_div a a).list.map .f⟩])) := by kernel_rfl
theorem glm_vec2_complex_conjugate_run (a : V2 α) :
    C.glm_vec2_complex_conjugate.runT (α := α) [⟨false, a.list.map .f⟩, ⟨true, List.replicate 2 .undef⟩] [.p 0 0, .p 1 0] =
      .done (some (none, [⟨false, a.list.map .f⟩, ⟨true, (Cglm.glm_vec2_complex_conjugate a).list.map .f⟩])) := by kernel_rfl
theorem glm_vec2_complex_conjugate_run_a (a : V2 α) :
    C.glm_vec2_complex_conjugate.runT (α := α) [⟨true, a.list.map .f⟩] [.p 0 0, .p 0 0] =
      .done (some (none, [⟨true, (Cglm.glm_vec2_complex_conjugate a).list.map .f⟩])) := by kernel_rfl

end Cglm

end Vec2ExtRun

section Vec2Run

/-! Runs of the functions of include/cglm/vec2.h on canonical memories. -/

set_option linter.unusedVariables false
set_option linter.unusedSectionVars false

namespace Cglm
open CMem

variable {α : Type} [Add α] [Sub α] [Mul α] [Div α] [Neg α] [CFloat α]

theorem glm_vec2_run (v : V2 α) :
    C.glm_vec2.runT (α := α) [⟨false, v.list.map .f⟩, ⟨true, List.replicate 2 .undef⟩] [.p 0 0, .p 1 0] =
      .done (some (none, [⟨false, v.list.map .f⟩, ⟨true, (Cglm.glm_vec2 v).list.map .f⟩])) := by kernel_rfl
theorem glm_vec2_run_v (v : V2 α) :
    C.glm_vec2.runT (α := α) [⟨true, v.list.map .f⟩] [.p 0 0, .p 0 0] =
      .done (some (none, [⟨true, (Cglm.glm_vec2 v).list.map .f⟩])) := by kernel_rfl
theorem glm_vec2_copy_run (a : V2 α) :
    C.glm_vec2_copy.runT (α := α) [⟨false, a.list.map .f⟩, ⟨true, List.replicate 2 .undef⟩] [.p 0 0, .p 1 0] =
      .done (some (none, [⟨false, a.list.map .f⟩, ⟨true, (Cglm.glm_vec2_copy a).list.map .f⟩])) := by kernel_rfl
theorem glm_vec2_copy_run_a (a : V2 α) :
    C.glm_vec2_copy.runT (α := α) [⟨true, a.list.map .f⟩] [.p 0 0, .p 0 0] =
      .done (some (none, [⟨true, (Cglm.glm_vec2_copy a).list.map .f⟩])) := by kernel_rfl
theorem glm_vec2_zero_run :
    C.glm_vec2_zero.runT (α := α) [⟨true, List.replicate 2 .undef⟩] [.p 0 0] =
      .done (some (none, [⟨true, (Cglm.glm_vec2_zero).list.map .f⟩])) := by kernel_rfl
theorem glm_vec2_one_run :
    C.glm_vec2_one.runT (α := α) [⟨true, List.replicate 2 .undef⟩] [.p 0 0] =
      .done (some (none, [⟨true, (Cglm.glm_vec2_one).list.map .f⟩])) := by kernel_rfl
theorem glm_vec2_dot_run (a : V2 α) (b : V2 α) :
    C.glm_vec2_dot.runT (α := α) [⟨false, a.list.map .f⟩, ⟨false, b.list.map .f⟩] [.p 0 0, .p 1 0] =
      .done (some (some (.f (Cglm.glm_vec2_dot a b)), [⟨false, a.list.map .f⟩, ⟨false, b.list.map .f⟩])) := by kernel_rfl
theorem glm_vec2_cross_run (a : V2 α) (b : V2 α) :
    C.glm_vec2_cross.runT (α := α) [⟨false, a.list.map .f⟩, ⟨false, b.list.map .f⟩] [.p 0 0, .p 1 0] =
      .done (some (some (.f (Cglm.glm_vec2_cross a b)), [⟨false, a.list.map .f⟩, ⟨false, b.list.map .f⟩])) := by kernel_rfl
theorem glm_vec2_norm2_run (v : V2 α) :
    C.glm_vec2_norm2.runT (α := α) [⟨false, v.list.map .f⟩] [.p 0 0] =
      .done (some (some (.f (Cglm.glm_vec2_norm2 v)), [⟨false, v.list.map .f⟩])) := by kernel_rfl
theorem glm_vec2_norm_run (vec : V2 α) :
    C.glm_vec2_norm.runT (α := α) [⟨false, vec.list.map .f⟩] [.p 0 0] =
      .done (some (some (.f (Cglm.glm_vec2_norm vec)), [⟨false, vec.list.map .f⟩])) := by kernel_rfl
theorem glm_vec2_add_run (a : V2 α) (b : V2 α) :
    C.glm_vec2_add.runT (α := α) [⟨false, a.list.map .f⟩, ⟨false, b.list.map .f⟩, ⟨true, List.replicate 2 .undef⟩] [.p 0 0, .p 1 0, .p 2 0] =
      .done (some (none, [⟨false, a.list.map .f⟩, ⟨false, b.list.map .f⟩, ⟨true, (Cglm.glm_vec2_add a b).list.map .f⟩])) := by kernel_rfl
theorem glm_vec2_add_run_b (a : V2 α) (b : V2 α) :
    C.glm_vec2_add.runT (α := α) [⟨false, a.list.map .f⟩, ⟨true, b.list.map .f⟩] [.p 0 0, .p 1 0, .p 1 0] =
      .done (some (none, [⟨false, a.list.map .f⟩, ⟨true, (Cglm.glm_vec2_add a b).list.map .f⟩])) := by kernel_rfl
theorem glm_vec2_add_run_a (a : V2 α) (b : V2 α) :
    C.glm_vec2_add.runT (α := α) [⟨false, b.list.map .f⟩, ⟨true, a.list.map .f⟩] [.p 1 0, .p 0 0, .p 1 0] =
      .done (some (none, [⟨false, b.list.map .f⟩, ⟨true, (Cglm.glm_vec2_add a b).list.map .f⟩])) := by kernel_rfl
theorem glm_vec2_add_run_a_b (a : V2 α) :
    C.glm_vec2_add.runT (α := α) [⟨true, a.list.map .f⟩] [.p 0 0, .p 0 0, .p 0 0] =
      .done (some (none, [⟨true, (Cglm.glm_vec2_add a a).list.map .f⟩])) := by kernel_rfl
theorem glm_vec2_adds_run (v : V2 α) (s : α) :
    C.glm_vec2_adds.runT (α := α) [⟨false, v.list.map .f⟩, ⟨true, List.replicate 2 .undef⟩] [.p 0 0, .f s, .p 1 0] =
      .done (some (none, [⟨false, v.list.map .f⟩, ⟨true, (Cglm.glm_vec2_adds v s).list.map .f⟩])) := by kernel_rfl
theorem glm_vec2_adds_run_v (v : V2 α) (s : α) :
    C.glm_vec2_adds.runT (α := α) [⟨true, v.list.map .f⟩] [.p 0 0, .f s, .p 0 0] =
      .done (some (none, [⟨true, (Cglm.glm_vec2_adds v s).list.map .f⟩])) := by kernel_rfl
theorem glm_vec2_sub_run (a : V2 α) (b : V2 α) :
    C.glm_vec2_sub.runT (α := α) [⟨false, a.list.map .f⟩, ⟨false, b.list.map .f⟩, ⟨true, List.replicate 2 .undef⟩] [.p 0 0, .p 1 0, .p 2 0] =
      .done (some (none, [⟨false, a.list.map .f⟩, ⟨false, b.list.map .f⟩, ⟨true, (Cglm.glm_vec2_sub a b).list.map .f⟩])) := by kernel_rfl
theorem glm_vec2_sub_run_b (a : V2 α) (b : V2 α) :
    C.glm_vec2_sub.runT (α := α) [⟨false, a.list.map .f⟩, ⟨true, b.list.map .f⟩] [.p 0 0, .p 1 0, .p 1 0] =
      .done (some (none, [⟨false, a.list.map .f⟩, ⟨true, (Cglm.glm_vec2_sub a b).list.map .f⟩])) := by kernel_rfl
theorem glm_vec2_sub_run_a (a : V2 α) (b : V2 α) :
    C.glm_vec2_sub.runT (α := α) [⟨false, b.list.map .f⟩, ⟨true, a.list.map .f⟩] [.p 1 0, .p 0 0, .p 1 0] =
      .done (some (none, [⟨false, b.list.map .f⟩, ⟨true, (Cglm.glm_vec2_sub a b).list.map .f⟩])) := by kernel_rfl
theorem glm_vec2_sub_run_a_b (a : V2 α) :
    C.glm_vec2_sub.runT (α := α) [⟨true, a.list.map .f⟩] [.p 0 0, .p 0 0, .p 0 0] =
      .done (some (none, [⟨true, (Cglm.glm_vec2_sub a a).list.map .f⟩])) := by kernel_rfl
theorem glm_vec2_subs_run (v : V2 α) (s : α) :
    C.glm_vec2_subs.runT (α := α) [⟨false, v.list.map .f⟩, ⟨true, List.replicate 2 .undef⟩] [.p 0 0, .f s, .p 1 0] =
      .done (some (none, [⟨false, v.list.map .f⟩, ⟨true, (Cglm.glm_vec2_subs v s).list.map .f⟩])) := by kernel_rfl
theorem glm_vec2_subs_run_v (v : V2 α) (s : α) :
    C.glm_vec2_subs.runT (α := α) [⟨true, v.list.map .f⟩] [.p 0 0, .f s, .p 0 0] =
      .done (some (none, [⟨true, (Cglm.glm_vec2_subs v s).list.map .f⟩])) := by kernel_rfl
theorem glm_vec2_mul_run (a : V2 α) (b : V2 α) :
    C.glm_vec2_mul.runT (α := α) [⟨false, a.list.map .f⟩, ⟨false, b.list.map .f⟩, ⟨true, List.replicate 2 .undef⟩] [.p 0 0, .p 1 0, .p 2 0] =
      .done (some (none, [⟨false, a.list.map .f⟩, ⟨false, b.list.map .f⟩, ⟨true, (Cglm.glm_vec2_mul a b).list.map .f⟩])) := by kernel_rfl
theorem glm_vec2_mul_run_b (a : V2 α) (b : V2 α) :
    C.glm_vec2_mul.runT (α := α) [⟨false, a.list.map .f⟩, ⟨true, b.list.map .f⟩] [.p 0 0, .p 1 0, .p 1 0] =
      .done (some (none, [⟨false, a.list.map .f⟩, ⟨true, (Cglm.glm_vec2_mul a b).list.map .f⟩])) := by kernel_rfl
theorem glm_vec2_mul_run_a (a : V2 α) (b : V2 α) :
    C.glm_vec2_mul.runT (α := α) [⟨false, b.list.map .f⟩, ⟨true, a.list.map .f⟩] [.p 1 0, .p 0 0, .p 1 0] =
      .done (some (none, [⟨false, b.list.map .f⟩, ⟨true, (Cglm.glm_vec2_mul a b).list.map .f⟩])) := by kernel_rfl
theorem glm_vec2_mul_run_a_b (a : V2 α) :
    C.glm_vec2_mul.runT (α := α) [⟨true, a.list.map .f⟩] [.p 0 0, .p 0 0, .p 0 0] =
      .done (some (none, [⟨true, (Cglm.glm_vec2_mul a a).list.map .f⟩])) := by kernel_rfl
theorem glm_vec2_scale_run (v : V2 α) (s : α) :
    C.glm_vec2_scale.runT (α := α) [⟨false, v.list.map .f⟩, ⟨true, List.replicate 2 .undef⟩] [.p 0 0, .f s, .p 1 0] =
      .done (some (none, [⟨false, v.list.map .f⟩, ⟨true, (Cglm.glm_vec2_scale v s).list.map .f⟩])) := by kernel_rfl
theorem glm_vec2_scale_run_v (v : V2 α) (s : α) :
    C.glm_vec2_scale.runT (α := α) [⟨true, v.list.map .f⟩] [.p 0 0, .f s, .p 0 0] =
      .done (some (none, [⟨true, (Cglm.glm_vec2_scale v s).list.map .f⟩])) := by kernel_rfl
/-- `glm_vec2_scale_as` with its branches as a tree -/
def glm_vec2_scale_as_dt (v : V2 α) (s : α) : DT (V2 α) :=
  let norm := glm_vec2_norm v
  .br (flt norm (lit 0.00000011920928955078125)) (
    .done glm_vec2_zero) (
    .done (glm_vec2_scale v (s / norm)))
theorem glm_vec2_scale_as_dt_val (v : V2 α) (s : α) : (glm_vec2_scale_as_dt v s).val = Cglm.glm_vec2_scale_as v s := by
  unfold glm_vec2_scale_as_dt
  simp only [DT.val]
  kernel_rfl
theorem glm_vec2_scale_as_run (v : V2 α) (s : α) :
    C.glm_vec2_scale_as.runT (α := α) [⟨false, v.list.map .f⟩, ⟨true, List.replicate 2 .undef⟩] [.p 0 0, .f s, .p 1 0] =
      (Cglm.glm_vec2_scale_as_dt v s).map fun r => some (none, [⟨false, v.list.map .f⟩, ⟨true, r.list.map .f⟩]) := by kernel_rfl
theorem glm_vec2_scale_as_run_v (v : V2 α) (s : α) :
    C.glm_vec2_scale_as.runT (α := α) [⟨true, v.list.map .f⟩] [.p 0 0, .f s, .p 0 0] =
      (Cglm.glm_vec2_scale_as_dt v s).map fun r => some (none, [⟨true, r.list.map .f⟩]) := by kernel_rfl
theorem glm_vec2_div_run (a : V2 α) (b : V2 α) :
    C.glm_vec2_div.runT (α := α) [⟨false, a.list.map .f⟩, ⟨false, b.list.map .f⟩, ⟨true, List.replicate 2 .undef⟩] [.p 0 0, .p 1 0, .p 2 0] =
      .done (some (none, [⟨false, a.list.map .f⟩, ⟨false, b.list.map .f⟩, ⟨true, (Cglm.glm_vec2_div a b).list.map .f⟩])) := by kernel_rfl
theorem glm_vec2_div_run_b (a : V2 α) (b : V2 α) :
    C.glm_vec2_div.runT (α := α) [⟨false, a.list.map .f⟩, ⟨true, b.list.map .f⟩] [.p 0 0, .p 1 0, .p 1 0] =
      .done (some (none, [⟨false, a.list.map .f⟩, ⟨true, (Cglm.glm_vec2_div a b).list.map .f⟩])) := by kernel_rfl
theorem glm_vec2_div_run_a (a : V2 α) (b : V2 α) :
    C.glm_vec2_div.runT (α := α) [⟨false, b.list.map .f⟩, ⟨true, a.list.map .f⟩] [.p 1 0, .p 0 0, .p 1 0] =
      .done (some (none, [⟨false, b.list.map .f⟩, ⟨true, (Cglm.glm_vec2_div a b).list.map .f⟩])) := by kernel_rfl
theorem glm_vec2_div_run_a_b (a : V2 α) :
    C.glm_vec2_div.runT (α := α) [⟨true, a.list.map .f⟩] [.p 0 0, .p 0 0, .p 0 0] =
      .done (some (none, [⟨true, (Cglm.glm_vec2_div a a).list.map .f⟩])) := by kernel_rfl
theorem glm_vec2_divs_run (v : V2 α) (s : α) :
    C.glm_vec2_divs.runT (α := α) [⟨false, v.list.map .f⟩, ⟨true, List.replicate 2 .undef⟩] [.p 0 0, .f s, .p 1 0] =
      .done (some (none, [⟨false, v.list.map .f⟩, ⟨true, (Cglm.glm_vec2_divs v s).list.map .f⟩])) := by kernel_rfl
theorem glm_vec2_divs_run_v (v : V2 α) (s : α) :
    C.glm_vec2_divs.runT (α := α) [⟨true, v.list.map .f⟩] [.p 0 0, .f s, .p 0 0] =
      .done (some (none, [⟨true, (Cglm.glm_vec2_divs v s).list.map .f⟩])) := by kernel_rfl
theorem glm_vec2_addadd_run (a : V2 α) (b : V2 α) (dest : V2 α) :
    C.glm_vec2_addadd.runT (α := α) [⟨false, a.list.map .f⟩, ⟨false, b.list.map .f⟩, ⟨true, dest.list.map .f⟩] [.p 0 0, .p 1 0, .p 2 0] =
      .done (some (none, [⟨false, a.list.map .f⟩, ⟨false, b.list.map .f⟩, ⟨true, (Cglm.glm_vec2_addadd a b dest).list.map .f⟩])) := by kernel_rfl
theorem glm_vec2_addadd_run_b (a : V2 α) (dest : V2 α) :
    C.glm_vec2_addadd.runT (α := α) [⟨false, a.list.map .f⟩, ⟨true, dest.list.map .f⟩] [.p 0 0, .p 1 0, .p 1 0] =
      .done (some (none, [⟨false, a.list.map .f⟩, ⟨true, (Cglm.glm_vec2_addadd a dest dest).list.map .f⟩])) := by kernel_rfl
theorem glm_vec2_addadd_run_a (dest : V2 α) (b : V2 α) :
    C.glm_vec2_addadd.runT (α := α) [⟨false, b.list.map .f⟩, ⟨true, dest.list.map .f⟩] [.p 1 0, .p 0 0, .p 1 0] =
      .done (some (none, [⟨false, b.list.map .f⟩, ⟨true, (Cglm.glm_vec2_addadd dest b dest).list.map .f⟩])) := by kernel_rfl
theorem glm_vec2_addadd_run_a_b (dest : V2 α) :
    C.glm_vec2_addadd.runT (α := α) [⟨true, dest.list.map .f⟩] [.p 0 0, .p 0 0, .p 0 0] =
      .done (some (none, [⟨true, (Cglm.glm_vec2_addadd dest dest dest).list.map .f⟩])) := by kernel_rfl
theorem glm_vec2_subadd_run (a : V2 α) (b : V2 α) (dest : V2 α) :
    C.glm_vec2_subadd.runT (α := α) [⟨false, a.list.map .f⟩, ⟨false, b.list.map .f⟩, ⟨true, dest.list.map .f⟩] [.p 0 0, .p 1 0, .p 2 0] =
      .done (some (none, [⟨false, a.list.map .f⟩, ⟨false, b.list.map .f⟩, ⟨true, (Cglm.glm_vec2_subadd a b dest).list.map .f⟩])) := by kernel_rfl
theorem glm_vec2_subadd_run_b (a : V2 α) (dest : V2 α) :
    C.glm_vec2_subadd.runT (α := α) [⟨false, a.list.map .f⟩, ⟨true, dest.list.map .f⟩] [.p 0 0, .p 1 0, .p 1 0] =
      .done (some (none, [⟨false, a.list.map .f⟩, ⟨true, (Cglm.glm_vec2_subadd a dest dest).list.map .f⟩])) := by kernel_rfl
theorem glm_vec2_subadd_run_a (dest : V2 α) (b : V2 α) :
    C.glm_vec2_subadd.runT (α := α) [⟨false, b.list.map .f⟩, ⟨true, dest.list.map .f⟩] [.p 1 0, .p 0 0, .p 1 0] =
      .done (some (none, [⟨false, b.list.map .f⟩, ⟨true, (Cglm.glm_vec2_subadd dest b dest).list.map .f⟩])) := by kernel_rfl
theorem glm_vec2_subadd_run_a_b (dest : V2 α) :
    C.glm_vec2_subadd.runT (α := α) [⟨true, dest.list.map .f⟩] [.p 0 0, .p 0 0, .p 0 0] =
      .done (some (none, [⟨true, (Cglm.glm_vec2_subadd dest dest dest).list.map .f⟩])) := by kernel_rfl
theorem glm_vec2_muladd_run (a : V2 α) (b : V2 α) (dest : V2 α) :
    C.glm_vec2_muladd.runT (α := α) [⟨false, a.list.map .f⟩, ⟨false, b.list.map .f⟩, ⟨true, dest.list.map .f⟩] [.p 0 0, .p 1 0, .p 2 0] =
      .done (some (none, [⟨false, a.list.map .f⟩, ⟨false, b.list.map .f⟩, ⟨true, (Cglm.glm_vec2_muladd a b dest).list.map .f⟩])) := by kernel_rfl
theorem glm_vec2_muladd_run_b (a : V2 α) (dest : V2 α) :
    C.glm_vec2_muladd.runT (α := α) [⟨false, a.list.map .f⟩, ⟨true, dest.list.map .f⟩] [.p 0 0, .p 1 0, .p 1 0] =
      .done (some (none, [⟨false, a.list.map .f⟩, ⟨true, (Cglm.glm_vec2_muladd a dest dest).list.map .f⟩])) := by kernel_rfl
theorem glm_vec2_muladd_run_a (dest : V2 α) (b : V2 α) :
    C.glm_vec2_muladd.runT (α := α) [⟨false, b.list.map .f⟩, ⟨true, dest.list.map .f⟩] [.p 1 0, .p 0 0, .p 1 0] =
      .done (some (none, [⟨false, b.list.map .f⟩, ⟨true, (Cglm.glm_vec2_muladd dest b dest).list.map .f⟩])) := by kernel_rfl
theorem glm_vec2_muladd_run_a_b (dest : V2 α) :
    C.glm_vec2_muladd.runT (α := α) [⟨true, dest.list.map .f⟩] [.p 0 0, .p 0 0, .p 0 0] =
      .done (some (none, [⟨true, (Cglm.glm_vec2_muladd dest dest dest).list.map .f⟩])) := by kernel_rfl
theorem glm_vec2_muladds_run (a : V2 α) (s : α) (dest : V2 α) :
    C.glm_vec2_muladds.runT (α := α) [⟨false, a.list.map .f⟩, ⟨true, dest.list.map .f⟩] [.p 0 0, .f s, .p 1 0] =
      .done (some (none, [⟨false, a.list.map .f⟩, ⟨true, (Cglm.glm_vec2_muladds a s dest).list.map .f⟩])) := by kernel_rfl
theorem glm_vec2_muladds_run_a (dest : V2 α) (s : α) :
    C.glm_vec2_muladds.runT (α := α) [⟨true, dest.list.map .f⟩] [.p 0 0, .f s, .p 0 0] =
      .done (some (none, [⟨true, (Cglm.glm_vec2_muladds dest s dest).list.map .f⟩])) := by kernel_rfl
theorem glm_vec2_maxadd_run (a : V2 α) (b : V2 α) (dest : V2 α) :
    C.glm_vec2_maxadd.runT (α := α) [⟨false, a.list.map .f⟩, ⟨false, b.list.map .f⟩, ⟨true, dest.list.map .f⟩] [.p 0 0, .p 1 0, .p 2 0] =
      .done (some (none, [⟨false, a.list.map .f⟩, ⟨false, b.list.map .f⟩, ⟨true, (Cglm.glm_vec2_maxadd a b dest).list.map .f⟩])) := by kernel_rfl
theorem glm_vec2_maxadd_run_b (a : V2 α) (dest : V2 α) :
    C.glm_vec2_maxadd.runT (α := α) [⟨false, a.list.map .f⟩, ⟨true, dest.list.map .f⟩] [.p 0 0, .p 1 0, .p 1 0] =
      .done (some (none, [⟨false, a.list.map .f⟩, ⟨true, (Cglm.glm_vec2_maxadd a dest dest).list.map .f⟩])) := by kernel_rfl
theorem glm_vec2_maxadd_run_a (dest : V2 α) (b : V2 α) :
    C.glm_vec2_maxadd.runT (α := α) [⟨false, b.list.map .f⟩, ⟨true, dest.list.map .f⟩] [.p 1 0, .p 0 0, .p 1 0] =
      .done (some (none, [⟨false, b.list.map .f⟩, ⟨true, (Cglm.glm_vec2_maxadd dest b dest).list.map .f⟩])) := by kernel_rfl
theorem glm_vec2_maxadd_run_a_b (dest : V2 α) :
    C.glm_vec2_maxadd.runT (α := α) [⟨true, dest.list.map .f⟩] [.p 0 0, .p 0 0, .p 0 0] =
      .done (some (none, [⟨true, (Cglm.glm_vec2_maxadd dest dest dest).list.map .f⟩])) := by kernel_rfl
theorem glm_vec2_minadd_run (a : V2 α) (b : V2 α) (dest : V2 α) :
    C.glm_vec2_minadd.runT (α := α) [⟨false, a.list.map .f⟩, ⟨false, b.list.map .f⟩, ⟨true, dest.list.map .f⟩] [.p 0 0, .p 1 0, .p 2 0] =
      .done (some (none, [⟨false, a.list.map .f⟩, ⟨false, b.list.map .f⟩, ⟨true, (Cglm.glm_vec2_minadd a b dest).list.map .f⟩])) := by kernel_rfl
theorem glm_vec2_minadd_run_b (a : V2 α) (dest : V2 α) :
    C.glm_vec2_minadd.runT (α := α) [⟨false, a.list.map .f⟩, ⟨true, dest.list.map .f⟩] [.p 0 0, .p 1 0, .p 1 0] =
      .done (some (none, [⟨false, a.list.map .f⟩, ⟨true, (Cglm.glm_vec2_minadd a dest dest).list.map .f⟩])) := by kernel_rfl
theorem glm_vec2_minadd_run_a (dest : V2 α) (b : V2 α) :
    C.glm_vec2_minadd.runT (α := α) [⟨false, b.list.map .f⟩, ⟨true, dest.list.map .f⟩] [.p 1 0, .p 0 0, .p 1 0] =
      .done (some (none, [⟨false, b.list.map .f⟩, ⟨true, (Cglm.glm_vec2_minadd dest b dest).list.map .f⟩])) := by kernel_rfl
theorem glm_vec2_minadd_run_a_b (dest : V2 α) :
    C.glm_vec2_minadd.runT (α := α) [⟨true, dest.list.map .f⟩] [.p 0 0, .p 0 0, .p 0 0] =
      .done (some (none, [⟨true, (Cglm.glm_vec2_minadd dest dest dest).list.map .f⟩])) := by kernel_rfl
theorem glm_vec2_subsub_run (a : V2 α) (b : V2 α) (dest : V2 α) :
    C.glm_vec2_subsub.runT (α := α) [⟨false, a.list.map .f⟩, ⟨false, b.list.map .f⟩, ⟨true, dest.list.map .f⟩] [.p 0 0, .p 1 0, .p 2 0] =
      .done (some (none, [⟨false, a.list.map .f⟩, ⟨false, b.list.map .f⟩, ⟨true, (Cglm.glm_vec2_subsub a b dest).list.map .f⟩])) := by kernel_rfl
theorem glm_vec2_subsub_run_b (a : V2 α) (dest : V2 α) :
    C.glm_vec2_subsub.runT (α := α) [⟨false, a.list.map .f⟩, ⟨true, dest.list.map .f⟩] [.p 0 0, .p 1 0, .p 1 0] =
      .done (some (none, [⟨false, a.list.map .f⟩, ⟨true, (Cglm.glm_vec2_subsub a dest dest).list.map .f⟩])) := by kernel_rfl
theorem glm_vec2_subsub_run_a (dest : V2 α) (b : V2 α) :
    C.glm_vec2_subsub.runT (α := α) [⟨false, b.list.map .f⟩, ⟨true, dest.list.map .f⟩] [.p 1 0, .p 0 0, .p 1 0] =
      .done (some (none, [⟨false, b.list.map .f⟩, ⟨true, (Cglm.glm_vec2_subsub dest b dest).list.map .f⟩])) := by kernel_rfl
theorem glm_vec2_subsub_run_a_b (dest : V2 α) :
    C.glm_vec2_subsub.runT (α := α) [⟨true, dest.list.map .f⟩] [.p 0 0, .p 0 0, .p 0 0] =
      .done (some (none, [⟨true, (Cglm.glm_vec2_subsub dest dest dest).list.map .f⟩])) := by kernel_rfl
theorem glm_vec2_addsub_run (a : V2 α) (b : V2 α) (dest : V2 α) :
    C.glm_vec2_addsub.runT (α := α) [⟨false, a.list.map .f⟩, ⟨false, b.list.map .f⟩, ⟨true, dest.list.map .f⟩] [.p 0 0, .p 1 0, .p 2 0] =
      .done (some (none, [⟨false, a.list.map .f⟩, ⟨false, b.list.map .f⟩, ⟨true, (Cglm.glm_vec2_addsub a b dest).list.map .f⟩])) := by kernel_rfl
theorem glm_vec2_addsub_run_b (a : V2 α) (dest : V2 α) :
    C.glm_vec2_addsub.runT (α := α) [⟨false, a.list.map .f⟩, ⟨true, dest.list.map .f⟩] [.p 0 0, .p 1 0, .p 1 0] =
      .done (some (none, [⟨false, a.list.map .f⟩, ⟨true, (Cglm.glm_vec2_addsub a dest dest).list.map .f⟩])) := by kernel_rfl
theorem glm_vec2_addsub_run_a (dest : V2 α) (b : V2 α) :
    C.glm_vec2_addsub.runT (α := α) [⟨false, b.list.map .f⟩, ⟨true, dest.list.map .f⟩] [.p 1 0, .p 0 0, .p 1 0] =
      .done (some (none, [⟨false, b.list.map .f⟩, ⟨true, (Cglm.glm_vec2_addsub dest b dest).list.map .f⟩])) := by kernel_rfl
theorem glm_vec2_addsub_run_a_b (dest : V2 α) :
    C.glm_vec2_addsub.runT (α := α) [⟨true, dest.list.map .f⟩] [.p 0 0, .p 0 0, .p 0 0] =
      .done (some (none, [⟨true, (Cglm.glm_vec2_addsub dest dest dest).list.map .f⟩])) := by kernel_rfl
theorem glm_vec2_mulsub_run (a : V2 α) (b : V2 α) (dest : V2 α) :
    C.glm_vec2_mulsub.runT (α := α) [⟨false, a.list.map .f⟩, ⟨false, b.list.map .f⟩, ⟨true, dest.list.map .f⟩] [.p 0 0, .p 1 0, .p 2 0] =
      .done (some (none, [⟨false, a.list.map .f⟩, ⟨false, b.list.map .f⟩, ⟨true, (Cglm.glm_vec2_mulsub a b dest).list.map .f⟩])) := by kernel_rfl
theorem glm_vec2_mulsub_run_b (a : V2 α) (dest : V2 α) :
    C.glm_vec2_mulsub.runT (α := α) [⟨false, a.list.map .f⟩, ⟨true, dest.list.map .f⟩] [.p 0 0, .p 1 0, .p 1 0] =
      .done (some (none, [⟨false, a.list.map .f⟩, ⟨true, (Cglm.glm_vec2_mulsub a dest dest).list.map .f⟩])) := by kernel_rfl
theorem glm_vec2_mulsub_run_a (dest : V2 α) (b : V2 α) :
    C.glm_vec2_mulsub.runT (α := α) [⟨false, b.list.map .f⟩, ⟨true, dest.list.map .f⟩] [.p 1 0, .p 0 0, .p 1 0] =
      .done (some (none, [⟨false, b.list.map .f⟩, ⟨true, (Cglm.glm_vec2_mulsub dest b dest).list.map .f⟩])) := by kernel_rfl
theorem glm_vec2_mulsub_run_a_b (dest : V2 α) :
    C.glm_vec2_mulsub.runT (α := α) [⟨true, dest.list.map .f⟩] [.p 0 0, .p 0 0, .p 0 0] =
      .done (some (none, [⟨true, (Cglm.glm_vec2_mulsub dest dest dest).list.map .f⟩])) := by kernel_rfl
theorem glm_vec2_mulsubs_run (a : V2 α) (s : α) (dest : V2 α) :
    C.glm_vec2_mulsubs.runT (α := α) [⟨false, a.list.map .f⟩, ⟨true, dest.list.map .f⟩] [.p 0 0, .f s, .p 1 0] =
      .done (some (none, [⟨false, a.list.map .f⟩, ⟨true, (Cglm.glm_vec2_mulsubs a s dest).list.map .f⟩])) := by kernel_rfl
theorem glm_vec2_mulsubs_run_a (dest : V2 α) (s : α) :
    C.glm_vec2_mulsubs.runT (α := α) [⟨true, dest.list.map .f⟩] [.p 0 0, .f s, .p 0 0] =
      .done (some (none, [⟨true, (Cglm.glm_vec2_mulsubs dest s dest).list.map .f⟩])) := by kernel_rfl
theorem glm_vec2_maxsub_run (a : V2 α) (b : V2 α) (dest : V2 α) :
    C.glm_vec2_maxsub.runT (α := α) [⟨false, a.list.map .f⟩, ⟨false, b.list.map .f⟩, ⟨true, dest.list.map .f⟩] [.p 0 0, .p 1 0, .p 2 0] =
      .done (some (none, [⟨false, a.list.map .f⟩, ⟨false, b.list.map .f⟩, ⟨true, (Cglm.glm_vec2_maxsub a b dest).list.map .f⟩])) := by kernel_rfl
theorem glm_vec2_maxsub_run_b (a : V2 α) (dest : V2 α) :
    C.glm_vec2_maxsub.runT (α := α) [⟨false, a.list.map .f⟩, ⟨true, dest.list.map .f⟩] [.p 0 0, .p 1 0, .p 1 0] =
      .done (some (none, [⟨false, a.list.map .f⟩, ⟨true, (Cglm.glm_vec2_maxsub a dest dest).list.map .f⟩])) := by kernel_rfl
theorem glm_vec2_maxsub_run_a (dest : V2 α) (b : V2 α) :
    C.glm_vec2_maxsub.runT (α := α) [⟨false, b.list.map .f⟩, ⟨true, dest.list.map .f⟩] [.p 1 0, .p 0 0, .p 1 0] =
      .done (some (none, [⟨false, b.list.map .f⟩, ⟨true, (Cglm.glm_vec2_maxsub dest b dest).list.map .f⟩])) := by kernel_rfl
theorem glm_vec2_maxsub_run_a_b (dest : V2 α) :
    C.glm_vec2_maxsub.runT (α := α) [⟨true, dest.list.map .f⟩] [.p 0 0, .p 0 0, .p 0 0] =
      .done (some (none, [⟨true, (Cglm.glm_vec2_maxsub dest dest dest).list.map .f⟩])) := by kernel_rfl
theorem glm_vec2_minsub_run (a : V2 α) (b : V2 α) (dest : V2 α) :
    C.glm_vec2_minsub.runT (α := α) [⟨false, a.list.map .f⟩, ⟨false, b.list.map .f⟩, ⟨true, dest.list.map .f⟩] [.p 0 0, .p 1 0, .p 2 0] =
      .done (some (none, [⟨false, a.list.map .f⟩, ⟨false, b.list.map .f⟩, ⟨true, (Cglm.glm_vec2_minsub a b dest).list.map .f⟩])) := by kernel_rfl
theorem glm_vec2_minsub_run_b (a : V2 α) (dest : V2 α) :
    C.glm_vec2_minsub.runT (α := α) [⟨false, a.list.map .f⟩, ⟨true, dest.list.map .f⟩] [.p 0 0, .p 1 0, .p 1 0] =
      .done (some (none, [⟨false, a.list.map .f⟩, ⟨true, (Cglm.glm_vec2_minsub a dest dest).list.map .f⟩])) := by kernel_rfl
theorem glm_vec2_minsub_run_a (dest : V2 α) (b : V2 α) :
    C.glm_vec2_minsub.runT (α := α) [⟨false, b.list.map .f⟩, ⟨true, dest.list.map .f⟩] [.p 1 0, .p 0 0, .p 1 0] =
      .done (some (none, [⟨false, b.list.map .f⟩, ⟨true, (Cglm.glm_vec2_minsub dest b dest).list.map .f⟩])) := by kernel_rfl
theorem glm_vec2_minsub_run_a_b (dest : V2 α) :
    C.glm_vec2_minsub.runT (α := α) [⟨true, dest.list.map .f⟩] [.p 0 0, .p 0 0, .p 0 0] =
      .done (some (none, [⟨true, (Cglm.glm_vec2_minsub dest dest dest).list.map .f⟩])) := by kernel_rfl
theorem glm_vec2_negate_to_run (v : V2 α) :
    C.glm_vec2_negate_to.runT (α := α) [⟨false, v.list.map .f⟩, ⟨true, List.replicate 2 .undef⟩] [.p 0 0, .p 1 0] =
      .done (some (none, [⟨false, v.list.map .f⟩, ⟨true, (Cglm.glm_vec2_negate_to v).list.map .f⟩])) := by kernel_rfl
theorem glm_vec2_negate_to_run_v (v : V2 α) :
    C.glm_vec2_negate_to.runT (α := α) [⟨true, v.list.map .f⟩] [.p 0 0, .p 0 0] =
      .done (some (none, [⟨true, (Cglm.glm_vec2_negate_to v).list.map .f⟩])) := by kernel_rfl
theorem glm_vec2_negate_run (v : V2 α) :
    C.glm_vec2_negate.runT (α := α) [⟨true, v.list.map .f⟩] [.p 0 0] =
      .done (some (none, [⟨true, (Cglm.glm_vec2_negate v).list.map .f⟩])) := by kernel_rfl
/-- `glm_vec2_normalize` with its branches as a tree -/
def glm_vec2_normalize_dt (v : V2 α) : DT (V2 α) :=
  let norm := glm_vec2_norm v
  .br (flt norm (lit 0.00000011920928955078125)) (
    .done ⟨lit 0, lit 0⟩) (
    .done (glm_vec2_scale v ((lit 1) / norm)))
theorem glm_vec2_normalize_dt_val (v : V2 α) : (glm_vec2_normalize_dt v).val = Cglm.glm_vec2_normalize v := by
  unfold glm_vec2_normalize_dt
  simp only [DT.val]
  kernel_rfl
theorem glm_vec2_normalize_run (v : V2 α) :
    C.glm_vec2_normalize.runT (α := α) [⟨true, v.list.map .f⟩] [.p 0 0] =
      (Cglm.glm_vec2_normalize_dt v).map fun r => some (none, [⟨true, r.list.map .f⟩]) := by kernel_rfl
/-- `glm_vec2_normalize_to` with its branches as a tree -/
def glm_vec2_normalize_to_dt (v : V2 α) : DT (V2 α) :=
  let norm := glm_vec2_norm v
  .br (flt norm (lit 0.00000011920928955078125)) (
    .done glm_vec2_zero) (
    .done (glm_vec2_scale v ((lit 1) / norm)))
theorem glm_vec2_normalize_to_dt_val (v : V2 α) : (glm_vec2_normalize_to_dt v).val = Cglm.glm_vec2_normalize_to v := by
  unfold glm_vec2_normalize_to_dt
  simp only [DT.val]
  kernel_rfl
theorem glm_vec2_normalize_to_run (v : V2 α) :
    C.glm_vec2_normalize_to.runT (α := α) [⟨false, v.list.map .f⟩, ⟨true, List.replicate 2 .undef⟩] [.p 0 0, .p 1 0] =
      (Cglm.glm_vec2_normalize_to_dt v).map fun r => some (none, [⟨false, v.list.map .f⟩, ⟨true, r.list.map .f⟩]) := by kernel_rfl
theorem glm_vec2_normalize_to_run_v (v : V2 α) :
    C.glm_vec2_normalize_to.runT (α := α) [⟨true, v.list.map .f⟩] [.p 0 0, .p 0 0] =
      (Cglm.glm_vec2_normalize_to_dt v).map fun r => some (none, [⟨true, r.list.map .f⟩]) := by kernel_rfl
theorem glm_vec2_rotate_run (v : V2 α) (angle : α) :
    C.glm_vec2_rotate.runT (α := α) [⟨false, v.list.map .f⟩, ⟨true, List.replicate 2 .undef⟩] [.p 0 0, .f angle, .p 1 0] =
      .done (some (none, [⟨false, v.list.map .f⟩, ⟨true, (Cglm.glm_vec2_rotate v angle).list.map .f⟩])) := by kernel_rfl
theorem glm_vec2_rotate_run_v (v : V2 α) (angle : α) :
    C.glm_vec2_rotate.runT (α := α) [⟨true, v.list.map .f⟩] [.p 0 0, .f angle, .p 0 0] =
      .done (some (none, [⟨true, (Cglm.glm_vec2_rotate v angle).list.map .f⟩])) := by kernel_rfl
theorem glm_vec2_center_run (a : V2 α) (b : V2 α) :
    C.glm_vec2_center.runT (α := α) [⟨false, a.list.map .f⟩, ⟨false, b.list.map .f⟩, ⟨true, List.replicate 2 .undef⟩] [.p 0 0, .p 1 0, .p 2 0] =
      .done (some (none, [⟨false, a.list.map .f⟩, ⟨false, b.list.map .f⟩, ⟨true, (Cglm.glm_vec2_center a b).list.map .f⟩])) := by kernel_rfl
theorem glm_vec2_center_run_b (a : V2 α) (b : V2 α) :
    C.glm_vec2_center.runT (α := α) [⟨false, a.list.map .f⟩, ⟨true, b.list.map .f⟩] [.p 0 0, .p 1 0, .p 1 0] =
      .done (some (none, [⟨false, a.list.map .f⟩, ⟨true, (Cglm.glm_vec2_center a b).list.map .f⟩])) := by kernel_rfl
theorem glm_vec2_center_run_a (a : V2 α) (b : V2 α) :
    C.glm_vec2_center.runT (α := α) [⟨false, b.list.map .f⟩, ⟨true, a.list.map .f⟩] [.p 1 0, .p 0 0, .p 1 0] =
      .done (some (none, [⟨false, b.list.map .f⟩, ⟨true, (Cglm.glm_vec2_center a b).list.map .f⟩])) := by kernel_rfl
theorem glm_vec2_center_run_a_b (a : V2 α) :
    C.glm_vec2_center.runT (α := α) [⟨true, a.list.map .f⟩] [.p 0 0, .p 0 0, .p 0 0] =
      .done (some (none, [⟨true, (Cglm.glm_vec2_center a a).list.map .f⟩])) := by kernel_rfl
theorem glm_vec2_distance2_run (a : V2 α) (b : V2 α) :
    C.glm_vec2_distance2.runT (α := α) [⟨false, a.list.map .f⟩, ⟨false, b.list.map .f⟩] [.p 0 0, .p 1 0] =
      .done (some (some (.f (Cglm.glm_vec2_distance2 a b)), [⟨false, a.list.map .f⟩, ⟨false, b.list.map .f⟩])) := by kernel_rfl
theorem glm_vec2_distance_run (a : V2 α) (b : V2 α) :
    C.glm_vec2_distance.runT (α := α) [⟨false, a.list.map .f⟩, ⟨false, b.list.map .f⟩] [.p 0 0, .p 1 0] =
      .done (some (some (.f (Cglm.glm_vec2_distance a b)), [⟨false, a.list.map .f⟩, ⟨false, b.list.map .f⟩])) := by kernel_rfl
theorem glm_vec2_maxv_run (a : V2 α) (b : V2 α) :
    C.glm_vec2_maxv.runT (α := α) [⟨false, a.list.map .f⟩, ⟨false, b.list.map .f⟩, ⟨true, List.replicate 2 .undef⟩] [.p 0 0, .p 1 0, .p 2 0] =
      .done (some (none, [⟨false, a.list.map .f⟩, ⟨false, b.list.map .f⟩, ⟨true, (Cglm.glm_vec2_maxv a b).list.map .f⟩])) := by kernel_rfl
theorem glm_vec2_maxv_run_b (a : V2 α) (b : V2 α) :
    C.glm_vec2_maxv.runT (α := α) [⟨false, a.list.map .f⟩, ⟨true, b.list.map .f⟩] [.p 0 0, .p 1 0, .p 1 0] =
      .done (some (none, [⟨false, a.list.map .f⟩, ⟨true, (Cglm.glm_vec2_maxv a b).list.map .f⟩])) := by kernel_rfl
theorem glm_vec2_maxv_run_a (a : V2 α) (b : V2 α) :
    C.glm_vec2_maxv.runT (α := α) [⟨false, b.list.map .f⟩, ⟨true, a.list.map .f⟩] [.p 1 0, .p 0 0, .p 1 0] =
      .done (some (none, [⟨false, b.list.map .f⟩, ⟨true, (Cglm.glm_vec2_maxv a b).list.map .f⟩])) := by kernel_rfl
theorem glm_vec2_maxv_run_a_b (a : V2 α) :
    C.glm_vec2_maxv.runT (α := α) [⟨true, a.list.map .f⟩] [.p 0 0, .p 0 0, .p 0 0] =
      .done (some (none, [⟨true, (Cglm.glm_vec2_maxv a a).list.map .f⟩])) := by kernel_rfl
theorem glm_vec2_minv_run (a : V2 α) (b : V2 α) :
    C.glm_vec2_minv.runT (α := α) [⟨false, a.list.map .f⟩, ⟨false, b.list.map .f⟩, ⟨true, List.replicate 2 .undef⟩] [.p 0 0, .p 1 0, .p 2 0] =
      .done (some (none, [⟨false, a.list.map .f⟩, ⟨false, b.list.map .f⟩, ⟨true, (Cglm.glm_vec2_minv a b).list.map .f⟩])) := by kernel_rfl
theorem glm_vec2_minv_run_b (a : V2 α) (b : V2 α) :
    C.glm_vec2_minv.runT (α := α) [⟨false, a.list.map .f⟩, ⟨true, b.list.map .f⟩] [.p 0 0, .p 1 0, .p 1 0] =
      .done (some (none, [⟨false, a.list.map .f⟩, ⟨true, (Cglm.glm_vec2_minv a b).list.map .f⟩])) := by kernel_rfl
theorem glm_vec2_minv_run_a (a : V2 α) (b : V2 α) :
    C.glm_vec2_minv.runT (α := α) [⟨false, b.list.map .f⟩, ⟨true, a.list.map .f⟩] [.p 1 0, .p 0 0, .p 1 0] =
      .done (some (none, [⟨false, b.list.map .f⟩, ⟨true, (Cglm.glm_vec2_minv a b).list.map .f⟩])) := by kernel_rfl
theorem glm_vec2_minv_run_a_b (a : V2 α) :
    C.glm_vec2_minv.runT (α := α) [⟨true, a.list.map .f⟩] [.p 0 0, .p 0 0, .p 0 0] =
      .done (some (none, [⟨true, (Cglm.glm_vec2_minv a a).list.map .f⟩])) := by kernel_rfl
theorem glm_vec2_clamp_run (v : V2 α) (minval : α) (maxval : α) :
    C.glm_vec2_clamp.runT (α := α) [⟨true, v.list.map .f⟩] [.p 0 0, .f minval, .f maxval] =
      .done (some (none, [⟨true, (Cglm.glm_vec2_clamp v minval maxval).list.map .f⟩])) := by kernel_rfl
theorem glm_vec2_lerp_run (frm : V2 α) («to» : V2 α) (t : α) :
    C.glm_vec2_lerp.runT (α := α) [⟨false, frm.list.map .f⟩, ⟨false, «to».list.map .f⟩, ⟨true, List.replicate 2 .undef⟩] [.p 0 0, .p 1 0, .f t, .p 2 0] =
      .done (some (none, [⟨false, frm.list.map .f⟩, ⟨false, «to».list.map .f⟩, ⟨true, (Cglm.glm_vec2_lerp frm «to» t).list.map .f⟩])) := by kernel_rfl
theorem glm_vec2_lerp_run_to (frm : V2 α) («to» : V2 α) (t : α) :
    C.glm_vec2_lerp.runT (α := α) [⟨false, frm.list.map .f⟩, ⟨true, «to».list.map .f⟩] [.p 0 0, .p 1 0, .f t, .p 1 0] =
      .done (some (none, [⟨false, frm.list.map .f⟩, ⟨true, (Cglm.glm_vec2_lerp frm «to» t).list.map .f⟩])) := by kernel_rfl
theorem glm_vec2_lerp_run_from (frm : V2 α) («to» : V2 α) (t : α) :
    C.glm_vec2_lerp.runT (α := α) [⟨false, «to».list.map .f⟩, ⟨true, frm.list.map .f⟩] [.p 1 0, .p 0 0, .f t, .p 1 0] =
      .done (some (none, [⟨false, «to».list.map .f⟩, ⟨true, (Cglm.glm_vec2_lerp frm «to» t).list.map .f⟩])) := by kernel_rfl
theorem glm_vec2_lerp_run_from_to (frm : V2 α) (t : α) :
    C.glm_vec2_lerp.runT (α := α) [⟨true, frm.list.map .f⟩] [.p 0 0, .p 0 0, .f t, .p 0 0] =
      .done (some (none, [⟨true, (Cglm.glm_vec2_lerp frm frm t).list.map .f⟩])) := by kernel_rfl
theorem glm_vec2_step_run (edge : V2 α) (x : V2 α) :
    C.glm_vec2_step.runT (α := α) [⟨false, edge.list.map .f⟩, ⟨false, x.list.map .f⟩, ⟨true, List.replicate 2 .undef⟩] [.p 0 0, .p 1 0, .p 2 0] =
      .done (some (none, [⟨false, edge.list.map .f⟩, ⟨false, x.list.map .f⟩, ⟨true, (Cglm.glm_vec2_step edge x).list.map .f⟩])) := by kernel_rfl
theorem glm_vec2_step_run_x (edge : V2 α) (x : V2 α) :
    C.glm_vec2_step.runT (α := α) [⟨false, edge.list.map .f⟩, ⟨true, x.list.map .f⟩] [.p 0 0, .p 1 0, .p 1 0] =
      .done (some (none, [⟨false, edge.list.map .f⟩, ⟨true, (Cglm.glm_vec2_step edge x).list.map .f⟩])) := by kernel_rfl
theorem glm_vec2_step_run_edge (edge : V2 α) (x : V2 α) :
    C.glm_vec2_step.runT (α := α) [⟨false, x.list.map .f⟩, ⟨true, edge.list.map .f⟩] [.p 1 0, .p 0 0, .p 1 0] =
      .done (some (none, [⟨false, x.list.map .f⟩, ⟨true, (Cglm.glm_vec2_step edge x).list.map .f⟩])) := by kernel_rfl
theorem glm_vec2_step_run_edge_x (edge : V2 α) :
    C.glm_vec2_step.runT (α := α) [⟨true, edge.list.map .f⟩] [.p 0 0, .p 0 0, .p 0 0] =
      .done (some (none, [⟨true, (Cglm.glm_vec2_step edge edge).list.map .f⟩])) := by kernel_rfl
theorem glm_vec2_make_run (src : V2 α) :
    C.glm_vec2_make.runT (α := α) [⟨false, src.list.map .f⟩, ⟨true, List.replicate 2 .undef⟩] [.p 0 0, .p 1 0] =
      .done (some (none, [⟨false, src.list.map .f⟩, ⟨true, (Cglm.glm_vec2_make src).list.map .f⟩])) := by kernel_rfl
theorem glm_vec2_make_run_src (src : V2 α) :
    C.glm_vec2_make.runT (α := α) [⟨true, src.list.map .f⟩] [.p 0 0, .p 0 0] =
      .done (some (none, [⟨true, (Cglm.glm_vec2_make src).list.map .f⟩])) := by kernel_rfl
theorem glm_vec2_reflect_run (v : V2 α) (n : V2 α) :
    C.glm_vec2_reflect.runT (α := α) [⟨false, v.list.map .f⟩, ⟨false, n.list.map .f⟩, ⟨true, List.replicate 2 .undef⟩] [.p 0 0, .p 1 0, .p 2 0] =
      .done (some (none, [⟨false, v.list.map .f⟩, ⟨false, n.list.map .f⟩, ⟨true, (Cglm.glm_vec2_reflect v n).list.map .f⟩])) := by kernel_rfl
theorem glm_vec2_reflect_run_n (v : V2 α) (n : V2 α) :
    C.glm_vec2_reflect.runT (α := α) [⟨false, v.list.map .f⟩, ⟨true, n.list.map .f⟩] [.p 0 0, .p 1 0, .p 1 0] =
      .done (some (none, [⟨false, v.list.map .f⟩, ⟨true, (Cglm.glm_vec2_reflect v n).list.map .f⟩])) := by kernel_rfl
theorem glm_vec2_reflect_run_v (v : V2 α) (n : V2 α) :
    C.glm_vec2_reflect.runT (α := α) [⟨false, n.list.map .f⟩, ⟨true, v.list.map .f⟩] [.p 1 0, .p 0 0, .p 1 0] =
      .done (some (none, [⟨false, n.list.map .f⟩, ⟨true, (Cglm.glm_vec2_reflect v n).list.map .f⟩])) := by kernel_rfl
theorem glm_vec2_reflect_run_v_n (v : V2 α) :
    C.glm_vec2_reflect.runT (α := α) [⟨true, v.list.map .f⟩] [.p 0 0, .p 0 0, .p 0 0] =
      .done (some (none, [⟨true, (Cglm.glm_vec2_reflect v v).list.map .f⟩])) := by kernel_rfl
/-- `glm_vec2_refract` with its branches as a tree -/
def glm_vec2_refract_dt (v : V2 α) (n : V2 α) (eta : α) : DT (Bool × V2 α) :=
  let ndi := glm_vec2_dot n v
  let eni := eta * ndi
  let k := (lit 1) - eta * eta + eni * eni
  .br (flt k (lit 0)) (
    .done (false, glm_vec2_zero)) (
    let dest_1 := glm_vec2_scale v eta
    .done (true, glm_vec2_mulsubs n (eni + sqrtf k) dest_1))
theorem glm_vec2_refract_dt_val (v : V2 α) (n : V2 α) (eta : α) : (glm_vec2_refract_dt v n eta).val = Cglm.glm_vec2_refract v n eta := by
  unfold glm_vec2_refract_dt
  simp only [DT.val]
  kernel_rfl
theorem glm_vec2_refract_run (v : V2 α) (n : V2 α) (eta : α) :
    C.glm_vec2_refract.runT (α := α) [⟨false, v.list.map .f⟩, ⟨false, n.list.map .f⟩, ⟨true, List.replicate 2 .undef⟩] [.p 0 0, .p 1 0, .f eta, .p 2 0] =
      (Cglm.glm_vec2_refract_dt v n eta).map fun r => some (some (.b r.1), [⟨false, v.list.map .f⟩, ⟨false, n.list.map .f⟩, ⟨true, r.2.list.map .f⟩]) := by kernel_rfl
theorem glm_vec2_refract_run_v (v : V2 α) (n : V2 α) (eta : α) :
    C.glm_vec2_refract.runT (α := α) [⟨false, n.list.map .f⟩, ⟨true, v.list.map .f⟩] [.p 1 0, .p 0 0, .f eta, .p 1 0] =
      (Cglm.glm_vec2_refract_dt v n eta).map fun r => some (some (.b r.1), [⟨false, n.list.map .f⟩, ⟨true, r.2.list.map .f⟩]) := by kernel_rfl

end Cglm

end Vec2Run

section Vec3ExtRun

/-! Runs of the functions of include/cglm/vec3-ext.h on canonical memories. -/

set_option linter.unusedVariables false
set_option linter.unusedSectionVars false

namespace Cglm
open CMem

variable {α : Type} [Add α] [Sub α] [Mul α] [Div α] [Neg α] [CFloat α]

theorem glm_vec3_broadcast_run (val : α) :
    C.glm_vec3_broadcast.runT (α := α) [⟨true, List.replicate 3 .undef⟩] [.f val, .p 0 0] =
      .done (some (none, [⟨true, (Cglm.glm_vec3_broadcast val).list.map .f⟩])) := by kernel_rfl
theorem glm_vec3_fill_run (val : α) :
    C.glm_vec3_fill.runT (α := α) [⟨true, List.replicate 3 .undef⟩] [.p 0 0, .f val] =
      .done (some (none, [⟨true, (Cglm.glm_vec3_fill val).list.map .f⟩])) := by kernel_rfl
theorem glm_vec3_eq_run (v : V3 α) (val : α) :
    C.glm_vec3_eq.runT (α := α) [⟨false, v.list.map .f⟩] [.p 0 0, .f val] =
      .done (some (some (.b (Cglm.glm_vec3_eq v val)), [⟨false, v.list.map .f⟩])) := by kernel_rfl
theorem glm_vec3_eq_eps_run (v : V3 α) (val : α) :
    C.glm_vec3_eq_eps.runT (α := α) [⟨false, v.list.map .f⟩] [.p 0 0, .f val] =
      .done (some (some (.b (Cglm.glm_vec3_eq_eps v val)), [⟨false, v.list.map .f⟩])) := by kernel_rfl
theorem glm_vec3_eq_all_run (v : V3 α) :
    C.glm_vec3_eq_all.runT (α := α) [⟨false, v.list.map .f⟩] [.p 0 0] =
      .done (some (some (.b (Cglm.glm_vec3_eq_all v)), [⟨false, v.list.map .f⟩])) := by kernel_rfl
theorem glm_vec3_eqv_run (a : V3 α) (b : V3 α) :
    C.glm_vec3_eqv.runT (α := α) [⟨false, a.list.map .f⟩, ⟨false, b.list.map .f⟩] [.p 0 0, .p 1 0] =
      .done (some (some (.b (Cglm.glm_vec3_eqv a b)), [⟨false, a.list.map .f⟩, ⟨false, b.list.map .f⟩])) := by kernel_rfl
theorem glm_vec3_eqv_eps_run (a : V3 α) (b : V3 α) :
    C.glm_vec3_eqv_eps.runT (α := α) [⟨false, a.list.map .f⟩, ⟨false, b.list.map .f⟩] [.p 0 0, .p 1 0] =
      .done (some (some (.b (Cglm.glm_vec3_eqv_eps a b)), [⟨false, a.list.map .f⟩, ⟨false, b.list.map .f⟩])) := by kernel_rfl
/-- `glm_vec3_max` with its branches as a tree -/
def glm_vec3_max_dt (v : V3 α) : DT (α) :=
  let max := v.x
  .br (flt max v.y) (
    let max_1 := v.y
    .br (flt max_1 v.z) (
      .done v.z) (
      .done max_1)) (
    .br (flt max v.z) (
      .done v.z) (
      .done max))
theorem glm_vec3_max_dt_val (v : V3 α) : (glm_vec3_max_dt v).val = Cglm.glm_vec3_max v := by
  unfold glm_vec3_max_dt
  simp only [DT.val]
  kernel_rfl
theorem glm_vec3_max_run (v : V3 α) :
    C.glm_vec3_max.runT (α := α) [⟨false, v.list.map .f⟩] [.p 0 0] =
      (Cglm.glm_vec3_max_dt v).map fun r => some (some (.f r), [⟨false, v.list.map .f⟩]) := by kernel_rfl
/-- `glm_vec3_min` with its branches as a tree -/
def glm_vec3_min_dt (v : V3 α) : DT (α) :=
  let min := v.x
  .br (flt v.y min) (
    let min_1 := v.y
    .br (flt v.z min_1) (
      .done v.z) (
      .done min_1)) (
    .br (flt v.z min) (
      .done v.z) (
      .done min))
theorem glm_vec3_min_dt_val (v : V3 α) : (glm_vec3_min_dt v).val = Cglm.glm_vec3_min v := by
  unfold glm_vec3_min_dt
  simp only [DT.val]
  kernel_rfl
theorem glm_vec3_min_run (v : V3 α) :
    C.glm_vec3_min.runT (α := α) [⟨false, v.list.map .f⟩] [.p 0 0] =
      (Cglm.glm_vec3_min_dt v).map fun r => some (some (.f r), [⟨false, v.list.map .f⟩]) := by kernel_rfl
theorem glm_vec3_isnan_run (v : V3 α) :
    C.glm_vec3_isnan.runT (α := α) [⟨false, v.list.map .f⟩] [.p 0 0] =
      .done (some (some (.b (Cglm.glm_vec3_isnan v)), [⟨false, v.list.map .f⟩])) := by kernel_rfl
theorem glm_vec3_isinf_run (v : V3 α) :
    C.glm_vec3_isinf.runT (α := α) [⟨false, v.list.map .f⟩] [.p 0 0] =
      .done (some (some (.b (Cglm.glm_vec3_isinf v)), [⟨false, v.list.map .f⟩])) := by kernel_rfl
theorem glm_vec3_isvalid_run (v : V3 α) :
    C.glm_vec3_isvalid.runT (α := α) [⟨false, v.list.map .f⟩] [.p 0 0] =
      .done (some (some (.b (Cglm.glm_vec3_isvalid v)), [⟨false, v.list.map .f⟩])) := by kernel_rfl
theorem glm_vec3_sign_run (v : V3 α) :
    C.glm_vec3_sign.runT (α := α) [⟨false, v.list.map .f⟩, ⟨true, List.replicate 3 .undef⟩] [.p 0 0, .p 1 0] =
      .done (some (none, [⟨false, v.list.map .f⟩, ⟨true, (Cglm.glm_vec3_sign v).list.map .f⟩])) := by kernel_rfl
theorem glm_vec3_sign_run_v (v : V3 α) :
    C.glm_vec3_sign.runT (α := α) [⟨true, v.list.map .f⟩] [.p 0 0, .p 0 0] =
      .done (some (none, [⟨true, (Cglm.glm_vec3_sign v).list.map .f⟩])) := by kernel_rfl
theorem glm_vec3_abs_run (v : V3 α) :
    C.glm_vec3_abs.runT (α := α) [⟨false, v.list.map .f⟩, ⟨true, List.replicate 3 .undef⟩] [.p 0 0, .p 1 0] =
      .done (some (none, [⟨false, v.list.map .f⟩, ⟨true, (Cglm.glm_vec3_abs v).list.map .f⟩])) := by kernel_rfl
theorem glm_vec3_abs_run_v (v : V3 α) :
    C.glm_vec3_abs.runT (α := α) [⟨true, v.list.map .f⟩] [.p 0 0, .p 0 0] =
      .done (some (none, [⟨true, (Cglm.glm_vec3_abs v).list.map .f⟩])) := by kernel_rfl
theorem glm_vec3_fract_run (v : V3 α) :
    C.glm_vec3_fract.runT (α := α) [⟨false, v.list.map .f⟩, ⟨true, List.replicate 3 .undef⟩] [.p 0 0, .p 1 0] =
      .done (some (none, [⟨false, v.list.map .f⟩, ⟨true, (Cglm.glm_vec3_fract v).list.map .f⟩])) := by kernel_rfl
theorem glm_vec3_fract_run_v (v : V3 α) :
    C.glm_vec3_fract.runT (α := α) [⟨true, v.list.map .f⟩] [.p 0 0, .p 0 0] =
      .done (some (none, [⟨true, (Cglm.glm_vec3_fract v).list.map .f⟩])) := by kernel_rfl
theorem glm_vec3_floor_run (v : V3 α) :
    C.glm_vec3_floor.runT (α := α) [⟨false, v.list.map .f⟩, ⟨true, List.replicate 3 .undef⟩] [.p 0 0, .p 1 0] =
      .done (some (none, [⟨false, v.list.map .f⟩, ⟨true, (Cglm.glm_vec3_floor v).list.map .f⟩])) := by kernel_rfl
theorem glm_vec3_floor_run_v (v : V3 α) :
    C.glm_vec3_floor.runT (α := α) [⟨true, v.list.map .f⟩] [.p 0 0, .p 0 0] =
      .done (some (none, [⟨true, (Cglm.glm_vec3_floor v).list.map .f⟩])) := by kernel_rfl
theorem glm_vec3_mods_run (v : V3 α) (s : α) :
    C.glm_vec3_mods.runT (α := α) [⟨false, v.list.map .f⟩, ⟨true, List.replicate 3 .undef⟩] [.p 0 0, .f s, .p 1 0] =
      .done (some (none, [⟨false, v.list.map .f⟩, ⟨true, (Cglm.glm_vec3_mods v s).list.map .f⟩])) := by kernel_rfl
theorem glm_vec3_mods_run_v (v : V3 α) (s : α) :
    C.glm_vec3_mods.runT (α := α) [⟨true, v.list.map .f⟩] [.p 0 0, .f s, .p 0 0] =
      .done (some (none, [⟨true, (Cglm.glm_vec3_mods v s).list.map .f⟩])) := by kernel_rfl
theorem glm_vec3_steps_run (edge : α) (x : V3 α) :
    C.glm_vec3_steps.runT (α := α) [⟨false, x.list.map .f⟩, ⟨true, List.replicate 3 .undef⟩] [.f edge, .p 0 0, .p 1 0] =
      .done (some (none, [⟨false, x.list.map .f⟩, ⟨true, (Cglm.glm_vec3_steps edge x).list.map .f⟩])) := by kernel_rfl
theorem glm_vec3_steps_run_x (edge : α) (x : V3 α) :
    C.glm_vec3_steps.runT (α := α) [⟨true, x.list.map .f⟩] [.f edge, .p 0 0, .p 0 0] =
      .done (some (none, [⟨true, (Cglm.glm_vec3_steps edge x).list.map .f⟩])) := by kernel_rfl
theorem glm_vec3_stepr_run (edge : V3 α) (x : α) :
    C.glm_vec3_stepr.runT (α := α) [⟨false, edge.list.map .f⟩, ⟨true, List.replicate 3 .undef⟩] [.p 0 0, .f x, .p 1 0] =
      .done (some (none, [⟨false, edge.list.map .f⟩, ⟨true, (Cglm.glm_vec3_stepr edge x).list.map .f⟩])) := by kernel_rfl
theorem glm_vec3_stepr_run_edge (edge : V3 α) (x : α) :
    C.glm_vec3_stepr.runT (α := α) [⟨true, edge.list.map .f⟩] [.p 0 0, .f x, .p 0 0] =
      .done (some (none, [⟨true, (Cglm.glm_vec3_stepr edge x).list.map .f⟩])) := by kernel_rfl
theorem glm_vec3_hadd_run (v : V3 α) :
    C.glm_vec3_hadd.runT (α := α) [⟨false, v.list.map .f⟩] [.p 0 0] =
      .done (some (some (.f (Cglm.glm_vec3_hadd v)), [⟨false, v.list.map .f⟩])) := by kernel_rfl
theorem glm_vec3_sqrt_run (v : V3 α) :
    C.glm_vec3_sqrt.runT (α := α) [⟨false, v.list.map .f⟩, ⟨true, List.replicate 3 .undef⟩] [.p 0 0, .p 1 0] =
      .done (some (none, [⟨false, v.list.map .f⟩, ⟨true, (Cglm.glm_vec3_sqrt v).list.map .f⟩])) := by kernel_rfl
theorem glm_vec3_sqrt_run_v (v : V3 α) :
    C.glm_vec3_sqrt.runT (α := α) [⟨true, v.list.map .f⟩] [.p 0 0, .p 0 0] =
      .done (some (none, [⟨true, (Cglm.glm_vec3_sqrt v).list.map .f⟩])) := by kernel_rfl

end Cglm

end Vec3ExtRun

section Vec4ExtRun

/-! Runs of the functions of include/cglm/vec4-ext.h on canonical memories. -/

set_option linter.unusedVariables false
set_option linter.unusedSectionVars false

namespace Cglm
open CMem

variable {α : Type} [Add α] [Sub α] [Mul α] [Div α] [Neg α] [CFloat α]

theorem glm_vec4_broadcast_run (val : α) :
    C.glm_vec4_broadcast.runT (α := α) [⟨true, List.replicate 4 .undef⟩] [.f val, .p 0 0] =
      .done (some (none, [⟨true, (Cglm.glm_vec4_broadcast val).list.map .f⟩])) := by kernel_rfl
theorem glm_vec4_fill_run (val : α) :
    C.glm_vec4_fill.runT (α := α) [⟨true, List.replicate 4 .undef⟩] [.p 0 0, .f val] =
      .done (some (none, [⟨true, (Cglm.glm_vec4_fill val).list.map .f⟩])) := by kernel_rfl
theorem glm_vec4_eq_run (v : V4 α) (val : α) :
    C.glm_vec4_eq.runT (α := α) [⟨false, v.list.map .f⟩] [.p 0 0, .f val] =
      .done (some (some (.b (Cglm.glm_vec4_eq v val)), [⟨false, v.list.map .f⟩])) := by kernel_rfl
theorem glm_vec4_eq_eps_run (v : V4 α) (val : α) :
    C.glm_vec4_eq_eps.runT (α := α) [⟨false, v.list.map .f⟩] [.p 0 0, .f val] =
      .done (some (some (.b (Cglm.glm_vec4_eq_eps v val)), [⟨false, v.list.map .f⟩])) := by kernel_rfl
theorem glm_vec4_eq_all_run (v : V4 α) :
    C.glm_vec4_eq_all.runT (α := α) [⟨false, v.list.map .f⟩] [.p 0 0] =
      .done (some (some (.b (Cglm.glm_vec4_eq_all v)), [⟨false, v.list.map .f⟩])) := by kernel_rfl
theorem glm_vec4_eqv_run (a : V4 α) (b : V4 α) :
    C.glm_vec4_eqv.runT (α := α) [⟨false, a.list.map .f⟩, ⟨false, b.list.map .f⟩] [.p 0 0, .p 1 0] =
      .done (some (some (.b (Cglm.glm_vec4_eqv a b)), [⟨false, a.list.map .f⟩, ⟨false, b.list.map .f⟩])) := by kernel_rfl
theorem glm_vec4_eqv_eps_run (a : V4 α) (b : V4 α) :
    C.glm_vec4_eqv_eps.runT (α := α) [⟨false, a.list.map .f⟩, ⟨false, b.list.map .f⟩] [.p 0 0, .p 1 0] =
      .done (some (some (.b (Cglm.glm_vec4_eqv_eps a b)), [⟨false, a.list.map .f⟩, ⟨false, b.list.map .f⟩])) := by kernel_rfl
/-- `glm_vec4_max` with its branches as a tree -/
def glm_vec4_max_dt (v : V4 α) : DT (α) :=
  let max := glm_vec3_max ⟨v.x, v.y, v.z⟩
  .br (flt max v.w) (
    .done v.w) (
    .done max)
theorem glm_vec4_max_dt_val (v : V4 α) : (glm_vec4_max_dt v).val = Cglm.glm_vec4_max v := by
  unfold glm_vec4_max_dt
  simp only [DT.val]
  kernel_rfl
theorem glm_vec4_max_run (v : V4 α) :
    C.glm_vec4_max.runT (α := α) [⟨false, v.list.map .f⟩] [.p 0 0] =
      (Cglm.glm_vec4_max_dt v).map fun r => some (some (.f r), [⟨false, v.list.map .f⟩]) := by kernel_rfl
/-- `glm_vec4_min` with its branches as a tree -/
def glm_vec4_min_dt (v : V4 α) : DT (α) :=
  let min := glm_vec3_min ⟨v.x, v.y, v.z⟩
  .br (flt v.w min) (
    .done v.w) (
    .done min)
theorem glm_vec4_min_dt_val (v : V4 α) : (glm_vec4_min_dt v).val = Cglm.glm_vec4_min v := by
  unfold glm_vec4_min_dt
  simp only [DT.val]
  kernel_rfl
theorem glm_vec4_min_run (v : V4 α) :
    C.glm_vec4_min.runT (α := α) [⟨false, v.list.map .f⟩] [.p 0 0] =
      (Cglm.glm_vec4_min_dt v).map fun r => some (some (.f r), [⟨false, v.list.map .f⟩]) := by kernel_rfl
theorem glm_vec4_isnan_run (v : V4 α) :
    C.glm_vec4_isnan.runT (α := α) [⟨false, v.list.map .f⟩] [.p 0 0] =
      .done (some (some (.b (Cglm.glm_vec4_isnan v)), [⟨false, v.list.map .f⟩])) := by kernel_rfl
theorem glm_vec4_isinf_run (v : V4 α) :
    C.glm_vec4_isinf.runT (α := α) [⟨false, v.list.map .f⟩] [.p 0 0] =
      .done (some (some (.b (Cglm.glm_vec4_isinf v)), [⟨false, v.list.map .f⟩])) := by kernel_rfl
theorem glm_vec4_isvalid_run (v : V4 α) :
    C.glm_vec4_isvalid.runT (α := α) [⟨false, v.list.map .f⟩] [.p 0 0] =
      .done (some (some (.b (Cglm.glm_vec4_isvalid v)), [⟨false, v.list.map .f⟩])) := by kernel_rfl
theorem glm_vec4_sign_run (v : V4 α) :
    C.glm_vec4_sign.runT (α := α) [⟨false, v.list.map .f⟩, ⟨true, List.replicate 4 .undef⟩] [.p 0 0, .p 1 0] =
      .done (some (none, [⟨false, v.list.map .f⟩, ⟨true, (Cglm.glm_vec4_sign v).list.map .f⟩])) := by kernel_rfl
theorem glm_vec4_sign_run_v (v : V4 α) :
    C.glm_vec4_sign.runT (α := α) [⟨true, v.list.map .f⟩] [.p 0 0, .p 0 0] =
      .done (some (none, [⟨true, (Cglm.glm_vec4_sign v).list.map .f⟩])) := by kernel_rfl
theorem glm_vec4_abs_run (v : V4 α) :
    C.glm_vec4_abs.runT (α := α) [⟨false, v.list.map .f⟩, ⟨true, List.replicate 4 .undef⟩] [.p 0 0, .p 1 0] =
      .done (some (none, [⟨false, v.list.map .f⟩, ⟨true, (Cglm.glm_vec4_abs v).list.map .f⟩])) := by kernel_rfl
theorem glm_vec4_abs_run_v (v : V4 α) :
    C.glm_vec4_abs.runT (α := α) [⟨true, v.list.map .f⟩] [.p 0 0, .p 0 0] =
      .done (some (none, [⟨true, (Cglm.glm_vec4_abs v).list.map .f⟩])) := by kernel_rfl
theorem glm_vec4_fract_run (v : V4 α) :
    C.glm_vec4_fract.runT (α := α) [⟨false, v.list.map .f⟩, ⟨true, List.replicate 4 .undef⟩] [.p 0 0, .p 1 0] =
      .done (some (none, [⟨false, v.list.map .f⟩, ⟨true, (Cglm.glm_vec4_fract v).list.map .f⟩])) := by kernel_rfl
theorem glm_vec4_fract_run_v (v : V4 α) :
    C.glm_vec4_fract.runT (α := α) [⟨true, v.list.map .f⟩] [.p 0 0, .p 0 0] =
      .done (some (none, [⟨true, (Cglm.glm_vec4_fract v).list.map .f⟩])) := by kernel_rfl
theorem glm_vec4_floor_run (v : V4 α) :
    C.glm_vec4_floor.runT (α := α) [⟨false, v.list.map .f⟩, ⟨true, List.replicate 4 .undef⟩] [.p 0 0, .p 1 0] =
      .done (some (none, [⟨false, v.list.map .f⟩, ⟨true, (Cglm.glm_vec4_floor v).list.map .f⟩])) := by kernel_rfl
theorem glm_vec4_floor_run_v (v : V4 α) :
    C.glm_vec4_floor.runT (α := α) [⟨true, v.list.map .f⟩] [.p 0 0, .p 0 0] =
      .done (some (none, [⟨true, (Cglm.glm_vec4_floor v).list.map .f⟩])) := by kernel_rfl
theorem glm_vec4_mods_run (v : V4 α) (s : α) :
    C.glm_vec4_mods.runT (α := α) [⟨false, v.list.map .f⟩, ⟨true, List.replicate 4 .undef⟩] [.p 0 0, .f s, .p 1 0] =
      .done (some (none, [⟨false, v.list.map .f⟩, ⟨true, (Cglm.glm_vec4_mods v s).list.map .f⟩])) := by kernel_rfl
theorem glm_vec4_mods_run_v (v : V4 α) (s : α) :
    C.glm_vec4_mods.runT (α := α) [⟨true, v.list.map .f⟩] [.p 0 0, .f s, .p 0 0] =
      .done (some (none, [⟨true, (Cglm.glm_vec4_mods v s).list.map .f⟩])) := by kernel_rfl
theorem glm_vec4_steps_run (edge : α) (x : V4 α) :
    C.glm_vec4_steps.runT (α := α) [⟨false, x.list.map .f⟩, ⟨true, List.replicate 4 .undef⟩] [.f edge, .p 0 0, .p 1 0] =
      .done (some (none, [⟨false, x.list.map .f⟩, ⟨true, (Cglm.glm_vec4_steps edge x).list.map .f⟩])) := by kernel_rfl
theorem glm_vec4_steps_run_x (edge : α) (x : V4 α) :
    C.glm_vec4_steps.runT (α := α) [⟨true, x.list.map .f⟩] [.f edge, .p 0 0, .p 0 0] =
      .done (some (none, [⟨true, (Cglm.glm_vec4_steps edge x).list.map .f⟩])) := by kernel_rfl
theorem glm_vec4_stepr_run (edge : V4 α) (x : α) :
    C.glm_vec4_stepr.runT (α := α) [⟨false, edge.list.map .f⟩, ⟨true, List.replicate 4 .undef⟩] [.p 0 0, .f x, .p 1 0] =
      .done (some (none, [⟨false, edge.list.map .f⟩, ⟨true, (Cglm.glm_vec4_stepr edge x).list.map .f⟩])) := by kernel_rfl
theorem glm_vec4_stepr_run_edge (edge : V4 α) (x : α) :
    C.glm_vec4_stepr.runT (α := α) [⟨true, edge.list.map .f⟩] [.p 0 0, .f x, .p 0 0] =
      .done (some (none, [⟨true, (Cglm.glm_vec4_stepr edge x).list.map .f⟩])) := by kernel_rfl
theorem glm_vec4_hadd_run (v : V4 α) :
    C.glm_vec4_hadd.runT (α := α) [⟨false, v.list.map .f⟩] [.p 0 0] =
      .done (some (some (.f (Cglm.glm_vec4_hadd v)), [⟨false, v.list.map .f⟩])) := by kernel_rfl
theorem glm_vec4_sqrt_run (v : V4 α) :
    C.glm_vec4_sqrt.runT (α := α) [⟨false, v.list.map .f⟩, ⟨true, List.replicate 4 .undef⟩] [.p 0 0, .p 1 0] =
      .done (some (none, [⟨false, v.list.map .f⟩, ⟨true, (Cglm.glm_vec4_sqrt v).list.map .f⟩])) := by kernel_rfl
theorem glm_vec4_sqrt_run_v (v : V4 α) :
    C.glm_vec4_sqrt.runT (α := α) [⟨true, v.list.map .f⟩] [.p 0 0, .p 0 0] =
      .done (some (none, [⟨true, (Cglm.glm_vec4_sqrt v).list.map .f⟩])) := by kernel_rfl

end Cglm

end Vec4ExtRun

section Vec4Run

/-! Runs of the functions of include/cglm/vec4.h on canonical memories. -/

set_option linter.unusedVariables false
set_option linter.unusedSectionVars false

namespace Cglm
open CMem

variable {α : Type} [Add α] [Sub α] [Mul α] [Div α] [Neg α] [CFloat α]

theorem glm_vec4_run (v3 : V3 α) (last : α) :
    C.glm_vec4.runT (α := α) [⟨false, v3.list.map .f⟩, ⟨true, List.replicate 4 .undef⟩] [.p 0 0, .f last, .p 1 0] =
      .done (some (none, [⟨false, v3.list.map .f⟩, ⟨true, (Cglm.glm_vec4 v3 last).list.map .f⟩])) := by kernel_rfl
theorem glm_vec4_copy3_run (a : V4 α) :
    C.glm_vec4_copy3.runT (α := α) [⟨false, a.list.map .f⟩, ⟨true, List.replicate 3 .undef⟩] [.p 0 0, .p 1 0] =
      .done (some (none, [⟨false, a.list.map .f⟩, ⟨true, (Cglm.glm_vec4_copy3 a).list.map .f⟩])) := by kernel_rfl
theorem glm_vec4_copy_run (v : V4 α) :
    C.glm_vec4_copy.runT (α := α) [⟨false, v.list.map .f⟩, ⟨true, List.replicate 4 .undef⟩] [.p 0 0, .p 1 0] =
      .done (some (none, [⟨false, v.list.map .f⟩, ⟨true, (Cglm.glm_vec4_copy v).list.map .f⟩])) := by kernel_rfl
theorem glm_vec4_copy_run_v (v : V4 α) :
    C.glm_vec4_copy.runT (α := α) [⟨true, v.list.map .f⟩] [.p 0 0, .p 0 0] =
      .done (some (none, [⟨true, (Cglm.glm_vec4_copy v).list.map .f⟩])) := by kernel_rfl
theorem glm_vec4_ucopy_run (v : V4 α) :
    C.glm_vec4_ucopy.runT (α := α) [⟨false, v.list.map .f⟩, ⟨true, List.replicate 4 .undef⟩] [.p 0 0, .p 1 0] =
      .done (some (none, [⟨false, v.list.map .f⟩, ⟨true, (Cglm.glm_vec4_ucopy v).list.map .f⟩])) := by kernel_rfl
theorem glm_vec4_ucopy_run_v (v : V4 α) :
    C.glm_vec4_ucopy.runT (α := α) [⟨true, v.list.map .f⟩] [.p 0 0, .p 0 0] =
      .done (some (none, [⟨true, (Cglm.glm_vec4_ucopy v).list.map .f⟩])) := by kernel_rfl
theorem glm_vec4_zero_run :
    C.glm_vec4_zero.runT (α := α) [⟨true, List.replicate 4 .undef⟩] [.p 0 0] =
      .done (some (none, [⟨true, (Cglm.glm_vec4_zero).list.map .f⟩])) := by kernel_rfl
theorem glm_vec4_one_run :
    C.glm_vec4_one.runT (α := α) [⟨true, List.replicate 4 .undef⟩] [.p 0 0] =
      .done (some (none, [⟨true, (Cglm.glm_vec4_one).list.map .f⟩])) := by kernel_rfl
theorem glm_vec4_dot_run (a : V4 α) (b : V4 α) :
    C.glm_vec4_dot.runT (α := α) [⟨false, a.list.map .f⟩, ⟨false, b.list.map .f⟩] [.p 0 0, .p 1 0] =
      .done (some (some (.f (Cglm.glm_vec4_dot a b)), [⟨false, a.list.map .f⟩, ⟨false, b.list.map .f⟩])) := by kernel_rfl
theorem glm_vec4_norm2_run (v : V4 α) :
    C.glm_vec4_norm2.runT (α := α) [⟨false, v.list.map .f⟩] [.p 0 0] =
      .done (some (some (.f (Cglm.glm_vec4_norm2 v)), [⟨false, v.list.map .f⟩])) := by kernel_rfl
theorem glm_vec4_norm_run (v : V4 α) :
    C.glm_vec4_norm.runT (α := α) [⟨false, v.list.map .f⟩] [.p 0 0] =
      .done (some (some (.f (Cglm.glm_vec4_norm v)), [⟨false, v.list.map .f⟩])) := by kernel_rfl
theorem glm_vec4_norm_one_run (v : V4 α) :
    C.glm_vec4_norm_one.runT (α := α) [⟨false, v.list.map .f⟩] [.p 0 0] =
      .done (some (some (.f (Cglm.glm_vec4_norm_one v)), [⟨false, v.list.map .f⟩])) := by kernel_rfl
theorem glm_vec4_norm_inf_run (v : V4 α) :
    C.glm_vec4_norm_inf.runT (α := α) [⟨false, v.list.map .f⟩] [.p 0 0] =
      .done (some (some (.f (Cglm.glm_vec4_norm_inf v)), [⟨false, v.list.map .f⟩])) := by kernel_rfl
theorem glm_vec4_add_run (a : V4 α) (b : V4 α) :
    C.glm_vec4_add.runT (α := α) [⟨false, a.list.map .f⟩, ⟨false, b.list.map .f⟩, ⟨true, List.replicate 4 .undef⟩] [.p 0 0, .p 1 0, .p 2 0] =
      .done (some (none, [⟨false, a.list.map .f⟩, ⟨false, b.list.map .f⟩, ⟨true, (Cglm.glm_vec4_add a b).list.map .f⟩])) := by kernel_rfl
theorem glm_vec4_add_run_b (a : V4 α) (b : V4 α) :
    C.glm_vec4_add.runT (α := α) [⟨false, a.list.map .f⟩, ⟨true, b.list.map .f⟩] [.p 0 0, .p 1 0, .p 1 0] =
      .done (some (none, [⟨false, a.list.map .f⟩, ⟨true, (Cglm.glm_vec4_add a b).list.map .f⟩])) := by kernel_rfl
theorem glm_vec4_add_run_a (a : V4 α) (b : V4 α) :
    C.glm_vec4_add.runT (α := α) [⟨false, b.list.map .f⟩, ⟨true, a.list.map .f⟩] [.p 1 0, .p 0 0, .p 1 0] =
      .done (some (none, [⟨false, b.list.map .f⟩, ⟨true, (Cglm.glm_vec4_add a b).list.map .f⟩])) := by kernel_rfl
theorem glm_vec4_add_run_a_b (a : V4 α) :
    C.glm_vec4_add.runT (α := α) [⟨true, a.list.map .f⟩] [.p 0 0, .p 0 0, .p 0 0] =
      .done (some (none, [⟨true, (Cglm.glm_vec4_add a a).list.map .f⟩])) := by kernel_rfl
theorem glm_vec4_adds_run (v : V4 α) (s : α) :
    C.glm_vec4_adds.runT (α := α) [⟨false, v.list.map .f⟩, ⟨true, List.replicate 4 .undef⟩] [.p 0 0, .f s, .p 1 0] =
      .done (some (none, [⟨false, v.list.map .f⟩, ⟨true, (Cglm.glm_vec4_adds v s).list.map .f⟩])) := by kernel_rfl
theorem glm_vec4_adds_run_v (v : V4 α) (s : α) :
    C.glm_vec4_adds.runT (α := α) [⟨true, v.list.map .f⟩] [.p 0 0, .f s, .p 0 0] =
      .done (some (none, [⟨true, (Cglm.glm_vec4_adds v s).list.map .f⟩])) := by kernel_rfl
theorem glm_vec4_sub_run (a : V4 α) (b : V4 α) :
    C.glm_vec4_sub.runT (α := α) [⟨false, a.list.map .f⟩, ⟨false, b.list.map .f⟩, ⟨true, List.replicate 4 .undef⟩] [.p 0 0, .p 1 0, .p 2 0] =
      .done (some (none, [⟨false, a.list.map .f⟩, ⟨false, b.list.map .f⟩, ⟨true, (Cglm.glm_vec4_sub a b).list.map .f⟩])) := by kernel_rfl
theorem glm_vec4_sub_run_b (a : V4 α) (b : V4 α) :
    C.glm_vec4_sub.runT (α := α) [⟨false, a.list.map .f⟩, ⟨true, b.list.map .f⟩] [.p 0 0, .p 1 0, .p 1 0] =
      .done (some (none, [⟨false, a.list.map .f⟩, ⟨true, (Cglm.glm_vec4_sub a b).list.map .f⟩])) := by kernel_rfl
theorem glm_vec4_sub_run_a (a : V4 α) (b : V4 α) :
    C.glm_vec4_sub.runT (α := α) [⟨false, b.list.map .f⟩, ⟨true, a.list.map .f⟩] [.p 1 0, .p 0 0, .p 1 0] =
      .done (some (none, [⟨false, b.list.map .f⟩, ⟨true, (Cglm.glm_vec4_sub a b).list.map .f⟩])) := by kernel_rfl
theorem glm_vec4_sub_run_a_b (a : V4 α) :
    C.glm_vec4_sub.runT (α := α) [⟨true, a.list.map .f⟩] [.p 0 0, .p 0 0, .p 0 0] =
      .done (some (none, [⟨true, (Cglm.glm_vec4_sub a a).list.map .f⟩])) := by kernel_rfl
theorem glm_vec4_subs_run (v : V4 α) (s : α) :
    C.glm_vec4_subs.runT (α := α) [⟨false, v.list.map .f⟩, ⟨true, List.replicate 4 .undef⟩] [.p 0 0, .f s, .p 1 0] =
      .done (some (none, [⟨false, v.list.map .f⟩, ⟨true, (Cglm.glm_vec4_subs v s).list.map .f⟩])) := by kernel_rfl
theorem glm_vec4_subs_run_v (v : V4 α) (s : α) :
    C.glm_vec4_subs.runT (α := α) [⟨true, v.list.map .f⟩] [.p 0 0, .f s, .p 0 0] =
      .done (some (none, [⟨true, (Cglm.glm_vec4_subs v s).list.map .f⟩])) := by kernel_rfl
theorem glm_vec4_mul_run (a : V4 α) (b : V4 α) :
    C.glm_vec4_mul.runT (α := α) [⟨false, a.list.map .f⟩, ⟨false, b.list.map .f⟩, ⟨true, List.replicate 4 .undef⟩] [.p 0 0, .p 1 0, .p 2 0] =
      .done (some (none, [⟨false, a.list.map .f⟩, ⟨false, b.list.map .f⟩, ⟨true, (Cglm.glm_vec4_mul a b).list.map .f⟩])) := by kernel_rfl
theorem glm_vec4_mul_run_b (a : V4 α) (b : V4 α) :
    C.glm_vec4_mul.runT (α := α) [⟨false, a.list.map .f⟩, ⟨true, b.list.map .f⟩] [.p 0 0, .p 1 0, .p 1 0] =
      .done (some (none, [⟨false, a.list.map .f⟩, ⟨true, (Cglm.glm_vec4_mul a b).list.map .f⟩])) := by kernel_rfl
theorem glm_vec4_mul_run_a (a : V4 α) (b : V4 α) :
    C.glm_vec4_mul.runT (α := α) [⟨false, b.list.map .f⟩, ⟨true, a.list.map .f⟩] [.p 1 0, .p 0 0, .p 1 0] =
      .done (some (none, [⟨false, b.list.map .f⟩, ⟨true, (Cglm.glm_vec4_mul a b).list.map .f⟩])) := by kernel_rfl
theorem glm_vec4_mul_run_a_b (a : V4 α) :
    C.glm_vec4_mul.runT (α := α) [⟨true, a.list.map .f⟩] [.p 0 0, .p 0 0, .p 0 0] =
      .done (some (none, [⟨true, (Cglm.glm_vec4_mul a a).list.map .f⟩])) := by kernel_rfl
theorem glm_vec4_scale_run (v : V4 α) (s : α) :
    C.glm_vec4_scale.runT (α := α) [⟨false, v.list.map .f⟩, ⟨true, List.replicate 4 .undef⟩] [.p 0 0, .f s, .p 1 0] =
      .done (some (none, [⟨false, v.list.map .f⟩, ⟨true, (Cglm.glm_vec4_scale v s).list.map .f⟩])) := by kernel_rfl
theorem glm_vec4_scale_run_v (v : V4 α) (s : α) :
    C.glm_vec4_scale.runT (α := α) [⟨true, v.list.map .f⟩] [.p 0 0, .f s, .p 0 0] =
      .done (some (none, [⟨true, (Cglm.glm_vec4_scale v s).list.map .f⟩])) := by kernel_rfl
/-- `glm_vec4_scale_as` with its branches as a tree -/
def glm_vec4_scale_as_dt (v : V4 α) (s : α) : DT (V4 α) :=
  let norm := glm_vec4_norm v
  .br (flt norm (lit 0.00000011920928955078125)) (
    .done glm_vec4_zero) (
    .done (glm_vec4_scale v (s / norm)))
theorem glm_vec4_scale_as_dt_val (v : V4 α) (s : α) : (glm_vec4_scale_as_dt v s).val = Cglm.glm_vec4_scale_as v s := by
  unfold glm_vec4_scale_as_dt
  simp only [DT.val]
  kernel_rfl
theorem glm_vec4_scale_as_run (v : V4 α) (s : α) :
    C.glm_vec4_scale_as.runT (α := α) [⟨false, v.list.map .f⟩, ⟨true, List.replicate 4 .undef⟩] [.p 0 0, .f s, .p 1 0] =
      (Cglm.glm_vec4_scale_as_dt v s).map fun r => some (none, [⟨false, v.list.map .f⟩, ⟨true, r.list.map .f⟩]) := by kernel_rfl
theorem glm_vec4_scale_as_run_v (v : V4 α) (s : α) :
    C.glm_vec4_scale_as.runT (α := α) [⟨true, v.list.map .f⟩] [.p 0 0, .f s, .p 0 0] =
      (Cglm.glm_vec4_scale_as_dt v s).map fun r => some (none, [⟨true, r.list.map .f⟩]) := by kernel_rfl
theorem glm_vec4_div_run (a : V4 α) (b : V4 α) :
    C.glm_vec4_div.runT (α := α) [⟨false, a.list.map .f⟩, ⟨false, b.list.map .f⟩, ⟨true, List.replicate 4 .undef⟩] [.p 0 0, .p 1 0, .p 2 0] =
      .done (some (none, [⟨false, a.list.map .f⟩, ⟨false, b.list.map .f⟩, ⟨true, (Cglm.glm_vec4_div a b).list.map .f⟩])) := by kernel_rfl
theorem glm_vec4_div_run_b (a : V4 α) (b : V4 α) :
    C.glm_vec4_div.runT (α := α) [⟨false, a.list.map .f⟩, ⟨true, b.list.map .f⟩] [.p 0 0, .p 1 0, .p 1 0] =
      .done (some (none, [⟨false, a.list.map .f⟩, ⟨true, (Cglm.glm_vec4_div a b).list.map .f⟩])) := by kernel_rfl
theorem glm_vec4_div_run_a (a : V4 α) (b : V4 α) :
    C.glm_vec4_div.runT (α := α) [⟨false, b.list.map .f⟩, ⟨true, a.list.map .f⟩] [.p 1 0, .p 0 0, .p 1 0] =
      .done (some (none, [⟨false, b.list.map .f⟩, ⟨true, (Cglm.glm_vec4_div a b).list.map .f⟩])) := by kernel_rfl
theorem glm_vec4_div_run_a_b (a : V4 α) :
    C.glm_vec4_div.runT (α := α) [⟨true, a.list.map .f⟩] [.p 0 0, .p 0 0, .p 0 0] =
      .done (some (none, [⟨true, (Cglm.glm_vec4_div a a).list.map .f⟩])) := by kernel_rfl
theorem glm_vec4_divs_run (v : V4 α) (s : α) :
    C.glm_vec4_divs.runT (α := α) [⟨false, v.list.map .f⟩, ⟨true, List.replicate 4 .undef⟩] [.p 0 0, .f s, .p 1 0] =
      .done (some (none, [⟨false, v.list.map .f⟩, ⟨true, (Cglm.glm_vec4_divs v s).list.map .f⟩])) := by kernel_rfl
theorem glm_vec4_divs_run_v (v : V4 α) (s : α) :
    C.glm_vec4_divs.runT (α := α) [⟨true, v.list.map .f⟩] [.p 0 0, .f s, .p 0 0] =
      .done (some (none, [⟨true, (Cglm.glm_vec4_divs v s).list.map .f⟩])) := by kernel_rfl
theorem glm_vec4_addadd_run (a : V4 α) (b : V4 α) (dest : V4 α) :
    C.glm_vec4_addadd.runT (α := α) [⟨false, a.list.map .f⟩, ⟨false, b.list.map .f⟩, ⟨true, dest.list.map .f⟩] [.p 0 0, .p 1 0, .p 2 0] =
      .done (some (none, [⟨false, a.list.map .f⟩, ⟨false, b.list.map .f⟩, ⟨true, (Cglm.glm_vec4_addadd a b dest).list.map .f⟩])) := by kernel_rfl
theorem glm_vec4_addadd_run_b (a : V4 α) (dest : V4 α) :
    C.glm_vec4_addadd.runT (α := α) [⟨false, a.list.map .f⟩, ⟨true, dest.list.map .f⟩] [.p 0 0, .p 1 0, .p 1 0] =
      .done (some (none, [⟨false, a.list.map .f⟩, ⟨true, (Cglm.glm_vec4_addadd a dest dest).list.map .f⟩])) := by kernel_rfl
theorem glm_vec4_addadd_run_a (dest : V4 α) (b : V4 α) :
    C.glm_vec4_addadd.runT (α := α) [⟨false, b.list.map .f⟩, ⟨true, dest.list.map .f⟩] [.p 1 0, .p 0 0, .p 1 0] =
      .done (some (none, [⟨false, b.list.map .f⟩, ⟨true, (Cglm.glm_vec4_addadd dest b dest).list.map .f⟩])) := by kernel_rfl
theorem glm_vec4_addadd_run_a_b (dest : V4 α) :
    C.glm_vec4_addadd.runT (α := α) [⟨true, dest.list.map .f⟩] [.p 0 0, .p 0 0, .p 0 0] =
      .done (some (none, [⟨true, (Cglm.glm_vec4_addadd dest dest dest).list.map .f⟩])) := by kernel_rfl
theorem glm_vec4_subadd_run (a : V4 α) (b : V4 α) (dest : V4 α) :
    C.glm_vec4_subadd.runT (α := α) [⟨false, a.list.map .f⟩, ⟨false, b.list.map .f⟩, ⟨true, dest.list.map .f⟩] [.p 0 0, .p 1 0, .p 2 0] =
      .done (some (none, [⟨false, a.list.map .f⟩, ⟨false, b.list.map .f⟩, ⟨true, (Cglm.glm_vec4_subadd a b dest).list.map .f⟩])) := by kernel_rfl
theorem glm_vec4_subadd_run_b (a : V4 α) (dest : V4 α) :
    C.glm_vec4_subadd.runT (α := α) [⟨false, a.list.map .f⟩, ⟨true, dest.list.map .f⟩] [.p 0 0, .p 1 0, .p 1 0] =
      .done (some (none, [⟨false, a.list.map .f⟩, ⟨true, (Cglm.glm_vec4_subadd a dest dest).list.map .f⟩])) := by kernel_rfl
theorem glm_vec4_subadd_run_a (dest : V4 α) (b : V4 α) :
    C.glm_vec4_subadd.runT (α := α) [⟨false, b.list.map .f⟩, ⟨true, dest.list.map .f⟩] [.p 1 0, .p 0 0, .p 1 0] =
      .done (some (none, [⟨false, b.list.map .f⟩, ⟨true, (Cglm.glm_vec4_subadd dest b dest).list.map .f⟩])) := by kernel_rfl
theorem glm_vec4_subadd_run_a_b (dest : V4 α) :
    C.glm_vec4_subadd.runT (α := α) [⟨true, dest.list.map .f⟩] [.p 0 0, .p 0 0, .p 0 0] =
      .done (some (none, [⟨true, (Cglm.glm_vec4_subadd dest dest dest).list.map .f⟩])) := by kernel_rfl
theorem glm_vec4_muladd_run (a : V4 α) (b : V4 α) (dest : V4 α) :
    C.glm_vec4_muladd.runT (α := α) [⟨false, a.list.map .f⟩, ⟨false, b.list.map .f⟩, ⟨true, dest.list.map .f⟩] [.p 0 0, .p 1 0, .p 2 0] =
      .done (some (none, [⟨false, a.list.map .f⟩, ⟨false, b.list.map .f⟩, ⟨true, (Cglm.glm_vec4_muladd a b dest).list.map .f⟩])) := by kernel_rfl
theorem glm_vec4_muladd_run_b (a : V4 α) (dest : V4 α) :
    C.glm_vec4_muladd.runT (α := α) [⟨false, a.list.map .f⟩, ⟨true, dest.list.map .f⟩] [.p 0 0, .p 1 0, .p 1 0] =
      .done (some (none, [⟨false, a.list.map .f⟩, ⟨true, (Cglm.glm_vec4_muladd a dest dest).list.map .f⟩])) := by kernel_rfl
theorem glm_vec4_muladd_run_a (dest : V4 α) (b : V4 α) :
    C.glm_vec4_muladd.runT (α := α) [⟨false, b.list.map .f⟩, ⟨true, dest.list.map .f⟩] [.p 1 0, .p 0 0, .p 1 0] =
      .done (some (none, [⟨false, b.list.map .f⟩, ⟨true, (Cglm.glm_vec4_muladd dest b dest).list.map .f⟩])) := by kernel_rfl
theorem glm_vec4_muladd_run_a_b (dest : V4 α) :
    C.glm_vec4_muladd.runT (α := α) [⟨true, dest.list.map .f⟩] [.p 0 0, .p 0 0, .p 0 0] =
      .done (some (none, [⟨true, (Cglm.glm_vec4_muladd dest dest dest).list.map .f⟩])) := by kernel_rfl
theorem glm_vec4_muladds_run (a : V4 α) (s : α) (dest : V4 α) :
    C.glm_vec4_muladds.runT (α := α) [⟨false, a.list.map .f⟩, ⟨true, dest.list.map .f⟩] [.p 0 0, .f s, .p 1 0] =
      .done (some (none, [⟨false, a.list.map .f⟩, ⟨true, (Cglm.glm_vec4_muladds a s dest).list.map .f⟩])) := by kernel_rfl
theorem glm_vec4_muladds_run_a (dest : V4 α) (s : α) :
    C.glm_vec4_muladds.runT (α := α) [⟨true, dest.list.map .f⟩] [.p 0 0, .f s, .p 0 0] =
      .done (some (none, [⟨true, (Cglm.glm_vec4_muladds dest s dest).list.map .f⟩])) := by kernel_rfl
theorem glm_vec4_maxadd_run (a : V4 α) (b : V4 α) (dest : V4 α) :
    C.glm_vec4_maxadd.runT (α := α) [⟨false, a.list.map .f⟩, ⟨false, b.list.map .f⟩, ⟨true, dest.list.map .f⟩] [.p 0 0, .p 1 0, .p 2 0] =
      .done (some (none, [⟨false, a.list.map .f⟩, ⟨false, b.list.map .f⟩, ⟨true, (Cglm.glm_vec4_maxadd a b dest).list.map .f⟩])) := by kernel_rfl
theorem glm_vec4_maxadd_run_b (a : V4 α) (dest : V4 α) :
    C.glm_vec4_maxadd.runT (α := α) [⟨false, a.list.map .f⟩, ⟨true, dest.list.map .f⟩] [.p 0 0, .p 1 0, .p 1 0] =
      .done (some (none, [⟨false, a.list.map .f⟩, ⟨true, (Cglm.glm_vec4_maxadd a dest dest).list.map .f⟩])) := by kernel_rfl
theorem glm_vec4_maxadd_run_a (dest : V4 α) (b : V4 α) :
    C.glm_vec4_maxadd.runT (α := α) [⟨false, b.list.map .f⟩, ⟨true, dest.list.map .f⟩] [.p 1 0, .p 0 0, .p 1 0] =
      .done (some (none, [⟨false, b.list.map .f⟩, ⟨true, (Cglm.glm_vec4_maxadd dest b dest).list.map .f⟩])) := by kernel_rfl
theorem glm_vec4_maxadd_run_a_b (dest : V4 α) :
    C.glm_vec4_maxadd.runT (α := α) [⟨true, dest.list.map .f⟩] [.p 0 0, .p 0 0, .p 0 0] =
      .done (some (none, [⟨true, (Cglm.glm_vec4_maxadd dest dest dest).list.map .f⟩])) := by kernel_rfl
theorem glm_vec4_minadd_run (a : V4 α) (b : V4 α) (dest : V4 α) :
    C.glm_vec4_minadd.runT (α := α) [⟨false, a.list.map .f⟩, ⟨false, b.list.map .f⟩, ⟨true, dest.list.map .f⟩] [.p 0 0, .p 1 0, .p 2 0] =
      .done (some (none, [⟨false, a.list.map .f⟩, ⟨false, b.list.map .f⟩, ⟨true, (Cglm.glm_vec4_minadd a b dest).list.map .f⟩])) := by kernel_rfl
theorem glm_vec4_minadd_run_b (a : V4 α) (dest : V4 α) :
    C.glm_vec4_minadd.runT (α := α) [⟨false, a.list.map .f⟩, ⟨true, dest.list.map .f⟩] [.p 0 0, .p 1 0, .p 1 0] =
      .done (some (none, [⟨false, a.list.map .f⟩, ⟨true, (Cglm.glm_vec4_minadd a dest dest).list.map .f⟩])) := by kernel_rfl
theorem glm_vec4_minadd_run_a (dest : V4 α) (b : V4 α) :
    C.glm_vec4_minadd.runT (α := α) [⟨false, b.list.map .f⟩, ⟨true, dest.list.map .f⟩] [.p 1 0, .p 0 0, .p 1 0] =
      .done (some (none, [⟨false, b.list.map .f⟩, ⟨true, (Cglm.glm_vec4_minadd dest b dest).list.map .f⟩])) := by kernel_rfl
theorem glm_vec4_minadd_run_a_b (dest : V4 α) :
    C.glm_vec4_minadd.runT (α := α) [⟨true, dest.list.map .f⟩] [.p 0 0, .p 0 0, .p 0 0] =
      .done (some (none, [⟨true, (Cglm.glm_vec4_minadd dest dest dest).list.map .f⟩])) := by kernel_rfl
theorem glm_vec4_subsub_run (a : V4 α) (b : V4 α) (dest : V4 α) :
    C.glm_vec4_subsub.runT (α := α) [⟨false, a.list.map .f⟩, ⟨false, b.list.map .f⟩, ⟨true, dest.list.map .f⟩] [.p 0 0, .p 1 0, .p 2 0] =
      .done (some (none, [⟨false, a.list.map .f⟩, ⟨false, b.list.map .f⟩, ⟨true, (Cglm.glm_vec4_subsub a b dest).list.map .f⟩])) := by kernel_rfl
theorem glm_vec4_subsub_run_b (a : V4 α) (dest : V4 α) :
    C.glm_vec4_subsub.runT (α := α) [⟨false, a.list.map .f⟩, ⟨true, dest.list.map .f⟩] [.p 0 0, .p 1 0, .p 1 0] =
      .done (some (none, [⟨false, a.list.map .f⟩, ⟨true, (Cglm.glm_vec4_subsub a dest dest).list.map .f⟩])) := by kernel_rfl
theorem glm_vec4_subsub_run_a (dest : V4 α) (b : V4 α) :
    C.glm_vec4_subsub.runT (α := α) [⟨false, b.list.map .f⟩, ⟨true, dest.list.map .f⟩] [.p 1 0, .p 0 0, .p 1 0] =
      .done (some (none, [⟨false, b.list.map .f⟩, ⟨true, (Cglm.glm_vec4_subsub dest b dest).list.map .f⟩])) := by kernel_rfl
theorem glm_vec4_subsub_run_a_b (dest : V4 α) :
    C.glm_vec4_subsub.runT (α := α) [⟨true, dest.list.map .f⟩] [.p 0 0, .p 0 0, .p 0 0] =
      .done (some (none, [⟨true, (Cglm.glm_vec4_subsub dest dest dest).list.map .f⟩])) := by kernel_rfl
theorem glm_vec4_addsub_run (a : V4 α) (b : V4 α) (dest : V4 α) :
    C.glm_vec4_addsub.runT (α := α) [⟨false, a.list.map .f⟩, ⟨false, b.list.map .f⟩, ⟨true, dest.list.map .f⟩] [.p 0 0, .p 1 0, .p 2 0] =
      .done (some (none, [⟨false, a.list.map .f⟩, ⟨false, b.list.map .f⟩, ⟨true, (Cglm.glm_vec4_addsub a b dest).list.map .f⟩])) := by kernel_rfl
theorem glm_vec4_addsub_run_b (a : V4 α) (dest : V4 α) :
    C.glm_vec4_addsub.runT (α := α) [⟨false, a.list.map .f⟩, ⟨true, dest.list.map .f⟩] [.p 0 0, .p 1 0, .p 1 0] =
      .done (some (none, [⟨false, a.list.map .f⟩, ⟨true, (Cglm.glm_vec4_addsub a dest dest).list.map .f⟩])) := by kernel_rfl
theorem glm_vec4_addsub_run_a (dest : V4 α) (b : V4 α) :
    C.glm_vec4_addsub.runT (α := α) [⟨false, b.list.map .f⟩, ⟨true, dest.list.map .f⟩] [.p 1 0, .p 0 0, .p 1 0] =
      .done (some (none, [⟨false, b.list.map .f⟩, ⟨true, (Cglm.glm_vec4_addsub dest b dest).list.map .f⟩])) := by kernel_rfl
theorem glm_vec4_addsub_run_a_b (dest : V4 α) :
    C.glm_vec4_addsub.runT (α := α) [⟨true, dest.list.map .f⟩] [.p 0 0, .p 0 0, .p 0 0] =
      .done (some (none, [⟨true, (Cglm.glm_vec4_addsub dest dest dest).list.map .f⟩])) := by kernel_rfl
theorem glm_vec4_mulsub_run (a : V4 α) (b : V4 α) (dest : V4 α) :
    C.glm_vec4_mulsub.runT (α := α) [⟨false, a.list.map .f⟩, ⟨false, b.list.map .f⟩, ⟨true, dest.list.map .f⟩] [.p 0 0, .p 1 0, .p 2 0] =
      .done (some (none, [⟨false, a.list.map .f⟩, ⟨false, b.list.map .f⟩, ⟨true, (Cglm.glm_vec4_mulsub a b dest).list.map .f⟩])) := by kernel_rfl
theorem glm_vec4_mulsub_run_b (a : V4 α) (dest : V4 α) :
    C.glm_vec4_mulsub.runT (α := α) [⟨false, a.list.map .f⟩, ⟨true, dest.list.map .f⟩] [.p 0 0, .p 1 0, .p 1 0] =
      .done (some (none, [⟨false, a.list.map .f⟩, ⟨true, (Cglm.glm_vec4_mulsub a dest dest).list.map .f⟩])) := by kernel_rfl
theorem glm_vec4_mulsub_run_a (dest : V4 α) (b : V4 α) :
    C.glm_vec4_mulsub.runT (α := α) [⟨false, b.list.map .f⟩, ⟨true, dest.list.map .f⟩] [.p 1 0, .p 0 0, .p 1 0] =
      .done (some (none, [⟨false, b.list.map .f⟩, ⟨true, (Cglm.glm_vec4_mulsub dest b dest).list.map .f⟩])) := by kernel_rfl
theorem glm_vec4_mulsub_run_a_b (dest : V4 α) :
    C.glm_vec4_mulsub.runT (α := α) [⟨true, dest.list.map .f⟩] [.p 0 0, .p 0 0, .p 0 0] =
      .done (some (none, [⟨true, (Cglm.glm_vec4_mulsub dest dest dest).list.map .f⟩])) := by kernel_rfl
theorem glm_vec4_mulsubs_run (a : V4 α) (s : α) (dest : V4 α) :
    C.glm_vec4_mulsubs.runT (α := α) [⟨false, a.list.map .f⟩, ⟨true, dest.list.map .f⟩] [.p 0 0, .f s, .p 1 0] =
      .done (some (none, [⟨false, a.list.map .f⟩, ⟨true, (Cglm.glm_vec4_mulsubs a s dest).list.map .f⟩])) := by kernel_rfl
theorem glm_vec4_mulsubs_run_a (dest : V4 α) (s : α) :
    C.glm_vec4_mulsubs.runT (α := α) [⟨true, dest.list.map .f⟩] [.p 0 0, .f s, .p 0 0] =
      .done (some (none, [⟨true, (Cglm.glm_vec4_mulsubs dest s dest).list.map .f⟩])) := by kernel_rfl
theorem glm_vec4_maxsub_run (a : V4 α) (b : V4 α) (dest : V4 α) :
    C.glm_vec4_maxsub.runT (α := α) [⟨false, a.list.map .f⟩, ⟨false, b.list.map .f⟩, ⟨true, dest.list.map .f⟩] [.p 0 0, .p 1 0, .p 2 0] =
      .done (some (none, [⟨false, a.list.map .f⟩, ⟨false, b.list.map .f⟩, ⟨true, (Cglm.glm_vec4_maxsub a b dest).list.map .f⟩])) := by kernel_rfl
theorem glm_vec4_maxsub_run_b (a : V4 α) (dest : V4 α) :
    C.glm_vec4_maxsub.runT (α := α) [⟨false, a.list.map .f⟩, ⟨true, dest.list.map .f⟩] [.p 0 0, .p 1 0, .p 1 0] =
      .done (some (none, [⟨false, a.list.map .f⟩, ⟨true, (Cglm.glm_vec4_maxsub a dest dest).list.map .f⟩])) := by kernel_rfl
theorem glm_vec4_maxsub_run_a (dest : V4 α) (b : V4 α) :
    C.glm_vec4_maxsub.runT (α := α) [⟨false, b.list.map .f⟩, ⟨true, dest.list.map .f⟩] [.p 1 0, .p 0 0, .p 1 0] =
      .done (some (none, [⟨false, b.list.map .f⟩, ⟨true, (Cglm.glm_vec4_maxsub dest b dest).list.map .f⟩])) := by kernel_rfl
theorem glm_vec4_maxsub_run_a_b (dest : V4 α) :
    C.glm_vec4_maxsub.runT (α := α) [⟨true, dest.list.map .f⟩] [.p 0 0, .p 0 0, .p 0 0] =
      .done (some (none, [⟨true, (Cglm.glm_vec4_maxsub dest dest dest).list.map .f⟩])) := by kernel_rfl
theorem glm_vec4_minsub_run (a : V4 α) (b : V4 α) (dest : V4 α) :
    C.glm_vec4_minsub.runT (α := α) [⟨false, a.list.map .f⟩, ⟨false, b.list.map .f⟩, ⟨true, dest.list.map .f⟩] [.p 0 0, .p 1 0, .p 2 0] =
      .done (some (none, [⟨false, a.list.map .f⟩, ⟨false, b.list.map .f⟩, ⟨true, (Cglm.glm_vec4_minsub a b dest).list.map .f⟩])) := by kernel_rfl
theorem glm_vec4_minsub_run_b (a : V4 α) (dest : V4 α) :
    C.glm_vec4_minsub.runT (α := α) [⟨false, a.list.map .f⟩, ⟨true, dest.list.map .f⟩] [.p 0 0, .p 1 0, .p 1 0] =
      .done (some (none, [⟨false, a.list.map .f⟩, ⟨true, (Cglm.glm_vec4_minsub a dest dest).list.map .f⟩])) := by kernel_rfl
theorem glm_vec4_minsub_run_a (dest : V4 α) (b : V4 α) :
    C.glm_vec4_minsub.runT (α := α) [⟨false, b.list.map .f⟩, ⟨true, dest.list.map .f⟩] [.p 1 0, .p 0 0, .p 1 0] =
      .done (some (none, [⟨false, b.list.map .f⟩, ⟨true, (Cglm.glm_vec4_minsub dest b dest).list.map .f⟩])) := by kernel_rfl
theorem glm_vec4_minsub_run_a_b (dest : V4 α) :
    C.glm_vec4_minsub.runT (α := α) [⟨true, dest.list.map .f⟩] [.p 0 0, .p 0 0, .p 0 0] =
      .done (some (none, [⟨true, (Cglm.glm_vec4_minsub dest dest dest).list.map .f⟩])) := by kernel_rfl
theorem glm_vec4_negate_to_run (v : V4 α) :
    C.glm_vec4_negate_to.runT (α := α) [⟨false, v.list.map .f⟩, ⟨true, List.replicate 4 .undef⟩] [.p 0 0, .p 1 0] =
      .done (some (none, [⟨false, v.list.map .f⟩, ⟨true, (Cglm.glm_vec4_negate_to v).list.map .f⟩])) := by kernel_rfl
theorem glm_vec4_negate_to_run_v (v : V4 α) :
    C.glm_vec4_negate_to.runT (α := α) [⟨true, v.list.map .f⟩] [.p 0 0, .p 0 0] =
      .done (some (none, [⟨true, (Cglm.glm_vec4_negate_to v).list.map .f⟩])) := by kernel_rfl
theorem glm_vec4_negate_run (v : V4 α) :
    C.glm_vec4_negate.runT (α := α) [⟨true, v.list.map .f⟩] [.p 0 0] =
      .done (some (none, [⟨true, (Cglm.glm_vec4_negate v).list.map .f⟩])) := by kernel_rfl
/-- `glm_vec4_normalize_to` with its branches as a tree -/
def glm_vec4_normalize_to_dt (v : V4 α) : DT (V4 α) :=
  let norm := glm_vec4_norm v
  .br (flt norm (lit 0.00000011920928955078125)) (
    .done glm_vec4_zero) (
    .done (glm_vec4_scale v ((lit 1) / norm)))
theorem glm_vec4_normalize_to_dt_val (v : V4 α) : (glm_vec4_normalize_to_dt v).val = Cglm.glm_vec4_normalize_to v := by
  unfold glm_vec4_normalize_to_dt
  simp only [DT.val]
  kernel_rfl
theorem glm_vec4_normalize_to_run (v : V4 α) :
    C.glm_vec4_normalize_to.runT (α := α) [⟨false, v.list.map .f⟩, ⟨true, List.replicate 4 .undef⟩] [.p 0 0, .p 1 0] =
      (Cglm.glm_vec4_normalize_to_dt v).map fun r => some (none, [⟨false, v.list.map .f⟩, ⟨true, r.list.map .f⟩]) := by kernel_rfl
theorem glm_vec4_normalize_to_run_v (v : V4 α) :
    C.glm_vec4_normalize_to.runT (α := α) [⟨true, v.list.map .f⟩] [.p 0 0, .p 0 0] =
      (Cglm.glm_vec4_normalize_to_dt v).map fun r => some (none, [⟨true, r.list.map .f⟩]) := by kernel_rfl
/-- `glm_vec4_normalize` with its branches as a tree -/
def glm_vec4_normalize_dt (v : V4 α) : DT (V4 α) :=
  DT.bind (glm_vec4_normalize_to_dt v) fun v_1 =>
  .done v_1
theorem glm_vec4_normalize_dt_val (v : V4 α) : (glm_vec4_normalize_dt v).val = Cglm.glm_vec4_normalize v := by
  unfold glm_vec4_normalize_dt
  simp only [DT.val_bind, DT.val, glm_vec4_normalize_to_dt_val]
  kernel_rfl
theorem glm_vec4_normalize_run (v : V4 α) :
    C.glm_vec4_normalize.runT (α := α) [⟨true, v.list.map .f⟩] [.p 0 0] =
      (Cglm.glm_vec4_normalize_dt v).map fun r => some (none, [⟨true, r.list.map .f⟩]) := by kernel_rfl
theorem glm_vec4_distance_run (a : V4 α) (b : V4 α) :
    C.glm_vec4_distance.runT (α := α) [⟨false, a.list.map .f⟩, ⟨false, b.list.map .f⟩] [.p 0 0, .p 1 0] =
      .done (some (some (.f (Cglm.glm_vec4_distance a b)), [⟨false, a.list.map .f⟩, ⟨false, b.list.map .f⟩])) := by kernel_rfl
theorem glm_vec4_distance2_run (a : V4 α) (b : V4 α) :
    C.glm_vec4_distance2.runT (α := α) [⟨false, a.list.map .f⟩, ⟨false, b.list.map .f⟩] [.p 0 0, .p 1 0] =
      .done (some (some (.f (Cglm.glm_vec4_distance2 a b)), [⟨false, a.list.map .f⟩, ⟨false, b.list.map .f⟩])) := by kernel_rfl
theorem glm_vec4_maxv_run (a : V4 α) (b : V4 α) :
    C.glm_vec4_maxv.runT (α := α) [⟨false, a.list.map .f⟩, ⟨false, b.list.map .f⟩, ⟨true, List.replicate 4 .undef⟩] [.p 0 0, .p 1 0, .p 2 0] =
      .done (some (none, [⟨false, a.list.map .f⟩, ⟨false, b.list.map .f⟩, ⟨true, (Cglm.glm_vec4_maxv a b).list.map .f⟩])) := by kernel_rfl
theorem glm_vec4_maxv_run_b (a : V4 α) (b : V4 α) :
    C.glm_vec4_maxv.runT (α := α) [⟨false, a.list.map .f⟩, ⟨true, b.list.map .f⟩] [.p 0 0, .p 1 0, .p 1 0] =
      .done (some (none, [⟨false, a.list.map .f⟩, ⟨true, (Cglm.glm_vec4_maxv a b).list.map .f⟩])) := by kernel_rfl
theorem glm_vec4_maxv_run_a (a : V4 α) (b : V4 α) :
    C.glm_vec4_maxv.runT (α := α) [⟨false, b.list.map .f⟩, ⟨true, a.list.map .f⟩] [.p 1 0, .p 0 0, .p 1 0] =
      .done (some (none, [⟨false, b.list.map .f⟩, ⟨true, (Cglm.glm_vec4_maxv a b).list.map .f⟩])) := by kernel_rfl
theorem glm_vec4_maxv_run_a_b (a : V4 α) :
    C.glm_vec4_maxv.runT (α := α) [⟨true, a.list.map .f⟩] [.p 0 0, .p 0 0, .p 0 0] =
      .done (some (none, [⟨true, (Cglm.glm_vec4_maxv a a).list.map .f⟩])) := by kernel_rfl
theorem glm_vec4_minv_run (a : V4 α) (b : V4 α) :
    C.glm_vec4_minv.runT (α := α) [⟨false, a.list.map .f⟩, ⟨false, b.list.map .f⟩, ⟨true, List.replicate 4 .undef⟩] [.p 0 0, .p 1 0, .p 2 0] =
      .done (some (none, [⟨false, a.list.map .f⟩, ⟨false, b.list.map .f⟩, ⟨true, (Cglm.glm_vec4_minv a b).list.map .f⟩])) := by kernel_rfl
theorem glm_vec4_minv_run_b (a : V4 α) (b : V4 α) :
    C.glm_vec4_minv.runT (α := α) [⟨false, a.list.map .f⟩, ⟨true, b.list.map .f⟩] [.p 0 0, .p 1 0, .p 1 0] =
      .done (some (none, [⟨false, a.list.map .f⟩, ⟨true, (Cglm.glm_vec4_minv a b).list.map .f⟩])) := by kernel_rfl
theorem glm_vec4_minv_run_a (a : V4 α) (b : V4 α) :
    C.glm_vec4_minv.runT (α := α) [⟨false, b.list.map .f⟩, ⟨true, a.list.map .f⟩] [.p 1 0, .p 0 0, .p 1 0] =
      .done (some (none, [⟨false, b.list.map .f⟩, ⟨true, (Cglm.glm_vec4_minv a b).list.map .f⟩])) := by kernel_rfl
theorem glm_vec4_minv_run_a_b (a : V4 α) :
    C.glm_vec4_minv.runT (α := α) [⟨true, a.list.map .f⟩] [.p 0 0, .p 0 0, .p 0 0] =
      .done (some (none, [⟨true, (Cglm.glm_vec4_minv a a).list.map .f⟩])) := by kernel_rfl
theorem glm_vec4_clamp_run (v : V4 α) (minVal : α) (maxVal : α) :
    C.glm_vec4_clamp.runT (α := α) [⟨true, v.list.map .f⟩] [.p 0 0, .f minVal, .f maxVal] =
      .done (some (none, [⟨true, (Cglm.glm_vec4_clamp v minVal maxVal).list.map .f⟩])) := by kernel_rfl
theorem glm_vec4_lerp_run (frm : V4 α) («to» : V4 α) (t : α) :
    C.glm_vec4_lerp.runT (α := α) [⟨false, frm.list.map .f⟩, ⟨false, «to».list.map .f⟩, ⟨true, List.replicate 4 .undef⟩] [.p 0 0, .p 1 0, .f t, .p 2 0] =
      .done (some (none, [⟨false, frm.list.map .f⟩, ⟨false, «to».list.map .f⟩, ⟨true, (Cglm.glm_vec4_lerp frm «to» t).list.map .f⟩])) := by kernel_rfl
theorem glm_vec4_lerp_run_to (frm : V4 α) («to» : V4 α) (t : α) :
    C.glm_vec4_lerp.runT (α := α) [⟨false, frm.list.map .f⟩, ⟨true, «to».list.map .f⟩] [.p 0 0, .p 1 0, .f t, .p 1 0] =
      .done (some (none, [⟨false, frm.list.map .f⟩, ⟨true, (Cglm.glm_vec4_lerp frm «to» t).list.map .f⟩])) := by kernel_rfl
theorem glm_vec4_lerp_run_from (frm : V4 α) («to» : V4 α) (t : α) :
    C.glm_vec4_lerp.runT (α := α) [⟨false, «to».list.map .f⟩, ⟨true, frm.list.map .f⟩] [.p 1 0, .p 0 0, .f t, .p 1 0] =
      .done (some (none, [⟨false, «to».list.map .f⟩, ⟨true, (Cglm.glm_vec4_lerp frm «to» t).list.map .f⟩])) := by kernel_rfl
theorem glm_vec4_lerp_run_from_to (frm : V4 α) (t : α) :
    C.glm_vec4_lerp.runT (α := α) [⟨true, frm.list.map .f⟩] [.p 0 0, .p 0 0, .f t, .p 0 0] =
      .done (some (none, [⟨true, (Cglm.glm_vec4_lerp frm frm t).list.map .f⟩])) := by kernel_rfl
theorem glm_vec4_lerpc_run (frm : V4 α) («to» : V4 α) (t : α) :
    C.glm_vec4_lerpc.runT (α := α) [⟨false, frm.list.map .f⟩, ⟨false, «to».list.map .f⟩, ⟨true, List.replicate 4 .undef⟩] [.p 0 0, .p 1 0, .f t, .p 2 0] =
      .done (some (none, [⟨false, frm.list.map .f⟩, ⟨false, «to».list.map .f⟩, ⟨true, (Cglm.glm_vec4_lerpc frm «to» t).list.map .f⟩])) := by kernel_rfl
theorem glm_vec4_lerpc_run_to (frm : V4 α) («to» : V4 α) (t : α) :
    C.glm_vec4_lerpc.runT (α := α) [⟨false, frm.list.map .f⟩, ⟨true, «to».list.map .f⟩] [.p 0 0, .p 1 0, .f t, .p 1 0] =
      .done (some (none, [⟨false, frm.list.map .f⟩, ⟨true, (Cglm.glm_vec4_lerpc frm «to» t).list.map .f⟩])) := by kernel_rfl
theorem glm_vec4_lerpc_run_from (frm : V4 α) («to» : V4 α) (t : α) :
    C.glm_vec4_lerpc.runT (α := α) [⟨false, «to».list.map .f⟩, ⟨true, frm.list.map .f⟩] [.p 1 0, .p 0 0, .f t, .p 1 0] =
      .done (some (none, [⟨false, «to».list.map .f⟩, ⟨true, (Cglm.glm_vec4_lerpc frm «to» t).list.map .f⟩])) := by kernel_rfl
theorem glm_vec4_lerpc_run_from_to (frm : V4 α) (t : α) :
    C.glm_vec4_lerpc.runT (α := α) [⟨true, frm.list.map .f⟩] [.p 0 0, .p 0 0, .f t, .p 0 0] =
      .done (some (none, [⟨true, (Cglm.glm_vec4_lerpc frm frm t).list.map .f⟩])) := by kernel_rfl
theorem glm_vec4_mix_run (frm : V4 α) («to» : V4 α) (t : α) :
    C.glm_vec4_mix.runT (α := α) [⟨false, frm.list.map .f⟩, ⟨false, «to».list.map .f⟩, ⟨true, List.replicate 4 .undef⟩] [.p 0 0, .p 1 0, .f t, .p 2 0] =
      .done (some (none, [⟨false, frm.list.map .f⟩, ⟨false, «to».list.map .f⟩, ⟨true, (Cglm.glm_vec4_mix frm «to» t).list.map .f⟩])) := by kernel_rfl
theorem glm_vec4_mix_run_to (frm : V4 α) («to» : V4 α) (t : α) :
    C.glm_vec4_mix.runT (α := α) [⟨false, frm.list.map .f⟩, ⟨true, «to».list.map .f⟩] [.p 0 0, .p 1 0, .f t, .p 1 0] =
      .done (some (none, [⟨false, frm.list.map .f⟩, ⟨true, (Cglm.glm_vec4_mix frm «to» t).list.map .f⟩])) := by kernel_rfl
theorem glm_vec4_mix_run_from (frm : V4 α) («to» : V4 α) (t : α) :
    C.glm_vec4_mix.runT (α := α) [⟨false, «to».list.map .f⟩, ⟨true, frm.list.map .f⟩] [.p 1 0, .p 0 0, .f t, .p 1 0] =
      .done (some (none, [⟨false, «to».list.map .f⟩, ⟨true, (Cglm.glm_vec4_mix frm «to» t).list.map .f⟩])) := by kernel_rfl
theorem glm_vec4_mix_run_from_to (frm : V4 α) (t : α) :
    C.glm_vec4_mix.runT (α := α) [⟨true, frm.list.map .f⟩] [.p 0 0, .p 0 0, .f t, .p 0 0] =
      .done (some (none, [⟨true, (Cglm.glm_vec4_mix frm frm t).list.map .f⟩])) := by kernel_rfl
theorem glm_vec4_mixc_run (frm : V4 α) («to» : V4 α) (t : α) :
    C.glm_vec4_mixc.runT (α := α) [⟨false, frm.list.map .f⟩, ⟨false, «to».list.map .f⟩, ⟨true, List.replicate 4 .undef⟩] [.p 0 0, .p 1 0, .f t, .p 2 0] =
      .done (some (none, [⟨false, frm.list.map .f⟩, ⟨false, «to».list.map .f⟩, ⟨true, (Cglm.glm_vec4_mixc frm «to» t).list.map .f⟩])) := by kernel_rfl
theorem glm_vec4_mixc_run_to (frm : V4 α) («to» : V4 α) (t : α) :
    C.glm_vec4_mixc.runT (α := α) [⟨false, frm.list.map .f⟩, ⟨true, «to».list.map .f⟩] [.p 0 0, .p 1 0, .f t, .p 1 0] =
      .done (some (none, [⟨false, frm.list.map .f⟩, ⟨true, (Cglm.glm_vec4_mixc frm «to» t).list.map .f⟩])) := by kernel_rfl
theorem glm_vec4_mixc_run_from (frm : V4 α) («to» : V4 α) (t : α) :
    C.glm_vec4_mixc.runT (α := α) [⟨false, «to».list.map .f⟩, ⟨true, frm.list.map .f⟩] [.p 1 0, .p 0 0, .f t, .p 1 0] =
      .done (some (none, [⟨false, «to».list.map .f⟩, ⟨true, (Cglm.glm_vec4_mixc frm «to» t).list.map .f⟩])) := by kernel_rfl
theorem glm_vec4_mixc_run_from_to (frm : V4 α) (t : α) :
    C.glm_vec4_mixc.runT (α := α) [⟨true, frm.list.map .f⟩] [.p 0 0, .p 0 0, .f t, .p 0 0] =
      .done (some (none, [⟨true, (Cglm.glm_vec4_mixc frm frm t).list.map .f⟩])) := by kernel_rfl
theorem glm_vec4_step_run (edge : V4 α) (x : V4 α) :
    C.glm_vec4_step.runT (α := α) [⟨false, edge.list.map .f⟩, ⟨false, x.list.map .f⟩, ⟨true, List.replicate 4 .undef⟩] [.p 0 0, .p 1 0, .p 2 0] =
      .done (some (none, [⟨false, edge.list.map .f⟩, ⟨false, x.list.map .f⟩, ⟨true, (Cglm.glm_vec4_step edge x).list.map .f⟩])) := by kernel_rfl
theorem glm_vec4_step_run_x (edge : V4 α) (x : V4 α) :
    C.glm_vec4_step.runT (α := α) [⟨false, edge.list.map .f⟩, ⟨true, x.list.map .f⟩] [.p 0 0, .p 1 0, .p 1 0] =
      .done (some (none, [⟨false, edge.list.map .f⟩, ⟨true, (Cglm.glm_vec4_step edge x).list.map .f⟩])) := by kernel_rfl
theorem glm_vec4_step_run_edge (edge : V4 α) (x : V4 α) :
    C.glm_vec4_step.runT (α := α) [⟨false, x.list.map .f⟩, ⟨true, edge.list.map .f⟩] [.p 1 0, .p 0 0, .p 1 0] =
      .done (some (none, [⟨false, x.list.map .f⟩, ⟨true, (Cglm.glm_vec4_step edge x).list.map .f⟩])) := by kernel_rfl
theorem glm_vec4_step_run_edge_x (edge : V4 α) :
    C.glm_vec4_step.runT (α := α) [⟨true, edge.list.map .f⟩] [.p 0 0, .p 0 0, .p 0 0] =
      .done (some (none, [⟨true, (Cglm.glm_vec4_step edge edge).list.map .f⟩])) := by kernel_rfl
theorem glm_vec4_smoothstep_uni_run (edge0 : α) (edge1 : α) (x : V4 α) :
    C.glm_vec4_smoothstep_uni.runT (α := α) [⟨false, x.list.map .f⟩, ⟨true, List.replicate 4 .undef⟩] [.f edge0, .f edge1, .p 0 0, .p 1 0] =
      .done (some (none, [⟨false, x.list.map .f⟩, ⟨true, (Cglm.glm_vec4_smoothstep_uni edge0 edge1 x).list.map .f⟩])) := by kernel_rfl
theorem glm_vec4_smoothstep_uni_run_x (edge0 : α) (edge1 : α) (x : V4 α) :
    C.glm_vec4_smoothstep_uni.runT (α := α) [⟨true, x.list.map .f⟩] [.f edge0, .f edge1, .p 0 0, .p 0 0] =
      .done (some (none, [⟨true, (Cglm.glm_vec4_smoothstep_uni edge0 edge1 x).list.map .f⟩])) := by kernel_rfl
theorem glm_vec4_smoothstep_run (edge0 : V4 α) (edge1 : V4 α) (x : V4 α) :
    C.glm_vec4_smoothstep.runT (α := α) [⟨false, edge0.list.map .f⟩, ⟨false, edge1.list.map .f⟩, ⟨false, x.list.map .f⟩, ⟨true, List.replicate 4 .undef⟩] [.p 0 0, .p 1 0, .p 2 0, .p 3 0] =
      .done (some (none, [⟨false, edge0.list.map .f⟩, ⟨false, edge1.list.map .f⟩, ⟨false, x.list.map .f⟩, ⟨true, (Cglm.glm_vec4_smoothstep edge0 edge1 x).list.map .f⟩])) := by kernel_rfl
theorem glm_vec4_smoothstep_run_x (edge0 : V4 α) (edge1 : V4 α) (x : V4 α) :
    C.glm_vec4_smoothstep.runT (α := α) [⟨false, edge0.list.map .f⟩, ⟨false, edge1.list.map .f⟩, ⟨true, x.list.map .f⟩] [.p 0 0, .p 1 0, .p 2 0, .p 2 0] =
      .done (some (none, [⟨false, edge0.list.map .f⟩, ⟨false, edge1.list.map .f⟩, ⟨true, (Cglm.glm_vec4_smoothstep edge0 edge1 x).list.map .f⟩])) := by kernel_rfl
theorem glm_vec4_smoothstep_run_edge1 (edge0 : V4 α) (edge1 : V4 α) (x : V4 α) :
    C.glm_vec4_smoothstep.runT (α := α) [⟨false, edge0.list.map .f⟩, ⟨false, x.list.map .f⟩, ⟨true, edge1.list.map .f⟩] [.p 0 0, .p 2 0, .p 1 0, .p 2 0] =
      .done (some (none, [⟨false, edge0.list.map .f⟩, ⟨false, x.list.map .f⟩, ⟨true, (Cglm.glm_vec4_smoothstep edge0 edge1 x).list.map .f⟩])) := by kernel_rfl
theorem glm_vec4_smoothstep_run_edge1_x (edge0 : V4 α) (edge1 : V4 α) :
    C.glm_vec4_smoothstep.runT (α := α) [⟨false, edge0.list.map .f⟩, ⟨true, edge1.list.map .f⟩] [.p 0 0, .p 1 0, .p 1 0, .p 1 0] =
      .done (some (none, [⟨false, edge0.list.map .f⟩, ⟨true, (Cglm.glm_vec4_smoothstep edge0 edge1 edge1).list.map .f⟩])) := by kernel_rfl
theorem glm_vec4_smoothstep_run_edge0 (edge0 : V4 α) (edge1 : V4 α) (x : V4 α) :
    C.glm_vec4_smoothstep.runT (α := α) [⟨false, edge1.list.map .f⟩, ⟨false, x.list.map .f⟩, ⟨true, edge0.list.map .f⟩] [.p 2 0, .p 0 0, .p 1 0, .p 2 0] =
      .done (some (none, [⟨false, edge1.list.map .f⟩, ⟨false, x.list.map .f⟩, ⟨true, (Cglm.glm_vec4_smoothstep edge0 edge1 x).list.map .f⟩])) := by kernel_rfl
theorem glm_vec4_smoothstep_run_edge0_x (edge0 : V4 α) (edge1 : V4 α) :
    C.glm_vec4_smoothstep.runT (α := α) [⟨false, edge1.list.map .f⟩, ⟨true, edge0.list.map .f⟩] [.p 1 0, .p 0 0, .p 1 0, .p 1 0] =
      .done (some (none, [⟨false, edge1.list.map .f⟩, ⟨true, (Cglm.glm_vec4_smoothstep edge0 edge1 edge0).list.map .f⟩])) := by kernel_rfl
theorem glm_vec4_smoothstep_run_edge0_edge1 (edge0 : V4 α) (x : V4 α) :
    C.glm_vec4_smoothstep.runT (α := α) [⟨false, x.list.map .f⟩, ⟨true, edge0.list.map .f⟩] [.p 1 0, .p 1 0, .p 0 0, .p 1 0] =
      .done (some (none, [⟨false, x.list.map .f⟩, ⟨true, (Cglm.glm_vec4_smoothstep edge0 edge0 x).list.map .f⟩])) := by kernel_rfl
theorem glm_vec4_smoothstep_run_edge0_edge1_x (edge0 : V4 α) :
    C.glm_vec4_smoothstep.runT (α := α) [⟨true, edge0.list.map .f⟩] [.p 0 0, .p 0 0, .p 0 0, .p 0 0] =
      .done (some (none, [⟨true, (Cglm.glm_vec4_smoothstep edge0 edge0 edge0).list.map .f⟩])) := by kernel_rfl
theorem glm_vec4_smoothinterp_run (frm : V4 α) («to» : V4 α) (t : α) :
    C.glm_vec4_smoothinterp.runT (α := α) [⟨false, frm.list.map .f⟩, ⟨false, «to».list.map .f⟩, ⟨true, List.replicate 4 .undef⟩] [.p 0 0, .p 1 0, .f t, .p 2 0] =
      .done (some (none, [⟨false, frm.list.map .f⟩, ⟨false, «to».list.map .f⟩, ⟨true, (Cglm.glm_vec4_smoothinterp frm «to» t).list.map .f⟩])) := by kernel_rfl
theorem glm_vec4_smoothinterp_run_to (frm : V4 α) («to» : V4 α) (t : α) :
    C.glm_vec4_smoothinterp.runT (α := α) [⟨false, frm.list.map .f⟩, ⟨true, «to».list.map .f⟩] [.p 0 0, .p 1 0, .f t, .p 1 0] =
      .done (some (none, [⟨false, frm.list.map .f⟩, ⟨true, (Cglm.glm_vec4_smoothinterp frm «to» t).list.map .f⟩])) := by kernel_rfl
theorem glm_vec4_smoothinterp_run_from (frm : V4 α) («to» : V4 α) (t : α) :
    C.glm_vec4_smoothinterp.runT (α := α) [⟨false, «to».list.map .f⟩, ⟨true, frm.list.map .f⟩] [.p 1 0, .p 0 0, .f t, .p 1 0] =
      .done (some (none, [⟨false, «to».list.map .f⟩, ⟨true, (Cglm.glm_vec4_smoothinterp frm «to» t).list.map .f⟩])) := by kernel_rfl
theorem glm_vec4_smoothinterp_run_from_to (frm : V4 α) (t : α) :
    C.glm_vec4_smoothinterp.runT (α := α) [⟨true, frm.list.map .f⟩] [.p 0 0, .p 0 0, .f t, .p 0 0] =
      .done (some (none, [⟨true, (Cglm.glm_vec4_smoothinterp frm frm t).list.map .f⟩])) := by kernel_rfl
theorem glm_vec4_smoothinterpc_run (frm : V4 α) («to» : V4 α) (t : α) :
    C.glm_vec4_smoothinterpc.runT (α := α) [⟨false, frm.list.map .f⟩, ⟨false, «to».list.map .f⟩, ⟨true, List.replicate 4 .undef⟩] [.p 0 0, .p 1 0, .f t, .p 2 0] =
      .done (some (none, [⟨false, frm.list.map .f⟩, ⟨false, «to».list.map .f⟩, ⟨true, (Cglm.glm_vec4_smoothinterpc frm «to» t).list.map .f⟩])) := by kernel_rfl
theorem glm_vec4_smoothinterpc_run_to (frm : V4 α) («to» : V4 α) (t : α) :
    C.glm_vec4_smoothinterpc.runT (α := α) [⟨false, frm.list.map .f⟩, ⟨true, «to».list.map .f⟩] [.p 0 0, .p 1 0, .f t, .p 1 0] =
      .done (some (none, [⟨false, frm.list.map .f⟩, ⟨true, (Cglm.glm_vec4_smoothinterpc frm «to» t).list.map .f⟩])) := by kernel_rfl
theorem glm_vec4_smoothinterpc_run_from (frm : V4 α) («to» : V4 α) (t : α) :
    C.glm_vec4_smoothinterpc.runT (α := α) [⟨false, «to».list.map .f⟩, ⟨true, frm.list.map .f⟩] [.p 1 0, .p 0 0, .f t, .p 1 0] =
      .done (some (none, [⟨false, «to».list.map .f⟩, ⟨true, (Cglm.glm_vec4_smoothinterpc frm «to» t).list.map .f⟩])) := by kernel_rfl
theorem glm_vec4_smoothinterpc_run_from_to (frm : V4 α) (t : α) :
    C.glm_vec4_smoothinterpc.runT (α := α) [⟨true, frm.list.map .f⟩] [.p 0 0, .p 0 0, .f t, .p 0 0] =
      .done (some (none, [⟨true, (Cglm.glm_vec4_smoothinterpc frm frm t).list.map .f⟩])) := by kernel_rfl
theorem glm_vec4_cubic_run (s : α) :
    C.glm_vec4_cubic.runT (α := α) [⟨true, List.replicate 4 .undef⟩] [.f s, .p 0 0] =
      .done (some (none, [⟨true, (Cglm.glm_vec4_cubic s).list.map .f⟩])) := by kernel_rfl
theorem glm_vec4_make_run (src : V4 α) :
    C.glm_vec4_make.runT (α := α) [⟨false, src.list.map .f⟩, ⟨true, List.replicate 4 .undef⟩] [.p 0 0, .p 1 0] =
      .done (some (none, [⟨false, src.list.map .f⟩, ⟨true, (Cglm.glm_vec4_make src).list.map .f⟩])) := by kernel_rfl
theorem glm_vec4_make_run_src (src : V4 α) :
    C.glm_vec4_make.runT (α := α) [⟨true, src.list.map .f⟩] [.p 0 0, .p 0 0] =
      .done (some (none, [⟨true, (Cglm.glm_vec4_make src).list.map .f⟩])) := by kernel_rfl
theorem glm_vec4_reflect_run (v : V4 α) (n : V4 α) :
    C.glm_vec4_reflect.runT (α := α) [⟨false, v.list.map .f⟩, ⟨false, n.list.map .f⟩, ⟨true, List.replicate 4 .undef⟩] [.p 0 0, .p 1 0, .p 2 0] =
      .done (some (none, [⟨false, v.list.map .f⟩, ⟨false, n.list.map .f⟩, ⟨true, (Cglm.glm_vec4_reflect v n).list.map .f⟩])) := by kernel_rfl
theorem glm_vec4_reflect_run_n (v : V4 α) (n : V4 α) :
    C.glm_vec4_reflect.runT (α := α) [⟨false, v.list.map .f⟩, ⟨true, n.list.map .f⟩] [.p 0 0, .p 1 0, .p 1 0] =
      .done (some (none, [⟨false, v.list.map .f⟩, ⟨true, (Cglm.glm_vec4_reflect v n).list.map .f⟩])) := by kernel_rfl
/-- `glm_vec4_refract` with its branches as a tree -/
def glm_vec4_refract_dt (v : V4 α) (n : V4 α) (eta : α) : DT (Bool × V4 α) :=
  let ndi := glm_vec4_dot n v
  let eni := eta * ndi
  let k := (lit 1) - eta * eta + eni * eni
  .br (flt k (lit 0)) (
    .done (false, glm_vec4_zero)) (
    let dest_1 := glm_vec4_scale v eta
    .done (true, glm_vec4_mulsubs n (eni + sqrtf k) dest_1))
theorem glm_vec4_refract_dt_val (v : V4 α) (n : V4 α) (eta : α) : (glm_vec4_refract_dt v n eta).val = Cglm.glm_vec4_refract v n eta := by
  unfold glm_vec4_refract_dt
  simp only [DT.val]
  kernel_rfl
theorem glm_vec4_refract_run (v : V4 α) (n : V4 α) (eta : α) :
    C.glm_vec4_refract.runT (α := α) [⟨false, v.list.map .f⟩, ⟨false, n.list.map .f⟩, ⟨true, List.replicate 4 .undef⟩] [.p 0 0, .p 1 0, .f eta, .p 2 0] =
      (Cglm.glm_vec4_refract_dt v n eta).map fun r => some (some (.b r.1), [⟨false, v.list.map .f⟩, ⟨false, n.list.map .f⟩, ⟨true, r.2.list.map .f⟩]) := by kernel_rfl
theorem glm_vec4_refract_run_v (v : V4 α) (n : V4 α) (eta : α) :
    C.glm_vec4_refract.runT (α := α) [⟨false, n.list.map .f⟩, ⟨true, v.list.map .f⟩] [.p 1 0, .p 0 0, .f eta, .p 1 0] =
      (Cglm.glm_vec4_refract_dt v n eta).map fun r => some (some (.b r.1), [⟨false, n.list.map .f⟩, ⟨true, r.2.list.map .f⟩]) := by kernel_rfl

end Cglm

end Vec4Run

section Vec3Run

/-! Runs of the functions of include/cglm/vec3.h on canonical memories. -/

set_option linter.unusedVariables false
set_option linter.unusedSectionVars false

namespace Cglm
open CMem

variable {α : Type} [Add α] [Sub α] [Mul α] [Div α] [Neg α] [CFloat α]

theorem glm_vec3_run (v4 : V4 α) :
    C.glm_vec3.runT (α := α) [⟨false, v4.list.map .f⟩, ⟨true, List.replicate 3 .undef⟩] [.p 0 0, .p 1 0] =
      .done (some (none, [⟨false, v4.list.map .f⟩, ⟨true, (Cglm.glm_vec3 v4).list.map .f⟩])) := by kernel_rfl
theorem glm_vec3_copy_run (a : V3 α) :
    C.glm_vec3_copy.runT (α := α) [⟨false, a.list.map .f⟩, ⟨true, List.replicate 3 .undef⟩] [.p 0 0, .p 1 0] =
      .done (some (none, [⟨false, a.list.map .f⟩, ⟨true, (Cglm.glm_vec3_copy a).list.map .f⟩])) := by kernel_rfl
theorem glm_vec3_copy_run_a (a : V3 α) :
    C.glm_vec3_copy.runT (α := α) [⟨true, a.list.map .f⟩] [.p 0 0, .p 0 0] =
      .done (some (none, [⟨true, (Cglm.glm_vec3_copy a).list.map .f⟩])) := by kernel_rfl
theorem glm_vec3_zero_run :
    C.glm_vec3_zero.runT (α := α) [⟨true, List.replicate 3 .undef⟩] [.p 0 0] =
      .done (some (none, [⟨true, (Cglm.glm_vec3_zero).list.map .f⟩])) := by kernel_rfl
theorem glm_vec3_one_run :
    C.glm_vec3_one.runT (α := α) [⟨true, List.replicate 3 .undef⟩] [.p 0 0] =
      .done (some (none, [⟨true, (Cglm.glm_vec3_one).list.map .f⟩])) := by kernel_rfl
theorem glm_vec3_dot_run (a : V3 α) (b : V3 α) :
    C.glm_vec3_dot.runT (α := α) [⟨false, a.list.map .f⟩, ⟨false, b.list.map .f⟩] [.p 0 0, .p 1 0] =
      .done (some (some (.f (Cglm.glm_vec3_dot a b)), [⟨false, a.list.map .f⟩, ⟨false, b.list.map .f⟩])) := by kernel_rfl
theorem glm_vec3_norm2_run (v : V3 α) :
    C.glm_vec3_norm2.runT (α := α) [⟨false, v.list.map .f⟩] [.p 0 0] =
      .done (some (some (.f (Cglm.glm_vec3_norm2 v)), [⟨false, v.list.map .f⟩])) := by kernel_rfl
theorem glm_vec3_norm_run (v : V3 α) :
    C.glm_vec3_norm.runT (α := α) [⟨false, v.list.map .f⟩] [.p 0 0] =
      .done (some (some (.f (Cglm.glm_vec3_norm v)), [⟨false, v.list.map .f⟩])) := by kernel_rfl
theorem glm_vec3_norm_one_run (v : V3 α) :
    C.glm_vec3_norm_one.runT (α := α) [⟨false, v.list.map .f⟩] [.p 0 0] =
      .done (some (some (.f (Cglm.glm_vec3_norm_one v)), [⟨false, v.list.map .f⟩])) := by kernel_rfl
theorem glm_vec3_norm_inf_run (v : V3 α) :
    C.glm_vec3_norm_inf.runT (α := α) [⟨false, v.list.map .f⟩] [.p 0 0] =
      .done (some (some (.f (Cglm.glm_vec3_norm_inf v)), [⟨false, v.list.map .f⟩])) := by kernel_rfl
theorem glm_vec3_add_run (a : V3 α) (b : V3 α) :
    C.glm_vec3_add.runT (α := α) [⟨false, a.list.map .f⟩, ⟨false, b.list.map .f⟩, ⟨true, List.replicate 3 .undef⟩] [.p 0 0, .p 1 0, .p 2 0] =
      .done (some (none, [⟨false, a.list.map .f⟩, ⟨false, b.list.map .f⟩, ⟨true, (Cglm.glm_vec3_add a b).list.map .f⟩])) := by kernel_rfl
theorem glm_vec3_add_run_b (a : V3 α) (b : V3 α) :
    C.glm_vec3_add.runT (α := α) [⟨false, a.list.map .f⟩, ⟨true, b.list.map .f⟩] [.p 0 0, .p 1 0, .p 1 0] =
      .done (some (none, [⟨false, a.list.map .f⟩, ⟨true, (Cglm.glm_vec3_add a b).list.map .f⟩])) := by kernel_rfl
theorem glm_vec3_add_run_a (a : V3 α) (b : V3 α) :
    C.glm_vec3_add.runT (α := α) [⟨false, b.list.map .f⟩, ⟨true, a.list.map .f⟩] [.p 1 0, .p 0 0, .p 1 0] =
      .done (some (none, [⟨false, b.list.map .f⟩, ⟨true, (Cglm.glm_vec3_add a b).list.map .f⟩])) := by kernel_rfl
theorem glm_vec3_add_run_a_b (a : V3 α) :
    C.glm_vec3_add.runT (α := α) [⟨true, a.list.map .f⟩] [.p 0 0, .p 0 0, .p 0 0] =
      .done (some (none, [⟨true, (Cglm.glm_vec3_add a a).list.map .f⟩])) := by kernel_rfl
theorem glm_vec3_adds_run (v : V3 α) (s : α) :
    C.glm_vec3_adds.runT (α := α) [⟨false, v.list.map .f⟩, ⟨true, List.replicate 3 .undef⟩] [.p 0 0, .f s, .p 1 0] =
      .done (some (none, [⟨false, v.list.map .f⟩, ⟨true, (Cglm.glm_vec3_adds v s).list.map .f⟩])) := by kernel_rfl
theorem glm_vec3_adds_run_v (v : V3 α) (s : α) :
    C.glm_vec3_adds.runT (α := α) [⟨true, v.list.map .f⟩] [.p 0 0, .f s, .p 0 0] =
      .done (some (none, [⟨true, (Cglm.glm_vec3_adds v s).list.map .f⟩])) := by kernel_rfl
theorem glm_vec3_sub_run (a : V3 α) (b : V3 α) :
    C.glm_vec3_sub.runT (α := α) [⟨false, a.list.map .f⟩, ⟨false, b.list.map .f⟩, ⟨true, List.replicate 3 .undef⟩] [.p 0 0, .p 1 0, .p 2 0] =
      .done (some (none, [⟨false, a.list.map .f⟩, ⟨false, b.list.map .f⟩, ⟨true, (Cglm.glm_vec3_sub a b).list.map .f⟩])) := by kernel_rfl
theorem glm_vec3_sub_run_b (a : V3 α) (b : V3 α) :
    C.glm_vec3_sub.runT (α := α) [⟨false, a.list.map .f⟩, ⟨true, b.list.map .f⟩] [.p 0 0, .p 1 0, .p 1 0] =
      .done (some (none, [⟨false, a.list.map .f⟩, ⟨true, (Cglm.glm_vec3_sub a b).list.map .f⟩])) := by kernel_rfl
theorem glm_vec3_sub_run_a (a : V3 α) (b : V3 α) :
    C.glm_vec3_sub.runT (α := α) [⟨false, b.list.map .f⟩, ⟨true, a.list.map .f⟩] [.p 1 0, .p 0 0, .p 1 0] =
      .done (some (none, [⟨false, b.list.map .f⟩, ⟨true, (Cglm.glm_vec3_sub a b).list.map .f⟩])) := by kernel_rfl
theorem glm_vec3_sub_run_a_b (a : V3 α) :
    C.glm_vec3_sub.runT (α := α) [⟨true, a.list.map .f⟩] [.p 0 0, .p 0 0, .p 0 0] =
      .done (some (none, [⟨true, (Cglm.glm_vec3_sub a a).list.map .f⟩])) := by kernel_rfl
theorem glm_vec3_subs_run (v : V3 α) (s : α) :
    C.glm_vec3_subs.runT (α := α) [⟨false, v.list.map .f⟩, ⟨true, List.replicate 3 .undef⟩] [.p 0 0, .f s, .p 1 0] =
      .done (some (none, [⟨false, v.list.map .f⟩, ⟨true, (Cglm.glm_vec3_subs v s).list.map .f⟩])) := by kernel_rfl
theorem glm_vec3_subs_run_v (v : V3 α) (s : α) :
    C.glm_vec3_subs.runT (α := α) [⟨true, v.list.map .f⟩] [.p 0 0, .f s, .p 0 0] =
      .done (some (none, [⟨true, (Cglm.glm_vec3_subs v s).list.map .f⟩])) := by kernel_rfl
theorem glm_vec3_mul_run (a : V3 α) (b : V3 α) :
    C.glm_vec3_mul.runT (α := α) [⟨false, a.list.map .f⟩, ⟨false, b.list.map .f⟩, ⟨true, List.replicate 3 .undef⟩] [.p 0 0, .p 1 0, .p 2 0] =
      .done (some (none, [⟨false, a.list.map .f⟩, ⟨false, b.list.map .f⟩, ⟨true, (Cglm.glm_vec3_mul a b).list.map .f⟩])) := by kernel_rfl
theorem glm_vec3_mul_run_b (a : V3 α) (b : V3 α) :
    C.glm_vec3_mul.runT (α := α) [⟨false, a.list.map .f⟩, ⟨true, b.list.map .f⟩] [.p 0 0, .p 1 0, .p 1 0] =
      .done (some (none, [⟨false, a.list.map .f⟩, ⟨true, (Cglm.glm_vec3_mul a b).list.map .f⟩])) := by kernel_rfl
theorem glm_vec3_mul_run_a (a : V3 α) (b : V3 α) :
    C.glm_vec3_mul.runT (α := α) [⟨false, b.list.map .f⟩, ⟨true, a.list.map .f⟩] [.p 1 0, .p 0 0, .p 1 0] =
      .done (some (none, [⟨false, b.list.map .f⟩, ⟨true, (Cglm.glm_vec3_mul a b).list.map .f⟩])) := by kernel_rfl
theorem glm_vec3_mul_run_a_b (a : V3 α) :
    C.glm_vec3_mul.runT (α := α) [⟨true, a.list.map .f⟩] [.p 0 0, .p 0 0, .p 0 0] =
      .done (some (none, [⟨true, (Cglm.glm_vec3_mul a a).list.map .f⟩])) := by kernel_rfl
theorem glm_vec3_scale_run (v : V3 α) (s : α) :
    C.glm_vec3_scale.runT (α := α) [⟨false, v.list.map .f⟩, ⟨true, List.replicate 3 .undef⟩] [.p 0 0, .f s, .p 1 0] =
      .done (some (none, [⟨false, v.list.map .f⟩, ⟨true, (Cglm.glm_vec3_scale v s).list.map .f⟩])) := by kernel_rfl
theorem glm_vec3_scale_run_v (v : V3 α) (s : α) :
    C.glm_vec3_scale.runT (α := α) [⟨true, v.list.map .f⟩] [.p 0 0, .f s, .p 0 0] =
      .done (some (none, [⟨true, (Cglm.glm_vec3_scale v s).list.map .f⟩])) := by kernel_rfl
/-- `glm_vec3_scale_as` with its branches as a tree -/
def glm_vec3_scale_as_dt (v : V3 α) (s : α) : DT (V3 α) :=
  let norm := glm_vec3_norm v
  .br (flt norm (lit 0.00000011920928955078125)) (
    .done glm_vec3_zero) (
    .done (glm_vec3_scale v (s / norm)))
theorem glm_vec3_scale_as_dt_val (v : V3 α) (s : α) : (glm_vec3_scale_as_dt v s).val = Cglm.glm_vec3_scale_as v s := by
  unfold glm_vec3_scale_as_dt
  simp only [DT.val]
  kernel_rfl
theorem glm_vec3_scale_as_run (v : V3 α) (s : α) :
    C.glm_vec3_scale_as.runT (α := α) [⟨false, v.list.map .f⟩, ⟨true, List.replicate 3 .undef⟩] [.p 0 0, .f s, .p 1 0] =
      (Cglm.glm_vec3_scale_as_dt v s).map fun r => some (none, [⟨false, v.list.map .f⟩, ⟨true, r.list.map .f⟩]) := by kernel_rfl
theorem glm_vec3_scale_as_run_v (v : V3 α) (s : α) :
    C.glm_vec3_scale_as.runT (α := α) [⟨true, v.list.map .f⟩] [.p 0 0, .f s, .p 0 0] =
      (Cglm.glm_vec3_scale_as_dt v s).map fun r => some (none, [⟨true, r.list.map .f⟩]) := by kernel_rfl
theorem glm_vec3_div_run (a : V3 α) (b : V3 α) :
    C.glm_vec3_div.runT (α := α) [⟨false, a.list.map .f⟩, ⟨false, b.list.map .f⟩, ⟨true, List.replicate 3 .undef⟩] [.p 0 0, .p 1 0, .p 2 0] =
      .done (some (none, [⟨false, a.list.map .f⟩, ⟨false, b.list.map .f⟩, ⟨true, (Cglm.glm_vec3_div a b).list.map .f⟩])) := by kernel_rfl
theorem glm_vec3_div_run_b (a : V3 α) (b : V3 α) :
    C.glm_vec3_div.runT (α := α) [⟨false, a.list.map .f⟩, ⟨true, b.list.map .f⟩] [.p 0 0, .p 1 0, .p 1 0] =
      .done (some (none, [⟨false, a.list.map .f⟩, ⟨true, (Cglm.glm_vec3_div a b).list.map .f⟩])) := by kernel_rfl
theorem glm_vec3_div_run_a (a : V3 α) (b : V3 α) :
    C.glm_vec3_div.runT (α := α) [⟨false, b.list.map .f⟩, ⟨true, a.list.map .f⟩] [.p 1 0, .p 0 0, .p 1 0] =
      .done (some (none, [⟨false, b.list.map .f⟩, ⟨true, (Cglm.glm_vec3_div a b).list.map .f⟩])) := by kernel_rfl
theorem glm_vec3_div_run_a_b (a : V3 α) :
    C.glm_vec3_div.runT (α := α) [⟨true, a.list.map .f⟩] [.p 0 0, .p 0 0, .p 0 0] =
      .done (some (none, [⟨true, (Cglm.glm_vec3_div a a).list.map .f⟩])) := by kernel_rfl
theorem glm_vec3_divs_run (v : V3 α) (s : α) :
    C.glm_vec3_divs.runT (α := α) [⟨false, v.list.map .f⟩, ⟨true, List.replicate 3 .undef⟩] [.p 0 0, .f s, .p 1 0] =
      .done (some (none, [⟨false, v.list.map .f⟩, ⟨true, (Cglm.glm_vec3_divs v s).list.map .f⟩])) := by kernel_rfl
theorem glm_vec3_divs_run_v (v : V3 α) (s : α) :
    C.glm_vec3_divs.runT (α := α) [⟨true, v.list.map .f⟩] [.p 0 0, .f s, .p 0 0] =
      .done (some (none, [⟨true, (Cglm.glm_vec3_divs v s).list.map .f⟩])) := by kernel_rfl
theorem glm_vec3_addadd_run (a : V3 α) (b : V3 α) (dest : V3 α) :
    C.glm_vec3_addadd.runT (α := α) [⟨false, a.list.map .f⟩, ⟨false, b.list.map .f⟩, ⟨true, dest.list.map .f⟩] [.p 0 0, .p 1 0, .p 2 0] =
      .done (some (none, [⟨false, a.list.map .f⟩, ⟨false, b.list.map .f⟩, ⟨true, (Cglm.glm_vec3_addadd a b dest).list.map .f⟩])) := by kernel_rfl
theorem glm_vec3_addadd_run_b (a : V3 α) (dest : V3 α) :
    C.glm_vec3_addadd.runT (α := α) [⟨false, a.list.map .f⟩, ⟨true, dest.list.map .f⟩] [.p 0 0, .p 1 0, .p 1 0] =
      .done (some (none, [⟨false, a.list.map .f⟩, ⟨true, (Cglm.glm_vec3_addadd a dest dest).list.map .f⟩])) := by kernel_rfl
theorem glm_vec3_addadd_run_a (dest : V3 α) (b : V3 α) :
    C.glm_vec3_addadd.runT (α := α) [⟨false, b.list.map .f⟩, ⟨true, dest.list.map .f⟩] [.p 1 0, .p 0 0, .p 1 0] =
      .done (some (none, [⟨false, b.list.map .f⟩, ⟨true, (Cglm.glm_vec3_addadd dest b dest).list.map .f⟩])) := by kernel_rfl
theorem glm_vec3_addadd_run_a_b (dest : V3 α) :
    C.glm_vec3_addadd.runT (α := α) [⟨true, dest.list.map .f⟩] [.p 0 0, .p 0 0, .p 0 0] =
      .done (some (none, [⟨true, (Cglm.glm_vec3_addadd dest dest dest).list.map .f⟩])) := by kernel_rfl
theorem glm_vec3_subadd_run (a : V3 α) (b : V3 α) (dest : V3 α) :
    C.glm_vec3_subadd.runT (α := α) [⟨false, a.list.map .f⟩, ⟨false, b.list.map .f⟩, ⟨true, dest.list.map .f⟩] [.p 0 0, .p 1 0, .p 2 0] =
      .done (some (none, [⟨false, a.list.map .f⟩, ⟨false, b.list.map .f⟩, ⟨true, (Cglm.glm_vec3_subadd a b dest).list.map .f⟩])) := by kernel_rfl
theorem glm_vec3_subadd_run_b (a : V3 α) (dest : V3 α) :
    C.glm_vec3_subadd.runT (α := α) [⟨false, a.list.map .f⟩, ⟨true, dest.list.map .f⟩] [.p 0 0, .p 1 0, .p 1 0] =
      .done (some (none, [⟨false, a.list.map .f⟩, ⟨true, (Cglm.glm_vec3_subadd a dest dest).list.map .f⟩])) := by kernel_rfl
theorem glm_vec3_subadd_run_a (dest : V3 α) (b : V3 α) :
    C.glm_vec3_subadd.runT (α := α) [⟨false, b.list.map .f⟩, ⟨true, dest.list.map .f⟩] [.p 1 0, .p 0 0, .p 1 0] =
      .done (some (none, [⟨false, b.list.map .f⟩, ⟨true, (Cglm.glm_vec3_subadd dest b dest).list.map .f⟩])) := by kernel_rfl
theorem glm_vec3_subadd_run_a_b (dest : V3 α) :
    C.glm_vec3_subadd.runT (α := α) [⟨true, dest.list.map .f⟩] [.p 0 0, .p 0 0, .p 0 0] =
      .done (some (none, [⟨true, (Cglm.glm_vec3_subadd dest dest dest).list.map .f⟩])) := by kernel_rfl
theorem glm_vec3_muladd_run (a : V3 α) (b : V3 α) (dest : V3 α) :
    C.glm_vec3_muladd.runT (α := α) [⟨false, a.list.map .f⟩, ⟨false, b.list.map .f⟩, ⟨true, dest.list.map .f⟩] [.p 0 0, .p 1 0, .p 2 0] =
      .done (some (none, [⟨false, a.list.map .f⟩, ⟨false, b.list.map .f⟩, ⟨true, (Cglm.glm_vec3_muladd a b dest).list.map .f⟩])) := by kernel_rfl
theorem glm_vec3_muladd_run_b (a : V3 α) (dest : V3 α) :
    C.glm_vec3_muladd.runT (α := α) [⟨false, a.list.map .f⟩, ⟨true, dest.list.map .f⟩] [.p 0 0, .p 1 0, .p 1 0] =
      .done (some (none, [⟨false, a.list.map .f⟩, ⟨true, (Cglm.glm_vec3_muladd a dest dest).list.map .f⟩])) := by kernel_rfl
theorem glm_vec3_muladd_run_a (dest : V3 α) (b : V3 α) :
    C.glm_vec3_muladd.runT (α := α) [⟨false, b.list.map .f⟩, ⟨true, dest.list.map .f⟩] [.p 1 0, .p 0 0, .p 1 0] =
      .done (some (none, [⟨false, b.list.map .f⟩, ⟨true, (Cglm.glm_vec3_muladd dest b dest).list.map .f⟩])) := by kernel_rfl
theorem glm_vec3_muladd_run_a_b (dest : V3 α) :
    C.glm_vec3_muladd.runT (α := α) [⟨true, dest.list.map .f⟩] [.p 0 0, .p 0 0, .p 0 0] =
      .done (some (none, [⟨true, (Cglm.glm_vec3_muladd dest dest dest).list.map .f⟩])) := by kernel_rfl
theorem glm_vec3_muladds_run (a : V3 α) (s : α) (dest : V3 α) :
    C.glm_vec3_muladds.runT (α := α) [⟨false, a.list.map .f⟩, ⟨true, dest.list.map .f⟩] [.p 0 0, .f s, .p 1 0] =
      .done (some (none, [⟨false, a.list.map .f⟩, ⟨true, (Cglm.glm_vec3_muladds a s dest).list.map .f⟩])) := by kernel_rfl
theorem glm_vec3_muladds_run_a (dest : V3 α) (s : α) :
    C.glm_vec3_muladds.runT (α := α) [⟨true, dest.list.map .f⟩] [.p 0 0, .f s, .p 0 0] =
      .done (some (none, [⟨true, (Cglm.glm_vec3_muladds dest s dest).list.map .f⟩])) := by kernel_rfl
theorem glm_vec3_maxadd_run (a : V3 α) (b : V3 α) (dest : V3 α) :
    C.glm_vec3_maxadd.runT (α := α) [⟨false, a.list.map .f⟩, ⟨false, b.list.map .f⟩, ⟨true, dest.list.map .f⟩] [.p 0 0, .p 1 0, .p 2 0] =
      .done (some (none, [⟨false, a.list.map .f⟩, ⟨false, b.list.map .f⟩, ⟨true, (Cglm.glm_vec3_maxadd a b dest).list.map .f⟩])) := by kernel_rfl
theorem glm_vec3_maxadd_run_b (a : V3 α) (dest : V3 α) :
    C.glm_vec3_maxadd.runT (α := α) [⟨false, a.list.map .f⟩, ⟨true, dest.list.map .f⟩] [.p 0 0, .p 1 0, .p 1 0] =
      .done (some (none, [⟨false, a.list.map .f⟩, ⟨true, (Cglm.glm_vec3_maxadd a dest dest).list.map .f⟩])) := by kernel_rfl
theorem glm_vec3_maxadd_run_a (dest : V3 α) (b : V3 α) :
    C.glm_vec3_maxadd.runT (α := α) [⟨false, b.list.map .f⟩, ⟨true, dest.list.map .f⟩] [.p 1 0, .p 0 0, .p 1 0] =
      .done (some (none, [⟨false, b.list.map .f⟩, ⟨true, (Cglm.glm_vec3_maxadd dest b dest).list.map .f⟩])) := by kernel_rfl
theorem glm_vec3_maxadd_run_a_b (dest : V3 α) :
    C.glm_vec3_maxadd.runT (α := α) [⟨true, dest.list.map .f⟩] [.p 0 0, .p 0 0, .p 0 0] =
      .done (some (none, [⟨true, (Cglm.glm_vec3_maxadd dest dest dest).list.map .f⟩])) := by kernel_rfl
theorem glm_vec3_minadd_run (a : V3 α) (b : V3 α) (dest : V3 α) :
    C.glm_vec3_minadd.runT (α := α) [⟨false, a.list.map .f⟩, ⟨false, b.list.map .f⟩, ⟨true, dest.list.map .f⟩] [.p 0 0, .p 1 0, .p 2 0] =
      .done (some (none, [⟨false, a.list.map .f⟩, ⟨false, b.list.map .f⟩, ⟨true, (Cglm.glm_vec3_minadd a b dest).list.map .f⟩])) := by kernel_rfl
theorem glm_vec3_minadd_run_b (a : V3 α) (dest : V3 α) :
    C.glm_vec3_minadd.runT (α := α) [⟨false, a.list.map .f⟩, ⟨true, dest.list.map .f⟩] [.p 0 0, .p 1 0, .p 1 0] =
      .done (some (none, [⟨false, a.list.map .f⟩, ⟨true, (Cglm.glm_vec3_minadd a dest dest).list.map .f⟩])) := by kernel_rfl
theorem glm_vec3_minadd_run_a (dest : V3 α) (b : V3 α) :
    C.glm_vec3_minadd.runT (α := α) [⟨false, b.list.map .f⟩, ⟨true, dest.list.map .f⟩] [.p 1 0, .p 0 0, .p 1 0] =
      .done (some (none, [⟨false, b.list.map .f⟩, ⟨true, (Cglm.glm_vec3_minadd dest b dest).list.map .f⟩])) := by kernel_rfl
theorem glm_vec3_minadd_run_a_b (dest : V3 α) :
    C.glm_vec3_minadd.runT (α := α) [⟨true, dest.list.map .f⟩] [.p 0 0, .p 0 0, .p 0 0] =
      .done (some (none, [⟨true, (Cglm.glm_vec3_minadd dest dest dest).list.map .f⟩])) := by kernel_rfl
theorem glm_vec3_subsub_run (a : V3 α) (b : V3 α) (dest : V3 α) :
    C.glm_vec3_subsub.runT (α := α) [⟨false, a.list.map .f⟩, ⟨false, b.list.map .f⟩, ⟨true, dest.list.map .f⟩] [.p 0 0, .p 1 0, .p 2 0] =
      .done (some (none, [⟨false, a.list.map .f⟩, ⟨false, b.list.map .f⟩, ⟨true, (Cglm.glm_vec3_subsub a b dest).list.map .f⟩])) := by kernel_rfl
theorem glm_vec3_subsub_run_b (a : V3 α) (dest : V3 α) :
    C.glm_vec3_subsub.runT (α := α) [⟨false, a.list.map .f⟩, ⟨true, dest.list.map .f⟩] [.p 0 0, .p 1 0, .p 1 0] =
      .done (some (none, [⟨false, a.list.map .f⟩, ⟨true, (Cglm.glm_vec3_subsub a dest dest).list.map .f⟩])) := by kernel_rfl
theorem glm_vec3_subsub_run_a (dest : V3 α) (b : V3 α) :
    C.glm_vec3_subsub.runT (α := α) [⟨false, b.list.map .f⟩, ⟨true, dest.list.map .f⟩] [.p 1 0, .p 0 0, .p 1 0] =
      .done (some (none, [⟨false, b.list.map .f⟩, ⟨true, (Cglm.glm_vec3_subsub dest b dest).list.map .f⟩])) := by kernel_rfl
theorem glm_vec3_subsub_run_a_b (dest : V3 α) :
    C.glm_vec3_subsub.runT (α := α) [⟨true, dest.list.map .f⟩] [.p 0 0, .p 0 0, .p 0 0] =
      .done (some (none, [⟨true, (Cglm.glm_vec3_subsub dest dest dest).list.map .f⟩])) := by kernel_rfl
theorem glm_vec3_addsub_run (a : V3 α) (b : V3 α) (dest : V3 α) :
    C.glm_vec3_addsub.runT (α := α) [⟨false, a.list.map .f⟩, ⟨false, b.list.map .f⟩, ⟨true, dest.list.map .f⟩] [.p 0 0, .p 1 0, .p 2 0] =
      .done (some (none, [⟨false, a.list.map .f⟩, ⟨false, b.list.map .f⟩, ⟨true, (Cglm.glm_vec3_addsub a b dest).list.map .f⟩])) := by kernel_rfl
theorem glm_vec3_addsub_run_b (a : V3 α) (dest : V3 α) :
    C.glm_vec3_addsub.runT (α := α) [⟨false, a.list.map .f⟩, ⟨true, dest.list.map .f⟩] [.p 0 0, .p 1 0, .p 1 0] =
      .done (some (none, [⟨false, a.list.map .f⟩, ⟨true, (Cglm.glm_vec3_addsub a dest dest).list.map .f⟩])) := by kernel_rfl
theorem glm_vec3_addsub_run_a (dest : V3 α) (b : V3 α) :
    C.glm_vec3_addsub.runT (α := α) [⟨false, b.list.map .f⟩, ⟨true, dest.list.map .f⟩] [.p 1 0, .p 0 0, .p 1 0] =
      .done (some (none, [⟨false, b.list.map .f⟩, ⟨true, (Cglm.glm_vec3_addsub dest b dest).list.map .f⟩])) := by kernel_rfl
theorem glm_vec3_addsub_run_a_b (dest : V3 α) :
    C.glm_vec3_addsub.runT (α := α) [⟨true, dest.list.map .f⟩] [.p 0 0, .p 0 0, .p 0 0] =
      .done (some (none, [⟨true, (Cglm.glm_vec3_addsub dest dest dest).list.map .f⟩])) := by kernel_rfl
theorem glm_vec3_mulsub_run (a : V3 α) (b : V3 α) (dest : V3 α) :
    C.glm_vec3_mulsub.runT (α := α) [⟨false, a.list.map .f⟩, ⟨false, b.list.map .f⟩, ⟨true, dest.list.map .f⟩] [.p 0 0, .p 1 0, .p 2 0] =
      .done (some (none, [⟨false, a.list.map .f⟩, ⟨false, b.list.map .f⟩, ⟨true, (Cglm.glm_vec3_mulsub a b dest).list.map .f⟩])) := by kernel_rfl
theorem glm_vec3_mulsub_run_b (a : V3 α) (dest : V3 α) :
    C.glm_vec3_mulsub.runT (α := α) [⟨false, a.list.map .f⟩, ⟨true, dest.list.map .f⟩] [.p 0 0, .p 1 0, .p 1 0] =
      .done (some (none, [⟨false, a.list.map .f⟩, ⟨true, (Cglm.glm_vec3_mulsub a dest dest).list.map .f⟩])) := by kernel_rfl
theorem glm_vec3_mulsub_run_a (dest : V3 α) (b : V3 α) :
    C.glm_vec3_mulsub.runT (α := α) [⟨false, b.list.map .f⟩, ⟨true, dest.list.map .f⟩] [.p 1 0, .p 0 0, .p 1 0] =
      .done (some (none, [⟨false, b.list.map .f⟩, ⟨true, (Cglm.glm_vec3_mulsub dest b dest).list.map .f⟩])) := by kernel_rfl
theorem glm_vec3_mulsub_run_a_b (dest : V3 α) :
    C.glm_vec3_mulsub.runT (α := α) [⟨true, dest.list.map .f⟩] [.p 0 0, .p 0 0, .p 0 0] =
      .done (some (none, [⟨true, (Cglm.glm_vec3_mulsub dest dest dest).list.map .f⟩])) := by kernel_rfl
theorem glm_vec3_mulsubs_run (a : V3 α) (s : α) (dest : V3 α) :
    C.glm_vec3_mulsubs.runT (α := α) [⟨false, a.list.map .f⟩, ⟨true, dest.list.map .f⟩] [.p 0 0, .f s, .p 1 0] =
      .done (some (none, [⟨false, a.list.map .f⟩, ⟨true, (Cglm.glm_vec3_mulsubs a s dest).list.map .f⟩])) := by kernel_rfl
theorem glm_vec3_mulsubs_run_a (dest : V3 α) (s : α) :
    C.glm_vec3_mulsubs.runT (α := α) [⟨true, dest.list.map .f⟩] [.p 0 0, .f s, .p 0 0] =
      .done (some (none, [⟨true, (Cglm.glm_vec3_mulsubs dest s dest).list.map .f⟩])) := by kernel_rfl
theorem glm_vec3_maxsub_run (a : V3 α) (b : V3 α) (dest : V3 α) :
    C.glm_vec3_maxsub.runT (α := α) [⟨false, a.list.map .f⟩, ⟨false, b.list.map .f⟩, ⟨true, dest.list.map .f⟩] [.p 0 0, .p 1 0, .p 2 0] =
      .done (some (none, [⟨false, a.list.map .f⟩, ⟨false, b.list.map .f⟩, ⟨true, (Cglm.glm_vec3_maxsub a b dest).list.map .f⟩])) := by kernel_rfl
theorem glm_vec3_maxsub_run_b (a : V3 α) (dest : V3 α) :
    C.glm_vec3_maxsub.runT (α := α) [⟨false, a.list.map .f⟩, ⟨true, dest.list.map .f⟩] [.p 0 0, .p 1 0, .p 1 0] =
      .done (some (none, [⟨false, a.list.map .f⟩, ⟨true, (Cglm.glm_vec3_maxsub a dest dest).list.map .f⟩])) := by kernel_rfl
theorem glm_vec3_maxsub_run_a (dest : V3 α) (b : V3 α) :
    C.glm_vec3_maxsub.runT (α := α) [⟨false, b.list.map .f⟩, ⟨true, dest.list.map .f⟩] [.p 1 0, .p 0 0, .p 1 0] =
      .done (some (none, [⟨false, b.list.map .f⟩, ⟨true, (Cglm.glm_vec3_maxsub dest b dest).list.map .f⟩])) := by kernel_rfl
theorem glm_vec3_maxsub_run_a_b (dest : V3 α) :
    C.glm_vec3_maxsub.runT (α := α) [⟨true, dest.list.map .f⟩] [.p 0 0, .p 0 0, .p 0 0] =
      .done (some (none, [⟨true, (Cglm.glm_vec3_maxsub dest dest dest).list.map .f⟩])) := by kernel_rfl
theorem glm_vec3_minsub_run (a : V3 α) (b : V3 α) (dest : V3 α) :
    C.glm_vec3_minsub.runT (α := α) [⟨false, a.list.map .f⟩, ⟨false, b.list.map .f⟩, ⟨true, dest.list.map .f⟩] [.p 0 0, .p 1 0, .p 2 0] =
      .done (some (none, [⟨false, a.list.map .f⟩, ⟨false, b.list.map .f⟩, ⟨true, (Cglm.glm_vec3_minsub a b dest).list.map .f⟩])) := by kernel_rfl
theorem glm_vec3_minsub_run_b (a : V3 α) (dest : V3 α) :
    C.glm_vec3_minsub.runT (α := α) [⟨false, a.list.map .f⟩, ⟨true, dest.list.map .f⟩] [.p 0 0, .p 1 0, .p 1 0] =
      .done (some (none, [⟨false, a.list.map .f⟩, ⟨true, (Cglm.glm_vec3_minsub a dest dest).list.map .f⟩])) := by kernel_rfl
theorem glm_vec3_minsub_run_a (dest : V3 α) (b : V3 α) :
    C.glm_vec3_minsub.runT (α := α) [⟨false, b.list.map .f⟩, ⟨true, dest.list.map .f⟩] [.p 1 0, .p 0 0, .p 1 0] =
      .done (some (none, [⟨false, b.list.map .f⟩, ⟨true, (Cglm.glm_vec3_minsub dest b dest).list.map .f⟩])) := by kernel_rfl
theorem glm_vec3_minsub_run_a_b (dest : V3 α) :
    C.glm_vec3_minsub.runT (α := α) [⟨true, dest.list.map .f⟩] [.p 0 0, .p 0 0, .p 0 0] =
      .done (some (none, [⟨true, (Cglm.glm_vec3_minsub dest dest dest).list.map .f⟩])) := by kernel_rfl
theorem glm_vec3_negate_to_run (v : V3 α) :
    C.glm_vec3_negate_to.runT (α := α) [⟨false, v.list.map .f⟩, ⟨true, List.replicate 3 .undef⟩] [.p 0 0, .p 1 0] =
      .done (some (none, [⟨false, v.list.map .f⟩, ⟨true, (Cglm.glm_vec3_negate_to v).list.map .f⟩])) := by kernel_rfl
theorem glm_vec3_negate_to_run_v (v : V3 α) :
    C.glm_vec3_negate_to.runT (α := α) [⟨true, v.list.map .f⟩] [.p 0 0, .p 0 0] =
      .done (some (none, [⟨true, (Cglm.glm_vec3_negate_to v).list.map .f⟩])) := by kernel_rfl
theorem glm_vec3_negate_run (v : V3 α) :
    C.glm_vec3_negate.runT (α := α) [⟨true, v.list.map .f⟩] [.p 0 0] =
      .done (some (none, [⟨true, (Cglm.glm_vec3_negate v).list.map .f⟩])) := by kernel_rfl
/-- `glm_vec3_normalize` with its branches as a tree -/
def glm_vec3_normalize_dt (v : V3 α) : DT (V3 α) :=
  let norm := glm_vec3_norm v
  .br (flt norm (lit 0.00000011920928955078125)) (
    .done ⟨lit 0, lit 0, lit 0⟩) (
    .done (glm_vec3_scale v ((lit 1) / norm)))
theorem glm_vec3_normalize_dt_val (v : V3 α) : (glm_vec3_normalize_dt v).val = Cglm.glm_vec3_normalize v := by
  unfold glm_vec3_normalize_dt
  simp only [DT.val]
  kernel_rfl
theorem glm_vec3_normalize_run (v : V3 α) :
    C.glm_vec3_normalize.runT (α := α) [⟨true, v.list.map .f⟩] [.p 0 0] =
      (Cglm.glm_vec3_normalize_dt v).map fun r => some (none, [⟨true, r.list.map .f⟩]) := by kernel_rfl
/-- `glm_vec3_normalize_to` with its branches as a tree -/
def glm_vec3_normalize_to_dt (v : V3 α) : DT (V3 α) :=
  let norm := glm_vec3_norm v
  .br (flt norm (lit 0.00000011920928955078125)) (
    .done glm_vec3_zero) (
    .done (glm_vec3_scale v ((lit 1) / norm)))
theorem glm_vec3_normalize_to_dt_val (v : V3 α) : (glm_vec3_normalize_to_dt v).val = Cglm.glm_vec3_normalize_to v := by
  unfold glm_vec3_normalize_to_dt
  simp only [DT.val]
  kernel_rfl
theorem glm_vec3_normalize_to_run (v : V3 α) :
    C.glm_vec3_normalize_to.runT (α := α) [⟨false, v.list.map .f⟩, ⟨true, List.replicate 3 .undef⟩] [.p 0 0, .p 1 0] =
      (Cglm.glm_vec3_normalize_to_dt v).map fun r => some (none, [⟨false, v.list.map .f⟩, ⟨true, r.list.map .f⟩]) := by kernel_rfl
theorem glm_vec3_normalize_to_run_v (v : V3 α) :
    C.glm_vec3_normalize_to.runT (α := α) [⟨true, v.list.map .f⟩] [.p 0 0, .p 0 0] =
      (Cglm.glm_vec3_normalize_to_dt v).map fun r => some (none, [⟨true, r.list.map .f⟩]) := by kernel_rfl
theorem glm_vec3_cross_run (a : V3 α) (b : V3 α) :
    C.glm_vec3_cross.runT (α := α) [⟨false, a.list.map .f⟩, ⟨false, b.list.map .f⟩, ⟨true, List.replicate 3 .undef⟩] [.p 0 0, .p 1 0, .p 2 0] =
      .done (some (none, [⟨false, a.list.map .f⟩, ⟨false, b.list.map .f⟩, ⟨true, (Cglm.glm_vec3_cross a b).list.map .f⟩])) := by kernel_rfl
theorem glm_vec3_cross_run_b (a : V3 α) (b : V3 α) :
    C.glm_vec3_cross.runT (α := α) [⟨false, a.list.map .f⟩, ⟨true, b.list.map .f⟩] [.p 0 0, .p 1 0, .p 1 0] =
      .done (some (none, [⟨false, a.list.map .f⟩, ⟨true, (Cglm.glm_vec3_cross a b).list.map .f⟩])) := by kernel_rfl
theorem glm_vec3_cross_run_a (a : V3 α) (b : V3 α) :
    C.glm_vec3_cross.runT (α := α) [⟨false, b.list.map .f⟩, ⟨true, a.list.map .f⟩] [.p 1 0, .p 0 0, .p 1 0] =
      .done (some (none, [⟨false, b.list.map .f⟩, ⟨true, (Cglm.glm_vec3_cross a b).list.map .f⟩])) := by kernel_rfl
theorem glm_vec3_cross_run_a_b (a : V3 α) :
    C.glm_vec3_cross.runT (α := α) [⟨true, a.list.map .f⟩] [.p 0 0, .p 0 0, .p 0 0] =
      .done (some (none, [⟨true, (Cglm.glm_vec3_cross a a).list.map .f⟩])) := by kernel_rfl
/-- `glm_vec3_crossn` with its branches as a tree -/
def glm_vec3_crossn_dt (a : V3 α) (b : V3 α) : DT (V3 α) :=
  let dest_1 := glm_vec3_cross a b
  DT.bind (glm_vec3_normalize_dt dest_1) fun dest_2 =>
  .done dest_2
theorem glm_vec3_crossn_dt_val (a : V3 α) (b : V3 α) : (glm_vec3_crossn_dt a b).val = Cglm.glm_vec3_crossn a b := by
  unfold glm_vec3_crossn_dt
  simp only [DT.val_bind, DT.val, glm_vec3_normalize_dt_val]
  kernel_rfl
theorem glm_vec3_crossn_run (a : V3 α) (b : V3 α) :
    C.glm_vec3_crossn.runT (α := α) [⟨false, a.list.map .f⟩, ⟨false, b.list.map .f⟩, ⟨true, List.replicate 3 .undef⟩] [.p 0 0, .p 1 0, .p 2 0] =
      (Cglm.glm_vec3_crossn_dt a b).map fun r => some (none, [⟨false, a.list.map .f⟩, ⟨false, b.list.map .f⟩, ⟨true, r.list.map .f⟩]) := by kernel_rfl
theorem glm_vec3_crossn_run_b (a : V3 α) (b : V3 α) :
    C.glm_vec3_crossn.runT (α := α) [⟨false, a.list.map .f⟩, ⟨true, b.list.map .f⟩] [.p 0 0, .p 1 0, .p 1 0] =
      (Cglm.glm_vec3_crossn_dt a b).map fun r => some (none, [⟨false, a.list.map .f⟩, ⟨true, r.list.map .f⟩]) := by kernel_rfl
theorem glm_vec3_crossn_run_a (a : V3 α) (b : V3 α) :
    C.glm_vec3_crossn.runT (α := α) [⟨false, b.list.map .f⟩, ⟨true, a.list.map .f⟩] [.p 1 0, .p 0 0, .p 1 0] =
      (Cglm.glm_vec3_crossn_dt a b).map fun r => some (none, [⟨false, b.list.map .f⟩, ⟨true, r.list.map .f⟩]) := by kernel_rfl
theorem glm_vec3_crossn_run_a_b (a : V3 α) :
    C.glm_vec3_crossn.runT (α := α) [⟨true, a.list.map .f⟩] [.p 0 0, .p 0 0, .p 0 0] =
      (Cglm.glm_vec3_crossn_dt a a).map fun r => some (none, [⟨true, r.list.map .f⟩]) := by kernel_rfl
/-- `glm_vec3_angle` with its branches as a tree -/
def glm_vec3_angle_dt (a : V3 α) (b : V3 α) : DT (α) :=
  let norm := (lit 1) / (glm_vec3_norm a * glm_vec3_norm b)
  let dot := glm_vec3_dot a b * norm
  .br (flt (lit 1) dot) (
    .done (lit 0)) (
    .br (flt dot (-(lit 1))) (
      .done (lit 3.14159265358979323846264338327950288)) (
      .done (acosf dot)))
theorem glm_vec3_angle_dt_val (a : V3 α) (b : V3 α) : (glm_vec3_angle_dt a b).val = Cglm.glm_vec3_angle a b := by
  unfold glm_vec3_angle_dt
  simp only [DT.val]
  kernel_rfl
theorem glm_vec3_angle_run (a : V3 α) (b : V3 α) :
    C.glm_vec3_angle.runT (α := α) [⟨false, a.list.map .f⟩, ⟨false, b.list.map .f⟩] [.p 0 0, .p 1 0] =
      (Cglm.glm_vec3_angle_dt a b).map fun r => some (some (.f r), [⟨false, a.list.map .f⟩, ⟨false, b.list.map .f⟩]) := by kernel_rfl
/-- `glm_vec3_rotate` with its branches as a tree -/
def glm_vec3_rotate_dt (v : V3 α) (angle : α) (axis : V3 α) : DT (V3 α) :=
  let c := cosf angle
  let s := sinf angle
  DT.bind (glm_vec3_normalize_to_dt axis) fun k =>
  let v1 := glm_vec3_scale v c
  let v2 := glm_vec3_cross k v
  let v2_1 := glm_vec3_scale v2 s
  let v1_1 := glm_vec3_add v1 v2_1
  let v2_2 := glm_vec3_scale k (glm_vec3_dot k v * ((lit 1) - c))
  .done (glm_vec3_add v1_1 v2_2)
theorem glm_vec3_rotate_dt_val (v : V3 α) (angle : α) (axis : V3 α) : (glm_vec3_rotate_dt v angle axis).val = Cglm.glm_vec3_rotate v angle axis := by
  unfold glm_vec3_rotate_dt
  simp only [DT.val_bind, DT.val, glm_vec3_normalize_to_dt_val]
  kernel_rfl
theorem glm_vec3_rotate_run (v : V3 α) (angle : α) (axis : V3 α) :
    C.glm_vec3_rotate.runT (α := α) [⟨true, v.list.map .f⟩, ⟨false, axis.list.map .f⟩] [.p 0 0, .f angle, .p 1 0] =
      (Cglm.glm_vec3_rotate_dt v angle axis).map fun r => some (none, [⟨true, r.list.map .f⟩, ⟨false, axis.list.map .f⟩]) := by kernel_rfl
theorem glm_vec3_rotate_run_axis (v : V3 α) (angle : α) :
    C.glm_vec3_rotate.runT (α := α) [⟨true, v.list.map .f⟩] [.p 0 0, .f angle, .p 0 0] =
      (Cglm.glm_vec3_rotate_dt v angle v).map fun r => some (none, [⟨true, r.list.map .f⟩]) := by kernel_rfl
/-- `glm_vec3_rotate_m4` with its branches as a tree -/
def glm_vec3_rotate_m4_dt (m : M4 α) (v : V3 α) : DT (V3 α) :=
  DT.bind (glm_vec4_normalize_to_dt m.c0) fun x =>
  DT.bind (glm_vec4_normalize_to_dt m.c1) fun y =>
  DT.bind (glm_vec4_normalize_to_dt m.c2) fun z =>
  let res := glm_vec4_scale x v.x
  let res_1 := glm_vec4_muladds y v.y res
  let res_2 := glm_vec4_muladds z v.z res_1
  .done (glm_vec3 res_2)
theorem glm_vec3_rotate_m4_dt_val (m : M4 α) (v : V3 α) : (glm_vec3_rotate_m4_dt m v).val = Cglm.glm_vec3_rotate_m4 m v := by
  unfold glm_vec3_rotate_m4_dt
  simp only [DT.val_bind, DT.val, glm_vec4_normalize_to_dt_val]
  kernel_rfl
theorem glm_vec3_rotate_m4_run (m : M4 α) (v : V3 α) :
    C.glm_vec3_rotate_m4.runT (α := α) [⟨false, m.list.map .f⟩, ⟨false, v.list.map .f⟩, ⟨true, List.replicate 3 .undef⟩] [.p 0 0, .p 1 0, .p 2 0] =
      (Cglm.glm_vec3_rotate_m4_dt m v).map fun r => some (none, [⟨false, m.list.map .f⟩, ⟨false, v.list.map .f⟩, ⟨true, r.list.map .f⟩]) := by kernel_rfl
theorem glm_vec3_rotate_m4_run_v (m : M4 α) (v : V3 α) :
    C.glm_vec3_rotate_m4.runT (α := α) [⟨false, m.list.map .f⟩, ⟨true, v.list.map .f⟩] [.p 0 0, .p 1 0, .p 1 0] =
      (Cglm.glm_vec3_rotate_m4_dt m v).map fun r => some (none, [⟨false, m.list.map .f⟩, ⟨true, r.list.map .f⟩]) := by kernel_rfl
/-- `glm_vec3_rotate_m3` with its branches as a tree -/
def glm_vec3_rotate_m3_dt (m : M3 α) (v : V3 α) : DT (V3 α) :=
  let x := glm_vec4 m.c0 (lit 0)
  let y := glm_vec4 m.c1 (lit 0)
  let z := glm_vec4 m.c2 (lit 0)
  DT.bind (glm_vec4_normalize_dt x) fun x_1 =>
  DT.bind (glm_vec4_normalize_dt y) fun y_1 =>
  DT.bind (glm_vec4_normalize_dt z) fun z_1 =>
  let res := glm_vec4_scale x_1 v.x
  let res_1 := glm_vec4_muladds y_1 v.y res
  let res_2 := glm_vec4_muladds z_1 v.z res_1
  .done (glm_vec3 res_2)
theorem glm_vec3_rotate_m3_dt_val (m : M3 α) (v : V3 α) : (glm_vec3_rotate_m3_dt m v).val = Cglm.glm_vec3_rotate_m3 m v := by
  unfold glm_vec3_rotate_m3_dt
  simp only [DT.val_bind, DT.val, glm_vec4_normalize_dt_val]
  kernel_rfl
theorem glm_vec3_rotate_m3_run (m : M3 α) (v : V3 α) :
    C.glm_vec3_rotate_m3.runT (α := α) [⟨false, m.list.map .f⟩, ⟨false, v.list.map .f⟩, ⟨true, List.replicate 3 .undef⟩] [.p 0 0, .p 1 0, .p 2 0] =
      (Cglm.glm_vec3_rotate_m3_dt m v).map fun r => some (none, [⟨false, m.list.map .f⟩, ⟨false, v.list.map .f⟩, ⟨true, r.list.map .f⟩]) := by kernel_rfl
theorem glm_vec3_rotate_m3_run_v (m : M3 α) (v : V3 α) :
    C.glm_vec3_rotate_m3.runT (α := α) [⟨false, m.list.map .f⟩, ⟨true, v.list.map .f⟩] [.p 0 0, .p 1 0, .p 1 0] =
      (Cglm.glm_vec3_rotate_m3_dt m v).map fun r => some (none, [⟨false, m.list.map .f⟩, ⟨true, r.list.map .f⟩]) := by kernel_rfl
theorem glm_vec3_proj_run (a : V3 α) (b : V3 α) :
    C.glm_vec3_proj.runT (α := α) [⟨false, a.list.map .f⟩, ⟨false, b.list.map .f⟩, ⟨true, List.replicate 3 .undef⟩] [.p 0 0, .p 1 0, .p 2 0] =
      .done (some (none, [⟨false, a.list.map .f⟩, ⟨false, b.list.map .f⟩, ⟨true, (Cglm.glm_vec3_proj a b).list.map .f⟩])) := by kernel_rfl
theorem glm_vec3_proj_run_b (a : V3 α) (b : V3 α) :
    C.glm_vec3_proj.runT (α := α) [⟨false, a.list.map .f⟩, ⟨true, b.list.map .f⟩] [.p 0 0, .p 1 0, .p 1 0] =
      .done (some (none, [⟨false, a.list.map .f⟩, ⟨true, (Cglm.glm_vec3_proj a b).list.map .f⟩])) := by kernel_rfl
theorem glm_vec3_proj_run_a (a : V3 α) (b : V3 α) :
    C.glm_vec3_proj.runT (α := α) [⟨false, b.list.map .f⟩, ⟨true, a.list.map .f⟩] [.p 1 0, .p 0 0, .p 1 0] =
      .done (some (none, [⟨false, b.list.map .f⟩, ⟨true, (Cglm.glm_vec3_proj a b).list.map .f⟩])) := by kernel_rfl
theorem glm_vec3_proj_run_a_b (a : V3 α) :
    C.glm_vec3_proj.runT (α := α) [⟨true, a.list.map .f⟩] [.p 0 0, .p 0 0, .p 0 0] =
      .done (some (none, [⟨true, (Cglm.glm_vec3_proj a a).list.map .f⟩])) := by kernel_rfl
theorem glm_vec3_center_run (a : V3 α) (b : V3 α) :
    C.glm_vec3_center.runT (α := α) [⟨false, a.list.map .f⟩, ⟨false, b.list.map .f⟩, ⟨true, List.replicate 3 .undef⟩] [.p 0 0, .p 1 0, .p 2 0] =
      .done (some (none, [⟨false, a.list.map .f⟩, ⟨false, b.list.map .f⟩, ⟨true, (Cglm.glm_vec3_center a b).list.map .f⟩])) := by kernel_rfl
theorem glm_vec3_center_run_b (a : V3 α) (b : V3 α) :
    C.glm_vec3_center.runT (α := α) [⟨false, a.list.map .f⟩, ⟨true, b.list.map .f⟩] [.p 0 0, .p 1 0, .p 1 0] =
      .done (some (none, [⟨false, a.list.map .f⟩, ⟨true, (Cglm.glm_vec3_center a b).list.map .f⟩])) := by kernel_rfl
theorem glm_vec3_center_run_a (a : V3 α) (b : V3 α) :
    C.glm_vec3_center.runT (α := α) [⟨false, b.list.map .f⟩, ⟨true, a.list.map .f⟩] [.p 1 0, .p 0 0, .p 1 0] =
      .done (some (none, [⟨false, b.list.map .f⟩, ⟨true, (Cglm.glm_vec3_center a b).list.map .f⟩])) := by kernel_rfl
theorem glm_vec3_center_run_a_b (a : V3 α) :
    C.glm_vec3_center.runT (α := α) [⟨true, a.list.map .f⟩] [.p 0 0, .p 0 0, .p 0 0] =
      .done (some (none, [⟨true, (Cglm.glm_vec3_center a a).list.map .f⟩])) := by kernel_rfl
theorem glm_vec3_distance2_run (a : V3 α) (b : V3 α) :
    C.glm_vec3_distance2.runT (α := α) [⟨false, a.list.map .f⟩, ⟨false, b.list.map .f⟩] [.p 0 0, .p 1 0] =
      .done (some (some (.f (Cglm.glm_vec3_distance2 a b)), [⟨false, a.list.map .f⟩, ⟨false, b.list.map .f⟩])) := by kernel_rfl
theorem glm_vec3_distance_run (a : V3 α) (b : V3 α) :
    C.glm_vec3_distance.runT (α := α) [⟨false, a.list.map .f⟩, ⟨false, b.list.map .f⟩] [.p 0 0, .p 1 0] =
      .done (some (some (.f (Cglm.glm_vec3_distance a b)), [⟨false, a.list.map .f⟩, ⟨false, b.list.map .f⟩])) := by kernel_rfl
theorem glm_vec3_maxv_run (a : V3 α) (b : V3 α) :
    C.glm_vec3_maxv.runT (α := α) [⟨false, a.list.map .f⟩, ⟨false, b.list.map .f⟩, ⟨true, List.replicate 3 .undef⟩] [.p 0 0, .p 1 0, .p 2 0] =
      .done (some (none, [⟨false, a.list.map .f⟩, ⟨false, b.list.map .f⟩, ⟨true, (Cglm.glm_vec3_maxv a b).list.map .f⟩])) := by kernel_rfl
theorem glm_vec3_maxv_run_b (a : V3 α) (b : V3 α) :
    C.glm_vec3_maxv.runT (α := α) [⟨false, a.list.map .f⟩, ⟨true, b.list.map .f⟩] [.p 0 0, .p 1 0, .p 1 0] =
      .done (some (none, [⟨false, a.list.map .f⟩, ⟨true, (Cglm.glm_vec3_maxv a b).list.map .f⟩])) := by kernel_rfl
theorem glm_vec3_maxv_run_a (a : V3 α) (b : V3 α) :
    C.glm_vec3_maxv.runT (α := α) [⟨false, b.list.map .f⟩, ⟨true, a.list.map .f⟩] [.p 1 0, .p 0 0, .p 1 0] =
      .done (some (none, [⟨false, b.list.map .f⟩, ⟨true, (Cglm.glm_vec3_maxv a b).list.map .f⟩])) := by kernel_rfl
theorem glm_vec3_maxv_run_a_b (a : V3 α) :
    C.glm_vec3_maxv.runT (α := α) [⟨true, a.list.map .f⟩] [.p 0 0, .p 0 0, .p 0 0] =
      .done (some (none, [⟨true, (Cglm.glm_vec3_maxv a a).list.map .f⟩])) := by kernel_rfl
theorem glm_vec3_minv_run (a : V3 α) (b : V3 α) :
    C.glm_vec3_minv.runT (α := α) [⟨false, a.list.map .f⟩, ⟨false, b.list.map .f⟩, ⟨true, List.replicate 3 .undef⟩] [.p 0 0, .p 1 0, .p 2 0] =
      .done (some (none, [⟨false, a.list.map .f⟩, ⟨false, b.list.map .f⟩, ⟨true, (Cglm.glm_vec3_minv a b).list.map .f⟩])) := by kernel_rfl
theorem glm_vec3_minv_run_b (a : V3 α) (b : V3 α) :
    C.glm_vec3_minv.runT (α := α) [⟨false, a.list.map .f⟩, ⟨true, b.list.map .f⟩] [.p 0 0, .p 1 0, .p 1 0] =
      .done (some (none, [⟨false, a.list.map .f⟩, ⟨true, (Cglm.glm_vec3_minv a b).list.map .f⟩])) := by kernel_rfl
theorem glm_vec3_minv_run_a (a : V3 α) (b : V3 α) :
    C.glm_vec3_minv.runT (α := α) [⟨false, b.list.map .f⟩, ⟨true, a.list.map .f⟩] [.p 1 0, .p 0 0, .p 1 0] =
      .done (some (none, [⟨false, b.list.map .f⟩, ⟨true, (Cglm.glm_vec3_minv a b).list.map .f⟩])) := by kernel_rfl
theorem glm_vec3_minv_run_a_b (a : V3 α) :
    C.glm_vec3_minv.runT (α := α) [⟨true, a.list.map .f⟩] [.p 0 0, .p 0 0, .p 0 0] =
      .done (some (none, [⟨true, (Cglm.glm_vec3_minv a a).list.map .f⟩])) := by kernel_rfl
theorem glm_vec3_ortho_run (v : V3 α) :
    C.glm_vec3_ortho.runT (α := α) [⟨false, v.list.map .f⟩, ⟨true, List.replicate 3 .undef⟩] [.p 0 0, .p 1 0] =
      .done (some (none, [⟨false, v.list.map .f⟩, ⟨true, (Cglm.glm_vec3_ortho v).list.map .f⟩])) := by kernel_rfl
theorem glm_vec3_ortho_run_v (v : V3 α) :
    C.glm_vec3_ortho.runT (α := α) [⟨true, v.list.map .f⟩] [.p 0 0, .p 0 0] =
      .done (some (none, [⟨true, (Cglm.glm_vec3_ortho v).list.map .f⟩])) := by kernel_rfl
theorem glm_vec3_clamp_run (v : V3 α) (minVal : α) (maxVal : α) :
    C.glm_vec3_clamp.runT (α := α) [⟨true, v.list.map .f⟩] [.p 0 0, .f minVal, .f maxVal] =
      .done (some (none, [⟨true, (Cglm.glm_vec3_clamp v minVal maxVal).list.map .f⟩])) := by kernel_rfl
theorem glm_vec3_lerp_run (frm : V3 α) («to» : V3 α) (t : α) :
    C.glm_vec3_lerp.runT (α := α) [⟨false, frm.list.map .f⟩, ⟨false, «to».list.map .f⟩, ⟨true, List.replicate 3 .undef⟩] [.p 0 0, .p 1 0, .f t, .p 2 0] =
      .done (some (none, [⟨false, frm.list.map .f⟩, ⟨false, «to».list.map .f⟩, ⟨true, (Cglm.glm_vec3_lerp frm «to» t).list.map .f⟩])) := by kernel_rfl
theorem glm_vec3_lerp_run_to (frm : V3 α) («to» : V3 α) (t : α) :
    C.glm_vec3_lerp.runT (α := α) [⟨false, frm.list.map .f⟩, ⟨true, «to».list.map .f⟩] [.p 0 0, .p 1 0, .f t, .p 1 0] =
      .done (some (none, [⟨false, frm.list.map .f⟩, ⟨true, (Cglm.glm_vec3_lerp frm «to» t).list.map .f⟩])) := by kernel_rfl
theorem glm_vec3_lerp_run_from (frm : V3 α) («to» : V3 α) (t : α) :
    C.glm_vec3_lerp.runT (α := α) [⟨false, «to».list.map .f⟩, ⟨true, frm.list.map .f⟩] [.p 1 0, .p 0 0, .f t, .p 1 0] =
      .done (some (none, [⟨false, «to».list.map .f⟩, ⟨true, (Cglm.glm_vec3_lerp frm «to» t).list.map .f⟩])) := by kernel_rfl
theorem glm_vec3_lerp_run_from_to (frm : V3 α) (t : α) :
    C.glm_vec3_lerp.runT (α := α) [⟨true, frm.list.map .f⟩] [.p 0 0, .p 0 0, .f t, .p 0 0] =
      .done (some (none, [⟨true, (Cglm.glm_vec3_lerp frm frm t).list.map .f⟩])) := by kernel_rfl
theorem glm_vec3_lerpc_run (frm : V3 α) («to» : V3 α) (t : α) :
    C.glm_vec3_lerpc.runT (α := α) [⟨false, frm.list.map .f⟩, ⟨false, «to».list.map .f⟩, ⟨true, List.replicate 3 .undef⟩] [.p 0 0, .p 1 0, .f t, .p 2 0] =
      .done (some (none, [⟨false, frm.list.map .f⟩, ⟨false, «to».list.map .f⟩, ⟨true, (Cglm.glm_vec3_lerpc frm «to» t).list.map .f⟩])) := by kernel_rfl
theorem glm_vec3_lerpc_run_to (frm : V3 α) («to» : V3 α) (t : α) :
    C.glm_vec3_lerpc.runT (α := α) [⟨false, frm.list.map .f⟩, ⟨true, «to».list.map .f⟩] [.p 0 0, .p 1 0, .f t, .p 1 0] =
      .done (some (none, [⟨false, frm.list.map .f⟩, ⟨true, (Cglm.glm_vec3_lerpc frm «to» t).list.map .f⟩])) := by kernel_rfl
theorem glm_vec3_lerpc_run_from (frm : V3 α) («to» : V3 α) (t : α) :
    C.glm_vec3_lerpc.runT (α := α) [⟨false, «to».list.map .f⟩, ⟨true, frm.list.map .f⟩] [.p 1 0, .p 0 0, .f t, .p 1 0] =
      .done (some (none, [⟨false, «to».list.map .f⟩, ⟨true, (Cglm.glm_vec3_lerpc frm «to» t).list.map .f⟩])) := by kernel_rfl
theorem glm_vec3_lerpc_run_from_to (frm : V3 α) (t : α) :
    C.glm_vec3_lerpc.runT (α := α) [⟨true, frm.list.map .f⟩] [.p 0 0, .p 0 0, .f t, .p 0 0] =
      .done (some (none, [⟨true, (Cglm.glm_vec3_lerpc frm frm t).list.map .f⟩])) := by kernel_rfl
theorem glm_vec3_mix_run (frm : V3 α) («to» : V3 α) (t : α) :
    C.glm_vec3_mix.runT (α := α) [⟨false, frm.list.map .f⟩, ⟨false, «to».list.map .f⟩, ⟨true, List.replicate 3 .undef⟩] [.p 0 0, .p 1 0, .f t, .p 2 0] =
      .done (some (none, [⟨false, frm.list.map .f⟩, ⟨false, «to».list.map .f⟩, ⟨true, (Cglm.glm_vec3_mix frm «to» t).list.map .f⟩])) := by kernel_rfl
theorem glm_vec3_mix_run_to (frm : V3 α) («to» : V3 α) (t : α) :
    C.glm_vec3_mix.runT (α := α) [⟨false, frm.list.map .f⟩, ⟨true, «to».list.map .f⟩] [.p 0 0, .p 1 0, .f t, .p 1 0] =
      .done (some (none, [⟨false, frm.list.map .f⟩, ⟨true, (Cglm.glm_vec3_mix frm «to» t).list.map .f⟩])) := by kernel_rfl
theorem glm_vec3_mix_run_from (frm : V3 α) («to» : V3 α) (t : α) :
    C.glm_vec3_mix.runT (α := α) [⟨false, «to».list.map .f⟩, ⟨true, frm.list.map .f⟩] [.p 1 0, .p 0 0, .f t, .p 1 0] =
      .done (some (none, [⟨false, «to».list.map .f⟩, ⟨true, (Cglm.glm_vec3_mix frm «to» t).list.map .f⟩])) := by kernel_rfl
theorem glm_vec3_mix_run_from_to (frm : V3 α) (t : α) :
    C.glm_vec3_mix.runT (α := α) [⟨true, frm.list.map .f⟩] [.p 0 0, .p 0 0, .f t, .p 0 0] =
      .done (some (none, [⟨true, (Cglm.glm_vec3_mix frm frm t).list.map .f⟩])) := by kernel_rfl
theorem glm_vec3_mixc_run (frm : V3 α) («to» : V3 α) (t : α) :
    C.glm_vec3_mixc.runT (α := α) [⟨false, frm.list.map .f⟩, ⟨false, «to».list.map .f⟩, ⟨true, List.replicate 3 .undef⟩] [.p 0 0, .p 1 0, .f t, .p 2 0] =
      .done (some (none, [⟨false, frm.list.map .f⟩, ⟨false, «to».list.map .f⟩, ⟨true, (Cglm.glm_vec3_mixc frm «to» t).list.map .f⟩])) := by kernel_rfl
theorem glm_vec3_mixc_run_to (frm : V3 α) («to» : V3 α) (t : α) :
    C.glm_vec3_mixc.runT (α := α) [⟨false, frm.list.map .f⟩, ⟨true, «to».list.map .f⟩] [.p 0 0, .p 1 0, .f t, .p 1 0] =
      .done (some (none, [⟨false, frm.list.map .f⟩, ⟨true, (Cglm.glm_vec3_mixc frm «to» t).list.map .f⟩])) := by kernel_rfl
theorem glm_vec3_mixc_run_from (frm : V3 α) («to» : V3 α) (t : α) :
    C.glm_vec3_mixc.runT (α := α) [⟨false, «to».list.map .f⟩, ⟨true, frm.list.map .f⟩] [.p 1 0, .p 0 0, .f t, .p 1 0] =
      .done (some (none, [⟨false, «to».list.map .f⟩, ⟨true, (Cglm.glm_vec3_mixc frm «to» t).list.map .f⟩])) := by kernel_rfl
theorem glm_vec3_mixc_run_from_to (frm : V3 α) (t : α) :
    C.glm_vec3_mixc.runT (α := α) [⟨true, frm.list.map .f⟩] [.p 0 0, .p 0 0, .f t, .p 0 0] =
      .done (some (none, [⟨true, (Cglm.glm_vec3_mixc frm frm t).list.map .f⟩])) := by kernel_rfl
theorem glm_vec3_step_run (edge : V3 α) (x : V3 α) :
    C.glm_vec3_step.runT (α := α) [⟨false, edge.list.map .f⟩, ⟨false, x.list.map .f⟩, ⟨true, List.replicate 3 .undef⟩] [.p 0 0, .p 1 0, .p 2 0] =
      .done (some (none, [⟨false, edge.list.map .f⟩, ⟨false, x.list.map .f⟩, ⟨true, (Cglm.glm_vec3_step edge x).list.map .f⟩])) := by kernel_rfl
theorem glm_vec3_step_run_x (edge : V3 α) (x : V3 α) :
    C.glm_vec3_step.runT (α := α) [⟨false, edge.list.map .f⟩, ⟨true, x.list.map .f⟩] [.p 0 0, .p 1 0, .p 1 0] =
      .done (some (none, [⟨false, edge.list.map .f⟩, ⟨true, (Cglm.glm_vec3_step edge x).list.map .f⟩])) := by kernel_rfl
theorem glm_vec3_step_run_edge (edge : V3 α) (x : V3 α) :
    C.glm_vec3_step.runT (α := α) [⟨false, x.list.map .f⟩, ⟨true, edge.list.map .f⟩] [.p 1 0, .p 0 0, .p 1 0] =
      .done (some (none, [⟨false, x.list.map .f⟩, ⟨true, (Cglm.glm_vec3_step edge x).list.map .f⟩])) := by kernel_rfl
theorem glm_vec3_step_run_edge_x (edge : V3 α) :
    C.glm_vec3_step.runT (α := α) [⟨true, edge.list.map .f⟩] [.p 0 0, .p 0 0, .p 0 0] =
      .done (some (none, [⟨true, (Cglm.glm_vec3_step edge edge).list.map .f⟩])) := by kernel_rfl
theorem glm_vec3_smoothstep_uni_run (edge0 : α) (edge1 : α) (x : V3 α) :
    C.glm_vec3_smoothstep_uni.runT (α := α) [⟨false, x.list.map .f⟩, ⟨true, List.replicate 3 .undef⟩] [.f edge0, .f edge1, .p 0 0, .p 1 0] =
      .done (some (none, [⟨false, x.list.map .f⟩, ⟨true, (Cglm.glm_vec3_smoothstep_uni edge0 edge1 x).list.map .f⟩])) := by kernel_rfl
theorem glm_vec3_smoothstep_uni_run_x (edge0 : α) (edge1 : α) (x : V3 α) :
    C.glm_vec3_smoothstep_uni.runT (α := α) [⟨true, x.list.map .f⟩] [.f edge0, .f edge1, .p 0 0, .p 0 0] =
      .done (some (none, [⟨true, (Cglm.glm_vec3_smoothstep_uni edge0 edge1 x).list.map .f⟩])) := by kernel_rfl
theorem glm_vec3_smoothstep_run (edge0 : V3 α) (edge1 : V3 α) (x : V3 α) :
    C.glm_vec3_smoothstep.runT (α := α) [⟨false, edge0.list.map .f⟩, ⟨false, edge1.list.map .f⟩, ⟨false, x.list.map .f⟩, ⟨true, List.replicate 3 .undef⟩] [.p 0 0, .p 1 0, .p 2 0, .p 3 0] =
      .done (some (none, [⟨false, edge0.list.map .f⟩, ⟨false, edge1.list.map .f⟩, ⟨false, x.list.map .f⟩, ⟨true, (Cglm.glm_vec3_smoothstep edge0 edge1 x).list.map .f⟩])) := by kernel_rfl
theorem glm_vec3_smoothstep_run_x (edge0 : V3 α) (edge1 : V3 α) (x : V3 α) :
    C.glm_vec3_smoothstep.runT (α := α) [⟨false, edge0.list.map .f⟩, ⟨false, edge1.list.map .f⟩, ⟨true, x.list.map .f⟩] [.p 0 0, .p 1 0, .p 2 0, .p 2 0] =
      .done (some (none, [⟨false, edge0.list.map .f⟩, ⟨false, edge1.list.map .f⟩, ⟨true, (Cglm.glm_vec3_smoothstep edge0 edge1 x).list.map .f⟩])) := by kernel_rfl
theorem glm_vec3_smoothstep_run_edge1 (edge0 : V3 α) (edge1 : V3 α) (x : V3 α) :
    C.glm_vec3_smoothstep.runT (α := α) [⟨false, edge0.list.map .f⟩, ⟨false, x.list.map .f⟩, ⟨true, edge1.list.map .f⟩] [.p 0 0, .p 2 0, .p 1 0, .p 2 0] =
      .done (some (none, [⟨false, edge0.list.map .f⟩, ⟨false, x.list.map .f⟩, ⟨true, (Cglm.glm_vec3_smoothstep edge0 edge1 x).list.map .f⟩])) := by kernel_rfl
theorem glm_vec3_smoothstep_run_edge1_x (edge0 : V3 α) (edge1 : V3 α) :
    C.glm_vec3_smoothstep.runT (α := α) [⟨false, edge0.list.map .f⟩, ⟨true, edge1.list.map .f⟩] [.p 0 0, .p 1 0, .p 1 0, .p 1 0] =
      .done (some (none, [⟨false, edge0.list.map .f⟩, ⟨true, (Cglm.glm_vec3_smoothstep edge0 edge1 edge1).list.map .f⟩])) := by kernel_rfl
theorem glm_vec3_smoothstep_run_edge0 (edge0 : V3 α) (edge1 : V3 α) (x : V3 α) :
    C.glm_vec3_smoothstep.runT (α := α) [⟨false, edge1.list.map .f⟩, ⟨false, x.list.map .f⟩, ⟨true, edge0.list.map .f⟩] [.p 2 0, .p 0 0, .p 1 0, .p 2 0] =
      .done (some (none, [⟨false, edge1.list.map .f⟩, ⟨false, x.list.map .f⟩, ⟨true, (Cglm.glm_vec3_smoothstep edge0 edge1 x).list.map .f⟩])) := by kernel_rfl
theorem glm_vec3_smoothstep_run_edge0_x (edge0 : V3 α) (edge1 : V3 α) :
    C.glm_vec3_smoothstep.runT (α := α) [⟨false, edge1.list.map .f⟩, ⟨true, edge0.list.map .f⟩] [.p 1 0, .p 0 0, .p 1 0, .p 1 0] =
      .done (some (none, [⟨false, edge1.list.map .f⟩, ⟨true, (Cglm.glm_vec3_smoothstep edge0 edge1 edge0).list.map .f⟩])) := by kernel_rfl
theorem glm_vec3_smoothstep_run_edge0_edge1 (edge0 : V3 α) (x : V3 α) :
    C.glm_vec3_smoothstep.runT (α := α) [⟨false, x.list.map .f⟩, ⟨true, edge0.list.map .f⟩] [.p 1 0, .p 1 0, .p 0 0, .p 1 0] =
      .done (some (none, [⟨false, x.list.map .f⟩, ⟨true, (Cglm.glm_vec3_smoothstep edge0 edge0 x).list.map .f⟩])) := by kernel_rfl
theorem glm_vec3_smoothstep_run_edge0_edge1_x (edge0 : V3 α) :
    C.glm_vec3_smoothstep.runT (α := α) [⟨true, edge0.list.map .f⟩] [.p 0 0, .p 0 0, .p 0 0, .p 0 0] =
      .done (some (none, [⟨true, (Cglm.glm_vec3_smoothstep edge0 edge0 edge0).list.map .f⟩])) := by kernel_rfl
theorem glm_vec3_smoothinterp_run (frm : V3 α) («to» : V3 α) (t : α) :
    C.glm_vec3_smoothinterp.runT (α := α) [⟨false, frm.list.map .f⟩, ⟨false, «to».list.map .f⟩, ⟨true, List.replicate 3 .undef⟩] [.p 0 0, .p 1 0, .f t, .p 2 0] =
      .done (some (none, [⟨false, frm.list.map .f⟩, ⟨false, «to».list.map .f⟩, ⟨true, (Cglm.glm_vec3_smoothinterp frm «to» t).list.map .f⟩])) := by kernel_rfl
theorem glm_vec3_smoothinterp_run_to (frm : V3 α) («to» : V3 α) (t : α) :
    C.glm_vec3_smoothinterp.runT (α := α) [⟨false, frm.list.map .f⟩, ⟨true, «to».list.map .f⟩] [.p 0 0, .p 1 0, .f t, .p 1 0] =
      .done (some (none, [⟨false, frm.list.map .f⟩, ⟨true, (Cglm.glm_vec3_smoothinterp frm «to» t).list.map .f⟩])) := by kernel_rfl
theorem glm_vec3_smoothinterp_run_from (frm : V3 α) («to» : V3 α) (t : α) :
    C.glm_vec3_smoothinterp.runT (α := α) [⟨false, «to».list.map .f⟩, ⟨true, frm.list.map .f⟩] [.p 1 0, .p 0 0, .f t, .p 1 0] =
      .done (some (none, [⟨false, «to».list.map .f⟩, ⟨true, (Cglm.glm_vec3_smoothinterp frm «to» t).list.map .f⟩])) := by kernel_rfl
theorem glm_vec3_smoothinterp_run_from_to (frm : V3 α) (t : α) :
    C.glm_vec3_smoothinterp.runT (α := α) [⟨true, frm.list.map .f⟩] [.p 0 0, .p 0 0, .f t, .p 0 0] =
      .done (some (none, [⟨true, (Cglm.glm_vec3_smoothinterp frm frm t).list.map .f⟩])) := by kernel_rfl
theorem glm_vec3_smoothinterpc_run (frm : V3 α) («to» : V3 α) (t : α) :
    C.glm_vec3_smoothinterpc.runT (α := α) [⟨false, frm.list.map .f⟩, ⟨false, «to».list.map .f⟩, ⟨true, List.replicate 3 .undef⟩] [.p 0 0, .p 1 0, .f t, .p 2 0] =
      .done (some (none, [⟨false, frm.list.map .f⟩, ⟨false, «to».list.map .f⟩, ⟨true, (Cglm.glm_vec3_smoothinterpc frm «to» t).list.map .f⟩])) := by kernel_rfl
theorem glm_vec3_smoothinterpc_run_to (frm : V3 α) («to» : V3 α) (t : α) :
    C.glm_vec3_smoothinterpc.runT (α := α) [⟨false, frm.list.map .f⟩, ⟨true, «to».list.map .f⟩] [.p 0 0, .p 1 0, .f t, .p 1 0] =
      .done (some (none, [⟨false, frm.list.map .f⟩, ⟨true, (Cglm.glm_vec3_smoothinterpc frm «to» t).list.map .f⟩])) := by kernel_rfl
theorem glm_vec3_smoothinterpc_run_from (frm : V3 α) («to» : V3 α) (t : α) :
    C.glm_vec3_smoothinterpc.runT (α := α) [⟨false, «to».list.map .f⟩, ⟨true, frm.list.map .f⟩] [.p 1 0, .p 0 0, .f t, .p 1 0] =
      .done (some (none, [⟨false, «to».list.map .f⟩, ⟨true, (Cglm.glm_vec3_smoothinterpc frm «to» t).list.map .f⟩])) := by kernel_rfl
theorem glm_vec3_smoothinterpc_run_from_to (frm : V3 α) (t : α) :
    C.glm_vec3_smoothinterpc.runT (α := α) [⟨true, frm.list.map .f⟩] [.p 0 0, .p 0 0, .f t, .p 0 0] =
      .done (some (none, [⟨true, (Cglm.glm_vec3_smoothinterpc frm frm t).list.map .f⟩])) := by kernel_rfl
theorem glm_cross_run (a : V3 α) (b : V3 α) :
    C.glm_cross.runT (α := α) [⟨false, a.list.map .f⟩, ⟨false, b.list.map .f⟩, ⟨true, List.replicate 3 .undef⟩] [.p 0 0, .p 1 0, .p 2 0] =
      .done (some (none, [⟨false, a.list.map .f⟩, ⟨false, b.list.map .f⟩, ⟨true, (Cglm.glm_cross a b).list.map .f⟩])) := by kernel_rfl
theorem glm_cross_run_b (a : V3 α) (b : V3 α) :
    C.glm_cross.runT (α := α) [⟨false, a.list.map .f⟩, ⟨true, b.list.map .f⟩] [.p 0 0, .p 1 0, .p 1 0] =
      .done (some (none, [⟨false, a.list.map .f⟩, ⟨true, (Cglm.glm_cross a b).list.map .f⟩])) := by kernel_rfl
theorem glm_cross_run_a (a : V3 α) (b : V3 α) :
    C.glm_cross.runT (α := α) [⟨false, b.list.map .f⟩, ⟨true, a.list.map .f⟩] [.p 1 0, .p 0 0, .p 1 0] =
      .done (some (none, [⟨false, b.list.map .f⟩, ⟨true, (Cglm.glm_cross a b).list.map .f⟩])) := by kernel_rfl
theorem glm_cross_run_a_b (a : V3 α) :
    C.glm_cross.runT (α := α) [⟨true, a.list.map .f⟩] [.p 0 0, .p 0 0, .p 0 0] =
      .done (some (none, [⟨true, (Cglm.glm_cross a a).list.map .f⟩])) := by kernel_rfl
theorem glm_dot_run (a : V3 α) (b : V3 α) :
    C.glm_dot.runT (α := α) [⟨false, a.list.map .f⟩, ⟨false, b.list.map .f⟩] [.p 0 0, .p 1 0] =
      .done (some (some (.f (Cglm.glm_dot a b)), [⟨false, a.list.map .f⟩, ⟨false, b.list.map .f⟩])) := by kernel_rfl
/-- `glm_normalize` with its branches as a tree -/
def glm_normalize_dt (v : V3 α) : DT (V3 α) :=
  DT.bind (glm_vec3_normalize_dt v) fun v_1 =>
  .done v_1
theorem glm_normalize_dt_val (v : V3 α) : (glm_normalize_dt v).val = Cglm.glm_normalize v := by
  unfold glm_normalize_dt
  simp only [DT.val_bind, DT.val, glm_vec3_normalize_dt_val]
  kernel_rfl
theorem glm_normalize_run (v : V3 α) :
    C.glm_normalize.runT (α := α) [⟨true, v.list.map .f⟩] [.p 0 0] =
      (Cglm.glm_normalize_dt v).map fun r => some (none, [⟨true, r.list.map .f⟩]) := by kernel_rfl
/-- `glm_normalize_to` with its branches as a tree -/
def glm_normalize_to_dt (v : V3 α) : DT (V3 α) :=
  DT.bind (glm_vec3_normalize_to_dt v) fun dest_1 =>
  .done dest_1
theorem glm_normalize_to_dt_val (v : V3 α) : (glm_normalize_to_dt v).val = Cglm.glm_normalize_to v := by
  unfold glm_normalize_to_dt
  simp only [DT.val_bind, DT.val, glm_vec3_normalize_to_dt_val]
  kernel_rfl
theorem glm_normalize_to_run (v : V3 α) :
    C.glm_normalize_to.runT (α := α) [⟨false, v.list.map .f⟩, ⟨true, List.replicate 3 .undef⟩] [.p 0 0, .p 1 0] =
      (Cglm.glm_normalize_to_dt v).map fun r => some (none, [⟨false, v.list.map .f⟩, ⟨true, r.list.map .f⟩]) := by kernel_rfl
theorem glm_normalize_to_run_v (v : V3 α) :
    C.glm_normalize_to.runT (α := α) [⟨true, v.list.map .f⟩] [.p 0 0, .p 0 0] =
      (Cglm.glm_normalize_to_dt v).map fun r => some (none, [⟨true, r.list.map .f⟩]) := by kernel_rfl
theorem glm_vec3_make_run (src : V3 α) :
    C.glm_vec3_make.runT (α := α) [⟨false, src.list.map .f⟩, ⟨true, List.replicate 3 .undef⟩] [.p 0 0, .p 1 0] =
      .done (some (none, [⟨false, src.list.map .f⟩, ⟨true, (Cglm.glm_vec3_make src).list.map .f⟩])) := by kernel_rfl
theorem glm_vec3_make_run_src (src : V3 α) :
    C.glm_vec3_make.runT (α := α) [⟨true, src.list.map .f⟩] [.p 0 0, .p 0 0] =
      .done (some (none, [⟨true, (Cglm.glm_vec3_make src).list.map .f⟩])) := by kernel_rfl
/-- `glm_vec3_faceforward` with its branches as a tree -/
def glm_vec3_faceforward_dt (n : V3 α) (v : V3 α) (nref : V3 α) : DT (V3 α) :=
  .br (flt (glm_vec3_dot v nref) (lit 0)) (
    .done (glm_vec3_copy n)) (
    .done (glm_vec3_negate_to n))
theorem glm_vec3_faceforward_dt_val (n : V3 α) (v : V3 α) (nref : V3 α) : (glm_vec3_faceforward_dt n v nref).val = Cglm.glm_vec3_faceforward n v nref := by
  unfold glm_vec3_faceforward_dt
  simp only [DT.val]
  kernel_rfl
theorem glm_vec3_faceforward_run (n : V3 α) (v : V3 α) (nref : V3 α) :
    C.glm_vec3_faceforward.runT (α := α) [⟨false, n.list.map .f⟩, ⟨false, v.list.map .f⟩, ⟨false, nref.list.map .f⟩, ⟨true, List.replicate 3 .undef⟩] [.p 0 0, .p 1 0, .p 2 0, .p 3 0] =
      (Cglm.glm_vec3_faceforward_dt n v nref).map fun r => some (none, [⟨false, n.list.map .f⟩, ⟨false, v.list.map .f⟩, ⟨false, nref.list.map .f⟩, ⟨true, r.list.map .f⟩]) := by kernel_rfl
theorem glm_vec3_faceforward_run_nref (n : V3 α) (v : V3 α) (nref : V3 α) :
    C.glm_vec3_faceforward.runT (α := α) [⟨false, n.list.map .f⟩, ⟨false, v.list.map .f⟩, ⟨true, nref.list.map .f⟩] [.p 0 0, .p 1 0, .p 2 0, .p 2 0] =
      (Cglm.glm_vec3_faceforward_dt n v nref).map fun r => some (none, [⟨false, n.list.map .f⟩, ⟨false, v.list.map .f⟩, ⟨true, r.list.map .f⟩]) := by kernel_rfl
theorem glm_vec3_faceforward_run_v (n : V3 α) (v : V3 α) (nref : V3 α) :
    C.glm_vec3_faceforward.runT (α := α) [⟨false, n.list.map .f⟩, ⟨false, nref.list.map .f⟩, ⟨true, v.list.map .f⟩] [.p 0 0, .p 2 0, .p 1 0, .p 2 0] =
      (Cglm.glm_vec3_faceforward_dt n v nref).map fun r => some (none, [⟨false, n.list.map .f⟩, ⟨false, nref.list.map .f⟩, ⟨true, r.list.map .f⟩]) := by kernel_rfl
theorem glm_vec3_faceforward_run_v_nref (n : V3 α) (v : V3 α) :
    C.glm_vec3_faceforward.runT (α := α) [⟨false, n.list.map .f⟩, ⟨true, v.list.map .f⟩] [.p 0 0, .p 1 0, .p 1 0, .p 1 0] =
      (Cglm.glm_vec3_faceforward_dt n v v).map fun r => some (none, [⟨false, n.list.map .f⟩, ⟨true, r.list.map .f⟩]) := by kernel_rfl
theorem glm_vec3_faceforward_run_n (n : V3 α) (v : V3 α) (nref : V3 α) :
    C.glm_vec3_faceforward.runT (α := α) [⟨false, v.list.map .f⟩, ⟨false, nref.list.map .f⟩, ⟨true, n.list.map .f⟩] [.p 2 0, .p 0 0, .p 1 0, .p 2 0] =
      (Cglm.glm_vec3_faceforward_dt n v nref).map fun r => some (none, [⟨false, v.list.map .f⟩, ⟨false, nref.list.map .f⟩, ⟨true, r.list.map .f⟩]) := by kernel_rfl
theorem glm_vec3_faceforward_run_n_nref (n : V3 α) (v : V3 α) :
    C.glm_vec3_faceforward.runT (α := α) [⟨false, v.list.map .f⟩, ⟨true, n.list.map .f⟩] [.p 1 0, .p 0 0, .p 1 0, .p 1 0] =
      (Cglm.glm_vec3_faceforward_dt n v n).map fun r => some (none, [⟨false, v.list.map .f⟩, ⟨true, r.list.map .f⟩]) := by kernel_rfl
theorem glm_vec3_faceforward_run_n_v (n : V3 α) (nref : V3 α) :
    C.glm_vec3_faceforward.runT (α := α) [⟨false, nref.list.map .f⟩, ⟨true, n.list.map .f⟩] [.p 1 0, .p 1 0, .p 0 0, .p 1 0] =
      (Cglm.glm_vec3_faceforward_dt n n nref).map fun r => some (none, [⟨false, nref.list.map .f⟩, ⟨true, r.list.map .f⟩]) := by kernel_rfl
theorem glm_vec3_faceforward_run_n_v_nref (n : V3 α) :
    C.glm_vec3_faceforward.runT (α := α) [⟨true, n.list.map .f⟩] [.p 0 0, .p 0 0, .p 0 0, .p 0 0] =
      (Cglm.glm_vec3_faceforward_dt n n n).map fun r => some (none, [⟨true, r.list.map .f⟩]) := by kernel_rfl
theorem glm_vec3_reflect_run (v : V3 α) (n : V3 α) :
    C.glm_vec3_reflect.runT (α := α) [⟨false, v.list.map .f⟩, ⟨false, n.list.map .f⟩, ⟨true, List.replicate 3 .undef⟩] [.p 0 0, .p 1 0, .p 2 0] =
      .done (some (none, [⟨false, v.list.map .f⟩, ⟨false, n.list.map .f⟩, ⟨true, (Cglm.glm_vec3_reflect v n).list.map .f⟩])) := by kernel_rfl
theorem glm_vec3_reflect_run_n (v : V3 α) (n : V3 α) :
    C.glm_vec3_reflect.runT (α := α) [⟨false, v.list.map .f⟩, ⟨true, n.list.map .f⟩] [.p 0 0, .p 1 0, .p 1 0] =
      .done (some (none, [⟨false, v.list.map .f⟩, ⟨true, (Cglm.glm_vec3_reflect v n).list.map .f⟩])) := by kernel_rfl
theorem glm_vec3_reflect_run_v (v : V3 α) (n : V3 α) :
    C.glm_vec3_reflect.runT (α := α) [⟨false, n.list.map .f⟩, ⟨true, v.list.map .f⟩] [.p 1 0, .p 0 0, .p 1 0] =
      .done (some (none, [⟨false, n.list.map .f⟩, ⟨true, (Cglm.glm_vec3_reflect v n).list.map .f⟩])) := by kernel_rfl
theorem glm_vec3_reflect_run_v_n (v : V3 α) :
    C.glm_vec3_reflect.runT (α := α) [⟨true, v.list.map .f⟩] [.p 0 0, .p 0 0, .p 0 0] =
      .done (some (none, [⟨true, (Cglm.glm_vec3_reflect v v).list.map .f⟩])) := by kernel_rfl
/-- `glm_vec3_refract` with its branches as a tree -/
def glm_vec3_refract_dt (v : V3 α) (n : V3 α) (eta : α) : DT (Bool × V3 α) :=
  let ndi := glm_vec3_dot n v
  let eni := eta * ndi
  let k := (lit 1) - eta * eta + eni * eni
  .br (flt k (lit 0)) (
    .done (false, glm_vec3_zero)) (
    let dest_1 := glm_vec3_scale v eta
    .done (true, glm_vec3_mulsubs n (eni + sqrtf k) dest_1))
theorem glm_vec3_refract_dt_val (v : V3 α) (n : V3 α) (eta : α) : (glm_vec3_refract_dt v n eta).val = Cglm.glm_vec3_refract v n eta := by
  unfold glm_vec3_refract_dt
  simp only [DT.val]
  kernel_rfl
theorem glm_vec3_refract_run (v : V3 α) (n : V3 α) (eta : α) :
    C.glm_vec3_refract.runT (α := α) [⟨false, v.list.map .f⟩, ⟨false, n.list.map .f⟩, ⟨true, List.replicate 3 .undef⟩] [.p 0 0, .p 1 0, .f eta, .p 2 0] =
      (Cglm.glm_vec3_refract_dt v n eta).map fun r => some (some (.b r.1), [⟨false, v.list.map .f⟩, ⟨false, n.list.map .f⟩, ⟨true, r.2.list.map .f⟩]) := by kernel_rfl
theorem glm_vec3_refract_run_v (v : V3 α) (n : V3 α) (eta : α) :
    C.glm_vec3_refract.runT (α := α) [⟨false, n.list.map .f⟩, ⟨true, v.list.map .f⟩] [.p 1 0, .p 0 0, .f eta, .p 1 0] =
      (Cglm.glm_vec3_refract_dt v n eta).map fun r => some (some (.b r.1), [⟨false, n.list.map .f⟩, ⟨true, r.2.list.map .f⟩]) := by kernel_rfl

end Cglm

end Vec3Run
