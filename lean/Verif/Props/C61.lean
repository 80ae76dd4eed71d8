import Verif.Gen
import Verif.GenStruct
import Verif.GenInt

/-!
# C61: the struct API equals the array API

Generated by tools/wrapthms.py.  Each theorem equates a generated wrapper with the generated array function of the same
name, as functions, for every scalar type `α`: `float` may be read as `ℝ`, as IEEE binary32 or as anything else with the operations of
`CFloat`.
-/

set_option linter.unusedSectionVars false

namespace Cglm

variable {α : Type} [Add α] [Sub α] [Mul α] [Div α] [Neg α] [CFloat α]

theorem C61_vec2_fill : glms_vec2_fill (α := α) = glm_vec2_fill := rfl
theorem C61_vec2_eq : glms_vec2_eq (α := α) = glm_vec2_eq := rfl
theorem C61_vec2_eq_eps : glms_vec2_eq_eps (α := α) = glm_vec2_eq_eps := rfl
theorem C61_vec2_eq_all : glms_vec2_eq_all (α := α) = glm_vec2_eq_all := rfl
theorem C61_vec2_eqv : glms_vec2_eqv (α := α) = glm_vec2_eqv := rfl
theorem C61_vec2_eqv_eps : glms_vec2_eqv_eps (α := α) = glm_vec2_eqv_eps := rfl
theorem C61_vec2_max : glms_vec2_max (α := α) = glm_vec2_max := rfl
theorem C61_vec2_min : glms_vec2_min (α := α) = glm_vec2_min := rfl
theorem C61_vec2_isnan : glms_vec2_isnan (α := α) = glm_vec2_isnan := rfl
theorem C61_vec2_isinf : glms_vec2_isinf (α := α) = glm_vec2_isinf := rfl
theorem C61_vec2_isvalid : glms_vec2_isvalid (α := α) = glm_vec2_isvalid := rfl
theorem C61_vec2_sign : glms_vec2_sign (α := α) = glm_vec2_sign := rfl
theorem C61_vec2_abs : glms_vec2_abs (α := α) = glm_vec2_abs := rfl
theorem C61_vec2_fract : glms_vec2_fract (α := α) = glm_vec2_fract := rfl
theorem C61_vec2_floor : glms_vec2_floor (α := α) = glm_vec2_floor := rfl
theorem C61_vec2_mods : glms_vec2_mods (α := α) = glm_vec2_mods := rfl
theorem C61_vec2_steps : glms_vec2_steps (α := α) = glm_vec2_steps := rfl
theorem C61_vec2_stepr : glms_vec2_stepr (α := α) = glm_vec2_stepr := rfl
theorem C61_vec2_sqrt : glms_vec2_sqrt (α := α) = glm_vec2_sqrt := rfl
/-- The third argument, a by-value "destination", is ignored. -/
theorem C61_vec2_complex_mul (a b dest : V2 α) : glms_vec2_complex_mul a b dest = glm_vec2_complex_mul a b := rfl
theorem C61_vec2_complex_div (a b dest : V2 α) : glms_vec2_complex_div a b dest = glm_vec2_complex_div a b := rfl
theorem C61_vec2_complex_conjugate (a dest : V2 α) : glms_vec2_complex_conjugate a dest = glm_vec2_complex_conjugate a := rfl
theorem C61_vec2 (v : V3 α) : glms_vec2 v = glm_vec2 ⟨v.x, v.y⟩ := rfl
theorem C61_vec2_zero : glms_vec2_zero (α := α) = glm_vec2_zero := rfl
theorem C61_vec2_one : glms_vec2_one (α := α) = glm_vec2_one := rfl
theorem C61_vec2_dot : glms_vec2_dot (α := α) = glm_vec2_dot := rfl
theorem C61_vec2_cross : glms_vec2_cross (α := α) = glm_vec2_cross := rfl
theorem C61_vec2_norm2 : glms_vec2_norm2 (α := α) = glm_vec2_norm2 := rfl
theorem C61_vec2_norm : glms_vec2_norm (α := α) = glm_vec2_norm := rfl
theorem C61_vec2_add : glms_vec2_add (α := α) = glm_vec2_add := rfl
theorem C61_vec2_adds : glms_vec2_adds (α := α) = glm_vec2_adds := rfl
theorem C61_vec2_sub : glms_vec2_sub (α := α) = glm_vec2_sub := rfl
theorem C61_vec2_subs : glms_vec2_subs (α := α) = glm_vec2_subs := rfl
theorem C61_vec2_mul : glms_vec2_mul (α := α) = glm_vec2_mul := rfl
theorem C61_vec2_scale : glms_vec2_scale (α := α) = glm_vec2_scale := rfl
theorem C61_vec2_scale_as : glms_vec2_scale_as (α := α) = glm_vec2_scale_as := rfl
theorem C61_vec2_div : glms_vec2_div (α := α) = glm_vec2_div := rfl
theorem C61_vec2_divs : glms_vec2_divs (α := α) = glm_vec2_divs := rfl
theorem C61_vec2_addadd : glms_vec2_addadd (α := α) = glm_vec2_addadd := rfl
theorem C61_vec2_subadd : glms_vec2_subadd (α := α) = glm_vec2_subadd := rfl
theorem C61_vec2_muladd : glms_vec2_muladd (α := α) = glm_vec2_muladd := rfl
theorem C61_vec2_muladds : glms_vec2_muladds (α := α) = glm_vec2_muladds := rfl
theorem C61_vec2_maxadd : glms_vec2_maxadd (α := α) = glm_vec2_maxadd := rfl
theorem C61_vec2_minadd : glms_vec2_minadd (α := α) = glm_vec2_minadd := rfl
theorem C61_vec2_subsub : glms_vec2_subsub (α := α) = glm_vec2_subsub := rfl
theorem C61_vec2_addsub : glms_vec2_addsub (α := α) = glm_vec2_addsub := rfl
theorem C61_vec2_mulsub : glms_vec2_mulsub (α := α) = glm_vec2_mulsub := rfl
theorem C61_vec2_mulsubs : glms_vec2_mulsubs (α := α) = glm_vec2_mulsubs := rfl
theorem C61_vec2_maxsub : glms_vec2_maxsub (α := α) = glm_vec2_maxsub := rfl
theorem C61_vec2_minsub : glms_vec2_minsub (α := α) = glm_vec2_minsub := rfl
theorem C61_vec2_negate : glms_vec2_negate (α := α) = glm_vec2_negate := rfl
theorem C61_vec2_normalize : glms_vec2_normalize (α := α) = glm_vec2_normalize := rfl
theorem C61_vec2_rotate : glms_vec2_rotate (α := α) = glm_vec2_rotate := rfl
theorem C61_vec2_center : glms_vec2_center (α := α) = glm_vec2_center := rfl
theorem C61_vec2_distance : glms_vec2_distance (α := α) = glm_vec2_distance := rfl
theorem C61_vec2_distance2 : glms_vec2_distance2 (α := α) = glm_vec2_distance2 := rfl
theorem C61_vec2_maxv : glms_vec2_maxv (α := α) = glm_vec2_maxv := rfl
theorem C61_vec2_minv : glms_vec2_minv (α := α) = glm_vec2_minv := rfl
theorem C61_vec2_clamp : glms_vec2_clamp (α := α) = glm_vec2_clamp := rfl
theorem C61_vec2_lerp : glms_vec2_lerp (α := α) = glm_vec2_lerp := rfl
theorem C61_vec2_step : glms_vec2_step (α := α) = glm_vec2_step := rfl
theorem C61_vec2_make : glms_vec2_make (α := α) = glm_vec2_make := rfl
theorem C61_vec2_reflect : glms_vec2_reflect (α := α) = glm_vec2_reflect := rfl
theorem C61_vec2_refract : glms_vec2_refract (α := α) = glm_vec2_refract := rfl
theorem C61_vec3_broadcast : glms_vec3_broadcast (α := α) = glm_vec3_broadcast := rfl
theorem C61_vec3_fill : glms_vec3_fill (α := α) = glm_vec3_fill := rfl
theorem C61_vec3_eq : glms_vec3_eq (α := α) = glm_vec3_eq := rfl
theorem C61_vec3_eq_eps : glms_vec3_eq_eps (α := α) = glm_vec3_eq_eps := rfl
theorem C61_vec3_eq_all : glms_vec3_eq_all (α := α) = glm_vec3_eq_all := rfl
theorem C61_vec3_eqv : glms_vec3_eqv (α := α) = glm_vec3_eqv := rfl
theorem C61_vec3_eqv_eps : glms_vec3_eqv_eps (α := α) = glm_vec3_eqv_eps := rfl
theorem C61_vec3_max : glms_vec3_max (α := α) = glm_vec3_max := rfl
theorem C61_vec3_min : glms_vec3_min (α := α) = glm_vec3_min := rfl
theorem C61_vec3_isnan : glms_vec3_isnan (α := α) = glm_vec3_isnan := rfl
theorem C61_vec3_isinf : glms_vec3_isinf (α := α) = glm_vec3_isinf := rfl
theorem C61_vec3_isvalid : glms_vec3_isvalid (α := α) = glm_vec3_isvalid := rfl
theorem C61_vec3_sign : glms_vec3_sign (α := α) = glm_vec3_sign := rfl
theorem C61_vec3_abs : glms_vec3_abs (α := α) = glm_vec3_abs := rfl
theorem C61_vec3_fract : glms_vec3_fract (α := α) = glm_vec3_fract := rfl
theorem C61_vec3_floor : glms_vec3_floor (α := α) = glm_vec3_floor := rfl
theorem C61_vec3_mods : glms_vec3_mods (α := α) = glm_vec3_mods := rfl
theorem C61_vec3_steps : glms_vec3_steps (α := α) = glm_vec3_steps := rfl
theorem C61_vec3_stepr : glms_vec3_stepr (α := α) = glm_vec3_stepr := rfl
theorem C61_vec3_hadd : glms_vec3_hadd (α := α) = glm_vec3_hadd := rfl
theorem C61_vec3_sqrt : glms_vec3_sqrt (α := α) = glm_vec3_sqrt := rfl
theorem C61_vec3 : glms_vec3 (α := α) = glm_vec3 := rfl
theorem C61_vec3_zero : glms_vec3_zero (α := α) = glm_vec3_zero := rfl
theorem C61_vec3_one : glms_vec3_one (α := α) = glm_vec3_one := rfl
theorem C61_vec3_dot : glms_vec3_dot (α := α) = glm_vec3_dot := rfl
theorem C61_vec3_norm2 : glms_vec3_norm2 (α := α) = glm_vec3_norm2 := rfl
theorem C61_vec3_norm : glms_vec3_norm (α := α) = glm_vec3_norm := rfl
theorem C61_vec3_norm_one : glms_vec3_norm_one (α := α) = glm_vec3_norm_one := rfl
theorem C61_vec3_norm_inf : glms_vec3_norm_inf (α := α) = glm_vec3_norm_inf := rfl
theorem C61_vec3_add : glms_vec3_add (α := α) = glm_vec3_add := rfl
theorem C61_vec3_adds : glms_vec3_adds (α := α) = glm_vec3_adds := rfl
theorem C61_vec3_sub : glms_vec3_sub (α := α) = glm_vec3_sub := rfl
theorem C61_vec3_subs : glms_vec3_subs (α := α) = glm_vec3_subs := rfl
theorem C61_vec3_mul : glms_vec3_mul (α := α) = glm_vec3_mul := rfl
theorem C61_vec3_scale : glms_vec3_scale (α := α) = glm_vec3_scale := rfl
theorem C61_vec3_scale_as : glms_vec3_scale_as (α := α) = glm_vec3_scale_as := rfl
theorem C61_vec3_div : glms_vec3_div (α := α) = glm_vec3_div := rfl
theorem C61_vec3_divs : glms_vec3_divs (α := α) = glm_vec3_divs := rfl
theorem C61_vec3_addadd : glms_vec3_addadd (α := α) = glm_vec3_addadd := rfl
theorem C61_vec3_subadd : glms_vec3_subadd (α := α) = glm_vec3_subadd := rfl
theorem C61_vec3_muladd : glms_vec3_muladd (α := α) = glm_vec3_muladd := rfl
theorem C61_vec3_muladds : glms_vec3_muladds (α := α) = glm_vec3_muladds := rfl
theorem C61_vec3_maxadd : glms_vec3_maxadd (α := α) = glm_vec3_maxadd := rfl
theorem C61_vec3_minadd : glms_vec3_minadd (α := α) = glm_vec3_minadd := rfl
theorem C61_vec3_subsub : glms_vec3_subsub (α := α) = glm_vec3_subsub := rfl
theorem C61_vec3_addsub : glms_vec3_addsub (α := α) = glm_vec3_addsub := rfl
theorem C61_vec3_mulsub : glms_vec3_mulsub (α := α) = glm_vec3_mulsub := rfl
theorem C61_vec3_mulsubs : glms_vec3_mulsubs (α := α) = glm_vec3_mulsubs := rfl
theorem C61_vec3_maxsub : glms_vec3_maxsub (α := α) = glm_vec3_maxsub := rfl
theorem C61_vec3_minsub : glms_vec3_minsub (α := α) = glm_vec3_minsub := rfl
theorem C61_vec3_flipsign : glms_vec3_flipsign (α := α) = glm_vec3_negate := rfl
theorem C61_vec3_negate : glms_vec3_negate (α := α) = glm_vec3_negate := rfl
theorem C61_vec3_normalize : glms_vec3_normalize (α := α) = glm_vec3_normalize := rfl
theorem C61_vec3_cross : glms_vec3_cross (α := α) = glm_vec3_cross := rfl
theorem C61_vec3_crossn : glms_vec3_crossn (α := α) = glm_vec3_crossn := rfl
theorem C61_vec3_angle : glms_vec3_angle (α := α) = glm_vec3_angle := rfl
theorem C61_vec3_rotate : glms_vec3_rotate (α := α) = glm_vec3_rotate := rfl
theorem C61_vec3_rotate_m4 : glms_vec3_rotate_m4 (α := α) = glm_vec3_rotate_m4 := rfl
theorem C61_vec3_rotate_m3 : glms_vec3_rotate_m3 (α := α) = glm_vec3_rotate_m3 := rfl
theorem C61_vec3_proj : glms_vec3_proj (α := α) = glm_vec3_proj := rfl
theorem C61_vec3_center : glms_vec3_center (α := α) = glm_vec3_center := rfl
theorem C61_vec3_distance : glms_vec3_distance (α := α) = glm_vec3_distance := rfl
theorem C61_vec3_distance2 : glms_vec3_distance2 (α := α) = glm_vec3_distance2 := rfl
theorem C61_vec3_maxv : glms_vec3_maxv (α := α) = glm_vec3_maxv := rfl
theorem C61_vec3_minv : glms_vec3_minv (α := α) = glm_vec3_minv := rfl
theorem C61_vec3_ortho : glms_vec3_ortho (α := α) = glm_vec3_ortho := rfl
theorem C61_vec3_clamp : glms_vec3_clamp (α := α) = glm_vec3_clamp := rfl
theorem C61_vec3_lerp : glms_vec3_lerp (α := α) = glm_vec3_lerp := rfl
theorem C61_vec3_lerpc : glms_vec3_lerpc (α := α) = glm_vec3_lerpc := rfl
theorem C61_vec3_mix : glms_vec3_mix (α := α) = glm_vec3_mix := rfl
theorem C61_vec3_mixc : glms_vec3_mixc (α := α) = glm_vec3_mixc := rfl
theorem C61_vec3_step : glms_vec3_step (α := α) = glm_vec3_step := rfl
theorem C61_vec3_smoothstep_uni : glms_vec3_smoothstep_uni (α := α) = glm_vec3_smoothstep_uni := rfl
theorem C61_vec3_smoothstep : glms_vec3_smoothstep (α := α) = glm_vec3_smoothstep := rfl
theorem C61_vec3_smoothinterp : glms_vec3_smoothinterp (α := α) = glm_vec3_smoothinterp := rfl
theorem C61_vec3_smoothinterpc : glms_vec3_smoothinterpc (α := α) = glm_vec3_smoothinterpc := rfl
theorem C61_cross : glms_cross (α := α) = glm_cross := rfl
theorem C61_dot : glms_dot (α := α) = glm_dot := rfl
theorem C61_normalize : glms_normalize (α := α) = glm_normalize := rfl
theorem C61_vec3_make : glms_vec3_make (α := α) = glm_vec3_make := rfl
theorem C61_vec3_faceforward : glms_vec3_faceforward (α := α) = glm_vec3_faceforward := rfl
theorem C61_vec3_reflect : glms_vec3_reflect (α := α) = glm_vec3_reflect := rfl
theorem C61_vec3_refract : glms_vec3_refract (α := α) = glm_vec3_refract := rfl
theorem C61_vec4_broadcast : glms_vec4_broadcast (α := α) = glm_vec4_broadcast := rfl
theorem C61_vec4_fill : glms_vec4_fill (α := α) = glm_vec4_fill := rfl
theorem C61_vec4_eq : glms_vec4_eq (α := α) = glm_vec4_eq := rfl
theorem C61_vec4_eq_eps : glms_vec4_eq_eps (α := α) = glm_vec4_eq_eps := rfl
theorem C61_vec4_eq_all : glms_vec4_eq_all (α := α) = glm_vec4_eq_all := rfl
theorem C61_vec4_eqv : glms_vec4_eqv (α := α) = glm_vec4_eqv := rfl
theorem C61_vec4_eqv_eps : glms_vec4_eqv_eps (α := α) = glm_vec4_eqv_eps := rfl
theorem C61_vec4_max : glms_vec4_max (α := α) = glm_vec4_max := rfl
theorem C61_vec4_min : glms_vec4_min (α := α) = glm_vec4_min := rfl
theorem C61_vec4_isnan : glms_vec4_isnan (α := α) = glm_vec4_isnan := rfl
theorem C61_vec4_isinf : glms_vec4_isinf (α := α) = glm_vec4_isinf := rfl
theorem C61_vec4_isvalid : glms_vec4_isvalid (α := α) = glm_vec4_isvalid := rfl
theorem C61_vec4_sign : glms_vec4_sign (α := α) = glm_vec4_sign := rfl
theorem C61_vec4_abs : glms_vec4_abs (α := α) = glm_vec4_abs := rfl
theorem C61_vec4_fract : glms_vec4_fract (α := α) = glm_vec4_fract := rfl
theorem C61_vec4_floor : glms_vec4_floor (α := α) = glm_vec4_floor := rfl
theorem C61_vec4_mods : glms_vec4_mods (α := α) = glm_vec4_mods := rfl
theorem C61_vec4_steps : glms_vec4_steps (α := α) = glm_vec4_steps := rfl
theorem C61_vec4_stepr : glms_vec4_stepr (α := α) = glm_vec4_stepr := rfl
theorem C61_vec4_hadd : glms_vec4_hadd (α := α) = glm_vec4_hadd := rfl
theorem C61_vec4_sqrt : glms_vec4_sqrt (α := α) = glm_vec4_sqrt := rfl
theorem C61_vec4 : glms_vec4 (α := α) = glm_vec4 := rfl
theorem C61_vec4_copy3 : glms_vec4_copy3 (α := α) = glm_vec4_copy3 := rfl
theorem C61_vec4_copy : glms_vec4_copy (α := α) = glm_vec4_copy := rfl
theorem C61_vec4_ucopy : glms_vec4_ucopy (α := α) = glm_vec4_ucopy := rfl
theorem C61_vec4_zero : glms_vec4_zero (α := α) = glm_vec4_zero := rfl
theorem C61_vec4_one : glms_vec4_one (α := α) = glm_vec4_one := rfl
theorem C61_vec4_dot : glms_vec4_dot (α := α) = glm_vec4_dot := rfl
theorem C61_vec4_norm2 : glms_vec4_norm2 (α := α) = glm_vec4_norm2 := rfl
theorem C61_vec4_norm : glms_vec4_norm (α := α) = glm_vec4_norm := rfl
theorem C61_vec4_norm_one : glms_vec4_norm_one (α := α) = glm_vec4_norm_one := rfl
theorem C61_vec4_norm_inf : glms_vec4_norm_inf (α := α) = glm_vec4_norm_inf := rfl
theorem C61_vec4_add : glms_vec4_add (α := α) = glm_vec4_add := rfl
theorem C61_vec4_adds : glms_vec4_adds (α := α) = glm_vec4_adds := rfl
theorem C61_vec4_sub : glms_vec4_sub (α := α) = glm_vec4_sub := rfl
theorem C61_vec4_subs : glms_vec4_subs (α := α) = glm_vec4_subs := rfl
theorem C61_vec4_mul : glms_vec4_mul (α := α) = glm_vec4_mul := rfl
theorem C61_vec4_scale : glms_vec4_scale (α := α) = glm_vec4_scale := rfl
theorem C61_vec4_scale_as : glms_vec4_scale_as (α := α) = glm_vec4_scale_as := rfl
theorem C61_vec4_div : glms_vec4_div (α := α) = glm_vec4_div := rfl
theorem C61_vec4_divs : glms_vec4_divs (α := α) = glm_vec4_divs := rfl
theorem C61_vec4_addadd : glms_vec4_addadd (α := α) = glm_vec4_addadd := rfl
theorem C61_vec4_subadd : glms_vec4_subadd (α := α) = glm_vec4_subadd := rfl
theorem C61_vec4_muladd : glms_vec4_muladd (α := α) = glm_vec4_muladd := rfl
theorem C61_vec4_muladds : glms_vec4_muladds (α := α) = glm_vec4_muladds := rfl
theorem C61_vec4_maxadd : glms_vec4_maxadd (α := α) = glm_vec4_maxadd := rfl
theorem C61_vec4_minadd : glms_vec4_minadd (α := α) = glm_vec4_minadd := rfl
theorem C61_vec4_subsub : glms_vec4_subsub (α := α) = glm_vec4_subsub := rfl
theorem C61_vec4_addsub : glms_vec4_addsub (α := α) = glm_vec4_addsub := rfl
theorem C61_vec4_mulsub : glms_vec4_mulsub (α := α) = glm_vec4_mulsub := rfl
theorem C61_vec4_mulsubs : glms_vec4_mulsubs (α := α) = glm_vec4_mulsubs := rfl
theorem C61_vec4_maxsub : glms_vec4_maxsub (α := α) = glm_vec4_maxsub := rfl
theorem C61_vec4_minsub : glms_vec4_minsub (α := α) = glm_vec4_minsub := rfl
theorem C61_vec4_negate : glms_vec4_negate (α := α) = glm_vec4_negate := rfl
theorem C61_vec4_normalize : glms_vec4_normalize (α := α) = glm_vec4_normalize := rfl
theorem C61_vec4_distance : glms_vec4_distance (α := α) = glm_vec4_distance := rfl
theorem C61_vec4_distance2 : glms_vec4_distance2 (α := α) = glm_vec4_distance2 := rfl
theorem C61_vec4_maxv : glms_vec4_maxv (α := α) = glm_vec4_maxv := rfl
theorem C61_vec4_minv : glms_vec4_minv (α := α) = glm_vec4_minv := rfl
theorem C61_vec4_clamp : glms_vec4_clamp (α := α) = glm_vec4_clamp := rfl
theorem C61_vec4_lerp : glms_vec4_lerp (α := α) = glm_vec4_lerp := rfl
theorem C61_vec4_lerpc : glms_vec4_lerpc (α := α) = glm_vec4_lerpc := rfl
theorem C61_vec4_mix : glms_vec4_mix (α := α) = glm_vec4_mix := rfl
theorem C61_vec4_mixc : glms_vec4_mixc (α := α) = glm_vec4_mixc := rfl
theorem C61_vec4_step : glms_vec4_step (α := α) = glm_vec4_step := rfl
theorem C61_vec4_smoothstep_uni : glms_vec4_smoothstep_uni (α := α) = glm_vec4_smoothstep_uni := rfl
theorem C61_vec4_smoothstep : glms_vec4_smoothstep (α := α) = glm_vec4_smoothstep := rfl
theorem C61_vec4_smoothinterp : glms_vec4_smoothinterp (α := α) = glm_vec4_smoothinterp := rfl
theorem C61_vec4_smoothinterpc : glms_vec4_smoothinterpc (α := α) = glm_vec4_smoothinterpc := rfl
theorem C61_vec4_cubic : glms_vec4_cubic (α := α) = glm_vec4_cubic := rfl
theorem C61_vec4_make : glms_vec4_make (α := α) = glm_vec4_make := rfl
theorem C61_vec4_reflect : glms_vec4_reflect (α := α) = glm_vec4_reflect := rfl
theorem C61_vec4_refract : glms_vec4_refract (α := α) = glm_vec4_refract := rfl
theorem C61_mat2_make : glms_mat2_make (α := α) = glm_mat2_make := rfl
theorem C61_mat2_identity : glms_mat2_identity (α := α) = glm_mat2_identity := rfl
theorem C61_mat2_zero : glms_mat2_zero (α := α) = glm_mat2_zero := rfl
theorem C61_mat2_mul : glms_mat2_mul (α := α) = glm_mat2_mul := rfl
theorem C61_mat2_mulv : glms_mat2_mulv (α := α) = glm_mat2_mulv := rfl
theorem C61_mat2_transpose : glms_mat2_transpose (α := α) = glm_mat2_transpose := rfl
theorem C61_mat2_scale : glms_mat2_scale (α := α) = glm_mat2_scale := rfl
theorem C61_mat2_inv : glms_mat2_inv (α := α) = glm_mat2_inv := rfl
theorem C61_mat2_det : glms_mat2_det (α := α) = glm_mat2_det := rfl
theorem C61_mat2_trace : glms_mat2_trace (α := α) = glm_mat2_trace := rfl
theorem C61_mat2_rmc : glms_mat2_rmc (α := α) = glm_mat2_rmc := rfl
theorem C61_mat2x3_zero : glms_mat2x3_zero (α := α) = glm_mat2x3_zero := rfl
theorem C61_mat2x3_make : glms_mat2x3_make (α := α) = glm_mat2x3_make := rfl
theorem C61_mat2x3_mul : glms_mat2x3_mul (α := α) = glm_mat2x3_mul := rfl
theorem C61_mat2x3_mulv : glms_mat2x3_mulv (α := α) = glm_mat2x3_mulv := rfl
theorem C61_mat2x3_transpose : glms_mat2x3_transpose (α := α) = glm_mat2x3_transpose := rfl
theorem C61_mat2x3_scale : glms_mat2x3_scale (α := α) = glm_mat2x3_scale := rfl
theorem C61_mat2x4_zero : glms_mat2x4_zero (α := α) = glm_mat2x4_zero := rfl
theorem C61_mat2x4_make : glms_mat2x4_make (α := α) = glm_mat2x4_make := rfl
theorem C61_mat2x4_mul : glms_mat2x4_mul (α := α) = glm_mat2x4_mul := rfl
theorem C61_mat2x4_mulv : glms_mat2x4_mulv (α := α) = glm_mat2x4_mulv := rfl
theorem C61_mat2x4_transpose : glms_mat2x4_transpose (α := α) = glm_mat2x4_transpose := rfl
theorem C61_mat2x4_scale : glms_mat2x4_scale (α := α) = glm_mat2x4_scale := rfl
theorem C61_mat3_copy : glms_mat3_copy (α := α) = glm_mat3_copy := rfl
theorem C61_mat3_identity : glms_mat3_identity (α := α) = glm_mat3_identity := rfl
theorem C61_mat3_zero : glms_mat3_zero (α := α) = glm_mat3_zero := rfl
theorem C61_mat3_mul : glms_mat3_mul (α := α) = glm_mat3_mul := rfl
theorem C61_mat3_transpose : glms_mat3_transpose (α := α) = glm_mat3_transpose := rfl
theorem C61_mat3_mulv : glms_mat3_mulv (α := α) = glm_mat3_mulv := rfl
theorem C61_mat3_trace : glms_mat3_trace (α := α) = glm_mat3_trace := rfl
theorem C61_mat3_quat : glms_mat3_quat (α := α) = glm_mat3_quat := rfl
theorem C61_mat3_scale : glms_mat3_scale (α := α) = glm_mat3_scale := rfl
theorem C61_mat3_det : glms_mat3_det (α := α) = glm_mat3_det := rfl
theorem C61_mat3_inv : glms_mat3_inv (α := α) = glm_mat3_inv := rfl
theorem C61_mat3_rmc : glms_mat3_rmc (α := α) = glm_mat3_rmc := rfl
theorem C61_mat3_make : glms_mat3_make (α := α) = glm_mat3_make := rfl
theorem C61_mat3_textrans : glms_mat3_textrans (α := α) = glm_mat3_textrans := rfl
theorem C61_mat3x2_zero : glms_mat3x2_zero (α := α) = glm_mat3x2_zero := rfl
theorem C61_mat3x2_make : glms_mat3x2_make (α := α) = glm_mat3x2_make := rfl
theorem C61_mat3x2_mul : glms_mat3x2_mul (α := α) = glm_mat3x2_mul := rfl
theorem C61_mat3x2_mulv : glms_mat3x2_mulv (α := α) = glm_mat3x2_mulv := rfl
theorem C61_mat3x2_transpose : glms_mat3x2_transpose (α := α) = glm_mat3x2_transpose := rfl
theorem C61_mat3x2_scale : glms_mat3x2_scale (α := α) = glm_mat3x2_scale := rfl
theorem C61_mat3x4_zero : glms_mat3x4_zero (α := α) = glm_mat3x4_zero := rfl
theorem C61_mat3x4_make : glms_mat3x4_make (α := α) = glm_mat3x4_make := rfl
theorem C61_mat3x4_mul : glms_mat3x4_mul (α := α) = glm_mat3x4_mul := rfl
theorem C61_mat3x4_mulv : glms_mat3x4_mulv (α := α) = glm_mat3x4_mulv := rfl
theorem C61_mat3x4_transpose : glms_mat3x4_transpose (α := α) = glm_mat3x4_transpose := rfl
theorem C61_mat3x4_scale : glms_mat3x4_scale (α := α) = glm_mat3x4_scale := rfl
theorem C61_mat4_ucopy : glms_mat4_ucopy (α := α) = glm_mat4_ucopy := rfl
theorem C61_mat4_copy : glms_mat4_copy (α := α) = glm_mat4_copy := rfl
theorem C61_mat4_identity : glms_mat4_identity (α := α) = glm_mat4_identity := rfl
theorem C61_mat4_zero : glms_mat4_zero (α := α) = glm_mat4_zero := rfl
theorem C61_mat4_pick3 : glms_mat4_pick3 (α := α) = glm_mat4_pick3 := rfl
theorem C61_mat4_pick3t : glms_mat4_pick3t (α := α) = glm_mat4_pick3t := rfl
theorem C61_mat4_ins3 : glms_mat4_ins3 (α := α) = glm_mat4_ins3 := rfl
theorem C61_mat4_mul : glms_mat4_mul (α := α) = glm_mat4_mul := rfl
theorem C61_mat4_mulv : glms_mat4_mulv (α := α) = glm_mat4_mulv := rfl
theorem C61_mat4_trace : glms_mat4_trace (α := α) = glm_mat4_trace := rfl
theorem C61_mat4_trace3 : glms_mat4_trace3 (α := α) = glm_mat4_trace3 := rfl
theorem C61_mat4_quat : glms_mat4_quat (α := α) = glm_mat4_quat := rfl
theorem C61_mat4_mulv3 : glms_mat4_mulv3 (α := α) = glm_mat4_mulv3 := rfl
theorem C61_mat4_transpose : glms_mat4_transpose (α := α) = glm_mat4_transpose := rfl
theorem C61_mat4_scale_p : glms_mat4_scale_p (α := α) = glm_mat4_scale_p := rfl
theorem C61_mat4_scale : glms_mat4_scale (α := α) = glm_mat4_scale := rfl
theorem C61_mat4_det : glms_mat4_det (α := α) = glm_mat4_det := rfl
theorem C61_mat4_inv : glms_mat4_inv (α := α) = glm_mat4_inv := rfl
theorem C61_mat4_inv_fast : glms_mat4_inv_fast (α := α) = glm_mat4_inv_fast := rfl
theorem C61_mat4_rmc : glms_mat4_rmc (α := α) = glm_mat4_rmc := rfl
theorem C61_mat4_make : glms_mat4_make (α := α) = glm_mat4_make := rfl
theorem C61_mat4_textrans : glms_mat4_textrans (α := α) = glm_mat4_textrans := rfl
theorem C61_mat4x2_zero : glms_mat4x2_zero (α := α) = glm_mat4x2_zero := rfl
theorem C61_mat4x2_make : glms_mat4x2_make (α := α) = glm_mat4x2_make := rfl
theorem C61_mat4x2_mul : glms_mat4x2_mul (α := α) = glm_mat4x2_mul := rfl
theorem C61_mat4x2_mulv : glms_mat4x2_mulv (α := α) = glm_mat4x2_mulv := rfl
theorem C61_mat4x2_transpose : glms_mat4x2_transpose (α := α) = glm_mat4x2_transpose := rfl
theorem C61_mat4x2_scale : glms_mat4x2_scale (α := α) = glm_mat4x2_scale := rfl
theorem C61_mat4x3_zero : glms_mat4x3_zero (α := α) = glm_mat4x3_zero := rfl
theorem C61_mat4x3_make : glms_mat4x3_make (α := α) = glm_mat4x3_make := rfl
theorem C61_mat4x3_mul : glms_mat4x3_mul (α := α) = glm_mat4x3_mul := rfl
theorem C61_mat4x3_mulv : glms_mat4x3_mulv (α := α) = glm_mat4x3_mulv := rfl
theorem C61_mat4x3_transpose : glms_mat4x3_transpose (α := α) = glm_mat4x3_transpose := rfl
theorem C61_mat4x3_scale : glms_mat4x3_scale (α := α) = glm_mat4x3_scale := rfl
theorem C61_mul : glms_mul (α := α) = glm_mul := rfl
theorem C61_mul_rot : glms_mul_rot (α := α) = glm_mul_rot := rfl
theorem C61_inv_tr : glms_inv_tr (α := α) = glm_inv_tr := rfl
theorem C61_translate_make : glms_translate_make (α := α) = glm_translate_make := rfl
theorem C61_scale_make : glms_scale_make (α := α) = glm_scale_make := rfl
theorem C61_scale : glms_scale (α := α) = glm_scale := rfl
theorem C61_scale_uni : glms_scale_uni (α := α) = glm_scale_uni := rfl
theorem C61_rotate_make : glms_rotate_make (α := α) = glm_rotate_make := rfl
theorem C61_rotate_atm : glms_rotate_atm (α := α) = glm_rotate_atm := rfl
theorem C61_decompose_scalev : glms_decompose_scalev (α := α) = glm_decompose_scalev := rfl
theorem C61_uniscaled : glms_uniscaled (α := α) = glm_uniscaled := rfl
theorem C61_decompose_rs : glms_decompose_rs (α := α) = glm_decompose_rs := rfl
theorem C61_decompose : glms_decompose (α := α) = glm_decompose := rfl
theorem C61_translate : glms_translate (α := α) = glm_translate := rfl
theorem C61_translate_x : glms_translate_x (α := α) = glm_translate_x := rfl
theorem C61_translate_y : glms_translate_y (α := α) = glm_translate_y := rfl
theorem C61_translate_z : glms_translate_z (α := α) = glm_translate_z := rfl
theorem C61_rotate_x : glms_rotate_x (α := α) = glm_rotate_x := rfl
theorem C61_rotate_y : glms_rotate_y (α := α) = glm_rotate_y := rfl
theorem C61_rotate_z : glms_rotate_z (α := α) = glm_rotate_z := rfl
theorem C61_rotate : glms_rotate (α := α) = glm_rotate := rfl
theorem C61_rotate_at : glms_rotate_at (α := α) = glm_rotate_at := rfl
theorem C61_spin : glms_spin (α := α) = glm_spin := rfl
theorem C61_translated : glms_translated (α := α) = glm_translated := rfl
theorem C61_translated_x : glms_translated_x (α := α) = glm_translated_x := rfl
theorem C61_translated_y : glms_translated_y (α := α) = glm_translated_y := rfl
theorem C61_translated_z : glms_translated_z (α := α) = glm_translated_z := rfl
theorem C61_rotated_x : glms_rotated_x (α := α) = glm_rotated_x := rfl
theorem C61_rotated_y : glms_rotated_y (α := α) = glm_rotated_y := rfl
theorem C61_rotated_z : glms_rotated_z (α := α) = glm_rotated_z := rfl
theorem C61_rotated : glms_rotated (α := α) = glm_rotated := rfl
theorem C61_rotated_at : glms_rotated_at (α := α) = glm_rotated_at := rfl
theorem C61_spinned : glms_spinned (α := α) = glm_spinned := rfl
theorem C61_plane_normalize : glms_plane_normalize (α := α) = glm_plane_normalize := rfl
theorem C61_frustum_planes : glms_frustum_planes (α := α) = glm_frustum_planes := rfl
theorem C61_frustum_corners : glms_frustum_corners (α := α) = glm_frustum_corners := rfl
theorem C61_frustum_center : glms_frustum_center (α := α) = glm_frustum_center := rfl
theorem C61_frustum_box : glms_frustum_box (α := α) = glm_frustum_box := rfl
theorem C61_perlin_vec4 : glms_perlin_vec4 (α := α) = glm_perlin_vec4 := rfl
theorem C61_perlin_vec3 : glms_perlin_vec3 (α := α) = glm_perlin_vec3 := rfl
theorem C61_perlin_vec2 : glms_perlin_vec2 (α := α) = glm_perlin_vec2 := rfl
theorem C61_aabb_transform : glms_aabb_transform (α := α) = glm_aabb_transform := rfl
theorem C61_aabb_merge : glms_aabb_merge (α := α) = glm_aabb_merge := rfl
theorem C61_aabb_crop : glms_aabb_crop (α := α) = glm_aabb_crop := rfl
theorem C61_aabb_crop_until : glms_aabb_crop_until (α := α) = glm_aabb_crop_until := rfl
theorem C61_aabb_frustum : glms_aabb_frustum (α := α) = glm_aabb_frustum := rfl
theorem C61_aabb_invalidate : glms_aabb_invalidate (α := α) = glm_aabb_invalidate := rfl
theorem C61_aabb_isvalid : glms_aabb_isvalid (α := α) = glm_aabb_isvalid := rfl
theorem C61_aabb_size : glms_aabb_size (α := α) = glm_aabb_size := rfl
theorem C61_aabb_radius : glms_aabb_radius (α := α) = glm_aabb_radius := rfl
theorem C61_aabb_center : glms_aabb_center (α := α) = glm_aabb_center := rfl
theorem C61_aabb_aabb : glms_aabb_aabb (α := α) = glm_aabb_aabb := rfl
theorem C61_aabb_sphere : glms_aabb_sphere (α := α) = glm_aabb_sphere := rfl
theorem C61_aabb_point : glms_aabb_point (α := α) = glm_aabb_point := rfl
theorem C61_aabb_contains : glms_aabb_contains (α := α) = glm_aabb_contains := rfl
theorem C61_luminance : glms_luminance (α := α) = glm_luminance := rfl
theorem C61_ortho_lh_zo : glms_ortho_lh_zo (α := α) = glm_ortho_lh_zo := rfl
theorem C61_ortho_aabb_lh_zo : glms_ortho_aabb_lh_zo (α := α) = glm_ortho_aabb_lh_zo := rfl
theorem C61_ortho_aabb_p_lh_zo : glms_ortho_aabb_p_lh_zo (α := α) = glm_ortho_aabb_p_lh_zo := rfl
theorem C61_ortho_aabb_pz_lh_zo : glms_ortho_aabb_pz_lh_zo (α := α) = glm_ortho_aabb_pz_lh_zo := rfl
theorem C61_ortho_default_lh_zo : glms_ortho_default_lh_zo (α := α) = glm_ortho_default_lh_zo := rfl
theorem C61_ortho_default_s_lh_zo : glms_ortho_default_s_lh_zo (α := α) = glm_ortho_default_s_lh_zo := rfl
theorem C61_frustum_lh_zo : glms_frustum_lh_zo (α := α) = glm_frustum_lh_zo := rfl
theorem C61_perspective_lh_zo : glms_perspective_lh_zo (α := α) = glm_perspective_lh_zo := rfl
theorem C61_persp_move_far_lh_zo : glms_persp_move_far_lh_zo (α := α) = glm_persp_move_far_lh_zo := rfl
theorem C61_perspective_default_lh_zo : glms_perspective_default_lh_zo (α := α) = glm_perspective_default_lh_zo := rfl
theorem C61_perspective_resize_lh_zo (proj : M4 α) (aspect : α) :
    glms_perspective_resize_lh_zo proj aspect = glm_perspective_resize_lh_zo aspect proj := rfl
theorem C61_persp_decomp_lh_zo : glms_persp_decomp_lh_zo (α := α) = glm_persp_decomp_lh_zo := rfl
theorem C61_persp_decompv_lh_zo : glms_persp_decompv_lh_zo (α := α) = glm_persp_decompv_lh_zo := rfl
theorem C61_persp_decomp_x_lh_zo : glms_persp_decomp_x_lh_zo (α := α) = glm_persp_decomp_x_lh_zo := rfl
theorem C61_persp_decomp_y_lh_zo : glms_persp_decomp_y_lh_zo (α := α) = glm_persp_decomp_y_lh_zo := rfl
theorem C61_persp_decomp_z_lh_zo : glms_persp_decomp_z_lh_zo (α := α) = glm_persp_decomp_z_lh_zo := rfl
theorem C61_persp_decomp_far_lh_zo : glms_persp_decomp_far_lh_zo (α := α) = glm_persp_decomp_far_lh_zo := rfl
theorem C61_persp_decomp_near_lh_zo : glms_persp_decomp_near_lh_zo (α := α) = glm_persp_decomp_near_lh_zo := rfl
theorem C61_persp_fovy_lh_zo : glms_persp_fovy_lh_zo (α := α) = glm_persp_fovy_lh_zo := rfl
theorem C61_persp_aspect_lh_zo : glms_persp_aspect_lh_zo (α := α) = glm_persp_aspect_lh_zo := rfl
theorem C61_persp_sizes_lh_zo : glms_persp_sizes_lh_zo (α := α) = glm_persp_sizes_lh_zo := rfl
theorem C61_ortho_lh_no : glms_ortho_lh_no (α := α) = glm_ortho_lh_no := rfl
theorem C61_ortho_aabb_lh_no : glms_ortho_aabb_lh_no (α := α) = glm_ortho_aabb_lh_no := rfl
theorem C61_ortho_aabb_p_lh_no : glms_ortho_aabb_p_lh_no (α := α) = glm_ortho_aabb_p_lh_no := rfl
theorem C61_ortho_aabb_pz_lh_no : glms_ortho_aabb_pz_lh_no (α := α) = glm_ortho_aabb_pz_lh_no := rfl
theorem C61_ortho_default_lh_no : glms_ortho_default_lh_no (α := α) = glm_ortho_default_lh_no := rfl
theorem C61_ortho_default_s_lh_no : glms_ortho_default_s_lh_no (α := α) = glm_ortho_default_s_lh_no := rfl
theorem C61_frustum_lh_no : glms_frustum_lh_no (α := α) = glm_frustum_lh_no := rfl
theorem C61_perspective_lh_no : glms_perspective_lh_no (α := α) = glm_perspective_lh_no := rfl
theorem C61_persp_move_far_lh_no : glms_persp_move_far_lh_no (α := α) = glm_persp_move_far_lh_no := rfl
theorem C61_perspective_default_lh_no : glms_perspective_default_lh_no (α := α) = glm_perspective_default_lh_no := rfl
theorem C61_perspective_resize_lh_no (proj : M4 α) (aspect : α) :
    glms_perspective_resize_lh_no proj aspect = glm_perspective_resize_lh_no aspect proj := rfl
theorem C61_persp_decomp_lh_no : glms_persp_decomp_lh_no (α := α) = glm_persp_decomp_lh_no := rfl
theorem C61_persp_decompv_lh_no : glms_persp_decompv_lh_no (α := α) = glm_persp_decompv_lh_no := rfl
theorem C61_persp_decomp_x_lh_no : glms_persp_decomp_x_lh_no (α := α) = glm_persp_decomp_x_lh_no := rfl
theorem C61_persp_decomp_y_lh_no : glms_persp_decomp_y_lh_no (α := α) = glm_persp_decomp_y_lh_no := rfl
theorem C61_persp_decomp_z_lh_no : glms_persp_decomp_z_lh_no (α := α) = glm_persp_decomp_z_lh_no := rfl
theorem C61_persp_decomp_far_lh_no : glms_persp_decomp_far_lh_no (α := α) = glm_persp_decomp_far_lh_no := rfl
theorem C61_persp_decomp_near_lh_no : glms_persp_decomp_near_lh_no (α := α) = glm_persp_decomp_near_lh_no := rfl
theorem C61_persp_fovy_lh_no : glms_persp_fovy_lh_no (α := α) = glm_persp_fovy_lh_no := rfl
theorem C61_persp_aspect_lh_no : glms_persp_aspect_lh_no (α := α) = glm_persp_aspect_lh_no := rfl
theorem C61_persp_sizes_lh_no : glms_persp_sizes_lh_no (α := α) = glm_persp_sizes_lh_no := rfl
theorem C61_ortho_rh_zo : glms_ortho_rh_zo (α := α) = glm_ortho_rh_zo := rfl
theorem C61_ortho_aabb_rh_zo : glms_ortho_aabb_rh_zo (α := α) = glm_ortho_aabb_rh_zo := rfl
theorem C61_ortho_aabb_p_rh_zo : glms_ortho_aabb_p_rh_zo (α := α) = glm_ortho_aabb_p_rh_zo := rfl
theorem C61_ortho_aabb_pz_rh_zo : glms_ortho_aabb_pz_rh_zo (α := α) = glm_ortho_aabb_pz_rh_zo := rfl
theorem C61_ortho_default_rh_zo : glms_ortho_default_rh_zo (α := α) = glm_ortho_default_rh_zo := rfl
theorem C61_ortho_default_s_rh_zo : glms_ortho_default_s_rh_zo (α := α) = glm_ortho_default_s_rh_zo := rfl
theorem C61_frustum_rh_zo : glms_frustum_rh_zo (α := α) = glm_frustum_rh_zo := rfl
theorem C61_perspective_rh_zo : glms_perspective_rh_zo (α := α) = glm_perspective_rh_zo := rfl
theorem C61_persp_move_far_rh_zo : glms_persp_move_far_rh_zo (α := α) = glm_persp_move_far_rh_zo := rfl
theorem C61_perspective_default_rh_zo : glms_perspective_default_rh_zo (α := α) = glm_perspective_default_rh_zo := rfl
theorem C61_perspective_resize_rh_zo (proj : M4 α) (aspect : α) :
    glms_perspective_resize_rh_zo proj aspect = glm_perspective_resize_rh_zo aspect proj := rfl
theorem C61_persp_decomp_rh_zo : glms_persp_decomp_rh_zo (α := α) = glm_persp_decomp_rh_zo := rfl
theorem C61_persp_decompv_rh_zo : glms_persp_decompv_rh_zo (α := α) = glm_persp_decompv_rh_zo := rfl
theorem C61_persp_decomp_x_rh_zo : glms_persp_decomp_x_rh_zo (α := α) = glm_persp_decomp_x_rh_zo := rfl
theorem C61_persp_decomp_y_rh_zo : glms_persp_decomp_y_rh_zo (α := α) = glm_persp_decomp_y_rh_zo := rfl
theorem C61_persp_decomp_z_rh_zo : glms_persp_decomp_z_rh_zo (α := α) = glm_persp_decomp_z_rh_zo := rfl
theorem C61_persp_decomp_far_rh_zo : glms_persp_decomp_far_rh_zo (α := α) = glm_persp_decomp_far_rh_zo := rfl
theorem C61_persp_decomp_near_rh_zo : glms_persp_decomp_near_rh_zo (α := α) = glm_persp_decomp_near_rh_zo := rfl
theorem C61_persp_fovy_rh_zo : glms_persp_fovy_rh_zo (α := α) = glm_persp_fovy_rh_zo := rfl
theorem C61_persp_aspect_rh_zo : glms_persp_aspect_rh_zo (α := α) = glm_persp_aspect_rh_zo := rfl
theorem C61_persp_sizes_rh_zo : glms_persp_sizes_rh_zo (α := α) = glm_persp_sizes_rh_zo := rfl
theorem C61_ortho_rh_no : glms_ortho_rh_no (α := α) = glm_ortho_rh_no := rfl
theorem C61_ortho_aabb_rh_no : glms_ortho_aabb_rh_no (α := α) = glm_ortho_aabb_rh_no := rfl
theorem C61_ortho_aabb_p_rh_no : glms_ortho_aabb_p_rh_no (α := α) = glm_ortho_aabb_p_rh_no := rfl
theorem C61_ortho_aabb_pz_rh_no : glms_ortho_aabb_pz_rh_no (α := α) = glm_ortho_aabb_pz_rh_no := rfl
theorem C61_ortho_default_rh_no : glms_ortho_default_rh_no (α := α) = glm_ortho_default_rh_no := rfl
theorem C61_ortho_default_s_rh_no : glms_ortho_default_s_rh_no (α := α) = glm_ortho_default_s_rh_no := rfl
theorem C61_frustum_rh_no : glms_frustum_rh_no (α := α) = glm_frustum_rh_no := rfl
theorem C61_perspective_rh_no : glms_perspective_rh_no (α := α) = glm_perspective_rh_no := rfl
theorem C61_persp_move_far_rh_no : glms_persp_move_far_rh_no (α := α) = glm_persp_move_far_rh_no := rfl
theorem C61_perspective_default_rh_no : glms_perspective_default_rh_no (α := α) = glm_perspective_default_rh_no := rfl
theorem C61_perspective_resize_rh_no (proj : M4 α) (aspect : α) :
    glms_perspective_resize_rh_no proj aspect = glm_perspective_resize_rh_no aspect proj := rfl
theorem C61_persp_decomp_rh_no : glms_persp_decomp_rh_no (α := α) = glm_persp_decomp_rh_no := rfl
theorem C61_persp_decompv_rh_no : glms_persp_decompv_rh_no (α := α) = glm_persp_decompv_rh_no := rfl
theorem C61_persp_decomp_x_rh_no : glms_persp_decomp_x_rh_no (α := α) = glm_persp_decomp_x_rh_no := rfl
theorem C61_persp_decomp_y_rh_no : glms_persp_decomp_y_rh_no (α := α) = glm_persp_decomp_y_rh_no := rfl
theorem C61_persp_decomp_z_rh_no : glms_persp_decomp_z_rh_no (α := α) = glm_persp_decomp_z_rh_no := rfl
theorem C61_persp_decomp_far_rh_no : glms_persp_decomp_far_rh_no (α := α) = glm_persp_decomp_far_rh_no := rfl
theorem C61_persp_decomp_near_rh_no : glms_persp_decomp_near_rh_no (α := α) = glm_persp_decomp_near_rh_no := rfl
theorem C61_persp_fovy_rh_no : glms_persp_fovy_rh_no (α := α) = glm_persp_fovy_rh_no := rfl
theorem C61_persp_aspect_rh_no : glms_persp_aspect_rh_no (α := α) = glm_persp_aspect_rh_no := rfl
theorem C61_persp_sizes_rh_no : glms_persp_sizes_rh_no (α := α) = glm_persp_sizes_rh_no := rfl
theorem C61_lookat_lh_zo : glms_lookat_lh_zo (α := α) = glm_lookat_lh_zo := rfl
theorem C61_look_lh_zo : glms_look_lh_zo (α := α) = glm_look_lh_zo := rfl
theorem C61_look_anyup_lh_zo : glms_look_anyup_lh_zo (α := α) = glm_look_anyup_lh_zo := rfl
theorem C61_lookat_lh_no : glms_lookat_lh_no (α := α) = glm_lookat_lh_no := rfl
theorem C61_look_lh_no : glms_look_lh_no (α := α) = glm_look_lh_no := rfl
theorem C61_look_anyup_lh_no : glms_look_anyup_lh_no (α := α) = glm_look_anyup_lh_no := rfl
theorem C61_lookat_rh_zo : glms_lookat_rh_zo (α := α) = glm_lookat_rh_zo := rfl
theorem C61_look_rh_zo : glms_look_rh_zo (α := α) = glm_look_rh_zo := rfl
theorem C61_look_anyup_rh_zo : glms_look_anyup_rh_zo (α := α) = glm_look_anyup_rh_zo := rfl
theorem C61_lookat_rh_no : glms_lookat_rh_no (α := α) = glm_lookat_rh_no := rfl
theorem C61_look_rh_no : glms_look_rh_no (α := α) = glm_look_rh_no := rfl
theorem C61_look_anyup_rh_no : glms_look_anyup_rh_no (α := α) = glm_look_anyup_rh_no := rfl
theorem C61_frustum : glms_frustum (α := α) = glm_frustum := rfl
theorem C61_ortho : glms_ortho (α := α) = glm_ortho := rfl
theorem C61_ortho_aabb : glms_ortho_aabb (α := α) = glm_ortho_aabb := rfl
theorem C61_ortho_aabb_p : glms_ortho_aabb_p (α := α) = glm_ortho_aabb_p := rfl
theorem C61_ortho_aabb_pz : glms_ortho_aabb_pz (α := α) = glm_ortho_aabb_pz := rfl
theorem C61_ortho_default : glms_ortho_default (α := α) = glm_ortho_default := rfl
theorem C61_ortho_default_s : glms_ortho_default_s (α := α) = glm_ortho_default_s := rfl
theorem C61_perspective : glms_perspective (α := α) = glm_perspective := rfl
theorem C61_persp_move_far : glms_persp_move_far (α := α) = glm_persp_move_far := rfl
theorem C61_perspective_default : glms_perspective_default (α := α) = glm_perspective_default := rfl
/-- The struct function takes the matrix first, the array function the aspect ratio. -/
theorem C61_perspective_resize (proj : M4 α) (aspect : α) :
    glms_perspective_resize proj aspect = glm_perspective_resize aspect proj := rfl
theorem C61_lookat : glms_lookat (α := α) = glm_lookat := rfl
theorem C61_look : glms_look (α := α) = glm_look := rfl
theorem C61_look_anyup : glms_look_anyup (α := α) = glm_look_anyup := rfl
theorem C61_persp_decomp : glms_persp_decomp (α := α) = glm_persp_decomp := rfl
theorem C61_persp_decompv : glms_persp_decompv (α := α) = glm_persp_decompv := rfl
theorem C61_persp_decomp_x : glms_persp_decomp_x (α := α) = glm_persp_decomp_x := rfl
theorem C61_persp_decomp_y : glms_persp_decomp_y (α := α) = glm_persp_decomp_y := rfl
theorem C61_persp_decomp_z : glms_persp_decomp_z (α := α) = glm_persp_decomp_z := rfl
theorem C61_persp_decomp_far : glms_persp_decomp_far (α := α) = glm_persp_decomp_far := rfl
theorem C61_persp_decomp_near : glms_persp_decomp_near (α := α) = glm_persp_decomp_near := rfl
theorem C61_persp_fovy : glms_persp_fovy (α := α) = glm_persp_fovy := rfl
theorem C61_persp_aspect : glms_persp_aspect (α := α) = glm_persp_aspect := rfl
theorem C61_persp_sizes : glms_persp_sizes (α := α) = glm_persp_sizes := rfl
theorem C61_quat_identity : glms_quat_identity (α := α) = glm_quat_identity := rfl
theorem C61_quat_init : glms_quat_init (α := α) = glm_quat_init := rfl
theorem C61_quatv : glms_quatv (α := α) = glm_quatv := rfl
theorem C61_quat : glms_quat (α := α) = glm_quat := rfl
theorem C61_quat_norm : glms_quat_norm (α := α) = glm_quat_norm := rfl
theorem C61_quat_normalize : glms_quat_normalize (α := α) = glm_quat_normalize := rfl
theorem C61_quat_dot : glms_quat_dot (α := α) = glm_quat_dot := rfl
theorem C61_quat_conjugate : glms_quat_conjugate (α := α) = glm_quat_conjugate := rfl
theorem C61_quat_inv : glms_quat_inv (α := α) = glm_quat_inv := rfl
theorem C61_quat_add : glms_quat_add (α := α) = glm_quat_add := rfl
theorem C61_quat_sub : glms_quat_sub (α := α) = glm_quat_sub := rfl
theorem C61_quat_imagn : glms_quat_imagn (α := α) = glm_quat_imagn := rfl
theorem C61_quat_imaglen : glms_quat_imaglen (α := α) = glm_quat_imaglen := rfl
theorem C61_quat_angle : glms_quat_angle (α := α) = glm_quat_angle := rfl
theorem C61_quat_axis : glms_quat_axis (α := α) = glm_quat_axis := rfl
theorem C61_quat_mul : glms_quat_mul (α := α) = glm_quat_mul := rfl
theorem C61_quat_mat4 : glms_quat_mat4 (α := α) = glm_quat_mat4 := rfl
theorem C61_quat_mat4t : glms_quat_mat4t (α := α) = glm_quat_mat4t := rfl
theorem C61_quat_mat3 : glms_quat_mat3 (α := α) = glm_quat_mat3 := rfl
theorem C61_quat_mat3t : glms_quat_mat3t (α := α) = glm_quat_mat3t := rfl
theorem C61_quat_lerp : glms_quat_lerp (α := α) = glm_quat_lerp := rfl
theorem C61_quat_lerpc : glms_quat_lerpc (α := α) = glm_quat_lerpc := rfl
theorem C61_quat_nlerp : glms_quat_nlerp (α := α) = glm_quat_nlerp := rfl
theorem C61_quat_slerp : glms_quat_slerp (α := α) = glm_quat_slerp := rfl
theorem C61_quat_slerp_longest : glms_quat_slerp_longest (α := α) = glm_quat_slerp_longest := rfl
theorem C61_quat_look : glms_quat_look (α := α) = glm_quat_look := rfl
theorem C61_quat_for : glms_quat_for (α := α) = glm_quat_for := rfl
theorem C61_quat_forp : glms_quat_forp (α := α) = glm_quat_forp := rfl
theorem C61_quat_rotatev : glms_quat_rotatev (α := α) = glm_quat_rotatev := rfl
theorem C61_quat_rotate : glms_quat_rotate (α := α) = glm_quat_rotate := rfl
theorem C61_quat_rotate_at : glms_quat_rotate_at (α := α) = glm_quat_rotate_at := rfl
theorem C61_quat_rotate_atm : glms_quat_rotate_atm (α := α) = glm_quat_rotate_atm := rfl
theorem C61_quat_make : glms_quat_make (α := α) = glm_quat_make := rfl
theorem C61_euler_angles : glms_euler_angles (α := α) = glm_euler_angles := rfl
theorem C61_euler_xyz : glms_euler_xyz (α := α) = glm_euler_xyz := rfl
theorem C61_euler_xzy : glms_euler_xzy (α := α) = glm_euler_xzy := rfl
theorem C61_euler_yxz : glms_euler_yxz (α := α) = glm_euler_yxz := rfl
theorem C61_euler_yzx : glms_euler_yzx (α := α) = glm_euler_yzx := rfl
theorem C61_euler_zxy : glms_euler_zxy (α := α) = glm_euler_zxy := rfl
theorem C61_euler_zyx : glms_euler_zyx (α := α) = glm_euler_zyx := rfl
theorem C61_euler_by_order : glms_euler_by_order (α := α) = glm_euler_by_order := rfl
theorem C61_euler_xyz_quat : glms_euler_xyz_quat (α := α) = glm_euler_xyz_quat := rfl
theorem C61_euler_xzy_quat : glms_euler_xzy_quat (α := α) = glm_euler_xzy_quat := rfl
theorem C61_euler_yxz_quat : glms_euler_yxz_quat (α := α) = glm_euler_yxz_quat := rfl
theorem C61_euler_yzx_quat : glms_euler_yzx_quat (α := α) = glm_euler_yzx_quat := rfl
theorem C61_euler_zxy_quat : glms_euler_zxy_quat (α := α) = glm_euler_zxy_quat := rfl
theorem C61_euler_zyx_quat : glms_euler_zyx_quat (α := α) = glm_euler_zyx_quat := rfl
theorem C61_unprojecti_zo : glms_unprojecti_zo (α := α) = glm_unprojecti_zo := rfl
theorem C61_project_zo : glms_project_zo (α := α) = glm_project_zo := rfl
theorem C61_project_z_zo : glms_project_z_zo (α := α) = glm_project_z_zo := rfl
theorem C61_unprojecti_no : glms_unprojecti_no (α := α) = glm_unprojecti_no := rfl
theorem C61_project_no : glms_project_no (α := α) = glm_project_no := rfl
theorem C61_project_z_no : glms_project_z_no (α := α) = glm_project_z_no := rfl
theorem C61_unprojecti : glms_unprojecti (α := α) = glm_unprojecti := rfl
theorem C61_unproject : glms_unproject (α := α) = glm_unproject := rfl
theorem C61_project : glms_project (α := α) = glm_project := rfl
theorem C61_project_z : glms_project_z (α := α) = glm_project_z := rfl
theorem C61_pickmatrix : glms_pickmatrix (α := α) = glm_pickmatrix := rfl
theorem C61_sphere_radii : glms_sphere_radii (α := α) = glm_sphere_radii := rfl
theorem C61_sphere_transform : glms_sphere_transform (α := α) = glm_sphere_transform := rfl
theorem C61_sphere_merge : glms_sphere_merge (α := α) = glm_sphere_merge := rfl
theorem C61_sphere_sphere : glms_sphere_sphere (α := α) = glm_sphere_sphere := rfl
theorem C61_sphere_point : glms_sphere_point (α := α) = glm_sphere_point := rfl
theorem C61_smc : glms_smc (α := α) = glm_smc := rfl
theorem C61_translate2d : glms_translate2d (α := α) = glm_translate2d := rfl
theorem C61_translate2d_x : glms_translate2d_x (α := α) = glm_translate2d_x := rfl
theorem C61_translate2d_y : glms_translate2d_y (α := α) = glm_translate2d_y := rfl
theorem C61_translate2d_make : glms_translate2d_make (α := α) = glm_translate2d_make := rfl
theorem C61_scale2d_make : glms_scale2d_make (α := α) = glm_scale2d_make := rfl
theorem C61_scale2d : glms_scale2d (α := α) = glm_scale2d := rfl
theorem C61_scale2d_uni : glms_scale2d_uni (α := α) = glm_scale2d_uni := rfl
theorem C61_rotate2d_make : glms_rotate2d_make (α := α) = glm_rotate2d_make := rfl
theorem C61_rotate2d : glms_rotate2d (α := α) = glm_rotate2d := rfl
theorem C61_rotate2d_to : glms_rotate2d_to (α := α) = glm_rotate2d_to := rfl
theorem C61_ray_triangle : glms_ray_triangle (α := α) = glm_ray_triangle := rfl
theorem C61_ray_sphere : glms_ray_sphere (α := α) = glm_ray_sphere := rfl
theorem C61_ray_at : glms_ray_at (α := α) = glm_ray_at := rfl
theorem C61_aabb2d_transform : glms_aabb2d_transform (α := α) = glm_aabb2d_transform := rfl
theorem C61_aabb2d_merge : glms_aabb2d_merge (α := α) = glm_aabb2d_merge := rfl
theorem C61_aabb2d_crop : glms_aabb2d_crop (α := α) = glm_aabb2d_crop := rfl
theorem C61_aabb2d_crop_until : glms_aabb2d_crop_until (α := α) = glm_aabb2d_crop_until := rfl
theorem C61_aabb2d_invalidate : glms_aabb2d_invalidate (α := α) = glm_aabb2d_invalidate := rfl
theorem C61_aabb2d_isvalid : glms_aabb2d_isvalid (α := α) = glm_aabb2d_isvalid := rfl
theorem C61_aabb2d_diag : glms_aabb2d_diag (α := α) = glm_aabb2d_diag := rfl
theorem C61_aabb2d_sizev : glms_aabb2d_sizev (α := α) = glm_aabb2d_sizev := rfl
theorem C61_aabb2d_center : glms_aabb2d_center (α := α) = glm_aabb2d_center := rfl
theorem C61_aabb2d_aabb : glms_aabb2d_aabb (α := α) = glm_aabb2d_aabb := rfl
theorem C61_aabb2d_circle : glms_aabb2d_circle (α := α) = glm_aabb2d_circle := rfl
theorem C61_aabb2d_point : glms_aabb2d_point (α := α) = glm_aabb2d_point := rfl
theorem C61_aabb2d_contains : glms_aabb2d_contains (α := α) = glm_aabb2d_contains := rfl
theorem C61_quat_from_vecs : glms_quat_from_vecs (α := α) = glm_quat_from_vecs := rfl

end Cglm

namespace Cglm.I

variable {α : Type} [Add α] [Sub α] [Mul α] [Div α] [Neg α] [CFloat α] [CIntConv α]

theorem C61_ivec2 : glms_ivec2 = glm_ivec2 := rfl
theorem C61_ivec2_zero : glms_ivec2_zero = glm_ivec2_zero := rfl
theorem C61_ivec2_one : glms_ivec2_one = glm_ivec2_one := rfl
theorem C61_ivec2_dot : glms_ivec2_dot = glm_ivec2_dot := rfl
theorem C61_ivec2_cross : glms_ivec2_cross = glm_ivec2_cross := rfl
theorem C61_ivec2_add : glms_ivec2_add = glm_ivec2_add := rfl
theorem C61_ivec2_adds : glms_ivec2_adds = glm_ivec2_adds := rfl
theorem C61_ivec2_sub : glms_ivec2_sub = glm_ivec2_sub := rfl
theorem C61_ivec2_subs : glms_ivec2_subs = glm_ivec2_subs := rfl
theorem C61_ivec2_mul : glms_ivec2_mul = glm_ivec2_mul := rfl
theorem C61_ivec2_scale : glms_ivec2_scale = glm_ivec2_scale := rfl
theorem C61_ivec2_div : glms_ivec2_div = glm_ivec2_div := rfl
theorem C61_ivec2_divs : glms_ivec2_divs = glm_ivec2_divs := rfl
theorem C61_ivec2_mod : glms_ivec2_mod = glm_ivec2_mod := rfl
theorem C61_ivec2_addadd : glms_ivec2_addadd = glm_ivec2_addadd := rfl
theorem C61_ivec2_addadds : glms_ivec2_addadds = glm_ivec2_addadds := rfl
theorem C61_ivec2_subadd : glms_ivec2_subadd = glm_ivec2_subadd := rfl
theorem C61_ivec2_subadds : glms_ivec2_subadds = glm_ivec2_subadds := rfl
theorem C61_ivec2_muladd : glms_ivec2_muladd = glm_ivec2_muladd := rfl
theorem C61_ivec2_muladds : glms_ivec2_muladds = glm_ivec2_muladds := rfl
theorem C61_ivec2_maxadd : glms_ivec2_maxadd = glm_ivec2_maxadd := rfl
theorem C61_ivec2_minadd : glms_ivec2_minadd = glm_ivec2_minadd := rfl
theorem C61_ivec2_subsub : glms_ivec2_subsub = glm_ivec2_subsub := rfl
theorem C61_ivec2_subsubs : glms_ivec2_subsubs = glm_ivec2_subsubs := rfl
theorem C61_ivec2_addsub : glms_ivec2_addsub = glm_ivec2_addsub := rfl
theorem C61_ivec2_addsubs : glms_ivec2_addsubs = glm_ivec2_addsubs := rfl
theorem C61_ivec2_mulsub : glms_ivec2_mulsub = glm_ivec2_mulsub := rfl
theorem C61_ivec2_mulsubs : glms_ivec2_mulsubs = glm_ivec2_mulsubs := rfl
theorem C61_ivec2_maxsub : glms_ivec2_maxsub = glm_ivec2_maxsub := rfl
theorem C61_ivec2_minsub : glms_ivec2_minsub = glm_ivec2_minsub := rfl
theorem C61_ivec2_distance2 : glms_ivec2_distance2 = glm_ivec2_distance2 := rfl
theorem C61_ivec2_distance : glms_ivec2_distance (α := α) = glm_ivec2_distance (α := α) := rfl
theorem C61_ivec2_fill : glms_ivec2_fill = glm_ivec2_fill := rfl
theorem C61_ivec2_eq : glms_ivec2_eq = glm_ivec2_eq := rfl
theorem C61_ivec2_eqv : glms_ivec2_eqv = glm_ivec2_eqv := rfl
theorem C61_ivec2_maxv : glms_ivec2_maxv = glm_ivec2_maxv := rfl
theorem C61_ivec2_minv : glms_ivec2_minv = glm_ivec2_minv := rfl
theorem C61_ivec2_clamp : glms_ivec2_clamp = glm_ivec2_clamp := rfl
theorem C61_ivec2_abs : glms_ivec2_abs = glm_ivec2_abs := rfl
theorem C61_ivec3 : glms_ivec3 = glm_ivec3 := rfl
theorem C61_ivec3_zero : glms_ivec3_zero = glm_ivec3_zero := rfl
theorem C61_ivec3_one : glms_ivec3_one = glm_ivec3_one := rfl
theorem C61_ivec3_dot : glms_ivec3_dot = glm_ivec3_dot := rfl
theorem C61_ivec3_norm2 : glms_ivec3_norm2 = glm_ivec3_norm2 := rfl
theorem C61_ivec3_norm : glms_ivec3_norm (α := α) = glm_ivec3_norm (α := α) := rfl
theorem C61_ivec3_add : glms_ivec3_add = glm_ivec3_add := rfl
theorem C61_ivec3_adds : glms_ivec3_adds = glm_ivec3_adds := rfl
theorem C61_ivec3_sub : glms_ivec3_sub = glm_ivec3_sub := rfl
theorem C61_ivec3_subs : glms_ivec3_subs = glm_ivec3_subs := rfl
theorem C61_ivec3_mul : glms_ivec3_mul = glm_ivec3_mul := rfl
theorem C61_ivec3_scale : glms_ivec3_scale = glm_ivec3_scale := rfl
theorem C61_ivec3_div : glms_ivec3_div = glm_ivec3_div := rfl
theorem C61_ivec3_divs : glms_ivec3_divs = glm_ivec3_divs := rfl
theorem C61_ivec3_mod : glms_ivec3_mod = glm_ivec3_mod := rfl
theorem C61_ivec3_addadd : glms_ivec3_addadd = glm_ivec3_addadd := rfl
theorem C61_ivec3_addadds : glms_ivec3_addadds = glm_ivec3_addadds := rfl
theorem C61_ivec3_subadd : glms_ivec3_subadd = glm_ivec3_subadd := rfl
theorem C61_ivec3_subadds : glms_ivec3_subadds = glm_ivec3_subadds := rfl
theorem C61_ivec3_muladd : glms_ivec3_muladd = glm_ivec3_muladd := rfl
theorem C61_ivec3_muladds : glms_ivec3_muladds = glm_ivec3_muladds := rfl
theorem C61_ivec3_maxadd : glms_ivec3_maxadd = glm_ivec3_maxadd := rfl
theorem C61_ivec3_minadd : glms_ivec3_minadd = glm_ivec3_minadd := rfl
theorem C61_ivec3_subsub : glms_ivec3_subsub = glm_ivec3_subsub := rfl
theorem C61_ivec3_subsubs : glms_ivec3_subsubs = glm_ivec3_subsubs := rfl
theorem C61_ivec3_addsub : glms_ivec3_addsub = glm_ivec3_addsub := rfl
theorem C61_ivec3_addsubs : glms_ivec3_addsubs = glm_ivec3_addsubs := rfl
theorem C61_ivec3_mulsub : glms_ivec3_mulsub = glm_ivec3_mulsub := rfl
theorem C61_ivec3_mulsubs : glms_ivec3_mulsubs = glm_ivec3_mulsubs := rfl
theorem C61_ivec3_maxsub : glms_ivec3_maxsub = glm_ivec3_maxsub := rfl
theorem C61_ivec3_minsub : glms_ivec3_minsub = glm_ivec3_minsub := rfl
theorem C61_ivec3_distance2 : glms_ivec3_distance2 = glm_ivec3_distance2 := rfl
theorem C61_ivec3_distance : glms_ivec3_distance (α := α) = glm_ivec3_distance (α := α) := rfl
theorem C61_ivec3_fill : glms_ivec3_fill = glm_ivec3_fill := rfl
theorem C61_ivec3_eq : glms_ivec3_eq = glm_ivec3_eq := rfl
theorem C61_ivec3_eqv : glms_ivec3_eqv = glm_ivec3_eqv := rfl
theorem C61_ivec3_maxv : glms_ivec3_maxv = glm_ivec3_maxv := rfl
theorem C61_ivec3_minv : glms_ivec3_minv = glm_ivec3_minv := rfl
theorem C61_ivec3_clamp : glms_ivec3_clamp = glm_ivec3_clamp := rfl
theorem C61_ivec3_abs : glms_ivec3_abs = glm_ivec3_abs := rfl
theorem C61_ivec4 : glms_ivec4 = glm_ivec4 := rfl
theorem C61_ivec4_zero : glms_ivec4_zero = glm_ivec4_zero := rfl
theorem C61_ivec4_one : glms_ivec4_one = glm_ivec4_one := rfl
theorem C61_ivec4_add : glms_ivec4_add = glm_ivec4_add := rfl
theorem C61_ivec4_adds : glms_ivec4_adds = glm_ivec4_adds := rfl
theorem C61_ivec4_sub : glms_ivec4_sub = glm_ivec4_sub := rfl
theorem C61_ivec4_subs : glms_ivec4_subs = glm_ivec4_subs := rfl
theorem C61_ivec4_mul : glms_ivec4_mul = glm_ivec4_mul := rfl
theorem C61_ivec4_scale : glms_ivec4_scale = glm_ivec4_scale := rfl
theorem C61_ivec4_addadd : glms_ivec4_addadd = glm_ivec4_addadd := rfl
theorem C61_ivec4_addadds : glms_ivec4_addadds = glm_ivec4_addadds := rfl
theorem C61_ivec4_subadd : glms_ivec4_subadd = glm_ivec4_subadd := rfl
theorem C61_ivec4_subadds : glms_ivec4_subadds = glm_ivec4_subadds := rfl
theorem C61_ivec4_muladd : glms_ivec4_muladd = glm_ivec4_muladd := rfl
theorem C61_ivec4_muladds : glms_ivec4_muladds = glm_ivec4_muladds := rfl
theorem C61_ivec4_maxadd : glms_ivec4_maxadd = glm_ivec4_maxadd := rfl
theorem C61_ivec4_minadd : glms_ivec4_minadd = glm_ivec4_minadd := rfl
theorem C61_ivec4_subsub : glms_ivec4_subsub = glm_ivec4_subsub := rfl
theorem C61_ivec4_subsubs : glms_ivec4_subsubs = glm_ivec4_subsubs := rfl
theorem C61_ivec4_addsub : glms_ivec4_addsub = glm_ivec4_addsub := rfl
theorem C61_ivec4_addsubs : glms_ivec4_addsubs = glm_ivec4_addsubs := rfl
theorem C61_ivec4_mulsub : glms_ivec4_mulsub = glm_ivec4_mulsub := rfl
theorem C61_ivec4_mulsubs : glms_ivec4_mulsubs = glm_ivec4_mulsubs := rfl
theorem C61_ivec4_maxsub : glms_ivec4_maxsub = glm_ivec4_maxsub := rfl
theorem C61_ivec4_minsub : glms_ivec4_minsub = glm_ivec4_minsub := rfl
theorem C61_ivec4_distance2 : glms_ivec4_distance2 = glm_ivec4_distance2 := rfl
theorem C61_ivec4_distance : glms_ivec4_distance (α := α) = glm_ivec4_distance (α := α) := rfl
theorem C61_ivec4_maxv : glms_ivec4_maxv = glm_ivec4_maxv := rfl
theorem C61_ivec4_minv : glms_ivec4_minv = glm_ivec4_minv := rfl
theorem C61_ivec4_clamp : glms_ivec4_clamp = glm_ivec4_clamp := rfl
theorem C61_ivec4_abs : glms_ivec4_abs = glm_ivec4_abs := rfl

end Cglm.I

namespace Cglm

end Cglm
