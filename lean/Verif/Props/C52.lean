import Verif.Props.C47
import Verif.Props.C48
import Mathlib.Data.Complex.Basic

/-! # C52: component-wise vector functions

The component-wise statements hold over every scalar type, with the operations in the order the code does them (so they
hold bit for bit in floating point too).  `v.vec i` is component `i`. -/

namespace Cglm

section
variable {α : Type} [Add α] [Sub α] [Mul α] [Div α] [Neg α] [CFloat α]

/-! ## vec2 -/

theorem C52_vec2_add (a : V2 α) (b : V2 α) (i : Fin 2) : (glm_vec2_add a b : V2 α).vec i = a.vec i + b.vec i := by fin_cases i <;> rfl
theorem C52_vec2_adds (v : V2 α) (s : α) (i : Fin 2) : (glm_vec2_adds v s : V2 α).vec i = v.vec i + s := by fin_cases i <;> rfl
theorem C52_vec2_sub (a : V2 α) (b : V2 α) (i : Fin 2) : (glm_vec2_sub a b : V2 α).vec i = a.vec i - b.vec i := by fin_cases i <;> rfl
theorem C52_vec2_subs (v : V2 α) (s : α) (i : Fin 2) : (glm_vec2_subs v s : V2 α).vec i = v.vec i - s := by fin_cases i <;> rfl
theorem C52_vec2_mul (a : V2 α) (b : V2 α) (i : Fin 2) : (glm_vec2_mul a b : V2 α).vec i = a.vec i * b.vec i := by fin_cases i <;> rfl
theorem C52_vec2_scale (v : V2 α) (s : α) (i : Fin 2) : (glm_vec2_scale v s : V2 α).vec i = v.vec i * s := by fin_cases i <;> rfl
theorem C52_vec2_div (a : V2 α) (b : V2 α) (i : Fin 2) : (glm_vec2_div a b : V2 α).vec i = a.vec i / b.vec i := by fin_cases i <;> rfl
theorem C52_vec2_divs (v : V2 α) (s : α) (i : Fin 2) : (glm_vec2_divs v s : V2 α).vec i = v.vec i / s := by fin_cases i <;> rfl
theorem C52_vec2_addadd (a : V2 α) (b : V2 α) (d : V2 α) (i : Fin 2) : (glm_vec2_addadd a b d : V2 α).vec i = d.vec i + (a.vec i + b.vec i) := by fin_cases i <;> rfl
theorem C52_vec2_subadd (a : V2 α) (b : V2 α) (d : V2 α) (i : Fin 2) : (glm_vec2_subadd a b d : V2 α).vec i = d.vec i + (a.vec i - b.vec i) := by fin_cases i <;> rfl
theorem C52_vec2_muladd (a : V2 α) (b : V2 α) (d : V2 α) (i : Fin 2) : (glm_vec2_muladd a b d : V2 α).vec i = d.vec i + a.vec i * b.vec i := by fin_cases i <;> rfl
theorem C52_vec2_maxadd (a : V2 α) (b : V2 α) (d : V2 α) (i : Fin 2) : (glm_vec2_maxadd a b d : V2 α).vec i = d.vec i + glm_max (a.vec i) (b.vec i) := by fin_cases i <;> rfl
theorem C52_vec2_minadd (a : V2 α) (b : V2 α) (d : V2 α) (i : Fin 2) : (glm_vec2_minadd a b d : V2 α).vec i = d.vec i + glm_min (a.vec i) (b.vec i) := by fin_cases i <;> rfl
theorem C52_vec2_subsub (a : V2 α) (b : V2 α) (d : V2 α) (i : Fin 2) : (glm_vec2_subsub a b d : V2 α).vec i = d.vec i - (a.vec i - b.vec i) := by fin_cases i <;> rfl
theorem C52_vec2_addsub (a : V2 α) (b : V2 α) (d : V2 α) (i : Fin 2) : (glm_vec2_addsub a b d : V2 α).vec i = d.vec i - (a.vec i + b.vec i) := by fin_cases i <;> rfl
theorem C52_vec2_mulsub (a : V2 α) (b : V2 α) (d : V2 α) (i : Fin 2) : (glm_vec2_mulsub a b d : V2 α).vec i = d.vec i - a.vec i * b.vec i := by fin_cases i <;> rfl
theorem C52_vec2_maxsub (a : V2 α) (b : V2 α) (d : V2 α) (i : Fin 2) : (glm_vec2_maxsub a b d : V2 α).vec i = d.vec i - glm_max (a.vec i) (b.vec i) := by fin_cases i <;> rfl
theorem C52_vec2_minsub (a : V2 α) (b : V2 α) (d : V2 α) (i : Fin 2) : (glm_vec2_minsub a b d : V2 α).vec i = d.vec i - glm_min (a.vec i) (b.vec i) := by fin_cases i <;> rfl
theorem C52_vec2_muladds (a : V2 α) (s : α) (d : V2 α) (i : Fin 2) : (glm_vec2_muladds a s d : V2 α).vec i = d.vec i + a.vec i * s := by fin_cases i <;> rfl
theorem C52_vec2_mulsubs (a : V2 α) (s : α) (d : V2 α) (i : Fin 2) : (glm_vec2_mulsubs a s d : V2 α).vec i = d.vec i - a.vec i * s := by fin_cases i <;> rfl
theorem C52_vec2_negate (v : V2 α) (i : Fin 2) : (glm_vec2_negate v : V2 α).vec i = -v.vec i := by fin_cases i <;> rfl
theorem C52_vec2_negate_to (v : V2 α) (i : Fin 2) : (glm_vec2_negate_to v : V2 α).vec i = -v.vec i := by fin_cases i <;> rfl
theorem C52_vec2_copy (v : V2 α) (i : Fin 2) : (glm_vec2_copy v : V2 α).vec i = v.vec i := by fin_cases i <;> rfl
theorem C52_vec2_make (v : V2 α) (i : Fin 2) : (glm_vec2_make v : V2 α).vec i = v.vec i := by fin_cases i <;> rfl
theorem C52_vec2_zero (i : Fin 2) : (glm_vec2_zero : V2 α).vec i = lit 0 := by fin_cases i <;> rfl
theorem C52_vec2_one (i : Fin 2) : (glm_vec2_one : V2 α).vec i = lit 1 := by fin_cases i <;> rfl
theorem C52_vec2_fill (s : α) (i : Fin 2) : (glm_vec2_fill s : V2 α).vec i = s := by fin_cases i <;> rfl
theorem C52_vec2_maxv (a : V2 α) (b : V2 α) (i : Fin 2) : (glm_vec2_maxv a b : V2 α).vec i = glm_max (a.vec i) (b.vec i) := by fin_cases i <;> rfl
theorem C52_vec2_minv (a : V2 α) (b : V2 α) (i : Fin 2) : (glm_vec2_minv a b : V2 α).vec i = glm_min (a.vec i) (b.vec i) := by fin_cases i <;> rfl
theorem C52_vec2_clamp (v : V2 α) (l : α) (h : α) (i : Fin 2) : (glm_vec2_clamp v l h : V2 α).vec i = glm_clamp (v.vec i) l h := by fin_cases i <;> rfl
theorem C52_vec2_lerp (a : V2 α) (b : V2 α) (t : α) (i : Fin 2) : (glm_vec2_lerp a b t : V2 α).vec i = a.vec i + glm_clamp_zo t * (b.vec i - a.vec i) := by fin_cases i <;> rfl
theorem C52_vec2_step (e : V2 α) (v : V2 α) (i : Fin 2) : (glm_vec2_step e v : V2 α).vec i = glm_step (e.vec i) (v.vec i) := by fin_cases i <;> rfl
theorem C52_vec2_steps (e : α) (v : V2 α) (i : Fin 2) : (glm_vec2_steps e v : V2 α).vec i = glm_step e (v.vec i) := by fin_cases i <;> rfl
theorem C52_vec2_stepr (e : V2 α) (x : α) (i : Fin 2) : (glm_vec2_stepr e x : V2 α).vec i = glm_step (e.vec i) x := by fin_cases i <;> rfl
theorem C52_vec2_sign (v : V2 α) (i : Fin 2) : (glm_vec2_sign v : V2 α).vec i = glm_signf (v.vec i) := by fin_cases i <;> rfl
theorem C52_vec2_abs (v : V2 α) (i : Fin 2) : (glm_vec2_abs v : V2 α).vec i = fabsf (v.vec i) := by fin_cases i <;> rfl
theorem C52_vec2_floor (v : V2 α) (i : Fin 2) : (glm_vec2_floor v : V2 α).vec i = floorf (v.vec i) := by fin_cases i <;> rfl
theorem C52_vec2_mods (v : V2 α) (s : α) (i : Fin 2) : (glm_vec2_mods v s : V2 α).vec i = fmodf (v.vec i) s := by fin_cases i <;> rfl
theorem C52_vec2_sqrt (v : V2 α) (i : Fin 2) : (glm_vec2_sqrt v : V2 α).vec i = sqrtf (v.vec i) := by fin_cases i <;> rfl
theorem C52_vec2_fract (v : V2 α) (i : Fin 2) : (glm_vec2_fract v : V2 α).vec i = fminf (v.vec i - floorf (v.vec i)) (lit 0.999999940395355224609375) := by fin_cases i <;> rfl

/-! ## vec3 -/

theorem C52_vec3_add (a : V3 α) (b : V3 α) (i : Fin 3) : (glm_vec3_add a b : V3 α).vec i = a.vec i + b.vec i := by fin_cases i <;> rfl
theorem C52_vec3_adds (v : V3 α) (s : α) (i : Fin 3) : (glm_vec3_adds v s : V3 α).vec i = v.vec i + s := by fin_cases i <;> rfl
theorem C52_vec3_sub (a : V3 α) (b : V3 α) (i : Fin 3) : (glm_vec3_sub a b : V3 α).vec i = a.vec i - b.vec i := by fin_cases i <;> rfl
theorem C52_vec3_subs (v : V3 α) (s : α) (i : Fin 3) : (glm_vec3_subs v s : V3 α).vec i = v.vec i - s := by fin_cases i <;> rfl
theorem C52_vec3_mul (a : V3 α) (b : V3 α) (i : Fin 3) : (glm_vec3_mul a b : V3 α).vec i = a.vec i * b.vec i := by fin_cases i <;> rfl
theorem C52_vec3_scale (v : V3 α) (s : α) (i : Fin 3) : (glm_vec3_scale v s : V3 α).vec i = v.vec i * s := by fin_cases i <;> rfl
theorem C52_vec3_div (a : V3 α) (b : V3 α) (i : Fin 3) : (glm_vec3_div a b : V3 α).vec i = a.vec i / b.vec i := by fin_cases i <;> rfl
theorem C52_vec3_divs (v : V3 α) (s : α) (i : Fin 3) : (glm_vec3_divs v s : V3 α).vec i = v.vec i / s := by fin_cases i <;> rfl
theorem C52_vec3_addadd (a : V3 α) (b : V3 α) (d : V3 α) (i : Fin 3) : (glm_vec3_addadd a b d : V3 α).vec i = d.vec i + (a.vec i + b.vec i) := by fin_cases i <;> rfl
theorem C52_vec3_subadd (a : V3 α) (b : V3 α) (d : V3 α) (i : Fin 3) : (glm_vec3_subadd a b d : V3 α).vec i = d.vec i + (a.vec i - b.vec i) := by fin_cases i <;> rfl
theorem C52_vec3_muladd (a : V3 α) (b : V3 α) (d : V3 α) (i : Fin 3) : (glm_vec3_muladd a b d : V3 α).vec i = d.vec i + a.vec i * b.vec i := by fin_cases i <;> rfl
theorem C52_vec3_maxadd (a : V3 α) (b : V3 α) (d : V3 α) (i : Fin 3) : (glm_vec3_maxadd a b d : V3 α).vec i = d.vec i + glm_max (a.vec i) (b.vec i) := by fin_cases i <;> rfl
theorem C52_vec3_minadd (a : V3 α) (b : V3 α) (d : V3 α) (i : Fin 3) : (glm_vec3_minadd a b d : V3 α).vec i = d.vec i + glm_min (a.vec i) (b.vec i) := by fin_cases i <;> rfl
theorem C52_vec3_subsub (a : V3 α) (b : V3 α) (d : V3 α) (i : Fin 3) : (glm_vec3_subsub a b d : V3 α).vec i = d.vec i - (a.vec i - b.vec i) := by fin_cases i <;> rfl
theorem C52_vec3_addsub (a : V3 α) (b : V3 α) (d : V3 α) (i : Fin 3) : (glm_vec3_addsub a b d : V3 α).vec i = d.vec i - (a.vec i + b.vec i) := by fin_cases i <;> rfl
theorem C52_vec3_mulsub (a : V3 α) (b : V3 α) (d : V3 α) (i : Fin 3) : (glm_vec3_mulsub a b d : V3 α).vec i = d.vec i - a.vec i * b.vec i := by fin_cases i <;> rfl
theorem C52_vec3_maxsub (a : V3 α) (b : V3 α) (d : V3 α) (i : Fin 3) : (glm_vec3_maxsub a b d : V3 α).vec i = d.vec i - glm_max (a.vec i) (b.vec i) := by fin_cases i <;> rfl
theorem C52_vec3_minsub (a : V3 α) (b : V3 α) (d : V3 α) (i : Fin 3) : (glm_vec3_minsub a b d : V3 α).vec i = d.vec i - glm_min (a.vec i) (b.vec i) := by fin_cases i <;> rfl
theorem C52_vec3_muladds (a : V3 α) (s : α) (d : V3 α) (i : Fin 3) : (glm_vec3_muladds a s d : V3 α).vec i = d.vec i + a.vec i * s := by fin_cases i <;> rfl
theorem C52_vec3_mulsubs (a : V3 α) (s : α) (d : V3 α) (i : Fin 3) : (glm_vec3_mulsubs a s d : V3 α).vec i = d.vec i - a.vec i * s := by fin_cases i <;> rfl
theorem C52_vec3_negate (v : V3 α) (i : Fin 3) : (glm_vec3_negate v : V3 α).vec i = -v.vec i := by fin_cases i <;> rfl
theorem C52_vec3_negate_to (v : V3 α) (i : Fin 3) : (glm_vec3_negate_to v : V3 α).vec i = -v.vec i := by fin_cases i <;> rfl
theorem C52_vec3_copy (v : V3 α) (i : Fin 3) : (glm_vec3_copy v : V3 α).vec i = v.vec i := by fin_cases i <;> rfl
theorem C52_vec3_make (v : V3 α) (i : Fin 3) : (glm_vec3_make v : V3 α).vec i = v.vec i := by fin_cases i <;> rfl
theorem C52_vec3_zero (i : Fin 3) : (glm_vec3_zero : V3 α).vec i = lit 0 := by fin_cases i <;> rfl
theorem C52_vec3_one (i : Fin 3) : (glm_vec3_one : V3 α).vec i = lit 1 := by fin_cases i <;> rfl
theorem C52_vec3_fill (s : α) (i : Fin 3) : (glm_vec3_fill s : V3 α).vec i = s := by fin_cases i <;> rfl
theorem C52_vec3_broadcast (s : α) (i : Fin 3) : (glm_vec3_broadcast s : V3 α).vec i = s := by fin_cases i <;> rfl
theorem C52_vec3_maxv (a : V3 α) (b : V3 α) (i : Fin 3) : (glm_vec3_maxv a b : V3 α).vec i = glm_max (a.vec i) (b.vec i) := by fin_cases i <;> rfl
theorem C52_vec3_minv (a : V3 α) (b : V3 α) (i : Fin 3) : (glm_vec3_minv a b : V3 α).vec i = glm_min (a.vec i) (b.vec i) := by fin_cases i <;> rfl
theorem C52_vec3_clamp (v : V3 α) (l : α) (h : α) (i : Fin 3) : (glm_vec3_clamp v l h : V3 α).vec i = glm_clamp (v.vec i) l h := by fin_cases i <;> rfl
theorem C52_vec3_lerp (a : V3 α) (b : V3 α) (t : α) (i : Fin 3) : (glm_vec3_lerp a b t : V3 α).vec i = a.vec i + t * (b.vec i - a.vec i) := by fin_cases i <;> rfl
theorem C52_vec3_lerpc (a : V3 α) (b : V3 α) (t : α) (i : Fin 3) : (glm_vec3_lerpc a b t : V3 α).vec i = a.vec i + glm_clamp_zo t * (b.vec i - a.vec i) := by fin_cases i <;> rfl
theorem C52_vec3_mix (a : V3 α) (b : V3 α) (t : α) (i : Fin 3) : (glm_vec3_mix a b t : V3 α).vec i = a.vec i + t * (b.vec i - a.vec i) := by fin_cases i <;> rfl
theorem C52_vec3_mixc (a : V3 α) (b : V3 α) (t : α) (i : Fin 3) : (glm_vec3_mixc a b t : V3 α).vec i = a.vec i + glm_clamp_zo t * (b.vec i - a.vec i) := by fin_cases i <;> rfl
theorem C52_vec3_step (e : V3 α) (v : V3 α) (i : Fin 3) : (glm_vec3_step e v : V3 α).vec i = glm_step (e.vec i) (v.vec i) := by fin_cases i <;> rfl
theorem C52_vec3_steps (e : α) (v : V3 α) (i : Fin 3) : (glm_vec3_steps e v : V3 α).vec i = glm_step e (v.vec i) := by fin_cases i <;> rfl
theorem C52_vec3_stepr (e : V3 α) (x : α) (i : Fin 3) : (glm_vec3_stepr e x : V3 α).vec i = glm_step (e.vec i) x := by fin_cases i <;> rfl
theorem C52_vec3_smoothstep (e : V3 α) (f : V3 α) (v : V3 α) (i : Fin 3) : (glm_vec3_smoothstep e f v : V3 α).vec i = glm_smoothstep (e.vec i) (f.vec i) (v.vec i) := by fin_cases i <;> rfl
theorem C52_vec3_smoothstep_uni (e : α) (f : α) (v : V3 α) (i : Fin 3) : (glm_vec3_smoothstep_uni e f v : V3 α).vec i = glm_smoothstep e f (v.vec i) := by fin_cases i <;> rfl
theorem C52_vec3_smoothinterp (a : V3 α) (b : V3 α) (t : α) (i : Fin 3) : (glm_vec3_smoothinterp a b t : V3 α).vec i = a.vec i + glm_smooth t * (b.vec i - a.vec i) := by fin_cases i <;> rfl
theorem C52_vec3_smoothinterpc (a : V3 α) (b : V3 α) (t : α) (i : Fin 3) : (glm_vec3_smoothinterpc a b t : V3 α).vec i = a.vec i + glm_smooth (glm_clamp_zo t) * (b.vec i - a.vec i) := by fin_cases i <;> rfl
theorem C52_vec3_sign (v : V3 α) (i : Fin 3) : (glm_vec3_sign v : V3 α).vec i = glm_signf (v.vec i) := by fin_cases i <;> rfl
theorem C52_vec3_abs (v : V3 α) (i : Fin 3) : (glm_vec3_abs v : V3 α).vec i = fabsf (v.vec i) := by fin_cases i <;> rfl
theorem C52_vec3_floor (v : V3 α) (i : Fin 3) : (glm_vec3_floor v : V3 α).vec i = floorf (v.vec i) := by fin_cases i <;> rfl
theorem C52_vec3_mods (v : V3 α) (s : α) (i : Fin 3) : (glm_vec3_mods v s : V3 α).vec i = fmodf (v.vec i) s := by fin_cases i <;> rfl
theorem C52_vec3_sqrt (v : V3 α) (i : Fin 3) : (glm_vec3_sqrt v : V3 α).vec i = sqrtf (v.vec i) := by fin_cases i <;> rfl
theorem C52_vec3_fract (v : V3 α) (i : Fin 3) : (glm_vec3_fract v : V3 α).vec i = fminf (v.vec i - floorf (v.vec i)) (lit 0.999999940395355224609375) := by fin_cases i <;> rfl

/-! ## vec4 -/

theorem C52_vec4_add (a : V4 α) (b : V4 α) (i : Fin 4) : (glm_vec4_add a b : V4 α).vec i = a.vec i + b.vec i := by fin_cases i <;> rfl
theorem C52_vec4_adds (v : V4 α) (s : α) (i : Fin 4) : (glm_vec4_adds v s : V4 α).vec i = v.vec i + s := by fin_cases i <;> rfl
theorem C52_vec4_sub (a : V4 α) (b : V4 α) (i : Fin 4) : (glm_vec4_sub a b : V4 α).vec i = a.vec i - b.vec i := by fin_cases i <;> rfl
theorem C52_vec4_subs (v : V4 α) (s : α) (i : Fin 4) : (glm_vec4_subs v s : V4 α).vec i = v.vec i - s := by fin_cases i <;> rfl
theorem C52_vec4_mul (a : V4 α) (b : V4 α) (i : Fin 4) : (glm_vec4_mul a b : V4 α).vec i = a.vec i * b.vec i := by fin_cases i <;> rfl
theorem C52_vec4_scale (v : V4 α) (s : α) (i : Fin 4) : (glm_vec4_scale v s : V4 α).vec i = v.vec i * s := by fin_cases i <;> rfl
theorem C52_vec4_div (a : V4 α) (b : V4 α) (i : Fin 4) : (glm_vec4_div a b : V4 α).vec i = a.vec i / b.vec i := by fin_cases i <;> rfl
theorem C52_vec4_divs (v : V4 α) (s : α) (i : Fin 4) : (glm_vec4_divs v s : V4 α).vec i = v.vec i * (lit 1 / s) := by fin_cases i <;> rfl
theorem C52_vec4_addadd (a : V4 α) (b : V4 α) (d : V4 α) (i : Fin 4) : (glm_vec4_addadd a b d : V4 α).vec i = d.vec i + (a.vec i + b.vec i) := by fin_cases i <;> rfl
theorem C52_vec4_subadd (a : V4 α) (b : V4 α) (d : V4 α) (i : Fin 4) : (glm_vec4_subadd a b d : V4 α).vec i = d.vec i + (a.vec i - b.vec i) := by fin_cases i <;> rfl
theorem C52_vec4_muladd (a : V4 α) (b : V4 α) (d : V4 α) (i : Fin 4) : (glm_vec4_muladd a b d : V4 α).vec i = d.vec i + a.vec i * b.vec i := by fin_cases i <;> rfl
theorem C52_vec4_maxadd (a : V4 α) (b : V4 α) (d : V4 α) (i : Fin 4) : (glm_vec4_maxadd a b d : V4 α).vec i = d.vec i + glm_max (a.vec i) (b.vec i) := by fin_cases i <;> rfl
theorem C52_vec4_minadd (a : V4 α) (b : V4 α) (d : V4 α) (i : Fin 4) : (glm_vec4_minadd a b d : V4 α).vec i = d.vec i + glm_min (a.vec i) (b.vec i) := by fin_cases i <;> rfl
theorem C52_vec4_subsub (a : V4 α) (b : V4 α) (d : V4 α) (i : Fin 4) : (glm_vec4_subsub a b d : V4 α).vec i = d.vec i - (a.vec i - b.vec i) := by fin_cases i <;> rfl
theorem C52_vec4_addsub (a : V4 α) (b : V4 α) (d : V4 α) (i : Fin 4) : (glm_vec4_addsub a b d : V4 α).vec i = d.vec i - (a.vec i + b.vec i) := by fin_cases i <;> rfl
theorem C52_vec4_mulsub (a : V4 α) (b : V4 α) (d : V4 α) (i : Fin 4) : (glm_vec4_mulsub a b d : V4 α).vec i = d.vec i - a.vec i * b.vec i := by fin_cases i <;> rfl
theorem C52_vec4_maxsub (a : V4 α) (b : V4 α) (d : V4 α) (i : Fin 4) : (glm_vec4_maxsub a b d : V4 α).vec i = d.vec i - glm_max (a.vec i) (b.vec i) := by fin_cases i <;> rfl
theorem C52_vec4_minsub (a : V4 α) (b : V4 α) (d : V4 α) (i : Fin 4) : (glm_vec4_minsub a b d : V4 α).vec i = d.vec i - glm_min (a.vec i) (b.vec i) := by fin_cases i <;> rfl
theorem C52_vec4_muladds (a : V4 α) (s : α) (d : V4 α) (i : Fin 4) : (glm_vec4_muladds a s d : V4 α).vec i = d.vec i + a.vec i * s := by fin_cases i <;> rfl
theorem C52_vec4_mulsubs (a : V4 α) (s : α) (d : V4 α) (i : Fin 4) : (glm_vec4_mulsubs a s d : V4 α).vec i = d.vec i - a.vec i * s := by fin_cases i <;> rfl
theorem C52_vec4_negate (v : V4 α) (i : Fin 4) : (glm_vec4_negate v : V4 α).vec i = -v.vec i := by fin_cases i <;> rfl
theorem C52_vec4_negate_to (v : V4 α) (i : Fin 4) : (glm_vec4_negate_to v : V4 α).vec i = -v.vec i := by fin_cases i <;> rfl
theorem C52_vec4_copy (v : V4 α) (i : Fin 4) : (glm_vec4_copy v : V4 α).vec i = v.vec i := by fin_cases i <;> rfl
theorem C52_vec4_make (v : V4 α) (i : Fin 4) : (glm_vec4_make v : V4 α).vec i = v.vec i := by fin_cases i <;> rfl
theorem C52_vec4_zero (i : Fin 4) : (glm_vec4_zero : V4 α).vec i = lit 0 := by fin_cases i <;> rfl
theorem C52_vec4_one (i : Fin 4) : (glm_vec4_one : V4 α).vec i = lit 1 := by fin_cases i <;> rfl
theorem C52_vec4_fill (s : α) (i : Fin 4) : (glm_vec4_fill s : V4 α).vec i = s := by fin_cases i <;> rfl
theorem C52_vec4_broadcast (s : α) (i : Fin 4) : (glm_vec4_broadcast s : V4 α).vec i = s := by fin_cases i <;> rfl
theorem C52_vec4_maxv (a : V4 α) (b : V4 α) (i : Fin 4) : (glm_vec4_maxv a b : V4 α).vec i = glm_max (a.vec i) (b.vec i) := by fin_cases i <;> rfl
theorem C52_vec4_minv (a : V4 α) (b : V4 α) (i : Fin 4) : (glm_vec4_minv a b : V4 α).vec i = glm_min (a.vec i) (b.vec i) := by fin_cases i <;> rfl
theorem C52_vec4_clamp (v : V4 α) (l : α) (h : α) (i : Fin 4) : (glm_vec4_clamp v l h : V4 α).vec i = glm_clamp (v.vec i) l h := by fin_cases i <;> rfl
theorem C52_vec4_lerp (a : V4 α) (b : V4 α) (t : α) (i : Fin 4) : (glm_vec4_lerp a b t : V4 α).vec i = a.vec i + t * (b.vec i - a.vec i) := by fin_cases i <;> rfl
theorem C52_vec4_lerpc (a : V4 α) (b : V4 α) (t : α) (i : Fin 4) : (glm_vec4_lerpc a b t : V4 α).vec i = a.vec i + glm_clamp_zo t * (b.vec i - a.vec i) := by fin_cases i <;> rfl
theorem C52_vec4_mix (a : V4 α) (b : V4 α) (t : α) (i : Fin 4) : (glm_vec4_mix a b t : V4 α).vec i = a.vec i + t * (b.vec i - a.vec i) := by fin_cases i <;> rfl
theorem C52_vec4_mixc (a : V4 α) (b : V4 α) (t : α) (i : Fin 4) : (glm_vec4_mixc a b t : V4 α).vec i = a.vec i + glm_clamp_zo t * (b.vec i - a.vec i) := by fin_cases i <;> rfl
theorem C52_vec4_step (e : V4 α) (v : V4 α) (i : Fin 4) : (glm_vec4_step e v : V4 α).vec i = glm_step (e.vec i) (v.vec i) := by fin_cases i <;> rfl
theorem C52_vec4_steps (e : α) (v : V4 α) (i : Fin 4) : (glm_vec4_steps e v : V4 α).vec i = glm_step e (v.vec i) := by fin_cases i <;> rfl
theorem C52_vec4_stepr (e : V4 α) (x : α) (i : Fin 4) : (glm_vec4_stepr e x : V4 α).vec i = glm_step (e.vec i) x := by fin_cases i <;> rfl
theorem C52_vec4_smoothstep (e : V4 α) (f : V4 α) (v : V4 α) (i : Fin 4) : (glm_vec4_smoothstep e f v : V4 α).vec i = glm_smoothstep (e.vec i) (f.vec i) (v.vec i) := by fin_cases i <;> rfl
theorem C52_vec4_smoothstep_uni (e : α) (f : α) (v : V4 α) (i : Fin 4) : (glm_vec4_smoothstep_uni e f v : V4 α).vec i = glm_smoothstep e f (v.vec i) := by fin_cases i <;> rfl
theorem C52_vec4_smoothinterp (a : V4 α) (b : V4 α) (t : α) (i : Fin 4) : (glm_vec4_smoothinterp a b t : V4 α).vec i = a.vec i + glm_smooth t * (b.vec i - a.vec i) := by fin_cases i <;> rfl
theorem C52_vec4_smoothinterpc (a : V4 α) (b : V4 α) (t : α) (i : Fin 4) : (glm_vec4_smoothinterpc a b t : V4 α).vec i = a.vec i + glm_smooth (glm_clamp_zo t) * (b.vec i - a.vec i) := by fin_cases i <;> rfl
theorem C52_vec4_sign (v : V4 α) (i : Fin 4) : (glm_vec4_sign v : V4 α).vec i = glm_signf (v.vec i) := by fin_cases i <;> rfl
theorem C52_vec4_abs (v : V4 α) (i : Fin 4) : (glm_vec4_abs v : V4 α).vec i = fabsf (v.vec i) := by fin_cases i <;> rfl
theorem C52_vec4_floor (v : V4 α) (i : Fin 4) : (glm_vec4_floor v : V4 α).vec i = floorf (v.vec i) := by fin_cases i <;> rfl
theorem C52_vec4_mods (v : V4 α) (s : α) (i : Fin 4) : (glm_vec4_mods v s : V4 α).vec i = fmodf (v.vec i) s := by fin_cases i <;> rfl
theorem C52_vec4_sqrt (v : V4 α) (i : Fin 4) : (glm_vec4_sqrt v : V4 α).vec i = sqrtf (v.vec i) := by fin_cases i <;> rfl
theorem C52_vec4_fract (v : V4 α) (i : Fin 4) : (glm_vec4_fract v : V4 α).vec i = fminf (v.vec i - floorf (v.vec i)) (lit 0.999999940395355224609375) := by fin_cases i <;> rfl


/-! reductions of vec2, every scalar type -/
theorem C52_vec2_isnan (v : V2 α) : glm_vec2_isnan v = true ↔ ∃ i, isnanf (v.vec i) = true := by
  simp [cglm, V2.vec, Fin.exists_fin_succ]
theorem C52_vec2_isinf (v : V2 α) : glm_vec2_isinf v = true ↔ ∃ i, isinff (v.vec i) = true := by
  simp [cglm, V2.vec, Fin.exists_fin_succ]
theorem C52_vec2_isvalid (v : V2 α) : glm_vec2_isvalid v = true ↔ ∀ i, isnanf (v.vec i) = false ∧ isinff (v.vec i) = false := by
  simp [cglm, V2.vec, Fin.forall_fin_succ]; tauto
theorem C52_vec2_eqv (a b : V2 α) : glm_vec2_eqv a b = true ↔ ∀ i, feq (a.vec i) (b.vec i) = true := by
  simp [cglm, V2.vec, Fin.forall_fin_succ]
theorem C52_vec2_eqv_eps (a b : V2 α) : glm_vec2_eqv_eps a b = true ↔ ∀ i, glm_eq (a.vec i) (b.vec i) = true := by
  simp [cglm, V2.vec, Fin.forall_fin_succ]
theorem C52_vec2_eq_eps (v : V2 α) (s : α) : glm_vec2_eq_eps v s = true ↔ ∀ i, glm_eq (v.vec i) s = true := by
  simp [cglm, V2.vec, Fin.forall_fin_succ]

/-! reductions of vec3, every scalar type -/
theorem C52_vec3_isnan (v : V3 α) : glm_vec3_isnan v = true ↔ ∃ i, isnanf (v.vec i) = true := by
  simp [cglm, V3.vec, Fin.exists_fin_succ, or_assoc]
theorem C52_vec3_isinf (v : V3 α) : glm_vec3_isinf v = true ↔ ∃ i, isinff (v.vec i) = true := by
  simp [cglm, V3.vec, Fin.exists_fin_succ, or_assoc]
theorem C52_vec3_isvalid (v : V3 α) : glm_vec3_isvalid v = true ↔ ∀ i, isnanf (v.vec i) = false ∧ isinff (v.vec i) = false := by
  simp [cglm, V3.vec, Fin.forall_fin_succ]; tauto
theorem C52_vec3_eqv (a b : V3 α) : glm_vec3_eqv a b = true ↔ ∀ i, feq (a.vec i) (b.vec i) = true := by
  simp [cglm, V3.vec, Fin.forall_fin_succ, and_assoc]
theorem C52_vec3_eqv_eps (a b : V3 α) : glm_vec3_eqv_eps a b = true ↔ ∀ i, glm_eq (a.vec i) (b.vec i) = true := by
  simp [cglm, V3.vec, Fin.forall_fin_succ, and_assoc]
theorem C52_vec3_eq_eps (v : V3 α) (s : α) : glm_vec3_eq_eps v s = true ↔ ∀ i, glm_eq (v.vec i) s = true := by
  simp [cglm, V3.vec, Fin.forall_fin_succ, and_assoc]

/-! reductions of vec4, every scalar type -/
theorem C52_vec4_isnan (v : V4 α) : glm_vec4_isnan v = true ↔ ∃ i, isnanf (v.vec i) = true := by
  simp [cglm, V4.vec, Fin.exists_fin_succ, or_assoc]
theorem C52_vec4_isinf (v : V4 α) : glm_vec4_isinf v = true ↔ ∃ i, isinff (v.vec i) = true := by
  simp [cglm, V4.vec, Fin.exists_fin_succ, or_assoc]
theorem C52_vec4_isvalid (v : V4 α) : glm_vec4_isvalid v = true ↔ ∀ i, isnanf (v.vec i) = false ∧ isinff (v.vec i) = false := by
  simp [cglm, V4.vec, Fin.forall_fin_succ]; tauto
theorem C52_vec4_eqv (a b : V4 α) : glm_vec4_eqv a b = true ↔ ∀ i, feq (a.vec i) (b.vec i) = true := by
  simp [cglm, V4.vec, Fin.forall_fin_succ, and_assoc]
theorem C52_vec4_eqv_eps (a b : V4 α) : glm_vec4_eqv_eps a b = true ↔ ∀ i, glm_eq (a.vec i) (b.vec i) = true := by
  simp [cglm, V4.vec, Fin.forall_fin_succ, and_assoc]
theorem C52_vec4_eq_eps (v : V4 α) (s : α) : glm_vec4_eq_eps v s = true ↔ ∀ i, glm_eq (v.vec i) s = true := by
  simp [cglm, V4.vec, Fin.forall_fin_succ, and_assoc]

theorem C52_vec3_of_vec4 (v : V4 α) : glm_vec3 v = ⟨v.x, v.y, v.z⟩ ∧ glm_vec4_copy3 v = ⟨v.x, v.y, v.z⟩ := ⟨rfl, rfl⟩
theorem C52_vec4_of_vec3 (v : V3 α) (s : α) : glm_vec4 v s = ⟨v.x, v.y, v.z, s⟩ := rfl
theorem C52_vec2_of_vec3 (v : V2 α) : glm_vec2 v = v := rfl
theorem C52_vec4_ucopy (v : V4 α) : glm_vec4_ucopy v = v := rfl
theorem C52_vec3_hadd (v : V3 α) : glm_vec3_hadd v = v.vec 0 + v.vec 1 + v.vec 2 := rfl
theorem C52_vec4_hadd (v : V4 α) : glm_vec4_hadd v = v.vec 0 + v.vec 1 + v.vec 2 + v.vec 3 := rfl

end

/-! ## over ℝ -/

theorem vec4_min_eq (v : V4 ℝ) : glm_vec4_min v = min (min (min v.x v.y) v.z) v.w := by
  unfold glm_vec4_min; rw [vec3_min_eq]
  simp only [flt_real, decide_eq_true_eq]
  split_ifs with h
  · rw [min_eq_right h.le]
  · rw [min_eq_left (not_lt.mp h)]

theorem C52_vec2_eq (v : V2 ℝ) (s : ℝ) : glm_vec2_eq v s = true ↔ ∀ i, v.vec i = s := by
  simp only [cglm, V2.vec, Fin.forall_fin_succ]
  simp
  exact fun h => by rw [h]; exact eq_comm
theorem C52_vec2_eqv_real (a b : V2 ℝ) : glm_vec2_eqv a b = true ↔ a = b := by
  simp [cglm, V2.ext_iff]
/-- eq_all compares with the first component, within the tolerance -/
theorem C52_vec2_eq_all (v : V2 ℝ) : glm_vec2_eq_all v = true ↔ ∀ i, |v.vec i - v.vec 0| ≤ 1 / 10 ^ 5 := by
  unfold glm_vec2_eq_all
  rw [C52_vec2_eq_eps]; simp only [C47_eq]; rfl
/-- the largest and the smallest component -/
theorem C52_vec2_max (v : V2 ℝ) : (∀ i, v.vec i ≤ glm_vec2_max v) ∧ ∃ i, glm_vec2_max v = v.vec i := by
  rw [vec2_max_eq]
  constructor
  · intro i; fin_cases i <;> simp [V2.vec]
  · rcases max_choice v.x v.y with h | h <;> [exact ⟨0, h⟩; exact ⟨1, h⟩]
theorem C52_vec2_min (v : V2 ℝ) : (∀ i, glm_vec2_min v ≤ v.vec i) ∧ ∃ i, glm_vec2_min v = v.vec i := by
  rw [vec2_min_eq]
  constructor
  · intro i; fin_cases i <;> simp [V2.vec]
  · rcases min_choice v.x v.y with h | h <;> [exact ⟨0, h⟩; exact ⟨1, h⟩]
/-- fract is the fractional part, except that values above 1 - 2⁻²⁴ are rounded down to it -/
theorem C52_vec2_fract_real (v : V2 ℝ) (i : Fin 2) : (glm_vec2_fract v).vec i = min (Int.fract (v.vec i)) (1 - 1 / 2 ^ 24) ∧
    0 ≤ (glm_vec2_fract v).vec i ∧ (glm_vec2_fract v).vec i < 1 := by
  have e : (glm_vec2_fract v).vec i = min (Int.fract (v.vec i)) (1 - 1 / 2 ^ 24) := by
    rw [C52_vec2_fract]; simp only [cglm]; rw [Int.self_sub_floor]; norm_num
  refine ⟨e, ?_, ?_⟩
  · rw [e]; exact le_min (Int.fract_nonneg _) (by norm_num)
  · rw [e]; exact lt_of_le_of_lt (min_le_right _ _) (by norm_num)

theorem C52_vec3_eq (v : V3 ℝ) (s : ℝ) : glm_vec3_eq v s = true ↔ ∀ i, v.vec i = s := by
  simp only [cglm, V3.vec, Fin.forall_fin_succ]
  simp
  grind
theorem C52_vec3_eqv_real (a b : V3 ℝ) : glm_vec3_eqv a b = true ↔ a = b := by
  simp [cglm, V3.ext_iff, and_assoc]
/-- eq_all compares with the first component, within the tolerance -/
theorem C52_vec3_eq_all (v : V3 ℝ) : glm_vec3_eq_all v = true ↔ ∀ i, |v.vec i - v.vec 0| ≤ 1 / 10 ^ 5 := by
  unfold glm_vec3_eq_all
  rw [C52_vec3_eq_eps]; simp only [C47_eq]; rfl
/-- the largest and the smallest component -/
theorem C52_vec3_max (v : V3 ℝ) : (∀ i, v.vec i ≤ glm_vec3_max v) ∧ ∃ i, glm_vec3_max v = v.vec i := by
  rw [vec3_max_eq]
  constructor
  · intro i; fin_cases i <;> simp [V3.vec]
  · rcases max_choice (max v.x v.y) v.z with h | h <;> rcases max_choice v.x v.y with h2 | h2 <;> rw [h] <;> first | exact ⟨2, rfl⟩ | exact ⟨0, h2⟩ | exact ⟨1, h2⟩
theorem C52_vec3_min (v : V3 ℝ) : (∀ i, glm_vec3_min v ≤ v.vec i) ∧ ∃ i, glm_vec3_min v = v.vec i := by
  rw [vec3_min_eq]
  constructor
  · intro i; fin_cases i <;> simp [V3.vec]
  · rcases min_choice (min v.x v.y) v.z with h | h <;> rcases min_choice v.x v.y with h2 | h2 <;> rw [h] <;> first | exact ⟨2, rfl⟩ | exact ⟨0, h2⟩ | exact ⟨1, h2⟩
/-- fract is the fractional part, except that values above 1 - 2⁻²⁴ are rounded down to it -/
theorem C52_vec3_fract_real (v : V3 ℝ) (i : Fin 3) : (glm_vec3_fract v).vec i = min (Int.fract (v.vec i)) (1 - 1 / 2 ^ 24) ∧
    0 ≤ (glm_vec3_fract v).vec i ∧ (glm_vec3_fract v).vec i < 1 := by
  have e : (glm_vec3_fract v).vec i = min (Int.fract (v.vec i)) (1 - 1 / 2 ^ 24) := by
    rw [C52_vec3_fract]; simp only [cglm]; rw [Int.self_sub_floor]; norm_num
  refine ⟨e, ?_, ?_⟩
  · rw [e]; exact le_min (Int.fract_nonneg _) (by norm_num)
  · rw [e]; exact lt_of_le_of_lt (min_le_right _ _) (by norm_num)

theorem C52_vec4_eq (v : V4 ℝ) (s : ℝ) : glm_vec4_eq v s = true ↔ ∀ i, v.vec i = s := by
  simp only [cglm, V4.vec, Fin.forall_fin_succ]
  simp
  grind
theorem C52_vec4_eqv_real (a b : V4 ℝ) : glm_vec4_eqv a b = true ↔ a = b := by
  simp [cglm, V4.ext_iff, and_assoc]
/-- eq_all compares with the first component, within the tolerance -/
theorem C52_vec4_eq_all (v : V4 ℝ) : glm_vec4_eq_all v = true ↔ ∀ i, |v.vec i - v.vec 0| ≤ 1 / 10 ^ 5 := by
  unfold glm_vec4_eq_all
  rw [C52_vec4_eq_eps]; simp only [C47_eq]; rfl
/-- the largest and the smallest component -/
theorem C52_vec4_max (v : V4 ℝ) : (∀ i, v.vec i ≤ glm_vec4_max v) ∧ ∃ i, glm_vec4_max v = v.vec i := by
  rw [vec4_max_eq]
  constructor
  · intro i; fin_cases i <;> simp [V4.vec]
  · rcases max_choice (max (max v.x v.y) v.z) v.w with h | h <;> rcases max_choice (max v.x v.y) v.z with h1 | h1 <;> rcases max_choice v.x v.y with h2 | h2 <;> rw [h] <;> first | exact ⟨3, rfl⟩ | exact ⟨2, h1⟩ | exact ⟨0, h1.trans h2⟩ | exact ⟨1, h1.trans h2⟩
theorem C52_vec4_min (v : V4 ℝ) : (∀ i, glm_vec4_min v ≤ v.vec i) ∧ ∃ i, glm_vec4_min v = v.vec i := by
  rw [vec4_min_eq]
  constructor
  · intro i; fin_cases i <;> simp [V4.vec]
  · rcases min_choice (min (min v.x v.y) v.z) v.w with h | h <;> rcases min_choice (min v.x v.y) v.z with h1 | h1 <;> rcases min_choice v.x v.y with h2 | h2 <;> rw [h] <;> first | exact ⟨3, rfl⟩ | exact ⟨2, h1⟩ | exact ⟨0, h1.trans h2⟩ | exact ⟨1, h1.trans h2⟩
/-- fract is the fractional part, except that values above 1 - 2⁻²⁴ are rounded down to it -/
theorem C52_vec4_fract_real (v : V4 ℝ) (i : Fin 4) : (glm_vec4_fract v).vec i = min (Int.fract (v.vec i)) (1 - 1 / 2 ^ 24) ∧
    0 ≤ (glm_vec4_fract v).vec i ∧ (glm_vec4_fract v).vec i < 1 := by
  have e : (glm_vec4_fract v).vec i = min (Int.fract (v.vec i)) (1 - 1 / 2 ^ 24) := by
    rw [C52_vec4_fract]; simp only [cglm]; rw [Int.self_sub_floor]; norm_num
  refine ⟨e, ?_, ?_⟩
  · rw [e]; exact le_min (Int.fract_nonneg _) (by norm_num)
  · rw [e]; exact lt_of_le_of_lt (min_le_right _ _) (by norm_num)

/-- eq_all is not exact equality of the components -/
theorem C52_eq_all_refuted : glm_vec3_eq_all (⟨0, 1 / 10 ^ 6, 0⟩ : V3 ℝ) = true ∧ ¬ ∀ i j, (⟨0, 1 / 10 ^ 6, 0⟩ : V3 ℝ).vec i = (⟨0, 1 / 10 ^ 6, 0⟩ : V3 ℝ).vec j := by
  constructor
  · rw [C52_vec3_eq_all]; intro i; fin_cases i <;> simp [V3.vec]; norm_num
  · intro h; have := h 0 1; simp [V3.vec] at this; norm_num at this
/-- the complex operations are those of ℂ -/
theorem C52_complex_mul (a b : V2 ℝ) : (⟨(glm_vec2_complex_mul a b).x, (glm_vec2_complex_mul a b).y⟩ : ℂ) = ⟨a.x, a.y⟩ * ⟨b.x, b.y⟩ := by
  apply Complex.ext <;> simp [cglm]
theorem C52_complex_div (a b : V2 ℝ) (h : b ≠ ⟨0, 0⟩) :
    (⟨(glm_vec2_complex_div a b).x, (glm_vec2_complex_div a b).y⟩ : ℂ) * ⟨b.x, b.y⟩ = ⟨a.x, a.y⟩ := by
  have hb : b.x * b.x + b.y * b.y ≠ 0 := fun e => h (V2.dot_self_eq_zero.mp e)
  have hb' : 1 / (b.x * b.x + b.y * b.y) * (b.x * b.x + b.y * b.y) = 1 := one_div_mul_cancel hb
  apply Complex.ext <;> simp only [cglm, Complex.mul_re, Complex.mul_im] <;> generalize 1 / (b.x * b.x + b.y * b.y) = q at *
  · linear_combination a.x * hb'
  · linear_combination a.y * hb'
example : (⟨1, 2⟩ : V2 ℝ) ≠ ⟨0, 0⟩ := by simp
theorem C52_complex_conjugate (a : V2 ℝ) : (⟨(glm_vec2_complex_conjugate a).x, (glm_vec2_complex_conjugate a).y⟩ : ℂ) = star (⟨a.x, a.y⟩ : ℂ) := by
  apply Complex.ext <;> simp [cglm]

end Cglm
