import Verif.DefdTac
import Mathlib.Tactic.Linarith

/-!
# Undefined operations propagate

Lemmas and a tactic for the converse direction: a function whose precondition fails gives an undefined result.
-/

namespace Cglm
namespace Dfd
variable {o : Orc}

theorem undef_neg : (-undef : Dfd o) = undef := rfl
theorem bad_div (a b : ℝ) (h : b = 0) : (ret a / ret b : Dfd o) = undef := lift2_undef (by simpa using h)
theorem bad_fmodf (a b : ℝ) (h : b = 0) : (fmodf (ret a) (ret b) : Dfd o) = undef :=
  lift2_undef (p := fun _ y => y ≠ 0) (by simpa using h)
theorem bad_sqrtf (a : ℝ) (h : a < 0) : (sqrtf (ret a) : Dfd o) = undef := lift1_undef (by simpa using h)
theorem bad_tanf (a : ℝ) (h : cosf a = 0) : (tanf (ret a) : Dfd o) = undef :=
  lift1_undef (p := fun x => Real.cos x ≠ 0) (not_not.2 h)
theorem bad_atan2f (a b : ℝ) (h : a = 0 ∧ b = 0) : (atan2f (ret a) (ret b) : Dfd o) = undef :=
  lift2_undef (p := fun y x => ¬ (y = 0 ∧ x = 0)) (by simpa using h)
theorem undef_acosf : (acosf undef : Dfd o) = undef := rfl
theorem undef_atanf : (atanf undef : Dfd o) = undef := rfl
theorem undef_fmodf (a : Dfd o) : (fmodf undef a : Dfd o) = undef := by cases a <;> rfl
theorem undef_eq_ret (x : ℝ) : ((undef : Dfd o) = ret x) = False := eq_false (ret_ne_undef x).symm
theorem flt_undef (a : Dfd o) : flt a (undef : Dfd o) = o a none := by cases a <;> rfl
theorem undef_flt (a : ℝ) : flt (undef : Dfd o) (ret a) = o none (some a) := rfl
theorem fle_undef (a : Dfd o) : fle a (undef : Dfd o) = o a none := by cases a <;> rfl
theorem undef_fle (a : ℝ) : fle (undef : Dfd o) (ret a) = o none (some a) := rfl

theorem bad_div_tanf (x a : ℝ) (h : sinf a = 0) : (ret x / ret (tanf a) : Dfd o) = undef := by
  apply bad_div
  show Real.tan a = 0
  rw [Real.tan_eq_sin_div_cos, show Real.sin a = 0 from h, zero_div]
theorem vec2_scale_undef (v : V2 (Dfd o)) : glm_vec2_scale v undef = ⟨undef, undef⟩ := by
  simp only [glm_vec2_scale, mul_undef]
theorem vec3_scale_undef (v : V3 (Dfd o)) : glm_vec3_scale v undef = ⟨undef, undef, undef⟩ := by
  simp only [glm_vec3_scale, mul_undef]
theorem vec4_scale_undef (v : V4 (Dfd o)) : glm_vec4_scale v undef = ⟨undef, undef, undef, undef⟩ := by
  simp only [glm_vec4_scale, mul_undef]
theorem vec4_scale_undef' (a : Dfd o) : glm_vec4_scale ⟨undef, undef, undef, undef⟩ a = ⟨undef, undef, undef, undef⟩ := by
  simp only [glm_vec4_scale, undef_mul]
theorem vec4_adds_undef (a : Dfd o) : glm_vec4_adds ⟨undef, undef, undef, undef⟩ a = ⟨undef, undef, undef, undef⟩ := by
  simp only [glm_vec4_adds, undef_add]
theorem vec4_negate_undef : glm_vec4_negate (⟨undef, undef, undef, undef⟩ : V4 (Dfd o)) = ⟨undef, undef, undef, undef⟩ := by
  simp only [glm_vec4_negate, glm_vec4_negate_to, undef_neg]
theorem vec3_undef : glm_vec3 (⟨undef, undef, undef, undef⟩ : V4 (Dfd o)) = ⟨undef, undef, undef⟩ := by
  simp only [glm_vec3]

theorem mulv_undef_x (m : M4 (Dfd o)) (b c d : Dfd o) :
    glm_mat4_mulv m ⟨undef, b, c, d⟩ = ⟨undef, undef, undef, undef⟩ := by
  simp only [glm_mat4_mulv, glm_vec4_copy, mul_undef, undef_add]
theorem mulv_undef_y (m : M4 (Dfd o)) (a c d : Dfd o) :
    glm_mat4_mulv m ⟨a, undef, c, d⟩ = ⟨undef, undef, undef, undef⟩ := by
  simp only [glm_mat4_mulv, glm_vec4_copy, mul_undef, undef_add, add_undef]
theorem mulv_undef (v : V4 (Dfd o)) :
    glm_mat4_mulv ⟨⟨undef, undef, undef, undef⟩, ⟨undef, undef, undef, undef⟩, ⟨undef, undef, undef, undef⟩,
      ⟨undef, undef, undef, undef⟩⟩ v = ⟨undef, undef, undef, undef⟩ := by
  simp only [glm_mat4_mulv, glm_vec4_copy, undef_mul, undef_add]
theorem smooth_undef : glm_smooth (undef : Dfd o) = undef := by simp only [glm_smooth, undef_mul]
/-- with this oracle `glm_clamp_zo` lets an undefined value through -/
theorem clamp_zo_undef : glm_clamp_zo (undef : Dfd (fun _ _ => true)) = undef := by
  simp only [glm_clamp_zo, glm_clamp, glm_min, glm_max, dfd, flt_undef, undef_flt, if_true]
theorem V6.mk_eq (a b c d e f : Dfd o) (r : V6 ℝ) : (⟨a, b, c, d, e, f⟩ : V6 (Dfd o)) = V6.map ret r ↔
    a = ret r.e0 ∧ b = ret r.e1 ∧ c = ret r.e2 ∧ d = ret r.e3 ∧ e = ret r.e4 ∧ f = ret r.e5 := by
  simp only [V6.map, V6.mk.injEq]
theorem M8x4.mk_eq (a b c d e f g h : V4 (Dfd o)) (r : M8x4 ℝ) :
    (⟨a, b, c, d, e, f, g, h⟩ : M8x4 (Dfd o)) = M8x4.map ret r ↔
    a = r.c0.map ret ∧ b = r.c1.map ret ∧ c = r.c2.map ret ∧ d = r.c3.map ret ∧ e = r.c4.map ret ∧ f = r.c5.map ret ∧
      g = r.c6.map ret ∧ h = r.c7.map ret := by
  simp only [M8x4.map, M8x4.mk.injEq]

end Dfd
open Dfd

/-- side conditions of the `bad_` lemmas -/
macro "bad_side" : tactic =>
  `(tactic| first
    | assumption
    | dfd_side
    | (apply mul_eq_zero_of_left; assumption)
    | (apply mul_eq_zero_of_right; assumption)
    | (rw [mat2_inv_eq]; assumption)
    | (rw [mat3_inv_eq]; assumption)
    | (rw [mat4_inv_eq]; assumption)
    | linarith
    | (simp only [lit_real]; push_cast; linarith)
    | fail "side condition")

/-- Push undefined values outwards at a hypothesis; the list names the functions to unfold. -/
macro "dfd_prop " hr:ident " [" fs:Lean.Parser.Tactic.simpLemma,* "]" : tactic =>
  `(tactic|
     simp (disch := bad_side) only [$fs,*, dfd, V2.ext_iff, V3.ext_iff, V4.ext_iff, M2.ext_iff,
       M3.ext_iff, M4.ext_iff, Prod.mk.injEq, undef_neg, bad_div, bad_fmodf, bad_sqrtf,
       bad_tanf, bad_div_tanf, bad_atan2f, undef_acosf, undef_atanf, undef_fmodf, undef_eq_ret, flt_undef, undef_flt, fle_undef,
       undef_fle, undef_div, div_undef, undef_mul, mul_undef, undef_add, add_undef, undef_sub, sub_undef,
       vec2_scale_undef, vec3_scale_undef, vec4_scale_undef, vec4_scale_undef', vec4_adds_undef, vec4_negate_undef,
       vec3_undef, mulv_undef_x, mulv_undef_y, mulv_undef, smooth_undef, clamp_zo_undef, V6.mk_eq, M8x4.mk_eq, false_and, and_false, and_self, Bool.false_eq_true, if_true, if_false] at $hr:ident)

/-- Derive a precondition from a defined result `hr` of a function; the list names the functions to unfold. -/
macro "dfd_bad " hr:ident " [" fs:Lean.Parser.Tactic.simpLemma,* "]" : tactic =>
  `(tactic|
    (by_contra hn
     try simp only [ne_eq, not_not, not_le, not_lt] at hn
     dfd_prop $hr [$fs,*]
     try split_ifs at $hr:ident
     all_goals dfd_prop $hr [$fs,*]))

end Cglm
