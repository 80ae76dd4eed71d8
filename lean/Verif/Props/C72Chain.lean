import Verif.Props.C72Iff
import Verif.Props.C72IffPersp
import Verif.Props.C72IffOrtho
import Mathlib.Tactic.FieldSimp

/-!
# C72: preconditions met, and not met, by results of the library

The decomposition functions are defined on every matrix a frustum constructor makes from a non-degenerate frustum — except
`glm_persp_decomp_x_lh_zo` and `glm_persp_decomp_y_lh_zo`, which divide by the bottom right entry, zero in every
perspective matrix.
-/

namespace Cglm
open Dfd

/-- A frustum with distinct sides, distinct non-zero clip distances. -/
structure FrustumOk (l r b t n f : ℝ) : Prop where
  lr : l ≠ r
  bt : b ≠ t
  nf : n ≠ f
  n0 : n ≠ 0
  f0 : f ≠ 0

example : FrustumOk (-1) 1 (-2) 2 0.1 100 := by constructor <;> norm_num

section
variable {l r b t n f : ℝ}

private theorem subs (h : FrustumOk l r b t n f) : r - l ≠ 0 ∧ t - b ≠ 0 ∧ f - n ≠ 0 :=
  ⟨sub_ne_zero.2 h.lr.symm, sub_ne_zero.2 h.bt.symm, sub_ne_zero.2 h.nf.symm⟩

theorem C72_decomp_frustum_rh_no (h : FrustumOk l r b t n f) (o : Orc) :
    (glm_persp_decomp_rh_no ((glm_frustum_rh_no l r b t n f).map ret) : Dfd o × Dfd o × Dfd o × Dfd o × Dfd o × Dfd o) =
      let d := glm_persp_decomp_rh_no (glm_frustum_rh_no l r b t n f)
      (ret d.1, ret d.2.1, ret d.2.2.1, ret d.2.2.2.1, ret d.2.2.2.2.1, ret d.2.2.2.2.2) := by
  obtain ⟨h1, h2, h3⟩ := subs h
  have h4 := h.n0
  have h5 := h.f0
  apply C72_persp_decomp_rh_no <;> simp only [cglm]
  · intro e; field_simp at e; apply h5; linarith
  · intro e; field_simp at e; apply h4; linarith
  · exact mul_ne_zero (mul_ne_zero two_ne_zero h4) (div_ne_zero one_ne_zero h1)
  · exact mul_ne_zero (mul_ne_zero two_ne_zero h4) (div_ne_zero one_ne_zero h2)

theorem C72_decomp_frustum_lh_no (h : FrustumOk l r b t n f) (o : Orc) :
    (glm_persp_decomp_lh_no ((glm_frustum_lh_no l r b t n f).map ret) : Dfd o × Dfd o × Dfd o × Dfd o × Dfd o × Dfd o) =
      let d := glm_persp_decomp_lh_no (glm_frustum_lh_no l r b t n f)
      (ret d.1, ret d.2.1, ret d.2.2.1, ret d.2.2.2.1, ret d.2.2.2.2.1, ret d.2.2.2.2.2) := by
  obtain ⟨h1, h2, h3⟩ := subs h
  have h4 := h.n0
  have h5 := h.f0
  apply C72_persp_decomp_lh_no <;> simp only [cglm]
  · intro e; field_simp at e; apply h5; linarith
  · intro e; field_simp at e; apply h4; linarith
  · exact mul_ne_zero (mul_ne_zero two_ne_zero h4) (div_ne_zero one_ne_zero h1)
  · exact mul_ne_zero (mul_ne_zero two_ne_zero h4) (div_ne_zero one_ne_zero h2)

theorem C72_decomp_frustum_rh_zo (h : FrustumOk l r b t n f) (o : Orc) :
    (glm_persp_decomp_rh_zo ((glm_frustum_rh_zo l r b t n f).map ret) : Dfd o × Dfd o × Dfd o × Dfd o × Dfd o × Dfd o) =
      let d := glm_persp_decomp_rh_zo (glm_frustum_rh_zo l r b t n f)
      (ret d.1, ret d.2.1, ret d.2.2.1, ret d.2.2.2.1, ret d.2.2.2.2.1, ret d.2.2.2.2.2) := by
  obtain ⟨h1, h2, h3⟩ := subs h
  have h4 := h.n0
  have h5 := h.f0
  apply C72_persp_decomp_rh_zo <;> simp only [cglm]
  · exact mul_ne_zero h5 (div_ne_zero (neg_ne_zero.2 one_ne_zero) h3)
  · intro e; field_simp at e; apply h4; linarith
  · exact mul_ne_zero (mul_ne_zero two_ne_zero h4) (div_ne_zero one_ne_zero h1)
  · exact mul_ne_zero (mul_ne_zero two_ne_zero h4) (div_ne_zero one_ne_zero h2)

theorem C72_decomp_frustum_lh_zo (h : FrustumOk l r b t n f) (o : Orc) :
    (glm_persp_decomp_lh_zo ((glm_frustum_lh_zo l r b t n f).map ret) : Dfd o × Dfd o × Dfd o × Dfd o × Dfd o × Dfd o) =
      let d := glm_persp_decomp_lh_zo (glm_frustum_lh_zo l r b t n f)
      (ret d.1, ret d.2.1, ret d.2.2.1, ret d.2.2.2.1, ret d.2.2.2.2.1, ret d.2.2.2.2.2) := by
  obtain ⟨h1, h2, h3⟩ := subs h
  have h4 := h.n0
  have h5 := h.f0
  apply C72_persp_decomp_lh_zo <;> simp only [cglm]
  · exact mul_ne_zero (neg_ne_zero.2 h5) (div_ne_zero (neg_ne_zero.2 one_ne_zero) h3)
  · intro e; field_simp at e; apply h4; linarith
  · exact mul_ne_zero (mul_ne_zero two_ne_zero h4) (div_ne_zero one_ne_zero h1)
  · exact mul_ne_zero (mul_ne_zero two_ne_zero h4) (div_ne_zero one_ne_zero h2)

/-- `glm_persp_decomp_x_lh_zo` gives no defined result for any matrix `glm_frustum_lh_zo` makes. -/
theorem C72_decomp_x_lh_zo_undefined (l r b t n f : ℝ) :
    ¬ ∀ o : Orc, ∃ d : ℝ × ℝ,
      (glm_persp_decomp_x_lh_zo ((glm_frustum_lh_zo l r b t n f).map ret) : Dfd o × Dfd o) = (ret d.1, ret d.2) := by
  rw [C72_persp_decomp_x_lh_zo_iff]
  intro h
  exact h.1 (by simp only [cglm])

/-- `glm_persp_decomp_y_lh_zo` gives no defined result for any matrix `glm_frustum_lh_zo` makes. -/
theorem C72_decomp_y_lh_zo_undefined (l r b t n f : ℝ) :
    ¬ ∀ o : Orc, ∃ d : ℝ × ℝ,
      (glm_persp_decomp_y_lh_zo ((glm_frustum_lh_zo l r b t n f).map ret) : Dfd o × Dfd o) = (ret d.1, ret d.2) := by
  rw [C72_persp_decomp_y_lh_zo_iff]
  intro h
  exact h.1 (by simp only [cglm])

/-- The same for the matrices of `glm_perspective_lh_zo`. -/
theorem C72_decomp_x_perspective_lh_zo_undefined (fovy aspect n f : ℝ) :
    ¬ ∀ o : Orc, ∃ d : ℝ × ℝ,
      (glm_persp_decomp_x_lh_zo ((glm_perspective_lh_zo fovy aspect n f).map ret) : Dfd o × Dfd o) = (ret d.1, ret d.2) := by
  rw [C72_persp_decomp_x_lh_zo_iff]
  intro h
  exact h.1 (by simp only [cglm])
end

/-- `glm_ray_sphere` divides zero by zero when the ray starts at the centre of a sphere of radius zero. -/
theorem C72_ray_sphere_undefined (origin dir : V3 ℝ) (t1 t2 : ℝ) :
    ¬ ∀ o : Orc, ∃ d : Bool × ℝ × ℝ,
      (glm_ray_sphere (origin.map ret) (dir.map ret) ((⟨origin.x, origin.y, origin.z, 0⟩ : V4 ℝ).map ret) (ret t1) (ret t2) :
        Bool × Dfd o × Dfd o) = (d.1, ret d.2.1, ret d.2.2) := by
  rw [C72_ray_sphere_iff]
  intro h
  apply h
  constructor <;> simp [cglm]

/-- `glm_vec3_angle` with a zero vector has no defined result. -/
theorem C72_vec3_angle_undefined (b : V3 ℝ) :
    ¬ ∀ o : Orc, ∃ r : ℝ, (glm_vec3_angle ((⟨0, 0, 0⟩ : V3 ℝ).map ret) (b.map ret) : Dfd o) = ret r := by
  rw [C72_vec3_angle_iff]
  intro h
  exact h.1 (by simp [cglm])

/-- Decomposing a matrix with a zero column has no defined result. -/
theorem C72_decompose_undefined (m : M4 ℝ) (h : m.c0.x = 0 ∧ m.c0.y = 0 ∧ m.c0.z = 0) :
    ¬ ∀ o : Orc, ∃ r : V4 ℝ × M4 ℝ × V3 ℝ,
      (glm_decompose (m.map ret) : V4 (Dfd o) × M4 (Dfd o) × V3 (Dfd o)) = (r.1.map ret, r.2.1.map ret, r.2.2.map ret) := by
  rw [C72_decompose_iff]
  intro g
  exact g.1 (by simp [cglm, h.1, h.2.1, h.2.2])

/-! Concrete arguments meeting the hypotheses. -/

example : glm_mat4_det (⟨⟨2, 0, 0, 0⟩, ⟨1, 3, 0, 0⟩, ⟨0, 0, 1, 0⟩, ⟨5, 6, 7, 1⟩⟩ : M4 ℝ) ≠ 0 := by
  simp only [cglm]; norm_num
example : glm_mat3_det (⟨⟨2, 0, 0⟩, ⟨1, 3, 0⟩, ⟨0, 4, 1⟩⟩ : M3 ℝ) ≠ 0 := by simp only [cglm]; norm_num
example : glm_mat2_det (⟨⟨2, 1⟩, ⟨1, 3⟩⟩ : M2 ℝ) ≠ 0 := by simp only [cglm]; norm_num
example : glm_vec3_norm (⟨3, 4, 0⟩ : V3 ℝ) ≠ 0 := by
  simp only [cglm]
  exact (Real.sqrt_pos.2 (by norm_num)).ne'
example : glm_vec4_norm2 (⟨1, 2, 3, 4⟩ : V4 ℝ) ≠ 0 := by simp only [cglm]; norm_num
example : cosf (Real.pi / 2 * lit 0.5 : ℝ) ≠ 0 ∧ sinf (Real.pi / 2 * lit 0.5 : ℝ) ≠ 0 := by
  simp only [lit_real]
  have e : Real.pi / 2 * ((0.5 : ℚ) : ℝ) = Real.pi / 4 := by push_cast; ring
  rw [e]
  exact ⟨(Real.cos_pos_of_mem_Ioo ⟨by linarith [Real.pi_pos], by linarith [Real.pi_pos]⟩).ne',
    (Real.sin_pos_of_pos_of_lt_pi (by linarith [Real.pi_pos]) (by linarith [Real.pi_pos])).ne'⟩
example : (glm_mat4_mulv (glm_perspective_rh_no (Real.pi / 2) 1 1 3 : M4 ℝ) (glm_vec4 ⟨1, 2, -5⟩ (lit 1))).w ≠ 0 := by
  simp only [cglm]; norm_num
example : ¬ (glm_vec3_dot (⟨1, 0, 0⟩ : V3 ℝ) (glm_vec3_sub ⟨5, 0, 0⟩ ⟨0, 0, 0⟩) = 0 ∧
    (1 : ℝ) * 1 - glm_vec3_norm2 (glm_vec3_mulsubs ⟨1, 0, 0⟩ (glm_vec3_dot ⟨1, 0, 0⟩ (glm_vec3_sub ⟨5, 0, 0⟩ ⟨0, 0, 0⟩))
      (glm_vec3_sub ⟨5, 0, 0⟩ ⟨0, 0, 0⟩)) = 0) := by
  simp only [cglm]; norm_num

/-- `glm_vec4_scale_as` by an undefined length is defined exactly when the vector counts as zero -/
theorem vec4_scale_as_undef {o : Orc} (v : V4 ℝ) :
    (glm_vec4_scale_as (v.map ret) undef : V4 (Dfd o)) =
      if flt (glm_vec4_norm v) (lit 0.00000011920928955078125) then glm_vec4_zero.map ret
      else ⟨undef, undef, undef, undef⟩ := by
  simp only [glm_vec4_scale_as, dfd, undef_div, vec4_scale_undef]

/-- The exact precondition of `glm_frustum_corners_at`: the far distance is not zero, or every edge is shorter than
FLT_EPSILON, in which case the distances are not used. -/
theorem C72_frustum_corners_at_iff (corners : M8x4 ℝ) (splitDist farDist : ℝ) :
    (∀ o : Orc, ∃ r : M4 ℝ,
      (glm_frustum_corners_at (corners.map ret) (ret splitDist) (ret farDist) : M4 (Dfd o)) = r.map ret) ↔
      farDist ≠ 0 ∨
        (glm_vec4_norm (glm_vec4_sub corners.c4 corners.c0) < lit 0.00000011920928955078125 ∧
         glm_vec4_norm (glm_vec4_sub corners.c5 corners.c1) < lit 0.00000011920928955078125 ∧
         glm_vec4_norm (glm_vec4_sub corners.c6 corners.c2) < lit 0.00000011920928955078125 ∧
         glm_vec4_norm (glm_vec4_sub corners.c7 corners.c3) < lit 0.00000011920928955078125) := by
  by_cases hf : farDist = 0
  · have e (o : Orc) : (ret splitDist / ret farDist : Dfd o) = undef := bad_div _ _ hf
    simp only [hf, ne_eq, not_true_eq_false, false_or]
    rw [hf] at e
    have key (v w : V4 ℝ) {o : Orc} (r : V4 ℝ)
        (h : glm_vec4_add (w.map ret) (glm_vec4_scale_as (v.map ret) undef : V4 (Dfd o)) = r.map ret) :
        glm_vec4_norm v < lit 0.00000011920928955078125 := by
      rw [vec4_scale_as_undef] at h
      split_ifs at h with hc
      · exact of_decide_eq_true hc
      · simp only [glm_vec4_add, add_undef, V4.ext_iff, V4.map] at h
        exact absurd h.1.symm (ret_ne_undef _)
    constructor
    · intro h
      obtain ⟨r, hr⟩ := h (fun _ _ => false)
      simp only [glm_frustum_corners_at, dfd, e, mul_undef, M4.ext_iff] at hr
      exact ⟨key _ _ _ hr.1, key _ _ _ hr.2.1, key _ _ _ hr.2.2.1, key _ _ _ hr.2.2.2⟩
    · rintro ⟨h0, h1, h2, h3⟩ o
      have g (v : V4 ℝ) (h : glm_vec4_norm v < lit 0.00000011920928955078125) :
          (glm_vec4_scale_as (v.map ret) undef : V4 (Dfd o)) = glm_vec4_zero.map ret := by
        rw [vec4_scale_as_undef, if_pos]
        exact decide_eq_true h
      simp only [glm_frustum_corners_at, dfd, e, mul_undef, g _ h0, g _ h1, g _ h2, g _ h3]
      exact ⟨⟨_, _, _, _⟩, rfl⟩
  · exact ⟨fun _ => Or.inl hf, fun _ o => ⟨_, C72_frustum_corners_at corners splitDist farDist hf⟩⟩

end Cglm
