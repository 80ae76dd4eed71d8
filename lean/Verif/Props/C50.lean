import Verif.Props.C49
import Verif.Props.C20
import Verif.Props.C25

/-! # C50: rotating vectors -/

namespace Cglm

/-! ## axis and angle -/

theorem C50_rotate (v axis : V3 ℝ) (θ : ℝ) (h : FLT_EPSILON ≤ axis.len) : glm_vec3_rotate v θ axis = rodrigues θ axis.unit v := by
  have hk : glm_vec3_normalize_to axis = axis.unit := normalize_to_eq axis h
  unfold glm_vec3_rotate
  rw [hk]
  generalize axis.unit = u
  ext <;> simp only [cglm, rodrigues, V3.add, V3.smul, V3.cross, V3.dot] <;> ring
example : FLT_EPSILON ≤ (⟨0, 3, 4⟩ : V3 ℝ).len := by
  rw [show (⟨0, 3, 4⟩ : V3 ℝ).len = 5 by unfold V3.len V3.dot; rw [show (5 : ℝ) = √(5 ^ 2) by rw [Real.sqrt_sq]; norm_num]; congr 1; norm_num]
  norm_num [FLT_EPSILON]
/-- a too short axis does not give a rotation: the vector is scaled by the cosine -/
theorem C50_rotate_short (v axis : V3 ℝ) (θ : ℝ) (h : axis.len < FLT_EPSILON) : glm_vec3_rotate v θ axis = v.smul (Real.cos θ) := by
  have hk : glm_vec3_normalize_to axis = ⟨0, 0, 0⟩ := normalize_to_small axis h
  unfold glm_vec3_rotate
  rw [hk]
  ext <;> simp only [cglm, V3.smul] <;> ring
/-- same as the matrix and the quaternion of this axis and angle -/
theorem C50_rotate_mat4 (v axis : V3 ℝ) (θ : ℝ) (h : FLT_EPSILON ≤ axis.len) :
    glm_vec3_rotate v θ axis = glm_mat4_mulv3 (glm_rotate_make θ axis) v 0 := by
  rw [C50_rotate v axis θ h, ← C20_apply, C20_rotate_make θ axis h]
  generalize rotMat θ axis.unit = r
  ext <;> simp [cglm, M3.toM4] <;> ring
theorem C50_rotate_mat3 (v axis : V3 ℝ) (θ : ℝ) (h : FLT_EPSILON ≤ axis.len) :
    glm_vec3_rotate v θ axis = glm_mat3_mulv (glm_quat_mat3 (glm_quatv θ axis)) v := by
  rw [C50_rotate v axis θ h, ← C20_apply, C12_rotation θ axis h]
theorem C50_rotate_quat (v axis : V3 ℝ) (θ : ℝ) (h : FLT_EPSILON ≤ axis.len) :
    glm_vec3_rotate v θ axis = glm_quat_rotatev (glm_quatv θ axis) v := by
  rw [C50_rotate_mat3 v axis θ h, C09_rotatev_mat3 _ (C12_unit θ axis h)]
/-- lengths and dot products are preserved -/
theorem C50_rotate_dot (v w axis : V3 ℝ) (θ : ℝ) (h : FLT_EPSILON ≤ axis.len) :
    (glm_vec3_rotate v θ axis).dot (glm_vec3_rotate w θ axis) = v.dot w := by
  have hu := axis.unit_dot h
  rw [C50_rotate v axis θ h, C50_rotate w axis θ h]
  have hr : (rotMat θ axis.unit).IsRotation := by rw [← C12_rotation θ axis h]; exact C09_rotation _ (C12_unit θ axis h)
  rw [← C20_apply, ← C20_apply]
  obtain ⟨⟨a, b, c, d, e, f⟩, -⟩ := (M3.isRotation_iff _).mp hr
  generalize rotMat θ axis.unit = r at *
  simp only [cglm, V3.dot] at *
  linear_combination v.x * w.x * a + v.y * w.y * b + v.z * w.z * c + (v.x * w.y + v.y * w.x) * d + (v.x * w.z + v.z * w.x) * e + (v.y * w.z + v.z * w.y) * f
theorem C50_rotate_len (v axis : V3 ℝ) (θ : ℝ) (h : FLT_EPSILON ≤ axis.len) : (glm_vec3_rotate v θ axis).len = v.len := by
  unfold V3.len; rw [C50_rotate_dot v v axis θ h]
/-- rotating twice about the same axis adds the angles; zero angle does nothing; the axis is fixed -/
theorem C50_rotate_add (v axis : V3 ℝ) (a b : ℝ) (h : FLT_EPSILON ≤ axis.len) :
    glm_vec3_rotate (glm_vec3_rotate v a axis) b axis = glm_vec3_rotate v (a + b) axis := by
  have hu := axis.unit_dot h
  rw [C50_rotate _ axis b h, C50_rotate v axis a h, C50_rotate v axis (a + b) h]
  generalize axis.unit = u at *
  simp only [rodrigues, Real.cos_add, Real.sin_add]
  have h1 := Real.sin_sq_add_cos_sq a; have h2 := Real.sin_sq_add_cos_sq b
  generalize Real.cos a = ca at *; generalize Real.sin a = sa at *; generalize Real.cos b = cb at *; generalize Real.sin b = sb at *
  simp only [V3.dot] at hu
  ext <;> simp only [V3.add, V3.smul, V3.cross, V3.dot]
  · linear_combination (u.x * (u.x * v.x + u.y * v.y + u.z * v.z) * (1 - ca) * (1 - cb) - sa * sb * v.x) * hu
  · linear_combination (u.y * (u.x * v.x + u.y * v.y + u.z * v.z) * (1 - ca) * (1 - cb) - sa * sb * v.y) * hu
  · linear_combination (u.z * (u.x * v.x + u.y * v.y + u.z * v.z) * (1 - ca) * (1 - cb) - sa * sb * v.z) * hu
theorem C50_rotate_zero (v axis : V3 ℝ) (h : FLT_EPSILON ≤ axis.len) : glm_vec3_rotate v 0 axis = v := by
  rw [C50_rotate v axis 0 h]; ext <;> simp [rodrigues, V3.add, V3.smul]

/-! ## by a matrix: its columns are normalized first -/

/-- the matrix with the columns scaled to length 1 -/
noncomputable def M3.normCols (m : M3 ℝ) : M3 ℝ := ⟨m.c0.unit, m.c1.unit, m.c2.unit⟩

theorem vec4_norm_hom (v : V3 ℝ) : (v.hom 0).len = v.len := by simp [V4.len, V3.len, V4.dot, V3.dot, V3.hom]
theorem vec4_normalize_to_hom (v : V3 ℝ) (h : FLT_EPSILON ≤ v.len) : glm_vec4_normalize_to (v.hom 0) = v.unit.hom 0 := by
  unfold glm_vec4_normalize_to
  simp only [glm_vec4_norm_eq, vec4_norm_hom, flt_real, lit_scientific, eps_lit, decide_eq_true_eq, not_lt.mpr h, if_false]
  ext <;> simp [glm_vec4_scale, lit_one, V3.unit, V3.smul, V3.hom, mul_comm]

theorem C50_rotate_m3 (m : M3 ℝ) (v : V3 ℝ) (h0 : FLT_EPSILON ≤ m.c0.len) (h1 : FLT_EPSILON ≤ m.c1.len) (h2 : FLT_EPSILON ≤ m.c2.len) :
    glm_vec3_rotate_m3 m v = glm_mat3_mulv m.normCols v := by
  have e : ∀ c : V3 ℝ, glm_vec4 c (lit 0) = c.hom 0 := fun c => by simp [cglm, V3.hom]
  unfold glm_vec3_rotate_m3 glm_vec4_normalize
  simp only [e, vec4_normalize_to_hom _ h0, vec4_normalize_to_hom _ h1, vec4_normalize_to_hom _ h2]
  unfold M3.normCols
  generalize m.c0.unit = a; generalize m.c1.unit = b; generalize m.c2.unit = c
  ext <;> simp only [cglm, V3.hom] <;> ring
/-- for the 4x4 version the matrix must be affine, else the fourth row enters the lengths -/
theorem C50_rotate_m4 (m : M4 ℝ) (v : V3 ℝ) (hm : m.Affine) (h0 : FLT_EPSILON ≤ m.block.c0.len) (h1 : FLT_EPSILON ≤ m.block.c1.len)
    (h2 : FLT_EPSILON ≤ m.block.c2.len) : glm_vec3_rotate_m4 m v = glm_mat3_mulv m.block.normCols v := by
  obtain ⟨w0, w1, w2, -⟩ := hm
  have e0 : m.c0 = m.block.c0.hom 0 := by ext <;> simp [M4.block, V3.hom, w0]
  have e1 : m.c1 = m.block.c1.hom 0 := by ext <;> simp [M4.block, V3.hom, w1]
  have e2 : m.c2 = m.block.c2.hom 0 := by ext <;> simp [M4.block, V3.hom, w2]
  unfold glm_vec3_rotate_m4
  rw [e0, e1, e2]
  simp only [vec4_normalize_to_hom _ h0, vec4_normalize_to_hom _ h1, vec4_normalize_to_hom _ h2]
  unfold M3.normCols
  generalize m.block.c0.unit = a; generalize m.block.c1.unit = b; generalize m.block.c2.unit = c
  ext <;> simp only [cglm, V3.hom] <;> ring
/-- so the scale of a rotation matrix does not matter, and for a rotation it is the matrix product -/
theorem unit_smul (u : V3 ℝ) (s : ℝ) (hu : u.len = 1) (hs : 0 < s) : (u.smul s).unit = u := by
  unfold V3.unit; rw [V3.len_smul, hu, abs_of_pos hs, mul_one]
  ext <;> simp only [V3.smul] <;> field_simp
theorem C50_rotate_m3_scaled (r : M3 ℝ) (s v : V3 ℝ) (hr : r.IsRotation) (hx : FLT_EPSILON ≤ s.x) (hy : FLT_EPSILON ≤ s.y) (hz : FLT_EPSILON ≤ s.z) :
    glm_vec3_rotate_m3 ⟨r.c0.smul s.x, r.c1.smul s.y, r.c2.smul s.z⟩ v = glm_mat3_mulv r v := by
  obtain ⟨⟨a, b, c, -, -, -⟩, -⟩ := (M3.isRotation_iff r).mp hr
  have l0 := V3.len_eq_one.mpr a; have l1 := V3.len_eq_one.mpr b; have l2 := V3.len_eq_one.mpr c
  have px := lt_of_lt_of_le FLT_EPSILON_pos hx
  have py := lt_of_lt_of_le FLT_EPSILON_pos hy
  have pz := lt_of_lt_of_le FLT_EPSILON_pos hz
  rw [C50_rotate_m3]
  · unfold M3.normCols; simp only [unit_smul _ _ l0 px, unit_smul _ _ l1 py, unit_smul _ _ l2 pz]
  · simp only [V3.len_smul, l0, abs_of_pos px, mul_one]; exact hx
  · simp only [V3.len_smul, l1, abs_of_pos py, mul_one]; exact hy
  · simp only [V3.len_smul, l2, abs_of_pos pz, mul_one]; exact hz
/-- length preserved for every rotation with positive scale -/
theorem C50_rotate_m3_len (r : M3 ℝ) (s v : V3 ℝ) (hr : r.IsRotation) (hx : FLT_EPSILON ≤ s.x) (hy : FLT_EPSILON ≤ s.y) (hz : FLT_EPSILON ≤ s.z) :
    (glm_vec3_rotate_m3 ⟨r.c0.smul s.x, r.c1.smul s.y, r.c2.smul s.z⟩ v).len = v.len := by
  rw [C50_rotate_m3_scaled r s v hr hx hy hz]
  obtain ⟨⟨a, b, c, d, e, f⟩, -⟩ := (M3.isRotation_iff r).mp hr
  unfold V3.len; congr 1
  simp only [cglm, V3.dot] at *
  linear_combination v.x * v.x * a + v.y * v.y * b + v.z * v.z * c + 2 * v.x * v.y * d + 2 * v.x * v.z * e + 2 * v.y * v.z * f
example : (M3.mk ⟨0, 1, 0⟩ ⟨-1, 0, 0⟩ ⟨0, 0, 1⟩ : M3 ℝ).IsRotation := by
  rw [M3.isRotation_iff]; norm_num [V3.dot, V3.cross]

/-! ## in the plane -/

theorem C50_rotate2 (v : V2 ℝ) (θ : ℝ) : glm_vec2_rotate v θ = ⟨Real.cos θ * v.x - Real.sin θ * v.y, Real.sin θ * v.x + Real.cos θ * v.y⟩ := by
  simp only [cglm]
/-- as complex numbers: multiplication by exp(iθ) -/
theorem C50_rotate2_complex (v : V2 ℝ) (θ : ℝ) :
    (⟨(glm_vec2_rotate v θ).x, (glm_vec2_rotate v θ).y⟩ : ℂ) = Complex.exp (θ * Complex.I) * ⟨v.x, v.y⟩ := by
  rw [C50_rotate2, Complex.exp_mul_I]
  apply Complex.ext <;> simp [Complex.cos_ofReal_re, Complex.sin_ofReal_re] <;> ring
theorem C50_rotate2_len (v : V2 ℝ) (θ : ℝ) : (glm_vec2_rotate v θ).len = v.len := by
  rw [C50_rotate2]; unfold V2.len; congr 1
  simp only [V2.dot]; linear_combination (v.x ^ 2 + v.y ^ 2) * Real.sin_sq_add_cos_sq θ
theorem C50_rotate2_add (v : V2 ℝ) (a b : ℝ) : glm_vec2_rotate (glm_vec2_rotate v a) b = glm_vec2_rotate v (a + b) := by
  simp only [C50_rotate2, Real.cos_add, Real.sin_add]; ext <;> simp only [] <;> ring
theorem C50_rotate2_mat3 (v : V2 ℝ) (θ : ℝ) : (glm_vec2_rotate v θ).hom 0 = glm_mat3_mulv (glm_rotate2d_make θ) (v.hom 0) := by
  ext <;> simp [cglm, V2.hom, sub_eq_add_neg]

end Cglm
