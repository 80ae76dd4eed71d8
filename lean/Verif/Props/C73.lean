import Verif.ViewVolume

/-! # C73: the view volume of a camera, by planes

`Inside m p` says that `p` is on the inner side of the six planes of `glm_frustum_planes m`.  `m` is a perspective matrix times a
view matrix that preserves distances, so `glm_mat4_mulv3 v p 1` are the view coordinates of the world point `p`.

The near plane is always extracted as `row 3 + row 2`, which is the plane z = -w.  With depth range [0,1] the near plane of the
camera is z = 0; the extracted plane then lies nearer to the eye, at the depth `f n / (2 f - n)`.
The far plane is dropped when its normal, before normalization, is shorter than `FLT_EPSILON`: `2 n / (f - n)` for the depth
range [-1,1] and `n / (f - n)` for [0,1]. -/

namespace Cglm
open View

private theorem near_len {n f : ℝ} (hn : 0 < n) (hf : n < f) : FLT_EPSILON ≤ 2 * f / (f - n) ∧ FLT_EPSILON ≤ (2 * f - n) / (f - n) := by
  have h : 0 < f - n := by linarith
  have e : FLT_EPSILON ≤ 1 := by norm_num [FLT_EPSILON]
  refine ⟨e.trans ?_, e.trans ?_⟩ <;> rw [le_div_iff₀ h] <;> linarith

/-! ## perspective, any isometric view matrix -/

/-- right-handed, depth [-1,1]: the exact answer of the six planes, for all near and far distances -/
theorem C73_exact_rh_no (fovy aspect n f : ℝ) (h0 : 0 < fovy) (h1 : fovy < Real.pi) (ha : 0 < aspect) (hn : 0 < n) (hf : n < f)
    (v : M4 ℝ) (hv : v.Isometry) (p q : V3 ℝ) (hq : q = glm_mat4_mulv3 v p 1) :
    Inside (glm_mat4_mul (glm_perspective_rh_no fovy aspect n f) v) p ↔
      n ≤ -q.z ∧ (FLT_EPSILON ≤ 2 * n / (f - n) → -q.z ≤ f) ∧ |q.x| ≤ aspect * Real.tan (fovy / 2) * -q.z ∧
        |q.y| ≤ Real.tan (fovy / 2) * -q.z := by
  have h : 0 < f - n := by linarith
  have ht := tan_half_pos h0 h1
  have e1 : |(-1 : ℝ) + -((f + n) / (f - n))| = 2 * f / (f - n) := by
    rw [show (-1 : ℝ) + -((f + n) / (f - n)) = -(2 * f / (f - n)) by field_simp; ring, abs_neg, abs_of_pos]
    exact div_pos (by linarith) h
  have e2 : |(-1 : ℝ) - -((f + n) / (f - n))| = 2 * n / (f - n) := by
    rw [show (-1 : ℝ) - -((f + n) / (f - n)) = 2 * n / (f - n) by field_simp; ring, abs_of_pos]
    exact div_pos (by linarith) h
  rw [rh_no, persp_inside _ _ _ _ (-1) (by norm_num) (by rw [e1]; exact (near_len hn hf).1) v hv p q hq, e2,
    show (-1 : ℝ) * q.z = -q.z by ring, show -((f + n) / (f - n)) * q.z = (f + n) / (f - n) * -q.z by ring,
    (depth_no hf hn _).1, (depth_no hf hn _).2, side_x ht ha, side_y ht]
  tauto
/-- left-handed, depth [-1,1] -/
theorem C73_exact_lh_no (fovy aspect n f : ℝ) (h0 : 0 < fovy) (h1 : fovy < Real.pi) (ha : 0 < aspect) (hn : 0 < n) (hf : n < f)
    (v : M4 ℝ) (hv : v.Isometry) (p q : V3 ℝ) (hq : q = glm_mat4_mulv3 v p 1) :
    Inside (glm_mat4_mul (glm_perspective_lh_no fovy aspect n f) v) p ↔
      n ≤ q.z ∧ (FLT_EPSILON ≤ 2 * n / (f - n) → q.z ≤ f) ∧ |q.x| ≤ aspect * Real.tan (fovy / 2) * q.z ∧
        |q.y| ≤ Real.tan (fovy / 2) * q.z := by
  have h : 0 < f - n := by linarith
  have ht := tan_half_pos h0 h1
  have e1 : |(1 : ℝ) + (f + n) / (f - n)| = 2 * f / (f - n) := by
    rw [show (1 : ℝ) + (f + n) / (f - n) = 2 * f / (f - n) by field_simp; ring, abs_of_pos]
    exact div_pos (by linarith) h
  have e2 : |(1 : ℝ) - (f + n) / (f - n)| = 2 * n / (f - n) := by
    rw [show (1 : ℝ) - (f + n) / (f - n) = -(2 * n / (f - n)) by field_simp; ring, abs_neg, abs_of_pos]
    exact div_pos (by linarith) h
  rw [lh_no, persp_inside _ _ _ _ 1 (by norm_num) (by rw [e1]; exact (near_len hn hf).1) v hv p q hq, e2,
    one_mul, (depth_no hf hn _).1, (depth_no hf hn _).2, side_x ht ha, side_y ht]
  tauto
/-- right-handed, depth [0,1]: the near plane is at `f n / (2 f - n)` -/
theorem C73_exact_rh_zo (fovy aspect n f : ℝ) (h0 : 0 < fovy) (h1 : fovy < Real.pi) (ha : 0 < aspect) (hn : 0 < n) (hf : n < f)
    (v : M4 ℝ) (hv : v.Isometry) (p q : V3 ℝ) (hq : q = glm_mat4_mulv3 v p 1) :
    Inside (glm_mat4_mul (glm_perspective_rh_zo fovy aspect n f) v) p ↔
      f * n / (2 * f - n) ≤ -q.z ∧ (FLT_EPSILON ≤ n / (f - n) → -q.z ≤ f) ∧ |q.x| ≤ aspect * Real.tan (fovy / 2) * -q.z ∧
        |q.y| ≤ Real.tan (fovy / 2) * -q.z := by
  have h : 0 < f - n := by linarith
  have ht := tan_half_pos h0 h1
  have e1 : |(-1 : ℝ) + -(f / (f - n))| = (2 * f - n) / (f - n) := by
    rw [show (-1 : ℝ) + -(f / (f - n)) = -((2 * f - n) / (f - n)) by field_simp; ring, abs_neg, abs_of_pos]
    exact div_pos (by linarith) h
  have e2 : |(-1 : ℝ) - -(f / (f - n))| = n / (f - n) := by
    rw [show (-1 : ℝ) - -(f / (f - n)) = n / (f - n) by field_simp; ring, abs_of_pos]
    exact div_pos (by linarith) h
  rw [rh_zo, persp_inside _ _ _ _ (-1) (by norm_num) (by rw [e1]; exact (near_len hn hf).2) v hv p q hq, e2,
    show (-1 : ℝ) * q.z = -q.z by ring, show -(f / (f - n)) * q.z = f / (f - n) * -q.z by ring,
    (depth_zo hf hn _).1, (depth_zo hf hn _).2, side_x ht ha, side_y ht]
  tauto
/-- left-handed, depth [0,1] -/
theorem C73_exact_lh_zo (fovy aspect n f : ℝ) (h0 : 0 < fovy) (h1 : fovy < Real.pi) (ha : 0 < aspect) (hn : 0 < n) (hf : n < f)
    (v : M4 ℝ) (hv : v.Isometry) (p q : V3 ℝ) (hq : q = glm_mat4_mulv3 v p 1) :
    Inside (glm_mat4_mul (glm_perspective_lh_zo fovy aspect n f) v) p ↔
      f * n / (2 * f - n) ≤ q.z ∧ (FLT_EPSILON ≤ n / (f - n) → q.z ≤ f) ∧ |q.x| ≤ aspect * Real.tan (fovy / 2) * q.z ∧
        |q.y| ≤ Real.tan (fovy / 2) * q.z := by
  have h : 0 < f - n := by linarith
  have ht := tan_half_pos h0 h1
  have e1 : |(1 : ℝ) + f / (f - n)| = (2 * f - n) / (f - n) := by
    rw [show (1 : ℝ) + f / (f - n) = (2 * f - n) / (f - n) by field_simp; ring, abs_of_pos]
    exact div_pos (by linarith) h
  have e2 : |(1 : ℝ) - f / (f - n)| = n / (f - n) := by
    rw [show (1 : ℝ) - f / (f - n) = -(n / (f - n)) by field_simp; ring, abs_neg, abs_of_pos]
    exact div_pos (by linarith) h
  rw [lh_zo, persp_inside _ _ _ _ 1 (by norm_num) (by rw [e1]; exact (near_len hn hf).2) v hv p q hq, e2,
    one_mul, (depth_zo hf hn _).1, (depth_zo hf hn _).2, side_x ht ha, side_y ht]
  tauto

/-! ## the camera of `glm_lookat`: viewing direction, side and up directions in world space -/

private theorem move_rh (eye center up : V3 ℝ) (h : ViewFrame (center.sub eye) up) (dir s u : V3 ℝ)
    (hd : dir = (center.sub eye).unit) (hs : s = (dir.cross up).unit) (hu : u = s.cross dir) (p : V3 ℝ) :
    glm_mat4_mulv3 (glm_lookat_rh eye center up) p 1 = ⟨s.dot (p.sub eye), u.dot (p.sub eye), -dir.dot (p.sub eye)⟩ := by
  rw [C26_lookat_rh_rows eye center up h dir s u hd hs hu]
  ext <;> simp [cglm, V3.dot, V3.sub] <;> ring
private theorem move_lh (eye center up : V3 ℝ) (h : ViewFrame (center.sub eye) up) (dir s u : V3 ℝ)
    (hd : dir = (center.sub eye).unit) (hs : s = (up.cross dir).unit) (hu : u = dir.cross s) (p : V3 ℝ) :
    glm_mat4_mulv3 (glm_lookat_lh eye center up) p 1 = ⟨s.dot (p.sub eye), u.dot (p.sub eye), dir.dot (p.sub eye)⟩ := by
  rw [C26_lookat_lh_rows eye center up h dir s u hd hs hu]
  ext <;> simp [cglm, V3.dot, V3.sub] <;> ring

/-- right-handed, depth [-1,1]: a world point passes all six planes iff it is in the view volume of the camera -/
theorem C73_camera_rh_no (fovy aspect n f : ℝ) (h0 : 0 < fovy) (h1 : fovy < Real.pi) (ha : 0 < aspect) (hn : 0 < n) (hf : n < f)
    (hfar : FLT_EPSILON ≤ 2 * n / (f - n)) (eye center up : V3 ℝ) (h : ViewFrame (center.sub eye) up) (dir s u : V3 ℝ)
    (hd : dir = (center.sub eye).unit) (hs : s = (dir.cross up).unit) (hu : u = s.cross dir) (p : V3 ℝ) :
    Inside (glm_mat4_mul (glm_perspective_rh_no fovy aspect n f) (glm_lookat_rh eye center up)) p ↔
      InView (Real.tan (fovy / 2)) aspect n f (s.dot (p.sub eye)) (u.dot (p.sub eye)) (dir.dot (p.sub eye)) := by
  rw [C73_exact_rh_no fovy aspect n f h0 h1 ha hn hf _ (C26_rigid_rh eye center up h).isometry p _
    (move_rh eye center up h dir s u hd hs hu p).symm]
  simp [InView, hfar]
/-- left-handed, depth [-1,1] -/
theorem C73_camera_lh_no (fovy aspect n f : ℝ) (h0 : 0 < fovy) (h1 : fovy < Real.pi) (ha : 0 < aspect) (hn : 0 < n) (hf : n < f)
    (hfar : FLT_EPSILON ≤ 2 * n / (f - n)) (eye center up : V3 ℝ) (h : ViewFrame (center.sub eye) up) (dir s u : V3 ℝ)
    (hd : dir = (center.sub eye).unit) (hs : s = (up.cross dir).unit) (hu : u = dir.cross s) (p : V3 ℝ) :
    Inside (glm_mat4_mul (glm_perspective_lh_no fovy aspect n f) (glm_lookat_lh eye center up)) p ↔
      InView (Real.tan (fovy / 2)) aspect n f (s.dot (p.sub eye)) (u.dot (p.sub eye)) (dir.dot (p.sub eye)) := by
  rw [C73_exact_lh_no fovy aspect n f h0 h1 ha hn hf _ (C26_rigid_lh eye center up h).isometry p _
    (move_lh eye center up h dir s u hd hs hu p).symm]
  simp [InView, hfar]
/-- right-handed, depth [0,1]: as above with the near distance `f n / (2 f - n)` in place of `n` -/
theorem C73_camera_rh_zo_partial (fovy aspect n f : ℝ) (h0 : 0 < fovy) (h1 : fovy < Real.pi) (ha : 0 < aspect) (hn : 0 < n)
    (hf : n < f) (hfar : FLT_EPSILON ≤ n / (f - n)) (eye center up : V3 ℝ) (h : ViewFrame (center.sub eye) up) (dir s u : V3 ℝ)
    (hd : dir = (center.sub eye).unit) (hs : s = (dir.cross up).unit) (hu : u = s.cross dir) (p : V3 ℝ) :
    Inside (glm_mat4_mul (glm_perspective_rh_zo fovy aspect n f) (glm_lookat_rh eye center up)) p ↔
      InView (Real.tan (fovy / 2)) aspect (f * n / (2 * f - n)) f (s.dot (p.sub eye)) (u.dot (p.sub eye)) (dir.dot (p.sub eye)) := by
  rw [C73_exact_rh_zo fovy aspect n f h0 h1 ha hn hf _ (C26_rigid_rh eye center up h).isometry p _
    (move_rh eye center up h dir s u hd hs hu p).symm]
  simp [InView, hfar]
/-- left-handed, depth [0,1] -/
theorem C73_camera_lh_zo_partial (fovy aspect n f : ℝ) (h0 : 0 < fovy) (h1 : fovy < Real.pi) (ha : 0 < aspect) (hn : 0 < n)
    (hf : n < f) (hfar : FLT_EPSILON ≤ n / (f - n)) (eye center up : V3 ℝ) (h : ViewFrame (center.sub eye) up) (dir s u : V3 ℝ)
    (hd : dir = (center.sub eye).unit) (hs : s = (up.cross dir).unit) (hu : u = dir.cross s) (p : V3 ℝ) :
    Inside (glm_mat4_mul (glm_perspective_lh_zo fovy aspect n f) (glm_lookat_lh eye center up)) p ↔
      InView (Real.tan (fovy / 2)) aspect (f * n / (2 * f - n)) f (s.dot (p.sub eye)) (u.dot (p.sub eye)) (dir.dot (p.sub eye)) := by
  rw [C73_exact_lh_zo fovy aspect n f h0 h1 ha hn hf _ (C26_rigid_lh eye center up h).isometry p _
    (move_lh eye center up h dir s u hd hs hu p).symm]
  simp [InView, hfar]
/-- the near distance used with depth [0,1] is too small, by a factor between 1/2 and 1 -/
theorem C73_near_zo (n f : ℝ) (hn : 0 < n) (hf : n < f) : n / 2 < f * n / (2 * f - n) ∧ f * n / (2 * f - n) < n := by
  have h : 0 < 2 * f - n := by linarith
  rw [lt_div_iff₀ h, div_lt_iff₀ h]
  constructor <;> nlinarith

/-! ## culling never loses a visible box -/

private theorem inside_cull (m : M4 ℝ) (b : M2x3 ℝ) (p : V3 ℝ) (hp : p ∈ b.set) (h : Inside m p) :
    glm_aabb_frustum b (glm_frustum_planes m) = true := by
  by_contra hn
  obtain ⟨q, hq, hlt⟩ := C38_conservative b _ (Bool.not_eq_true _ ▸ hn) p hp
  exact absurd (h q hq) (not_le.mpr hlt)
/-- a box that contains a point of the view volume is never culled, for every near and far distance and both depth ranges -/
theorem C73_cull_rh (fovy aspect n f : ℝ) (h0 : 0 < fovy) (h1 : fovy < Real.pi) (ha : 0 < aspect) (hn : 0 < n) (hf : n < f)
    (eye center up : V3 ℝ) (h : ViewFrame (center.sub eye) up) (dir s u : V3 ℝ)
    (hd : dir = (center.sub eye).unit) (hs : s = (dir.cross up).unit) (hu : u = s.cross dir) (b : M2x3 ℝ) (p : V3 ℝ) (hp : p ∈ b.set)
    (hin : InView (Real.tan (fovy / 2)) aspect n f (s.dot (p.sub eye)) (u.dot (p.sub eye)) (dir.dot (p.sub eye))) :
    glm_aabb_frustum b (glm_frustum_planes (glm_mat4_mul (glm_perspective_rh_no fovy aspect n f) (glm_lookat_rh eye center up))) =
      true ∧
    glm_aabb_frustum b (glm_frustum_planes (glm_mat4_mul (glm_perspective_rh_zo fovy aspect n f) (glm_lookat_rh eye center up))) =
      true := by
  obtain ⟨i1, i2, i3, i4⟩ := hin
  have iso := (C26_rigid_rh eye center up h).isometry
  have mv := (move_rh eye center up h dir s u hd hs hu p).symm
  constructor
  · refine inside_cull _ b p hp ((C73_exact_rh_no fovy aspect n f h0 h1 ha hn hf _ iso p _ mv).mpr ?_)
    simp only [neg_neg]
    exact ⟨i1, fun _ => i2, i3, i4⟩
  · refine inside_cull _ b p hp ((C73_exact_rh_zo fovy aspect n f h0 h1 ha hn hf _ iso p _ mv).mpr ?_)
    simp only [neg_neg]
    exact ⟨((C73_near_zo n f hn hf).2.le).trans i1, fun _ => i2, i3, i4⟩
theorem C73_cull_lh (fovy aspect n f : ℝ) (h0 : 0 < fovy) (h1 : fovy < Real.pi) (ha : 0 < aspect) (hn : 0 < n) (hf : n < f)
    (eye center up : V3 ℝ) (h : ViewFrame (center.sub eye) up) (dir s u : V3 ℝ)
    (hd : dir = (center.sub eye).unit) (hs : s = (up.cross dir).unit) (hu : u = dir.cross s) (b : M2x3 ℝ) (p : V3 ℝ) (hp : p ∈ b.set)
    (hin : InView (Real.tan (fovy / 2)) aspect n f (s.dot (p.sub eye)) (u.dot (p.sub eye)) (dir.dot (p.sub eye))) :
    glm_aabb_frustum b (glm_frustum_planes (glm_mat4_mul (glm_perspective_lh_no fovy aspect n f) (glm_lookat_lh eye center up))) =
      true ∧
    glm_aabb_frustum b (glm_frustum_planes (glm_mat4_mul (glm_perspective_lh_zo fovy aspect n f) (glm_lookat_lh eye center up))) =
      true := by
  obtain ⟨i1, i2, i3, i4⟩ := hin
  have iso := (C26_rigid_lh eye center up h).isometry
  have mv := (move_lh eye center up h dir s u hd hs hu p).symm
  constructor
  · refine inside_cull _ b p hp ((C73_exact_lh_no fovy aspect n f h0 h1 ha hn hf _ iso p _ mv).mpr ?_)
    exact ⟨i1, fun _ => i2, i3, i4⟩
  · refine inside_cull _ b p hp ((C73_exact_lh_zo fovy aspect n f h0 h1 ha hn hf _ iso p _ mv).mpr ?_)
    exact ⟨((C73_near_zo n f hn hf).2.le).trans i1, fun _ => i2, i3, i4⟩

/-! ## where the code departs from the view volume -/

private theorem id_iso : (glm_mat4_identity : M4 ℝ).Isometry := by
  refine ⟨?_, ?_⟩
  · rw [Matrix.mem_orthogonalGroup_iff]
    ext i j
    fin_cases i <;> fin_cases j <;> simp [M4.block, M3.mat, Matrix.mul_apply, Fin.sum_univ_succ, cglm]
  · simp [M4.Affine, cglm]
private theorem id_move (p : V3 ℝ) : p = glm_mat4_mulv3 (glm_mat4_identity : M4 ℝ) p 1 := by
  ext <;> simp [cglm]

/-- depth [0,1]: with near 1 and far 2 the point at depth 0.8 passes all planes although it is in front of the near plane -/
theorem C73_refuted_zo : ¬ ∀ (fovy aspect n f : ℝ), 0 < fovy → fovy < Real.pi → 0 < aspect → 0 < n → n < f → ∀ p : V3 ℝ,
    Inside (glm_mat4_mul (glm_perspective_rh_zo fovy aspect n f) glm_mat4_identity) p →
      InView (Real.tan (fovy / 2)) aspect n f p.x p.y (-p.z) := by
  intro h
  have hp := Real.pi_pos
  have := h (Real.pi / 2) 1 1 2 (by linarith) (by linarith) one_pos one_pos (by norm_num) ⟨0, 0, -0.8⟩
    ((C73_exact_rh_zo (Real.pi / 2) 1 1 2 (by linarith) (by linarith) one_pos one_pos (by norm_num) _ id_iso _ _ (id_move _)).mpr
      (by have ht := tan_half_pos (fovy := Real.pi / 2) (by linarith) (by linarith)
          refine ⟨by norm_num, fun _ => by norm_num, ?_, ?_⟩ <;> simp only [abs_zero] <;> nlinarith))
  have h1 := this.1
  norm_num at h1
/-- depth [-1,1]: with near 1e-4 and far 1e4 the far plane is dropped, and a point at depth 1e5 passes all planes -/
theorem C73_refuted_far : ¬ ∀ (fovy aspect n f : ℝ), 0 < fovy → fovy < Real.pi → 0 < aspect → 0 < n → n < f → ∀ p : V3 ℝ,
    Inside (glm_mat4_mul (glm_perspective_rh_no fovy aspect n f) glm_mat4_identity) p →
      InView (Real.tan (fovy / 2)) aspect n f p.x p.y (-p.z) := by
  intro h
  have hp := Real.pi_pos
  have := h (Real.pi / 2) 1 0.0001 10000 (by linarith) (by linarith) one_pos (by norm_num) (by norm_num) ⟨0, 0, -100000⟩
    ((C73_exact_rh_no (Real.pi / 2) 1 0.0001 10000 (by linarith) (by linarith) one_pos (by norm_num) (by norm_num) _ id_iso _ _
        (id_move _)).mpr
      (by have ht := tan_half_pos (fovy := Real.pi / 2) (by linarith) (by linarith)
          refine ⟨by norm_num, fun h => absurd h (by norm_num [FLT_EPSILON]), ?_, ?_⟩ <;> simp only [abs_zero] <;> nlinarith))
  have h1 := this.2.1
  norm_num at h1

/-- a quarter-turn field of view, near 1, far 10 and the camera of C26 meet all hypotheses -/
example : FLT_EPSILON ≤ 2 * 1 / ((10 : ℝ) - 1) ∧ FLT_EPSILON ≤ 1 / ((10 : ℝ) - 1) ∧ 0 < Real.pi / 2 ∧ Real.pi / 2 < Real.pi ∧
    InView (Real.tan (Real.pi / 2 / 2)) 1 1 10 1 1 5 := by
  have hp := Real.pi_pos
  refine ⟨by norm_num [FLT_EPSILON], by norm_num [FLT_EPSILON], by linarith, by linarith, by norm_num, by norm_num, ?_, ?_⟩ <;>
    rw [show Real.pi / 2 / 2 = Real.pi / 4 by ring, Real.tan_pi_div_four] <;> norm_num

end Cglm
