# function(s) | hypotheses over the reals, separated by ;  (indented lines: tactics run before dfd_step)
glm_vec2_div | b.x ≠ 0; b.y ≠ 0
glm_vec3_div | b.x ≠ 0; b.y ≠ 0; b.z ≠ 0
glm_vec4_div | b.x ≠ 0; b.y ≠ 0; b.z ≠ 0; b.w ≠ 0
glm_vec{2,3,4}_divs | s ≠ 0
glm_vec{2,3,4}_mods | s ≠ 0
glm_vec2_sqrt | 0 ≤ v.x; 0 ≤ v.y
glm_vec3_sqrt | 0 ≤ v.x; 0 ≤ v.y; 0 ≤ v.z
glm_vec4_sqrt | 0 ≤ v.x; 0 ≤ v.y; 0 ≤ v.z; 0 ≤ v.w
glm_vec2_complex_div | ¬ (b.x = 0 ∧ b.y = 0)
  have e := complex_div_divisor h1
glm_vec3_angle | glm_vec3_norm a ≠ 0; glm_vec3_norm b ≠ 0
  have e := mul_ne_zero h1 h2
glm_vec3_proj | glm_vec3_norm2 b ≠ 0
glm_smoothstep | edge0 ≠ edge1
glm_vec{3,4}_smoothstep_uni | edge0 ≠ edge1
glm_vec3_smoothstep | edge0.x ≠ edge1.x; edge0.y ≠ edge1.y; edge0.z ≠ edge1.z
glm_vec4_smoothstep | edge0.x ≠ edge1.x; edge0.y ≠ edge1.y; edge0.z ≠ edge1.z; edge0.w ≠ edge1.w
glm_decompose_rs, glm_decompose | glm_vec3_norm ⟨m.c0.x, m.c0.y, m.c0.z⟩ ≠ 0; glm_vec3_norm ⟨m.c1.x, m.c1.y, m.c1.z⟩ ≠ 0; glm_vec3_norm ⟨m.c2.x, m.c2.y, m.c2.z⟩ ≠ 0
glm_perspective_resize, glm_perspective_resize_{lh,rh}_{no,zo} | proj.c0.x = 0 ∨ aspect ≠ 0
  by_cases c : feq proj.c0.x (lit 0 : ℝ) = true
  · simp (disch := dfd_side) only [FN, dfd, c, if_true]
  · have e : aspect ≠ 0 := h1.resolve_left (ne_zero_of_not_feq c)
    dfd_step FN
  done
glm_ortho, glm_frustum, glm_ortho_{lh,rh}_{no,zo}, glm_frustum_{lh,rh}_{no,zo} | left ≠ right; bottom ≠ top; nearZ ≠ farZ
glm_ortho_aabb, glm_ortho_aabb_{lh,rh}_{no,zo} | box.c0.x ≠ box.c1.x; box.c0.y ≠ box.c1.y; box.c0.z ≠ box.c1.z
  have e : -box.c1.z ≠ -box.c0.z := fun h => h3 (neg_injective h).symm
glm_ortho_aabb_p, glm_ortho_aabb_p_{lh,rh}_{no,zo} | box.c0.x - padding ≠ box.c1.x + padding; box.c0.y - padding ≠ box.c1.y + padding; box.c0.z - padding ≠ box.c1.z + padding
  have e : -(box.c1.z + padding) ≠ -(box.c0.z - padding) := fun h => h3 (neg_injective h).symm
glm_ortho_aabb_pz, glm_ortho_aabb_pz_{lh,rh}_{no,zo} | box.c0.x ≠ box.c1.x; box.c0.y ≠ box.c1.y; box.c0.z - padding ≠ box.c1.z + padding
  have e : -(box.c1.z + padding) ≠ -(box.c0.z - padding) := fun h => h3 (neg_injective h).symm
glm_ortho_default, glm_ortho_default_{lh,rh}_{no,zo} | aspect ≠ 0
  have e1 : -aspect ≠ aspect := by intro h; apply h1; linarith
  have e2 : -(lit 1 / aspect) ≠ lit 1 / aspect := by
    have : (lit 1 / aspect : ℝ) ≠ 0 := div_ne_zero (Dfd.lit_ne_zero (by norm_num)) h1
    intro h; apply this; linarith
  have e3 : (-lit 1 : ℝ) ≠ lit 1 := by simp only [lit_real]; norm_num
  have e4 : (-lit 100 : ℝ) ≠ lit 100 := by simp only [lit_real]; norm_num
glm_ortho_default_s, glm_ortho_default_s_{lh,rh}_{no,zo} | aspect ≠ 0; size ≠ 0; size ≠ -100
  have e1 : -size * aspect ≠ size * aspect := by
    have := mul_ne_zero h2 h1
    intro h; apply this; linarith
  have e2 : -size / aspect ≠ size / aspect := by
    have := div_ne_zero h2 h1
    intro h; apply this; rw [neg_div] at h; linarith
  have e3 : -size ≠ size := by intro h; apply h2; linarith
  have e4 : -size - lit 100 ≠ size + lit 100 := by
    simp only [lit_real]
    intro h; apply h3; push_cast at h; linarith
glm_perspective, glm_perspective_{lh,rh}_{no,zo} | cosf (fovy * lit 0.5) ≠ 0; sinf (fovy * lit 0.5) ≠ 0; aspect ≠ 0; nearZ ≠ farZ
  have e : tanf (fovy * lit 0.5) ≠ 0 := tan_ne_zero h1 h2
glm_perspective_default, glm_perspective_default_{lh,rh}_{no,zo} | aspect ≠ 0
  have e1 := cos_pi_eighth_ne_zero
  have e2 := sin_pi_eighth_ne_zero
  have e4 := tan_ne_zero e1 e2
  have e3 : (lit 0.01 : ℝ) ≠ lit 100 := by simp only [lit_real]; norm_num
glm_persp_fovy, glm_persp_fovy_{lh,rh}_{no,zo} | proj.c1.y ≠ 0
glm_persp_aspect, glm_persp_aspect_{lh,rh}_{no,zo} | proj.c0.x ≠ 0
glm_persp_decomp{,v}_lh_no | proj.c2.z ≠ -1; proj.c2.z ≠ 1; proj.c0.x ≠ 0; proj.c1.y ≠ 0
  have e1 : -proj.c2.z - lit 1 ≠ 0 := by simp only [lit_real]; push_cast; intro h; apply h1; linarith
  have e2 : -proj.c2.z + lit 1 ≠ 0 := by simp only [lit_real]; push_cast; intro h; apply h2; linarith
glm_persp_decomp_z_lh_no | proj.c2.z ≠ -1; proj.c2.z ≠ 1
  have e1 : -proj.c2.z - lit 1 ≠ 0 := by simp only [lit_real]; push_cast; intro h; apply h1; linarith
  have e2 : -proj.c2.z + lit 1 ≠ 0 := by simp only [lit_real]; push_cast; intro h; apply h2; linarith
glm_persp_decomp_x_lh_no | proj.c2.z ≠ -1; proj.c0.x ≠ 0
  have e1 : -proj.c2.z - lit 1 ≠ 0 := by simp only [lit_real]; push_cast; intro h; apply h1; linarith
glm_persp_decomp_y_lh_no | proj.c2.z ≠ -1; proj.c1.y ≠ 0
  have e1 : -proj.c2.z - lit 1 ≠ 0 := by simp only [lit_real]; push_cast; intro h; apply h1; linarith
glm_persp_decomp_near_lh_no | proj.c2.z ≠ -1
  have e1 : -proj.c2.z - lit 1 ≠ 0 := by simp only [lit_real]; push_cast; intro h; apply h1; linarith
glm_persp_decomp_far_lh_{no,zo} | proj.c2.z ≠ 1
  have e2 : -proj.c2.z + lit 1 ≠ 0 := by simp only [lit_real]; push_cast; intro h; apply h1; linarith
glm_persp_decomp{,v}_lh_zo | proj.c2.z ≠ 0; proj.c2.z ≠ 1; proj.c0.x ≠ 0; proj.c1.y ≠ 0
  have e1 : -proj.c2.z ≠ 0 := neg_ne_zero.2 h1
  have e2 : -proj.c2.z + lit 1 ≠ 0 := by simp only [lit_real]; push_cast; intro h; apply h2; linarith
glm_persp_decomp_z_lh_zo | proj.c2.z ≠ 0; proj.c2.z ≠ 1
  have e1 : -proj.c2.z ≠ 0 := neg_ne_zero.2 h1
  have e2 : -proj.c2.z + lit 1 ≠ 0 := by simp only [lit_real]; push_cast; intro h; apply h2; linarith
glm_persp_decomp_x_lh_zo | proj.c3.w ≠ 0; proj.c0.x ≠ 0
glm_persp_decomp_y_lh_zo | proj.c3.w ≠ 0; proj.c1.y ≠ 0
glm_persp_decomp_near_lh_zo | proj.c2.z ≠ 0
  have e1 : -proj.c2.z ≠ 0 := neg_ne_zero.2 h1
glm_persp_decomp{,v}_rh_no, glm_persp_decomp{,v} | proj.c2.z ≠ 1; proj.c2.z ≠ -1; proj.c0.x ≠ 0; proj.c1.y ≠ 0
  have e1 : proj.c2.z - lit 1 ≠ 0 := by simp only [lit_real]; push_cast; intro h; apply h1; linarith
  have e2 : proj.c2.z + lit 1 ≠ 0 := by simp only [lit_real]; push_cast; intro h; apply h2; linarith
glm_persp_decomp_z_rh_no, glm_persp_decomp_z | proj.c2.z ≠ 1; proj.c2.z ≠ -1
  have e1 : proj.c2.z - lit 1 ≠ 0 := by simp only [lit_real]; push_cast; intro h; apply h1; linarith
  have e2 : proj.c2.z + lit 1 ≠ 0 := by simp only [lit_real]; push_cast; intro h; apply h2; linarith
glm_persp_decomp_x_rh_no, glm_persp_decomp_x | proj.c2.z ≠ 1; proj.c0.x ≠ 0
  have e1 : proj.c2.z - lit 1 ≠ 0 := by simp only [lit_real]; push_cast; intro h; apply h1; linarith
glm_persp_decomp_y_rh_no, glm_persp_decomp_y | proj.c2.z ≠ 1; proj.c1.y ≠ 0
  have e1 : proj.c2.z - lit 1 ≠ 0 := by simp only [lit_real]; push_cast; intro h; apply h1; linarith
glm_persp_decomp_near_rh_no, glm_persp_decomp_near | proj.c2.z ≠ 1
  have e1 : proj.c2.z - lit 1 ≠ 0 := by simp only [lit_real]; push_cast; intro h; apply h1; linarith
glm_persp_decomp_far_rh_{no,zo}, glm_persp_decomp_far | proj.c2.z ≠ -1
  have e2 : proj.c2.z + lit 1 ≠ 0 := by simp only [lit_real]; push_cast; intro h; apply h1; linarith
glm_persp_decomp{,v}_rh_zo | proj.c2.z ≠ 0; proj.c2.z ≠ -1; proj.c0.x ≠ 0; proj.c1.y ≠ 0
  have e2 : proj.c2.z + lit 1 ≠ 0 := by simp only [lit_real]; push_cast; intro h; apply h2; linarith
glm_persp_decomp_z_rh_zo | proj.c2.z ≠ 0; proj.c2.z ≠ -1
  have e2 : proj.c2.z + lit 1 ≠ 0 := by simp only [lit_real]; push_cast; intro h; apply h2; linarith
glm_persp_decomp_x_rh_zo | proj.c2.z ≠ 0; proj.c0.x ≠ 0
glm_persp_decomp_y_rh_zo | proj.c2.z ≠ 0; proj.c1.y ≠ 0
glm_persp_decomp_near_rh_zo | proj.c2.z ≠ 0
glm_persp_sizes_lh_no | proj.c2.z ≠ -1; proj.c2.z ≠ 1; proj.c0.x ≠ 0; cosf (fovy * lit 0.5) ≠ 0
glm_persp_sizes_lh_zo | proj.c2.z ≠ 0; proj.c2.z ≠ 1; proj.c0.x ≠ 0; cosf (fovy * lit 0.5) ≠ 0
glm_persp_sizes_rh_no, glm_persp_sizes | proj.c2.z ≠ 1; proj.c2.z ≠ -1; proj.c0.x ≠ 0; cosf (fovy * lit 0.5) ≠ 0
glm_persp_sizes_rh_zo | proj.c2.z ≠ 0; proj.c2.z ≠ -1; proj.c0.x ≠ 0; cosf (fovy * lit 0.5) ≠ 0
glm_persp_move_far_lh_no | proj.c2.z ≠ -1; proj.c2.z ≠ 1; proj.c3.z / (-proj.c2.z - lit 1) ≠ proj.c3.z / (-proj.c2.z + lit 1) + deltaFar
  have e1 : -proj.c2.z - lit 1 ≠ 0 := by simp only [lit_real]; push_cast; intro h; apply h1; linarith
  have e2 : -proj.c2.z + lit 1 ≠ 0 := by simp only [lit_real]; push_cast; intro h; apply h2; linarith
glm_persp_move_far_lh_zo | proj.c2.z ≠ 0; proj.c2.z ≠ 1; proj.c3.z / -proj.c2.z ≠ proj.c3.z / (-proj.c2.z + lit 1) + deltaFar
  have e1 : -proj.c2.z ≠ 0 := neg_ne_zero.2 h1
  have e2 : -proj.c2.z + lit 1 ≠ 0 := by simp only [lit_real]; push_cast; intro h; apply h2; linarith
glm_persp_move_far_rh_no, glm_persp_move_far | proj.c2.z ≠ 1; proj.c2.z ≠ -1; proj.c3.z / (proj.c2.z - lit 1) ≠ proj.c3.z / (proj.c2.z + lit 1) + deltaFar
  have e1 : proj.c2.z - lit 1 ≠ 0 := by simp only [lit_real]; push_cast; intro h; apply h1; linarith
  have e2 : proj.c2.z + lit 1 ≠ 0 := by simp only [lit_real]; push_cast; intro h; apply h2; linarith
glm_persp_move_far_rh_zo | proj.c2.z ≠ 0; proj.c2.z ≠ -1; proj.c3.z / proj.c2.z ≠ proj.c3.z / (proj.c2.z + lit 1) + deltaFar
  have e2 : proj.c2.z + lit 1 ≠ 0 := by simp only [lit_real]; push_cast; intro h; apply h2; linarith
glm_unprojecti_no, glm_unprojecti | vp.z ≠ 0; vp.w ≠ 0; (glm_mat4_mulv invMat ⟨(lit 2) * (pos.x - vp.x) / vp.z - (lit 1), (lit 2) * (pos.y - vp.y) / vp.w - (lit 1), (lit 2) * pos.z - (lit 1), lit 1⟩).w ≠ 0
glm_unprojecti_zo | vp.z ≠ 0; vp.w ≠ 0; (glm_mat4_mulv invMat ⟨(lit 2) * (pos.x - vp.x) / vp.z - (lit 1), (lit 2) * (pos.y - vp.y) / vp.w - (lit 1), pos.z, lit 1⟩).w ≠ 0
glm_unproject | glm_mat4_det m ≠ 0; vp.z ≠ 0; vp.w ≠ 0; (glm_mat4_mulv (glm_mat4_inv m) ⟨(lit 2) * (pos.x - vp.x) / vp.z - (lit 1), (lit 2) * (pos.y - vp.y) / vp.w - (lit 1), (lit 2) * pos.z - (lit 1), lit 1⟩).w ≠ 0
glm_project{,_no,_zo} | (glm_mat4_mulv m (glm_vec4 pos (lit 1))).w ≠ 0
glm_project_z{,_no,_zo} | m.c0.w * v.x + m.c1.w * v.y + m.c2.w * v.z + m.c3.w ≠ 0
glm_ease_circ_in | -1 ≤ t; t ≤ 1
  have e : 0 ≤ lit 1 - t * t := by simp only [lit_real]; push_cast; nlinarith
glm_ease_circ_out | 0 ≤ t; t ≤ 2
  have e : 0 ≤ (lit 2 - t) * t := by simp only [lit_real]; push_cast; nlinarith
glm_ease_circ_inout | -1 / 2 ≤ t; t ≤ 3 / 2
  by_cases hc : flt t (lit 0.5 : ℝ) = true
  · have e : 0 ≤ lit 1 - lit 4 * (t * t) := by
      simp only [flt, lit_real, decide_eq_true_eq] at hc ⊢
      push_cast at hc ⊢
      norm_num at hc
      nlinarith
    simp (disch := dfd_side) only [glm_ease_circ_inout, dfd, hc, if_true]
  · have e : 0 ≤ -(lit 2 * t - lit 3) * (lit 2 * t - lit 1) := by
      simp only [flt, lit_real, decide_eq_true_eq] at hc ⊢
      push_cast at hc ⊢
      norm_num at hc
      nlinarith
    simp (disch := dfd_side) only [glm_ease_circ_inout, dfd, hc, if_false, Bool.false_eq_true]
  done
glm_euler_angles | -1 < m.c2.x → m.c2.x < 1 → ¬ (m.c2.y = 0 ∧ m.c2.z = 0) ∧ ¬ (m.c1.x = 0 ∧ m.c0.x = 0); m.c2.x ≤ -1 ∨ 1 ≤ m.c2.x → ¬ (m.c0.y = 0 ∧ m.c1.y = 0)
  by_cases c1 : flt m.c2.x (lit 1 : ℝ) = true
  · by_cases c2 : flt (-lit 1 : ℝ) m.c2.x = true
    · have b1 : m.c2.x < 1 := by simpa only [flt, lit_real, decide_eq_true_eq, Rat.cast_one] using c1
      have b2 : -1 < m.c2.x := by simpa only [flt, lit_real, decide_eq_true_eq, Rat.cast_one] using c2
      have b3 := b1.le
      have b4 := b2.le
      have e1 : ¬ (-m.c2.y = 0 ∧ m.c2.z = 0) := by simpa only [neg_eq_zero] using (h1 b2 b1).1
      have e2 : ¬ (-m.c1.x = 0 ∧ m.c0.x = 0) := by simpa only [neg_eq_zero] using (h1 b2 b1).2
      simp (disch := dfd_side) only [FN, dfd, c1, c2, if_true]
    · have b2 : m.c2.x ≤ -1 := by simpa only [flt, lit_real, decide_eq_true_eq, Rat.cast_one, not_lt] using c2
      have e := h2 (Or.inl b2)
      simp (disch := dfd_side) only [FN, dfd, c1, c2, if_true, if_false, Bool.false_eq_true]
  · have b1 : 1 ≤ m.c2.x := by simpa only [flt, lit_real, decide_eq_true_eq, Rat.cast_one, not_lt] using c1
    have e := h2 (Or.inr b1)
    simp (disch := dfd_side) only [FN, dfd, c1, if_false, Bool.false_eq_true]
  done
glm_quat_angle | ¬ (glm_quat_imaglen q = 0 ∧ glm_quat_real q = 0)
glm_frustum_corners | (glm_mat4_mulv invMat ⟨-lit 1, -lit 1, -lit 1, lit 1⟩).w ≠ 0; (glm_mat4_mulv invMat ⟨-lit 1, lit 1, -lit 1, lit 1⟩).w ≠ 0; (glm_mat4_mulv invMat ⟨lit 1, lit 1, -lit 1, lit 1⟩).w ≠ 0; (glm_mat4_mulv invMat ⟨lit 1, -lit 1, -lit 1, lit 1⟩).w ≠ 0; (glm_mat4_mulv invMat ⟨-lit 1, -lit 1, lit 1, lit 1⟩).w ≠ 0; (glm_mat4_mulv invMat ⟨-lit 1, lit 1, lit 1, lit 1⟩).w ≠ 0; (glm_mat4_mulv invMat ⟨lit 1, lit 1, lit 1, lit 1⟩).w ≠ 0; (glm_mat4_mulv invMat ⟨lit 1, -lit 1, lit 1, lit 1⟩).w ≠ 0
glm_frustum_corners_at | farDist ≠ 0
glm_mat2_inv | glm_mat2_det mat ≠ 0
  have e := mat2_inv_divisor h1
glm_mat3_inv | glm_mat3_det mat ≠ 0
  have e := mat3_inv_divisor h1
glm_mat4_inv | glm_mat4_det mat ≠ 0
  have e := mat4_inv_divisor h1
glm_mat4_inv_fast | glm_mat4_det mat ≠ 0
glm_quat_inv | glm_vec4_norm2 q ≠ 0
glm_ray_sphere | ¬ (glm_vec3_dot dir (glm_vec3_sub ⟨s.x, s.y, s.z⟩ origin) = 0 ∧ s.w * s.w - glm_vec3_norm2 (glm_vec3_mulsubs dir (glm_vec3_dot dir (glm_vec3_sub ⟨s.x, s.y, s.z⟩ origin)) (glm_vec3_sub ⟨s.x, s.y, s.z⟩ origin)) = 0)
  by_cases c1 : flt (s.w * s.w - glm_vec3_norm2 (glm_vec3_mulsubs dir (glm_vec3_dot dir (glm_vec3_sub ⟨s.x, s.y, s.z⟩ origin)) (glm_vec3_sub ⟨s.x, s.y, s.z⟩ origin))) (lit 0 : ℝ) = true
  · simp (disch := dfd_side) only [FN, dfd, c1, if_true]
  · have e := nonneg_of_not_flt c1
    have e2 := ray_sphere_divisor c1 h1
    dfd_step FN
  done
glm_mat{3,4}_quat |
  by_cases c1 : fle (lit 0 : ℝ) (m.c0.x + m.c1.y + m.c2.z) = true
  · have e : 0 < lit 1 + (m.c0.x + m.c1.y + m.c2.z) := by
      simp only [fle, lit_real, decide_eq_true_eq] at c1 ⊢
      push_cast at c1 ⊢
      linarith
    simp (disch := dfd_side) only [FN, dfd, c1, if_true]
  · have b1 : m.c0.x + m.c1.y + m.c2.z < 0 := by
      simpa only [fle, lit_real, decide_eq_true_eq, Rat.cast_zero, not_le] using c1
    by_cases c2 : (fle m.c1.y m.c0.x && fle m.c2.z m.c0.x) = true
    · have e : 0 < lit 1 - m.c1.y - m.c2.z + m.c0.x := by
        simp only [Bool.and_eq_true, fle, decide_eq_true_eq] at c2
        simp only [lit_real]; push_cast
        rcases le_total m.c1.y 0 with h | h <;> linarith [c2.1, c2.2]
      simp (disch := dfd_side) only [FN, dfd, c1, c2, if_true, if_false, Bool.false_eq_true]
    · by_cases c3 : fle m.c2.z m.c1.y = true
      · have e : 0 < lit 1 - m.c0.x - m.c2.z + m.c1.y := by
          simp only [Bool.and_eq_true, fle, decide_eq_true_eq] at c2 c3
          simp only [lit_real]; push_cast
          have : m.c0.x < m.c1.y := by by_contra h; exact c2 ⟨by linarith, by linarith⟩
          rcases le_total m.c0.x 0 with h | h <;> linarith
        simp (disch := dfd_side) only [FN, dfd, c1, c2, c3, if_true, if_false, Bool.false_eq_true]
      · have e : 0 < lit 1 - m.c0.x - m.c1.y + m.c2.z := by
          simp only [Bool.and_eq_true, fle, decide_eq_true_eq] at c2 c3
          simp only [lit_real]; push_cast
          have : m.c0.x < m.c2.z := by by_contra h; exact c2 ⟨by linarith, by linarith⟩
          rcases le_total m.c0.x 0 with h | h <;> linarith
        simp (disch := dfd_side) only [FN, dfd, c1, c2, c3, if_false, Bool.false_eq_true]
  done
glm_quat_slerp, glm_quat_slerp_longest |
  by_cases c1 : fle (lit 1 : ℝ) (fabsf (glm_quat_dot frm dst)) = true
  · simp (disch := dfd_side) only [FN, dfd, c1, if_true]
  · obtain ⟨e1, e2, e3, e4, e5, e6⟩ := slerp_range c1
    dfd_step FN
  done
