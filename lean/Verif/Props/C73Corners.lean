import Verif.Props.C73

/-! # C73: the view volume of a camera, by corners

`glm_frustum_corners` of the inverse of projection times view: the eight corners of the view volume in world space. -/

namespace Cglm
open View

/-- the world point at depth `d` of the camera, at the fractions `i` and `j` of the half width and half height of the view
volume there -/
noncomputable def viewPoint (eye dir s u : V3 ℝ) (T aspect d i j : ℝ) : V4 ℝ :=
  ((eye.add (dir.smul d)).add ((s.smul (i * (aspect * T * d))).add (u.smul (j * (T * d))))).hom 1

/-- the eight corners in the documented order: near left-bottom, left-top, right-top, right-bottom, then far -/
noncomputable def viewCorners (eye dir s u : V3 ℝ) (T aspect n f : ℝ) : List (V4 ℝ) :=
  [viewPoint eye dir s u T aspect n (-1) (-1), viewPoint eye dir s u T aspect n (-1) 1,
   viewPoint eye dir s u T aspect n 1 1, viewPoint eye dir s u T aspect n 1 (-1),
   viewPoint eye dir s u T aspect f (-1) (-1), viewPoint eye dir s u T aspect f (-1) 1,
   viewPoint eye dir s u T aspect f 1 1, viewPoint eye dir s u T aspect f 1 (-1)]

private theorem frame_rh (dir up s u : V3 ℝ) (hd : dir.dot dir = 1) (hs : s.dot s = 1) (hsd : s.dot dir = 0) (hu : u = s.cross dir) :
    u.dot u = 1 ∧ s.dot u = 0 ∧ u.dot dir = 0 := by
  subst hu
  simp only [V3.dot, V3.cross] at *
  refine ⟨?_, by ring, by ring⟩
  linear_combination (dir.x*dir.x+dir.y*dir.y+dir.z*dir.z) * hs + hd - (s.x*dir.x+s.y*dir.y+s.z*dir.z) * hsd

private theorem view_coords (eye dir s u : V3 ℝ) (hd : dir.dot dir = 1) (hs : s.dot s = 1) (hu : u.dot u = 1) (hsd : s.dot dir = 0)
    (hsu : s.dot u = 0) (hud : u.dot dir = 0) (T aspect d i j : ℝ) :
    s.dot ((viewPoint eye dir s u T aspect d i j).xyz.sub eye) = i * (aspect * T * d) ∧
    u.dot ((viewPoint eye dir s u T aspect d i j).xyz.sub eye) = j * (T * d) ∧
    dir.dot ((viewPoint eye dir s u T aspect d i j).xyz.sub eye) = d := by
  simp only [V3.dot] at hd hs hu hsd hsu hud
  simp only [viewPoint, V4.xyz, V3.hom, V3.add, V3.smul, V3.sub, V3.dot]
  refine ⟨?_, ?_, ?_⟩
  · linear_combination (i * (aspect * T * d)) * hs + d * hsd + (j * (T * d)) * hsu
  · linear_combination (i * (aspect * T * d)) * hsu + d * hud + (j * (T * d)) * hu
  · linear_combination (i * (aspect * T * d)) * hsd + d * hd + (j * (T * d)) * hud

/-- the corners are the points with the right view coordinates -/
private theorem corners_eq (v : M4 ℝ) (hv : v.Isometry) (g : V3 ℝ → V3 ℝ) (C : V3 ℝ → V4 ℝ) (hC : ∀ k ∈ cubeCorners, (C k).w = 1)
    (hg : ∀ k ∈ cubeCorners, glm_mat4_mulv3 v (C k).xyz 1 = g k) :
    ∀ (l : List (V3 ℝ)) (l' : List (V4 ℝ)), (∀ k ∈ l, k ∈ cubeCorners) →
      List.Forall₂ (fun (k : V3 ℝ) (c : V4 ℝ) => c.w = 1 ∧ glm_mat4_mulv3 v c.xyz 1 = g k) l l' → l' = l.map C := by
  intro l l' hl h
  induction h with
  | nil => rfl
  | @cons k c l l' h _ ih =>
    rw [List.map_cons, ih fun k hk => hl k (by simp [hk])]
    congr 1
    have hk := hl k (by simp)
    have e := iso_inj v hv c.xyz (C k).xyz (by rw [h.2, hg k hk])
    have ex := congrArg V3.x e; have ey := congrArg V3.y e; have ez := congrArg V3.z e
    ext
    · exact ex
    · exact ey
    · exact ez
    · rw [h.1, hC k hk]

private theorem cube_z (k : V3 ℝ) (hk : k ∈ cubeCorners) : k.z = 1 ∨ k.z = -1 := by
  simp only [cubeCorners, List.mem_cons, List.not_mem_nil, or_false] at hk
  rcases hk with rfl | rfl | rfl | rfl | rfl | rfl | rfl | rfl <;> simp

private theorem map_corners (eye dir s u : V3 ℝ) (T aspect n f : ℝ) :
    cubeCorners.map (fun k => viewPoint eye dir s u T aspect (if k.z = 1 then f else n) k.x k.y) =
      viewCorners eye dir s u T aspect n f := by
  have : ¬ (-1 : ℝ) = 1 := by norm_num
  simp [cubeCorners, viewCorners, this]

private theorem frame_rh' (eye center up dir s u : V3 ℝ) (h : ViewFrame (center.sub eye) up)
    (hd : dir = (center.sub eye).unit) (hs : s = (dir.cross up).unit) (hu : u = s.cross dir) :
    dir.dot dir = 1 ∧ s.dot s = 1 ∧ u.dot u = 1 ∧ s.dot dir = 0 ∧ s.dot u = 0 ∧ u.dot dir = 0 := by
  have a1 : dir.dot dir = 1 := by rw [hd]; exact V3.unit_dot _ h.1
  have a2 : s.dot s = 1 := by rw [hs, hd]; exact V3.unit_dot _ h.2
  have a3 : s.dot dir = 0 := by rw [hs]; simp only [V3.unit, V3.smul, V3.dot, V3.cross]; ring
  obtain ⟨b1, b2, b3⟩ := frame_rh dir up s u a1 a2 a3 hu
  exact ⟨a1, a2, b1, a3, b2, b3⟩
private theorem frame_lh' (eye center up dir s u : V3 ℝ) (h : ViewFrame (center.sub eye) up)
    (hd : dir = (center.sub eye).unit) (hs : s = (up.cross dir).unit) (hu : u = dir.cross s) :
    dir.dot dir = 1 ∧ s.dot s = 1 ∧ u.dot u = 1 ∧ s.dot dir = 0 ∧ s.dot u = 0 ∧ u.dot dir = 0 := by
  have a1 : dir.dot dir = 1 := by rw [hd]; exact V3.unit_dot _ h.1
  have a2 : s.dot s = 1 := by
    rw [hs, hd]
    refine V3.unit_dot _ (le_of_le_of_eq h.2 ?_)
    unfold V3.len V3.dot V3.cross; congr 1; simp only; ring
  have a3 : s.dot dir = 0 := by rw [hs]; simp only [V3.unit, V3.smul, V3.dot, V3.cross]; ring
  subst hu
  simp only [V3.dot, V3.cross] at a1 a2 a3 ⊢
  refine ⟨a1, a2, ?_, a3, by ring, by ring⟩
  linear_combination (dir.x*dir.x+dir.y*dir.y+dir.z*dir.z) * a2 + a1 - (s.x*dir.x+s.y*dir.y+s.z*dir.z) * a3

private theorem move_rh (eye center up : V3 ℝ) (h : ViewFrame (center.sub eye) up) (dir s u : V3 ℝ)
    (hd : dir = (center.sub eye).unit) (hs : s = (dir.cross up).unit) (hu : u = s.cross dir) (T aspect d i j : ℝ) :
    glm_mat4_mulv3 (glm_lookat_rh eye center up) (viewPoint eye dir s u T aspect d i j).xyz 1 =
      ⟨i * (aspect * T * d), j * (T * d), -d⟩ := by
  obtain ⟨a1, a2, a3, a4, a5, a6⟩ := frame_rh' eye center up dir s u h hd hs hu
  obtain ⟨e1, e2, e3⟩ := view_coords eye dir s u a1 a2 a3 a4 a5 a6 T aspect d i j
  generalize (viewPoint eye dir s u T aspect d i j).xyz = p at *
  rw [C26_lookat_rh_rows eye center up h dir s u hd hs hu]
  simp only [V3.dot, V3.sub] at e1 e2 e3
  ext <;> simp [cglm, V3.dot] <;> linarith
private theorem move_lh (eye center up : V3 ℝ) (h : ViewFrame (center.sub eye) up) (dir s u : V3 ℝ)
    (hd : dir = (center.sub eye).unit) (hs : s = (up.cross dir).unit) (hu : u = dir.cross s) (T aspect d i j : ℝ) :
    glm_mat4_mulv3 (glm_lookat_lh eye center up) (viewPoint eye dir s u T aspect d i j).xyz 1 =
      ⟨i * (aspect * T * d), j * (T * d), d⟩ := by
  obtain ⟨a1, a2, a3, a4, a5, a6⟩ := frame_lh' eye center up dir s u h hd hs hu
  obtain ⟨e1, e2, e3⟩ := view_coords eye dir s u a1 a2 a3 a4 a5 a6 T aspect d i j
  generalize (viewPoint eye dir s u T aspect d i j).xyz = p at *
  rw [C26_lookat_lh_rows eye center up h dir s u hd hs hu]
  simp only [V3.dot, V3.sub] at e1 e2 e3
  ext <;> simp [cglm, V3.dot] <;> linarith

/-- right-handed, depth [-1,1]: the corners are those of the view volume -/
theorem C73_corners_rh_no (fovy aspect n f : ℝ) (h0 : 0 < fovy) (h1 : fovy < Real.pi) (ha : 0 < aspect) (hn : 0 < n) (hf : n < f)
    (eye center up : V3 ℝ) (h : ViewFrame (center.sub eye) up) (dir s u : V3 ℝ)
    (hd : dir = (center.sub eye).unit) (hs : s = (dir.cross up).unit) (hu : u = s.cross dir) :
    (glm_frustum_corners (glm_mat4_inv (glm_mat4_mul (glm_perspective_rh_no fovy aspect n f) (glm_lookat_rh eye center up)))).cols =
      viewCorners eye dir s u (Real.tan (fovy / 2)) aspect n f := by
  have hp : 0 < f - n := by linarith
  have hf0 : 0 < f := by linarith
  have ht := tan_half_pos h0 h1
  rw [rh_no, ← map_corners]
  refine corners_eq _ (C26_rigid_rh eye center up h).isometry _ _ (fun _ _ => rfl) ?_ _ _ (fun _ h => h)
    (persp_corners _ _ _ _ _ (by positivity) (by positivity) (by rw [neg_ne_zero]; positivity) (by norm_num) ?_ ?_ _
      (C26_rigid_rh eye center up h).isometry)
  · intro k hk
    rw [move_rh eye center up h dir s u hd hs hu, corner]
    generalize Real.tan (fovy / 2) = T at *
    rcases cube_z k hk with e | e
    · have ez : -(2 * n * f / (f - n)) / (-1 * (1 : ℝ) - -((f + n) / (f - n))) = -f := by
        rw [show -1 * (1 : ℝ) - -((f + n) / (f - n)) = 2 * n / (f - n) by field_simp; ring]; field_simp
      rw [e, ez]; ext <;> simp <;> field_simp
    · have ez : -(2 * n * f / (f - n)) / (-1 * (-1 : ℝ) - -((f + n) / (f - n))) = -n := by
        rw [show -1 * (-1 : ℝ) - -((f + n) / (f - n)) = 2 * f / (f - n) by field_simp; ring]; field_simp
      rw [e, ez, if_neg (by norm_num)]; ext <;> simp <;> field_simp
  · rw [show (-1 : ℝ) + -((f + n) / (f - n)) = -(2 * f / (f - n)) by field_simp; ring, neg_ne_zero]; positivity
  · rw [show (-1 : ℝ) - -((f + n) / (f - n)) = 2 * n / (f - n) by field_simp; ring]; positivity
/-- left-handed, depth [-1,1] -/
theorem C73_corners_lh_no (fovy aspect n f : ℝ) (h0 : 0 < fovy) (h1 : fovy < Real.pi) (ha : 0 < aspect) (hn : 0 < n) (hf : n < f)
    (eye center up : V3 ℝ) (h : ViewFrame (center.sub eye) up) (dir s u : V3 ℝ)
    (hd : dir = (center.sub eye).unit) (hs : s = (up.cross dir).unit) (hu : u = dir.cross s) :
    (glm_frustum_corners (glm_mat4_inv (glm_mat4_mul (glm_perspective_lh_no fovy aspect n f) (glm_lookat_lh eye center up)))).cols =
      viewCorners eye dir s u (Real.tan (fovy / 2)) aspect n f := by
  have hp : 0 < f - n := by linarith
  have hf0 : 0 < f := by linarith
  have ht := tan_half_pos h0 h1
  rw [lh_no, ← map_corners]
  refine corners_eq _ (C26_rigid_lh eye center up h).isometry _ _ (fun _ _ => rfl) ?_ _ _ (fun _ h => h)
    (persp_corners _ _ _ _ _ (by positivity) (by positivity) (by rw [neg_ne_zero]; positivity) (by norm_num) ?_ ?_ _
      (C26_rigid_lh eye center up h).isometry)
  · intro k hk
    rw [move_lh eye center up h dir s u hd hs hu, corner]
    generalize Real.tan (fovy / 2) = T at *
    rcases cube_z k hk with e | e
    · have ez : -(2 * n * f / (f - n)) / (1 * (1 : ℝ) - (f + n) / (f - n)) = f := by
        rw [show 1 * (1 : ℝ) - (f + n) / (f - n) = -(2 * n / (f - n)) by field_simp; ring]; field_simp
      rw [e, ez]; ext <;> simp <;> field_simp
    · have ez : -(2 * n * f / (f - n)) / (1 * (-1 : ℝ) - (f + n) / (f - n)) = n := by
        rw [show 1 * (-1 : ℝ) - (f + n) / (f - n) = -(2 * f / (f - n)) by field_simp; ring]; field_simp
      rw [e, ez, if_neg (by norm_num)]; ext <;> simp <;> field_simp
  · rw [show (1 : ℝ) + (f + n) / (f - n) = 2 * f / (f - n) by field_simp; ring]; positivity
  · rw [show (1 : ℝ) - (f + n) / (f - n) = -(2 * n / (f - n)) by field_simp; ring, neg_ne_zero]; positivity
/-- right-handed, depth [0,1]: the far corners are right; the near corners are at the depth `f n / (2 f - n)` -/
theorem C73_corners_rh_zo_partial (fovy aspect n f : ℝ) (h0 : 0 < fovy) (h1 : fovy < Real.pi) (ha : 0 < aspect) (hn : 0 < n)
    (hf : n < f) (eye center up : V3 ℝ) (h : ViewFrame (center.sub eye) up) (dir s u : V3 ℝ)
    (hd : dir = (center.sub eye).unit) (hs : s = (dir.cross up).unit) (hu : u = s.cross dir) :
    (glm_frustum_corners (glm_mat4_inv (glm_mat4_mul (glm_perspective_rh_zo fovy aspect n f) (glm_lookat_rh eye center up)))).cols =
      viewCorners eye dir s u (Real.tan (fovy / 2)) aspect (f * n / (2 * f - n)) f := by
  have hp : 0 < f - n := by linarith
  have hq : 0 < 2 * f - n := by linarith
  have hf0 : 0 < f := by linarith
  have ht := tan_half_pos h0 h1
  rw [rh_zo, ← map_corners]
  refine corners_eq _ (C26_rigid_rh eye center up h).isometry _ _ (fun _ _ => rfl) ?_ _ _ (fun _ h => h)
    (persp_corners _ _ _ _ _ (by positivity) (by positivity) (by rw [neg_ne_zero]; positivity) (by norm_num) ?_ ?_ _
      (C26_rigid_rh eye center up h).isometry)
  · intro k hk
    rw [move_rh eye center up h dir s u hd hs hu, corner]
    generalize Real.tan (fovy / 2) = T at *
    rcases cube_z k hk with e | e
    · have ez : -(n * f / (f - n)) / (-1 * (1 : ℝ) - -(f / (f - n))) = -f := by
        rw [show -1 * (1 : ℝ) - -(f / (f - n)) = n / (f - n) by field_simp; ring]; field_simp
      rw [e, ez]; ext <;> simp <;> field_simp
    · have ez : -(n * f / (f - n)) / (-1 * (-1 : ℝ) - -(f / (f - n))) = -(f * n / (2 * f - n)) := by
        rw [show -1 * (-1 : ℝ) - -(f / (f - n)) = (2 * f - n) / (f - n) by field_simp; ring]; field_simp
      rw [e, ez, if_neg (by norm_num)]; ext <;> simp <;> field_simp
  · rw [show (-1 : ℝ) + -(f / (f - n)) = -((2 * f - n) / (f - n)) by field_simp; ring, neg_ne_zero]; positivity
  · rw [show (-1 : ℝ) - -(f / (f - n)) = n / (f - n) by field_simp; ring]; positivity
/-- left-handed, depth [0,1] -/
theorem C73_corners_lh_zo_partial (fovy aspect n f : ℝ) (h0 : 0 < fovy) (h1 : fovy < Real.pi) (ha : 0 < aspect) (hn : 0 < n)
    (hf : n < f) (eye center up : V3 ℝ) (h : ViewFrame (center.sub eye) up) (dir s u : V3 ℝ)
    (hd : dir = (center.sub eye).unit) (hs : s = (up.cross dir).unit) (hu : u = dir.cross s) :
    (glm_frustum_corners (glm_mat4_inv (glm_mat4_mul (glm_perspective_lh_zo fovy aspect n f) (glm_lookat_lh eye center up)))).cols =
      viewCorners eye dir s u (Real.tan (fovy / 2)) aspect (f * n / (2 * f - n)) f := by
  have hp : 0 < f - n := by linarith
  have hq : 0 < 2 * f - n := by linarith
  have hf0 : 0 < f := by linarith
  have ht := tan_half_pos h0 h1
  rw [lh_zo, ← map_corners]
  refine corners_eq _ (C26_rigid_lh eye center up h).isometry _ _ (fun _ _ => rfl) ?_ _ _ (fun _ h => h)
    (persp_corners _ _ _ _ _ (by positivity) (by positivity) (by rw [neg_ne_zero]; positivity) (by norm_num) ?_ ?_ _
      (C26_rigid_lh eye center up h).isometry)
  · intro k hk
    rw [move_lh eye center up h dir s u hd hs hu, corner]
    generalize Real.tan (fovy / 2) = T at *
    rcases cube_z k hk with e | e
    · have ez : -(n * f / (f - n)) / (1 * (1 : ℝ) - f / (f - n)) = f := by
        rw [show 1 * (1 : ℝ) - f / (f - n) = -(n / (f - n)) by field_simp; ring]; field_simp
      rw [e, ez]; ext <;> simp <;> field_simp
    · have ez : -(n * f / (f - n)) / (1 * (-1 : ℝ) - f / (f - n)) = f * n / (2 * f - n) := by
        rw [show 1 * (-1 : ℝ) - f / (f - n) = -((2 * f - n) / (f - n)) by field_simp; ring]; field_simp
      rw [e, ez, if_neg (by norm_num)]; ext <;> simp <;> field_simp
  · rw [show (1 : ℝ) + f / (f - n) = (2 * f - n) / (f - n) by field_simp; ring]; positivity
  · rw [show (1 : ℝ) - f / (f - n) = -(n / (f - n)) by field_simp; ring, neg_ne_zero]; positivity

/-! ## splitting the view volume -/

private theorem edge_len (eye dir s u : V3 ℝ) (hd : dir.dot dir = 1) (hs : s.dot s = 1) (hu : u.dot u = 1) (hsd : s.dot dir = 0)
    (hsu : s.dot u = 0) (hud : u.dot dir = 0) (T aspect n f i j : ℝ) (hi : i * i = 1) (hj : j * j = 1) :
    ((viewPoint eye dir s u T aspect f i j).xyz.sub (viewPoint eye dir s u T aspect n i j).xyz).dot
      ((viewPoint eye dir s u T aspect f i j).xyz.sub (viewPoint eye dir s u T aspect n i j).xyz) =
      (f - n) * (f - n) * (1 + (aspect * T) * (aspect * T) + T * T) := by
  simp only [V3.dot] at hd hs hu hsd hsu hud
  simp only [viewPoint, V4.xyz, V3.hom, V3.add, V3.smul, V3.sub, V3.dot]
  linear_combination (f - n) ^ 2 * hd + (f - n) ^ 2 * (aspect * T) ^ 2 * (hi + i * i * (hs)) + (f - n) ^ 2 * T ^ 2 * (hj + j * j * hu) +
    2 * (f - n) ^ 2 * (i * aspect * T) * hsd + 2 * (f - n) ^ 2 * (j * T) * hud + 2 * (f - n) ^ 2 * (i * aspect * T) * (j * T) * hsu

/-- `glm_frustum_corners_at` applied to the corners of a view volume gives the four corners of its cross-section at the depth
`n + (f - n) * split / f` -/
theorem C73_split (eye dir s u : V3 ℝ) (hd : dir.dot dir = 1) (hs : s.dot s = 1) (hu : u.dot u = 1) (hsd : s.dot dir = 0)
    (hsu : s.dot u = 0) (hud : u.dot dir = 0) (T aspect n f split : ℝ) (hf : FLT_EPSILON ≤ f - n) (c : M8x4 ℝ)
    (hc : c.cols = viewCorners eye dir s u T aspect n f) :
    (glm_frustum_corners_at c split f).c0 = viewPoint eye dir s u T aspect (n + (f - n) * (split / f)) (-1) (-1) ∧
    (glm_frustum_corners_at c split f).c1 = viewPoint eye dir s u T aspect (n + (f - n) * (split / f)) (-1) 1 ∧
    (glm_frustum_corners_at c split f).c2 = viewPoint eye dir s u T aspect (n + (f - n) * (split / f)) 1 1 ∧
    (glm_frustum_corners_at c split f).c3 = viewPoint eye dir s u T aspect (n + (f - n) * (split / f)) 1 (-1) := by
  have hf0 : 0 < f - n := lt_of_lt_of_le FLT_EPSILON_pos hf
  have len3 : ∀ i j : ℝ, i * i = 1 → j * j = 1 →
      ((viewPoint eye dir s u T aspect f i j).xyz.sub (viewPoint eye dir s u T aspect n i j).xyz).len =
      Real.sqrt ((f - n) * (f - n) * (1 + (aspect * T) * (aspect * T) + T * T)) := by
    intro i j hi hj
    rw [V3.len, edge_len eye dir s u hd hs hu hsd hsu hud T aspect n f i j hi hj]
  have len4 : ∀ i j : ℝ, ((viewPoint eye dir s u T aspect f i j).addv ((viewPoint eye dir s u T aspect n i j).smul (-1))).len =
      ((viewPoint eye dir s u T aspect f i j).xyz.sub (viewPoint eye dir s u T aspect n i j).xyz).len := by
    intro i j
    unfold V4.len V3.len
    congr 1
    simp only [viewPoint, V4.addv, V4.smul, V4.xyz, V3.hom, V4.dot, V3.dot, V3.sub]
    ring
  have hge : FLT_EPSILON ≤ Real.sqrt ((f - n) * (f - n) * (1 + (aspect * T) * (aspect * T) + T * T)) := by
    refine hf.trans (Real.le_sqrt_of_sq_le ?_)
    nlinarith [mul_self_nonneg (aspect * T), mul_self_nonneg T, mul_self_nonneg ((f - n) * (aspect * T)),
      mul_self_nonneg ((f - n) * T)]
  simp only [M8x4.cols, viewCorners, List.cons.injEq, and_true] at hc
  obtain ⟨c0, c1, c2, c3, c4, c5, c6, c7⟩ := hc
  have key : ∀ (i j : ℝ), i * i = 1 → j * j = 1 → ∀ p,
      (viewPoint eye dir s u T aspect n i j, viewPoint eye dir s u T aspect f i j, p) ∈
        [(c.c0, c.c4, (glm_frustum_corners_at c split f).c0), (c.c1, c.c5, (glm_frustum_corners_at c split f).c1),
         (c.c2, c.c6, (glm_frustum_corners_at c split f).c2), (c.c3, c.c7, (glm_frustum_corners_at c split f).c3)] →
      p = viewPoint eye dir s u T aspect (n + (f - n) * (split / f)) i j := by
    intro i j hi hj p hp
    rw [C35_corners_at_partial c split f _ _ (by rw [len4, len3 i j hi hj]; exact hge)
      (by rw [len4, len3 i j hi hj, c6, c2, len3 1 1 (by norm_num) (by norm_num)]) p hp]
    ext <;> simp only [viewPoint, V4.addv, V4.smul, V3.hom, V3.add, V3.smul] <;> ring
  refine ⟨key _ _ (by norm_num) (by norm_num) _ ?_, key _ _ (by norm_num) (by norm_num) _ ?_,
    key _ _ (by norm_num) (by norm_num) _ ?_, key _ _ (by norm_num) (by norm_num) _ ?_⟩
  · rw [← c0, ← c4]; simp
  · rw [← c1, ← c5]; simp
  · rw [← c2, ← c6]; simp
  · rw [← c3, ← c7]; simp
/-- so the cross-section is at the requested depth only if `n = 0` or `split = f` -/
theorem C73_split_depth (n f split : ℝ) (hf : f ≠ 0) : n + (f - n) * (split / f) = split ↔ n = 0 ∨ split = f := by
  rw [show n + (f - n) * (split / f) = split + n * (f - split) / f by field_simp; ring]
  constructor
  · intro h
    have : n * (f - split) / f = 0 := by linarith
    rcases (div_eq_zero_iff.mp this).resolve_right hf |> mul_eq_zero.mp with h | h
    · exact .inl h
    · exact .inr (by linarith)
  · rintro (h | h) <;> rw [h] <;> simp

/-- the camera of C26 (eye at (0,0,5), looking at the origin) with near 1 and far 10: the frame is orthonormal -/
example : (⟨0, 0, -1⟩ : V3 ℝ).dot ⟨0, 0, -1⟩ = 1 ∧ (⟨1, 0, 0⟩ : V3 ℝ).dot ⟨1, 0, 0⟩ = 1 ∧ (⟨0, 1, 0⟩ : V3 ℝ).dot ⟨0, 1, 0⟩ = 1 ∧
    (⟨1, 0, 0⟩ : V3 ℝ).dot ⟨0, 0, -1⟩ = 0 ∧ (⟨1, 0, 0⟩ : V3 ℝ).dot ⟨0, 1, 0⟩ = 0 ∧ (⟨0, 1, 0⟩ : V3 ℝ).dot ⟨0, 0, -1⟩ = 0 ∧
    FLT_EPSILON ≤ (10 : ℝ) - 1 ∧
    viewPoint ⟨0, 0, 5⟩ ⟨0, 0, -1⟩ ⟨1, 0, 0⟩ ⟨0, 1, 0⟩ 1 2 3 1 (-1) = ⟨6, -3, 2, 1⟩ := by
  refine ⟨?_, ?_, ?_, ?_, ?_, ?_, by norm_num [FLT_EPSILON], ?_⟩
  all_goals first | (simp [V3.dot]; done) | (ext <;> norm_num [viewPoint, V3.hom, V3.add, V3.smul])

end Cglm
