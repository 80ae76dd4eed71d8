import Verif.Props.C11
import Verif.Props.C26

/-! # C70: quaternion view transforms and orientation from a direction

`ViewFrame dir up` (C26): the direction is at least `FLT_EPSILON` long and so is the cross product of
its unit vector with `up`. -/

namespace Cglm

private theorem look_eq (eye : V3 ℝ) (q : V4 ℝ) : let R := glm_quat_mat3 q
    glm_quat_look eye q = ⟨⟨R.c0.x, R.c1.x, R.c2.x, 0⟩, ⟨R.c0.y, R.c1.y, R.c2.y, 0⟩, ⟨R.c0.z, R.c1.z, R.c2.z, 0⟩,
      ⟨-R.c0.dot eye, -R.c1.dot eye, -R.c2.dot eye, 1⟩⟩ := by
  intro R
  unfold glm_quat_look
  rw [quat_mat4t_eq, C09_mat4, show glm_quat_mat3 q = R from rfl]
  clear_value R
  ext <;> simp [cglm, M3.toM4, V3.dot] <;> ring

/-- The view transform takes the eye to the origin. -/
theorem C70_look_eye (eye : V3 ℝ) (q : V4 ℝ) : glm_mat4_mulv3 (glm_quat_look eye q) eye 1 = ⟨0, 0, 0⟩ := by
  rw [look_eq]
  generalize glm_quat_mat3 q = R
  ext <;> simp only [cglm, V3.dot] <;> ring
/-- For a unit orientation: rotating the viewed point by the orientation and adding the eye gives the point back. -/
theorem C70_look_inverse (eye p : V3 ℝ) (q : V4 ℝ) (h : ‖q.quat‖ = 1) :
    (glm_quat_rotatev q (glm_mat4_mulv3 (glm_quat_look eye q) p 1)).add eye = p := by
  rw [C09_rotatev_mat3 q h, look_eq]
  have hr := (C09_rotation q h).eqs
  generalize glm_quat_mat3 q = R at *
  obtain ⟨-, -, -, -, -, -, h1, h2, h3, h4, h5, h6, -, -, -, -, -, -, -, -, -⟩ := hr
  ext <;> simp only [cglm, V3.dot, V3.add]
  · linear_combination (p.x - eye.x) * h1 + (p.y - eye.y) * h4 + (p.z - eye.z) * h5
  · linear_combination (p.x - eye.x) * h4 + (p.y - eye.y) * h2 + (p.z - eye.z) * h6
  · linear_combination (p.x - eye.x) * h5 + (p.y - eye.y) * h6 + (p.z - eye.z) * h3

/-- The orientation for a direction: its axes are the side, up and backward directions of the frame. -/
theorem C70_for (dir up : V3 ℝ) (h : ViewFrame dir up) (f s u : V3 ℝ) (hf : f = dir.unit) (hs : s = (f.cross up).unit)
    (hu : u = s.cross f) : ‖(glm_quat_for dir up).quat‖ = 1 ∧
      glm_quat_mat3 (glm_quat_for dir up) = ⟨s, u, ⟨-f.x, -f.y, -f.z⟩⟩ := by
  have e1 : f.dot f = 1 := by rw [hf]; exact V3.unit_dot _ h.1
  have e2 : s.dot s = 1 := by rw [hs, hf]; exact V3.unit_dot _ h.2
  have e3 : s.dot f = 0 := by rw [hs]; simp only [V3.unit, V3.smul, V3.dot, V3.cross]; ring
  have hq : glm_quat_for dir up = glm_mat3_quat ⟨s, u, ⟨-f.x, -f.y, -f.z⟩⟩ := by
    have n1 : glm_vec3_negate (glm_vec3_normalize_to dir) = ⟨-f.x, -f.y, -f.z⟩ := by
      rw [normalize_to_eq _ h.1, hf]; rfl
    have n2 : up.cross ⟨-f.x, -f.y, -f.z⟩ = f.cross up := by ext <;> simp only [V3.cross] <;> ring
    have n3 : V3.cross ⟨-f.x, -f.y, -f.z⟩ s = u := by rw [hu]; ext <;> simp only [V3.cross] <;> ring
    have n4 : glm_vec3_crossn up ⟨-f.x, -f.y, -f.z⟩ = s := by
      unfold glm_vec3_crossn
      rw [glm_vec3_cross_eq, n2, normalize_eq _ (by rw [hf]; exact h.2), hs]; rfl
    unfold glm_quat_for
    dsimp only
    rw [n1, n4, glm_vec3_cross_eq, n3]
  have hr : (⟨s, u, ⟨-f.x, -f.y, -f.z⟩⟩ : M3 ℝ).IsRotation := by
    rw [M3.isRotation_iff, hu]
    simp only [V3.dot, V3.cross] at *
    refine ⟨⟨?_, ?_, ?_, ?_, ?_, ?_⟩, ?_⟩
    · linear_combination e2
    · linear_combination (f.x*f.x+f.y*f.y+f.z*f.z) * e2 + e1 - (s.x*f.x+s.y*f.y+s.z*f.z) * e3
    · linear_combination e1
    · ring
    · linear_combination -e3
    · ring
    · linear_combination (f.x*f.x+f.y*f.y+f.z*f.z) * e2 + e1 - (s.x*f.x+s.y*f.y+s.z*f.z) * e3
  rw [hq]
  exact C11_mat3 _ hr

/-- so it turns the forward axis (0, 0, -1) into the unit direction, the x axis into the side direction and the y axis
into the up direction -/
theorem C70_for_axes (dir up : V3 ℝ) (h : ViewFrame dir up) (f s u : V3 ℝ) (hf : f = dir.unit) (hs : s = (f.cross up).unit)
    (hu : u = s.cross f) : glm_quat_rotatev (glm_quat_for dir up) ⟨0, 0, -1⟩ = f ∧
      glm_quat_rotatev (glm_quat_for dir up) ⟨1, 0, 0⟩ = s ∧ glm_quat_rotatev (glm_quat_for dir up) ⟨0, 1, 0⟩ = u := by
  obtain ⟨h1, h2⟩ := C70_for dir up h f s u hf hs hu
  simp only [C09_rotatev_mat3 _ h1, h2]
  refine ⟨?_, ?_, ?_⟩ <;> ext <;> simp [cglm]

/-- the up direction of the result is on the side of the given up vector -/
theorem C70_for_up (dir up : V3 ℝ) (h : ViewFrame dir up) : 0 < (glm_quat_rotatev (glm_quat_for dir up) ⟨0, 1, 0⟩).dot up := by
  rw [(C70_for_axes dir up h _ _ _ rfl rfl rfl).2.2]
  have hl : 0 < (dir.unit.cross up).len := lt_of_lt_of_le FLT_EPSILON_pos h.2
  have e : ((dir.unit.cross up).unit.cross dir.unit).dot up = (dir.unit.cross up).len := by
    have := V3.len_sq (dir.unit.cross up)
    generalize dir.unit = f at *
    have k : ((f.cross up).unit.cross f).dot up = (f.cross up).dot (f.cross up) * (1 / (f.cross up).len) := by
      unfold V3.unit
      generalize 1 / (f.cross up).len = r
      simp only [V3.smul, V3.dot, V3.cross]; ring
    rw [k, ← this]; field_simp
  rw [e]; exact hl

/-- `glm_quat_forp` is `glm_quat_for` along the way from one point to the other -/
theorem C70_forp (frm tgt up : V3 ℝ) (h : ViewFrame (tgt.sub frm) up) :
    glm_quat_rotatev (glm_quat_forp frm tgt up) ⟨0, 0, -1⟩ = (tgt.sub frm).unit := by
  have : glm_quat_forp frm tgt up = glm_quat_for (tgt.sub frm) up := by
    unfold glm_quat_forp
    rw [show glm_vec3_sub tgt frm = tgt.sub frm by ext <;> simp only [cglm, V3.sub]]
  rw [this]; exact (C70_for_axes _ _ h _ _ _ rfl rfl rfl).1

/-- The quaternion view of the orientation for a direction is the right-handed look matrix. -/
theorem C70_look_for (eye dir up : V3 ℝ) (h : ViewFrame dir up) :
    glm_quat_look eye (glm_quat_for dir up) = glm_look_rh eye dir up := by
  rw [(C26_look' eye dir up).1]
  have hd : (eye.add dir).sub eye = dir := by ext <;> simp [V3.add, V3.sub]
  rw [C26_lookat_rh_rows eye _ up (by rw [hd]; exact h) dir.unit _ _ (by rw [hd]) rfl rfl, look_eq,
    (C70_for dir up h _ _ _ rfl rfl rfl).2]
  ext <;> simp [V3.dot] <;> ring

example : ViewFrame ⟨0, 0, -2⟩ ⟨0, 1, 0⟩ := by
  have l : (⟨0, 0, -2⟩ : V3 ℝ).len = 2 := by
    rw [V3.len, show (⟨0, 0, -2⟩ : V3 ℝ).dot ⟨0, 0, -2⟩ = 2 ^ 2 by norm_num [V3.dot], Real.sqrt_sq (by norm_num)]
  have u : (⟨0, 0, -2⟩ : V3 ℝ).unit = ⟨0, 0, -1⟩ := by rw [V3.unit, l]; ext <;> norm_num [V3.smul]
  have c : (V3.cross ⟨0, 0, -1⟩ ⟨0, 1, 0⟩ : V3 ℝ) = ⟨1, 0, 0⟩ := by ext <;> norm_num [V3.cross]
  have l' : (⟨1, 0, 0⟩ : V3 ℝ).len = 1 := V3.len_eq_one.mpr (by norm_num [V3.dot])
  constructor
  · rw [l]; norm_num [FLT_EPSILON]
  · rw [u, c, l']; norm_num [FLT_EPSILON]

end Cglm
