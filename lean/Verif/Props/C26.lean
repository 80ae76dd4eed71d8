import Verif.Props.C12
import Verif.Props.C22

/-! # C26: view matrices

`dir = center - eye` must be at least `FLT_EPSILON` long, and so must the cross product of its unit vector with `up`
(the code normalizes both); otherwise the frame is degenerate. -/

namespace Cglm

/-- the viewing direction and `up` span a plane, with the thresholds of the code -/
def ViewFrame (dir up : V3 ℝ) : Prop := FLT_EPSILON ≤ dir.len ∧ FLT_EPSILON ≤ (dir.unit.cross up).len

private theorem cross_len_comm (a b : V3 ℝ) : (a.cross b).len = (b.cross a).len := by
  unfold V3.len V3.dot V3.cross; congr 1; simp only; ring
private theorem sub_eq (a b : V3 ℝ) : glm_vec3_sub a b = a.sub b := by ext <;> simp [cglm, V3.sub]

/-- the three directions of the frame -/
private theorem frame_eqs {dir up : V3 ℝ} (h : ViewFrame dir up) :
    dir.unit.dot dir.unit = 1 ∧ (dir.unit.cross up).unit.dot (dir.unit.cross up).unit = 1 ∧
      (dir.unit.cross up).unit.dot dir.unit = 0 := by
  refine ⟨V3.unit_dot _ h.1, V3.unit_dot _ h.2, ?_⟩
  simp only [V3.unit, V3.smul, V3.dot, V3.cross]; ring

/-- right-handed: the rows are side, up and backward direction -/
theorem C26_lookat_rh_rows (eye center up : V3 ℝ) (h : ViewFrame (center.sub eye) up) (f s u : V3 ℝ)
    (hf : f = (center.sub eye).unit) (hs : s = (f.cross up).unit) (hu : u = s.cross f) :
    glm_lookat_rh eye center up = ⟨⟨s.x, u.x, -f.x, 0⟩, ⟨s.y, u.y, -f.y, 0⟩, ⟨s.z, u.z, -f.z, 0⟩,
      ⟨-s.dot eye, -u.dot eye, f.dot eye, 1⟩⟩ := by
  subst hu hs hf
  unfold glm_lookat_rh glm_vec3_crossn
  simp only [sub_eq, glm_vec3_cross_eq, glm_vec3_dot_eq, normalize_eq _ h.1, lit_zero, lit_one]
  rw [show (center.sub eye).smul (1 / (center.sub eye).len) = (center.sub eye).unit from rfl, normalize_eq _ h.2]
  rfl
/-- left-handed: the rows are side, up and forward direction -/
theorem C26_lookat_lh_rows (eye center up : V3 ℝ) (h : ViewFrame (center.sub eye) up) (f s u : V3 ℝ)
    (hf : f = (center.sub eye).unit) (hs : s = (up.cross f).unit) (hu : u = f.cross s) :
    glm_lookat_lh eye center up = ⟨⟨s.x, u.x, f.x, 0⟩, ⟨s.y, u.y, f.y, 0⟩, ⟨s.z, u.z, f.z, 0⟩,
      ⟨-s.dot eye, -u.dot eye, -f.dot eye, 1⟩⟩ := by
  subst hu hs hf
  unfold glm_lookat_lh glm_vec3_crossn
  simp only [sub_eq, glm_vec3_cross_eq, glm_vec3_dot_eq, normalize_eq _ h.1, lit_zero, lit_one]
  rw [show (center.sub eye).smul (1 / (center.sub eye).len) = (center.sub eye).unit from rfl,
    normalize_eq _ (by rw [cross_len_comm]; exact h.2)]
  rfl

/-- the eye goes to the origin (degenerate frames included) -/
theorem C26_eye_rh (eye center up : V3 ℝ) : glm_mat4_mulv3 (glm_lookat_rh eye center up) eye 1 = ⟨0, 0, 0⟩ := by
  unfold glm_lookat_rh
  generalize glm_vec3_normalize (glm_vec3_sub center eye) = f
  simp only
  generalize glm_vec3_crossn f up = s
  generalize glm_vec3_cross s f = u
  ext <;> simp [cglm] <;> ring
theorem C26_eye_lh (eye center up : V3 ℝ) : glm_mat4_mulv3 (glm_lookat_lh eye center up) eye 1 = ⟨0, 0, 0⟩ := by
  unfold glm_lookat_lh
  generalize glm_vec3_normalize (glm_vec3_sub center eye) = f
  simp only
  generalize glm_vec3_crossn up f = s
  generalize glm_vec3_cross f s = u
  ext <;> simp [cglm] <;> ring

/-- a rigid transform -/
theorem C26_rigid_rh (eye center up : V3 ℝ) (h : ViewFrame (center.sub eye) up) : (glm_lookat_rh eye center up).Rigid := by
  rw [C26_lookat_rh_rows eye center up h _ _ _ rfl rfl rfl]
  obtain ⟨h1, h2, h3⟩ := frame_eqs h
  generalize (center.sub eye).unit = f at *
  generalize (f.cross up).unit = s at *
  refine ⟨?_, rfl, rfl, rfl, rfl⟩
  rw [M3.IsRotation, Matrix.mem_specialOrthogonalGroup_iff, Matrix.mem_orthogonalGroup_iff]
  simp only [V3.dot] at h1 h2 h3
  constructor
  · ext i j
    fin_cases i <;> fin_cases j <;> simp [M4.block, M3.mat, V3.cross, Matrix.mul_apply, Fin.sum_univ_succ]
    · linear_combination h2
    · ring
    · linear_combination -h3
    · ring
    · linear_combination (f.x*f.x+f.y*f.y+f.z*f.z) * h2 + h1 - (s.x*f.x+s.y*f.y+s.z*f.z) * h3
    · ring
    · linear_combination -h3
    · ring
    · linear_combination h1
  · simp [M4.block, M3.mat, V3.cross, Matrix.det_fin_three]
    linear_combination (f.x*f.x+f.y*f.y+f.z*f.z) * h2 + h1 - (s.x*f.x+s.y*f.y+s.z*f.z) * h3
theorem C26_rigid_lh (eye center up : V3 ℝ) (h : ViewFrame (center.sub eye) up) : (glm_lookat_lh eye center up).Rigid := by
  rw [C26_lookat_lh_rows eye center up h _ _ _ rfl rfl rfl]
  have h1 := V3.unit_dot _ h.1
  have h2 := V3.unit_dot (up.cross (center.sub eye).unit) (by rw [cross_len_comm]; exact h.2)
  have h3 : (up.cross (center.sub eye).unit).unit.dot (center.sub eye).unit = 0 := by
    simp only [V3.unit, V3.smul, V3.dot, V3.cross]; ring
  generalize (center.sub eye).unit = f at *
  generalize (up.cross f).unit = s at *
  refine ⟨?_, rfl, rfl, rfl, rfl⟩
  rw [M3.IsRotation, Matrix.mem_specialOrthogonalGroup_iff, Matrix.mem_orthogonalGroup_iff]
  simp only [V3.dot] at h1 h2 h3
  constructor
  · ext i j
    fin_cases i <;> fin_cases j <;> simp [M4.block, M3.mat, V3.cross, Matrix.mul_apply, Fin.sum_univ_succ]
    · linear_combination h2
    · ring
    · linear_combination h3
    · ring
    · linear_combination (f.x*f.x+f.y*f.y+f.z*f.z) * h2 + h1 - (s.x*f.x+s.y*f.y+s.z*f.z) * h3
    · ring
    · linear_combination h3
    · ring
    · linear_combination h1
  · simp [M4.block, M3.mat, V3.cross, Matrix.det_fin_three]
    linear_combination (f.x*f.x+f.y*f.y+f.z*f.z) * h2 + h1 - (s.x*f.x+s.y*f.y+s.z*f.z) * h3

private theorem unit_dot_self (v : V3 ℝ) (h : FLT_EPSILON ≤ v.len) : v.unit.dot v = v.len := by
  have hl : 0 < v.len := lt_of_lt_of_le FLT_EPSILON_pos h
  have := v.len_sq
  simp only [V3.unit, V3.smul, V3.dot] at *
  field_simp
  linarith

/-- the looked-at point goes to the negative z axis, at its distance from the eye -/
theorem C26_center_rh (eye center up : V3 ℝ) (h : ViewFrame (center.sub eye) up) :
    glm_mat4_mulv3 (glm_lookat_rh eye center up) center 1 = ⟨0, 0, -(center.sub eye).len⟩ := by
  rw [C26_lookat_rh_rows eye center up h _ _ _ rfl rfl rfl]
  obtain ⟨-, -, h3⟩ := frame_eqs h
  have hl : 0 < (center.sub eye).len := lt_of_lt_of_le FLT_EPSILON_pos h.1
  have h4 := unit_dot_self _ h.1
  have h5 : (center.sub eye) = (center.sub eye).unit.smul (center.sub eye).len := by
    ext <;> simp only [V3.unit, V3.smul] <;> field_simp
  generalize ((center.sub eye).unit.cross up).unit = s at *
  generalize (center.sub eye).unit = f at *
  generalize (center.sub eye).len = l at *
  rw [V3.ext_iff] at h5
  obtain ⟨ex, ey, ez⟩ := h5
  simp only [V3.sub, V3.smul, V3.dot] at *
  ext <;> simp [cglm, V3.dot, V3.cross]
  · linear_combination s.x * ex + s.y * ey + s.z * ez + l * h3
  · linear_combination (s.y*f.z-s.z*f.y) * ex + (s.z*f.x-s.x*f.z) * ey + (s.x*f.y-s.y*f.x) * ez
  · linear_combination -h4
/-- left-handed: the positive z axis -/
theorem C26_center_lh (eye center up : V3 ℝ) (h : ViewFrame (center.sub eye) up) :
    glm_mat4_mulv3 (glm_lookat_lh eye center up) center 1 = ⟨0, 0, (center.sub eye).len⟩ := by
  rw [C26_lookat_lh_rows eye center up h _ _ _ rfl rfl rfl]
  have h3 : (up.cross (center.sub eye).unit).unit.dot (center.sub eye).unit = 0 := by
    simp only [V3.unit, V3.smul, V3.dot, V3.cross]; ring
  have hl : 0 < (center.sub eye).len := lt_of_lt_of_le FLT_EPSILON_pos h.1
  have h4 := unit_dot_self _ h.1
  have h5 : (center.sub eye) = (center.sub eye).unit.smul (center.sub eye).len := by
    ext <;> simp only [V3.unit, V3.smul] <;> field_simp
  generalize (up.cross (center.sub eye).unit).unit = s at *
  generalize (center.sub eye).unit = f at *
  generalize (center.sub eye).len = l at *
  rw [V3.ext_iff] at h5
  obtain ⟨ex, ey, ez⟩ := h5
  simp only [V3.sub, V3.smul, V3.dot] at *
  ext <;> simp [cglm, V3.dot, V3.cross]
  · linear_combination s.x * ex + s.y * ey + s.z * ez + l * h3
  · linear_combination (f.y*s.z-f.z*s.y) * ex + (f.z*s.x-f.x*s.z) * ey + (f.x*s.y-f.y*s.x) * ez
  · linear_combination h4

/-- the up direction stays in the y-z plane, in its upper half -/
theorem C26_up_rh (eye center up : V3 ℝ) (h : ViewFrame (center.sub eye) up) :
    (glm_mat4_mulv3 (glm_lookat_rh eye center up) up 0).x = 0 ∧
    (glm_mat4_mulv3 (glm_lookat_rh eye center up) up 0).y = ((center.sub eye).unit.cross up).len := by
  rw [C26_lookat_rh_rows eye center up h _ _ _ rfl rfl rfl]
  have hl := unit_dot_self _ h.2
  constructor
  · simp [cglm, V3.unit, V3.smul, V3.cross]; ring
  · rw [← hl]
    generalize ((center.sub eye).unit.cross up).unit = s at *
    simp [cglm, V3.dot, V3.cross]; ring
theorem C26_up_lh (eye center up : V3 ℝ) (h : ViewFrame (center.sub eye) up) :
    (glm_mat4_mulv3 (glm_lookat_lh eye center up) up 0).x = 0 ∧
    (glm_mat4_mulv3 (glm_lookat_lh eye center up) up 0).y = ((center.sub eye).unit.cross up).len := by
  rw [C26_lookat_lh_rows eye center up h _ _ _ rfl rfl rfl]
  have hl := unit_dot_self (up.cross (center.sub eye).unit) (by rw [cross_len_comm]; exact h.2)
  constructor
  · simp [cglm, V3.unit, V3.smul, V3.cross]; ring
  · rw [cross_len_comm, ← hl]
    generalize (up.cross (center.sub eye).unit).unit = s at *
    simp [cglm, V3.dot, V3.cross]; ring

/-- `look` is `lookat` with `dir = center - eye` -/
theorem C26_look (eye center up : V3 ℝ) :
    glm_look_rh eye (center.sub eye) up = glm_lookat_rh eye center up ∧
    glm_look_lh eye (center.sub eye) up = glm_lookat_lh eye center up := by
  have : glm_vec3_add eye (center.sub eye) = center := by ext <;> simp [cglm, V3.sub]
  simp only [glm_look_rh, glm_look_lh, this, and_self]
theorem C26_look' (eye dir up : V3 ℝ) :
    glm_look_rh eye dir up = glm_lookat_rh eye (eye.add dir) up ∧
    glm_look_lh eye dir up = glm_lookat_lh eye (eye.add dir) up := by
  have : glm_vec3_add eye dir = eye.add dir := by ext <;> simp [cglm, V3.add]
  simp only [glm_look_rh, glm_look_lh, this, and_self]

/-- `look_anyup`: any up vector the code finds that is not parallel works -/
theorem C26_anyup (eye dir : V3 ℝ) (h : ViewFrame dir (glm_vec3_ortho dir)) :
    (glm_look_anyup_rh eye dir).Rigid ∧ (glm_look_anyup_lh eye dir).Rigid ∧
    glm_mat4_mulv3 (glm_look_anyup_rh eye dir) dir 0 = ⟨0, 0, -dir.len⟩ ∧
    glm_mat4_mulv3 (glm_look_anyup_lh eye dir) dir 0 = ⟨0, 0, dir.len⟩ := by
  have e : (eye.add dir).sub eye = dir := by ext <;> simp [V3.add, V3.sub]
  rw [← e] at h
  unfold glm_look_anyup_rh glm_look_anyup_lh
  simp only [(C26_look' _ _ _).1, (C26_look' _ _ _).2]
  rw [e] at h
  have h' : ViewFrame ((eye.add dir).sub eye) (glm_vec3_ortho dir) := by rw [e]; exact h
  refine ⟨C26_rigid_rh _ _ _ h', C26_rigid_lh _ _ _ h', ?_, ?_⟩
  · have a := C26_center_rh eye _ _ h'
    have b := C26_eye_rh eye (eye.add dir) (glm_vec3_ortho dir)
    rw [e] at a
    generalize glm_lookat_rh eye (eye.add dir) (glm_vec3_ortho dir) = m at *
    rw [V3.ext_iff] at a b
    simp [cglm, V3.add] at a b
    obtain ⟨a1, a2, a3⟩ := a; obtain ⟨b1, b2, b3⟩ := b
    ext <;> simp [cglm] <;> linarith
  · have a := C26_center_lh eye _ _ h'
    have b := C26_eye_lh eye (eye.add dir) (glm_vec3_ortho dir)
    rw [e] at a
    generalize glm_lookat_lh eye (eye.add dir) (glm_vec3_ortho dir) = m at *
    rw [V3.ext_iff] at a b
    simp [cglm, V3.add] at a b
    obtain ⟨a1, a2, a3⟩ := a; obtain ⟨b1, b2, b3⟩ := b
    ext <;> simp [cglm] <;> linarith
/-- But the vector it picks can be zero for a non-zero direction; the view matrix is then singular.
Witness: dir = (1/4, 0, 1/3). -/
theorem C26_anyup_refuted : ∃ dir : V3 ℝ, 1 / 3 ≤ dir.len ∧ glm_vec3_ortho dir = ⟨0, 0, 0⟩ ∧
    ∀ eye, (glm_look_anyup_rh eye dir).c0.x = 0 ∧ (glm_look_anyup_rh eye dir).c1.x = 0 ∧
      (glm_look_anyup_rh eye dir).c2.x = 0 := by
  have ho : glm_vec3_ortho (⟨1 / 4, 0, 1 / 3⟩ : V3 ℝ) = ⟨0, 0, 0⟩ := by
    have h1 : |(1 / 4 : ℝ)| = 1 / 4 := abs_of_pos (by norm_num)
    have h2 : ⌊(3 / 4 : ℝ)⌋ = 0 := by rw [Int.floor_eq_iff]; norm_num
    ext <;> simp [cglm, rtrunc]
    norm_num [h1, h2]
  refine ⟨⟨1 / 4, 0, 1 / 3⟩, ?_, ho, ?_⟩
  · unfold V3.len V3.dot
    apply Real.le_sqrt_of_sq_le
    norm_num
  · intro eye
    have hz : ∀ f : V3 ℝ, glm_vec3_crossn f ⟨0, 0, 0⟩ = ⟨0, 0, 0⟩ := by
      intro f
      unfold glm_vec3_crossn
      rw [glm_vec3_cross_eq]
      have : f.cross ⟨0, 0, 0⟩ = ⟨0, 0, 0⟩ := by simp [V3.cross]
      rw [this]
      exact normalize_small _ (by simp [V3.len, V3.dot, FLT_EPSILON_pos])
    unfold glm_look_anyup_rh glm_look_rh glm_lookat_rh
    rw [ho]
    simp only [hz, and_self]

/-- the convention-specific entry points are the same functions -/
theorem C26_variants (e c u : V3 ℝ) :
    glm_lookat e c u = glm_lookat_rh e c u ∧ glm_lookat_rh_no e c u = glm_lookat_rh e c u ∧
    glm_lookat_rh_zo e c u = glm_lookat_rh e c u ∧ glm_lookat_lh_no e c u = glm_lookat_lh e c u ∧
    glm_lookat_lh_zo e c u = glm_lookat_lh e c u ∧ glm_look e c u = glm_look_rh e c u ∧
    glm_look_rh_no e c u = glm_look_rh e c u ∧ glm_look_rh_zo e c u = glm_look_rh e c u ∧
    glm_look_lh_no e c u = glm_look_lh e c u ∧ glm_look_lh_zo e c u = glm_look_lh e c u ∧
    glm_look_anyup e c = glm_look_anyup_rh e c ∧ glm_look_anyup_rh_no e c = glm_look_anyup_rh e c ∧
    glm_look_anyup_rh_zo e c = glm_look_anyup_rh e c ∧ glm_look_anyup_lh_no e c = glm_look_anyup_lh e c ∧
    glm_look_anyup_lh_zo e c = glm_look_anyup_lh e c :=
  ⟨rfl, rfl, rfl, rfl, rfl, rfl, rfl, rfl, rfl, rfl, rfl, rfl, rfl, rfl, rfl⟩

/-- a camera at (0,0,5) looking at the origin, y up -/
example : ViewFrame ((⟨0, 0, 0⟩ : V3 ℝ).sub ⟨0, 0, 5⟩) ⟨0, 1, 0⟩ := by
  have h : ((⟨0, 0, 0⟩ : V3 ℝ).sub ⟨0, 0, 5⟩).len = 5 := by
    rw [V3.len, V3.dot, show ((⟨0, 0, 0⟩ : V3 ℝ).sub ⟨0, 0, 5⟩) = ⟨0, 0, -5⟩ by simp [V3.sub],
      show (0 * 0 + 0 * 0 + -5 * -5 : ℝ) = 5 ^ 2 by norm_num, Real.sqrt_sq (by norm_num)]
  refine ⟨by rw [h]; norm_num [FLT_EPSILON], ?_⟩
  have : (((⟨0, 0, 0⟩ : V3 ℝ).sub ⟨0, 0, 5⟩).unit.cross ⟨0, 1, 0⟩).len = 1 := by
    rw [V3.len_eq_one, V3.unit, h]; norm_num [V3.dot, V3.cross, V3.sub, V3.smul]
  rw [this]; norm_num [FLT_EPSILON]

end Cglm
