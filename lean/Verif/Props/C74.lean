import Verif.ViewVolume
import Verif.Props.C24
import Verif.Props.C50

/-! # C74: histories of transform updates

A transform matrix is kept for a long time and updated in place.  `Step` lists the calls that update it; `Step.call` is the call and
`Step.spec` says what it does to the motion of points: local updates act before the motion so far, world updates after it.
The matrix after any history represents the composition. -/

namespace Cglm

/-- one update of a transform matrix -/
inductive Step
  | translate (v : V3 ℝ) | translate_x (x : ℝ) | translate_y (y : ℝ) | translate_z (z : ℝ)
  | scale (v : V3 ℝ) | scale_uni (s : ℝ)
  | rotate (angle : ℝ) (axis : V3 ℝ) | rotate_x (angle : ℝ) | rotate_y (angle : ℝ) | rotate_z (angle : ℝ)
  | rotate_at (pivot : V3 ℝ) (angle : ℝ) (axis : V3 ℝ)
  | quat_rotate (angle : ℝ) (axis : V3 ℝ)
  | mul (m : M4 ℝ)
  | translated (v : V3 ℝ) | translated_x (x : ℝ) | translated_y (y : ℝ) | translated_z (z : ℝ)
  | spinned (angle : ℝ) (axis : V3 ℝ)
  | premul (m : M4 ℝ)

/-- a motion of space -/
abbrev Motion := V3 ℝ → V3 ℝ
/-- what a matrix does to points -/
noncomputable def M4.motion (m : M4 ℝ) : Motion := fun p => glm_mat4_mulv3 m p 1
/-- rotation about the line through `c` with direction `axis` -/
noncomputable def turn (c : V3 ℝ) (angle : ℝ) (axis : V3 ℝ) : Motion := fun p => c.add (rodrigues angle axis.unit (p.sub c))

namespace Step

/-- the call of the library -/
noncomputable def call : Step → M4 ℝ → M4 ℝ
  | translate v, m => glm_translate m v
  | translate_x x, m => glm_translate_x m x
  | translate_y y, m => glm_translate_y m y
  | translate_z z, m => glm_translate_z m z
  | scale v, m => glm_scale m v
  | scale_uni s, m => glm_scale_uni m s
  | rotate angle axis, m => glm_rotate m angle axis
  | rotate_x angle, m => glm_rotate_x m angle
  | rotate_y angle, m => glm_rotate_y m angle
  | rotate_z angle, m => glm_rotate_z m angle
  | rotate_at pivot angle axis, m => glm_rotate_at m pivot angle axis
  | quat_rotate angle axis, m => glm_quat_rotate m (glm_quatv angle axis)
  | mul b, m => glm_mat4_mul m b
  | translated v, m => glm_translated m v
  | translated_x x, m => glm_translated_x m x
  | translated_y y, m => glm_translated_y m y
  | translated_z z, m => glm_translated_z m z
  | spinned angle axis, m => glm_spinned m angle axis
  | premul b, m => glm_mat4_mul b m

/-- what it means for the motion `g` that the matrix represented before -/
noncomputable def spec : Step → Motion → Motion
  | translate v, g => fun p => g (p.add v)
  | translate_x x, g => fun p => g (p.add ⟨x, 0, 0⟩)
  | translate_y y, g => fun p => g (p.add ⟨0, y, 0⟩)
  | translate_z z, g => fun p => g (p.add ⟨0, 0, z⟩)
  | scale v, g => fun p => g ⟨v.x * p.x, v.y * p.y, v.z * p.z⟩
  | scale_uni s, g => fun p => g (p.smul s)
  | rotate angle axis, g => fun p => g (rodrigues angle axis.unit p)
  | rotate_x angle, g => fun p => g (rodrigues angle ⟨1, 0, 0⟩ p)
  | rotate_y angle, g => fun p => g (rodrigues angle ⟨0, 1, 0⟩ p)
  | rotate_z angle, g => fun p => g (rodrigues angle ⟨0, 0, 1⟩ p)
  | rotate_at pivot angle axis, g => fun p => g (turn pivot angle axis p)
  | quat_rotate angle axis, g => fun p => g (rodrigues angle axis.unit p)
  | mul b, g => fun p => g (b.motion p)
  | translated v, g => fun p => (g p).add v
  | translated_x x, g => fun p => (g p).add ⟨x, 0, 0⟩
  | translated_y y, g => fun p => (g p).add ⟨0, y, 0⟩
  | translated_z z, g => fun p => (g p).add ⟨0, 0, z⟩
  | spinned angle axis, g => fun p => turn (g ⟨0, 0, 0⟩) angle axis (g p)
  | premul b, g => fun p => b.motion (g p)

/-- axes long enough to be normalized, affine factors -/
def Ok : Step → Prop
  | rotate _ axis | rotate_at _ _ axis | quat_rotate _ axis | spinned _ axis => FLT_EPSILON ≤ axis.len
  | mul b | premul b => b.Affine
  | _ => True

/-- the steps that move without scaling -/
def Rigid : Step → Prop
  | scale _ | scale_uni _ => False
  | mul b | premul b => b.Rigid
  | _ => True

/-- the factor by which a step multiplies distances; only for rigid and uniformly scaling steps -/
def Uniform : Step → Prop
  | scale _ => False
  | mul b | premul b => b.Rigid
  | _ => True
def factor : Step → ℝ
  | scale_uni s => |s|
  | _ => 1

end Step

/-- the matrix after a history -/
noncomputable def runSteps (h : List Step) (m : M4 ℝ) : M4 ℝ := h.foldl (fun m s => s.call m) m
/-- the motion after a history -/
noncomputable def specSteps (h : List Step) (g : Motion) : Motion := h.foldl (fun g s => s.spec g) g

/-! ## helper lemmas -/

private theorem affine_of_mul {r a b : M4 ℝ} (h : r.mat = a.mat * b.mat) (ha : a.Affine) (hb : b.Affine) : r.Affine := by
  obtain ⟨a0, a1, a2, a3⟩ := ha
  obtain ⟨b0, b1, b2, b3⟩ := hb
  have e := fun j => congrFun (congrFun h 3) j
  have e0 := e 0; have e1 := e 1; have e2 := e 2; have e3 := e 3
  simp [M4.mat, Matrix.mul_apply, Fin.sum_univ_succ, a0, a1, a2, a3, b0, b1, b2, b3] at e0 e1 e2 e3
  exact ⟨e0, e1, e2, e3⟩
private theorem motion_of_mul {r a b : M4 ℝ} (h : r.mat = a.mat * b.mat) (hb : b.Affine) (p : V3 ℝ) :
    r.motion p = a.motion (b.motion p) := by
  have hr : r = glm_mat4_mul a b := by rw [← M4.mat_inj, h, C01_mat4_mul]
  obtain ⟨b0, b1, b2, b3⟩ := hb
  rw [hr]
  unfold M4.motion
  ext <;> simp [cglm, b0, b1, b2, b3] <;> ring
private theorem rigid_of_mul {r a b : M4 ℝ} (h : r.mat = a.mat * b.mat) (ha : a.Rigid) (hb : b.Rigid) : r.Rigid := by
  refine ⟨?_, affine_of_mul h ha.2 hb.2⟩
  have hr : r = glm_mat4_mul a b := by rw [← M4.mat_inj, h, C01_mat4_mul]
  obtain ⟨hb', b0, b1, b2, b3⟩ := hb
  have e : r.block.mat = a.block.mat * b.block.mat := by
    rw [hr]
    ext i j
    fin_cases i <;> fin_cases j <;>
      simp [M3.mat, M4.block, Matrix.mul_apply, Fin.sum_univ_succ, cglm, b0, b1, b2] <;> ring
  unfold M3.IsRotation
  rw [e]
  exact mul_mem ha.1 hb'

private theorem trans_rigid (v : V3 ℝ) : (glm_translate_make v).Rigid := by
  refine ⟨?_, by simp [M4.Affine, cglm]⟩
  have : (glm_translate_make v).block.mat = 1 := by
    ext i j; fin_cases i <;> fin_cases j <;> simp [M3.mat, M4.block, cglm]
  unfold M3.IsRotation
  rw [this]
  exact one_mem _
private theorem trans_motion (v p : V3 ℝ) : (glm_translate_make v).motion p = p.add v := by
  unfold M4.motion
  ext <;> simp [cglm, V3.add]
private theorem rot_motion (θ : ℝ) (u p : V3 ℝ) : (rotMat θ u).toM4.motion p = rodrigues θ u p := by
  rw [← C20_apply]
  generalize rotMat θ u = r
  unfold M4.motion
  ext <;> simp [cglm, M3.toM4]
private theorem rot_rigid (θ : ℝ) (axis : V3 ℝ) (h : FLT_EPSILON ≤ axis.len) : (rotMat θ axis.unit).toM4.Rigid := by
  have := C20_rotation θ axis h
  rw [C20_rotate_make θ axis h] at this
  exact ⟨this, rfl, rfl, rfl, rfl⟩
private theorem unit_axes : (⟨1, 0, 0⟩ : V3 ℝ).unit = ⟨1, 0, 0⟩ ∧ (⟨0, 1, 0⟩ : V3 ℝ).unit = ⟨0, 1, 0⟩ ∧
    (⟨0, 0, 1⟩ : V3 ℝ).unit = ⟨0, 0, 1⟩ ∧ FLT_EPSILON ≤ (⟨1, 0, 0⟩ : V3 ℝ).len ∧ FLT_EPSILON ≤ (⟨0, 1, 0⟩ : V3 ℝ).len ∧
    FLT_EPSILON ≤ (⟨0, 0, 1⟩ : V3 ℝ).len := by
  have a : (⟨1, 0, 0⟩ : V3 ℝ).len = 1 := by rw [V3.len_eq_one]; simp [V3.dot]
  have b : (⟨0, 1, 0⟩ : V3 ℝ).len = 1 := by rw [V3.len_eq_one]; simp [V3.dot]
  have c : (⟨0, 0, 1⟩ : V3 ℝ).len = 1 := by rw [V3.len_eq_one]; simp [V3.dot]
  have e : FLT_EPSILON ≤ 1 := by norm_num [FLT_EPSILON]
  refine ⟨?_, ?_, ?_, by rw [a]; exact e, by rw [b]; exact e, by rw [c]; exact e⟩
  · rw [V3.unit, a]; simp [V3.smul]
  · rw [V3.unit, b]; simp [V3.smul]
  · rw [V3.unit, c]; simp [V3.smul]
/-- rotation about a point, as a matrix -/
private theorem about_mat (p : V3 ℝ) (θ : ℝ) (axis : V3 ℝ) (h : FLT_EPSILON ≤ axis.len) :
    ∃ b : M4 ℝ, b.Rigid ∧ b.mat = rotAboutMat p θ axis ∧ ∀ q, b.motion q = turn p θ axis q := by
  refine ⟨glm_mat4_mul (glm_mat4_mul (glm_translate_make p) (rotMat θ axis.unit).toM4) (glm_translate_make (p.smul (-1))), ?_, ?_, ?_⟩
  · exact rigid_of_mul (C01_mat4_mul _ _) (rigid_of_mul (C01_mat4_mul _ _) (trans_rigid _) (rot_rigid θ axis h)) (trans_rigid _)
  · rw [C01_mat4_mul, C01_mat4_mul, C19_translate_make, C19_translate_make, rotAboutMat]
  · intro q
    rw [motion_of_mul (C01_mat4_mul _ _) (trans_rigid _).2, motion_of_mul (C01_mat4_mul _ _) (rot_rigid θ axis h).2, trans_motion,
      trans_motion, rot_motion, turn]
    have : q.add (p.smul (-1)) = q.sub p := by ext <;> simp [V3.add, V3.sub, V3.smul] <;> ring
    rw [this]
    ext <;> simp [V3.add] <;> ring
private theorem pos_motion (m : M4 ℝ) : m.pos = m.motion ⟨0, 0, 0⟩ := by
  unfold M4.motion
  ext <;> simp [cglm, M4.pos]

/-- every step multiplies the matrix by an affine factor, on the right or on the left; the factor is rigid for rigid steps -/
private theorem step_factor (s : Step) (hs : s.Ok) (m : M4 ℝ) (hm : m.Affine) :
    (∃ b : M4 ℝ, b.Affine ∧ (s.Rigid → b.Rigid) ∧ (s.call m).mat = m.mat * b.mat ∧ ∀ p, s.spec m.motion p = m.motion (b.motion p)) ∨
    (∃ b : M4 ℝ, b.Affine ∧ (s.Rigid → b.Rigid) ∧ (s.call m).mat = b.mat * m.mat ∧ ∀ p, s.spec m.motion p = b.motion (m.motion p)) := by
  obtain ⟨u1, u2, u3, l1, l2, l3⟩ := unit_axes
  have sa : ∀ v : V3 ℝ, (glm_scale_make v).Affine := fun v => by simp [M4.Affine, cglm]
  have sm : ∀ v p : V3 ℝ, (glm_scale_make v).motion p = ⟨v.x * p.x, v.y * p.y, v.z * p.z⟩ := fun v p => by
    unfold M4.motion; ext <;> simp [cglm]
  cases s with
  | translate v =>
    exact .inl ⟨glm_translate_make v, (trans_rigid v).2, fun _ => trans_rigid v, by
      rw [C19_translate_make]; exact C19_translate m v, fun p => by rw [trans_motion]; rfl⟩
  | translate_x x =>
    exact .inl ⟨glm_translate_make ⟨x, 0, 0⟩, (trans_rigid _).2, fun _ => trans_rigid _, by
      rw [C19_translate_make]; exact C19_translate_x m x, fun p => by rw [trans_motion]; rfl⟩
  | translate_y x =>
    exact .inl ⟨glm_translate_make ⟨0, x, 0⟩, (trans_rigid _).2, fun _ => trans_rigid _, by
      rw [C19_translate_make]; exact C19_translate_y m x, fun p => by rw [trans_motion]; rfl⟩
  | translate_z x =>
    exact .inl ⟨glm_translate_make ⟨0, 0, x⟩, (trans_rigid _).2, fun _ => trans_rigid _, by
      rw [C19_translate_make]; exact C19_translate_z m x, fun p => by rw [trans_motion]; rfl⟩
  | scale v =>
    exact .inl ⟨glm_scale_make v, sa v, False.elim, by rw [C19_scale_make]; exact C19_scale m v, fun p => by rw [sm]; rfl⟩
  | scale_uni x =>
    exact .inl ⟨glm_scale_make ⟨x, x, x⟩, sa _, False.elim, by rw [C19_scale_make]; exact C19_scale_uni m x,
      fun p => by rw [sm]; rfl⟩
  | rotate θ axis =>
    exact .inl ⟨_, (rot_rigid θ axis hs).2, fun _ => rot_rigid θ axis hs, C19_rotate m θ axis hs, fun p => by rw [rot_motion]; rfl⟩
  | rotate_x θ =>
    have := rot_rigid θ _ l1; rw [u1] at this
    exact .inl ⟨_, this.2, fun _ => this, C19_rotate_x m θ, fun p => by rw [rot_motion]; rfl⟩
  | rotate_y θ =>
    have := rot_rigid θ _ l2; rw [u2] at this
    exact .inl ⟨_, this.2, fun _ => this, C19_rotate_y m θ, fun p => by rw [rot_motion]; rfl⟩
  | rotate_z θ =>
    have := rot_rigid θ _ l3; rw [u3] at this
    exact .inl ⟨_, this.2, fun _ => this, C19_rotate_z m θ, fun p => by rw [rot_motion]; rfl⟩
  | rotate_at piv θ axis =>
    obtain ⟨b, hb, e, k⟩ := about_mat piv θ axis hs
    exact .inl ⟨b, hb.2, fun _ => hb, by rw [e]; exact C24_rotate_at m piv θ axis hs, fun p => by rw [k]; rfl⟩
  | quat_rotate θ axis =>
    exact .inl ⟨_, (rot_rigid θ axis hs).2, fun _ => rot_rigid θ axis hs, by
      rw [← C12_rotation θ axis hs]; exact C12_rotate m _, fun p => by rw [rot_motion]; rfl⟩
  | mul b => exact .inl ⟨b, hs, id, C01_mat4_mul m b, fun p => rfl⟩
  | translated v =>
    exact .inr ⟨glm_translate_make v, (trans_rigid v).2, fun _ => trans_rigid v, by
      rw [C19_translate_make]; exact C19_translated m v hm, fun p => by rw [trans_motion]; rfl⟩
  | translated_x x =>
    exact .inr ⟨glm_translate_make ⟨x, 0, 0⟩, (trans_rigid _).2, fun _ => trans_rigid _, by
      rw [C19_translate_make]; exact C19_translated_x m x hm, fun p => by rw [trans_motion]; rfl⟩
  | translated_y x =>
    exact .inr ⟨glm_translate_make ⟨0, x, 0⟩, (trans_rigid _).2, fun _ => trans_rigid _, by
      rw [C19_translate_make]; exact C19_translated_y m x hm, fun p => by rw [trans_motion]; rfl⟩
  | translated_z x =>
    exact .inr ⟨glm_translate_make ⟨0, 0, x⟩, (trans_rigid _).2, fun _ => trans_rigid _, by
      rw [C19_translate_make]; exact C19_translated_z m x hm, fun p => by rw [trans_motion]; rfl⟩
  | spinned θ axis =>
    obtain ⟨b, hb, e, k⟩ := about_mat m.pos θ axis hs
    exact .inr ⟨b, hb.2, fun _ => hb, by rw [e]; exact C24_spinned m θ axis hs, fun p => by rw [k, pos_motion]; rfl⟩
  | premul b => exact .inr ⟨b, hs, id, C01_mat4_mul b m, fun p => rfl⟩

private theorem step_sound (s : Step) (hs : s.Ok) (m : M4 ℝ) (hm : m.Affine) :
    (s.call m).Affine ∧ (s.call m).motion = s.spec m.motion ∧ (s.Rigid → m.Rigid → (s.call m).Rigid) := by
  rcases step_factor s hs m hm with ⟨b, hb, hr, e, k⟩ | ⟨b, hb, hr, e, k⟩
  · exact ⟨affine_of_mul e hm hb, funext fun p => by rw [k, motion_of_mul e hb], fun h h' => rigid_of_mul e h' (hr h)⟩
  · exact ⟨affine_of_mul e hb hm, funext fun p => by rw [k, motion_of_mul e hm], fun h h' => rigid_of_mul e (hr h) h'⟩

/-! ## the properties -/

/-- after any history the matrix is affine and moves points as the composition of the steps says -/
theorem C74_history (h : List Step) (hh : ∀ s ∈ h, s.Ok) (m : M4 ℝ) (hm : m.Affine) :
    (runSteps h m).Affine ∧ ∀ p, glm_mat4_mulv3 (runSteps h m) p 1 = specSteps h (fun q => glm_mat4_mulv3 m q 1) p := by
  have : (runSteps h m).Affine ∧ (runSteps h m).motion = specSteps h m.motion := by
    induction h generalizing m with
    | nil => exact ⟨hm, rfl⟩
    | cons s h ih =>
      obtain ⟨a, e, -⟩ := step_sound s (hh s (by simp)) m hm
      have := ih (fun t ht => hh t (by simp [ht])) (s.call m) a
      rw [e] at this
      exact this
  exact ⟨this.1, fun p => congrFun this.2 p⟩

/-- a history of steps that do not scale leaves a rigid matrix -/
theorem C74_rigid (h : List Step) (hh : ∀ s ∈ h, s.Ok ∧ s.Rigid) (m : M4 ℝ) (hm : m.Rigid) : (runSteps h m).Rigid := by
  induction h generalizing m with
  | nil => exact hm
  | cons s h ih =>
    exact ih (fun t ht => hh t (by simp [ht])) (s.call m)
      ((step_sound s (hh s (by simp)).1 m hm.2).2.2 (hh s (by simp)).2 hm)
/-- so the fast inverse undoes the whole history -/
theorem C74_undo (h : List Step) (hh : ∀ s ∈ h, s.Ok ∧ s.Rigid) (m : M4 ℝ) (hm : m.Rigid) (p : V3 ℝ) :
    glm_mat4_mulv3 (glm_inv_tr (runSteps h m)) (glm_mat4_mulv3 (runSteps h m) p 1) 1 = p := by
  have hr := C74_rigid h hh m hm
  have e := motion_of_mul (r := glm_mat4_mul (glm_inv_tr (runSteps h m)) (runSteps h m)) (C01_mat4_mul _ _) hr.2 p
  have i : glm_mat4_mul (glm_inv_tr (runSteps h m)) (runSteps h m) = glm_mat4_identity := by
    rw [← M4.mat_inj, C01_mat4_mul, C22_inv_left _ hr.isometry]
    ext i j; fin_cases i <;> fin_cases j <;> simp [M4.mat, cglm]
  rw [i] at e
  exact e.symm.trans (by unfold M4.motion; ext <;> simp [cglm])

private theorem rodrigues_dist (θ : ℝ) (u p q : V3 ℝ) (hu : u.dot u = 1) :
    ((rodrigues θ u p).sub (rodrigues θ u q)).len = (p.sub q).len := by
  have hcs := Real.sin_sq_add_cos_sq θ
  unfold V3.len
  congr 1
  have e : (rodrigues θ u p).sub (rodrigues θ u q) = rodrigues θ u (p.sub q) := by
    ext <;> simp [rodrigues, V3.sub, V3.add, V3.smul, V3.cross, V3.dot] <;> ring
  rw [e]
  generalize p.sub q = v
  have hk := congrArg (fun t => t) hu
  simp only [rodrigues, V3.add, V3.smul, V3.cross, V3.dot] at *
  generalize Real.sin θ = S at *
  generalize Real.cos θ = C at *
  have hC : C ^ 2 = 1 - S ^ 2 := by linarith
  linear_combination (v.x ^ 2 + v.y ^ 2 + v.z ^ 2 ) * hcs + (S ^ 2 * (v.x ^ 2 + v.y ^ 2 + v.z ^ 2) +
    (1 - C) ^ 2 * (u.x * v.x + u.y * v.y + u.z * v.z) ^ 2) * hu - (u.x * v.x + u.y * v.y + u.z * v.z) ^ 2 * hcs
private theorem turn_dist (c axis : V3 ℝ) (θ : ℝ) (h : FLT_EPSILON ≤ axis.len) (p q : V3 ℝ) :
    ((turn c θ axis p).sub (turn c θ axis q)).len = (p.sub q).len := by
  have := rodrigues_dist θ axis.unit (p.sub c) (q.sub c) (V3.unit_dot _ h)
  have e1 : (p.sub c).sub (q.sub c) = p.sub q := by ext <;> simp [V3.sub]
  have e2 : (turn c θ axis p).sub (turn c θ axis q) =
      (rodrigues θ axis.unit (p.sub c)).sub (rodrigues θ axis.unit (q.sub c)) := by
    unfold turn; ext <;> simp [V3.sub, V3.add]
  rw [e2, this, e1]
private theorem add_dist (p q v : V3 ℝ) : ((p.add v).sub (q.add v)).len = (p.sub q).len := by
  congr 1; ext <;> simp [V3.sub, V3.add]
private theorem rigid_dist (b : M4 ℝ) (hb : b.Rigid) (p q : V3 ℝ) : ((b.motion p).sub (b.motion q)).len = (p.sub q).len := by
  obtain ⟨ho, -⟩ := hb.isometry
  rw [Matrix.mem_orthogonalGroup_iff'] at ho
  have e := fun i j => congrFun (congrFun ho i) j
  have e00 := e 0 0; have e01 := e 0 1; have e02 := e 0 2; have e11 := e 1 1; have e12 := e 1 2; have e22 := e 2 2
  simp [M3.mat, M4.block, Matrix.mul_apply, Fin.sum_univ_succ] at e00 e01 e02 e11 e12 e22
  unfold V3.len
  congr 1
  have : (b.motion p).sub (b.motion q) = ⟨b.c0.x * (p.x - q.x) + b.c1.x * (p.y - q.y) + b.c2.x * (p.z - q.z),
      b.c0.y * (p.x - q.x) + b.c1.y * (p.y - q.y) + b.c2.y * (p.z - q.z),
      b.c0.z * (p.x - q.x) + b.c1.z * (p.y - q.y) + b.c2.z * (p.z - q.z)⟩ := by
    unfold M4.motion; ext <;> simp [cglm, V3.sub] <;> ring
  rw [this]
  simp only [V3.dot, V3.sub]
  generalize p.x - q.x = x; generalize p.y - q.y = y; generalize p.z - q.z = z
  linear_combination x ^ 2 * e00 + 2 * x * y * e01 + 2 * x * z * e02 + y ^ 2 * e11 + 2 * y * z * e12 + z ^ 2 * e22
private theorem smul_dist (p q : V3 ℝ) (s : ℝ) : ((p.smul s).sub (q.smul s)).len = |s| * (p.sub q).len := by
  unfold V3.len
  rw [← Real.sqrt_sq_eq_abs, ← Real.sqrt_mul (sq_nonneg s)]
  congr 1
  simp only [V3.dot, V3.sub, V3.smul]; ring

private theorem spec_dist (s : Step) (hs : s.Ok) (hu : s.Uniform) (g : Motion) (k : ℝ)
    (hg : ∀ p q, ((g p).sub (g q)).len = k * (p.sub q).len) :
    ∀ p q, ((s.spec g p).sub (s.spec g q)).len = s.factor * k * (p.sub q).len := by
  have ax : ∀ u : V3 ℝ, u.dot u = 1 → ∀ θ p q, ((g (rodrigues θ u p)).sub (g (rodrigues θ u q))).len = 1 * k * (p.sub q).len :=
    fun u hu θ p q => by rw [hg, rodrigues_dist θ u p q hu, one_mul]
  intro p q
  cases s <;> simp only [Step.spec, Step.factor]
  case translate | translate_x | translate_y | translate_z => rw [hg, add_dist, one_mul]
  case translated | translated_x | translated_y | translated_z => rw [add_dist, hg, one_mul]
  case scale => exact hu.elim
  case scale_uni s => rw [hg, smul_dist]; ring
  case rotate θ axis | quat_rotate θ axis => exact ax _ (V3.unit_dot _ hs) θ p q
  case rotate_x θ => exact ax _ (by simp [V3.dot]) θ p q
  case rotate_y θ => exact ax _ (by simp [V3.dot]) θ p q
  case rotate_z θ => exact ax _ (by simp [V3.dot]) θ p q
  case rotate_at c θ axis => rw [hg, turn_dist c axis θ hs, one_mul]
  case spinned θ axis => rw [turn_dist _ axis θ hs, hg, one_mul]
  case mul b => rw [hg, rigid_dist b hu, one_mul]
  case premul b => rw [rigid_dist b hu, hg, one_mul]

/-- a history of rigid and uniformly scaling steps, starting from a rigid matrix, multiplies every distance by the product of
the scale factors (by 1 if there are none) -/
theorem C74_distance (h : List Step) (hh : ∀ s ∈ h, s.Ok ∧ s.Uniform) (m : M4 ℝ) (hm : m.Rigid) (p q : V3 ℝ) :
    ((glm_mat4_mulv3 (runSteps h m) p 1).sub (glm_mat4_mulv3 (runSteps h m) q 1)).len = (h.map Step.factor).prod * (p.sub q).len := by
  have hs := C74_history h (fun s hs => (hh s hs).1) m hm.2
  rw [hs.2, hs.2]
  have k : ∀ (h : List Step) (hh : ∀ s ∈ h, s.Ok ∧ s.Uniform) (g : Motion) (k : ℝ),
      (∀ p q, ((g p).sub (g q)).len = k * (p.sub q).len) →
      ∀ p q, ((specSteps h g p).sub (specSteps h g q)).len = (h.map Step.factor).prod * k * (p.sub q).len := by
    intro h
    induction h with
    | nil => intro _ g k hg p q; rw [List.map_nil, List.prod_nil, one_mul]; exact hg p q
    | cons s h ih =>
      intro hh g k hg p q
      have := ih (fun t ht => hh t (by simp [ht])) (s.spec g) (s.factor * k)
        (spec_dist s (hh s (by simp)).1 (hh s (by simp)).2 g k hg) p q
      rw [List.map_cons, List.prod_cons]
      refine Eq.trans ?_ (this.trans (by ring))
      rfl
  have := k h hh m.motion 1 (fun p q => by rw [rigid_dist m hm, one_mul]) p q
  rw [mul_one] at this
  exact this

/-- a history with local and world steps: its result on a point is the composition in the right order -/
example : specSteps [.translate ⟨1, 0, 0⟩, .scale_uni 2, .translated ⟨0, 0, 5⟩] id ⟨1, 1, 1⟩ = ⟨3, 2, 7⟩ := by
  ext <;> norm_num [specSteps, Step.spec, V3.add, V3.smul]
example : ∀ s ∈ [Step.translate ⟨1, 0, 0⟩, .rotate 1 ⟨0, 0, 2⟩, .spinned 2 ⟨0, 3, 0⟩, .premul glm_mat4_identity], s.Ok ∧ s.Rigid := by
  have e : ∀ x : ℝ, 1 ≤ x → FLT_EPSILON ≤ Real.sqrt (x * x) := fun x hx => by
    rw [Real.sqrt_mul_self (by linarith)]
    have : FLT_EPSILON ≤ 1 := by norm_num [FLT_EPSILON]
    linarith
  have i : (glm_mat4_identity : M4 ℝ).Rigid := by
    have := trans_rigid ⟨0, 0, 0⟩
    have e : (glm_mat4_identity : M4 ℝ) = glm_translate_make ⟨0, 0, 0⟩ := by ext <;> simp [cglm]
    rw [e]; exact this
  simp only [List.mem_cons, List.not_mem_nil, or_false, forall_eq_or_imp, forall_eq, Step.Ok, Step.Rigid, and_true, true_and]
  refine ⟨?_, ?_, i.2, i⟩
  · have := e 2 (by norm_num); rw [V3.len, V3.dot]; simpa using this
  · have := e 3 (by norm_num); rw [V3.len, V3.dot]; simpa using this

end Cglm
