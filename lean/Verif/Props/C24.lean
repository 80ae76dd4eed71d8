import Verif.Props.C19
import Verif.Props.C22

/-! # C24: rotation about a point, spinning -/

namespace Cglm

/-- rotation by `θ` about the line through `p` with direction `axis` -/
noncomputable def rotAboutMat (p : V3 ℝ) (θ : ℝ) (axis : V3 ℝ) : Matrix (Fin 4) (Fin 4) ℝ :=
  transMat p * (rotMat θ axis.unit).toM4.mat * transMat (p.smul (-1))
/-- the position of an object: the image of the origin -/
def M4.pos (m : M4 ℝ) : V3 ℝ := ⟨m.c3.x, m.c3.y, m.c3.z⟩

/-- `glm_rotate_at`: translate, rotate, translate back -/
theorem C24_rotate_at (m : M4 ℝ) (p : V3 ℝ) (θ : ℝ) (axis : V3 ℝ) (h : FLT_EPSILON ≤ axis.len) :
    (glm_rotate_at m p θ axis).mat = m.mat * rotAboutMat p θ axis := by
  unfold glm_rotate_at
  simp only
  rw [C19_translate, C19_rotate _ _ _ h, C19_translate, rotAboutMat]
  have : glm_vec3_negate_to p = p.smul (-1) := by ext <;> simp [cglm, V3.smul]
  rw [this]
  simp only [mul_assoc]
theorem C24_rotate_atm (p : V3 ℝ) (θ : ℝ) (axis : V3 ℝ) (h : FLT_EPSILON ≤ axis.len) :
    (glm_rotate_atm p θ axis).mat = rotAboutMat p θ axis := by
  unfold glm_rotate_atm
  simp only
  rw [C19_translate, C19_rotate _ _ _ h, C19_translate_make, rotAboutMat]
  have : glm_vec3_negate_to p = p.smul (-1) := by ext <;> simp [cglm, V3.smul]
  rw [this]
/-- what it does to a point: rotate the offset from the pivot -/
theorem C24_rotate_atm_apply (p : V3 ℝ) (θ : ℝ) (axis v : V3 ℝ) (h : FLT_EPSILON ≤ axis.len) :
    glm_mat4_mulv3 (glm_rotate_atm p θ axis) v 1 = p.add (rodrigues θ axis.unit (v.sub p)) := by
  unfold glm_rotate_atm glm_rotate
  rw [C20_rotate_make θ axis h]
  generalize axis.unit = u
  ext <;> simp [cglm, rotMat, rodrigues, M3.toM4, V3.add, V3.sub, V3.smul, V3.cross, V3.dot] <;> ring
/-- the pivot stays fixed -/
theorem C24_pivot_fixed (p : V3 ℝ) (θ : ℝ) (axis : V3 ℝ) :
    glm_mat4_mulv3 (glm_rotate_atm p θ axis) p 1 = p := by
  unfold glm_rotate_atm glm_rotate
  generalize glm_rotate_make θ axis = r
  ext <;> simp [cglm] <;> ring
/-- and the image of the pivot under `m` is its image under `glm_rotate_at(m, pivot, ..)` -/
theorem C24_pivot_image (m : M4 ℝ) (p : V3 ℝ) (θ : ℝ) (axis : V3 ℝ) (h : FLT_EPSILON ≤ axis.len) :
    glm_mat4_mulv (glm_rotate_at m p θ axis) (p.hom 1) = glm_mat4_mulv m (p.hom 1) := by
  unfold glm_rotate_at glm_rotate
  rw [C20_rotate_make θ axis h]
  generalize rotMat θ axis.unit = r
  ext <;> simp [cglm, M3.toM4, V3.hom] <;> ring

/-- `glm_spinned` rotates the object about its own position, for every `m` -/
theorem C24_spinned (m : M4 ℝ) (θ : ℝ) (axis : V3 ℝ) (h : FLT_EPSILON ≤ axis.len) :
    (glm_spinned m θ axis).mat = rotAboutMat m.pos θ axis * m.mat := by
  rw [← C24_rotate_atm _ _ _ h]
  exact C01_mat4_mul _ m
theorem C24_spinned_pos (m : M4 ℝ) (θ : ℝ) (axis : V3 ℝ) (hm : m.Affine) : (glm_spinned m θ axis).pos = m.pos := by
  have e := C24_pivot_fixed m.pos θ axis
  obtain ⟨-, -, -, h3⟩ := hm
  rw [show glm_spinned m θ axis = glm_mat4_mul (glm_rotate_atm m.pos θ axis) m from rfl]
  generalize glm_rotate_atm m.pos θ axis = r at *
  rw [V3.ext_iff] at e
  simp [cglm, M4.pos] at e
  ext <;> simp [cglm, M4.pos, h3] <;> linarith [e.1, e.2.1, e.2.2]

/-- `glm_spin` is `m` times the rotation about the position of `m`, -/
theorem C24_spin (m : M4 ℝ) (θ : ℝ) (axis : V3 ℝ) (h : FLT_EPSILON ≤ axis.len) :
    (glm_spin m θ axis).mat = m.mat * rotAboutMat m.pos θ axis := by
  rw [← C24_rotate_atm _ _ _ h]
  exact C01_mat4_mul m _
/-- so it moves the object to `m (p - R p)`, where `p` is the position: -/
theorem C24_spin_pos (m : M4 ℝ) (θ : ℝ) (axis : V3 ℝ) (h : FLT_EPSILON ≤ axis.len) :
    (glm_spin m θ axis).pos = glm_mat4_mulv3 m (m.pos.sub (rodrigues θ axis.unit m.pos)) 1 := by
  unfold glm_spin glm_rotate_atm glm_rotate
  rw [C20_rotate_make θ axis h]
  generalize axis.unit = u
  ext <;> simp [cglm, M4.pos, rotMat, rodrigues, M3.toM4, V3.add, V3.sub, V3.smul, V3.cross, V3.dot] <;> ring
/-- the position is kept when it lies on the rotation axis (in particular at the origin) -/
theorem C24_spin_pos_partial (m : M4 ℝ) (θ : ℝ) (axis : V3 ℝ) (h : FLT_EPSILON ≤ axis.len)
    (hp : rodrigues θ axis.unit m.pos = m.pos) : (glm_spin m θ axis).pos = m.pos := by
  rw [C24_spin_pos m θ axis h, hp]
  ext <;> simp [cglm, M4.pos, V3.sub]
/-- but not in general.  Witness: the object at (1,0,0) spun by π about z goes to (3,0,0). -/
theorem C24_spin_refuted : ¬ ∀ (m : M4 ℝ) (θ : ℝ) (axis : V3 ℝ), m.Rigid → FLT_EPSILON ≤ axis.len →
    (glm_spin m θ axis).pos = m.pos := by
  intro h
  have hl : (⟨0, 0, 1⟩ : V3 ℝ).len = 1 := by simp [V3.len_eq_one, V3.dot]
  have hl' : FLT_EPSILON ≤ (⟨0, 0, 1⟩ : V3 ℝ).len := by rw [hl]; norm_num [FLT_EPSILON]
  have e := h ⟨⟨1, 0, 0, 0⟩, ⟨0, 1, 0, 0⟩, ⟨0, 0, 1, 0⟩, ⟨1, 0, 0, 1⟩⟩ Real.pi ⟨0, 0, 1⟩ (by
    refine ⟨?_, rfl, rfl, rfl, rfl⟩
    rw [M3.IsRotation, show (M4.block _).mat = (1 : Matrix (Fin 3) (Fin 3) ℝ) by
      ext i j; fin_cases i <;> fin_cases j <;> simp [M3.mat, M4.block]]
    exact one_mem _) hl'
  rw [C24_spin_pos _ _ _ hl'] at e
  have := congrArg V3.x e
  norm_num [cglm, M4.pos, V3.unit, hl, rodrigues, V3.add, V3.sub, V3.smul, V3.cross, V3.dot] at this

/-- `glm_rotated_at`, documented as the rotation about the pivot applied after `m`, is not that map.
Witness: with m the identity the pivot (1,0,0) is not fixed by a half turn about z. -/
theorem C24_rotated_at_refuted : ¬ ∀ (m : M4 ℝ) (p : V3 ℝ) (θ : ℝ) (axis : V3 ℝ), m.Affine → FLT_EPSILON ≤ axis.len →
    (glm_rotated_at m p θ axis).mat = rotAboutMat p θ axis * m.mat := by
  intro h
  have hl : (⟨0, 0, 1⟩ : V3 ℝ).len = 1 := by simp [V3.len_eq_one, V3.dot]
  have hl' : FLT_EPSILON ≤ (⟨0, 0, 1⟩ : V3 ℝ).len := by rw [hl]; norm_num [FLT_EPSILON]
  have e := h ⟨⟨1, 0, 0, 0⟩, ⟨0, 1, 0, 0⟩, ⟨0, 0, 1, 0⟩, ⟨0, 0, 0, 1⟩⟩ ⟨1, 0, 0⟩ Real.pi ⟨0, 0, 1⟩ ⟨rfl, rfl, rfl, rfl⟩ hl'
  have e03 := congrFun (congrFun e 0) 3
  unfold glm_rotated_at glm_rotated at e03
  rw [C20_rotate_make _ _ hl', rotAboutMat] at e03
  norm_num [M4.mat, cglm, transMat, M3.toM4, rotMat, V3.unit, hl, rodrigues, V3.add, V3.sub, V3.smul, V3.cross, V3.dot,
    Matrix.mul_apply, Fin.sum_univ_succ] at e03
  simp at e03
  norm_num at e03
/-- What it does: the rotation block is right, the translation is always minus the pivot. -/
theorem C24_rotated_at_partial (m : M4 ℝ) (p : V3 ℝ) (θ : ℝ) (axis : V3 ℝ) (h : FLT_EPSILON ≤ axis.len) :
    (glm_rotated_at m p θ axis).block.mat = (rotMat θ axis.unit).mat * m.block.mat ∧
    (glm_rotated_at m p θ axis).pos = p.smul (-1) := by
  unfold glm_rotated_at glm_rotated
  rw [C20_rotate_make θ axis h]
  generalize rotMat θ axis.unit = r
  constructor
  · ext i j
    fin_cases i <;> fin_cases j <;>
      simp [M3.mat, M4.block, M3.toM4, Matrix.mul_apply, Fin.sum_univ_succ, cglm] <;> ring
  · ext <;> simp [cglm, M4.pos, V3.smul, M3.toM4]

example : FLT_EPSILON ≤ (⟨0, 0, 1⟩ : V3 ℝ).len := by
  rw [show (⟨0, 0, 1⟩ : V3 ℝ).len = 1 by simp [V3.len_eq_one, V3.dot]]; norm_num [FLT_EPSILON]

end Cglm
