import Verif.Props.C12

/-! # C74: histories of updates of an orientation

An orientation is kept as a quaternion and turned again and again, about axes of the object (multiplication from the right) or of the
world (from the left), and normalized from time to time. -/

namespace Cglm
open Quaternion

inductive Turn
  | inner (angle : ℝ) (axis : V3 ℝ) | outer (angle : ℝ) (axis : V3 ℝ)
  | mul (q : V4 ℝ) | premul (q : V4 ℝ)
  | normalize

namespace Turn

/-- the call of the library -/
noncomputable def call : Turn → V4 ℝ → V4 ℝ
  | inner angle axis, q => glm_quat_mul q (glm_quatv angle axis)
  | outer angle axis, q => glm_quat_mul (glm_quatv angle axis) q
  | mul r, q => glm_quat_mul q r
  | premul r, q => glm_quat_mul r q
  | normalize, q => glm_quat_normalize q

/-- what it means for the motion `g` that the quaternion represented before -/
noncomputable def spec : Turn → (V3 ℝ → V3 ℝ) → V3 ℝ → V3 ℝ
  | inner angle axis, g => fun v => g (rodrigues angle axis.unit v)
  | outer angle axis, g => fun v => rodrigues angle axis.unit (g v)
  | mul r, g => fun v => g (glm_quat_rotatev r v)
  | premul r, g => fun v => glm_quat_rotatev r (g v)
  | normalize, g => g

/-- axes long enough to be normalized, factors other than zero -/
def Ok : Turn → Prop
  | inner _ axis | outer _ axis => FLT_EPSILON ≤ axis.len
  | mul r | premul r => r.quat ≠ 0
  | normalize => True

/-- factors of norm one -/
noncomputable def Unit : Turn → Prop
  | mul r | premul r => ‖r.quat‖ = 1
  | _ => True

end Turn

noncomputable def runTurns (h : List Turn) (q : V4 ℝ) : V4 ℝ := h.foldl (fun q s => s.call q) q
noncomputable def specTurns (h : List Turn) (g : V3 ℝ → V3 ℝ) : V3 ℝ → V3 ℝ := h.foldl (fun g s => s.spec g) g

private theorem ne_of_unit {q : V4 ℝ} (h : ‖q.quat‖ = 1) : q.quat ≠ 0 := by
  intro h1; rw [h1, norm_zero] at h; exact zero_ne_one h
private theorem quatv_ne (angle : ℝ) (axis : V3 ℝ) (h : FLT_EPSILON ≤ axis.len) : (glm_quatv angle axis).quat ≠ 0 :=
  ne_of_unit (C12_unit angle axis h)
private theorem rotatev_quatv (angle : ℝ) (axis : V3 ℝ) (h : FLT_EPSILON ≤ axis.len) (v : V3 ℝ) :
    glm_quat_rotatev (glm_quatv angle axis) v = rodrigues angle axis.unit v := by
  rw [C09_rotatev_mat3 _ (C12_unit angle axis h), C12_rotation angle axis h]
  simp only [rotMat]
  ext <;> simp [cglm, rodrigues, V3.add, V3.smul, V3.cross, V3.dot] <;> ring
private theorem rotatev_mul (p q : V4 ℝ) (hp : p.quat ≠ 0) (hq : q.quat ≠ 0) (v : V3 ℝ) :
    glm_quat_rotatev (glm_quat_mul p q) v = glm_quat_rotatev p (glm_quat_rotatev q v) := by
  rw [← V3.pure_inj, C09_rotatev _ (by rw [C08_mul]; exact mul_ne_zero hp hq), C09_rotatev _ hp, C09_rotatev _ hq, C08_mul, mul_inv_rev]
  simp only [mul_assoc]
private theorem rotatev_normalize (q : V4 ℝ) (hq : q.quat ≠ 0) (v : V3 ℝ) :
    glm_quat_rotatev (glm_quat_normalize q) v = glm_quat_rotatev q v := by
  have hn : ‖q.quat‖⁻¹ ≠ 0 := inv_ne_zero (norm_ne_zero_iff.mpr hq)
  have hi : (‖q.quat‖⁻¹ • q.quat)⁻¹ = (‖q.quat‖⁻¹)⁻¹ • q.quat⁻¹ :=
    inv_eq_of_mul_eq_one_right (by rw [smul_mul_smul_comm, mul_inv_cancel₀ hn, mul_inv_cancel₀ hq, one_smul])
  rw [← V3.pure_inj, C09_rotatev _ (ne_of_unit (C08_normalize q hq).2), C09_rotatev _ hq, (C08_normalize q hq).1, hi]
  simp only [smul_mul_assoc, mul_smul_comm, smul_smul]
  rw [inv_mul_cancel₀ hn, one_smul]

private theorem call_ne (s : Turn) (hs : s.Ok) (q : V4 ℝ) (hq : q.quat ≠ 0) : (s.call q).quat ≠ 0 := by
  cases s with
  | inner a u => simp only [Turn.call, C08_mul]; exact mul_ne_zero hq (quatv_ne a u hs)
  | outer a u => simp only [Turn.call, C08_mul]; exact mul_ne_zero (quatv_ne a u hs) hq
  | mul r => simp only [Turn.call, C08_mul]; exact mul_ne_zero hq hs
  | premul r => simp only [Turn.call, C08_mul]; exact mul_ne_zero hs hq
  | normalize => exact ne_of_unit (C08_normalize q hq).2
private theorem call_motion (s : Turn) (hs : s.Ok) (q : V4 ℝ) (hq : q.quat ≠ 0) :
    glm_quat_rotatev (s.call q) = s.spec (glm_quat_rotatev q) := by
  funext v
  cases s with
  | inner a u => simp only [Turn.call, Turn.spec, rotatev_mul _ _ hq (quatv_ne a u hs), rotatev_quatv a u hs]
  | outer a u => simp only [Turn.call, Turn.spec, rotatev_mul _ _ (quatv_ne a u hs) hq, rotatev_quatv a u hs]
  | mul r => exact rotatev_mul _ _ hq hs v
  | premul r => exact rotatev_mul _ _ hs hq v
  | normalize => exact rotatev_normalize q hq v

/-- after any history the quaternion is not zero and turns vectors by the composition of the steps -/
theorem C74_turns (h : List Turn) (hh : ∀ s ∈ h, s.Ok) (q : V4 ℝ) (hq : q.quat ≠ 0) :
    (runTurns h q).quat ≠ 0 ∧ glm_quat_rotatev (runTurns h q) = specTurns h (glm_quat_rotatev q) := by
  induction h generalizing q with
  | nil => exact ⟨hq, rfl⟩
  | cons s h ih =>
    have hs := hh s (by simp)
    have := ih (fun t ht => hh t (by simp [ht])) (s.call q) (call_ne s hs q hq)
    rw [call_motion s hs q hq] at this
    exact this
/-- starting from the identity quaternion, from no motion at all -/
theorem C74_turns_identity (h : List Turn) (hh : ∀ s ∈ h, s.Ok) :
    glm_quat_rotatev (runTurns h glm_quat_identity) = specTurns h id := by
  have e : (glm_quat_identity : V4 ℝ).quat = 1 := C08_identity
  have h0 : (glm_quat_identity : V4 ℝ).quat ≠ 0 := by rw [e]; exact one_ne_zero
  rw [(C74_turns h hh _ h0).2]
  congr 1
  funext v
  rw [← V3.pure_inj, C09_rotatev _ h0, e]; simp
/-- if the factors are of norm one then so is the result, with or without normalizing -/
theorem C74_turns_unit (h : List Turn) (hh : ∀ s ∈ h, s.Ok) (hu : ∀ s ∈ h, s.Unit) (q : V4 ℝ) (hq : ‖q.quat‖ = 1) :
    ‖(runTurns h q).quat‖ = 1 := by
  induction h generalizing q with
  | nil => exact hq
  | cons s h ih =>
    have hs := hh s (by simp)
    have hv := hu s (by simp)
    refine ih (fun t ht => hh t (by simp [ht])) (fun t ht => hu t (by simp [ht])) (s.call q) ?_
    cases s with
    | inner a u => simp only [Turn.call, C08_mul, norm_mul, hq, C12_unit a u hs, mul_one]
    | outer a u => simp only [Turn.call, C08_mul, norm_mul, hq, C12_unit a u hs, mul_one]
    | mul r => simp only [Turn.call, C08_mul, norm_mul, hq, show ‖r.quat‖ = 1 from hv, mul_one]
    | premul r => simp only [Turn.call, C08_mul, norm_mul, hq, show ‖r.quat‖ = 1 from hv, mul_one]
    | normalize => exact (C08_normalize q (ne_of_unit hq)).2
/-- a history that ends with a normalization ends with a quaternion of norm one -/
theorem C74_turns_normalized (h : List Turn) (hh : ∀ s ∈ h, s.Ok) (q : V4 ℝ) (hq : q.quat ≠ 0) :
    ‖(runTurns (h ++ [.normalize]) q).quat‖ = 1 := by
  have e : runTurns (h ++ [.normalize]) q = glm_quat_normalize (runTurns h q) := by simp [runTurns, Turn.call]
  rw [e]
  exact (C08_normalize _ (C74_turns h hh q hq).1).2
/-- the matrix made from the result is a rotation that moves vectors like the composition of the steps -/
theorem C74_turns_mat3 (h : List Turn) (hh : ∀ s ∈ h, s.Ok) (hu : ∀ s ∈ h, s.Unit) (q : V4 ℝ) (hq : ‖q.quat‖ = 1) :
    (glm_quat_mat3 (runTurns h q)).IsRotation ∧ glm_mat3_mulv (glm_quat_mat3 (runTurns h q)) = specTurns h (glm_quat_rotatev q) := by
  have hn := C74_turns_unit h hh hu q hq
  refine ⟨C09_rotation _ hn, ?_⟩
  rw [← (C74_turns h hh q (ne_of_unit hq)).2]
  funext v
  rw [C09_rotatev_mat3 _ hn]
/-- the inverse quaternion undoes the whole history -/
theorem C74_turns_undo (h : List Turn) (hh : ∀ s ∈ h, s.Ok) (q : V4 ℝ) (hq : q.quat ≠ 0) (v : V3 ℝ) :
    glm_quat_rotatev (glm_quat_inv (runTurns h q)) (specTurns h (glm_quat_rotatev q) v) = v := by
  obtain ⟨h0, h1⟩ := C74_turns h hh q hq
  have hi := C08_inv _ h0
  rw [← h1, ← V3.pure_inj, C09_rotatev _ (by rw [hi]; exact inv_ne_zero h0), C09_rotatev _ h0, hi, inv_inv]
  simp only [mul_assoc, inv_mul_cancel₀ h0, mul_one]
  rw [← mul_assoc, inv_mul_cancel₀ h0, one_mul]

/-- a history of four steps that meets the hypotheses -/
example : (∀ s ∈ [Turn.inner 1 ⟨0, 0, 2⟩, .outer 2 ⟨1, 0, 0⟩, .normalize, .mul ⟨0, 1, 0, 0⟩], s.Ok) := by
  have l1 : FLT_EPSILON ≤ (⟨0, 0, 2⟩ : V3 ℝ).len := by
    have : (⟨0, 0, 2⟩ : V3 ℝ).len = 2 := by
      rw [V3.len, show V3.dot ⟨0, 0, 2⟩ ⟨0, 0, 2⟩ = (2 : ℝ) ^ 2 by norm_num [V3.dot], Real.sqrt_sq (by norm_num)]
    rw [this]; norm_num [FLT_EPSILON]
  have l2 : FLT_EPSILON ≤ (⟨1, 0, 0⟩ : V3 ℝ).len := by
    have : (⟨1, 0, 0⟩ : V3 ℝ).len = 1 := by
      rw [V3.len, show V3.dot ⟨1, 0, 0⟩ ⟨1, 0, 0⟩ = (1 : ℝ) ^ 2 by norm_num [V3.dot], Real.sqrt_sq (by norm_num)]
    rw [this]; norm_num [FLT_EPSILON]
  have l3 : (⟨0, 1, 0, 0⟩ : V4 ℝ).quat ≠ 0 := by
    intro h; have := congrArg QuaternionAlgebra.imJ h; simp at this
  simp only [List.mem_cons, List.not_mem_nil, or_false, forall_eq_or_imp, forall_eq]
  exact ⟨l1, l2, trivial, l3⟩

end Cglm
