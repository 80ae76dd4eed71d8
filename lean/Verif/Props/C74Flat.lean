import Verif.Props.C25

/-! # C74: histories of updates of a 2D transform

`Step2` lists the calls that update a 3x3 matrix of a 2D transform.  Local updates act before the motion so far, world updates after it. -/

namespace Cglm

inductive Step2
  | translate (v : V2 ℝ) | translate_x (x : ℝ) | translate_y (y : ℝ)
  | scale (v : V2 ℝ) | scale_uni (s : ℝ) | rotate (angle : ℝ)
  | translated (v : V2 ℝ) | translated_x (x : ℝ) | translated_y (y : ℝ)
  | scaled (v : V2 ℝ) | scaled_uni (s : ℝ) | rotated (angle : ℝ)

/-- what a matrix does to points of the plane -/
noncomputable def M3.motion2 (m : M3 ℝ) : V2 ℝ → V2 ℝ := fun p =>
  ⟨(glm_mat3_mulv m ⟨p.x, p.y, 1⟩).x, (glm_mat3_mulv m ⟨p.x, p.y, 1⟩).y⟩
/-- counterclockwise rotation about the origin -/
noncomputable def turn2 (angle : ℝ) : V2 ℝ → V2 ℝ := fun p =>
  ⟨Real.cos angle * p.x - Real.sin angle * p.y, Real.sin angle * p.x + Real.cos angle * p.y⟩

namespace Step2

/-- the call of the library -/
noncomputable def call : Step2 → M3 ℝ → M3 ℝ
  | translate v, m => glm_translate2d m v
  | translate_x x, m => glm_translate2d_x m x
  | translate_y y, m => glm_translate2d_y m y
  | scale v, m => glm_scale2d m v
  | scale_uni s, m => glm_scale2d_uni m s
  | rotate angle, m => glm_rotate2d m angle
  | translated v, m => glm_translated2d m v
  | translated_x x, m => glm_translated2d_x m x
  | translated_y y, m => glm_translated2d_y m y
  | scaled v, m => glm_scaled2d m v
  | scaled_uni s, m => glm_scaled2d_uni m s
  | rotated angle, m => glm_rotated2d m angle

/-- what it means for the motion `g` that the matrix represented before -/
noncomputable def spec : Step2 → (V2 ℝ → V2 ℝ) → V2 ℝ → V2 ℝ
  | translate v, g => fun p => g ⟨p.x + v.x, p.y + v.y⟩
  | translate_x x, g => fun p => g ⟨p.x + x, p.y⟩
  | translate_y y, g => fun p => g ⟨p.x, p.y + y⟩
  | scale v, g => fun p => g ⟨v.x * p.x, v.y * p.y⟩
  | scale_uni s, g => fun p => g ⟨s * p.x, s * p.y⟩
  | rotate angle, g => fun p => g (turn2 angle p)
  | translated v, g => fun p => ⟨(g p).x + v.x, (g p).y + v.y⟩
  | translated_x x, g => fun p => ⟨(g p).x + x, (g p).y⟩
  | translated_y y, g => fun p => ⟨(g p).x, (g p).y + y⟩
  | scaled v, g => fun p => ⟨v.x * (g p).x, v.y * (g p).y⟩
  | scaled_uni s, g => fun p => ⟨s * (g p).x, s * (g p).y⟩
  | rotated angle, g => fun p => turn2 angle (g p)

/-- the factor by which a step multiplies areas -/
def area : Step2 → ℝ
  | scale v | scaled v => v.x * v.y
  | scale_uni s | scaled_uni s => s * s
  | _ => 1

end Step2

noncomputable def runSteps2 (h : List Step2) (m : M3 ℝ) : M3 ℝ := h.foldl (fun m s => s.call m) m
noncomputable def specSteps2 (h : List Step2) (g : V2 ℝ → V2 ℝ) : V2 ℝ → V2 ℝ := h.foldl (fun g s => s.spec g) g

private theorem call_affine (s : Step2) (m : M3 ℝ) (hm : m.Affine) : (s.call m).Affine := by
  obtain ⟨h0, h1, h2⟩ := hm
  cases s <;> simp [M3.Affine, Step2.call, cglm, h0, h1, h2]
private theorem call_motion (s : Step2) (m : M3 ℝ) : (s.call m).motion2 = s.spec m.motion2 := by
  funext p
  cases s <;> ext <;> simp [M3.motion2, Step2.call, Step2.spec, turn2, cglm] <;> ring
private theorem call_det (s : Step2) (m : M3 ℝ) (hm : m.Affine) : glm_mat3_det (s.call m) = s.area * glm_mat3_det m := by
  obtain ⟨h0, h1, h2⟩ := hm
  cases s <;> simp only [Step2.call, Step2.area, cglm, h0, h1, h2, sinf_real, cosf_real] <;> try ring
  all_goals
    rename_i a
    have e := Real.sin_sq_add_cos_sq a
    linear_combination (m.c0.x * m.c1.y - m.c1.x * m.c0.y) * e

/-- after any history the matrix represents the composition of the steps, and its last row is still (0, 0, 1) -/
theorem C74_flat (h : List Step2) (m : M3 ℝ) (hm : m.Affine) :
    (runSteps2 h m).Affine ∧ (runSteps2 h m).motion2 = specSteps2 h m.motion2 := by
  induction h generalizing m with
  | nil => exact ⟨hm, rfl⟩
  | cons s h ih =>
    have := ih (s.call m) (call_affine s m hm)
    rw [call_motion] at this
    exact this
/-- starting from the identity, from no motion at all -/
theorem C74_flat_identity (h : List Step2) : (runSteps2 h glm_mat3_identity).motion2 = specSteps2 h id := by
  have e : (glm_mat3_identity : M3 ℝ).motion2 = id := by funext p; ext <;> simp [M3.motion2, cglm]
  rw [(C74_flat h _ (by simp [M3.Affine, cglm])).2, e]
/-- the determinant is the product of the area factors; the matrix can be inverted as long as no step scaled by zero -/
theorem C74_flat_area (h : List Step2) (m : M3 ℝ) (hm : m.Affine) :
    glm_mat3_det (runSteps2 h m) = (h.map Step2.area).prod * glm_mat3_det m := by
  induction h generalizing m with
  | nil => simp [runSteps2]
  | cons s h ih =>
    have := ih (s.call m) (call_affine s m hm)
    rw [call_det s m hm] at this
    rw [List.map_cons, List.prod_cons]
    refine this.trans ?_
    ring

/-- a history of a local and two world updates, and where it takes the point (1, 0) -/
example : (runSteps2 [.translate ⟨1, 2⟩, .scaled ⟨2, 3⟩, .translated_x 5] (glm_mat3_identity : M3 ℝ)).motion2 ⟨1, 0⟩ = ⟨9, 6⟩ := by
  rw [C74_flat_identity]
  ext <;> norm_num [specSteps2, Step2.spec]

end Cglm
