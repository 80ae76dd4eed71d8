import Verif.Props.C31

/-! # C74: histories of updates of a perspective camera

A window is resized and the far plane is moved again and again; the projection matrix is updated in place.  After any history it is the
projection with the last aspect ratio and the sum of the far-plane moves. -/

namespace Cglm

inductive Zoom
  | resize (aspect : ℝ) | moveFar (delta : ℝ)

/-- the aspect ratio and the far distance after a step -/
def Zoom.spec : Zoom → ℝ × ℝ → ℝ × ℝ
  | .resize a, (_, f) => (a, f)
  | .moveFar d, (a, f) => (a, f + d)
/-- the new aspect ratio is not zero; the new far distance is neither zero nor the near distance -/
def Zoom.Ok (n : ℝ) : Zoom → ℝ × ℝ → Prop
  | .resize a, _ => a ≠ 0
  | .moveFar d, (_, f) => f + d ≠ 0 ∧ n ≠ f + d
/-- every step of the history is allowed where it is made -/
def zoomOk (n : ℝ) : List Zoom → ℝ × ℝ → Prop
  | [], _ => True
  | s :: h, p => s.Ok n p ∧ zoomOk n h (s.spec p)
def zoomed (h : List Zoom) (p : ℝ × ℝ) : ℝ × ℝ := h.foldl (fun p s => s.spec p) p

private theorem zoom_step (n : ℝ) (s : Zoom) (p : ℝ × ℝ) (hs : s.Ok n p) (ha : p.1 ≠ 0) (hf : n ≠ p.2) (hf0 : p.2 ≠ 0) :
    (s.spec p).1 ≠ 0 ∧ n ≠ (s.spec p).2 ∧ (s.spec p).2 ≠ 0 := by
  obtain ⟨a, f⟩ := p
  cases s with
  | resize b => exact ⟨hs, hf, hf0⟩
  | moveFar d => exact ⟨ha, hs.2, hs.1⟩

/-! ## rh_no -/

noncomputable def Zoom.call_rh_no : Zoom → M4 ℝ → M4 ℝ
  | .resize a, m => glm_perspective_resize_rh_no a m
  | .moveFar d, m => glm_persp_move_far_rh_no m d
theorem C74_lens_rh_no (fovy n : ℝ) (h0 : 0 < fovy) (h1 : fovy < Real.pi) (hn : n ≠ 0) (h : List Zoom) (aspect f : ℝ) (ha : aspect ≠ 0)
    (hf : n ≠ f) (hf0 : f ≠ 0) (hh : zoomOk n h (aspect, f)) :
    h.foldl (fun m s => s.call_rh_no m) (glm_perspective_rh_no fovy aspect n f) =
      glm_perspective_rh_no fovy (zoomed h (aspect, f)).1 n (zoomed h (aspect, f)).2 := by
  induction h generalizing aspect f with
  | nil => rfl
  | cons s h ih =>
    obtain ⟨hs, hr⟩ := hh
    obtain ⟨g1, g2, g3⟩ := zoom_step n s (aspect, f) hs ha hf hf0
    have e : s.call_rh_no (glm_perspective_rh_no fovy aspect n f) = glm_perspective_rh_no fovy (s.spec (aspect, f)).1 n (s.spec (aspect, f)).2 := by
      cases s with
      | resize b => exact C31_resize_rh_no fovy aspect b n f h0 h1 ha
      | moveFar d => exact C31_move_far_perspective_rh_no fovy aspect n f d h0 h1 ha hn hf hf0
    rw [List.foldl_cons, e]
    exact ih _ _ g1 g2 g3 hr

/-! ## rh_zo -/

noncomputable def Zoom.call_rh_zo : Zoom → M4 ℝ → M4 ℝ
  | .resize a, m => glm_perspective_resize_rh_zo a m
  | .moveFar d, m => glm_persp_move_far_rh_zo m d
theorem C74_lens_rh_zo (fovy n : ℝ) (h0 : 0 < fovy) (h1 : fovy < Real.pi) (hn : n ≠ 0) (h : List Zoom) (aspect f : ℝ) (ha : aspect ≠ 0)
    (hf : n ≠ f) (hf0 : f ≠ 0) (hh : zoomOk n h (aspect, f)) :
    h.foldl (fun m s => s.call_rh_zo m) (glm_perspective_rh_zo fovy aspect n f) =
      glm_perspective_rh_zo fovy (zoomed h (aspect, f)).1 n (zoomed h (aspect, f)).2 := by
  induction h generalizing aspect f with
  | nil => rfl
  | cons s h ih =>
    obtain ⟨hs, hr⟩ := hh
    obtain ⟨g1, g2, g3⟩ := zoom_step n s (aspect, f) hs ha hf hf0
    have e : s.call_rh_zo (glm_perspective_rh_zo fovy aspect n f) = glm_perspective_rh_zo fovy (s.spec (aspect, f)).1 n (s.spec (aspect, f)).2 := by
      cases s with
      | resize b => exact C31_resize_rh_zo fovy aspect b n f h0 h1 ha
      | moveFar d => exact C31_move_far_perspective_rh_zo fovy aspect n f d h0 h1 ha hn hf hf0
    rw [List.foldl_cons, e]
    exact ih _ _ g1 g2 g3 hr

/-! ## lh_no -/

noncomputable def Zoom.call_lh_no : Zoom → M4 ℝ → M4 ℝ
  | .resize a, m => glm_perspective_resize_lh_no a m
  | .moveFar d, m => glm_persp_move_far_lh_no m d
theorem C74_lens_lh_no (fovy n : ℝ) (h0 : 0 < fovy) (h1 : fovy < Real.pi) (hn : n ≠ 0) (h : List Zoom) (aspect f : ℝ) (ha : aspect ≠ 0)
    (hf : n ≠ f) (hf0 : f ≠ 0) (hh : zoomOk n h (aspect, f)) :
    h.foldl (fun m s => s.call_lh_no m) (glm_perspective_lh_no fovy aspect n f) =
      glm_perspective_lh_no fovy (zoomed h (aspect, f)).1 n (zoomed h (aspect, f)).2 := by
  induction h generalizing aspect f with
  | nil => rfl
  | cons s h ih =>
    obtain ⟨hs, hr⟩ := hh
    obtain ⟨g1, g2, g3⟩ := zoom_step n s (aspect, f) hs ha hf hf0
    have e : s.call_lh_no (glm_perspective_lh_no fovy aspect n f) = glm_perspective_lh_no fovy (s.spec (aspect, f)).1 n (s.spec (aspect, f)).2 := by
      cases s with
      | resize b => exact C31_resize_lh_no fovy aspect b n f h0 h1 ha
      | moveFar d => exact C31_move_far_perspective_lh_no fovy aspect n f d h0 h1 ha hn hf hf0
    rw [List.foldl_cons, e]
    exact ih _ _ g1 g2 g3 hr

/-! ## lh_zo -/

noncomputable def Zoom.call_lh_zo : Zoom → M4 ℝ → M4 ℝ
  | .resize a, m => glm_perspective_resize_lh_zo a m
  | .moveFar d, m => glm_persp_move_far_lh_zo m d
theorem C74_lens_lh_zo (fovy n : ℝ) (h0 : 0 < fovy) (h1 : fovy < Real.pi) (hn : n ≠ 0) (h : List Zoom) (aspect f : ℝ) (ha : aspect ≠ 0)
    (hf : n ≠ f) (hf0 : f ≠ 0) (hh : zoomOk n h (aspect, f)) :
    h.foldl (fun m s => s.call_lh_zo m) (glm_perspective_lh_zo fovy aspect n f) =
      glm_perspective_lh_zo fovy (zoomed h (aspect, f)).1 n (zoomed h (aspect, f)).2 := by
  induction h generalizing aspect f with
  | nil => rfl
  | cons s h ih =>
    obtain ⟨hs, hr⟩ := hh
    obtain ⟨g1, g2, g3⟩ := zoom_step n s (aspect, f) hs ha hf hf0
    have e : s.call_lh_zo (glm_perspective_lh_zo fovy aspect n f) = glm_perspective_lh_zo fovy (s.spec (aspect, f)).1 n (s.spec (aspect, f)).2 := by
      cases s with
      | resize b => exact C31_resize_lh_zo fovy aspect b n f h0 h1 ha
      | moveFar d => exact C31_move_far_perspective_lh_zo fovy aspect n f d h0 h1 ha hn hf hf0
    rw [List.foldl_cons, e]
    exact ih _ _ g1 g2 g3 hr

/-- a history that meets the hypotheses, and where it ends -/
example : zoomOk 1 [.resize 2, .moveFar 50, .resize (16 / 9), .moveFar (-20)] (1, 100) ∧
    zoomed [.resize 2, .moveFar 50, .resize (16 / 9), .moveFar (-20)] (1, 100) = (16 / 9, 130) := by
  constructor
  · norm_num [zoomOk, Zoom.Ok, Zoom.spec]
  · norm_num [zoomed, Zoom.spec]

end Cglm
