import Verif.F32Btw
import Verif.Gen
/-!
# C77: easing curves keep their order and their range under rounding

For a parameter between 0 and 1.  `F32.le` is the C comparison `<=`.
-/
open Cglm F32
namespace Cglm
set_option linter.unusedSectionVars false
variable [Libm]

theorem F32.rep_h : Rep (1 / 2) := rep_dyadic (1) (-1) (by norm_num) (by norm_num) (by norm_num) (by norm_num)
theorem F32.rep_nh : Rep (-(1 / 2)) := rep_dyadic (-1) (-1) (by norm_num) (by norm_num) (by norm_num) (by norm_num)
theorem F32.rep_q : Rep (1 / 4) := rep_dyadic (1) (-2) (by norm_num) (by norm_num) (by norm_num) (by norm_num)
theorem F32.rep_2 : Rep 2 := rep_dyadic (1) (1) (by norm_num) (by norm_num) (by norm_num) (by norm_num)
theorem F32.rep_n2 : Rep (-2) := rep_dyadic (-1) (1) (by norm_num) (by norm_num) (by norm_num) (by norm_num)
theorem F32.rep_3 : Rep 3 := rep_dyadic (3) (0) (by norm_num) (by norm_num) (by norm_num) (by norm_num)
theorem F32.rep_4 : Rep 4 := rep_dyadic (1) (2) (by norm_num) (by norm_num) (by norm_num) (by norm_num)
theorem F32.rep_8 : Rep 8 := rep_dyadic (1) (3) (by norm_num) (by norm_num) (by norm_num) (by norm_num)
theorem F32.rep_16 : Rep 16 := rep_dyadic (1) (4) (by norm_num) (by norm_num) (by norm_num) (by norm_num)

/-- closes `Rep q` for the constants used here -/
macro "rep" : tactic => `(tactic| first
  | exact rep_zero | exact rep_one | exact rep_neg rep_one | exact rep_h | exact rep_nh | exact rep_q | exact rep_2 | exact rep_n2 | exact rep_3 | exact rep_4 | exact rep_8 | exact rep_16)

theorem F32.btw_to01 {a : F32} (h : Btw a 0 1) : le (lit 0) a = true ∧ le a (lit 1) = true := by
  have l0 : Has (lit 0 : F32) 0 := .lit rep_zero
  have l1 : Has (lit 1 : F32) 1 := .lit rep_one
  rw [le_fin l0.1 h.1, le_fin h.1 l1.1, l0.2, l1.2]; exact h.2

theorem F32.btw_from01 {t : F32} (h0 : le (lit 0) t = true) (h1 : le t (lit 1) = true) : Btw t 0 1 :=
  .of_le (.lit rep_zero) (.lit rep_one) h0 h1

/-- the two halves of a curve -/
theorem F32.btw_half {t : F32} (h : Btw t 0 1) :
    (lt t (lit 0.5) = true ∧ Btw t 0 (1 / 2)) ∨ (lt t (lit 0.5) = false ∧ Btw t (1 / 2) 1) := by
  have l : Has (lit 0.5 : F32) (1 / 2) := by
    have := Has.lit (q := 0.5) (by norm_num; rep)
    norm_num at this ⊢; exact this
  by_cases c : lt t (lit 0.5) = true
  · refine .inl ⟨c, h.1, h.2.1, ?_⟩
    rw [lt_fin h.1 l.1, l.2] at c; exact c.le
  · refine .inr ⟨by simpa using c, h.1, ?_, h.2.2⟩
    rw [lt_fin h.1 l.1, l.2] at c; exact not_lt.mp c

theorem F32.btw_le_of {a b : F32} {l h m k : ℚ} (ha : Btw a l h) (hb : Btw b m k) (c : h ≤ m) : le a b = true := by
  rw [le_fin ha.1 hb.1]; exact ha.2.2.trans (c.trans hb.2.1)

theorem F32.key_nonneg_lit {q : ℚ} (h : Rep q) (h0 : 0 ≤ q) : 0 ≤ key (lit q : F32) := by rw [key_lit h]; exact h0

/-- closes the side conditions of the interval rules -/
macro "side" : tactic => `(tactic| first | rep | (norm_num; done))

theorem F32.btw_lit {q : ℚ} (h : Rep q) (l : ℚ) (e : q = l) : Btw (lit q : F32) l l := by subst e; exact .lit h

variable {t t' : F32}

theorem F32.b1 : Btw (lit 1 : F32) 1 1 := .lit rep_one
theorem F32.b2 : Btw (lit 2 : F32) 2 2 := .lit (by rep)
theorem F32.b3 : Btw (lit 3 : F32) 3 3 := .lit (by rep)
theorem F32.b4 : Btw (lit 4 : F32) 4 4 := .lit (by rep)
theorem F32.b8 : Btw (lit 8 : F32) 8 8 := .lit (by rep)
theorem F32.b16 : Btw (lit 16 : F32) 16 16 := .lit (by rep)
theorem F32.bh : Btw (lit 0.5 : F32) (1 / 2) (1 / 2) := btw_lit (by norm_num; rep) _ (by norm_num)

/-! ### intermediate results -/

theorem F32.sq01 {h : ℚ} (ht : Btw t 0 h) (hr : Rep (h * h)) (h0 : 0 ≤ h) : Btw (t * t) 0 (h * h) :=
  ht.mul ht le_rfl le_rfl rep_zero hr (by norm_num) le_rfl

theorem F32.subOne (ht : Btw t 0 1) : Btw (t - lit 1) (-1) 0 := by refine Btw.sub ht b1 ?_ ?_ ?_ ?_ <;> side
theorem F32.oneSub (ht : Btw t 0 1) : Btw (lit 1 - t) 0 1 := by refine Btw.sub b1 ht ?_ ?_ ?_ ?_ <;> side
theorem F32.sqm (ht : Btw t (-1) 0) : Btw (t * t) 0 1 := by refine Btw.mulNN ht ht ?_ ?_ ?_ ?_ ?_ ?_ <;> side
theorem F32.cubem (ht : Btw t (-1) 0) : Btw (t * t * t) (-1) 0 := by
  refine Btw.mulN (sqm ht) ht ?_ ?_ ?_ ?_ ?_ ?_ <;> side

theorem F32.mono_sq (h0 : 0 ≤ key t) (h : LeN t t') : LeN (t * t) (t' * t') := .mul h0 h0 h h
theorem F32.mono_cubem (h0 : key t' ≤ 0) (h : LeN t t') : LeN (t * t * t) (t' * t' * t') :=
  .mulNP (sq_nonneg' _) h0 (.sqN h0 h) h

/-! ### the curves -/

theorem C77_ease_linear (h : le t t' = true) : le (glm_ease_linear t) (glm_ease_linear t') = true := h

theorem F32.quad_in (ht : Btw t 0 1) : Btw (glm_ease_quad_in t) 0 1 := by
  simp only [cglm]; refine Btw.mul ht ht ?_ ?_ ?_ ?_ ?_ ?_ <;> side
theorem C77_ease_quad_in (h0 : le (lit 0) t = true) (h : le t t' = true) (h1 : le t' (lit 1) = true) :
    le (lit 0) (glm_ease_quad_in t) = true ∧ le (glm_ease_quad_in t) (glm_ease_quad_in t') = true ∧
    le (glm_ease_quad_in t') (lit 1) = true := by
  have ht := btw_from01 h0 (le_trans' h h1)
  have ht' := btw_from01 (le_trans' h0 h) h1
  refine ⟨(btw_to01 (quad_in ht)).1, ?_, (btw_to01 (quad_in ht')).2⟩
  have n := (quad_in ht).ne_nan; have n' := (quad_in ht').ne_nan
  simp only [cglm] at n n' ⊢
  exact mono_sq ht.key_lo (.of h) n n'

example : le (lit 0 : F32) (.ofRat false (1 / 3)) = true ∧ le (.ofRat false (1 / 3)) (.ofRat false (2 / 3)) = true ∧
    le (.ofRat false (2 / 3)) (lit 1 : F32) = true := by
  show le (ofRat false 0) (.ofRat false (1 / 3)) = true ∧ le (.ofRat false (1 / 3)) (.ofRat false (2 / 3)) = true ∧
    le (.ofRat false (2 / 3)) (ofRat false 1) = true
  decide +kernel

theorem F32.cubic_in (ht : Btw t 0 1) : Btw (glm_ease_cubic_in t) 0 1 := by
  have h := quad_in ht
  simp only [cglm] at h ⊢; refine Btw.mul h ht ?_ ?_ ?_ ?_ ?_ ?_ <;> side
theorem C77_ease_cubic_in (h0 : le (lit 0) t = true) (h : le t t' = true) (h1 : le t' (lit 1) = true) :
    le (lit 0) (glm_ease_cubic_in t) = true ∧ le (glm_ease_cubic_in t) (glm_ease_cubic_in t') = true ∧
    le (glm_ease_cubic_in t') (lit 1) = true := by
  have ht := btw_from01 h0 (le_trans' h h1)
  have ht' := btw_from01 (le_trans' h0 h) h1
  refine ⟨(btw_to01 (cubic_in ht)).1, ?_, (btw_to01 (cubic_in ht')).2⟩
  have n := (cubic_in ht).ne_nan; have n' := (cubic_in ht').ne_nan
  simp only [cglm] at n n' ⊢
  exact LeN.mul (sq_nonneg' _) ht.key_lo (mono_sq ht.key_lo (.of h)) (.of h) n n'

theorem F32.cubic_out (ht : Btw t 0 1) : Btw (glm_ease_cubic_out t) 0 1 := by
  have h := cubem (subOne ht)
  simp only [cglm] at h ⊢; refine Btw.add h b1 ?_ ?_ ?_ ?_ <;> side
theorem C77_ease_cubic_out (h0 : le (lit 0) t = true) (h : le t t' = true) (h1 : le t' (lit 1) = true) :
    le (lit 0) (glm_ease_cubic_out t) = true ∧ le (glm_ease_cubic_out t) (glm_ease_cubic_out t') = true ∧
    le (glm_ease_cubic_out t') (lit 1) = true := by
  have ht := btw_from01 h0 (le_trans' h h1)
  have ht' := btw_from01 (le_trans' h0 h) h1
  refine ⟨(btw_to01 (cubic_out ht)).1, ?_, (btw_to01 (cubic_out ht')).2⟩
  have n := (cubic_out ht).ne_nan; have n' := (cubic_out ht').ne_nan
  simp only [cglm] at n n' ⊢
  exact LeN.add (mono_cubem (subOne ht').key_hi (.sub (.of h) (.refl _))) (.refl _) n n'

theorem F32.quart_in (ht : Btw t 0 1) : Btw (glm_ease_quart_in t) 0 1 := by
  have h := quad_in ht
  simp only [cglm] at h ⊢; refine Btw.mul h h ?_ ?_ ?_ ?_ ?_ ?_ <;> side
theorem C77_ease_quart_in (h0 : le (lit 0) t = true) (h : le t t' = true) (h1 : le t' (lit 1) = true) :
    le (lit 0) (glm_ease_quart_in t) = true ∧ le (glm_ease_quart_in t) (glm_ease_quart_in t') = true ∧
    le (glm_ease_quart_in t') (lit 1) = true := by
  have ht := btw_from01 h0 (le_trans' h h1)
  have ht' := btw_from01 (le_trans' h0 h) h1
  refine ⟨(btw_to01 (quart_in ht)).1, ?_, (btw_to01 (quart_in ht')).2⟩
  have n := (quart_in ht).ne_nan; have n' := (quart_in ht').ne_nan
  simp only [cglm] at n n' ⊢
  exact mono_sq (sq_nonneg' _) (mono_sq ht.key_lo (.of h)) n n'

theorem F32.quart_out (ht : Btw t 0 1) : Btw (glm_ease_quart_out t) 0 1 := by
  have h := cubem (subOne ht)
  have g := oneSub ht
  have m : Btw ((lit 1 - t) * ((t - lit 1) * (t - lit 1) * (t - lit 1))) (-1) 0 := by
    refine Btw.mulN g h ?_ ?_ ?_ ?_ ?_ ?_ <;> side
  rw [mul_comm'] at m
  simp only [cglm]; refine Btw.add m b1 ?_ ?_ ?_ ?_ <;> side
theorem C77_ease_quart_out (h0 : le (lit 0) t = true) (h : le t t' = true) (h1 : le t' (lit 1) = true) :
    le (lit 0) (glm_ease_quart_out t) = true ∧ le (glm_ease_quart_out t) (glm_ease_quart_out t') = true ∧
    le (glm_ease_quart_out t') (lit 1) = true := by
  have ht := btw_from01 h0 (le_trans' h h1)
  have ht' := btw_from01 (le_trans' h0 h) h1
  refine ⟨(btw_to01 (quart_out ht)).1, ?_, (btw_to01 (quart_out ht')).2⟩
  have n := (quart_out ht).ne_nan; have n' := (quart_out ht').ne_nan
  simp only [cglm] at n n' ⊢
  refine LeN.add ?_ (.refl _) n n'
  rw [mul_comm' _ (lit 1 - t), mul_comm' _ (lit 1 - t')]
  exact .mulNP (oneSub ht').key_lo (cubem (subOne ht')).key_hi (.sub (.refl _) (.of h))
    (mono_cubem (subOne ht').key_hi (.sub (.of h) (.refl _)))

theorem F32.quint_in (ht : Btw t 0 1) : Btw (glm_ease_quint_in t) 0 1 := by
  have h := quart_in ht
  simp only [cglm] at h ⊢; refine Btw.mul h ht ?_ ?_ ?_ ?_ ?_ ?_ <;> side
theorem C77_ease_quint_in (h0 : le (lit 0) t = true) (h : le t t' = true) (h1 : le t' (lit 1) = true) :
    le (lit 0) (glm_ease_quint_in t) = true ∧ le (glm_ease_quint_in t) (glm_ease_quint_in t') = true ∧
    le (glm_ease_quint_in t') (lit 1) = true := by
  have ht := btw_from01 h0 (le_trans' h h1)
  have ht' := btw_from01 (le_trans' h0 h) h1
  refine ⟨(btw_to01 (quint_in ht)).1, ?_, (btw_to01 (quint_in ht')).2⟩
  have n := (quint_in ht).ne_nan; have n' := (quint_in ht').ne_nan
  simp only [cglm] at n n' ⊢
  exact LeN.mul (sq_nonneg' _) ht.key_lo (mono_sq (sq_nonneg' _) (mono_sq ht.key_lo (.of h))) (.of h) n n'

theorem F32.quint_out (ht : Btw t 0 1) : Btw (glm_ease_quint_out t) 0 1 := by
  have f := subOne ht
  have g := sqm f
  have gg := sq01 g (by norm_num; rep) (by norm_num)
  have m : Btw ((t - lit 1) * (t - lit 1) * ((t - lit 1) * (t - lit 1)) * (t - lit 1)) (-1) 0 := by
    refine Btw.mulN gg f ?_ ?_ ?_ ?_ ?_ ?_ <;> side
  simp only [cglm]; refine Btw.add m b1 ?_ ?_ ?_ ?_ <;> side
theorem C77_ease_quint_out (h0 : le (lit 0) t = true) (h : le t t' = true) (h1 : le t' (lit 1) = true) :
    le (lit 0) (glm_ease_quint_out t) = true ∧ le (glm_ease_quint_out t) (glm_ease_quint_out t') = true ∧
    le (glm_ease_quint_out t') (lit 1) = true := by
  have ht := btw_from01 h0 (le_trans' h h1)
  have ht' := btw_from01 (le_trans' h0 h) h1
  refine ⟨(btw_to01 (quint_out ht)).1, ?_, (btw_to01 (quint_out ht')).2⟩
  have n := (quint_out ht).ne_nan; have n' := (quint_out ht').ne_nan
  simp only [cglm] at n n' ⊢
  have hs : LeN (t - lit 1) (t' - lit 1) := .sub (.of h) (.refl _)
  exact LeN.add (.mulNP (sq_nonneg' _) (subOne ht').key_hi (mono_sq (sq_nonneg' _) (.sqN (subOne ht').key_hi hs)) hs) (.refl _) n n'

/-! ### curves in two halves: each half is monotone and they meet at 1/2 -/

theorem F32.twoSub (ht : Btw t (1 / 2) 1) : Btw (lit 2 * t - lit 2) (-1) 0 := by
  have : Btw (lit 2 * t) 1 2 := by refine Btw.mul b2 ht ?_ ?_ ?_ ?_ ?_ ?_ <;> side
  refine Btw.sub this b2 ?_ ?_ ?_ ?_ <;> side

theorem F32.cubic_lo (ht : Btw t 0 (1 / 2)) : Btw (lit 4 * t * t * t) 0 (1 / 2) := by
  have h1 : Btw (lit 4 * t) 0 2 := by refine Btw.mul b4 ht ?_ ?_ ?_ ?_ ?_ ?_ <;> side
  have h2 : Btw (lit 4 * t * t) 0 1 := by refine Btw.mul h1 ht ?_ ?_ ?_ ?_ ?_ ?_ <;> side
  refine Btw.mul h2 ht ?_ ?_ ?_ ?_ ?_ ?_ <;> side
theorem F32.cubic_hi (ht : Btw t (1 / 2) 1) : Btw (lit 0.5 * (lit 2 * t - lit 2) * (lit 2 * t - lit 2) *
    (lit 2 * t - lit 2) + lit 1) (1 / 2) 1 := by
  have f := twoSub ht
  have h1 : Btw (lit 0.5 * (lit 2 * t - lit 2)) (-(1 / 2)) 0 := by refine Btw.mulN bh f ?_ ?_ ?_ ?_ ?_ ?_ <;> side
  have h2 := by refine Btw.mulNN (x := 0) (y := 1 / 2) h1 f ?_ ?_ ?_ ?_ ?_ ?_ <;> side
  have h3 := by refine Btw.mulN (x := -(1 / 2)) (y := 0) h2 f ?_ ?_ ?_ ?_ ?_ ?_ <;> side
  refine Btw.add h3 b1 ?_ ?_ ?_ ?_ <;> side
theorem F32.cubic_lo_mono (ht : Btw t 0 (1 / 2)) (h : le t t' = true) : LeN (lit 4 * t * t * t) (lit 4 * t' * t' * t') := by
  have h1 : Btw (lit 4 * t) 0 2 := by refine Btw.mul b4 ht ?_ ?_ ?_ ?_ ?_ ?_ <;> side
  have h2 : Btw (lit 4 * t * t) 0 1 := by refine Btw.mul h1 ht ?_ ?_ ?_ ?_ ?_ ?_ <;> side
  exact .mul h2.key_lo ht.key_lo (.mul h1.key_lo ht.key_lo (.mulL (key_nonneg_lit (by rep) (by norm_num)) (.of h)) (.of h)) (.of h)
theorem F32.cubic_hi_mono (ht' : Btw t' (1 / 2) 1) (h : le t t' = true) :
    LeN (lit 0.5 * (lit 2 * t - lit 2) * (lit 2 * t - lit 2) * (lit 2 * t - lit 2) + lit 1)
      (lit 0.5 * (lit 2 * t' - lit 2) * (lit 2 * t' - lit 2) * (lit 2 * t' - lit 2) + lit 1) := by
  have f' := twoSub ht'
  have hf : LeN (lit 2 * t - lit 2) (lit 2 * t' - lit 2) :=
    .sub (.mulL (key_nonneg_lit (by rep) (by norm_num)) (.of h)) (.refl _)
  have k0 : 0 ≤ key (lit 0.5 : F32) := bh.key_lo.trans' (by norm_num)
  have h1' : Btw (lit 0.5 * (lit 2 * t' - lit 2)) (-(1 / 2)) 0 := by refine Btw.mulN bh f' ?_ ?_ ?_ ?_ ?_ ?_ <;> side
  have h2' := by refine Btw.mulNN (x := 0) (y := 1 / 2) h1' f' ?_ ?_ ?_ ?_ ?_ ?_ <;> side
  have m1 : LeN (lit 0.5 * (lit 2 * t - lit 2)) (lit 0.5 * (lit 2 * t' - lit 2)) := .mulL k0 hf
  have m2 : LeN (lit 0.5 * (lit 2 * t' - lit 2) * (lit 2 * t' - lit 2)) (lit 0.5 * (lit 2 * t - lit 2) * (lit 2 * t - lit 2)) := by
    have := LeN.mul (a := -(lit 0.5 * (lit 2 * t' - lit 2))) (b := -(lit 2 * t' - lit 2))
      (by rw [key_neg]; linarith [h1'.key_hi]) (by rw [key_neg]; linarith [f'.key_hi]) m1.neg hf.neg
    simpa only [neg_mul', mul_neg', neg_neg'] using this
  exact .add (.mulNP h2'.key_lo f'.key_hi m2 hf) (.refl _)

theorem F32.cubic_inout (ht : Btw t 0 1) : Btw (glm_ease_cubic_inout t) 0 1 := by
  simp only [cglm, flt_f32]
  rcases btw_half ht with ⟨c, hh⟩ | ⟨c, hh⟩
  · rw [if_pos c]
    obtain ⟨f, h1, h2⟩ := cubic_lo hh
    exact ⟨f, h1, h2.trans (by norm_num)⟩
  · rw [if_neg (by simp [c])]
    obtain ⟨f, h1, h2⟩ := cubic_hi hh
    exact ⟨f, le_trans (by norm_num) h1, h2⟩
theorem C77_ease_cubic_inout (h0 : le (lit 0) t = true) (h : le t t' = true) (h1 : le t' (lit 1) = true) :
    le (lit 0) (glm_ease_cubic_inout t) = true ∧ le (glm_ease_cubic_inout t) (glm_ease_cubic_inout t') = true ∧
    le (glm_ease_cubic_inout t') (lit 1) = true := by
  have ht := btw_from01 h0 (le_trans' h h1)
  have ht' := btw_from01 (le_trans' h0 h) h1
  refine ⟨(btw_to01 (cubic_inout ht)).1, ?_, (btw_to01 (cubic_inout ht')).2⟩
  have n := (cubic_inout ht).ne_nan; have n' := (cubic_inout ht').ne_nan
  simp only [cglm, flt_f32] at n n' ⊢
  rcases btw_half ht with ⟨c, hh⟩ | ⟨c, hh⟩ <;> rcases btw_half ht' with ⟨c', hh'⟩ | ⟨c', hh'⟩
  · rw [if_pos c] at n ⊢; rw [if_pos c'] at n' ⊢
    exact cubic_lo_mono hh h n n'
  · rw [if_pos c]; rw [if_neg (by simp [c'])]
    exact btw_le_of (cubic_lo hh) (cubic_hi hh') le_rfl
  · have e : lt t (lit 0.5) = true := by
      rw [key_lt_iff] at c' ⊢
      rw [key_le_iff] at h
      exact ⟨h.1, c'.2.1, lt_of_le_of_lt h.2.2 c'.2.2⟩
    rw [e] at c; cases c
  · rw [if_neg (by simp [c])] at n ⊢; rw [if_neg (by simp [c'])] at n' ⊢
    exact cubic_hi_mono hh' h n n'

theorem F32.quart_lo (ht : Btw t 0 (1 / 2)) : Btw (lit 8 * (t * t) * (t * t)) 0 (1 / 2) := by
  have h1 : Btw (t * t) 0 (1 / 4) := by refine Btw.mul ht ht ?_ ?_ ?_ ?_ ?_ ?_ <;> side
  have h2 : Btw (lit 8 * (t * t)) 0 2 := by refine Btw.mul b8 h1 ?_ ?_ ?_ ?_ ?_ ?_ <;> side
  refine Btw.mul h2 h1 ?_ ?_ ?_ ?_ ?_ ?_ <;> side
theorem F32.quart_lo_mono (ht : Btw t 0 (1 / 2)) (h : le t t' = true) :
    LeN (lit 8 * (t * t) * (t * t)) (lit 8 * (t' * t') * (t' * t')) := by
  have h1 : Btw (t * t) 0 (1 / 4) := by refine Btw.mul ht ht ?_ ?_ ?_ ?_ ?_ ?_ <;> side
  have h2 : Btw (lit 8 * (t * t)) 0 2 := by refine Btw.mul b8 h1 ?_ ?_ ?_ ?_ ?_ ?_ <;> side
  have m := mono_sq ht.key_lo (.of h)
  exact .mul h2.key_lo h1.key_lo (.mulL (key_nonneg_lit (by rep) (by norm_num)) m) m
theorem F32.halfSub (ht : Btw t (1 / 2) 1) : Btw ((t - lit 1) * (t - lit 1)) 0 (1 / 4) := by
  have f : Btw (t - lit 1) (-(1 / 2)) 0 := by refine Btw.sub ht b1 ?_ ?_ ?_ ?_ <;> side
  refine Btw.mulNN f f ?_ ?_ ?_ ?_ ?_ ?_ <;> side
theorem F32.quart_hi (ht : Btw t (1 / 2) 1) :
    Btw (-lit 8 * ((t - lit 1) * (t - lit 1)) * ((t - lit 1) * (t - lit 1)) + lit 1) (1 / 2) 1 := by
  have g := halfSub ht
  have h1 : Btw (lit 8 * ((t - lit 1) * (t - lit 1))) 0 2 := by refine Btw.mul b8 g ?_ ?_ ?_ ?_ ?_ ?_ <;> side
  have h2 := by refine Btw.mul (x := 0) (y := 1 / 2) h1 g ?_ ?_ ?_ ?_ ?_ ?_ <;> side
  have h3 := h2.neg
  rw [← neg_mul', ← neg_mul'] at h3
  refine Btw.add h3 b1 ?_ ?_ ?_ ?_ <;> side
theorem F32.quart_hi_mono (ht' : Btw t' (1 / 2) 1) (h : le t t' = true) :
    LeN (-lit 8 * ((t - lit 1) * (t - lit 1)) * ((t - lit 1) * (t - lit 1)) + lit 1)
      (-lit 8 * ((t' - lit 1) * (t' - lit 1)) * ((t' - lit 1) * (t' - lit 1)) + lit 1) := by
  have g' := halfSub ht'
  have h1' : Btw (lit 8 * ((t' - lit 1) * (t' - lit 1))) 0 2 := by refine Btw.mul b8 g' ?_ ?_ ?_ ?_ ?_ ?_ <;> side
  have f' : Btw (t' - lit 1) (-(1 / 2)) 0 := by refine Btw.sub ht' b1 ?_ ?_ ?_ ?_ <;> side
  have m : LeN ((t' - lit 1) * (t' - lit 1)) ((t - lit 1) * (t - lit 1)) := .sqN f'.key_hi (.sub (.of h) (.refl _))
  have m2 := (LeN.mul h1'.key_lo g'.key_lo (.mulL (key_nonneg_lit (by rep) (by norm_num)) m) m).neg
  rw [← neg_mul', ← neg_mul', ← neg_mul', ← neg_mul'] at m2
  exact .add m2 (.refl _)

theorem F32.quart_inout (ht : Btw t 0 1) : Btw (glm_ease_quart_inout t) 0 1 := by
  simp only [cglm, flt_f32]
  rcases btw_half ht with ⟨c, hh⟩ | ⟨c, hh⟩
  · rw [if_pos c]
    obtain ⟨f, h1, h2⟩ := quart_lo hh
    exact ⟨f, h1, h2.trans (by norm_num)⟩
  · rw [if_neg (by simp [c])]
    obtain ⟨f, h1, h2⟩ := quart_hi hh
    exact ⟨f, le_trans (by norm_num) h1, h2⟩
theorem C77_ease_quart_inout (h0 : le (lit 0) t = true) (h : le t t' = true) (h1 : le t' (lit 1) = true) :
    le (lit 0) (glm_ease_quart_inout t) = true ∧ le (glm_ease_quart_inout t) (glm_ease_quart_inout t') = true ∧
    le (glm_ease_quart_inout t') (lit 1) = true := by
  have ht := btw_from01 h0 (le_trans' h h1)
  have ht' := btw_from01 (le_trans' h0 h) h1
  refine ⟨(btw_to01 (quart_inout ht)).1, ?_, (btw_to01 (quart_inout ht')).2⟩
  have n := (quart_inout ht).ne_nan; have n' := (quart_inout ht').ne_nan
  simp only [cglm, flt_f32] at n n' ⊢
  rcases btw_half ht with ⟨c, hh⟩ | ⟨c, hh⟩ <;> rcases btw_half ht' with ⟨c', hh'⟩ | ⟨c', hh'⟩
  · rw [if_pos c] at n ⊢; rw [if_pos c'] at n' ⊢
    exact quart_lo_mono hh h n n'
  · rw [if_pos c]; rw [if_neg (by simp [c'])]
    exact btw_le_of (quart_lo hh) (quart_hi hh') le_rfl
  · have e : lt t (lit 0.5) = true := by
      rw [key_lt_iff] at c' ⊢
      rw [key_le_iff] at h
      exact ⟨h.1, c'.2.1, lt_of_le_of_lt h.2.2 c'.2.2⟩
    rw [e] at c; cases c
  · rw [if_neg (by simp [c])] at n ⊢; rw [if_neg (by simp [c'])] at n' ⊢
    exact quart_hi_mono hh' h n n'

theorem F32.quint_lo (ht : Btw t 0 (1 / 2)) : Btw (lit 16 * (t * t) * (t * t) * t) 0 (1 / 2) := by
  have h1 : Btw (t * t) 0 (1 / 4) := by refine Btw.mul ht ht ?_ ?_ ?_ ?_ ?_ ?_ <;> side
  have h2 : Btw (lit 16 * (t * t)) 0 4 := by refine Btw.mul b16 h1 ?_ ?_ ?_ ?_ ?_ ?_ <;> side
  have h3 : Btw (lit 16 * (t * t) * (t * t)) 0 1 := by refine Btw.mul h2 h1 ?_ ?_ ?_ ?_ ?_ ?_ <;> side
  refine Btw.mul h3 ht ?_ ?_ ?_ ?_ ?_ ?_ <;> side
theorem F32.quint_lo_mono (ht : Btw t 0 (1 / 2)) (h : le t t' = true) :
    LeN (lit 16 * (t * t) * (t * t) * t) (lit 16 * (t' * t') * (t' * t') * t') := by
  have h1 : Btw (t * t) 0 (1 / 4) := by refine Btw.mul ht ht ?_ ?_ ?_ ?_ ?_ ?_ <;> side
  have h2 : Btw (lit 16 * (t * t)) 0 4 := by refine Btw.mul b16 h1 ?_ ?_ ?_ ?_ ?_ ?_ <;> side
  have h3 : Btw (lit 16 * (t * t) * (t * t)) 0 1 := by refine Btw.mul h2 h1 ?_ ?_ ?_ ?_ ?_ ?_ <;> side
  have m := mono_sq ht.key_lo (.of h)
  exact .mul h3.key_lo ht.key_lo (.mul h2.key_lo h1.key_lo (.mulL (key_nonneg_lit (by rep) (by norm_num)) m) m) (.of h)
theorem F32.quint_hi (ht : Btw t (1 / 2) 1) : Btw (lit 0.5 * ((lit 2 * t - lit 2) * (lit 2 * t - lit 2)) *
    ((lit 2 * t - lit 2) * (lit 2 * t - lit 2)) * (lit 2 * t - lit 2) + lit 1) (1 / 2) 1 := by
  have f := twoSub ht
  have g := sqm f
  have h1 := by refine Btw.mul (x := 0) (y := 1 / 2) bh g ?_ ?_ ?_ ?_ ?_ ?_ <;> side
  have h2 := by refine Btw.mul (x := 0) (y := 1 / 2) h1 g ?_ ?_ ?_ ?_ ?_ ?_ <;> side
  have h3 := by refine Btw.mulN (x := -(1 / 2)) (y := 0) h2 f ?_ ?_ ?_ ?_ ?_ ?_ <;> side
  refine Btw.add h3 b1 ?_ ?_ ?_ ?_ <;> side
theorem F32.quint_hi_mono (ht' : Btw t' (1 / 2) 1) (h : le t t' = true) :
    LeN (lit 0.5 * ((lit 2 * t - lit 2) * (lit 2 * t - lit 2)) * ((lit 2 * t - lit 2) * (lit 2 * t - lit 2)) *
      (lit 2 * t - lit 2) + lit 1)
      (lit 0.5 * ((lit 2 * t' - lit 2) * (lit 2 * t' - lit 2)) * ((lit 2 * t' - lit 2) * (lit 2 * t' - lit 2)) *
      (lit 2 * t' - lit 2) + lit 1) := by
  have f' := twoSub ht'
  have g' := sqm f'
  have k0 : 0 ≤ key (lit 0.5 : F32) := bh.key_lo.trans' (by norm_num)
  have hf : LeN (lit 2 * t - lit 2) (lit 2 * t' - lit 2) :=
    .sub (.mulL (key_nonneg_lit (by rep) (by norm_num)) (.of h)) (.refl _)
  have h1' := by refine Btw.mul (x := 0) (y := 1 / 2) bh g' ?_ ?_ ?_ ?_ ?_ ?_ <;> side
  have h2' := by refine Btw.mul (x := 0) (y := 1 / 2) h1' g' ?_ ?_ ?_ ?_ ?_ ?_ <;> side
  have m := LeN.sqN f'.key_hi hf
  exact .add (.mulNP h2'.key_lo f'.key_hi (.mul h1'.key_lo g'.key_lo (.mulL k0 m) m) hf) (.refl _)

theorem F32.quint_inout (ht : Btw t 0 1) : Btw (glm_ease_quint_inout t) 0 1 := by
  simp only [cglm, flt_f32]
  rcases btw_half ht with ⟨c, hh⟩ | ⟨c, hh⟩
  · rw [if_pos c]
    obtain ⟨f, h1, h2⟩ := quint_lo hh
    exact ⟨f, h1, h2.trans (by norm_num)⟩
  · rw [if_neg (by simp [c])]
    obtain ⟨f, h1, h2⟩ := quint_hi hh
    exact ⟨f, le_trans (by norm_num) h1, h2⟩
theorem C77_ease_quint_inout (h0 : le (lit 0) t = true) (h : le t t' = true) (h1 : le t' (lit 1) = true) :
    le (lit 0) (glm_ease_quint_inout t) = true ∧ le (glm_ease_quint_inout t) (glm_ease_quint_inout t') = true ∧
    le (glm_ease_quint_inout t') (lit 1) = true := by
  have ht := btw_from01 h0 (le_trans' h h1)
  have ht' := btw_from01 (le_trans' h0 h) h1
  refine ⟨(btw_to01 (quint_inout ht)).1, ?_, (btw_to01 (quint_inout ht')).2⟩
  have n := (quint_inout ht).ne_nan; have n' := (quint_inout ht').ne_nan
  simp only [cglm, flt_f32] at n n' ⊢
  rcases btw_half ht with ⟨c, hh⟩ | ⟨c, hh⟩ <;> rcases btw_half ht' with ⟨c', hh'⟩ | ⟨c', hh'⟩
  · rw [if_pos c] at n ⊢; rw [if_pos c'] at n' ⊢
    exact quint_lo_mono hh h n n'
  · rw [if_pos c]; rw [if_neg (by simp [c'])]
    exact btw_le_of (quint_lo hh) (quint_hi hh') le_rfl
  · have e : lt t (lit 0.5) = true := by
      rw [key_lt_iff] at c' ⊢
      rw [key_le_iff] at h
      exact ⟨h.1, c'.2.1, lt_of_le_of_lt h.2.2 c'.2.2⟩
    rw [e] at c; cases c
  · rw [if_neg (by simp [c])] at n ⊢; rw [if_neg (by simp [c'])] at n' ⊢
    exact quint_hi_mono hh' h n n'

/-! ### the circular curve -/

theorem F32.circ_in (ht : Btw t 0 1) : Btw (glm_ease_circ_in t) 0 1 := by
  have h1 : Btw (t * t) 0 1 := by refine Btw.mul ht ht ?_ ?_ ?_ ?_ ?_ ?_ <;> side
  have h2 := Btw.sqrt01 (oneSub h1)
  exact oneSub h2
theorem C77_ease_circ_in (h0 : le (lit 0) t = true) (h : le t t' = true) (h1 : le t' (lit 1) = true) :
    le (lit 0) (glm_ease_circ_in t) = true ∧ le (glm_ease_circ_in t) (glm_ease_circ_in t') = true ∧
    le (glm_ease_circ_in t') (lit 1) = true := by
  have ht := btw_from01 h0 (le_trans' h h1)
  have ht' := btw_from01 (le_trans' h0 h) h1
  refine ⟨(btw_to01 (circ_in ht)).1, ?_, (btw_to01 (circ_in ht')).2⟩
  exact LeN.sub (.refl _) (.sqrt (.sub (.refl _) (mono_sq ht.key_lo (.of h)))) (circ_in ht).ne_nan (circ_in ht').ne_nan

/-! ### curves that are not monotone after rounding -/

/-- the decelerating quadratic curve has neighbouring arguments with results in the wrong order ... -/
theorem C77_ease_quad_out_fails : ∃ t t' : F32, le (lit 0) t = true ∧ lt t t' = true ∧ le t' (lit 1) = true ∧
    lt (glm_ease_quad_out t') (glm_ease_quad_out t) = true := by
  refine ⟨.ofRat false (14805541 / 2 ^ 24), .ofRat false (14805542 / 2 ^ 24), ?_⟩
  simp only [cglm, lit_f32]
  decide +kernel

/-- ... and so has the decelerating circular curve -/
theorem C77_ease_circ_out_fails : ∃ t t' : F32, le (lit 0) t = true ∧ lt t t' = true ∧ le t' (lit 1) = true ∧
    lt (glm_ease_circ_out t') (glm_ease_circ_out t) = true := by
  refine ⟨.ofRat false (16317446 / 2 ^ 24), .ofRat false (16317447 / 2 ^ 24), ?_⟩
  simp only [cglm, lit_f32, sqrtf_f32]
  decide +kernel

end Cglm
