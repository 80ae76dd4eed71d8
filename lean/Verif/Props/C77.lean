import Verif.F32Mono
import Verif.F32Norm
import Verif.Gen
/-!
# C77: order survives rounding

Scalar functions.  Every function is evaluated in binary32 with NaN, infinities, signed zeros, subnormals and rounding.
`F32.le a b` is the C comparison `a <= b`.  A larger input never gives a smaller output.
-/
open Cglm F32
namespace Cglm
set_option linter.unusedSectionVars false
variable [Libm]

theorem F32.leN_min {a a' b b' : F32} (ha : le a a' = true) (hb : le b b' = true) : le (glm_min a b) (glm_min a' b') = true := by
  simp only [cglm, flt_f32]
  simp only [key_le_iff] at ha hb ⊢
  split_ifs with c1 c2 c2 <;> simp only [key_lt_iff] at c1 c2 <;> simp_all <;> linarith

theorem F32.leN_max {a a' b b' : F32} (ha : le a a' = true) (hb : le b b' = true) : le (glm_max a b) (glm_max a' b') = true := by
  simp only [cglm, flt_f32]
  simp only [key_le_iff] at ha hb ⊢
  split_ifs with c1 c2 c2 <;> simp only [key_lt_iff] at c1 c2 <;> simp_all <;> linarith

/-- the minimum and the maximum are monotone in both arguments -/
theorem C77_min (a a' b b' : F32) (ha : le a a' = true) (hb : le b b' = true) :
    le (glm_min a b) (glm_min a' b') = true := leN_min ha hb
theorem C77_max (a a' b b' : F32) (ha : le a a' = true) (hb : le b b' = true) :
    le (glm_max a b) (glm_max a' b') = true := leN_max ha hb

example : le (.ofRat false 1 : F32) (.ofRat false 2) = true ∧ le (.ofRat false (-3)) (inf false) = true := by
  constructor <;> decide +kernel

/-- clamping is monotone in the clamped number and in both bounds -/
theorem C77_clamp (x x' lo lo' hi hi' : F32) (hx : le x x' = true) (h1 : le lo lo' = true) (h2 : le hi hi' = true) :
    le (glm_clamp x lo hi) (glm_clamp x' lo' hi') = true := leN_min (leN_max hx h1) h2

theorem F32.lit_ne (q : ℚ) : (lit q : F32) ≠ nan := ofRat_ne_nan _ _

theorem C77_clamp_zo (x x' : F32) (hx : le x x' = true) : le (glm_clamp_zo x) (glm_clamp_zo x') = true :=
  leN_min (leN_max hx (le_refl' (lit_ne 0))) (le_refl' (lit_ne 1))

/-- the step function rises with `x` and falls with the edge -/
theorem C77_step (edge edge' x x' : F32) (he : le edge' edge = true) (hx : le x x' = true) :
    le (glm_step edge x) (glm_step edge' x') = true := by
  have h01 : le (lit 0 : F32) (lit 1) = true := by show le (ofRat false 0) (ofRat false 1) = true; decide +kernel
  simp only [cglm, flt_f32]
  split_ifs with c1 c2 c2
  · exact le_refl' (lit_ne 0)
  · exact h01
  · simp only [key_le_iff, key_lt_iff] at *
    exact absurd ⟨(le_ne (key_le_iff.mpr hx)).1, he.2.1, by linarith [hx.2.2, he.2.2, c2.2.2]⟩ c1
  · exact le_refl' (lit_ne 1)

/-- interpolation rises with the parameter when it goes upwards ... -/
theorem C77_lerp (a b t t' : F32) (hab : le a b = true) (ht : le t t' = true) (h : glm_lerp a b t ≠ nan)
    (h' : glm_lerp a b t' ≠ nan) : le (glm_lerp a b t) (glm_lerp a b t') = true := by
  simp only [cglm] at h h' ⊢
  have hd : b - a ≠ nan := (mul_ne (add_ne h).2).2
  have k : 0 ≤ key (b - a) := by
    have : le (zero false) (b - a) = true := by
      by_cases fa : a.isFin = true
      · have := sub_le_sub' hab (le_refl' (le_ne hab).1) (by rw [sub_self_fin fa]; simp) hd
        rwa [sub_self_fin fa] at this
      · have ha := (add_ne h).1
        rcases a with _ | s | s | ⟨q, hq⟩
        · exact absurd rfl ha
        · cases s
          · rw [eq_inf_of_le hab] at hd; exact absurd (sub_self_inf false) hd
          · have : b - inf true = inf false := by
              rw [sub_def]; rw [sub_def] at hd; exact add_inf_eq hd
            rw [this]; exact le_inf (by simp)
        · simp at fa
        · simp at fa
    exact (key_le_iff.mp this).2.2
  exact LeN.add (.refl a) (.mulR k (.of ht)) h h'

/-- ... and falls when it goes downwards -/
theorem C77_lerp_down (a b t t' : F32) (hab : le b a = true) (ht : le t t' = true) (h : glm_lerp a b t ≠ nan)
    (h' : glm_lerp a b t' ≠ nan) : le (glm_lerp a b t') (glm_lerp a b t) = true := by
  simp only [cglm] at h h' ⊢
  have hd : b - a ≠ nan := (mul_ne (add_ne h).2).2
  have k : key (b - a) ≤ 0 := by
    have : le (b - a) (zero false) = true := by
      by_cases fa : a.isFin = true
      · have := sub_le_sub' hab (le_refl' (le_ne hab).2) hd (by rw [sub_self_fin fa]; simp)
        rwa [sub_self_fin fa] at this
      · have ha := (add_ne h).1
        rcases a with _ | s | s | ⟨q, hq⟩
        · exact absurd rfl ha
        · cases s
          · have : b - inf false = inf true := by
              rw [sub_def]; rw [sub_def] at hd; exact add_inf_eq hd
            rw [this]; exact inf_le (by simp)
          · rw [eq_ninf_of_le hab] at hd; exact absurd (sub_self_inf true) hd
        · simp at fa
        · simp at fa
    exact (key_le_iff.mp this).2.2
  rw [mul_comm' t, mul_comm' t'] at *
  exact LeN.add (.refl a) (.mulN k (.of ht)) h' h

example : glm_lerp (.ofRat false 1 : F32) (.ofRat false 5) (.ofRat false (1 / 3)) ≠ nan := by
  show ofRat false 1 + ofRat false (1 / 3) * (ofRat false 5 - ofRat false 1) ≠ nan; decide +kernel

theorem C77_lerpc (a b t t' : F32) (hab : le a b = true) (ht : le t t' = true) (h : glm_lerpc a b t ≠ nan)
    (h' : glm_lerpc a b t' ≠ nan) : le (glm_lerpc a b t) (glm_lerpc a b t') = true :=
  C77_lerp a b _ _ hab (C77_clamp_zo t t' ht) h h'

/-- the clamped interpolation starts at `a` and never falls below it -/
theorem C77_lerpc_lower (a b t : F32) (hab : le a b = true) (hd : (b - a).isFin = true) :
    le a (glm_lerpc a b t) = true := by
  obtain ⟨fb, fa⟩ := sub_isFin hd
  have ht : le (zero false) (glm_clamp_zo t) = true ∧ le (glm_clamp_zo t) (lit 1) = true := by
    have h01 : le (lit 0 : F32) (lit 1) = true := by show le (ofRat false 0) (ofRat false 1) = true; decide +kernel
    have z : (lit 0 : F32) = zero false := ofRat_zero false
    rw [← z]
    simp only [cglm, flt_f32]
    simp only [key_le_iff] at h01 ⊢
    obtain ⟨h1, h2, h3⟩ := h01
    split_ifs with c1 c2 c2 <;> simp only [key_lt_iff] at c1 c2 <;> simp_all [le_of_lt]
  have l1 : Has (lit 1 : F32) 1 := .lit rep_one
  have ft : (glm_clamp_zo t).isFin = true := by
    have n := (le_ne ht.1).2
    have k1 := (key_le_iff.mp ht.1).2.2
    have k2 := (key_le_iff.mp ht.2).2.2
    rw [l1.key] at k2
    rcases hg : glm_clamp_zo t with _ | s | s | ⟨q, hq⟩
    · exact absurd hg n
    · rw [hg] at k1 k2; cases s
      · norm_num [key] at k2
      · norm_num [key] at k1
    · rfl
    · rfl
  have k : 0 ≤ key (b - a) := by
    rw [key_fin hd, sub_val hd]
    rw [le_fin fa fb] at hab
    exact rnd_nonneg (by linarith)
  have hm : glm_clamp_zo t * (b - a) ≠ nan := by rw [mul_ofRat ft hd]; exact ofRat_ne_nan _ _
  have hz : zero false * (b - a) ≠ nan := by rw [mul_ofRat rfl hd]; exact ofRat_ne_nan _ _
  have hmul := mul_le_mul_right' k ht.1 hz hm
  have hs : a + glm_clamp_zo t * (b - a) ≠ nan := by
    rcases hg : glm_clamp_zo t * (b - a) with _ | s | s | ⟨q, hq⟩
    · exact absurd hg hm
    · rcases a with _ | r | r | ⟨q, hq⟩ <;> simp at fa <;> (show inf s ≠ nan; simp)
    · obtain ⟨r, e⟩ := add_ofRat fa (b := zero s) rfl; rw [e]; exact ofRat_ne_nan _ _
    · obtain ⟨r, e⟩ := add_ofRat fa (b := fin q hq) rfl; rw [e]; exact ofRat_ne_nan _ _
  have hz' : a + zero false * (b - a) ≠ nan := by
    rw [mul_ofRat rfl hd]
    simp only [val, zero_mul, ofRat_zero]
    obtain ⟨r, e⟩ := add_ofRat fa (b := zero ((zero false).sgn != (b - a).sgn)) rfl; rw [e]; exact ofRat_ne_nan _ _
  have := add_le_add' (le_refl' (isNum_of_isFin fa)) hmul hz' hs
  refine le_trans' ?_ this
  rw [mul_ofRat rfl hd]
  simp only [val, zero_mul, ofRat_zero]
  have := Has.add_exact (.of fa) (⟨rfl, rfl⟩ : Has (zero ((zero false).sgn != (b - a).sgn)) 0) (by rw [add_zero]; exact rep_val a)
  rw [le_fin fa this.1, this.2, add_zero]

/-- It does not always stay below `b`: rounding can carry the end point past it. -/
theorem C77_lerpc_upper_fails : ∃ a b : F32, le a b = true ∧ a.isFin = true ∧ b.isFin = true ∧
    lt b (glm_lerpc a b (lit 1)) = true := by
  refine ⟨.ofRat false (-11893822), .ofRat false 15834369, by decide +kernel, by decide +kernel, by decide +kernel, ?_⟩
  simp only [cglm, flt_f32, lit_f32]
  decide +kernel

/-- a difference of two different numbers is not rounded to zero -/
theorem F32.sub_pos' {a b : F32} (h : lt a b = true) (hd : b - a ≠ nan) : 0 < key (b - a) := by
  rw [key_lt_iff] at h
  by_cases fd : (b - a).isFin = true
  · obtain ⟨fb, fa⟩ := sub_isFin fd
    rw [key_fin fa, key_fin fb] at h
    rw [key_fin fd, sub_val fd]
    obtain ⟨m, hm⟩ := rep_grid (rep_val b)
    obtain ⟨n, hn⟩ := rep_grid (rep_val a)
    have e : b.val - a.val = ((m - n : ℤ) : ℚ) * 2 ^ (-149 : ℤ) := by rw [hm, hn]; push_cast; ring
    have h2 : (1 : ℚ) * 2 ^ (-149 : ℤ) ≤ b.val - a.val := by
      rw [e]
      refine mul_le_mul_of_nonneg_right ?_ (two_zpow_pos _).le
      have : (0 : ℚ) < ((m - n : ℤ) : ℚ) := by
        by_contra hc
        push Not at hc
        have := mul_nonpos_of_nonpos_of_nonneg hc (two_zpow_pos (-149)).le
        rw [← e] at this; linarith [h.2.2]
      exact_mod_cast (show (0 : ℤ) < m - n by exact_mod_cast this)
    have h3 : Rep ((1 : ℚ) * 2 ^ (-149 : ℤ)) := ⟨1, -149, by norm_num, by norm_num, by norm_num, by norm_num⟩
    exact lt_of_lt_of_le (by positivity) (le_rnd_of_le h3 h2)
  · have hle : le (zero false) (b - a) = true := by
      by_cases fa : a.isFin = true
      · have hab : le a b = true := le_of_lt' (key_lt_iff.mpr h)
        have := sub_le_sub' hab (le_refl' h.1) (by rw [sub_self_fin fa]; simp) hd
        rwa [sub_self_fin fa] at this
      · rcases a with _ | s | s | ⟨q, hq⟩
        · exact absurd rfl h.1
        · cases s
          · exact absurd h.2.2 (not_lt.mpr (key_bound b).2)
          · have : b - inf true = inf false := by
              rw [sub_def]; rw [sub_def] at hd; exact add_inf_eq hd
            rw [this]; exact le_inf (by simp)
        · simp at fa
        · simp at fa
    have k := (key_le_iff.mp hle).2.2
    rcases hg : b - a with _ | s | s | ⟨q, hq⟩
    · exact absurd hg hd
    · rw [hg] at k
      cases s
      · norm_num [key]
      · norm_num [key] at k
    · rw [hg] at fd; simp at fd
    · rw [hg] at fd; simp at fd

/-- the percentage rises with the current value -/
theorem C77_percent (a b x x' : F32) (hab : lt a b = true) (hx : le x x' = true) (h : glm_percent a b x ≠ nan)
    (h' : glm_percent a b x' ≠ nan) : le (glm_percent a b x) (glm_percent a b x') = true := by
  simp only [cglm, feq_f32] at h h' ⊢
  split_ifs with c
  · exact le_refl' (lit_ne 1)
  · rw [if_neg c] at h h'
    have hd := (div_ne h).2
    exact LeN.div (sub_pos' hab hd) (.sub (.of hx) (.refl a)) h h'

/-- a value between the ends gives a percentage between 0 and 1, the ends give exactly 0 and 1 -/
theorem C77_percent_range (a b x : F32) (hab : lt a b = true) (hd : (b - a).isFin = true) (h1 : le a x = true)
    (h2 : le x b = true) : le (lit 0) (glm_percent a b x) = true ∧ le (glm_percent a b x) (lit 1) = true ∧
    eq (glm_percent a b a) (lit 0) = true ∧ eq (glm_percent a b b) (lit 1) = true := by
  obtain ⟨fb, fa⟩ := sub_isFin hd
  have hp := sub_pos' hab (isNum_of_isFin hd)
  rw [key_fin hd] at hp
  have fx : x.isFin = true := by
    refine fin_of (le_ne h1).2 ?_ ?_
    · rintro rfl; rw [eq_inf_of_le h2] at fb; simp at fb
    · rintro rfl; rw [eq_ninf_of_le h1] at fa; simp at fa
  rw [le_fin fa fx] at h1
  rw [le_fin fx fb] at h2
  have l0 : Has (lit 0 : F32) 0 := .lit rep_zero
  have l1 : Has (lit 1 : F32) 1 := .lit rep_one
  have c : ¬ eq (b - a) (lit 0) = true := by
    rw [eq_fin hd l0.1, l0.2]; exact hp.ne'
  have hs := sub_val hd
  have hlt := abs_lt.mp (val_lt (b - a))
  have hxa : Has (x - a) (rnd (x.val - a.val)) := by
    refine Has.sub (.of fx) (.of fa) ?_
    rw [abs_of_nonneg (rnd_nonneg (by linarith))]
    refine lt_of_le_of_lt (rnd_mono (show x.val - a.val ≤ b.val - a.val by linarith)) ?_
    rw [← hs]; exact hlt.2
  have q0 : 0 ≤ rnd (x.val - a.val) := rnd_nonneg (by linarith)
  have q1 : rnd (x.val - a.val) ≤ (b - a).val := by rw [hs]; exact rnd_mono (by linarith)
  have hq : Has ((x - a) / (b - a)) (rnd (rnd (x.val - a.val) / (b - a).val)) := by
    have r := rnd_between rep_zero rep_one (div_nonneg q0 hp.le) ((div_le_one hp).mpr q1)
    have f := (div_fin hxa.1 hd hp.ne').1.mpr (by
      rw [hxa.2, abs_of_nonneg r.1]; exact lt_of_le_of_lt r.2 (by norm_num))
    exact ⟨f, by rw [div_val hd f, hxa.2]⟩
  have r := rnd_between rep_zero rep_one (div_nonneg q0 hp.le) ((div_le_one hp).mpr q1)
  have e : glm_percent a b x = (x - a) / (b - a) := by simp only [cglm, feq_f32, if_neg c]
  have e0 : glm_percent a b a = (a - a) / (b - a) := by simp only [cglm, feq_f32, if_neg c]
  have e1 : glm_percent a b b = (b - a) / (b - a) := by simp only [cglm, feq_f32, if_neg c]
  rw [e, e0, e1, le_fin l0.1 hq.1, le_fin hq.1 l1.1, l0.2, l1.2, hq.2]
  refine ⟨r.1, r.2, ?_, ?_⟩
  · rw [sub_self_fin fa, div_ofRat rfl hd hp.ne']
    simp only [val, zero_div, ofRat_zero]
    rw [eq_fin rfl l0.1, l0.2]; rfl
  · have f := (div_fin hd hd hp.ne').1.mpr (by rw [div_self hp.ne', rnd_rep rep_one]; norm_num)
    rw [eq_fin f l1.1, div_val hd f, div_self hp.ne', rnd_rep rep_one, l1.2]

example : lt (.ofRat false (1 / 10) : F32) (.ofRat false 3) = true ∧
    ((.ofRat false 3 : F32) - .ofRat false (1 / 10)).isFin = true := by constructor <;> decide +kernel

theorem C77_percentc (a b x x' : F32) (hab : lt a b = true) (hx : le x x' = true) (h : glm_percent a b x ≠ nan)
    (h' : glm_percent a b x' ≠ nan) : le (glm_percentc a b x) (glm_percentc a b x') = true :=
  C77_clamp_zo _ _ (C77_percent a b x x' hab hx h h')

/-- angle conversions are monotone -/
theorem C77_rad (x x' : F32) (hx : le x x' = true) (h : glm_rad x ≠ nan) (h' : glm_rad x' ≠ nan) :
    le (glm_rad x) (glm_rad x') = true := by
  simp only [cglm] at h h' ⊢
  refine LeN.div ?_ (.mulR ?_ (.of hx)) h h'
  · show 0 < key (ofRat false _); decide +kernel
  · show 0 ≤ key (ofRat false _); decide +kernel

theorem C77_deg (x x' : F32) (hx : le x x' = true) (h : glm_deg x ≠ nan) (h' : glm_deg x' ≠ nan) :
    le (glm_deg x) (glm_deg x') = true := by
  simp only [cglm] at h h' ⊢
  refine LeN.div ?_ (.mulR ?_ (.of hx)) h h'
  · show 0 < key (ofRat false _); decide +kernel
  · show 0 ≤ key (ofRat false _); decide +kernel

/-- The smoothstep polynomial is not monotone in binary32: two neighbouring arguments give results in the wrong order. -/
theorem C77_smooth_fails : ∃ t t' : F32, le (lit 0) t = true ∧ lt t t' = true ∧ le t' (lit 1) = true ∧
    lt (glm_smooth t') (glm_smooth t) = true := by
  refine ⟨.ofRat false (15123443 / 2 ^ 24), .ofRat false (15123444 / 2 ^ 24), ?_⟩
  simp only [cglm, lit_f32]
  decide +kernel

end Cglm
