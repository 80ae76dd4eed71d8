import Verif.Props.C77Ease
import Verif.F32Err
/-!
# C77: the remaining curves stay within 0 and 1

These curves are not (or are not known to be) monotone after rounding, but no rounding carries them past 0 or 1.
-/
open Cglm F32
namespace Cglm
set_option linter.unusedSectionVars false
variable [Libm] {t : F32}

/-- half a unit above 1 is rounded to 1 -/
theorem F32.rnd_le_one {q : ℚ} (h : q ≤ 1 + u) : rnd q ≤ 1 := by
  have e : rnd (1 + u) = 1 := by unfold u; decide +kernel
  rw [← e]; exact rnd_mono h

theorem F32.btw_ofRat_one {s : Bool} {q : ℚ} (h0 : 0 ≤ q) (h : q ≤ 1 + u) : Btw (ofRat s q) 0 1 := by
  have r := rnd_nonneg h0
  have r' := rnd_le_one h
  have f : (F32.ofRat s q).isFin = true := by
    rw [ofRat_isFin, abs_of_nonneg r]; exact lt_of_le_of_lt r' (by norm_num)
  exact ⟨f, by rw [ofRat_val f]; exact r, by rw [ofRat_val f]; exact r'⟩

theorem F32.two_sub (ht : Btw t 0 1) : Btw (lit 2 - t) 1 2 ∧ (lit 2 - t).val ≤ (2 - t.val) * (1 + u) := by
  have b : Btw (lit 2 - t) 1 2 := by refine Btw.sub b2 ht ?_ ?_ ?_ ?_ <;> side
  refine ⟨b, ?_⟩
  have l2 : Has (lit 2 : F32) 2 := .lit (by rep)
  rw [sub_val b.1, l2.2]
  have := rnd_add_err (a := 2) (b := -t.val) rep_2 (rep_neg (rep_val t))
  rw [← sub_eq_add_neg] at this
  have h0 : 0 ≤ 2 - t.val := by linarith [ht.2.2]
  rw [abs_of_nonneg h0] at this
  have := (abs_le.mp this).2
  linarith

theorem F32.two_sub_mul (ht : Btw t 0 1) : Btw ((lit 2 - t) * t) 0 1 := by
  obtain ⟨b, h⟩ := two_sub ht
  rw [mul_ofRat b.1 ht.1]
  refine btw_ofRat_one (mul_nonneg (by linarith [b.2.1]) ht.2.1) ?_
  have h1 := mul_le_mul_of_nonneg_right h ht.2.1
  refine h1.trans ?_
  have := u_pos
  nlinarith [mul_nonneg this.le (sq_nonneg (t.val - 1)), sq_nonneg (t.val - 1)]

theorem C77_ease_quad_out_range (h0 : le (lit 0) t = true) (h1 : le t (lit 1) = true) :
    le (lit 0) (glm_ease_quad_out t) = true ∧ le (glm_ease_quad_out t) (lit 1) = true := by
  have ht := btw_from01 h0 h1
  refine btw_to01 ?_
  have b := two_sub_mul ht
  have e : glm_ease_quad_out t = (-(t - lit 2)) * t := by
    simp only [cglm]; rw [mul_comm' t, neg_mul']
  have b' : Btw (t - lit 2) (-2) (-1) := by
    have n1 : Rep (-1) := rep_neg rep_one
    refine Btw.sub ht b2 ?_ ?_ ?_ ?_ <;> first | exact n1 | side
  have l2 : Has (lit 2 : F32) 2 := .lit (by rep)
  have v : (-(t - lit 2)).val = (lit 2 - t).val := by
    rw [neg_val, sub_val b'.1, sub_val (two_sub ht).1.1, ← rnd_neg, neg_sub]
  rw [e, mul_ofRat (by rw [neg_isFin]; exact b'.1) ht.1, v]
  refine btw_ofRat_one (mul_nonneg (by linarith [(two_sub ht).1.2.1]) ht.2.1) ?_
  refine (mul_le_mul_of_nonneg_right (two_sub ht).2 ht.2.1).trans ?_
  have := u_pos
  nlinarith [mul_nonneg this.le (sq_nonneg (t.val - 1)), sq_nonneg (t.val - 1)]

theorem C77_ease_circ_out_range (h0 : le (lit 0) t = true) (h1 : le t (lit 1) = true) :
    le (lit 0) (glm_ease_circ_out t) = true ∧ le (glm_ease_circ_out t) (lit 1) = true :=
  btw_to01 (Btw.sqrt01 (two_sub_mul (btw_from01 h0 h1)))

theorem C77_ease_quad_inout_range (h0 : le (lit 0) t = true) (h1 : le t (lit 1) = true) :
    le (lit 0) (glm_ease_quad_inout t) = true ∧ le (glm_ease_quad_inout t) (lit 1) = true := by
  have ht := btw_from01 h0 h1
  refine btw_to01 ?_
  simp only [cglm, flt_f32]
  rcases btw_half ht with ⟨c, hh⟩ | ⟨c, hh⟩
  · rw [if_pos c]
    have a1 : Btw (t * t) 0 (1 / 4) := by refine Btw.mul hh hh ?_ ?_ ?_ ?_ ?_ ?_ <;> side
    have a2 : Btw (lit 2 * (t * t)) 0 (1 / 2) := by refine Btw.mul b2 a1 ?_ ?_ ?_ ?_ ?_ ?_ <;> side
    exact ⟨a2.1, a2.2.1, a2.2.2.trans (by norm_num)⟩
  · rw [if_neg (by simp [c])]
    have l1 : Has (lit 1 : F32) 1 := .lit rep_one
    have l2 : Has (lit 2 : F32) 2 := .lit rep_2
    have l4 : Has (lit 4 : F32) 4 := .lit rep_4
    have a1 : Btw (t * t) (1 / 4) 1 := by refine Btw.mul hh hh ?_ ?_ ?_ ?_ ?_ ?_ <;> side
    have v1 := mul_val a1.1
    have er := (abs_le.mp (rnd_err_normal (t.val * t.val) (by
      rw [abs_of_nonneg (mul_self_nonneg _)]
      have : (2 : ℚ) ^ (-126 : ℤ) ≤ 1 / 4 := by norm_num
      have h5 := mul_le_mul hh.2.1 hh.2.1 (by norm_num) (by linarith [hh.2.1])
      norm_num at h5 this ⊢; linarith)))
    rw [abs_of_nonneg (mul_self_nonneg _), ← v1] at er
    have p0 : Has (t * t) (t * t).val := .of a1.1
    have r2 : Rep (2 * (t * t).val) := by
      have := rep_scale (rep_val (t * t)) 1 (by norm_num) (by
        rw [abs_of_nonneg (by have := a1.2.1; norm_num; linarith)]; have := a1.2.2; norm_num; linarith)
      simpa using this
    have r4 : Rep (4 * t.val) := by
      have := rep_scale (rep_val t) 2 (by norm_num) (by
        rw [abs_of_nonneg (by have := hh.2.1; norm_num; linarith)]; have := hh.2.2; norm_num; linarith)
      norm_num at this; exact this
    have p1 : Has (-lit 2 * (t * t)) (-2 * (t * t).val) := Has.mul_exact l2.neg p0 (by
      have := rep_neg r2; rwa [← neg_mul] at this)
    have p2 : Has (lit 4 * t) (4 * t.val) := Has.mul_exact l4 (.of hh.1) r4
    have up : -2 * (t * t).val + 4 * t.val ≤ 2 + 2 * u := by
      have h3 : u * (t.val * t.val) ≤ u * 1 := mul_le_mul_of_nonneg_left (by nlinarith [hh.2.1, hh.2.2]) u_pos.le
      nlinarith [sq_nonneg (t.val - 1), er.1]
    have lo : 1 ≤ -2 * (t * t).val + 4 * t.val := by
      have h3 : u * (t.val * t.val) ≤ u * 1 := mul_le_mul_of_nonneg_left (by nlinarith [hh.2.1, hh.2.2]) u_pos.le
      have h4 : u ≤ 1 / 100 := by norm_num [u]
      nlinarith [er.2, mul_nonneg (sub_nonneg.mpr hh.2.1) (sub_nonneg.mpr hh.2.2)]
    have e2 : rnd (2 + 2 * u) = 2 := by unfold u; decide +kernel
    have q0 : 1 ≤ rnd (-2 * (t * t).val + 4 * t.val) := le_rnd_of_le rep_one lo
    have q1 : rnd (-2 * (t * t).val + 4 * t.val) ≤ 2 := (rnd_mono up).trans e2.le
    have p3 := Has.add p1 p2 (by rw [abs_of_nonneg (by linarith)]; exact lt_of_le_of_lt q1 (by norm_num))
    have b : Btw (-lit 2 * (t * t) + lit 4 * t) 1 2 := ⟨p3.1, by rw [p3.2]; exact q0, by rw [p3.2]; exact q1⟩
    refine Btw.sub b b1 ?_ ?_ ?_ ?_ <;> side

/-- a number between 1/2 and 1 is a multiple of 2^-24 -/
theorem F32.grid24 {q : ℚ} (h : Rep q) (h1 : 1 / 2 ≤ q) : ∃ n : ℤ, q = n * 2 ^ (-24 : ℤ) := by
  obtain ⟨m, -, e⟩ := rnd_bits q
  rw [rnd_rep h] at e
  have hl : -1 ≤ Int.log 2 |q| := by
    rw [← Int.zpow_le_iff_le_log (by norm_num) (abs_pos.mpr (by linarith)), abs_of_nonneg (by linarith)]
    norm_num; linarith
  have he : -24 ≤ ulpExp q := by unfold ulpExp; omega
  generalize ulpExp q = k at *
  refine ⟨m * 2 ^ (k + 24).toNat, ?_⟩
  rw [e]
  push_cast
  rw [mul_assoc, ← zpow_natCast, Int.toNat_of_nonneg (by omega), ← zpow_add₀ (by norm_num)]
  congr 2; omega

theorem C77_ease_circ_inout_range (h0 : le (lit 0) t = true) (h1 : le t (lit 1) = true) :
    le (lit 0) (glm_ease_circ_inout t) = true ∧ le (glm_ease_circ_inout t) (lit 1) = true := by
  have ht := btw_from01 h0 h1
  refine btw_to01 ?_
  simp only [cglm, flt_f32]
  rcases btw_half ht with ⟨c, hh⟩ | ⟨c, hh⟩
  · rw [if_pos c]
    have a1 : Btw (t * t) 0 (1 / 4) := by refine Btw.mul hh hh ?_ ?_ ?_ ?_ ?_ ?_ <;> side
    have a2 : Btw (lit 4 * (t * t)) 0 1 := by refine Btw.mul b4 a1 ?_ ?_ ?_ ?_ ?_ ?_ <;> side
    have a3 := oneSub (Btw.sqrt01 (oneSub a2))
    have a4 : Btw (lit 0.5 * (lit 1 - F32.sqrt (lit 1 - lit 4 * (t * t)))) 0 (1 / 2) := by
      refine Btw.mul bh a3 ?_ ?_ ?_ ?_ ?_ ?_ <;> side
    exact ⟨a4.1, a4.2.1, a4.2.2.trans (by norm_num)⟩
  · rw [if_neg (by simp [c])]
    have l1 : Has (lit 1 : F32) 1 := .lit rep_one
    have l2 : Has (lit 2 : F32) 2 := .lit rep_2
    have l3 : Has (lit 3 : F32) 3 := .lit rep_3
    obtain ⟨n, hn⟩ := grid24 (rep_val t) hh.2.1
    have n1 : (2 : ℚ) ^ 23 ≤ n := by have := hh.2.1; rw [hn] at this; norm_num at this ⊢; linarith
    have n2 : (n : ℚ) ≤ 2 ^ 24 := by have := hh.2.2; rw [hn] at this; norm_num at this ⊢; linarith
    have n1' : (2 : ℤ) ^ 23 ≤ n := by exact_mod_cast n1
    have n2' : n ≤ (2 : ℤ) ^ 24 := by exact_mod_cast n2
    have r2 : Rep (2 * t.val) := by
      have := rep_scale (rep_val t) 1 (by norm_num) (by
        rw [abs_of_nonneg (by have := hh.2.1; norm_num; linarith)]; have := hh.2.2; norm_num; linarith)
      simpa using this
    have rg : ∀ k : ℤ, |k| ≤ 2 ^ 24 → Rep ((k : ℚ) * 2 ^ (-23 : ℤ)) := fun k hk => by
      have h : rnd ((k : ℚ) * 2 ^ (-23 : ℤ)) = k * 2 ^ (-23 : ℤ) := rnd_of_bits k (-23) hk (by norm_num)
      rw [← h]
      refine rep_rnd ?_
      rw [h, abs_mul]
      have : |(k : ℚ)| ≤ 2 ^ 24 := by exact_mod_cast hk
      norm_num at this ⊢
      linarith
    have e2 : 2 * t.val = (n : ℚ) * 2 ^ (-23 : ℤ) := by rw [hn]; norm_num; ring
    have p2 : Has (lit 2 * t) (2 * t.val) := Has.mul_exact l2 (.of hh.1) r2
    have r3 : Rep (2 * t.val - 3) := by
      have := rg (n - 3 * 2 ^ 23) (by rw [abs_le]; constructor <;> norm_num at n1' n2' ⊢ <;> omega)
      rw [e2]; convert this using 1; push_cast; norm_num; ring
    have r1 : Rep (2 * t.val - 1) := by
      have := rg (n - 2 ^ 23) (by rw [abs_le]; constructor <;> norm_num at n1' n2' ⊢ <;> omega)
      rw [e2]; convert this using 1; push_cast; norm_num; ring
    have p3 := (Has.sub_exact p2 l3 r3).neg
    have p1 := Has.sub_exact p2 l1 r1
    have m : Btw (-(lit 2 * t - lit 3) * (lit 2 * t - lit 1)) 0 1 := by
      rw [mul_ofRat p3.1 p1.1, p3.2, p1.2]
      refine btw_ofRat_one (mul_nonneg (by linarith [hh.2.2]) (by linarith [hh.2.1])) ?_
      nlinarith [sq_nonneg (t.val - 1), u_pos]
    have s := Btw.sqrt01 m
    have s1 : Btw (F32.sqrt (-(lit 2 * t - lit 3) * (lit 2 * t - lit 1)) + lit 1) 1 2 := by
      refine Btw.add s b1 ?_ ?_ ?_ ?_ <;> side
    have s2 : Btw (lit 0.5 * (F32.sqrt (-(lit 2 * t - lit 3) * (lit 2 * t - lit 1)) + lit 1)) (1 / 2) 1 := by
      refine Btw.mul bh s1 ?_ ?_ ?_ ?_ ?_ ?_ <;> side
    exact ⟨s2.1, le_trans (by norm_num) s2.2.1, s2.2.2⟩

example : le (lit 0 : F32) (.ofRat false (2 / 3)) = true ∧ le (.ofRat false (2 / 3)) (lit 1 : F32) = true := by
  show le (ofRat false 0) (.ofRat false (2 / 3)) = true ∧ le (.ofRat false (2 / 3)) (ofRat false 1) = true
  decide +kernel

end Cglm
