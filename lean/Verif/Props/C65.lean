import Verif.F32Order
import Verif.F32Norm
import Verif.Gen
/-!
# C65: floating-point edge behaviour of the scalar functions

The functions are evaluated in binary32 (`F32`): NaN, infinities, signed zeros and every rounding are
included.  `F32.lt`, `F32.le`, `F32.eq` are the C operators `<`, `<=`, `==`.
-/
open Cglm F32
namespace Cglm
set_option linter.unusedSectionVars false
variable [Libm]

/-! ### min, max, clamp -/

/-- `glm_min` ignores a NaN in its first argument ... -/
theorem C65_min_nan_left (b : F32) : glm_min nan b = b := by simp [cglm, flt_f32]
/-- ... but returns a NaN given as its second: it is not symmetric -/
theorem C65_min_nan_right (a : F32) : glm_min a nan = nan := by simp [cglm, flt_f32]
theorem C65_max_nan_left (b : F32) : glm_max nan b = b := by simp [cglm, flt_f32]
theorem C65_max_nan_right (a : F32) : glm_max a nan = nan := by simp [cglm, flt_f32]

/-- without NaN, `glm_min` is one of its arguments and below both, infinities included -/
theorem C65_min (a b : F32) (ha : a ≠ nan) (hb : b ≠ nan) :
    (glm_min a b = a ∨ glm_min a b = b) ∧ le (glm_min a b) a = true ∧ le (glm_min a b) b = true := by
  simp only [cglm, flt_f32, key_le_iff]
  split_ifs with h <;> rw [key_lt_iff] at h <;> simp_all [le_of_lt]

theorem C65_max (a b : F32) (ha : a ≠ nan) (hb : b ≠ nan) :
    (glm_max a b = a ∨ glm_max a b = b) ∧ le a (glm_max a b) = true ∧ le b (glm_max a b) = true := by
  simp only [cglm, flt_f32, key_le_iff]
  split_ifs with h <;> rw [key_lt_iff] at h <;> simp_all [le_of_lt]

/-- whatever is clamped - NaN and infinities included - the result lies within the bounds -/
theorem C65_clamp_range (x lo hi : F32) (h : le lo hi = true) :
    le lo (glm_clamp x lo hi) = true ∧ le (glm_clamp x lo hi) hi = true := by
  simp only [cglm, flt_f32]
  simp only [key_le_iff] at h ⊢
  obtain ⟨h1, h2, h3⟩ := h
  split_ifs with a b b <;> simp only [key_lt_iff] at a b <;> simp_all [le_of_lt]

example : le (.ofRat false (-1)) (.ofRat false 3) = true := by decide +kernel

/-- a NaN is clamped to the lower bound -/
theorem C65_clamp_nan (lo hi : F32) (h : lt lo hi = true) : glm_clamp nan lo hi = lo := by
  simp only [cglm, flt_f32, lt_nan, Bool.false_eq_true, if_false, h, if_true]

/-- a number already within the bounds keeps its value -/
theorem C65_clamp_id (x lo hi : F32) (h1 : le lo x = true) (h2 : le x hi = true) : eq (glm_clamp x lo hi) x = true := by
  simp only [cglm, flt_f32]
  simp only [key_le_iff] at h1 h2
  split_ifs with a b b <;> simp only [key_lt_iff, key_eq_iff] at a b ⊢ <;> simp_all <;> linarith

/-- clamping twice is clamping once, bit for bit -/
theorem C65_clamp_idem (x lo hi : F32) (h : le lo hi = true) :
    glm_clamp (glm_clamp x lo hi) lo hi = glm_clamp x lo hi := by
  simp only [cglm, flt_f32]
  simp only [key_le_iff] at h
  obtain ⟨h1, h2, h3⟩ := h
  split_ifs <;> simp_all [key_lt_iff]

theorem C65_clamp_zo_range (x : F32) :
    le (lit 0) (glm_clamp_zo x) = true ∧ le (glm_clamp_zo x) (lit 1) = true :=
  C65_clamp_range x _ _ (by show le (ofRat false 0) (ofRat false 1) = true; decide +kernel)

theorem C65_clamp_zo_nan : glm_clamp_zo (nan : F32) = zero false := by
  rw [glm_clamp_zo, C65_clamp_nan _ _ (by show lt (ofRat false 0) (ofRat false 1) = true; decide +kernel)]
  show ofRat false 0 = _
  decide +kernel

/-! ### step, comparison -/

theorem C65_step_nan (e x : F32) : glm_step nan x = (lit 1 : F32) ∧ glm_step e nan = (lit 1 : F32) := by
  simp [cglm, flt_f32]

/-- a NaN is never equal to anything -/
theorem C65_eq_nan (a : F32) : glm_eq nan a = false ∧ glm_eq a nan = false := by
  simp [cglm, fle_f32, fabsf_f32]

/-- a finite number equals itself -/
theorem C65_eq_refl (a : F32) (h : a.isFin = true) : glm_eq a a = true := by
  simp only [cglm, sub_self_fin h, fle_f32, fabsf_f32]
  show le (zero false) (ofRat false 0.00001) = true
  decide +kernel

/-- an infinity does not: the difference is a NaN -/
theorem C65_eq_inf (s : Bool) : glm_eq (inf s) (inf s) = false := by
  simp [cglm, sub_self_inf, fle_f32, fabsf_f32]

/-! ### linear interpolation -/

/-- at `t = 0` the start value comes back, unless `to - from` overflows -/
theorem C65_lerp_zero (a b : F32) (s : Bool) (h : (b - a).isFin = true) : eq (glm_lerp a b (zero s)) a = true := by
  have ha := (sub_isFin h).2
  have h1 : Has (zero s * (b - a)) (0 * (b - a).val) :=
    Has.mul_exact ⟨rfl, rfl⟩ (.of h) (by rw [zero_mul]; exact rep_zero)
  rw [zero_mul] at h1
  have h2 := (Has.of ha).add_exact h1 (by rw [add_zero]; exact rep_val a)
  simp only [cglm]
  rw [key_eq_iff, h2.key, key_fin ha]
  exact ⟨h2.ne_nan, isNum_of_isFin ha, by rw [add_zero]⟩

/-- if it overflows, the result at `t = 0` is a NaN even if all three arguments are finite -/
theorem C65_lerp_zero_overflow (a b : F32) (s : Bool) (h : (b - a).isFin = false) : glm_lerp a b (zero s) = nan := by
  have : zero s * (b - a) = nan := by
    have : b - a = nan ∨ ∃ t, b - a = inf t := by
      rcases hd : b - a with _ | t | t | ⟨q, hq⟩
      · exact .inl rfl
      · exact .inr ⟨t, rfl⟩
      · rw [hd] at h; simp at h
      · rw [hd] at h; simp at h
    rcases this with h | ⟨t, h⟩ <;> rw [h]
    · exact mul_nan _
    · rfl
  simp only [cglm, this, add_nan]

/-- `FLT_MAX` and `-FLT_MAX` are such a pair -/
theorem C65_lerp_zero_fails : ∃ a b t : F32, a.isFin = true ∧ b.isFin = true ∧ t.isFin = true ∧ t.val = 0 ∧
    glm_lerp a b t = nan :=
  ⟨.ofRat false ((2 ^ 24 - 1) * 2 ^ 104), .ofRat false (-(2 ^ 24 - 1) * 2 ^ 104), zero false,
    by decide +kernel, by decide +kernel, rfl, rfl,
    C65_lerp_zero_overflow _ _ _ (by decide +kernel)⟩

/-- at `t = 1` the end value comes back if `to - from` is exact -/
theorem C65_lerp_one_partial (a b : F32) (ha : a.isFin = true) (hb : b.isFin = true) (h : Rep (b.val - a.val)) :
    eq (glm_lerp a b (lit 1)) b = true := by
  have h0 := (Has.of hb).sub_exact (Has.of ha) h
  have h1 := (Has.lit rep_one).mul_exact h0 (by rw [one_mul]; exact h)
  rw [one_mul] at h1
  have h2 := (Has.of ha).add_exact h1 (by rw [add_sub_cancel]; exact rep_val b)
  simp only [cglm]
  rw [key_eq_iff, h2.key, key_fin hb]
  exact ⟨h2.ne_nan, isNum_of_isFin hb, by rw [add_sub_cancel]⟩

/-- but not in general: `glm_lerp(1, 2⁻³⁰, 1)` is `0` -/
theorem C65_lerp_one_fails : eq (glm_lerp (.ofRat false 1) (.ofRat false (1 / 2 ^ 30)) (lit 1)) (.ofRat false (1 / 2 ^ 30)) = false := by
  show eq (F32.ofRat false 1 + F32.ofRat false 1 * (F32.ofRat false (1 / 2 ^ 30) - F32.ofRat false 1)) _ = false
  decide +kernel

/-- interpolating between equal finite values gives that value, for every finite `t` -/
theorem C65_lerp_same (a t : F32) (ha : a.isFin = true) (ht : t.isFin = true) : eq (glm_lerp a a t) a = true := by
  have h1 : Has (t * zero false) (t.val * 0) := (Has.of ht).mul_exact ⟨rfl, rfl⟩ (by rw [mul_zero]; exact rep_zero)
  rw [mul_zero] at h1
  have h2 := (Has.of ha).add_exact h1 (by rw [add_zero]; exact rep_val a)
  simp only [cglm, sub_self_fin ha]
  rw [key_eq_iff, h2.key, key_fin ha]
  exact ⟨h2.ne_nan, isNum_of_isFin ha, by rw [add_zero]⟩

/-- rounding keeps `glm_lerp` monotone in `t` -/
theorem C65_lerp_mono (a b t t' : F32) (hab : le a b = true) (ht : le t t' = true)
    (h : (glm_lerp a b t).isFin = true) (h' : (glm_lerp a b t').isFin = true) :
    le (glm_lerp a b t) (glm_lerp a b t') = true := by
  simp only [cglm] at h h' ⊢
  obtain ⟨fa, fm⟩ := add_isFin h
  obtain ⟨-, fm'⟩ := add_isFin h'
  obtain ⟨ft, fd⟩ := mul_isFin fm
  obtain ⟨ft', -⟩ := mul_isFin fm'
  have fb := (sub_isFin fd).1
  rw [le_fin fa fb] at hab
  rw [le_fin ft ft'] at ht
  rw [le_fin h h', add_val h, add_val h', mul_val fm, mul_val fm']
  apply rnd_mono
  have hd : 0 ≤ (b - a).val := by rw [sub_val fd]; exact rnd_nonneg (by linarith)
  have := rnd_mono (mul_le_mul_of_nonneg_right ht hd)
  linarith

/-! ### smoothstep -/

/-- `t²(3 − 2t)` never leaves `[0, 1]` through rounding -/
theorem C65_smooth_range (t : F32) (h0 : le (lit 0) t = true) (h1 : le t (lit 1) = true) :
    le (lit 0) (glm_smooth t) = true ∧ le (glm_smooth t) (lit 1) = true := by
  have l0 : Has (lit 0 : F32) 0 := .lit rep_zero
  have l1 : Has (lit 1 : F32) 1 := .lit rep_one
  have r2 : Rep 2 := by simpa using rep_nat 2 (by norm_num)
  have r3 : Rep 3 := by simpa using rep_nat 3 (by norm_num)
  have l2 : Has (lit 2 : F32) 2 := .lit r2
  have l3 : Has (lit 3 : F32) 3 := .lit r3
  rw [key_le_iff, l0.key] at h0
  rw [key_le_iff, l1.key] at h1
  have tf : t.isFin = true := by
    obtain ⟨-, hn, ha⟩ := h0
    obtain ⟨-, -, hb⟩ := h1
    rcases t with _ | s | s | ⟨q, hq⟩
    · exact absurd rfl hn
    · cases s
      · exact absurd hb (by norm_num [key])
      · exact absurd ha (by norm_num [key])
    · rfl
    · rfl
  have ht := Has.of tf
  rw [ht.key] at h0 h1
  obtain ⟨-, -, t0⟩ := h0
  obtain ⟨-, -, t1⟩ := h1
  have rt := rep_val t
  generalize t.val = q at *
  have small : ∀ {x y : ℚ}, 0 ≤ x → x ≤ y → y < 2 ^ 128 → |x| < 2 ^ 128 := fun h1 h2 h3 => by
    rw [abs_of_nonneg h1]; linarith
  -- the square
  have sq := rnd_between rep_zero rep_one (mul_self_nonneg q) (by nlinarith : q * q ≤ 1)
  have m1 := ht.mul ht (small sq.1 sq.2 (by norm_num))
  -- twice `t`
  have dd := rnd_between rep_zero r2 (by linarith : 0 ≤ 2 * q) (by linarith)
  have m2 := l2.mul ht (small dd.1 dd.2 (by norm_num))
  have d3 := rnd_between rep_one r3 (by linarith : 1 ≤ 3 - rnd (2 * q)) (by linarith)
  have m3 := l3.sub m2 (small (by linarith [d3.1]) d3.2 (by norm_num))
  have hi : rnd (rnd (q * q) * rnd (3 - rnd (2 * q))) ≤ 1 := by
    by_cases hq : q < 1 / 2
    · have r14 : Rep (1 / 4) := ⟨1, -2, by norm_num, by norm_num, by norm_num, by norm_num⟩
      have := rnd_le_of_le r14 (by nlinarith : q * q ≤ 1 / 4)
      exact rnd_le_of_le rep_one (by nlinarith [sq.1, d3.1, d3.2])
    · push Not at hq
      obtain ⟨n, hn, hn1, hn2⟩ : ∃ n : ℤ, q = n * 2 ^ (-24 : ℤ) ∧ 2 ^ 23 ≤ n ∧ n ≤ 2 ^ 24 := by
        obtain ⟨m, e, hm, he, -, rfl⟩ := rt
        have hm' : |(m : ℚ)| < 2 ^ 24 := by exact_mod_cast hm
        have he' : -24 ≤ e := by
          by_contra hc
          have : (2 : ℚ) ^ e ≤ 2 ^ (-25 : ℤ) := zpow_le_zpow_right₀ (by norm_num) (by omega)
          have hp : (0 : ℚ) < 2 ^ e := zpow_pos (by norm_num) e
          have := (abs_lt.mp hm').2
          have : (m : ℚ) * 2 ^ e < 2 ^ 24 * 2 ^ e := mul_lt_mul_of_pos_right this hp
          norm_num at *
          linarith
        have key : (m : ℚ) * 2 ^ e = ((m * 2 ^ (e + 24).toNat : ℤ) : ℚ) * 2 ^ (-24 : ℤ) := by
          push_cast
          rw [mul_assoc, ← zpow_natCast, ← zpow_add₀ (by norm_num)]
          congr 2; omega
        rw [key] at hq t1
        refine ⟨_, key, ?_, ?_⟩
        · have : (2 ^ 23 : ℚ) ≤ ((m * 2 ^ (e + 24).toNat : ℤ) : ℚ) := by norm_num at hq ⊢; linarith
          exact_mod_cast this
        · have : ((m * 2 ^ (e + 24).toNat : ℤ) : ℚ) ≤ 2 ^ 24 := by norm_num at t1 ⊢; linarith
          exact_mod_cast this
      have e2 : Rep (2 * q) := by
        rcases lt_or_eq_of_le hn2 with h | h
        · exact ⟨n, -23, by rw [abs_of_nonneg (by omega)]; exact h, by norm_num, by norm_num, by rw [hn]; norm_num; ring⟩
        · rw [hn, h]; norm_num; exact r2
      have e3 : Rep (3 - 2 * q) := by
        rcases lt_or_eq_of_le hn1 with h | h
        · exact ⟨3 * 2 ^ 23 - n, -23, by rw [abs_of_nonneg (by omega)]; omega, by norm_num, by norm_num, by
            rw [hn]; push_cast; norm_num; ring⟩
        · rw [hn, ← h]; norm_num; exact r2
      rw [rnd_rep e2, rnd_rep e3]
      have er := rnd_err_normal (q := q * q) (by rw [abs_of_nonneg (mul_self_nonneg q)]; norm_num; nlinarith)
      rw [abs_of_nonneg (mul_self_nonneg q)] at er
      have er' := (abs_le.mp er).2
      have hb : rnd (q * q) * (3 - 2 * q) ≤ 1 + 1 / 2 ^ 24 := by
        have hu : (u : ℚ) = 1 / 2 ^ 24 := by norm_num [u]
        rw [hu] at er'
        have f1 : q * q * (3 - 2 * q) ≤ 1 := by nlinarith [mul_nonneg (sub_nonneg.mpr t1) (sub_nonneg.mpr t1)]
        have := mul_le_mul_of_nonneg_right (show rnd (q * q) ≤ (1 + 1 / 2 ^ 24) * (q * q) by linarith)
          (show (0 : ℚ) ≤ 3 - 2 * q by linarith)
        nlinarith
      refine (rnd_mono hb).trans (le_of_eq ?_)
      decide +kernel
  have lo := rnd_nonneg (mul_nonneg sq.1 (by linarith [d3.1] : 0 ≤ rnd (3 - rnd (2 * q))))
  have m4 := m1.mul m3 (small lo hi (by norm_num))
  simp only [cglm]
  rw [key_le_iff, key_le_iff, l0.key, l1.key, m4.key]
  exact ⟨⟨l0.ne_nan, m4.ne_nan, lo⟩, m4.ne_nan, l1.ne_nan, hi⟩

/-- `glm_smoothstep` returns a number in `[0, 1]` for all arguments whatsoever: equal or reversed edges, infinities, NaN -/
theorem C65_smoothstep_range (e0 e1 x : F32) :
    le (lit 0) (glm_smoothstep e0 e1 x) = true ∧ le (glm_smoothstep e0 e1 x) (lit 1) = true := by
  have := C65_clamp_zo_range ((x - e0) / (e1 - e0))
  exact C65_smooth_range _ this.1 this.2

theorem C65_percentc_range (a b x : F32) :
    le (lit 0) (glm_percentc a b x) = true ∧ le (glm_percentc a b x) (lit 1) = true :=
  C65_clamp_zo_range _

end Cglm
