import Verif.F32Mono
/-!
# Bounds that survive rounding

A result whose exact value lies between two representable numbers lies between them after rounding as well.
-/
open Cglm F32
namespace Cglm
namespace F32

/-- finite and between two rational bounds -/
def Btw (a : F32) (l h : ℚ) : Prop := a.isFin = true ∧ l ≤ a.val ∧ a.val ≤ h

/-- a dyadic number with few bits is representable -/
theorem rep_dyadic (m e : ℤ) {q : ℚ} (hm : |m| < 2 ^ 24) (h1 : -149 ≤ e) (h2 : e ≤ 104) (h : q = m * 2 ^ e) : Rep q :=
  ⟨m, e, hm, h1, h2, h⟩

/-- multiplication by a power of two keeps a number representable unless it overflows -/
theorem rep_scale {q : ℚ} (h : Rep q) (k : ℤ) (hk : 0 ≤ k) (hb : |2 ^ k * q| < 2 ^ 128) : Rep (2 ^ k * q) := by
  have r : rnd (2 ^ k * q) = 2 ^ k * q := by
    obtain ⟨m, e, hm, h1, h2, rfl⟩ := h
    rw [show (2 : ℚ) ^ k * (m * 2 ^ e) = m * 2 ^ (e + k) by rw [zpow_add₀ (by norm_num)]; ring]
    exact rnd_of_bits m (e + k) hm.le (by omega)
  rw [← r]; exact rep_rnd (by rwa [r])

theorem Btw.ne_nan {a : F32} {l h : ℚ} (ha : Btw a l h) : a ≠ nan := isNum_of_isFin ha.1

theorem Btw.key_lo {a : F32} {l h : ℚ} (ha : Btw a l h) : l ≤ key a := by rw [key_fin ha.1]; exact ha.2.1
theorem Btw.key_hi {a : F32} {l h : ℚ} (ha : Btw a l h) : key a ≤ h := by rw [key_fin ha.1]; exact ha.2.2

theorem Btw.of_le {a b c : F32} {l h : ℚ} (hb : Has b l) (hc : Has c h) (h1 : le b a = true) (h2 : le a c = true) : Btw a l h := by
  have fa : a.isFin = true := by
    refine fin_of (le_ne h1).2 ?_ ?_
    · rintro rfl; have := hc.1; rw [eq_inf_of_le h2] at this; simp at this
    · rintro rfl; have := hb.1; rw [eq_ninf_of_le h1] at this; simp at this
  rw [le_fin hb.1 fa, hb.2] at h1
  rw [le_fin fa hc.1, hc.2] at h2
  exact ⟨fa, h1, h2⟩

theorem Btw.ofRat {s : Bool} {q l h : ℚ} (hl : Rep l) (hh : Rep h) (h1 : l ≤ q) (h2 : q ≤ h) : Btw (ofRat s q) l h := by
  have r := rnd_between hl hh h1 h2
  have f : (F32.ofRat s q).isFin = true := by
    rw [ofRat_isFin, abs_lt]
    have a := abs_lt.mp (rep_lt hl)
    have b := abs_lt.mp (rep_lt hh)
    exact ⟨by linarith [r.1], by linarith [r.2]⟩
  exact ⟨f, by rw [ofRat_val f]; exact r.1, by rw [ofRat_val f]; exact r.2⟩

theorem Btw.lit [Libm] {q : ℚ} (h : Rep q) : Btw (CFloat.lit q : F32) q q := by
  have := Has.lit h
  exact ⟨this.1, this.2.ge, this.2.le⟩

theorem Btw.neg {a : F32} {l h : ℚ} (ha : Btw a l h) : Btw (-a) (-h) (-l) :=
  ⟨by rw [neg_isFin]; exact ha.1, by rw [neg_val]; linarith [ha.2.2], by rw [neg_val]; linarith [ha.2.1]⟩

theorem Btw.add {a b : F32} {l h m k x y : ℚ} (ha : Btw a l h) (hb : Btw b m k) (hx : Rep x) (hy : Rep y)
    (h1 : x ≤ l + m) (h2 : h + k ≤ y) : Btw (a + b) x y := by
  obtain ⟨s, e⟩ := add_ofRat ha.1 hb.1
  rw [e]
  exact .ofRat hx hy (by linarith [ha.2.1, hb.2.1]) (by linarith [ha.2.2, hb.2.2])

theorem Btw.sub {a b : F32} {l h m k x y : ℚ} (ha : Btw a l h) (hb : Btw b m k) (hx : Rep x) (hy : Rep y)
    (h1 : x ≤ l - k) (h2 : h - m ≤ y) : Btw (a - b) x y := by
  rw [sub_def]; exact ha.add hb.neg hx hy (by linarith) (by linarith)

/-- product of two numbers that are not negative -/
theorem Btw.mul {a b : F32} {l h m k x y : ℚ} (ha : Btw a l h) (hb : Btw b m k) (hl : 0 ≤ l) (hm : 0 ≤ m) (hx : Rep x)
    (hy : Rep y) (h1 : x ≤ l * m) (h2 : h * k ≤ y) : Btw (a * b) x y := by
  rw [mul_ofRat ha.1 hb.1]
  have h3 := mul_le_mul ha.2.1 hb.2.1 hm (hl.trans ha.2.1)
  have h4 := mul_le_mul ha.2.2 hb.2.2 (hm.trans hb.2.1) (hl.trans (ha.2.1.trans ha.2.2))
  exact .ofRat hx hy (h1.trans h3) (h4.trans h2)

/-- product of a number that is not negative and one that is not positive -/
theorem Btw.mulN {a b : F32} {l h m k x y : ℚ} (ha : Btw a l h) (hb : Btw b m k) (hl : 0 ≤ l) (hk : k ≤ 0) (hx : Rep x)
    (hy : Rep y) (h1 : x ≤ h * m) (h2 : l * k ≤ y) : Btw (a * b) x y := by
  have := (ha.mul hb.neg hl (by linarith) (rep_neg hy) (rep_neg hx) (by linarith) (by linarith)).neg
  rwa [mul_neg', neg_neg', neg_neg, neg_neg] at this

/-- square of a number that is not positive -/
theorem Btw.mulNN {a b : F32} {l h m k x y : ℚ} (ha : Btw a l h) (hb : Btw b m k) (hl : h ≤ 0) (hk : k ≤ 0) (hx : Rep x)
    (hy : Rep y) (h1 : x ≤ h * k) (h2 : l * m ≤ y) : Btw (a * b) x y := by
  have := ha.neg.mul hb.neg (by linarith) (by linarith) hx hy (by linarith) (by linarith)
  rwa [neg_mul', mul_neg', neg_neg'] at this

theorem Btw.sqrt01 {a : F32} (ha : Btw a 0 1) : Btw (F32.sqrt a) 0 1 := by
  have h0 : le (zero false) a = true := key_le_iff.mpr ⟨by simp, ha.ne_nan, ha.key_lo⟩
  have h1 : le a (fin 1 ⟨by norm_num, rep_one⟩) = true := key_le_iff.mpr ⟨ha.ne_nan, by simp, ha.key_hi⟩
  have hn := sqrt_ne_nan ha.ne_nan ha.key_lo
  have e0 := sqrt_le_sqrt' h0 (by show zero false ≠ nan; simp)
  have e1 := sqrt_le_sqrt' h1 hn
  have s1 : F32.sqrt (fin 1 ⟨by norm_num, rep_one⟩) = fin 1 ⟨by norm_num, rep_one⟩ := by decide +kernel
  rw [s1] at e1
  exact .of_le (b := zero false) ⟨rfl, rfl⟩ ⟨rfl, rfl⟩ e0 e1

/-- `g f` for `g ≥ g' ≥ 0` and `f ≤ f' ≤ 0` -/
theorem LeN.mulNP {g g' f f' : F32} (g0 : 0 ≤ key g') (f0 : key f' ≤ 0) (hg : LeN g' g) (hf : LeN f f') :
    LeN (g * f) (g' * f') := by
  have := (LeN.mul g0 (by rw [key_neg]; linarith) hg hf.neg).neg
  rwa [mul_neg', mul_neg', neg_neg', neg_neg'] at this

/-- squares of numbers that are not positive fall -/
theorem LeN.sqN {f f' : F32} (f0 : key f' ≤ 0) (hf : LeN f f') : LeN (f' * f') (f * f) := by
  have := LeN.mul (a := -f') (b := -f') (by rw [key_neg]; linarith) (by rw [key_neg]; linarith) hf.neg hf.neg
  rwa [mul_self_neg, mul_self_neg] at this

end F32
end Cglm
