import Verif.F32Map
/-!
# The order of binary32 numbers, and results of operations on finite numbers

`key` places every datum except NaN on a rational scale, infinities at ±2¹²⁸.
-/
open Cglm F32
namespace Cglm
namespace F32

/-- position on the extended number line -/
def key : F32 → ℚ
  | inf s => if s then -2 ^ 128 else 2 ^ 128
  | a => a.val

theorem key_fin {a : F32} (h : a.isFin = true) : key a = a.val := by
  cases a <;> simp_all [key]

theorem key_lt_iff {a b : F32} : lt a b = true ↔ a ≠ nan ∧ b ≠ nan ∧ key a < key b := by
  have ha := abs_lt.mp (val_lt a)
  have hb := abs_lt.mp (val_lt b)
  rcases a with _ | s | s | ⟨q, h⟩ <;> rcases b with _ | t | t | ⟨r, h'⟩ <;> (try cases s) <;> (try cases t) <;>
    simp [lt, key] at ha hb ⊢ <;> first | exact decide_eq_true_iff | linarith | skip

theorem key_eq_iff {a b : F32} : eq a b = true ↔ a ≠ nan ∧ b ≠ nan ∧ key a = key b := by
  have ha := abs_lt.mp (val_lt a)
  have hb := abs_lt.mp (val_lt b)
  rcases a with _ | s | s | ⟨q, h⟩ <;> rcases b with _ | t | t | ⟨r, h'⟩ <;> (try cases s) <;> (try cases t) <;>
    simp [eq, key] at ha hb ⊢ <;> first | exact decide_eq_true_iff | (intro e; linarith) | norm_num | skip

theorem key_le_iff {a b : F32} : le a b = true ↔ a ≠ nan ∧ b ≠ nan ∧ key a ≤ key b := by
  simp only [le, Bool.or_eq_true, key_lt_iff, key_eq_iff, le_iff_lt_or_eq]
  tauto

/-- a finite number with value `q` -/
def Has (a : F32) (q : ℚ) : Prop := a.isFin = true ∧ a.val = q

theorem Has.ne_nan {a : F32} {q : ℚ} (h : Has a q) : a ≠ nan := isNum_of_isFin h.1
theorem Has.key {a : F32} {q : ℚ} (h : Has a q) : F32.key a = q := by rw [key_fin h.1, h.2]
theorem Has.of {a : F32} (h : a.isFin = true) : Has a a.val := ⟨h, rfl⟩

theorem Has.add {a b : F32} {p q : ℚ} (ha : Has a p) (hb : Has b q) (h : |rnd (p + q)| < 2 ^ 128) :
    Has (a + b) (rnd (p + q)) := by
  obtain ⟨ha, rfl⟩ := ha; obtain ⟨hb, rfl⟩ := hb
  have := ((add_fin ha hb).1).mpr h
  exact ⟨this, add_val this⟩

theorem Has.sub {a b : F32} {p q : ℚ} (ha : Has a p) (hb : Has b q) (h : |rnd (p - q)| < 2 ^ 128) :
    Has (a - b) (rnd (p - q)) := by
  obtain ⟨ha, rfl⟩ := ha; obtain ⟨hb, rfl⟩ := hb
  have := (sub_fin ha hb).mpr h
  exact ⟨this, sub_val this⟩

theorem Has.mul {a b : F32} {p q : ℚ} (ha : Has a p) (hb : Has b q) (h : |rnd (p * q)| < 2 ^ 128) :
    Has (a * b) (rnd (p * q)) := by
  obtain ⟨ha, rfl⟩ := ha; obtain ⟨hb, rfl⟩ := hb
  have := ((mul_fin ha hb).1).mpr h
  exact ⟨this, mul_val this⟩

theorem Has.neg {a : F32} {q : ℚ} (h : Has a q) : Has (-a) (-q) :=
  ⟨by rw [neg_isFin]; exact h.1, by rw [neg_val, h.2]⟩

/-- operations whose exact result is representable are exact -/
theorem Has.add_exact {a b : F32} {p q : ℚ} (ha : Has a p) (hb : Has b q) (h : Rep (p + q)) : Has (a + b) (p + q) := by
  have := ha.add hb (by rw [rnd_rep h]; exact rep_lt h)
  rwa [rnd_rep h] at this

theorem Has.sub_exact {a b : F32} {p q : ℚ} (ha : Has a p) (hb : Has b q) (h : Rep (p - q)) : Has (a - b) (p - q) := by
  have := ha.sub hb (by rw [rnd_rep h]; exact rep_lt h)
  rwa [rnd_rep h] at this

theorem Has.mul_exact {a b : F32} {p q : ℚ} (ha : Has a p) (hb : Has b q) (h : Rep (p * q)) : Has (a * b) (p * q) := by
  have := ha.mul hb (by rw [rnd_rep h]; exact rep_lt h)
  rwa [rnd_rep h] at this

theorem Has.rep {a : F32} {q : ℚ} (h : Has a q) : Rep q := by rw [← h.2]; exact rep_val a

theorem Has.lit [Libm] {q : ℚ} (h : Rep q) : Has (CFloat.lit q : F32) q := by
  have e : |rnd q| < 2 ^ 128 := by rw [rnd_rep h]; exact rep_lt h
  have := (ofRat_isFin false q).mpr e
  exact ⟨this, by rw [lit_f32, ofRat_val this, rnd_rep h]⟩

/-- a difference that is finite rounds monotonically -/
theorem rnd_between {q lo hi : ℚ} (hl : Rep lo) (hh : Rep hi) (h1 : lo ≤ q) (h2 : q ≤ hi) : lo ≤ rnd q ∧ rnd q ≤ hi :=
  ⟨le_rnd_of_le hl h1, rnd_le_of_le hh h2⟩

theorem rep_nat (n : ℕ) (h : n < 2 ^ 24) : Rep (n : ℚ) :=
  ⟨n, 0, by rw [abs_of_nonneg (by positivity)]; exact_mod_cast h, by norm_num, by norm_num, by simp⟩

theorem rep_one : Rep 1 := by simpa using rep_nat 1 (by norm_num)

theorem isnanf_iff [Libm] (a : F32) : isnanf a = true ↔ a = nan := by
  show decide (a = nan) = true ↔ _
  exact decide_eq_true_iff

theorem isinff_iff [Libm] (a : F32) : isinff a = true ↔ a = inf false ∨ a = inf true := by
  show (decide (a = inf false) || decide (a = inf true)) = true ↔ _
  rw [Bool.or_eq_true, decide_eq_true_iff, decide_eq_true_iff]

theorem isFin_iff (a : F32) : a.isFin = true ↔ a ≠ nan ∧ a ≠ inf false ∧ a ≠ inf true := by
  rcases a with _ | s | s | ⟨q, h⟩ <;> (try cases s) <;> simp

theorem flt_f32 [Libm] (a b : F32) : flt a b = F32.lt a b := rfl
theorem fle_f32 [Libm] (a b : F32) : fle a b = F32.le a b := rfl
theorem feq_f32 [Libm] (a b : F32) : feq a b = F32.eq a b := rfl
theorem fabsf_f32 [Libm] (a : F32) : fabsf a = F32.abs a := rfl
theorem fminf_f32 [Libm] (a b : F32) : fminf a b = F32.fmin a b := rfl
theorem floorf_f32 [Libm] (a : F32) : floorf a = F32.floor a := rfl

@[simp] theorem nan_add (a : F32) : nan + a = nan := by cases a <;> rfl
@[simp] theorem add_nan (a : F32) : a + nan = nan := by cases a <;> rfl
@[simp] theorem nan_mul (a : F32) : nan * a = nan := by cases a <;> rfl
@[simp] theorem mul_nan (a : F32) : a * nan = nan := by cases a <;> rfl
@[simp] theorem nan_div (a : F32) : nan / a = nan := by cases a <;> rfl
@[simp] theorem div_nan (a : F32) : a / nan = nan := by cases a <;> rfl
@[simp] theorem neg_nan : -nan = nan := rfl
@[simp] theorem nan_sub (a : F32) : nan - a = nan := by rw [sub_def, nan_add]
@[simp] theorem sub_nan (a : F32) : a - nan = nan := by rw [sub_def, neg_nan, add_nan]
@[simp] theorem lt_nan (a : F32) : lt a nan = false := by cases a <;> rfl
@[simp] theorem nan_lt (a : F32) : lt nan a = false := by cases a <;> rfl
@[simp] theorem eq_nan (a : F32) : eq a nan = false := by cases a <;> rfl
@[simp] theorem nan_eq (a : F32) : eq nan a = false := by cases a <;> rfl
@[simp] theorem le_nan (a : F32) : le a nan = false := by cases a <;> rfl
@[simp] theorem nan_le (a : F32) : le nan a = false := by cases a <;> rfl
@[simp] theorem abs_nan : abs nan = nan := rfl

/-- a finite number minus itself is +0 -/
theorem sub_self_fin {a : F32} (h : a.isFin = true) : a - a = zero false := by
  rcases a with _ | s | s | ⟨q, hq⟩
  · simp at h
  · simp at h
  · cases s <;> rfl
  · show ofRat false (q + -q) = _
    rw [add_neg_cancel]
    unfold ofRat
    rw [dif_pos rnd_zero, if_pos rfl]

/-- an infinity minus itself is NaN -/
theorem sub_self_inf (s : Bool) : inf s - inf s = nan := by cases s <;> rfl

theorem mul_self_neg (a : F32) : -a * -a = a * a := by
  rcases a with _ | s | s | ⟨q, hq⟩
  · rfl
  · cases s <;> rfl
  · cases s <;> rfl
  · show ofRat (decide (-q < 0) != decide (-q < 0)) (-q * -q) = ofRat (decide (q < 0) != decide (q < 0)) (q * q)
    rw [neg_mul_neg]; simp

theorem ofRat_neg {q : ℚ} (h : q ≠ 0) : ofRat false (-q) = -ofRat false q := by
  unfold ofRat
  have e := rnd_neg q
  by_cases h0 : rnd q = 0
  · rw [dif_pos (by rw [e, h0, neg_zero]), dif_pos h0, if_neg h, if_neg (neg_ne_zero.mpr h)]
    show zero _ = zero _
    congr 1
    rcases lt_or_gt_of_ne h with h1 | h1
    · simp [h1, h1.le]
    · simp [h1, h1.le]
  · rw [dif_neg (by rwa [e, neg_eq_zero]), dif_neg h0]
    by_cases h1 : |rnd q| < 2 ^ 128
    · rw [dif_pos (by rwa [e, abs_neg]), dif_pos h1]; simp only [e]; rfl
    · rw [dif_neg (by rwa [e, abs_neg]), dif_neg h1]
      show inf _ = inf _
      congr 1
      rcases lt_or_gt_of_ne h with h1 | h1
      · simp [h1, h1.le]
      · simp [h1, h1.le]

theorem ofRat_neg_sq (q : ℚ) : ofRat false (-q) * ofRat false (-q) = ofRat false q * ofRat false q := by
  by_cases h : q = 0
  · rw [h, neg_zero]
  · rw [ofRat_neg h, mul_self_neg]

/-- the square of a difference does not depend on the order -/
theorem sub_sq_comm (a b : F32) : (a - b) * (a - b) = (b - a) * (b - a) := by
  rcases a with _ | s | s | ⟨q, hq⟩ <;> rcases b with _ | t | t | ⟨r, hr⟩ <;> (try cases s) <;> (try cases t) <;>
    first
    | rfl
    | (show ofRat false (q + -r) * ofRat false (q + -r) = ofRat false (r + -q) * ofRat false (r + -q)
       rw [← ofRat_neg_sq, show -(q + -r) = r + -q by ring])
    | (show ofRat false (q + 0) * ofRat false (q + 0) = ofRat false (0 + -q) * ofRat false (0 + -q)
       rw [← ofRat_neg_sq, show -(q + 0) = 0 + -q by ring])
    | (show ofRat false (0 + -r) * ofRat false (0 + -r) = ofRat false (r + 0) * ofRat false (r + 0)
       rw [← ofRat_neg_sq, show -(0 + -r) = r + 0 by ring])

theorem Has.eq {a b : F32} {p q : ℚ} (ha : Has a p) (hb : Has b q) (h : p = q) : F32.eq a b = true := by
  rw [key_eq_iff, ha.key, hb.key]; exact ⟨ha.ne_nan, hb.ne_nan, h⟩

/-- `floorf` is exact -/
theorem floor_has {a : F32} (h : a.isFin = true) : Has (floor a) (⌊a.val⌋ : ℚ) := by
  rcases a with _ | s | s | ⟨q, hq⟩
  · simp at h
  · simp at h
  · exact ⟨rfl, by simp [floor]⟩
  · have hr : Rep (⌊q⌋ : ℚ) := by
      obtain ⟨m, e, hm, h1, h2, rfl⟩ := hq.2
      rcases le_or_gt 0 e with he | he
      · have : ((m * 2 ^ e.toNat : ℤ) : ℚ) = (m : ℚ) * 2 ^ e := by
          push_cast
          rw [← zpow_natCast, Int.toNat_of_nonneg he]
        rw [← this, Int.floor_intCast, this]
        exact hq.2
      · have hm' := abs_lt.mp hm
        have hp : (0 : ℚ) < 2 ^ e := zpow_pos (by norm_num) e
        have hp1 : (2 : ℚ) ^ e ≤ 1 := by
          rw [show (1 : ℚ) = 2 ^ (0 : ℤ) by norm_num]; exact zpow_le_zpow_right₀ (by norm_num) he.le
        have f1 : ⌊(m : ℚ) * 2 ^ e⌋ < 2 ^ 24 := by
          rw [Int.floor_lt]
          have : (m : ℚ) < 2 ^ 24 := by exact_mod_cast hm'.2
          push_cast; nlinarith
        have f2 : -2 ^ 24 ≤ ⌊(m : ℚ) * 2 ^ e⌋ := by
          rw [Int.le_floor]
          have : (-2 ^ 24 : ℚ) < m := by exact_mod_cast hm'.1
          push_cast; nlinarith
        generalize ⌊(m : ℚ) * 2 ^ e⌋ = k at *
        rcases lt_or_eq_of_le f2 with f2 | f2
        · exact ⟨k, 0, abs_lt.mpr ⟨f2, f1⟩, by norm_num, by norm_num, by simp⟩
        · exact ⟨-2 ^ 23, 1, by norm_num, by norm_num, by norm_num, by rw [← f2]; norm_num⟩
    have e : |rnd (⌊q⌋ : ℚ)| < 2 ^ 128 := by rw [rnd_rep hr]; exact rep_lt hr
    have hf := (ofRat_isFin false (⌊q⌋ : ℚ)).mpr e
    exact ⟨hf, by show (ofRat false (⌊q⌋ : ℚ)).val = _; rw [ofRat_val hf, rnd_rep hr]; rfl⟩

/-- the fractional part as the library computes it -/
theorem fract_range [Libm] (a : F32) :
    F32.le (CFloat.lit 0) (F32.fmin (a - floor a) (CFloat.lit 0.999999940395355224609375)) = true ∧
    F32.lt (F32.fmin (a - floor a) (CFloat.lit 0.999999940395355224609375)) (CFloat.lit 1) = true := by
  have rc : Rep 0.999999940395355224609375 := ⟨2 ^ 24 - 1, -24, by norm_num, by norm_num, by norm_num, by norm_num⟩
  have l0 : Has (CFloat.lit 0 : F32) 0 := .lit rep_zero
  have l1 : Has (CFloat.lit 1 : F32) 1 := .lit rep_one
  have lc : Has (CFloat.lit 0.999999940395355224609375 : F32) 0.999999940395355224609375 := .lit rc
  by_cases h : a.isFin = true
  · have hf := floor_has h
    have h1 := Int.floor_le a.val
    have h2 := Int.lt_floor_add_one a.val
    have b := rnd_between rep_zero rep_one (by linarith : 0 ≤ a.val - ⌊a.val⌋) (by linarith)
    have hs := (Has.of h).sub hf (by rw [abs_of_nonneg b.1]; exact lt_of_le_of_lt b.2 (by norm_num))
    generalize (CFloat.lit 0.999999940395355224609375 : F32) = c at *
    generalize a - floor a = d at *
    have e : F32.fmin d c = if F32.lt d c then d else c := by
      have := hs.ne_nan
      have := lc.ne_nan
      rcases d with _ | _ | _ | _ <;> rcases c with _ | _ | _ | _ <;> first | rfl | contradiction
    rw [e]
    split_ifs with hl
    · rw [key_lt_iff, hs.key, lc.key] at hl
      rw [key_le_iff, key_lt_iff, l0.key, l1.key, hs.key]
      exact ⟨⟨l0.ne_nan, hs.ne_nan, b.1⟩, hs.ne_nan, l1.ne_nan, lt_trans hl.2.2 (by norm_num)⟩
    · rw [key_le_iff, key_lt_iff, l0.key, l1.key, lc.key]
      exact ⟨⟨l0.ne_nan, lc.ne_nan, by norm_num⟩, lc.ne_nan, l1.ne_nan, by norm_num⟩
  · have : a - floor a = nan := by
      rcases a with _ | s | s | ⟨q, hq⟩
      · rfl
      · exact sub_self_inf s
      · simp at h
      · simp at h
    rw [this]
    show F32.le _ (CFloat.lit 0.999999940395355224609375) = true ∧ F32.lt (CFloat.lit 0.999999940395355224609375) _ = true
    rw [key_le_iff, key_lt_iff, l0.key, l1.key, lc.key]
    exact ⟨⟨l0.ne_nan, lc.ne_nan, by norm_num⟩, lc.ne_nan, l1.ne_nan, by norm_num⟩

/-- dividing by an infinity and multiplying loses everything -/
theorem mul_recip_inf [Libm] {a : F32} (h : a.isFin = true) : F32.eq (a * ((CFloat.lit 1 : F32) / inf false)) (CFloat.lit 0) = true := by
  have l0 : Has (CFloat.lit 0 : F32) 0 := .lit rep_zero
  have e : (CFloat.lit 1 : F32) / inf false = zero false := by
    show F32.ofRat false 1 / inf false = zero false
    decide +kernel
  rw [e]
  have := (Has.of h).mul_exact (b := zero false) (q := 0) ⟨rfl, rfl⟩ (by rw [mul_zero]; exact rep_zero)
  exact this.eq l0 (by simp)

/-- exact evaluation of a sum of products with zeros and ones -/
macro "exact_has" : tactic => `(tactic| repeat' first
  | with_reducible exact Has.lit rep_one
  | with_reducible exact Has.lit rep_zero
  | with_reducible exact Has.of (by assumption)
  | with_reducible apply Has.add_exact
  | with_reducible apply Has.mul_exact
  | (simp only [one_mul, zero_mul, mul_one, mul_zero, add_zero, zero_add]; first | exact rep_zero | exact rep_one | exact rep_val _))

end F32

/-- componentwise C `==` -/
def V2.Feq (a b : V2 F32) : Prop := F32.eq a.x b.x = true ∧ F32.eq a.y b.y = true

/-- componentwise C `==` -/
def V3.Feq (a b : V3 F32) : Prop := F32.eq a.x b.x = true ∧ F32.eq a.y b.y = true ∧ F32.eq a.z b.z = true

/-- componentwise C `==` -/
def V4.Feq (a b : V4 F32) : Prop := F32.eq a.x b.x = true ∧ F32.eq a.y b.y = true ∧ F32.eq a.z b.z = true ∧ F32.eq a.w b.w = true

/-- entrywise C `==` -/
def M2.Feq (a b : M2 F32) : Prop := a.c0.Feq b.c0 ∧ a.c1.Feq b.c1


/-- entrywise C `==` -/
def M3.Feq (a b : M3 F32) : Prop := a.c0.Feq b.c0 ∧ a.c1.Feq b.c1 ∧ a.c2.Feq b.c2


/-- entrywise C `==` -/
def M4.Feq (a b : M4 F32) : Prop := a.c0.Feq b.c0 ∧ a.c1.Feq b.c1 ∧ a.c2.Feq b.c2 ∧ a.c3.Feq b.c3

end Cglm
