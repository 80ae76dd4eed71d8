import Verif.F32
import Verif.SimdReal

/-!
# Facts about binary32 arithmetic
-/

namespace Cglm
namespace F32

theorem add_def (a b : F32) : a + b = F32.add a b := rfl
theorem sub_def (a b : F32) : a - b = a + -b := rfl
theorem mul_def (a b : F32) : a * b = F32.mul a b := rfl
theorem div_def (a b : F32) : a / b = F32.div a b := rfl
theorem neg_def (a : F32) : -a = F32.neg a := rfl

@[simp] theorem val_nan : val nan = 0 := rfl
@[simp] theorem val_inf (s : Bool) : val (inf s) = 0 := rfl
@[simp] theorem val_zero (s : Bool) : val (zero s) = 0 := rfl
@[simp] theorem val_fin (q : ℚ) (h : q ≠ 0 ∧ Rep q) : val (fin q h) = q := rfl
@[simp] theorem isFin_nan : isFin nan = false := rfl
@[simp] theorem isFin_inf (s : Bool) : isFin (inf s) = false := rfl
@[simp] theorem isFin_zero (s : Bool) : isFin (zero s) = true := rfl
@[simp] theorem isFin_fin (q : ℚ) (h : q ≠ 0 ∧ Rep q) : isFin (fin q h) = true := rfl

theorem rep_zero : Rep 0 := ⟨0, 0, by norm_num, by norm_num, by norm_num, by norm_num⟩

theorem rep_neg {q : ℚ} (h : Rep q) : Rep (-q) := by
  obtain ⟨m, e, hm, h1, h2, rfl⟩ := h
  exact ⟨-m, e, by rwa [abs_neg], h1, h2, by push_cast; ring⟩

theorem rep_val (a : F32) : Rep a.val := by
  rcases a with _ | s | s | ⟨q, h⟩
  · exact rep_zero
  · exact rep_zero
  · exact rep_zero
  · exact h.2

theorem rep_lt {q : ℚ} (h : Rep q) : |q| < 2 ^ 128 := by
  obtain ⟨m, e, hm, h1, h2, rfl⟩ := h
  have h3 : (2 : ℚ) ^ e ≤ 2 ^ (104 : ℤ) := zpow_le_zpow_right₀ (by norm_num) h2
  have h4 : |(m : ℚ)| < 2 ^ 24 := by exact_mod_cast hm
  rw [abs_mul, abs_of_pos (two_zpow_pos e)]
  calc |(m : ℚ)| * 2 ^ e < 2 ^ 24 * 2 ^ e := mul_lt_mul_of_pos_right h4 (two_zpow_pos e)
    _ ≤ 2 ^ 24 * 2 ^ (104 : ℤ) := mul_le_mul_of_nonneg_left h3 (by norm_num)
    _ = 2 ^ 128 := by norm_num

theorem val_lt (a : F32) : |a.val| < 2 ^ 128 := rep_lt (rep_val a)

/-- every value is a multiple of the smallest positive number -/
theorem rep_grid {q : ℚ} (h : Rep q) : ∃ n : ℤ, q = n * 2 ^ (-149 : ℤ) := by
  obtain ⟨m, e, -, h1, -, rfl⟩ := h
  refine ⟨m * 2 ^ (e + 149).toNat, ?_⟩
  push_cast
  rw [mul_assoc, ← zpow_natCast, Int.toNat_of_nonneg (by omega), ← zpow_add₀ (by norm_num)]
  congr 2; omega

/-! ### Monotonicity of rounding -/

theorem rnd_nonneg {q : ℚ} (h : 0 ≤ q) : 0 ≤ rnd q := by
  unfold rnd
  have h1 : (0 : ℚ) ≤ q / 2 ^ ulpExp q := div_nonneg h (two_zpow_pos _).le
  have h2 := rne_mono h1
  rw [show (0 : ℚ) = ((0 : ℤ) : ℚ) by norm_num, rne_int] at h2
  exact mul_nonneg (by exact_mod_cast h2) (two_zpow_pos _).le

theorem rnd_nonpos {q : ℚ} (h : q ≤ 0) : rnd q ≤ 0 := by
  have := rnd_nonneg (neg_nonneg.mpr h)
  rw [rnd_neg] at this; linarith

theorem rnd_mono_pos {x y : ℚ} (hx : 0 < x) (h : x ≤ y) : rnd x ≤ rnd y := by
  have hy := lt_of_lt_of_le hx h
  have hlog : Int.log 2 x ≤ Int.log 2 y := Int.log_mono_right hx h
  have hulp : ulpExp x ≤ ulpExp y := by
    unfold ulpExp; rw [abs_of_pos hx, abs_of_pos hy]; omega
  rcases lt_or_eq_of_le hulp with hlt | heq
  · obtain ⟨m, hm, e⟩ := rnd_bits x
    have h1 : rnd x ≤ 2 ^ (23 + ulpExp y) := by
      rw [e]
      have : (m : ℚ) ≤ 2 ^ 24 := by exact_mod_cast (le_abs_self m).trans hm
      calc (m : ℚ) * 2 ^ ulpExp x ≤ 2 ^ 24 * 2 ^ ulpExp x := mul_le_mul_of_nonneg_right this (two_zpow_pos _).le
        _ = 2 ^ (24 + ulpExp x) := by rw [zpow_add₀ (by norm_num)]; norm_num
        _ ≤ 2 ^ (23 + ulpExp y) := zpow_le_zpow_right₀ (by norm_num) (by omega)
    have hge := ulpExp_ge x
    have hu : ulpExp y = Int.log 2 y - 23 := by
      unfold ulpExp at *; rw [abs_of_pos hy] at *; omega
    have h2 : (2 : ℚ) ^ Int.log 2 y ≤ y := by exact_mod_cast Int.zpow_log_le_self (b := 2) (by norm_num) hy
    have h3 : ((2 ^ 23 : ℤ) : ℚ) ≤ y / 2 ^ ulpExp y := by
      rw [le_div_iff₀ (two_zpow_pos _)]
      refine le_trans (le_of_eq ?_) h2
      rw [hu, zpow_sub₀ (by norm_num)]; push_cast; field_simp
    have h4 := rne_mono h3
    rw [rne_int] at h4
    have h5 : (2 : ℚ) ^ (23 + ulpExp y) ≤ rnd y := by
      unfold rnd
      rw [zpow_add₀ (by norm_num)]
      refine mul_le_mul_of_nonneg_right ?_ (two_zpow_pos _).le
      exact_mod_cast h4
    exact h1.trans h5
  · unfold rnd
    rw [heq]
    refine mul_le_mul_of_nonneg_right ?_ (two_zpow_pos _).le
    exact_mod_cast rne_mono (div_le_div_of_nonneg_right h (two_zpow_pos _).le)

theorem rnd_mono {x y : ℚ} (h : x ≤ y) : rnd x ≤ rnd y := by
  rcases lt_trichotomy x 0 with hx | hx | hx
  · rcases lt_or_ge y 0 with hy | hy
    · have := rnd_mono_pos (x := -y) (y := -x) (by linarith) (by linarith)
      rw [rnd_neg, rnd_neg] at this; linarith
    · exact (rnd_nonpos hx.le).trans (rnd_nonneg hy)
  · subst hx; rw [rnd_zero]; exact rnd_nonneg h
  · exact rnd_mono_pos hx h

theorem rnd_abs (q : ℚ) : rnd |q| = |rnd q| := by
  rcases le_total 0 q with h | h
  · rw [abs_of_nonneg h, abs_of_nonneg (rnd_nonneg h)]
  · rw [abs_of_nonpos h, abs_of_nonpos (rnd_nonpos h), rnd_neg]

/-- rounding does not cross a representable number -/
theorem rnd_le_of_le {x y : ℚ} (hy : Rep y) (h : x ≤ y) : rnd x ≤ y := by
  have := rnd_mono h; rwa [rnd_rep hy] at this

theorem le_rnd_of_le {x y : ℚ} (hx : Rep x) (h : x ≤ y) : x ≤ rnd y := by
  have := rnd_mono h; rwa [rnd_rep hx] at this

/-- adding two binary32 numbers never loses anything to underflow -/
theorem rnd_add_err {a b : ℚ} (ha : Rep a) (hb : Rep b) : |rnd (a + b) - (a + b)| ≤ u * |a + b| := by
  rcases le_or_gt ((2 : ℚ) ^ (-126 : ℤ)) |a + b| with h | h
  · exact rnd_err_normal _ h
  · obtain ⟨m, rfl⟩ := rep_grid ha
    obtain ⟨n, rfl⟩ := rep_grid hb
    have e : (m : ℚ) * 2 ^ (-149 : ℤ) + n * 2 ^ (-149 : ℤ) = ((m + n : ℤ) : ℚ) * 2 ^ (-149 : ℤ) := by push_cast; ring
    rw [e] at h ⊢
    have hm : |m + n| ≤ 2 ^ 24 := by
      rw [abs_mul, abs_of_pos (two_zpow_pos _), ← Int.cast_abs] at h
      have e2 : (2 : ℚ) ^ (-126 : ℤ) = 2 ^ 23 * 2 ^ (-149 : ℤ) := by norm_num
      rw [e2] at h
      have h3 := lt_of_mul_lt_mul_right h (two_zpow_pos _).le
      have h4 : |m + n| < 2 ^ 23 := by exact_mod_cast h3
      omega
    rw [rnd_of_bits _ _ hm (by norm_num), sub_self, abs_zero]
    exact mul_nonneg u_pos.le (abs_nonneg _)

/-! ### Values of results -/

theorem ofRat_isFin (s : Bool) (q : ℚ) : (ofRat s q).isFin = true ↔ |rnd q| < 2 ^ 128 := by
  unfold ofRat
  by_cases h0 : rnd q = 0
  · simp [h0]
  · by_cases h : |rnd q| < 2 ^ 128
    · simp only [h0, h, dite_true, dite_false, isFin_fin]
    · simp only [h0, h, dite_false, isFin_inf, Bool.false_eq_true]

theorem ofRat_val {s : Bool} {q : ℚ} (h : (ofRat s q).isFin = true) : (ofRat s q).val = rnd q := by
  rw [ofRat_isFin] at h
  unfold ofRat
  by_cases h0 : rnd q = 0
  · simp [h0]
  · simp only [h0, h, dite_true, dite_false, val_fin]

theorem ofRat_rep {s : Bool} {q : ℚ} (h0 : q ≠ 0) (h : Rep q) : ofRat s q = fin q ⟨h0, h⟩ := by
  unfold ofRat
  have e := rnd_rep h
  have hl := rep_lt h
  rw [dif_neg (by rwa [e]), dif_pos (by rwa [e])]
  simp only [e]

theorem neg_isFin (a : F32) : (-a).isFin = a.isFin := by
  rcases a with _ | s | s | ⟨q, h⟩ <;> rfl

@[simp] theorem neg_val (a : F32) : (-a).val = -a.val := by
  rcases a with _ | s | s | ⟨q, h⟩ <;> simp [neg_def, F32.neg]

theorem neg_neg' (a : F32) : - -a = a := by
  rcases a with _ | s | s | ⟨q, h⟩ <;> simp [neg_def, F32.neg]

/-- for finite operands addition is the rounded sum -/
theorem add_fin {a b : F32} (ha : a.isFin = true) (hb : b.isFin = true) :
    ((a + b).isFin = true ↔ |rnd (a.val + b.val)| < 2 ^ 128) ∧
      ((a + b).isFin = true → (a + b).val = rnd (a.val + b.val)) := by
  rcases a with _ | s | s | ⟨q, h⟩ <;> rcases b with _ | t | t | ⟨r, h'⟩ <;> try simp only [isFin_nan, isFin_inf, Bool.false_eq_true] at ha hb
  · simp [add_def, F32.add, rnd_zero]
  · exact ⟨ofRat_isFin _ _, ofRat_val⟩
  · exact ⟨ofRat_isFin _ _, ofRat_val⟩
  · exact ⟨ofRat_isFin _ _, ofRat_val⟩

theorem add_isFin {a b : F32} (h : (a + b).isFin = true) : a.isFin = true ∧ b.isFin = true := by
  rcases a with _ | s | s | ⟨q, hq⟩ <;> rcases b with _ | t | t | ⟨r, hr⟩ <;> simp [add_def, F32.add] at h ⊢
  split_ifs at h <;> simp at h

theorem add_val {a b : F32} (h : (a + b).isFin = true) : (a + b).val = rnd (a.val + b.val) :=
  (add_fin (add_isFin h).1 (add_isFin h).2).2 h

theorem sub_isFin {a b : F32} (h : (a - b).isFin = true) : a.isFin = true ∧ b.isFin = true := by
  have := add_isFin (a := a) (b := -b) h
  rwa [neg_isFin] at this

theorem sub_val {a b : F32} (h : (a - b).isFin = true) : (a - b).val = rnd (a.val - b.val) := by
  rw [sub_def] at *; rw [add_val h, neg_val, sub_eq_add_neg]

theorem sub_fin {a b : F32} (ha : a.isFin = true) (hb : b.isFin = true) :
    (a - b).isFin = true ↔ |rnd (a.val - b.val)| < 2 ^ 128 := by
  rw [sub_def, (add_fin ha (by rwa [neg_isFin])).1, neg_val, sub_eq_add_neg]

theorem mul_fin {a b : F32} (ha : a.isFin = true) (hb : b.isFin = true) :
    ((a * b).isFin = true ↔ |rnd (a.val * b.val)| < 2 ^ 128) ∧
      ((a * b).isFin = true → (a * b).val = rnd (a.val * b.val)) := by
  rcases a with _ | s | s | ⟨q, h⟩ <;> rcases b with _ | t | t | ⟨r, h'⟩ <;> try simp only [isFin_nan, isFin_inf, Bool.false_eq_true] at ha hb
  all_goals exact ⟨ofRat_isFin _ _, ofRat_val⟩

theorem mul_isFin {a b : F32} (h : (a * b).isFin = true) : a.isFin = true ∧ b.isFin = true := by
  rcases a with _ | s | s | ⟨q, hq⟩ <;> rcases b with _ | t | t | ⟨r, hr⟩ <;> simp [mul_def, F32.mul] at h ⊢

theorem mul_val {a b : F32} (h : (a * b).isFin = true) : (a * b).val = rnd (a.val * b.val) :=
  (mul_fin (mul_isFin h).1 (mul_isFin h).2).2 h

/-- a finite quotient has a finite dividend, and a divisor that is not a NaN and not zero -/
theorem div_isFin {a b : F32} (h : (a / b).isFin = true) :
    a.isFin = true ∧ (b.isFin = true ∧ b.val ≠ 0 ∨ ∃ s, b = inf s) := by
  rcases a with _ | s | s | ⟨q, hq⟩ <;> rcases b with _ | t | t | ⟨r, hr⟩ <;> simp [div_def, F32.div] at h ⊢
  · exact hr.1
  · exact hr.1

theorem div_fin {a b : F32} (ha : a.isFin = true) (hb : b.isFin = true) (h0 : b.val ≠ 0) :
    ((a / b).isFin = true ↔ |rnd (a.val / b.val)| < 2 ^ 128) ∧
      ((a / b).isFin = true → (a / b).val = rnd (a.val / b.val)) := by
  rcases a with _ | s | s | ⟨q, h⟩ <;> rcases b with _ | t | t | ⟨r, h'⟩ <;>
    try simp only [isFin_nan, isFin_inf, Bool.false_eq_true, val_zero, ne_eq, not_true] at ha hb h0
  all_goals exact ⟨ofRat_isFin _ _, ofRat_val⟩

theorem div_val {a b : F32} (hb : b.isFin = true) (h : (a / b).isFin = true) : (a / b).val = rnd (a.val / b.val) := by
  obtain ⟨ha, ⟨hb', h0⟩ | ⟨s, rfl⟩⟩ := div_isFin h
  · exact (div_fin ha hb h0).2 h
  · simp at hb

/-! ### Commutativity -/

theorem add_comm' (a b : F32) : a + b = b + a := by
  rcases a with _ | s | s | ⟨q, h⟩ <;> rcases b with _ | t | t | ⟨r, h'⟩ <;> simp [add_def, F32.add]
  · by_cases e : s = t
    · simp [e]
    · rw [if_neg e, if_neg (Ne.symm e)]
  · exact Bool.and_comm _ _
  · rw [_root_.add_comm]

theorem mul_comm' (a b : F32) : a * b = b * a := by
  rcases a with _ | s | s | ⟨q, h⟩ <;> rcases b with _ | t | t | ⟨r, h'⟩ <;>
    simp [mul_def, F32.mul, sgn, bne_comm, _root_.mul_comm]
  all_goals exact bne_comm

instance : CommArith F32 := ⟨add_comm', mul_comm'⟩

/-! ### Order -/

/-- not NaN -/
def isNum (a : F32) : Prop := a ≠ nan

theorem isNum_of_isFin {a : F32} (h : a.isFin = true) : a ≠ nan := by
  rintro rfl; simp at h

theorem lt_fin {a b : F32} (ha : a.isFin = true) (hb : b.isFin = true) : lt a b = true ↔ a.val < b.val := by
  rcases a with _ | s | s | ⟨q, h⟩ <;> rcases b with _ | t | t | ⟨r, h'⟩ <;> simp [lt] at ha hb ⊢ <;> exact decide_eq_true_iff

theorem eq_fin {a b : F32} (ha : a.isFin = true) (hb : b.isFin = true) : eq a b = true ↔ a.val = b.val := by
  rcases a with _ | s | s | ⟨q, h⟩ <;> rcases b with _ | t | t | ⟨r, h'⟩ <;> simp [eq] at ha hb ⊢ <;> exact decide_eq_true_iff

theorem le_fin {a b : F32} (ha : a.isFin = true) (hb : b.isFin = true) : le a b = true ↔ a.val ≤ b.val := by
  unfold le
  rw [Bool.or_eq_true, lt_fin ha hb, eq_fin ha hb, le_iff_lt_or_eq]

/-- two finite numbers with the same non-zero value are the same datum -/
theorem ext_val {a b : F32} (ha : a.isFin = true) (hb : b.isFin = true) (h : a.val = b.val) (h0 : a.val ≠ 0) : a = b := by
  rcases a with _ | s | s | ⟨q, hq⟩ <;> rcases b with _ | t | t | ⟨r, hr⟩ <;> simp at ha hb h h0 ⊢
  · exact absurd h h0
  · exact h

end F32
end Cglm
