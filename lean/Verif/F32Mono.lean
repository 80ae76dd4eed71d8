import Verif.F32Order
/-!
# The binary32 operations respect the order

Rounding to nearest is monotone, so an operation that is monotone over the rational numbers is monotone in binary32 too,
infinities included, wherever the results are not NaN.
-/
open Cglm F32
namespace Cglm
namespace F32

theorem le_refl' {a : F32} (h : a ≠ nan) : le a a = true := key_le_iff.mpr ⟨h, h, le_rfl⟩

theorem le_trans' {a b c : F32} (h : le a b = true) (h' : le b c = true) : le a c = true := by
  rw [key_le_iff] at *
  exact ⟨h.1, h'.2.1, h.2.2.trans h'.2.2⟩

theorem le_ne {a b : F32} (h : le a b = true) : a ≠ nan ∧ b ≠ nan := by
  rw [key_le_iff] at h; exact ⟨h.1, h.2.1⟩

/-- of two numbers one is at most the other -/
theorem le_total' {a b : F32} (ha : a ≠ nan) (hb : b ≠ nan) : le a b = true ∨ le b a = true := by
  simp only [key_le_iff]
  rcases le_total (key a) (key b) with h | h
  · exact .inl ⟨ha, hb, h⟩
  · exact .inr ⟨hb, ha, h⟩

theorem not_lt_iff {a b : F32} (ha : a ≠ nan) (hb : b ≠ nan) : lt a b = false ↔ le b a = true := by
  rw [← Bool.not_eq_true, key_lt_iff, key_le_iff]
  simp [ha, hb]

theorem not_le_iff {a b : F32} (ha : a ≠ nan) (hb : b ≠ nan) : le a b = false ↔ lt b a = true := by
  rw [← Bool.not_eq_true, key_lt_iff, key_le_iff]
  simp [ha, hb]

theorem le_of_lt' {a b : F32} (h : lt a b = true) : le a b = true := by
  rw [key_lt_iff] at h; rw [key_le_iff]; exact ⟨h.1, h.2.1, h.2.2.le⟩

theorem key_bound (a : F32) : -2 ^ 128 ≤ key a ∧ key a ≤ 2 ^ 128 := by
  have := abs_lt.mp (val_lt a)
  rcases a with _ | s | s | ⟨q, h⟩
  · norm_num [key]
  · cases s <;> norm_num [key]
  · norm_num [key]
  · exact ⟨this.1.le, this.2.le⟩

theorem le_inf {a : F32} (h : a ≠ nan) : le a (inf false) = true :=
  key_le_iff.mpr ⟨h, nofun, by simpa [key] using (key_bound a).2⟩

theorem inf_le {a : F32} (h : a ≠ nan) : le (inf true) a = true :=
  key_le_iff.mpr ⟨nofun, h, by simpa [key] using (key_bound a).1⟩

/-- nothing lies above +∞ ... -/
theorem eq_inf_of_le {a : F32} (h : le (inf false) a = true) : a = inf false := by
  rw [key_le_iff] at h
  have hb := abs_lt.mp (val_lt a)
  rcases a with _ | s | s | ⟨q, h'⟩
  · exact absurd rfl h.2.1
  · cases s
    · rfl
    · have := h.2.2; norm_num [key] at this
  · have := h.2.2; norm_num [key] at this
  · have := h.2.2
    have h3 : (2 : ℚ) ^ 128 ≤ q := this
    have h4 : q < 2 ^ 128 := hb.2
    exact absurd h3 (not_le.mpr h4)

theorem le_neg {a b : F32} (h : le a b = true) : le (-b) (-a) = true := by
  rw [key_le_iff] at *
  have kn : ∀ x : F32, key (-x) = -key x := by
    intro x
    rcases x with _ | s | s | ⟨q, h⟩
    · norm_num [key]
    · cases s
      · show -(2 : ℚ) ^ 128 = _; rfl
      · show (2 : ℚ) ^ 128 = - -2 ^ 128; norm_num
    · show (0 : ℚ) = -0; norm_num
    · rfl
  have nn : ∀ x : F32, x ≠ nan → -x ≠ nan := by
    intro x hx; rcases x with _ | s | s | ⟨q, h⟩
    · exact absurd rfl hx
    · nofun
    · nofun
    · nofun
  exact ⟨nn _ h.2.1, nn _ h.1, by rw [kn, kn]; linarith [h.2.2]⟩

theorem neg_ne_nan {a : F32} (h : a ≠ nan) : -a ≠ nan := by
  intro e; apply h; rw [← neg_neg' a, e]; rfl

/-- ... and nothing below −∞ -/
theorem eq_ninf_of_le {a : F32} (h : le a (inf true) = true) : a = inf true := by
  have := eq_inf_of_le (le_neg h)
  rw [← neg_neg' a, this]; rfl

/-- a number that is neither infinity is finite -/
theorem fin_of {a : F32} (h : a ≠ nan) (h1 : a ≠ inf false) (h2 : a ≠ inf true) : a.isFin = true :=
  (isFin_iff a).mpr ⟨h, h1, h2⟩

theorem ofRat_ne_nan (s : Bool) (q : ℚ) : ofRat s q ≠ nan := by
  unfold ofRat; split_ifs <;> nofun

/-- rounding to binary32 is monotone, overflow included -/
theorem ofRat_mono {s t : Bool} {p q : ℚ} (h : p ≤ q) : le (ofRat s p) (ofRat t q) = true := by
  have hk : ∀ (s : Bool) (q : ℚ), key (ofRat s q) = max (-2 ^ 128) (min (2 ^ 128) (rnd q)) := by
    intro s q
    unfold ofRat
    by_cases h0 : rnd q = 0
    · rw [dif_pos h0, h0]; norm_num [key]
    rw [dif_neg h0]
    by_cases h1 : |rnd q| < 2 ^ 128
    · rw [dif_pos h1]
      rw [abs_lt] at h1
      show rnd q = _
      rw [min_eq_right h1.2.le, max_eq_right h1.1.le]
    · rw [dif_neg h1]
      have h2 : 2 ^ 128 ≤ |rnd q| := not_lt.mp h1
      rcases lt_or_ge q 0 with hq | hq
      · have := rnd_nonpos hq.le
        rw [abs_of_nonpos this] at h2
        rw [show (decide (q < 0)) = true from decide_eq_true hq]
        show -(2 : ℚ) ^ 128 = _
        rw [min_eq_right (by linarith), max_eq_left (by linarith)]
      · have := rnd_nonneg hq
        rw [abs_of_nonneg this] at h2
        rw [show (decide (q < 0)) = false from decide_eq_false (not_lt.mpr hq)]
        show (2 : ℚ) ^ 128 = _
        rw [min_eq_left h2, max_eq_right (by norm_num)]
  rw [key_le_iff, hk, hk]
  exact ⟨ofRat_ne_nan _ _, ofRat_ne_nan _ _, max_le_max le_rfl (min_le_min le_rfl (rnd_mono h))⟩

theorem add_ofRat {a b : F32} (ha : a.isFin = true) (hb : b.isFin = true) : ∃ s, a + b = ofRat s (a.val + b.val) := by
  rcases a with _ | s | s | ⟨q, h⟩ <;> rcases b with _ | t | t | ⟨r, h'⟩ <;> simp at ha hb
  · refine ⟨s && t, ?_⟩
    show zero (s && t) = ofRat (s && t) (0 + 0)
    rw [add_zero]; unfold ofRat; rw [dif_pos rnd_zero, if_pos rfl]
  · exact ⟨false, rfl⟩
  · exact ⟨false, rfl⟩
  · exact ⟨false, rfl⟩

theorem mul_ofRat {a b : F32} (ha : a.isFin = true) (hb : b.isFin = true) :
    a * b = ofRat (a.sgn != b.sgn) (a.val * b.val) := by
  rcases a with _ | s | s | ⟨q, h⟩ <;> rcases b with _ | t | t | ⟨r, h'⟩ <;> simp at ha hb <;> rfl

theorem div_ofRat {a b : F32} (ha : a.isFin = true) (hb : b.isFin = true) (h0 : b.val ≠ 0) :
    a / b = ofRat (a.sgn != b.sgn) (a.val / b.val) := by
  rcases a with _ | s | s | ⟨q, h⟩ <;> rcases b with _ | t | t | ⟨r, h'⟩ <;> simp at ha hb h0 <;> rfl

theorem inf_add_eq {s : Bool} {a : F32} (h : inf s + a ≠ nan) : inf s + a = inf s := by
  rcases a with _ | t | t | ⟨q, h'⟩
  · exact absurd rfl h
  · cases s <;> cases t <;> first | rfl | exact absurd rfl h
  · rfl
  · rfl

theorem add_inf_eq {s : Bool} {a : F32} (h : a + inf s ≠ nan) : a + inf s = inf s := by
  rw [add_comm'] at *; exact inf_add_eq h

/-- addition is monotone in both arguments -/
theorem add_le_add' {a a' b b' : F32} (ha : le a a' = true) (hb : le b b' = true) (h : a + b ≠ nan) (h' : a' + b' ≠ nan) :
    le (a + b) (a' + b') = true := by
  by_cases c1 : a + b = inf true
  · rw [c1]; exact inf_le h'
  by_cases c2 : a' + b' = inf false
  · rw [c2]; exact le_inf h
  have n1 : a ≠ inf true := by rintro rfl; exact c1 (inf_add_eq h)
  have n2 : b ≠ inf true := by rintro rfl; exact c1 (add_inf_eq h)
  have n3 : a' ≠ inf false := by rintro rfl; exact c2 (inf_add_eq h')
  have n4 : b' ≠ inf false := by rintro rfl; exact c2 (add_inf_eq h')
  have fa : a.isFin = true := fin_of (le_ne ha).1 (by rintro rfl; exact n3 (eq_inf_of_le ha)) n1
  have fb : b.isFin = true := fin_of (le_ne hb).1 (by rintro rfl; exact n4 (eq_inf_of_le hb)) n2
  have fa' : a'.isFin = true := fin_of (le_ne ha).2 n3 (by rintro rfl; exact n1 (eq_ninf_of_le ha))
  have fb' : b'.isFin = true := fin_of (le_ne hb).2 n4 (by rintro rfl; exact n2 (eq_ninf_of_le hb))
  rw [le_fin fa fa'] at ha
  rw [le_fin fb fb'] at hb
  obtain ⟨s, e⟩ := add_ofRat fa fb
  obtain ⟨t, e'⟩ := add_ofRat fa' fb'
  rw [e, e']
  exact ofRat_mono (by linarith)

/-- subtraction is monotone in the first argument and antitone in the second -/
theorem sub_le_sub' {a a' b b' : F32} (ha : le a a' = true) (hb : le b' b = true) (h : a - b ≠ nan) (h' : a' - b' ≠ nan) :
    le (a - b) (a' - b') = true := by
  rw [sub_def] at *
  rw [sub_def] at *
  exact add_le_add' ha (le_neg hb) h h'

theorem sgn_of_neg {a : F32} (h : key a < 0) : a.sgn = true := by
  rcases a with _ | s | s | ⟨q, h'⟩
  · norm_num [key] at h
  · cases s
    · norm_num [key] at h
    · rfl
  · norm_num [key] at h
  · exact decide_eq_true h

theorem sgn_of_pos {a : F32} (h : 0 < key a) : a.sgn = false := by
  rcases a with _ | s | s | ⟨q, h'⟩
  · rfl
  · cases s
    · rfl
    · norm_num [key] at h
  · norm_num [key] at h
  · exact decide_eq_false (not_lt.mpr (le_of_lt h))

theorem key_zero_iff {a : F32} (h : a ≠ nan) : key a = 0 ↔ ∃ s, a = zero s := by
  rcases a with _ | s | s | ⟨q, h'⟩
  · exact absurd rfl h
  · refine ⟨fun e => ?_, fun ⟨s, e⟩ => by cases e⟩
    cases s <;> norm_num [key] at e
  · exact ⟨fun _ => ⟨s, rfl⟩, fun _ => rfl⟩
  · exact ⟨fun e => absurd e h'.1, fun ⟨s, e⟩ => by cases e⟩

theorem inf_mul_eq {s : Bool} {a : F32} (h : inf s * a ≠ nan) : inf s * a = inf (s != a.sgn) := by
  rcases a with _ | t | t | ⟨q, h'⟩
  · exact absurd rfl h
  · rfl
  · exact absurd rfl h
  · rfl

theorem inf_mul_pos {s : Bool} {a : F32} (h : 0 < key a) : inf s * a = inf s := by
  have hn : inf s * a ≠ nan := by
    rcases a with _ | t | t | ⟨q, h'⟩
    · norm_num [key] at h
    · nofun
    · norm_num [key] at h
    · nofun
  rw [inf_mul_eq hn, sgn_of_pos h]; simp

theorem inf_mul_neg {s : Bool} {a : F32} (h : key a < 0) : inf s * a = inf (!s) := by
  have hn : inf s * a ≠ nan := by
    rcases a with _ | t | t | ⟨q, h'⟩
    · norm_num [key] at h
    · nofun
    · norm_num [key] at h
    · nofun
  rw [inf_mul_eq hn, sgn_of_neg h]; simp

theorem inf_mul_zero {s : Bool} {a : F32} (h : key a = 0) : inf s * a = nan := by
  by_cases hn : a = nan
  · rw [hn]; rfl
  · obtain ⟨t, rfl⟩ := (key_zero_iff hn).mp h; rfl

theorem key_inf (s : Bool) : key (inf s) = if s then -2 ^ 128 else 2 ^ 128 := rfl

/-- multiplication by a factor that is not negative is monotone -/
theorem mul_le_mul_left' {c a a' : F32} (hc : 0 ≤ key c) (ha : le a a' = true) (h : c * a ≠ nan) (h' : c * a' ≠ nan) :
    le (c * a) (c * a') = true := by
  have cn : c ≠ nan := by rintro rfl; exact h (by simp)
  by_cases fc : c.isFin = true
  · by_cases i1 : a' = inf false
    · subst i1
      rw [mul_comm'] at h' ⊢
      rw [mul_comm' c _] at *
      rcases hc.eq_or_lt with e | e
      · exact absurd (inf_mul_zero e.symm) h'
      · rw [inf_mul_pos e]; exact le_inf h
    by_cases i2 : a = inf true
    · subst i2
      rw [mul_comm'] at h ⊢
      rcases hc.eq_or_lt with e | e
      · exact absurd (inf_mul_zero e.symm) h
      · rw [inf_mul_pos e]; exact inf_le h'
    have fa : a.isFin = true := fin_of (le_ne ha).1 (by rintro rfl; exact i1 (eq_inf_of_le ha)) i2
    have fa' : a'.isFin = true := fin_of (le_ne ha).2 i1 (by rintro rfl; exact i2 (eq_ninf_of_le ha))
    rw [le_fin fa fa'] at ha
    rw [key_fin fc] at hc
    rw [mul_ofRat fc fa, mul_ofRat fc fa']
    exact ofRat_mono (mul_le_mul_of_nonneg_left ha hc)
  · have ci : c = inf false := by
      rcases c with _ | s | s | ⟨q, h'⟩
      · exact absurd rfl cn
      · cases s
        · rfl
        · norm_num [key] at hc
      · simp at fc
      · simp at fc
    subst ci
    rw [key_le_iff] at ha
    rcases lt_trichotomy (key a) 0 with e | e | e
    · rw [inf_mul_neg e]; exact inf_le h'
    · exact absurd (inf_mul_zero e) h
    · rw [inf_mul_pos e, inf_mul_pos (by linarith [ha.2.2])]; rfl

theorem mul_le_mul_right' {c a a' : F32} (hc : 0 ≤ key c) (ha : le a a' = true) (h : a * c ≠ nan) (h' : a' * c ≠ nan) :
    le (a * c) (a' * c) = true := by
  rw [mul_comm'] at h ⊢
  rw [mul_comm' a' c] at *
  exact mul_le_mul_left' hc ha h h'

theorem ofRat_zero (s : Bool) : ofRat s 0 = zero s := by
  unfold ofRat; rw [dif_pos rnd_zero, if_pos rfl]

theorem ofRat_not_neg (s : Bool) (x : ℚ) : ofRat (!s) (-x) = -ofRat s x := by
  by_cases h : x = 0
  · subst h; rw [neg_zero, ofRat_zero, ofRat_zero]; rfl
  · have g : ∀ s x, x ≠ 0 → ofRat s x = ofRat false x := by
      intro s x hx; unfold ofRat; simp only [if_neg hx]
    rw [g _ _ (neg_ne_zero.mpr h), g _ _ h, ofRat_neg h]

theorem sgn_neg {a : F32} (h : a ≠ nan) : (-a).sgn = !a.sgn := by
  rcases a with _ | s | s | ⟨q, h'⟩
  · exact absurd rfl h
  · rfl
  · rfl
  · show decide (-q < 0) = !decide (q < 0)
    rcases lt_or_gt_of_ne h'.1 with c | c <;> simp [c, c.le]

theorem neg_mul' (a b : F32) : -a * b = -(a * b) := by
  by_cases ha : a = nan
  · subst ha; simp
  by_cases hb : b = nan
  · subst hb; simp
  by_cases fa : a.isFin = true
  · by_cases fb : b.isFin = true
    · rw [mul_ofRat (by rwa [neg_isFin]) fb, mul_ofRat fa fb, neg_val, neg_mul, ← ofRat_not_neg, sgn_neg ha]
      congr 1
      cases a.sgn <;> cases b.sgn <;> rfl
    · have hs := sgn_neg ha
      rcases b with _ | t | t | ⟨r, h'⟩ <;> simp at fb hb
      rcases a with _ | s | s | ⟨q, h⟩ <;> simp at fa
      · rfl
      · show inf ((-fin q h).sgn != t) = inf (!((fin q h).sgn != t))
        rw [hs]
        cases (fin q h).sgn <;> cases t <;> rfl
  · rcases a with _ | s | s | ⟨q, h⟩ <;> simp at fa ha
    rcases b with _ | t | t | ⟨r, h'⟩
    · rfl
    · cases s <;> cases t <;> rfl
    · rfl
    · show inf ((!s) != (fin r h').sgn) = inf (!(s != (fin r h').sgn))
      cases (fin r h').sgn <;> cases s <;> rfl

theorem mul_neg' (a b : F32) : a * -b = -(a * b) := by rw [mul_comm', neg_mul', mul_comm']

theorem key_neg (a : F32) : key (-a) = -key a := by
  rcases a with _ | s | s | ⟨q, h⟩
  · norm_num [key]
  · cases s
    · show -(2 : ℚ) ^ 128 = _; rfl
    · show (2 : ℚ) ^ 128 = - -2 ^ 128; norm_num
  · show (0 : ℚ) = -0; norm_num
  · rfl

theorem neg_eq_nan {a : F32} : -a = nan ↔ a = nan :=
  ⟨fun h => by rw [← neg_neg' a, h]; rfl, fun h => by rw [h]; rfl⟩

/-- multiplication by a factor that is not positive reverses the order -/
theorem mul_le_mul_left_neg {c a a' : F32} (hc : key c ≤ 0) (ha : le a a' = true) (h : c * a ≠ nan) (h' : c * a' ≠ nan) :
    le (c * a') (c * a) = true := by
  have k : 0 ≤ key (-c) := by rw [key_neg]; linarith
  have := mul_le_mul_left' k ha (by rwa [neg_mul', Ne, neg_eq_nan]) (by rwa [neg_mul', Ne, neg_eq_nan])
  rw [neg_mul', neg_mul'] at this
  have := le_neg this
  rwa [neg_neg', neg_neg'] at this

/-- for arguments that are not negative multiplication is monotone in both -/
theorem mul_le_mul' {a a' b b' : F32} (a0 : 0 ≤ key a) (b0 : 0 ≤ key b) (ha : le a a' = true) (hb : le b b' = true)
    (h : a * b ≠ nan) (h' : a' * b' ≠ nan) : le (a * b) (a' * b') = true := by
  have a0' : 0 ≤ key a' := a0.trans (key_le_iff.mp ha).2.2
  have b0' : 0 ≤ key b' := b0.trans (key_le_iff.mp hb).2.2
  by_cases i1 : a' = inf false
  · subst i1
    rcases b0'.eq_or_lt with e | e
    · exact absurd (inf_mul_zero e.symm) h'
    · rw [inf_mul_pos e]; exact le_inf h
  by_cases i2 : b' = inf false
  · subst i2
    rw [mul_comm' a' _] at *
    rcases a0'.eq_or_lt with e | e
    · exact absurd (inf_mul_zero e.symm) h'
    · rw [inf_mul_pos e]; exact le_inf h
  have pos : ∀ {x : F32}, 0 ≤ key x → x ≠ inf true := by
    rintro x hx rfl; norm_num [key] at hx
  have fa : a.isFin = true := fin_of (le_ne ha).1 (by rintro rfl; exact i1 (eq_inf_of_le ha)) (pos a0)
  have fb : b.isFin = true := fin_of (le_ne hb).1 (by rintro rfl; exact i2 (eq_inf_of_le hb)) (pos b0)
  have fa' : a'.isFin = true := fin_of (le_ne ha).2 i1 (pos a0')
  have fb' : b'.isFin = true := fin_of (le_ne hb).2 i2 (pos b0')
  rw [le_fin fa fa'] at ha
  rw [le_fin fb fb'] at hb
  rw [key_fin fa] at a0; rw [key_fin fb] at b0; rw [key_fin fa'] at a0'
  rw [mul_ofRat fa fb, mul_ofRat fa' fb']
  exact ofRat_mono (mul_le_mul ha hb b0 a0')

/-- division by a positive number is monotone -/
theorem div_le_div' {a a' c : F32} (hc : 0 < key c) (ha : le a a' = true) (h : a / c ≠ nan) (h' : a' / c ≠ nan) :
    le (a / c) (a' / c) = true := by
  have cn : c ≠ nan := by rintro rfl; exact h (by simp)
  have c0 : ∀ s, c ≠ zero s := by rintro s rfl; norm_num [key] at hc
  have d : ∀ s, inf s / c ≠ nan → inf s / c = inf s := by
    intro s hs
    have e := sgn_of_pos hc
    rcases c with _ | t | t | ⟨q, hq⟩
    · exact absurd rfl cn
    · exact absurd rfl hs
    · exact absurd rfl (c0 t)
    · show inf (s != _) = _; rw [e]; simp
  by_cases i1 : a' = inf false
  · subst i1; rw [d _ h']; exact le_inf h
  by_cases i2 : a = inf true
  · subst i2; rw [d _ h]; exact inf_le h'
  have fa : a.isFin = true := fin_of (le_ne ha).1 (by rintro rfl; exact i1 (eq_inf_of_le ha)) i2
  have fa' : a'.isFin = true := fin_of (le_ne ha).2 i1 (by rintro rfl; exact i2 (eq_ninf_of_le ha))
  by_cases fc : c.isFin = true
  · rw [le_fin fa fa'] at ha
    rw [key_fin fc] at hc
    rw [div_ofRat fa fc hc.ne', div_ofRat fa' fc hc.ne']
    exact ofRat_mono (div_le_div_of_nonneg_right ha hc.le)
  · have z : ∀ {x : F32}, x.isFin = true → key (x / c) = 0 ∧ x / c ≠ nan := by
      intro x hx
      rcases c with _ | t | t | ⟨q, hq⟩
      · exact absurd rfl cn
      · rcases x with _ | s | s | ⟨q, hq⟩ <;> simp at hx
        · exact ⟨by show key (zero _) = 0; rfl, nofun⟩
        · exact ⟨by show key (zero _) = 0; rfl, nofun⟩
      · simp at fc
      · simp at fc
    rw [key_le_iff, (z fa).1, (z fa').1]
    exact ⟨h, h', le_rfl⟩

theorem rndSqrt_mono {p q : ℚ} (hp : 0 < p) (h : p ≤ q) : rndSqrt p ≤ rndSqrt q := by
  have hq := hp.trans_le h
  have hl : Int.log 2 p ≤ Int.log 2 q := Int.log_mono_right hp h
  have he : sqrtExp p ≤ sqrtExp q := by unfold sqrtExp; omega
  rcases he.eq_or_lt with he | he
  · unfold rndSqrt
    rw [← he]
    dsimp only
    refine mul_le_mul_of_nonneg_right ?_ (two_zpow_pos _).le
    have h4 : (0 : ℚ) < 4 ^ sqrtExp p := zpow_pos (by norm_num) _
    have hx : p / 4 ^ sqrtExp p ≤ q / 4 ^ sqrtExp p := div_le_div_of_nonneg_right h h4.le
    generalize p / 4 ^ sqrtExp p = x at *
    generalize q / 4 ^ sqrtExp p = y at *
    have hk : Nat.sqrt ⌊x⌋.toNat ≤ Nat.sqrt ⌊y⌋.toNat :=
      Nat.sqrt_le_sqrt (Int.toNat_le_toNat (Int.floor_le_floor hx))
    rcases hk.eq_or_lt with e | e
    · rw [← e]
      split_ifs with c1 c2 c2
      · exact le_rfl
      · linarith
      · linarith
      · exact le_rfl
    · have : ((Nat.sqrt ⌊x⌋.toNat : ℕ) : ℚ) + 1 ≤ ((Nat.sqrt ⌊y⌋.toNat : ℕ) : ℚ) := by exact_mod_cast e
      split_ifs <;> linarith
  · obtain ⟨m, hm, e1, -⟩ := sqrt_bits hp
    have low : (2 : ℚ) ^ 23 * 2 ^ sqrtExp q ≤ rndSqrt q := by
      unfold rndSqrt
      dsimp only
      refine mul_le_mul_of_nonneg_right ?_ (two_zpow_pos _).le
      have h4 : (0 : ℚ) < 4 ^ sqrtExp q := zpow_pos (by norm_num) _
      have hlog1 : (2 : ℚ) ^ Int.log 2 q ≤ q := by exact_mod_cast Int.zpow_log_le_self (b := 2) (by norm_num) hq
      have hx : (2 : ℚ) ^ 46 ≤ q / 4 ^ sqrtExp q := by
        rw [le_div_iff₀ h4]
        refine le_trans ?_ hlog1
        rw [show (4 : ℚ) ^ sqrtExp q = 2 ^ sqrtExp q * 2 ^ sqrtExp q by rw [← mul_zpow]; norm_num,
          ← zpow_add₀ (by norm_num), show (2 : ℚ) ^ 46 = 2 ^ (46 : ℤ) by norm_num, ← zpow_add₀ (by norm_num)]
        apply zpow_le_zpow_right₀ (by norm_num)
        unfold sqrtExp; omega
      have hf : (2 ^ 46 : ℤ) ≤ ⌊q / 4 ^ sqrtExp q⌋ := by rw [Int.le_floor]; exact_mod_cast hx
      have hk : 2 ^ 23 ≤ Nat.sqrt ⌊q / 4 ^ sqrtExp q⌋.toNat := by
        rw [Nat.le_sqrt]; norm_num at hf ⊢; omega
      have hk' : (2 : ℚ) ^ 23 ≤ (Nat.sqrt ⌊q / 4 ^ sqrtExp q⌋.toNat : ℕ) := by exact_mod_cast hk
      split_ifs <;> linarith
    refine le_trans ?_ low
    rw [e1]
    have hm' : (m : ℚ) ≤ 2 ^ 24 := by exact_mod_cast hm
    have h2 : (2 : ℚ) ^ sqrtExp p ≤ 2 ^ (sqrtExp q - 1) := zpow_le_zpow_right₀ (by norm_num) (by omega)
    calc (m : ℚ) * 2 ^ sqrtExp p ≤ 2 ^ 24 * 2 ^ (sqrtExp q - 1) :=
          mul_le_mul hm' h2 (two_zpow_pos _).le (by norm_num)
      _ = 2 ^ 23 * 2 ^ sqrtExp q := by rw [zpow_sub₀ (by norm_num)]; ring

/-- `sqrtf` is monotone -/
theorem sqrt_le_sqrt' {a a' : F32} (ha : le a a' = true) (h : sqrt a ≠ nan) : le (sqrt a) (sqrt a') = true := by
  have hk := (key_le_iff.mp ha).2.2
  have han := (le_ne ha).2
  rcases a with _ | s | s | ⟨q, hq⟩
  · exact absurd rfl h
  · cases s
    · have := eq_inf_of_le ha; subst this; rfl
    · exact absurd rfl h
  · rcases a' with _ | t | t | ⟨r, hr⟩
    · exact absurd rfl han
    · cases t
      · exact le_inf nofun
      · norm_num [key] at hk
    · exact ha
    · have hr0 : 0 < r := lt_of_le_of_ne hk (Ne.symm hr.1)
      have e : sqrt (fin r hr) = ofRat false (rndSqrt r) := if_neg (not_lt.mpr hr0.le)
      rw [e]
      have z : sqrt (zero s) = zero s := rfl
      rw [z, show zero s = ofRat s 0 by unfold ofRat; rw [dif_pos rnd_zero, if_pos rfl]]
      apply ofRat_mono
      obtain ⟨m, -, e, -⟩ := sqrt_bits hr0
      rw [e]; exact mul_nonneg (by positivity) (two_zpow_pos _).le
  · have hq0 : 0 < q := by
      by_contra hc
      apply h
      exact if_pos (lt_of_le_of_ne (not_lt.mp hc) hq.1)
    rcases a' with _ | t | t | ⟨r, hr⟩
    · exact absurd rfl han
    · cases t
      · exact le_inf h
      · have := hq0; simp only [key, val] at hk; norm_num at hk; linarith
    · simp only [key, val] at hk; linarith
    · have hk' : q ≤ r := hk
      have e : sqrt (fin r hr) = ofRat false (rndSqrt r) := if_neg (not_lt.mpr (hq0.le.trans hk'))
      have e' : sqrt (fin q hq) = ofRat false (rndSqrt q) := if_neg (not_lt.mpr hq0.le)
      rw [e, e']
      exact ofRat_mono (rndSqrt_mono hq0 hk')

/-- `floorf` is monotone -/
theorem floor_le_floor' {a a' : F32} (ha : le a a' = true) : le (floor a) (floor a') = true := by
  by_cases fa : a.isFin = true
  · by_cases fa' : a'.isFin = true
    · have h1 := floor_has fa
      have h2 := floor_has fa'
      rw [le_fin fa fa'] at ha
      rw [le_fin h1.1 h2.1, h1.2, h2.2]
      exact_mod_cast Int.floor_le_floor ha
    · have := (le_ne ha).2
      rcases a' with _ | s | s | ⟨q, hq⟩
      · exact absurd rfl this
      · cases s
        · exact le_inf (floor_has fa).ne_nan
        · have := eq_ninf_of_le ha; subst this; simp at fa
      · simp at fa'
      · simp at fa'
  · have := (le_ne ha).1
    rcases a with _ | s | s | ⟨q, hq⟩
    · exact absurd rfl this
    · cases s
      · have := eq_inf_of_le ha; subst this; rfl
      · refine inf_le ?_
        have := (le_ne ha).2
        rcases a' with _ | s | s | ⟨q, hq⟩
        · exact absurd rfl this
        · nofun
        · nofun
        · exact (floor_has (a := fin q hq) rfl).ne_nan
    · simp at fa
    · simp at fa

/-- magnitude: `fabsf` -/
theorem key_abs (a : F32) : key (abs a) = |key a| := by
  rcases a with _ | s | s | ⟨q, h⟩
  · norm_num [key, abs]
  · cases s <;> norm_num [key, abs]
  · norm_num [key, abs]
  · show key (if q < 0 then -fin q h else fin q h) = |q|
    split_ifs with c
    · rw [abs_of_neg c]; rfl
    · rw [abs_of_nonneg (not_lt.mp c)]; rfl

theorem abs_eq_nan {a : F32} : abs a = nan ↔ a = nan := by
  rcases a with _ | s | s | ⟨q, h⟩
  · simp
  · simp [abs]
  · simp [abs]
  · simp only [abs]
    split_ifs
    · rw [neg_eq_nan]; simp
    · simp

/-- the square of a number is determined by its magnitude -/
theorem sq_abs' (a : F32) : abs a * abs a = a * a := by
  rcases a with _ | s | s | ⟨q, h⟩
  · rfl
  · cases s <;> rfl
  · cases s <;> rfl
  · show (if q < 0 then -fin q h else fin q h) * (if q < 0 then -fin q h else fin q h) = _
    split_ifs
    · exact mul_self_neg _
    · rfl

theorem sq_ne_nan {a : F32} (h : a ≠ nan) : a * a ≠ nan := by
  rcases a with _ | s | s | ⟨q, h'⟩
  · exact absurd rfl h
  · nofun
  · exact ofRat_ne_nan _ _
  · exact ofRat_ne_nan _ _

/-- the greater the magnitude, the greater the square -/
theorem sq_le_sq' {a b : F32} (h : le (abs a) (abs b) = true) : le (a * a) (b * b) = true := by
  have ha : a ≠ nan := fun e => (le_ne h).1 (abs_eq_nan.mpr e)
  have hb : b ≠ nan := fun e => (le_ne h).2 (abs_eq_nan.mpr e)
  have := mul_le_mul' (by rw [key_abs]; exact abs_nonneg _) (by rw [key_abs]; exact abs_nonneg _) h h
    (by rw [sq_abs']; exact sq_ne_nan ha) (by rw [sq_abs']; exact sq_ne_nan hb)
  rwa [sq_abs', sq_abs'] at this

theorem key_lit [Libm] {q : ℚ} (h : Rep q) : key (CFloat.lit q : F32) = q := (Has.lit h).key

theorem sq_nonneg' (a : F32) : 0 ≤ key (a * a) := by
  by_cases h : a = nan
  · subst h; norm_num [key]
  have h0 : le (zero false) (abs a) = true := by
    rw [key_le_iff, key_abs]
    exact ⟨nofun, fun e => h (abs_eq_nan.mp e), abs_nonneg _⟩
  have := sq_le_sq' (a := zero false) (b := a) h0
  rw [mul_ofRat rfl rfl] at this
  simp only [val, mul_zero, ofRat_zero] at this
  exact (key_le_iff.mp this).2.2

theorem add_nonneg_ne {a b : F32} (ha : a ≠ nan) (hb : b ≠ nan) (ha0 : 0 ≤ key a) (hb0 : 0 ≤ key b) :
    a + b ≠ nan ∧ 0 ≤ key (a + b) := by
  have hn : a + b ≠ nan := by
    by_cases fa : a.isFin = true
    · by_cases fb : b.isFin = true
      · obtain ⟨s, e⟩ := add_ofRat fa fb
        rw [e]; exact ofRat_ne_nan _ _
      · rcases b with _ | t | t | ⟨r, h'⟩ <;> simp at fb hb
        rw [show a + inf t = inf t by rcases a with _ | s | s | ⟨q, h⟩ <;> simp at fa <;> rfl]
        simp
    · rcases a with _ | s | s | ⟨q, h⟩ <;> simp at fa ha
      rcases b with _ | t | t | ⟨r, h'⟩
      · exact absurd rfl hb
      · cases s
        · cases t
          · show inf false ≠ nan; simp
          · norm_num [key] at hb0
        · norm_num [key] at ha0
      · show inf s ≠ nan; simp
      · show inf s ≠ nan; simp
  refine ⟨hn, ?_⟩
  have z : ∀ x : F32, x ≠ nan → 0 ≤ key x → le (zero false) x = true := fun x hx h => key_le_iff.mpr ⟨nofun, hx, h⟩
  have := add_le_add' (z a ha ha0) (z b hb hb0) (by nofun) hn
  exact (key_le_iff.mp this).2.2

/-- at most, unless one of the two is NaN -/
def LeN (a b : F32) : Prop := a ≠ nan → b ≠ nan → le a b = true

theorem LeN.of {a b : F32} (h : le a b = true) : LeN a b := fun _ _ => h
theorem LeN.refl (a : F32) : LeN a a := fun h _ => le_refl' h

theorem add_ne {a b : F32} (h : a + b ≠ nan) : a ≠ nan ∧ b ≠ nan :=
  ⟨by rintro rfl; exact h (by simp), by rintro rfl; exact h (by simp)⟩
theorem sub_ne {a b : F32} (h : a - b ≠ nan) : a ≠ nan ∧ b ≠ nan :=
  ⟨by rintro rfl; exact h (by simp), by rintro rfl; exact h (by simp)⟩
theorem mul_ne {a b : F32} (h : a * b ≠ nan) : a ≠ nan ∧ b ≠ nan :=
  ⟨by rintro rfl; exact h (by simp), by rintro rfl; exact h (by simp)⟩
theorem div_ne {a b : F32} (h : a / b ≠ nan) : a ≠ nan ∧ b ≠ nan :=
  ⟨by rintro rfl; exact h (by simp), by rintro rfl; exact h (by simp)⟩

theorem LeN.add {a a' b b' : F32} (ha : LeN a a') (hb : LeN b b') : LeN (a + b) (a' + b') := fun h h' =>
  add_le_add' (ha (add_ne h).1 (add_ne h').1) (hb (add_ne h).2 (add_ne h').2) h h'

theorem LeN.sub {a a' b b' : F32} (ha : LeN a a') (hb : LeN b' b) : LeN (a - b) (a' - b') := fun h h' =>
  sub_le_sub' (ha (sub_ne h).1 (sub_ne h').1) (hb (sub_ne h').2 (sub_ne h).2) h h'

theorem LeN.neg {a b : F32} (h : LeN a b) : LeN (-b) (-a) := fun hb ha =>
  le_neg (h (fun e => ha (neg_eq_nan.mpr e)) (fun e => hb (neg_eq_nan.mpr e)))

theorem LeN.mulL {c a a' : F32} (hc : 0 ≤ key c) (ha : LeN a a') : LeN (c * a) (c * a') := fun h h' =>
  mul_le_mul_left' hc (ha (mul_ne h).2 (mul_ne h').2) h h'

theorem LeN.mulR {c a a' : F32} (hc : 0 ≤ key c) (ha : LeN a a') : LeN (a * c) (a' * c) := fun h h' =>
  mul_le_mul_right' hc (ha (mul_ne h).1 (mul_ne h').1) h h'

theorem LeN.mulN {c a a' : F32} (hc : key c ≤ 0) (ha : LeN a a') : LeN (c * a') (c * a) := fun h' h =>
  mul_le_mul_left_neg hc (ha (mul_ne h).2 (mul_ne h').2) h h'

theorem LeN.mul {a a' b b' : F32} (a0 : 0 ≤ key a) (b0 : 0 ≤ key b) (ha : LeN a a') (hb : LeN b b') :
    LeN (a * b) (a' * b') := fun h h' =>
  mul_le_mul' a0 b0 (ha (mul_ne h).1 (mul_ne h').1) (hb (mul_ne h).2 (mul_ne h').2) h h'

theorem LeN.div {a a' c : F32} (hc : 0 < key c) (ha : LeN a a') : LeN (a / c) (a' / c) := fun h h' =>
  div_le_div' hc (ha (div_ne h).1 (div_ne h').1) h h'

theorem LeN.sqrt {a a' : F32} (ha : LeN a a') : LeN (F32.sqrt a) (F32.sqrt a') := fun h h' =>
  sqrt_le_sqrt' (ha (by rintro rfl; exact h rfl) (by rintro rfl; exact h' rfl)) h

theorem LeN.floor {a a' : F32} (ha : LeN a a') : LeN (F32.floor a) (F32.floor a') := fun h h' =>
  floor_le_floor' (ha (by rintro rfl; exact h rfl) (by rintro rfl; exact h' rfl))

theorem sqrt_ne_nan {a : F32} (h : a ≠ nan) (h0 : 0 ≤ key a) : F32.sqrt a ≠ nan := by
  rcases a with _ | s | s | ⟨q, hq⟩
  · exact absurd rfl h
  · cases s
    · show inf false ≠ nan; simp
    · norm_num [key] at h0
  · show zero s ≠ nan; simp
  · show (if q < 0 then nan else ofRat false (rndSqrt q)) ≠ nan
    rw [if_neg (not_lt.mpr (show (0 : ℚ) ≤ q from h0))]; exact ofRat_ne_nan _ _

end F32

/-- componentwise order -/
def V2.Le (a b : V2 F32) : Prop := F32.le a.x b.x = true ∧ F32.le a.y b.y = true
@[inherit_doc V2.Le] def V3.Le (a b : V3 F32) : Prop :=
  F32.le a.x b.x = true ∧ F32.le a.y b.y = true ∧ F32.le a.z b.z = true
@[inherit_doc V2.Le] def V4.Le (a b : V4 F32) : Prop :=
  F32.le a.x b.x = true ∧ F32.le a.y b.y = true ∧ F32.le a.z b.z = true ∧ F32.le a.w b.w = true

/-- no component is NaN -/
def V2.Num (a : V2 F32) : Prop := a.x ≠ nan ∧ a.y ≠ nan
@[inherit_doc V2.Num] def V3.Num (a : V3 F32) : Prop := a.x ≠ nan ∧ a.y ≠ nan ∧ a.z ≠ nan
@[inherit_doc V2.Num] def V4.Num (a : V4 F32) : Prop := a.x ≠ nan ∧ a.y ≠ nan ∧ a.z ≠ nan ∧ a.w ≠ nan

/-- no component is larger in magnitude -/
def V2.LeAbs (a b : V2 F32) : Prop := (a.map F32.abs).Le (b.map F32.abs)
@[inherit_doc V2.LeAbs] def V3.LeAbs (a b : V3 F32) : Prop := (a.map F32.abs).Le (b.map F32.abs)
@[inherit_doc V2.LeAbs] def V4.LeAbs (a b : V4 F32) : Prop := (a.map F32.abs).Le (b.map F32.abs)

/-- no component is negative or NaN -/
def V2.Nonneg (a : V2 F32) : Prop := F32.le (zero false) a.x = true ∧ F32.le (zero false) a.y = true
@[inherit_doc V2.Nonneg] def V3.Nonneg (a : V3 F32) : Prop :=
  F32.le (zero false) a.x = true ∧ F32.le (zero false) a.y = true ∧ F32.le (zero false) a.z = true
@[inherit_doc V2.Nonneg] def V4.Nonneg (a : V4 F32) : Prop :=
  F32.le (zero false) a.x = true ∧ F32.le (zero false) a.y = true ∧ F32.le (zero false) a.z = true ∧
    F32.le (zero false) a.w = true

end Cglm
