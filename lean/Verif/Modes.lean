import Verif.Assoc
import Verif.Wide
/-!
# Rounding modes and flushing to zero

The floating-point environment decides how operations round (`fesetround`) and whether subnormal results are replaced by zero (the FTZ
bit of SSE, always on 32-bit NEON, set at start-up by `-ffast-math`).  Here expressions (`Assoc.lean`) are run in an arbitrary environment.

Simplified: no number overflows; replacing subnormal operands by zero (DAZ) is the same as replacing subnormal inputs and is not a part of
the run; whether a result is subnormal may be decided before or after rounding, so at the border both outcomes are allowed.
-/

namespace Cglm
open F32 Wide

/-- the rounding modes of `fesetround` -/
inductive Mode where
  | nearest | up | down | zero

namespace Modes

/-- the least binary32 number that is not below `x` -/
def Up (x y : ℝ) : Prop := Fmt 24 (-149) y ∧ x ≤ y ∧ ∀ z, Fmt 24 (-149) z → x ≤ z → y ≤ z
/-- the greatest binary32 number that is not above `x` -/
def Down (x y : ℝ) : Prop := Fmt 24 (-149) y ∧ y ≤ x ∧ ∀ z, Fmt 24 (-149) z → z ≤ x → z ≤ y

/-- `y` is `x` rounded -/
def Rounds : Mode → ℝ → ℝ → Prop
  | .nearest, x, y => Nearest 24 (-149) x y
  | .up, x, y => Up x y
  | .down, x, y => Down x y
  | .zero, x, y => (0 ≤ x → Down x y) ∧ (x ≤ 0 → Up x y)

/-- the stored result of an operation with the exact result `x`; `f` says whether subnormal results are flushed -/
def Result (m : Mode) (f : Bool) (x z : ℝ) : Prop := Rounds m x z ∨ f = true ∧ |x| < 2 ^ (-126 : ℤ) ∧ z = 0

/-- all inputs are finite -/
def _root_.Cglm.X.Fin : X → Prop
  | .inp v => v.isFin = true
  | .neg a => a.Fin
  | .add a b => a.Fin ∧ b.Fin
  | .sub a b => a.Fin ∧ b.Fin
  | .mul a b => a.Fin ∧ b.Fin

/-- run an expression -/
inductive Runs (m : Mode) (f : Bool) : X → ℝ → Prop
  | inp {v} : v.isFin = true → Runs m f (.inp v) v.toReal
  | neg {a x} : Runs m f a x → Runs m f (.neg a) (-x)
  | add {a b x y z} : Runs m f a x → Runs m f b y → Result m f (x + y) z → Runs m f (.add a b) z
  | sub {a b x y z} : Runs m f a x → Runs m f b y → Result m f (x - y) z → Runs m f (.sub a b) z
  | mul {a b x y z} : Runs m f a x → Runs m f b y → Result m f (x * y) z → Runs m f (.mul a b) z

variable {m : Mode} {f : Bool}

/-! ### one operation -/

theorem zero_fmt : Fmt 24 (-149) 0 := ⟨0, 0, by norm_num, by norm_num, by simp⟩

theorem Rounds.self {x y : ℝ} (h : Rounds m x y) (hx : Fmt 24 (-149) x) : y = x := by
  cases m with
  | nearest => exact Nearest.self h hx
  | up => exact le_antisymm (h.2.2 x hx le_rfl) h.2.1
  | down => exact le_antisymm h.2.1 (h.2.2 x hx le_rfl)
  | zero =>
    rcases le_total 0 x with h0 | h0
    · exact le_antisymm (h.1 h0).2.1 ((h.1 h0).2.2 x hx le_rfl)
    · exact le_antisymm ((h.2 h0).2.2 x hx le_rfl) (h.2 h0).2.1

/-- the numbers of the last bit below and above `x` -/
theorem fmt_floor {p : ℕ} {k : ℤ} (x : ℝ) : Fmt p k (⌊x / 2 ^ lastBit p k x⌋ * 2 ^ lastBit p k x) ∧
    Fmt p k (⌈x / 2 ^ lastBit p k x⌉ * 2 ^ lastBit p k x) := by
  have h := lt_lastBit p k x
  have hb : |x / 2 ^ lastBit p k x| < 2 ^ p := by
    generalize lastBit p k x = e at *
    have he := Wide.two_zpow_pos e
    rw [abs_div, abs_of_pos he, div_lt_iff₀ he, mul_comm, ← zpow_natCast, ← zpow_add₀ (by norm_num)]
    exact h
  obtain ⟨h1, h2⟩ := abs_lt.mp hb
  refine ⟨⟨_, _, ?_, le_max_right _ _, rfl⟩, ⟨_, _, ?_, le_max_right _ _, rfl⟩⟩ <;> rw [abs_le] <;> constructor
  · exact Int.le_floor.mpr (by push_cast; exact h1.le)
  · exact Int.floor_le_iff.mpr (by push_cast; linarith)
  · exact Int.le_ceil_iff.mpr (by push_cast; linarith)
  · exact Int.ceil_le.mpr (by push_cast; exact h2.le)

theorem floor_near (x : ℝ) (e : ℤ) : ⌊x / 2 ^ e⌋ * 2 ^ e ≤ x ∧ x - 2 ^ e ≤ ⌊x / 2 ^ e⌋ * 2 ^ e ∧
    x ≤ ⌈x / 2 ^ e⌉ * 2 ^ e ∧ ⌈x / 2 ^ e⌉ * 2 ^ e ≤ x + 2 ^ e := by
  have he := Wide.two_zpow_pos e
  have h1 := Int.floor_le (x / 2 ^ e)
  have h2 := Int.lt_floor_add_one (x / 2 ^ e)
  have h3 := Int.le_ceil (x / 2 ^ e)
  have h4 := Int.ceil_lt_add_one (x / 2 ^ e)
  rw [le_div_iff₀ he] at h1
  rw [div_lt_iff₀ he] at h2
  rw [div_le_iff₀ he] at h3
  have h4' := mul_lt_mul_of_pos_right h4 he
  rw [add_mul, div_mul_cancel₀ _ he.ne'] at h4'
  exact ⟨h1, by linarith, h3, by linarith⟩

theorem lastBit_le {x : ℝ} (hx : x ≠ 0) : (2 : ℝ) ^ lastBit 24 (-149) x ≤ |x| / 2 ^ 23 + 1 / 2 ^ 149 := by
  unfold lastBit
  have hl := Int.zpow_log_le_self (R := ℝ) (b := 2) (r := |x|) (by norm_num) (abs_pos.mpr hx)
  rcases max_cases (Int.log 2 |x| - (24 : ℕ) + 1) (-149) with ⟨h1, -⟩ | ⟨h1, -⟩
  · rw [h1, show Int.log 2 |x| - (24 : ℕ) + 1 = Int.log 2 |x| - (23 : ℕ) by push_cast; ring, zpow_sub₀ (by norm_num), zpow_natCast]
    push_cast at hl
    have := div_le_div_of_nonneg_right hl (by positivity : (0 : ℝ) ≤ 2 ^ 23)
    have : (0 : ℝ) < 1 / 2 ^ 149 := by positivity
    linarith
  · rw [h1]
    have : 0 ≤ |x| / 2 ^ 23 := by positivity
    norm_num at this ⊢
    linarith

theorem Up.err {x y : ℝ} (h : Up x y) (hx : x ≠ 0) : |y - x| ≤ |x| / 2 ^ 23 + 1 / 2 ^ 149 := by
  obtain ⟨-, -, h3, h4⟩ := floor_near x (lastBit 24 (-149) x)
  have := h.2.2 _ (fmt_floor x).2 h3
  rw [abs_of_nonneg (by linarith [h.2.1])]
  linarith [lastBit_le hx]

theorem Down.err {x y : ℝ} (h : Down x y) (hx : x ≠ 0) : |y - x| ≤ |x| / 2 ^ 23 + 1 / 2 ^ 149 := by
  obtain ⟨h1, h2, -, -⟩ := floor_near x (lastBit 24 (-149) x)
  have := h.2.2 _ (fmt_floor x).1 h1
  rw [abs_sub_comm, abs_of_nonneg (by linarith [h.2.1])]
  linarith [lastBit_le hx]

/-- relative error of one operation -/
noncomputable def u : ℝ := 1 / 2 ^ 23
/-- absolute error of one operation, from flushing -/
noncomputable def tiny : ℝ := 1 / 2 ^ 126

theorem u_pos : 0 < u := by norm_num [u]
theorem tiny_pos : 0 < tiny := by norm_num [tiny]

theorem Rounds.err {x y : ℝ} (h : Rounds m x y) : |y - x| ≤ |x| / 2 ^ 23 + 1 / 2 ^ 149 := by
  by_cases hx : x = 0
  · subst hx
    rw [h.self zero_fmt, sub_self, abs_zero]; positivity
  cases m with
  | nearest =>
    refine (Nearest.err h).trans ?_
    have := abs_nonneg x
    norm_num
    linarith
  | up => exact Up.err h hx
  | down => exact Down.err h hx
  | zero =>
    rcases le_total 0 x with h0 | h0
    · exact (h.1 h0).err hx
    · exact (h.2 h0).err hx

theorem Result.err {x z : ℝ} (h : Result m f x z) : |z - x| ≤ u * |x| + tiny := by
  rcases h with h | ⟨-, h, rfl⟩
  · refine h.err.trans ?_
    unfold u tiny
    norm_num
    linarith
  · rw [zero_sub, abs_neg]
    have := mul_nonneg u_pos.le (abs_nonneg x)
    unfold tiny
    norm_num at h ⊢
    linarith

/-- multiples of the smallest normal number are kept as they are -/
theorem Result.self {n e : ℤ} {z : ℝ} (h : Result m f (n * 2 ^ e) z) (hn : |n| ≤ 2 ^ 24) (he : -126 ≤ e) : z = n * 2 ^ e := by
  rcases h with h | ⟨-, h, rfl⟩
  · exact h.self ⟨n, e, hn, by omega, rfl⟩
  · rw [abs_mul, abs_of_pos (Wide.two_zpow_pos e)] at h
    have h1 : (2 : ℝ) ^ (-126 : ℤ) ≤ 2 ^ e := zpow_le_zpow_right₀ (by norm_num) he
    by_cases h0 : n = 0
    · simp [h0]
    · have h2 : (1 : ℝ) ≤ |(n : ℝ)| := by exact_mod_cast Int.one_le_abs h0
      have := mul_le_mul h2 h1 (Wide.two_zpow_pos _).le (abs_nonneg _)
      linarith

theorem Down.exists (x : ℝ) : ∃ y, Down x y := by
  by_cases hx : x = 0
  · subst hx; exact ⟨0, zero_fmt, le_rfl, fun z _ h => h⟩
  obtain ⟨h1, -, -, -⟩ := floor_near x (lastBit 24 (-149) x)
  have key : ∀ k : ℤ, (k : ℝ) * 2 ^ lastBit 24 (-149) x ≤ x → (k : ℝ) * 2 ^ lastBit 24 (-149) x ≤
      ⌊x / 2 ^ lastBit 24 (-149) x⌋ * 2 ^ lastBit 24 (-149) x := by
    intro k hk
    have he := Wide.two_zpow_pos (lastBit 24 (-149) x)
    refine mul_le_mul_of_nonneg_right ?_ he.le
    exact_mod_cast Int.le_floor.mpr ((le_div_iff₀ he).mpr hk)
  refine ⟨_, (fmt_floor x).1, h1, ?_⟩
  rintro z ⟨n, e, hn, hm, rfl⟩ hz
  by_cases h : lastBit 24 (-149) x ≤ e
  · have e1 : (n : ℝ) * 2 ^ e = ((n * 2 ^ (e - lastBit 24 (-149) x).toNat : ℤ) : ℝ) * 2 ^ lastBit 24 (-149) x := by
      push_cast
      rw [mul_assoc, ← zpow_natCast, ← zpow_add₀ (by norm_num : (2 : ℝ) ≠ 0)]
      congr 2; omega
    rw [e1] at hz ⊢
    exact key _ hz
  · push Not at h
    have hE : lastBit 24 (-149) x = Int.log 2 |x| - (24 : ℕ) + 1 := by
      unfold lastBit at *
      rcases max_cases (Int.log 2 |x| - (24 : ℕ) + 1) (-149) with ⟨h1, -⟩ | ⟨h1, -⟩ <;> omega
    have hl := Int.zpow_log_le_self (R := ℝ) (b := 2) (r := |x|) (by norm_num) (abs_pos.mpr hx)
    rw [show Int.log 2 |x| = lastBit 24 (-149) x + (23 : ℕ) by omega, zpow_add₀ (by norm_num), zpow_natCast] at hl
    push_cast at hl
    have b : |(n : ℝ) * 2 ^ e| ≤ 2 ^ lastBit 24 (-149) x * 2 ^ 23 := by
      rw [abs_mul, abs_of_pos (Wide.two_zpow_pos e)]
      have h1 : |(n : ℝ)| ≤ 2 ^ 24 := by exact_mod_cast hn
      have h2 : (2 : ℝ) ^ e ≤ 2 ^ (lastBit 24 (-149) x - 1) := zpow_le_zpow_right₀ (by norm_num) (by omega)
      have h3 : (2 : ℝ) ^ lastBit 24 (-149) x = 2 * 2 ^ (lastBit 24 (-149) x - 1) := by rw [← zpow_one_add₀ (by norm_num)]; congr 1; ring
      rw [h3]
      calc |(n : ℝ)| * 2 ^ e ≤ 2 ^ 24 * 2 ^ (lastBit 24 (-149) x - 1) := mul_le_mul h1 h2 (Wide.two_zpow_pos e).le (by positivity)
        _ = _ := by ring
    rcases le_or_gt 0 x with h0 | h0
    · rw [abs_of_nonneg h0] at hl
      have k := key (2 ^ 23) (by push_cast; linarith)
      push_cast at k
      linarith [le_abs_self ((n : ℝ) * 2 ^ e)]
    · rw [abs_of_neg h0] at hl
      have hz' : (n : ℝ) * 2 ^ e = ((-2 ^ 23 : ℤ) : ℝ) * 2 ^ lastBit 24 (-149) x := by
        have := neg_abs_le ((n : ℝ) * 2 ^ e)
        push_cast
        exact le_antisymm (by linarith) (by linarith)
      rw [hz'] at hz ⊢
      exact key _ hz

theorem fmt_neg {x : ℝ} (h : Fmt 24 (-149) x) : Fmt 24 (-149) (-x) := by
  obtain ⟨n, e, hn, he, rfl⟩ := h
  exact ⟨-n, e, by rwa [abs_neg], he, by push_cast; ring⟩

theorem Down.neg {x y : ℝ} (h : Down (-x) y) : Up x (-y) :=
  ⟨fmt_neg h.1, by linarith [h.2.1], fun z hz hxz => by linarith [h.2.2 (-z) (fmt_neg hz) (by linarith)]⟩

theorem Up.exists (x : ℝ) : ∃ y, Up x y := by
  obtain ⟨y, hy⟩ := Down.exists (-x)
  exact ⟨-y, hy.neg⟩

/-- every operation has a result -/
theorem Rounds.exists (m : Mode) (x : ℝ) : ∃ y, Rounds m x y := by
  cases m with
  | nearest => exact ⟨_, nearest_toGrid (by norm_num) _ x⟩
  | up => exact Up.exists x
  | down => exact Down.exists x
  | zero =>
    rcases lt_trichotomy 0 x with h | rfl | h
    · obtain ⟨y, hy⟩ := Down.exists x
      exact ⟨y, fun _ => hy, fun h' => absurd h' (by linarith)⟩
    · exact ⟨0, fun _ => ⟨zero_fmt, le_rfl, fun z _ h => h⟩, fun _ => ⟨zero_fmt, le_rfl, fun z _ h => h⟩⟩
    · obtain ⟨y, hy⟩ := Up.exists x
      exact ⟨y, fun h' => absurd h' (by linarith), fun _ => hy⟩

/-! ### runs -/

theorem Runs.exists (m : Mode) (f : Bool) (t : X) (h : t.Fin) : ∃ z, Runs m f t z := by
  induction t with
  | inp v => exact ⟨_, .inp h⟩
  | neg a ih => obtain ⟨x, hx⟩ := ih h; exact ⟨_, hx.neg⟩
  | add a b iha ihb =>
    obtain ⟨x, hx⟩ := iha h.1
    obtain ⟨y, hy⟩ := ihb h.2
    obtain ⟨z, hz⟩ := Rounds.exists m (x + y)
    exact ⟨z, hx.add hy (.inl hz)⟩
  | sub a b iha ihb =>
    obtain ⟨x, hx⟩ := iha h.1
    obtain ⟨y, hy⟩ := ihb h.2
    obtain ⟨z, hz⟩ := Rounds.exists m (x - y)
    exact ⟨z, hx.sub hy (.inl hz)⟩
  | mul a b iha ihb =>
    obtain ⟨x, hx⟩ := iha h.1
    obtain ⟨y, hy⟩ := ihb h.2
    obtain ⟨z, hz⟩ := Rounds.exists m (x * y)
    exact ⟨z, hx.mul hy (.inl hz)⟩

theorem Runs.leaf {t : X} {z : ℝ} (r : Runs m f t z) (h : t.leaf = true) : z = t.real ∧ |z| ≤ t.mag := by
  induction r with
  | inp => exact ⟨rfl, le_rfl⟩
  | neg _ ih => obtain ⟨h1, h2⟩ := ih h; exact ⟨by rw [h1]; rfl, by rw [abs_neg]; exact h2⟩
  | _ => simp [X.leaf] at h

theorem mag_nonneg (t : X) : |t.real| ≤ t.mag := by
  induction t with
  | inp v => exact le_rfl
  | neg a ih => simpa [X.real, X.mag] using ih
  | add a b iha ihb => exact (abs_add_le _ _).trans (add_le_add iha ihb)
  | sub a b iha ihb => exact (abs_sub _ _).trans (add_le_add iha ihb)
  | mul a b iha ihb => simp only [X.real, X.mag, abs_mul]; exact mul_le_mul iha ihb (abs_nonneg _) ((abs_nonneg _).trans iha)

/-- one operation on operands whose exact result `y` is near `x` -/
theorem near_op {y x M z E : ℝ} {k : ℕ} (h : |y - x| ≤ ((1 + u) ^ k - 1) * M + E) (hx : |x| ≤ M) (hz : Result m f y z) :
    |z - x| ≤ ((1 + u) ^ (k + 1) - 1) * M + ((1 + u) * E + tiny) := by
  have hu := u_pos
  have k1 := hz.err
  have t1 := abs_sub_le z y x
  have t2 : |y| ≤ |y - x| + |x| := by have := abs_add_le (y - x) x; rwa [sub_add_cancel] at this
  rw [pow_succ]
  generalize (1 + u) ^ k = r at *
  have := mul_le_mul_of_nonneg_left (t2.trans (add_le_add h hx)) hu.le
  nlinarith

theorem one_le_pow_u (k : ℕ) : 1 ≤ (1 + u) ^ k := one_le_pow₀ (by linarith [u_pos])

theorem near_le {z x M : ℝ} {k k' : ℕ} {c c' : ℕ} (h : |z - x| ≤ ((1 + u) ^ k - 1) * M + (1 + u) ^ k * c * tiny) (hM : 0 ≤ M) (hk : k ≤ k')
    (hc : c ≤ c') : |z - x| ≤ ((1 + u) ^ k' - 1) * M + (1 + u) ^ k' * c' * tiny := by
  have hp : (1 + u) ^ k ≤ (1 + u) ^ k' := pow_le_pow_right₀ (by linarith [u_pos]) hk
  have h0 := one_le_pow_u k
  have h1 := mul_le_mul_of_nonneg_right (sub_le_sub_right hp 1) hM
  have h2 : (c : ℝ) ≤ c' := by exact_mod_cast hc
  have h3 := mul_le_mul_of_nonneg_right (mul_le_mul hp h2 (by positivity) (by linarith)) tiny_pos.le
  linarith

/-- the error of a sum of products in any mode -/
theorem Runs.near {t : X} {z : ℝ} (r : Runs m f t z) (h : t.flat = true) :
    |z - t.real| ≤ ((1 + u) ^ t.ops - 1) * t.mag + (1 + u) ^ t.ops * t.ops * tiny := by
  have hs := tiny_pos
  have hu := u_pos
  have key : ∀ (a b : X) (x y w z : ℝ), |x - a.real| ≤ ((1 + u) ^ a.ops - 1) * a.mag + (1 + u) ^ a.ops * a.ops * tiny →
      |y - b.real| ≤ ((1 + u) ^ b.ops - 1) * b.mag + (1 + u) ^ b.ops * b.ops * tiny →
      ∀ s r : ℝ, |s - r| ≤ |x - a.real| + |y - b.real| → |r| ≤ a.mag + b.mag → Result m f s z →
      |z - r| ≤ ((1 + u) ^ (a.ops + b.ops + 1) - 1) * (a.mag + b.mag) + (1 + u) ^ (a.ops + b.ops + 1) * (a.ops + b.ops + 1 : ℕ) * tiny := by
    intro a b x y w z ha hb s r hsr hr hz
    have ma := (abs_nonneg _).trans (mag_nonneg a)
    have mb := (abs_nonneg _).trans (mag_nonneg b)
    have ha' := near_le ha ma (Nat.le_add_right _ b.ops) le_rfl
    have hb' := near_le hb mb (Nat.le_add_left _ a.ops) le_rfl
    have := near_op (k := a.ops + b.ops) (M := a.mag + b.mag) (E := (1 + u) ^ (a.ops + b.ops) * (a.ops + b.ops : ℕ) * tiny)
      (hsr.trans (by push_cast; nlinarith)) hr hz
    refine this.trans ?_
    have h1 := one_le_pow_u (a.ops + b.ops + 1)
    rw [pow_succ] at *
    push_cast
    nlinarith
  induction r with
  | inp => simp [X.real, X.ops]
  | @neg a x r ih =>
    have := ih h
    show |-x - -a.real| ≤ _
    rw [← neg_sub', abs_neg]; exact this
  | @add a b x y z ra rb hz iha ihb =>
    simp only [X.flat, Bool.and_eq_true] at h
    refine key a b x y 0 z (iha h.1) (ihb h.2) _ _ ?_ ((abs_add_le _ _).trans (add_le_add (mag_nonneg a) (mag_nonneg b))) hz
    have := abs_add_le (x - a.real) (y - b.real)
    rwa [show x - a.real + (y - b.real) = x + y - (X.add a b).real by simp only [X.real]; ring] at this
  | @sub a b x y z ra rb hz iha ihb =>
    simp only [X.flat, Bool.and_eq_true] at h
    refine key a b x y 0 z (iha h.1) (ihb h.2) _ _ ?_ ((abs_sub _ _).trans (add_le_add (mag_nonneg a) (mag_nonneg b))) hz
    have := abs_sub (x - a.real) (y - b.real)
    rwa [show x - a.real - (y - b.real) = x - y - (X.sub a b).real by simp only [X.real]; ring] at this
  | @mul a b x y z ra rb hz _ _ =>
    simp only [X.flat, Bool.and_eq_true] at h
    obtain ⟨rfl, -⟩ := ra.leaf h.1
    obtain ⟨rfl, -⟩ := rb.leaf h.2
    have h1 := near_op (k := 0) (E := 0) (x := (X.mul a b).real) (by simp [X.real]) (mag_nonneg (.mul a b)) hz
    have h2 : |z - (X.mul a b).real| ≤ ((1 + u) ^ 1 - 1) * (X.mul a b).mag + (1 + u) ^ 1 * (1 : ℕ) * tiny := by
      refine h1.trans ?_
      simp only [zero_add, mul_zero, Nat.cast_one]
      nlinarith
    exact near_le h2 ((abs_nonneg _).trans (mag_nonneg _)) (by simp only [X.ops]; omega) (by simp only [X.ops]; omega)

/-- the bound of `k` operations -/
noncomputable def unit (k : ℕ) : ℝ := k * (1 / 2 ^ 23 + 1 / 2 ^ 43)

theorem pow_le_unit {k : ℕ} (h : k ≤ 8) : (1 + u) ^ k - 1 ≤ unit k := by
  unfold u unit
  interval_cases k <;> norm_num

theorem Runs.within {s t : X} {z : ℝ} (r : Runs m f t z) (h : Reassoc s t) (hf : s.flat = true) (n : ℕ) (hn : s.ops ≤ n) (hn' : n ≤ 8)
    {x B : ℝ} (hx : s.real = x) (hB : s.mag ≤ B) : Within z x (unit n) B (1 / 2 ^ 122) := by
  obtain ⟨h1, h2, h3, -, -, h6⟩ := h.same
  have hm := (abs_nonneg _).trans (mag_nonneg t)
  have k := near_le (r.near (h6 ▸ hf)) hm (h3 ▸ hn : t.ops ≤ n) ((h3 ▸ hn : t.ops ≤ n).trans hn')
  rw [← h1, ← h2, hx] at k
  rw [← h2] at hm
  have a : (1 + u) ^ n ≤ (1 + u) ^ 8 := pow_le_pow_right₀ (by linarith [u_pos]) hn'
  have b : (1 + u) ^ n * (8 : ℕ) * tiny ≤ 1 / 2 ^ 122 := by
    have := mul_le_mul_of_nonneg_right (mul_le_mul_of_nonneg_right a (by norm_num : (0 : ℝ) ≤ (8 : ℕ))) tiny_pos.le
    refine this.trans ?_
    norm_num [u, tiny]
  have c := mul_le_mul (pow_le_unit hn') hB hm (by unfold unit; positivity)
  exact k.trans (add_le_add c b)

theorem Runs.on_leaf {t : X} {z : ℝ} (r : Runs m f t z) (h : t.leaf = true) {e : ℤ} {K : ℕ} (g : t.Grid e K) : ∃ n : ℤ, |n| ≤ K ∧ z = n * 2 ^ e := by
  induction r with
  | @inp v _ =>
    obtain ⟨-, n, hn, hv⟩ := g
    refine ⟨n, hn, ?_⟩
    unfold toReal
    rw [hv]; push_cast; rfl
  | neg _ ih =>
    obtain ⟨n, hn, rfl⟩ := ih h g
    exact ⟨-n, by rwa [abs_neg], by push_cast; ring⟩
  | _ => simp [X.leaf] at h

/-- on a grid of normal numbers there is no rounding and no flushing -/
theorem Runs.exact {t : X} {z : ℝ} (r : Runs m f t z) (h : t.flat = true) {e : ℤ} {K : ℕ} (g : t.Grid e K) (hK : K ≤ 2 ^ 24) (he : -126 ≤ e) :
    z = t.real ∧ ∃ n : ℤ, |n| ≤ K ∧ z = n * 2 ^ e := by
  have fits : ∀ {n : ℤ} {L : ℕ}, |n| ≤ (L : ℤ) → L ≤ 2 ^ 24 → |n| ≤ 2 ^ 24 := fun a b => a.trans (by exact_mod_cast b)
  induction r generalizing K with
  | @inp v hv => exact ⟨rfl, (Runs.inp hv : Runs m f _ _).on_leaf h g⟩
  | @neg a x ra ih =>
    obtain ⟨rfl, n, hn, hx⟩ := ih h g hK
    exact ⟨rfl, -n, by rwa [abs_neg], by rw [hx]; push_cast; ring⟩
  | @add a b x y z ra rb hz iha ihb =>
    simp only [X.flat, Bool.and_eq_true] at h
    obtain ⟨k, l, rfl, h1, h2⟩ := g
    obtain ⟨e1, n, hn, hx⟩ := iha h.1 h1 (by omega)
    obtain ⟨e2, p, hp, hy⟩ := ihb h.2 h2 (by omega)
    have hs : x + y = ((n + p : ℤ) : ℝ) * 2 ^ e := by rw [hx, hy]; push_cast; ring
    have hb : |n + p| ≤ ((k + l : ℕ) : ℤ) := (abs_add_le n p).trans (by push_cast; exact add_le_add hn hp)
    rw [hs] at hz
    have := hz.self (fits hb hK) he
    exact ⟨by rw [this, ← hs, e1, e2]; rfl, _, hb, this⟩
  | @sub a b x y z ra rb hz iha ihb =>
    simp only [X.flat, Bool.and_eq_true] at h
    obtain ⟨k, l, rfl, h1, h2⟩ := g
    obtain ⟨e1, n, hn, hx⟩ := iha h.1 h1 (by omega)
    obtain ⟨e2, p, hp, hy⟩ := ihb h.2 h2 (by omega)
    have hs : x - y = ((n - p : ℤ) : ℝ) * 2 ^ e := by rw [hx, hy]; push_cast; ring
    have hb : |n - p| ≤ ((k + l : ℕ) : ℤ) := (abs_sub n p).trans (by push_cast; exact add_le_add hn hp)
    rw [hs] at hz
    have := hz.self (fits hb hK) he
    exact ⟨by rw [this, ← hs, e1, e2]; rfl, _, hb, this⟩
  | @mul a b x y z ra rb hz _ _ =>
    simp only [X.flat, Bool.and_eq_true] at h
    obtain ⟨i, j, k, l, rfl, rfl, h1, h2⟩ := g
    obtain ⟨e1, -⟩ := ra.leaf h.1
    obtain ⟨e2, -⟩ := rb.leaf h.2
    obtain ⟨n, hn, hx⟩ := ra.on_leaf h.1 h1
    obtain ⟨p, hp, hy⟩ := rb.on_leaf h.2 h2
    have hs : x * y = ((n * p : ℤ) : ℝ) * 2 ^ (i + j) := by rw [hx, hy, zpow_add₀ (by norm_num)]; push_cast; ring
    have hb : |n * p| ≤ ((k * l : ℕ) : ℤ) := by rw [abs_mul]; push_cast; exact mul_le_mul hn hp (abs_nonneg _) (by positivity)
    rw [hs] at hz
    have := hz.self (fits hb hK) he
    exact ⟨by rw [this, ← hs, e1, e2]; rfl, _, hb, this⟩

theorem Runs.same {s t : X} {z : ℝ} (r : Runs m f t z) (h : Reassoc s t) (hf : s.flat = true) {e : ℤ} {K : ℕ} (g : s.Grid e K)
    (hK : K ≤ 2 ^ 24) (lo : -126 ≤ e) {x : ℝ} (hx : s.real = x) : z = x := by
  obtain ⟨h1, -, -, -, -, h6⟩ := h.same
  exact (r.exact (h6 ▸ hf) ((h.grid e K).mp g) hK lo).1.trans (h1 ▸ hx)

/-! ### bounds from below and above -/

/-- no differences or signs -/
def _root_.Cglm.X.plain : X → Bool
  | .inp _ => true
  | .add a b => a.plain && b.plain
  | .mul a b => a.plain && b.plain
  | _ => false

/-- no negative inputs -/
def _root_.Cglm.X.NoNeg : X → Prop
  | .inp v => 0 ≤ v.toReal
  | .neg a => a.NoNeg
  | .add a b => a.NoNeg ∧ b.NoNeg
  | .sub a b => a.NoNeg ∧ b.NoNeg
  | .mul a b => a.NoNeg ∧ b.NoNeg

/-- rounded down, with or without flushing, the result is not above the exact one -/
theorem Runs.lower {t : X} {z : ℝ} (hm : m = .down ∨ m = .zero) (r : Runs m f t z) (h : t.plain = true) (hn : t.NoNeg) : 0 ≤ z ∧ z ≤ t.real := by
  have key : ∀ x z : ℝ, 0 ≤ x → Result m f x z → 0 ≤ z ∧ z ≤ x := by
    intro x z hx hz
    rcases hz with hz | ⟨-, -, rfl⟩
    · have : Down x z := by
        rcases hm with rfl | rfl
        · exact hz
        · exact hz.1 hx
      exact ⟨this.2.2 0 zero_fmt hx, this.2.1⟩
    · exact ⟨le_rfl, hx⟩
  induction r with
  | inp => exact ⟨hn, le_rfl⟩
  | add ra rb hz iha ihb =>
    simp only [X.plain, Bool.and_eq_true] at h
    obtain ⟨a1, a2⟩ := iha h.1 hn.1
    obtain ⟨b1, b2⟩ := ihb h.2 hn.2
    obtain ⟨c1, c2⟩ := key _ _ (by positivity) hz
    exact ⟨c1, c2.trans (add_le_add a2 b2)⟩
  | mul ra rb hz iha ihb =>
    simp only [X.plain, Bool.and_eq_true] at h
    obtain ⟨a1, a2⟩ := iha h.1 hn.1
    obtain ⟨b1, b2⟩ := ihb h.2 hn.2
    obtain ⟨c1, c2⟩ := key _ _ (by positivity) hz
    exact ⟨c1, c2.trans (mul_le_mul a2 b2 b1 (a1.trans a2))⟩
  | _ => simp [X.plain] at h

/-- rounded up without flushing, the result is not below the exact one -/
theorem Runs.upper {t : X} {z : ℝ} (r : Runs .up false t z) (h : t.plain = true) (hn : t.NoNeg) : 0 ≤ t.real ∧ t.real ≤ z := by
  induction r with
  | inp => exact ⟨hn, le_rfl⟩
  | add ra rb hz iha ihb =>
    simp only [X.plain, Bool.and_eq_true] at h
    obtain ⟨a1, a2⟩ := iha h.1 hn.1
    obtain ⟨b1, b2⟩ := ihb h.2 hn.2
    rcases hz with hz | ⟨h, -⟩
    · exact ⟨add_nonneg a1 b1, (add_le_add a2 b2).trans hz.2.1⟩
    · cases h
  | mul ra rb hz iha ihb =>
    simp only [X.plain, Bool.and_eq_true] at h
    obtain ⟨a1, a2⟩ := iha h.1 hn.1
    obtain ⟨b1, b2⟩ := ihb h.2 hn.2
    rcases hz with hz | ⟨h, -⟩
    · exact ⟨mul_nonneg a1 b1, (mul_le_mul a2 b2 b1 (a1.trans a2)).trans hz.2.1⟩
    · cases h
  | _ => simp [X.plain] at h

theorem Runs.le {t : X} {z x : ℝ} (hm : m = .down ∨ m = .zero) (r : Runs m f t z) (h : t.plain = true) (hn : t.NoNeg) (hx : t.real = x) : z ≤ x :=
  hx ▸ (r.lower hm h hn).2

theorem Runs.ge {t : X} {z x : ℝ} (r : Runs .up false t z) (h : t.plain = true) (hn : t.NoNeg) (hx : t.real = x) : x ≤ z := hx ▸ (r.upper h hn).2

end Modes

/-- the components of a vector, each run on its own -/
def V2.Runs (m : Mode) (f : Bool) (t : V2 X) (z : V2 ℝ) : Prop :=
  Modes.Runs m f t.x z.x ∧ Modes.Runs m f t.y z.y
@[inherit_doc V2.Runs] def V3.Runs (m : Mode) (f : Bool) (t : V3 X) (z : V3 ℝ) : Prop :=
  Modes.Runs m f t.x z.x ∧ Modes.Runs m f t.y z.y ∧ Modes.Runs m f t.z z.z
@[inherit_doc V2.Runs] def V4.Runs (m : Mode) (f : Bool) (t : V4 X) (z : V4 ℝ) : Prop :=
  Modes.Runs m f t.x z.x ∧ Modes.Runs m f t.y z.y ∧ Modes.Runs m f t.z z.z ∧ Modes.Runs m f t.w z.w
@[inherit_doc V2.Runs] def M2.Runs (m : Mode) (f : Bool) (t : M2 X) (z : M2 ℝ) : Prop :=
  t.c0.Runs m f z.c0 ∧ t.c1.Runs m f z.c1
@[inherit_doc V2.Runs] def M3.Runs (m : Mode) (f : Bool) (t : M3 X) (z : M3 ℝ) : Prop :=
  t.c0.Runs m f z.c0 ∧ t.c1.Runs m f z.c1 ∧ t.c2.Runs m f z.c2
@[inherit_doc V2.Runs] def M4.Runs (m : Mode) (f : Bool) (t : M4 X) (z : M4 ℝ) : Prop :=
  t.c0.Runs m f z.c0 ∧ t.c1.Runs m f z.c1 ∧ t.c2.Runs m f z.c2 ∧ t.c3.Runs m f z.c3
/-- no component of `a` is above that of `b` -/
def V2.LeR (a b : V2 ℝ) : Prop := a.x ≤ b.x ∧ a.y ≤ b.y
@[inherit_doc V2.LeR] def V3.LeR (a b : V3 ℝ) : Prop := a.x ≤ b.x ∧ a.y ≤ b.y ∧ a.z ≤ b.z
@[inherit_doc V2.LeR] def V4.LeR (a b : V4 ℝ) : Prop := a.x ≤ b.x ∧ a.y ≤ b.y ∧ a.z ≤ b.z ∧ a.w ≤ b.w
@[inherit_doc V2.LeR] def M2.LeR (a b : M2 ℝ) : Prop := a.c0.LeR b.c0 ∧ a.c1.LeR b.c1
@[inherit_doc V2.LeR] def M3.LeR (a b : M3 ℝ) : Prop := a.c0.LeR b.c0 ∧ a.c1.LeR b.c1 ∧ a.c2.LeR b.c2
@[inherit_doc V2.LeR] def M4.LeR (a b : M4 ℝ) : Prop := a.c0.LeR b.c0 ∧ a.c1.LeR b.c1 ∧ a.c2.LeR b.c2 ∧ a.c3.LeR b.c3
/-- no component is negative -/
def V2.NoNeg (a : V2 F32) : Prop := 0 ≤ a.x.toReal ∧ 0 ≤ a.y.toReal
@[inherit_doc V2.NoNeg] def V3.NoNeg (a : V3 F32) : Prop := 0 ≤ a.x.toReal ∧ 0 ≤ a.y.toReal ∧ 0 ≤ a.z.toReal
@[inherit_doc V2.NoNeg] def V4.NoNeg (a : V4 F32) : Prop := 0 ≤ a.x.toReal ∧ 0 ≤ a.y.toReal ∧ 0 ≤ a.z.toReal ∧ 0 ≤ a.w.toReal
@[inherit_doc V2.NoNeg] def M2.NoNeg (a : M2 F32) : Prop := a.c0.NoNeg ∧ a.c1.NoNeg
@[inherit_doc V2.NoNeg] def M3.NoNeg (a : M3 F32) : Prop := a.c0.NoNeg ∧ a.c1.NoNeg ∧ a.c2.NoNeg
@[inherit_doc V2.NoNeg] def M4.NoNeg (a : M4 F32) : Prop := a.c0.NoNeg ∧ a.c1.NoNeg ∧ a.c2.NoNeg ∧ a.c3.NoNeg
@[inherit_doc V2.NoNeg] def M2x3.NoNeg (a : M2x3 F32) : Prop := a.c0.NoNeg ∧ a.c1.NoNeg
@[inherit_doc V2.NoNeg] def M2x4.NoNeg (a : M2x4 F32) : Prop := a.c0.NoNeg ∧ a.c1.NoNeg
@[inherit_doc V2.NoNeg] def M3x2.NoNeg (a : M3x2 F32) : Prop := a.c0.NoNeg ∧ a.c1.NoNeg ∧ a.c2.NoNeg
@[inherit_doc V2.NoNeg] def M3x4.NoNeg (a : M3x4 F32) : Prop := a.c0.NoNeg ∧ a.c1.NoNeg ∧ a.c2.NoNeg
@[inherit_doc V2.NoNeg] def M4x2.NoNeg (a : M4x2 F32) : Prop := a.c0.NoNeg ∧ a.c1.NoNeg ∧ a.c2.NoNeg ∧ a.c3.NoNeg
@[inherit_doc V2.NoNeg] def M4x3.NoNeg (a : M4x3 F32) : Prop := a.c0.NoNeg ∧ a.c1.NoNeg ∧ a.c2.NoNeg ∧ a.c3.NoNeg

/-- error bound of a scalar expression with `n` operations, in any order and mode -/
macro "errm" n:num : tactic => `(tactic|
  (refine Modes.Runs.within (by assumption) (by assumption) rfl $n (Nat.le_of_ble_eq_true rfl) (Nat.le_of_ble_eq_true rfl) ?_ ?_
   · first | rfl | (simp only [X.real]; ring)
   · first | exact le_rfl | (apply le_of_eq; simp only [X.mag, F32.mag]; ring)))

/-- exactness of a scalar expression, in any order and mode -/
macro "gridm" : tactic => `(tactic|
  (refine Modes.Runs.same (by assumption) (by assumption) rfl (by
      repeat' first
        | with_reducible apply X.Grid.plus
        | with_reducible apply X.Grid.less
        | with_reducible apply X.Grid.times
        | with_reducible apply X.Grid.minus
        | (with_reducible apply X.Grid.of; assumption)) ?_ ?_ ?_ <;>
    first | rfl | omega | (simp only [X.real]; ring) | fail "gridm"))

end Cglm
