import Verif.Props.C76
import Verif.Props.C76Mat
import Verif.Props.C01
import Mathlib.GroupTheory.Perm.Basic
import Mathlib.Tactic.IntervalCases
/-!
# C76: chains of updates on integers, and exact lengths

`C76_chain` and `C76_walk` put no bound on the number of updates: as long as the exact intermediate results stay within
the integers binary32 can hold, the computed ones are equal to them.
-/
open Cglm F32
namespace Cglm
variable [Libm]

/-- every component has magnitude at most `K` -/
def V3.Within (v : V3 ℝ) (K : ℕ) : Prop := |v.x| ≤ K ∧ |v.y| ≤ K ∧ |v.z| ≤ K
/-- every component has magnitude at most `K` -/
def V4.Within (v : V4 ℝ) (K : ℕ) : Prop := |v.x| ≤ K ∧ |v.y| ≤ K ∧ |v.z| ≤ K ∧ |v.w| ≤ K
/-- every entry has magnitude at most `K` -/
def M4.Within (m : M4 ℝ) (K : ℕ) : Prop := m.c0.Within K ∧ m.c1.Within K ∧ m.c2.Within K ∧ m.c3.Within K

omit [Libm] in
/-- the bound of an exact integer result is that of its value -/
theorem F32.Exact.within {f : F32} {x : ℝ} {K L : ℕ} (h : Exact f x 0 L) (hx : |x| ≤ K) : Exact f x 0 K := by
  obtain ⟨⟨hf, n, -, hv⟩, rfl⟩ := h
  refine ⟨⟨hf, n, ?_, hv⟩, rfl⟩
  unfold toReal at hx
  rw [hv] at hx
  simp only [zpow_zero, mul_one] at hx
  exact_mod_cast hx

omit [Libm] in
theorem V3.Exact.within {f : V3 F32} {x : V3 ℝ} {K L : ℕ} (h : f.Exact x 0 L) (hx : x.Within K) : f.Exact x 0 K :=
  ⟨h.1.within hx.1, h.2.1.within hx.2.1, h.2.2.within hx.2.2⟩
omit [Libm] in
theorem V4.Exact.within {f : V4 F32} {x : V4 ℝ} {K L : ℕ} (h : f.Exact x 0 L) (hx : x.Within K) : f.Exact x 0 K :=
  ⟨h.1.within hx.1, h.2.1.within hx.2.1, h.2.2.1.within hx.2.2.1, h.2.2.2.within hx.2.2.2⟩
omit [Libm] in
theorem M4.Exact.within {f : M4 F32} {x : M4 ℝ} {K L : ℕ} (h : f.Exact x 0 L) (hx : x.Within K) : f.Exact x 0 K :=
  ⟨h.1.within hx.1, h.2.1.within hx.2.1, h.2.2.1.within hx.2.2.1, h.2.2.2.within hx.2.2.2⟩

omit [Libm] in
theorem V3.Exact.on {f : V3 F32} {x : V3 ℝ} {e : ℤ} {K : ℕ} (h : f.Exact x e K) : f.On e K ∧ f.map toReal = x := by
  obtain ⟨⟨h1, e1⟩, ⟨h2, e2⟩, ⟨h3, e3⟩⟩ := h
  exact ⟨⟨h1, h2, h3⟩, by cases x; simp only [V3.map, V3.mk.injEq]; exact ⟨e1, e2, e3⟩⟩
omit [Libm] in
theorem V4.Exact.on {f : V4 F32} {x : V4 ℝ} {e : ℤ} {K : ℕ} (h : f.Exact x e K) : f.On e K ∧ f.map toReal = x := by
  obtain ⟨⟨h1, e1⟩, ⟨h2, e2⟩, ⟨h3, e3⟩, ⟨h4, e4⟩⟩ := h
  exact ⟨⟨h1, h2, h3, h4⟩, by cases x; simp only [V4.map, V4.mk.injEq]; exact ⟨e1, e2, e3, e4⟩⟩
omit [Libm] in
theorem M4.Exact.on {f : M4 F32} {x : M4 ℝ} {e : ℤ} {K : ℕ} (h : f.Exact x e K) : f.On e K ∧ f.map toReal = x := by
  obtain ⟨h0, h1, h2, h3⟩ := h
  refine ⟨⟨h0.on.1, h1.on.1, h2.on.1, h3.on.1⟩, ?_⟩
  cases x; simp only [M4.map, M4.mk.injEq]
  exact ⟨h0.on.2, h1.on.2, h2.on.2, h3.on.2⟩
omit [Libm] in
theorem V3.On.exact {f : V3 F32} {e : ℤ} {K : ℕ} (h : f.On e K) : f.Exact (f.map toReal) e K :=
  ⟨h.1.exact, h.2.1.exact, h.2.2.exact⟩
omit [Libm] in
theorem V4.On.exact {f : V4 F32} {e : ℤ} {K : ℕ} (h : f.On e K) : f.Exact (f.map toReal) e K :=
  ⟨h.1.exact, h.2.1.exact, h.2.2.1.exact, h.2.2.2.exact⟩
omit [Libm] in
theorem M4.On.exact {f : M4 F32} {e : ℤ} {K : ℕ} (h : f.On e K) : f.Exact (f.map toReal) e K :=
  ⟨h.1.exact, h.2.1.exact, h.2.2.1.exact, h.2.2.2.exact⟩

/-- A product of any number of integer matrices is exact as long as the exact partial products stay within `K`. -/
theorem C76_chain {K L : ℕ} (h : 4 * (K * L) ≤ 2 ^ 24) (ms : List (M4 F32)) (hm : ∀ m ∈ ms, m.On 0 L) (m₀ : M4 F32)
    (h₀ : m₀.On 0 K)
    (hb : ∀ k ≤ ms.length, (((ms.take k).map (·.map toReal)).foldl glm_mat4_mul (m₀.map toReal)).Within K) :
    (ms.foldl glm_mat4_mul m₀).Exact ((ms.map (·.map toReal)).foldl glm_mat4_mul (m₀.map toReal)) 0 K := by
  induction ms generalizing m₀ with
  | nil => exact h₀.exact
  | cons m ms ih =>
    have he := C76_mat4_mul m₀ m h₀ (hm m (by simp)) h (by norm_num) (by norm_num)
    have hw := hb 1 (by simp)
    simp only [List.take_succ_cons, List.take_zero, List.map_cons, List.map_nil, List.foldl_cons, List.foldl_nil] at hw
    have hk := (M4.Exact.within he hw).on
    have := ih (fun x hx => hm x (by simp [hx])) (glm_mat4_mul m₀ m) hk.1 (fun k hk' => by
      have := hb (k + 1) (by simpa using hk')
      simp only [List.take_succ_cons, List.map_cons, List.foldl_cons] at this
      rw [hk.2]; exact this)
    rw [hk.2] at this
    simpa using this

/-- Adding any number of integer steps to an integer position is exact as long as the exact positions stay within `K`. -/
theorem C76_walk {K L : ℕ} (h : K + L ≤ 2 ^ 24) (steps : List (V3 F32)) (hs : ∀ d ∈ steps, d.On 0 L) (p : V3 F32)
    (hp : p.On 0 K)
    (hb : ∀ k ≤ steps.length, (((steps.take k).map (·.map toReal)).foldl glm_vec3_add (p.map toReal)).Within K) :
    (steps.foldl glm_vec3_add p).Exact ((steps.map (·.map toReal)).foldl glm_vec3_add (p.map toReal)) 0 K := by
  induction steps generalizing p with
  | nil => exact hp.exact
  | cons d ds ih =>
    have he := C76_vec3_add p d hp (hs d (by simp)) h (by norm_num) (by norm_num)
    have hw := hb 1 (by simp)
    simp only [List.take_succ_cons, List.take_zero, List.map_cons, List.map_nil, List.foldl_cons, List.foldl_nil] at hw
    have hk := (V3.Exact.within he hw).on
    have := ih (fun x hx => hs x (by simp [hx])) (glm_vec3_add p d) hk.1 (fun k hk' => by
      have := hb (k + 1) (by simpa using hk')
      simp only [List.take_succ_cons, List.map_cons, List.foldl_cons] at this
      rw [hk.2]; exact this)
    rw [hk.2] at this
    simpa using this

/-- a matrix that permutes the axes and reverses some of them -/
def M4.AxisMap (m : M4 ℝ) : Prop :=
  ∃ (σ : Equiv.Perm (Fin 4)) (s : Fin 4 → ℝ), (∀ j, s j = 1 ∨ s j = -1) ∧ ∀ i j, m.mat i j = if i = σ j then s j else 0

omit [Libm] in
theorem M4.AxisMap.mul {a b : M4 ℝ} (ha : a.AxisMap) (hb : b.AxisMap) : (glm_mat4_mul a b).AxisMap := by
  obtain ⟨σ, s, hs, hσ⟩ := ha
  obtain ⟨τ, t, ht, hτ⟩ := hb
  refine ⟨τ.trans σ, fun j => s (τ j) * t j, fun j => ?_, fun i j => ?_⟩
  · rcases hs (τ j) with h | h <;> rcases ht j with h' | h' <;> simp [h, h']
  · rw [C01_mat4_mul, Matrix.mul_apply, Finset.sum_eq_single (τ j)]
    · rw [hσ, hτ, if_pos rfl]; by_cases e : i = σ (τ j) <;> simp [e]
    · intro k _ hk; rw [hτ, if_neg hk, mul_zero]
    · simp

omit [Libm] in
theorem M4.AxisMap.within {m : M4 ℝ} (h : m.AxisMap) : m.Within 1 := by
  obtain ⟨σ, s, hs, hσ⟩ := h
  have hb : ∀ i j, |m.mat i j| ≤ ((1 : ℕ) : ℝ) := fun i j => by
    rw [hσ]; split_ifs
    · rcases hs j with h | h <;> simp [h]
    · simp
  exact ⟨⟨hb 0 0, hb 1 0, hb 2 0, hb 3 0⟩, ⟨hb 0 1, hb 1 1, hb 2 1, hb 3 1⟩, ⟨hb 0 2, hb 1 2, hb 2 2, hb 3 2⟩,
    ⟨hb 0 3, hb 1 3, hb 2 3, hb 3 3⟩⟩

/-- Any number of quarter turns, axis swaps and mirrors compose without error: the product is again one of them, and it
is the exact product. -/
theorem C76_axes (ms : List (M4 F32)) (m₀ : M4 F32) (h : ∀ m ∈ m₀ :: ms, m.On 0 1 ∧ (m.map toReal).AxisMap) :
    (ms.foldl glm_mat4_mul m₀).Exact ((ms.map (·.map toReal)).foldl glm_mat4_mul (m₀.map toReal)) 0 1 ∧
      ((ms.foldl glm_mat4_mul m₀).map toReal).AxisMap := by
  have hx : ∀ (l : List (M4 ℝ)) (a : M4 ℝ), a.AxisMap → (∀ m ∈ l, m.AxisMap) → (l.foldl glm_mat4_mul a).AxisMap := by
    intro l
    induction l with
    | nil => intro a ha _; exact ha
    | cons m l ih => intro a ha hl; exact ih _ (ha.mul (hl m (by simp))) (fun x hx => hl x (by simp [hx]))
  have he := C76_chain (K := 1) (L := 1) (by norm_num) ms (fun m hm => (h m (by simp [hm])).1) m₀ (h m₀ (by simp)).1
    (fun k _ => (hx _ _ (h m₀ (by simp)).2 (by
      intro m hm
      obtain ⟨x, hx, rfl⟩ := List.mem_map.mp hm
      exact (h x (by simp [List.mem_of_mem_take hx])).2)).within)
  refine ⟨he, ?_⟩
  rw [(M4.Exact.on he).2]
  refine hx _ _ (h m₀ (by simp)).2 ?_
  intro m hm
  obtain ⟨x, hx', rfl⟩ := List.mem_map.mp hm
  exact (h x (by simp [hx'])).2

omit [Libm] in
theorem F32.rndSqrt_sq (n : ℕ) (h0 : 0 < n) (h : n < 2 ^ 24) : rndSqrt ((n : ℚ) ^ 2) = n := by
  have hn : (0 : ℚ) < (n : ℚ) ^ 2 := by positivity
  obtain ⟨m, -, e, hb⟩ := sqrt_bits hn
  have hs : sqrtExp ((n : ℚ) ^ 2) ≤ 0 := by
    have h1 : (2 : ℚ) ^ Int.log 2 ((n : ℚ) ^ 2) ≤ (n : ℚ) ^ 2 := by
      exact_mod_cast Int.zpow_log_le_self (b := 2) (by norm_num) hn
    have h2 : (n : ℚ) ^ 2 < 2 ^ (48 : ℤ) := by
      have : (n : ℚ) < 2 ^ 24 := by exact_mod_cast h
      have h3 : (n : ℚ) ^ 2 < (2 ^ 24) ^ 2 := pow_lt_pow_left₀ this (by positivity) (by norm_num)
      norm_num at h3 ⊢; exact h3
    have h3 := (zpow_lt_zpow_iff_right₀ (by norm_num : (1 : ℚ) < 2)).mp (lt_of_le_of_lt h1 h2)
    unfold sqrtExp; omega
  generalize sqrtExp ((n : ℚ) ^ 2) = s at *
  obtain ⟨k, rfl⟩ : ∃ k : ℕ, s = -(k : ℤ) := ⟨s.natAbs, by omega⟩
  rw [e] at hb ⊢
  have hp : (0 : ℝ) < 2 ^ (k : ℕ) := by positivity
  have hr : √(((n : ℚ) ^ 2 : ℚ) : ℝ) = n := by push_cast; exact Real.sqrt_sq (by positivity)
  rw [hr, zpow_neg, zpow_natCast] at hb
  push_cast at hb
  rw [zpow_neg, zpow_natCast] at hb ⊢
  have hb' : |(m : ℝ) - n * 2 ^ k| ≤ 1 / 2 := by
    have e1 : (m : ℝ) - n * 2 ^ k = ((m : ℝ) * (2 ^ k)⁻¹ - n) * 2 ^ k := by field_simp
    rw [e1, abs_mul, abs_of_pos hp]
    calc _ ≤ (2 ^ k)⁻¹ / 2 * 2 ^ k := mul_le_mul_of_nonneg_right hb hp.le
      _ = 1 / 2 := by field_simp
  have hi : |(m : ℤ) - n * 2 ^ k| < 1 := by
    have : ((|(m : ℤ) - n * 2 ^ k| : ℤ) : ℝ) < 1 := by push_cast; linarith
    exact_mod_cast this
  have hm : (m : ℤ) = n * 2 ^ k := by rw [Int.abs_lt_one_iff] at hi; omega
  have hm' : (m : ℚ) = n * 2 ^ k := by exact_mod_cast hm
  rw [hm']; field_simp

/-- the square root of a perfect square is exact -/
theorem F32.Exact.sqrt {f : F32} {K n : ℕ} (h : Exact f ((n : ℝ) ^ 2) 0 K) (hK : K ≤ 2 ^ 24) :
    Exact (sqrtf f) n 0 n := by
  obtain ⟨⟨hf, k, hk, hv'⟩, hx⟩ := h
  have hv : f.val = (n : ℚ) ^ 2 := by unfold toReal at hx; exact_mod_cast hx
  have hn : n < 2 ^ 24 := by
    rw [hv, zpow_zero, mul_one] at hv'
    have e : (n : ℤ) ^ 2 = k := by exact_mod_cast hv'
    have := (abs_le.mp hk).2
    zify at hK ⊢
    nlinarith
  rw [sqrtf_f32]
  rcases Nat.eq_zero_or_pos n with rfl | hp
  · rcases f with _ | s | s | ⟨q, hq⟩
    · simp at hf
    · simp at hf
    · exact ⟨⟨rfl, 0, by simp, by simp [F32.sqrt]⟩, by simp [F32.sqrt, toReal]⟩
    · exfalso; simp at hv; exact hq.1 hv
  · rcases f with _ | s | s | ⟨q, hq⟩
    · simp at hf
    · simp at hf
    · exfalso; simp only [val_zero] at hv
      have : (0 : ℚ) < (n : ℚ) ^ 2 := by positivity
      linarith
    · simp only [val_fin] at hv
      have hq0 : 0 < q := by rw [hv]; positivity
      obtain ⟨h1, h2⟩ := sqrt_val hq hq0
      have h3 : (F32.sqrt (fin q hq)).val = n := by rw [h2, hv, rndSqrt_sq n hp hn]
      exact ⟨⟨h1, n, by simp, by rw [h3]; simp⟩, by unfold toReal; rw [h3]; simp⟩

/-- A vector of integers with an integer length gets exactly that length. -/
theorem C76_vec2_norm {K n : ℕ} (v : V2 F32) (hv : v.On 0 K) (h : 2 * (K * K) ≤ 2 ^ 24)
    (hl : toReal v.x ^ 2 + toReal v.y ^ 2 = n ^ 2) : (glm_vec2_norm v).Exact n 0 n := by
  have := C76_vec2_norm2 v hv h (by norm_num) (by norm_num)
  exact Exact.sqrt (this.to (by rw [← hl]; simp only [cglm, V2.map]; ring) (by norm_num) le_rfl) h
theorem C76_vec3_norm {K n : ℕ} (v : V3 F32) (hv : v.On 0 K) (h : 3 * (K * K) ≤ 2 ^ 24)
    (hl : toReal v.x ^ 2 + toReal v.y ^ 2 + toReal v.z ^ 2 = n ^ 2) : (glm_vec3_norm v).Exact n 0 n := by
  have := C76_vec3_norm2 v hv h (by norm_num) (by norm_num)
  exact Exact.sqrt (this.to (by rw [← hl]; simp only [cglm, V3.map]; ring) (by norm_num) le_rfl) h
theorem C76_vec4_norm {K n : ℕ} (v : V4 F32) (hv : v.On 0 K) (h : 4 * (K * K) ≤ 2 ^ 24)
    (hl : toReal v.x ^ 2 + toReal v.y ^ 2 + toReal v.z ^ 2 + toReal v.w ^ 2 = n ^ 2) : (glm_vec4_norm v).Exact n 0 n := by
  have := C76_vec4_norm2 v hv h (by norm_num) (by norm_num)
  exact Exact.sqrt (this.to (by rw [← hl]; simp only [cglm, V4.map]; ring) (by norm_num) le_rfl) h
/-- The distance of two points of integers is exact when it is an integer. -/
theorem C76_vec3_distance {K L n : ℕ} (a b : V3 F32) (ha : a.On 0 K) (hb : b.On 0 L)
    (h : 3 * ((K + L) * (K + L)) ≤ 2 ^ 24)
    (hl : (toReal a.x - toReal b.x) ^ 2 + (toReal a.y - toReal b.y) ^ 2 + (toReal a.z - toReal b.z) ^ 2 = n ^ 2) :
    (glm_vec3_distance a b).Exact n 0 n := by
  have := C76_vec3_distance2 a b ha hb h (by norm_num) (by norm_num)
  exact Exact.sqrt (this.to (by rw [← hl]; simp only [cglm, V3.map]; ring) (by norm_num) le_rfl) h

/-! ### The hypotheses can be met -/

omit [Libm] in
theorem F32.on_int (n : ℤ) (K : ℕ) (h : |n| ≤ K) (hK : K ≤ 2 ^ 24) : (ofRat false n).On 0 K ∧ (ofRat false n).toReal = n := by
  have hr : Rep ((n : ℚ)) := by
    have := rep_grid_le (n := n) (e := 0) (h.trans (by exact_mod_cast hK)) (by norm_num) (by norm_num)
    simpa using this
  have e : |rnd (n : ℚ)| < 2 ^ 128 := by rw [rnd_rep hr]; exact rep_lt hr
  have hf := (ofRat_isFin false (n : ℚ)).mpr e
  have hv : (ofRat false (n : ℚ)).val = n := by rw [ofRat_val hf, rnd_rep hr]
  exact ⟨⟨hf, n, h, by rw [hv]; simp⟩, by unfold toReal; rw [hv]; simp⟩

omit [Libm] in
/-- no binary32 number has the value `2^24 + 1` -/
theorem F32.no_odd (f : F32) : f.toReal ≠ 2 ^ 24 + 1 := by
  intro h
  unfold toReal at h
  have hv : f.val = 2 ^ 24 + 1 := by exact_mod_cast h
  obtain ⟨m, e, hm, -, -, he⟩ := rep_val f
  rw [hv] at he
  have hm' : |(m : ℚ)| < 2 ^ 24 := by exact_mod_cast hm
  rcases le_or_gt e 0 with h0 | h0
  · have h1 : (2 : ℚ) ^ e ≤ 1 := zpow_le_one_of_nonpos₀ (by norm_num) h0
    have h2 := two_zpow_pos e
    have h3 := (abs_lt.mp hm').2
    nlinarith
  · obtain ⟨k, rfl⟩ : ∃ k : ℕ, e = (k : ℤ) + 1 := ⟨(e - 1).toNat, by omega⟩
    have : ((2 ^ 24 + 1 : ℤ) : ℚ) = ((m * 2 ^ k * 2 : ℤ) : ℚ) := by
      rw [zpow_add₀ (by norm_num), zpow_natCast, zpow_one] at he
      push_cast; norm_num at he ⊢; linarith
    have : (2 ^ 24 + 1 : ℤ) = m * 2 ^ k * 2 := by exact_mod_cast this
    omega

/-- The bound `2^24` cannot be raised: `2^24 + 1` is not computed exactly. -/
theorem C76_limit : ∃ a b : V2 F32, a.On 0 (2 ^ 24) ∧ b.On 0 1 ∧
    ¬ ∃ e K, (glm_vec2_add a b).Exact (glm_vec2_add (a.map toReal) (b.map toReal)) e K := by
  have x := on_int (2 ^ 24) (2 ^ 24) (by norm_num) le_rfl
  have y := on_int 1 1 (by norm_num) (by norm_num)
  refine ⟨⟨ofRat false ((2 ^ 24 : ℤ) : ℚ), ofRat false ((2 ^ 24 : ℤ) : ℚ)⟩, ⟨ofRat false ((1 : ℤ) : ℚ), ofRat false ((1 : ℤ) : ℚ)⟩,
    ⟨x.1, x.1⟩, ⟨y.1, y.1⟩, ?_⟩
  rintro ⟨e, K, h, -⟩
  apply F32.no_odd _ (h.2.trans _)
  simp only [glm_vec2_add, V2.map, x.2, y.2]
  norm_num

/-- a vector of three integers -/
def ivec3f (x y z : ℤ) : V3 F32 := ⟨ofRat false x, ofRat false y, ofRat false z⟩

example : (ivec3f 2 3 6).On 0 6 ∧ 3 * (6 * 6) ≤ 2 ^ 24 ∧
    toReal (ivec3f 2 3 6).x ^ 2 + toReal (ivec3f 2 3 6).y ^ 2 + toReal (ivec3f 2 3 6).z ^ 2 = (7 : ℕ) ^ 2 := by
  have a := on_int 2 6 (by norm_num) (by norm_num)
  have b := on_int 3 6 (by norm_num) (by norm_num)
  have c := on_int 6 6 (by norm_num) (by norm_num)
  refine ⟨⟨a.1, b.1, c.1⟩, by norm_num, ?_⟩
  simp only [ivec3f]
  rw [a.2, b.2, c.2]; norm_num

/-- a walk of two steps -/
example : (∀ d ∈ [ivec3f 1 0 (-5), ivec3f 7 7 7], d.On 0 7) ∧ (ivec3f 100 200 300).On 0 1000 ∧ 1000 + 7 ≤ 2 ^ 24 ∧
    ∀ k ≤ 2, ((([ivec3f 1 0 (-5), ivec3f 7 7 7].take k).map (·.map toReal)).foldl glm_vec3_add
      ((ivec3f 100 200 300).map toReal)).Within 1000 := by
  have r : ∀ x y z : ℤ, |x| ≤ 2 ^ 24 → |y| ≤ 2 ^ 24 → |z| ≤ 2 ^ 24 →
      (ivec3f x y z).map toReal = ⟨(x : ℝ), (y : ℝ), (z : ℝ)⟩ := fun x y z hx hy hz => by
    simp only [V3.map, ivec3f, V3.mk.injEq]
    exact ⟨(on_int x (2 ^ 24) (by exact_mod_cast hx) le_rfl).2, (on_int y (2 ^ 24) (by exact_mod_cast hy) le_rfl).2,
      (on_int z (2 ^ 24) (by exact_mod_cast hz) le_rfl).2⟩
  refine ⟨?_, ⟨(on_int _ _ (by norm_num) (by norm_num)).1, (on_int _ _ (by norm_num) (by norm_num)).1,
    (on_int _ _ (by norm_num) (by norm_num)).1⟩, by norm_num, ?_⟩
  · intro d hd
    simp only [List.mem_cons, List.not_mem_nil, or_false] at hd
    rcases hd with rfl | rfl <;>
      exact ⟨(on_int _ _ (by norm_num) (by norm_num)).1, (on_int _ _ (by norm_num) (by norm_num)).1,
        (on_int _ _ (by norm_num) (by norm_num)).1⟩
  · intro k hk
    rw [r 100 200 300 (by norm_num) (by norm_num) (by norm_num)]
    interval_cases k
    · norm_num [V3.Within]
    · simp only [List.take_succ_cons, List.take_zero, List.map_cons, List.map_nil, List.foldl_cons, List.foldl_nil]
      rw [r 1 0 (-5) (by norm_num) (by norm_num) (by norm_num)]
      norm_num [V3.Within, cglm]
    · simp only [List.take_succ_cons, List.take_zero, List.map_cons, List.map_nil, List.foldl_cons, List.foldl_nil]
      rw [r 1 0 (-5) (by norm_num) (by norm_num) (by norm_num), r 7 7 7 (by norm_num) (by norm_num) (by norm_num)]
      norm_num [V3.Within, cglm]

/-- a quarter turn about the z axis -/
def quarterTurn : M4 F32 :=
  ⟨⟨ofRat false 0, ofRat false 1, ofRat false 0, ofRat false 0⟩, ⟨ofRat false (-1 : ℤ), ofRat false 0, ofRat false 0, ofRat false 0⟩,
   ⟨ofRat false 0, ofRat false 0, ofRat false 1, ofRat false 0⟩, ⟨ofRat false 0, ofRat false 0, ofRat false 0, ofRat false 1⟩⟩

example : quarterTurn.On 0 1 ∧ (quarterTurn.map toReal).AxisMap := by
  have z := on_int 0 1 (by norm_num) (by norm_num)
  have o := on_int 1 1 (by norm_num) (by norm_num)
  have m := on_int (-1) 1 (by norm_num) (by norm_num)
  rw [Int.cast_zero, Int.cast_zero] at z
  rw [Int.cast_one, Int.cast_one] at o
  refine ⟨⟨⟨z.1, o.1, z.1, z.1⟩, ⟨m.1, z.1, z.1, z.1⟩, ⟨z.1, z.1, o.1, z.1⟩, ⟨z.1, z.1, z.1, o.1⟩⟩,
    Equiv.swap 0 1, ![1, -1, 1, 1], fun j => by fin_cases j <;> simp, fun i j => ?_⟩
  simp only [quarterTurn, M4.map, V4.map, z.2, o.2, m.2]
  fin_cases i <;> fin_cases j <;> simp [M4.mat, Equiv.swap_apply_def]

end Cglm
