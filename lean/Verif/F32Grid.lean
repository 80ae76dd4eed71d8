import Verif.F32Order
/-!
# Numbers on a grid

A binary32 number lies on the grid `2^e` within `K` when it is `n * 2^e` for an integer `n` with `|n| ≤ K`; with `e = 0`
these are the integers up to `K`.  Sums and products of such numbers are computed without rounding as long as the bound
stays below `2^24`.
-/
open Cglm F32
namespace Cglm
namespace F32

/-- a finite number that is an integer multiple of `2^e`, of magnitude at most `K * 2^e` -/
def On (f : F32) (e : ℤ) (K : ℕ) : Prop := f.isFin = true ∧ ∃ n : ℤ, |n| ≤ K ∧ f.val = n * 2 ^ e

/-- `f` is a finite number whose value is `x` with no rounding error, and lies on the grid `2^e` within `K` -/
def Exact (f : F32) (x : ℝ) (e : ℤ) (K : ℕ) : Prop := f.On e K ∧ f.toReal = x

theorem rep_grid_le {n e : ℤ} (hn : |n| ≤ 2 ^ 24) (h1 : -149 ≤ e) (h2 : e ≤ 103) : Rep ((n : ℚ) * 2 ^ e) := by
  rcases lt_or_eq_of_le hn with h | h
  · exact ⟨n, e, h, h1, by omega, rfl⟩
  · have hz : (2 : ℚ) ^ (e + 1) = 2 * 2 ^ e := by rw [zpow_add₀ (by norm_num)]; ring
    rcases (abs_eq (by norm_num)).mp h with rfl | rfl
    · exact ⟨2 ^ 23, e + 1, by norm_num, by omega, by omega, by rw [hz]; push_cast; ring⟩
    · exact ⟨-2 ^ 23, e + 1, by norm_num, by omega, by omega, by rw [hz]; push_cast; ring⟩

theorem On.exact {f : F32} {e : ℤ} {K : ℕ} (h : f.On e K) : Exact f f.toReal e K := ⟨h, rfl⟩

theorem On.le {f : F32} {e : ℤ} {K L : ℕ} (h : f.On e K) (hK : K ≤ L) : f.On e L := by
  obtain ⟨h, n, hn, hv⟩ := h
  exact ⟨h, n, hn.trans (by exact_mod_cast hK), hv⟩

theorem Exact.to {f : F32} {x y : ℝ} {e e' : ℤ} {K L : ℕ} (h : Exact f x e K) (hx : x = y) (he : e = e') (hK : K ≤ L) :
    Exact f y e' L := by
  subst hx he; exact ⟨h.1.le hK, h.2⟩

theorem Exact.neg {f : F32} {x : ℝ} {e : ℤ} {K : ℕ} (h : Exact f x e K) : Exact (-f) (-x) e K := by
  obtain ⟨⟨h, n, hn, hv⟩, hx⟩ := h
  exact ⟨⟨by rwa [neg_isFin], -n, by rwa [abs_neg], by rw [neg_val, hv]; push_cast; ring⟩, by rw [toReal_neg, hx]⟩

theorem Exact.add {f g : F32} {x y : ℝ} {e e' : ℤ} {K L : ℕ} (hf : Exact f x e K) (hg : Exact g y e' L) (he : e' = e)
    (h1 : -149 ≤ e) (h2 : e ≤ 103) (h : K + L ≤ 2 ^ 24) : Exact (f + g) (x + y) e (K + L) := by
  subst he
  obtain ⟨⟨hf, n, hn, hv⟩, rfl⟩ := hf
  obtain ⟨⟨hg, m, hm, hw⟩, rfl⟩ := hg
  have hb : |n + m| ≤ ((K + L : ℕ) : ℤ) := (abs_add_le n m).trans (by push_cast; omega)
  have hs : f.val + g.val = ((n + m : ℤ) : ℚ) * 2 ^ e' := by rw [hv, hw]; push_cast; ring
  have hr : Rep (f.val + g.val) := by
    rw [hs]; exact rep_grid_le (hb.trans (by exact_mod_cast h)) h1 h2
  have := (Has.of hf).add_exact (Has.of hg) hr
  refine ⟨⟨this.1, n + m, hb, this.2.trans hs⟩, ?_⟩
  unfold toReal
  rw [this.2]; push_cast; rfl

theorem Exact.sub {f g : F32} {x y : ℝ} {e e' : ℤ} {K L : ℕ} (hf : Exact f x e K) (hg : Exact g y e' L) (he : e' = e)
    (h1 : -149 ≤ e) (h2 : e ≤ 103) (h : K + L ≤ 2 ^ 24) : Exact (f - g) (x - y) e (K + L) := by
  rw [sub_def, sub_eq_add_neg]
  exact hf.add hg.neg he h1 h2 h

theorem Exact.mul {f g : F32} {x y : ℝ} {e e' : ℤ} {K L : ℕ} (hf : Exact f x e K) (hg : Exact g y e' L)
    (h1 : -149 ≤ e + e') (h2 : e + e' ≤ 103) (h : K * L ≤ 2 ^ 24) : Exact (f * g) (x * y) (e + e') (K * L) := by
  obtain ⟨⟨hf, n, hn, hv⟩, rfl⟩ := hf
  obtain ⟨⟨hg, m, hm, hw⟩, rfl⟩ := hg
  have hb : |n * m| ≤ ((K * L : ℕ) : ℤ) := by
    rw [abs_mul]; push_cast; exact mul_le_mul hn hm (abs_nonneg _) (by positivity)
  have hs : f.val * g.val = ((n * m : ℤ) : ℚ) * 2 ^ (e + e') := by
    rw [hv, hw, zpow_add₀ (by norm_num)]; push_cast; ring
  have hr : Rep (f.val * g.val) := by
    rw [hs]; exact rep_grid_le (hb.trans (by exact_mod_cast h)) h1 h2
  have := (Has.of hf).mul_exact (Has.of hg) hr
  refine ⟨⟨this.1, n * m, hb, this.2.trans hs⟩, ?_⟩
  unfold toReal
  rw [this.2]; push_cast; rfl

/-- sums of products, in the order the scalar code adds them -/
theorem Exact.dot2 {f₁ f₂ g₁ g₂ : F32} {x₁ x₂ y₁ y₂ : ℝ} {e e' : ℤ} {K L : ℕ} (hf₁ : Exact f₁ x₁ e K)
    (hg₁ : Exact g₁ y₁ e' L) (hf₂ : Exact f₂ x₂ e K) (hg₂ : Exact g₂ y₂ e' L) (h1 : -149 ≤ e + e') (h2 : e + e' ≤ 103)
    (h : 2 * (K * L) ≤ 2 ^ 24) : Exact (f₁ * g₁ + f₂ * g₂) (x₁ * y₁ + x₂ * y₂) (e + e') (2 * (K * L)) :=
  ((hf₁.mul hg₁ h1 h2 (by omega)).add (hf₂.mul hg₂ h1 h2 (by omega)) rfl h1 h2 (by omega)).to rfl rfl (by omega)

theorem Exact.dot3 {f₁ f₂ f₃ g₁ g₂ g₃ : F32} {x₁ x₂ x₃ y₁ y₂ y₃ : ℝ} {e e' : ℤ} {K L : ℕ} (hf₁ : Exact f₁ x₁ e K)
    (hg₁ : Exact g₁ y₁ e' L) (hf₂ : Exact f₂ x₂ e K) (hg₂ : Exact g₂ y₂ e' L) (hf₃ : Exact f₃ x₃ e K)
    (hg₃ : Exact g₃ y₃ e' L) (h1 : -149 ≤ e + e') (h2 : e + e' ≤ 103) (h : 3 * (K * L) ≤ 2 ^ 24) :
    Exact (f₁ * g₁ + f₂ * g₂ + f₃ * g₃) (x₁ * y₁ + x₂ * y₂ + x₃ * y₃) (e + e') (3 * (K * L)) :=
  ((hf₁.dot2 hg₁ hf₂ hg₂ h1 h2 (by omega)).add (hf₃.mul hg₃ h1 h2 (by omega)) rfl h1 h2 (by omega)).to rfl rfl (by omega)

theorem Exact.dot4 {f₁ f₂ f₃ f₄ g₁ g₂ g₃ g₄ : F32} {x₁ x₂ x₃ x₄ y₁ y₂ y₃ y₄ : ℝ} {e e' : ℤ} {K L : ℕ}
    (hf₁ : Exact f₁ x₁ e K) (hg₁ : Exact g₁ y₁ e' L) (hf₂ : Exact f₂ x₂ e K) (hg₂ : Exact g₂ y₂ e' L)
    (hf₃ : Exact f₃ x₃ e K) (hg₃ : Exact g₃ y₃ e' L) (hf₄ : Exact f₄ x₄ e K) (hg₄ : Exact g₄ y₄ e' L)
    (h1 : -149 ≤ e + e') (h2 : e + e' ≤ 103) (h : 4 * (K * L) ≤ 2 ^ 24) :
    Exact (f₁ * g₁ + f₂ * g₂ + f₃ * g₃ + f₄ * g₄) (x₁ * y₁ + x₂ * y₂ + x₃ * y₃ + x₄ * y₄) (e + e') (4 * (K * L)) :=
  ((hf₁.dot3 hg₁ hf₂ hg₂ hf₃ hg₃ h1 h2 (by omega)).add (hf₄.mul hg₄ h1 h2 (by omega)) rfl h1 h2 (by omega)).to rfl rfl
    (by omega)

/-- literals that are integer multiples of `2^e` -/
theorem Exact.lit [Libm] (q : ℚ) (n e : ℤ) (K : ℕ) (hq : q = n * 2 ^ e) (hn : |n| ≤ K) (h : K ≤ 2 ^ 24) (h1 : -149 ≤ e)
    (h2 : e ≤ 103) : Exact (CFloat.lit q : F32) (q : ℝ) e K := by
  have hr : Rep q := by rw [hq]; exact rep_grid_le (hn.trans (by exact_mod_cast h)) h1 h2
  have := Has.lit hr
  exact ⟨⟨this.1, n, hn, this.2.trans hq⟩, by unfold toReal; rw [this.2]⟩

/-- zero lies on every grid -/
theorem Exact.zero [Libm] (e : ℤ) : Exact (CFloat.lit 0 : F32) 0 e 0 := by
  have := Has.lit (q := 0) rep_zero
  exact ⟨⟨this.1, 0, by simp, by rw [this.2]; simp⟩, by unfold toReal; rw [this.2]; simp⟩

theorem Exact.one [Libm] : Exact (CFloat.lit 1 : F32) 1 0 1 := by
  simpa using Exact.lit 1 1 0 1 (by norm_num) (by norm_num) (by norm_num) (by norm_num) (by norm_num)

theorem Exact.two [Libm] : Exact (CFloat.lit 2 : F32) 2 0 2 := by
  simpa using Exact.lit 2 2 0 2 (by norm_num) (by norm_num) (by norm_num) (by norm_num) (by norm_num)

theorem Exact.half [Libm] : Exact (CFloat.lit 0.5 : F32) (1 / 2) (-1) 1 := by
  have := Exact.lit 0.5 1 (-1) 1 (by norm_num) (by norm_num) (by norm_num) (by norm_num) (by norm_num)
  norm_num at this ⊢
  exact this

end F32

open F32

/-- every component lies on the grid -/
def V2.On (v : V2 F32) (e : ℤ) (K : ℕ) : Prop := v.x.On e K ∧ v.y.On e K
/-- every component lies on the grid -/
def V3.On (v : V3 F32) (e : ℤ) (K : ℕ) : Prop := v.x.On e K ∧ v.y.On e K ∧ v.z.On e K
/-- every component lies on the grid -/
def V4.On (v : V4 F32) (e : ℤ) (K : ℕ) : Prop := v.x.On e K ∧ v.y.On e K ∧ v.z.On e K ∧ v.w.On e K
/-- every entry lies on the grid -/
def M2.On (m : M2 F32) (e : ℤ) (K : ℕ) : Prop := m.c0.On e K ∧ m.c1.On e K
/-- every entry lies on the grid -/
def M3.On (m : M3 F32) (e : ℤ) (K : ℕ) : Prop := m.c0.On e K ∧ m.c1.On e K ∧ m.c2.On e K
/-- every entry lies on the grid -/
def M4.On (m : M4 F32) (e : ℤ) (K : ℕ) : Prop := m.c0.On e K ∧ m.c1.On e K ∧ m.c2.On e K ∧ m.c3.On e K
/-- every entry lies on the grid -/
def M2x3.On (m : M2x3 F32) (e : ℤ) (K : ℕ) : Prop := m.c0.On e K ∧ m.c1.On e K
/-- every entry lies on the grid -/
def M2x4.On (m : M2x4 F32) (e : ℤ) (K : ℕ) : Prop := m.c0.On e K ∧ m.c1.On e K
/-- every entry lies on the grid -/
def M3x2.On (m : M3x2 F32) (e : ℤ) (K : ℕ) : Prop := m.c0.On e K ∧ m.c1.On e K ∧ m.c2.On e K
/-- every entry lies on the grid -/
def M3x4.On (m : M3x4 F32) (e : ℤ) (K : ℕ) : Prop := m.c0.On e K ∧ m.c1.On e K ∧ m.c2.On e K
/-- every entry lies on the grid -/
def M4x2.On (m : M4x2 F32) (e : ℤ) (K : ℕ) : Prop := m.c0.On e K ∧ m.c1.On e K ∧ m.c2.On e K ∧ m.c3.On e K
/-- every entry lies on the grid -/
def M4x3.On (m : M4x3 F32) (e : ℤ) (K : ℕ) : Prop := m.c0.On e K ∧ m.c1.On e K ∧ m.c2.On e K ∧ m.c3.On e K

/-- every component is exact -/
def V2.Exact (v : V2 F32) (x : V2 ℝ) (e : ℤ) (K : ℕ) : Prop := F32.Exact v.x x.x e K ∧ F32.Exact v.y x.y e K
/-- every component is exact -/
def V3.Exact (v : V3 F32) (x : V3 ℝ) (e : ℤ) (K : ℕ) : Prop :=
  F32.Exact v.x x.x e K ∧ F32.Exact v.y x.y e K ∧ F32.Exact v.z x.z e K
/-- every component is exact -/
def V4.Exact (v : V4 F32) (x : V4 ℝ) (e : ℤ) (K : ℕ) : Prop :=
  F32.Exact v.x x.x e K ∧ F32.Exact v.y x.y e K ∧ F32.Exact v.z x.z e K ∧ F32.Exact v.w x.w e K
/-- every entry is exact -/
def M2.Exact (m : M2 F32) (x : M2 ℝ) (e : ℤ) (K : ℕ) : Prop := m.c0.Exact x.c0 e K ∧ m.c1.Exact x.c1 e K
/-- every entry is exact -/
def M3.Exact (m : M3 F32) (x : M3 ℝ) (e : ℤ) (K : ℕ) : Prop :=
  m.c0.Exact x.c0 e K ∧ m.c1.Exact x.c1 e K ∧ m.c2.Exact x.c2 e K
/-- every entry is exact -/
def M4.Exact (m : M4 F32) (x : M4 ℝ) (e : ℤ) (K : ℕ) : Prop :=
  m.c0.Exact x.c0 e K ∧ m.c1.Exact x.c1 e K ∧ m.c2.Exact x.c2 e K ∧ m.c3.Exact x.c3 e K
/-- every entry is exact -/
def M2x3.Exact (m : M2x3 F32) (x : M2x3 ℝ) (e : ℤ) (K : ℕ) : Prop := m.c0.Exact x.c0 e K ∧ m.c1.Exact x.c1 e K

end Cglm
