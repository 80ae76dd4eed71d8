import Verif.F32Grid
import Verif.Simd
/-!
# Binary32 operations of the SIMD units

The fused multiply-add rounds the exact `a * b + c` once.  Arm's `FMIN` and `FMAX` return NaN if an operand is NaN and
take `-0` to be smaller than `+0`.
-/
open Cglm F32
namespace Cglm
namespace F32

/-- fused multiply-add for finite operands: the exact value rounded once; an exact zero is negative only when the
product and the addend both are -/
def fmaFin (a b c : F32) : F32 := ofRat ((a.sgn != b.sgn) && c.sgn) (a.val * b.val + c.val)

/-- `a * b + c` with one rounding (IEEE-754 fusedMultiplyAdd) -/
def fusedMulAdd (a b c : F32) : F32 :=
  if a.isFin && b.isFin && c.isFin then fmaFin a b c
  else if a.isFin && b.isFin then c
  else a * b + c

/-- Arm `FMIN` -/
def minArm (a b : F32) : F32 :=
  if a = nan ∨ b = nan then nan else if lt a b then a else if lt b a then b else if a.sgn then a else b

/-- Arm `FMAX` -/
def maxArm (a b : F32) : F32 :=
  if a = nan ∨ b = nan then nan else if lt a b then b else if lt b a then a else if a.sgn then b else a

instance : CSimd F32 where
  fma := fusedMulAdd
  vmin := minArm
  vmax := maxArm

theorem Exact.fma {f g c : F32} {x y z : ℝ} {e e' e'' : ℤ} {K L M : ℕ} (hf : Exact f x e K) (hg : Exact g y e' L)
    (hc : Exact c z e'' M) (he : e'' = e + e') (h1 : -149 ≤ e + e') (h2 : e + e' ≤ 103) (h : K * L + M ≤ 2 ^ 24) :
    Exact (CSimd.fma f g c) (x * y + z) (e + e') (K * L + M) := by
  subst he
  obtain ⟨⟨hf, n, hn, hv⟩, rfl⟩ := hf
  obtain ⟨⟨hg, m, hm, hw⟩, rfl⟩ := hg
  obtain ⟨⟨hc, k, hk, hz⟩, rfl⟩ := hc
  have hb : |n * m + k| ≤ ((K * L + M : ℕ) : ℤ) := by
    refine (abs_add_le _ _).trans ?_
    rw [abs_mul]; push_cast
    exact add_le_add (mul_le_mul hn hm (abs_nonneg _) (by positivity)) hk
  have hs : f.val * g.val + c.val = ((n * m + k : ℤ) : ℚ) * 2 ^ (e + e') := by
    rw [hv, hw, hz, zpow_add₀ (by norm_num)]; push_cast; ring
  have hr : Rep (f.val * g.val + c.val) := by
    rw [hs]; exact rep_grid_le (hb.trans (by exact_mod_cast h)) h1 h2
  have hd : CSimd.fma f g c = fmaFin f g c := by
    show fusedMulAdd f g c = _
    unfold fusedMulAdd; simp [hf, hg, hc]
  have hfin : (fmaFin f g c).isFin = true := by
    unfold fmaFin; rw [ofRat_isFin, rnd_rep hr]; exact rep_lt hr
  have hval : (fmaFin f g c).val = f.val * g.val + c.val := by
    unfold fmaFin at hfin ⊢; rw [ofRat_val hfin, rnd_rep hr]
  rw [hd]
  refine ⟨⟨hfin, n * m + k, hb, hval.trans hs⟩, ?_⟩
  unfold toReal
  rw [hval]; push_cast; rfl

/-- derive exactness of an expression in sums, differences and products of numbers on grids -/
macro "grid_tree" : tactic => `(tactic| repeat' first
  | with_reducible apply Exact.add
  | with_reducible apply Exact.sub
  | with_reducible apply Exact.mul
  | with_reducible apply Exact.neg
  | with_reducible apply Exact.fma
  | with_reducible apply Exact.zero
  | with_reducible exact Exact.one
  | with_reducible exact Exact.two
  | with_reducible exact Exact.half
  | (with_reducible apply On.exact; assumption))

/-- exactness of a sum of products in the order of the scalar code -/
macro "grid_dot" : tactic => `(tactic| with_reducible first
  | (apply Exact.dot4 <;> first | assumption | (apply On.exact; assumption))
  | (apply Exact.dot3 <;> first | assumption | (apply On.exact; assumption))
  | (apply Exact.dot2 <;> first | assumption | (apply On.exact; assumption)))

/-- exactness of a scalar expression -/
macro "grid" : tactic => `(tactic|
  first | grid_dot | (refine Exact.to (by grid_tree <;> first | with_reducible rfl | omega) ?_ ?_ ?_ <;>
    first | rfl | omega | (push_cast; ring) | fail "grid"))

end F32
end Cglm
