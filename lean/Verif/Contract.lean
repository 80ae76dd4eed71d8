import Verif.F32Simd
import Verif.F32Map
/-!
# Contraction

A C compiler may contract `a * b + c` into one fused multiply-add with a single rounding (C11 6.5p8; `FP_CONTRACT`,
`-ffp-contract`), and it decides this for every occurrence on its own.  Here a run of the code is evaluated with an arbitrary
policy: for every sum or difference one of whose operands is a product, the policy sees the whole expression and chooses to round
the product first, or to fuse the left or the right product.

Simplified: two occurrences of the same expression over the same inputs are contracted in the same way; a product that is stored
and loaded again as an input is not contracted with later sums.
-/

namespace Cglm

/-- an expression, as the compiler sees it -/
inductive Tree where
  | input (name : ℕ)
  | const (q : ℚ)
  | op1 (f : ℕ) (a : Tree)
  | op2 (f : ℕ) (a b : Tree)

/-- what becomes of a sum -/
inductive Fuse where
  | none
  | left
  | right

/-- the decisions of a compiler -/
def Policy := Tree → Fuse

/-- a number during the run: its value when stored, its factors if it is a product, its expression -/
structure Ctr (π : Policy) where
  val : F32
  prod : Option (F32 × F32)
  tree : Tree

/-- an input: a stored number with its name -/
structure Named where
  val : F32
  name : ℕ

open F32

variable {π : Policy}

/-- load an input -/
def Named.run (π : Policy) (a : Named) : Ctr π := ⟨a.val, none, .input a.name⟩

/-- a sum with decision `d` -/
def Ctr.sum (d : Fuse) (a b : Ctr π) : F32 :=
  match d, a.prod, b.prod with
  | .left, some (p, q), _ => fusedMulAdd p q b.val
  | .right, _, some (p, q) => fusedMulAdd p q a.val
  | _, _, _ => a.val + b.val

/-- negation keeps a product a product -/
def Ctr.negate (a : Ctr π) : Ctr π := ⟨-a.val, a.prod.map fun p => (-p.1, p.2), .op1 0 a.tree⟩

instance : Neg (Ctr π) := ⟨Ctr.negate⟩
instance : Add (Ctr π) := ⟨fun a b => ⟨Ctr.sum (π (.op2 0 a.tree b.tree)) a b, none, .op2 0 a.tree b.tree⟩⟩
instance : Sub (Ctr π) := ⟨fun a b => ⟨Ctr.sum (π (.op2 1 a.tree b.tree)) a (-b), none, .op2 1 a.tree b.tree⟩⟩
instance : Mul (Ctr π) := ⟨fun a b => ⟨a.val * b.val, some (a.val, b.val), .op2 2 a.tree b.tree⟩⟩
instance : Div (Ctr π) := ⟨fun a b => ⟨a.val / b.val, none, .op2 3 a.tree b.tree⟩⟩

/-- a function of one argument -/
def Ctr.fn1 (n : ℕ) (f : F32 → F32) (a : Ctr π) : Ctr π := ⟨f a.val, none, .op1 n a.tree⟩
/-- a function of two arguments -/
def Ctr.fn2 (n : ℕ) (f : F32 → F32 → F32) (a b : Ctr π) : Ctr π := ⟨f a.val b.val, none, .op2 n a.tree b.tree⟩

instance [Libm] : CFloat (Ctr π) where
  lit q := ⟨CFloat.lit q, none, .const q⟩
  flt a b := CFloat.flt a.val b.val
  fle a b := CFloat.fle a.val b.val
  feq a b := CFloat.feq a.val b.val
  sqrtf := Ctr.fn1 1 CFloat.sqrtf
  sinf := Ctr.fn1 2 CFloat.sinf
  cosf := Ctr.fn1 3 CFloat.cosf
  tanf := Ctr.fn1 4 CFloat.tanf
  asinf := Ctr.fn1 5 CFloat.asinf
  acosf := Ctr.fn1 6 CFloat.acosf
  atanf := Ctr.fn1 7 CFloat.atanf
  atan2f := Ctr.fn2 8 CFloat.atan2f
  floorf := Ctr.fn1 9 CFloat.floorf
  fabsf := Ctr.fn1 10 CFloat.fabsf
  fmodf := Ctr.fn2 11 CFloat.fmodf
  powf := Ctr.fn2 12 CFloat.powf
  fminf := Ctr.fn2 13 CFloat.fminf
  modfFrac := Ctr.fn1 14 CFloat.modfFrac
  isnanf a := CFloat.isnanf a.val
  isinff a := CFloat.isinff a.val

/-! ### a compiler that never contracts -/

/-- no contraction -/
def noFuse : Policy := fun _ => .none

theorem Ctr.sum_none (a b : Ctr π) : Ctr.sum .none a b = a.val + b.val := by
  unfold Ctr.sum; split <;> first | rfl | contradiction

namespace F32

/-! ### the fused operation -/

theorem fma_isFin {p q c : F32} (h : (fusedMulAdd p q c).isFin = true) :
    p.isFin = true ∧ q.isFin = true ∧ c.isFin = true ∧ (fusedMulAdd p q c).val = rnd (p.val * q.val + c.val) := by
  unfold fusedMulAdd at *
  by_cases hpq : p.isFin = true ∧ q.isFin = true
  · by_cases hc : c.isFin = true
    · rw [if_pos (by simp [hpq, hc])] at h ⊢
      exact ⟨hpq.1, hpq.2, hc, ofRat_val h⟩
    · rw [if_neg (by simp [hc]), if_pos (by simp [hpq])] at h
      exact absurd h hc
  · have n : ¬(p.isFin && q.isFin) = true := by rw [Bool.and_eq_true]; exact hpq
    rw [if_neg (by rw [Bool.and_eq_true]; exact fun k => n k.1), if_neg n] at h
    exact absurd (mul_isFin (add_isFin h).1) hpq

theorem fma_err {p q c : F32} (h : (fusedMulAdd p q c).isFin = true) :
    |(fusedMulAdd p q c).toReal - (p.toReal * q.toReal + c.toReal)| ≤ ur * |p.toReal * q.toReal + c.toReal| + ηr := by
  have := rnd_err (p.val * q.val + c.val)
  rw [← (fma_isFin h).2.2.2] at this
  unfold toReal
  rw [ur_eq, ηr_eq]
  exact_mod_cast this

/-! ### error of products before they are rounded -/

/-- the exact product of two computed numbers against `x` -/
def NearP (p q : F32) (x M : ℝ) (k : ℕ) (e : ℝ) : Prop :=
  p.isFin = true → q.isFin = true → |p.toReal * q.toReal - x| ≤ ((1 + ur) ^ k - 1) * M + e ∧ |x| ≤ M ∧ 0 ≤ e

theorem NearP.neg {p q : F32} {x M : ℝ} {k : ℕ} {e : ℝ} (h : NearP p q x M k e) : NearP (-p) q (-x) M k e := by
  intro hp hq
  rw [neg_isFin] at hp
  obtain ⟨h1, h2, h3⟩ := h hp hq
  refine ⟨?_, by rwa [abs_neg], h3⟩
  rw [toReal_neg, show -p.toReal * q.toReal - -x = -(p.toReal * q.toReal - x) by ring, abs_neg]
  exact h1

theorem Near.pair {f g : F32} {x y M N : ℝ} {k l : ℕ} {e e' : ℝ} (hf : Near f x M k e) (hg : Near g y N l e') :
    NearP f g (x * y) (M * N) (k + l) ((1 + ur) ^ k * M * e' + (1 + ur) ^ l * N * e + e * e') := by
  intro ff gf
  obtain ⟨h1, h2, h3⟩ := hf ff
  obtain ⟨g1, g2, g3⟩ := hg gf
  have hM : 0 ≤ M := (abs_nonneg x).trans h2
  have hN : 0 ≤ N := (abs_nonneg y).trans g2
  have hp := one_le_pow_ur k
  have hq := one_le_pow_ur l
  refine ⟨?_, by rw [abs_mul]; exact mul_le_mul h2 g2 (abs_nonneg _) hM, by positivity⟩
  rw [pow_add]
  generalize (1 + ur) ^ k = p at *
  generalize (1 + ur) ^ l = q at *
  have bf : |f.toReal| ≤ p * M + e := by
    have t := abs_add_le (f.toReal - x) x
    rw [sub_add_cancel] at t; linarith
  have t := abs_add_le (f.toReal * (g.toReal - y)) ((f.toReal - x) * y)
  rw [show f.toReal * (g.toReal - y) + (f.toReal - x) * y = f.toReal * g.toReal - x * y by ring, abs_mul, abs_mul] at t
  have t1 : |f.toReal| * |g.toReal - y| ≤ (p * M + e) * ((q - 1) * N + e') :=
    mul_le_mul bf g1 (abs_nonneg _) (by positivity)
  have t2 : |f.toReal - x| * |y| ≤ ((p - 1) * M + e) * N :=
    mul_le_mul h1 g2 (abs_nonneg _) (by have := mul_nonneg (sub_nonneg.mpr hp) hM; linarith)
  nlinarith

/-- one fused step -/
theorem NearP.fma {p q g : F32} {x y M N : ℝ} {k l : ℕ} {e e' : ℝ} (hf : NearP p q x M k e) (hg : Near g y N l e') :
    Near (fusedMulAdd p q g) (x + y) (M + N) (max k l + 1) ((1 + ur) * (e + e') + ηr) := by
  intro h
  obtain ⟨pf, qf, gf, -⟩ := fma_isFin h
  obtain ⟨h1, h2, h3⟩ := hf pf qf
  obtain ⟨g1, g2, g3⟩ := hg.le le_rfl (le_max_right k l) le_rfl gf
  have hu := ur_pos
  have hη := ηr_pos
  have er := fma_err h
  have hp := one_le_pow_ur (max k l)
  have hkl : (1 + ur) ^ k ≤ (1 + ur) ^ max k l := pow_le_pow_right₀ (by linarith) (le_max_left k l)
  have hM : 0 ≤ M := (abs_nonneg x).trans h2
  have h1' : |p.toReal * q.toReal - x| ≤ ((1 + ur) ^ max k l - 1) * M + e := by nlinarith
  refine ⟨?_, (abs_add_le x y).trans (add_le_add h2 g2), by positivity⟩
  rw [pow_succ]
  generalize (1 + ur) ^ max k l = r at *
  generalize p.toReal * q.toReal = v at *
  have d : |v + g.toReal - (x + y)| ≤ (r - 1) * (M + N) + (e + e') := by
    have := abs_add_le (v - x) (g.toReal - y)
    rw [show v + g.toReal - (x + y) = v - x + (g.toReal - y) by ring]
    linarith
  have b : |v + g.toReal| ≤ r * (M + N) + (e + e') := by
    have t := abs_add_le (v + g.toReal - (x + y)) (x + y)
    have t' := abs_add_le x y
    rw [sub_add_cancel] at t
    linarith
  have t := abs_add_le ((fusedMulAdd p q g).toReal - (v + g.toReal)) (v + g.toReal - (x + y))
  rw [sub_add_sub_cancel] at t
  have := mul_le_mul_of_nonneg_left b hu.le
  nlinarith

end F32

/-! ### error of contracted runs -/

/-- error of a number during a run; if it is a product, its factors are better by one rounding -/
def NearC (v : Ctr π) (x M : ℝ) (k : ℕ) (e : ℝ) : Prop :=
  Near v.val x M k e ∧ ∀ p q, v.prod = some (p, q) → 1 ≤ k ∧ NearP p q x M (k - 1) (e - ηr)

theorem NearC.of {v : Ctr π} {x M : ℝ} {k : ℕ} {e : ℝ} (h : Near v.val x M k e) (hp : v.prod = none) : NearC v x M k e :=
  ⟨h, fun p q c => by rw [hp] at c; cases c⟩

theorem NearC.var (a : Named) : NearC (a.run π) a.val.toReal |a.val.toReal| 0 0 := .of (Near.var _) rfl

theorem NearC.neg {v : Ctr π} {x M : ℝ} {k : ℕ} {e : ℝ} (h : NearC v x M k e) : NearC (-v) (-x) M k e := by
  refine ⟨h.1.neg, fun p q e => ?_⟩
  obtain ⟨⟨p', q'⟩, h1, h2⟩ := Option.map_eq_some_iff.mp e
  cases h2
  exact ⟨(h.2 _ _ h1).1, (h.2 _ _ h1).2.neg⟩

theorem NearC.mul {v w : Ctr π} {x y M N : ℝ} {k l : ℕ} {e e' : ℝ} (hv : NearC v x M k e) (hw : NearC w y N l e') :
    NearC (v * w) (x * y) (M * N) (k + l + 1)
      ((1 + ur) * ((1 + ur) ^ k * M * e' + (1 + ur) ^ l * N * e + e * e') + ηr) := by
  refine ⟨hv.1.mul hw.1, fun p q e1 => ?_⟩
  cases e1
  refine ⟨by omega, fun pf qf => ?_⟩
  obtain ⟨a, b, c⟩ := hv.1.pair hw.1 pf qf
  have hu := ur_pos
  rw [Nat.add_sub_cancel, add_sub_cancel_right]
  exact ⟨by nlinarith, b, by nlinarith⟩

theorem NearC.sum {v w : Ctr π} {x y M N : ℝ} {k l : ℕ} {e e' : ℝ} (d : Fuse) (hv : NearC v x M k e) (hw : NearC w y N l e') :
    Near (Ctr.sum d v w) (x + y) (M + N) (max k l + 1) ((1 + ur) * (e + e')) := by
  have hu := ur_pos
  have hη := ηr_pos
  unfold Ctr.sum
  split
  · next p q h =>
    obtain ⟨k1, hp⟩ := hv.2 p q h
    exact (hp.fma hw.1).le le_rfl (by omega) (by nlinarith)
  · next p q h =>
    obtain ⟨l1, hp⟩ := hw.2 p q h
    have := hp.fma hv.1
    rw [add_comm y x, add_comm N M] at this
    exact this.le le_rfl (by omega) (by nlinarith)
  · exact hv.1.add hw.1

theorem NearC.add {v w : Ctr π} {x y M N : ℝ} {k l : ℕ} {e e' : ℝ} (hv : NearC v x M k e) (hw : NearC w y N l e') :
    NearC (v + w) (x + y) (M + N) (max k l + 1) ((1 + ur) * (e + e')) := .of (NearC.sum _ hv hw) rfl

theorem NearC.sub {v w : Ctr π} {x y M N : ℝ} {k l : ℕ} {e e' : ℝ} (hv : NearC v x M k e) (hw : NearC w y N l e') :
    NearC (v - w) (x - y) (M + N) (max k l + 1) ((1 + ur) * (e + e')) := by
  rw [sub_eq_add_neg]
  exact .of (NearC.sum _ hv hw.neg) rfl

theorem NearC.lit [Libm] (q : ℚ) (h : (2 : ℚ) ^ (-126 : ℤ) ≤ |q|) : NearC (CFloat.lit q : Ctr π) (q : ℝ) |(q : ℝ)| 1 0 :=
  .of (Near.lit q h) rfl

theorem NearC.err {f : Ctr π} {x M : ℝ} {k : ℕ} {e : ℝ} (h : NearC f x M k e) (n : ℕ) (hk : k ≤ n) (hn : n * ur < 1)
    {X B E : ℝ} (hx : x = X) (hM : M ≤ B) (he : e ≤ E) : F32.Err f.val X (γ n) B E := h.1.err n hk hn hx hM he

/-- the real number an input stands for -/
noncomputable def Named.real (a : Named) : ℝ := a.val.toReal
/-- its magnitude -/
noncomputable def Named.mag (a : Named) : ℝ := |a.val.toReal|

/-- derive an error bound for an expression in sums, differences and products -/
macro "nearc" : tactic => `(tactic| repeat' first
  | with_reducible apply NearC.add
  | with_reducible apply NearC.sub
  | with_reducible apply NearC.mul
  | with_reducible apply NearC.neg
  | with_reducible exact NearC.lit _ (by norm_num)
  | with_reducible exact NearC.var _)

/-- error bound of a scalar expression with `n` roundings -/
macro "errc" n:num : tactic => `(tactic|
  (refine NearC.err (by nearc) $n ?_ ?_ ?_ ?_ ?_
   · norm_num
   · norm_num [ur]
   · first | (simp only [Named.real]; done) | (simp only [Named.real]; push_cast; ring)
   · simp only [Named.mag]; apply le_of_eq; push_cast; ring
   · norm_num [ur, ηr]))

/-! ### exact results of contracted runs -/

/-- an exact number during a run; if it is a product, its factors are exact -/
def ExactC (v : Ctr π) (x : ℝ) (e : ℤ) (K : ℕ) : Prop :=
  F32.Exact v.val x e K ∧ ∀ p q, v.prod = some (p, q) → ∃ y z e₁ e₂ A B,
    F32.Exact p y e₁ A ∧ F32.Exact q z e₂ B ∧ y * z = x ∧ e₁ + e₂ = e ∧ A * B ≤ K

/-- a named number on the grid -/
def Named.On (a : Named) (e : ℤ) (K : ℕ) : Prop := a.val.On e K

theorem ExactC.of {v : Ctr π} {x : ℝ} {e : ℤ} {K : ℕ} (h : F32.Exact v.val x e K) (hp : v.prod = none) : ExactC v x e K :=
  ⟨h, fun p q c => by rw [hp] at c; cases c⟩

theorem ExactC.to {v : Ctr π} {x y : ℝ} {e e' : ℤ} {K L : ℕ} (h : ExactC v x e K) (hx : x = y) (he : e = e') (hK : K ≤ L) :
    F32.Exact v.val y e' L := h.1.to hx he hK

theorem Named.On.exactC {a : Named} {e : ℤ} {K : ℕ} (h : a.val.On e K) : ExactC (a.run π) a.real e K := .of h.exact rfl

theorem ExactC.neg {v : Ctr π} {x : ℝ} {e : ℤ} {K : ℕ} (h : ExactC v x e K) : ExactC (-v) (-x) e K := by
  refine ⟨h.1.neg, fun p q c => ?_⟩
  obtain ⟨⟨p', q'⟩, h1, h2⟩ := Option.map_eq_some_iff.mp c
  cases h2
  obtain ⟨y, z, e₁, e₂, A, B, hp, hq, rfl, he, hk⟩ := h.2 _ _ h1
  exact ⟨-y, z, e₁, e₂, A, B, hp.neg, hq, by ring, he, hk⟩

theorem ExactC.mul {v w : Ctr π} {x y : ℝ} {e e' : ℤ} {K L : ℕ} (hv : ExactC v x e K) (hw : ExactC w y e' L)
    (h1 : -149 ≤ e + e') (h2 : e + e' ≤ 103) (h : K * L ≤ 2 ^ 24) : ExactC (v * w) (x * y) (e + e') (K * L) := by
  refine ⟨hv.1.mul hw.1 h1 h2 h, fun p q c => ?_⟩
  cases c
  exact ⟨x, y, e, e', K, L, hv.1, hw.1, rfl, rfl, le_rfl⟩

theorem ExactC.sum {v w : Ctr π} {x y : ℝ} {e e' : ℤ} {K L : ℕ} (d : Fuse) (hv : ExactC v x e K) (hw : ExactC w y e' L)
    (he : e' = e) (h1 : -149 ≤ e) (h2 : e ≤ 103) (h : K + L ≤ 2 ^ 24) :
    F32.Exact (Ctr.sum d v w) (x + y) e (K + L) := by
  subst he
  unfold Ctr.sum
  split
  · next p q c =>
    obtain ⟨y, z, e₁, e₂, A, B, hp, hq, rfl, rfl, hk⟩ := hv.2 p q c
    exact (hp.fma hq hw.1 rfl h1 h2 (by omega)).to rfl rfl (by omega)
  · next p q c =>
    obtain ⟨y, z, e₁, e₂, A, B, hp, hq, rfl, rfl, hk⟩ := hw.2 p q c
    exact (hp.fma hq hv.1 rfl h1 h2 (by omega)).to (add_comm _ _) rfl (by omega)
  · exact hv.1.add hw.1 rfl h1 h2 h

theorem ExactC.add {v w : Ctr π} {x y : ℝ} {e e' : ℤ} {K L : ℕ} (hv : ExactC v x e K) (hw : ExactC w y e' L)
    (he : e' = e) (h1 : -149 ≤ e) (h2 : e ≤ 103) (h : K + L ≤ 2 ^ 24) : ExactC (v + w) (x + y) e (K + L) :=
  .of (ExactC.sum _ hv hw he h1 h2 h) rfl

theorem ExactC.sub {v w : Ctr π} {x y : ℝ} {e e' : ℤ} {K L : ℕ} (hv : ExactC v x e K) (hw : ExactC w y e' L)
    (he : e' = e) (h1 : -149 ≤ e) (h2 : e ≤ 103) (h : K + L ≤ 2 ^ 24) : ExactC (v - w) (x - y) e (K + L) := by
  rw [sub_eq_add_neg]
  exact .of (ExactC.sum _ hv hw.neg he h1 h2 h) rfl

theorem ExactC.zero [Libm] (e : ℤ) : ExactC (CFloat.lit 0 : Ctr π) 0 e 0 := .of (Exact.zero e) rfl
theorem ExactC.one [Libm] : ExactC (CFloat.lit 1 : Ctr π) 1 0 1 := .of Exact.one rfl
theorem ExactC.two [Libm] : ExactC (CFloat.lit 2 : Ctr π) 2 0 2 := .of Exact.two rfl
theorem ExactC.half [Libm] : ExactC (CFloat.lit 0.5 : Ctr π) (1 / 2) (-1) 1 := .of Exact.half rfl

/-- derive exactness of an expression in sums, differences and products of numbers on grids -/
macro "gridc_tree" : tactic => `(tactic| repeat' first
  | with_reducible apply ExactC.add
  | with_reducible apply ExactC.sub
  | with_reducible apply ExactC.mul
  | with_reducible apply ExactC.neg
  | with_reducible apply ExactC.zero
  | with_reducible exact ExactC.one
  | with_reducible exact ExactC.two
  | with_reducible exact ExactC.half
  | (with_reducible apply Named.On.exactC; assumption))

/-- exactness of a scalar expression -/
macro "gridc" : tactic => `(tactic|
  (refine ExactC.to (by gridc_tree <;> first | with_reducible rfl | omega) ?_ ?_ ?_ <;>
    first | rfl | omega | (push_cast; ring) | fail "gridc"))

/-! ### runs in which nothing can be contracted -/

section
variable (a b : Ctr π) (n : Named)
theorem Ctr.run_val : (n.run π).val = n.val := id rfl
theorem Ctr.run_prod : (n.run π).prod = none := id rfl
theorem Ctr.neg_val : (-a).val = -a.val := id rfl
theorem Ctr.neg_prod (h : a.prod = none) : (-a).prod = none := by
  show a.prod.map _ = none
  rw [h]; rfl
theorem Ctr.mul_val : (a * b).val = a.val * b.val := id rfl
theorem Ctr.div_val : (a / b).val = a.val / b.val := id rfl
theorem Ctr.div_prod : (a / b).prod = none := id rfl
theorem Ctr.add_prod : (a + b).prod = none := id rfl
theorem Ctr.sub_prod : (a - b).prod = none := id rfl
theorem Ctr.sum_plain (d : Fuse) (ha : a.prod = none) (hb : b.prod = none) : Ctr.sum d a b = a.val + b.val := by
  unfold Ctr.sum; rw [ha, hb]; cases d <;> rfl
theorem Ctr.add_val (ha : a.prod = none) (hb : b.prod = none) : (a + b).val = a.val + b.val := Ctr.sum_plain a b _ ha hb
theorem Ctr.sub_val (ha : a.prod = none) (hb : b.prod = none) : (a - b).val = a.val - b.val := by
  rw [F32.sub_def]; exact Ctr.sum_plain a (-b) _ ha (Ctr.neg_prod b hb)
variable [Libm] (q : ℚ)
theorem Ctr.lit_val : (CFloat.lit q : Ctr π).val = CFloat.lit q := id rfl
theorem Ctr.lit_prod : (CFloat.lit q : Ctr π).prod = none := id rfl
theorem Ctr.ofInt_val (i : ℤ) : (ofInt i : Ctr π).val = ofInt i := id rfl
theorem Ctr.ofInt_prod (i : ℤ) : (ofInt i : Ctr π).prod = none := id rfl
theorem Ctr.flt_val : CFloat.flt a b = CFloat.flt a.val b.val := id rfl
theorem Ctr.fle_val : CFloat.fle a b = CFloat.fle a.val b.val := id rfl
theorem Ctr.feq_val : CFloat.feq a b = CFloat.feq a.val b.val := id rfl
theorem Ctr.isnan_val : CFloat.isnanf a = CFloat.isnanf a.val := id rfl
theorem Ctr.isinf_val : CFloat.isinff a = CFloat.isinff a.val := id rfl
theorem Ctr.sqrt_val : (CFloat.sqrtf a).val = CFloat.sqrtf a.val := id rfl
theorem Ctr.sqrt_prod : (CFloat.sqrtf a).prod = none := id rfl
theorem Ctr.sin_val : (CFloat.sinf a).val = CFloat.sinf a.val := id rfl
theorem Ctr.sin_prod : (CFloat.sinf a).prod = none := id rfl
theorem Ctr.cos_val : (CFloat.cosf a).val = CFloat.cosf a.val := id rfl
theorem Ctr.cos_prod : (CFloat.cosf a).prod = none := id rfl
theorem Ctr.tan_val : (CFloat.tanf a).val = CFloat.tanf a.val := id rfl
theorem Ctr.tan_prod : (CFloat.tanf a).prod = none := id rfl
theorem Ctr.atan2_val : (CFloat.atan2f a b).val = CFloat.atan2f a.val b.val := id rfl
theorem Ctr.asin_val : (CFloat.asinf a).val = CFloat.asinf a.val := id rfl
theorem Ctr.acos_val : (CFloat.acosf a).val = CFloat.acosf a.val := id rfl
theorem Ctr.atan_val : (CFloat.atanf a).val = CFloat.atanf a.val := id rfl
theorem Ctr.floor_val : (CFloat.floorf a).val = CFloat.floorf a.val := id rfl
theorem Ctr.floor_prod : (CFloat.floorf a).prod = none := id rfl
theorem Ctr.fabs_val : (CFloat.fabsf a).val = CFloat.fabsf a.val := id rfl
theorem Ctr.fabs_prod : (CFloat.fabsf a).prod = none := id rfl
theorem Ctr.fmod_val : (CFloat.fmodf a b).val = CFloat.fmodf a.val b.val := id rfl
theorem Ctr.fmod_prod : (CFloat.fmodf a b).prod = none := id rfl
theorem Ctr.pow_val : (CFloat.powf a b).val = CFloat.powf a.val b.val := id rfl
theorem Ctr.fmin_val : (CFloat.fminf a b).val = CFloat.fminf a.val b.val := id rfl
theorem Ctr.fmin_prod : (CFloat.fminf a b).prod = none := id rfl
theorem Ctr.frac_val : (CFloat.modfFrac a).val = CFloat.modfFrac a.val := id rfl
end

/-- the run without contraction is the run of the model: all sums, products and functions are those of binary32 -/
theorem Ctr.noFuse_add (a b : Ctr noFuse) : (a + b).val = a.val + b.val := Ctr.sum_none a b
theorem Ctr.noFuse_sub (a b : Ctr noFuse) : (a - b).val = a.val - b.val := by
  rw [F32.sub_def]; exact Ctr.sum_none a (-b)

/-- values of a run in which nothing can be contracted -/
macro "plain" : tactic => `(tactic|
  simp only [apply_ite Ctr.val, apply_ite Ctr.prod, ite_self, Ctr.run_val, Ctr.run_prod, Ctr.neg_val, Ctr.neg_prod, Ctr.mul_val, Ctr.div_val,
    Ctr.div_prod, Ctr.add_prod, Ctr.sub_prod, Ctr.add_val, Ctr.sub_val, Ctr.lit_val, Ctr.lit_prod, Ctr.flt_val, Ctr.fle_val,
    Ctr.feq_val, Ctr.isnan_val, Ctr.isinf_val, Ctr.sqrt_val, Ctr.sqrt_prod, Ctr.sin_val, Ctr.sin_prod, Ctr.cos_val,
    Ctr.cos_prod, Ctr.tan_val, Ctr.tan_prod, Ctr.atan2_val, Ctr.asin_val, Ctr.acos_val, Ctr.atan_val, Ctr.floor_val,
    Ctr.floor_prod, Ctr.fabs_val, Ctr.fabs_prod, Ctr.fmod_val, Ctr.fmod_prod, Ctr.pow_val, Ctr.fmin_val, Ctr.fmin_prod,
    Ctr.frac_val, Ctr.ofInt_val, Ctr.ofInt_prod])

end Cglm
