import Verif.F32Grid
import Verif.F32Map
/-!
# Reassociation

With flags such as `-ffast-math` a compiler may reorder sums and products and move signs (`-fassociative-math`).  Here the code is run on
expressions, so that its result is the expression it computes; `Reassoc` says which expressions a compiler may compute instead,
and `X.run` computes one of them in binary32.

Simplified: products are not distributed over sums or factored out; quotients and library functions are computed as they are
written and enter an expression as inputs; each operation is rounded to binary32.
-/

namespace Cglm
open F32

/-- an expression in sums, differences and products of stored numbers -/
inductive X where
  | inp (v : F32)
  | neg (a : X)
  | add (a b : X)
  | sub (a b : X)
  | mul (a b : X)

namespace X

/-- compute the expression as it stands, rounding every operation -/
def run : X → F32
  | .inp v => v
  | .neg a => -a.run
  | .add a b => a.run + b.run
  | .sub a b => a.run - b.run
  | .mul a b => a.run * b.run

/-- its exact value -/
noncomputable def real : X → ℝ
  | .inp v => v.toReal
  | .neg a => -a.real
  | .add a b => a.real + b.real
  | .sub a b => a.real - b.real
  | .mul a b => a.real * b.real

/-- the same with magnitudes and without cancellation -/
noncomputable def mag : X → ℝ
  | .inp v => |v.toReal|
  | .neg a => a.mag
  | .add a b => a.mag + b.mag
  | .sub a b => a.mag + b.mag
  | .mul a b => a.mag * b.mag

/-- the number of operations that round -/
def ops : X → ℕ
  | .inp _ => 0
  | .neg a => a.ops
  | .add a b => a.ops + b.ops + 1
  | .sub a b => a.ops + b.ops + 1
  | .mul a b => a.ops + b.ops + 1

/-- the number of products -/
def muls : X → ℕ
  | .inp _ => 0
  | .neg a => a.muls
  | .add a b => a.muls + b.muls
  | .sub a b => a.muls + b.muls
  | .mul a b => a.muls + b.muls + 1

/-- an input, possibly negated -/
def leaf : X → Bool
  | .inp _ => true
  | .neg a => a.leaf
  | _ => false

/-- a sum of inputs and products of two inputs -/
def flat : X → Bool
  | .inp _ => true
  | .neg a => a.flat
  | .add a b => a.flat && b.flat
  | .sub a b => a.flat && b.flat
  | .mul a b => a.leaf && b.leaf

/-- all terms are integer multiples of `2^e`, and their magnitudes add up to at most `K * 2^e` -/
def Grid : X → ℤ → ℕ → Prop
  | .inp v, e, K => v.On e K
  | .neg a, e, K => a.Grid e K
  | .add a b, e, K => ∃ k l, k + l = K ∧ a.Grid e k ∧ b.Grid e l
  | .sub a b, e, K => ∃ k l, k + l = K ∧ a.Grid e k ∧ b.Grid e l
  | .mul a b, e, K => ∃ i j k l, i + j = e ∧ k * l = K ∧ a.Grid i k ∧ b.Grid j l

end X

instance : Neg X := ⟨X.neg⟩
instance : Add X := ⟨X.add⟩
instance : Sub X := ⟨X.sub⟩
instance : Mul X := ⟨X.mul⟩
instance : Div X := ⟨fun a b => .inp (a.run / b.run)⟩

instance [Libm] : CFloat X where
  lit q := .inp (CFloat.lit q)
  flt a b := CFloat.flt a.run b.run
  fle a b := CFloat.fle a.run b.run
  feq a b := CFloat.feq a.run b.run
  sqrtf a := .inp (CFloat.sqrtf a.run)
  sinf a := .inp (CFloat.sinf a.run)
  cosf a := .inp (CFloat.cosf a.run)
  tanf a := .inp (CFloat.tanf a.run)
  asinf a := .inp (CFloat.asinf a.run)
  acosf a := .inp (CFloat.acosf a.run)
  atanf a := .inp (CFloat.atanf a.run)
  atan2f a b := .inp (CFloat.atan2f a.run b.run)
  floorf a := .inp (CFloat.floorf a.run)
  fabsf a := .inp (CFloat.fabsf a.run)
  fmodf a b := .inp (CFloat.fmodf a.run b.run)
  powf a b := .inp (CFloat.powf a.run b.run)
  fminf a b := .inp (CFloat.fminf a.run b.run)
  modfFrac a := .inp (CFloat.modfFrac a.run)
  isnanf a := CFloat.isnanf a.run
  isinff a := CFloat.isinff a.run

/-- what a compiler may compute instead: the laws of commutative addition and multiplication with signs, but not the distributive law,
applied anywhere any number of times -/
inductive Reassoc : X → X → Prop
  | refl (a) : Reassoc a a
  | symm {a b} : Reassoc a b → Reassoc b a
  | trans {a b c} : Reassoc a b → Reassoc b c → Reassoc a c
  | neg {a a'} : Reassoc a a' → Reassoc (.neg a) (.neg a')
  | add {a a' b b'} : Reassoc a a' → Reassoc b b' → Reassoc (.add a b) (.add a' b')
  | sub {a a' b b'} : Reassoc a a' → Reassoc b b' → Reassoc (.sub a b) (.sub a' b')
  | mul {a a' b b'} : Reassoc a a' → Reassoc b b' → Reassoc (.mul a b) (.mul a' b')
  | add_comm (a b) : Reassoc (.add a b) (.add b a)
  | add_assoc (a b c) : Reassoc (.add (.add a b) c) (.add a (.add b c))
  | mul_comm (a b) : Reassoc (.mul a b) (.mul b a)
  | mul_assoc (a b c) : Reassoc (.mul (.mul a b) c) (.mul a (.mul b c))
  | sub_eq (a b) : Reassoc (.sub a b) (.add a (.neg b))
  | neg_add (a b) : Reassoc (.neg (.add a b)) (.add (.neg a) (.neg b))
  | neg_neg (a) : Reassoc (.neg (.neg a)) a
  | neg_mul (a b) : Reassoc (.neg (.mul a b)) (.mul (.neg a) b)

namespace Reassoc

theorem same {s t : X} (h : Reassoc s t) :
    s.real = t.real ∧ s.mag = t.mag ∧ s.ops = t.ops ∧ s.muls = t.muls ∧ s.leaf = t.leaf ∧ s.flat = t.flat := by
  induction h with
  | refl => exact ⟨rfl, rfl, rfl, rfl, rfl, rfl⟩
  | symm _ ih => obtain ⟨a, b, c, d, e, f⟩ := ih; exact ⟨a.symm, b.symm, c.symm, d.symm, e.symm, f.symm⟩
  | trans _ _ h1 h2 =>
    obtain ⟨a, b, c, d, e, f⟩ := h1
    obtain ⟨a', b', c', d', e', f'⟩ := h2
    exact ⟨a.trans a', b.trans b', c.trans c', d.trans d', e.trans e', f.trans f'⟩
  | neg _ h => simpa [X.real, X.mag, X.ops, X.muls, X.leaf, X.flat] using h
  | add _ _ h1 h2 => simp only [X.real, X.mag, X.ops, X.muls, X.leaf, X.flat, h1, h2, and_self]
  | sub _ _ h1 h2 => simp only [X.real, X.mag, X.ops, X.muls, X.leaf, X.flat, h1, h2, and_self]
  | mul _ _ h1 h2 => simp only [X.real, X.mag, X.ops, X.muls, X.leaf, X.flat, h1, h2, and_self]
  | add_comm a b =>
    simp only [X.real, X.mag, X.ops, X.muls, X.leaf, X.flat]
    exact ⟨by ring, by ring, by omega, by omega, trivial, Bool.and_comm _ _⟩
  | add_assoc a b c =>
    simp only [X.real, X.mag, X.ops, X.muls, X.leaf, X.flat]
    exact ⟨by ring, by ring, by omega, by omega, trivial, Bool.and_assoc _ _ _⟩
  | mul_comm a b =>
    simp only [X.real, X.mag, X.ops, X.muls, X.leaf, X.flat]
    exact ⟨by ring, by ring, by omega, by omega, trivial, Bool.and_comm _ _⟩
  | mul_assoc a b c =>
    simp only [X.real, X.mag, X.ops, X.muls, X.leaf, X.flat]
    exact ⟨by ring, by ring, by omega, by omega, trivial, by simp⟩
  | sub_eq a b =>
    simp only [X.real, X.mag, X.ops, X.muls, X.leaf, X.flat]
    exact ⟨by ring, trivial, trivial, trivial, trivial, trivial⟩
  | neg_add a b =>
    simp only [X.real, X.mag, X.ops, X.muls, X.leaf, X.flat]
    exact ⟨by ring, trivial, trivial, trivial, trivial, trivial⟩
  | neg_neg a =>
    simp only [X.real, X.mag, X.ops, X.muls, X.leaf, X.flat]
    exact ⟨by ring, trivial, trivial, trivial, trivial, trivial⟩
  | neg_mul a b =>
    simp only [X.real, X.mag, X.ops, X.muls, X.leaf, X.flat]
    exact ⟨by ring, trivial, trivial, trivial, trivial, trivial⟩

theorem grid {s t : X} (h : Reassoc s t) : ∀ e K, s.Grid e K ↔ t.Grid e K := by
  induction h with
  | refl => exact fun _ _ => Iff.rfl
  | symm _ ih => exact fun e K => (ih e K).symm
  | trans _ _ h1 h2 => exact fun e K => (h1 e K).trans (h2 e K)
  | neg _ h => exact h
  | add _ _ h1 h2 => intro e K; simp only [X.Grid, h1, h2]
  | sub _ _ h1 h2 => intro e K; simp only [X.Grid, h1, h2]
  | mul _ _ h1 h2 => intro e K; simp only [X.Grid, h1, h2]
  | add_comm a b =>
    intro e K
    constructor <;> rintro ⟨k, l, h, h1, h2⟩ <;> exact ⟨l, k, by omega, h2, h1⟩
  | add_assoc a b c =>
    intro e K
    constructor
    · rintro ⟨_, m, h, ⟨k, l, rfl, h1, h2⟩, h3⟩; exact ⟨k, l + m, by omega, h1, l, m, rfl, h2, h3⟩
    · rintro ⟨k, _, h, h1, l, m, rfl, h2, h3⟩; exact ⟨k + l, m, by omega, ⟨k, l, rfl, h1, h2⟩, h3⟩
  | mul_comm a b =>
    intro e K
    constructor <;> rintro ⟨i, j, k, l, h, h', h1, h2⟩ <;> exact ⟨j, i, l, k, by omega, by rw [Nat.mul_comm]; exact h', h2, h1⟩
  | mul_assoc a b c =>
    intro e K
    constructor
    · rintro ⟨_, j, _, m, h, h', ⟨i, j', k, l, rfl, rfl, h1, h2⟩, h3⟩
      exact ⟨i, j' + j, k, l * m, by omega, by rw [← h', Nat.mul_assoc], h1, j', j, l, m, rfl, rfl, h2, h3⟩
    · rintro ⟨i, _, k, _, h, h', h1, j', j, l, m, rfl, rfl, h2, h3⟩
      exact ⟨i + j', j, k * l, m, by omega, by rw [← h', Nat.mul_assoc], ⟨i, j', k, l, rfl, rfl, h1, h2⟩, h3⟩
  | sub_eq a b => exact fun _ _ => Iff.rfl
  | neg_add a b => exact fun _ _ => Iff.rfl
  | neg_neg a => exact fun _ _ => Iff.rfl
  | neg_mul a b => exact fun _ _ => Iff.rfl

end Reassoc

namespace X

theorem near_leaf {t : X} (h : t.leaf = true) : Near t.run t.real t.mag 0 0 := by
  induction t with
  | inp v => exact Near.var v
  | neg a ih => exact (ih h).neg
  | _ => simp [leaf] at h

/-- the error of a sum of products, in whatever order -/
theorem near {t : X} (h : t.flat = true) : Near t.run t.real t.mag t.ops ((1 + ur) ^ t.ops * t.muls * ηr) := by
  have hu := ur_pos
  have hη := ηr_pos
  have key : ∀ k l m n : ℕ, (1 + ur) * ((1 + ur) ^ k * m * ηr + (1 + ur) ^ l * n * ηr) ≤ (1 + ur) ^ (k + l + 1) * (m + n : ℕ) * ηr := by
    intro k l m n
    have h1 : (1 + ur) ^ k ≤ (1 + ur) ^ (k + l) := pow_le_pow_right₀ (by linarith) (by omega)
    have h2 : (1 + ur) ^ l ≤ (1 + ur) ^ (k + l) := pow_le_pow_right₀ (by linarith) (by omega)
    rw [pow_succ]
    push_cast
    generalize (1 + ur) ^ (k + l) = r at *
    have hm : (0 : ℝ) ≤ m * ηr := by positivity
    have hn : (0 : ℝ) ≤ n * ηr := by positivity
    have a1 := mul_le_mul_of_nonneg_right h1 hm
    have a2 := mul_le_mul_of_nonneg_right h2 hn
    have := mul_le_mul_of_nonneg_left (add_le_add a1 a2) (by linarith : 0 ≤ 1 + ur)
    nlinarith
  induction t with
  | inp v => simpa [run, real, mag, ops, muls] using Near.var v
  | neg a ih => exact (ih h).neg
  | add a b iha ihb =>
    simp only [flat, Bool.and_eq_true] at h
    exact ((iha h.1).add (ihb h.2)).le le_rfl (by simp only [ops]; omega) (key _ _ _ _)
  | sub a b iha ihb =>
    simp only [flat, Bool.and_eq_true] at h
    exact ((iha h.1).sub (ihb h.2)).le le_rfl (by simp only [ops]; omega) (key _ _ _ _)
  | mul a b =>
    simp only [flat, Bool.and_eq_true] at h
    refine ((near_leaf h.1).mul (near_leaf h.2)).le le_rfl (by simp only [ops]; omega) ?_
    simp only [mul_zero, add_zero, zero_add]
    have h1 : 1 ≤ (1 + ur) ^ (X.mul a b).ops := one_le_pow_ur _
    have h2 : (1 : ℝ) ≤ ((X.mul a b).muls : ℝ) := by exact_mod_cast Nat.le_add_left 1 _
    have := mul_le_mul h1 h2 zero_le_one (by linarith)
    nlinarith

theorem exact_leaf {t : X} (h : t.leaf = true) {e : ℤ} {K : ℕ} (g : t.Grid e K) : Exact t.run t.real e K := by
  induction t with
  | inp v => exact On.exact g
  | neg a ih => exact (ih h g).neg
  | _ => simp [leaf] at h

/-- on a grid the order does not matter -/
theorem exact {t : X} (h : t.flat = true) {e : ℤ} {K : ℕ} (g : t.Grid e K) (hK : K ≤ 2 ^ 24) (lo : -149 ≤ e) (hi : e ≤ 103) :
    Exact t.run t.real e K := by
  induction t generalizing K with
  | inp v => exact On.exact g
  | neg a ih => exact (ih h g hK).neg
  | add a b iha ihb =>
    simp only [flat, Bool.and_eq_true] at h
    obtain ⟨k, l, rfl, h1, h2⟩ := g
    exact (iha h.1 h1 (by omega)).add (ihb h.2 h2 (by omega)) rfl lo hi hK
  | sub a b iha ihb =>
    simp only [flat, Bool.and_eq_true] at h
    obtain ⟨k, l, rfl, h1, h2⟩ := g
    exact (iha h.1 h1 (by omega)).sub (ihb h.2 h2 (by omega)) rfl lo hi hK
  | mul a b =>
    simp only [flat, Bool.and_eq_true] at h
    obtain ⟨i, j, k, l, rfl, rfl, h1, h2⟩ := g
    exact (exact_leaf h.1 h1).mul (exact_leaf h.2 h2) lo hi hK

end X

/-- error of everything a compiler may compute instead of `s` -/
theorem Reassoc.err {s t : X} (h : Reassoc s t) (hf : s.flat = true) (n : ℕ) (hn : s.ops ≤ n) (hn' : n ≤ 8) {x B : ℝ} (hx : s.real = x)
    (hB : s.mag ≤ B) (hm : s.muls ≤ 8) : F32.Err t.run x (γ n) B (1 / 2 ^ 146) := by
  obtain ⟨h1, h2, h3, h4, -, h6⟩ := h.same
  intro fin
  have hu : (n : ℝ) ≤ 8 := by exact_mod_cast hn'
  refine (X.near (h6 ▸ hf)).bound fin n (h3 ▸ hn) ?_ (h1 ▸ hx) (h2 ▸ hB) ?_
  · unfold ur; norm_num; linarith
  · have a : (1 + ur) ^ t.ops ≤ (1 + ur) ^ 8 := pow_le_pow_right₀ (by linarith [ur_pos]) (by omega)
    have b : ((t.muls : ℕ) : ℝ) ≤ 8 := by exact_mod_cast h4 ▸ hm
    have c := mul_le_mul a b (by positivity) (by positivity)
    have d := mul_le_mul_of_nonneg_right c ηr_pos.le
    refine d.trans ?_
    norm_num [ur, ηr]

theorem Reassoc.exact {s t : X} (h : Reassoc s t) (hf : s.flat = true) {e : ℤ} {K L : ℕ} (g : s.Grid e K) (hL : K ≤ L) (h' : L ≤ 2 ^ 24)
    (lo : -149 ≤ e) (hi : e ≤ 103) {x : ℝ} (hx : s.real = x) {e' : ℤ} (he : e = e') : F32.Exact t.run x e' L := by
  obtain ⟨h1, -, -, -, -, h6⟩ := h.same
  exact (X.exact (h6 ▸ hf) ((h.grid e K).mp g) (hL.trans h') lo hi).to (h1 ▸ hx) he hL

namespace X
theorem Grid.of {v : F32} {e : ℤ} {K : ℕ} (h : v.On e K) : (X.inp v).Grid e K := h
theorem Grid.minus {a : X} {e : ℤ} {K : ℕ} (h : a.Grid e K) : (-a).Grid e K := h
theorem Grid.plus {a b : X} {e : ℤ} {K L : ℕ} (ha : a.Grid e K) (hb : b.Grid e L) : (a + b).Grid e (K + L) := ⟨K, L, rfl, ha, hb⟩
theorem Grid.less {a b : X} {e : ℤ} {K L : ℕ} (ha : a.Grid e K) (hb : b.Grid e L) : (a - b).Grid e (K + L) := ⟨K, L, rfl, ha, hb⟩
theorem Grid.times {a b : X} {i j : ℤ} {K L : ℕ} (ha : a.Grid i K) (hb : b.Grid j L) : (a * b).Grid (i + j) (K * L) := ⟨i, j, K, L, rfl, rfl, ha, hb⟩
end X

/-- the components of a vector, each computed in some order -/
def V2.Reassoc (s t : V2 X) : Prop := Cglm.Reassoc s.x t.x ∧ Cglm.Reassoc s.y t.y
@[inherit_doc V2.Reassoc] def V3.Reassoc (s t : V3 X) : Prop := Cglm.Reassoc s.x t.x ∧ Cglm.Reassoc s.y t.y ∧ Cglm.Reassoc s.z t.z
@[inherit_doc V2.Reassoc] def V4.Reassoc (s t : V4 X) : Prop :=
  Cglm.Reassoc s.x t.x ∧ Cglm.Reassoc s.y t.y ∧ Cglm.Reassoc s.z t.z ∧ Cglm.Reassoc s.w t.w
@[inherit_doc V2.Reassoc] def M2.Reassoc (s t : M2 X) : Prop := s.c0.Reassoc t.c0 ∧ s.c1.Reassoc t.c1
@[inherit_doc V2.Reassoc] def M3.Reassoc (s t : M3 X) : Prop := s.c0.Reassoc t.c0 ∧ s.c1.Reassoc t.c1 ∧ s.c2.Reassoc t.c2
@[inherit_doc V2.Reassoc] def M4.Reassoc (s t : M4 X) : Prop :=
  s.c0.Reassoc t.c0 ∧ s.c1.Reassoc t.c1 ∧ s.c2.Reassoc t.c2 ∧ s.c3.Reassoc t.c3

/-- error bound of a scalar expression with `n` operations, computed in any order -/
macro "errx" n:num : tactic => `(tactic|
  (refine Reassoc.err (by assumption) rfl $n (Nat.le_of_ble_eq_true rfl) (Nat.le_of_ble_eq_true rfl) ?_ ?_ (Nat.le_of_ble_eq_true rfl)
   · first | rfl | (simp only [X.real]; ring)
   · first | exact le_rfl | (apply le_of_eq; simp only [X.mag, F32.mag]; ring)))

/-- exactness of a scalar expression, computed in any order -/
macro "gridx" : tactic => `(tactic|
  (refine Reassoc.exact (by assumption) rfl (by
      repeat' first
        | with_reducible apply X.Grid.plus
        | with_reducible apply X.Grid.less
        | with_reducible apply X.Grid.times
        | with_reducible apply X.Grid.minus
        | (with_reducible apply X.Grid.of; assumption)) ?_ ?_ ?_ ?_ ?_ ?_ <;>
    first | rfl | omega | (simp only [X.real]; ring) | fail "gridx"))

end Cglm
