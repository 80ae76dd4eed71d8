import Verif.F32Map
import Verif.DefdAttr

/-!
# Real arithmetic in which undefined operations are visible

Lean's real numbers make division and `sqrt` total (`x / 0 = 0`).  `Dfd` is ℝ with one more value, the
result of an operation that has no real value: division by zero, `sqrtf` of a negative number, `asinf` or
`acosf` outside [-1, 1], `tanf` at a zero of the cosine, `atan2f(0, 0)`, `fmodf` by zero, `powf` outside its
domain.  In C these raise a domain or pole error and give NaN or an infinity.  Undefined values propagate.
A comparison with an undefined value gives whatever the oracle `o` says; theorems hold for every oracle, so they
do not depend on what an infinity or a NaN would do in a branch.

The generated definitions are generic in the scalar type, so they run over `Dfd o` without change.
-/

namespace Cglm

/-- Results of comparisons in which an operand is undefined. -/
abbrev Orc := Option ℝ → Option ℝ → Bool

/-- A real number, or undefined. -/
def Dfd (_ : Orc) : Type := Option ℝ

namespace Dfd

variable {o : Orc}

/-- a defined value -/
def ret (x : ℝ) : Dfd o := some x
/-- the undefined value -/
def undef : Dfd o := none
/-- the value is defined -/
def IsDef (a : Dfd o) : Prop := ∃ x : ℝ, a = ret x

/-- apply a partial function of one argument -/
noncomputable def lift1 (p : ℝ → Prop) (f : ℝ → ℝ) : Dfd o → Dfd o
  | some x => open Classical in if p x then some (f x) else none
  | none => none
/-- apply a partial function of two arguments -/
noncomputable def lift2 (p : ℝ → ℝ → Prop) (f : ℝ → ℝ → ℝ) : Dfd o → Dfd o → Dfd o
  | some x, some y => open Classical in if p x y then some (f x y) else none
  | _, _ => none
/-- compare -/
def cmp (f : ℝ → ℝ → Bool) : Dfd o → Dfd o → Bool
  | some x, some y => f x y
  | a, b => o a b

noncomputable instance : Add (Dfd o) := ⟨lift2 (fun _ _ => True) (· + ·)⟩
noncomputable instance : Sub (Dfd o) := ⟨lift2 (fun _ _ => True) (· - ·)⟩
noncomputable instance : Mul (Dfd o) := ⟨lift2 (fun _ _ => True) (· * ·)⟩
noncomputable instance : Neg (Dfd o) := ⟨lift1 (fun _ => True) (- ·)⟩
noncomputable instance : Div (Dfd o) := ⟨lift2 (fun _ y => y ≠ 0) (· / ·)⟩

noncomputable instance : CFloat (Dfd o) where
  lit q := some (lit q)
  flt := cmp flt
  fle := cmp fle
  feq := cmp feq
  sqrtf := lift1 (fun x => 0 ≤ x) sqrtf
  sinf := lift1 (fun _ => True) sinf
  cosf := lift1 (fun _ => True) cosf
  tanf := lift1 (fun x => Real.cos x ≠ 0) tanf
  asinf := lift1 (fun x => -1 ≤ x ∧ x ≤ 1) asinf
  acosf := lift1 (fun x => -1 ≤ x ∧ x ≤ 1) acosf
  atanf := lift1 (fun _ => True) atanf
  atan2f := lift2 (fun y x => ¬ (y = 0 ∧ x = 0)) atan2f
  floorf := lift1 (fun _ => True) floorf
  fabsf := lift1 (fun _ => True) fabsf
  fmodf := lift2 (fun _ y => y ≠ 0) fmodf
  powf := lift2 (fun x y => 0 < x ∨ (x = 0 ∧ 0 ≤ y) ∨ (x < 0 ∧ ∃ n : ℤ, y = n)) powf
  fminf := lift2 (fun _ _ => True) fminf
  modfFrac := lift1 (fun _ => True) modfFrac
  isnanf a := match a with | some x => isnanf x | none => o none none
  isinff a := match a with | some x => isinff x | none => o none none

theorem ret_injective : Function.Injective (ret (o := o)) := fun _ _ h => Option.some.inj h
theorem ret_ne_undef (x : ℝ) : (ret x : Dfd o) ≠ undef := Option.some_ne_none x
theorem lift1_ret {p : ℝ → Prop} {f : ℝ → ℝ} {x : ℝ} (h : p x) : lift1 p f (ret x : Dfd o) = ret (f x) := if_pos h
theorem lift2_ret {p : ℝ → ℝ → Prop} {f : ℝ → ℝ → ℝ} {x y : ℝ} (h : p x y) :
    lift2 p f (ret x : Dfd o) (ret y) = ret (f x y) := if_pos h
theorem lift1_undef {p : ℝ → Prop} {f : ℝ → ℝ} {x : ℝ} (h : ¬ p x) : lift1 p f (ret x : Dfd o) = undef := if_neg h
theorem lift2_undef {p : ℝ → ℝ → Prop} {f : ℝ → ℝ → ℝ} {x y : ℝ} (h : ¬ p x y) :
    lift2 p f (ret x : Dfd o) (ret y) = undef := if_neg h

@[dfd] theorem ret_add (a b : ℝ) : (ret a + ret b : Dfd o) = ret (a + b) := lift2_ret trivial
@[dfd] theorem ret_sub (a b : ℝ) : (ret a - ret b : Dfd o) = ret (a - b) := lift2_ret trivial
@[dfd] theorem ret_mul (a b : ℝ) : (ret a * ret b : Dfd o) = ret (a * b) := lift2_ret trivial
@[dfd] theorem ret_neg (a : ℝ) : (-ret a : Dfd o) = ret (-a) := lift1_ret trivial
@[dfd] theorem ret_div (a b : ℝ) (h : b ≠ 0) : (ret a / ret b : Dfd o) = ret (a / b) := lift2_ret h
@[dfd] theorem ret_lit (q : ℚ) : (lit q : Dfd o) = ret (lit q) := id rfl
@[dfd] theorem ret_flt (a b : ℝ) : flt (ret a : Dfd o) (ret b) = flt a b := id rfl
@[dfd] theorem ret_fle (a b : ℝ) : fle (ret a : Dfd o) (ret b) = fle a b := id rfl
@[dfd] theorem ret_feq (a b : ℝ) : feq (ret a : Dfd o) (ret b) = feq a b := id rfl
@[dfd] theorem ret_sqrtf (a : ℝ) (h : 0 ≤ a) : sqrtf (ret a : Dfd o) = ret (sqrtf a) := lift1_ret h
@[dfd] theorem ret_sinf (a : ℝ) : sinf (ret a : Dfd o) = ret (sinf a) := lift1_ret trivial
@[dfd] theorem ret_cosf (a : ℝ) : cosf (ret a : Dfd o) = ret (cosf a) := lift1_ret trivial
@[dfd] theorem ret_tanf (a : ℝ) (h : cosf a ≠ 0) : tanf (ret a : Dfd o) = ret (tanf a) := lift1_ret h
@[dfd] theorem ret_asinf (a : ℝ) (h : -1 ≤ a) (g : a ≤ 1) : asinf (ret a : Dfd o) = ret (asinf a) := lift1_ret (p := fun x => -1 ≤ x ∧ x ≤ 1) ⟨h, g⟩
@[dfd] theorem ret_acosf (a : ℝ) (h : -1 ≤ a) (g : a ≤ 1) : acosf (ret a : Dfd o) = ret (acosf a) := lift1_ret (p := fun x => -1 ≤ x ∧ x ≤ 1) ⟨h, g⟩
@[dfd] theorem ret_atanf (a : ℝ) : atanf (ret a : Dfd o) = ret (atanf a) := lift1_ret trivial
@[dfd] theorem ret_atan2f (a b : ℝ) (h : ¬ (a = 0 ∧ b = 0)) : atan2f (ret a : Dfd o) (ret b) = ret (atan2f a b) := lift2_ret (p := fun y x => ¬ (y = 0 ∧ x = 0)) h
@[dfd] theorem ret_floorf (a : ℝ) : floorf (ret a : Dfd o) = ret (floorf a) := lift1_ret trivial
@[dfd] theorem ret_fabsf (a : ℝ) : fabsf (ret a : Dfd o) = ret (fabsf a) := lift1_ret trivial
@[dfd] theorem ret_fmodf (a b : ℝ) (h : b ≠ 0) : fmodf (ret a : Dfd o) (ret b) = ret (fmodf a b) := lift2_ret h
@[dfd] theorem ret_ofInt (i : Int) : (ofInt i : Dfd o) = ret (ofInt i) := id rfl
theorem ret_powf (a b : ℝ) (h : 0 < a ∨ (a = 0 ∧ 0 ≤ b) ∨ (a < 0 ∧ ∃ n : ℤ, b = n)) :
    powf (ret a : Dfd o) (ret b) = ret (powf a b) :=
  lift2_ret (p := fun x y => 0 < x ∨ (x = 0 ∧ 0 ≤ y) ∨ (x < 0 ∧ ∃ n : ℤ, y = n)) h
@[dfd] theorem ret_powf_pos (a b : ℝ) (h : 0 < a) : powf (ret a : Dfd o) (ret b) = ret (powf a b) :=
  ret_powf a b (Or.inl h)

@[dfd] theorem ret_fminf (a b : ℝ) : fminf (ret a : Dfd o) (ret b) = ret (fminf a b) := lift2_ret trivial
@[dfd] theorem ret_modfFrac (a : ℝ) : modfFrac (ret a : Dfd o) = ret (modfFrac a) := lift1_ret trivial
@[dfd] theorem ret_isnanf (a : ℝ) : isnanf (ret a : Dfd o) = isnanf a := id rfl
@[dfd] theorem ret_isinff (a : ℝ) : isinff (ret a : Dfd o) = isinff a := id rfl

/-- division by zero is undefined -/
theorem div_zero' (a : ℝ) : (ret a / ret 0 : Dfd o) = undef := lift2_undef (by simp)
theorem undef_div (a : Dfd o) : (undef / a : Dfd o) = undef := by cases a <;> rfl
theorem div_undef (a : Dfd o) : (a / undef : Dfd o) = undef := by cases a <;> rfl
theorem undef_mul (a : Dfd o) : (undef * a : Dfd o) = undef := by cases a <;> rfl
theorem mul_undef (a : Dfd o) : (a * undef : Dfd o) = undef := by cases a <;> rfl
theorem undef_add (a : Dfd o) : (undef + a : Dfd o) = undef := by cases a <;> rfl
theorem add_undef (a : Dfd o) : (a + undef : Dfd o) = undef := by cases a <;> rfl
theorem undef_sub (a : Dfd o) : (undef - a : Dfd o) = undef := by cases a <;> rfl
theorem sub_undef (a : Dfd o) : (a - undef : Dfd o) = undef := by cases a <;> rfl

theorem lit_ne_zero {q : ℚ} (h : q ≠ 0) : (lit q : ℝ) ≠ 0 := by rw [lit_real]; exact_mod_cast h

@[dfd] theorem ret_ite (c : Prop) [Decidable c] (a b : ℝ) :
    (if c then (ret a : Dfd o) else ret b) = ret (if c then a else b) := by split <;> rfl

end Dfd

open Dfd

variable {α β : Type} {o : Orc}

/-- apply a function to every component -/
def V6.map (f : α → β) (v : V6 α) : V6 β := ⟨f v.e0, f v.e1, f v.e2, f v.e3, f v.e4, f v.e5⟩
/-- apply a function to every component -/
def V8.map (f : α → β) (v : V8 α) : V8 β := ⟨f v.e0, f v.e1, f v.e2, f v.e3, f v.e4, f v.e5, f v.e6, f v.e7⟩
/-- apply a function to every component -/
def V9.map (f : α → β) (v : V9 α) : V9 β := ⟨f v.e0, f v.e1, f v.e2, f v.e3, f v.e4, f v.e5, f v.e6, f v.e7, f v.e8⟩
/-- apply a function to every component -/
def V12.map (f : α → β) (v : V12 α) : V12 β := ⟨f v.e0, f v.e1, f v.e2, f v.e3, f v.e4, f v.e5, f v.e6, f v.e7, f v.e8, f v.e9, f v.e10, f v.e11⟩
/-- apply a function to every component -/
def V16.map (f : α → β) (v : V16 α) : V16 β := ⟨f v.e0, f v.e1, f v.e2, f v.e3, f v.e4, f v.e5, f v.e6, f v.e7, f v.e8, f v.e9, f v.e10, f v.e11, f v.e12, f v.e13, f v.e14, f v.e15⟩
/-- apply a function to every entry -/
def M6x4.map (f : α → β) (m : M6x4 α) : M6x4 β := ⟨m.c0.map f, m.c1.map f, m.c2.map f, m.c3.map f, m.c4.map f, m.c5.map f⟩
/-- apply a function to every entry -/
def M8x4.map (f : α → β) (m : M8x4 α) : M8x4 β := ⟨m.c0.map f, m.c1.map f, m.c2.map f, m.c3.map f, m.c4.map f, m.c5.map f, m.c6.map f, m.c7.map f⟩

@[dfd] theorem V2.mk_ret (a b : ℝ) : (⟨ret a, ret b⟩ : V2 (Dfd o)) = V2.map ret ⟨a, b⟩ := id rfl
@[dfd] theorem V2.map_x (v : V2 ℝ) : (V2.map (ret (o := o)) v).x = ret v.x := id rfl
@[dfd] theorem V2.map_y (v : V2 ℝ) : (V2.map (ret (o := o)) v).y = ret v.y := id rfl
@[dfd] theorem V3.mk_ret (a b c : ℝ) : (⟨ret a, ret b, ret c⟩ : V3 (Dfd o)) = V3.map ret ⟨a, b, c⟩ := id rfl
@[dfd] theorem V3.map_x (v : V3 ℝ) : (V3.map (ret (o := o)) v).x = ret v.x := id rfl
@[dfd] theorem V3.map_y (v : V3 ℝ) : (V3.map (ret (o := o)) v).y = ret v.y := id rfl
@[dfd] theorem V3.map_z (v : V3 ℝ) : (V3.map (ret (o := o)) v).z = ret v.z := id rfl
@[dfd] theorem V4.mk_ret (a b c d : ℝ) : (⟨ret a, ret b, ret c, ret d⟩ : V4 (Dfd o)) = V4.map ret ⟨a, b, c, d⟩ := id rfl
@[dfd] theorem V4.map_x (v : V4 ℝ) : (V4.map (ret (o := o)) v).x = ret v.x := id rfl
@[dfd] theorem V4.map_y (v : V4 ℝ) : (V4.map (ret (o := o)) v).y = ret v.y := id rfl
@[dfd] theorem V4.map_z (v : V4 ℝ) : (V4.map (ret (o := o)) v).z = ret v.z := id rfl
@[dfd] theorem V4.map_w (v : V4 ℝ) : (V4.map (ret (o := o)) v).w = ret v.w := id rfl
@[dfd] theorem V6.mk_ret (a b c d e f : ℝ) : (⟨ret a, ret b, ret c, ret d, ret e, ret f⟩ : V6 (Dfd o)) = V6.map ret ⟨a, b, c, d, e, f⟩ := id rfl
@[dfd] theorem V6.map_e0 (v : V6 ℝ) : (V6.map (ret (o := o)) v).e0 = ret v.e0 := id rfl
@[dfd] theorem V6.map_e1 (v : V6 ℝ) : (V6.map (ret (o := o)) v).e1 = ret v.e1 := id rfl
@[dfd] theorem V6.map_e2 (v : V6 ℝ) : (V6.map (ret (o := o)) v).e2 = ret v.e2 := id rfl
@[dfd] theorem V6.map_e3 (v : V6 ℝ) : (V6.map (ret (o := o)) v).e3 = ret v.e3 := id rfl
@[dfd] theorem V6.map_e4 (v : V6 ℝ) : (V6.map (ret (o := o)) v).e4 = ret v.e4 := id rfl
@[dfd] theorem V6.map_e5 (v : V6 ℝ) : (V6.map (ret (o := o)) v).e5 = ret v.e5 := id rfl
@[dfd] theorem V8.mk_ret (a b c d e f g h : ℝ) : (⟨ret a, ret b, ret c, ret d, ret e, ret f, ret g, ret h⟩ : V8 (Dfd o)) = V8.map ret ⟨a, b, c, d, e, f, g, h⟩ := id rfl
@[dfd] theorem V8.map_e0 (v : V8 ℝ) : (V8.map (ret (o := o)) v).e0 = ret v.e0 := id rfl
@[dfd] theorem V8.map_e1 (v : V8 ℝ) : (V8.map (ret (o := o)) v).e1 = ret v.e1 := id rfl
@[dfd] theorem V8.map_e2 (v : V8 ℝ) : (V8.map (ret (o := o)) v).e2 = ret v.e2 := id rfl
@[dfd] theorem V8.map_e3 (v : V8 ℝ) : (V8.map (ret (o := o)) v).e3 = ret v.e3 := id rfl
@[dfd] theorem V8.map_e4 (v : V8 ℝ) : (V8.map (ret (o := o)) v).e4 = ret v.e4 := id rfl
@[dfd] theorem V8.map_e5 (v : V8 ℝ) : (V8.map (ret (o := o)) v).e5 = ret v.e5 := id rfl
@[dfd] theorem V8.map_e6 (v : V8 ℝ) : (V8.map (ret (o := o)) v).e6 = ret v.e6 := id rfl
@[dfd] theorem V8.map_e7 (v : V8 ℝ) : (V8.map (ret (o := o)) v).e7 = ret v.e7 := id rfl
@[dfd] theorem V9.mk_ret (a b c d e f g h i : ℝ) : (⟨ret a, ret b, ret c, ret d, ret e, ret f, ret g, ret h, ret i⟩ : V9 (Dfd o)) = V9.map ret ⟨a, b, c, d, e, f, g, h, i⟩ := id rfl
@[dfd] theorem V9.map_e0 (v : V9 ℝ) : (V9.map (ret (o := o)) v).e0 = ret v.e0 := id rfl
@[dfd] theorem V9.map_e1 (v : V9 ℝ) : (V9.map (ret (o := o)) v).e1 = ret v.e1 := id rfl
@[dfd] theorem V9.map_e2 (v : V9 ℝ) : (V9.map (ret (o := o)) v).e2 = ret v.e2 := id rfl
@[dfd] theorem V9.map_e3 (v : V9 ℝ) : (V9.map (ret (o := o)) v).e3 = ret v.e3 := id rfl
@[dfd] theorem V9.map_e4 (v : V9 ℝ) : (V9.map (ret (o := o)) v).e4 = ret v.e4 := id rfl
@[dfd] theorem V9.map_e5 (v : V9 ℝ) : (V9.map (ret (o := o)) v).e5 = ret v.e5 := id rfl
@[dfd] theorem V9.map_e6 (v : V9 ℝ) : (V9.map (ret (o := o)) v).e6 = ret v.e6 := id rfl
@[dfd] theorem V9.map_e7 (v : V9 ℝ) : (V9.map (ret (o := o)) v).e7 = ret v.e7 := id rfl
@[dfd] theorem V9.map_e8 (v : V9 ℝ) : (V9.map (ret (o := o)) v).e8 = ret v.e8 := id rfl
@[dfd] theorem V12.mk_ret (a b c d e f g h i j k l : ℝ) : (⟨ret a, ret b, ret c, ret d, ret e, ret f, ret g, ret h, ret i, ret j, ret k, ret l⟩ : V12 (Dfd o)) = V12.map ret ⟨a, b, c, d, e, f, g, h, i, j, k, l⟩ := id rfl
@[dfd] theorem V12.map_e0 (v : V12 ℝ) : (V12.map (ret (o := o)) v).e0 = ret v.e0 := id rfl
@[dfd] theorem V12.map_e1 (v : V12 ℝ) : (V12.map (ret (o := o)) v).e1 = ret v.e1 := id rfl
@[dfd] theorem V12.map_e2 (v : V12 ℝ) : (V12.map (ret (o := o)) v).e2 = ret v.e2 := id rfl
@[dfd] theorem V12.map_e3 (v : V12 ℝ) : (V12.map (ret (o := o)) v).e3 = ret v.e3 := id rfl
@[dfd] theorem V12.map_e4 (v : V12 ℝ) : (V12.map (ret (o := o)) v).e4 = ret v.e4 := id rfl
@[dfd] theorem V12.map_e5 (v : V12 ℝ) : (V12.map (ret (o := o)) v).e5 = ret v.e5 := id rfl
@[dfd] theorem V12.map_e6 (v : V12 ℝ) : (V12.map (ret (o := o)) v).e6 = ret v.e6 := id rfl
@[dfd] theorem V12.map_e7 (v : V12 ℝ) : (V12.map (ret (o := o)) v).e7 = ret v.e7 := id rfl
@[dfd] theorem V12.map_e8 (v : V12 ℝ) : (V12.map (ret (o := o)) v).e8 = ret v.e8 := id rfl
@[dfd] theorem V12.map_e9 (v : V12 ℝ) : (V12.map (ret (o := o)) v).e9 = ret v.e9 := id rfl
@[dfd] theorem V12.map_e10 (v : V12 ℝ) : (V12.map (ret (o := o)) v).e10 = ret v.e10 := id rfl
@[dfd] theorem V12.map_e11 (v : V12 ℝ) : (V12.map (ret (o := o)) v).e11 = ret v.e11 := id rfl
@[dfd] theorem V16.mk_ret (a b c d e f g h i j k l m n p q : ℝ) : (⟨ret a, ret b, ret c, ret d, ret e, ret f, ret g, ret h, ret i, ret j, ret k, ret l, ret m, ret n, ret p, ret q⟩ : V16 (Dfd o)) = V16.map ret ⟨a, b, c, d, e, f, g, h, i, j, k, l, m, n, p, q⟩ := id rfl
@[dfd] theorem V16.map_e0 (v : V16 ℝ) : (V16.map (ret (o := o)) v).e0 = ret v.e0 := id rfl
@[dfd] theorem V16.map_e1 (v : V16 ℝ) : (V16.map (ret (o := o)) v).e1 = ret v.e1 := id rfl
@[dfd] theorem V16.map_e2 (v : V16 ℝ) : (V16.map (ret (o := o)) v).e2 = ret v.e2 := id rfl
@[dfd] theorem V16.map_e3 (v : V16 ℝ) : (V16.map (ret (o := o)) v).e3 = ret v.e3 := id rfl
@[dfd] theorem V16.map_e4 (v : V16 ℝ) : (V16.map (ret (o := o)) v).e4 = ret v.e4 := id rfl
@[dfd] theorem V16.map_e5 (v : V16 ℝ) : (V16.map (ret (o := o)) v).e5 = ret v.e5 := id rfl
@[dfd] theorem V16.map_e6 (v : V16 ℝ) : (V16.map (ret (o := o)) v).e6 = ret v.e6 := id rfl
@[dfd] theorem V16.map_e7 (v : V16 ℝ) : (V16.map (ret (o := o)) v).e7 = ret v.e7 := id rfl
@[dfd] theorem V16.map_e8 (v : V16 ℝ) : (V16.map (ret (o := o)) v).e8 = ret v.e8 := id rfl
@[dfd] theorem V16.map_e9 (v : V16 ℝ) : (V16.map (ret (o := o)) v).e9 = ret v.e9 := id rfl
@[dfd] theorem V16.map_e10 (v : V16 ℝ) : (V16.map (ret (o := o)) v).e10 = ret v.e10 := id rfl
@[dfd] theorem V16.map_e11 (v : V16 ℝ) : (V16.map (ret (o := o)) v).e11 = ret v.e11 := id rfl
@[dfd] theorem V16.map_e12 (v : V16 ℝ) : (V16.map (ret (o := o)) v).e12 = ret v.e12 := id rfl
@[dfd] theorem V16.map_e13 (v : V16 ℝ) : (V16.map (ret (o := o)) v).e13 = ret v.e13 := id rfl
@[dfd] theorem V16.map_e14 (v : V16 ℝ) : (V16.map (ret (o := o)) v).e14 = ret v.e14 := id rfl
@[dfd] theorem V16.map_e15 (v : V16 ℝ) : (V16.map (ret (o := o)) v).e15 = ret v.e15 := id rfl
@[dfd] theorem M2.mk_ret (a b : V2 ℝ) : (⟨a.map ret, b.map ret⟩ : M2 (Dfd o)) = M2.map ret ⟨a, b⟩ := id rfl
@[dfd] theorem M2.map_c0 (m : M2 ℝ) : (M2.map (ret (o := o)) m).c0 = m.c0.map ret := id rfl
@[dfd] theorem M2.map_c1 (m : M2 ℝ) : (M2.map (ret (o := o)) m).c1 = m.c1.map ret := id rfl
@[dfd] theorem M3.mk_ret (a b c : V3 ℝ) : (⟨a.map ret, b.map ret, c.map ret⟩ : M3 (Dfd o)) = M3.map ret ⟨a, b, c⟩ := id rfl
@[dfd] theorem M3.map_c0 (m : M3 ℝ) : (M3.map (ret (o := o)) m).c0 = m.c0.map ret := id rfl
@[dfd] theorem M3.map_c1 (m : M3 ℝ) : (M3.map (ret (o := o)) m).c1 = m.c1.map ret := id rfl
@[dfd] theorem M3.map_c2 (m : M3 ℝ) : (M3.map (ret (o := o)) m).c2 = m.c2.map ret := id rfl
@[dfd] theorem M4.mk_ret (a b c d : V4 ℝ) : (⟨a.map ret, b.map ret, c.map ret, d.map ret⟩ : M4 (Dfd o)) = M4.map ret ⟨a, b, c, d⟩ := id rfl
@[dfd] theorem M4.map_c0 (m : M4 ℝ) : (M4.map (ret (o := o)) m).c0 = m.c0.map ret := id rfl
@[dfd] theorem M4.map_c1 (m : M4 ℝ) : (M4.map (ret (o := o)) m).c1 = m.c1.map ret := id rfl
@[dfd] theorem M4.map_c2 (m : M4 ℝ) : (M4.map (ret (o := o)) m).c2 = m.c2.map ret := id rfl
@[dfd] theorem M4.map_c3 (m : M4 ℝ) : (M4.map (ret (o := o)) m).c3 = m.c3.map ret := id rfl
@[dfd] theorem M2x3.mk_ret (a b : V3 ℝ) : (⟨a.map ret, b.map ret⟩ : M2x3 (Dfd o)) = M2x3.map ret ⟨a, b⟩ := id rfl
@[dfd] theorem M2x3.map_c0 (m : M2x3 ℝ) : (M2x3.map (ret (o := o)) m).c0 = m.c0.map ret := id rfl
@[dfd] theorem M2x3.map_c1 (m : M2x3 ℝ) : (M2x3.map (ret (o := o)) m).c1 = m.c1.map ret := id rfl
@[dfd] theorem M2x4.mk_ret (a b : V4 ℝ) : (⟨a.map ret, b.map ret⟩ : M2x4 (Dfd o)) = M2x4.map ret ⟨a, b⟩ := id rfl
@[dfd] theorem M2x4.map_c0 (m : M2x4 ℝ) : (M2x4.map (ret (o := o)) m).c0 = m.c0.map ret := id rfl
@[dfd] theorem M2x4.map_c1 (m : M2x4 ℝ) : (M2x4.map (ret (o := o)) m).c1 = m.c1.map ret := id rfl
@[dfd] theorem M3x2.mk_ret (a b c : V2 ℝ) : (⟨a.map ret, b.map ret, c.map ret⟩ : M3x2 (Dfd o)) = M3x2.map ret ⟨a, b, c⟩ := id rfl
@[dfd] theorem M3x2.map_c0 (m : M3x2 ℝ) : (M3x2.map (ret (o := o)) m).c0 = m.c0.map ret := id rfl
@[dfd] theorem M3x2.map_c1 (m : M3x2 ℝ) : (M3x2.map (ret (o := o)) m).c1 = m.c1.map ret := id rfl
@[dfd] theorem M3x2.map_c2 (m : M3x2 ℝ) : (M3x2.map (ret (o := o)) m).c2 = m.c2.map ret := id rfl
@[dfd] theorem M3x4.mk_ret (a b c : V4 ℝ) : (⟨a.map ret, b.map ret, c.map ret⟩ : M3x4 (Dfd o)) = M3x4.map ret ⟨a, b, c⟩ := id rfl
@[dfd] theorem M3x4.map_c0 (m : M3x4 ℝ) : (M3x4.map (ret (o := o)) m).c0 = m.c0.map ret := id rfl
@[dfd] theorem M3x4.map_c1 (m : M3x4 ℝ) : (M3x4.map (ret (o := o)) m).c1 = m.c1.map ret := id rfl
@[dfd] theorem M3x4.map_c2 (m : M3x4 ℝ) : (M3x4.map (ret (o := o)) m).c2 = m.c2.map ret := id rfl
@[dfd] theorem M4x2.mk_ret (a b c d : V2 ℝ) : (⟨a.map ret, b.map ret, c.map ret, d.map ret⟩ : M4x2 (Dfd o)) = M4x2.map ret ⟨a, b, c, d⟩ := id rfl
@[dfd] theorem M4x2.map_c0 (m : M4x2 ℝ) : (M4x2.map (ret (o := o)) m).c0 = m.c0.map ret := id rfl
@[dfd] theorem M4x2.map_c1 (m : M4x2 ℝ) : (M4x2.map (ret (o := o)) m).c1 = m.c1.map ret := id rfl
@[dfd] theorem M4x2.map_c2 (m : M4x2 ℝ) : (M4x2.map (ret (o := o)) m).c2 = m.c2.map ret := id rfl
@[dfd] theorem M4x2.map_c3 (m : M4x2 ℝ) : (M4x2.map (ret (o := o)) m).c3 = m.c3.map ret := id rfl
@[dfd] theorem M4x3.mk_ret (a b c d : V3 ℝ) : (⟨a.map ret, b.map ret, c.map ret, d.map ret⟩ : M4x3 (Dfd o)) = M4x3.map ret ⟨a, b, c, d⟩ := id rfl
@[dfd] theorem M4x3.map_c0 (m : M4x3 ℝ) : (M4x3.map (ret (o := o)) m).c0 = m.c0.map ret := id rfl
@[dfd] theorem M4x3.map_c1 (m : M4x3 ℝ) : (M4x3.map (ret (o := o)) m).c1 = m.c1.map ret := id rfl
@[dfd] theorem M4x3.map_c2 (m : M4x3 ℝ) : (M4x3.map (ret (o := o)) m).c2 = m.c2.map ret := id rfl
@[dfd] theorem M4x3.map_c3 (m : M4x3 ℝ) : (M4x3.map (ret (o := o)) m).c3 = m.c3.map ret := id rfl
@[dfd] theorem M6x4.mk_ret (a b c d e f : V4 ℝ) : (⟨a.map ret, b.map ret, c.map ret, d.map ret, e.map ret, f.map ret⟩ : M6x4 (Dfd o)) = M6x4.map ret ⟨a, b, c, d, e, f⟩ := id rfl
@[dfd] theorem M6x4.map_c0 (m : M6x4 ℝ) : (M6x4.map (ret (o := o)) m).c0 = m.c0.map ret := id rfl
@[dfd] theorem M6x4.map_c1 (m : M6x4 ℝ) : (M6x4.map (ret (o := o)) m).c1 = m.c1.map ret := id rfl
@[dfd] theorem M6x4.map_c2 (m : M6x4 ℝ) : (M6x4.map (ret (o := o)) m).c2 = m.c2.map ret := id rfl
@[dfd] theorem M6x4.map_c3 (m : M6x4 ℝ) : (M6x4.map (ret (o := o)) m).c3 = m.c3.map ret := id rfl
@[dfd] theorem M6x4.map_c4 (m : M6x4 ℝ) : (M6x4.map (ret (o := o)) m).c4 = m.c4.map ret := id rfl
@[dfd] theorem M6x4.map_c5 (m : M6x4 ℝ) : (M6x4.map (ret (o := o)) m).c5 = m.c5.map ret := id rfl
@[dfd] theorem M8x4.mk_ret (a b c d e f g h : V4 ℝ) : (⟨a.map ret, b.map ret, c.map ret, d.map ret, e.map ret, f.map ret, g.map ret, h.map ret⟩ : M8x4 (Dfd o)) = M8x4.map ret ⟨a, b, c, d, e, f, g, h⟩ := id rfl
@[dfd] theorem M8x4.map_c0 (m : M8x4 ℝ) : (M8x4.map (ret (o := o)) m).c0 = m.c0.map ret := id rfl
@[dfd] theorem M8x4.map_c1 (m : M8x4 ℝ) : (M8x4.map (ret (o := o)) m).c1 = m.c1.map ret := id rfl
@[dfd] theorem M8x4.map_c2 (m : M8x4 ℝ) : (M8x4.map (ret (o := o)) m).c2 = m.c2.map ret := id rfl
@[dfd] theorem M8x4.map_c3 (m : M8x4 ℝ) : (M8x4.map (ret (o := o)) m).c3 = m.c3.map ret := id rfl
@[dfd] theorem M8x4.map_c4 (m : M8x4 ℝ) : (M8x4.map (ret (o := o)) m).c4 = m.c4.map ret := id rfl
@[dfd] theorem M8x4.map_c5 (m : M8x4 ℝ) : (M8x4.map (ret (o := o)) m).c5 = m.c5.map ret := id rfl
@[dfd] theorem M8x4.map_c6 (m : M8x4 ℝ) : (M8x4.map (ret (o := o)) m).c6 = m.c6.map ret := id rfl
@[dfd] theorem M8x4.map_c7 (m : M8x4 ℝ) : (M8x4.map (ret (o := o)) m).c7 = m.c7.map ret := id rfl
@[dfd] theorem V2.map_ite (c : Prop) [Decidable c] (a b : V2 ℝ) :
    (if c then V2.map (ret (o := o)) a else V2.map ret b) = V2.map ret (if c then a else b) := by split <;> rfl
@[dfd] theorem V3.map_ite (c : Prop) [Decidable c] (a b : V3 ℝ) :
    (if c then V3.map (ret (o := o)) a else V3.map ret b) = V3.map ret (if c then a else b) := by split <;> rfl
@[dfd] theorem V4.map_ite (c : Prop) [Decidable c] (a b : V4 ℝ) :
    (if c then V4.map (ret (o := o)) a else V4.map ret b) = V4.map ret (if c then a else b) := by split <;> rfl
@[dfd] theorem V6.map_ite (c : Prop) [Decidable c] (a b : V6 ℝ) :
    (if c then V6.map (ret (o := o)) a else V6.map ret b) = V6.map ret (if c then a else b) := by split <;> rfl
@[dfd] theorem V8.map_ite (c : Prop) [Decidable c] (a b : V8 ℝ) :
    (if c then V8.map (ret (o := o)) a else V8.map ret b) = V8.map ret (if c then a else b) := by split <;> rfl
@[dfd] theorem V9.map_ite (c : Prop) [Decidable c] (a b : V9 ℝ) :
    (if c then V9.map (ret (o := o)) a else V9.map ret b) = V9.map ret (if c then a else b) := by split <;> rfl
@[dfd] theorem V12.map_ite (c : Prop) [Decidable c] (a b : V12 ℝ) :
    (if c then V12.map (ret (o := o)) a else V12.map ret b) = V12.map ret (if c then a else b) := by split <;> rfl
@[dfd] theorem V16.map_ite (c : Prop) [Decidable c] (a b : V16 ℝ) :
    (if c then V16.map (ret (o := o)) a else V16.map ret b) = V16.map ret (if c then a else b) := by split <;> rfl
@[dfd] theorem M2.map_ite (c : Prop) [Decidable c] (a b : M2 ℝ) :
    (if c then M2.map (ret (o := o)) a else M2.map ret b) = M2.map ret (if c then a else b) := by split <;> rfl
@[dfd] theorem M3.map_ite (c : Prop) [Decidable c] (a b : M3 ℝ) :
    (if c then M3.map (ret (o := o)) a else M3.map ret b) = M3.map ret (if c then a else b) := by split <;> rfl
@[dfd] theorem M4.map_ite (c : Prop) [Decidable c] (a b : M4 ℝ) :
    (if c then M4.map (ret (o := o)) a else M4.map ret b) = M4.map ret (if c then a else b) := by split <;> rfl
@[dfd] theorem M2x3.map_ite (c : Prop) [Decidable c] (a b : M2x3 ℝ) :
    (if c then M2x3.map (ret (o := o)) a else M2x3.map ret b) = M2x3.map ret (if c then a else b) := by split <;> rfl
@[dfd] theorem M2x4.map_ite (c : Prop) [Decidable c] (a b : M2x4 ℝ) :
    (if c then M2x4.map (ret (o := o)) a else M2x4.map ret b) = M2x4.map ret (if c then a else b) := by split <;> rfl
@[dfd] theorem M3x2.map_ite (c : Prop) [Decidable c] (a b : M3x2 ℝ) :
    (if c then M3x2.map (ret (o := o)) a else M3x2.map ret b) = M3x2.map ret (if c then a else b) := by split <;> rfl
@[dfd] theorem M3x4.map_ite (c : Prop) [Decidable c] (a b : M3x4 ℝ) :
    (if c then M3x4.map (ret (o := o)) a else M3x4.map ret b) = M3x4.map ret (if c then a else b) := by split <;> rfl
@[dfd] theorem M4x2.map_ite (c : Prop) [Decidable c] (a b : M4x2 ℝ) :
    (if c then M4x2.map (ret (o := o)) a else M4x2.map ret b) = M4x2.map ret (if c then a else b) := by split <;> rfl
@[dfd] theorem M4x3.map_ite (c : Prop) [Decidable c] (a b : M4x3 ℝ) :
    (if c then M4x3.map (ret (o := o)) a else M4x3.map ret b) = M4x3.map ret (if c then a else b) := by split <;> rfl
@[dfd] theorem M6x4.map_ite (c : Prop) [Decidable c] (a b : M6x4 ℝ) :
    (if c then M6x4.map (ret (o := o)) a else M6x4.map ret b) = M6x4.map ret (if c then a else b) := by split <;> rfl
@[dfd] theorem M8x4.map_ite (c : Prop) [Decidable c] (a b : M8x4 ℝ) :
    (if c then M8x4.map (ret (o := o)) a else M8x4.map ret b) = M8x4.map ret (if c then a else b) := by split <;> rfl

end Cglm
