import Verif.F32Err
import Verif.MatTac

/-!
# From binary32 vectors and matrices to real ones, and the statement of error bounds
-/

namespace Cglm

variable {α β : Type}

/-- apply a function to every component -/
def V2.map (f : α → β) (v : V2 α) : V2 β := ⟨f v.x, f v.y⟩
/-- apply a function to every component -/
def V3.map (f : α → β) (v : V3 α) : V3 β := ⟨f v.x, f v.y, f v.z⟩
/-- apply a function to every component -/
def V4.map (f : α → β) (v : V4 α) : V4 β := ⟨f v.x, f v.y, f v.z, f v.w⟩
/-- apply a function to every entry -/
def M2.map (f : α → β) (m : M2 α) : M2 β := ⟨m.c0.map f, m.c1.map f⟩
/-- apply a function to every entry -/
def M3.map (f : α → β) (m : M3 α) : M3 β := ⟨m.c0.map f, m.c1.map f, m.c2.map f⟩
/-- apply a function to every entry -/
def M4.map (f : α → β) (m : M4 α) : M4 β := ⟨m.c0.map f, m.c1.map f, m.c2.map f, m.c3.map f⟩
/-- apply a function to every entry -/
def M2x3.map (f : α → β) (m : M2x3 α) : M2x3 β := ⟨m.c0.map f, m.c1.map f⟩
/-- apply a function to every entry -/
def M2x4.map (f : α → β) (m : M2x4 α) : M2x4 β := ⟨m.c0.map f, m.c1.map f⟩
/-- apply a function to every entry -/
def M3x2.map (f : α → β) (m : M3x2 α) : M3x2 β := ⟨m.c0.map f, m.c1.map f, m.c2.map f⟩
/-- apply a function to every entry -/
def M3x4.map (f : α → β) (m : M3x4 α) : M3x4 β := ⟨m.c0.map f, m.c1.map f, m.c2.map f⟩
/-- apply a function to every entry -/
def M4x2.map (f : α → β) (m : M4x2 α) : M4x2 β := ⟨m.c0.map f, m.c1.map f, m.c2.map f, m.c3.map f⟩
/-- apply a function to every entry -/
def M4x3.map (f : α → β) (m : M4x3 α) : M4x3 β := ⟨m.c0.map f, m.c1.map f, m.c2.map f, m.c3.map f⟩

namespace F32

/-- magnitude of a number -/
noncomputable def mag (a : F32) : ℝ := |a.toReal|

/-- `f` computes `x` with error at most `c * B + e`, if it is finite -/
def Err (f : F32) (x : ℝ) (c B e : ℝ) : Prop := f.isFin = true → |f.toReal - x| ≤ c * B + e

end F32

open F32

/-- componentwise error bound -/
def V2.Err (f : V2 F32) (x : V2 ℝ) (c : ℝ) (B : V2 ℝ) (e : ℝ) : Prop :=
  F32.Err f.x x.x c B.x e ∧ F32.Err f.y x.y c B.y e
/-- componentwise error bound -/
def V3.Err (f : V3 F32) (x : V3 ℝ) (c : ℝ) (B : V3 ℝ) (e : ℝ) : Prop :=
  F32.Err f.x x.x c B.x e ∧ F32.Err f.y x.y c B.y e ∧ F32.Err f.z x.z c B.z e
/-- componentwise error bound -/
def V4.Err (f : V4 F32) (x : V4 ℝ) (c : ℝ) (B : V4 ℝ) (e : ℝ) : Prop :=
  F32.Err f.x x.x c B.x e ∧ F32.Err f.y x.y c B.y e ∧ F32.Err f.z x.z c B.z e ∧ F32.Err f.w x.w c B.w e
/-- entrywise error bound -/
def M2.Err (f : M2 F32) (x : M2 ℝ) (c : ℝ) (B : M2 ℝ) (e : ℝ) : Prop :=
  f.c0.Err x.c0 c B.c0 e ∧ f.c1.Err x.c1 c B.c1 e
/-- entrywise error bound -/
def M3.Err (f : M3 F32) (x : M3 ℝ) (c : ℝ) (B : M3 ℝ) (e : ℝ) : Prop :=
  f.c0.Err x.c0 c B.c0 e ∧ f.c1.Err x.c1 c B.c1 e ∧ f.c2.Err x.c2 c B.c2 e
/-- entrywise error bound -/
def M4.Err (f : M4 F32) (x : M4 ℝ) (c : ℝ) (B : M4 ℝ) (e : ℝ) : Prop :=
  f.c0.Err x.c0 c B.c0 e ∧ f.c1.Err x.c1 c B.c1 e ∧ f.c2.Err x.c2 c B.c2 e ∧ f.c3.Err x.c3 c B.c3 e

namespace F32

theorem Near.err {f : F32} {x M : ℝ} {k : ℕ} {e : ℝ} (h : Near f x M k e) (n : ℕ) (hk : k ≤ n) (hn : n * ur < 1)
    {X B E : ℝ} (hx : x = X) (hM : M ≤ B) (he : e ≤ E) : Err f X (γ n) B E :=
  fun hf => h.bound hf n hk hn hx hM he

theorem sqrtf_f32 [Libm] (a : F32) : sqrtf a = F32.sqrt a := rfl

theorem lit_f32 [Libm] (q : ℚ) : (lit q : F32) = F32.ofRat false q := rfl

/-- a literal of the C source is rounded once -/
theorem Near.lit [Libm] (q : ℚ) (h : (2 : ℚ) ^ (-126 : ℤ) ≤ |q|) : Near (lit q : F32) (q : ℝ) |(q : ℝ)| 1 0 := by
  intro hf
  have e := rnd_err_normal q h
  rw [← ofRat_val (s := false) (by rwa [← lit_f32])] at e
  refine ⟨?_, le_rfl, le_rfl⟩
  rw [pow_one, add_sub_cancel_left, add_zero, ur_eq, lit_f32]
  unfold toReal
  exact_mod_cast e

/-- derive an error bound for an expression in sums, differences and products -/
macro "near" : tactic => `(tactic| repeat' first
  | with_reducible apply Near.add
  | with_reducible apply Near.sub
  | with_reducible apply Near.mul
  | with_reducible apply Near.neg
  | with_reducible exact Near.lit _ (by norm_num)
  | with_reducible exact Near.var _)

/-- error bound of a scalar expression with `n` roundings -/
macro "err" n:num : tactic => `(tactic|
  (refine Near.err (by near) $n ?_ ?_ ?_ ?_ ?_
   · norm_num
   · norm_num [ur]
   · push_cast; ring
   · simp only [mag]; apply le_of_eq; push_cast; ring
   · norm_num [ur, ηr]))

/-! ### Absence of overflow -/

/-- finite and of magnitude at most `B` -/
def Fine (f : F32) (B : ℝ) : Prop := f.isFin = true ∧ |f.toReal| ≤ B

theorem Fine.isFin {f : F32} {B : ℝ} (h : Fine f B) : f.isFin = true := h.1

theorem abs_rnd_toReal (q : ℚ) {B : ℝ} (h : |((rnd q : ℚ) : ℝ)| ≤ B) (hB : B < 2 ^ 128) : |rnd q| < 2 ^ 128 := by
  have : ((|rnd q| : ℚ) : ℝ) < ((2 ^ 128 : ℚ) : ℝ) := by push_cast; exact lt_of_le_of_lt h hB
  exact_mod_cast this

theorem Fine.neg {f : F32} {B : ℝ} (h : Fine f B) : Fine (-f) B :=
  ⟨by rw [neg_isFin]; exact h.1, by rw [toReal_neg, abs_neg]; exact h.2⟩

theorem Fine.add {f g : F32} {A B : ℝ} (hf : Fine f A) (hg : Fine g B) (h : (A + B) * (1 + ur) < 2 ^ 128) :
    Fine (f + g) ((A + B) * (1 + ur)) := by
  have e := rnd_add_err (rep_val f) (rep_val g)
  have e' : |((rnd (f.val + g.val) : ℚ) : ℝ) - (f.toReal + g.toReal)| ≤ ur * |f.toReal + g.toReal| := by
    unfold toReal; rw [ur_eq]; exact_mod_cast e
  have t := abs_add_le f.toReal g.toReal
  have t2 := abs_add_le (((rnd (f.val + g.val) : ℚ) : ℝ) - (f.toReal + g.toReal)) (f.toReal + g.toReal)
  rw [sub_add_cancel] at t2
  have b : |((rnd (f.val + g.val) : ℚ) : ℝ)| ≤ (A + B) * (1 + ur) := by
    have := mul_le_mul_of_nonneg_left (t.trans (add_le_add hf.2 hg.2)) ur_pos.le
    linarith [hf.2, hg.2]
  have hfin := ((add_fin hf.1 hg.1).1).mpr (abs_rnd_toReal _ b h)
  exact ⟨hfin, by unfold toReal; rw [add_val hfin]; exact b⟩

theorem Fine.sub {f g : F32} {A B : ℝ} (hf : Fine f A) (hg : Fine g B) (h : (A + B) * (1 + ur) < 2 ^ 128) :
    Fine (f - g) ((A + B) * (1 + ur)) := hf.add hg.neg h

theorem Fine.mul {f g : F32} {A B : ℝ} (hf : Fine f A) (hg : Fine g B) (h : A * B * (1 + ur) + ηr < 2 ^ 128) :
    Fine (f * g) (A * B * (1 + ur) + ηr) := by
  have e := rnd_err (f.val * g.val)
  have e' : |((rnd (f.val * g.val) : ℚ) : ℝ) - (f.toReal * g.toReal)| ≤ ur * |f.toReal * g.toReal| + ηr := by
    unfold toReal; rw [ur_eq, ηr_eq]; exact_mod_cast e
  have t2 := abs_add_le (((rnd (f.val * g.val) : ℚ) : ℝ) - (f.toReal * g.toReal)) (f.toReal * g.toReal)
  rw [sub_add_cancel] at t2
  have t : |f.toReal * g.toReal| ≤ A * B := by
    rw [abs_mul]; exact mul_le_mul hf.2 hg.2 (abs_nonneg _) ((abs_nonneg _).trans hf.2)
  have b : |((rnd (f.val * g.val) : ℚ) : ℝ)| ≤ A * B * (1 + ur) + ηr := by
    have := mul_le_mul_of_nonneg_left t ur_pos.le
    linarith
  have hfin := ((mul_fin hf.1 hg.1).1).mpr (abs_rnd_toReal _ b h)
  exact ⟨hfin, by unfold toReal; rw [mul_val hfin]; exact b⟩

theorem Fine.sqrt {f : F32} (h : f.isFin = true) (h0 : 0 ≤ f.toReal) : (F32.sqrt f).isFin = true := by
  rcases f with _ | s | s | ⟨q, hq⟩
  · simp at h
  · simp at h
  · rfl
  · have : (0 : ℚ) ≤ q := by have : (0 : ℝ) ≤ (q : ℝ) := h0; exact_mod_cast this
    exact (sqrt_val hq (lt_of_le_of_ne this (Ne.symm hq.1))).1

theorem Fine.lit [Libm] (q : ℚ) (h : |(q : ℝ)| * (1 + ur) + ηr < 2 ^ 128) : Fine (lit q : F32) (|(q : ℝ)| * (1 + ur) + ηr) := by
  have e := rnd_err q
  have e' : |((rnd q : ℚ) : ℝ) - q| ≤ ur * |(q : ℝ)| + ηr := by
    rw [ur_eq, ηr_eq]; exact_mod_cast e
  have t2 := abs_add_le (((rnd q : ℚ) : ℝ) - q) (q : ℝ)
  rw [sub_add_cancel] at t2
  have b : |((rnd q : ℚ) : ℝ)| ≤ |(q : ℝ)| * (1 + ur) + ηr := by linarith
  have hfin : (F32.ofRat false q).isFin = true := (ofRat_isFin _ _).mpr (abs_rnd_toReal _ b h)
  exact ⟨hfin, by rw [lit_f32]; unfold toReal; rw [ofRat_val hfin]; exact b⟩

/-- prove that an expression does not overflow, from bounds on its inputs in the context -/
macro "fine" : tactic => `(tactic| repeat' first
  | assumption
  | with_reducible apply Fine.add
  | with_reducible apply Fine.sub
  | with_reducible apply Fine.mul
  | with_reducible apply Fine.neg
  | with_reducible apply Fine.lit)

end F32

/-- every component finite and of magnitude at most `B` -/
def V2.Below (v : V2 F32) (B : ℝ) : Prop := Fine v.x B ∧ Fine v.y B
/-- every component finite and of magnitude at most `B` -/
def V3.Below (v : V3 F32) (B : ℝ) : Prop := Fine v.x B ∧ Fine v.y B ∧ Fine v.z B
/-- every component finite and of magnitude at most `B` -/
def V4.Below (v : V4 F32) (B : ℝ) : Prop := Fine v.x B ∧ Fine v.y B ∧ Fine v.z B ∧ Fine v.w B
/-- every entry finite and of magnitude at most `B` -/
def M2.Below (m : M2 F32) (B : ℝ) : Prop := m.c0.Below B ∧ m.c1.Below B
/-- every entry finite and of magnitude at most `B` -/
def M3.Below (m : M3 F32) (B : ℝ) : Prop := m.c0.Below B ∧ m.c1.Below B ∧ m.c2.Below B
/-- every entry finite and of magnitude at most `B` -/
def M4.Below (m : M4 F32) (B : ℝ) : Prop := m.c0.Below B ∧ m.c1.Below B ∧ m.c2.Below B ∧ m.c3.Below B
/-- every entry finite and of magnitude at most `B` -/
def M2x3.Below (m : M2x3 F32) (B : ℝ) : Prop := m.c0.Below B ∧ m.c1.Below B
/-- every entry finite and of magnitude at most `B` -/
def M2x4.Below (m : M2x4 F32) (B : ℝ) : Prop := m.c0.Below B ∧ m.c1.Below B
/-- every entry finite and of magnitude at most `B` -/
def M3x2.Below (m : M3x2 F32) (B : ℝ) : Prop := m.c0.Below B ∧ m.c1.Below B ∧ m.c2.Below B
/-- every entry finite and of magnitude at most `B` -/
def M3x4.Below (m : M3x4 F32) (B : ℝ) : Prop := m.c0.Below B ∧ m.c1.Below B ∧ m.c2.Below B
/-- every entry finite and of magnitude at most `B` -/
def M4x2.Below (m : M4x2 F32) (B : ℝ) : Prop := m.c0.Below B ∧ m.c1.Below B ∧ m.c2.Below B ∧ m.c3.Below B
/-- every entry finite and of magnitude at most `B` -/
def M4x3.Below (m : M4x3 F32) (B : ℝ) : Prop := m.c0.Below B ∧ m.c1.Below B ∧ m.c2.Below B ∧ m.c3.Below B
/-- no component is a NaN or an infinity -/
def V2.IsFin (v : V2 F32) : Prop := v.x.isFin = true ∧ v.y.isFin = true
/-- no component is a NaN or an infinity -/
def V3.IsFin (v : V3 F32) : Prop := v.x.isFin = true ∧ v.y.isFin = true ∧ v.z.isFin = true
/-- no component is a NaN or an infinity -/
def V4.IsFin (v : V4 F32) : Prop := v.x.isFin = true ∧ v.y.isFin = true ∧ v.z.isFin = true ∧ v.w.isFin = true
/-- no entry is a NaN or an infinity -/
def M2.IsFin (m : M2 F32) : Prop := m.c0.IsFin ∧ m.c1.IsFin
/-- no entry is a NaN or an infinity -/
def M3.IsFin (m : M3 F32) : Prop := m.c0.IsFin ∧ m.c1.IsFin ∧ m.c2.IsFin
/-- no entry is a NaN or an infinity -/
def M4.IsFin (m : M4 F32) : Prop := m.c0.IsFin ∧ m.c1.IsFin ∧ m.c2.IsFin ∧ m.c3.IsFin

end Cglm
