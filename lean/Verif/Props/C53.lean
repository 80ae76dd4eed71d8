import Verif.I32Lemmas

/-!
# C53: integer vectors are defined exactly when in range

Every theorem has the form `f args = some r ↔ ...`: the right side says what the entries of the result are as exact integers.
Because `r` ranges over vectors of 32-bit integers, it also says when there is a result at all, that is, when the C call
is free of undefined behaviour.  Intermediate results that have to be representable as well appear as `InInt`.
(Generated by a script from a table of the operations.)
-/

namespace Cglm

open I

theorem glm_imax_some (a b : Int32) : ∃ r, glm_imax a b = some r ∧ r.toInt = max a.toInt b.toInt := by
  unfold glm_imax I32.gt
  by_cases h : b.toInt < a.toInt
  · exact ⟨a, by simp [h], by omega⟩
  · exact ⟨b, by simp [h], by omega⟩
theorem glm_imin_some (a b : Int32) : ∃ r, glm_imin a b = some r ∧ r.toInt = min a.toInt b.toInt := by
  unfold glm_imin I32.lt
  by_cases h : a.toInt < b.toInt
  · exact ⟨a, by simp [h], by omega⟩
  · exact ⟨b, by simp [h], by omega⟩
theorem imax_some {a b r : Int32} : glm_imax a b = some r ↔ r.toInt = max a.toInt b.toInt := by
  obtain ⟨s, hs, h⟩ := glm_imax_some a b
  rw [hs, ← h, Option.some.injEq, Int32.toInt_inj, eq_comm]
theorem imin_some {a b r : Int32} : glm_imin a b = some r ↔ r.toInt = min a.toInt b.toInt := by
  obtain ⟨s, hs, h⟩ := glm_imin_some a b
  rw [hs, ← h, Option.some.injEq, Int32.toInt_inj, eq_comm]

/-- `glm_imin` and `glm_imax` are the minimum and maximum, for all inputs. -/
theorem C53_imin_imax (a b r : Int32) : (glm_imin a b = some r ↔ r.toInt = min a.toInt b.toInt) ∧
    (glm_imax a b = some r ↔ r.toInt = max a.toInt b.toInt) := ⟨imin_some, imax_some⟩


/-! ## `ivec2` -/

theorem C53_ivec2 (v : V2 Int32) : glm_ivec2 v = some ⟨v.x, v.y⟩ := rfl
theorem C53_ivec2_copy (v : V2 Int32) : glm_ivec2_copy v = some v := rfl
theorem C53_ivec2_zero_one : glm_ivec2_zero = some ⟨0, 0⟩ ∧ glm_ivec2_one = some ⟨1, 1⟩ := ⟨rfl, rfl⟩
theorem C53_ivec2_fill (s : Int32) : glm_ivec2_fill s = some ⟨s, s⟩ := rfl
theorem C53_ivec2_add (a b : V2 Int32) (r : V2 Int32) : glm_ivec2_add a b = some r ↔
    r.x.toInt = a.x.toInt + b.x.toInt ∧
    r.y.toInt = a.y.toInt + b.y.toInt := by
  simp only [glm_ivec2_add, bind_eq_some', I32.add_some, Option.pure_def, Option.some.injEq]
  constructor
  · rintro ⟨t0, h0, t1, h1, rfl⟩; exact ⟨h0, h1⟩
  · rintro ⟨h0, h1⟩; exact ⟨_, h0, _, h1, rfl⟩
theorem C53_ivec2_sub (a b : V2 Int32) (r : V2 Int32) : glm_ivec2_sub a b = some r ↔
    r.x.toInt = a.x.toInt - b.x.toInt ∧
    r.y.toInt = a.y.toInt - b.y.toInt := by
  simp only [glm_ivec2_sub, bind_eq_some', I32.sub_some, Option.pure_def, Option.some.injEq]
  constructor
  · rintro ⟨t0, h0, t1, h1, rfl⟩; exact ⟨h0, h1⟩
  · rintro ⟨h0, h1⟩; exact ⟨_, h0, _, h1, rfl⟩
theorem C53_ivec2_mul (a b : V2 Int32) (r : V2 Int32) : glm_ivec2_mul a b = some r ↔
    r.x.toInt = a.x.toInt * b.x.toInt ∧
    r.y.toInt = a.y.toInt * b.y.toInt := by
  simp only [glm_ivec2_mul, bind_eq_some', I32.mul_some, Option.pure_def, Option.some.injEq]
  constructor
  · rintro ⟨t0, h0, t1, h1, rfl⟩; exact ⟨h0, h1⟩
  · rintro ⟨h0, h1⟩; exact ⟨_, h0, _, h1, rfl⟩
theorem C53_ivec2_adds (v : V2 Int32) (s : Int32) (r : V2 Int32) : glm_ivec2_adds v s = some r ↔
    r.x.toInt = v.x.toInt + s.toInt ∧
    r.y.toInt = v.y.toInt + s.toInt := by
  simp only [glm_ivec2_adds, bind_eq_some', I32.add_some, Option.pure_def, Option.some.injEq]
  constructor
  · rintro ⟨t0, h0, t1, h1, rfl⟩; exact ⟨h0, h1⟩
  · rintro ⟨h0, h1⟩; exact ⟨_, h0, _, h1, rfl⟩
theorem C53_ivec2_subs (v : V2 Int32) (s : Int32) (r : V2 Int32) : glm_ivec2_subs v s = some r ↔
    r.x.toInt = v.x.toInt - s.toInt ∧
    r.y.toInt = v.y.toInt - s.toInt := by
  simp only [glm_ivec2_subs, bind_eq_some', I32.sub_some, Option.pure_def, Option.some.injEq]
  constructor
  · rintro ⟨t0, h0, t1, h1, rfl⟩; exact ⟨h0, h1⟩
  · rintro ⟨h0, h1⟩; exact ⟨_, h0, _, h1, rfl⟩
theorem C53_ivec2_scale (v : V2 Int32) (s : Int32) (r : V2 Int32) : glm_ivec2_scale v s = some r ↔
    r.x.toInt = v.x.toInt * s.toInt ∧
    r.y.toInt = v.y.toInt * s.toInt := by
  simp only [glm_ivec2_scale, bind_eq_some', I32.mul_some, Option.pure_def, Option.some.injEq]
  constructor
  · rintro ⟨t0, h0, t1, h1, rfl⟩; exact ⟨h0, h1⟩
  · rintro ⟨h0, h1⟩; exact ⟨_, h0, _, h1, rfl⟩
/-- Division truncates toward zero; `INT_MIN / -1` has no result because no `int` equals 2147483648. -/
theorem C53_ivec2_div (a b : V2 Int32) (r : V2 Int32) : glm_ivec2_div a b = some r ↔
    (b.x.toInt ≠ 0 ∧ r.x.toInt = a.x.toInt.tdiv b.x.toInt) ∧
    (b.y.toInt ≠ 0 ∧ r.y.toInt = a.y.toInt.tdiv b.y.toInt) := by
  simp only [glm_ivec2_div, bind_eq_some', I32.div_some, Option.pure_def, Option.some.injEq]
  constructor
  · rintro ⟨t0, h0, t1, h1, rfl⟩; exact ⟨h0, h1⟩
  · rintro ⟨h0, h1⟩; exact ⟨_, h0, _, h1, rfl⟩
theorem C53_ivec2_divs (v : V2 Int32) (s : Int32) (r : V2 Int32) : glm_ivec2_divs v s = some r ↔
    (s.toInt ≠ 0 ∧ r.x.toInt = v.x.toInt.tdiv s.toInt) ∧
    (s.toInt ≠ 0 ∧ r.y.toInt = v.y.toInt.tdiv s.toInt) := by
  simp only [glm_ivec2_divs, bind_eq_some', I32.div_some, Option.pure_def, Option.some.injEq]
  constructor
  · rintro ⟨t0, h0, t1, h1, rfl⟩; exact ⟨h0, h1⟩
  · rintro ⟨h0, h1⟩; exact ⟨_, h0, _, h1, rfl⟩
theorem C53_ivec2_mod (a b : V2 Int32) (r : V2 Int32) : glm_ivec2_mod a b = some r ↔
    (b.x.toInt ≠ 0 ∧ ¬ (a.x.toInt = -2147483648 ∧ b.x.toInt = -1) ∧ r.x.toInt = a.x.toInt.tmod b.x.toInt) ∧
    (b.y.toInt ≠ 0 ∧ ¬ (a.y.toInt = -2147483648 ∧ b.y.toInt = -1) ∧ r.y.toInt = a.y.toInt.tmod b.y.toInt) := by
  simp only [glm_ivec2_mod, bind_eq_some', I32.mod_some, Option.pure_def, Option.some.injEq]
  constructor
  · rintro ⟨t0, h0, t1, h1, rfl⟩; exact ⟨h0, h1⟩
  · rintro ⟨h0, h1⟩; exact ⟨_, h0, _, h1, rfl⟩
/-- The absolute value; `INT_MIN` has no result. -/
theorem C53_ivec2_abs (v : V2 Int32) (r : V2 Int32) : glm_ivec2_abs v = some r ↔
    r.x.toInt = |v.x.toInt| ∧
    r.y.toInt = |v.y.toInt| := by
  simp only [glm_ivec2_abs, bind_eq_some', I32.abs_some, Option.pure_def, Option.some.injEq]
  constructor
  · rintro ⟨t0, h0, t1, h1, rfl⟩; exact ⟨h0, h1⟩
  · rintro ⟨h0, h1⟩; exact ⟨_, h0, _, h1, rfl⟩
theorem C53_ivec2_addadd (a b dest : V2 Int32) (r : V2 Int32) : glm_ivec2_addadd a b dest = some r ↔
    (InInt (a.x.toInt + b.x.toInt) ∧ InInt (a.y.toInt + b.y.toInt)) ∧
    r.x.toInt = dest.x.toInt + (a.x.toInt + b.x.toInt) ∧
    r.y.toInt = dest.y.toInt + (a.y.toInt + b.y.toInt) := by
  simp only [glm_ivec2_addadd, bind_eq_some', I32.add_some, Option.pure_def, Option.some.injEq]
  constructor
  · rintro ⟨t0, i0, u0, h0, t1, i1, u1, h1, rfl⟩
    rw [← i0, ← i1]
    exact ⟨⟨toInt_inInt _, toInt_inInt _⟩, h0, h1⟩
  · rintro ⟨⟨i0, i1⟩, h0, h1⟩
    exact ⟨_, i0.toInt_ofInt, _, by rw [i0.toInt_ofInt]; exact h0, _, i1.toInt_ofInt, _, by rw [i1.toInt_ofInt]; exact h1, rfl⟩
theorem C53_ivec2_addadds (a : V2 Int32) (s : Int32) (dest : V2 Int32) (r : V2 Int32) : glm_ivec2_addadds a s dest = some r ↔
    (InInt (a.x.toInt + s.toInt) ∧ InInt (a.y.toInt + s.toInt)) ∧
    r.x.toInt = dest.x.toInt + (a.x.toInt + s.toInt) ∧
    r.y.toInt = dest.y.toInt + (a.y.toInt + s.toInt) := by
  simp only [glm_ivec2_addadds, bind_eq_some', I32.add_some, Option.pure_def, Option.some.injEq]
  constructor
  · rintro ⟨t0, i0, u0, h0, t1, i1, u1, h1, rfl⟩
    rw [← i0, ← i1]
    exact ⟨⟨toInt_inInt _, toInt_inInt _⟩, h0, h1⟩
  · rintro ⟨⟨i0, i1⟩, h0, h1⟩
    exact ⟨_, i0.toInt_ofInt, _, by rw [i0.toInt_ofInt]; exact h0, _, i1.toInt_ofInt, _, by rw [i1.toInt_ofInt]; exact h1, rfl⟩
theorem C53_ivec2_subadd (a b dest : V2 Int32) (r : V2 Int32) : glm_ivec2_subadd a b dest = some r ↔
    (InInt (a.x.toInt - b.x.toInt) ∧ InInt (a.y.toInt - b.y.toInt)) ∧
    r.x.toInt = dest.x.toInt + (a.x.toInt - b.x.toInt) ∧
    r.y.toInt = dest.y.toInt + (a.y.toInt - b.y.toInt) := by
  simp only [glm_ivec2_subadd, bind_eq_some', I32.add_some, I32.sub_some, Option.pure_def, Option.some.injEq]
  constructor
  · rintro ⟨t0, i0, u0, h0, t1, i1, u1, h1, rfl⟩
    rw [← i0, ← i1]
    exact ⟨⟨toInt_inInt _, toInt_inInt _⟩, h0, h1⟩
  · rintro ⟨⟨i0, i1⟩, h0, h1⟩
    exact ⟨_, i0.toInt_ofInt, _, by rw [i0.toInt_ofInt]; exact h0, _, i1.toInt_ofInt, _, by rw [i1.toInt_ofInt]; exact h1, rfl⟩
theorem C53_ivec2_subadds (a : V2 Int32) (s : Int32) (dest : V2 Int32) (r : V2 Int32) : glm_ivec2_subadds a s dest = some r ↔
    (InInt (a.x.toInt - s.toInt) ∧ InInt (a.y.toInt - s.toInt)) ∧
    r.x.toInt = dest.x.toInt + (a.x.toInt - s.toInt) ∧
    r.y.toInt = dest.y.toInt + (a.y.toInt - s.toInt) := by
  simp only [glm_ivec2_subadds, bind_eq_some', I32.add_some, I32.sub_some, Option.pure_def, Option.some.injEq]
  constructor
  · rintro ⟨t0, i0, u0, h0, t1, i1, u1, h1, rfl⟩
    rw [← i0, ← i1]
    exact ⟨⟨toInt_inInt _, toInt_inInt _⟩, h0, h1⟩
  · rintro ⟨⟨i0, i1⟩, h0, h1⟩
    exact ⟨_, i0.toInt_ofInt, _, by rw [i0.toInt_ofInt]; exact h0, _, i1.toInt_ofInt, _, by rw [i1.toInt_ofInt]; exact h1, rfl⟩
theorem C53_ivec2_muladd (a b dest : V2 Int32) (r : V2 Int32) : glm_ivec2_muladd a b dest = some r ↔
    (InInt (a.x.toInt * b.x.toInt) ∧ InInt (a.y.toInt * b.y.toInt)) ∧
    r.x.toInt = dest.x.toInt + (a.x.toInt * b.x.toInt) ∧
    r.y.toInt = dest.y.toInt + (a.y.toInt * b.y.toInt) := by
  simp only [glm_ivec2_muladd, bind_eq_some', I32.add_some, I32.mul_some, Option.pure_def, Option.some.injEq]
  constructor
  · rintro ⟨t0, i0, u0, h0, t1, i1, u1, h1, rfl⟩
    rw [← i0, ← i1]
    exact ⟨⟨toInt_inInt _, toInt_inInt _⟩, h0, h1⟩
  · rintro ⟨⟨i0, i1⟩, h0, h1⟩
    exact ⟨_, i0.toInt_ofInt, _, by rw [i0.toInt_ofInt]; exact h0, _, i1.toInt_ofInt, _, by rw [i1.toInt_ofInt]; exact h1, rfl⟩
theorem C53_ivec2_muladds (a : V2 Int32) (s : Int32) (dest : V2 Int32) (r : V2 Int32) : glm_ivec2_muladds a s dest = some r ↔
    (InInt (a.x.toInt * s.toInt) ∧ InInt (a.y.toInt * s.toInt)) ∧
    r.x.toInt = dest.x.toInt + (a.x.toInt * s.toInt) ∧
    r.y.toInt = dest.y.toInt + (a.y.toInt * s.toInt) := by
  simp only [glm_ivec2_muladds, bind_eq_some', I32.add_some, I32.mul_some, Option.pure_def, Option.some.injEq]
  constructor
  · rintro ⟨t0, i0, u0, h0, t1, i1, u1, h1, rfl⟩
    rw [← i0, ← i1]
    exact ⟨⟨toInt_inInt _, toInt_inInt _⟩, h0, h1⟩
  · rintro ⟨⟨i0, i1⟩, h0, h1⟩
    exact ⟨_, i0.toInt_ofInt, _, by rw [i0.toInt_ofInt]; exact h0, _, i1.toInt_ofInt, _, by rw [i1.toInt_ofInt]; exact h1, rfl⟩
theorem C53_ivec2_maxadd (a b dest : V2 Int32) (r : V2 Int32) : glm_ivec2_maxadd a b dest = some r ↔
    r.x.toInt = dest.x.toInt + max a.x.toInt b.x.toInt ∧
    r.y.toInt = dest.y.toInt + max a.y.toInt b.y.toInt := by
  simp only [glm_ivec2_maxadd, bind_eq_some', imax_some, I32.add_some, Option.pure_def, Option.some.injEq]
  constructor
  · rintro ⟨t0, i0, u0, h0, t1, i1, u1, h1, rfl⟩
    rw [← i0, ← i1]
    exact ⟨h0, h1⟩
  · rintro ⟨h0, h1⟩
    obtain ⟨s0, e0, q0⟩ := glm_imax_some a.x b.x
    rw [imax_some] at e0
    rw [← q0] at h0
    obtain ⟨s1, e1, q1⟩ := glm_imax_some a.y b.y
    rw [imax_some] at e1
    rw [← q1] at h1
    exact ⟨_, e0, _, h0, _, e1, _, h1, rfl⟩
theorem C53_ivec2_minadd (a b dest : V2 Int32) (r : V2 Int32) : glm_ivec2_minadd a b dest = some r ↔
    r.x.toInt = dest.x.toInt + min a.x.toInt b.x.toInt ∧
    r.y.toInt = dest.y.toInt + min a.y.toInt b.y.toInt := by
  simp only [glm_ivec2_minadd, bind_eq_some', imin_some, I32.add_some, Option.pure_def, Option.some.injEq]
  constructor
  · rintro ⟨t0, i0, u0, h0, t1, i1, u1, h1, rfl⟩
    rw [← i0, ← i1]
    exact ⟨h0, h1⟩
  · rintro ⟨h0, h1⟩
    obtain ⟨s0, e0, q0⟩ := glm_imin_some a.x b.x
    rw [imin_some] at e0
    rw [← q0] at h0
    obtain ⟨s1, e1, q1⟩ := glm_imin_some a.y b.y
    rw [imin_some] at e1
    rw [← q1] at h1
    exact ⟨_, e0, _, h0, _, e1, _, h1, rfl⟩
theorem C53_ivec2_addsub (a b dest : V2 Int32) (r : V2 Int32) : glm_ivec2_addsub a b dest = some r ↔
    (InInt (a.x.toInt + b.x.toInt) ∧ InInt (a.y.toInt + b.y.toInt)) ∧
    r.x.toInt = dest.x.toInt - (a.x.toInt + b.x.toInt) ∧
    r.y.toInt = dest.y.toInt - (a.y.toInt + b.y.toInt) := by
  simp only [glm_ivec2_addsub, bind_eq_some', I32.add_some, I32.sub_some, Option.pure_def, Option.some.injEq]
  constructor
  · rintro ⟨t0, i0, u0, h0, t1, i1, u1, h1, rfl⟩
    rw [← i0, ← i1]
    exact ⟨⟨toInt_inInt _, toInt_inInt _⟩, h0, h1⟩
  · rintro ⟨⟨i0, i1⟩, h0, h1⟩
    exact ⟨_, i0.toInt_ofInt, _, by rw [i0.toInt_ofInt]; exact h0, _, i1.toInt_ofInt, _, by rw [i1.toInt_ofInt]; exact h1, rfl⟩
theorem C53_ivec2_addsubs (a : V2 Int32) (s : Int32) (dest : V2 Int32) (r : V2 Int32) : glm_ivec2_addsubs a s dest = some r ↔
    (InInt (a.x.toInt + s.toInt) ∧ InInt (a.y.toInt + s.toInt)) ∧
    r.x.toInt = dest.x.toInt - (a.x.toInt + s.toInt) ∧
    r.y.toInt = dest.y.toInt - (a.y.toInt + s.toInt) := by
  simp only [glm_ivec2_addsubs, bind_eq_some', I32.add_some, I32.sub_some, Option.pure_def, Option.some.injEq]
  constructor
  · rintro ⟨t0, i0, u0, h0, t1, i1, u1, h1, rfl⟩
    rw [← i0, ← i1]
    exact ⟨⟨toInt_inInt _, toInt_inInt _⟩, h0, h1⟩
  · rintro ⟨⟨i0, i1⟩, h0, h1⟩
    exact ⟨_, i0.toInt_ofInt, _, by rw [i0.toInt_ofInt]; exact h0, _, i1.toInt_ofInt, _, by rw [i1.toInt_ofInt]; exact h1, rfl⟩
theorem C53_ivec2_subsub (a b dest : V2 Int32) (r : V2 Int32) : glm_ivec2_subsub a b dest = some r ↔
    (InInt (a.x.toInt - b.x.toInt) ∧ InInt (a.y.toInt - b.y.toInt)) ∧
    r.x.toInt = dest.x.toInt - (a.x.toInt - b.x.toInt) ∧
    r.y.toInt = dest.y.toInt - (a.y.toInt - b.y.toInt) := by
  simp only [glm_ivec2_subsub, bind_eq_some', I32.sub_some, Option.pure_def, Option.some.injEq]
  constructor
  · rintro ⟨t0, i0, u0, h0, t1, i1, u1, h1, rfl⟩
    rw [← i0, ← i1]
    exact ⟨⟨toInt_inInt _, toInt_inInt _⟩, h0, h1⟩
  · rintro ⟨⟨i0, i1⟩, h0, h1⟩
    exact ⟨_, i0.toInt_ofInt, _, by rw [i0.toInt_ofInt]; exact h0, _, i1.toInt_ofInt, _, by rw [i1.toInt_ofInt]; exact h1, rfl⟩
theorem C53_ivec2_subsubs (a : V2 Int32) (s : Int32) (dest : V2 Int32) (r : V2 Int32) : glm_ivec2_subsubs a s dest = some r ↔
    (InInt (a.x.toInt - s.toInt) ∧ InInt (a.y.toInt - s.toInt)) ∧
    r.x.toInt = dest.x.toInt - (a.x.toInt - s.toInt) ∧
    r.y.toInt = dest.y.toInt - (a.y.toInt - s.toInt) := by
  simp only [glm_ivec2_subsubs, bind_eq_some', I32.sub_some, Option.pure_def, Option.some.injEq]
  constructor
  · rintro ⟨t0, i0, u0, h0, t1, i1, u1, h1, rfl⟩
    rw [← i0, ← i1]
    exact ⟨⟨toInt_inInt _, toInt_inInt _⟩, h0, h1⟩
  · rintro ⟨⟨i0, i1⟩, h0, h1⟩
    exact ⟨_, i0.toInt_ofInt, _, by rw [i0.toInt_ofInt]; exact h0, _, i1.toInt_ofInt, _, by rw [i1.toInt_ofInt]; exact h1, rfl⟩
theorem C53_ivec2_mulsub (a b dest : V2 Int32) (r : V2 Int32) : glm_ivec2_mulsub a b dest = some r ↔
    (InInt (a.x.toInt * b.x.toInt) ∧ InInt (a.y.toInt * b.y.toInt)) ∧
    r.x.toInt = dest.x.toInt - (a.x.toInt * b.x.toInt) ∧
    r.y.toInt = dest.y.toInt - (a.y.toInt * b.y.toInt) := by
  simp only [glm_ivec2_mulsub, bind_eq_some', I32.mul_some, I32.sub_some, Option.pure_def, Option.some.injEq]
  constructor
  · rintro ⟨t0, i0, u0, h0, t1, i1, u1, h1, rfl⟩
    rw [← i0, ← i1]
    exact ⟨⟨toInt_inInt _, toInt_inInt _⟩, h0, h1⟩
  · rintro ⟨⟨i0, i1⟩, h0, h1⟩
    exact ⟨_, i0.toInt_ofInt, _, by rw [i0.toInt_ofInt]; exact h0, _, i1.toInt_ofInt, _, by rw [i1.toInt_ofInt]; exact h1, rfl⟩
theorem C53_ivec2_mulsubs (a : V2 Int32) (s : Int32) (dest : V2 Int32) (r : V2 Int32) : glm_ivec2_mulsubs a s dest = some r ↔
    (InInt (a.x.toInt * s.toInt) ∧ InInt (a.y.toInt * s.toInt)) ∧
    r.x.toInt = dest.x.toInt - (a.x.toInt * s.toInt) ∧
    r.y.toInt = dest.y.toInt - (a.y.toInt * s.toInt) := by
  simp only [glm_ivec2_mulsubs, bind_eq_some', I32.mul_some, I32.sub_some, Option.pure_def, Option.some.injEq]
  constructor
  · rintro ⟨t0, i0, u0, h0, t1, i1, u1, h1, rfl⟩
    rw [← i0, ← i1]
    exact ⟨⟨toInt_inInt _, toInt_inInt _⟩, h0, h1⟩
  · rintro ⟨⟨i0, i1⟩, h0, h1⟩
    exact ⟨_, i0.toInt_ofInt, _, by rw [i0.toInt_ofInt]; exact h0, _, i1.toInt_ofInt, _, by rw [i1.toInt_ofInt]; exact h1, rfl⟩
theorem C53_ivec2_maxsub (a b dest : V2 Int32) (r : V2 Int32) : glm_ivec2_maxsub a b dest = some r ↔
    r.x.toInt = dest.x.toInt - max a.x.toInt b.x.toInt ∧
    r.y.toInt = dest.y.toInt - max a.y.toInt b.y.toInt := by
  simp only [glm_ivec2_maxsub, bind_eq_some', imax_some, I32.sub_some, Option.pure_def, Option.some.injEq]
  constructor
  · rintro ⟨t0, i0, u0, h0, t1, i1, u1, h1, rfl⟩
    rw [← i0, ← i1]
    exact ⟨h0, h1⟩
  · rintro ⟨h0, h1⟩
    obtain ⟨s0, e0, q0⟩ := glm_imax_some a.x b.x
    rw [imax_some] at e0
    rw [← q0] at h0
    obtain ⟨s1, e1, q1⟩ := glm_imax_some a.y b.y
    rw [imax_some] at e1
    rw [← q1] at h1
    exact ⟨_, e0, _, h0, _, e1, _, h1, rfl⟩
theorem C53_ivec2_minsub (a b dest : V2 Int32) (r : V2 Int32) : glm_ivec2_minsub a b dest = some r ↔
    r.x.toInt = dest.x.toInt - min a.x.toInt b.x.toInt ∧
    r.y.toInt = dest.y.toInt - min a.y.toInt b.y.toInt := by
  simp only [glm_ivec2_minsub, bind_eq_some', imin_some, I32.sub_some, Option.pure_def, Option.some.injEq]
  constructor
  · rintro ⟨t0, i0, u0, h0, t1, i1, u1, h1, rfl⟩
    rw [← i0, ← i1]
    exact ⟨h0, h1⟩
  · rintro ⟨h0, h1⟩
    obtain ⟨s0, e0, q0⟩ := glm_imin_some a.x b.x
    rw [imin_some] at e0
    rw [← q0] at h0
    obtain ⟨s1, e1, q1⟩ := glm_imin_some a.y b.y
    rw [imin_some] at e1
    rw [← q1] at h1
    exact ⟨_, e0, _, h0, _, e1, _, h1, rfl⟩
theorem C53_ivec2_maxv (a b : V2 Int32) : ∃ r, glm_ivec2_maxv a b = some r ∧
    r.x.toInt = max a.x.toInt b.x.toInt ∧ r.y.toInt = max a.y.toInt b.y.toInt := by
  refine ⟨_, rfl, ?_⟩
  simp only [I32.gt, decide_eq_true_eq]
  refine ⟨?_, ?_⟩ <;> split_ifs <;> omega
theorem C53_ivec2_minv (a b : V2 Int32) : ∃ r, glm_ivec2_minv a b = some r ∧
    r.x.toInt = min a.x.toInt b.x.toInt ∧ r.y.toInt = min a.y.toInt b.y.toInt := by
  refine ⟨_, rfl, ?_⟩
  simp only [I32.lt, decide_eq_true_eq]
  refine ⟨?_, ?_⟩ <;> split_ifs <;> omega
theorem C53_ivec2_clamp (v : V2 Int32) (lo hi : Int32) (h : lo.toInt ≤ hi.toInt) : ∃ r, glm_ivec2_clamp v lo hi = some r ∧
    r.x.toInt = max lo.toInt (min v.x.toInt hi.toInt) ∧ r.y.toInt = max lo.toInt (min v.y.toInt hi.toInt) := by
  simp only [glm_ivec2_clamp, I32.lt, I32.gt, decide_eq_true_eq]
  (by_cases hx : v.x.toInt < lo.toInt <;> [rw [if_pos hx]; (rw [if_neg hx]; by_cases kx : hi.toInt < v.x.toInt <;> [rw [if_pos kx]; rw [if_neg kx]])]) <;>
  (by_cases hy : v.y.toInt < lo.toInt <;> [rw [if_pos hy]; (rw [if_neg hy]; by_cases ky : hi.toInt < v.y.toInt <;> [rw [if_pos ky]; rw [if_neg ky]])]) <;>
  refine ⟨_, rfl, ?_⟩ <;> first | (dsimp only; omega) | omega
theorem C53_ivec2_eq (v : V2 Int32) (s : Int32) : ∃ b, glm_ivec2_eq v s = some b ∧ (b = true ↔ v = ⟨s, s⟩) := by
  refine ⟨_, rfl, ?_⟩
  simp only [I32.eq, Bool.and_eq_true, decide_eq_true_eq, Int32.toInt_inj]
  cases v; simp only [V2.mk.injEq] <;> grind
theorem C53_ivec2_eqv (a b : V2 Int32) : ∃ t, glm_ivec2_eqv a b = some t ∧ (t = true ↔ a = b) := by
  refine ⟨_, rfl, ?_⟩
  simp only [I32.eq, Bool.and_eq_true, decide_eq_true_eq, Int32.toInt_inj]
  cases a; cases b; simp only [V2.mk.injEq] <;> grind
/-- The squared distance: the differences and the sum have to be representable (the squares and partial sums then are). -/
theorem C53_ivec2_distance2 (a b : V2 Int32) (r : Int32) : glm_ivec2_distance2 a b = some r ↔
    (InInt (a.x.toInt - b.x.toInt) ∧ InInt (a.y.toInt - b.y.toInt)) ∧
    r.toInt = (a.x.toInt - b.x.toInt) * (a.x.toInt - b.x.toInt) + (a.y.toInt - b.y.toInt) * (a.y.toInt - b.y.toInt) := by
  simp only [glm_ivec2_distance2, bind_eq_some', I32.add_some, I32.sub_some, I32.mul_some]
  constructor
  · rintro ⟨d0, e0, d1, e1, p0, f0, p1, f1, g1⟩
    refine ⟨⟨e0 ▸ toInt_inInt d0, e1 ▸ toInt_inInt d1⟩, ?_⟩
    rw [g1, f0, f1, e0, e1]
  · rintro ⟨⟨i0, i1⟩, h⟩
    have hr := toInt_inInt r
    have n0 : 0 ≤ (a.x.toInt - b.x.toInt) * (a.x.toInt - b.x.toInt) := mul_self_nonneg _
    have n1 : 0 ≤ (a.y.toInt - b.y.toInt) * (a.y.toInt - b.y.toInt) := mul_self_nonneg _
    simp only [InInt] at hr
    have j0 : InInt ((a.x.toInt - b.x.toInt) * (a.x.toInt - b.x.toInt)) := ⟨by omega, by omega⟩
    have j1 : InInt ((a.y.toInt - b.y.toInt) * (a.y.toInt - b.y.toInt)) := ⟨by omega, by omega⟩
    exact ⟨_, i0.toInt_ofInt,
      _, i1.toInt_ofInt,
      Int32.ofInt ((a.x.toInt - b.x.toInt) * (a.x.toInt - b.x.toInt)), (by rw [i0.toInt_ofInt]; exact j0.toInt_ofInt),
      Int32.ofInt ((a.y.toInt - b.y.toInt) * (a.y.toInt - b.y.toInt)), (by rw [i1.toInt_ofInt]; exact j1.toInt_ofInt),
      (by rw [j0.toInt_ofInt, j1.toInt_ofInt]; exact h)⟩
/-- The distance, in exact arithmetic. -/
theorem C53_ivec2_distance (a b : V2 Int32) (x : ℝ) : glm_ivec2_distance (α := ℝ) a b = some x ↔
    (InInt (a.x.toInt - b.x.toInt) ∧ InInt (a.y.toInt - b.y.toInt)) ∧ InInt ((a.x.toInt - b.x.toInt) * (a.x.toInt - b.x.toInt) + (a.y.toInt - b.y.toInt) * (a.y.toInt - b.y.toInt)) ∧
    x = Real.sqrt (((a.x.toInt - b.x.toInt) * (a.x.toInt - b.x.toInt) + (a.y.toInt - b.y.toInt) * (a.y.toInt - b.y.toInt) : ℤ) : ℝ) := by
  simp only [glm_ivec2_distance, bind_eq_some', C53_ivec2_distance2, Option.pure_def, Option.some.injEq]
  constructor
  · rintro ⟨t, ⟨h, e⟩, rfl⟩; exact ⟨h, e ▸ toInt_inInt t, by rw [← e]; rfl⟩
  · rintro ⟨h, hz, rfl⟩
    exact ⟨_, ⟨h, hz.toInt_ofInt⟩, congrArg (fun z : ℤ => Real.sqrt (z : ℝ)) hz.toInt_ofInt⟩
theorem C53_ivec2_dot (a b : V2 Int32) (r : Int32) : glm_ivec2_dot a b = some r ↔
    (InInt (a.x.toInt * b.x.toInt) ∧ InInt (a.y.toInt * b.y.toInt)) ∧ r.toInt = a.x.toInt * b.x.toInt + a.y.toInt * b.y.toInt := by
  simp only [glm_ivec2_dot, bind_eq_some', I32.add_some, I32.mul_some]
  constructor
  · rintro ⟨t, ht, u, hu, hv⟩
    rw [← ht, ← hu]; exact ⟨⟨toInt_inInt t, toInt_inInt u⟩, hv⟩
  · rintro ⟨⟨i, j⟩, h⟩
    exact ⟨_, i.toInt_ofInt, _, j.toInt_ofInt, by rw [i.toInt_ofInt, j.toInt_ofInt]; exact h⟩
theorem C53_ivec2_cross (a b : V2 Int32) (r : Int32) : glm_ivec2_cross a b = some r ↔
    (InInt (a.x.toInt * b.y.toInt) ∧ InInt (a.y.toInt * b.x.toInt)) ∧ r.toInt = a.x.toInt * b.y.toInt - a.y.toInt * b.x.toInt := by
  simp only [glm_ivec2_cross, bind_eq_some', I32.sub_some, I32.mul_some]
  constructor
  · rintro ⟨t, ht, u, hu, hv⟩
    rw [← ht, ← hu]; exact ⟨⟨toInt_inInt t, toInt_inInt u⟩, hv⟩
  · rintro ⟨⟨i, j⟩, h⟩
    exact ⟨_, i.toInt_ofInt, _, j.toInt_ofInt, by rw [i.toInt_ofInt, j.toInt_ofInt]; exact h⟩

/-! ## `ivec3` -/

theorem C53_ivec3 (v : V4 Int32) : glm_ivec3 v = some ⟨v.x, v.y, v.z⟩ := rfl
theorem C53_ivec3_copy (v : V3 Int32) : glm_ivec3_copy v = some v := rfl
theorem C53_ivec3_zero_one : glm_ivec3_zero = some ⟨0, 0, 0⟩ ∧ glm_ivec3_one = some ⟨1, 1, 1⟩ := ⟨rfl, rfl⟩
theorem C53_ivec3_fill (s : Int32) : glm_ivec3_fill s = some ⟨s, s, s⟩ := rfl
theorem C53_ivec3_add (a b : V3 Int32) (r : V3 Int32) : glm_ivec3_add a b = some r ↔
    r.x.toInt = a.x.toInt + b.x.toInt ∧
    r.y.toInt = a.y.toInt + b.y.toInt ∧
    r.z.toInt = a.z.toInt + b.z.toInt := by
  simp only [glm_ivec3_add, bind_eq_some', I32.add_some, Option.pure_def, Option.some.injEq]
  constructor
  · rintro ⟨t0, h0, t1, h1, t2, h2, rfl⟩; exact ⟨h0, h1, h2⟩
  · rintro ⟨h0, h1, h2⟩; exact ⟨_, h0, _, h1, _, h2, rfl⟩
theorem C53_ivec3_sub (a b : V3 Int32) (r : V3 Int32) : glm_ivec3_sub a b = some r ↔
    r.x.toInt = a.x.toInt - b.x.toInt ∧
    r.y.toInt = a.y.toInt - b.y.toInt ∧
    r.z.toInt = a.z.toInt - b.z.toInt := by
  simp only [glm_ivec3_sub, bind_eq_some', I32.sub_some, Option.pure_def, Option.some.injEq]
  constructor
  · rintro ⟨t0, h0, t1, h1, t2, h2, rfl⟩; exact ⟨h0, h1, h2⟩
  · rintro ⟨h0, h1, h2⟩; exact ⟨_, h0, _, h1, _, h2, rfl⟩
theorem C53_ivec3_mul (a b : V3 Int32) (r : V3 Int32) : glm_ivec3_mul a b = some r ↔
    r.x.toInt = a.x.toInt * b.x.toInt ∧
    r.y.toInt = a.y.toInt * b.y.toInt ∧
    r.z.toInt = a.z.toInt * b.z.toInt := by
  simp only [glm_ivec3_mul, bind_eq_some', I32.mul_some, Option.pure_def, Option.some.injEq]
  constructor
  · rintro ⟨t0, h0, t1, h1, t2, h2, rfl⟩; exact ⟨h0, h1, h2⟩
  · rintro ⟨h0, h1, h2⟩; exact ⟨_, h0, _, h1, _, h2, rfl⟩
theorem C53_ivec3_adds (v : V3 Int32) (s : Int32) (r : V3 Int32) : glm_ivec3_adds v s = some r ↔
    r.x.toInt = v.x.toInt + s.toInt ∧
    r.y.toInt = v.y.toInt + s.toInt ∧
    r.z.toInt = v.z.toInt + s.toInt := by
  simp only [glm_ivec3_adds, bind_eq_some', I32.add_some, Option.pure_def, Option.some.injEq]
  constructor
  · rintro ⟨t0, h0, t1, h1, t2, h2, rfl⟩; exact ⟨h0, h1, h2⟩
  · rintro ⟨h0, h1, h2⟩; exact ⟨_, h0, _, h1, _, h2, rfl⟩
theorem C53_ivec3_subs (v : V3 Int32) (s : Int32) (r : V3 Int32) : glm_ivec3_subs v s = some r ↔
    r.x.toInt = v.x.toInt - s.toInt ∧
    r.y.toInt = v.y.toInt - s.toInt ∧
    r.z.toInt = v.z.toInt - s.toInt := by
  simp only [glm_ivec3_subs, bind_eq_some', I32.sub_some, Option.pure_def, Option.some.injEq]
  constructor
  · rintro ⟨t0, h0, t1, h1, t2, h2, rfl⟩; exact ⟨h0, h1, h2⟩
  · rintro ⟨h0, h1, h2⟩; exact ⟨_, h0, _, h1, _, h2, rfl⟩
theorem C53_ivec3_scale (v : V3 Int32) (s : Int32) (r : V3 Int32) : glm_ivec3_scale v s = some r ↔
    r.x.toInt = v.x.toInt * s.toInt ∧
    r.y.toInt = v.y.toInt * s.toInt ∧
    r.z.toInt = v.z.toInt * s.toInt := by
  simp only [glm_ivec3_scale, bind_eq_some', I32.mul_some, Option.pure_def, Option.some.injEq]
  constructor
  · rintro ⟨t0, h0, t1, h1, t2, h2, rfl⟩; exact ⟨h0, h1, h2⟩
  · rintro ⟨h0, h1, h2⟩; exact ⟨_, h0, _, h1, _, h2, rfl⟩
/-- Division truncates toward zero; `INT_MIN / -1` has no result because no `int` equals 2147483648. -/
theorem C53_ivec3_div (a b : V3 Int32) (r : V3 Int32) : glm_ivec3_div a b = some r ↔
    (b.x.toInt ≠ 0 ∧ r.x.toInt = a.x.toInt.tdiv b.x.toInt) ∧
    (b.y.toInt ≠ 0 ∧ r.y.toInt = a.y.toInt.tdiv b.y.toInt) ∧
    (b.z.toInt ≠ 0 ∧ r.z.toInt = a.z.toInt.tdiv b.z.toInt) := by
  simp only [glm_ivec3_div, bind_eq_some', I32.div_some, Option.pure_def, Option.some.injEq]
  constructor
  · rintro ⟨t0, h0, t1, h1, t2, h2, rfl⟩; exact ⟨h0, h1, h2⟩
  · rintro ⟨h0, h1, h2⟩; exact ⟨_, h0, _, h1, _, h2, rfl⟩
theorem C53_ivec3_divs (v : V3 Int32) (s : Int32) (r : V3 Int32) : glm_ivec3_divs v s = some r ↔
    (s.toInt ≠ 0 ∧ r.x.toInt = v.x.toInt.tdiv s.toInt) ∧
    (s.toInt ≠ 0 ∧ r.y.toInt = v.y.toInt.tdiv s.toInt) ∧
    (s.toInt ≠ 0 ∧ r.z.toInt = v.z.toInt.tdiv s.toInt) := by
  simp only [glm_ivec3_divs, bind_eq_some', I32.div_some, Option.pure_def, Option.some.injEq]
  constructor
  · rintro ⟨t0, h0, t1, h1, t2, h2, rfl⟩; exact ⟨h0, h1, h2⟩
  · rintro ⟨h0, h1, h2⟩; exact ⟨_, h0, _, h1, _, h2, rfl⟩
theorem C53_ivec3_mod (a b : V3 Int32) (r : V3 Int32) : glm_ivec3_mod a b = some r ↔
    (b.x.toInt ≠ 0 ∧ ¬ (a.x.toInt = -2147483648 ∧ b.x.toInt = -1) ∧ r.x.toInt = a.x.toInt.tmod b.x.toInt) ∧
    (b.y.toInt ≠ 0 ∧ ¬ (a.y.toInt = -2147483648 ∧ b.y.toInt = -1) ∧ r.y.toInt = a.y.toInt.tmod b.y.toInt) ∧
    (b.z.toInt ≠ 0 ∧ ¬ (a.z.toInt = -2147483648 ∧ b.z.toInt = -1) ∧ r.z.toInt = a.z.toInt.tmod b.z.toInt) := by
  simp only [glm_ivec3_mod, bind_eq_some', I32.mod_some, Option.pure_def, Option.some.injEq]
  constructor
  · rintro ⟨t0, h0, t1, h1, t2, h2, rfl⟩; exact ⟨h0, h1, h2⟩
  · rintro ⟨h0, h1, h2⟩; exact ⟨_, h0, _, h1, _, h2, rfl⟩
/-- The absolute value; `INT_MIN` has no result. -/
theorem C53_ivec3_abs (v : V3 Int32) (r : V3 Int32) : glm_ivec3_abs v = some r ↔
    r.x.toInt = |v.x.toInt| ∧
    r.y.toInt = |v.y.toInt| ∧
    r.z.toInt = |v.z.toInt| := by
  simp only [glm_ivec3_abs, bind_eq_some', I32.abs_some, Option.pure_def, Option.some.injEq]
  constructor
  · rintro ⟨t0, h0, t1, h1, t2, h2, rfl⟩; exact ⟨h0, h1, h2⟩
  · rintro ⟨h0, h1, h2⟩; exact ⟨_, h0, _, h1, _, h2, rfl⟩
theorem C53_ivec3_addadd (a b dest : V3 Int32) (r : V3 Int32) : glm_ivec3_addadd a b dest = some r ↔
    (InInt (a.x.toInt + b.x.toInt) ∧ InInt (a.y.toInt + b.y.toInt) ∧ InInt (a.z.toInt + b.z.toInt)) ∧
    r.x.toInt = dest.x.toInt + (a.x.toInt + b.x.toInt) ∧
    r.y.toInt = dest.y.toInt + (a.y.toInt + b.y.toInt) ∧
    r.z.toInt = dest.z.toInt + (a.z.toInt + b.z.toInt) := by
  simp only [glm_ivec3_addadd, bind_eq_some', I32.add_some, Option.pure_def, Option.some.injEq]
  constructor
  · rintro ⟨t0, i0, u0, h0, t1, i1, u1, h1, t2, i2, u2, h2, rfl⟩
    rw [← i0, ← i1, ← i2]
    exact ⟨⟨toInt_inInt _, toInt_inInt _, toInt_inInt _⟩, h0, h1, h2⟩
  · rintro ⟨⟨i0, i1, i2⟩, h0, h1, h2⟩
    exact ⟨_, i0.toInt_ofInt, _, by rw [i0.toInt_ofInt]; exact h0, _, i1.toInt_ofInt, _, by rw [i1.toInt_ofInt]; exact h1, _, i2.toInt_ofInt, _, by rw [i2.toInt_ofInt]; exact h2, rfl⟩
theorem C53_ivec3_addadds (a : V3 Int32) (s : Int32) (dest : V3 Int32) (r : V3 Int32) : glm_ivec3_addadds a s dest = some r ↔
    (InInt (a.x.toInt + s.toInt) ∧ InInt (a.y.toInt + s.toInt) ∧ InInt (a.z.toInt + s.toInt)) ∧
    r.x.toInt = dest.x.toInt + (a.x.toInt + s.toInt) ∧
    r.y.toInt = dest.y.toInt + (a.y.toInt + s.toInt) ∧
    r.z.toInt = dest.z.toInt + (a.z.toInt + s.toInt) := by
  simp only [glm_ivec3_addadds, bind_eq_some', I32.add_some, Option.pure_def, Option.some.injEq]
  constructor
  · rintro ⟨t0, i0, u0, h0, t1, i1, u1, h1, t2, i2, u2, h2, rfl⟩
    rw [← i0, ← i1, ← i2]
    exact ⟨⟨toInt_inInt _, toInt_inInt _, toInt_inInt _⟩, h0, h1, h2⟩
  · rintro ⟨⟨i0, i1, i2⟩, h0, h1, h2⟩
    exact ⟨_, i0.toInt_ofInt, _, by rw [i0.toInt_ofInt]; exact h0, _, i1.toInt_ofInt, _, by rw [i1.toInt_ofInt]; exact h1, _, i2.toInt_ofInt, _, by rw [i2.toInt_ofInt]; exact h2, rfl⟩
theorem C53_ivec3_subadd (a b dest : V3 Int32) (r : V3 Int32) : glm_ivec3_subadd a b dest = some r ↔
    (InInt (a.x.toInt - b.x.toInt) ∧ InInt (a.y.toInt - b.y.toInt) ∧ InInt (a.z.toInt - b.z.toInt)) ∧
    r.x.toInt = dest.x.toInt + (a.x.toInt - b.x.toInt) ∧
    r.y.toInt = dest.y.toInt + (a.y.toInt - b.y.toInt) ∧
    r.z.toInt = dest.z.toInt + (a.z.toInt - b.z.toInt) := by
  simp only [glm_ivec3_subadd, bind_eq_some', I32.add_some, I32.sub_some, Option.pure_def, Option.some.injEq]
  constructor
  · rintro ⟨t0, i0, u0, h0, t1, i1, u1, h1, t2, i2, u2, h2, rfl⟩
    rw [← i0, ← i1, ← i2]
    exact ⟨⟨toInt_inInt _, toInt_inInt _, toInt_inInt _⟩, h0, h1, h2⟩
  · rintro ⟨⟨i0, i1, i2⟩, h0, h1, h2⟩
    exact ⟨_, i0.toInt_ofInt, _, by rw [i0.toInt_ofInt]; exact h0, _, i1.toInt_ofInt, _, by rw [i1.toInt_ofInt]; exact h1, _, i2.toInt_ofInt, _, by rw [i2.toInt_ofInt]; exact h2, rfl⟩
theorem C53_ivec3_subadds (a : V3 Int32) (s : Int32) (dest : V3 Int32) (r : V3 Int32) : glm_ivec3_subadds a s dest = some r ↔
    (InInt (a.x.toInt - s.toInt) ∧ InInt (a.y.toInt - s.toInt) ∧ InInt (a.z.toInt - s.toInt)) ∧
    r.x.toInt = dest.x.toInt + (a.x.toInt - s.toInt) ∧
    r.y.toInt = dest.y.toInt + (a.y.toInt - s.toInt) ∧
    r.z.toInt = dest.z.toInt + (a.z.toInt - s.toInt) := by
  simp only [glm_ivec3_subadds, bind_eq_some', I32.add_some, I32.sub_some, Option.pure_def, Option.some.injEq]
  constructor
  · rintro ⟨t0, i0, u0, h0, t1, i1, u1, h1, t2, i2, u2, h2, rfl⟩
    rw [← i0, ← i1, ← i2]
    exact ⟨⟨toInt_inInt _, toInt_inInt _, toInt_inInt _⟩, h0, h1, h2⟩
  · rintro ⟨⟨i0, i1, i2⟩, h0, h1, h2⟩
    exact ⟨_, i0.toInt_ofInt, _, by rw [i0.toInt_ofInt]; exact h0, _, i1.toInt_ofInt, _, by rw [i1.toInt_ofInt]; exact h1, _, i2.toInt_ofInt, _, by rw [i2.toInt_ofInt]; exact h2, rfl⟩
theorem C53_ivec3_muladd (a b dest : V3 Int32) (r : V3 Int32) : glm_ivec3_muladd a b dest = some r ↔
    (InInt (a.x.toInt * b.x.toInt) ∧ InInt (a.y.toInt * b.y.toInt) ∧ InInt (a.z.toInt * b.z.toInt)) ∧
    r.x.toInt = dest.x.toInt + (a.x.toInt * b.x.toInt) ∧
    r.y.toInt = dest.y.toInt + (a.y.toInt * b.y.toInt) ∧
    r.z.toInt = dest.z.toInt + (a.z.toInt * b.z.toInt) := by
  simp only [glm_ivec3_muladd, bind_eq_some', I32.add_some, I32.mul_some, Option.pure_def, Option.some.injEq]
  constructor
  · rintro ⟨t0, i0, u0, h0, t1, i1, u1, h1, t2, i2, u2, h2, rfl⟩
    rw [← i0, ← i1, ← i2]
    exact ⟨⟨toInt_inInt _, toInt_inInt _, toInt_inInt _⟩, h0, h1, h2⟩
  · rintro ⟨⟨i0, i1, i2⟩, h0, h1, h2⟩
    exact ⟨_, i0.toInt_ofInt, _, by rw [i0.toInt_ofInt]; exact h0, _, i1.toInt_ofInt, _, by rw [i1.toInt_ofInt]; exact h1, _, i2.toInt_ofInt, _, by rw [i2.toInt_ofInt]; exact h2, rfl⟩
theorem C53_ivec3_muladds (a : V3 Int32) (s : Int32) (dest : V3 Int32) (r : V3 Int32) : glm_ivec3_muladds a s dest = some r ↔
    (InInt (a.x.toInt * s.toInt) ∧ InInt (a.y.toInt * s.toInt) ∧ InInt (a.z.toInt * s.toInt)) ∧
    r.x.toInt = dest.x.toInt + (a.x.toInt * s.toInt) ∧
    r.y.toInt = dest.y.toInt + (a.y.toInt * s.toInt) ∧
    r.z.toInt = dest.z.toInt + (a.z.toInt * s.toInt) := by
  simp only [glm_ivec3_muladds, bind_eq_some', I32.add_some, I32.mul_some, Option.pure_def, Option.some.injEq]
  constructor
  · rintro ⟨t0, i0, u0, h0, t1, i1, u1, h1, t2, i2, u2, h2, rfl⟩
    rw [← i0, ← i1, ← i2]
    exact ⟨⟨toInt_inInt _, toInt_inInt _, toInt_inInt _⟩, h0, h1, h2⟩
  · rintro ⟨⟨i0, i1, i2⟩, h0, h1, h2⟩
    exact ⟨_, i0.toInt_ofInt, _, by rw [i0.toInt_ofInt]; exact h0, _, i1.toInt_ofInt, _, by rw [i1.toInt_ofInt]; exact h1, _, i2.toInt_ofInt, _, by rw [i2.toInt_ofInt]; exact h2, rfl⟩
theorem C53_ivec3_maxadd (a b dest : V3 Int32) (r : V3 Int32) : glm_ivec3_maxadd a b dest = some r ↔
    r.x.toInt = dest.x.toInt + max a.x.toInt b.x.toInt ∧
    r.y.toInt = dest.y.toInt + max a.y.toInt b.y.toInt ∧
    r.z.toInt = dest.z.toInt + max a.z.toInt b.z.toInt := by
  simp only [glm_ivec3_maxadd, bind_eq_some', imax_some, I32.add_some, Option.pure_def, Option.some.injEq]
  constructor
  · rintro ⟨t0, i0, u0, h0, t1, i1, u1, h1, t2, i2, u2, h2, rfl⟩
    rw [← i0, ← i1, ← i2]
    exact ⟨h0, h1, h2⟩
  · rintro ⟨h0, h1, h2⟩
    obtain ⟨s0, e0, q0⟩ := glm_imax_some a.x b.x
    rw [imax_some] at e0
    rw [← q0] at h0
    obtain ⟨s1, e1, q1⟩ := glm_imax_some a.y b.y
    rw [imax_some] at e1
    rw [← q1] at h1
    obtain ⟨s2, e2, q2⟩ := glm_imax_some a.z b.z
    rw [imax_some] at e2
    rw [← q2] at h2
    exact ⟨_, e0, _, h0, _, e1, _, h1, _, e2, _, h2, rfl⟩
theorem C53_ivec3_minadd (a b dest : V3 Int32) (r : V3 Int32) : glm_ivec3_minadd a b dest = some r ↔
    r.x.toInt = dest.x.toInt + min a.x.toInt b.x.toInt ∧
    r.y.toInt = dest.y.toInt + min a.y.toInt b.y.toInt ∧
    r.z.toInt = dest.z.toInt + min a.z.toInt b.z.toInt := by
  simp only [glm_ivec3_minadd, bind_eq_some', imin_some, I32.add_some, Option.pure_def, Option.some.injEq]
  constructor
  · rintro ⟨t0, i0, u0, h0, t1, i1, u1, h1, t2, i2, u2, h2, rfl⟩
    rw [← i0, ← i1, ← i2]
    exact ⟨h0, h1, h2⟩
  · rintro ⟨h0, h1, h2⟩
    obtain ⟨s0, e0, q0⟩ := glm_imin_some a.x b.x
    rw [imin_some] at e0
    rw [← q0] at h0
    obtain ⟨s1, e1, q1⟩ := glm_imin_some a.y b.y
    rw [imin_some] at e1
    rw [← q1] at h1
    obtain ⟨s2, e2, q2⟩ := glm_imin_some a.z b.z
    rw [imin_some] at e2
    rw [← q2] at h2
    exact ⟨_, e0, _, h0, _, e1, _, h1, _, e2, _, h2, rfl⟩
theorem C53_ivec3_addsub (a b dest : V3 Int32) (r : V3 Int32) : glm_ivec3_addsub a b dest = some r ↔
    (InInt (a.x.toInt + b.x.toInt) ∧ InInt (a.y.toInt + b.y.toInt) ∧ InInt (a.z.toInt + b.z.toInt)) ∧
    r.x.toInt = dest.x.toInt - (a.x.toInt + b.x.toInt) ∧
    r.y.toInt = dest.y.toInt - (a.y.toInt + b.y.toInt) ∧
    r.z.toInt = dest.z.toInt - (a.z.toInt + b.z.toInt) := by
  simp only [glm_ivec3_addsub, bind_eq_some', I32.add_some, I32.sub_some, Option.pure_def, Option.some.injEq]
  constructor
  · rintro ⟨t0, i0, u0, h0, t1, i1, u1, h1, t2, i2, u2, h2, rfl⟩
    rw [← i0, ← i1, ← i2]
    exact ⟨⟨toInt_inInt _, toInt_inInt _, toInt_inInt _⟩, h0, h1, h2⟩
  · rintro ⟨⟨i0, i1, i2⟩, h0, h1, h2⟩
    exact ⟨_, i0.toInt_ofInt, _, by rw [i0.toInt_ofInt]; exact h0, _, i1.toInt_ofInt, _, by rw [i1.toInt_ofInt]; exact h1, _, i2.toInt_ofInt, _, by rw [i2.toInt_ofInt]; exact h2, rfl⟩
theorem C53_ivec3_addsubs (a : V3 Int32) (s : Int32) (dest : V3 Int32) (r : V3 Int32) : glm_ivec3_addsubs a s dest = some r ↔
    (InInt (a.x.toInt + s.toInt) ∧ InInt (a.y.toInt + s.toInt) ∧ InInt (a.z.toInt + s.toInt)) ∧
    r.x.toInt = dest.x.toInt - (a.x.toInt + s.toInt) ∧
    r.y.toInt = dest.y.toInt - (a.y.toInt + s.toInt) ∧
    r.z.toInt = dest.z.toInt - (a.z.toInt + s.toInt) := by
  simp only [glm_ivec3_addsubs, bind_eq_some', I32.add_some, I32.sub_some, Option.pure_def, Option.some.injEq]
  constructor
  · rintro ⟨t0, i0, u0, h0, t1, i1, u1, h1, t2, i2, u2, h2, rfl⟩
    rw [← i0, ← i1, ← i2]
    exact ⟨⟨toInt_inInt _, toInt_inInt _, toInt_inInt _⟩, h0, h1, h2⟩
  · rintro ⟨⟨i0, i1, i2⟩, h0, h1, h2⟩
    exact ⟨_, i0.toInt_ofInt, _, by rw [i0.toInt_ofInt]; exact h0, _, i1.toInt_ofInt, _, by rw [i1.toInt_ofInt]; exact h1, _, i2.toInt_ofInt, _, by rw [i2.toInt_ofInt]; exact h2, rfl⟩
theorem C53_ivec3_subsub (a b dest : V3 Int32) (r : V3 Int32) : glm_ivec3_subsub a b dest = some r ↔
    (InInt (a.x.toInt - b.x.toInt) ∧ InInt (a.y.toInt - b.y.toInt) ∧ InInt (a.z.toInt - b.z.toInt)) ∧
    r.x.toInt = dest.x.toInt - (a.x.toInt - b.x.toInt) ∧
    r.y.toInt = dest.y.toInt - (a.y.toInt - b.y.toInt) ∧
    r.z.toInt = dest.z.toInt - (a.z.toInt - b.z.toInt) := by
  simp only [glm_ivec3_subsub, bind_eq_some', I32.sub_some, Option.pure_def, Option.some.injEq]
  constructor
  · rintro ⟨t0, i0, u0, h0, t1, i1, u1, h1, t2, i2, u2, h2, rfl⟩
    rw [← i0, ← i1, ← i2]
    exact ⟨⟨toInt_inInt _, toInt_inInt _, toInt_inInt _⟩, h0, h1, h2⟩
  · rintro ⟨⟨i0, i1, i2⟩, h0, h1, h2⟩
    exact ⟨_, i0.toInt_ofInt, _, by rw [i0.toInt_ofInt]; exact h0, _, i1.toInt_ofInt, _, by rw [i1.toInt_ofInt]; exact h1, _, i2.toInt_ofInt, _, by rw [i2.toInt_ofInt]; exact h2, rfl⟩
theorem C53_ivec3_subsubs (a : V3 Int32) (s : Int32) (dest : V3 Int32) (r : V3 Int32) : glm_ivec3_subsubs a s dest = some r ↔
    (InInt (a.x.toInt - s.toInt) ∧ InInt (a.y.toInt - s.toInt) ∧ InInt (a.z.toInt - s.toInt)) ∧
    r.x.toInt = dest.x.toInt - (a.x.toInt - s.toInt) ∧
    r.y.toInt = dest.y.toInt - (a.y.toInt - s.toInt) ∧
    r.z.toInt = dest.z.toInt - (a.z.toInt - s.toInt) := by
  simp only [glm_ivec3_subsubs, bind_eq_some', I32.sub_some, Option.pure_def, Option.some.injEq]
  constructor
  · rintro ⟨t0, i0, u0, h0, t1, i1, u1, h1, t2, i2, u2, h2, rfl⟩
    rw [← i0, ← i1, ← i2]
    exact ⟨⟨toInt_inInt _, toInt_inInt _, toInt_inInt _⟩, h0, h1, h2⟩
  · rintro ⟨⟨i0, i1, i2⟩, h0, h1, h2⟩
    exact ⟨_, i0.toInt_ofInt, _, by rw [i0.toInt_ofInt]; exact h0, _, i1.toInt_ofInt, _, by rw [i1.toInt_ofInt]; exact h1, _, i2.toInt_ofInt, _, by rw [i2.toInt_ofInt]; exact h2, rfl⟩
theorem C53_ivec3_mulsub (a b dest : V3 Int32) (r : V3 Int32) : glm_ivec3_mulsub a b dest = some r ↔
    (InInt (a.x.toInt * b.x.toInt) ∧ InInt (a.y.toInt * b.y.toInt) ∧ InInt (a.z.toInt * b.z.toInt)) ∧
    r.x.toInt = dest.x.toInt - (a.x.toInt * b.x.toInt) ∧
    r.y.toInt = dest.y.toInt - (a.y.toInt * b.y.toInt) ∧
    r.z.toInt = dest.z.toInt - (a.z.toInt * b.z.toInt) := by
  simp only [glm_ivec3_mulsub, bind_eq_some', I32.mul_some, I32.sub_some, Option.pure_def, Option.some.injEq]
  constructor
  · rintro ⟨t0, i0, u0, h0, t1, i1, u1, h1, t2, i2, u2, h2, rfl⟩
    rw [← i0, ← i1, ← i2]
    exact ⟨⟨toInt_inInt _, toInt_inInt _, toInt_inInt _⟩, h0, h1, h2⟩
  · rintro ⟨⟨i0, i1, i2⟩, h0, h1, h2⟩
    exact ⟨_, i0.toInt_ofInt, _, by rw [i0.toInt_ofInt]; exact h0, _, i1.toInt_ofInt, _, by rw [i1.toInt_ofInt]; exact h1, _, i2.toInt_ofInt, _, by rw [i2.toInt_ofInt]; exact h2, rfl⟩
theorem C53_ivec3_mulsubs (a : V3 Int32) (s : Int32) (dest : V3 Int32) (r : V3 Int32) : glm_ivec3_mulsubs a s dest = some r ↔
    (InInt (a.x.toInt * s.toInt) ∧ InInt (a.y.toInt * s.toInt) ∧ InInt (a.z.toInt * s.toInt)) ∧
    r.x.toInt = dest.x.toInt - (a.x.toInt * s.toInt) ∧
    r.y.toInt = dest.y.toInt - (a.y.toInt * s.toInt) ∧
    r.z.toInt = dest.z.toInt - (a.z.toInt * s.toInt) := by
  simp only [glm_ivec3_mulsubs, bind_eq_some', I32.mul_some, I32.sub_some, Option.pure_def, Option.some.injEq]
  constructor
  · rintro ⟨t0, i0, u0, h0, t1, i1, u1, h1, t2, i2, u2, h2, rfl⟩
    rw [← i0, ← i1, ← i2]
    exact ⟨⟨toInt_inInt _, toInt_inInt _, toInt_inInt _⟩, h0, h1, h2⟩
  · rintro ⟨⟨i0, i1, i2⟩, h0, h1, h2⟩
    exact ⟨_, i0.toInt_ofInt, _, by rw [i0.toInt_ofInt]; exact h0, _, i1.toInt_ofInt, _, by rw [i1.toInt_ofInt]; exact h1, _, i2.toInt_ofInt, _, by rw [i2.toInt_ofInt]; exact h2, rfl⟩
theorem C53_ivec3_maxsub (a b dest : V3 Int32) (r : V3 Int32) : glm_ivec3_maxsub a b dest = some r ↔
    r.x.toInt = dest.x.toInt - max a.x.toInt b.x.toInt ∧
    r.y.toInt = dest.y.toInt - max a.y.toInt b.y.toInt ∧
    r.z.toInt = dest.z.toInt - max a.z.toInt b.z.toInt := by
  simp only [glm_ivec3_maxsub, bind_eq_some', imax_some, I32.sub_some, Option.pure_def, Option.some.injEq]
  constructor
  · rintro ⟨t0, i0, u0, h0, t1, i1, u1, h1, t2, i2, u2, h2, rfl⟩
    rw [← i0, ← i1, ← i2]
    exact ⟨h0, h1, h2⟩
  · rintro ⟨h0, h1, h2⟩
    obtain ⟨s0, e0, q0⟩ := glm_imax_some a.x b.x
    rw [imax_some] at e0
    rw [← q0] at h0
    obtain ⟨s1, e1, q1⟩ := glm_imax_some a.y b.y
    rw [imax_some] at e1
    rw [← q1] at h1
    obtain ⟨s2, e2, q2⟩ := glm_imax_some a.z b.z
    rw [imax_some] at e2
    rw [← q2] at h2
    exact ⟨_, e0, _, h0, _, e1, _, h1, _, e2, _, h2, rfl⟩
theorem C53_ivec3_minsub (a b dest : V3 Int32) (r : V3 Int32) : glm_ivec3_minsub a b dest = some r ↔
    r.x.toInt = dest.x.toInt - min a.x.toInt b.x.toInt ∧
    r.y.toInt = dest.y.toInt - min a.y.toInt b.y.toInt ∧
    r.z.toInt = dest.z.toInt - min a.z.toInt b.z.toInt := by
  simp only [glm_ivec3_minsub, bind_eq_some', imin_some, I32.sub_some, Option.pure_def, Option.some.injEq]
  constructor
  · rintro ⟨t0, i0, u0, h0, t1, i1, u1, h1, t2, i2, u2, h2, rfl⟩
    rw [← i0, ← i1, ← i2]
    exact ⟨h0, h1, h2⟩
  · rintro ⟨h0, h1, h2⟩
    obtain ⟨s0, e0, q0⟩ := glm_imin_some a.x b.x
    rw [imin_some] at e0
    rw [← q0] at h0
    obtain ⟨s1, e1, q1⟩ := glm_imin_some a.y b.y
    rw [imin_some] at e1
    rw [← q1] at h1
    obtain ⟨s2, e2, q2⟩ := glm_imin_some a.z b.z
    rw [imin_some] at e2
    rw [← q2] at h2
    exact ⟨_, e0, _, h0, _, e1, _, h1, _, e2, _, h2, rfl⟩
theorem C53_ivec3_maxv (a b : V3 Int32) : ∃ r, glm_ivec3_maxv a b = some r ∧
    r.x.toInt = max a.x.toInt b.x.toInt ∧ r.y.toInt = max a.y.toInt b.y.toInt ∧ r.z.toInt = max a.z.toInt b.z.toInt := by
  refine ⟨_, rfl, ?_⟩
  simp only [I32.gt, decide_eq_true_eq]
  refine ⟨?_, ?_, ?_⟩ <;> split_ifs <;> omega
theorem C53_ivec3_minv (a b : V3 Int32) : ∃ r, glm_ivec3_minv a b = some r ∧
    r.x.toInt = min a.x.toInt b.x.toInt ∧ r.y.toInt = min a.y.toInt b.y.toInt ∧ r.z.toInt = min a.z.toInt b.z.toInt := by
  refine ⟨_, rfl, ?_⟩
  simp only [I32.lt, decide_eq_true_eq]
  refine ⟨?_, ?_, ?_⟩ <;> split_ifs <;> omega
theorem C53_ivec3_clamp (v : V3 Int32) (lo hi : Int32) (h : lo.toInt ≤ hi.toInt) : ∃ r, glm_ivec3_clamp v lo hi = some r ∧
    r.x.toInt = max lo.toInt (min v.x.toInt hi.toInt) ∧ r.y.toInt = max lo.toInt (min v.y.toInt hi.toInt) ∧ r.z.toInt = max lo.toInt (min v.z.toInt hi.toInt) := by
  simp only [glm_ivec3_clamp, I32.lt, I32.gt, decide_eq_true_eq]
  (by_cases hx : v.x.toInt < lo.toInt <;> [rw [if_pos hx]; (rw [if_neg hx]; by_cases kx : hi.toInt < v.x.toInt <;> [rw [if_pos kx]; rw [if_neg kx]])]) <;>
  (by_cases hy : v.y.toInt < lo.toInt <;> [rw [if_pos hy]; (rw [if_neg hy]; by_cases ky : hi.toInt < v.y.toInt <;> [rw [if_pos ky]; rw [if_neg ky]])]) <;>
  (by_cases hz : v.z.toInt < lo.toInt <;> [rw [if_pos hz]; (rw [if_neg hz]; by_cases kz : hi.toInt < v.z.toInt <;> [rw [if_pos kz]; rw [if_neg kz]])]) <;>
  refine ⟨_, rfl, ?_⟩ <;> first | (dsimp only; omega) | omega
theorem C53_ivec3_eq (v : V3 Int32) (s : Int32) : ∃ b, glm_ivec3_eq v s = some b ∧ (b = true ↔ v = ⟨s, s, s⟩) := by
  refine ⟨_, rfl, ?_⟩
  simp only [I32.eq, Bool.and_eq_true, decide_eq_true_eq, Int32.toInt_inj]
  cases v; simp only [V3.mk.injEq] <;> grind
theorem C53_ivec3_eqv (a b : V3 Int32) : ∃ t, glm_ivec3_eqv a b = some t ∧ (t = true ↔ a = b) := by
  refine ⟨_, rfl, ?_⟩
  simp only [I32.eq, Bool.and_eq_true, decide_eq_true_eq, Int32.toInt_inj]
  cases a; cases b; simp only [V3.mk.injEq] <;> grind
/-- The squared distance: the differences and the sum have to be representable (the squares and partial sums then are). -/
theorem C53_ivec3_distance2 (a b : V3 Int32) (r : Int32) : glm_ivec3_distance2 a b = some r ↔
    (InInt (a.x.toInt - b.x.toInt) ∧ InInt (a.y.toInt - b.y.toInt) ∧ InInt (a.z.toInt - b.z.toInt)) ∧
    r.toInt = (a.x.toInt - b.x.toInt) * (a.x.toInt - b.x.toInt) + (a.y.toInt - b.y.toInt) * (a.y.toInt - b.y.toInt) + (a.z.toInt - b.z.toInt) * (a.z.toInt - b.z.toInt) := by
  simp only [glm_ivec3_distance2, bind_eq_some', I32.add_some, I32.sub_some, I32.mul_some]
  constructor
  · rintro ⟨d0, e0, d1, e1, d2, e2, p0, f0, p1, f1, s1, g1, p2, f2, g2⟩
    refine ⟨⟨e0 ▸ toInt_inInt d0, e1 ▸ toInt_inInt d1, e2 ▸ toInt_inInt d2⟩, ?_⟩
    rw [g2, g1, f0, f1, f2, e0, e1, e2]
  · rintro ⟨⟨i0, i1, i2⟩, h⟩
    have hr := toInt_inInt r
    have n0 : 0 ≤ (a.x.toInt - b.x.toInt) * (a.x.toInt - b.x.toInt) := mul_self_nonneg _
    have n1 : 0 ≤ (a.y.toInt - b.y.toInt) * (a.y.toInt - b.y.toInt) := mul_self_nonneg _
    have n2 : 0 ≤ (a.z.toInt - b.z.toInt) * (a.z.toInt - b.z.toInt) := mul_self_nonneg _
    simp only [InInt] at hr
    have j0 : InInt ((a.x.toInt - b.x.toInt) * (a.x.toInt - b.x.toInt)) := ⟨by omega, by omega⟩
    have j1 : InInt ((a.y.toInt - b.y.toInt) * (a.y.toInt - b.y.toInt)) := ⟨by omega, by omega⟩
    have j2 : InInt ((a.z.toInt - b.z.toInt) * (a.z.toInt - b.z.toInt)) := ⟨by omega, by omega⟩
    have k1 : InInt ((a.x.toInt - b.x.toInt) * (a.x.toInt - b.x.toInt) + (a.y.toInt - b.y.toInt) * (a.y.toInt - b.y.toInt)) := ⟨by omega, by omega⟩
    exact ⟨_, i0.toInt_ofInt,
      _, i1.toInt_ofInt,
      _, i2.toInt_ofInt,
      Int32.ofInt ((a.x.toInt - b.x.toInt) * (a.x.toInt - b.x.toInt)), (by rw [i0.toInt_ofInt]; exact j0.toInt_ofInt),
      Int32.ofInt ((a.y.toInt - b.y.toInt) * (a.y.toInt - b.y.toInt)), (by rw [i1.toInt_ofInt]; exact j1.toInt_ofInt),
      Int32.ofInt ((a.x.toInt - b.x.toInt) * (a.x.toInt - b.x.toInt) + (a.y.toInt - b.y.toInt) * (a.y.toInt - b.y.toInt)), (by rw [j0.toInt_ofInt, j1.toInt_ofInt]; exact k1.toInt_ofInt),
      Int32.ofInt ((a.z.toInt - b.z.toInt) * (a.z.toInt - b.z.toInt)), (by rw [i2.toInt_ofInt]; exact j2.toInt_ofInt),
      (by rw [k1.toInt_ofInt, j2.toInt_ofInt]; exact h)⟩
/-- The distance, in exact arithmetic. -/
theorem C53_ivec3_distance (a b : V3 Int32) (x : ℝ) : glm_ivec3_distance (α := ℝ) a b = some x ↔
    (InInt (a.x.toInt - b.x.toInt) ∧ InInt (a.y.toInt - b.y.toInt) ∧ InInt (a.z.toInt - b.z.toInt)) ∧ InInt ((a.x.toInt - b.x.toInt) * (a.x.toInt - b.x.toInt) + (a.y.toInt - b.y.toInt) * (a.y.toInt - b.y.toInt) + (a.z.toInt - b.z.toInt) * (a.z.toInt - b.z.toInt)) ∧
    x = Real.sqrt (((a.x.toInt - b.x.toInt) * (a.x.toInt - b.x.toInt) + (a.y.toInt - b.y.toInt) * (a.y.toInt - b.y.toInt) + (a.z.toInt - b.z.toInt) * (a.z.toInt - b.z.toInt) : ℤ) : ℝ) := by
  simp only [glm_ivec3_distance, bind_eq_some', C53_ivec3_distance2, Option.pure_def, Option.some.injEq]
  constructor
  · rintro ⟨t, ⟨h, e⟩, rfl⟩; exact ⟨h, e ▸ toInt_inInt t, by rw [← e]; rfl⟩
  · rintro ⟨h, hz, rfl⟩
    exact ⟨_, ⟨h, hz.toInt_ofInt⟩, congrArg (fun z : ℤ => Real.sqrt (z : ℝ)) hz.toInt_ofInt⟩
theorem C53_ivec3_dot (a b : V3 Int32) (r : Int32) : glm_ivec3_dot a b = some r ↔
    (InInt (a.x.toInt * b.x.toInt) ∧ InInt (a.y.toInt * b.y.toInt) ∧ InInt (a.z.toInt * b.z.toInt) ∧
      InInt (a.x.toInt * b.x.toInt + a.y.toInt * b.y.toInt)) ∧
    r.toInt = a.x.toInt * b.x.toInt + a.y.toInt * b.y.toInt + a.z.toInt * b.z.toInt := by
  simp only [glm_ivec3_dot, bind_eq_some', I32.add_some, I32.mul_some]
  constructor
  · rintro ⟨t, ht, u, hu, v, hv, w, hw, hq⟩
    rw [← ht, ← hu, ← hv, ← hw]; exact ⟨⟨toInt_inInt t, toInt_inInt u, toInt_inInt w, toInt_inInt v⟩, hq⟩
  · rintro ⟨⟨i, j, k, l⟩, h⟩
    exact ⟨_, i.toInt_ofInt, _, j.toInt_ofInt, Int32.ofInt (a.x.toInt * b.x.toInt + a.y.toInt * b.y.toInt),
      by rw [i.toInt_ofInt, j.toInt_ofInt]; exact l.toInt_ofInt, _, k.toInt_ofInt,
      by rw [l.toInt_ofInt, k.toInt_ofInt]; exact h⟩
/-- The squared length is defined exactly when it is representable. -/
theorem C53_ivec3_norm2 (v : V3 Int32) (r : Int32) : glm_ivec3_norm2 v = some r ↔
    r.toInt = v.x.toInt * v.x.toInt + v.y.toInt * v.y.toInt + v.z.toInt * v.z.toInt := by
  simp only [glm_ivec3_norm2, C53_ivec3_dot]
  constructor
  · rintro ⟨-, h⟩; exact h
  · intro h
    have hr := toInt_inInt r
    have n0 := mul_self_nonneg v.x.toInt
    have n1 := mul_self_nonneg v.y.toInt
    have n2 := mul_self_nonneg v.z.toInt
    simp only [InInt] at hr ⊢
    exact ⟨⟨⟨by omega, by omega⟩, ⟨by omega, by omega⟩, ⟨by omega, by omega⟩, ⟨by omega, by omega⟩⟩, h⟩
/-- The length, in exact arithmetic: the integer square root of the squared length, defined exactly when that is
representable. -/
theorem C53_ivec3_norm (v : V3 Int32) (r : Int32) : glm_ivec3_norm (α := ℝ) v = some r ↔
    InInt (v.x.toInt * v.x.toInt + v.y.toInt * v.y.toInt + v.z.toInt * v.z.toInt) ∧ 0 ≤ r.toInt ∧
    r.toInt * r.toInt ≤ v.x.toInt * v.x.toInt + v.y.toInt * v.y.toInt + v.z.toInt * v.z.toInt ∧
    v.x.toInt * v.x.toInt + v.y.toInt * v.y.toInt + v.z.toInt * v.z.toInt < (r.toInt + 1) * (r.toInt + 1) := by
  simp only [glm_ivec3_norm, bind_eq_some', C53_ivec3_norm2]
  have key : ∀ z : ℤ, 0 ≤ z → (toI32 (Real.sqrt (z : ℝ)) = some r ↔
      0 ≤ r.toInt ∧ r.toInt * r.toInt ≤ z ∧ z < (r.toInt + 1) * (r.toInt + 1)) := by
    intro z hz
    rw [toI32_real, chk_eq_some, if_pos (Real.sqrt_nonneg _), eq_comm, Int.floor_eq_iff]
    constructor
    · rintro ⟨h1, h2⟩
      have h0 : 0 ≤ r.toInt := by
        have : (0 : ℝ) < (r.toInt : ℝ) + 1 := (Real.sqrt_nonneg _).trans_lt h2
        have : (0 : ℤ) < r.toInt + 1 := by exact_mod_cast this
        omega
      have h0' : (0 : ℝ) ≤ (r.toInt : ℝ) := by exact_mod_cast h0
      rw [Real.le_sqrt h0'] at h1
      rw [Real.sqrt_lt' (by linarith)] at h2
      refine ⟨h0, ?_, ?_⟩
      · have : ((r.toInt * r.toInt : ℤ) : ℝ) ≤ z := by push_cast; nlinarith
        exact_mod_cast this
      · have : (z : ℝ) < (((r.toInt + 1) * (r.toInt + 1) : ℤ) : ℝ) := by push_cast; nlinarith
        exact_mod_cast this
      · exact_mod_cast hz
    · rintro ⟨h0, h1, h2⟩
      have h0' : (0 : ℝ) ≤ (r.toInt : ℝ) := by exact_mod_cast h0
      have h1' : ((r.toInt * r.toInt : ℤ) : ℝ) ≤ z := by exact_mod_cast h1
      have h2' : (z : ℝ) < (((r.toInt + 1) * (r.toInt + 1) : ℤ) : ℝ) := by exact_mod_cast h2
      push_cast at h1' h2'
      rw [Real.le_sqrt h0', Real.sqrt_lt' (by linarith)]
      constructor <;> nlinarith
      exact_mod_cast hz
  have hz : 0 ≤ v.x.toInt * v.x.toInt + v.y.toInt * v.y.toInt + v.z.toInt * v.z.toInt := by
    have n0 := mul_self_nonneg v.x.toInt
    have n1 := mul_self_nonneg v.y.toInt
    have n2 := mul_self_nonneg v.z.toInt
    omega
  rw [← key _ hz]
  constructor
  · rintro ⟨t, h, hs⟩; exact ⟨h ▸ toInt_inInt t, by rw [← h]; exact hs⟩
  · rintro ⟨hi, h⟩
    exact ⟨_, hi.toInt_ofInt, (congrArg (fun z : ℤ => toI32 (Real.sqrt (z : ℝ))) hi.toInt_ofInt).trans h⟩

/-! ## `ivec4` -/

theorem C53_ivec4 (v : V3 Int32) (s : Int32) : glm_ivec4 v s = some ⟨v.x, v.y, v.z, s⟩ := rfl
theorem C53_ivec4_copy (v : V4 Int32) : glm_ivec4_copy v = some v := rfl
theorem C53_ivec4_zero_one : glm_ivec4_zero = some ⟨0, 0, 0, 0⟩ ∧ glm_ivec4_one = some ⟨1, 1, 1, 1⟩ := ⟨rfl, rfl⟩
theorem C53_ivec4_add (a b : V4 Int32) (r : V4 Int32) : glm_ivec4_add a b = some r ↔
    r.x.toInt = a.x.toInt + b.x.toInt ∧
    r.y.toInt = a.y.toInt + b.y.toInt ∧
    r.z.toInt = a.z.toInt + b.z.toInt ∧
    r.w.toInt = a.w.toInt + b.w.toInt := by
  simp only [glm_ivec4_add, bind_eq_some', I32.add_some, Option.pure_def, Option.some.injEq]
  constructor
  · rintro ⟨t0, h0, t1, h1, t2, h2, t3, h3, rfl⟩; exact ⟨h0, h1, h2, h3⟩
  · rintro ⟨h0, h1, h2, h3⟩; exact ⟨_, h0, _, h1, _, h2, _, h3, rfl⟩
theorem C53_ivec4_sub (a b : V4 Int32) (r : V4 Int32) : glm_ivec4_sub a b = some r ↔
    r.x.toInt = a.x.toInt - b.x.toInt ∧
    r.y.toInt = a.y.toInt - b.y.toInt ∧
    r.z.toInt = a.z.toInt - b.z.toInt ∧
    r.w.toInt = a.w.toInt - b.w.toInt := by
  simp only [glm_ivec4_sub, bind_eq_some', I32.sub_some, Option.pure_def, Option.some.injEq]
  constructor
  · rintro ⟨t0, h0, t1, h1, t2, h2, t3, h3, rfl⟩; exact ⟨h0, h1, h2, h3⟩
  · rintro ⟨h0, h1, h2, h3⟩; exact ⟨_, h0, _, h1, _, h2, _, h3, rfl⟩
theorem C53_ivec4_mul (a b : V4 Int32) (r : V4 Int32) : glm_ivec4_mul a b = some r ↔
    r.x.toInt = a.x.toInt * b.x.toInt ∧
    r.y.toInt = a.y.toInt * b.y.toInt ∧
    r.z.toInt = a.z.toInt * b.z.toInt ∧
    r.w.toInt = a.w.toInt * b.w.toInt := by
  simp only [glm_ivec4_mul, bind_eq_some', I32.mul_some, Option.pure_def, Option.some.injEq]
  constructor
  · rintro ⟨t0, h0, t1, h1, t2, h2, t3, h3, rfl⟩; exact ⟨h0, h1, h2, h3⟩
  · rintro ⟨h0, h1, h2, h3⟩; exact ⟨_, h0, _, h1, _, h2, _, h3, rfl⟩
theorem C53_ivec4_adds (v : V4 Int32) (s : Int32) (r : V4 Int32) : glm_ivec4_adds v s = some r ↔
    r.x.toInt = v.x.toInt + s.toInt ∧
    r.y.toInt = v.y.toInt + s.toInt ∧
    r.z.toInt = v.z.toInt + s.toInt ∧
    r.w.toInt = v.w.toInt + s.toInt := by
  simp only [glm_ivec4_adds, bind_eq_some', I32.add_some, Option.pure_def, Option.some.injEq]
  constructor
  · rintro ⟨t0, h0, t1, h1, t2, h2, t3, h3, rfl⟩; exact ⟨h0, h1, h2, h3⟩
  · rintro ⟨h0, h1, h2, h3⟩; exact ⟨_, h0, _, h1, _, h2, _, h3, rfl⟩
theorem C53_ivec4_subs (v : V4 Int32) (s : Int32) (r : V4 Int32) : glm_ivec4_subs v s = some r ↔
    r.x.toInt = v.x.toInt - s.toInt ∧
    r.y.toInt = v.y.toInt - s.toInt ∧
    r.z.toInt = v.z.toInt - s.toInt ∧
    r.w.toInt = v.w.toInt - s.toInt := by
  simp only [glm_ivec4_subs, bind_eq_some', I32.sub_some, Option.pure_def, Option.some.injEq]
  constructor
  · rintro ⟨t0, h0, t1, h1, t2, h2, t3, h3, rfl⟩; exact ⟨h0, h1, h2, h3⟩
  · rintro ⟨h0, h1, h2, h3⟩; exact ⟨_, h0, _, h1, _, h2, _, h3, rfl⟩
theorem C53_ivec4_scale (v : V4 Int32) (s : Int32) (r : V4 Int32) : glm_ivec4_scale v s = some r ↔
    r.x.toInt = v.x.toInt * s.toInt ∧
    r.y.toInt = v.y.toInt * s.toInt ∧
    r.z.toInt = v.z.toInt * s.toInt ∧
    r.w.toInt = v.w.toInt * s.toInt := by
  simp only [glm_ivec4_scale, bind_eq_some', I32.mul_some, Option.pure_def, Option.some.injEq]
  constructor
  · rintro ⟨t0, h0, t1, h1, t2, h2, t3, h3, rfl⟩; exact ⟨h0, h1, h2, h3⟩
  · rintro ⟨h0, h1, h2, h3⟩; exact ⟨_, h0, _, h1, _, h2, _, h3, rfl⟩
/-- The absolute value; `INT_MIN` has no result. -/
theorem C53_ivec4_abs (v : V4 Int32) (r : V4 Int32) : glm_ivec4_abs v = some r ↔
    r.x.toInt = |v.x.toInt| ∧
    r.y.toInt = |v.y.toInt| ∧
    r.z.toInt = |v.z.toInt| ∧
    r.w.toInt = |v.w.toInt| := by
  simp only [glm_ivec4_abs, bind_eq_some', I32.abs_some, Option.pure_def, Option.some.injEq]
  constructor
  · rintro ⟨t0, h0, t1, h1, t2, h2, t3, h3, rfl⟩; exact ⟨h0, h1, h2, h3⟩
  · rintro ⟨h0, h1, h2, h3⟩; exact ⟨_, h0, _, h1, _, h2, _, h3, rfl⟩
theorem C53_ivec4_addadd (a b dest : V4 Int32) (r : V4 Int32) : glm_ivec4_addadd a b dest = some r ↔
    (InInt (a.x.toInt + b.x.toInt) ∧ InInt (a.y.toInt + b.y.toInt) ∧ InInt (a.z.toInt + b.z.toInt) ∧ InInt (a.w.toInt + b.w.toInt)) ∧
    r.x.toInt = dest.x.toInt + (a.x.toInt + b.x.toInt) ∧
    r.y.toInt = dest.y.toInt + (a.y.toInt + b.y.toInt) ∧
    r.z.toInt = dest.z.toInt + (a.z.toInt + b.z.toInt) ∧
    r.w.toInt = dest.w.toInt + (a.w.toInt + b.w.toInt) := by
  simp only [glm_ivec4_addadd, bind_eq_some', I32.add_some, Option.pure_def, Option.some.injEq]
  constructor
  · rintro ⟨t0, i0, u0, h0, t1, i1, u1, h1, t2, i2, u2, h2, t3, i3, u3, h3, rfl⟩
    rw [← i0, ← i1, ← i2, ← i3]
    exact ⟨⟨toInt_inInt _, toInt_inInt _, toInt_inInt _, toInt_inInt _⟩, h0, h1, h2, h3⟩
  · rintro ⟨⟨i0, i1, i2, i3⟩, h0, h1, h2, h3⟩
    exact ⟨_, i0.toInt_ofInt, _, by rw [i0.toInt_ofInt]; exact h0, _, i1.toInt_ofInt, _, by rw [i1.toInt_ofInt]; exact h1, _, i2.toInt_ofInt, _, by rw [i2.toInt_ofInt]; exact h2, _, i3.toInt_ofInt, _, by rw [i3.toInt_ofInt]; exact h3, rfl⟩
theorem C53_ivec4_addadds (a : V4 Int32) (s : Int32) (dest : V4 Int32) (r : V4 Int32) : glm_ivec4_addadds a s dest = some r ↔
    (InInt (a.x.toInt + s.toInt) ∧ InInt (a.y.toInt + s.toInt) ∧ InInt (a.z.toInt + s.toInt) ∧ InInt (a.w.toInt + s.toInt)) ∧
    r.x.toInt = dest.x.toInt + (a.x.toInt + s.toInt) ∧
    r.y.toInt = dest.y.toInt + (a.y.toInt + s.toInt) ∧
    r.z.toInt = dest.z.toInt + (a.z.toInt + s.toInt) ∧
    r.w.toInt = dest.w.toInt + (a.w.toInt + s.toInt) := by
  simp only [glm_ivec4_addadds, bind_eq_some', I32.add_some, Option.pure_def, Option.some.injEq]
  constructor
  · rintro ⟨t0, i0, u0, h0, t1, i1, u1, h1, t2, i2, u2, h2, t3, i3, u3, h3, rfl⟩
    rw [← i0, ← i1, ← i2, ← i3]
    exact ⟨⟨toInt_inInt _, toInt_inInt _, toInt_inInt _, toInt_inInt _⟩, h0, h1, h2, h3⟩
  · rintro ⟨⟨i0, i1, i2, i3⟩, h0, h1, h2, h3⟩
    exact ⟨_, i0.toInt_ofInt, _, by rw [i0.toInt_ofInt]; exact h0, _, i1.toInt_ofInt, _, by rw [i1.toInt_ofInt]; exact h1, _, i2.toInt_ofInt, _, by rw [i2.toInt_ofInt]; exact h2, _, i3.toInt_ofInt, _, by rw [i3.toInt_ofInt]; exact h3, rfl⟩
theorem C53_ivec4_subadd (a b dest : V4 Int32) (r : V4 Int32) : glm_ivec4_subadd a b dest = some r ↔
    (InInt (a.x.toInt - b.x.toInt) ∧ InInt (a.y.toInt - b.y.toInt) ∧ InInt (a.z.toInt - b.z.toInt) ∧ InInt (a.w.toInt - b.w.toInt)) ∧
    r.x.toInt = dest.x.toInt + (a.x.toInt - b.x.toInt) ∧
    r.y.toInt = dest.y.toInt + (a.y.toInt - b.y.toInt) ∧
    r.z.toInt = dest.z.toInt + (a.z.toInt - b.z.toInt) ∧
    r.w.toInt = dest.w.toInt + (a.w.toInt - b.w.toInt) := by
  simp only [glm_ivec4_subadd, bind_eq_some', I32.add_some, I32.sub_some, Option.pure_def, Option.some.injEq]
  constructor
  · rintro ⟨t0, i0, u0, h0, t1, i1, u1, h1, t2, i2, u2, h2, t3, i3, u3, h3, rfl⟩
    rw [← i0, ← i1, ← i2, ← i3]
    exact ⟨⟨toInt_inInt _, toInt_inInt _, toInt_inInt _, toInt_inInt _⟩, h0, h1, h2, h3⟩
  · rintro ⟨⟨i0, i1, i2, i3⟩, h0, h1, h2, h3⟩
    exact ⟨_, i0.toInt_ofInt, _, by rw [i0.toInt_ofInt]; exact h0, _, i1.toInt_ofInt, _, by rw [i1.toInt_ofInt]; exact h1, _, i2.toInt_ofInt, _, by rw [i2.toInt_ofInt]; exact h2, _, i3.toInt_ofInt, _, by rw [i3.toInt_ofInt]; exact h3, rfl⟩
theorem C53_ivec4_subadds (a : V4 Int32) (s : Int32) (dest : V4 Int32) (r : V4 Int32) : glm_ivec4_subadds a s dest = some r ↔
    (InInt (a.x.toInt - s.toInt) ∧ InInt (a.y.toInt - s.toInt) ∧ InInt (a.z.toInt - s.toInt) ∧ InInt (a.w.toInt - s.toInt)) ∧
    r.x.toInt = dest.x.toInt + (a.x.toInt - s.toInt) ∧
    r.y.toInt = dest.y.toInt + (a.y.toInt - s.toInt) ∧
    r.z.toInt = dest.z.toInt + (a.z.toInt - s.toInt) ∧
    r.w.toInt = dest.w.toInt + (a.w.toInt - s.toInt) := by
  simp only [glm_ivec4_subadds, bind_eq_some', I32.add_some, I32.sub_some, Option.pure_def, Option.some.injEq]
  constructor
  · rintro ⟨t0, i0, u0, h0, t1, i1, u1, h1, t2, i2, u2, h2, t3, i3, u3, h3, rfl⟩
    rw [← i0, ← i1, ← i2, ← i3]
    exact ⟨⟨toInt_inInt _, toInt_inInt _, toInt_inInt _, toInt_inInt _⟩, h0, h1, h2, h3⟩
  · rintro ⟨⟨i0, i1, i2, i3⟩, h0, h1, h2, h3⟩
    exact ⟨_, i0.toInt_ofInt, _, by rw [i0.toInt_ofInt]; exact h0, _, i1.toInt_ofInt, _, by rw [i1.toInt_ofInt]; exact h1, _, i2.toInt_ofInt, _, by rw [i2.toInt_ofInt]; exact h2, _, i3.toInt_ofInt, _, by rw [i3.toInt_ofInt]; exact h3, rfl⟩
theorem C53_ivec4_muladd (a b dest : V4 Int32) (r : V4 Int32) : glm_ivec4_muladd a b dest = some r ↔
    (InInt (a.x.toInt * b.x.toInt) ∧ InInt (a.y.toInt * b.y.toInt) ∧ InInt (a.z.toInt * b.z.toInt) ∧ InInt (a.w.toInt * b.w.toInt)) ∧
    r.x.toInt = dest.x.toInt + (a.x.toInt * b.x.toInt) ∧
    r.y.toInt = dest.y.toInt + (a.y.toInt * b.y.toInt) ∧
    r.z.toInt = dest.z.toInt + (a.z.toInt * b.z.toInt) ∧
    r.w.toInt = dest.w.toInt + (a.w.toInt * b.w.toInt) := by
  simp only [glm_ivec4_muladd, bind_eq_some', I32.add_some, I32.mul_some, Option.pure_def, Option.some.injEq]
  constructor
  · rintro ⟨t0, i0, u0, h0, t1, i1, u1, h1, t2, i2, u2, h2, t3, i3, u3, h3, rfl⟩
    rw [← i0, ← i1, ← i2, ← i3]
    exact ⟨⟨toInt_inInt _, toInt_inInt _, toInt_inInt _, toInt_inInt _⟩, h0, h1, h2, h3⟩
  · rintro ⟨⟨i0, i1, i2, i3⟩, h0, h1, h2, h3⟩
    exact ⟨_, i0.toInt_ofInt, _, by rw [i0.toInt_ofInt]; exact h0, _, i1.toInt_ofInt, _, by rw [i1.toInt_ofInt]; exact h1, _, i2.toInt_ofInt, _, by rw [i2.toInt_ofInt]; exact h2, _, i3.toInt_ofInt, _, by rw [i3.toInt_ofInt]; exact h3, rfl⟩
theorem C53_ivec4_muladds (a : V4 Int32) (s : Int32) (dest : V4 Int32) (r : V4 Int32) : glm_ivec4_muladds a s dest = some r ↔
    (InInt (a.x.toInt * s.toInt) ∧ InInt (a.y.toInt * s.toInt) ∧ InInt (a.z.toInt * s.toInt) ∧ InInt (a.w.toInt * s.toInt)) ∧
    r.x.toInt = dest.x.toInt + (a.x.toInt * s.toInt) ∧
    r.y.toInt = dest.y.toInt + (a.y.toInt * s.toInt) ∧
    r.z.toInt = dest.z.toInt + (a.z.toInt * s.toInt) ∧
    r.w.toInt = dest.w.toInt + (a.w.toInt * s.toInt) := by
  simp only [glm_ivec4_muladds, bind_eq_some', I32.add_some, I32.mul_some, Option.pure_def, Option.some.injEq]
  constructor
  · rintro ⟨t0, i0, u0, h0, t1, i1, u1, h1, t2, i2, u2, h2, t3, i3, u3, h3, rfl⟩
    rw [← i0, ← i1, ← i2, ← i3]
    exact ⟨⟨toInt_inInt _, toInt_inInt _, toInt_inInt _, toInt_inInt _⟩, h0, h1, h2, h3⟩
  · rintro ⟨⟨i0, i1, i2, i3⟩, h0, h1, h2, h3⟩
    exact ⟨_, i0.toInt_ofInt, _, by rw [i0.toInt_ofInt]; exact h0, _, i1.toInt_ofInt, _, by rw [i1.toInt_ofInt]; exact h1, _, i2.toInt_ofInt, _, by rw [i2.toInt_ofInt]; exact h2, _, i3.toInt_ofInt, _, by rw [i3.toInt_ofInt]; exact h3, rfl⟩
theorem C53_ivec4_maxadd (a b dest : V4 Int32) (r : V4 Int32) : glm_ivec4_maxadd a b dest = some r ↔
    r.x.toInt = dest.x.toInt + max a.x.toInt b.x.toInt ∧
    r.y.toInt = dest.y.toInt + max a.y.toInt b.y.toInt ∧
    r.z.toInt = dest.z.toInt + max a.z.toInt b.z.toInt ∧
    r.w.toInt = dest.w.toInt + max a.w.toInt b.w.toInt := by
  simp only [glm_ivec4_maxadd, bind_eq_some', imax_some, I32.add_some, Option.pure_def, Option.some.injEq]
  constructor
  · rintro ⟨t0, i0, u0, h0, t1, i1, u1, h1, t2, i2, u2, h2, t3, i3, u3, h3, rfl⟩
    rw [← i0, ← i1, ← i2, ← i3]
    exact ⟨h0, h1, h2, h3⟩
  · rintro ⟨h0, h1, h2, h3⟩
    obtain ⟨s0, e0, q0⟩ := glm_imax_some a.x b.x
    rw [imax_some] at e0
    rw [← q0] at h0
    obtain ⟨s1, e1, q1⟩ := glm_imax_some a.y b.y
    rw [imax_some] at e1
    rw [← q1] at h1
    obtain ⟨s2, e2, q2⟩ := glm_imax_some a.z b.z
    rw [imax_some] at e2
    rw [← q2] at h2
    obtain ⟨s3, e3, q3⟩ := glm_imax_some a.w b.w
    rw [imax_some] at e3
    rw [← q3] at h3
    exact ⟨_, e0, _, h0, _, e1, _, h1, _, e2, _, h2, _, e3, _, h3, rfl⟩
theorem C53_ivec4_minadd (a b dest : V4 Int32) (r : V4 Int32) : glm_ivec4_minadd a b dest = some r ↔
    r.x.toInt = dest.x.toInt + min a.x.toInt b.x.toInt ∧
    r.y.toInt = dest.y.toInt + min a.y.toInt b.y.toInt ∧
    r.z.toInt = dest.z.toInt + min a.z.toInt b.z.toInt ∧
    r.w.toInt = dest.w.toInt + min a.w.toInt b.w.toInt := by
  simp only [glm_ivec4_minadd, bind_eq_some', imin_some, I32.add_some, Option.pure_def, Option.some.injEq]
  constructor
  · rintro ⟨t0, i0, u0, h0, t1, i1, u1, h1, t2, i2, u2, h2, t3, i3, u3, h3, rfl⟩
    rw [← i0, ← i1, ← i2, ← i3]
    exact ⟨h0, h1, h2, h3⟩
  · rintro ⟨h0, h1, h2, h3⟩
    obtain ⟨s0, e0, q0⟩ := glm_imin_some a.x b.x
    rw [imin_some] at e0
    rw [← q0] at h0
    obtain ⟨s1, e1, q1⟩ := glm_imin_some a.y b.y
    rw [imin_some] at e1
    rw [← q1] at h1
    obtain ⟨s2, e2, q2⟩ := glm_imin_some a.z b.z
    rw [imin_some] at e2
    rw [← q2] at h2
    obtain ⟨s3, e3, q3⟩ := glm_imin_some a.w b.w
    rw [imin_some] at e3
    rw [← q3] at h3
    exact ⟨_, e0, _, h0, _, e1, _, h1, _, e2, _, h2, _, e3, _, h3, rfl⟩
theorem C53_ivec4_addsub (a b dest : V4 Int32) (r : V4 Int32) : glm_ivec4_addsub a b dest = some r ↔
    (InInt (a.x.toInt + b.x.toInt) ∧ InInt (a.y.toInt + b.y.toInt) ∧ InInt (a.z.toInt + b.z.toInt) ∧ InInt (a.w.toInt + b.w.toInt)) ∧
    r.x.toInt = dest.x.toInt - (a.x.toInt + b.x.toInt) ∧
    r.y.toInt = dest.y.toInt - (a.y.toInt + b.y.toInt) ∧
    r.z.toInt = dest.z.toInt - (a.z.toInt + b.z.toInt) ∧
    r.w.toInt = dest.w.toInt - (a.w.toInt + b.w.toInt) := by
  simp only [glm_ivec4_addsub, bind_eq_some', I32.add_some, I32.sub_some, Option.pure_def, Option.some.injEq]
  constructor
  · rintro ⟨t0, i0, u0, h0, t1, i1, u1, h1, t2, i2, u2, h2, t3, i3, u3, h3, rfl⟩
    rw [← i0, ← i1, ← i2, ← i3]
    exact ⟨⟨toInt_inInt _, toInt_inInt _, toInt_inInt _, toInt_inInt _⟩, h0, h1, h2, h3⟩
  · rintro ⟨⟨i0, i1, i2, i3⟩, h0, h1, h2, h3⟩
    exact ⟨_, i0.toInt_ofInt, _, by rw [i0.toInt_ofInt]; exact h0, _, i1.toInt_ofInt, _, by rw [i1.toInt_ofInt]; exact h1, _, i2.toInt_ofInt, _, by rw [i2.toInt_ofInt]; exact h2, _, i3.toInt_ofInt, _, by rw [i3.toInt_ofInt]; exact h3, rfl⟩
theorem C53_ivec4_addsubs (a : V4 Int32) (s : Int32) (dest : V4 Int32) (r : V4 Int32) : glm_ivec4_addsubs a s dest = some r ↔
    (InInt (a.x.toInt + s.toInt) ∧ InInt (a.y.toInt + s.toInt) ∧ InInt (a.z.toInt + s.toInt) ∧ InInt (a.w.toInt + s.toInt)) ∧
    r.x.toInt = dest.x.toInt - (a.x.toInt + s.toInt) ∧
    r.y.toInt = dest.y.toInt - (a.y.toInt + s.toInt) ∧
    r.z.toInt = dest.z.toInt - (a.z.toInt + s.toInt) ∧
    r.w.toInt = dest.w.toInt - (a.w.toInt + s.toInt) := by
  simp only [glm_ivec4_addsubs, bind_eq_some', I32.add_some, I32.sub_some, Option.pure_def, Option.some.injEq]
  constructor
  · rintro ⟨t0, i0, u0, h0, t1, i1, u1, h1, t2, i2, u2, h2, t3, i3, u3, h3, rfl⟩
    rw [← i0, ← i1, ← i2, ← i3]
    exact ⟨⟨toInt_inInt _, toInt_inInt _, toInt_inInt _, toInt_inInt _⟩, h0, h1, h2, h3⟩
  · rintro ⟨⟨i0, i1, i2, i3⟩, h0, h1, h2, h3⟩
    exact ⟨_, i0.toInt_ofInt, _, by rw [i0.toInt_ofInt]; exact h0, _, i1.toInt_ofInt, _, by rw [i1.toInt_ofInt]; exact h1, _, i2.toInt_ofInt, _, by rw [i2.toInt_ofInt]; exact h2, _, i3.toInt_ofInt, _, by rw [i3.toInt_ofInt]; exact h3, rfl⟩
theorem C53_ivec4_subsub (a b dest : V4 Int32) (r : V4 Int32) : glm_ivec4_subsub a b dest = some r ↔
    (InInt (a.x.toInt - b.x.toInt) ∧ InInt (a.y.toInt - b.y.toInt) ∧ InInt (a.z.toInt - b.z.toInt) ∧ InInt (a.w.toInt - b.w.toInt)) ∧
    r.x.toInt = dest.x.toInt - (a.x.toInt - b.x.toInt) ∧
    r.y.toInt = dest.y.toInt - (a.y.toInt - b.y.toInt) ∧
    r.z.toInt = dest.z.toInt - (a.z.toInt - b.z.toInt) ∧
    r.w.toInt = dest.w.toInt - (a.w.toInt - b.w.toInt) := by
  simp only [glm_ivec4_subsub, bind_eq_some', I32.sub_some, Option.pure_def, Option.some.injEq]
  constructor
  · rintro ⟨t0, i0, u0, h0, t1, i1, u1, h1, t2, i2, u2, h2, t3, i3, u3, h3, rfl⟩
    rw [← i0, ← i1, ← i2, ← i3]
    exact ⟨⟨toInt_inInt _, toInt_inInt _, toInt_inInt _, toInt_inInt _⟩, h0, h1, h2, h3⟩
  · rintro ⟨⟨i0, i1, i2, i3⟩, h0, h1, h2, h3⟩
    exact ⟨_, i0.toInt_ofInt, _, by rw [i0.toInt_ofInt]; exact h0, _, i1.toInt_ofInt, _, by rw [i1.toInt_ofInt]; exact h1, _, i2.toInt_ofInt, _, by rw [i2.toInt_ofInt]; exact h2, _, i3.toInt_ofInt, _, by rw [i3.toInt_ofInt]; exact h3, rfl⟩
theorem C53_ivec4_subsubs (a : V4 Int32) (s : Int32) (dest : V4 Int32) (r : V4 Int32) : glm_ivec4_subsubs a s dest = some r ↔
    (InInt (a.x.toInt - s.toInt) ∧ InInt (a.y.toInt - s.toInt) ∧ InInt (a.z.toInt - s.toInt) ∧ InInt (a.w.toInt - s.toInt)) ∧
    r.x.toInt = dest.x.toInt - (a.x.toInt - s.toInt) ∧
    r.y.toInt = dest.y.toInt - (a.y.toInt - s.toInt) ∧
    r.z.toInt = dest.z.toInt - (a.z.toInt - s.toInt) ∧
    r.w.toInt = dest.w.toInt - (a.w.toInt - s.toInt) := by
  simp only [glm_ivec4_subsubs, bind_eq_some', I32.sub_some, Option.pure_def, Option.some.injEq]
  constructor
  · rintro ⟨t0, i0, u0, h0, t1, i1, u1, h1, t2, i2, u2, h2, t3, i3, u3, h3, rfl⟩
    rw [← i0, ← i1, ← i2, ← i3]
    exact ⟨⟨toInt_inInt _, toInt_inInt _, toInt_inInt _, toInt_inInt _⟩, h0, h1, h2, h3⟩
  · rintro ⟨⟨i0, i1, i2, i3⟩, h0, h1, h2, h3⟩
    exact ⟨_, i0.toInt_ofInt, _, by rw [i0.toInt_ofInt]; exact h0, _, i1.toInt_ofInt, _, by rw [i1.toInt_ofInt]; exact h1, _, i2.toInt_ofInt, _, by rw [i2.toInt_ofInt]; exact h2, _, i3.toInt_ofInt, _, by rw [i3.toInt_ofInt]; exact h3, rfl⟩
theorem C53_ivec4_mulsub (a b dest : V4 Int32) (r : V4 Int32) : glm_ivec4_mulsub a b dest = some r ↔
    (InInt (a.x.toInt * b.x.toInt) ∧ InInt (a.y.toInt * b.y.toInt) ∧ InInt (a.z.toInt * b.z.toInt) ∧ InInt (a.w.toInt * b.w.toInt)) ∧
    r.x.toInt = dest.x.toInt - (a.x.toInt * b.x.toInt) ∧
    r.y.toInt = dest.y.toInt - (a.y.toInt * b.y.toInt) ∧
    r.z.toInt = dest.z.toInt - (a.z.toInt * b.z.toInt) ∧
    r.w.toInt = dest.w.toInt - (a.w.toInt * b.w.toInt) := by
  simp only [glm_ivec4_mulsub, bind_eq_some', I32.mul_some, I32.sub_some, Option.pure_def, Option.some.injEq]
  constructor
  · rintro ⟨t0, i0, u0, h0, t1, i1, u1, h1, t2, i2, u2, h2, t3, i3, u3, h3, rfl⟩
    rw [← i0, ← i1, ← i2, ← i3]
    exact ⟨⟨toInt_inInt _, toInt_inInt _, toInt_inInt _, toInt_inInt _⟩, h0, h1, h2, h3⟩
  · rintro ⟨⟨i0, i1, i2, i3⟩, h0, h1, h2, h3⟩
    exact ⟨_, i0.toInt_ofInt, _, by rw [i0.toInt_ofInt]; exact h0, _, i1.toInt_ofInt, _, by rw [i1.toInt_ofInt]; exact h1, _, i2.toInt_ofInt, _, by rw [i2.toInt_ofInt]; exact h2, _, i3.toInt_ofInt, _, by rw [i3.toInt_ofInt]; exact h3, rfl⟩
theorem C53_ivec4_mulsubs (a : V4 Int32) (s : Int32) (dest : V4 Int32) (r : V4 Int32) : glm_ivec4_mulsubs a s dest = some r ↔
    (InInt (a.x.toInt * s.toInt) ∧ InInt (a.y.toInt * s.toInt) ∧ InInt (a.z.toInt * s.toInt) ∧ InInt (a.w.toInt * s.toInt)) ∧
    r.x.toInt = dest.x.toInt - (a.x.toInt * s.toInt) ∧
    r.y.toInt = dest.y.toInt - (a.y.toInt * s.toInt) ∧
    r.z.toInt = dest.z.toInt - (a.z.toInt * s.toInt) ∧
    r.w.toInt = dest.w.toInt - (a.w.toInt * s.toInt) := by
  simp only [glm_ivec4_mulsubs, bind_eq_some', I32.mul_some, I32.sub_some, Option.pure_def, Option.some.injEq]
  constructor
  · rintro ⟨t0, i0, u0, h0, t1, i1, u1, h1, t2, i2, u2, h2, t3, i3, u3, h3, rfl⟩
    rw [← i0, ← i1, ← i2, ← i3]
    exact ⟨⟨toInt_inInt _, toInt_inInt _, toInt_inInt _, toInt_inInt _⟩, h0, h1, h2, h3⟩
  · rintro ⟨⟨i0, i1, i2, i3⟩, h0, h1, h2, h3⟩
    exact ⟨_, i0.toInt_ofInt, _, by rw [i0.toInt_ofInt]; exact h0, _, i1.toInt_ofInt, _, by rw [i1.toInt_ofInt]; exact h1, _, i2.toInt_ofInt, _, by rw [i2.toInt_ofInt]; exact h2, _, i3.toInt_ofInt, _, by rw [i3.toInt_ofInt]; exact h3, rfl⟩
theorem C53_ivec4_maxsub (a b dest : V4 Int32) (r : V4 Int32) : glm_ivec4_maxsub a b dest = some r ↔
    r.x.toInt = dest.x.toInt - max a.x.toInt b.x.toInt ∧
    r.y.toInt = dest.y.toInt - max a.y.toInt b.y.toInt ∧
    r.z.toInt = dest.z.toInt - max a.z.toInt b.z.toInt ∧
    r.w.toInt = dest.w.toInt - max a.w.toInt b.w.toInt := by
  simp only [glm_ivec4_maxsub, bind_eq_some', imax_some, I32.sub_some, Option.pure_def, Option.some.injEq]
  constructor
  · rintro ⟨t0, i0, u0, h0, t1, i1, u1, h1, t2, i2, u2, h2, t3, i3, u3, h3, rfl⟩
    rw [← i0, ← i1, ← i2, ← i3]
    exact ⟨h0, h1, h2, h3⟩
  · rintro ⟨h0, h1, h2, h3⟩
    obtain ⟨s0, e0, q0⟩ := glm_imax_some a.x b.x
    rw [imax_some] at e0
    rw [← q0] at h0
    obtain ⟨s1, e1, q1⟩ := glm_imax_some a.y b.y
    rw [imax_some] at e1
    rw [← q1] at h1
    obtain ⟨s2, e2, q2⟩ := glm_imax_some a.z b.z
    rw [imax_some] at e2
    rw [← q2] at h2
    obtain ⟨s3, e3, q3⟩ := glm_imax_some a.w b.w
    rw [imax_some] at e3
    rw [← q3] at h3
    exact ⟨_, e0, _, h0, _, e1, _, h1, _, e2, _, h2, _, e3, _, h3, rfl⟩
theorem C53_ivec4_minsub (a b dest : V4 Int32) (r : V4 Int32) : glm_ivec4_minsub a b dest = some r ↔
    r.x.toInt = dest.x.toInt - min a.x.toInt b.x.toInt ∧
    r.y.toInt = dest.y.toInt - min a.y.toInt b.y.toInt ∧
    r.z.toInt = dest.z.toInt - min a.z.toInt b.z.toInt ∧
    r.w.toInt = dest.w.toInt - min a.w.toInt b.w.toInt := by
  simp only [glm_ivec4_minsub, bind_eq_some', imin_some, I32.sub_some, Option.pure_def, Option.some.injEq]
  constructor
  · rintro ⟨t0, i0, u0, h0, t1, i1, u1, h1, t2, i2, u2, h2, t3, i3, u3, h3, rfl⟩
    rw [← i0, ← i1, ← i2, ← i3]
    exact ⟨h0, h1, h2, h3⟩
  · rintro ⟨h0, h1, h2, h3⟩
    obtain ⟨s0, e0, q0⟩ := glm_imin_some a.x b.x
    rw [imin_some] at e0
    rw [← q0] at h0
    obtain ⟨s1, e1, q1⟩ := glm_imin_some a.y b.y
    rw [imin_some] at e1
    rw [← q1] at h1
    obtain ⟨s2, e2, q2⟩ := glm_imin_some a.z b.z
    rw [imin_some] at e2
    rw [← q2] at h2
    obtain ⟨s3, e3, q3⟩ := glm_imin_some a.w b.w
    rw [imin_some] at e3
    rw [← q3] at h3
    exact ⟨_, e0, _, h0, _, e1, _, h1, _, e2, _, h2, _, e3, _, h3, rfl⟩
theorem C53_ivec4_maxv (a b : V4 Int32) : ∃ r, glm_ivec4_maxv a b = some r ∧
    r.x.toInt = max a.x.toInt b.x.toInt ∧ r.y.toInt = max a.y.toInt b.y.toInt ∧ r.z.toInt = max a.z.toInt b.z.toInt ∧ r.w.toInt = max a.w.toInt b.w.toInt := by
  refine ⟨_, rfl, ?_⟩
  simp only [I32.gt, decide_eq_true_eq]
  refine ⟨?_, ?_, ?_, ?_⟩ <;> split_ifs <;> omega
theorem C53_ivec4_minv (a b : V4 Int32) : ∃ r, glm_ivec4_minv a b = some r ∧
    r.x.toInt = min a.x.toInt b.x.toInt ∧ r.y.toInt = min a.y.toInt b.y.toInt ∧ r.z.toInt = min a.z.toInt b.z.toInt ∧ r.w.toInt = min a.w.toInt b.w.toInt := by
  refine ⟨_, rfl, ?_⟩
  simp only [I32.lt, decide_eq_true_eq]
  refine ⟨?_, ?_, ?_, ?_⟩ <;> split_ifs <;> omega
theorem C53_ivec4_clamp (v : V4 Int32) (lo hi : Int32) (h : lo.toInt ≤ hi.toInt) : ∃ r, glm_ivec4_clamp v lo hi = some r ∧
    r.x.toInt = max lo.toInt (min v.x.toInt hi.toInt) ∧ r.y.toInt = max lo.toInt (min v.y.toInt hi.toInt) ∧ r.z.toInt = max lo.toInt (min v.z.toInt hi.toInt) ∧ r.w.toInt = max lo.toInt (min v.w.toInt hi.toInt) := by
  simp only [glm_ivec4_clamp, I32.lt, I32.gt, decide_eq_true_eq]
  (by_cases hx : v.x.toInt < lo.toInt <;> [rw [if_pos hx]; (rw [if_neg hx]; by_cases kx : hi.toInt < v.x.toInt <;> [rw [if_pos kx]; rw [if_neg kx]])]) <;>
  (by_cases hy : v.y.toInt < lo.toInt <;> [rw [if_pos hy]; (rw [if_neg hy]; by_cases ky : hi.toInt < v.y.toInt <;> [rw [if_pos ky]; rw [if_neg ky]])]) <;>
  (by_cases hz : v.z.toInt < lo.toInt <;> [rw [if_pos hz]; (rw [if_neg hz]; by_cases kz : hi.toInt < v.z.toInt <;> [rw [if_pos kz]; rw [if_neg kz]])]) <;>
  (by_cases hw : v.w.toInt < lo.toInt <;> [rw [if_pos hw]; (rw [if_neg hw]; by_cases kw : hi.toInt < v.w.toInt <;> [rw [if_pos kw]; rw [if_neg kw]])]) <;>
  refine ⟨_, rfl, ?_⟩ <;> first | (dsimp only; omega) | omega
/-- The squared distance: the differences and the sum have to be representable (the squares and partial sums then are). -/
theorem C53_ivec4_distance2 (a b : V4 Int32) (r : Int32) : glm_ivec4_distance2 a b = some r ↔
    (InInt (a.x.toInt - b.x.toInt) ∧ InInt (a.y.toInt - b.y.toInt) ∧ InInt (a.z.toInt - b.z.toInt) ∧ InInt (a.w.toInt - b.w.toInt)) ∧
    r.toInt = (a.x.toInt - b.x.toInt) * (a.x.toInt - b.x.toInt) + (a.y.toInt - b.y.toInt) * (a.y.toInt - b.y.toInt) + (a.z.toInt - b.z.toInt) * (a.z.toInt - b.z.toInt) + (a.w.toInt - b.w.toInt) * (a.w.toInt - b.w.toInt) := by
  simp only [glm_ivec4_distance2, bind_eq_some', I32.add_some, I32.sub_some, I32.mul_some]
  constructor
  · rintro ⟨d0, e0, d1, e1, d2, e2, d3, e3, p0, f0, p1, f1, s1, g1, p2, f2, s2, g2, p3, f3, g3⟩
    refine ⟨⟨e0 ▸ toInt_inInt d0, e1 ▸ toInt_inInt d1, e2 ▸ toInt_inInt d2, e3 ▸ toInt_inInt d3⟩, ?_⟩
    rw [g3, g2, g1, f0, f1, f2, f3, e0, e1, e2, e3]
  · rintro ⟨⟨i0, i1, i2, i3⟩, h⟩
    have hr := toInt_inInt r
    have n0 : 0 ≤ (a.x.toInt - b.x.toInt) * (a.x.toInt - b.x.toInt) := mul_self_nonneg _
    have n1 : 0 ≤ (a.y.toInt - b.y.toInt) * (a.y.toInt - b.y.toInt) := mul_self_nonneg _
    have n2 : 0 ≤ (a.z.toInt - b.z.toInt) * (a.z.toInt - b.z.toInt) := mul_self_nonneg _
    have n3 : 0 ≤ (a.w.toInt - b.w.toInt) * (a.w.toInt - b.w.toInt) := mul_self_nonneg _
    simp only [InInt] at hr
    have j0 : InInt ((a.x.toInt - b.x.toInt) * (a.x.toInt - b.x.toInt)) := ⟨by omega, by omega⟩
    have j1 : InInt ((a.y.toInt - b.y.toInt) * (a.y.toInt - b.y.toInt)) := ⟨by omega, by omega⟩
    have j2 : InInt ((a.z.toInt - b.z.toInt) * (a.z.toInt - b.z.toInt)) := ⟨by omega, by omega⟩
    have j3 : InInt ((a.w.toInt - b.w.toInt) * (a.w.toInt - b.w.toInt)) := ⟨by omega, by omega⟩
    have k1 : InInt ((a.x.toInt - b.x.toInt) * (a.x.toInt - b.x.toInt) + (a.y.toInt - b.y.toInt) * (a.y.toInt - b.y.toInt)) := ⟨by omega, by omega⟩
    have k2 : InInt ((a.x.toInt - b.x.toInt) * (a.x.toInt - b.x.toInt) + (a.y.toInt - b.y.toInt) * (a.y.toInt - b.y.toInt) + (a.z.toInt - b.z.toInt) * (a.z.toInt - b.z.toInt)) := ⟨by omega, by omega⟩
    exact ⟨_, i0.toInt_ofInt,
      _, i1.toInt_ofInt,
      _, i2.toInt_ofInt,
      _, i3.toInt_ofInt,
      Int32.ofInt ((a.x.toInt - b.x.toInt) * (a.x.toInt - b.x.toInt)), (by rw [i0.toInt_ofInt]; exact j0.toInt_ofInt),
      Int32.ofInt ((a.y.toInt - b.y.toInt) * (a.y.toInt - b.y.toInt)), (by rw [i1.toInt_ofInt]; exact j1.toInt_ofInt),
      Int32.ofInt ((a.x.toInt - b.x.toInt) * (a.x.toInt - b.x.toInt) + (a.y.toInt - b.y.toInt) * (a.y.toInt - b.y.toInt)), (by rw [j0.toInt_ofInt, j1.toInt_ofInt]; exact k1.toInt_ofInt),
      Int32.ofInt ((a.z.toInt - b.z.toInt) * (a.z.toInt - b.z.toInt)), (by rw [i2.toInt_ofInt]; exact j2.toInt_ofInt),
      Int32.ofInt ((a.x.toInt - b.x.toInt) * (a.x.toInt - b.x.toInt) + (a.y.toInt - b.y.toInt) * (a.y.toInt - b.y.toInt) + (a.z.toInt - b.z.toInt) * (a.z.toInt - b.z.toInt)), (by rw [k1.toInt_ofInt, j2.toInt_ofInt]; exact k2.toInt_ofInt),
      Int32.ofInt ((a.w.toInt - b.w.toInt) * (a.w.toInt - b.w.toInt)), (by rw [i3.toInt_ofInt]; exact j3.toInt_ofInt),
      (by rw [k2.toInt_ofInt, j3.toInt_ofInt]; exact h)⟩
/-- The distance, in exact arithmetic. -/
theorem C53_ivec4_distance (a b : V4 Int32) (x : ℝ) : glm_ivec4_distance (α := ℝ) a b = some x ↔
    (InInt (a.x.toInt - b.x.toInt) ∧ InInt (a.y.toInt - b.y.toInt) ∧ InInt (a.z.toInt - b.z.toInt) ∧ InInt (a.w.toInt - b.w.toInt)) ∧ InInt ((a.x.toInt - b.x.toInt) * (a.x.toInt - b.x.toInt) + (a.y.toInt - b.y.toInt) * (a.y.toInt - b.y.toInt) + (a.z.toInt - b.z.toInt) * (a.z.toInt - b.z.toInt) + (a.w.toInt - b.w.toInt) * (a.w.toInt - b.w.toInt)) ∧
    x = Real.sqrt (((a.x.toInt - b.x.toInt) * (a.x.toInt - b.x.toInt) + (a.y.toInt - b.y.toInt) * (a.y.toInt - b.y.toInt) + (a.z.toInt - b.z.toInt) * (a.z.toInt - b.z.toInt) + (a.w.toInt - b.w.toInt) * (a.w.toInt - b.w.toInt) : ℤ) : ℝ) := by
  simp only [glm_ivec4_distance, bind_eq_some', C53_ivec4_distance2, Option.pure_def, Option.some.injEq]
  constructor
  · rintro ⟨t, ⟨h, e⟩, rfl⟩; exact ⟨h, e ▸ toInt_inInt t, by rw [← e]; rfl⟩
  · rintro ⟨h, hz, rfl⟩
    exact ⟨_, ⟨h, hz.toInt_ofInt⟩, congrArg (fun z : ℤ => Real.sqrt (z : ℝ)) hz.toInt_ofInt⟩

/-! ## Concrete cases -/

/-- In range: a sum, a product with a sign, a truncated quotient, a remainder. -/
example : glm_ivec2_add ⟨2147483647, -5⟩ ⟨-1, 7⟩ = some ⟨2147483646, 2⟩ ∧ glm_ivec2_mul ⟨3, -4⟩ ⟨5, 6⟩ = some ⟨15, -24⟩ ∧
    glm_ivec2_div ⟨-7, 7⟩ ⟨2, -2⟩ = some ⟨-3, -3⟩ ∧ glm_ivec2_mod ⟨-7, 7⟩ ⟨2, -2⟩ = some ⟨-1, 1⟩ := by decide
/-- Out of range: overflow, division by zero, `INT_MIN / -1`, `abs(INT_MIN)`; and a product whose intermediate
overflows although the final value would fit. -/
example : glm_ivec2_add ⟨2147483647, 0⟩ ⟨1, 0⟩ = none ∧ glm_ivec2_div ⟨1, 1⟩ ⟨1, 0⟩ = none ∧
    glm_ivec2_div ⟨-2147483648, 1⟩ ⟨-1, 1⟩ = none ∧ glm_ivec2_abs ⟨-2147483648, 1⟩ = none ∧
    glm_ivec2_muladd ⟨65536, 0⟩ ⟨32768, 0⟩ ⟨-1, 0⟩ = none := by decide
example : InInt (3 - -4) := by unfold InInt; omega
/-- `glm_ivec3_norm (1, 2, 2)` is 3. -/
example : glm_ivec3_norm (α := ℝ) ⟨1, 2, 2⟩ = some 3 := by
  rw [C53_ivec3_norm]; unfold InInt; decide

end Cglm
