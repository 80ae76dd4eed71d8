import Verif.Props.C02

/-! # C05: product of N matrices -/

namespace Cglm

private theorem mulN_loop_spec (ms : List (M4 ℝ)) : ∀ (fuel i : ℕ) (d : M4 ℝ), i + fuel ≤ ms.length →
    ∃ r, glm_mat4_mulN_loop ms i d fuel = some r ∧
      r.mat = d.mat * (((ms.drop i).take fuel).map M4.mat).prod := by
  intro fuel
  induction fuel with
  | zero => intro i d _; exact ⟨d, rfl, by simp⟩
  | succ n ih =>
    intro i d hi
    have hlt : i < ms.length := by omega
    obtain ⟨r, hr, hm⟩ := ih (i + 1) (glm_mat4_mul d ms[i]) (by omega)
    refine ⟨r, ?_, ?_⟩
    · simp only [glm_mat4_mulN_loop, List.getElem?_eq_getElem hlt]; exact hr
    · rw [hm, C01_mat4_mul, List.drop_eq_getElem_cons hlt, List.take_succ_cons, List.map_cons, List.prod_cons, mul_assoc]

/-- for every count of at least two, within the array, the result is the ordered product of the first `len` matrices -/
theorem C05_mulN (ms : List (M4 ℝ)) (len : ℕ) (h2 : 2 ≤ len) (hl : len ≤ ms.length) :
    ∃ r, glm_mat4_mulN ms len = some r ∧ r.mat = ((ms.take len).map M4.mat).prod := by
  match ms, hl with
  | [], hl => simp at hl; omega
  | [_], hl => simp at hl; omega
  | a :: b :: ms', hl =>
    obtain ⟨r, hr, hm⟩ := mulN_loop_spec (a :: b :: ms') (len - 2) 2 (glm_mat4_mul a b) (by simp at hl ⊢; omega)
    refine ⟨r, ?_, ?_⟩
    · simpa [glm_mat4_mulN] using hr
    · obtain ⟨k, rfl⟩ : ∃ k, len = k + 2 := ⟨len - 2, by omega⟩
      rw [hm, C01_mat4_mul]
      simp [List.take_succ_cons, mul_assoc]

/-- with a matrix list shorter than the two the code reads unconditionally, behaviour is undefined (whatever `len`) -/
theorem C05_mulN_undefined_short (ms : List (M4 ℝ)) (len : ℕ) (h : ms.length < 2) : glm_mat4_mulN ms len = none := by
  match ms, h with
  | [], _ => simp [glm_mat4_mulN]
  | [_], _ => simp [glm_mat4_mulN]

/-- a count larger than the array is undefined -/
theorem C05_mulN_undefined_long (ms : List (M4 ℝ)) (len : ℕ) (h : ms.length < len) : glm_mat4_mulN ms len = none := by
  have loop : ∀ (fuel i : ℕ) (d : M4 ℝ), i ≤ ms.length → ms.length < i + fuel → glm_mat4_mulN_loop ms i d fuel = none := by
    intro fuel
    induction fuel with
    | zero => intro i d h1 h2; omega
    | succ n ih =>
      intro i d h1 h2
      rcases Nat.lt_or_ge i ms.length with hi | hi
      · simp only [glm_mat4_mulN_loop, List.getElem?_eq_getElem hi]; exact ih _ _ (by omega) (by omega)
      · simp [glm_mat4_mulN_loop, List.getElem?_eq_none hi]
  rcases Nat.lt_or_ge ms.length 2 with h2 | h2
  · exact C05_mulN_undefined_short ms len h2
  · match ms, h2, h, loop with
    | a :: b :: ms', _, h, loop =>
      simp only [glm_mat4_mulN, List.getElem?_cons_zero, List.getElem?_cons_succ]
      exact loop _ _ _ (by simp) (by simp at h ⊢; omega)

/-- the count 1 is not the product of one matrix: the code multiplies two regardless -/
theorem C05_mulN_count_one : ∃ ms : List (M4 ℝ), ∃ r, glm_mat4_mulN ms 1 = some r ∧ r.mat ≠ ((ms.take 1).map M4.mat).prod := by
  refine ⟨[glm_mat4_identity, glm_mat4_zero], glm_mat4_mul glm_mat4_identity glm_mat4_zero, by simp [glm_mat4_mulN, glm_mat4_mulN_loop], ?_⟩
  simp [C01_mat4_mul, C02_mat4_identity, C02_mat4_zero]

example (a b c : M4 ℝ) : ∃ r, glm_mat4_mulN [a, b, c] 3 = some r ∧ r.mat = a.mat * b.mat * c.mat := by
  obtain ⟨r, h1, h2⟩ := C05_mulN [a, b, c] 3 (by norm_num) (by simp)
  exact ⟨r, h1, by simpa [mul_assoc] using h2⟩

end Cglm
