import Verif.Props.C02
import Mathlib.LinearAlgebra.Matrix.Trace

/-! # C07: trace, line swaps, 3x3 block -/

namespace Cglm

theorem C07_trace (a : M2 ℝ) (b : M3 ℝ) (c : M4 ℝ) :
    glm_mat2_trace a = a.mat.trace ∧ glm_mat3_trace b = b.mat.trace ∧ glm_mat4_trace c = c.mat.trace ∧
      glm_mat4_trace3 c = c.mat 0 0 + c.mat 1 1 + c.mat 2 2 := by
  simp [cglm, Matrix.trace, Fin.sum_univ_succ, M2.mat, M3.mat, M4.mat]
  constructor <;> ring

section
variable {α : Type}

/-- swapping columns `i` and `j`: column `c` of the result is column σ(c) of the input, with σ the transposition of i and
j.  This determines every entry, so all other columns are unchanged. -/
theorem C07_mat4_swap_col (m : M4 α) (i j : Fin 4) :
    ∃ r, glm_mat4_swap_col m i.val j.val = some r ∧ ∀ c, r.col c = m.col (swapIdx i j c) := by
  obtain ⟨c0, c1, c2, c3⟩ := m
  fin_cases i <;> fin_cases j <;> simp [glm_mat4_swap_col, cglm, Fin.forall_fin_succ] <;> simp [swapIdx, M4.col]
theorem C07_mat3_swap_col (m : M3 α) (i j : Fin 3) :
    ∃ r, glm_mat3_swap_col m i.val j.val = some r ∧ ∀ c, r.col c = m.col (swapIdx i j c) := by
  obtain ⟨c0, c1, c2⟩ := m
  fin_cases i <;> fin_cases j <;> simp [glm_mat3_swap_col, cglm, Fin.forall_fin_succ] <;> simp [swapIdx, M3.col]
theorem C07_mat2_swap_col (m : M2 α) (i j : Fin 2) :
    ∃ r, glm_mat2_swap_col m i.val j.val = some r ∧ ∀ c, r.col c = m.col (swapIdx i j c) := by
  obtain ⟨c0, c1⟩ := m
  fin_cases i <;> fin_cases j <;> simp [glm_mat2_swap_col, cglm, Fin.forall_fin_succ] <;> simp [swapIdx, M2.col]
/-- swapping rows: row `r` of the result is row σ(r) of the input, in every column -/
theorem C07_mat4_swap_row (m : M4 α) (i j : Fin 4) :
    ∃ r, glm_mat4_swap_row m i.val j.val = some r ∧ ∀ c k, (r.col c).vec k = (m.col c).vec (swapIdx i j k) := by
  obtain ⟨⟨a00, a01, a02, a03⟩, ⟨a10, a11, a12, a13⟩, ⟨a20, a21, a22, a23⟩, ⟨a30, a31, a32, a33⟩⟩ := m
  fin_cases i <;> fin_cases j <;> simp [glm_mat4_swap_row, cglm, Fin.forall_fin_succ] <;>
    simp [swapIdx, M4.col, V4.vec]
theorem C07_mat3_swap_row (m : M3 α) (i j : Fin 3) :
    ∃ r, glm_mat3_swap_row m i.val j.val = some r ∧ ∀ c k, (r.col c).vec k = (m.col c).vec (swapIdx i j k) := by
  obtain ⟨⟨a00, a01, a02⟩, ⟨a10, a11, a12⟩, ⟨a20, a21, a22⟩⟩ := m
  fin_cases i <;> fin_cases j <;> simp [glm_mat3_swap_row, cglm, Fin.forall_fin_succ] <;>
    simp [swapIdx, M3.col, V3.vec]
theorem C07_mat2_swap_row (m : M2 α) (i j : Fin 2) :
    ∃ r, glm_mat2_swap_row m i.val j.val = some r ∧ ∀ c k, (r.col c).vec k = (m.col c).vec (swapIdx i j k) := by
  obtain ⟨⟨a00, a01⟩, ⟨a10, a11⟩⟩ := m
  fin_cases i <;> fin_cases j <;> simp [glm_mat2_swap_row, cglm, Fin.forall_fin_succ] <;>
    simp [swapIdx, M2.col, V2.vec]

/-- swapping the same two lines twice restores the matrix -/
theorem C07_swap_involutive (m : M4 α) (i j : Fin 4) :
    ((glm_mat4_swap_col m i.val j.val).bind fun r => glm_mat4_swap_col r i.val j.val) = some m ∧
    ((glm_mat4_swap_row m i.val j.val).bind fun r => glm_mat4_swap_row r i.val j.val) = some m := by
  obtain ⟨⟨a, b, c, d⟩, ⟨e, f, g, h⟩, ⟨k, l, m, n⟩, ⟨o, p, q, r⟩⟩ := m
  fin_cases i <;> fin_cases j <;> simp [glm_mat4_swap_col, glm_mat4_swap_row, cglm]

private theorem col4_none (m : M4 α) (i : ℤ) (h : ¬ (0 ≤ i ∧ i < 4)) : m.col? i = none := by
  unfold M4.col?; repeat' split
  all_goals first | rfl | omega
private theorem get4_none (v : V4 α) (i : ℤ) (h : ¬ (0 ≤ i ∧ i < 4)) : v.get? i = none := by
  unfold V4.get?; repeat' split
  all_goals first | rfl | omega

/-- a column or row index outside 0..3 is undefined behaviour -/
theorem C07_mat4_swap_undefined (m : M4 α) (i j : ℤ) (h : ¬ (0 ≤ i ∧ i < 4) ∨ ¬ (0 ≤ j ∧ j < 4)) :
    glm_mat4_swap_col m i j = none ∧ glm_mat4_swap_row m i j = none := by
  rcases h with h | h
  · simp [glm_mat4_swap_col, glm_mat4_swap_row, col4_none m i h, get4_none _ i h]
  · have e := fun v : V4 α => get4_none v j h
    simp [glm_mat4_swap_col, glm_mat4_swap_row, col4_none m j h, e]

/-- `pick3` is the upper-left 3x3 block, `pick3t` its transpose, for every scalar type -/
theorem C07_pick3 (m : M4 α) :
    (glm_mat4_pick3 m).mat = m.mat.submatrix Fin.castSucc Fin.castSucc ∧
      (glm_mat4_pick3t m).mat = (m.mat.submatrix Fin.castSucc Fin.castSucc).transpose := by
  constructor <;> (ext a b; fin_cases a <;> fin_cases b <;> simp [cglm, M4.mat, M3.mat])

/-- `ins3` writes the 3x3 block and leaves the last row and the last column as they were -/
theorem C07_ins3 (m : M3 α) (d : M4 α) :
    (glm_mat4_ins3 m d).mat.submatrix Fin.castSucc Fin.castSucc = m.mat ∧
      (∀ i, (glm_mat4_ins3 m d).mat 3 i = d.mat 3 i) ∧ (∀ i, (glm_mat4_ins3 m d).mat i 3 = d.mat i 3) := by
  refine ⟨?_, ?_, ?_⟩
  · ext a b; fin_cases a <;> fin_cases b <;> simp [cglm, M4.mat, M3.mat]
  · intro i; fin_cases i <;> simp [cglm, M4.mat]
  · intro i; fin_cases i <;> simp [cglm, M4.mat]

theorem C07_pick3_ins3 (m : M3 α) (d : M4 α) : glm_mat4_pick3 (glm_mat4_ins3 m d) = m := rfl
end

example : glm_mat2_swap_col (⟨⟨1, 2⟩, ⟨3, 4⟩⟩ : M2 ℝ) 0 1 = some ⟨⟨3, 4⟩, ⟨1, 2⟩⟩ := by simp [glm_mat2_swap_col, cglm]

end Cglm
