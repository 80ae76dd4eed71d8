import Verif.Mem.Hand
import Verif.Hand
import Verif.CMemTypes

/-!
# C56: memory safety and framing of the functions with computed indices

The run is undefined exactly when the value-level function is: an index outside the declared array.  Otherwise
it returns the value-level result and changes no memory but its destination.
-/

set_option linter.unusedSectionVars false

namespace Cglm
open CMem

variable {α : Type} [Add α] [Sub α] [Mul α] [Div α] [Neg α] [CFloat α]

/-- transfer for a function with one array argument, which it changes -/
theorem xtransfer1 {β : Type} {f : XFn} {fuel : Nat} {mem : Mem α} {p : Ptr} {vs : List α} {is : List Int} {o : Option β}
    {g : β → List α} (h : Holds mem p vs) (r : Room mem p vs.length) (hs : o.isSome = true)
    (hr : f.run fuel [⟨true, vs.map .f⟩] (.p 0 0 :: is.map .i) = o.map fun x => (none, [⟨true, (g x).map .f⟩])) :
    f.run fuel mem (p.val :: is.map .i) = o.map fun x => (none, writes mem [(p, (g x).map .f)]) := by
  have r' : Room mem p (vs.map (Val.f (α := α))).length := by simpa using r
  obtain ⟨x, rfl⟩ := Option.isSome_iff_exists.1 hs
  refine xtransfer ((R.nil _).addW h.has r' .nil) (.p rfl ?_) hr ?_
  · exact (List.forall₂_map_left_iff.2 (List.forall₂_map_right_iff.2 (List.forall₂_same.2 fun _ _ => rfl)))
  · simp [full]

theorem M2.col?_none {m : M2 α} {c : Int} (h : ¬ (0 ≤ c ∧ c < 2)) : m.col? c = none := by
  unfold M2.col?
  rw [if_neg (by omega), if_neg (by omega)]
theorem V2.get?_none {m : V2 α} {c : Int} (h : ¬ (0 ≤ c ∧ c < 2)) : m.get? c = none := by
  unfold V2.get?
  rw [if_neg (by omega), if_neg (by omega)]

theorem M3.col?_none {m : M3 α} {c : Int} (h : ¬ (0 ≤ c ∧ c < 3)) : m.col? c = none := by
  unfold M3.col?
  rw [if_neg (by omega), if_neg (by omega), if_neg (by omega)]
theorem V3.get?_none {m : V3 α} {c : Int} (h : ¬ (0 ≤ c ∧ c < 3)) : m.get? c = none := by
  unfold V3.get?
  rw [if_neg (by omega), if_neg (by omega), if_neg (by omega)]

theorem M4.col?_none {m : M4 α} {c : Int} (h : ¬ (0 ≤ c ∧ c < 4)) : m.col? c = none := by
  unfold M4.col?
  rw [if_neg (by omega), if_neg (by omega), if_neg (by omega), if_neg (by omega)]
theorem V4.get?_none {m : V4 α} {c : Int} (h : ¬ (0 ≤ c ∧ c < 4)) : m.get? c = none := by
  unfold V4.get?
  rw [if_neg (by omega), if_neg (by omega), if_neg (by omega), if_neg (by omega)]

theorem C56_mat4_swap_col {mem : Mem α} {matP : Ptr} {mat : M4 α} (h : Holds mem matP mat.list) (r : Room mem matP 16)
    (i j : Int) (fuel : Nat) :
    C.glm_mat4_swap_col.run fuel mem [matP.val, .i i, .i j] =
      (Cglm.glm_mat4_swap_col mat i j).map fun x => (none, writes mem [(matP, x.list.map .f)]) := by
  by_cases h1 : 0 ≤ i ∧ i < 4
  · by_cases h2 : 0 ≤ j ∧ j < 4
    · have e1 : i = 0 ∨ i = 1 ∨ i = 2 ∨ i = 3 := by omega
      have e2 : j = 0 ∨ j = 1 ∨ j = 2 ∨ j = 3 := by omega
      rcases e1 with rfl | rfl | rfl | rfl <;> rcases e2 with rfl | rfl | rfl | rfl <;>
        exact xtransfer1 (is := [_, _]) (g := M4.list) h r (by kernel_rfl) (by kernel_rfl)
    · have hv : Cglm.glm_mat4_swap_col mat i j = none := by
        simp [Cglm.glm_mat4_swap_col, M4.col?_none (α := α) h2]
      rw [hv]
      exact run_dies (k := 2) (c := j) (dies_next (keeps_call _ _) (dies_seq (dies_call (dies_idx h2 _ _) _ _) _)) fuel rfl
  · have hv : Cglm.glm_mat4_swap_col mat i j = none := by
      simp [Cglm.glm_mat4_swap_col, M4.col?_none (α := α) h1]
    rw [hv]
    exact run_dies (k := 1) (c := i) (dies_seq (dies_call (dies_idx h1 _ _) _ _) _) fuel rfl
example (mat : M4 α) : let mem : Mem α := [⟨true, mat.list.map .f⟩]
    Holds mem (0, 0) mat.list ∧ Room mem (0, 0) 16 ∧ (Cglm.glm_mat4_swap_col mat 0 1).isSome = true :=
  ⟨.block rfl, .block rfl rfl, rfl⟩

theorem C56_mat4_swap_row {mem : Mem α} {matP : Ptr} {mat : M4 α} (h : Holds mem matP mat.list) (r : Room mem matP 16)
    (i j : Int) (fuel : Nat) :
    C.glm_mat4_swap_row.run fuel mem [matP.val, .i i, .i j] =
      (Cglm.glm_mat4_swap_row mat i j).map fun x => (none, writes mem [(matP, x.list.map .f)]) := by
  by_cases h1 : 0 ≤ i ∧ i < 4
  · by_cases h2 : 0 ≤ j ∧ j < 4
    · have e1 : i = 0 ∨ i = 1 ∨ i = 2 ∨ i = 3 := by omega
      have e2 : j = 0 ∨ j = 1 ∨ j = 2 ∨ j = 3 := by omega
      rcases e1 with rfl | rfl | rfl | rfl <;> rcases e2 with rfl | rfl | rfl | rfl <;>
        exact xtransfer1 (is := [_, _]) (g := M4.list) h r (by kernel_rfl) (by kernel_rfl)
    · have hv : Cglm.glm_mat4_swap_row mat i j = none := by
        simp [Cglm.glm_mat4_swap_row, V4.get?_none (α := α) h2]
      rw [hv]
      exact run_dies (k := 2) (c := j) (dies_next (keeps_store _ _) (dies_next (keeps_store _ _) (dies_next (keeps_store _ _) (dies_next (keeps_store _ _) (dies_seq (dies_store_right _ (dies_load (dies_idx h2 _ _))) _))))) fuel rfl
  · have hv : Cglm.glm_mat4_swap_row mat i j = none := by
      simp [Cglm.glm_mat4_swap_row, V4.get?_none (α := α) h1]
    rw [hv]
    exact run_dies (k := 1) (c := i) (dies_seq (dies_store_right _ (dies_load (dies_idx h1 _ _))) _) fuel rfl
example (mat : M4 α) : let mem : Mem α := [⟨true, mat.list.map .f⟩]
    Holds mem (0, 0) mat.list ∧ Room mem (0, 0) 16 ∧ (Cglm.glm_mat4_swap_row mat 0 1).isSome = true :=
  ⟨.block rfl, .block rfl rfl, rfl⟩

theorem C56_mat3_swap_col {mem : Mem α} {matP : Ptr} {mat : M3 α} (h : Holds mem matP mat.list) (r : Room mem matP 9)
    (i j : Int) (fuel : Nat) :
    C.glm_mat3_swap_col.run fuel mem [matP.val, .i i, .i j] =
      (Cglm.glm_mat3_swap_col mat i j).map fun x => (none, writes mem [(matP, x.list.map .f)]) := by
  by_cases h1 : 0 ≤ i ∧ i < 3
  · by_cases h2 : 0 ≤ j ∧ j < 3
    · have e1 : i = 0 ∨ i = 1 ∨ i = 2 := by omega
      have e2 : j = 0 ∨ j = 1 ∨ j = 2 := by omega
      rcases e1 with rfl | rfl | rfl <;> rcases e2 with rfl | rfl | rfl <;>
        exact xtransfer1 (is := [_, _]) (g := M3.list) h r (by kernel_rfl) (by kernel_rfl)
    · have hv : Cglm.glm_mat3_swap_col mat i j = none := by
        simp [Cglm.glm_mat3_swap_col, M3.col?_none (α := α) h2]
      rw [hv]
      exact run_dies (k := 2) (c := j) (dies_next (keeps_call _ _) (dies_seq (dies_call (dies_idx h2 _ _) _ _) _)) fuel rfl
  · have hv : Cglm.glm_mat3_swap_col mat i j = none := by
      simp [Cglm.glm_mat3_swap_col, M3.col?_none (α := α) h1]
    rw [hv]
    exact run_dies (k := 1) (c := i) (dies_seq (dies_call (dies_idx h1 _ _) _ _) _) fuel rfl
example (mat : M3 α) : let mem : Mem α := [⟨true, mat.list.map .f⟩]
    Holds mem (0, 0) mat.list ∧ Room mem (0, 0) 9 ∧ (Cglm.glm_mat3_swap_col mat 0 1).isSome = true :=
  ⟨.block rfl, .block rfl rfl, rfl⟩

theorem C56_mat3_swap_row {mem : Mem α} {matP : Ptr} {mat : M3 α} (h : Holds mem matP mat.list) (r : Room mem matP 9)
    (i j : Int) (fuel : Nat) :
    C.glm_mat3_swap_row.run fuel mem [matP.val, .i i, .i j] =
      (Cglm.glm_mat3_swap_row mat i j).map fun x => (none, writes mem [(matP, x.list.map .f)]) := by
  by_cases h1 : 0 ≤ i ∧ i < 3
  · by_cases h2 : 0 ≤ j ∧ j < 3
    · have e1 : i = 0 ∨ i = 1 ∨ i = 2 := by omega
      have e2 : j = 0 ∨ j = 1 ∨ j = 2 := by omega
      rcases e1 with rfl | rfl | rfl <;> rcases e2 with rfl | rfl | rfl <;>
        exact xtransfer1 (is := [_, _]) (g := M3.list) h r (by kernel_rfl) (by kernel_rfl)
    · have hv : Cglm.glm_mat3_swap_row mat i j = none := by
        simp [Cglm.glm_mat3_swap_row, V3.get?_none (α := α) h2]
      rw [hv]
      exact run_dies (k := 2) (c := j) (dies_next (keeps_store _ _) (dies_next (keeps_store _ _) (dies_next (keeps_store _ _) (dies_seq (dies_store_right _ (dies_load (dies_idx h2 _ _))) _)))) fuel rfl
  · have hv : Cglm.glm_mat3_swap_row mat i j = none := by
      simp [Cglm.glm_mat3_swap_row, V3.get?_none (α := α) h1]
    rw [hv]
    exact run_dies (k := 1) (c := i) (dies_seq (dies_store_right _ (dies_load (dies_idx h1 _ _))) _) fuel rfl
example (mat : M3 α) : let mem : Mem α := [⟨true, mat.list.map .f⟩]
    Holds mem (0, 0) mat.list ∧ Room mem (0, 0) 9 ∧ (Cglm.glm_mat3_swap_row mat 0 1).isSome = true :=
  ⟨.block rfl, .block rfl rfl, rfl⟩

theorem C56_mat2_swap_col {mem : Mem α} {matP : Ptr} {mat : M2 α} (h : Holds mem matP mat.list) (r : Room mem matP 4)
    (i j : Int) (fuel : Nat) :
    C.glm_mat2_swap_col.run fuel mem [matP.val, .i i, .i j] =
      (Cglm.glm_mat2_swap_col mat i j).map fun x => (none, writes mem [(matP, x.list.map .f)]) := by
  by_cases h1 : 0 ≤ i ∧ i < 2
  · by_cases h2 : 0 ≤ j ∧ j < 2
    · have e1 : i = 0 ∨ i = 1 := by omega
      have e2 : j = 0 ∨ j = 1 := by omega
      rcases e1 with rfl | rfl <;> rcases e2 with rfl | rfl <;>
        exact xtransfer1 (is := [_, _]) (g := M2.list) h r (by kernel_rfl) (by kernel_rfl)
    · have hv : Cglm.glm_mat2_swap_col mat i j = none := by
        simp [Cglm.glm_mat2_swap_col, M2.col?_none (α := α) h2]
      rw [hv]
      exact run_dies (k := 2) (c := j) (dies_next (keeps_set (by decide) _) (dies_next (keeps_set (by decide) _) (dies_seq (dies_store_right _ (dies_load (dies_idx h2 _ _))) _))) fuel rfl
  · have hv : Cglm.glm_mat2_swap_col mat i j = none := by
      simp [Cglm.glm_mat2_swap_col, M2.col?_none (α := α) h1]
    rw [hv]
    exact run_dies (k := 1) (c := i) (dies_seq (dies_set (dies_load (dies_idx h1 _ _)) _) _) fuel rfl
example (mat : M2 α) : let mem : Mem α := [⟨true, mat.list.map .f⟩]
    Holds mem (0, 0) mat.list ∧ Room mem (0, 0) 4 ∧ (Cglm.glm_mat2_swap_col mat 0 1).isSome = true :=
  ⟨.block rfl, .block rfl rfl, rfl⟩

theorem C56_mat2_swap_row {mem : Mem α} {matP : Ptr} {mat : M2 α} (h : Holds mem matP mat.list) (r : Room mem matP 4)
    (i j : Int) (fuel : Nat) :
    C.glm_mat2_swap_row.run fuel mem [matP.val, .i i, .i j] =
      (Cglm.glm_mat2_swap_row mat i j).map fun x => (none, writes mem [(matP, x.list.map .f)]) := by
  by_cases h1 : 0 ≤ i ∧ i < 2
  · by_cases h2 : 0 ≤ j ∧ j < 2
    · have e1 : i = 0 ∨ i = 1 := by omega
      have e2 : j = 0 ∨ j = 1 := by omega
      rcases e1 with rfl | rfl <;> rcases e2 with rfl | rfl <;>
        exact xtransfer1 (is := [_, _]) (g := M2.list) h r (by kernel_rfl) (by kernel_rfl)
    · have hv : Cglm.glm_mat2_swap_row mat i j = none := by
        simp [Cglm.glm_mat2_swap_row, V2.get?_none (α := α) h2]
      rw [hv]
      exact run_dies (k := 2) (c := j) (dies_next (keeps_set (by decide) _) (dies_next (keeps_set (by decide) _) (dies_seq (dies_store_right _ (dies_load (dies_idx h2 _ _))) _))) fuel rfl
  · have hv : Cglm.glm_mat2_swap_row mat i j = none := by
      simp [Cglm.glm_mat2_swap_row, V2.get?_none (α := α) h1]
    rw [hv]
    exact run_dies (k := 1) (c := i) (dies_seq (dies_set (dies_load (dies_idx h1 _ _)) _) _) fuel rfl
example (mat : M2 α) : let mem : Mem α := [⟨true, mat.list.map .f⟩]
    Holds mem (0, 0) mat.list ∧ Room mem (0, 0) 4 ∧ (Cglm.glm_mat2_swap_row mat 0 1).isSome = true :=
  ⟨.block rfl, .block rfl rfl, rfl⟩

end Cglm
