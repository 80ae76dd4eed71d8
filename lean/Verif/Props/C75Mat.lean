import Verif.Props.C75
import Verif.F32Lemmas

/-! # C75: printed matrices -/

namespace Cglm
open Printf

/-- the rows of a matrix, from top to bottom -/
def M4.rows (m : M4 F32) : List (List F32) :=
  [[m.c0.x, m.c1.x, m.c2.x, m.c3.x], [m.c0.y, m.c1.y, m.c2.y, m.c3.y], [m.c0.z, m.c1.z, m.c2.z, m.c3.z], [m.c0.w, m.c1.w, m.c2.w, m.c3.w]]
def M3.rows (m : M3 F32) : List (List F32) := [[m.c0.x, m.c1.x, m.c2.x], [m.c0.y, m.c1.y, m.c2.y], [m.c0.z, m.c1.z, m.c2.z]]
def M2.rows (m : M2 F32) : List (List F32) := [[m.c0.x, m.c1.x], [m.c0.y, m.c1.y]]

/-- a number in one of the two formats -/
def ShowsMat (cfg : PrintCfg) (x : F32) (w : Text) : Prop := Shows x w (max (1 / 2 / 10 ^ cfg.precision) (|x.val| / 2 / 10 ^ 5))
/-- an element and the one across the diagonal are on the same side of the limit -/
def Balanced (cfg : PrintCfg) (k : ℕ) (a : ℕ → ℕ → F32) : Prop :=
  ∀ i j, i < k → j < k → F32.lt (a i j) cfg.maxToShort = F32.lt (a j i) cfg.maxToShort
/-- all rows of a printed matrix of `k` rows are of the same length -/
def Aligned (k : ℕ) (t : Text) : Prop := ∀ i j, i < k → j < k → ((lines t).getD (i + 1) []).length = ((lines t).getD (j + 1) []).length

/-! ## helper lemmas -/

private theorem shows_mono {x : F32} {w : Text} {ε δ : ℚ} (h : ε ≤ δ) (hs : Shows x w ε) : Shows x w δ := by
  cases x with
  | nan => exact hs
  | inf s => exact hs
  | zero s => exact ⟨hs.1, hs.2.trans h⟩
  | fin q _ => exact ⟨hs.1, hs.2.trans h⟩
private theorem width_blank (n b : ℕ) (w : Text) : ∃ c, width n (List.replicate b ' ' ++ w) = List.replicate c ' ' ++ w := by
  refine ⟨n - (List.replicate b ' ' ++ w).length + b, ?_⟩
  unfold width
  rw [List.replicate_add, List.append_assoc]
private theorem cell_spec (cfg : PrintCfg) (k : ℕ) (a : ℕ → ℕ → F32) (i j : ℕ) :
    ∃ b w, printCell cfg k a i j = List.replicate (b + 1) ' ' ++ w ∧ Plain w ∧ ShowsMat cfg (a j i) w ∧
      (F32.lt (a i j) cfg.maxToShort = F32.lt (a j i) cfg.maxToShort → ShowsShort cfg (a j i) w) := by
  unfold printCell ShowsMat ShowsShort
  split_ifs with h h' h'
  · obtain ⟨b, w, e, h1, h2, h3⟩ := f_spec cfg.precision (a j i)
    obtain ⟨c, hc⟩ := width_blank (colWidth cfg k a j) b w
    exact ⟨c, w, by rw [e, hc, List.replicate_succ]; simp, h1, shows_mono (le_max_left _ _) h2, fun _ => ⟨h2, h3⟩⟩
  · obtain ⟨b, w, e, h1, h2, h3⟩ := f_spec cfg.precision (a j i)
    obtain ⟨c, hc⟩ := width_blank (colWidth cfg k a j) b w
    refine ⟨c, w, by rw [e, hc, List.replicate_succ]; simp, h1, shows_mono (le_max_left _ _) h2, fun hb => ?_⟩
    rw [h] at hb; exact absurd hb.symm h'
  · obtain ⟨b, w, e, h1, h2⟩ := g_spec (a j i)
    obtain ⟨c, hc⟩ := width_blank (colWidth cfg k a j) b w
    refine ⟨c, w, by rw [e, hc, List.replicate_succ]; simp, h1, shows_mono (le_max_right _ _) h2, fun hb => ?_⟩
    rw [h'] at hb; exact absurd hb h
  · obtain ⟨b, w, e, h1, h2⟩ := g_spec (a j i)
    obtain ⟨c, hc⟩ := width_blank (colWidth cfg k a j) b w
    exact ⟨c, w, by rw [e, hc, List.replicate_succ]; simp, h1, shows_mono (le_max_right _ _) h2, fun _ => h2⟩

/-- one line of a printed matrix, without the line end -/
private def rowText (cfg : PrintCfg) (k : ℕ) (a : ℕ → ℕ → F32) (i : ℕ) : Text :=
  [' ', ' ', '|'] ++ (List.range k).flatMap (printCell cfg k a i) ++ [' ', ' ', '|']
private theorem rows_eq (cfg : PrintCfg) (k : ℕ) (a : ℕ → ℕ → F32) (s : Text) :
    printRows cfg k a s = s ++ (List.range k).flatMap fun i => rowText cfg k a i ++ ['\n'] := by
  unfold printRows
  rw [← foldl_fields]
  congr 1
  funext s i
  rw [foldl_fields]
  simp [rowText]
private theorem row_fields (cfg : PrintCfg) (k : ℕ) (a : ℕ → ℕ → F32) (i : ℕ) : ∃ fs : List (ℕ × Text),
    rowText cfg k a i = [' ', ' ', '|'] ++ fields fs ++ [' ', ' ', '|'] ∧ (∀ p ∈ fs, Plain p.2) ∧
    List.Forall₂ (fun j w => ShowsMat cfg (a j i) w ∧
      (F32.lt (a i j) cfg.maxToShort = F32.lt (a j i) cfg.maxToShort → ShowsShort cfg (a j i) w)) (List.range k) (fs.map Prod.snd) := by
  obtain ⟨fs, e, h1, h2⟩ := exists_fields (printCell cfg k a i) _ (List.range k) fun j _ => cell_spec cfg k a i j
  exact ⟨fs, by rw [rowText, e], h1, h2⟩
private theorem row_newline (cfg : PrintCfg) (k : ℕ) (a : ℕ → ℕ → F32) (i : ℕ) : '\n' ∉ rowText cfg k a i := by
  obtain ⟨fs, e, h1, -⟩ := row_fields cfg k a i
  have := fields_not_mem fs h1 '\n' (by decide)
  rw [e]; simp [this]
private theorem lines_rows (rows : List Text) (h : ∀ r ∈ rows, '\n' ∉ r) (t : Text) :
    lines ((rows.flatMap fun r => r ++ ['\n']) ++ t) = rows ++ lines t := by
  induction rows with
  | nil => rfl
  | cons r rows ih =>
    have e : (List.flatMap (fun r => r ++ ['\n']) (r :: rows)) ++ t = r ++ '\n' :: ((rows.flatMap fun r => r ++ ['\n']) ++ t) := by simp
    rw [e, lines_cons _ (h r (by simp)), ih fun r hr => h r (by simp [hr]), List.cons_append]
/-- the lines of a printed matrix -/
private theorem mat_lines (cfg : PrintCfg) (hc : cfg.Ok) (k : ℕ) (a : ℕ → ℕ → F32) (head : Text) (hh : '\n' ∉ head) (t : Text)
    (ht : t = printRows cfg k a ([] ++ (head ++ cfg.color ++ ['\n'])) ++ (cfg.reset ++ ['\n'])) :
    lines t = (head ++ cfg.color) :: ((List.range k).map (rowText cfg k a) ++ [cfg.reset, []]) := by
  rw [ht, rows_eq, List.nil_append]
  have e : head ++ cfg.color ++ ['\n'] ++ ((List.range k).flatMap fun i => rowText cfg k a i ++ ['\n']) ++ (cfg.reset ++ ['\n']) =
      (head ++ cfg.color) ++ '\n' :: ((((List.range k).map (rowText cfg k a)).flatMap fun r => r ++ ['\n']) ++ (cfg.reset ++ '\n' :: [])) := by
    rw [List.flatMap_map]; simp
  rw [e, lines_cons _ (by simp [hh, hc.1]), lines_rows _ (by
    intro r hr
    obtain ⟨i, -, rfl⟩ := List.mem_map.mp hr
    exact row_newline cfg k a i), lines_cons _ hc.2]
  rfl
private theorem mat_line (cfg : PrintCfg) (hc : cfg.Ok) (k : ℕ) (a : ℕ → ℕ → F32) (head : Text) (hh : '\n' ∉ head) (t : Text)
    (ht : t = printRows cfg k a ([] ++ (head ++ cfg.color ++ ['\n'])) ++ (cfg.reset ++ ['\n'])) (i : ℕ) (hi : i < k) :
    (lines t).getD (i + 1) [] = rowText cfg k a i := by
  rw [mat_lines cfg hc k a head hh t ht, List.getD_cons_succ]
  simp [List.getD_eq_getElem?_getD, List.getElem?_append, hi]
private theorem mat_shown (cfg : PrintCfg) (hc : cfg.Ok) (k : ℕ) (a : ℕ → ℕ → F32) (head : Text) (hh : '\n' ∉ head) (t : Text)
    (ht : t = printRows cfg k a ([] ++ (head ++ cfg.color ++ ['\n'])) ++ (cfg.reset ++ ['\n'])) (i : ℕ) (hi : i < k) :
    List.Forall₂ (fun j w => ShowsMat cfg (a j i) w ∧
      (F32.lt (a i j) cfg.maxToShort = F32.lt (a j i) cfg.maxToShort → ShowsShort cfg (a j i) w)) (List.range k) (shownRow t i) := by
  obtain ⟨fs, e, h1, h2⟩ := row_fields cfg k a i
  rw [shownRow, mat_line cfg hc k a head hh t ht i hi, e, bar_line fs h1]
  exact h2

private theorem le_colWidth (cfg : PrintCfg) (k : ℕ) (a : ℕ → ℕ → F32) (i j : ℕ) (hj : j < k) :
    (shortText cfg (a i j)).length ≤ colWidth cfg k a i := by
  have key : ∀ (l : List ℕ) (w : ℕ), w ≤ l.foldl (fun cw j => max cw (snprintf 16 (shortText cfg (a i j))).2) w ∧
      ∀ j ∈ l, (shortText cfg (a i j)).length ≤ l.foldl (fun cw j => max cw (snprintf 16 (shortText cfg (a i j))).2) w := by
    intro l
    induction l with
    | nil => intro w; simp
    | cons b l ih =>
      intro w
      obtain ⟨h1, h2⟩ := ih (max w (snprintf 16 (shortText cfg (a i b))).2)
      refine ⟨(le_max_left _ _).trans h1, ?_⟩
      intro j hj
      rcases List.mem_cons.mp hj with rfl | hj
      · exact (le_max_right w (snprintf 16 (shortText cfg (a i j))).2).trans h1
      · exact h2 j hj
  exact (key _ 0).2 j (List.mem_range.mpr hj)
private theorem width_length (n : ℕ) (t : Text) (h : t.length ≤ n) : (width n t).length = n := by
  unfold width; simp; omega
/-- if the element and the one across are on the same side of the limit, the cell is as wide as the column -/
private theorem cell_length (cfg : PrintCfg) (k : ℕ) (a : ℕ → ℕ → F32) (hb : Balanced cfg k a) (i j : ℕ) (hi : i < k) (hj : j < k) :
    (printCell cfg k a i j).length = colWidth cfg k a j + 1 := by
  have h := le_colWidth cfg k a j i hi
  unfold shortText at h
  unfold printCell
  rw [← hb i j hi hj] at h
  rw [List.length_cons, width_length _ _ h]
private theorem row_length (cfg : PrintCfg) (k : ℕ) (a : ℕ → ℕ → F32) (hb : Balanced cfg k a) (i : ℕ) (hi : i < k) :
    (rowText cfg k a i).length = ((List.range k).map fun j => colWidth cfg k a j + 1).sum + 6 := by
  unfold rowText
  rw [List.length_append, List.length_append, List.length_flatMap]
  have : (List.range k).map (fun j => (printCell cfg k a i j).length) = (List.range k).map fun j => colWidth cfg k a j + 1 := by
    apply List.map_congr_left
    intro j hj
    exact cell_length cfg k a hb i j hi (List.mem_range.mp hj)
  rw [this]
  simp
  omega
private theorem mat_aligned (cfg : PrintCfg) (hc : cfg.Ok) (k : ℕ) (a : ℕ → ℕ → F32) (hb : Balanced cfg k a) (head : Text) (hh : '\n' ∉ head)
    (t : Text) (ht : t = printRows cfg k a ([] ++ (head ++ cfg.color ++ ['\n'])) ++ (cfg.reset ++ ['\n'])) : Aligned k t := by
  intro i j hi hj
  rw [mat_line cfg hc k a head hh t ht i hi, mat_line cfg hc k a head hh t ht j hj, row_length cfg k a hb i hi, row_length cfg k a hb j hj]

/-! ## the properties -/

/-- row `i` of the text shows row `i` of the matrix, from left to right -/
theorem C75_mat4 (cfg : PrintCfg) (hc : cfg.Ok) (m : M4 F32) :
    (lines (glm_mat4_print cfg m [])).head? = some ("Matrix (float4x4): ".toList ++ cfg.color) ∧
    (lines (glm_mat4_print cfg m [])).length = 7 ∧
    List.Forall₂ (fun i row => List.Forall₂ (ShowsMat cfg) row (shownRow (glm_mat4_print cfg m []) i)) [0, 1, 2, 3] m.rows := by
  have hl := mat_lines cfg hc 4 m.at "Matrix (float4x4): ".toList (by decide) _ rfl
  refine ⟨by rw [show lines (glm_mat4_print cfg m []) = _ from hl]; rfl, by rw [show lines (glm_mat4_print cfg m []) = _ from hl]; simp, ?_⟩
  have hs := fun i hi => mat_shown cfg hc 4 m.at "Matrix (float4x4): ".toList (by decide) (glm_mat4_print cfg m []) rfl i hi
  have key : ∀ i, i < 4 → List.Forall₂ (ShowsMat cfg) [m.at 0 i, m.at 1 i, m.at 2 i, m.at 3 i] (shownRow (glm_mat4_print cfg m []) i) := by
    intro i hi
    have h := (hs i hi).imp (S := fun j w => ShowsMat cfg (m.at j i) w) fun _ _ h => h.1
    rw [show [m.at 0 i, m.at 1 i, m.at 2 i, m.at 3 i] = (List.range 4).map fun j => m.at j i from rfl, List.forall₂_map_left_iff]
    exact h
  exact .cons (key 0 (by norm_num)) (.cons (key 1 (by norm_num)) (.cons (key 2 (by norm_num)) (.cons (key 3 (by norm_num)) .nil)))
theorem C75_mat3 (cfg : PrintCfg) (hc : cfg.Ok) (m : M3 F32) :
    (lines (glm_mat3_print cfg m [])).head? = some ("Matrix (float3x3): ".toList ++ cfg.color) ∧
    (lines (glm_mat3_print cfg m [])).length = 6 ∧
    List.Forall₂ (fun i row => List.Forall₂ (ShowsMat cfg) row (shownRow (glm_mat3_print cfg m []) i)) [0, 1, 2] m.rows := by
  have hl := mat_lines cfg hc 3 m.at "Matrix (float3x3): ".toList (by decide) _ rfl
  refine ⟨by rw [show lines (glm_mat3_print cfg m []) = _ from hl]; rfl, by rw [show lines (glm_mat3_print cfg m []) = _ from hl]; simp, ?_⟩
  have hs := fun i hi => mat_shown cfg hc 3 m.at "Matrix (float3x3): ".toList (by decide) (glm_mat3_print cfg m []) rfl i hi
  have key : ∀ i, i < 3 → List.Forall₂ (ShowsMat cfg) [m.at 0 i, m.at 1 i, m.at 2 i] (shownRow (glm_mat3_print cfg m []) i) := by
    intro i hi
    have h := (hs i hi).imp (S := fun j w => ShowsMat cfg (m.at j i) w) fun _ _ h => h.1
    rw [show [m.at 0 i, m.at 1 i, m.at 2 i] = (List.range 3).map fun j => m.at j i from rfl, List.forall₂_map_left_iff]
    exact h
  exact .cons (key 0 (by norm_num)) (.cons (key 1 (by norm_num)) (.cons (key 2 (by norm_num)) .nil))
theorem C75_mat2 (cfg : PrintCfg) (hc : cfg.Ok) (m : M2 F32) :
    (lines (glm_mat2_print cfg m [])).head? = some ("Matrix (float2x2): ".toList ++ cfg.color) ∧
    (lines (glm_mat2_print cfg m [])).length = 5 ∧
    List.Forall₂ (fun i row => List.Forall₂ (ShowsMat cfg) row (shownRow (glm_mat2_print cfg m []) i)) [0, 1] m.rows := by
  have hl := mat_lines cfg hc 2 m.at "Matrix (float2x2): ".toList (by decide) _ rfl
  refine ⟨by rw [show lines (glm_mat2_print cfg m []) = _ from hl]; rfl, by rw [show lines (glm_mat2_print cfg m []) = _ from hl]; simp, ?_⟩
  have hs := fun i hi => mat_shown cfg hc 2 m.at "Matrix (float2x2): ".toList (by decide) (glm_mat2_print cfg m []) rfl i hi
  have key : ∀ i, i < 2 → List.Forall₂ (ShowsMat cfg) [m.at 0 i, m.at 1 i] (shownRow (glm_mat2_print cfg m []) i) := by
    intro i hi
    have h := (hs i hi).imp (S := fun j w => ShowsMat cfg (m.at j i) w) fun _ _ h => h.1
    rw [show [m.at 0 i, m.at 1 i] = (List.range 2).map fun j => m.at j i from rfl, List.forall₂_map_left_iff]
    exact h
  exact .cons (key 0 (by norm_num)) (.cons (key 1 (by norm_num)) .nil)

/-- if no element is on the other side of the limit than the one across the diagonal, the columns are aligned and each number is in its proper format -/
theorem C75_mat4_aligned_partial (cfg : PrintCfg) (hc : cfg.Ok) (m : M4 F32) (hb : Balanced cfg 4 m.at) :
    Aligned 4 (glm_mat4_print cfg m []) ∧
    List.Forall₂ (fun i row => List.Forall₂ (ShowsShort cfg) row (shownRow (glm_mat4_print cfg m []) i)) [0, 1, 2, 3] m.rows := by
  refine ⟨mat_aligned cfg hc 4 m.at hb "Matrix (float4x4): ".toList (by decide) _ rfl, ?_⟩
  have hs := fun i hi => mat_shown cfg hc 4 m.at "Matrix (float4x4): ".toList (by decide) (glm_mat4_print cfg m []) rfl i hi
  have key : ∀ i, i < 4 → List.Forall₂ (ShowsShort cfg) [m.at 0 i, m.at 1 i, m.at 2 i, m.at 3 i] (shownRow (glm_mat4_print cfg m []) i) := by
    intro i hi
    rw [show [m.at 0 i, m.at 1 i, m.at 2 i, m.at 3 i] = (List.range 4).map fun j => m.at j i from rfl, List.forall₂_map_left_iff]
    have h := hs i hi
    rw [List.forall₂_iff_get] at h ⊢
    refine ⟨h.1, fun j h1 h2 => (h.2 j h1 h2).2 (hb _ _ hi ?_)⟩
    simpa using h1
  exact .cons (key 0 (by norm_num)) (.cons (key 1 (by norm_num)) (.cons (key 2 (by norm_num)) (.cons (key 3 (by norm_num)) .nil)))
theorem C75_mat3_aligned_partial (cfg : PrintCfg) (hc : cfg.Ok) (m : M3 F32) (hb : Balanced cfg 3 m.at) :
    Aligned 3 (glm_mat3_print cfg m []) ∧
    List.Forall₂ (fun i row => List.Forall₂ (ShowsShort cfg) row (shownRow (glm_mat3_print cfg m []) i)) [0, 1, 2] m.rows := by
  refine ⟨mat_aligned cfg hc 3 m.at hb "Matrix (float3x3): ".toList (by decide) _ rfl, ?_⟩
  have hs := fun i hi => mat_shown cfg hc 3 m.at "Matrix (float3x3): ".toList (by decide) (glm_mat3_print cfg m []) rfl i hi
  have key : ∀ i, i < 3 → List.Forall₂ (ShowsShort cfg) [m.at 0 i, m.at 1 i, m.at 2 i] (shownRow (glm_mat3_print cfg m []) i) := by
    intro i hi
    rw [show [m.at 0 i, m.at 1 i, m.at 2 i] = (List.range 3).map fun j => m.at j i from rfl, List.forall₂_map_left_iff]
    have h := hs i hi
    rw [List.forall₂_iff_get] at h ⊢
    refine ⟨h.1, fun j h1 h2 => (h.2 j h1 h2).2 (hb _ _ hi ?_)⟩
    simpa using h1
  exact .cons (key 0 (by norm_num)) (.cons (key 1 (by norm_num)) (.cons (key 2 (by norm_num)) .nil))
theorem C75_mat2_aligned_partial (cfg : PrintCfg) (hc : cfg.Ok) (m : M2 F32) (hb : Balanced cfg 2 m.at) :
    Aligned 2 (glm_mat2_print cfg m []) ∧
    List.Forall₂ (fun i row => List.Forall₂ (ShowsShort cfg) row (shownRow (glm_mat2_print cfg m []) i)) [0, 1] m.rows := by
  refine ⟨mat_aligned cfg hc 2 m.at hb "Matrix (float2x2): ".toList (by decide) _ rfl, ?_⟩
  have hs := fun i hi => mat_shown cfg hc 2 m.at "Matrix (float2x2): ".toList (by decide) (glm_mat2_print cfg m []) rfl i hi
  have key : ∀ i, i < 2 → List.Forall₂ (ShowsShort cfg) [m.at 0 i, m.at 1 i] (shownRow (glm_mat2_print cfg m []) i) := by
    intro i hi
    rw [show [m.at 0 i, m.at 1 i] = (List.range 2).map fun j => m.at j i from rfl, List.forall₂_map_left_iff]
    have h := hs i hi
    rw [List.forall₂_iff_get] at h ⊢
    refine ⟨h.1, fun j h1 h2 => (h.2 j h1 h2).2 (hb _ _ hi ?_)⟩
    simpa using h1
  exact .cons (key 0 (by norm_num)) (.cons (key 1 (by norm_num)) .nil)

/-! ## the format of an element is chosen by looking at another one -/

private theorem rep_1e5 : Rep 100000 := ⟨100000, 0, by norm_num, by norm_num, by norm_num, by norm_num⟩
private theorem rep_1e9 : Rep 1000000000 := ⟨1953125, 9, by norm_num, by norm_num, by norm_num, by norm_num⟩
private theorem limit : PrintCfg.default.maxToShort = .fin 100000 ⟨by norm_num, rep_1e5⟩ := F32.ofRat_rep (by norm_num) rep_1e5

/-- one element above the limit, below the diagonal; all others zero -/
def tall : M2 F32 := ⟨⟨.zero false, .fin 1000000000 ⟨by norm_num, rep_1e9⟩⟩, ⟨.zero false, .zero false⟩⟩

private theorem f_zero : f 5 (.zero false) = "  0.00000".toList.tail := by
  have h : F32.rne 0 = 0 := by have := F32.rne_int 0; simpa using this
  simp [f, sign, fAbs, fixedText, decText, natText, padText, h, digit]
private theorem f_tall : (f 5 (.fin 1000000000 ⟨by norm_num, rep_1e9⟩)).length = 17 := by
  have h : F32.rne (1000000000 * 10 ^ 5) = 100000000000000 := by
    have := F32.rne_int 100000000000000
    norm_num at this ⊢; exact this
  simp [f, sign, fAbs, fixedText, decText, natText, padText, h]
private theorem g_tall : (g (.fin 1000000000 ⟨by norm_num, rep_1e9⟩)).length = 6 := by
  have hl : Int.log 10 (1000000000 : ℚ) = 9 := by
    have := Int.log_zpow (R := ℚ) (b := 10) (by norm_num) 9
    norm_num at this; exact this
  have h : F32.rne (1000000000 / 10 ^ ((9 : ℤ) - ((5 : ℕ) : ℤ))) = 100000 := by
    have := F32.rne_int 100000
    rw [show ((9 : ℤ) - ((5 : ℕ) : ℤ)) = ((4 : ℕ) : ℤ) by norm_num, zpow_natCast]
    norm_num at this ⊢; exact this
  have hs : sci 5 1000000000 = (100000, 9) := by
    unfold sci
    simp only [hl, h]
    rfl
  simp [g, sign, gAbs, hs, decText, natText, padText, strip, expText, digit]

/-- the columns are not aligned -/
theorem C75_aligned_refuted : ¬ Aligned 2 (glm_mat2_print .default tall []) := by
  intro h
  have h := h 0 1 (by norm_num) (by norm_num)
  have hc : PrintCfg.default.Ok := by constructor <;> decide
  have e := fun i hi => mat_line .default hc 2 tall.at "Matrix (float2x2): ".toList (by decide) (glm_mat2_print .default tall []) rfl i hi
  rw [e 0 (by norm_num), e 1 (by norm_num)] at h
  have lt0 : F32.lt (.zero false) PrintCfg.default.maxToShort = true := by rw [limit]; simp [F32.lt, F32.val]
  have lt1 : F32.lt (.fin 1000000000 ⟨by norm_num, rep_1e9⟩) PrintCfg.default.maxToShort = false := by
    rw [limit]; norm_num [F32.lt, F32.val]
  have z := f_zero
  have w0 : colWidth .default 2 tall.at 0 = 8 := by
    simp only [colWidth, List.range_succ, List.range_zero, List.nil_append, List.foldl_append, List.foldl_cons, List.foldl_nil, tall, M2.at,
      snprintf, shortText, lt0, lt1, if_true, Bool.false_eq_true, if_false, g_tall, show PrintCfg.default.precision = 5 from rfl, z]
    rfl
  have w1 : colWidth .default 2 tall.at 1 = 8 := by
    simp only [colWidth, List.range_succ, List.range_zero, List.nil_append, List.foldl_append, List.foldl_cons, List.foldl_nil, tall, M2.at,
      snprintf, shortText, lt0, if_true, show PrintCfg.default.precision = 5 from rfl, z]
    rfl
  have z8 : (f 5 (.zero false)).length = 8 := by rw [z]; rfl
  have g2 : (g (.zero false)).length = 2 := rfl
  simp only [rowText, List.range_succ, List.range_zero, List.nil_append, List.flatMap_append, List.flatMap_cons, List.flatMap_nil,
    List.append_nil, List.length_append, List.length_cons, List.length_nil, printCell, w0, w1, width, List.length_replicate] at h
  simp only [tall, M2.at, lt0, lt1, if_true, Bool.false_eq_true, if_false, show PrintCfg.default.precision = 5 from rfl, z8, g2, f_tall] at h
  omega

example : PrintCfg.default.Ok := by constructor <;> decide
/-- the identity matrix is balanced -/
example : Balanced .default 2 (⟨⟨.fin 1 ⟨by norm_num, 1, 0, by norm_num, by norm_num, by norm_num, by norm_num⟩, .zero false⟩,
    ⟨.zero false, .fin 1 ⟨by norm_num, 1, 0, by norm_num, by norm_num, by norm_num, by norm_num⟩⟩⟩ : M2 F32).at := by
  intro i j hi hj
  interval_cases i <;> interval_cases j <;> rfl

/-! ## the name of the backend -/

/-- a part of the text -/
def Mentions (t : Text) (s : String) : Prop := s.toList <:+: t
instance (t : Text) (s : String) : Decidable (Mentions t s) := inferInstanceAs (Decidable (_ <:+: _))

/-- the families are told apart, and AVX is mentioned exactly when it is used -/
theorem C75_arch_partial (a : Arch) :
    (Mentions (glm_arch_print .plain a []) "wasm" ↔ a.wasm = true) ∧
    (Mentions (glm_arch_print .plain a []) "x86" ↔ a.wasm = false ∧ a.x86 = true) ∧
    (Mentions (glm_arch_print .plain a []) " AVX" ↔ a.wasm = false ∧ a.x86 = true ∧ a.avx = true) ∧
    (Mentions (glm_arch_print .plain a []) "arm" ↔ a.wasm = false ∧ a.x86 = false ∧ a.arm = true) ∧
    (Mentions (glm_arch_print .plain a []) "ARM64" ↔ a.wasm = false ∧ a.x86 = false ∧ a.arm = true ∧ a.arm64 = true) := by
  obtain ⟨w, x, v, m, n, k⟩ := a
  cases w <;> cases x <;> cases v <;> cases m <;> cases n <;> cases k <;> decide
/-- `NEON_FP` is mentioned exactly when it is not available -/
theorem C75_neon_refuted (a : Arch) (h : a.wasm = false ∧ a.x86 = false ∧ a.arm = true) :
    Mentions (glm_arch_print .plain a []) "NEON_FP" ↔ a.neonFp = false := by
  obtain ⟨w, x, v, m, n, k⟩ := a
  simp only at h
  obtain ⟨rfl, rfl, rfl⟩ := h
  cases v <;> cases n <;> cases k <;> decide
/-- the one-line form is the same text in a frame -/
theorem C75_arch_name (cfg : PrintCfg) (a : Arch) (s : Text) : glm_arch_print_name cfg a s =
    s ++ cfg.color ++ "\ncglm ".toList ++ glm_arch_print cfg a [] ++ "\n\n".toList ++ cfg.reset := by
  unfold glm_arch_print_name glm_arch_print
  generalize (if a.wasm then _ else _ : Text) = r
  simp only [List.append_assoc, List.nil_append]

end Cglm
