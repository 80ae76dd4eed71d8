import Verif.Reading

/-! # C75: printed text shows the value

The reader (`lines`, `words`, `between`, `readInt`, `readDec`, `Shows`) is in `Reading.lean`. -/

namespace Cglm
open Printf

/-- the colour macros do not end the line -/
def PrintCfg.Ok (cfg : PrintCfg) : Prop := '\n' ∉ cfg.color ∧ '\n' ∉ cfg.reset

/-- the words between parentheses in line `i` -/
def shownLine (t : Text) (i : ℕ) : List Text := words (between '(' ')' ((lines t).getD i []))
/-- the words between bars in the line of row `i` of a matrix -/
def shownRow (t : Text) (i : ℕ) : List Text := words (between '|' '|' ((lines t).getD (i + 1) []))

/-- a number in its proper format: the configured number of decimals below the limit, six significant digits above -/
def ShowsShort (cfg : PrintCfg) (x : F32) (w : Text) : Prop :=
  if F32.lt x cfg.maxToShort then Shows x w (1 / 2 / 10 ^ cfg.precision) ∧ (x.isFin = true → decimals w = cfg.precision)
  else Shows x w (|x.val| / 2 / 10 ^ 5)

/-! ## helper lemmas -/

private theorem short_spec (cfg : PrintCfg) (x : F32) :
    ∃ b w, ' ' :: shortText cfg x = List.replicate (b + 1) ' ' ++ w ∧ Plain w ∧ ShowsShort cfg x w := by
  unfold shortText ShowsShort
  split_ifs with h
  · obtain ⟨b, w, e, h1, h2, h3⟩ := f_spec cfg.precision x
    exact ⟨b, w, by rw [e]; simp [List.replicate_succ], h1, h2, h3⟩
  · obtain ⟨b, w, e, h1, h2⟩ := g_spec x
    exact ⟨b, w, by rw [e]; simp [List.replicate_succ], h1, h2⟩

/-- the lines of a printed vector -/
private theorem vec_lines (cfg : PrintCfg) (hc : cfg.Ok) (head : Text) (hh : '\n' ∉ head) (fs : List (ℕ × Text)) (h : ∀ p ∈ fs, Plain p.2) :
    lines ((head ++ cfg.color ++ ['\n', ' ', ' ', '(']) ++ fields fs ++ ([' ', ' ', ')'] ++ cfg.reset ++ ['\n', '\n'])) =
      [head ++ cfg.color, [' ', ' ', '('] ++ fields fs ++ [' ', ' ', ')'] ++ cfg.reset, [], []] := by
  have e : (head ++ cfg.color ++ ['\n', ' ', ' ', '(']) ++ fields fs ++ ([' ', ' ', ')'] ++ cfg.reset ++ ['\n', '\n']) =
      (head ++ cfg.color) ++ '\n' :: (([' ', ' ', '('] ++ fields fs ++ [' ', ' ', ')'] ++ cfg.reset) ++ '\n' :: ([] ++ '\n' :: [])) := by simp
  have h1 := fields_not_mem fs h '\n' (by decide)
  rw [e, lines_cons _ (by simp [hh, hc.1]), lines_cons _ (by simp [h1, hc.2]), lines_cons _ (by simp)]
  rfl
private theorem floats_fields (cfg : PrintCfg) (l : List F32) (s : Text) : ∃ fs : List (ℕ × Text),
    printFloats cfg l s = s ++ fields fs ∧ (∀ p ∈ fs, Plain p.2) ∧ List.Forall₂ (ShowsShort cfg) l (fs.map Prod.snd) := by
  obtain ⟨fs, e, h1, h2⟩ := exists_fields (fun x => ' ' :: shortText cfg x) (ShowsShort cfg) l fun x _ => short_spec cfg x
  exact ⟨fs, by rw [← e]; exact foldl_fields _ l s, h1, h2⟩
private theorem ints_fields (l : List ℤ) (s : Text) : ∃ fs : List (ℕ × Text),
    printInts l s = s ++ fields fs ∧ (∀ p ∈ fs, Plain p.2) ∧ (fs.map Prod.snd).map readInt = l := by
  obtain ⟨fs, e, h1, h2⟩ := exists_fields (fun z => ' ' :: d z) (fun z w => readInt w = z) l (fun z _ => by
    obtain ⟨b, w, e, h1, h2⟩ := d_spec z
    exact ⟨b, w, by rw [e]; simp [List.replicate_succ], h1, h2⟩)
  refine ⟨fs, by rw [← e]; exact foldl_fields _ l s, h1, ?_⟩
  have key : ∀ (l : List ℤ) (ws : List Text), List.Forall₂ (fun z w => readInt w = z) l ws → ws.map readInt = l := by
    intro l ws h
    induction h with
    | nil => rfl
    | cons h _ ih => rw [List.map_cons, h, ih]
  exact key _ _ h2

/-- a printed vector of floats -/
private theorem floats_shown (cfg : PrintCfg) (hc : cfg.Ok) (head : Text) (hh : '\n' ∉ head) (l : List F32) (t : Text)
    (ht : t = printFloats cfg l ([] ++ (head ++ cfg.color ++ ['\n', ' ', ' ', '('])) ++ ([' ', ' ', ')'] ++ cfg.reset ++ ['\n', '\n'])) :
    (lines t).head? = some (head ++ cfg.color) ∧ (lines t).length = 4 ∧ List.Forall₂ (ShowsShort cfg) l (shownLine t 1) := by
  obtain ⟨fs, e, h1, h2⟩ := floats_fields cfg l ([] ++ (head ++ cfg.color ++ ['\n', ' ', ' ', '(']))
  rw [e, List.nil_append] at ht
  subst ht
  rw [shownLine, vec_lines cfg hc head hh fs h1]
  refine ⟨rfl, rfl, ?_⟩
  rw [List.getD_cons_succ, List.getD_cons_zero, paren_line fs h1]
  exact h2
private theorem ints_shown (cfg : PrintCfg) (hc : cfg.Ok) (head : Text) (hh : '\n' ∉ head) (l : List ℤ) (t : Text)
    (ht : t = printInts l ([] ++ (head ++ cfg.color ++ ['\n', ' ', ' ', '('])) ++ ([' ', ' ', ')'] ++ cfg.reset ++ ['\n', '\n'])) :
    (lines t).head? = some (head ++ cfg.color) ∧ (lines t).length = 4 ∧ (shownLine t 1).map readInt = l := by
  obtain ⟨fs, e, h1, h2⟩ := ints_fields l ([] ++ (head ++ cfg.color ++ ['\n', ' ', ' ', '(']))
  rw [e, List.nil_append] at ht
  subst ht
  rw [shownLine, vec_lines cfg hc head hh fs h1]
  refine ⟨rfl, rfl, ?_⟩
  rw [List.getD_cons_succ, List.getD_cons_zero, paren_line fs h1]
  exact h2

/-! ## vectors -/

/-- an integer vector can be read back exactly -/
theorem C75_ivec2 (cfg : PrintCfg) (hc : cfg.Ok) (v : V2 ℤ) :
    (lines (glm_ivec2_print cfg v [])).head? = some ("Vector (int2): ".toList ++ cfg.color) ∧
    (lines (glm_ivec2_print cfg v [])).length = 4 ∧ (shownLine (glm_ivec2_print cfg v []) 1).map readInt = [v.x, v.y] :=
  ints_shown cfg hc "Vector (int2): ".toList (by decide) _ _ rfl
theorem C75_ivec3 (cfg : PrintCfg) (hc : cfg.Ok) (v : V3 ℤ) :
    (lines (glm_ivec3_print cfg v [])).head? = some ("Vector (int3): ".toList ++ cfg.color) ∧
    (lines (glm_ivec3_print cfg v [])).length = 4 ∧ (shownLine (glm_ivec3_print cfg v []) 1).map readInt = [v.x, v.y, v.z] :=
  ints_shown cfg hc "Vector (int3): ".toList (by decide) _ _ rfl
theorem C75_ivec4 (cfg : PrintCfg) (hc : cfg.Ok) (v : V4 ℤ) :
    (lines (glm_ivec4_print cfg v [])).head? = some ("Vector (int4): ".toList ++ cfg.color) ∧
    (lines (glm_ivec4_print cfg v [])).length = 4 ∧ (shownLine (glm_ivec4_print cfg v []) 1).map readInt = [v.x, v.y, v.z, v.w] :=
  ints_shown cfg hc "Vector (int4): ".toList (by decide) _ _ rfl
/-- different integer vectors are printed differently -/
theorem C75_ivec4_injective (cfg : PrintCfg) (hc : cfg.Ok) (v w : V4 ℤ) (h : glm_ivec4_print cfg v [] = glm_ivec4_print cfg w []) : v = w := by
  have a := (C75_ivec4 cfg hc v).2.2
  rw [h, (C75_ivec4 cfg hc w).2.2] at a
  simp only [List.cons.injEq, and_true] at a
  obtain ⟨a1, a2, a3, a4⟩ := a
  cases v; cases w
  simp only at a1 a2 a3 a4
  subst a1 a2 a3 a4
  rfl

/-- the components of a vector are shown in order, each in its proper format -/
theorem C75_vec2 (cfg : PrintCfg) (hc : cfg.Ok) (v : V2 F32) :
    (lines (glm_vec2_print cfg v [])).head? = some ("Vector (float2): ".toList ++ cfg.color) ∧
    (lines (glm_vec2_print cfg v [])).length = 4 ∧ List.Forall₂ (ShowsShort cfg) [v.x, v.y] (shownLine (glm_vec2_print cfg v []) 1) :=
  floats_shown cfg hc "Vector (float2): ".toList (by decide) _ _ rfl
theorem C75_vec3 (cfg : PrintCfg) (hc : cfg.Ok) (v : V3 F32) :
    (lines (glm_vec3_print cfg v [])).head? = some ("Vector (float3): ".toList ++ cfg.color) ∧
    (lines (glm_vec3_print cfg v [])).length = 4 ∧ List.Forall₂ (ShowsShort cfg) [v.x, v.y, v.z] (shownLine (glm_vec3_print cfg v []) 1) :=
  floats_shown cfg hc "Vector (float3): ".toList (by decide) _ _ rfl
theorem C75_vec4 (cfg : PrintCfg) (hc : cfg.Ok) (v : V4 F32) :
    (lines (glm_vec4_print cfg v [])).head? = some ("Vector (float4): ".toList ++ cfg.color) ∧
    (lines (glm_vec4_print cfg v [])).length = 4 ∧ List.Forall₂ (ShowsShort cfg) [v.x, v.y, v.z, v.w] (shownLine (glm_vec4_print cfg v []) 1) :=
  floats_shown cfg hc "Vector (float4): ".toList (by decide) _ _ rfl
theorem C75_versor (cfg : PrintCfg) (hc : cfg.Ok) (v : V4 F32) :
    (lines (glm_versor_print cfg v [])).head? = some ("Quaternion (float4): ".toList ++ cfg.color) ∧
    (lines (glm_versor_print cfg v [])).length = 4 ∧ List.Forall₂ (ShowsShort cfg) [v.x, v.y, v.z, v.w] (shownLine (glm_versor_print cfg v []) 1) :=
  floats_shown cfg hc "Quaternion (float4): ".toList (by decide) _ _ rfl

/-- a box: one line for each corner, after a line with the tag -/
theorem C75_aabb (cfg : PrintCfg) (hc : cfg.Ok) (b : M2x3 F32) (tag : Option Text) (ht : ∀ s, tag = some s → '\n' ∉ s) :
    (lines (glm_aabb_print cfg b tag [])).head? = some ("AABB (".toList ++ tag.getD "float".toList ++ "): ".toList ++ cfg.color) ∧
    List.Forall₂ (ShowsShort cfg) [b.c0.x, b.c0.y, b.c0.z] (shownLine (glm_aabb_print cfg b tag []) 1) ∧
    List.Forall₂ (ShowsShort cfg) [b.c1.x, b.c1.y, b.c1.z] (shownLine (glm_aabb_print cfg b tag []) 2) := by
  have hg : '\n' ∉ tag.getD "float".toList := by
    cases tag with
    | none => decide
    | some s => exact ht s rfl
  generalize hh : "AABB (".toList ++ tag.getD "float".toList ++ "): ".toList ++ cfg.color = head
  have hn : '\n' ∉ head := by
    rw [← hh]
    have h1 : '\n' ∉ "AABB (".toList := by decide
    have h2 : '\n' ∉ "): ".toList := by decide
    simp only [List.mem_append, not_or]
    exact ⟨⟨⟨h1, hg⟩, h2⟩, hc.1⟩
  obtain ⟨f0, e0, p0, s0⟩ := floats_fields cfg [b.c0.x, b.c0.y, b.c0.z] ((head ++ ['\n']) ++ [' ', ' ', '('])
  obtain ⟨f1, e1, p1, s1⟩ := floats_fields cfg [b.c1.x, b.c1.y, b.c1.z]
    ((head ++ ['\n'] ++ [' ', ' ', '('] ++ fields f0 ++ [' ', ' ', ')', '\n']) ++ [' ', ' ', '('])
  have e : glm_aabb_print cfg b tag [] = head ++ '\n' :: (([' ', ' ', '('] ++ fields f0 ++ [' ', ' ', ')'] ++ []) ++
      '\n' :: (([' ', ' ', '('] ++ fields f1 ++ [' ', ' ', ')'] ++ []) ++ '\n' :: (cfg.reset ++ '\n' :: []))) := by
    unfold glm_aabb_print
    simp only [List.foldl_cons, List.foldl_nil, List.nil_append]
    rw [show ("\n".toList : Text) = ['\n'] from rfl, show ("  (".toList : Text) = [' ', ' ', '('] from rfl,
      show ("  )\n".toList : Text) = [' ', ' ', ')', '\n'] from rfl, hh, e0, e1]
    simp
  have n0 := fields_not_mem f0 p0 '\n' (by decide)
  have n1 := fields_not_mem f1 p1 '\n' (by decide)
  rw [shownLine, shownLine, e, lines_cons _ hn, lines_cons _ (by simp [n0]), lines_cons _ (by simp [n1])]
  refine ⟨rfl, ?_, ?_⟩
  · rw [List.getD_cons_succ, List.getD_cons_zero, paren_line f0 p0]; exact s0
  · rw [List.getD_cons_succ, List.getD_cons_succ, List.getD_cons_zero, paren_line f1 p1]; exact s1

/-- printing only adds to the stream -/
theorem C75_append (cfg : PrintCfg) (s : Text) :
    (∀ v, glm_vec2_print cfg v s = s ++ glm_vec2_print cfg v []) ∧ (∀ v, glm_vec3_print cfg v s = s ++ glm_vec3_print cfg v []) ∧
    (∀ v, glm_vec4_print cfg v s = s ++ glm_vec4_print cfg v []) ∧ (∀ v, glm_versor_print cfg v s = s ++ glm_versor_print cfg v []) ∧
    (∀ v, glm_ivec2_print cfg v s = s ++ glm_ivec2_print cfg v []) ∧ (∀ v, glm_ivec3_print cfg v s = s ++ glm_ivec3_print cfg v []) ∧
    (∀ v, glm_ivec4_print cfg v s = s ++ glm_ivec4_print cfg v []) ∧
    (∀ b tag, glm_aabb_print cfg b tag s = s ++ glm_aabb_print cfg b tag []) ∧
    (∀ m, glm_mat4_print cfg m s = s ++ glm_mat4_print cfg m []) ∧ (∀ m, glm_mat3_print cfg m s = s ++ glm_mat3_print cfg m []) ∧
    (∀ m, glm_mat2_print cfg m s = s ++ glm_mat2_print cfg m []) := by
  refine ⟨?_, ?_, ?_, ?_, ?_, ?_, ?_, ?_, ?_, ?_, ?_⟩
  all_goals
    intros
    simp [glm_vec2_print, glm_vec3_print, glm_vec4_print, glm_versor_print, glm_ivec2_print, glm_ivec3_print, glm_ivec4_print,
      glm_aabb_print, glm_mat4_print, glm_mat3_print, glm_mat2_print, printFloats, printInts, printRows, List.range_succ]

end Cglm
