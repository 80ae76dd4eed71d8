import Mathlib.Tactic.IntervalCases
import Verif.ThreadCall
import Verif.Lib
import Verif.Lib.Int

/-!
# C82: calls from several threads

Any number of threads call functions of the library, each thread one call after the other, on a shared memory.  The single
accesses of the threads happen in any order.  If no thread writes into an array that another thread reads or writes, then
whatever the order there is no race, no thread gets stuck, all threads finish after the same number of accesses, and each
thread's results are those it has alone.  So the library keeps no hidden state, and needs no lock beyond the caller's own.
-/

namespace Cglm
open CMem

variable {α : Type} [Add α] [Sub α] [Mul α] [Div α] [Neg α] [CFloat α] [CIntConv α]

/-- the function is one of the library -/
def CMem.Call.Known : Call α → Prop
  | .float e _ => e ∈ lib
  | .int e _ => e ∈ ilib

/-- all threads before their first access -/
def startThreads (m : Mem α) (ths : List (List (Call α))) : Conf α (List (Option (Val α))) := ⟨ths.map fun cs => (actCalls cs, []), m⟩

/-- no thread writes into an array another thread uses -/
def OwnOutputs (ths : List (List (Call α))) : Prop :=
  ∀ (i j : Nat) (cs ds : List (Call α)), i ≠ j → ths[i]? = some cs → ths[j]? = some ds →
    ∀ x ∈ targets cs, ∀ y ∈ reads ds, Apart x.1 x.2 y.1 y.2

/-- what can be said of a state `c` reached after `n` accesses, when the threads need `k` in all and alone give `outs` -/
structure Fine (m : Mem α) (ths : List (List (Call α))) (outs : List (List (Option (Val α)) × Mem α)) (k n : Nat)
    (c : Conf α (List (Option (Val α)))) : Prop where
  /-- it goes on for at most so long -/
  bound : n ≤ k
  no_race : ¬ c.Race
  /-- a thread that has not finished can make its next access -/
  progress : ∀ p ∈ c.threads, (∃ x, p.1 = .done x) ∨ ∃ q, p.1.step (c.shared ++ p.2) = some q
  complete : n = k → c.Finished
  /-- the values returned -/
  values : c.Finished → c.threads.map Prod.fst = outs.map fun o => .done o.1
  /-- in the outputs of a thread is what it leaves there when it runs alone -/
  outputs : c.Finished → ∀ (i : Nat) cs o, ths[i]? = some cs → outs[i]? = some o → ∀ b a, Within (targets cs) b a → cell c.shared b a = cell o.2 b a
  /-- nothing else changes -/
  rest : c.Finished → ∀ b a, (∀ cs ∈ ths, ¬ Within (targets cs) b a) → cell c.shared b a = cell m b a
  same : Same m c.shared

/-- the state after the last access is the same for every order -/
theorem C82_any_schedule (m : Mem α) (ths : List (List (Call α))) (hl : ∀ cs ∈ ths, ∀ c ∈ cs, c.Known)
    (hg : ∀ cs ∈ ths, Good m cs) (ho : OwnOutputs ths) :
    ∃ outs k, List.Forall₂ (fun cs o => runCalls m cs = some o) ths outs ∧
      ∀ n c, Steps n (startThreads m ths) c → Fine m ths outs k n c := by
  have hok : ∀ cs ∈ ths, ∀ c ∈ cs, c.ok = true := by
    intro cs h c hc
    have hk := hl cs h c hc
    cases c with
    | float e l => exact List.all_eq_true.mp lib_ok _ hk
    | int e l => exact List.all_eq_true.mp ilib_ok _ hk
  have hj : ∃ Js : List (Job α (List (Option (Val α)))), List.Forall₂ (fun cs J => runCalls m cs = some (J.x, J.fin) ∧ Same m J.fin ∧ J.Ok m ∧ J.act = actCalls cs ∧
      J.R = Within (reads cs) ∧ J.W = Within (targets cs)) ths Js := by
    clear ho hl
    induction ths with
    | nil => exact ⟨[], .nil⟩
    | cons cs ths ih =>
      obtain ⟨Js, h⟩ := ih (fun d hd => hg d (by simp [hd])) fun d hd => hok d (by simp [hd])
      obtain ⟨vs, m', n, h1, h0, h2⟩ := (hg cs (by simp)).runs (hok cs (by simp))
      exact ⟨⟨actCalls cs, Within (reads cs), Within (targets cs), vs, m', n⟩ :: Js, .cons ⟨h1, h0, h2, rfl, rfl, rfl⟩ h⟩
  obtain ⟨Js, hJ⟩ := hj
  have hget : ∀ {i : Nat} {J}, Js[i]? = some J → ∃ cs, ths[i]? = some cs ∧ runCalls m cs = some (J.x, J.fin) ∧ Same m J.fin ∧ J.Ok m ∧ J.act = actCalls cs ∧
      J.R = Within (reads cs) ∧ J.W = Within (targets cs) := by
    intro i J hi
    rcases Forall₂.get hJ i with ⟨-, h2⟩ | ⟨a, b, h1, h2, h3⟩
    · rw [h2] at hi; simp at hi
    · rw [h2] at hi; cases hi; exact ⟨a, h1, h3⟩
  have hsub : ∀ (cs : List (Call α)) b o, Within (targets cs) b o → Within (reads cs) b o := by
    rintro cs b o ⟨x, hx, hb⟩
    obtain ⟨c, hc, hx⟩ := List.mem_flatMap.mp hx
    exact ⟨x, List.mem_flatMap.mpr ⟨c, hc, Arg.outs_spans _ x hx⟩, hb⟩
  have hsep : Separate Js := by
    intro i j I J hij hI hJ' b o hw
    obtain ⟨cs, h1, -, -, -, -, -, h6⟩ := hget hI
    obtain ⟨ds, g1, -, -, -, -, g5, g6⟩ := hget hJ'
    have key : ¬ J.R b o := by
      rw [g5]
      rintro ⟨y, hy, hb⟩
      rw [h6] at hw
      obtain ⟨x, hx, ha⟩ := hw
      have := ho i j cs ds hij h1 g1 x hx y hy
      unfold Apart at this
      omega
    exact ⟨key, fun h => key (by rw [g5]; rw [g6] at h; exact hsub _ _ _ h)⟩
  have hmem : ∀ J ∈ Js, ∃ cs ∈ ths, J.Ok m ∧ J.act = actCalls cs ∧ J.W = Within (targets cs) := by
    intro J hJm
    obtain ⟨i, hi⟩ := List.mem_iff_getElem?.mp hJm
    obtain ⟨cs, h1, -, -, h3, h4, -, h6⟩ := hget hi
    exact ⟨cs, List.mem_of_getElem? h1, h3, h4, h6⟩
  have hstart : startThreads m ths = ⟨Js.map fun J => (J.act, []), m⟩ := by
    unfold startThreads
    congr 1
    clear hsep hmem hget hok hg ho hl
    induction hJ with
    | nil => rfl
    | cons h _ ih => simp only [List.map_cons, ih, h.2.2.2.1]
  refine ⟨Js.map fun J => (J.x, J.fin), (Js.map Job.n).sum, ?_, ?_⟩
  · clear hsep hmem hget hok hg ho hl hstart
    induction hJ with
    | nil => exact .nil
    | cons h _ ih => exact .cons h.1 ih
  · intro n c hc
    rw [hstart] at hc
    obtain ⟨k', e, hm⟩ := Mid.steps hsep hc (Mid.start fun J h => (hmem J h).choose_spec.2.1)
    have hfin := hm.finish
    refine ⟨by omega, hm.no_race hsep, ?_, ?_, ?_, ?_, ?_, hm.same⟩
    · intro p hp
      obtain ⟨i, hi⟩ := List.mem_iff_getElem?.mp hp
      exact hm.progress hsep hi
    · intro hk
      obtain rfl : k' = 0 := by omega
      exact hm.all_done
    · intro hf
      rw [(hfin hf).1, List.map_map]; rfl
    · intro hf i cs o hi ho' b a hw
      rw [List.getElem?_map, Option.map_eq_some_iff] at ho'
      obtain ⟨J, hJi, rfl⟩ := ho'
      obtain ⟨cs', h1, -, h2, -, -, -, h6⟩ := hget hJi
      rw [hi] at h1; cases h1
      by_cases hb : b < m.length
      · exact (hfin hf).2.2.2.1 J (List.mem_of_getElem? hJi) b a (by rw [h6]; exact hw) hb
      · have e1 := hm.same.length
        have e2 := h2.length
        dsimp only
        unfold cell
        rw [List.getElem?_eq_none (by omega), List.getElem?_eq_none (by omega)]
    · intro hf b a hb
      refine (hfin hf).2.2.2.2 b a ?_
      intro J hJm
      obtain ⟨cs, h1, -, -, h4⟩ := hmem J hJm
      rw [h4]; exact hb cs h1

/-- The end is the same whatever the order: same memory, same values, same number of accesses. -/
theorem C82_one_outcome (m : Mem α) (ths : List (List (Call α))) (hl : ∀ cs ∈ ths, ∀ c ∈ cs, c.Known)
    (hg : ∀ cs ∈ ths, Good m cs) (ho : OwnOutputs ths) {n n' : Nat} {c c' : Conf α (List (Option (Val α)))}
    (h : Steps n (startThreads m ths) c) (hf : c.Finished) (h' : Steps n' (startThreads m ths) c') (hf' : c'.Finished) :
    c.shared = c'.shared ∧ c.threads.map Prod.fst = c'.threads.map Prod.fst := by
  obtain ⟨outs, k, h1, h2⟩ := C82_any_schedule m ths hl hg ho
  have g := h2 n c h
  have g' := h2 n' c' h'
  refine ⟨(g.same.symm.trans g'.same).ext ?_, (g.values hf).trans (g'.values hf').symm⟩
  intro b a
  by_cases hw : ∃ cs ∈ ths, Within (targets cs) b a
  · obtain ⟨cs, hcs, hw⟩ := hw
    obtain ⟨i, hi⟩ := List.mem_iff_getElem?.mp hcs
    rcases Forall₂.get h1 i with ⟨e, -⟩ | ⟨_, o, e1, e2, -⟩
    · rw [hi] at e; simp at e
    · rw [hi] at e1; cases e1
      rw [g.outputs hf i cs o hi e2 b a hw, g'.outputs hf' i cs o hi e2 b a hw]
  · push Not at hw
    rw [g.rest hf b a hw, g'.rest hf' b a hw]

/-- one thread adds, another adds from the same vectors and then subtracts from its own result -/
def twoThreads : List (List (Call α)) :=
  [[.float ⟨C.glm_vec3_add, [.inp 3, .inp 3, .out 3], .void⟩ [.inp (0, 0) 3, .inp (1, 0) 3, .out (2, 0) 3]],
   [.float ⟨C.glm_vec3_add, [.inp 3, .inp 3, .out 3], .void⟩ [.inp (0, 0) 3, .inp (1, 0) 3, .out (2, 3) 3],
    .float ⟨C.glm_vec3_sub, [.inp 3, .inp 3, .out 3], .void⟩ [.inp (2, 3) 3, .inp (0, 0) 3, .out (2, 3) 3]]]
/-- two vectors that are only read, and room for two more, not initialised -/
def threeBlocks (x : α) : Mem α := [⟨false, List.replicate 3 (.f x)⟩, ⟨false, List.replicate 3 (.f x)⟩, ⟨true, List.replicate 6 .undef⟩]

set_option maxRecDepth 10000 in
-- the hypotheses hold for it; the two outputs share an object
example : ∀ cs ∈ (twoThreads : List (List (Call α))), ∀ c ∈ cs, c.Known := by
  simp only [twoThreads, List.mem_cons, List.not_mem_nil, or_false, forall_eq_or_imp, forall_eq]
  exact ⟨List.mem_of_getElem? (i := 304) rfl, List.mem_of_getElem? (i := 304) rfl, List.mem_of_getElem? (i := 306) rfl⟩
example (x : α) : ∀ cs ∈ (twoThreads : List (List (Call α))), Good (threeBlocks x) cs := by
  have i0 : InitK IsF (threeBlocks x) (0, 0) 3 := fun k hk => ⟨.f x, by interval_cases k <;> rfl, x, rfl⟩
  have i1 : InitK IsF (threeBlocks x) (1, 0) 3 := fun k hk => ⟨.f x, by interval_cases k <;> rfl, x, rfl⟩
  have r2 : ∀ o, o ≤ 3 → Room (threeBlocks x) (2, o) 3 := fun o ho k hk => by simp [threeBlocks, cell, wr]; omega
  simp only [twoThreads, List.mem_cons, List.not_mem_nil, or_false, forall_eq_or_imp, forall_eq, Good]
  refine ⟨⟨⟨rfl, ⟨i0, by decide⟩, ⟨i1, by decide⟩, ⟨r2 0 (by decide), by decide⟩, trivial⟩, fun _ _ _ => trivial⟩, ⟨rfl, ⟨i0, by decide⟩, ⟨i1, by decide⟩, ⟨r2 3 (by decide), by decide⟩, trivial⟩, ?_⟩
  intro v m' h
  obtain ⟨v1, m1, e, -, hs, hfr, hin⟩ := safe_run (f := C.glm_vec3_add) [.inp (0, 0) 3, .inp (1, 0) 3, .out (2, 3) 3]
    ⟨⟨i0, by decide⟩, ⟨i1, by decide⟩, ⟨r2 3 (by decide), by decide⟩, trivial⟩ .void (by kernel_rfl)
  have e2 : C.glm_vec3_add.run (threeBlocks x) ([.inp (0, 0) 3, .inp (1, 0) 3, .out (2, 3) 3].map Arg.val) = some (v, m') := h
  rw [e] at e2
  cases e2
  refine ⟨⟨rfl, ⟨initK_isF.mpr (hin ((2, 3), 3) (by simp [Arg.outs])), by decide⟩, ⟨?_, by decide⟩, ⟨?_, by decide⟩, trivial⟩, fun _ _ _ => trivial⟩
  · intro k hk
    obtain ⟨v, h1, h2⟩ := i0 k hk
    exact ⟨v, by rw [hfr _ _ (by simp [Arg.outs])]; exact h1, h2⟩
  · intro k hk
    rw [← hs.wr, ← hs.cell]
    exact r2 3 (by decide) k hk
example : OwnOutputs (twoThreads : List (List (Call α))) := by
  intro i j cs ds hij hi hj x hx y hy
  have hi2 : i < 2 := by
    by_contra h
    rw [List.getElem?_eq_none (by simp [twoThreads]; omega)] at hi; simp at hi
  have hj2 : j < 2 := by
    by_contra h
    rw [List.getElem?_eq_none (by simp [twoThreads]; omega)] at hj; simp at hj
  interval_cases i <;> interval_cases j <;> first | exact absurd rfl hij | skip
  all_goals
    simp only [twoThreads, List.getElem?_cons_zero, List.getElem?_cons_succ, Option.some.injEq] at hi hj
    subst hi; subst hj
    simp only [targets, reads, Call.args, List.flatMap_cons, List.flatMap_nil, Arg.outs, Arg.spans, List.cons_append, List.nil_append, List.append_nil, List.mem_cons, List.not_mem_nil, or_false] at hx hy
    rcases hx with rfl | rfl <;> rcases hy with rfl | rfl | rfl | rfl | rfl | rfl <;> simp [Apart]

/-- one thread adds integer vectors, another adds float vectors -/
def intAndFloat : List (List (Call α)) :=
  [[.int ⟨CI.glm_ivec3_add, [.inp 3, .inp 3, .out 3], .void⟩ [.inp (0, 0) 3, .inp (0, 0) 3, .out (1, 0) 3]],
   [.float ⟨C.glm_vec3_add, [.inp 3, .inp 3, .out 3], .void⟩ [.inp (2, 0) 3, .inp (2, 0) 3, .out (3, 0) 3]]]
def fourBlocks (x : α) : Mem α :=
  [⟨false, [.i 5, .i (-7), .i 1000000000]⟩, ⟨true, List.replicate 3 .undef⟩, ⟨false, List.replicate 3 (.f x)⟩, ⟨true, List.replicate 3 .undef⟩]

set_option maxRecDepth 10000 in
-- the hypotheses hold for these as well
example : ∀ cs ∈ (intAndFloat : List (List (Call α))), ∀ c ∈ cs, c.Known := by
  simp only [intAndFloat, List.mem_cons, List.not_mem_nil, or_false, forall_eq_or_imp, forall_eq]
  exact ⟨List.mem_of_getElem? (i := 50) rfl, List.mem_of_getElem? (i := 304) rfl⟩
example (x : α) : ∀ cs ∈ (intAndFloat : List (List (Call α))), Good (fourBlocks x) cs := by
  have i0 : InitK IsI (fourBlocks x) (0, 0) 3 := fun k hk => by interval_cases k <;> exact ⟨_, rfl, _, rfl⟩
  have r1 : Room (fourBlocks x) (1, 0) 3 := fun k hk => by simp [fourBlocks, cell, wr]; omega
  have i2 : InitK IsF (fourBlocks x) (2, 0) 3 := fun k hk => ⟨.f x, by interval_cases k <;> rfl, x, rfl⟩
  have r3 : Room (fourBlocks x) (3, 0) 3 := fun k hk => by simp [fourBlocks, cell, wr]; omega
  simp only [intAndFloat, List.mem_cons, List.not_mem_nil, or_false, forall_eq_or_imp, forall_eq, Good]
  refine ⟨⟨⟨rfl, ⟨⟨i0, by decide⟩, ⟨i0, by decide⟩, ⟨r1, by decide⟩, trivial⟩, ?_⟩, fun _ _ _ => trivial⟩, ⟨rfl, ⟨i2, by decide⟩, ⟨i2, by decide⟩, ⟨r3, by decide⟩, trivial⟩, fun _ _ _ => trivial⟩
  have h : CI.glm_ivec3_add.run (fourBlocks x) ([.inp (0, 0) 3, .inp (0, 0) 3, .out (1, 0) 3].map Arg.val) = some (none,
    [⟨false, [.i 5, .i (-7), .i 1000000000]⟩, ⟨true, [.i 10, .i (-14), .i 2000000000]⟩, ⟨false, List.replicate 3 (.f x)⟩, ⟨true, List.replicate 3 .undef⟩]) := by kernel_rfl
  exact fun e => by rw [h] at e; cases e
example : OwnOutputs (intAndFloat : List (List (Call α))) := by
  intro i j cs ds hij hi hj x hx y hy
  have hi2 : i < 2 := by
    by_contra h
    rw [List.getElem?_eq_none (by simp [intAndFloat]; omega)] at hi; simp at hi
  have hj2 : j < 2 := by
    by_contra h
    rw [List.getElem?_eq_none (by simp [intAndFloat]; omega)] at hj; simp at hj
  interval_cases i <;> interval_cases j <;> first | exact absurd rfl hij | skip
  all_goals
    simp only [intAndFloat, List.getElem?_cons_zero, List.getElem?_cons_succ, Option.some.injEq] at hi hj
    subst hi; subst hj
    simp only [targets, reads, Call.args, List.flatMap_cons, List.flatMap_nil, Arg.outs, Arg.spans, List.append_nil, List.mem_cons, List.not_mem_nil, or_false] at hx hy
    subst hx
    rcases hy with rfl | rfl | rfl <;> simp [Apart]

/-- The condition is needed: two threads that copy into the same vector come into a race. -/
theorem C82_race_without (x y : α) :
    let ths : List (List (Call α)) := [[.float ⟨C.glm_vec2_copy, [.inp 2, .out 2], .void⟩ [.inp (0, 0) 2, .out (2, 0) 2]],
      [.float ⟨C.glm_vec2_copy, [.inp 2, .out 2], .void⟩ [.inp (1, 0) 2, .out (2, 0) 2]]]
    let m : Mem α := [⟨true, [.f x, .f x]⟩, ⟨true, [.f y, .f y]⟩, ⟨true, [.undef, .undef]⟩]
    ∃ n c, Steps n (startThreads m ths) c ∧ c.Race := by
  intro ths m
  refine ⟨4, _, .step (.step (.step (.step .refl (.mk (i := 0) rfl rfl)) (.mk (i := 0) rfl rfl)) (.mk (i := 1) rfl rfl)) (.mk (i := 1) rfl rfl), ?_⟩
  exact ⟨0, 1, _, _, 2, 0, true, by decide, rfl, rfl, (by decide : 2 < 3), rfl, rfl⟩

end Cglm
