import Verif.ThreadInt
import Verif.CMemIEntry

/-!
# Threads that call library functions
-/

namespace Cglm.CMem

variable {α : Type}

/-- all arrays among the arguments -/
def Arg.spans : List (Arg α) → List (Ptr × Nat)
  | [] => []
  | .inp p n :: l | .out p n :: l | .io p n :: l => (p, n) :: spans l
  | _ :: l => spans l

/-- the cell lies in one of the arrays -/
def Within (l : List (Ptr × Nat)) (b o : Nat) : Prop := ∃ x ∈ l, b = x.1.1 ∧ x.1.2 ≤ o ∧ o < x.1.2 + x.2

theorem Arg.outs_spans (l : List (Arg α)) : ∀ x ∈ Arg.outs l, x ∈ Arg.spans l := by
  induction l with
  | nil => simp [Arg.outs]
  | cons a l ih =>
    intro x hx
    cases a <;> simp only [Arg.outs, Arg.spans, List.mem_cons] at hx ⊢ <;> first | exact ih x hx | exact Or.inr (ih x hx) | exact hx.imp id (ih x)

theorem Runs.mono {β : Type} {N : Nat} {R W R' W' : Nat → Nat → Prop} {t : Act α β} {m m' : Mem α} {x : β} {n : Nat} (h : Runs N R W t m x m' n)
    (hR : ∀ b o, R b o → R' b o) (hW : ∀ b o, W b o → W' b o) : Runs N R' W' t m x m' n := by
  induction h with
  | done => exact .done
  | read h1 h2 _ ih => exact .read (fun hb => hR _ _ (h1 hb)) h2 ih
  | write h1 h2 _ ih => exact .write (fun hb => hW _ _ (h1 hb)) h2 ih
  | enter _ ih => exact .enter ih
  | leave h1 _ ih => exact .leave h1 ih

open Classical in
/-- the memory with all cells but those in `Q` made indeterminate -/
noncomputable def mask (Q : Nat → Nat → Prop) (m : Mem α) : Mem α :=
  m.mapIdx fun b B => ⟨B.w, B.cells.mapIdx fun o v => if Q b o then v else .undef⟩

open Classical in
theorem cell_mask (Q : Nat → Nat → Prop) (m : Mem α) (b o : Nat) :
    cell (mask Q m) b o = (cell m b o).map fun v => if Q b o then v else .undef := by
  unfold cell mask
  rw [List.getElem?_mapIdx]
  rcases m[b]? with _ | B
  · rfl
  · simp [List.getElem?_mapIdx]

theorem cell_mask_pos {Q : Nat → Nat → Prop} {m : Mem α} {b o : Nat} (h : Q b o) : cell (mask Q m) b o = cell m b o := by
  rw [cell_mask]
  simp [h]

theorem same_mask (Q : Nat → Nat → Prop) (m : Mem α) : Same m (mask Q m) := by
  unfold Same mask
  apply List.ext_getElem?
  intro b
  simp only [List.getElem?_map, List.getElem?_mapIdx]
  rcases m[b]? with _ | B <;> simp

theorem Arg.AllOk.mask {K : Val α → Prop} {m : Mem α} {Q : Nat → Nat → Prop} (l : List (Arg α)) (h : Arg.AllOk K m l)
    (hQ : ∀ b o, Within (Arg.spans l) b o → Q b o) : Arg.AllOk K (CMem.mask Q m) l := by
  have hi : ∀ {p : Ptr} {n : Nat}, (∀ b o, Within [(p, n)] b o → Q b o) → InitK K m p n → InitK K (CMem.mask Q m) p n := by
    intro p n hq hin k hk
    obtain ⟨v, h1, h2⟩ := hin k hk
    exact ⟨v, by rw [cell_mask_pos (hq _ _ ⟨_, List.mem_singleton.mpr rfl, rfl, by simp, by simp; omega⟩)]; exact h1, h2⟩
  have hr : ∀ {p : Ptr} {n : Nat}, Room m p n → Room (CMem.mask Q m) p n := by
    intro p n hin k hk
    rw [← (same_mask Q m).wr, ← (same_mask Q m).cell]
    exact hin k hk
  induction l with
  | nil => trivial
  | cons a l ih =>
    have hq' : ∀ b o, Within (Arg.spans l) b o → Q b o := by
      intro b o ⟨x, hx, hb⟩
      refine hQ b o ⟨x, ?_, hb⟩
      cases a <;> simp [Arg.spans, hx]
    refine ⟨?_, ih h.2 hq'⟩
    have hh := h.1
    cases a with
    | inp p n => exact ⟨hi (fun b o ⟨x, hx, hb⟩ => hQ b o ⟨x, by simp at hx; simp [Arg.spans, hx], hb⟩) hh.1, hh.2⟩
    | out p n => exact ⟨hr hh.1, hh.2⟩
    | io p n => exact ⟨hi (fun b o ⟨x, hx, hb⟩ => hQ b o ⟨x, by simp at hx; simp [Arg.spans, hx], hb⟩) hh.1, hr hh.2.1, hh.2.2⟩
    | f x | i x | b x => trivial

section
variable [Add α] [Sub α] [Mul α] [Div α] [Neg α] [CFloat α]

/-- An accepted call, one access at a time; here it may read any cell that is initialised. -/
theorem act_call {f : Fn} (l : List (Arg α)) {m : Mem α} (hl : Arg.AllOk IsF m l) (R : Ret)
    (h : f.safe (Arg.arrays l) (Arg.avs 0 l) = some (R.av, Arg.done l)) : ∃ v m' n, f.run m (l.map Arg.val) = some (v, m') ∧
      SafeK IsF m (Arg.outs l) R (some (v, m')) ∧
      Runs m.length (Arg.ctx IsF m l).Rd (Within (Arg.outs l)) (f.act (l.map Arg.val)) m v m' n := by
  have hlen : (Arg.arrays l).length = (Arg.ctx IsF m l).P.length := Arg.length l
  have he : SE (Arg.ctx IsF m l) (Arg.avs 0 l) (l.map Arg.val) := Arg.avs_ok l 0 fun i p hp => by rw [Nat.zero_add]; exact hp
  unfold Fn.safe at h
  split at h
  · rename_i r hr
    rw [hlen] at hr
    obtain ⟨x, m1, n, h1, g1, h2⟩ := act_sound (c := Arg.ctx IsF m l) (fun _ => Iff.rfl) (Arg.ptr_lt hl) f.body hr ((Arg.start l hl).enter f.locals)
      (he.append f.nregs) (Nat.le_refl _) rfl
    rw [Nat.sub_self, Nat.add_zero] at h1 g1
    have hf := Arg.finish l hl R h h2
    obtain ⟨v, m', e, h3⟩ := hf
    have hN : (Arg.ctx IsF m l).M.length ≤ m.length := Nat.le_refl _
    obtain ⟨e', g2⟩ := End.value_runs (R := (Arg.ctx IsF m l).Rd) (W := (Arg.ctx IsF m l).W) hN e
    subst e'
    refine ⟨v, _, _, ?_, ⟨v, _, rfl, h3⟩, .enter (g1.bind (.leave hN g2))⟩
    unfold Fn.run
    rw [show f.body.exec m.length (l.map Arg.val ++ List.replicate f.nregs .undef) (m ++ fresh f.locals) = some (End.out m1 x) from h1]
    exact e
  · simp at h

/-- An accepted call, one access at a time, reads only its arrays and writes only its outputs. -/
theorem act_run {f : Fn} (l : List (Arg α)) {m : Mem α} (hl : Arg.AllOk IsF m l) (R : Ret)
    (h : f.safe (Arg.arrays l) (Arg.avs 0 l) = some (R.av, Arg.done l)) : ∃ v m' n, f.run m (l.map Arg.val) = some (v, m') ∧
      SafeK IsF m (Arg.outs l) R (some (v, m')) ∧
      Runs m.length (Within (Arg.spans l)) (Within (Arg.outs l)) (f.act (l.map Arg.val)) m v m' n := by
  obtain ⟨v, m', n, h1, h2, h3⟩ := act_call l hl R h
  refine ⟨v, m', n, h1, h2, ?_⟩
  obtain ⟨v', m2, n', -, -, g3⟩ := act_call l (hl.mask l fun b o hb => hb) R h
  have g4 : Runs m.length (Within (Arg.spans l)) (Within (Arg.outs l)) (f.act (l.map Arg.val)) (mask (Within (Arg.spans l)) m) v' m2 n' := by
    rw [(same_mask (Within (Arg.spans l)) m).length]
    refine g3.mono ?_ fun _ _ h => h
    rintro b o (⟨x, hx, hb⟩ | ⟨v, hv, hb⟩)
    · exact ⟨x, Arg.outs_spans l x hx, hb⟩
    · by_contra hn
      change cell (mask _ m) b o = some v at hb
      rw [cell_mask] at hb
      simp only [hn, if_false, Option.map_eq_some_iff] at hb
      obtain ⟨_, -, rfl⟩ := hb
      exact hv rfl
  obtain ⟨m3, g5⟩ := Runs.transfer (l := []) (s := m) n' (by simpa using g4) (same_mask _ m).length.symm (same_mask _ m).symm (by
    intro b o hb
    rw [cell_mask_pos]
    rcases hb with hb | ⟨x, hx, hb⟩
    · exact hb
    · exact ⟨x, Arg.outs_spans l x hx, hb⟩)
  rw [List.append_nil] at g5
  obtain ⟨rfl, rfl, rfl⟩ := h3.det g5
  exact g5

end

section
variable [Add α] [Sub α] [Mul α] [Div α] [Neg α] [CFloat α] [CIntConv α]

/-- An accepted integer call whose operations never fail, one access at a time; here it may read any cell that is initialised. -/
theorem iact_call (T : Arith α) {f : IFn} (l : List (Arg α)) {m : Mem α} (hl : Arg.AllOk IsI m l) (R : Ret)
    (h : f.safe (Arg.arrays l) (Arg.avs 0 l) = some (R.av, Arg.done l)) : ∃ v m' n,
      Runs m.length (Arg.ctx IsI m l).Rd (Within (Arg.outs l)) (f.act T.ops (l.map Arg.val)) m v m' n := by
  have hlen : (Arg.arrays l).length = (Arg.ctx IsI m l).P.length := Arg.length l
  have he : SE (Arg.ctx IsI m l) (Arg.avs 0 l) (l.map Arg.val) := Arg.avs_ok l 0 fun i p hp => by rw [Nat.zero_add]; exact hp
  unfold IFn.safe at h
  split at h
  · rename_i r hr
    rw [hlen] at hr
    obtain ⟨o, h1, h2⟩ := isafe_sound T (c := Arg.ctx IsI m l) (fun _ => Iff.rfl) (Arg.ptr_lt hl) f.body hr ((Arg.start l hl).enter f.locals)
      (he.append f.nregs) (Nat.le_refl _) rfl
    obtain ⟨x, m1, n, rfl, g1⟩ := iact_sound T (c := Arg.ctx IsI m l) (fun _ => Iff.rfl) (Arg.ptr_lt hl) f.body hr ((Arg.start l hl).enter f.locals)
      (he.append f.nregs) (Nat.le_refl _) rfl h1
    rw [Nat.sub_self, Nat.add_zero] at g1
    obtain ⟨v, m', e, -⟩ := Arg.finish l hl R h h2
    have hN : (Arg.ctx IsI m l).M.length ≤ m.length := Nat.le_refl _
    obtain ⟨e', g2⟩ := End.value_runs (R := (Arg.ctx IsI m l).Rd) (W := (Arg.ctx IsI m l).W) hN e
    subst e'
    exact ⟨v, _, _, .enter (g1.bind (.leave hN g2))⟩
  · simp at h

/-- An accepted integer call in which no operation fails, one access at a time, reads only its arrays and writes only its outputs. -/
theorem iact_safe {f : IFn} (l : List (Arg α)) {m m' : Mem α} {v : Option (Val α)} (hl : Arg.AllOk IsI m l) (R : Ret)
    (h : f.safe (Arg.arrays l) (Arg.avs 0 l) = some (R.av, Arg.done l)) (hv : f.run m (l.map Arg.val) = some (v, m')) :
    Same m m' ∧ ∃ n, Runs m.length (Within (Arg.spans l)) (Within (Arg.outs l)) (f.act .checked (l.map Arg.val)) m v m' n := by
  constructor
  · obtain ⟨⟨_, _, e, -, hs, -⟩, h2 | h2⟩ := isafe_run l hl R h .zero Arith.zero_agrees
    · rw [hv] at h2; simp at h2
    · rw [hv, e] at h2; cases h2; exact hs
  obtain ⟨v', m2, n', g3⟩ := iact_call .zero l (hl.mask l fun b o hb => hb) R h
  have g4 : Runs m.length (Within (Arg.spans l)) (Within (Arg.outs l)) (f.act (Arith.zero).ops (l.map Arg.val)) (mask (Within (Arg.spans l)) m) v' m2 n' := by
    rw [(same_mask (Within (Arg.spans l)) m).length]
    refine g3.mono ?_ fun _ _ h => h
    rintro b o (⟨x, hx, hb⟩ | ⟨v, hv, hb⟩)
    · exact ⟨x, Arg.outs_spans l x hx, hb⟩
    · by_contra hn
      change cell (mask _ m) b o = some v at hb
      rw [cell_mask] at hb
      simp only [hn, if_false, Option.map_eq_some_iff] at hb
      obtain ⟨_, -, rfl⟩ := hb
      exact hv rfl
  obtain ⟨m3, g5⟩ := Runs.transfer (l := []) (s := m) n' (by simpa using g4) (same_mask _ m).length.symm (same_mask _ m).symm (by
    intro b o hb
    rw [cell_mask_pos]
    rcases hb with hb | ⟨x, hx, hb⟩
    · exact hb
    · exact ⟨x, Arg.outs_spans l x hx, hb⟩)
  rw [List.append_nil] at g5
  obtain ⟨n, g6⟩ := iact_run (R := fun _ _ => True) (W := fun _ _ => True) hv
  exact ⟨n, (f.act_le Arith.zero_agrees.le _).runs g6 g5⟩

end

/-! ## Threads -/

/-- a call of a function with given arguments: of a float function or of an integer-vector function -/
inductive Call (α : Type) where
  | float (entry : Entry) (args : List (Arg α))
  | int (entry : IEntry) (args : List (Arg α))

def Call.args : Call α → List (Arg α)
  | .float _ l | .int _ l => l

/-- arrays the calls may read -/
def reads (cs : List (Call α)) : List (Ptr × Nat) := cs.flatMap fun c => Arg.spans c.args
/-- arrays the calls may write -/
def targets (cs : List (Call α)) : List (Ptr × Nat) := cs.flatMap fun c => Arg.outs c.args

/-- the analysis accepts the function -/
def Call.ok : Call α → Bool
  | .float e _ => e.ok
  | .int e _ => e.ok

section
variable [Add α] [Sub α] [Mul α] [Div α] [Neg α] [CFloat α] [CIntConv α]

/-- the call in one go -/
def Call.run (m : Mem α) : Call α → Option (Option (Val α) × Mem α)
  | .float e l => e.fn.run m (l.map Arg.val)
  | .int e l => e.fn.run m (l.map Arg.val)
/-- the call access by access -/
def Call.act : Call α → Act α (Option (Val α))
  | .float e l => e.fn.act (l.map Arg.val)
  | .int e l => e.fn.act .checked (l.map Arg.val)

/-- The arguments fit the function, inputs are initialised and outputs have room.  For an integer call also no operation
overflows or divides by zero. -/
def Call.Ok (m : Mem α) : Call α → Prop
  | .float e l => l.map Arg.shape = e.args ∧ Arg.AllOk IsF m l
  | .int e l => l.map Arg.shape = e.args ∧ Arg.AllOk IsI m l ∧ e.fn.run m (l.map Arg.val) ≠ none

/-- one call after the other, in one go: the values returned and the memory at the end -/
def runCalls (m : Mem α) : List (Call α) → Option (List (Option (Val α)) × Mem α)
  | [] => some ([], m)
  | c :: cs =>
    match c.run m with
    | some (v, m') =>
      match runCalls m' cs with
      | some (vs, m'') => some (v :: vs, m'')
      | none => none
    | none => none
/-- one call after the other, access by access -/
def actCalls : List (Call α) → Act α (List (Option (Val α)))
  | [] => .done []
  | c :: cs => c.act.bind fun v => (actCalls cs).bind fun vs => .done (v :: vs)

/-- each call is in order when its turn comes -/
def Good (m : Mem α) : List (Call α) → Prop
  | [] => True
  | c :: cs => c.Ok m ∧ ∀ v m', c.run m = some (v, m') → Good m' cs

theorem Call.runs {m : Mem α} {c : Call α} (he : c.ok = true) (hc : c.Ok m) : ∃ v m' n, c.run m = some (v, m') ∧ Same m m' ∧
    Runs m.length (Within (Arg.spans c.args)) (Within (Arg.outs c.args)) c.act m v m' n := by
  cases c with
  | float e l =>
    have h : e.fn.safe (Arg.arrays l) (Arg.avs 0 l) = some (e.ret.av, Arg.done l) := by
      rw [Arg.arrays_shape, Arg.avs_shape, Arg.done_shape, hc.1]
      simpa [Call.ok, Entry.ok] using he
    obtain ⟨v, m', n, h1, ⟨_, _, h2, -, h3, -⟩, h4⟩ := act_run l hc.2 _ h
    cases h2
    exact ⟨v, m', n, h1, h3, h4⟩
  | int e l =>
    obtain ⟨⟨v, m'⟩, hv⟩ := Option.ne_none_iff_exists'.mp hc.2.2
    obtain ⟨hs, n, hr⟩ := iact_safe l hc.2.1 _ (e.safe he l hc.1) hv
    exact ⟨v, m', n, hv, hs, hr⟩

theorem Good.runs {cs : List (Call α)} (he : ∀ c ∈ cs, c.ok = true) : ∀ {m : Mem α}, Good m cs → ∃ vs m' n, runCalls m cs = some (vs, m') ∧ Same m m' ∧
    Runs m.length (Within (reads cs)) (Within (targets cs)) (actCalls cs) m vs m' n := by
  induction cs with
  | nil => intro m _; exact ⟨[], m, 0, rfl, .refl _, .done⟩
  | cons c cs ih =>
    intro m hg
    obtain ⟨v, m1, n1, h1, h2, h3⟩ := Call.runs (he c (by simp)) hg.1
    obtain ⟨vs, m2, n2, h4, h6, h5⟩ := ih (fun d hd => he d (by simp [hd])) (hg.2 v m1 h1)
    rw [← h2.length] at h5
    refine ⟨v :: vs, m2, _, by simp only [runCalls, h1, h4], h2.trans h6, (h3.mono ?_ ?_).bind ((h5.mono ?_ ?_).bind .done)⟩ <;>
    · rintro b o ⟨x, hx, hb⟩
      exact ⟨x, by simp only [reads, targets, List.flatMap_cons, List.mem_append] at hx ⊢; tauto, hb⟩

end

end Cglm.CMem
