import Verif.Props.C56Swizzle
import Verif.Props.C56Loops
import Verif.Props.C56AnyMat
import Verif.Props.C56Vecs

/-!
# C56: functions with run-time indices when the arguments overlap in any way

A swizzle collects the components in a local array before it writes, so it gives the same result however source and
destination overlap.  `glm_mat4_mulN` stays safe however its matrices overlap the destination; only the array of pointers
must lie outside the destination.  The other functions of this kind have a single array argument.
-/

set_option linter.unusedSectionVars false

namespace Cglm
open CMem

variable {α : Type} [Add α] [Sub α] [Mul α] [Div α] [Neg α] [CFloat α]

theorem put1_last (m : Mem α) (cs : List (Val α)) {k : Nat} (hk : k < cs.length) (v : Val α) :
    put1 (m ++ [⟨true, cs⟩]) m.length k v = some (m ++ [⟨true, cs.set k v⟩]) := by
  simp [put1, hk]

theorem holds_load {m : Mem α} {p : Ptr} {vs : List α} (h : Holds m p vs) (l : Mem α) {k : Nat} {x : α} (hx : vs[k]? = some x) :
    CMem.load (m ++ l) p.1 (p.2 + k) = some (.f x) := by
  have h1 := h k x hx
  refine load_eq_some.2 ⟨?_, by simp⟩
  have := cell_lt h1
  rw [← h1]
  simp [cell, List.getElem?_append_left this]

theorem room_lt {m : Mem α} {p : Ptr} {n : Nat} (r : Room m p (n + 1)) : p.1 < m.length := by
  obtain ⟨x, hx⟩ := Option.isSome_iff_exists.1 (r 0 (by omega)).1
  exact cell_lt hx

theorem writes_take {m : Mem α} (l : Mem α) (p : Ptr) (vs : List (Val α)) :
    (writes (m ++ l) [(p, vs)]).take m.length = writes m [(p, vs)] := by
  simp [writes, write_take]

theorem V2.list_get? {v : V2 α} {c : Int} {x : α} (h : v.get? c = some x) : inLen (some 2) c = true ∧ v.list[c.toNat]? = some x := by
  unfold V2.get? at h
  split_ifs at h <;> subst_vars <;> cases h <;> exact ⟨rfl, rfl⟩

/-- Source and destination may overlap in any way: the result is the swizzle of what the source held. -/
theorem C56_any_vec2_swizzle {mem : Mem α} {vP destP : Ptr} {v : V2 α} (h : Holds mem vP v.list) (r : Room mem destP 2)
    (mask : BitVec 32) (fuel : Nat) :
    C.glm_vec2_swizzle.run fuel mem [vP.val, .i mask.toInt, destP.val] =
      (Cglm.glm_vec2_swizzle v mask).map fun x => (none, writes mem [(destP, x.list.map .f)]) := by
  rcases h0 : v.get? (maskField mask 0) with _ | x0
  · rw [show Cglm.glm_vec2_swizzle v mask = none by simp [Cglm.glm_vec2_swizzle, h0]]
    exact run_dies (k := 1) (c := mask.toInt) (dies_seq (dies_store_right _ (dies_load (dies_idx' (V2.range_of_none h0) _ _ _ (eval_field mask 0)))) _) fuel rfl
  rcases h1 : v.get? (maskField mask 1) with _ | x1
  · rw [show Cglm.glm_vec2_swizzle v mask = none by simp [Cglm.glm_vec2_swizzle, h0, h1]]
    exact run_dies (k := 1) (c := mask.toInt) (dies_next (keeps_store _ _) (dies_seq (dies_store_right _ (dies_load (dies_idx' (V2.range_of_none h1) _ _ _ (eval_field mask 1)))) _)) fuel rfl
  rw [show Cglm.glm_vec2_swizzle v mask = some ⟨x0, x1⟩ by simp [Cglm.glm_vec2_swizzle, h0, h1]]
  obtain ⟨e0, g0⟩ := V2.list_get? h0
  have l0 := fun l => holds_load h l g0
  obtain ⟨e1, g1⟩ := V2.list_get? h1
  have l1 := fun l => holds_load h l g1
  have hc := C56_vec2_copy (mem := mem ++ [⟨true, [.f x0, .f x1]⟩]) (aP := (mem.length, 0)) (destP := destP) (a := ⟨x0, x1⟩)
    (.block (w := true) (by simp [V2.list])) (r.append _) (Or.inl (Nat.ne_of_gt (room_lt r)))
  simp only [Ptr.val] at hc
  simp [C.glm_vec2_swizzle, XFn.run, XStmt.exec, XExpr.eval, Expr.eval, xevalArgs, bits2_mask, fresh, Ptr.val, put1_last, List.replicate,
    e0, l0, e1, l1, hc, Out.leave, writes_take]
  rfl
/-- the destination overlaps the source in all cells but one -/
example (x : α) (v : V2 α) : let mem : Mem α := [⟨true, v.list.map .f ++ [.f x]⟩]
    Holds mem (0, 0) v.list ∧ Room mem (0, 1) 2 ∧ (Cglm.glm_vec2_swizzle v 1).isSome = true :=
  ⟨fun k y hk => by simp [V2.list] at hk; rcases k with _ | _ | k <;> simp_all [cell, V2.list],
    fun k hk => by rcases k with _ | _ | k <;> simp_all [cell, wr, V2.list]; omega, rfl⟩

theorem V3.list_get? {v : V3 α} {c : Int} {x : α} (h : v.get? c = some x) : inLen (some 3) c = true ∧ v.list[c.toNat]? = some x := by
  unfold V3.get? at h
  split_ifs at h <;> subst_vars <;> cases h <;> exact ⟨rfl, rfl⟩

/-- Source and destination may overlap in any way: the result is the swizzle of what the source held. -/
theorem C56_any_vec3_swizzle {mem : Mem α} {vP destP : Ptr} {v : V3 α} (h : Holds mem vP v.list) (r : Room mem destP 3)
    (mask : BitVec 32) (fuel : Nat) :
    C.glm_vec3_swizzle.run fuel mem [vP.val, .i mask.toInt, destP.val] =
      (Cglm.glm_vec3_swizzle v mask).map fun x => (none, writes mem [(destP, x.list.map .f)]) := by
  rcases h0 : v.get? (maskField mask 0) with _ | x0
  · rw [show Cglm.glm_vec3_swizzle v mask = none by simp [Cglm.glm_vec3_swizzle, h0]]
    exact run_dies (k := 1) (c := mask.toInt) (dies_seq (dies_store_right _ (dies_load (dies_idx' (V3.range_of_none h0) _ _ _ (eval_field mask 0)))) _) fuel rfl
  rcases h1 : v.get? (maskField mask 1) with _ | x1
  · rw [show Cglm.glm_vec3_swizzle v mask = none by simp [Cglm.glm_vec3_swizzle, h0, h1]]
    exact run_dies (k := 1) (c := mask.toInt) (dies_next (keeps_store _ _) (dies_seq (dies_store_right _ (dies_load (dies_idx' (V3.range_of_none h1) _ _ _ (eval_field mask 1)))) _)) fuel rfl
  rcases h2 : v.get? (maskField mask 2) with _ | x2
  · rw [show Cglm.glm_vec3_swizzle v mask = none by simp [Cglm.glm_vec3_swizzle, h0, h1, h2]]
    exact run_dies (k := 1) (c := mask.toInt) (dies_next (keeps_store _ _) (dies_next (keeps_store _ _) (dies_seq (dies_store_right _ (dies_load (dies_idx' (V3.range_of_none h2) _ _ _ (eval_field mask 2)))) _))) fuel rfl
  rw [show Cglm.glm_vec3_swizzle v mask = some ⟨x0, x1, x2⟩ by simp [Cglm.glm_vec3_swizzle, h0, h1, h2]]
  obtain ⟨e0, g0⟩ := V3.list_get? h0
  have l0 := fun l => holds_load h l g0
  obtain ⟨e1, g1⟩ := V3.list_get? h1
  have l1 := fun l => holds_load h l g1
  obtain ⟨e2, g2⟩ := V3.list_get? h2
  have l2 := fun l => holds_load h l g2
  have hc := C56_vec3_copy (mem := mem ++ [⟨true, [.f x0, .f x1, .f x2]⟩]) (aP := (mem.length, 0)) (destP := destP) (a := ⟨x0, x1, x2⟩)
    (.block (w := true) (by simp [V3.list])) (r.append _) (Or.inl (Nat.ne_of_gt (room_lt r)))
  simp only [Ptr.val] at hc
  simp [C.glm_vec3_swizzle, XFn.run, XStmt.exec, XExpr.eval, Expr.eval, xevalArgs, bits2_mask, fresh, Ptr.val, put1_last, List.replicate,
    e0, l0, e1, l1, e2, l2, hc, Out.leave, writes_take]
  rfl
/-- the destination overlaps the source in all cells but one -/
example (x : α) (v : V3 α) : let mem : Mem α := [⟨true, v.list.map .f ++ [.f x]⟩]
    Holds mem (0, 0) v.list ∧ Room mem (0, 1) 3 ∧ (Cglm.glm_vec3_swizzle v 1).isSome = true :=
  ⟨fun k y hk => by simp [V3.list] at hk; rcases k with _ | _ | _ | k <;> simp_all [cell, V3.list],
    fun k hk => by rcases k with _ | _ | _ | k <;> simp_all [cell, wr, V3.list]; omega, rfl⟩

theorem V4.list_get? {v : V4 α} {c : Int} {x : α} (h : v.get? c = some x) : inLen (some 4) c = true ∧ v.list[c.toNat]? = some x := by
  unfold V4.get? at h
  split_ifs at h <;> subst_vars <;> cases h <;> exact ⟨rfl, rfl⟩

/-- Source and destination may overlap in any way: the result is the swizzle of what the source held. -/
theorem C56_any_vec4_swizzle {mem : Mem α} {vP destP : Ptr} {v : V4 α} (h : Holds mem vP v.list) (r : Room mem destP 4)
    (mask : BitVec 32) (fuel : Nat) :
    C.glm_vec4_swizzle.run fuel mem [vP.val, .i mask.toInt, destP.val] =
      (Cglm.glm_vec4_swizzle v mask).map fun x => (none, writes mem [(destP, x.list.map .f)]) := by
  rcases h0 : v.get? (maskField mask 0) with _ | x0
  · rw [show Cglm.glm_vec4_swizzle v mask = none by simp [Cglm.glm_vec4_swizzle, h0]]
    exact run_dies (k := 1) (c := mask.toInt) (dies_seq (dies_store_right _ (dies_load (dies_idx' (V4.range_of_none h0) _ _ _ (eval_field mask 0)))) _) fuel rfl
  rcases h1 : v.get? (maskField mask 1) with _ | x1
  · rw [show Cglm.glm_vec4_swizzle v mask = none by simp [Cglm.glm_vec4_swizzle, h0, h1]]
    exact run_dies (k := 1) (c := mask.toInt) (dies_next (keeps_store _ _) (dies_seq (dies_store_right _ (dies_load (dies_idx' (V4.range_of_none h1) _ _ _ (eval_field mask 1)))) _)) fuel rfl
  rcases h2 : v.get? (maskField mask 2) with _ | x2
  · rw [show Cglm.glm_vec4_swizzle v mask = none by simp [Cglm.glm_vec4_swizzle, h0, h1, h2]]
    exact run_dies (k := 1) (c := mask.toInt) (dies_next (keeps_store _ _) (dies_next (keeps_store _ _) (dies_seq (dies_store_right _ (dies_load (dies_idx' (V4.range_of_none h2) _ _ _ (eval_field mask 2)))) _))) fuel rfl
  rcases h3 : v.get? (maskField mask 3) with _ | x3
  · rw [show Cglm.glm_vec4_swizzle v mask = none by simp [Cglm.glm_vec4_swizzle, h0, h1, h2, h3]]
    exact run_dies (k := 1) (c := mask.toInt) (dies_next (keeps_store _ _) (dies_next (keeps_store _ _) (dies_next (keeps_store _ _) (dies_seq (dies_store_right _ (dies_load (dies_idx' (V4.range_of_none h3) _ _ _ (eval_field mask 3)))) _)))) fuel rfl
  rw [show Cglm.glm_vec4_swizzle v mask = some ⟨x0, x1, x2, x3⟩ by simp [Cglm.glm_vec4_swizzle, h0, h1, h2, h3]]
  obtain ⟨e0, g0⟩ := V4.list_get? h0
  have l0 := fun l => holds_load h l g0
  obtain ⟨e1, g1⟩ := V4.list_get? h1
  have l1 := fun l => holds_load h l g1
  obtain ⟨e2, g2⟩ := V4.list_get? h2
  have l2 := fun l => holds_load h l g2
  obtain ⟨e3, g3⟩ := V4.list_get? h3
  have l3 := fun l => holds_load h l g3
  have hc := C56_vec4_copy (mem := mem ++ [⟨true, [.f x0, .f x1, .f x2, .f x3]⟩]) (vP := (mem.length, 0)) (destP := destP) (v := ⟨x0, x1, x2, x3⟩)
    (.block (w := true) (by simp [V4.list])) (r.append _) (Or.inl (Nat.ne_of_gt (room_lt r)))
  simp only [Ptr.val] at hc
  simp [C.glm_vec4_swizzle, XFn.run, XStmt.exec, XExpr.eval, Expr.eval, xevalArgs, bits2_mask, fresh, Ptr.val, put1_last, List.replicate,
    e0, l0, e1, l1, e2, l2, e3, l3, hc, Out.leave, writes_take]
  rfl
/-- the destination overlaps the source in all cells but one -/
example (x : α) (v : V4 α) : let mem : Mem α := [⟨true, v.list.map .f ++ [.f x]⟩]
    Holds mem (0, 0) v.list ∧ Room mem (0, 1) 4 ∧ (Cglm.glm_vec4_swizzle v 1).isSome = true :=
  ⟨fun k y hk => by simp [V4.list] at hk; rcases k with _ | _ | _ | _ | k <;> simp_all [cell, V4.list],
    fun k hk => by rcases k with _ | _ | _ | _ | k <;> simp_all [cell, wr, V4.list]; omega, rfl⟩

/-! ## Product of a list of matrices -/

/-- memory changes at most in the `n` cells from `p` on, and these hold floats afterwards -/
def Only (p : Ptr) (n : Nat) (m m' : Mem α) : Prop :=
  Same m m' ∧ (∀ b o, ¬ (b = p.1 ∧ p.2 ≤ o ∧ o < p.2 + n) → cell m' b o = cell m b o) ∧ Init m' p n

theorem Only.of_safe {p : Ptr} {n : Nat} {m : Mem α} {R : Ret} {res : Option (Option (Val α) × Mem α)} (h : Safe m [(p, n)] R res) :
    ∃ v m', res = some (v, m') ∧ Only p n m m' := by
  obtain ⟨v, m', h1, -, h2, h3, h4⟩ := h
  exact ⟨v, m', h1, h2, fun b o hb => h3 b o (by simpa using hb), h4 (p, n) (by simp)⟩
theorem Only.trans {p : Ptr} {n : Nat} {m m' m'' : Mem α} (h : Only p n m m') (h' : Only p n m' m'') : Only p n m m'' :=
  ⟨h.1.trans h'.1, fun b o hb => (h'.2.1 b o hb).trans (h.2.1 b o hb), h'.2.2⟩
theorem Only.room {p : Ptr} {n : Nat} {m m' : Mem α} (h : Only p n m m') {q : Ptr} {k : Nat} (r : Room m q k) : Room m' q k :=
  fun i hi => ⟨by rw [← h.1.cell]; exact (r i hi).1, by rw [← h.1.wr]; exact (r i hi).2⟩
theorem Only.init {p : Ptr} {n : Nat} {m m' : Mem α} (h : Only p n m m') {q : Ptr} {k : Nat} (r : Init m q k) : Init m' q k := by
  intro i hi
  by_cases hc : q.1 = p.1 ∧ p.2 ≤ q.2 + i ∧ q.2 + i < p.2 + n
  · obtain ⟨x, hx⟩ := h.2.2 (q.2 + i - p.2) (by omega)
    rw [Nat.add_sub_cancel' hc.2.1, ← hc.1] at hx
    exact ⟨x, hx⟩
  · rw [h.2.1 _ _ hc]
    exact r i hi
theorem Only.ptrs {p : Ptr} {n : Nat} {m m' : Mem α} (h : Only p n m m') {q : Ptr} {ps : List Ptr} (hp : HoldsPtrs m q ps)
    (hs : Apart q ps.length p n) : HoldsPtrs m' q ps := by
  intro k x hx
  rw [h.2.1]
  · exact hp k x hx
  · have := (List.getElem?_eq_some_iff.1 hx).1
    unfold Apart at hs
    omega

theorem mulN_iter_any {base : Nat} {arrP destP : Ptr} {ps : List Ptr} {len : Nat} (hlen : len ≤ ps.length) (sa : Apart arrP ps.length destP 16)
    (fuel : Nat) : ∀ (k i b : Nat) (m : Mem α), len - i = k → k < b → HoldsPtrs m arrP ps → (∀ q ∈ ps, Init m q 16) → Init m destP 16 →
    Room m destP 16 → ∃ e m', iter (fun env m => (XExpr.lt (.ex (.reg 3)) (.ex (.reg 1))).eval base env m)
      (fun env m => (XStmt.seq (.call C.glm_mat4_mul [(.ex (.reg 2)), .load (.idx (.ex (.reg 0)) (.ex (.reg 3)) 1 none), (.ex (.reg 2))])
        (.set 3 (.succ (.ex (.reg 3))))).exec fuel base env m)
      b [arrP.val, .i len, destP.val, .i i] m = some (.next e m') ∧ Only destP 16 m m' := by
  intro k
  induction k with
  | zero =>
    intro i b m hi hb hp hm hd hr
    obtain ⟨b, rfl⟩ : ∃ c, b = c + 1 := ⟨b - 1, by omega⟩
    have hlt : ¬ (i : Int) < len := by omega
    refine ⟨[arrP.val, .i len, destP.val, .i i], m, ?_, Same.refl m, fun _ _ _ => rfl, hd⟩
    simp only [iter, XExpr.eval, Expr.eval, List.getElem?_cons_succ, List.getElem?_cons_zero, hlt, decide_false]
  | succ k ih =>
    intro i b m hi hb hp hm hd hr
    obtain ⟨b, rfl⟩ : ∃ c, b = c + 1 := ⟨b - 1, by omega⟩
    have hlt : (i : Int) < len := by omega
    have hq : ps[i]? = some (ps[i]'(by omega)) := List.getElem?_eq_getElem _
    have hq' : ps[i]'(by omega) ∈ ps := List.getElem_mem _
    generalize ps[i]'(by omega) = q at hq hq'
    have hload := hp.load hq
    obtain ⟨v, m1, hrun, h1⟩ := Only.of_safe (C56_any_mat4_mul hd (hm q hq') hr)
    simp only [Ptr.val] at hrun
    have hin : inLen none (i : Int) = true := rfl
    have step : (XStmt.seq (.call C.glm_mat4_mul [(.ex (.reg 2)), .load (.idx (.ex (.reg 0)) (.ex (.reg 3)) 1 none), (.ex (.reg 2))])
        (.set 3 (.succ (.ex (.reg 3))))).exec fuel base [arrP.val, .i len, destP.val, .i i] m =
        some (.next [arrP.val, .i len, destP.val, .i ((i + 1 : Nat) : Int)] m1) := by
      simp [XStmt.exec, xevalArgs, XExpr.eval, Expr.eval, hin, Ptr.val, hrun, hload]
    have hc : (XExpr.lt (.ex (.reg 3)) (.ex (.reg 1))).eval base [arrP.val, .i len, destP.val, .i (i : Int)] m = some (.b true) := by
      simp [XExpr.eval, Expr.eval, hlt]
    obtain ⟨e, m', hrest, h2⟩ := ih (i + 1) b m1 (by omega) (by omega) (h1.ptrs hp sa) (fun q hq => h1.init (hm q hq)) h1.2.2 (h1.room hr)
    refine ⟨e, m', ?_, h1.trans h2⟩
    rw [iter]
    simp only [hc, step]
    exact hrest

/-- The matrices may overlap the destination and each other in any way. -/
theorem C56_any_mat4_mulN {mem : Mem α} {arrP destP : Ptr} {ps : List Ptr} {len : Nat} (h2 : 2 ≤ ps.length) (hlen : len ≤ ps.length)
    (hp : HoldsPtrs mem arrP ps) (hm : ∀ q ∈ ps, Init mem q 16) (r : Room mem destP 16) (sa : Apart arrP ps.length destP 16)
    {fuel : Nat} (hf : len < fuel) :
    Safe mem [(destP, 16)] .void (C.glm_mat4_mulN.run fuel mem [arrP.val, .i len, destP.val]) := by
  have hq0 : ps[0]? = some (ps[0]'(by omega)) := List.getElem?_eq_getElem _
  have hq1 : ps[1]? = some (ps[1]'(by omega)) := List.getElem?_eq_getElem _
  have hm0 : ps[0]'(by omega) ∈ ps := List.getElem_mem _
  have hm1 : ps[1]'(by omega) ∈ ps := List.getElem_mem _
  generalize ps[0]'(by omega) = q0 at hq0 hm0
  generalize ps[1]'(by omega) = q1 at hq1 hm1
  have l0 := hp.load hq0
  have l1 := hp.load hq1
  obtain ⟨v, m1, hrun, h1⟩ := Only.of_safe (C56_any_mat4_mul (hm q0 hm0) (hm q1 hm1) r)
  obtain ⟨e, m', hrest, h3⟩ := mulN_iter_any (base := mem.length) hlen sa fuel (len - 2) 2 fuel m1 rfl (by omega) (h1.ptrs hp sa)
    (fun q hq => h1.init (hm q hq)) h1.2.2 (h1.room r)
  have h4 := h1.trans h3
  refine ⟨none, m', ?_, rfl, h4.1, fun b o hb => h4.2.1 b o (by simpa using hb), by simpa using h4.2.2⟩
  simp only [Ptr.val, Nat.add_zero] at hrun l0 hrest
  simp only [C.glm_mat4_mulN, XFn.run, XStmt.exec, xevalArgs, XExpr.eval, Expr.eval, Ptr.val, fresh, List.map_nil, List.append_nil, List.replicate,
    List.cons_append, List.nil_append, List.getElem?_cons_zero, List.getElem?_cons_succ, l0, l1, hrun, List.set_cons_succ, List.set_cons_zero]
  simp only [XStmt.exec, xevalArgs, XExpr.eval, Expr.eval] at hrest
  erw [hrest]
  simp only [Out.leave]
  rw [List.take_of_length_le (Nat.le_of_eq h4.1.length.symm)]
/-- three matrices and a destination, all overlapping -/
example (x : α) : let mem : Mem α := [⟨true, List.replicate 19 (.f x)⟩, ⟨false, [.p 0 0, .p 0 1, .p 0 2]⟩]
    HoldsPtrs mem (1, 0) [(0, 0), (0, 1), (0, 2)] ∧ (∀ q ∈ [((0, 0) : Ptr), (0, 1), (0, 2)], Init mem q 16) ∧ Room mem (0, 3) 16 ∧
      Apart (1, 0) 3 (0, 3) 16 :=
  ⟨fun k q h => by rcases k with _ | _ | _ | k <;> simp at h <;> subst h <;> rfl,
    fun q hq => by simp at hq; rcases hq with rfl | rfl | rfl <;> exact .replicate (by decide), .replicate (by decide), Or.inl (by decide)⟩

end Cglm
