import Verif.CMemWrite
import Verif.Props.C56Hand
import Verif.Props.C55Mats
import Verif.Props.C55Vecs
import Verif.Props.C56Vecs

/-!
# C56: functions with loops in memory

Each theorem gives the result for every budget of passes above the trip count, so it also says that the loop terminates.
-/

set_option linter.unusedSectionVars false

namespace Cglm
open CMem

variable {α : Type} [Add α] [Sub α] [Mul α] [Div α] [Neg α] [CFloat α]

/-! ## Identity arrays -/

theorem exec_seq (a b : Stmt) (base : Nat) (env : List (Val α)) (m : Mem α) : (Stmt.seq a b).exec base env m =
    match a.exec base env m with
    | some (.next env' m') => b.exec base env' m'
    | some (.ret v m') => some (.ret v m')
    | none => none := by
  rw [Stmt.exec]
  rfl
theorem store_loc {mem : Mem α} {cs : List (Val α)} (env : List (Val α)) (k : Nat) (q : Rat) (hk : k < cs.length) :
    (Stmt.store (.off (.loc 0) k) (.flit q)).exec mem.length env (mem ++ [⟨true, cs⟩]) =
      some (.next env (mem ++ [⟨true, cs.set k (.f (lit q))⟩])) := by
  simp [Stmt.exec, Expr.eval, put1, hk]
theorem store_loc0 {mem : Mem α} {cs : List (Val α)} (env : List (Val α)) (q : Rat) (hk : 0 < cs.length) :
    (Stmt.store (.loc 0) (.flit q)).exec mem.length env (mem ++ [⟨true, cs⟩]) =
      some (.next env (mem ++ [⟨true, cs.set 0 (.f (lit q))⟩])) := by
  simp [Stmt.exec, Expr.eval, put1, hk]

/-- `for (; i < count; i++) copy(t, arr[i])`, `k` passes before the end -/
theorem fill_iter {n : Nat} {cp : Fn} {t : List α} (ht : t.length = n)
    (hcp : ∀ {m : Mem α} {p q : Ptr}, Holds m p t → Room m q n → Apart p n q n →
      cp.run m [p.val, q.val] = some (none, writes m [(q, t.map .f)]))
    {base : Nat} {p : Ptr} {count : Nat} (hp : count ≠ 0 → p.1 ≠ base) (fuel : Nat) : ∀ (k i b : Nat) (m : Mem α), i + k = count → k < b →
    base < m.length → Holds m (base, 0) t → Room m p (n * count) →
    iter (fun env m => (XExpr.lt (.ex (.reg 2)) (.ex (.reg 1))).eval base env m)
      (fun env m => (XStmt.seq (.call cp [.ex (.loc 0), .idx (.ex (.reg 0)) (.ex (.reg 2)) n none]) (.set 2 (.succ (.ex (.reg 2))))).exec fuel base env m)
      b [p.val, .i count, .i i] m =
    some (.next [p.val, .i count, .i count] (write m (p.1, p.2 + n * i) ((List.replicate k t).flatten.map .f))) := by
  intro k
  induction k with
  | zero =>
    intro i b m hi hb hl hh hr
    obtain ⟨b, rfl⟩ : ∃ c, b = c + 1 := ⟨b - 1, by omega⟩
    obtain rfl : i = count := by omega
    simp [iter, XExpr.eval, Expr.eval, write]
  | succ k ih =>
    intro i b m hi hb hl hh hr
    obtain ⟨b, rfl⟩ : ∃ c, b = c + 1 := ⟨b - 1, by omega⟩
    have hlt : (i : Int) < count := by omega
    have hnn : n * i + n * (k + 1) = n * count := by rw [← Nat.mul_add, hi]
    have hr' : Room m (p.1, p.2 + n * i) n := hr.sub (by rw [Nat.mul_succ] at hnn; omega)
    have hne : p.1 ≠ base := hp (by omega)
    have hrun := hcp hh hr' (Or.inl (Ne.symm hne))
    have hin : inLen none (i : Int) = true := rfl
    rw [Nat.mul_comm] at hrun
    simp only [Ptr.val] at hrun
    have step : (XStmt.seq (.call cp [.ex (.loc 0), .idx (.ex (.reg 0)) (.ex (.reg 2)) n none]) (.set 2 (.succ (.ex (.reg 2))))).exec fuel base
        [p.val, .i count, .i i] m = some (.next [p.val, .i count, .i ((i + 1 : Nat) : Int)] (write m (p.1, p.2 + i * n) (t.map .f))) := by
      simp [XStmt.exec, xevalArgs, XExpr.eval, Expr.eval, hl, hin, Ptr.val, hrun, writes]
    have hc : (XExpr.lt (.ex (.reg 2)) (.ex (.reg 1))).eval base [p.val, .i count, .i (i : Int)] m = some (.b true) := by
      simp [XExpr.eval, Expr.eval, hlt]
    rw [iter]
    simp only [hc, step]
    rw [ih (i + 1) b (write m (p.1, p.2 + i * n) (t.map .f)) (by omega) (by omega) ((write_same _ _ _).length ▸ hl) (hh.write ht rfl (Or.inl (Ne.symm hne))) (hr.write _ _)]
    rw [List.replicate_succ, List.flatten_cons, List.map_append, write_append]
    simp only [List.length_map, ht, Nat.mul_comm i n, Nat.mul_succ, Nat.add_assoc]

theorem identity_array_run {n : Nat} {init : Stmt} {cp : Fn} {t : List α} (ht : t.length = n)
    (hcp : ∀ {m : Mem α} {p q : Ptr}, Holds m p t → Room m q n → Apart p n q n →
      cp.run m [p.val, q.val] = some (none, writes m [(q, t.map .f)]))
    (hi : ∀ (mem : Mem α) env, init.exec mem.length env (mem ++ [⟨true, List.replicate n .undef⟩]) = some (.next env (mem ++ [⟨true, t.map .f⟩])))
    (f : XFn) (hf : f = ⟨[n], 1, .seq (.st init) <| .seq (.set 2 (.ex (.ilit 0))) <|
      .while_ (.lt (.ex (.reg 2)) (.ex (.reg 1))) (.seq (.call cp [.ex (.loc 0), .idx (.ex (.reg 0)) (.ex (.reg 2)) n none]) (.set 2 (.succ (.ex (.reg 2)))))⟩)
    {mem : Mem α} {p : Ptr} {count : Nat} (r : Room mem p (n * count)) (hn : n ≠ 0) {fuel : Nat} (hb : count < fuel) :
    f.run fuel mem [p.val, .i count] = some (none, writes mem [(p, (List.replicate count t).flatten.map .f)]) := by
  subst hf
  have hp : count ≠ 0 → p.1 ≠ mem.length := by
    intro h0
    obtain ⟨v, hv⟩ := Option.isSome_iff_exists.1 (r 0 (Nat.mul_pos (Nat.pos_of_ne_zero hn) (Nat.pos_of_ne_zero h0))).1
    exact Nat.ne_of_lt (cell_lt hv)
  have hh : Holds (mem ++ [⟨true, t.map .f⟩]) (mem.length, 0) t := by
    intro k x hx
    simp [cell, hx]
  have key := fill_iter ht hcp hp fuel count 0 fuel (mem ++ [⟨true, t.map .f⟩]) (by omega) hb (by simp) hh (r.append _)
  unfold XFn.run
  simp only [XStmt.exec, fresh, List.map_cons, List.map_nil, hi, XExpr.eval, Expr.eval]
  simp only [List.replicate, List.cons_append, List.nil_append, List.set_cons_succ, List.set_cons_zero, Int.ofNat_zero, Nat.mul_zero, Nat.add_zero] at key ⊢
  erw [key]
  simp only [Out.leave, write_take, List.take_left, writes]

theorem C56_mat4_identity_array {mem : Mem α} {matP : Ptr} {count : Nat} (r : Room mem matP (16 * count)) {fuel : Nat} (hb : count < fuel) :
    C.glm_mat4_identity_array.run fuel mem [matP.val, .i count] =
      some (none, writes mem [(matP, (List.replicate count (Cglm.glm_mat4_identity : M4 α).list).flatten.map .f)]) := by
  refine identity_array_run (n := 16) (t := (Cglm.glm_mat4_identity : M4 α).list) rfl
    (fun h1 h2 h3 => C55_mat4_copy (mat := Cglm.glm_mat4_identity) h1 h2 (Or.inr h3)) ?_ _ rfl r (by decide) hb
  intro mem env
  simp [exec_seq, store_loc, store_loc0]
  rfl
example : let mem : Mem α := [⟨true, List.replicate 48 .undef⟩]
    Room mem (0, 0) (16 * 3) :=
  .block rfl rfl

theorem C56_mat3_identity_array {mem : Mem α} {matP : Ptr} {count : Nat} (r : Room mem matP (9 * count)) {fuel : Nat} (hb : count < fuel) :
    C.glm_mat3_identity_array.run fuel mem [matP.val, .i count] =
      some (none, writes mem [(matP, (List.replicate count (Cglm.glm_mat3_identity : M3 α).list).flatten.map .f)]) := by
  refine identity_array_run (n := 9) (t := (Cglm.glm_mat3_identity : M3 α).list) rfl
    (fun h1 h2 h3 => C55_mat3_copy (mat := Cglm.glm_mat3_identity) h1 h2 (Or.inr h3)) ?_ _ rfl r (by decide) hb
  intro mem env
  simp [exec_seq, store_loc, store_loc0]
  rfl
example : let mem : Mem α := [⟨true, List.replicate 27 .undef⟩]
    Room mem (0, 0) (9 * 3) :=
  .block rfl rfl

theorem C56_mat2_identity_array {mem : Mem α} {matP : Ptr} {count : Nat} (r : Room mem matP (4 * count)) {fuel : Nat} (hb : count < fuel) :
    C.glm_mat2_identity_array.run fuel mem [matP.val, .i count] =
      some (none, writes mem [(matP, (List.replicate count (Cglm.glm_mat2_identity : M2 α).list).flatten.map .f)]) := by
  refine identity_array_run (n := 4) (t := (Cglm.glm_mat2_identity : M2 α).list) rfl
    (fun h1 h2 h3 => C55_mat2_copy (mat := Cglm.glm_mat2_identity) h1 h2 (Or.inr h3)) ?_ _ rfl r (by decide) hb
  intro mem env
  simp [exec_seq, store_loc, store_loc0]
  rfl
example : let mem : Mem α := [⟨true, List.replicate 12 .undef⟩]
    Room mem (0, 0) (4 * 3) :=
  .block rfl rfl

theorem C56_quat_identity_array {mem : Mem α} {qP : Ptr} {count : Nat} (r : Room mem qP (4 * count)) {fuel : Nat} (hb : count < fuel) :
    C.glm_quat_identity_array.run fuel mem [qP.val, .i count] =
      some (none, writes mem [(qP, (List.replicate count (Cglm.glm_quat_identity : V4 α).list).flatten.map .f)]) := by
  refine identity_array_run (n := 4) (t := (Cglm.glm_quat_identity : V4 α).list) rfl
    (fun h1 h2 h3 => C55_vec4_copy (v := Cglm.glm_quat_identity) h1 h2 (Or.inr h3)) ?_ _ rfl r (by decide) hb
  intro mem env
  simp [exec_seq, store_loc, store_loc0]
  rfl
example : let mem : Mem α := [⟨true, List.replicate 12 .undef⟩]
    Room mem (0, 0) (4 * 3) :=
  .block rfl rfl

/-! ## Product of a list of matrices -/

/-- the pointers `ps` are stored from `p` on -/
def HoldsPtrs (m : Mem α) (p : Ptr) (ps : List Ptr) : Prop := ∀ (k : Nat) (q : Ptr), ps[k]? = some q → cell m p.1 (p.2 + k) = some q.val

theorem HoldsPtrs.load {m : Mem α} {p : Ptr} {ps : List Ptr} (h : HoldsPtrs m p ps) {k : Nat} {q : Ptr} (hk : ps[k]? = some q) :
    CMem.load m p.1 (p.2 + k) = some (.p q.1 q.2) :=
  load_eq_some.2 ⟨h k q hk, by simp⟩
theorem HoldsPtrs.write {m : Mem α} {q p : Ptr} {ps : List Ptr} (h : HoldsPtrs m q ps) {vs : List (Val α)} {l : Nat} (hl : vs.length = l)
    (hs : Apart q ps.length p l) : HoldsPtrs (write m p vs) q ps := by
  intro k x hx
  rw [cell_write, if_neg]
  · exact h k x hx
  · have := (List.getElem?_eq_some_iff.1 hx).1
    unfold Apart at hs
    omega

/-- `for (; i < len; i++) glm_mat4_mul(dest, *matrices[i], dest)`, `k` passes before the end -/
theorem mulN_iter {base : Nat} {arrP destP : Ptr} {ps : List Ptr} {ms : List (M4 α)} {len : Nat} (hps : ps.length = ms.length)
    (hlen : len ≤ ms.length) (sa : Apart arrP ps.length destP 16) (sm : ∀ k q, 2 ≤ k → ps[k]? = some q → Apart q 16 destP 16) (fuel : Nat) :
    ∀ (k i b : Nat) (m : Mem α) (d : M4 α), 2 ≤ i → len - i = k → k < b → HoldsPtrs m arrP ps →
    (∀ j q x, 2 ≤ j → ps[j]? = some q → ms[j]? = some x → Holds m q x.list) → Holds m destP d.list → Room m destP 16 →
    ∃ x e, Cglm.glm_mat4_mulN_loop ms i d k = some x ∧
    iter (fun env m => (XExpr.lt (.ex (.reg 3)) (.ex (.reg 1))).eval base env m)
      (fun env m => (XStmt.seq (.call C.glm_mat4_mul [(.ex (.reg 2)), .load (.idx (.ex (.reg 0)) (.ex (.reg 3)) 1 none), (.ex (.reg 2))])
        (.set 3 (.succ (.ex (.reg 3))))).exec fuel base env m)
      b [arrP.val, .i len, destP.val, .i i] m =
    some (.next e (CMem.write m destP (x.list.map .f))) := by
  intro k
  induction k with
  | zero =>
    intro i b m d h2 hi hb hp hm hd hr
    obtain ⟨b, rfl⟩ : ∃ c, b = c + 1 := ⟨b - 1, by omega⟩
    have hlt : ¬ (i : Int) < len := by omega
    refine ⟨d, [arrP.val, .i len, destP.val, .i i], rfl, ?_⟩
    have : CMem.write m destP (d.list.map .f) = m := by
      apply Same.ext (write_same _ _ _).symm
      intro x y
      rw [cell_write]
      split
      · rename_i hc
        obtain ⟨rfl, h1, h2⟩ := hc
        rw [List.length_map] at h2
        have := hd (y - destP.2) d.list[y - destP.2] (List.getElem?_eq_getElem (by omega))
        rw [Nat.add_sub_cancel' h1] at this
        rw [this, List.getElem?_map, List.getElem?_eq_getElem (by omega)]
        rfl
      · rfl
    rw [this]
    simp only [iter, XExpr.eval, Expr.eval, List.getElem?_cons_succ, List.getElem?_cons_zero, hlt, decide_false]
  | succ k ih =>
    intro i b m d h2 hi hb hp hm hd hr
    obtain ⟨b, rfl⟩ : ∃ c, b = c + 1 := ⟨b - 1, by omega⟩
    have hlt : (i : Int) < len := by omega
    have hx : ms[i]? = some (ms[i]'(by omega)) := List.getElem?_eq_getElem _
    have hq : ps[i]? = some (ps[i]'(by omega)) := List.getElem?_eq_getElem _
    generalize ms[i]'(by omega) = x at hx
    generalize ps[i]'(by omega) = q at hq
    have hload := hp.load hq
    have hrun := C55_mat4_mul hd (hm i q x h2 hq hx) hr (Or.inl rfl) (Or.inr (sm i q h2 hq))
    simp only [Ptr.val] at hrun
    have hin : inLen none (i : Int) = true := rfl
    have step : (XStmt.seq (.call C.glm_mat4_mul [(.ex (.reg 2)), .load (.idx (.ex (.reg 0)) (.ex (.reg 3)) 1 none), (.ex (.reg 2))])
        (.set 3 (.succ (.ex (.reg 3))))).exec fuel base [arrP.val, .i len, destP.val, .i i] m =
        some (.next [arrP.val, .i len, destP.val, .i ((i + 1 : Nat) : Int)] (CMem.write m destP ((Cglm.glm_mat4_mul d x).list.map .f))) := by
      simp [XStmt.exec, xevalArgs, XExpr.eval, Expr.eval, hin, Ptr.val, hrun, writes, hload]
    have hc : (XExpr.lt (.ex (.reg 3)) (.ex (.reg 1))).eval base [arrP.val, .i len, destP.val, .i (i : Int)] m = some (.b true) := by
      simp [XExpr.eval, Expr.eval, hlt]
    obtain ⟨y, e, hy, hrest⟩ := ih (i + 1) b (CMem.write m destP ((Cglm.glm_mat4_mul d x).list.map .f)) (Cglm.glm_mat4_mul d x) (by omega) (by omega)
      (by omega) (hp.write rfl sa) (fun j q z hj hq hz => (hm j q z hj hq hz).write rfl rfl (sm j q hj hq)) (Holds.of_write hr rfl) (hr.write _ _)
    refine ⟨y, e, ?_, ?_⟩
    · rw [Cglm.glm_mat4_mulN_loop, hx]; exact hy
    · rw [iter]
      simp only [hc, step]
      rw [hrest, write_write _ _ ((Cglm.glm_mat4_mul d x).list.map .f) (y.list.map .f) rfl]

/-- The product is written to the destination and nothing else changes.  The destination may be one of the first two
matrices, which are read before the first write; it may not overlap a later one. -/
theorem C56_mat4_mulN {mem : Mem α} {arrP destP : Ptr} {ps : List Ptr} {ms : List (M4 α)} {len : Nat} (hps : ps.length = ms.length)
    (h2 : 2 ≤ ms.length) (hlen : len ≤ ms.length) (hp : HoldsPtrs mem arrP ps)
    (hm : ∀ (k : Nat) (q : Ptr) (x : M4 α), ps[k]? = some q → ms[k]? = some x → Holds mem q x.list) (r : Room mem destP 16) (sa : Apart arrP ps.length destP 16)
    (sm : ∀ k q, ps[k]? = some q → Apart q 16 destP 16 ∨ k < 2 ∧ q = destP) {fuel : Nat} (hf : len < fuel) :
    C.glm_mat4_mulN.run fuel mem [arrP.val, .i len, destP.val] =
      (Cglm.glm_mat4_mulN ms len).map fun x => (none, writes mem [(destP, x.list.map .f)]) := by
  have hx0 : ms[0]? = some (ms[0]'(by omega)) := List.getElem?_eq_getElem _
  have hx1 : ms[1]? = some (ms[1]'(by omega)) := List.getElem?_eq_getElem _
  have hq0 : ps[0]? = some (ps[0]'(by omega)) := List.getElem?_eq_getElem _
  have hq1 : ps[1]? = some (ps[1]'(by omega)) := List.getElem?_eq_getElem _
  generalize ms[0]'(by omega) = x0 at hx0
  generalize ms[1]'(by omega) = x1 at hx1
  generalize ps[0]'(by omega) = q0 at hq0
  generalize ps[1]'(by omega) = q1 at hq1
  have l0 := hp.load hq0
  have l1 := hp.load hq1
  have hrun := C55_mat4_mul (hm 0 q0 x0 hq0 hx0) (hm 1 q1 x1 hq1 hx1) r ((sm 0 q0 hq0).symm.imp And.right id) ((sm 1 q1 hq1).symm.imp And.right id)
  have s2 : ∀ k q, 2 ≤ k → ps[k]? = some q → Apart q 16 destP 16 := by
    intro k q hk hq
    rcases sm k q hq with h | h
    · exact h
    · omega
  obtain ⟨y, e, hy, hrest⟩ := mulN_iter (base := mem.length) hps hlen sa s2 fuel (len - 2) 2 fuel
    (CMem.write mem destP ((Cglm.glm_mat4_mul x0 x1).list.map .f)) (Cglm.glm_mat4_mul x0 x1) (by omega) rfl (by omega) (hp.write rfl sa)
    (fun j q z hj hq hz => (hm j q z hq hz).write rfl rfl (s2 j q hj hq)) (Holds.of_write r rfl) (r.write _ _)
  have hv : Cglm.glm_mat4_mulN ms len = some y := by
    simp only [Cglm.glm_mat4_mulN, hx0, hx1]
    exact hy
  rw [hv]
  simp only [Ptr.val, Nat.add_zero] at hrun l0 hrest
  simp only [C.glm_mat4_mulN, XFn.run, XStmt.exec, xevalArgs, XExpr.eval, Expr.eval, Ptr.val, fresh, List.map_nil, List.append_nil, List.replicate,
    List.cons_append, List.nil_append, List.getElem?_cons_zero, List.getElem?_cons_succ, l0, l1, hrun, writes, List.set_cons_succ, List.set_cons_zero]
  simp only [XStmt.exec, xevalArgs, XExpr.eval, Expr.eval] at hrest
  erw [hrest]
  simp only [Out.leave, write_write _ _ ((Cglm.glm_mat4_mul x0 x1).list.map .f) (y.list.map .f) rfl, Option.map_some, Option.some.injEq, Prod.mk.injEq, true_and]
  rw [List.take_of_length_le (Nat.le_of_eq (write_same _ _ _).length.symm)]
/-- three matrices in a row, the destination being the first of them -/
example (a b c : M4 α) : let mem : Mem α := [⟨true, (a.list ++ b.list ++ c.list).map .f⟩, ⟨false, [.p 0 0, .p 0 16, .p 0 32]⟩]
    HoldsPtrs mem (1, 0) [(0, 0), (0, 16), (0, 32)] ∧ Room mem (0, 0) 16 ∧ Apart (1, 0) 3 (0, 0) 16 ∧ (Cglm.glm_mat4_mulN [a, b, c] 3).isSome = true :=
  ⟨fun k q h => by
    rcases k with _ | _ | _ | k <;> simp at h <;> subst h <;> rfl,
    fun k hk => by simp [cell, wr, M4.list, V4.list]; omega, Or.inl (by decide), rfl⟩

/-! ## Euler order and De Casteljau -/

theorem C56_euler_order {mem : Mem α} {p : Ptr} {o0 o1 o2 : BitVec 32} (h0 : cell mem p.1 p.2 = some (.i o0.toInt))
    (h1 : cell mem p.1 (p.2 + 1) = some (.i o1.toInt)) (h2 : cell mem p.1 (p.2 + 2) = some (.i o2.toInt)) (fuel : Nat) :
    C.glm_euler_order.run fuel mem [p.val] = some (some (.i (Cglm.glm_euler_order o0 o1 o2).toInt), mem) := by
  have l0 := load_eq_some.2 ⟨h0, by simp⟩
  have l1 := load_eq_some.2 ⟨h1, by simp⟩
  have l2 := load_eq_some.2 ⟨h2, by simp⟩
  simp only [C.glm_euler_order, XFn.run, XStmt.exec, XExpr.eval, Expr.eval, Ptr.val, l0, l1, l2, fresh, Out.leave, BitVec.ofInt_toInt,
    Cglm.glm_euler_order, List.replicate, List.map_nil, List.append_nil, List.getElem?_cons_zero, List.take_length]
example : let mem : Mem α := [⟨false, [.i 2, .i 1, .i 0]⟩]
    cell mem 0 0 = some (.i (2#32).toInt) ∧ cell mem 0 1 = some (.i (1#32).toInt) ∧ cell mem 0 2 = some (.i (0#32).toInt) :=
  ⟨rfl, rfl, rfl⟩

theorem call_clamp_zo {e : Expr} {base : Nat} {env : List (Val α)} {m : Mem α} {x : α} (h : e.eval base env m = some (.f x)) :
    (Stmt.call (some 14) C.glm_clamp_zo.locals C.glm_clamp_zo.nregs C.glm_clamp_zo.body [e]).exec base env m =
      some (.next (env.set 14 (.f (Cglm.glm_clamp_zo x))) m) := by
  have := C56_clamp_zo m x
  unfold Fn.run at this
  rw [Stmt.exec, evalArgs, h]
  simp only [evalArgs]
  rcases hr : C.glm_clamp_zo.body.exec m.length ([.f x] ++ List.replicate C.glm_clamp_zo.nregs .undef) (m ++ fresh C.glm_clamp_zo.locals) with _ | o
  · rw [hr] at this; cases this
  · rw [hr] at this
    dsimp only at this
    simp only [hr, this, resume]

/-- the registers at the head of the loop -/
def dcEnv (prm : α) (s : DC α) (k : Int) (a b c d e f r : Val α) : List (Val α) :=
  [.f prm, .f s.p0, .f s.c0, .f s.c1, .f s.p1, .f s.u, .f s.v, a, b, c, d, e, f, .i k, r]

def dcTail : Stmt := .seq (.call (some 14) C.glm_clamp_zo.locals C.glm_clamp_zo.nregs C.glm_clamp_zo.body
  [.f2 .mul (.f2 .add (.reg 5) (.reg 6)) (.flit 0.5)]) (.ret (.reg 14))

theorem dcTail_exec (prm : α) (s : DC α) (k : Int) (a b c d e f r : Val α) (base : Nat) (m : Mem α) :
    dcTail.exec base (dcEnv prm s k a b c d e f r) m = some (.ret (some (.f (Cglm.glm_clamp_zo ((s.u + s.v) * lit 0.5)))) m) := by
  rw [dcTail, exec_seq, call_clamp_zo (x := (s.u + s.v) * lit 0.5) (by simp [dcEnv, Expr.eval, F2.app])]
  simp [dcEnv, Stmt.exec, Expr.eval]

def dcBody : Stmt :=
      .seq (.set 7 (.f2 .mul (.f2 .add (.reg 1) (.reg 2)) (.flit 0.5))) <|
      .seq (.set 8 (.f2 .mul (.f2 .add (.reg 2) (.reg 3)) (.flit 0.5))) <|
      .seq (.set 9 (.f2 .mul (.f2 .add (.reg 3) (.reg 4)) (.flit 0.5))) <|
      .seq (.set 10 (.f2 .mul (.f2 .add (.reg 7) (.reg 8)) (.flit 0.5))) <|
      .seq (.set 11 (.f2 .mul (.f2 .add (.reg 8) (.reg 9)) (.flit 0.5))) <|
      .seq (.set 12 (.f2 .mul (.f2 .add (.reg 10) (.reg 11)) (.flit 0.5))) <|
      .seq (.ite (.fc .lt (.f1 .fabsf (.f2 .sub (.reg 12) (.reg 0))) (.flit (1 / 10 ^ 9))) dcTail .skip) <|
      .ite (.fc .lt (.reg 12) (.reg 0))
        (.seq (.set 1 (.reg 12)) <| .seq (.set 2 (.reg 11)) <| .seq (.set 3 (.reg 9)) <|
          .set 5 (.f2 .mul (.f2 .add (.reg 5) (.reg 6)) (.flit 0.5)))
        (.seq (.set 2 (.reg 7)) <| .seq (.set 3 (.reg 10)) <| .seq (.set 4 (.reg 12)) <|
          .set 6 (.f2 .mul (.f2 .add (.reg 5) (.reg 6)) (.flit 0.5)))

theorem dcBody_exec (prm : α) (s : DC α) (k : Int) (a b c d e f r : Val α) (base : Nat) (m : Mem α) :
    ∃ a' b' c' d' e' f', dcBody.exec base (dcEnv prm s k a b c d e f r) m =
      match Cglm.glm_decasteljau_step prm s with
      | .inl t => some (.ret (some (.f t)) m)
      | .inr s' => some (.next (dcEnv prm s' k a' b' c' d' e' f' r) m) := by
  refine ⟨.f ((s.p0 + s.c0) * lit 0.5), .f ((s.c0 + s.c1) * lit 0.5), .f ((s.c1 + s.p1) * lit 0.5),
    .f (((s.p0 + s.c0) * lit 0.5 + (s.c0 + s.c1) * lit 0.5) * lit 0.5), .f (((s.c0 + s.c1) * lit 0.5 + (s.c1 + s.p1) * lit 0.5) * lit 0.5),
    .f ((((s.p0 + s.c0) * lit 0.5 + (s.c0 + s.c1) * lit 0.5) * lit 0.5 + ((s.c0 + s.c1) * lit 0.5 + (s.c1 + s.p1) * lit 0.5) * lit 0.5) * lit 0.5), ?_⟩
  have ht := fun a b c d e f => dcTail_exec prm s k a b c d e f r base m
  unfold dcEnv at ht ⊢
  unfold Cglm.glm_decasteljau_step dcBody
  rcases h1 : flt (fabsf (((((s.p0 + s.c0) * lit 0.5 + (s.c0 + s.c1) * lit 0.5) * lit 0.5 + ((s.c0 + s.c1) * lit 0.5 + (s.c1 + s.p1) * lit 0.5) * lit 0.5) * lit 0.5) - prm)) (lit (1 / 10 ^ 9)) with _ | _ <;>
  rcases h2 : flt ((((s.p0 + s.c0) * lit 0.5 + (s.c0 + s.c1) * lit 0.5) * lit 0.5 + ((s.c0 + s.c1) * lit 0.5 + (s.c1 + s.p1) * lit 0.5) * lit 0.5) * lit 0.5) prm with _ | _ <;>
  simp only [Stmt.exec, Expr.eval, F2.app, F1.app, FC.app, List.getElem?_cons_zero, List.getElem?_cons_succ, List.set_cons_zero, List.set_cons_succ, ht,
    h1, h2, Bool.false_eq_true, if_false, if_true]

theorem dc_iter (prm : α) (fuel base : Nat) (m : Mem α) : ∀ (k i b : Nat) (s : DC α) (a1 a2 a3 a4 a5 a6 r : Val α), i + k = 1000 → k < b →
    (match iter (fun env m => (XExpr.lt (.ex (.reg 13)) (.ex (.ilit 1000))).eval base env m)
      (fun env m => (XStmt.seq (.st dcBody) (.set 13 (.succ (.ex (.reg 13))))).exec fuel base env m) b (dcEnv prm s i a1 a2 a3 a4 a5 a6 r) m with
    | some (.next env' m') => (XStmt.st dcTail).exec fuel base env' m'
    | some (.ret v m') => some (.ret v m')
    | none => none) = some (.ret (some (.f (Cglm.glm_decasteljau_loop prm s k))) m) := by
  intro k
  induction k with
  | zero =>
    intro i b s a1 a2 a3 a4 a5 a6 r hi hb
    obtain ⟨b, rfl⟩ : ∃ c, b = c + 1 := ⟨b - 1, by omega⟩
    obtain rfl : i = 1000 := by omega
    have hc : (XExpr.lt (.ex (.reg 13)) (.ex (.ilit 1000))).eval base (dcEnv prm s (1000 : Nat) a1 a2 a3 a4 a5 a6 r) m = some (.b false) := by
      simp [XExpr.eval, Expr.eval, dcEnv]
    rw [iter]
    simp only [hc]
    exact dcTail_exec prm s _ a1 a2 a3 a4 a5 a6 r base m
  | succ k ih =>
    intro i b s a1 a2 a3 a4 a5 a6 r hi hb
    obtain ⟨b, rfl⟩ : ∃ c, b = c + 1 := ⟨b - 1, by omega⟩
    have hlt : (i : Int) < 1000 := by omega
    have hc : (XExpr.lt (.ex (.reg 13)) (.ex (.ilit 1000))).eval base (dcEnv prm s i a1 a2 a3 a4 a5 a6 r) m = some (.b true) := by
      simp [XExpr.eval, Expr.eval, dcEnv, hlt]
    obtain ⟨a', b', c', d', e', f', hbody⟩ := dcBody_exec prm s i a1 a2 a3 a4 a5 a6 r base m
    rw [iter]
    simp only [hc, XStmt.exec, hbody, Cglm.glm_decasteljau_loop]
    rcases Cglm.glm_decasteljau_step prm s with t | s'
    · rfl
    · have := ih (i + 1) b s' a' b' c' d' e' f' r (by omega) (by omega)
      simp only [XStmt.exec] at this
      exact this

/-- The solver terminates and touches no memory. -/
theorem C56_decasteljau (mem : Mem α) (prm p0 c0 c1 p1 : α) {fuel : Nat} (hf : 1000 < fuel) :
    C.glm_decasteljau.run fuel mem [.f prm, .f p0, .f c0, .f c1, .f p1] = some (some (.f (Cglm.glm_decasteljau prm p0 c0 c1 p1)), mem) := by
  have key := dc_iter prm fuel mem.length mem 1000 0 fuel ⟨p0, c0, c1, p1, lit 0, lit 1⟩ .undef .undef .undef .undef .undef .undef .undef rfl hf
  unfold Cglm.glm_decasteljau
  by_cases h1 : flt (prm - p0) (lit (1 / 10 ^ 20)) = true
  · simp [C.glm_decasteljau, XFn.run, XStmt.exec, Stmt.exec, Expr.eval, FC.app, F2.app, h1, fresh, Out.leave]
  · by_cases h2 : flt (p1 - prm) (lit (1 / 10 ^ 20)) = true
    · simp [C.glm_decasteljau, XFn.run, XStmt.exec, Stmt.exec, Expr.eval, FC.app, F2.app, h1, h2, fresh, Out.leave]
    · rw [if_neg h1, if_neg h2]
      have hb : C.glm_decasteljau = ⟨[], 10,
          .seq (.st (.ite (.fc .lt (.f2 .sub (.reg 0) (.reg 1)) (.flit (1 / 10 ^ 20))) (.ret (.flit 0)) .skip)) <|
          .seq (.st (.ite (.fc .lt (.f2 .sub (.reg 4) (.reg 0)) (.flit (1 / 10 ^ 20))) (.ret (.flit 1)) .skip)) <|
          .seq (.st (.seq (.set 5 (.flit 0)) (.set 6 (.flit 1)))) <|
          .seq (.set 13 (.ex (.ilit 0))) <|
          .seq (.while_ (.lt (.ex (.reg 13)) (.ex (.ilit 1000))) (.seq (.st dcBody) (.set 13 (.succ (.ex (.reg 13)))))) (.st dcTail)⟩ := rfl
      have hs : ∀ (a b : XStmt) base (env : List (Val α)) m, (XStmt.seq a b).exec fuel base env m =
          match a.exec fuel base env m with
          | some (.next env' m') => b.exec fuel base env' m'
          | some (.ret v m') => some (.ret v m')
          | none => none := fun a b base env m => by rw [XStmt.exec]; rfl
      rw [hb]
      unfold XFn.run
      have e : (fresh [] : Mem α) = [] := rfl
      dsimp only
      rw [e, List.append_nil]
      have s1 : (XStmt.st (.ite (.fc .lt (.f2 .sub (.reg 0) (.reg 1)) (.flit (1 / 10 ^ 20))) (.ret (.flit 0)) .skip)).exec fuel mem.length
          [.f prm, .f p0, .f c0, .f c1, .f p1, .undef, .undef, .undef, .undef, .undef, .undef, .undef, .undef, .undef, .undef] mem =
          some (.next [.f prm, .f p0, .f c0, .f c1, .f p1, .undef, .undef, .undef, .undef, .undef, .undef, .undef, .undef, .undef, .undef] mem) := by
        simp [XStmt.exec, Stmt.exec, Expr.eval, FC.app, F2.app, h1]
      have s2 : (XStmt.st (.ite (.fc .lt (.f2 .sub (.reg 4) (.reg 0)) (.flit (1 / 10 ^ 20))) (.ret (.flit 1)) .skip)).exec fuel mem.length
          [.f prm, .f p0, .f c0, .f c1, .f p1, .undef, .undef, .undef, .undef, .undef, .undef, .undef, .undef, .undef, .undef] mem =
          some (.next [.f prm, .f p0, .f c0, .f c1, .f p1, .undef, .undef, .undef, .undef, .undef, .undef, .undef, .undef, .undef, .undef] mem) := by
        simp [XStmt.exec, Stmt.exec, Expr.eval, FC.app, F2.app, h2]
      have s3 : (XStmt.st (.seq (.set 5 (.flit 0)) (.set 6 (.flit 1)))).exec fuel mem.length
          [.f prm, .f p0, .f c0, .f c1, .f p1, .undef, .undef, .undef, .undef, .undef, .undef, .undef, .undef, .undef, .undef] mem =
          some (.next [.f prm, .f p0, .f c0, .f c1, .f p1, .f (lit 0), .f (lit 1), .undef, .undef, .undef, .undef, .undef, .undef, .undef, .undef] mem) := rfl
      have s4 : (XStmt.set 13 (.ex (.ilit 0))).exec fuel mem.length
          [.f prm, .f p0, .f c0, .f c1, .f p1, .f (lit 0), .f (lit 1), .undef, .undef, .undef, .undef, .undef, .undef, .undef, .undef] mem =
          some (.next (dcEnv prm ⟨p0, c0, c1, p1, lit 0, lit 1⟩ (0 : Nat) .undef .undef .undef .undef .undef .undef .undef) mem) := rfl
      simp only [List.replicate, List.cons_append, List.nil_append]
      rw [hs, s1]
      dsimp only
      rw [hs, s2]
      dsimp only
      rw [hs, s3]
      dsimp only
      rw [hs, s4]
      dsimp only
      rw [hs, XStmt.exec, key]
      simp only [Out.leave, List.take_length]

end Cglm
