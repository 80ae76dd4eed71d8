import Verif.Props.C56Hand
import Mathlib.Tactic.SplitIfs

/-!
# C55/C56: swizzles in memory

A swizzle is undefined exactly when a field of the mask exceeds the vector.  Otherwise it writes the selected components
to the destination and changes nothing else.  The destination may be the source.
-/

set_option linter.unusedSectionVars false

namespace Cglm
open CMem

variable {α : Type} [Add α] [Sub α] [Mul α] [Div α] [Neg α] [CFloat α]

theorem bits2_mask (mask : BitVec 32) (k : Nat) : bits2 mask.toInt k = maskField mask k := by
  rw [bits2, maskField, BitVec.ofInt_toInt]

theorem eval_field (mask : BitVec 32) (k : Nat) (base : Nat) (env : List (Val α)) (m : Mem α) (h : RegI 1 mask.toInt env) :
    (XExpr.field (.ex (.reg 1)) k).eval base env m = some (.i (maskField mask k)) := by
  unfold RegI at h
  simp only [XExpr.eval, Expr.eval, h, bits2_mask]

theorem V2.load_get? {v : V2 α} {c : Int} {x : α} (h : v.get? c = some x) :
    inLen (some 2) c = true ∧ ∀ (w : Bool) (A : Mem α), CMem.load (⟨w, [.f v.x, .f v.y]⟩ :: A) 0 c.toNat = some (.f x) := by
  unfold V2.get? at h
  split_ifs at h with hc0 hc1 <;> subst_vars <;> cases h <;> exact ⟨rfl, fun _ _ => rfl⟩
theorem V2.range_of_none {v : V2 α} {c : Int} (h : v.get? c = none) : ¬ (0 ≤ c ∧ c < 2) := by
  rintro ⟨h1, h2⟩
  have : c = 0 ∨ c = 1 := by omega
  rcases this with rfl | rfl <;> cases h

theorem vec2_swizzle_apart {v : V2 α} (mask : BitVec 32) (fuel : Nat) {x0 x1 : α}
    (h0 : v.get? (maskField mask 0) = some x0) (h1 : v.get? (maskField mask 1) = some x1) :
    C.glm_vec2_swizzle.run fuel [⟨false, v.list.map .f⟩, ⟨true, List.replicate 2 .undef⟩] [.p 0 0, .i mask.toInt, .p 1 0] =
      some (none, [⟨false, v.list.map .f⟩, ⟨true, [.f x0, .f x1]⟩]) := by
  obtain ⟨e0, g0⟩ := V2.load_get? h0
  obtain ⟨e1, g1⟩ := V2.load_get? h1
  simp [C.glm_vec2_swizzle, XFn.run, XStmt.exec, XExpr.eval, Expr.eval, xevalArgs, bits2_mask, V2.list, fresh, put1, e0, g0, e1, g1]
  rfl
theorem vec2_swizzle_self {v : V2 α} (mask : BitVec 32) (fuel : Nat) {x0 x1 : α}
    (h0 : v.get? (maskField mask 0) = some x0) (h1 : v.get? (maskField mask 1) = some x1) :
    C.glm_vec2_swizzle.run fuel [⟨true, v.list.map .f⟩] [.p 0 0, .i mask.toInt, .p 0 0] =
      some (none, [⟨true, [.f x0, .f x1]⟩]) := by
  obtain ⟨e0, g0⟩ := V2.load_get? h0
  obtain ⟨e1, g1⟩ := V2.load_get? h1
  simp [C.glm_vec2_swizzle, XFn.run, XStmt.exec, XExpr.eval, Expr.eval, xevalArgs, bits2_mask, V2.list, fresh, put1, e0, g0, e1, g1]
  rfl

theorem C56_vec2_swizzle {mem : Mem α} {vP destP : Ptr} {v : V2 α} (h : Holds mem vP v.list) (r : Room mem destP 2)
    (s : vP = destP ∨ Apart vP 2 destP 2) (mask : BitVec 32) (fuel : Nat) :
    C.glm_vec2_swizzle.run fuel mem [vP.val, .i mask.toInt, destP.val] =
      (Cglm.glm_vec2_swizzle v mask).map fun x => (none, writes mem [(destP, x.list.map .f)]) := by
  rcases h0 : v.get? (maskField mask 0) with _ | x0
  · rw [show Cglm.glm_vec2_swizzle v mask = none by simp [Cglm.glm_vec2_swizzle, h0]]
    exact run_dies (k := 1) (c := mask.toInt) (dies_seq (dies_store_right _ (dies_load (dies_idx' (V2.range_of_none h0) _ _ _ (eval_field mask 0)))) _) fuel rfl
  rcases h1 : v.get? (maskField mask 1) with _ | x1
  · rw [show Cglm.glm_vec2_swizzle v mask = none by simp [Cglm.glm_vec2_swizzle, h1]]
    exact run_dies (k := 1) (c := mask.toInt) (dies_next (keeps_store _ _) (dies_seq (dies_store_right _ (dies_load (dies_idx' (V2.range_of_none h1) _ _ _ (eval_field mask 1)))) _)) fuel rfl
  rw [show Cglm.glm_vec2_swizzle v mask = some ⟨x0, x1⟩ by simp [Cglm.glm_vec2_swizzle, h0, h1]]
  rcases s with rfl | s
  · exact xtransfer ((R.nil _).addW h.has r .nil) (.p rfl (.i (.p rfl .nil))) (vec2_swizzle_self mask fuel h0 h1) rfl
  · exact xtransfer (((R.nil _).addW r.has r .nil).addR h.has (.cons s .nil)) (.p rfl (.i (.p rfl .nil)))
      (vec2_swizzle_apart mask fuel h0 h1) rfl
example (v : V2 α) : let mem : Mem α := [⟨false, v.list.map .f⟩, ⟨true, List.replicate 2 .undef⟩]
    Holds mem (0, 0) v.list ∧ Room mem (1, 0) 2 ∧ Apart (0, 0) 2 (1, 0) 2 ∧ (Cglm.glm_vec2_swizzle v 1).isSome = true :=
  ⟨.block rfl, .block rfl rfl, Or.inl (by decide), rfl⟩

theorem V3.load_get? {v : V3 α} {c : Int} {x : α} (h : v.get? c = some x) :
    inLen (some 3) c = true ∧ ∀ (w : Bool) (A : Mem α), CMem.load (⟨w, [.f v.x, .f v.y, .f v.z]⟩ :: A) 0 c.toNat = some (.f x) := by
  unfold V3.get? at h
  split_ifs at h with hc0 hc1 hc2 <;> subst_vars <;> cases h <;> exact ⟨rfl, fun _ _ => rfl⟩
theorem V3.range_of_none {v : V3 α} {c : Int} (h : v.get? c = none) : ¬ (0 ≤ c ∧ c < 3) := by
  rintro ⟨h1, h2⟩
  have : c = 0 ∨ c = 1 ∨ c = 2 := by omega
  rcases this with rfl | rfl | rfl <;> cases h

theorem vec3_swizzle_apart {v : V3 α} (mask : BitVec 32) (fuel : Nat) {x0 x1 x2 : α}
    (h0 : v.get? (maskField mask 0) = some x0) (h1 : v.get? (maskField mask 1) = some x1) (h2 : v.get? (maskField mask 2) = some x2) :
    C.glm_vec3_swizzle.run fuel [⟨false, v.list.map .f⟩, ⟨true, List.replicate 3 .undef⟩] [.p 0 0, .i mask.toInt, .p 1 0] =
      some (none, [⟨false, v.list.map .f⟩, ⟨true, [.f x0, .f x1, .f x2]⟩]) := by
  obtain ⟨e0, g0⟩ := V3.load_get? h0
  obtain ⟨e1, g1⟩ := V3.load_get? h1
  obtain ⟨e2, g2⟩ := V3.load_get? h2
  simp [C.glm_vec3_swizzle, XFn.run, XStmt.exec, XExpr.eval, Expr.eval, xevalArgs, bits2_mask, V3.list, fresh, put1, e0, g0, e1, g1, e2, g2]
  rfl
theorem vec3_swizzle_self {v : V3 α} (mask : BitVec 32) (fuel : Nat) {x0 x1 x2 : α}
    (h0 : v.get? (maskField mask 0) = some x0) (h1 : v.get? (maskField mask 1) = some x1) (h2 : v.get? (maskField mask 2) = some x2) :
    C.glm_vec3_swizzle.run fuel [⟨true, v.list.map .f⟩] [.p 0 0, .i mask.toInt, .p 0 0] =
      some (none, [⟨true, [.f x0, .f x1, .f x2]⟩]) := by
  obtain ⟨e0, g0⟩ := V3.load_get? h0
  obtain ⟨e1, g1⟩ := V3.load_get? h1
  obtain ⟨e2, g2⟩ := V3.load_get? h2
  simp [C.glm_vec3_swizzle, XFn.run, XStmt.exec, XExpr.eval, Expr.eval, xevalArgs, bits2_mask, V3.list, fresh, put1, e0, g0, e1, g1, e2, g2]
  rfl

theorem C56_vec3_swizzle {mem : Mem α} {vP destP : Ptr} {v : V3 α} (h : Holds mem vP v.list) (r : Room mem destP 3)
    (s : vP = destP ∨ Apart vP 3 destP 3) (mask : BitVec 32) (fuel : Nat) :
    C.glm_vec3_swizzle.run fuel mem [vP.val, .i mask.toInt, destP.val] =
      (Cglm.glm_vec3_swizzle v mask).map fun x => (none, writes mem [(destP, x.list.map .f)]) := by
  rcases h0 : v.get? (maskField mask 0) with _ | x0
  · rw [show Cglm.glm_vec3_swizzle v mask = none by simp [Cglm.glm_vec3_swizzle, h0]]
    exact run_dies (k := 1) (c := mask.toInt) (dies_seq (dies_store_right _ (dies_load (dies_idx' (V3.range_of_none h0) _ _ _ (eval_field mask 0)))) _) fuel rfl
  rcases h1 : v.get? (maskField mask 1) with _ | x1
  · rw [show Cglm.glm_vec3_swizzle v mask = none by simp [Cglm.glm_vec3_swizzle, h1]]
    exact run_dies (k := 1) (c := mask.toInt) (dies_next (keeps_store _ _) (dies_seq (dies_store_right _ (dies_load (dies_idx' (V3.range_of_none h1) _ _ _ (eval_field mask 1)))) _)) fuel rfl
  rcases h2 : v.get? (maskField mask 2) with _ | x2
  · rw [show Cglm.glm_vec3_swizzle v mask = none by simp [Cglm.glm_vec3_swizzle, h2]]
    exact run_dies (k := 1) (c := mask.toInt) (dies_next (keeps_store _ _) (dies_next (keeps_store _ _) (dies_seq (dies_store_right _ (dies_load (dies_idx' (V3.range_of_none h2) _ _ _ (eval_field mask 2)))) _))) fuel rfl
  rw [show Cglm.glm_vec3_swizzle v mask = some ⟨x0, x1, x2⟩ by simp [Cglm.glm_vec3_swizzle, h0, h1, h2]]
  rcases s with rfl | s
  · exact xtransfer ((R.nil _).addW h.has r .nil) (.p rfl (.i (.p rfl .nil))) (vec3_swizzle_self mask fuel h0 h1 h2) rfl
  · exact xtransfer (((R.nil _).addW r.has r .nil).addR h.has (.cons s .nil)) (.p rfl (.i (.p rfl .nil)))
      (vec3_swizzle_apart mask fuel h0 h1 h2) rfl
example (v : V3 α) : let mem : Mem α := [⟨false, v.list.map .f⟩, ⟨true, List.replicate 3 .undef⟩]
    Holds mem (0, 0) v.list ∧ Room mem (1, 0) 3 ∧ Apart (0, 0) 3 (1, 0) 3 ∧ (Cglm.glm_vec3_swizzle v 1).isSome = true :=
  ⟨.block rfl, .block rfl rfl, Or.inl (by decide), rfl⟩

theorem V4.load_get? {v : V4 α} {c : Int} {x : α} (h : v.get? c = some x) :
    inLen (some 4) c = true ∧ ∀ (w : Bool) (A : Mem α), CMem.load (⟨w, [.f v.x, .f v.y, .f v.z, .f v.w]⟩ :: A) 0 c.toNat = some (.f x) := by
  unfold V4.get? at h
  split_ifs at h with hc0 hc1 hc2 hc3 <;> subst_vars <;> cases h <;> exact ⟨rfl, fun _ _ => rfl⟩
theorem V4.range_of_none {v : V4 α} {c : Int} (h : v.get? c = none) : ¬ (0 ≤ c ∧ c < 4) := by
  rintro ⟨h1, h2⟩
  have : c = 0 ∨ c = 1 ∨ c = 2 ∨ c = 3 := by omega
  rcases this with rfl | rfl | rfl | rfl <;> cases h

theorem vec4_swizzle_apart {v : V4 α} (mask : BitVec 32) (fuel : Nat) {x0 x1 x2 x3 : α}
    (h0 : v.get? (maskField mask 0) = some x0) (h1 : v.get? (maskField mask 1) = some x1) (h2 : v.get? (maskField mask 2) = some x2) (h3 : v.get? (maskField mask 3) = some x3) :
    C.glm_vec4_swizzle.run fuel [⟨false, v.list.map .f⟩, ⟨true, List.replicate 4 .undef⟩] [.p 0 0, .i mask.toInt, .p 1 0] =
      some (none, [⟨false, v.list.map .f⟩, ⟨true, [.f x0, .f x1, .f x2, .f x3]⟩]) := by
  obtain ⟨e0, g0⟩ := V4.load_get? h0
  obtain ⟨e1, g1⟩ := V4.load_get? h1
  obtain ⟨e2, g2⟩ := V4.load_get? h2
  obtain ⟨e3, g3⟩ := V4.load_get? h3
  simp [C.glm_vec4_swizzle, XFn.run, XStmt.exec, XExpr.eval, Expr.eval, xevalArgs, bits2_mask, V4.list, fresh, put1, e0, g0, e1, g1, e2, g2, e3, g3]
  rfl
theorem vec4_swizzle_self {v : V4 α} (mask : BitVec 32) (fuel : Nat) {x0 x1 x2 x3 : α}
    (h0 : v.get? (maskField mask 0) = some x0) (h1 : v.get? (maskField mask 1) = some x1) (h2 : v.get? (maskField mask 2) = some x2) (h3 : v.get? (maskField mask 3) = some x3) :
    C.glm_vec4_swizzle.run fuel [⟨true, v.list.map .f⟩] [.p 0 0, .i mask.toInt, .p 0 0] =
      some (none, [⟨true, [.f x0, .f x1, .f x2, .f x3]⟩]) := by
  obtain ⟨e0, g0⟩ := V4.load_get? h0
  obtain ⟨e1, g1⟩ := V4.load_get? h1
  obtain ⟨e2, g2⟩ := V4.load_get? h2
  obtain ⟨e3, g3⟩ := V4.load_get? h3
  simp [C.glm_vec4_swizzle, XFn.run, XStmt.exec, XExpr.eval, Expr.eval, xevalArgs, bits2_mask, V4.list, fresh, put1, e0, g0, e1, g1, e2, g2, e3, g3]
  rfl

theorem C56_vec4_swizzle {mem : Mem α} {vP destP : Ptr} {v : V4 α} (h : Holds mem vP v.list) (r : Room mem destP 4)
    (s : vP = destP ∨ Apart vP 4 destP 4) (mask : BitVec 32) (fuel : Nat) :
    C.glm_vec4_swizzle.run fuel mem [vP.val, .i mask.toInt, destP.val] =
      (Cglm.glm_vec4_swizzle v mask).map fun x => (none, writes mem [(destP, x.list.map .f)]) := by
  rcases h0 : v.get? (maskField mask 0) with _ | x0
  · rw [show Cglm.glm_vec4_swizzle v mask = none by simp [Cglm.glm_vec4_swizzle, h0]]
    exact run_dies (k := 1) (c := mask.toInt) (dies_seq (dies_store_right _ (dies_load (dies_idx' (V4.range_of_none h0) _ _ _ (eval_field mask 0)))) _) fuel rfl
  rcases h1 : v.get? (maskField mask 1) with _ | x1
  · rw [show Cglm.glm_vec4_swizzle v mask = none by simp [Cglm.glm_vec4_swizzle, h1]]
    exact run_dies (k := 1) (c := mask.toInt) (dies_next (keeps_store _ _) (dies_seq (dies_store_right _ (dies_load (dies_idx' (V4.range_of_none h1) _ _ _ (eval_field mask 1)))) _)) fuel rfl
  rcases h2 : v.get? (maskField mask 2) with _ | x2
  · rw [show Cglm.glm_vec4_swizzle v mask = none by simp [Cglm.glm_vec4_swizzle, h2]]
    exact run_dies (k := 1) (c := mask.toInt) (dies_next (keeps_store _ _) (dies_next (keeps_store _ _) (dies_seq (dies_store_right _ (dies_load (dies_idx' (V4.range_of_none h2) _ _ _ (eval_field mask 2)))) _))) fuel rfl
  rcases h3 : v.get? (maskField mask 3) with _ | x3
  · rw [show Cglm.glm_vec4_swizzle v mask = none by simp [Cglm.glm_vec4_swizzle, h3]]
    exact run_dies (k := 1) (c := mask.toInt) (dies_next (keeps_store _ _) (dies_next (keeps_store _ _) (dies_next (keeps_store _ _) (dies_seq (dies_store_right _ (dies_load (dies_idx' (V4.range_of_none h3) _ _ _ (eval_field mask 3)))) _)))) fuel rfl
  rw [show Cglm.glm_vec4_swizzle v mask = some ⟨x0, x1, x2, x3⟩ by simp [Cglm.glm_vec4_swizzle, h0, h1, h2, h3]]
  rcases s with rfl | s
  · exact xtransfer ((R.nil _).addW h.has r .nil) (.p rfl (.i (.p rfl .nil))) (vec4_swizzle_self mask fuel h0 h1 h2 h3) rfl
  · exact xtransfer (((R.nil _).addW r.has r .nil).addR h.has (.cons s .nil)) (.p rfl (.i (.p rfl .nil)))
      (vec4_swizzle_apart mask fuel h0 h1 h2 h3) rfl
example (v : V4 α) : let mem : Mem α := [⟨false, v.list.map .f⟩, ⟨true, List.replicate 4 .undef⟩]
    Holds mem (0, 0) v.list ∧ Room mem (1, 0) 4 ∧ Apart (0, 0) 4 (1, 0) 4 ∧ (Cglm.glm_vec4_swizzle v 1).isSome = true :=
  ⟨.block rfl, .block rfl rfl, Or.inl (by decide), rfl⟩

end Cglm
