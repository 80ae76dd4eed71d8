import Verif.F32Mono
/-!
# Numbers up to the sign of zero

`Sim a b`: the same datum, except that the two zeros are not told apart.  `Mir s a b`: `b` is `a`, negated when `s` is set, in
this sense.  The rounded operations respect both; only division by zero shows the sign of a zero.
-/
namespace Cglm
namespace F32

/-- the same datum, up to the sign of zero -/
def Sim (a b : F32) : Prop := a = b ∨ ∃ s t, a = zero s ∧ b = zero t

/-- negation on demand -/
def flip (s : Bool) (a : F32) : F32 := if s then -a else a

/-- `b` is `a` or its negation -/
def Mir (s : Bool) (a b : F32) : Prop := Sim (flip s a) b

theorem Sim.refl (a : F32) : Sim a a := .inl rfl
theorem Sim.symm {a b : F32} (h : Sim a b) : Sim b a := by
  rcases h with rfl | ⟨s, t, rfl, rfl⟩
  · exact .inl rfl
  · exact .inr ⟨t, s, rfl, rfl⟩
theorem Sim.trans {a b c : F32} (h : Sim a b) (k : Sim b c) : Sim a c := by
  rcases h with rfl | ⟨s, t, rfl, rfl⟩
  · exact k
  · rcases k with rfl | ⟨s', t', h, rfl⟩
    · exact .inr ⟨s, t, rfl, rfl⟩
    · exact .inr ⟨s, t', rfl, rfl⟩
theorem Sim.zero (s t : Bool) : Sim (zero s) (F32.zero t) := .inr ⟨s, t, rfl, rfl⟩

theorem Sim.ofRat (s t : Bool) (q : ℚ) : Sim (ofRat s q) (F32.ofRat t q) := by
  unfold F32.ofRat
  by_cases h : rnd q = 0
  · rw [dif_pos h, dif_pos h]; exact .zero _ _
  · rw [dif_neg h, dif_neg h]; exact .refl _

theorem Sim.neg {a b : F32} (h : Sim a b) : Sim (-a) (-b) := by
  rcases h with rfl | ⟨s, t, rfl, rfl⟩
  · exact .refl _
  · exact .zero _ _

theorem neg_neg'' (a : F32) : - -a = a := by
  rcases a with _ | s | s | ⟨q, h⟩
  · rfl
  · show inf (!!s) = _; rw [Bool.not_not]
  · show F32.zero (!!s) = _; rw [Bool.not_not]
  · show fin (- -q) _ = _; congr 1; ring

theorem add_zero_sim (a : F32) (s t : Bool) : Sim (a + F32.zero s) (a + F32.zero t) := by
  rcases a with _ | u | u | ⟨q, h⟩
  · exact .refl _
  · exact .refl _
  · exact .zero _ _
  · exact .refl _

theorem add_comm'' (a b : F32) : Sim (a + b) (b + a) := by
  rcases a with _ | u | u | ⟨q, h⟩ <;> rcases b with _ | v | v | ⟨r, k⟩
  all_goals first | exact .refl _ | exact .zero _ _ | skip
  · show Sim (if u = v then inf u else nan) (if v = u then inf v else nan)
    by_cases h : u = v
    · subst h; exact .refl _
    · rw [if_neg h, if_neg (Ne.symm h)]; exact .refl _
  · show Sim (ofRat false (0 + r)) (ofRat false (r + 0)); rw [add_comm]; exact .refl _
  · show Sim (ofRat false (q + 0)) (ofRat false (0 + q)); rw [add_comm]; exact .refl _
  · show Sim (ofRat false (q + r)) (ofRat false (r + q)); rw [add_comm]; exact .refl _

theorem Sim.add {a b c d : F32} (h : Sim a b) (k : Sim c d) : Sim (a + c) (b + d) := by
  have r : ∀ {x c d : F32}, Sim c d → Sim (x + c) (x + d) := fun {x c d} k => by
    rcases k with rfl | ⟨s, t, rfl, rfl⟩
    · exact .refl _
    · exact add_zero_sim _ _ _
  have l : ∀ {x c d : F32}, Sim c d → Sim (c + x) (d + x) := fun {x c d} k =>
    (add_comm'' c x).trans ((r k).trans (add_comm'' x d))
  exact (l h).trans (r k)

theorem Sim.sub {a b c d : F32} (h : Sim a b) (k : Sim c d) : Sim (a - c) (b - d) := h.add k.neg

theorem Sim.mul {a b c d : F32} (h : Sim a b) (k : Sim c d) : Sim (a * c) (b * d) := by
  have r : ∀ {x c d : F32}, Sim c d → Sim (x * c) (x * d) := fun {x c d} k => by
    rcases k with rfl | ⟨s, t, rfl, rfl⟩
    · exact .refl _
    · rcases x with _ | u | u | ⟨q, h⟩
      · exact .refl _
      · exact .refl _
      · exact .ofRat _ _ _
      · exact .ofRat _ _ _
  have l : ∀ {x c d : F32}, Sim c d → Sim (c * x) (d * x) := fun {x c d} k => by
    rw [mul_comm' c, mul_comm' d]; exact r k
  exact (l h).trans (r k)

/-- division, unless it is by zero -/
theorem Sim.div {a b c d : F32} (h : Sim a b) (k : Sim c d) (hc : ∀ s, c ≠ F32.zero s) : Sim (a / c) (b / d) := by
  rcases k with rfl | ⟨s, t, rfl, rfl⟩
  · rcases h with rfl | ⟨s, t, rfl, rfl⟩
    · exact .refl _
    · rcases c with _ | u | u | ⟨q, h⟩
      · exact .refl _
      · exact .zero _ _
      · exact absurd rfl (hc u)
      · exact .ofRat _ _ _
  · exact absurd rfl (hc s)

theorem Sim.sqrt {a b : F32} (h : Sim a b) : Sim (F32.sqrt a) (F32.sqrt b) := by
  rcases h with rfl | ⟨s, t, rfl, rfl⟩
  · exact .refl _
  · exact .zero _ _

theorem Sim.abs {a b : F32} (h : Sim a b) : Sim (F32.abs a) (F32.abs b) := by
  rcases h with rfl | ⟨s, t, rfl, rfl⟩
  · exact .refl _
  · exact .zero _ _

theorem Sim.nan {a b : F32} (h : Sim a b) : a = F32.nan ↔ b = F32.nan := by
  rcases h with rfl | ⟨s, t, rfl, rfl⟩
  · rfl
  · simp

theorem Sim.key {a b : F32} (h : Sim a b) : key a = key b := by
  rcases h with rfl | ⟨s, t, rfl, rfl⟩ <;> rfl

theorem neg_add_sim (a b : F32) : Sim (-(a + b)) (-a + -b) := by
  rcases a with _ | u | u | ⟨q, h⟩ <;> rcases b with _ | v | v | ⟨r, k⟩
  all_goals first | exact .refl _ | exact .zero _ _ | skip
  · show Sim (-(if u = v then inf u else nan)) (if (!u) = (!v) then inf (!u) else nan)
    by_cases h : u = v
    · subst h; rw [if_pos rfl, if_pos rfl]; exact .refl _
    · rw [if_neg h, if_neg (by simpa using h)]; exact .refl _
  · show Sim (-ofRat false (0 + r)) (ofRat false (0 + -r))
    rw [← ofRat_not_neg, show (0 : ℚ) + -r = -(0 + r) by ring]; exact .ofRat _ _ _
  · show Sim (-ofRat false (q + 0)) (ofRat false (-q + 0))
    rw [← ofRat_not_neg, show -q + 0 = -(q + 0) by ring]; exact .ofRat _ _ _
  · show Sim (-ofRat false (q + r)) (ofRat false (-q + -r))
    rw [← ofRat_not_neg, show -q + -r = -(q + r) by ring]; exact .ofRat _ _ _

theorem neg_div' (a b : F32) : -a / b = -(a / b) := by
  rcases a with _ | u | u | ⟨q, h⟩ <;> rcases b with _ | v | v | ⟨r, k⟩
  all_goals first | rfl | skip
  all_goals first
    | (show inf _ = inf (!_); congr 1; cases u <;> cases v <;> rfl)
    | (show zero _ = zero (!_); congr 1; cases u <;> cases v <;> rfl)
    | skip
  · show inf ((!u) != decide (r < 0)) = inf (!(u != decide (r < 0))); congr 1; cases u <;> cases decide (r < 0) <;> rfl
  · show ofRat ((!u) != decide (r < 0)) (0 / r) = -ofRat (u != decide (r < 0)) (0 / r)
    rw [zero_div, ofRat_zero, ofRat_zero]; show zero _ = zero (!_); congr 1; cases u <;> cases decide (r < 0) <;> rfl
  · have e := sgn_neg (a := fin q h) (by nofun)
    show zero ((-fin q h).sgn != v) = zero (!((fin q h).sgn != v))
    rw [e]; congr 1; cases (fin q h).sgn <;> cases v <;> rfl
  · have e := sgn_neg (a := fin q h) (by nofun)
    show inf ((-fin q h).sgn != v) = inf (!((fin q h).sgn != v))
    rw [e]; congr 1; cases (fin q h).sgn <;> cases v <;> rfl
  · have e := sgn_neg (a := fin q h) (by nofun)
    show ofRat ((-fin q h).sgn != (fin r k).sgn) (-q / r) = -ofRat ((fin q h).sgn != (fin r k).sgn) (q / r)
    rw [e, neg_div, ← ofRat_not_neg]; congr 1; cases (fin q h).sgn <;> cases (fin r k).sgn <;> rfl

theorem div_neg' (a b : F32) : a / -b = -(a / b) := by
  rcases a with _ | u | u | ⟨q, h⟩ <;> rcases b with _ | v | v | ⟨r, k⟩
  all_goals first | rfl | skip
  all_goals first
    | (show inf _ = inf (!_); congr 1; cases u <;> cases v <;> rfl)
    | (show zero _ = zero (!_); congr 1; cases u <;> cases v <;> rfl)
    | skip
  · have e := sgn_neg (a := fin r k) (by nofun)
    show inf (u != (-fin r k).sgn) = inf (!(u != (fin r k).sgn))
    rw [e]; congr 1; cases u <;> cases (fin r k).sgn <;> rfl
  · have e := sgn_neg (a := fin r k) (by nofun)
    show ofRat (u != (-fin r k).sgn) (0 / -r) = -ofRat (u != (fin r k).sgn) (0 / r)
    rw [e, zero_div, zero_div, ofRat_zero, ofRat_zero]; show zero _ = zero (!_); congr 1; cases u <;> cases (fin r k).sgn <;> rfl
  · show zero ((fin q h).sgn != !v) = zero (!((fin q h).sgn != v)); congr 1; cases (fin q h).sgn <;> cases v <;> rfl
  · show inf ((fin q h).sgn != !v) = inf (!((fin q h).sgn != v)); congr 1; cases (fin q h).sgn <;> cases v <;> rfl
  · have e := sgn_neg (a := fin r k) (by nofun)
    show ofRat ((fin q h).sgn != (-fin r k).sgn) (q / -r) = -ofRat ((fin q h).sgn != (fin r k).sgn) (q / r)
    rw [e, div_neg, ← ofRat_not_neg]; congr 1; cases (fin q h).sgn <;> cases (fin r k).sgn <;> rfl

/-! ### the relation `Mir` -/

theorem Mir.refl (a : F32) : Mir false a a := Sim.refl _
theorem Mir.negate (a : F32) : Mir true a (-a) := Sim.refl _
theorem Mir.of (s : Bool) (a : F32) : Mir s a (flip s a) := Sim.refl _
theorem Mir.zero (s t u : Bool) : Mir s (zero t) (F32.zero u) := by cases s <;> exact Sim.zero _ _

theorem Mir.add {s : Bool} {a b c d : F32} (h : Mir s a b) (k : Mir s c d) : Mir s (a + c) (b + d) := by
  cases s
  · exact Sim.add h k
  · exact (neg_add_sim a c).trans (Sim.add h k)

theorem Mir.neg {s : Bool} {a b : F32} (h : Mir s a b) : Mir s (-a) (-b) := by
  cases s <;> exact Sim.neg h

theorem Mir.neg_right {s : Bool} {a b : F32} (h : Mir s a b) : Mir (!s) a (-b) := by
  cases s
  · exact Sim.neg h
  · have := Sim.neg h; unfold flip at this; rw [if_pos rfl, neg_neg''] at this; exact this

theorem Mir.sub {s : Bool} {a b c d : F32} (h : Mir s a b) (k : Mir s c d) : Mir s (a - c) (b - d) := h.add k.neg

/-- `b - a` against `d - c` with exchanged roles -/
theorem Mir.sub_swap {s : Bool} {a b c d : F32} (h : Mir s a b) (k : Mir s c d) : Mir (!s) (a - c) (d - b) := by
  have e : Sim (-(b - d)) (d - b) := by
    refine (neg_add_sim b (-d)).trans ?_
    rw [neg_neg'']
    exact add_comm'' _ _
  have m := (h.sub k).neg_right
  exact Sim.trans m e

theorem Mir.mul {s t : Bool} {a b c d : F32} (h : Mir s a b) (k : Mir t c d) : Mir (s ^^ t) (a * c) (b * d) := by
  have := Sim.mul h k
  cases s <;> cases t <;> simp only [flip, Mir] at * <;> first | exact this | skip
  · simpa [mul_neg'] using this
  · simpa [neg_mul'] using this
  · simpa [mul_neg', neg_mul', neg_neg''] using this

theorem Mir.div {s t : Bool} {a b c d : F32} (h : Mir s a b) (k : Mir t c d) (hc : ∀ s, c ≠ F32.zero s) :
    Mir (s ^^ t) (a / c) (b / d) := by
  have hf : ∀ s, flip t c ≠ F32.zero s := fun s e => by
    cases t
    · exact hc s e
    · have : c = F32.zero (!s) := by
        have := congrArg (fun x : F32 => -x) e
        simp only [flip, if_true, neg_neg''] at this
        exact this
      exact hc _ this
  have := Sim.div h k hf
  cases s <;> cases t <;> simp only [flip, Mir] at * <;> first | exact this | skip
  · simpa [div_neg'] using this
  · simpa [neg_div'] using this
  · simpa [div_neg', neg_div', neg_neg''] using this

theorem Mir.sqrt {a b : F32} (h : Mir false a b) : Mir false (F32.sqrt a) (F32.sqrt b) := Sim.sqrt h

theorem abs_neg' (a : F32) : F32.abs (-a) = F32.abs a := by
  rcases a with _ | u | u | ⟨q, h⟩
  · rfl
  · rfl
  · rfl
  · show (if -q < 0 then -(-fin q h) else -fin q h) = if q < 0 then -fin q h else fin q h
    rw [neg_neg'']
    rcases lt_or_gt_of_ne h.1 with c | c
    · rw [if_neg (by linarith), if_pos c]
    · rw [if_pos (by linarith), if_neg (by linarith)]

theorem Mir.abs {s : Bool} {a b : F32} (h : Mir s a b) : Mir false (F32.abs a) (F32.abs b) := by
  have := Sim.abs h
  cases s
  · exact this
  · simp only [flip, if_true, abs_neg'] at this; exact this

theorem Mir.nan {s : Bool} {a b : F32} (h : Mir s a b) : a = F32.nan ↔ b = F32.nan := by
  have := Sim.nan h
  cases s
  · exact this
  · simp only [flip, if_true, neg_eq_nan] at this; exact this

theorem Mir.key {s : Bool} {a b : F32} (h : Mir s a b) : F32.key b = if s then -F32.key a else F32.key a := by
  have := Sim.key h
  cases s
  · exact this.symm
  · simp only [flip, if_true, key_neg] at this; simp [← this]

theorem Mir.lt {a b c d : F32} (h : Mir false a b) (k : Mir false c d) : F32.lt b d = F32.lt a c := by
  rw [Bool.eq_iff_iff, key_lt_iff, key_lt_iff, h.key, k.key, Ne, Ne, Ne, Ne, h.nan, k.nan]; simp

theorem Mir.lt_swap {a b c d : F32} (h : Mir true a b) (k : Mir true c d) : F32.lt b d = F32.lt c a := by
  rw [Bool.eq_iff_iff, key_lt_iff, key_lt_iff, h.key, k.key, Ne, Ne, Ne, Ne, h.nan, k.nan]; simp; tauto

theorem Mir.le {a b c d : F32} (h : Mir false a b) (k : Mir false c d) : F32.le b d = F32.le a c := by
  rw [Bool.eq_iff_iff, key_le_iff, key_le_iff, h.key, k.key, Ne, Ne, Ne, Ne, h.nan, k.nan]; simp

theorem Mir.le_swap {a b c d : F32} (h : Mir true a b) (k : Mir true c d) : F32.le b d = F32.le c a := by
  rw [Bool.eq_iff_iff, key_le_iff, key_le_iff, h.key, k.key, Ne, Ne, Ne, Ne, h.nan, k.nan]; simp; tauto

theorem Mir.eq {s : Bool} {a b c d : F32} (h : Mir s a b) (k : Mir s c d) : F32.eq b d = F32.eq a c := by
  rw [Bool.eq_iff_iff, key_eq_iff, key_eq_iff, h.key, k.key, Ne, Ne, Ne, Ne, h.nan, k.nan]; cases s <;> simp

theorem Mir.ite {p q : Prop} [Decidable p] [Decidable q] {s : Bool} {a b c d : F32} (e : q ↔ p) (h : Mir s a b) (k : Mir s c d) :
    Mir s (if p then a else c) (if q then b else d) := by
  by_cases hp : p
  · rw [if_pos hp, if_pos (e.mpr hp)]; exact h
  · rw [if_neg hp, if_neg (fun hq => hp (e.mp hq))]; exact k


theorem Mir.cast {s t : Bool} {a b : F32} (h : Mir s a b) (e : s = t) : Mir t a b := e ▸ h
theorem Mir.add' {s t : Bool} {a b c d : F32} (h : Mir s a b) (k : Mir t c d) (e : s = t) : Mir s (a + c) (b + d) :=
  h.add (k.cast e.symm)
theorem Mir.sub' {s t : Bool} {a b c d : F32} (h : Mir s a b) (k : Mir t c d) (e : s = t) : Mir s (a - c) (b - d) :=
  h.sub (k.cast e.symm)
theorem Mir.sqrt' {s : Bool} {a b : F32} (h : Mir s a b) (e : s = false) : Mir false (F32.sqrt a) (F32.sqrt b) :=
  (h.cast e).sqrt
theorem Mir.ite' {p q : Prop} [Decidable p] [Decidable q] {s t : Bool} {a b c d : F32} (e : q ↔ p) (h : Mir s a b)
    (k : Mir t c d) (e' : s = t) : Mir s (if p then a else c) (if q then b else d) := .ite e h (k.cast e'.symm)
theorem Mir.lt' {s t : Bool} {a b c d : F32} (h : Mir s a b) (k : Mir t c d) (hs : s = false) (ht : t = false) :
    F32.lt b d = F32.lt a c := (h.cast hs).lt (k.cast ht)
theorem Mir.le' {s t : Bool} {a b c d : F32} (h : Mir s a b) (k : Mir t c d) (hs : s = false) (ht : t = false) :
    F32.le b d = F32.le a c := (h.cast hs).le (k.cast ht)
theorem Mir.eq' {s t : Bool} {a b c d : F32} (h : Mir s a b) (k : Mir t c d) (e : s = t) :
    F32.eq b d = F32.eq a c := h.eq (k.cast e.symm)
/-- a zero may take either sign -/
theorem Mir.zero_lit [Libm] (s : Bool) : Mir s (CFloat.lit 0 : F32) (CFloat.lit 0) := by
  rw [lit_f32, ofRat_zero]; exact .zero _ _ _

/-- an identity between signs -/
macro "bx" x:ident y:ident z:ident : tactic => `(tactic| (clear * - $x $y $z; revert $x $y $z; decide))

/-- one step through an expression -/
macro "mir_step" x:ident y:ident z:ident : tactic => `(tactic| first
  | with_reducible assumption
  | with_reducible exact Mir.refl _
  | with_reducible apply Mir.add'
  | with_reducible apply Mir.sub'
  | with_reducible apply Mir.mul
  | with_reducible apply Mir.neg
  | with_reducible apply Mir.sqrt'
  | with_reducible apply Mir.abs
  | with_reducible apply Mir.div
  | bx $x $y $z)

/-- the expressions agree up to sign, operation by operation -/
macro "mir" x:ident y:ident z:ident : tactic => `(tactic| first
  | with_reducible exact Mir.zero_lit _
  | (apply Mir.cast; all_goals (repeat' mir_step $x $y $z)))

end F32

/-! ### vectors and matrices -/

/-- a mirror: which of the three coordinates change sign -/
structure AxisMirror where
  x : Bool
  y : Bool
  z : Bool

/-- an odd number of coordinates change sign -/
def AxisMirror.odd (σ : AxisMirror) : Bool := σ.x ^^ σ.y ^^ σ.z

open F32

/-- `v'` is the mirrored point or direction `v` -/
def AxisMirror.Vec (σ : AxisMirror) (v v' : V3 F32) : Prop := Mir σ.x v.x v'.x ∧ Mir σ.y v.y v'.y ∧ Mir σ.z v.z v'.z
/-- the signs of rotation axes -/
def AxisMirror.dual (σ : AxisMirror) : AxisMirror := ⟨σ.y ^^ σ.z, σ.x ^^ σ.z, σ.x ^^ σ.y⟩
/-- `v'` is the mirrored rotation axis `v` (an axial vector) -/
def AxisMirror.Axis (σ : AxisMirror) (v v' : V3 F32) : Prop := σ.dual.Vec v v'
/-- mirrored homogeneous points -/
def AxisMirror.Vec4 (σ : AxisMirror) (v v' : V4 F32) : Prop :=
  Mir σ.x v.x v'.x ∧ Mir σ.y v.y v'.y ∧ Mir σ.z v.z v'.z ∧ Mir false v.w v'.w
/-- mirrored rotations as quaternions -/
def AxisMirror.Quat (σ : AxisMirror) (q q' : V4 F32) : Prop := σ.dual.Vec4 q q'
/-- mirrored linear maps: mirror, apply, mirror -/
def AxisMirror.Mat3 (σ : AxisMirror) (m m' : M3 F32) : Prop :=
  (Mir false m.c0.x m'.c0.x ∧ Mir (σ.x ^^ σ.y) m.c0.y m'.c0.y ∧ Mir (σ.x ^^ σ.z) m.c0.z m'.c0.z) ∧
  (Mir (σ.x ^^ σ.y) m.c1.x m'.c1.x ∧ Mir false m.c1.y m'.c1.y ∧ Mir (σ.y ^^ σ.z) m.c1.z m'.c1.z) ∧
  (Mir (σ.x ^^ σ.z) m.c2.x m'.c2.x ∧ Mir (σ.y ^^ σ.z) m.c2.y m'.c2.y ∧ Mir false m.c2.z m'.c2.z)
/-- mirrored transforms: mirror, apply, mirror -/
def AxisMirror.Mat4 (σ : AxisMirror) (m m' : M4 F32) : Prop :=
  (Mir false m.c0.x m'.c0.x ∧ Mir (σ.x ^^ σ.y) m.c0.y m'.c0.y ∧ Mir (σ.x ^^ σ.z) m.c0.z m'.c0.z ∧ Mir σ.x m.c0.w m'.c0.w) ∧
  (Mir (σ.x ^^ σ.y) m.c1.x m'.c1.x ∧ Mir false m.c1.y m'.c1.y ∧ Mir (σ.y ^^ σ.z) m.c1.z m'.c1.z ∧ Mir σ.y m.c1.w m'.c1.w) ∧
  (Mir (σ.x ^^ σ.z) m.c2.x m'.c2.x ∧ Mir (σ.y ^^ σ.z) m.c2.y m'.c2.y ∧ Mir false m.c2.z m'.c2.z ∧ Mir σ.z m.c2.w m'.c2.w) ∧
  (Mir σ.x m.c3.x m'.c3.x ∧ Mir σ.y m.c3.y m'.c3.y ∧ Mir σ.z m.c3.z m'.c3.z ∧ Mir false m.c3.w m'.c3.w)

theorem AxisMirror.Vec.ite {σ : AxisMirror} {p q : Prop} [Decidable p] [Decidable q] {a a' b b' : V3 F32} (e : q ↔ p) (h : p → σ.Vec a a')
    (k : ¬p → σ.Vec b b') : σ.Vec (if p then a else b) (if q then a' else b') := by
  by_cases hp : p
  · rw [if_pos hp, if_pos (e.mpr hp)]; exact h hp
  · rw [if_neg hp, if_neg (fun hq => hp (e.mp hq))]; exact k hp

theorem AxisMirror.Vec4.ite {σ : AxisMirror} {p q : Prop} [Decidable p] [Decidable q] {a a' b b' : V4 F32} (e : q ↔ p) (h : p → σ.Vec4 a a')
    (k : ¬p → σ.Vec4 b b') : σ.Vec4 (if p then a else b) (if q then a' else b') := by
  by_cases hp : p
  · rw [if_pos hp, if_pos (e.mpr hp)]; exact h hp
  · rw [if_neg hp, if_neg (fun hq => hp (e.mp hq))]; exact k hp

end Cglm
