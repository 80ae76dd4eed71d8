import Verif.Layout
import Mathlib.Tactic.Ring
import Mathlib.Algebra.Order.Ring.Nat
import Mathlib.Algebra.Ring.Nat
import Mathlib.Tactic.Linarith
/-!
# Facts about the layout of C types, by induction over all types
-/
namespace Cglm.Layout

/-- a power of two -/
def Pow2 (a : Nat) : Prop := ∃ k, a = 2 ^ k

theorem Pow2.max {a b : Nat} (ha : Pow2 a) (hb : Pow2 b) : Pow2 (max a b) := by
  rcases le_total a b with h | h
  · rwa [max_eq_right h]
  · rwa [max_eq_left h]

theorem Pow2.dvd {a b : Nat} (ha : Pow2 a) (hb : Pow2 b) (h : a ≤ b) : a ∣ b := by
  obtain ⟨k, rfl⟩ := ha
  obtain ⟨l, rfl⟩ := hb
  exact Nat.pow_dvd_pow 2 ((Nat.pow_le_pow_iff_right (by norm_num)).mp h)

theorem Pow2.pos {a : Nat} (h : Pow2 a) : 0 < a := by obtain ⟨k, rfl⟩ := h; positivity

theorem dvd_roundUp (n a : Nat) : a ∣ roundUp n a := ⟨_, Nat.mul_comm _ _⟩

theorem le_roundUp {a : Nat} (n : Nat) (h : 0 < a) : n ≤ roundUp n a := by
  unfold roundUp
  have h1 := Nat.div_add_mod (n + a - 1) a
  have h2 := Nat.mod_lt (n + a - 1) h
  rw [Nat.mul_comm] at h1
  omega

mutual
/-- the type can be declared: alignments are powers of two, and the size of a type with an alignment attribute is a multiple of the
alignment (otherwise its arrays are rejected) -/
def CTy.Ok : CTy → Prop
  | .scalar _ => True
  | .arr _ t => t.Ok
  | .struct fs => fs.Ok
  | .union fs => fs.Ok
  | .alignedTypedef a t => Pow2 a ∧ t.Ok ∧ a ∣ t.size
  | .alignedUnion a fs => Pow2 a ∧ fs.Ok
/-- the types of all members can be declared -/
def Members.Ok : Members → Prop
  | .nil => True
  | .cons _ t r => t.Ok ∧ r.Ok
end

mutual
theorem CTy.Ok.pow2 : {t : CTy} → t.Ok → Pow2 t.align
  | .scalar _, _ => ⟨2, rfl⟩
  | .arr _ t, h => CTy.Ok.pow2 (t := t) h
  | .struct fs, h => Members.Ok.pow2 (fs := fs) h
  | .union fs, h => Members.Ok.pow2 (fs := fs) h
  | .alignedTypedef _ t, h => h.1.max (CTy.Ok.pow2 (t := t) h.2.1)
  | .alignedUnion _ fs, h => h.1.max (Members.Ok.pow2 (fs := fs) h.2)
theorem Members.Ok.pow2 : {fs : Members} → fs.Ok → Pow2 fs.align
  | .nil, _ => ⟨0, rfl⟩
  | .cons _ t r, h => (CTy.Ok.pow2 (t := t) h.1).max (Members.Ok.pow2 (fs := r) h.2)
end

/-- the size is a multiple of the alignment, so that arrays keep their elements aligned -/
theorem CTy.Ok.dvd_size : {t : CTy} → t.Ok → t.align ∣ t.size
  | .scalar _, _ => ⟨1, rfl⟩
  | .arr _ t, h => Dvd.dvd.mul_left (CTy.Ok.dvd_size (t := t) h) _
  | .struct _, _ => dvd_roundUp _ _
  | .union _, _ => dvd_roundUp _ _
  | .alignedTypedef a t, h => by
    show max a t.align ∣ t.size
    rcases le_total a t.align with k | k
    · rw [max_eq_right k]; exact CTy.Ok.dvd_size h.2.1
    · rw [max_eq_left k]; exact h.2.2
  | .alignedUnion _ _, _ => dvd_roundUp _ _

/-- a part found at offset `o` of an object: it can be declared, lies inside, and is aligned when the object is -/
structure Inside (o : Nat) (u : CTy) (lo size align : Nat) : Prop where
  ok : u.Ok
  first : lo ≤ o
  last : o + u.size ≤ size
  place : u.align ∣ o
  whole : u.align ∣ align

theorem endAt_le : (fs : Members) → fs.Ok → (o : Nat) → o ≤ fs.endAt o
  | .nil, _, _ => le_rfl
  | .cons _ t r, h, o => by
    have h1 := le_roundUp o h.1.pow2.pos
    have h2 := endAt_le r h.2 (roundUp o t.align + t.size)
    show o ≤ r.endAt (roundUp o t.align + t.size)
    omega

mutual
theorem CTy.Ok.step : {t : CTy} → t.Ok → {s : Sel} → {o : Nat} → {u : CTy} → t.step s = some (o, u) → Inside o u 0 t.size t.align
  | .scalar _, _, s, o, u, e => by simp [CTy.step] at e
  | .arr n t, h, s, o, u, e => by
    cases s with
    | field f => simp [CTy.step] at e
    | index i =>
      simp only [CTy.step] at e
      split at e
      · next hi =>
        cases e
        refine ⟨h, Nat.zero_le _, ?_, Dvd.dvd.mul_left (CTy.Ok.dvd_size (t := t) h) _, dvd_rfl⟩
        show i * t.size + t.size ≤ n * t.size
        have := Nat.mul_le_mul_right t.size (show i + 1 ≤ n from hi)
        linarith [Nat.add_mul i 1 t.size]
      · cases e
  | .struct fs, h, s, o, u, e => by
    cases s with
    | index i => simp [CTy.step] at e
    | field f =>
      simp only [CTy.step] at e
      obtain ⟨h1, h2, h3, h4, h5⟩ := Members.Ok.inStruct (fs := fs) h 0 e
      exact ⟨h1, h2, h3.trans (le_roundUp _ (Members.Ok.pow2 h).pos), h4, h5⟩
  | .union fs, h, s, o, u, e => by
    cases s with
    | index i => simp [CTy.step] at e
    | field f =>
      simp only [CTy.step] at e
      obtain ⟨h1, h2, h3, h4, h5⟩ := Members.Ok.inUnion (fs := fs) h e
      exact ⟨h1, h2, h3.trans (le_roundUp _ (Members.Ok.pow2 h).pos), h4, h5⟩
  | .alignedTypedef a t, h, s, o, u, e => by
    simp only [CTy.step] at e
    obtain ⟨h1, h2, h3, h4, h5⟩ := CTy.Ok.step (t := t) h.2.1 e
    exact ⟨h1, h2, h3, h4, h5.trans ((CTy.Ok.pow2 h.2.1).dvd (h.1.max (CTy.Ok.pow2 h.2.1)) (le_max_right _ _))⟩
  | .alignedUnion a fs, h, s, o, u, e => by
    cases s with
    | index i => simp [CTy.step] at e
    | field f =>
      simp only [CTy.step] at e
      obtain ⟨h1, h2, h3, h4, h5⟩ := Members.Ok.inUnion (fs := fs) h.2 e
      have hp := h.1.max (Members.Ok.pow2 h.2)
      exact ⟨h1, h2, h3.trans (le_roundUp _ hp.pos), h4, h5.trans ((Members.Ok.pow2 h.2).dvd hp (le_max_right _ _))⟩
theorem Members.Ok.inStruct : {fs : Members} → fs.Ok → {f : String} → (lo : Nat) → {o : Nat} → {u : CTy} →
    fs.inStruct f lo = some (o, u) → Inside o u lo (fs.endAt lo) fs.align
  | .nil, _, f, lo, o, u, e => by simp [Members.inStruct] at e
  | .cons g t r, h, f, lo, o, u, e => by
    have hr := le_roundUp lo (CTy.Ok.pow2 h.1).pos
    have he := endAt_le r h.2 (roundUp lo t.align + t.size)
    have pa := (CTy.Ok.pow2 h.1).max (Members.Ok.pow2 h.2)
    have dt : t.align ∣ max t.align r.align := (CTy.Ok.pow2 h.1).dvd pa (le_max_left _ _)
    have dr : r.align ∣ max t.align r.align := (Members.Ok.pow2 h.2).dvd pa (le_max_right _ _)
    simp only [Members.inStruct] at e
    show Inside o u lo (r.endAt (roundUp lo t.align + t.size)) (max t.align r.align)
    split at e
    · cases e
      exact ⟨h.1, hr, he, dvd_roundUp _ _, dt⟩
    · split at e
      · next p v hv =>
        cases e
        split at hv
        · obtain ⟨h1, h2, h3, h4, h5⟩ := CTy.Ok.step (t := t) h.1 hv
          exact ⟨h1, by omega, by omega, Nat.dvd_add (h5.trans (dvd_roundUp _ _)) h4, h5.trans dt⟩
        · cases hv
      · obtain ⟨h1, h2, h3, h4, h5⟩ := Members.Ok.inStruct (fs := r) h.2 _ e
        exact ⟨h1, by omega, h3, h4, h5.trans dr⟩
theorem Members.Ok.inUnion : {fs : Members} → fs.Ok → {f : String} → {o : Nat} → {u : CTy} →
    fs.inUnion f = some (o, u) → Inside o u 0 fs.maxSize fs.align
  | .nil, _, f, o, u, e => by simp [Members.inUnion] at e
  | .cons g t r, h, f, o, u, e => by
    have pa := (CTy.Ok.pow2 h.1).max (Members.Ok.pow2 h.2)
    have dt : t.align ∣ max t.align r.align := (CTy.Ok.pow2 h.1).dvd pa (le_max_left _ _)
    have dr : r.align ∣ max t.align r.align := (Members.Ok.pow2 h.2).dvd pa (le_max_right _ _)
    simp only [Members.inUnion] at e
    show Inside o u 0 (max t.size r.maxSize) (max t.align r.align)
    split at e
    · cases e
      exact ⟨h.1, le_rfl, by rw [Nat.zero_add]; exact le_max_left _ _, dvd_zero _, dt⟩
    · split at e
      · next x hv =>
        cases e
        split at hv
        · obtain ⟨h1, h2, h3, h4, h5⟩ := CTy.Ok.step (t := t) h.1 hv
          exact ⟨h1, h2, h3.trans (le_max_left _ _), h4, h5.trans dt⟩
        · cases hv
      · obtain ⟨h1, h2, h3, h4, h5⟩ := Members.Ok.inUnion (fs := r) h.2 e
        exact ⟨h1, h2, h3.trans (le_max_right _ _), h4, h5.trans dr⟩
end

/-- a part at the end of a path -/
theorem CTy.Ok.part : {t : CTy} → t.Ok → (p : List Sel) → {o : Nat} → {u : CTy} → t.part p = some (o, u) →
    Inside o u 0 t.size t.align
  | t, h, [], o, u, e => by cases e; exact ⟨h, le_rfl, by omega, dvd_zero _, dvd_rfl⟩
  | t, h, s :: p, o, u, e => by
    simp only [CTy.part] at e
    split at e
    · cases e
    · next o₁ v hv =>
      obtain ⟨h1, h2, h3, h4, h5⟩ := CTy.Ok.step h hv
      split at e
      · cases e
      · next o₂ w hw =>
        cases e
        obtain ⟨k1, k2, k3, k4, k5⟩ := CTy.Ok.part h1 p hw
        exact ⟨k1, Nat.zero_le _, by omega, Nat.dvd_add (k5.trans h4) k4, k5.trans h5⟩

end Cglm.Layout
