import Verif.F32Apx
import Verif.Props.C04

/-!
# C86: determinants and inverses in binary32

The error of a computed determinant is a small multiple of `u` times the permanent of the magnitudes: the determinant's own sum with
every sign plus.  When that is not too large compared with the determinant, every entry of the computed inverse is near the entry of
the true inverse.
-/

namespace Cglm
open F32

/-- the sum of a 2 x 2 determinant with every sign plus -/
def perm2 (a b c d : ℝ) : ℝ := a * d + b * c
/-- the sum of a 3 x 3 determinant with every sign plus -/
def perm3 (a b c d e f g h i : ℝ) : ℝ := a * perm2 e f h i + b * perm2 d f g i + c * perm2 d e g h
/-- the sum of the determinant with every sign plus -/
def M2.perm (m : M2 ℝ) : ℝ := perm2 m.c0.x m.c0.y m.c1.x m.c1.y
/-- the sum of the determinant with every sign plus -/
def M3.perm (m : M3 ℝ) : ℝ := perm3 m.c0.x m.c0.y m.c0.z m.c1.x m.c1.y m.c1.z m.c2.x m.c2.y m.c2.z
/-- the sum of the determinant with every sign plus -/
def M4.perm (m : M4 ℝ) : ℝ :=
  m.c0.x * perm3 m.c1.y m.c1.z m.c1.w m.c2.y m.c2.z m.c2.w m.c3.y m.c3.z m.c3.w + m.c0.y * perm3 m.c1.x m.c1.z m.c1.w m.c2.x m.c2.z m.c2.w m.c3.x m.c3.z m.c3.w +
    m.c0.z * perm3 m.c1.x m.c1.y m.c1.w m.c2.x m.c2.y m.c2.w m.c3.x m.c3.y m.c3.w + m.c0.w * perm3 m.c1.x m.c1.y m.c1.z m.c2.x m.c2.y m.c2.z m.c3.x m.c3.y m.c3.z
/-- at row `i`, column `j`: the matrix without row `j` and column `i`, its determinant's sum with every sign plus -/
def M2.minors (m : M2 ℝ) : M2 ℝ := ⟨⟨m.c1.y, m.c0.y⟩, ⟨m.c1.x, m.c0.x⟩⟩
/-- at row `i`, column `j`: the matrix without row `j` and column `i`, its determinant's sum with every sign plus -/
def M3.minors (m : M3 ℝ) : M3 ℝ :=
  ⟨⟨perm2 m.c1.y m.c1.z m.c2.y m.c2.z, perm2 m.c0.y m.c0.z m.c2.y m.c2.z, perm2 m.c0.y m.c0.z m.c1.y m.c1.z⟩,
    ⟨perm2 m.c1.x m.c1.z m.c2.x m.c2.z, perm2 m.c0.x m.c0.z m.c2.x m.c2.z, perm2 m.c0.x m.c0.z m.c1.x m.c1.z⟩,
    ⟨perm2 m.c1.x m.c1.y m.c2.x m.c2.y, perm2 m.c0.x m.c0.y m.c2.x m.c2.y, perm2 m.c0.x m.c0.y m.c1.x m.c1.y⟩⟩
/-- at row `i`, column `j`: the matrix without row `j` and column `i`, its determinant's sum with every sign plus -/
def M4.minors (m : M4 ℝ) : M4 ℝ :=
  ⟨⟨perm3 m.c1.y m.c1.z m.c1.w m.c2.y m.c2.z m.c2.w m.c3.y m.c3.z m.c3.w, perm3 m.c0.y m.c0.z m.c0.w m.c2.y m.c2.z m.c2.w m.c3.y m.c3.z m.c3.w, perm3 m.c0.y m.c0.z m.c0.w m.c1.y m.c1.z m.c1.w m.c3.y m.c3.z m.c3.w, perm3 m.c0.y m.c0.z m.c0.w m.c1.y m.c1.z m.c1.w m.c2.y m.c2.z m.c2.w⟩,
    ⟨perm3 m.c1.x m.c1.z m.c1.w m.c2.x m.c2.z m.c2.w m.c3.x m.c3.z m.c3.w, perm3 m.c0.x m.c0.z m.c0.w m.c2.x m.c2.z m.c2.w m.c3.x m.c3.z m.c3.w, perm3 m.c0.x m.c0.z m.c0.w m.c1.x m.c1.z m.c1.w m.c3.x m.c3.z m.c3.w, perm3 m.c0.x m.c0.z m.c0.w m.c1.x m.c1.z m.c1.w m.c2.x m.c2.z m.c2.w⟩,
    ⟨perm3 m.c1.x m.c1.y m.c1.w m.c2.x m.c2.y m.c2.w m.c3.x m.c3.y m.c3.w, perm3 m.c0.x m.c0.y m.c0.w m.c2.x m.c2.y m.c2.w m.c3.x m.c3.y m.c3.w, perm3 m.c0.x m.c0.y m.c0.w m.c1.x m.c1.y m.c1.w m.c3.x m.c3.y m.c3.w, perm3 m.c0.x m.c0.y m.c0.w m.c1.x m.c1.y m.c1.w m.c2.x m.c2.y m.c2.w⟩,
    ⟨perm3 m.c1.x m.c1.y m.c1.z m.c2.x m.c2.y m.c2.z m.c3.x m.c3.y m.c3.z, perm3 m.c0.x m.c0.y m.c0.z m.c2.x m.c2.y m.c2.z m.c3.x m.c3.y m.c3.z, perm3 m.c0.x m.c0.y m.c0.z m.c1.x m.c1.y m.c1.z m.c3.x m.c3.y m.c3.z, perm3 m.c0.x m.c0.y m.c0.z m.c1.x m.c1.y m.c1.z m.c2.x m.c2.y m.c2.z⟩⟩

/-- near the number `x` of an inverse matrix: `P` and `D` are the permanent and the determinant, `k` the permanent of the minor -/
def InvNear (P D : ℝ) (f : F32) (x k : ℝ) : Prop := f.isFin = true ∧ |f.toReal - x| ≤ 42 * ur * (P / |D|) * (k / |D|) + 1 / 2 ^ 60
/-- the same for every entry -/
def V2.InvNear (P D : ℝ) (f : V2 F32) (x k : V2 ℝ) : Prop := Cglm.InvNear P D f.x x.x k.x ∧ Cglm.InvNear P D f.y x.y k.y
/-- the same for every entry -/
def M2.InvNear (P D : ℝ) (f : M2 F32) (x k : M2 ℝ) : Prop := f.c0.InvNear P D x.c0 k.c0 ∧ f.c1.InvNear P D x.c1 k.c1
/-- the same for every entry -/
def V3.InvNear (P D : ℝ) (f : V3 F32) (x k : V3 ℝ) : Prop := Cglm.InvNear P D f.x x.x k.x ∧ Cglm.InvNear P D f.y x.y k.y ∧ Cglm.InvNear P D f.z x.z k.z
/-- the same for every entry -/
def M3.InvNear (P D : ℝ) (f : M3 F32) (x k : M3 ℝ) : Prop := f.c0.InvNear P D x.c0 k.c0 ∧ f.c1.InvNear P D x.c1 k.c1 ∧ f.c2.InvNear P D x.c2 k.c2
/-- the same for every entry -/
def V4.InvNear (P D : ℝ) (f : V4 F32) (x k : V4 ℝ) : Prop := Cglm.InvNear P D f.x x.x k.x ∧ Cglm.InvNear P D f.y x.y k.y ∧ Cglm.InvNear P D f.z x.z k.z ∧ Cglm.InvNear P D f.w x.w k.w
/-- the same for every entry -/
def M4.InvNear (P D : ℝ) (f : M4 F32) (x k : M4 ℝ) : Prop := f.c0.InvNear P D x.c0 k.c0 ∧ f.c1.InvNear P D x.c1 k.c1 ∧ f.c2.InvNear P D x.c2 k.c2 ∧ f.c3.InvNear P D x.c3 k.c3

namespace F32.Apx
theorem flat {f : F32} {x M A c : ℝ} {k : ℕ} (h : Apx f x M k A c) (hk : k ≤ 10) (hc : c ≤ 2 ^ 64) : |f.toReal - x| ≤ 21 / 2 * ur * M + 1 / 2 ^ 85 := by
  refine (h.bound 10 M rfl hk (by norm_num) le_rfl (E := 21 / 2 * ur * M + 1 / 2 ^ 85) ?_).2
  have h1 : c * ηr ≤ 2 ^ 64 * ηr := mul_le_mul_of_nonneg_right hc (by norm_num [ηr])
  have h2 : (2 : ℝ) ^ 64 * ηr ≤ 1 / 2 ^ 85 := by norm_num [ηr]
  have := mul_nonneg ur_pos.le h.M0
  push_cast
  nlinarith
end F32.Apx

variable [Libm]

/-- the reciprocal of a determinant -/
private theorem recip {n : F32} {N ε : ℝ} (hn : n.isFin = true) (hN : 1 / 2 ^ 20 ≤ |N|) (he : ε ≤ 1 / 4) (h : |n.toReal - N| ≤ ε * |N|) :
    ((lit 1 : F32) / n).isFin = true ∧ |((lit 1 : F32) / n).toReal - 1 / N| ≤ (4 / 3 * ε + 4 / 3 * ur) * |1 / N| + ηr := by
  have hu : ur = 1 / 2 ^ 24 := rfl
  have Np : 0 < |N| := lt_of_lt_of_le (by norm_num) hN
  have N0 : N ≠ 0 := abs_pos.mp Np
  have n1 : 3 / 4 * |N| ≤ |n.toReal| := by
    have := abs_sub_abs_le_abs_sub N n.toReal
    rw [abs_sub_comm] at this
    nlinarith
  have np : 0 < |n.toReal| := lt_of_lt_of_le (by positivity) n1
  have n0 : n.toReal ≠ 0 := abs_pos.mp np
  have nv : n.val ≠ 0 := by intro h0; apply n0; unfold toReal; rw [h0]; simp
  obtain ⟨o1, o2⟩ := toReal_lit_one
  have e' : |((rnd ((lit 1 : F32).val / n.val) : ℚ) : ℝ) - 1 / n.toReal| ≤ ur * |1 / n.toReal| + ηr := by
    rw [← o2]; unfold toReal; rw [ur_eq, ηr_eq]; exact_mod_cast rnd_err ((lit 1 : F32).val / n.val)
  have i1 : |1 / n.toReal| ≤ 4 / 3 * |1 / N| := by
    rw [abs_div, abs_div, abs_one, mul_div_assoc', div_le_div_iff₀ np Np]; linarith
  have i2 : |1 / n.toReal - 1 / N| ≤ 4 / 3 * ε * |1 / N| := by
    rw [div_sub_div _ _ n0 N0, abs_div, abs_div, abs_one, abs_mul, one_mul, mul_one, mul_div_assoc', mul_one, div_le_div_iff₀ (by positivity) Np, abs_sub_comm]
    have e0 : 0 ≤ ε := by
      by_contra hc
      push Not at hc
      have := (abs_nonneg _).trans h
      nlinarith
    calc |n.toReal - N| * |N| ≤ ε * |N| * |N| := mul_le_mul_of_nonneg_right h Np.le
      _ = 4 / 3 * ε * (3 / 4 * |N| * |N|) := by ring
      _ ≤ 4 / 3 * ε * (|n.toReal| * |N|) := mul_le_mul_of_nonneg_left (mul_le_mul_of_nonneg_right n1 Np.le) (by positivity)
  have key : |((rnd ((lit 1 : F32).val / n.val) : ℚ) : ℝ) - 1 / N| ≤ (4 / 3 * ε + 4 / 3 * ur) * |1 / N| + ηr := by
    have t := abs_sub_le ((rnd ((lit 1 : F32).val / n.val) : ℚ) : ℝ) (1 / n.toReal) (1 / N)
    have := mul_le_mul_of_nonneg_left i1 ur_pos.le
    linarith
  have iN : |1 / N| ≤ 2 ^ 20 := by
    rw [abs_div, abs_one, div_le_iff₀ Np]
    have := mul_le_mul_of_nonneg_left hN (show (0 : ℝ) ≤ 2 ^ 20 by norm_num)
    norm_num at this ⊢
    linarith
  have hfin : ((lit 1 : F32) / n).isFin = true := by
    refine ((div_fin o1 hn nv).1).mpr (abs_rnd_toReal _ (B := 2 ^ 22) ?_ (by norm_num))
    have t := abs_add_le (((rnd ((lit 1 : F32).val / n.val) : ℚ) : ℝ) - 1 / n.toReal) (1 / n.toReal)
    rw [sub_add_cancel] at t
    have u1 : ur ≤ 1 / 100 := by norm_num [ur]
    have η1 : ηr ≤ 1 := by norm_num [ηr]
    have := mul_le_mul_of_nonneg_right u1 (abs_nonneg (1 / n.toReal))
    norm_num at iN i1 t e' this ⊢
    linarith
  refine ⟨hfin, ?_⟩
  rw [show ((lit 1 : F32) / n).toReal = ((rnd ((lit 1 : F32).val / n.val) : ℚ) : ℝ) by unfold toReal; rw [div_val hn hfin]]
  exact key

omit [Libm] in
/-- a cofactor times the reciprocal of the determinant -/
private theorem entry {f r : F32} {C M A c R ρ D P : ℝ} {k : ℕ} (hf : Apx f C M k A c) (hk : k ≤ 10) (hA : A ≤ 2 ^ 64) (hc : c ≤ 2 ^ 64) (hr : r.isFin = true)
    (hR : |r.toReal - R| ≤ ρ * |R| + ηr) (hD : |R| = 1 / |D|) (hD1 : |R| ≤ 2 ^ 20) (hρ : ρ ≤ 1 / 2) (hP : ρ + 25 * ur ≤ 42 * ur * (P / |D|)) :
    InvNear P D (f * r) (C * R) M ∧ InvNear P D (r * f) (R * C) M := by
  have u0 := ur_pos
  have M0 := hf.M0
  have M1 : M ≤ 2 ^ 64 := hf.le.trans hA
  have fe := hf.flat hk hc
  have R0 := abs_nonneg R
  have rm : |r.toReal| ≤ 3 / 2 * |R| + ηr := by
    have := abs_add_le (r.toReal - R) R
    rw [sub_add_cancel] at this
    nlinarith
  have fm : |f.toReal| ≤ 21 / 20 * M + 1 / 2 ^ 85 := by
    have t := abs_add_le (f.toReal - C) C
    rw [sub_add_cancel] at t
    have := hf.mag
    have : 21 / 2 * ur * M ≤ 1 / 20 * M := mul_le_mul_of_nonneg_right (by norm_num [ur]) M0
    linarith
  have rb : |r.toReal| ≤ 2 ^ 21 := by
    have : ηr ≤ 1 := by norm_num [ηr]
    norm_num at hD1 ⊢; linarith
  have fb : |f.toReal| ≤ 2 ^ 65 := by norm_num at M1 fm ⊢; linarith
  have F : Fine (f * r) (2 ^ 65 * 2 ^ 21 * (1 + ur) + ηr) := Fine.mul ⟨hf.fin, fb⟩ ⟨hr, rb⟩ (by norm_num [ur, ηr])
  have e := mul_err F.1
  have p1 : |f.toReal * r.toReal - C * R| ≤ M * (ρ * |R| + ηr) + (21 / 2 * ur * M + 1 / 2 ^ 85) * (3 / 2 * |R| + ηr) := by
    rw [show f.toReal * r.toReal - C * R = C * (r.toReal - R) + (f.toReal - C) * r.toReal by ring]
    refine (abs_add_le _ _).trans (add_le_add ?_ ?_)
    · rw [abs_mul]; exact mul_le_mul hf.mag hR (abs_nonneg _) M0
    · rw [abs_mul]; exact mul_le_mul fe rm (abs_nonneg _) ((abs_nonneg _).trans fe)
  have p2 : |f.toReal * r.toReal| ≤ (21 / 20 * M + 1 / 2 ^ 85) * (3 / 2 * |R| + ηr) := by
    rw [abs_mul]; exact mul_le_mul fm rm (abs_nonneg _) ((abs_nonneg _).trans fm)
  have key : |(f * r).toReal - C * R| ≤ 42 * ur * (P / |D|) * (M / |D|) + 1 / 2 ^ 60 := by
    have t := abs_sub_le (f * r).toReal (f.toReal * r.toReal) (C * R)
    have h1 : ur * |f.toReal * r.toReal| ≤ ur * ((21 / 20 * M + 1 / 2 ^ 85) * (3 / 2 * |R| + ηr)) := mul_le_mul_of_nonneg_left p2 u0.le
    have h2 : (ρ + 25 * ur) * (M * |R|) ≤ 42 * ur * (P / |D|) * (M * |R|) := mul_le_mul_of_nonneg_right hP (by positivity)
    have h3 : M / |D| = M * |R| := by rw [hD]; ring
    rw [h3]
    have η0 : 0 ≤ ηr := by norm_num [ηr]
    have m1 : M * ηr ≤ 2 ^ 64 * ηr := mul_le_mul_of_nonneg_right M1 η0
    have m2 : (1 / 2 ^ 85 : ℝ) * |R| ≤ 1 / 2 ^ 85 * 2 ^ 20 := mul_le_mul_of_nonneg_left hD1 (by norm_num)
    have g0 : 0 ≤ M * ηr := mul_nonneg M0 η0
    have g1 : 0 ≤ ur * (M * |R|) := mul_nonneg u0.le (mul_nonneg M0 R0)
    have g2 : (0 : ℝ) ≤ 1 / 2 ^ 85 * |R| := mul_nonneg (by norm_num) R0
    have m3 : ur * (M * ηr) ≤ 1 * (M * ηr) := mul_le_mul_of_nonneg_right (by norm_num [ur]) g0
    have m4 : ur * (1 / 2 ^ 85 * |R|) ≤ 1 * (1 / 2 ^ 85 * |R|) := mul_le_mul_of_nonneg_right (by norm_num [ur]) g2
    have n1 : (2 : ℝ) ^ 64 * ηr ≤ 1 / 2 ^ 84 := by norm_num [ηr]
    have n2 : ηr ≤ 1 / 2 ^ 84 := by norm_num [ηr]
    have n3 : ur * ηr ≤ 1 / 2 ^ 84 := by norm_num [ur, ηr]
    have n4 : (1 : ℝ) / 2 ^ 85 * 2 ^ 20 ≤ 1 / 2 ^ 65 := by norm_num
    have i1 : M * (ρ * |R| + ηr) + (21 / 2 * ur * M + 1 / 2 ^ 85) * (3 / 2 * |R| + ηr) =
        ρ * (M * |R|) + M * ηr + 63 / 4 * (ur * (M * |R|)) + 21 / 2 * (ur * (M * ηr)) + 3 / 2 * (1 / 2 ^ 85 * |R|) + 1 / 2 ^ 85 * ηr := by ring
    have i2 : ur * ((21 / 20 * M + 1 / 2 ^ 85) * (3 / 2 * |R| + ηr)) =
        63 / 40 * (ur * (M * |R|)) + 21 / 20 * (ur * (M * ηr)) + 3 / 2 * (ur * (1 / 2 ^ 85 * |R|)) + 1 / 2 ^ 85 * (ur * ηr) := by ring
    have i3 : (ρ + 25 * ur) * (M * |R|) = ρ * (M * |R|) + 25 * (ur * (M * |R|)) := by ring
    rw [i1] at p1
    rw [i2] at h1
    rw [i3] at h2
    generalize 42 * ur * (P / |D|) * (M * |R|) = Z at *
    generalize (1 : ℝ) / 2 ^ 85 * |R| = Y at *
    generalize ur * (M * |R|) = V at *
    generalize ρ * (M * |R|) = W at *
    generalize ur * (M * ηr) = X' at *
    generalize M * ηr = X at *
    generalize ur * Y = Y' at *
    generalize ur * ηr = U at *
    norm_num at *
    linarith
  refine ⟨⟨F.1, key⟩, ?_⟩
  rw [F32.mul_comm' r, _root_.mul_comm R]
  exact ⟨F.1, key⟩

omit [Libm] in
private theorem InvNear.cast {P D : ℝ} {f : F32} {x k k' : ℝ} (h : InvNear P D f x k) (e : k = k') : InvNear P D f x k' := e ▸ h

omit [Libm] in
private theorem sign_of {n D : ℝ} (h : |n - D| < |D|) : (0 < n ↔ 0 < D) ∧ (n < 0 ↔ D < 0) := by
  have h1 := abs_lt.mp h
  rcases le_total 0 D with d | d
  · rw [abs_of_nonneg d] at h1; exact ⟨⟨fun _ => by linarith, fun _ => by linarith⟩, ⟨fun _ => by linarith, fun _ => by linarith⟩⟩
  · rw [abs_of_nonpos d] at h1; exact ⟨⟨fun _ => by linarith, fun _ => by linarith⟩, ⟨fun _ => by linarith, fun _ => by linarith⟩⟩

omit [Libm] in
private theorem pack {f : F32} {x M P A c : ℝ} {k : ℕ} (h : Apx f x M k A c) (hk : k ≤ 10) (hc : c ≤ 2 ^ 64) (hM : M = P) :
    ∃ K M A C, Apx f x M K A C ∧ K ≤ 10 ∧ C ≤ 2 ^ 64 ∧ M = P := ⟨k, M, A, c, h, hk, hc, hM⟩

omit [Libm] in
private theorem entryL {f r : F32} {C M M' A c R ρ D P : ℝ} {k : ℕ} (hr : r.isFin = true)
    (hR : |r.toReal - R| ≤ ρ * |R| + ηr) (hD : |R| = 1 / |D|) (hD1 : |R| ≤ 2 ^ 20) (hρ : ρ ≤ 1 / 2) (hP : ρ + 25 * ur ≤ 42 * ur * (P / |D|))
    (hf : Apx f C M k A c) (hk : k ≤ 10) (hA : A ≤ 2 ^ 64) (hc : c ≤ 2 ^ 64) (hM : M = M') : InvNear P D (f * r) (C * R) M' :=
  (entry hf hk hA hc hr hR hD hD1 hρ hP).1.cast hM

omit [Libm] in
private theorem entryR {f r : F32} {C M M' A c R ρ D P : ℝ} {k : ℕ} (hr : r.isFin = true)
    (hR : |r.toReal - R| ≤ ρ * |R| + ηr) (hD : |R| = 1 / |D|) (hD1 : |R| ≤ 2 ^ 20) (hρ : ρ ≤ 1 / 2) (hP : ρ + 25 * ur ≤ 42 * ur * (P / |D|))
    (hf : Apx f C M k A c) (hk : k ≤ 10) (hA : A ≤ 2 ^ 64) (hc : c ≤ 2 ^ 64) (hM : M = M') : InvNear P D (r * f) (R * C) M' :=
  (entry hf hk hA hc hr hR hD hD1 hρ hP).2.cast hM

omit [Libm] in
private theorem det_of {n : F32} {D M P A c : ℝ} {k : ℕ} (h : Apx n D M k A c) (hk : k ≤ 10) (hc : c ≤ 2 ^ 64) (hM : M = P) (hD : 1 / 2 ^ 20 ≤ |D|) :
    |n.toReal - D| ≤ 11 * ur * P := by
  subst hM
  have := h.flat hk hc
  have m := mul_le_mul_of_nonneg_left (hD.trans h.mag) ur_pos.le
  have : ur * (1 / 2 ^ 20) = 1 / 2 ^ 44 := by norm_num [ur]
  norm_num at *
  linarith

/-- the reciprocal of the determinant, from the determinant -/
private theorem setup {n : F32} {D M P A c : ℝ} {k : ℕ} (h : Apx n D M k A c) (hk : k ≤ 10) (hc : c ≤ 2 ^ 64) (hM : M = P) (hD : 1 / 2 ^ 20 ≤ |D|)
    (hP : P ≤ 2 ^ 18 * |D|) : ∃ ρ : ℝ, ((lit 1 : F32) / n).isFin = true ∧ |((lit 1 : F32) / n).toReal - 1 / D| ≤ ρ * |1 / D| + ηr ∧ |1 / D| = 1 / |D| ∧
      |1 / D| ≤ 2 ^ 20 ∧ ρ ≤ 1 / 2 ∧ ρ + 25 * ur ≤ 42 * ur * (P / |D|) := by
  have e := det_of h hk hc hM hD
  subst hM
  have Dp : 0 < |D| := lt_of_lt_of_le (by norm_num) hD
  have q1 : 1 ≤ M / |D| := by rw [le_div_iff₀ Dp, one_mul]; exact h.mag
  have q2 : M / |D| ≤ 2 ^ 18 := by rw [div_le_iff₀ Dp]; exact hP
  have e1 : |n.toReal - D| ≤ 11 * ur * (M / |D|) * |D| := by rw [mul_assoc, div_mul_cancel₀ _ Dp.ne']; exact e
  have u1 : ur * (M / |D|) ≤ ur * 2 ^ 18 := mul_le_mul_of_nonneg_left q2 ur_pos.le
  have u2 : ur * 1 ≤ ur * (M / |D|) := mul_le_mul_of_nonneg_left q1 ur_pos.le
  have u3 : ur * 2 ^ 18 = 1 / 64 := by norm_num [ur]
  have u4 : ur ≤ 1 / 100 := by norm_num [ur]
  obtain ⟨r1, r2⟩ := recip h.fin hD (by linarith) e1
  refine ⟨_, r1, r2, by rw [abs_div, abs_one], ?_, by linarith, by linarith⟩
  rw [abs_div, abs_one, div_le_iff₀ Dp]
  norm_num at hD ⊢
  linarith

omit [Libm] in
private theorem neg_bound {r : F32} {R ρ : ℝ} (h : |r.toReal - R| ≤ ρ * |R| + ηr) : |(-r).toReal - -R| ≤ ρ * |-R| + ηr := by
  rw [toReal_neg, show -r.toReal - -R = -(r.toReal - R) by ring, abs_neg, abs_neg]; exact h

omit [Libm] in
private theorem det2_apx {a b c d : F32} (hm : M2.Below ⟨⟨a, b⟩, ⟨c, d⟩⟩ (2 ^ 20)) :
    ∃ K M A C, Apx (glm_mat2_det (⟨⟨a, b⟩, ⟨c, d⟩⟩ : M2 F32)) (glm_mat2_det (M2.map toReal ⟨⟨a, b⟩, ⟨c, d⟩⟩)) M K A C ∧ K ≤ 10 ∧ C ≤ 2 ^ 64 ∧ M = (M2.map mag ⟨⟨a, b⟩, ⟨c, d⟩⟩).perm := by
  obtain ⟨⟨ha, hb⟩, ⟨hc, hd⟩⟩ := hm
  replace ha : Apx a a.toReal |a.toReal| 0 (2 ^ 20) 0 := Apx.var ha
  replace hb : Apx b b.toReal |b.toReal| 0 (2 ^ 20) 0 := Apx.var hb
  replace hc : Apx c c.toReal |c.toReal| 0 (2 ^ 20) 0 := Apx.var hc
  replace hd : Apx d d.toReal |d.toReal| 0 (2 ^ 20) 0 := Apx.var hd
  simp only [glm_mat2_det, M2.perm, M2.map, V2.map, mag, perm2]
  apply pack
  · apx <;> norm_num
  · norm_num
  · norm_num
  · ring

omit [Libm] in
/-- the computed determinant is within `11 * u` times the permanent of the magnitudes -/
theorem C86_mat2_det (m : M2 F32) (hm : m.Below (2 ^ 20)) (hD : 1 / 2 ^ 20 ≤ |(m.map toReal).mat.det|) :
    (glm_mat2_det m).isFin = true ∧ |(glm_mat2_det m).toReal - (m.map toReal).mat.det| ≤ 11 * ur * (m.map mag).perm := by
  rw [← C03_mat2_det] at hD ⊢
  obtain ⟨K, M, A, C, h1, h2, h3, h4⟩ := det2_apx hm
  exact ⟨h1.fin, det_of h1 h2 h3 h4 hD⟩

omit [Libm] in
private theorem den2 {a b c d : F32} (hm : M2.Below ⟨⟨a, b⟩, ⟨c, d⟩⟩ (2 ^ 20)) :
    ∃ K M A C, Apx (a * d - b * c) (a.toReal * d.toReal - b.toReal * c.toReal) M K A C ∧ K ≤ 10 ∧ C ≤ 2 ^ 64 ∧ M = (M2.map mag ⟨⟨a, b⟩, ⟨c, d⟩⟩).perm := by
  obtain ⟨⟨ha, hb⟩, ⟨hc, hd⟩⟩ := hm
  replace ha : Apx a a.toReal |a.toReal| 0 (2 ^ 20) 0 := Apx.var ha
  replace hb : Apx b b.toReal |b.toReal| 0 (2 ^ 20) 0 := Apx.var hb
  replace hc : Apx c c.toReal |c.toReal| 0 (2 ^ 20) 0 := Apx.var hc
  replace hd : Apx d d.toReal |d.toReal| 0 (2 ^ 20) 0 := Apx.var hd
  simp only [M2.perm, M2.map, V2.map, mag, perm2]
  apply pack
  · apx <;> norm_num
  · norm_num
  · norm_num
  · ring

omit [Libm] in
/-- when the determinant is not too small, its computed sign is right -/
theorem C86_mat2_det_sign (m : M2 F32) (hm : m.Below (2 ^ 20)) (hD : 1 / 2 ^ 20 ≤ |(m.map toReal).mat.det|)
    (hP : 11 * ur * (m.map mag).perm < |(m.map toReal).mat.det|) :
    (0 < (glm_mat2_det m).toReal ↔ 0 < (m.map toReal).mat.det) ∧ ((glm_mat2_det m).toReal < 0 ↔ (m.map toReal).mat.det < 0) :=
  sign_of ((C86_mat2_det m hm hD).2.trans_lt hP)

/-- every entry of the computed inverse is near the entry of the true inverse -/
theorem C86_mat2_inv (m : M2 F32) (X : M2 ℝ) (hX : (m.map toReal).mat * X.mat = 1) (hm : m.Below (2 ^ 20))
    (hD : 1 / 2 ^ 20 ≤ |(m.map toReal).mat.det|) (hP : (m.map mag).perm ≤ 2 ^ 18 * |(m.map toReal).mat.det|) :
    (glm_mat2_inv m).InvNear (m.map mag).perm (m.map toReal).mat.det X (m.map mag).minors := by
  have d0 : (m.map toReal).mat.det ≠ 0 := abs_pos.mp (lt_of_lt_of_le (by norm_num) hD)
  have hX' : X = glm_mat2_inv (m.map toReal) := by
    rw [← M2.mat_inj, ← Matrix.inv_eq_right_inv hX, ← Matrix.inv_eq_right_inv (C04_mat2_inv _ d0).1]
  subst hX'
  obtain ⟨⟨a, b⟩, ⟨c, d⟩⟩ := m
  have hdet : (M2.map toReal ⟨⟨a, b⟩, ⟨c, d⟩⟩).mat.det = (a.toReal * d.toReal - b.toReal * c.toReal) := by
    rw [← C03_mat2_det]; simp only [glm_mat2_det, M2.map, V2.map]; ring
  rw [hdet] at hD hP ⊢
  obtain ⟨K, M, A, C, h1, h2, h3, h4⟩ := den2 hm
  obtain ⟨ρ, r1, r2, r3, r4, r5, r6⟩ := setup h1 h2 h3 h4 hD hP
  have s1 := (neg_isFin _).trans r1
  have s2 := neg_bound r2
  have s3 := (abs_neg _).trans r3
  have s4 := (abs_neg _).trans_le r4
  generalize M2.perm _ = P at *
  obtain ⟨⟨ha, hb⟩, ⟨hc, hd⟩⟩ := hm
  replace ha : Apx a a.toReal |a.toReal| 0 (2 ^ 20) 0 := Apx.var ha
  replace hb : Apx b b.toReal |b.toReal| 0 (2 ^ 20) 0 := Apx.var hb
  replace hc : Apx c c.toReal |c.toReal| 0 (2 ^ 20) 0 := Apx.var hc
  replace hd : Apx d d.toReal |d.toReal| 0 (2 ^ 20) 0 := Apx.var hd
  simp only [glm_mat2_inv, M2.InvNear, V2.InvNear, M2.minors, M2.map, V2.map, mag, lit_one]
  generalize (lit 1 : F32) / _ = r at *
  generalize 1 / (a.toReal * d.toReal - b.toReal * c.toReal) = R at *
  generalize (a.toReal * d.toReal - b.toReal * c.toReal) = D at *
  clear h1
  refine ⟨⟨?_, ?_⟩, ⟨?_, ?_⟩⟩
  all_goals
    first
    | apply entryL r1 r2 r3 r4 r5 r6
    | apply entryR r1 r2 r3 r4 r5 r6
    | apply entryL s1 s2 s3 s4 r5 r6
    | apply entryR s1 s2 s3 s4 r5 r6
    · apx <;> norm_num
    · norm_num
    · norm_num
    · norm_num
    · ring

omit [Libm] in
private theorem det3_apx {a b c d e f g h i : F32} (hm : M3.Below ⟨⟨a, b, c⟩, ⟨d, e, f⟩, ⟨g, h, i⟩⟩ (2 ^ 20)) :
    ∃ K M A C, Apx (glm_mat3_det (⟨⟨a, b, c⟩, ⟨d, e, f⟩, ⟨g, h, i⟩⟩ : M3 F32)) (glm_mat3_det (M3.map toReal ⟨⟨a, b, c⟩, ⟨d, e, f⟩, ⟨g, h, i⟩⟩)) M K A C ∧ K ≤ 10 ∧ C ≤ 2 ^ 64 ∧ M = (M3.map mag ⟨⟨a, b, c⟩, ⟨d, e, f⟩, ⟨g, h, i⟩⟩).perm := by
  obtain ⟨⟨ha, hb, hc⟩, ⟨hd, he, hf⟩, ⟨hg, hh, hi⟩⟩ := hm
  replace ha : Apx a a.toReal |a.toReal| 0 (2 ^ 20) 0 := Apx.var ha
  replace hb : Apx b b.toReal |b.toReal| 0 (2 ^ 20) 0 := Apx.var hb
  replace hc : Apx c c.toReal |c.toReal| 0 (2 ^ 20) 0 := Apx.var hc
  replace hd : Apx d d.toReal |d.toReal| 0 (2 ^ 20) 0 := Apx.var hd
  replace he : Apx e e.toReal |e.toReal| 0 (2 ^ 20) 0 := Apx.var he
  replace hf : Apx f f.toReal |f.toReal| 0 (2 ^ 20) 0 := Apx.var hf
  replace hg : Apx g g.toReal |g.toReal| 0 (2 ^ 20) 0 := Apx.var hg
  replace hh : Apx h h.toReal |h.toReal| 0 (2 ^ 20) 0 := Apx.var hh
  replace hi : Apx i i.toReal |i.toReal| 0 (2 ^ 20) 0 := Apx.var hi
  simp only [glm_mat3_det, M3.perm, M3.map, V3.map, mag, perm2, perm3]
  apply pack
  · apx <;> norm_num
  · norm_num
  · norm_num
  · ring

omit [Libm] in
/-- the computed determinant is within `11 * u` times the permanent of the magnitudes -/
theorem C86_mat3_det (m : M3 F32) (hm : m.Below (2 ^ 20)) (hD : 1 / 2 ^ 20 ≤ |(m.map toReal).mat.det|) :
    (glm_mat3_det m).isFin = true ∧ |(glm_mat3_det m).toReal - (m.map toReal).mat.det| ≤ 11 * ur * (m.map mag).perm := by
  rw [← C03_mat3_det] at hD ⊢
  obtain ⟨K, M, A, C, h1, h2, h3, h4⟩ := det3_apx hm
  exact ⟨h1.fin, det_of h1 h2 h3 h4 hD⟩

omit [Libm] in
private theorem den3 {a b c d e f g h i : F32} (hm : M3.Below ⟨⟨a, b, c⟩, ⟨d, e, f⟩, ⟨g, h, i⟩⟩ (2 ^ 20)) :
    ∃ K M A C, Apx (a * (e * i - f * h) - b * (d * i - g * f) + c * (d * h - g * e)) (a.toReal * (e.toReal * i.toReal - f.toReal * h.toReal) - b.toReal * (d.toReal * i.toReal - g.toReal * f.toReal) + c.toReal * (d.toReal * h.toReal - g.toReal * e.toReal)) M K A C ∧ K ≤ 10 ∧ C ≤ 2 ^ 64 ∧ M = (M3.map mag ⟨⟨a, b, c⟩, ⟨d, e, f⟩, ⟨g, h, i⟩⟩).perm := by
  obtain ⟨⟨ha, hb, hc⟩, ⟨hd, he, hf⟩, ⟨hg, hh, hi⟩⟩ := hm
  replace ha : Apx a a.toReal |a.toReal| 0 (2 ^ 20) 0 := Apx.var ha
  replace hb : Apx b b.toReal |b.toReal| 0 (2 ^ 20) 0 := Apx.var hb
  replace hc : Apx c c.toReal |c.toReal| 0 (2 ^ 20) 0 := Apx.var hc
  replace hd : Apx d d.toReal |d.toReal| 0 (2 ^ 20) 0 := Apx.var hd
  replace he : Apx e e.toReal |e.toReal| 0 (2 ^ 20) 0 := Apx.var he
  replace hf : Apx f f.toReal |f.toReal| 0 (2 ^ 20) 0 := Apx.var hf
  replace hg : Apx g g.toReal |g.toReal| 0 (2 ^ 20) 0 := Apx.var hg
  replace hh : Apx h h.toReal |h.toReal| 0 (2 ^ 20) 0 := Apx.var hh
  replace hi : Apx i i.toReal |i.toReal| 0 (2 ^ 20) 0 := Apx.var hi
  simp only [M3.perm, M3.map, V3.map, mag, perm2, perm3]
  apply pack
  · apx <;> norm_num
  · norm_num
  · norm_num
  · ring

omit [Libm] in
/-- when the determinant is not too small, its computed sign is right -/
theorem C86_mat3_det_sign (m : M3 F32) (hm : m.Below (2 ^ 20)) (hD : 1 / 2 ^ 20 ≤ |(m.map toReal).mat.det|)
    (hP : 11 * ur * (m.map mag).perm < |(m.map toReal).mat.det|) :
    (0 < (glm_mat3_det m).toReal ↔ 0 < (m.map toReal).mat.det) ∧ ((glm_mat3_det m).toReal < 0 ↔ (m.map toReal).mat.det < 0) :=
  sign_of ((C86_mat3_det m hm hD).2.trans_lt hP)

/-- every entry of the computed inverse is near the entry of the true inverse -/
theorem C86_mat3_inv (m : M3 F32) (X : M3 ℝ) (hX : (m.map toReal).mat * X.mat = 1) (hm : m.Below (2 ^ 20))
    (hD : 1 / 2 ^ 20 ≤ |(m.map toReal).mat.det|) (hP : (m.map mag).perm ≤ 2 ^ 18 * |(m.map toReal).mat.det|) :
    (glm_mat3_inv m).InvNear (m.map mag).perm (m.map toReal).mat.det X (m.map mag).minors := by
  have d0 : (m.map toReal).mat.det ≠ 0 := abs_pos.mp (lt_of_lt_of_le (by norm_num) hD)
  have hX' : X = glm_mat3_inv (m.map toReal) := by
    rw [← M3.mat_inj, ← Matrix.inv_eq_right_inv hX, ← Matrix.inv_eq_right_inv (C04_mat3_inv _ d0).1]
  subst hX'
  obtain ⟨⟨a, b, c⟩, ⟨d, e, f⟩, ⟨g, h, i⟩⟩ := m
  have hdet : (M3.map toReal ⟨⟨a, b, c⟩, ⟨d, e, f⟩, ⟨g, h, i⟩⟩).mat.det = (a.toReal * (e.toReal * i.toReal - f.toReal * h.toReal) - b.toReal * (d.toReal * i.toReal - g.toReal * f.toReal) + c.toReal * (d.toReal * h.toReal - g.toReal * e.toReal)) := by
    rw [← C03_mat3_det]; simp only [glm_mat3_det, M3.map, V3.map]; ring
  rw [hdet] at hD hP ⊢
  obtain ⟨K, M, A, C, h1, h2, h3, h4⟩ := den3 hm
  obtain ⟨ρ, r1, r2, r3, r4, r5, r6⟩ := setup h1 h2 h3 h4 hD hP
  have s1 := (neg_isFin _).trans r1
  have s2 := neg_bound r2
  have s3 := (abs_neg _).trans r3
  have s4 := (abs_neg _).trans_le r4
  generalize M3.perm _ = P at *
  obtain ⟨⟨ha, hb, hc⟩, ⟨hd, he, hf⟩, ⟨hg, hh, hi⟩⟩ := hm
  replace ha : Apx a a.toReal |a.toReal| 0 (2 ^ 20) 0 := Apx.var ha
  replace hb : Apx b b.toReal |b.toReal| 0 (2 ^ 20) 0 := Apx.var hb
  replace hc : Apx c c.toReal |c.toReal| 0 (2 ^ 20) 0 := Apx.var hc
  replace hd : Apx d d.toReal |d.toReal| 0 (2 ^ 20) 0 := Apx.var hd
  replace he : Apx e e.toReal |e.toReal| 0 (2 ^ 20) 0 := Apx.var he
  replace hf : Apx f f.toReal |f.toReal| 0 (2 ^ 20) 0 := Apx.var hf
  replace hg : Apx g g.toReal |g.toReal| 0 (2 ^ 20) 0 := Apx.var hg
  replace hh : Apx h h.toReal |h.toReal| 0 (2 ^ 20) 0 := Apx.var hh
  replace hi : Apx i i.toReal |i.toReal| 0 (2 ^ 20) 0 := Apx.var hi
  simp only [glm_mat3_inv, M3.InvNear, V3.InvNear, M3.minors, M3.map, V3.map, mag, perm2, lit_one]
  generalize (lit 1 : F32) / _ = r at *
  generalize 1 / (a.toReal * (e.toReal * i.toReal - f.toReal * h.toReal) - b.toReal * (d.toReal * i.toReal - g.toReal * f.toReal) + c.toReal * (d.toReal * h.toReal - g.toReal * e.toReal)) = R at *
  generalize (a.toReal * (e.toReal * i.toReal - f.toReal * h.toReal) - b.toReal * (d.toReal * i.toReal - g.toReal * f.toReal) + c.toReal * (d.toReal * h.toReal - g.toReal * e.toReal)) = D at *
  clear h1
  refine ⟨⟨?_, ?_, ?_⟩, ⟨?_, ?_, ?_⟩, ⟨?_, ?_, ?_⟩⟩
  all_goals
    first
    | apply entryL r1 r2 r3 r4 r5 r6
    | apply entryR r1 r2 r3 r4 r5 r6
    | apply entryL s1 s2 s3 s4 r5 r6
    | apply entryR s1 s2 s3 s4 r5 r6
    · apx <;> norm_num
    · norm_num
    · norm_num
    · norm_num
    · ring

omit [Libm] in
private theorem det4_apx {a b c d e f g h i j k l m n o p : F32} (hm : M4.Below ⟨⟨a, b, c, d⟩, ⟨e, f, g, h⟩, ⟨i, j, k, l⟩, ⟨m, n, o, p⟩⟩ (2 ^ 20)) :
    ∃ K M A C, Apx (glm_mat4_det (⟨⟨a, b, c, d⟩, ⟨e, f, g, h⟩, ⟨i, j, k, l⟩, ⟨m, n, o, p⟩⟩ : M4 F32)) (glm_mat4_det (M4.map toReal ⟨⟨a, b, c, d⟩, ⟨e, f, g, h⟩, ⟨i, j, k, l⟩, ⟨m, n, o, p⟩⟩)) M K A C ∧ K ≤ 10 ∧ C ≤ 2 ^ 64 ∧ M = (M4.map mag ⟨⟨a, b, c, d⟩, ⟨e, f, g, h⟩, ⟨i, j, k, l⟩, ⟨m, n, o, p⟩⟩).perm := by
  obtain ⟨⟨ha, hb, hc, hd⟩, ⟨he, hf, hg, hh⟩, ⟨hi, hj, hk, hl⟩, ⟨hm, hn, ho, hp⟩⟩ := hm
  replace ha : Apx a a.toReal |a.toReal| 0 (2 ^ 20) 0 := Apx.var ha
  replace hb : Apx b b.toReal |b.toReal| 0 (2 ^ 20) 0 := Apx.var hb
  replace hc : Apx c c.toReal |c.toReal| 0 (2 ^ 20) 0 := Apx.var hc
  replace hd : Apx d d.toReal |d.toReal| 0 (2 ^ 20) 0 := Apx.var hd
  replace he : Apx e e.toReal |e.toReal| 0 (2 ^ 20) 0 := Apx.var he
  replace hf : Apx f f.toReal |f.toReal| 0 (2 ^ 20) 0 := Apx.var hf
  replace hg : Apx g g.toReal |g.toReal| 0 (2 ^ 20) 0 := Apx.var hg
  replace hh : Apx h h.toReal |h.toReal| 0 (2 ^ 20) 0 := Apx.var hh
  replace hi : Apx i i.toReal |i.toReal| 0 (2 ^ 20) 0 := Apx.var hi
  replace hj : Apx j j.toReal |j.toReal| 0 (2 ^ 20) 0 := Apx.var hj
  replace hk : Apx k k.toReal |k.toReal| 0 (2 ^ 20) 0 := Apx.var hk
  replace hl : Apx l l.toReal |l.toReal| 0 (2 ^ 20) 0 := Apx.var hl
  replace hm : Apx m m.toReal |m.toReal| 0 (2 ^ 20) 0 := Apx.var hm
  replace hn : Apx n n.toReal |n.toReal| 0 (2 ^ 20) 0 := Apx.var hn
  replace ho : Apx o o.toReal |o.toReal| 0 (2 ^ 20) 0 := Apx.var ho
  replace hp : Apx p p.toReal |p.toReal| 0 (2 ^ 20) 0 := Apx.var hp
  simp only [glm_mat4_det, M4.perm, M4.map, V4.map, mag, perm2, perm3]
  apply pack
  · apx <;> norm_num
  · norm_num
  · norm_num
  · ring

omit [Libm] in
/-- the computed determinant is within `11 * u` times the permanent of the magnitudes -/
theorem C86_mat4_det (m : M4 F32) (hm : m.Below (2 ^ 20)) (hD : 1 / 2 ^ 20 ≤ |(m.map toReal).mat.det|) :
    (glm_mat4_det m).isFin = true ∧ |(glm_mat4_det m).toReal - (m.map toReal).mat.det| ≤ 11 * ur * (m.map mag).perm := by
  rw [← C03_mat4_det] at hD ⊢
  obtain ⟨K, M, A, C, h1, h2, h3, h4⟩ := det4_apx hm
  exact ⟨h1.fin, det_of h1 h2 h3 h4 hD⟩

omit [Libm] in
private theorem den4 {a b c d e f g h i j k l m n o p : F32} (hm : M4.Below ⟨⟨a, b, c, d⟩, ⟨e, f, g, h⟩, ⟨i, j, k, l⟩, ⟨m, n, o, p⟩⟩ (2 ^ 20)) :
    ∃ K M A C, Apx ((a*f-b*e) * (k*p-l*o) + (a*h-d*e) * (j*o-k*n) + (b*g-c*f) * (i*p-l*m) + (c*h-d*g) * (i*n-j*m) - (a*g-c*e) * (j*p-l*n) - (b*h-d*f) * (i*o-k*m)) ((a.toReal*f.toReal-b.toReal*e.toReal) * (k.toReal*p.toReal-l.toReal*o.toReal) + (a.toReal*h.toReal-d.toReal*e.toReal) * (j.toReal*o.toReal-k.toReal*n.toReal) + (b.toReal*g.toReal-c.toReal*f.toReal) * (i.toReal*p.toReal-l.toReal*m.toReal) + (c.toReal*h.toReal-d.toReal*g.toReal) * (i.toReal*n.toReal-j.toReal*m.toReal) - (a.toReal*g.toReal-c.toReal*e.toReal) * (j.toReal*p.toReal-l.toReal*n.toReal) - (b.toReal*h.toReal-d.toReal*f.toReal) * (i.toReal*o.toReal-k.toReal*m.toReal)) M K A C ∧ K ≤ 10 ∧ C ≤ 2 ^ 64 ∧ M = (M4.map mag ⟨⟨a, b, c, d⟩, ⟨e, f, g, h⟩, ⟨i, j, k, l⟩, ⟨m, n, o, p⟩⟩).perm := by
  obtain ⟨⟨ha, hb, hc, hd⟩, ⟨he, hf, hg, hh⟩, ⟨hi, hj, hk, hl⟩, ⟨hm, hn, ho, hp⟩⟩ := hm
  replace ha : Apx a a.toReal |a.toReal| 0 (2 ^ 20) 0 := Apx.var ha
  replace hb : Apx b b.toReal |b.toReal| 0 (2 ^ 20) 0 := Apx.var hb
  replace hc : Apx c c.toReal |c.toReal| 0 (2 ^ 20) 0 := Apx.var hc
  replace hd : Apx d d.toReal |d.toReal| 0 (2 ^ 20) 0 := Apx.var hd
  replace he : Apx e e.toReal |e.toReal| 0 (2 ^ 20) 0 := Apx.var he
  replace hf : Apx f f.toReal |f.toReal| 0 (2 ^ 20) 0 := Apx.var hf
  replace hg : Apx g g.toReal |g.toReal| 0 (2 ^ 20) 0 := Apx.var hg
  replace hh : Apx h h.toReal |h.toReal| 0 (2 ^ 20) 0 := Apx.var hh
  replace hi : Apx i i.toReal |i.toReal| 0 (2 ^ 20) 0 := Apx.var hi
  replace hj : Apx j j.toReal |j.toReal| 0 (2 ^ 20) 0 := Apx.var hj
  replace hk : Apx k k.toReal |k.toReal| 0 (2 ^ 20) 0 := Apx.var hk
  replace hl : Apx l l.toReal |l.toReal| 0 (2 ^ 20) 0 := Apx.var hl
  replace hm : Apx m m.toReal |m.toReal| 0 (2 ^ 20) 0 := Apx.var hm
  replace hn : Apx n n.toReal |n.toReal| 0 (2 ^ 20) 0 := Apx.var hn
  replace ho : Apx o o.toReal |o.toReal| 0 (2 ^ 20) 0 := Apx.var ho
  replace hp : Apx p p.toReal |p.toReal| 0 (2 ^ 20) 0 := Apx.var hp
  simp only [M4.perm, M4.map, V4.map, mag, perm2, perm3]
  apply pack
  · apx <;> norm_num
  · norm_num
  · norm_num
  · ring

omit [Libm] in
/-- when the determinant is not too small, its computed sign is right -/
theorem C86_mat4_det_sign (m : M4 F32) (hm : m.Below (2 ^ 20)) (hD : 1 / 2 ^ 20 ≤ |(m.map toReal).mat.det|)
    (hP : 11 * ur * (m.map mag).perm < |(m.map toReal).mat.det|) :
    (0 < (glm_mat4_det m).toReal ↔ 0 < (m.map toReal).mat.det) ∧ ((glm_mat4_det m).toReal < 0 ↔ (m.map toReal).mat.det < 0) :=
  sign_of ((C86_mat4_det m hm hD).2.trans_lt hP)

/-- every entry of the computed inverse is near the entry of the true inverse -/
theorem C86_mat4_inv (m : M4 F32) (X : M4 ℝ) (hX : (m.map toReal).mat * X.mat = 1) (hm : m.Below (2 ^ 20))
    (hD : 1 / 2 ^ 20 ≤ |(m.map toReal).mat.det|) (hP : (m.map mag).perm ≤ 2 ^ 18 * |(m.map toReal).mat.det|) :
    (glm_mat4_inv m).InvNear (m.map mag).perm (m.map toReal).mat.det X (m.map mag).minors := by
  have d0 : (m.map toReal).mat.det ≠ 0 := abs_pos.mp (lt_of_lt_of_le (by norm_num) hD)
  have hX' : X = glm_mat4_inv (m.map toReal) := by
    rw [← M4.mat_inj, ← Matrix.inv_eq_right_inv hX, ← Matrix.inv_eq_right_inv (C04_mat4_inv _ d0).1]
  subst hX'
  obtain ⟨⟨a, b, c, d⟩, ⟨e, f, g, h⟩, ⟨i, j, k, l⟩, ⟨m, n, o, p⟩⟩ := m
  have hdet : (M4.map toReal ⟨⟨a, b, c, d⟩, ⟨e, f, g, h⟩, ⟨i, j, k, l⟩, ⟨m, n, o, p⟩⟩).mat.det = ((a.toReal*f.toReal-b.toReal*e.toReal) * (k.toReal*p.toReal-l.toReal*o.toReal) + (a.toReal*h.toReal-d.toReal*e.toReal) * (j.toReal*o.toReal-k.toReal*n.toReal) + (b.toReal*g.toReal-c.toReal*f.toReal) * (i.toReal*p.toReal-l.toReal*m.toReal) + (c.toReal*h.toReal-d.toReal*g.toReal) * (i.toReal*n.toReal-j.toReal*m.toReal) - (a.toReal*g.toReal-c.toReal*e.toReal) * (j.toReal*p.toReal-l.toReal*n.toReal) - (b.toReal*h.toReal-d.toReal*f.toReal) * (i.toReal*o.toReal-k.toReal*m.toReal)) := by
    rw [← C03_mat4_det]; simp only [glm_mat4_det, M4.map, V4.map]; ring
  rw [hdet] at hD hP ⊢
  obtain ⟨K, M, A, C, h1, h2, h3, h4⟩ := den4 hm
  obtain ⟨ρ, r1, r2, r3, r4, r5, r6⟩ := setup h1 h2 h3 h4 hD hP
  have s1 := (neg_isFin _).trans r1
  have s2 := neg_bound r2
  have s3 := (abs_neg _).trans r3
  have s4 := (abs_neg _).trans_le r4
  generalize M4.perm _ = P at *
  obtain ⟨⟨ha, hb, hc, hd⟩, ⟨he, hf, hg, hh⟩, ⟨hi, hj, hk, hl⟩, ⟨hm, hn, ho, hp⟩⟩ := hm
  replace ha : Apx a a.toReal |a.toReal| 0 (2 ^ 20) 0 := Apx.var ha
  replace hb : Apx b b.toReal |b.toReal| 0 (2 ^ 20) 0 := Apx.var hb
  replace hc : Apx c c.toReal |c.toReal| 0 (2 ^ 20) 0 := Apx.var hc
  replace hd : Apx d d.toReal |d.toReal| 0 (2 ^ 20) 0 := Apx.var hd
  replace he : Apx e e.toReal |e.toReal| 0 (2 ^ 20) 0 := Apx.var he
  replace hf : Apx f f.toReal |f.toReal| 0 (2 ^ 20) 0 := Apx.var hf
  replace hg : Apx g g.toReal |g.toReal| 0 (2 ^ 20) 0 := Apx.var hg
  replace hh : Apx h h.toReal |h.toReal| 0 (2 ^ 20) 0 := Apx.var hh
  replace hi : Apx i i.toReal |i.toReal| 0 (2 ^ 20) 0 := Apx.var hi
  replace hj : Apx j j.toReal |j.toReal| 0 (2 ^ 20) 0 := Apx.var hj
  replace hk : Apx k k.toReal |k.toReal| 0 (2 ^ 20) 0 := Apx.var hk
  replace hl : Apx l l.toReal |l.toReal| 0 (2 ^ 20) 0 := Apx.var hl
  replace hm : Apx m m.toReal |m.toReal| 0 (2 ^ 20) 0 := Apx.var hm
  replace hn : Apx n n.toReal |n.toReal| 0 (2 ^ 20) 0 := Apx.var hn
  replace ho : Apx o o.toReal |o.toReal| 0 (2 ^ 20) 0 := Apx.var ho
  replace hp : Apx p p.toReal |p.toReal| 0 (2 ^ 20) 0 := Apx.var hp
  simp only [glm_mat4_inv, M4.InvNear, V4.InvNear, M4.minors, M4.map, V4.map, mag, perm2, perm3, lit_one]
  generalize (lit 1 : F32) / _ = r at *
  generalize 1 / ((a.toReal*f.toReal-b.toReal*e.toReal) * (k.toReal*p.toReal-l.toReal*o.toReal) + (a.toReal*h.toReal-d.toReal*e.toReal) * (j.toReal*o.toReal-k.toReal*n.toReal) + (b.toReal*g.toReal-c.toReal*f.toReal) * (i.toReal*p.toReal-l.toReal*m.toReal) + (c.toReal*h.toReal-d.toReal*g.toReal) * (i.toReal*n.toReal-j.toReal*m.toReal) - (a.toReal*g.toReal-c.toReal*e.toReal) * (j.toReal*p.toReal-l.toReal*n.toReal) - (b.toReal*h.toReal-d.toReal*f.toReal) * (i.toReal*o.toReal-k.toReal*m.toReal)) = R at *
  generalize ((a.toReal*f.toReal-b.toReal*e.toReal) * (k.toReal*p.toReal-l.toReal*o.toReal) + (a.toReal*h.toReal-d.toReal*e.toReal) * (j.toReal*o.toReal-k.toReal*n.toReal) + (b.toReal*g.toReal-c.toReal*f.toReal) * (i.toReal*p.toReal-l.toReal*m.toReal) + (c.toReal*h.toReal-d.toReal*g.toReal) * (i.toReal*n.toReal-j.toReal*m.toReal) - (a.toReal*g.toReal-c.toReal*e.toReal) * (j.toReal*p.toReal-l.toReal*n.toReal) - (b.toReal*h.toReal-d.toReal*f.toReal) * (i.toReal*o.toReal-k.toReal*m.toReal)) = D at *
  clear h1
  refine ⟨⟨?_, ?_, ?_, ?_⟩, ⟨?_, ?_, ?_, ?_⟩, ⟨?_, ?_, ?_, ?_⟩, ⟨?_, ?_, ?_, ?_⟩⟩
  all_goals
    first
    | apply entryL r1 r2 r3 r4 r5 r6
    | apply entryR r1 r2 r3 r4 r5 r6
    | apply entryL s1 s2 s3 s4 r5 r6
    | apply entryR s1 s2 s3 s4 r5 r6
    · apx <;> norm_num
    · norm_num
    · norm_num
    · norm_num
    · ring

omit [Libm] in
/-- the bound cannot be one in terms of the determinant alone: a matrix of determinant one whose computed determinant is zero -/
theorem C86_det_cancels : ∃ m : M2 F32, m.Below (2 ^ 20) ∧ (m.map toReal).mat.det = 1 ∧ (glm_mat2_det m).isFin = true ∧ (glm_mat2_det m).toReal = 0 := by
  have v1 : (ofRat false 8193).isFin = true ∧ (ofRat false 8193).val = 8193 := by decide +kernel
  have v2 : (ofRat false 8192).isFin = true ∧ (ofRat false 8192).val = 8192 := by decide +kernel
  have v3 : (ofRat false 8194).isFin = true ∧ (ofRat false 8194).val = 8194 := by decide +kernel
  have v4 : (glm_mat2_det (⟨⟨ofRat false 8193, ofRat false 8192⟩, ⟨ofRat false 8194, ofRat false 8193⟩⟩ : M2 F32)).isFin = true ∧
      (glm_mat2_det (⟨⟨ofRat false 8193, ofRat false 8192⟩, ⟨ofRat false 8194, ofRat false 8193⟩⟩ : M2 F32)).val = 0 := by decide +kernel
  refine ⟨⟨⟨ofRat false 8193, ofRat false 8192⟩, ⟨ofRat false 8194, ofRat false 8193⟩⟩, ⟨⟨⟨v1.1, ?_⟩, ⟨v2.1, ?_⟩⟩, ⟨⟨v3.1, ?_⟩, ⟨v1.1, ?_⟩⟩⟩, ?_, v4.1, ?_⟩
  · norm_num [toReal, v1.2]
  · norm_num [toReal, v2.2]
  · norm_num [toReal, v3.2]
  · norm_num [toReal, v1.2]
  · rw [← C03_mat2_det]; norm_num [glm_mat2_det, M2.map, V2.map, toReal, v1.2, v2.2, v3.2]
  · simp [toReal, v4.2]

/-- a matrix that meets the hypotheses -/
example : ∃ (m : M2 F32) (X : M2 ℝ), (m.map toReal).mat * X.mat = 1 ∧ m.Below (2 ^ 20) ∧ 1 / 2 ^ 20 ≤ |(m.map toReal).mat.det| ∧
    (m.map mag).perm ≤ 2 ^ 18 * |(m.map toReal).mat.det| ∧ 11 * ur * (m.map mag).perm < |(m.map toReal).mat.det| := by
  have v0 : (ofRat false (-1)).isFin = true ∧ (ofRat false (-1)).val = -1 := by decide +kernel
  have w0 : (ofRat false (-1)).toReal = -1 := by norm_num [toReal, v0.2]
  have v1 : (ofRat false (1)).isFin = true ∧ (ofRat false (1)).val = 1 := by decide +kernel
  have w1 : (ofRat false (1)).toReal = 1 := by norm_num [toReal, v1.2]
  have v2 : (ofRat false (3/2)).isFin = true ∧ (ofRat false (3/2)).val = 3/2 := by decide +kernel
  have w2 : (ofRat false (3/2)).toReal = 3/2 := by norm_num [toReal, v2.2]
  have v3 : (ofRat false (2)).isFin = true ∧ (ofRat false (2)).val = 2 := by decide +kernel
  have w3 : (ofRat false (2)).toReal = 2 := by norm_num [toReal, v3.2]
  have hd : ((⟨⟨ofRat false (3/2), ofRat false (1)⟩, ⟨ofRat false (-1), ofRat false (2)⟩⟩ : M2 F32).map toReal).mat.det = 4 := by
    rw [← C03_mat2_det]; norm_num [glm_mat2_det, M2.map, V2.map, w0, w1, w2, w3]
  refine ⟨⟨⟨ofRat false (3/2), ofRat false (1)⟩, ⟨ofRat false (-1), ofRat false (2)⟩⟩, _, (C04_mat2_inv _ (by rw [hd]; norm_num)).1, ⟨⟨⟨v2.1, by norm_num [w2]⟩, ⟨v1.1, by norm_num [w1]⟩⟩, ⟨⟨v0.1, by norm_num [w0]⟩, ⟨v3.1, by norm_num [w3]⟩⟩⟩, by rw [hd]; norm_num, ?_, ?_⟩
  · rw [hd]; norm_num [M2.perm, M2.map, V2.map, mag, perm2, ur, w0, w1, w2, w3]
  · rw [hd]; norm_num [M2.perm, M2.map, V2.map, mag, perm2, ur, w0, w1, w2, w3]

/-- a matrix that meets the hypotheses -/
example : ∃ (m : M3 F32) (X : M3 ℝ), (m.map toReal).mat * X.mat = 1 ∧ m.Below (2 ^ 20) ∧ 1 / 2 ^ 20 ≤ |(m.map toReal).mat.det| ∧
    (m.map mag).perm ≤ 2 ^ 18 * |(m.map toReal).mat.det| ∧ 11 * ur * (m.map mag).perm < |(m.map toReal).mat.det| := by
  have v0 : (ofRat false (-1)).isFin = true ∧ (ofRat false (-1)).val = -1 := by decide +kernel
  have w0 : (ofRat false (-1)).toReal = -1 := by norm_num [toReal, v0.2]
  have v1 : (ofRat false (0)).isFin = true ∧ (ofRat false (0)).val = 0 := by decide +kernel
  have w1 : (ofRat false (0)).toReal = 0 := by norm_num [toReal, v1.2]
  have v2 : (ofRat false (1/2)).isFin = true ∧ (ofRat false (1/2)).val = 1/2 := by decide +kernel
  have w2 : (ofRat false (1/2)).toReal = 1/2 := by norm_num [toReal, v2.2]
  have v3 : (ofRat false (1)).isFin = true ∧ (ofRat false (1)).val = 1 := by decide +kernel
  have w3 : (ofRat false (1)).toReal = 1 := by norm_num [toReal, v3.2]
  have v4 : (ofRat false (2)).isFin = true ∧ (ofRat false (2)).val = 2 := by decide +kernel
  have w4 : (ofRat false (2)).toReal = 2 := by norm_num [toReal, v4.2]
  have v5 : (ofRat false (3)).isFin = true ∧ (ofRat false (3)).val = 3 := by decide +kernel
  have w5 : (ofRat false (3)).toReal = 3 := by norm_num [toReal, v5.2]
  have hd : ((⟨⟨ofRat false (2), ofRat false (0), ofRat false (1)⟩, ⟨ofRat false (1/2), ofRat false (3), ofRat false (0)⟩, ⟨ofRat false (-1), ofRat false (0), ofRat false (1)⟩⟩ : M3 F32).map toReal).mat.det = 9 := by
    rw [← C03_mat3_det]; norm_num [glm_mat3_det, M3.map, V3.map, w0, w1, w2, w3, w4, w5]
  refine ⟨⟨⟨ofRat false (2), ofRat false (0), ofRat false (1)⟩, ⟨ofRat false (1/2), ofRat false (3), ofRat false (0)⟩, ⟨ofRat false (-1), ofRat false (0), ofRat false (1)⟩⟩, _, (C04_mat3_inv _ (by rw [hd]; norm_num)).1, ⟨⟨⟨v4.1, by norm_num [w4]⟩, ⟨v1.1, by norm_num [w1]⟩, ⟨v3.1, by norm_num [w3]⟩⟩, ⟨⟨v2.1, by norm_num [w2]⟩, ⟨v5.1, by norm_num [w5]⟩, ⟨v1.1, by norm_num [w1]⟩⟩, ⟨⟨v0.1, by norm_num [w0]⟩, ⟨v1.1, by norm_num [w1]⟩, ⟨v3.1, by norm_num [w3]⟩⟩⟩, by rw [hd]; norm_num, ?_, ?_⟩
  · rw [hd]; norm_num [M3.perm, M3.map, V3.map, mag, perm2, perm3, ur, w0, w1, w2, w3, w4, w5]
  · rw [hd]; norm_num [M3.perm, M3.map, V3.map, mag, perm2, perm3, ur, w0, w1, w2, w3, w4, w5]

/-- a matrix that meets the hypotheses -/
example : ∃ (m : M4 F32) (X : M4 ℝ), (m.map toReal).mat * X.mat = 1 ∧ m.Below (2 ^ 20) ∧ 1 / 2 ^ 20 ≤ |(m.map toReal).mat.det| ∧
    (m.map mag).perm ≤ 2 ^ 18 * |(m.map toReal).mat.det| ∧ 11 * ur * (m.map mag).perm < |(m.map toReal).mat.det| := by
  have v0 : (ofRat false (-3)).isFin = true ∧ (ofRat false (-3)).val = -3 := by decide +kernel
  have w0 : (ofRat false (-3)).toReal = -3 := by norm_num [toReal, v0.2]
  have v1 : (ofRat false (-1)).isFin = true ∧ (ofRat false (-1)).val = -1 := by decide +kernel
  have w1 : (ofRat false (-1)).toReal = -1 := by norm_num [toReal, v1.2]
  have v2 : (ofRat false (0)).isFin = true ∧ (ofRat false (0)).val = 0 := by decide +kernel
  have w2 : (ofRat false (0)).toReal = 0 := by norm_num [toReal, v2.2]
  have v3 : (ofRat false (1)).isFin = true ∧ (ofRat false (1)).val = 1 := by decide +kernel
  have w3 : (ofRat false (1)).toReal = 1 := by norm_num [toReal, v3.2]
  have v4 : (ofRat false (3/2)).isFin = true ∧ (ofRat false (3/2)).val = 3/2 := by decide +kernel
  have w4 : (ofRat false (3/2)).toReal = 3/2 := by norm_num [toReal, v4.2]
  have v5 : (ofRat false (2)).isFin = true ∧ (ofRat false (2)).val = 2 := by decide +kernel
  have w5 : (ofRat false (2)).toReal = 2 := by norm_num [toReal, v5.2]
  have v6 : (ofRat false (5)).isFin = true ∧ (ofRat false (5)).val = 5 := by decide +kernel
  have w6 : (ofRat false (5)).toReal = 5 := by norm_num [toReal, v6.2]
  have v7 : (ofRat false (7)).isFin = true ∧ (ofRat false (7)).val = 7 := by decide +kernel
  have w7 : (ofRat false (7)).toReal = 7 := by norm_num [toReal, v7.2]
  have hd : ((⟨⟨ofRat false (2), ofRat false (0), ofRat false (0), ofRat false (0)⟩, ⟨ofRat false (0), ofRat false (3/2), ofRat false (-1), ofRat false (0)⟩, ⟨ofRat false (0), ofRat false (1), ofRat false (2), ofRat false (0)⟩, ⟨ofRat false (5), ofRat false (-3), ofRat false (7), ofRat false (1)⟩⟩ : M4 F32).map toReal).mat.det = 8 := by
    rw [← C03_mat4_det]; norm_num [glm_mat4_det, M4.map, V4.map, w0, w1, w2, w3, w4, w5, w6, w7]
  refine ⟨⟨⟨ofRat false (2), ofRat false (0), ofRat false (0), ofRat false (0)⟩, ⟨ofRat false (0), ofRat false (3/2), ofRat false (-1), ofRat false (0)⟩, ⟨ofRat false (0), ofRat false (1), ofRat false (2), ofRat false (0)⟩, ⟨ofRat false (5), ofRat false (-3), ofRat false (7), ofRat false (1)⟩⟩, _, (C04_mat4_inv _ (by rw [hd]; norm_num)).1, ⟨⟨⟨v5.1, by norm_num [w5]⟩, ⟨v2.1, by norm_num [w2]⟩, ⟨v2.1, by norm_num [w2]⟩, ⟨v2.1, by norm_num [w2]⟩⟩, ⟨⟨v2.1, by norm_num [w2]⟩, ⟨v4.1, by norm_num [w4]⟩, ⟨v1.1, by norm_num [w1]⟩, ⟨v2.1, by norm_num [w2]⟩⟩, ⟨⟨v2.1, by norm_num [w2]⟩, ⟨v3.1, by norm_num [w3]⟩, ⟨v5.1, by norm_num [w5]⟩, ⟨v2.1, by norm_num [w2]⟩⟩, ⟨⟨v6.1, by norm_num [w6]⟩, ⟨v0.1, by norm_num [w0]⟩, ⟨v7.1, by norm_num [w7]⟩, ⟨v3.1, by norm_num [w3]⟩⟩⟩, by rw [hd]; norm_num, ?_, ?_⟩
  · rw [hd]; norm_num [M4.perm, M4.map, V4.map, mag, perm2, perm3, ur, w0, w1, w2, w3, w4, w5, w6, w7]
  · rw [hd]; norm_num [M4.perm, M4.map, V4.map, mag, perm2, perm3, ur, w0, w1, w2, w3, w4, w5, w6, w7]

end Cglm
