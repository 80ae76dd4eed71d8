import Verif.Spec
import Verif.Props.C01
import Verif.Props.C64Mat
import Verif.Props.C64Fin
import Mathlib.Analysis.Matrix.Normed

/-!
# C83: drift of long products of matrices

A rotation or a reflection is kept as a matrix of binary32 numbers and multiplied again and again, from the left or from the right.
The library has no call that makes a matrix orthogonal again, so the deviation grows geometrically, with a factor near one.  The
distance between matrices is the Frobenius norm: the square root of the sum of the squares of the entries.
-/

namespace Cglm
open F32 Matrix
open scoped Matrix.Norms.Frobenius

section Fro
variable {n : Type} [Fintype n] [DecidableEq n]

private theorem fro_sq (A : Matrix n n ℝ) : ‖A‖ ^ 2 = ∑ i, ∑ j, A i j ^ 2 := by
  rw [frobenius_norm_def, ← Real.sqrt_eq_rpow, Real.sq_sqrt (by positivity)]
  simp

private theorem fro_trace (A : Matrix n n ℝ) : ‖A‖ ^ 2 = trace (A * Aᵀ) := by
  rw [fro_sq]
  simp only [trace, diag, mul_apply, transpose_apply, sq]

private theorem fro_orth_right {S : Matrix n n ℝ} (h : S * Sᵀ = 1) (E : Matrix n n ℝ) : ‖E * S‖ = ‖E‖ := by
  refine (sq_eq_sq₀ (norm_nonneg _) (norm_nonneg _)).mp ?_
  rw [fro_trace, fro_trace, transpose_mul, Matrix.mul_assoc, ← Matrix.mul_assoc S, h, Matrix.one_mul]

private theorem fro_orth_left {S : Matrix n n ℝ} (h : Sᵀ * S = 1) (E : Matrix n n ℝ) : ‖S * E‖ = ‖E‖ := by
  rw [← frobenius_norm_transpose, transpose_mul, fro_orth_right (by rwa [transpose_transpose]), frobenius_norm_transpose]

private theorem fro_one_sq {S : Matrix n n ℝ} (h : S * Sᵀ = 1) : ‖S‖ ^ 2 = Fintype.card n := by
  rw [fro_trace, h, trace_one]

private theorem fro_entry (A : Matrix n n ℝ) (i j : n) : |A i j| ≤ ‖A‖ := by
  refine abs_le_of_sq_le_sq ?_ (norm_nonneg _)
  rw [fro_sq]
  exact (Finset.single_le_sum (f := fun j => A i j ^ 2) (fun _ _ => sq_nonneg _) (Finset.mem_univ j)).trans
    (Finset.single_le_sum (f := fun i => ∑ j, A i j ^ 2) (fun _ _ => Finset.sum_nonneg fun _ _ => sq_nonneg _) (Finset.mem_univ i))

private theorem fro_mono {A B : Matrix n n ℝ} (h : ∀ i j, |A i j| ≤ B i j) : ‖A‖ ≤ ‖B‖ := by
  refine abs_le_of_sq_le_sq' ?_ (norm_nonneg _) |>.2
  rw [fro_sq, fro_sq]
  refine Finset.sum_le_sum fun i _ => Finset.sum_le_sum fun j _ => ?_
  rw [← sq_abs]
  exact pow_le_pow_left₀ (abs_nonneg _) (h i j) 2

private theorem fro_abs (A : Matrix n n ℝ) : ‖A.map abs‖ = ‖A‖ := frobenius_norm_map_eq A _ (fun a => by simp)

/-- an error in each entry is an error of the whole -/
private theorem fro_le {A P Q : Matrix n n ℝ} {c e : ℝ} (hc : 0 ≤ c) (he : 0 ≤ e)
    (h : ∀ i j, |A i j| ≤ c * (P.map abs * Q.map abs) i j + e) : ‖A‖ ≤ c * (‖P‖ * ‖Q‖) + Fintype.card n * e := by
  have k : ‖A‖ ≤ ‖c • (P.map abs * Q.map abs) + Matrix.of fun _ _ => e‖ := fro_mono fun i j => h i j
  refine k.trans ((norm_add_le _ _).trans (add_le_add ?_ ?_))
  · rw [norm_smul, Real.norm_of_nonneg hc]
    refine mul_le_mul_of_nonneg_left ((frobenius_norm_mul _ _).trans ?_) hc
    rw [fro_abs, fro_abs]
  · refine abs_le_of_sq_le_sq' ?_ (by positivity) |>.2
    rw [fro_sq]
    simp only [of_apply, Finset.sum_const, Finset.card_univ, nsmul_eq_mul]
    nlinarith

end Fro

variable [Libm]

/-- the matrix of real numbers that a matrix of floats is -/
noncomputable def M3.val (m : M3 F32) : Matrix (Fin 3) (Fin 3) ℝ := (m.map toReal).mat

omit [Libm] in
private theorem abs3 (m : M3 F32) : (m.map mag).mat = m.val.map abs := by
  ext i j; fin_cases i <;> fin_cases j <;> rfl

private theorem err3 {a b : M3 F32} (hf : (glm_mat3_mul a b).IsFin) :
    ‖(glm_mat3_mul a b).val - a.val * b.val‖ ≤ γ 3 * (‖a.val‖ * ‖b.val‖) + 3 / 2 ^ 146 := by
  obtain ⟨⟨e00, e01, e02⟩, ⟨e10, e11, e12⟩, ⟨e20, e21, e22⟩⟩ := C64_mat3_mul a b
  obtain ⟨⟨f00, f01, f02⟩, ⟨f10, f11, f12⟩, ⟨f20, f21, f22⟩⟩ := hf
  have g : 0 ≤ γ 3 := by unfold γ; norm_num [ur]
  have := fro_le (A := (glm_mat3_mul a b).val - a.val * b.val) (P := a.val) (Q := b.val) (c := γ 3) (e := 1 / 2 ^ 146) g (by norm_num) ?_
  · rw [Fintype.card_fin] at this
    refine this.trans (le_of_eq ?_)
    norm_num
  rw [← abs3, ← abs3, ← C01_mat3_mul, show a.val * b.val = _ from (C01_mat3_mul _ _).symm]
  intro i j
  fin_cases i <;> fin_cases j
  · exact e00 f00
  · exact e10 f10
  · exact e20 f20
  · exact e01 f01
  · exact e11 f11
  · exact e21 f21
  · exact e02 f02
  · exact e12 f12
  · exact e22 f22

omit [Libm] in
private theorem below3 {m : M3 F32} (hf : m.IsFin) (h : ‖m.val‖ ≤ 2 ^ 60) : m.Below (2 ^ 60) := by
  obtain ⟨⟨f00, f01, f02⟩, ⟨f10, f11, f12⟩, ⟨f20, f21, f22⟩⟩ := hf
  exact ⟨⟨⟨f00, (fro_entry m.val 0 0).trans h⟩, ⟨f01, (fro_entry m.val 1 0).trans h⟩, ⟨f02, (fro_entry m.val 2 0).trans h⟩⟩, ⟨⟨f10, (fro_entry m.val 0 1).trans h⟩, ⟨f11, (fro_entry m.val 1 1).trans h⟩, ⟨f12, (fro_entry m.val 2 1).trans h⟩⟩, ⟨⟨f20, (fro_entry m.val 0 2).trans h⟩, ⟨f21, (fro_entry m.val 1 2).trans h⟩, ⟨f22, (fro_entry m.val 2 2).trans h⟩⟩⟩

/-- A product from the left or from the right: the floats, and the orthogonal matrix that is meant. -/
structure Turn3 where
  left : Bool
  m : M3 F32
  meant : Matrix (Fin 3) (Fin 3) ℝ

namespace Turn3

/-- the floats are finite, the matrix that is meant is orthogonal, and they differ by at most `δ` -/
def Ok (δ : ℝ) (t : Turn3) : Prop := t.m.IsFin ∧ t.meantᵀ * t.meant = 1 ∧ ‖t.m.val - t.meant‖ ≤ δ
/-- the call -/
def mul (t : Turn3) (p : M3 F32) : M3 F32 := if t.left then glm_mat3_mul t.m p else glm_mat3_mul p t.m
/-- what is meant -/
noncomputable def exact (t : Turn3) (x : Matrix (Fin 3) (Fin 3) ℝ) : Matrix (Fin 3) (Fin 3) ℝ := if t.left then t.meant * x else x * t.meant

end Turn3

private theorem step3 {t : Turn3} {δ : ℝ} (ht : t.Ok δ) (hδ : δ ≤ 1 / 16) {p : M3 F32} (hp : p.IsFin) {x : Matrix (Fin 3) (Fin 3) ℝ} (hx : xᵀ * x = 1)
    {D : ℝ} (hD : ‖p.val - x‖ ≤ D) (hb : D ≤ 2 ^ 50) :
    (t.mul p).IsFin ∧ (t.exact x)ᵀ * t.exact x = 1 ∧ 1 + ‖(t.mul p).val - t.exact x‖ ≤ (1 + D) * (1 + 13 * ur + 2 * δ) := by
  obtain ⟨hm, ho, hd⟩ := ht
  have ho' := mul_eq_one_comm.mp ho
  have hx' := mul_eq_one_comm.mp hx
  have n1 : ‖t.meant‖ ≤ 2 := abs_le_of_sq_le_sq' (by rw [fro_one_sq ho']; norm_num) (by norm_num) |>.2
  have n2 : ‖x‖ ≤ 2 := abs_le_of_sq_le_sq' (by rw [fro_one_sq hx']; norm_num) (by norm_num) |>.2
  have δ0 : 0 ≤ δ := (norm_nonneg _).trans hd
  have D0 : 0 ≤ D := (norm_nonneg _).trans hD
  have m1 : ‖t.m.val‖ ≤ 2 + δ := by linarith [norm_sub_norm_le t.m.val t.meant]
  have p1 : ‖p.val‖ ≤ 2 + D := by linarith [norm_sub_norm_le p.val x]
  have b1 := below3 hm (m1.trans (by norm_num; linarith))
  have b2 := below3 hp (p1.trans (by norm_num at hb ⊢; linarith))
  have g : γ 3 ≤ 3005 / 1000 * ur := by unfold γ; norm_num [ur]
  have hu : ur = 1 / 2 ^ 24 := rfl
  have pp : ‖t.m.val‖ * ‖p.val‖ ≤ (2 + δ) * (2 + D) := mul_le_mul m1 p1 (norm_nonneg _) (by linarith)
  have ge : γ 3 * (‖t.m.val‖ * ‖p.val‖) ≤ 3005 / 1000 * ur * ((2 + δ) * (2 + D)) :=
    mul_le_mul g pp (by positivity) (by rw [hu]; positivity)
  have dp : ‖t.m.val - t.meant‖ * ‖p.val‖ ≤ δ * (2 + D) := mul_le_mul hd p1 (norm_nonneg _) δ0
  have fin : ∀ z w : ℝ, z ≤ 3005 / 1000 * ur * ((2 + δ) * (2 + D)) + 3 / 2 ^ 146 → w ≤ δ * (2 + D) + D → 1 + (z + w) ≤ (1 + D) * (1 + 13 * ur + 2 * δ) := by
    intro z w hz hw
    rw [hu] at hz ⊢
    have := mul_nonneg δ0 D0
    have := mul_le_mul_of_nonneg_right hδ D0
    norm_num at hz ⊢
    nlinarith
  unfold Turn3.mul Turn3.exact
  split
  · have f := C64_mat3_mul_finite t.m p b1 b2
    refine ⟨f, by rw [transpose_mul, Matrix.mul_assoc, ← Matrix.mul_assoc (t.meant)ᵀ, ho, Matrix.one_mul, hx], ?_⟩
    have e := err3 f
    rw [show (glm_mat3_mul t.m p).val - t.meant * x = ((glm_mat3_mul t.m p).val - t.m.val * p.val) + ((t.m.val - t.meant) * p.val + t.meant * (p.val - x)) by
      rw [Matrix.sub_mul, Matrix.mul_sub]; abel]
    have w : ‖(t.m.val - t.meant) * p.val + t.meant * (p.val - x)‖ ≤ δ * (2 + D) + D := by
      refine (norm_add_le _ _).trans (add_le_add ((frobenius_norm_mul _ _).trans dp) ?_)
      rw [fro_orth_left ho]
      exact hD
    exact (add_le_add le_rfl (norm_add_le _ _)).trans (fin _ _ (e.trans (by linarith)) w)
  · have f := C64_mat3_mul_finite p t.m b2 b1
    refine ⟨f, by rw [transpose_mul, Matrix.mul_assoc, ← Matrix.mul_assoc xᵀ, hx, Matrix.one_mul, ho], ?_⟩
    have e := err3 f
    rw [mul_comm ‖p.val‖] at e
    rw [show (glm_mat3_mul p t.m).val - x * t.meant = ((glm_mat3_mul p t.m).val - p.val * t.m.val) + (p.val * (t.m.val - t.meant) + (p.val - x) * t.meant) by
      rw [Matrix.sub_mul, Matrix.mul_sub]; abel]
    have w : ‖p.val * (t.m.val - t.meant) + (p.val - x) * t.meant‖ ≤ δ * (2 + D) + D := by
      refine (norm_add_le _ _).trans (add_le_add ((frobenius_norm_mul _ _).trans (by rw [mul_comm]; exact dp)) ?_)
      rw [fro_orth_right ho']
      exact hD
    exact (add_le_add le_rfl (norm_add_le _ _)).trans (fin _ _ (e.trans (by linarith)) w)

/-- Products of three by three matrices of floats, `δ` from orthogonal matrices, in any order from the left and from the right, starting
`d` from an orthogonal matrix: after any history `h` the entries are finite and the matrix is within
`(1 + d) (1 + 13u + 2δ)ⁿ - 1` of the exact product, as long as that power is at most `2⁵⁰`. -/
theorem C83_mat3 {δ : ℝ} (hδ : δ ≤ 1 / 16) : ∀ (h : List Turn3) (_ : ∀ t ∈ h, t.Ok δ) (p : M3 F32) (x : Matrix (Fin 3) (Fin 3) ℝ) (d : ℝ)
    (_ : p.IsFin) (_ : xᵀ * x = 1) (_ : ‖p.val - x‖ ≤ d) (_ : (1 + d) * (1 + 13 * ur + 2 * δ) ^ h.length ≤ 2 ^ 50),
    (h.foldl (fun p t => t.mul p) p).IsFin ∧
      ‖(h.foldl (fun p t => t.mul p) p).val - h.foldl (fun x t => t.exact x) x‖ ≤ (1 + d) * (1 + 13 * ur + 2 * δ) ^ h.length - 1 := by
  intro h
  induction h with
  | nil => intro _ p x d hp _ hd _; exact ⟨hp, by simpa using hd⟩
  | cons t h ih =>
    intro ht p x d hp hx hd hb
    have δ0 : 0 ≤ δ := (norm_nonneg _).trans (ht t (by simp)).2.2
    have d0 : 0 ≤ d := (norm_nonneg _).trans hd
    have q1 : 1 ≤ 1 + 13 * ur + 2 * δ := by linarith [ur_pos]
    have hdb : d ≤ 2 ^ 50 := by
      have : 1 ≤ (1 + 13 * ur + 2 * δ) ^ (t :: h).length := one_le_pow₀ q1
      have : 1 + d ≤ (1 + d) * (1 + 13 * ur + 2 * δ) ^ (t :: h).length := le_mul_of_one_le_right (by linarith) this
      linarith
    obtain ⟨s1, s2, s3⟩ := step3 (ht t (by simp)) hδ hp hx hd hdb
    have e : (1 + d) * (1 + 13 * ur + 2 * δ) ^ (t :: h).length = (1 + ((1 + d) * (1 + 13 * ur + 2 * δ) - 1)) * (1 + 13 * ur + 2 * δ) ^ h.length := by
      rw [List.length_cons, pow_succ]; ring
    rw [e] at hb ⊢
    exact ih (fun t' h' => ht t' (by simp [h'])) (t.mul p) (t.exact x) _ s1 s2 (by linarith) hb

/-- the matrix of real numbers that a matrix of floats is -/
noncomputable def M4.val (m : M4 F32) : Matrix (Fin 4) (Fin 4) ℝ := (m.map toReal).mat

omit [Libm] in
private theorem abs4 (m : M4 F32) : (m.map mag).mat = m.val.map abs := by
  ext i j; fin_cases i <;> fin_cases j <;> rfl

private theorem err4 {a b : M4 F32} (hf : (glm_mat4_mul a b).IsFin) :
    ‖(glm_mat4_mul a b).val - a.val * b.val‖ ≤ γ 4 * (‖a.val‖ * ‖b.val‖) + 4 / 2 ^ 146 := by
  obtain ⟨⟨e00, e01, e02, e03⟩, ⟨e10, e11, e12, e13⟩, ⟨e20, e21, e22, e23⟩, ⟨e30, e31, e32, e33⟩⟩ := C64_mat4_mul a b
  obtain ⟨⟨f00, f01, f02, f03⟩, ⟨f10, f11, f12, f13⟩, ⟨f20, f21, f22, f23⟩, ⟨f30, f31, f32, f33⟩⟩ := hf
  have g : 0 ≤ γ 4 := by unfold γ; norm_num [ur]
  have := fro_le (A := (glm_mat4_mul a b).val - a.val * b.val) (P := a.val) (Q := b.val) (c := γ 4) (e := 1 / 2 ^ 146) g (by norm_num) ?_
  · rw [Fintype.card_fin] at this
    refine this.trans (le_of_eq ?_)
    norm_num
  rw [← abs4, ← abs4, ← C01_mat4_mul, show a.val * b.val = _ from (C01_mat4_mul _ _).symm]
  intro i j
  fin_cases i <;> fin_cases j
  · exact e00 f00
  · exact e10 f10
  · exact e20 f20
  · exact e30 f30
  · exact e01 f01
  · exact e11 f11
  · exact e21 f21
  · exact e31 f31
  · exact e02 f02
  · exact e12 f12
  · exact e22 f22
  · exact e32 f32
  · exact e03 f03
  · exact e13 f13
  · exact e23 f23
  · exact e33 f33

omit [Libm] in
private theorem below4 {m : M4 F32} (hf : m.IsFin) (h : ‖m.val‖ ≤ 2 ^ 60) : m.Below (2 ^ 60) := by
  obtain ⟨⟨f00, f01, f02, f03⟩, ⟨f10, f11, f12, f13⟩, ⟨f20, f21, f22, f23⟩, ⟨f30, f31, f32, f33⟩⟩ := hf
  exact ⟨⟨⟨f00, (fro_entry m.val 0 0).trans h⟩, ⟨f01, (fro_entry m.val 1 0).trans h⟩, ⟨f02, (fro_entry m.val 2 0).trans h⟩, ⟨f03, (fro_entry m.val 3 0).trans h⟩⟩, ⟨⟨f10, (fro_entry m.val 0 1).trans h⟩, ⟨f11, (fro_entry m.val 1 1).trans h⟩, ⟨f12, (fro_entry m.val 2 1).trans h⟩, ⟨f13, (fro_entry m.val 3 1).trans h⟩⟩, ⟨⟨f20, (fro_entry m.val 0 2).trans h⟩, ⟨f21, (fro_entry m.val 1 2).trans h⟩, ⟨f22, (fro_entry m.val 2 2).trans h⟩, ⟨f23, (fro_entry m.val 3 2).trans h⟩⟩, ⟨⟨f30, (fro_entry m.val 0 3).trans h⟩, ⟨f31, (fro_entry m.val 1 3).trans h⟩, ⟨f32, (fro_entry m.val 2 3).trans h⟩, ⟨f33, (fro_entry m.val 3 3).trans h⟩⟩⟩

/-- A product from the left or from the right: the floats, and the orthogonal matrix that is meant. -/
structure Turn4 where
  left : Bool
  m : M4 F32
  meant : Matrix (Fin 4) (Fin 4) ℝ

namespace Turn4

/-- the floats are finite, the matrix that is meant is orthogonal, and they differ by at most `δ` -/
def Ok (δ : ℝ) (t : Turn4) : Prop := t.m.IsFin ∧ t.meantᵀ * t.meant = 1 ∧ ‖t.m.val - t.meant‖ ≤ δ
/-- the call -/
def mul (t : Turn4) (p : M4 F32) : M4 F32 := if t.left then glm_mat4_mul t.m p else glm_mat4_mul p t.m
/-- what is meant -/
noncomputable def exact (t : Turn4) (x : Matrix (Fin 4) (Fin 4) ℝ) : Matrix (Fin 4) (Fin 4) ℝ := if t.left then t.meant * x else x * t.meant

end Turn4

private theorem step4 {t : Turn4} {δ : ℝ} (ht : t.Ok δ) (hδ : δ ≤ 1 / 16) {p : M4 F32} (hp : p.IsFin) {x : Matrix (Fin 4) (Fin 4) ℝ} (hx : xᵀ * x = 1)
    {D : ℝ} (hD : ‖p.val - x‖ ≤ D) (hb : D ≤ 2 ^ 50) :
    (t.mul p).IsFin ∧ (t.exact x)ᵀ * t.exact x = 1 ∧ 1 + ‖(t.mul p).val - t.exact x‖ ≤ (1 + D) * (1 + 17 * ur + 2 * δ) := by
  obtain ⟨hm, ho, hd⟩ := ht
  have ho' := mul_eq_one_comm.mp ho
  have hx' := mul_eq_one_comm.mp hx
  have n1 : ‖t.meant‖ ≤ 2 := abs_le_of_sq_le_sq' (by rw [fro_one_sq ho']; norm_num) (by norm_num) |>.2
  have n2 : ‖x‖ ≤ 2 := abs_le_of_sq_le_sq' (by rw [fro_one_sq hx']; norm_num) (by norm_num) |>.2
  have δ0 : 0 ≤ δ := (norm_nonneg _).trans hd
  have D0 : 0 ≤ D := (norm_nonneg _).trans hD
  have m1 : ‖t.m.val‖ ≤ 2 + δ := by linarith [norm_sub_norm_le t.m.val t.meant]
  have p1 : ‖p.val‖ ≤ 2 + D := by linarith [norm_sub_norm_le p.val x]
  have b1 := below4 hm (m1.trans (by norm_num; linarith))
  have b2 := below4 hp (p1.trans (by norm_num at hb ⊢; linarith))
  have g : γ 4 ≤ 4005 / 1000 * ur := by unfold γ; norm_num [ur]
  have hu : ur = 1 / 2 ^ 24 := rfl
  have pp : ‖t.m.val‖ * ‖p.val‖ ≤ (2 + δ) * (2 + D) := mul_le_mul m1 p1 (norm_nonneg _) (by linarith)
  have ge : γ 4 * (‖t.m.val‖ * ‖p.val‖) ≤ 4005 / 1000 * ur * ((2 + δ) * (2 + D)) :=
    mul_le_mul g pp (by positivity) (by rw [hu]; positivity)
  have dp : ‖t.m.val - t.meant‖ * ‖p.val‖ ≤ δ * (2 + D) := mul_le_mul hd p1 (norm_nonneg _) δ0
  have fin : ∀ z w : ℝ, z ≤ 4005 / 1000 * ur * ((2 + δ) * (2 + D)) + 4 / 2 ^ 146 → w ≤ δ * (2 + D) + D → 1 + (z + w) ≤ (1 + D) * (1 + 17 * ur + 2 * δ) := by
    intro z w hz hw
    rw [hu] at hz ⊢
    have := mul_nonneg δ0 D0
    have := mul_le_mul_of_nonneg_right hδ D0
    norm_num at hz ⊢
    nlinarith
  unfold Turn4.mul Turn4.exact
  split
  · have f := C64_mat4_mul_finite t.m p b1 b2
    refine ⟨f, by rw [transpose_mul, Matrix.mul_assoc, ← Matrix.mul_assoc (t.meant)ᵀ, ho, Matrix.one_mul, hx], ?_⟩
    have e := err4 f
    rw [show (glm_mat4_mul t.m p).val - t.meant * x = ((glm_mat4_mul t.m p).val - t.m.val * p.val) + ((t.m.val - t.meant) * p.val + t.meant * (p.val - x)) by
      rw [Matrix.sub_mul, Matrix.mul_sub]; abel]
    have w : ‖(t.m.val - t.meant) * p.val + t.meant * (p.val - x)‖ ≤ δ * (2 + D) + D := by
      refine (norm_add_le _ _).trans (add_le_add ((frobenius_norm_mul _ _).trans dp) ?_)
      rw [fro_orth_left ho]
      exact hD
    exact (add_le_add le_rfl (norm_add_le _ _)).trans (fin _ _ (e.trans (by linarith)) w)
  · have f := C64_mat4_mul_finite p t.m b2 b1
    refine ⟨f, by rw [transpose_mul, Matrix.mul_assoc, ← Matrix.mul_assoc xᵀ, hx, Matrix.one_mul, ho], ?_⟩
    have e := err4 f
    rw [mul_comm ‖p.val‖] at e
    rw [show (glm_mat4_mul p t.m).val - x * t.meant = ((glm_mat4_mul p t.m).val - p.val * t.m.val) + (p.val * (t.m.val - t.meant) + (p.val - x) * t.meant) by
      rw [Matrix.sub_mul, Matrix.mul_sub]; abel]
    have w : ‖p.val * (t.m.val - t.meant) + (p.val - x) * t.meant‖ ≤ δ * (2 + D) + D := by
      refine (norm_add_le _ _).trans (add_le_add ((frobenius_norm_mul _ _).trans (by rw [mul_comm]; exact dp)) ?_)
      rw [fro_orth_right ho']
      exact hD
    exact (add_le_add le_rfl (norm_add_le _ _)).trans (fin _ _ (e.trans (by linarith)) w)

/-- Products of four by four matrices of floats, `δ` from orthogonal matrices, in any order from the left and from the right, starting
`d` from an orthogonal matrix: after any history `h` the entries are finite and the matrix is within
`(1 + d) (1 + 17u + 2δ)ⁿ - 1` of the exact product, as long as that power is at most `2⁵⁰`. -/
theorem C83_mat4 {δ : ℝ} (hδ : δ ≤ 1 / 16) : ∀ (h : List Turn4) (_ : ∀ t ∈ h, t.Ok δ) (p : M4 F32) (x : Matrix (Fin 4) (Fin 4) ℝ) (d : ℝ)
    (_ : p.IsFin) (_ : xᵀ * x = 1) (_ : ‖p.val - x‖ ≤ d) (_ : (1 + d) * (1 + 17 * ur + 2 * δ) ^ h.length ≤ 2 ^ 50),
    (h.foldl (fun p t => t.mul p) p).IsFin ∧
      ‖(h.foldl (fun p t => t.mul p) p).val - h.foldl (fun x t => t.exact x) x‖ ≤ (1 + d) * (1 + 17 * ur + 2 * δ) ^ h.length - 1 := by
  intro h
  induction h with
  | nil => intro _ p x d hp _ hd _; exact ⟨hp, by simpa using hd⟩
  | cons t h ih =>
    intro ht p x d hp hx hd hb
    have δ0 : 0 ≤ δ := (norm_nonneg _).trans (ht t (by simp)).2.2
    have d0 : 0 ≤ d := (norm_nonneg _).trans hd
    have q1 : 1 ≤ 1 + 17 * ur + 2 * δ := by linarith [ur_pos]
    have hdb : d ≤ 2 ^ 50 := by
      have : 1 ≤ (1 + 17 * ur + 2 * δ) ^ (t :: h).length := one_le_pow₀ q1
      have : 1 + d ≤ (1 + d) * (1 + 17 * ur + 2 * δ) ^ (t :: h).length := le_mul_of_one_le_right (by linarith) this
      linarith
    obtain ⟨s1, s2, s3⟩ := step4 (ht t (by simp)) hδ hp hx hd hdb
    have e : (1 + d) * (1 + 17 * ur + 2 * δ) ^ (t :: h).length = (1 + ((1 + d) * (1 + 17 * ur + 2 * δ) - 1)) * (1 + 17 * ur + 2 * δ) ^ h.length := by
      rw [List.length_cons, pow_succ]; ring
    rw [e] at hb ⊢
    exact ih (fun t' h' => ht t' (by simp [h'])) (t.mul p) (t.exact x) _ s1 s2 (by linarith) hb

omit [Libm] in
private theorem one_val : toReal (F32.ofRat false 1) = 1 := by
  have h : (F32.ofRat false 1).val = 1 := by decide +kernel
  unfold toReal; rw [h]; norm_num

omit [Libm] in
private theorem zero_val : toReal (F32.ofRat false 0) = 0 := by
  have h : (F32.ofRat false 0).val = 0 := by decide +kernel
  unfold toReal; rw [h]; norm_num

omit [Libm] in
private theorem neg_val : toReal (-F32.ofRat false 1) = -1 := by
  have h : (-F32.ofRat false 1 : F32).val = -1 := by decide +kernel
  unfold toReal; rw [h]; norm_num

/-- the quarter turn about the third axis, which floats hold exactly -/
noncomputable def quarter (l : Bool) : Turn3 :=
  ⟨l, ⟨⟨F32.ofRat false 0, F32.ofRat false 1, F32.ofRat false 0⟩, ⟨-F32.ofRat false 1, F32.ofRat false 0, F32.ofRat false 0⟩, ⟨F32.ofRat false 0, F32.ofRat false 0, F32.ofRat false 1⟩⟩,
    !![0, -1, 0; 1, 0, 0; 0, 0, 1]⟩

omit [Libm] in
theorem quarter_ok (l : Bool) : (quarter l).Ok 0 := by
  refine ⟨?_, ?_, ?_⟩
  · refine ⟨⟨?_, ?_, ?_⟩, ⟨?_, ?_, ?_⟩, ⟨?_, ?_, ?_⟩⟩ <;> (simp only [quarter]; decide +kernel)
  · simp only [quarter]
    ext i j; fin_cases i <;> fin_cases j <;> simp [mul_apply, Fin.sum_univ_three]
  · rw [show (quarter l).m.val = (quarter l).meant from ?_, sub_self, norm_zero]
    simp only [quarter]
    ext i j; fin_cases i <;> fin_cases j <;> simp [M3.val, M3.map, V3.map, M3.mat, one_val, zero_val, neg_val]

-- the hypotheses hold for ten thousand of these products
example : ∀ t ∈ List.replicate 5000 (quarter true) ++ List.replicate 5000 (quarter false), t.Ok 0 := by
  intro t h
  rw [List.mem_append, List.mem_replicate, List.mem_replicate] at h
  rcases h with ⟨-, rfl⟩ | ⟨-, rfl⟩ <;> exact quarter_ok _
example : (1 + 0 : ℝ) * (1 + 17 * ur + 2 * 0) ^ 10000 ≤ 2 ^ 50 := by
  have h1 : (1 + 17 * ur : ℝ) ≤ (1 + ur) ^ 17 := by have := one_add_mul_le_pow (a := ur) (by norm_num [ur]) 17; simpa using this
  have h2 : (1 + 17 * ur : ℝ) ^ 10000 ≤ ((1 + ur) ^ 17) ^ 10000 := pow_le_pow_left₀ (by norm_num [ur]) h1 _
  have h3 : (1 + ur) ^ (17 * 10000) - 1 ≤ 1 := (pow_le_γ (17 * 10000) (by norm_num [ur])).trans (by unfold γ; norm_num [ur])
  rw [pow_mul] at h3
  rw [mul_zero, add_zero, add_zero, one_mul]
  generalize (1 + 17 * ur : ℝ) ^ 10000 = a at *
  generalize ((1 + ur : ℝ) ^ 17) ^ 10000 = b at *
  linarith [show (2 : ℝ) ≤ 2 ^ 50 by norm_num]

end Cglm
