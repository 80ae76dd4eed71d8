import Verif.Contract
import Verif.F32Mono
import Verif.F32Norm
import Verif.Gen
/-!
# C79: lengths under contraction, and what contraction breaks

`π` is an arbitrary policy of a compiler for fusing products and sums (`Contract.lean`).
-/
set_option linter.unusedSectionVars false
open Cglm F32
namespace Cglm
variable [Libm] {π : Policy}

/-! ### a compiler that never contracts -/

/-- with no contraction every operation of a run is that of binary32: the claims about plain runs are the case `noFuse` -/
theorem C79_noFuse (a b : Ctr noFuse) (q : ℚ) :
    (a + b).val = a.val + b.val ∧ (a - b).val = a.val - b.val ∧ (a * b).val = a.val * b.val ∧ (a / b).val = a.val / b.val ∧
    (-a).val = -a.val ∧ (CFloat.lit q : Ctr noFuse).val = CFloat.lit q ∧ (CFloat.sqrtf a).val = CFloat.sqrtf a.val ∧
    CFloat.flt a b = CFloat.flt a.val b.val ∧ CFloat.fle a b = CFloat.fle a.val b.val ∧ CFloat.feq a b = CFloat.feq a.val b.val :=
  ⟨Ctr.noFuse_add a b, Ctr.noFuse_sub a b, rfl, rfl, rfl, rfl, rfl, rfl, rfl, rfl⟩

/-- for instance the dot product -/
theorem C79_noFuse_vec3_dot (a b : V3 Named) :
    (glm_vec3_dot (a.map (Named.run noFuse)) (b.map (Named.run noFuse))).val = glm_vec3_dot (a.map Named.val) (b.map Named.val) := by
  simp only [cglm, V3.map, Ctr.noFuse_add, Ctr.mul_val, Ctr.run_val]

/-! ### squared lengths are never negative, lengths never NaN -/

/-- a number that is not NaN and not negative -/
def NonNeg (f : F32) : Prop := f ≠ nan ∧ 0 ≤ key f

/-- not negative; if it is a product, it is a square -/
private def SqC (v : Ctr π) : Prop := NonNeg v.val ∧ ∀ p q, v.prod = some (p, q) → p = q ∧ p ≠ nan

private theorem fma_sq {p c : F32} (hp : p ≠ nan) (hc : NonNeg c) : NonNeg (fusedMulAdd p p c) := by
  unfold fusedMulAdd
  by_cases h : p.isFin = true
  · by_cases h' : c.isFin = true
    · rw [if_pos (by simp [h, h'])]
      refine ⟨ofRat_ne_nan _ _, ?_⟩
      have hv : 0 ≤ p.val * p.val + c.val := by
        have := hc.2
        rw [key_fin h'] at this
        have := mul_self_nonneg p.val
        linarith
      have := ofRat_mono (s := false) (t := (p.sgn != p.sgn) && c.sgn) hv
      rw [ofRat_zero] at this
      exact (key_le_iff.mp this).2.2
    · rw [if_neg (by simp [h']), if_pos (by simp [h])]
      exact hc
  · have n : ¬(p.isFin && p.isFin) = true := by simp [h]
    rw [if_neg (by simp [h]), if_neg n]
    exact add_nonneg_ne (sq_ne_nan hp) hc.1 (sq_nonneg' p) hc.2

private theorem SqC.sq {v : Ctr π} (h : v.val ≠ nan) : SqC (v * v) :=
  ⟨⟨sq_ne_nan h, sq_nonneg' _⟩, fun p q e => by cases e; exact ⟨rfl, h⟩⟩

private theorem SqC.add {v w : Ctr π} (hv : SqC v) (hw : SqC w) : SqC (v + w) := by
  refine ⟨?_, fun p q e => nomatch e⟩
  show NonNeg (Ctr.sum _ v w)
  generalize π (.op2 0 v.tree w.tree) = d
  unfold Ctr.sum
  split
  · next p q h =>
    obtain ⟨rfl, hp⟩ := hv.2 p q h
    exact fma_sq hp hw.1
  · next p q h =>
    obtain ⟨rfl, hp⟩ := hw.2 p q h
    exact fma_sq hp hv.1
  · exact add_nonneg_ne hv.1.1 hw.1.1 hv.1.2 hw.1.2

/-- the square root of a number that is not negative -/
private theorem NonNeg.sqrt {f : F32} (h : NonNeg f) : NonNeg (F32.sqrt f) := by
  have h0 : le (F32.zero false) f = true := key_le_iff.mpr ⟨nofun, h.1, h.2⟩
  have hn : F32.sqrt f ≠ nan := sqrt_ne_nan h.1 h.2
  exact ⟨hn, (key_le_iff.mp (sqrt_le_sqrt' h0 (fun e => F32.noConfusion e))).2.2⟩

/-- a squared length is never negative and never NaN unless a component is NaN -/
theorem C79_vec2_norm2_nonneg (π : Policy) (v : V2 Named) (h : v.x.val ≠ nan ∧ v.y.val ≠ nan) :
    NonNeg (glm_vec2_norm2 (v.map (Named.run π))).val := by
  obtain ⟨hx, hy⟩ := h
  simp only [cglm, V2.map]
  exact (((SqC.sq hx).add (SqC.sq hy)) : SqC _).1

/-- a length is never NaN unless a component is NaN -/
theorem C79_vec2_norm_nonneg (π : Policy) (v : V2 Named) (h : v.x.val ≠ nan ∧ v.y.val ≠ nan) :
    NonNeg (glm_vec2_norm (v.map (Named.run π))).val :=
  (C79_vec2_norm2_nonneg π v h).sqrt

private theorem diff_ne {a b : Named} (ha : a.val.isFin = true) (hb : b.val.isFin = true) : (a.run π - b.run π).val ≠ nan := by
  rw [Ctr.sub_val _ _ rfl rfl]
  rw [F32.sub_def, Ctr.run_val, Ctr.run_val]
  obtain ⟨s, e⟩ := add_ofRat ha (b := -b.val) (by rwa [neg_isFin])
  rw [e]; exact ofRat_ne_nan _ _

/-- a squared distance of finite points is never negative and never NaN -/
theorem C79_vec2_distance2_nonneg (π : Policy) (a b : V2 Named)
    (h : a.x.val.isFin = true ∧ b.x.val.isFin = true ∧ a.y.val.isFin = true ∧ b.y.val.isFin = true) :
    NonNeg (glm_vec2_distance2 (a.map (Named.run π)) (b.map (Named.run π))).val := by
  obtain ⟨ax, qx, ay, qy⟩ := h
  simp only [cglm, V2.map]
  exact (((SqC.sq (v := b.x.run π - a.x.run π) (diff_ne qx ax)).add (SqC.sq (v := b.y.run π - a.y.run π) (diff_ne qy ay))) : SqC _).1

/-- a distance of finite points is never NaN -/
theorem C79_vec2_distance_nonneg (π : Policy) (a b : V2 Named)
    (h : a.x.val.isFin = true ∧ b.x.val.isFin = true ∧ a.y.val.isFin = true ∧ b.y.val.isFin = true) :
    NonNeg (glm_vec2_distance (a.map (Named.run π)) (b.map (Named.run π))).val :=
  (C79_vec2_distance2_nonneg π a b h).sqrt

/-- a squared length is never negative and never NaN unless a component is NaN -/
theorem C79_vec3_norm2_nonneg (π : Policy) (v : V3 Named) (h : v.x.val ≠ nan ∧ v.y.val ≠ nan ∧ v.z.val ≠ nan) :
    NonNeg (glm_vec3_norm2 (v.map (Named.run π))).val := by
  obtain ⟨hx, hy, hz⟩ := h
  simp only [cglm, V3.map]
  exact ((((SqC.sq hx).add (SqC.sq hy)).add (SqC.sq hz)) : SqC _).1

/-- a length is never NaN unless a component is NaN -/
theorem C79_vec3_norm_nonneg (π : Policy) (v : V3 Named) (h : v.x.val ≠ nan ∧ v.y.val ≠ nan ∧ v.z.val ≠ nan) :
    NonNeg (glm_vec3_norm (v.map (Named.run π))).val :=
  (C79_vec3_norm2_nonneg π v h).sqrt

/-- a squared distance of finite points is never negative and never NaN -/
theorem C79_vec3_distance2_nonneg (π : Policy) (a b : V3 Named)
    (h : a.x.val.isFin = true ∧ b.x.val.isFin = true ∧ a.y.val.isFin = true ∧ b.y.val.isFin = true ∧ a.z.val.isFin = true ∧ b.z.val.isFin = true) :
    NonNeg (glm_vec3_distance2 (a.map (Named.run π)) (b.map (Named.run π))).val := by
  obtain ⟨ax, qx, ay, qy, az, qz⟩ := h
  simp only [cglm, V3.map]
  exact ((((SqC.sq (v := a.x.run π - b.x.run π) (diff_ne ax qx)).add (SqC.sq (v := a.y.run π - b.y.run π) (diff_ne ay qy))).add (SqC.sq (v := a.z.run π - b.z.run π) (diff_ne az qz))) : SqC _).1

/-- a distance of finite points is never NaN -/
theorem C79_vec3_distance_nonneg (π : Policy) (a b : V3 Named)
    (h : a.x.val.isFin = true ∧ b.x.val.isFin = true ∧ a.y.val.isFin = true ∧ b.y.val.isFin = true ∧ a.z.val.isFin = true ∧ b.z.val.isFin = true) :
    NonNeg (glm_vec3_distance (a.map (Named.run π)) (b.map (Named.run π))).val :=
  (C79_vec3_distance2_nonneg π a b h).sqrt

/-- a squared length is never negative and never NaN unless a component is NaN -/
theorem C79_vec4_norm2_nonneg (π : Policy) (v : V4 Named) (h : v.x.val ≠ nan ∧ v.y.val ≠ nan ∧ v.z.val ≠ nan ∧ v.w.val ≠ nan) :
    NonNeg (glm_vec4_norm2 (v.map (Named.run π))).val := by
  obtain ⟨hx, hy, hz, hw⟩ := h
  simp only [cglm, V4.map]
  exact (((((SqC.sq hx).add (SqC.sq hy)).add (SqC.sq hz)).add (SqC.sq hw)) : SqC _).1

/-- a length is never NaN unless a component is NaN -/
theorem C79_vec4_norm_nonneg (π : Policy) (v : V4 Named) (h : v.x.val ≠ nan ∧ v.y.val ≠ nan ∧ v.z.val ≠ nan ∧ v.w.val ≠ nan) :
    NonNeg (glm_vec4_norm (v.map (Named.run π))).val :=
  (C79_vec4_norm2_nonneg π v h).sqrt

/-- a squared distance of finite points is never negative and never NaN -/
theorem C79_vec4_distance2_nonneg (π : Policy) (a b : V4 Named)
    (h : a.x.val.isFin = true ∧ b.x.val.isFin = true ∧ a.y.val.isFin = true ∧ b.y.val.isFin = true ∧ a.z.val.isFin = true ∧ b.z.val.isFin = true ∧ a.w.val.isFin = true ∧ b.w.val.isFin = true) :
    NonNeg (glm_vec4_distance2 (a.map (Named.run π)) (b.map (Named.run π))).val := by
  obtain ⟨ax, qx, ay, qy, az, qz, aw, qw⟩ := h
  simp only [cglm, V4.map]
  exact (((((SqC.sq (v := a.x.run π - b.x.run π) (diff_ne ax qx)).add (SqC.sq (v := a.y.run π - b.y.run π) (diff_ne ay qy))).add (SqC.sq (v := a.z.run π - b.z.run π) (diff_ne az qz))).add (SqC.sq (v := a.w.run π - b.w.run π) (diff_ne aw qw))) : SqC _).1

/-- a distance of finite points is never NaN -/
theorem C79_vec4_distance_nonneg (π : Policy) (a b : V4 Named)
    (h : a.x.val.isFin = true ∧ b.x.val.isFin = true ∧ a.y.val.isFin = true ∧ b.y.val.isFin = true ∧ a.z.val.isFin = true ∧ b.z.val.isFin = true ∧ a.w.val.isFin = true ∧ b.w.val.isFin = true) :
    NonNeg (glm_vec4_distance (a.map (Named.run π)) (b.map (Named.run π))).val :=
  (C79_vec4_distance2_nonneg π a b h).sqrt

/-! ### error of lengths and distances -/

theorem C79_vec2_norm (π : Policy) (v : V2 Named) :
    Err (glm_vec2_norm (v.map (Named.run π))).val (glm_vec2_norm (v.map Named.real)) (γ 3) (glm_vec2_norm (v.map Named.real)) (1 / 2 ^ 72) := by
  simp only [cglm, V2.map, Ctr.sqrt_val, sqrtf_f32, Named.real]
  refine Near.err (k := 3) (Near.le (Near.sqrt ((show NearC _ _ _ _ _ by nearc).1.le (M' := v.x.val.toReal * v.x.val.toReal + v.y.val.toReal * v.y.val.toReal)
    (k' := 2) (e' := 1 / 2 ^ 146) ?_ ?_ ?_)) le_rfl le_rfl sqrt_e) 3 le_rfl (by norm_num [ur]) ?_ ?_ le_rfl
  · simp only [abs_mul_abs_self]; exact le_rfl
  · norm_num
  · norm_num [ur, ηr]
  · rfl
  · exact le_rfl

theorem C79_vec3_norm (π : Policy) (v : V3 Named) :
    Err (glm_vec3_norm (v.map (Named.run π))).val (glm_vec3_norm (v.map Named.real)) (γ 4) (glm_vec3_norm (v.map Named.real)) (1 / 2 ^ 72) := by
  simp only [cglm, V3.map, Ctr.sqrt_val, sqrtf_f32, Named.real]
  refine Near.err (k := 4) (Near.le (Near.sqrt ((show NearC _ _ _ _ _ by nearc).1.le (M' := v.x.val.toReal * v.x.val.toReal + v.y.val.toReal * v.y.val.toReal + v.z.val.toReal * v.z.val.toReal)
    (k' := 3) (e' := 1 / 2 ^ 146) ?_ ?_ ?_)) le_rfl le_rfl sqrt_e) 4 le_rfl (by norm_num [ur]) ?_ ?_ le_rfl
  · simp only [abs_mul_abs_self]; exact le_rfl
  · norm_num
  · norm_num [ur, ηr]
  · rfl
  · exact le_rfl

theorem C79_vec4_norm (π : Policy) (v : V4 Named) :
    Err (glm_vec4_norm (v.map (Named.run π))).val (glm_vec4_norm (v.map Named.real)) (γ 5) (glm_vec4_norm (v.map Named.real)) (1 / 2 ^ 72) := by
  simp only [cglm, V4.map, Ctr.sqrt_val, sqrtf_f32, Named.real]
  refine Near.err (k := 5) (Near.le (Near.sqrt ((show NearC _ _ _ _ _ by nearc).1.le (M' := v.x.val.toReal * v.x.val.toReal + v.y.val.toReal * v.y.val.toReal + v.z.val.toReal * v.z.val.toReal + v.w.val.toReal * v.w.val.toReal)
    (k' := 4) (e' := 1 / 2 ^ 146) ?_ ?_ ?_)) le_rfl le_rfl sqrt_e) 5 le_rfl (by norm_num [ur]) ?_ ?_ le_rfl
  · simp only [abs_mul_abs_self]; exact le_rfl
  · norm_num
  · norm_num [ur, ηr]
  · rfl
  · exact le_rfl

theorem C79_quat_norm (π : Policy) (v : V4 Named) :
    Err (glm_quat_norm (v.map (Named.run π))).val (glm_quat_norm (v.map Named.real)) (γ 5) (glm_quat_norm (v.map Named.real)) (1 / 2 ^ 72) := by
  simp only [cglm, V4.map, Ctr.sqrt_val, sqrtf_f32, Named.real]
  refine Near.err (k := 5) (Near.le (Near.sqrt ((show NearC _ _ _ _ _ by nearc).1.le (M' := v.x.val.toReal * v.x.val.toReal + v.y.val.toReal * v.y.val.toReal + v.z.val.toReal * v.z.val.toReal + v.w.val.toReal * v.w.val.toReal)
    (k' := 4) (e' := 1 / 2 ^ 146) ?_ ?_ ?_)) le_rfl le_rfl sqrt_e) 5 le_rfl (by norm_num [ur]) ?_ ?_ le_rfl
  · simp only [abs_mul_abs_self]; exact le_rfl
  · norm_num
  · norm_num [ur, ηr]
  · rfl
  · exact le_rfl

/-! ### what contraction breaks -/

/-- a compiler that fuses the left product of every sum -/
def fuseLeft : Policy := fun _ => .left
/-- a compiler that fuses the right product of every sum -/
def fuseRight : Policy := fun _ => .right

/-- `1 + 2^-12`, whose square is not representable -/
private def w : Named := ⟨ofRat false (4097 / 4096), 0⟩

omit [Libm] in
private theorem w_sq : fusedMulAdd w.val w.val (-(w.val * w.val)) ≠ F32.zero false := by decide +kernel

/-- without contraction the cross product of a finite vector with itself is zero; a compiler that contracts may return something
else -/
theorem C79_cross_self_fails : ∃ (π : Policy) (a : V3 Named), (∀ q ∈ [a.x, a.y, a.z], q.val.isFin = true ∧ |q.val.val| ≤ 2) ∧
    ¬ CFloat.feq (glm_vec3_cross (a.map (Named.run π)) (a.map (Named.run π))).x.val (CFloat.lit 0) = true := by
  refine ⟨fuseLeft, ⟨w, w, w⟩, ?_, ?_⟩
  · decide +kernel
  · have : (glm_vec3_cross ((⟨w, w, w⟩ : V3 Named).map (Named.run fuseLeft)) ((⟨w, w, w⟩ : V3 Named).map (Named.run fuseLeft))).x.val =
      fusedMulAdd w.val w.val (-(w.val * w.val)) := rfl
    rw [this, lit_f32, feq_f32]
    decide +kernel

/-- a matrix with equal columns may get a determinant other than zero -/
theorem C79_mat2_det_singular_fails : ∃ (π : Policy) (m : M2 Named), m.c0 = m.c1 ∧ (∀ q ∈ [m.c0.x, m.c0.y], q.val.isFin = true ∧ |q.val.val| ≤ 2) ∧
    ¬ CFloat.feq (glm_mat2_det (m.map (Named.run π))).val (CFloat.lit 0) = true := by
  refine ⟨fuseLeft, ⟨⟨w, w⟩, ⟨w, w⟩⟩, rfl, ?_, ?_⟩
  · decide +kernel
  · have : (glm_mat2_det ((⟨⟨w, w⟩, ⟨w, w⟩⟩ : M2 Named).map (Named.run fuseLeft))).val =
      fusedMulAdd w.val w.val (-(w.val * w.val)) := rfl
    rw [this, lit_f32, feq_f32]
    decide +kernel

/-- two compilers may disagree on the determinant of the same matrix, even on its sign -/
theorem C79_sign_fails : ∃ m : M2 Named,
    CFloat.flt (CFloat.lit 0) (glm_mat2_det (m.map (Named.run fuseLeft))).val = true ∧
    CFloat.flt (glm_mat2_det (m.map (Named.run fuseRight))).val (CFloat.lit 0) = true := by
  refine ⟨⟨⟨w, w⟩, ⟨w, w⟩⟩, ?_, ?_⟩
  · have : (glm_mat2_det ((⟨⟨w, w⟩, ⟨w, w⟩⟩ : M2 Named).map (Named.run fuseLeft))).val =
      fusedMulAdd w.val w.val (-(w.val * w.val)) := rfl
    rw [this, lit_f32, flt_f32]
    decide +kernel
  · have : (glm_mat2_det ((⟨⟨w, w⟩, ⟨w, w⟩⟩ : M2 Named).map (Named.run fuseRight))).val =
      fusedMulAdd (-w.val) w.val (w.val * w.val) := rfl
    rw [this, lit_f32, flt_f32]
    decide +kernel

/-! ### the hypotheses are met -/

/-- finite components -/
example : ∃ v : V3 Named, v.x.val ≠ nan ∧ v.y.val ≠ nan ∧ v.z.val ≠ nan ∧ fuseLeft (.input 0) = .left :=
  ⟨⟨w, w, w⟩, by decide +kernel, by decide +kernel, by decide +kernel, rfl⟩

/-- integers up to 2000 -/
example : (⟨⟨ofRat false 2000, 1⟩, ⟨ofRat false (-7), 2⟩⟩ : V2 Named).x.val.On 0 2000 := ⟨by decide +kernel, 2000, by norm_num, by decide +kernel⟩

end Cglm
