import Verif.Assoc
import Verif.Gen
/-! # C96: the order in the code is one of those quantified over, orders agree on small integers, and elsewhere they may differ -/
open Cglm F32
namespace Cglm

/-- **As written.**  Computing the expression of the code in the order it has there gives the binary32 result of the code. -/
theorem C96_as_written [Libm] (a b : V3 F32) (c d : V4 F32) (m n : M4 F32) :
    (glm_vec3_dot (a.map .inp) (b.map .inp) : X).run = glm_vec3_dot a b ∧
    (glm_vec3_cross (a.map .inp) (b.map .inp) : V3 X).map X.run = glm_vec3_cross a b ∧
    (glm_vec4_dot (c.map .inp) (d.map .inp) : X).run = glm_vec4_dot c d ∧
    (glm_mat4_mulv (m.map .inp) (c.map .inp) : V4 X).map X.run = glm_mat4_mulv m c ∧
    (glm_mat4_mul (m.map .inp) (n.map .inp) : M4 X).map X.run = glm_mat4_mul m n :=
  ⟨rfl, rfl, rfl, rfl, rfl⟩

/-- **Pairwise sums**, the order of the vector instructions, are a reordering of the dot product in the code. -/
theorem C96_pairwise [Libm] (a b : V4 X) :
    Reassoc (glm_vec4_dot a b) (.add (.add (.mul a.x b.x) (.mul a.y b.y)) (.add (.mul a.z b.z) (.mul a.w b.w))) :=
  .add_assoc _ _ _

/-- **Any two orders** of a sum of products of numbers on a grid that fits 24 bits have the same value. -/
theorem C96_orders_agree {s t u : X} (h : Reassoc s t) (h' : Reassoc s u) (hf : s.flat = true) {e : ℤ} {K : ℕ} (g : s.Grid e K)
    (hK : K ≤ 2 ^ 24) (lo : -149 ≤ e) (hi : e ≤ 103) : t.run.isFin = true ∧ u.run.isFin = true ∧ t.run.toReal = u.run.toReal := by
  have a := h.exact hf g le_rfl hK lo hi rfl rfl
  have b := h'.exact hf g le_rfl hK lo hi rfl rfl
  exact ⟨a.1.1, b.1.1, a.2.trans b.2.symm⟩

private def big : F32 := .ofRat false (2 ^ 24)
private def one : F32 := .ofRat false 1
private def bigm : F32 := .ofRat false (-2 ^ 24)

/-- **The orders differ**: the sum of `(2^24, 1, -2^24)` is 0 from left to right and 1 when the first and the last are added first. -/
theorem C96_differ [Libm] : ∃ (v : V3 F32) (t : X), Reassoc (glm_vec3_hadd (v.map .inp)) t ∧
    t.run.isFin = true ∧ (glm_vec3_hadd v).isFin = true ∧ t.run.toReal ≠ (glm_vec3_hadd v).toReal := by
  refine ⟨⟨big, one, bigm⟩, .add (.inp one) (.add (.inp big) (.inp bigm)), ?_, by decide +kernel, ?_, ?_⟩
  · exact .trans (.add (.add_comm _ _) (.refl _)) (.add_assoc _ _ _)
  · show (big + one + bigm).isFin = true
    decide +kernel
  · show (one + (big + bigm)).toReal ≠ (big + one + bigm).toReal
    unfold toReal
    rw [show (one + (big + bigm)).val = 1 by decide +kernel, show (big + one + bigm).val = 0 by decide +kernel]
    norm_num

/-- non-vacuity: the sum in the code, reordered, and small integers that meet the hypotheses of `C96_orders_agree` -/
example : ∃ s t u : X, s.run ≠ s.neg.run ∧ t ≠ u ∧ Reassoc s t ∧ Reassoc s u ∧ s.flat = true ∧ s.Grid 0 3 := by
  have h : one.On 0 1 := ⟨by decide +kernel, 1, by norm_num, by rw [show one.val = 1 by decide +kernel]; norm_num⟩
  refine ⟨.add (.add (.inp one) (.mul (.inp one) (.inp one))) (.inp one), _, _, by decide +kernel, ?_, .refl _, .add_assoc _ _ _, rfl, ?_⟩
  · simp
  · exact ⟨2, 1, rfl, ⟨1, 1, rfl, h, 0, 0, 1, 1, rfl, rfl, h, h⟩, h⟩

end Cglm
