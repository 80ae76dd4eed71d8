import Verif.Props.C50

/-! # C51: projection, reflection, refraction -/

namespace Cglm

/-! ## projection on a vector -/

/-- the result is a multiple of b, and what is left of a is orthogonal to b -/
theorem C51_proj (a b : V3 ℝ) (h : b ≠ ⟨0, 0, 0⟩) :
    (∃ s, glm_vec3_proj a b = b.smul s) ∧ (a.sub (glm_vec3_proj a b)).dot b = 0 := by
  have hb : b.dot b ≠ 0 := fun e => h (V3.dot_self_eq_zero.mp e)
  have e : glm_vec3_proj a b = b.smul (a.dot b / b.dot b) := by
    ext <;> simp only [cglm, V3.smul, V3.dot] <;> ring
  refine ⟨⟨_, e⟩, ?_⟩
  rw [e]
  have : (a.sub (b.smul (a.dot b / b.dot b))).dot b = a.dot b - a.dot b / b.dot b * b.dot b := by
    simp only [V3.dot, V3.sub, V3.smul]; ring
  rw [this, div_mul_cancel₀ _ hb, sub_self]
example : (⟨1, 2, 2⟩ : V3 ℝ) ≠ ⟨0, 0, 0⟩ := by simp
/-- so it is the point of the line through b nearest to a -/
theorem C51_proj_nearest (a b : V3 ℝ) (h : b ≠ ⟨0, 0, 0⟩) (s : ℝ) : (a.sub (glm_vec3_proj a b)).len ≤ (a.sub (b.smul s)).len := by
  obtain ⟨⟨t, ht⟩, ho⟩ := C51_proj a b h
  rw [ht] at ho ⊢
  unfold V3.len
  apply Real.sqrt_le_sqrt
  have : (a.sub (b.smul s)).dot (a.sub (b.smul s)) = (a.sub (b.smul t)).dot (a.sub (b.smul t)) + (t - s) ^ 2 * b.dot b + 2 * (t - s) * (a.sub (b.smul t)).dot b := by
    simp only [V3.dot, V3.sub, V3.smul]; ring
  rw [this, ho]
  have := mul_nonneg (sq_nonneg (t - s)) b.dot_self_nonneg
  linarith
theorem C51_proj_idem (a b : V3 ℝ) (h : b ≠ ⟨0, 0, 0⟩) : glm_vec3_proj (glm_vec3_proj a b) b = glm_vec3_proj a b := by
  have hb : b.dot b ≠ 0 := fun e => h (V3.dot_self_eq_zero.mp e)
  have e : ∀ a, glm_vec3_proj a b = b.smul (a.dot b / b.dot b) := fun a => by
    ext <;> simp only [cglm, V3.smul, V3.dot] <;> ring
  rw [e, e]; congr 1
  rw [div_left_inj' hb, show (b.smul (a.dot b / b.dot b)).dot b = a.dot b / b.dot b * b.dot b by simp only [V3.dot, V3.smul]; ring,
    div_mul_cancel₀ _ hb]

/-! ## an orthogonal vector -/

theorem C51_ortho (v : V3 ℝ) : v.dot (glm_vec3_ortho v) = 0 := by
  unfold glm_vec3_ortho
  generalize modfFrac (fabsf v.x + lit 0.5) = f
  simp only [cglm, V3.dot]; ring
/-- it can be the zero vector for a non-zero input, so it does not always give a direction -/
theorem C51_ortho_refuted : glm_vec3_ortho (⟨1 / 4, 0, 1 / 3⟩ : V3 ℝ) = ⟨0, 0, 0⟩ := by
  have hf : modfFrac (fabsf (1 / 4 : ℝ) + lit 0.5) = 3 / 4 := by
    simp only [cglm, rtrunc]
    rw [abs_of_pos (by norm_num), if_pos (by norm_num)]
    have : ⌊(1 / 4 : ℝ) + 0.5⌋ = 0 := by rw [Int.floor_eq_zero_iff]; constructor <;> norm_num
    rw [this]; norm_num
  unfold glm_vec3_ortho
  dsimp only
  rw [hf]
  ext <;> simp only [glm_vec3_copy] <;> norm_num
/-- it is not zero whenever the second component is not, or the third is and the first is not -/
theorem C51_ortho_nonzero_partial (v : V3 ℝ) (h : v.y ≠ 0 ∨ (v.z = 0 ∧ v.x ≠ 0)) : glm_vec3_ortho v ≠ ⟨0, 0, 0⟩ := by
  unfold glm_vec3_ortho
  generalize modfFrac (fabsf v.x + lit 0.5) = f
  intro e
  have e1 := congrArg V3.x e; have e2 := congrArg V3.y e
  simp only [glm_vec3_copy] at e1 e2
  rcases h with h | ⟨h1, h2⟩
  · exact h (neg_eq_zero.mp e1)
  · rw [h1] at e2; exact h2 (by linarith)
example : (⟨0, 1, 5⟩ : V3 ℝ).y ≠ 0 ∨ ((⟨0, 1, 5⟩ : V3 ℝ).z = 0 ∧ (⟨0, 1, 5⟩ : V3 ℝ).x ≠ 0) := by simp

/-! ## faceforward -/

theorem C51_faceforward (n v nref : V3 ℝ) : glm_vec3_faceforward n v nref = if v.dot nref < 0 then n else n.smul (-1) := by
  unfold glm_vec3_faceforward
  simp only [glm_vec3_dot_eq, flt_real, lit_zero, decide_eq_true_eq]
  split_ifs
  · simp [cglm]
  · ext <;> simp [cglm, V3.smul]
/-- with the normal as its own reference the result never points along v -/
theorem C51_faceforward_side (n v : V3 ℝ) : v.dot (glm_vec3_faceforward n v n) ≤ 0 := by
  rw [C51_faceforward]
  split_ifs with h
  · exact h.le
  · simp only [V3.dot, V3.smul] at *; linarith

/-! ## reflection and refraction, vec2 -/

theorem V2.len_eq_one {v : V2 ℝ} : v.len = 1 ↔ v.dot v = 1 := by
  unfold V2.len; rw [Real.sqrt_eq_one]

theorem C51_vec2_reflect (v n : V2 ℝ) : glm_vec2_reflect v n = v.sub (n.smul (2 * v.dot n)) := by
  ext <;> simp only [cglm, V2.sub, V2.smul, V2.dot] <;> ring
/-- a mirror: an involution that keeps lengths, reverses the normal part and keeps the rest -/
theorem C51_vec2_reflect_involution (v n : V2 ℝ) (h : n.len = 1) : glm_vec2_reflect (glm_vec2_reflect v n) n = v := by
  have hn := V2.len_eq_one.mp h
  rw [C51_vec2_reflect _ n, C51_vec2_reflect v n]
  simp only [V2.dot] at hn
  ext <;> simp only [V2.sub, V2.smul, V2.dot]
  · linear_combination 4 * n.x * (v.x * n.x + v.y * n.y) * hn
  · linear_combination 4 * n.y * (v.x * n.x + v.y * n.y) * hn
theorem C51_vec2_reflect_len (v n : V2 ℝ) (h : n.len = 1) : (glm_vec2_reflect v n).len = v.len := by
  have hn := V2.len_eq_one.mp h
  rw [C51_vec2_reflect v n]
  unfold V2.len; congr 1
  have : (v.sub (n.smul (2 * v.dot n))).dot (v.sub (n.smul (2 * v.dot n))) = v.dot v + 4 * v.dot n ^ 2 * (n.dot n - 1) := by
    simp only [V2.dot, V2.sub, V2.smul]; ring
  rw [this, hn]; ring
theorem C51_vec2_reflect_parts (v n u : V2 ℝ) (h : n.len = 1) (hu : u.dot n = 0) :
    (glm_vec2_reflect v n).dot n = -v.dot n ∧ (glm_vec2_reflect v n).dot u = v.dot u := by
  have hn := V2.len_eq_one.mp h
  rw [C51_vec2_reflect v n]
  constructor
  · have : (v.sub (n.smul (2 * v.dot n))).dot n = v.dot n - 2 * v.dot n * n.dot n := by simp only [V2.dot, V2.sub, V2.smul]; ring
    rw [this, hn]; ring
  · have : (v.sub (n.smul (2 * v.dot n))).dot u = v.dot u - 2 * v.dot n * u.dot n := by simp only [V2.dot, V2.sub, V2.smul]; ring
    rw [this, hu]; ring
example : (⟨3/5, -4/5⟩ : V2 ℝ).len = 1 := by rw [V2.len_eq_one]; norm_num [V2.dot]

/-- the discriminant: 1 - eta² sin² -/
theorem C51_vec2_refract_fails (v n : V2 ℝ) (η : ℝ) :
    ((glm_vec2_refract v n η).1 = false ↔ 1 < η ^ 2 * (1 - n.dot v ^ 2)) ∧
    ((glm_vec2_refract v n η).1 = false → (glm_vec2_refract v n η).2 = ⟨0, 0⟩) := by
  unfold glm_vec2_refract
  simp only [glm_vec2_dot_eq, lit_one, lit_zero, flt_real, decide_eq_true_eq]
  split_ifs with h
  · refine ⟨⟨fun _ => by nlinarith, fun _ => rfl⟩, fun _ => ?_⟩
    simp [cglm]
  · refine ⟨⟨fun e => by simp at e, fun e => absurd (by nlinarith) h⟩, fun e => by simp at e⟩
/-- Snell's law for unit vectors: the part along the surface is multiplied by eta, the result has length 1 and leaves on
the far side of the surface -/
theorem C51_vec2_refract (v n : V2 ℝ) (η : ℝ) (hv : v.len = 1) (hn : n.len = 1) (hk : η ^ 2 * (1 - n.dot v ^ 2) ≤ 1) :
    (glm_vec2_refract v n η).1 = true ∧ (glm_vec2_refract v n η).2.len = 1 ∧ (glm_vec2_refract v n η).2.dot n ≤ 0 ∧
    ∀ u : V2 ℝ, u.dot n = 0 → (glm_vec2_refract v n η).2.dot u = η * v.dot u := by
  have hv' := V2.len_eq_one.mp hv
  have hn' := V2.len_eq_one.mp hn
  have k0 : ¬ 1 - η * η + η * n.dot v * (η * n.dot v) < 0 := by rw [not_lt]; nlinarith
  have e : glm_vec2_refract v n η = (true, (v.smul η).sub (n.smul (η * n.dot v + √(1 - η * η + η * n.dot v * (η * n.dot v))))) := by
    unfold glm_vec2_refract
    simp only [glm_vec2_dot_eq, lit_one, lit_zero, flt_real, decide_eq_true_eq, k0, if_false, sqrtf_real, Prod.mk.injEq, true_and]
    ext <;> simp only [cglm, V2.sub, V2.smul] <;> ring
  have hs := Real.mul_self_sqrt (not_lt.mp k0)
  have hs0 := Real.sqrt_nonneg (1 - η * η + η * n.dot v * (η * n.dot v))
  rw [e]
  dsimp only
  generalize √(1 - η * η + η * n.dot v * (η * n.dot v)) = r at *
  refine ⟨rfl, ?_, ?_, fun u hu => ?_⟩
  · rw [V2.len_eq_one]
    have : ((v.smul η).sub (n.smul (η * n.dot v + r))).dot ((v.smul η).sub (n.smul (η * n.dot v + r))) =
        η ^ 2 * v.dot v - 2 * η * (η * n.dot v + r) * n.dot v + (η * n.dot v + r) ^ 2 * n.dot n := by
      simp only [V2.dot, V2.sub, V2.smul]; ring
    rw [this, hv', hn']; linear_combination hs
  · have : ((v.smul η).sub (n.smul (η * n.dot v + r))).dot n = η * n.dot v - (η * n.dot v + r) * n.dot n := by
      simp only [V2.dot, V2.sub, V2.smul]; ring
    rw [this, hn']; linarith
  · have : ((v.smul η).sub (n.smul (η * n.dot v + r))).dot u = η * v.dot u - (η * n.dot v + r) * u.dot n := by
      simp only [V2.dot, V2.sub, V2.smul]; ring
    rw [this, hu]; ring
example : (2 : ℝ) ^ 2 * (1 - (⟨3/5, -4/5⟩ : V2 ℝ).dot ⟨3/5, -4/5⟩ ^ 2) ≤ 1 := by norm_num [V2.dot]

/-! ## reflection and refraction, vec3 -/

theorem C51_vec3_reflect (v n : V3 ℝ) : glm_vec3_reflect v n = v.sub (n.smul (2 * v.dot n)) := by
  ext <;> simp only [cglm, V3.sub, V3.smul, V3.dot] <;> ring
/-- a mirror: an involution that keeps lengths, reverses the normal part and keeps the rest -/
theorem C51_vec3_reflect_involution (v n : V3 ℝ) (h : n.len = 1) : glm_vec3_reflect (glm_vec3_reflect v n) n = v := by
  have hn := V3.len_eq_one.mp h
  rw [C51_vec3_reflect _ n, C51_vec3_reflect v n]
  simp only [V3.dot] at hn
  ext <;> simp only [V3.sub, V3.smul, V3.dot]
  · linear_combination 4 * n.x * (v.x * n.x + v.y * n.y + v.z * n.z) * hn
  · linear_combination 4 * n.y * (v.x * n.x + v.y * n.y + v.z * n.z) * hn
  · linear_combination 4 * n.z * (v.x * n.x + v.y * n.y + v.z * n.z) * hn
theorem C51_vec3_reflect_len (v n : V3 ℝ) (h : n.len = 1) : (glm_vec3_reflect v n).len = v.len := by
  have hn := V3.len_eq_one.mp h
  rw [C51_vec3_reflect v n]
  unfold V3.len; congr 1
  have : (v.sub (n.smul (2 * v.dot n))).dot (v.sub (n.smul (2 * v.dot n))) = v.dot v + 4 * v.dot n ^ 2 * (n.dot n - 1) := by
    simp only [V3.dot, V3.sub, V3.smul]; ring
  rw [this, hn]; ring
theorem C51_vec3_reflect_parts (v n u : V3 ℝ) (h : n.len = 1) (hu : u.dot n = 0) :
    (glm_vec3_reflect v n).dot n = -v.dot n ∧ (glm_vec3_reflect v n).dot u = v.dot u := by
  have hn := V3.len_eq_one.mp h
  rw [C51_vec3_reflect v n]
  constructor
  · have : (v.sub (n.smul (2 * v.dot n))).dot n = v.dot n - 2 * v.dot n * n.dot n := by simp only [V3.dot, V3.sub, V3.smul]; ring
    rw [this, hn]; ring
  · have : (v.sub (n.smul (2 * v.dot n))).dot u = v.dot u - 2 * v.dot n * u.dot n := by simp only [V3.dot, V3.sub, V3.smul]; ring
    rw [this, hu]; ring
example : (⟨3/5, -4/5, 0⟩ : V3 ℝ).len = 1 := by rw [V3.len_eq_one]; norm_num [V3.dot]

/-- the discriminant: 1 - eta² sin² -/
theorem C51_vec3_refract_fails (v n : V3 ℝ) (η : ℝ) :
    ((glm_vec3_refract v n η).1 = false ↔ 1 < η ^ 2 * (1 - n.dot v ^ 2)) ∧
    ((glm_vec3_refract v n η).1 = false → (glm_vec3_refract v n η).2 = ⟨0, 0, 0⟩) := by
  unfold glm_vec3_refract
  simp only [glm_vec3_dot_eq, lit_one, lit_zero, flt_real, decide_eq_true_eq]
  split_ifs with h
  · refine ⟨⟨fun _ => by nlinarith, fun _ => rfl⟩, fun _ => ?_⟩
    simp [cglm]
  · refine ⟨⟨fun e => by simp at e, fun e => absurd (by nlinarith) h⟩, fun e => by simp at e⟩
/-- Snell's law for unit vectors: the part along the surface is multiplied by eta, the result has length 1 and leaves on
the far side of the surface -/
theorem C51_vec3_refract (v n : V3 ℝ) (η : ℝ) (hv : v.len = 1) (hn : n.len = 1) (hk : η ^ 2 * (1 - n.dot v ^ 2) ≤ 1) :
    (glm_vec3_refract v n η).1 = true ∧ (glm_vec3_refract v n η).2.len = 1 ∧ (glm_vec3_refract v n η).2.dot n ≤ 0 ∧
    ∀ u : V3 ℝ, u.dot n = 0 → (glm_vec3_refract v n η).2.dot u = η * v.dot u := by
  have hv' := V3.len_eq_one.mp hv
  have hn' := V3.len_eq_one.mp hn
  have k0 : ¬ 1 - η * η + η * n.dot v * (η * n.dot v) < 0 := by rw [not_lt]; nlinarith
  have e : glm_vec3_refract v n η = (true, (v.smul η).sub (n.smul (η * n.dot v + √(1 - η * η + η * n.dot v * (η * n.dot v))))) := by
    unfold glm_vec3_refract
    simp only [glm_vec3_dot_eq, lit_one, lit_zero, flt_real, decide_eq_true_eq, k0, if_false, sqrtf_real, Prod.mk.injEq, true_and]
    ext <;> simp only [cglm, V3.sub, V3.smul] <;> ring
  have hs := Real.mul_self_sqrt (not_lt.mp k0)
  have hs0 := Real.sqrt_nonneg (1 - η * η + η * n.dot v * (η * n.dot v))
  rw [e]
  dsimp only
  generalize √(1 - η * η + η * n.dot v * (η * n.dot v)) = r at *
  refine ⟨rfl, ?_, ?_, fun u hu => ?_⟩
  · rw [V3.len_eq_one]
    have : ((v.smul η).sub (n.smul (η * n.dot v + r))).dot ((v.smul η).sub (n.smul (η * n.dot v + r))) =
        η ^ 2 * v.dot v - 2 * η * (η * n.dot v + r) * n.dot v + (η * n.dot v + r) ^ 2 * n.dot n := by
      simp only [V3.dot, V3.sub, V3.smul]; ring
    rw [this, hv', hn']; linear_combination hs
  · have : ((v.smul η).sub (n.smul (η * n.dot v + r))).dot n = η * n.dot v - (η * n.dot v + r) * n.dot n := by
      simp only [V3.dot, V3.sub, V3.smul]; ring
    rw [this, hn']; linarith
  · have : ((v.smul η).sub (n.smul (η * n.dot v + r))).dot u = η * v.dot u - (η * n.dot v + r) * u.dot n := by
      simp only [V3.dot, V3.sub, V3.smul]; ring
    rw [this, hu]; ring
example : (2 : ℝ) ^ 2 * (1 - (⟨3/5, -4/5, 0⟩ : V3 ℝ).dot ⟨3/5, -4/5, 0⟩ ^ 2) ≤ 1 := by norm_num [V3.dot]

/-! ## reflection and refraction, vec4 -/

/-- the w component is always taken over from v; it is the reflection in four dimensions when the normal is a direction (w = 0) -/
theorem C51_vec4_reflect_w (v n : V4 ℝ) : (glm_vec4_reflect v n).w = v.w := by simp only [cglm]

theorem C51_vec4_reflect (v n : V4 ℝ) (hw : n.w = 0) : glm_vec4_reflect v n = v.sub (n.smul (2 * v.dot n)) := by
  ext <;> simp only [cglm, V4.sub, V4.smul, V4.dot, hw] <;> ring
/-- a mirror: an involution that keeps lengths, reverses the normal part and keeps the rest -/
theorem C51_vec4_reflect_involution (v n : V4 ℝ) (hw : n.w = 0) (h : n.len = 1) : glm_vec4_reflect (glm_vec4_reflect v n) n = v := by
  have hn := V4.len_eq_one.mp h
  rw [C51_vec4_reflect _ n hw, C51_vec4_reflect v n hw]
  simp only [V4.dot] at hn
  ext <;> simp only [V4.sub, V4.smul, V4.dot]
  · linear_combination 4 * n.x * (v.x * n.x + v.y * n.y + v.z * n.z + v.w * n.w) * hn
  · linear_combination 4 * n.y * (v.x * n.x + v.y * n.y + v.z * n.z + v.w * n.w) * hn
  · linear_combination 4 * n.z * (v.x * n.x + v.y * n.y + v.z * n.z + v.w * n.w) * hn
  · linear_combination 4 * n.w * (v.x * n.x + v.y * n.y + v.z * n.z + v.w * n.w) * hn
theorem C51_vec4_reflect_len (v n : V4 ℝ) (hw : n.w = 0) (h : n.len = 1) : (glm_vec4_reflect v n).len = v.len := by
  have hn := V4.len_eq_one.mp h
  rw [C51_vec4_reflect v n hw]
  unfold V4.len; congr 1
  have : (v.sub (n.smul (2 * v.dot n))).dot (v.sub (n.smul (2 * v.dot n))) = v.dot v + 4 * v.dot n ^ 2 * (n.dot n - 1) := by
    simp only [V4.dot, V4.sub, V4.smul]; ring
  rw [this, hn]; ring
theorem C51_vec4_reflect_parts (v n u : V4 ℝ) (hw : n.w = 0) (h : n.len = 1) (hu : u.dot n = 0) :
    (glm_vec4_reflect v n).dot n = -v.dot n ∧ (glm_vec4_reflect v n).dot u = v.dot u := by
  have hn := V4.len_eq_one.mp h
  rw [C51_vec4_reflect v n hw]
  constructor
  · have : (v.sub (n.smul (2 * v.dot n))).dot n = v.dot n - 2 * v.dot n * n.dot n := by simp only [V4.dot, V4.sub, V4.smul]; ring
    rw [this, hn]; ring
  · have : (v.sub (n.smul (2 * v.dot n))).dot u = v.dot u - 2 * v.dot n * u.dot n := by simp only [V4.dot, V4.sub, V4.smul]; ring
    rw [this, hu]; ring
example : (⟨3/5, -4/5, 0, 0⟩ : V4 ℝ).len = 1 ∧ (⟨3/5, -4/5, 0, 0⟩ : V4 ℝ).w = 0 := by refine ⟨?_, rfl⟩; rw [V4.len_eq_one]; norm_num [V4.dot]

/-- the discriminant: 1 - eta² sin² -/
theorem C51_vec4_refract_fails (v n : V4 ℝ) (η : ℝ) :
    ((glm_vec4_refract v n η).1 = false ↔ 1 < η ^ 2 * (1 - n.dot v ^ 2)) ∧
    ((glm_vec4_refract v n η).1 = false → (glm_vec4_refract v n η).2 = ⟨0, 0, 0, 0⟩) := by
  unfold glm_vec4_refract
  simp only [glm_vec4_dot_eq, lit_one, lit_zero, flt_real, decide_eq_true_eq]
  split_ifs with h
  · refine ⟨⟨fun _ => by nlinarith, fun _ => rfl⟩, fun _ => ?_⟩
    simp [cglm]
  · refine ⟨⟨fun e => by simp at e, fun e => absurd (by nlinarith) h⟩, fun e => by simp at e⟩
/-- Snell's law for unit vectors: the part along the surface is multiplied by eta, the result has length 1 and leaves on
the far side of the surface -/
theorem C51_vec4_refract (v n : V4 ℝ) (η : ℝ) (hv : v.len = 1) (hn : n.len = 1) (hk : η ^ 2 * (1 - n.dot v ^ 2) ≤ 1) :
    (glm_vec4_refract v n η).1 = true ∧ (glm_vec4_refract v n η).2.len = 1 ∧ (glm_vec4_refract v n η).2.dot n ≤ 0 ∧
    ∀ u : V4 ℝ, u.dot n = 0 → (glm_vec4_refract v n η).2.dot u = η * v.dot u := by
  have hv' := V4.len_eq_one.mp hv
  have hn' := V4.len_eq_one.mp hn
  have k0 : ¬ 1 - η * η + η * n.dot v * (η * n.dot v) < 0 := by rw [not_lt]; nlinarith
  have e : glm_vec4_refract v n η = (true, (v.smul η).sub (n.smul (η * n.dot v + √(1 - η * η + η * n.dot v * (η * n.dot v))))) := by
    unfold glm_vec4_refract
    simp only [glm_vec4_dot_eq, lit_one, lit_zero, flt_real, decide_eq_true_eq, k0, if_false, sqrtf_real, Prod.mk.injEq, true_and]
    ext <;> simp only [cglm, V4.sub, V4.smul] <;> ring
  have hs := Real.mul_self_sqrt (not_lt.mp k0)
  have hs0 := Real.sqrt_nonneg (1 - η * η + η * n.dot v * (η * n.dot v))
  rw [e]
  dsimp only
  generalize √(1 - η * η + η * n.dot v * (η * n.dot v)) = r at *
  refine ⟨rfl, ?_, ?_, fun u hu => ?_⟩
  · rw [V4.len_eq_one]
    have : ((v.smul η).sub (n.smul (η * n.dot v + r))).dot ((v.smul η).sub (n.smul (η * n.dot v + r))) =
        η ^ 2 * v.dot v - 2 * η * (η * n.dot v + r) * n.dot v + (η * n.dot v + r) ^ 2 * n.dot n := by
      simp only [V4.dot, V4.sub, V4.smul]; ring
    rw [this, hv', hn']; linear_combination hs
  · have : ((v.smul η).sub (n.smul (η * n.dot v + r))).dot n = η * n.dot v - (η * n.dot v + r) * n.dot n := by
      simp only [V4.dot, V4.sub, V4.smul]; ring
    rw [this, hn']; linarith
  · have : ((v.smul η).sub (n.smul (η * n.dot v + r))).dot u = η * v.dot u - (η * n.dot v + r) * u.dot n := by
      simp only [V4.dot, V4.sub, V4.smul]; ring
    rw [this, hu]; ring
example : (2 : ℝ) ^ 2 * (1 - (⟨3/5, -4/5, 0, 0⟩ : V4 ℝ).dot ⟨3/5, -4/5, 0, 0⟩ ^ 2) ≤ 1 := by norm_num [V4.dot]

/-- in four dimensions with a non-zero n.w the result is not a reflection: it is not an involution -/
theorem C51_vec4_reflect_refuted : glm_vec4_reflect (glm_vec4_reflect (⟨0, 0, 0, 1⟩ : V4 ℝ) ⟨3/5, 0, 0, 4/5⟩) ⟨3/5, 0, 0, 4/5⟩ ≠ ⟨0, 0, 0, 1⟩ := by
  intro e
  have := congrArg V4.x e
  simp only [cglm] at this; norm_num at this

end Cglm
