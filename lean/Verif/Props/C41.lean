import Verif.Props.C40

/-! # C41: ray / triangle intersection -/

namespace Cglm

/-- `p` is a convex combination of the three vertices -/
def inTriangle (v0 v1 v2 p : V3 ℝ) : Prop :=
  ∃ a b c : ℝ, 0 ≤ a ∧ 0 ≤ b ∧ 0 ≤ c ∧ a + b + c = 1 ∧ p = ((v0.smul a).add (v1.smul b)).add (v2.smul c)
/-- point of a ray -/
def rayAt (o d : V3 ℝ) (t : ℝ) : V3 ℝ := o.add (d.smul t)
/-- volume spanned by the direction and the two edges; zero iff the ray is parallel to the triangle -/
def rayDet (d v0 v1 v2 : V3 ℝ) : ℝ := (v1.sub v0).dot (d.cross (v2.sub v0))

theorem C41_ray_at (o d : V3 ℝ) (t : ℝ) : glm_ray_at o d t = rayAt o d t := by
  ext <;> simp [cglm, rayAt, V3.add, V3.smul] <;> ring

theorem ray_triangle_eq (o d v0 v1 v2 : V3 ℝ) (dd : ℝ) : glm_ray_triangle o d v0 v1 v2 dd =
    (let D := rayDet d v0 v1 v2
     let u := 1 / D * (o.sub v0).dot (d.cross (v2.sub v0))
     let v := 1 / D * d.dot ((o.sub v0).cross (v1.sub v0))
     let t := 1 / D * (v2.sub v0).dot ((o.sub v0).cross (v1.sub v0))
     if -(1 / 10 ^ 6) < D ∧ D < 1 / 10 ^ 6 then (false, dd)
     else if u < 0 ∨ 1 < u then (false, dd) else if v < 0 ∨ 1 < u + v then (false, dd)
     else (decide (1 / 10 ^ 6 < t), t)) := by
  have e : (lit 0.000001 : ℝ) = 1 / 10 ^ 6 := by simp only [lit_scientific]; norm_num
  have hs : ∀ a b : V3 ℝ, glm_vec3_sub a b = a.sub b := fun a b => by simp [cglm, V3.sub]
  unfold glm_ray_triangle
  simp only [e, hs, glm_vec3_cross_eq, glm_vec3_dot_eq, flt_real, lit_one, lit_zero, Bool.and_eq_true, Bool.or_eq_true, decide_eq_true_eq]
  rfl

/-- Cramer's rule: the identity behind the algorithm -/
theorem cramer (o d v0 v1 v2 : V3 ℝ) (hD : rayDet d v0 v1 v2 ≠ 0) :
    let D := rayDet d v0 v1 v2
    let u := 1 / D * (o.sub v0).dot (d.cross (v2.sub v0))
    let v := 1 / D * d.dot ((o.sub v0).cross (v1.sub v0))
    let t := 1 / D * (v2.sub v0).dot ((o.sub v0).cross (v1.sub v0))
    rayAt o d t = ((v0.smul (1 - u - v)).add (v1.smul u)).add (v2.smul v) := by
  intro D u v t
  have h : 1 / D * D = 1 := one_div_mul_cancel hD
  simp only [u, v, t]
  generalize 1 / D = x at *
  simp only [D, rayDet] at h
  obtain ⟨o1, o2, o3⟩ := o; obtain ⟨d1, d2, d3⟩ := d; obtain ⟨a1, a2, a3⟩ := v0; obtain ⟨b1, b2, b3⟩ := v1; obtain ⟨c1, c2, c3⟩ := v2
  simp only [V3.dot, V3.cross, V3.sub] at h
  ext <;> simp only [rayAt, V3.add, V3.smul, V3.dot, V3.cross, V3.sub]
  · linear_combination (a1 - o1) * h
  · linear_combination (a2 - o2) * h
  · linear_combination (a3 - o3) * h

/-- a reported hit is a point of the triangle in front of the origin, at the returned distance -/
theorem C41_sound (o d v0 v1 v2 : V3 ℝ) (dd t : ℝ) (h : glm_ray_triangle o d v0 v1 v2 dd = (true, t)) :
    1 / 10 ^ 6 < t ∧ inTriangle v0 v1 v2 (rayAt o d t) := by
  rw [ray_triangle_eq] at h
  simp only [] at h
  split_ifs at h with h1 h2 h3
  · simp at h
  · simp at h
  · simp at h
  have hD : rayDet d v0 v1 v2 ≠ 0 := by
    intro h0; rw [h0] at h1; norm_num at h1
  simp only [Prod.mk.injEq, decide_eq_true_eq] at h
  push Not at h2 h3
  have hc := cramer o d v0 v1 v2 hD
  simp only [] at hc
  rw [h.2] at hc
  refine ⟨h.2 ▸ h.1, ?_⟩
  exact ⟨_, _, _, by linarith [h3.2], h2.1, h3.1, by ring, hc⟩

/-- every such point is reported, with its distance, unless the determinant is within 1e-6 of zero -/
theorem C41_complete (o d v0 v1 v2 : V3 ℝ) (dd t : ℝ) (hD : 1 / 10 ^ 6 ≤ |rayDet d v0 v1 v2|) (ht : 1 / 10 ^ 6 < t)
    (hp : inTriangle v0 v1 v2 (rayAt o d t)) : glm_ray_triangle o d v0 v1 v2 dd = (true, t) := by
  obtain ⟨a, b, c, ha, hb, hc, hs, e⟩ := hp
  have hD0 : rayDet d v0 v1 v2 ≠ 0 := by
    intro h0; rw [h0] at hD; norm_num at hD
  have hD1 : ¬ (-(1 / 10 ^ 6) < rayDet d v0 v1 v2 ∧ rayDet d v0 v1 v2 < 1 / 10 ^ 6) := by
    rw [← abs_lt]; exact not_lt.mpr hD
  have ha' : a = 1 - b - c := by linarith
  have ho : o = ((v0.add ((v1.sub v0).smul b)).add ((v2.sub v0).smul c)).sub (d.smul t) := by
    have hx := congrArg V3.x e; have hy := congrArg V3.y e; have hz := congrArg V3.z e
    simp only [rayAt, V3.add, V3.smul, ha'] at hx hy hz
    ext <;> simp only [V3.add, V3.smul, V3.sub] <;> linarith
  have hu : 1 / rayDet d v0 v1 v2 * (o.sub v0).dot (d.cross (v2.sub v0)) = b := by
    have : (o.sub v0).dot (d.cross (v2.sub v0)) = b * rayDet d v0 v1 v2 := by
      rw [ho]; simp only [rayDet, V3.add, V3.smul, V3.sub, V3.dot, V3.cross]; ring
    rw [this]; field_simp
  have hv : 1 / rayDet d v0 v1 v2 * d.dot ((o.sub v0).cross (v1.sub v0)) = c := by
    have : d.dot ((o.sub v0).cross (v1.sub v0)) = c * rayDet d v0 v1 v2 := by
      rw [ho]; simp only [rayDet, V3.add, V3.smul, V3.sub, V3.dot, V3.cross]; ring
    rw [this]; field_simp
  have hw : 1 / rayDet d v0 v1 v2 * (v2.sub v0).dot ((o.sub v0).cross (v1.sub v0)) = t := by
    have : (v2.sub v0).dot ((o.sub v0).cross (v1.sub v0)) = t * rayDet d v0 v1 v2 := by
      rw [ho]; simp only [rayDet, V3.add, V3.smul, V3.sub, V3.dot, V3.cross]; ring
    rw [this]; field_simp
  rw [ray_triangle_eq]
  simp only [hu, hv, hw, if_neg hD1]
  rw [if_neg (by push Not; constructor <;> linarith), if_neg (by push Not; constructor <;> linarith)]
  rw [decide_eq_true ht]

/-- near-parallel rays are rejected and leave the distance alone -/
theorem C41_parallel (o d v0 v1 v2 : V3 ℝ) (dd : ℝ) (hD : |rayDet d v0 v1 v2| < 1 / 10 ^ 6) :
    glm_ray_triangle o d v0 v1 v2 dd = (false, dd) := by
  rw [ray_triangle_eq]
  simp only [if_pos (abs_lt.mp hD)]

/-- the ray from (1/4,1/4,1) downwards hits the unit triangle at distance 1 -/
example : glm_ray_triangle (⟨1/4, 1/4, 1⟩ : V3 ℝ) ⟨0, 0, -1⟩ ⟨0, 0, 0⟩ ⟨1, 0, 0⟩ ⟨0, 1, 0⟩ 7 = (true, 1) := by
  apply C41_complete
  · norm_num [rayDet, V3.sub, V3.dot, V3.cross]
  · norm_num
  · exact ⟨1/2, 1/4, 1/4, by norm_num, by norm_num, by norm_num, by norm_num, by ext <;> norm_num [rayAt, V3.add, V3.smul]⟩

end Cglm
