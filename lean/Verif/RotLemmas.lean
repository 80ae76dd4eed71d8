import Verif.Props.C09

/-! Helper lemmas for C11: the 4x4 matrix `4 q qᵀ` of a rotation, in terms of its entries
`⟨⟨a, b, c⟩, ⟨d, e, f⟩, ⟨g, h, i⟩⟩` (columns). -/

namespace Cglm

/-- the quadratic equations between the entries of a rotation matrix -/
structure RotEqs (a b c d e f g h i : ℝ) : Prop where
  c00 : a*a + b*b + c*c = 1
  c11 : d*d + e*e + f*f = 1
  c22 : g*g + h*h + i*i = 1
  c01 : a*d + b*e + c*f = 0
  c02 : a*g + b*h + c*i = 0
  c12 : d*g + e*h + f*i = 0
  r00 : a*a + d*d + g*g = 1
  r11 : b*b + e*e + h*h = 1
  r22 : c*c + f*f + i*i = 1
  r01 : a*b + d*e + g*h = 0
  r02 : a*c + d*f + g*i = 0
  r12 : b*c + e*f + h*i = 0
  ka : e*i - f*h = a
  kb : f*g - d*i = b
  kc : d*h - e*g = c
  kd : h*c - i*b = d
  ke : i*a - g*c = e
  kf : g*b - h*a = f
  kg : b*f - c*e = g
  kh : c*d - a*f = h
  ki : a*e - b*d = i

theorem M3.cross_of_rotation (u v w : V3 ℝ) (h1 : u.dot u = 1) (h2 : v.dot v = 1) (h3 : w.dot w = 1)
    (h23 : v.dot w = 0) (hd : u.dot (v.cross w) = 1) : v.cross w = u := by
  have h : (V3.sub (v.cross w) u).dot (V3.sub (v.cross w) u) = 0 := by
    simp only [V3.sub, V3.dot, V3.cross] at *
    linear_combination (v.x*v.x+v.y*v.y+v.z*v.z) * h3 + h2 + h1 - 2*hd - (v.x*w.x+v.y*w.y+v.z*w.z)*h23
  rw [V3.dot_self_eq_zero] at h
  simp only [V3.sub, V3.mk.injEq] at h
  ext <;> linarith [h.1, h.2.1, h.2.2]

theorem M3.IsRotation.eqs {m : M3 ℝ} (hm : m.IsRotation) :
    RotEqs m.c0.x m.c0.y m.c0.z m.c1.x m.c1.y m.c1.z m.c2.x m.c2.y m.c2.z := by
  have hrow : m.mat * m.mat.transpose = 1 := by
    have := (Matrix.mem_specialOrthogonalGroup_iff.mp hm).1
    exact (Matrix.mem_orthogonalGroup_iff (Fin 3) ℝ).mp this
  have h0 := fun i j => congrFun (congrFun hrow i) j
  have a := h0 0 0; have b := h0 1 1; have c := h0 2 2; have d := h0 0 1; have e := h0 0 2; have f := h0 1 2
  simp [M3.mat, Matrix.mul_apply, Fin.sum_univ_succ] at a b c d e f
  obtain ⟨⟨h1, h2, h3, h4, h5, h6⟩, h7⟩ := (M3.isRotation_iff m).mp hm
  have k1 := M3.cross_of_rotation m.c0 m.c1 m.c2 h1 h2 h3 h6 h7
  have k2 := M3.cross_of_rotation m.c1 m.c2 m.c0 h2 h3 h1 (by simp only [V3.dot] at *; linarith)
    (by simp only [V3.dot, V3.cross] at *; linarith)
  have k3 := M3.cross_of_rotation m.c2 m.c0 m.c1 h3 h1 h2 (by simp only [V3.dot] at *; linarith)
    (by simp only [V3.dot, V3.cross] at *; linarith)
  rw [V3.ext_iff] at k1 k2 k3
  simp only [V3.dot, V3.cross] at *
  constructor <;> linarith

theorem RotEqs.minor_w {a b c d e f g h i : ℝ} (H : RotEqs a b c d e f g h i) :
    (1 + a - e - i) * (1 + a + e + i) = (f - h) * (f - h) ∧
    (b + d) * (1 + a + e + i) = (f - h) * (g - c) ∧
    (c + g) * (1 + a + e + i) = (f - h) * (b - d) ∧
    (1 - a + e - i) * (1 + a + e + i) = (g - c) * (g - c) ∧
    (f + h) * (1 + a + e + i) = (g - c) * (b - d) ∧
    (1 - a - e + i) * (1 + a + e + i) = (b - d) * (b - d) := by
  obtain ⟨h1, h2, h3, h4, h5, h6, h7, h8, h9, h10, h11, h12, h13, h14, h15, h16, h17, h18, h19, h20, h21⟩ := H
  refine ⟨?_, ?_, ?_, ?_, ?_, ?_⟩ <;> linarith

theorem RotEqs.minor_x {a b c d e f g h i : ℝ} (H : RotEqs a b c d e f g h i) :
    (1 - a + e - i) * (1 + a - e - i) = (b + d) * (b + d) ∧
    (f + h) * (1 + a - e - i) = (b + d) * (c + g) ∧
    (g - c) * (1 + a - e - i) = (b + d) * (f - h) ∧
    (1 - a - e + i) * (1 + a - e - i) = (c + g) * (c + g) ∧
    (b - d) * (1 + a - e - i) = (c + g) * (f - h) ∧
    (1 + a + e + i) * (1 + a - e - i) = (f - h) * (f - h) := by
  obtain ⟨h1, h2, h3, h4, h5, h6, h7, h8, h9, h10, h11, h12, h13, h14, h15, h16, h17, h18, h19, h20, h21⟩ := H
  refine ⟨?_, ?_, ?_, ?_, ?_, ?_⟩ <;> linarith

theorem RotEqs.minor_y {a b c d e f g h i : ℝ} (H : RotEqs a b c d e f g h i) :
    (1 + a - e - i) * (1 - a + e - i) = (b + d) * (b + d) ∧
    (c + g) * (1 - a + e - i) = (b + d) * (f + h) ∧
    (f - h) * (1 - a + e - i) = (b + d) * (g - c) ∧
    (1 - a - e + i) * (1 - a + e - i) = (f + h) * (f + h) ∧
    (b - d) * (1 - a + e - i) = (f + h) * (g - c) ∧
    (1 + a + e + i) * (1 - a + e - i) = (g - c) * (g - c) := by
  obtain ⟨h1, h2, h3, h4, h5, h6, h7, h8, h9, h10, h11, h12, h13, h14, h15, h16, h17, h18, h19, h20, h21⟩ := H
  refine ⟨?_, ?_, ?_, ?_, ?_, ?_⟩ <;> linarith

theorem RotEqs.minor_z {a b c d e f g h i : ℝ} (H : RotEqs a b c d e f g h i) :
    (1 + a - e - i) * (1 - a - e + i) = (c + g) * (c + g) ∧
    (b + d) * (1 - a - e + i) = (c + g) * (f + h) ∧
    (f - h) * (1 - a - e + i) = (c + g) * (b - d) ∧
    (1 - a + e - i) * (1 - a - e + i) = (f + h) * (f + h) ∧
    (g - c) * (1 - a - e + i) = (f + h) * (b - d) ∧
    (1 + a + e + i) * (1 - a - e + i) = (b - d) * (b - d) := by
  obtain ⟨h1, h2, h3, h4, h5, h6, h7, h8, h9, h10, h11, h12, h13, h14, h15, h16, h17, h18, h19, h20, h21⟩ := H
  refine ⟨?_, ?_, ?_, ?_, ?_, ?_⟩ <;> linarith

/-- a quaternion whose outer product is a quarter of that matrix is a unit quaternion with matrix `m` -/
theorem quat_of_outer (m : M3 ℝ) (q : V4 ℝ)
    (hxx : 4 * (q.x * q.x) = (1 + m.c0.x - m.c1.y - m.c2.z))
    (hxy : 4 * (q.x * q.y) = (m.c0.y + m.c1.x))
    (hxz : 4 * (q.x * q.z) = (m.c0.z + m.c2.x))
    (hxw : 4 * (q.x * q.w) = (m.c1.z - m.c2.y))
    (hyy : 4 * (q.y * q.y) = (1 - m.c0.x + m.c1.y - m.c2.z))
    (hyz : 4 * (q.y * q.z) = (m.c1.z + m.c2.y))
    (hyw : 4 * (q.y * q.w) = (m.c2.x - m.c0.z))
    (hzz : 4 * (q.z * q.z) = (1 - m.c0.x - m.c1.y + m.c2.z))
    (hzw : 4 * (q.z * q.w) = (m.c0.y - m.c1.x))
    (hww : 4 * (q.w * q.w) = (1 + m.c0.x + m.c1.y + m.c2.z)) :
    ‖q.quat‖ = 1 ∧ glm_quat_mat3 q = m := by
  have hu : q.x * q.x + q.y * q.y + q.z * q.z + q.w * q.w = 1 := by linarith
  refine ⟨(V4.unit_iff q).mpr hu, ?_⟩
  rw [quat_mat3_hom q hu]
  ext <;> simp only [] <;> linarith

/-- and conversely -/
theorem outer_of_quat (q : V4 ℝ) (h : q.x * q.x + q.y * q.y + q.z * q.z + q.w * q.w = 1) (m : M3 ℝ) (hm : glm_quat_mat3 q = m) :
    4 * (q.x * q.x) = (1 + m.c0.x - m.c1.y - m.c2.z) ∧
    4 * (q.x * q.y) = (m.c0.y + m.c1.x) ∧
    4 * (q.x * q.z) = (m.c0.z + m.c2.x) ∧
    4 * (q.x * q.w) = (m.c1.z - m.c2.y) ∧
    4 * (q.y * q.y) = (1 - m.c0.x + m.c1.y - m.c2.z) ∧
    4 * (q.y * q.z) = (m.c1.z + m.c2.y) ∧
    4 * (q.y * q.w) = (m.c2.x - m.c0.z) ∧
    4 * (q.z * q.z) = (1 - m.c0.x - m.c1.y + m.c2.z) ∧
    4 * (q.z * q.w) = (m.c0.y - m.c1.x) ∧
    4 * (q.w * q.w) = (1 + m.c0.x + m.c1.y + m.c2.z) := by
  rw [quat_mat3_hom q h] at hm
  subst hm
  simp only []
  refine ⟨?_, ?_, ?_, ?_, ?_, ?_, ?_, ?_, ?_, ?_⟩ <;> linarith

/-- one branch: `k` the diagonal entry, `r` its root -/
theorem outer_step {k r A B C : ℝ} (hk : 0 < k) (hr : r * r = k) (hr0 : r ≠ 0) (h : A * k = B * C) :
    4 * ((1/2) / r * B * ((1/2) / r * C)) = A := by
  have : k ≠ 0 := hk.ne'
  field_simp
  linear_combination -4 * h - 4 * A * hr

end Cglm
