import Verif.Props.C77
/-!
# C77: order survives rounding, vectors

Written by tools/monothms.py.  `V3.Le` compares component by component, `V3.Num` says that no component is NaN,
`V3.LeAbs` compares magnitudes.
-/
open Cglm F32
namespace Cglm
set_option linter.unusedSectionVars false
set_option linter.unusedSimpArgs false
variable [Libm]

/-- builds the comparison of two expressions of the same shape -/
macro "leN" : tactic => `(tactic| repeat' (first
  | with_reducible exact LeN.refl _ | exact LeN.of (by assumption) | with_reducible apply LeN.add
  | with_reducible apply LeN.sub | (with_reducible refine LeN.mulL ?_ ?_ <;> first | assumption | skip)
  | (with_reducible refine LeN.mulR ?_ ?_ <;> first | assumption | skip)))

theorem F32.nonneg_key {a : F32} (h : le (zero false) a = true) : 0 ≤ key a := (key_le_iff.mp h).2.2

theorem F32.le_max_of {a a' b b' : F32} (ha : le a a' = true) (hb : le b b' = true) :
    le (if lt a b = true then b else a) (if lt a' b' = true then b' else a') = true := by
  simp only [key_le_iff] at ha hb ⊢
  split_ifs with c1 c2 c2 <;> simp only [key_lt_iff] at c1 c2 <;> simp_all <;> linarith

theorem F32.le_min_of {a a' b b' : F32} (ha : le a a' = true) (hb : le b b' = true) :
    le (if lt b a = true then b else a) (if lt b' a' = true then b' else a') = true := by
  simp only [key_le_iff] at ha hb ⊢
  split_ifs with c1 c2 c2 <;> simp only [key_lt_iff] at c1 c2 <;> simp_all <;> linarith

theorem F32.max3_eq (v : V3 F32) : glm_vec3_max v = (if lt (if lt v.x v.y = true then v.y else v.x) v.z = true then v.z else (if lt v.x v.y = true then v.y else v.x)) := by
  simp only [cglm, flt_f32]
  split_ifs <;> rfl

theorem F32.max4_eq (v : V4 F32) : glm_vec4_max v =
    (if lt (if lt (if lt v.x v.y = true then v.y else v.x) v.z = true then v.z else (if lt v.x v.y = true then v.y else v.x)) v.w = true then v.w else (if lt (if lt v.x v.y = true then v.y else v.x) v.z = true then v.z else (if lt v.x v.y = true then v.y else v.x))) := by
  have h := max3_eq ⟨v.x, v.y, v.z⟩
  rw [glm_vec4_max, h]; rfl

theorem F32.min3_eq (v : V3 F32) : glm_vec3_min v = (if lt v.z (if lt v.y v.x = true then v.y else v.x) = true then v.z else (if lt v.y v.x = true then v.y else v.x)) := by
  simp only [cglm, flt_f32]
  split_ifs <;> rfl

theorem F32.min4_eq (v : V4 F32) : glm_vec4_min v =
    (if lt v.w (if lt v.z (if lt v.y v.x = true then v.y else v.x) = true then v.z else (if lt v.y v.x = true then v.y else v.x)) = true then v.w else (if lt v.z (if lt v.y v.x = true then v.y else v.x) = true then v.z else (if lt v.y v.x = true then v.y else v.x))) := by
  have h := min3_eq ⟨v.x, v.y, v.z⟩
  rw [glm_vec4_min, h]; rfl

theorem F32.abs_num {a : F32} (h : F32.abs a ≠ nan) : a ≠ nan := fun e => h (abs_eq_nan.mpr e)
/-! ### vec2 -/
example : V2.Le ⟨.ofRat false 1, .ofRat false (-2)⟩ ⟨.ofRat false (3 / 2), .ofRat false (-1)⟩ := by
  simp only [V2.Le]; decide +kernel
/-- addition -/
theorem C77_vec2_add (a a' b b' : V2 F32) (ha : a.Le a') (hb : b.Le b')
    (hn : (glm_vec2_add a b).Num) (hn' : (glm_vec2_add a' b').Num) : (glm_vec2_add a b).Le (glm_vec2_add a' b') := by
  simp only [V2.Le, V2.Num, cglm] at *
  exact ⟨(LeN.add (.of ha.1) (.of hb.1)) hn.1 hn'.1, (LeN.add (.of ha.2) (.of hb.2)) hn.2 hn'.2⟩
/-- subtraction: rises with the first, falls with the second argument -/
theorem C77_vec2_sub (a a' b b' : V2 F32) (ha : a.Le a') (hb : b'.Le b)
    (hn : (glm_vec2_sub a b).Num) (hn' : (glm_vec2_sub a' b').Num) : (glm_vec2_sub a b).Le (glm_vec2_sub a' b') := by
  simp only [V2.Le, V2.Num, cglm] at *
  exact ⟨(LeN.sub (.of ha.1) (.of hb.1)) hn.1 hn'.1, (LeN.sub (.of ha.2) (.of hb.2)) hn.2 hn'.2⟩
/-- addition of a scalar -/
theorem C77_vec2_adds (a a' : V2 F32) (s s' : F32) (ha : a.Le a') (hs : le s s' = true)
    (hn : (glm_vec2_adds a s).Num) (hn' : (glm_vec2_adds a' s').Num) : (glm_vec2_adds a s).Le (glm_vec2_adds a' s') := by
  simp only [V2.Le, V2.Num, cglm] at *
  exact ⟨(LeN.add (.of ha.1) (.of hs)) hn.1 hn'.1, (LeN.add (.of ha.2) (.of hs)) hn.2 hn'.2⟩
/-- scaling by a factor that is not negative -/
theorem C77_vec2_scale (a a' : V2 F32) (s : F32) (hs : le (zero false) s = true) (ha : a.Le a')
    (hn : (glm_vec2_scale a s).Num) (hn' : (glm_vec2_scale a' s).Num) : (glm_vec2_scale a s).Le (glm_vec2_scale a' s) := by
  simp only [V2.Le, V2.Num, cglm] at *
  exact ⟨(LeN.mulR (nonneg_key hs) (.of ha.1)) hn.1 hn'.1, (LeN.mulR (nonneg_key hs) (.of ha.2)) hn.2 hn'.2⟩
/-- multiply and accumulate -/
theorem C77_vec2_muladds (a a' d d' : V2 F32) (s : F32) (hs : le (zero false) s = true) (ha : a.Le a') (hd : d.Le d')
    (hn : (glm_vec2_muladds a s d).Num) (hn' : (glm_vec2_muladds a' s d').Num) : (glm_vec2_muladds a s d).Le (glm_vec2_muladds a' s d') := by
  simp only [V2.Le, V2.Num, cglm] at *
  exact ⟨(LeN.add (.of hd.1) (LeN.mulR (nonneg_key hs) (.of ha.1))) hn.1 hn'.1, (LeN.add (.of hd.2) (LeN.mulR (nonneg_key hs) (.of ha.2))) hn.2 hn'.2⟩
/-- componentwise minimum -/
theorem C77_vec2_minv (a a' b b' : V2 F32) (ha : a.Le a') (hb : b.Le b') :
    (glm_vec2_minv a b).Le (glm_vec2_minv a' b') := by
  simp only [V2.Le, glm_vec2_minv] at *
  exact ⟨leN_min ha.1 hb.1, leN_min ha.2 hb.2⟩
/-- componentwise maximum -/
theorem C77_vec2_maxv (a a' b b' : V2 F32) (ha : a.Le a') (hb : b.Le b') :
    (glm_vec2_maxv a b).Le (glm_vec2_maxv a' b') := by
  simp only [V2.Le, glm_vec2_maxv] at *
  exact ⟨leN_max ha.1 hb.1, leN_max ha.2 hb.2⟩
/-- clamping -/
theorem C77_vec2_clamp (a a' : V2 F32) (lo lo' hi hi' : F32) (ha : a.Le a') (h1 : le lo lo' = true) (h2 : le hi hi' = true) :
    (glm_vec2_clamp a lo hi).Le (glm_vec2_clamp a' lo' hi') := by
  simp only [V2.Le, glm_vec2_clamp] at *
  exact ⟨C77_clamp _ _ _ _ _ _ ha.1 h1 h2, C77_clamp _ _ _ _ _ _ ha.2 h1 h2⟩
/-- step -/
theorem C77_vec2_step (e e' x x' : V2 F32) (he : e'.Le e) (hx : x.Le x') :
    (glm_vec2_step e x).Le (glm_vec2_step e' x') := by
  simp only [V2.Le, glm_vec2_step] at *
  exact ⟨C77_step _ _ _ _ he.1 hx.1, C77_step _ _ _ _ he.2 hx.2⟩
/-- floor -/
theorem C77_vec2_floor (a a' : V2 F32) (ha : a.Le a') :
    (glm_vec2_floor a).Le (glm_vec2_floor a') := by
  simp only [V2.Le, cglm] at *
  exact ⟨floor_le_floor' ha.1, floor_le_floor' ha.2⟩
/-- interpolation between ordered ends rises with the parameter (the two-dimensional function clamps it) -/
theorem C77_vec2_lerp (a b : V2 F32) (t t' : F32) (hab : a.Le b) (ht : le t t' = true)
    (hn : (glm_vec2_lerp a b t).Num) (hn' : (glm_vec2_lerp a b t').Num) : (glm_vec2_lerp a b t).Le (glm_vec2_lerp a b t') := by
  have e : ∀ s, glm_vec2_lerp a b s = ⟨glm_lerpc a.x b.x s, glm_lerpc a.y b.y s⟩ := fun s => by
    simp only [cglm]
  rw [e] at hn hn' ⊢
  rw [e]
  exact ⟨C77_lerpc _ _ _ _ hab.1 ht hn.1 hn'.1, C77_lerpc _ _ _ _ hab.2 ht hn.2 hn'.2⟩
/-- dot product of vectors that are not negative -/
theorem C77_vec2_dot (a a' b b' : V2 F32) (ha0 : a.Nonneg) (hb0 : b.Nonneg) (ha : a.Le a') (hb : b.Le b')
    (hn : glm_vec2_dot a b ≠ nan) (hn' : glm_vec2_dot a' b' ≠ nan) : le (glm_vec2_dot a b) (glm_vec2_dot a' b') = true := by
  simp only [V2.Le, V2.Nonneg, cglm] at *
  have m0 := LeN.mul (nonneg_key ha0.1) (nonneg_key hb0.1) (.of ha.1) (.of hb.1)
  have m1 := LeN.mul (nonneg_key ha0.2) (nonneg_key hb0.2) (.of ha.2) (.of hb.2)
  exact (LeN.add m0 m1) hn hn'
example : V2.Nonneg ⟨.ofRat false 2, zero true⟩ := by
  simp only [V2.Nonneg]; decide +kernel
/-- largest or smallest component -/
theorem C77_vec2_max (a b : V2 F32) (h : a.Le b) : le (glm_vec2_max a) (glm_vec2_max b) = true := by
  exact leN_max h.1 h.2
/-- largest or smallest component -/
theorem C77_vec2_min (a b : V2 F32) (h : a.Le b) : le (glm_vec2_min a) (glm_vec2_min b) = true := by
  exact leN_min h.1 h.2
/-- the larger the components in magnitude, the larger the squared length; no condition is needed -/
theorem C77_vec2_norm2 (a b : V2 F32) (h : a.LeAbs b) : le (glm_vec2_norm2 a) (glm_vec2_norm2 b) = true := by
  simp only [V2.LeAbs, V2.Le, V2.map] at h
  have m0 := sq_le_sq' h.1
  have p0 := sq_nonneg' a.x
  have q0 := sq_nonneg' b.x
  have u0 := sq_ne_nan (abs_num (le_ne h.1).1)
  have v0 := sq_ne_nan (abs_num (le_ne h.1).2)
  have m1 := sq_le_sq' h.2
  have p1 := sq_nonneg' a.y
  have q1 := sq_nonneg' b.y
  have u1 := sq_ne_nan (abs_num (le_ne h.2).1)
  have v1 := sq_ne_nan (abs_num (le_ne h.2).2)
  have s1 := add_nonneg_ne u0 u1 p0 p1
  have t1 := add_nonneg_ne v0 v1 q0 q1
  have l1 := add_le_add' m0 m1 s1.1 t1.1
  simp only [cglm, sqrtf_f32]
  exact l1
/-- the larger the components in magnitude, the larger the length; no condition is needed -/
theorem C77_vec2_norm (a b : V2 F32) (h : a.LeAbs b) : le (glm_vec2_norm a) (glm_vec2_norm b) = true := by
  simp only [V2.LeAbs, V2.Le, V2.map] at h
  have m0 := sq_le_sq' h.1
  have p0 := sq_nonneg' a.x
  have q0 := sq_nonneg' b.x
  have u0 := sq_ne_nan (abs_num (le_ne h.1).1)
  have v0 := sq_ne_nan (abs_num (le_ne h.1).2)
  have m1 := sq_le_sq' h.2
  have p1 := sq_nonneg' a.y
  have q1 := sq_nonneg' b.y
  have u1 := sq_ne_nan (abs_num (le_ne h.2).1)
  have v1 := sq_ne_nan (abs_num (le_ne h.2).2)
  have s1 := add_nonneg_ne u0 u1 p0 p1
  have t1 := add_nonneg_ne v0 v1 q0 q1
  have l1 := add_le_add' m0 m1 s1.1 t1.1
  simp only [cglm, sqrtf_f32]
  exact sqrt_le_sqrt' l1 (sqrt_ne_nan s1.1 s1.2)
/-! ### vec3 -/
example : V3.Le ⟨.ofRat false 1, .ofRat false (-2), .ofRat false 3⟩ ⟨.ofRat false (3 / 2), .ofRat false (-1), .ofRat false 3⟩ := by
  simp only [V3.Le]; decide +kernel
/-- addition -/
theorem C77_vec3_add (a a' b b' : V3 F32) (ha : a.Le a') (hb : b.Le b')
    (hn : (glm_vec3_add a b).Num) (hn' : (glm_vec3_add a' b').Num) : (glm_vec3_add a b).Le (glm_vec3_add a' b') := by
  simp only [V3.Le, V3.Num, cglm] at *
  exact ⟨(LeN.add (.of ha.1) (.of hb.1)) hn.1 hn'.1, (LeN.add (.of ha.2.1) (.of hb.2.1)) hn.2.1 hn'.2.1, (LeN.add (.of ha.2.2) (.of hb.2.2)) hn.2.2 hn'.2.2⟩
/-- subtraction: rises with the first, falls with the second argument -/
theorem C77_vec3_sub (a a' b b' : V3 F32) (ha : a.Le a') (hb : b'.Le b)
    (hn : (glm_vec3_sub a b).Num) (hn' : (glm_vec3_sub a' b').Num) : (glm_vec3_sub a b).Le (glm_vec3_sub a' b') := by
  simp only [V3.Le, V3.Num, cglm] at *
  exact ⟨(LeN.sub (.of ha.1) (.of hb.1)) hn.1 hn'.1, (LeN.sub (.of ha.2.1) (.of hb.2.1)) hn.2.1 hn'.2.1, (LeN.sub (.of ha.2.2) (.of hb.2.2)) hn.2.2 hn'.2.2⟩
/-- addition of a scalar -/
theorem C77_vec3_adds (a a' : V3 F32) (s s' : F32) (ha : a.Le a') (hs : le s s' = true)
    (hn : (glm_vec3_adds a s).Num) (hn' : (glm_vec3_adds a' s').Num) : (glm_vec3_adds a s).Le (glm_vec3_adds a' s') := by
  simp only [V3.Le, V3.Num, cglm] at *
  exact ⟨(LeN.add (.of ha.1) (.of hs)) hn.1 hn'.1, (LeN.add (.of ha.2.1) (.of hs)) hn.2.1 hn'.2.1, (LeN.add (.of ha.2.2) (.of hs)) hn.2.2 hn'.2.2⟩
/-- scaling by a factor that is not negative -/
theorem C77_vec3_scale (a a' : V3 F32) (s : F32) (hs : le (zero false) s = true) (ha : a.Le a')
    (hn : (glm_vec3_scale a s).Num) (hn' : (glm_vec3_scale a' s).Num) : (glm_vec3_scale a s).Le (glm_vec3_scale a' s) := by
  simp only [V3.Le, V3.Num, cglm] at *
  exact ⟨(LeN.mulR (nonneg_key hs) (.of ha.1)) hn.1 hn'.1, (LeN.mulR (nonneg_key hs) (.of ha.2.1)) hn.2.1 hn'.2.1, (LeN.mulR (nonneg_key hs) (.of ha.2.2)) hn.2.2 hn'.2.2⟩
/-- multiply and accumulate -/
theorem C77_vec3_muladds (a a' d d' : V3 F32) (s : F32) (hs : le (zero false) s = true) (ha : a.Le a') (hd : d.Le d')
    (hn : (glm_vec3_muladds a s d).Num) (hn' : (glm_vec3_muladds a' s d').Num) : (glm_vec3_muladds a s d).Le (glm_vec3_muladds a' s d') := by
  simp only [V3.Le, V3.Num, cglm] at *
  exact ⟨(LeN.add (.of hd.1) (LeN.mulR (nonneg_key hs) (.of ha.1))) hn.1 hn'.1, (LeN.add (.of hd.2.1) (LeN.mulR (nonneg_key hs) (.of ha.2.1))) hn.2.1 hn'.2.1, (LeN.add (.of hd.2.2) (LeN.mulR (nonneg_key hs) (.of ha.2.2))) hn.2.2 hn'.2.2⟩
/-- componentwise minimum -/
theorem C77_vec3_minv (a a' b b' : V3 F32) (ha : a.Le a') (hb : b.Le b') :
    (glm_vec3_minv a b).Le (glm_vec3_minv a' b') := by
  simp only [V3.Le, glm_vec3_minv] at *
  exact ⟨leN_min ha.1 hb.1, leN_min ha.2.1 hb.2.1, leN_min ha.2.2 hb.2.2⟩
/-- componentwise maximum -/
theorem C77_vec3_maxv (a a' b b' : V3 F32) (ha : a.Le a') (hb : b.Le b') :
    (glm_vec3_maxv a b).Le (glm_vec3_maxv a' b') := by
  simp only [V3.Le, glm_vec3_maxv] at *
  exact ⟨leN_max ha.1 hb.1, leN_max ha.2.1 hb.2.1, leN_max ha.2.2 hb.2.2⟩
/-- clamping -/
theorem C77_vec3_clamp (a a' : V3 F32) (lo lo' hi hi' : F32) (ha : a.Le a') (h1 : le lo lo' = true) (h2 : le hi hi' = true) :
    (glm_vec3_clamp a lo hi).Le (glm_vec3_clamp a' lo' hi') := by
  simp only [V3.Le, glm_vec3_clamp] at *
  exact ⟨C77_clamp _ _ _ _ _ _ ha.1 h1 h2, C77_clamp _ _ _ _ _ _ ha.2.1 h1 h2, C77_clamp _ _ _ _ _ _ ha.2.2 h1 h2⟩
/-- step -/
theorem C77_vec3_step (e e' x x' : V3 F32) (he : e'.Le e) (hx : x.Le x') :
    (glm_vec3_step e x).Le (glm_vec3_step e' x') := by
  simp only [V3.Le, glm_vec3_step] at *
  exact ⟨C77_step _ _ _ _ he.1 hx.1, C77_step _ _ _ _ he.2.1 hx.2.1, C77_step _ _ _ _ he.2.2 hx.2.2⟩
/-- floor -/
theorem C77_vec3_floor (a a' : V3 F32) (ha : a.Le a') :
    (glm_vec3_floor a).Le (glm_vec3_floor a') := by
  simp only [V3.Le, cglm] at *
  exact ⟨floor_le_floor' ha.1, floor_le_floor' ha.2.1, floor_le_floor' ha.2.2⟩
/-- interpolation between ordered ends rises with the parameter -/
theorem C77_vec3_lerp (a b : V3 F32) (t t' : F32) (hab : a.Le b) (ht : le t t' = true)
    (hn : (glm_vec3_lerp a b t).Num) (hn' : (glm_vec3_lerp a b t').Num) : (glm_vec3_lerp a b t).Le (glm_vec3_lerp a b t') := by
  have e : ∀ s, glm_vec3_lerp a b s = ⟨glm_lerp a.x b.x s, glm_lerp a.y b.y s, glm_lerp a.z b.z s⟩ := fun s => by
    simp only [cglm]
  rw [e] at hn hn' ⊢
  rw [e]
  exact ⟨C77_lerp _ _ _ _ hab.1 ht hn.1 hn'.1, C77_lerp _ _ _ _ hab.2.1 ht hn.2.1 hn'.2.1, C77_lerp _ _ _ _ hab.2.2 ht hn.2.2 hn'.2.2⟩
theorem C77_vec3_lerpc (a b : V3 F32) (t t' : F32) (hab : a.Le b) (ht : le t t' = true)
    (hn : (glm_vec3_lerpc a b t).Num) (hn' : (glm_vec3_lerpc a b t').Num) : (glm_vec3_lerpc a b t).Le (glm_vec3_lerpc a b t') :=
  C77_vec3_lerp a b _ _ hab (C77_clamp_zo t t' ht) hn hn'
/-- dot product of vectors that are not negative -/
theorem C77_vec3_dot (a a' b b' : V3 F32) (ha0 : a.Nonneg) (hb0 : b.Nonneg) (ha : a.Le a') (hb : b.Le b')
    (hn : glm_vec3_dot a b ≠ nan) (hn' : glm_vec3_dot a' b' ≠ nan) : le (glm_vec3_dot a b) (glm_vec3_dot a' b') = true := by
  simp only [V3.Le, V3.Nonneg, cglm] at *
  have m0 := LeN.mul (nonneg_key ha0.1) (nonneg_key hb0.1) (.of ha.1) (.of hb.1)
  have m1 := LeN.mul (nonneg_key ha0.2.1) (nonneg_key hb0.2.1) (.of ha.2.1) (.of hb.2.1)
  have m2 := LeN.mul (nonneg_key ha0.2.2) (nonneg_key hb0.2.2) (.of ha.2.2) (.of hb.2.2)
  exact (LeN.add (LeN.add m0 m1) m2) hn hn'
example : V3.Nonneg ⟨.ofRat false 2, zero true, inf false⟩ := by
  simp only [V3.Nonneg]; decide +kernel
/-- largest or smallest component -/
theorem C77_vec3_max (a b : V3 F32) (h : a.Le b) : le (glm_vec3_max a) (glm_vec3_max b) = true := by
  have e := le_max_of (le_max_of h.1 h.2.1) h.2.2
  rw [max3_eq, max3_eq]
  exact e
/-- largest or smallest component -/
theorem C77_vec3_min (a b : V3 F32) (h : a.Le b) : le (glm_vec3_min a) (glm_vec3_min b) = true := by
  have e := le_min_of (le_min_of h.1 h.2.1) h.2.2
  rw [min3_eq, min3_eq]
  exact e
/-- the larger the components in magnitude, the larger the squared length; no condition is needed -/
theorem C77_vec3_norm2 (a b : V3 F32) (h : a.LeAbs b) : le (glm_vec3_norm2 a) (glm_vec3_norm2 b) = true := by
  simp only [V3.LeAbs, V3.Le, V3.map] at h
  have m0 := sq_le_sq' h.1
  have p0 := sq_nonneg' a.x
  have q0 := sq_nonneg' b.x
  have u0 := sq_ne_nan (abs_num (le_ne h.1).1)
  have v0 := sq_ne_nan (abs_num (le_ne h.1).2)
  have m1 := sq_le_sq' h.2.1
  have p1 := sq_nonneg' a.y
  have q1 := sq_nonneg' b.y
  have u1 := sq_ne_nan (abs_num (le_ne h.2.1).1)
  have v1 := sq_ne_nan (abs_num (le_ne h.2.1).2)
  have m2 := sq_le_sq' h.2.2
  have p2 := sq_nonneg' a.z
  have q2 := sq_nonneg' b.z
  have u2 := sq_ne_nan (abs_num (le_ne h.2.2).1)
  have v2 := sq_ne_nan (abs_num (le_ne h.2.2).2)
  have s1 := add_nonneg_ne u0 u1 p0 p1
  have t1 := add_nonneg_ne v0 v1 q0 q1
  have l1 := add_le_add' m0 m1 s1.1 t1.1
  have s2 := add_nonneg_ne s1.1 u2 s1.2 p2
  have t2 := add_nonneg_ne t1.1 v2 t1.2 q2
  have l2 := add_le_add' l1 m2 s2.1 t2.1
  simp only [cglm, sqrtf_f32]
  exact l2
/-- the larger the components in magnitude, the larger the length; no condition is needed -/
theorem C77_vec3_norm (a b : V3 F32) (h : a.LeAbs b) : le (glm_vec3_norm a) (glm_vec3_norm b) = true := by
  simp only [V3.LeAbs, V3.Le, V3.map] at h
  have m0 := sq_le_sq' h.1
  have p0 := sq_nonneg' a.x
  have q0 := sq_nonneg' b.x
  have u0 := sq_ne_nan (abs_num (le_ne h.1).1)
  have v0 := sq_ne_nan (abs_num (le_ne h.1).2)
  have m1 := sq_le_sq' h.2.1
  have p1 := sq_nonneg' a.y
  have q1 := sq_nonneg' b.y
  have u1 := sq_ne_nan (abs_num (le_ne h.2.1).1)
  have v1 := sq_ne_nan (abs_num (le_ne h.2.1).2)
  have m2 := sq_le_sq' h.2.2
  have p2 := sq_nonneg' a.z
  have q2 := sq_nonneg' b.z
  have u2 := sq_ne_nan (abs_num (le_ne h.2.2).1)
  have v2 := sq_ne_nan (abs_num (le_ne h.2.2).2)
  have s1 := add_nonneg_ne u0 u1 p0 p1
  have t1 := add_nonneg_ne v0 v1 q0 q1
  have l1 := add_le_add' m0 m1 s1.1 t1.1
  have s2 := add_nonneg_ne s1.1 u2 s1.2 p2
  have t2 := add_nonneg_ne t1.1 v2 t1.2 q2
  have l2 := add_le_add' l1 m2 s2.1 t2.1
  simp only [cglm, sqrtf_f32]
  exact sqrt_le_sqrt' l2 (sqrt_ne_nan s2.1 s2.2)
/-- sum of magnitudes -/
theorem C77_vec3_norm_one (a b : V3 F32) (h : a.LeAbs b) : le (glm_vec3_norm_one a) (glm_vec3_norm_one b) = true := by
  simp only [V3.LeAbs, V3.Le, V3.map] at h
  have m0 := h.1
  have p0 : 0 ≤ key (F32.abs a.x) := by rw [key_abs]; exact abs_nonneg _
  have q0 : 0 ≤ key (F32.abs b.x) := by rw [key_abs]; exact abs_nonneg _
  have u0 := (le_ne h.1).1
  have v0 := (le_ne h.1).2
  have m1 := h.2.1
  have p1 : 0 ≤ key (F32.abs a.y) := by rw [key_abs]; exact abs_nonneg _
  have q1 : 0 ≤ key (F32.abs b.y) := by rw [key_abs]; exact abs_nonneg _
  have u1 := (le_ne h.2.1).1
  have v1 := (le_ne h.2.1).2
  have m2 := h.2.2
  have p2 : 0 ≤ key (F32.abs a.z) := by rw [key_abs]; exact abs_nonneg _
  have q2 : 0 ≤ key (F32.abs b.z) := by rw [key_abs]; exact abs_nonneg _
  have u2 := (le_ne h.2.2).1
  have v2 := (le_ne h.2.2).2
  have s1 := add_nonneg_ne u0 u1 p0 p1
  have t1 := add_nonneg_ne v0 v1 q0 q1
  have l1 := add_le_add' m0 m1 s1.1 t1.1
  have s2 := add_nonneg_ne s1.1 u2 s1.2 p2
  have t2 := add_nonneg_ne t1.1 v2 t1.2 q2
  have l2 := add_le_add' l1 m2 s2.1 t2.1
  simp only [cglm, fabsf_f32]
  exact l2
/-- largest magnitude -/
theorem C77_vec3_norm_inf (a b : V3 F32) (h : a.LeAbs b) : le (glm_vec3_norm_inf a) (glm_vec3_norm_inf b) = true :=
  C77_vec3_max _ _ h
/-! ### vec4 -/
example : V4.Le ⟨.ofRat false 1, .ofRat false (-2), .ofRat false 3, inf false⟩ ⟨.ofRat false (3 / 2), .ofRat false (-1), .ofRat false 3, inf false⟩ := by
  simp only [V4.Le]; decide +kernel
/-- addition -/
theorem C77_vec4_add (a a' b b' : V4 F32) (ha : a.Le a') (hb : b.Le b')
    (hn : (glm_vec4_add a b).Num) (hn' : (glm_vec4_add a' b').Num) : (glm_vec4_add a b).Le (glm_vec4_add a' b') := by
  simp only [V4.Le, V4.Num, cglm] at *
  exact ⟨(LeN.add (.of ha.1) (.of hb.1)) hn.1 hn'.1, (LeN.add (.of ha.2.1) (.of hb.2.1)) hn.2.1 hn'.2.1, (LeN.add (.of ha.2.2.1) (.of hb.2.2.1)) hn.2.2.1 hn'.2.2.1, (LeN.add (.of ha.2.2.2) (.of hb.2.2.2)) hn.2.2.2 hn'.2.2.2⟩
/-- subtraction: rises with the first, falls with the second argument -/
theorem C77_vec4_sub (a a' b b' : V4 F32) (ha : a.Le a') (hb : b'.Le b)
    (hn : (glm_vec4_sub a b).Num) (hn' : (glm_vec4_sub a' b').Num) : (glm_vec4_sub a b).Le (glm_vec4_sub a' b') := by
  simp only [V4.Le, V4.Num, cglm] at *
  exact ⟨(LeN.sub (.of ha.1) (.of hb.1)) hn.1 hn'.1, (LeN.sub (.of ha.2.1) (.of hb.2.1)) hn.2.1 hn'.2.1, (LeN.sub (.of ha.2.2.1) (.of hb.2.2.1)) hn.2.2.1 hn'.2.2.1, (LeN.sub (.of ha.2.2.2) (.of hb.2.2.2)) hn.2.2.2 hn'.2.2.2⟩
/-- addition of a scalar -/
theorem C77_vec4_adds (a a' : V4 F32) (s s' : F32) (ha : a.Le a') (hs : le s s' = true)
    (hn : (glm_vec4_adds a s).Num) (hn' : (glm_vec4_adds a' s').Num) : (glm_vec4_adds a s).Le (glm_vec4_adds a' s') := by
  simp only [V4.Le, V4.Num, cglm] at *
  exact ⟨(LeN.add (.of ha.1) (.of hs)) hn.1 hn'.1, (LeN.add (.of ha.2.1) (.of hs)) hn.2.1 hn'.2.1, (LeN.add (.of ha.2.2.1) (.of hs)) hn.2.2.1 hn'.2.2.1, (LeN.add (.of ha.2.2.2) (.of hs)) hn.2.2.2 hn'.2.2.2⟩
/-- scaling by a factor that is not negative -/
theorem C77_vec4_scale (a a' : V4 F32) (s : F32) (hs : le (zero false) s = true) (ha : a.Le a')
    (hn : (glm_vec4_scale a s).Num) (hn' : (glm_vec4_scale a' s).Num) : (glm_vec4_scale a s).Le (glm_vec4_scale a' s) := by
  simp only [V4.Le, V4.Num, cglm] at *
  exact ⟨(LeN.mulR (nonneg_key hs) (.of ha.1)) hn.1 hn'.1, (LeN.mulR (nonneg_key hs) (.of ha.2.1)) hn.2.1 hn'.2.1, (LeN.mulR (nonneg_key hs) (.of ha.2.2.1)) hn.2.2.1 hn'.2.2.1, (LeN.mulR (nonneg_key hs) (.of ha.2.2.2)) hn.2.2.2 hn'.2.2.2⟩
/-- multiply and accumulate -/
theorem C77_vec4_muladds (a a' d d' : V4 F32) (s : F32) (hs : le (zero false) s = true) (ha : a.Le a') (hd : d.Le d')
    (hn : (glm_vec4_muladds a s d).Num) (hn' : (glm_vec4_muladds a' s d').Num) : (glm_vec4_muladds a s d).Le (glm_vec4_muladds a' s d') := by
  simp only [V4.Le, V4.Num, cglm] at *
  exact ⟨(LeN.add (.of hd.1) (LeN.mulR (nonneg_key hs) (.of ha.1))) hn.1 hn'.1, (LeN.add (.of hd.2.1) (LeN.mulR (nonneg_key hs) (.of ha.2.1))) hn.2.1 hn'.2.1, (LeN.add (.of hd.2.2.1) (LeN.mulR (nonneg_key hs) (.of ha.2.2.1))) hn.2.2.1 hn'.2.2.1, (LeN.add (.of hd.2.2.2) (LeN.mulR (nonneg_key hs) (.of ha.2.2.2))) hn.2.2.2 hn'.2.2.2⟩
/-- componentwise minimum -/
theorem C77_vec4_minv (a a' b b' : V4 F32) (ha : a.Le a') (hb : b.Le b') :
    (glm_vec4_minv a b).Le (glm_vec4_minv a' b') := by
  simp only [V4.Le, glm_vec4_minv] at *
  exact ⟨leN_min ha.1 hb.1, leN_min ha.2.1 hb.2.1, leN_min ha.2.2.1 hb.2.2.1, leN_min ha.2.2.2 hb.2.2.2⟩
/-- componentwise maximum -/
theorem C77_vec4_maxv (a a' b b' : V4 F32) (ha : a.Le a') (hb : b.Le b') :
    (glm_vec4_maxv a b).Le (glm_vec4_maxv a' b') := by
  simp only [V4.Le, glm_vec4_maxv] at *
  exact ⟨leN_max ha.1 hb.1, leN_max ha.2.1 hb.2.1, leN_max ha.2.2.1 hb.2.2.1, leN_max ha.2.2.2 hb.2.2.2⟩
/-- clamping -/
theorem C77_vec4_clamp (a a' : V4 F32) (lo lo' hi hi' : F32) (ha : a.Le a') (h1 : le lo lo' = true) (h2 : le hi hi' = true) :
    (glm_vec4_clamp a lo hi).Le (glm_vec4_clamp a' lo' hi') := by
  simp only [V4.Le, glm_vec4_clamp] at *
  exact ⟨C77_clamp _ _ _ _ _ _ ha.1 h1 h2, C77_clamp _ _ _ _ _ _ ha.2.1 h1 h2, C77_clamp _ _ _ _ _ _ ha.2.2.1 h1 h2, C77_clamp _ _ _ _ _ _ ha.2.2.2 h1 h2⟩
/-- step -/
theorem C77_vec4_step (e e' x x' : V4 F32) (he : e'.Le e) (hx : x.Le x') :
    (glm_vec4_step e x).Le (glm_vec4_step e' x') := by
  simp only [V4.Le, glm_vec4_step] at *
  exact ⟨C77_step _ _ _ _ he.1 hx.1, C77_step _ _ _ _ he.2.1 hx.2.1, C77_step _ _ _ _ he.2.2.1 hx.2.2.1, C77_step _ _ _ _ he.2.2.2 hx.2.2.2⟩
/-- floor -/
theorem C77_vec4_floor (a a' : V4 F32) (ha : a.Le a') :
    (glm_vec4_floor a).Le (glm_vec4_floor a') := by
  simp only [V4.Le, cglm] at *
  exact ⟨floor_le_floor' ha.1, floor_le_floor' ha.2.1, floor_le_floor' ha.2.2.1, floor_le_floor' ha.2.2.2⟩
/-- interpolation between ordered ends rises with the parameter -/
theorem C77_vec4_lerp (a b : V4 F32) (t t' : F32) (hab : a.Le b) (ht : le t t' = true)
    (hn : (glm_vec4_lerp a b t).Num) (hn' : (glm_vec4_lerp a b t').Num) : (glm_vec4_lerp a b t).Le (glm_vec4_lerp a b t') := by
  have e : ∀ s, glm_vec4_lerp a b s = ⟨glm_lerp a.x b.x s, glm_lerp a.y b.y s, glm_lerp a.z b.z s, glm_lerp a.w b.w s⟩ := fun s => by
    simp only [cglm]
  rw [e] at hn hn' ⊢
  rw [e]
  exact ⟨C77_lerp _ _ _ _ hab.1 ht hn.1 hn'.1, C77_lerp _ _ _ _ hab.2.1 ht hn.2.1 hn'.2.1, C77_lerp _ _ _ _ hab.2.2.1 ht hn.2.2.1 hn'.2.2.1, C77_lerp _ _ _ _ hab.2.2.2 ht hn.2.2.2 hn'.2.2.2⟩
theorem C77_vec4_lerpc (a b : V4 F32) (t t' : F32) (hab : a.Le b) (ht : le t t' = true)
    (hn : (glm_vec4_lerpc a b t).Num) (hn' : (glm_vec4_lerpc a b t').Num) : (glm_vec4_lerpc a b t).Le (glm_vec4_lerpc a b t') :=
  C77_vec4_lerp a b _ _ hab (C77_clamp_zo t t' ht) hn hn'
/-- dot product of vectors that are not negative -/
theorem C77_vec4_dot (a a' b b' : V4 F32) (ha0 : a.Nonneg) (hb0 : b.Nonneg) (ha : a.Le a') (hb : b.Le b')
    (hn : glm_vec4_dot a b ≠ nan) (hn' : glm_vec4_dot a' b' ≠ nan) : le (glm_vec4_dot a b) (glm_vec4_dot a' b') = true := by
  simp only [V4.Le, V4.Nonneg, cglm] at *
  have m0 := LeN.mul (nonneg_key ha0.1) (nonneg_key hb0.1) (.of ha.1) (.of hb.1)
  have m1 := LeN.mul (nonneg_key ha0.2.1) (nonneg_key hb0.2.1) (.of ha.2.1) (.of hb.2.1)
  have m2 := LeN.mul (nonneg_key ha0.2.2.1) (nonneg_key hb0.2.2.1) (.of ha.2.2.1) (.of hb.2.2.1)
  have m3 := LeN.mul (nonneg_key ha0.2.2.2) (nonneg_key hb0.2.2.2) (.of ha.2.2.2) (.of hb.2.2.2)
  exact (LeN.add (LeN.add (LeN.add m0 m1) m2) m3) hn hn'
example : V4.Nonneg ⟨.ofRat false 2, zero true, inf false, .ofRat false (1 / 3)⟩ := by
  simp only [V4.Nonneg]; decide +kernel
/-- largest or smallest component -/
theorem C77_vec4_max (a b : V4 F32) (h : a.Le b) : le (glm_vec4_max a) (glm_vec4_max b) = true := by
  have e := le_max_of (le_max_of (le_max_of h.1 h.2.1) h.2.2.1) h.2.2.2
  rw [max4_eq, max4_eq]
  exact e
/-- largest or smallest component -/
theorem C77_vec4_min (a b : V4 F32) (h : a.Le b) : le (glm_vec4_min a) (glm_vec4_min b) = true := by
  have e := le_min_of (le_min_of (le_min_of h.1 h.2.1) h.2.2.1) h.2.2.2
  rw [min4_eq, min4_eq]
  exact e
/-- the larger the components in magnitude, the larger the squared length; no condition is needed -/
theorem C77_vec4_norm2 (a b : V4 F32) (h : a.LeAbs b) : le (glm_vec4_norm2 a) (glm_vec4_norm2 b) = true := by
  simp only [V4.LeAbs, V4.Le, V4.map] at h
  have m0 := sq_le_sq' h.1
  have p0 := sq_nonneg' a.x
  have q0 := sq_nonneg' b.x
  have u0 := sq_ne_nan (abs_num (le_ne h.1).1)
  have v0 := sq_ne_nan (abs_num (le_ne h.1).2)
  have m1 := sq_le_sq' h.2.1
  have p1 := sq_nonneg' a.y
  have q1 := sq_nonneg' b.y
  have u1 := sq_ne_nan (abs_num (le_ne h.2.1).1)
  have v1 := sq_ne_nan (abs_num (le_ne h.2.1).2)
  have m2 := sq_le_sq' h.2.2.1
  have p2 := sq_nonneg' a.z
  have q2 := sq_nonneg' b.z
  have u2 := sq_ne_nan (abs_num (le_ne h.2.2.1).1)
  have v2 := sq_ne_nan (abs_num (le_ne h.2.2.1).2)
  have m3 := sq_le_sq' h.2.2.2
  have p3 := sq_nonneg' a.w
  have q3 := sq_nonneg' b.w
  have u3 := sq_ne_nan (abs_num (le_ne h.2.2.2).1)
  have v3 := sq_ne_nan (abs_num (le_ne h.2.2.2).2)
  have s1 := add_nonneg_ne u0 u1 p0 p1
  have t1 := add_nonneg_ne v0 v1 q0 q1
  have l1 := add_le_add' m0 m1 s1.1 t1.1
  have s2 := add_nonneg_ne s1.1 u2 s1.2 p2
  have t2 := add_nonneg_ne t1.1 v2 t1.2 q2
  have l2 := add_le_add' l1 m2 s2.1 t2.1
  have s3 := add_nonneg_ne s2.1 u3 s2.2 p3
  have t3 := add_nonneg_ne t2.1 v3 t2.2 q3
  have l3 := add_le_add' l2 m3 s3.1 t3.1
  simp only [cglm, sqrtf_f32]
  exact l3
/-- the larger the components in magnitude, the larger the length; no condition is needed -/
theorem C77_vec4_norm (a b : V4 F32) (h : a.LeAbs b) : le (glm_vec4_norm a) (glm_vec4_norm b) = true := by
  simp only [V4.LeAbs, V4.Le, V4.map] at h
  have m0 := sq_le_sq' h.1
  have p0 := sq_nonneg' a.x
  have q0 := sq_nonneg' b.x
  have u0 := sq_ne_nan (abs_num (le_ne h.1).1)
  have v0 := sq_ne_nan (abs_num (le_ne h.1).2)
  have m1 := sq_le_sq' h.2.1
  have p1 := sq_nonneg' a.y
  have q1 := sq_nonneg' b.y
  have u1 := sq_ne_nan (abs_num (le_ne h.2.1).1)
  have v1 := sq_ne_nan (abs_num (le_ne h.2.1).2)
  have m2 := sq_le_sq' h.2.2.1
  have p2 := sq_nonneg' a.z
  have q2 := sq_nonneg' b.z
  have u2 := sq_ne_nan (abs_num (le_ne h.2.2.1).1)
  have v2 := sq_ne_nan (abs_num (le_ne h.2.2.1).2)
  have m3 := sq_le_sq' h.2.2.2
  have p3 := sq_nonneg' a.w
  have q3 := sq_nonneg' b.w
  have u3 := sq_ne_nan (abs_num (le_ne h.2.2.2).1)
  have v3 := sq_ne_nan (abs_num (le_ne h.2.2.2).2)
  have s1 := add_nonneg_ne u0 u1 p0 p1
  have t1 := add_nonneg_ne v0 v1 q0 q1
  have l1 := add_le_add' m0 m1 s1.1 t1.1
  have s2 := add_nonneg_ne s1.1 u2 s1.2 p2
  have t2 := add_nonneg_ne t1.1 v2 t1.2 q2
  have l2 := add_le_add' l1 m2 s2.1 t2.1
  have s3 := add_nonneg_ne s2.1 u3 s2.2 p3
  have t3 := add_nonneg_ne t2.1 v3 t2.2 q3
  have l3 := add_le_add' l2 m3 s3.1 t3.1
  simp only [cglm, sqrtf_f32]
  exact sqrt_le_sqrt' l3 (sqrt_ne_nan s3.1 s3.2)
/-- sum of magnitudes -/
theorem C77_vec4_norm_one (a b : V4 F32) (h : a.LeAbs b) : le (glm_vec4_norm_one a) (glm_vec4_norm_one b) = true := by
  simp only [V4.LeAbs, V4.Le, V4.map] at h
  have m0 := h.1
  have p0 : 0 ≤ key (F32.abs a.x) := by rw [key_abs]; exact abs_nonneg _
  have q0 : 0 ≤ key (F32.abs b.x) := by rw [key_abs]; exact abs_nonneg _
  have u0 := (le_ne h.1).1
  have v0 := (le_ne h.1).2
  have m1 := h.2.1
  have p1 : 0 ≤ key (F32.abs a.y) := by rw [key_abs]; exact abs_nonneg _
  have q1 : 0 ≤ key (F32.abs b.y) := by rw [key_abs]; exact abs_nonneg _
  have u1 := (le_ne h.2.1).1
  have v1 := (le_ne h.2.1).2
  have m2 := h.2.2.1
  have p2 : 0 ≤ key (F32.abs a.z) := by rw [key_abs]; exact abs_nonneg _
  have q2 : 0 ≤ key (F32.abs b.z) := by rw [key_abs]; exact abs_nonneg _
  have u2 := (le_ne h.2.2.1).1
  have v2 := (le_ne h.2.2.1).2
  have m3 := h.2.2.2
  have p3 : 0 ≤ key (F32.abs a.w) := by rw [key_abs]; exact abs_nonneg _
  have q3 : 0 ≤ key (F32.abs b.w) := by rw [key_abs]; exact abs_nonneg _
  have u3 := (le_ne h.2.2.2).1
  have v3 := (le_ne h.2.2.2).2
  have s1 := add_nonneg_ne u0 u1 p0 p1
  have t1 := add_nonneg_ne v0 v1 q0 q1
  have l1 := add_le_add' m0 m1 s1.1 t1.1
  have s2 := add_nonneg_ne s1.1 u2 s1.2 p2
  have t2 := add_nonneg_ne t1.1 v2 t1.2 q2
  have l2 := add_le_add' l1 m2 s2.1 t2.1
  have s3 := add_nonneg_ne s2.1 u3 s2.2 p3
  have t3 := add_nonneg_ne t2.1 v3 t2.2 q3
  have l3 := add_le_add' l2 m3 s3.1 t3.1
  simp only [cglm, fabsf_f32]
  exact l3
/-- largest magnitude -/
theorem C77_vec4_norm_inf (a b : V4 F32) (h : a.LeAbs b) : le (glm_vec4_norm_inf a) (glm_vec4_norm_inf b) = true :=
  C77_vec4_max _ _ h

end Cglm
