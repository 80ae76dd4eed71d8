import Verif.Props.C78Gen
/-!
# C78: mirrored scenes, functions with branches or divisions
-/
open Cglm F32
namespace Cglm
set_option linter.unusedSectionVars false
set_option linter.unusedSimpArgs false
variable [Libm]

/-! ### the mirrored values exist -/

/-- the mirrored point -/
def AxisMirror.vec (σ : AxisMirror) (v : V3 F32) : V3 F32 := ⟨flip σ.x v.x, flip σ.y v.y, flip σ.z v.z⟩

theorem AxisMirror.vec_spec (σ : AxisMirror) (v : V3 F32) : σ.Vec v (σ.vec v) := ⟨.of _ _, .of _ _, .of _ _⟩

/-- the mirrored axis -/
def AxisMirror.axis (σ : AxisMirror) (v : V3 F32) : V3 F32 := σ.dual.vec v

theorem AxisMirror.axis_spec (σ : AxisMirror) (v : V3 F32) : σ.Axis v (σ.axis v) := AxisMirror.vec_spec _ v

/-- the mirrored quaternion -/
def AxisMirror.quat (σ : AxisMirror) (q : V4 F32) : V4 F32 := ⟨flip σ.dual.x q.x, flip σ.dual.y q.y, flip σ.dual.z q.z, q.w⟩

theorem AxisMirror.quat_spec (σ : AxisMirror) (q : V4 F32) : σ.Quat q (σ.quat q) := ⟨.of _ _, .of _ _, .of _ _, .refl _⟩

/-- the mirrored linear map -/
def AxisMirror.mat3 (σ : AxisMirror) (m : M3 F32) : M3 F32 :=
  ⟨⟨m.c0.x, flip (σ.x ^^ σ.y) m.c0.y, flip (σ.x ^^ σ.z) m.c0.z⟩, ⟨flip (σ.x ^^ σ.y) m.c1.x, m.c1.y, flip (σ.y ^^ σ.z) m.c1.z⟩,
    ⟨flip (σ.x ^^ σ.z) m.c2.x, flip (σ.y ^^ σ.z) m.c2.y, m.c2.z⟩⟩

theorem AxisMirror.mat3_spec (σ : AxisMirror) (m : M3 F32) : σ.Mat3 m (σ.mat3 m) :=
  ⟨⟨.refl _, .of _ _, .of _ _⟩, ⟨.of _ _, .refl _, .of _ _⟩, ⟨.of _ _, .of _ _, .refl _⟩⟩

/-- the mirrored transform -/
def AxisMirror.mat4 (σ : AxisMirror) (m : M4 F32) : M4 F32 :=
  ⟨⟨m.c0.x, flip (σ.x ^^ σ.y) m.c0.y, flip (σ.x ^^ σ.z) m.c0.z, flip σ.x m.c0.w⟩,
    ⟨flip (σ.x ^^ σ.y) m.c1.x, m.c1.y, flip (σ.y ^^ σ.z) m.c1.z, flip σ.y m.c1.w⟩,
    ⟨flip (σ.x ^^ σ.z) m.c2.x, flip (σ.y ^^ σ.z) m.c2.y, m.c2.z, flip σ.z m.c2.w⟩,
    ⟨flip σ.x m.c3.x, flip σ.y m.c3.y, flip σ.z m.c3.z, m.c3.w⟩⟩

theorem AxisMirror.mat4_spec (σ : AxisMirror) (m : M4 F32) : σ.Mat4 m (σ.mat4 m) :=
  ⟨⟨.refl _, .of _ _, .of _ _, .of _ _⟩, ⟨.of _ _, .refl _, .of _ _, .of _ _⟩, ⟨.of _ _, .of _ _, .refl _, .of _ _⟩,
    ⟨.of _ _, .of _ _, .of _ _, .refl _⟩⟩

/-- for example: mirrored at the plane x = 0, the cross product of two directions keeps its x and changes its y and z -/
example (a b : V3 F32) : Sim (glm_vec3_cross a b).x (glm_vec3_cross ⟨-a.x, a.y, a.z⟩ ⟨-b.x, b.y, b.z⟩).x ∧
    Sim (-(glm_vec3_cross a b).y) (glm_vec3_cross ⟨-a.x, a.y, a.z⟩ ⟨-b.x, b.y, b.z⟩).y ∧
    Sim (-(glm_vec3_cross a b).z) (glm_vec3_cross ⟨-a.x, a.y, a.z⟩ ⟨-b.x, b.y, b.z⟩).z :=
  C78_vec3_cross ⟨true, false, false⟩ a _ b _ (AxisMirror.vec_spec _ a) (AxisMirror.vec_spec _ b)

/-! ### helper lemmas -/

theorem F32.ne_zero_of_not_lt {a b : F32} (hb : 0 < key b) (hn : b ≠ nan) (h : ¬ lt a b = true) : ∀ s, a ≠ zero s := by
  rintro s rfl
  exact h (key_lt_iff.mpr ⟨by nofun, hn, hb⟩)

theorem F32.ne_zero_of_lt {a b : F32} (hb : 0 ≤ key b) (h : lt b a = true) : ∀ s, a ≠ zero s := by
  rintro s rfl
  have := (key_lt_iff.mp h).2.2
  have z : key (zero s) = 0 := rfl
  rw [z] at this
  linarith

theorem F32.ne_zero_of_not_le {a : F32} (h : ¬ le a (CFloat.lit 0 : F32) = true) : ∀ s, a ≠ zero s := by
  rintro s rfl
  exact h (key_le_iff.mpr ⟨by nofun, (Has.lit rep_zero).ne_nan, by rw [key_lit rep_zero]; rfl⟩)

theorem F32.sqrt_ne_zero {a : F32} (h : ∀ s, a ≠ zero s) : ∀ s, F32.sqrt a ≠ zero s := by
  intro s e
  rcases a with _ | t | t | ⟨q, hq⟩
  · cases e
  · cases t <;> cases e
  · exact h t rfl
  · by_cases c : q < 0
    · have : F32.sqrt (fin q hq) = nan := if_pos c
      rw [this] at e; cases e
    · have pos : 0 < q := lt_of_le_of_ne (not_lt.mp c) (Ne.symm hq.1)
      have v := (sqrt_val hq pos).2
      rw [e] at v
      have er := rndSqrt_err pos
      rw [← v] at er
      have p := Real.sqrt_pos.mpr (show (0 : ℝ) < q by exact_mod_cast pos)
      have z : ((zero s).val : ℚ) = 0 := rfl
      rw [z, Rat.cast_zero, zero_sub, abs_neg, abs_of_pos p] at er
      unfold ur at er
      nlinarith

/-! ### values that are never a negative zero -/

theorem F32.ofRat_ne_neg {x : ℚ} (h : rnd x = 0 → x = 0) : ofRat false x ≠ zero true := by
  unfold ofRat
  split_ifs with c1 c2 c3
  · nofun
  · exact absurd (h c1) c2
  · nofun
  · nofun

theorem F32.rnd_add_zero {a b : ℚ} (ha : Rep a) (hb : Rep b) (h : rnd (a + b) = 0) : a + b = 0 := by
  have := rnd_add_err ha hb
  rw [h, zero_sub, abs_neg] at this
  have n := abs_nonneg (a + b)
  unfold u at this
  exact abs_eq_zero.mp (by linarith)

theorem F32.add_ne_neg {a : F32} (b : F32) (h : a ≠ zero true) : a + b ≠ zero true := by
  rcases a with _ | u | u | ⟨q, hq⟩ <;> rcases b with _ | v | v | ⟨r, hr⟩
  · exact fun e => F32.noConfusion e
  · exact fun e => F32.noConfusion e
  · exact fun e => F32.noConfusion e
  · exact fun e => F32.noConfusion e
  · exact fun e => F32.noConfusion e
  · show (if u = v then inf u else nan) ≠ zero true
    split_ifs <;> nofun
  · exact fun e => F32.noConfusion e
  · exact fun e => F32.noConfusion e
  · exact fun e => F32.noConfusion e
  · exact fun e => F32.noConfusion e
  · cases u
    · cases v <;> decide
    · exact absurd rfl h
  · show ofRat false (0 + r) ≠ zero true
    exact ofRat_ne_neg (rnd_add_zero rep_zero hr.2)
  · exact fun e => F32.noConfusion e
  · exact fun e => F32.noConfusion e
  · show ofRat false (q + 0) ≠ zero true
    exact ofRat_ne_neg (rnd_add_zero hq.2 rep_zero)
  · show ofRat false (q + r) ≠ zero true
    exact ofRat_ne_neg (rnd_add_zero hq.2 hr.2)

theorem F32.add_ne_neg' (a : F32) {b : F32} (h : b ≠ zero true) : a + b ≠ zero true := by
  rw [F32.add_comm']; exact add_ne_neg a h

theorem F32.sub_ne_neg {a : F32} (b : F32) (h : a ≠ zero true) : a - b ≠ zero true := add_ne_neg (-b) h

theorem F32.mul_self_ne_neg (a : F32) : a * a ≠ zero true := by
  rcases a with _ | u | u | ⟨q, hq⟩
  · exact fun e => F32.noConfusion e
  · cases u <;> decide +kernel
  · cases u <;> decide +kernel
  · show ofRat ((fin q hq).sgn != (fin q hq).sgn) (q * q) ≠ zero true
    have : 0 < q * q := mul_self_pos.mpr hq.1
    unfold ofRat
    split_ifs with c1 c2 c3
    · exact absurd c2 this.ne'
    · rw [decide_eq_false (not_lt.mpr this.le)]; nofun
    · nofun
    · nofun

theorem F32.sqrt_ne_neg {a : F32} (h : a ≠ zero true) : F32.sqrt a ≠ zero true := by
  by_cases z : ∃ s, a = zero s
  · obtain ⟨s, rfl⟩ := z
    cases s
    · nofun
    · exact absurd rfl h
  · push Not at z
    exact sqrt_ne_zero z true

/-- division by equal divisors -/
theorem F32.Sim.div_right {a b : F32} (h : Sim a b) (c : F32) : Sim (a / c) (b / c) := by
  rcases h with rfl | ⟨s, t, rfl, rfl⟩
  · exact Sim.refl _
  · rcases c with _ | u | u | ⟨r, k⟩
    · exact Sim.refl _
    · exact Sim.zero _ _
    · exact Sim.refl _
    · show Sim (F32.ofRat _ (0 / r)) (F32.ofRat _ (0 / r))
      exact Sim.ofRat _ _ _

theorem F32.Mir.eq_of_ne {c d : F32} (h : Mir false c d) (hc : c ≠ F32.zero true) (hd : d ≠ F32.zero true) : c = d := by
  rcases h with h | ⟨s, t, h, h'⟩
  · exact h
  · have : c = F32.zero s := h
    cases s
    · cases t
      · rw [this, h']
      · exact absurd h' hd
    · exact absurd this hc

/-- division, where the divisors may be zero but are not negative zeros -/
theorem F32.Mir.div_pos {s : Bool} {a b c d : F32} (h : Mir s a b) (k : Mir false c d) (hc : c ≠ F32.zero true)
    (hd : d ≠ F32.zero true) : Mir s (a / c) (b / d) := by
  rw [← k.eq_of_ne hc hd]
  have := Sim.div_right h c
  cases s
  · exact this
  · have e : flip true a = -a := rfl
    rw [e, neg_div'] at this
    exact this

/-! ### unit vectors -/

theorem F32.eps_pos : 0 < key (CFloat.lit 0.00000011920928955078125 : F32) ∧ (CFloat.lit 0.00000011920928955078125 : F32) ≠ nan := by
  rw [lit_f32]; decide +kernel

theorem C78_vec3_normalize (σ : AxisMirror) (v v' : V3 F32) (h : σ.Vec v v') : σ.Vec (glm_vec3_normalize v) (glm_vec3_normalize v') := by
  have hn := C78_vec3_norm σ v v' h
  unfold glm_vec3_normalize
  refine AxisMirror.Vec.ite (by rw [flt_f32, flt_f32, hn.lt (.refl _)]) (fun _ => ⟨.zero_lit _, .zero_lit _, .zero_lit _⟩) fun c => ?_
  rw [flt_f32] at c
  exact C78_vec3_scale σ v v' _ _ h (Mir.div (.refl _) hn (ne_zero_of_not_lt eps_pos.1 eps_pos.2 c))

theorem C78_vec3_normalize_to (σ : AxisMirror) (v v' : V3 F32) (h : σ.Vec v v') :
    σ.Vec (glm_vec3_normalize_to v) (glm_vec3_normalize_to v') := by
  have e : ∀ v : V3 F32, glm_vec3_normalize_to v = glm_vec3_normalize v := fun v => by
    unfold glm_vec3_normalize_to glm_vec3_normalize glm_vec3_zero; rfl
  rw [e, e]
  exact C78_vec3_normalize σ v v' h

theorem C78_vec3_crossn (σ : AxisMirror) (a a' b b' : V3 F32) (ha : σ.Vec a a') (hb : σ.Vec b b') :
    σ.Axis (glm_vec3_crossn a b) (glm_vec3_crossn a' b') :=
  C78_vec3_normalize σ.dual _ _ (C78_vec3_cross σ a a' b b' ha hb)

theorem C78_vec3_scale_as (σ : AxisMirror) (v v' : V3 F32) (s s' : F32) (h : σ.Vec v v') (hs : Mir false s s') :
    σ.Vec (glm_vec3_scale_as v s) (glm_vec3_scale_as v' s') := by
  have hn := C78_vec3_norm σ v v' h
  unfold glm_vec3_scale_as
  refine AxisMirror.Vec.ite (by rw [flt_f32, flt_f32, hn.lt (.refl _)]) (fun _ => ⟨.zero_lit _, .zero_lit _, .zero_lit _⟩) fun c => ?_
  rw [flt_f32] at c
  exact C78_vec3_scale σ v v' _ _ h (Mir.div hs hn (ne_zero_of_not_lt eps_pos.1 eps_pos.2 c))

theorem C78_vec3_faceforward (σ : AxisMirror) (n n' v v' r r' : V3 F32) (hn : σ.Vec n n') (hv : σ.Vec v v') (hr : σ.Vec r r') :
    σ.Vec (glm_vec3_faceforward n v r) (glm_vec3_faceforward n' v' r') := by
  have hd := C78_vec3_dot σ v v' r r' hv hr
  unfold glm_vec3_faceforward
  exact AxisMirror.Vec.ite (by rw [flt_f32, flt_f32, hd.lt (.refl _)]) (fun _ => hn) fun _ => C78_vec3_negate_to σ n n' hn

/-- the same decision about total reflection, and mirrored directions -/
theorem C78_vec3_refract (σ : AxisMirror) (v v' n n' : V3 F32) (e e' : F32) (hv : σ.Vec v v') (hn : σ.Vec n n') (he : Mir false e e') :
    (glm_vec3_refract v' n' e').1 = (glm_vec3_refract v n e).1 ∧
    σ.Vec (glm_vec3_refract v n e).2 (glm_vec3_refract v' n' e').2 := by
  have hd := C78_vec3_dot σ n n' v v' hn hv
  have hi : Mir false (e * glm_vec3_dot n v) (e' * glm_vec3_dot n' v') := Mir.mul he hd
  have hk : Mir false (CFloat.lit 1 - e * e + e * glm_vec3_dot n v * (e * glm_vec3_dot n v))
      (CFloat.lit 1 - e' * e' + e' * glm_vec3_dot n' v' * (e' * glm_vec3_dot n' v')) :=
    Mir.add (Mir.sub (.refl _) (Mir.mul he he)) (Mir.mul hi hi)
  have hc := hk.lt (.refl (CFloat.lit 0 : F32))
  unfold glm_vec3_refract
  dsimp only
  rw [flt_f32, flt_f32, hc]
  split_ifs
  · exact ⟨rfl, .zero_lit _, .zero_lit _, .zero_lit _⟩
  · refine ⟨rfl, C78_vec3_mulsubs σ _ _ _ _ _ _ hn (Mir.add hi ?_) (C78_vec3_scale σ _ _ _ _ hv he)⟩
    rw [sqrtf_f32, sqrtf_f32]
    exact hk.sqrt

theorem vec3_norm2_ne (v : V3 F32) : glm_vec3_norm2 v ≠ zero true := by
  simp only [cglm]
  exact add_ne_neg _ (add_ne_neg _ (mul_self_ne_neg _))

theorem C78_vec3_proj (σ : AxisMirror) (a a' b b' : V3 F32) (ha : σ.Vec a a') (hb : σ.Vec b b') :
    σ.Vec (glm_vec3_proj a b) (glm_vec3_proj a' b') :=
  C78_vec3_scale σ b b' _ _ hb (Mir.div_pos (C78_vec3_dot σ a a' b b' ha hb) (C78_vec3_norm2 σ b b' hb) (vec3_norm2_ne _) (vec3_norm2_ne _))

/-! ### rotations -/

/-- turning a mirrored vector about the mirrored axis -/
theorem C78_vec3_rotate (σ : AxisMirror) (v v' k k' : V3 F32) (t : F32) (hv : σ.Vec v v') (hk : σ.Axis k k') :
    σ.Vec (glm_vec3_rotate v t k) (glm_vec3_rotate v' t k') := by
  have hn := C78_vec3_normalize_to σ.dual k k' hk
  unfold glm_vec3_rotate
  dsimp only
  generalize glm_vec3_normalize_to k = u at *
  generalize glm_vec3_normalize_to k' = u' at *
  obtain ⟨x, y, z⟩ := σ
  obtain ⟨_, _, _⟩ := hv
  obtain ⟨_, _, _⟩ := hn
  simp only [cglm, AxisMirror.Vec]
  refine ⟨?_, ?_, ?_⟩ <;> mir x y z

/-- a rotation matrix about a mirrored axis is the mirrored matrix -/
theorem C78_rotate_make (σ : AxisMirror) (k k' : V3 F32) (t : F32) (hk : σ.Axis k k') :
    σ.Mat4 (glm_rotate_make t k) (glm_rotate_make t k') := by
  have hn := C78_vec3_normalize_to σ.dual k k' hk
  unfold glm_rotate_make
  dsimp only
  generalize glm_vec3_normalize_to k = u at *
  generalize glm_vec3_normalize_to k' = u' at *
  obtain ⟨x, y, z⟩ := σ
  obtain ⟨_, _, _⟩ := hn
  simp only [cglm, AxisMirror.Mat4]
  refine ⟨⟨?_, ?_, ?_, ?_⟩, ⟨?_, ?_, ?_, ?_⟩, ⟨?_, ?_, ?_, ?_⟩, ⟨?_, ?_, ?_, ?_⟩⟩ <;> mir x y z

theorem C78_rotate (σ : AxisMirror) (m m' : M4 F32) (k k' : V3 F32) (t : F32) (hm : σ.Mat4 m m') (hk : σ.Axis k k') :
    σ.Mat4 (glm_rotate m t k) (glm_rotate m' t k') :=
  C78_mul_rot σ _ _ _ _ hm (C78_rotate_make σ k k' t hk)

theorem C78_rotate_at (σ : AxisMirror) (m m' : M4 F32) (p p' k k' : V3 F32) (t : F32) (hm : σ.Mat4 m m') (hp : σ.Vec p p')
    (hk : σ.Axis k k') : σ.Mat4 (glm_rotate_at m p t k) (glm_rotate_at m' p' t k') :=
  C78_translate σ _ _ _ _ (C78_rotate σ _ _ _ _ t (C78_translate σ _ _ _ _ hm hp) hk) (C78_vec3_negate_to σ _ _ hp)

/-! ### quaternions -/

theorem C78_quatv (σ : AxisMirror) (k k' : V3 F32) (t : F32) (hk : σ.Axis k k') : σ.Quat (glm_quatv t k) (glm_quatv t k') := by
  have hn := C78_vec3_normalize_to σ.dual k k' hk
  have e : ∀ k : V3 F32, glm_normalize_to k = glm_vec3_normalize_to k := fun _ => rfl
  unfold glm_quatv
  dsimp only
  rw [e, e]
  generalize glm_vec3_normalize_to k = u at *
  generalize glm_vec3_normalize_to k' = u' at *
  obtain ⟨x, y, z⟩ := σ
  obtain ⟨_, _, _⟩ := hn
  simp only [AxisMirror.Quat, AxisMirror.Vec4]
  refine ⟨?_, ?_, ?_, ?_⟩ <;> mir x y z

theorem vec4_norm2_mir (σ : AxisMirror) {q q' : V4 F32} (h : σ.Vec4 q q') : Mir false (glm_vec4_norm2 q) (glm_vec4_norm2 q') := by
  obtain ⟨x, y, z⟩ := σ
  obtain ⟨_, _, _, _⟩ := h
  simp only [cglm]
  mir x y z

theorem vec4_scale_mir (σ : AxisMirror) {q q' : V4 F32} {s s' : F32} (h : σ.Vec4 q q') (hs : Mir false s s') :
    σ.Vec4 (glm_vec4_scale q s) (glm_vec4_scale q' s') := by
  obtain ⟨x, y, z⟩ := σ
  obtain ⟨_, _, _, _⟩ := h
  simp only [cglm, AxisMirror.Vec4]
  refine ⟨?_, ?_, ?_, ?_⟩ <;> mir x y z

theorem C78_quat_normalize_to (σ : AxisMirror) (q q' : V4 F32) (h : σ.Quat q q') :
    σ.Quat (glm_quat_normalize_to q) (glm_quat_normalize_to q') := by
  have hn := vec4_norm2_mir σ.dual h
  unfold glm_quat_normalize_to
  refine AxisMirror.Vec4.ite (by rw [fle_f32, fle_f32, hn.le (.refl _)]) (fun _ => C78_quat_identity σ) fun c => ?_
  rw [fle_f32] at c
  rw [sqrtf_f32, sqrtf_f32]
  exact vec4_scale_mir _ h (Mir.div (.refl _) hn.sqrt (sqrt_ne_zero (ne_zero_of_not_le c)))

theorem C78_quat_normalize (σ : AxisMirror) (q q' : V4 F32) (h : σ.Quat q q') :
    σ.Quat (glm_quat_normalize q) (glm_quat_normalize q') := C78_quat_normalize_to σ q q' h

theorem vec4_norm2_ne (v : V4 F32) : glm_vec4_norm2 v ≠ zero true := by
  simp only [cglm]
  exact add_ne_neg _ (add_ne_neg _ (add_ne_neg _ (mul_self_ne_neg _)))

theorem C78_quat_inv (σ : AxisMirror) (q q' : V4 F32) (h : σ.Quat q q') : σ.Quat (glm_quat_inv q) (glm_quat_inv q') :=
  vec4_scale_mir σ.dual (C78_quat_conjugate σ q q' h)
    (Mir.div_pos (.refl _) (vec4_norm2_mir σ.dual h) (vec4_norm2_ne _) (vec4_norm2_ne _))

theorem C78_quat_nlerp (σ : AxisMirror) (p p' q q' : V4 F32) (t t' : F32) (hp : σ.Quat p p') (hq : σ.Quat q q') (ht : Mir false t t') :
    σ.Quat (glm_quat_nlerp p q t) (glm_quat_nlerp p' q' t') := by
  have hd := C78_quat_dot σ p p' q q' hp hq
  refine C78_quat_normalize σ _ _ (C78_quat_lerp σ p p' _ _ t t' hp (vec4_scale_mir σ.dual hq (Mir.ite ?_ (.refl _) (.refl _))) ht)
  have := (Mir.refl (CFloat.lit 0 : F32)).le hd
  rw [fle_f32, fle_f32]
  simp only [glm_quat_dot] at this
  rw [this]

/-- turning a mirrored vector by the mirrored quaternion -/
theorem C78_quat_rotatev (σ : AxisMirror) (q q' : V4 F32) (v v' : V3 F32) (hq : σ.Quat q q') (hv : σ.Vec v v') :
    σ.Vec (glm_quat_rotatev q v) (glm_quat_rotatev q' v') := by
  have hn := C78_quat_normalize_to σ q q' hq
  unfold glm_quat_rotatev
  dsimp only
  generalize glm_quat_normalize_to q = u at *
  generalize glm_quat_normalize_to q' = u' at *
  obtain ⟨x, y, z⟩ := σ
  obtain ⟨_, _, _⟩ := hv
  obtain ⟨_, _, _, _⟩ := hn
  simp only [cglm, AxisMirror.Vec]
  refine ⟨?_, ?_, ?_⟩ <;> mir x y z

theorem quat_scale_mir (σ : AxisMirror) {q q' : V4 F32} (h : σ.Quat q q') :
    Mir false (if flt (CFloat.lit 0) (glm_quat_norm q) = true then CFloat.lit 2 / glm_quat_norm q else CFloat.lit 0)
      (if flt (CFloat.lit 0) (glm_quat_norm q') = true then CFloat.lit 2 / glm_quat_norm q' else CFloat.lit 0) := by
  have hn := C78_quat_norm σ q q' h
  have hl := (Mir.refl (CFloat.lit 0 : F32)).lt hn
  rw [flt_f32, flt_f32, hl]
  split_ifs with c
  · exact Mir.div (.refl _) hn (ne_zero_of_lt (by rw [key_lit rep_zero]) c)
  · exact .refl _

theorem C78_quat_mat3 (σ : AxisMirror) (q q' : V4 F32) (h : σ.Quat q q') : σ.Mat3 (glm_quat_mat3 q) (glm_quat_mat3 q') := by
  have hs := quat_scale_mir σ h
  unfold glm_quat_mat3
  dsimp only
  generalize (if flt (CFloat.lit 0) (glm_quat_norm q) = true then CFloat.lit 2 / glm_quat_norm q else CFloat.lit 0) = s at *
  generalize (if flt (CFloat.lit 0) (glm_quat_norm q') = true then CFloat.lit 2 / glm_quat_norm q' else CFloat.lit 0) = s' at *
  obtain ⟨x, y, z⟩ := σ
  obtain ⟨_, _, _, _⟩ := h
  simp only [AxisMirror.Mat3]
  refine ⟨⟨?_, ?_, ?_⟩, ⟨?_, ?_, ?_⟩, ⟨?_, ?_, ?_⟩⟩ <;> mir x y z

theorem C78_quat_mat4 (σ : AxisMirror) (q q' : V4 F32) (h : σ.Quat q q') : σ.Mat4 (glm_quat_mat4 q) (glm_quat_mat4 q') := by
  have hs := quat_scale_mir σ h
  unfold glm_quat_mat4
  dsimp only
  generalize (if flt (CFloat.lit 0) (glm_quat_norm q) = true then CFloat.lit 2 / glm_quat_norm q else CFloat.lit 0) = s at *
  generalize (if flt (CFloat.lit 0) (glm_quat_norm q') = true then CFloat.lit 2 / glm_quat_norm q' else CFloat.lit 0) = s' at *
  obtain ⟨x, y, z⟩ := σ
  obtain ⟨_, _, _, _⟩ := h
  simp only [AxisMirror.Mat4]
  refine ⟨⟨?_, ?_, ?_, ?_⟩, ⟨?_, ?_, ?_, ?_⟩, ⟨?_, ?_, ?_, ?_⟩, ⟨?_, ?_, ?_, ?_⟩⟩ <;> mir x y z

theorem C78_quat_rotate (σ : AxisMirror) (m m' : M4 F32) (q q' : V4 F32) (hm : σ.Mat4 m m') (hq : σ.Quat q q') :
    σ.Mat4 (glm_quat_rotate m q) (glm_quat_rotate m' q') := C78_mul_rot σ _ _ _ _ hm (C78_quat_mat4 σ q q' hq)

theorem C78_quat_rotate_at (σ : AxisMirror) (m m' : M4 F32) (q q' : V4 F32) (p p' : V3 F32) (hm : σ.Mat4 m m') (hq : σ.Quat q q')
    (hp : σ.Vec p p') : σ.Mat4 (glm_quat_rotate_at m q p) (glm_quat_rotate_at m' q' p') :=
  C78_translate σ _ _ _ _ (C78_quat_rotate σ _ _ _ _ (C78_translate σ _ _ _ _ hm hp) hq) (C78_vec3_negate_to σ _ _ hp)

/-! ### inverses of matrices -/

theorem F32.recip_ne {c d : F32} (h : (CFloat.lit 1 / c * d : F32).isFin = true) : ∀ s, c ≠ zero s := by
  rintro s rfl
  have e : (CFloat.lit 1 / zero s : F32) = inf s := by
    rw [lit_f32]; cases s <;> decide +kernel
  rw [e] at h
  rcases d with _ | t | t | ⟨q, hq⟩ <;> cases h

/-- the inverse of the mirrored matrix, when the computed inverse is finite -/
theorem C78_mat3_inv (σ : AxisMirror) (m m' : M3 F32) (h : σ.Mat3 m m') (hf : (glm_mat3_inv m).c0.x.isFin = true) :
    σ.Mat3 (glm_mat3_inv m) (glm_mat3_inv m') := by
  simp only [cglm] at hf
  have h0 := recip_ne hf
  obtain ⟨x, y, z⟩ := σ
  obtain ⟨⟨_, _, _⟩, ⟨_, _, _⟩, ⟨_, _, _⟩⟩ := h
  simp only [cglm, AxisMirror.Mat3]
  refine ⟨⟨?_, ?_, ?_⟩, ⟨?_, ?_, ?_⟩, ⟨?_, ?_, ?_⟩⟩ <;> mir x y z


theorem F32.recip_ne' {c d : F32} (h : (d * (CFloat.lit 1 / c) : F32).isFin = true) : ∀ s, c ≠ zero s := by
  rw [mul_comm'] at h
  exact recip_ne h

theorem C78_mat4_inv (σ : AxisMirror) (m m' : M4 F32) (h : σ.Mat4 m m') (hf : (glm_mat4_inv m).c0.x.isFin = true) :
    σ.Mat4 (glm_mat4_inv m) (glm_mat4_inv m') := by
  simp only [cglm] at hf
  have h0 := recip_ne' hf
  obtain ⟨x, y, z⟩ := σ
  obtain ⟨⟨_, _, _, _⟩, ⟨_, _, _, _⟩, ⟨_, _, _, _⟩, ⟨_, _, _, _⟩⟩ := h
  simp only [cglm, AxisMirror.Mat4]
  refine ⟨⟨?_, ?_, ?_, ?_⟩, ⟨?_, ?_, ?_, ?_⟩, ⟨?_, ?_, ?_, ?_⟩, ⟨?_, ?_, ?_, ?_⟩⟩ <;> mir x y z

/-- the hypothesis: a matrix with a finite inverse -/
example : (glm_mat4_inv (glm_mat4_identity : M4 F32)).c0.x.isFin = true ∧ (glm_mat3_inv (glm_mat3_identity : M3 F32)).c0.x.isFin = true := by
  simp only [cglm, lit_f32]
  decide +kernel

/-! ### more rotations -/

theorem C78_rotate_atm (σ : AxisMirror) (p p' k k' : V3 F32) (t : F32) (hp : σ.Vec p p') (hk : σ.Axis k k') :
    σ.Mat4 (glm_rotate_atm p t k) (glm_rotate_atm p' t k') :=
  C78_translate σ _ _ _ _ (C78_rotate σ _ _ _ _ t (C78_translate_make σ _ _ hp) hk) (C78_vec3_negate_to σ _ _ hp)

theorem mat4_origin (σ : AxisMirror) {m m' : M4 F32} (h : σ.Mat4 m m') :
    σ.Vec ⟨m.c3.x, m.c3.y, m.c3.z⟩ ⟨m'.c3.x, m'.c3.y, m'.c3.z⟩ := by
  obtain ⟨x, y, z⟩ := σ
  obtain ⟨-, -, -, ⟨_, _, _, -⟩⟩ := h
  refine ⟨?_, ?_, ?_⟩ <;> mir x y z

theorem C78_spin (σ : AxisMirror) (m m' : M4 F32) (k k' : V3 F32) (t : F32) (hm : σ.Mat4 m m') (hk : σ.Axis k k') :
    σ.Mat4 (glm_spin m t k) (glm_spin m' t k') :=
  C78_mat4_mul σ _ _ _ _ hm (C78_rotate_atm σ _ _ _ _ t (mat4_origin σ hm) hk)

theorem C78_spinned (σ : AxisMirror) (m m' : M4 F32) (k k' : V3 F32) (t : F32) (hm : σ.Mat4 m m') (hk : σ.Axis k k') :
    σ.Mat4 (glm_spinned m t k) (glm_spinned m' t k') :=
  C78_mat4_mul σ _ _ _ _ (C78_rotate_atm σ _ _ _ _ t (mat4_origin σ hm) hk) hm

theorem C78_rotated (σ : AxisMirror) (m m' : M4 F32) (k k' : V3 F32) (t : F32) (hm : σ.Mat4 m m') (hk : σ.Axis k k') :
    σ.Mat4 (glm_rotated m t k) (glm_rotated m' t k') :=
  C78_mul_rot σ _ _ _ _ (C78_rotate_make σ k k' t hk) hm

/-! ### spheres and planes -/

/-- the mirrored sphere: mirrored centre, equal radius -/
def AxisMirror.Ball (σ : AxisMirror) (s s' : V4 F32) : Prop := σ.Vec ⟨s.x, s.y, s.z⟩ ⟨s'.x, s'.y, s'.z⟩ ∧ Mir false s.w s'.w

theorem C78_sphere_merge (σ : AxisMirror) (s s' t t' : V4 F32) (hs : σ.Ball s s') (ht : σ.Ball t t') :
    σ.Ball (glm_sphere_merge s t) (glm_sphere_merge s' t') := by
  have hd := C78_vec3_distance σ _ _ _ _ hs.1 ht.1
  have mx : ∀ {a a' b b' : F32}, Mir false a a' → Mir false b b' → Mir false (glm_max a b) (glm_max a' b') := by
    intro a a' b b' ha hb
    unfold glm_max
    exact Mir.ite (by rw [flt_f32, flt_f32, hb.lt ha]) ha hb
  exact ⟨C78_vec3_center σ _ _ _ _ hs.1 ht.1, mx (mx (Mir.add (Mir.add hd hs.2) ht.2) hs.2) ht.2⟩

theorem C78_sphere_sphere (σ : AxisMirror) (s s' t t' : V4 F32) (hs : σ.Ball s s') (ht : σ.Ball t t') :
    glm_sphere_sphere s' t' = glm_sphere_sphere s t := by
  have hr : Mir false (s.w + t.w) (s'.w + t'.w) := Mir.add hs.2 ht.2
  unfold glm_sphere_sphere glm_pow2
  rw [fle_f32, fle_f32]
  exact (C78_vec3_distance2 σ _ _ _ _ hs.1 ht.1).le (Mir.mul hr hr)

theorem C78_sphere_point (σ : AxisMirror) (s s' : V4 F32) (p p' : V3 F32) (hs : σ.Ball s s') (hp : σ.Vec p p') :
    glm_sphere_point s' p' = glm_sphere_point s p := by
  unfold glm_sphere_point
  rw [fle_f32, fle_f32]
  exact (C78_vec3_distance2 σ _ _ _ _ hp hs.1).le (Mir.mul hs.2 hs.2)

theorem C78_plane_normalize (σ : AxisMirror) (p p' : V4 F32) (h : σ.Vec4 p p') :
    σ.Vec4 (glm_plane_normalize p) (glm_plane_normalize p') := by
  have hn := C78_vec3_norm σ ⟨p.x, p.y, p.z⟩ ⟨p'.x, p'.y, p'.z⟩ ⟨h.1, h.2.1, h.2.2.1⟩
  unfold glm_plane_normalize
  refine AxisMirror.Vec4.ite (by rw [flt_f32, flt_f32, hn.lt (.refl _)]) (fun _ => ⟨.zero_lit _, .zero_lit _, .zero_lit _, .zero_lit _⟩) fun c => ?_
  rw [flt_f32] at c
  exact vec4_scale_mir σ h (Mir.div (.refl _) hn (ne_zero_of_not_lt eps_pos.1 eps_pos.2 c))

/-! ### rays -/

theorem vec3_dot_axis (σ : AxisMirror) {a a' b b' : V3 F32} (ha : σ.Vec a a') (hb : σ.Axis b b') :
    Mir σ.odd (glm_vec3_dot a b) (glm_vec3_dot a' b') := by
  obtain ⟨x, y, z⟩ := σ
  obtain ⟨_, _, _⟩ := ha
  obtain ⟨_, _, _⟩ := hb
  simp only [cglm, AxisMirror.odd]
  mir x y z

theorem band_mir {s : Bool} {e a b : F32} (h : Mir s a b) : (F32.lt (-e) b && F32.lt b e) = (F32.lt (-e) a && F32.lt a e) := by
  cases s
  · rw [(Mir.refl (-e)).lt h, h.lt (.refl _)]
  · have k : Mir true e (-e) := Mir.negate e
    have k' : Mir true (-e) e := by have := Mir.negate (-e); rwa [neg_neg''] at this
    rw [Mir.lt_swap k h, Mir.lt_swap h k', Bool.and_comm]

theorem F32.ne_zero_of_not_band {a e : F32} (he : 0 < key e) (hn : e ≠ nan) (h : ¬(F32.lt (-e) a && F32.lt a e) = true) :
    ∀ s, a ≠ zero s := by
  rintro s rfl
  refine h ?_
  rw [Bool.and_eq_true, key_lt_iff, key_lt_iff, key_neg]
  have z : key (zero s) = 0 := rfl
  exact ⟨⟨neg_ne_nan hn, by nofun, by rw [z]; linarith⟩, by nofun, hn, by rw [z]; exact he⟩

theorem F32.tri_eps : 0 < key (CFloat.lit 0.000001 : F32) ∧ (CFloat.lit 0.000001 : F32) ≠ nan := by
  rw [lit_f32]; decide +kernel

/-- a ray hits a mirrored triangle exactly when the mirrored ray does, at the same distance, in every corner case -/
theorem C78_ray_triangle (σ : AxisMirror) (o o' d d' a a' b b' c c' : V3 F32) (t : F32) (ho : σ.Vec o o') (hd : σ.Vec d d')
    (ha : σ.Vec a a') (hb : σ.Vec b b') (hc : σ.Vec c c') :
    (glm_ray_triangle o' d' a' b' c' t).1 = (glm_ray_triangle o d a b c t).1 ∧
    Mir false (glm_ray_triangle o d a b c t).2 (glm_ray_triangle o' d' a' b' c' t).2 := by
  have e1 := C78_vec3_sub σ _ _ _ _ hb ha
  have e2 := C78_vec3_sub σ _ _ _ _ hc ha
  have ht := C78_vec3_sub σ _ _ _ _ ho ha
  have hp := C78_vec3_cross σ _ _ _ _ hd e2
  have hq := C78_vec3_cross σ _ _ _ _ ht e1
  have hdet := vec3_dot_axis σ e1 hp
  have sq : ∀ {s : Bool} {a b c d : F32}, Mir s a b → Mir s c d → Mir false (a * c) (b * d) := fun h k => by
    have := Mir.mul h k
    rwa [Bool.xor_self] at this
  have band := band_mir (e := CFloat.lit 0.000001) hdet
  simp only [glm_ray_triangle, flt_f32]
  rw [band]
  by_cases c1 : (F32.lt (-CFloat.lit 0.000001) (glm_vec3_dot (glm_vec3_sub b a) (glm_vec3_cross d (glm_vec3_sub c a))) &&
    F32.lt (glm_vec3_dot (glm_vec3_sub b a) (glm_vec3_cross d (glm_vec3_sub c a))) (CFloat.lit 0.000001)) = true
  · rw [if_pos c1, if_pos c1]
    exact ⟨rfl, .refl _⟩
  rw [if_neg c1, if_neg c1]
  have hi : Mir σ.odd (CFloat.lit 1 / glm_vec3_dot (glm_vec3_sub b a) (glm_vec3_cross d (glm_vec3_sub c a)))
      (CFloat.lit 1 / glm_vec3_dot (glm_vec3_sub b' a') (glm_vec3_cross d' (glm_vec3_sub c' a'))) := by
    have := Mir.div (.refl (CFloat.lit 1 : F32)) hdet (ne_zero_of_not_band tri_eps.1 tri_eps.2 c1)
    rwa [Bool.false_xor] at this
  have hu := sq hi (vec3_dot_axis σ ht hp)
  have hv := sq hi (vec3_dot_axis σ hd hq)
  have hw := sq hi (vec3_dot_axis σ e2 hq)
  rw [hu.lt (.refl _), (Mir.refl _).lt hu, hv.lt (.refl _), (Mir.refl _).lt (Mir.add hu hv), (Mir.refl _).lt hw]
  split_ifs
  · exact ⟨rfl, .refl _⟩
  · exact ⟨rfl, .refl _⟩
  · exact ⟨rfl, hw⟩

theorem F32.sqrt_nonneg_key (a : F32) : 0 ≤ key (F32.sqrt a) := by
  rcases a with _ | t | t | ⟨q, hq⟩
  · exact le_rfl
  · cases t
    · show (0 : ℚ) ≤ 2 ^ 128; norm_num
    · exact le_rfl
  · exact le_rfl
  · by_cases c : q < 0
    · have : F32.sqrt (fin q hq) = nan := if_pos c
      rw [this]; exact le_rfl
    · have pos : 0 < q := lt_of_le_of_ne (not_lt.mp c) (Ne.symm hq.1)
      have v := sqrt_val hq pos
      obtain ⟨m, -, e, -⟩ := sqrt_bits pos
      rw [key_fin v.1, v.2, e]
      have := two_zpow_pos (sqrtExp q)
      positivity

theorem F32.sub_ne_zero {a b : F32} (h : ∀ s, a ≠ zero s) (ha : key a ≤ 0) (hb : 0 ≤ key b) : ∀ s, a - b ≠ zero s := by
  intro s e
  have f : (a - b).isFin = true := by rw [e]; rfl
  obtain ⟨fa, fb⟩ := sub_isFin f
  have v := sub_val f
  have z : (zero s).val = 0 := rfl
  rw [e, z] at v
  rw [key_fin fa] at ha
  rw [key_fin fb] at hb
  have m : rnd (a.val - b.val) ≤ rnd a.val := rnd_mono (by linarith)
  rw [rnd_rep (rep_val a), ← v] at m
  obtain ⟨t, ht⟩ := (key_zero_iff (a := a) (isNum_of_isFin fa)).mp (by rw [key_fin fa]; linarith)
  exact h t ht

theorem root_ne (k : F32) {w : F32} (hw : F32.sqrt w ≠ zero true) :
    (if F32.le (CFloat.lit 0) k = true then k + F32.sqrt w else k - F32.sqrt w) ≠ zero true := by
  split_ifs with c
  · exact add_ne_neg' k hw
  · refine sub_ne_zero (fun s e => c ?_) ?_ (sqrt_nonneg_key _) _
    · subst e
      exact key_le_iff.mpr ⟨(Has.lit rep_zero).ne_nan, by nofun, by rw [key_lit rep_zero]; rfl⟩
    · by_cases hn : k = nan
      · subst hn; exact le_rfl
      · by_contra hk
        exact c (key_le_iff.mpr ⟨(Has.lit rep_zero).ne_nan, hn, by rw [key_lit rep_zero]; linarith⟩)

/-- a ray hits the mirrored sphere exactly when the mirrored ray does, at the same two distances, in every corner case -/
theorem C78_ray_sphere (σ : AxisMirror) (o o' d d' : V3 F32) (s s' : V4 F32) (t u : F32) (ho : σ.Vec o o') (hd : σ.Vec d d')
    (hs : σ.Ball s s') :
    (glm_ray_sphere o' d' s' t u).1 = (glm_ray_sphere o d s t u).1 ∧
    Mir false (glm_ray_sphere o d s t u).2.1 (glm_ray_sphere o' d' s' t u).2.1 ∧
    Mir false (glm_ray_sphere o d s t u).2.2 (glm_ray_sphere o' d' s' t u).2.2 := by
  have hp := C78_vec3_sub σ _ _ _ _ hs.1 ho
  have hdp := C78_vec3_dot σ _ _ _ _ hd hp
  have hpp := C78_vec3_norm2 σ _ _ hp
  have hm := C78_vec3_norm2 σ _ _ (C78_vec3_mulsubs σ _ _ _ _ _ _ hd hdp hp)
  have hr : Mir false (s.w * s.w) (s'.w * s'.w) := Mir.mul hs.2 hs.2
  have r0 := mul_self_ne_neg s.w
  have r0' := mul_self_ne_neg s'.w
  simp only [glm_ray_sphere, flt_f32, fle_f32, sqrtf_f32]
  generalize glm_vec3_norm2 (glm_vec3_mulsubs d (glm_vec3_dot d (glm_vec3_sub ⟨s.x, s.y, s.z⟩ o)) (glm_vec3_sub ⟨s.x, s.y, s.z⟩ o)) = n at *
  generalize glm_vec3_norm2 (glm_vec3_mulsubs d' (glm_vec3_dot d' (glm_vec3_sub ⟨s'.x, s'.y, s'.z⟩ o')) (glm_vec3_sub ⟨s'.x, s'.y, s'.z⟩ o')) = n' at *
  generalize glm_vec3_dot d (glm_vec3_sub ⟨s.x, s.y, s.z⟩ o) = k at *
  generalize glm_vec3_dot d' (glm_vec3_sub ⟨s'.x, s'.y, s'.z⟩ o') = k' at *
  generalize glm_vec3_norm2 (glm_vec3_sub ⟨s.x, s.y, s.z⟩ o) = w at *
  generalize glm_vec3_norm2 (glm_vec3_sub ⟨s'.x, s'.y, s'.z⟩ o') = w' at *
  generalize s.w * s.w = r at *
  generalize s'.w * s'.w = r' at *
  have hD := hr.sub hm
  rw [hD.lt (.refl _)]
  by_cases c1 : F32.lt (r - n) (CFloat.lit 0) = true
  · rw [if_pos c1, if_pos c1]
    exact ⟨rfl, .refl _, .refl _⟩
  rw [if_neg c1, if_neg c1]
  have hle := (Mir.refl (CFloat.lit 0 : F32)).le hdp
  have hq : Mir false (if F32.le (CFloat.lit 0) k = true then k + F32.sqrt (r - n) else k - F32.sqrt (r - n))
      (if F32.le (CFloat.lit 0) k' = true then k' + F32.sqrt (r' - n') else k' - F32.sqrt (r' - n')) :=
    Mir.ite (by rw [hle]) (hdp.add hD.sqrt) (hdp.sub hD.sqrt)
  have q0 := root_ne k (sqrt_ne_neg (sub_ne_neg n r0))
  have q0' := root_ne k' (sqrt_ne_neg (sub_ne_neg n' r0'))
  generalize (if F32.le (CFloat.lit 0) k = true then k + F32.sqrt (r - n) else k - F32.sqrt (r - n)) = q at *
  generalize (if F32.le (CFloat.lit 0) k' = true then k' + F32.sqrt (r' - n') else k' - F32.sqrt (r' - n')) = q' at *
  have h2 : Mir false ((w - r) / q) ((w' - r') / q') := Mir.div_pos (hpp.sub hr) hq q0 q0'
  generalize (w - r) / q = v at *
  generalize (w' - r') / q' = v' at *
  rw [h2.lt hq, h2.lt (.refl _), hq.lt (.refl _)]
  split_ifs
  · exact ⟨rfl, h2, hq⟩
  · exact ⟨rfl, h2, hq⟩
  · exact ⟨rfl, hq, h2⟩
  · exact ⟨rfl, hq, h2⟩

/-! ### taking transforms apart -/

/-- four components with their signs -/
def Signs4 (s t u w : Bool) (v v' : V4 F32) : Prop := Mir s v.x v'.x ∧ Mir t v.y v'.y ∧ Mir u v.z v'.z ∧ Mir w v.w v'.w

theorem sq_mir {s : Bool} {a b : F32} (h : Mir s a b) : Mir false (a * a) (b * b) := by
  have := Mir.mul h h
  rwa [Bool.xor_self] at this

theorem signs_scale {s t u w : Bool} {v v' : V4 F32} {a a' : F32} (h : Signs4 s t u w v v') (ha : Mir false a a') :
    Signs4 s t u w (glm_vec4_scale v a) (glm_vec4_scale v' a') := by
  have m : ∀ {s : Bool} {b b' : F32}, Mir s b b' → Mir s (b * a) (b' * a') := fun h => by
    have := Mir.mul h ha
    rwa [Bool.xor_false] at this
  simp only [cglm]
  exact ⟨m h.1, m h.2.1, m h.2.2.1, m h.2.2.2⟩

theorem signs_unit {s t u w : Bool} {v v' : V4 F32} (h : Signs4 s t u w v v') :
    Signs4 s t u w (glm_vec4_normalize_to v) (glm_vec4_normalize_to v') := by
  have hn : Mir false (glm_vec4_norm v) (glm_vec4_norm v') := by
    simp only [cglm, sqrtf_f32]
    exact Mir.sqrt (Mir.add (Mir.add (Mir.add (sq_mir h.1) (sq_mir h.2.1)) (sq_mir h.2.2.1)) (sq_mir h.2.2.2))
  unfold glm_vec4_normalize_to
  dsimp only
  rw [flt_f32, flt_f32, hn.lt (.refl _)]
  split_ifs with c
  · exact ⟨.zero_lit _, .zero_lit _, .zero_lit _, .zero_lit _⟩
  · exact signs_scale h (Mir.div (.refl _) hn (ne_zero_of_not_lt eps_pos.1 eps_pos.2 c))

/-- turning a vector by the rotation of a mirrored transform, stripped of its scale -/
theorem C78_vec3_rotate_m4 (σ : AxisMirror) (m m' : M4 F32) (v v' : V3 F32) (hm : σ.Mat4 m m') (hv : σ.Vec v v') :
    σ.Vec (glm_vec3_rotate_m4 m v) (glm_vec3_rotate_m4 m' v') := by
  have h0 := signs_unit hm.1
  have h1 := signs_unit hm.2.1
  have h2 := signs_unit hm.2.2.1
  unfold glm_vec3_rotate_m4
  dsimp only
  generalize glm_vec4_normalize_to m.c0 = a0 at *
  generalize glm_vec4_normalize_to m'.c0 = a0' at *
  generalize glm_vec4_normalize_to m.c1 = a1 at *
  generalize glm_vec4_normalize_to m'.c1 = a1' at *
  generalize glm_vec4_normalize_to m.c2 = a2 at *
  generalize glm_vec4_normalize_to m'.c2 = a2' at *
  clear hm
  obtain ⟨x, y, z⟩ := σ
  obtain ⟨_, _, _, _⟩ := h0
  obtain ⟨_, _, _, _⟩ := h1
  obtain ⟨_, _, _, _⟩ := h2
  obtain ⟨_, _, _⟩ := hv
  simp only [cglm, AxisMirror.Vec]
  refine ⟨?_, ?_, ?_⟩ <;> mir x y z

theorem C78_vec3_rotate_m3 (σ : AxisMirror) (m m' : M3 F32) (v v' : V3 F32) (hm : σ.Mat3 m m') (hv : σ.Vec v v') :
    σ.Vec (glm_vec3_rotate_m3 m v) (glm_vec3_rotate_m3 m' v') := by
  have h0 := signs_unit (w := false) (v := glm_vec4 m.c0 (CFloat.lit 0)) (v' := glm_vec4 m'.c0 (CFloat.lit 0)) ⟨hm.1.1, hm.1.2.1, hm.1.2.2, .refl _⟩
  have h1 := signs_unit (w := false) (v := glm_vec4 m.c1 (CFloat.lit 0)) (v' := glm_vec4 m'.c1 (CFloat.lit 0)) ⟨hm.2.1.1, hm.2.1.2.1, hm.2.1.2.2, .refl _⟩
  have h2 := signs_unit (w := false) (v := glm_vec4 m.c2 (CFloat.lit 0)) (v' := glm_vec4 m'.c2 (CFloat.lit 0)) ⟨hm.2.2.1, hm.2.2.2.1, hm.2.2.2.2, .refl _⟩
  unfold glm_vec3_rotate_m3 glm_vec4_normalize
  dsimp only
  generalize glm_vec4_normalize_to (glm_vec4 m.c0 (CFloat.lit 0)) = a0 at *
  generalize glm_vec4_normalize_to (glm_vec4 m'.c0 (CFloat.lit 0)) = a0' at *
  generalize glm_vec4_normalize_to (glm_vec4 m.c1 (CFloat.lit 0)) = a1 at *
  generalize glm_vec4_normalize_to (glm_vec4 m'.c1 (CFloat.lit 0)) = a1' at *
  generalize glm_vec4_normalize_to (glm_vec4 m.c2 (CFloat.lit 0)) = a2 at *
  generalize glm_vec4_normalize_to (glm_vec4 m'.c2 (CFloat.lit 0)) = a2' at *
  clear hm
  obtain ⟨x, y, z⟩ := σ
  obtain ⟨_, _, _, _⟩ := h0
  obtain ⟨_, _, _, _⟩ := h1
  obtain ⟨_, _, _, _⟩ := h2
  obtain ⟨_, _, _⟩ := hv
  simp only [cglm, AxisMirror.Vec]
  refine ⟨?_, ?_, ?_⟩ <;> mir x y z

theorem norm_col {s t u : Bool} {a a' b b' c c' : F32} (ha : Mir s a a') (hb : Mir t b b') (hc : Mir u c c') :
    Mir false (glm_vec3_norm ⟨a, b, c⟩) (glm_vec3_norm ⟨a', b', c'⟩) := by
  simp only [cglm, sqrtf_f32]
  exact Mir.sqrt (Mir.add (Mir.add (sq_mir ha) (sq_mir hb)) (sq_mir hc))

theorem vec3_norm_ne (v : V3 F32) : glm_vec3_norm v ≠ zero true := by
  unfold glm_vec3_norm
  rw [sqrtf_f32]
  exact sqrt_ne_neg (vec3_norm2_ne v)

/-- the scale factors of a mirrored transform are the same -/
theorem C78_decompose_scalev (σ : AxisMirror) (m m' : M4 F32) (h : σ.Mat4 m m') :
    Mir false (glm_decompose_scalev m).x (glm_decompose_scalev m').x ∧ Mir false (glm_decompose_scalev m).y (glm_decompose_scalev m').y ∧
    Mir false (glm_decompose_scalev m).z (glm_decompose_scalev m').z :=
  ⟨norm_col h.1.1 h.1.2.1 h.1.2.2.1, norm_col h.2.1.1 h.2.1.2.1 h.2.1.2.2.1, norm_col h.2.2.1.1 h.2.2.1.2.1 h.2.2.1.2.2.1⟩

/-- taking a mirrored transform apart: the mirrored rotation and the same scale factors, with the same decision about a reflection -/
theorem C78_decompose_rs (σ : AxisMirror) (m m' : M4 F32) (h : σ.Mat4 m m') :
    σ.Mat4 (glm_decompose_rs m).1 (glm_decompose_rs m').1 ∧
    Mir false (glm_decompose_rs m).2.x (glm_decompose_rs m').2.x ∧ Mir false (glm_decompose_rs m).2.y (glm_decompose_rs m').2.y ∧
    Mir false (glm_decompose_rs m).2.z (glm_decompose_rs m').2.z := by
  obtain ⟨n0, n1, n2⟩ := C78_decompose_scalev σ m m' h
  simp only [glm_decompose_scalev] at n0 n1 n2
  have s0 := signs_scale h.1 (Mir.div_pos (.refl (CFloat.lit 1)) n0 (vec3_norm_ne _) (vec3_norm_ne _))
  have s1 := signs_scale h.2.1 (Mir.div_pos (.refl (CFloat.lit 1)) n1 (vec3_norm_ne _) (vec3_norm_ne _))
  have s2 := signs_scale h.2.2.1 (Mir.div_pos (.refl (CFloat.lit 1)) n2 (vec3_norm_ne _) (vec3_norm_ne _))
  have neg : ∀ {s t u w : Bool} {v v' : V4 F32}, Signs4 s t u w v v' → Signs4 s t u w (glm_vec4_negate v) (glm_vec4_negate v') := by
    intro s t u w v v' h
    simp only [cglm]
    exact ⟨h.1.neg, h.2.1.neg, h.2.2.1.neg, h.2.2.2.neg⟩
  have hd : Mir false (glm_vec3_dot (glm_vec3_cross ⟨m.c0.x, m.c0.y, m.c0.z⟩ ⟨m.c1.x, m.c1.y, m.c1.z⟩) ⟨m.c2.x, m.c2.y, m.c2.z⟩)
      (glm_vec3_dot (glm_vec3_cross ⟨m'.c0.x, m'.c0.y, m'.c0.z⟩ ⟨m'.c1.x, m'.c1.y, m'.c1.z⟩) ⟨m'.c2.x, m'.c2.y, m'.c2.z⟩) := by
    clear n0 n1 n2 s0 s1 s2 neg
    obtain ⟨x, y, z⟩ := σ
    obtain ⟨⟨_, _, _, -⟩, ⟨_, _, _, -⟩, ⟨_, _, _, -⟩, -⟩ := h
    simp only [cglm]
    mir x y z
  unfold glm_decompose_rs glm_vec4_copy
  dsimp only
  rw [flt_f32, flt_f32, hd.lt (.refl _)]
  split_ifs
  · exact ⟨⟨neg s0, neg s1, neg s2, .zero_lit _, .zero_lit _, .zero_lit _, .refl _⟩, n0.neg, n1.neg, n2.neg⟩
  · exact ⟨⟨s0, s1, s2, .zero_lit _, .zero_lit _, .zero_lit _, .refl _⟩, n0, n1, n2⟩

/-- a quaternion of the mirrored rotation; like every rotation it has two, which differ by an overall sign -/
def AxisMirror.Rot (σ : AxisMirror) (q q' : V4 F32) : Prop := ∃ s, Signs4 (s ^^ σ.dual.x) (s ^^ σ.dual.y) (s ^^ σ.dual.z) s q q'

/-- the quaternion of a mirrored matrix -/
theorem C78_mat3_quat (σ : AxisMirror) (m m' : M3 F32) (h : σ.Mat3 m m') : σ.Rot (glm_mat3_quat m) (glm_mat3_quat m') := by
  obtain ⟨⟨a0, a1, a2⟩, ⟨b0, b1, b2⟩, ⟨c0, c1, c2⟩⟩ := h
  have ht := (a0.add b1).add c2
  have one : (CFloat.lit 1 : F32) ≠ zero true := by rw [lit_f32]; decide +kernel
  have hr : ∀ {w w' : F32}, Mir false w w' → w ≠ zero true → w' ≠ zero true →
      Mir false (CFloat.lit 0.5 / F32.sqrt w) (CFloat.lit 0.5 / F32.sqrt w') :=
    fun k c d => Mir.div_pos (.refl _) k.sqrt (sqrt_ne_neg c) (sqrt_ne_neg d)
  have hs : ∀ {w w' : F32}, Mir false w w' → Mir false (F32.sqrt w * CFloat.lit 0.5) (F32.sqrt w' * CFloat.lit 0.5) :=
    fun k => Mir.mul k.sqrt (.refl _)
  have r0 := hr ((Mir.refl (CFloat.lit 1)).add ht) (add_ne_neg _ one) (add_ne_neg _ one)
  have q0 := hs ((Mir.refl (CFloat.lit 1)).add ht)
  have r1 := hr ((((Mir.refl (CFloat.lit 1)).sub b1).sub c2).add a0) (add_ne_neg _ (sub_ne_neg _ (sub_ne_neg _ one))) (add_ne_neg _ (sub_ne_neg _ (sub_ne_neg _ one)))
  have q1 := hs ((((Mir.refl (CFloat.lit 1)).sub b1).sub c2).add a0)
  have r2 := hr ((((Mir.refl (CFloat.lit 1)).sub a0).sub c2).add b1) (add_ne_neg _ (sub_ne_neg _ (sub_ne_neg _ one))) (add_ne_neg _ (sub_ne_neg _ (sub_ne_neg _ one)))
  have q2 := hs ((((Mir.refl (CFloat.lit 1)).sub a0).sub c2).add b1)
  have r3 := hr ((((Mir.refl (CFloat.lit 1)).sub a0).sub b1).add c2) (add_ne_neg _ (sub_ne_neg _ (sub_ne_neg _ one))) (add_ne_neg _ (sub_ne_neg _ (sub_ne_neg _ one)))
  have q3 := hs ((((Mir.refl (CFloat.lit 1)).sub a0).sub b1).add c2)
  unfold glm_mat3_quat
  simp only [fle_f32, sqrtf_f32]
  rw [(Mir.refl _).le ht, b1.le a0, c2.le a0, c2.le b1]
  obtain ⟨x, y, z⟩ := σ
  simp only [AxisMirror.Rot, AxisMirror.dual, Signs4]
  split_ifs
  · refine ⟨false, ?_, ?_, ?_, ?_⟩ <;> mir x y z
  · refine ⟨y ^^ z, ?_, ?_, ?_, ?_⟩ <;> mir x y z
  · refine ⟨x ^^ z, ?_, ?_, ?_, ?_⟩ <;> mir x y z
  · refine ⟨x ^^ y, ?_, ?_, ?_, ?_⟩ <;> mir x y z

theorem C78_mat4_quat (σ : AxisMirror) (m m' : M4 F32) (h : σ.Mat4 m m') : σ.Rot (glm_mat4_quat m) (glm_mat4_quat m') :=
  C78_mat3_quat σ ⟨⟨m.c0.x, m.c0.y, m.c0.z⟩, ⟨m.c1.x, m.c1.y, m.c1.z⟩, ⟨m.c2.x, m.c2.y, m.c2.z⟩⟩
    ⟨⟨m'.c0.x, m'.c0.y, m'.c0.z⟩, ⟨m'.c1.x, m'.c1.y, m'.c1.z⟩, ⟨m'.c2.x, m'.c2.y, m'.c2.z⟩⟩
    ⟨⟨h.1.1, h.1.2.1, h.1.2.2.1⟩, ⟨h.2.1.1, h.2.1.2.1, h.2.1.2.2.1⟩, ⟨h.2.2.1.1, h.2.2.1.2.1, h.2.2.1.2.2.1⟩⟩

/-! ### histories -/

/-- one edit of a transform -/
inductive Edit where
  | move (v : V3 F32)
  | turn (t : F32) (axis : V3 F32)
  | turnAt (p : V3 F32) (t : F32) (axis : V3 F32)
  | turnQuat (q : V4 F32)
  | stretch (s : F32)
  | spin (t : F32) (axis : V3 F32)
  | under (m : M4 F32)

/-- the library call that performs the edit -/
def Edit.run (m : M4 F32) : Edit → M4 F32
  | .move v => glm_translate m v
  | .turn t k => glm_rotate m t k
  | .turnAt p t k => glm_rotate_at m p t k
  | .turnQuat q => glm_quat_rotate m q
  | .stretch s => glm_scale_uni m s
  | .spin t k => glm_spin m t k
  | .under p => glm_mat4_mul p m

/-- the mirrored edit -/
inductive AxisMirror.Step (σ : AxisMirror) : Edit → Edit → Prop
  | move {v v'} : σ.Vec v v' → σ.Step (.move v) (.move v')
  | turn {t k k'} : σ.Axis k k' → σ.Step (.turn t k) (.turn t k')
  | turnAt {p p' t k k'} : σ.Vec p p' → σ.Axis k k' → σ.Step (.turnAt p t k) (.turnAt p' t k')
  | turnQuat {q q'} : σ.Quat q q' → σ.Step (.turnQuat q) (.turnQuat q')
  | stretch {s} : σ.Step (.stretch s) (.stretch s)
  | spin {t k k'} : σ.Axis k k' → σ.Step (.spin t k) (.spin t k')
  | under {p p'} : σ.Mat4 p p' → σ.Step (.under p) (.under p')

/-- any sequence of mirrored edits of the mirrored transform gives the mirrored result -/
theorem C78_history (σ : AxisMirror) {es es' : List Edit} (h : List.Forall₂ σ.Step es es') (m m' : M4 F32) (hm : σ.Mat4 m m') :
    σ.Mat4 (es.foldl Edit.run m) (es'.foldl Edit.run m') := by
  induction h generalizing m m' with
  | nil => exact hm
  | cons hs _ ih =>
    refine ih _ _ ?_
    cases hs with
    | move h => exact C78_translate σ _ _ _ _ hm h
    | turn h => exact C78_rotate σ _ _ _ _ _ hm h
    | turnAt h k => exact C78_rotate_at σ _ _ _ _ _ _ _ hm h k
    | turnQuat h => exact C78_quat_rotate σ _ _ _ _ hm h
    | stretch => exact C78_scale_uni σ _ _ _ _ hm (.refl _)
    | spin h => exact C78_spin σ _ _ _ _ _ hm h
    | under h => exact C78_mat4_mul σ _ _ _ _ h hm

/-- for example: seen in a mirror at x = 0, a turn about the z axis goes the other way round and a move along x goes back -/
example (m : M4 F32) (t a b c d : F32) : (⟨true, false, false⟩ : AxisMirror).Mat4
    (glm_translate (glm_rotate m t ⟨a, b, c⟩) ⟨d, b, c⟩)
    (glm_translate (glm_rotate (AxisMirror.mat4 ⟨true, false, false⟩ m) t ⟨a, -b, -c⟩) ⟨-d, b, c⟩) :=
  C78_history ⟨true, false, false⟩ (es := [.turn t ⟨a, b, c⟩, .move ⟨d, b, c⟩]) (es' := [.turn t ⟨a, -b, -c⟩, .move ⟨-d, b, c⟩])
    (.cons (.turn (AxisMirror.axis_spec ⟨true, false, false⟩ _)) (.cons (.move (AxisMirror.vec_spec ⟨true, false, false⟩ _)) .nil))
    m _ (AxisMirror.mat4_spec _ m)

/-! ### where a zero shows its sign -/

/-- a singular matrix: the mirrored matrix has the "inverse" with infinities of the other sign -/
theorem C78_mat3_inv_singular_fails : ∃ (σ : AxisMirror) (m m' : M3 F32), σ.Mat3 m m' ∧
    ¬ σ.Mat3 (glm_mat3_inv m) (glm_mat3_inv m') := by
  let o : F32 := ofRat false 1
  let p : F32 := zero false
  let n : F32 := zero true
  refine ⟨⟨true, false, false⟩, ⟨⟨n, p, n⟩, ⟨p, o, p⟩, ⟨p, p, o⟩⟩, ⟨⟨n, n, p⟩, ⟨n, o, p⟩, ⟨n, p, o⟩⟩, ?_, ?_⟩
  · exact ⟨⟨.refl _, .of true p, .of true n⟩, ⟨.of true p, .refl _, .refl _⟩, ⟨.of true p, .refl _, .refl _⟩⟩
  · intro h
    have e := Mir.key h.1.1
    simp only [glm_mat3_inv, lit_f32] at e
    revert e
    decide +kernel

end Cglm
