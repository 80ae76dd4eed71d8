import Verif.Props.C52
import Verif.Gen.Noise

/-! # C63: gradient noise

The noise functions are zero at every point of the integer lattice, and they repeat with period
289 along every axis, also for negative coordinates (where the C code's `fmodf` is negative). -/

namespace Cglm

theorem fract_int (n : ℤ) : fminf ((n : ℝ) - floorf (n : ℝ)) (lit 0.999999940395355224609375) = 0 := by
  simp only [cglm, Int.floor_intCast, sub_self]; norm_num
theorem clamp_zo_zero : glm_clamp_zo (0 : ℝ) = 0 := by rw [glm_clamp_zo_eq]; norm_num

/-! ## Zero on the lattice -/

theorem C63_vec2 (i j : ℤ) : glm_perlin_vec2 (⟨i, j⟩ : V2 ℝ) = 0 := by
  unfold glm_perlin_vec2
  extract_lets -merge Pi Pf Pf_2 Pf_3 Pi_1 i gx gx_1 gx_2 gx_3 gy gy_1 tx tx_1 gx_4 temp norm norm_4 g00 g01 g10 g11 n00 n10 n01 n11 temp_1 temp_2 fade_xy fade_xy_1 fade_xy_2 fade_xy_3 fade_xy_4 n_x
  have h : Pf = ⟨0, 0, 0, 0⟩ := by simp only [Pf, glm_vec4_fract, fract_int]
  have hf : fade_xy_4 = ⟨0, 0⟩ := by
    simp only [fade_xy_4, temp_2, temp_1, h, glm_vec2_mul, zero_mul]
  have hn : n00 = 0 := by simp only [n00, h, glm_vec2_dot]; ring
  clear_value n10 n01 n11
  have hx : n_x.x = 0 := by
    simp [n_x, hf, hn, glm_vec2_lerp, glm_vec2_fill, glm_vec2_sub, glm_vec2_mul, glm_vec2_add,
      clamp_zo_zero]
  rw [hf, hx, glm_lerp]; ring

theorem C63_vec3 (i j k : ℤ) : glm_perlin_vec3 (⟨i, j, k⟩ : V3 ℝ) = 0 := by
  unfold glm_perlin_vec3
  extract_lets -merge Pi0 Pi1 Pi0_1 Pi1_1 Pf0 Pf1 ixy ixy_0_1 ixy_1_1 ixy_2_1 ixy_3_1 ixy0 ixy1 gx0 gy0 gy0_1 gy0_2 gy0_3 gx0_1 gxa gya gz0 gz0_1 gz0_2 sz temp temp_1 temp_2 gx0_2 temp_3 temp_4 temp_5 temp_6 gy0_4 gx1 gy1 gy1_1 gy1_2 gy1_3 gx1_1 gxa_1 gya_1 gz1 gz1_1 gz1_2 sz_1 temp_7 temp_8 temp_9 gx1_2 temp_10 temp_11 temp_12 temp_13 gy1_4 temp_14 norm norm_4 g000 g010 g100 g110 temp_15 norm_5 norm_6 g001 g011 g101 g111 n000 n100 n010 n110 n001 n101 n011 n111 temp_16 temp_17 fade_xyz fade_xyz_1 fade_xyz_2 fade_xyz_3 fade_xyz_4 n_z n_yz
  have h : Pf0 = ⟨0, 0, 0⟩ := by simp only [Pf0, glm_vec3_fract, fract_int]
  have hf : fade_xyz_4 = ⟨0, 0, 0⟩ := by
    simp only [fade_xyz_4, temp_17, temp_16, h, glm_vec3_mul, zero_mul]
  have hn : n000 = 0 := by simp only [n000, h, glm_vec3_dot]; ring
  clear_value n100 n010 n110 n001 n101 n011 n111
  have hz : n_z.x = 0 := by
    simp [n_z, hf, hn, glm_vec4_lerp, glm_vec4_sub, glm_vec4_mul, glm_vec4_add, cglm]
  have hx : n_yz.x = 0 := by
    simp [n_yz, hf, hz, glm_vec2_lerp, glm_vec2_fill, glm_vec2_sub, glm_vec2_mul, glm_vec2_add,
      clamp_zo_zero]
  rw [hf, hx, glm_lerp]; ring

theorem C63_vec4 (i j k l : ℤ) : glm_perlin_vec4 (⟨i, j, k, l⟩ : V4 ℝ) = 0 := by
  unfold glm_perlin_vec4
  extract_lets -merge Pi0 Pi1 Pi0_1 Pi1_1 Pf0 Pf1 ixy ixy_0_1 ixy_1_1 ixy_2_1 ixy_3_1 ixy0 ixy0_0 ixy0_1 ixy0_2 ixy0_3 ixy1 ixy1_0 ixy1_1 ixy1_2 ixy1_3 ixy00 ixy01 ixy10 ixy11 gx00 gy00 gy00_1 gz00 gz00_1 gx00_1 gx00_2 gy00_2 gy00_3 gz00_2 gz00_3 gxa gya gza gw00 gw00_1 gw00_2 gw00_3 sw temp temp_1 temp_2 gx00_3 temp_3 temp_4 temp_5 temp_6 gy00_4 gx01 gy01 gy01_1 gz01 gz01_1 gx01_1 gx01_2 gy01_2 gy01_3 gz01_2 gz01_3 gxa_1 gya_1 gza_1 gw01 gw01_1 gw01_2 gw01_3 sw_1 temp_7 temp_8 temp_9 gx01_3 temp_10 temp_11 temp_12 temp_13 gy01_4 gx10 gy10 gy10_1 gz10 gz10_1 gx10_1 gx10_2 gy10_2 gy10_3 gz10_2 gz10_3 gxa_2 gya_2 gza_2 gw10 gw10_1 gw10_2 gw10_3 sw_2 temp_14 temp_15 temp_16 gx10_3 temp_17 temp_18 temp_19 temp_20 gy10_4 gx11 gy11 gy11_1 gz11 gz11_1 gx11_1 gx11_2 gy11_2 gy11_3 gz11_2 gz11_3 gxa_3 gya_3 gza_3 gw11 gw11_1 gw11_2 gw11_3 sw_3 temp_21 temp_22 temp_23 gx11_3 temp_24 temp_25 temp_26 temp_27 gy11_4 temp_28 norm norm_4 g0000 g0100 g1000 g1100 temp_29 norm_5 norm_6 g0001 g0101 g1001 g1101 temp_30 norm_7 norm_8 g0010 g0110 g1010 g1110 temp_31 norm_9 norm_10 g0011 g0111 g1011 g1111 n0000 n1000 n0100 n1100 n0010 n1010 n0110 n1110 n0001 n1001 n0101 n1101 n0011 n1011 n0111 n1111 temp_32 temp_33 fade_xyzw fade_xyzw_1 fade_xyzw_2 fade_xyzw_3 fade_xyzw_4 n_0w n_1w n_zw n_yzw
  have h : Pf0 = ⟨0, 0, 0, 0⟩ := by simp only [Pf0, glm_vec4_fract, fract_int]
  have hf : fade_xyzw_4 = ⟨0, 0, 0, 0⟩ := by
    simp only [fade_xyzw_4, temp_33, temp_32, h, glm_vec4_mul, zero_mul]
  have hn : n0000 = 0 := by simp only [n0000, h, glm_vec4_dot]; ring
  clear_value n1000 n0100 n1100 n0010 n1010 n0110 n1110 n0001 n1001 n0101 n1101 n0011 n1011 n0111 n1111
  have h0 : n_0w.x = 0 := by
    simp [n_0w, hf, hn, glm_vec4_lerp, glm_vec4_sub, glm_vec4_mul, glm_vec4_add, cglm]
  clear_value n_1w
  have hz : n_zw.x = 0 := by
    simp [n_zw, hf, h0, glm_vec4_lerp, glm_vec4_sub, glm_vec4_mul, glm_vec4_add, cglm]
  have hx : n_yzw.x = 0 := by
    simp [n_yzw, hf, hz, glm_vec2_lerp, glm_vec2_fill, glm_vec2_sub, glm_vec2_mul, glm_vec2_add,
      clamp_zo_zero]
  rw [hf, hx, glm_lerp]; ring

/-! ## Period 289 -/

/-- Two real numbers that are integers congruent modulo 289. -/
def Cong (a b : ℝ) : Prop := ∃ n m k : ℤ, a = n ∧ b = m ∧ n = m + 289 * k
/-- Equal, and an integer. -/
def EqInt (a b : ℝ) : Prop := a = b ∧ ∃ n : ℤ, a = n
def Cong2 (a b : V4 ℝ) : Prop := Cong a.x b.x ∧ Cong a.y b.y ∧ Cong a.z b.z ∧ Cong a.w b.w
def Cong3 (a b : V3 ℝ) : Prop := Cong a.x b.x ∧ Cong a.y b.y ∧ Cong a.z b.z

/-- `glm__noiseDetail_permute` as it appears inlined. -/
noncomputable def permf (x : ℝ) : ℝ :=
  (x * lit 34 + lit 1) * x - floorf ((x * lit 34 + lit 1) * x * (lit 1 / lit 289)) * lit 289

theorem permf_cong {a b : ℝ} (h : Cong a b) : EqInt (permf a) (permf b) := by
  obtain ⟨n, m, k, rfl, rfl, rfl⟩ := h
  unfold permf EqInt
  simp only [cglm]
  set q : ℤ := (m * 34 + 1) * k + m * 34 * k + 289 * 34 * k * k
  have e : ((((m + 289 * k : ℤ) : ℝ) * 34 + 1) * ((m + 289 * k : ℤ) : ℝ)) * (1 / 289)
      = ((m : ℝ) * 34 + 1) * m * (1 / 289) + (q : ℤ) := by
    simp only [q]; push_cast; ring
  rw [e, Int.floor_add_intCast]
  refine ⟨?_, (((m + 289 * k) * 34 + 1) * (m + 289 * k) - (⌊((m : ℝ) * 34 + 1) * m * (1 / 289)⌋ + q) * 289), ?_⟩
  · simp only [q]; push_cast; ring
  · push_cast; ring

theorem permvec_cong {a b : V4 ℝ} (h : Cong2 a b) :
    (⟨permf a.x, permf a.y, permf a.z, permf a.w⟩ : V4 ℝ)
      = ⟨permf b.x, permf b.y, permf b.z, permf b.w⟩ := by
  rw [(permf_cong h.1).1, (permf_cong h.2.1).1, (permf_cong h.2.2.1).1, (permf_cong h.2.2.2).1]

theorem fmod_cong {a b : ℝ} (h : Cong a b) : Cong (fmodf a (lit 289)) (fmodf b (lit 289)) := by
  obtain ⟨n, m, k, rfl, rfl, rfl⟩ := h
  simp only [cglm]
  obtain ⟨t, ht⟩ : ∃ t : ℤ, rtrunc (((m + 289 * k : ℤ) : ℝ) / 289) = t := by
    unfold rtrunc; split_ifs <;> exact ⟨_, rfl⟩
  obtain ⟨u, hu⟩ : ∃ t : ℤ, rtrunc ((m : ℝ) / 289) = t := by
    unfold rtrunc; split_ifs <;> exact ⟨_, rfl⟩
  rw [ht, hu]
  exact ⟨m + 289 * k - 289 * t, m - 289 * u, k - t + u, by push_cast; ring, by push_cast; ring, by ring⟩

theorem eqInt_add {a b c d : ℝ} (h : EqInt a b) (g : Cong c d) : Cong (a + c) (b + d) := by
  obtain ⟨rfl, n, rfl⟩ := h
  obtain ⟨p, m, k, rfl, rfl, rfl⟩ := g
  exact ⟨n + (m + 289 * k), n + m, k, by push_cast; ring, by push_cast; ring, by ring⟩

theorem floor_cong (x : ℝ) (n : ℤ) : Cong (floorf (x + 289 * n)) (floorf x) := by
  simp only [cglm]
  have : ⌊x + 289 * n⌋ = ⌊x⌋ + 289 * n := by
    rw [show x + 289 * (n : ℝ) = x + ((289 * n : ℤ) : ℝ) by push_cast; ring, Int.floor_add_intCast]
  exact ⟨_, _, n, rfl, rfl, this⟩

theorem cong_add_one {a b : ℝ} (h : Cong a b) : Cong (a + lit 1) (b + lit 1) := by
  obtain ⟨n, m, k, rfl, rfl, rfl⟩ := h
  exact ⟨m + 289 * k + 1, m + 1, k, by simp only [cglm]; push_cast; ring,
    by simp only [cglm]; push_cast; ring, by ring⟩

theorem fract_period (x : ℝ) (n : ℤ) : x + 289 * n - floorf (x + 289 * n) = x - floorf x := by
  simp only [cglm]
  rw [show x + 289 * (n : ℝ) = x + ((289 * n : ℤ) : ℝ) by push_cast; ring, Int.floor_add_intCast]
  push_cast; ring

theorem let_rel {β γ : Type} (R : β → β → Prop) {v v' : β} {f g : β → γ} (h : R v v')
    (k : ∀ x x', R x x' → f x = g x') : f v = g v' := k _ _ h

open Lean Meta Elab Tactic in
/-- On a goal `(let x := v; b) = (let x := v'; b')`, leaves the goals `R v v'` and
`∀ x x', R x x' → b = b'`. -/
elab "let_step" R:term : tactic => withMainContext do
  let g ← getMainGoal
  let some (ty, l, r) := (← instantiateMVars (← g.getType)).eq? | throwError "not an equality"
  match l, r with
  | .letE n t v b _, .letE _ _ v' b' _ =>
    let R ← elabTermEnsuringType R (← mkArrow t (← mkArrow t (.sort .zero)))
    let f := Expr.lam n t b .default
    let f' := Expr.lam n t b' .default
    let h ← mkFreshExprSyntheticOpaqueMVar (mkApp2 R v v').headBeta
    let kt ← withLocalDeclD `x t fun x => withLocalDeclD `y t fun y => do
      mkForallFVars #[x, y] (← mkArrow (mkApp2 R x y).headBeta
        (← mkEq (b.instantiate1 x) (b'.instantiate1 y)))
    let k ← mkFreshExprSyntheticOpaqueMVar kt
    g.assign (mkAppN (.const ``let_rel []) #[t, ty, R, v, v', f, f', h, k])
    replaceMainGoal [h.mvarId!, k.mvarId!]
  | _, _ => throwError "not let"

/-- `let_step` for a definition that is the same on both sides. -/
macro "let_same" : tactic => `(tactic| (let_step Eq; rfl; intro _ _ h; subst h))

theorem C63_period_vec2 (p : V2 ℝ) (m n : ℤ) :
    glm_perlin_vec2 ⟨p.x + 289 * m, p.y + 289 * n⟩ = glm_perlin_vec2 p := by
  unfold glm_perlin_vec2
  let_step Cong2
  · exact ⟨floor_cong _ _, floor_cong _ _, floor_cong _ _, floor_cong _ _⟩
  intro _ _ h1
  let_step Eq
  · simp only [glm_vec4_fract, fract_period]
  rintro _ _ rfl
  iterate 2 let_same
  let_step Cong2
  · exact ⟨fmod_cong h1.1, fmod_cong h1.2.1, fmod_cong (cong_add_one h1.2.2.1), fmod_cong (cong_add_one h1.2.2.2)⟩
  intro _ _ h2
  let_step Cong2
  · exact ⟨eqInt_add (permf_cong h2.1) h2.2.1, eqInt_add (permf_cong h2.2.2.1) h2.2.1, eqInt_add (permf_cong h2.1) h2.2.2.2, eqInt_add (permf_cong h2.2.2.1) h2.2.2.2⟩
  intro _ _ h3
  let_step Eq
  · exact congrArg (fun v => glm_vec4_divs v (lit 41)) (permvec_cong h3)
  rintro _ _ rfl
  iterate 27 let_same
  rfl

theorem C63_period_vec3 (p : V3 ℝ) (l m n : ℤ) :
    glm_perlin_vec3 ⟨p.x + 289 * l, p.y + 289 * m, p.z + 289 * n⟩ = glm_perlin_vec3 p := by
  unfold glm_perlin_vec3
  let_step Cong3
  · exact ⟨floor_cong _ _, floor_cong _ _, floor_cong _ _⟩
  intro _ _ h0
  let_step Cong3
  · exact ⟨cong_add_one h0.1, cong_add_one h0.2.1, cong_add_one h0.2.2⟩
  intro _ _ h1
  let_step Cong3
  · exact ⟨fmod_cong h0.1, fmod_cong h0.2.1, fmod_cong h0.2.2⟩
  intro _ _ k0
  let_step Cong3
  · exact ⟨fmod_cong h1.1, fmod_cong h1.2.1, fmod_cong h1.2.2⟩
  intro _ _ k1
  let_step Eq
  · simp only [glm_vec3_fract, fract_period]
  rintro _ _ rfl
  let_same
  let_step Cong2
  · exact ⟨eqInt_add (permf_cong k0.1) k0.2.1, eqInt_add (permf_cong k1.1) k0.2.1, eqInt_add (permf_cong k0.1) k1.2.1, eqInt_add (permf_cong k1.1) k1.2.1⟩
  intro _ _ h2
  let_step EqInt
  · exact permf_cong h2.1
  intro _ _ e0
  let_step EqInt
  · exact permf_cong h2.2.1
  intro _ _ e1
  let_step EqInt
  · exact permf_cong h2.2.2.1
  intro _ _ e2
  let_step EqInt
  · exact permf_cong h2.2.2.2
  intro _ _ e3
  let_step Cong2
  · exact ⟨eqInt_add e0 k0.2.2, eqInt_add e1 k0.2.2, eqInt_add e2 k0.2.2, eqInt_add e3 k0.2.2⟩
  intro _ _ m0
  let_step Cong2
  · exact ⟨eqInt_add e0 k1.2.2, eqInt_add e1 k1.2.2, eqInt_add e2 k1.2.2, eqInt_add e3 k1.2.2⟩
  intro _ _ m1
  let_step Eq
  · exact congrArg (fun v => glm_vec4_scale v (lit 1 / lit 7)) (permvec_cong m0)
  rintro _ _ rfl
  iterate 20 let_same
  let_step Eq
  · exact congrArg (fun v => glm_vec4_scale v (lit 1 / lit 7)) (permvec_cong m1)
  rintro _ _ rfl
  iterate 51 let_same
  rfl

theorem C63_period_vec4 (p : V4 ℝ) (k l m n : ℤ) :
    glm_perlin_vec4 ⟨p.x + 289 * k, p.y + 289 * l, p.z + 289 * m, p.w + 289 * n⟩
      = glm_perlin_vec4 p := by
  unfold glm_perlin_vec4
  let_step Cong2
  · exact ⟨floor_cong _ _, floor_cong _ _, floor_cong _ _, floor_cong _ _⟩
  intro _ _ h0
  let_step Cong2
  · exact ⟨cong_add_one h0.1, cong_add_one h0.2.1, cong_add_one h0.2.2.1, cong_add_one h0.2.2.2⟩
  intro _ _ h1
  let_step Cong2
  · exact ⟨fmod_cong h0.1, fmod_cong h0.2.1, fmod_cong h0.2.2.1, fmod_cong h0.2.2.2⟩
  intro _ _ k0
  let_step Cong2
  · exact ⟨fmod_cong h1.1, fmod_cong h1.2.1, fmod_cong h1.2.2.1, fmod_cong h1.2.2.2⟩
  intro _ _ k1
  let_step Eq
  · simp only [glm_vec4_fract, fract_period]
  rintro _ _ rfl
  let_same
  let_step Cong2
  · exact ⟨eqInt_add (permf_cong k0.1) k0.2.1, eqInt_add (permf_cong k1.1) k0.2.1, eqInt_add (permf_cong k0.1) k1.2.1, eqInt_add (permf_cong k1.1) k1.2.1⟩
  intro _ _ h2
  let_step EqInt
  · exact permf_cong h2.1
  intro _ _ e0
  let_step EqInt
  · exact permf_cong h2.2.1
  intro _ _ e1
  let_step EqInt
  · exact permf_cong h2.2.2.1
  intro _ _ e2
  let_step EqInt
  · exact permf_cong h2.2.2.2
  intro _ _ e3
  let_step Cong2
  · exact ⟨eqInt_add e0 k0.2.2.1, eqInt_add e1 k0.2.2.1, eqInt_add e2 k0.2.2.1, eqInt_add e3 k0.2.2.1⟩
  intro _ _ m0
  let_step EqInt
  · exact permf_cong m0.1
  intro _ _ e00
  let_step EqInt
  · exact permf_cong m0.2.1
  intro _ _ e01
  let_step EqInt
  · exact permf_cong m0.2.2.1
  intro _ _ e02
  let_step EqInt
  · exact permf_cong m0.2.2.2
  intro _ _ e03
  let_step Cong2
  · exact ⟨eqInt_add e0 k1.2.2.1, eqInt_add e1 k1.2.2.1, eqInt_add e2 k1.2.2.1, eqInt_add e3 k1.2.2.1⟩
  intro _ _ m1
  let_step EqInt
  · exact permf_cong m1.1
  intro _ _ e10
  let_step EqInt
  · exact permf_cong m1.2.1
  intro _ _ e11
  let_step EqInt
  · exact permf_cong m1.2.2.1
  intro _ _ e12
  let_step EqInt
  · exact permf_cong m1.2.2.2
  intro _ _ e13
  let_step Cong2
  · exact ⟨eqInt_add e00 k0.2.2.2, eqInt_add e01 k0.2.2.2, eqInt_add e02 k0.2.2.2, eqInt_add e03 k0.2.2.2⟩
  intro _ _ m00
  let_step Cong2
  · exact ⟨eqInt_add e00 k1.2.2.2, eqInt_add e01 k1.2.2.2, eqInt_add e02 k1.2.2.2, eqInt_add e03 k1.2.2.2⟩
  intro _ _ m01
  let_step Cong2
  · exact ⟨eqInt_add e10 k0.2.2.2, eqInt_add e11 k0.2.2.2, eqInt_add e12 k0.2.2.2, eqInt_add e13 k0.2.2.2⟩
  intro _ _ m10
  let_step Cong2
  · exact ⟨eqInt_add e10 k1.2.2.2, eqInt_add e11 k1.2.2.2, eqInt_add e12 k1.2.2.2, eqInt_add e13 k1.2.2.2⟩
  intro _ _ m11
  let_step Eq
  · exact congrArg (fun v => glm_vec4_divs v (lit 7)) (permvec_cong m00)
  rintro _ _ rfl
  iterate 27 let_same
  let_step Eq
  · exact congrArg (fun v => glm_vec4_divs v (lit 7)) (permvec_cong m01)
  rintro _ _ rfl
  iterate 27 let_same
  let_step Eq
  · exact congrArg (fun v => glm_vec4_divs v (lit 7)) (permvec_cong m10)
  rintro _ _ rfl
  iterate 27 let_same
  let_step Eq
  · exact congrArg (fun v => glm_vec4_divs v (lit 7)) (permvec_cong m11)
  rintro _ _ rfl
  iterate 82 let_same
  rfl

end Cglm
