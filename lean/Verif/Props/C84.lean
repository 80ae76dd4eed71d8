import Verif.F32Apx
import Verif.F32Drift
import Verif.Props.C09
import Verif.Props.C50

/-!
# C84: rotations in binary32

What a call that rotates leaves in memory is within a small multiple of `u = 2⁻²⁴` of the rotation of the real numbers the arguments
are.  The sine and the cosine come from the C library; they are taken to be within `2u` of the true values.
-/

namespace Cglm
open F32 Quaternion

/-- every component is finite and within `e` -/
def V3.CloseTo (f : V3 F32) (x : V3 ℝ) (e : ℝ) : Prop :=
  (f.x.isFin = true ∧ |f.x.toReal - x.x| ≤ e) ∧ (f.y.isFin = true ∧ |f.y.toReal - x.y| ≤ e) ∧ (f.z.isFin = true ∧ |f.z.toReal - x.z| ≤ e)
/-- every component is finite and within `e` -/
def V4.CloseTo (f : V4 F32) (x : V4 ℝ) (e : ℝ) : Prop :=
  (f.x.isFin = true ∧ |f.x.toReal - x.x| ≤ e) ∧ (f.y.isFin = true ∧ |f.y.toReal - x.y| ≤ e) ∧ (f.z.isFin = true ∧ |f.z.toReal - x.z| ≤ e) ∧
    (f.w.isFin = true ∧ |f.w.toReal - x.w| ≤ e)
/-- every entry is finite and within `e` -/
def M3.CloseTo (f : M3 F32) (x : M3 ℝ) (e : ℝ) : Prop := f.c0.CloseTo x.c0 e ∧ f.c1.CloseTo x.c1 e ∧ f.c2.CloseTo x.c2 e
/-- every entry is finite and within `e` -/
def M4.CloseTo (f : M4 F32) (x : M4 ℝ) (e : ℝ) : Prop := f.c0.CloseTo x.c0 e ∧ f.c1.CloseTo x.c1 e ∧ f.c2.CloseTo x.c2 e ∧ f.c3.CloseTo x.c3 e

private theorem cs3 {a b c x y z n V : ℝ} (hn : 0 ≤ n) (hV : 0 ≤ V) (h : a ^ 2 + b ^ 2 + c ^ 2 ≤ n ^ 2) (hx : x ^ 2 + y ^ 2 + z ^ 2 ≤ V ^ 2) :
    a * x + b * y + c * z ≤ n * V := by
  refine abs_le_of_sq_le_sq' ?_ (by positivity) |>.2
  rw [mul_pow]
  nlinarith [sq_nonneg (a * y - b * x), sq_nonneg (a * z - c * x), sq_nonneg (b * z - c * y), mul_le_mul h hx (by positivity) (by positivity)]

/-- the conditions of the rules about approximations -/
local macro "apx_side" : tactic => `(tactic|
  all_goals first
    | (apx <;> norm_num <;> linarith)
    | (norm_num [cglm]; done)
    | linarith
    | (norm_num [ur, ηr]; done)
    | (norm_num [ur, ηr]; linarith)
    | skip)

variable [Libm]

/-- the C library's sine and cosine of the float `a` are within `2u` of those of the real number `θ` -/
def SinCosOk (a : F32) (θ : ℝ) : Prop :=
  ((sinf a : F32).isFin = true ∧ |(sinf a : F32).toReal - Real.sin θ| ≤ 2 * ur) ∧
    ((cosf a : F32).isFin = true ∧ |(cosf a : F32).toReal - Real.cos θ| ≤ 2 * ur)

omit [Libm] in
private theorem two_le : 2 * ur ≤ (1 + ur) ^ 2 - 1 := by nlinarith [ur_pos]
omit [Libm] in
private theorem eight_le : 8 * ur ≤ (1 + ur) ^ 8 - 1 := by
  have := one_add_mul_le_pow (a := ur) (by linarith [ur_pos]) 8
  push_cast at this; linarith

private theorem sin_apx {a : F32} {θ : ℝ} (h : SinCosOk a θ) : Apx (sinf a : F32) (Real.sin θ) 1 2 1 0 :=
  ⟨h.1.1, by linarith [h.1.2, two_le], Real.abs_sin_le_one θ, le_rfl, le_rfl⟩
private theorem cos_apx {a : F32} {θ : ℝ} (h : SinCosOk a θ) : Apx (cosf a : F32) (Real.cos θ) 1 2 1 0 :=
  ⟨h.2.1, by linarith [h.2.2, two_le], Real.abs_cos_le_one θ, le_rfl, le_rfl⟩

omit [Libm] in
private theorem comp_apx {f : F32} {c N : ℝ} (hf : f.isFin = true) (h0 : 0 < N) (h : Err f (c * (1 / N)) (8 * ur) (|c| * (1 / N)) (1 / 2 ^ 150)) (hc : |c| ≤ N) :
    Apx f (1 / N * c) |1 / N * c| 8 1 1 := by
  have e : |1 / N * c| = |c| * (1 / N) := by rw [abs_mul, abs_of_pos (by positivity)]; ring
  refine ⟨hf, ?_, le_rfl, ?_, zero_le_one⟩
  · rw [mul_comm (1 / N) c] at e ⊢
    rw [e]
    refine (h hf).trans (add_le_add (mul_le_mul_of_nonneg_right eight_le (by positivity)) ?_)
    norm_num [ηr]
  · rw [e, mul_one_div]; exact (div_le_one h0).mpr hc

/-- a normalised vector -/
private theorem unit3 (v : V3 F32) (hfin : (glm_vec3_norm v).isFin = true) (heps : 1 / 2 ^ 23 ≤ (glm_vec3_norm v).toReal) :
    ∃ a b c : ℝ, (v.map toReal).unit = ⟨a, b, c⟩ ∧ a ^ 2 + b ^ 2 + c ^ 2 = 1 ∧ Apx (glm_vec3_normalize_to v).x a |a| 8 1 1 ∧
      Apx (glm_vec3_normalize_to v).y b |b| 8 1 1 ∧ Apx (glm_vec3_normalize_to v).z c |c| 8 1 1 := by
  obtain ⟨⟨f1, f2, f3⟩, ⟨e1, e2, e3⟩, -⟩ := C64_vec3_normalize v hfin heps
  have hN : glm_vec3_norm (v.map toReal) = (v.map toReal).len := by simp only [cglm, V3.len, V3.dot]
  rw [hN] at e1 e2 e3
  have hl := C64_vec3_norm v hfin
  have sq : (v.map toReal).len ^ 2 = v.x.toReal ^ 2 + v.y.toReal ^ 2 + v.z.toReal ^ 2 := by
    rw [V3.len, Real.sq_sqrt (V3.dot_self_nonneg _)]; simp only [V3.dot, V3.map]; ring
  have n0 : 0 ≤ (v.map toReal).len := Real.sqrt_nonneg _
  have hp : 0 < (v.map toReal).len := by
    refine lt_of_le_of_ne n0 fun h => ?_
    rw [hN, ← h, mul_zero, zero_add, sub_zero] at hl
    have := (le_abs_self _).trans hl
    norm_num at this heps
    linarith
  have nx : |v.x.toReal| ≤ (v.map toReal).len := abs_le_of_sq_le_sq (by nlinarith [sq_nonneg v.y.toReal, sq_nonneg v.z.toReal]) n0
  have ny : |v.y.toReal| ≤ (v.map toReal).len := abs_le_of_sq_le_sq (by nlinarith [sq_nonneg v.x.toReal, sq_nonneg v.z.toReal]) n0
  have nz : |v.z.toReal| ≤ (v.map toReal).len := abs_le_of_sq_le_sq (by nlinarith [sq_nonneg v.x.toReal, sq_nonneg v.y.toReal]) n0
  refine ⟨1 / (v.map toReal).len * v.x.toReal, 1 / (v.map toReal).len * v.y.toReal, 1 / (v.map toReal).len * v.z.toReal, ?_, ?_,
    comp_apx f1 hp e1 nx, comp_apx f2 hp e2 ny, comp_apx f3 hp e3 nz⟩
  · unfold V3.unit V3.smul V3.map; rfl
  · rw [mul_pow, mul_pow, mul_pow, ← mul_add, ← mul_add, ← sq]; field_simp

/-- a normalised quaternion -/
private theorem unit4 (q : V4 F32) (hfin : (glm_quat_norm q).isFin = true) (heps : 1 / 2 ^ 23 ≤ (glm_quat_norm q).toReal) :
    ∃ a b c s : ℝ, qval q ≠ 0 ∧ ‖qval q‖⁻¹ • qval q = (⟨a, b, c, s⟩ : V4 ℝ).quat ∧ a ^ 2 + b ^ 2 + c ^ 2 + s ^ 2 = 1 ∧ Apx (glm_quat_normalize_to q).x a |a| 8 1 1 ∧
      Apx (glm_quat_normalize_to q).y b |b| 8 1 1 ∧ Apx (glm_quat_normalize_to q).z c |c| 8 1 1 ∧ Apx (glm_quat_normalize_to q).w s |s| 8 1 1 := by
  obtain ⟨⟨f1, f2, f3, f4⟩, ⟨e1, e2, e3, e4⟩, -⟩ := C64_quat_normalize q hfin heps
  have hN : glm_vec4_norm (q.map toReal) = ‖qval q‖ := C08_norm _
  rw [hN] at e1 e2 e3 e4
  have hl := C64_quat_norm q hfin
  have hN' : glm_quat_norm (q.map toReal) = ‖qval q‖ := C08_norm _
  have sq : ‖qval q‖ ^ 2 = q.x.toReal ^ 2 + q.y.toReal ^ 2 + q.z.toReal ^ 2 + q.w.toReal ^ 2 := V4.quat_sq _
  have n0 : 0 ≤ ‖qval q‖ := norm_nonneg _
  have hp : 0 < ‖qval q‖ := by
    refine lt_of_le_of_ne n0 fun h => ?_
    rw [hN', ← h, mul_zero, zero_add, sub_zero] at hl
    have := (le_abs_self _).trans hl
    norm_num at this heps
    linarith
  obtain ⟨nx, ny, nz, nw⟩ := V4.quat_comp (q.map toReal)
  refine ⟨1 / ‖qval q‖ * q.x.toReal, 1 / ‖qval q‖ * q.y.toReal, 1 / ‖qval q‖ * q.z.toReal, 1 / ‖qval q‖ * q.w.toReal, norm_pos_iff.mp hp, ?_, ?_,
    comp_apx f1 hp e1 nx, comp_apx f2 hp e2 ny, comp_apx f3 hp e3 nz, comp_apx f4 hp e4 nw⟩
  · unfold qval; ext <;> simp [V4.map]
  · rw [mul_pow, mul_pow, mul_pow, mul_pow, ← mul_add, ← mul_add, ← mul_add, ← sq]; field_simp

omit [Libm] in
private theorem rotM {a b c s x y z V : ℝ} (ha : 0 ≤ a) (hb : 0 ≤ b) (hc : 0 ≤ c) (hs : 0 ≤ s) (hx : 0 ≤ x) (hy : 0 ≤ y) (hz : 0 ≤ z) (hV : 0 ≤ V)
    (h1 : a ^ 2 + b ^ 2 + c ^ 2 + s ^ 2 = 1) (hVV : x ^ 2 + y ^ 2 + z ^ 2 = V ^ 2) :
    a * (2 * (a * x + b * y + c * z)) + x * (s * s + (a * a + b * b + c * c)) + (b * z + c * y) * (2 * s) ≤ 4 * V := by
  set n := √(a ^ 2 + b ^ 2 + c ^ 2) with hn
  have n0 : 0 ≤ n := Real.sqrt_nonneg _
  have nn : n ^ 2 = a ^ 2 + b ^ 2 + c ^ 2 := Real.sq_sqrt (by positivity)
  have d := cs3 n0 hV nn.symm.le hVV.le
  have e := cs3 (a := b) (b := c) (c := 0) (x := z) (y := y) (z := 0) n0 hV (by nlinarith) (by nlinarith)
  have an : a ≤ n := by refine abs_le_of_sq_le_sq' ?_ n0 |>.2; nlinarith
  have xV : x ≤ V := by refine abs_le_of_sq_le_sq' ?_ hV |>.2; nlinarith
  have t1 : a * (2 * (a * x + b * y + c * z)) ≤ n * (2 * (n * V)) := mul_le_mul an (by linarith) (by positivity) n0
  have t3 : (b * z + c * y) * (2 * s) ≤ n * V * (2 * s) := mul_le_mul_of_nonneg_right (by linarith) (by positivity)
  have t2 : x * (s * s + (a * a + b * b + c * c)) = x := by rw [show s * s + (a * a + b * b + c * c) = 1 by linarith]; ring
  have k1 : 2 * n ^ 2 + 2 * n * s ≤ 3 := by nlinarith [sq_nonneg (n - s), sq_nonneg s]
  have := mul_le_mul_of_nonneg_right k1 hV
  rw [t2]
  nlinarith

omit [Libm] in
private theorem len_sq (v : V3 F32) : v.x.toReal ^ 2 + v.y.toReal ^ 2 + v.z.toReal ^ 2 = (v.map toReal).len ^ 2 := by
  rw [V3.len, Real.sq_sqrt (V3.dot_self_nonneg _)]; simp only [V3.dot, V3.map]; ring

omit [Libm] in
private theorem var3 {v : V3 F32} (hf : v.IsFin) : Apx v.x v.x.toReal |v.x.toReal| 0 (v.map toReal).len 0 ∧
    Apx v.y v.y.toReal |v.y.toReal| 0 (v.map toReal).len 0 ∧ Apx v.z v.z.toReal |v.z.toReal| 0 (v.map toReal).len 0 := by
  have h := len_sq v
  have n0 := V3.len_nonneg (v.map toReal)
  exact ⟨Apx.var ⟨hf.1, abs_le_of_sq_le_sq (by nlinarith [sq_nonneg v.y.toReal, sq_nonneg v.z.toReal]) n0⟩,
    Apx.var ⟨hf.2.1, abs_le_of_sq_le_sq (by nlinarith [sq_nonneg v.x.toReal, sq_nonneg v.z.toReal]) n0⟩,
    Apx.var ⟨hf.2.2, abs_le_of_sq_le_sq (by nlinarith [sq_nonneg v.x.toReal, sq_nonneg v.y.toReal]) n0⟩⟩

/-- Rotating a vector by a quaternion: the quaternion need not have length one; its computed length is finite and at least `2⁻²³`. -/
theorem C84_quat_rotatev (q : V4 F32) (v : V3 F32) (hfin : (glm_quat_norm q).isFin = true) (heps : 1 / 2 ^ 23 ≤ (glm_quat_norm q).toReal)
    (hv : v.IsFin) (hV : (v.map toReal).len ≤ 2 ^ 60) :
    ∃ r : V3 ℝ, r.pure = qval q * (v.map toReal).pure * (qval q)⁻¹ ∧
      (glm_quat_rotatev q v).CloseTo r (93 * ur * (v.map toReal).len + (1 + (v.map toReal).len) / 2 ^ 140) := by
  obtain ⟨a, b, c, s, q0, hq, h1, hx, hy, hz, hw⟩ := unit4 q hfin heps
  obtain ⟨vx, vy, vz⟩ := var3 hv
  have hVV := len_sq v
  refine ⟨glm_quat_rotatev (q.map toReal) (v.map toReal), C09_rotatev _ q0 _, ?_⟩
  have hr : glm_quat_normalize_to (q.map toReal) = ⟨a, b, c, s⟩ := by
    have := (C08_normalize (q.map toReal) q0).1.trans hq
    rw [C08_normalize_to]
    generalize glm_quat_normalize (q.map toReal) = z at this
    have h1 := congrArg QuaternionAlgebra.re this
    have h2 := congrArg QuaternionAlgebra.imI this
    have h3 := congrArg QuaternionAlgebra.imJ this
    have h4 := congrArg QuaternionAlgebra.imK this
    exact V4.ext h2 h3 h4 h1
  have V0 : 0 ≤ (v.map toReal).len := vx.A0
  unfold glm_quat_rotatev
  rw [hr]
  generalize glm_quat_normalize_to q = p at *
  generalize (v.map toReal).len = V at *
  simp only [cglm, V3.CloseTo, V3.map]
  have A := rotM (abs_nonneg a) (abs_nonneg b) (abs_nonneg c) (abs_nonneg s) (abs_nonneg v.x.toReal) (abs_nonneg v.y.toReal) (abs_nonneg v.z.toReal) V0
      (by simpa only [sq_abs] using h1) (by simpa only [sq_abs] using hVV)
  have B := rotM (abs_nonneg b) (abs_nonneg c) (abs_nonneg a) (abs_nonneg s) (abs_nonneg v.y.toReal) (abs_nonneg v.z.toReal) (abs_nonneg v.x.toReal) V0
      (by simp only [sq_abs]; linarith) (by simp only [sq_abs]; linarith)
  have C := rotM (abs_nonneg c) (abs_nonneg a) (abs_nonneg b) (abs_nonneg s) (abs_nonneg v.z.toReal) (abs_nonneg v.x.toReal) (abs_nonneg v.y.toReal) V0
      (by simp only [sq_abs]; linarith) (by simp only [sq_abs]; linarith)
  refine ⟨?_, ?_, ?_⟩ <;> apply Apx.bound 23 (4 * V) <;> apx_side

omit [Libm] in
private theorem rodM {a b c x y z V : ℝ} (ha : 0 ≤ a) (hb : 0 ≤ b) (hc : 0 ≤ c) (hx : 0 ≤ x) (hy : 0 ≤ y) (hz : 0 ≤ z) (hV : 0 ≤ V)
    (h1 : a ^ 2 + b ^ 2 + c ^ 2 = 1) (hVV : x ^ 2 + y ^ 2 + z ^ 2 = V ^ 2) :
    x * 1 + (b * z + c * y) * 1 + a * ((a * x + b * y + c * z) * (1 + 1)) ≤ 4 * V := by
  have d := cs3 zero_le_one hV (by rw [h1, one_pow]) hVV.le
  have e := cs3 (a := b) (b := c) (c := 0) (x := z) (y := y) (z := 0) zero_le_one hV (by nlinarith) (by nlinarith)
  have an : a ≤ 1 := by nlinarith
  have xV : x ≤ V := by refine abs_le_of_sq_le_sq' ?_ hV |>.2; nlinarith
  have t : a * ((a * x + b * y + c * z) * (1 + 1)) ≤ 1 * (1 * V * (1 + 1)) := mul_le_mul an (by linarith) (by positivity) zero_le_one
  linarith

/-- Rotating a vector about an axis of any length. -/
theorem C84_vec3_rotate (v : V3 F32) (angle : F32) (θ : ℝ) (axis : V3 F32) (hθ : SinCosOk angle θ) (hfin : (glm_vec3_norm axis).isFin = true)
    (heps : 1 / 2 ^ 23 ≤ (glm_vec3_norm axis).toReal) (hv : v.IsFin) (hV : (v.map toReal).len ≤ 2 ^ 60) :
    (glm_vec3_rotate v angle axis).CloseTo (rodrigues θ (axis.map toReal).unit (v.map toReal))
      (101 * ur * (v.map toReal).len + (1 + (v.map toReal).len) / 2 ^ 140) := by
  obtain ⟨a, b, c, hu, h1, hx, hy, hz⟩ := unit3 axis hfin heps
  obtain ⟨vx, vy, vz⟩ := var3 hv
  have hs := sin_apx hθ
  have hc := cos_apx hθ
  have hVV := len_sq v
  have V0 : 0 ≤ (v.map toReal).len := vx.A0
  unfold glm_vec3_rotate
  rw [hu]
  generalize glm_vec3_normalize_to axis = p at *
  generalize (v.map toReal).len = V at *
  generalize (sinf angle : F32) = sn at *
  generalize (cosf angle : F32) = cs at *
  have A := rodM (abs_nonneg a) (abs_nonneg b) (abs_nonneg c) (abs_nonneg v.x.toReal) (abs_nonneg v.y.toReal) (abs_nonneg v.z.toReal) V0
      (by simpa only [sq_abs] using h1) (by simpa only [sq_abs] using hVV)
  have B := rodM (abs_nonneg b) (abs_nonneg c) (abs_nonneg a) (abs_nonneg v.y.toReal) (abs_nonneg v.z.toReal) (abs_nonneg v.x.toReal) V0
      (by simp only [sq_abs]; linarith) (by simp only [sq_abs]; linarith)
  have C := rodM (abs_nonneg c) (abs_nonneg a) (abs_nonneg b) (abs_nonneg v.z.toReal) (abs_nonneg v.x.toReal) (abs_nonneg v.y.toReal) V0
      (by simp only [sq_abs]; linarith) (by simp only [sq_abs]; linarith)
  simp only [cglm, V3.CloseTo, V3.map, rodrigues, V3.add, V3.smul, V3.cross, V3.dot]
  generalize Real.sin θ = S at *
  generalize Real.cos θ = D at *
  refine ⟨?_, ?_, ?_⟩ <;> apply Apx.bound 25 (4 * V) <;> apx_side

/-- The matrix of a rotation about an axis of any length. -/
theorem C84_rotate_make (angle : F32) (θ : ℝ) (axis : V3 F32) (hθ : SinCosOk angle θ) (hfin : (glm_vec3_norm axis).isFin = true)
    (heps : 1 / 2 ^ 23 ≤ (glm_vec3_norm axis).toReal) :
    (glm_rotate_make angle axis).CloseTo (rotMat θ (axis.map toReal).unit).toM4 (67 * ur) := by
  obtain ⟨a, b, c, hu, h1, hx, hy, hz⟩ := unit3 axis hfin heps
  have hs := sin_apx hθ
  have hc := cos_apx hθ
  unfold glm_rotate_make
  rw [hu]
  generalize glm_vec3_normalize_to axis = p at *
  generalize (sinf angle : F32) = sn at *
  generalize (cosf angle : F32) = cs at *
  have ab : |a| * |b| ≤ 1 / 2 := by nlinarith [sq_nonneg (|a| - |b|), sq_abs a, sq_abs b, sq_nonneg c]
  have bc : |b| * |c| ≤ 1 / 2 := by nlinarith [sq_nonneg (|b| - |c|), sq_abs b, sq_abs c, sq_nonneg a]
  have ac : |a| * |c| ≤ 1 / 2 := by nlinarith [sq_nonneg (|a| - |c|), sq_abs a, sq_abs c, sq_nonneg b]
  have aa : |a| * |a| ≤ 1 := by nlinarith [sq_abs a, sq_nonneg b, sq_nonneg c]
  have bb : |b| * |b| ≤ 1 := by nlinarith [sq_abs b, sq_nonneg a, sq_nonneg c]
  have cc : |c| * |c| ≤ 1 := by nlinarith [sq_abs c, sq_nonneg a, sq_nonneg b]
  have la := hx.le
  have lb := hy.le
  have lc := hz.le
  simp only [cglm, M4.CloseTo, V4.CloseTo, M3.toM4, rotMat, rodrigues, V3.add, V3.smul, V3.cross, V3.dot]
  generalize Real.sin θ = S at *
  generalize Real.cos θ = D at *
  refine ⟨⟨?_, ?_, ?_, ?_⟩, ⟨?_, ?_, ?_, ?_⟩, ⟨?_, ?_, ?_, ?_⟩, ⟨?_, ?_, ?_, ?_⟩⟩ <;> apply Apx.bound 22 3 <;> apx_side

/-- The quaternion of an axis of any length and an angle; `θ` is half the angle. -/
theorem C84_quatv (angle : F32) (θ : ℝ) (axis : V3 F32) (hθ : SinCosOk (angle * lit 0.5) θ) (hfin : (glm_vec3_norm axis).isFin = true)
    (heps : 1 / 2 ^ 23 ≤ (glm_vec3_norm axis).toReal) :
    (glm_quatv angle axis).CloseTo ⟨Real.sin θ * (axis.map toReal).unit.x, Real.sin θ * (axis.map toReal).unit.y, Real.sin θ * (axis.map toReal).unit.z, Real.cos θ⟩ (12 * ur) := by
  obtain ⟨a, b, c, hu, h1, hx, hy, hz⟩ := unit3 axis hfin heps
  have hs := sin_apx hθ
  have hc := cos_apx hθ
  unfold glm_quatv glm_normalize_to
  rw [hu]
  generalize glm_vec3_normalize_to axis = p at *
  dsimp only
  generalize (sinf (angle * lit 0.5) : F32) = sn at *
  generalize (cosf (angle * lit 0.5) : F32) = cs at *
  generalize Real.sin θ = S at *
  generalize Real.cos θ = D at *
  have la := hx.le
  have lb := hy.le
  have lc := hz.le
  simp only [V4.CloseTo]
  refine ⟨?_, ?_, ?_, ?_⟩ <;> apply Apx.bound 11 1 <;> apx_side

omit [Libm] in
/-- every number between `-1` and `1` has a float within `2u` -/
private theorem float_near {x : ℝ} (h : |x| ≤ 1) : ∃ f : F32, f.isFin = true ∧ |f.toReal - x| ≤ 2 * ur := by
  obtain ⟨r, h1, h2⟩ := exists_rat_btwn (show x - 1 / 4 * ur < x + 1 / 4 * ur by linarith [ur_pos])
  have e : |((rnd r : ℚ) : ℝ) - r| ≤ ur * |(r : ℝ)| + ηr := by rw [ur_eq, ηr_eq]; exact_mod_cast rnd_err r
  rw [abs_le] at h
  have hr : |(r : ℝ)| ≤ 11 / 10 := by
    have : ur ≤ 1 / 100 := by norm_num [ur]
    rw [abs_le]; constructor <;> linarith
  have hη : ηr ≤ 1 / 4 * ur := by norm_num [ur, ηr]
  have e2 : |((rnd r : ℚ) : ℝ) - r| ≤ 3 / 2 * ur := by nlinarith [ur_pos]
  have hf : (F32.ofRat false r).isFin = true := by
    refine (ofRat_isFin _ _).mpr (abs_rnd_toReal _ (B := 2) ?_ (by norm_num))
    have : ur ≤ 1 / 100 := by norm_num [ur]
    rw [abs_le] at *; constructor <;> linarith
  refine ⟨_, hf, ?_⟩
  unfold toReal
  rw [ofRat_val hf]
  rw [abs_le] at *
  constructor <;> linarith

/-- a C library as the theorems ask for: its sine and cosine are within `2u` at every float -/
example : ∃ _ : Libm, ∀ a : F32, SinCosOk a a.toReal := by
  choose f hf using fun a : F32 => float_near (Real.abs_sin_le_one a.toReal)
  choose g hg using fun a : F32 => float_near (Real.abs_cos_le_one a.toReal)
  exact ⟨⟨f, g, id, id, id, id, fun a _ => a, fun a _ => a⟩, fun a => ⟨hf a, hg a⟩⟩

/-- the axis `(1, 2, 2)` and the quaternion `(1, 2, 2, 4)` have computed lengths `3` and `5` -/
example : let f := fun q : ℚ => F32.ofRat false q
    ((glm_vec3_norm ⟨f 1, f 2, f 2⟩).isFin = true ∧ 1 / 2 ^ 23 ≤ (glm_vec3_norm ⟨f 1, f 2, f 2⟩).toReal) ∧
      ((glm_quat_norm ⟨f 1, f 2, f 2, f 4⟩).isFin = true ∧ 1 / 2 ^ 23 ≤ (glm_quat_norm ⟨f 1, f 2, f 2, f 4⟩).toReal) := by
  have h3 : glm_vec3_norm (⟨F32.ofRat false 1, F32.ofRat false 2, F32.ofRat false 2⟩ : V3 F32) = F32.ofRat false 3 := by
    simp only [cglm, sqrtf_f32]; decide +kernel
  have h5 : glm_quat_norm (⟨F32.ofRat false 1, F32.ofRat false 2, F32.ofRat false 2, F32.ofRat false 4⟩ : V4 F32) = F32.ofRat false 5 := by
    simp only [cglm, sqrtf_f32]; decide +kernel
  have v3 : (F32.ofRat false 3).isFin = true ∧ (F32.ofRat false 3).val = 3 := by decide +kernel
  have v5 : (F32.ofRat false 5).isFin = true ∧ (F32.ofRat false 5).val = 5 := by decide +kernel
  intro f
  refine ⟨⟨?_, ?_⟩, ⟨?_, ?_⟩⟩
  · exact (congrArg isFin h3).trans v3.1
  · refine le_of_le_of_eq ?_ (congrArg toReal h3).symm; unfold toReal; rw [v3.2]; norm_num
  · exact (congrArg isFin h5).trans v5.1
  · refine le_of_le_of_eq ?_ (congrArg toReal h5).symm; unfold toReal; rw [v5.2]; norm_num

end Cglm
