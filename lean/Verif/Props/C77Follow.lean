import Verif.Props.C77
import Mathlib.Order.OrderIsoNat
/-!
# C77: a value that follows a target

The usual smoothing loop `x = glm_lerp(x, target, k)` in binary32, for any number of steps.
-/
open Cglm F32
namespace Cglm
set_option linter.unusedSectionVars false
variable [Libm]

/-- the rounded step towards a target above does not pass it -/
theorem F32.follow_val {x b k : ℚ} (rx : Rep x) (rb : Rep b) (h : x ≤ b) (k0 : 0 ≤ k) (k1 : k ≤ 1 - 2 ^ (-22 : ℤ)) :
    0 ≤ rnd (k * rnd (b - x)) ∧ rnd (k * rnd (b - x)) ≤ b - x := by
  have hD : 0 ≤ b - x := by linarith
  have hd0 : 0 ≤ rnd (b - x) := by have := rnd_mono hD; rwa [rnd_zero] at this
  have hp0 : 0 ≤ rnd (k * rnd (b - x)) := by have := rnd_mono (mul_nonneg k0 hd0); rwa [rnd_zero] at this
  refine ⟨hp0, ?_⟩
  have kle : k ≤ 1 := k1.trans (by norm_num)
  rcases lt_or_ge (b - x) ((2 : ℚ) ^ (-125 : ℤ)) with hs | hs
  · obtain ⟨m, hm⟩ := rep_grid rx
    obtain ⟨n, hn⟩ := rep_grid rb
    have e : b - x = ((n - m : ℤ) : ℚ) * 2 ^ (-149 : ℤ) := by rw [hm, hn]; push_cast; ring
    have hz : (0 : ℚ) < 2 ^ (-149 : ℤ) := by positivity
    have hnm : |n - m| < 2 ^ 24 := by
      rw [e] at hs hD
      have h1 : (0 : ℚ) ≤ ((n - m : ℤ) : ℚ) := nonneg_of_mul_nonneg_left hD hz
      have h2 : ((n - m : ℤ) : ℚ) < 2 ^ 24 := by
        have : (2 : ℚ) ^ (-125 : ℤ) = 2 ^ 24 * 2 ^ (-149 : ℤ) := by norm_num
        rw [this] at hs
        exact lt_of_mul_lt_mul_right hs hz.le
      rw [abs_of_nonneg (by exact_mod_cast h1)]
      exact_mod_cast h2
    have r : Rep (b - x) := ⟨n - m, -149, hnm, le_refl _, by norm_num, e⟩
    rw [rnd_rep r]
    calc rnd (k * (b - x)) ≤ rnd (b - x) := rnd_mono (by nlinarith)
      _ = b - x := rnd_rep r
  · have e1 := rnd_add_err rb (by obtain ⟨m, e, h1, h2, h3, h4⟩ := rx; exact ⟨-m, e, by rwa [abs_neg], h2, h3, by rw [h4]; push_cast; ring⟩ : Rep (-x))
    rw [← sub_eq_add_neg, abs_of_nonneg hD] at e1
    have e2 := rnd_err (k * rnd (b - x))
    rw [abs_of_nonneg (mul_nonneg k0 hd0)] at e2
    have e1' := (abs_le.mp e1).2
    have e2' := (abs_le.mp e2).2
    generalize rnd (b - x) = d at *
    generalize rnd (k * d) = p at *
    have hu : u = 2 ^ (-24 : ℤ) := by norm_num [u]
    have hη : η = 2 ^ (-150 : ℤ) := by norm_num [η]
    rw [hu] at e1' e2'
    rw [hη] at e2'
    have t1 : d ≤ (1 + 2 ^ (-24 : ℤ)) * (b - x) := by linarith
    have t2 : k * d ≤ (1 - 2 ^ (-22 : ℤ)) * ((1 + 2 ^ (-24 : ℤ)) * (b - x)) :=
      mul_le_mul k1 t1 hd0 (by norm_num)
    have t3 : p ≤ (1 + 2 ^ (-24 : ℤ)) * (k * d) + 2 ^ (-150 : ℤ) := by linarith
    have t4 : (1 + 2 ^ (-24 : ℤ)) * (k * d) ≤ (1 + 2 ^ (-24 : ℤ)) * ((1 - 2 ^ (-22 : ℤ)) * ((1 + 2 ^ (-24 : ℤ)) * (b - x))) :=
      mul_le_mul_of_nonneg_left t2 (by norm_num)
    have t5 : (1 + 2 ^ (-24 : ℤ)) * ((1 - 2 ^ (-22 : ℤ)) * ((1 + 2 ^ (-24 : ℤ)) * (b - x))) ≤ (1 - 2 ^ (-24 : ℤ)) * (b - x) := by
      have : ((1 : ℚ) + 2 ^ (-24 : ℤ)) * ((1 - 2 ^ (-22 : ℤ)) * (1 + 2 ^ (-24 : ℤ))) ≤ 1 - 2 ^ (-24 : ℤ) := by norm_num
      calc _ = ((1 : ℚ) + 2 ^ (-24 : ℤ)) * ((1 - 2 ^ (-22 : ℤ)) * (1 + 2 ^ (-24 : ℤ))) * (b - x) := by ring
        _ ≤ _ := mul_le_mul_of_nonneg_right this hD
    have t6 : (2 : ℚ) ^ (-150 : ℤ) ≤ 2 ^ (-24 : ℤ) * (b - x) := by
      have : (2 : ℚ) ^ (-150 : ℤ) ≤ 2 ^ (-24 : ℤ) * 2 ^ (-125 : ℤ) := by norm_num
      exact this.trans (mul_le_mul_of_nonneg_left hs (by norm_num))
    linarith

/-- One step: the value moves towards the target and does not pass it. -/
theorem C77_follow_step (x b k : F32) (fx : x.isFin = true) (fb : b.isFin = true) (fd : (b - x).isFin = true)
    (fk : k.isFin = true) (k0 : 0 ≤ k.val) (k1 : k.val ≤ 1 - 2 ^ (-22 : ℤ)) :
    (glm_lerp x b k).isFin = true ∧ (b - glm_lerp x b k).isFin = true ∧
    (x.val ≤ b.val → x.val ≤ (glm_lerp x b k).val ∧ (glm_lerp x b k).val ≤ b.val) ∧
    (b.val ≤ x.val → b.val ≤ (glm_lerp x b k).val ∧ (glm_lerp x b k).val ≤ x.val) := by
  have key : (x.val ≤ b.val → 0 ≤ rnd (k.val * (b - x).val) ∧ rnd (k.val * (b - x).val) ≤ b.val - x.val) ∧
      (b.val ≤ x.val → rnd (k.val * (b - x).val) ≤ 0 ∧ b.val - x.val ≤ rnd (k.val * (b - x).val)) := by
    rw [sub_val fd]
    constructor
    · intro h
      exact follow_val (rep_val x) (rep_val b) h k0 k1
    · intro h
      have nr : ∀ a : F32, Rep (-a.val) := fun a => by rw [← neg_val]; exact rep_val _
      have := follow_val (nr x) (nr b) (neg_le_neg h) k0 k1
      rw [show -b.val - -x.val = -(b.val - x.val) by ring, rnd_neg, mul_neg, rnd_neg] at this
      exact ⟨by linarith [this.1], by linarith [this.2]⟩
  have fin : ∀ {q : ℚ} {y z : F32}, min y.val z.val ≤ q → q ≤ max y.val z.val → |rnd q| < 2 ^ 128 := fun {q y z} h1 h2 => by
    have r1 : Rep (min y.val z.val) := by rcases le_total y.val z.val with c | c <;> simp [c, rep_val]
    have r2 : Rep (max y.val z.val) := by rcases le_total y.val z.val with c | c <;> simp [c, rep_val]
    have a1 := rnd_mono h1
    have a2 := rnd_mono h2
    rw [rnd_rep r1] at a1
    rw [rnd_rep r2] at a2
    have by1 := abs_lt.mp (rep_lt y.rep_val)
    have by2 := abs_lt.mp (rep_lt z.rep_val)
    exact abs_lt.mpr ⟨lt_of_lt_of_le (lt_min by1.1 by2.1) a1, lt_of_le_of_lt a2 (max_lt by1.2 by2.2)⟩
  have fp : (k * (b - x)).isFin = true := by
    refine (mul_fin fk fd).1.mpr (fin (y := b - x) (z := zero false) ?_ ?_)
    · rcases le_total 0 (b - x).val with c | c
      · exact (min_le_right _ _).trans (mul_nonneg k0 c)
      · refine (min_le_left _ _).trans ?_
        have : k.val ≤ 1 := k1.trans (by norm_num)
        nlinarith
    · rcases le_total 0 (b - x).val with c | c
      · refine le_trans ?_ (le_max_left _ _)
        have : k.val ≤ 1 := k1.trans (by norm_num)
        nlinarith
      · exact (mul_nonpos_of_nonneg_of_nonpos k0 c).trans (le_max_right _ _)
  have pv := mul_val fp
  rw [← pv] at key
  have fy : (x + k * (b - x)).isFin = true := by
    refine (add_fin fx fp).1.mpr (fin (y := x) (z := b) ?_ ?_)
    · rcases le_total x.val b.val with c | c
      · exact (min_le_left _ _).trans (by linarith [(key.1 c).1])
      · exact (min_le_right _ _).trans (by linarith [(key.2 c).2])
    · rcases le_total x.val b.val with c | c
      · exact le_trans (by linarith [(key.1 c).2]) (le_max_right _ _)
      · exact le_trans (by linarith [(key.2 c).1]) (le_max_left _ _)
  have yv := add_val fy
  have e : glm_lerp x b k = x + k * (b - x) := rfl
  rw [e]
  have up : x.val ≤ b.val → x.val ≤ (x + k * (b - x)).val ∧ (x + k * (b - x)).val ≤ b.val := fun h => by
    rw [yv]
    constructor
    · calc x.val = rnd x.val := (rnd_rep (rep_val x)).symm
        _ ≤ _ := rnd_mono (by linarith [(key.1 h).1])
    · calc _ ≤ rnd b.val := rnd_mono (by linarith [(key.1 h).2])
        _ = b.val := rnd_rep (rep_val b)
  have down : b.val ≤ x.val → b.val ≤ (x + k * (b - x)).val ∧ (x + k * (b - x)).val ≤ x.val := fun h => by
    rw [yv]
    constructor
    · calc b.val = rnd b.val := (rnd_rep (rep_val b)).symm
        _ ≤ _ := rnd_mono (by linarith [(key.2 h).2])
    · calc _ ≤ rnd x.val := rnd_mono (by linarith [(key.2 h).1])
        _ = x.val := rnd_rep (rep_val x)
  refine ⟨fy, (sub_fin fb fy).mpr ?_, up, down⟩
  have dv := (sub_fin fb fx).mp fd
  rcases le_total x.val b.val with c | c
  · have h0 : 0 ≤ rnd (b.val - (x + k * (b - x)).val) := by
      have := rnd_mono (show 0 ≤ b.val - (x + k * (b - x)).val by linarith [(up c).2]); rwa [rnd_zero] at this
    have h1 := rnd_mono (show b.val - (x + k * (b - x)).val ≤ b.val - x.val by linarith [(up c).1])
    rw [abs_of_nonneg h0]
    exact lt_of_le_of_lt h1 (abs_lt.mp dv).2
  · have h0 : rnd (b.val - (x + k * (b - x)).val) ≤ 0 := by
      have := rnd_mono (show b.val - (x + k * (b - x)).val ≤ 0 by linarith [(down c).1]); rwa [rnd_zero] at this
    have h1 := rnd_mono (show b.val - x.val ≤ b.val - (x + k * (b - x)).val by linarith [(down c).2])
    rw [abs_of_nonpos h0]
    linarith [(abs_lt.mp dv).1]

/-- Any number of steps: the value stays finite, approaches the target from one side, and never passes it. -/
theorem C77_follow (x b k : F32) (fx : x.isFin = true) (fb : b.isFin = true) (fd : (b - x).isFin = true)
    (fk : k.isFin = true) (k0 : 0 ≤ k.val) (k1 : k.val ≤ 1 - 2 ^ (-22 : ℤ)) (n : ℕ) :
    ((fun y => glm_lerp y b k)^[n] x).isFin = true ∧
    (x.val ≤ b.val → ((fun y => glm_lerp y b k)^[n] x).val ≤ ((fun y => glm_lerp y b k)^[n + 1] x).val ∧
      x.val ≤ ((fun y => glm_lerp y b k)^[n] x).val ∧ ((fun y => glm_lerp y b k)^[n] x).val ≤ b.val) ∧
    (b.val ≤ x.val → ((fun y => glm_lerp y b k)^[n + 1] x).val ≤ ((fun y => glm_lerp y b k)^[n] x).val ∧
      ((fun y => glm_lerp y b k)^[n] x).val ≤ x.val ∧ b.val ≤ ((fun y => glm_lerp y b k)^[n] x).val) := by
  have inv : ((fun y => glm_lerp y b k)^[n] x).isFin = true ∧ (b - (fun y => glm_lerp y b k)^[n] x).isFin = true ∧
      (x.val ≤ b.val → x.val ≤ ((fun y => glm_lerp y b k)^[n] x).val ∧ ((fun y => glm_lerp y b k)^[n] x).val ≤ b.val) ∧
      (b.val ≤ x.val → ((fun y => glm_lerp y b k)^[n] x).val ≤ x.val ∧ b.val ≤ ((fun y => glm_lerp y b k)^[n] x).val) := by
    induction n with
    | zero => exact ⟨fx, fd, fun h => ⟨le_refl _, h⟩, fun h => ⟨le_refl _, h⟩⟩
    | succ n ih =>
      rw [Function.iterate_succ_apply']
      generalize (fun y => glm_lerp y b k)^[n] x = y at ih
      obtain ⟨i1, i2, i3, i4⟩ := ih
      obtain ⟨s1, s2, s3, s4⟩ := C77_follow_step y b k i1 fb i2 fk k0 k1
      exact ⟨s1, s2, fun h => ⟨(i3 h).1.trans (s3 (i3 h).2).1, (s3 (i3 h).2).2⟩,
        fun h => ⟨(s4 (i4 h).2).2.trans (i4 h).1, (s4 (i4 h).2).1⟩⟩
  rw [Function.iterate_succ_apply']
  generalize (fun y => glm_lerp y b k)^[n] x = y at inv
  obtain ⟨i1, i2, i3, i4⟩ := inv
  obtain ⟨s1, s2, s3, s4⟩ := C77_follow_step y b k i1 fb i2 fk k0 k1
  exact ⟨i1, fun h => ⟨(s3 (i3 h).2).1, i3 h⟩, fun h => ⟨(s4 (i4 h).2).2, i4 h⟩⟩

example : let x : F32 := .ofRat false 1; let b : F32 := .ofRat false 5; let k : F32 := .ofRat false (1 / 10)
    x.isFin = true ∧ b.isFin = true ∧ (b - x).isFin = true ∧ k.isFin = true ∧ 0 ≤ k.val ∧ k.val ≤ 1 - 2 ^ (-22 : ℤ) := by
  decide +kernel

/-- The loop comes to rest after finitely many steps ... -/
theorem C77_follow_rests (x b k : F32) (fx : x.isFin = true) (fb : b.isFin = true) (fd : (b - x).isFin = true)
    (fk : k.isFin = true) (k0 : 0 ≤ k.val) (k1 : k.val ≤ 1 - 2 ^ (-22 : ℤ)) :
    ∃ N, ∀ n, N ≤ n → ((fun y => glm_lerp y b k)^[n] x).val = ((fun y => glm_lerp y b k)^[N] x).val := by
  have H := C77_follow x b k fx fb fd fk k0 k1
  have hz : (0 : ℚ) < 2 ^ (-149 : ℤ) := by positivity
  choose f hf using fun n => rep_grid (rep_val ((fun y => glm_lerp y b k)^[n] x))
  obtain ⟨c, hc⟩ := rep_grid (rep_val b)
  have cmp : ∀ {p q : ℤ}, (p : ℚ) * 2 ^ (-149 : ℤ) ≤ q * 2 ^ (-149 : ℤ) → p ≤ q := fun h => by
    exact_mod_cast le_of_mul_le_mul_right h hz
  have stop : ∀ g : ℕ → ℕ, (∀ n, g (n + 1) ≤ g n) → (∀ n m, g n = g m → f n = f m) → ∃ N, ∀ n, N ≤ n →
      ((fun y => glm_lerp y b k)^[n] x).val = ((fun y => glm_lerp y b k)^[N] x).val := fun g hg hfg => by
    obtain ⟨N, hN⟩ := WellFoundedLT.antitone_chain_condition (antitone_nat_of_succ_le hg)
    exact ⟨N, fun n hn => by rw [hf, hf, hfg n N (hN n hn).symm]⟩
  rcases le_total x.val b.val with h | h
  · have up : ∀ n, f n ≤ f (n + 1) := fun n => cmp (by rw [← hf, ← hf]; exact ((H n).2.1 h).1)
    have lo : ∀ n, f n ≤ c := fun n => cmp (by rw [← hf, ← hc]; exact ((H n).2.1 h).2.2)
    exact stop (fun n => (c - f n).toNat) (fun n => by have := up n; omega)
      (fun n m e => by have := lo n; have := lo m; omega)
  · have dn : ∀ n, f (n + 1) ≤ f n := fun n => cmp (by rw [← hf, ← hf]; exact ((H n).2.2 h).1)
    have lo : ∀ n, c ≤ f n := fun n => cmp (by rw [← hf, ← hc]; exact ((H n).2.2 h).2.2)
    exact stop (fun n => (f n - c).toNat) (fun n => by have := dn n; omega)
      (fun n m e => by have := lo n; have := lo m; omega)

/-- ... but not always at the target: one unit below it a small step is lost to rounding, for ever. -/
theorem C77_follow_arrives_fails : ∃ x b k : F32, x.isFin = true ∧ b.isFin = true ∧ (b - x).isFin = true ∧ k.isFin = true ∧
    0 < k.val ∧ k.val ≤ 1 - 2 ^ (-22 : ℤ) ∧ ∀ n, ((fun y => glm_lerp y b k)^[n] x) = x ∧ feq x b = false := by
  refine ⟨.ofRat false 1, .ofRat false (1 + 2 ^ (-23 : ℤ)), .ofRat false (1 / 4), by decide +kernel, by decide +kernel,
    by decide +kernel, by decide +kernel, by decide +kernel, by decide +kernel, fun n => ⟨?_, by rw [feq_f32]; decide +kernel⟩⟩
  induction n with
  | zero => rfl
  | succ n ih =>
    rw [Function.iterate_succ_apply', ih]
    simp only [cglm]
    decide +kernel

/-- the same loop on vectors runs the scalar loop in each coordinate -/
theorem C77_follow_vec3 (x b : V3 F32) (k : F32) (n : ℕ) :
    (fun y => glm_vec3_lerp y b k)^[n] x =
      ⟨(fun y => glm_lerp y b.x k)^[n] x.x, (fun y => glm_lerp y b.y k)^[n] x.y, (fun y => glm_lerp y b.z k)^[n] x.z⟩ := by
  induction n with
  | zero => rfl
  | succ n ih => simp only [Function.iterate_succ_apply', ih]; simp only [cglm]

theorem C77_follow_vec4 (x b : V4 F32) (k : F32) (n : ℕ) :
    (fun y => glm_vec4_lerp y b k)^[n] x =
      ⟨(fun y => glm_lerp y b.x k)^[n] x.x, (fun y => glm_lerp y b.y k)^[n] x.y, (fun y => glm_lerp y b.z k)^[n] x.z,
       (fun y => glm_lerp y b.w k)^[n] x.w⟩ := by
  induction n with
  | zero => rfl
  | succ n ih => simp only [Function.iterate_succ_apply', ih]; simp only [cglm]

end Cglm
