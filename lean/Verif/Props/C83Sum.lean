import Verif.F32Map
import Verif.Gen.Vec2
import Verif.Gen.Vec3
import Verif.Gen.Vec4
import Mathlib.Tactic.Linarith

/-!
# C83: drift of long sums

A position kept in binary32 moves step by step.  The steps are vectors that are added, or velocities times times.  The deviation
from the exact sum of the same floats is at most `γ n` times the sum of the magnitudes, plus what underflow can lose.  A position
that is large enough does not move at all.
-/

namespace Cglm
open F32

private theorem near_sum (l : List F32) : ∀ {f : F32} {x M : ℝ} {k : ℕ}, Near f x M k 0 →
    Near (l.foldl (· + ·) f) ((l.map toReal).foldl (· + ·) x) ((l.map mag).foldl (· + ·) M) (k + l.length) 0 := by
  induction l with
  | nil => intro f x M k h; exact h
  | cons a l ih =>
    intro f x M k h
    have s : Near (f + a) (x + a.toReal) (M + mag a) (k + 1) 0 := (h.add (Near.var a)).le le_rfl (by omega) (by simp)
    have := ih s
    rw [show k + 1 + l.length = k + (a :: l).length by simp only [List.length_cons]; omega] at this
    exact this

private theorem near_dot (l : List (F32 × F32)) : ∀ {f : F32} {x M : ℝ} {k : ℕ}, Near f x M (k + 1) (k * (1 + ur) ^ k * ηr) →
    Near (l.foldl (fun f a => f + a.1 * a.2) f) (l.foldl (fun x a => x + a.1.toReal * a.2.toReal) x)
      (l.foldl (fun M a => M + mag a.1 * mag a.2) M) (k + l.length + 1) ((k + l.length : ℕ) * (1 + ur) ^ (k + l.length) * ηr) := by
  induction l with
  | nil => intro f x M k h; exact h
  | cons a l ih =>
    intro f x M k h
    have s : Near (f + a.1 * a.2) (x + a.1.toReal * a.2.toReal) (M + mag a.1 * mag a.2) (k + 1 + 1) ((k + 1 : ℕ) * (1 + ur) ^ (k + 1) * ηr) := by
      refine (h.add (Near.prod a.1 a.2)).le (by rw [abs_mul]; rfl) (by omega) ?_
      have p := one_le_pow_ur k
      have e : 0 ≤ ηr := by norm_num [ηr]
      have u := ur_pos
      have : ηr ≤ (1 + ur) ^ k * ηr := le_mul_of_one_le_left e p
      have := mul_le_mul_of_nonneg_left this (by linarith : 0 ≤ 1 + ur)
      rw [pow_succ]
      push_cast
      linarith
    have := ih s
    rw [show k + 1 + l.length = k + (a :: l).length by simp only [List.length_cons]; omega] at this
    exact this

private theorem fold_comp {α β γ : Type} (g : α → γ) (p : β → γ) (op : α → β → α) (op' : γ → γ → γ)
    (h : ∀ a b, g (op a b) = op' (g a) (p b)) (l : List β) : ∀ a, g (l.foldl op a) = (l.map p).foldl op' (g a) := by
  induction l with
  | nil => intro a; rfl
  | cons b l ih => intro a; rw [List.foldl_cons, ih, h]; rfl

private theorem sum_comp (n : ℕ) {l : List F32} {f : F32} (hn : n * ur < 1) (h : l.length = n) :
    F32.Err (l.foldl (· + ·) f) ((l.map toReal).foldl (· + ·) f.toReal) (γ n) ((l.map mag).foldl (· + ·) (mag f)) 0 :=
  Near.err (near_sum l (Near.var f)) n (by omega) hn rfl le_rfl le_rfl

private theorem fold_add {α V : Type} [Add α] (c : V → α) (op : V → V → V) (h : ∀ a b, c (op a b) = c a + c b) (l : List V) (p : V) :
    c (l.foldl op p) = (l.map c).foldl (· + ·) (c p) := fold_comp c c op (· + ·) h l p

/-- the claim for one component -/
private theorem sum_field {V W : Type} (c : V → F32) (d : W → ℝ) (op : V → V → V) (opr : W → W → W) (r m : V → W)
    (h : ∀ a b, c (op a b) = c a + c b) (hr : ∀ a b, d (opr a b) = d a + d b) (cr : ∀ a, d (r a) = (c a).toReal) (cm : ∀ a, d (m a) = mag (c a))
    (l : List V) (p : V) (hn : l.length * ur < 1) :
    F32.Err (c (l.foldl op p)) (d ((l.map r).foldl opr (r p))) (γ l.length) (d ((l.map m).foldl opr (m p))) 0 := by
  rw [fold_add c op h, fold_add d opr hr, fold_add d opr hr, cr, cm, List.map_map, List.map_map]
  have := sum_comp l.length (l := l.map c) (f := c p) hn (by simp)
  rw [List.map_map, List.map_map] at this
  rw [show d ∘ r = toReal ∘ c from funext cr, show d ∘ m = mag ∘ c from funext cm]
  exact this

/-- Adding vectors of floats one by one to a position of floats: each component that stays finite is within `γ n` times the sum of
the magnitudes of the exact sum. -/
theorem C83_sum_vec2 (l : List (V2 F32)) (p : V2 F32) (hn : l.length * ur < 1) :
    (l.foldl glm_vec2_add p).Err ((l.map (·.map toReal)).foldl glm_vec2_add (p.map toReal)) (γ l.length)
      ((l.map (·.map mag)).foldl glm_vec2_add (p.map mag)) 0 :=
  ⟨sum_field V2.x V2.x glm_vec2_add glm_vec2_add _ _ (fun _ _ => rfl) (fun _ _ => rfl) (fun _ => rfl) (fun _ => rfl) l p hn,
   sum_field V2.y V2.y glm_vec2_add glm_vec2_add _ _ (fun _ _ => rfl) (fun _ _ => rfl) (fun _ => rfl) (fun _ => rfl) l p hn⟩

/-- the same in three dimensions -/
theorem C83_sum_vec3 (l : List (V3 F32)) (p : V3 F32) (hn : l.length * ur < 1) :
    (l.foldl glm_vec3_add p).Err ((l.map (·.map toReal)).foldl glm_vec3_add (p.map toReal)) (γ l.length)
      ((l.map (·.map mag)).foldl glm_vec3_add (p.map mag)) 0 :=
  ⟨sum_field V3.x V3.x glm_vec3_add glm_vec3_add _ _ (fun _ _ => rfl) (fun _ _ => rfl) (fun _ => rfl) (fun _ => rfl) l p hn,
   sum_field V3.y V3.y glm_vec3_add glm_vec3_add _ _ (fun _ _ => rfl) (fun _ _ => rfl) (fun _ => rfl) (fun _ => rfl) l p hn,
   sum_field V3.z V3.z glm_vec3_add glm_vec3_add _ _ (fun _ _ => rfl) (fun _ _ => rfl) (fun _ => rfl) (fun _ => rfl) l p hn⟩

/-- the same in four dimensions -/
theorem C83_sum_vec4 (l : List (V4 F32)) (p : V4 F32) (hn : l.length * ur < 1) :
    (l.foldl glm_vec4_add p).Err ((l.map (·.map toReal)).foldl glm_vec4_add (p.map toReal)) (γ l.length)
      ((l.map (·.map mag)).foldl glm_vec4_add (p.map mag)) 0 :=
  ⟨sum_field V4.x V4.x glm_vec4_add glm_vec4_add _ _ (fun _ _ => rfl) (fun _ _ => rfl) (fun _ => rfl) (fun _ => rfl) l p hn,
   sum_field V4.y V4.y glm_vec4_add glm_vec4_add _ _ (fun _ _ => rfl) (fun _ _ => rfl) (fun _ => rfl) (fun _ => rfl) l p hn,
   sum_field V4.z V4.z glm_vec4_add glm_vec4_add _ _ (fun _ _ => rfl) (fun _ _ => rfl) (fun _ => rfl) (fun _ => rfl) l p hn,
   sum_field V4.w V4.w glm_vec4_add glm_vec4_add _ _ (fun _ _ => rfl) (fun _ _ => rfl) (fun _ => rfl) (fun _ => rfl) l p hn⟩

/-- the claim for one component of a moved position -/
private theorem dot_field {V W : Type} (c : V → F32) (d : W → ℝ) (op : V → F32 → V → V) (opr : W → ℝ → W → W) (r m : V → W)
    (h : ∀ v t a, c (op v t a) = c a + c v * t) (hr : ∀ v t a, d (opr v t a) = d a + d v * t) (cr : ∀ a, d (r a) = (c a).toReal) (cm : ∀ a, d (m a) = mag (c a))
    (l : List (V × F32)) (p : V) (hn : l.length ≤ 2 ^ 22) :
    F32.Err (c (l.foldl (fun p s => op s.1 s.2 p) p)) (d (l.foldl (fun p s => opr (r s.1) s.2.toReal p) (r p))) (γ (l.length + 1))
      (d (l.foldl (fun p s => opr (m s.1) (mag s.2) p) (m p))) (l.length / 2 ^ 149) := by
  have hn' : (l.length : ℝ) ≤ 4194304 := by exact_mod_cast hn
  have e1 : ∀ p, c (l.foldl (fun p s => op s.1 s.2 p) p) = (l.map fun s => (c s.1, s.2)).foldl (fun f a => f + a.1 * a.2) (c p) := by
    clear hn hn'
    induction l with
    | nil => intro p; rfl
    | cons s l ih => intro p; rw [List.foldl_cons, ih, h]; rfl
  have e2 : ∀ p, d (l.foldl (fun p s => opr (r s.1) s.2.toReal p) p) = (l.map fun s => (c s.1, s.2)).foldl (fun x a => x + a.1.toReal * a.2.toReal) (d p) := by
    clear hn hn' e1
    induction l with
    | nil => intro p; rfl
    | cons s l ih => intro p; rw [List.foldl_cons, ih, hr, cr]; rfl
  have e3 : ∀ p, d (l.foldl (fun p s => opr (m s.1) (mag s.2) p) p) = (l.map fun s => (c s.1, s.2)).foldl (fun x a => x + mag a.1 * mag a.2) (d p) := by
    clear hn hn' e1 e2
    induction l with
    | nil => intro p; rfl
    | cons s l ih => intro p; rw [List.foldl_cons, ih, hr, cm]; rfl
  rw [e1, e2, e3, cr, cm]
  have st : Near (c p) (c p).toReal (mag (c p)) (0 + 1) ((0 : ℕ) * (1 + ur) ^ 0 * ηr) := (Near.var (c p)).le le_rfl (by omega) (by simp)
  refine Near.err (near_dot _ st) _ (by simp) ?_ rfl le_rfl ?_
  · rw [ur]; push_cast; rw [mul_one_div, div_lt_one (by norm_num)]; norm_num; linarith
  · rw [zero_add, List.length_map]
    have g : (1 + ur) ^ l.length - 1 ≤ γ l.length := pow_le_γ _ (by rw [ur, mul_one_div, div_lt_one (by norm_num)]; norm_num; linarith)
    have g2 : γ l.length ≤ 1 := by
      unfold γ
      have : (l.length : ℝ) * ur ≤ 1 / 4 := by rw [ur, mul_one_div, div_le_iff₀ (by norm_num)]; norm_num; linarith
      rw [div_le_one (by linarith)]; linarith
    have : (1 + ur) ^ l.length ≤ 2 := by linarith
    have := mul_le_mul_of_nonneg_left this (Nat.cast_nonneg (α := ℝ) l.length)
    rw [ηr, mul_one_div, div_le_div_iff₀ (by norm_num) (by norm_num)]
    have := mul_le_mul_of_nonneg_right this (by norm_num : (0 : ℝ) ≤ 2 ^ 149)
    rw [show (2 : ℝ) ^ 150 = 2 * 2 ^ 149 by norm_num]
    linarith

/-- Moving a position of floats by velocities times times, again and again, up to about four million steps. -/
theorem C83_move_vec2 (l : List (V2 F32 × F32)) (p : V2 F32) (hn : l.length ≤ 2 ^ 22) :
    (l.foldl (fun p s => glm_vec2_muladds s.1 s.2 p) p).Err
      (l.foldl (fun p s => glm_vec2_muladds (s.1.map toReal) s.2.toReal p) (p.map toReal)) (γ (l.length + 1))
      (l.foldl (fun p s => glm_vec2_muladds (s.1.map mag) (mag s.2) p) (p.map mag)) (l.length / 2 ^ 149) :=
  ⟨dot_field V2.x V2.x glm_vec2_muladds glm_vec2_muladds _ _ (fun _ _ _ => rfl) (fun _ _ _ => rfl) (fun _ => rfl) (fun _ => rfl) l p hn,
   dot_field V2.y V2.y glm_vec2_muladds glm_vec2_muladds _ _ (fun _ _ _ => rfl) (fun _ _ _ => rfl) (fun _ => rfl) (fun _ => rfl) l p hn⟩

/-- the same in three dimensions -/
theorem C83_move_vec3 (l : List (V3 F32 × F32)) (p : V3 F32) (hn : l.length ≤ 2 ^ 22) :
    (l.foldl (fun p s => glm_vec3_muladds s.1 s.2 p) p).Err
      (l.foldl (fun p s => glm_vec3_muladds (s.1.map toReal) s.2.toReal p) (p.map toReal)) (γ (l.length + 1))
      (l.foldl (fun p s => glm_vec3_muladds (s.1.map mag) (mag s.2) p) (p.map mag)) (l.length / 2 ^ 149) :=
  ⟨dot_field V3.x V3.x glm_vec3_muladds glm_vec3_muladds _ _ (fun _ _ _ => rfl) (fun _ _ _ => rfl) (fun _ => rfl) (fun _ => rfl) l p hn,
   dot_field V3.y V3.y glm_vec3_muladds glm_vec3_muladds _ _ (fun _ _ _ => rfl) (fun _ _ _ => rfl) (fun _ => rfl) (fun _ => rfl) l p hn,
   dot_field V3.z V3.z glm_vec3_muladds glm_vec3_muladds _ _ (fun _ _ _ => rfl) (fun _ _ _ => rfl) (fun _ => rfl) (fun _ => rfl) l p hn⟩

/-- the same in four dimensions -/
theorem C83_move_vec4 (l : List (V4 F32 × F32)) (p : V4 F32) (hn : l.length ≤ 2 ^ 22) :
    (l.foldl (fun p s => glm_vec4_muladds s.1 s.2 p) p).Err
      (l.foldl (fun p s => glm_vec4_muladds (s.1.map toReal) s.2.toReal p) (p.map toReal)) (γ (l.length + 1))
      (l.foldl (fun p s => glm_vec4_muladds (s.1.map mag) (mag s.2) p) (p.map mag)) (l.length / 2 ^ 149) :=
  ⟨dot_field V4.x V4.x glm_vec4_muladds glm_vec4_muladds _ _ (fun _ _ _ => rfl) (fun _ _ _ => rfl) (fun _ => rfl) (fun _ => rfl) l p hn,
   dot_field V4.y V4.y glm_vec4_muladds glm_vec4_muladds _ _ (fun _ _ _ => rfl) (fun _ _ _ => rfl) (fun _ => rfl) (fun _ => rfl) l p hn,
   dot_field V4.z V4.z glm_vec4_muladds glm_vec4_muladds _ _ (fun _ _ _ => rfl) (fun _ _ _ => rfl) (fun _ => rfl) (fun _ => rfl) l p hn,
   dot_field V4.w V4.w glm_vec4_muladds glm_vec4_muladds _ _ (fun _ _ _ => rfl) (fun _ _ _ => rfl) (fun _ => rfl) (fun _ => rfl) l p hn⟩

/-- A position at `2²⁴` stays there, however often one is added to it. -/
theorem C83_stalls (n : ℕ) :
    (fun p : V3 F32 => glm_vec3_adds p (F32.ofRat false 1))^[n] ⟨F32.ofRat false (2 ^ 24), F32.ofRat false (2 ^ 24), F32.ofRat false (2 ^ 24)⟩ =
      ⟨F32.ofRat false (2 ^ 24), F32.ofRat false (2 ^ 24), F32.ofRat false (2 ^ 24)⟩ := by
  refine Function.iterate_fixed ?_ n
  have h : F32.ofRat false (2 ^ 24) + F32.ofRat false 1 = F32.ofRat false (2 ^ 24) := by decide +kernel
  simp only [cglm, h]

/-- a million steps of one component -/
example : ((List.replicate 1000000 (⟨F32.ofRat false 1, F32.ofRat false 1, F32.ofRat false 1⟩ : V3 F32)).length : ℝ) * ur < 1 := by
  rw [List.length_replicate]; norm_num [ur]

example : (List.replicate 1000000 ((⟨F32.ofRat false 1, F32.ofRat false 1⟩ : V2 F32), F32.ofRat false (1 / 64))).length ≤ 2 ^ 22 := by
  rw [List.length_replicate]; norm_num

end Cglm
