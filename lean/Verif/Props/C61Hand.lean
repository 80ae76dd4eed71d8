import Verif.HandWrap
import Verif.Props.C05
import Verif.Props.C16
import Verif.GenCall

/-!
# C61, C62: wrappers modelled by hand, and the places where the struct API differs
-/

set_option linter.unusedSectionVars false

namespace Cglm

section
variable {α : Type} [Add α] [Sub α] [Mul α] [Div α] [Neg α] [CFloat α]

theorem C61_mat2_swap_col : glms_mat2_swap_col (α := α) = glm_mat2_swap_col := rfl
theorem C61_mat2_swap_row : glms_mat2_swap_row (α := α) = glm_mat2_swap_row := rfl
theorem C61_mat3_swap_col : glms_mat3_swap_col (α := α) = glm_mat3_swap_col := rfl
theorem C61_mat3_swap_row : glms_mat3_swap_row (α := α) = glm_mat3_swap_row := rfl
theorem C61_mat4_swap_col : glms_mat4_swap_col (α := α) = glm_mat4_swap_col := rfl
theorem C61_mat4_swap_row : glms_mat4_swap_row (α := α) = glm_mat4_swap_row := rfl
theorem C61_vec3_swizzle : glms_vec3_swizzle (α := α) = glm_vec3_swizzle := rfl
theorem C61_vec4_swizzle : glms_vec4_swizzle (α := α) = glm_vec4_swizzle := rfl
theorem C61_mat2_identity_array : glms_mat2_identity_array (α := α) = glm_mat2_identity_array := rfl
theorem C61_mat3_identity_array : glms_mat3_identity_array (α := α) = glm_mat3_identity_array := rfl
theorem C61_mat4_identity_array : glms_mat4_identity_array (α := α) = glm_mat4_identity_array := rfl
theorem C61_quat_identity_array : glms_quat_identity_array (α := α) = glm_quat_identity_array := rfl
theorem C62_mat2_swap_col : glmc_mat2_swap_col (α := α) = glm_mat2_swap_col := rfl
theorem C62_mat2_swap_row : glmc_mat2_swap_row (α := α) = glm_mat2_swap_row := rfl
theorem C62_mat3_swap_col : glmc_mat3_swap_col (α := α) = glm_mat3_swap_col := rfl
theorem C62_mat3_swap_row : glmc_mat3_swap_row (α := α) = glm_mat3_swap_row := rfl
theorem C62_mat4_swap_col : glmc_mat4_swap_col (α := α) = glm_mat4_swap_col := rfl
theorem C62_mat4_swap_row : glmc_mat4_swap_row (α := α) = glm_mat4_swap_row := rfl
theorem C62_vec2_swizzle : glmc_vec2_swizzle (α := α) = glm_vec2_swizzle := rfl
theorem C62_vec3_swizzle : glmc_vec3_swizzle (α := α) = glm_vec3_swizzle := rfl
theorem C62_vec4_swizzle : glmc_vec4_swizzle (α := α) = glm_vec4_swizzle := rfl
theorem C62_mat2_identity_array : glmc_mat2_identity_array (α := α) = glm_mat2_identity_array := rfl
theorem C62_mat3_identity_array : glmc_mat3_identity_array (α := α) = glm_mat3_identity_array := rfl
theorem C62_mat4_identity_array : glmc_mat4_identity_array (α := α) = glm_mat4_identity_array := rfl
theorem C62_quat_identity_array : glmc_quat_identity_array (α := α) = glm_quat_identity_array := rfl
theorem C62_mat4_mulN : glmc_mat4_mulN (α := α) = glm_mat4_mulN := rfl
theorem C62_decasteljau : glmc_decasteljau (α := α) = glm_decasteljau := rfl

/-! The loops that copy between the two kinds of array. -/

theorem copyLoop_some {β : Type} (c : β → β) (src : List β) (fuel : Nat) : ∀ (dst : List β) (i : Nat), i + fuel ≤ src.length →
    i + fuel ≤ dst.length →
    copyLoop c src dst i fuel = some (dst.take i ++ ((src.drop i).take fuel).map c ++ dst.drop (i + fuel)) := by
  induction fuel with
  | zero => intro dst i _ _; simp [copyLoop]
  | succ n ih =>
    intro dst i h h'
    have hi : i < dst.length := by omega
    have hs : i < src.length := by omega
    simp only [copyLoop, List.getElem?_eq_getElem hs, if_pos hi, Option.bind_eq_bind, Option.bind_some]
    rw [ih _ _ (by omega) (by rw [List.length_set]; omega)]
    congr 1
    rw [List.take_add_one, List.take_set, List.drop_set, if_pos (by omega), List.drop_eq_getElem_cons hs, List.take_succ_cons,
      List.map_cons]
    simp [hi, List.set_eq_of_length_le, Nat.add_assoc, Nat.add_comm 1 n]
theorem copyLoop_none {β : Type} (c : β → β) (src : List β) (fuel : Nat) : ∀ (dst : List β) (i : Nat),
    i ≤ src.length → i ≤ dst.length → src.length < i + fuel ∨ dst.length < i + fuel → copyLoop c src dst i fuel = none := by
  induction fuel with
  | zero => intro dst i _ _ _; omega
  | succ n ih =>
    intro dst i h1 h2 h3
    by_cases hs : i < src.length
    · simp only [copyLoop, List.getElem?_eq_getElem hs, Option.bind_eq_bind, Option.bind_some]
      by_cases hi : i < dst.length
      · rw [if_pos hi]; exact ih _ _ (by omega) (by rw [List.length_set]; omega) (by rw [List.length_set]; omega)
      · rw [if_neg hi]
    · simp [copyLoop, hs]

/-- `glms_vec2_pack` copies the first `len` vectors and leaves the others. -/
theorem C61_vec2_pack (dst src : List (V2 α)) (len : Nat) (h : len ≤ src.length) (h' : len ≤ dst.length) :
    glms_vec2_pack dst src len = some (src.take len ++ dst.drop len) := by
  unfold glms_vec2_pack; rw [copyLoop_some _ _ _ _ _ (by omega) (by omega)]
  have : (glm_vec2_copy : V2 α → V2 α) = id := rfl
  simp [this]
theorem C61_vec2_pack_overrun (dst src : List (V2 α)) (len : Nat) (h : src.length < len ∨ dst.length < len) :
    glms_vec2_pack dst src len = none := copyLoop_none _ _ _ _ _ (by omega) (by omega) (by omega)

/-- `glms_vec2_unpack` copies the first `len` vectors and leaves the others. -/
theorem C61_vec2_unpack (dst src : List (V2 α)) (len : Nat) (h : len ≤ src.length) (h' : len ≤ dst.length) :
    glms_vec2_unpack dst src len = some (src.take len ++ dst.drop len) := by
  unfold glms_vec2_unpack; rw [copyLoop_some _ _ _ _ _ (by omega) (by omega)]
  have : (glm_vec2_copy : V2 α → V2 α) = id := rfl
  simp [this]
theorem C61_vec2_unpack_overrun (dst src : List (V2 α)) (len : Nat) (h : src.length < len ∨ dst.length < len) :
    glms_vec2_unpack dst src len = none := copyLoop_none _ _ _ _ _ (by omega) (by omega) (by omega)

/-- `glms_vec3_pack` copies the first `len` vectors and leaves the others. -/
theorem C61_vec3_pack (dst src : List (V3 α)) (len : Nat) (h : len ≤ src.length) (h' : len ≤ dst.length) :
    glms_vec3_pack dst src len = some (src.take len ++ dst.drop len) := by
  unfold glms_vec3_pack; rw [copyLoop_some _ _ _ _ _ (by omega) (by omega)]
  have : (glm_vec3_copy : V3 α → V3 α) = id := rfl
  simp [this]
theorem C61_vec3_pack_overrun (dst src : List (V3 α)) (len : Nat) (h : src.length < len ∨ dst.length < len) :
    glms_vec3_pack dst src len = none := copyLoop_none _ _ _ _ _ (by omega) (by omega) (by omega)

/-- `glms_vec3_unpack` copies the first `len` vectors and leaves the others. -/
theorem C61_vec3_unpack (dst src : List (V3 α)) (len : Nat) (h : len ≤ src.length) (h' : len ≤ dst.length) :
    glms_vec3_unpack dst src len = some (src.take len ++ dst.drop len) := by
  unfold glms_vec3_unpack; rw [copyLoop_some _ _ _ _ _ (by omega) (by omega)]
  have : (glm_vec3_copy : V3 α → V3 α) = id := rfl
  simp [this]
theorem C61_vec3_unpack_overrun (dst src : List (V3 α)) (len : Nat) (h : src.length < len ∨ dst.length < len) :
    glms_vec3_unpack dst src len = none := copyLoop_none _ _ _ _ _ (by omega) (by omega) (by omega)

/-- `glms_vec4_pack` copies the first `len` vectors and leaves the others. -/
theorem C61_vec4_pack (dst src : List (V4 α)) (len : Nat) (h : len ≤ src.length) (h' : len ≤ dst.length) :
    glms_vec4_pack dst src len = some (src.take len ++ dst.drop len) := by
  unfold glms_vec4_pack; rw [copyLoop_some _ _ _ _ _ (by omega) (by omega)]
  have : (glm_vec4_copy : V4 α → V4 α) = id := rfl
  simp [this]
theorem C61_vec4_pack_overrun (dst src : List (V4 α)) (len : Nat) (h : src.length < len ∨ dst.length < len) :
    glms_vec4_pack dst src len = none := copyLoop_none _ _ _ _ _ (by omega) (by omega) (by omega)

/-- `glms_vec4_unpack` copies the first `len` vectors and leaves the others. -/
theorem C61_vec4_unpack (dst src : List (V4 α)) (len : Nat) (h : len ≤ src.length) (h' : len ≤ dst.length) :
    glms_vec4_unpack dst src len = some (src.take len ++ dst.drop len) := by
  unfold glms_vec4_unpack; rw [copyLoop_some _ _ _ _ _ (by omega) (by omega)]
  have : (glm_vec4_copy : V4 α → V4 α) = id := rfl
  simp [this]
theorem C61_vec4_unpack_overrun (dst src : List (V4 α)) (len : Nat) (h : src.length < len ∨ dst.length < len) :
    glms_vec4_unpack dst src len = none := copyLoop_none _ _ _ _ _ (by omega) (by omega) (by omega)

example : glms_vec2_pack [⟨0, 0⟩, ⟨5, 5⟩] [⟨(1 : ℝ), 2⟩, ⟨3, 4⟩] 1 = some [⟨1, 2⟩, ⟨5, 5⟩] := by
  rw [C61_vec2_pack _ _ _ (by simp) (by simp)]; rfl

/-- `glms_frustum_corners_at` packs eight vectors out of its four-vector local into the caller's four-vector
array: it reads and writes out of range on every call, whatever the arguments. -/
theorem C61_frustum_corners_at_refuted (raw corners : List (V4 α)) (s f : α) (planeCorners : List (V4 α)) :
    glms_frustum_corners_at raw corners s f planeCorners = none := by
  unfold glms_frustum_corners_at
  rcases glms_vec4_unpack raw corners 8 with _ | l
  · rfl
  · rcases h : M8x4.ofList? l with _ | m
    · simp [h]
    · simp only [Option.bind_eq_bind, Option.bind_some, h]
      exact C61_vec4_pack_overrun _ _ _ (Or.inl (by simp))

end

/-- `glms_mat4_mulN` multiplies any number of matrices, including none or one, left to right. -/
theorem C61_mat4_mulN (ms : List (M4 ℝ)) (len : ℕ) (hl : len ≤ ms.length) :
    ∃ r, glms_mat4_mulN ms len = some r ∧ r.mat = ((ms.take len).map M4.mat).prod := by
  have key : ∀ (fuel i : ℕ) (d : M4 ℝ), i + fuel ≤ ms.length →
      ∃ r, glms_mat4_mulN_loop ms i d fuel = some r ∧ r.mat = d.mat * (((ms.drop i).take fuel).map M4.mat).prod := by
    intro fuel
    induction fuel with
    | zero => intro i d _; exact ⟨d, rfl, by simp⟩
    | succ n ih =>
      intro i d h
      have hlt : i < ms.length := by omega
      obtain ⟨r, hr, hm⟩ := ih (i + 1) (glms_mat4_mul d ms[i]) (by omega)
      refine ⟨r, ?_, ?_⟩
      · simp only [glms_mat4_mulN_loop, List.getElem?_eq_getElem hlt]; exact hr
      · rw [hm, List.drop_eq_getElem_cons hlt, List.take_succ_cons, List.map_cons, List.prod_cons, ← mul_assoc]
        congr 1
        exact C01_mat4_mul d ms[i]
  obtain ⟨r, hr, hm⟩ := key len 0 _ (by omega)
  refine ⟨r, hr, ?_⟩
  rw [hm, List.drop_zero]
  refine (congrArg (· * _) ?_).trans (one_mul _)
  ext i j; fin_cases i <;> fin_cases j <;> simp [M4.mat, cglm]

/-- For two matrices or more it agrees with `glm_mat4_mulN`. -/
theorem C61_mat4_mulN_eq (ms : List (M4 ℝ)) (len : ℕ) (h2 : 2 ≤ len) (hl : len ≤ ms.length) :
    glms_mat4_mulN ms len = glm_mat4_mulN ms len := by
  obtain ⟨r, hr, hm⟩ := C61_mat4_mulN ms len hl
  obtain ⟨r', hr', hm'⟩ := C05_mulN ms len h2 hl
  rw [hr, hr', M4.mat_inj.1 (hm.trans hm'.symm)]

/-- With a positive region `glms_pickmatrix` does not depend on what its uninitialised local held. -/
theorem C61_pickmatrix_defined (c s : V2 ℝ) (vp : V4 ℝ) (r r' : M4 ℝ) (hx : 0 < s.x) (hy : 0 < s.y) :
    glms_pickmatrix c s vp r = glms_pickmatrix c s vp r' := by
  unfold glms_pickmatrix glm_pickmatrix
  simp [fle_real, lit_zero, not_le.2 hx, not_le.2 hy]
example : (0 : ℝ) < (⟨1, 2⟩ : V2 ℝ).x ∧ (0 : ℝ) < (⟨1, 2⟩ : V2 ℝ).y := by norm_num

/-- With an empty region (zero or negative width or height) it returns the indeterminate content of that local. -/
theorem C61_pickmatrix_indeterminate (c s : V2 ℝ) (vp : V4 ℝ) (r : M4 ℝ) (h : s.x ≤ 0 ∨ s.y ≤ 0) :
    glms_pickmatrix c s vp r = r := by
  unfold glms_pickmatrix glm_pickmatrix
  rcases h with h | h <;> simp [fle_real, lit_zero, h]
example : (⟨0, 2⟩ : V2 ℝ).x ≤ 0 ∨ (⟨0, 2⟩ : V2 ℝ).y ≤ 0 := by norm_num

/-- For the six euler orders (the values of `glm_euler_seq`) `glms_euler_by_order` does not depend on what its
uninitialised local held. -/
theorem C61_euler_by_order_defined (a : V3 ℝ) (o : Int) (r r' : M4 ℝ) (ho : o ∈ ([36, 24, 33, 9, 18, 6] : List Int)) :
    glms_euler_by_order a o r = glms_euler_by_order a o r' := by
  unfold glms_euler_by_order glm_euler_by_order
  simp only [List.mem_cons, List.not_mem_nil, or_false] at ho
  rcases ho with rfl | rfl | rfl | rfl | rfl | rfl <;> rfl

/-- For any other value the rotation block is that indeterminate content. -/
theorem C61_euler_by_order_indeterminate (a : V3 ℝ) (o : Int) (r : M4 ℝ) (ho : o ∉ ([36, 24, 33, 9, 18, 6] : List Int)) :
    (glms_euler_by_order a o r).block = r.block := by
  simp only [List.mem_cons, List.not_mem_nil, or_false, not_or] at ho
  exact C16_by_order_other a r o ho
example : (7 : Int) ∉ ([36, 24, 33, 9, 18, 6] : List Int) := by decide

end Cglm
