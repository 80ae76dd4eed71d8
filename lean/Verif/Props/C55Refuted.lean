import Verif.Real
import Verif.Lemmas
import Verif.Props.C56Vecs
import Verif.Props.C56Mats
import Verif.Props.C56Quats
import Verif.Props.C56Geoms
import Verif.Props.C56Affines

/-!
# C55: functions whose destination must not be the argument

For the pairs (function, input) left out of the `C55` theorems: the exact result of the call with `dest` equal to the
input, and arguments for which it differs from the result with a separate destination.
-/

namespace Cglm
open CMem

section
variable {α : Type} [Add α] [Sub α] [Mul α] [Div α] [Neg α] [CFloat α]

/-- `glm_mat2_mulv(m, v, v)` computes the second component from the new first one -/
theorem C55_mat2_mulv_inplace (m : M2 α) (v : V2 α) :
    C.glm_mat2_mulv.run [⟨false, m.list.map .f⟩, ⟨true, v.list.map .f⟩] [.p 0 0, .p 1 0, .p 1 0] =
      some (none, [⟨false, m.list.map .f⟩, ⟨true, (V2.mk (m.c0.x * v.x + m.c1.x * v.y)
        (m.c0.y * (m.c0.x * v.x + m.c1.x * v.y) + m.c1.y * v.y)).list.map .f⟩]) := by kernel_rfl

/-- `glm_mat2_transpose_to(m, m)` copies the upper triangle onto the lower one -/
theorem C55_mat2_transpose_to_inplace (m : M2 α) :
    C.glm_mat2_transpose_to.run [⟨true, m.list.map .f⟩] [.p 0 0, .p 0 0] =
      some (none, [⟨true, (M2.mk ⟨m.c0.x, m.c1.x⟩ ⟨m.c1.x, m.c1.y⟩).list.map .f⟩]) := by kernel_rfl
/-- `glm_mat3_transpose_to(m, m)` copies the upper triangle onto the lower one -/
theorem C55_mat3_transpose_to_inplace (m : M3 α) :
    C.glm_mat3_transpose_to.run [⟨true, m.list.map .f⟩] [.p 0 0, .p 0 0] =
      some (none, [⟨true, (M3.mk ⟨m.c0.x, m.c1.x, m.c2.x⟩ ⟨m.c1.x, m.c1.y, m.c2.y⟩ ⟨m.c2.x, m.c2.y, m.c2.z⟩).list.map .f⟩]) := by kernel_rfl
/-- `glm_mat4_transpose_to(m, m)` makes the matrix symmetric -/
theorem C55_mat4_transpose_to_inplace (m : M4 α) :
    C.glm_mat4_transpose_to.run [⟨true, m.list.map .f⟩] [.p 0 0, .p 0 0] =
      some (none, [⟨true, (M4.mk ⟨m.c0.x, m.c0.y, m.c2.x, m.c3.x⟩ ⟨m.c0.y, m.c1.y, m.c2.y, m.c3.y⟩
        ⟨m.c2.x, m.c2.y, m.c2.z, m.c2.w⟩ ⟨m.c3.x, m.c3.y, m.c2.w, m.c3.w⟩).list.map .f⟩]) := by kernel_rfl

/-- `glm_quat_mul(p, q, p)`: each component is computed from the components already overwritten -/
theorem C55_quat_mul_p_inplace (p q : V4 α) :
    let x := p.w * q.x + p.x * q.w + p.y * q.z - p.z * q.y
    let y := p.w * q.y - x * q.z + p.y * q.w + p.z * q.x
    let z := p.w * q.z + x * q.y - y * q.x + p.z * q.w
    let w := p.w * q.w - x * q.x - y * q.y - z * q.z
    C.glm_quat_mul.run [⟨true, p.list.map .f⟩, ⟨false, q.list.map .f⟩] [.p 0 0, .p 1 0, .p 0 0] =
      some (none, [⟨true, (V4.mk x y z w).list.map .f⟩, ⟨false, q.list.map .f⟩]) := by intro x y z w; kernel_rfl
/-- `glm_quat_mul(p, q, q)` likewise -/
theorem C55_quat_mul_q_inplace (p q : V4 α) :
    let x := p.w * q.x + p.x * q.w + p.y * q.z - p.z * q.y
    let y := p.w * q.y - p.x * q.z + p.y * q.w + p.z * x
    let z := p.w * q.z + p.x * y - p.y * x + p.z * q.w
    let w := p.w * q.w - p.x * x - p.y * y - p.z * z
    C.glm_quat_mul.run [⟨false, p.list.map .f⟩, ⟨true, q.list.map .f⟩] [.p 0 0, .p 1 0, .p 1 0] =
      some (none, [⟨false, p.list.map .f⟩, ⟨true, (V4.mk x y z w).list.map .f⟩]) := by intro x y z w; kernel_rfl

/-- `glm_vec4_reflect(v, n, v)` reflects all four components; with a separate destination the fourth is copied -/
theorem C55_vec4_reflect_inplace (v n : V4 α) :
    C.glm_vec4_reflect.run [⟨true, v.list.map .f⟩, ⟨false, n.list.map .f⟩] [.p 0 0, .p 1 0, .p 0 0] =
      some (none, [⟨true, (glm_vec4_sub v (glm_vec4_scale n (lit 2 * glm_vec4_dot v n))).list.map .f⟩, ⟨false, n.list.map .f⟩]) := by
  kernel_rfl

/-- `glm_vec2_refract(v, n, eta, n)` loses the normal -/
theorem C55_vec2_refract_inplace (v n : V2 α) (eta : α) :
    let eni := eta * glm_vec2_dot n v
    let k := lit 1 - eta * eta + eni * eni
    let d := glm_vec2_scale v eta
    C.glm_vec2_refract.runT [⟨false, v.list.map .f⟩, ⟨true, n.list.map .f⟩] [.p 0 0, .p 1 0, .f eta, .p 1 0] =
      .br (flt k (lit 0)) (.done (some (some (.b false), [⟨false, v.list.map .f⟩, ⟨true, (glm_vec2_zero : V2 α).list.map .f⟩])))
        (.done (some (some (.b true), [⟨false, v.list.map .f⟩, ⟨true, (glm_vec2_mulsubs d (eni + sqrtf k) d).list.map .f⟩]))) := by
  intro eni k d; kernel_rfl
/-- `glm_vec3_refract(v, n, eta, n)` loses the normal -/
theorem C55_vec3_refract_inplace (v n : V3 α) (eta : α) :
    let eni := eta * glm_vec3_dot n v
    let k := lit 1 - eta * eta + eni * eni
    let d := glm_vec3_scale v eta
    C.glm_vec3_refract.runT [⟨false, v.list.map .f⟩, ⟨true, n.list.map .f⟩] [.p 0 0, .p 1 0, .f eta, .p 1 0] =
      .br (flt k (lit 0)) (.done (some (some (.b false), [⟨false, v.list.map .f⟩, ⟨true, (glm_vec3_zero : V3 α).list.map .f⟩])))
        (.done (some (some (.b true), [⟨false, v.list.map .f⟩, ⟨true, (glm_vec3_mulsubs d (eni + sqrtf k) d).list.map .f⟩]))) := by
  intro eni k d; kernel_rfl
/-- `glm_vec4_refract(v, n, eta, n)` loses the normal -/
theorem C55_vec4_refract_inplace (v n : V4 α) (eta : α) :
    let eni := eta * glm_vec4_dot n v
    let k := lit 1 - eta * eta + eni * eni
    let d := glm_vec4_scale v eta
    C.glm_vec4_refract.runT [⟨false, v.list.map .f⟩, ⟨true, n.list.map .f⟩] [.p 0 0, .p 1 0, .f eta, .p 1 0] =
      .br (flt k (lit 0)) (.done (some (some (.b false), [⟨false, v.list.map .f⟩, ⟨true, (glm_vec4_zero : V4 α).list.map .f⟩])))
        (.done (some (some (.b true), [⟨false, v.list.map .f⟩, ⟨true, (glm_vec4_mulsubs d (eni + sqrtf k) d).list.map .f⟩]))) := by
  intro eni k d; kernel_rfl

/-- `glm_aabb_crop_until(box, crop, clamp, clamp)` ignores the clamp box -/
theorem C55_aabb_crop_until_inplace (box crop clamp : M2x3 α) :
    C.glm_aabb_crop_until.run [⟨false, box.list.map .f⟩, ⟨false, crop.list.map .f⟩, ⟨true, clamp.list.map .f⟩] [.p 0 0, .p 1 0, .p 2 0, .p 2 0] =
      some (none, [⟨false, box.list.map .f⟩, ⟨false, crop.list.map .f⟩,
        ⟨true, (glm_aabb_merge (glm_aabb_crop box crop) (glm_aabb_crop box crop)).list.map .f⟩]) := by
  rw [← runT_val]; exact congrArg DT.val (a₂ := DT.done _) (by kernel_rfl)
/-- `glm_aabb2d_crop_until(box, crop, clamp, clamp)` ignores the clamp box -/
theorem C55_aabb2d_crop_until_inplace (box crop clamp : M2 α) :
    C.glm_aabb2d_crop_until.run [⟨false, box.list.map .f⟩, ⟨false, crop.list.map .f⟩, ⟨true, clamp.list.map .f⟩] [.p 0 0, .p 1 0, .p 2 0, .p 2 0] =
      some (none, [⟨false, box.list.map .f⟩, ⟨false, crop.list.map .f⟩,
        ⟨true, (glm_aabb2d_merge (glm_aabb2d_crop box crop) (glm_aabb2d_crop box crop)).list.map .f⟩]) := by
  rw [← runT_val]; exact congrArg DT.val (a₂ := DT.done _) (by kernel_rfl)
end

theorem map_f_inj {l l' : List ℝ} : l.map Val.f = l'.map Val.f ↔ l = l' :=
  (List.map_injective_iff.mpr fun _ _ h => by simpa using h).eq_iff

/-- multiplying a vector in place by a 2×2 matrix gives a wrong product -/
theorem C55_mat2_mulv_refuted : ∃ (m : M2 ℝ) (v : V2 ℝ),
    C.glm_mat2_mulv.run [⟨false, m.list.map .f⟩, ⟨true, v.list.map .f⟩] [.p 0 0, .p 1 0, .p 1 0] ≠
      some (none, [⟨false, m.list.map .f⟩, ⟨true, (glm_mat2_mulv m v).list.map .f⟩]) := by
  refine ⟨⟨⟨0, 1⟩, ⟨1, 0⟩⟩, ⟨2, 3⟩, ?_⟩
  rw [C55_mat2_mulv_inplace]
  simp only [ne_eq, Option.some.injEq, Prod.mk.injEq, List.cons.injEq, Block.mk.injEq, map_f_inj, V2.list, glm_mat2_mulv]
  norm_num

theorem C55_mat2_transpose_to_refuted : ∃ m : M2 ℝ,
    C.glm_mat2_transpose_to.run [⟨true, m.list.map .f⟩] [.p 0 0, .p 0 0] ≠ some (none, [⟨true, (glm_mat2_transpose_to m).list.map .f⟩]) := by
  refine ⟨⟨⟨1, 2⟩, ⟨3, 4⟩⟩, ?_⟩
  rw [C55_mat2_transpose_to_inplace]
  simp only [ne_eq, Option.some.injEq, Prod.mk.injEq, List.cons.injEq, Block.mk.injEq, map_f_inj, M2.list, V2.list, glm_mat2_transpose_to,
    List.cons_append, List.nil_append]
  norm_num

theorem C55_mat3_transpose_to_refuted : ∃ m : M3 ℝ,
    C.glm_mat3_transpose_to.run [⟨true, m.list.map .f⟩] [.p 0 0, .p 0 0] ≠ some (none, [⟨true, (glm_mat3_transpose_to m).list.map .f⟩]) := by
  refine ⟨⟨⟨1, 2, 3⟩, ⟨4, 5, 6⟩, ⟨7, 8, 9⟩⟩, ?_⟩
  rw [C55_mat3_transpose_to_inplace]
  simp only [ne_eq, Option.some.injEq, Prod.mk.injEq, List.cons.injEq, Block.mk.injEq, map_f_inj, M3.list, V3.list, glm_mat3_transpose_to,
    List.cons_append, List.nil_append]
  norm_num

theorem C55_mat4_transpose_to_refuted : ∃ m : M4 ℝ,
    C.glm_mat4_transpose_to.run [⟨true, m.list.map .f⟩] [.p 0 0, .p 0 0] ≠ some (none, [⟨true, (glm_mat4_transpose_to m).list.map .f⟩]) := by
  refine ⟨⟨⟨1, 2, 3, 4⟩, ⟨5, 6, 7, 8⟩, ⟨9, 10, 11, 12⟩, ⟨13, 14, 15, 16⟩⟩, ?_⟩
  rw [C55_mat4_transpose_to_inplace]
  simp only [ne_eq, Option.some.injEq, Prod.mk.injEq, List.cons.injEq, Block.mk.injEq, map_f_inj, M4.list, V4.list, glm_mat4_transpose_to,
    List.cons_append, List.nil_append]
  norm_num

/-- the product of quaternions overwriting its left factor is wrong -/
theorem C55_quat_mul_p_refuted : ∃ p q : V4 ℝ,
    C.glm_quat_mul.run [⟨true, p.list.map .f⟩, ⟨false, q.list.map .f⟩] [.p 0 0, .p 1 0, .p 0 0] ≠
      some (none, [⟨true, (glm_quat_mul p q).list.map .f⟩, ⟨false, q.list.map .f⟩]) := by
  refine ⟨⟨1, 0, 0, 1⟩, ⟨1, 0, 0, 1⟩, ?_⟩
  have h := C55_quat_mul_p_inplace (⟨1, 0, 0, 1⟩ : V4 ℝ) ⟨1, 0, 0, 1⟩
  dsimp only at h
  rw [h]
  simp only [ne_eq, Option.some.injEq, Prod.mk.injEq, List.cons.injEq, Block.mk.injEq, map_f_inj, V4.list, glm_quat_mul]
  norm_num

/-- the product of quaternions overwriting its right factor is wrong -/
theorem C55_quat_mul_q_refuted : ∃ p q : V4 ℝ,
    C.glm_quat_mul.run [⟨false, p.list.map .f⟩, ⟨true, q.list.map .f⟩] [.p 0 0, .p 1 0, .p 1 0] ≠
      some (none, [⟨false, p.list.map .f⟩, ⟨true, (glm_quat_mul p q).list.map .f⟩]) := by
  refine ⟨⟨0, 0, 1, 1⟩, ⟨1, 1, 0, 0⟩, ?_⟩
  have h := C55_quat_mul_q_inplace (⟨0, 0, 1, 1⟩ : V4 ℝ) ⟨1, 1, 0, 0⟩
  dsimp only at h
  rw [h]
  simp only [ne_eq, Option.some.injEq, Prod.mk.injEq, List.cons.injEq, Block.mk.injEq, map_f_inj, V4.list, glm_quat_mul]
  norm_num

theorem C55_vec4_reflect_refuted : ∃ v n : V4 ℝ,
    C.glm_vec4_reflect.run [⟨true, v.list.map .f⟩, ⟨false, n.list.map .f⟩] [.p 0 0, .p 1 0, .p 0 0] ≠
      some (none, [⟨true, (glm_vec4_reflect v n).list.map .f⟩, ⟨false, n.list.map .f⟩]) := by
  refine ⟨⟨0, 0, 0, 1⟩, ⟨0, 0, 0, 1⟩, ?_⟩
  rw [C55_vec4_reflect_inplace]
  simp only [ne_eq, Option.some.injEq, Prod.mk.injEq, List.cons.injEq, Block.mk.injEq, map_f_inj, V4.list, cglm]
  norm_num

theorem C55_vec2_refract_refuted : ∃ (v n : V2 ℝ) (eta : ℝ),
    C.glm_vec2_refract.run [⟨false, v.list.map .f⟩, ⟨true, n.list.map .f⟩] [.p 0 0, .p 1 0, .f eta, .p 1 0] ≠
      some (some (.b (glm_vec2_refract v n eta).1), [⟨false, v.list.map .f⟩, ⟨true, (glm_vec2_refract v n eta).2.list.map .f⟩]) := by
  refine ⟨⟨1, 0⟩, ⟨0, 1⟩, 0, ?_⟩
  have h := C55_vec2_refract_inplace (⟨1, 0⟩ : V2 ℝ) ⟨0, 1⟩ 0
  dsimp only at h
  rw [← runT_val, h]
  simp only [DT.val, V2.list, cglm, flt_real, lit_one, lit_zero]
  norm_num

theorem C55_vec3_refract_refuted : ∃ (v n : V3 ℝ) (eta : ℝ),
    C.glm_vec3_refract.run [⟨false, v.list.map .f⟩, ⟨true, n.list.map .f⟩] [.p 0 0, .p 1 0, .f eta, .p 1 0] ≠
      some (some (.b (glm_vec3_refract v n eta).1), [⟨false, v.list.map .f⟩, ⟨true, (glm_vec3_refract v n eta).2.list.map .f⟩]) := by
  refine ⟨⟨1, 0, 0⟩, ⟨0, 1, 0⟩, 0, ?_⟩
  have h := C55_vec3_refract_inplace (⟨1, 0, 0⟩ : V3 ℝ) ⟨0, 1, 0⟩ 0
  dsimp only at h
  rw [← runT_val, h]
  simp only [DT.val, V3.list, cglm, flt_real, lit_one, lit_zero]
  norm_num

theorem C55_vec4_refract_refuted : ∃ (v n : V4 ℝ) (eta : ℝ),
    C.glm_vec4_refract.run [⟨false, v.list.map .f⟩, ⟨true, n.list.map .f⟩] [.p 0 0, .p 1 0, .f eta, .p 1 0] ≠
      some (some (.b (glm_vec4_refract v n eta).1), [⟨false, v.list.map .f⟩, ⟨true, (glm_vec4_refract v n eta).2.list.map .f⟩]) := by
  refine ⟨⟨1, 0, 0, 0⟩, ⟨0, 1, 0, 0⟩, 0, ?_⟩
  have h := C55_vec4_refract_inplace (⟨1, 0, 0, 0⟩ : V4 ℝ) ⟨0, 1, 0, 0⟩ 0
  dsimp only at h
  rw [← runT_val, h]
  simp only [DT.val, V4.list, cglm, flt_real, lit_one, lit_zero]
  norm_num

/-- the clamp box is lost when it is also the destination -/
theorem C55_aabb_crop_until_refuted : ∃ box crop clamp : M2x3 ℝ,
    C.glm_aabb_crop_until.run [⟨false, box.list.map .f⟩, ⟨false, crop.list.map .f⟩, ⟨true, clamp.list.map .f⟩] [.p 0 0, .p 1 0, .p 2 0, .p 2 0] ≠
      some (none, [⟨false, box.list.map .f⟩, ⟨false, crop.list.map .f⟩, ⟨true, (glm_aabb_crop_until box crop clamp).list.map .f⟩]) := by
  refine ⟨⟨⟨0, 0, 0⟩, ⟨1, 1, 1⟩⟩, ⟨⟨0, 0, 0⟩, ⟨1, 1, 1⟩⟩, ⟨⟨-5, -5, -5⟩, ⟨5, 5, 5⟩⟩, ?_⟩
  rw [C55_aabb_crop_until_inplace]
  simp only [ne_eq, Option.some.injEq, Prod.mk.injEq, List.cons.injEq, Block.mk.injEq, map_f_inj, M2x3.list, V3.list, cglm,
    List.cons_append, List.nil_append]
  norm_num

theorem C55_aabb2d_crop_until_refuted : ∃ box crop clamp : M2 ℝ,
    C.glm_aabb2d_crop_until.run [⟨false, box.list.map .f⟩, ⟨false, crop.list.map .f⟩, ⟨true, clamp.list.map .f⟩] [.p 0 0, .p 1 0, .p 2 0, .p 2 0] ≠
      some (none, [⟨false, box.list.map .f⟩, ⟨false, crop.list.map .f⟩, ⟨true, (glm_aabb2d_crop_until box crop clamp).list.map .f⟩]) := by
  refine ⟨⟨⟨0, 0⟩, ⟨1, 1⟩⟩, ⟨⟨0, 0⟩, ⟨1, 1⟩⟩, ⟨⟨-5, -5⟩, ⟨5, 5⟩⟩, ?_⟩
  rw [C55_aabb2d_crop_until_inplace]
  simp only [ne_eq, Option.some.injEq, Prod.mk.injEq, List.cons.injEq, Block.mk.injEq, map_f_inj, M2.list, V2.list, cglm,
    List.cons_append, List.nil_append]
  norm_num

end Cglm
