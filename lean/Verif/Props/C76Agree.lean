import Verif.Props.C76Sse
import Verif.Props.C76Sse2
import Verif.Props.C76Sse3
import Verif.Props.C76Sse4
import Verif.Props.C76Avx
import Verif.Props.C76Fma
import Verif.Props.C76Neon64
import Verif.Props.C76Neon32
import Verif.Props.C76Wasm
import Verif.Props.C76Chain
/-!
# C76: on small integers every configuration computes the same numbers

The configurations add the products in different orders, and some fuse multiplication and addition; on the grids of C76
this makes no difference.
-/
open Cglm F32
namespace Cglm
variable [Libm]

theorem C76_agree_vec4_dot {i j : ℤ} {K L : ℕ} (a b : V4 F32)
    (ha : a.On i K) (hb : b.On j L) (h : 4 * (K * L) ≤ 2 ^ 24) (lo : -149 ≤ i + j) (hi : i + j ≤ 103) :
    (Sse.glm_vec4_dot a b).toReal = (Cglm.glm_vec4_dot a b).toReal ∧
    (Sse2.glm_vec4_dot a b).toReal = (Cglm.glm_vec4_dot a b).toReal ∧
    (Sse3.glm_vec4_dot a b).toReal = (Cglm.glm_vec4_dot a b).toReal ∧
    (Sse4.glm_vec4_dot a b).toReal = (Cglm.glm_vec4_dot a b).toReal ∧
    (Avx.glm_vec4_dot a b).toReal = (Cglm.glm_vec4_dot a b).toReal ∧
    (Fma.glm_vec4_dot a b).toReal = (Cglm.glm_vec4_dot a b).toReal ∧
    (Neon64.glm_vec4_dot a b).toReal = (Cglm.glm_vec4_dot a b).toReal ∧
    (Neon32.glm_vec4_dot a b).toReal = (Cglm.glm_vec4_dot a b).toReal ∧
    (Wasm.glm_vec4_dot a b).toReal = (Cglm.glm_vec4_dot a b).toReal := by
  have h₀ := (C76_vec4_dot a b ha hb h lo hi).2
  rw [h₀]
  exact ⟨(C76_Sse_vec4_dot a b ha hb h lo hi).2, (C76_Sse2_vec4_dot a b ha hb h lo hi).2, (C76_Sse3_vec4_dot a b ha hb h lo hi).2, (C76_Sse4_vec4_dot a b ha hb h lo hi).2, (C76_Avx_vec4_dot a b ha hb h lo hi).2, (C76_Fma_vec4_dot a b ha hb h lo hi).2, (C76_Neon64_vec4_dot a b ha hb h lo hi).2, (C76_Neon32_vec4_dot a b ha hb h lo hi).2, (C76_Wasm_vec4_dot a b ha hb h lo hi).2⟩

theorem C76_agree_mat4_mulv {i j : ℤ} {K L : ℕ} (m : M4 F32) (v : V4 F32)
    (hm : m.On i K) (hv : v.On j L) (h : 4 * (K * L) ≤ 2 ^ 24) (lo : -149 ≤ i + j) (hi : i + j ≤ 103) :
    (Sse.glm_mat4_mulv m v).map toReal = (Cglm.glm_mat4_mulv m v).map toReal ∧
    (Sse2.glm_mat4_mulv m v).map toReal = (Cglm.glm_mat4_mulv m v).map toReal ∧
    (Sse3.glm_mat4_mulv m v).map toReal = (Cglm.glm_mat4_mulv m v).map toReal ∧
    (Sse4.glm_mat4_mulv m v).map toReal = (Cglm.glm_mat4_mulv m v).map toReal ∧
    (Avx.glm_mat4_mulv m v).map toReal = (Cglm.glm_mat4_mulv m v).map toReal ∧
    (Fma.glm_mat4_mulv m v).map toReal = (Cglm.glm_mat4_mulv m v).map toReal ∧
    (Neon64.glm_mat4_mulv m v).map toReal = (Cglm.glm_mat4_mulv m v).map toReal ∧
    (Neon32.glm_mat4_mulv m v).map toReal = (Cglm.glm_mat4_mulv m v).map toReal ∧
    (Wasm.glm_mat4_mulv m v).map toReal = (Cglm.glm_mat4_mulv m v).map toReal := by
  have h₀ := (C76_mat4_mulv m v hm hv h lo hi).on.2
  rw [h₀]
  exact ⟨(C76_Sse_mat4_mulv m v hm hv h lo hi).on.2, (C76_Sse2_mat4_mulv m v hm hv h lo hi).on.2, (C76_Sse3_mat4_mulv m v hm hv h lo hi).on.2, (C76_Sse4_mat4_mulv m v hm hv h lo hi).on.2, (C76_Avx_mat4_mulv m v hm hv h lo hi).on.2, (C76_Fma_mat4_mulv m v hm hv h lo hi).on.2, (C76_Neon64_mat4_mulv m v hm hv h lo hi).on.2, (C76_Neon32_mat4_mulv m v hm hv h lo hi).on.2, (C76_Wasm_mat4_mulv m v hm hv h lo hi).on.2⟩

theorem C76_agree_mat4_mul {i j : ℤ} {K L : ℕ} (a b : M4 F32)
    (ha : a.On i K) (hb : b.On j L) (h : 4 * (K * L) ≤ 2 ^ 24) (lo : -149 ≤ i + j) (hi : i + j ≤ 103) :
    (Sse.glm_mat4_mul a b).map toReal = (Cglm.glm_mat4_mul a b).map toReal ∧
    (Sse2.glm_mat4_mul a b).map toReal = (Cglm.glm_mat4_mul a b).map toReal ∧
    (Sse3.glm_mat4_mul a b).map toReal = (Cglm.glm_mat4_mul a b).map toReal ∧
    (Sse4.glm_mat4_mul a b).map toReal = (Cglm.glm_mat4_mul a b).map toReal ∧
    (Avx.glm_mat4_mul a b).map toReal = (Cglm.glm_mat4_mul a b).map toReal ∧
    (Fma.glm_mat4_mul a b).map toReal = (Cglm.glm_mat4_mul a b).map toReal ∧
    (Neon64.glm_mat4_mul a b).map toReal = (Cglm.glm_mat4_mul a b).map toReal ∧
    (Neon32.glm_mat4_mul a b).map toReal = (Cglm.glm_mat4_mul a b).map toReal ∧
    (Wasm.glm_mat4_mul a b).map toReal = (Cglm.glm_mat4_mul a b).map toReal := by
  have h₀ := (C76_mat4_mul a b ha hb h lo hi).on.2
  rw [h₀]
  exact ⟨(C76_Sse_mat4_mul a b ha hb h lo hi).on.2, (C76_Sse2_mat4_mul a b ha hb h lo hi).on.2, (C76_Sse3_mat4_mul a b ha hb h lo hi).on.2, (C76_Sse4_mat4_mul a b ha hb h lo hi).on.2, (C76_Avx_mat4_mul a b ha hb h lo hi).on.2, (C76_Fma_mat4_mul a b ha hb h lo hi).on.2, (C76_Neon64_mat4_mul a b ha hb h lo hi).on.2, (C76_Neon32_mat4_mul a b ha hb h lo hi).on.2, (C76_Wasm_mat4_mul a b ha hb h lo hi).on.2⟩

theorem C76_agree_quat_mul {i j : ℤ} {K L : ℕ} (p q : V4 F32)
    (hp : p.On i K) (hq : q.On j L) (h : 4 * (K * L) ≤ 2 ^ 24) (lo : -149 ≤ i + j) (hi : i + j ≤ 103) :
    (Sse.glm_quat_mul p q).map toReal = (Cglm.glm_quat_mul p q).map toReal ∧
    (Sse2.glm_quat_mul p q).map toReal = (Cglm.glm_quat_mul p q).map toReal ∧
    (Sse3.glm_quat_mul p q).map toReal = (Cglm.glm_quat_mul p q).map toReal ∧
    (Sse4.glm_quat_mul p q).map toReal = (Cglm.glm_quat_mul p q).map toReal ∧
    (Avx.glm_quat_mul p q).map toReal = (Cglm.glm_quat_mul p q).map toReal ∧
    (Fma.glm_quat_mul p q).map toReal = (Cglm.glm_quat_mul p q).map toReal ∧
    (Neon64.glm_quat_mul p q).map toReal = (Cglm.glm_quat_mul p q).map toReal ∧
    (Neon32.glm_quat_mul p q).map toReal = (Cglm.glm_quat_mul p q).map toReal ∧
    (Wasm.glm_quat_mul p q).map toReal = (Cglm.glm_quat_mul p q).map toReal := by
  have h₀ := (C76_quat_mul p q hp hq h lo hi).on.2
  rw [h₀]
  exact ⟨(C76_Sse_quat_mul p q hp hq h lo hi).on.2, (C76_Sse2_quat_mul p q hp hq h lo hi).on.2, (C76_Sse3_quat_mul p q hp hq h lo hi).on.2, (C76_Sse4_quat_mul p q hp hq h lo hi).on.2, (C76_Avx_quat_mul p q hp hq h lo hi).on.2, (C76_Fma_quat_mul p q hp hq h lo hi).on.2, (C76_Neon64_quat_mul p q hp hq h lo hi).on.2, (C76_Neon32_quat_mul p q hp hq h lo hi).on.2, (C76_Wasm_quat_mul p q hp hq h lo hi).on.2⟩

theorem C76_agree_mat4_det (m : M4 F32)
    (hm : m.On 0 28) :
    (Sse.glm_mat4_det m).toReal = (Cglm.glm_mat4_det m).toReal ∧
    (Sse2.glm_mat4_det m).toReal = (Cglm.glm_mat4_det m).toReal ∧
    (Sse3.glm_mat4_det m).toReal = (Cglm.glm_mat4_det m).toReal ∧
    (Sse4.glm_mat4_det m).toReal = (Cglm.glm_mat4_det m).toReal ∧
    (Avx.glm_mat4_det m).toReal = (Cglm.glm_mat4_det m).toReal ∧
    (Fma.glm_mat4_det m).toReal = (Cglm.glm_mat4_det m).toReal ∧
    (Neon64.glm_mat4_det m).toReal = (Cglm.glm_mat4_det m).toReal ∧
    (Neon32.glm_mat4_det m).toReal = (Cglm.glm_mat4_det m).toReal ∧
    (Wasm.glm_mat4_det m).toReal = (Cglm.glm_mat4_det m).toReal := by
  have h₀ := (C76_mat4_det m hm (by norm_num) (by norm_num) (by norm_num) (by norm_num) (by norm_num) (by norm_num)).2
  rw [h₀]
  exact ⟨(C76_Sse_mat4_det m hm (by norm_num) (by norm_num) (by norm_num) (by norm_num) (by norm_num) (by norm_num)).2, (C76_Sse2_mat4_det m hm (by norm_num) (by norm_num) (by norm_num) (by norm_num) (by norm_num) (by norm_num)).2, (C76_Sse3_mat4_det m hm (by norm_num) (by norm_num) (by norm_num) (by norm_num) (by norm_num) (by norm_num)).2, (C76_Sse4_mat4_det m hm (by norm_num) (by norm_num) (by norm_num) (by norm_num) (by norm_num) (by norm_num)).2, (C76_Avx_mat4_det m hm (by norm_num) (by norm_num) (by norm_num) (by norm_num) (by norm_num) (by norm_num)).2, (C76_Fma_mat4_det m hm (by norm_num) (by norm_num) (by norm_num) (by norm_num) (by norm_num) (by norm_num)).2, (C76_Neon64_mat4_det m hm (by norm_num) (by norm_num) (by norm_num) (by norm_num) (by norm_num) (by norm_num)).2, (C76_Neon32_mat4_det m hm (by norm_num) (by norm_num) (by norm_num) (by norm_num) (by norm_num) (by norm_num)).2, (C76_Wasm_mat4_det m hm (by norm_num) (by norm_num) (by norm_num) (by norm_num) (by norm_num) (by norm_num)).2⟩

end Cglm
