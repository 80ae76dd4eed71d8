import Verif.F32Map
import Verif.Gen
/-!
# C64: no overflow for arguments up to 2⁶⁰

If every argument component is finite and of magnitude at most 2⁶⁰, nothing overflows: the result
has neither NaN nor infinite components, so the bounds of `Props/C64*.lean` apply.
Written by `tools/errthms.py`.
-/
open Cglm F32
namespace Cglm
variable [Libm]

theorem C64_vec2_dot_finite (a : V2 F32) (b : V2 F32)
    (ha : a.Below (2 ^ 60)) (hb : b.Below (2 ^ 60)) :
    (glm_vec2_dot a b).isFin = true := by
  obtain ⟨ha0, ha1⟩ := ha
  obtain ⟨hb0, hb1⟩ := hb
  simp only [cglm]
  (apply Fine.isFin; fine <;> norm_num [ur, ηr])

theorem C64_vec2_norm2_finite (v : V2 F32)
    (hv : v.Below (2 ^ 60)) :
    (glm_vec2_norm2 v).isFin = true := by
  obtain ⟨hv0, hv1⟩ := hv
  simp only [cglm]
  (apply Fine.isFin; fine <;> norm_num [ur, ηr])

theorem C64_vec2_muladd_finite (a : V2 F32) (b : V2 F32) (c : V2 F32)
    (ha : a.Below (2 ^ 60)) (hb : b.Below (2 ^ 60)) (hc : c.Below (2 ^ 60)) :
    (glm_vec2_muladd a b c).IsFin := by
  obtain ⟨ha0, ha1⟩ := ha
  obtain ⟨hb0, hb1⟩ := hb
  obtain ⟨hc0, hc1⟩ := hc
  simp only [cglm, V2.IsFin]
  refine ⟨?_, ?_⟩ <;> (apply Fine.isFin; fine <;> norm_num [ur, ηr])

theorem C64_vec2_muladds_finite (a : V2 F32) (s : F32) (c : V2 F32)
    (ha : a.Below (2 ^ 60)) (hs : Fine s (2 ^ 60)) (hc : c.Below (2 ^ 60)) :
    (glm_vec2_muladds a s c).IsFin := by
  obtain ⟨ha0, ha1⟩ := ha
  obtain ⟨hc0, hc1⟩ := hc
  simp only [cglm, V2.IsFin]
  refine ⟨?_, ?_⟩ <;> (apply Fine.isFin; fine <;> norm_num [ur, ηr])

theorem C64_vec2_mulsub_finite (a : V2 F32) (b : V2 F32) (c : V2 F32)
    (ha : a.Below (2 ^ 60)) (hb : b.Below (2 ^ 60)) (hc : c.Below (2 ^ 60)) :
    (glm_vec2_mulsub a b c).IsFin := by
  obtain ⟨ha0, ha1⟩ := ha
  obtain ⟨hb0, hb1⟩ := hb
  obtain ⟨hc0, hc1⟩ := hc
  simp only [cglm, V2.IsFin]
  refine ⟨?_, ?_⟩ <;> (apply Fine.isFin; fine <;> norm_num [ur, ηr])

theorem C64_vec2_mulsubs_finite (a : V2 F32) (s : F32) (c : V2 F32)
    (ha : a.Below (2 ^ 60)) (hs : Fine s (2 ^ 60)) (hc : c.Below (2 ^ 60)) :
    (glm_vec2_mulsubs a s c).IsFin := by
  obtain ⟨ha0, ha1⟩ := ha
  obtain ⟨hc0, hc1⟩ := hc
  simp only [cglm, V2.IsFin]
  refine ⟨?_, ?_⟩ <;> (apply Fine.isFin; fine <;> norm_num [ur, ηr])

theorem C64_vec2_addadd_finite (a : V2 F32) (b : V2 F32) (c : V2 F32)
    (ha : a.Below (2 ^ 60)) (hb : b.Below (2 ^ 60)) (hc : c.Below (2 ^ 60)) :
    (glm_vec2_addadd a b c).IsFin := by
  obtain ⟨ha0, ha1⟩ := ha
  obtain ⟨hb0, hb1⟩ := hb
  obtain ⟨hc0, hc1⟩ := hc
  simp only [cglm, V2.IsFin]
  refine ⟨?_, ?_⟩ <;> (apply Fine.isFin; fine <;> norm_num [ur, ηr])

theorem C64_vec2_subadd_finite (a : V2 F32) (b : V2 F32) (c : V2 F32)
    (ha : a.Below (2 ^ 60)) (hb : b.Below (2 ^ 60)) (hc : c.Below (2 ^ 60)) :
    (glm_vec2_subadd a b c).IsFin := by
  obtain ⟨ha0, ha1⟩ := ha
  obtain ⟨hb0, hb1⟩ := hb
  obtain ⟨hc0, hc1⟩ := hc
  simp only [cglm, V2.IsFin]
  refine ⟨?_, ?_⟩ <;> (apply Fine.isFin; fine <;> norm_num [ur, ηr])

theorem C64_vec2_addsub_finite (a : V2 F32) (b : V2 F32) (c : V2 F32)
    (ha : a.Below (2 ^ 60)) (hb : b.Below (2 ^ 60)) (hc : c.Below (2 ^ 60)) :
    (glm_vec2_addsub a b c).IsFin := by
  obtain ⟨ha0, ha1⟩ := ha
  obtain ⟨hb0, hb1⟩ := hb
  obtain ⟨hc0, hc1⟩ := hc
  simp only [cglm, V2.IsFin]
  refine ⟨?_, ?_⟩ <;> (apply Fine.isFin; fine <;> norm_num [ur, ηr])

theorem C64_vec2_subsub_finite (a : V2 F32) (b : V2 F32) (c : V2 F32)
    (ha : a.Below (2 ^ 60)) (hb : b.Below (2 ^ 60)) (hc : c.Below (2 ^ 60)) :
    (glm_vec2_subsub a b c).IsFin := by
  obtain ⟨ha0, ha1⟩ := ha
  obtain ⟨hb0, hb1⟩ := hb
  obtain ⟨hc0, hc1⟩ := hc
  simp only [cglm, V2.IsFin]
  refine ⟨?_, ?_⟩ <;> (apply Fine.isFin; fine <;> norm_num [ur, ηr])

theorem C64_vec2_distance2_finite (a : V2 F32) (b : V2 F32)
    (ha : a.Below (2 ^ 60)) (hb : b.Below (2 ^ 60)) :
    (glm_vec2_distance2 a b).isFin = true := by
  obtain ⟨ha0, ha1⟩ := ha
  obtain ⟨hb0, hb1⟩ := hb
  simp only [cglm]
  (apply Fine.isFin; fine <;> norm_num [ur, ηr])

theorem C64_mat2_mulv_finite (m : M2 F32) (v : V2 F32)
    (hm : m.Below (2 ^ 60)) (hv : v.Below (2 ^ 60)) :
    (glm_mat2_mulv m v).IsFin := by
  obtain ⟨⟨hm00, hm01⟩, ⟨hm10, hm11⟩⟩ := hm
  obtain ⟨hv0, hv1⟩ := hv
  simp only [cglm, V2.IsFin]
  refine ⟨?_, ?_⟩ <;> (apply Fine.isFin; fine <;> norm_num [ur, ηr])

theorem C64_mat2_mul_finite (a : M2 F32) (b : M2 F32)
    (ha : a.Below (2 ^ 60)) (hb : b.Below (2 ^ 60)) :
    (glm_mat2_mul a b).IsFin := by
  obtain ⟨⟨ha00, ha01⟩, ⟨ha10, ha11⟩⟩ := ha
  obtain ⟨⟨hb00, hb01⟩, ⟨hb10, hb11⟩⟩ := hb
  simp only [cglm, M2.IsFin, V2.IsFin]
  refine ⟨⟨?_, ?_⟩, ⟨?_, ?_⟩⟩ <;> (apply Fine.isFin; fine <;> norm_num [ur, ηr])

theorem C64_mat2_trace_finite (m : M2 F32)
    (hm : m.Below (2 ^ 60)) :
    (glm_mat2_trace m).isFin = true := by
  obtain ⟨⟨hm00, hm01⟩, ⟨hm10, hm11⟩⟩ := hm
  simp only [cglm]
  (apply Fine.isFin; fine <;> norm_num [ur, ηr])

theorem C64_vec3_dot_finite (a : V3 F32) (b : V3 F32)
    (ha : a.Below (2 ^ 60)) (hb : b.Below (2 ^ 60)) :
    (glm_vec3_dot a b).isFin = true := by
  obtain ⟨ha0, ha1, ha2⟩ := ha
  obtain ⟨hb0, hb1, hb2⟩ := hb
  simp only [cglm]
  (apply Fine.isFin; fine <;> norm_num [ur, ηr])

theorem C64_vec3_norm2_finite (v : V3 F32)
    (hv : v.Below (2 ^ 60)) :
    (glm_vec3_norm2 v).isFin = true := by
  obtain ⟨hv0, hv1, hv2⟩ := hv
  simp only [cglm]
  (apply Fine.isFin; fine <;> norm_num [ur, ηr])

theorem C64_vec3_muladd_finite (a : V3 F32) (b : V3 F32) (c : V3 F32)
    (ha : a.Below (2 ^ 60)) (hb : b.Below (2 ^ 60)) (hc : c.Below (2 ^ 60)) :
    (glm_vec3_muladd a b c).IsFin := by
  obtain ⟨ha0, ha1, ha2⟩ := ha
  obtain ⟨hb0, hb1, hb2⟩ := hb
  obtain ⟨hc0, hc1, hc2⟩ := hc
  simp only [cglm, V3.IsFin]
  refine ⟨?_, ?_, ?_⟩ <;> (apply Fine.isFin; fine <;> norm_num [ur, ηr])

theorem C64_vec3_muladds_finite (a : V3 F32) (s : F32) (c : V3 F32)
    (ha : a.Below (2 ^ 60)) (hs : Fine s (2 ^ 60)) (hc : c.Below (2 ^ 60)) :
    (glm_vec3_muladds a s c).IsFin := by
  obtain ⟨ha0, ha1, ha2⟩ := ha
  obtain ⟨hc0, hc1, hc2⟩ := hc
  simp only [cglm, V3.IsFin]
  refine ⟨?_, ?_, ?_⟩ <;> (apply Fine.isFin; fine <;> norm_num [ur, ηr])

theorem C64_vec3_mulsub_finite (a : V3 F32) (b : V3 F32) (c : V3 F32)
    (ha : a.Below (2 ^ 60)) (hb : b.Below (2 ^ 60)) (hc : c.Below (2 ^ 60)) :
    (glm_vec3_mulsub a b c).IsFin := by
  obtain ⟨ha0, ha1, ha2⟩ := ha
  obtain ⟨hb0, hb1, hb2⟩ := hb
  obtain ⟨hc0, hc1, hc2⟩ := hc
  simp only [cglm, V3.IsFin]
  refine ⟨?_, ?_, ?_⟩ <;> (apply Fine.isFin; fine <;> norm_num [ur, ηr])

theorem C64_vec3_mulsubs_finite (a : V3 F32) (s : F32) (c : V3 F32)
    (ha : a.Below (2 ^ 60)) (hs : Fine s (2 ^ 60)) (hc : c.Below (2 ^ 60)) :
    (glm_vec3_mulsubs a s c).IsFin := by
  obtain ⟨ha0, ha1, ha2⟩ := ha
  obtain ⟨hc0, hc1, hc2⟩ := hc
  simp only [cglm, V3.IsFin]
  refine ⟨?_, ?_, ?_⟩ <;> (apply Fine.isFin; fine <;> norm_num [ur, ηr])

theorem C64_vec3_addadd_finite (a : V3 F32) (b : V3 F32) (c : V3 F32)
    (ha : a.Below (2 ^ 60)) (hb : b.Below (2 ^ 60)) (hc : c.Below (2 ^ 60)) :
    (glm_vec3_addadd a b c).IsFin := by
  obtain ⟨ha0, ha1, ha2⟩ := ha
  obtain ⟨hb0, hb1, hb2⟩ := hb
  obtain ⟨hc0, hc1, hc2⟩ := hc
  simp only [cglm, V3.IsFin]
  refine ⟨?_, ?_, ?_⟩ <;> (apply Fine.isFin; fine <;> norm_num [ur, ηr])

theorem C64_vec3_subadd_finite (a : V3 F32) (b : V3 F32) (c : V3 F32)
    (ha : a.Below (2 ^ 60)) (hb : b.Below (2 ^ 60)) (hc : c.Below (2 ^ 60)) :
    (glm_vec3_subadd a b c).IsFin := by
  obtain ⟨ha0, ha1, ha2⟩ := ha
  obtain ⟨hb0, hb1, hb2⟩ := hb
  obtain ⟨hc0, hc1, hc2⟩ := hc
  simp only [cglm, V3.IsFin]
  refine ⟨?_, ?_, ?_⟩ <;> (apply Fine.isFin; fine <;> norm_num [ur, ηr])

theorem C64_vec3_addsub_finite (a : V3 F32) (b : V3 F32) (c : V3 F32)
    (ha : a.Below (2 ^ 60)) (hb : b.Below (2 ^ 60)) (hc : c.Below (2 ^ 60)) :
    (glm_vec3_addsub a b c).IsFin := by
  obtain ⟨ha0, ha1, ha2⟩ := ha
  obtain ⟨hb0, hb1, hb2⟩ := hb
  obtain ⟨hc0, hc1, hc2⟩ := hc
  simp only [cglm, V3.IsFin]
  refine ⟨?_, ?_, ?_⟩ <;> (apply Fine.isFin; fine <;> norm_num [ur, ηr])

theorem C64_vec3_subsub_finite (a : V3 F32) (b : V3 F32) (c : V3 F32)
    (ha : a.Below (2 ^ 60)) (hb : b.Below (2 ^ 60)) (hc : c.Below (2 ^ 60)) :
    (glm_vec3_subsub a b c).IsFin := by
  obtain ⟨ha0, ha1, ha2⟩ := ha
  obtain ⟨hb0, hb1, hb2⟩ := hb
  obtain ⟨hc0, hc1, hc2⟩ := hc
  simp only [cglm, V3.IsFin]
  refine ⟨?_, ?_, ?_⟩ <;> (apply Fine.isFin; fine <;> norm_num [ur, ηr])

theorem C64_vec3_distance2_finite (a : V3 F32) (b : V3 F32)
    (ha : a.Below (2 ^ 60)) (hb : b.Below (2 ^ 60)) :
    (glm_vec3_distance2 a b).isFin = true := by
  obtain ⟨ha0, ha1, ha2⟩ := ha
  obtain ⟨hb0, hb1, hb2⟩ := hb
  simp only [cglm]
  (apply Fine.isFin; fine <;> norm_num [ur, ηr])

theorem C64_mat3_mulv_finite (m : M3 F32) (v : V3 F32)
    (hm : m.Below (2 ^ 60)) (hv : v.Below (2 ^ 60)) :
    (glm_mat3_mulv m v).IsFin := by
  obtain ⟨⟨hm00, hm01, hm02⟩, ⟨hm10, hm11, hm12⟩, ⟨hm20, hm21, hm22⟩⟩ := hm
  obtain ⟨hv0, hv1, hv2⟩ := hv
  simp only [cglm, V3.IsFin]
  refine ⟨?_, ?_, ?_⟩ <;> (apply Fine.isFin; fine <;> norm_num [ur, ηr])

theorem C64_mat3_mul_finite (a : M3 F32) (b : M3 F32)
    (ha : a.Below (2 ^ 60)) (hb : b.Below (2 ^ 60)) :
    (glm_mat3_mul a b).IsFin := by
  obtain ⟨⟨ha00, ha01, ha02⟩, ⟨ha10, ha11, ha12⟩, ⟨ha20, ha21, ha22⟩⟩ := ha
  obtain ⟨⟨hb00, hb01, hb02⟩, ⟨hb10, hb11, hb12⟩, ⟨hb20, hb21, hb22⟩⟩ := hb
  simp only [cglm, M3.IsFin, V3.IsFin]
  refine ⟨⟨?_, ?_, ?_⟩, ⟨?_, ?_, ?_⟩, ⟨?_, ?_, ?_⟩⟩ <;> (apply Fine.isFin; fine <;> norm_num [ur, ηr])

theorem C64_mat3_trace_finite (m : M3 F32)
    (hm : m.Below (2 ^ 60)) :
    (glm_mat3_trace m).isFin = true := by
  obtain ⟨⟨hm00, hm01, hm02⟩, ⟨hm10, hm11, hm12⟩, ⟨hm20, hm21, hm22⟩⟩ := hm
  simp only [cglm]
  (apply Fine.isFin; fine <;> norm_num [ur, ηr])

theorem C64_vec4_dot_finite (a : V4 F32) (b : V4 F32)
    (ha : a.Below (2 ^ 60)) (hb : b.Below (2 ^ 60)) :
    (glm_vec4_dot a b).isFin = true := by
  obtain ⟨ha0, ha1, ha2, ha3⟩ := ha
  obtain ⟨hb0, hb1, hb2, hb3⟩ := hb
  simp only [cglm]
  (apply Fine.isFin; fine <;> norm_num [ur, ηr])

theorem C64_vec4_norm2_finite (v : V4 F32)
    (hv : v.Below (2 ^ 60)) :
    (glm_vec4_norm2 v).isFin = true := by
  obtain ⟨hv0, hv1, hv2, hv3⟩ := hv
  simp only [cglm]
  (apply Fine.isFin; fine <;> norm_num [ur, ηr])

theorem C64_vec4_muladd_finite (a : V4 F32) (b : V4 F32) (c : V4 F32)
    (ha : a.Below (2 ^ 60)) (hb : b.Below (2 ^ 60)) (hc : c.Below (2 ^ 60)) :
    (glm_vec4_muladd a b c).IsFin := by
  obtain ⟨ha0, ha1, ha2, ha3⟩ := ha
  obtain ⟨hb0, hb1, hb2, hb3⟩ := hb
  obtain ⟨hc0, hc1, hc2, hc3⟩ := hc
  simp only [cglm, V4.IsFin]
  refine ⟨?_, ?_, ?_, ?_⟩ <;> (apply Fine.isFin; fine <;> norm_num [ur, ηr])

theorem C64_vec4_muladds_finite (a : V4 F32) (s : F32) (c : V4 F32)
    (ha : a.Below (2 ^ 60)) (hs : Fine s (2 ^ 60)) (hc : c.Below (2 ^ 60)) :
    (glm_vec4_muladds a s c).IsFin := by
  obtain ⟨ha0, ha1, ha2, ha3⟩ := ha
  obtain ⟨hc0, hc1, hc2, hc3⟩ := hc
  simp only [cglm, V4.IsFin]
  refine ⟨?_, ?_, ?_, ?_⟩ <;> (apply Fine.isFin; fine <;> norm_num [ur, ηr])

theorem C64_vec4_mulsub_finite (a : V4 F32) (b : V4 F32) (c : V4 F32)
    (ha : a.Below (2 ^ 60)) (hb : b.Below (2 ^ 60)) (hc : c.Below (2 ^ 60)) :
    (glm_vec4_mulsub a b c).IsFin := by
  obtain ⟨ha0, ha1, ha2, ha3⟩ := ha
  obtain ⟨hb0, hb1, hb2, hb3⟩ := hb
  obtain ⟨hc0, hc1, hc2, hc3⟩ := hc
  simp only [cglm, V4.IsFin]
  refine ⟨?_, ?_, ?_, ?_⟩ <;> (apply Fine.isFin; fine <;> norm_num [ur, ηr])

theorem C64_vec4_mulsubs_finite (a : V4 F32) (s : F32) (c : V4 F32)
    (ha : a.Below (2 ^ 60)) (hs : Fine s (2 ^ 60)) (hc : c.Below (2 ^ 60)) :
    (glm_vec4_mulsubs a s c).IsFin := by
  obtain ⟨ha0, ha1, ha2, ha3⟩ := ha
  obtain ⟨hc0, hc1, hc2, hc3⟩ := hc
  simp only [cglm, V4.IsFin]
  refine ⟨?_, ?_, ?_, ?_⟩ <;> (apply Fine.isFin; fine <;> norm_num [ur, ηr])

theorem C64_vec4_addadd_finite (a : V4 F32) (b : V4 F32) (c : V4 F32)
    (ha : a.Below (2 ^ 60)) (hb : b.Below (2 ^ 60)) (hc : c.Below (2 ^ 60)) :
    (glm_vec4_addadd a b c).IsFin := by
  obtain ⟨ha0, ha1, ha2, ha3⟩ := ha
  obtain ⟨hb0, hb1, hb2, hb3⟩ := hb
  obtain ⟨hc0, hc1, hc2, hc3⟩ := hc
  simp only [cglm, V4.IsFin]
  refine ⟨?_, ?_, ?_, ?_⟩ <;> (apply Fine.isFin; fine <;> norm_num [ur, ηr])

theorem C64_vec4_subadd_finite (a : V4 F32) (b : V4 F32) (c : V4 F32)
    (ha : a.Below (2 ^ 60)) (hb : b.Below (2 ^ 60)) (hc : c.Below (2 ^ 60)) :
    (glm_vec4_subadd a b c).IsFin := by
  obtain ⟨ha0, ha1, ha2, ha3⟩ := ha
  obtain ⟨hb0, hb1, hb2, hb3⟩ := hb
  obtain ⟨hc0, hc1, hc2, hc3⟩ := hc
  simp only [cglm, V4.IsFin]
  refine ⟨?_, ?_, ?_, ?_⟩ <;> (apply Fine.isFin; fine <;> norm_num [ur, ηr])

theorem C64_vec4_addsub_finite (a : V4 F32) (b : V4 F32) (c : V4 F32)
    (ha : a.Below (2 ^ 60)) (hb : b.Below (2 ^ 60)) (hc : c.Below (2 ^ 60)) :
    (glm_vec4_addsub a b c).IsFin := by
  obtain ⟨ha0, ha1, ha2, ha3⟩ := ha
  obtain ⟨hb0, hb1, hb2, hb3⟩ := hb
  obtain ⟨hc0, hc1, hc2, hc3⟩ := hc
  simp only [cglm, V4.IsFin]
  refine ⟨?_, ?_, ?_, ?_⟩ <;> (apply Fine.isFin; fine <;> norm_num [ur, ηr])

theorem C64_vec4_subsub_finite (a : V4 F32) (b : V4 F32) (c : V4 F32)
    (ha : a.Below (2 ^ 60)) (hb : b.Below (2 ^ 60)) (hc : c.Below (2 ^ 60)) :
    (glm_vec4_subsub a b c).IsFin := by
  obtain ⟨ha0, ha1, ha2, ha3⟩ := ha
  obtain ⟨hb0, hb1, hb2, hb3⟩ := hb
  obtain ⟨hc0, hc1, hc2, hc3⟩ := hc
  simp only [cglm, V4.IsFin]
  refine ⟨?_, ?_, ?_, ?_⟩ <;> (apply Fine.isFin; fine <;> norm_num [ur, ηr])

theorem C64_vec4_distance2_finite (a : V4 F32) (b : V4 F32)
    (ha : a.Below (2 ^ 60)) (hb : b.Below (2 ^ 60)) :
    (glm_vec4_distance2 a b).isFin = true := by
  obtain ⟨ha0, ha1, ha2, ha3⟩ := ha
  obtain ⟨hb0, hb1, hb2, hb3⟩ := hb
  simp only [cglm]
  (apply Fine.isFin; fine <;> norm_num [ur, ηr])

theorem C64_mat4_mulv_finite (m : M4 F32) (v : V4 F32)
    (hm : m.Below (2 ^ 60)) (hv : v.Below (2 ^ 60)) :
    (glm_mat4_mulv m v).IsFin := by
  obtain ⟨⟨hm00, hm01, hm02, hm03⟩, ⟨hm10, hm11, hm12, hm13⟩, ⟨hm20, hm21, hm22, hm23⟩, ⟨hm30, hm31, hm32, hm33⟩⟩ := hm
  obtain ⟨hv0, hv1, hv2, hv3⟩ := hv
  simp only [cglm, V4.IsFin]
  refine ⟨?_, ?_, ?_, ?_⟩ <;> (apply Fine.isFin; fine <;> norm_num [ur, ηr])

theorem C64_mat4_mul_finite (a : M4 F32) (b : M4 F32)
    (ha : a.Below (2 ^ 60)) (hb : b.Below (2 ^ 60)) :
    (glm_mat4_mul a b).IsFin := by
  obtain ⟨⟨ha00, ha01, ha02, ha03⟩, ⟨ha10, ha11, ha12, ha13⟩, ⟨ha20, ha21, ha22, ha23⟩, ⟨ha30, ha31, ha32, ha33⟩⟩ := ha
  obtain ⟨⟨hb00, hb01, hb02, hb03⟩, ⟨hb10, hb11, hb12, hb13⟩, ⟨hb20, hb21, hb22, hb23⟩, ⟨hb30, hb31, hb32, hb33⟩⟩ := hb
  simp only [cglm, M4.IsFin, V4.IsFin]
  refine ⟨⟨?_, ?_, ?_, ?_⟩, ⟨?_, ?_, ?_, ?_⟩, ⟨?_, ?_, ?_, ?_⟩, ⟨?_, ?_, ?_, ?_⟩⟩ <;> (apply Fine.isFin; fine <;> norm_num [ur, ηr])

theorem C64_mat4_trace_finite (m : M4 F32)
    (hm : m.Below (2 ^ 60)) :
    (glm_mat4_trace m).isFin = true := by
  obtain ⟨⟨hm00, hm01, hm02, hm03⟩, ⟨hm10, hm11, hm12, hm13⟩, ⟨hm20, hm21, hm22, hm23⟩, ⟨hm30, hm31, hm32, hm33⟩⟩ := hm
  simp only [cglm]
  (apply Fine.isFin; fine <;> norm_num [ur, ηr])

theorem C64_vec2_cross_finite (a : V2 F32) (b : V2 F32)
    (ha : a.Below (2 ^ 60)) (hb : b.Below (2 ^ 60)) :
    (glm_vec2_cross a b).isFin = true := by
  obtain ⟨ha0, ha1⟩ := ha
  obtain ⟨hb0, hb1⟩ := hb
  simp only [cglm]
  (apply Fine.isFin; fine <;> norm_num [ur, ηr])

theorem C64_vec3_cross_finite (a : V3 F32) (b : V3 F32)
    (ha : a.Below (2 ^ 60)) (hb : b.Below (2 ^ 60)) :
    (glm_vec3_cross a b).IsFin := by
  obtain ⟨ha0, ha1, ha2⟩ := ha
  obtain ⟨hb0, hb1, hb2⟩ := hb
  simp only [cglm, V3.IsFin]
  refine ⟨?_, ?_, ?_⟩ <;> (apply Fine.isFin; fine <;> norm_num [ur, ηr])

theorem C64_vec2_complex_mul_finite (a : V2 F32) (b : V2 F32)
    (ha : a.Below (2 ^ 60)) (hb : b.Below (2 ^ 60)) :
    (glm_vec2_complex_mul a b).IsFin := by
  obtain ⟨ha0, ha1⟩ := ha
  obtain ⟨hb0, hb1⟩ := hb
  simp only [cglm, V2.IsFin]
  refine ⟨?_, ?_⟩ <;> (apply Fine.isFin; fine <;> norm_num [ur, ηr])

theorem C64_quat_mul_finite (p : V4 F32) (q : V4 F32)
    (hp : p.Below (2 ^ 60)) (hq : q.Below (2 ^ 60)) :
    (glm_quat_mul p q).IsFin := by
  obtain ⟨hp0, hp1, hp2, hp3⟩ := hp
  obtain ⟨hq0, hq1, hq2, hq3⟩ := hq
  simp only [cglm, V4.IsFin]
  refine ⟨?_, ?_, ?_, ?_⟩ <;> (apply Fine.isFin; fine <;> norm_num [ur, ηr])

theorem C64_quat_dot_finite (p : V4 F32) (q : V4 F32)
    (hp : p.Below (2 ^ 60)) (hq : q.Below (2 ^ 60)) :
    (glm_quat_dot p q).isFin = true := by
  obtain ⟨hp0, hp1, hp2, hp3⟩ := hp
  obtain ⟨hq0, hq1, hq2, hq3⟩ := hq
  simp only [cglm]
  (apply Fine.isFin; fine <;> norm_num [ur, ηr])

theorem C64_mat2_det_finite (m : M2 F32)
    (hm : m.Below (2 ^ 60)) :
    (glm_mat2_det m).isFin = true := by
  obtain ⟨⟨hm00, hm01⟩, ⟨hm10, hm11⟩⟩ := hm
  simp only [cglm]
  (apply Fine.isFin; fine <;> norm_num [ur, ηr])

theorem C64_mat2x3_mulv_finite (m : M2x3 F32) (v : V2 F32)
    (hm : m.Below (2 ^ 60)) (hv : v.Below (2 ^ 60)) :
    (glm_mat2x3_mulv m v).IsFin := by
  obtain ⟨⟨hm00, hm01, hm02⟩, ⟨hm10, hm11, hm12⟩⟩ := hm
  obtain ⟨hv0, hv1⟩ := hv
  simp only [cglm, V3.IsFin]
  refine ⟨?_, ?_, ?_⟩ <;> (apply Fine.isFin; fine <;> norm_num [ur, ηr])

theorem C64_mat2x4_mulv_finite (m : M2x4 F32) (v : V2 F32)
    (hm : m.Below (2 ^ 60)) (hv : v.Below (2 ^ 60)) :
    (glm_mat2x4_mulv m v).IsFin := by
  obtain ⟨⟨hm00, hm01, hm02, hm03⟩, ⟨hm10, hm11, hm12, hm13⟩⟩ := hm
  obtain ⟨hv0, hv1⟩ := hv
  simp only [cglm, V4.IsFin]
  refine ⟨?_, ?_, ?_, ?_⟩ <;> (apply Fine.isFin; fine <;> norm_num [ur, ηr])

theorem C64_mat3x2_mulv_finite (m : M3x2 F32) (v : V3 F32)
    (hm : m.Below (2 ^ 60)) (hv : v.Below (2 ^ 60)) :
    (glm_mat3x2_mulv m v).IsFin := by
  obtain ⟨⟨hm00, hm01⟩, ⟨hm10, hm11⟩, ⟨hm20, hm21⟩⟩ := hm
  obtain ⟨hv0, hv1, hv2⟩ := hv
  simp only [cglm, V2.IsFin]
  refine ⟨?_, ?_⟩ <;> (apply Fine.isFin; fine <;> norm_num [ur, ηr])

theorem C64_mat3x4_mulv_finite (m : M3x4 F32) (v : V3 F32)
    (hm : m.Below (2 ^ 60)) (hv : v.Below (2 ^ 60)) :
    (glm_mat3x4_mulv m v).IsFin := by
  obtain ⟨⟨hm00, hm01, hm02, hm03⟩, ⟨hm10, hm11, hm12, hm13⟩, ⟨hm20, hm21, hm22, hm23⟩⟩ := hm
  obtain ⟨hv0, hv1, hv2⟩ := hv
  simp only [cglm, V4.IsFin]
  refine ⟨?_, ?_, ?_, ?_⟩ <;> (apply Fine.isFin; fine <;> norm_num [ur, ηr])

theorem C64_mat4x2_mulv_finite (m : M4x2 F32) (v : V4 F32)
    (hm : m.Below (2 ^ 60)) (hv : v.Below (2 ^ 60)) :
    (glm_mat4x2_mulv m v).IsFin := by
  obtain ⟨⟨hm00, hm01⟩, ⟨hm10, hm11⟩, ⟨hm20, hm21⟩, ⟨hm30, hm31⟩⟩ := hm
  obtain ⟨hv0, hv1, hv2, hv3⟩ := hv
  simp only [cglm, V2.IsFin]
  refine ⟨?_, ?_⟩ <;> (apply Fine.isFin; fine <;> norm_num [ur, ηr])

theorem C64_mat4x3_mulv_finite (m : M4x3 F32) (v : V4 F32)
    (hm : m.Below (2 ^ 60)) (hv : v.Below (2 ^ 60)) :
    (glm_mat4x3_mulv m v).IsFin := by
  obtain ⟨⟨hm00, hm01, hm02⟩, ⟨hm10, hm11, hm12⟩, ⟨hm20, hm21, hm22⟩, ⟨hm30, hm31, hm32⟩⟩ := hm
  obtain ⟨hv0, hv1, hv2, hv3⟩ := hv
  simp only [cglm, V3.IsFin]
  refine ⟨?_, ?_, ?_⟩ <;> (apply Fine.isFin; fine <;> norm_num [ur, ηr])

theorem C64_mat2x3_mul_finite (a : M2x3 F32) (b : M3x2 F32)
    (ha : a.Below (2 ^ 60)) (hb : b.Below (2 ^ 60)) :
    (glm_mat2x3_mul a b).IsFin := by
  obtain ⟨⟨ha00, ha01, ha02⟩, ⟨ha10, ha11, ha12⟩⟩ := ha
  obtain ⟨⟨hb00, hb01⟩, ⟨hb10, hb11⟩, ⟨hb20, hb21⟩⟩ := hb
  simp only [cglm, M3.IsFin, V3.IsFin]
  refine ⟨⟨?_, ?_, ?_⟩, ⟨?_, ?_, ?_⟩, ⟨?_, ?_, ?_⟩⟩ <;> (apply Fine.isFin; fine <;> norm_num [ur, ηr])

theorem C64_mat2x4_mul_finite (a : M2x4 F32) (b : M4x2 F32)
    (ha : a.Below (2 ^ 60)) (hb : b.Below (2 ^ 60)) :
    (glm_mat2x4_mul a b).IsFin := by
  obtain ⟨⟨ha00, ha01, ha02, ha03⟩, ⟨ha10, ha11, ha12, ha13⟩⟩ := ha
  obtain ⟨⟨hb00, hb01⟩, ⟨hb10, hb11⟩, ⟨hb20, hb21⟩, ⟨hb30, hb31⟩⟩ := hb
  simp only [cglm, M4.IsFin, V4.IsFin]
  refine ⟨⟨?_, ?_, ?_, ?_⟩, ⟨?_, ?_, ?_, ?_⟩, ⟨?_, ?_, ?_, ?_⟩, ⟨?_, ?_, ?_, ?_⟩⟩ <;> (apply Fine.isFin; fine <;> norm_num [ur, ηr])

theorem C64_mat3x2_mul_finite (a : M3x2 F32) (b : M2x3 F32)
    (ha : a.Below (2 ^ 60)) (hb : b.Below (2 ^ 60)) :
    (glm_mat3x2_mul a b).IsFin := by
  obtain ⟨⟨ha00, ha01⟩, ⟨ha10, ha11⟩, ⟨ha20, ha21⟩⟩ := ha
  obtain ⟨⟨hb00, hb01, hb02⟩, ⟨hb10, hb11, hb12⟩⟩ := hb
  simp only [cglm, M2.IsFin, V2.IsFin]
  refine ⟨⟨?_, ?_⟩, ⟨?_, ?_⟩⟩ <;> (apply Fine.isFin; fine <;> norm_num [ur, ηr])

theorem C64_mat3x4_mul_finite (a : M3x4 F32) (b : M4x3 F32)
    (ha : a.Below (2 ^ 60)) (hb : b.Below (2 ^ 60)) :
    (glm_mat3x4_mul a b).IsFin := by
  obtain ⟨⟨ha00, ha01, ha02, ha03⟩, ⟨ha10, ha11, ha12, ha13⟩, ⟨ha20, ha21, ha22, ha23⟩⟩ := ha
  obtain ⟨⟨hb00, hb01, hb02⟩, ⟨hb10, hb11, hb12⟩, ⟨hb20, hb21, hb22⟩, ⟨hb30, hb31, hb32⟩⟩ := hb
  simp only [cglm, M4.IsFin, V4.IsFin]
  refine ⟨⟨?_, ?_, ?_, ?_⟩, ⟨?_, ?_, ?_, ?_⟩, ⟨?_, ?_, ?_, ?_⟩, ⟨?_, ?_, ?_, ?_⟩⟩ <;> (apply Fine.isFin; fine <;> norm_num [ur, ηr])

theorem C64_mat4x2_mul_finite (a : M4x2 F32) (b : M2x4 F32)
    (ha : a.Below (2 ^ 60)) (hb : b.Below (2 ^ 60)) :
    (glm_mat4x2_mul a b).IsFin := by
  obtain ⟨⟨ha00, ha01⟩, ⟨ha10, ha11⟩, ⟨ha20, ha21⟩, ⟨ha30, ha31⟩⟩ := ha
  obtain ⟨⟨hb00, hb01, hb02, hb03⟩, ⟨hb10, hb11, hb12, hb13⟩⟩ := hb
  simp only [cglm, M2.IsFin, V2.IsFin]
  refine ⟨⟨?_, ?_⟩, ⟨?_, ?_⟩⟩ <;> (apply Fine.isFin; fine <;> norm_num [ur, ηr])

theorem C64_mat4x3_mul_finite (a : M4x3 F32) (b : M3x4 F32)
    (ha : a.Below (2 ^ 60)) (hb : b.Below (2 ^ 60)) :
    (glm_mat4x3_mul a b).IsFin := by
  obtain ⟨⟨ha00, ha01, ha02⟩, ⟨ha10, ha11, ha12⟩, ⟨ha20, ha21, ha22⟩, ⟨ha30, ha31, ha32⟩⟩ := ha
  obtain ⟨⟨hb00, hb01, hb02, hb03⟩, ⟨hb10, hb11, hb12, hb13⟩, ⟨hb20, hb21, hb22, hb23⟩⟩ := hb
  simp only [cglm, M3.IsFin, V3.IsFin]
  refine ⟨⟨?_, ?_, ?_⟩, ⟨?_, ?_, ?_⟩, ⟨?_, ?_, ?_⟩⟩ <;> (apply Fine.isFin; fine <;> norm_num [ur, ηr])

theorem C64_mat4_mulv3_finite (m : M4 F32) (v : V3 F32) (w : F32)
    (hm : m.Below (2 ^ 60)) (hv : v.Below (2 ^ 60)) (hw : Fine w (2 ^ 60)) :
    (glm_mat4_mulv3 m v w).IsFin := by
  obtain ⟨⟨hm00, hm01, hm02, hm03⟩, ⟨hm10, hm11, hm12, hm13⟩, ⟨hm20, hm21, hm22, hm23⟩, ⟨hm30, hm31, hm32, hm33⟩⟩ := hm
  obtain ⟨hv0, hv1, hv2⟩ := hv
  simp only [cglm, V3.IsFin]
  refine ⟨?_, ?_, ?_⟩ <;> (apply Fine.isFin; fine <;> norm_num [ur, ηr])

theorem C64_mul_finite (a : M4 F32) (b : M4 F32)
    (ha : a.Below (2 ^ 60)) (hb : b.Below (2 ^ 60)) :
    (glm_mul a b).IsFin := by
  obtain ⟨⟨ha00, ha01, ha02, ha03⟩, ⟨ha10, ha11, ha12, ha13⟩, ⟨ha20, ha21, ha22, ha23⟩, ⟨ha30, ha31, ha32, ha33⟩⟩ := ha
  obtain ⟨⟨hb00, hb01, hb02, hb03⟩, ⟨hb10, hb11, hb12, hb13⟩, ⟨hb20, hb21, hb22, hb23⟩, ⟨hb30, hb31, hb32, hb33⟩⟩ := hb
  simp only [cglm, M4.IsFin, V4.IsFin]
  refine ⟨⟨?_, ?_, ?_, ?_⟩, ⟨?_, ?_, ?_, ?_⟩, ⟨?_, ?_, ?_, ?_⟩, ⟨?_, ?_, ?_, ?_⟩⟩ <;> (apply Fine.isFin; fine <;> norm_num [ur, ηr])

theorem C64_mul_rot_finite (a : M4 F32) (b : M4 F32)
    (ha : a.Below (2 ^ 60)) (hb : b.Below (2 ^ 60)) :
    (glm_mul_rot a b).IsFin := by
  obtain ⟨⟨ha00, ha01, ha02, ha03⟩, ⟨ha10, ha11, ha12, ha13⟩, ⟨ha20, ha21, ha22, ha23⟩, ⟨ha30, ha31, ha32, ha33⟩⟩ := ha
  obtain ⟨⟨hb00, hb01, hb02, hb03⟩, ⟨hb10, hb11, hb12, hb13⟩, ⟨hb20, hb21, hb22, hb23⟩, ⟨hb30, hb31, hb32, hb33⟩⟩ := hb
  simp only [cglm, M4.IsFin, V4.IsFin]
  refine ⟨⟨?_, ?_, ?_, ?_⟩, ⟨?_, ?_, ?_, ?_⟩, ⟨?_, ?_, ?_, ?_⟩, ⟨?_, ?_, ?_, ?_⟩⟩ <;> (apply Fine.isFin; fine <;> norm_num [ur, ηr])

theorem C64_translate_finite (m : M4 F32) (v : V3 F32)
    (hm : m.Below (2 ^ 60)) (hv : v.Below (2 ^ 60)) :
    (glm_translate m v).IsFin := by
  obtain ⟨⟨hm00, hm01, hm02, hm03⟩, ⟨hm10, hm11, hm12, hm13⟩, ⟨hm20, hm21, hm22, hm23⟩, ⟨hm30, hm31, hm32, hm33⟩⟩ := hm
  obtain ⟨hv0, hv1, hv2⟩ := hv
  simp only [cglm, M4.IsFin, V4.IsFin]
  refine ⟨⟨?_, ?_, ?_, ?_⟩, ⟨?_, ?_, ?_, ?_⟩, ⟨?_, ?_, ?_, ?_⟩, ⟨?_, ?_, ?_, ?_⟩⟩ <;> (apply Fine.isFin; fine <;> norm_num [ur, ηr])

theorem C64_scale_to_finite (m : M4 F32) (v : V3 F32)
    (hm : m.Below (2 ^ 60)) (hv : v.Below (2 ^ 60)) :
    (glm_scale_to m v).IsFin := by
  obtain ⟨⟨hm00, hm01, hm02, hm03⟩, ⟨hm10, hm11, hm12, hm13⟩, ⟨hm20, hm21, hm22, hm23⟩, ⟨hm30, hm31, hm32, hm33⟩⟩ := hm
  obtain ⟨hv0, hv1, hv2⟩ := hv
  simp only [cglm, M4.IsFin, V4.IsFin]
  refine ⟨⟨?_, ?_, ?_, ?_⟩, ⟨?_, ?_, ?_, ?_⟩, ⟨?_, ?_, ?_, ?_⟩, ⟨?_, ?_, ?_, ?_⟩⟩ <;> (apply Fine.isFin; fine <;> norm_num [ur, ηr])

theorem C64_lerp_finite (a : F32) (b : F32) (t : F32)
    (ha : Fine a (2 ^ 60)) (hb : Fine b (2 ^ 60)) (ht : Fine t (2 ^ 60)) :
    (glm_lerp a b t).isFin = true := by
  simp only [cglm]
  (apply Fine.isFin; fine <;> norm_num [ur, ηr])

theorem C64_luminance_finite (v : V3 F32)
    (hv : v.Below (2 ^ 60)) :
    (glm_luminance v).isFin = true := by
  obtain ⟨hv0, hv1, hv2⟩ := hv
  simp only [cglm]
  (apply Fine.isFin; fine <;> norm_num [ur, ηr])

theorem C64_vec3_lerp_finite (a : V3 F32) (b : V3 F32) (t : F32)
    (ha : a.Below (2 ^ 60)) (hb : b.Below (2 ^ 60)) (ht : Fine t (2 ^ 60)) :
    (glm_vec3_lerp a b t).IsFin := by
  obtain ⟨ha0, ha1, ha2⟩ := ha
  obtain ⟨hb0, hb1, hb2⟩ := hb
  simp only [cglm, V3.IsFin]
  refine ⟨?_, ?_, ?_⟩ <;> (apply Fine.isFin; fine <;> norm_num [ur, ηr])

theorem C64_vec4_lerp_finite (a : V4 F32) (b : V4 F32) (t : F32)
    (ha : a.Below (2 ^ 60)) (hb : b.Below (2 ^ 60)) (ht : Fine t (2 ^ 60)) :
    (glm_vec4_lerp a b t).IsFin := by
  obtain ⟨ha0, ha1, ha2, ha3⟩ := ha
  obtain ⟨hb0, hb1, hb2, hb3⟩ := hb
  simp only [cglm, V4.IsFin]
  refine ⟨?_, ?_, ?_, ?_⟩ <;> (apply Fine.isFin; fine <;> norm_num [ur, ηr])

end Cglm
