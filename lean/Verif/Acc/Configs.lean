import Verif.Access
/-! Generated by tools/accgen.py from the headers and src; do not edit by hand. -/
set_option maxRecDepth 100000
namespace Cglm.Acc

/-- `glmm_abs` in Sse, Sse2, Sse3, Sse4, Avx, Fma, Neon64, Neon32, Wasm, SseU, Sse2U, Sse3U, Sse4U, AvxU, FmaU: include/cglm/simd/x86.h:109-113 -/
def v1_glmm_abs : Fn := ⟨[],
  []⟩
/-- `glmm_min` in Sse, Sse2, Sse3, Sse4, Avx, Fma, Neon64, Neon32, Wasm, SseU, Sse2U, Sse3U, Sse4U, AvxU, FmaU: include/cglm/simd/x86.h:115-115 -/
def v1_glmm_min : Fn := ⟨[],
  []⟩
/-- `glmm_max` in Sse, Sse2, Sse3, Sse4, Avx, Fma, Neon64, Neon32, Wasm, SseU, Sse2U, Sse3U, Sse4U, AvxU, FmaU: include/cglm/simd/x86.h:116-116 -/
def v1_glmm_max : Fn := ⟨[],
  []⟩
/-- `glmm_vhadd` in Sse, Sse2, Sse3, Sse4, Avx, Fma, Neon64, Neon32, Wasm, SseU, Sse2U, Sse3U, Sse4U, AvxU, FmaU: include/cglm/simd/x86.h:118-125 -/
def v1_glmm_vhadd : Fn := ⟨[],
  []⟩
/-- `glmm_vhadds` in Sse, Sse2, Sse3, Sse4, Avx, Fma, Wasm, SseU, Sse2U, Sse3U, Sse4U, AvxU, FmaU: include/cglm/simd/x86.h:127-145 -/
def v1_glmm_vhadds : Fn := ⟨[],
  []⟩
/-- `glmm_hadd` in Sse, Sse2, Sse3, Sse4, Avx, Fma, Wasm, SseU, Sse2U, Sse3U, Sse4U, AvxU, FmaU: include/cglm/simd/x86.h:147-151 -/
def v1_glmm_hadd : Fn := ⟨[],
  [.call 2266 []]⟩
/-- `glmm_hadd` in Neon64, Neon32: include/cglm/simd/arm.h:90-100 -/
def v2_glmm_hadd : Fn := ⟨[],
  []⟩
/-- `glmm_vhmin` in Sse, Sse2, Sse3, Sse4, Avx, Fma, Wasm, SseU, Sse2U, Sse3U, Sse4U, AvxU, FmaU: include/cglm/simd/x86.h:153-161 -/
def v1_glmm_vhmin : Fn := ⟨[],
  []⟩
/-- `glmm_hmin` in Sse, Sse2, Sse3, Sse4, Avx, Fma, Wasm, SseU, Sse2U, Sse3U, Sse4U, AvxU, FmaU: include/cglm/simd/x86.h:163-167 -/
def v1_glmm_hmin : Fn := ⟨[],
  [.call 2268 []]⟩
/-- `glmm_hmin` in Neon64, Neon32: include/cglm/simd/arm.h:102-109 -/
def v2_glmm_hmin : Fn := ⟨[],
  []⟩
/-- `glmm_vhmax` in Sse, Sse2, Sse3, Sse4, Avx, Fma, Wasm, SseU, Sse2U, Sse3U, Sse4U, AvxU, FmaU: include/cglm/simd/x86.h:169-177 -/
def v1_glmm_vhmax : Fn := ⟨[],
  []⟩
/-- `glmm_hmax` in Sse, Sse2, Sse3, Sse4, Avx, Fma, Wasm, SseU, Sse2U, Sse3U, Sse4U, AvxU, FmaU: include/cglm/simd/x86.h:179-183 -/
def v1_glmm_hmax : Fn := ⟨[],
  [.call 2270 []]⟩
/-- `glmm_hmax` in Neon64, Neon32: include/cglm/simd/arm.h:111-118 -/
def v2_glmm_hmax : Fn := ⟨[],
  []⟩
/-- `glmm_vdots` in Sse, Sse2, Avx, Fma, Wasm, SseU, Sse2U, AvxU, FmaU: include/cglm/simd/x86.h:185-198 -/
def v1_glmm_vdots : Fn := ⟨[],
  [.call 2266 []]⟩
/-- `glmm_vdots` in Sse3, Sse4, Sse3U, Sse4U: include/cglm/simd/x86.h:185-198 -/
def v2_glmm_vdots : Fn := ⟨[],
  []⟩
/-- `glmm_vdot` in Sse, Sse2, Sse3, Sse4, Avx, Fma, Wasm, SseU, Sse2U, Sse3U, Sse4U, AvxU, FmaU: include/cglm/simd/x86.h:200-216 -/
def v1_glmm_vdot : Fn := ⟨[],
  []⟩
/-- `glmm_vdot` in Neon64, Neon32: include/cglm/simd/arm.h:126-130 -/
def v2_glmm_vdot : Fn := ⟨[],
  [.call 2265 []]⟩
/-- `glmm_dot` in Sse, Sse2, Sse3, Sse4, Avx, Fma, Wasm, SseU, Sse2U, Sse3U, Sse4U, AvxU, FmaU: include/cglm/simd/x86.h:218-222 -/
def v1_glmm_dot : Fn := ⟨[],
  [.call 2272 []]⟩
/-- `glmm_dot` in Neon64, Neon32: include/cglm/simd/arm.h:120-124 -/
def v2_glmm_dot : Fn := ⟨[],
  [.call 2267 []]⟩
/-- `glmm_norm` in Sse, Sse2, Sse3, Sse4, Avx, Fma, Wasm, SseU, Sse2U, Sse3U, Sse4U, AvxU, FmaU: include/cglm/simd/x86.h:224-228 -/
def v1_glmm_norm : Fn := ⟨[],
  [.call 2266 []]⟩
/-- `glmm_norm` in Neon64, Neon32: include/cglm/simd/arm.h:132-136 -/
def v2_glmm_norm : Fn := ⟨[],
  [.call 2274 []]⟩
/-- `glmm_norm2` in Sse, Sse2, Sse3, Sse4, Avx, Fma, Wasm, SseU, Sse2U, Sse3U, Sse4U, AvxU, FmaU: include/cglm/simd/x86.h:230-234 -/
def v1_glmm_norm2 : Fn := ⟨[],
  [.call 2266 []]⟩
/-- `glmm_norm2` in Neon64, Neon32: include/cglm/simd/arm.h:138-142 -/
def v2_glmm_norm2 : Fn := ⟨[],
  [.call 2274 []]⟩
/-- `glmm_norm_one` in Sse, Sse2, Sse3, Sse4, Avx, Fma, Wasm, SseU, Sse2U, Sse3U, Sse4U, AvxU, FmaU: include/cglm/simd/x86.h:236-240 -/
def v1_glmm_norm_one : Fn := ⟨[],
  [.call 2262 [], .call 2266 []]⟩
/-- `glmm_norm_one` in Neon64, Neon32: include/cglm/simd/arm.h:144-148 -/
def v2_glmm_norm_one : Fn := ⟨[],
  [.call 2262 [], .call 2267 []]⟩
/-- `glmm_norm_inf` in Sse, Sse2, Sse3, Sse4, Avx, Fma, Wasm, SseU, Sse2U, Sse3U, Sse4U, AvxU, FmaU: include/cglm/simd/x86.h:242-246 -/
def v1_glmm_norm_inf : Fn := ⟨[],
  [.call 2262 [], .call 2270 []]⟩
/-- `glmm_norm_inf` in Neon64, Neon32: include/cglm/simd/arm.h:150-154 -/
def v2_glmm_norm_inf : Fn := ⟨[],
  [.call 2262 [], .call 2271 []]⟩
/-- `glmm_div` in Sse, Sse2, Sse3, Sse4, Avx, Fma, Neon64, Neon32, Wasm, SseU, Sse2U, Sse3U, Sse4U, AvxU, FmaU: include/cglm/simd/x86.h:269-273 -/
def v1_glmm_div : Fn := ⟨[],
  []⟩
/-- `glmm_fmadd` in Sse, Sse2, Sse3, Sse4, Avx, Fma, Neon64, Neon32, Wasm, SseU, Sse2U, Sse3U, Sse4U, AvxU, FmaU: include/cglm/simd/x86.h:280-288 -/
def v1_glmm_fmadd : Fn := ⟨[],
  []⟩
/-- `glmm_fnmadd` in Sse, Sse2, Sse3, Sse4, Avx, Fma, Neon64, Neon32, Wasm, SseU, Sse2U, Sse3U, Sse4U, AvxU, FmaU: include/cglm/simd/x86.h:290-298 -/
def v1_glmm_fnmadd : Fn := ⟨[],
  []⟩
/-- `glmm_fmsub` in Sse, Sse2, Sse3, Sse4, Avx, Fma, Wasm, SseU, Sse2U, Sse3U, Sse4U, AvxU, FmaU: include/cglm/simd/x86.h:300-308 -/
def v1_glmm_fmsub : Fn := ⟨[],
  []⟩
/-- `glmm_fmsub` in Neon64, Neon32: include/cglm/simd/arm.h:193-197 -/
def v2_glmm_fmsub : Fn := ⟨[],
  [.call 2280 []]⟩
/-- `glmm_fnmsub` in Sse, Sse2, Sse3, Sse4, Avx, Fma, Wasm, SseU, Sse2U, Sse3U, Sse4U, AvxU, FmaU: include/cglm/simd/x86.h:310-319 -/
def v1_glmm_fnmsub : Fn := ⟨[],
  []⟩
/-- `glmm_fnmsub` in Neon64, Neon32: include/cglm/simd/arm.h:199-203 -/
def v2_glmm_fnmsub : Fn := ⟨[],
  [.call 2280 []]⟩
/-- `glm_vec4_broadcast` in Sse, Sse2, Sse3, Sse4: include/cglm/vec4-ext.h:49-59 -/
def v1_glm_vec4_broadcast : Fn := ⟨[],
  [ac 0 0 16 16 true]⟩
/-- `glm_vec4_broadcast` in Avx, Fma: include/cglm/vec4-ext.h:49-59 -/
def v2_glm_vec4_broadcast : Fn := ⟨[⟨4, []⟩],
  [ac 0 0 16 16 true, rd 1 0]⟩
/-- `glm_vec4_broadcast` in Wasm, SseU, Sse2U, Sse3U, Sse4U: include/cglm/vec4-ext.h:49-59 -/
def v3_glm_vec4_broadcast : Fn := ⟨[],
  [ac 0 0 16 1 true]⟩
/-- `glm_vec4_broadcast` in AvxU, FmaU: include/cglm/vec4-ext.h:49-59 -/
def v4_glm_vec4_broadcast : Fn := ⟨[⟨4, []⟩],
  [ac 0 0 16 1 true, rd 1 0]⟩
/-- `glm_vec4_fill` in Sse, Sse2, Sse3, Sse4: include/cglm/vec4-ext.h:67-77 -/
def v1_glm_vec4_fill : Fn := ⟨[],
  [ac 0 0 16 16 true]⟩
/-- `glm_vec4_fill` in Avx, Fma: include/cglm/vec4-ext.h:67-77 -/
def v2_glm_vec4_fill : Fn := ⟨[⟨4, []⟩],
  [ac 0 0 16 16 true, rd 1 0]⟩
/-- `glm_vec4_fill` in Wasm, SseU, Sse2U, Sse3U, Sse4U: include/cglm/vec4-ext.h:67-77 -/
def v3_glm_vec4_fill : Fn := ⟨[],
  [ac 0 0 16 1 true]⟩
/-- `glm_vec4_fill` in AvxU, FmaU: include/cglm/vec4-ext.h:67-77 -/
def v4_glm_vec4_fill : Fn := ⟨[⟨4, []⟩],
  [ac 0 0 16 1 true, rd 1 0]⟩
/-- `glm_vec4_sign` in Sse, Sse2, Sse3, Sse4, Avx, Fma: include/cglm/vec4-ext.h:235-255 -/
def v1_glm_vec4_sign : Fn := ⟨[],
  [ac 0 0 16 16 false, ac 1 0 16 16 true]⟩
/-- `glm_vec4_sign` in SseU, Sse2U, Sse3U, Sse4U, AvxU, FmaU: include/cglm/vec4-ext.h:235-255 -/
def v2_glm_vec4_sign : Fn := ⟨[],
  [ac 0 0 16 1 false, ac 1 0 16 1 true]⟩
/-- `glm_vec4_abs` in Sse, Sse2, Sse3, Sse4, Avx, Fma: include/cglm/vec4-ext.h:263-278 -/
def v1_glm_vec4_abs : Fn := ⟨[],
  [ac 1 0 16 16 true, ac 0 0 16 16 false, .call 2262 []]⟩
/-- `glm_vec4_abs` in Neon64, Neon32: include/cglm/vec4-ext.h:263-278 -/
def v2_glm_vec4_abs : Fn := ⟨[],
  [ac 1 0 16 4 true, ac 0 0 16 4 false]⟩
/-- `glm_vec4_abs` in Wasm, SseU, Sse2U, Sse3U, Sse4U, AvxU, FmaU: include/cglm/vec4-ext.h:263-278 -/
def v3_glm_vec4_abs : Fn := ⟨[],
  [ac 1 0 16 1 true, ac 0 0 16 1 false, .call 2262 []]⟩
/-- `glm_vec4_hadd` in Sse, Sse2, Sse3, Sse4, Avx, Fma: include/cglm/vec4-ext.h:367-377 -/
def v1_glm_vec4_hadd : Fn := ⟨[],
  [ac 0 0 16 16 false, .call 2267 []]⟩
/-- `glm_vec4_hadd` in Wasm, SseU, Sse2U, Sse3U, Sse4U, AvxU, FmaU: include/cglm/vec4-ext.h:367-377 -/
def v2_glm_vec4_hadd : Fn := ⟨[],
  [ac 0 0 16 1 false, .call 2267 []]⟩
/-- `glm_vec4_sqrt` in Sse, Sse2, Sse3, Sse4, Avx, Fma: include/cglm/vec4-ext.h:385-398 -/
def v1_glm_vec4_sqrt : Fn := ⟨[],
  [ac 1 0 16 16 true, ac 0 0 16 16 false]⟩
/-- `glm_vec4_sqrt` in Wasm, SseU, Sse2U, Sse3U, Sse4U, AvxU, FmaU: include/cglm/vec4-ext.h:385-398 -/
def v2_glm_vec4_sqrt : Fn := ⟨[],
  [ac 1 0 16 1 true, ac 0 0 16 1 false]⟩
/-- `glm_vec4_copy` in Sse, Sse2, Sse3, Sse4, Avx, Fma: include/cglm/vec4.h:147-162 -/
def v1_glm_vec4_copy : Fn := ⟨[],
  [ac 1 0 16 16 true, ac 0 0 16 16 false]⟩
/-- `glm_vec4_copy` in Neon64, Neon32: include/cglm/vec4.h:147-162 -/
def v2_glm_vec4_copy : Fn := ⟨[],
  [ac 1 0 16 4 true, ac 0 0 16 4 false]⟩
/-- `glm_vec4_copy` in Wasm, SseU, Sse2U, Sse3U, Sse4U, AvxU, FmaU: include/cglm/vec4.h:147-162 -/
def v3_glm_vec4_copy : Fn := ⟨[],
  [ac 1 0 16 1 true, ac 0 0 16 1 false]⟩
/-- `glm_vec4_zero` in Sse, Sse2, Sse3, Sse4, Avx, Fma: include/cglm/vec4.h:191-206 -/
def v1_glm_vec4_zero : Fn := ⟨[],
  [ac 0 0 16 16 true]⟩
/-- `glm_vec4_zero` in Neon64, Neon32: include/cglm/vec4.h:191-206 -/
def v2_glm_vec4_zero : Fn := ⟨[],
  [ac 0 0 16 4 true]⟩
/-- `glm_vec4_zero` in Wasm, SseU, Sse2U, Sse3U, Sse4U, AvxU, FmaU: include/cglm/vec4.h:191-206 -/
def v3_glm_vec4_zero : Fn := ⟨[],
  [ac 0 0 16 1 true]⟩
/-- `glm_vec4_one` in Sse, Sse2, Sse3, Sse4, Avx, Fma: include/cglm/vec4.h:213-228 -/
def v1_glm_vec4_one : Fn := ⟨[],
  [ac 0 0 16 16 true]⟩
/-- `glm_vec4_one` in Neon64, Neon32: include/cglm/vec4.h:213-228 -/
def v2_glm_vec4_one : Fn := ⟨[],
  [ac 0 0 16 4 true]⟩
/-- `glm_vec4_one` in Wasm, SseU, Sse2U, Sse3U, Sse4U, AvxU, FmaU: include/cglm/vec4.h:213-228 -/
def v3_glm_vec4_one : Fn := ⟨[],
  [ac 0 0 16 1 true]⟩
/-- `glm_vec4_dot` in Sse, Sse2, Sse3, Sse4, Avx, Fma: include/cglm/vec4.h:238-246 -/
def v1_glm_vec4_dot : Fn := ⟨[],
  [ac 0 0 16 16 false, ac 1 0 16 16 false, .call 2274 []]⟩
/-- `glm_vec4_dot` in Neon64, Neon32: include/cglm/vec4.h:238-246 -/
def v2_glm_vec4_dot : Fn := ⟨[],
  [ac 0 0 16 4 false, ac 1 0 16 4 false, .call 2274 []]⟩
/-- `glm_vec4_dot` in Wasm, SseU, Sse2U, Sse3U, Sse4U, AvxU, FmaU: include/cglm/vec4.h:238-246 -/
def v3_glm_vec4_dot : Fn := ⟨[],
  [ac 0 0 16 1 false, ac 1 0 16 1 false, .call 2274 []]⟩
/-- `glm_vec4_norm` in Sse, Sse2, Sse3, Sse4, Avx, Fma: include/cglm/vec4.h:273-281 -/
def v1_glm_vec4_norm : Fn := ⟨[],
  [ac 0 0 16 16 false, .call 2275 []]⟩
/-- `glm_vec4_norm` in Neon64, Neon32: include/cglm/vec4.h:273-281 -/
def v2_glm_vec4_norm : Fn := ⟨[],
  [ac 0 0 16 4 false, .call 2275 []]⟩
/-- `glm_vec4_norm` in Wasm, SseU, Sse2U, Sse3U, Sse4U, AvxU, FmaU: include/cglm/vec4.h:273-281 -/
def v3_glm_vec4_norm : Fn := ⟨[],
  [ac 0 0 16 1 false, .call 2275 []]⟩
/-- `glm_vec4_norm_one` in Sse, Sse2, Sse3, Sse4, Avx, Fma: include/cglm/vec4.h:297-307 -/
def v1_glm_vec4_norm_one : Fn := ⟨[],
  [ac 0 0 16 16 false, .call 2277 []]⟩
/-- `glm_vec4_norm_one` in Neon64, Neon32: include/cglm/vec4.h:297-307 -/
def v2_glm_vec4_norm_one : Fn := ⟨[],
  [ac 0 0 16 4 false, .call 2277 []]⟩
/-- `glm_vec4_norm_one` in Wasm, SseU, Sse2U, Sse3U, Sse4U, AvxU, FmaU: include/cglm/vec4.h:297-307 -/
def v3_glm_vec4_norm_one : Fn := ⟨[],
  [ac 0 0 16 1 false, .call 2277 []]⟩
/-- `glm_vec4_norm_inf` in Sse, Sse2, Sse3, Sse4, Avx, Fma: include/cglm/vec4.h:322-332 -/
def v1_glm_vec4_norm_inf : Fn := ⟨[],
  [ac 0 0 16 16 false, .call 2278 []]⟩
/-- `glm_vec4_norm_inf` in Neon64, Neon32: include/cglm/vec4.h:322-332 -/
def v2_glm_vec4_norm_inf : Fn := ⟨[],
  [ac 0 0 16 4 false, .call 2278 []]⟩
/-- `glm_vec4_norm_inf` in Wasm, SseU, Sse2U, Sse3U, Sse4U, AvxU, FmaU: include/cglm/vec4.h:322-332 -/
def v3_glm_vec4_norm_inf : Fn := ⟨[],
  [ac 0 0 16 1 false, .call 2278 []]⟩
/-- `glm_vec4_add` in Sse, Sse2, Sse3, Sse4, Avx, Fma: include/cglm/vec4.h:341-356 -/
def v1_glm_vec4_add : Fn := ⟨[],
  [ac 2 0 16 16 true, ac 0 0 16 16 false, ac 1 0 16 16 false]⟩
/-- `glm_vec4_add` in Neon64, Neon32: include/cglm/vec4.h:341-356 -/
def v2_glm_vec4_add : Fn := ⟨[],
  [ac 2 0 16 4 true, ac 0 0 16 4 false, ac 1 0 16 4 false]⟩
/-- `glm_vec4_add` in Wasm, SseU, Sse2U, Sse3U, Sse4U, AvxU, FmaU: include/cglm/vec4.h:341-356 -/
def v3_glm_vec4_add : Fn := ⟨[],
  [ac 2 0 16 1 true, ac 0 0 16 1 false, ac 1 0 16 1 false]⟩
/-- `glm_vec4_adds` in Sse, Sse2, Sse3, Sse4: include/cglm/vec4.h:365-380 -/
def v1_glm_vec4_adds : Fn := ⟨[],
  [ac 1 0 16 16 true, ac 0 0 16 16 false]⟩
/-- `glm_vec4_adds` in Avx, Fma: include/cglm/vec4.h:365-380 -/
def v2_glm_vec4_adds : Fn := ⟨[⟨4, []⟩],
  [ac 1 0 16 16 true, ac 0 0 16 16 false, rd 2 0]⟩
/-- `glm_vec4_adds` in Neon64, Neon32: include/cglm/vec4.h:365-380 -/
def v3_glm_vec4_adds : Fn := ⟨[],
  [ac 1 0 16 4 true, ac 0 0 16 4 false]⟩
/-- `glm_vec4_adds` in Wasm, SseU, Sse2U, Sse3U, Sse4U: include/cglm/vec4.h:365-380 -/
def v4_glm_vec4_adds : Fn := ⟨[],
  [ac 1 0 16 1 true, ac 0 0 16 1 false]⟩
/-- `glm_vec4_adds` in AvxU, FmaU: include/cglm/vec4.h:365-380 -/
def v5_glm_vec4_adds : Fn := ⟨[⟨4, []⟩],
  [ac 1 0 16 1 true, ac 0 0 16 1 false, rd 2 0]⟩
/-- `glm_vec4_sub` in Sse, Sse2, Sse3, Sse4, Avx, Fma: include/cglm/vec4.h:389-404 -/
def v1_glm_vec4_sub : Fn := ⟨[],
  [ac 2 0 16 16 true, ac 0 0 16 16 false, ac 1 0 16 16 false]⟩
/-- `glm_vec4_sub` in Neon64, Neon32: include/cglm/vec4.h:389-404 -/
def v2_glm_vec4_sub : Fn := ⟨[],
  [ac 2 0 16 4 true, ac 0 0 16 4 false, ac 1 0 16 4 false]⟩
/-- `glm_vec4_sub` in Wasm, SseU, Sse2U, Sse3U, Sse4U, AvxU, FmaU: include/cglm/vec4.h:389-404 -/
def v3_glm_vec4_sub : Fn := ⟨[],
  [ac 2 0 16 1 true, ac 0 0 16 1 false, ac 1 0 16 1 false]⟩
/-- `glm_vec4_subs` in Sse, Sse2, Sse3, Sse4: include/cglm/vec4.h:413-428 -/
def v1_glm_vec4_subs : Fn := ⟨[],
  [ac 1 0 16 16 true, ac 0 0 16 16 false]⟩
/-- `glm_vec4_subs` in Avx, Fma: include/cglm/vec4.h:413-428 -/
def v2_glm_vec4_subs : Fn := ⟨[⟨4, []⟩],
  [ac 1 0 16 16 true, ac 0 0 16 16 false, rd 2 0]⟩
/-- `glm_vec4_subs` in Neon64, Neon32: include/cglm/vec4.h:413-428 -/
def v3_glm_vec4_subs : Fn := ⟨[],
  [ac 1 0 16 4 true, ac 0 0 16 4 false]⟩
/-- `glm_vec4_subs` in Wasm, SseU, Sse2U, Sse3U, Sse4U: include/cglm/vec4.h:413-428 -/
def v4_glm_vec4_subs : Fn := ⟨[],
  [ac 1 0 16 1 true, ac 0 0 16 1 false]⟩
/-- `glm_vec4_subs` in AvxU, FmaU: include/cglm/vec4.h:413-428 -/
def v5_glm_vec4_subs : Fn := ⟨[⟨4, []⟩],
  [ac 1 0 16 1 true, ac 0 0 16 1 false, rd 2 0]⟩
/-- `glm_vec4_mul` in Sse, Sse2, Sse3, Sse4, Avx, Fma: include/cglm/vec4.h:437-452 -/
def v1_glm_vec4_mul : Fn := ⟨[],
  [ac 2 0 16 16 true, ac 0 0 16 16 false, ac 1 0 16 16 false]⟩
/-- `glm_vec4_mul` in Neon64, Neon32: include/cglm/vec4.h:437-452 -/
def v2_glm_vec4_mul : Fn := ⟨[],
  [ac 2 0 16 4 true, ac 0 0 16 4 false, ac 1 0 16 4 false]⟩
/-- `glm_vec4_mul` in Wasm, SseU, Sse2U, Sse3U, Sse4U, AvxU, FmaU: include/cglm/vec4.h:437-452 -/
def v3_glm_vec4_mul : Fn := ⟨[],
  [ac 2 0 16 1 true, ac 0 0 16 1 false, ac 1 0 16 1 false]⟩
/-- `glm_vec4_scale` in Sse, Sse2, Sse3, Sse4: include/cglm/vec4.h:461-476 -/
def v1_glm_vec4_scale : Fn := ⟨[],
  [ac 1 0 16 16 true, ac 0 0 16 16 false]⟩
/-- `glm_vec4_scale` in Avx, Fma: include/cglm/vec4.h:461-476 -/
def v2_glm_vec4_scale : Fn := ⟨[⟨4, []⟩],
  [ac 1 0 16 16 true, ac 0 0 16 16 false, rd 2 0]⟩
/-- `glm_vec4_scale` in Neon64, Neon32: include/cglm/vec4.h:461-476 -/
def v3_glm_vec4_scale : Fn := ⟨[],
  [ac 1 0 16 4 true, ac 0 0 16 4 false]⟩
/-- `glm_vec4_scale` in Wasm, SseU, Sse2U, Sse3U, Sse4U: include/cglm/vec4.h:461-476 -/
def v4_glm_vec4_scale : Fn := ⟨[],
  [ac 1 0 16 1 true, ac 0 0 16 1 false]⟩
/-- `glm_vec4_scale` in AvxU, FmaU: include/cglm/vec4.h:461-476 -/
def v5_glm_vec4_scale : Fn := ⟨[⟨4, []⟩],
  [ac 1 0 16 1 true, ac 0 0 16 1 false, rd 2 0]⟩
/-- `glm_vec4_div` in Sse, Sse2, Sse3, Sse4, Avx, Fma: include/cglm/vec4.h:506-517 -/
def v1_glm_vec4_div : Fn := ⟨[],
  [ac 2 0 16 16 true, ac 0 0 16 16 false, ac 1 0 16 16 false, .call 2279 []]⟩
/-- `glm_vec4_div` in Neon64, Neon32: include/cglm/vec4.h:506-517 -/
def v2_glm_vec4_div : Fn := ⟨[],
  [ac 2 0 16 4 true, ac 0 0 16 4 false, ac 1 0 16 4 false, .call 2279 []]⟩
/-- `glm_vec4_div` in Wasm, SseU, Sse2U, Sse3U, Sse4U, AvxU, FmaU: include/cglm/vec4.h:506-517 -/
def v3_glm_vec4_div : Fn := ⟨[],
  [ac 2 0 16 1 true, ac 0 0 16 1 false, ac 1 0 16 1 false, .call 2279 []]⟩
/-- `glm_vec4_divs` in Sse, Sse2, Sse3, Sse4: include/cglm/vec4.h:526-534 -/
def v1_glm_vec4_divs : Fn := ⟨[],
  [ac 1 0 16 16 true, ac 0 0 16 16 false, .call 2279 []]⟩
/-- `glm_vec4_divs` in Avx, Fma: include/cglm/vec4.h:526-534 -/
def v2_glm_vec4_divs : Fn := ⟨[⟨4, []⟩],
  [ac 1 0 16 16 true, ac 0 0 16 16 false, rd 2 0, .call 2279 []]⟩
/-- `glm_vec4_divs` in Neon64, Neon32: include/cglm/vec4.h:526-534 -/
def v3_glm_vec4_divs : Fn := ⟨[],
  [ac 1 0 16 4 true, ac 0 0 16 4 false, .call 2279 []]⟩
/-- `glm_vec4_divs` in Wasm, SseU, Sse2U, Sse3U, Sse4U: include/cglm/vec4.h:526-534 -/
def v4_glm_vec4_divs : Fn := ⟨[],
  [ac 1 0 16 1 true, ac 0 0 16 1 false, .call 2279 []]⟩
/-- `glm_vec4_divs` in AvxU, FmaU: include/cglm/vec4.h:526-534 -/
def v5_glm_vec4_divs : Fn := ⟨[⟨4, []⟩],
  [ac 1 0 16 1 true, ac 0 0 16 1 false, rd 2 0, .call 2279 []]⟩
/-- `glm_vec4_addadd` in Sse, Sse2, Sse3, Sse4, Avx, Fma: include/cglm/vec4.h:545-566 -/
def v1_glm_vec4_addadd : Fn := ⟨[],
  [ac 2 0 16 16 true, ac 2 0 16 16 false, ac 0 0 16 16 false, ac 1 0 16 16 false]⟩
/-- `glm_vec4_addadd` in Neon64, Neon32: include/cglm/vec4.h:545-566 -/
def v2_glm_vec4_addadd : Fn := ⟨[],
  [ac 2 0 16 4 true, ac 2 0 16 4 false, ac 0 0 16 4 false, ac 1 0 16 4 false]⟩
/-- `glm_vec4_addadd` in Wasm, SseU, Sse2U, Sse3U, Sse4U, AvxU, FmaU: include/cglm/vec4.h:545-566 -/
def v3_glm_vec4_addadd : Fn := ⟨[],
  [ac 2 0 16 1 true, ac 2 0 16 1 false, ac 0 0 16 1 false, ac 1 0 16 1 false]⟩
/-- `glm_vec4_subadd` in Sse, Sse2, Sse3, Sse4, Avx, Fma: include/cglm/vec4.h:577-598 -/
def v1_glm_vec4_subadd : Fn := ⟨[],
  [ac 2 0 16 16 true, ac 2 0 16 16 false, ac 0 0 16 16 false, ac 1 0 16 16 false]⟩
/-- `glm_vec4_subadd` in Neon64, Neon32: include/cglm/vec4.h:577-598 -/
def v2_glm_vec4_subadd : Fn := ⟨[],
  [ac 2 0 16 4 true, ac 2 0 16 4 false, ac 0 0 16 4 false, ac 1 0 16 4 false]⟩
/-- `glm_vec4_subadd` in Wasm, SseU, Sse2U, Sse3U, Sse4U, AvxU, FmaU: include/cglm/vec4.h:577-598 -/
def v3_glm_vec4_subadd : Fn := ⟨[],
  [ac 2 0 16 1 true, ac 2 0 16 1 false, ac 0 0 16 1 false, ac 1 0 16 1 false]⟩
/-- `glm_vec4_muladd` in Sse, Sse2, Sse3, Sse4, Avx, Fma: include/cglm/vec4.h:609-620 -/
def v1_glm_vec4_muladd : Fn := ⟨[],
  [ac 2 0 16 16 true, ac 0 0 16 16 false, ac 1 0 16 16 false, ac 2 0 16 16 false, .call 2280 []]⟩
/-- `glm_vec4_muladd` in Neon64, Neon32: include/cglm/vec4.h:609-620 -/
def v2_glm_vec4_muladd : Fn := ⟨[],
  [ac 2 0 16 4 true, ac 0 0 16 4 false, ac 1 0 16 4 false, ac 2 0 16 4 false, .call 2280 []]⟩
/-- `glm_vec4_muladd` in Wasm, SseU, Sse2U, Sse3U, Sse4U, AvxU, FmaU: include/cglm/vec4.h:609-620 -/
def v3_glm_vec4_muladd : Fn := ⟨[],
  [ac 2 0 16 1 true, ac 0 0 16 1 false, ac 1 0 16 1 false, ac 2 0 16 1 false, .call 2280 []]⟩
/-- `glm_vec4_muladds` in Sse, Sse2, Sse3, Sse4: include/cglm/vec4.h:631-642 -/
def v1_glm_vec4_muladds : Fn := ⟨[],
  [ac 1 0 16 16 true, ac 0 0 16 16 false, ac 1 0 16 16 false, .call 2280 []]⟩
/-- `glm_vec4_muladds` in Avx, Fma: include/cglm/vec4.h:631-642 -/
def v2_glm_vec4_muladds : Fn := ⟨[⟨4, []⟩],
  [ac 1 0 16 16 true, ac 0 0 16 16 false, rd 2 0, ac 1 0 16 16 false, .call 2280 []]⟩
/-- `glm_vec4_muladds` in Neon64, Neon32: include/cglm/vec4.h:631-642 -/
def v3_glm_vec4_muladds : Fn := ⟨[],
  [ac 1 0 16 4 true, ac 0 0 16 4 false, ac 1 0 16 4 false, .call 2280 []]⟩
/-- `glm_vec4_muladds` in Wasm, SseU, Sse2U, Sse3U, Sse4U: include/cglm/vec4.h:631-642 -/
def v4_glm_vec4_muladds : Fn := ⟨[],
  [ac 1 0 16 1 true, ac 0 0 16 1 false, ac 1 0 16 1 false, .call 2280 []]⟩
/-- `glm_vec4_muladds` in AvxU, FmaU: include/cglm/vec4.h:631-642 -/
def v5_glm_vec4_muladds : Fn := ⟨[⟨4, []⟩],
  [ac 1 0 16 1 true, ac 0 0 16 1 false, rd 2 0, ac 1 0 16 1 false, .call 2280 []]⟩
/-- `glm_vec4_maxadd` in Sse, Sse2, Sse3, Sse4, Avx, Fma: include/cglm/vec4.h:653-671 -/
def v1_glm_vec4_maxadd : Fn := ⟨[],
  [ac 2 0 16 16 true, ac 2 0 16 16 false, ac 0 0 16 16 false, ac 1 0 16 16 false, .call 2264 []]⟩
/-- `glm_vec4_maxadd` in Neon64, Neon32: include/cglm/vec4.h:653-671 -/
def v2_glm_vec4_maxadd : Fn := ⟨[],
  [ac 2 0 16 4 true, ac 2 0 16 4 false, ac 0 0 16 4 false, ac 1 0 16 4 false, .call 2264 []]⟩
/-- `glm_vec4_maxadd` in Wasm, SseU, Sse2U, Sse3U, Sse4U, AvxU, FmaU: include/cglm/vec4.h:653-671 -/
def v3_glm_vec4_maxadd : Fn := ⟨[],
  [ac 2 0 16 1 true, ac 2 0 16 1 false, ac 0 0 16 1 false, ac 1 0 16 1 false, .call 2264 []]⟩
/-- `glm_vec4_minadd` in Sse, Sse2, Sse3, Sse4, Avx, Fma: include/cglm/vec4.h:682-700 -/
def v1_glm_vec4_minadd : Fn := ⟨[],
  [ac 2 0 16 16 true, ac 2 0 16 16 false, ac 0 0 16 16 false, ac 1 0 16 16 false, .call 2263 []]⟩
/-- `glm_vec4_minadd` in Neon64, Neon32: include/cglm/vec4.h:682-700 -/
def v2_glm_vec4_minadd : Fn := ⟨[],
  [ac 2 0 16 4 true, ac 2 0 16 4 false, ac 0 0 16 4 false, ac 1 0 16 4 false, .call 2263 []]⟩
/-- `glm_vec4_minadd` in Wasm, SseU, Sse2U, Sse3U, Sse4U, AvxU, FmaU: include/cglm/vec4.h:682-700 -/
def v3_glm_vec4_minadd : Fn := ⟨[],
  [ac 2 0 16 1 true, ac 2 0 16 1 false, ac 0 0 16 1 false, ac 1 0 16 1 false, .call 2263 []]⟩
/-- `glm_vec4_subsub` in Sse, Sse2, Sse3, Sse4, Avx, Fma: include/cglm/vec4.h:711-732 -/
def v1_glm_vec4_subsub : Fn := ⟨[],
  [ac 2 0 16 16 true, ac 2 0 16 16 false, ac 0 0 16 16 false, ac 1 0 16 16 false]⟩
/-- `glm_vec4_subsub` in Neon64, Neon32: include/cglm/vec4.h:711-732 -/
def v2_glm_vec4_subsub : Fn := ⟨[],
  [ac 2 0 16 4 true, ac 2 0 16 4 false, ac 0 0 16 4 false, ac 1 0 16 4 false]⟩
/-- `glm_vec4_subsub` in Wasm, SseU, Sse2U, Sse3U, Sse4U, AvxU, FmaU: include/cglm/vec4.h:711-732 -/
def v3_glm_vec4_subsub : Fn := ⟨[],
  [ac 2 0 16 1 true, ac 2 0 16 1 false, ac 0 0 16 1 false, ac 1 0 16 1 false]⟩
/-- `glm_vec4_addsub` in Sse, Sse2, Sse3, Sse4, Avx, Fma: include/cglm/vec4.h:743-764 -/
def v1_glm_vec4_addsub : Fn := ⟨[],
  [ac 2 0 16 16 true, ac 2 0 16 16 false, ac 0 0 16 16 false, ac 1 0 16 16 false]⟩
/-- `glm_vec4_addsub` in Neon64, Neon32: include/cglm/vec4.h:743-764 -/
def v2_glm_vec4_addsub : Fn := ⟨[],
  [ac 2 0 16 4 true, ac 2 0 16 4 false, ac 0 0 16 4 false, ac 1 0 16 4 false]⟩
/-- `glm_vec4_addsub` in Wasm, SseU, Sse2U, Sse3U, Sse4U, AvxU, FmaU: include/cglm/vec4.h:743-764 -/
def v3_glm_vec4_addsub : Fn := ⟨[],
  [ac 2 0 16 1 true, ac 2 0 16 1 false, ac 0 0 16 1 false, ac 1 0 16 1 false]⟩
/-- `glm_vec4_mulsub` in Sse, Sse2, Sse3, Sse4, Avx, Fma: include/cglm/vec4.h:775-786 -/
def v1_glm_vec4_mulsub : Fn := ⟨[],
  [ac 2 0 16 16 true, ac 0 0 16 16 false, ac 1 0 16 16 false, ac 2 0 16 16 false, .call 2281 []]⟩
/-- `glm_vec4_mulsub` in Neon64, Neon32: include/cglm/vec4.h:775-786 -/
def v2_glm_vec4_mulsub : Fn := ⟨[],
  [ac 2 0 16 4 true, ac 0 0 16 4 false, ac 1 0 16 4 false, ac 2 0 16 4 false, .call 2281 []]⟩
/-- `glm_vec4_mulsub` in Wasm, SseU, Sse2U, Sse3U, Sse4U, AvxU, FmaU: include/cglm/vec4.h:775-786 -/
def v3_glm_vec4_mulsub : Fn := ⟨[],
  [ac 2 0 16 1 true, ac 0 0 16 1 false, ac 1 0 16 1 false, ac 2 0 16 1 false, .call 2281 []]⟩
/-- `glm_vec4_mulsubs` in Sse, Sse2, Sse3, Sse4: include/cglm/vec4.h:797-808 -/
def v1_glm_vec4_mulsubs : Fn := ⟨[],
  [ac 1 0 16 16 true, ac 0 0 16 16 false, ac 1 0 16 16 false, .call 2281 []]⟩
/-- `glm_vec4_mulsubs` in Avx, Fma: include/cglm/vec4.h:797-808 -/
def v2_glm_vec4_mulsubs : Fn := ⟨[⟨4, []⟩],
  [ac 1 0 16 16 true, ac 0 0 16 16 false, rd 2 0, ac 1 0 16 16 false, .call 2281 []]⟩
/-- `glm_vec4_mulsubs` in Neon64, Neon32: include/cglm/vec4.h:797-808 -/
def v3_glm_vec4_mulsubs : Fn := ⟨[],
  [ac 1 0 16 4 true, ac 0 0 16 4 false, ac 1 0 16 4 false, .call 2281 []]⟩
/-- `glm_vec4_mulsubs` in Wasm, SseU, Sse2U, Sse3U, Sse4U: include/cglm/vec4.h:797-808 -/
def v4_glm_vec4_mulsubs : Fn := ⟨[],
  [ac 1 0 16 1 true, ac 0 0 16 1 false, ac 1 0 16 1 false, .call 2281 []]⟩
/-- `glm_vec4_mulsubs` in AvxU, FmaU: include/cglm/vec4.h:797-808 -/
def v5_glm_vec4_mulsubs : Fn := ⟨[⟨4, []⟩],
  [ac 1 0 16 1 true, ac 0 0 16 1 false, rd 2 0, ac 1 0 16 1 false, .call 2281 []]⟩
/-- `glm_vec4_maxsub` in Sse, Sse2, Sse3, Sse4, Avx, Fma: include/cglm/vec4.h:819-837 -/
def v1_glm_vec4_maxsub : Fn := ⟨[],
  [ac 2 0 16 16 true, ac 2 0 16 16 false, ac 0 0 16 16 false, ac 1 0 16 16 false, .call 2264 []]⟩
/-- `glm_vec4_maxsub` in Neon64, Neon32: include/cglm/vec4.h:819-837 -/
def v2_glm_vec4_maxsub : Fn := ⟨[],
  [ac 2 0 16 4 true, ac 2 0 16 4 false, ac 0 0 16 4 false, ac 1 0 16 4 false, .call 2264 []]⟩
/-- `glm_vec4_maxsub` in Wasm, SseU, Sse2U, Sse3U, Sse4U, AvxU, FmaU: include/cglm/vec4.h:819-837 -/
def v3_glm_vec4_maxsub : Fn := ⟨[],
  [ac 2 0 16 1 true, ac 2 0 16 1 false, ac 0 0 16 1 false, ac 1 0 16 1 false, .call 2264 []]⟩
/-- `glm_vec4_minsub` in Sse, Sse2, Sse3, Sse4, Avx, Fma: include/cglm/vec4.h:848-866 -/
def v1_glm_vec4_minsub : Fn := ⟨[],
  [ac 2 0 16 16 true, ac 2 0 16 16 false, ac 0 0 16 16 false, ac 1 0 16 16 false, .call 2263 []]⟩
/-- `glm_vec4_minsub` in Neon64, Neon32: include/cglm/vec4.h:848-866 -/
def v2_glm_vec4_minsub : Fn := ⟨[],
  [ac 2 0 16 4 true, ac 2 0 16 4 false, ac 0 0 16 4 false, ac 1 0 16 4 false, .call 2263 []]⟩
/-- `glm_vec4_minsub` in Wasm, SseU, Sse2U, Sse3U, Sse4U, AvxU, FmaU: include/cglm/vec4.h:848-866 -/
def v3_glm_vec4_minsub : Fn := ⟨[],
  [ac 2 0 16 1 true, ac 2 0 16 1 false, ac 0 0 16 1 false, ac 1 0 16 1 false, .call 2263 []]⟩
/-- `glm_vec4_negate_to` in Sse, Sse2, Sse3, Sse4, Avx, Fma: include/cglm/vec4.h:874-889 -/
def v1_glm_vec4_negate_to : Fn := ⟨[],
  [ac 1 0 16 16 true, ac 0 0 16 16 false]⟩
/-- `glm_vec4_negate_to` in Neon64, Neon32: include/cglm/vec4.h:874-889 -/
def v2_glm_vec4_negate_to : Fn := ⟨[],
  [ac 1 0 16 4 true, ac 0 0 16 4 false]⟩
/-- `glm_vec4_negate_to` in Wasm, SseU, Sse2U, Sse3U, Sse4U, AvxU, FmaU: include/cglm/vec4.h:874-889 -/
def v3_glm_vec4_negate_to : Fn := ⟨[],
  [ac 1 0 16 1 true, ac 0 0 16 1 false]⟩
/-- `glm_vec4_normalize_to` in Sse, Sse2, Sse3, Sse4, Avx, Fma: include/cglm/vec4.h:908-952 -/
def v1_glm_vec4_normalize_to : Fn := ⟨[],
  [ac 0 0 16 16 false, .call 2273 [], ac 1 0 16 16 true, .call 2279 []]⟩
/-- `glm_vec4_normalize_to` in Wasm, SseU, Sse2U, Sse3U, Sse4U, AvxU, FmaU: include/cglm/vec4.h:908-952 -/
def v2_glm_vec4_normalize_to : Fn := ⟨[],
  [ac 0 0 16 1 false, .call 2273 [], ac 1 0 16 1 true, .call 2279 []]⟩
/-- `glm_vec4_distance` in Sse, Sse2, Sse3, Sse4, Avx, Fma: include/cglm/vec4.h:972-987 -/
def v1_glm_vec4_distance : Fn := ⟨[],
  [ac 0 0 16 16 false, ac 1 0 16 16 false, .call 2275 []]⟩
/-- `glm_vec4_distance` in Neon64, Neon32: include/cglm/vec4.h:972-987 -/
def v2_glm_vec4_distance : Fn := ⟨[],
  [ac 0 0 16 4 false, ac 1 0 16 4 false, .call 2275 []]⟩
/-- `glm_vec4_distance` in Wasm, SseU, Sse2U, Sse3U, Sse4U, AvxU, FmaU: include/cglm/vec4.h:972-987 -/
def v3_glm_vec4_distance : Fn := ⟨[],
  [ac 0 0 16 1 false, ac 1 0 16 1 false, .call 2275 []]⟩
/-- `glm_vec4_distance2` in Sse, Sse2, Sse3, Sse4, Avx, Fma: include/cglm/vec4.h:996-1011 -/
def v1_glm_vec4_distance2 : Fn := ⟨[],
  [ac 0 0 16 16 false, ac 1 0 16 16 false, .call 2276 []]⟩
/-- `glm_vec4_distance2` in Neon64, Neon32: include/cglm/vec4.h:996-1011 -/
def v2_glm_vec4_distance2 : Fn := ⟨[],
  [ac 0 0 16 4 false, ac 1 0 16 4 false, .call 2276 []]⟩
/-- `glm_vec4_distance2` in Wasm, SseU, Sse2U, Sse3U, Sse4U, AvxU, FmaU: include/cglm/vec4.h:996-1011 -/
def v3_glm_vec4_distance2 : Fn := ⟨[],
  [ac 0 0 16 1 false, ac 1 0 16 1 false, .call 2276 []]⟩
/-- `glm_vec4_maxv` in Sse, Sse2, Sse3, Sse4, Avx, Fma: include/cglm/vec4.h:1020-1031 -/
def v1_glm_vec4_maxv : Fn := ⟨[],
  [ac 2 0 16 16 true, ac 0 0 16 16 false, ac 1 0 16 16 false, .call 2264 []]⟩
/-- `glm_vec4_maxv` in Neon64, Neon32: include/cglm/vec4.h:1020-1031 -/
def v2_glm_vec4_maxv : Fn := ⟨[],
  [ac 2 0 16 4 true, ac 0 0 16 4 false, ac 1 0 16 4 false, .call 2264 []]⟩
/-- `glm_vec4_maxv` in Wasm, SseU, Sse2U, Sse3U, Sse4U, AvxU, FmaU: include/cglm/vec4.h:1020-1031 -/
def v3_glm_vec4_maxv : Fn := ⟨[],
  [ac 2 0 16 1 true, ac 0 0 16 1 false, ac 1 0 16 1 false, .call 2264 []]⟩
/-- `glm_vec4_minv` in Sse, Sse2, Sse3, Sse4, Avx, Fma: include/cglm/vec4.h:1040-1051 -/
def v1_glm_vec4_minv : Fn := ⟨[],
  [ac 2 0 16 16 true, ac 0 0 16 16 false, ac 1 0 16 16 false, .call 2263 []]⟩
/-- `glm_vec4_minv` in Neon64, Neon32: include/cglm/vec4.h:1040-1051 -/
def v2_glm_vec4_minv : Fn := ⟨[],
  [ac 2 0 16 4 true, ac 0 0 16 4 false, ac 1 0 16 4 false, .call 2263 []]⟩
/-- `glm_vec4_minv` in Wasm, SseU, Sse2U, Sse3U, Sse4U, AvxU, FmaU: include/cglm/vec4.h:1040-1051 -/
def v3_glm_vec4_minv : Fn := ⟨[],
  [ac 2 0 16 1 true, ac 0 0 16 1 false, ac 1 0 16 1 false, .call 2263 []]⟩
/-- `glm_vec4_clamp` in Sse, Sse2, Sse3, Sse4: include/cglm/vec4.h:1060-1078 -/
def v1_glm_vec4_clamp : Fn := ⟨[],
  [ac 0 0 16 16 true, ac 0 0 16 16 false, .call 2264 [], .call 2263 []]⟩
/-- `glm_vec4_clamp` in Avx, Fma: include/cglm/vec4.h:1060-1078 -/
def v2_glm_vec4_clamp : Fn := ⟨[⟨4, []⟩, ⟨4, []⟩],
  [ac 0 0 16 16 true, ac 0 0 16 16 false, rd 1 0, .call 2264 [], rd 2 0, .call 2263 []]⟩
/-- `glm_vec4_clamp` in Neon64, Neon32: include/cglm/vec4.h:1060-1078 -/
def v3_glm_vec4_clamp : Fn := ⟨[],
  [ac 0 0 16 4 true, ac 0 0 16 4 false, .call 2264 [], .call 2263 []]⟩
/-- `glm_vec4_clamp` in Wasm, SseU, Sse2U, Sse3U, Sse4U: include/cglm/vec4.h:1060-1078 -/
def v4_glm_vec4_clamp : Fn := ⟨[],
  [ac 0 0 16 1 true, ac 0 0 16 1 false, .call 2264 [], .call 2263 []]⟩
/-- `glm_vec4_clamp` in AvxU, FmaU: include/cglm/vec4.h:1060-1078 -/
def v5_glm_vec4_clamp : Fn := ⟨[⟨4, []⟩, ⟨4, []⟩],
  [ac 0 0 16 1 true, ac 0 0 16 1 false, rd 1 0, .call 2264 [], rd 2 0, .call 2263 []]⟩
/-- `glm_mat4_scale_sse2` in Sse, Sse2, Sse3, Sse4: include/cglm/simd/sse2/mat4.h:17-27 -/
def v1_glm_mat4_scale_sse2 : Fn := ⟨[],
  [ac 0 0 16 16 true, ac 0 0 16 16 false, ac 0 16 16 16 true, ac 0 16 16 16 false, ac 0 32 16 16 true, ac 0 32 16 16 false,
   ac 0 48 16 16 true, ac 0 48 16 16 false]⟩
/-- `glm_mat4_scale_sse2` in Avx, Fma: include/cglm/simd/sse2/mat4.h:17-27 -/
def v2_glm_mat4_scale_sse2 : Fn := ⟨[⟨4, []⟩],
  [rd 1 0, ac 0 0 16 16 true, ac 0 0 16 16 false, ac 0 16 16 16 true, ac 0 16 16 16 false, ac 0 32 16 16 true,
   ac 0 32 16 16 false, ac 0 48 16 16 true, ac 0 48 16 16 false]⟩
/-- `glm_mat4_scale_sse2` in SseU, Sse2U, Sse3U, Sse4U: include/cglm/simd/sse2/mat4.h:17-27 -/
def v3_glm_mat4_scale_sse2 : Fn := ⟨[],
  [ac 0 0 16 1 true, ac 0 0 16 1 false, ac 0 16 16 1 true, ac 0 16 16 1 false, ac 0 32 16 1 true, ac 0 32 16 1 false,
   ac 0 48 16 1 true, ac 0 48 16 1 false]⟩
/-- `glm_mat4_scale_sse2` in AvxU, FmaU: include/cglm/simd/sse2/mat4.h:17-27 -/
def v4_glm_mat4_scale_sse2 : Fn := ⟨[⟨4, []⟩],
  [rd 1 0, ac 0 0 16 1 true, ac 0 0 16 1 false, ac 0 16 16 1 true, ac 0 16 16 1 false, ac 0 32 16 1 true, ac 0 32 16 1 false,
   ac 0 48 16 1 true, ac 0 48 16 1 false]⟩
/-- `glm_mat4_transp_sse2` in Sse, Sse2, Sse3, Sse4, Avx, Fma: include/cglm/simd/sse2/mat4.h:29-45 -/
def v1_glm_mat4_transp_sse2 : Fn := ⟨[],
  [ac 0 0 16 16 false, ac 0 16 16 16 false, ac 0 32 16 16 false, ac 0 48 16 16 false, ac 1 0 16 16 true, ac 1 16 16 16 true,
   ac 1 32 16 16 true, ac 1 48 16 16 true]⟩
/-- `glm_mat4_transp_sse2` in SseU, Sse2U, Sse3U, Sse4U, AvxU, FmaU: include/cglm/simd/sse2/mat4.h:29-45 -/
def v2_glm_mat4_transp_sse2 : Fn := ⟨[],
  [ac 0 0 16 1 false, ac 0 16 16 1 false, ac 0 32 16 1 false, ac 0 48 16 1 false, ac 1 0 16 1 true, ac 1 16 16 1 true,
   ac 1 32 16 1 true, ac 1 48 16 1 true]⟩
/-- `glm_mat4_mul_sse2` in Sse, Sse2, Sse3, Sse4, Avx, Fma: include/cglm/simd/sse2/mat4.h:47-87 -/
def v1_glm_mat4_mul_sse2 : Fn := ⟨[],
  [ac 0 0 16 16 false, ac 1 0 16 16 false, ac 1 16 16 16 false, ac 1 32 16 16 false, ac 1 48 16 16 false, ac 0 16 16 16 false,
   .call 2280 [], ac 0 32 16 16 false, ac 0 48 16 16 false, ac 2 0 16 16 true, ac 2 16 16 16 true, ac 2 32 16 16 true,
   ac 2 48 16 16 true]⟩
/-- `glm_mat4_mul_sse2` in SseU, Sse2U, Sse3U, Sse4U, AvxU, FmaU: include/cglm/simd/sse2/mat4.h:47-87 -/
def v2_glm_mat4_mul_sse2 : Fn := ⟨[],
  [ac 0 0 16 1 false, ac 1 0 16 1 false, ac 1 16 16 1 false, ac 1 32 16 1 false, ac 1 48 16 1 false, ac 0 16 16 1 false,
   .call 2280 [], ac 0 32 16 1 false, ac 0 48 16 1 false, ac 2 0 16 1 true, ac 2 16 16 1 true, ac 2 32 16 1 true,
   ac 2 48 16 1 true]⟩
/-- `glm_mat4_mulv_sse2` in Sse, Sse2, Sse3, Sse4, Avx, Fma: include/cglm/simd/sse2/mat4.h:89-111 -/
def v1_glm_mat4_mulv_sse2 : Fn := ⟨[],
  [ac 0 0 16 16 false, ac 0 16 16 16 false, ac 0 32 16 16 false, ac 0 48 16 16 false, ac 1 0 16 16 false, .call 2280 [],
   ac 2 0 16 16 true]⟩
/-- `glm_mat4_mulv_sse2` in SseU, Sse2U, Sse3U, Sse4U, AvxU, FmaU: include/cglm/simd/sse2/mat4.h:89-111 -/
def v2_glm_mat4_mulv_sse2 : Fn := ⟨[],
  [ac 0 0 16 1 false, ac 0 16 16 1 false, ac 0 32 16 1 false, ac 0 48 16 1 false, ac 1 0 16 1 false, .call 2280 [],
   ac 2 0 16 1 true]⟩
/-- `glm_mat4_det_sse2` in Sse, Sse2, Sse3, Sse4, Avx, Fma: include/cglm/simd/sse2/mat4.h:113-159 -/
def v1_glm_mat4_det_sse2 : Fn := ⟨[],
  [ac 0 0 16 16 false, ac 0 16 16 16 false, ac 0 32 16 16 false, ac 0 48 16 16 false, .call 2281 [], .call 2280 [],
   .call 2267 []]⟩
/-- `glm_mat4_det_sse2` in SseU, Sse2U, Sse3U, Sse4U, AvxU, FmaU: include/cglm/simd/sse2/mat4.h:113-159 -/
def v2_glm_mat4_det_sse2 : Fn := ⟨[],
  [ac 0 0 16 1 false, ac 0 16 16 1 false, ac 0 32 16 1 false, ac 0 48 16 1 false, .call 2281 [], .call 2280 [], .call 2267 []]⟩
/-- `glm_mat4_inv_fast_sse2` in Sse, Sse2, Sse3, Sse4, Avx, Fma: include/cglm/simd/sse2/mat4.h:161-296 -/
def v1_glm_mat4_inv_fast_sse2 : Fn := ⟨[],
  [ac 0 0 16 16 false, ac 0 16 16 16 false, ac 0 32 16 16 false, ac 0 48 16 16 false, .call 2281 [], .call 2280 [],
   .call 2265 [], ac 1 0 16 16 true, ac 1 16 16 16 true, ac 1 32 16 16 true, ac 1 48 16 16 true]⟩
/-- `glm_mat4_inv_fast_sse2` in SseU, Sse2U, Sse3U, Sse4U, AvxU, FmaU: include/cglm/simd/sse2/mat4.h:161-296 -/
def v2_glm_mat4_inv_fast_sse2 : Fn := ⟨[],
  [ac 0 0 16 1 false, ac 0 16 16 1 false, ac 0 32 16 1 false, ac 0 48 16 1 false, .call 2281 [], .call 2280 [], .call 2265 [],
   ac 1 0 16 1 true, ac 1 16 16 1 true, ac 1 32 16 1 true, ac 1 48 16 1 true]⟩
/-- `glm_mat4_inv_sse2` in Sse, Sse2, Sse3, Sse4, Avx, Fma: include/cglm/simd/sse2/mat4.h:438-571 -/
def v1_glm_mat4_inv_sse2 : Fn := ⟨[],
  [ac 0 16 16 16 false, ac 0 0 16 16 false, ac 0 48 16 16 false, ac 0 32 16 16 false, .call 2281 [], .call 2280 [],
   ac 1 0 16 16 true, ac 1 16 16 16 true, ac 1 32 16 16 true, ac 1 48 16 16 true]⟩
/-- `glm_mat4_inv_sse2` in SseU, Sse2U, Sse3U, Sse4U, AvxU, FmaU: include/cglm/simd/sse2/mat4.h:438-571 -/
def v2_glm_mat4_inv_sse2 : Fn := ⟨[],
  [ac 0 16 16 1 false, ac 0 0 16 1 false, ac 0 48 16 1 false, ac 0 32 16 1 false, .call 2281 [], .call 2280 [],
   ac 1 0 16 1 true, ac 1 16 16 1 true, ac 1 32 16 1 true, ac 1 48 16 1 true]⟩
/-- `glm_mat4_copy` in Sse, Sse2, Sse3, Sse4: include/cglm/mat4.h:127-151 -/
def v1_glm_mat4_copy : Fn := ⟨[],
  [ac 1 0 16 16 true, ac 0 0 16 16 false, ac 1 16 16 16 true, ac 0 16 16 16 false, ac 1 32 16 16 true, ac 0 32 16 16 false,
   ac 1 48 16 16 true, ac 0 48 16 16 false]⟩
/-- `glm_mat4_copy` in Avx, Fma: include/cglm/mat4.h:127-151 -/
def v2_glm_mat4_copy : Fn := ⟨[],
  [ac 1 0 32 32 true, ac 0 0 32 32 false, ac 1 32 32 32 true, ac 0 32 32 32 false]⟩
/-- `glm_mat4_copy` in Neon64, Neon32: include/cglm/mat4.h:127-151 -/
def v3_glm_mat4_copy : Fn := ⟨[],
  [ac 1 0 16 4 true, ac 0 0 16 4 false, ac 1 16 16 4 true, ac 0 16 16 4 false, ac 1 32 16 4 true, ac 0 32 16 4 false,
   ac 1 48 16 4 true, ac 0 48 16 4 false]⟩
/-- `glm_mat4_copy` in Wasm, SseU, Sse2U, Sse3U, Sse4U: include/cglm/mat4.h:127-151 -/
def v4_glm_mat4_copy : Fn := ⟨[],
  [ac 1 0 16 1 true, ac 0 0 16 1 false, ac 1 16 16 1 true, ac 0 16 16 1 false, ac 1 32 16 1 true, ac 0 32 16 1 false,
   ac 1 48 16 1 true, ac 0 48 16 1 false]⟩
/-- `glm_mat4_copy` in AvxU, FmaU: include/cglm/mat4.h:127-151 -/
def v5_glm_mat4_copy : Fn := ⟨[],
  [ac 1 0 32 1 true, ac 0 0 32 1 false, ac 1 32 32 1 true, ac 0 32 32 1 false]⟩
/-- `glm_mat4_zero` in Sse, Sse2, Sse3, Sse4: include/cglm/mat4.h:198-231 -/
def v1_glm_mat4_zero : Fn := ⟨[],
  [ac 0 0 16 16 true, ac 0 16 16 16 true, ac 0 32 16 16 true, ac 0 48 16 16 true]⟩
/-- `glm_mat4_zero` in Avx, Fma: include/cglm/mat4.h:198-231 -/
def v2_glm_mat4_zero : Fn := ⟨[],
  [ac 0 0 32 32 true, ac 0 32 32 32 true]⟩
/-- `glm_mat4_zero` in Neon64, Neon32: include/cglm/mat4.h:198-231 -/
def v3_glm_mat4_zero : Fn := ⟨[],
  [ac 0 0 16 4 true, ac 0 16 16 4 true, ac 0 32 16 4 true, ac 0 48 16 4 true]⟩
/-- `glm_mat4_zero` in Wasm, SseU, Sse2U, Sse3U, Sse4U: include/cglm/mat4.h:198-231 -/
def v4_glm_mat4_zero : Fn := ⟨[],
  [ac 0 0 16 1 true, ac 0 16 16 1 true, ac 0 32 16 1 true, ac 0 48 16 1 true]⟩
/-- `glm_mat4_zero` in AvxU, FmaU: include/cglm/mat4.h:198-231 -/
def v5_glm_mat4_zero : Fn := ⟨[],
  [ac 0 0 32 1 true, ac 0 32 32 1 true]⟩
/-- `glm_mat4_mul` in Sse, Sse2, Sse3, Sse4, SseU, Sse2U, Sse3U, Sse4U: include/cglm/mat4.h:315-354 -/
def v1_glm_mat4_mul : Fn := ⟨[],
  [.call 2286 [⟨0, 0, []⟩, ⟨1, 0, []⟩, ⟨2, 0, []⟩]]⟩
/-- `glm_mat4_mul` in Avx, Fma, AvxU, FmaU: include/cglm/mat4.h:315-354 -/
def v2_glm_mat4_mul : Fn := ⟨[],
  [.call 2306 [⟨0, 0, []⟩, ⟨1, 0, []⟩, ⟨2, 0, []⟩]]⟩
/-- `glm_mat4_mul` in Neon64, Neon32: include/cglm/mat4.h:315-354 -/
def v3_glm_mat4_mul : Fn := ⟨[],
  [.call 2310 [⟨0, 0, []⟩, ⟨1, 0, []⟩, ⟨2, 0, []⟩]]⟩
/-- `glm_mat4_mul` in Wasm: include/cglm/mat4.h:315-354 -/
def v4_glm_mat4_mul : Fn := ⟨[],
  [.call 2321 [⟨0, 0, []⟩, ⟨1, 0, []⟩, ⟨2, 0, []⟩]]⟩
/-- `glm_mat4_mulv` in Sse, Sse2, Sse3, Sse4, Avx, Fma, SseU, Sse2U, Sse3U, Sse4U, AvxU, FmaU: include/cglm/mat4.h:397-414 -/
def v1_glm_mat4_mulv : Fn := ⟨[],
  [.call 2287 [⟨0, 0, []⟩, ⟨1, 0, []⟩, ⟨2, 0, []⟩]]⟩
/-- `glm_mat4_mulv` in Neon64, Neon32: include/cglm/mat4.h:397-414 -/
def v2_glm_mat4_mulv : Fn := ⟨[],
  [.call 2311 [⟨0, 0, []⟩, ⟨1, 0, []⟩, ⟨2, 0, []⟩]]⟩
/-- `glm_mat4_mulv` in Wasm: include/cglm/mat4.h:397-414 -/
def v3_glm_mat4_mulv : Fn := ⟨[],
  [.call 2322 [⟨0, 0, []⟩, ⟨1, 0, []⟩, ⟨2, 0, []⟩]]⟩
/-- `glm_mat4_transpose_to` in Sse, Sse2, Sse3, Sse4, SseU, Sse2U, Sse3U, Sse4U: include/cglm/mat4.h:519-540 -/
def v1_glm_mat4_transpose_to : Fn := ⟨[],
  [.call 2285 [⟨0, 0, []⟩, ⟨1, 0, []⟩]]⟩
/-- `glm_mat4_transpose_to` in Avx, Fma, AvxU, FmaU: include/cglm/mat4.h:519-540 -/
def v2_glm_mat4_transpose_to : Fn := ⟨[],
  [.call 2305 [⟨0, 0, []⟩, ⟨1, 0, []⟩]]⟩
/-- `glm_mat4_transpose_to` in Neon64, Neon32: include/cglm/mat4.h:519-540 -/
def v3_glm_mat4_transpose_to : Fn := ⟨[],
  [.call 2309 [⟨0, 0, []⟩, ⟨1, 0, []⟩]]⟩
/-- `glm_mat4_transpose_to` in Wasm: include/cglm/mat4.h:519-540 -/
def v4_glm_mat4_transpose_to : Fn := ⟨[],
  [.call 2320 [⟨0, 0, []⟩, ⟨1, 0, []⟩]]⟩
/-- `glm_mat4_transpose` in Sse, Sse2, Sse3, Sse4, SseU, Sse2U, Sse3U, Sse4U: include/cglm/mat4.h:547-563 -/
def v1_glm_mat4_transpose : Fn := ⟨[],
  [.call 2285 [⟨0, 0, []⟩, ⟨0, 0, []⟩]]⟩
/-- `glm_mat4_transpose` in Avx, Fma, AvxU, FmaU: include/cglm/mat4.h:547-563 -/
def v2_glm_mat4_transpose : Fn := ⟨[],
  [.call 2305 [⟨0, 0, []⟩, ⟨0, 0, []⟩]]⟩
/-- `glm_mat4_transpose` in Neon64, Neon32: include/cglm/mat4.h:547-563 -/
def v3_glm_mat4_transpose : Fn := ⟨[],
  [.call 2309 [⟨0, 0, []⟩, ⟨0, 0, []⟩]]⟩
/-- `glm_mat4_transpose` in Wasm: include/cglm/mat4.h:547-563 -/
def v4_glm_mat4_transpose : Fn := ⟨[],
  [.call 2320 [⟨0, 0, []⟩, ⟨0, 0, []⟩]]⟩
/-- `glm_mat4_scale` in Sse, Sse2, Sse3, Sse4, SseU, Sse2U, Sse3U, Sse4U: include/cglm/mat4.h:590-604 -/
def v1_glm_mat4_scale : Fn := ⟨[],
  [.call 2284 [⟨0, 0, []⟩]]⟩
/-- `glm_mat4_scale` in Avx, Fma, AvxU, FmaU: include/cglm/mat4.h:590-604 -/
def v2_glm_mat4_scale : Fn := ⟨[],
  [.call 2304 [⟨0, 0, []⟩]]⟩
/-- `glm_mat4_scale` in Neon64, Neon32: include/cglm/mat4.h:590-604 -/
def v3_glm_mat4_scale : Fn := ⟨[],
  [.call 2308 [⟨0, 0, []⟩]]⟩
/-- `glm_mat4_scale` in Wasm: include/cglm/mat4.h:590-604 -/
def v4_glm_mat4_scale : Fn := ⟨[],
  [.call 2319 [⟨0, 0, []⟩]]⟩
/-- `glm_mat4_det` in Sse, Sse2, Sse3, Sse4, Avx, Fma, SseU, Sse2U, Sse3U, Sse4U, AvxU, FmaU: include/cglm/mat4.h:613-642 -/
def v1_glm_mat4_det : Fn := ⟨[],
  [.call 2288 [⟨0, 0, []⟩]]⟩
/-- `glm_mat4_det` in Neon64, Neon32: include/cglm/mat4.h:613-642 -/
def v2_glm_mat4_det : Fn := ⟨[],
  [.call 2312 [⟨0, 0, []⟩]]⟩
/-- `glm_mat4_det` in Wasm: include/cglm/mat4.h:613-642 -/
def v3_glm_mat4_det : Fn := ⟨[],
  [.call 2323 [⟨0, 0, []⟩]]⟩
/-- `glm_mat4_inv` in Sse, Sse2, Sse3, Sse4, Avx, Fma, SseU, Sse2U, Sse3U, Sse4U, AvxU, FmaU: include/cglm/mat4.h:650-692 -/
def v1_glm_mat4_inv : Fn := ⟨[],
  [.call 2290 [⟨0, 0, []⟩, ⟨1, 0, []⟩]]⟩
/-- `glm_mat4_inv` in Neon64, Neon32: include/cglm/mat4.h:650-692 -/
def v2_glm_mat4_inv : Fn := ⟨[],
  [.call 2313 [⟨0, 0, []⟩, ⟨1, 0, []⟩]]⟩
/-- `glm_mat4_inv` in Wasm: include/cglm/mat4.h:650-692 -/
def v3_glm_mat4_inv : Fn := ⟨[],
  [.call 2325 [⟨0, 0, []⟩, ⟨1, 0, []⟩]]⟩
/-- `glm_mat4_inv_fast` in Sse, Sse2, Sse3, Sse4, Avx, Fma, SseU, Sse2U, Sse3U, Sse4U, AvxU, FmaU: include/cglm/mat4.h:706-716 -/
def v1_glm_mat4_inv_fast : Fn := ⟨[],
  [.call 2289 [⟨0, 0, []⟩, ⟨1, 0, []⟩]]⟩
/-- `glm_mat4_inv_fast` in Wasm: include/cglm/mat4.h:706-716 -/
def v2_glm_mat4_inv_fast : Fn := ⟨[],
  [.call 2324 [⟨0, 0, []⟩, ⟨1, 0, []⟩]]⟩
/-- `glm_mat3_mul_sse2` in Sse, Sse2, Sse3, Sse4, Avx, Fma, SseU, Sse2U, Sse3U, Sse4U, AvxU, FmaU: include/cglm/simd/sse2/mat3.h:15-73 -/
def v1_glm_mat3_mul_sse2 : Fn := ⟨[],
  [ac 0 0 16 1 false, ac 0 16 16 1 false, ac 1 0 16 1 false, ac 1 16 16 1 false, rd 0 32, rd 1 32, .call 2280 [],
   .call 2272 [], ac 2 0 16 1 true, ac 2 16 16 1 true, wr 2 32]⟩
/-- `glm_mat3_mul` in Sse, Sse2, Sse3, Sse4, Avx, Fma, SseU, Sse2U, Sse3U, Sse4U, AvxU, FmaU: include/cglm/mat3.h:154-180 -/
def v1_glm_mat3_mul : Fn := ⟨[],
  [.call 2291 [⟨0, 0, []⟩, ⟨1, 0, []⟩, ⟨2, 0, []⟩]]⟩
/-- `glm_mat3_mul` in Wasm: include/cglm/mat3.h:154-180 -/
def v2_glm_mat3_mul : Fn := ⟨[],
  [.call 2326 [⟨0, 0, []⟩, ⟨1, 0, []⟩, ⟨2, 0, []⟩]]⟩
/-- `glm_mat2_mul_sse2` in Sse, Sse2, Sse3, Sse4, Avx, Fma: include/cglm/simd/sse2/mat2.h:15-37 -/
def v1_glm_mat2_mul_sse2 : Fn := ⟨[],
  [ac 0 0 16 16 false, ac 1 0 16 16 false, .call 2280 [], ac 2 0 16 16 true]⟩
/-- `glm_mat2_mul_sse2` in SseU, Sse2U, Sse3U, Sse4U, AvxU, FmaU: include/cglm/simd/sse2/mat2.h:15-37 -/
def v2_glm_mat2_mul_sse2 : Fn := ⟨[],
  [ac 0 0 16 1 false, ac 1 0 16 1 false, .call 2280 [], ac 2 0 16 1 true]⟩
/-- `glm_mat2_transp_sse2` in Sse, Sse2, Sse3, Sse4, Avx, Fma: include/cglm/simd/sse2/mat2.h:39-45 -/
def v1_glm_mat2_transp_sse2 : Fn := ⟨[],
  [ac 1 0 16 16 true, ac 0 0 16 16 false]⟩
/-- `glm_mat2_transp_sse2` in SseU, Sse2U, Sse3U, Sse4U, AvxU, FmaU: include/cglm/simd/sse2/mat2.h:39-45 -/
def v2_glm_mat2_transp_sse2 : Fn := ⟨[],
  [ac 1 0 16 1 true, ac 0 0 16 1 false]⟩
/-- `glm_mat2_mul` in Sse, Sse2, Sse3, Sse4, Avx, Fma, SseU, Sse2U, Sse3U, Sse4U, AvxU, FmaU: include/cglm/mat2.h:152-172 -/
def v1_glm_mat2_mul : Fn := ⟨[],
  [.call 2292 [⟨0, 0, []⟩, ⟨1, 0, []⟩, ⟨2, 0, []⟩]]⟩
/-- `glm_mat2_mul` in Neon64, Neon32: include/cglm/mat2.h:152-172 -/
def v2_glm_mat2_mul : Fn := ⟨[],
  [.call 2314 [⟨0, 0, []⟩, ⟨1, 0, []⟩, ⟨2, 0, []⟩]]⟩
/-- `glm_mat2_mul` in Wasm: include/cglm/mat2.h:152-172 -/
def v3_glm_mat2_mul : Fn := ⟨[],
  [.call 2327 [⟨0, 0, []⟩, ⟨1, 0, []⟩, ⟨2, 0, []⟩]]⟩
/-- `glm_mat2_transpose_to` in Sse, Sse2, Sse3, Sse4, Avx, Fma, SseU, Sse2U, Sse3U, Sse4U, AvxU, FmaU: include/cglm/mat2.h:194-207 -/
def v1_glm_mat2_transpose_to : Fn := ⟨[],
  [.call 2293 [⟨0, 0, []⟩, ⟨1, 0, []⟩]]⟩
/-- `glm_mat2_transpose_to` in Wasm: include/cglm/mat2.h:194-207 -/
def v2_glm_mat2_transpose_to : Fn := ⟨[],
  [.call 2328 [⟨0, 0, []⟩, ⟨1, 0, []⟩]]⟩
/-- `glm_mat2_scale` in Sse, Sse2, Sse3, Sse4: include/cglm/mat2.h:229-245 -/
def v1_glm_mat2_scale : Fn := ⟨[],
  [ac 0 0 16 16 true, ac 0 0 16 1 false]⟩
/-- `glm_mat2_scale` in Avx, Fma: include/cglm/mat2.h:229-245 -/
def v2_glm_mat2_scale : Fn := ⟨[⟨4, []⟩],
  [ac 0 0 16 16 true, ac 0 0 16 1 false, rd 1 0]⟩
/-- `glm_mat2_scale` in Neon64, Neon32: include/cglm/mat2.h:229-245 -/
def v3_glm_mat2_scale : Fn := ⟨[],
  [ac 0 0 16 4 true, ac 0 0 16 4 false]⟩
/-- `glm_mat2_scale` in Wasm, SseU, Sse2U, Sse3U, Sse4U: include/cglm/mat2.h:229-245 -/
def v4_glm_mat2_scale : Fn := ⟨[],
  [ac 0 0 16 1 true, ac 0 0 16 1 false]⟩
/-- `glm_mat2_scale` in AvxU, FmaU: include/cglm/mat2.h:229-245 -/
def v5_glm_mat2_scale : Fn := ⟨[⟨4, []⟩],
  [ac 0 0 16 1 true, ac 0 0 16 1 false, rd 1 0]⟩
/-- `glm_mul_sse2` in Sse, Sse2, Sse3, Sse4, Avx, Fma: include/cglm/simd/sse2/affine.h:15-51 -/
def v1_glm_mul_sse2 : Fn := ⟨[],
  [ac 0 0 16 16 false, ac 1 0 16 16 false, ac 1 16 16 16 false, ac 1 32 16 16 false, ac 1 48 16 16 false, ac 0 16 16 16 false,
   .call 2280 [], ac 0 32 16 16 false, ac 0 48 16 16 false, ac 2 0 16 16 true, ac 2 16 16 16 true, ac 2 32 16 16 true,
   ac 2 48 16 16 true]⟩
/-- `glm_mul_sse2` in SseU, Sse2U, Sse3U, Sse4U, AvxU, FmaU: include/cglm/simd/sse2/affine.h:15-51 -/
def v2_glm_mul_sse2 : Fn := ⟨[],
  [ac 0 0 16 1 false, ac 1 0 16 1 false, ac 1 16 16 1 false, ac 1 32 16 1 false, ac 1 48 16 1 false, ac 0 16 16 1 false,
   .call 2280 [], ac 0 32 16 1 false, ac 0 48 16 1 false, ac 2 0 16 1 true, ac 2 16 16 1 true, ac 2 32 16 1 true,
   ac 2 48 16 1 true]⟩
/-- `glm_mul_rot_sse2` in Sse, Sse2, Sse3, Sse4, Avx, Fma: include/cglm/simd/sse2/affine.h:53-83 -/
def v1_glm_mul_rot_sse2 : Fn := ⟨[],
  [ac 0 0 16 16 false, ac 1 0 16 16 false, ac 1 16 16 16 false, ac 1 32 16 16 false, ac 0 16 16 16 false, .call 2280 [],
   ac 0 32 16 16 false, ac 2 0 16 16 true, ac 2 16 16 16 true, ac 2 32 16 16 true, ac 2 48 16 16 true, ac 0 48 16 16 false]⟩
/-- `glm_mul_rot_sse2` in SseU, Sse2U, Sse3U, Sse4U, AvxU, FmaU: include/cglm/simd/sse2/affine.h:53-83 -/
def v2_glm_mul_rot_sse2 : Fn := ⟨[],
  [ac 0 0 16 1 false, ac 1 0 16 1 false, ac 1 16 16 1 false, ac 1 32 16 1 false, ac 0 16 16 1 false, .call 2280 [],
   ac 0 32 16 1 false, ac 2 0 16 1 true, ac 2 16 16 1 true, ac 2 32 16 1 true, ac 2 48 16 1 true, ac 0 48 16 1 false]⟩
/-- `glm_inv_tr_sse2` in Sse, Sse2, Sse3, Sse4, Avx, Fma: include/cglm/simd/sse2/affine.h:85-112 -/
def v1_glm_inv_tr_sse2 : Fn := ⟨[],
  [ac 0 0 16 16 false, ac 0 16 16 16 false, ac 0 32 16 16 false, ac 0 48 16 16 false, .call 2280 [], ac 0 0 16 16 true,
   ac 0 16 16 16 true, ac 0 32 16 16 true, ac 0 48 16 16 true]⟩
/-- `glm_inv_tr_sse2` in SseU, Sse2U, Sse3U, Sse4U, AvxU, FmaU: include/cglm/simd/sse2/affine.h:85-112 -/
def v2_glm_inv_tr_sse2 : Fn := ⟨[],
  [ac 0 0 16 1 false, ac 0 16 16 1 false, ac 0 32 16 1 false, ac 0 48 16 1 false, .call 2280 [], ac 0 0 16 1 true,
   ac 0 16 16 1 true, ac 0 32 16 1 true, ac 0 48 16 1 true]⟩
/-- `glm_mul` in Sse, Sse2, Sse3, Sse4, SseU, Sse2U, Sse3U, Sse4U: include/cglm/affine-mat.h:54-96 -/
def v1_glm_mul : Fn := ⟨[],
  [.call 2294 [⟨0, 0, []⟩, ⟨1, 0, []⟩, ⟨2, 0, []⟩]]⟩
/-- `glm_mul` in Avx, Fma, AvxU, FmaU: include/cglm/affine-mat.h:54-96 -/
def v2_glm_mul : Fn := ⟨[],
  [.call 2307 [⟨0, 0, []⟩, ⟨1, 0, []⟩, ⟨2, 0, []⟩]]⟩
/-- `glm_mul` in Neon64, Neon32: include/cglm/affine-mat.h:54-96 -/
def v3_glm_mul : Fn := ⟨[],
  [.call 2315 [⟨0, 0, []⟩, ⟨1, 0, []⟩, ⟨2, 0, []⟩]]⟩
/-- `glm_mul` in Wasm: include/cglm/affine-mat.h:54-96 -/
def v4_glm_mul : Fn := ⟨[],
  [.call 2329 [⟨0, 0, []⟩, ⟨1, 0, []⟩, ⟨2, 0, []⟩]]⟩
/-- `glm_mul_rot` in Sse, Sse2, Sse3, Sse4, Avx, Fma, SseU, Sse2U, Sse3U, Sse4U, AvxU, FmaU: include/cglm/affine-mat.h:114-153 -/
def v1_glm_mul_rot : Fn := ⟨[],
  [.call 2295 [⟨0, 0, []⟩, ⟨1, 0, []⟩, ⟨2, 0, []⟩]]⟩
/-- `glm_mul_rot` in Neon64, Neon32: include/cglm/affine-mat.h:114-153 -/
def v2_glm_mul_rot : Fn := ⟨[],
  [.call 2316 [⟨0, 0, []⟩, ⟨1, 0, []⟩, ⟨2, 0, []⟩]]⟩
/-- `glm_mul_rot` in Wasm: include/cglm/affine-mat.h:114-153 -/
def v3_glm_mul_rot : Fn := ⟨[],
  [.call 2330 [⟨0, 0, []⟩, ⟨1, 0, []⟩, ⟨2, 0, []⟩]]⟩
/-- `glm_inv_tr` in Sse, Sse2, Sse3, Sse4, Avx, Fma, SseU, Sse2U, Sse3U, Sse4U, AvxU, FmaU: include/cglm/affine-mat.h:165-187 -/
def v1_glm_inv_tr : Fn := ⟨[],
  [.call 2296 [⟨0, 0, []⟩]]⟩
/-- `glm_inv_tr` in Neon64, Neon32: include/cglm/affine-mat.h:165-187 -/
def v2_glm_inv_tr : Fn := ⟨[],
  [.call 2317 [⟨0, 0, []⟩]]⟩
/-- `glm_inv_tr` in Wasm: include/cglm/affine-mat.h:165-187 -/
def v3_glm_inv_tr : Fn := ⟨[],
  [.call 2331 [⟨0, 0, []⟩]]⟩
/-- `glm_translate` in Sse, Sse2, Sse3, Sse4, Avx, Fma: include/cglm/affine-pre.h:41-61 -/
def v1_glm_translate : Fn := ⟨[],
  [ac 0 0 16 16 false, ac 0 16 16 16 false, ac 0 32 16 16 false, ac 0 48 16 16 false, ac 0 48 16 16 true, rd 1 0, rd 1 4,
   rd 1 8, .call 2280 []]⟩
/-- `glm_translate` in Neon64, Neon32: include/cglm/affine-pre.h:41-61 -/
def v2_glm_translate : Fn := ⟨[],
  [ac 0 0 16 4 false, ac 0 16 16 4 false, ac 0 32 16 4 false, ac 0 48 16 4 false, ac 0 48 16 4 true, rd 1 0, rd 1 4, rd 1 8,
   .call 2280 []]⟩
/-- `glm_translate` in Wasm, SseU, Sse2U, Sse3U, Sse4U, AvxU, FmaU: include/cglm/affine-pre.h:41-61 -/
def v3_glm_translate : Fn := ⟨[],
  [ac 0 0 16 1 false, ac 0 16 16 1 false, ac 0 32 16 1 false, ac 0 48 16 1 false, ac 0 48 16 1 true, rd 1 0, rd 1 4, rd 1 8,
   .call 2280 []]⟩
/-- `glm_translate_x` in Sse, Sse2, Sse3, Sse4: include/cglm/affine-pre.h:86-96 -/
def v1_glm_translate_x : Fn := ⟨[],
  [ac 0 48 16 16 true, ac 0 0 16 16 false, ac 0 48 16 16 false, .call 2280 []]⟩
/-- `glm_translate_x` in Avx, Fma: include/cglm/affine-pre.h:86-96 -/
def v2_glm_translate_x : Fn := ⟨[⟨4, []⟩],
  [ac 0 48 16 16 true, ac 0 0 16 16 false, rd 1 0, ac 0 48 16 16 false, .call 2280 []]⟩
/-- `glm_translate_x` in Neon64, Neon32: include/cglm/affine-pre.h:86-96 -/
def v3_glm_translate_x : Fn := ⟨[],
  [ac 0 48 16 4 true, ac 0 0 16 4 false, ac 0 48 16 4 false, .call 2280 []]⟩
/-- `glm_translate_x` in Wasm, SseU, Sse2U, Sse3U, Sse4U: include/cglm/affine-pre.h:86-96 -/
def v4_glm_translate_x : Fn := ⟨[],
  [ac 0 48 16 1 true, ac 0 0 16 1 false, ac 0 48 16 1 false, .call 2280 []]⟩
/-- `glm_translate_x` in AvxU, FmaU: include/cglm/affine-pre.h:86-96 -/
def v5_glm_translate_x : Fn := ⟨[⟨4, []⟩],
  [ac 0 48 16 1 true, ac 0 0 16 1 false, rd 1 0, ac 0 48 16 1 false, .call 2280 []]⟩
/-- `glm_translate_y` in Sse, Sse2, Sse3, Sse4: include/cglm/affine-pre.h:104-114 -/
def v1_glm_translate_y : Fn := ⟨[],
  [ac 0 48 16 16 true, ac 0 16 16 16 false, ac 0 48 16 16 false, .call 2280 []]⟩
/-- `glm_translate_y` in Avx, Fma: include/cglm/affine-pre.h:104-114 -/
def v2_glm_translate_y : Fn := ⟨[⟨4, []⟩],
  [ac 0 48 16 16 true, ac 0 16 16 16 false, rd 1 0, ac 0 48 16 16 false, .call 2280 []]⟩
/-- `glm_translate_y` in Neon64, Neon32: include/cglm/affine-pre.h:104-114 -/
def v3_glm_translate_y : Fn := ⟨[],
  [ac 0 48 16 4 true, ac 0 16 16 4 false, ac 0 48 16 4 false, .call 2280 []]⟩
/-- `glm_translate_y` in Wasm, SseU, Sse2U, Sse3U, Sse4U: include/cglm/affine-pre.h:104-114 -/
def v4_glm_translate_y : Fn := ⟨[],
  [ac 0 48 16 1 true, ac 0 16 16 1 false, ac 0 48 16 1 false, .call 2280 []]⟩
/-- `glm_translate_y` in AvxU, FmaU: include/cglm/affine-pre.h:104-114 -/
def v5_glm_translate_y : Fn := ⟨[⟨4, []⟩],
  [ac 0 48 16 1 true, ac 0 16 16 1 false, rd 1 0, ac 0 48 16 1 false, .call 2280 []]⟩
/-- `glm_translate_z` in Sse, Sse2, Sse3, Sse4: include/cglm/affine-pre.h:122-132 -/
def v1_glm_translate_z : Fn := ⟨[],
  [ac 0 48 16 16 true, ac 0 32 16 16 false, ac 0 48 16 16 false, .call 2280 []]⟩
/-- `glm_translate_z` in Avx, Fma: include/cglm/affine-pre.h:122-132 -/
def v2_glm_translate_z : Fn := ⟨[⟨4, []⟩],
  [ac 0 48 16 16 true, ac 0 32 16 16 false, rd 1 0, ac 0 48 16 16 false, .call 2280 []]⟩
/-- `glm_translate_z` in Neon64, Neon32: include/cglm/affine-pre.h:122-132 -/
def v3_glm_translate_z : Fn := ⟨[],
  [ac 0 48 16 4 true, ac 0 32 16 4 false, ac 0 48 16 4 false, .call 2280 []]⟩
/-- `glm_translate_z` in Wasm, SseU, Sse2U, Sse3U, Sse4U: include/cglm/affine-pre.h:122-132 -/
def v4_glm_translate_z : Fn := ⟨[],
  [ac 0 48 16 1 true, ac 0 32 16 1 false, ac 0 48 16 1 false, .call 2280 []]⟩
/-- `glm_translate_z` in AvxU, FmaU: include/cglm/affine-pre.h:122-132 -/
def v5_glm_translate_z : Fn := ⟨[⟨4, []⟩],
  [ac 0 48 16 1 true, ac 0 32 16 1 false, rd 1 0, ac 0 48 16 1 false, .call 2280 []]⟩
/-- `glm_quat_mul_sse2` in Sse, Sse2, Sse3, Sse4, Avx, Fma: include/cglm/simd/sse2/quat.h:15-51 -/
def v1_glm_quat_mul_sse2 : Fn := ⟨[],
  [ac 0 0 16 16 false, ac 1 0 16 16 false, .call 2280 [], ac 2 0 16 16 true]⟩
/-- `glm_quat_mul_sse2` in SseU, Sse2U, Sse3U, Sse4U, AvxU, FmaU: include/cglm/simd/sse2/quat.h:15-51 -/
def v2_glm_quat_mul_sse2 : Fn := ⟨[],
  [ac 0 0 16 1 false, ac 1 0 16 1 false, .call 2280 [], ac 2 0 16 1 true]⟩
/-- `glm_quat_normalize_to` in Sse, Sse2, Sse3, Sse4, Avx, Fma: include/cglm/quat.h:244-288 -/
def v1_glm_quat_normalize_to : Fn := ⟨[],
  [ac 0 0 16 16 false, .call 2273 [], .call 639 [⟨1, 0, []⟩], ac 1 0 16 16 true]⟩
/-- `glm_quat_normalize_to` in Wasm, SseU, Sse2U, Sse3U, Sse4U, AvxU, FmaU: include/cglm/quat.h:244-288 -/
def v2_glm_quat_normalize_to : Fn := ⟨[],
  [ac 0 0 16 1 false, .call 2273 [], .call 639 [⟨1, 0, []⟩], ac 1 0 16 1 true]⟩
/-- `glm_quat_mul` in Sse, Sse2, Sse3, Sse4, Avx, Fma, SseU, Sse2U, Sse3U, Sse4U, AvxU, FmaU: include/cglm/quat.h:453-474 -/
def v1_glm_quat_mul : Fn := ⟨[],
  [.call 2297 [⟨0, 0, []⟩, ⟨1, 0, []⟩, ⟨2, 0, []⟩]]⟩
/-- `glm_quat_mul` in Neon64, Neon32: include/cglm/quat.h:453-474 -/
def v2_glm_quat_mul : Fn := ⟨[],
  [.call 2318 [⟨0, 0, []⟩, ⟨1, 0, []⟩, ⟨2, 0, []⟩]]⟩
/-- `glm_quat_mul` in Wasm: include/cglm/quat.h:453-474 -/
def v3_glm_quat_mul : Fn := ⟨[],
  [.call 2332 [⟨0, 0, []⟩, ⟨1, 0, []⟩, ⟨2, 0, []⟩]]⟩
/-- `glmm_load3` in Sse2, Sse3, Sse4, Avx, Fma, Sse2U, Sse3U, Sse4U, AvxU, FmaU: include/cglm/simd/x86.h:249-259 -/
def v1_glmm_load3 : Fn := ⟨[],
  [ac 0 0 0 16 false, ac 0 0 8 1 false, rd 0 8]⟩
/-- `glmm_load3` in Wasm: include/cglm/simd/wasm.h:153-158 -/
def v2_glmm_load3 : Fn := ⟨[],
  [ac 0 0 8 1 false, rd 0 8]⟩
/-- `glmm_store3` in Sse2, Sse3, Sse4, Avx, Fma, Sse2U, Sse3U, Sse4U, AvxU, FmaU: include/cglm/simd/x86.h:261-266 -/
def v1_glmm_store3 : Fn := ⟨[],
  [ac 0 0 0 8 false, ac 0 0 8 1 true, wr 0 8]⟩
/-- `glmm_store3` in Wasm: include/cglm/simd/wasm.h:160-165 -/
def v2_glmm_store3 : Fn := ⟨[],
  [ac 0 0 8 1 true, ac 0 8 4 1 true]⟩
/-- `glmm256_fmadd` in Avx, Fma, AvxU, FmaU: include/cglm/simd/x86.h:322-330 -/
def v1_glmm256_fmadd : Fn := ⟨[],
  []⟩
/-- `glmm256_fnmadd` in Avx, Fma, AvxU, FmaU: include/cglm/simd/x86.h:332-340 -/
def v1_glmm256_fnmadd : Fn := ⟨[],
  []⟩
/-- `glmm256_fmsub` in Avx, Fma, AvxU, FmaU: include/cglm/simd/x86.h:342-350 -/
def v1_glmm256_fmsub : Fn := ⟨[],
  []⟩
/-- `glmm256_fnmsub` in Avx, Fma, AvxU, FmaU: include/cglm/simd/x86.h:352-361 -/
def v1_glmm256_fnmsub : Fn := ⟨[],
  []⟩
/-- `glm_mat4_scale_avx` in Avx, Fma: include/cglm/simd/avx/mat4.h:15-30 -/
def v1_glm_mat4_scale_avx : Fn := ⟨[⟨4, []⟩],
  [ac 0 0 32 32 false, ac 0 32 32 32 false, rd 1 0, ac 0 0 32 32 true, ac 0 32 32 32 true]⟩
/-- `glm_mat4_scale_avx` in AvxU, FmaU: include/cglm/simd/avx/mat4.h:15-30 -/
def v2_glm_mat4_scale_avx : Fn := ⟨[⟨4, []⟩],
  [ac 0 0 32 1 false, ac 0 32 32 1 false, rd 1 0, ac 0 0 32 1 true, ac 0 32 32 1 true]⟩
/-- `glm_mat4_transp_avx` in Avx, Fma: include/cglm/simd/avx/mat4.h:33-55 -/
def v1_glm_mat4_transp_avx : Fn := ⟨[],
  [ac 0 0 32 32 false, ac 0 32 32 32 false, ac 1 0 32 32 true, ac 1 32 32 32 true]⟩
/-- `glm_mat4_transp_avx` in AvxU, FmaU: include/cglm/simd/avx/mat4.h:33-55 -/
def v2_glm_mat4_transp_avx : Fn := ⟨[],
  [ac 0 0 32 1 false, ac 0 32 32 1 false, ac 1 0 32 1 true, ac 1 32 32 1 true]⟩
/-- `glm_mat4_mul_avx` in Avx, Fma: include/cglm/simd/avx/mat4.h:57-112 -/
def v1_glm_mat4_mul_avx : Fn := ⟨[],
  [ac 1 0 32 32 false, ac 1 32 32 32 false, ac 0 0 32 32 false, ac 0 32 32 32 false, .call 2300 [], ac 2 0 32 32 true,
   ac 2 32 32 32 true]⟩
/-- `glm_mat4_mul_avx` in AvxU, FmaU: include/cglm/simd/avx/mat4.h:57-112 -/
def v2_glm_mat4_mul_avx : Fn := ⟨[],
  [ac 1 0 32 1 false, ac 1 32 32 1 false, ac 0 0 32 1 false, ac 0 32 32 1 false, .call 2300 [], ac 2 0 32 1 true,
   ac 2 32 32 1 true]⟩
/-- `glm_mul_avx` in Avx, Fma: include/cglm/simd/avx/affine.h:17-63 -/
def v1_glm_mul_avx : Fn := ⟨[],
  [ac 1 0 32 32 false, ac 1 32 32 32 false, ac 0 0 32 32 false, ac 0 32 32 32 false, ac 2 0 32 32 true, ac 2 32 32 32 true]⟩
/-- `glm_mul_avx` in AvxU, FmaU: include/cglm/simd/avx/affine.h:17-63 -/
def v2_glm_mul_avx : Fn := ⟨[],
  [ac 1 0 32 1 false, ac 1 32 32 1 false, ac 0 0 32 1 false, ac 0 32 32 1 false, ac 2 0 32 1 true, ac 2 32 32 1 true]⟩
/-- `glm_mat4_scale_neon` in Neon64, Neon32: include/cglm/simd/neon/mat4.h:15-26 -/
def v1_glm_mat4_scale_neon : Fn := ⟨[],
  [ac 0 0 16 4 true, ac 0 0 16 4 false, ac 0 16 16 4 true, ac 0 16 16 4 false, ac 0 32 16 4 true, ac 0 32 16 4 false,
   ac 0 48 16 4 true, ac 0 48 16 4 false]⟩
/-- `glm_mat4_transp_neon` in Neon64, Neon32: include/cglm/simd/neon/mat4.h:28-39 -/
def v1_glm_mat4_transp_neon : Fn := ⟨[],
  [ac 0 0 64 4 false, ac 1 0 16 4 true, ac 1 16 16 4 true, ac 1 32 16 4 true, ac 1 48 16 4 true]⟩
/-- `glm_mat4_mul_neon` in Neon64, Neon32: include/cglm/simd/neon/mat4.h:41-81 -/
def v1_glm_mat4_mul_neon : Fn := ⟨[],
  [ac 0 0 16 4 false, ac 1 0 16 4 false, ac 1 16 16 4 false, ac 1 32 16 4 false, ac 1 48 16 4 false, ac 0 16 16 4 false,
   .call 2280 [], ac 0 32 16 4 false, ac 0 48 16 4 false, ac 2 0 16 4 true, ac 2 16 16 4 true, ac 2 32 16 4 true,
   ac 2 48 16 4 true]⟩
/-- `glm_mat4_mulv_neon` in Neon64, Neon32: include/cglm/simd/neon/mat4.h:83-103 -/
def v1_glm_mat4_mulv_neon : Fn := ⟨[],
  [ac 0 0 16 4 false, ac 0 16 16 4 false, ac 0 32 16 4 false, ac 0 48 16 4 false, ac 1 0 8 4 false, ac 1 8 8 4 false,
   ac 2 0 16 4 true]⟩
/-- `glm_mat4_det_neon` in Neon64, Neon32: include/cglm/simd/neon/mat4.h:105-173 -/
def v1_glm_mat4_det_neon : Fn := ⟨[],
  [ac 0 0 16 4 false, ac 0 16 16 4 false, ac 0 32 16 4 false, ac 0 48 16 4 false, .call 2281 [], .call 2280 [], .call 2267 []]⟩
/-- `glm_mat4_inv_neon` in Neon64, Neon32: include/cglm/simd/neon/mat4.h:319-465 -/
def v1_glm_mat4_inv_neon : Fn := ⟨[],
  [ac 0 0 16 4 false, ac 0 16 16 4 false, ac 0 32 16 4 false, ac 0 48 16 4 false, .call 2281 [], .call 2279 [], .call 2280 [],
   ac 1 0 16 4 true, ac 1 16 16 4 true, ac 1 32 16 4 true, ac 1 48 16 4 true]⟩
/-- `glm_mat2_mul_neon` in Neon64, Neon32: include/cglm/simd/neon/mat2.h:15-41 -/
def v1_glm_mat2_mul_neon : Fn := ⟨[],
  [ac 0 0 16 4 false, ac 1 0 16 4 false, .call 2280 [], ac 2 0 16 4 true]⟩
/-- `glm_mul_neon` in Neon64, Neon32: include/cglm/simd/neon/affine.h:15-51 -/
def v1_glm_mul_neon : Fn := ⟨[],
  [ac 0 0 16 4 false, ac 1 0 16 4 false, ac 1 16 16 4 false, ac 1 32 16 4 false, ac 1 48 16 4 false, ac 0 16 16 4 false,
   .call 2280 [], ac 0 32 16 4 false, ac 0 48 16 4 false, ac 2 0 16 4 true, ac 2 16 16 4 true, ac 2 32 16 4 true,
   ac 2 48 16 4 true]⟩
/-- `glm_mul_rot_neon` in Neon64, Neon32: include/cglm/simd/neon/affine.h:53-83 -/
def v1_glm_mul_rot_neon : Fn := ⟨[],
  [ac 0 0 16 4 false, ac 1 0 16 4 false, ac 1 16 16 4 false, ac 1 32 16 4 false, ac 0 16 16 4 false, .call 2280 [],
   ac 0 32 16 4 false, ac 2 0 16 4 true, ac 2 16 16 4 true, ac 2 32 16 4 true, ac 2 48 16 4 true, ac 0 48 16 4 false]⟩
/-- `glm_inv_tr_neon` in Neon64, Neon32: include/cglm/simd/neon/affine.h:85-118 -/
def v1_glm_inv_tr_neon : Fn := ⟨[],
  [ac 0 0 64 4 false, .call 2280 [], ac 0 0 16 4 true, ac 0 16 16 4 true, ac 0 32 16 4 true, ac 0 48 16 4 true, wr 0 12,
   wr 0 28, wr 0 44, wr 0 60]⟩
/-- `glm_quat_mul_neon` in Neon64, Neon32: include/cglm/simd/neon/quat.h:15-54 -/
def v1_glm_quat_mul_neon : Fn := ⟨[],
  [ac 0 0 16 4 false, ac 1 0 16 4 false, .call 2280 [], ac 2 0 16 4 true]⟩
/-- `glm_vec4_ucopy` in Wasm: include/cglm/vec4.h:172-184 -/
def v1_glm_vec4_ucopy : Fn := ⟨[],
  [ac 1 0 16 1 true, ac 0 0 16 1 false]⟩
/-- `glm_mat4_scale_wasm` in Wasm: include/cglm/simd/wasm/mat4.h:17-27 -/
def v1_glm_mat4_scale_wasm : Fn := ⟨[],
  [ac 0 0 16 1 true, ac 0 0 16 1 false, ac 0 16 16 1 true, ac 0 16 16 1 false, ac 0 32 16 1 true, ac 0 32 16 1 false,
   ac 0 48 16 1 true, ac 0 48 16 1 false]⟩
/-- `glm_mat4_transp_wasm` in Wasm: include/cglm/simd/wasm/mat4.h:29-57 -/
def v1_glm_mat4_transp_wasm : Fn := ⟨[],
  [ac 0 0 16 1 false, ac 0 16 16 1 false, ac 0 32 16 1 false, ac 0 48 16 1 false, ac 1 0 16 1 true, ac 1 16 16 1 true,
   ac 1 32 16 1 true, ac 1 48 16 1 true]⟩
/-- `glm_mat4_mul_wasm` in Wasm: include/cglm/simd/wasm/mat4.h:59-99 -/
def v1_glm_mat4_mul_wasm : Fn := ⟨[],
  [ac 0 0 16 1 false, ac 1 0 16 1 false, ac 1 16 16 1 false, ac 1 32 16 1 false, ac 1 48 16 1 false, ac 0 16 16 1 false,
   .call 2280 [], ac 0 32 16 1 false, ac 0 48 16 1 false, ac 2 0 16 1 true, ac 2 16 16 1 true, ac 2 32 16 1 true,
   ac 2 48 16 1 true]⟩
/-- `glm_mat4_mulv_wasm` in Wasm: include/cglm/simd/wasm/mat4.h:101-123 -/
def v1_glm_mat4_mulv_wasm : Fn := ⟨[],
  [ac 0 0 16 1 false, ac 0 16 16 1 false, ac 0 32 16 1 false, ac 0 48 16 1 false, ac 1 0 16 1 false, .call 2280 [],
   ac 2 0 16 1 true]⟩
/-- `glm_mat4_det_wasm` in Wasm: include/cglm/simd/wasm/mat4.h:125-171 -/
def v1_glm_mat4_det_wasm : Fn := ⟨[],
  [ac 0 0 16 1 false, ac 0 16 16 1 false, ac 0 32 16 1 false, ac 0 48 16 1 false, .call 2281 [], .call 2280 [], .call 2267 []]⟩
/-- `glm_mat4_inv_fast_wasm` in Wasm: include/cglm/simd/wasm/mat4.h:173-312 -/
def v1_glm_mat4_inv_fast_wasm : Fn := ⟨[],
  [ac 0 0 16 1 false, ac 0 16 16 1 false, ac 0 32 16 1 false, ac 0 48 16 1 false, .call 2281 [], .call 2280 [], .call 2265 [],
   ac 1 0 16 1 true, ac 1 16 16 1 true, ac 1 32 16 1 true, ac 1 48 16 1 true]⟩
/-- `glm_mat4_inv_wasm` in Wasm: include/cglm/simd/wasm/mat4.h:314-451 -/
def v1_glm_mat4_inv_wasm : Fn := ⟨[],
  [ac 0 0 16 1 false, ac 0 16 16 1 false, ac 0 32 16 1 false, ac 0 48 16 1 false, .call 2281 [], .call 2280 [], .call 2265 [],
   ac 1 0 16 1 true, ac 1 16 16 1 true, ac 1 32 16 1 true, ac 1 48 16 1 true]⟩
/-- `glm_mat3_mul_wasm` in Wasm: include/cglm/simd/wasm/mat3.h:15-82 -/
def v1_glm_mat3_mul_wasm : Fn := ⟨[],
  [ac 0 0 16 1 false, ac 0 16 16 1 false, ac 1 0 16 1 false, ac 1 16 16 1 false, ac 0 32 4 1 false, ac 1 32 4 1 false,
   .call 2280 [], .call 2272 [], ac 2 0 16 1 true, ac 2 16 16 1 true, ac 2 32 4 1 true]⟩
/-- `glm_mat2_mul_wasm` in Wasm: include/cglm/simd/wasm/mat2.h:15-39 -/
def v1_glm_mat2_mul_wasm : Fn := ⟨[],
  [ac 0 0 16 1 false, ac 1 0 16 1 false, .call 2280 [], ac 2 0 16 1 true]⟩
/-- `glm_mat2_transp_wasm` in Wasm: include/cglm/simd/wasm/mat2.h:41-47 -/
def v1_glm_mat2_transp_wasm : Fn := ⟨[],
  [ac 1 0 16 1 true, ac 0 0 16 1 false]⟩
/-- `glm_mul_wasm` in Wasm: include/cglm/simd/wasm/affine.h:15-51 -/
def v1_glm_mul_wasm : Fn := ⟨[],
  [ac 0 0 16 1 false, ac 1 0 16 1 false, ac 1 16 16 1 false, ac 1 32 16 1 false, ac 1 48 16 1 false, ac 0 16 16 1 false,
   .call 2280 [], ac 0 32 16 1 false, ac 0 48 16 1 false, ac 2 0 16 1 true, ac 2 16 16 1 true, ac 2 32 16 1 true,
   ac 2 48 16 1 true]⟩
/-- `glm_mul_rot_wasm` in Wasm: include/cglm/simd/wasm/affine.h:53-83 -/
def v1_glm_mul_rot_wasm : Fn := ⟨[],
  [ac 0 0 16 1 false, ac 1 0 16 1 false, ac 1 16 16 1 false, ac 1 32 16 1 false, ac 0 16 16 1 false, .call 2280 [],
   ac 0 32 16 1 false, ac 2 0 16 1 true, ac 2 16 16 1 true, ac 2 32 16 1 true, ac 2 48 16 1 true, ac 0 48 16 1 false]⟩
/-- `glm_inv_tr_wasm` in Wasm: include/cglm/simd/wasm/affine.h:85-124 -/
def v1_glm_inv_tr_wasm : Fn := ⟨[],
  [ac 0 0 16 1 false, ac 0 16 16 1 false, ac 0 32 16 1 false, ac 0 48 16 1 false, .call 2280 [], ac 0 0 16 1 true,
   ac 0 16 16 1 true, ac 0 32 16 1 true, ac 0 48 16 1 true]⟩
/-- `glm_quat_mul_wasm` in Wasm: include/cglm/simd/wasm/quat.h:15-52 -/
def v1_glm_quat_mul_wasm : Fn := ⟨[],
  [ac 0 0 16 1 false, ac 1 0 16 1 false, .call 2280 [], ac 2 0 16 1 true]⟩

/-- functions that Sse replaces or adds -/
def ownSse : Tree Fn :=
 .node 389 v1_glm_mat4_inv_fast
 (.node 157 v1_glm_vec4_muladds
  (.node 144 v1_glm_vec4_norm_inf
   (.node 136 v1_glm_vec4_copy
    (.node 126 v1_glm_vec4_abs
     (.node 114 v1_glm_vec4_fill
      (.node 113 v1_glm_vec4_broadcast .leaf .leaf)
      (.node 125 v1_glm_vec4_sign .leaf .leaf))
     (.node 133 v1_glm_vec4_sqrt
      (.node 132 v1_glm_vec4_hadd .leaf .leaf)
      .leaf))
    (.node 140 v1_glm_vec4_dot
     (.node 139 v1_glm_vec4_one
      (.node 138 v1_glm_vec4_zero .leaf .leaf)
      .leaf)
     (.node 143 v1_glm_vec4_norm_one
      (.node 142 v1_glm_vec4_norm .leaf .leaf)
      .leaf)))
   (.node 150 v1_glm_vec4_scale
    (.node 147 v1_glm_vec4_sub
     (.node 146 v1_glm_vec4_adds
      (.node 145 v1_glm_vec4_add .leaf .leaf)
      .leaf)
     (.node 149 v1_glm_vec4_mul
      (.node 148 v1_glm_vec4_subs .leaf .leaf)
      .leaf))
    (.node 154 v1_glm_vec4_addadd
     (.node 153 v1_glm_vec4_divs
      (.node 152 v1_glm_vec4_div .leaf .leaf)
      .leaf)
     (.node 156 v1_glm_vec4_muladd
      (.node 155 v1_glm_vec4_subadd .leaf .leaf)
      .leaf))))
  (.node 172 v1_glm_vec4_maxv
   (.node 164 v1_glm_vec4_maxsub
    (.node 161 v1_glm_vec4_addsub
     (.node 159 v1_glm_vec4_minadd
      (.node 158 v1_glm_vec4_maxadd .leaf .leaf)
      (.node 160 v1_glm_vec4_subsub .leaf .leaf))
     (.node 163 v1_glm_vec4_mulsubs
      (.node 162 v1_glm_vec4_mulsub .leaf .leaf)
      .leaf))
    (.node 168 v1_glm_vec4_normalize_to
     (.node 166 v1_glm_vec4_negate_to
      (.node 165 v1_glm_vec4_minsub .leaf .leaf)
      .leaf)
     (.node 171 v1_glm_vec4_distance2
      (.node 170 v1_glm_vec4_distance .leaf .leaf)
      .leaf)))
   (.node 378 v1_glm_mat4_mulv
    (.node 369 v1_glm_mat4_copy
     (.node 174 v1_glm_vec4_clamp
      (.node 173 v1_glm_vec4_minv .leaf .leaf)
      .leaf)
     (.node 376 v1_glm_mat4_mul
      (.node 372 v1_glm_mat4_zero .leaf .leaf)
      .leaf))
    (.node 386 v1_glm_mat4_scale
     (.node 384 v1_glm_mat4_transpose
      (.node 383 v1_glm_mat4_transpose_to .leaf .leaf)
      .leaf)
     (.node 388 v1_glm_mat4_inv
      (.node 387 v1_glm_mat4_det .leaf .leaf)
      .leaf)))))
 (.node 2273 v1_glmm_vdot
  (.node 660 v1_glm_quat_mul
   (.node 473 v1_glm_inv_tr
    (.node 450 v1_glm_mat2_scale
     (.node 446 v1_glm_mat2_mul
      (.node 413 v1_glm_mat3_mul .leaf .leaf)
      (.node 448 v1_glm_mat2_transpose_to .leaf .leaf))
     (.node 472 v1_glm_mul_rot
      (.node 471 v1_glm_mul .leaf .leaf)
      .leaf))
    (.node 487 v1_glm_translate_y
     (.node 486 v1_glm_translate_x
      (.node 484 v1_glm_translate .leaf .leaf)
      .leaf)
     (.node 647 v1_glm_quat_normalize_to
      (.node 488 v1_glm_translate_z .leaf .leaf)
      .leaf)))
   (.node 2267 v1_glmm_hadd
    (.node 2264 v1_glmm_max
     (.node 2263 v1_glmm_min
      (.node 2262 v1_glmm_abs .leaf .leaf)
      .leaf)
     (.node 2266 v1_glmm_vhadds
      (.node 2265 v1_glmm_vhadd .leaf .leaf)
      .leaf))
    (.node 2270 v1_glmm_vhmax
     (.node 2269 v1_glmm_hmin
      (.node 2268 v1_glmm_vhmin .leaf .leaf)
      .leaf)
     (.node 2272 v1_glmm_vdots
      (.node 2271 v1_glmm_hmax .leaf .leaf)
      .leaf))))
  (.node 2286 v1_glm_mat4_mul_sse2
   (.node 2280 v1_glmm_fmadd
    (.node 2277 v1_glmm_norm_one
     (.node 2275 v1_glmm_norm
      (.node 2274 v1_glmm_dot .leaf .leaf)
      (.node 2276 v1_glmm_norm2 .leaf .leaf))
     (.node 2279 v1_glmm_div
      (.node 2278 v1_glmm_norm_inf .leaf .leaf)
      .leaf))
    (.node 2283 v1_glmm_fnmsub
     (.node 2282 v1_glmm_fmsub
      (.node 2281 v1_glmm_fnmadd .leaf .leaf)
      .leaf)
     (.node 2285 v1_glm_mat4_transp_sse2
      (.node 2284 v1_glm_mat4_scale_sse2 .leaf .leaf)
      .leaf)))
   (.node 2292 v1_glm_mat2_mul_sse2
    (.node 2289 v1_glm_mat4_inv_fast_sse2
     (.node 2288 v1_glm_mat4_det_sse2
      (.node 2287 v1_glm_mat4_mulv_sse2 .leaf .leaf)
      .leaf)
     (.node 2291 v1_glm_mat3_mul_sse2
      (.node 2290 v1_glm_mat4_inv_sse2 .leaf .leaf)
      .leaf))
    (.node 2295 v1_glm_mul_rot_sse2
     (.node 2294 v1_glm_mul_sse2
      (.node 2293 v1_glm_mat2_transp_sse2 .leaf .leaf)
      .leaf)
     (.node 2297 v1_glm_quat_mul_sse2
      (.node 2296 v1_glm_inv_tr_sse2 .leaf .leaf)
      .leaf)))))

/-- functions that Sse2 replaces or adds -/
def ownSse2 : Tree Fn :=
 .node 413 v1_glm_mat3_mul
 (.node 158 v1_glm_vec4_maxadd
  (.node 144 v1_glm_vec4_norm_inf
   (.node 136 v1_glm_vec4_copy
    (.node 126 v1_glm_vec4_abs
     (.node 114 v1_glm_vec4_fill
      (.node 113 v1_glm_vec4_broadcast .leaf .leaf)
      (.node 125 v1_glm_vec4_sign .leaf .leaf))
     (.node 133 v1_glm_vec4_sqrt
      (.node 132 v1_glm_vec4_hadd .leaf .leaf)
      .leaf))
    (.node 140 v1_glm_vec4_dot
     (.node 139 v1_glm_vec4_one
      (.node 138 v1_glm_vec4_zero .leaf .leaf)
      .leaf)
     (.node 143 v1_glm_vec4_norm_one
      (.node 142 v1_glm_vec4_norm .leaf .leaf)
      .leaf)))
   (.node 152 v1_glm_vec4_div
    (.node 148 v1_glm_vec4_subs
     (.node 146 v1_glm_vec4_adds
      (.node 145 v1_glm_vec4_add .leaf .leaf)
      (.node 147 v1_glm_vec4_sub .leaf .leaf))
     (.node 150 v1_glm_vec4_scale
      (.node 149 v1_glm_vec4_mul .leaf .leaf)
      .leaf))
    (.node 155 v1_glm_vec4_subadd
     (.node 154 v1_glm_vec4_addadd
      (.node 153 v1_glm_vec4_divs .leaf .leaf)
      .leaf)
     (.node 157 v1_glm_vec4_muladds
      (.node 156 v1_glm_vec4_muladd .leaf .leaf)
      .leaf))))
  (.node 173 v1_glm_vec4_minv
   (.node 165 v1_glm_vec4_minsub
    (.node 162 v1_glm_vec4_mulsub
     (.node 160 v1_glm_vec4_subsub
      (.node 159 v1_glm_vec4_minadd .leaf .leaf)
      (.node 161 v1_glm_vec4_addsub .leaf .leaf))
     (.node 164 v1_glm_vec4_maxsub
      (.node 163 v1_glm_vec4_mulsubs .leaf .leaf)
      .leaf))
    (.node 170 v1_glm_vec4_distance
     (.node 168 v1_glm_vec4_normalize_to
      (.node 166 v1_glm_vec4_negate_to .leaf .leaf)
      .leaf)
     (.node 172 v1_glm_vec4_maxv
      (.node 171 v1_glm_vec4_distance2 .leaf .leaf)
      .leaf)))
   (.node 383 v1_glm_mat4_transpose_to
    (.node 372 v1_glm_mat4_zero
     (.node 369 v1_glm_mat4_copy
      (.node 174 v1_glm_vec4_clamp .leaf .leaf)
      .leaf)
     (.node 378 v1_glm_mat4_mulv
      (.node 376 v1_glm_mat4_mul .leaf .leaf)
      .leaf))
    (.node 387 v1_glm_mat4_det
     (.node 386 v1_glm_mat4_scale
      (.node 384 v1_glm_mat4_transpose .leaf .leaf)
      .leaf)
     (.node 389 v1_glm_mat4_inv_fast
      (.node 388 v1_glm_mat4_inv .leaf .leaf)
      .leaf)))))
 (.node 2275 v1_glmm_norm
  (.node 2262 v1_glmm_abs
   (.node 484 v1_glm_translate
    (.node 471 v1_glm_mul
     (.node 448 v1_glm_mat2_transpose_to
      (.node 446 v1_glm_mat2_mul .leaf .leaf)
      (.node 450 v1_glm_mat2_scale .leaf .leaf))
     (.node 473 v1_glm_inv_tr
      (.node 472 v1_glm_mul_rot .leaf .leaf)
      .leaf))
    (.node 488 v1_glm_translate_z
     (.node 487 v1_glm_translate_y
      (.node 486 v1_glm_translate_x .leaf .leaf)
      .leaf)
     (.node 660 v1_glm_quat_mul
      (.node 647 v1_glm_quat_normalize_to .leaf .leaf)
      .leaf)))
   (.node 2269 v1_glmm_hmin
    (.node 2266 v1_glmm_vhadds
     (.node 2264 v1_glmm_max
      (.node 2263 v1_glmm_min .leaf .leaf)
      (.node 2265 v1_glmm_vhadd .leaf .leaf))
     (.node 2268 v1_glmm_vhmin
      (.node 2267 v1_glmm_hadd .leaf .leaf)
      .leaf))
    (.node 2272 v1_glmm_vdots
     (.node 2271 v1_glmm_hmax
      (.node 2270 v1_glmm_vhmax .leaf .leaf)
      .leaf)
     (.node 2274 v1_glmm_dot
      (.node 2273 v1_glmm_vdot .leaf .leaf)
      .leaf))))
  (.node 2288 v1_glm_mat4_det_sse2
   (.node 2282 v1_glmm_fmsub
    (.node 2279 v1_glmm_div
     (.node 2277 v1_glmm_norm_one
      (.node 2276 v1_glmm_norm2 .leaf .leaf)
      (.node 2278 v1_glmm_norm_inf .leaf .leaf))
     (.node 2281 v1_glmm_fnmadd
      (.node 2280 v1_glmm_fmadd .leaf .leaf)
      .leaf))
    (.node 2285 v1_glm_mat4_transp_sse2
     (.node 2284 v1_glm_mat4_scale_sse2
      (.node 2283 v1_glmm_fnmsub .leaf .leaf)
      .leaf)
     (.node 2287 v1_glm_mat4_mulv_sse2
      (.node 2286 v1_glm_mat4_mul_sse2 .leaf .leaf)
      .leaf)))
   (.node 2294 v1_glm_mul_sse2
    (.node 2291 v1_glm_mat3_mul_sse2
     (.node 2290 v1_glm_mat4_inv_sse2
      (.node 2289 v1_glm_mat4_inv_fast_sse2 .leaf .leaf)
      .leaf)
     (.node 2293 v1_glm_mat2_transp_sse2
      (.node 2292 v1_glm_mat2_mul_sse2 .leaf .leaf)
      .leaf))
    (.node 2297 v1_glm_quat_mul_sse2
     (.node 2296 v1_glm_inv_tr_sse2
      (.node 2295 v1_glm_mul_rot_sse2 .leaf .leaf)
      .leaf)
     (.node 2299 v1_glmm_store3
      (.node 2298 v1_glmm_load3 .leaf .leaf)
      .leaf)))))

/-- functions that Sse3 replaces or adds -/
def ownSse3 : Tree Fn :=
 .node 413 v1_glm_mat3_mul
 (.node 158 v1_glm_vec4_maxadd
  (.node 144 v1_glm_vec4_norm_inf
   (.node 136 v1_glm_vec4_copy
    (.node 126 v1_glm_vec4_abs
     (.node 114 v1_glm_vec4_fill
      (.node 113 v1_glm_vec4_broadcast .leaf .leaf)
      (.node 125 v1_glm_vec4_sign .leaf .leaf))
     (.node 133 v1_glm_vec4_sqrt
      (.node 132 v1_glm_vec4_hadd .leaf .leaf)
      .leaf))
    (.node 140 v1_glm_vec4_dot
     (.node 139 v1_glm_vec4_one
      (.node 138 v1_glm_vec4_zero .leaf .leaf)
      .leaf)
     (.node 143 v1_glm_vec4_norm_one
      (.node 142 v1_glm_vec4_norm .leaf .leaf)
      .leaf)))
   (.node 152 v1_glm_vec4_div
    (.node 148 v1_glm_vec4_subs
     (.node 146 v1_glm_vec4_adds
      (.node 145 v1_glm_vec4_add .leaf .leaf)
      (.node 147 v1_glm_vec4_sub .leaf .leaf))
     (.node 150 v1_glm_vec4_scale
      (.node 149 v1_glm_vec4_mul .leaf .leaf)
      .leaf))
    (.node 155 v1_glm_vec4_subadd
     (.node 154 v1_glm_vec4_addadd
      (.node 153 v1_glm_vec4_divs .leaf .leaf)
      .leaf)
     (.node 157 v1_glm_vec4_muladds
      (.node 156 v1_glm_vec4_muladd .leaf .leaf)
      .leaf))))
  (.node 173 v1_glm_vec4_minv
   (.node 165 v1_glm_vec4_minsub
    (.node 162 v1_glm_vec4_mulsub
     (.node 160 v1_glm_vec4_subsub
      (.node 159 v1_glm_vec4_minadd .leaf .leaf)
      (.node 161 v1_glm_vec4_addsub .leaf .leaf))
     (.node 164 v1_glm_vec4_maxsub
      (.node 163 v1_glm_vec4_mulsubs .leaf .leaf)
      .leaf))
    (.node 170 v1_glm_vec4_distance
     (.node 168 v1_glm_vec4_normalize_to
      (.node 166 v1_glm_vec4_negate_to .leaf .leaf)
      .leaf)
     (.node 172 v1_glm_vec4_maxv
      (.node 171 v1_glm_vec4_distance2 .leaf .leaf)
      .leaf)))
   (.node 383 v1_glm_mat4_transpose_to
    (.node 372 v1_glm_mat4_zero
     (.node 369 v1_glm_mat4_copy
      (.node 174 v1_glm_vec4_clamp .leaf .leaf)
      .leaf)
     (.node 378 v1_glm_mat4_mulv
      (.node 376 v1_glm_mat4_mul .leaf .leaf)
      .leaf))
    (.node 387 v1_glm_mat4_det
     (.node 386 v1_glm_mat4_scale
      (.node 384 v1_glm_mat4_transpose .leaf .leaf)
      .leaf)
     (.node 389 v1_glm_mat4_inv_fast
      (.node 388 v1_glm_mat4_inv .leaf .leaf)
      .leaf)))))
 (.node 2275 v1_glmm_norm
  (.node 2262 v1_glmm_abs
   (.node 484 v1_glm_translate
    (.node 471 v1_glm_mul
     (.node 448 v1_glm_mat2_transpose_to
      (.node 446 v1_glm_mat2_mul .leaf .leaf)
      (.node 450 v1_glm_mat2_scale .leaf .leaf))
     (.node 473 v1_glm_inv_tr
      (.node 472 v1_glm_mul_rot .leaf .leaf)
      .leaf))
    (.node 488 v1_glm_translate_z
     (.node 487 v1_glm_translate_y
      (.node 486 v1_glm_translate_x .leaf .leaf)
      .leaf)
     (.node 660 v1_glm_quat_mul
      (.node 647 v1_glm_quat_normalize_to .leaf .leaf)
      .leaf)))
   (.node 2269 v1_glmm_hmin
    (.node 2266 v1_glmm_vhadds
     (.node 2264 v1_glmm_max
      (.node 2263 v1_glmm_min .leaf .leaf)
      (.node 2265 v1_glmm_vhadd .leaf .leaf))
     (.node 2268 v1_glmm_vhmin
      (.node 2267 v1_glmm_hadd .leaf .leaf)
      .leaf))
    (.node 2272 v2_glmm_vdots
     (.node 2271 v1_glmm_hmax
      (.node 2270 v1_glmm_vhmax .leaf .leaf)
      .leaf)
     (.node 2274 v1_glmm_dot
      (.node 2273 v1_glmm_vdot .leaf .leaf)
      .leaf))))
  (.node 2288 v1_glm_mat4_det_sse2
   (.node 2282 v1_glmm_fmsub
    (.node 2279 v1_glmm_div
     (.node 2277 v1_glmm_norm_one
      (.node 2276 v1_glmm_norm2 .leaf .leaf)
      (.node 2278 v1_glmm_norm_inf .leaf .leaf))
     (.node 2281 v1_glmm_fnmadd
      (.node 2280 v1_glmm_fmadd .leaf .leaf)
      .leaf))
    (.node 2285 v1_glm_mat4_transp_sse2
     (.node 2284 v1_glm_mat4_scale_sse2
      (.node 2283 v1_glmm_fnmsub .leaf .leaf)
      .leaf)
     (.node 2287 v1_glm_mat4_mulv_sse2
      (.node 2286 v1_glm_mat4_mul_sse2 .leaf .leaf)
      .leaf)))
   (.node 2294 v1_glm_mul_sse2
    (.node 2291 v1_glm_mat3_mul_sse2
     (.node 2290 v1_glm_mat4_inv_sse2
      (.node 2289 v1_glm_mat4_inv_fast_sse2 .leaf .leaf)
      .leaf)
     (.node 2293 v1_glm_mat2_transp_sse2
      (.node 2292 v1_glm_mat2_mul_sse2 .leaf .leaf)
      .leaf))
    (.node 2297 v1_glm_quat_mul_sse2
     (.node 2296 v1_glm_inv_tr_sse2
      (.node 2295 v1_glm_mul_rot_sse2 .leaf .leaf)
      .leaf)
     (.node 2299 v1_glmm_store3
      (.node 2298 v1_glmm_load3 .leaf .leaf)
      .leaf)))))

/-- functions that Sse4 replaces or adds -/
def ownSse4 : Tree Fn :=
 .node 413 v1_glm_mat3_mul
 (.node 158 v1_glm_vec4_maxadd
  (.node 144 v1_glm_vec4_norm_inf
   (.node 136 v1_glm_vec4_copy
    (.node 126 v1_glm_vec4_abs
     (.node 114 v1_glm_vec4_fill
      (.node 113 v1_glm_vec4_broadcast .leaf .leaf)
      (.node 125 v1_glm_vec4_sign .leaf .leaf))
     (.node 133 v1_glm_vec4_sqrt
      (.node 132 v1_glm_vec4_hadd .leaf .leaf)
      .leaf))
    (.node 140 v1_glm_vec4_dot
     (.node 139 v1_glm_vec4_one
      (.node 138 v1_glm_vec4_zero .leaf .leaf)
      .leaf)
     (.node 143 v1_glm_vec4_norm_one
      (.node 142 v1_glm_vec4_norm .leaf .leaf)
      .leaf)))
   (.node 152 v1_glm_vec4_div
    (.node 148 v1_glm_vec4_subs
     (.node 146 v1_glm_vec4_adds
      (.node 145 v1_glm_vec4_add .leaf .leaf)
      (.node 147 v1_glm_vec4_sub .leaf .leaf))
     (.node 150 v1_glm_vec4_scale
      (.node 149 v1_glm_vec4_mul .leaf .leaf)
      .leaf))
    (.node 155 v1_glm_vec4_subadd
     (.node 154 v1_glm_vec4_addadd
      (.node 153 v1_glm_vec4_divs .leaf .leaf)
      .leaf)
     (.node 157 v1_glm_vec4_muladds
      (.node 156 v1_glm_vec4_muladd .leaf .leaf)
      .leaf))))
  (.node 173 v1_glm_vec4_minv
   (.node 165 v1_glm_vec4_minsub
    (.node 162 v1_glm_vec4_mulsub
     (.node 160 v1_glm_vec4_subsub
      (.node 159 v1_glm_vec4_minadd .leaf .leaf)
      (.node 161 v1_glm_vec4_addsub .leaf .leaf))
     (.node 164 v1_glm_vec4_maxsub
      (.node 163 v1_glm_vec4_mulsubs .leaf .leaf)
      .leaf))
    (.node 170 v1_glm_vec4_distance
     (.node 168 v1_glm_vec4_normalize_to
      (.node 166 v1_glm_vec4_negate_to .leaf .leaf)
      .leaf)
     (.node 172 v1_glm_vec4_maxv
      (.node 171 v1_glm_vec4_distance2 .leaf .leaf)
      .leaf)))
   (.node 383 v1_glm_mat4_transpose_to
    (.node 372 v1_glm_mat4_zero
     (.node 369 v1_glm_mat4_copy
      (.node 174 v1_glm_vec4_clamp .leaf .leaf)
      .leaf)
     (.node 378 v1_glm_mat4_mulv
      (.node 376 v1_glm_mat4_mul .leaf .leaf)
      .leaf))
    (.node 387 v1_glm_mat4_det
     (.node 386 v1_glm_mat4_scale
      (.node 384 v1_glm_mat4_transpose .leaf .leaf)
      .leaf)
     (.node 389 v1_glm_mat4_inv_fast
      (.node 388 v1_glm_mat4_inv .leaf .leaf)
      .leaf)))))
 (.node 2275 v1_glmm_norm
  (.node 2262 v1_glmm_abs
   (.node 484 v1_glm_translate
    (.node 471 v1_glm_mul
     (.node 448 v1_glm_mat2_transpose_to
      (.node 446 v1_glm_mat2_mul .leaf .leaf)
      (.node 450 v1_glm_mat2_scale .leaf .leaf))
     (.node 473 v1_glm_inv_tr
      (.node 472 v1_glm_mul_rot .leaf .leaf)
      .leaf))
    (.node 488 v1_glm_translate_z
     (.node 487 v1_glm_translate_y
      (.node 486 v1_glm_translate_x .leaf .leaf)
      .leaf)
     (.node 660 v1_glm_quat_mul
      (.node 647 v1_glm_quat_normalize_to .leaf .leaf)
      .leaf)))
   (.node 2269 v1_glmm_hmin
    (.node 2266 v1_glmm_vhadds
     (.node 2264 v1_glmm_max
      (.node 2263 v1_glmm_min .leaf .leaf)
      (.node 2265 v1_glmm_vhadd .leaf .leaf))
     (.node 2268 v1_glmm_vhmin
      (.node 2267 v1_glmm_hadd .leaf .leaf)
      .leaf))
    (.node 2272 v2_glmm_vdots
     (.node 2271 v1_glmm_hmax
      (.node 2270 v1_glmm_vhmax .leaf .leaf)
      .leaf)
     (.node 2274 v1_glmm_dot
      (.node 2273 v1_glmm_vdot .leaf .leaf)
      .leaf))))
  (.node 2288 v1_glm_mat4_det_sse2
   (.node 2282 v1_glmm_fmsub
    (.node 2279 v1_glmm_div
     (.node 2277 v1_glmm_norm_one
      (.node 2276 v1_glmm_norm2 .leaf .leaf)
      (.node 2278 v1_glmm_norm_inf .leaf .leaf))
     (.node 2281 v1_glmm_fnmadd
      (.node 2280 v1_glmm_fmadd .leaf .leaf)
      .leaf))
    (.node 2285 v1_glm_mat4_transp_sse2
     (.node 2284 v1_glm_mat4_scale_sse2
      (.node 2283 v1_glmm_fnmsub .leaf .leaf)
      .leaf)
     (.node 2287 v1_glm_mat4_mulv_sse2
      (.node 2286 v1_glm_mat4_mul_sse2 .leaf .leaf)
      .leaf)))
   (.node 2294 v1_glm_mul_sse2
    (.node 2291 v1_glm_mat3_mul_sse2
     (.node 2290 v1_glm_mat4_inv_sse2
      (.node 2289 v1_glm_mat4_inv_fast_sse2 .leaf .leaf)
      .leaf)
     (.node 2293 v1_glm_mat2_transp_sse2
      (.node 2292 v1_glm_mat2_mul_sse2 .leaf .leaf)
      .leaf))
    (.node 2297 v1_glm_quat_mul_sse2
     (.node 2296 v1_glm_inv_tr_sse2
      (.node 2295 v1_glm_mul_rot_sse2 .leaf .leaf)
      .leaf)
     (.node 2299 v1_glmm_store3
      (.node 2298 v1_glmm_load3 .leaf .leaf)
      .leaf)))))

/-- functions that Avx replaces or adds -/
def ownAvx : Tree Fn :=
 .node 471 v2_glm_mul
 (.node 160 v1_glm_vec4_subsub
  (.node 145 v1_glm_vec4_add
   (.node 136 v1_glm_vec4_copy
    (.node 126 v1_glm_vec4_abs
     (.node 114 v2_glm_vec4_fill
      (.node 113 v2_glm_vec4_broadcast .leaf .leaf)
      (.node 125 v1_glm_vec4_sign .leaf .leaf))
     (.node 133 v1_glm_vec4_sqrt
      (.node 132 v1_glm_vec4_hadd .leaf .leaf)
      .leaf))
    (.node 142 v1_glm_vec4_norm
     (.node 139 v1_glm_vec4_one
      (.node 138 v1_glm_vec4_zero .leaf .leaf)
      (.node 140 v1_glm_vec4_dot .leaf .leaf))
     (.node 144 v1_glm_vec4_norm_inf
      (.node 143 v1_glm_vec4_norm_one .leaf .leaf)
      .leaf)))
   (.node 153 v2_glm_vec4_divs
    (.node 149 v1_glm_vec4_mul
     (.node 147 v1_glm_vec4_sub
      (.node 146 v2_glm_vec4_adds .leaf .leaf)
      (.node 148 v2_glm_vec4_subs .leaf .leaf))
     (.node 152 v1_glm_vec4_div
      (.node 150 v2_glm_vec4_scale .leaf .leaf)
      .leaf))
    (.node 157 v2_glm_vec4_muladds
     (.node 155 v1_glm_vec4_subadd
      (.node 154 v1_glm_vec4_addadd .leaf .leaf)
      (.node 156 v1_glm_vec4_muladd .leaf .leaf))
     (.node 159 v1_glm_vec4_minadd
      (.node 158 v1_glm_vec4_maxadd .leaf .leaf)
      .leaf))))
  (.node 372 v2_glm_mat4_zero
   (.node 168 v1_glm_vec4_normalize_to
    (.node 164 v1_glm_vec4_maxsub
     (.node 162 v1_glm_vec4_mulsub
      (.node 161 v1_glm_vec4_addsub .leaf .leaf)
      (.node 163 v2_glm_vec4_mulsubs .leaf .leaf))
     (.node 166 v1_glm_vec4_negate_to
      (.node 165 v1_glm_vec4_minsub .leaf .leaf)
      .leaf))
    (.node 173 v1_glm_vec4_minv
     (.node 171 v1_glm_vec4_distance2
      (.node 170 v1_glm_vec4_distance .leaf .leaf)
      (.node 172 v1_glm_vec4_maxv .leaf .leaf))
     (.node 369 v2_glm_mat4_copy
      (.node 174 v2_glm_vec4_clamp .leaf .leaf)
      .leaf)))
   (.node 388 v1_glm_mat4_inv
    (.node 384 v2_glm_mat4_transpose
     (.node 378 v1_glm_mat4_mulv
      (.node 376 v2_glm_mat4_mul .leaf .leaf)
      (.node 383 v2_glm_mat4_transpose_to .leaf .leaf))
     (.node 387 v1_glm_mat4_det
      (.node 386 v2_glm_mat4_scale .leaf .leaf)
      .leaf))
    (.node 446 v1_glm_mat2_mul
     (.node 413 v1_glm_mat3_mul
      (.node 389 v1_glm_mat4_inv_fast .leaf .leaf)
      .leaf)
     (.node 450 v2_glm_mat2_scale
      (.node 448 v1_glm_mat2_transpose_to .leaf .leaf)
      .leaf)))))
 (.node 2281 v1_glmm_fnmadd
  (.node 2267 v1_glmm_hadd
   (.node 647 v1_glm_quat_normalize_to
    (.node 486 v2_glm_translate_x
     (.node 473 v1_glm_inv_tr
      (.node 472 v1_glm_mul_rot .leaf .leaf)
      (.node 484 v1_glm_translate .leaf .leaf))
     (.node 488 v2_glm_translate_z
      (.node 487 v2_glm_translate_y .leaf .leaf)
      .leaf))
    (.node 2264 v1_glmm_max
     (.node 2262 v1_glmm_abs
      (.node 660 v1_glm_quat_mul .leaf .leaf)
      (.node 2263 v1_glmm_min .leaf .leaf))
     (.node 2266 v1_glmm_vhadds
      (.node 2265 v1_glmm_vhadd .leaf .leaf)
      .leaf)))
   (.node 2274 v1_glmm_dot
    (.node 2271 v1_glmm_hmax
     (.node 2269 v1_glmm_hmin
      (.node 2268 v1_glmm_vhmin .leaf .leaf)
      (.node 2270 v1_glmm_vhmax .leaf .leaf))
     (.node 2273 v1_glmm_vdot
      (.node 2272 v1_glmm_vdots .leaf .leaf)
      .leaf))
    (.node 2278 v1_glmm_norm_inf
     (.node 2276 v1_glmm_norm2
      (.node 2275 v1_glmm_norm .leaf .leaf)
      (.node 2277 v1_glmm_norm_one .leaf .leaf))
     (.node 2280 v1_glmm_fmadd
      (.node 2279 v1_glmm_div .leaf .leaf)
      .leaf))))
  (.node 2295 v1_glm_mul_rot_sse2
   (.node 2288 v1_glm_mat4_det_sse2
    (.node 2285 v1_glm_mat4_transp_sse2
     (.node 2283 v1_glmm_fnmsub
      (.node 2282 v1_glmm_fmsub .leaf .leaf)
      (.node 2284 v2_glm_mat4_scale_sse2 .leaf .leaf))
     (.node 2287 v1_glm_mat4_mulv_sse2
      (.node 2286 v1_glm_mat4_mul_sse2 .leaf .leaf)
      .leaf))
    (.node 2292 v1_glm_mat2_mul_sse2
     (.node 2290 v1_glm_mat4_inv_sse2
      (.node 2289 v1_glm_mat4_inv_fast_sse2 .leaf .leaf)
      (.node 2291 v1_glm_mat3_mul_sse2 .leaf .leaf))
     (.node 2294 v1_glm_mul_sse2
      (.node 2293 v1_glm_mat2_transp_sse2 .leaf .leaf)
      .leaf)))
   (.node 2302 v1_glmm256_fmsub
    (.node 2299 v1_glmm_store3
     (.node 2297 v1_glm_quat_mul_sse2
      (.node 2296 v1_glm_inv_tr_sse2 .leaf .leaf)
      (.node 2298 v1_glmm_load3 .leaf .leaf))
     (.node 2301 v1_glmm256_fnmadd
      (.node 2300 v1_glmm256_fmadd .leaf .leaf)
      .leaf))
    (.node 2305 v1_glm_mat4_transp_avx
     (.node 2304 v1_glm_mat4_scale_avx
      (.node 2303 v1_glmm256_fnmsub .leaf .leaf)
      .leaf)
     (.node 2307 v1_glm_mul_avx
      (.node 2306 v1_glm_mat4_mul_avx .leaf .leaf)
      .leaf)))))

/-- functions that Fma replaces or adds -/
def ownFma : Tree Fn :=
 .node 471 v2_glm_mul
 (.node 160 v1_glm_vec4_subsub
  (.node 145 v1_glm_vec4_add
   (.node 136 v1_glm_vec4_copy
    (.node 126 v1_glm_vec4_abs
     (.node 114 v2_glm_vec4_fill
      (.node 113 v2_glm_vec4_broadcast .leaf .leaf)
      (.node 125 v1_glm_vec4_sign .leaf .leaf))
     (.node 133 v1_glm_vec4_sqrt
      (.node 132 v1_glm_vec4_hadd .leaf .leaf)
      .leaf))
    (.node 142 v1_glm_vec4_norm
     (.node 139 v1_glm_vec4_one
      (.node 138 v1_glm_vec4_zero .leaf .leaf)
      (.node 140 v1_glm_vec4_dot .leaf .leaf))
     (.node 144 v1_glm_vec4_norm_inf
      (.node 143 v1_glm_vec4_norm_one .leaf .leaf)
      .leaf)))
   (.node 153 v2_glm_vec4_divs
    (.node 149 v1_glm_vec4_mul
     (.node 147 v1_glm_vec4_sub
      (.node 146 v2_glm_vec4_adds .leaf .leaf)
      (.node 148 v2_glm_vec4_subs .leaf .leaf))
     (.node 152 v1_glm_vec4_div
      (.node 150 v2_glm_vec4_scale .leaf .leaf)
      .leaf))
    (.node 157 v2_glm_vec4_muladds
     (.node 155 v1_glm_vec4_subadd
      (.node 154 v1_glm_vec4_addadd .leaf .leaf)
      (.node 156 v1_glm_vec4_muladd .leaf .leaf))
     (.node 159 v1_glm_vec4_minadd
      (.node 158 v1_glm_vec4_maxadd .leaf .leaf)
      .leaf))))
  (.node 372 v2_glm_mat4_zero
   (.node 168 v1_glm_vec4_normalize_to
    (.node 164 v1_glm_vec4_maxsub
     (.node 162 v1_glm_vec4_mulsub
      (.node 161 v1_glm_vec4_addsub .leaf .leaf)
      (.node 163 v2_glm_vec4_mulsubs .leaf .leaf))
     (.node 166 v1_glm_vec4_negate_to
      (.node 165 v1_glm_vec4_minsub .leaf .leaf)
      .leaf))
    (.node 173 v1_glm_vec4_minv
     (.node 171 v1_glm_vec4_distance2
      (.node 170 v1_glm_vec4_distance .leaf .leaf)
      (.node 172 v1_glm_vec4_maxv .leaf .leaf))
     (.node 369 v2_glm_mat4_copy
      (.node 174 v2_glm_vec4_clamp .leaf .leaf)
      .leaf)))
   (.node 388 v1_glm_mat4_inv
    (.node 384 v2_glm_mat4_transpose
     (.node 378 v1_glm_mat4_mulv
      (.node 376 v2_glm_mat4_mul .leaf .leaf)
      (.node 383 v2_glm_mat4_transpose_to .leaf .leaf))
     (.node 387 v1_glm_mat4_det
      (.node 386 v2_glm_mat4_scale .leaf .leaf)
      .leaf))
    (.node 446 v1_glm_mat2_mul
     (.node 413 v1_glm_mat3_mul
      (.node 389 v1_glm_mat4_inv_fast .leaf .leaf)
      .leaf)
     (.node 450 v2_glm_mat2_scale
      (.node 448 v1_glm_mat2_transpose_to .leaf .leaf)
      .leaf)))))
 (.node 2281 v1_glmm_fnmadd
  (.node 2267 v1_glmm_hadd
   (.node 647 v1_glm_quat_normalize_to
    (.node 486 v2_glm_translate_x
     (.node 473 v1_glm_inv_tr
      (.node 472 v1_glm_mul_rot .leaf .leaf)
      (.node 484 v1_glm_translate .leaf .leaf))
     (.node 488 v2_glm_translate_z
      (.node 487 v2_glm_translate_y .leaf .leaf)
      .leaf))
    (.node 2264 v1_glmm_max
     (.node 2262 v1_glmm_abs
      (.node 660 v1_glm_quat_mul .leaf .leaf)
      (.node 2263 v1_glmm_min .leaf .leaf))
     (.node 2266 v1_glmm_vhadds
      (.node 2265 v1_glmm_vhadd .leaf .leaf)
      .leaf)))
   (.node 2274 v1_glmm_dot
    (.node 2271 v1_glmm_hmax
     (.node 2269 v1_glmm_hmin
      (.node 2268 v1_glmm_vhmin .leaf .leaf)
      (.node 2270 v1_glmm_vhmax .leaf .leaf))
     (.node 2273 v1_glmm_vdot
      (.node 2272 v1_glmm_vdots .leaf .leaf)
      .leaf))
    (.node 2278 v1_glmm_norm_inf
     (.node 2276 v1_glmm_norm2
      (.node 2275 v1_glmm_norm .leaf .leaf)
      (.node 2277 v1_glmm_norm_one .leaf .leaf))
     (.node 2280 v1_glmm_fmadd
      (.node 2279 v1_glmm_div .leaf .leaf)
      .leaf))))
  (.node 2295 v1_glm_mul_rot_sse2
   (.node 2288 v1_glm_mat4_det_sse2
    (.node 2285 v1_glm_mat4_transp_sse2
     (.node 2283 v1_glmm_fnmsub
      (.node 2282 v1_glmm_fmsub .leaf .leaf)
      (.node 2284 v2_glm_mat4_scale_sse2 .leaf .leaf))
     (.node 2287 v1_glm_mat4_mulv_sse2
      (.node 2286 v1_glm_mat4_mul_sse2 .leaf .leaf)
      .leaf))
    (.node 2292 v1_glm_mat2_mul_sse2
     (.node 2290 v1_glm_mat4_inv_sse2
      (.node 2289 v1_glm_mat4_inv_fast_sse2 .leaf .leaf)
      (.node 2291 v1_glm_mat3_mul_sse2 .leaf .leaf))
     (.node 2294 v1_glm_mul_sse2
      (.node 2293 v1_glm_mat2_transp_sse2 .leaf .leaf)
      .leaf)))
   (.node 2302 v1_glmm256_fmsub
    (.node 2299 v1_glmm_store3
     (.node 2297 v1_glm_quat_mul_sse2
      (.node 2296 v1_glm_inv_tr_sse2 .leaf .leaf)
      (.node 2298 v1_glmm_load3 .leaf .leaf))
     (.node 2301 v1_glmm256_fnmadd
      (.node 2300 v1_glmm256_fmadd .leaf .leaf)
      .leaf))
    (.node 2305 v1_glm_mat4_transp_avx
     (.node 2304 v1_glm_mat4_scale_avx
      (.node 2303 v1_glmm256_fnmsub .leaf .leaf)
      .leaf)
     (.node 2307 v1_glm_mul_avx
      (.node 2306 v1_glm_mat4_mul_avx .leaf .leaf)
      .leaf)))))

/-- functions that Neon64 replaces or adds -/
def ownNeon64 : Tree Fn :=
 .node 387 v2_glm_mat4_det
 (.node 158 v2_glm_vec4_maxadd
  (.node 147 v2_glm_vec4_sub
   (.node 142 v2_glm_vec4_norm
    (.node 138 v2_glm_vec4_zero
     (.node 136 v2_glm_vec4_copy
      (.node 126 v2_glm_vec4_abs .leaf .leaf)
      .leaf)
     (.node 140 v2_glm_vec4_dot
      (.node 139 v2_glm_vec4_one .leaf .leaf)
      .leaf))
    (.node 145 v2_glm_vec4_add
     (.node 144 v2_glm_vec4_norm_inf
      (.node 143 v2_glm_vec4_norm_one .leaf .leaf)
      .leaf)
     (.node 146 v3_glm_vec4_adds .leaf .leaf)))
   (.node 153 v3_glm_vec4_divs
    (.node 150 v3_glm_vec4_scale
     (.node 149 v2_glm_vec4_mul
      (.node 148 v3_glm_vec4_subs .leaf .leaf)
      .leaf)
     (.node 152 v2_glm_vec4_div .leaf .leaf))
    (.node 156 v2_glm_vec4_muladd
     (.node 155 v2_glm_vec4_subadd
      (.node 154 v2_glm_vec4_addadd .leaf .leaf)
      .leaf)
     (.node 157 v3_glm_vec4_muladds .leaf .leaf))))
  (.node 172 v2_glm_vec4_maxv
   (.node 164 v2_glm_vec4_maxsub
    (.node 161 v2_glm_vec4_addsub
     (.node 160 v2_glm_vec4_subsub
      (.node 159 v2_glm_vec4_minadd .leaf .leaf)
      .leaf)
     (.node 163 v3_glm_vec4_mulsubs
      (.node 162 v2_glm_vec4_mulsub .leaf .leaf)
      .leaf))
    (.node 170 v2_glm_vec4_distance
     (.node 166 v2_glm_vec4_negate_to
      (.node 165 v2_glm_vec4_minsub .leaf .leaf)
      .leaf)
     (.node 171 v2_glm_vec4_distance2 .leaf .leaf)))
   (.node 376 v3_glm_mat4_mul
    (.node 369 v3_glm_mat4_copy
     (.node 174 v3_glm_vec4_clamp
      (.node 173 v2_glm_vec4_minv .leaf .leaf)
      .leaf)
     (.node 372 v3_glm_mat4_zero .leaf .leaf))
    (.node 384 v3_glm_mat4_transpose
     (.node 383 v3_glm_mat4_transpose_to
      (.node 378 v2_glm_mat4_mulv .leaf .leaf)
      .leaf)
     (.node 386 v3_glm_mat4_scale .leaf .leaf)))))
 (.node 2275 v2_glmm_norm
  (.node 660 v2_glm_quat_mul
   (.node 473 v2_glm_inv_tr
    (.node 450 v3_glm_mat2_scale
     (.node 446 v2_glm_mat2_mul
      (.node 388 v2_glm_mat4_inv .leaf .leaf)
      .leaf)
     (.node 472 v2_glm_mul_rot
      (.node 471 v3_glm_mul .leaf .leaf)
      .leaf))
    (.node 487 v3_glm_translate_y
     (.node 486 v3_glm_translate_x
      (.node 484 v2_glm_translate .leaf .leaf)
      .leaf)
     (.node 488 v3_glm_translate_z .leaf .leaf)))
   (.node 2267 v2_glmm_hadd
    (.node 2264 v1_glmm_max
     (.node 2263 v1_glmm_min
      (.node 2262 v1_glmm_abs .leaf .leaf)
      .leaf)
     (.node 2265 v1_glmm_vhadd .leaf .leaf))
    (.node 2273 v2_glmm_vdot
     (.node 2271 v2_glmm_hmax
      (.node 2269 v2_glmm_hmin .leaf .leaf)
      .leaf)
     (.node 2274 v2_glmm_dot .leaf .leaf))))
  (.node 2309 v1_glm_mat4_transp_neon
   (.node 2280 v1_glmm_fmadd
    (.node 2278 v2_glmm_norm_inf
     (.node 2277 v2_glmm_norm_one
      (.node 2276 v2_glmm_norm2 .leaf .leaf)
      .leaf)
     (.node 2279 v1_glmm_div .leaf .leaf))
    (.node 2283 v2_glmm_fnmsub
     (.node 2282 v2_glmm_fmsub
      (.node 2281 v1_glmm_fnmadd .leaf .leaf)
      .leaf)
     (.node 2308 v1_glm_mat4_scale_neon .leaf .leaf)))
   (.node 2314 v1_glm_mat2_mul_neon
    (.node 2312 v1_glm_mat4_det_neon
     (.node 2311 v1_glm_mat4_mulv_neon
      (.node 2310 v1_glm_mat4_mul_neon .leaf .leaf)
      .leaf)
     (.node 2313 v1_glm_mat4_inv_neon .leaf .leaf))
    (.node 2317 v1_glm_inv_tr_neon
     (.node 2316 v1_glm_mul_rot_neon
      (.node 2315 v1_glm_mul_neon .leaf .leaf)
      .leaf)
     (.node 2318 v1_glm_quat_mul_neon .leaf .leaf)))))

/-- functions that Neon32 replaces or adds -/
def ownNeon32 : Tree Fn :=
 .node 387 v2_glm_mat4_det
 (.node 158 v2_glm_vec4_maxadd
  (.node 147 v2_glm_vec4_sub
   (.node 142 v2_glm_vec4_norm
    (.node 138 v2_glm_vec4_zero
     (.node 136 v2_glm_vec4_copy
      (.node 126 v2_glm_vec4_abs .leaf .leaf)
      .leaf)
     (.node 140 v2_glm_vec4_dot
      (.node 139 v2_glm_vec4_one .leaf .leaf)
      .leaf))
    (.node 145 v2_glm_vec4_add
     (.node 144 v2_glm_vec4_norm_inf
      (.node 143 v2_glm_vec4_norm_one .leaf .leaf)
      .leaf)
     (.node 146 v3_glm_vec4_adds .leaf .leaf)))
   (.node 153 v3_glm_vec4_divs
    (.node 150 v3_glm_vec4_scale
     (.node 149 v2_glm_vec4_mul
      (.node 148 v3_glm_vec4_subs .leaf .leaf)
      .leaf)
     (.node 152 v2_glm_vec4_div .leaf .leaf))
    (.node 156 v2_glm_vec4_muladd
     (.node 155 v2_glm_vec4_subadd
      (.node 154 v2_glm_vec4_addadd .leaf .leaf)
      .leaf)
     (.node 157 v3_glm_vec4_muladds .leaf .leaf))))
  (.node 172 v2_glm_vec4_maxv
   (.node 164 v2_glm_vec4_maxsub
    (.node 161 v2_glm_vec4_addsub
     (.node 160 v2_glm_vec4_subsub
      (.node 159 v2_glm_vec4_minadd .leaf .leaf)
      .leaf)
     (.node 163 v3_glm_vec4_mulsubs
      (.node 162 v2_glm_vec4_mulsub .leaf .leaf)
      .leaf))
    (.node 170 v2_glm_vec4_distance
     (.node 166 v2_glm_vec4_negate_to
      (.node 165 v2_glm_vec4_minsub .leaf .leaf)
      .leaf)
     (.node 171 v2_glm_vec4_distance2 .leaf .leaf)))
   (.node 376 v3_glm_mat4_mul
    (.node 369 v3_glm_mat4_copy
     (.node 174 v3_glm_vec4_clamp
      (.node 173 v2_glm_vec4_minv .leaf .leaf)
      .leaf)
     (.node 372 v3_glm_mat4_zero .leaf .leaf))
    (.node 384 v3_glm_mat4_transpose
     (.node 383 v3_glm_mat4_transpose_to
      (.node 378 v2_glm_mat4_mulv .leaf .leaf)
      .leaf)
     (.node 386 v3_glm_mat4_scale .leaf .leaf)))))
 (.node 2275 v2_glmm_norm
  (.node 660 v2_glm_quat_mul
   (.node 473 v2_glm_inv_tr
    (.node 450 v3_glm_mat2_scale
     (.node 446 v2_glm_mat2_mul
      (.node 388 v2_glm_mat4_inv .leaf .leaf)
      .leaf)
     (.node 472 v2_glm_mul_rot
      (.node 471 v3_glm_mul .leaf .leaf)
      .leaf))
    (.node 487 v3_glm_translate_y
     (.node 486 v3_glm_translate_x
      (.node 484 v2_glm_translate .leaf .leaf)
      .leaf)
     (.node 488 v3_glm_translate_z .leaf .leaf)))
   (.node 2267 v2_glmm_hadd
    (.node 2264 v1_glmm_max
     (.node 2263 v1_glmm_min
      (.node 2262 v1_glmm_abs .leaf .leaf)
      .leaf)
     (.node 2265 v1_glmm_vhadd .leaf .leaf))
    (.node 2273 v2_glmm_vdot
     (.node 2271 v2_glmm_hmax
      (.node 2269 v2_glmm_hmin .leaf .leaf)
      .leaf)
     (.node 2274 v2_glmm_dot .leaf .leaf))))
  (.node 2309 v1_glm_mat4_transp_neon
   (.node 2280 v1_glmm_fmadd
    (.node 2278 v2_glmm_norm_inf
     (.node 2277 v2_glmm_norm_one
      (.node 2276 v2_glmm_norm2 .leaf .leaf)
      .leaf)
     (.node 2279 v1_glmm_div .leaf .leaf))
    (.node 2283 v2_glmm_fnmsub
     (.node 2282 v2_glmm_fmsub
      (.node 2281 v1_glmm_fnmadd .leaf .leaf)
      .leaf)
     (.node 2308 v1_glm_mat4_scale_neon .leaf .leaf)))
   (.node 2314 v1_glm_mat2_mul_neon
    (.node 2312 v1_glm_mat4_det_neon
     (.node 2311 v1_glm_mat4_mulv_neon
      (.node 2310 v1_glm_mat4_mul_neon .leaf .leaf)
      .leaf)
     (.node 2313 v1_glm_mat4_inv_neon .leaf .leaf))
    (.node 2317 v1_glm_inv_tr_neon
     (.node 2316 v1_glm_mul_rot_neon
      (.node 2315 v1_glm_mul_neon .leaf .leaf)
      .leaf)
     (.node 2318 v1_glm_quat_mul_neon .leaf .leaf)))))

/-- functions that Wasm replaces or adds -/
def ownWasm : Tree Fn :=
 .node 413 v2_glm_mat3_mul
 (.node 158 v3_glm_vec4_maxadd
  (.node 144 v3_glm_vec4_norm_inf
   (.node 137 v1_glm_vec4_ucopy
    (.node 132 v2_glm_vec4_hadd
     (.node 114 v3_glm_vec4_fill
      (.node 113 v3_glm_vec4_broadcast .leaf .leaf)
      (.node 126 v3_glm_vec4_abs .leaf .leaf))
     (.node 136 v3_glm_vec4_copy
      (.node 133 v2_glm_vec4_sqrt .leaf .leaf)
      .leaf))
    (.node 140 v3_glm_vec4_dot
     (.node 139 v3_glm_vec4_one
      (.node 138 v3_glm_vec4_zero .leaf .leaf)
      .leaf)
     (.node 143 v3_glm_vec4_norm_one
      (.node 142 v3_glm_vec4_norm .leaf .leaf)
      .leaf)))
   (.node 152 v3_glm_vec4_div
    (.node 148 v4_glm_vec4_subs
     (.node 146 v4_glm_vec4_adds
      (.node 145 v3_glm_vec4_add .leaf .leaf)
      (.node 147 v3_glm_vec4_sub .leaf .leaf))
     (.node 150 v4_glm_vec4_scale
      (.node 149 v3_glm_vec4_mul .leaf .leaf)
      .leaf))
    (.node 155 v3_glm_vec4_subadd
     (.node 154 v3_glm_vec4_addadd
      (.node 153 v4_glm_vec4_divs .leaf .leaf)
      .leaf)
     (.node 157 v4_glm_vec4_muladds
      (.node 156 v3_glm_vec4_muladd .leaf .leaf)
      .leaf))))
  (.node 173 v3_glm_vec4_minv
   (.node 165 v3_glm_vec4_minsub
    (.node 162 v3_glm_vec4_mulsub
     (.node 160 v3_glm_vec4_subsub
      (.node 159 v3_glm_vec4_minadd .leaf .leaf)
      (.node 161 v3_glm_vec4_addsub .leaf .leaf))
     (.node 164 v3_glm_vec4_maxsub
      (.node 163 v4_glm_vec4_mulsubs .leaf .leaf)
      .leaf))
    (.node 170 v3_glm_vec4_distance
     (.node 168 v2_glm_vec4_normalize_to
      (.node 166 v3_glm_vec4_negate_to .leaf .leaf)
      .leaf)
     (.node 172 v3_glm_vec4_maxv
      (.node 171 v3_glm_vec4_distance2 .leaf .leaf)
      .leaf)))
   (.node 383 v4_glm_mat4_transpose_to
    (.node 372 v4_glm_mat4_zero
     (.node 369 v4_glm_mat4_copy
      (.node 174 v4_glm_vec4_clamp .leaf .leaf)
      .leaf)
     (.node 378 v3_glm_mat4_mulv
      (.node 376 v4_glm_mat4_mul .leaf .leaf)
      .leaf))
    (.node 387 v3_glm_mat4_det
     (.node 386 v4_glm_mat4_scale
      (.node 384 v4_glm_mat4_transpose .leaf .leaf)
      .leaf)
     (.node 389 v2_glm_mat4_inv_fast
      (.node 388 v3_glm_mat4_inv .leaf .leaf)
      .leaf)))))
 (.node 2275 v1_glmm_norm
  (.node 2262 v1_glmm_abs
   (.node 484 v3_glm_translate
    (.node 471 v4_glm_mul
     (.node 448 v2_glm_mat2_transpose_to
      (.node 446 v3_glm_mat2_mul .leaf .leaf)
      (.node 450 v4_glm_mat2_scale .leaf .leaf))
     (.node 473 v3_glm_inv_tr
      (.node 472 v3_glm_mul_rot .leaf .leaf)
      .leaf))
    (.node 488 v4_glm_translate_z
     (.node 487 v4_glm_translate_y
      (.node 486 v4_glm_translate_x .leaf .leaf)
      .leaf)
     (.node 660 v3_glm_quat_mul
      (.node 647 v2_glm_quat_normalize_to .leaf .leaf)
      .leaf)))
   (.node 2269 v1_glmm_hmin
    (.node 2266 v1_glmm_vhadds
     (.node 2264 v1_glmm_max
      (.node 2263 v1_glmm_min .leaf .leaf)
      (.node 2265 v1_glmm_vhadd .leaf .leaf))
     (.node 2268 v1_glmm_vhmin
      (.node 2267 v1_glmm_hadd .leaf .leaf)
      .leaf))
    (.node 2272 v1_glmm_vdots
     (.node 2271 v1_glmm_hmax
      (.node 2270 v1_glmm_vhmax .leaf .leaf)
      .leaf)
     (.node 2274 v1_glmm_dot
      (.node 2273 v1_glmm_vdot .leaf .leaf)
      .leaf))))
  (.node 2321 v1_glm_mat4_mul_wasm
   (.node 2282 v1_glmm_fmsub
    (.node 2279 v1_glmm_div
     (.node 2277 v1_glmm_norm_one
      (.node 2276 v1_glmm_norm2 .leaf .leaf)
      (.node 2278 v1_glmm_norm_inf .leaf .leaf))
     (.node 2281 v1_glmm_fnmadd
      (.node 2280 v1_glmm_fmadd .leaf .leaf)
      .leaf))
    (.node 2299 v2_glmm_store3
     (.node 2298 v2_glmm_load3
      (.node 2283 v1_glmm_fnmsub .leaf .leaf)
      .leaf)
     (.node 2320 v1_glm_mat4_transp_wasm
      (.node 2319 v1_glm_mat4_scale_wasm .leaf .leaf)
      .leaf)))
   (.node 2327 v1_glm_mat2_mul_wasm
    (.node 2324 v1_glm_mat4_inv_fast_wasm
     (.node 2323 v1_glm_mat4_det_wasm
      (.node 2322 v1_glm_mat4_mulv_wasm .leaf .leaf)
      .leaf)
     (.node 2326 v1_glm_mat3_mul_wasm
      (.node 2325 v1_glm_mat4_inv_wasm .leaf .leaf)
      .leaf))
    (.node 2330 v1_glm_mul_rot_wasm
     (.node 2329 v1_glm_mul_wasm
      (.node 2328 v1_glm_mat2_transp_wasm .leaf .leaf)
      .leaf)
     (.node 2332 v1_glm_quat_mul_wasm
      (.node 2331 v1_glm_inv_tr_wasm .leaf .leaf)
      .leaf)))))

/-- functions that SseU replaces or adds -/
def ownSseU : Tree Fn :=
 .node 389 v1_glm_mat4_inv_fast
 (.node 157 v4_glm_vec4_muladds
  (.node 144 v3_glm_vec4_norm_inf
   (.node 136 v3_glm_vec4_copy
    (.node 126 v3_glm_vec4_abs
     (.node 114 v3_glm_vec4_fill
      (.node 113 v3_glm_vec4_broadcast .leaf .leaf)
      (.node 125 v2_glm_vec4_sign .leaf .leaf))
     (.node 133 v2_glm_vec4_sqrt
      (.node 132 v2_glm_vec4_hadd .leaf .leaf)
      .leaf))
    (.node 140 v3_glm_vec4_dot
     (.node 139 v3_glm_vec4_one
      (.node 138 v3_glm_vec4_zero .leaf .leaf)
      .leaf)
     (.node 143 v3_glm_vec4_norm_one
      (.node 142 v3_glm_vec4_norm .leaf .leaf)
      .leaf)))
   (.node 150 v4_glm_vec4_scale
    (.node 147 v3_glm_vec4_sub
     (.node 146 v4_glm_vec4_adds
      (.node 145 v3_glm_vec4_add .leaf .leaf)
      .leaf)
     (.node 149 v3_glm_vec4_mul
      (.node 148 v4_glm_vec4_subs .leaf .leaf)
      .leaf))
    (.node 154 v3_glm_vec4_addadd
     (.node 153 v4_glm_vec4_divs
      (.node 152 v3_glm_vec4_div .leaf .leaf)
      .leaf)
     (.node 156 v3_glm_vec4_muladd
      (.node 155 v3_glm_vec4_subadd .leaf .leaf)
      .leaf))))
  (.node 172 v3_glm_vec4_maxv
   (.node 164 v3_glm_vec4_maxsub
    (.node 161 v3_glm_vec4_addsub
     (.node 159 v3_glm_vec4_minadd
      (.node 158 v3_glm_vec4_maxadd .leaf .leaf)
      (.node 160 v3_glm_vec4_subsub .leaf .leaf))
     (.node 163 v4_glm_vec4_mulsubs
      (.node 162 v3_glm_vec4_mulsub .leaf .leaf)
      .leaf))
    (.node 168 v2_glm_vec4_normalize_to
     (.node 166 v3_glm_vec4_negate_to
      (.node 165 v3_glm_vec4_minsub .leaf .leaf)
      .leaf)
     (.node 171 v3_glm_vec4_distance2
      (.node 170 v3_glm_vec4_distance .leaf .leaf)
      .leaf)))
   (.node 378 v1_glm_mat4_mulv
    (.node 369 v4_glm_mat4_copy
     (.node 174 v4_glm_vec4_clamp
      (.node 173 v3_glm_vec4_minv .leaf .leaf)
      .leaf)
     (.node 376 v1_glm_mat4_mul
      (.node 372 v4_glm_mat4_zero .leaf .leaf)
      .leaf))
    (.node 386 v1_glm_mat4_scale
     (.node 384 v1_glm_mat4_transpose
      (.node 383 v1_glm_mat4_transpose_to .leaf .leaf)
      .leaf)
     (.node 388 v1_glm_mat4_inv
      (.node 387 v1_glm_mat4_det .leaf .leaf)
      .leaf)))))
 (.node 2273 v1_glmm_vdot
  (.node 660 v1_glm_quat_mul
   (.node 473 v1_glm_inv_tr
    (.node 450 v4_glm_mat2_scale
     (.node 446 v1_glm_mat2_mul
      (.node 413 v1_glm_mat3_mul .leaf .leaf)
      (.node 448 v1_glm_mat2_transpose_to .leaf .leaf))
     (.node 472 v1_glm_mul_rot
      (.node 471 v1_glm_mul .leaf .leaf)
      .leaf))
    (.node 487 v4_glm_translate_y
     (.node 486 v4_glm_translate_x
      (.node 484 v3_glm_translate .leaf .leaf)
      .leaf)
     (.node 647 v2_glm_quat_normalize_to
      (.node 488 v4_glm_translate_z .leaf .leaf)
      .leaf)))
   (.node 2267 v1_glmm_hadd
    (.node 2264 v1_glmm_max
     (.node 2263 v1_glmm_min
      (.node 2262 v1_glmm_abs .leaf .leaf)
      .leaf)
     (.node 2266 v1_glmm_vhadds
      (.node 2265 v1_glmm_vhadd .leaf .leaf)
      .leaf))
    (.node 2270 v1_glmm_vhmax
     (.node 2269 v1_glmm_hmin
      (.node 2268 v1_glmm_vhmin .leaf .leaf)
      .leaf)
     (.node 2272 v1_glmm_vdots
      (.node 2271 v1_glmm_hmax .leaf .leaf)
      .leaf))))
  (.node 2286 v2_glm_mat4_mul_sse2
   (.node 2280 v1_glmm_fmadd
    (.node 2277 v1_glmm_norm_one
     (.node 2275 v1_glmm_norm
      (.node 2274 v1_glmm_dot .leaf .leaf)
      (.node 2276 v1_glmm_norm2 .leaf .leaf))
     (.node 2279 v1_glmm_div
      (.node 2278 v1_glmm_norm_inf .leaf .leaf)
      .leaf))
    (.node 2283 v1_glmm_fnmsub
     (.node 2282 v1_glmm_fmsub
      (.node 2281 v1_glmm_fnmadd .leaf .leaf)
      .leaf)
     (.node 2285 v2_glm_mat4_transp_sse2
      (.node 2284 v3_glm_mat4_scale_sse2 .leaf .leaf)
      .leaf)))
   (.node 2292 v2_glm_mat2_mul_sse2
    (.node 2289 v2_glm_mat4_inv_fast_sse2
     (.node 2288 v2_glm_mat4_det_sse2
      (.node 2287 v2_glm_mat4_mulv_sse2 .leaf .leaf)
      .leaf)
     (.node 2291 v1_glm_mat3_mul_sse2
      (.node 2290 v2_glm_mat4_inv_sse2 .leaf .leaf)
      .leaf))
    (.node 2295 v2_glm_mul_rot_sse2
     (.node 2294 v2_glm_mul_sse2
      (.node 2293 v2_glm_mat2_transp_sse2 .leaf .leaf)
      .leaf)
     (.node 2297 v2_glm_quat_mul_sse2
      (.node 2296 v2_glm_inv_tr_sse2 .leaf .leaf)
      .leaf)))))

/-- functions that Sse2U replaces or adds -/
def ownSse2U : Tree Fn :=
 .node 413 v1_glm_mat3_mul
 (.node 158 v3_glm_vec4_maxadd
  (.node 144 v3_glm_vec4_norm_inf
   (.node 136 v3_glm_vec4_copy
    (.node 126 v3_glm_vec4_abs
     (.node 114 v3_glm_vec4_fill
      (.node 113 v3_glm_vec4_broadcast .leaf .leaf)
      (.node 125 v2_glm_vec4_sign .leaf .leaf))
     (.node 133 v2_glm_vec4_sqrt
      (.node 132 v2_glm_vec4_hadd .leaf .leaf)
      .leaf))
    (.node 140 v3_glm_vec4_dot
     (.node 139 v3_glm_vec4_one
      (.node 138 v3_glm_vec4_zero .leaf .leaf)
      .leaf)
     (.node 143 v3_glm_vec4_norm_one
      (.node 142 v3_glm_vec4_norm .leaf .leaf)
      .leaf)))
   (.node 152 v3_glm_vec4_div
    (.node 148 v4_glm_vec4_subs
     (.node 146 v4_glm_vec4_adds
      (.node 145 v3_glm_vec4_add .leaf .leaf)
      (.node 147 v3_glm_vec4_sub .leaf .leaf))
     (.node 150 v4_glm_vec4_scale
      (.node 149 v3_glm_vec4_mul .leaf .leaf)
      .leaf))
    (.node 155 v3_glm_vec4_subadd
     (.node 154 v3_glm_vec4_addadd
      (.node 153 v4_glm_vec4_divs .leaf .leaf)
      .leaf)
     (.node 157 v4_glm_vec4_muladds
      (.node 156 v3_glm_vec4_muladd .leaf .leaf)
      .leaf))))
  (.node 173 v3_glm_vec4_minv
   (.node 165 v3_glm_vec4_minsub
    (.node 162 v3_glm_vec4_mulsub
     (.node 160 v3_glm_vec4_subsub
      (.node 159 v3_glm_vec4_minadd .leaf .leaf)
      (.node 161 v3_glm_vec4_addsub .leaf .leaf))
     (.node 164 v3_glm_vec4_maxsub
      (.node 163 v4_glm_vec4_mulsubs .leaf .leaf)
      .leaf))
    (.node 170 v3_glm_vec4_distance
     (.node 168 v2_glm_vec4_normalize_to
      (.node 166 v3_glm_vec4_negate_to .leaf .leaf)
      .leaf)
     (.node 172 v3_glm_vec4_maxv
      (.node 171 v3_glm_vec4_distance2 .leaf .leaf)
      .leaf)))
   (.node 383 v1_glm_mat4_transpose_to
    (.node 372 v4_glm_mat4_zero
     (.node 369 v4_glm_mat4_copy
      (.node 174 v4_glm_vec4_clamp .leaf .leaf)
      .leaf)
     (.node 378 v1_glm_mat4_mulv
      (.node 376 v1_glm_mat4_mul .leaf .leaf)
      .leaf))
    (.node 387 v1_glm_mat4_det
     (.node 386 v1_glm_mat4_scale
      (.node 384 v1_glm_mat4_transpose .leaf .leaf)
      .leaf)
     (.node 389 v1_glm_mat4_inv_fast
      (.node 388 v1_glm_mat4_inv .leaf .leaf)
      .leaf)))))
 (.node 2275 v1_glmm_norm
  (.node 2262 v1_glmm_abs
   (.node 484 v3_glm_translate
    (.node 471 v1_glm_mul
     (.node 448 v1_glm_mat2_transpose_to
      (.node 446 v1_glm_mat2_mul .leaf .leaf)
      (.node 450 v4_glm_mat2_scale .leaf .leaf))
     (.node 473 v1_glm_inv_tr
      (.node 472 v1_glm_mul_rot .leaf .leaf)
      .leaf))
    (.node 488 v4_glm_translate_z
     (.node 487 v4_glm_translate_y
      (.node 486 v4_glm_translate_x .leaf .leaf)
      .leaf)
     (.node 660 v1_glm_quat_mul
      (.node 647 v2_glm_quat_normalize_to .leaf .leaf)
      .leaf)))
   (.node 2269 v1_glmm_hmin
    (.node 2266 v1_glmm_vhadds
     (.node 2264 v1_glmm_max
      (.node 2263 v1_glmm_min .leaf .leaf)
      (.node 2265 v1_glmm_vhadd .leaf .leaf))
     (.node 2268 v1_glmm_vhmin
      (.node 2267 v1_glmm_hadd .leaf .leaf)
      .leaf))
    (.node 2272 v1_glmm_vdots
     (.node 2271 v1_glmm_hmax
      (.node 2270 v1_glmm_vhmax .leaf .leaf)
      .leaf)
     (.node 2274 v1_glmm_dot
      (.node 2273 v1_glmm_vdot .leaf .leaf)
      .leaf))))
  (.node 2288 v2_glm_mat4_det_sse2
   (.node 2282 v1_glmm_fmsub
    (.node 2279 v1_glmm_div
     (.node 2277 v1_glmm_norm_one
      (.node 2276 v1_glmm_norm2 .leaf .leaf)
      (.node 2278 v1_glmm_norm_inf .leaf .leaf))
     (.node 2281 v1_glmm_fnmadd
      (.node 2280 v1_glmm_fmadd .leaf .leaf)
      .leaf))
    (.node 2285 v2_glm_mat4_transp_sse2
     (.node 2284 v3_glm_mat4_scale_sse2
      (.node 2283 v1_glmm_fnmsub .leaf .leaf)
      .leaf)
     (.node 2287 v2_glm_mat4_mulv_sse2
      (.node 2286 v2_glm_mat4_mul_sse2 .leaf .leaf)
      .leaf)))
   (.node 2294 v2_glm_mul_sse2
    (.node 2291 v1_glm_mat3_mul_sse2
     (.node 2290 v2_glm_mat4_inv_sse2
      (.node 2289 v2_glm_mat4_inv_fast_sse2 .leaf .leaf)
      .leaf)
     (.node 2293 v2_glm_mat2_transp_sse2
      (.node 2292 v2_glm_mat2_mul_sse2 .leaf .leaf)
      .leaf))
    (.node 2297 v2_glm_quat_mul_sse2
     (.node 2296 v2_glm_inv_tr_sse2
      (.node 2295 v2_glm_mul_rot_sse2 .leaf .leaf)
      .leaf)
     (.node 2299 v1_glmm_store3
      (.node 2298 v1_glmm_load3 .leaf .leaf)
      .leaf)))))

/-- functions that Sse3U replaces or adds -/
def ownSse3U : Tree Fn :=
 .node 413 v1_glm_mat3_mul
 (.node 158 v3_glm_vec4_maxadd
  (.node 144 v3_glm_vec4_norm_inf
   (.node 136 v3_glm_vec4_copy
    (.node 126 v3_glm_vec4_abs
     (.node 114 v3_glm_vec4_fill
      (.node 113 v3_glm_vec4_broadcast .leaf .leaf)
      (.node 125 v2_glm_vec4_sign .leaf .leaf))
     (.node 133 v2_glm_vec4_sqrt
      (.node 132 v2_glm_vec4_hadd .leaf .leaf)
      .leaf))
    (.node 140 v3_glm_vec4_dot
     (.node 139 v3_glm_vec4_one
      (.node 138 v3_glm_vec4_zero .leaf .leaf)
      .leaf)
     (.node 143 v3_glm_vec4_norm_one
      (.node 142 v3_glm_vec4_norm .leaf .leaf)
      .leaf)))
   (.node 152 v3_glm_vec4_div
    (.node 148 v4_glm_vec4_subs
     (.node 146 v4_glm_vec4_adds
      (.node 145 v3_glm_vec4_add .leaf .leaf)
      (.node 147 v3_glm_vec4_sub .leaf .leaf))
     (.node 150 v4_glm_vec4_scale
      (.node 149 v3_glm_vec4_mul .leaf .leaf)
      .leaf))
    (.node 155 v3_glm_vec4_subadd
     (.node 154 v3_glm_vec4_addadd
      (.node 153 v4_glm_vec4_divs .leaf .leaf)
      .leaf)
     (.node 157 v4_glm_vec4_muladds
      (.node 156 v3_glm_vec4_muladd .leaf .leaf)
      .leaf))))
  (.node 173 v3_glm_vec4_minv
   (.node 165 v3_glm_vec4_minsub
    (.node 162 v3_glm_vec4_mulsub
     (.node 160 v3_glm_vec4_subsub
      (.node 159 v3_glm_vec4_minadd .leaf .leaf)
      (.node 161 v3_glm_vec4_addsub .leaf .leaf))
     (.node 164 v3_glm_vec4_maxsub
      (.node 163 v4_glm_vec4_mulsubs .leaf .leaf)
      .leaf))
    (.node 170 v3_glm_vec4_distance
     (.node 168 v2_glm_vec4_normalize_to
      (.node 166 v3_glm_vec4_negate_to .leaf .leaf)
      .leaf)
     (.node 172 v3_glm_vec4_maxv
      (.node 171 v3_glm_vec4_distance2 .leaf .leaf)
      .leaf)))
   (.node 383 v1_glm_mat4_transpose_to
    (.node 372 v4_glm_mat4_zero
     (.node 369 v4_glm_mat4_copy
      (.node 174 v4_glm_vec4_clamp .leaf .leaf)
      .leaf)
     (.node 378 v1_glm_mat4_mulv
      (.node 376 v1_glm_mat4_mul .leaf .leaf)
      .leaf))
    (.node 387 v1_glm_mat4_det
     (.node 386 v1_glm_mat4_scale
      (.node 384 v1_glm_mat4_transpose .leaf .leaf)
      .leaf)
     (.node 389 v1_glm_mat4_inv_fast
      (.node 388 v1_glm_mat4_inv .leaf .leaf)
      .leaf)))))
 (.node 2275 v1_glmm_norm
  (.node 2262 v1_glmm_abs
   (.node 484 v3_glm_translate
    (.node 471 v1_glm_mul
     (.node 448 v1_glm_mat2_transpose_to
      (.node 446 v1_glm_mat2_mul .leaf .leaf)
      (.node 450 v4_glm_mat2_scale .leaf .leaf))
     (.node 473 v1_glm_inv_tr
      (.node 472 v1_glm_mul_rot .leaf .leaf)
      .leaf))
    (.node 488 v4_glm_translate_z
     (.node 487 v4_glm_translate_y
      (.node 486 v4_glm_translate_x .leaf .leaf)
      .leaf)
     (.node 660 v1_glm_quat_mul
      (.node 647 v2_glm_quat_normalize_to .leaf .leaf)
      .leaf)))
   (.node 2269 v1_glmm_hmin
    (.node 2266 v1_glmm_vhadds
     (.node 2264 v1_glmm_max
      (.node 2263 v1_glmm_min .leaf .leaf)
      (.node 2265 v1_glmm_vhadd .leaf .leaf))
     (.node 2268 v1_glmm_vhmin
      (.node 2267 v1_glmm_hadd .leaf .leaf)
      .leaf))
    (.node 2272 v2_glmm_vdots
     (.node 2271 v1_glmm_hmax
      (.node 2270 v1_glmm_vhmax .leaf .leaf)
      .leaf)
     (.node 2274 v1_glmm_dot
      (.node 2273 v1_glmm_vdot .leaf .leaf)
      .leaf))))
  (.node 2288 v2_glm_mat4_det_sse2
   (.node 2282 v1_glmm_fmsub
    (.node 2279 v1_glmm_div
     (.node 2277 v1_glmm_norm_one
      (.node 2276 v1_glmm_norm2 .leaf .leaf)
      (.node 2278 v1_glmm_norm_inf .leaf .leaf))
     (.node 2281 v1_glmm_fnmadd
      (.node 2280 v1_glmm_fmadd .leaf .leaf)
      .leaf))
    (.node 2285 v2_glm_mat4_transp_sse2
     (.node 2284 v3_glm_mat4_scale_sse2
      (.node 2283 v1_glmm_fnmsub .leaf .leaf)
      .leaf)
     (.node 2287 v2_glm_mat4_mulv_sse2
      (.node 2286 v2_glm_mat4_mul_sse2 .leaf .leaf)
      .leaf)))
   (.node 2294 v2_glm_mul_sse2
    (.node 2291 v1_glm_mat3_mul_sse2
     (.node 2290 v2_glm_mat4_inv_sse2
      (.node 2289 v2_glm_mat4_inv_fast_sse2 .leaf .leaf)
      .leaf)
     (.node 2293 v2_glm_mat2_transp_sse2
      (.node 2292 v2_glm_mat2_mul_sse2 .leaf .leaf)
      .leaf))
    (.node 2297 v2_glm_quat_mul_sse2
     (.node 2296 v2_glm_inv_tr_sse2
      (.node 2295 v2_glm_mul_rot_sse2 .leaf .leaf)
      .leaf)
     (.node 2299 v1_glmm_store3
      (.node 2298 v1_glmm_load3 .leaf .leaf)
      .leaf)))))

/-- functions that Sse4U replaces or adds -/
def ownSse4U : Tree Fn :=
 .node 413 v1_glm_mat3_mul
 (.node 158 v3_glm_vec4_maxadd
  (.node 144 v3_glm_vec4_norm_inf
   (.node 136 v3_glm_vec4_copy
    (.node 126 v3_glm_vec4_abs
     (.node 114 v3_glm_vec4_fill
      (.node 113 v3_glm_vec4_broadcast .leaf .leaf)
      (.node 125 v2_glm_vec4_sign .leaf .leaf))
     (.node 133 v2_glm_vec4_sqrt
      (.node 132 v2_glm_vec4_hadd .leaf .leaf)
      .leaf))
    (.node 140 v3_glm_vec4_dot
     (.node 139 v3_glm_vec4_one
      (.node 138 v3_glm_vec4_zero .leaf .leaf)
      .leaf)
     (.node 143 v3_glm_vec4_norm_one
      (.node 142 v3_glm_vec4_norm .leaf .leaf)
      .leaf)))
   (.node 152 v3_glm_vec4_div
    (.node 148 v4_glm_vec4_subs
     (.node 146 v4_glm_vec4_adds
      (.node 145 v3_glm_vec4_add .leaf .leaf)
      (.node 147 v3_glm_vec4_sub .leaf .leaf))
     (.node 150 v4_glm_vec4_scale
      (.node 149 v3_glm_vec4_mul .leaf .leaf)
      .leaf))
    (.node 155 v3_glm_vec4_subadd
     (.node 154 v3_glm_vec4_addadd
      (.node 153 v4_glm_vec4_divs .leaf .leaf)
      .leaf)
     (.node 157 v4_glm_vec4_muladds
      (.node 156 v3_glm_vec4_muladd .leaf .leaf)
      .leaf))))
  (.node 173 v3_glm_vec4_minv
   (.node 165 v3_glm_vec4_minsub
    (.node 162 v3_glm_vec4_mulsub
     (.node 160 v3_glm_vec4_subsub
      (.node 159 v3_glm_vec4_minadd .leaf .leaf)
      (.node 161 v3_glm_vec4_addsub .leaf .leaf))
     (.node 164 v3_glm_vec4_maxsub
      (.node 163 v4_glm_vec4_mulsubs .leaf .leaf)
      .leaf))
    (.node 170 v3_glm_vec4_distance
     (.node 168 v2_glm_vec4_normalize_to
      (.node 166 v3_glm_vec4_negate_to .leaf .leaf)
      .leaf)
     (.node 172 v3_glm_vec4_maxv
      (.node 171 v3_glm_vec4_distance2 .leaf .leaf)
      .leaf)))
   (.node 383 v1_glm_mat4_transpose_to
    (.node 372 v4_glm_mat4_zero
     (.node 369 v4_glm_mat4_copy
      (.node 174 v4_glm_vec4_clamp .leaf .leaf)
      .leaf)
     (.node 378 v1_glm_mat4_mulv
      (.node 376 v1_glm_mat4_mul .leaf .leaf)
      .leaf))
    (.node 387 v1_glm_mat4_det
     (.node 386 v1_glm_mat4_scale
      (.node 384 v1_glm_mat4_transpose .leaf .leaf)
      .leaf)
     (.node 389 v1_glm_mat4_inv_fast
      (.node 388 v1_glm_mat4_inv .leaf .leaf)
      .leaf)))))
 (.node 2275 v1_glmm_norm
  (.node 2262 v1_glmm_abs
   (.node 484 v3_glm_translate
    (.node 471 v1_glm_mul
     (.node 448 v1_glm_mat2_transpose_to
      (.node 446 v1_glm_mat2_mul .leaf .leaf)
      (.node 450 v4_glm_mat2_scale .leaf .leaf))
     (.node 473 v1_glm_inv_tr
      (.node 472 v1_glm_mul_rot .leaf .leaf)
      .leaf))
    (.node 488 v4_glm_translate_z
     (.node 487 v4_glm_translate_y
      (.node 486 v4_glm_translate_x .leaf .leaf)
      .leaf)
     (.node 660 v1_glm_quat_mul
      (.node 647 v2_glm_quat_normalize_to .leaf .leaf)
      .leaf)))
   (.node 2269 v1_glmm_hmin
    (.node 2266 v1_glmm_vhadds
     (.node 2264 v1_glmm_max
      (.node 2263 v1_glmm_min .leaf .leaf)
      (.node 2265 v1_glmm_vhadd .leaf .leaf))
     (.node 2268 v1_glmm_vhmin
      (.node 2267 v1_glmm_hadd .leaf .leaf)
      .leaf))
    (.node 2272 v2_glmm_vdots
     (.node 2271 v1_glmm_hmax
      (.node 2270 v1_glmm_vhmax .leaf .leaf)
      .leaf)
     (.node 2274 v1_glmm_dot
      (.node 2273 v1_glmm_vdot .leaf .leaf)
      .leaf))))
  (.node 2288 v2_glm_mat4_det_sse2
   (.node 2282 v1_glmm_fmsub
    (.node 2279 v1_glmm_div
     (.node 2277 v1_glmm_norm_one
      (.node 2276 v1_glmm_norm2 .leaf .leaf)
      (.node 2278 v1_glmm_norm_inf .leaf .leaf))
     (.node 2281 v1_glmm_fnmadd
      (.node 2280 v1_glmm_fmadd .leaf .leaf)
      .leaf))
    (.node 2285 v2_glm_mat4_transp_sse2
     (.node 2284 v3_glm_mat4_scale_sse2
      (.node 2283 v1_glmm_fnmsub .leaf .leaf)
      .leaf)
     (.node 2287 v2_glm_mat4_mulv_sse2
      (.node 2286 v2_glm_mat4_mul_sse2 .leaf .leaf)
      .leaf)))
   (.node 2294 v2_glm_mul_sse2
    (.node 2291 v1_glm_mat3_mul_sse2
     (.node 2290 v2_glm_mat4_inv_sse2
      (.node 2289 v2_glm_mat4_inv_fast_sse2 .leaf .leaf)
      .leaf)
     (.node 2293 v2_glm_mat2_transp_sse2
      (.node 2292 v2_glm_mat2_mul_sse2 .leaf .leaf)
      .leaf))
    (.node 2297 v2_glm_quat_mul_sse2
     (.node 2296 v2_glm_inv_tr_sse2
      (.node 2295 v2_glm_mul_rot_sse2 .leaf .leaf)
      .leaf)
     (.node 2299 v1_glmm_store3
      (.node 2298 v1_glmm_load3 .leaf .leaf)
      .leaf)))))

/-- functions that AvxU replaces or adds -/
def ownAvxU : Tree Fn :=
 .node 471 v2_glm_mul
 (.node 160 v3_glm_vec4_subsub
  (.node 145 v3_glm_vec4_add
   (.node 136 v3_glm_vec4_copy
    (.node 126 v3_glm_vec4_abs
     (.node 114 v4_glm_vec4_fill
      (.node 113 v4_glm_vec4_broadcast .leaf .leaf)
      (.node 125 v2_glm_vec4_sign .leaf .leaf))
     (.node 133 v2_glm_vec4_sqrt
      (.node 132 v2_glm_vec4_hadd .leaf .leaf)
      .leaf))
    (.node 142 v3_glm_vec4_norm
     (.node 139 v3_glm_vec4_one
      (.node 138 v3_glm_vec4_zero .leaf .leaf)
      (.node 140 v3_glm_vec4_dot .leaf .leaf))
     (.node 144 v3_glm_vec4_norm_inf
      (.node 143 v3_glm_vec4_norm_one .leaf .leaf)
      .leaf)))
   (.node 153 v5_glm_vec4_divs
    (.node 149 v3_glm_vec4_mul
     (.node 147 v3_glm_vec4_sub
      (.node 146 v5_glm_vec4_adds .leaf .leaf)
      (.node 148 v5_glm_vec4_subs .leaf .leaf))
     (.node 152 v3_glm_vec4_div
      (.node 150 v5_glm_vec4_scale .leaf .leaf)
      .leaf))
    (.node 157 v5_glm_vec4_muladds
     (.node 155 v3_glm_vec4_subadd
      (.node 154 v3_glm_vec4_addadd .leaf .leaf)
      (.node 156 v3_glm_vec4_muladd .leaf .leaf))
     (.node 159 v3_glm_vec4_minadd
      (.node 158 v3_glm_vec4_maxadd .leaf .leaf)
      .leaf))))
  (.node 372 v5_glm_mat4_zero
   (.node 168 v2_glm_vec4_normalize_to
    (.node 164 v3_glm_vec4_maxsub
     (.node 162 v3_glm_vec4_mulsub
      (.node 161 v3_glm_vec4_addsub .leaf .leaf)
      (.node 163 v5_glm_vec4_mulsubs .leaf .leaf))
     (.node 166 v3_glm_vec4_negate_to
      (.node 165 v3_glm_vec4_minsub .leaf .leaf)
      .leaf))
    (.node 173 v3_glm_vec4_minv
     (.node 171 v3_glm_vec4_distance2
      (.node 170 v3_glm_vec4_distance .leaf .leaf)
      (.node 172 v3_glm_vec4_maxv .leaf .leaf))
     (.node 369 v5_glm_mat4_copy
      (.node 174 v5_glm_vec4_clamp .leaf .leaf)
      .leaf)))
   (.node 388 v1_glm_mat4_inv
    (.node 384 v2_glm_mat4_transpose
     (.node 378 v1_glm_mat4_mulv
      (.node 376 v2_glm_mat4_mul .leaf .leaf)
      (.node 383 v2_glm_mat4_transpose_to .leaf .leaf))
     (.node 387 v1_glm_mat4_det
      (.node 386 v2_glm_mat4_scale .leaf .leaf)
      .leaf))
    (.node 446 v1_glm_mat2_mul
     (.node 413 v1_glm_mat3_mul
      (.node 389 v1_glm_mat4_inv_fast .leaf .leaf)
      .leaf)
     (.node 450 v5_glm_mat2_scale
      (.node 448 v1_glm_mat2_transpose_to .leaf .leaf)
      .leaf)))))
 (.node 2281 v1_glmm_fnmadd
  (.node 2267 v1_glmm_hadd
   (.node 647 v2_glm_quat_normalize_to
    (.node 486 v5_glm_translate_x
     (.node 473 v1_glm_inv_tr
      (.node 472 v1_glm_mul_rot .leaf .leaf)
      (.node 484 v3_glm_translate .leaf .leaf))
     (.node 488 v5_glm_translate_z
      (.node 487 v5_glm_translate_y .leaf .leaf)
      .leaf))
    (.node 2264 v1_glmm_max
     (.node 2262 v1_glmm_abs
      (.node 660 v1_glm_quat_mul .leaf .leaf)
      (.node 2263 v1_glmm_min .leaf .leaf))
     (.node 2266 v1_glmm_vhadds
      (.node 2265 v1_glmm_vhadd .leaf .leaf)
      .leaf)))
   (.node 2274 v1_glmm_dot
    (.node 2271 v1_glmm_hmax
     (.node 2269 v1_glmm_hmin
      (.node 2268 v1_glmm_vhmin .leaf .leaf)
      (.node 2270 v1_glmm_vhmax .leaf .leaf))
     (.node 2273 v1_glmm_vdot
      (.node 2272 v1_glmm_vdots .leaf .leaf)
      .leaf))
    (.node 2278 v1_glmm_norm_inf
     (.node 2276 v1_glmm_norm2
      (.node 2275 v1_glmm_norm .leaf .leaf)
      (.node 2277 v1_glmm_norm_one .leaf .leaf))
     (.node 2280 v1_glmm_fmadd
      (.node 2279 v1_glmm_div .leaf .leaf)
      .leaf))))
  (.node 2295 v2_glm_mul_rot_sse2
   (.node 2288 v2_glm_mat4_det_sse2
    (.node 2285 v2_glm_mat4_transp_sse2
     (.node 2283 v1_glmm_fnmsub
      (.node 2282 v1_glmm_fmsub .leaf .leaf)
      (.node 2284 v4_glm_mat4_scale_sse2 .leaf .leaf))
     (.node 2287 v2_glm_mat4_mulv_sse2
      (.node 2286 v2_glm_mat4_mul_sse2 .leaf .leaf)
      .leaf))
    (.node 2292 v2_glm_mat2_mul_sse2
     (.node 2290 v2_glm_mat4_inv_sse2
      (.node 2289 v2_glm_mat4_inv_fast_sse2 .leaf .leaf)
      (.node 2291 v1_glm_mat3_mul_sse2 .leaf .leaf))
     (.node 2294 v2_glm_mul_sse2
      (.node 2293 v2_glm_mat2_transp_sse2 .leaf .leaf)
      .leaf)))
   (.node 2302 v1_glmm256_fmsub
    (.node 2299 v1_glmm_store3
     (.node 2297 v2_glm_quat_mul_sse2
      (.node 2296 v2_glm_inv_tr_sse2 .leaf .leaf)
      (.node 2298 v1_glmm_load3 .leaf .leaf))
     (.node 2301 v1_glmm256_fnmadd
      (.node 2300 v1_glmm256_fmadd .leaf .leaf)
      .leaf))
    (.node 2305 v2_glm_mat4_transp_avx
     (.node 2304 v2_glm_mat4_scale_avx
      (.node 2303 v1_glmm256_fnmsub .leaf .leaf)
      .leaf)
     (.node 2307 v2_glm_mul_avx
      (.node 2306 v2_glm_mat4_mul_avx .leaf .leaf)
      .leaf)))))

/-- functions that FmaU replaces or adds -/
def ownFmaU : Tree Fn :=
 .node 471 v2_glm_mul
 (.node 160 v3_glm_vec4_subsub
  (.node 145 v3_glm_vec4_add
   (.node 136 v3_glm_vec4_copy
    (.node 126 v3_glm_vec4_abs
     (.node 114 v4_glm_vec4_fill
      (.node 113 v4_glm_vec4_broadcast .leaf .leaf)
      (.node 125 v2_glm_vec4_sign .leaf .leaf))
     (.node 133 v2_glm_vec4_sqrt
      (.node 132 v2_glm_vec4_hadd .leaf .leaf)
      .leaf))
    (.node 142 v3_glm_vec4_norm
     (.node 139 v3_glm_vec4_one
      (.node 138 v3_glm_vec4_zero .leaf .leaf)
      (.node 140 v3_glm_vec4_dot .leaf .leaf))
     (.node 144 v3_glm_vec4_norm_inf
      (.node 143 v3_glm_vec4_norm_one .leaf .leaf)
      .leaf)))
   (.node 153 v5_glm_vec4_divs
    (.node 149 v3_glm_vec4_mul
     (.node 147 v3_glm_vec4_sub
      (.node 146 v5_glm_vec4_adds .leaf .leaf)
      (.node 148 v5_glm_vec4_subs .leaf .leaf))
     (.node 152 v3_glm_vec4_div
      (.node 150 v5_glm_vec4_scale .leaf .leaf)
      .leaf))
    (.node 157 v5_glm_vec4_muladds
     (.node 155 v3_glm_vec4_subadd
      (.node 154 v3_glm_vec4_addadd .leaf .leaf)
      (.node 156 v3_glm_vec4_muladd .leaf .leaf))
     (.node 159 v3_glm_vec4_minadd
      (.node 158 v3_glm_vec4_maxadd .leaf .leaf)
      .leaf))))
  (.node 372 v5_glm_mat4_zero
   (.node 168 v2_glm_vec4_normalize_to
    (.node 164 v3_glm_vec4_maxsub
     (.node 162 v3_glm_vec4_mulsub
      (.node 161 v3_glm_vec4_addsub .leaf .leaf)
      (.node 163 v5_glm_vec4_mulsubs .leaf .leaf))
     (.node 166 v3_glm_vec4_negate_to
      (.node 165 v3_glm_vec4_minsub .leaf .leaf)
      .leaf))
    (.node 173 v3_glm_vec4_minv
     (.node 171 v3_glm_vec4_distance2
      (.node 170 v3_glm_vec4_distance .leaf .leaf)
      (.node 172 v3_glm_vec4_maxv .leaf .leaf))
     (.node 369 v5_glm_mat4_copy
      (.node 174 v5_glm_vec4_clamp .leaf .leaf)
      .leaf)))
   (.node 388 v1_glm_mat4_inv
    (.node 384 v2_glm_mat4_transpose
     (.node 378 v1_glm_mat4_mulv
      (.node 376 v2_glm_mat4_mul .leaf .leaf)
      (.node 383 v2_glm_mat4_transpose_to .leaf .leaf))
     (.node 387 v1_glm_mat4_det
      (.node 386 v2_glm_mat4_scale .leaf .leaf)
      .leaf))
    (.node 446 v1_glm_mat2_mul
     (.node 413 v1_glm_mat3_mul
      (.node 389 v1_glm_mat4_inv_fast .leaf .leaf)
      .leaf)
     (.node 450 v5_glm_mat2_scale
      (.node 448 v1_glm_mat2_transpose_to .leaf .leaf)
      .leaf)))))
 (.node 2281 v1_glmm_fnmadd
  (.node 2267 v1_glmm_hadd
   (.node 647 v2_glm_quat_normalize_to
    (.node 486 v5_glm_translate_x
     (.node 473 v1_glm_inv_tr
      (.node 472 v1_glm_mul_rot .leaf .leaf)
      (.node 484 v3_glm_translate .leaf .leaf))
     (.node 488 v5_glm_translate_z
      (.node 487 v5_glm_translate_y .leaf .leaf)
      .leaf))
    (.node 2264 v1_glmm_max
     (.node 2262 v1_glmm_abs
      (.node 660 v1_glm_quat_mul .leaf .leaf)
      (.node 2263 v1_glmm_min .leaf .leaf))
     (.node 2266 v1_glmm_vhadds
      (.node 2265 v1_glmm_vhadd .leaf .leaf)
      .leaf)))
   (.node 2274 v1_glmm_dot
    (.node 2271 v1_glmm_hmax
     (.node 2269 v1_glmm_hmin
      (.node 2268 v1_glmm_vhmin .leaf .leaf)
      (.node 2270 v1_glmm_vhmax .leaf .leaf))
     (.node 2273 v1_glmm_vdot
      (.node 2272 v1_glmm_vdots .leaf .leaf)
      .leaf))
    (.node 2278 v1_glmm_norm_inf
     (.node 2276 v1_glmm_norm2
      (.node 2275 v1_glmm_norm .leaf .leaf)
      (.node 2277 v1_glmm_norm_one .leaf .leaf))
     (.node 2280 v1_glmm_fmadd
      (.node 2279 v1_glmm_div .leaf .leaf)
      .leaf))))
  (.node 2295 v2_glm_mul_rot_sse2
   (.node 2288 v2_glm_mat4_det_sse2
    (.node 2285 v2_glm_mat4_transp_sse2
     (.node 2283 v1_glmm_fnmsub
      (.node 2282 v1_glmm_fmsub .leaf .leaf)
      (.node 2284 v4_glm_mat4_scale_sse2 .leaf .leaf))
     (.node 2287 v2_glm_mat4_mulv_sse2
      (.node 2286 v2_glm_mat4_mul_sse2 .leaf .leaf)
      .leaf))
    (.node 2292 v2_glm_mat2_mul_sse2
     (.node 2290 v2_glm_mat4_inv_sse2
      (.node 2289 v2_glm_mat4_inv_fast_sse2 .leaf .leaf)
      (.node 2291 v1_glm_mat3_mul_sse2 .leaf .leaf))
     (.node 2294 v2_glm_mul_sse2
      (.node 2293 v2_glm_mat2_transp_sse2 .leaf .leaf)
      .leaf)))
   (.node 2302 v1_glmm256_fmsub
    (.node 2299 v1_glmm_store3
     (.node 2297 v2_glm_quat_mul_sse2
      (.node 2296 v2_glm_inv_tr_sse2 .leaf .leaf)
      (.node 2298 v1_glmm_load3 .leaf .leaf))
     (.node 2301 v1_glmm256_fnmadd
      (.node 2300 v1_glmm256_fmadd .leaf .leaf)
      .leaf))
    (.node 2305 v2_glm_mat4_transp_avx
     (.node 2304 v2_glm_mat4_scale_avx
      (.node 2303 v1_glmm256_fnmsub .leaf .leaf)
      .leaf)
     (.node 2307 v2_glm_mul_avx
      (.node 2306 v2_glm_mat4_mul_avx .leaf .leaf)
      .leaf)))))

end Cglm.Acc
