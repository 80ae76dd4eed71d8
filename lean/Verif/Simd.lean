import Verif.Base
import Verif.Attr

/-!
# The SIMD intrinsics cglm uses

Each intrinsic is a lane-by-lane function on the vector registers.  A 128-bit register of four floats is a `V4`
(lane 0 is `x`), a 64-bit NEON register a `V2`, a 256-bit register a `V8`; a register holding sign masks, compare
masks or integers has another lane type.  The definitions follow the vendors' documentation of the intrinsics (Intel
intrinsics guide, Arm ACLE, WebAssembly SIMD); the intrinsics themselves are not part of /repo, so each comment cites
a place where cglm uses it.  Moving data between lanes is polymorphic in the lane type.

What is not modelled: alignment faults of the aligned loads and stores, NaN payloads, and the special-case tables of
`vrecps`.
-/

namespace Cglm

/-- Operations of the SIMD units without a counterpart in the scalar code: the fused multiply-add `a * b + c` with one
rounding (include/cglm/simd/x86.h:284, simd/arm.h:177), and NEON's minimum and maximum, which treat NaN and signed
zero differently from a comparison (simd/arm.h:62-63). -/
class CSimd (α : Type) where
  /-- fused `a * b + c` -/
  fma : α → α → α → α
  /-- Arm `FMIN` -/
  vmin : α → α → α
  /-- Arm `FMAX` -/
  vmax : α → α → α

/-- Operations whose result the documentation only bounds, or which have no meaning on numbers.  There is no instance
over the reals: theorems quantify over every possible choice. -/
class CEst (α : Type) where
  /-- the reciprocal estimate of `_mm_rcp_ps` (include/cglm/simd/sse2/mat4.h:290) -/
  rcp : α → α
  /-- the reciprocal estimate of `vrecpe` (include/cglm/simd/arm.h:164) -/
  recpe : α → α
  /-- bitwise or of two floats, both non-zero (include/cglm/vec4-ext.h:248) -/
  bor : α → α → α

export CSimd (fma vmin vmax)
export CEst (rcp recpe bor)

/-- The two bit patterns the sign masks are made of: `0x00000000` and `0x80000000` (include/cglm/simd/x86.h:75). -/
inductive SignBit where
  | pos
  | neg
deriving DecidableEq, Repr, Inhabited

/-- Bit pattern to sign-mask lane; the translator rejects every other pattern (include/cglm/simd/x86.h:75). -/
def signBit (n : Nat) : SignBit := if n = 0x80000000 then .neg else .pos
@[cglm] theorem signBit_pos : signBit 0 = .pos := rfl
@[cglm] theorem signBit_neg : signBit 2147483648 = .neg := rfl

/-- xor with a sign-mask lane: flips the sign or does nothing (include/cglm/simd/sse2/quat.h:38). -/
def SignBit.flip {α : Type} [Neg α] : SignBit → α → α
  | .pos, a => a
  | .neg, a => -a
@[cglm] theorem SignBit.flip_pos {α : Type} [Neg α] (a : α) : SignBit.pos.flip a = a := rfl
@[cglm] theorem SignBit.flip_neg {α : Type} [Neg α] (a : α) : SignBit.neg.flip a = -a := rfl

/-- and-not with a sign-mask lane: clears the sign or does nothing (include/cglm/simd/x86.h:112). -/
def SignBit.clear {α : Type} [CFloat α] : SignBit → α → α
  | .pos, a => a
  | .neg, a => fabsf a

section lanes
variable {β γ δ ε : Type}
@[cglm] theorem SignBit.clear_pos {α : Type} [CFloat α] (a : α) : SignBit.pos.clear a = a := rfl
@[cglm] theorem SignBit.clear_neg {α : Type} [CFloat α] (a : α) : SignBit.neg.clear a = fabsf a := rfl

/-- lane `i` of a register, as in `_MM_SHUFFLE` selectors (include/cglm/simd/x86.h:25) -/
def V4.sel (v : V4 β) : Nat → β
  | 0 => v.x
  | 1 => v.y
  | 2 => v.z
  | _ => v.w
@[cglm] theorem V4.sel_0 (v : V4 β) : v.sel 0 = v.x := rfl
@[cglm] theorem V4.sel_1 (v : V4 β) : v.sel 1 = v.y := rfl
@[cglm] theorem V4.sel_2 (v : V4 β) : v.sel 2 = v.z := rfl
@[cglm] theorem V4.sel_3 (v : V4 β) : v.sel 3 = v.w := rfl

/-- lane `i` of a 64-bit register (include/cglm/simd/arm.h:27) -/
def V2.sel (v : V2 β) : Nat → β
  | 0 => v.x
  | _ => v.y
@[cglm] theorem V2.sel_0 (v : V2 β) : v.sel 0 = v.x := rfl
@[cglm] theorem V2.sel_1 (v : V2 β) : v.sel 1 = v.y := rfl

/-- lane-wise function of one register -/
@[cglm] def map4 (f : β → γ) (a : V4 β) : V4 γ := ⟨f a.x, f a.y, f a.z, f a.w⟩
/-- lane-wise function of two registers -/
@[cglm] def zip4 (f : β → γ → δ) (a : V4 β) (b : V4 γ) : V4 δ := ⟨f a.x b.x, f a.y b.y, f a.z b.z, f a.w b.w⟩
/-- lane-wise function of three registers -/
@[cglm] def zip4_3 (f : β → γ → δ → ε) (a : V4 β) (b : V4 γ) (c : V4 δ) : V4 ε :=
  ⟨f a.x b.x c.x, f a.y b.y c.y, f a.z b.z c.z, f a.w b.w c.w⟩

/-- `_mm_set1_ps`, `_mm_broadcast_ss`, `_mm_setzero_ps`, `vdupq_n_f32`, `wasm_f32x4_splat`, `wasm_f32x4_const_splat`:
the same value in every lane (include/cglm/simd/x86.h:40, simd/arm.h:22, simd/wasm.h:17). -/
@[cglm] def splat4 (a : β) : V4 β := ⟨a, a, a, a⟩
/-- `_mm256_broadcast_ss`, `_mm256_setzero_ps` (include/cglm/simd/avx/mat4.h:23). -/
@[cglm] def splat8 (a : β) : V8 β := ⟨a, a, a, a, a, a, a, a⟩

/-- A sign mask given lane 0 first: `wasm_i32x4_const`, a NEON initialiser, or a `_mm_set_ps` of `±0.0f` with its
arguments reversed (include/cglm/simd/wasm.h:34, simd/sse2/affine.h:94, simd/x86.h:93). -/
@[cglm] def signs (a b c d : Nat) : V4 SignBit := ⟨signBit a, signBit b, signBit c, signBit d⟩

/-- `_mm_set_ps`: arguments from lane 3 down to lane 0 (include/cglm/simd/sse2/affine.h:94). -/
@[cglm] def mm_set_ps (d c b a : β) : V4 β := ⟨a, b, c, d⟩
/-- `_mm_set_epi32`: arguments from lane 3 down to lane 0 (include/cglm/simd/x86.h:90). -/
@[cglm] def mm_set_epi32 (d c b a : Nat) : V4 Nat := ⟨a, b, c, d⟩
/-- `_mm_set1_epi32` (include/cglm/simd/x86.h:102). -/
@[cglm] def mm_set1_epi32 (a : Nat) : V4 Nat := ⟨a, a, a, a⟩
/-- `_mm_castsi128_ps` of an integer constant: a sign mask (include/cglm/simd/x86.h:90). -/
@[cglm] def mm_castsi128_ps_sign (a : V4 Nat) : V4 SignBit := map4 signBit a
/-- `_mm_castsi128_ps` of shuffled or loaded float bits (include/cglm/simd/x86.h:29). -/
@[cglm] def mm_castsi128_ps (a : V4 β) : V4 β := a
/-- `_mm_castps_si128` (include/cglm/simd/x86.h:29). -/
@[cglm] def mm_castps_si128 (a : V4 β) : V4 β := a

/-- `_mm_shuffle_ps(a, b, imm)`: lanes 0, 1 from `a`, lanes 2, 3 from `b` (include/cglm/simd/x86.h:33). -/
@[cglm] def mm_shuffle_ps (a b : V4 β) (imm : Nat) : V4 β :=
  ⟨a.sel (imm % 4), a.sel (imm / 4 % 4), b.sel (imm / 16 % 4), b.sel (imm / 64 % 4)⟩
/-- `_mm_shuffle_epi32(a, imm)` (include/cglm/simd/x86.h:29). -/
@[cglm] def mm_shuffle_epi32 (a : V4 β) (imm : Nat) : V4 β :=
  ⟨a.sel (imm % 4), a.sel (imm / 4 % 4), a.sel (imm / 16 % 4), a.sel (imm / 64 % 4)⟩
/-- `_mm_permute_ps(a, imm)` (include/cglm/simd/x86.h:25). -/
@[cglm] def mm_permute_ps (a : V4 β) (imm : Nat) : V4 β :=
  ⟨a.sel (imm % 4), a.sel (imm / 4 % 4), a.sel (imm / 16 % 4), a.sel (imm / 64 % 4)⟩
/-- `_mm_broadcastss_ps`: lane 0 everywhere (include/cglm/simd/x86.h:44). -/
@[cglm] def mm_broadcastss_ps (a : V4 β) : V4 β := splat4 a.x
/-- `_mm_movehl_ps(a, b)`: upper half of `b`, then upper half of `a` (include/cglm/simd/x86.h:141). -/
@[cglm] def mm_movehl_ps (a b : V4 β) : V4 β := ⟨b.z, b.w, a.z, a.w⟩
/-- `_mm_movelh_ps(a, b)`: lower half of `a`, then lower half of `b` (include/cglm/simd/sse2/mat2.h:25). -/
@[cglm] def mm_movelh_ps (a b : V4 β) : V4 β := ⟨a.x, a.y, b.x, b.y⟩
/-- `_mm_unpackhi_ps` (include/cglm/simd/sse2/mat3.h:46). -/
@[cglm] def mm_unpackhi_ps (a b : V4 β) : V4 β := ⟨a.z, b.z, a.w, b.w⟩
/-- `_mm_unpacklo_ps` (include/cglm/simd/sse2/mat4.h:457). -/
@[cglm] def mm_unpacklo_ps (a b : V4 β) : V4 β := ⟨a.x, b.x, a.y, b.y⟩
/-- `_mm_movehdup_ps`: odd lanes duplicated (include/cglm/simd/x86.h:132). -/
@[cglm] def mm_movehdup_ps (a : V4 β) : V4 β := ⟨a.y, a.y, a.w, a.w⟩
/-- `_mm_cvtss_f32`: lane 0 (include/cglm/simd/x86.h:150). -/
@[cglm] def mm_cvtss_f32 (a : V4 β) : β := a.x
/-- `_MM_TRANSPOSE4_PS`, which overwrites its four arguments; the result holds their new values
(include/cglm/simd/sse2/mat4.h:39). -/
@[cglm] def mm_transpose4_ps (r0 r1 r2 r3 : V4 β) : M4 β :=
  ⟨⟨r0.x, r1.x, r2.x, r3.x⟩, ⟨r0.y, r1.y, r2.y, r3.y⟩, ⟨r0.z, r1.z, r2.z, r3.z⟩, ⟨r0.w, r1.w, r2.w, r3.w⟩⟩

/-- lower 128 bits -/
@[cglm] def V8.lo (a : V8 β) : V4 β := ⟨a.e0, a.e1, a.e2, a.e3⟩
/-- upper 128 bits -/
@[cglm] def V8.hi (a : V8 β) : V4 β := ⟨a.e4, a.e5, a.e6, a.e7⟩
/-- a 256-bit register from two halves -/
@[cglm] def V8.join (l h : V4 β) : V8 β := ⟨l.x, l.y, l.z, l.w, h.x, h.y, h.z, h.w⟩
/-- half selector of `_mm256_permute2f128_ps` (include/cglm/simd/avx/affine.h:32) -/
def half (a b : V8 β) : Nat → V4 β
  | 0 => a.lo
  | 1 => a.hi
  | 2 => b.lo
  | _ => b.hi
@[cglm] theorem half_0 (a b : V8 β) : half a b 0 = a.lo := rfl
@[cglm] theorem half_1 (a b : V8 β) : half a b 1 = a.hi := rfl
@[cglm] theorem half_2 (a b : V8 β) : half a b 2 = b.lo := rfl
@[cglm] theorem half_3 (a b : V8 β) : half a b 3 = b.hi := rfl

/-- `_mm256_permute2f128_ps`; cglm uses no selector with a zeroing bit (include/cglm/simd/avx/affine.h:32). -/
@[cglm] def mm256_permute2f128_ps (a b : V8 β) (imm : Nat) : V8 β := V8.join (half a b (imm % 4)) (half a b (imm / 16 % 4))
/-- `_mm256_set_epi32`: arguments from lane 7 down to lane 0 (include/cglm/simd/avx/affine.h:41). -/
@[cglm] def mm256_set_epi32 (h g f e d c b a : Nat) : V8 Nat := ⟨a, b, c, d, e, f, g, h⟩
/-- `_mm256_set1_epi32` (include/cglm/simd/x86.h:107). -/
@[cglm] def mm256_set1_epi32 (a : Nat) : V8 Nat := splat8 a
/-- `_mm256_castsi256_ps` of an integer constant: a sign mask (include/cglm/simd/x86.h:107). -/
@[cglm] def mm256_castsi256_ps (a : V8 Nat) : V8 SignBit := V8.join (map4 signBit a.lo) (map4 signBit a.hi)
/-- `_mm256_permutevar_ps`: within each half, lane `i mod 4` (include/cglm/simd/avx/affine.h:41). -/
@[cglm] def mm256_permutevar_ps (a : V8 β) (i : V8 Nat) : V8 β :=
  V8.join (map4 (fun k => a.lo.sel (k % 4)) i.lo) (map4 (fun k => a.hi.sel (k % 4)) i.hi)
/-- `_mm256_unpacklo_ps`: per half (include/cglm/simd/avx/mat4.h:41). -/
@[cglm] def mm256_unpacklo_ps (a b : V8 β) : V8 β := V8.join (mm_unpacklo_ps a.lo b.lo) (mm_unpacklo_ps a.hi b.hi)
/-- `_mm256_unpackhi_ps`: per half (include/cglm/simd/avx/mat4.h:42). -/
@[cglm] def mm256_unpackhi_ps (a b : V8 β) : V8 β := V8.join (mm_unpackhi_ps a.lo b.lo) (mm_unpackhi_ps a.hi b.hi)

/-- `vget_low_f32` (include/cglm/simd/arm.h:27). -/
@[cglm] def vget_low_f32 (a : V4 β) : V2 β := ⟨a.x, a.y⟩
/-- `vget_high_f32` (include/cglm/simd/arm.h:29). -/
@[cglm] def vget_high_f32 (a : V4 β) : V2 β := ⟨a.z, a.w⟩
/-- `vcombine_f32` (include/cglm/simd/arm.h:40). -/
@[cglm] def vcombine_f32 (l h : V2 β) : V4 β := ⟨l.x, l.y, h.x, h.y⟩
/-- `vdupq_lane_f32` (include/cglm/simd/arm.h:27). -/
@[cglm] def vdupq_lane_f32 (a : V2 β) (i : Nat) : V4 β := splat4 (a.sel i)
/-- `vdup_lane_f32` (include/cglm/simd/neon/mat4.h:128). -/
@[cglm] def vdup_lane_f32 (a : V2 β) (i : Nat) : V2 β := ⟨a.sel i, a.sel i⟩
/-- `vgetq_lane_f32` (include/cglm/simd/arm.h:98). -/
@[cglm] def vgetq_lane_f32 (a : V4 β) (i : Nat) : β := a.sel i
/-- `vget_lane_f32` (include/cglm/simd/arm.h:108). -/
@[cglm] def vget_lane_f32 (a : V2 β) (i : Nat) : β := a.sel i
/-- `vrev64q_f32`: lanes swapped within each 64-bit half (include/cglm/simd/neon/mat4.h:117). -/
@[cglm] def vrev64q_f32 (a : V4 β) : V4 β := ⟨a.y, a.x, a.w, a.z⟩
/-- lane `i` of the concatenation of two registers (include/cglm/simd/arm.h:36, simd/wasm.h:61) -/
def sel8 (a b : V4 β) : Nat → β
  | 0 => a.x
  | 1 => a.y
  | 2 => a.z
  | 3 => a.w
  | 4 => b.x
  | 5 => b.y
  | 6 => b.z
  | _ => b.w
@[cglm] theorem sel8_0 (a b : V4 β) : sel8 a b 0 = a.x := rfl
@[cglm] theorem sel8_1 (a b : V4 β) : sel8 a b 1 = a.y := rfl
@[cglm] theorem sel8_2 (a b : V4 β) : sel8 a b 2 = a.z := rfl
@[cglm] theorem sel8_3 (a b : V4 β) : sel8 a b 3 = a.w := rfl
@[cglm] theorem sel8_4 (a b : V4 β) : sel8 a b 4 = b.x := rfl
@[cglm] theorem sel8_5 (a b : V4 β) : sel8 a b 5 = b.y := rfl
@[cglm] theorem sel8_6 (a b : V4 β) : sel8 a b 6 = b.z := rfl
@[cglm] theorem sel8_7 (a b : V4 β) : sel8 a b 7 = b.w := rfl

/-- `vextq_f32(a, b, n)`: four lanes of the concatenation from lane `n` (include/cglm/simd/neon/mat4.h:349). -/
@[cglm] def vextq_f32 (a b : V4 β) (n : Nat) : V4 β := ⟨sel8 a b n, sel8 a b (n + 1), sel8 a b (n + 2), sel8 a b (n + 3)⟩
/-- `vzipq_f32`: `.val[0]` is field `c0`, `.val[1]` field `c1` (include/cglm/simd/neon/mat4.h:343). -/
@[cglm] def vzipq_f32 (a b : V4 β) : M2x4 β := ⟨⟨a.x, b.x, a.y, b.y⟩, ⟨a.z, b.z, a.w, b.w⟩⟩
/-- `vuzpq_f32` (include/cglm/simd/neon/mat4.h:143). -/
@[cglm] def vuzpq_f32 (a b : V4 β) : M2x4 β := ⟨⟨a.x, a.z, b.x, b.z⟩, ⟨a.y, a.w, b.y, b.w⟩⟩
/-- `vtrnq_f32` (include/cglm/simd/neon/mat2.h:29). -/
@[cglm] def vtrnq_f32 (a b : V4 β) : M2x4 β := ⟨⟨a.x, b.x, a.z, b.z⟩, ⟨a.y, b.y, a.w, b.w⟩⟩
/-- `vld4q_f32`: loads 16 floats de-interleaved, so the registers are the transposed columns
(include/cglm/simd/neon/affine.h:91). -/
@[cglm] def vld4q_f32 (m : M4 β) : M4 β := mm_transpose4_ps m.c0 m.c1 m.c2 m.c3
/-- `vreinterpretq_f32_s32` (include/cglm/simd/arm.h:33). -/
@[cglm] def vreinterpretq_f32_s32 (a : V4 β) : V4 β := a
/-- `vreinterpretq_s32_f32` (include/cglm/simd/arm.h:33). -/
@[cglm] def vreinterpretq_s32_f32 (a : V4 β) : V4 β := a

/-- `wasm_i32x4_shuffle(a, b, …)`: each selector picks a lane of the concatenation (include/cglm/simd/wasm.h:22). -/
@[cglm] def wasm_i32x4_shuffle (a b : V4 β) (i j k l : Nat) : V4 β := ⟨sel8 a b i, sel8 a b j, sel8 a b k, sel8 a b l⟩
/-- `wasm_f32x4_extract_lane` (include/cglm/simd/wasm.h:69). -/
@[cglm] def wasm_f32x4_extract_lane (a : V4 β) (i : Nat) : β := a.sel i
/-- `wasm_f32x4_replace_lane` (include/cglm/simd/wasm.h:157). -/
@[cglm] def wasm_f32x4_replace_lane (a : V4 β) (i : Nat) (s : β) : V4 β :=
  match i with
  | 0 => ⟨s, a.y, a.z, a.w⟩
  | 1 => ⟨a.x, s, a.z, a.w⟩
  | 2 => ⟨a.x, a.y, s, a.w⟩
  | _ => ⟨a.x, a.y, a.z, s⟩

end lanes

section arith
variable {α : Type} [Add α] [Sub α] [Mul α] [Div α] [Neg α] [CFloat α]

/-- `_mm_add_ps` (include/cglm/simd/x86.h:123). -/
@[cglm] def mm_add_ps (a b : V4 α) : V4 α := zip4 (· + ·) a b
/-- `_mm_sub_ps` (include/cglm/simd/x86.h:296). -/
@[cglm] def mm_sub_ps (a b : V4 α) : V4 α := zip4 (· - ·) a b
/-- `_mm_mul_ps` (include/cglm/simd/x86.h:286). -/
@[cglm] def mm_mul_ps (a b : V4 α) : V4 α := zip4 (· * ·) a b
/-- `_mm_div_ps` (include/cglm/simd/x86.h:272). -/
@[cglm] def mm_div_ps (a b : V4 α) : V4 α := zip4 (· / ·) a b
/-- `_mm_sqrt_ps` (include/cglm/vec4.h:939). -/
@[cglm] def mm_sqrt_ps (a : V4 α) : V4 α := map4 sqrtf a
/-- lane rule of `MINPS`: the second operand unless the first is smaller -/
@[cglm] def x86min (a b : α) : α := if flt a b then a else b
/-- lane rule of `MAXPS`: the second operand unless the first is greater -/
@[cglm] def x86max (a b : α) : α := if flt b a then a else b
/-- `_mm_min_ps` (include/cglm/simd/x86.h:115). -/
@[cglm] def mm_min_ps (a b : V4 α) : V4 α := zip4 x86min a b
/-- `_mm_max_ps` (include/cglm/simd/x86.h:116). -/
@[cglm] def mm_max_ps (a b : V4 α) : V4 α := zip4 x86max a b
/-- `_mm_add_ss`: lane 0 only (include/cglm/simd/x86.h:142). -/
@[cglm] def mm_add_ss (a b : V4 α) : V4 α := ⟨a.x + b.x, a.y, a.z, a.w⟩
/-- `_mm_min_ss` (include/cglm/simd/x86.h:160). -/
@[cglm] def mm_min_ss (a b : V4 α) : V4 α := ⟨x86min a.x b.x, a.y, a.z, a.w⟩
/-- `_mm_max_ss` (include/cglm/simd/x86.h:176). -/
@[cglm] def mm_max_ss (a b : V4 α) : V4 α := ⟨x86max a.x b.x, a.y, a.z, a.w⟩
/-- `_mm_sqrt_ss` (include/cglm/simd/x86.h:227). -/
@[cglm] def mm_sqrt_ss (a : V4 α) : V4 α := ⟨sqrtf a.x, a.y, a.z, a.w⟩
/-- `_mm_hadd_ps` (include/cglm/simd/x86.h:194). -/
@[cglm] def mm_hadd_ps (a b : V4 α) : V4 α := ⟨a.x + a.y, a.z + a.w, b.x + b.y, b.z + b.w⟩
/-- `_mm_dp_ps(a, b, 0xFF)`: `DPPS` adds the products of lanes 0, 1 and of lanes 2, 3 first
(include/cglm/simd/x86.h:189). -/
@[cglm] def mm_dp_ps_ff (a b : V4 α) : V4 α := splat4 ((a.x * b.x + a.y * b.y) + (a.z * b.z + a.w * b.w))
/-- `_mm_xor_ps` with a sign mask (include/cglm/simd/sse2/quat.h:38). -/
@[cglm] def mm_xor_ps (a : V4 α) (m : V4 SignBit) : V4 α := zip4 (fun b a => b.flip a) m a
/-- `_mm_andnot_ps` with a sign mask: absolute value (include/cglm/simd/x86.h:112). -/
@[cglm] def mm_andnot_ps (m : V4 SignBit) (a : V4 α) : V4 α := zip4 (fun b a => b.clear a) m a
/-- `_mm_cmpgt_ps` (include/cglm/vec4-ext.h:245). -/
@[cglm] def mm_cmpgt_ps (a b : V4 α) : V4 Bool := zip4 (fun a b => flt b a) a b
/-- `_mm_cmplt_ps` (include/cglm/vec4-ext.h:246). -/
@[cglm] def mm_cmplt_ps (a b : V4 α) : V4 Bool := zip4 (fun a b => flt a b) a b
/-- `_mm_and_ps` of a compare mask and a float; `none` is the all-zero bit pattern of a masked-out lane
(include/cglm/vec4-ext.h:245). -/
@[cglm] def mm_and_ps (m : V4 Bool) (a : V4 α) : V4 (Option α) := zip4 (fun b a => if b then some a else none) m a
/-- lane rule of `_mm_or_ps` on masked values: or-ing with an all-zero lane gives the other operand -/
@[cglm] def orLane [CEst α] : Option α → Option α → α
  | none, none => lit 0
  | some a, none => a
  | none, some b => b
  | some a, some b => bor a b
/-- `_mm_or_ps` of two masked registers (include/cglm/vec4-ext.h:248). -/
@[cglm] def mm_or_ps [CEst α] (a b : V4 (Option α)) : V4 α := zip4 orLane a b
/-- `_mm_rcp_ps`: an estimate of the reciprocal (include/cglm/simd/sse2/mat4.h:290). -/
@[cglm] def mm_rcp_ps [CEst α] (a : V4 α) : V4 α := map4 rcp a
/-- `_mm_fmadd_ps` (include/cglm/simd/x86.h:284). -/
@[cglm] def mm_fmadd_ps [CSimd α] (a b c : V4 α) : V4 α := zip4_3 fma a b c
/-- `_mm_fnmadd_ps`: `-(a * b) + c` (include/cglm/simd/x86.h:294). -/
@[cglm] def mm_fnmadd_ps [CSimd α] (a b c : V4 α) : V4 α := zip4_3 (fun a b c => fma (-a) b c) a b c
/-- `_mm_fmsub_ps`: `a * b - c` (include/cglm/simd/x86.h:304). -/
@[cglm] def mm_fmsub_ps [CSimd α] (a b c : V4 α) : V4 α := zip4_3 (fun a b c => fma a b (-c)) a b c
/-- `_mm_fnmsub_ps`: `-(a * b) - c` (include/cglm/simd/x86.h:314). -/
@[cglm] def mm_fnmsub_ps [CSimd α] (a b c : V4 α) : V4 α := zip4_3 (fun a b c => fma (-a) b (-c)) a b c

/-- `_mm256_add_ps` (include/cglm/simd/avx/affine.h:46). -/
@[cglm] def mm256_add_ps (a b : V8 α) : V8 α := V8.join (mm_add_ps a.lo b.lo) (mm_add_ps a.hi b.hi)
/-- `_mm256_sub_ps` (include/cglm/simd/x86.h:338). -/
@[cglm] def mm256_sub_ps (a b : V8 α) : V8 α := V8.join (mm_sub_ps a.lo b.lo) (mm_sub_ps a.hi b.hi)
/-- `_mm256_mul_ps` (include/cglm/simd/avx/affine.h:47). -/
@[cglm] def mm256_mul_ps (a b : V8 α) : V8 α := V8.join (mm_mul_ps a.lo b.lo) (mm_mul_ps a.hi b.hi)
/-- `_mm256_xor_ps` with a sign mask (include/cglm/simd/x86.h:358). -/
@[cglm] def mm256_xor_ps (a : V8 α) (m : V8 SignBit) : V8 α := V8.join (mm_xor_ps a.lo m.lo) (mm_xor_ps a.hi m.hi)
/-- `_mm256_fmadd_ps` (include/cglm/simd/x86.h:326). -/
@[cglm] def mm256_fmadd_ps [CSimd α] (a b c : V8 α) : V8 α := V8.join (mm_fmadd_ps a.lo b.lo c.lo) (mm_fmadd_ps a.hi b.hi c.hi)
/-- `_mm256_fnmadd_ps` (include/cglm/simd/x86.h:336). -/
@[cglm] def mm256_fnmadd_ps [CSimd α] (a b c : V8 α) : V8 α := V8.join (mm_fnmadd_ps a.lo b.lo c.lo) (mm_fnmadd_ps a.hi b.hi c.hi)
/-- `_mm256_fmsub_ps` (include/cglm/simd/x86.h:346). -/
@[cglm] def mm256_fmsub_ps [CSimd α] (a b c : V8 α) : V8 α := V8.join (mm_fmsub_ps a.lo b.lo c.lo) (mm_fmsub_ps a.hi b.hi c.hi)

/-- `vaddq_f32` (include/cglm/vec4.h:373). -/
@[cglm] def vaddq_f32 (a b : V4 α) : V4 α := zip4 (· + ·) a b
/-- `vsubq_f32` (include/cglm/simd/arm.h:202). -/
@[cglm] def vsubq_f32 (a b : V4 α) : V4 α := zip4 (· - ·) a b
/-- `vmulq_f32` (include/cglm/simd/arm.h:123). -/
@[cglm] def vmulq_f32 (a b : V4 α) : V4 α := zip4 (· * ·) a b
/-- `vdivq_f32` (include/cglm/simd/arm.h:160). -/
@[cglm] def vdivq_f32 (a b : V4 α) : V4 α := zip4 (· / ·) a b
/-- `vnegq_f32` (include/cglm/simd/arm.h:196). -/
@[cglm] def vnegq_f32 (a : V4 α) : V4 α := map4 (fun a => -a) a
/-- `vabsq_f32` (include/cglm/simd/arm.h:61). -/
@[cglm] def vabsq_f32 (a : V4 α) : V4 α := map4 fabsf a
/-- `vminq_f32` (include/cglm/simd/arm.h:62). -/
@[cglm] def vminq_f32 [CSimd α] (a b : V4 α) : V4 α := zip4 vmin a b
/-- `vmaxq_f32` (include/cglm/simd/arm.h:63). -/
@[cglm] def vmaxq_f32 [CSimd α] (a b : V4 α) : V4 α := zip4 vmax a b
/-- `vpmin_f32`: minima of adjacent lanes (include/cglm/simd/arm.h:107). -/
@[cglm] def vpmin_f32 [CSimd α] (a b : V2 α) : V2 α := ⟨vmin a.x a.y, vmin b.x b.y⟩
/-- `vpmax_f32`: maxima of adjacent lanes (include/cglm/simd/arm.h:116). -/
@[cglm] def vpmax_f32 [CSimd α] (a b : V2 α) : V2 α := ⟨vmax a.x a.y, vmax b.x b.y⟩
/-- `vadd_f32` (include/cglm/simd/neon/mat4.h:385). -/
@[cglm] def vadd_f32 (a b : V2 α) : V2 α := ⟨a.x + b.x, a.y + b.y⟩
/-- `vpadd_f32`: sums of adjacent lanes (include/cglm/simd/neon/mat4.h:397). -/
@[cglm] def vpadd_f32 (a b : V2 α) : V2 α := ⟨a.x + a.y, b.x + b.y⟩
/-- `vpaddq_f32`: sums of adjacent lanes (include/cglm/simd/arm.h:71). -/
@[cglm] def vpaddq_f32 (a b : V4 α) : V4 α := ⟨a.x + a.y, a.z + a.w, b.x + b.y, b.z + b.w⟩
/-- `vaddvq_f32`: pairwise sum of all lanes (include/cglm/simd/arm.h:94). -/
@[cglm] def vaddvq_f32 (a : V4 α) : α := (a.x + a.y) + (a.z + a.w)
/-- `vmlaq_f32(c, a, b)`: `c + a * b`, product rounded (include/cglm/simd/arm.h:179). -/
@[cglm] def vmlaq_f32 (c a b : V4 α) : V4 α := zip4_3 (fun c a b => c + a * b) c a b
/-- `vmlsq_f32(c, a, b)`: `c - a * b`, product rounded (include/cglm/simd/arm.h:189). -/
@[cglm] def vmlsq_f32 (c a b : V4 α) : V4 α := zip4_3 (fun c a b => c - a * b) c a b
/-- `vfmaq_f32(c, a, b)`: fused `c + a * b` (include/cglm/simd/arm.h:177). -/
@[cglm] def vfmaq_f32 [CSimd α] (c a b : V4 α) : V4 α := zip4_3 (fun c a b => fma a b c) c a b
/-- `vfmsq_f32(c, a, b)`: fused `c - a * b` (include/cglm/simd/arm.h:187). -/
@[cglm] def vfmsq_f32 [CSimd α] (c a b : V4 α) : V4 α := zip4_3 (fun c a b => fma (-a) b c) c a b
/-- `vmulq_lane_f32` (include/cglm/simd/neon/mat4.h:97). -/
@[cglm] def vmulq_lane_f32 (a : V4 α) (b : V2 α) (i : Nat) : V4 α := map4 (fun t => t * b.sel i) a
/-- `vmlaq_lane_f32` (include/cglm/simd/neon/mat4.h:99). -/
@[cglm] def vmlaq_lane_f32 (c a : V4 α) (b : V2 α) (i : Nat) : V4 α := zip4 (fun c t => c + t * b.sel i) c a
/-- `vrecpeq_f32`: an estimate of the reciprocal (include/cglm/simd/arm.h:164). -/
@[cglm] def vrecpeq_f32 [CEst α] (a : V4 α) : V4 α := map4 recpe a
/-- `vrecpsq_f32(a, b)`: the Newton step factor `2 - a * b` (include/cglm/simd/arm.h:167). -/
@[cglm] def vrecpsq_f32 (a b : V4 α) : V4 α := zip4 (fun a b => lit 2 - a * b) a b
/-- `veorq_s32` with a sign mask (include/cglm/simd/arm.h:33). -/
@[cglm] def veorq_s32 (a : V4 α) (m : V4 SignBit) : V4 α := zip4 (fun b a => b.flip a) m a

/-- `wasm_f32x4_add` (include/cglm/simd/wasm.h:49). -/
@[cglm] def wasm_f32x4_add (a b : V4 α) : V4 α := zip4 (· + ·) a b
/-- `wasm_f32x4_sub` (include/cglm/simd/wasm.h:188). -/
@[cglm] def wasm_f32x4_sub (a b : V4 α) : V4 α := zip4 (· - ·) a b
/-- `wasm_f32x4_mul` (include/cglm/simd/wasm.h:115). -/
@[cglm] def wasm_f32x4_mul (a b : V4 α) : V4 α := zip4 (· * ·) a b
/-- `wasm_f32x4_div` (include/cglm/simd/wasm.h:170). -/
@[cglm] def wasm_f32x4_div (a b : V4 α) : V4 α := zip4 (· / ·) a b
/-- `wasm_f32x4_neg` (include/cglm/simd/wasm.h:194). -/
@[cglm] def wasm_f32x4_neg (a : V4 α) : V4 α := map4 (fun a => -a) a
/-- `wasm_f32x4_abs` (include/cglm/simd/wasm.h:41). -/
@[cglm] def wasm_f32x4_abs (a : V4 α) : V4 α := map4 fabsf a
/-- `wasm_f32x4_sqrt` (include/cglm/simd/wasm.h:132). -/
@[cglm] def wasm_f32x4_sqrt (a : V4 α) : V4 α := map4 sqrtf a
/-- `wasm_f32x4_pmin(a, b)`: `b < a ? b : a` (include/cglm/simd/wasm.h:42). -/
@[cglm] def wasm_f32x4_pmin (a b : V4 α) : V4 α := zip4 (fun a b => if flt b a then b else a) a b
/-- `wasm_f32x4_pmax(a, b)`: `a < b ? b : a` (include/cglm/simd/wasm.h:43). -/
@[cglm] def wasm_f32x4_pmax (a b : V4 α) : V4 α := zip4 (fun a b => if flt a b then b else a) a b
/-- `wasm_v128_xor` with a sign mask (include/cglm/simd/wasm/quat.h:39). -/
@[cglm] def wasm_v128_xor (a : V4 α) (m : V4 SignBit) : V4 α := zip4 (fun b a => b.flip a) m a

end arith

end Cglm
