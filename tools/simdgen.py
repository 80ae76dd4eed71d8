"""Translates the headers under the SIMD preprocessor configurations: the same value-semantics back end as gen.py,
plus a table of intrinsics (lean/Verif/Simd.lean).  Emits lean/Verif/Gen/Simd<Cfg>.lean with the functions whose
translation differs from the scalar build, and their transitive callers.  Usage: python3 tools/simdgen.py"""
import sys, os, re, collections
sys.path.insert(0, os.path.dirname(os.path.abspath(__file__)))
import cfront, pure, gen
from pure import Skip, build, explode, size, Pure
from cfront import T
from fractions import Fraction

CFGS = collections.OrderedDict([
  ('Sse', ['__SSE__']),
  ('Sse2', ['__SSE__', '__SSE2__']),
  ('Sse3', ['__SSE__', '__SSE2__', '__SSE3__', 'CGLM_SSE3_DOT']),
  ('Sse4', ['__SSE__', '__SSE2__', '__SSE3__', '__SSE4_1__', 'CGLM_SSE4_DOT']),
  ('Avx', ['__SSE__', '__SSE2__', '__SSE3__', '__SSE4_1__', '__SSE4_2__', '__AVX__']),
  ('Fma', ['__SSE__', '__SSE2__', '__SSE3__', '__SSE4_1__', '__SSE4_2__', '__AVX__', '__AVX2__', '__FMA__']),
  ('Neon64', ['__ARM_NEON', '__ARM_NEON_FP', '__aarch64__']),
  ('Neon32', ['__ARM_NEON', '__ARM_NEON_FP']),
  ('Wasm', ['__wasm__', '__wasm_simd128__']),
])
NEG = 0x80000000

def isnegzero(e): return e[0] == 'un' and e[1] == '-' and e[2][0] == 'num' and e[2][1] == 0
def iszero(e): return e[0] == 'num' and e[1] == 0
def signs(es): return ('app', 'signs', [('int', NEG if isnegzero(e) else 0) for e in es])
def ismask(es): return all(isnegzero(e) or iszero(e) for e in es) and any(isnegzero(e) for e in es)

INTR = {}
def intr(names, tag):
    def deco(f):
        for n in names.split(): INTR[n] = (lambda S, args, env, n=n: f(S, n, args, env), tag)
        return f
    return deco
def lname(n): return n.lstrip('_').lower() if n.startswith('_') else n
def val(S, a, env):
    t, c = S.rvt(a, env)
    return t
def flo(S, a, env): return S.coerce(S.rvt(a, env), 'float')
def aint(S, a, env):
    t, c = S.rvt(a, env)
    if t[0] != 'int': raise Skip('non-constant immediate')
    return t
def load(S, a, env, k):
    p = S.ptr(a, env)
    lv = env.ar[p.var][p.off:p.off + k]
    if len(lv) < k: raise Skip('short load')
    t = build(lv, (k,))
    return ('app', f'V{k}.mk', t[1]) if t[0] == 'mk' else t
def store(S, a, lv, env):
    S.wr(env, S.ptr(a, env), lv)
    return ('v', '_')
def named(S, t, base='s'):
    if t[0] == 'v': return t
    nm = S.fresh(base); S.lets.append((nm, t)); return ('v', nm)
def vec(S, n, args, env): return ('app', lname(n), [val(S, a, env) for a in args])

# lane-wise and shuffling operations whose arguments are all vectors
intr('_mm_add_ps _mm_sub_ps _mm_mul_ps _mm_div_ps _mm_min_ps _mm_max_ps _mm_xor_ps _mm_andnot_ps _mm_and_ps _mm_or_ps '
     '_mm_cmpgt_ps _mm_cmplt_ps _mm_sqrt_ps _mm_rcp_ps _mm_add_ss _mm_min_ss _mm_max_ss _mm_sqrt_ss _mm_movehl_ps _mm_movelh_ps '
     '_mm_unpackhi_ps _mm_unpacklo_ps _mm_movehdup_ps _mm_hadd_ps _mm_fmadd_ps _mm_fnmadd_ps _mm_fmsub_ps _mm_fnmsub_ps '
     '_mm_broadcastss_ps _mm_castps_si128 '
     'vabsq_f32 vaddq_f32 vsubq_f32 vmulq_f32 vdivq_f32 vnegq_f32 vminq_f32 vmaxq_f32 vmlaq_f32 vmlsq_f32 vfmaq_f32 vfmsq_f32 '
     'vrev64q_f32 vpaddq_f32 vcombine_f32 vrecpeq_f32 vrecpsq_f32 veorq_s32 vreinterpretq_f32_s32 vreinterpretq_s32_f32 '
     'wasm_f32x4_abs wasm_f32x4_add wasm_f32x4_sub wasm_f32x4_mul wasm_f32x4_div wasm_f32x4_neg wasm_f32x4_sqrt wasm_f32x4_pmin '
     'wasm_f32x4_pmax wasm_v128_xor', 'simd4')(vec)
intr('_mm256_add_ps _mm256_sub_ps _mm256_mul_ps _mm256_xor_ps _mm256_unpackhi_ps _mm256_unpacklo_ps _mm256_permutevar_ps '
     '_mm256_fmadd_ps _mm256_fnmadd_ps _mm256_fmsub_ps _mm256_castsi256_ps', 'simd8')(vec)
intr('vget_low_f32 vget_high_f32 vadd_f32 vpadd_f32 vpmin_f32 vpmax_f32', 'simd2')(vec)
intr('vzipq_f32 vuzpq_f32 vtrnq_f32', 'simd4x2')(vec)
intr('_mm_cvtss_f32 vaddvq_f32', 'f')(vec)

@intr('vgetq_lane_f32 vget_lane_f32 wasm_f32x4_extract_lane', 'f')
def _(S, n, args, env): return ('app', n, [val(S, args[0], env), aint(S, args[1], env)])
@intr('vdupq_lane_f32', 'simd4')
def _(S, n, args, env): return ('app', n, [val(S, args[0], env), aint(S, args[1], env)])
@intr('vdup_lane_f32', 'simd2')
def _(S, n, args, env): return ('app', n, [val(S, args[0], env), aint(S, args[1], env)])
@intr('vextq_f32 vmulq_lane_f32', 'simd4')
def _(S, n, args, env): return ('app', n, [val(S, args[0], env), val(S, args[1], env), aint(S, args[2], env)])
@intr('vmlaq_lane_f32', 'simd4')
def _(S, n, args, env): return ('app', n, [val(S, a, env) for a in args[:3]] + [aint(S, args[3], env)])
@intr('wasm_i32x4_shuffle', 'simd4')
def _(S, n, args, env): return ('app', n, [val(S, a, env) for a in args[:2]] + [aint(S, a, env) for a in args[2:]])
@intr('wasm_f32x4_replace_lane', 'simd4')
def _(S, n, args, env): return ('app', n, [val(S, args[0], env), aint(S, args[1], env), flo(S, args[2], env)])

@intr('_MM_SHUFFLE', 'i')
def _(S, n, args, env):
    z, y, x, w = [aint(S, a, env)[1] for a in args]
    return ('int', z << 6 | y << 4 | x << 2 | w)
def imm4(t): return [('int', t[1] >> (2 * k) & 3) for k in range(4)]
@intr('_mm_shuffle_ps', 'simd4')
def _(S, n, args, env): return ('app', 'mm_shuffle_ps', [val(S, args[0], env), val(S, args[1], env), aint(S, args[2], env)])
@intr('_mm_permute_ps _mm_shuffle_epi32', 'simd4')
def _(S, n, args, env): return ('app', lname(n), [val(S, args[0], env), aint(S, args[1], env)])
@intr('_mm_dp_ps', 'simd4')
def _(S, n, args, env):
    if aint(S, args[2], env)[1] != 0xff: raise Skip('dot product mask')
    return ('app', 'mm_dp_ps_ff', [val(S, a, env) for a in args[:2]])
@intr('_mm_castsi128_ps', 'simd4')
def _(S, n, args, env):
    a = args[0]
    if a[0] == 'call' and a[1] in ('_mm_set_epi32', '_mm_set1_epi32'):
        return ('app', 'mm_castsi128_ps_sign', [val(S, a, env)])
    return ('app', 'mm_castsi128_ps', [val(S, a, env)])
def bits(t):
    if t[1] not in (0, NEG): raise Skip('bit pattern')
    return t
@intr('_mm_set_epi32', 'i4')
def _(S, n, args, env): return ('app', 'mm_set_epi32', [bits(aint(S, a, env)) for a in args])
@intr('_mm_set1_epi32', 'i4')
def _(S, n, args, env): return ('app', 'mm_set1_epi32', [bits(aint(S, a, env)) for a in args])
@intr('_mm256_set1_epi32', 'i8')
def _(S, n, args, env): return ('app', 'mm256_set1_epi32', [bits(aint(S, a, env)) for a in args])
@intr('_mm256_set_epi32', 'i8')
def _(S, n, args, env): return ('app', 'mm256_set_epi32', [aint(S, a, env) for a in args])
@intr('_mm256_permute2f128_ps', 'simd8')
def _(S, n, args, env): return ('app', lname(n), [val(S, args[0], env), val(S, args[1], env), aint(S, args[2], env)])
@intr('wasm_i32x4_const', 'simd4')
def _(S, n, args, env): return ('app', 'signs', [bits(aint(S, a, env)) for a in args])
@intr('wasm_i32x4_const_splat', 'simd4')
def _(S, n, args, env): return ('app', 'signs', [bits(aint(S, args[0], env))] * 4)
@intr('_mm_set_ps', 'simd4')
def _(S, n, args, env):
    if ismask(args): return signs(args[::-1])
    return ('app', 'mm_set_ps', [flo(S, a, env) for a in args])
@intr('wasm_f32x4_const', 'simd4')
def _(S, n, args, env): return ('app', 'V4.mk', [flo(S, a, env) for a in args])
@intr('_mm_set1_ps vdupq_n_f32 wasm_f32x4_splat wasm_f32x4_const_splat', 'simd4')
def _(S, n, args, env):
    if isnegzero(args[0]): return signs(args * 4)
    return ('app', 'splat4', [flo(S, args[0], env)])
@intr('_mm_setzero_ps', 'simd4')
def _(S, n, args, env): return ('app', 'splat4', [('lit', Fraction(0))])
@intr('_mm256_setzero_ps', 'simd8')
def _(S, n, args, env): return ('app', 'splat8', [('lit', Fraction(0))])
def pointee(S, a, env):
    """the float behind a pointer argument; `&x` of a float variable or element"""
    if a[0] == 'addr': return flo(S, a[1], env)
    p = S.ptr(a, env)
    return env.ar[p.var][p.off]
@intr('_mm_broadcast_ss', 'simd4')
def _(S, n, args, env): return ('app', 'splat4', [pointee(S, args[0], env)])
@intr('_mm256_broadcast_ss', 'simd8')
def _(S, n, args, env): return ('app', 'splat8', [pointee(S, args[0], env)])
@intr('_mm_load_ps _mm_loadu_ps vld1q_f32 wasm_v128_load', 'simd4')
def _(S, n, args, env): return load(S, args[0], env, 4)
@intr('_mm256_load_ps _mm256_loadu_ps', 'simd8')
def _(S, n, args, env): return load(S, args[0], env, 8)
@intr('vld1_f32', 'simd2')
def _(S, n, args, env): return load(S, args[0], env, 2)
Z = ('lit', Fraction(0))
@intr('_mm_load_ss wasm_v128_load32_zero', 'simd4')
def _(S, n, args, env): return ('app', 'V4.mk', [pointee(S, args[0], env), Z, Z, Z])
@intr('_mm_loadl_epi64 wasm_v128_load64_zero', 'simd4')
def _(S, n, args, env):
    p = S.ptr(args[0], env)
    return ('app', 'V4.mk', env.ar[p.var][p.off:p.off + 2] + [Z, Z])
@intr('vld4q_f32', 'simd4x4')
def _(S, n, args, env):
    p = S.ptr(args[0], env)
    lv = env.ar[p.var][p.off:p.off + 16]
    if len(lv) < 16: raise Skip('short load')
    t = build(lv, (4, 4))
    return ('app', 'vld4q_f32', [t])
@intr('_mm_store_ps _mm_storeu_ps vst1q_f32 wasm_v128_store', 'agg')
def _(S, n, args, env):
    return store(S, args[0], explode(named(S, val(S, args[1], env)), (4,)), env)
@intr('_mm256_store_ps _mm256_storeu_ps', 'agg')
def _(S, n, args, env):
    return store(S, args[0], explode(named(S, val(S, args[1], env)), (8,)), env)
@intr('_mm_store_ss', 'agg')
def _(S, n, args, env):
    return store(S, args[0], explode(named(S, val(S, args[1], env)), (4,))[:1], env)
@intr('_mm_storel_pi', 'agg')
def _(S, n, args, env):
    return store(S, args[0], explode(named(S, val(S, args[1], env)), (4,))[:2], env)
@intr('wasm_v128_store64_lane', 'agg')
def _(S, n, args, env):
    i = aint(S, args[2], env)[1]
    return store(S, args[0], explode(named(S, val(S, args[1], env)), (4,))[2 * i:2 * i + 2], env)
@intr('wasm_v128_store32_lane', 'agg')
def _(S, n, args, env):
    i = aint(S, args[2], env)[1]
    return store(S, args[0], explode(named(S, val(S, args[1], env)), (4,))[i:i + 1], env)
@intr('_MM_TRANSPOSE4_PS', 'agg')
def _(S, n, args, env):
    t = named(S, ('app', 'mm_transpose4_ps', [val(S, a, env) for a in args]), 'tr')
    for k, a in enumerate(args): S.setsc(env, a[1], ('proj', t, f'c{k}'))
    return ('v', '_')

class SimdPure(Pure):
    def ptr(self, e, env):
        if e[0] == 'call' and e[1] == '__builtin_assume_aligned': return self.ptr(e[2][0], env)
        return super().ptr(e, env)
    def simdidx(self, e, env):
        if e[1][0] == 'member' and e[1][2] == 'val':
            t, c = self.rvt(e[1][1], env)
            return ('proj', t, f'c{self.cidx(e[2], env)}'), 'simd4'
        raise Skip('index')
    def decl(self, env, n, ty, init):
        if ty.base == 'simd4' and not ty.ptr and not ty.dims and init is not None and init[0] == 'init':
            env.ty[n] = ty
            if ismask(init[1]): self.setsc(env, n, signs(init[1]))
            else: self.setsc(env, n, ('app', 'V4.mk', [self.coerce(self.rvt(x, env), 'float') for x in init[1]]))
            return
        super().decl(env, n, ty, init)

def simd(cfg):
    d = {k: '1' for k in CFGS[cfg]}
    ps, pp = cfront.load([gen.INC + 'cglm.h', gen.INC + 'handed/euler_to_quat_lh.h'], {'CGLM_CLIPSPACE_INCLUDE_ALL': '1', **d})
    P = SimdPure(ps, {}, INTR)
    fns = [f for f in ps.fns.values() if os.path.basename(f.file) not in gen.SKIPFILES]
    return ps, P, gen.translate_all(ps, P, fns)

ID = r'\bglmm?(?:256)?_\w+'
def affected(text, base):
    aff = {n for n in text if text[n] != base.get(n)}
    direct = set(aff)
    while True:
        new = {n for n in text if n not in aff and any(m in aff for m in re.findall(ID, text[n].split(':=', 1)[1]))}
        if not new: return direct, aff
        aff |= new

FMAS = {'mm_fmadd_ps', 'mm_fnmadd_ps', 'mm_fmsub_ps', 'mm_fnmsub_ps', 'mm256_fmadd_ps', 'mm256_fnmadd_ps', 'mm256_fmsub_ps', 'vfmaq_f32',
        'vfmsq_f32', 'vminq_f32', 'vmaxq_f32', 'vpmin_f32', 'vpmax_f32'}
ESTS = {'mm_or_ps', 'mm_rcp_ps', 'vrecpeq_f32'}
def classes(text, names):
    """the extra classes each function needs, through its callees"""
    need = {}
    for n in text:           # translation order = dependency order
        if n not in names: continue
        ids = set(re.findall(r'[A-Za-z_]\w*', text[n].split(':=', 1)[1]))
        r = set()
        if ids & FMAS: r.add('CSimd')
        if ids & ESTS: r.add('CEst')
        for m in ids & set(need): r |= need[m]
        need[n] = r
    return need

def configs():
    """cfg -> (ps, P, text, directly affected, all affected, extra classes)"""
    _, _, (base, bskip, _) = gen.scalar()
    r = collections.OrderedDict()
    for cfg in CFGS:
        ps, P, (text, skip, al) = simd(cfg)
        d, a = affected(text, base)
        for k, v in skip.items():
            if k not in bskip: print('  not generated:', cfg, k, ':', v)
        if ps.err: print('  parse errors', cfg, ps.err)
        r[cfg] = (ps, P, text, d, a, classes(text, a))
    return base, r

def write(p, s):
    if not os.path.exists(p) or open(p).read() != s: open(p, 'w').write(s)

if __name__ == '__main__':
    base, R = configs()
    for cfg, (ps, P, text, d, a, need) in R.items():
        deps = {ps.fns[m].file for n in a for m in re.findall(ID, text[n]) if m in text and m not in a}
        imps = ['import Verif.Simd'] + sorted(f'import Verif.Gen.{gen.modname(x)}' for x in deps)
        s = gen.HEAD.format(src=f'the headers with {", ".join(CFGS[cfg])} defined (functions that differ from the scalar build, and their callers)',
                            imports='\n'.join(imps), ns='Cglm.' + cfg, extra='').replace('tools/gen.py', 'tools/simdgen.py')
        for n in text:
            if n not in a: continue
            t = text[n]
            ex = ''.join(f' [{c} α]' for c in sorted(need[n]))
            t = t.replace(f'def {n}', f'def {n}{ex}', 1)
            s += gen.doc(ps.fns[n], P.nulls) + '\n@[cglm]\n' + t + '\n'
        s += f'end Cglm.{cfg}\n'
        write(gen.OUT + f'Simd{cfg}.lean', s)
        print(cfg, 'direct', len(d), 'affected', len(a), 'new', len([n for n in a if n not in base]))
