"""Theorems relating the SIMD builds to the scalar build.
Usage: python3 tools/simdthms.py --probe [configs]   (find the strongest proof tier of each statement, write simd_tiers.tsv)
       python3 tools/simdthms.py                     (write lean/Verif/Props/C57*.lean .. C60*.lean)
The theorems about the functions that differ are written out in tools/simdexc.py."""
import os, sys, re, subprocess
sys.path.insert(0, os.path.dirname(os.path.abspath(__file__)))
import simdgen
from pure import leantype
from pure import mangle as mangle0

HERE = os.path.dirname(os.path.abspath(__file__))
LEAN = os.path.join(HERE, '../lean')
TSV = os.path.join(HERE, 'simd_tiers.tsv')
CLAIM = {'Sse': 'C57', 'Sse2': 'C57', 'Sse3': 'C57', 'Sse4': 'C57', 'Avx': 'C58', 'Fma': 'C58', 'Neon64': 'C59', 'Neon32': 'C59', 'Wasm': 'C60'}
ORDER = ['exact', 'comm', 'real', 'nf', 'order']      # proof methods, strongest statement first
REAL = ORDER[2:]                                      # these state the equality over the real numbers

def mangle(a): return '«to»' if a == 'to' else mangle0(a)

def lanes(n, f):
    fl = 'xyzw' if n == 4 else [f'e{i}' for i in range(8)]
    return '⟨' + ', '.join(re.sub(r'\b([abcv])\b', rf'\1.{k}', f) for k in fl) + '⟩'
# what the helpers of simd/x86.h, arm.h and wasm.h compute, in terms of their arguments
HELP = {'glmm_abs': ('', 'Cglm.glm_vec4_abs @0'), 'glmm_min': ('', 'Cglm.glm_vec4_minv @0 @1'), 'glmm_max': ('', 'Cglm.glm_vec4_maxv @0 @1'),
        'glmm_vhadd': ('', 'splat4 (Cglm.glm_vec4_hadd @0)'), 'glmm_vhadds': ('.x', 'Cglm.glm_vec4_hadd @0'), 'glmm_hadd': ('', 'Cglm.glm_vec4_hadd @0'),
        'glmm_vhmin': ('.x', 'Cglm.glm_vec4_min @0'), 'glmm_hmin': ('', 'Cglm.glm_vec4_min @0'),
        'glmm_vhmax': ('.x', 'Cglm.glm_vec4_max @0'), 'glmm_hmax': ('', 'Cglm.glm_vec4_max @0'),
        'glmm_vdots': ('.x', 'Cglm.glm_vec4_dot @0 @1'), 'glmm_vdot': ('', 'splat4 (Cglm.glm_vec4_dot @0 @1)'), 'glmm_dot': ('', 'Cglm.glm_vec4_dot @0 @1'),
        'glmm_norm': ('', 'Cglm.glm_vec4_norm @0'), 'glmm_norm2': ('', 'Cglm.glm_vec4_norm2 @0'), 'glmm_norm_one': ('', 'Cglm.glm_vec4_norm_one @0'),
        'glmm_norm_inf': ('', 'Cglm.glm_vec4_norm_inf @0'),
        'glmm_load3': ('', '⟨@0.x, @0.y, @0.z, lit 0⟩'), 'glmm_store3': ('', '⟨@0.x, @0.y, @0.z⟩'), 'glmm_div': ('', 'Cglm.glm_vec4_div @0 @1'),
        'glmm_fmadd': ('', lanes(4, 'a * b + c')), 'glmm_fnmadd': ('', lanes(4, 'c - a * b')), 'glmm_fmsub': ('', lanes(4, 'a * b - c')),
        'glmm_fnmsub': ('', lanes(4, '-(a * b) - c')),
        'glmm256_fmadd': ('', lanes(8, 'a * b + c')), 'glmm256_fnmadd': ('', lanes(8, 'c - a * b')), 'glmm256_fmsub': ('', lanes(8, 'a * b - c')),
        'glmm256_fnmsub': ('', lanes(8, '-(a * b) - c'))}
def scalar_name(n):
    """the scalar function a backend function such as glm_mat4_mul_sse2 implements"""
    m = re.fullmatch(r'(glm_\w+)_(sse2|avx|neon|wasm)', n)
    if not m: return None
    return {'glm_mat4_scale': 'glm_mat4_scale', 'glm_mat4_transp': 'glm_mat4_transpose_to', 'glm_mat2_transp': 'glm_mat2_transpose_to'}.get(m.group(1), m.group(1))

class Cfg:
    def __init__(self, cfg, data, base):
        self.cfg = cfg; self.ps, self.P, self.text, self.direct, self.aff, self.need = data
        self.base = base
        self.names = [n for n in self.text if n in self.aff and (n in base or n in HELP or scalar_name(n))]   # in dependency order
        self.direct = set(self.direct) | {n for n in self.names if n not in base}
    def callees(self, n):
        """functions a translation refers to that differ from the scalar build"""
        ids = set(re.findall(simdgen.ID, self.text[n].split(':=', 1)[1]))
        return {k for k in ids if k in self.aff and k in self.base}
    def binders(self, n, real):
        return ''.join(f' ({mangle(a)} : {leantype(t, "ℝ" if real else "α")})' for a, t in self.P.sigs[n].ins)
    def args(self, n): return ''.join(' ' + mangle(a) for a, _ in self.P.sigs[n].ins)
    def equation(self, n, real):
        if n in HELP:
            proj, r = HELP[n]
            for i, (a, _) in enumerate(self.P.sigs[n].ins): r = r.replace(f'@{i}', mangle(a))
            l = f'{self.cfg}.{n}{self.args(n)}'
            return (f'({l}){proj}' if proj else l), r
        s = n if n in self.base else scalar_name(n)
        if not self.P.sigs[n].ins:
            rt = re.search(r'def \S+[^:]* : ([^:=]*) :=', self.text[n]).group(1)
            return f'({self.cfg}.{n} : {rt.replace("α", "ℝ") if real else rt})', f'Cglm.{s}'
        return f'{self.cfg}.{n}{self.args(n)}', f'Cglm.{s}{self.args(n)}'
    def statement(self, n, tier):
        real = tier in REAL
        ex = ''.join(f' [{c} {"ℝ" if real else "α"}]' for c in sorted(self.need[n]) if not (real and c == 'CSimd'))
        com = ' [CommArith α]' if tier == 'comm' else ''
        l, r = self.equation(n, real)
        return f'theorem {CLAIM[self.cfg]}_{self.cfg}_{n}{com}{ex}{self.binders(n, real)} :\n    {l} = {r} := by\n'
    def proof(self, n, tier):
        if n not in self.direct: return f'  simd_callers {self.cfg}.{n} Cglm.{n}\n'
        return f'  simd_{tier}\n'

HEAD = '''import Verif.SimdTac
import Verif.Gen.Simd{cfg}
{doc}
set_option linter.unusedSectionVars false
set_option linter.unusedVariables false
set_option linter.unusedSimpArgs false
namespace Cglm
variable {{α : Type}} [Add α] [Sub α] [Mul α] [Div α] [Neg α] [CFloat α]

'''
def run(path):
    p = subprocess.run(['lake', 'env', 'lean', path], cwd=LEAN, capture_output=True, text=True)
    return p.stdout + p.stderr

def probe_one(c, tiers):
    def attempt(cands, known):
        """cands: name -> tier to try; known: name -> tier already proved.  Returns the failing names"""
        s = HEAD.format(cfg=c.cfg, doc=''); lines = {}
        for n in c.names:
            t = cands.get(n) or known.get(n)
            if t is None: continue
            start = s.count('\n') + 1
            tag = '@[cglm_simd] ' if n in c.base else ''
            s += tag + c.statement(n, t) + (c.proof(n, t) if n in cands else '  sorry\n') + '\n'
            for k in range(start, s.count('\n') + 1): lines[k] = n
        s += 'end Cglm\n#check "finished"\n'
        p = f'/tmp/sp/{c.cfg}.lean'
        open(p, 'w').write(s)
        out = run(p)
        open(f'/tmp/sp/{c.cfg}.out', 'a').write(out)
        assert 'finished' in out, out[-2000:]
        return {lines.get(int(m.group(1))) for m in re.finditer(r'^\S+?:(\d+):\d+: error', out, re.M)}
    known = {}
    est = {n for n in c.names if 'CEst' in c.need[n]}          # estimates: never equal, see simdexc.py
    todo = [n for n in c.names if n in c.direct and n not in est]
    for t in ORDER:
        cands = {n: t for n in todo}
        bad = attempt(cands, known) if cands else set()
        known.update({n: t for n in cands if n not in bad})
        todo = [n for n in todo if n in bad]
        print(c.cfg, 'direct', t, len(cands) - len(bad), 'of', len(cands), flush=True)
    fail = set(todo) | est
    # callers: as strong as the weakest callee
    while True:
        cands = {}
        for n in c.names:
            if n in known or n in fail: continue
            cs = c.callees(n)
            if cs & fail: fail.add(n); continue
            if all(m in known or m in cands for m in cs):
                cands[n] = max([known.get(m) or cands[m] for m in cs], key=lambda t: min(ORDER.index(t), 2))
        if not cands: break
        bad = attempt(cands, known)
        known.update({n: t for n, t in cands.items() if n not in bad})
        print(c.cfg, 'callers', len(cands) - len(bad), 'of', len(cands), sorted(bad), flush=True)
        fail |= bad
    print(c.cfg, 'unproved', sorted(fail), flush=True)
    for n in c.names: tiers[(c.cfg, n)] = known.get(n, '-')

def load():
    tiers = {}
    if os.path.exists(TSV):
        for l in open(TSV):
            a, b, t = l.rstrip('\n').split('\t'); tiers[(a, b)] = t
    return tiers

DOC = '''
/-!
# {claim}, {cfg} build: the functions of this build compute the functions of the scalar build

Statements over a variable scalar type `α` hold for every arithmetic, so those functions are bit-identical; with
`[CommArith α]` they need `a + b = b + a` and `a * b = b * a` only, which IEEE arithmetic has; the rest re-associate sums or
contract products, and are stated over the real numbers.  The functions that differ from the scalar build are treated in
`Props/{claim}{cfg}X.lean`.  Generated by tools/simdthms.py.
-/
'''
def write(c, tiers):
    s = HEAD.format(cfg=c.cfg, doc=DOC.format(cfg=c.cfg, claim=CLAIM[c.cfg]))
    k = {}
    for n in c.names:
        t = tiers[(c.cfg, n)]
        k[t] = k.get(t, 0) + 1
        if t == '-': continue
        tag = '@[cglm_simd] ' if n in c.base else ''
        s += tag + c.statement(n, t) + c.proof(n, t) + '\n'
    s += 'end Cglm\n'
    open(os.path.join(LEAN, f'Verif/Props/{CLAIM[c.cfg]}{c.cfg}.lean'), 'w').write(s)
    print(c.cfg, k)

if __name__ == '__main__':
    base, R = simdgen.configs()
    C = {k: Cfg(k, v, base) for k, v in R.items()}
    if '--probe' in sys.argv:
        only = [a for a in sys.argv[1:] if a in C] or list(C)
        tiers = load()
        for k in only: probe_one(C[k], tiers)
        with open(TSV, 'w') as f:
            for k, c in C.items():
                for n in c.names:
                    if (k, n) in tiers: f.write(f'{k}\t{n}\t{tiers[(k, n)]}\n')
    else:
        tiers = load()
        for c in C.values(): write(c, tiers)
        import simdexc
        simdexc.write(LEAN)
