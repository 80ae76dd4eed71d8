"""Reads off which memory each function touches, in every SIMD configuration: the accesses (place, width, required alignment) and the
calls with the places passed on.  Writes lean/Verif/Acc/*.lean and lean/Verif/Props/C81.lean.  Usage: python3 tools/accgen.py"""
import sys, os, re, collections
sys.path.insert(0, os.path.dirname(os.path.abspath(__file__)))
import cfront, gen, simdgen
from cfront import T, Tok, Macro

OUT = os.path.join(os.path.dirname(os.path.abspath(__file__)), '../lean/Verif/')

class P2(cfront.Parser):
    """keeps the alignment attributes"""
    ATTR = ('CGLM_ALIGN', 'CGLM_ALIGN_IF', 'CGLM_ALIGN_MAT')
    def istype(self, k=0): return self.pk(k) in self.ATTR or super().istype(k)
    def skip_attr(self):
        while self.pk() in self.ATTR:
            n = self.nx().s
            if n == 'CGLM_ALIGN_MAT': self.at += ('mat',); continue
            k = self.pk(1); self.skip_group('(', ')')
            if n == 'CGLM_ALIGN_IF': assert k == '16'
            self.at += ('vec',) if n == 'CGLM_ALIGN_IF' else (int(k),)
    at = ()
    def basetype(self):
        self.at = ()
        ty = super().basetype()
        return T(ty.base, ty.dims, ty.ptr, ty.st, tuple(sorted(set(ty.al + self.at), key=str)))
    def typedef(self):
        k = self.i; at = ()
        if self.pk(1) == 'union':
            # typedef union ATTR name { … } name;
            self.i += 2; self.at = (); self.skip_attr(); at = self.at
            del self.t[k + 2:self.i]; self.i = k
        super().typedef()
        n = next(self.t[j - 1].s for j in range(self.i - 1, k, -1) if self.t[j].s == ';')
        if n in self.td: self.td[n].al = tuple(sorted(set(self.td[n].al + at), key=str))

def load(defs):
    import glob
    srcs = sorted(glob.glob('/repo/src/*.c')) + sorted(glob.glob('/repo/src/clipspace/*.c'))
    files = [gen.INC + 'cglm.h', gen.INC + 'handed/euler_to_quat_lh.h', gen.INC + 'struct.h', gen.INC + 'struct/aabb2d.h'] + srcs
    orig = cfront.Parser, cfront.PIN
    cfront.Parser = P2
    d = {'CGLM_CLIPSPACE_INCLUDE_ALL': '1', **{k: '1' for k in defs}}
    real = cfront.PP
    class PP2(real):
        # the alignment macros stay in the text
        def expand(self, toks):
            for n in ('CGLM_ALIGN', 'CGLM_ALIGN_IF', 'CGLM_ALIGN_MAT'): self.m.pop(n, None)
            return super().expand(toks)
    cfront.PP = PP2
    try: ps, pp = cfront.load(files, d)
    finally: cfront.Parser, cfront.PP = orig[0], real
    return ps


class Skip(Exception): pass

# memory intrinsics: index of the pointer argument, bytes, required alignment
INTR = {'_mm_load_ps': (0, 16, 16), '_mm_loadu_ps': (0, 16, 1), '_mm_store_ps': (0, 16, 16), '_mm_storeu_ps': (0, 16, 1),
        '_mm256_load_ps': (0, 32, 32), '_mm256_loadu_ps': (0, 32, 1), '_mm256_store_ps': (0, 32, 32), '_mm256_storeu_ps': (0, 32, 1),
        '_mm_load_ss': (0, 4, 4), '_mm_store_ss': (0, 4, 4), '_mm_loadl_epi64': (0, 8, 1), '_mm_storel_pi': (0, 8, 1),
        '_mm_broadcast_ss': (0, 4, 4), '_mm256_broadcast_ss': (0, 4, 4),
        'vld1q_f32': (0, 16, 4), 'vld1_f32': (0, 8, 4), 'vld4q_f32': (0, 64, 4), 'vst1q_f32': (0, 16, 4),
        'wasm_v128_load': (0, 16, 1), 'wasm_v128_store': (0, 16, 1), 'wasm_v128_load32_zero': (0, 4, 1), 'wasm_v128_load64_zero': (0, 8, 1),
        'wasm_v128_store32_lane': (0, 4, 1), 'wasm_v128_store64_lane': (0, 8, 1), 'modff': (1, 4, 4)}
ALIGNOF = {'__m128i': 16, '__m64': 8, '__m128': 16}
MEMBER = {'x': 0, 'y': 4, 'z': 8, 'w': 12, 'real': 12}

class Place:
    """byte offset in a variable, indices known only to be in range, and the array type there"""
    def __init__(self, var, off, ix, dims): self.var, self.off, self.ix, self.dims = var, off, tuple(ix), tuple(dims)
    def key(self): return (self.var, self.off, self.ix)

def prod(d):
    r = 1
    for x in d: r *= x
    return r

def ispointer(ty): return bool(ty.ptr or ty.dims) and not (ty.st and not ty.ptr)

class Extract:
    """events of one function; reach = bytes reached behind each pointer parameter without a declared length"""
    def __init__(self, ps, f, sigs):
        self.ps, self.f, self.sigs = ps, f, sigs
        self.vars, self.env, self.ints, self.evs = [], {}, {}, []
        self.nparams = 0
        for n, ty in f.params:
            if ispointer(ty): self.param(n, ty)
        self.nparams = len(self.vars)
        for n, ty in f.params:
            if not ispointer(ty): self.declare(n, ty)
        self.stmt(f.body)
    def new(self, size, al, open_=False):
        self.vars.append([size, al, open_]); return len(self.vars) - 1
    def param(self, n, ty):
        # `T *p`, `T p[]`, `T *p[]`: any one element of an array of T; a pointer to a scalar: as many as are used
        own = ty.dims[:ty.own]; rest = ty.dims[ty.own:]
        if ty.ptr or None in own:
            if ty.ptr and own:                         # array of pointers to T
                v = self.new(4 * prod(rest), ty.al); self.env[n] = ('elems', v, rest, 2)
            elif not rest: v = self.new(4, ty.al, True); self.env[n] = ('elems', v, rest, 0)
            else: v = self.new(4 * prod(rest), ty.al); self.env[n] = ('elems', v, rest, 1)
        else:
            v = self.new(4 * prod(ty.dims), ty.al); self.env[n] = ('obj', v, ty.dims)
    def declare(self, n, ty):
        if ty.ptr: self.env[n] = ('ptrs', []); return
        if ty.base.startswith('simd'):
            if ty.dims: raise Skip('array of vectors')
            self.env[n] = ('reg',); return
        if not ty.dims: self.env[n] = ('scalar', None); return
        self.env[n] = ('obj', self.new(4 * prod(ty.dims), ty.al), ty.dims)
    # ---- places
    def const(self, e):
        if e[0] == 'num' and e[1].denominator == 1: return int(e[1])
        if e[0] == 'id': return self.ints.get(e[1])
        if e[0] == 'un' and e[1] == '-':
            a = self.const(e[2]); return None if a is None else -a
        if e[0] == 'bin':
            a, b = self.const(e[2]), self.const(e[3])
            if a is None or b is None: return None
            return {'+': lambda: a + b, '-': lambda: a - b, '*': lambda: a * b, '<': lambda: int(a < b), '<=': lambda: int(a <= b)}.get(e[1], lambda: None)()
        if e[0] == 'cast': return self.const(e[2])
        return None
    def places(self, e):
        """where the array, element or pointer target denoted by e may be; None: not memory"""
        k = e[0]
        if k == 'id':
            b = self.env.get(e[1])
            if b is None or b[0] in ('reg', 'scalar'): return None
            if b[0] == 'obj': return [Place(b[1], 0, (), b[2])]
            if b[0] == 'ptrs': return list(b[1])
            if b[0] == 'elems' and not b[2]: return [Place(b[1], 0, (), (None,))]
            if b[0] == 'elems': return [Place(b[1], 0, (), ('*',) * b[3] + tuple(b[2]))]
        if k == 'idx':
            ps = self.places(e[1])
            c = self.const(e[2])
            if c is None: self.expr(e[2])
            if ps is None: return None
            r = []
            for p in ps:
                if not p.dims: raise Skip('index of scalar')
                d, rest = p.dims[0], p.dims[1:]
                if d == '*': r.append(Place(p.var, p.off, p.ix, rest)); continue
                st = 4 * prod(rest)
                if c is not None: r.append(Place(p.var, p.off + c * st, p.ix, rest))
                elif d is None: raise Skip('unknown length')
                else: r.append(Place(p.var, p.off, p.ix + ((st, d),), rest))
            return r
        if k == 'deref':
            ps = self.places(e[1])
            if ps is None: raise Skip('deref')
            return self.places(('idx', e[1], ('num', cfront.Fraction(0), 'i')))
        if k == 'addr':
            if e[1][0] == 'id' and self.env.get(e[1][1], ('',))[0] == 'scalar':
                b = self.env[e[1][1]]
                if b[1] is None: b = ('scalar', self.new(4, ())); self.env[e[1][1]] = b
                return [Place(b[1], 0, (), (1,))]
            ps = self.places(e[1])
            if ps is None: raise Skip('address')
            return [Place(p.var, p.off, p.ix, (1,) + p.dims) for p in ps]
        if k == 'member':
            ps = self.places(e[1])
            if ps is None: return None
            m = e[2]
            if m in ('raw', 'col'): return ps
            if m == 'imag': return [Place(p.var, p.off, p.ix, (3,)) for p in ps]
            if m in MEMBER: return [Place(p.var, p.off + MEMBER[m], p.ix, ()) for p in ps]
            raise Skip('member ' + m)
        if k == 'cast':
            return self.places(e[2])
        if k == 'complit':
            self.inits(e[2])
            if not e[1].dims: return None
            return [Place(self.new(4 * prod(e[1].dims), e[1].al), 0, (), e[1].dims)]
        if k == 'call' and e[1] == '__builtin_assume_aligned':
            ps = self.places(e[2][0])
            ty = e[2][1]
            if ty[0] != 'call' or ty[1] != 'alignof': raise Skip('assume_aligned')
            for p in ps: self.access(p, 0, ALIGNOF[ty[2][-1][1]])
            return ps
        if k == 'call':
            f = self.ps.fns.get(e[1])
            self.expr(e)
            if f is not None and f.ret.dims: return [Place(self.new(4 * prod(f.ret.dims), f.ret.al), 0, (), f.ret.dims)]
            return None
        if k == 'tern':
            self.expr(e[1])
            a, b = self.places(e[2]), self.places(e[3])
            if a is None and b is None: return None
            return a + b
        if k in ('num', 'bin', 'un', 'assign', 'preinc', 'postinc', 'comma', 'sizeof', 'str'):
            self.expr(e); return None
        raise Skip('place ' + k)
    # ---- events
    def access(self, p, w, r, wr=False):
        ev = ('a', p.key(), w, r, wr)
        if ev not in self.evset: self.evset.add(ev); self.evs.append(ev)
        v = self.vars[p.var]
        if v[2]: v[0] = max(v[0], p.off + w)
    evset = property(lambda self: self.__dict__.setdefault('_es', set()))
    def call(self, g, args):
        ev = ('c', g, tuple(p.key() for p in args))
        if ev not in self.evset: self.evset.add(ev); self.evs.append(ev)
        for p, q in zip(args, self.sigs.get(g, [])):
            v = self.vars[p.var]
            if v[2]: v[0] = max(v[0], p.off + q[0])
    def expr(self, e):
        k = e[0]
        if k in ('num', 'sizeof', 'str', 'id'): return
        if k in ('idx', 'deref', 'member'):
            if k == 'member' and e[2] == 'val': return self.expr(e[1])
            if k == 'idx' and e[1][0] == 'member' and e[1][2] == 'val': return self.expr(e[1])
            ps = self.places(e)
            for p in ps or []:
                if not p.dims: self.access(p, 4, 4)
            return
        if k == 'assign':
            _, op, l, r = e
            if l[0] == 'id' and self.env.get(l[1], ('',))[0] == 'ptrs':
                self.env[l[1]][1].extend(self.places(r)); return
            if l[0] == 'id' and l[1] in self.ints:
                self.ints[l[1]] = None
            self.expr(r)
            if l[0] != 'id':
                if op != '=': self.expr(l)
                for p in self.places(l) or []:
                    if not p.dims: self.access(p, 4, 4, True)
            return
        if k in ('bin', 'comma'):
            for x in e[1:]:
                if isinstance(x, tuple): self.expr(x)
            return
        if k in ('un', 'preinc', 'postinc'):
            if k != 'un' and e[2][0] != 'id': raise Skip('++')
            return self.expr(e[2])
        if k == 'cast': return self.expr(e[2])
        if k == 'tern':
            for x in e[1:]: self.expr(x)
            return
        if k == 'addr': return
        if k == 'complit': return self.inits(e[2])
        if k == 'call':
            n = e[1]
            if n in ('alignof', '_MM_SHUFFLE'): return
            if n in INTR:
                i, w, r = INTR[n]
                for j, a in enumerate(e[2]):
                    if j == i:
                        ps = self.places(a)
                        if ps is None: raise Skip(f'{n}: not a place')
                        for p in ps: self.access(p, w, r, 'store' in n or 'vst' in n or n == 'modff')
                    else: self.expr(a)
                return
            f = self.ps.fns.get(n)
            if f is None:
                for a in e[2]: self.expr(a)
                return
            alts = []
            for (pn, ty), a in zip(f.params, e[2]):
                if ispointer(ty):
                    ps = self.places(a)
                    if not ps: raise Skip(f'{n}: argument {pn}')
                    alts.append(ps)
                else: self.expr(a)
            if len(f.params) != len(e[2]): raise Skip(f'{n}: number of arguments')
            combos = [[]]
            for ps in alts: combos = [c + [p] for c in combos for p in ps]
            for c in combos: self.call(n, c)
            return
        raise Skip('expr ' + k)
    def inits(self, e):
        if e[0] == 'init':
            for x in e[1]: self.inits(x)
        else: self.expr(e)
    def stmt(self, s):
        k = s[0]
        if k == 'block':
            for x in s[1]: self.stmt(x)
        elif k == 'decl':
            for n, ty, init in s[1]:
                self.declare(n, ty)
                if init is None: continue
                if ty.ptr: self.env[n][1].extend(self.places(init))
                else: self.inits(init)
        elif k == 'expr': self.expr(s[1])
        elif k == 'ret':
            if s[1] is not None: self.expr(s[1])
        elif k == 'if':
            self.expr(s[1]); self.stmt(s[2])
            if s[3] is not None: self.stmt(s[3])
        elif k == 'switch':
            self.expr(s[1])
            for h, b in s[2]:
                for x in b:
                    if x[0] != 'break': self.stmt(x)
        elif k == 'for':
            _, i, c, st, b = s
            n = None
            if i and i[0] == 'assign' and i[2][0] == 'id' and c and c[0] == 'bin' and c[1] == '<' and c[2] == i[2]:
                lo, hi = self.const(i[3]), self.const(c[3])
                if lo is not None and hi is not None and hi - lo <= 16: n = i[2][1]
            if n is None:
                for x in (i, c, st):
                    if x: self.expr(x)
                self.stmt(b)
            else:
                for v in range(lo, hi):
                    self.ints[n] = v; self.stmt(b)
                self.ints[n] = None
        elif k in ('break',): pass
        else: raise Skip('stmt ' + k)

def extract(ps, sigs):
    r, skip = collections.OrderedDict(), {}
    for n, f in ps.fns.items():
        if os.path.basename(f.file) in ('io.h', 'io.c'): continue
        try: r[n] = Extract(ps, f, sigs)
        except Skip as e: skip[n] = str(e)
    return r, skip

def all_configs():
    """configuration -> name -> Extract, with the lengths behind plain pointers agreed on"""
    cfgs = collections.OrderedDict([('Scalar', [])])
    for c, d in simdgen.CFGS.items(): cfgs[c] = d
    for c, d in simdgen.CFGS.items():
        if 'SSE' in d[0]: cfgs[c + 'U'] = d + ['CGLM_ALL_UNALIGNED']
    pss = {c: load(d) for c, d in cfgs.items()}
    sigs = {}
    while True:
        R = {c: extract(ps, sigs) for c, ps in pss.items()}
        new = dict(sigs)
        for c, (r, skip) in R.items():
            for n, x in r.items():
                s = [tuple(v) for v in x.vars[:x.nparams]]
                o = new.get(n, s)
                assert len(o) == len(s) and all(a[1] == b[1] for a, b in zip(o, s)), n
                new[n] = [(max(a[0], b[0]), a[1], a[2]) for a, b in zip(o, s)]
        if new == sigs: return pss, R, sigs
        sigs = new


# documented as [in] although written
DOCSLIP = {('glm_swapf', 'a'), ('glm_swapf', 'b'), ('glm_ray_sphere', 't1'), ('glm_ray_sphere', 't2'), ('glms_ray_sphere', 't1'), ('glms_ray_sphere', 't2')}

def documented(ps):
    """function -> parameter -> direction, from the @param[...] comments"""
    doc, texts = {}, {}
    for n, f in ps.fns.items():
        t = texts.setdefault(f.file, open(f.file).read().split('\n'))
        i = f.l0 - 2
        while i >= 0 and not t[i].strip().endswith('*/') and f.l0 - i < 6: i -= 1
        if i < 0 or not t[i].strip().endswith('*/'): continue
        while i >= 0:
            m = re.search(r'@param\s*\[([^\]]*)\]\s+(\w+)', t[i])
            if m: doc.setdefault(n, {})[m.group(2)] = m.group(1)
            if '/*' in t[i]: break
            i -= 1
    return doc

def written(r):
    """which pointer parameters are written, through calls"""
    W = {n: set() for n in r}
    ch = True
    while ch:
        ch = False
        for n, x in r.items():
            for ev in x.evs:
                if ev[0] == 'a': new = {ev[1][0]} if ev[4] else set()
                else: new = {p[0] for i, p in enumerate(ev[2]) if i in W[ev[1]]}
                new = {v for v in new if v < x.nparams} - W[n]
                if new: W[n] |= new; ch = True
    return W

def outs(pss, R, sigs):
    """function -> which parameters are outputs: as documented; else as the scalar build does"""
    doc = documented(pss['Scalar'])
    W = {}
    for c in R:
        for n, w in written(R[c][0]).items(): W.setdefault(n, w)      # the first configuration is the scalar one
    r, undoc = {}, []
    for n in sigs:
        f = next(ps.fns[n] for ps in pss.values() if n in ps.fns)
        names = [pn for pn, ty in f.params if ispointer(ty)]
        d = doc.get(n) or (doc.get('glm_' + n[5:], {}) if n.startswith('glmc_') else {})
        if n.startswith('glmc_'):
            g = 'glm_' + n[5:]
            gf = pss['Scalar'].fns.get(g)
            gn = [pn for pn, ty in gf.params if ispointer(ty)] if gf else []
            if len(gn) == len(names): r[n] = r[g]; continue
        o = []
        for i, pn in enumerate(names):
            if (n, pn) in DOCSLIP: o.append(True)
            elif pn in d: o.append('out' in d[pn])
            else: o.append(i in W[n]); undoc.append((n, pn))
        r[n] = o
    return r, undoc

def al(a): return {'vec': '.vec', 'mat': '.mat', 8: '.b8', 16: '.b16'}[a]
def var(size, als):
    k = tuple(als)
    return f'⟨{size}, [{", ".join(al(a) for a in k)}]⟩'
def place(p):
    v, off, ix = p
    return f'⟨{v}, {off}, [{", ".join(f"({s}, {d})" for s, d in ix)}]⟩'
def event(ev, ids):
    if ev[0] == 'c': return f'.call {ids[ev[1]]} [{", ".join(place(p) for p in ev[2])}]'
    _, p, w, r, b = ev
    b = 'true' if b else 'false'
    if p[2]: return f'.access {place(p)} {w} {r} {b}'
    if (w, r) == (4, 4): return f'{"wr" if b == "true" else "rd"} {p[0]} {p[1]}'
    return f'ac {p[0]} {p[1]} {w} {r} {b}'
def wrap(items, ind='  ', width=126):
    lines, cur = [], ''
    for k, it in enumerate(items):
        it += ',' if k + 1 < len(items) else ''
        if cur and len(cur) + 1 + len(it) > width - len(ind): lines.append(cur); cur = it
        else: cur = (cur + ' ' + it).strip()
    if cur: lines.append(cur)
    return ('\n' + ind).join(lines)
def tree(entries, ind=1):
    """balanced search tree of (key, text)"""
    if not entries: return '.leaf'
    m = len(entries) // 2
    l, r = tree(entries[:m], ind + 1), tree(entries[m + 1:], ind + 1)
    k, v = entries[m]
    if l == r == '.leaf': return f'.node {k} {v} .leaf .leaf'
    nl = '\n' + ' ' * ind
    par = lambda t: t if t == '.leaf' else f'({t})'
    return f'.node {k} {v}{nl}{par(l)}{nl}{par(r)}'

HEAD = '/-! Generated by tools/accgen.py from the headers and src; do not edit by hand. -/\n'
OPT = 'set_option maxRecDepth 100000\n'

def write(p, s):
    os.makedirs(os.path.dirname(OUT + p), exist_ok=True)
    if not os.path.exists(OUT + p) or open(OUT + p).read() != s: open(OUT + p, 'w').write(s)

def main():
    pss, R, sigs = all_configs()
    for c, (r, skip) in R.items():
        if skip: print('not read:', c, skip)
    out, undoc = outs(pss, R, sigs)
    names = list(sigs)
    ids = {n: k for k, n in enumerate(names)}
    fnof = {n: next(ps.fns[n] for ps in pss.values() if n in ps.fns) for n in names}
    def body(x):
        return (f'⟨[{", ".join(var(v[0], v[1]) for v in x.vars[x.nparams:])}],\n  [{wrap([event(e, ids) for e in x.evs], "   ")}]⟩')
    base = {n: body(x) for n, x in R['Scalar'][0].items()}
    # variants
    variants = {}
    own = {}
    for c, (r, _) in R.items():
        own[c] = {}
        for n, x in r.items():
            b = body(x)
            if base.get(n) == b: continue
            v = variants.setdefault(n, collections.OrderedDict())
            v.setdefault(b, []).append(c)
            own[c][n] = b
    def src(n, c='Scalar'):
        f = pss[c].fns[n]
        return f'{gen.rel(f.file)}:{f.l0}-{f.l1}'
    # signatures
    s = 'import Verif.Access\n' + HEAD + OPT + 'namespace Cglm.Acc\n\n'
    s += '/-- the pointer parameters of every function, in the order of the names in `tools/accgen.py`\'s reading of the headers; a parameter\n'
    s += 'that is an array of run-time length stands for any one of its elements -/\ndef sigs : Tree (List Param) :=\n '
    s += tree([(ids[n], f'[{", ".join(f"⟨{var(q[0], q[1])}, {str(o).lower()}⟩" for q, o in zip(sigs[n], out[n]))}]') for n in names])
    s += '\n\nend Cglm.Acc\n'
    write('Acc/Sigs.lean', s)
    # scalar build
    byfile = collections.OrderedDict()
    for n in base: byfile.setdefault('Src' if gen.issrc(fnof[n].file) else 'Struct' if gen.isstruct(fnof[n].file) else 'Base', []).append(n)
    for m, ns in byfile.items():
        s = 'import Verif.Access\n' + HEAD + 'namespace Cglm.Acc\n\n'
        for n in ns: s += f'/-- `{n}`: {src(n)} -/\ndef f_{n} : Fn := {base[n]}\n'
        s += '\nend Cglm.Acc\n'
        write(f'Acc/{m}.lean', s)
    s = ''.join(f'import Verif.Acc.{m}\n' for m in byfile) + HEAD + OPT + 'namespace Cglm.Acc\n\n/-- the scalar build -/\ndef scalarFns : Tree Fn :=\n '
    s += tree([(ids[n], f'f_{n}') for n in names if n in base])
    s += '\n\nend Cglm.Acc\n'
    write('Acc/Scalar.lean', s)
    # configurations
    s = 'import Verif.Access\n' + HEAD + OPT + 'namespace Cglm.Acc\n\n'
    vn = {}
    for n, vs in variants.items():
        for k, (b, cs) in enumerate(vs.items()):
            vn[n, b] = f'v{k + 1}_{n}'
            s += f'/-- `{n}` in {", ".join(cs)}: {src(n, cs[0])} -/\ndef v{k + 1}_{n} : Fn := {b}\n'
    for c in R:
        if c == 'Scalar': continue
        s += f'\n/-- functions that {c} replaces or adds -/\ndef own{c} : Tree Fn :=\n '
        s += tree([(ids[n], vn[n, own[c][n]]) for n in names if n in own[c]]) + '\n'
    s += '\nend Cglm.Acc\n'
    write('Acc/Configs.lean', s)
    print(len(names), 'functions,', len(base), 'in the scalar build,', len(vn), 'variants;', {c: len(o) for c, o in own.items()})
    print('undocumented directions:', len(undoc))
    return ids

def thms(ids):
    X86 = ['Sse', 'Sse2', 'Sse3', 'Sse4', 'Avx', 'Fma']
    bad = '[loadThree, storeThree]'
    s = 'import Verif.Acc.Sigs\nimport Verif.Acc.Scalar\nimport Verif.Acc.Configs\n'
    s += """/-!
# C81: no access is misaligned, outside its object, or a write to an input

In every build and for every function of the array, structure and compiled interfaces: when the arguments have the room and the
alignment their types ask for, each access, at any depth of calls, is inside the object it starts from, has the alignment its
instruction needs, and changes only outputs and local objects.  With `CGLM_ALL_UNALIGNED` the alignment of a float is enough.
Written by `tools/accgen.py`.
-/
namespace Cglm.Acc
open Cglm.Layout (Config)
set_option maxRecDepth 100000

"""
    s += f'/-- `glmm_load3`: include/cglm/simd/x86.h, see `v1_glmm_load3` -/\nabbrev loadThree : Nat := {ids["glmm_load3"]}\n'
    s += f'/-- `glmm_store3`: include/cglm/simd/x86.h, see `v1_glmm_store3` -/\nabbrev storeThree : Nat := {ids["glmm_store3"]}\n\n'
    s += '/-- the scalar build -/\ndef progScalar : Prog := ⟨sigs, scalarFns, .leaf⟩\n'
    for c in [x for x in simdgen.CFGS] + [x + 'U' for x in X86]:
        s += f'/-- the build {c}{" with `CGLM_ALL_UNALIGNED`" if c.endswith("U") else ""} -/\ndef prog{c} : Prog := ⟨sigs, scalarFns, own{c}⟩\n'
    s += '\n/-- every access made by a function is as it should be -/\ndef AllGood (a : Aln) (P : Prog) (bad : List Nat) : Prop :=\n'
    s += '  ∀ (f : Nat) (vs : List Param) (args : List Ptr) (t : Touch), f ∉ bad → P.sig f = some vs → List.Forall₂ (Param.Admits a) vs args →\n'
    s += '    Touches a P f args t → t.Good ∧ (t.ptr.obj ∈ args.map Ptr.obj ∨ t.ptr.obj.isLocal = true)\n\n'
    A = {'A16': '⟨true, false, false⟩', 'A32': '⟨true, false, true⟩', 'U': 'least'}
    for a, t in A.items():
        s += f'theorem scalar_ok_{a} : scalarFns.all (fnOk {t} {bad} sigs) = true := by decide +kernel\n'
    s += f"theorem scalar_keys : scalarFns.all (fun k _ => !List.contains {bad} k) = true := by decide +kernel\n"
    s += """
theorem allGood {a : Aln} {P : Prog} {bad : List Nat} (hb : P.base.all (fnOk a bad P.sigs) = true)
    (ho : P.own.all (fnOk a bad P.sigs) = true) : AllGood a P bad :=
  fun _ _ _ _ hf hs hv ht => ⟨touches_good hb ho ht hf hs hv, touches_obj ht⟩

theorem allGood_relaxed {a : Aln} (ha : a.relaxed = true) {P : Prog} {bad : List Nat} (hb : P.base.all (fnOk least bad P.sigs) = true)
    (ho : P.own.all (fnOk least bad P.sigs) = true) : AllGood a P bad :=
  fun _ _ _ _ hf hs hv ht => ⟨touches_good hb ho ht.least hf hs (hv.imp fun _ _ h => h.least ha), touches_obj ht⟩

theorem aln_aligned {c : Config} (hv : c.Valid) (hu : c.allUnaligned = false) : aln c = ⟨true, false, c.avx⟩ := by
  rcases c with ⟨_ | _, _ | _, _ | _, _ | _⟩ <;> first | rfl | exact absurd (hv rfl) (by decide) | exact absurd hu (by decide)

"""
    def own(c, a, bad=bad): return f'theorem own{c}_ok_{a} : own{c}.all (fnOk {A[a]} {bad} sigs) = true := by decide +kernel\n'
    # builds without alignment needs of their own: any setting
    for c in ['Scalar', 'Neon64', 'Neon32', 'Wasm']:
        if c != 'Scalar': s += own(c, 'A16', '[]') + own(c, 'U', '[]')
        o = (lambda a: 'rfl') if c == 'Scalar' else (lambda a: f'own{c}_ok_{a}')
        s += f"""
/-- {c} build, with or without `CGLM_ALL_UNALIGNED` -/
theorem C81_{c} (c : Config) (hv : c.Valid) (hx : c.avx = false) : AllGood (aln c) prog{c} [] := by
  rcases hu : c.allUnaligned with _ | _
  · rw [aln_aligned hv hu, hx]; exact allGood (all_nil scalar_ok_A16 scalar_keys) {o('A16')}
  · exact allGood_relaxed hu (all_nil scalar_ok_U scalar_keys) {o('U')}
"""
    for c in X86:
        a = 'A32' if c in ('Avx', 'Fma') else 'A16'
        x = 'true' if a == 'A32' else 'false'
        p = '' if c == 'Sse' else '_partial'
        b = '[]' if c == 'Sse' else bad
        base = (lambda a: f'(all_nil scalar_ok_{a} scalar_keys)') if c == 'Sse' else (lambda a: f'scalar_ok_{a}')
        s += '\n' + own(c, a, b) + own(c + 'U', 'U', b)
        s += f"""
/-- {c} build{'' if c == 'Sse' else '; missing: the two helpers that promise too much'} -/
theorem C81_{c}{p} (c : Config) (hv : c.Valid) (hu : c.allUnaligned = false) (hx : c.avx = {x}) :
    AllGood (aln c) prog{c} {b} := by
  rw [aln_aligned hv hu, hx]; exact allGood {base(a)} own{c}_ok_{a}

/-- {c} build with `CGLM_ALL_UNALIGNED` -/
theorem C81_{c}U{p} (c : Config) (hu : c.allUnaligned = true) : AllGood (aln c) prog{c}U {b} :=
  allGood_relaxed hu {base('U')} own{c}U_ok_U
"""
    s += '\nend Cglm.Acc\n'
    write('Props/C81.lean', s)

if __name__ == '__main__':
    thms(main())
