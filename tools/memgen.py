"""Memory-level back end: prints the C functions of the array API as syntax trees of Verif.CMem.

The parse is the one gen.py uses.  Differences from C are listed in lean/Verif/CMem.lean.
"""
import os, re, sys
from fractions import Fraction
sys.path.insert(0, os.path.dirname(os.path.abspath(__file__)))
import pure
from pure import Skip, size, num, MATH1, MATH2, PRED, CONST
from cfront import T

FC = {'<': ('lt', 0), '>': ('lt', 1), '<=': ('le', 0), '>=': ('le', 1), '==': ('eq', 0), '!=': ('eq', 0)}
IC = {'<': 'lt', '>': 'gt', '<=': 'le', '>=': 'ge', '==': 'eq', '!=': 'ne'}
TAG = {'float': 'f', 'double': 'f', 'int': 'i', 'bool': 'b', 'uint32_t': 'i', 'size_t': 'i'}

def flit(q): return f'.flit {num(q)}' if q >= 0 else f'.flit (-{num(-q)})'
def par(s): return s if re.fullmatch(r'\w+', s) else f'({s})'

class MemFn:
    """translates one function; result: self.locals, self.nregs, self.body (Lean text)"""
    def __init__(self, ps, known):
        self.ps, self.known = ps, known

    def translate(self, fn):
        self.fn = fn
        self.addr = set()
        def scan(x):
            if isinstance(x, (tuple, list)):
                if isinstance(x, tuple) and x and x[0] == 'addr' and x[1][0] == 'id': self.addr.add(x[1][1])
                for y in x: scan(y)
        scan(fn.body)
        self.env, self.locals, self.nregs = {}, [], len(fn.params)
        self.nulltest = self.eager = False
        for i, (n, ty) in enumerate(fn.params):
            if ty.st or ty.ptr > 1 or None in ty.dims or (ty.ptr and ty.dims): raise Skip(f'parameter type {ty}')
            if ty.base not in ('float', 'int', 'bool'): raise Skip(f'parameter type {ty}')
            if ty.dims or ty.ptr: self.env[n] = ('reg', i, ty.dims if ty.dims else (None,), ty.base)
            else:
                if n in self.addr: raise Skip('address of parameter')
                self.env[n] = ('sc', i, TAG[ty.base])
        self.st = []
        body = self.block([fn.body])
        return body

    # ---- statements: lists of Lean terms
    def seq(self, l):
        if not l: return '.skip'
        r = l[-1]
        for s in reversed(l[:-1]): r = f'.seq ({s}) ({r})' if not s.startswith('.skip') else r
        return r
    def block(self, stmts):
        save, self.st = self.st, []
        env = dict(self.env)
        self.run(stmts)
        self.env = env
        r, self.st = self.seq(self.st), save
        return r
    def run(self, stmts):
        stmts = list(stmts)
        while stmts:
            s = stmts.pop(0)
            k = s[0]
            if k == 'block':
                if any(x[0] == 'decl' for x in s[1]) and stmts: self.st.append(self.block(s[1]))
                else: stmts = list(s[1]) + stmts
            elif k == 'decl':
                for n, ty, init in s[1]: self.decl(n, ty, init)
            elif k == 'expr': self.effect(s[1])
            elif k == 'ret':
                if s[1] is None: self.st.append('.retVoid')
                else:
                    if self.fn.ret.dims or self.fn.ret.ptr: raise Skip('array result')
                    self.st.append(f'.ret {par(self.coerce(self.ex(s[1]), self.fn.ret.base))}')
                return
            elif k == 'if':
                c = self.cond(s[1])
                if c == '.blit true': stmts = [s[2]] + stmts; continue
                if c == '.blit false': stmts = ([s[3]] if s[3] else []) + stmts; continue
                a = self.block([s[2]])
                b = self.block([s[3]]) if s[3] else '.skip'
                self.st.append(f'.ite {par(c)} ({a}) ({b})')
            elif k == 'for':
                stmts = pure.Pure.unroll(self, s, None) + stmts
            elif k == 'switch': stmts = [pure.Pure.switch(self, s)] + stmts
            elif k == 'setint': self.env[s[1]] = ('int', s[2])
            else: raise Skip(f'statement {k}')
    def reg(self):
        self.nregs += 1
        return self.nregs - 1
    def loc(self, n):
        self.locals.append(n)
        return len(self.locals) - 1
    def decl(self, n, ty, init):
        if ty.st: raise Skip('struct local')
        if ty.ptr:
            i = self.reg()
            self.env[n] = ('reg', i, ty.dims if ty.dims else (None,), ty.base)
            if init is not None: self.st.append(f'.set {i} {par(self.ptr(init)[0])}')
            return
        if ty.dims:
            if ty.base not in ('float', 'int'): raise Skip(f'local type {ty}')
            l = self.loc(size(ty.dims))
            self.env[n] = ('loc', l, ty.dims, ty.base)
            if init is not None:
                if init[0] != 'init': raise Skip('array initialiser')
                fl = []
                self.flat(init, ty.dims, fl, ty.base)
                for j, x in enumerate(fl): self.store(f'.loc {l}', j, x)
            return
        if ty.base not in TAG: raise Skip(f'local type {ty}')
        if n in self.addr:
            l = self.loc(1)
            self.env[n] = ('mem', l, TAG[ty.base], ty.base)
            if init is not None: self.store(f'.loc {l}', 0, self.coerce(self.ex(init), ty.base))
            return
        v = None if init is None else self.coerce(self.ex(init), ty.base)
        i = self.reg()
        self.env[n] = ('sc', i, TAG[ty.base])
        if v is not None: self.st.append(f'.set {i} {par(v)}')
    def flat(self, init, dims, out, base):
        for j in range(dims[0]):
            x = init[1][j] if j < len(init[1]) else None
            if len(dims) > 1: self.flat(x if x is not None else ('init', []), dims[1:], out, base)
            else: out.append('.flit 0' if x is None else self.coerce(self.ex(x), base))
    def at(self, p, k): return p if k == 0 else f'.off {par(p)} {k}'
    def store(self, p, k, v): self.st.append(f'.store {par(self.at(p, k))} {par(v)}')

    # ---- pointers: (Lean expr, dims)
    def ptr(self, e):
        k = e[0]
        if k == 'id':
            v = self.env.get(e[1])
            if v is None: raise Skip(f'pointer {e[1]}')
            if v[0] == 'reg': return f'.reg {v[1]}', v[2]
            if v[0] == 'loc': return f'.loc {v[1]}', v[2]
            if v[0] == 'mem': return f'.loc {v[1]}', ()
            raise Skip(f'pointer {e[1]}')
        if k == 'idx':
            p, d = self.ptr(e[1])
            i = self.cint(e[2])
            n = size(d[1:])
            return self.off(p, i * n), d[1:]
        if k == 'deref':
            p, d = self.ptr(e[1])
            return p, d[1:]
        if k == 'addr':
            p, d = self.ptr(e[1])
            return p, (1,) + tuple(d)
        if k == 'cast': return self.ptr(e[2])
        if k == 'complit':
            self.tmp = getattr(self, 'tmp', 0) + 1
            n = f'<complit{self.tmp}>'
            self.decl(n, e[1], e[2])
            return self.ptr(('id', n))
        raise Skip(f'pointer expr {k}')
    def off(self, p, n):
        if n == 0: return p
        m = re.fullmatch(r'\.off (.*) (\d+)', p)
        if m: return f'.off {m[1]} {int(m[2]) + n}'
        return f'.off {par(p)} {n}'
    def cint(self, e):
        t, c = self.ex(e)
        m = re.fullmatch(r'\.ilit (\d+)', t)
        if not m: raise Skip('dynamic index')
        return int(m[1])

    # ---- expressions: (Lean expr, tag)
    def coerce(self, tv, b):
        t, c = tv
        if b in ('float', 'double'):
            if c == 'i':
                m = re.fullmatch(r'\.ilit \(?(-?\d+)\)?', t)
                return flit(Fraction(int(m[1]))) if m else f'.ofInt {par(t)}'
            if c == 'b': return f'.ofInt (.b2i {par(t)})'
            return t
        if b in ('int', 'uint32_t', 'size_t'):
            if c == 'b': return f'.b2i {par(t)}'
            if c == 'f': raise Skip('float to int')
            return t
        if b == 'bool':
            if c == 'i':
                m = re.fullmatch(r'\.ilit \(?(-?\d+)\)?', t)
                if m: return '.blit ' + ('true' if int(m[1]) else 'false')
                return f'.ic .ne {par(t)} (.ilit 0)'
            if c == 'f': return f'.not (.fc .eq {par(t)} (.flit 0))'
            return t
        raise Skip(f'coerce {b}')
    def cond(self, e):
        if e[0] == 'id' and e[1] in self.env and self.env[e[1]][0] in ('reg', 'loc'):
            self.nulltest = True
            return '.blit true'
        return self.coerce(self.ex(e), 'bool')
    def effect(self, e):
        if e[0] == 'call': self.call(e, False)
        else: self.ex(e)
    def ilit(self, n): return f'.ilit {n}' if n >= 0 else f'.ilit ({n})'
    def islv(self, e):
        while e[0] in ('idx', 'deref', 'addr'): e = e[1]
        return e[0] in ('id', 'complit', 'cast')
    def base(self, e):
        while e[0] in ('idx', 'deref', 'addr', 'cast'): e = e[2] if e[0] == 'cast' else e[1]
        if e[0] == 'id' and e[1] in self.env and len(self.env[e[1]]) > 3: return self.env[e[1]][3]
        return 'float'
    def ex(self, e):
        k = e[0]
        if k == 'num':
            if e[2] == 'i': return self.ilit(int(e[1])), 'i'
            return flit(e[1]), 'f'
        if k == 'id':
            n = e[1]
            if n in self.env:
                v = self.env[n]
                if v[0] == 'sc': return f'.reg {v[1]}', v[2]
                if v[0] == 'int': return self.ilit(v[1]), 'i'
                if v[0] == 'mem': return f'.load (.loc {v[1]})', v[2]
                raise Skip('array as value')
            if n in CONST: return flit(CONST[n]), 'f'
            if n in ('true', 'false'): return f'.blit {n}', 'b'
            if n in self.ps.enums: return self.ilit(self.ps.enums[n]), 'i'
            raise Skip(f'identifier {n}')
        if k in ('idx', 'deref'):
            d = self.dynidx(e)
            if d is not None: return d
            p, dims = self.ptr(e)
            if dims: raise Skip('array as value')
            return f'.load {par(p)}', TAG[self.base(e)]
        if k == 'cast':
            r = self.ex(e[2])
            b = e[1].base
            if e[1].ptr: raise Skip('pointer cast value')
            if b in ('float', 'double'): return self.coerce(r, 'float'), 'f'
            if b == 'int': return self.coerce(r, 'int'), 'i'
            raise Skip(f'cast {e[1]}')
        if k == 'un':
            if e[1] == '-':
                t, c = self.ex(e[2])
                if c == 'f': return f'.f1 .neg {par(t)}', 'f'
                m = re.fullmatch(r'\.ilit (\d+)', t)
                if c == 'i' and m: return self.ilit(-int(m[1])), 'i'
                raise Skip('int negation')
            if e[1] == '+': return self.ex(e[2])
            if e[1] == '!':
                c = self.cond(e[2])
                if c in ('.blit true', '.blit false'): return ('.blit false' if c.endswith('true') else '.blit true'), 'b'
                return f'.not {par(c)}', 'b'
            raise Skip(f'unary {e[1]}')
        if k == 'bin': return self.binop(e)
        if k == 'tern':
            c = self.cond(e[1])
            n = len(self.st)
            a, b = self.ex(e[2]), self.ex(e[3])
            if len(self.st) != n: self.eager = True
            if a[1] != b[1]:
                ty = 'float' if 'f' in (a[1], b[1]) else 'int'
                return f'.ite {par(c)} {par(self.coerce(a, ty))} {par(self.coerce(b, ty))}', ty[0]
            return f'.ite {par(c)} {par(a[0])} {par(b[0])}', a[1]
        if k == 'assign': return self.assign(e)
        if k == 'call': return self.call(e, True)
        if k == 'comma':
            self.effect(e[1]); return self.ex(e[2])
        raise Skip(f'expr {k}')
    def dynidx(self, e):
        if not (e[0] == 'idx' and e[1][0] == 'idx'): return None
        i = e[1][2]
        if not (i[0] == 'bin' and i[1] in ('<', '>', '<=', '>=', '==', '!=') or i[0] == 'un' and i[1] == '!'): return None
        c = self.cond(i)
        a = self.ex(('idx', ('idx', e[1][1], ('num', Fraction(1), 'i')), e[2]))
        b = self.ex(('idx', ('idx', e[1][1], ('num', Fraction(0), 'i')), e[2]))
        return f'.ite {par(c)} {par(a[0])} {par(b[0])}', a[1]
    def binop(self, e):
        op = e[1]
        if op in ('&&', '||'):
            a = self.cond(e[2])
            n = len(self.st)
            b = self.cond(e[3])
            if len(self.st) != n: self.eager = True
            return f'.{"and" if op == "&&" else "or"} {par(a)} {par(b)}', 'b'
        a, b = self.ex(e[2]), self.ex(e[3])
        if op in FC:
            if 'f' in (a[1], b[1]):
                x, y = par(self.coerce(a, 'float')), par(self.coerce(b, 'float'))
                o, sw = FC[op]
                r = f'.fc .{o} {y} {x}' if sw else f'.fc .{o} {x} {y}'
                return (f'.not ({r})' if op == '!=' else r), 'b'
            x, y = self.coerce(a, 'int'), self.coerce(b, 'int')
            mx, my = re.fullmatch(r'\.ilit \(?(-?\d+)\)?', x), re.fullmatch(r'\.ilit \(?(-?\d+)\)?', y)
            if mx and my:
                p, q = int(mx[1]), int(my[1])
                r = {'<': p < q, '>': p > q, '==': p == q, '!=': p != q, '<=': p <= q, '>=': p >= q}[op]
                return '.blit ' + ('true' if r else 'false'), 'b'
            return f'.ic .{IC[op]} {par(x)} {par(y)}', 'b'
        if op in ('+', '-', '*', '/'):
            if 'f' in (a[1], b[1]):
                x, y = par(self.coerce(a, 'float')), par(self.coerce(b, 'float'))
                return f'.f2 .{ {"+": "add", "-": "sub", "*": "mul", "/": "div"}[op]} {x} {y}', 'f'
            mx, my = re.fullmatch(r'\.ilit \(?(-?\d+)\)?', a[0]), re.fullmatch(r'\.ilit \(?(-?\d+)\)?', b[0])
            if mx and my and op != '/':
                p, q = int(mx[1]), int(my[1])
                return self.ilit({'+': p + q, '-': p - q, '*': p * q}[op]), 'i'
            if op != '/': return f'.i2 .{ {"+": "add", "-": "sub", "*": "mul"}[op]} {par(self.coerce(a, "int"))} {par(self.coerce(b, "int"))}', 'i'
            raise Skip('int arithmetic')
        if op in ('<<', '>>', '|', '&'):
            mx, my = re.fullmatch(r'\.ilit (\d+)', a[0]), re.fullmatch(r'\.ilit (\d+)', b[0])
            if mx and my:
                p, q = int(mx[1]), int(my[1])
                return self.ilit({'<<': p << q, '>>': p >> q, '|': p | q, '&': p & q}[op]), 'i'
        raise Skip(f'operator {op}')
    def assign(self, e):
        _, op, lhs, rhs = e
        if lhs[0] == 'id' and lhs[1] in self.env and self.env[lhs[1]][0] == 'reg':
            p, d = self.ptr(rhs)
            self.st.append(f'.set {self.env[lhs[1]][1]} {par(p)}')
            return p, 'p'
        if lhs[0] == 'id' and lhs[1] in self.env and self.env[lhs[1]][0] in ('sc', 'int'):
            v = self.env[lhs[1]]
            if v[0] == 'int': raise Skip('loop variable assigned')
            b = {'f': 'float', 'i': 'int', 'b': 'bool'}[v[2]]
            r = self.coerce(self.ex(rhs) if op == '=' else self.binop(('bin', op[0], lhs, rhs)), b)
            self.st.append(f'.set {v[1]} {par(r)}')
            return f'.reg {v[1]}', v[2]
        p, d = self.ptr(lhs)
        if d: raise Skip('aggregate assignment')
        b = self.base(lhs)
        r = self.coerce(self.ex(rhs) if op == '=' else self.binop(('bin', op[0], lhs, rhs)), b)
        self.st.append(f'.store {par(p)} {par(r)}')
        return f'.load {par(p)}', TAG[b]
    def call(self, e, want):
        n, args = e[1], e[2]
        if not isinstance(n, str): raise Skip('indirect call')
        if n in MATH1: return f'.f1 .{MATH1[n]} {par(self.coerce(self.ex(args[0]), "float"))}', 'f'
        if n in MATH2:
            if MATH2[n] == 'fmaxf': raise Skip('fmaxf')
            a = [par(self.coerce(self.ex(x), 'float')) for x in args]
            return f'.f2 .{MATH2[n]} {a[0]} {a[1]}', 'f'
        if n in PRED: return f'.fp .{n} {par(self.coerce(self.ex(args[0]), "float"))}', 'b'
        if n == 'modff':
            p, _ = self.ptr(args[1])
            x = par(self.coerce(self.ex(args[0]), 'float'))
            self.st.append(f'.havoc {par(p)}')
            return f'.f1 .modfFrac {x}', 'f'
        if n == 'memcpy':
            (d, dd), (s, sd) = self.ptr(args[0]), self.ptr(args[1])
            if None in dd: raise Skip('memcpy size')
            for j in range(size(dd)): self.store(d, j, f'.load {par(self.off(s, j))}')
            return '.ilit 0', 'i'
        fn = self.ps.fns.get(n)
        if fn is None or n not in self.known: raise Skip(f'callee {n}')
        la = []
        for a, (pn, ty) in zip(args, fn.params):
            if ty.dims or ty.ptr: la.append(self.ptr(a)[0])
            else: la.append(self.coerce(self.ex(a), ty.base))
        dst = 'none'; r = None
        void = fn.ret.base == 'void' and not fn.ret.ptr
        if not void:
            if fn.ret.dims or fn.ret.ptr: raise Skip('array result')
            if want:
                i = self.reg(); dst = f'(some {i})'; r = f'.reg {i}', TAG[fn.ret.base]
        elif want: raise Skip('void value')
        k = self.known[n]
        self.st.append(f'.call {dst} {n}.locals {n}.nregs {n}.body [{", ".join(la)}]')
        return r

# ---- value functions as decision trees ---------------------------------------------------------------------------
class DTPure(pure.Pure):
    """like Pure, but branches become `DT.br` and calls to branching functions `DT.bind`, all calls kept in order"""
    branching, collapsed = set(), set()
    def callee(self, n): return n + '_dt' if n in self.branching and n not in self.collapsed else n
    def wrapcall(self, t): return ('bind', t) if t[1].endswith('_dt') else t
    def rettype(self, rts): return f'DT ({" × ".join(rts)}) :='
    def render(self, t, ind):
        s = '  ' * ind
        r = ''
        for n, e in t[1]:
            r += f'{s}DT.bind ({pure.pr(e[1])}) fun {n} =>\n' if e[0] == 'bind' else f'{s}let {n} := {pure.pr(e)}\n'
        if t[0] == 'leaf': return r + s + '.done ' + pure.pr(t[2], 1024) + '\n'
        return (r + f'{s}.br ({pure.pr(t[2])}) (\n' + self.render(t[3], ind + 1).rstrip('\n') + ') (\n' + self.render(t[4], ind + 1).rstrip('\n') + ')\n')
    def branches(self, t):
        if t[0] == 'if' or any(e[0] == 'bind' for _, e in t[1]): return True
        return False

def order(ps, names, known_body):
    """callees first"""
    done, r = set(), []
    def go(n):
        if n in done: return
        done.add(n)
        for m in re.findall(r'(\bglm\w+)\.locals', known_body[n]): go(m)
        r.append(n)
    for n in names: go(n)
    return r

class Model:
    def __init__(self):
        import gen
        self.gen = gen
        self.ps, self.P, (self.text, _, _) = gen.scalar()
        self.fn, self.body = {}, {}
        todo = [self.ps.fns[n] for n in self.text]
        while todo:
            nxt, prog = [], False
            for f in todo:
                M = MemFn(self.ps, self.fn)
                try: b = M.translate(f)
                except Skip as ex:
                    if not str(ex).startswith('callee'): raise
                    nxt.append(f); continue
                self.fn[f.name], self.body[f.name], prog = M, b, True
            todo = nxt
            if not prog: raise Exception([f.name for f in todo])
        self.order = order(self.ps, list(self.text), self.body)
        self.callees = {n: list(dict.fromkeys(re.findall(r'(\bglm\w+)\.locals', self.body[n]))) for n in self.body}
        # functions whose call leaves memory alone
        self.pure = set()
        for n in self.order:
            if not self.fn[n].locals and '.store' not in self.body[n] and '.havoc' not in self.body[n] and all(m in self.pure for m in self.callees[n]):
                self.pure.add(n)
        D = DTPure(self.ps, {})
        D.branching, D.collapsed = set(), {n for n in self.pure if self.ps.fns[n].ret.base in ('float', 'bool') and not self.ps.fns[n].ret.ptr}
        self.dt = {}
        for n in self.order:
            t = D.translate(self.ps.fns[n])
            a, b = D.sigs[n], self.P.sigs[n]
            if [x for x, _ in a.ins] != [x for x, _ in b.ins] or [x for x, _ in a.outs] != [x for x, _ in b.outs]: print('signature differs', n)
            if D.branches(D.tree):
                D.branching.add(n)
                self.dt[n] = t.replace(f'def {n}', f'def {n}_dt', 1)
        self.D = D

    def defn(self, n):
        M = self.fn[n]
        f = self.ps.fns[n]
        x = '  Simplified: optional output pointers are taken to be non-NULL.' if M.nulltest else ''
        if M.eager: x += '  Simplified: the right operand of `&&`/`||` is always evaluated.'
        return f'/-- `{n}`: {self.gen.rel(f.file)}:{f.l0}-{f.l1}.{x} -/\ndef {n} : Fn where\n  locals := {M.locals}\n  nregs := {M.nregs - len(f.params)}\n  body := {self.pretty(self.body[n])}\n'
    def pretty(self, b):
        # a right-nested seq, one statement per line
        out = ''
        close = 0
        while b.startswith('.seq ('):
            d, i = 0, 5
            while True:
                if b[i] == '(': d += 1
                elif b[i] == ')':
                    d -= 1
                    if d == 0: break
                i += 1
            out += '\n    .seq ' + b[5:i + 1] + ' <|'
            b = b[i + 3:-1]
        return out + '\n    ' + b if out else b

class Spec:
    """parameters of a function with their roles"""
    def __init__(self, mod, n):
        f, sig = mod.ps.fns[n], mod.P.sigs[n]
        ins, outs = dict(sig.ins), dict(sig.outs)
        self.params = []
        for pn, ty in f.params:
            t = ins.get(pn) or outs.get(pn) or ty
            arr = bool(t.dims or t.ptr)
            role = ('io' if pn in ins else 'o') if pn in outs else 'i'
            self.params.append((pn, pure.mangle(pn), t, arr, role))
        self.ret = sig.ret
        self.ins, self.outs = [p for p, _ in sig.ins], [p for p, _ in sig.outs]
        self.n = n
    def size(self, t): return size(t.dims) if t.dims else 1
    def lst(self, v, t): return f'{v}.list' if t.dims else f'[{v}]'

# ---- emission ----------------------------------------------------------------------------------------------------
OUT = os.path.join(os.path.dirname(os.path.abspath(__file__)), '../lean/Verif/')
UNSAFE = os.path.join(os.path.dirname(os.path.abspath(__file__)), 'mem_unsafe.tsv')
VARS = 'variable {α : Type} [Add α] [Sub α] [Mul α] [Div α] [Neg α] [CFloat α]\n'

def put(path, s):
    p = OUT + path
    os.makedirs(os.path.dirname(p), exist_ok=True)
    if not os.path.exists(p) or open(p).read() != s: open(p, 'w').write(s)

def quote(s):
    """`to` is a keyword once Mathlib is imported"""
    return '\n'.join(l if l.startswith('/-') else re.sub(r'(?<![\w«])to(?![\w»])', '«to»', l) for l in s.split('\n'))

def types():
    s = '''/- Generated by tools/memgen.py; do not edit by hand. -/
import Verif.CMemSpec

/-!
# Arrays as lists of floats

`v.list` lists the elements of an array in memory order; a matrix is an array of columns.
-/

namespace Cglm

variable {α : Type}

'''
    for n in (2, 3, 4, 6, 8, 9, 12, 16):
        fs = pure.fields(n)
        s += f'def V{n}.list (v : V{n} α) : List α := [{", ".join("v." + f for f in fs)}]\n'
        s += f'theorem V{n}.list_inj {{v w : V{n} α}} (h : v.list = w.list) : v = w := by\n  cases v; cases w; simpa [V{n}.list] using h\n'
    for n, r, t in ((2, 2, 'M2'), (3, 3, 'M3'), (4, 4, 'M4'), (2, 3, 'M2x3'), (2, 4, 'M2x4'), (3, 2, 'M3x2'), (3, 4, 'M3x4'), (4, 2, 'M4x2'), (4, 3, 'M4x3'), (6, 4, 'M6x4'), (8, 4, 'M8x4')):
        s += f'def {t}.list (v : {t} α) : List α := {" ++ ".join(f"v.c{i}.list" for i in range(n))}\n'
        s += f'theorem {t}.list_inj {{v w : {t} α}} (h : v.list = w.list) : v = w := by\n'
        s += '  rcases v with ⟨' + ', '.join('⟨' + ', '.join(f'v{i}{j}' for j in range(r)) + '⟩' for i in range(n)) + '⟩\n'
        s += '  rcases w with ⟨' + ', '.join('⟨' + ', '.join(f'w{i}{j}' for j in range(r)) + '⟩' for i in range(n)) + '⟩\n'
        s += f'  simp only [{t}.list, V{r}.list, List.cons_append, List.nil_append, List.cons.injEq, and_true] at h\n'
        s += f'  simp [h]\n'
    s += '\nend Cglm\n'
    put('CMemTypes.lean', s)

class Emit:
    def __init__(self):
        self.M = Model()
        self.gen = self.M.gen
        self.unsafe = set()
        if os.path.exists(UNSAFE):
            for l in open(UNSAFE):
                if l.strip() and not l.startswith('#'): self.unsafe.add(tuple(l.rstrip('\n').split('\t')[:3]))
        self.byfile = {}
        for n in self.M.order: self.byfile.setdefault(self.M.ps.fns[n].file, []).append(n)

    def mod(self, n): return self.gen.modname(self.M.ps.fns[n].file)
    def deps(self, path):
        r = set()
        for n in self.byfile[path]:
            for m in self.M.callees[n]:
                if self.M.ps.fns[m].file != path: r.add(self.mod(m))
        return sorted(r)

    def fns(self):
        for path, names in self.byfile.items():
            s = f'/- Generated from {self.gen.rel(path)} by tools/memgen.py (memory semantics); do not edit by hand. -/\n'
            s += 'import Verif.CMem\n' + ''.join(f'import Verif.Mem.{d}\n' for d in self.deps(path))
            s += '\nset_option maxRecDepth 10000\n\nnamespace Cglm.C\nopen CMem\n\n'
            s += '\n'.join(self.M.defn(n) for n in names) + '\nend Cglm.C\n'
            put(f'Mem/{self.gen.modname(path)}.lean', s)

    # -- alias patterns: a dict in-parameter -> out-parameter
    def patterns(self, n):
        S = Spec(self.M, n)
        arrs = [p for p in S.params if p[3]]
        outs = [p for p in arrs if p[4] != 'i']
        ch = []
        for p in arrs:
            if p[4] != 'i': continue
            o = [q for q in outs if S.size(q[2]) == S.size(p[2]) and q[2].dims == p[2].dims and (n, p[0], q[0]) not in self.unsafe]
            ch.append((p[0], [None] + [q[0] for q in o]))
        pats = [{}]
        for a, os_ in ch: pats = [dict(x, **({a: o} if o else {})) for x in pats for o in os_]
        return S, pats
    def canon(self, S, pat):
        """regions [(name, writable, cells)], argument list, value names"""
        regs, pos = [], {}
        val = {}
        for pn, ln, t, arr, role in S.params:
            val[pn] = ln
        # representative value of an output region under the pattern
        for pn, ln, t, arr, role in S.params:
            if arr and role == 'o':
                al = [a for a in pat if pat[a] == pn]
                if al: val[pn] = val[al[0]]
                else: val[pn] = None
        for a, o in pat.items(): val[a] = val[o]
        for pn, ln, t, arr, role in S.params:
            if not arr or pn in pat: continue
            pos[pn] = len(regs)
            regs.append((pn, role != 'i', f'{S.lst(val[pn], t)}.map .f' if val[pn] else f'List.replicate {S.size(t)} .undef'))
        # inputs first, outputs innermost
        args = []
        for pn, ln, t, arr, role in S.params:
            if arr: args.append(f'.p {pos[pat.get(pn, pn)]} 0')
            else: args.append(f'.{TAG[t.base]} {ln}')
        return regs, args, val
    def call(self, S, val, f=None):
        byname = {pn: (t, arr, role) for pn, ln, t, arr, role in S.params}
        a = ''.join(' ' + val[pn] for pn in S.ins)
        return f'{f or "Cglm." + S.n}{a}'
    def results(self, S, r):
        """projections of the value-level result: (ret, {out: term})"""
        k = (1 if S.ret is not None else 0) + len(S.outs)
        parts, cur = [], r
        for j in range(k):
            if j < k - 1: parts.append(cur + '.1'); cur += '.2'
            else: parts.append(cur)
        ret = parts.pop(0) if S.ret is not None else None
        return ret, dict(zip(S.outs, parts))
    def pname(self, pat): return ''.join(f'_{a}' if True else '' for a in pat) + ('' if len(set(pat.values())) <= 1 else '_' + '_'.join(pat.values()))
    def binders(self, S, val, extra=True):
        seen, s = set(), ''
        for pn, ln, t, arr, role in S.params:
            v = val[pn]
            if v and v not in seen:
                seen.add(v); s += f' ({v} : {pure.leantype(t)})'
        return s
    def canon_thm(self, n, S, pat):
        regs, args, val = self.canon(S, pat)
        A = '[' + ', '.join(f'⟨{"true" if w else "false"}, {c}⟩' for _, w, c in regs) + ']'
        tys = {pn: t for pn, ln, t, arr, role in S.params}
        br = n in self.M.dt
        r = 'r' if br else f'({self.call(S, val)})'
        ret, outs = self.results(S, r)
        R = 'none' if ret is None else f'some (.{TAG[S.ret.base]} {ret})'
        A2 = '[' + ', '.join(f'⟨true, {S.lst(outs[pn], tys[pn])}.map .f⟩' if w else f'⟨false, {c}⟩' for pn, w, c in regs) + ']'
        body = f'some ({R}, {A2})'
        rhs = f'({self.call(S, val, "Cglm." + n + "_dt")}).map fun r => {body}' if br else f'.done ({body})'
        return f'theorem {n}_run{self.pname(pat)}{self.binders(S, val)} :\n    C.{n}.runT (α := α) {A} [{", ".join(args)}] =\n      {rhs} := by kernel_rfl\n'

    def runs(self, probe=False):
        self.uses_r = {}
        for path, names in self.byfile.items():
            mod = self.gen.modname(path)
            s = f'/- Generated by tools/memgen.py; do not edit by hand.  Runs of the functions of {self.gen.rel(path)} on canonical memories. -/\n'
            s += f'import Verif.CMemTypes\nimport Verif.Gen.{mod}\nimport Verif.Mem.{mod}\n' + ''.join(f'import Verif.Mem.{d}Run\n' for d in self.deps(path))
            s += '\nset_option linter.unusedVariables false\nset_option linter.unusedSectionVars false\n\nnamespace Cglm\nopen CMem\n\n' + VARS + '\n'
            for n in names:
                if n in self.M.dt:
                    s += f'/-- `{n}` with its branches as a tree -/\n' + self.M.dt[n]
                    cal = sorted(set(re.findall(r'\bglm\w+_dt\b', self.M.dt[n].split(':=', 1)[1])))
                    S = Spec(self.M, n)
                    val = {p[0]: p[1] for p in S.params}
                    b = ''.join(f' ({val[p]} : {pure.leantype(dict((q[0], q[2]) for q in S.params)[p])})' for p in S.ins)
                    lem = ', '.join((['DT.val_bind'] if cal else []) + ['DT.val'] + [c + '_val' for c in cal])
                    s += f'theorem {n}_dt_val{b} : ({self.call(S, val, n + "_dt")}).val = {self.call(S, val)} := by\n  unfold {n}_dt\n  simp only [{lem}]\n  kernel_rfl\n'
                S, pats = self.patterns(n)
                for pat in pats: s += self.canon_thm(n, S, pat)
            s += '\nend Cglm\n'
            put(f'Mem/{mod}Run.lean', quote(s))

    # -- property theorems
    def options(self, n, S):
        """in-parameter -> outputs it may equal"""
        arrs = [p for p in S.params if p[3]]
        outs = [p for p in arrs if p[4] != 'i']
        return {p[0]: [q[0] for q in outs if q[2].dims == p[2].dims and (n, p[0], q[0]) not in self.unsafe] for p in arrs if p[4] == 'i'}
    def prop(self, n, alias):
        S = Spec(self.M, n)
        opt = self.options(n, S)
        P = {p[0]: p for p in S.params}
        ptr = {p[0]: p[1] + 'P' for p in S.params if p[3]}
        sz = {p[0]: S.size(p[2]) for p in S.params if p[3]}
        arrs = [p for p in S.params if p[3]]
        ins, outs = [p[0] for p in arrs if p[4] == 'i'], [p[0] for p in arrs if p[4] != 'i']
        val = {p[0]: p[1] for p in S.params}
        b = '{mem : Mem α}' if arrs else '(mem : Mem α)'
        if arrs: b += ' {' + ' '.join(ptr[p[0]] for p in arrs) + ' : Ptr}'
        for pn, ln, t, arr, role in S.params:
            if not arr: b += f' ({ln} : {pure.leantype(t)})'
            elif role != 'o': b += f' {{{ln} : {pure.leantype(t)}}}'
        hyps = []     # (name, statement, kind)
        for pn, ln, t, arr, role in arrs:
            if role != 'o': hyps.append((f'h_{ln}', f'Holds mem {ptr[pn]} {S.lst(ln, t)}'))
            if role != 'i': hyps.append((f'r_{ln}', f'Room mem {ptr[pn]} {sz[pn]}'))
        seps = []
        for a in ins:
            for d in outs:
                st = f'Apart {ptr[a]} {sz[a]} {ptr[d]} {sz[d]}'
                if alias and d in opt[a]: st = f'{ptr[a]} = {ptr[d]} ∨ {st}'
                seps.append((f's_{val[a]}_{val[d]}', st, a, d))
        for i, d in enumerate(outs):
            for e in outs[i + 1:]: seps.append((f's_{val[d]}_{val[e]}', f'Apart {ptr[d]} {sz[d]} {ptr[e]} {sz[e]}', d, e))
        ret, res = self.results(S, f'({self.call(S, val)})')
        R = 'none' if ret is None else f'some (.{TAG[S.ret.base]} {ret})'
        W = ', '.join(f'({ptr[d]}, {S.lst(res[d], P[d][2])}.map .f)' for d in outs)
        args = ', '.join(f'{ptr[p[0]]}.val' if p[3] else f'.{TAG[p[2].base]} {p[1]}' for p in S.params)
        concl = f'C.{n}.run mem [{args}] =\n      some ({R}, {"writes mem [" + W + "]" if outs else "mem"})'
        name = ('C55_' if alias else 'C56_') + n[4:]
        H = ''.join(f' ({h} : {s})' for h, s in hyps) + ''.join(f' ({x[0]} : {x[1]})' for x in seps)
        s = f'theorem {name} {b}{H} :\n    {concl} := by\n'
        hasC55 = any(opt.values())
        if not alias and hasC55:
            al = [f'(Or.inr {x[0]})' if x[2] in opt and x[3] in opt[x[2]] else x[0] for x in seps]
            sc = [f'{p[1]}' for p in S.params if not p[3]]
            s = s[:-len(' by\n')] + f'\n  C55_{n[4:]} {" ".join(sc + [h for h, _ in hyps] + al)}\n'
        else: s += self.cases(n, S, opt if alias else {a: [] for a in ins}, ins, outs, val, sz, {}, 0, '  ')
        # a concrete instance of the hypotheses
        pat = {a: o[0] for a, o in opt.items() if o} if alias else {}
        regs, _, cv = self.canon(S, pat)
        pos = {r[0]: i for i, r in enumerate(regs)}
        A = '[' + ', '.join(f'⟨{"true" if w else "false"}, {c}⟩' for _, w, c in regs) + ']'
        at = lambda q: f'({pos[pat.get(q, q)]}, 0)'
        parts, prf = [], []
        for pn, ln, t, arr, role in arrs:
            if role != 'o': parts.append(f'Holds mem {at(pn)} {S.lst(cv[pn], t)}'); prf.append('.block rfl')
            if role != 'i': parts.append(f'Room mem {at(pn)} {sz[pn]}'); prf.append('.block rfl rfl')
        for h, st, a, d in seps:
            if pat.get(a) == d: parts.append(f'(({at(a)} : Ptr) = {at(d)} ∨ Apart {at(a)} {sz[a]} {at(d)} {sz[d]})'); prf.append('Or.inl rfl')
            elif ' ∨ ' in st: parts.append(f'(({at(a)} : Ptr) = {at(d)} ∨ Apart {at(a)} {sz[a]} {at(d)} {sz[d]})'); prf.append('Or.inr (Or.inl (by decide))')
            else: parts.append(f'Apart {at(a)} {sz[a]} {at(d)} {sz[d]}'); prf.append('Or.inl (by decide)')
        if parts:
            vb = self.binders(S, {k: (v if P[k][3] else None) for k, v in cv.items()})
            s += f'example{vb} : let mem : Mem α := {A}\n    ' + ' ∧ '.join(parts) + ' :=\n  ' + (f'⟨{", ".join(prf)}⟩' if len(prf) > 1 else prf[0]) + '\n'
        return s
    def cases(self, n, S, opt, ins, outs, val, sz, pat, i, ind):
        if i == len(ins): return self.leaf(n, S, ins, outs, val, sz, pat, ind)
        a = ins[i]
        s = ''
        for d in opt[a]:
            h = f's_{val[a]}_{val[d]}'
            s += f'{ind}rcases {h} with {h} | {h}\n{ind}· subst {h}\n' + self.cases(n, S, opt, ins, outs, val, sz, dict(pat, **{a: d}), i + 1, ind + '  ') + f'{ind}· '
            rest = self.cases(n, S, dict(opt, **{a: [x for x in opt[a] if outs.index(x) > outs.index(d)]}), ins, outs, val, sz, pat, i, ind + '  ')
            return s + rest.lstrip(' ')
        return self.cases(n, S, opt, ins, outs, val, sz, pat, i + 1, ind)
    def leaf(self, n, S, ins, outs, val, sz, pat, ind):
        regs, args, cv = self.canon(S, pat)
        P = {p[0]: p for p in S.params}
        s = ''
        for d in outs:
            cl = ([d] if P[d][4] == 'io' else []) + [a for a in pat if pat[a] == d]
            for x in cl[1:]:
                t = P[x][2]
                if t.dims: s += f'{ind}obtain rfl := {pure.leantype(t).split()[0]}.list_inj (h_{val[cl[0]]}.inj h_{val[x]} rfl)\n'
                else: s += f'{ind}obtain rfl := List.singleton_inj.mp (h_{val[cl[0]]}.inj h_{val[x]} rfl)\n'
        def sep(a, d):
            """Apart a d"""
            if a in ins: return f's_{val[a]}_{val[d]}'
            if d in ins: return f's_{val[d]}_{val[a]}.symm'
            return f's_{val[a]}_{val[d]}' if outs.index(a) < outs.index(d) else f's_{val[d]}_{val[a]}.symm'
        R = '(R.nil _)'
        for k in range(len(regs) - 1, -1, -1):
            a, w, c = regs[k]
            ap = '.nil'
            for k2 in range(len(regs) - 1, k, -1):
                d, w2, _ = regs[k2]
                if w: ap = f'(.cons {sep(a, d)} {ap})'
                elif w2: ap = f'(.cons {sep(a, d)} {ap})'
                else: ap = f'(.skip {ap})'
            if not w: R = f'({R}.addR h_{val[a]}.has {ap})'
            else:
                cl = ([a] if P[a][4] == 'io' else []) + [x for x in pat if pat[x] == a]
                R = f'({R}.addW {"h_" + val[cl[0]] if cl else "r_" + val[a]}.has r_{val[a]} {ap})'
        er = '.nil'
        for x in reversed(args): er = f'(.p rfl {er})' if x.startswith('.p') else f'({x.split()[0]} {er})'
        seen, us = set(), ''
        for pn, ln, t, arr, role in S.params:
            if cv[pn] and cv[pn] not in seen: seen.add(cv[pn]); us += ' _'
        v = f'(DT.val_map_eq ({n}_dt_val{" _" * len(S.ins)}) rfl)' if n in self.M.dt else '(DT.val_done _)'
        return s + f'{ind}exact transferL {R} {er} ({n}_run{self.pname(pat)}{us}) {v} rfl rfl\n'
    def props(self):
        k = [0, 0]
        for path, names in self.byfile.items():
            mod = self.gen.modname(path)
            a55 = [n for n in names if any(self.options(n, Spec(self.M, n)).values())]
            head = '\nset_option linter.unusedVariables false\nset_option linter.unusedSectionVars false\n\nnamespace Cglm\nopen CMem\n\n' + VARS + '\n'
            if a55:
                s = f'/- Generated by tools/memgen.py; do not edit by hand. -/\nimport Verif.Mem.{mod}Run\n\n/-!\n# C55: destination may alias an argument ({self.gen.rel(path)})\n\nEach input is either the destination itself or does not overlap it; the result is the value-level function of\nwhat the inputs held before the call, and nothing outside the destination changes.\n-/\n' + head
                s += '\n'.join(self.prop(n, True) for n in a55) + '\nend Cglm\n'
                put(f'Props/C55{mod}.lean', quote(s))
            s = f'/- Generated by tools/memgen.py; do not edit by hand. -/\nimport Verif.{"Props.C55" + mod if a55 else f"Mem.{mod}Run"}\n\n/-!\n# C56: memory safety and framing ({self.gen.rel(path)})\n\nCalled with initialised inputs and a writable destination that does not overlap them, the function is defined,\nreturns the value-level result and changes no memory but its destination.\n-/\n' + head
            s += '\n'.join(self.prop(n, False) for n in names) + '\nend Cglm\n'
            put(f'Props/C56{mod}.lean', quote(s))
            k[0] += len(a55); k[1] += len(names)
        print(k[0], 'C55 and', k[1], 'C56 theorems')

def probe():
    """find the alias patterns under which the value-level result is not reproduced; rewrites mem_unsafe.tsv"""
    import subprocess
    while True:
        E = Emit(); E.fns(); E.runs()
        names = {}
        for n in E.M.order:
            S, pats = E.patterns(n)
            for pat in pats: names[f'Cglm.{n}_run{E.pname(pat)}'] = (n, pat)
        mods = [f'Verif.Mem.{E.gen.modname(p)}Run' for p in E.byfile]
        r = subprocess.run(['lake', 'build'] + mods, cwd=OUT + '..', capture_output=True, text=True)
        out = r.stdout + r.stderr
        bad = [names[x] for x in dict.fromkeys(re.findall(r"\(kernel\) declaration type mismatch, '([\w.]+)'", out))]
        other = [l for l in out.split('\n') if l.startswith('error:') and 'type mismatch' not in l and 'Lean exited' not in l and 'build failed' not in l]
        new = set()
        for n, pat in bad:
            if not pat: print('fails without aliasing:', n)
            if len(pat) == 1: new |= {(n, a, o) for a, o in pat.items()}
        for n, pat in bad:
            if len(pat) > 1 and not any((n, a, o) in new for a, o in pat.items()): print('fails only in combination:', n, pat)
        for l in other: print(l)
        print(len(new), 'new unsafe patterns', sorted(new))
        if not new: return
        E.unsafe |= new
        with open(UNSAFE, 'w') as f:
            f.write('# function, input, output: the function does not compute its value-level result when input == output\n')
            for x in sorted(E.unsafe): f.write('\t'.join(x) + '\n')

if __name__ == '__main__':
    types()
    if '--probe' in sys.argv: probe()
    E = Emit()
    E.fns()
    E.runs()
    E.props()
