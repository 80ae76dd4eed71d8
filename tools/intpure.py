"""Value-semantics back end for the integer vectors: 32-bit `int` arithmetic is checked, so a function returns an
`Option` that is `none` when the C code overflows, divides by zero, or converts out of range."""
from pure import Pure, Skip, leantype, pr
from cfront import T

OPS = {'+': 'I32.add', '-': 'I32.sub', '*': 'I32.mul', '/': 'I32.div', '%': 'I32.mod'}
CMP = {'<': 'I32.lt', '<=': 'I32.le', '==': 'I32.eq', '!=': 'I32.ne', '>': 'I32.gt', '>=': 'I32.ge'}

class IntPure(Pure):
    def lt(self, ty): return leantype(ty).replace('Int', 'Int32')
    def rettype(self, rts):
        r = ' × '.join(rts)
        return f'Option ({r}) := do'
    def retyped(self, t):
        return 'pure ' + pr(t, 1024)
    usesf, hidden = False, set()
    def translate(self, fn):
        self.usesf = False
        r = super().translate(fn)
        if self.usesf and 'α' not in r.split(':=')[0]: self.hidden.add(fn.name)
        return r
    def wrapcall(self, t):
        if t[1] in self.hidden:      # the callee computes in float without a float in its signature
            self.usesf = True
            t = ('app', t[1] + ' (α := α)', t[2])
        return ('bind', t)
    def checked(self, t):
        nm = self.fresh('t')
        self.lets.append((nm, ('bind', t)))
        return ('v', nm), 'i'
    def pure_part(self, f):
        n = len(self.lets); r = f()
        if len(self.lets) != n: raise Skip('checked operation under a condition')
        return r
    def coerce(self, tv, ty):
        t, c = tv
        b = ty.base if isinstance(ty, T) else ty
        if b in ('float', 'double') and c == 'i' and t[0] != 'int': self.usesf = True; return ('app', 'ofI32 (α := α)', [t])
        if b in ('int',) and c == 'b': raise Skip('bool to int')
        if b == 'bool' and c == 'i' and t[0] != 'int': return ('app', 'I32.ne', [t, ('int', 0)])
        return super().coerce(tv, ty)
    def rvt(self, e, env):
        k = e[0]
        if k == 'cast' and e[1].base == 'int' and not e[1].ptr:
            t, c = self.rvt(e[2], env)
            if c == 'f': return self.checked(('app', 'toI32', [t]))
            return t, c
        if k == 'un' and e[1] == '-':
            t, c = self.rvt(e[2], env)
            if c == 'i' and t[0] != 'int': return self.checked(('app', 'I32.neg', [t]))
            return super().rvt(e, env)
        if k == 'tern':
            n = len(self.lets)
            r = super().rvt(e, env)
            if len(self.lets) != n: raise Skip('checked operation under a condition')
            return r
        return super().rvt(e, env)
    def binop(self, e, env):
        op = e[1]
        if op in ('&&', '||'):
            a = self.cond(e[2], env)
            b = self.pure_part(lambda: self.cond(e[3], env))
            return ('bin', op, a, b), 'b'
        a, b = self.rvt(e[2], env), self.rvt(e[3], env)
        if a[1] == 'i' and b[1] == 'i' and not (a[0][0] == 'int' and b[0][0] == 'int'):
            if op in OPS: return self.checked(('app', OPS[op], [a[0], b[0]]))
            if op in CMP: return ('app', CMP[op], [a[0], b[0]]), 'b'
            if op == '>>' and b[0][0] == 'int' and 0 <= b[0][1] < 32: return ('app', 'I32.sar', [a[0], b[0]]), 'i'
            raise Skip(f'operator {op}')
        if a[1] == 'i' and b[1] == 'i': return super().binop(e, env)
        n = len(self.lets)
        raise Skip('mixed arithmetic')
    def call(self, e, env, stmt=False):
        if e[1] == 'abs':
            t, c = self.rvt(e[2][0], env)
            return self.checked(('app', 'I32.abs', [t]))[0]
        return super().call(e, env, stmt)
    def rettag(self, n):
        if n == 'abs': return 'i'
        return super().rettag(n)
