#!/usr/bin/env python3
"""Write lean/Verif/Props/C64*.lean: rounding-error bounds and absence of overflow in binary32."""
import os
# one row per function: name, args [(name,type)], result type, roundings, underflow bound text
S='S'
rows=[]
cs={2:'xy',3:'xyz',4:'xyzw'}
def vec(d,f): return '⟨'+', '.join(f(c) for c in cs[d])+'⟩'
for d in (2,3,4):
    V=f'V{d}'
    rows+= [(f'vec{d}_dot',[('a',V),('b',V)],S,d,None),(f'vec{d}_norm2',[('v',V)],S,d,None),
            (f'vec{d}_muladd',[('a',V),('b',V),('c',V)],V,2,None),(f'vec{d}_muladds',[('a',V),('s',S),('c',V)],V,2,None),
            (f'vec{d}_mulsub',[('a',V),('b',V),('c',V)],V,2,vec(d,lambda c:f'c.{c}.mag + a.{c}.mag * b.{c}.mag')),
            (f'vec{d}_mulsubs',[('a',V),('s',S),('c',V)],V,2,vec(d,lambda c:f'c.{c}.mag + a.{c}.mag * s.mag')),
            (f'vec{d}_addadd',[('a',V),('b',V),('c',V)],V,2,None),(f'vec{d}_subadd',[('a',V),('b',V),('c',V)],V,2,vec(d,lambda c:f'c.{c}.mag + (a.{c}.mag + b.{c}.mag)')),
            (f'vec{d}_addsub',[('a',V),('b',V),('c',V)],V,2,vec(d,lambda c:f'c.{c}.mag + (a.{c}.mag + b.{c}.mag)')),
            (f'vec{d}_subsub',[('a',V),('b',V),('c',V)],V,2,vec(d,lambda c:f'c.{c}.mag + (a.{c}.mag + b.{c}.mag)')),
            (f'vec{d}_distance2',[('a',V),('b',V)],S,d+2,' + '.join(f'(a.{c}.mag + b.{c}.mag) ^ 2' for c in cs[d])),
            (f'mat{d}_mulv',[('m',f'M{d}'),('v',V)],V,d,None),(f'mat{d}_mul',[('a',f'M{d}'),('b',f'M{d}')],f'M{d}',d,None),
            (f'mat{d}_trace',[('m',f'M{d}')],S,d-1,None),
            ]
cr=lambda p,q:f'a.{p}.mag * b.{q}.mag + a.{q}.mag * b.{p}.mag'
qm=lambda l:' + '.join(f'p.{x[0]}.mag * q.{x[1]}.mag' for x in l.split())
rows+=[('vec2_cross',[('a','V2'),('b','V2')],S,2,cr('x','y')),('vec3_cross',[('a','V3'),('b','V3')],'V3',2,'⟨'+', '.join([cr('y','z'),cr('z','x'),cr('x','y')])+'⟩'),
 ('vec2_complex_mul',[('a','V2'),('b','V2')],'V2',2,'⟨a.x.mag * b.x.mag + a.y.mag * b.y.mag, a.x.mag * b.y.mag + a.y.mag * b.x.mag⟩'),
 ('quat_mul',[('p','V4'),('q','V4')],'V4',4,'⟨'+', '.join(map(qm,['wx xw yz zy','wy xz yw zx','wz xy yx zw','ww xx yy zz']))+'⟩'),('quat_dot',[('p','V4'),('q','V4')],S,4,None),
 ('mat2_det',[('m','M2')],S,2,'m.c0.x.mag * m.c1.y.mag + m.c1.x.mag * m.c0.y.mag'),
 ('mat2x3_mulv',[('m','M2x3'),('v','V2')],'V3',2,None),('mat2x4_mulv',[('m','M2x4'),('v','V2')],'V4',2,None),
 ('mat3x2_mulv',[('m','M3x2'),('v','V3')],'V2',3,None),('mat3x4_mulv',[('m','M3x4'),('v','V3')],'V4',3,None),
 ('mat4x2_mulv',[('m','M4x2'),('v','V4')],'V2',4,None),('mat4x3_mulv',[('m','M4x3'),('v','V4')],'V3',4,None),
 ('mat2x3_mul',[('a','M2x3'),('b','M3x2')],'M3',2,None),('mat2x4_mul',[('a','M2x4'),('b','M4x2')],'M4',2,None),
 ('mat3x2_mul',[('a','M3x2'),('b','M2x3')],'M2',3,None),('mat3x4_mul',[('a','M3x4'),('b','M4x3')],'M4',3,None),
 ('mat4x2_mul',[('a','M4x2'),('b','M2x4')],'M2',4,None),('mat4x3_mul',[('a','M4x3'),('b','M3x4')],'M3',4,None),
 ('mat4_mulv3',[('m','M4'),('v','V3'),('w',S)],'V3',4,None),
 ('mul',[('a','M4'),('b','M4')],'M4',4,None),('mul_rot',[('a','M4'),('b','M4')],'M4',3,None),
 ('translate',[('m','M4'),('v','V3')],'M4',4,None),('scale_to',[('m','M4'),('v','V3')],'M4',1,None),
 ('lerp',[('a',S),('b',S),('t',S)],S,3,'a.mag + t.mag * (b.mag + a.mag)'),('luminance',[('v','V3')],S,4,None),
]
rows += [(f'vec{d}_lerp',[('a',f'V{d}'),('b',f'V{d}'),('t',S)],f'V{d}',3,vec(d,lambda c:f'a.{c}.mag + t.mag * (b.{c}.mag + a.{c}.mag)')) for d in (3,4)]
def gen(rows,err):
    out=[]
    for n,args,res,k,B in rows:
        sig=' '.join(f'({x} : {"F32" if t==S else t+" F32"})' for x,t in args)
        def app(f): return ' '.join([f'glm_{n}']+[(f'({f} {x})' if t==S else f'({x}.map {f})') for x,t in args])
        lhs=' '.join([f'glm_{n}']+[x for x,_ in args])
        e=err(n)
        Bt=B or app('mag')
        if res==S: st=f'Err ({lhs}) ({app("toReal")}) (γ {k})\n      ({Bt}) ({e})'
        else: st=f'({lhs}).Err ({app("toReal")}) (γ {k})\n      ({Bt}) ({e})'
        ty={t for _,t in args}|{res}
        V={'M2':'V2','M3':'V3','M4':'V4','M2x3':'V3','M2x4':'V4','M3x2':'V2','M3x4':'V4','M4x2':'V2','M4x3':'V3'}
        maps=sorted({t for _,t in args if t!=S}|{V[t] for _,t in args if t in V})
        errs=sorted({t for t in [res,V.get(res)] if t and t!=S})
        nv={'V2':2,'V3':3,'V4':4,'M2':2,'M3':3,'M4':4}
        pr='  simp only [cglm, '+', '.join([m+'.map' for m in maps]+[m+'.Err' for m in errs])+']\n'
        if res==S: pr+=f'  err {k}\n'
        elif res[0]=='V': pr+='  refine ⟨'+', '.join(['?_']*nv[res])+f'⟩ <;> err {k}\n'
        else:
            r='⟨'+', '.join(['?_']*nv[res])+'⟩'
            pr+='  refine ⟨'+', '.join([r]*nv[res])+f'⟩ <;> err {k}\n'
        out.append(f'theorem C64_{n} {sig} :\n    {st} := by\n{pr}')
    return out
V={'M2':'V2','M3':'V3','M4':'V4','M2x3':'V3','M2x4':'V4','M3x2':'V2','M3x4':'V4','M4x2':'V2','M4x3':'V3'}
def below(x,t):
    n=int(t[1]); r=V.get(t)
    if t[0]=='V': return '⟨'+', '.join(f'{x}{i}' for i in range(n))+'⟩'
    return '⟨'+', '.join(below(f'{x}{i}',r) for i in range(n))+'⟩'
def fin(rows):
    out=[]
    for n,args,res,k,B in rows:
        sig=' '.join(f'({x} : {"F32" if t==S else t+" F32"})' for x,t in args)
        hyp=' '.join(f'(h{x} : Fine {x} (2 ^ 60))' if t==S else f'(h{x} : {x}.Below (2 ^ 60))' for x,t in args)
        lhs=' '.join([f'glm_{n}']+[x for x,_ in args])
        st=f'({lhs}).isFin = true' if res==S else f'({lhs}).IsFin'
        pr=''.join(f'  obtain {below("h"+x,t)} := h{x}\n' for x,t in args if t!=S)
        errs=sorted({t for t in [res,V.get(res)] if t and t!=S})
        pr+='  simp only ['+', '.join(['cglm']+[m+'.IsFin' for m in errs])+']\n'
        tac='(apply Fine.isFin; fine <;> norm_num [ur, ηr])'
        if res==S: pr+=f'  {tac}\n'
        else: 
            r='⟨'+', '.join(['?_']*int(res[1]))+'⟩'
            if res[0]=='M': r='⟨'+', '.join([r]*int(res[1]))+'⟩'
            pr+=f'  refine {r} <;> {tac}\n'
        out.append(f'theorem C64_{n}_finite {sig}\n    {hyp} :\n    {st} := by\n{pr}')
    return out

HEAD='''import Verif.F32Map
import Verif.Gen
/-!
# C64: %s

%s
-/
open Cglm F32
namespace Cglm
variable [Libm]

'''
DOC="""`Err f x c B e` says: if the computed binary32 number `f` is finite, it is within `c·B + e` of the
real number `x`.  In every theorem `x` is the same C function evaluated over ℝ on the values of the
arguments, `γ n = n·u/(1 − n·u)` with `u = 2⁻²⁴`, and `B` is the same expression with every operand
replaced by its magnitude and every subtraction by an addition.  `e` bounds what underflow of the
products can add.  Arguments are arbitrary, including NaN and infinities.
Written by `tools/errthms.py`."""
FDOC="""If every argument component is finite and of magnitude at most 2⁶⁰, nothing overflows: the result
has neither NaN nor infinite components, so the bounds of `Props/C64*.lean` apply.
Written by `tools/errthms.py`."""
def E(n): return '1 / 2 ^ 146'
ex='''
omit [Libm] in
/-- the hypotheses are met by a non-trivial vector, and the bound is then unconditional -/
example : (⟨.ofRat false 1, .ofRat true (-3), .ofRat false (5/2)⟩ : V3 F32).Below (2 ^ 60) := by
  refine ⟨?_, ?_, ?_⟩ <;> exact ⟨by decide +kernel, by simp [toReal]; norm_num⟩
'''
P=os.path.join(os.path.dirname(os.path.abspath(__file__)),'..','lean','Verif','Props')
ismat=lambda r:any(t[0]=='M' for _,t in r[1]) or r[2][0]=='M'
if __name__=='__main__':
    a=[r for r in rows if not ismat(r)]; b=[r for r in rows if ismat(r)]
    open(P+'/C64.lean','w').write(HEAD%('rounding error of vector functions',DOC)+'\n'.join(gen(a,E))+'\nend Cglm\n')
    open(P+'/C64Mat.lean','w').write(HEAD%('rounding error of matrix functions',DOC)+'\n'.join(gen(b,E))+'\nend Cglm\n')
    open(P+'/C64Fin.lean','w').write(HEAD%('no overflow for arguments up to 2⁶⁰',FDOC)+'\n'.join(fin(rows))+'\nend Cglm\n')
