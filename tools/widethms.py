#!/usr/bin/env python3
"""Write lean/Verif/Props/C95*.lean: error bounds and exact results for every evaluation method of Wide.lean."""
import os
from errthms import rows, ismat, P, S
import gridthms
V=gridthms.COL; NC=gridthms.NC
SKIP={'luminance','lerp','vec3_lerp','vec4_lerp','vec2_distance2','vec3_distance2','vec4_distance2'}   # products of sums, decimal constants
def app(n,args,f): return ' '.join([f'glm_{n}']+[(f'({f} {x})' if t==S else f'({x}.map {f})') for x,t in args])
def types(args,res): return sorted({t for _,t in args if t!=S}|{V[t] for _,t in args if t in V}|{t for t in [res,V.get(res)] if t and t!=S})
def err(r):
    n,args,res,k,B=r
    sig=' '.join(f'({x} : {"Named" if t==S else t+" Named"})' for x,t in args)
    lhs=app(n,args,'(Named.wide E)'); x=app(n,args,'Named.real'); Bt=B or app(n,args,'Named.mag')
    st=f'Within ({lhs}).val ({x})' if res==S else f'(({lhs}).map Wide.val).WithinW ({x})'
    ws=sorted({t for t in [res,V.get(res)] if t and t!=S})
    pr='  simp only [cglm, '+', '.join([m+'.map' for m in types(args,res)]+[m+'.WithinW' for m in ws])+']\n'
    pr+=f'  errw {k}\n' if res==S else f'  refine {gridthms.pat(res,"?_")} <;> errw {k}\n'
    return f'theorem C95_{n} (E : Method) {sig} :\n    {st} (unit {k})\n      ({Bt}) (1 / 2 ^ 140) := by\n{pr}'
def exact(r):
    n,args,res,e,K,*facts=r
    exps=[v for v in 'ijk' if any(v in a[2].strip('()').split() for a in args)]
    bs=[v for v in 'KLM' if any(v in a[3].split() for a in args)]
    imp=(' {'+' '.join(exps)+' : ℤ}' if exps else '')+(' {'+' '.join(bs)+' : ℕ}' if bs else '')
    ar=[(x,t) for x,t,_,_ in args]
    sig=' '.join(f'({x} : {"Named" if t==S else t+" Named"})' for x,t in ar)
    on=' '.join(f'(h{x} : {x}.val.On {ex} {k})' if t==S else f'(h{x} : ({x}.map Named.val).On {ex} {k})' for x,t,ex,k in args)
    hyps=[]
    if bs: hyps.append(f'(h : {K} ≤ 2 ^ 24)')
    if exps: hyps.append(f'(lo : -149 ≤ {e})')
    if n.endswith('_rmc'): hyps.append("(lo' : -149 ≤ j + k)")
    if n=='mat3_det': hyps.append("(lo' : -149 ≤ i + i)")
    if n=='mat4_det': hyps.append("(lo' : -149 ≤ i + i)")
    lhs=app(n,ar,'(Named.wide E)')
    st=(f'({lhs}).val' if res==S else f'({lhs}).map Wide.val')+' = '+app(n,ar,'Named.real')
    inj=[t+'.mk.injEq' for t in (res,V.get(res)) if t and t!=S]
    ms=types(ar,res)
    pf='  simp only [cglm, '+', '.join([m+'.map' for m in ms]+inj)+']\n'
    vs=[(x,t) for x,t in ar if t!=S]
    am=sorted({t for _,t in vs}|{V[t] for _,t in vs if t in V})
    if vs: pf+='  simp only ['+', '.join([m+'.On' for m in am]+[m+'.map' for m in am])+'] at '+' '.join('h'+x for x,_ in vs)+'\n'
    for x,t in vs: pf+=f'  obtain {gridthms.pat(t,"_")} := h{x}\n'
    for q in facts: pf+=f'  have := {q}\n'
    pf+='  gridw\n' if res==S else f'  refine {gridthms.pat(res,"?_")} <;> gridw\n'
    return f'theorem C95_exact_{n} (E : Method){imp} {sig}\n    {on}\n    {" ".join(hyps)} :\n    {st} := by\n{pf}'.replace('    \n','').replace('\n     :',' :')
HEAD='''import Verif.Wide
import Verif.Gen
/-!
# C95: %s

%s
Written by `tools/widethms.py`.
-/
set_option linter.unusedSimpArgs false
open Cglm F32 Wide
namespace Cglm

'''
EDOC='''`E` is an arbitrary evaluation method (`Wide.lean`): every operation is rounded to nearest in a wide format, then in binary32, or only
one of both, or not at all.  `Within f x c B e` (`WithinW` for vectors and matrices) says that `f` is within `c·B + e` of `x`; `unit k` is `k·(2⁻²⁴ + 2⁻⁴³)`.  The real
number `x` and the magnitude `B` are those of C64.'''
GDOC='''On small integers and fixed-point numbers (`On` is that of C76) every evaluation method gives the exact result, the value of the same
C function over ℝ.'''
EX='''
/-- the hypotheses are met by a non-trivial vector -/
example : ((⟨⟨.ofRat false 3, 0⟩, ⟨.ofRat false (-5), 1⟩⟩ : V2 Named).map Named.val).On 0 5 := by
  simp only [V2.On, V2.map]
  exact ⟨⟨by decide +kernel, 3, by norm_num, by decide +kernel⟩, ⟨by decide +kernel, -5, by norm_num, by decide +kernel⟩⟩
'''
if __name__=='__main__':
    a=[err(r) for r in rows if r[0] not in SKIP and not ismat(r)]; b=[err(r) for r in rows if ismat(r)]
    open(P+'/C95.lean','w').write(HEAD%('error bounds with excess precision',EDOC)+'\n'.join(a+b)+'\nend Cglm\n')
    open(P+'/C95Exact.lean','w').write(HEAD%('exact results with excess precision',GDOC)+'\n'.join(exact(r) for r in gridthms.rows+gridthms.mat)+EX+'\nend Cglm\n')
