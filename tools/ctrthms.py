#!/usr/bin/env python3
"""Write lean/Verif/Props/C79*.lean: the error bounds of C64 for every contraction a compiler may choose."""
import os
from errthms import rows, ismat, P, S
V={'M2':'V2','M3':'V3','M4':'V4','M2x3':'V3','M2x4':'V4','M3x2':'V2','M3x4':'V4','M4x2':'V2','M4x3':'V3'}
nv={'V2':2,'V3':3,'V4':4,'M2':2,'M3':3,'M4':4}
def gen(rows):
    out=[]
    for n,args,res,k,B in rows:
        sig=' '.join(f'({x} : {"Named" if t==S else t+" Named"})' for x,t in args)
        def app(f): return ' '.join([f'glm_{n}']+[(f'({f} {x})' if t==S else f'({x}.map {f})') for x,t in args])
        lhs=app('(Named.run π)')
        Bt=B or app('Named.mag')
        x=app('Named.real')
        if res==S: st=f'Err ({lhs}).val ({x}) (γ {k})\n      ({Bt}) (1 / 2 ^ 146)'
        else: st=f'(({lhs}).map Ctr.val).Err ({x}) (γ {k})\n      ({Bt}) (1 / 2 ^ 146)'
        maps=sorted({t for _,t in args if t!=S}|{V[t] for _,t in args if t in V}|{t for t in [res,V.get(res)] if t and t!=S})
        errs=sorted({t for t in [res,V.get(res)] if t and t!=S})
        pr='  simp only [cglm, '+', '.join([m+'.map' for m in maps]+[m+'.Err' for m in errs])+']\n'
        if res==S: pr+=f'  errc {k}\n'
        else:
            r='⟨'+', '.join(['?_']*nv[res])+'⟩'
            if res[0]=='M': r='⟨'+', '.join([r]*nv[res])+'⟩'
            pr+=f'  refine {r} <;> errc {k}\n'
        out.append(f'theorem C79_{n} (π : Policy) {sig} :\n    {st} := by\n{pr}')
    return out
HEAD='''import Verif.Contract
import Verif.Gen
/-!
# C79: %s under contraction

`π` is an arbitrary policy of a compiler for fusing products and sums (`Contract.lean`).  `Err f x c B e` says: if the computed
number `f` is finite, it is within `c·B + e` of `x`; the bounds are those of C64.  Arguments are arbitrary stored numbers with
names.  Written by `tools/ctrthms.py`.
-/
open Cglm F32
namespace Cglm
variable [Libm]

'''
import gridthms
def grid(r):
    """the theorem of C76 with named arguments"""
    t=gridthms.thm(r,cls='C79_grid')
    n,args=r[0],r[1]
    st,pf=t.split(' := by\n',1)
    head,concl=st.rsplit(' :\n',1)
    i=head.index('(')                     # explicit arguments follow the implicit ones
    m=head.index('{') if '{' in head and head.index('{')<i else i
    head=head[:m]+'(π : Policy) '+head[m:]
    head=head.replace(' F32)',' Named)').replace(': F32)',': Named)')
    for x,t,_,_ in args:
        head=head.replace(f'(h{x} : {x}.On',f'(h{x} : {x}.val.On' if t==S else f'(h{x} : ({x}.map Named.val).On')
    lhs=' '.join([f'glm_{n}']+[(f'({x}.run π)' if t==S else f'({x}.map (Named.run π))') for x,t,_,_ in args])
    a,b=concl.strip().split(').Exact (',1)
    new=f'({lhs}).val' if r[2]==S else f'(({lhs}).map Ctr.val)'
    b=b.replace('map toReal','map Named.real')
    for x,t,_,_ in args:
        if t==S: b=b.replace(f'(toReal {x})',f'{x}.real')
    concl=f'    {new}.Exact ({b}'
    if r[2]!=S:
        maps=[m for m in (r[2],gridthms.COL.get(r[2])) if m]
        for m in maps:
            if f'{m}.map' not in pf: pf=pf.replace('simp only [cglm, ',f'simp only [cglm, {m}.map, ',1)
    ms=sorted({t for _,t,_,_ in args if t!=S}|{gridthms.COL[t] for _,t,_,_ in args if t in gridthms.COL})
    if ms: pf=pf.replace('.On] at ','.On, '+', '.join(m+'.map' for m in ms)+'] at ')
    pf=pf.replace('<;> grid\n','<;> gridc\n').replace('  grid\n','  gridc\n')
    return head+' :\n'+concl+' := by\n'+pf
GHEAD="""import Verif.Contract
import Verif.Gen
/-!
# C79: exact results on small integers and fixed-point numbers under contraction

`π` is an arbitrary policy of a compiler for fusing products and sums (`Contract.lean`).  `On` and `Exact` are those of C76: on
small integers and fixed-point numbers every contraction gives the exact result.  Written by `tools/ctrthms.py`.
-/
set_option linter.unusedSectionVars false
set_option linter.unusedSimpArgs false
open Cglm F32
namespace Cglm
variable [Libm]

"""
import re, defdthms as D
def same():
    """functions of tools/ctr_same.txt: nothing to contract, the same result under every policy"""
    want=set(open(os.path.join(os.path.dirname(os.path.abspath(__file__)),'ctr_same.txt')).read().split()); out=[]
    for m in D.mods():
        for n,a,res in D.defs(f'{D.L}Verif/Gen/{m}.lean'):
            if n not in want: continue
            want.discard(n); ars=D.args(a); res=res.strip()
            sig=' '.join(f'({x} : {"Named" if t.strip()=="α" else t.replace(" α"," Named")})' for x,t in ars)
            def ap(f): return ' '.join([n]+[x if 'α' not in t else (f'({f} {x})' if t.strip()=='α' else f'({x}.map {f})') for x,t in ars])
            l=ap('(Named.run π)'); r=ap('Named.val')
            st=f'({l}).val = {r}' if res=='α' else f'({l}).map Ctr.val = {r}' if res.endswith(' α') else f'{l} = {r}'
            ts={t.strip().split()[0] for _,t in ars+[('',res)] if t.strip()[0] in 'VM'}
            ts|={V[q] for q in ts if q in V}
            ai=[f'apply_ite ({q}.map Ctr.val)' for q in sorted({res.split()[0]}&set(list(V)+['V2','V3','V4']))]
            pf=f'  simp only [{", ".join(["cglm"]+ai)}]\n'+(f'  try simp only [{", ".join(q+".map" for q in sorted(ts))}]\n' if ts else '')+'  try plain\n  try rfl\n'
            out.append(f'theorem C79_same_{n.removeprefix("glm_")} (π : Policy) {sig} :\n    {st} := by\n{pf}')
    assert not want, want
    return out
SHEAD="""import Verif.Contract
import Verif.Gen
/-!
# C79: results that no contraction changes

In these functions no product is an operand of a sum, so the result is the same, bit for bit and including the outcome of
comparisons, for every policy `π`.  Written by `tools/ctrthms.py` for the functions listed in `tools/ctr_same.txt`.
-/
set_option linter.unusedSectionVars false
set_option linter.unusedSimpArgs false
set_option linter.unusedTactic false
set_option linter.unreachableTactic false
open Cglm F32
namespace Cglm
variable [Libm]

"""
if __name__=='__main__':
    a=[r for r in rows if not ismat(r)]; b=[r for r in rows if ismat(r)]
    open(P+'/C79.lean','w').write(HEAD%'vector functions'+'\n'.join(gen(a))+'\nend Cglm\n')
    open(P+'/C79Mat.lean','w').write(HEAD%'matrix functions'+'\n'.join(gen(b))+'\nend Cglm\n')
    open(P+'/C79Grid.lean','w').write(GHEAD+'\n'.join(grid(r) for r in gridthms.rows+gridthms.mat)+'\nend Cglm\n')
    open(P+'/C79Same.lean','w').write(SHEAD+'\n'.join(same())+'\nend Cglm\n')
