#!/usr/bin/env python3
"""Write lean/Verif/Props/C96.lean and C96Exact.lean: error bounds and exact results for every reassociation (Assoc.lean)."""
from errthms import rows, P, S
import gridthms, re
V=gridthms.COL; NC=gridthms.NC
SKIP=set('luminance lerp vec3_lerp vec4_lerp vec2_distance2 vec3_distance2 vec4_distance2'.split())   # not sums of products
GSKIP=re.compile(r'.*_(distance2|center|rmc|normalize)$|translate(_to|2d)?$|mat[34]_det$')
def app(n,args,f): return ' '.join([f'glm_{n}']+[(f'({f} {x})' if t==S else f'({x}.map {f})') for x,t in args])
def types(args,res): return sorted({t for _,t in args if t!=S}|{V[t] for _,t in args if t in V}|{t for t in [res,V.get(res)] if t and t!=S})
def pat(t,p,k=[0]):
    if t==S: return p
    if t[0]=='V': return '⟨'+', '.join([p]*NC[t])+'⟩'
    return '⟨'+', '.join([pat(V[t],p)]*NC[t])+'⟩'
def head(n,args,res):
    s=app(n,args,'.inp')
    return f'(t : {"X" if res==S else res+" X"}) (h : {"Reassoc" if res==S else res+".Reassoc"} ({s}) t)'
def err(r):
    n,args,res,k,B=r
    k=k if re.search(r'(muladds?|mulsubs?|addadd|subadd|addsub|subsub|trace|scale_to)$',n) else 2*k-1
    sig=' '.join(f'({x} : {"F32" if t==S else t+" F32"})' for x,t in args)
    st=('t.run' if res==S else '(t.map X.run)')
    st=(f'Err t.run' if res==S else '(t.map X.run).Err')+f' ({app(n,args,"toReal")}) (γ {k})\n      ({B or app(n,args,"mag")}) (1 / 2 ^ 146)'
    ms=types(args,res); rs=[t for t in (res,V.get(res)) if t and t!=S]
    pf='  simp only [cglm, '+', '.join([m+'.map' for m in ms]+[m+'.Reassoc' for m in rs])+'] at h\n'
    pf+='  simp only [cglm, '+', '.join([m+'.map' for m in ms]+[m+'.Err' for m in rs])+']\n'
    if res!=S: pf+=f'  obtain {pat(res,"_")} := h\n  refine {pat(res,"?_")} <;> errx {k}\n'
    else: pf+=f'  errx {k}\n'
    return f'theorem C96_{n} {sig}\n    {head(n,args,res)} :\n    {st} := by\n{pf}'
def exact(r):
    n,args,res,e,K,*facts=r
    if GSKIP.match(n): return None
    exps=[v for v in 'ijk' if any(v in a[2].strip('()').split() for a in args)]
    bs=[v for v in 'KLM' if any(v in a[3].split() for a in args)]
    imp=(' {'+' '.join(exps)+' : ℤ}' if exps else '')+(' {'+' '.join(bs)+' : ℕ}' if bs else '')
    ar=[(x,t) for x,t,_,_ in args]
    sig=' '.join(f'({x} : {"F32" if t==S else t+" F32"})' for x,t in ar)
    on=' '.join(f'(h{x} : {x}.On {ex} {k})' for x,t,ex,k in args)
    hyps=[f'(hK : {K} ≤ 2 ^ 24)'] if bs else []
    if exps: hyps+=[f'(lo : -149 ≤ {e})',f'(hi : {e} ≤ 103)']
    st=('t.run' if res==S else '(t.map X.run)')+f'.Exact ({app(n,ar,"toReal")}) ({e}) ({K})'
    ms=types(ar,res); rs=[t for t in (res,V.get(res)) if t and t!=S]
    pf='  simp only [cglm, '+', '.join([m+'.map' for m in ms]+[m+'.Reassoc' for m in rs])+'] at h\n'
    pf+='  simp only [cglm, '+', '.join([m+'.map' for m in ms]+[m+'.Exact' for m in rs])+']\n'
    vs=[(x,t) for x,t in ar if t!=S]
    am=sorted({t for _,t in vs}|{V[t] for _,t in vs if t in V})
    if vs: pf+='  simp only ['+', '.join([m+'.On' for m in am])+'] at '+' '.join('h'+x for x,_ in vs)+'\n'
    for x,t in vs: pf+=f'  obtain {pat(t,"_")} := h{x}\n'
    if res!=S: pf+=f'  obtain {pat(res,"_")} := h\n  refine {pat(res,"?_")} <;> gridx\n'
    else: pf+='  gridx\n'
    return f'theorem C96_exact_{n}{imp} {sig}\n    {head(n,ar,res)}\n    {on}\n    {" ".join(hyps)} :\n    {st} := by\n{pf}'.replace('    \n','').replace('\n     :',' :')
HEAD='''import Verif.Assoc
import Verif.Gen
/-!
# C96: %s

%s
Written by `tools/assocthms.py`.
-/
set_option linter.unusedSimpArgs false
set_option linter.unusedSectionVars false
open Cglm F32
namespace Cglm
variable [Libm]

'''
EDOC='''`t` is anything a compiler may compute instead of the expression in the code after reordering sums and products (`Assoc.lean`).
`Err` and the magnitudes are those of C64; `γ` counts all operations instead of the longest path.'''
GDOC='''On small integers and fixed-point numbers (`On` and `Exact` are those of C76) the order makes no difference.'''
if __name__=='__main__':
    open(P+'/C96.lean','w').write(HEAD%('error bounds under reassociation',EDOC)+'\n'.join(err(r) for r in rows if r[0] not in SKIP)+'\nend Cglm\n')
    open(P+'/C96Exact.lean','w').write(HEAD%('exact results under reassociation',GDOC)+'\n'.join(x for x in (exact(r) for r in gridthms.rows+gridthms.mat) if x)+'\nend Cglm\n')
