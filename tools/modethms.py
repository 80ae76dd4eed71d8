#!/usr/bin/env python3
"""Write lean/Verif/Props/C97*.lean: error bounds, exact results and enclosures in every rounding mode (Modes.lean)."""
from errthms import rows, P, S
from assocthms import SKIP, GSKIP, V, app, types, pat
import gridthms, re
MINUS=re.compile(r'.*(sub|mulsubs|cross|quat_mul|complex_mul|mat2_det|2_cross|subadd|subsub|addsub|conj).*')
def runs(n,args,res,re_=True):
    s=app(n,args,'.inp'); q='' if res==S else res+'.'
    if not re_: return f'(z : {"ℝ" if res==S else res+" ℝ"}) (r : {q or "Modes."}Runs M f ({s}) z)'
    return f'(t : {"X" if res==S else res+" X"}) (z : {"ℝ" if res==S else res+" ℝ"})\n    (h : {q}Reassoc ({s}) t) (r : {q or "Modes."}Runs M f t z)'
def sigs(args): return ' '.join(f'({x} : {"F32" if t==S else t+" F32"})' for x,t in args)
def rs_(res): return [t for t in (res,V.get(res)) if t and t!=S]
def split(res,names,tac):
    if res==S: return f'  {tac}\n'
    return ''.join(f'  obtain {pat(res,"_")} := {x}\n' for x in names)+f'  refine {pat(res,"?_")} <;> {tac}\n'
def err(r):
    n,args,res,k,B=r
    k=k if re.search(r'(muladds?|mulsubs?|addadd|subadd|addsub|subsub|trace|scale_to)$',n) else 2*k-1
    st=('Within z' if res==S else 'z.WithinW')+f' ({app(n,args,"toReal")}) (Modes.unit {k})\n      ({B or app(n,args,"mag")}) (1 / 2 ^ 122)'
    ms=types(args,res); rs=rs_(res)
    pf='  simp only [cglm, '+', '.join([m+'.map' for m in ms]+[m+'.Reassoc' for m in rs])+'] at h\n'
    if rs: pf+='  simp only ['+', '.join(m+'.Runs' for m in rs)+'] at r\n'
    pf+='  simp only [cglm, '+', '.join([m+'.map' for m in ms]+[m+'.WithinW' for m in rs])+']\n'
    return f'theorem C97_{n} (M : Mode) (f : Bool) {sigs(args)}\n    {runs(n,args,res)} :\n    {st} := by\n{pf}{split(res,["h","r"],f"errm {k}")}'
def exact(r):
    n,args,res,e,K,*facts=r
    if GSKIP.match(n): return None
    exps=[v for v in 'ijk' if any(v in a[2].strip('()').split() for a in args)]
    bs=[v for v in 'KLM' if any(v in a[3].split() for a in args)]
    N={'K':'K','L':'L','M':'N'}
    imp=(' {'+' '.join(exps)+' : ℤ}' if exps else '')+(' {'+' '.join(N[b] for b in bs)+' : ℕ}' if bs else '')
    ar=[(x,t) for x,t,_,_ in args]
    on=' '.join(f'(h{x} : {x}.On {ex} {k.replace("M","N")})' for x,t,ex,k in args)
    hyps=[f'(hK : {K.replace("M","N")} ≤ 2 ^ 24)'] if bs else []
    if exps: hyps+=[f'(lo : -126 ≤ {e})']
    st='z = '+app(n,ar,'toReal')
    ms=types(ar,res); rs=rs_(res)
    pf='  simp only [cglm, '+', '.join([m+'.map' for m in ms]+[m+'.Reassoc' for m in rs])+'] at h\n'
    if rs: pf+='  simp only ['+', '.join(m+'.Runs' for m in rs)+'] at r\n'
    vs=[(x,t) for x,t in ar if t!=S]
    am=sorted({t for _,t in vs}|{V[t] for _,t in vs if t in V})
    if vs: pf+='  simp only ['+', '.join([m+'.On' for m in am])+'] at '+' '.join('h'+x for x,_ in vs)+'\n'
    for x,t in vs: pf+=f'  obtain {pat(t,"_")} := h{x}\n'
    if res!=S: pf+=f'  obtain {pat(res,"_")} := h\n  obtain {pat(res,"_")} := r\n  simp only [cglm, '+', '.join(m+'.map' for m in ms)+']\n  '+('ext' if res[0]=='V' else 'apply %s.ext <;> ext'%res)+' <;> gridm\n'
    else: pf+='  simp only [cglm, '+', '.join(m+'.map' for m in ms)+']\n  gridm\n'
    return f'theorem C97_exact_{n} (M : Mode) (f : Bool){imp} {sigs(ar)}\n    {runs(n,ar,res)}\n    {on}\n    {" ".join(hyps)} :\n    {st} := by\n{pf}'.replace('    \n','').replace('\n     :',' :')
def enc(r):
    n,args,res,k,B=r
    if MINUS.match(n) or B: return None
    ms=types(args,res); rs=rs_(res); am=sorted({t for _,t in args if t!=S}|{V[t] for _,t in args if t in V})
    nn=' '.join(f'(h{x} : 0 ≤ {x}.toReal)' if t==S else f'(h{x} : {x}.NoNeg)' for x,t in args)
    ex=app(n,args,'toReal')
    pre='  simp only [cglm, '+', '.join([m+'.map' for m in ms]+[m+'.Runs' for m in rs])+'] at r\n'
    pre+='  simp only [cglm, '+', '.join([m+'.map' for m in ms]+[m+'.LeR' for m in rs])+']\n'
    vs=[(x,t) for x,t in args if t!=S]
    if vs: pre+='  simp only ['+', '.join(m+'.NoNeg' for m in am)+'] at '+' '.join('h'+x for x,_ in vs)+'\n'
    pre+=''.join(f'  obtain {pat(t,"_")} := h{x}\n' for x,t in vs)
    nonneg='(by repeat\' first | assumption | constructor)'
    def th(nm,mode,f,hm,st,tac): return f'theorem C97_{nm}_{n} {mode}{sigs(args)}\n    {runs(n,args,res,False).replace(" M f "," "+f+" ")} {hm}{nn} :\n    {st} := by\n{pre}{split(res,["r"],tac)}'
    lo='z ≤ '+ex if res==S else f'z.LeR ({ex})'; up=ex+' ≤ z' if res==S else f'({ex}).LeR z'
    return th('lower','(M : Mode) (f : Bool) ','M f','(hm : M = .down ∨ M = .zero) ',lo,f'exact Modes.Runs.le hm (by assumption) rfl {nonneg} rfl')+'\n'+th('upper','','.up false','',up,f'exact Modes.Runs.ge (by assumption) rfl {nonneg} rfl')
HEAD='''import Verif.Modes
import Verif.Gen
/-!
# C97: %s

%s
Written by `tools/modethms.py`.
-/
set_option linter.unusedSimpArgs false
set_option linter.unusedSectionVars false
open Cglm F32 Wide
namespace Cglm
variable [Libm]

'''
EDOC='''`M` is the rounding mode, `f` says whether subnormal results are flushed to zero; `t` is the expression in the code or a reordering of it
(C96), `z` a result of running it (`Modes.lean`).  The magnitudes are those of C64; `Modes.unit k` is `k·(2⁻²³ + 2⁻⁴³)` for `k` operations.'''
GDOC='''Small integers and fixed-point numbers (`On` is that of C76) on a grid of normal numbers are computed exactly in every mode.'''
NDOC='''For data without negative numbers, rounding down (or towards zero) gives a lower bound of the exact result, with or without flushing, and
rounding up without flushing an upper bound.'''
if __name__=='__main__':
    w=lambda f,t,d,l: open(P+'/'+f,'w').write(HEAD%(t,d)+'\n'.join(x for x in l if x)+'\nend Cglm\n')
    rs=[r for r in rows if r[0] not in SKIP]
    w('C97.lean','error bounds in every rounding mode',EDOC,[err(r) for r in rs])
    w('C97Exact.lean','exact results in every rounding mode',GDOC,[exact(r) for r in gridthms.rows+gridthms.mat])
    w('C97Enc.lean','lower and upper bounds by directed rounding',NDOC,[enc(r) for r in rs])
