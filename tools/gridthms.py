#!/usr/bin/env python3
"""Write lean/Verif/Props/C76*.lean: small integers and fixed-point numbers are computed without rounding."""
import os,sys
S='S'
cs={2:'xy',3:'xyz',4:'xyzw'}
rows=[]   # name, args (name, type, exponent, bound), result type, exponent, bound, extra facts
B='i j'
for d in (2,3,4):
    V=f'V{d}'; M=f'M{d}'
    for f in ('add','sub'):
        rows.append((f'vec{d}_{f}',[('a',V,'i','K'),('b',V,'i','L')],V,'i','K + L'))
        rows.append((f'vec{d}_{f}s',[('v',V,'i','K'),('s',S,'i','L')],V,'i','K + L'))
    rows.append((f'vec{d}_mul',[('a',V,'i','K'),('b',V,'j','L')],V,'i + j','K * L'))
    rows.append((f'vec{d}_scale',[('v',V,'i','K'),('s',S,'j','L')],V,'i + j','K * L'))
    rows.append((f'vec{d}_dot',[('a',V,'i','K'),('b',V,'j','L')],S,'i + j',f'{d} * (K * L)'))
    rows.append((f'vec{d}_norm2',[('v',V,'i','K')],S,'i + i',f'{d} * (K * K)'))
    for f in ('muladd','mulsub'):
        rows.append((f'vec{d}_{f}',[('a',V,'i','K'),('b',V,'j','L'),('c',V,'(i + j)','M')],V,'i + j','K * L + M'))
        rows.append((f'vec{d}_{f}s',[('a',V,'i','K'),('s',S,'j','L'),('c',V,'(i + j)','M')],V,'i + j','K * L + M'))
    for f in ('addadd','subadd','addsub','subsub'):
        rows.append((f'vec{d}_{f}',[('a',V,'i','K'),('b',V,'i','L'),('c',V,'i','M')],V,'i','K + L + M'))
    if d<4: rows.append((f'vec{d}_center',[('a',V,'i','K'),('b',V,'i','L')],V,'i - 1','K + L'))
    s='L + K' if d==2 else 'K + L'
    rows.append((f'vec{d}_distance2',[('a',V,'i','K'),('b',V,'i','L')],S,'i + i',f'{d} * (({s}) * ({s}))',f'Nat.le_mul_self ({s})'))
    if d>2: rows.append((f'vec{d}_hadd',[('v',V,'i','K')],S,'i',f'{d} * K'))
rows+=[('vec2_cross',[('a','V2','i','K'),('b','V2','j','L')],S,'i + j','2 * (K * L)'),
 ('vec3_cross',[('a','V3','i','K'),('b','V3','j','L')],'V3','i + j','2 * (K * L)'),
 ('vec2_complex_mul',[('a','V2','i','K'),('b','V2','j','L')],'V2','i + j','2 * (K * L)'),
 ('quat_mul',[('p','V4','i','K'),('q','V4','j','L')],'V4','i + j','4 * (K * L)'),
 ('quat_dot',[('p','V4','i','K'),('q','V4','j','L')],S,'i + j','4 * (K * L)'),
 ('aabb_center',[('box','M2x3','i','K')],'V3','i - 1','2 * K'),('aabb2d_center',[('box','M2','i','K')],'V2','i - 1','2 * K')]
mat=[]
for d in (2,3,4):
    V=f'V{d}'; M=f'M{d}'
    mat.append((f'mat{d}_mulv',[('m',M,'i','K'),('v',V,'j','L')],V,'i + j',f'{d} * (K * L)'))
    mat.append((f'mat{d}_mul',[('a',M,'i','K'),('b',M,'j','L')],M,'i + j',f'{d} * (K * L)'))
    mat.append((f'mat{d}_scale',[('m',M,'i','K'),('s',S,'j','L')],M,'i + j','K * L'))
    mat.append((f'mat{d}_trace',[('m',M,'i','K')],S,'i',f'{d} * K'))
    k={2:161,3:123,4:101}[d]
    mat.append((f'mat{d}_rmc',[('r',V,'i',str(k)),('m',M,'j',str(k)),('c',V,'k',str(k))],S,'i + j + k',f'{d*d} * {k} ^ 3'))
mat+=[('mat2_det',[('m','M2','i','K')],S,'i + i','2 * (K * K)'),('mat3_det',[('m','M3','i','140')],S,'i + i + i','6 * 140 ^ 3'),('mat4_det',[('m','M4','i','28')],S,'i + i + i + i','24 * 28 ^ 4')]
for a,b in ((2,3),(2,4),(3,2),(3,4),(4,2),(4,3)):
    mat.append((f'mat{a}x{b}_mulv',[('m',f'M{a}x{b}','i','K'),('v',f'V{a}','j','L')],f'V{b}','i + j',f'{a} * (K * L)'))
    mat.append((f'mat{a}x{b}_mul',[('a',f'M{a}x{b}','i','K'),('b',f'M{b}x{a}','j','L')],f'M{b}','i + j',f'{a} * (K * L)'))
mat+=[('mat4_mulv3',[('m','M4','i','K'),('v','V3','j','L'),('last',S,'j','L')],'V3','i + j','4 * (K * L)'),
 ('mul',[('a','M4','i','K'),('b','M4','j','L')],'M4','i + j','4 * (K * L)'),
 ('mul_rot',[('a','M4','0','K'),('b','M4','0','L')],'M4','0','3 * (K * L) + K'),
 ('translate',[('m','M4','0','K'),('v','V3','0','L')],'M4','0','3 * (K * L) + K'),
 ('translate_to',[('m','M4','0','K'),('v','V3','0','L')],'M4','0','3 * (K * L) + K'),
 ('translate2d',[('m','M3','0','K'),('v','V2','0','L')],'M3','0','2 * (K * L) + K'),
 ('scale_to',[('m','M4','0','K'),('v','V3','0','L')],'M4','0','K * L + K')]
NC={'V2':2,'V3':3,'V4':4,'M2':2,'M3':3,'M4':4,'M2x3':2,'M2x4':2,'M3x2':3,'M3x4':3,'M4x2':4,'M4x3':4}
COL={'M2':'V2','M3':'V3','M4':'V4','M2x3':'V3','M2x4':'V4','M3x2':'V2','M3x4':'V4','M4x2':'V2','M4x3':'V3'}
def pat(t,x):
    if t[0]=='V': return '⟨'+', '.join([x]*NC[t])+'⟩'
    return '⟨'+', '.join([pat(COL[t],x)]*NC[t])+'⟩'
def thm(r,ns=None,cls='C76'):
    n,args,res,e,K,*facts=r
    exps=[v for v in 'ijk' if any(v in a[2].split() or v in a[2].strip('()').split() for a in args)]
    bs=[v for v in 'KLM' if any(v in a[3].split() for a in args)]
    imp=(' {'+' '.join(exps)+' : ℤ}' if exps else '')+(' {'+' '.join(bs)+' : ℕ}' if bs else '')
    sig=' '.join(f'({x} : {"F32" if t==S else t+" F32"})' for x,t,_,_ in args)
    on=' '.join(f'(h{x} : {x}.On {ex} {k})' for x,t,ex,k in args)
    hyps=[]
    if bs: hyps.append(f'(h : {K} ≤ 2 ^ 24)')
    if exps: hyps+= [f'(lo : -149 ≤ {e})',f'(hi : {e} ≤ 103)']
    if e.endswith('- 1'): hyps[-1]=f'(hi : {e[:-4]} ≤ 103)'
    if n.endswith('_rmc'): hyps+= ['(lo\' : -149 ≤ j + k)','(hi\' : j + k ≤ 103)']
    if n=='mat3_det': hyps+= ['(lo\' : -149 ≤ i + i)','(hi\' : i + i ≤ 103)']
    if n=='mat4_det': hyps+= ['(lo\' : -149 ≤ i + i + i)','(hi\' : i + i + i ≤ 103)','(lo\'\' : -149 ≤ i + i)','(hi\'\' : i + i ≤ 103)']
    f=f'{ns+"." if ns else ""}glm_{n}'
    lhs=' '.join([f]+[x for x,*_ in args])
    rhs=' '.join([('Cglm.' if ns else '')+f'glm_{n}']+[(f'(toReal {x})' if t==S else f'({x}.map toReal)') for x,t,_,_ in args])
    nm=f'{cls}_{ns+"_" if ns else ""}{n}'
    st=f'theorem {nm}{imp} {sig}\n    {on}\n    {" ".join(hyps)} :\n    ({lhs}).Exact ({rhs}) ({e}) ({K}) := by\n'
    st=st.replace('    \n','')
    maps=sorted({t for _,t,_,_ in args if t!=S}|{COL[t] for _,t,_,_ in args if t in COL})
    ex=[t for t in (res,COL.get(res)) if t and t!=S]
    ons=[t for t in maps]
    pf='  simp only [cglm, '+('Nat.reduceMod, Nat.reduceDiv, Nat.reduceAdd, ' if ns else '')+', '.join([m+'.map' for m in maps]+[m+'.Exact' for m in ex])+']\n'
    vs=[(x,t) for x,t,_,_ in args if t!=S]
    if vs: pf+='  simp only ['+', '.join(m+'.On' for m in ons)+'] at '+' '.join('h'+x for x,_ in vs)+'\n'
    for x,t in vs: pf+=f'  obtain {pat(t,"_")} := h{x}\n'
    if ns and 'K * L' in K: facts=['Nat.mul_comm K L']+facts
    for q in facts: pf+=f'  have := {q}\n'
    if res==S: pf+='  grid\n'
    else: pf+='  refine '+pat(res,'?_')+' <;> grid\n'
    return st+pf
DOC='''/-!
# C76: exact results on small integers and fixed-point numbers%s

`f.On e K` says: the binary32 number `f` is finite and equal to `n * 2^e` for an integer `n` with `|n| ≤ K`; with `e = 0`
these are the integers up to `K`.  `f.Exact x e K` says: `f` is finite, its value is exactly the real number `x`, and it
is again on the grid `2^e` within `K`.  In every theorem `x` is the same C function evaluated over ℝ on the values of
the arguments.  Written by `tools/gridthms.py`.
-/
'''
if __name__=='__main__':
    P=os.path.join(os.path.dirname(os.path.abspath(__file__)),'..','lean','Verif','Props')
    opts='set_option linter.unusedSectionVars false\nset_option linter.unusedSimpArgs false\n'
    for fn,R,t in (('C76',rows,': vectors'),('C76Mat',mat,': matrices')):
        with open(f'{P}/{fn}.lean','w') as o:
            o.write('import Verif.F32Simd\nimport Verif.Gen\n'+DOC%t+opts+'open Cglm F32\nnamespace Cglm\nvariable [Libm]\n\n')
            o.write('\n'.join(thm(r) for r in R)+'\nend Cglm\n')
    simd='vec4_dot vec4_norm2 vec4_distance2 vec4_hadd vec4_muladd vec4_muladds vec4_mulsub vec4_mulsubs mat2_mul mat3_mul mat4_mul mat4_mulv mat4_mulv3 mat4_det mat4_rmc quat_mul mul mul_rot translate'.split()
    byname={r[0]:r for r in rows+mat}
    import re,glob
    T=''.join(open(f).read() for f in sorted(glob.glob(f'{P}/C57*.lean')+glob.glob(f'{P}/C58*.lean')+glob.glob(f'{P}/C59*.lean')+glob.glob(f'{P}/C60*.lean')))
    for cfg in 'Sse Sse2 Sse3 Sse4 Avx Fma Neon64 Neon32 Wasm'.split():
        src=open(f'{P}/../Gen/Simd{cfg}.lean').read()
        R=[byname[n] for n in simd if f'def glm_{n} ' in src]; body=[]; cl=None
        for r in R:
            m=re.search(rf'theorem (C\d\d)_{cfg}_glm_{r[0]} ([^:]*: (?:V|M)\d α\).*?):=',T,re.S)
            t=thm(r,cfg)
            if m and f'{cfg}.glm_{r[0]} ' in m[2] and f'= Cglm.glm_{r[0]} ' in m[2]:
                cl=m[1]; hs=re.findall(r"\((h\w*|lo'*|hi'*) :",t)
                t=t[:t.index(':= by\n')]+f':= by\n  rw [{m[1]}_{cfg}_glm_{r[0]}]\n  exact C76_{r[0]} '+' '.join(x for x,*_ in r[1])+' '+' '.join(hs)+'\n'
            if cfg in('Avx','Fma') and r[0]=='mul': t=t.replace('Cglm.glm_mul','Cglm.glm_mat4_mul')
            body.append(t)
        files=[f for f in sorted(glob.glob(f'{P}/C5[789]*.lean')+glob.glob(f'{P}/C60*.lean')) if re.search(rf'theorem C\d\d_{cfg}_glm_',open(f).read())]
        with open(f'{P}/C76{cfg}.lean','w') as o:
            o.write(f'import Verif.F32Simd\nimport Verif.Props.C76\nimport Verif.Props.C76Mat\n'+''.join(f'import Verif.Props.{os.path.basename(f)[:-5]}\n' for f in files)+DOC%f': {cfg} configuration'+opts+'open Cglm F32\nnamespace Cglm\nvariable [Libm]\n\n')
            o.write('\n'.join(body)+'\nend Cglm\n')
