#!/usr/bin/env python3
"""Write lean/Verif/Props/C72*.lean: definedness of the real arithmetic of every function.

tools/defd_hyp.txt lists the functions that need preconditions, with the preconditions."""
import os,re,glob
ROOT=os.path.join(os.path.dirname(os.path.abspath(__file__)),'..'); L=ROOT+'/lean/'
HYP=ROOT+'/tools/defd_hyp.txt'
def isbase(b): return not re.match(r'(Src|Struct|Cfg|ISrc|IStruct|Simd|I[A-Z])',b)
def defs(path):
    t=open(path).read()
    return [(m[1],m[2],m[3].strip()) for m in re.finditer(r'^def (\S+)((?: \([^)]*\))*) : (.*?) :=',t,re.M)]
def args(s): return [('dst' if m[1]=='to' else m[1],m[2]) for m in re.finditer(r'\((\w+) : ([^)]*)\)',s)]
def lift(t,e):
    t=t.strip()
    if t=='α': return f'ret ({e})' if ' ' in e else f'ret {e}'
    if t.endswith(' α'): return f'({e}).map ret' if ' ' in e else f'{e}.map ret'
    return e
def paren(x): return f'({x})' if ' ' in x else x
def real(t): return t.replace('α','ℝ')
def dfd(t): return re.sub(r'(V\d+|M\dx\d|M\d) α',r'\1 (Dfd o)',t).replace('α','Dfd o')
def statement(n,ars,res):
    sig=' '.join(f'({a} : {real(t)})' for a,t in ars)
    lf=(lambda x:x.replace('ret','(ret (o := o))').replace('(ret (o := o)) ','ret (o := o) ')) if not re.search('α',res) else (lambda x:x)
    lhs=' '.join([n]+[paren(lf(lift(t,a))) for a,t in ars]); rr=' '.join([n]+[a for a,_ in ars])
    parts=[p.strip() for p in res.split('×')]
    if res=='Option (α)': rhs=f'({rr}).map ret'
    elif len(parts)==1: rhs=lift(res,rr)
    else:
        k=len(parts); out=[]
        for i,p in enumerate(parts):
            e=f'({rr})'+'.2'*i+('.1' if i<k-1 else '')
            out.append(lift(p,e) if p!='Bool' else e)
        rhs='('+', '.join(re.sub(r'^\(\((.*)\)((?:\.\d)+)\)\.map',r'(\1)\2.map',x) for x in out)+')'
    return sig,f'({lhs} : {dfd(res)}) = {rhs}'
def expand(s):
    m=re.search(r'\{([^}]*)\}',s)
    return [y for x in m[1].split(',') for y in expand(s[:m.start()]+x+s[m.end():])] if m else [s]
def hyps():
    d={}; cur=[]
    for l in open(HYP).read().split('\n'):
        if l.startswith('#') or not l.strip(): continue
        if l.startswith(' '):
            for c in cur: d[c][1].append(l)
        else:
            a,b=l.split('|'); cur=[y for x in re.split(r',\s*(?![^{]*\})',a.strip()) for y in expand(x)]
            for c in cur: d[c]=([h.strip() for h in b.split(';') if h.strip()],[])
    return d
def theorem(n,a,res,H):
    ars=args(a); sig,st=statement(n,ars,res)
    short=n[4:] if n.startswith('glm_') else n
    hs,pre=H.get(n,([],[]))
    hsig=''.join(f'\n    (h{i+1} : {h})' for i,h in enumerate(hs))
    pf=[l.replace('FN',n) for l in pre]
    if pf and pf[-1].strip()=='done': pf.pop()
    else: pf.append(f'  dfd_step {n}')
    return f'@[dfd] theorem C72_{short} {sig}{hsig}{" " if sig else ""}:\n    {st} := by\n'+'\n'.join(pf)+'\n'
def name(m): return 'C72'+m
def module(m):
    H=hyps()
    path=f'{L}Verif/Gen/{m}.lean'
    imp=[x for x in re.findall(r'^import Verif\.Gen\.(\w+)',open(path).read(),re.M)]
    out=[theorem(n,a,r,H) for n,a,r in defs(path) if not re.search(r'Int\b|ℕ|Nat',a+r)]
    s=f'''import Verif.DefdTac
import Verif.Gen.{m}
'''+''.join(f'import Verif.Props.{name(i)}\n' for i in imp)+f'''
/-! # C72: defined arithmetic, {m}

Generated by tools/defdthms.py.  On defined arguments the function evaluated over `Dfd o`, where division by zero and
the like are visible, gives the (defined) result of the function over ℝ.  Where arguments are excluded, the
hypotheses say which. -/

namespace Cglm
open Dfd
variable {{o : Orc}}


'''+'\n'.join(out)+'\nend Cglm\n'
    return s
def mods(): return sorted(os.path.basename(p)[:-5] for p in glob.glob(L+'Verif/Gen/*.lean') if isbase(os.path.basename(p)[:-5]))
def write():
    for m in mods():
        put(f'{L}Verif/Props/{name(m)}.lean',module(m))
def put(p,s):
    if not os.path.exists(p) or open(p).read()!=s: open(p,'w').write(s)
BODY={}
for m in mods():
    t=open(f'{L}Verif/Gen/{m}.lean').read()
    for x in re.finditer(r'^def (\S+)(.*?)(?=^(?:/--|end|@\[)|\Z)',t,re.M|re.S): BODY[x[1]]=x[2]
HH=hyps()
def clo(n):
    seen=[]; st=[n]
    while st:
        x=st.pop()
        if x in seen: continue
        seen.append(x); st+= [y for y in re.findall(r'\bglm_\w+',BODY[x]) if y in HH]
    return ', '.join(seen)
SKIP={'glm_frustum_corners_at'}
def custom(n,i):
    b=None
    if n.startswith('glm_perspective_resize'):
        b='''by_contra hn
      obtain ⟨c1, c2⟩ := not_or.1 hn
      rw [not_not] at c2
      have c : ¬ feq proj.c0.x (lit 0 : ℝ) = true := by
        simpa only [feq, lit_real, decide_eq_true_eq, Rat.cast_zero] using c1
      dfd_prop hr [CLO, c]'''
    if n.startswith('glm_ortho_default_s') and i==1:
        b='''by_contra hn
      have c : ¬ fle (lit 1 : ℝ) aspect = true := by
        simp only [fle, lit_real, decide_eq_true_eq]
        push_cast
        linarith
      dfd_prop hr [CLO, c]'''
    if n=='glm_ease_circ_in':
        b='''by_contra hn
      have c : lit 1 - t * t < 0 := by
        simp only [lit_real]
        push_cast
        nlinarith
      dfd_prop hr [CLO]'''
    if n=='glm_ease_circ_out':
        b='''by_contra hn
      have c : (lit 2 - t) * t < 0 := by
        simp only [lit_real]
        push_cast
        nlinarith
      dfd_prop hr [CLO]'''
    if n=='glm_ease_circ_inout' and i==1:
        b='''by_contra hn
      have c : flt t (lit 0.5 : ℝ) = true := by
        simp only [flt, lit_real, decide_eq_true_eq]
        norm_num
        linarith
      have c' : lit 1 - lit 4 * (t * t) < 0 := by
        simp only [lit_real]
        push_cast
        nlinarith
      dfd_prop hr [CLO, c]'''
    if n=='glm_ease_circ_inout' and i==2:
        b='''by_contra hn
      have c : ¬ flt t (lit 0.5 : ℝ) = true := by
        simp only [flt, lit_real, decide_eq_true_eq]
        norm_num
        linarith
      have c' : -(lit 2 * t - lit 3) * (lit 2 * t - lit 1) < 0 := by
        simp only [lit_real]
        push_cast
        nlinarith
      dfd_prop hr [CLO, c]'''
    if n=='glm_unproject' and i==4: b='dfd_bad hr [glm_unproject, glm_unprojecti, glm_unprojecti_no]'
    if n=='glm_vec2_complex_div':
        b='''rintro ⟨c1, c2⟩
      have c : b.x * b.x + b.y * b.y = 0 := by rw [c1, c2]; ring
      dfd_prop hr [CLO]'''
    if n=='glm_euler_angles' and i==1:
        b='''intro b1 b2
      have c1 : flt m.c2.x (lit 1 : ℝ) = true := by
        simpa only [flt, lit_real, decide_eq_true_eq, Rat.cast_one] using b2
      have c2 : flt (-lit 1 : ℝ) m.c2.x = true := by
        simpa only [flt, lit_real, decide_eq_true_eq, Rat.cast_one] using b1
      have c3 := b1.le
      have c4 := b2.le
      constructor
      · rintro ⟨d1, d2⟩
        have d : -m.c2.y = 0 ∧ m.c2.z = 0 := ⟨neg_eq_zero.2 d1, d2⟩
        dfd_prop hr [CLO, c1, c2]
      · rintro ⟨d1, d2⟩
        have d : -m.c1.x = 0 ∧ m.c0.x = 0 := ⟨neg_eq_zero.2 d1, d2⟩
        dfd_prop hr [CLO, c1, c2]'''
    if n=='glm_euler_angles' and i==2:
        b='''rintro b1 d
      by_cases c1 : flt m.c2.x (lit 1 : ℝ) = true
      · have c2 : ¬ flt (-lit 1 : ℝ) m.c2.x = true := by
          simp only [flt, lit_real, decide_eq_true_eq, Rat.cast_one] at c1 ⊢
          rcases b1 with b1 | b1 <;> linarith
        dfd_prop hr [CLO, c1, c2]
      · dfd_prop hr [CLO, c1]'''
    if n=='glm_ray_sphere':
        b='''rintro ⟨d1, d2⟩
      have c1 : ¬ flt (s.w * s.w - glm_vec3_norm2 (glm_vec3_mulsubs dir (glm_vec3_dot dir (glm_vec3_sub ⟨s.x, s.y, s.z⟩
          origin)) (glm_vec3_sub ⟨s.x, s.y, s.z⟩ origin))) (lit 0 : ℝ) = true := by
        rw [d2]
        simp [flt, lit_real]
      have e := nonneg_of_not_flt c1
      have c : (if fle (lit 0 : ℝ) (glm_vec3_dot dir (glm_vec3_sub ⟨s.x, s.y, s.z⟩ origin)) = true then
          glm_vec3_dot dir (glm_vec3_sub ⟨s.x, s.y, s.z⟩ origin) + sqrtf (s.w * s.w - glm_vec3_norm2 (glm_vec3_mulsubs
            dir (glm_vec3_dot dir (glm_vec3_sub ⟨s.x, s.y, s.z⟩ origin)) (glm_vec3_sub ⟨s.x, s.y, s.z⟩ origin)))
          else glm_vec3_dot dir (glm_vec3_sub ⟨s.x, s.y, s.z⟩ origin) - sqrtf (s.w * s.w - glm_vec3_norm2
            (glm_vec3_mulsubs dir (glm_vec3_dot dir (glm_vec3_sub ⟨s.x, s.y, s.z⟩ origin))
            (glm_vec3_sub ⟨s.x, s.y, s.z⟩ origin)))) = 0 := by
        rw [d2, d1]
        have : sqrtf (0 : ℝ) = 0 := Real.sqrt_zero
        rw [this]
        simp
      dfd_prop hr [CLO, c1]
      split_ifs at hr <;> dfd_prop hr [CLO]'''
    return b and b.replace('CLO',clo(n))
def iff(n,a,res,H,orc='false'):
    hs,pre=H[n]
    if 'smoothstep' in n: orc='true'
    ars=args(a); sig,st=statement(n,ars,res)
    lhs=st.split(' = ')[0]
    parts=[p.strip() for p in res.split('×')]
    if len(parts)==1: rhs=lift(res,'r')
    else:
        k=len(parts); out=[]
        for i,p in enumerate(parts):
            e='r'+'.2'*i+('.1' if i<k-1 else '')
            out.append(lift(p,e) if p!='Bool' else e)
        rhs='('+', '.join(out)+')'
    short=n[4:]
    s=f'theorem C72_{short}_iff {sig} :\n    (∀ o : Orc, ∃ r : {real(res)}, {lhs} = {rhs}) ↔\n      '+' ∧\n      '.join(f'({h})' if re.search('[→∨]',h) else h for h in hs)+' := by\n'
    s+=f'  constructor\n  · intro h\n    obtain ⟨r, hr⟩ := h (fun _ _ => {orc})\n'
    pl=[]
    if 'ease' in n: pre=[]
    if pre and pre[-1].strip()!='done':
        for l in pre:
            if l.startswith('  have'): pl.append([l])
            else: pl[-1].append(l)
    def last(b): return max([int(x) for x in re.findall(r'\bh(\d)\b','\n'.join(b))]+[0])
    for b in pl:
        if last(b)==0: s+=''.join('  '+l+'\n' for l in b)
    for i,h in enumerate(hs):
        c=custom(n,i+1)
        s+=f'    have h{i+1} : {h} := by'+(('\n      '+c+'\n') if c else f' dfd_bad hr [{clo(n)}]\n')
        for b in pl:
            if last(b)==i+1 and i+1<len(hs): s+=''.join('  '+l+'\n' for l in b)
    nm=[f'h{i+1}' for i in range(len(hs))]
    b='⟨'+', '.join(nm)+'⟩' if len(nm)>1 else nm[0]
    s+=f'    exact {b}\n  · rintro {b} o\n    exact ⟨_, C72_{short} {" ".join(a for a,_ in ars)} {" ".join(nm)}⟩\n'
    return s
GROUPS=[('IffOrtho','The orthographic projections.',r'glm_ortho'),('IffPersp','The perspective projections.',r'glm_(persp|frustum(_[lr]h.*)?$)'),
  ('Iff','Everything else.',r'')]
def iffs():
    H=hyps(); done=set()
    for g,txt,rx in GROUPS:
        imp=[]; out=[]
        for m in mods():
            k=len(out)
            for n,a,r in defs(f'{L}Verif/Gen/{m}.lean'):
                if n in H and H[n][0] and n not in SKIP and n not in done and re.match(rx,n): out.append(iff(n,a,r,H)); done.add(n)
            if len(out)>k: imp.append(m)
        put(f'{L}Verif/Props/C72{g}.lean','import Verif.DefdBad\n'+''.join(f'import Verif.Props.C72{m}\n' for m in imp)+f'''
/-! # C72: exact preconditions

Generated by tools/defdthms.py.  {txt}  The result is defined, whatever comparisons with undefined values give, exactly when
the listed conditions on the arguments hold. -/

namespace Cglm
open Dfd

'''+'\n'.join(out)+'\nend Cglm\n')
if __name__=='__main__':
    write(); iffs()
