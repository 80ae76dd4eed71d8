#!/usr/bin/env python3
"""Write lean/Verif/Types.lean: the type declarations of types.h and types-struct.h for every configuration."""
import os,re
ROOT=os.path.dirname(os.path.dirname(os.path.abspath(__file__)))
INC='/repo/include/cglm/'
H='''import Verif.Layout
/-! Generated by tools/layoutgen.py from include/cglm/types.h and include/cglm/types-struct.h.  Do not edit. -/

namespace Cglm.Layout

/-- the macros the declarations depend on -/
structure Config where
  /-- `CGLM_ALIGN(x)` is an alignment attribute; it is empty for old versions of Visual Studio (types.h:15-26) -/
  attr : Bool
  /-- `CGLM_ALL_UNALIGNED` (types.h:28-32) -/
  allUnaligned : Bool
  /-- `__AVX__` (types.h:34-38) -/
  avx : Bool
  /-- `CGLM_USE_ANONYMOUS_STRUCT` (types-struct.h:20-54) -/
  anon : Bool
deriving DecidableEq, Repr

namespace Config
variable (c : Config)
/-- where `CGLM_ALIGN` is empty, types.h also defines `CGLM_ALL_UNALIGNED` (types.h:18-19) -/
def Valid : Prop := c.attr = false → c.allUnaligned = true
instance : Decidable c.Valid := by unfold Valid; infer_instance
/-- `CGLM_ALIGN(x)`, types.h:20-25 -/
def al (a : Nat) (t : CTy) : CTy := if c.attr then .alignedTypedef a t else t
/-- `CGLM_ALIGN_IF(x)`, types.h:28-32 -/
def alIf (a : Nat) (t : CTy) : CTy := if c.allUnaligned then t else c.al a t
/-- `CGLM_ALIGN_MAT`, types.h:34-38 -/
def alMat (t : CTy) : CTy := c.al (if c.avx then 32 else 16) t
/-- `union CGLM_ALIGN(x) { … }` -/
def unionAl (a : Nat) (fs : Members) : CTy := if c.attr then .alignedUnion a fs else .union fs
/-- `union CGLM_ALIGN_IF(x) { … }` -/
def unionAlIf (a : Nat) (fs : Members) : CTy := if c.allUnaligned then .union fs else c.unionAl a fs
/-- `union CGLM_ALIGN_MAT { … }` -/
def unionAlMat (fs : Members) : CTy := c.unionAl (if c.avx then 32 else 16) fs
/-- members between `#if CGLM_USE_ANONYMOUS_STRUCT` and `#endif` -/
def ifAnon (a b : Members) : Members := if c.anon then a else b
end Config

open CTy Members
variable (c : Config)

'''
def lines(t,pos): return t.count('\n',0,pos)+1
def clean(s): return re.sub(r'/\*.*?\*/','',s,flags=re.S)
out=[H]; names=set()
def ref(n): return {'float':'.scalar .float','int':'.scalar .int'}.get(n) or f'({n} c)'
t=open(INC+'types.h').read()
for m in re.finditer(r'^typedef\s+(?:(CGLM_ALIGN_IF\((\d+)\)|CGLM_ALIGN_MAT)\s+)?(\w+)\s+(\w+)(?:\[(\d+)\])?;',t,re.M):
    al,a,base,n,d=m[1],m[2],m[3],m[4],m[5]
    b=ref(base)
    ty=f'.arr {d} ({b.strip("()")})' if d else b.strip('()')
    if al and al.startswith('CGLM_ALIGN_IF'): ty=f'c.alIf {a} ({ty})'
    elif al: ty=f'c.alMat ({ty})'
    out.append(f'/-- `{n}`: include/cglm/types.h:{lines(t,m.start())}. -/\n@[nolint unusedArguments]\ndef {n} : CTy := {ty}\n' if False else f'/-- `{n}`: include/cglm/types.h:{lines(t,m.start())}. -/\ndef {n} {"" if ref(base)[0]=="(" or al else "(_ : Config) "}: CTy := {ty}\n'); names.add(n)
s=open(INC+'types-struct.h').read()
for m in re.finditer(r'^typedef union (?:(CGLM_ALIGN_IF\((\d+)\)|CGLM_ALIGN_MAT) )?(\w+) \{(.*?)^\} (\w+);',s,re.M|re.S):
    al,a,n,body,n2=m[1],m[2],m[3],clean(m[4]),m[5]
    assert n==n2
    toks=re.findall(r'#if CGLM_USE_ANONYMOUS_STRUCT|#endif|\w+|[{};,\[\]]',body)
    i=0
    def members(stop):
        global i
        r=[]
        while toks[i:i+1] and toks[i] not in stop:
            k=toks[i]
            if k=='#if CGLM_USE_ANONYMOUS_STRUCT':
                i+=1; inner=members(('#endif',)); assert toks[i]=='#endif'; i+=1
                r.append(('if',inner)); continue
            if k=='struct':
                assert toks[i+1]=='{'; i+=2; inner=members(('}',)); assert toks[i]=='}' and toks[i+1]==';'; i+=2
                r.append(('m','',f'.struct ({emit(inner)})')); continue
            base=k; i+=1
            while True:
                f=toks[i]; i+=1; ty=ref(base)
                if toks[i]=='[': ty=f'.arr {toks[i+1]} {ty}'; i+=3
                r.append(('m',f,ty.strip('()') if ty[0]=='(' else ty))
                k=toks[i]; i+=1
                if k==';': break
                assert k==','
        return r
    def emit(ms):
        if not ms: return '.nil'
        h,*r=ms
        if h[0]=='if':
            return f'c.ifAnon ({emit(h[1]+r)}) ({emit(r)})'
        return f'.cons "{h[1]}" ({h[2]}) ({emit(r)})' if r else f'.cons "{h[1]}" ({h[2]}) .nil'
    ms=members(())
    assert i==len(toks),(n,toks[i:])
    e=emit(ms)
    if al and al.startswith('CGLM_ALIGN_IF'): ty=f'c.unionAlIf {a} ({e})'
    elif al: ty=f'c.unionAlMat ({e})'
    else: ty=f'.union ({e})'
    out.append(f'/-- `{n}`: include/cglm/types-struct.h:{lines(s,m.start())}-{lines(s,m.end())}. -/\ndef {n} : CTy :=\n  {ty}\n'); names.add(n)
out.append('end Cglm.Layout\n')
open(ROOT+'/lean/Verif/Types.lean','w').write('\n'.join(out))
print(len(names),sorted(names))

# ---- the theorems
M={'mat2':(2,2),'mat2x3':(2,3),'mat2x4':(2,4),'mat3':(3,3),'mat3x2':(3,2),'mat3x4':(3,4),'mat4':(4,4),'mat4x2':(4,2),'mat4x3':(4,3)}
VN={'vec2':(2,['xy','ri','uv','st']),'vec3':(3,['xyz','rgb']),'vec4':(4,['xyzw','rgba']),'versor':(4,['xyzw']),
    'ivec2':(2,['xy','ri','uv','st']),'ivec3':(3,['xyz','rgb']),'ivec4':(4,['xyzw','rgba'])}
o='''import Verif.Types
/-!
# C80: where the elements are in memory

For every configuration of the headers: array and structure types have the same size and alignment and no padding, and every way
to name an element (`raw`, `col`, `x`, `m12`, …) gives the same place, that of column-major storage.  Written by
`tools/layoutgen.py`.
-/
open Cglm.Layout
namespace Cglm.Layout

'''
CF='  rcases c with ⟨_ | _, _ | _, _ | _, _ | _⟩ <;> '
for n,(k,al) in VN.items():
    sc='.int' if n[0]=='i' else '.float'
    o+=f'''/-- `{n}` and `{n}s` -/
theorem C80_{n} (c : Config) :
    ({n} c).size = {4*k} ∧ ({n}s c).size = {4*k} ∧ ({n}s c).align = ({n} c).align ∧
    ∀ i < {k}, ({n} c).scalarAt [.index i] = some (4 * i, {sc}) ∧ ({n}s c).scalarAt [.field "raw", .index i] = some (4 * i, {sc}) := by
{CF}decide +kernel

/-- member names of `{n}s` -/
theorem C80_{n}s_names (c : Config) (h : c.anon = true) :
    '''+' ∧\n    '.join(f'({n}s c).scalarAt [.field "{x}"] = some ({4*i}, {sc})' for s in al for i,x in enumerate(s))
    if n=='versor': o+=' ∧\n    (versors c).part [.field "imag"] = some (0, vec3s c) ∧\n    (∀ i < 3, (versors c).scalarAt [.field "imag", .field "raw", .index i] = some (4 * i, .float)) ∧\n    (versors c).scalarAt [.field "real"] = some (12, .float)'
    pf=CF.replace('  rcases c with','  obtain')
    o+=f''' := by
  rcases c with ⟨_ | _, _ | _, _ | _, _ | _⟩ <;> first | (exact absurd h (by decide)) | '''+('exact ⟨by decide +kernel, by decide +kernel, by decide +kernel, by decide +kernel, rfl, by decide +kernel, by decide +kernel⟩' if n=='versor' else 'decide +kernel')+'\n\n'
for n,(C,R) in M.items():
    o+=f'''/-- `{n}` and `{n}s`: {C} columns of {R} -/
theorem C80_{n} (c : Config) :
    ({n} c).size = {4*C*R} ∧ ({n}s c).size = {4*C*R} ∧ ({n}s c).align = ({n} c).align ∧
    ∀ j < {C}, ∀ i < {R}, ({n} c).scalarAt [.index j, .index i] = some (4 * ({R} * j + i), .float) ∧
      ({n}s c).scalarAt [.field "raw", .index j, .index i] = some (4 * ({R} * j + i), .float) ∧
      ({n}s c).scalarAt [.field "col", .index j, .field "raw", .index i] = some (4 * ({R} * j + i), .float) := by
{CF}decide +kernel

/-- member names of `{n}s` -/
theorem C80_{n}s_names (c : Config) (h : c.anon = true) :
    '''+' ∧\n    '.join(f'({n}s c).scalarAt [.field "m{j}{i}"] = some ({4*(R*j+i)}, .float)' for j in range(C) for i in range(R))+''' := by
  rcases c with ⟨_ | _, _ | _, _ | _, _ | _⟩ <;> first | (exact absurd h (by decide)) | decide +kernel

'''
o+='end Cglm.Layout\n'
open(ROOT+'/lean/Verif/Props/C80.lean','w').write(o)
