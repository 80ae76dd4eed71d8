#!/usr/bin/env python3
"""Emit Props/C78Gen.lean: functions without branches, in mirrored scenes (C78)."""
import os
ROOT=os.path.dirname(os.path.dirname(os.path.abspath(__file__)))
# kinds: p point/direction, a axis, s scalar, c constant shared by both scenes, h homogeneous point, q quaternion,
#        r scale factors, 3 mat3, 4 mat4
TY={'p':'V3','a':'V3','s':None,'c':None,'h':'V4','q':'V4','r':'V3','3':'M3','4':'M4'}
REL={'p':'σ.Vec {0} {0}\'','a':'σ.Axis {0} {0}\'','s':'Mir false {0} {0}\'','h':'σ.Vec4 {0} {0}\'','q':'σ.Quat {0} {0}\'',
     '3':'σ.Mat3 {0} {0}\'','4':'σ.Mat4 {0} {0}\''}
OUT={'p':'σ.Vec','a':'σ.Axis','s':'Mir false','o':'Mir σ.odd','h':'σ.Vec4','q':'σ.Quat','3':'σ.Mat3','4':'σ.Mat4'}
PAT={'p':'⟨_, _, _⟩','a':'⟨_, _, _⟩','h':'⟨_, _, _, _⟩','q':'⟨_, _, _, _⟩','3':'⟨⟨_, _, _⟩, ⟨_, _, _⟩, ⟨_, _, _⟩⟩',
     '4':'⟨⟨_, _, _, _⟩, ⟨_, _, _, _⟩, ⟨_, _, _, _⟩, ⟨_, _, _, _⟩⟩'}
F=[('vec3_add','pp','p'),('vec3_sub','pp','p'),('vec3_scale','ps','p'),('vec3_negate','p','p'),('vec3_negate_to','p','p'),
('vec3_dot','pp','s'),('vec3_cross','pp','a'),('vec3_norm2','p','s'),('vec3_norm','p','s'),('vec3_distance2','pp','s'),
('vec3_distance','pp','s'),('vec3_lerp','pps','p'),('vec3_center','pp','p'),('vec3_muladds','psp','p'),('vec3_mulsubs','psp','p'),
('vec3_reflect','pp','p'),('vec3_divs','ps','p!s'),('vec3_norm_one','p','s'),

('mat3_mulv','3p','p'),('mat3_mul','33','3'),('mat3_transpose_to','3','3'),('mat3_scale','3s','3'),('mat3_trace','3','s'),
('mat3_det','3','s'),('mat3_rmc','p3p','s'),
('mat4_mulv','4h','h'),('mat4_mul','44','4'),('mat4_transpose_to','4','4'),('mat4_scale','4s','4'),('mat4_trace','4','s'),
('mat4_trace3','4','s'),('mat4_det','4','s'),('mat4_rmc','h4h','s'),('mat4_mulv3','4ps','p'),('mat4_pick3','4','3'),
('mat4_pick3t','4','3'),('mat4_ins3','34','4'),('mul','44','4'),('mul_rot','44','4'),('inv_tr','4','4'),
('translate','4p','4'),('translate_to','4p','4'),('translate_make','p','4'),('scale','4r','4'),('scale_to','4r','4'),
('scale_make','r','4'),('scale_uni','4s','4'),
('quat_mul','qq','q'),('quat_conjugate','q','q'),('quat_dot','qq','s'),('quat_norm','q','s'),('quat_add','qq','q'),('quat_sub','qq','q'),
('quat_lerp','qqs','q'),('quat_imag','q','a'),('quat_real','q','s'),('quat_imaglen','q','s'),
('ray_at','pps','p'),('sphere_transform','h4','h'),
('mat4_copy','4','4'),('mat3_copy','3','3'),('mat4_identity','','4'),('mat3_identity','','3'),('quat_identity','','q'),
]
def main():
    src=''
    for fn in os.listdir(ROOT+'/lean/Verif/Gen'):
        src+=open(ROOT+'/lean/Verif/Gen/'+fn).read()
    o=['import Verif.F32Mir','import Verif.Gen','/-!','# C78: mirrored scenes, functions without branches','',
     'Written by `tools/mirthms.py`.  A `σ : AxisMirror` says which coordinates change sign.  `σ.Vec v v\'` says that `v\'` is the mirrored',
     '`v`, up to the sign of zeros; likewise for axes, quaternions and matrices.','-/','open Cglm F32','namespace Cglm',
     'set_option linter.unusedSectionVars false','set_option linter.unusedSimpArgs false','set_option linter.unnecessarySimpa false','set_option linter.unusedVariables false','variable [Libm]','']
    for name,args,out in F:
        if f'\ndef glm_{name} ' not in src and f'\ndef glm_{name}\n' not in src:
            print('no',name); continue
        out=out.split('!')[0]
        vs=[];hs=[];pats=[];a1=[];a2=[]
        for i,k in enumerate(args):
            n='abdefg'[i]
            if k=='c': vs.append(f'({n} : F32)'); a1.append(n);a2.append(n); continue
            if k=='r':
                vs.append(f'({n} : V3 F32)'); a1.append(n);a2.append(n); continue
            t='F32' if TY[k] is None else TY[k]+' F32'
            vs.append(f"({n} {n}' : {t})"); a1.append(n);a2.append(n+"'")
            hs.append(f"(h{n} : {REL[k].format(n)})")
            if k!='s': pats.append(f'  obtain {PAT[k]} := h{n}')
        if name=='vec3_divs': hs.append('(hs : ∀ s, b ≠ F32.zero s)')
        call=lambda a: f'(glm_{name}'+''.join(' '+x for x in a)+')' if a else f'glm_{name}'
        o.append(f'theorem C78_{name} (σ : AxisMirror) '+' '.join(vs+hs)+f' :\n    {OUT[out]} {call(a1)} {call(a2)} := by')
        o.append('  obtain ⟨x, y, z⟩ := σ')
        o+=pats
        simp='  simp only [cglm, sqrtf_f32, fabsf_f32, AxisMirror.Vec, AxisMirror.Vec4, AxisMirror.Axis, AxisMirror.Quat, AxisMirror.Mat3, AxisMirror.Mat4, AxisMirror.dual, AxisMirror.odd]'
        o.append(simp)
        nn={'p':'⟨?_, ?_, ?_⟩','a':'⟨?_, ?_, ?_⟩','h':'⟨?_, ?_, ?_, ?_⟩','q':'⟨?_, ?_, ?_, ?_⟩','3':PAT['3'].replace('_','?_'),'4':PAT['4'].replace('_','?_')}.get(out)
        o.append(f'  refine {nn} <;> mir x y z' if nn else '  mir x y z')
        o.append('')
    o.append('end Cglm')
    open(ROOT+'/lean/Verif/Props/C78Gen.lean','w').write('\n'.join(o)+'\n')
main()
