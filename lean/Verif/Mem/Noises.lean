/- Generated by tools/memgen.py, joined by tools/merge.py; do not edit by hand. -/
import Verif.CMem
import Verif.Mem.Vecs

section Noise

/- Generated from include/cglm/noise.h by tools/memgen.py (memory semantics); do not edit by hand. -/

set_option maxRecDepth 10000

namespace Cglm.C
open CMem

/-- `glm_perlin_vec4`: include/cglm/noise.h:296-497. -/
def glm_perlin_vec4 : Fn where
  locals := [4, 4, 4, 4, 4, 4, 4, 4, 4, 4, 4, 4, 4, 4, 4, 4, 4, 4, 4, 4, 4, 4, 4, 4, 4, 4, 4, 4, 4, 4, 4, 4, 4, 4, 4, 4, 4, 4, 4, 4, 4, 4, 4, 4, 4, 4, 4, 4, 4, 4, 4, 4, 4, 4, 4, 4, 4, 4, 4, 4, 4, 4, 4, 4, 4, 4, 4, 4, 4, 4, 4, 4, 4, 4, 4, 4, 4, 4, 4, 4, 4, 4, 4, 4, 4, 4, 4, 4, 4, 4, 4, 4, 4, 4, 4, 4, 4, 4, 4, 4, 2, 2, 2]
  nregs := 50
  body := 
    .seq (.call none glm_vec4_floor.locals glm_vec4_floor.nregs glm_vec4_floor.body [.reg 0, .loc 0]) <|
    .seq (.call none glm_vec4_adds.locals glm_vec4_adds.nregs glm_vec4_adds.body [.loc 0, .flit 1, .loc 1]) <|
    .seq (.call none glm_vec4_mods.locals glm_vec4_mods.nregs glm_vec4_mods.body [.loc 0, .flit 289, .loc 0]) <|
    .seq (.call none glm_vec4_mods.locals glm_vec4_mods.nregs glm_vec4_mods.body [.loc 1, .flit 289, .loc 1]) <|
    .seq (.call none glm_vec4_fract.locals glm_vec4_fract.nregs glm_vec4_fract.body [.reg 0, .loc 2]) <|
    .seq (.call none glm_vec4_subs.locals glm_vec4_subs.nregs glm_vec4_subs.body [.loc 2, .flit 1, .loc 3]) <|
    .seq (.store (.loc 4) (.load (.loc 0))) <|
    .seq (.store (.off (.loc 4) 1) (.load (.loc 1))) <|
    .seq (.store (.off (.loc 4) 2) (.load (.loc 0))) <|
    .seq (.store (.off (.loc 4) 3) (.load (.loc 1))) <|
    .seq (.store (.loc 5) (.load (.off (.loc 0) 1))) <|
    .seq (.store (.off (.loc 5) 1) (.load (.off (.loc 0) 1))) <|
    .seq (.store (.off (.loc 5) 2) (.load (.off (.loc 1) 1))) <|
    .seq (.store (.off (.loc 5) 3) (.load (.off (.loc 1) 1))) <|
    .seq (.store (.loc 6) (.load (.off (.loc 0) 2))) <|
    .seq (.store (.off (.loc 6) 1) (.load (.off (.loc 0) 2))) <|
    .seq (.store (.off (.loc 6) 2) (.load (.off (.loc 0) 2))) <|
    .seq (.store (.off (.loc 6) 3) (.load (.off (.loc 0) 2))) <|
    .seq (.store (.loc 7) (.load (.off (.loc 1) 2))) <|
    .seq (.store (.off (.loc 7) 1) (.load (.off (.loc 1) 2))) <|
    .seq (.store (.off (.loc 7) 2) (.load (.off (.loc 1) 2))) <|
    .seq (.store (.off (.loc 7) 3) (.load (.off (.loc 1) 2))) <|
    .seq (.store (.loc 8) (.load (.off (.loc 0) 3))) <|
    .seq (.store (.off (.loc 8) 1) (.load (.off (.loc 0) 3))) <|
    .seq (.store (.off (.loc 8) 2) (.load (.off (.loc 0) 3))) <|
    .seq (.store (.off (.loc 8) 3) (.load (.off (.loc 0) 3))) <|
    .seq (.store (.loc 9) (.load (.off (.loc 1) 3))) <|
    .seq (.store (.off (.loc 9) 1) (.load (.off (.loc 1) 3))) <|
    .seq (.store (.off (.loc 9) 2) (.load (.off (.loc 1) 3))) <|
    .seq (.store (.off (.loc 9) 3) (.load (.off (.loc 1) 3))) <|
    .seq (.store (.loc 10) (.f2 .sub (.f2 .mul (.f2 .add (.f2 .mul (.load (.loc 4)) (.flit 34)) (.flit 1)) (.load (.loc 4))) (.f2 .mul (.f1 .floorf (.f2 .mul (.f2 .mul (.f2 .add (.f2 .mul (.load (.loc 4)) (.flit 34)) (.flit 1)) (.load (.loc 4))) (.f2 .div (.flit 1) (.flit 289)))) (.flit 289)))) <|
    .seq (.store (.off (.loc 10) 1) (.f2 .sub (.f2 .mul (.f2 .add (.f2 .mul (.load (.off (.loc 4) 1)) (.flit 34)) (.flit 1)) (.load (.off (.loc 4) 1))) (.f2 .mul (.f1 .floorf (.f2 .mul (.f2 .mul (.f2 .add (.f2 .mul (.load (.off (.loc 4) 1)) (.flit 34)) (.flit 1)) (.load (.off (.loc 4) 1))) (.f2 .div (.flit 1) (.flit 289)))) (.flit 289)))) <|
    .seq (.store (.off (.loc 10) 2) (.f2 .sub (.f2 .mul (.f2 .add (.f2 .mul (.load (.off (.loc 4) 2)) (.flit 34)) (.flit 1)) (.load (.off (.loc 4) 2))) (.f2 .mul (.f1 .floorf (.f2 .mul (.f2 .mul (.f2 .add (.f2 .mul (.load (.off (.loc 4) 2)) (.flit 34)) (.flit 1)) (.load (.off (.loc 4) 2))) (.f2 .div (.flit 1) (.flit 289)))) (.flit 289)))) <|
    .seq (.store (.off (.loc 10) 3) (.f2 .sub (.f2 .mul (.f2 .add (.f2 .mul (.load (.off (.loc 4) 3)) (.flit 34)) (.flit 1)) (.load (.off (.loc 4) 3))) (.f2 .mul (.f1 .floorf (.f2 .mul (.f2 .mul (.f2 .add (.f2 .mul (.load (.off (.loc 4) 3)) (.flit 34)) (.flit 1)) (.load (.off (.loc 4) 3))) (.f2 .div (.flit 1) (.flit 289)))) (.flit 289)))) <|
    .seq (.call none glm_vec4_add.locals glm_vec4_add.nregs glm_vec4_add.body [.loc 10, .loc 5, .loc 10]) <|
    .seq (.store (.loc 10) (.f2 .sub (.f2 .mul (.f2 .add (.f2 .mul (.load (.loc 10)) (.flit 34)) (.flit 1)) (.load (.loc 10))) (.f2 .mul (.f1 .floorf (.f2 .mul (.f2 .mul (.f2 .add (.f2 .mul (.load (.loc 10)) (.flit 34)) (.flit 1)) (.load (.loc 10))) (.f2 .div (.flit 1) (.flit 289)))) (.flit 289)))) <|
    .seq (.store (.off (.loc 10) 1) (.f2 .sub (.f2 .mul (.f2 .add (.f2 .mul (.load (.off (.loc 10) 1)) (.flit 34)) (.flit 1)) (.load (.off (.loc 10) 1))) (.f2 .mul (.f1 .floorf (.f2 .mul (.f2 .mul (.f2 .add (.f2 .mul (.load (.off (.loc 10) 1)) (.flit 34)) (.flit 1)) (.load (.off (.loc 10) 1))) (.f2 .div (.flit 1) (.flit 289)))) (.flit 289)))) <|
    .seq (.store (.off (.loc 10) 2) (.f2 .sub (.f2 .mul (.f2 .add (.f2 .mul (.load (.off (.loc 10) 2)) (.flit 34)) (.flit 1)) (.load (.off (.loc 10) 2))) (.f2 .mul (.f1 .floorf (.f2 .mul (.f2 .mul (.f2 .add (.f2 .mul (.load (.off (.loc 10) 2)) (.flit 34)) (.flit 1)) (.load (.off (.loc 10) 2))) (.f2 .div (.flit 1) (.flit 289)))) (.flit 289)))) <|
    .seq (.store (.off (.loc 10) 3) (.f2 .sub (.f2 .mul (.f2 .add (.f2 .mul (.load (.off (.loc 10) 3)) (.flit 34)) (.flit 1)) (.load (.off (.loc 10) 3))) (.f2 .mul (.f1 .floorf (.f2 .mul (.f2 .mul (.f2 .add (.f2 .mul (.load (.off (.loc 10) 3)) (.flit 34)) (.flit 1)) (.load (.off (.loc 10) 3))) (.f2 .div (.flit 1) (.flit 289)))) (.flit 289)))) <|
    .seq (.call none glm_vec4_add.locals glm_vec4_add.nregs glm_vec4_add.body [.loc 10, .loc 6, .loc 11]) <|
    .seq (.store (.loc 11) (.f2 .sub (.f2 .mul (.f2 .add (.f2 .mul (.load (.loc 11)) (.flit 34)) (.flit 1)) (.load (.loc 11))) (.f2 .mul (.f1 .floorf (.f2 .mul (.f2 .mul (.f2 .add (.f2 .mul (.load (.loc 11)) (.flit 34)) (.flit 1)) (.load (.loc 11))) (.f2 .div (.flit 1) (.flit 289)))) (.flit 289)))) <|
    .seq (.store (.off (.loc 11) 1) (.f2 .sub (.f2 .mul (.f2 .add (.f2 .mul (.load (.off (.loc 11) 1)) (.flit 34)) (.flit 1)) (.load (.off (.loc 11) 1))) (.f2 .mul (.f1 .floorf (.f2 .mul (.f2 .mul (.f2 .add (.f2 .mul (.load (.off (.loc 11) 1)) (.flit 34)) (.flit 1)) (.load (.off (.loc 11) 1))) (.f2 .div (.flit 1) (.flit 289)))) (.flit 289)))) <|
    .seq (.store (.off (.loc 11) 2) (.f2 .sub (.f2 .mul (.f2 .add (.f2 .mul (.load (.off (.loc 11) 2)) (.flit 34)) (.flit 1)) (.load (.off (.loc 11) 2))) (.f2 .mul (.f1 .floorf (.f2 .mul (.f2 .mul (.f2 .add (.f2 .mul (.load (.off (.loc 11) 2)) (.flit 34)) (.flit 1)) (.load (.off (.loc 11) 2))) (.f2 .div (.flit 1) (.flit 289)))) (.flit 289)))) <|
    .seq (.store (.off (.loc 11) 3) (.f2 .sub (.f2 .mul (.f2 .add (.f2 .mul (.load (.off (.loc 11) 3)) (.flit 34)) (.flit 1)) (.load (.off (.loc 11) 3))) (.f2 .mul (.f1 .floorf (.f2 .mul (.f2 .mul (.f2 .add (.f2 .mul (.load (.off (.loc 11) 3)) (.flit 34)) (.flit 1)) (.load (.off (.loc 11) 3))) (.f2 .div (.flit 1) (.flit 289)))) (.flit 289)))) <|
    .seq (.call none glm_vec4_add.locals glm_vec4_add.nregs glm_vec4_add.body [.loc 10, .loc 7, .loc 12]) <|
    .seq (.store (.loc 12) (.f2 .sub (.f2 .mul (.f2 .add (.f2 .mul (.load (.loc 12)) (.flit 34)) (.flit 1)) (.load (.loc 12))) (.f2 .mul (.f1 .floorf (.f2 .mul (.f2 .mul (.f2 .add (.f2 .mul (.load (.loc 12)) (.flit 34)) (.flit 1)) (.load (.loc 12))) (.f2 .div (.flit 1) (.flit 289)))) (.flit 289)))) <|
    .seq (.store (.off (.loc 12) 1) (.f2 .sub (.f2 .mul (.f2 .add (.f2 .mul (.load (.off (.loc 12) 1)) (.flit 34)) (.flit 1)) (.load (.off (.loc 12) 1))) (.f2 .mul (.f1 .floorf (.f2 .mul (.f2 .mul (.f2 .add (.f2 .mul (.load (.off (.loc 12) 1)) (.flit 34)) (.flit 1)) (.load (.off (.loc 12) 1))) (.f2 .div (.flit 1) (.flit 289)))) (.flit 289)))) <|
    .seq (.store (.off (.loc 12) 2) (.f2 .sub (.f2 .mul (.f2 .add (.f2 .mul (.load (.off (.loc 12) 2)) (.flit 34)) (.flit 1)) (.load (.off (.loc 12) 2))) (.f2 .mul (.f1 .floorf (.f2 .mul (.f2 .mul (.f2 .add (.f2 .mul (.load (.off (.loc 12) 2)) (.flit 34)) (.flit 1)) (.load (.off (.loc 12) 2))) (.f2 .div (.flit 1) (.flit 289)))) (.flit 289)))) <|
    .seq (.store (.off (.loc 12) 3) (.f2 .sub (.f2 .mul (.f2 .add (.f2 .mul (.load (.off (.loc 12) 3)) (.flit 34)) (.flit 1)) (.load (.off (.loc 12) 3))) (.f2 .mul (.f1 .floorf (.f2 .mul (.f2 .mul (.f2 .add (.f2 .mul (.load (.off (.loc 12) 3)) (.flit 34)) (.flit 1)) (.load (.off (.loc 12) 3))) (.f2 .div (.flit 1) (.flit 289)))) (.flit 289)))) <|
    .seq (.call none glm_vec4_add.locals glm_vec4_add.nregs glm_vec4_add.body [.loc 11, .loc 8, .loc 13]) <|
    .seq (.store (.loc 13) (.f2 .sub (.f2 .mul (.f2 .add (.f2 .mul (.load (.loc 13)) (.flit 34)) (.flit 1)) (.load (.loc 13))) (.f2 .mul (.f1 .floorf (.f2 .mul (.f2 .mul (.f2 .add (.f2 .mul (.load (.loc 13)) (.flit 34)) (.flit 1)) (.load (.loc 13))) (.f2 .div (.flit 1) (.flit 289)))) (.flit 289)))) <|
    .seq (.store (.off (.loc 13) 1) (.f2 .sub (.f2 .mul (.f2 .add (.f2 .mul (.load (.off (.loc 13) 1)) (.flit 34)) (.flit 1)) (.load (.off (.loc 13) 1))) (.f2 .mul (.f1 .floorf (.f2 .mul (.f2 .mul (.f2 .add (.f2 .mul (.load (.off (.loc 13) 1)) (.flit 34)) (.flit 1)) (.load (.off (.loc 13) 1))) (.f2 .div (.flit 1) (.flit 289)))) (.flit 289)))) <|
    .seq (.store (.off (.loc 13) 2) (.f2 .sub (.f2 .mul (.f2 .add (.f2 .mul (.load (.off (.loc 13) 2)) (.flit 34)) (.flit 1)) (.load (.off (.loc 13) 2))) (.f2 .mul (.f1 .floorf (.f2 .mul (.f2 .mul (.f2 .add (.f2 .mul (.load (.off (.loc 13) 2)) (.flit 34)) (.flit 1)) (.load (.off (.loc 13) 2))) (.f2 .div (.flit 1) (.flit 289)))) (.flit 289)))) <|
    .seq (.store (.off (.loc 13) 3) (.f2 .sub (.f2 .mul (.f2 .add (.f2 .mul (.load (.off (.loc 13) 3)) (.flit 34)) (.flit 1)) (.load (.off (.loc 13) 3))) (.f2 .mul (.f1 .floorf (.f2 .mul (.f2 .mul (.f2 .add (.f2 .mul (.load (.off (.loc 13) 3)) (.flit 34)) (.flit 1)) (.load (.off (.loc 13) 3))) (.f2 .div (.flit 1) (.flit 289)))) (.flit 289)))) <|
    .seq (.call none glm_vec4_add.locals glm_vec4_add.nregs glm_vec4_add.body [.loc 11, .loc 9, .loc 14]) <|
    .seq (.store (.loc 14) (.f2 .sub (.f2 .mul (.f2 .add (.f2 .mul (.load (.loc 14)) (.flit 34)) (.flit 1)) (.load (.loc 14))) (.f2 .mul (.f1 .floorf (.f2 .mul (.f2 .mul (.f2 .add (.f2 .mul (.load (.loc 14)) (.flit 34)) (.flit 1)) (.load (.loc 14))) (.f2 .div (.flit 1) (.flit 289)))) (.flit 289)))) <|
    .seq (.store (.off (.loc 14) 1) (.f2 .sub (.f2 .mul (.f2 .add (.f2 .mul (.load (.off (.loc 14) 1)) (.flit 34)) (.flit 1)) (.load (.off (.loc 14) 1))) (.f2 .mul (.f1 .floorf (.f2 .mul (.f2 .mul (.f2 .add (.f2 .mul (.load (.off (.loc 14) 1)) (.flit 34)) (.flit 1)) (.load (.off (.loc 14) 1))) (.f2 .div (.flit 1) (.flit 289)))) (.flit 289)))) <|
    .seq (.store (.off (.loc 14) 2) (.f2 .sub (.f2 .mul (.f2 .add (.f2 .mul (.load (.off (.loc 14) 2)) (.flit 34)) (.flit 1)) (.load (.off (.loc 14) 2))) (.f2 .mul (.f1 .floorf (.f2 .mul (.f2 .mul (.f2 .add (.f2 .mul (.load (.off (.loc 14) 2)) (.flit 34)) (.flit 1)) (.load (.off (.loc 14) 2))) (.f2 .div (.flit 1) (.flit 289)))) (.flit 289)))) <|
    .seq (.store (.off (.loc 14) 3) (.f2 .sub (.f2 .mul (.f2 .add (.f2 .mul (.load (.off (.loc 14) 3)) (.flit 34)) (.flit 1)) (.load (.off (.loc 14) 3))) (.f2 .mul (.f1 .floorf (.f2 .mul (.f2 .mul (.f2 .add (.f2 .mul (.load (.off (.loc 14) 3)) (.flit 34)) (.flit 1)) (.load (.off (.loc 14) 3))) (.f2 .div (.flit 1) (.flit 289)))) (.flit 289)))) <|
    .seq (.call none glm_vec4_add.locals glm_vec4_add.nregs glm_vec4_add.body [.loc 12, .loc 8, .loc 15]) <|
    .seq (.store (.loc 15) (.f2 .sub (.f2 .mul (.f2 .add (.f2 .mul (.load (.loc 15)) (.flit 34)) (.flit 1)) (.load (.loc 15))) (.f2 .mul (.f1 .floorf (.f2 .mul (.f2 .mul (.f2 .add (.f2 .mul (.load (.loc 15)) (.flit 34)) (.flit 1)) (.load (.loc 15))) (.f2 .div (.flit 1) (.flit 289)))) (.flit 289)))) <|
    .seq (.store (.off (.loc 15) 1) (.f2 .sub (.f2 .mul (.f2 .add (.f2 .mul (.load (.off (.loc 15) 1)) (.flit 34)) (.flit 1)) (.load (.off (.loc 15) 1))) (.f2 .mul (.f1 .floorf (.f2 .mul (.f2 .mul (.f2 .add (.f2 .mul (.load (.off (.loc 15) 1)) (.flit 34)) (.flit 1)) (.load (.off (.loc 15) 1))) (.f2 .div (.flit 1) (.flit 289)))) (.flit 289)))) <|
    .seq (.store (.off (.loc 15) 2) (.f2 .sub (.f2 .mul (.f2 .add (.f2 .mul (.load (.off (.loc 15) 2)) (.flit 34)) (.flit 1)) (.load (.off (.loc 15) 2))) (.f2 .mul (.f1 .floorf (.f2 .mul (.f2 .mul (.f2 .add (.f2 .mul (.load (.off (.loc 15) 2)) (.flit 34)) (.flit 1)) (.load (.off (.loc 15) 2))) (.f2 .div (.flit 1) (.flit 289)))) (.flit 289)))) <|
    .seq (.store (.off (.loc 15) 3) (.f2 .sub (.f2 .mul (.f2 .add (.f2 .mul (.load (.off (.loc 15) 3)) (.flit 34)) (.flit 1)) (.load (.off (.loc 15) 3))) (.f2 .mul (.f1 .floorf (.f2 .mul (.f2 .mul (.f2 .add (.f2 .mul (.load (.off (.loc 15) 3)) (.flit 34)) (.flit 1)) (.load (.off (.loc 15) 3))) (.f2 .div (.flit 1) (.flit 289)))) (.flit 289)))) <|
    .seq (.call none glm_vec4_add.locals glm_vec4_add.nregs glm_vec4_add.body [.loc 12, .loc 9, .loc 16]) <|
    .seq (.store (.loc 16) (.f2 .sub (.f2 .mul (.f2 .add (.f2 .mul (.load (.loc 16)) (.flit 34)) (.flit 1)) (.load (.loc 16))) (.f2 .mul (.f1 .floorf (.f2 .mul (.f2 .mul (.f2 .add (.f2 .mul (.load (.loc 16)) (.flit 34)) (.flit 1)) (.load (.loc 16))) (.f2 .div (.flit 1) (.flit 289)))) (.flit 289)))) <|
    .seq (.store (.off (.loc 16) 1) (.f2 .sub (.f2 .mul (.f2 .add (.f2 .mul (.load (.off (.loc 16) 1)) (.flit 34)) (.flit 1)) (.load (.off (.loc 16) 1))) (.f2 .mul (.f1 .floorf (.f2 .mul (.f2 .mul (.f2 .add (.f2 .mul (.load (.off (.loc 16) 1)) (.flit 34)) (.flit 1)) (.load (.off (.loc 16) 1))) (.f2 .div (.flit 1) (.flit 289)))) (.flit 289)))) <|
    .seq (.store (.off (.loc 16) 2) (.f2 .sub (.f2 .mul (.f2 .add (.f2 .mul (.load (.off (.loc 16) 2)) (.flit 34)) (.flit 1)) (.load (.off (.loc 16) 2))) (.f2 .mul (.f1 .floorf (.f2 .mul (.f2 .mul (.f2 .add (.f2 .mul (.load (.off (.loc 16) 2)) (.flit 34)) (.flit 1)) (.load (.off (.loc 16) 2))) (.f2 .div (.flit 1) (.flit 289)))) (.flit 289)))) <|
    .seq (.store (.off (.loc 16) 3) (.f2 .sub (.f2 .mul (.f2 .add (.f2 .mul (.load (.off (.loc 16) 3)) (.flit 34)) (.flit 1)) (.load (.off (.loc 16) 3))) (.f2 .mul (.f1 .floorf (.f2 .mul (.f2 .mul (.f2 .add (.f2 .mul (.load (.off (.loc 16) 3)) (.flit 34)) (.flit 1)) (.load (.off (.loc 16) 3))) (.f2 .div (.flit 1) (.flit 289)))) (.flit 289)))) <|
    .seq (.seq (.call none glm_vec4_divs.locals glm_vec4_divs.nregs glm_vec4_divs.body [.loc 13, .flit 7, .loc 17]) (.seq (.call none glm_vec4_floor.locals glm_vec4_floor.nregs glm_vec4_floor.body [.loc 17, .loc 18]) (.seq (.call none glm_vec4_divs.locals glm_vec4_divs.nregs glm_vec4_divs.body [.loc 18, .flit 7, .loc 18]) (.seq (.call none glm_vec4_floor.locals glm_vec4_floor.nregs glm_vec4_floor.body [.loc 18, .loc 19]) (.seq (.call none glm_vec4_divs.locals glm_vec4_divs.nregs glm_vec4_divs.body [.loc 19, .flit 6, .loc 19]) (.seq (.call none glm_vec4_fract.locals glm_vec4_fract.nregs glm_vec4_fract.body [.loc 17, .loc 17]) (.seq (.call none glm_vec4_subs.locals glm_vec4_subs.nregs glm_vec4_subs.body [.loc 17, .flit 0.5, .loc 17]) (.seq (.call none glm_vec4_fract.locals glm_vec4_fract.nregs glm_vec4_fract.body [.loc 18, .loc 18]) (.seq (.call none glm_vec4_subs.locals glm_vec4_subs.nregs glm_vec4_subs.body [.loc 18, .flit 0.5, .loc 18]) (.seq (.call none glm_vec4_fract.locals glm_vec4_fract.nregs glm_vec4_fract.body [.loc 19, .loc 19]) (.seq (.call none glm_vec4_subs.locals glm_vec4_subs.nregs glm_vec4_subs.body [.loc 19, .flit 0.5, .loc 19]) (.seq (.call none glm_vec4_abs.locals glm_vec4_abs.nregs glm_vec4_abs.body [.loc 17, .loc 21]) (.seq (.call none glm_vec4_abs.locals glm_vec4_abs.nregs glm_vec4_abs.body [.loc 18, .loc 22]) (.seq (.call none glm_vec4_abs.locals glm_vec4_abs.nregs glm_vec4_abs.body [.loc 19, .loc 23]) (.seq (.call none glm_vec4_fill.locals glm_vec4_fill.nregs glm_vec4_fill.body [.loc 20, .flit 0.75]) (.seq (.call none glm_vec4_sub.locals glm_vec4_sub.nregs glm_vec4_sub.body [.loc 20, .loc 21, .loc 20]) (.seq (.call none glm_vec4_sub.locals glm_vec4_sub.nregs glm_vec4_sub.body [.loc 20, .loc 23, .loc 20]) (.seq (.call none glm_vec4_sub.locals glm_vec4_sub.nregs glm_vec4_sub.body [.loc 20, .loc 22, .loc 20]) (.seq (.call none glm_vec4_stepr.locals glm_vec4_stepr.nregs glm_vec4_stepr.body [.loc 20, .flit 0, .loc 24]) (.seq (.store (.loc 25) (.flit 0)) (.seq (.store (.off (.loc 25) 1) (.flit 0)) (.seq (.store (.off (.loc 25) 2) (.flit 0)) (.seq (.store (.off (.loc 25) 3) (.flit 0)) (.seq (.call none glm_vec4_step.locals glm_vec4_step.nregs glm_vec4_step.body [.loc 25, .loc 17, .loc 25]) (.seq (.call none glm_vec4_subs.locals glm_vec4_subs.nregs glm_vec4_subs.body [.loc 25, .flit 0.5, .loc 25]) (.seq (.call none glm_vec4_mul.locals glm_vec4_mul.nregs glm_vec4_mul.body [.loc 24, .loc 25, .loc 25]) (.seq (.call none glm_vec4_sub.locals glm_vec4_sub.nregs glm_vec4_sub.body [.loc 17, .loc 25, .loc 17]) (.seq (.call none glm_vec4_zero.locals glm_vec4_zero.nregs glm_vec4_zero.body [.loc 25]) (.seq (.call none glm_vec4_step.locals glm_vec4_step.nregs glm_vec4_step.body [.loc 25, .loc 18, .loc 25]) (.seq (.call none glm_vec4_subs.locals glm_vec4_subs.nregs glm_vec4_subs.body [.loc 25, .flit 0.5, .loc 25]) (.seq (.call none glm_vec4_mul.locals glm_vec4_mul.nregs glm_vec4_mul.body [.loc 24, .loc 25, .loc 25]) (.call none glm_vec4_sub.locals glm_vec4_sub.nregs glm_vec4_sub.body [.loc 18, .loc 25, .loc 18])))))))))))))))))))))))))))))))) <|
    .seq (.seq (.call none glm_vec4_divs.locals glm_vec4_divs.nregs glm_vec4_divs.body [.loc 14, .flit 7, .loc 26]) (.seq (.call none glm_vec4_floor.locals glm_vec4_floor.nregs glm_vec4_floor.body [.loc 26, .loc 27]) (.seq (.call none glm_vec4_divs.locals glm_vec4_divs.nregs glm_vec4_divs.body [.loc 27, .flit 7, .loc 27]) (.seq (.call none glm_vec4_floor.locals glm_vec4_floor.nregs glm_vec4_floor.body [.loc 27, .loc 28]) (.seq (.call none glm_vec4_divs.locals glm_vec4_divs.nregs glm_vec4_divs.body [.loc 28, .flit 6, .loc 28]) (.seq (.call none glm_vec4_fract.locals glm_vec4_fract.nregs glm_vec4_fract.body [.loc 26, .loc 26]) (.seq (.call none glm_vec4_subs.locals glm_vec4_subs.nregs glm_vec4_subs.body [.loc 26, .flit 0.5, .loc 26]) (.seq (.call none glm_vec4_fract.locals glm_vec4_fract.nregs glm_vec4_fract.body [.loc 27, .loc 27]) (.seq (.call none glm_vec4_subs.locals glm_vec4_subs.nregs glm_vec4_subs.body [.loc 27, .flit 0.5, .loc 27]) (.seq (.call none glm_vec4_fract.locals glm_vec4_fract.nregs glm_vec4_fract.body [.loc 28, .loc 28]) (.seq (.call none glm_vec4_subs.locals glm_vec4_subs.nregs glm_vec4_subs.body [.loc 28, .flit 0.5, .loc 28]) (.seq (.call none glm_vec4_abs.locals glm_vec4_abs.nregs glm_vec4_abs.body [.loc 26, .loc 30]) (.seq (.call none glm_vec4_abs.locals glm_vec4_abs.nregs glm_vec4_abs.body [.loc 27, .loc 31]) (.seq (.call none glm_vec4_abs.locals glm_vec4_abs.nregs glm_vec4_abs.body [.loc 28, .loc 32]) (.seq (.call none glm_vec4_fill.locals glm_vec4_fill.nregs glm_vec4_fill.body [.loc 29, .flit 0.75]) (.seq (.call none glm_vec4_sub.locals glm_vec4_sub.nregs glm_vec4_sub.body [.loc 29, .loc 30, .loc 29]) (.seq (.call none glm_vec4_sub.locals glm_vec4_sub.nregs glm_vec4_sub.body [.loc 29, .loc 32, .loc 29]) (.seq (.call none glm_vec4_sub.locals glm_vec4_sub.nregs glm_vec4_sub.body [.loc 29, .loc 31, .loc 29]) (.seq (.call none glm_vec4_stepr.locals glm_vec4_stepr.nregs glm_vec4_stepr.body [.loc 29, .flit 0, .loc 33]) (.seq (.store (.loc 34) (.flit 0)) (.seq (.store (.off (.loc 34) 1) (.flit 0)) (.seq (.store (.off (.loc 34) 2) (.flit 0)) (.seq (.store (.off (.loc 34) 3) (.flit 0)) (.seq (.call none glm_vec4_step.locals glm_vec4_step.nregs glm_vec4_step.body [.loc 34, .loc 26, .loc 34]) (.seq (.call none glm_vec4_subs.locals glm_vec4_subs.nregs glm_vec4_subs.body [.loc 34, .flit 0.5, .loc 34]) (.seq (.call none glm_vec4_mul.locals glm_vec4_mul.nregs glm_vec4_mul.body [.loc 33, .loc 34, .loc 34]) (.seq (.call none glm_vec4_sub.locals glm_vec4_sub.nregs glm_vec4_sub.body [.loc 26, .loc 34, .loc 26]) (.seq (.call none glm_vec4_zero.locals glm_vec4_zero.nregs glm_vec4_zero.body [.loc 34]) (.seq (.call none glm_vec4_step.locals glm_vec4_step.nregs glm_vec4_step.body [.loc 34, .loc 27, .loc 34]) (.seq (.call none glm_vec4_subs.locals glm_vec4_subs.nregs glm_vec4_subs.body [.loc 34, .flit 0.5, .loc 34]) (.seq (.call none glm_vec4_mul.locals glm_vec4_mul.nregs glm_vec4_mul.body [.loc 33, .loc 34, .loc 34]) (.call none glm_vec4_sub.locals glm_vec4_sub.nregs glm_vec4_sub.body [.loc 27, .loc 34, .loc 27])))))))))))))))))))))))))))))))) <|
    .seq (.seq (.call none glm_vec4_divs.locals glm_vec4_divs.nregs glm_vec4_divs.body [.loc 15, .flit 7, .loc 35]) (.seq (.call none glm_vec4_floor.locals glm_vec4_floor.nregs glm_vec4_floor.body [.loc 35, .loc 36]) (.seq (.call none glm_vec4_divs.locals glm_vec4_divs.nregs glm_vec4_divs.body [.loc 36, .flit 7, .loc 36]) (.seq (.call none glm_vec4_floor.locals glm_vec4_floor.nregs glm_vec4_floor.body [.loc 36, .loc 37]) (.seq (.call none glm_vec4_divs.locals glm_vec4_divs.nregs glm_vec4_divs.body [.loc 37, .flit 6, .loc 37]) (.seq (.call none glm_vec4_fract.locals glm_vec4_fract.nregs glm_vec4_fract.body [.loc 35, .loc 35]) (.seq (.call none glm_vec4_subs.locals glm_vec4_subs.nregs glm_vec4_subs.body [.loc 35, .flit 0.5, .loc 35]) (.seq (.call none glm_vec4_fract.locals glm_vec4_fract.nregs glm_vec4_fract.body [.loc 36, .loc 36]) (.seq (.call none glm_vec4_subs.locals glm_vec4_subs.nregs glm_vec4_subs.body [.loc 36, .flit 0.5, .loc 36]) (.seq (.call none glm_vec4_fract.locals glm_vec4_fract.nregs glm_vec4_fract.body [.loc 37, .loc 37]) (.seq (.call none glm_vec4_subs.locals glm_vec4_subs.nregs glm_vec4_subs.body [.loc 37, .flit 0.5, .loc 37]) (.seq (.call none glm_vec4_abs.locals glm_vec4_abs.nregs glm_vec4_abs.body [.loc 35, .loc 39]) (.seq (.call none glm_vec4_abs.locals glm_vec4_abs.nregs glm_vec4_abs.body [.loc 36, .loc 40]) (.seq (.call none glm_vec4_abs.locals glm_vec4_abs.nregs glm_vec4_abs.body [.loc 37, .loc 41]) (.seq (.call none glm_vec4_fill.locals glm_vec4_fill.nregs glm_vec4_fill.body [.loc 38, .flit 0.75]) (.seq (.call none glm_vec4_sub.locals glm_vec4_sub.nregs glm_vec4_sub.body [.loc 38, .loc 39, .loc 38]) (.seq (.call none glm_vec4_sub.locals glm_vec4_sub.nregs glm_vec4_sub.body [.loc 38, .loc 41, .loc 38]) (.seq (.call none glm_vec4_sub.locals glm_vec4_sub.nregs glm_vec4_sub.body [.loc 38, .loc 40, .loc 38]) (.seq (.call none glm_vec4_stepr.locals glm_vec4_stepr.nregs glm_vec4_stepr.body [.loc 38, .flit 0, .loc 42]) (.seq (.store (.loc 43) (.flit 0)) (.seq (.store (.off (.loc 43) 1) (.flit 0)) (.seq (.store (.off (.loc 43) 2) (.flit 0)) (.seq (.store (.off (.loc 43) 3) (.flit 0)) (.seq (.call none glm_vec4_step.locals glm_vec4_step.nregs glm_vec4_step.body [.loc 43, .loc 35, .loc 43]) (.seq (.call none glm_vec4_subs.locals glm_vec4_subs.nregs glm_vec4_subs.body [.loc 43, .flit 0.5, .loc 43]) (.seq (.call none glm_vec4_mul.locals glm_vec4_mul.nregs glm_vec4_mul.body [.loc 42, .loc 43, .loc 43]) (.seq (.call none glm_vec4_sub.locals glm_vec4_sub.nregs glm_vec4_sub.body [.loc 35, .loc 43, .loc 35]) (.seq (.call none glm_vec4_zero.locals glm_vec4_zero.nregs glm_vec4_zero.body [.loc 43]) (.seq (.call none glm_vec4_step.locals glm_vec4_step.nregs glm_vec4_step.body [.loc 43, .loc 36, .loc 43]) (.seq (.call none glm_vec4_subs.locals glm_vec4_subs.nregs glm_vec4_subs.body [.loc 43, .flit 0.5, .loc 43]) (.seq (.call none glm_vec4_mul.locals glm_vec4_mul.nregs glm_vec4_mul.body [.loc 42, .loc 43, .loc 43]) (.call none glm_vec4_sub.locals glm_vec4_sub.nregs glm_vec4_sub.body [.loc 36, .loc 43, .loc 36])))))))))))))))))))))))))))))))) <|
    .seq (.seq (.call none glm_vec4_divs.locals glm_vec4_divs.nregs glm_vec4_divs.body [.loc 16, .flit 7, .loc 44]) (.seq (.call none glm_vec4_floor.locals glm_vec4_floor.nregs glm_vec4_floor.body [.loc 44, .loc 45]) (.seq (.call none glm_vec4_divs.locals glm_vec4_divs.nregs glm_vec4_divs.body [.loc 45, .flit 7, .loc 45]) (.seq (.call none glm_vec4_floor.locals glm_vec4_floor.nregs glm_vec4_floor.body [.loc 45, .loc 46]) (.seq (.call none glm_vec4_divs.locals glm_vec4_divs.nregs glm_vec4_divs.body [.loc 46, .flit 6, .loc 46]) (.seq (.call none glm_vec4_fract.locals glm_vec4_fract.nregs glm_vec4_fract.body [.loc 44, .loc 44]) (.seq (.call none glm_vec4_subs.locals glm_vec4_subs.nregs glm_vec4_subs.body [.loc 44, .flit 0.5, .loc 44]) (.seq (.call none glm_vec4_fract.locals glm_vec4_fract.nregs glm_vec4_fract.body [.loc 45, .loc 45]) (.seq (.call none glm_vec4_subs.locals glm_vec4_subs.nregs glm_vec4_subs.body [.loc 45, .flit 0.5, .loc 45]) (.seq (.call none glm_vec4_fract.locals glm_vec4_fract.nregs glm_vec4_fract.body [.loc 46, .loc 46]) (.seq (.call none glm_vec4_subs.locals glm_vec4_subs.nregs glm_vec4_subs.body [.loc 46, .flit 0.5, .loc 46]) (.seq (.call none glm_vec4_abs.locals glm_vec4_abs.nregs glm_vec4_abs.body [.loc 44, .loc 48]) (.seq (.call none glm_vec4_abs.locals glm_vec4_abs.nregs glm_vec4_abs.body [.loc 45, .loc 49]) (.seq (.call none glm_vec4_abs.locals glm_vec4_abs.nregs glm_vec4_abs.body [.loc 46, .loc 50]) (.seq (.call none glm_vec4_fill.locals glm_vec4_fill.nregs glm_vec4_fill.body [.loc 47, .flit 0.75]) (.seq (.call none glm_vec4_sub.locals glm_vec4_sub.nregs glm_vec4_sub.body [.loc 47, .loc 48, .loc 47]) (.seq (.call none glm_vec4_sub.locals glm_vec4_sub.nregs glm_vec4_sub.body [.loc 47, .loc 50, .loc 47]) (.seq (.call none glm_vec4_sub.locals glm_vec4_sub.nregs glm_vec4_sub.body [.loc 47, .loc 49, .loc 47]) (.seq (.call none glm_vec4_stepr.locals glm_vec4_stepr.nregs glm_vec4_stepr.body [.loc 47, .flit 0, .loc 51]) (.seq (.store (.loc 52) (.flit 0)) (.seq (.store (.off (.loc 52) 1) (.flit 0)) (.seq (.store (.off (.loc 52) 2) (.flit 0)) (.seq (.store (.off (.loc 52) 3) (.flit 0)) (.seq (.call none glm_vec4_step.locals glm_vec4_step.nregs glm_vec4_step.body [.loc 52, .loc 44, .loc 52]) (.seq (.call none glm_vec4_subs.locals glm_vec4_subs.nregs glm_vec4_subs.body [.loc 52, .flit 0.5, .loc 52]) (.seq (.call none glm_vec4_mul.locals glm_vec4_mul.nregs glm_vec4_mul.body [.loc 51, .loc 52, .loc 52]) (.seq (.call none glm_vec4_sub.locals glm_vec4_sub.nregs glm_vec4_sub.body [.loc 44, .loc 52, .loc 44]) (.seq (.call none glm_vec4_zero.locals glm_vec4_zero.nregs glm_vec4_zero.body [.loc 52]) (.seq (.call none glm_vec4_step.locals glm_vec4_step.nregs glm_vec4_step.body [.loc 52, .loc 45, .loc 52]) (.seq (.call none glm_vec4_subs.locals glm_vec4_subs.nregs glm_vec4_subs.body [.loc 52, .flit 0.5, .loc 52]) (.seq (.call none glm_vec4_mul.locals glm_vec4_mul.nregs glm_vec4_mul.body [.loc 51, .loc 52, .loc 52]) (.call none glm_vec4_sub.locals glm_vec4_sub.nregs glm_vec4_sub.body [.loc 45, .loc 52, .loc 45])))))))))))))))))))))))))))))))) <|
    .seq (.store (.loc 53) (.load (.loc 17))) <|
    .seq (.store (.off (.loc 53) 1) (.load (.loc 18))) <|
    .seq (.store (.off (.loc 53) 2) (.load (.loc 19))) <|
    .seq (.store (.off (.loc 53) 3) (.load (.loc 20))) <|
    .seq (.store (.loc 54) (.load (.off (.loc 17) 2))) <|
    .seq (.store (.off (.loc 54) 1) (.load (.off (.loc 18) 2))) <|
    .seq (.store (.off (.loc 54) 2) (.load (.off (.loc 19) 2))) <|
    .seq (.store (.off (.loc 54) 3) (.load (.off (.loc 20) 2))) <|
    .seq (.store (.loc 55) (.load (.off (.loc 17) 1))) <|
    .seq (.store (.off (.loc 55) 1) (.load (.off (.loc 18) 1))) <|
    .seq (.store (.off (.loc 55) 2) (.load (.off (.loc 19) 1))) <|
    .seq (.store (.off (.loc 55) 3) (.load (.off (.loc 20) 1))) <|
    .seq (.store (.loc 56) (.load (.off (.loc 17) 3))) <|
    .seq (.store (.off (.loc 56) 1) (.load (.off (.loc 18) 3))) <|
    .seq (.store (.off (.loc 56) 2) (.load (.off (.loc 19) 3))) <|
    .seq (.store (.off (.loc 56) 3) (.load (.off (.loc 20) 3))) <|
    .seq (.store (.loc 57) (.load (.loc 26))) <|
    .seq (.store (.off (.loc 57) 1) (.load (.loc 27))) <|
    .seq (.store (.off (.loc 57) 2) (.load (.loc 28))) <|
    .seq (.store (.off (.loc 57) 3) (.load (.loc 29))) <|
    .seq (.store (.loc 58) (.load (.off (.loc 26) 2))) <|
    .seq (.store (.off (.loc 58) 1) (.load (.off (.loc 27) 2))) <|
    .seq (.store (.off (.loc 58) 2) (.load (.off (.loc 28) 2))) <|
    .seq (.store (.off (.loc 58) 3) (.load (.off (.loc 29) 2))) <|
    .seq (.store (.loc 59) (.load (.off (.loc 26) 1))) <|
    .seq (.store (.off (.loc 59) 1) (.load (.off (.loc 27) 1))) <|
    .seq (.store (.off (.loc 59) 2) (.load (.off (.loc 28) 1))) <|
    .seq (.store (.off (.loc 59) 3) (.load (.off (.loc 29) 1))) <|
    .seq (.store (.loc 60) (.load (.off (.loc 26) 3))) <|
    .seq (.store (.off (.loc 60) 1) (.load (.off (.loc 27) 3))) <|
    .seq (.store (.off (.loc 60) 2) (.load (.off (.loc 28) 3))) <|
    .seq (.store (.off (.loc 60) 3) (.load (.off (.loc 29) 3))) <|
    .seq (.store (.loc 61) (.load (.loc 35))) <|
    .seq (.store (.off (.loc 61) 1) (.load (.loc 36))) <|
    .seq (.store (.off (.loc 61) 2) (.load (.loc 37))) <|
    .seq (.store (.off (.loc 61) 3) (.load (.loc 38))) <|
    .seq (.store (.loc 62) (.load (.off (.loc 35) 2))) <|
    .seq (.store (.off (.loc 62) 1) (.load (.off (.loc 36) 2))) <|
    .seq (.store (.off (.loc 62) 2) (.load (.off (.loc 37) 2))) <|
    .seq (.store (.off (.loc 62) 3) (.load (.off (.loc 38) 2))) <|
    .seq (.store (.loc 63) (.load (.off (.loc 35) 1))) <|
    .seq (.store (.off (.loc 63) 1) (.load (.off (.loc 36) 1))) <|
    .seq (.store (.off (.loc 63) 2) (.load (.off (.loc 37) 1))) <|
    .seq (.store (.off (.loc 63) 3) (.load (.off (.loc 38) 1))) <|
    .seq (.store (.loc 64) (.load (.off (.loc 35) 3))) <|
    .seq (.store (.off (.loc 64) 1) (.load (.off (.loc 36) 3))) <|
    .seq (.store (.off (.loc 64) 2) (.load (.off (.loc 37) 3))) <|
    .seq (.store (.off (.loc 64) 3) (.load (.off (.loc 38) 3))) <|
    .seq (.store (.loc 65) (.load (.loc 44))) <|
    .seq (.store (.off (.loc 65) 1) (.load (.loc 45))) <|
    .seq (.store (.off (.loc 65) 2) (.load (.loc 46))) <|
    .seq (.store (.off (.loc 65) 3) (.load (.loc 47))) <|
    .seq (.store (.loc 66) (.load (.off (.loc 44) 2))) <|
    .seq (.store (.off (.loc 66) 1) (.load (.off (.loc 45) 2))) <|
    .seq (.store (.off (.loc 66) 2) (.load (.off (.loc 46) 2))) <|
    .seq (.store (.off (.loc 66) 3) (.load (.off (.loc 47) 2))) <|
    .seq (.store (.loc 67) (.load (.off (.loc 44) 1))) <|
    .seq (.store (.off (.loc 67) 1) (.load (.off (.loc 45) 1))) <|
    .seq (.store (.off (.loc 67) 2) (.load (.off (.loc 46) 1))) <|
    .seq (.store (.off (.loc 67) 3) (.load (.off (.loc 47) 1))) <|
    .seq (.store (.loc 68) (.load (.off (.loc 44) 3))) <|
    .seq (.store (.off (.loc 68) 1) (.load (.off (.loc 45) 3))) <|
    .seq (.store (.off (.loc 68) 2) (.load (.off (.loc 46) 3))) <|
    .seq (.store (.off (.loc 68) 3) (.load (.off (.loc 47) 3))) <|
    .seq (.seq (.call (some 1) glm_vec4_dot.locals glm_vec4_dot.nregs glm_vec4_dot.body [.loc 53, .loc 53]) (.seq (.store (.loc 69) (.reg 1)) (.seq (.call (some 2) glm_vec4_dot.locals glm_vec4_dot.nregs glm_vec4_dot.body [.loc 54, .loc 54]) (.seq (.store (.off (.loc 69) 1) (.reg 2)) (.seq (.call (some 3) glm_vec4_dot.locals glm_vec4_dot.nregs glm_vec4_dot.body [.loc 55, .loc 55]) (.seq (.store (.off (.loc 69) 2) (.reg 3)) (.seq (.call (some 4) glm_vec4_dot.locals glm_vec4_dot.nregs glm_vec4_dot.body [.loc 56, .loc 56]) (.seq (.store (.off (.loc 69) 3) (.reg 4)) (.seq (.seq (.call none glm_vec4_scale.locals glm_vec4_scale.nregs glm_vec4_scale.body [.loc 69, .flit 0.85373472095314, .loc 70]) (.seq (.call none glm_vec4_fill.locals glm_vec4_fill.nregs glm_vec4_fill.body [.loc 69, .flit 1.79284291400159]) (.call none glm_vec4_sub.locals glm_vec4_sub.nregs glm_vec4_sub.body [.loc 69, .loc 70, .loc 69]))) (.seq (.call none glm_vec4_scale.locals glm_vec4_scale.nregs glm_vec4_scale.body [.loc 53, .load (.loc 69), .loc 53]) (.seq (.call none glm_vec4_scale.locals glm_vec4_scale.nregs glm_vec4_scale.body [.loc 54, .load (.off (.loc 69) 1), .loc 54]) (.seq (.call none glm_vec4_scale.locals glm_vec4_scale.nregs glm_vec4_scale.body [.loc 55, .load (.off (.loc 69) 2), .loc 55]) (.call none glm_vec4_scale.locals glm_vec4_scale.nregs glm_vec4_scale.body [.loc 56, .load (.off (.loc 69) 3), .loc 56]))))))))))))) <|
    .seq (.seq (.call (some 5) glm_vec4_dot.locals glm_vec4_dot.nregs glm_vec4_dot.body [.loc 57, .loc 57]) (.seq (.store (.loc 71) (.reg 5)) (.seq (.call (some 6) glm_vec4_dot.locals glm_vec4_dot.nregs glm_vec4_dot.body [.loc 58, .loc 58]) (.seq (.store (.off (.loc 71) 1) (.reg 6)) (.seq (.call (some 7) glm_vec4_dot.locals glm_vec4_dot.nregs glm_vec4_dot.body [.loc 59, .loc 59]) (.seq (.store (.off (.loc 71) 2) (.reg 7)) (.seq (.call (some 8) glm_vec4_dot.locals glm_vec4_dot.nregs glm_vec4_dot.body [.loc 60, .loc 60]) (.seq (.store (.off (.loc 71) 3) (.reg 8)) (.seq (.seq (.call none glm_vec4_scale.locals glm_vec4_scale.nregs glm_vec4_scale.body [.loc 71, .flit 0.85373472095314, .loc 72]) (.seq (.call none glm_vec4_fill.locals glm_vec4_fill.nregs glm_vec4_fill.body [.loc 71, .flit 1.79284291400159]) (.call none glm_vec4_sub.locals glm_vec4_sub.nregs glm_vec4_sub.body [.loc 71, .loc 72, .loc 71]))) (.seq (.call none glm_vec4_scale.locals glm_vec4_scale.nregs glm_vec4_scale.body [.loc 57, .load (.loc 71), .loc 57]) (.seq (.call none glm_vec4_scale.locals glm_vec4_scale.nregs glm_vec4_scale.body [.loc 58, .load (.off (.loc 71) 1), .loc 58]) (.seq (.call none glm_vec4_scale.locals glm_vec4_scale.nregs glm_vec4_scale.body [.loc 59, .load (.off (.loc 71) 2), .loc 59]) (.call none glm_vec4_scale.locals glm_vec4_scale.nregs glm_vec4_scale.body [.loc 60, .load (.off (.loc 71) 3), .loc 60]))))))))))))) <|
    .seq (.seq (.call (some 9) glm_vec4_dot.locals glm_vec4_dot.nregs glm_vec4_dot.body [.loc 61, .loc 61]) (.seq (.store (.loc 73) (.reg 9)) (.seq (.call (some 10) glm_vec4_dot.locals glm_vec4_dot.nregs glm_vec4_dot.body [.loc 62, .loc 62]) (.seq (.store (.off (.loc 73) 1) (.reg 10)) (.seq (.call (some 11) glm_vec4_dot.locals glm_vec4_dot.nregs glm_vec4_dot.body [.loc 63, .loc 63]) (.seq (.store (.off (.loc 73) 2) (.reg 11)) (.seq (.call (some 12) glm_vec4_dot.locals glm_vec4_dot.nregs glm_vec4_dot.body [.loc 64, .loc 64]) (.seq (.store (.off (.loc 73) 3) (.reg 12)) (.seq (.seq (.call none glm_vec4_scale.locals glm_vec4_scale.nregs glm_vec4_scale.body [.loc 73, .flit 0.85373472095314, .loc 74]) (.seq (.call none glm_vec4_fill.locals glm_vec4_fill.nregs glm_vec4_fill.body [.loc 73, .flit 1.79284291400159]) (.call none glm_vec4_sub.locals glm_vec4_sub.nregs glm_vec4_sub.body [.loc 73, .loc 74, .loc 73]))) (.seq (.call none glm_vec4_scale.locals glm_vec4_scale.nregs glm_vec4_scale.body [.loc 61, .load (.loc 73), .loc 61]) (.seq (.call none glm_vec4_scale.locals glm_vec4_scale.nregs glm_vec4_scale.body [.loc 62, .load (.off (.loc 73) 1), .loc 62]) (.seq (.call none glm_vec4_scale.locals glm_vec4_scale.nregs glm_vec4_scale.body [.loc 63, .load (.off (.loc 73) 2), .loc 63]) (.call none glm_vec4_scale.locals glm_vec4_scale.nregs glm_vec4_scale.body [.loc 64, .load (.off (.loc 73) 3), .loc 64]))))))))))))) <|
    .seq (.seq (.call (some 13) glm_vec4_dot.locals glm_vec4_dot.nregs glm_vec4_dot.body [.loc 65, .loc 65]) (.seq (.store (.loc 75) (.reg 13)) (.seq (.call (some 14) glm_vec4_dot.locals glm_vec4_dot.nregs glm_vec4_dot.body [.loc 66, .loc 66]) (.seq (.store (.off (.loc 75) 1) (.reg 14)) (.seq (.call (some 15) glm_vec4_dot.locals glm_vec4_dot.nregs glm_vec4_dot.body [.loc 67, .loc 67]) (.seq (.store (.off (.loc 75) 2) (.reg 15)) (.seq (.call (some 16) glm_vec4_dot.locals glm_vec4_dot.nregs glm_vec4_dot.body [.loc 68, .loc 68]) (.seq (.store (.off (.loc 75) 3) (.reg 16)) (.seq (.seq (.call none glm_vec4_scale.locals glm_vec4_scale.nregs glm_vec4_scale.body [.loc 75, .flit 0.85373472095314, .loc 76]) (.seq (.call none glm_vec4_fill.locals glm_vec4_fill.nregs glm_vec4_fill.body [.loc 75, .flit 1.79284291400159]) (.call none glm_vec4_sub.locals glm_vec4_sub.nregs glm_vec4_sub.body [.loc 75, .loc 76, .loc 75]))) (.seq (.call none glm_vec4_scale.locals glm_vec4_scale.nregs glm_vec4_scale.body [.loc 65, .load (.loc 75), .loc 65]) (.seq (.call none glm_vec4_scale.locals glm_vec4_scale.nregs glm_vec4_scale.body [.loc 66, .load (.off (.loc 75) 1), .loc 66]) (.seq (.call none glm_vec4_scale.locals glm_vec4_scale.nregs glm_vec4_scale.body [.loc 67, .load (.off (.loc 75) 2), .loc 67]) (.call none glm_vec4_scale.locals glm_vec4_scale.nregs glm_vec4_scale.body [.loc 68, .load (.off (.loc 75) 3), .loc 68]))))))))))))) <|
    .seq (.call (some 17) glm_vec4_dot.locals glm_vec4_dot.nregs glm_vec4_dot.body [.loc 53, .loc 2]) <|
    .seq (.set 18 (.reg 17)) <|
    .seq (.store (.loc 77) (.load (.loc 3))) <|
    .seq (.store (.off (.loc 77) 1) (.load (.off (.loc 2) 1))) <|
    .seq (.store (.off (.loc 77) 2) (.load (.off (.loc 2) 2))) <|
    .seq (.store (.off (.loc 77) 3) (.load (.off (.loc 2) 3))) <|
    .seq (.call (some 19) glm_vec4_dot.locals glm_vec4_dot.nregs glm_vec4_dot.body [.loc 55, .loc 77]) <|
    .seq (.set 20 (.reg 19)) <|
    .seq (.store (.loc 78) (.load (.loc 2))) <|
    .seq (.store (.off (.loc 78) 1) (.load (.off (.loc 3) 1))) <|
    .seq (.store (.off (.loc 78) 2) (.load (.off (.loc 2) 2))) <|
    .seq (.store (.off (.loc 78) 3) (.load (.off (.loc 2) 3))) <|
    .seq (.call (some 21) glm_vec4_dot.locals glm_vec4_dot.nregs glm_vec4_dot.body [.loc 54, .loc 78]) <|
    .seq (.set 22 (.reg 21)) <|
    .seq (.store (.loc 79) (.load (.loc 3))) <|
    .seq (.store (.off (.loc 79) 1) (.load (.off (.loc 3) 1))) <|
    .seq (.store (.off (.loc 79) 2) (.load (.off (.loc 2) 2))) <|
    .seq (.store (.off (.loc 79) 3) (.load (.off (.loc 2) 3))) <|
    .seq (.call (some 23) glm_vec4_dot.locals glm_vec4_dot.nregs glm_vec4_dot.body [.loc 56, .loc 79]) <|
    .seq (.set 24 (.reg 23)) <|
    .seq (.store (.loc 80) (.load (.loc 2))) <|
    .seq (.store (.off (.loc 80) 1) (.load (.off (.loc 2) 1))) <|
    .seq (.store (.off (.loc 80) 2) (.load (.off (.loc 3) 2))) <|
    .seq (.store (.off (.loc 80) 3) (.load (.off (.loc 2) 3))) <|
    .seq (.call (some 25) glm_vec4_dot.locals glm_vec4_dot.nregs glm_vec4_dot.body [.loc 61, .loc 80]) <|
    .seq (.set 26 (.reg 25)) <|
    .seq (.store (.loc 81) (.load (.loc 3))) <|
    .seq (.store (.off (.loc 81) 1) (.load (.off (.loc 2) 1))) <|
    .seq (.store (.off (.loc 81) 2) (.load (.off (.loc 3) 2))) <|
    .seq (.store (.off (.loc 81) 3) (.load (.off (.loc 2) 3))) <|
    .seq (.call (some 27) glm_vec4_dot.locals glm_vec4_dot.nregs glm_vec4_dot.body [.loc 63, .loc 81]) <|
    .seq (.set 28 (.reg 27)) <|
    .seq (.store (.loc 82) (.load (.loc 2))) <|
    .seq (.store (.off (.loc 82) 1) (.load (.off (.loc 3) 1))) <|
    .seq (.store (.off (.loc 82) 2) (.load (.off (.loc 3) 2))) <|
    .seq (.store (.off (.loc 82) 3) (.load (.off (.loc 2) 3))) <|
    .seq (.call (some 29) glm_vec4_dot.locals glm_vec4_dot.nregs glm_vec4_dot.body [.loc 62, .loc 82]) <|
    .seq (.set 30 (.reg 29)) <|
    .seq (.store (.loc 83) (.load (.loc 3))) <|
    .seq (.store (.off (.loc 83) 1) (.load (.off (.loc 3) 1))) <|
    .seq (.store (.off (.loc 83) 2) (.load (.off (.loc 3) 2))) <|
    .seq (.store (.off (.loc 83) 3) (.load (.off (.loc 2) 3))) <|
    .seq (.call (some 31) glm_vec4_dot.locals glm_vec4_dot.nregs glm_vec4_dot.body [.loc 64, .loc 83]) <|
    .seq (.set 32 (.reg 31)) <|
    .seq (.store (.loc 84) (.load (.loc 2))) <|
    .seq (.store (.off (.loc 84) 1) (.load (.off (.loc 2) 1))) <|
    .seq (.store (.off (.loc 84) 2) (.load (.off (.loc 2) 2))) <|
    .seq (.store (.off (.loc 84) 3) (.load (.off (.loc 3) 3))) <|
    .seq (.call (some 33) glm_vec4_dot.locals glm_vec4_dot.nregs glm_vec4_dot.body [.loc 57, .loc 84]) <|
    .seq (.set 34 (.reg 33)) <|
    .seq (.store (.loc 85) (.load (.loc 3))) <|
    .seq (.store (.off (.loc 85) 1) (.load (.off (.loc 2) 1))) <|
    .seq (.store (.off (.loc 85) 2) (.load (.off (.loc 2) 2))) <|
    .seq (.store (.off (.loc 85) 3) (.load (.off (.loc 3) 3))) <|
    .seq (.call (some 35) glm_vec4_dot.locals glm_vec4_dot.nregs glm_vec4_dot.body [.loc 59, .loc 85]) <|
    .seq (.set 36 (.reg 35)) <|
    .seq (.store (.loc 86) (.load (.loc 2))) <|
    .seq (.store (.off (.loc 86) 1) (.load (.off (.loc 3) 1))) <|
    .seq (.store (.off (.loc 86) 2) (.load (.off (.loc 2) 2))) <|
    .seq (.store (.off (.loc 86) 3) (.load (.off (.loc 3) 3))) <|
    .seq (.call (some 37) glm_vec4_dot.locals glm_vec4_dot.nregs glm_vec4_dot.body [.loc 58, .loc 86]) <|
    .seq (.set 38 (.reg 37)) <|
    .seq (.store (.loc 87) (.load (.loc 3))) <|
    .seq (.store (.off (.loc 87) 1) (.load (.off (.loc 3) 1))) <|
    .seq (.store (.off (.loc 87) 2) (.load (.off (.loc 2) 2))) <|
    .seq (.store (.off (.loc 87) 3) (.load (.off (.loc 3) 3))) <|
    .seq (.call (some 39) glm_vec4_dot.locals glm_vec4_dot.nregs glm_vec4_dot.body [.loc 60, .loc 87]) <|
    .seq (.set 40 (.reg 39)) <|
    .seq (.store (.loc 88) (.load (.loc 2))) <|
    .seq (.store (.off (.loc 88) 1) (.load (.off (.loc 2) 1))) <|
    .seq (.store (.off (.loc 88) 2) (.load (.off (.loc 3) 2))) <|
    .seq (.store (.off (.loc 88) 3) (.load (.off (.loc 3) 3))) <|
    .seq (.call (some 41) glm_vec4_dot.locals glm_vec4_dot.nregs glm_vec4_dot.body [.loc 65, .loc 88]) <|
    .seq (.set 42 (.reg 41)) <|
    .seq (.store (.loc 89) (.load (.loc 3))) <|
    .seq (.store (.off (.loc 89) 1) (.load (.off (.loc 2) 1))) <|
    .seq (.store (.off (.loc 89) 2) (.load (.off (.loc 3) 2))) <|
    .seq (.store (.off (.loc 89) 3) (.load (.off (.loc 3) 3))) <|
    .seq (.call (some 43) glm_vec4_dot.locals glm_vec4_dot.nregs glm_vec4_dot.body [.loc 67, .loc 89]) <|
    .seq (.set 44 (.reg 43)) <|
    .seq (.store (.loc 90) (.load (.loc 2))) <|
    .seq (.store (.off (.loc 90) 1) (.load (.off (.loc 3) 1))) <|
    .seq (.store (.off (.loc 90) 2) (.load (.off (.loc 3) 2))) <|
    .seq (.store (.off (.loc 90) 3) (.load (.off (.loc 3) 3))) <|
    .seq (.call (some 45) glm_vec4_dot.locals glm_vec4_dot.nregs glm_vec4_dot.body [.loc 66, .loc 90]) <|
    .seq (.set 46 (.reg 45)) <|
    .seq (.call (some 47) glm_vec4_dot.locals glm_vec4_dot.nregs glm_vec4_dot.body [.loc 68, .loc 3]) <|
    .seq (.set 48 (.reg 47)) <|
    .seq (.seq (.call none glm_vec4_mul.locals glm_vec4_mul.nregs glm_vec4_mul.body [.loc 2, .loc 2, .loc 92]) (.seq (.call none glm_vec4_mul.locals glm_vec4_mul.nregs glm_vec4_mul.body [.loc 92, .loc 2, .loc 92]) (.seq (.call none glm_vec4_scale.locals glm_vec4_scale.nregs glm_vec4_scale.body [.loc 2, .flit 6, .loc 91]) (.seq (.call none glm_vec4_subs.locals glm_vec4_subs.nregs glm_vec4_subs.body [.loc 91, .flit 15, .loc 91]) (.seq (.call none glm_vec4_mul.locals glm_vec4_mul.nregs glm_vec4_mul.body [.loc 2, .loc 91, .loc 91]) (.seq (.call none glm_vec4_adds.locals glm_vec4_adds.nregs glm_vec4_adds.body [.loc 91, .flit 10, .loc 91]) (.call none glm_vec4_mul.locals glm_vec4_mul.nregs glm_vec4_mul.body [.loc 92, .loc 91, .loc 91]))))))) <|
    .seq (.store (.loc 93) (.reg 18)) <|
    .seq (.store (.off (.loc 93) 1) (.reg 20)) <|
    .seq (.store (.off (.loc 93) 2) (.reg 22)) <|
    .seq (.store (.off (.loc 93) 3) (.reg 24)) <|
    .seq (.store (.loc 94) (.reg 34)) <|
    .seq (.store (.off (.loc 94) 1) (.reg 36)) <|
    .seq (.store (.off (.loc 94) 2) (.reg 38)) <|
    .seq (.store (.off (.loc 94) 3) (.reg 40)) <|
    .seq (.call none glm_vec4_lerp.locals glm_vec4_lerp.nregs glm_vec4_lerp.body [.loc 93, .loc 94, .load (.off (.loc 91) 3), .loc 95]) <|
    .seq (.store (.loc 96) (.reg 26)) <|
    .seq (.store (.off (.loc 96) 1) (.reg 28)) <|
    .seq (.store (.off (.loc 96) 2) (.reg 30)) <|
    .seq (.store (.off (.loc 96) 3) (.reg 32)) <|
    .seq (.store (.loc 97) (.reg 42)) <|
    .seq (.store (.off (.loc 97) 1) (.reg 44)) <|
    .seq (.store (.off (.loc 97) 2) (.reg 46)) <|
    .seq (.store (.off (.loc 97) 3) (.reg 48)) <|
    .seq (.call none glm_vec4_lerp.locals glm_vec4_lerp.nregs glm_vec4_lerp.body [.loc 96, .loc 97, .load (.off (.loc 91) 3), .loc 98]) <|
    .seq (.call none glm_vec4_lerp.locals glm_vec4_lerp.nregs glm_vec4_lerp.body [.loc 95, .loc 98, .load (.off (.loc 91) 2), .loc 99]) <|
    .seq (.store (.loc 101) (.load (.loc 99))) <|
    .seq (.store (.off (.loc 101) 1) (.load (.off (.loc 99) 1))) <|
    .seq (.store (.loc 102) (.load (.off (.loc 99) 2))) <|
    .seq (.store (.off (.loc 102) 1) (.load (.off (.loc 99) 3))) <|
    .seq (.call none glm_vec2_lerp.locals glm_vec2_lerp.nregs glm_vec2_lerp.body [.loc 101, .loc 102, .load (.off (.loc 91) 1), .loc 100]) <|
    .seq (.call (some 49) glm_lerp.locals glm_lerp.nregs glm_lerp.body [.load (.loc 100), .load (.off (.loc 100) 1), .load (.loc 91)]) <|
    .seq (.set 50 (.reg 49)) <|
    .ret (.f2 .mul (.reg 50) (.flit 2.2))

/-- `glm_perlin_vec3`: include/cglm/noise.h:506-625. -/
def glm_perlin_vec3 : Fn where
  locals := [3, 3, 3, 3, 4, 4, 4, 4, 4, 4, 4, 4, 4, 4, 4, 4, 4, 4, 4, 4, 4, 4, 4, 4, 4, 3, 3, 3, 3, 3, 3, 3, 3, 4, 4, 4, 4, 3, 3, 3, 3, 3, 3, 3, 3, 4, 4, 4, 2, 2, 2]
  nregs := 26
  body := 
    .seq (.call none glm_vec3_floor.locals glm_vec3_floor.nregs glm_vec3_floor.body [.reg 0, .loc 0]) <|
    .seq (.call none glm_vec3_adds.locals glm_vec3_adds.nregs glm_vec3_adds.body [.loc 0, .flit 1, .loc 1]) <|
    .seq (.call none glm_vec3_mods.locals glm_vec3_mods.nregs glm_vec3_mods.body [.loc 0, .flit 289, .loc 0]) <|
    .seq (.call none glm_vec3_mods.locals glm_vec3_mods.nregs glm_vec3_mods.body [.loc 1, .flit 289, .loc 1]) <|
    .seq (.call none glm_vec3_fract.locals glm_vec3_fract.nregs glm_vec3_fract.body [.reg 0, .loc 2]) <|
    .seq (.call none glm_vec3_subs.locals glm_vec3_subs.nregs glm_vec3_subs.body [.loc 2, .flit 1, .loc 3]) <|
    .seq (.store (.loc 4) (.load (.loc 0))) <|
    .seq (.store (.off (.loc 4) 1) (.load (.loc 1))) <|
    .seq (.store (.off (.loc 4) 2) (.load (.loc 0))) <|
    .seq (.store (.off (.loc 4) 3) (.load (.loc 1))) <|
    .seq (.store (.loc 5) (.load (.off (.loc 0) 1))) <|
    .seq (.store (.off (.loc 5) 1) (.load (.off (.loc 0) 1))) <|
    .seq (.store (.off (.loc 5) 2) (.load (.off (.loc 1) 1))) <|
    .seq (.store (.off (.loc 5) 3) (.load (.off (.loc 1) 1))) <|
    .seq (.store (.loc 6) (.load (.off (.loc 0) 2))) <|
    .seq (.store (.off (.loc 6) 1) (.load (.off (.loc 0) 2))) <|
    .seq (.store (.off (.loc 6) 2) (.load (.off (.loc 0) 2))) <|
    .seq (.store (.off (.loc 6) 3) (.load (.off (.loc 0) 2))) <|
    .seq (.store (.loc 7) (.load (.off (.loc 1) 2))) <|
    .seq (.store (.off (.loc 7) 1) (.load (.off (.loc 1) 2))) <|
    .seq (.store (.off (.loc 7) 2) (.load (.off (.loc 1) 2))) <|
    .seq (.store (.off (.loc 7) 3) (.load (.off (.loc 1) 2))) <|
    .seq (.store (.loc 8) (.f2 .sub (.f2 .mul (.f2 .add (.f2 .mul (.load (.loc 4)) (.flit 34)) (.flit 1)) (.load (.loc 4))) (.f2 .mul (.f1 .floorf (.f2 .mul (.f2 .mul (.f2 .add (.f2 .mul (.load (.loc 4)) (.flit 34)) (.flit 1)) (.load (.loc 4))) (.f2 .div (.flit 1) (.flit 289)))) (.flit 289)))) <|
    .seq (.store (.off (.loc 8) 1) (.f2 .sub (.f2 .mul (.f2 .add (.f2 .mul (.load (.off (.loc 4) 1)) (.flit 34)) (.flit 1)) (.load (.off (.loc 4) 1))) (.f2 .mul (.f1 .floorf (.f2 .mul (.f2 .mul (.f2 .add (.f2 .mul (.load (.off (.loc 4) 1)) (.flit 34)) (.flit 1)) (.load (.off (.loc 4) 1))) (.f2 .div (.flit 1) (.flit 289)))) (.flit 289)))) <|
    .seq (.store (.off (.loc 8) 2) (.f2 .sub (.f2 .mul (.f2 .add (.f2 .mul (.load (.off (.loc 4) 2)) (.flit 34)) (.flit 1)) (.load (.off (.loc 4) 2))) (.f2 .mul (.f1 .floorf (.f2 .mul (.f2 .mul (.f2 .add (.f2 .mul (.load (.off (.loc 4) 2)) (.flit 34)) (.flit 1)) (.load (.off (.loc 4) 2))) (.f2 .div (.flit 1) (.flit 289)))) (.flit 289)))) <|
    .seq (.store (.off (.loc 8) 3) (.f2 .sub (.f2 .mul (.f2 .add (.f2 .mul (.load (.off (.loc 4) 3)) (.flit 34)) (.flit 1)) (.load (.off (.loc 4) 3))) (.f2 .mul (.f1 .floorf (.f2 .mul (.f2 .mul (.f2 .add (.f2 .mul (.load (.off (.loc 4) 3)) (.flit 34)) (.flit 1)) (.load (.off (.loc 4) 3))) (.f2 .div (.flit 1) (.flit 289)))) (.flit 289)))) <|
    .seq (.call none glm_vec4_add.locals glm_vec4_add.nregs glm_vec4_add.body [.loc 8, .loc 5, .loc 8]) <|
    .seq (.store (.loc 8) (.f2 .sub (.f2 .mul (.f2 .add (.f2 .mul (.load (.loc 8)) (.flit 34)) (.flit 1)) (.load (.loc 8))) (.f2 .mul (.f1 .floorf (.f2 .mul (.f2 .mul (.f2 .add (.f2 .mul (.load (.loc 8)) (.flit 34)) (.flit 1)) (.load (.loc 8))) (.f2 .div (.flit 1) (.flit 289)))) (.flit 289)))) <|
    .seq (.store (.off (.loc 8) 1) (.f2 .sub (.f2 .mul (.f2 .add (.f2 .mul (.load (.off (.loc 8) 1)) (.flit 34)) (.flit 1)) (.load (.off (.loc 8) 1))) (.f2 .mul (.f1 .floorf (.f2 .mul (.f2 .mul (.f2 .add (.f2 .mul (.load (.off (.loc 8) 1)) (.flit 34)) (.flit 1)) (.load (.off (.loc 8) 1))) (.f2 .div (.flit 1) (.flit 289)))) (.flit 289)))) <|
    .seq (.store (.off (.loc 8) 2) (.f2 .sub (.f2 .mul (.f2 .add (.f2 .mul (.load (.off (.loc 8) 2)) (.flit 34)) (.flit 1)) (.load (.off (.loc 8) 2))) (.f2 .mul (.f1 .floorf (.f2 .mul (.f2 .mul (.f2 .add (.f2 .mul (.load (.off (.loc 8) 2)) (.flit 34)) (.flit 1)) (.load (.off (.loc 8) 2))) (.f2 .div (.flit 1) (.flit 289)))) (.flit 289)))) <|
    .seq (.store (.off (.loc 8) 3) (.f2 .sub (.f2 .mul (.f2 .add (.f2 .mul (.load (.off (.loc 8) 3)) (.flit 34)) (.flit 1)) (.load (.off (.loc 8) 3))) (.f2 .mul (.f1 .floorf (.f2 .mul (.f2 .mul (.f2 .add (.f2 .mul (.load (.off (.loc 8) 3)) (.flit 34)) (.flit 1)) (.load (.off (.loc 8) 3))) (.f2 .div (.flit 1) (.flit 289)))) (.flit 289)))) <|
    .seq (.call none glm_vec4_add.locals glm_vec4_add.nregs glm_vec4_add.body [.loc 8, .loc 6, .loc 9]) <|
    .seq (.store (.loc 9) (.f2 .sub (.f2 .mul (.f2 .add (.f2 .mul (.load (.loc 9)) (.flit 34)) (.flit 1)) (.load (.loc 9))) (.f2 .mul (.f1 .floorf (.f2 .mul (.f2 .mul (.f2 .add (.f2 .mul (.load (.loc 9)) (.flit 34)) (.flit 1)) (.load (.loc 9))) (.f2 .div (.flit 1) (.flit 289)))) (.flit 289)))) <|
    .seq (.store (.off (.loc 9) 1) (.f2 .sub (.f2 .mul (.f2 .add (.f2 .mul (.load (.off (.loc 9) 1)) (.flit 34)) (.flit 1)) (.load (.off (.loc 9) 1))) (.f2 .mul (.f1 .floorf (.f2 .mul (.f2 .mul (.f2 .add (.f2 .mul (.load (.off (.loc 9) 1)) (.flit 34)) (.flit 1)) (.load (.off (.loc 9) 1))) (.f2 .div (.flit 1) (.flit 289)))) (.flit 289)))) <|
    .seq (.store (.off (.loc 9) 2) (.f2 .sub (.f2 .mul (.f2 .add (.f2 .mul (.load (.off (.loc 9) 2)) (.flit 34)) (.flit 1)) (.load (.off (.loc 9) 2))) (.f2 .mul (.f1 .floorf (.f2 .mul (.f2 .mul (.f2 .add (.f2 .mul (.load (.off (.loc 9) 2)) (.flit 34)) (.flit 1)) (.load (.off (.loc 9) 2))) (.f2 .div (.flit 1) (.flit 289)))) (.flit 289)))) <|
    .seq (.store (.off (.loc 9) 3) (.f2 .sub (.f2 .mul (.f2 .add (.f2 .mul (.load (.off (.loc 9) 3)) (.flit 34)) (.flit 1)) (.load (.off (.loc 9) 3))) (.f2 .mul (.f1 .floorf (.f2 .mul (.f2 .mul (.f2 .add (.f2 .mul (.load (.off (.loc 9) 3)) (.flit 34)) (.flit 1)) (.load (.off (.loc 9) 3))) (.f2 .div (.flit 1) (.flit 289)))) (.flit 289)))) <|
    .seq (.call none glm_vec4_add.locals glm_vec4_add.nregs glm_vec4_add.body [.loc 8, .loc 7, .loc 10]) <|
    .seq (.store (.loc 10) (.f2 .sub (.f2 .mul (.f2 .add (.f2 .mul (.load (.loc 10)) (.flit 34)) (.flit 1)) (.load (.loc 10))) (.f2 .mul (.f1 .floorf (.f2 .mul (.f2 .mul (.f2 .add (.f2 .mul (.load (.loc 10)) (.flit 34)) (.flit 1)) (.load (.loc 10))) (.f2 .div (.flit 1) (.flit 289)))) (.flit 289)))) <|
    .seq (.store (.off (.loc 10) 1) (.f2 .sub (.f2 .mul (.f2 .add (.f2 .mul (.load (.off (.loc 10) 1)) (.flit 34)) (.flit 1)) (.load (.off (.loc 10) 1))) (.f2 .mul (.f1 .floorf (.f2 .mul (.f2 .mul (.f2 .add (.f2 .mul (.load (.off (.loc 10) 1)) (.flit 34)) (.flit 1)) (.load (.off (.loc 10) 1))) (.f2 .div (.flit 1) (.flit 289)))) (.flit 289)))) <|
    .seq (.store (.off (.loc 10) 2) (.f2 .sub (.f2 .mul (.f2 .add (.f2 .mul (.load (.off (.loc 10) 2)) (.flit 34)) (.flit 1)) (.load (.off (.loc 10) 2))) (.f2 .mul (.f1 .floorf (.f2 .mul (.f2 .mul (.f2 .add (.f2 .mul (.load (.off (.loc 10) 2)) (.flit 34)) (.flit 1)) (.load (.off (.loc 10) 2))) (.f2 .div (.flit 1) (.flit 289)))) (.flit 289)))) <|
    .seq (.store (.off (.loc 10) 3) (.f2 .sub (.f2 .mul (.f2 .add (.f2 .mul (.load (.off (.loc 10) 3)) (.flit 34)) (.flit 1)) (.load (.off (.loc 10) 3))) (.f2 .mul (.f1 .floorf (.f2 .mul (.f2 .mul (.f2 .add (.f2 .mul (.load (.off (.loc 10) 3)) (.flit 34)) (.flit 1)) (.load (.off (.loc 10) 3))) (.f2 .div (.flit 1) (.flit 289)))) (.flit 289)))) <|
    .seq (.seq (.call none glm_vec4_scale.locals glm_vec4_scale.nregs glm_vec4_scale.body [.loc 9, .f2 .div (.flit 1) (.flit 7), .loc 11]) (.seq (.call none glm_vec4_floor.locals glm_vec4_floor.nregs glm_vec4_floor.body [.loc 11, .loc 12]) (.seq (.call none glm_vec4_scale.locals glm_vec4_scale.nregs glm_vec4_scale.body [.loc 12, .f2 .div (.flit 1) (.flit 7), .loc 12]) (.seq (.call none glm_vec4_fract.locals glm_vec4_fract.nregs glm_vec4_fract.body [.loc 12, .loc 12]) (.seq (.call none glm_vec4_subs.locals glm_vec4_subs.nregs glm_vec4_subs.body [.loc 12, .flit 0.5, .loc 12]) (.seq (.call none glm_vec4_fract.locals glm_vec4_fract.nregs glm_vec4_fract.body [.loc 11, .loc 11]) (.seq (.call none glm_vec4_abs.locals glm_vec4_abs.nregs glm_vec4_abs.body [.loc 11, .loc 14]) (.seq (.call none glm_vec4_abs.locals glm_vec4_abs.nregs glm_vec4_abs.body [.loc 12, .loc 15]) (.seq (.call none glm_vec4_fill.locals glm_vec4_fill.nregs glm_vec4_fill.body [.loc 13, .flit 0.5]) (.seq (.call none glm_vec4_sub.locals glm_vec4_sub.nregs glm_vec4_sub.body [.loc 13, .loc 14, .loc 13]) (.seq (.call none glm_vec4_sub.locals glm_vec4_sub.nregs glm_vec4_sub.body [.loc 13, .loc 15, .loc 13]) (.seq (.call none glm_vec4_stepr.locals glm_vec4_stepr.nregs glm_vec4_stepr.body [.loc 13, .flit 0, .loc 16]) (.seq (.store (.loc 17) (.flit 0)) (.seq (.store (.off (.loc 17) 1) (.flit 0)) (.seq (.store (.off (.loc 17) 2) (.flit 0)) (.seq (.store (.off (.loc 17) 3) (.flit 0)) (.seq (.call none glm_vec4_step.locals glm_vec4_step.nregs glm_vec4_step.body [.loc 17, .loc 11, .loc 17]) (.seq (.call none glm_vec4_subs.locals glm_vec4_subs.nregs glm_vec4_subs.body [.loc 17, .flit 0.5, .loc 17]) (.seq (.call none glm_vec4_mul.locals glm_vec4_mul.nregs glm_vec4_mul.body [.loc 16, .loc 17, .loc 17]) (.seq (.call none glm_vec4_sub.locals glm_vec4_sub.nregs glm_vec4_sub.body [.loc 11, .loc 17, .loc 11]) (.seq (.call none glm_vec4_zero.locals glm_vec4_zero.nregs glm_vec4_zero.body [.loc 17]) (.seq (.call none glm_vec4_step.locals glm_vec4_step.nregs glm_vec4_step.body [.loc 17, .loc 12, .loc 17]) (.seq (.call none glm_vec4_subs.locals glm_vec4_subs.nregs glm_vec4_subs.body [.loc 17, .flit 0.5, .loc 17]) (.seq (.call none glm_vec4_mul.locals glm_vec4_mul.nregs glm_vec4_mul.body [.loc 16, .loc 17, .loc 17]) (.call none glm_vec4_sub.locals glm_vec4_sub.nregs glm_vec4_sub.body [.loc 12, .loc 17, .loc 12]))))))))))))))))))))))))) <|
    .seq (.seq (.call none glm_vec4_scale.locals glm_vec4_scale.nregs glm_vec4_scale.body [.loc 10, .f2 .div (.flit 1) (.flit 7), .loc 18]) (.seq (.call none glm_vec4_floor.locals glm_vec4_floor.nregs glm_vec4_floor.body [.loc 18, .loc 19]) (.seq (.call none glm_vec4_scale.locals glm_vec4_scale.nregs glm_vec4_scale.body [.loc 19, .f2 .div (.flit 1) (.flit 7), .loc 19]) (.seq (.call none glm_vec4_fract.locals glm_vec4_fract.nregs glm_vec4_fract.body [.loc 19, .loc 19]) (.seq (.call none glm_vec4_subs.locals glm_vec4_subs.nregs glm_vec4_subs.body [.loc 19, .flit 0.5, .loc 19]) (.seq (.call none glm_vec4_fract.locals glm_vec4_fract.nregs glm_vec4_fract.body [.loc 18, .loc 18]) (.seq (.call none glm_vec4_abs.locals glm_vec4_abs.nregs glm_vec4_abs.body [.loc 18, .loc 21]) (.seq (.call none glm_vec4_abs.locals glm_vec4_abs.nregs glm_vec4_abs.body [.loc 19, .loc 22]) (.seq (.call none glm_vec4_fill.locals glm_vec4_fill.nregs glm_vec4_fill.body [.loc 20, .flit 0.5]) (.seq (.call none glm_vec4_sub.locals glm_vec4_sub.nregs glm_vec4_sub.body [.loc 20, .loc 21, .loc 20]) (.seq (.call none glm_vec4_sub.locals glm_vec4_sub.nregs glm_vec4_sub.body [.loc 20, .loc 22, .loc 20]) (.seq (.call none glm_vec4_stepr.locals glm_vec4_stepr.nregs glm_vec4_stepr.body [.loc 20, .flit 0, .loc 23]) (.seq (.store (.loc 24) (.flit 0)) (.seq (.store (.off (.loc 24) 1) (.flit 0)) (.seq (.store (.off (.loc 24) 2) (.flit 0)) (.seq (.store (.off (.loc 24) 3) (.flit 0)) (.seq (.call none glm_vec4_step.locals glm_vec4_step.nregs glm_vec4_step.body [.loc 24, .loc 18, .loc 24]) (.seq (.call none glm_vec4_subs.locals glm_vec4_subs.nregs glm_vec4_subs.body [.loc 24, .flit 0.5, .loc 24]) (.seq (.call none glm_vec4_mul.locals glm_vec4_mul.nregs glm_vec4_mul.body [.loc 23, .loc 24, .loc 24]) (.seq (.call none glm_vec4_sub.locals glm_vec4_sub.nregs glm_vec4_sub.body [.loc 18, .loc 24, .loc 18]) (.seq (.call none glm_vec4_zero.locals glm_vec4_zero.nregs glm_vec4_zero.body [.loc 24]) (.seq (.call none glm_vec4_step.locals glm_vec4_step.nregs glm_vec4_step.body [.loc 24, .loc 19, .loc 24]) (.seq (.call none glm_vec4_subs.locals glm_vec4_subs.nregs glm_vec4_subs.body [.loc 24, .flit 0.5, .loc 24]) (.seq (.call none glm_vec4_mul.locals glm_vec4_mul.nregs glm_vec4_mul.body [.loc 23, .loc 24, .loc 24]) (.call none glm_vec4_sub.locals glm_vec4_sub.nregs glm_vec4_sub.body [.loc 19, .loc 24, .loc 19]))))))))))))))))))))))))) <|
    .seq (.store (.loc 25) (.load (.loc 11))) <|
    .seq (.store (.off (.loc 25) 1) (.load (.loc 12))) <|
    .seq (.store (.off (.loc 25) 2) (.load (.loc 13))) <|
    .seq (.store (.loc 26) (.load (.off (.loc 11) 1))) <|
    .seq (.store (.off (.loc 26) 1) (.load (.off (.loc 12) 1))) <|
    .seq (.store (.off (.loc 26) 2) (.load (.off (.loc 13) 1))) <|
    .seq (.store (.loc 27) (.load (.off (.loc 11) 2))) <|
    .seq (.store (.off (.loc 27) 1) (.load (.off (.loc 12) 2))) <|
    .seq (.store (.off (.loc 27) 2) (.load (.off (.loc 13) 2))) <|
    .seq (.store (.loc 28) (.load (.off (.loc 11) 3))) <|
    .seq (.store (.off (.loc 28) 1) (.load (.off (.loc 12) 3))) <|
    .seq (.store (.off (.loc 28) 2) (.load (.off (.loc 13) 3))) <|
    .seq (.store (.loc 29) (.load (.loc 18))) <|
    .seq (.store (.off (.loc 29) 1) (.load (.loc 19))) <|
    .seq (.store (.off (.loc 29) 2) (.load (.loc 20))) <|
    .seq (.store (.loc 30) (.load (.off (.loc 18) 1))) <|
    .seq (.store (.off (.loc 30) 1) (.load (.off (.loc 19) 1))) <|
    .seq (.store (.off (.loc 30) 2) (.load (.off (.loc 20) 1))) <|
    .seq (.store (.loc 31) (.load (.off (.loc 18) 2))) <|
    .seq (.store (.off (.loc 31) 1) (.load (.off (.loc 19) 2))) <|
    .seq (.store (.off (.loc 31) 2) (.load (.off (.loc 20) 2))) <|
    .seq (.store (.loc 32) (.load (.off (.loc 18) 3))) <|
    .seq (.store (.off (.loc 32) 1) (.load (.off (.loc 19) 3))) <|
    .seq (.store (.off (.loc 32) 2) (.load (.off (.loc 20) 3))) <|
    .seq (.seq (.call (some 1) glm_vec3_dot.locals glm_vec3_dot.nregs glm_vec3_dot.body [.loc 25, .loc 25]) (.seq (.store (.loc 33) (.reg 1)) (.seq (.call (some 2) glm_vec3_dot.locals glm_vec3_dot.nregs glm_vec3_dot.body [.loc 27, .loc 27]) (.seq (.store (.off (.loc 33) 1) (.reg 2)) (.seq (.call (some 3) glm_vec3_dot.locals glm_vec3_dot.nregs glm_vec3_dot.body [.loc 26, .loc 26]) (.seq (.store (.off (.loc 33) 2) (.reg 3)) (.seq (.call (some 4) glm_vec3_dot.locals glm_vec3_dot.nregs glm_vec3_dot.body [.loc 28, .loc 28]) (.seq (.store (.off (.loc 33) 3) (.reg 4)) (.seq (.seq (.call none glm_vec4_scale.locals glm_vec4_scale.nregs glm_vec4_scale.body [.loc 33, .flit 0.85373472095314, .loc 34]) (.seq (.call none glm_vec4_fill.locals glm_vec4_fill.nregs glm_vec4_fill.body [.loc 33, .flit 1.79284291400159]) (.call none glm_vec4_sub.locals glm_vec4_sub.nregs glm_vec4_sub.body [.loc 33, .loc 34, .loc 33]))) (.seq (.call none glm_vec3_scale.locals glm_vec3_scale.nregs glm_vec3_scale.body [.loc 25, .load (.loc 33), .loc 25]) (.seq (.call none glm_vec3_scale.locals glm_vec3_scale.nregs glm_vec3_scale.body [.loc 27, .load (.off (.loc 33) 1), .loc 27]) (.seq (.call none glm_vec3_scale.locals glm_vec3_scale.nregs glm_vec3_scale.body [.loc 26, .load (.off (.loc 33) 2), .loc 26]) (.call none glm_vec3_scale.locals glm_vec3_scale.nregs glm_vec3_scale.body [.loc 28, .load (.off (.loc 33) 3), .loc 28]))))))))))))) <|
    .seq (.seq (.call (some 5) glm_vec3_dot.locals glm_vec3_dot.nregs glm_vec3_dot.body [.loc 29, .loc 29]) (.seq (.store (.loc 35) (.reg 5)) (.seq (.call (some 6) glm_vec3_dot.locals glm_vec3_dot.nregs glm_vec3_dot.body [.loc 31, .loc 31]) (.seq (.store (.off (.loc 35) 1) (.reg 6)) (.seq (.call (some 7) glm_vec3_dot.locals glm_vec3_dot.nregs glm_vec3_dot.body [.loc 30, .loc 30]) (.seq (.store (.off (.loc 35) 2) (.reg 7)) (.seq (.call (some 8) glm_vec3_dot.locals glm_vec3_dot.nregs glm_vec3_dot.body [.loc 32, .loc 32]) (.seq (.store (.off (.loc 35) 3) (.reg 8)) (.seq (.seq (.call none glm_vec4_scale.locals glm_vec4_scale.nregs glm_vec4_scale.body [.loc 35, .flit 0.85373472095314, .loc 36]) (.seq (.call none glm_vec4_fill.locals glm_vec4_fill.nregs glm_vec4_fill.body [.loc 35, .flit 1.79284291400159]) (.call none glm_vec4_sub.locals glm_vec4_sub.nregs glm_vec4_sub.body [.loc 35, .loc 36, .loc 35]))) (.seq (.call none glm_vec3_scale.locals glm_vec3_scale.nregs glm_vec3_scale.body [.loc 29, .load (.loc 35), .loc 29]) (.seq (.call none glm_vec3_scale.locals glm_vec3_scale.nregs glm_vec3_scale.body [.loc 31, .load (.off (.loc 35) 1), .loc 31]) (.seq (.call none glm_vec3_scale.locals glm_vec3_scale.nregs glm_vec3_scale.body [.loc 30, .load (.off (.loc 35) 2), .loc 30]) (.call none glm_vec3_scale.locals glm_vec3_scale.nregs glm_vec3_scale.body [.loc 32, .load (.off (.loc 35) 3), .loc 32]))))))))))))) <|
    .seq (.call (some 9) glm_vec3_dot.locals glm_vec3_dot.nregs glm_vec3_dot.body [.loc 25, .loc 2]) <|
    .seq (.set 10 (.reg 9)) <|
    .seq (.store (.loc 37) (.load (.loc 3))) <|
    .seq (.store (.off (.loc 37) 1) (.load (.off (.loc 2) 1))) <|
    .seq (.store (.off (.loc 37) 2) (.load (.off (.loc 2) 2))) <|
    .seq (.call (some 11) glm_vec3_dot.locals glm_vec3_dot.nregs glm_vec3_dot.body [.loc 26, .loc 37]) <|
    .seq (.set 12 (.reg 11)) <|
    .seq (.store (.loc 38) (.load (.loc 2))) <|
    .seq (.store (.off (.loc 38) 1) (.load (.off (.loc 3) 1))) <|
    .seq (.store (.off (.loc 38) 2) (.load (.off (.loc 2) 2))) <|
    .seq (.call (some 13) glm_vec3_dot.locals glm_vec3_dot.nregs glm_vec3_dot.body [.loc 27, .loc 38]) <|
    .seq (.set 14 (.reg 13)) <|
    .seq (.store (.loc 39) (.load (.loc 3))) <|
    .seq (.store (.off (.loc 39) 1) (.load (.off (.loc 3) 1))) <|
    .seq (.store (.off (.loc 39) 2) (.load (.off (.loc 2) 2))) <|
    .seq (.call (some 15) glm_vec3_dot.locals glm_vec3_dot.nregs glm_vec3_dot.body [.loc 28, .loc 39]) <|
    .seq (.set 16 (.reg 15)) <|
    .seq (.store (.loc 40) (.load (.loc 2))) <|
    .seq (.store (.off (.loc 40) 1) (.load (.off (.loc 2) 1))) <|
    .seq (.store (.off (.loc 40) 2) (.load (.off (.loc 3) 2))) <|
    .seq (.call (some 17) glm_vec3_dot.locals glm_vec3_dot.nregs glm_vec3_dot.body [.loc 29, .loc 40]) <|
    .seq (.set 18 (.reg 17)) <|
    .seq (.store (.loc 41) (.load (.loc 3))) <|
    .seq (.store (.off (.loc 41) 1) (.load (.off (.loc 2) 1))) <|
    .seq (.store (.off (.loc 41) 2) (.load (.off (.loc 3) 2))) <|
    .seq (.call (some 19) glm_vec3_dot.locals glm_vec3_dot.nregs glm_vec3_dot.body [.loc 30, .loc 41]) <|
    .seq (.set 20 (.reg 19)) <|
    .seq (.store (.loc 42) (.load (.loc 2))) <|
    .seq (.store (.off (.loc 42) 1) (.load (.off (.loc 3) 1))) <|
    .seq (.store (.off (.loc 42) 2) (.load (.off (.loc 3) 2))) <|
    .seq (.call (some 21) glm_vec3_dot.locals glm_vec3_dot.nregs glm_vec3_dot.body [.loc 31, .loc 42]) <|
    .seq (.set 22 (.reg 21)) <|
    .seq (.call (some 23) glm_vec3_dot.locals glm_vec3_dot.nregs glm_vec3_dot.body [.loc 32, .loc 3]) <|
    .seq (.set 24 (.reg 23)) <|
    .seq (.seq (.call none glm_vec3_mul.locals glm_vec3_mul.nregs glm_vec3_mul.body [.loc 2, .loc 2, .loc 44]) (.seq (.call none glm_vec3_mul.locals glm_vec3_mul.nregs glm_vec3_mul.body [.loc 44, .loc 2, .loc 44]) (.seq (.call none glm_vec3_scale.locals glm_vec3_scale.nregs glm_vec3_scale.body [.loc 2, .flit 6, .loc 43]) (.seq (.call none glm_vec3_subs.locals glm_vec3_subs.nregs glm_vec3_subs.body [.loc 43, .flit 15, .loc 43]) (.seq (.call none glm_vec3_mul.locals glm_vec3_mul.nregs glm_vec3_mul.body [.loc 2, .loc 43, .loc 43]) (.seq (.call none glm_vec3_adds.locals glm_vec3_adds.nregs glm_vec3_adds.body [.loc 43, .flit 10, .loc 43]) (.call none glm_vec3_mul.locals glm_vec3_mul.nregs glm_vec3_mul.body [.loc 44, .loc 43, .loc 43]))))))) <|
    .seq (.store (.loc 46) (.reg 10)) <|
    .seq (.store (.off (.loc 46) 1) (.reg 12)) <|
    .seq (.store (.off (.loc 46) 2) (.reg 14)) <|
    .seq (.store (.off (.loc 46) 3) (.reg 16)) <|
    .seq (.store (.loc 47) (.reg 18)) <|
    .seq (.store (.off (.loc 47) 1) (.reg 20)) <|
    .seq (.store (.off (.loc 47) 2) (.reg 22)) <|
    .seq (.store (.off (.loc 47) 3) (.reg 24)) <|
    .seq (.call none glm_vec4_lerp.locals glm_vec4_lerp.nregs glm_vec4_lerp.body [.loc 46, .loc 47, .load (.off (.loc 43) 2), .loc 45]) <|
    .seq (.store (.loc 49) (.load (.loc 45))) <|
    .seq (.store (.off (.loc 49) 1) (.load (.off (.loc 45) 1))) <|
    .seq (.store (.loc 50) (.load (.off (.loc 45) 2))) <|
    .seq (.store (.off (.loc 50) 1) (.load (.off (.loc 45) 3))) <|
    .seq (.call none glm_vec2_lerp.locals glm_vec2_lerp.nregs glm_vec2_lerp.body [.loc 49, .loc 50, .load (.off (.loc 43) 1), .loc 48]) <|
    .seq (.call (some 25) glm_lerp.locals glm_lerp.nregs glm_lerp.body [.load (.loc 48), .load (.off (.loc 48) 1), .load (.loc 43)]) <|
    .seq (.set 26 (.reg 25)) <|
    .ret (.f2 .mul (.reg 26) (.flit 2.2))

/-- `glm_perlin_vec2`: include/cglm/noise.h:633-717. -/
def glm_perlin_vec2 : Fn where
  locals := [4, 4, 4, 4, 4, 4, 4, 4, 4, 4, 2, 2, 2, 2, 4, 4, 2, 2, 2, 2, 2, 2, 2, 2, 2, 2]
  nregs := 14
  body := 
    .seq (.store (.loc 0) (.load (.reg 0))) <|
    .seq (.store (.off (.loc 0) 1) (.load (.off (.reg 0) 1))) <|
    .seq (.store (.off (.loc 0) 2) (.load (.reg 0))) <|
    .seq (.store (.off (.loc 0) 3) (.load (.off (.reg 0) 1))) <|
    .seq (.call none glm_vec4_floor.locals glm_vec4_floor.nregs glm_vec4_floor.body [.loc 0, .loc 0]) <|
    .seq (.store (.off (.loc 0) 2) (.f2 .add (.load (.off (.loc 0) 2)) (.flit 1))) <|
    .seq (.store (.off (.loc 0) 3) (.f2 .add (.load (.off (.loc 0) 3)) (.flit 1))) <|
    .seq (.store (.loc 1) (.load (.reg 0))) <|
    .seq (.store (.off (.loc 1) 1) (.load (.off (.reg 0) 1))) <|
    .seq (.store (.off (.loc 1) 2) (.load (.reg 0))) <|
    .seq (.store (.off (.loc 1) 3) (.load (.off (.reg 0) 1))) <|
    .seq (.call none glm_vec4_fract.locals glm_vec4_fract.nregs glm_vec4_fract.body [.loc 1, .loc 1]) <|
    .seq (.store (.off (.loc 1) 2) (.f2 .sub (.load (.off (.loc 1) 2)) (.flit 1))) <|
    .seq (.store (.off (.loc 1) 3) (.f2 .sub (.load (.off (.loc 1) 3)) (.flit 1))) <|
    .seq (.call none glm_vec4_mods.locals glm_vec4_mods.nregs glm_vec4_mods.body [.loc 0, .flit 289, .loc 0]) <|
    .seq (.store (.loc 2) (.load (.loc 0))) <|
    .seq (.store (.off (.loc 2) 1) (.load (.off (.loc 0) 2))) <|
    .seq (.store (.off (.loc 2) 2) (.load (.loc 0))) <|
    .seq (.store (.off (.loc 2) 3) (.load (.off (.loc 0) 2))) <|
    .seq (.store (.loc 3) (.load (.off (.loc 0) 1))) <|
    .seq (.store (.off (.loc 3) 1) (.load (.off (.loc 0) 1))) <|
    .seq (.store (.off (.loc 3) 2) (.load (.off (.loc 0) 3))) <|
    .seq (.store (.off (.loc 3) 3) (.load (.off (.loc 0) 3))) <|
    .seq (.store (.loc 4) (.load (.loc 1))) <|
    .seq (.store (.off (.loc 4) 1) (.load (.off (.loc 1) 2))) <|
    .seq (.store (.off (.loc 4) 2) (.load (.loc 1))) <|
    .seq (.store (.off (.loc 4) 3) (.load (.off (.loc 1) 2))) <|
    .seq (.store (.loc 5) (.load (.off (.loc 1) 1))) <|
    .seq (.store (.off (.loc 5) 1) (.load (.off (.loc 1) 1))) <|
    .seq (.store (.off (.loc 5) 2) (.load (.off (.loc 1) 3))) <|
    .seq (.store (.off (.loc 5) 3) (.load (.off (.loc 1) 3))) <|
    .seq (.store (.loc 6) (.f2 .sub (.f2 .mul (.f2 .add (.f2 .mul (.load (.loc 2)) (.flit 34)) (.flit 1)) (.load (.loc 2))) (.f2 .mul (.f1 .floorf (.f2 .mul (.f2 .mul (.f2 .add (.f2 .mul (.load (.loc 2)) (.flit 34)) (.flit 1)) (.load (.loc 2))) (.f2 .div (.flit 1) (.flit 289)))) (.flit 289)))) <|
    .seq (.store (.off (.loc 6) 1) (.f2 .sub (.f2 .mul (.f2 .add (.f2 .mul (.load (.off (.loc 2) 1)) (.flit 34)) (.flit 1)) (.load (.off (.loc 2) 1))) (.f2 .mul (.f1 .floorf (.f2 .mul (.f2 .mul (.f2 .add (.f2 .mul (.load (.off (.loc 2) 1)) (.flit 34)) (.flit 1)) (.load (.off (.loc 2) 1))) (.f2 .div (.flit 1) (.flit 289)))) (.flit 289)))) <|
    .seq (.store (.off (.loc 6) 2) (.f2 .sub (.f2 .mul (.f2 .add (.f2 .mul (.load (.off (.loc 2) 2)) (.flit 34)) (.flit 1)) (.load (.off (.loc 2) 2))) (.f2 .mul (.f1 .floorf (.f2 .mul (.f2 .mul (.f2 .add (.f2 .mul (.load (.off (.loc 2) 2)) (.flit 34)) (.flit 1)) (.load (.off (.loc 2) 2))) (.f2 .div (.flit 1) (.flit 289)))) (.flit 289)))) <|
    .seq (.store (.off (.loc 6) 3) (.f2 .sub (.f2 .mul (.f2 .add (.f2 .mul (.load (.off (.loc 2) 3)) (.flit 34)) (.flit 1)) (.load (.off (.loc 2) 3))) (.f2 .mul (.f1 .floorf (.f2 .mul (.f2 .mul (.f2 .add (.f2 .mul (.load (.off (.loc 2) 3)) (.flit 34)) (.flit 1)) (.load (.off (.loc 2) 3))) (.f2 .div (.flit 1) (.flit 289)))) (.flit 289)))) <|
    .seq (.call none glm_vec4_add.locals glm_vec4_add.nregs glm_vec4_add.body [.loc 6, .loc 3, .loc 6]) <|
    .seq (.store (.loc 6) (.f2 .sub (.f2 .mul (.f2 .add (.f2 .mul (.load (.loc 6)) (.flit 34)) (.flit 1)) (.load (.loc 6))) (.f2 .mul (.f1 .floorf (.f2 .mul (.f2 .mul (.f2 .add (.f2 .mul (.load (.loc 6)) (.flit 34)) (.flit 1)) (.load (.loc 6))) (.f2 .div (.flit 1) (.flit 289)))) (.flit 289)))) <|
    .seq (.store (.off (.loc 6) 1) (.f2 .sub (.f2 .mul (.f2 .add (.f2 .mul (.load (.off (.loc 6) 1)) (.flit 34)) (.flit 1)) (.load (.off (.loc 6) 1))) (.f2 .mul (.f1 .floorf (.f2 .mul (.f2 .mul (.f2 .add (.f2 .mul (.load (.off (.loc 6) 1)) (.flit 34)) (.flit 1)) (.load (.off (.loc 6) 1))) (.f2 .div (.flit 1) (.flit 289)))) (.flit 289)))) <|
    .seq (.store (.off (.loc 6) 2) (.f2 .sub (.f2 .mul (.f2 .add (.f2 .mul (.load (.off (.loc 6) 2)) (.flit 34)) (.flit 1)) (.load (.off (.loc 6) 2))) (.f2 .mul (.f1 .floorf (.f2 .mul (.f2 .mul (.f2 .add (.f2 .mul (.load (.off (.loc 6) 2)) (.flit 34)) (.flit 1)) (.load (.off (.loc 6) 2))) (.f2 .div (.flit 1) (.flit 289)))) (.flit 289)))) <|
    .seq (.store (.off (.loc 6) 3) (.f2 .sub (.f2 .mul (.f2 .add (.f2 .mul (.load (.off (.loc 6) 3)) (.flit 34)) (.flit 1)) (.load (.off (.loc 6) 3))) (.f2 .mul (.f1 .floorf (.f2 .mul (.f2 .mul (.f2 .add (.f2 .mul (.load (.off (.loc 6) 3)) (.flit 34)) (.flit 1)) (.load (.off (.loc 6) 3))) (.f2 .div (.flit 1) (.flit 289)))) (.flit 289)))) <|
    .seq (.seq (.call none glm_vec4_divs.locals glm_vec4_divs.nregs glm_vec4_divs.body [.loc 6, .flit 41, .loc 7]) (.seq (.call none glm_vec4_fract.locals glm_vec4_fract.nregs glm_vec4_fract.body [.loc 7, .loc 7]) (.seq (.call none glm_vec4_scale.locals glm_vec4_scale.nregs glm_vec4_scale.body [.loc 7, .flit 2, .loc 7]) (.seq (.call none glm_vec4_subs.locals glm_vec4_subs.nregs glm_vec4_subs.body [.loc 7, .flit 1, .loc 7]) (.seq (.call none glm_vec4_abs.locals glm_vec4_abs.nregs glm_vec4_abs.body [.loc 7, .loc 8]) (.seq (.call none glm_vec4_subs.locals glm_vec4_subs.nregs glm_vec4_subs.body [.loc 8, .flit 0.5, .loc 8]) (.seq (.call none glm_vec4_adds.locals glm_vec4_adds.nregs glm_vec4_adds.body [.loc 7, .flit 0.5, .loc 9]) (.seq (.call none glm_vec4_floor.locals glm_vec4_floor.nregs glm_vec4_floor.body [.loc 9, .loc 9]) (.call none glm_vec4_sub.locals glm_vec4_sub.nregs glm_vec4_sub.body [.loc 7, .loc 9, .loc 7]))))))))) <|
    .seq (.store (.loc 10) (.load (.loc 7))) <|
    .seq (.store (.off (.loc 10) 1) (.load (.loc 8))) <|
    .seq (.store (.loc 11) (.load (.off (.loc 7) 1))) <|
    .seq (.store (.off (.loc 11) 1) (.load (.off (.loc 8) 1))) <|
    .seq (.store (.loc 12) (.load (.off (.loc 7) 2))) <|
    .seq (.store (.off (.loc 12) 1) (.load (.off (.loc 8) 2))) <|
    .seq (.store (.loc 13) (.load (.off (.loc 7) 3))) <|
    .seq (.store (.off (.loc 13) 1) (.load (.off (.loc 8) 3))) <|
    .seq (.seq (.call (some 1) glm_vec2_dot.locals glm_vec2_dot.nregs glm_vec2_dot.body [.loc 10, .loc 10]) (.seq (.store (.loc 14) (.reg 1)) (.seq (.call (some 2) glm_vec2_dot.locals glm_vec2_dot.nregs glm_vec2_dot.body [.loc 12, .loc 12]) (.seq (.store (.off (.loc 14) 1) (.reg 2)) (.seq (.call (some 3) glm_vec2_dot.locals glm_vec2_dot.nregs glm_vec2_dot.body [.loc 11, .loc 11]) (.seq (.store (.off (.loc 14) 2) (.reg 3)) (.seq (.call (some 4) glm_vec2_dot.locals glm_vec2_dot.nregs glm_vec2_dot.body [.loc 13, .loc 13]) (.seq (.store (.off (.loc 14) 3) (.reg 4)) (.seq (.seq (.call none glm_vec4_scale.locals glm_vec4_scale.nregs glm_vec4_scale.body [.loc 14, .flit 0.85373472095314, .loc 15]) (.seq (.call none glm_vec4_fill.locals glm_vec4_fill.nregs glm_vec4_fill.body [.loc 14, .flit 1.79284291400159]) (.call none glm_vec4_sub.locals glm_vec4_sub.nregs glm_vec4_sub.body [.loc 14, .loc 15, .loc 14]))) (.seq (.call none glm_vec2_scale.locals glm_vec2_scale.nregs glm_vec2_scale.body [.loc 10, .load (.loc 14), .loc 10]) (.seq (.call none glm_vec2_scale.locals glm_vec2_scale.nregs glm_vec2_scale.body [.loc 12, .load (.off (.loc 14) 1), .loc 12]) (.seq (.call none glm_vec2_scale.locals glm_vec2_scale.nregs glm_vec2_scale.body [.loc 11, .load (.off (.loc 14) 2), .loc 11]) (.call none glm_vec2_scale.locals glm_vec2_scale.nregs glm_vec2_scale.body [.loc 13, .load (.off (.loc 14) 3), .loc 13]))))))))))))) <|
    .seq (.store (.loc 16) (.load (.loc 4))) <|
    .seq (.store (.off (.loc 16) 1) (.load (.loc 5))) <|
    .seq (.call (some 5) glm_vec2_dot.locals glm_vec2_dot.nregs glm_vec2_dot.body [.loc 10, .loc 16]) <|
    .seq (.set 6 (.reg 5)) <|
    .seq (.store (.loc 17) (.load (.off (.loc 4) 1))) <|
    .seq (.store (.off (.loc 17) 1) (.load (.off (.loc 5) 1))) <|
    .seq (.call (some 7) glm_vec2_dot.locals glm_vec2_dot.nregs glm_vec2_dot.body [.loc 11, .loc 17]) <|
    .seq (.set 8 (.reg 7)) <|
    .seq (.store (.loc 18) (.load (.off (.loc 4) 2))) <|
    .seq (.store (.off (.loc 18) 1) (.load (.off (.loc 5) 2))) <|
    .seq (.call (some 9) glm_vec2_dot.locals glm_vec2_dot.nregs glm_vec2_dot.body [.loc 12, .loc 18]) <|
    .seq (.set 10 (.reg 9)) <|
    .seq (.store (.loc 19) (.load (.off (.loc 4) 3))) <|
    .seq (.store (.off (.loc 19) 1) (.load (.off (.loc 5) 3))) <|
    .seq (.call (some 11) glm_vec2_dot.locals glm_vec2_dot.nregs glm_vec2_dot.body [.loc 13, .loc 19]) <|
    .seq (.set 12 (.reg 11)) <|
    .seq (.store (.loc 21) (.load (.loc 1))) <|
    .seq (.store (.off (.loc 21) 1) (.load (.off (.loc 1) 1))) <|
    .seq (.seq (.call none glm_vec2_mul.locals glm_vec2_mul.nregs glm_vec2_mul.body [.loc 21, .loc 21, .loc 22]) (.seq (.call none glm_vec2_mul.locals glm_vec2_mul.nregs glm_vec2_mul.body [.loc 22, .loc 21, .loc 22]) (.seq (.call none glm_vec2_scale.locals glm_vec2_scale.nregs glm_vec2_scale.body [.loc 21, .flit 6, .loc 20]) (.seq (.call none glm_vec2_subs.locals glm_vec2_subs.nregs glm_vec2_subs.body [.loc 20, .flit 15, .loc 20]) (.seq (.call none glm_vec2_mul.locals glm_vec2_mul.nregs glm_vec2_mul.body [.loc 21, .loc 20, .loc 20]) (.seq (.call none glm_vec2_adds.locals glm_vec2_adds.nregs glm_vec2_adds.body [.loc 20, .flit 10, .loc 20]) (.call none glm_vec2_mul.locals glm_vec2_mul.nregs glm_vec2_mul.body [.loc 22, .loc 20, .loc 20]))))))) <|
    .seq (.store (.loc 24) (.reg 6)) <|
    .seq (.store (.off (.loc 24) 1) (.reg 10)) <|
    .seq (.store (.loc 25) (.reg 8)) <|
    .seq (.store (.off (.loc 25) 1) (.reg 12)) <|
    .seq (.call none glm_vec2_lerp.locals glm_vec2_lerp.nregs glm_vec2_lerp.body [.loc 24, .loc 25, .load (.loc 20), .loc 23]) <|
    .seq (.call (some 13) glm_lerp.locals glm_lerp.nregs glm_lerp.body [.load (.loc 23), .load (.off (.loc 23) 1), .load (.off (.loc 20) 1)]) <|
    .seq (.set 14 (.reg 13)) <|
    .ret (.f2 .mul (.reg 14) (.flit 2.3))

end Cglm.C

end Noise
