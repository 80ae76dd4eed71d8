/- Generated by tools/imemgen.py, joined by tools/merge.py; do not edit by hand. -/
import Verif.CMemTypes
import Verif.CMemIRun
import Verif.Gen.IUtil
import Verif.Mem.Ints
import Verif.Gen.IIvec2
import Verif.Gen.IIvec3
import Verif.Gen.IIvec4

section IUtilRun

/-! Runs of the functions of include/cglm/util.h on canonical memories. -/

set_option maxRecDepth 10000
set_option linter.unusedVariables false
set_option linter.unusedSectionVars false
set_option linter.unusedSimpArgs false

namespace Cglm
open CMem

variable {α : Type} [Add α] [Sub α] [Mul α] [Div α] [Neg α] [CFloat α] [CIntConv α]

theorem glm_sign_irun (val : Int32) {r : Int32} (h : I.glm_sign val = some r) :
    CI.glm_sign.run (α := α) [] [.i val.toInt] =
      some (some (.i r.toInt), []) := by
  irun h [I.glm_sign] [CI.glm_sign]
theorem glm_imin_irun (a : Int32) (b : Int32) {r : Int32} (h : I.glm_imin a b = some r) :
    CI.glm_imin.run (α := α) [] [.i a.toInt, .i b.toInt] =
      some (some (.i r.toInt), []) := by
  irun h [I.glm_imin] [CI.glm_imin]
theorem glm_imax_irun (a : Int32) (b : Int32) {r : Int32} (h : I.glm_imax a b = some r) :
    CI.glm_imax.run (α := α) [] [.i a.toInt, .i b.toInt] =
      some (some (.i r.toInt), []) := by
  irun h [I.glm_imax] [CI.glm_imax]

end Cglm

end IUtilRun

section IIvec2Run

/-! Runs of the functions of include/cglm/ivec2.h on canonical memories. -/

set_option maxRecDepth 10000
set_option linter.unusedVariables false
set_option linter.unusedSectionVars false
set_option linter.unusedSimpArgs false

namespace Cglm
open CMem

variable {α : Type} [Add α] [Sub α] [Mul α] [Div α] [Neg α] [CFloat α] [CIntConv α]

theorem glm_ivec2_irun (v : V2 Int32) {r : V2 Int32} (h : I.glm_ivec2 v = some r) :
    CI.glm_ivec2.run (α := α) [⟨false, icells v.list⟩, ⟨true, List.replicate 2 .undef⟩] [.p 0 0, .p 1 0] =
      some (none, [⟨false, icells v.list⟩, ⟨true, icells r.list⟩]) := by
  irun h [I.glm_ivec2] [CI.glm_ivec2]
theorem glm_ivec2_irun_v (v : V2 Int32) {r : V2 Int32} (h : I.glm_ivec2 v = some r) :
    CI.glm_ivec2.run (α := α) [⟨true, icells v.list⟩] [.p 0 0, .p 0 0] =
      some (none, [⟨true, icells r.list⟩]) := by
  irun h [I.glm_ivec2] [CI.glm_ivec2]
theorem glm_ivec2_copy_irun (a : V2 Int32) {r : V2 Int32} (h : I.glm_ivec2_copy a = some r) :
    CI.glm_ivec2_copy.run (α := α) [⟨false, icells a.list⟩, ⟨true, List.replicate 2 .undef⟩] [.p 0 0, .p 1 0] =
      some (none, [⟨false, icells a.list⟩, ⟨true, icells r.list⟩]) := by
  irun h [I.glm_ivec2_copy] [CI.glm_ivec2_copy]
theorem glm_ivec2_copy_irun_a (a : V2 Int32) {r : V2 Int32} (h : I.glm_ivec2_copy a = some r) :
    CI.glm_ivec2_copy.run (α := α) [⟨true, icells a.list⟩] [.p 0 0, .p 0 0] =
      some (none, [⟨true, icells r.list⟩]) := by
  irun h [I.glm_ivec2_copy] [CI.glm_ivec2_copy]
theorem glm_ivec2_zero_irun {r : V2 Int32} (h : I.glm_ivec2_zero = some r) :
    CI.glm_ivec2_zero.run (α := α) [⟨true, List.replicate 2 .undef⟩] [.p 0 0] =
      some (none, [⟨true, icells r.list⟩]) := by
  irun h [I.glm_ivec2_zero] [CI.glm_ivec2_zero]
theorem glm_ivec2_one_irun {r : V2 Int32} (h : I.glm_ivec2_one = some r) :
    CI.glm_ivec2_one.run (α := α) [⟨true, List.replicate 2 .undef⟩] [.p 0 0] =
      some (none, [⟨true, icells r.list⟩]) := by
  irun h [I.glm_ivec2_one] [CI.glm_ivec2_one]
theorem glm_ivec2_dot_irun (a : V2 Int32) (b : V2 Int32) {r : Int32} (h : I.glm_ivec2_dot a b = some r) :
    CI.glm_ivec2_dot.run (α := α) [⟨false, icells a.list⟩, ⟨false, icells b.list⟩] [.p 0 0, .p 1 0] =
      some (some (.i r.toInt), [⟨false, icells a.list⟩, ⟨false, icells b.list⟩]) := by
  irun h [I.glm_ivec2_dot] [CI.glm_ivec2_dot]
theorem glm_ivec2_cross_irun (a : V2 Int32) (b : V2 Int32) {r : Int32} (h : I.glm_ivec2_cross a b = some r) :
    CI.glm_ivec2_cross.run (α := α) [⟨false, icells a.list⟩, ⟨false, icells b.list⟩] [.p 0 0, .p 1 0] =
      some (some (.i r.toInt), [⟨false, icells a.list⟩, ⟨false, icells b.list⟩]) := by
  irun h [I.glm_ivec2_cross] [CI.glm_ivec2_cross]
theorem glm_ivec2_add_irun (a : V2 Int32) (b : V2 Int32) {r : V2 Int32} (h : I.glm_ivec2_add a b = some r) :
    CI.glm_ivec2_add.run (α := α) [⟨false, icells a.list⟩, ⟨false, icells b.list⟩, ⟨true, List.replicate 2 .undef⟩] [.p 0 0, .p 1 0, .p 2 0] =
      some (none, [⟨false, icells a.list⟩, ⟨false, icells b.list⟩, ⟨true, icells r.list⟩]) := by
  irun h [I.glm_ivec2_add] [CI.glm_ivec2_add]
theorem glm_ivec2_add_irun_b (a : V2 Int32) (b : V2 Int32) {r : V2 Int32} (h : I.glm_ivec2_add a b = some r) :
    CI.glm_ivec2_add.run (α := α) [⟨false, icells a.list⟩, ⟨true, icells b.list⟩] [.p 0 0, .p 1 0, .p 1 0] =
      some (none, [⟨false, icells a.list⟩, ⟨true, icells r.list⟩]) := by
  irun h [I.glm_ivec2_add] [CI.glm_ivec2_add]
theorem glm_ivec2_add_irun_a (a : V2 Int32) (b : V2 Int32) {r : V2 Int32} (h : I.glm_ivec2_add a b = some r) :
    CI.glm_ivec2_add.run (α := α) [⟨false, icells b.list⟩, ⟨true, icells a.list⟩] [.p 1 0, .p 0 0, .p 1 0] =
      some (none, [⟨false, icells b.list⟩, ⟨true, icells r.list⟩]) := by
  irun h [I.glm_ivec2_add] [CI.glm_ivec2_add]
theorem glm_ivec2_add_irun_a_b (a : V2 Int32) {r : V2 Int32} (h : I.glm_ivec2_add a a = some r) :
    CI.glm_ivec2_add.run (α := α) [⟨true, icells a.list⟩] [.p 0 0, .p 0 0, .p 0 0] =
      some (none, [⟨true, icells r.list⟩]) := by
  irun h [I.glm_ivec2_add] [CI.glm_ivec2_add]
theorem glm_ivec2_adds_irun (v : V2 Int32) (s : Int32) {r : V2 Int32} (h : I.glm_ivec2_adds v s = some r) :
    CI.glm_ivec2_adds.run (α := α) [⟨false, icells v.list⟩, ⟨true, List.replicate 2 .undef⟩] [.p 0 0, .i s.toInt, .p 1 0] =
      some (none, [⟨false, icells v.list⟩, ⟨true, icells r.list⟩]) := by
  irun h [I.glm_ivec2_adds] [CI.glm_ivec2_adds]
theorem glm_ivec2_adds_irun_v (v : V2 Int32) (s : Int32) {r : V2 Int32} (h : I.glm_ivec2_adds v s = some r) :
    CI.glm_ivec2_adds.run (α := α) [⟨true, icells v.list⟩] [.p 0 0, .i s.toInt, .p 0 0] =
      some (none, [⟨true, icells r.list⟩]) := by
  irun h [I.glm_ivec2_adds] [CI.glm_ivec2_adds]
theorem glm_ivec2_sub_irun (a : V2 Int32) (b : V2 Int32) {r : V2 Int32} (h : I.glm_ivec2_sub a b = some r) :
    CI.glm_ivec2_sub.run (α := α) [⟨false, icells a.list⟩, ⟨false, icells b.list⟩, ⟨true, List.replicate 2 .undef⟩] [.p 0 0, .p 1 0, .p 2 0] =
      some (none, [⟨false, icells a.list⟩, ⟨false, icells b.list⟩, ⟨true, icells r.list⟩]) := by
  irun h [I.glm_ivec2_sub] [CI.glm_ivec2_sub]
theorem glm_ivec2_sub_irun_b (a : V2 Int32) (b : V2 Int32) {r : V2 Int32} (h : I.glm_ivec2_sub a b = some r) :
    CI.glm_ivec2_sub.run (α := α) [⟨false, icells a.list⟩, ⟨true, icells b.list⟩] [.p 0 0, .p 1 0, .p 1 0] =
      some (none, [⟨false, icells a.list⟩, ⟨true, icells r.list⟩]) := by
  irun h [I.glm_ivec2_sub] [CI.glm_ivec2_sub]
theorem glm_ivec2_sub_irun_a (a : V2 Int32) (b : V2 Int32) {r : V2 Int32} (h : I.glm_ivec2_sub a b = some r) :
    CI.glm_ivec2_sub.run (α := α) [⟨false, icells b.list⟩, ⟨true, icells a.list⟩] [.p 1 0, .p 0 0, .p 1 0] =
      some (none, [⟨false, icells b.list⟩, ⟨true, icells r.list⟩]) := by
  irun h [I.glm_ivec2_sub] [CI.glm_ivec2_sub]
theorem glm_ivec2_sub_irun_a_b (a : V2 Int32) {r : V2 Int32} (h : I.glm_ivec2_sub a a = some r) :
    CI.glm_ivec2_sub.run (α := α) [⟨true, icells a.list⟩] [.p 0 0, .p 0 0, .p 0 0] =
      some (none, [⟨true, icells r.list⟩]) := by
  irun h [I.glm_ivec2_sub] [CI.glm_ivec2_sub]
theorem glm_ivec2_subs_irun (v : V2 Int32) (s : Int32) {r : V2 Int32} (h : I.glm_ivec2_subs v s = some r) :
    CI.glm_ivec2_subs.run (α := α) [⟨false, icells v.list⟩, ⟨true, List.replicate 2 .undef⟩] [.p 0 0, .i s.toInt, .p 1 0] =
      some (none, [⟨false, icells v.list⟩, ⟨true, icells r.list⟩]) := by
  irun h [I.glm_ivec2_subs] [CI.glm_ivec2_subs]
theorem glm_ivec2_subs_irun_v (v : V2 Int32) (s : Int32) {r : V2 Int32} (h : I.glm_ivec2_subs v s = some r) :
    CI.glm_ivec2_subs.run (α := α) [⟨true, icells v.list⟩] [.p 0 0, .i s.toInt, .p 0 0] =
      some (none, [⟨true, icells r.list⟩]) := by
  irun h [I.glm_ivec2_subs] [CI.glm_ivec2_subs]
theorem glm_ivec2_mul_irun (a : V2 Int32) (b : V2 Int32) {r : V2 Int32} (h : I.glm_ivec2_mul a b = some r) :
    CI.glm_ivec2_mul.run (α := α) [⟨false, icells a.list⟩, ⟨false, icells b.list⟩, ⟨true, List.replicate 2 .undef⟩] [.p 0 0, .p 1 0, .p 2 0] =
      some (none, [⟨false, icells a.list⟩, ⟨false, icells b.list⟩, ⟨true, icells r.list⟩]) := by
  irun h [I.glm_ivec2_mul] [CI.glm_ivec2_mul]
theorem glm_ivec2_mul_irun_b (a : V2 Int32) (b : V2 Int32) {r : V2 Int32} (h : I.glm_ivec2_mul a b = some r) :
    CI.glm_ivec2_mul.run (α := α) [⟨false, icells a.list⟩, ⟨true, icells b.list⟩] [.p 0 0, .p 1 0, .p 1 0] =
      some (none, [⟨false, icells a.list⟩, ⟨true, icells r.list⟩]) := by
  irun h [I.glm_ivec2_mul] [CI.glm_ivec2_mul]
theorem glm_ivec2_mul_irun_a (a : V2 Int32) (b : V2 Int32) {r : V2 Int32} (h : I.glm_ivec2_mul a b = some r) :
    CI.glm_ivec2_mul.run (α := α) [⟨false, icells b.list⟩, ⟨true, icells a.list⟩] [.p 1 0, .p 0 0, .p 1 0] =
      some (none, [⟨false, icells b.list⟩, ⟨true, icells r.list⟩]) := by
  irun h [I.glm_ivec2_mul] [CI.glm_ivec2_mul]
theorem glm_ivec2_mul_irun_a_b (a : V2 Int32) {r : V2 Int32} (h : I.glm_ivec2_mul a a = some r) :
    CI.glm_ivec2_mul.run (α := α) [⟨true, icells a.list⟩] [.p 0 0, .p 0 0, .p 0 0] =
      some (none, [⟨true, icells r.list⟩]) := by
  irun h [I.glm_ivec2_mul] [CI.glm_ivec2_mul]
theorem glm_ivec2_scale_irun (v : V2 Int32) (s : Int32) {r : V2 Int32} (h : I.glm_ivec2_scale v s = some r) :
    CI.glm_ivec2_scale.run (α := α) [⟨false, icells v.list⟩, ⟨true, List.replicate 2 .undef⟩] [.p 0 0, .i s.toInt, .p 1 0] =
      some (none, [⟨false, icells v.list⟩, ⟨true, icells r.list⟩]) := by
  irun h [I.glm_ivec2_scale] [CI.glm_ivec2_scale]
theorem glm_ivec2_scale_irun_v (v : V2 Int32) (s : Int32) {r : V2 Int32} (h : I.glm_ivec2_scale v s = some r) :
    CI.glm_ivec2_scale.run (α := α) [⟨true, icells v.list⟩] [.p 0 0, .i s.toInt, .p 0 0] =
      some (none, [⟨true, icells r.list⟩]) := by
  irun h [I.glm_ivec2_scale] [CI.glm_ivec2_scale]
theorem glm_ivec2_div_irun (a : V2 Int32) (b : V2 Int32) {r : V2 Int32} (h : I.glm_ivec2_div a b = some r) :
    CI.glm_ivec2_div.run (α := α) [⟨false, icells a.list⟩, ⟨false, icells b.list⟩, ⟨true, List.replicate 2 .undef⟩] [.p 0 0, .p 1 0, .p 2 0] =
      some (none, [⟨false, icells a.list⟩, ⟨false, icells b.list⟩, ⟨true, icells r.list⟩]) := by
  irun h [I.glm_ivec2_div] [CI.glm_ivec2_div]
theorem glm_ivec2_div_irun_b (a : V2 Int32) (b : V2 Int32) {r : V2 Int32} (h : I.glm_ivec2_div a b = some r) :
    CI.glm_ivec2_div.run (α := α) [⟨false, icells a.list⟩, ⟨true, icells b.list⟩] [.p 0 0, .p 1 0, .p 1 0] =
      some (none, [⟨false, icells a.list⟩, ⟨true, icells r.list⟩]) := by
  irun h [I.glm_ivec2_div] [CI.glm_ivec2_div]
theorem glm_ivec2_div_irun_a (a : V2 Int32) (b : V2 Int32) {r : V2 Int32} (h : I.glm_ivec2_div a b = some r) :
    CI.glm_ivec2_div.run (α := α) [⟨false, icells b.list⟩, ⟨true, icells a.list⟩] [.p 1 0, .p 0 0, .p 1 0] =
      some (none, [⟨false, icells b.list⟩, ⟨true, icells r.list⟩]) := by
  irun h [I.glm_ivec2_div] [CI.glm_ivec2_div]
theorem glm_ivec2_div_irun_a_b (a : V2 Int32) {r : V2 Int32} (h : I.glm_ivec2_div a a = some r) :
    CI.glm_ivec2_div.run (α := α) [⟨true, icells a.list⟩] [.p 0 0, .p 0 0, .p 0 0] =
      some (none, [⟨true, icells r.list⟩]) := by
  irun h [I.glm_ivec2_div] [CI.glm_ivec2_div]
theorem glm_ivec2_divs_irun (v : V2 Int32) (s : Int32) {r : V2 Int32} (h : I.glm_ivec2_divs v s = some r) :
    CI.glm_ivec2_divs.run (α := α) [⟨false, icells v.list⟩, ⟨true, List.replicate 2 .undef⟩] [.p 0 0, .i s.toInt, .p 1 0] =
      some (none, [⟨false, icells v.list⟩, ⟨true, icells r.list⟩]) := by
  irun h [I.glm_ivec2_divs] [CI.glm_ivec2_divs]
theorem glm_ivec2_divs_irun_v (v : V2 Int32) (s : Int32) {r : V2 Int32} (h : I.glm_ivec2_divs v s = some r) :
    CI.glm_ivec2_divs.run (α := α) [⟨true, icells v.list⟩] [.p 0 0, .i s.toInt, .p 0 0] =
      some (none, [⟨true, icells r.list⟩]) := by
  irun h [I.glm_ivec2_divs] [CI.glm_ivec2_divs]
theorem glm_ivec2_mod_irun (a : V2 Int32) (b : V2 Int32) {r : V2 Int32} (h : I.glm_ivec2_mod a b = some r) :
    CI.glm_ivec2_mod.run (α := α) [⟨false, icells a.list⟩, ⟨false, icells b.list⟩, ⟨true, List.replicate 2 .undef⟩] [.p 0 0, .p 1 0, .p 2 0] =
      some (none, [⟨false, icells a.list⟩, ⟨false, icells b.list⟩, ⟨true, icells r.list⟩]) := by
  irun h [I.glm_ivec2_mod] [CI.glm_ivec2_mod]
theorem glm_ivec2_mod_irun_b (a : V2 Int32) (b : V2 Int32) {r : V2 Int32} (h : I.glm_ivec2_mod a b = some r) :
    CI.glm_ivec2_mod.run (α := α) [⟨false, icells a.list⟩, ⟨true, icells b.list⟩] [.p 0 0, .p 1 0, .p 1 0] =
      some (none, [⟨false, icells a.list⟩, ⟨true, icells r.list⟩]) := by
  irun h [I.glm_ivec2_mod] [CI.glm_ivec2_mod]
theorem glm_ivec2_mod_irun_a (a : V2 Int32) (b : V2 Int32) {r : V2 Int32} (h : I.glm_ivec2_mod a b = some r) :
    CI.glm_ivec2_mod.run (α := α) [⟨false, icells b.list⟩, ⟨true, icells a.list⟩] [.p 1 0, .p 0 0, .p 1 0] =
      some (none, [⟨false, icells b.list⟩, ⟨true, icells r.list⟩]) := by
  irun h [I.glm_ivec2_mod] [CI.glm_ivec2_mod]
theorem glm_ivec2_mod_irun_a_b (a : V2 Int32) {r : V2 Int32} (h : I.glm_ivec2_mod a a = some r) :
    CI.glm_ivec2_mod.run (α := α) [⟨true, icells a.list⟩] [.p 0 0, .p 0 0, .p 0 0] =
      some (none, [⟨true, icells r.list⟩]) := by
  irun h [I.glm_ivec2_mod] [CI.glm_ivec2_mod]
theorem glm_ivec2_addadd_irun (a : V2 Int32) (b : V2 Int32) (dest : V2 Int32) {r : V2 Int32} (h : I.glm_ivec2_addadd a b dest = some r) :
    CI.glm_ivec2_addadd.run (α := α) [⟨false, icells a.list⟩, ⟨false, icells b.list⟩, ⟨true, icells dest.list⟩] [.p 0 0, .p 1 0, .p 2 0] =
      some (none, [⟨false, icells a.list⟩, ⟨false, icells b.list⟩, ⟨true, icells r.list⟩]) := by
  irun h [I.glm_ivec2_addadd] [CI.glm_ivec2_addadd]
theorem glm_ivec2_addadd_irun_b (a : V2 Int32) (dest : V2 Int32) {r : V2 Int32} (h : I.glm_ivec2_addadd a dest dest = some r) :
    CI.glm_ivec2_addadd.run (α := α) [⟨false, icells a.list⟩, ⟨true, icells dest.list⟩] [.p 0 0, .p 1 0, .p 1 0] =
      some (none, [⟨false, icells a.list⟩, ⟨true, icells r.list⟩]) := by
  irun h [I.glm_ivec2_addadd] [CI.glm_ivec2_addadd]
theorem glm_ivec2_addadd_irun_a (dest : V2 Int32) (b : V2 Int32) {r : V2 Int32} (h : I.glm_ivec2_addadd dest b dest = some r) :
    CI.glm_ivec2_addadd.run (α := α) [⟨false, icells b.list⟩, ⟨true, icells dest.list⟩] [.p 1 0, .p 0 0, .p 1 0] =
      some (none, [⟨false, icells b.list⟩, ⟨true, icells r.list⟩]) := by
  irun h [I.glm_ivec2_addadd] [CI.glm_ivec2_addadd]
theorem glm_ivec2_addadd_irun_a_b (dest : V2 Int32) {r : V2 Int32} (h : I.glm_ivec2_addadd dest dest dest = some r) :
    CI.glm_ivec2_addadd.run (α := α) [⟨true, icells dest.list⟩] [.p 0 0, .p 0 0, .p 0 0] =
      some (none, [⟨true, icells r.list⟩]) := by
  irun h [I.glm_ivec2_addadd] [CI.glm_ivec2_addadd]
theorem glm_ivec2_addadds_irun (a : V2 Int32) (s : Int32) (dest : V2 Int32) {r : V2 Int32} (h : I.glm_ivec2_addadds a s dest = some r) :
    CI.glm_ivec2_addadds.run (α := α) [⟨false, icells a.list⟩, ⟨true, icells dest.list⟩] [.p 0 0, .i s.toInt, .p 1 0] =
      some (none, [⟨false, icells a.list⟩, ⟨true, icells r.list⟩]) := by
  irun h [I.glm_ivec2_addadds] [CI.glm_ivec2_addadds]
theorem glm_ivec2_addadds_irun_a (dest : V2 Int32) (s : Int32) {r : V2 Int32} (h : I.glm_ivec2_addadds dest s dest = some r) :
    CI.glm_ivec2_addadds.run (α := α) [⟨true, icells dest.list⟩] [.p 0 0, .i s.toInt, .p 0 0] =
      some (none, [⟨true, icells r.list⟩]) := by
  irun h [I.glm_ivec2_addadds] [CI.glm_ivec2_addadds]
theorem glm_ivec2_subadd_irun (a : V2 Int32) (b : V2 Int32) (dest : V2 Int32) {r : V2 Int32} (h : I.glm_ivec2_subadd a b dest = some r) :
    CI.glm_ivec2_subadd.run (α := α) [⟨false, icells a.list⟩, ⟨false, icells b.list⟩, ⟨true, icells dest.list⟩] [.p 0 0, .p 1 0, .p 2 0] =
      some (none, [⟨false, icells a.list⟩, ⟨false, icells b.list⟩, ⟨true, icells r.list⟩]) := by
  irun h [I.glm_ivec2_subadd] [CI.glm_ivec2_subadd]
theorem glm_ivec2_subadd_irun_b (a : V2 Int32) (dest : V2 Int32) {r : V2 Int32} (h : I.glm_ivec2_subadd a dest dest = some r) :
    CI.glm_ivec2_subadd.run (α := α) [⟨false, icells a.list⟩, ⟨true, icells dest.list⟩] [.p 0 0, .p 1 0, .p 1 0] =
      some (none, [⟨false, icells a.list⟩, ⟨true, icells r.list⟩]) := by
  irun h [I.glm_ivec2_subadd] [CI.glm_ivec2_subadd]
theorem glm_ivec2_subadd_irun_a (dest : V2 Int32) (b : V2 Int32) {r : V2 Int32} (h : I.glm_ivec2_subadd dest b dest = some r) :
    CI.glm_ivec2_subadd.run (α := α) [⟨false, icells b.list⟩, ⟨true, icells dest.list⟩] [.p 1 0, .p 0 0, .p 1 0] =
      some (none, [⟨false, icells b.list⟩, ⟨true, icells r.list⟩]) := by
  irun h [I.glm_ivec2_subadd] [CI.glm_ivec2_subadd]
theorem glm_ivec2_subadd_irun_a_b (dest : V2 Int32) {r : V2 Int32} (h : I.glm_ivec2_subadd dest dest dest = some r) :
    CI.glm_ivec2_subadd.run (α := α) [⟨true, icells dest.list⟩] [.p 0 0, .p 0 0, .p 0 0] =
      some (none, [⟨true, icells r.list⟩]) := by
  irun h [I.glm_ivec2_subadd] [CI.glm_ivec2_subadd]
theorem glm_ivec2_subadds_irun (a : V2 Int32) (s : Int32) (dest : V2 Int32) {r : V2 Int32} (h : I.glm_ivec2_subadds a s dest = some r) :
    CI.glm_ivec2_subadds.run (α := α) [⟨false, icells a.list⟩, ⟨true, icells dest.list⟩] [.p 0 0, .i s.toInt, .p 1 0] =
      some (none, [⟨false, icells a.list⟩, ⟨true, icells r.list⟩]) := by
  irun h [I.glm_ivec2_subadds] [CI.glm_ivec2_subadds]
theorem glm_ivec2_subadds_irun_a (dest : V2 Int32) (s : Int32) {r : V2 Int32} (h : I.glm_ivec2_subadds dest s dest = some r) :
    CI.glm_ivec2_subadds.run (α := α) [⟨true, icells dest.list⟩] [.p 0 0, .i s.toInt, .p 0 0] =
      some (none, [⟨true, icells r.list⟩]) := by
  irun h [I.glm_ivec2_subadds] [CI.glm_ivec2_subadds]
theorem glm_ivec2_muladd_irun (a : V2 Int32) (b : V2 Int32) (dest : V2 Int32) {r : V2 Int32} (h : I.glm_ivec2_muladd a b dest = some r) :
    CI.glm_ivec2_muladd.run (α := α) [⟨false, icells a.list⟩, ⟨false, icells b.list⟩, ⟨true, icells dest.list⟩] [.p 0 0, .p 1 0, .p 2 0] =
      some (none, [⟨false, icells a.list⟩, ⟨false, icells b.list⟩, ⟨true, icells r.list⟩]) := by
  irun h [I.glm_ivec2_muladd] [CI.glm_ivec2_muladd]
theorem glm_ivec2_muladd_irun_b (a : V2 Int32) (dest : V2 Int32) {r : V2 Int32} (h : I.glm_ivec2_muladd a dest dest = some r) :
    CI.glm_ivec2_muladd.run (α := α) [⟨false, icells a.list⟩, ⟨true, icells dest.list⟩] [.p 0 0, .p 1 0, .p 1 0] =
      some (none, [⟨false, icells a.list⟩, ⟨true, icells r.list⟩]) := by
  irun h [I.glm_ivec2_muladd] [CI.glm_ivec2_muladd]
theorem glm_ivec2_muladd_irun_a (dest : V2 Int32) (b : V2 Int32) {r : V2 Int32} (h : I.glm_ivec2_muladd dest b dest = some r) :
    CI.glm_ivec2_muladd.run (α := α) [⟨false, icells b.list⟩, ⟨true, icells dest.list⟩] [.p 1 0, .p 0 0, .p 1 0] =
      some (none, [⟨false, icells b.list⟩, ⟨true, icells r.list⟩]) := by
  irun h [I.glm_ivec2_muladd] [CI.glm_ivec2_muladd]
theorem glm_ivec2_muladd_irun_a_b (dest : V2 Int32) {r : V2 Int32} (h : I.glm_ivec2_muladd dest dest dest = some r) :
    CI.glm_ivec2_muladd.run (α := α) [⟨true, icells dest.list⟩] [.p 0 0, .p 0 0, .p 0 0] =
      some (none, [⟨true, icells r.list⟩]) := by
  irun h [I.glm_ivec2_muladd] [CI.glm_ivec2_muladd]
theorem glm_ivec2_muladds_irun (a : V2 Int32) (s : Int32) (dest : V2 Int32) {r : V2 Int32} (h : I.glm_ivec2_muladds a s dest = some r) :
    CI.glm_ivec2_muladds.run (α := α) [⟨false, icells a.list⟩, ⟨true, icells dest.list⟩] [.p 0 0, .i s.toInt, .p 1 0] =
      some (none, [⟨false, icells a.list⟩, ⟨true, icells r.list⟩]) := by
  irun h [I.glm_ivec2_muladds] [CI.glm_ivec2_muladds]
theorem glm_ivec2_muladds_irun_a (dest : V2 Int32) (s : Int32) {r : V2 Int32} (h : I.glm_ivec2_muladds dest s dest = some r) :
    CI.glm_ivec2_muladds.run (α := α) [⟨true, icells dest.list⟩] [.p 0 0, .i s.toInt, .p 0 0] =
      some (none, [⟨true, icells r.list⟩]) := by
  irun h [I.glm_ivec2_muladds] [CI.glm_ivec2_muladds]
theorem glm_ivec2_maxadd_irun (a : V2 Int32) (b : V2 Int32) (dest : V2 Int32) {r : V2 Int32} (h : I.glm_ivec2_maxadd a b dest = some r) :
    CI.glm_ivec2_maxadd.run (α := α) [⟨false, icells a.list⟩, ⟨false, icells b.list⟩, ⟨true, icells dest.list⟩] [.p 0 0, .p 1 0, .p 2 0] =
      some (none, [⟨false, icells a.list⟩, ⟨false, icells b.list⟩, ⟨true, icells r.list⟩]) := by
  irun h [I.glm_ivec2_maxadd, I.glm_imax] [CI.glm_ivec2_maxadd, CI.glm_imax]
theorem glm_ivec2_maxadd_irun_b (a : V2 Int32) (dest : V2 Int32) {r : V2 Int32} (h : I.glm_ivec2_maxadd a dest dest = some r) :
    CI.glm_ivec2_maxadd.run (α := α) [⟨false, icells a.list⟩, ⟨true, icells dest.list⟩] [.p 0 0, .p 1 0, .p 1 0] =
      some (none, [⟨false, icells a.list⟩, ⟨true, icells r.list⟩]) := by
  irun h [I.glm_ivec2_maxadd, I.glm_imax] [CI.glm_ivec2_maxadd, CI.glm_imax]
theorem glm_ivec2_maxadd_irun_a (dest : V2 Int32) (b : V2 Int32) {r : V2 Int32} (h : I.glm_ivec2_maxadd dest b dest = some r) :
    CI.glm_ivec2_maxadd.run (α := α) [⟨false, icells b.list⟩, ⟨true, icells dest.list⟩] [.p 1 0, .p 0 0, .p 1 0] =
      some (none, [⟨false, icells b.list⟩, ⟨true, icells r.list⟩]) := by
  irun h [I.glm_ivec2_maxadd, I.glm_imax] [CI.glm_ivec2_maxadd, CI.glm_imax]
theorem glm_ivec2_maxadd_irun_a_b (dest : V2 Int32) {r : V2 Int32} (h : I.glm_ivec2_maxadd dest dest dest = some r) :
    CI.glm_ivec2_maxadd.run (α := α) [⟨true, icells dest.list⟩] [.p 0 0, .p 0 0, .p 0 0] =
      some (none, [⟨true, icells r.list⟩]) := by
  irun h [I.glm_ivec2_maxadd, I.glm_imax] [CI.glm_ivec2_maxadd, CI.glm_imax]
theorem glm_ivec2_minadd_irun (a : V2 Int32) (b : V2 Int32) (dest : V2 Int32) {r : V2 Int32} (h : I.glm_ivec2_minadd a b dest = some r) :
    CI.glm_ivec2_minadd.run (α := α) [⟨false, icells a.list⟩, ⟨false, icells b.list⟩, ⟨true, icells dest.list⟩] [.p 0 0, .p 1 0, .p 2 0] =
      some (none, [⟨false, icells a.list⟩, ⟨false, icells b.list⟩, ⟨true, icells r.list⟩]) := by
  irun h [I.glm_ivec2_minadd, I.glm_imin] [CI.glm_ivec2_minadd, CI.glm_imin]
theorem glm_ivec2_minadd_irun_b (a : V2 Int32) (dest : V2 Int32) {r : V2 Int32} (h : I.glm_ivec2_minadd a dest dest = some r) :
    CI.glm_ivec2_minadd.run (α := α) [⟨false, icells a.list⟩, ⟨true, icells dest.list⟩] [.p 0 0, .p 1 0, .p 1 0] =
      some (none, [⟨false, icells a.list⟩, ⟨true, icells r.list⟩]) := by
  irun h [I.glm_ivec2_minadd, I.glm_imin] [CI.glm_ivec2_minadd, CI.glm_imin]
theorem glm_ivec2_minadd_irun_a (dest : V2 Int32) (b : V2 Int32) {r : V2 Int32} (h : I.glm_ivec2_minadd dest b dest = some r) :
    CI.glm_ivec2_minadd.run (α := α) [⟨false, icells b.list⟩, ⟨true, icells dest.list⟩] [.p 1 0, .p 0 0, .p 1 0] =
      some (none, [⟨false, icells b.list⟩, ⟨true, icells r.list⟩]) := by
  irun h [I.glm_ivec2_minadd, I.glm_imin] [CI.glm_ivec2_minadd, CI.glm_imin]
theorem glm_ivec2_minadd_irun_a_b (dest : V2 Int32) {r : V2 Int32} (h : I.glm_ivec2_minadd dest dest dest = some r) :
    CI.glm_ivec2_minadd.run (α := α) [⟨true, icells dest.list⟩] [.p 0 0, .p 0 0, .p 0 0] =
      some (none, [⟨true, icells r.list⟩]) := by
  irun h [I.glm_ivec2_minadd, I.glm_imin] [CI.glm_ivec2_minadd, CI.glm_imin]
theorem glm_ivec2_subsub_irun (a : V2 Int32) (b : V2 Int32) (dest : V2 Int32) {r : V2 Int32} (h : I.glm_ivec2_subsub a b dest = some r) :
    CI.glm_ivec2_subsub.run (α := α) [⟨false, icells a.list⟩, ⟨false, icells b.list⟩, ⟨true, icells dest.list⟩] [.p 0 0, .p 1 0, .p 2 0] =
      some (none, [⟨false, icells a.list⟩, ⟨false, icells b.list⟩, ⟨true, icells r.list⟩]) := by
  irun h [I.glm_ivec2_subsub] [CI.glm_ivec2_subsub]
theorem glm_ivec2_subsub_irun_b (a : V2 Int32) (dest : V2 Int32) {r : V2 Int32} (h : I.glm_ivec2_subsub a dest dest = some r) :
    CI.glm_ivec2_subsub.run (α := α) [⟨false, icells a.list⟩, ⟨true, icells dest.list⟩] [.p 0 0, .p 1 0, .p 1 0] =
      some (none, [⟨false, icells a.list⟩, ⟨true, icells r.list⟩]) := by
  irun h [I.glm_ivec2_subsub] [CI.glm_ivec2_subsub]
theorem glm_ivec2_subsub_irun_a (dest : V2 Int32) (b : V2 Int32) {r : V2 Int32} (h : I.glm_ivec2_subsub dest b dest = some r) :
    CI.glm_ivec2_subsub.run (α := α) [⟨false, icells b.list⟩, ⟨true, icells dest.list⟩] [.p 1 0, .p 0 0, .p 1 0] =
      some (none, [⟨false, icells b.list⟩, ⟨true, icells r.list⟩]) := by
  irun h [I.glm_ivec2_subsub] [CI.glm_ivec2_subsub]
theorem glm_ivec2_subsub_irun_a_b (dest : V2 Int32) {r : V2 Int32} (h : I.glm_ivec2_subsub dest dest dest = some r) :
    CI.glm_ivec2_subsub.run (α := α) [⟨true, icells dest.list⟩] [.p 0 0, .p 0 0, .p 0 0] =
      some (none, [⟨true, icells r.list⟩]) := by
  irun h [I.glm_ivec2_subsub] [CI.glm_ivec2_subsub]
theorem glm_ivec2_subsubs_irun (a : V2 Int32) (s : Int32) (dest : V2 Int32) {r : V2 Int32} (h : I.glm_ivec2_subsubs a s dest = some r) :
    CI.glm_ivec2_subsubs.run (α := α) [⟨false, icells a.list⟩, ⟨true, icells dest.list⟩] [.p 0 0, .i s.toInt, .p 1 0] =
      some (none, [⟨false, icells a.list⟩, ⟨true, icells r.list⟩]) := by
  irun h [I.glm_ivec2_subsubs] [CI.glm_ivec2_subsubs]
theorem glm_ivec2_subsubs_irun_a (dest : V2 Int32) (s : Int32) {r : V2 Int32} (h : I.glm_ivec2_subsubs dest s dest = some r) :
    CI.glm_ivec2_subsubs.run (α := α) [⟨true, icells dest.list⟩] [.p 0 0, .i s.toInt, .p 0 0] =
      some (none, [⟨true, icells r.list⟩]) := by
  irun h [I.glm_ivec2_subsubs] [CI.glm_ivec2_subsubs]
theorem glm_ivec2_addsub_irun (a : V2 Int32) (b : V2 Int32) (dest : V2 Int32) {r : V2 Int32} (h : I.glm_ivec2_addsub a b dest = some r) :
    CI.glm_ivec2_addsub.run (α := α) [⟨false, icells a.list⟩, ⟨false, icells b.list⟩, ⟨true, icells dest.list⟩] [.p 0 0, .p 1 0, .p 2 0] =
      some (none, [⟨false, icells a.list⟩, ⟨false, icells b.list⟩, ⟨true, icells r.list⟩]) := by
  irun h [I.glm_ivec2_addsub] [CI.glm_ivec2_addsub]
theorem glm_ivec2_addsub_irun_b (a : V2 Int32) (dest : V2 Int32) {r : V2 Int32} (h : I.glm_ivec2_addsub a dest dest = some r) :
    CI.glm_ivec2_addsub.run (α := α) [⟨false, icells a.list⟩, ⟨true, icells dest.list⟩] [.p 0 0, .p 1 0, .p 1 0] =
      some (none, [⟨false, icells a.list⟩, ⟨true, icells r.list⟩]) := by
  irun h [I.glm_ivec2_addsub] [CI.glm_ivec2_addsub]
theorem glm_ivec2_addsub_irun_a (dest : V2 Int32) (b : V2 Int32) {r : V2 Int32} (h : I.glm_ivec2_addsub dest b dest = some r) :
    CI.glm_ivec2_addsub.run (α := α) [⟨false, icells b.list⟩, ⟨true, icells dest.list⟩] [.p 1 0, .p 0 0, .p 1 0] =
      some (none, [⟨false, icells b.list⟩, ⟨true, icells r.list⟩]) := by
  irun h [I.glm_ivec2_addsub] [CI.glm_ivec2_addsub]
theorem glm_ivec2_addsub_irun_a_b (dest : V2 Int32) {r : V2 Int32} (h : I.glm_ivec2_addsub dest dest dest = some r) :
    CI.glm_ivec2_addsub.run (α := α) [⟨true, icells dest.list⟩] [.p 0 0, .p 0 0, .p 0 0] =
      some (none, [⟨true, icells r.list⟩]) := by
  irun h [I.glm_ivec2_addsub] [CI.glm_ivec2_addsub]
theorem glm_ivec2_addsubs_irun (a : V2 Int32) (s : Int32) (dest : V2 Int32) {r : V2 Int32} (h : I.glm_ivec2_addsubs a s dest = some r) :
    CI.glm_ivec2_addsubs.run (α := α) [⟨false, icells a.list⟩, ⟨true, icells dest.list⟩] [.p 0 0, .i s.toInt, .p 1 0] =
      some (none, [⟨false, icells a.list⟩, ⟨true, icells r.list⟩]) := by
  irun h [I.glm_ivec2_addsubs] [CI.glm_ivec2_addsubs]
theorem glm_ivec2_addsubs_irun_a (dest : V2 Int32) (s : Int32) {r : V2 Int32} (h : I.glm_ivec2_addsubs dest s dest = some r) :
    CI.glm_ivec2_addsubs.run (α := α) [⟨true, icells dest.list⟩] [.p 0 0, .i s.toInt, .p 0 0] =
      some (none, [⟨true, icells r.list⟩]) := by
  irun h [I.glm_ivec2_addsubs] [CI.glm_ivec2_addsubs]
theorem glm_ivec2_mulsub_irun (a : V2 Int32) (b : V2 Int32) (dest : V2 Int32) {r : V2 Int32} (h : I.glm_ivec2_mulsub a b dest = some r) :
    CI.glm_ivec2_mulsub.run (α := α) [⟨false, icells a.list⟩, ⟨false, icells b.list⟩, ⟨true, icells dest.list⟩] [.p 0 0, .p 1 0, .p 2 0] =
      some (none, [⟨false, icells a.list⟩, ⟨false, icells b.list⟩, ⟨true, icells r.list⟩]) := by
  irun h [I.glm_ivec2_mulsub] [CI.glm_ivec2_mulsub]
theorem glm_ivec2_mulsub_irun_b (a : V2 Int32) (dest : V2 Int32) {r : V2 Int32} (h : I.glm_ivec2_mulsub a dest dest = some r) :
    CI.glm_ivec2_mulsub.run (α := α) [⟨false, icells a.list⟩, ⟨true, icells dest.list⟩] [.p 0 0, .p 1 0, .p 1 0] =
      some (none, [⟨false, icells a.list⟩, ⟨true, icells r.list⟩]) := by
  irun h [I.glm_ivec2_mulsub] [CI.glm_ivec2_mulsub]
theorem glm_ivec2_mulsub_irun_a (dest : V2 Int32) (b : V2 Int32) {r : V2 Int32} (h : I.glm_ivec2_mulsub dest b dest = some r) :
    CI.glm_ivec2_mulsub.run (α := α) [⟨false, icells b.list⟩, ⟨true, icells dest.list⟩] [.p 1 0, .p 0 0, .p 1 0] =
      some (none, [⟨false, icells b.list⟩, ⟨true, icells r.list⟩]) := by
  irun h [I.glm_ivec2_mulsub] [CI.glm_ivec2_mulsub]
theorem glm_ivec2_mulsub_irun_a_b (dest : V2 Int32) {r : V2 Int32} (h : I.glm_ivec2_mulsub dest dest dest = some r) :
    CI.glm_ivec2_mulsub.run (α := α) [⟨true, icells dest.list⟩] [.p 0 0, .p 0 0, .p 0 0] =
      some (none, [⟨true, icells r.list⟩]) := by
  irun h [I.glm_ivec2_mulsub] [CI.glm_ivec2_mulsub]
theorem glm_ivec2_mulsubs_irun (a : V2 Int32) (s : Int32) (dest : V2 Int32) {r : V2 Int32} (h : I.glm_ivec2_mulsubs a s dest = some r) :
    CI.glm_ivec2_mulsubs.run (α := α) [⟨false, icells a.list⟩, ⟨true, icells dest.list⟩] [.p 0 0, .i s.toInt, .p 1 0] =
      some (none, [⟨false, icells a.list⟩, ⟨true, icells r.list⟩]) := by
  irun h [I.glm_ivec2_mulsubs] [CI.glm_ivec2_mulsubs]
theorem glm_ivec2_mulsubs_irun_a (dest : V2 Int32) (s : Int32) {r : V2 Int32} (h : I.glm_ivec2_mulsubs dest s dest = some r) :
    CI.glm_ivec2_mulsubs.run (α := α) [⟨true, icells dest.list⟩] [.p 0 0, .i s.toInt, .p 0 0] =
      some (none, [⟨true, icells r.list⟩]) := by
  irun h [I.glm_ivec2_mulsubs] [CI.glm_ivec2_mulsubs]
theorem glm_ivec2_maxsub_irun (a : V2 Int32) (b : V2 Int32) (dest : V2 Int32) {r : V2 Int32} (h : I.glm_ivec2_maxsub a b dest = some r) :
    CI.glm_ivec2_maxsub.run (α := α) [⟨false, icells a.list⟩, ⟨false, icells b.list⟩, ⟨true, icells dest.list⟩] [.p 0 0, .p 1 0, .p 2 0] =
      some (none, [⟨false, icells a.list⟩, ⟨false, icells b.list⟩, ⟨true, icells r.list⟩]) := by
  irun h [I.glm_ivec2_maxsub, I.glm_imax] [CI.glm_ivec2_maxsub, CI.glm_imax]
theorem glm_ivec2_maxsub_irun_b (a : V2 Int32) (dest : V2 Int32) {r : V2 Int32} (h : I.glm_ivec2_maxsub a dest dest = some r) :
    CI.glm_ivec2_maxsub.run (α := α) [⟨false, icells a.list⟩, ⟨true, icells dest.list⟩] [.p 0 0, .p 1 0, .p 1 0] =
      some (none, [⟨false, icells a.list⟩, ⟨true, icells r.list⟩]) := by
  irun h [I.glm_ivec2_maxsub, I.glm_imax] [CI.glm_ivec2_maxsub, CI.glm_imax]
theorem glm_ivec2_maxsub_irun_a (dest : V2 Int32) (b : V2 Int32) {r : V2 Int32} (h : I.glm_ivec2_maxsub dest b dest = some r) :
    CI.glm_ivec2_maxsub.run (α := α) [⟨false, icells b.list⟩, ⟨true, icells dest.list⟩] [.p 1 0, .p 0 0, .p 1 0] =
      some (none, [⟨false, icells b.list⟩, ⟨true, icells r.list⟩]) := by
  irun h [I.glm_ivec2_maxsub, I.glm_imax] [CI.glm_ivec2_maxsub, CI.glm_imax]
theorem glm_ivec2_maxsub_irun_a_b (dest : V2 Int32) {r : V2 Int32} (h : I.glm_ivec2_maxsub dest dest dest = some r) :
    CI.glm_ivec2_maxsub.run (α := α) [⟨true, icells dest.list⟩] [.p 0 0, .p 0 0, .p 0 0] =
      some (none, [⟨true, icells r.list⟩]) := by
  irun h [I.glm_ivec2_maxsub, I.glm_imax] [CI.glm_ivec2_maxsub, CI.glm_imax]
theorem glm_ivec2_minsub_irun (a : V2 Int32) (b : V2 Int32) (dest : V2 Int32) {r : V2 Int32} (h : I.glm_ivec2_minsub a b dest = some r) :
    CI.glm_ivec2_minsub.run (α := α) [⟨false, icells a.list⟩, ⟨false, icells b.list⟩, ⟨true, icells dest.list⟩] [.p 0 0, .p 1 0, .p 2 0] =
      some (none, [⟨false, icells a.list⟩, ⟨false, icells b.list⟩, ⟨true, icells r.list⟩]) := by
  irun h [I.glm_ivec2_minsub, I.glm_imin] [CI.glm_ivec2_minsub, CI.glm_imin]
theorem glm_ivec2_minsub_irun_b (a : V2 Int32) (dest : V2 Int32) {r : V2 Int32} (h : I.glm_ivec2_minsub a dest dest = some r) :
    CI.glm_ivec2_minsub.run (α := α) [⟨false, icells a.list⟩, ⟨true, icells dest.list⟩] [.p 0 0, .p 1 0, .p 1 0] =
      some (none, [⟨false, icells a.list⟩, ⟨true, icells r.list⟩]) := by
  irun h [I.glm_ivec2_minsub, I.glm_imin] [CI.glm_ivec2_minsub, CI.glm_imin]
theorem glm_ivec2_minsub_irun_a (dest : V2 Int32) (b : V2 Int32) {r : V2 Int32} (h : I.glm_ivec2_minsub dest b dest = some r) :
    CI.glm_ivec2_minsub.run (α := α) [⟨false, icells b.list⟩, ⟨true, icells dest.list⟩] [.p 1 0, .p 0 0, .p 1 0] =
      some (none, [⟨false, icells b.list⟩, ⟨true, icells r.list⟩]) := by
  irun h [I.glm_ivec2_minsub, I.glm_imin] [CI.glm_ivec2_minsub, CI.glm_imin]
theorem glm_ivec2_minsub_irun_a_b (dest : V2 Int32) {r : V2 Int32} (h : I.glm_ivec2_minsub dest dest dest = some r) :
    CI.glm_ivec2_minsub.run (α := α) [⟨true, icells dest.list⟩] [.p 0 0, .p 0 0, .p 0 0] =
      some (none, [⟨true, icells r.list⟩]) := by
  irun h [I.glm_ivec2_minsub, I.glm_imin] [CI.glm_ivec2_minsub, CI.glm_imin]
theorem glm_ivec2_distance2_irun (a : V2 Int32) (b : V2 Int32) {r : Int32} (h : I.glm_ivec2_distance2 a b = some r) :
    CI.glm_ivec2_distance2.run (α := α) [⟨false, icells a.list⟩, ⟨false, icells b.list⟩] [.p 0 0, .p 1 0] =
      some (some (.i r.toInt), [⟨false, icells a.list⟩, ⟨false, icells b.list⟩]) := by
  irun h [I.glm_ivec2_distance2] [CI.glm_ivec2_distance2]
theorem glm_ivec2_distance_irun (a : V2 Int32) (b : V2 Int32) {r : α} (h : I.glm_ivec2_distance (α := α) a b = some r) :
    CI.glm_ivec2_distance.run (α := α) [⟨false, icells a.list⟩, ⟨false, icells b.list⟩] [.p 0 0, .p 1 0] =
      some (some (.f r), [⟨false, icells a.list⟩, ⟨false, icells b.list⟩]) := by
  irun h [I.glm_ivec2_distance, I.glm_ivec2_distance2] [CI.glm_ivec2_distance, CI.glm_ivec2_distance2]
theorem glm_ivec2_fill_irun (val : Int32) {r : V2 Int32} (h : I.glm_ivec2_fill val = some r) :
    CI.glm_ivec2_fill.run (α := α) [⟨true, List.replicate 2 .undef⟩] [.p 0 0, .i val.toInt] =
      some (none, [⟨true, icells r.list⟩]) := by
  irun h [I.glm_ivec2_fill] [CI.glm_ivec2_fill]
theorem glm_ivec2_eq_irun (v : V2 Int32) (val : Int32) {r : Bool} (h : I.glm_ivec2_eq v val = some r) :
    CI.glm_ivec2_eq.run (α := α) [⟨false, icells v.list⟩] [.p 0 0, .i val.toInt] =
      some (some (.b r), [⟨false, icells v.list⟩]) := by
  rcases c0 : I32.eq v.x val with _ | _ <;>
  rcases c1 : I32.eq v.x v.y with _ | _ <;>
  irun h [I.glm_ivec2_eq] [CI.glm_ivec2_eq]
theorem glm_ivec2_eqv_irun (a : V2 Int32) (b : V2 Int32) {r : Bool} (h : I.glm_ivec2_eqv a b = some r) :
    CI.glm_ivec2_eqv.run (α := α) [⟨false, icells a.list⟩, ⟨false, icells b.list⟩] [.p 0 0, .p 1 0] =
      some (some (.b r), [⟨false, icells a.list⟩, ⟨false, icells b.list⟩]) := by
  rcases c0 : I32.eq a.x b.x with _ | _ <;>
  rcases c1 : I32.eq a.y b.y with _ | _ <;>
  irun h [I.glm_ivec2_eqv] [CI.glm_ivec2_eqv]
theorem glm_ivec2_maxv_irun (a : V2 Int32) (b : V2 Int32) {r : V2 Int32} (h : I.glm_ivec2_maxv a b = some r) :
    CI.glm_ivec2_maxv.run (α := α) [⟨false, icells a.list⟩, ⟨false, icells b.list⟩, ⟨true, List.replicate 2 .undef⟩] [.p 0 0, .p 1 0, .p 2 0] =
      some (none, [⟨false, icells a.list⟩, ⟨false, icells b.list⟩, ⟨true, icells r.list⟩]) := by
  rcases c0 : I32.gt a.x b.x with _ | _ <;>
  rcases c1 : I32.gt a.y b.y with _ | _ <;>
  irun h [I.glm_ivec2_maxv] [CI.glm_ivec2_maxv]
theorem glm_ivec2_maxv_irun_b (a : V2 Int32) (b : V2 Int32) {r : V2 Int32} (h : I.glm_ivec2_maxv a b = some r) :
    CI.glm_ivec2_maxv.run (α := α) [⟨false, icells a.list⟩, ⟨true, icells b.list⟩] [.p 0 0, .p 1 0, .p 1 0] =
      some (none, [⟨false, icells a.list⟩, ⟨true, icells r.list⟩]) := by
  rcases c0 : I32.gt a.x b.x with _ | _ <;>
  rcases c1 : I32.gt a.y b.y with _ | _ <;>
  irun h [I.glm_ivec2_maxv] [CI.glm_ivec2_maxv]
theorem glm_ivec2_maxv_irun_a (a : V2 Int32) (b : V2 Int32) {r : V2 Int32} (h : I.glm_ivec2_maxv a b = some r) :
    CI.glm_ivec2_maxv.run (α := α) [⟨false, icells b.list⟩, ⟨true, icells a.list⟩] [.p 1 0, .p 0 0, .p 1 0] =
      some (none, [⟨false, icells b.list⟩, ⟨true, icells r.list⟩]) := by
  rcases c0 : I32.gt a.x b.x with _ | _ <;>
  rcases c1 : I32.gt a.y b.y with _ | _ <;>
  irun h [I.glm_ivec2_maxv] [CI.glm_ivec2_maxv]
theorem glm_ivec2_maxv_irun_a_b (a : V2 Int32) {r : V2 Int32} (h : I.glm_ivec2_maxv a a = some r) :
    CI.glm_ivec2_maxv.run (α := α) [⟨true, icells a.list⟩] [.p 0 0, .p 0 0, .p 0 0] =
      some (none, [⟨true, icells r.list⟩]) := by
  rcases c0 : I32.gt a.x a.x with _ | _ <;>
  rcases c1 : I32.gt a.y a.y with _ | _ <;>
  irun h [I.glm_ivec2_maxv] [CI.glm_ivec2_maxv]
theorem glm_ivec2_minv_irun (a : V2 Int32) (b : V2 Int32) {r : V2 Int32} (h : I.glm_ivec2_minv a b = some r) :
    CI.glm_ivec2_minv.run (α := α) [⟨false, icells a.list⟩, ⟨false, icells b.list⟩, ⟨true, List.replicate 2 .undef⟩] [.p 0 0, .p 1 0, .p 2 0] =
      some (none, [⟨false, icells a.list⟩, ⟨false, icells b.list⟩, ⟨true, icells r.list⟩]) := by
  rcases c0 : I32.lt a.x b.x with _ | _ <;>
  rcases c1 : I32.lt a.y b.y with _ | _ <;>
  irun h [I.glm_ivec2_minv] [CI.glm_ivec2_minv]
theorem glm_ivec2_minv_irun_b (a : V2 Int32) (b : V2 Int32) {r : V2 Int32} (h : I.glm_ivec2_minv a b = some r) :
    CI.glm_ivec2_minv.run (α := α) [⟨false, icells a.list⟩, ⟨true, icells b.list⟩] [.p 0 0, .p 1 0, .p 1 0] =
      some (none, [⟨false, icells a.list⟩, ⟨true, icells r.list⟩]) := by
  rcases c0 : I32.lt a.x b.x with _ | _ <;>
  rcases c1 : I32.lt a.y b.y with _ | _ <;>
  irun h [I.glm_ivec2_minv] [CI.glm_ivec2_minv]
theorem glm_ivec2_minv_irun_a (a : V2 Int32) (b : V2 Int32) {r : V2 Int32} (h : I.glm_ivec2_minv a b = some r) :
    CI.glm_ivec2_minv.run (α := α) [⟨false, icells b.list⟩, ⟨true, icells a.list⟩] [.p 1 0, .p 0 0, .p 1 0] =
      some (none, [⟨false, icells b.list⟩, ⟨true, icells r.list⟩]) := by
  rcases c0 : I32.lt a.x b.x with _ | _ <;>
  rcases c1 : I32.lt a.y b.y with _ | _ <;>
  irun h [I.glm_ivec2_minv] [CI.glm_ivec2_minv]
theorem glm_ivec2_minv_irun_a_b (a : V2 Int32) {r : V2 Int32} (h : I.glm_ivec2_minv a a = some r) :
    CI.glm_ivec2_minv.run (α := α) [⟨true, icells a.list⟩] [.p 0 0, .p 0 0, .p 0 0] =
      some (none, [⟨true, icells r.list⟩]) := by
  rcases c0 : I32.lt a.x a.x with _ | _ <;>
  rcases c1 : I32.lt a.y a.y with _ | _ <;>
  irun h [I.glm_ivec2_minv] [CI.glm_ivec2_minv]
theorem glm_ivec2_clamp_irun (v : V2 Int32) (minVal : Int32) (maxVal : Int32) {r : V2 Int32} (h : I.glm_ivec2_clamp v minVal maxVal = some r) :
    CI.glm_ivec2_clamp.run (α := α) [⟨true, icells v.list⟩] [.p 0 0, .i minVal.toInt, .i maxVal.toInt] =
      some (none, [⟨true, icells r.list⟩]) := by
  have e : I.glm_ivec2_clamp v minVal maxVal = some ⟨clampI minVal maxVal v.x, clampI minVal maxVal v.y⟩ := by
    unfold I.glm_ivec2_clamp clampI
    rcases I32.lt v.x minVal with _ | _ <;> rcases I32.gt v.x maxVal with _ | _ <;>
    rcases I32.lt v.y minVal with _ | _ <;> rcases I32.gt v.y maxVal with _ | _ <;>
    rfl
  rw [e, Option.some.injEq] at h
  subst h
  have b : CI.glm_ivec2_clamp.body = .seq (clampS (.reg 0)) (clampS (.off (.reg 0) 1)) := rfl
  have l : CI.glm_ivec2_clamp.locals = [] ∧ CI.glm_ivec2_clamp.nregs = 0 := ⟨rfl, rfl⟩
  simp only [IFn.run, b, l.1, l.2, List.replicate, fresh, List.map_nil, List.append_nil, V2.list]
  rw [iexec_seq (clampS_exec (k := 0) rfl rfl)]
  rw [clampS_exec (k := 1) rfl rfl]
  rfl
theorem glm_ivec2_abs_irun (v : V2 Int32) {r : V2 Int32} (h : I.glm_ivec2_abs v = some r) :
    CI.glm_ivec2_abs.run (α := α) [⟨false, icells v.list⟩, ⟨true, List.replicate 2 .undef⟩] [.p 0 0, .p 1 0] =
      some (none, [⟨false, icells v.list⟩, ⟨true, icells r.list⟩]) := by
  irun h [I.glm_ivec2_abs] [CI.glm_ivec2_abs]
theorem glm_ivec2_abs_irun_v (v : V2 Int32) {r : V2 Int32} (h : I.glm_ivec2_abs v = some r) :
    CI.glm_ivec2_abs.run (α := α) [⟨true, icells v.list⟩] [.p 0 0, .p 0 0] =
      some (none, [⟨true, icells r.list⟩]) := by
  irun h [I.glm_ivec2_abs] [CI.glm_ivec2_abs]

end Cglm

end IIvec2Run

section IIvec3Run

/-! Runs of the functions of include/cglm/ivec3.h on canonical memories. -/

set_option maxRecDepth 10000
set_option linter.unusedVariables false
set_option linter.unusedSectionVars false
set_option linter.unusedSimpArgs false

namespace Cglm
open CMem

variable {α : Type} [Add α] [Sub α] [Mul α] [Div α] [Neg α] [CFloat α] [CIntConv α]

theorem glm_ivec3_irun (v4 : V4 Int32) {r : V3 Int32} (h : I.glm_ivec3 v4 = some r) :
    CI.glm_ivec3.run (α := α) [⟨false, icells v4.list⟩, ⟨true, List.replicate 3 .undef⟩] [.p 0 0, .p 1 0] =
      some (none, [⟨false, icells v4.list⟩, ⟨true, icells r.list⟩]) := by
  irun h [I.glm_ivec3] [CI.glm_ivec3]
theorem glm_ivec3_copy_irun (a : V3 Int32) {r : V3 Int32} (h : I.glm_ivec3_copy a = some r) :
    CI.glm_ivec3_copy.run (α := α) [⟨false, icells a.list⟩, ⟨true, List.replicate 3 .undef⟩] [.p 0 0, .p 1 0] =
      some (none, [⟨false, icells a.list⟩, ⟨true, icells r.list⟩]) := by
  irun h [I.glm_ivec3_copy] [CI.glm_ivec3_copy]
theorem glm_ivec3_copy_irun_a (a : V3 Int32) {r : V3 Int32} (h : I.glm_ivec3_copy a = some r) :
    CI.glm_ivec3_copy.run (α := α) [⟨true, icells a.list⟩] [.p 0 0, .p 0 0] =
      some (none, [⟨true, icells r.list⟩]) := by
  irun h [I.glm_ivec3_copy] [CI.glm_ivec3_copy]
theorem glm_ivec3_zero_irun {r : V3 Int32} (h : I.glm_ivec3_zero = some r) :
    CI.glm_ivec3_zero.run (α := α) [⟨true, List.replicate 3 .undef⟩] [.p 0 0] =
      some (none, [⟨true, icells r.list⟩]) := by
  irun h [I.glm_ivec3_zero] [CI.glm_ivec3_zero]
theorem glm_ivec3_one_irun {r : V3 Int32} (h : I.glm_ivec3_one = some r) :
    CI.glm_ivec3_one.run (α := α) [⟨true, List.replicate 3 .undef⟩] [.p 0 0] =
      some (none, [⟨true, icells r.list⟩]) := by
  irun h [I.glm_ivec3_one] [CI.glm_ivec3_one]
theorem glm_ivec3_dot_irun (a : V3 Int32) (b : V3 Int32) {r : Int32} (h : I.glm_ivec3_dot a b = some r) :
    CI.glm_ivec3_dot.run (α := α) [⟨false, icells a.list⟩, ⟨false, icells b.list⟩] [.p 0 0, .p 1 0] =
      some (some (.i r.toInt), [⟨false, icells a.list⟩, ⟨false, icells b.list⟩]) := by
  irun h [I.glm_ivec3_dot] [CI.glm_ivec3_dot]
theorem glm_ivec3_norm2_irun (v : V3 Int32) {r : Int32} (h : I.glm_ivec3_norm2 v = some r) :
    CI.glm_ivec3_norm2.run (α := α) [⟨false, icells v.list⟩] [.p 0 0] =
      some (some (.i r.toInt), [⟨false, icells v.list⟩]) := by
  irun h [I.glm_ivec3_norm2, I.glm_ivec3_dot] [CI.glm_ivec3_norm2, CI.glm_ivec3_dot]
theorem glm_ivec3_norm_irun (v : V3 Int32) {r : Int32} (h : I.glm_ivec3_norm (α := α) v = some r) :
    CI.glm_ivec3_norm.run (α := α) [⟨false, icells v.list⟩] [.p 0 0] =
      some (some (.i r.toInt), [⟨false, icells v.list⟩]) := by
  irun h [I.glm_ivec3_norm, I.glm_ivec3_norm2, I.glm_ivec3_dot] [CI.glm_ivec3_norm, CI.glm_ivec3_norm2, CI.glm_ivec3_dot]
theorem glm_ivec3_add_irun (a : V3 Int32) (b : V3 Int32) {r : V3 Int32} (h : I.glm_ivec3_add a b = some r) :
    CI.glm_ivec3_add.run (α := α) [⟨false, icells a.list⟩, ⟨false, icells b.list⟩, ⟨true, List.replicate 3 .undef⟩] [.p 0 0, .p 1 0, .p 2 0] =
      some (none, [⟨false, icells a.list⟩, ⟨false, icells b.list⟩, ⟨true, icells r.list⟩]) := by
  irun h [I.glm_ivec3_add] [CI.glm_ivec3_add]
theorem glm_ivec3_add_irun_b (a : V3 Int32) (b : V3 Int32) {r : V3 Int32} (h : I.glm_ivec3_add a b = some r) :
    CI.glm_ivec3_add.run (α := α) [⟨false, icells a.list⟩, ⟨true, icells b.list⟩] [.p 0 0, .p 1 0, .p 1 0] =
      some (none, [⟨false, icells a.list⟩, ⟨true, icells r.list⟩]) := by
  irun h [I.glm_ivec3_add] [CI.glm_ivec3_add]
theorem glm_ivec3_add_irun_a (a : V3 Int32) (b : V3 Int32) {r : V3 Int32} (h : I.glm_ivec3_add a b = some r) :
    CI.glm_ivec3_add.run (α := α) [⟨false, icells b.list⟩, ⟨true, icells a.list⟩] [.p 1 0, .p 0 0, .p 1 0] =
      some (none, [⟨false, icells b.list⟩, ⟨true, icells r.list⟩]) := by
  irun h [I.glm_ivec3_add] [CI.glm_ivec3_add]
theorem glm_ivec3_add_irun_a_b (a : V3 Int32) {r : V3 Int32} (h : I.glm_ivec3_add a a = some r) :
    CI.glm_ivec3_add.run (α := α) [⟨true, icells a.list⟩] [.p 0 0, .p 0 0, .p 0 0] =
      some (none, [⟨true, icells r.list⟩]) := by
  irun h [I.glm_ivec3_add] [CI.glm_ivec3_add]
theorem glm_ivec3_adds_irun (v : V3 Int32) (s : Int32) {r : V3 Int32} (h : I.glm_ivec3_adds v s = some r) :
    CI.glm_ivec3_adds.run (α := α) [⟨false, icells v.list⟩, ⟨true, List.replicate 3 .undef⟩] [.p 0 0, .i s.toInt, .p 1 0] =
      some (none, [⟨false, icells v.list⟩, ⟨true, icells r.list⟩]) := by
  irun h [I.glm_ivec3_adds] [CI.glm_ivec3_adds]
theorem glm_ivec3_adds_irun_v (v : V3 Int32) (s : Int32) {r : V3 Int32} (h : I.glm_ivec3_adds v s = some r) :
    CI.glm_ivec3_adds.run (α := α) [⟨true, icells v.list⟩] [.p 0 0, .i s.toInt, .p 0 0] =
      some (none, [⟨true, icells r.list⟩]) := by
  irun h [I.glm_ivec3_adds] [CI.glm_ivec3_adds]
theorem glm_ivec3_sub_irun (a : V3 Int32) (b : V3 Int32) {r : V3 Int32} (h : I.glm_ivec3_sub a b = some r) :
    CI.glm_ivec3_sub.run (α := α) [⟨false, icells a.list⟩, ⟨false, icells b.list⟩, ⟨true, List.replicate 3 .undef⟩] [.p 0 0, .p 1 0, .p 2 0] =
      some (none, [⟨false, icells a.list⟩, ⟨false, icells b.list⟩, ⟨true, icells r.list⟩]) := by
  irun h [I.glm_ivec3_sub] [CI.glm_ivec3_sub]
theorem glm_ivec3_sub_irun_b (a : V3 Int32) (b : V3 Int32) {r : V3 Int32} (h : I.glm_ivec3_sub a b = some r) :
    CI.glm_ivec3_sub.run (α := α) [⟨false, icells a.list⟩, ⟨true, icells b.list⟩] [.p 0 0, .p 1 0, .p 1 0] =
      some (none, [⟨false, icells a.list⟩, ⟨true, icells r.list⟩]) := by
  irun h [I.glm_ivec3_sub] [CI.glm_ivec3_sub]
theorem glm_ivec3_sub_irun_a (a : V3 Int32) (b : V3 Int32) {r : V3 Int32} (h : I.glm_ivec3_sub a b = some r) :
    CI.glm_ivec3_sub.run (α := α) [⟨false, icells b.list⟩, ⟨true, icells a.list⟩] [.p 1 0, .p 0 0, .p 1 0] =
      some (none, [⟨false, icells b.list⟩, ⟨true, icells r.list⟩]) := by
  irun h [I.glm_ivec3_sub] [CI.glm_ivec3_sub]
theorem glm_ivec3_sub_irun_a_b (a : V3 Int32) {r : V3 Int32} (h : I.glm_ivec3_sub a a = some r) :
    CI.glm_ivec3_sub.run (α := α) [⟨true, icells a.list⟩] [.p 0 0, .p 0 0, .p 0 0] =
      some (none, [⟨true, icells r.list⟩]) := by
  irun h [I.glm_ivec3_sub] [CI.glm_ivec3_sub]
theorem glm_ivec3_subs_irun (v : V3 Int32) (s : Int32) {r : V3 Int32} (h : I.glm_ivec3_subs v s = some r) :
    CI.glm_ivec3_subs.run (α := α) [⟨false, icells v.list⟩, ⟨true, List.replicate 3 .undef⟩] [.p 0 0, .i s.toInt, .p 1 0] =
      some (none, [⟨false, icells v.list⟩, ⟨true, icells r.list⟩]) := by
  irun h [I.glm_ivec3_subs] [CI.glm_ivec3_subs]
theorem glm_ivec3_subs_irun_v (v : V3 Int32) (s : Int32) {r : V3 Int32} (h : I.glm_ivec3_subs v s = some r) :
    CI.glm_ivec3_subs.run (α := α) [⟨true, icells v.list⟩] [.p 0 0, .i s.toInt, .p 0 0] =
      some (none, [⟨true, icells r.list⟩]) := by
  irun h [I.glm_ivec3_subs] [CI.glm_ivec3_subs]
theorem glm_ivec3_mul_irun (a : V3 Int32) (b : V3 Int32) {r : V3 Int32} (h : I.glm_ivec3_mul a b = some r) :
    CI.glm_ivec3_mul.run (α := α) [⟨false, icells a.list⟩, ⟨false, icells b.list⟩, ⟨true, List.replicate 3 .undef⟩] [.p 0 0, .p 1 0, .p 2 0] =
      some (none, [⟨false, icells a.list⟩, ⟨false, icells b.list⟩, ⟨true, icells r.list⟩]) := by
  irun h [I.glm_ivec3_mul] [CI.glm_ivec3_mul]
theorem glm_ivec3_mul_irun_b (a : V3 Int32) (b : V3 Int32) {r : V3 Int32} (h : I.glm_ivec3_mul a b = some r) :
    CI.glm_ivec3_mul.run (α := α) [⟨false, icells a.list⟩, ⟨true, icells b.list⟩] [.p 0 0, .p 1 0, .p 1 0] =
      some (none, [⟨false, icells a.list⟩, ⟨true, icells r.list⟩]) := by
  irun h [I.glm_ivec3_mul] [CI.glm_ivec3_mul]
theorem glm_ivec3_mul_irun_a (a : V3 Int32) (b : V3 Int32) {r : V3 Int32} (h : I.glm_ivec3_mul a b = some r) :
    CI.glm_ivec3_mul.run (α := α) [⟨false, icells b.list⟩, ⟨true, icells a.list⟩] [.p 1 0, .p 0 0, .p 1 0] =
      some (none, [⟨false, icells b.list⟩, ⟨true, icells r.list⟩]) := by
  irun h [I.glm_ivec3_mul] [CI.glm_ivec3_mul]
theorem glm_ivec3_mul_irun_a_b (a : V3 Int32) {r : V3 Int32} (h : I.glm_ivec3_mul a a = some r) :
    CI.glm_ivec3_mul.run (α := α) [⟨true, icells a.list⟩] [.p 0 0, .p 0 0, .p 0 0] =
      some (none, [⟨true, icells r.list⟩]) := by
  irun h [I.glm_ivec3_mul] [CI.glm_ivec3_mul]
theorem glm_ivec3_scale_irun (v : V3 Int32) (s : Int32) {r : V3 Int32} (h : I.glm_ivec3_scale v s = some r) :
    CI.glm_ivec3_scale.run (α := α) [⟨false, icells v.list⟩, ⟨true, List.replicate 3 .undef⟩] [.p 0 0, .i s.toInt, .p 1 0] =
      some (none, [⟨false, icells v.list⟩, ⟨true, icells r.list⟩]) := by
  irun h [I.glm_ivec3_scale] [CI.glm_ivec3_scale]
theorem glm_ivec3_scale_irun_v (v : V3 Int32) (s : Int32) {r : V3 Int32} (h : I.glm_ivec3_scale v s = some r) :
    CI.glm_ivec3_scale.run (α := α) [⟨true, icells v.list⟩] [.p 0 0, .i s.toInt, .p 0 0] =
      some (none, [⟨true, icells r.list⟩]) := by
  irun h [I.glm_ivec3_scale] [CI.glm_ivec3_scale]
theorem glm_ivec3_div_irun (a : V3 Int32) (b : V3 Int32) {r : V3 Int32} (h : I.glm_ivec3_div a b = some r) :
    CI.glm_ivec3_div.run (α := α) [⟨false, icells a.list⟩, ⟨false, icells b.list⟩, ⟨true, List.replicate 3 .undef⟩] [.p 0 0, .p 1 0, .p 2 0] =
      some (none, [⟨false, icells a.list⟩, ⟨false, icells b.list⟩, ⟨true, icells r.list⟩]) := by
  irun h [I.glm_ivec3_div] [CI.glm_ivec3_div]
theorem glm_ivec3_div_irun_b (a : V3 Int32) (b : V3 Int32) {r : V3 Int32} (h : I.glm_ivec3_div a b = some r) :
    CI.glm_ivec3_div.run (α := α) [⟨false, icells a.list⟩, ⟨true, icells b.list⟩] [.p 0 0, .p 1 0, .p 1 0] =
      some (none, [⟨false, icells a.list⟩, ⟨true, icells r.list⟩]) := by
  irun h [I.glm_ivec3_div] [CI.glm_ivec3_div]
theorem glm_ivec3_div_irun_a (a : V3 Int32) (b : V3 Int32) {r : V3 Int32} (h : I.glm_ivec3_div a b = some r) :
    CI.glm_ivec3_div.run (α := α) [⟨false, icells b.list⟩, ⟨true, icells a.list⟩] [.p 1 0, .p 0 0, .p 1 0] =
      some (none, [⟨false, icells b.list⟩, ⟨true, icells r.list⟩]) := by
  irun h [I.glm_ivec3_div] [CI.glm_ivec3_div]
theorem glm_ivec3_div_irun_a_b (a : V3 Int32) {r : V3 Int32} (h : I.glm_ivec3_div a a = some r) :
    CI.glm_ivec3_div.run (α := α) [⟨true, icells a.list⟩] [.p 0 0, .p 0 0, .p 0 0] =
      some (none, [⟨true, icells r.list⟩]) := by
  irun h [I.glm_ivec3_div] [CI.glm_ivec3_div]
theorem glm_ivec3_divs_irun (v : V3 Int32) (s : Int32) {r : V3 Int32} (h : I.glm_ivec3_divs v s = some r) :
    CI.glm_ivec3_divs.run (α := α) [⟨false, icells v.list⟩, ⟨true, List.replicate 3 .undef⟩] [.p 0 0, .i s.toInt, .p 1 0] =
      some (none, [⟨false, icells v.list⟩, ⟨true, icells r.list⟩]) := by
  irun h [I.glm_ivec3_divs] [CI.glm_ivec3_divs]
theorem glm_ivec3_divs_irun_v (v : V3 Int32) (s : Int32) {r : V3 Int32} (h : I.glm_ivec3_divs v s = some r) :
    CI.glm_ivec3_divs.run (α := α) [⟨true, icells v.list⟩] [.p 0 0, .i s.toInt, .p 0 0] =
      some (none, [⟨true, icells r.list⟩]) := by
  irun h [I.glm_ivec3_divs] [CI.glm_ivec3_divs]
theorem glm_ivec3_mod_irun (a : V3 Int32) (b : V3 Int32) {r : V3 Int32} (h : I.glm_ivec3_mod a b = some r) :
    CI.glm_ivec3_mod.run (α := α) [⟨false, icells a.list⟩, ⟨false, icells b.list⟩, ⟨true, List.replicate 3 .undef⟩] [.p 0 0, .p 1 0, .p 2 0] =
      some (none, [⟨false, icells a.list⟩, ⟨false, icells b.list⟩, ⟨true, icells r.list⟩]) := by
  irun h [I.glm_ivec3_mod] [CI.glm_ivec3_mod]
theorem glm_ivec3_mod_irun_b (a : V3 Int32) (b : V3 Int32) {r : V3 Int32} (h : I.glm_ivec3_mod a b = some r) :
    CI.glm_ivec3_mod.run (α := α) [⟨false, icells a.list⟩, ⟨true, icells b.list⟩] [.p 0 0, .p 1 0, .p 1 0] =
      some (none, [⟨false, icells a.list⟩, ⟨true, icells r.list⟩]) := by
  irun h [I.glm_ivec3_mod] [CI.glm_ivec3_mod]
theorem glm_ivec3_mod_irun_a (a : V3 Int32) (b : V3 Int32) {r : V3 Int32} (h : I.glm_ivec3_mod a b = some r) :
    CI.glm_ivec3_mod.run (α := α) [⟨false, icells b.list⟩, ⟨true, icells a.list⟩] [.p 1 0, .p 0 0, .p 1 0] =
      some (none, [⟨false, icells b.list⟩, ⟨true, icells r.list⟩]) := by
  irun h [I.glm_ivec3_mod] [CI.glm_ivec3_mod]
theorem glm_ivec3_mod_irun_a_b (a : V3 Int32) {r : V3 Int32} (h : I.glm_ivec3_mod a a = some r) :
    CI.glm_ivec3_mod.run (α := α) [⟨true, icells a.list⟩] [.p 0 0, .p 0 0, .p 0 0] =
      some (none, [⟨true, icells r.list⟩]) := by
  irun h [I.glm_ivec3_mod] [CI.glm_ivec3_mod]
theorem glm_ivec3_addadd_irun (a : V3 Int32) (b : V3 Int32) (dest : V3 Int32) {r : V3 Int32} (h : I.glm_ivec3_addadd a b dest = some r) :
    CI.glm_ivec3_addadd.run (α := α) [⟨false, icells a.list⟩, ⟨false, icells b.list⟩, ⟨true, icells dest.list⟩] [.p 0 0, .p 1 0, .p 2 0] =
      some (none, [⟨false, icells a.list⟩, ⟨false, icells b.list⟩, ⟨true, icells r.list⟩]) := by
  irun h [I.glm_ivec3_addadd] [CI.glm_ivec3_addadd]
theorem glm_ivec3_addadd_irun_b (a : V3 Int32) (dest : V3 Int32) {r : V3 Int32} (h : I.glm_ivec3_addadd a dest dest = some r) :
    CI.glm_ivec3_addadd.run (α := α) [⟨false, icells a.list⟩, ⟨true, icells dest.list⟩] [.p 0 0, .p 1 0, .p 1 0] =
      some (none, [⟨false, icells a.list⟩, ⟨true, icells r.list⟩]) := by
  irun h [I.glm_ivec3_addadd] [CI.glm_ivec3_addadd]
theorem glm_ivec3_addadd_irun_a (dest : V3 Int32) (b : V3 Int32) {r : V3 Int32} (h : I.glm_ivec3_addadd dest b dest = some r) :
    CI.glm_ivec3_addadd.run (α := α) [⟨false, icells b.list⟩, ⟨true, icells dest.list⟩] [.p 1 0, .p 0 0, .p 1 0] =
      some (none, [⟨false, icells b.list⟩, ⟨true, icells r.list⟩]) := by
  irun h [I.glm_ivec3_addadd] [CI.glm_ivec3_addadd]
theorem glm_ivec3_addadd_irun_a_b (dest : V3 Int32) {r : V3 Int32} (h : I.glm_ivec3_addadd dest dest dest = some r) :
    CI.glm_ivec3_addadd.run (α := α) [⟨true, icells dest.list⟩] [.p 0 0, .p 0 0, .p 0 0] =
      some (none, [⟨true, icells r.list⟩]) := by
  irun h [I.glm_ivec3_addadd] [CI.glm_ivec3_addadd]
theorem glm_ivec3_addadds_irun (a : V3 Int32) (s : Int32) (dest : V3 Int32) {r : V3 Int32} (h : I.glm_ivec3_addadds a s dest = some r) :
    CI.glm_ivec3_addadds.run (α := α) [⟨false, icells a.list⟩, ⟨true, icells dest.list⟩] [.p 0 0, .i s.toInt, .p 1 0] =
      some (none, [⟨false, icells a.list⟩, ⟨true, icells r.list⟩]) := by
  irun h [I.glm_ivec3_addadds] [CI.glm_ivec3_addadds]
theorem glm_ivec3_addadds_irun_a (dest : V3 Int32) (s : Int32) {r : V3 Int32} (h : I.glm_ivec3_addadds dest s dest = some r) :
    CI.glm_ivec3_addadds.run (α := α) [⟨true, icells dest.list⟩] [.p 0 0, .i s.toInt, .p 0 0] =
      some (none, [⟨true, icells r.list⟩]) := by
  irun h [I.glm_ivec3_addadds] [CI.glm_ivec3_addadds]
theorem glm_ivec3_subadd_irun (a : V3 Int32) (b : V3 Int32) (dest : V3 Int32) {r : V3 Int32} (h : I.glm_ivec3_subadd a b dest = some r) :
    CI.glm_ivec3_subadd.run (α := α) [⟨false, icells a.list⟩, ⟨false, icells b.list⟩, ⟨true, icells dest.list⟩] [.p 0 0, .p 1 0, .p 2 0] =
      some (none, [⟨false, icells a.list⟩, ⟨false, icells b.list⟩, ⟨true, icells r.list⟩]) := by
  irun h [I.glm_ivec3_subadd] [CI.glm_ivec3_subadd]
theorem glm_ivec3_subadd_irun_b (a : V3 Int32) (dest : V3 Int32) {r : V3 Int32} (h : I.glm_ivec3_subadd a dest dest = some r) :
    CI.glm_ivec3_subadd.run (α := α) [⟨false, icells a.list⟩, ⟨true, icells dest.list⟩] [.p 0 0, .p 1 0, .p 1 0] =
      some (none, [⟨false, icells a.list⟩, ⟨true, icells r.list⟩]) := by
  irun h [I.glm_ivec3_subadd] [CI.glm_ivec3_subadd]
theorem glm_ivec3_subadd_irun_a (dest : V3 Int32) (b : V3 Int32) {r : V3 Int32} (h : I.glm_ivec3_subadd dest b dest = some r) :
    CI.glm_ivec3_subadd.run (α := α) [⟨false, icells b.list⟩, ⟨true, icells dest.list⟩] [.p 1 0, .p 0 0, .p 1 0] =
      some (none, [⟨false, icells b.list⟩, ⟨true, icells r.list⟩]) := by
  irun h [I.glm_ivec3_subadd] [CI.glm_ivec3_subadd]
theorem glm_ivec3_subadd_irun_a_b (dest : V3 Int32) {r : V3 Int32} (h : I.glm_ivec3_subadd dest dest dest = some r) :
    CI.glm_ivec3_subadd.run (α := α) [⟨true, icells dest.list⟩] [.p 0 0, .p 0 0, .p 0 0] =
      some (none, [⟨true, icells r.list⟩]) := by
  irun h [I.glm_ivec3_subadd] [CI.glm_ivec3_subadd]
theorem glm_ivec3_subadds_irun (a : V3 Int32) (s : Int32) (dest : V3 Int32) {r : V3 Int32} (h : I.glm_ivec3_subadds a s dest = some r) :
    CI.glm_ivec3_subadds.run (α := α) [⟨false, icells a.list⟩, ⟨true, icells dest.list⟩] [.p 0 0, .i s.toInt, .p 1 0] =
      some (none, [⟨false, icells a.list⟩, ⟨true, icells r.list⟩]) := by
  irun h [I.glm_ivec3_subadds] [CI.glm_ivec3_subadds]
theorem glm_ivec3_subadds_irun_a (dest : V3 Int32) (s : Int32) {r : V3 Int32} (h : I.glm_ivec3_subadds dest s dest = some r) :
    CI.glm_ivec3_subadds.run (α := α) [⟨true, icells dest.list⟩] [.p 0 0, .i s.toInt, .p 0 0] =
      some (none, [⟨true, icells r.list⟩]) := by
  irun h [I.glm_ivec3_subadds] [CI.glm_ivec3_subadds]
theorem glm_ivec3_muladd_irun (a : V3 Int32) (b : V3 Int32) (dest : V3 Int32) {r : V3 Int32} (h : I.glm_ivec3_muladd a b dest = some r) :
    CI.glm_ivec3_muladd.run (α := α) [⟨false, icells a.list⟩, ⟨false, icells b.list⟩, ⟨true, icells dest.list⟩] [.p 0 0, .p 1 0, .p 2 0] =
      some (none, [⟨false, icells a.list⟩, ⟨false, icells b.list⟩, ⟨true, icells r.list⟩]) := by
  irun h [I.glm_ivec3_muladd] [CI.glm_ivec3_muladd]
theorem glm_ivec3_muladd_irun_b (a : V3 Int32) (dest : V3 Int32) {r : V3 Int32} (h : I.glm_ivec3_muladd a dest dest = some r) :
    CI.glm_ivec3_muladd.run (α := α) [⟨false, icells a.list⟩, ⟨true, icells dest.list⟩] [.p 0 0, .p 1 0, .p 1 0] =
      some (none, [⟨false, icells a.list⟩, ⟨true, icells r.list⟩]) := by
  irun h [I.glm_ivec3_muladd] [CI.glm_ivec3_muladd]
theorem glm_ivec3_muladd_irun_a (dest : V3 Int32) (b : V3 Int32) {r : V3 Int32} (h : I.glm_ivec3_muladd dest b dest = some r) :
    CI.glm_ivec3_muladd.run (α := α) [⟨false, icells b.list⟩, ⟨true, icells dest.list⟩] [.p 1 0, .p 0 0, .p 1 0] =
      some (none, [⟨false, icells b.list⟩, ⟨true, icells r.list⟩]) := by
  irun h [I.glm_ivec3_muladd] [CI.glm_ivec3_muladd]
theorem glm_ivec3_muladd_irun_a_b (dest : V3 Int32) {r : V3 Int32} (h : I.glm_ivec3_muladd dest dest dest = some r) :
    CI.glm_ivec3_muladd.run (α := α) [⟨true, icells dest.list⟩] [.p 0 0, .p 0 0, .p 0 0] =
      some (none, [⟨true, icells r.list⟩]) := by
  irun h [I.glm_ivec3_muladd] [CI.glm_ivec3_muladd]
theorem glm_ivec3_muladds_irun (a : V3 Int32) (s : Int32) (dest : V3 Int32) {r : V3 Int32} (h : I.glm_ivec3_muladds a s dest = some r) :
    CI.glm_ivec3_muladds.run (α := α) [⟨false, icells a.list⟩, ⟨true, icells dest.list⟩] [.p 0 0, .i s.toInt, .p 1 0] =
      some (none, [⟨false, icells a.list⟩, ⟨true, icells r.list⟩]) := by
  irun h [I.glm_ivec3_muladds] [CI.glm_ivec3_muladds]
theorem glm_ivec3_muladds_irun_a (dest : V3 Int32) (s : Int32) {r : V3 Int32} (h : I.glm_ivec3_muladds dest s dest = some r) :
    CI.glm_ivec3_muladds.run (α := α) [⟨true, icells dest.list⟩] [.p 0 0, .i s.toInt, .p 0 0] =
      some (none, [⟨true, icells r.list⟩]) := by
  irun h [I.glm_ivec3_muladds] [CI.glm_ivec3_muladds]
theorem glm_ivec3_maxadd_irun (a : V3 Int32) (b : V3 Int32) (dest : V3 Int32) {r : V3 Int32} (h : I.glm_ivec3_maxadd a b dest = some r) :
    CI.glm_ivec3_maxadd.run (α := α) [⟨false, icells a.list⟩, ⟨false, icells b.list⟩, ⟨true, icells dest.list⟩] [.p 0 0, .p 1 0, .p 2 0] =
      some (none, [⟨false, icells a.list⟩, ⟨false, icells b.list⟩, ⟨true, icells r.list⟩]) := by
  irun h [I.glm_ivec3_maxadd, I.glm_imax] [CI.glm_ivec3_maxadd, CI.glm_imax]
theorem glm_ivec3_maxadd_irun_b (a : V3 Int32) (dest : V3 Int32) {r : V3 Int32} (h : I.glm_ivec3_maxadd a dest dest = some r) :
    CI.glm_ivec3_maxadd.run (α := α) [⟨false, icells a.list⟩, ⟨true, icells dest.list⟩] [.p 0 0, .p 1 0, .p 1 0] =
      some (none, [⟨false, icells a.list⟩, ⟨true, icells r.list⟩]) := by
  irun h [I.glm_ivec3_maxadd, I.glm_imax] [CI.glm_ivec3_maxadd, CI.glm_imax]
theorem glm_ivec3_maxadd_irun_a (dest : V3 Int32) (b : V3 Int32) {r : V3 Int32} (h : I.glm_ivec3_maxadd dest b dest = some r) :
    CI.glm_ivec3_maxadd.run (α := α) [⟨false, icells b.list⟩, ⟨true, icells dest.list⟩] [.p 1 0, .p 0 0, .p 1 0] =
      some (none, [⟨false, icells b.list⟩, ⟨true, icells r.list⟩]) := by
  irun h [I.glm_ivec3_maxadd, I.glm_imax] [CI.glm_ivec3_maxadd, CI.glm_imax]
theorem glm_ivec3_maxadd_irun_a_b (dest : V3 Int32) {r : V3 Int32} (h : I.glm_ivec3_maxadd dest dest dest = some r) :
    CI.glm_ivec3_maxadd.run (α := α) [⟨true, icells dest.list⟩] [.p 0 0, .p 0 0, .p 0 0] =
      some (none, [⟨true, icells r.list⟩]) := by
  irun h [I.glm_ivec3_maxadd, I.glm_imax] [CI.glm_ivec3_maxadd, CI.glm_imax]
theorem glm_ivec3_minadd_irun (a : V3 Int32) (b : V3 Int32) (dest : V3 Int32) {r : V3 Int32} (h : I.glm_ivec3_minadd a b dest = some r) :
    CI.glm_ivec3_minadd.run (α := α) [⟨false, icells a.list⟩, ⟨false, icells b.list⟩, ⟨true, icells dest.list⟩] [.p 0 0, .p 1 0, .p 2 0] =
      some (none, [⟨false, icells a.list⟩, ⟨false, icells b.list⟩, ⟨true, icells r.list⟩]) := by
  irun h [I.glm_ivec3_minadd, I.glm_imin] [CI.glm_ivec3_minadd, CI.glm_imin]
theorem glm_ivec3_minadd_irun_b (a : V3 Int32) (dest : V3 Int32) {r : V3 Int32} (h : I.glm_ivec3_minadd a dest dest = some r) :
    CI.glm_ivec3_minadd.run (α := α) [⟨false, icells a.list⟩, ⟨true, icells dest.list⟩] [.p 0 0, .p 1 0, .p 1 0] =
      some (none, [⟨false, icells a.list⟩, ⟨true, icells r.list⟩]) := by
  irun h [I.glm_ivec3_minadd, I.glm_imin] [CI.glm_ivec3_minadd, CI.glm_imin]
theorem glm_ivec3_minadd_irun_a (dest : V3 Int32) (b : V3 Int32) {r : V3 Int32} (h : I.glm_ivec3_minadd dest b dest = some r) :
    CI.glm_ivec3_minadd.run (α := α) [⟨false, icells b.list⟩, ⟨true, icells dest.list⟩] [.p 1 0, .p 0 0, .p 1 0] =
      some (none, [⟨false, icells b.list⟩, ⟨true, icells r.list⟩]) := by
  irun h [I.glm_ivec3_minadd, I.glm_imin] [CI.glm_ivec3_minadd, CI.glm_imin]
theorem glm_ivec3_minadd_irun_a_b (dest : V3 Int32) {r : V3 Int32} (h : I.glm_ivec3_minadd dest dest dest = some r) :
    CI.glm_ivec3_minadd.run (α := α) [⟨true, icells dest.list⟩] [.p 0 0, .p 0 0, .p 0 0] =
      some (none, [⟨true, icells r.list⟩]) := by
  irun h [I.glm_ivec3_minadd, I.glm_imin] [CI.glm_ivec3_minadd, CI.glm_imin]
theorem glm_ivec3_subsub_irun (a : V3 Int32) (b : V3 Int32) (dest : V3 Int32) {r : V3 Int32} (h : I.glm_ivec3_subsub a b dest = some r) :
    CI.glm_ivec3_subsub.run (α := α) [⟨false, icells a.list⟩, ⟨false, icells b.list⟩, ⟨true, icells dest.list⟩] [.p 0 0, .p 1 0, .p 2 0] =
      some (none, [⟨false, icells a.list⟩, ⟨false, icells b.list⟩, ⟨true, icells r.list⟩]) := by
  irun h [I.glm_ivec3_subsub] [CI.glm_ivec3_subsub]
theorem glm_ivec3_subsub_irun_b (a : V3 Int32) (dest : V3 Int32) {r : V3 Int32} (h : I.glm_ivec3_subsub a dest dest = some r) :
    CI.glm_ivec3_subsub.run (α := α) [⟨false, icells a.list⟩, ⟨true, icells dest.list⟩] [.p 0 0, .p 1 0, .p 1 0] =
      some (none, [⟨false, icells a.list⟩, ⟨true, icells r.list⟩]) := by
  irun h [I.glm_ivec3_subsub] [CI.glm_ivec3_subsub]
theorem glm_ivec3_subsub_irun_a (dest : V3 Int32) (b : V3 Int32) {r : V3 Int32} (h : I.glm_ivec3_subsub dest b dest = some r) :
    CI.glm_ivec3_subsub.run (α := α) [⟨false, icells b.list⟩, ⟨true, icells dest.list⟩] [.p 1 0, .p 0 0, .p 1 0] =
      some (none, [⟨false, icells b.list⟩, ⟨true, icells r.list⟩]) := by
  irun h [I.glm_ivec3_subsub] [CI.glm_ivec3_subsub]
theorem glm_ivec3_subsub_irun_a_b (dest : V3 Int32) {r : V3 Int32} (h : I.glm_ivec3_subsub dest dest dest = some r) :
    CI.glm_ivec3_subsub.run (α := α) [⟨true, icells dest.list⟩] [.p 0 0, .p 0 0, .p 0 0] =
      some (none, [⟨true, icells r.list⟩]) := by
  irun h [I.glm_ivec3_subsub] [CI.glm_ivec3_subsub]
theorem glm_ivec3_subsubs_irun (a : V3 Int32) (s : Int32) (dest : V3 Int32) {r : V3 Int32} (h : I.glm_ivec3_subsubs a s dest = some r) :
    CI.glm_ivec3_subsubs.run (α := α) [⟨false, icells a.list⟩, ⟨true, icells dest.list⟩] [.p 0 0, .i s.toInt, .p 1 0] =
      some (none, [⟨false, icells a.list⟩, ⟨true, icells r.list⟩]) := by
  irun h [I.glm_ivec3_subsubs] [CI.glm_ivec3_subsubs]
theorem glm_ivec3_subsubs_irun_a (dest : V3 Int32) (s : Int32) {r : V3 Int32} (h : I.glm_ivec3_subsubs dest s dest = some r) :
    CI.glm_ivec3_subsubs.run (α := α) [⟨true, icells dest.list⟩] [.p 0 0, .i s.toInt, .p 0 0] =
      some (none, [⟨true, icells r.list⟩]) := by
  irun h [I.glm_ivec3_subsubs] [CI.glm_ivec3_subsubs]
theorem glm_ivec3_addsub_irun (a : V3 Int32) (b : V3 Int32) (dest : V3 Int32) {r : V3 Int32} (h : I.glm_ivec3_addsub a b dest = some r) :
    CI.glm_ivec3_addsub.run (α := α) [⟨false, icells a.list⟩, ⟨false, icells b.list⟩, ⟨true, icells dest.list⟩] [.p 0 0, .p 1 0, .p 2 0] =
      some (none, [⟨false, icells a.list⟩, ⟨false, icells b.list⟩, ⟨true, icells r.list⟩]) := by
  irun h [I.glm_ivec3_addsub] [CI.glm_ivec3_addsub]
theorem glm_ivec3_addsub_irun_b (a : V3 Int32) (dest : V3 Int32) {r : V3 Int32} (h : I.glm_ivec3_addsub a dest dest = some r) :
    CI.glm_ivec3_addsub.run (α := α) [⟨false, icells a.list⟩, ⟨true, icells dest.list⟩] [.p 0 0, .p 1 0, .p 1 0] =
      some (none, [⟨false, icells a.list⟩, ⟨true, icells r.list⟩]) := by
  irun h [I.glm_ivec3_addsub] [CI.glm_ivec3_addsub]
theorem glm_ivec3_addsub_irun_a (dest : V3 Int32) (b : V3 Int32) {r : V3 Int32} (h : I.glm_ivec3_addsub dest b dest = some r) :
    CI.glm_ivec3_addsub.run (α := α) [⟨false, icells b.list⟩, ⟨true, icells dest.list⟩] [.p 1 0, .p 0 0, .p 1 0] =
      some (none, [⟨false, icells b.list⟩, ⟨true, icells r.list⟩]) := by
  irun h [I.glm_ivec3_addsub] [CI.glm_ivec3_addsub]
theorem glm_ivec3_addsub_irun_a_b (dest : V3 Int32) {r : V3 Int32} (h : I.glm_ivec3_addsub dest dest dest = some r) :
    CI.glm_ivec3_addsub.run (α := α) [⟨true, icells dest.list⟩] [.p 0 0, .p 0 0, .p 0 0] =
      some (none, [⟨true, icells r.list⟩]) := by
  irun h [I.glm_ivec3_addsub] [CI.glm_ivec3_addsub]
theorem glm_ivec3_addsubs_irun (a : V3 Int32) (s : Int32) (dest : V3 Int32) {r : V3 Int32} (h : I.glm_ivec3_addsubs a s dest = some r) :
    CI.glm_ivec3_addsubs.run (α := α) [⟨false, icells a.list⟩, ⟨true, icells dest.list⟩] [.p 0 0, .i s.toInt, .p 1 0] =
      some (none, [⟨false, icells a.list⟩, ⟨true, icells r.list⟩]) := by
  irun h [I.glm_ivec3_addsubs] [CI.glm_ivec3_addsubs]
theorem glm_ivec3_addsubs_irun_a (dest : V3 Int32) (s : Int32) {r : V3 Int32} (h : I.glm_ivec3_addsubs dest s dest = some r) :
    CI.glm_ivec3_addsubs.run (α := α) [⟨true, icells dest.list⟩] [.p 0 0, .i s.toInt, .p 0 0] =
      some (none, [⟨true, icells r.list⟩]) := by
  irun h [I.glm_ivec3_addsubs] [CI.glm_ivec3_addsubs]
theorem glm_ivec3_mulsub_irun (a : V3 Int32) (b : V3 Int32) (dest : V3 Int32) {r : V3 Int32} (h : I.glm_ivec3_mulsub a b dest = some r) :
    CI.glm_ivec3_mulsub.run (α := α) [⟨false, icells a.list⟩, ⟨false, icells b.list⟩, ⟨true, icells dest.list⟩] [.p 0 0, .p 1 0, .p 2 0] =
      some (none, [⟨false, icells a.list⟩, ⟨false, icells b.list⟩, ⟨true, icells r.list⟩]) := by
  irun h [I.glm_ivec3_mulsub] [CI.glm_ivec3_mulsub]
theorem glm_ivec3_mulsub_irun_b (a : V3 Int32) (dest : V3 Int32) {r : V3 Int32} (h : I.glm_ivec3_mulsub a dest dest = some r) :
    CI.glm_ivec3_mulsub.run (α := α) [⟨false, icells a.list⟩, ⟨true, icells dest.list⟩] [.p 0 0, .p 1 0, .p 1 0] =
      some (none, [⟨false, icells a.list⟩, ⟨true, icells r.list⟩]) := by
  irun h [I.glm_ivec3_mulsub] [CI.glm_ivec3_mulsub]
theorem glm_ivec3_mulsub_irun_a (dest : V3 Int32) (b : V3 Int32) {r : V3 Int32} (h : I.glm_ivec3_mulsub dest b dest = some r) :
    CI.glm_ivec3_mulsub.run (α := α) [⟨false, icells b.list⟩, ⟨true, icells dest.list⟩] [.p 1 0, .p 0 0, .p 1 0] =
      some (none, [⟨false, icells b.list⟩, ⟨true, icells r.list⟩]) := by
  irun h [I.glm_ivec3_mulsub] [CI.glm_ivec3_mulsub]
theorem glm_ivec3_mulsub_irun_a_b (dest : V3 Int32) {r : V3 Int32} (h : I.glm_ivec3_mulsub dest dest dest = some r) :
    CI.glm_ivec3_mulsub.run (α := α) [⟨true, icells dest.list⟩] [.p 0 0, .p 0 0, .p 0 0] =
      some (none, [⟨true, icells r.list⟩]) := by
  irun h [I.glm_ivec3_mulsub] [CI.glm_ivec3_mulsub]
theorem glm_ivec3_mulsubs_irun (a : V3 Int32) (s : Int32) (dest : V3 Int32) {r : V3 Int32} (h : I.glm_ivec3_mulsubs a s dest = some r) :
    CI.glm_ivec3_mulsubs.run (α := α) [⟨false, icells a.list⟩, ⟨true, icells dest.list⟩] [.p 0 0, .i s.toInt, .p 1 0] =
      some (none, [⟨false, icells a.list⟩, ⟨true, icells r.list⟩]) := by
  irun h [I.glm_ivec3_mulsubs] [CI.glm_ivec3_mulsubs]
theorem glm_ivec3_mulsubs_irun_a (dest : V3 Int32) (s : Int32) {r : V3 Int32} (h : I.glm_ivec3_mulsubs dest s dest = some r) :
    CI.glm_ivec3_mulsubs.run (α := α) [⟨true, icells dest.list⟩] [.p 0 0, .i s.toInt, .p 0 0] =
      some (none, [⟨true, icells r.list⟩]) := by
  irun h [I.glm_ivec3_mulsubs] [CI.glm_ivec3_mulsubs]
theorem glm_ivec3_maxsub_irun (a : V3 Int32) (b : V3 Int32) (dest : V3 Int32) {r : V3 Int32} (h : I.glm_ivec3_maxsub a b dest = some r) :
    CI.glm_ivec3_maxsub.run (α := α) [⟨false, icells a.list⟩, ⟨false, icells b.list⟩, ⟨true, icells dest.list⟩] [.p 0 0, .p 1 0, .p 2 0] =
      some (none, [⟨false, icells a.list⟩, ⟨false, icells b.list⟩, ⟨true, icells r.list⟩]) := by
  irun h [I.glm_ivec3_maxsub, I.glm_imax] [CI.glm_ivec3_maxsub, CI.glm_imax]
theorem glm_ivec3_maxsub_irun_b (a : V3 Int32) (dest : V3 Int32) {r : V3 Int32} (h : I.glm_ivec3_maxsub a dest dest = some r) :
    CI.glm_ivec3_maxsub.run (α := α) [⟨false, icells a.list⟩, ⟨true, icells dest.list⟩] [.p 0 0, .p 1 0, .p 1 0] =
      some (none, [⟨false, icells a.list⟩, ⟨true, icells r.list⟩]) := by
  irun h [I.glm_ivec3_maxsub, I.glm_imax] [CI.glm_ivec3_maxsub, CI.glm_imax]
theorem glm_ivec3_maxsub_irun_a (dest : V3 Int32) (b : V3 Int32) {r : V3 Int32} (h : I.glm_ivec3_maxsub dest b dest = some r) :
    CI.glm_ivec3_maxsub.run (α := α) [⟨false, icells b.list⟩, ⟨true, icells dest.list⟩] [.p 1 0, .p 0 0, .p 1 0] =
      some (none, [⟨false, icells b.list⟩, ⟨true, icells r.list⟩]) := by
  irun h [I.glm_ivec3_maxsub, I.glm_imax] [CI.glm_ivec3_maxsub, CI.glm_imax]
theorem glm_ivec3_maxsub_irun_a_b (dest : V3 Int32) {r : V3 Int32} (h : I.glm_ivec3_maxsub dest dest dest = some r) :
    CI.glm_ivec3_maxsub.run (α := α) [⟨true, icells dest.list⟩] [.p 0 0, .p 0 0, .p 0 0] =
      some (none, [⟨true, icells r.list⟩]) := by
  irun h [I.glm_ivec3_maxsub, I.glm_imax] [CI.glm_ivec3_maxsub, CI.glm_imax]
theorem glm_ivec3_minsub_irun (a : V3 Int32) (b : V3 Int32) (dest : V3 Int32) {r : V3 Int32} (h : I.glm_ivec3_minsub a b dest = some r) :
    CI.glm_ivec3_minsub.run (α := α) [⟨false, icells a.list⟩, ⟨false, icells b.list⟩, ⟨true, icells dest.list⟩] [.p 0 0, .p 1 0, .p 2 0] =
      some (none, [⟨false, icells a.list⟩, ⟨false, icells b.list⟩, ⟨true, icells r.list⟩]) := by
  irun h [I.glm_ivec3_minsub, I.glm_imin] [CI.glm_ivec3_minsub, CI.glm_imin]
theorem glm_ivec3_minsub_irun_b (a : V3 Int32) (dest : V3 Int32) {r : V3 Int32} (h : I.glm_ivec3_minsub a dest dest = some r) :
    CI.glm_ivec3_minsub.run (α := α) [⟨false, icells a.list⟩, ⟨true, icells dest.list⟩] [.p 0 0, .p 1 0, .p 1 0] =
      some (none, [⟨false, icells a.list⟩, ⟨true, icells r.list⟩]) := by
  irun h [I.glm_ivec3_minsub, I.glm_imin] [CI.glm_ivec3_minsub, CI.glm_imin]
theorem glm_ivec3_minsub_irun_a (dest : V3 Int32) (b : V3 Int32) {r : V3 Int32} (h : I.glm_ivec3_minsub dest b dest = some r) :
    CI.glm_ivec3_minsub.run (α := α) [⟨false, icells b.list⟩, ⟨true, icells dest.list⟩] [.p 1 0, .p 0 0, .p 1 0] =
      some (none, [⟨false, icells b.list⟩, ⟨true, icells r.list⟩]) := by
  irun h [I.glm_ivec3_minsub, I.glm_imin] [CI.glm_ivec3_minsub, CI.glm_imin]
theorem glm_ivec3_minsub_irun_a_b (dest : V3 Int32) {r : V3 Int32} (h : I.glm_ivec3_minsub dest dest dest = some r) :
    CI.glm_ivec3_minsub.run (α := α) [⟨true, icells dest.list⟩] [.p 0 0, .p 0 0, .p 0 0] =
      some (none, [⟨true, icells r.list⟩]) := by
  irun h [I.glm_ivec3_minsub, I.glm_imin] [CI.glm_ivec3_minsub, CI.glm_imin]
theorem glm_ivec3_distance2_irun (a : V3 Int32) (b : V3 Int32) {r : Int32} (h : I.glm_ivec3_distance2 a b = some r) :
    CI.glm_ivec3_distance2.run (α := α) [⟨false, icells a.list⟩, ⟨false, icells b.list⟩] [.p 0 0, .p 1 0] =
      some (some (.i r.toInt), [⟨false, icells a.list⟩, ⟨false, icells b.list⟩]) := by
  irun h [I.glm_ivec3_distance2] [CI.glm_ivec3_distance2]
theorem glm_ivec3_distance_irun (a : V3 Int32) (b : V3 Int32) {r : α} (h : I.glm_ivec3_distance (α := α) a b = some r) :
    CI.glm_ivec3_distance.run (α := α) [⟨false, icells a.list⟩, ⟨false, icells b.list⟩] [.p 0 0, .p 1 0] =
      some (some (.f r), [⟨false, icells a.list⟩, ⟨false, icells b.list⟩]) := by
  irun h [I.glm_ivec3_distance, I.glm_ivec3_distance2] [CI.glm_ivec3_distance, CI.glm_ivec3_distance2]
theorem glm_ivec3_fill_irun (val : Int32) {r : V3 Int32} (h : I.glm_ivec3_fill val = some r) :
    CI.glm_ivec3_fill.run (α := α) [⟨true, List.replicate 3 .undef⟩] [.p 0 0, .i val.toInt] =
      some (none, [⟨true, icells r.list⟩]) := by
  irun h [I.glm_ivec3_fill] [CI.glm_ivec3_fill]
theorem glm_ivec3_eq_irun (v : V3 Int32) (val : Int32) {r : Bool} (h : I.glm_ivec3_eq v val = some r) :
    CI.glm_ivec3_eq.run (α := α) [⟨false, icells v.list⟩] [.p 0 0, .i val.toInt] =
      some (some (.b r), [⟨false, icells v.list⟩]) := by
  rcases c0 : I32.eq v.x val with _ | _ <;>
  rcases c1 : I32.eq v.x v.y with _ | _ <;>
  rcases c2 : I32.eq v.x v.z with _ | _ <;>
  irun h [I.glm_ivec3_eq] [CI.glm_ivec3_eq]
theorem glm_ivec3_eqv_irun (a : V3 Int32) (b : V3 Int32) {r : Bool} (h : I.glm_ivec3_eqv a b = some r) :
    CI.glm_ivec3_eqv.run (α := α) [⟨false, icells a.list⟩, ⟨false, icells b.list⟩] [.p 0 0, .p 1 0] =
      some (some (.b r), [⟨false, icells a.list⟩, ⟨false, icells b.list⟩]) := by
  rcases c0 : I32.eq a.x b.x with _ | _ <;>
  rcases c1 : I32.eq a.y b.y with _ | _ <;>
  rcases c2 : I32.eq a.z b.z with _ | _ <;>
  irun h [I.glm_ivec3_eqv] [CI.glm_ivec3_eqv]
theorem glm_ivec3_maxv_irun (a : V3 Int32) (b : V3 Int32) {r : V3 Int32} (h : I.glm_ivec3_maxv a b = some r) :
    CI.glm_ivec3_maxv.run (α := α) [⟨false, icells a.list⟩, ⟨false, icells b.list⟩, ⟨true, List.replicate 3 .undef⟩] [.p 0 0, .p 1 0, .p 2 0] =
      some (none, [⟨false, icells a.list⟩, ⟨false, icells b.list⟩, ⟨true, icells r.list⟩]) := by
  rcases c0 : I32.gt a.x b.x with _ | _ <;>
  rcases c1 : I32.gt a.y b.y with _ | _ <;>
  rcases c2 : I32.gt a.z b.z with _ | _ <;>
  irun h [I.glm_ivec3_maxv] [CI.glm_ivec3_maxv]
theorem glm_ivec3_maxv_irun_b (a : V3 Int32) (b : V3 Int32) {r : V3 Int32} (h : I.glm_ivec3_maxv a b = some r) :
    CI.glm_ivec3_maxv.run (α := α) [⟨false, icells a.list⟩, ⟨true, icells b.list⟩] [.p 0 0, .p 1 0, .p 1 0] =
      some (none, [⟨false, icells a.list⟩, ⟨true, icells r.list⟩]) := by
  rcases c0 : I32.gt a.x b.x with _ | _ <;>
  rcases c1 : I32.gt a.y b.y with _ | _ <;>
  rcases c2 : I32.gt a.z b.z with _ | _ <;>
  irun h [I.glm_ivec3_maxv] [CI.glm_ivec3_maxv]
theorem glm_ivec3_maxv_irun_a (a : V3 Int32) (b : V3 Int32) {r : V3 Int32} (h : I.glm_ivec3_maxv a b = some r) :
    CI.glm_ivec3_maxv.run (α := α) [⟨false, icells b.list⟩, ⟨true, icells a.list⟩] [.p 1 0, .p 0 0, .p 1 0] =
      some (none, [⟨false, icells b.list⟩, ⟨true, icells r.list⟩]) := by
  rcases c0 : I32.gt a.x b.x with _ | _ <;>
  rcases c1 : I32.gt a.y b.y with _ | _ <;>
  rcases c2 : I32.gt a.z b.z with _ | _ <;>
  irun h [I.glm_ivec3_maxv] [CI.glm_ivec3_maxv]
theorem glm_ivec3_maxv_irun_a_b (a : V3 Int32) {r : V3 Int32} (h : I.glm_ivec3_maxv a a = some r) :
    CI.glm_ivec3_maxv.run (α := α) [⟨true, icells a.list⟩] [.p 0 0, .p 0 0, .p 0 0] =
      some (none, [⟨true, icells r.list⟩]) := by
  rcases c0 : I32.gt a.x a.x with _ | _ <;>
  rcases c1 : I32.gt a.y a.y with _ | _ <;>
  rcases c2 : I32.gt a.z a.z with _ | _ <;>
  irun h [I.glm_ivec3_maxv] [CI.glm_ivec3_maxv]
theorem glm_ivec3_minv_irun (a : V3 Int32) (b : V3 Int32) {r : V3 Int32} (h : I.glm_ivec3_minv a b = some r) :
    CI.glm_ivec3_minv.run (α := α) [⟨false, icells a.list⟩, ⟨false, icells b.list⟩, ⟨true, List.replicate 3 .undef⟩] [.p 0 0, .p 1 0, .p 2 0] =
      some (none, [⟨false, icells a.list⟩, ⟨false, icells b.list⟩, ⟨true, icells r.list⟩]) := by
  rcases c0 : I32.lt a.x b.x with _ | _ <;>
  rcases c1 : I32.lt a.y b.y with _ | _ <;>
  rcases c2 : I32.lt a.z b.z with _ | _ <;>
  irun h [I.glm_ivec3_minv] [CI.glm_ivec3_minv]
theorem glm_ivec3_minv_irun_b (a : V3 Int32) (b : V3 Int32) {r : V3 Int32} (h : I.glm_ivec3_minv a b = some r) :
    CI.glm_ivec3_minv.run (α := α) [⟨false, icells a.list⟩, ⟨true, icells b.list⟩] [.p 0 0, .p 1 0, .p 1 0] =
      some (none, [⟨false, icells a.list⟩, ⟨true, icells r.list⟩]) := by
  rcases c0 : I32.lt a.x b.x with _ | _ <;>
  rcases c1 : I32.lt a.y b.y with _ | _ <;>
  rcases c2 : I32.lt a.z b.z with _ | _ <;>
  irun h [I.glm_ivec3_minv] [CI.glm_ivec3_minv]
theorem glm_ivec3_minv_irun_a (a : V3 Int32) (b : V3 Int32) {r : V3 Int32} (h : I.glm_ivec3_minv a b = some r) :
    CI.glm_ivec3_minv.run (α := α) [⟨false, icells b.list⟩, ⟨true, icells a.list⟩] [.p 1 0, .p 0 0, .p 1 0] =
      some (none, [⟨false, icells b.list⟩, ⟨true, icells r.list⟩]) := by
  rcases c0 : I32.lt a.x b.x with _ | _ <;>
  rcases c1 : I32.lt a.y b.y with _ | _ <;>
  rcases c2 : I32.lt a.z b.z with _ | _ <;>
  irun h [I.glm_ivec3_minv] [CI.glm_ivec3_minv]
theorem glm_ivec3_minv_irun_a_b (a : V3 Int32) {r : V3 Int32} (h : I.glm_ivec3_minv a a = some r) :
    CI.glm_ivec3_minv.run (α := α) [⟨true, icells a.list⟩] [.p 0 0, .p 0 0, .p 0 0] =
      some (none, [⟨true, icells r.list⟩]) := by
  rcases c0 : I32.lt a.x a.x with _ | _ <;>
  rcases c1 : I32.lt a.y a.y with _ | _ <;>
  rcases c2 : I32.lt a.z a.z with _ | _ <;>
  irun h [I.glm_ivec3_minv] [CI.glm_ivec3_minv]
theorem glm_ivec3_clamp_irun (v : V3 Int32) (minVal : Int32) (maxVal : Int32) {r : V3 Int32} (h : I.glm_ivec3_clamp v minVal maxVal = some r) :
    CI.glm_ivec3_clamp.run (α := α) [⟨true, icells v.list⟩] [.p 0 0, .i minVal.toInt, .i maxVal.toInt] =
      some (none, [⟨true, icells r.list⟩]) := by
  have e : I.glm_ivec3_clamp v minVal maxVal = some ⟨clampI minVal maxVal v.x, clampI minVal maxVal v.y, clampI minVal maxVal v.z⟩ := by
    unfold I.glm_ivec3_clamp clampI
    rcases I32.lt v.x minVal with _ | _ <;> rcases I32.gt v.x maxVal with _ | _ <;>
    rcases I32.lt v.y minVal with _ | _ <;> rcases I32.gt v.y maxVal with _ | _ <;>
    rcases I32.lt v.z minVal with _ | _ <;> rcases I32.gt v.z maxVal with _ | _ <;>
    rfl
  rw [e, Option.some.injEq] at h
  subst h
  have b : CI.glm_ivec3_clamp.body = .seq (clampS (.reg 0)) (.seq (clampS (.off (.reg 0) 1)) (clampS (.off (.reg 0) 2))) := rfl
  have l : CI.glm_ivec3_clamp.locals = [] ∧ CI.glm_ivec3_clamp.nregs = 0 := ⟨rfl, rfl⟩
  simp only [IFn.run, b, l.1, l.2, List.replicate, fresh, List.map_nil, List.append_nil, V3.list]
  rw [iexec_seq (clampS_exec (k := 0) rfl rfl)]
  rw [iexec_seq (clampS_exec (k := 1) rfl rfl)]
  rw [clampS_exec (k := 2) rfl rfl]
  rfl
theorem glm_ivec3_abs_irun (v : V3 Int32) {r : V3 Int32} (h : I.glm_ivec3_abs v = some r) :
    CI.glm_ivec3_abs.run (α := α) [⟨false, icells v.list⟩, ⟨true, List.replicate 3 .undef⟩] [.p 0 0, .p 1 0] =
      some (none, [⟨false, icells v.list⟩, ⟨true, icells r.list⟩]) := by
  irun h [I.glm_ivec3_abs] [CI.glm_ivec3_abs]
theorem glm_ivec3_abs_irun_v (v : V3 Int32) {r : V3 Int32} (h : I.glm_ivec3_abs v = some r) :
    CI.glm_ivec3_abs.run (α := α) [⟨true, icells v.list⟩] [.p 0 0, .p 0 0] =
      some (none, [⟨true, icells r.list⟩]) := by
  irun h [I.glm_ivec3_abs] [CI.glm_ivec3_abs]

end Cglm

end IIvec3Run

section IIvec4Run

/-! Runs of the functions of include/cglm/ivec4.h on canonical memories. -/

set_option maxRecDepth 10000
set_option linter.unusedVariables false
set_option linter.unusedSectionVars false
set_option linter.unusedSimpArgs false

namespace Cglm
open CMem

variable {α : Type} [Add α] [Sub α] [Mul α] [Div α] [Neg α] [CFloat α] [CIntConv α]

theorem glm_ivec4_irun (v3 : V3 Int32) (last : Int32) {r : V4 Int32} (h : I.glm_ivec4 v3 last = some r) :
    CI.glm_ivec4.run (α := α) [⟨false, icells v3.list⟩, ⟨true, List.replicate 4 .undef⟩] [.p 0 0, .i last.toInt, .p 1 0] =
      some (none, [⟨false, icells v3.list⟩, ⟨true, icells r.list⟩]) := by
  irun h [I.glm_ivec4] [CI.glm_ivec4]
theorem glm_ivec4_copy_irun (a : V4 Int32) {r : V4 Int32} (h : I.glm_ivec4_copy a = some r) :
    CI.glm_ivec4_copy.run (α := α) [⟨false, icells a.list⟩, ⟨true, List.replicate 4 .undef⟩] [.p 0 0, .p 1 0] =
      some (none, [⟨false, icells a.list⟩, ⟨true, icells r.list⟩]) := by
  irun h [I.glm_ivec4_copy] [CI.glm_ivec4_copy]
theorem glm_ivec4_copy_irun_a (a : V4 Int32) {r : V4 Int32} (h : I.glm_ivec4_copy a = some r) :
    CI.glm_ivec4_copy.run (α := α) [⟨true, icells a.list⟩] [.p 0 0, .p 0 0] =
      some (none, [⟨true, icells r.list⟩]) := by
  irun h [I.glm_ivec4_copy] [CI.glm_ivec4_copy]
theorem glm_ivec4_zero_irun {r : V4 Int32} (h : I.glm_ivec4_zero = some r) :
    CI.glm_ivec4_zero.run (α := α) [⟨true, List.replicate 4 .undef⟩] [.p 0 0] =
      some (none, [⟨true, icells r.list⟩]) := by
  irun h [I.glm_ivec4_zero] [CI.glm_ivec4_zero]
theorem glm_ivec4_one_irun {r : V4 Int32} (h : I.glm_ivec4_one = some r) :
    CI.glm_ivec4_one.run (α := α) [⟨true, List.replicate 4 .undef⟩] [.p 0 0] =
      some (none, [⟨true, icells r.list⟩]) := by
  irun h [I.glm_ivec4_one] [CI.glm_ivec4_one]
theorem glm_ivec4_add_irun (a : V4 Int32) (b : V4 Int32) {r : V4 Int32} (h : I.glm_ivec4_add a b = some r) :
    CI.glm_ivec4_add.run (α := α) [⟨false, icells a.list⟩, ⟨false, icells b.list⟩, ⟨true, List.replicate 4 .undef⟩] [.p 0 0, .p 1 0, .p 2 0] =
      some (none, [⟨false, icells a.list⟩, ⟨false, icells b.list⟩, ⟨true, icells r.list⟩]) := by
  irun h [I.glm_ivec4_add] [CI.glm_ivec4_add]
theorem glm_ivec4_add_irun_b (a : V4 Int32) (b : V4 Int32) {r : V4 Int32} (h : I.glm_ivec4_add a b = some r) :
    CI.glm_ivec4_add.run (α := α) [⟨false, icells a.list⟩, ⟨true, icells b.list⟩] [.p 0 0, .p 1 0, .p 1 0] =
      some (none, [⟨false, icells a.list⟩, ⟨true, icells r.list⟩]) := by
  irun h [I.glm_ivec4_add] [CI.glm_ivec4_add]
theorem glm_ivec4_add_irun_a (a : V4 Int32) (b : V4 Int32) {r : V4 Int32} (h : I.glm_ivec4_add a b = some r) :
    CI.glm_ivec4_add.run (α := α) [⟨false, icells b.list⟩, ⟨true, icells a.list⟩] [.p 1 0, .p 0 0, .p 1 0] =
      some (none, [⟨false, icells b.list⟩, ⟨true, icells r.list⟩]) := by
  irun h [I.glm_ivec4_add] [CI.glm_ivec4_add]
theorem glm_ivec4_add_irun_a_b (a : V4 Int32) {r : V4 Int32} (h : I.glm_ivec4_add a a = some r) :
    CI.glm_ivec4_add.run (α := α) [⟨true, icells a.list⟩] [.p 0 0, .p 0 0, .p 0 0] =
      some (none, [⟨true, icells r.list⟩]) := by
  irun h [I.glm_ivec4_add] [CI.glm_ivec4_add]
theorem glm_ivec4_adds_irun (v : V4 Int32) (s : Int32) {r : V4 Int32} (h : I.glm_ivec4_adds v s = some r) :
    CI.glm_ivec4_adds.run (α := α) [⟨false, icells v.list⟩, ⟨true, List.replicate 4 .undef⟩] [.p 0 0, .i s.toInt, .p 1 0] =
      some (none, [⟨false, icells v.list⟩, ⟨true, icells r.list⟩]) := by
  irun h [I.glm_ivec4_adds] [CI.glm_ivec4_adds]
theorem glm_ivec4_adds_irun_v (v : V4 Int32) (s : Int32) {r : V4 Int32} (h : I.glm_ivec4_adds v s = some r) :
    CI.glm_ivec4_adds.run (α := α) [⟨true, icells v.list⟩] [.p 0 0, .i s.toInt, .p 0 0] =
      some (none, [⟨true, icells r.list⟩]) := by
  irun h [I.glm_ivec4_adds] [CI.glm_ivec4_adds]
theorem glm_ivec4_sub_irun (a : V4 Int32) (b : V4 Int32) {r : V4 Int32} (h : I.glm_ivec4_sub a b = some r) :
    CI.glm_ivec4_sub.run (α := α) [⟨false, icells a.list⟩, ⟨false, icells b.list⟩, ⟨true, List.replicate 4 .undef⟩] [.p 0 0, .p 1 0, .p 2 0] =
      some (none, [⟨false, icells a.list⟩, ⟨false, icells b.list⟩, ⟨true, icells r.list⟩]) := by
  irun h [I.glm_ivec4_sub] [CI.glm_ivec4_sub]
theorem glm_ivec4_sub_irun_b (a : V4 Int32) (b : V4 Int32) {r : V4 Int32} (h : I.glm_ivec4_sub a b = some r) :
    CI.glm_ivec4_sub.run (α := α) [⟨false, icells a.list⟩, ⟨true, icells b.list⟩] [.p 0 0, .p 1 0, .p 1 0] =
      some (none, [⟨false, icells a.list⟩, ⟨true, icells r.list⟩]) := by
  irun h [I.glm_ivec4_sub] [CI.glm_ivec4_sub]
theorem glm_ivec4_sub_irun_a (a : V4 Int32) (b : V4 Int32) {r : V4 Int32} (h : I.glm_ivec4_sub a b = some r) :
    CI.glm_ivec4_sub.run (α := α) [⟨false, icells b.list⟩, ⟨true, icells a.list⟩] [.p 1 0, .p 0 0, .p 1 0] =
      some (none, [⟨false, icells b.list⟩, ⟨true, icells r.list⟩]) := by
  irun h [I.glm_ivec4_sub] [CI.glm_ivec4_sub]
theorem glm_ivec4_sub_irun_a_b (a : V4 Int32) {r : V4 Int32} (h : I.glm_ivec4_sub a a = some r) :
    CI.glm_ivec4_sub.run (α := α) [⟨true, icells a.list⟩] [.p 0 0, .p 0 0, .p 0 0] =
      some (none, [⟨true, icells r.list⟩]) := by
  irun h [I.glm_ivec4_sub] [CI.glm_ivec4_sub]
theorem glm_ivec4_subs_irun (v : V4 Int32) (s : Int32) {r : V4 Int32} (h : I.glm_ivec4_subs v s = some r) :
    CI.glm_ivec4_subs.run (α := α) [⟨false, icells v.list⟩, ⟨true, List.replicate 4 .undef⟩] [.p 0 0, .i s.toInt, .p 1 0] =
      some (none, [⟨false, icells v.list⟩, ⟨true, icells r.list⟩]) := by
  irun h [I.glm_ivec4_subs] [CI.glm_ivec4_subs]
theorem glm_ivec4_subs_irun_v (v : V4 Int32) (s : Int32) {r : V4 Int32} (h : I.glm_ivec4_subs v s = some r) :
    CI.glm_ivec4_subs.run (α := α) [⟨true, icells v.list⟩] [.p 0 0, .i s.toInt, .p 0 0] =
      some (none, [⟨true, icells r.list⟩]) := by
  irun h [I.glm_ivec4_subs] [CI.glm_ivec4_subs]
theorem glm_ivec4_mul_irun (a : V4 Int32) (b : V4 Int32) {r : V4 Int32} (h : I.glm_ivec4_mul a b = some r) :
    CI.glm_ivec4_mul.run (α := α) [⟨false, icells a.list⟩, ⟨false, icells b.list⟩, ⟨true, List.replicate 4 .undef⟩] [.p 0 0, .p 1 0, .p 2 0] =
      some (none, [⟨false, icells a.list⟩, ⟨false, icells b.list⟩, ⟨true, icells r.list⟩]) := by
  irun h [I.glm_ivec4_mul] [CI.glm_ivec4_mul]
theorem glm_ivec4_mul_irun_b (a : V4 Int32) (b : V4 Int32) {r : V4 Int32} (h : I.glm_ivec4_mul a b = some r) :
    CI.glm_ivec4_mul.run (α := α) [⟨false, icells a.list⟩, ⟨true, icells b.list⟩] [.p 0 0, .p 1 0, .p 1 0] =
      some (none, [⟨false, icells a.list⟩, ⟨true, icells r.list⟩]) := by
  irun h [I.glm_ivec4_mul] [CI.glm_ivec4_mul]
theorem glm_ivec4_mul_irun_a (a : V4 Int32) (b : V4 Int32) {r : V4 Int32} (h : I.glm_ivec4_mul a b = some r) :
    CI.glm_ivec4_mul.run (α := α) [⟨false, icells b.list⟩, ⟨true, icells a.list⟩] [.p 1 0, .p 0 0, .p 1 0] =
      some (none, [⟨false, icells b.list⟩, ⟨true, icells r.list⟩]) := by
  irun h [I.glm_ivec4_mul] [CI.glm_ivec4_mul]
theorem glm_ivec4_mul_irun_a_b (a : V4 Int32) {r : V4 Int32} (h : I.glm_ivec4_mul a a = some r) :
    CI.glm_ivec4_mul.run (α := α) [⟨true, icells a.list⟩] [.p 0 0, .p 0 0, .p 0 0] =
      some (none, [⟨true, icells r.list⟩]) := by
  irun h [I.glm_ivec4_mul] [CI.glm_ivec4_mul]
theorem glm_ivec4_scale_irun (v : V4 Int32) (s : Int32) {r : V4 Int32} (h : I.glm_ivec4_scale v s = some r) :
    CI.glm_ivec4_scale.run (α := α) [⟨false, icells v.list⟩, ⟨true, List.replicate 4 .undef⟩] [.p 0 0, .i s.toInt, .p 1 0] =
      some (none, [⟨false, icells v.list⟩, ⟨true, icells r.list⟩]) := by
  irun h [I.glm_ivec4_scale] [CI.glm_ivec4_scale]
theorem glm_ivec4_scale_irun_v (v : V4 Int32) (s : Int32) {r : V4 Int32} (h : I.glm_ivec4_scale v s = some r) :
    CI.glm_ivec4_scale.run (α := α) [⟨true, icells v.list⟩] [.p 0 0, .i s.toInt, .p 0 0] =
      some (none, [⟨true, icells r.list⟩]) := by
  irun h [I.glm_ivec4_scale] [CI.glm_ivec4_scale]
theorem glm_ivec4_addadd_irun (a : V4 Int32) (b : V4 Int32) (dest : V4 Int32) {r : V4 Int32} (h : I.glm_ivec4_addadd a b dest = some r) :
    CI.glm_ivec4_addadd.run (α := α) [⟨false, icells a.list⟩, ⟨false, icells b.list⟩, ⟨true, icells dest.list⟩] [.p 0 0, .p 1 0, .p 2 0] =
      some (none, [⟨false, icells a.list⟩, ⟨false, icells b.list⟩, ⟨true, icells r.list⟩]) := by
  irun h [I.glm_ivec4_addadd] [CI.glm_ivec4_addadd]
theorem glm_ivec4_addadd_irun_b (a : V4 Int32) (dest : V4 Int32) {r : V4 Int32} (h : I.glm_ivec4_addadd a dest dest = some r) :
    CI.glm_ivec4_addadd.run (α := α) [⟨false, icells a.list⟩, ⟨true, icells dest.list⟩] [.p 0 0, .p 1 0, .p 1 0] =
      some (none, [⟨false, icells a.list⟩, ⟨true, icells r.list⟩]) := by
  irun h [I.glm_ivec4_addadd] [CI.glm_ivec4_addadd]
theorem glm_ivec4_addadd_irun_a (dest : V4 Int32) (b : V4 Int32) {r : V4 Int32} (h : I.glm_ivec4_addadd dest b dest = some r) :
    CI.glm_ivec4_addadd.run (α := α) [⟨false, icells b.list⟩, ⟨true, icells dest.list⟩] [.p 1 0, .p 0 0, .p 1 0] =
      some (none, [⟨false, icells b.list⟩, ⟨true, icells r.list⟩]) := by
  irun h [I.glm_ivec4_addadd] [CI.glm_ivec4_addadd]
theorem glm_ivec4_addadd_irun_a_b (dest : V4 Int32) {r : V4 Int32} (h : I.glm_ivec4_addadd dest dest dest = some r) :
    CI.glm_ivec4_addadd.run (α := α) [⟨true, icells dest.list⟩] [.p 0 0, .p 0 0, .p 0 0] =
      some (none, [⟨true, icells r.list⟩]) := by
  irun h [I.glm_ivec4_addadd] [CI.glm_ivec4_addadd]
theorem glm_ivec4_addadds_irun (a : V4 Int32) (s : Int32) (dest : V4 Int32) {r : V4 Int32} (h : I.glm_ivec4_addadds a s dest = some r) :
    CI.glm_ivec4_addadds.run (α := α) [⟨false, icells a.list⟩, ⟨true, icells dest.list⟩] [.p 0 0, .i s.toInt, .p 1 0] =
      some (none, [⟨false, icells a.list⟩, ⟨true, icells r.list⟩]) := by
  irun h [I.glm_ivec4_addadds] [CI.glm_ivec4_addadds]
theorem glm_ivec4_addadds_irun_a (dest : V4 Int32) (s : Int32) {r : V4 Int32} (h : I.glm_ivec4_addadds dest s dest = some r) :
    CI.glm_ivec4_addadds.run (α := α) [⟨true, icells dest.list⟩] [.p 0 0, .i s.toInt, .p 0 0] =
      some (none, [⟨true, icells r.list⟩]) := by
  irun h [I.glm_ivec4_addadds] [CI.glm_ivec4_addadds]
theorem glm_ivec4_subadd_irun (a : V4 Int32) (b : V4 Int32) (dest : V4 Int32) {r : V4 Int32} (h : I.glm_ivec4_subadd a b dest = some r) :
    CI.glm_ivec4_subadd.run (α := α) [⟨false, icells a.list⟩, ⟨false, icells b.list⟩, ⟨true, icells dest.list⟩] [.p 0 0, .p 1 0, .p 2 0] =
      some (none, [⟨false, icells a.list⟩, ⟨false, icells b.list⟩, ⟨true, icells r.list⟩]) := by
  irun h [I.glm_ivec4_subadd] [CI.glm_ivec4_subadd]
theorem glm_ivec4_subadd_irun_b (a : V4 Int32) (dest : V4 Int32) {r : V4 Int32} (h : I.glm_ivec4_subadd a dest dest = some r) :
    CI.glm_ivec4_subadd.run (α := α) [⟨false, icells a.list⟩, ⟨true, icells dest.list⟩] [.p 0 0, .p 1 0, .p 1 0] =
      some (none, [⟨false, icells a.list⟩, ⟨true, icells r.list⟩]) := by
  irun h [I.glm_ivec4_subadd] [CI.glm_ivec4_subadd]
theorem glm_ivec4_subadd_irun_a (dest : V4 Int32) (b : V4 Int32) {r : V4 Int32} (h : I.glm_ivec4_subadd dest b dest = some r) :
    CI.glm_ivec4_subadd.run (α := α) [⟨false, icells b.list⟩, ⟨true, icells dest.list⟩] [.p 1 0, .p 0 0, .p 1 0] =
      some (none, [⟨false, icells b.list⟩, ⟨true, icells r.list⟩]) := by
  irun h [I.glm_ivec4_subadd] [CI.glm_ivec4_subadd]
theorem glm_ivec4_subadd_irun_a_b (dest : V4 Int32) {r : V4 Int32} (h : I.glm_ivec4_subadd dest dest dest = some r) :
    CI.glm_ivec4_subadd.run (α := α) [⟨true, icells dest.list⟩] [.p 0 0, .p 0 0, .p 0 0] =
      some (none, [⟨true, icells r.list⟩]) := by
  irun h [I.glm_ivec4_subadd] [CI.glm_ivec4_subadd]
theorem glm_ivec4_subadds_irun (a : V4 Int32) (s : Int32) (dest : V4 Int32) {r : V4 Int32} (h : I.glm_ivec4_subadds a s dest = some r) :
    CI.glm_ivec4_subadds.run (α := α) [⟨false, icells a.list⟩, ⟨true, icells dest.list⟩] [.p 0 0, .i s.toInt, .p 1 0] =
      some (none, [⟨false, icells a.list⟩, ⟨true, icells r.list⟩]) := by
  irun h [I.glm_ivec4_subadds] [CI.glm_ivec4_subadds]
theorem glm_ivec4_subadds_irun_a (dest : V4 Int32) (s : Int32) {r : V4 Int32} (h : I.glm_ivec4_subadds dest s dest = some r) :
    CI.glm_ivec4_subadds.run (α := α) [⟨true, icells dest.list⟩] [.p 0 0, .i s.toInt, .p 0 0] =
      some (none, [⟨true, icells r.list⟩]) := by
  irun h [I.glm_ivec4_subadds] [CI.glm_ivec4_subadds]
theorem glm_ivec4_muladd_irun (a : V4 Int32) (b : V4 Int32) (dest : V4 Int32) {r : V4 Int32} (h : I.glm_ivec4_muladd a b dest = some r) :
    CI.glm_ivec4_muladd.run (α := α) [⟨false, icells a.list⟩, ⟨false, icells b.list⟩, ⟨true, icells dest.list⟩] [.p 0 0, .p 1 0, .p 2 0] =
      some (none, [⟨false, icells a.list⟩, ⟨false, icells b.list⟩, ⟨true, icells r.list⟩]) := by
  irun h [I.glm_ivec4_muladd] [CI.glm_ivec4_muladd]
theorem glm_ivec4_muladd_irun_b (a : V4 Int32) (dest : V4 Int32) {r : V4 Int32} (h : I.glm_ivec4_muladd a dest dest = some r) :
    CI.glm_ivec4_muladd.run (α := α) [⟨false, icells a.list⟩, ⟨true, icells dest.list⟩] [.p 0 0, .p 1 0, .p 1 0] =
      some (none, [⟨false, icells a.list⟩, ⟨true, icells r.list⟩]) := by
  irun h [I.glm_ivec4_muladd] [CI.glm_ivec4_muladd]
theorem glm_ivec4_muladd_irun_a (dest : V4 Int32) (b : V4 Int32) {r : V4 Int32} (h : I.glm_ivec4_muladd dest b dest = some r) :
    CI.glm_ivec4_muladd.run (α := α) [⟨false, icells b.list⟩, ⟨true, icells dest.list⟩] [.p 1 0, .p 0 0, .p 1 0] =
      some (none, [⟨false, icells b.list⟩, ⟨true, icells r.list⟩]) := by
  irun h [I.glm_ivec4_muladd] [CI.glm_ivec4_muladd]
theorem glm_ivec4_muladd_irun_a_b (dest : V4 Int32) {r : V4 Int32} (h : I.glm_ivec4_muladd dest dest dest = some r) :
    CI.glm_ivec4_muladd.run (α := α) [⟨true, icells dest.list⟩] [.p 0 0, .p 0 0, .p 0 0] =
      some (none, [⟨true, icells r.list⟩]) := by
  irun h [I.glm_ivec4_muladd] [CI.glm_ivec4_muladd]
theorem glm_ivec4_muladds_irun (a : V4 Int32) (s : Int32) (dest : V4 Int32) {r : V4 Int32} (h : I.glm_ivec4_muladds a s dest = some r) :
    CI.glm_ivec4_muladds.run (α := α) [⟨false, icells a.list⟩, ⟨true, icells dest.list⟩] [.p 0 0, .i s.toInt, .p 1 0] =
      some (none, [⟨false, icells a.list⟩, ⟨true, icells r.list⟩]) := by
  irun h [I.glm_ivec4_muladds] [CI.glm_ivec4_muladds]
theorem glm_ivec4_muladds_irun_a (dest : V4 Int32) (s : Int32) {r : V4 Int32} (h : I.glm_ivec4_muladds dest s dest = some r) :
    CI.glm_ivec4_muladds.run (α := α) [⟨true, icells dest.list⟩] [.p 0 0, .i s.toInt, .p 0 0] =
      some (none, [⟨true, icells r.list⟩]) := by
  irun h [I.glm_ivec4_muladds] [CI.glm_ivec4_muladds]
theorem glm_ivec4_maxadd_irun (a : V4 Int32) (b : V4 Int32) (dest : V4 Int32) {r : V4 Int32} (h : I.glm_ivec4_maxadd a b dest = some r) :
    CI.glm_ivec4_maxadd.run (α := α) [⟨false, icells a.list⟩, ⟨false, icells b.list⟩, ⟨true, icells dest.list⟩] [.p 0 0, .p 1 0, .p 2 0] =
      some (none, [⟨false, icells a.list⟩, ⟨false, icells b.list⟩, ⟨true, icells r.list⟩]) := by
  irun h [I.glm_ivec4_maxadd, I.glm_imax] [CI.glm_ivec4_maxadd, CI.glm_imax]
theorem glm_ivec4_maxadd_irun_b (a : V4 Int32) (dest : V4 Int32) {r : V4 Int32} (h : I.glm_ivec4_maxadd a dest dest = some r) :
    CI.glm_ivec4_maxadd.run (α := α) [⟨false, icells a.list⟩, ⟨true, icells dest.list⟩] [.p 0 0, .p 1 0, .p 1 0] =
      some (none, [⟨false, icells a.list⟩, ⟨true, icells r.list⟩]) := by
  irun h [I.glm_ivec4_maxadd, I.glm_imax] [CI.glm_ivec4_maxadd, CI.glm_imax]
theorem glm_ivec4_maxadd_irun_a (dest : V4 Int32) (b : V4 Int32) {r : V4 Int32} (h : I.glm_ivec4_maxadd dest b dest = some r) :
    CI.glm_ivec4_maxadd.run (α := α) [⟨false, icells b.list⟩, ⟨true, icells dest.list⟩] [.p 1 0, .p 0 0, .p 1 0] =
      some (none, [⟨false, icells b.list⟩, ⟨true, icells r.list⟩]) := by
  irun h [I.glm_ivec4_maxadd, I.glm_imax] [CI.glm_ivec4_maxadd, CI.glm_imax]
theorem glm_ivec4_maxadd_irun_a_b (dest : V4 Int32) {r : V4 Int32} (h : I.glm_ivec4_maxadd dest dest dest = some r) :
    CI.glm_ivec4_maxadd.run (α := α) [⟨true, icells dest.list⟩] [.p 0 0, .p 0 0, .p 0 0] =
      some (none, [⟨true, icells r.list⟩]) := by
  irun h [I.glm_ivec4_maxadd, I.glm_imax] [CI.glm_ivec4_maxadd, CI.glm_imax]
theorem glm_ivec4_minadd_irun (a : V4 Int32) (b : V4 Int32) (dest : V4 Int32) {r : V4 Int32} (h : I.glm_ivec4_minadd a b dest = some r) :
    CI.glm_ivec4_minadd.run (α := α) [⟨false, icells a.list⟩, ⟨false, icells b.list⟩, ⟨true, icells dest.list⟩] [.p 0 0, .p 1 0, .p 2 0] =
      some (none, [⟨false, icells a.list⟩, ⟨false, icells b.list⟩, ⟨true, icells r.list⟩]) := by
  irun h [I.glm_ivec4_minadd, I.glm_imin] [CI.glm_ivec4_minadd, CI.glm_imin]
theorem glm_ivec4_minadd_irun_b (a : V4 Int32) (dest : V4 Int32) {r : V4 Int32} (h : I.glm_ivec4_minadd a dest dest = some r) :
    CI.glm_ivec4_minadd.run (α := α) [⟨false, icells a.list⟩, ⟨true, icells dest.list⟩] [.p 0 0, .p 1 0, .p 1 0] =
      some (none, [⟨false, icells a.list⟩, ⟨true, icells r.list⟩]) := by
  irun h [I.glm_ivec4_minadd, I.glm_imin] [CI.glm_ivec4_minadd, CI.glm_imin]
theorem glm_ivec4_minadd_irun_a (dest : V4 Int32) (b : V4 Int32) {r : V4 Int32} (h : I.glm_ivec4_minadd dest b dest = some r) :
    CI.glm_ivec4_minadd.run (α := α) [⟨false, icells b.list⟩, ⟨true, icells dest.list⟩] [.p 1 0, .p 0 0, .p 1 0] =
      some (none, [⟨false, icells b.list⟩, ⟨true, icells r.list⟩]) := by
  irun h [I.glm_ivec4_minadd, I.glm_imin] [CI.glm_ivec4_minadd, CI.glm_imin]
theorem glm_ivec4_minadd_irun_a_b (dest : V4 Int32) {r : V4 Int32} (h : I.glm_ivec4_minadd dest dest dest = some r) :
    CI.glm_ivec4_minadd.run (α := α) [⟨true, icells dest.list⟩] [.p 0 0, .p 0 0, .p 0 0] =
      some (none, [⟨true, icells r.list⟩]) := by
  irun h [I.glm_ivec4_minadd, I.glm_imin] [CI.glm_ivec4_minadd, CI.glm_imin]
theorem glm_ivec4_subsub_irun (a : V4 Int32) (b : V4 Int32) (dest : V4 Int32) {r : V4 Int32} (h : I.glm_ivec4_subsub a b dest = some r) :
    CI.glm_ivec4_subsub.run (α := α) [⟨false, icells a.list⟩, ⟨false, icells b.list⟩, ⟨true, icells dest.list⟩] [.p 0 0, .p 1 0, .p 2 0] =
      some (none, [⟨false, icells a.list⟩, ⟨false, icells b.list⟩, ⟨true, icells r.list⟩]) := by
  irun h [I.glm_ivec4_subsub] [CI.glm_ivec4_subsub]
theorem glm_ivec4_subsub_irun_b (a : V4 Int32) (dest : V4 Int32) {r : V4 Int32} (h : I.glm_ivec4_subsub a dest dest = some r) :
    CI.glm_ivec4_subsub.run (α := α) [⟨false, icells a.list⟩, ⟨true, icells dest.list⟩] [.p 0 0, .p 1 0, .p 1 0] =
      some (none, [⟨false, icells a.list⟩, ⟨true, icells r.list⟩]) := by
  irun h [I.glm_ivec4_subsub] [CI.glm_ivec4_subsub]
theorem glm_ivec4_subsub_irun_a (dest : V4 Int32) (b : V4 Int32) {r : V4 Int32} (h : I.glm_ivec4_subsub dest b dest = some r) :
    CI.glm_ivec4_subsub.run (α := α) [⟨false, icells b.list⟩, ⟨true, icells dest.list⟩] [.p 1 0, .p 0 0, .p 1 0] =
      some (none, [⟨false, icells b.list⟩, ⟨true, icells r.list⟩]) := by
  irun h [I.glm_ivec4_subsub] [CI.glm_ivec4_subsub]
theorem glm_ivec4_subsub_irun_a_b (dest : V4 Int32) {r : V4 Int32} (h : I.glm_ivec4_subsub dest dest dest = some r) :
    CI.glm_ivec4_subsub.run (α := α) [⟨true, icells dest.list⟩] [.p 0 0, .p 0 0, .p 0 0] =
      some (none, [⟨true, icells r.list⟩]) := by
  irun h [I.glm_ivec4_subsub] [CI.glm_ivec4_subsub]
theorem glm_ivec4_subsubs_irun (a : V4 Int32) (s : Int32) (dest : V4 Int32) {r : V4 Int32} (h : I.glm_ivec4_subsubs a s dest = some r) :
    CI.glm_ivec4_subsubs.run (α := α) [⟨false, icells a.list⟩, ⟨true, icells dest.list⟩] [.p 0 0, .i s.toInt, .p 1 0] =
      some (none, [⟨false, icells a.list⟩, ⟨true, icells r.list⟩]) := by
  irun h [I.glm_ivec4_subsubs] [CI.glm_ivec4_subsubs]
theorem glm_ivec4_subsubs_irun_a (dest : V4 Int32) (s : Int32) {r : V4 Int32} (h : I.glm_ivec4_subsubs dest s dest = some r) :
    CI.glm_ivec4_subsubs.run (α := α) [⟨true, icells dest.list⟩] [.p 0 0, .i s.toInt, .p 0 0] =
      some (none, [⟨true, icells r.list⟩]) := by
  irun h [I.glm_ivec4_subsubs] [CI.glm_ivec4_subsubs]
theorem glm_ivec4_addsub_irun (a : V4 Int32) (b : V4 Int32) (dest : V4 Int32) {r : V4 Int32} (h : I.glm_ivec4_addsub a b dest = some r) :
    CI.glm_ivec4_addsub.run (α := α) [⟨false, icells a.list⟩, ⟨false, icells b.list⟩, ⟨true, icells dest.list⟩] [.p 0 0, .p 1 0, .p 2 0] =
      some (none, [⟨false, icells a.list⟩, ⟨false, icells b.list⟩, ⟨true, icells r.list⟩]) := by
  irun h [I.glm_ivec4_addsub] [CI.glm_ivec4_addsub]
theorem glm_ivec4_addsub_irun_b (a : V4 Int32) (dest : V4 Int32) {r : V4 Int32} (h : I.glm_ivec4_addsub a dest dest = some r) :
    CI.glm_ivec4_addsub.run (α := α) [⟨false, icells a.list⟩, ⟨true, icells dest.list⟩] [.p 0 0, .p 1 0, .p 1 0] =
      some (none, [⟨false, icells a.list⟩, ⟨true, icells r.list⟩]) := by
  irun h [I.glm_ivec4_addsub] [CI.glm_ivec4_addsub]
theorem glm_ivec4_addsub_irun_a (dest : V4 Int32) (b : V4 Int32) {r : V4 Int32} (h : I.glm_ivec4_addsub dest b dest = some r) :
    CI.glm_ivec4_addsub.run (α := α) [⟨false, icells b.list⟩, ⟨true, icells dest.list⟩] [.p 1 0, .p 0 0, .p 1 0] =
      some (none, [⟨false, icells b.list⟩, ⟨true, icells r.list⟩]) := by
  irun h [I.glm_ivec4_addsub] [CI.glm_ivec4_addsub]
theorem glm_ivec4_addsub_irun_a_b (dest : V4 Int32) {r : V4 Int32} (h : I.glm_ivec4_addsub dest dest dest = some r) :
    CI.glm_ivec4_addsub.run (α := α) [⟨true, icells dest.list⟩] [.p 0 0, .p 0 0, .p 0 0] =
      some (none, [⟨true, icells r.list⟩]) := by
  irun h [I.glm_ivec4_addsub] [CI.glm_ivec4_addsub]
theorem glm_ivec4_addsubs_irun (a : V4 Int32) (s : Int32) (dest : V4 Int32) {r : V4 Int32} (h : I.glm_ivec4_addsubs a s dest = some r) :
    CI.glm_ivec4_addsubs.run (α := α) [⟨false, icells a.list⟩, ⟨true, icells dest.list⟩] [.p 0 0, .i s.toInt, .p 1 0] =
      some (none, [⟨false, icells a.list⟩, ⟨true, icells r.list⟩]) := by
  irun h [I.glm_ivec4_addsubs] [CI.glm_ivec4_addsubs]
theorem glm_ivec4_addsubs_irun_a (dest : V4 Int32) (s : Int32) {r : V4 Int32} (h : I.glm_ivec4_addsubs dest s dest = some r) :
    CI.glm_ivec4_addsubs.run (α := α) [⟨true, icells dest.list⟩] [.p 0 0, .i s.toInt, .p 0 0] =
      some (none, [⟨true, icells r.list⟩]) := by
  irun h [I.glm_ivec4_addsubs] [CI.glm_ivec4_addsubs]
theorem glm_ivec4_mulsub_irun (a : V4 Int32) (b : V4 Int32) (dest : V4 Int32) {r : V4 Int32} (h : I.glm_ivec4_mulsub a b dest = some r) :
    CI.glm_ivec4_mulsub.run (α := α) [⟨false, icells a.list⟩, ⟨false, icells b.list⟩, ⟨true, icells dest.list⟩] [.p 0 0, .p 1 0, .p 2 0] =
      some (none, [⟨false, icells a.list⟩, ⟨false, icells b.list⟩, ⟨true, icells r.list⟩]) := by
  irun h [I.glm_ivec4_mulsub] [CI.glm_ivec4_mulsub]
theorem glm_ivec4_mulsub_irun_b (a : V4 Int32) (dest : V4 Int32) {r : V4 Int32} (h : I.glm_ivec4_mulsub a dest dest = some r) :
    CI.glm_ivec4_mulsub.run (α := α) [⟨false, icells a.list⟩, ⟨true, icells dest.list⟩] [.p 0 0, .p 1 0, .p 1 0] =
      some (none, [⟨false, icells a.list⟩, ⟨true, icells r.list⟩]) := by
  irun h [I.glm_ivec4_mulsub] [CI.glm_ivec4_mulsub]
theorem glm_ivec4_mulsub_irun_a (dest : V4 Int32) (b : V4 Int32) {r : V4 Int32} (h : I.glm_ivec4_mulsub dest b dest = some r) :
    CI.glm_ivec4_mulsub.run (α := α) [⟨false, icells b.list⟩, ⟨true, icells dest.list⟩] [.p 1 0, .p 0 0, .p 1 0] =
      some (none, [⟨false, icells b.list⟩, ⟨true, icells r.list⟩]) := by
  irun h [I.glm_ivec4_mulsub] [CI.glm_ivec4_mulsub]
theorem glm_ivec4_mulsub_irun_a_b (dest : V4 Int32) {r : V4 Int32} (h : I.glm_ivec4_mulsub dest dest dest = some r) :
    CI.glm_ivec4_mulsub.run (α := α) [⟨true, icells dest.list⟩] [.p 0 0, .p 0 0, .p 0 0] =
      some (none, [⟨true, icells r.list⟩]) := by
  irun h [I.glm_ivec4_mulsub] [CI.glm_ivec4_mulsub]
theorem glm_ivec4_mulsubs_irun (a : V4 Int32) (s : Int32) (dest : V4 Int32) {r : V4 Int32} (h : I.glm_ivec4_mulsubs a s dest = some r) :
    CI.glm_ivec4_mulsubs.run (α := α) [⟨false, icells a.list⟩, ⟨true, icells dest.list⟩] [.p 0 0, .i s.toInt, .p 1 0] =
      some (none, [⟨false, icells a.list⟩, ⟨true, icells r.list⟩]) := by
  irun h [I.glm_ivec4_mulsubs] [CI.glm_ivec4_mulsubs]
theorem glm_ivec4_mulsubs_irun_a (dest : V4 Int32) (s : Int32) {r : V4 Int32} (h : I.glm_ivec4_mulsubs dest s dest = some r) :
    CI.glm_ivec4_mulsubs.run (α := α) [⟨true, icells dest.list⟩] [.p 0 0, .i s.toInt, .p 0 0] =
      some (none, [⟨true, icells r.list⟩]) := by
  irun h [I.glm_ivec4_mulsubs] [CI.glm_ivec4_mulsubs]
theorem glm_ivec4_maxsub_irun (a : V4 Int32) (b : V4 Int32) (dest : V4 Int32) {r : V4 Int32} (h : I.glm_ivec4_maxsub a b dest = some r) :
    CI.glm_ivec4_maxsub.run (α := α) [⟨false, icells a.list⟩, ⟨false, icells b.list⟩, ⟨true, icells dest.list⟩] [.p 0 0, .p 1 0, .p 2 0] =
      some (none, [⟨false, icells a.list⟩, ⟨false, icells b.list⟩, ⟨true, icells r.list⟩]) := by
  irun h [I.glm_ivec4_maxsub, I.glm_imax] [CI.glm_ivec4_maxsub, CI.glm_imax]
theorem glm_ivec4_maxsub_irun_b (a : V4 Int32) (dest : V4 Int32) {r : V4 Int32} (h : I.glm_ivec4_maxsub a dest dest = some r) :
    CI.glm_ivec4_maxsub.run (α := α) [⟨false, icells a.list⟩, ⟨true, icells dest.list⟩] [.p 0 0, .p 1 0, .p 1 0] =
      some (none, [⟨false, icells a.list⟩, ⟨true, icells r.list⟩]) := by
  irun h [I.glm_ivec4_maxsub, I.glm_imax] [CI.glm_ivec4_maxsub, CI.glm_imax]
theorem glm_ivec4_maxsub_irun_a (dest : V4 Int32) (b : V4 Int32) {r : V4 Int32} (h : I.glm_ivec4_maxsub dest b dest = some r) :
    CI.glm_ivec4_maxsub.run (α := α) [⟨false, icells b.list⟩, ⟨true, icells dest.list⟩] [.p 1 0, .p 0 0, .p 1 0] =
      some (none, [⟨false, icells b.list⟩, ⟨true, icells r.list⟩]) := by
  irun h [I.glm_ivec4_maxsub, I.glm_imax] [CI.glm_ivec4_maxsub, CI.glm_imax]
theorem glm_ivec4_maxsub_irun_a_b (dest : V4 Int32) {r : V4 Int32} (h : I.glm_ivec4_maxsub dest dest dest = some r) :
    CI.glm_ivec4_maxsub.run (α := α) [⟨true, icells dest.list⟩] [.p 0 0, .p 0 0, .p 0 0] =
      some (none, [⟨true, icells r.list⟩]) := by
  irun h [I.glm_ivec4_maxsub, I.glm_imax] [CI.glm_ivec4_maxsub, CI.glm_imax]
theorem glm_ivec4_minsub_irun (a : V4 Int32) (b : V4 Int32) (dest : V4 Int32) {r : V4 Int32} (h : I.glm_ivec4_minsub a b dest = some r) :
    CI.glm_ivec4_minsub.run (α := α) [⟨false, icells a.list⟩, ⟨false, icells b.list⟩, ⟨true, icells dest.list⟩] [.p 0 0, .p 1 0, .p 2 0] =
      some (none, [⟨false, icells a.list⟩, ⟨false, icells b.list⟩, ⟨true, icells r.list⟩]) := by
  irun h [I.glm_ivec4_minsub, I.glm_imin] [CI.glm_ivec4_minsub, CI.glm_imin]
theorem glm_ivec4_minsub_irun_b (a : V4 Int32) (dest : V4 Int32) {r : V4 Int32} (h : I.glm_ivec4_minsub a dest dest = some r) :
    CI.glm_ivec4_minsub.run (α := α) [⟨false, icells a.list⟩, ⟨true, icells dest.list⟩] [.p 0 0, .p 1 0, .p 1 0] =
      some (none, [⟨false, icells a.list⟩, ⟨true, icells r.list⟩]) := by
  irun h [I.glm_ivec4_minsub, I.glm_imin] [CI.glm_ivec4_minsub, CI.glm_imin]
theorem glm_ivec4_minsub_irun_a (dest : V4 Int32) (b : V4 Int32) {r : V4 Int32} (h : I.glm_ivec4_minsub dest b dest = some r) :
    CI.glm_ivec4_minsub.run (α := α) [⟨false, icells b.list⟩, ⟨true, icells dest.list⟩] [.p 1 0, .p 0 0, .p 1 0] =
      some (none, [⟨false, icells b.list⟩, ⟨true, icells r.list⟩]) := by
  irun h [I.glm_ivec4_minsub, I.glm_imin] [CI.glm_ivec4_minsub, CI.glm_imin]
theorem glm_ivec4_minsub_irun_a_b (dest : V4 Int32) {r : V4 Int32} (h : I.glm_ivec4_minsub dest dest dest = some r) :
    CI.glm_ivec4_minsub.run (α := α) [⟨true, icells dest.list⟩] [.p 0 0, .p 0 0, .p 0 0] =
      some (none, [⟨true, icells r.list⟩]) := by
  irun h [I.glm_ivec4_minsub, I.glm_imin] [CI.glm_ivec4_minsub, CI.glm_imin]
theorem glm_ivec4_distance2_irun (a : V4 Int32) (b : V4 Int32) {r : Int32} (h : I.glm_ivec4_distance2 a b = some r) :
    CI.glm_ivec4_distance2.run (α := α) [⟨false, icells a.list⟩, ⟨false, icells b.list⟩] [.p 0 0, .p 1 0] =
      some (some (.i r.toInt), [⟨false, icells a.list⟩, ⟨false, icells b.list⟩]) := by
  irun h [I.glm_ivec4_distance2] [CI.glm_ivec4_distance2]
theorem glm_ivec4_distance_irun (a : V4 Int32) (b : V4 Int32) {r : α} (h : I.glm_ivec4_distance (α := α) a b = some r) :
    CI.glm_ivec4_distance.run (α := α) [⟨false, icells a.list⟩, ⟨false, icells b.list⟩] [.p 0 0, .p 1 0] =
      some (some (.f r), [⟨false, icells a.list⟩, ⟨false, icells b.list⟩]) := by
  irun h [I.glm_ivec4_distance, I.glm_ivec4_distance2] [CI.glm_ivec4_distance, CI.glm_ivec4_distance2]
theorem glm_ivec4_maxv_irun (a : V4 Int32) (b : V4 Int32) {r : V4 Int32} (h : I.glm_ivec4_maxv a b = some r) :
    CI.glm_ivec4_maxv.run (α := α) [⟨false, icells a.list⟩, ⟨false, icells b.list⟩, ⟨true, List.replicate 4 .undef⟩] [.p 0 0, .p 1 0, .p 2 0] =
      some (none, [⟨false, icells a.list⟩, ⟨false, icells b.list⟩, ⟨true, icells r.list⟩]) := by
  rcases c0 : I32.gt a.x b.x with _ | _ <;>
  rcases c1 : I32.gt a.y b.y with _ | _ <;>
  rcases c2 : I32.gt a.z b.z with _ | _ <;>
  rcases c3 : I32.gt a.w b.w with _ | _ <;>
  irun h [I.glm_ivec4_maxv] [CI.glm_ivec4_maxv]
theorem glm_ivec4_maxv_irun_b (a : V4 Int32) (b : V4 Int32) {r : V4 Int32} (h : I.glm_ivec4_maxv a b = some r) :
    CI.glm_ivec4_maxv.run (α := α) [⟨false, icells a.list⟩, ⟨true, icells b.list⟩] [.p 0 0, .p 1 0, .p 1 0] =
      some (none, [⟨false, icells a.list⟩, ⟨true, icells r.list⟩]) := by
  rcases c0 : I32.gt a.x b.x with _ | _ <;>
  rcases c1 : I32.gt a.y b.y with _ | _ <;>
  rcases c2 : I32.gt a.z b.z with _ | _ <;>
  rcases c3 : I32.gt a.w b.w with _ | _ <;>
  irun h [I.glm_ivec4_maxv] [CI.glm_ivec4_maxv]
theorem glm_ivec4_maxv_irun_a (a : V4 Int32) (b : V4 Int32) {r : V4 Int32} (h : I.glm_ivec4_maxv a b = some r) :
    CI.glm_ivec4_maxv.run (α := α) [⟨false, icells b.list⟩, ⟨true, icells a.list⟩] [.p 1 0, .p 0 0, .p 1 0] =
      some (none, [⟨false, icells b.list⟩, ⟨true, icells r.list⟩]) := by
  rcases c0 : I32.gt a.x b.x with _ | _ <;>
  rcases c1 : I32.gt a.y b.y with _ | _ <;>
  rcases c2 : I32.gt a.z b.z with _ | _ <;>
  rcases c3 : I32.gt a.w b.w with _ | _ <;>
  irun h [I.glm_ivec4_maxv] [CI.glm_ivec4_maxv]
theorem glm_ivec4_maxv_irun_a_b (a : V4 Int32) {r : V4 Int32} (h : I.glm_ivec4_maxv a a = some r) :
    CI.glm_ivec4_maxv.run (α := α) [⟨true, icells a.list⟩] [.p 0 0, .p 0 0, .p 0 0] =
      some (none, [⟨true, icells r.list⟩]) := by
  rcases c0 : I32.gt a.x a.x with _ | _ <;>
  rcases c1 : I32.gt a.y a.y with _ | _ <;>
  rcases c2 : I32.gt a.z a.z with _ | _ <;>
  rcases c3 : I32.gt a.w a.w with _ | _ <;>
  irun h [I.glm_ivec4_maxv] [CI.glm_ivec4_maxv]
theorem glm_ivec4_minv_irun (a : V4 Int32) (b : V4 Int32) {r : V4 Int32} (h : I.glm_ivec4_minv a b = some r) :
    CI.glm_ivec4_minv.run (α := α) [⟨false, icells a.list⟩, ⟨false, icells b.list⟩, ⟨true, List.replicate 4 .undef⟩] [.p 0 0, .p 1 0, .p 2 0] =
      some (none, [⟨false, icells a.list⟩, ⟨false, icells b.list⟩, ⟨true, icells r.list⟩]) := by
  rcases c0 : I32.lt a.x b.x with _ | _ <;>
  rcases c1 : I32.lt a.y b.y with _ | _ <;>
  rcases c2 : I32.lt a.z b.z with _ | _ <;>
  rcases c3 : I32.lt a.w b.w with _ | _ <;>
  irun h [I.glm_ivec4_minv] [CI.glm_ivec4_minv]
theorem glm_ivec4_minv_irun_b (a : V4 Int32) (b : V4 Int32) {r : V4 Int32} (h : I.glm_ivec4_minv a b = some r) :
    CI.glm_ivec4_minv.run (α := α) [⟨false, icells a.list⟩, ⟨true, icells b.list⟩] [.p 0 0, .p 1 0, .p 1 0] =
      some (none, [⟨false, icells a.list⟩, ⟨true, icells r.list⟩]) := by
  rcases c0 : I32.lt a.x b.x with _ | _ <;>
  rcases c1 : I32.lt a.y b.y with _ | _ <;>
  rcases c2 : I32.lt a.z b.z with _ | _ <;>
  rcases c3 : I32.lt a.w b.w with _ | _ <;>
  irun h [I.glm_ivec4_minv] [CI.glm_ivec4_minv]
theorem glm_ivec4_minv_irun_a (a : V4 Int32) (b : V4 Int32) {r : V4 Int32} (h : I.glm_ivec4_minv a b = some r) :
    CI.glm_ivec4_minv.run (α := α) [⟨false, icells b.list⟩, ⟨true, icells a.list⟩] [.p 1 0, .p 0 0, .p 1 0] =
      some (none, [⟨false, icells b.list⟩, ⟨true, icells r.list⟩]) := by
  rcases c0 : I32.lt a.x b.x with _ | _ <;>
  rcases c1 : I32.lt a.y b.y with _ | _ <;>
  rcases c2 : I32.lt a.z b.z with _ | _ <;>
  rcases c3 : I32.lt a.w b.w with _ | _ <;>
  irun h [I.glm_ivec4_minv] [CI.glm_ivec4_minv]
theorem glm_ivec4_minv_irun_a_b (a : V4 Int32) {r : V4 Int32} (h : I.glm_ivec4_minv a a = some r) :
    CI.glm_ivec4_minv.run (α := α) [⟨true, icells a.list⟩] [.p 0 0, .p 0 0, .p 0 0] =
      some (none, [⟨true, icells r.list⟩]) := by
  rcases c0 : I32.lt a.x a.x with _ | _ <;>
  rcases c1 : I32.lt a.y a.y with _ | _ <;>
  rcases c2 : I32.lt a.z a.z with _ | _ <;>
  rcases c3 : I32.lt a.w a.w with _ | _ <;>
  irun h [I.glm_ivec4_minv] [CI.glm_ivec4_minv]
theorem glm_ivec4_clamp_irun (v : V4 Int32) (minVal : Int32) (maxVal : Int32) {r : V4 Int32} (h : I.glm_ivec4_clamp v minVal maxVal = some r) :
    CI.glm_ivec4_clamp.run (α := α) [⟨true, icells v.list⟩] [.p 0 0, .i minVal.toInt, .i maxVal.toInt] =
      some (none, [⟨true, icells r.list⟩]) := by
  have e : I.glm_ivec4_clamp v minVal maxVal = some ⟨clampI minVal maxVal v.x, clampI minVal maxVal v.y, clampI minVal maxVal v.z, clampI minVal maxVal v.w⟩ := by
    unfold I.glm_ivec4_clamp clampI
    rcases I32.lt v.x minVal with _ | _ <;> rcases I32.gt v.x maxVal with _ | _ <;>
    rcases I32.lt v.y minVal with _ | _ <;> rcases I32.gt v.y maxVal with _ | _ <;>
    rcases I32.lt v.z minVal with _ | _ <;> rcases I32.gt v.z maxVal with _ | _ <;>
    rcases I32.lt v.w minVal with _ | _ <;> rcases I32.gt v.w maxVal with _ | _ <;>
    rfl
  rw [e, Option.some.injEq] at h
  subst h
  have b : CI.glm_ivec4_clamp.body = .seq (clampS (.reg 0)) (.seq (clampS (.off (.reg 0) 1)) (.seq (clampS (.off (.reg 0) 2)) (clampS (.off (.reg 0) 3)))) := rfl
  have l : CI.glm_ivec4_clamp.locals = [] ∧ CI.glm_ivec4_clamp.nregs = 0 := ⟨rfl, rfl⟩
  simp only [IFn.run, b, l.1, l.2, List.replicate, fresh, List.map_nil, List.append_nil, V4.list]
  rw [iexec_seq (clampS_exec (k := 0) rfl rfl)]
  rw [iexec_seq (clampS_exec (k := 1) rfl rfl)]
  rw [iexec_seq (clampS_exec (k := 2) rfl rfl)]
  rw [clampS_exec (k := 3) rfl rfl]
  rfl
theorem glm_ivec4_abs_irun (v : V4 Int32) {r : V4 Int32} (h : I.glm_ivec4_abs v = some r) :
    CI.glm_ivec4_abs.run (α := α) [⟨false, icells v.list⟩, ⟨true, List.replicate 4 .undef⟩] [.p 0 0, .p 1 0] =
      some (none, [⟨false, icells v.list⟩, ⟨true, icells r.list⟩]) := by
  irun h [I.glm_ivec4_abs] [CI.glm_ivec4_abs]
theorem glm_ivec4_abs_irun_v (v : V4 Int32) {r : V4 Int32} (h : I.glm_ivec4_abs v = some r) :
    CI.glm_ivec4_abs.run (α := α) [⟨true, icells v.list⟩] [.p 0 0, .p 0 0] =
      some (none, [⟨true, icells r.list⟩]) := by
  irun h [I.glm_ivec4_abs] [CI.glm_ivec4_abs]

end Cglm

end IIvec4Run
