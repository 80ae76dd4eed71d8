/- Generated by tools/safethms.py; do not edit by hand. -/
import Verif.Lib.Int

/-!
# C56: memory accesses of the integer-vector functions when the arguments overlap in any way

No theorem here assumes anything about how the arguments lie relative «to» each other.  Whenever every input is initialised
and every destination is writable, the only way for a call «to» be undefined is an arithmetic operation that overflows or
divides by zero: whatever value such an operation is taken «to» yield, the call makes no bad access, changes no cell
outside the destinations and initialises these.
-/

set_option linter.unusedVariables false
set_option linter.unusedSectionVars false

namespace Cglm
open CMem

variable {α : Type} [Add α] [Sub α] [Mul α] [Div α] [Neg α] [CFloat α] [CIntConv α]

/-- some arithmetic agrees with C's -/
example : (Arith.zero (α := α)).Agrees := Arith.zero_agrees

/-! ## include/cglm/util.h -/

theorem C56_any_sign (mem : Mem α) (val : Int32) :
    SafeMem mem [] .int CI.glm_sign [.i val.toInt] :=
  isafe_entry LibI.glm_sign_ok [.i val.toInt] ⟨trivial, trivial⟩ rfl

theorem C56_any_imin_checked (mem : Mem α) (a : Int32) (b : Int32) :
    SafeMem mem [] .int CI.glm_imin [.i a.toInt, .i b.toInt] :=
  isafe_entry LibI.glm_imin_ok [.i a.toInt, .i b.toInt] ⟨trivial, trivial, trivial⟩ rfl

theorem C56_any_imax_checked (mem : Mem α) (a : Int32) (b : Int32) :
    SafeMem mem [] .int CI.glm_imax [.i a.toInt, .i b.toInt] :=
  isafe_entry LibI.glm_imax_ok [.i a.toInt, .i b.toInt] ⟨trivial, trivial, trivial⟩ rfl

/-! ## include/cglm/ivec2.h -/

theorem C56_any_ivec2 {mem : Mem α} {vP destP : Ptr} (h_v : InitI mem vP 2) (r_dest : Room mem destP 2) :
    SafeMem mem [(destP, 2)] .void CI.glm_ivec2 [vP.val, destP.val] :=
  isafe_entry LibI.glm_ivec2_ok [.inp vP 2, .out destP 2] ⟨⟨initK_isI.mpr h_v, by decide⟩, ⟨r_dest, by decide⟩, trivial⟩ rfl
example (x : Int) : let mem : Mem α := [⟨true, List.replicate 3 (.i x)⟩]
    InitI mem (0, 0) 2 ∧ Room mem (0, 1) 2 :=
  ⟨.replicate (by decide), .replicate (by decide)⟩

theorem C56_any_ivec2_copy {mem : Mem α} {aP destP : Ptr} (h_a : InitI mem aP 2) (r_dest : Room mem destP 2) :
    SafeMem mem [(destP, 2)] .void CI.glm_ivec2_copy [aP.val, destP.val] :=
  isafe_entry LibI.glm_ivec2_copy_ok [.inp aP 2, .out destP 2] ⟨⟨initK_isI.mpr h_a, by decide⟩, ⟨r_dest, by decide⟩, trivial⟩ rfl
example (x : Int) : let mem : Mem α := [⟨true, List.replicate 3 (.i x)⟩]
    InitI mem (0, 0) 2 ∧ Room mem (0, 1) 2 :=
  ⟨.replicate (by decide), .replicate (by decide)⟩

theorem C56_any_ivec2_zero {mem : Mem α} {vP : Ptr} (r_v : Room mem vP 2) :
    SafeMem mem [(vP, 2)] .void CI.glm_ivec2_zero [vP.val] :=
  isafe_entry LibI.glm_ivec2_zero_ok [.out vP 2] ⟨⟨r_v, by decide⟩, trivial⟩ rfl
example (x : Int) : let mem : Mem α := [⟨true, List.replicate 2 (.i x)⟩]
    Room mem (0, 0) 2 :=
  .replicate (by decide)

theorem C56_any_ivec2_one {mem : Mem α} {vP : Ptr} (r_v : Room mem vP 2) :
    SafeMem mem [(vP, 2)] .void CI.glm_ivec2_one [vP.val] :=
  isafe_entry LibI.glm_ivec2_one_ok [.out vP 2] ⟨⟨r_v, by decide⟩, trivial⟩ rfl
example (x : Int) : let mem : Mem α := [⟨true, List.replicate 2 (.i x)⟩]
    Room mem (0, 0) 2 :=
  .replicate (by decide)

theorem C56_any_ivec2_dot {mem : Mem α} {aP bP : Ptr} (h_a : InitI mem aP 2) (h_b : InitI mem bP 2) :
    SafeMem mem [] .int CI.glm_ivec2_dot [aP.val, bP.val] :=
  isafe_entry LibI.glm_ivec2_dot_ok [.inp aP 2, .inp bP 2] ⟨⟨initK_isI.mpr h_a, by decide⟩, ⟨initK_isI.mpr h_b, by decide⟩, trivial⟩ rfl
example (x : Int) : let mem : Mem α := [⟨true, List.replicate 3 (.i x)⟩]
    InitI mem (0, 0) 2 ∧ InitI mem (0, 1) 2 :=
  ⟨.replicate (by decide), .replicate (by decide)⟩

theorem C56_any_ivec2_cross {mem : Mem α} {aP bP : Ptr} (h_a : InitI mem aP 2) (h_b : InitI mem bP 2) :
    SafeMem mem [] .int CI.glm_ivec2_cross [aP.val, bP.val] :=
  isafe_entry LibI.glm_ivec2_cross_ok [.inp aP 2, .inp bP 2] ⟨⟨initK_isI.mpr h_a, by decide⟩, ⟨initK_isI.mpr h_b, by decide⟩, trivial⟩ rfl
example (x : Int) : let mem : Mem α := [⟨true, List.replicate 3 (.i x)⟩]
    InitI mem (0, 0) 2 ∧ InitI mem (0, 1) 2 :=
  ⟨.replicate (by decide), .replicate (by decide)⟩

theorem C56_any_ivec2_add {mem : Mem α} {aP bP destP : Ptr} (h_a : InitI mem aP 2) (h_b : InitI mem bP 2) (r_dest : Room mem destP 2) :
    SafeMem mem [(destP, 2)] .void CI.glm_ivec2_add [aP.val, bP.val, destP.val] :=
  isafe_entry LibI.glm_ivec2_add_ok [.inp aP 2, .inp bP 2, .out destP 2] ⟨⟨initK_isI.mpr h_a, by decide⟩, ⟨initK_isI.mpr h_b, by decide⟩, ⟨r_dest, by decide⟩, trivial⟩ rfl
example (x : Int) : let mem : Mem α := [⟨true, List.replicate 4 (.i x)⟩]
    InitI mem (0, 0) 2 ∧ InitI mem (0, 1) 2 ∧ Room mem (0, 2) 2 :=
  ⟨.replicate (by decide), .replicate (by decide), .replicate (by decide)⟩

theorem C56_any_ivec2_adds {mem : Mem α} {vP destP : Ptr} (s : Int32) (h_v : InitI mem vP 2) (r_dest : Room mem destP 2) :
    SafeMem mem [(destP, 2)] .void CI.glm_ivec2_adds [vP.val, .i s.toInt, destP.val] :=
  isafe_entry LibI.glm_ivec2_adds_ok [.inp vP 2, .i s.toInt, .out destP 2] ⟨⟨initK_isI.mpr h_v, by decide⟩, trivial, ⟨r_dest, by decide⟩, trivial⟩ rfl
example (x : Int) : let mem : Mem α := [⟨true, List.replicate 3 (.i x)⟩]
    InitI mem (0, 0) 2 ∧ Room mem (0, 1) 2 :=
  ⟨.replicate (by decide), .replicate (by decide)⟩

theorem C56_any_ivec2_sub {mem : Mem α} {aP bP destP : Ptr} (h_a : InitI mem aP 2) (h_b : InitI mem bP 2) (r_dest : Room mem destP 2) :
    SafeMem mem [(destP, 2)] .void CI.glm_ivec2_sub [aP.val, bP.val, destP.val] :=
  isafe_entry LibI.glm_ivec2_sub_ok [.inp aP 2, .inp bP 2, .out destP 2] ⟨⟨initK_isI.mpr h_a, by decide⟩, ⟨initK_isI.mpr h_b, by decide⟩, ⟨r_dest, by decide⟩, trivial⟩ rfl
example (x : Int) : let mem : Mem α := [⟨true, List.replicate 4 (.i x)⟩]
    InitI mem (0, 0) 2 ∧ InitI mem (0, 1) 2 ∧ Room mem (0, 2) 2 :=
  ⟨.replicate (by decide), .replicate (by decide), .replicate (by decide)⟩

theorem C56_any_ivec2_subs {mem : Mem α} {vP destP : Ptr} (s : Int32) (h_v : InitI mem vP 2) (r_dest : Room mem destP 2) :
    SafeMem mem [(destP, 2)] .void CI.glm_ivec2_subs [vP.val, .i s.toInt, destP.val] :=
  isafe_entry LibI.glm_ivec2_subs_ok [.inp vP 2, .i s.toInt, .out destP 2] ⟨⟨initK_isI.mpr h_v, by decide⟩, trivial, ⟨r_dest, by decide⟩, trivial⟩ rfl
example (x : Int) : let mem : Mem α := [⟨true, List.replicate 3 (.i x)⟩]
    InitI mem (0, 0) 2 ∧ Room mem (0, 1) 2 :=
  ⟨.replicate (by decide), .replicate (by decide)⟩

theorem C56_any_ivec2_mul {mem : Mem α} {aP bP destP : Ptr} (h_a : InitI mem aP 2) (h_b : InitI mem bP 2) (r_dest : Room mem destP 2) :
    SafeMem mem [(destP, 2)] .void CI.glm_ivec2_mul [aP.val, bP.val, destP.val] :=
  isafe_entry LibI.glm_ivec2_mul_ok [.inp aP 2, .inp bP 2, .out destP 2] ⟨⟨initK_isI.mpr h_a, by decide⟩, ⟨initK_isI.mpr h_b, by decide⟩, ⟨r_dest, by decide⟩, trivial⟩ rfl
example (x : Int) : let mem : Mem α := [⟨true, List.replicate 4 (.i x)⟩]
    InitI mem (0, 0) 2 ∧ InitI mem (0, 1) 2 ∧ Room mem (0, 2) 2 :=
  ⟨.replicate (by decide), .replicate (by decide), .replicate (by decide)⟩

theorem C56_any_ivec2_scale {mem : Mem α} {vP destP : Ptr} (s : Int32) (h_v : InitI mem vP 2) (r_dest : Room mem destP 2) :
    SafeMem mem [(destP, 2)] .void CI.glm_ivec2_scale [vP.val, .i s.toInt, destP.val] :=
  isafe_entry LibI.glm_ivec2_scale_ok [.inp vP 2, .i s.toInt, .out destP 2] ⟨⟨initK_isI.mpr h_v, by decide⟩, trivial, ⟨r_dest, by decide⟩, trivial⟩ rfl
example (x : Int) : let mem : Mem α := [⟨true, List.replicate 3 (.i x)⟩]
    InitI mem (0, 0) 2 ∧ Room mem (0, 1) 2 :=
  ⟨.replicate (by decide), .replicate (by decide)⟩

theorem C56_any_ivec2_div {mem : Mem α} {aP bP destP : Ptr} (h_a : InitI mem aP 2) (h_b : InitI mem bP 2) (r_dest : Room mem destP 2) :
    SafeMem mem [(destP, 2)] .void CI.glm_ivec2_div [aP.val, bP.val, destP.val] :=
  isafe_entry LibI.glm_ivec2_div_ok [.inp aP 2, .inp bP 2, .out destP 2] ⟨⟨initK_isI.mpr h_a, by decide⟩, ⟨initK_isI.mpr h_b, by decide⟩, ⟨r_dest, by decide⟩, trivial⟩ rfl
example (x : Int) : let mem : Mem α := [⟨true, List.replicate 4 (.i x)⟩]
    InitI mem (0, 0) 2 ∧ InitI mem (0, 1) 2 ∧ Room mem (0, 2) 2 :=
  ⟨.replicate (by decide), .replicate (by decide), .replicate (by decide)⟩

theorem C56_any_ivec2_divs {mem : Mem α} {vP destP : Ptr} (s : Int32) (h_v : InitI mem vP 2) (r_dest : Room mem destP 2) :
    SafeMem mem [(destP, 2)] .void CI.glm_ivec2_divs [vP.val, .i s.toInt, destP.val] :=
  isafe_entry LibI.glm_ivec2_divs_ok [.inp vP 2, .i s.toInt, .out destP 2] ⟨⟨initK_isI.mpr h_v, by decide⟩, trivial, ⟨r_dest, by decide⟩, trivial⟩ rfl
example (x : Int) : let mem : Mem α := [⟨true, List.replicate 3 (.i x)⟩]
    InitI mem (0, 0) 2 ∧ Room mem (0, 1) 2 :=
  ⟨.replicate (by decide), .replicate (by decide)⟩

theorem C56_any_ivec2_mod {mem : Mem α} {aP bP destP : Ptr} (h_a : InitI mem aP 2) (h_b : InitI mem bP 2) (r_dest : Room mem destP 2) :
    SafeMem mem [(destP, 2)] .void CI.glm_ivec2_mod [aP.val, bP.val, destP.val] :=
  isafe_entry LibI.glm_ivec2_mod_ok [.inp aP 2, .inp bP 2, .out destP 2] ⟨⟨initK_isI.mpr h_a, by decide⟩, ⟨initK_isI.mpr h_b, by decide⟩, ⟨r_dest, by decide⟩, trivial⟩ rfl
example (x : Int) : let mem : Mem α := [⟨true, List.replicate 4 (.i x)⟩]
    InitI mem (0, 0) 2 ∧ InitI mem (0, 1) 2 ∧ Room mem (0, 2) 2 :=
  ⟨.replicate (by decide), .replicate (by decide), .replicate (by decide)⟩

theorem C56_any_ivec2_addadd {mem : Mem α} {aP bP destP : Ptr} (h_a : InitI mem aP 2) (h_b : InitI mem bP 2) (h_dest : InitI mem destP 2) (r_dest : Room mem destP 2) :
    SafeMem mem [(destP, 2)] .void CI.glm_ivec2_addadd [aP.val, bP.val, destP.val] :=
  isafe_entry LibI.glm_ivec2_addadd_ok [.inp aP 2, .inp bP 2, .io destP 2] ⟨⟨initK_isI.mpr h_a, by decide⟩, ⟨initK_isI.mpr h_b, by decide⟩, ⟨initK_isI.mpr h_dest, r_dest, by decide⟩, trivial⟩ rfl
example (x : Int) : let mem : Mem α := [⟨true, List.replicate 4 (.i x)⟩]
    InitI mem (0, 0) 2 ∧ InitI mem (0, 1) 2 ∧ InitI mem (0, 2) 2 ∧ Room mem (0, 2) 2 :=
  ⟨.replicate (by decide), .replicate (by decide), .replicate (by decide), .replicate (by decide)⟩

theorem C56_any_ivec2_addadds {mem : Mem α} {aP destP : Ptr} (s : Int32) (h_a : InitI mem aP 2) (h_dest : InitI mem destP 2) (r_dest : Room mem destP 2) :
    SafeMem mem [(destP, 2)] .void CI.glm_ivec2_addadds [aP.val, .i s.toInt, destP.val] :=
  isafe_entry LibI.glm_ivec2_addadds_ok [.inp aP 2, .i s.toInt, .io destP 2] ⟨⟨initK_isI.mpr h_a, by decide⟩, trivial, ⟨initK_isI.mpr h_dest, r_dest, by decide⟩, trivial⟩ rfl
example (x : Int) : let mem : Mem α := [⟨true, List.replicate 3 (.i x)⟩]
    InitI mem (0, 0) 2 ∧ InitI mem (0, 1) 2 ∧ Room mem (0, 1) 2 :=
  ⟨.replicate (by decide), .replicate (by decide), .replicate (by decide)⟩

theorem C56_any_ivec2_subadd {mem : Mem α} {aP bP destP : Ptr} (h_a : InitI mem aP 2) (h_b : InitI mem bP 2) (h_dest : InitI mem destP 2) (r_dest : Room mem destP 2) :
    SafeMem mem [(destP, 2)] .void CI.glm_ivec2_subadd [aP.val, bP.val, destP.val] :=
  isafe_entry LibI.glm_ivec2_subadd_ok [.inp aP 2, .inp bP 2, .io destP 2] ⟨⟨initK_isI.mpr h_a, by decide⟩, ⟨initK_isI.mpr h_b, by decide⟩, ⟨initK_isI.mpr h_dest, r_dest, by decide⟩, trivial⟩ rfl
example (x : Int) : let mem : Mem α := [⟨true, List.replicate 4 (.i x)⟩]
    InitI mem (0, 0) 2 ∧ InitI mem (0, 1) 2 ∧ InitI mem (0, 2) 2 ∧ Room mem (0, 2) 2 :=
  ⟨.replicate (by decide), .replicate (by decide), .replicate (by decide), .replicate (by decide)⟩

theorem C56_any_ivec2_subadds {mem : Mem α} {aP destP : Ptr} (s : Int32) (h_a : InitI mem aP 2) (h_dest : InitI mem destP 2) (r_dest : Room mem destP 2) :
    SafeMem mem [(destP, 2)] .void CI.glm_ivec2_subadds [aP.val, .i s.toInt, destP.val] :=
  isafe_entry LibI.glm_ivec2_subadds_ok [.inp aP 2, .i s.toInt, .io destP 2] ⟨⟨initK_isI.mpr h_a, by decide⟩, trivial, ⟨initK_isI.mpr h_dest, r_dest, by decide⟩, trivial⟩ rfl
example (x : Int) : let mem : Mem α := [⟨true, List.replicate 3 (.i x)⟩]
    InitI mem (0, 0) 2 ∧ InitI mem (0, 1) 2 ∧ Room mem (0, 1) 2 :=
  ⟨.replicate (by decide), .replicate (by decide), .replicate (by decide)⟩

theorem C56_any_ivec2_muladd {mem : Mem α} {aP bP destP : Ptr} (h_a : InitI mem aP 2) (h_b : InitI mem bP 2) (h_dest : InitI mem destP 2) (r_dest : Room mem destP 2) :
    SafeMem mem [(destP, 2)] .void CI.glm_ivec2_muladd [aP.val, bP.val, destP.val] :=
  isafe_entry LibI.glm_ivec2_muladd_ok [.inp aP 2, .inp bP 2, .io destP 2] ⟨⟨initK_isI.mpr h_a, by decide⟩, ⟨initK_isI.mpr h_b, by decide⟩, ⟨initK_isI.mpr h_dest, r_dest, by decide⟩, trivial⟩ rfl
example (x : Int) : let mem : Mem α := [⟨true, List.replicate 4 (.i x)⟩]
    InitI mem (0, 0) 2 ∧ InitI mem (0, 1) 2 ∧ InitI mem (0, 2) 2 ∧ Room mem (0, 2) 2 :=
  ⟨.replicate (by decide), .replicate (by decide), .replicate (by decide), .replicate (by decide)⟩

theorem C56_any_ivec2_muladds {mem : Mem α} {aP destP : Ptr} (s : Int32) (h_a : InitI mem aP 2) (h_dest : InitI mem destP 2) (r_dest : Room mem destP 2) :
    SafeMem mem [(destP, 2)] .void CI.glm_ivec2_muladds [aP.val, .i s.toInt, destP.val] :=
  isafe_entry LibI.glm_ivec2_muladds_ok [.inp aP 2, .i s.toInt, .io destP 2] ⟨⟨initK_isI.mpr h_a, by decide⟩, trivial, ⟨initK_isI.mpr h_dest, r_dest, by decide⟩, trivial⟩ rfl
example (x : Int) : let mem : Mem α := [⟨true, List.replicate 3 (.i x)⟩]
    InitI mem (0, 0) 2 ∧ InitI mem (0, 1) 2 ∧ Room mem (0, 1) 2 :=
  ⟨.replicate (by decide), .replicate (by decide), .replicate (by decide)⟩

theorem C56_any_ivec2_maxadd {mem : Mem α} {aP bP destP : Ptr} (h_a : InitI mem aP 2) (h_b : InitI mem bP 2) (h_dest : InitI mem destP 2) (r_dest : Room mem destP 2) :
    SafeMem mem [(destP, 2)] .void CI.glm_ivec2_maxadd [aP.val, bP.val, destP.val] :=
  isafe_entry LibI.glm_ivec2_maxadd_ok [.inp aP 2, .inp bP 2, .io destP 2] ⟨⟨initK_isI.mpr h_a, by decide⟩, ⟨initK_isI.mpr h_b, by decide⟩, ⟨initK_isI.mpr h_dest, r_dest, by decide⟩, trivial⟩ rfl
example (x : Int) : let mem : Mem α := [⟨true, List.replicate 4 (.i x)⟩]
    InitI mem (0, 0) 2 ∧ InitI mem (0, 1) 2 ∧ InitI mem (0, 2) 2 ∧ Room mem (0, 2) 2 :=
  ⟨.replicate (by decide), .replicate (by decide), .replicate (by decide), .replicate (by decide)⟩

theorem C56_any_ivec2_minadd {mem : Mem α} {aP bP destP : Ptr} (h_a : InitI mem aP 2) (h_b : InitI mem bP 2) (h_dest : InitI mem destP 2) (r_dest : Room mem destP 2) :
    SafeMem mem [(destP, 2)] .void CI.glm_ivec2_minadd [aP.val, bP.val, destP.val] :=
  isafe_entry LibI.glm_ivec2_minadd_ok [.inp aP 2, .inp bP 2, .io destP 2] ⟨⟨initK_isI.mpr h_a, by decide⟩, ⟨initK_isI.mpr h_b, by decide⟩, ⟨initK_isI.mpr h_dest, r_dest, by decide⟩, trivial⟩ rfl
example (x : Int) : let mem : Mem α := [⟨true, List.replicate 4 (.i x)⟩]
    InitI mem (0, 0) 2 ∧ InitI mem (0, 1) 2 ∧ InitI mem (0, 2) 2 ∧ Room mem (0, 2) 2 :=
  ⟨.replicate (by decide), .replicate (by decide), .replicate (by decide), .replicate (by decide)⟩

theorem C56_any_ivec2_subsub {mem : Mem α} {aP bP destP : Ptr} (h_a : InitI mem aP 2) (h_b : InitI mem bP 2) (h_dest : InitI mem destP 2) (r_dest : Room mem destP 2) :
    SafeMem mem [(destP, 2)] .void CI.glm_ivec2_subsub [aP.val, bP.val, destP.val] :=
  isafe_entry LibI.glm_ivec2_subsub_ok [.inp aP 2, .inp bP 2, .io destP 2] ⟨⟨initK_isI.mpr h_a, by decide⟩, ⟨initK_isI.mpr h_b, by decide⟩, ⟨initK_isI.mpr h_dest, r_dest, by decide⟩, trivial⟩ rfl
example (x : Int) : let mem : Mem α := [⟨true, List.replicate 4 (.i x)⟩]
    InitI mem (0, 0) 2 ∧ InitI mem (0, 1) 2 ∧ InitI mem (0, 2) 2 ∧ Room mem (0, 2) 2 :=
  ⟨.replicate (by decide), .replicate (by decide), .replicate (by decide), .replicate (by decide)⟩

theorem C56_any_ivec2_subsubs {mem : Mem α} {aP destP : Ptr} (s : Int32) (h_a : InitI mem aP 2) (h_dest : InitI mem destP 2) (r_dest : Room mem destP 2) :
    SafeMem mem [(destP, 2)] .void CI.glm_ivec2_subsubs [aP.val, .i s.toInt, destP.val] :=
  isafe_entry LibI.glm_ivec2_subsubs_ok [.inp aP 2, .i s.toInt, .io destP 2] ⟨⟨initK_isI.mpr h_a, by decide⟩, trivial, ⟨initK_isI.mpr h_dest, r_dest, by decide⟩, trivial⟩ rfl
example (x : Int) : let mem : Mem α := [⟨true, List.replicate 3 (.i x)⟩]
    InitI mem (0, 0) 2 ∧ InitI mem (0, 1) 2 ∧ Room mem (0, 1) 2 :=
  ⟨.replicate (by decide), .replicate (by decide), .replicate (by decide)⟩

theorem C56_any_ivec2_addsub {mem : Mem α} {aP bP destP : Ptr} (h_a : InitI mem aP 2) (h_b : InitI mem bP 2) (h_dest : InitI mem destP 2) (r_dest : Room mem destP 2) :
    SafeMem mem [(destP, 2)] .void CI.glm_ivec2_addsub [aP.val, bP.val, destP.val] :=
  isafe_entry LibI.glm_ivec2_addsub_ok [.inp aP 2, .inp bP 2, .io destP 2] ⟨⟨initK_isI.mpr h_a, by decide⟩, ⟨initK_isI.mpr h_b, by decide⟩, ⟨initK_isI.mpr h_dest, r_dest, by decide⟩, trivial⟩ rfl
example (x : Int) : let mem : Mem α := [⟨true, List.replicate 4 (.i x)⟩]
    InitI mem (0, 0) 2 ∧ InitI mem (0, 1) 2 ∧ InitI mem (0, 2) 2 ∧ Room mem (0, 2) 2 :=
  ⟨.replicate (by decide), .replicate (by decide), .replicate (by decide), .replicate (by decide)⟩

theorem C56_any_ivec2_addsubs {mem : Mem α} {aP destP : Ptr} (s : Int32) (h_a : InitI mem aP 2) (h_dest : InitI mem destP 2) (r_dest : Room mem destP 2) :
    SafeMem mem [(destP, 2)] .void CI.glm_ivec2_addsubs [aP.val, .i s.toInt, destP.val] :=
  isafe_entry LibI.glm_ivec2_addsubs_ok [.inp aP 2, .i s.toInt, .io destP 2] ⟨⟨initK_isI.mpr h_a, by decide⟩, trivial, ⟨initK_isI.mpr h_dest, r_dest, by decide⟩, trivial⟩ rfl
example (x : Int) : let mem : Mem α := [⟨true, List.replicate 3 (.i x)⟩]
    InitI mem (0, 0) 2 ∧ InitI mem (0, 1) 2 ∧ Room mem (0, 1) 2 :=
  ⟨.replicate (by decide), .replicate (by decide), .replicate (by decide)⟩

theorem C56_any_ivec2_mulsub {mem : Mem α} {aP bP destP : Ptr} (h_a : InitI mem aP 2) (h_b : InitI mem bP 2) (h_dest : InitI mem destP 2) (r_dest : Room mem destP 2) :
    SafeMem mem [(destP, 2)] .void CI.glm_ivec2_mulsub [aP.val, bP.val, destP.val] :=
  isafe_entry LibI.glm_ivec2_mulsub_ok [.inp aP 2, .inp bP 2, .io destP 2] ⟨⟨initK_isI.mpr h_a, by decide⟩, ⟨initK_isI.mpr h_b, by decide⟩, ⟨initK_isI.mpr h_dest, r_dest, by decide⟩, trivial⟩ rfl
example (x : Int) : let mem : Mem α := [⟨true, List.replicate 4 (.i x)⟩]
    InitI mem (0, 0) 2 ∧ InitI mem (0, 1) 2 ∧ InitI mem (0, 2) 2 ∧ Room mem (0, 2) 2 :=
  ⟨.replicate (by decide), .replicate (by decide), .replicate (by decide), .replicate (by decide)⟩

theorem C56_any_ivec2_mulsubs {mem : Mem α} {aP destP : Ptr} (s : Int32) (h_a : InitI mem aP 2) (h_dest : InitI mem destP 2) (r_dest : Room mem destP 2) :
    SafeMem mem [(destP, 2)] .void CI.glm_ivec2_mulsubs [aP.val, .i s.toInt, destP.val] :=
  isafe_entry LibI.glm_ivec2_mulsubs_ok [.inp aP 2, .i s.toInt, .io destP 2] ⟨⟨initK_isI.mpr h_a, by decide⟩, trivial, ⟨initK_isI.mpr h_dest, r_dest, by decide⟩, trivial⟩ rfl
example (x : Int) : let mem : Mem α := [⟨true, List.replicate 3 (.i x)⟩]
    InitI mem (0, 0) 2 ∧ InitI mem (0, 1) 2 ∧ Room mem (0, 1) 2 :=
  ⟨.replicate (by decide), .replicate (by decide), .replicate (by decide)⟩

theorem C56_any_ivec2_maxsub {mem : Mem α} {aP bP destP : Ptr} (h_a : InitI mem aP 2) (h_b : InitI mem bP 2) (h_dest : InitI mem destP 2) (r_dest : Room mem destP 2) :
    SafeMem mem [(destP, 2)] .void CI.glm_ivec2_maxsub [aP.val, bP.val, destP.val] :=
  isafe_entry LibI.glm_ivec2_maxsub_ok [.inp aP 2, .inp bP 2, .io destP 2] ⟨⟨initK_isI.mpr h_a, by decide⟩, ⟨initK_isI.mpr h_b, by decide⟩, ⟨initK_isI.mpr h_dest, r_dest, by decide⟩, trivial⟩ rfl
example (x : Int) : let mem : Mem α := [⟨true, List.replicate 4 (.i x)⟩]
    InitI mem (0, 0) 2 ∧ InitI mem (0, 1) 2 ∧ InitI mem (0, 2) 2 ∧ Room mem (0, 2) 2 :=
  ⟨.replicate (by decide), .replicate (by decide), .replicate (by decide), .replicate (by decide)⟩

theorem C56_any_ivec2_minsub {mem : Mem α} {aP bP destP : Ptr} (h_a : InitI mem aP 2) (h_b : InitI mem bP 2) (h_dest : InitI mem destP 2) (r_dest : Room mem destP 2) :
    SafeMem mem [(destP, 2)] .void CI.glm_ivec2_minsub [aP.val, bP.val, destP.val] :=
  isafe_entry LibI.glm_ivec2_minsub_ok [.inp aP 2, .inp bP 2, .io destP 2] ⟨⟨initK_isI.mpr h_a, by decide⟩, ⟨initK_isI.mpr h_b, by decide⟩, ⟨initK_isI.mpr h_dest, r_dest, by decide⟩, trivial⟩ rfl
example (x : Int) : let mem : Mem α := [⟨true, List.replicate 4 (.i x)⟩]
    InitI mem (0, 0) 2 ∧ InitI mem (0, 1) 2 ∧ InitI mem (0, 2) 2 ∧ Room mem (0, 2) 2 :=
  ⟨.replicate (by decide), .replicate (by decide), .replicate (by decide), .replicate (by decide)⟩

theorem C56_any_ivec2_distance2 {mem : Mem α} {aP bP : Ptr} (h_a : InitI mem aP 2) (h_b : InitI mem bP 2) :
    SafeMem mem [] .int CI.glm_ivec2_distance2 [aP.val, bP.val] :=
  isafe_entry LibI.glm_ivec2_distance2_ok [.inp aP 2, .inp bP 2] ⟨⟨initK_isI.mpr h_a, by decide⟩, ⟨initK_isI.mpr h_b, by decide⟩, trivial⟩ rfl
example (x : Int) : let mem : Mem α := [⟨true, List.replicate 3 (.i x)⟩]
    InitI mem (0, 0) 2 ∧ InitI mem (0, 1) 2 :=
  ⟨.replicate (by decide), .replicate (by decide)⟩

theorem C56_any_ivec2_distance {mem : Mem α} {aP bP : Ptr} (h_a : InitI mem aP 2) (h_b : InitI mem bP 2) :
    SafeMem mem [] .float CI.glm_ivec2_distance [aP.val, bP.val] :=
  isafe_entry LibI.glm_ivec2_distance_ok [.inp aP 2, .inp bP 2] ⟨⟨initK_isI.mpr h_a, by decide⟩, ⟨initK_isI.mpr h_b, by decide⟩, trivial⟩ rfl
example (x : Int) : let mem : Mem α := [⟨true, List.replicate 3 (.i x)⟩]
    InitI mem (0, 0) 2 ∧ InitI mem (0, 1) 2 :=
  ⟨.replicate (by decide), .replicate (by decide)⟩

theorem C56_any_ivec2_fill {mem : Mem α} {vP : Ptr} (val : Int32) (r_v : Room mem vP 2) :
    SafeMem mem [(vP, 2)] .void CI.glm_ivec2_fill [vP.val, .i val.toInt] :=
  isafe_entry LibI.glm_ivec2_fill_ok [.out vP 2, .i val.toInt] ⟨⟨r_v, by decide⟩, trivial, trivial⟩ rfl
example (x : Int) : let mem : Mem α := [⟨true, List.replicate 2 (.i x)⟩]
    Room mem (0, 0) 2 :=
  .replicate (by decide)

theorem C56_any_ivec2_eq {mem : Mem α} {vP : Ptr} (val : Int32) (h_v : InitI mem vP 2) :
    SafeMem mem [] .bool CI.glm_ivec2_eq [vP.val, .i val.toInt] :=
  isafe_entry LibI.glm_ivec2_eq_ok [.inp vP 2, .i val.toInt] ⟨⟨initK_isI.mpr h_v, by decide⟩, trivial, trivial⟩ rfl
example (x : Int) : let mem : Mem α := [⟨true, List.replicate 2 (.i x)⟩]
    InitI mem (0, 0) 2 :=
  .replicate (by decide)

theorem C56_any_ivec2_eqv {mem : Mem α} {aP bP : Ptr} (h_a : InitI mem aP 2) (h_b : InitI mem bP 2) :
    SafeMem mem [] .bool CI.glm_ivec2_eqv [aP.val, bP.val] :=
  isafe_entry LibI.glm_ivec2_eqv_ok [.inp aP 2, .inp bP 2] ⟨⟨initK_isI.mpr h_a, by decide⟩, ⟨initK_isI.mpr h_b, by decide⟩, trivial⟩ rfl
example (x : Int) : let mem : Mem α := [⟨true, List.replicate 3 (.i x)⟩]
    InitI mem (0, 0) 2 ∧ InitI mem (0, 1) 2 :=
  ⟨.replicate (by decide), .replicate (by decide)⟩

theorem C56_any_ivec2_maxv {mem : Mem α} {aP bP destP : Ptr} (h_a : InitI mem aP 2) (h_b : InitI mem bP 2) (r_dest : Room mem destP 2) :
    SafeMem mem [(destP, 2)] .void CI.glm_ivec2_maxv [aP.val, bP.val, destP.val] :=
  isafe_entry LibI.glm_ivec2_maxv_ok [.inp aP 2, .inp bP 2, .out destP 2] ⟨⟨initK_isI.mpr h_a, by decide⟩, ⟨initK_isI.mpr h_b, by decide⟩, ⟨r_dest, by decide⟩, trivial⟩ rfl
example (x : Int) : let mem : Mem α := [⟨true, List.replicate 4 (.i x)⟩]
    InitI mem (0, 0) 2 ∧ InitI mem (0, 1) 2 ∧ Room mem (0, 2) 2 :=
  ⟨.replicate (by decide), .replicate (by decide), .replicate (by decide)⟩

theorem C56_any_ivec2_minv {mem : Mem α} {aP bP destP : Ptr} (h_a : InitI mem aP 2) (h_b : InitI mem bP 2) (r_dest : Room mem destP 2) :
    SafeMem mem [(destP, 2)] .void CI.glm_ivec2_minv [aP.val, bP.val, destP.val] :=
  isafe_entry LibI.glm_ivec2_minv_ok [.inp aP 2, .inp bP 2, .out destP 2] ⟨⟨initK_isI.mpr h_a, by decide⟩, ⟨initK_isI.mpr h_b, by decide⟩, ⟨r_dest, by decide⟩, trivial⟩ rfl
example (x : Int) : let mem : Mem α := [⟨true, List.replicate 4 (.i x)⟩]
    InitI mem (0, 0) 2 ∧ InitI mem (0, 1) 2 ∧ Room mem (0, 2) 2 :=
  ⟨.replicate (by decide), .replicate (by decide), .replicate (by decide)⟩

theorem C56_any_ivec2_clamp {mem : Mem α} {vP : Ptr} (minVal : Int32) (maxVal : Int32) (h_v : InitI mem vP 2) (r_v : Room mem vP 2) :
    SafeMem mem [(vP, 2)] .void CI.glm_ivec2_clamp [vP.val, .i minVal.toInt, .i maxVal.toInt] :=
  isafe_entry LibI.glm_ivec2_clamp_ok [.io vP 2, .i minVal.toInt, .i maxVal.toInt] ⟨⟨initK_isI.mpr h_v, r_v, by decide⟩, trivial, trivial, trivial⟩ rfl
example (x : Int) : let mem : Mem α := [⟨true, List.replicate 2 (.i x)⟩]
    InitI mem (0, 0) 2 ∧ Room mem (0, 0) 2 :=
  ⟨.replicate (by decide), .replicate (by decide)⟩

theorem C56_any_ivec2_abs {mem : Mem α} {vP destP : Ptr} (h_v : InitI mem vP 2) (r_dest : Room mem destP 2) :
    SafeMem mem [(destP, 2)] .void CI.glm_ivec2_abs [vP.val, destP.val] :=
  isafe_entry LibI.glm_ivec2_abs_ok [.inp vP 2, .out destP 2] ⟨⟨initK_isI.mpr h_v, by decide⟩, ⟨r_dest, by decide⟩, trivial⟩ rfl
example (x : Int) : let mem : Mem α := [⟨true, List.replicate 3 (.i x)⟩]
    InitI mem (0, 0) 2 ∧ Room mem (0, 1) 2 :=
  ⟨.replicate (by decide), .replicate (by decide)⟩

/-! ## include/cglm/ivec3.h -/

theorem C56_any_ivec3 {mem : Mem α} {v4P destP : Ptr} (h_v4 : InitI mem v4P 4) (r_dest : Room mem destP 3) :
    SafeMem mem [(destP, 3)] .void CI.glm_ivec3 [v4P.val, destP.val] :=
  isafe_entry LibI.glm_ivec3_ok [.inp v4P 4, .out destP 3] ⟨⟨initK_isI.mpr h_v4, by decide⟩, ⟨r_dest, by decide⟩, trivial⟩ rfl
example (x : Int) : let mem : Mem α := [⟨true, List.replicate 4 (.i x)⟩]
    InitI mem (0, 0) 4 ∧ Room mem (0, 1) 3 :=
  ⟨.replicate (by decide), .replicate (by decide)⟩

theorem C56_any_ivec3_copy {mem : Mem α} {aP destP : Ptr} (h_a : InitI mem aP 3) (r_dest : Room mem destP 3) :
    SafeMem mem [(destP, 3)] .void CI.glm_ivec3_copy [aP.val, destP.val] :=
  isafe_entry LibI.glm_ivec3_copy_ok [.inp aP 3, .out destP 3] ⟨⟨initK_isI.mpr h_a, by decide⟩, ⟨r_dest, by decide⟩, trivial⟩ rfl
example (x : Int) : let mem : Mem α := [⟨true, List.replicate 4 (.i x)⟩]
    InitI mem (0, 0) 3 ∧ Room mem (0, 1) 3 :=
  ⟨.replicate (by decide), .replicate (by decide)⟩

theorem C56_any_ivec3_zero {mem : Mem α} {vP : Ptr} (r_v : Room mem vP 3) :
    SafeMem mem [(vP, 3)] .void CI.glm_ivec3_zero [vP.val] :=
  isafe_entry LibI.glm_ivec3_zero_ok [.out vP 3] ⟨⟨r_v, by decide⟩, trivial⟩ rfl
example (x : Int) : let mem : Mem α := [⟨true, List.replicate 3 (.i x)⟩]
    Room mem (0, 0) 3 :=
  .replicate (by decide)

theorem C56_any_ivec3_one {mem : Mem α} {vP : Ptr} (r_v : Room mem vP 3) :
    SafeMem mem [(vP, 3)] .void CI.glm_ivec3_one [vP.val] :=
  isafe_entry LibI.glm_ivec3_one_ok [.out vP 3] ⟨⟨r_v, by decide⟩, trivial⟩ rfl
example (x : Int) : let mem : Mem α := [⟨true, List.replicate 3 (.i x)⟩]
    Room mem (0, 0) 3 :=
  .replicate (by decide)

theorem C56_any_ivec3_dot {mem : Mem α} {aP bP : Ptr} (h_a : InitI mem aP 3) (h_b : InitI mem bP 3) :
    SafeMem mem [] .int CI.glm_ivec3_dot [aP.val, bP.val] :=
  isafe_entry LibI.glm_ivec3_dot_ok [.inp aP 3, .inp bP 3] ⟨⟨initK_isI.mpr h_a, by decide⟩, ⟨initK_isI.mpr h_b, by decide⟩, trivial⟩ rfl
example (x : Int) : let mem : Mem α := [⟨true, List.replicate 4 (.i x)⟩]
    InitI mem (0, 0) 3 ∧ InitI mem (0, 1) 3 :=
  ⟨.replicate (by decide), .replicate (by decide)⟩

theorem C56_any_ivec3_norm2 {mem : Mem α} {vP : Ptr} (h_v : InitI mem vP 3) :
    SafeMem mem [] .int CI.glm_ivec3_norm2 [vP.val] :=
  isafe_entry LibI.glm_ivec3_norm2_ok [.inp vP 3] ⟨⟨initK_isI.mpr h_v, by decide⟩, trivial⟩ rfl
example (x : Int) : let mem : Mem α := [⟨true, List.replicate 3 (.i x)⟩]
    InitI mem (0, 0) 3 :=
  .replicate (by decide)

theorem C56_any_ivec3_norm {mem : Mem α} {vP : Ptr} (h_v : InitI mem vP 3) :
    SafeMem mem [] .int CI.glm_ivec3_norm [vP.val] :=
  isafe_entry LibI.glm_ivec3_norm_ok [.inp vP 3] ⟨⟨initK_isI.mpr h_v, by decide⟩, trivial⟩ rfl
example (x : Int) : let mem : Mem α := [⟨true, List.replicate 3 (.i x)⟩]
    InitI mem (0, 0) 3 :=
  .replicate (by decide)

theorem C56_any_ivec3_add {mem : Mem α} {aP bP destP : Ptr} (h_a : InitI mem aP 3) (h_b : InitI mem bP 3) (r_dest : Room mem destP 3) :
    SafeMem mem [(destP, 3)] .void CI.glm_ivec3_add [aP.val, bP.val, destP.val] :=
  isafe_entry LibI.glm_ivec3_add_ok [.inp aP 3, .inp bP 3, .out destP 3] ⟨⟨initK_isI.mpr h_a, by decide⟩, ⟨initK_isI.mpr h_b, by decide⟩, ⟨r_dest, by decide⟩, trivial⟩ rfl
example (x : Int) : let mem : Mem α := [⟨true, List.replicate 5 (.i x)⟩]
    InitI mem (0, 0) 3 ∧ InitI mem (0, 1) 3 ∧ Room mem (0, 2) 3 :=
  ⟨.replicate (by decide), .replicate (by decide), .replicate (by decide)⟩

theorem C56_any_ivec3_adds {mem : Mem α} {vP destP : Ptr} (s : Int32) (h_v : InitI mem vP 3) (r_dest : Room mem destP 3) :
    SafeMem mem [(destP, 3)] .void CI.glm_ivec3_adds [vP.val, .i s.toInt, destP.val] :=
  isafe_entry LibI.glm_ivec3_adds_ok [.inp vP 3, .i s.toInt, .out destP 3] ⟨⟨initK_isI.mpr h_v, by decide⟩, trivial, ⟨r_dest, by decide⟩, trivial⟩ rfl
example (x : Int) : let mem : Mem α := [⟨true, List.replicate 4 (.i x)⟩]
    InitI mem (0, 0) 3 ∧ Room mem (0, 1) 3 :=
  ⟨.replicate (by decide), .replicate (by decide)⟩

theorem C56_any_ivec3_sub {mem : Mem α} {aP bP destP : Ptr} (h_a : InitI mem aP 3) (h_b : InitI mem bP 3) (r_dest : Room mem destP 3) :
    SafeMem mem [(destP, 3)] .void CI.glm_ivec3_sub [aP.val, bP.val, destP.val] :=
  isafe_entry LibI.glm_ivec3_sub_ok [.inp aP 3, .inp bP 3, .out destP 3] ⟨⟨initK_isI.mpr h_a, by decide⟩, ⟨initK_isI.mpr h_b, by decide⟩, ⟨r_dest, by decide⟩, trivial⟩ rfl
example (x : Int) : let mem : Mem α := [⟨true, List.replicate 5 (.i x)⟩]
    InitI mem (0, 0) 3 ∧ InitI mem (0, 1) 3 ∧ Room mem (0, 2) 3 :=
  ⟨.replicate (by decide), .replicate (by decide), .replicate (by decide)⟩

theorem C56_any_ivec3_subs {mem : Mem α} {vP destP : Ptr} (s : Int32) (h_v : InitI mem vP 3) (r_dest : Room mem destP 3) :
    SafeMem mem [(destP, 3)] .void CI.glm_ivec3_subs [vP.val, .i s.toInt, destP.val] :=
  isafe_entry LibI.glm_ivec3_subs_ok [.inp vP 3, .i s.toInt, .out destP 3] ⟨⟨initK_isI.mpr h_v, by decide⟩, trivial, ⟨r_dest, by decide⟩, trivial⟩ rfl
example (x : Int) : let mem : Mem α := [⟨true, List.replicate 4 (.i x)⟩]
    InitI mem (0, 0) 3 ∧ Room mem (0, 1) 3 :=
  ⟨.replicate (by decide), .replicate (by decide)⟩

theorem C56_any_ivec3_mul {mem : Mem α} {aP bP destP : Ptr} (h_a : InitI mem aP 3) (h_b : InitI mem bP 3) (r_dest : Room mem destP 3) :
    SafeMem mem [(destP, 3)] .void CI.glm_ivec3_mul [aP.val, bP.val, destP.val] :=
  isafe_entry LibI.glm_ivec3_mul_ok [.inp aP 3, .inp bP 3, .out destP 3] ⟨⟨initK_isI.mpr h_a, by decide⟩, ⟨initK_isI.mpr h_b, by decide⟩, ⟨r_dest, by decide⟩, trivial⟩ rfl
example (x : Int) : let mem : Mem α := [⟨true, List.replicate 5 (.i x)⟩]
    InitI mem (0, 0) 3 ∧ InitI mem (0, 1) 3 ∧ Room mem (0, 2) 3 :=
  ⟨.replicate (by decide), .replicate (by decide), .replicate (by decide)⟩

theorem C56_any_ivec3_scale {mem : Mem α} {vP destP : Ptr} (s : Int32) (h_v : InitI mem vP 3) (r_dest : Room mem destP 3) :
    SafeMem mem [(destP, 3)] .void CI.glm_ivec3_scale [vP.val, .i s.toInt, destP.val] :=
  isafe_entry LibI.glm_ivec3_scale_ok [.inp vP 3, .i s.toInt, .out destP 3] ⟨⟨initK_isI.mpr h_v, by decide⟩, trivial, ⟨r_dest, by decide⟩, trivial⟩ rfl
example (x : Int) : let mem : Mem α := [⟨true, List.replicate 4 (.i x)⟩]
    InitI mem (0, 0) 3 ∧ Room mem (0, 1) 3 :=
  ⟨.replicate (by decide), .replicate (by decide)⟩

theorem C56_any_ivec3_div {mem : Mem α} {aP bP destP : Ptr} (h_a : InitI mem aP 3) (h_b : InitI mem bP 3) (r_dest : Room mem destP 3) :
    SafeMem mem [(destP, 3)] .void CI.glm_ivec3_div [aP.val, bP.val, destP.val] :=
  isafe_entry LibI.glm_ivec3_div_ok [.inp aP 3, .inp bP 3, .out destP 3] ⟨⟨initK_isI.mpr h_a, by decide⟩, ⟨initK_isI.mpr h_b, by decide⟩, ⟨r_dest, by decide⟩, trivial⟩ rfl
example (x : Int) : let mem : Mem α := [⟨true, List.replicate 5 (.i x)⟩]
    InitI mem (0, 0) 3 ∧ InitI mem (0, 1) 3 ∧ Room mem (0, 2) 3 :=
  ⟨.replicate (by decide), .replicate (by decide), .replicate (by decide)⟩

theorem C56_any_ivec3_divs {mem : Mem α} {vP destP : Ptr} (s : Int32) (h_v : InitI mem vP 3) (r_dest : Room mem destP 3) :
    SafeMem mem [(destP, 3)] .void CI.glm_ivec3_divs [vP.val, .i s.toInt, destP.val] :=
  isafe_entry LibI.glm_ivec3_divs_ok [.inp vP 3, .i s.toInt, .out destP 3] ⟨⟨initK_isI.mpr h_v, by decide⟩, trivial, ⟨r_dest, by decide⟩, trivial⟩ rfl
example (x : Int) : let mem : Mem α := [⟨true, List.replicate 4 (.i x)⟩]
    InitI mem (0, 0) 3 ∧ Room mem (0, 1) 3 :=
  ⟨.replicate (by decide), .replicate (by decide)⟩

theorem C56_any_ivec3_mod {mem : Mem α} {aP bP destP : Ptr} (h_a : InitI mem aP 3) (h_b : InitI mem bP 3) (r_dest : Room mem destP 3) :
    SafeMem mem [(destP, 3)] .void CI.glm_ivec3_mod [aP.val, bP.val, destP.val] :=
  isafe_entry LibI.glm_ivec3_mod_ok [.inp aP 3, .inp bP 3, .out destP 3] ⟨⟨initK_isI.mpr h_a, by decide⟩, ⟨initK_isI.mpr h_b, by decide⟩, ⟨r_dest, by decide⟩, trivial⟩ rfl
example (x : Int) : let mem : Mem α := [⟨true, List.replicate 5 (.i x)⟩]
    InitI mem (0, 0) 3 ∧ InitI mem (0, 1) 3 ∧ Room mem (0, 2) 3 :=
  ⟨.replicate (by decide), .replicate (by decide), .replicate (by decide)⟩

theorem C56_any_ivec3_addadd {mem : Mem α} {aP bP destP : Ptr} (h_a : InitI mem aP 3) (h_b : InitI mem bP 3) (h_dest : InitI mem destP 3) (r_dest : Room mem destP 3) :
    SafeMem mem [(destP, 3)] .void CI.glm_ivec3_addadd [aP.val, bP.val, destP.val] :=
  isafe_entry LibI.glm_ivec3_addadd_ok [.inp aP 3, .inp bP 3, .io destP 3] ⟨⟨initK_isI.mpr h_a, by decide⟩, ⟨initK_isI.mpr h_b, by decide⟩, ⟨initK_isI.mpr h_dest, r_dest, by decide⟩, trivial⟩ rfl
example (x : Int) : let mem : Mem α := [⟨true, List.replicate 5 (.i x)⟩]
    InitI mem (0, 0) 3 ∧ InitI mem (0, 1) 3 ∧ InitI mem (0, 2) 3 ∧ Room mem (0, 2) 3 :=
  ⟨.replicate (by decide), .replicate (by decide), .replicate (by decide), .replicate (by decide)⟩

theorem C56_any_ivec3_addadds {mem : Mem α} {aP destP : Ptr} (s : Int32) (h_a : InitI mem aP 3) (h_dest : InitI mem destP 3) (r_dest : Room mem destP 3) :
    SafeMem mem [(destP, 3)] .void CI.glm_ivec3_addadds [aP.val, .i s.toInt, destP.val] :=
  isafe_entry LibI.glm_ivec3_addadds_ok [.inp aP 3, .i s.toInt, .io destP 3] ⟨⟨initK_isI.mpr h_a, by decide⟩, trivial, ⟨initK_isI.mpr h_dest, r_dest, by decide⟩, trivial⟩ rfl
example (x : Int) : let mem : Mem α := [⟨true, List.replicate 4 (.i x)⟩]
    InitI mem (0, 0) 3 ∧ InitI mem (0, 1) 3 ∧ Room mem (0, 1) 3 :=
  ⟨.replicate (by decide), .replicate (by decide), .replicate (by decide)⟩

theorem C56_any_ivec3_subadd {mem : Mem α} {aP bP destP : Ptr} (h_a : InitI mem aP 3) (h_b : InitI mem bP 3) (h_dest : InitI mem destP 3) (r_dest : Room mem destP 3) :
    SafeMem mem [(destP, 3)] .void CI.glm_ivec3_subadd [aP.val, bP.val, destP.val] :=
  isafe_entry LibI.glm_ivec3_subadd_ok [.inp aP 3, .inp bP 3, .io destP 3] ⟨⟨initK_isI.mpr h_a, by decide⟩, ⟨initK_isI.mpr h_b, by decide⟩, ⟨initK_isI.mpr h_dest, r_dest, by decide⟩, trivial⟩ rfl
example (x : Int) : let mem : Mem α := [⟨true, List.replicate 5 (.i x)⟩]
    InitI mem (0, 0) 3 ∧ InitI mem (0, 1) 3 ∧ InitI mem (0, 2) 3 ∧ Room mem (0, 2) 3 :=
  ⟨.replicate (by decide), .replicate (by decide), .replicate (by decide), .replicate (by decide)⟩

theorem C56_any_ivec3_subadds {mem : Mem α} {aP destP : Ptr} (s : Int32) (h_a : InitI mem aP 3) (h_dest : InitI mem destP 3) (r_dest : Room mem destP 3) :
    SafeMem mem [(destP, 3)] .void CI.glm_ivec3_subadds [aP.val, .i s.toInt, destP.val] :=
  isafe_entry LibI.glm_ivec3_subadds_ok [.inp aP 3, .i s.toInt, .io destP 3] ⟨⟨initK_isI.mpr h_a, by decide⟩, trivial, ⟨initK_isI.mpr h_dest, r_dest, by decide⟩, trivial⟩ rfl
example (x : Int) : let mem : Mem α := [⟨true, List.replicate 4 (.i x)⟩]
    InitI mem (0, 0) 3 ∧ InitI mem (0, 1) 3 ∧ Room mem (0, 1) 3 :=
  ⟨.replicate (by decide), .replicate (by decide), .replicate (by decide)⟩

theorem C56_any_ivec3_muladd {mem : Mem α} {aP bP destP : Ptr} (h_a : InitI mem aP 3) (h_b : InitI mem bP 3) (h_dest : InitI mem destP 3) (r_dest : Room mem destP 3) :
    SafeMem mem [(destP, 3)] .void CI.glm_ivec3_muladd [aP.val, bP.val, destP.val] :=
  isafe_entry LibI.glm_ivec3_muladd_ok [.inp aP 3, .inp bP 3, .io destP 3] ⟨⟨initK_isI.mpr h_a, by decide⟩, ⟨initK_isI.mpr h_b, by decide⟩, ⟨initK_isI.mpr h_dest, r_dest, by decide⟩, trivial⟩ rfl
example (x : Int) : let mem : Mem α := [⟨true, List.replicate 5 (.i x)⟩]
    InitI mem (0, 0) 3 ∧ InitI mem (0, 1) 3 ∧ InitI mem (0, 2) 3 ∧ Room mem (0, 2) 3 :=
  ⟨.replicate (by decide), .replicate (by decide), .replicate (by decide), .replicate (by decide)⟩

theorem C56_any_ivec3_muladds {mem : Mem α} {aP destP : Ptr} (s : Int32) (h_a : InitI mem aP 3) (h_dest : InitI mem destP 3) (r_dest : Room mem destP 3) :
    SafeMem mem [(destP, 3)] .void CI.glm_ivec3_muladds [aP.val, .i s.toInt, destP.val] :=
  isafe_entry LibI.glm_ivec3_muladds_ok [.inp aP 3, .i s.toInt, .io destP 3] ⟨⟨initK_isI.mpr h_a, by decide⟩, trivial, ⟨initK_isI.mpr h_dest, r_dest, by decide⟩, trivial⟩ rfl
example (x : Int) : let mem : Mem α := [⟨true, List.replicate 4 (.i x)⟩]
    InitI mem (0, 0) 3 ∧ InitI mem (0, 1) 3 ∧ Room mem (0, 1) 3 :=
  ⟨.replicate (by decide), .replicate (by decide), .replicate (by decide)⟩

theorem C56_any_ivec3_maxadd {mem : Mem α} {aP bP destP : Ptr} (h_a : InitI mem aP 3) (h_b : InitI mem bP 3) (h_dest : InitI mem destP 3) (r_dest : Room mem destP 3) :
    SafeMem mem [(destP, 3)] .void CI.glm_ivec3_maxadd [aP.val, bP.val, destP.val] :=
  isafe_entry LibI.glm_ivec3_maxadd_ok [.inp aP 3, .inp bP 3, .io destP 3] ⟨⟨initK_isI.mpr h_a, by decide⟩, ⟨initK_isI.mpr h_b, by decide⟩, ⟨initK_isI.mpr h_dest, r_dest, by decide⟩, trivial⟩ rfl
example (x : Int) : let mem : Mem α := [⟨true, List.replicate 5 (.i x)⟩]
    InitI mem (0, 0) 3 ∧ InitI mem (0, 1) 3 ∧ InitI mem (0, 2) 3 ∧ Room mem (0, 2) 3 :=
  ⟨.replicate (by decide), .replicate (by decide), .replicate (by decide), .replicate (by decide)⟩

theorem C56_any_ivec3_minadd {mem : Mem α} {aP bP destP : Ptr} (h_a : InitI mem aP 3) (h_b : InitI mem bP 3) (h_dest : InitI mem destP 3) (r_dest : Room mem destP 3) :
    SafeMem mem [(destP, 3)] .void CI.glm_ivec3_minadd [aP.val, bP.val, destP.val] :=
  isafe_entry LibI.glm_ivec3_minadd_ok [.inp aP 3, .inp bP 3, .io destP 3] ⟨⟨initK_isI.mpr h_a, by decide⟩, ⟨initK_isI.mpr h_b, by decide⟩, ⟨initK_isI.mpr h_dest, r_dest, by decide⟩, trivial⟩ rfl
example (x : Int) : let mem : Mem α := [⟨true, List.replicate 5 (.i x)⟩]
    InitI mem (0, 0) 3 ∧ InitI mem (0, 1) 3 ∧ InitI mem (0, 2) 3 ∧ Room mem (0, 2) 3 :=
  ⟨.replicate (by decide), .replicate (by decide), .replicate (by decide), .replicate (by decide)⟩

theorem C56_any_ivec3_subsub {mem : Mem α} {aP bP destP : Ptr} (h_a : InitI mem aP 3) (h_b : InitI mem bP 3) (h_dest : InitI mem destP 3) (r_dest : Room mem destP 3) :
    SafeMem mem [(destP, 3)] .void CI.glm_ivec3_subsub [aP.val, bP.val, destP.val] :=
  isafe_entry LibI.glm_ivec3_subsub_ok [.inp aP 3, .inp bP 3, .io destP 3] ⟨⟨initK_isI.mpr h_a, by decide⟩, ⟨initK_isI.mpr h_b, by decide⟩, ⟨initK_isI.mpr h_dest, r_dest, by decide⟩, trivial⟩ rfl
example (x : Int) : let mem : Mem α := [⟨true, List.replicate 5 (.i x)⟩]
    InitI mem (0, 0) 3 ∧ InitI mem (0, 1) 3 ∧ InitI mem (0, 2) 3 ∧ Room mem (0, 2) 3 :=
  ⟨.replicate (by decide), .replicate (by decide), .replicate (by decide), .replicate (by decide)⟩

theorem C56_any_ivec3_subsubs {mem : Mem α} {aP destP : Ptr} (s : Int32) (h_a : InitI mem aP 3) (h_dest : InitI mem destP 3) (r_dest : Room mem destP 3) :
    SafeMem mem [(destP, 3)] .void CI.glm_ivec3_subsubs [aP.val, .i s.toInt, destP.val] :=
  isafe_entry LibI.glm_ivec3_subsubs_ok [.inp aP 3, .i s.toInt, .io destP 3] ⟨⟨initK_isI.mpr h_a, by decide⟩, trivial, ⟨initK_isI.mpr h_dest, r_dest, by decide⟩, trivial⟩ rfl
example (x : Int) : let mem : Mem α := [⟨true, List.replicate 4 (.i x)⟩]
    InitI mem (0, 0) 3 ∧ InitI mem (0, 1) 3 ∧ Room mem (0, 1) 3 :=
  ⟨.replicate (by decide), .replicate (by decide), .replicate (by decide)⟩

theorem C56_any_ivec3_addsub {mem : Mem α} {aP bP destP : Ptr} (h_a : InitI mem aP 3) (h_b : InitI mem bP 3) (h_dest : InitI mem destP 3) (r_dest : Room mem destP 3) :
    SafeMem mem [(destP, 3)] .void CI.glm_ivec3_addsub [aP.val, bP.val, destP.val] :=
  isafe_entry LibI.glm_ivec3_addsub_ok [.inp aP 3, .inp bP 3, .io destP 3] ⟨⟨initK_isI.mpr h_a, by decide⟩, ⟨initK_isI.mpr h_b, by decide⟩, ⟨initK_isI.mpr h_dest, r_dest, by decide⟩, trivial⟩ rfl
example (x : Int) : let mem : Mem α := [⟨true, List.replicate 5 (.i x)⟩]
    InitI mem (0, 0) 3 ∧ InitI mem (0, 1) 3 ∧ InitI mem (0, 2) 3 ∧ Room mem (0, 2) 3 :=
  ⟨.replicate (by decide), .replicate (by decide), .replicate (by decide), .replicate (by decide)⟩

theorem C56_any_ivec3_addsubs {mem : Mem α} {aP destP : Ptr} (s : Int32) (h_a : InitI mem aP 3) (h_dest : InitI mem destP 3) (r_dest : Room mem destP 3) :
    SafeMem mem [(destP, 3)] .void CI.glm_ivec3_addsubs [aP.val, .i s.toInt, destP.val] :=
  isafe_entry LibI.glm_ivec3_addsubs_ok [.inp aP 3, .i s.toInt, .io destP 3] ⟨⟨initK_isI.mpr h_a, by decide⟩, trivial, ⟨initK_isI.mpr h_dest, r_dest, by decide⟩, trivial⟩ rfl
example (x : Int) : let mem : Mem α := [⟨true, List.replicate 4 (.i x)⟩]
    InitI mem (0, 0) 3 ∧ InitI mem (0, 1) 3 ∧ Room mem (0, 1) 3 :=
  ⟨.replicate (by decide), .replicate (by decide), .replicate (by decide)⟩

theorem C56_any_ivec3_mulsub {mem : Mem α} {aP bP destP : Ptr} (h_a : InitI mem aP 3) (h_b : InitI mem bP 3) (h_dest : InitI mem destP 3) (r_dest : Room mem destP 3) :
    SafeMem mem [(destP, 3)] .void CI.glm_ivec3_mulsub [aP.val, bP.val, destP.val] :=
  isafe_entry LibI.glm_ivec3_mulsub_ok [.inp aP 3, .inp bP 3, .io destP 3] ⟨⟨initK_isI.mpr h_a, by decide⟩, ⟨initK_isI.mpr h_b, by decide⟩, ⟨initK_isI.mpr h_dest, r_dest, by decide⟩, trivial⟩ rfl
example (x : Int) : let mem : Mem α := [⟨true, List.replicate 5 (.i x)⟩]
    InitI mem (0, 0) 3 ∧ InitI mem (0, 1) 3 ∧ InitI mem (0, 2) 3 ∧ Room mem (0, 2) 3 :=
  ⟨.replicate (by decide), .replicate (by decide), .replicate (by decide), .replicate (by decide)⟩

theorem C56_any_ivec3_mulsubs {mem : Mem α} {aP destP : Ptr} (s : Int32) (h_a : InitI mem aP 3) (h_dest : InitI mem destP 3) (r_dest : Room mem destP 3) :
    SafeMem mem [(destP, 3)] .void CI.glm_ivec3_mulsubs [aP.val, .i s.toInt, destP.val] :=
  isafe_entry LibI.glm_ivec3_mulsubs_ok [.inp aP 3, .i s.toInt, .io destP 3] ⟨⟨initK_isI.mpr h_a, by decide⟩, trivial, ⟨initK_isI.mpr h_dest, r_dest, by decide⟩, trivial⟩ rfl
example (x : Int) : let mem : Mem α := [⟨true, List.replicate 4 (.i x)⟩]
    InitI mem (0, 0) 3 ∧ InitI mem (0, 1) 3 ∧ Room mem (0, 1) 3 :=
  ⟨.replicate (by decide), .replicate (by decide), .replicate (by decide)⟩

theorem C56_any_ivec3_maxsub {mem : Mem α} {aP bP destP : Ptr} (h_a : InitI mem aP 3) (h_b : InitI mem bP 3) (h_dest : InitI mem destP 3) (r_dest : Room mem destP 3) :
    SafeMem mem [(destP, 3)] .void CI.glm_ivec3_maxsub [aP.val, bP.val, destP.val] :=
  isafe_entry LibI.glm_ivec3_maxsub_ok [.inp aP 3, .inp bP 3, .io destP 3] ⟨⟨initK_isI.mpr h_a, by decide⟩, ⟨initK_isI.mpr h_b, by decide⟩, ⟨initK_isI.mpr h_dest, r_dest, by decide⟩, trivial⟩ rfl
example (x : Int) : let mem : Mem α := [⟨true, List.replicate 5 (.i x)⟩]
    InitI mem (0, 0) 3 ∧ InitI mem (0, 1) 3 ∧ InitI mem (0, 2) 3 ∧ Room mem (0, 2) 3 :=
  ⟨.replicate (by decide), .replicate (by decide), .replicate (by decide), .replicate (by decide)⟩

theorem C56_any_ivec3_minsub {mem : Mem α} {aP bP destP : Ptr} (h_a : InitI mem aP 3) (h_b : InitI mem bP 3) (h_dest : InitI mem destP 3) (r_dest : Room mem destP 3) :
    SafeMem mem [(destP, 3)] .void CI.glm_ivec3_minsub [aP.val, bP.val, destP.val] :=
  isafe_entry LibI.glm_ivec3_minsub_ok [.inp aP 3, .inp bP 3, .io destP 3] ⟨⟨initK_isI.mpr h_a, by decide⟩, ⟨initK_isI.mpr h_b, by decide⟩, ⟨initK_isI.mpr h_dest, r_dest, by decide⟩, trivial⟩ rfl
example (x : Int) : let mem : Mem α := [⟨true, List.replicate 5 (.i x)⟩]
    InitI mem (0, 0) 3 ∧ InitI mem (0, 1) 3 ∧ InitI mem (0, 2) 3 ∧ Room mem (0, 2) 3 :=
  ⟨.replicate (by decide), .replicate (by decide), .replicate (by decide), .replicate (by decide)⟩

theorem C56_any_ivec3_distance2 {mem : Mem α} {aP bP : Ptr} (h_a : InitI mem aP 3) (h_b : InitI mem bP 3) :
    SafeMem mem [] .int CI.glm_ivec3_distance2 [aP.val, bP.val] :=
  isafe_entry LibI.glm_ivec3_distance2_ok [.inp aP 3, .inp bP 3] ⟨⟨initK_isI.mpr h_a, by decide⟩, ⟨initK_isI.mpr h_b, by decide⟩, trivial⟩ rfl
example (x : Int) : let mem : Mem α := [⟨true, List.replicate 4 (.i x)⟩]
    InitI mem (0, 0) 3 ∧ InitI mem (0, 1) 3 :=
  ⟨.replicate (by decide), .replicate (by decide)⟩

theorem C56_any_ivec3_distance {mem : Mem α} {aP bP : Ptr} (h_a : InitI mem aP 3) (h_b : InitI mem bP 3) :
    SafeMem mem [] .float CI.glm_ivec3_distance [aP.val, bP.val] :=
  isafe_entry LibI.glm_ivec3_distance_ok [.inp aP 3, .inp bP 3] ⟨⟨initK_isI.mpr h_a, by decide⟩, ⟨initK_isI.mpr h_b, by decide⟩, trivial⟩ rfl
example (x : Int) : let mem : Mem α := [⟨true, List.replicate 4 (.i x)⟩]
    InitI mem (0, 0) 3 ∧ InitI mem (0, 1) 3 :=
  ⟨.replicate (by decide), .replicate (by decide)⟩

theorem C56_any_ivec3_fill {mem : Mem α} {vP : Ptr} (val : Int32) (r_v : Room mem vP 3) :
    SafeMem mem [(vP, 3)] .void CI.glm_ivec3_fill [vP.val, .i val.toInt] :=
  isafe_entry LibI.glm_ivec3_fill_ok [.out vP 3, .i val.toInt] ⟨⟨r_v, by decide⟩, trivial, trivial⟩ rfl
example (x : Int) : let mem : Mem α := [⟨true, List.replicate 3 (.i x)⟩]
    Room mem (0, 0) 3 :=
  .replicate (by decide)

theorem C56_any_ivec3_eq {mem : Mem α} {vP : Ptr} (val : Int32) (h_v : InitI mem vP 3) :
    SafeMem mem [] .bool CI.glm_ivec3_eq [vP.val, .i val.toInt] :=
  isafe_entry LibI.glm_ivec3_eq_ok [.inp vP 3, .i val.toInt] ⟨⟨initK_isI.mpr h_v, by decide⟩, trivial, trivial⟩ rfl
example (x : Int) : let mem : Mem α := [⟨true, List.replicate 3 (.i x)⟩]
    InitI mem (0, 0) 3 :=
  .replicate (by decide)

theorem C56_any_ivec3_eqv {mem : Mem α} {aP bP : Ptr} (h_a : InitI mem aP 3) (h_b : InitI mem bP 3) :
    SafeMem mem [] .bool CI.glm_ivec3_eqv [aP.val, bP.val] :=
  isafe_entry LibI.glm_ivec3_eqv_ok [.inp aP 3, .inp bP 3] ⟨⟨initK_isI.mpr h_a, by decide⟩, ⟨initK_isI.mpr h_b, by decide⟩, trivial⟩ rfl
example (x : Int) : let mem : Mem α := [⟨true, List.replicate 4 (.i x)⟩]
    InitI mem (0, 0) 3 ∧ InitI mem (0, 1) 3 :=
  ⟨.replicate (by decide), .replicate (by decide)⟩

theorem C56_any_ivec3_maxv {mem : Mem α} {aP bP destP : Ptr} (h_a : InitI mem aP 3) (h_b : InitI mem bP 3) (r_dest : Room mem destP 3) :
    SafeMem mem [(destP, 3)] .void CI.glm_ivec3_maxv [aP.val, bP.val, destP.val] :=
  isafe_entry LibI.glm_ivec3_maxv_ok [.inp aP 3, .inp bP 3, .out destP 3] ⟨⟨initK_isI.mpr h_a, by decide⟩, ⟨initK_isI.mpr h_b, by decide⟩, ⟨r_dest, by decide⟩, trivial⟩ rfl
example (x : Int) : let mem : Mem α := [⟨true, List.replicate 5 (.i x)⟩]
    InitI mem (0, 0) 3 ∧ InitI mem (0, 1) 3 ∧ Room mem (0, 2) 3 :=
  ⟨.replicate (by decide), .replicate (by decide), .replicate (by decide)⟩

theorem C56_any_ivec3_minv {mem : Mem α} {aP bP destP : Ptr} (h_a : InitI mem aP 3) (h_b : InitI mem bP 3) (r_dest : Room mem destP 3) :
    SafeMem mem [(destP, 3)] .void CI.glm_ivec3_minv [aP.val, bP.val, destP.val] :=
  isafe_entry LibI.glm_ivec3_minv_ok [.inp aP 3, .inp bP 3, .out destP 3] ⟨⟨initK_isI.mpr h_a, by decide⟩, ⟨initK_isI.mpr h_b, by decide⟩, ⟨r_dest, by decide⟩, trivial⟩ rfl
example (x : Int) : let mem : Mem α := [⟨true, List.replicate 5 (.i x)⟩]
    InitI mem (0, 0) 3 ∧ InitI mem (0, 1) 3 ∧ Room mem (0, 2) 3 :=
  ⟨.replicate (by decide), .replicate (by decide), .replicate (by decide)⟩

theorem C56_any_ivec3_clamp {mem : Mem α} {vP : Ptr} (minVal : Int32) (maxVal : Int32) (h_v : InitI mem vP 3) (r_v : Room mem vP 3) :
    SafeMem mem [(vP, 3)] .void CI.glm_ivec3_clamp [vP.val, .i minVal.toInt, .i maxVal.toInt] :=
  isafe_entry LibI.glm_ivec3_clamp_ok [.io vP 3, .i minVal.toInt, .i maxVal.toInt] ⟨⟨initK_isI.mpr h_v, r_v, by decide⟩, trivial, trivial, trivial⟩ rfl
example (x : Int) : let mem : Mem α := [⟨true, List.replicate 3 (.i x)⟩]
    InitI mem (0, 0) 3 ∧ Room mem (0, 0) 3 :=
  ⟨.replicate (by decide), .replicate (by decide)⟩

theorem C56_any_ivec3_abs {mem : Mem α} {vP destP : Ptr} (h_v : InitI mem vP 3) (r_dest : Room mem destP 3) :
    SafeMem mem [(destP, 3)] .void CI.glm_ivec3_abs [vP.val, destP.val] :=
  isafe_entry LibI.glm_ivec3_abs_ok [.inp vP 3, .out destP 3] ⟨⟨initK_isI.mpr h_v, by decide⟩, ⟨r_dest, by decide⟩, trivial⟩ rfl
example (x : Int) : let mem : Mem α := [⟨true, List.replicate 4 (.i x)⟩]
    InitI mem (0, 0) 3 ∧ Room mem (0, 1) 3 :=
  ⟨.replicate (by decide), .replicate (by decide)⟩

/-! ## include/cglm/ivec4.h -/

theorem C56_any_ivec4 {mem : Mem α} {v3P destP : Ptr} (last : Int32) (h_v3 : InitI mem v3P 3) (r_dest : Room mem destP 4) :
    SafeMem mem [(destP, 4)] .void CI.glm_ivec4 [v3P.val, .i last.toInt, destP.val] :=
  isafe_entry LibI.glm_ivec4_ok [.inp v3P 3, .i last.toInt, .out destP 4] ⟨⟨initK_isI.mpr h_v3, by decide⟩, trivial, ⟨r_dest, by decide⟩, trivial⟩ rfl
example (x : Int) : let mem : Mem α := [⟨true, List.replicate 5 (.i x)⟩]
    InitI mem (0, 0) 3 ∧ Room mem (0, 1) 4 :=
  ⟨.replicate (by decide), .replicate (by decide)⟩

theorem C56_any_ivec4_copy {mem : Mem α} {aP destP : Ptr} (h_a : InitI mem aP 4) (r_dest : Room mem destP 4) :
    SafeMem mem [(destP, 4)] .void CI.glm_ivec4_copy [aP.val, destP.val] :=
  isafe_entry LibI.glm_ivec4_copy_ok [.inp aP 4, .out destP 4] ⟨⟨initK_isI.mpr h_a, by decide⟩, ⟨r_dest, by decide⟩, trivial⟩ rfl
example (x : Int) : let mem : Mem α := [⟨true, List.replicate 5 (.i x)⟩]
    InitI mem (0, 0) 4 ∧ Room mem (0, 1) 4 :=
  ⟨.replicate (by decide), .replicate (by decide)⟩

theorem C56_any_ivec4_zero {mem : Mem α} {vP : Ptr} (r_v : Room mem vP 4) :
    SafeMem mem [(vP, 4)] .void CI.glm_ivec4_zero [vP.val] :=
  isafe_entry LibI.glm_ivec4_zero_ok [.out vP 4] ⟨⟨r_v, by decide⟩, trivial⟩ rfl
example (x : Int) : let mem : Mem α := [⟨true, List.replicate 4 (.i x)⟩]
    Room mem (0, 0) 4 :=
  .replicate (by decide)

theorem C56_any_ivec4_one {mem : Mem α} {vP : Ptr} (r_v : Room mem vP 4) :
    SafeMem mem [(vP, 4)] .void CI.glm_ivec4_one [vP.val] :=
  isafe_entry LibI.glm_ivec4_one_ok [.out vP 4] ⟨⟨r_v, by decide⟩, trivial⟩ rfl
example (x : Int) : let mem : Mem α := [⟨true, List.replicate 4 (.i x)⟩]
    Room mem (0, 0) 4 :=
  .replicate (by decide)

theorem C56_any_ivec4_add {mem : Mem α} {aP bP destP : Ptr} (h_a : InitI mem aP 4) (h_b : InitI mem bP 4) (r_dest : Room mem destP 4) :
    SafeMem mem [(destP, 4)] .void CI.glm_ivec4_add [aP.val, bP.val, destP.val] :=
  isafe_entry LibI.glm_ivec4_add_ok [.inp aP 4, .inp bP 4, .out destP 4] ⟨⟨initK_isI.mpr h_a, by decide⟩, ⟨initK_isI.mpr h_b, by decide⟩, ⟨r_dest, by decide⟩, trivial⟩ rfl
example (x : Int) : let mem : Mem α := [⟨true, List.replicate 6 (.i x)⟩]
    InitI mem (0, 0) 4 ∧ InitI mem (0, 1) 4 ∧ Room mem (0, 2) 4 :=
  ⟨.replicate (by decide), .replicate (by decide), .replicate (by decide)⟩

theorem C56_any_ivec4_adds {mem : Mem α} {vP destP : Ptr} (s : Int32) (h_v : InitI mem vP 4) (r_dest : Room mem destP 4) :
    SafeMem mem [(destP, 4)] .void CI.glm_ivec4_adds [vP.val, .i s.toInt, destP.val] :=
  isafe_entry LibI.glm_ivec4_adds_ok [.inp vP 4, .i s.toInt, .out destP 4] ⟨⟨initK_isI.mpr h_v, by decide⟩, trivial, ⟨r_dest, by decide⟩, trivial⟩ rfl
example (x : Int) : let mem : Mem α := [⟨true, List.replicate 5 (.i x)⟩]
    InitI mem (0, 0) 4 ∧ Room mem (0, 1) 4 :=
  ⟨.replicate (by decide), .replicate (by decide)⟩

theorem C56_any_ivec4_sub {mem : Mem α} {aP bP destP : Ptr} (h_a : InitI mem aP 4) (h_b : InitI mem bP 4) (r_dest : Room mem destP 4) :
    SafeMem mem [(destP, 4)] .void CI.glm_ivec4_sub [aP.val, bP.val, destP.val] :=
  isafe_entry LibI.glm_ivec4_sub_ok [.inp aP 4, .inp bP 4, .out destP 4] ⟨⟨initK_isI.mpr h_a, by decide⟩, ⟨initK_isI.mpr h_b, by decide⟩, ⟨r_dest, by decide⟩, trivial⟩ rfl
example (x : Int) : let mem : Mem α := [⟨true, List.replicate 6 (.i x)⟩]
    InitI mem (0, 0) 4 ∧ InitI mem (0, 1) 4 ∧ Room mem (0, 2) 4 :=
  ⟨.replicate (by decide), .replicate (by decide), .replicate (by decide)⟩

theorem C56_any_ivec4_subs {mem : Mem α} {vP destP : Ptr} (s : Int32) (h_v : InitI mem vP 4) (r_dest : Room mem destP 4) :
    SafeMem mem [(destP, 4)] .void CI.glm_ivec4_subs [vP.val, .i s.toInt, destP.val] :=
  isafe_entry LibI.glm_ivec4_subs_ok [.inp vP 4, .i s.toInt, .out destP 4] ⟨⟨initK_isI.mpr h_v, by decide⟩, trivial, ⟨r_dest, by decide⟩, trivial⟩ rfl
example (x : Int) : let mem : Mem α := [⟨true, List.replicate 5 (.i x)⟩]
    InitI mem (0, 0) 4 ∧ Room mem (0, 1) 4 :=
  ⟨.replicate (by decide), .replicate (by decide)⟩

theorem C56_any_ivec4_mul {mem : Mem α} {aP bP destP : Ptr} (h_a : InitI mem aP 4) (h_b : InitI mem bP 4) (r_dest : Room mem destP 4) :
    SafeMem mem [(destP, 4)] .void CI.glm_ivec4_mul [aP.val, bP.val, destP.val] :=
  isafe_entry LibI.glm_ivec4_mul_ok [.inp aP 4, .inp bP 4, .out destP 4] ⟨⟨initK_isI.mpr h_a, by decide⟩, ⟨initK_isI.mpr h_b, by decide⟩, ⟨r_dest, by decide⟩, trivial⟩ rfl
example (x : Int) : let mem : Mem α := [⟨true, List.replicate 6 (.i x)⟩]
    InitI mem (0, 0) 4 ∧ InitI mem (0, 1) 4 ∧ Room mem (0, 2) 4 :=
  ⟨.replicate (by decide), .replicate (by decide), .replicate (by decide)⟩

theorem C56_any_ivec4_scale {mem : Mem α} {vP destP : Ptr} (s : Int32) (h_v : InitI mem vP 4) (r_dest : Room mem destP 4) :
    SafeMem mem [(destP, 4)] .void CI.glm_ivec4_scale [vP.val, .i s.toInt, destP.val] :=
  isafe_entry LibI.glm_ivec4_scale_ok [.inp vP 4, .i s.toInt, .out destP 4] ⟨⟨initK_isI.mpr h_v, by decide⟩, trivial, ⟨r_dest, by decide⟩, trivial⟩ rfl
example (x : Int) : let mem : Mem α := [⟨true, List.replicate 5 (.i x)⟩]
    InitI mem (0, 0) 4 ∧ Room mem (0, 1) 4 :=
  ⟨.replicate (by decide), .replicate (by decide)⟩

theorem C56_any_ivec4_addadd {mem : Mem α} {aP bP destP : Ptr} (h_a : InitI mem aP 4) (h_b : InitI mem bP 4) (h_dest : InitI mem destP 4) (r_dest : Room mem destP 4) :
    SafeMem mem [(destP, 4)] .void CI.glm_ivec4_addadd [aP.val, bP.val, destP.val] :=
  isafe_entry LibI.glm_ivec4_addadd_ok [.inp aP 4, .inp bP 4, .io destP 4] ⟨⟨initK_isI.mpr h_a, by decide⟩, ⟨initK_isI.mpr h_b, by decide⟩, ⟨initK_isI.mpr h_dest, r_dest, by decide⟩, trivial⟩ rfl
example (x : Int) : let mem : Mem α := [⟨true, List.replicate 6 (.i x)⟩]
    InitI mem (0, 0) 4 ∧ InitI mem (0, 1) 4 ∧ InitI mem (0, 2) 4 ∧ Room mem (0, 2) 4 :=
  ⟨.replicate (by decide), .replicate (by decide), .replicate (by decide), .replicate (by decide)⟩

theorem C56_any_ivec4_addadds {mem : Mem α} {aP destP : Ptr} (s : Int32) (h_a : InitI mem aP 4) (h_dest : InitI mem destP 4) (r_dest : Room mem destP 4) :
    SafeMem mem [(destP, 4)] .void CI.glm_ivec4_addadds [aP.val, .i s.toInt, destP.val] :=
  isafe_entry LibI.glm_ivec4_addadds_ok [.inp aP 4, .i s.toInt, .io destP 4] ⟨⟨initK_isI.mpr h_a, by decide⟩, trivial, ⟨initK_isI.mpr h_dest, r_dest, by decide⟩, trivial⟩ rfl
example (x : Int) : let mem : Mem α := [⟨true, List.replicate 5 (.i x)⟩]
    InitI mem (0, 0) 4 ∧ InitI mem (0, 1) 4 ∧ Room mem (0, 1) 4 :=
  ⟨.replicate (by decide), .replicate (by decide), .replicate (by decide)⟩

theorem C56_any_ivec4_subadd {mem : Mem α} {aP bP destP : Ptr} (h_a : InitI mem aP 4) (h_b : InitI mem bP 4) (h_dest : InitI mem destP 4) (r_dest : Room mem destP 4) :
    SafeMem mem [(destP, 4)] .void CI.glm_ivec4_subadd [aP.val, bP.val, destP.val] :=
  isafe_entry LibI.glm_ivec4_subadd_ok [.inp aP 4, .inp bP 4, .io destP 4] ⟨⟨initK_isI.mpr h_a, by decide⟩, ⟨initK_isI.mpr h_b, by decide⟩, ⟨initK_isI.mpr h_dest, r_dest, by decide⟩, trivial⟩ rfl
example (x : Int) : let mem : Mem α := [⟨true, List.replicate 6 (.i x)⟩]
    InitI mem (0, 0) 4 ∧ InitI mem (0, 1) 4 ∧ InitI mem (0, 2) 4 ∧ Room mem (0, 2) 4 :=
  ⟨.replicate (by decide), .replicate (by decide), .replicate (by decide), .replicate (by decide)⟩

theorem C56_any_ivec4_subadds {mem : Mem α} {aP destP : Ptr} (s : Int32) (h_a : InitI mem aP 4) (h_dest : InitI mem destP 4) (r_dest : Room mem destP 4) :
    SafeMem mem [(destP, 4)] .void CI.glm_ivec4_subadds [aP.val, .i s.toInt, destP.val] :=
  isafe_entry LibI.glm_ivec4_subadds_ok [.inp aP 4, .i s.toInt, .io destP 4] ⟨⟨initK_isI.mpr h_a, by decide⟩, trivial, ⟨initK_isI.mpr h_dest, r_dest, by decide⟩, trivial⟩ rfl
example (x : Int) : let mem : Mem α := [⟨true, List.replicate 5 (.i x)⟩]
    InitI mem (0, 0) 4 ∧ InitI mem (0, 1) 4 ∧ Room mem (0, 1) 4 :=
  ⟨.replicate (by decide), .replicate (by decide), .replicate (by decide)⟩

theorem C56_any_ivec4_muladd {mem : Mem α} {aP bP destP : Ptr} (h_a : InitI mem aP 4) (h_b : InitI mem bP 4) (h_dest : InitI mem destP 4) (r_dest : Room mem destP 4) :
    SafeMem mem [(destP, 4)] .void CI.glm_ivec4_muladd [aP.val, bP.val, destP.val] :=
  isafe_entry LibI.glm_ivec4_muladd_ok [.inp aP 4, .inp bP 4, .io destP 4] ⟨⟨initK_isI.mpr h_a, by decide⟩, ⟨initK_isI.mpr h_b, by decide⟩, ⟨initK_isI.mpr h_dest, r_dest, by decide⟩, trivial⟩ rfl
example (x : Int) : let mem : Mem α := [⟨true, List.replicate 6 (.i x)⟩]
    InitI mem (0, 0) 4 ∧ InitI mem (0, 1) 4 ∧ InitI mem (0, 2) 4 ∧ Room mem (0, 2) 4 :=
  ⟨.replicate (by decide), .replicate (by decide), .replicate (by decide), .replicate (by decide)⟩

theorem C56_any_ivec4_muladds {mem : Mem α} {aP destP : Ptr} (s : Int32) (h_a : InitI mem aP 4) (h_dest : InitI mem destP 4) (r_dest : Room mem destP 4) :
    SafeMem mem [(destP, 4)] .void CI.glm_ivec4_muladds [aP.val, .i s.toInt, destP.val] :=
  isafe_entry LibI.glm_ivec4_muladds_ok [.inp aP 4, .i s.toInt, .io destP 4] ⟨⟨initK_isI.mpr h_a, by decide⟩, trivial, ⟨initK_isI.mpr h_dest, r_dest, by decide⟩, trivial⟩ rfl
example (x : Int) : let mem : Mem α := [⟨true, List.replicate 5 (.i x)⟩]
    InitI mem (0, 0) 4 ∧ InitI mem (0, 1) 4 ∧ Room mem (0, 1) 4 :=
  ⟨.replicate (by decide), .replicate (by decide), .replicate (by decide)⟩

theorem C56_any_ivec4_maxadd {mem : Mem α} {aP bP destP : Ptr} (h_a : InitI mem aP 4) (h_b : InitI mem bP 4) (h_dest : InitI mem destP 4) (r_dest : Room mem destP 4) :
    SafeMem mem [(destP, 4)] .void CI.glm_ivec4_maxadd [aP.val, bP.val, destP.val] :=
  isafe_entry LibI.glm_ivec4_maxadd_ok [.inp aP 4, .inp bP 4, .io destP 4] ⟨⟨initK_isI.mpr h_a, by decide⟩, ⟨initK_isI.mpr h_b, by decide⟩, ⟨initK_isI.mpr h_dest, r_dest, by decide⟩, trivial⟩ rfl
example (x : Int) : let mem : Mem α := [⟨true, List.replicate 6 (.i x)⟩]
    InitI mem (0, 0) 4 ∧ InitI mem (0, 1) 4 ∧ InitI mem (0, 2) 4 ∧ Room mem (0, 2) 4 :=
  ⟨.replicate (by decide), .replicate (by decide), .replicate (by decide), .replicate (by decide)⟩

theorem C56_any_ivec4_minadd {mem : Mem α} {aP bP destP : Ptr} (h_a : InitI mem aP 4) (h_b : InitI mem bP 4) (h_dest : InitI mem destP 4) (r_dest : Room mem destP 4) :
    SafeMem mem [(destP, 4)] .void CI.glm_ivec4_minadd [aP.val, bP.val, destP.val] :=
  isafe_entry LibI.glm_ivec4_minadd_ok [.inp aP 4, .inp bP 4, .io destP 4] ⟨⟨initK_isI.mpr h_a, by decide⟩, ⟨initK_isI.mpr h_b, by decide⟩, ⟨initK_isI.mpr h_dest, r_dest, by decide⟩, trivial⟩ rfl
example (x : Int) : let mem : Mem α := [⟨true, List.replicate 6 (.i x)⟩]
    InitI mem (0, 0) 4 ∧ InitI mem (0, 1) 4 ∧ InitI mem (0, 2) 4 ∧ Room mem (0, 2) 4 :=
  ⟨.replicate (by decide), .replicate (by decide), .replicate (by decide), .replicate (by decide)⟩

theorem C56_any_ivec4_subsub {mem : Mem α} {aP bP destP : Ptr} (h_a : InitI mem aP 4) (h_b : InitI mem bP 4) (h_dest : InitI mem destP 4) (r_dest : Room mem destP 4) :
    SafeMem mem [(destP, 4)] .void CI.glm_ivec4_subsub [aP.val, bP.val, destP.val] :=
  isafe_entry LibI.glm_ivec4_subsub_ok [.inp aP 4, .inp bP 4, .io destP 4] ⟨⟨initK_isI.mpr h_a, by decide⟩, ⟨initK_isI.mpr h_b, by decide⟩, ⟨initK_isI.mpr h_dest, r_dest, by decide⟩, trivial⟩ rfl
example (x : Int) : let mem : Mem α := [⟨true, List.replicate 6 (.i x)⟩]
    InitI mem (0, 0) 4 ∧ InitI mem (0, 1) 4 ∧ InitI mem (0, 2) 4 ∧ Room mem (0, 2) 4 :=
  ⟨.replicate (by decide), .replicate (by decide), .replicate (by decide), .replicate (by decide)⟩

theorem C56_any_ivec4_subsubs {mem : Mem α} {aP destP : Ptr} (s : Int32) (h_a : InitI mem aP 4) (h_dest : InitI mem destP 4) (r_dest : Room mem destP 4) :
    SafeMem mem [(destP, 4)] .void CI.glm_ivec4_subsubs [aP.val, .i s.toInt, destP.val] :=
  isafe_entry LibI.glm_ivec4_subsubs_ok [.inp aP 4, .i s.toInt, .io destP 4] ⟨⟨initK_isI.mpr h_a, by decide⟩, trivial, ⟨initK_isI.mpr h_dest, r_dest, by decide⟩, trivial⟩ rfl
example (x : Int) : let mem : Mem α := [⟨true, List.replicate 5 (.i x)⟩]
    InitI mem (0, 0) 4 ∧ InitI mem (0, 1) 4 ∧ Room mem (0, 1) 4 :=
  ⟨.replicate (by decide), .replicate (by decide), .replicate (by decide)⟩

theorem C56_any_ivec4_addsub {mem : Mem α} {aP bP destP : Ptr} (h_a : InitI mem aP 4) (h_b : InitI mem bP 4) (h_dest : InitI mem destP 4) (r_dest : Room mem destP 4) :
    SafeMem mem [(destP, 4)] .void CI.glm_ivec4_addsub [aP.val, bP.val, destP.val] :=
  isafe_entry LibI.glm_ivec4_addsub_ok [.inp aP 4, .inp bP 4, .io destP 4] ⟨⟨initK_isI.mpr h_a, by decide⟩, ⟨initK_isI.mpr h_b, by decide⟩, ⟨initK_isI.mpr h_dest, r_dest, by decide⟩, trivial⟩ rfl
example (x : Int) : let mem : Mem α := [⟨true, List.replicate 6 (.i x)⟩]
    InitI mem (0, 0) 4 ∧ InitI mem (0, 1) 4 ∧ InitI mem (0, 2) 4 ∧ Room mem (0, 2) 4 :=
  ⟨.replicate (by decide), .replicate (by decide), .replicate (by decide), .replicate (by decide)⟩

theorem C56_any_ivec4_addsubs {mem : Mem α} {aP destP : Ptr} (s : Int32) (h_a : InitI mem aP 4) (h_dest : InitI mem destP 4) (r_dest : Room mem destP 4) :
    SafeMem mem [(destP, 4)] .void CI.glm_ivec4_addsubs [aP.val, .i s.toInt, destP.val] :=
  isafe_entry LibI.glm_ivec4_addsubs_ok [.inp aP 4, .i s.toInt, .io destP 4] ⟨⟨initK_isI.mpr h_a, by decide⟩, trivial, ⟨initK_isI.mpr h_dest, r_dest, by decide⟩, trivial⟩ rfl
example (x : Int) : let mem : Mem α := [⟨true, List.replicate 5 (.i x)⟩]
    InitI mem (0, 0) 4 ∧ InitI mem (0, 1) 4 ∧ Room mem (0, 1) 4 :=
  ⟨.replicate (by decide), .replicate (by decide), .replicate (by decide)⟩

theorem C56_any_ivec4_mulsub {mem : Mem α} {aP bP destP : Ptr} (h_a : InitI mem aP 4) (h_b : InitI mem bP 4) (h_dest : InitI mem destP 4) (r_dest : Room mem destP 4) :
    SafeMem mem [(destP, 4)] .void CI.glm_ivec4_mulsub [aP.val, bP.val, destP.val] :=
  isafe_entry LibI.glm_ivec4_mulsub_ok [.inp aP 4, .inp bP 4, .io destP 4] ⟨⟨initK_isI.mpr h_a, by decide⟩, ⟨initK_isI.mpr h_b, by decide⟩, ⟨initK_isI.mpr h_dest, r_dest, by decide⟩, trivial⟩ rfl
example (x : Int) : let mem : Mem α := [⟨true, List.replicate 6 (.i x)⟩]
    InitI mem (0, 0) 4 ∧ InitI mem (0, 1) 4 ∧ InitI mem (0, 2) 4 ∧ Room mem (0, 2) 4 :=
  ⟨.replicate (by decide), .replicate (by decide), .replicate (by decide), .replicate (by decide)⟩

theorem C56_any_ivec4_mulsubs {mem : Mem α} {aP destP : Ptr} (s : Int32) (h_a : InitI mem aP 4) (h_dest : InitI mem destP 4) (r_dest : Room mem destP 4) :
    SafeMem mem [(destP, 4)] .void CI.glm_ivec4_mulsubs [aP.val, .i s.toInt, destP.val] :=
  isafe_entry LibI.glm_ivec4_mulsubs_ok [.inp aP 4, .i s.toInt, .io destP 4] ⟨⟨initK_isI.mpr h_a, by decide⟩, trivial, ⟨initK_isI.mpr h_dest, r_dest, by decide⟩, trivial⟩ rfl
example (x : Int) : let mem : Mem α := [⟨true, List.replicate 5 (.i x)⟩]
    InitI mem (0, 0) 4 ∧ InitI mem (0, 1) 4 ∧ Room mem (0, 1) 4 :=
  ⟨.replicate (by decide), .replicate (by decide), .replicate (by decide)⟩

theorem C56_any_ivec4_maxsub {mem : Mem α} {aP bP destP : Ptr} (h_a : InitI mem aP 4) (h_b : InitI mem bP 4) (h_dest : InitI mem destP 4) (r_dest : Room mem destP 4) :
    SafeMem mem [(destP, 4)] .void CI.glm_ivec4_maxsub [aP.val, bP.val, destP.val] :=
  isafe_entry LibI.glm_ivec4_maxsub_ok [.inp aP 4, .inp bP 4, .io destP 4] ⟨⟨initK_isI.mpr h_a, by decide⟩, ⟨initK_isI.mpr h_b, by decide⟩, ⟨initK_isI.mpr h_dest, r_dest, by decide⟩, trivial⟩ rfl
example (x : Int) : let mem : Mem α := [⟨true, List.replicate 6 (.i x)⟩]
    InitI mem (0, 0) 4 ∧ InitI mem (0, 1) 4 ∧ InitI mem (0, 2) 4 ∧ Room mem (0, 2) 4 :=
  ⟨.replicate (by decide), .replicate (by decide), .replicate (by decide), .replicate (by decide)⟩

theorem C56_any_ivec4_minsub {mem : Mem α} {aP bP destP : Ptr} (h_a : InitI mem aP 4) (h_b : InitI mem bP 4) (h_dest : InitI mem destP 4) (r_dest : Room mem destP 4) :
    SafeMem mem [(destP, 4)] .void CI.glm_ivec4_minsub [aP.val, bP.val, destP.val] :=
  isafe_entry LibI.glm_ivec4_minsub_ok [.inp aP 4, .inp bP 4, .io destP 4] ⟨⟨initK_isI.mpr h_a, by decide⟩, ⟨initK_isI.mpr h_b, by decide⟩, ⟨initK_isI.mpr h_dest, r_dest, by decide⟩, trivial⟩ rfl
example (x : Int) : let mem : Mem α := [⟨true, List.replicate 6 (.i x)⟩]
    InitI mem (0, 0) 4 ∧ InitI mem (0, 1) 4 ∧ InitI mem (0, 2) 4 ∧ Room mem (0, 2) 4 :=
  ⟨.replicate (by decide), .replicate (by decide), .replicate (by decide), .replicate (by decide)⟩

theorem C56_any_ivec4_distance2 {mem : Mem α} {aP bP : Ptr} (h_a : InitI mem aP 4) (h_b : InitI mem bP 4) :
    SafeMem mem [] .int CI.glm_ivec4_distance2 [aP.val, bP.val] :=
  isafe_entry LibI.glm_ivec4_distance2_ok [.inp aP 4, .inp bP 4] ⟨⟨initK_isI.mpr h_a, by decide⟩, ⟨initK_isI.mpr h_b, by decide⟩, trivial⟩ rfl
example (x : Int) : let mem : Mem α := [⟨true, List.replicate 5 (.i x)⟩]
    InitI mem (0, 0) 4 ∧ InitI mem (0, 1) 4 :=
  ⟨.replicate (by decide), .replicate (by decide)⟩

theorem C56_any_ivec4_distance {mem : Mem α} {aP bP : Ptr} (h_a : InitI mem aP 4) (h_b : InitI mem bP 4) :
    SafeMem mem [] .float CI.glm_ivec4_distance [aP.val, bP.val] :=
  isafe_entry LibI.glm_ivec4_distance_ok [.inp aP 4, .inp bP 4] ⟨⟨initK_isI.mpr h_a, by decide⟩, ⟨initK_isI.mpr h_b, by decide⟩, trivial⟩ rfl
example (x : Int) : let mem : Mem α := [⟨true, List.replicate 5 (.i x)⟩]
    InitI mem (0, 0) 4 ∧ InitI mem (0, 1) 4 :=
  ⟨.replicate (by decide), .replicate (by decide)⟩

theorem C56_any_ivec4_maxv {mem : Mem α} {aP bP destP : Ptr} (h_a : InitI mem aP 4) (h_b : InitI mem bP 4) (r_dest : Room mem destP 4) :
    SafeMem mem [(destP, 4)] .void CI.glm_ivec4_maxv [aP.val, bP.val, destP.val] :=
  isafe_entry LibI.glm_ivec4_maxv_ok [.inp aP 4, .inp bP 4, .out destP 4] ⟨⟨initK_isI.mpr h_a, by decide⟩, ⟨initK_isI.mpr h_b, by decide⟩, ⟨r_dest, by decide⟩, trivial⟩ rfl
example (x : Int) : let mem : Mem α := [⟨true, List.replicate 6 (.i x)⟩]
    InitI mem (0, 0) 4 ∧ InitI mem (0, 1) 4 ∧ Room mem (0, 2) 4 :=
  ⟨.replicate (by decide), .replicate (by decide), .replicate (by decide)⟩

theorem C56_any_ivec4_minv {mem : Mem α} {aP bP destP : Ptr} (h_a : InitI mem aP 4) (h_b : InitI mem bP 4) (r_dest : Room mem destP 4) :
    SafeMem mem [(destP, 4)] .void CI.glm_ivec4_minv [aP.val, bP.val, destP.val] :=
  isafe_entry LibI.glm_ivec4_minv_ok [.inp aP 4, .inp bP 4, .out destP 4] ⟨⟨initK_isI.mpr h_a, by decide⟩, ⟨initK_isI.mpr h_b, by decide⟩, ⟨r_dest, by decide⟩, trivial⟩ rfl
example (x : Int) : let mem : Mem α := [⟨true, List.replicate 6 (.i x)⟩]
    InitI mem (0, 0) 4 ∧ InitI mem (0, 1) 4 ∧ Room mem (0, 2) 4 :=
  ⟨.replicate (by decide), .replicate (by decide), .replicate (by decide)⟩

theorem C56_any_ivec4_clamp {mem : Mem α} {vP : Ptr} (minVal : Int32) (maxVal : Int32) (h_v : InitI mem vP 4) (r_v : Room mem vP 4) :
    SafeMem mem [(vP, 4)] .void CI.glm_ivec4_clamp [vP.val, .i minVal.toInt, .i maxVal.toInt] :=
  isafe_entry LibI.glm_ivec4_clamp_ok [.io vP 4, .i minVal.toInt, .i maxVal.toInt] ⟨⟨initK_isI.mpr h_v, r_v, by decide⟩, trivial, trivial, trivial⟩ rfl
example (x : Int) : let mem : Mem α := [⟨true, List.replicate 4 (.i x)⟩]
    InitI mem (0, 0) 4 ∧ Room mem (0, 0) 4 :=
  ⟨.replicate (by decide), .replicate (by decide)⟩

theorem C56_any_ivec4_abs {mem : Mem α} {vP destP : Ptr} (h_v : InitI mem vP 4) (r_dest : Room mem destP 4) :
    SafeMem mem [(destP, 4)] .void CI.glm_ivec4_abs [vP.val, destP.val] :=
  isafe_entry LibI.glm_ivec4_abs_ok [.inp vP 4, .out destP 4] ⟨⟨initK_isI.mpr h_v, by decide⟩, ⟨r_dest, by decide⟩, trivial⟩ rfl
example (x : Int) : let mem : Mem α := [⟨true, List.replicate 5 (.i x)⟩]
    InitI mem (0, 0) 4 ∧ Room mem (0, 1) 4 :=
  ⟨.replicate (by decide), .replicate (by decide)⟩

end Cglm
