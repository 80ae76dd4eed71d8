/- Generated by tools/partthms.py; do not edit by hand. -/
import Verif.CMemPart
import Verif.Lib.Clip
import Verif.Mem.AffinesRun

/-!
# C99: components that need not be initialised

`Part mem p l vs`: the array at `p` holds `vs`, but the cells in `l` may hold anything or nothing.  The call is defined and its
result is the value-level function of `vs`, whatever entries `vs` has at those cells.  Inputs and outputs may overlap as in C98.
-/

set_option linter.unusedVariables false
set_option linter.unusedSectionVars false

namespace Cglm
open CMem

variable {α : Type} [Add α] [Sub α] [Mul α] [Div α] [Neg α] [CFloat α]

theorem C99_persp_fovy {mem : Mem α} {projP : Ptr} {proj : M4 α} (h_proj : Part mem projP [0, 1, 2, 3, 4, 6, 7, 8, 9, 10, 11, 12, 13, 14, 15] proj.list) :
    C.glm_persp_fovy.run mem [projP.val] =
      some (some (.f (Cglm.glm_persp_fovy proj)), mem) :=
  transferPart0 (e := Lib.glm_persp_fovy) (u := [(0, [0, 1, 2, 3, 4, 6, 7, 8, 9, 10, 11, 12, 13, 14, 15])]) (by kernel_rfl) rfl ((RO.nil true _).addR h_proj.has) (.p rfl .nil) (glm_persp_fovy_run _) (DT.val_done _) rfl rfl rfl rfl
example (proj : M4 α) : let mem : Mem α := [⟨false, [.undef, .undef, .undef, .undef, .undef, .f proj.c1.y, .undef, .undef, .undef, .undef, .undef, .undef, .undef, .undef, .undef, .undef]⟩]
    Part mem (0, 0) [0, 1, 2, 3, 4, 6, 7, 8, 9, 10, 11, 12, 13, 14, 15] proj.list :=
  Part.within rfl rfl rfl

theorem C99_persp_aspect {mem : Mem α} {projP : Ptr} {proj : M4 α} (h_proj : Part mem projP [1, 2, 3, 4, 6, 7, 8, 9, 10, 11, 12, 13, 14, 15] proj.list) :
    C.glm_persp_aspect.run mem [projP.val] =
      some (some (.f (Cglm.glm_persp_aspect proj)), mem) :=
  transferPart0 (e := Lib.glm_persp_aspect) (u := [(0, [1, 2, 3, 4, 6, 7, 8, 9, 10, 11, 12, 13, 14, 15])]) (by kernel_rfl) rfl ((RO.nil true _).addR h_proj.has) (.p rfl .nil) (glm_persp_aspect_run _) (DT.val_done _) rfl rfl rfl rfl
example (proj : M4 α) : let mem : Mem α := [⟨false, [.f proj.c0.x, .undef, .undef, .undef, .undef, .f proj.c1.y, .undef, .undef, .undef, .undef, .undef, .undef, .undef, .undef, .undef, .undef]⟩]
    Part mem (0, 0) [1, 2, 3, 4, 6, 7, 8, 9, 10, 11, 12, 13, 14, 15] proj.list :=
  Part.within rfl rfl rfl

theorem C99_persp_decomp_lh_zo {mem : Mem α} {projP nearZP farZP topP bottomP leftP rightP : Ptr} {proj : M4 α} (h_proj : Part mem projP [1, 2, 3, 4, 6, 7, 11, 12, 13, 15] proj.list) (r_nearZ : Room mem nearZP 1) (r_farZ : Room mem farZP 1) (r_top : Room mem topP 1) (r_bottom : Room mem bottomP 1) (r_left : Room mem leftP 1) (r_right : Room mem rightP 1) (s_nearZ_farZ : Apart nearZP 1 farZP 1) (s_nearZ_top : Apart nearZP 1 topP 1) (s_nearZ_bottom : Apart nearZP 1 bottomP 1) (s_nearZ_left : Apart nearZP 1 leftP 1) (s_nearZ_right : Apart nearZP 1 rightP 1) (s_farZ_top : Apart farZP 1 topP 1) (s_farZ_bottom : Apart farZP 1 bottomP 1) (s_farZ_left : Apart farZP 1 leftP 1) (s_farZ_right : Apart farZP 1 rightP 1) (s_top_bottom : Apart topP 1 bottomP 1) (s_top_left : Apart topP 1 leftP 1) (s_top_right : Apart topP 1 rightP 1) (s_bottom_left : Apart bottomP 1 leftP 1) (s_bottom_right : Apart bottomP 1 rightP 1) (s_left_right : Apart leftP 1 rightP 1) :
    C.glm_persp_decomp_lh_zo.run mem [projP.val, nearZP.val, farZP.val, topP.val, bottomP.val, leftP.val, rightP.val] =
      some (none, writes mem [(nearZP, [(Cglm.glm_persp_decomp_lh_zo proj).1].map .f), (farZP, [(Cglm.glm_persp_decomp_lh_zo proj).2.1].map .f), (topP, [(Cglm.glm_persp_decomp_lh_zo proj).2.2.1].map .f), (bottomP, [(Cglm.glm_persp_decomp_lh_zo proj).2.2.2.1].map .f), (leftP, [(Cglm.glm_persp_decomp_lh_zo proj).2.2.2.2.1].map .f), (rightP, [(Cglm.glm_persp_decomp_lh_zo proj).2.2.2.2.2].map .f)]) :=
  transferPart (e := Lib.glm_persp_decomp_lh_zo) (l := []) (u := [(0, [1, 2, 3, 4, 6, 7, 11, 12, 13, 15])]) (by kernel_rfl) rfl ((((((((RO.nil true _).addW r_right.has r_right .nil).addW r_left.has r_left (.cons s_left_right .nil)).addW r_bottom.has r_bottom (.cons s_bottom_left (.cons s_bottom_right .nil))).addW r_top.has r_top (.cons s_top_bottom (.cons s_top_left (.cons s_top_right .nil)))).addW r_farZ.has r_farZ (.cons s_farZ_top (.cons s_farZ_bottom (.cons s_farZ_left (.cons s_farZ_right .nil))))).addW r_nearZ.has r_nearZ (.cons s_nearZ_farZ (.cons s_nearZ_top (.cons s_nearZ_bottom (.cons s_nearZ_left (.cons s_nearZ_right .nil)))))).addR h_proj.has) .nil (.p rfl (.p rfl (.p rfl (.p rfl (.p rfl (.p rfl (.p rfl .nil))))))) (glm_persp_decomp_lh_zo_run _) (DT.val_done _) rfl rfl rfl rfl
example (proj : M4 α) : let mem : Mem α := [⟨false, [.f proj.c0.x, .undef, .undef, .undef, .undef, .f proj.c1.y, .undef, .undef, .f proj.c2.x, .f proj.c2.y, .f proj.c2.z, .undef, .undef, .undef, .f proj.c3.z, .undef]⟩, ⟨true, List.replicate 1 .undef⟩, ⟨true, List.replicate 1 .undef⟩, ⟨true, List.replicate 1 .undef⟩, ⟨true, List.replicate 1 .undef⟩, ⟨true, List.replicate 1 .undef⟩, ⟨true, List.replicate 1 .undef⟩]
    Part mem (0, 0) [1, 2, 3, 4, 6, 7, 11, 12, 13, 15] proj.list ∧ Room mem (1, 0) 1 ∧ Room mem (2, 0) 1 ∧ Room mem (3, 0) 1 ∧ Room mem (4, 0) 1 ∧ Room mem (5, 0) 1 ∧ Room mem (6, 0) 1 ∧ Apart (1, 0) 1 (2, 0) 1 ∧ Apart (1, 0) 1 (3, 0) 1 ∧ Apart (1, 0) 1 (4, 0) 1 ∧ Apart (1, 0) 1 (5, 0) 1 ∧ Apart (1, 0) 1 (6, 0) 1 ∧ Apart (2, 0) 1 (3, 0) 1 ∧ Apart (2, 0) 1 (4, 0) 1 ∧ Apart (2, 0) 1 (5, 0) 1 ∧ Apart (2, 0) 1 (6, 0) 1 ∧ Apart (3, 0) 1 (4, 0) 1 ∧ Apart (3, 0) 1 (5, 0) 1 ∧ Apart (3, 0) 1 (6, 0) 1 ∧ Apart (4, 0) 1 (5, 0) 1 ∧ Apart (4, 0) 1 (6, 0) 1 ∧ Apart (5, 0) 1 (6, 0) 1 :=
  ⟨.within rfl rfl rfl, .within rfl rfl, .within rfl rfl, .within rfl rfl, .within rfl rfl, .within rfl rfl, .within rfl rfl, Or.inl (by decide), Or.inl (by decide), Or.inl (by decide), Or.inl (by decide), Or.inl (by decide), Or.inl (by decide), Or.inl (by decide), Or.inl (by decide), Or.inl (by decide), Or.inl (by decide), Or.inl (by decide), Or.inl (by decide), Or.inl (by decide), Or.inl (by decide), Or.inl (by decide)⟩

theorem C99_persp_decompv_lh_zo {mem : Mem α} {projP destP : Ptr} {proj : M4 α} (h_proj : Part mem projP [1, 2, 3, 4, 6, 7, 11, 12, 13, 15] proj.list) (r_dest : Room mem destP 6) :
    C.glm_persp_decompv_lh_zo.run mem [projP.val, destP.val] =
      some (none, writes mem [(destP, (Cglm.glm_persp_decompv_lh_zo proj).list.map .f)]) :=
  transferPart (e := Lib.glm_persp_decompv_lh_zo) (l := []) (u := [(0, [1, 2, 3, 4, 6, 7, 11, 12, 13, 15])]) (by kernel_rfl) rfl (((RO.nil true _).addW r_dest.has r_dest .nil).addR h_proj.has) .nil (.p rfl (.p rfl .nil)) (glm_persp_decompv_lh_zo_run _) (DT.val_done _) rfl rfl rfl rfl
example (proj : M4 α) : let mem : Mem α := [⟨false, [.f proj.c0.x, .undef, .undef, .undef, .undef, .f proj.c1.y, .undef, .undef, .f proj.c2.x, .f proj.c2.y, .f proj.c2.z, .undef, .undef, .undef, .f proj.c3.z, .undef]⟩, ⟨true, List.replicate 6 .undef⟩]
    Part mem (0, 0) [1, 2, 3, 4, 6, 7, 11, 12, 13, 15] proj.list ∧ Room mem (1, 0) 6 :=
  ⟨.within rfl rfl rfl, .within rfl rfl⟩

theorem C99_persp_decomp_x_lh_zo {mem : Mem α} {projP leftP rightP : Ptr} {proj : M4 α} (h_proj : Part mem projP [1, 2, 3, 4, 5, 6, 7, 9, 10, 11, 12, 13] proj.list) (r_left : Room mem leftP 1) (r_right : Room mem rightP 1) (s_left_right : Apart leftP 1 rightP 1) :
    C.glm_persp_decomp_x_lh_zo.run mem [projP.val, leftP.val, rightP.val] =
      some (none, writes mem [(leftP, [(Cglm.glm_persp_decomp_x_lh_zo proj).1].map .f), (rightP, [(Cglm.glm_persp_decomp_x_lh_zo proj).2].map .f)]) :=
  transferPart (e := Lib.glm_persp_decomp_x_lh_zo) (l := []) (u := [(0, [1, 2, 3, 4, 5, 6, 7, 9, 10, 11, 12, 13])]) (by kernel_rfl) rfl ((((RO.nil true _).addW r_right.has r_right .nil).addW r_left.has r_left (.cons s_left_right .nil)).addR h_proj.has) .nil (.p rfl (.p rfl (.p rfl .nil))) (glm_persp_decomp_x_lh_zo_run _) (DT.val_done _) rfl rfl rfl rfl
example (proj : M4 α) : let mem : Mem α := [⟨false, [.f proj.c0.x, .undef, .undef, .undef, .undef, .undef, .undef, .undef, .f proj.c2.x, .undef, .undef, .undef, .undef, .undef, .f proj.c3.z, .f proj.c3.w]⟩, ⟨true, List.replicate 1 .undef⟩, ⟨true, List.replicate 1 .undef⟩]
    Part mem (0, 0) [1, 2, 3, 4, 5, 6, 7, 9, 10, 11, 12, 13] proj.list ∧ Room mem (1, 0) 1 ∧ Room mem (2, 0) 1 ∧ Apart (1, 0) 1 (2, 0) 1 :=
  ⟨.within rfl rfl rfl, .within rfl rfl, .within rfl rfl, Or.inl (by decide)⟩

theorem C99_persp_decomp_y_lh_zo {mem : Mem α} {projP topP bottomP : Ptr} {proj : M4 α} (h_proj : Part mem projP [0, 1, 2, 3, 4, 6, 7, 8, 10, 11, 12, 13] proj.list) (r_top : Room mem topP 1) (r_bottom : Room mem bottomP 1) (s_top_bottom : Apart topP 1 bottomP 1) :
    C.glm_persp_decomp_y_lh_zo.run mem [projP.val, topP.val, bottomP.val] =
      some (none, writes mem [(topP, [(Cglm.glm_persp_decomp_y_lh_zo proj).1].map .f), (bottomP, [(Cglm.glm_persp_decomp_y_lh_zo proj).2].map .f)]) :=
  transferPart (e := Lib.glm_persp_decomp_y_lh_zo) (l := []) (u := [(0, [0, 1, 2, 3, 4, 6, 7, 8, 10, 11, 12, 13])]) (by kernel_rfl) rfl ((((RO.nil true _).addW r_bottom.has r_bottom .nil).addW r_top.has r_top (.cons s_top_bottom .nil)).addR h_proj.has) .nil (.p rfl (.p rfl (.p rfl .nil))) (glm_persp_decomp_y_lh_zo_run _) (DT.val_done _) rfl rfl rfl rfl
example (proj : M4 α) : let mem : Mem α := [⟨false, [.undef, .undef, .undef, .undef, .undef, .f proj.c1.y, .undef, .undef, .undef, .f proj.c2.y, .undef, .undef, .undef, .undef, .f proj.c3.z, .f proj.c3.w]⟩, ⟨true, List.replicate 1 .undef⟩, ⟨true, List.replicate 1 .undef⟩]
    Part mem (0, 0) [0, 1, 2, 3, 4, 6, 7, 8, 10, 11, 12, 13] proj.list ∧ Room mem (1, 0) 1 ∧ Room mem (2, 0) 1 ∧ Apart (1, 0) 1 (2, 0) 1 :=
  ⟨.within rfl rfl rfl, .within rfl rfl, .within rfl rfl, Or.inl (by decide)⟩

theorem C99_persp_decomp_z_lh_zo {mem : Mem α} {projP nearZP farZP : Ptr} {proj : M4 α} (h_proj : Part mem projP [0, 1, 2, 3, 4, 5, 6, 7, 8, 9, 11, 12, 13, 15] proj.list) (r_nearZ : Room mem nearZP 1) (r_farZ : Room mem farZP 1) (s_nearZ_farZ : Apart nearZP 1 farZP 1) :
    C.glm_persp_decomp_z_lh_zo.run mem [projP.val, nearZP.val, farZP.val] =
      some (none, writes mem [(nearZP, [(Cglm.glm_persp_decomp_z_lh_zo proj).1].map .f), (farZP, [(Cglm.glm_persp_decomp_z_lh_zo proj).2].map .f)]) :=
  transferPart (e := Lib.glm_persp_decomp_z_lh_zo) (l := []) (u := [(0, [0, 1, 2, 3, 4, 5, 6, 7, 8, 9, 11, 12, 13, 15])]) (by kernel_rfl) rfl ((((RO.nil true _).addW r_farZ.has r_farZ .nil).addW r_nearZ.has r_nearZ (.cons s_nearZ_farZ .nil)).addR h_proj.has) .nil (.p rfl (.p rfl (.p rfl .nil))) (glm_persp_decomp_z_lh_zo_run _) (DT.val_done _) rfl rfl rfl rfl
example (proj : M4 α) : let mem : Mem α := [⟨false, [.undef, .undef, .undef, .undef, .undef, .undef, .undef, .undef, .undef, .undef, .f proj.c2.z, .undef, .undef, .undef, .f proj.c3.z, .undef]⟩, ⟨true, List.replicate 1 .undef⟩, ⟨true, List.replicate 1 .undef⟩]
    Part mem (0, 0) [0, 1, 2, 3, 4, 5, 6, 7, 8, 9, 11, 12, 13, 15] proj.list ∧ Room mem (1, 0) 1 ∧ Room mem (2, 0) 1 ∧ Apart (1, 0) 1 (2, 0) 1 :=
  ⟨.within rfl rfl rfl, .within rfl rfl, .within rfl rfl, Or.inl (by decide)⟩

theorem C99_persp_decomp_far_lh_zo {mem : Mem α} {projP farZP : Ptr} {proj : M4 α} (h_proj : Part mem projP [0, 1, 2, 3, 4, 5, 6, 7, 8, 9, 11, 12, 13, 15] proj.list) (r_farZ : Room mem farZP 1) :
    C.glm_persp_decomp_far_lh_zo.run mem [projP.val, farZP.val] =
      some (none, writes mem [(farZP, [(Cglm.glm_persp_decomp_far_lh_zo proj)].map .f)]) :=
  transferPart (e := Lib.glm_persp_decomp_far_lh_zo) (l := []) (u := [(0, [0, 1, 2, 3, 4, 5, 6, 7, 8, 9, 11, 12, 13, 15])]) (by kernel_rfl) rfl (((RO.nil true _).addW r_farZ.has r_farZ .nil).addR h_proj.has) .nil (.p rfl (.p rfl .nil)) (glm_persp_decomp_far_lh_zo_run _) (DT.val_done _) rfl rfl rfl rfl
example (proj : M4 α) : let mem : Mem α := [⟨false, [.undef, .undef, .undef, .undef, .undef, .undef, .undef, .undef, .undef, .undef, .f proj.c2.z, .undef, .undef, .undef, .f proj.c3.z, .undef]⟩, ⟨true, List.replicate 1 .undef⟩]
    Part mem (0, 0) [0, 1, 2, 3, 4, 5, 6, 7, 8, 9, 11, 12, 13, 15] proj.list ∧ Room mem (1, 0) 1 :=
  ⟨.within rfl rfl rfl, .within rfl rfl⟩

theorem C99_persp_decomp_near_lh_zo {mem : Mem α} {projP nearZP : Ptr} {proj : M4 α} (h_proj : Part mem projP [0, 1, 2, 3, 4, 5, 6, 7, 8, 9, 11, 12, 13, 15] proj.list) (r_nearZ : Room mem nearZP 1) :
    C.glm_persp_decomp_near_lh_zo.run mem [projP.val, nearZP.val] =
      some (none, writes mem [(nearZP, [(Cglm.glm_persp_decomp_near_lh_zo proj)].map .f)]) :=
  transferPart (e := Lib.glm_persp_decomp_near_lh_zo) (l := []) (u := [(0, [0, 1, 2, 3, 4, 5, 6, 7, 8, 9, 11, 12, 13, 15])]) (by kernel_rfl) rfl (((RO.nil true _).addW r_nearZ.has r_nearZ .nil).addR h_proj.has) .nil (.p rfl (.p rfl .nil)) (glm_persp_decomp_near_lh_zo_run _) (DT.val_done _) rfl rfl rfl rfl
example (proj : M4 α) : let mem : Mem α := [⟨false, [.undef, .undef, .undef, .undef, .undef, .undef, .undef, .undef, .undef, .undef, .f proj.c2.z, .undef, .undef, .undef, .f proj.c3.z, .undef]⟩, ⟨true, List.replicate 1 .undef⟩]
    Part mem (0, 0) [0, 1, 2, 3, 4, 5, 6, 7, 8, 9, 11, 12, 13, 15] proj.list ∧ Room mem (1, 0) 1 :=
  ⟨.within rfl rfl rfl, .within rfl rfl⟩

theorem C99_persp_sizes_lh_zo {mem : Mem α} {projP destP : Ptr} {proj : M4 α} (fovy : α) (h_proj : Part mem projP [1, 2, 3, 4, 6, 7, 8, 9, 11, 12, 13, 15] proj.list) (r_dest : Room mem destP 4) :
    C.glm_persp_sizes_lh_zo.run mem [projP.val, .f fovy, destP.val] =
      some (none, writes mem [(destP, (Cglm.glm_persp_sizes_lh_zo proj fovy).list.map .f)]) :=
  transferPart (e := Lib.glm_persp_sizes_lh_zo) (l := []) (u := [(0, [1, 2, 3, 4, 6, 7, 8, 9, 11, 12, 13, 15])]) (by kernel_rfl) rfl (((RO.nil true _).addW r_dest.has r_dest .nil).addR h_proj.has) .nil (.p rfl (.f (.p rfl .nil))) (glm_persp_sizes_lh_zo_run _ _) (DT.val_done _) rfl rfl rfl rfl
example (proj : M4 α) : let mem : Mem α := [⟨false, [.f proj.c0.x, .undef, .undef, .undef, .undef, .f proj.c1.y, .undef, .undef, .undef, .undef, .f proj.c2.z, .undef, .undef, .undef, .f proj.c3.z, .undef]⟩, ⟨true, List.replicate 4 .undef⟩]
    Part mem (0, 0) [1, 2, 3, 4, 6, 7, 8, 9, 11, 12, 13, 15] proj.list ∧ Room mem (1, 0) 4 :=
  ⟨.within rfl rfl rfl, .within rfl rfl⟩

theorem C99_persp_fovy_lh_zo {mem : Mem α} {projP : Ptr} {proj : M4 α} (h_proj : Part mem projP [0, 1, 2, 3, 4, 6, 7, 8, 9, 10, 11, 12, 13, 14, 15] proj.list) :
    C.glm_persp_fovy_lh_zo.run mem [projP.val] =
      some (some (.f (Cglm.glm_persp_fovy_lh_zo proj)), mem) :=
  transferPart0 (e := Lib.glm_persp_fovy_lh_zo) (u := [(0, [0, 1, 2, 3, 4, 6, 7, 8, 9, 10, 11, 12, 13, 14, 15])]) (by kernel_rfl) rfl ((RO.nil true _).addR h_proj.has) (.p rfl .nil) (glm_persp_fovy_lh_zo_run _) (DT.val_done _) rfl rfl rfl rfl
example (proj : M4 α) : let mem : Mem α := [⟨false, [.undef, .undef, .undef, .undef, .undef, .f proj.c1.y, .undef, .undef, .undef, .undef, .undef, .undef, .undef, .undef, .undef, .undef]⟩]
    Part mem (0, 0) [0, 1, 2, 3, 4, 6, 7, 8, 9, 10, 11, 12, 13, 14, 15] proj.list :=
  Part.within rfl rfl rfl

theorem C99_persp_aspect_lh_zo {mem : Mem α} {projP : Ptr} {proj : M4 α} (h_proj : Part mem projP [1, 2, 3, 4, 6, 7, 8, 9, 10, 11, 12, 13, 14, 15] proj.list) :
    C.glm_persp_aspect_lh_zo.run mem [projP.val] =
      some (some (.f (Cglm.glm_persp_aspect_lh_zo proj)), mem) :=
  transferPart0 (e := Lib.glm_persp_aspect_lh_zo) (u := [(0, [1, 2, 3, 4, 6, 7, 8, 9, 10, 11, 12, 13, 14, 15])]) (by kernel_rfl) rfl ((RO.nil true _).addR h_proj.has) (.p rfl .nil) (glm_persp_aspect_lh_zo_run _) (DT.val_done _) rfl rfl rfl rfl
example (proj : M4 α) : let mem : Mem α := [⟨false, [.f proj.c0.x, .undef, .undef, .undef, .undef, .f proj.c1.y, .undef, .undef, .undef, .undef, .undef, .undef, .undef, .undef, .undef, .undef]⟩]
    Part mem (0, 0) [1, 2, 3, 4, 6, 7, 8, 9, 10, 11, 12, 13, 14, 15] proj.list :=
  Part.within rfl rfl rfl

theorem C99_persp_decomp_lh_no {mem : Mem α} {projP nearZP farZP topP bottomP leftP rightP : Ptr} {proj : M4 α} (h_proj : Part mem projP [1, 2, 3, 4, 6, 7, 11, 12, 13, 15] proj.list) (r_nearZ : Room mem nearZP 1) (r_farZ : Room mem farZP 1) (r_top : Room mem topP 1) (r_bottom : Room mem bottomP 1) (r_left : Room mem leftP 1) (r_right : Room mem rightP 1) (s_nearZ_farZ : Apart nearZP 1 farZP 1) (s_nearZ_top : Apart nearZP 1 topP 1) (s_nearZ_bottom : Apart nearZP 1 bottomP 1) (s_nearZ_left : Apart nearZP 1 leftP 1) (s_nearZ_right : Apart nearZP 1 rightP 1) (s_farZ_top : Apart farZP 1 topP 1) (s_farZ_bottom : Apart farZP 1 bottomP 1) (s_farZ_left : Apart farZP 1 leftP 1) (s_farZ_right : Apart farZP 1 rightP 1) (s_top_bottom : Apart topP 1 bottomP 1) (s_top_left : Apart topP 1 leftP 1) (s_top_right : Apart topP 1 rightP 1) (s_bottom_left : Apart bottomP 1 leftP 1) (s_bottom_right : Apart bottomP 1 rightP 1) (s_left_right : Apart leftP 1 rightP 1) :
    C.glm_persp_decomp_lh_no.run mem [projP.val, nearZP.val, farZP.val, topP.val, bottomP.val, leftP.val, rightP.val] =
      some (none, writes mem [(nearZP, [(Cglm.glm_persp_decomp_lh_no proj).1].map .f), (farZP, [(Cglm.glm_persp_decomp_lh_no proj).2.1].map .f), (topP, [(Cglm.glm_persp_decomp_lh_no proj).2.2.1].map .f), (bottomP, [(Cglm.glm_persp_decomp_lh_no proj).2.2.2.1].map .f), (leftP, [(Cglm.glm_persp_decomp_lh_no proj).2.2.2.2.1].map .f), (rightP, [(Cglm.glm_persp_decomp_lh_no proj).2.2.2.2.2].map .f)]) :=
  transferPart (e := Lib.glm_persp_decomp_lh_no) (l := []) (u := [(0, [1, 2, 3, 4, 6, 7, 11, 12, 13, 15])]) (by kernel_rfl) rfl ((((((((RO.nil true _).addW r_right.has r_right .nil).addW r_left.has r_left (.cons s_left_right .nil)).addW r_bottom.has r_bottom (.cons s_bottom_left (.cons s_bottom_right .nil))).addW r_top.has r_top (.cons s_top_bottom (.cons s_top_left (.cons s_top_right .nil)))).addW r_farZ.has r_farZ (.cons s_farZ_top (.cons s_farZ_bottom (.cons s_farZ_left (.cons s_farZ_right .nil))))).addW r_nearZ.has r_nearZ (.cons s_nearZ_farZ (.cons s_nearZ_top (.cons s_nearZ_bottom (.cons s_nearZ_left (.cons s_nearZ_right .nil)))))).addR h_proj.has) .nil (.p rfl (.p rfl (.p rfl (.p rfl (.p rfl (.p rfl (.p rfl .nil))))))) (glm_persp_decomp_lh_no_run _) (DT.val_done _) rfl rfl rfl rfl
example (proj : M4 α) : let mem : Mem α := [⟨false, [.f proj.c0.x, .undef, .undef, .undef, .undef, .f proj.c1.y, .undef, .undef, .f proj.c2.x, .f proj.c2.y, .f proj.c2.z, .undef, .undef, .undef, .f proj.c3.z, .undef]⟩, ⟨true, List.replicate 1 .undef⟩, ⟨true, List.replicate 1 .undef⟩, ⟨true, List.replicate 1 .undef⟩, ⟨true, List.replicate 1 .undef⟩, ⟨true, List.replicate 1 .undef⟩, ⟨true, List.replicate 1 .undef⟩]
    Part mem (0, 0) [1, 2, 3, 4, 6, 7, 11, 12, 13, 15] proj.list ∧ Room mem (1, 0) 1 ∧ Room mem (2, 0) 1 ∧ Room mem (3, 0) 1 ∧ Room mem (4, 0) 1 ∧ Room mem (5, 0) 1 ∧ Room mem (6, 0) 1 ∧ Apart (1, 0) 1 (2, 0) 1 ∧ Apart (1, 0) 1 (3, 0) 1 ∧ Apart (1, 0) 1 (4, 0) 1 ∧ Apart (1, 0) 1 (5, 0) 1 ∧ Apart (1, 0) 1 (6, 0) 1 ∧ Apart (2, 0) 1 (3, 0) 1 ∧ Apart (2, 0) 1 (4, 0) 1 ∧ Apart (2, 0) 1 (5, 0) 1 ∧ Apart (2, 0) 1 (6, 0) 1 ∧ Apart (3, 0) 1 (4, 0) 1 ∧ Apart (3, 0) 1 (5, 0) 1 ∧ Apart (3, 0) 1 (6, 0) 1 ∧ Apart (4, 0) 1 (5, 0) 1 ∧ Apart (4, 0) 1 (6, 0) 1 ∧ Apart (5, 0) 1 (6, 0) 1 :=
  ⟨.within rfl rfl rfl, .within rfl rfl, .within rfl rfl, .within rfl rfl, .within rfl rfl, .within rfl rfl, .within rfl rfl, Or.inl (by decide), Or.inl (by decide), Or.inl (by decide), Or.inl (by decide), Or.inl (by decide), Or.inl (by decide), Or.inl (by decide), Or.inl (by decide), Or.inl (by decide), Or.inl (by decide), Or.inl (by decide), Or.inl (by decide), Or.inl (by decide), Or.inl (by decide), Or.inl (by decide)⟩

theorem C99_persp_decompv_lh_no {mem : Mem α} {projP destP : Ptr} {proj : M4 α} (h_proj : Part mem projP [1, 2, 3, 4, 6, 7, 11, 12, 13, 15] proj.list) (r_dest : Room mem destP 6) :
    C.glm_persp_decompv_lh_no.run mem [projP.val, destP.val] =
      some (none, writes mem [(destP, (Cglm.glm_persp_decompv_lh_no proj).list.map .f)]) :=
  transferPart (e := Lib.glm_persp_decompv_lh_no) (l := []) (u := [(0, [1, 2, 3, 4, 6, 7, 11, 12, 13, 15])]) (by kernel_rfl) rfl (((RO.nil true _).addW r_dest.has r_dest .nil).addR h_proj.has) .nil (.p rfl (.p rfl .nil)) (glm_persp_decompv_lh_no_run _) (DT.val_done _) rfl rfl rfl rfl
example (proj : M4 α) : let mem : Mem α := [⟨false, [.f proj.c0.x, .undef, .undef, .undef, .undef, .f proj.c1.y, .undef, .undef, .f proj.c2.x, .f proj.c2.y, .f proj.c2.z, .undef, .undef, .undef, .f proj.c3.z, .undef]⟩, ⟨true, List.replicate 6 .undef⟩]
    Part mem (0, 0) [1, 2, 3, 4, 6, 7, 11, 12, 13, 15] proj.list ∧ Room mem (1, 0) 6 :=
  ⟨.within rfl rfl rfl, .within rfl rfl⟩

theorem C99_persp_decomp_x_lh_no {mem : Mem α} {projP leftP rightP : Ptr} {proj : M4 α} (h_proj : Part mem projP [1, 2, 3, 4, 5, 6, 7, 9, 11, 12, 13, 15] proj.list) (r_left : Room mem leftP 1) (r_right : Room mem rightP 1) (s_left_right : Apart leftP 1 rightP 1) :
    C.glm_persp_decomp_x_lh_no.run mem [projP.val, leftP.val, rightP.val] =
      some (none, writes mem [(leftP, [(Cglm.glm_persp_decomp_x_lh_no proj).1].map .f), (rightP, [(Cglm.glm_persp_decomp_x_lh_no proj).2].map .f)]) :=
  transferPart (e := Lib.glm_persp_decomp_x_lh_no) (l := []) (u := [(0, [1, 2, 3, 4, 5, 6, 7, 9, 11, 12, 13, 15])]) (by kernel_rfl) rfl ((((RO.nil true _).addW r_right.has r_right .nil).addW r_left.has r_left (.cons s_left_right .nil)).addR h_proj.has) .nil (.p rfl (.p rfl (.p rfl .nil))) (glm_persp_decomp_x_lh_no_run _) (DT.val_done _) rfl rfl rfl rfl
example (proj : M4 α) : let mem : Mem α := [⟨false, [.f proj.c0.x, .undef, .undef, .undef, .undef, .undef, .undef, .undef, .f proj.c2.x, .undef, .f proj.c2.z, .undef, .undef, .undef, .f proj.c3.z, .undef]⟩, ⟨true, List.replicate 1 .undef⟩, ⟨true, List.replicate 1 .undef⟩]
    Part mem (0, 0) [1, 2, 3, 4, 5, 6, 7, 9, 11, 12, 13, 15] proj.list ∧ Room mem (1, 0) 1 ∧ Room mem (2, 0) 1 ∧ Apart (1, 0) 1 (2, 0) 1 :=
  ⟨.within rfl rfl rfl, .within rfl rfl, .within rfl rfl, Or.inl (by decide)⟩

theorem C99_persp_decomp_y_lh_no {mem : Mem α} {projP topP bottomP : Ptr} {proj : M4 α} (h_proj : Part mem projP [0, 1, 2, 3, 4, 6, 7, 8, 11, 12, 13, 15] proj.list) (r_top : Room mem topP 1) (r_bottom : Room mem bottomP 1) (s_top_bottom : Apart topP 1 bottomP 1) :
    C.glm_persp_decomp_y_lh_no.run mem [projP.val, topP.val, bottomP.val] =
      some (none, writes mem [(topP, [(Cglm.glm_persp_decomp_y_lh_no proj).1].map .f), (bottomP, [(Cglm.glm_persp_decomp_y_lh_no proj).2].map .f)]) :=
  transferPart (e := Lib.glm_persp_decomp_y_lh_no) (l := []) (u := [(0, [0, 1, 2, 3, 4, 6, 7, 8, 11, 12, 13, 15])]) (by kernel_rfl) rfl ((((RO.nil true _).addW r_bottom.has r_bottom .nil).addW r_top.has r_top (.cons s_top_bottom .nil)).addR h_proj.has) .nil (.p rfl (.p rfl (.p rfl .nil))) (glm_persp_decomp_y_lh_no_run _) (DT.val_done _) rfl rfl rfl rfl
example (proj : M4 α) : let mem : Mem α := [⟨false, [.undef, .undef, .undef, .undef, .undef, .f proj.c1.y, .undef, .undef, .undef, .f proj.c2.y, .f proj.c2.z, .undef, .undef, .undef, .f proj.c3.z, .undef]⟩, ⟨true, List.replicate 1 .undef⟩, ⟨true, List.replicate 1 .undef⟩]
    Part mem (0, 0) [0, 1, 2, 3, 4, 6, 7, 8, 11, 12, 13, 15] proj.list ∧ Room mem (1, 0) 1 ∧ Room mem (2, 0) 1 ∧ Apart (1, 0) 1 (2, 0) 1 :=
  ⟨.within rfl rfl rfl, .within rfl rfl, .within rfl rfl, Or.inl (by decide)⟩

theorem C99_persp_decomp_z_lh_no {mem : Mem α} {projP nearZP farZP : Ptr} {proj : M4 α} (h_proj : Part mem projP [0, 1, 2, 3, 4, 5, 6, 7, 8, 9, 11, 12, 13, 15] proj.list) (r_nearZ : Room mem nearZP 1) (r_farZ : Room mem farZP 1) (s_nearZ_farZ : Apart nearZP 1 farZP 1) :
    C.glm_persp_decomp_z_lh_no.run mem [projP.val, nearZP.val, farZP.val] =
      some (none, writes mem [(nearZP, [(Cglm.glm_persp_decomp_z_lh_no proj).1].map .f), (farZP, [(Cglm.glm_persp_decomp_z_lh_no proj).2].map .f)]) :=
  transferPart (e := Lib.glm_persp_decomp_z_lh_no) (l := []) (u := [(0, [0, 1, 2, 3, 4, 5, 6, 7, 8, 9, 11, 12, 13, 15])]) (by kernel_rfl) rfl ((((RO.nil true _).addW r_farZ.has r_farZ .nil).addW r_nearZ.has r_nearZ (.cons s_nearZ_farZ .nil)).addR h_proj.has) .nil (.p rfl (.p rfl (.p rfl .nil))) (glm_persp_decomp_z_lh_no_run _) (DT.val_done _) rfl rfl rfl rfl
example (proj : M4 α) : let mem : Mem α := [⟨false, [.undef, .undef, .undef, .undef, .undef, .undef, .undef, .undef, .undef, .undef, .f proj.c2.z, .undef, .undef, .undef, .f proj.c3.z, .undef]⟩, ⟨true, List.replicate 1 .undef⟩, ⟨true, List.replicate 1 .undef⟩]
    Part mem (0, 0) [0, 1, 2, 3, 4, 5, 6, 7, 8, 9, 11, 12, 13, 15] proj.list ∧ Room mem (1, 0) 1 ∧ Room mem (2, 0) 1 ∧ Apart (1, 0) 1 (2, 0) 1 :=
  ⟨.within rfl rfl rfl, .within rfl rfl, .within rfl rfl, Or.inl (by decide)⟩

theorem C99_persp_decomp_far_lh_no {mem : Mem α} {projP farZP : Ptr} {proj : M4 α} (h_proj : Part mem projP [0, 1, 2, 3, 4, 5, 6, 7, 8, 9, 11, 12, 13, 15] proj.list) (r_farZ : Room mem farZP 1) :
    C.glm_persp_decomp_far_lh_no.run mem [projP.val, farZP.val] =
      some (none, writes mem [(farZP, [(Cglm.glm_persp_decomp_far_lh_no proj)].map .f)]) :=
  transferPart (e := Lib.glm_persp_decomp_far_lh_no) (l := []) (u := [(0, [0, 1, 2, 3, 4, 5, 6, 7, 8, 9, 11, 12, 13, 15])]) (by kernel_rfl) rfl (((RO.nil true _).addW r_farZ.has r_farZ .nil).addR h_proj.has) .nil (.p rfl (.p rfl .nil)) (glm_persp_decomp_far_lh_no_run _) (DT.val_done _) rfl rfl rfl rfl
example (proj : M4 α) : let mem : Mem α := [⟨false, [.undef, .undef, .undef, .undef, .undef, .undef, .undef, .undef, .undef, .undef, .f proj.c2.z, .undef, .undef, .undef, .f proj.c3.z, .undef]⟩, ⟨true, List.replicate 1 .undef⟩]
    Part mem (0, 0) [0, 1, 2, 3, 4, 5, 6, 7, 8, 9, 11, 12, 13, 15] proj.list ∧ Room mem (1, 0) 1 :=
  ⟨.within rfl rfl rfl, .within rfl rfl⟩

theorem C99_persp_decomp_near_lh_no {mem : Mem α} {projP nearZP : Ptr} {proj : M4 α} (h_proj : Part mem projP [0, 1, 2, 3, 4, 5, 6, 7, 8, 9, 11, 12, 13, 15] proj.list) (r_nearZ : Room mem nearZP 1) :
    C.glm_persp_decomp_near_lh_no.run mem [projP.val, nearZP.val] =
      some (none, writes mem [(nearZP, [(Cglm.glm_persp_decomp_near_lh_no proj)].map .f)]) :=
  transferPart (e := Lib.glm_persp_decomp_near_lh_no) (l := []) (u := [(0, [0, 1, 2, 3, 4, 5, 6, 7, 8, 9, 11, 12, 13, 15])]) (by kernel_rfl) rfl (((RO.nil true _).addW r_nearZ.has r_nearZ .nil).addR h_proj.has) .nil (.p rfl (.p rfl .nil)) (glm_persp_decomp_near_lh_no_run _) (DT.val_done _) rfl rfl rfl rfl
example (proj : M4 α) : let mem : Mem α := [⟨false, [.undef, .undef, .undef, .undef, .undef, .undef, .undef, .undef, .undef, .undef, .f proj.c2.z, .undef, .undef, .undef, .f proj.c3.z, .undef]⟩, ⟨true, List.replicate 1 .undef⟩]
    Part mem (0, 0) [0, 1, 2, 3, 4, 5, 6, 7, 8, 9, 11, 12, 13, 15] proj.list ∧ Room mem (1, 0) 1 :=
  ⟨.within rfl rfl rfl, .within rfl rfl⟩

theorem C99_persp_sizes_lh_no {mem : Mem α} {projP destP : Ptr} {proj : M4 α} (fovy : α) (h_proj : Part mem projP [1, 2, 3, 4, 6, 7, 8, 9, 11, 12, 13, 15] proj.list) (r_dest : Room mem destP 4) :
    C.glm_persp_sizes_lh_no.run mem [projP.val, .f fovy, destP.val] =
      some (none, writes mem [(destP, (Cglm.glm_persp_sizes_lh_no proj fovy).list.map .f)]) :=
  transferPart (e := Lib.glm_persp_sizes_lh_no) (l := []) (u := [(0, [1, 2, 3, 4, 6, 7, 8, 9, 11, 12, 13, 15])]) (by kernel_rfl) rfl (((RO.nil true _).addW r_dest.has r_dest .nil).addR h_proj.has) .nil (.p rfl (.f (.p rfl .nil))) (glm_persp_sizes_lh_no_run _ _) (DT.val_done _) rfl rfl rfl rfl
example (proj : M4 α) : let mem : Mem α := [⟨false, [.f proj.c0.x, .undef, .undef, .undef, .undef, .f proj.c1.y, .undef, .undef, .undef, .undef, .f proj.c2.z, .undef, .undef, .undef, .f proj.c3.z, .undef]⟩, ⟨true, List.replicate 4 .undef⟩]
    Part mem (0, 0) [1, 2, 3, 4, 6, 7, 8, 9, 11, 12, 13, 15] proj.list ∧ Room mem (1, 0) 4 :=
  ⟨.within rfl rfl rfl, .within rfl rfl⟩

theorem C99_persp_fovy_lh_no {mem : Mem α} {projP : Ptr} {proj : M4 α} (h_proj : Part mem projP [0, 1, 2, 3, 4, 6, 7, 8, 9, 10, 11, 12, 13, 14, 15] proj.list) :
    C.glm_persp_fovy_lh_no.run mem [projP.val] =
      some (some (.f (Cglm.glm_persp_fovy_lh_no proj)), mem) :=
  transferPart0 (e := Lib.glm_persp_fovy_lh_no) (u := [(0, [0, 1, 2, 3, 4, 6, 7, 8, 9, 10, 11, 12, 13, 14, 15])]) (by kernel_rfl) rfl ((RO.nil true _).addR h_proj.has) (.p rfl .nil) (glm_persp_fovy_lh_no_run _) (DT.val_done _) rfl rfl rfl rfl
example (proj : M4 α) : let mem : Mem α := [⟨false, [.undef, .undef, .undef, .undef, .undef, .f proj.c1.y, .undef, .undef, .undef, .undef, .undef, .undef, .undef, .undef, .undef, .undef]⟩]
    Part mem (0, 0) [0, 1, 2, 3, 4, 6, 7, 8, 9, 10, 11, 12, 13, 14, 15] proj.list :=
  Part.within rfl rfl rfl

theorem C99_persp_aspect_lh_no {mem : Mem α} {projP : Ptr} {proj : M4 α} (h_proj : Part mem projP [1, 2, 3, 4, 6, 7, 8, 9, 10, 11, 12, 13, 14, 15] proj.list) :
    C.glm_persp_aspect_lh_no.run mem [projP.val] =
      some (some (.f (Cglm.glm_persp_aspect_lh_no proj)), mem) :=
  transferPart0 (e := Lib.glm_persp_aspect_lh_no) (u := [(0, [1, 2, 3, 4, 6, 7, 8, 9, 10, 11, 12, 13, 14, 15])]) (by kernel_rfl) rfl ((RO.nil true _).addR h_proj.has) (.p rfl .nil) (glm_persp_aspect_lh_no_run _) (DT.val_done _) rfl rfl rfl rfl
example (proj : M4 α) : let mem : Mem α := [⟨false, [.f proj.c0.x, .undef, .undef, .undef, .undef, .f proj.c1.y, .undef, .undef, .undef, .undef, .undef, .undef, .undef, .undef, .undef, .undef]⟩]
    Part mem (0, 0) [1, 2, 3, 4, 6, 7, 8, 9, 10, 11, 12, 13, 14, 15] proj.list :=
  Part.within rfl rfl rfl

theorem C99_persp_decomp_rh_zo {mem : Mem α} {projP nearZP farZP topP bottomP leftP rightP : Ptr} {proj : M4 α} (h_proj : Part mem projP [1, 2, 3, 4, 6, 7, 11, 12, 13, 15] proj.list) (r_nearZ : Room mem nearZP 1) (r_farZ : Room mem farZP 1) (r_top : Room mem topP 1) (r_bottom : Room mem bottomP 1) (r_left : Room mem leftP 1) (r_right : Room mem rightP 1) (s_nearZ_farZ : Apart nearZP 1 farZP 1) (s_nearZ_top : Apart nearZP 1 topP 1) (s_nearZ_bottom : Apart nearZP 1 bottomP 1) (s_nearZ_left : Apart nearZP 1 leftP 1) (s_nearZ_right : Apart nearZP 1 rightP 1) (s_farZ_top : Apart farZP 1 topP 1) (s_farZ_bottom : Apart farZP 1 bottomP 1) (s_farZ_left : Apart farZP 1 leftP 1) (s_farZ_right : Apart farZP 1 rightP 1) (s_top_bottom : Apart topP 1 bottomP 1) (s_top_left : Apart topP 1 leftP 1) (s_top_right : Apart topP 1 rightP 1) (s_bottom_left : Apart bottomP 1 leftP 1) (s_bottom_right : Apart bottomP 1 rightP 1) (s_left_right : Apart leftP 1 rightP 1) :
    C.glm_persp_decomp_rh_zo.run mem [projP.val, nearZP.val, farZP.val, topP.val, bottomP.val, leftP.val, rightP.val] =
      some (none, writes mem [(nearZP, [(Cglm.glm_persp_decomp_rh_zo proj).1].map .f), (farZP, [(Cglm.glm_persp_decomp_rh_zo proj).2.1].map .f), (topP, [(Cglm.glm_persp_decomp_rh_zo proj).2.2.1].map .f), (bottomP, [(Cglm.glm_persp_decomp_rh_zo proj).2.2.2.1].map .f), (leftP, [(Cglm.glm_persp_decomp_rh_zo proj).2.2.2.2.1].map .f), (rightP, [(Cglm.glm_persp_decomp_rh_zo proj).2.2.2.2.2].map .f)]) :=
  transferPart (e := Lib.glm_persp_decomp_rh_zo) (l := []) (u := [(0, [1, 2, 3, 4, 6, 7, 11, 12, 13, 15])]) (by kernel_rfl) rfl ((((((((RO.nil true _).addW r_right.has r_right .nil).addW r_left.has r_left (.cons s_left_right .nil)).addW r_bottom.has r_bottom (.cons s_bottom_left (.cons s_bottom_right .nil))).addW r_top.has r_top (.cons s_top_bottom (.cons s_top_left (.cons s_top_right .nil)))).addW r_farZ.has r_farZ (.cons s_farZ_top (.cons s_farZ_bottom (.cons s_farZ_left (.cons s_farZ_right .nil))))).addW r_nearZ.has r_nearZ (.cons s_nearZ_farZ (.cons s_nearZ_top (.cons s_nearZ_bottom (.cons s_nearZ_left (.cons s_nearZ_right .nil)))))).addR h_proj.has) .nil (.p rfl (.p rfl (.p rfl (.p rfl (.p rfl (.p rfl (.p rfl .nil))))))) (glm_persp_decomp_rh_zo_run _) (DT.val_done _) rfl rfl rfl rfl
example (proj : M4 α) : let mem : Mem α := [⟨false, [.f proj.c0.x, .undef, .undef, .undef, .undef, .f proj.c1.y, .undef, .undef, .f proj.c2.x, .f proj.c2.y, .f proj.c2.z, .undef, .undef, .undef, .f proj.c3.z, .undef]⟩, ⟨true, List.replicate 1 .undef⟩, ⟨true, List.replicate 1 .undef⟩, ⟨true, List.replicate 1 .undef⟩, ⟨true, List.replicate 1 .undef⟩, ⟨true, List.replicate 1 .undef⟩, ⟨true, List.replicate 1 .undef⟩]
    Part mem (0, 0) [1, 2, 3, 4, 6, 7, 11, 12, 13, 15] proj.list ∧ Room mem (1, 0) 1 ∧ Room mem (2, 0) 1 ∧ Room mem (3, 0) 1 ∧ Room mem (4, 0) 1 ∧ Room mem (5, 0) 1 ∧ Room mem (6, 0) 1 ∧ Apart (1, 0) 1 (2, 0) 1 ∧ Apart (1, 0) 1 (3, 0) 1 ∧ Apart (1, 0) 1 (4, 0) 1 ∧ Apart (1, 0) 1 (5, 0) 1 ∧ Apart (1, 0) 1 (6, 0) 1 ∧ Apart (2, 0) 1 (3, 0) 1 ∧ Apart (2, 0) 1 (4, 0) 1 ∧ Apart (2, 0) 1 (5, 0) 1 ∧ Apart (2, 0) 1 (6, 0) 1 ∧ Apart (3, 0) 1 (4, 0) 1 ∧ Apart (3, 0) 1 (5, 0) 1 ∧ Apart (3, 0) 1 (6, 0) 1 ∧ Apart (4, 0) 1 (5, 0) 1 ∧ Apart (4, 0) 1 (6, 0) 1 ∧ Apart (5, 0) 1 (6, 0) 1 :=
  ⟨.within rfl rfl rfl, .within rfl rfl, .within rfl rfl, .within rfl rfl, .within rfl rfl, .within rfl rfl, .within rfl rfl, Or.inl (by decide), Or.inl (by decide), Or.inl (by decide), Or.inl (by decide), Or.inl (by decide), Or.inl (by decide), Or.inl (by decide), Or.inl (by decide), Or.inl (by decide), Or.inl (by decide), Or.inl (by decide), Or.inl (by decide), Or.inl (by decide), Or.inl (by decide), Or.inl (by decide)⟩

theorem C99_persp_decompv_rh_zo {mem : Mem α} {projP destP : Ptr} {proj : M4 α} (h_proj : Part mem projP [1, 2, 3, 4, 6, 7, 11, 12, 13, 15] proj.list) (r_dest : Room mem destP 6) :
    C.glm_persp_decompv_rh_zo.run mem [projP.val, destP.val] =
      some (none, writes mem [(destP, (Cglm.glm_persp_decompv_rh_zo proj).list.map .f)]) :=
  transferPart (e := Lib.glm_persp_decompv_rh_zo) (l := []) (u := [(0, [1, 2, 3, 4, 6, 7, 11, 12, 13, 15])]) (by kernel_rfl) rfl (((RO.nil true _).addW r_dest.has r_dest .nil).addR h_proj.has) .nil (.p rfl (.p rfl .nil)) (glm_persp_decompv_rh_zo_run _) (DT.val_done _) rfl rfl rfl rfl
example (proj : M4 α) : let mem : Mem α := [⟨false, [.f proj.c0.x, .undef, .undef, .undef, .undef, .f proj.c1.y, .undef, .undef, .f proj.c2.x, .f proj.c2.y, .f proj.c2.z, .undef, .undef, .undef, .f proj.c3.z, .undef]⟩, ⟨true, List.replicate 6 .undef⟩]
    Part mem (0, 0) [1, 2, 3, 4, 6, 7, 11, 12, 13, 15] proj.list ∧ Room mem (1, 0) 6 :=
  ⟨.within rfl rfl rfl, .within rfl rfl⟩

theorem C99_persp_decomp_x_rh_zo {mem : Mem α} {projP leftP rightP : Ptr} {proj : M4 α} (h_proj : Part mem projP [1, 2, 3, 4, 5, 6, 7, 9, 11, 12, 13, 15] proj.list) (r_left : Room mem leftP 1) (r_right : Room mem rightP 1) (s_left_right : Apart leftP 1 rightP 1) :
    C.glm_persp_decomp_x_rh_zo.run mem [projP.val, leftP.val, rightP.val] =
      some (none, writes mem [(leftP, [(Cglm.glm_persp_decomp_x_rh_zo proj).1].map .f), (rightP, [(Cglm.glm_persp_decomp_x_rh_zo proj).2].map .f)]) :=
  transferPart (e := Lib.glm_persp_decomp_x_rh_zo) (l := []) (u := [(0, [1, 2, 3, 4, 5, 6, 7, 9, 11, 12, 13, 15])]) (by kernel_rfl) rfl ((((RO.nil true _).addW r_right.has r_right .nil).addW r_left.has r_left (.cons s_left_right .nil)).addR h_proj.has) .nil (.p rfl (.p rfl (.p rfl .nil))) (glm_persp_decomp_x_rh_zo_run _) (DT.val_done _) rfl rfl rfl rfl
example (proj : M4 α) : let mem : Mem α := [⟨false, [.f proj.c0.x, .undef, .undef, .undef, .undef, .undef, .undef, .undef, .f proj.c2.x, .undef, .f proj.c2.z, .undef, .undef, .undef, .f proj.c3.z, .undef]⟩, ⟨true, List.replicate 1 .undef⟩, ⟨true, List.replicate 1 .undef⟩]
    Part mem (0, 0) [1, 2, 3, 4, 5, 6, 7, 9, 11, 12, 13, 15] proj.list ∧ Room mem (1, 0) 1 ∧ Room mem (2, 0) 1 ∧ Apart (1, 0) 1 (2, 0) 1 :=
  ⟨.within rfl rfl rfl, .within rfl rfl, .within rfl rfl, Or.inl (by decide)⟩

theorem C99_persp_decomp_y_rh_zo {mem : Mem α} {projP topP bottomP : Ptr} {proj : M4 α} (h_proj : Part mem projP [0, 1, 2, 3, 4, 6, 7, 8, 11, 12, 13, 15] proj.list) (r_top : Room mem topP 1) (r_bottom : Room mem bottomP 1) (s_top_bottom : Apart topP 1 bottomP 1) :
    C.glm_persp_decomp_y_rh_zo.run mem [projP.val, topP.val, bottomP.val] =
      some (none, writes mem [(topP, [(Cglm.glm_persp_decomp_y_rh_zo proj).1].map .f), (bottomP, [(Cglm.glm_persp_decomp_y_rh_zo proj).2].map .f)]) :=
  transferPart (e := Lib.glm_persp_decomp_y_rh_zo) (l := []) (u := [(0, [0, 1, 2, 3, 4, 6, 7, 8, 11, 12, 13, 15])]) (by kernel_rfl) rfl ((((RO.nil true _).addW r_bottom.has r_bottom .nil).addW r_top.has r_top (.cons s_top_bottom .nil)).addR h_proj.has) .nil (.p rfl (.p rfl (.p rfl .nil))) (glm_persp_decomp_y_rh_zo_run _) (DT.val_done _) rfl rfl rfl rfl
example (proj : M4 α) : let mem : Mem α := [⟨false, [.undef, .undef, .undef, .undef, .undef, .f proj.c1.y, .undef, .undef, .undef, .f proj.c2.y, .f proj.c2.z, .undef, .undef, .undef, .f proj.c3.z, .undef]⟩, ⟨true, List.replicate 1 .undef⟩, ⟨true, List.replicate 1 .undef⟩]
    Part mem (0, 0) [0, 1, 2, 3, 4, 6, 7, 8, 11, 12, 13, 15] proj.list ∧ Room mem (1, 0) 1 ∧ Room mem (2, 0) 1 ∧ Apart (1, 0) 1 (2, 0) 1 :=
  ⟨.within rfl rfl rfl, .within rfl rfl, .within rfl rfl, Or.inl (by decide)⟩

theorem C99_persp_decomp_z_rh_zo {mem : Mem α} {projP nearZP farZP : Ptr} {proj : M4 α} (h_proj : Part mem projP [0, 1, 2, 3, 4, 5, 6, 7, 8, 9, 11, 12, 13, 15] proj.list) (r_nearZ : Room mem nearZP 1) (r_farZ : Room mem farZP 1) (s_nearZ_farZ : Apart nearZP 1 farZP 1) :
    C.glm_persp_decomp_z_rh_zo.run mem [projP.val, nearZP.val, farZP.val] =
      some (none, writes mem [(nearZP, [(Cglm.glm_persp_decomp_z_rh_zo proj).1].map .f), (farZP, [(Cglm.glm_persp_decomp_z_rh_zo proj).2].map .f)]) :=
  transferPart (e := Lib.glm_persp_decomp_z_rh_zo) (l := []) (u := [(0, [0, 1, 2, 3, 4, 5, 6, 7, 8, 9, 11, 12, 13, 15])]) (by kernel_rfl) rfl ((((RO.nil true _).addW r_farZ.has r_farZ .nil).addW r_nearZ.has r_nearZ (.cons s_nearZ_farZ .nil)).addR h_proj.has) .nil (.p rfl (.p rfl (.p rfl .nil))) (glm_persp_decomp_z_rh_zo_run _) (DT.val_done _) rfl rfl rfl rfl
example (proj : M4 α) : let mem : Mem α := [⟨false, [.undef, .undef, .undef, .undef, .undef, .undef, .undef, .undef, .undef, .undef, .f proj.c2.z, .undef, .undef, .undef, .f proj.c3.z, .undef]⟩, ⟨true, List.replicate 1 .undef⟩, ⟨true, List.replicate 1 .undef⟩]
    Part mem (0, 0) [0, 1, 2, 3, 4, 5, 6, 7, 8, 9, 11, 12, 13, 15] proj.list ∧ Room mem (1, 0) 1 ∧ Room mem (2, 0) 1 ∧ Apart (1, 0) 1 (2, 0) 1 :=
  ⟨.within rfl rfl rfl, .within rfl rfl, .within rfl rfl, Or.inl (by decide)⟩

theorem C99_persp_decomp_far_rh_zo {mem : Mem α} {projP farZP : Ptr} {proj : M4 α} (h_proj : Part mem projP [0, 1, 2, 3, 4, 5, 6, 7, 8, 9, 11, 12, 13, 15] proj.list) (r_farZ : Room mem farZP 1) :
    C.glm_persp_decomp_far_rh_zo.run mem [projP.val, farZP.val] =
      some (none, writes mem [(farZP, [(Cglm.glm_persp_decomp_far_rh_zo proj)].map .f)]) :=
  transferPart (e := Lib.glm_persp_decomp_far_rh_zo) (l := []) (u := [(0, [0, 1, 2, 3, 4, 5, 6, 7, 8, 9, 11, 12, 13, 15])]) (by kernel_rfl) rfl (((RO.nil true _).addW r_farZ.has r_farZ .nil).addR h_proj.has) .nil (.p rfl (.p rfl .nil)) (glm_persp_decomp_far_rh_zo_run _) (DT.val_done _) rfl rfl rfl rfl
example (proj : M4 α) : let mem : Mem α := [⟨false, [.undef, .undef, .undef, .undef, .undef, .undef, .undef, .undef, .undef, .undef, .f proj.c2.z, .undef, .undef, .undef, .f proj.c3.z, .undef]⟩, ⟨true, List.replicate 1 .undef⟩]
    Part mem (0, 0) [0, 1, 2, 3, 4, 5, 6, 7, 8, 9, 11, 12, 13, 15] proj.list ∧ Room mem (1, 0) 1 :=
  ⟨.within rfl rfl rfl, .within rfl rfl⟩

theorem C99_persp_decomp_near_rh_zo {mem : Mem α} {projP nearZP : Ptr} {proj : M4 α} (h_proj : Part mem projP [0, 1, 2, 3, 4, 5, 6, 7, 8, 9, 11, 12, 13, 15] proj.list) (r_nearZ : Room mem nearZP 1) :
    C.glm_persp_decomp_near_rh_zo.run mem [projP.val, nearZP.val] =
      some (none, writes mem [(nearZP, [(Cglm.glm_persp_decomp_near_rh_zo proj)].map .f)]) :=
  transferPart (e := Lib.glm_persp_decomp_near_rh_zo) (l := []) (u := [(0, [0, 1, 2, 3, 4, 5, 6, 7, 8, 9, 11, 12, 13, 15])]) (by kernel_rfl) rfl (((RO.nil true _).addW r_nearZ.has r_nearZ .nil).addR h_proj.has) .nil (.p rfl (.p rfl .nil)) (glm_persp_decomp_near_rh_zo_run _) (DT.val_done _) rfl rfl rfl rfl
example (proj : M4 α) : let mem : Mem α := [⟨false, [.undef, .undef, .undef, .undef, .undef, .undef, .undef, .undef, .undef, .undef, .f proj.c2.z, .undef, .undef, .undef, .f proj.c3.z, .undef]⟩, ⟨true, List.replicate 1 .undef⟩]
    Part mem (0, 0) [0, 1, 2, 3, 4, 5, 6, 7, 8, 9, 11, 12, 13, 15] proj.list ∧ Room mem (1, 0) 1 :=
  ⟨.within rfl rfl rfl, .within rfl rfl⟩

theorem C99_persp_sizes_rh_zo {mem : Mem α} {projP destP : Ptr} {proj : M4 α} (fovy : α) (h_proj : Part mem projP [1, 2, 3, 4, 6, 7, 8, 9, 11, 12, 13, 15] proj.list) (r_dest : Room mem destP 4) :
    C.glm_persp_sizes_rh_zo.run mem [projP.val, .f fovy, destP.val] =
      some (none, writes mem [(destP, (Cglm.glm_persp_sizes_rh_zo proj fovy).list.map .f)]) :=
  transferPart (e := Lib.glm_persp_sizes_rh_zo) (l := []) (u := [(0, [1, 2, 3, 4, 6, 7, 8, 9, 11, 12, 13, 15])]) (by kernel_rfl) rfl (((RO.nil true _).addW r_dest.has r_dest .nil).addR h_proj.has) .nil (.p rfl (.f (.p rfl .nil))) (glm_persp_sizes_rh_zo_run _ _) (DT.val_done _) rfl rfl rfl rfl
example (proj : M4 α) : let mem : Mem α := [⟨false, [.f proj.c0.x, .undef, .undef, .undef, .undef, .f proj.c1.y, .undef, .undef, .undef, .undef, .f proj.c2.z, .undef, .undef, .undef, .f proj.c3.z, .undef]⟩, ⟨true, List.replicate 4 .undef⟩]
    Part mem (0, 0) [1, 2, 3, 4, 6, 7, 8, 9, 11, 12, 13, 15] proj.list ∧ Room mem (1, 0) 4 :=
  ⟨.within rfl rfl rfl, .within rfl rfl⟩

theorem C99_persp_fovy_rh_zo {mem : Mem α} {projP : Ptr} {proj : M4 α} (h_proj : Part mem projP [0, 1, 2, 3, 4, 6, 7, 8, 9, 10, 11, 12, 13, 14, 15] proj.list) :
    C.glm_persp_fovy_rh_zo.run mem [projP.val] =
      some (some (.f (Cglm.glm_persp_fovy_rh_zo proj)), mem) :=
  transferPart0 (e := Lib.glm_persp_fovy_rh_zo) (u := [(0, [0, 1, 2, 3, 4, 6, 7, 8, 9, 10, 11, 12, 13, 14, 15])]) (by kernel_rfl) rfl ((RO.nil true _).addR h_proj.has) (.p rfl .nil) (glm_persp_fovy_rh_zo_run _) (DT.val_done _) rfl rfl rfl rfl
example (proj : M4 α) : let mem : Mem α := [⟨false, [.undef, .undef, .undef, .undef, .undef, .f proj.c1.y, .undef, .undef, .undef, .undef, .undef, .undef, .undef, .undef, .undef, .undef]⟩]
    Part mem (0, 0) [0, 1, 2, 3, 4, 6, 7, 8, 9, 10, 11, 12, 13, 14, 15] proj.list :=
  Part.within rfl rfl rfl

theorem C99_persp_aspect_rh_zo {mem : Mem α} {projP : Ptr} {proj : M4 α} (h_proj : Part mem projP [1, 2, 3, 4, 6, 7, 8, 9, 10, 11, 12, 13, 14, 15] proj.list) :
    C.glm_persp_aspect_rh_zo.run mem [projP.val] =
      some (some (.f (Cglm.glm_persp_aspect_rh_zo proj)), mem) :=
  transferPart0 (e := Lib.glm_persp_aspect_rh_zo) (u := [(0, [1, 2, 3, 4, 6, 7, 8, 9, 10, 11, 12, 13, 14, 15])]) (by kernel_rfl) rfl ((RO.nil true _).addR h_proj.has) (.p rfl .nil) (glm_persp_aspect_rh_zo_run _) (DT.val_done _) rfl rfl rfl rfl
example (proj : M4 α) : let mem : Mem α := [⟨false, [.f proj.c0.x, .undef, .undef, .undef, .undef, .f proj.c1.y, .undef, .undef, .undef, .undef, .undef, .undef, .undef, .undef, .undef, .undef]⟩]
    Part mem (0, 0) [1, 2, 3, 4, 6, 7, 8, 9, 10, 11, 12, 13, 14, 15] proj.list :=
  Part.within rfl rfl rfl

theorem C99_persp_decomp_rh_no {mem : Mem α} {projP nearZP farZP topP bottomP leftP rightP : Ptr} {proj : M4 α} (h_proj : Part mem projP [1, 2, 3, 4, 6, 7, 11, 12, 13, 15] proj.list) (r_nearZ : Room mem nearZP 1) (r_farZ : Room mem farZP 1) (r_top : Room mem topP 1) (r_bottom : Room mem bottomP 1) (r_left : Room mem leftP 1) (r_right : Room mem rightP 1) (s_nearZ_farZ : Apart nearZP 1 farZP 1) (s_nearZ_top : Apart nearZP 1 topP 1) (s_nearZ_bottom : Apart nearZP 1 bottomP 1) (s_nearZ_left : Apart nearZP 1 leftP 1) (s_nearZ_right : Apart nearZP 1 rightP 1) (s_farZ_top : Apart farZP 1 topP 1) (s_farZ_bottom : Apart farZP 1 bottomP 1) (s_farZ_left : Apart farZP 1 leftP 1) (s_farZ_right : Apart farZP 1 rightP 1) (s_top_bottom : Apart topP 1 bottomP 1) (s_top_left : Apart topP 1 leftP 1) (s_top_right : Apart topP 1 rightP 1) (s_bottom_left : Apart bottomP 1 leftP 1) (s_bottom_right : Apart bottomP 1 rightP 1) (s_left_right : Apart leftP 1 rightP 1) :
    C.glm_persp_decomp_rh_no.run mem [projP.val, nearZP.val, farZP.val, topP.val, bottomP.val, leftP.val, rightP.val] =
      some (none, writes mem [(nearZP, [(Cglm.glm_persp_decomp_rh_no proj).1].map .f), (farZP, [(Cglm.glm_persp_decomp_rh_no proj).2.1].map .f), (topP, [(Cglm.glm_persp_decomp_rh_no proj).2.2.1].map .f), (bottomP, [(Cglm.glm_persp_decomp_rh_no proj).2.2.2.1].map .f), (leftP, [(Cglm.glm_persp_decomp_rh_no proj).2.2.2.2.1].map .f), (rightP, [(Cglm.glm_persp_decomp_rh_no proj).2.2.2.2.2].map .f)]) :=
  transferPart (e := Lib.glm_persp_decomp_rh_no) (l := []) (u := [(0, [1, 2, 3, 4, 6, 7, 11, 12, 13, 15])]) (by kernel_rfl) rfl ((((((((RO.nil true _).addW r_right.has r_right .nil).addW r_left.has r_left (.cons s_left_right .nil)).addW r_bottom.has r_bottom (.cons s_bottom_left (.cons s_bottom_right .nil))).addW r_top.has r_top (.cons s_top_bottom (.cons s_top_left (.cons s_top_right .nil)))).addW r_farZ.has r_farZ (.cons s_farZ_top (.cons s_farZ_bottom (.cons s_farZ_left (.cons s_farZ_right .nil))))).addW r_nearZ.has r_nearZ (.cons s_nearZ_farZ (.cons s_nearZ_top (.cons s_nearZ_bottom (.cons s_nearZ_left (.cons s_nearZ_right .nil)))))).addR h_proj.has) .nil (.p rfl (.p rfl (.p rfl (.p rfl (.p rfl (.p rfl (.p rfl .nil))))))) (glm_persp_decomp_rh_no_run _) (DT.val_done _) rfl rfl rfl rfl
example (proj : M4 α) : let mem : Mem α := [⟨false, [.f proj.c0.x, .undef, .undef, .undef, .undef, .f proj.c1.y, .undef, .undef, .f proj.c2.x, .f proj.c2.y, .f proj.c2.z, .undef, .undef, .undef, .f proj.c3.z, .undef]⟩, ⟨true, List.replicate 1 .undef⟩, ⟨true, List.replicate 1 .undef⟩, ⟨true, List.replicate 1 .undef⟩, ⟨true, List.replicate 1 .undef⟩, ⟨true, List.replicate 1 .undef⟩, ⟨true, List.replicate 1 .undef⟩]
    Part mem (0, 0) [1, 2, 3, 4, 6, 7, 11, 12, 13, 15] proj.list ∧ Room mem (1, 0) 1 ∧ Room mem (2, 0) 1 ∧ Room mem (3, 0) 1 ∧ Room mem (4, 0) 1 ∧ Room mem (5, 0) 1 ∧ Room mem (6, 0) 1 ∧ Apart (1, 0) 1 (2, 0) 1 ∧ Apart (1, 0) 1 (3, 0) 1 ∧ Apart (1, 0) 1 (4, 0) 1 ∧ Apart (1, 0) 1 (5, 0) 1 ∧ Apart (1, 0) 1 (6, 0) 1 ∧ Apart (2, 0) 1 (3, 0) 1 ∧ Apart (2, 0) 1 (4, 0) 1 ∧ Apart (2, 0) 1 (5, 0) 1 ∧ Apart (2, 0) 1 (6, 0) 1 ∧ Apart (3, 0) 1 (4, 0) 1 ∧ Apart (3, 0) 1 (5, 0) 1 ∧ Apart (3, 0) 1 (6, 0) 1 ∧ Apart (4, 0) 1 (5, 0) 1 ∧ Apart (4, 0) 1 (6, 0) 1 ∧ Apart (5, 0) 1 (6, 0) 1 :=
  ⟨.within rfl rfl rfl, .within rfl rfl, .within rfl rfl, .within rfl rfl, .within rfl rfl, .within rfl rfl, .within rfl rfl, Or.inl (by decide), Or.inl (by decide), Or.inl (by decide), Or.inl (by decide), Or.inl (by decide), Or.inl (by decide), Or.inl (by decide), Or.inl (by decide), Or.inl (by decide), Or.inl (by decide), Or.inl (by decide), Or.inl (by decide), Or.inl (by decide), Or.inl (by decide), Or.inl (by decide)⟩

theorem C99_persp_decompv_rh_no {mem : Mem α} {projP destP : Ptr} {proj : M4 α} (h_proj : Part mem projP [1, 2, 3, 4, 6, 7, 11, 12, 13, 15] proj.list) (r_dest : Room mem destP 6) :
    C.glm_persp_decompv_rh_no.run mem [projP.val, destP.val] =
      some (none, writes mem [(destP, (Cglm.glm_persp_decompv_rh_no proj).list.map .f)]) :=
  transferPart (e := Lib.glm_persp_decompv_rh_no) (l := []) (u := [(0, [1, 2, 3, 4, 6, 7, 11, 12, 13, 15])]) (by kernel_rfl) rfl (((RO.nil true _).addW r_dest.has r_dest .nil).addR h_proj.has) .nil (.p rfl (.p rfl .nil)) (glm_persp_decompv_rh_no_run _) (DT.val_done _) rfl rfl rfl rfl
example (proj : M4 α) : let mem : Mem α := [⟨false, [.f proj.c0.x, .undef, .undef, .undef, .undef, .f proj.c1.y, .undef, .undef, .f proj.c2.x, .f proj.c2.y, .f proj.c2.z, .undef, .undef, .undef, .f proj.c3.z, .undef]⟩, ⟨true, List.replicate 6 .undef⟩]
    Part mem (0, 0) [1, 2, 3, 4, 6, 7, 11, 12, 13, 15] proj.list ∧ Room mem (1, 0) 6 :=
  ⟨.within rfl rfl rfl, .within rfl rfl⟩

theorem C99_persp_decomp_x_rh_no {mem : Mem α} {projP leftP rightP : Ptr} {proj : M4 α} (h_proj : Part mem projP [1, 2, 3, 4, 5, 6, 7, 9, 11, 12, 13, 15] proj.list) (r_left : Room mem leftP 1) (r_right : Room mem rightP 1) (s_left_right : Apart leftP 1 rightP 1) :
    C.glm_persp_decomp_x_rh_no.run mem [projP.val, leftP.val, rightP.val] =
      some (none, writes mem [(leftP, [(Cglm.glm_persp_decomp_x_rh_no proj).1].map .f), (rightP, [(Cglm.glm_persp_decomp_x_rh_no proj).2].map .f)]) :=
  transferPart (e := Lib.glm_persp_decomp_x_rh_no) (l := []) (u := [(0, [1, 2, 3, 4, 5, 6, 7, 9, 11, 12, 13, 15])]) (by kernel_rfl) rfl ((((RO.nil true _).addW r_right.has r_right .nil).addW r_left.has r_left (.cons s_left_right .nil)).addR h_proj.has) .nil (.p rfl (.p rfl (.p rfl .nil))) (glm_persp_decomp_x_rh_no_run _) (DT.val_done _) rfl rfl rfl rfl
example (proj : M4 α) : let mem : Mem α := [⟨false, [.f proj.c0.x, .undef, .undef, .undef, .undef, .undef, .undef, .undef, .f proj.c2.x, .undef, .f proj.c2.z, .undef, .undef, .undef, .f proj.c3.z, .undef]⟩, ⟨true, List.replicate 1 .undef⟩, ⟨true, List.replicate 1 .undef⟩]
    Part mem (0, 0) [1, 2, 3, 4, 5, 6, 7, 9, 11, 12, 13, 15] proj.list ∧ Room mem (1, 0) 1 ∧ Room mem (2, 0) 1 ∧ Apart (1, 0) 1 (2, 0) 1 :=
  ⟨.within rfl rfl rfl, .within rfl rfl, .within rfl rfl, Or.inl (by decide)⟩

theorem C99_persp_decomp_y_rh_no {mem : Mem α} {projP topP bottomP : Ptr} {proj : M4 α} (h_proj : Part mem projP [0, 1, 2, 3, 4, 6, 7, 8, 11, 12, 13, 15] proj.list) (r_top : Room mem topP 1) (r_bottom : Room mem bottomP 1) (s_top_bottom : Apart topP 1 bottomP 1) :
    C.glm_persp_decomp_y_rh_no.run mem [projP.val, topP.val, bottomP.val] =
      some (none, writes mem [(topP, [(Cglm.glm_persp_decomp_y_rh_no proj).1].map .f), (bottomP, [(Cglm.glm_persp_decomp_y_rh_no proj).2].map .f)]) :=
  transferPart (e := Lib.glm_persp_decomp_y_rh_no) (l := []) (u := [(0, [0, 1, 2, 3, 4, 6, 7, 8, 11, 12, 13, 15])]) (by kernel_rfl) rfl ((((RO.nil true _).addW r_bottom.has r_bottom .nil).addW r_top.has r_top (.cons s_top_bottom .nil)).addR h_proj.has) .nil (.p rfl (.p rfl (.p rfl .nil))) (glm_persp_decomp_y_rh_no_run _) (DT.val_done _) rfl rfl rfl rfl
example (proj : M4 α) : let mem : Mem α := [⟨false, [.undef, .undef, .undef, .undef, .undef, .f proj.c1.y, .undef, .undef, .undef, .f proj.c2.y, .f proj.c2.z, .undef, .undef, .undef, .f proj.c3.z, .undef]⟩, ⟨true, List.replicate 1 .undef⟩, ⟨true, List.replicate 1 .undef⟩]
    Part mem (0, 0) [0, 1, 2, 3, 4, 6, 7, 8, 11, 12, 13, 15] proj.list ∧ Room mem (1, 0) 1 ∧ Room mem (2, 0) 1 ∧ Apart (1, 0) 1 (2, 0) 1 :=
  ⟨.within rfl rfl rfl, .within rfl rfl, .within rfl rfl, Or.inl (by decide)⟩

theorem C99_persp_decomp_z_rh_no {mem : Mem α} {projP nearZP farZP : Ptr} {proj : M4 α} (h_proj : Part mem projP [0, 1, 2, 3, 4, 5, 6, 7, 8, 9, 11, 12, 13, 15] proj.list) (r_nearZ : Room mem nearZP 1) (r_farZ : Room mem farZP 1) (s_nearZ_farZ : Apart nearZP 1 farZP 1) :
    C.glm_persp_decomp_z_rh_no.run mem [projP.val, nearZP.val, farZP.val] =
      some (none, writes mem [(nearZP, [(Cglm.glm_persp_decomp_z_rh_no proj).1].map .f), (farZP, [(Cglm.glm_persp_decomp_z_rh_no proj).2].map .f)]) :=
  transferPart (e := Lib.glm_persp_decomp_z_rh_no) (l := []) (u := [(0, [0, 1, 2, 3, 4, 5, 6, 7, 8, 9, 11, 12, 13, 15])]) (by kernel_rfl) rfl ((((RO.nil true _).addW r_farZ.has r_farZ .nil).addW r_nearZ.has r_nearZ (.cons s_nearZ_farZ .nil)).addR h_proj.has) .nil (.p rfl (.p rfl (.p rfl .nil))) (glm_persp_decomp_z_rh_no_run _) (DT.val_done _) rfl rfl rfl rfl
example (proj : M4 α) : let mem : Mem α := [⟨false, [.undef, .undef, .undef, .undef, .undef, .undef, .undef, .undef, .undef, .undef, .f proj.c2.z, .undef, .undef, .undef, .f proj.c3.z, .undef]⟩, ⟨true, List.replicate 1 .undef⟩, ⟨true, List.replicate 1 .undef⟩]
    Part mem (0, 0) [0, 1, 2, 3, 4, 5, 6, 7, 8, 9, 11, 12, 13, 15] proj.list ∧ Room mem (1, 0) 1 ∧ Room mem (2, 0) 1 ∧ Apart (1, 0) 1 (2, 0) 1 :=
  ⟨.within rfl rfl rfl, .within rfl rfl, .within rfl rfl, Or.inl (by decide)⟩

theorem C99_persp_decomp_far_rh_no {mem : Mem α} {projP farZP : Ptr} {proj : M4 α} (h_proj : Part mem projP [0, 1, 2, 3, 4, 5, 6, 7, 8, 9, 11, 12, 13, 15] proj.list) (r_farZ : Room mem farZP 1) :
    C.glm_persp_decomp_far_rh_no.run mem [projP.val, farZP.val] =
      some (none, writes mem [(farZP, [(Cglm.glm_persp_decomp_far_rh_no proj)].map .f)]) :=
  transferPart (e := Lib.glm_persp_decomp_far_rh_no) (l := []) (u := [(0, [0, 1, 2, 3, 4, 5, 6, 7, 8, 9, 11, 12, 13, 15])]) (by kernel_rfl) rfl (((RO.nil true _).addW r_farZ.has r_farZ .nil).addR h_proj.has) .nil (.p rfl (.p rfl .nil)) (glm_persp_decomp_far_rh_no_run _) (DT.val_done _) rfl rfl rfl rfl
example (proj : M4 α) : let mem : Mem α := [⟨false, [.undef, .undef, .undef, .undef, .undef, .undef, .undef, .undef, .undef, .undef, .f proj.c2.z, .undef, .undef, .undef, .f proj.c3.z, .undef]⟩, ⟨true, List.replicate 1 .undef⟩]
    Part mem (0, 0) [0, 1, 2, 3, 4, 5, 6, 7, 8, 9, 11, 12, 13, 15] proj.list ∧ Room mem (1, 0) 1 :=
  ⟨.within rfl rfl rfl, .within rfl rfl⟩

theorem C99_persp_decomp_near_rh_no {mem : Mem α} {projP nearZP : Ptr} {proj : M4 α} (h_proj : Part mem projP [0, 1, 2, 3, 4, 5, 6, 7, 8, 9, 11, 12, 13, 15] proj.list) (r_nearZ : Room mem nearZP 1) :
    C.glm_persp_decomp_near_rh_no.run mem [projP.val, nearZP.val] =
      some (none, writes mem [(nearZP, [(Cglm.glm_persp_decomp_near_rh_no proj)].map .f)]) :=
  transferPart (e := Lib.glm_persp_decomp_near_rh_no) (l := []) (u := [(0, [0, 1, 2, 3, 4, 5, 6, 7, 8, 9, 11, 12, 13, 15])]) (by kernel_rfl) rfl (((RO.nil true _).addW r_nearZ.has r_nearZ .nil).addR h_proj.has) .nil (.p rfl (.p rfl .nil)) (glm_persp_decomp_near_rh_no_run _) (DT.val_done _) rfl rfl rfl rfl
example (proj : M4 α) : let mem : Mem α := [⟨false, [.undef, .undef, .undef, .undef, .undef, .undef, .undef, .undef, .undef, .undef, .f proj.c2.z, .undef, .undef, .undef, .f proj.c3.z, .undef]⟩, ⟨true, List.replicate 1 .undef⟩]
    Part mem (0, 0) [0, 1, 2, 3, 4, 5, 6, 7, 8, 9, 11, 12, 13, 15] proj.list ∧ Room mem (1, 0) 1 :=
  ⟨.within rfl rfl rfl, .within rfl rfl⟩

theorem C99_persp_sizes_rh_no {mem : Mem α} {projP destP : Ptr} {proj : M4 α} (fovy : α) (h_proj : Part mem projP [1, 2, 3, 4, 6, 7, 8, 9, 11, 12, 13, 15] proj.list) (r_dest : Room mem destP 4) :
    C.glm_persp_sizes_rh_no.run mem [projP.val, .f fovy, destP.val] =
      some (none, writes mem [(destP, (Cglm.glm_persp_sizes_rh_no proj fovy).list.map .f)]) :=
  transferPart (e := Lib.glm_persp_sizes_rh_no) (l := []) (u := [(0, [1, 2, 3, 4, 6, 7, 8, 9, 11, 12, 13, 15])]) (by kernel_rfl) rfl (((RO.nil true _).addW r_dest.has r_dest .nil).addR h_proj.has) .nil (.p rfl (.f (.p rfl .nil))) (glm_persp_sizes_rh_no_run _ _) (DT.val_done _) rfl rfl rfl rfl
example (proj : M4 α) : let mem : Mem α := [⟨false, [.f proj.c0.x, .undef, .undef, .undef, .undef, .f proj.c1.y, .undef, .undef, .undef, .undef, .f proj.c2.z, .undef, .undef, .undef, .f proj.c3.z, .undef]⟩, ⟨true, List.replicate 4 .undef⟩]
    Part mem (0, 0) [1, 2, 3, 4, 6, 7, 8, 9, 11, 12, 13, 15] proj.list ∧ Room mem (1, 0) 4 :=
  ⟨.within rfl rfl rfl, .within rfl rfl⟩

theorem C99_persp_fovy_rh_no {mem : Mem α} {projP : Ptr} {proj : M4 α} (h_proj : Part mem projP [0, 1, 2, 3, 4, 6, 7, 8, 9, 10, 11, 12, 13, 14, 15] proj.list) :
    C.glm_persp_fovy_rh_no.run mem [projP.val] =
      some (some (.f (Cglm.glm_persp_fovy_rh_no proj)), mem) :=
  transferPart0 (e := Lib.glm_persp_fovy_rh_no) (u := [(0, [0, 1, 2, 3, 4, 6, 7, 8, 9, 10, 11, 12, 13, 14, 15])]) (by kernel_rfl) rfl ((RO.nil true _).addR h_proj.has) (.p rfl .nil) (glm_persp_fovy_rh_no_run _) (DT.val_done _) rfl rfl rfl rfl
example (proj : M4 α) : let mem : Mem α := [⟨false, [.undef, .undef, .undef, .undef, .undef, .f proj.c1.y, .undef, .undef, .undef, .undef, .undef, .undef, .undef, .undef, .undef, .undef]⟩]
    Part mem (0, 0) [0, 1, 2, 3, 4, 6, 7, 8, 9, 10, 11, 12, 13, 14, 15] proj.list :=
  Part.within rfl rfl rfl

theorem C99_persp_aspect_rh_no {mem : Mem α} {projP : Ptr} {proj : M4 α} (h_proj : Part mem projP [1, 2, 3, 4, 6, 7, 8, 9, 10, 11, 12, 13, 14, 15] proj.list) :
    C.glm_persp_aspect_rh_no.run mem [projP.val] =
      some (some (.f (Cglm.glm_persp_aspect_rh_no proj)), mem) :=
  transferPart0 (e := Lib.glm_persp_aspect_rh_no) (u := [(0, [1, 2, 3, 4, 6, 7, 8, 9, 10, 11, 12, 13, 14, 15])]) (by kernel_rfl) rfl ((RO.nil true _).addR h_proj.has) (.p rfl .nil) (glm_persp_aspect_rh_no_run _) (DT.val_done _) rfl rfl rfl rfl
example (proj : M4 α) : let mem : Mem α := [⟨false, [.f proj.c0.x, .undef, .undef, .undef, .undef, .f proj.c1.y, .undef, .undef, .undef, .undef, .undef, .undef, .undef, .undef, .undef, .undef]⟩]
    Part mem (0, 0) [1, 2, 3, 4, 6, 7, 8, 9, 10, 11, 12, 13, 14, 15] proj.list :=
  Part.within rfl rfl rfl

theorem C99_project_z_zo {mem : Mem α} {vP mP : Ptr} {v : V3 α} {m : M4 α} (h_v : Holds mem vP v.list) (h_m : Part mem mP [0, 1, 4, 5, 8, 9, 12, 13] m.list) :
    C.glm_project_z_zo.run mem [vP.val, mP.val] =
      some (some (.f (Cglm.glm_project_z_zo v m)), mem) :=
  transferPart0 (e := Lib.glm_project_z_zo) (u := [(1, [0, 1, 4, 5, 8, 9, 12, 13])]) (by kernel_rfl) rfl (((RO.nil true _).addR h_m.has).addR h_v.has) (.p rfl (.p rfl .nil)) (glm_project_z_zo_run _ _) (DT.val_done _) rfl rfl rfl rfl
example (v : V3 α) (m : M4 α) : let mem : Mem α := [⟨false, v.list.map .f⟩, ⟨false, [.undef, .undef, .f m.c0.z, .f m.c0.w, .undef, .undef, .f m.c1.z, .f m.c1.w, .undef, .undef, .f m.c2.z, .f m.c2.w, .undef, .undef, .f m.c3.z, .f m.c3.w]⟩]
    Holds mem (0, 0) v.list ∧ Part mem (1, 0) [0, 1, 4, 5, 8, 9, 12, 13] m.list :=
  ⟨.within rfl rfl, .within rfl rfl rfl⟩

theorem C99_project_z_no {mem : Mem α} {vP mP : Ptr} {v : V3 α} {m : M4 α} (h_v : Holds mem vP v.list) (h_m : Part mem mP [0, 1, 4, 5, 8, 9, 12, 13] m.list) :
    C.glm_project_z_no.run mem [vP.val, mP.val] =
      some (some (.f (Cglm.glm_project_z_no v m)), mem) :=
  transferPart0 (e := Lib.glm_project_z_no) (u := [(1, [0, 1, 4, 5, 8, 9, 12, 13])]) (by kernel_rfl) rfl (((RO.nil true _).addR h_m.has).addR h_v.has) (.p rfl (.p rfl .nil)) (glm_project_z_no_run _ _) (DT.val_done _) rfl rfl rfl rfl
example (v : V3 α) (m : M4 α) : let mem : Mem α := [⟨false, v.list.map .f⟩, ⟨false, [.undef, .undef, .f m.c0.z, .f m.c0.w, .undef, .undef, .f m.c1.z, .f m.c1.w, .undef, .undef, .f m.c2.z, .f m.c2.w, .undef, .undef, .f m.c3.z, .f m.c3.w]⟩]
    Holds mem (0, 0) v.list ∧ Part mem (1, 0) [0, 1, 4, 5, 8, 9, 12, 13] m.list :=
  ⟨.within rfl rfl, .within rfl rfl rfl⟩

end Cglm
