/- Generated by tools/overthms.py; do not edit by hand. -/
import Verif.CMemOver
import Verif.Lib.Clip
import Verif.Mem.AffinesRun

/-!
# C98: outputs that overlap inputs

Inputs and outputs may overlap in any way, or, for functions that work component by component, in any way except that an
output begins inside an input (`Over`).  Outputs do not overlap each other.  The result is the value-level function of
what the inputs held before the call, and nothing outside the outputs changes.
-/

set_option linter.unusedVariables false
set_option linter.unusedSectionVars false

namespace Cglm
open CMem

variable {α : Type} [Add α] [Sub α] [Mul α] [Div α] [Neg α] [CFloat α]

theorem C98_ortho_aabb_lh_zo {mem : Mem α} {boxP destP : Ptr} {box : M2x3 α} (h_box : Holds mem boxP box.list) (r_dest : Room mem destP 16) :
    C.glm_ortho_aabb_lh_zo.run mem [boxP.val, destP.val] =
      some (none, writes mem [(destP, (Cglm.glm_ortho_aabb_lh_zo box).list.map .f)]) :=
  transferO (e := Lib.glm_ortho_aabb_lh_zo) (up := true) (by kernel_rfl) (((RO.nil true _).addW r_dest.has r_dest .nil).addR h_box.has) (.p rfl (.p rfl .nil)) (glm_ortho_aabb_lh_zo_run _) (DT.val_done _) rfl rfl rfl
example (box : M2x3 α) : let mem : Mem α := [⟨true, box.list.map .f ++ List.replicate 16 .undef⟩]
    Holds mem (0, 0) box.list ∧ Room mem (0, 1) 16 :=
  ⟨.within rfl rfl, .within rfl rfl⟩

theorem C98_ortho_aabb_p_lh_zo {mem : Mem α} {boxP destP : Ptr} {box : M2x3 α} (padding : α) (h_box : Holds mem boxP box.list) (r_dest : Room mem destP 16) :
    C.glm_ortho_aabb_p_lh_zo.run mem [boxP.val, .f padding, destP.val] =
      some (none, writes mem [(destP, (Cglm.glm_ortho_aabb_p_lh_zo box padding).list.map .f)]) :=
  transferO (e := Lib.glm_ortho_aabb_p_lh_zo) (up := true) (by kernel_rfl) (((RO.nil true _).addW r_dest.has r_dest .nil).addR h_box.has) (.p rfl (.f (.p rfl .nil))) (glm_ortho_aabb_p_lh_zo_run _ _) (DT.val_done _) rfl rfl rfl
example (box : M2x3 α) : let mem : Mem α := [⟨true, box.list.map .f ++ List.replicate 16 .undef⟩]
    Holds mem (0, 0) box.list ∧ Room mem (0, 1) 16 :=
  ⟨.within rfl rfl, .within rfl rfl⟩

theorem C98_ortho_aabb_pz_lh_zo {mem : Mem α} {boxP destP : Ptr} {box : M2x3 α} (padding : α) (h_box : Holds mem boxP box.list) (r_dest : Room mem destP 16) :
    C.glm_ortho_aabb_pz_lh_zo.run mem [boxP.val, .f padding, destP.val] =
      some (none, writes mem [(destP, (Cglm.glm_ortho_aabb_pz_lh_zo box padding).list.map .f)]) :=
  transferO (e := Lib.glm_ortho_aabb_pz_lh_zo) (up := true) (by kernel_rfl) (((RO.nil true _).addW r_dest.has r_dest .nil).addR h_box.has) (.p rfl (.f (.p rfl .nil))) (glm_ortho_aabb_pz_lh_zo_run _ _) (DT.val_done _) rfl rfl rfl
example (box : M2x3 α) : let mem : Mem α := [⟨true, box.list.map .f ++ List.replicate 16 .undef⟩]
    Holds mem (0, 0) box.list ∧ Room mem (0, 1) 16 :=
  ⟨.within rfl rfl, .within rfl rfl⟩

theorem C98_persp_decomp_lh_zo {mem : Mem α} {projP nearZP farZP topP bottomP leftP rightP : Ptr} {proj : M4 α} (h_proj : Holds mem projP proj.list) (r_nearZ : Room mem nearZP 1) (r_farZ : Room mem farZP 1) (r_top : Room mem topP 1) (r_bottom : Room mem bottomP 1) (r_left : Room mem leftP 1) (r_right : Room mem rightP 1) (s_nearZ_farZ : Apart nearZP 1 farZP 1) (s_nearZ_top : Apart nearZP 1 topP 1) (s_nearZ_bottom : Apart nearZP 1 bottomP 1) (s_nearZ_left : Apart nearZP 1 leftP 1) (s_nearZ_right : Apart nearZP 1 rightP 1) (s_farZ_top : Apart farZP 1 topP 1) (s_farZ_bottom : Apart farZP 1 bottomP 1) (s_farZ_left : Apart farZP 1 leftP 1) (s_farZ_right : Apart farZP 1 rightP 1) (s_top_bottom : Apart topP 1 bottomP 1) (s_top_left : Apart topP 1 leftP 1) (s_top_right : Apart topP 1 rightP 1) (s_bottom_left : Apart bottomP 1 leftP 1) (s_bottom_right : Apart bottomP 1 rightP 1) (s_left_right : Apart leftP 1 rightP 1) :
    C.glm_persp_decomp_lh_zo.run mem [projP.val, nearZP.val, farZP.val, topP.val, bottomP.val, leftP.val, rightP.val] =
      some (none, writes mem [(nearZP, [(Cglm.glm_persp_decomp_lh_zo proj).1].map .f), (farZP, [(Cglm.glm_persp_decomp_lh_zo proj).2.1].map .f), (topP, [(Cglm.glm_persp_decomp_lh_zo proj).2.2.1].map .f), (bottomP, [(Cglm.glm_persp_decomp_lh_zo proj).2.2.2.1].map .f), (leftP, [(Cglm.glm_persp_decomp_lh_zo proj).2.2.2.2.1].map .f), (rightP, [(Cglm.glm_persp_decomp_lh_zo proj).2.2.2.2.2].map .f)]) :=
  transferO (e := Lib.glm_persp_decomp_lh_zo) (up := true) (by kernel_rfl) ((((((((RO.nil true _).addW r_right.has r_right .nil).addW r_left.has r_left (.cons s_left_right .nil)).addW r_bottom.has r_bottom (.cons s_bottom_left (.cons s_bottom_right .nil))).addW r_top.has r_top (.cons s_top_bottom (.cons s_top_left (.cons s_top_right .nil)))).addW r_farZ.has r_farZ (.cons s_farZ_top (.cons s_farZ_bottom (.cons s_farZ_left (.cons s_farZ_right .nil))))).addW r_nearZ.has r_nearZ (.cons s_nearZ_farZ (.cons s_nearZ_top (.cons s_nearZ_bottom (.cons s_nearZ_left (.cons s_nearZ_right .nil)))))).addR h_proj.has) (.p rfl (.p rfl (.p rfl (.p rfl (.p rfl (.p rfl (.p rfl .nil))))))) (glm_persp_decomp_lh_zo_run _) (DT.val_done _) rfl rfl rfl
example (proj : M4 α) : let mem : Mem α := [⟨true, proj.list.map .f ++ List.replicate 1 .undef⟩, ⟨true, List.replicate 1 .undef⟩, ⟨true, List.replicate 1 .undef⟩, ⟨true, List.replicate 1 .undef⟩, ⟨true, List.replicate 1 .undef⟩, ⟨true, List.replicate 1 .undef⟩]
    Holds mem (0, 0) proj.list ∧ Room mem (0, 1) 1 ∧ Room mem (1, 0) 1 ∧ Room mem (2, 0) 1 ∧ Room mem (3, 0) 1 ∧ Room mem (4, 0) 1 ∧ Room mem (5, 0) 1 ∧ Apart (0, 1) 1 (1, 0) 1 ∧ Apart (0, 1) 1 (2, 0) 1 ∧ Apart (0, 1) 1 (3, 0) 1 ∧ Apart (0, 1) 1 (4, 0) 1 ∧ Apart (0, 1) 1 (5, 0) 1 ∧ Apart (1, 0) 1 (2, 0) 1 ∧ Apart (1, 0) 1 (3, 0) 1 ∧ Apart (1, 0) 1 (4, 0) 1 ∧ Apart (1, 0) 1 (5, 0) 1 ∧ Apart (2, 0) 1 (3, 0) 1 ∧ Apart (2, 0) 1 (4, 0) 1 ∧ Apart (2, 0) 1 (5, 0) 1 ∧ Apart (3, 0) 1 (4, 0) 1 ∧ Apart (3, 0) 1 (5, 0) 1 ∧ Apart (4, 0) 1 (5, 0) 1 :=
  ⟨.within rfl rfl, .within rfl rfl, .within rfl rfl, .within rfl rfl, .within rfl rfl, .within rfl rfl, .within rfl rfl, Or.inl (by decide), Or.inl (by decide), Or.inl (by decide), Or.inl (by decide), Or.inl (by decide), Or.inl (by decide), Or.inl (by decide), Or.inl (by decide), Or.inl (by decide), Or.inl (by decide), Or.inl (by decide), Or.inl (by decide), Or.inl (by decide), Or.inl (by decide), Or.inl (by decide)⟩

theorem C98_persp_decompv_lh_zo {mem : Mem α} {projP destP : Ptr} {proj : M4 α} (h_proj : Holds mem projP proj.list) (r_dest : Room mem destP 6) :
    C.glm_persp_decompv_lh_zo.run mem [projP.val, destP.val] =
      some (none, writes mem [(destP, (Cglm.glm_persp_decompv_lh_zo proj).list.map .f)]) :=
  transferO (e := Lib.glm_persp_decompv_lh_zo) (up := true) (by kernel_rfl) (((RO.nil true _).addW r_dest.has r_dest .nil).addR h_proj.has) (.p rfl (.p rfl .nil)) (glm_persp_decompv_lh_zo_run _) (DT.val_done _) rfl rfl rfl
example (proj : M4 α) : let mem : Mem α := [⟨true, proj.list.map .f ++ List.replicate 6 .undef⟩]
    Holds mem (0, 0) proj.list ∧ Room mem (0, 1) 6 :=
  ⟨.within rfl rfl, .within rfl rfl⟩

theorem C98_persp_decomp_x_lh_zo {mem : Mem α} {projP leftP rightP : Ptr} {proj : M4 α} (h_proj : Holds mem projP proj.list) (r_left : Room mem leftP 1) (r_right : Room mem rightP 1) (s_left_right : Apart leftP 1 rightP 1) :
    C.glm_persp_decomp_x_lh_zo.run mem [projP.val, leftP.val, rightP.val] =
      some (none, writes mem [(leftP, [(Cglm.glm_persp_decomp_x_lh_zo proj).1].map .f), (rightP, [(Cglm.glm_persp_decomp_x_lh_zo proj).2].map .f)]) :=
  transferO (e := Lib.glm_persp_decomp_x_lh_zo) (up := true) (by kernel_rfl) ((((RO.nil true _).addW r_right.has r_right .nil).addW r_left.has r_left (.cons s_left_right .nil)).addR h_proj.has) (.p rfl (.p rfl (.p rfl .nil))) (glm_persp_decomp_x_lh_zo_run _) (DT.val_done _) rfl rfl rfl
example (proj : M4 α) : let mem : Mem α := [⟨true, proj.list.map .f ++ List.replicate 1 .undef⟩, ⟨true, List.replicate 1 .undef⟩]
    Holds mem (0, 0) proj.list ∧ Room mem (0, 1) 1 ∧ Room mem (1, 0) 1 ∧ Apart (0, 1) 1 (1, 0) 1 :=
  ⟨.within rfl rfl, .within rfl rfl, .within rfl rfl, Or.inl (by decide)⟩

theorem C98_persp_decomp_y_lh_zo {mem : Mem α} {projP topP bottomP : Ptr} {proj : M4 α} (h_proj : Holds mem projP proj.list) (r_top : Room mem topP 1) (r_bottom : Room mem bottomP 1) (s_top_bottom : Apart topP 1 bottomP 1) :
    C.glm_persp_decomp_y_lh_zo.run mem [projP.val, topP.val, bottomP.val] =
      some (none, writes mem [(topP, [(Cglm.glm_persp_decomp_y_lh_zo proj).1].map .f), (bottomP, [(Cglm.glm_persp_decomp_y_lh_zo proj).2].map .f)]) :=
  transferO (e := Lib.glm_persp_decomp_y_lh_zo) (up := true) (by kernel_rfl) ((((RO.nil true _).addW r_bottom.has r_bottom .nil).addW r_top.has r_top (.cons s_top_bottom .nil)).addR h_proj.has) (.p rfl (.p rfl (.p rfl .nil))) (glm_persp_decomp_y_lh_zo_run _) (DT.val_done _) rfl rfl rfl
example (proj : M4 α) : let mem : Mem α := [⟨true, proj.list.map .f ++ List.replicate 1 .undef⟩, ⟨true, List.replicate 1 .undef⟩]
    Holds mem (0, 0) proj.list ∧ Room mem (0, 1) 1 ∧ Room mem (1, 0) 1 ∧ Apart (0, 1) 1 (1, 0) 1 :=
  ⟨.within rfl rfl, .within rfl rfl, .within rfl rfl, Or.inl (by decide)⟩

theorem C98_persp_decomp_z_lh_zo {mem : Mem α} {projP nearZP farZP : Ptr} {proj : M4 α} (h_proj : Holds mem projP proj.list) (r_nearZ : Room mem nearZP 1) (r_farZ : Room mem farZP 1) (s_nearZ_farZ : Apart nearZP 1 farZP 1) :
    C.glm_persp_decomp_z_lh_zo.run mem [projP.val, nearZP.val, farZP.val] =
      some (none, writes mem [(nearZP, [(Cglm.glm_persp_decomp_z_lh_zo proj).1].map .f), (farZP, [(Cglm.glm_persp_decomp_z_lh_zo proj).2].map .f)]) :=
  transferO (e := Lib.glm_persp_decomp_z_lh_zo) (up := true) (by kernel_rfl) ((((RO.nil true _).addW r_farZ.has r_farZ .nil).addW r_nearZ.has r_nearZ (.cons s_nearZ_farZ .nil)).addR h_proj.has) (.p rfl (.p rfl (.p rfl .nil))) (glm_persp_decomp_z_lh_zo_run _) (DT.val_done _) rfl rfl rfl
example (proj : M4 α) : let mem : Mem α := [⟨true, proj.list.map .f ++ List.replicate 1 .undef⟩, ⟨true, List.replicate 1 .undef⟩]
    Holds mem (0, 0) proj.list ∧ Room mem (0, 1) 1 ∧ Room mem (1, 0) 1 ∧ Apart (0, 1) 1 (1, 0) 1 :=
  ⟨.within rfl rfl, .within rfl rfl, .within rfl rfl, Or.inl (by decide)⟩

theorem C98_persp_decomp_far_lh_zo {mem : Mem α} {projP farZP : Ptr} {proj : M4 α} (h_proj : Holds mem projP proj.list) (r_farZ : Room mem farZP 1) :
    C.glm_persp_decomp_far_lh_zo.run mem [projP.val, farZP.val] =
      some (none, writes mem [(farZP, [(Cglm.glm_persp_decomp_far_lh_zo proj)].map .f)]) :=
  transferO (e := Lib.glm_persp_decomp_far_lh_zo) (up := true) (by kernel_rfl) (((RO.nil true _).addW r_farZ.has r_farZ .nil).addR h_proj.has) (.p rfl (.p rfl .nil)) (glm_persp_decomp_far_lh_zo_run _) (DT.val_done _) rfl rfl rfl
example (proj : M4 α) : let mem : Mem α := [⟨true, proj.list.map .f ++ List.replicate 1 .undef⟩]
    Holds mem (0, 0) proj.list ∧ Room mem (0, 1) 1 :=
  ⟨.within rfl rfl, .within rfl rfl⟩

theorem C98_persp_decomp_near_lh_zo {mem : Mem α} {projP nearZP : Ptr} {proj : M4 α} (h_proj : Holds mem projP proj.list) (r_nearZ : Room mem nearZP 1) :
    C.glm_persp_decomp_near_lh_zo.run mem [projP.val, nearZP.val] =
      some (none, writes mem [(nearZP, [(Cglm.glm_persp_decomp_near_lh_zo proj)].map .f)]) :=
  transferO (e := Lib.glm_persp_decomp_near_lh_zo) (up := true) (by kernel_rfl) (((RO.nil true _).addW r_nearZ.has r_nearZ .nil).addR h_proj.has) (.p rfl (.p rfl .nil)) (glm_persp_decomp_near_lh_zo_run _) (DT.val_done _) rfl rfl rfl
example (proj : M4 α) : let mem : Mem α := [⟨true, proj.list.map .f ++ List.replicate 1 .undef⟩]
    Holds mem (0, 0) proj.list ∧ Room mem (0, 1) 1 :=
  ⟨.within rfl rfl, .within rfl rfl⟩

theorem C98_persp_sizes_lh_zo {mem : Mem α} {projP destP : Ptr} {proj : M4 α} (fovy : α) (h_proj : Holds mem projP proj.list) (r_dest : Room mem destP 4) :
    C.glm_persp_sizes_lh_zo.run mem [projP.val, .f fovy, destP.val] =
      some (none, writes mem [(destP, (Cglm.glm_persp_sizes_lh_zo proj fovy).list.map .f)]) :=
  transferO (e := Lib.glm_persp_sizes_lh_zo) (up := true) (by kernel_rfl) (((RO.nil true _).addW r_dest.has r_dest .nil).addR h_proj.has) (.p rfl (.f (.p rfl .nil))) (glm_persp_sizes_lh_zo_run _ _) (DT.val_done _) rfl rfl rfl
example (proj : M4 α) : let mem : Mem α := [⟨true, proj.list.map .f ++ List.replicate 4 .undef⟩]
    Holds mem (0, 0) proj.list ∧ Room mem (0, 1) 4 :=
  ⟨.within rfl rfl, .within rfl rfl⟩

theorem C98_ortho_aabb_lh_no {mem : Mem α} {boxP destP : Ptr} {box : M2x3 α} (h_box : Holds mem boxP box.list) (r_dest : Room mem destP 16) :
    C.glm_ortho_aabb_lh_no.run mem [boxP.val, destP.val] =
      some (none, writes mem [(destP, (Cglm.glm_ortho_aabb_lh_no box).list.map .f)]) :=
  transferO (e := Lib.glm_ortho_aabb_lh_no) (up := true) (by kernel_rfl) (((RO.nil true _).addW r_dest.has r_dest .nil).addR h_box.has) (.p rfl (.p rfl .nil)) (glm_ortho_aabb_lh_no_run _) (DT.val_done _) rfl rfl rfl
example (box : M2x3 α) : let mem : Mem α := [⟨true, box.list.map .f ++ List.replicate 16 .undef⟩]
    Holds mem (0, 0) box.list ∧ Room mem (0, 1) 16 :=
  ⟨.within rfl rfl, .within rfl rfl⟩

theorem C98_ortho_aabb_p_lh_no {mem : Mem α} {boxP destP : Ptr} {box : M2x3 α} (padding : α) (h_box : Holds mem boxP box.list) (r_dest : Room mem destP 16) :
    C.glm_ortho_aabb_p_lh_no.run mem [boxP.val, .f padding, destP.val] =
      some (none, writes mem [(destP, (Cglm.glm_ortho_aabb_p_lh_no box padding).list.map .f)]) :=
  transferO (e := Lib.glm_ortho_aabb_p_lh_no) (up := true) (by kernel_rfl) (((RO.nil true _).addW r_dest.has r_dest .nil).addR h_box.has) (.p rfl (.f (.p rfl .nil))) (glm_ortho_aabb_p_lh_no_run _ _) (DT.val_done _) rfl rfl rfl
example (box : M2x3 α) : let mem : Mem α := [⟨true, box.list.map .f ++ List.replicate 16 .undef⟩]
    Holds mem (0, 0) box.list ∧ Room mem (0, 1) 16 :=
  ⟨.within rfl rfl, .within rfl rfl⟩

theorem C98_ortho_aabb_pz_lh_no {mem : Mem α} {boxP destP : Ptr} {box : M2x3 α} (padding : α) (h_box : Holds mem boxP box.list) (r_dest : Room mem destP 16) :
    C.glm_ortho_aabb_pz_lh_no.run mem [boxP.val, .f padding, destP.val] =
      some (none, writes mem [(destP, (Cglm.glm_ortho_aabb_pz_lh_no box padding).list.map .f)]) :=
  transferO (e := Lib.glm_ortho_aabb_pz_lh_no) (up := true) (by kernel_rfl) (((RO.nil true _).addW r_dest.has r_dest .nil).addR h_box.has) (.p rfl (.f (.p rfl .nil))) (glm_ortho_aabb_pz_lh_no_run _ _) (DT.val_done _) rfl rfl rfl
example (box : M2x3 α) : let mem : Mem α := [⟨true, box.list.map .f ++ List.replicate 16 .undef⟩]
    Holds mem (0, 0) box.list ∧ Room mem (0, 1) 16 :=
  ⟨.within rfl rfl, .within rfl rfl⟩

theorem C98_persp_decomp_lh_no {mem : Mem α} {projP nearZP farZP topP bottomP leftP rightP : Ptr} {proj : M4 α} (h_proj : Holds mem projP proj.list) (r_nearZ : Room mem nearZP 1) (r_farZ : Room mem farZP 1) (r_top : Room mem topP 1) (r_bottom : Room mem bottomP 1) (r_left : Room mem leftP 1) (r_right : Room mem rightP 1) (s_nearZ_farZ : Apart nearZP 1 farZP 1) (s_nearZ_top : Apart nearZP 1 topP 1) (s_nearZ_bottom : Apart nearZP 1 bottomP 1) (s_nearZ_left : Apart nearZP 1 leftP 1) (s_nearZ_right : Apart nearZP 1 rightP 1) (s_farZ_top : Apart farZP 1 topP 1) (s_farZ_bottom : Apart farZP 1 bottomP 1) (s_farZ_left : Apart farZP 1 leftP 1) (s_farZ_right : Apart farZP 1 rightP 1) (s_top_bottom : Apart topP 1 bottomP 1) (s_top_left : Apart topP 1 leftP 1) (s_top_right : Apart topP 1 rightP 1) (s_bottom_left : Apart bottomP 1 leftP 1) (s_bottom_right : Apart bottomP 1 rightP 1) (s_left_right : Apart leftP 1 rightP 1) :
    C.glm_persp_decomp_lh_no.run mem [projP.val, nearZP.val, farZP.val, topP.val, bottomP.val, leftP.val, rightP.val] =
      some (none, writes mem [(nearZP, [(Cglm.glm_persp_decomp_lh_no proj).1].map .f), (farZP, [(Cglm.glm_persp_decomp_lh_no proj).2.1].map .f), (topP, [(Cglm.glm_persp_decomp_lh_no proj).2.2.1].map .f), (bottomP, [(Cglm.glm_persp_decomp_lh_no proj).2.2.2.1].map .f), (leftP, [(Cglm.glm_persp_decomp_lh_no proj).2.2.2.2.1].map .f), (rightP, [(Cglm.glm_persp_decomp_lh_no proj).2.2.2.2.2].map .f)]) :=
  transferO (e := Lib.glm_persp_decomp_lh_no) (up := true) (by kernel_rfl) ((((((((RO.nil true _).addW r_right.has r_right .nil).addW r_left.has r_left (.cons s_left_right .nil)).addW r_bottom.has r_bottom (.cons s_bottom_left (.cons s_bottom_right .nil))).addW r_top.has r_top (.cons s_top_bottom (.cons s_top_left (.cons s_top_right .nil)))).addW r_farZ.has r_farZ (.cons s_farZ_top (.cons s_farZ_bottom (.cons s_farZ_left (.cons s_farZ_right .nil))))).addW r_nearZ.has r_nearZ (.cons s_nearZ_farZ (.cons s_nearZ_top (.cons s_nearZ_bottom (.cons s_nearZ_left (.cons s_nearZ_right .nil)))))).addR h_proj.has) (.p rfl (.p rfl (.p rfl (.p rfl (.p rfl (.p rfl (.p rfl .nil))))))) (glm_persp_decomp_lh_no_run _) (DT.val_done _) rfl rfl rfl
example (proj : M4 α) : let mem : Mem α := [⟨true, proj.list.map .f ++ List.replicate 1 .undef⟩, ⟨true, List.replicate 1 .undef⟩, ⟨true, List.replicate 1 .undef⟩, ⟨true, List.replicate 1 .undef⟩, ⟨true, List.replicate 1 .undef⟩, ⟨true, List.replicate 1 .undef⟩]
    Holds mem (0, 0) proj.list ∧ Room mem (0, 1) 1 ∧ Room mem (1, 0) 1 ∧ Room mem (2, 0) 1 ∧ Room mem (3, 0) 1 ∧ Room mem (4, 0) 1 ∧ Room mem (5, 0) 1 ∧ Apart (0, 1) 1 (1, 0) 1 ∧ Apart (0, 1) 1 (2, 0) 1 ∧ Apart (0, 1) 1 (3, 0) 1 ∧ Apart (0, 1) 1 (4, 0) 1 ∧ Apart (0, 1) 1 (5, 0) 1 ∧ Apart (1, 0) 1 (2, 0) 1 ∧ Apart (1, 0) 1 (3, 0) 1 ∧ Apart (1, 0) 1 (4, 0) 1 ∧ Apart (1, 0) 1 (5, 0) 1 ∧ Apart (2, 0) 1 (3, 0) 1 ∧ Apart (2, 0) 1 (4, 0) 1 ∧ Apart (2, 0) 1 (5, 0) 1 ∧ Apart (3, 0) 1 (4, 0) 1 ∧ Apart (3, 0) 1 (5, 0) 1 ∧ Apart (4, 0) 1 (5, 0) 1 :=
  ⟨.within rfl rfl, .within rfl rfl, .within rfl rfl, .within rfl rfl, .within rfl rfl, .within rfl rfl, .within rfl rfl, Or.inl (by decide), Or.inl (by decide), Or.inl (by decide), Or.inl (by decide), Or.inl (by decide), Or.inl (by decide), Or.inl (by decide), Or.inl (by decide), Or.inl (by decide), Or.inl (by decide), Or.inl (by decide), Or.inl (by decide), Or.inl (by decide), Or.inl (by decide), Or.inl (by decide)⟩

theorem C98_persp_decompv_lh_no {mem : Mem α} {projP destP : Ptr} {proj : M4 α} (h_proj : Holds mem projP proj.list) (r_dest : Room mem destP 6) :
    C.glm_persp_decompv_lh_no.run mem [projP.val, destP.val] =
      some (none, writes mem [(destP, (Cglm.glm_persp_decompv_lh_no proj).list.map .f)]) :=
  transferO (e := Lib.glm_persp_decompv_lh_no) (up := true) (by kernel_rfl) (((RO.nil true _).addW r_dest.has r_dest .nil).addR h_proj.has) (.p rfl (.p rfl .nil)) (glm_persp_decompv_lh_no_run _) (DT.val_done _) rfl rfl rfl
example (proj : M4 α) : let mem : Mem α := [⟨true, proj.list.map .f ++ List.replicate 6 .undef⟩]
    Holds mem (0, 0) proj.list ∧ Room mem (0, 1) 6 :=
  ⟨.within rfl rfl, .within rfl rfl⟩

theorem C98_persp_decomp_x_lh_no {mem : Mem α} {projP leftP rightP : Ptr} {proj : M4 α} (h_proj : Holds mem projP proj.list) (r_left : Room mem leftP 1) (r_right : Room mem rightP 1) (s_left_right : Apart leftP 1 rightP 1) :
    C.glm_persp_decomp_x_lh_no.run mem [projP.val, leftP.val, rightP.val] =
      some (none, writes mem [(leftP, [(Cglm.glm_persp_decomp_x_lh_no proj).1].map .f), (rightP, [(Cglm.glm_persp_decomp_x_lh_no proj).2].map .f)]) :=
  transferO (e := Lib.glm_persp_decomp_x_lh_no) (up := true) (by kernel_rfl) ((((RO.nil true _).addW r_right.has r_right .nil).addW r_left.has r_left (.cons s_left_right .nil)).addR h_proj.has) (.p rfl (.p rfl (.p rfl .nil))) (glm_persp_decomp_x_lh_no_run _) (DT.val_done _) rfl rfl rfl
example (proj : M4 α) : let mem : Mem α := [⟨true, proj.list.map .f ++ List.replicate 1 .undef⟩, ⟨true, List.replicate 1 .undef⟩]
    Holds mem (0, 0) proj.list ∧ Room mem (0, 1) 1 ∧ Room mem (1, 0) 1 ∧ Apart (0, 1) 1 (1, 0) 1 :=
  ⟨.within rfl rfl, .within rfl rfl, .within rfl rfl, Or.inl (by decide)⟩

theorem C98_persp_decomp_y_lh_no {mem : Mem α} {projP topP bottomP : Ptr} {proj : M4 α} (h_proj : Holds mem projP proj.list) (r_top : Room mem topP 1) (r_bottom : Room mem bottomP 1) (s_top_bottom : Apart topP 1 bottomP 1) :
    C.glm_persp_decomp_y_lh_no.run mem [projP.val, topP.val, bottomP.val] =
      some (none, writes mem [(topP, [(Cglm.glm_persp_decomp_y_lh_no proj).1].map .f), (bottomP, [(Cglm.glm_persp_decomp_y_lh_no proj).2].map .f)]) :=
  transferO (e := Lib.glm_persp_decomp_y_lh_no) (up := true) (by kernel_rfl) ((((RO.nil true _).addW r_bottom.has r_bottom .nil).addW r_top.has r_top (.cons s_top_bottom .nil)).addR h_proj.has) (.p rfl (.p rfl (.p rfl .nil))) (glm_persp_decomp_y_lh_no_run _) (DT.val_done _) rfl rfl rfl
example (proj : M4 α) : let mem : Mem α := [⟨true, proj.list.map .f ++ List.replicate 1 .undef⟩, ⟨true, List.replicate 1 .undef⟩]
    Holds mem (0, 0) proj.list ∧ Room mem (0, 1) 1 ∧ Room mem (1, 0) 1 ∧ Apart (0, 1) 1 (1, 0) 1 :=
  ⟨.within rfl rfl, .within rfl rfl, .within rfl rfl, Or.inl (by decide)⟩

theorem C98_persp_decomp_z_lh_no {mem : Mem α} {projP nearZP farZP : Ptr} {proj : M4 α} (h_proj : Holds mem projP proj.list) (r_nearZ : Room mem nearZP 1) (r_farZ : Room mem farZP 1) (s_nearZ_farZ : Apart nearZP 1 farZP 1) :
    C.glm_persp_decomp_z_lh_no.run mem [projP.val, nearZP.val, farZP.val] =
      some (none, writes mem [(nearZP, [(Cglm.glm_persp_decomp_z_lh_no proj).1].map .f), (farZP, [(Cglm.glm_persp_decomp_z_lh_no proj).2].map .f)]) :=
  transferO (e := Lib.glm_persp_decomp_z_lh_no) (up := true) (by kernel_rfl) ((((RO.nil true _).addW r_farZ.has r_farZ .nil).addW r_nearZ.has r_nearZ (.cons s_nearZ_farZ .nil)).addR h_proj.has) (.p rfl (.p rfl (.p rfl .nil))) (glm_persp_decomp_z_lh_no_run _) (DT.val_done _) rfl rfl rfl
example (proj : M4 α) : let mem : Mem α := [⟨true, proj.list.map .f ++ List.replicate 1 .undef⟩, ⟨true, List.replicate 1 .undef⟩]
    Holds mem (0, 0) proj.list ∧ Room mem (0, 1) 1 ∧ Room mem (1, 0) 1 ∧ Apart (0, 1) 1 (1, 0) 1 :=
  ⟨.within rfl rfl, .within rfl rfl, .within rfl rfl, Or.inl (by decide)⟩

theorem C98_persp_decomp_far_lh_no {mem : Mem α} {projP farZP : Ptr} {proj : M4 α} (h_proj : Holds mem projP proj.list) (r_farZ : Room mem farZP 1) :
    C.glm_persp_decomp_far_lh_no.run mem [projP.val, farZP.val] =
      some (none, writes mem [(farZP, [(Cglm.glm_persp_decomp_far_lh_no proj)].map .f)]) :=
  transferO (e := Lib.glm_persp_decomp_far_lh_no) (up := true) (by kernel_rfl) (((RO.nil true _).addW r_farZ.has r_farZ .nil).addR h_proj.has) (.p rfl (.p rfl .nil)) (glm_persp_decomp_far_lh_no_run _) (DT.val_done _) rfl rfl rfl
example (proj : M4 α) : let mem : Mem α := [⟨true, proj.list.map .f ++ List.replicate 1 .undef⟩]
    Holds mem (0, 0) proj.list ∧ Room mem (0, 1) 1 :=
  ⟨.within rfl rfl, .within rfl rfl⟩

theorem C98_persp_decomp_near_lh_no {mem : Mem α} {projP nearZP : Ptr} {proj : M4 α} (h_proj : Holds mem projP proj.list) (r_nearZ : Room mem nearZP 1) :
    C.glm_persp_decomp_near_lh_no.run mem [projP.val, nearZP.val] =
      some (none, writes mem [(nearZP, [(Cglm.glm_persp_decomp_near_lh_no proj)].map .f)]) :=
  transferO (e := Lib.glm_persp_decomp_near_lh_no) (up := true) (by kernel_rfl) (((RO.nil true _).addW r_nearZ.has r_nearZ .nil).addR h_proj.has) (.p rfl (.p rfl .nil)) (glm_persp_decomp_near_lh_no_run _) (DT.val_done _) rfl rfl rfl
example (proj : M4 α) : let mem : Mem α := [⟨true, proj.list.map .f ++ List.replicate 1 .undef⟩]
    Holds mem (0, 0) proj.list ∧ Room mem (0, 1) 1 :=
  ⟨.within rfl rfl, .within rfl rfl⟩

theorem C98_persp_sizes_lh_no {mem : Mem α} {projP destP : Ptr} {proj : M4 α} (fovy : α) (h_proj : Holds mem projP proj.list) (r_dest : Room mem destP 4) :
    C.glm_persp_sizes_lh_no.run mem [projP.val, .f fovy, destP.val] =
      some (none, writes mem [(destP, (Cglm.glm_persp_sizes_lh_no proj fovy).list.map .f)]) :=
  transferO (e := Lib.glm_persp_sizes_lh_no) (up := true) (by kernel_rfl) (((RO.nil true _).addW r_dest.has r_dest .nil).addR h_proj.has) (.p rfl (.f (.p rfl .nil))) (glm_persp_sizes_lh_no_run _ _) (DT.val_done _) rfl rfl rfl
example (proj : M4 α) : let mem : Mem α := [⟨true, proj.list.map .f ++ List.replicate 4 .undef⟩]
    Holds mem (0, 0) proj.list ∧ Room mem (0, 1) 4 :=
  ⟨.within rfl rfl, .within rfl rfl⟩

theorem C98_ortho_aabb_rh_zo {mem : Mem α} {boxP destP : Ptr} {box : M2x3 α} (h_box : Holds mem boxP box.list) (r_dest : Room mem destP 16) :
    C.glm_ortho_aabb_rh_zo.run mem [boxP.val, destP.val] =
      some (none, writes mem [(destP, (Cglm.glm_ortho_aabb_rh_zo box).list.map .f)]) :=
  transferO (e := Lib.glm_ortho_aabb_rh_zo) (up := true) (by kernel_rfl) (((RO.nil true _).addW r_dest.has r_dest .nil).addR h_box.has) (.p rfl (.p rfl .nil)) (glm_ortho_aabb_rh_zo_run _) (DT.val_done _) rfl rfl rfl
example (box : M2x3 α) : let mem : Mem α := [⟨true, box.list.map .f ++ List.replicate 16 .undef⟩]
    Holds mem (0, 0) box.list ∧ Room mem (0, 1) 16 :=
  ⟨.within rfl rfl, .within rfl rfl⟩

theorem C98_ortho_aabb_p_rh_zo {mem : Mem α} {boxP destP : Ptr} {box : M2x3 α} (padding : α) (h_box : Holds mem boxP box.list) (r_dest : Room mem destP 16) :
    C.glm_ortho_aabb_p_rh_zo.run mem [boxP.val, .f padding, destP.val] =
      some (none, writes mem [(destP, (Cglm.glm_ortho_aabb_p_rh_zo box padding).list.map .f)]) :=
  transferO (e := Lib.glm_ortho_aabb_p_rh_zo) (up := true) (by kernel_rfl) (((RO.nil true _).addW r_dest.has r_dest .nil).addR h_box.has) (.p rfl (.f (.p rfl .nil))) (glm_ortho_aabb_p_rh_zo_run _ _) (DT.val_done _) rfl rfl rfl
example (box : M2x3 α) : let mem : Mem α := [⟨true, box.list.map .f ++ List.replicate 16 .undef⟩]
    Holds mem (0, 0) box.list ∧ Room mem (0, 1) 16 :=
  ⟨.within rfl rfl, .within rfl rfl⟩

theorem C98_ortho_aabb_pz_rh_zo {mem : Mem α} {boxP destP : Ptr} {box : M2x3 α} (padding : α) (h_box : Holds mem boxP box.list) (r_dest : Room mem destP 16) :
    C.glm_ortho_aabb_pz_rh_zo.run mem [boxP.val, .f padding, destP.val] =
      some (none, writes mem [(destP, (Cglm.glm_ortho_aabb_pz_rh_zo box padding).list.map .f)]) :=
  transferO (e := Lib.glm_ortho_aabb_pz_rh_zo) (up := true) (by kernel_rfl) (((RO.nil true _).addW r_dest.has r_dest .nil).addR h_box.has) (.p rfl (.f (.p rfl .nil))) (glm_ortho_aabb_pz_rh_zo_run _ _) (DT.val_done _) rfl rfl rfl
example (box : M2x3 α) : let mem : Mem α := [⟨true, box.list.map .f ++ List.replicate 16 .undef⟩]
    Holds mem (0, 0) box.list ∧ Room mem (0, 1) 16 :=
  ⟨.within rfl rfl, .within rfl rfl⟩

theorem C98_persp_decomp_rh_zo {mem : Mem α} {projP nearZP farZP topP bottomP leftP rightP : Ptr} {proj : M4 α} (h_proj : Holds mem projP proj.list) (r_nearZ : Room mem nearZP 1) (r_farZ : Room mem farZP 1) (r_top : Room mem topP 1) (r_bottom : Room mem bottomP 1) (r_left : Room mem leftP 1) (r_right : Room mem rightP 1) (s_nearZ_farZ : Apart nearZP 1 farZP 1) (s_nearZ_top : Apart nearZP 1 topP 1) (s_nearZ_bottom : Apart nearZP 1 bottomP 1) (s_nearZ_left : Apart nearZP 1 leftP 1) (s_nearZ_right : Apart nearZP 1 rightP 1) (s_farZ_top : Apart farZP 1 topP 1) (s_farZ_bottom : Apart farZP 1 bottomP 1) (s_farZ_left : Apart farZP 1 leftP 1) (s_farZ_right : Apart farZP 1 rightP 1) (s_top_bottom : Apart topP 1 bottomP 1) (s_top_left : Apart topP 1 leftP 1) (s_top_right : Apart topP 1 rightP 1) (s_bottom_left : Apart bottomP 1 leftP 1) (s_bottom_right : Apart bottomP 1 rightP 1) (s_left_right : Apart leftP 1 rightP 1) :
    C.glm_persp_decomp_rh_zo.run mem [projP.val, nearZP.val, farZP.val, topP.val, bottomP.val, leftP.val, rightP.val] =
      some (none, writes mem [(nearZP, [(Cglm.glm_persp_decomp_rh_zo proj).1].map .f), (farZP, [(Cglm.glm_persp_decomp_rh_zo proj).2.1].map .f), (topP, [(Cglm.glm_persp_decomp_rh_zo proj).2.2.1].map .f), (bottomP, [(Cglm.glm_persp_decomp_rh_zo proj).2.2.2.1].map .f), (leftP, [(Cglm.glm_persp_decomp_rh_zo proj).2.2.2.2.1].map .f), (rightP, [(Cglm.glm_persp_decomp_rh_zo proj).2.2.2.2.2].map .f)]) :=
  transferO (e := Lib.glm_persp_decomp_rh_zo) (up := true) (by kernel_rfl) ((((((((RO.nil true _).addW r_right.has r_right .nil).addW r_left.has r_left (.cons s_left_right .nil)).addW r_bottom.has r_bottom (.cons s_bottom_left (.cons s_bottom_right .nil))).addW r_top.has r_top (.cons s_top_bottom (.cons s_top_left (.cons s_top_right .nil)))).addW r_farZ.has r_farZ (.cons s_farZ_top (.cons s_farZ_bottom (.cons s_farZ_left (.cons s_farZ_right .nil))))).addW r_nearZ.has r_nearZ (.cons s_nearZ_farZ (.cons s_nearZ_top (.cons s_nearZ_bottom (.cons s_nearZ_left (.cons s_nearZ_right .nil)))))).addR h_proj.has) (.p rfl (.p rfl (.p rfl (.p rfl (.p rfl (.p rfl (.p rfl .nil))))))) (glm_persp_decomp_rh_zo_run _) (DT.val_done _) rfl rfl rfl
example (proj : M4 α) : let mem : Mem α := [⟨true, proj.list.map .f ++ List.replicate 1 .undef⟩, ⟨true, List.replicate 1 .undef⟩, ⟨true, List.replicate 1 .undef⟩, ⟨true, List.replicate 1 .undef⟩, ⟨true, List.replicate 1 .undef⟩, ⟨true, List.replicate 1 .undef⟩]
    Holds mem (0, 0) proj.list ∧ Room mem (0, 1) 1 ∧ Room mem (1, 0) 1 ∧ Room mem (2, 0) 1 ∧ Room mem (3, 0) 1 ∧ Room mem (4, 0) 1 ∧ Room mem (5, 0) 1 ∧ Apart (0, 1) 1 (1, 0) 1 ∧ Apart (0, 1) 1 (2, 0) 1 ∧ Apart (0, 1) 1 (3, 0) 1 ∧ Apart (0, 1) 1 (4, 0) 1 ∧ Apart (0, 1) 1 (5, 0) 1 ∧ Apart (1, 0) 1 (2, 0) 1 ∧ Apart (1, 0) 1 (3, 0) 1 ∧ Apart (1, 0) 1 (4, 0) 1 ∧ Apart (1, 0) 1 (5, 0) 1 ∧ Apart (2, 0) 1 (3, 0) 1 ∧ Apart (2, 0) 1 (4, 0) 1 ∧ Apart (2, 0) 1 (5, 0) 1 ∧ Apart (3, 0) 1 (4, 0) 1 ∧ Apart (3, 0) 1 (5, 0) 1 ∧ Apart (4, 0) 1 (5, 0) 1 :=
  ⟨.within rfl rfl, .within rfl rfl, .within rfl rfl, .within rfl rfl, .within rfl rfl, .within rfl rfl, .within rfl rfl, Or.inl (by decide), Or.inl (by decide), Or.inl (by decide), Or.inl (by decide), Or.inl (by decide), Or.inl (by decide), Or.inl (by decide), Or.inl (by decide), Or.inl (by decide), Or.inl (by decide), Or.inl (by decide), Or.inl (by decide), Or.inl (by decide), Or.inl (by decide), Or.inl (by decide)⟩

theorem C98_persp_decompv_rh_zo {mem : Mem α} {projP destP : Ptr} {proj : M4 α} (h_proj : Holds mem projP proj.list) (r_dest : Room mem destP 6) :
    C.glm_persp_decompv_rh_zo.run mem [projP.val, destP.val] =
      some (none, writes mem [(destP, (Cglm.glm_persp_decompv_rh_zo proj).list.map .f)]) :=
  transferO (e := Lib.glm_persp_decompv_rh_zo) (up := true) (by kernel_rfl) (((RO.nil true _).addW r_dest.has r_dest .nil).addR h_proj.has) (.p rfl (.p rfl .nil)) (glm_persp_decompv_rh_zo_run _) (DT.val_done _) rfl rfl rfl
example (proj : M4 α) : let mem : Mem α := [⟨true, proj.list.map .f ++ List.replicate 6 .undef⟩]
    Holds mem (0, 0) proj.list ∧ Room mem (0, 1) 6 :=
  ⟨.within rfl rfl, .within rfl rfl⟩

theorem C98_persp_decomp_x_rh_zo {mem : Mem α} {projP leftP rightP : Ptr} {proj : M4 α} (h_proj : Holds mem projP proj.list) (r_left : Room mem leftP 1) (r_right : Room mem rightP 1) (s_left_right : Apart leftP 1 rightP 1) :
    C.glm_persp_decomp_x_rh_zo.run mem [projP.val, leftP.val, rightP.val] =
      some (none, writes mem [(leftP, [(Cglm.glm_persp_decomp_x_rh_zo proj).1].map .f), (rightP, [(Cglm.glm_persp_decomp_x_rh_zo proj).2].map .f)]) :=
  transferO (e := Lib.glm_persp_decomp_x_rh_zo) (up := true) (by kernel_rfl) ((((RO.nil true _).addW r_right.has r_right .nil).addW r_left.has r_left (.cons s_left_right .nil)).addR h_proj.has) (.p rfl (.p rfl (.p rfl .nil))) (glm_persp_decomp_x_rh_zo_run _) (DT.val_done _) rfl rfl rfl
example (proj : M4 α) : let mem : Mem α := [⟨true, proj.list.map .f ++ List.replicate 1 .undef⟩, ⟨true, List.replicate 1 .undef⟩]
    Holds mem (0, 0) proj.list ∧ Room mem (0, 1) 1 ∧ Room mem (1, 0) 1 ∧ Apart (0, 1) 1 (1, 0) 1 :=
  ⟨.within rfl rfl, .within rfl rfl, .within rfl rfl, Or.inl (by decide)⟩

theorem C98_persp_decomp_y_rh_zo {mem : Mem α} {projP topP bottomP : Ptr} {proj : M4 α} (h_proj : Holds mem projP proj.list) (r_top : Room mem topP 1) (r_bottom : Room mem bottomP 1) (s_top_bottom : Apart topP 1 bottomP 1) :
    C.glm_persp_decomp_y_rh_zo.run mem [projP.val, topP.val, bottomP.val] =
      some (none, writes mem [(topP, [(Cglm.glm_persp_decomp_y_rh_zo proj).1].map .f), (bottomP, [(Cglm.glm_persp_decomp_y_rh_zo proj).2].map .f)]) :=
  transferO (e := Lib.glm_persp_decomp_y_rh_zo) (up := true) (by kernel_rfl) ((((RO.nil true _).addW r_bottom.has r_bottom .nil).addW r_top.has r_top (.cons s_top_bottom .nil)).addR h_proj.has) (.p rfl (.p rfl (.p rfl .nil))) (glm_persp_decomp_y_rh_zo_run _) (DT.val_done _) rfl rfl rfl
example (proj : M4 α) : let mem : Mem α := [⟨true, proj.list.map .f ++ List.replicate 1 .undef⟩, ⟨true, List.replicate 1 .undef⟩]
    Holds mem (0, 0) proj.list ∧ Room mem (0, 1) 1 ∧ Room mem (1, 0) 1 ∧ Apart (0, 1) 1 (1, 0) 1 :=
  ⟨.within rfl rfl, .within rfl rfl, .within rfl rfl, Or.inl (by decide)⟩

theorem C98_persp_decomp_z_rh_zo {mem : Mem α} {projP nearZP farZP : Ptr} {proj : M4 α} (h_proj : Holds mem projP proj.list) (r_nearZ : Room mem nearZP 1) (r_farZ : Room mem farZP 1) (s_nearZ_farZ : Apart nearZP 1 farZP 1) :
    C.glm_persp_decomp_z_rh_zo.run mem [projP.val, nearZP.val, farZP.val] =
      some (none, writes mem [(nearZP, [(Cglm.glm_persp_decomp_z_rh_zo proj).1].map .f), (farZP, [(Cglm.glm_persp_decomp_z_rh_zo proj).2].map .f)]) :=
  transferO (e := Lib.glm_persp_decomp_z_rh_zo) (up := true) (by kernel_rfl) ((((RO.nil true _).addW r_farZ.has r_farZ .nil).addW r_nearZ.has r_nearZ (.cons s_nearZ_farZ .nil)).addR h_proj.has) (.p rfl (.p rfl (.p rfl .nil))) (glm_persp_decomp_z_rh_zo_run _) (DT.val_done _) rfl rfl rfl
example (proj : M4 α) : let mem : Mem α := [⟨true, proj.list.map .f ++ List.replicate 1 .undef⟩, ⟨true, List.replicate 1 .undef⟩]
    Holds mem (0, 0) proj.list ∧ Room mem (0, 1) 1 ∧ Room mem (1, 0) 1 ∧ Apart (0, 1) 1 (1, 0) 1 :=
  ⟨.within rfl rfl, .within rfl rfl, .within rfl rfl, Or.inl (by decide)⟩

theorem C98_persp_decomp_far_rh_zo {mem : Mem α} {projP farZP : Ptr} {proj : M4 α} (h_proj : Holds mem projP proj.list) (r_farZ : Room mem farZP 1) :
    C.glm_persp_decomp_far_rh_zo.run mem [projP.val, farZP.val] =
      some (none, writes mem [(farZP, [(Cglm.glm_persp_decomp_far_rh_zo proj)].map .f)]) :=
  transferO (e := Lib.glm_persp_decomp_far_rh_zo) (up := true) (by kernel_rfl) (((RO.nil true _).addW r_farZ.has r_farZ .nil).addR h_proj.has) (.p rfl (.p rfl .nil)) (glm_persp_decomp_far_rh_zo_run _) (DT.val_done _) rfl rfl rfl
example (proj : M4 α) : let mem : Mem α := [⟨true, proj.list.map .f ++ List.replicate 1 .undef⟩]
    Holds mem (0, 0) proj.list ∧ Room mem (0, 1) 1 :=
  ⟨.within rfl rfl, .within rfl rfl⟩

theorem C98_persp_decomp_near_rh_zo {mem : Mem α} {projP nearZP : Ptr} {proj : M4 α} (h_proj : Holds mem projP proj.list) (r_nearZ : Room mem nearZP 1) :
    C.glm_persp_decomp_near_rh_zo.run mem [projP.val, nearZP.val] =
      some (none, writes mem [(nearZP, [(Cglm.glm_persp_decomp_near_rh_zo proj)].map .f)]) :=
  transferO (e := Lib.glm_persp_decomp_near_rh_zo) (up := true) (by kernel_rfl) (((RO.nil true _).addW r_nearZ.has r_nearZ .nil).addR h_proj.has) (.p rfl (.p rfl .nil)) (glm_persp_decomp_near_rh_zo_run _) (DT.val_done _) rfl rfl rfl
example (proj : M4 α) : let mem : Mem α := [⟨true, proj.list.map .f ++ List.replicate 1 .undef⟩]
    Holds mem (0, 0) proj.list ∧ Room mem (0, 1) 1 :=
  ⟨.within rfl rfl, .within rfl rfl⟩

theorem C98_persp_sizes_rh_zo {mem : Mem α} {projP destP : Ptr} {proj : M4 α} (fovy : α) (h_proj : Holds mem projP proj.list) (r_dest : Room mem destP 4) :
    C.glm_persp_sizes_rh_zo.run mem [projP.val, .f fovy, destP.val] =
      some (none, writes mem [(destP, (Cglm.glm_persp_sizes_rh_zo proj fovy).list.map .f)]) :=
  transferO (e := Lib.glm_persp_sizes_rh_zo) (up := true) (by kernel_rfl) (((RO.nil true _).addW r_dest.has r_dest .nil).addR h_proj.has) (.p rfl (.f (.p rfl .nil))) (glm_persp_sizes_rh_zo_run _ _) (DT.val_done _) rfl rfl rfl
example (proj : M4 α) : let mem : Mem α := [⟨true, proj.list.map .f ++ List.replicate 4 .undef⟩]
    Holds mem (0, 0) proj.list ∧ Room mem (0, 1) 4 :=
  ⟨.within rfl rfl, .within rfl rfl⟩

theorem C98_ortho_aabb_rh_no {mem : Mem α} {boxP destP : Ptr} {box : M2x3 α} (h_box : Holds mem boxP box.list) (r_dest : Room mem destP 16) :
    C.glm_ortho_aabb_rh_no.run mem [boxP.val, destP.val] =
      some (none, writes mem [(destP, (Cglm.glm_ortho_aabb_rh_no box).list.map .f)]) :=
  transferO (e := Lib.glm_ortho_aabb_rh_no) (up := true) (by kernel_rfl) (((RO.nil true _).addW r_dest.has r_dest .nil).addR h_box.has) (.p rfl (.p rfl .nil)) (glm_ortho_aabb_rh_no_run _) (DT.val_done _) rfl rfl rfl
example (box : M2x3 α) : let mem : Mem α := [⟨true, box.list.map .f ++ List.replicate 16 .undef⟩]
    Holds mem (0, 0) box.list ∧ Room mem (0, 1) 16 :=
  ⟨.within rfl rfl, .within rfl rfl⟩

theorem C98_ortho_aabb_p_rh_no {mem : Mem α} {boxP destP : Ptr} {box : M2x3 α} (padding : α) (h_box : Holds mem boxP box.list) (r_dest : Room mem destP 16) :
    C.glm_ortho_aabb_p_rh_no.run mem [boxP.val, .f padding, destP.val] =
      some (none, writes mem [(destP, (Cglm.glm_ortho_aabb_p_rh_no box padding).list.map .f)]) :=
  transferO (e := Lib.glm_ortho_aabb_p_rh_no) (up := true) (by kernel_rfl) (((RO.nil true _).addW r_dest.has r_dest .nil).addR h_box.has) (.p rfl (.f (.p rfl .nil))) (glm_ortho_aabb_p_rh_no_run _ _) (DT.val_done _) rfl rfl rfl
example (box : M2x3 α) : let mem : Mem α := [⟨true, box.list.map .f ++ List.replicate 16 .undef⟩]
    Holds mem (0, 0) box.list ∧ Room mem (0, 1) 16 :=
  ⟨.within rfl rfl, .within rfl rfl⟩

theorem C98_ortho_aabb_pz_rh_no {mem : Mem α} {boxP destP : Ptr} {box : M2x3 α} (padding : α) (h_box : Holds mem boxP box.list) (r_dest : Room mem destP 16) :
    C.glm_ortho_aabb_pz_rh_no.run mem [boxP.val, .f padding, destP.val] =
      some (none, writes mem [(destP, (Cglm.glm_ortho_aabb_pz_rh_no box padding).list.map .f)]) :=
  transferO (e := Lib.glm_ortho_aabb_pz_rh_no) (up := true) (by kernel_rfl) (((RO.nil true _).addW r_dest.has r_dest .nil).addR h_box.has) (.p rfl (.f (.p rfl .nil))) (glm_ortho_aabb_pz_rh_no_run _ _) (DT.val_done _) rfl rfl rfl
example (box : M2x3 α) : let mem : Mem α := [⟨true, box.list.map .f ++ List.replicate 16 .undef⟩]
    Holds mem (0, 0) box.list ∧ Room mem (0, 1) 16 :=
  ⟨.within rfl rfl, .within rfl rfl⟩

theorem C98_persp_decomp_rh_no {mem : Mem α} {projP nearZP farZP topP bottomP leftP rightP : Ptr} {proj : M4 α} (h_proj : Holds mem projP proj.list) (r_nearZ : Room mem nearZP 1) (r_farZ : Room mem farZP 1) (r_top : Room mem topP 1) (r_bottom : Room mem bottomP 1) (r_left : Room mem leftP 1) (r_right : Room mem rightP 1) (s_nearZ_farZ : Apart nearZP 1 farZP 1) (s_nearZ_top : Apart nearZP 1 topP 1) (s_nearZ_bottom : Apart nearZP 1 bottomP 1) (s_nearZ_left : Apart nearZP 1 leftP 1) (s_nearZ_right : Apart nearZP 1 rightP 1) (s_farZ_top : Apart farZP 1 topP 1) (s_farZ_bottom : Apart farZP 1 bottomP 1) (s_farZ_left : Apart farZP 1 leftP 1) (s_farZ_right : Apart farZP 1 rightP 1) (s_top_bottom : Apart topP 1 bottomP 1) (s_top_left : Apart topP 1 leftP 1) (s_top_right : Apart topP 1 rightP 1) (s_bottom_left : Apart bottomP 1 leftP 1) (s_bottom_right : Apart bottomP 1 rightP 1) (s_left_right : Apart leftP 1 rightP 1) :
    C.glm_persp_decomp_rh_no.run mem [projP.val, nearZP.val, farZP.val, topP.val, bottomP.val, leftP.val, rightP.val] =
      some (none, writes mem [(nearZP, [(Cglm.glm_persp_decomp_rh_no proj).1].map .f), (farZP, [(Cglm.glm_persp_decomp_rh_no proj).2.1].map .f), (topP, [(Cglm.glm_persp_decomp_rh_no proj).2.2.1].map .f), (bottomP, [(Cglm.glm_persp_decomp_rh_no proj).2.2.2.1].map .f), (leftP, [(Cglm.glm_persp_decomp_rh_no proj).2.2.2.2.1].map .f), (rightP, [(Cglm.glm_persp_decomp_rh_no proj).2.2.2.2.2].map .f)]) :=
  transferO (e := Lib.glm_persp_decomp_rh_no) (up := true) (by kernel_rfl) ((((((((RO.nil true _).addW r_right.has r_right .nil).addW r_left.has r_left (.cons s_left_right .nil)).addW r_bottom.has r_bottom (.cons s_bottom_left (.cons s_bottom_right .nil))).addW r_top.has r_top (.cons s_top_bottom (.cons s_top_left (.cons s_top_right .nil)))).addW r_farZ.has r_farZ (.cons s_farZ_top (.cons s_farZ_bottom (.cons s_farZ_left (.cons s_farZ_right .nil))))).addW r_nearZ.has r_nearZ (.cons s_nearZ_farZ (.cons s_nearZ_top (.cons s_nearZ_bottom (.cons s_nearZ_left (.cons s_nearZ_right .nil)))))).addR h_proj.has) (.p rfl (.p rfl (.p rfl (.p rfl (.p rfl (.p rfl (.p rfl .nil))))))) (glm_persp_decomp_rh_no_run _) (DT.val_done _) rfl rfl rfl
example (proj : M4 α) : let mem : Mem α := [⟨true, proj.list.map .f ++ List.replicate 1 .undef⟩, ⟨true, List.replicate 1 .undef⟩, ⟨true, List.replicate 1 .undef⟩, ⟨true, List.replicate 1 .undef⟩, ⟨true, List.replicate 1 .undef⟩, ⟨true, List.replicate 1 .undef⟩]
    Holds mem (0, 0) proj.list ∧ Room mem (0, 1) 1 ∧ Room mem (1, 0) 1 ∧ Room mem (2, 0) 1 ∧ Room mem (3, 0) 1 ∧ Room mem (4, 0) 1 ∧ Room mem (5, 0) 1 ∧ Apart (0, 1) 1 (1, 0) 1 ∧ Apart (0, 1) 1 (2, 0) 1 ∧ Apart (0, 1) 1 (3, 0) 1 ∧ Apart (0, 1) 1 (4, 0) 1 ∧ Apart (0, 1) 1 (5, 0) 1 ∧ Apart (1, 0) 1 (2, 0) 1 ∧ Apart (1, 0) 1 (3, 0) 1 ∧ Apart (1, 0) 1 (4, 0) 1 ∧ Apart (1, 0) 1 (5, 0) 1 ∧ Apart (2, 0) 1 (3, 0) 1 ∧ Apart (2, 0) 1 (4, 0) 1 ∧ Apart (2, 0) 1 (5, 0) 1 ∧ Apart (3, 0) 1 (4, 0) 1 ∧ Apart (3, 0) 1 (5, 0) 1 ∧ Apart (4, 0) 1 (5, 0) 1 :=
  ⟨.within rfl rfl, .within rfl rfl, .within rfl rfl, .within rfl rfl, .within rfl rfl, .within rfl rfl, .within rfl rfl, Or.inl (by decide), Or.inl (by decide), Or.inl (by decide), Or.inl (by decide), Or.inl (by decide), Or.inl (by decide), Or.inl (by decide), Or.inl (by decide), Or.inl (by decide), Or.inl (by decide), Or.inl (by decide), Or.inl (by decide), Or.inl (by decide), Or.inl (by decide), Or.inl (by decide)⟩

theorem C98_persp_decompv_rh_no {mem : Mem α} {projP destP : Ptr} {proj : M4 α} (h_proj : Holds mem projP proj.list) (r_dest : Room mem destP 6) :
    C.glm_persp_decompv_rh_no.run mem [projP.val, destP.val] =
      some (none, writes mem [(destP, (Cglm.glm_persp_decompv_rh_no proj).list.map .f)]) :=
  transferO (e := Lib.glm_persp_decompv_rh_no) (up := true) (by kernel_rfl) (((RO.nil true _).addW r_dest.has r_dest .nil).addR h_proj.has) (.p rfl (.p rfl .nil)) (glm_persp_decompv_rh_no_run _) (DT.val_done _) rfl rfl rfl
example (proj : M4 α) : let mem : Mem α := [⟨true, proj.list.map .f ++ List.replicate 6 .undef⟩]
    Holds mem (0, 0) proj.list ∧ Room mem (0, 1) 6 :=
  ⟨.within rfl rfl, .within rfl rfl⟩

theorem C98_persp_decomp_x_rh_no {mem : Mem α} {projP leftP rightP : Ptr} {proj : M4 α} (h_proj : Holds mem projP proj.list) (r_left : Room mem leftP 1) (r_right : Room mem rightP 1) (s_left_right : Apart leftP 1 rightP 1) :
    C.glm_persp_decomp_x_rh_no.run mem [projP.val, leftP.val, rightP.val] =
      some (none, writes mem [(leftP, [(Cglm.glm_persp_decomp_x_rh_no proj).1].map .f), (rightP, [(Cglm.glm_persp_decomp_x_rh_no proj).2].map .f)]) :=
  transferO (e := Lib.glm_persp_decomp_x_rh_no) (up := true) (by kernel_rfl) ((((RO.nil true _).addW r_right.has r_right .nil).addW r_left.has r_left (.cons s_left_right .nil)).addR h_proj.has) (.p rfl (.p rfl (.p rfl .nil))) (glm_persp_decomp_x_rh_no_run _) (DT.val_done _) rfl rfl rfl
example (proj : M4 α) : let mem : Mem α := [⟨true, proj.list.map .f ++ List.replicate 1 .undef⟩, ⟨true, List.replicate 1 .undef⟩]
    Holds mem (0, 0) proj.list ∧ Room mem (0, 1) 1 ∧ Room mem (1, 0) 1 ∧ Apart (0, 1) 1 (1, 0) 1 :=
  ⟨.within rfl rfl, .within rfl rfl, .within rfl rfl, Or.inl (by decide)⟩

theorem C98_persp_decomp_y_rh_no {mem : Mem α} {projP topP bottomP : Ptr} {proj : M4 α} (h_proj : Holds mem projP proj.list) (r_top : Room mem topP 1) (r_bottom : Room mem bottomP 1) (s_top_bottom : Apart topP 1 bottomP 1) :
    C.glm_persp_decomp_y_rh_no.run mem [projP.val, topP.val, bottomP.val] =
      some (none, writes mem [(topP, [(Cglm.glm_persp_decomp_y_rh_no proj).1].map .f), (bottomP, [(Cglm.glm_persp_decomp_y_rh_no proj).2].map .f)]) :=
  transferO (e := Lib.glm_persp_decomp_y_rh_no) (up := true) (by kernel_rfl) ((((RO.nil true _).addW r_bottom.has r_bottom .nil).addW r_top.has r_top (.cons s_top_bottom .nil)).addR h_proj.has) (.p rfl (.p rfl (.p rfl .nil))) (glm_persp_decomp_y_rh_no_run _) (DT.val_done _) rfl rfl rfl
example (proj : M4 α) : let mem : Mem α := [⟨true, proj.list.map .f ++ List.replicate 1 .undef⟩, ⟨true, List.replicate 1 .undef⟩]
    Holds mem (0, 0) proj.list ∧ Room mem (0, 1) 1 ∧ Room mem (1, 0) 1 ∧ Apart (0, 1) 1 (1, 0) 1 :=
  ⟨.within rfl rfl, .within rfl rfl, .within rfl rfl, Or.inl (by decide)⟩

theorem C98_persp_decomp_z_rh_no {mem : Mem α} {projP nearZP farZP : Ptr} {proj : M4 α} (h_proj : Holds mem projP proj.list) (r_nearZ : Room mem nearZP 1) (r_farZ : Room mem farZP 1) (s_nearZ_farZ : Apart nearZP 1 farZP 1) :
    C.glm_persp_decomp_z_rh_no.run mem [projP.val, nearZP.val, farZP.val] =
      some (none, writes mem [(nearZP, [(Cglm.glm_persp_decomp_z_rh_no proj).1].map .f), (farZP, [(Cglm.glm_persp_decomp_z_rh_no proj).2].map .f)]) :=
  transferO (e := Lib.glm_persp_decomp_z_rh_no) (up := true) (by kernel_rfl) ((((RO.nil true _).addW r_farZ.has r_farZ .nil).addW r_nearZ.has r_nearZ (.cons s_nearZ_farZ .nil)).addR h_proj.has) (.p rfl (.p rfl (.p rfl .nil))) (glm_persp_decomp_z_rh_no_run _) (DT.val_done _) rfl rfl rfl
example (proj : M4 α) : let mem : Mem α := [⟨true, proj.list.map .f ++ List.replicate 1 .undef⟩, ⟨true, List.replicate 1 .undef⟩]
    Holds mem (0, 0) proj.list ∧ Room mem (0, 1) 1 ∧ Room mem (1, 0) 1 ∧ Apart (0, 1) 1 (1, 0) 1 :=
  ⟨.within rfl rfl, .within rfl rfl, .within rfl rfl, Or.inl (by decide)⟩

theorem C98_persp_decomp_far_rh_no {mem : Mem α} {projP farZP : Ptr} {proj : M4 α} (h_proj : Holds mem projP proj.list) (r_farZ : Room mem farZP 1) :
    C.glm_persp_decomp_far_rh_no.run mem [projP.val, farZP.val] =
      some (none, writes mem [(farZP, [(Cglm.glm_persp_decomp_far_rh_no proj)].map .f)]) :=
  transferO (e := Lib.glm_persp_decomp_far_rh_no) (up := true) (by kernel_rfl) (((RO.nil true _).addW r_farZ.has r_farZ .nil).addR h_proj.has) (.p rfl (.p rfl .nil)) (glm_persp_decomp_far_rh_no_run _) (DT.val_done _) rfl rfl rfl
example (proj : M4 α) : let mem : Mem α := [⟨true, proj.list.map .f ++ List.replicate 1 .undef⟩]
    Holds mem (0, 0) proj.list ∧ Room mem (0, 1) 1 :=
  ⟨.within rfl rfl, .within rfl rfl⟩

theorem C98_persp_decomp_near_rh_no {mem : Mem α} {projP nearZP : Ptr} {proj : M4 α} (h_proj : Holds mem projP proj.list) (r_nearZ : Room mem nearZP 1) :
    C.glm_persp_decomp_near_rh_no.run mem [projP.val, nearZP.val] =
      some (none, writes mem [(nearZP, [(Cglm.glm_persp_decomp_near_rh_no proj)].map .f)]) :=
  transferO (e := Lib.glm_persp_decomp_near_rh_no) (up := true) (by kernel_rfl) (((RO.nil true _).addW r_nearZ.has r_nearZ .nil).addR h_proj.has) (.p rfl (.p rfl .nil)) (glm_persp_decomp_near_rh_no_run _) (DT.val_done _) rfl rfl rfl
example (proj : M4 α) : let mem : Mem α := [⟨true, proj.list.map .f ++ List.replicate 1 .undef⟩]
    Holds mem (0, 0) proj.list ∧ Room mem (0, 1) 1 :=
  ⟨.within rfl rfl, .within rfl rfl⟩

theorem C98_persp_sizes_rh_no {mem : Mem α} {projP destP : Ptr} {proj : M4 α} (fovy : α) (h_proj : Holds mem projP proj.list) (r_dest : Room mem destP 4) :
    C.glm_persp_sizes_rh_no.run mem [projP.val, .f fovy, destP.val] =
      some (none, writes mem [(destP, (Cglm.glm_persp_sizes_rh_no proj fovy).list.map .f)]) :=
  transferO (e := Lib.glm_persp_sizes_rh_no) (up := true) (by kernel_rfl) (((RO.nil true _).addW r_dest.has r_dest .nil).addR h_proj.has) (.p rfl (.f (.p rfl .nil))) (glm_persp_sizes_rh_no_run _ _) (DT.val_done _) rfl rfl rfl
example (proj : M4 α) : let mem : Mem α := [⟨true, proj.list.map .f ++ List.replicate 4 .undef⟩]
    Holds mem (0, 0) proj.list ∧ Room mem (0, 1) 4 :=
  ⟨.within rfl rfl, .within rfl rfl⟩

theorem C98_unprojecti_zo {mem : Mem α} {posP invMatP vpP destP : Ptr} {pos : V3 α} {invMat : M4 α} {vp : V4 α} (h_pos : Holds mem posP pos.list) (h_invMat : Holds mem invMatP invMat.list) (h_vp : Holds mem vpP vp.list) (r_dest : Room mem destP 3) :
    C.glm_unprojecti_zo.run mem [posP.val, invMatP.val, vpP.val, destP.val] =
      some (none, writes mem [(destP, (Cglm.glm_unprojecti_zo pos invMat vp).list.map .f)]) :=
  transferO (e := Lib.glm_unprojecti_zo) (up := true) (by kernel_rfl) (((((RO.nil true _).addW r_dest.has r_dest .nil).addR h_vp.has).addR h_invMat.has).addR h_pos.has) (.p rfl (.p rfl (.p rfl (.p rfl .nil)))) (glm_unprojecti_zo_run _ _ _) (DT.val_done _) rfl rfl rfl
example (pos : V3 α) (invMat : M4 α) (vp : V4 α) : let mem : Mem α := [⟨true, pos.list.map .f ++ List.replicate 3 .undef⟩, ⟨false, invMat.list.map .f⟩, ⟨false, vp.list.map .f⟩]
    Holds mem (0, 0) pos.list ∧ Holds mem (1, 0) invMat.list ∧ Holds mem (2, 0) vp.list ∧ Room mem (0, 1) 3 :=
  ⟨.within rfl rfl, .within rfl rfl, .within rfl rfl, .within rfl rfl⟩

theorem C98_unprojecti_no {mem : Mem α} {posP invMatP vpP destP : Ptr} {pos : V3 α} {invMat : M4 α} {vp : V4 α} (h_pos : Holds mem posP pos.list) (h_invMat : Holds mem invMatP invMat.list) (h_vp : Holds mem vpP vp.list) (r_dest : Room mem destP 3) :
    C.glm_unprojecti_no.run mem [posP.val, invMatP.val, vpP.val, destP.val] =
      some (none, writes mem [(destP, (Cglm.glm_unprojecti_no pos invMat vp).list.map .f)]) :=
  transferO (e := Lib.glm_unprojecti_no) (up := true) (by kernel_rfl) (((((RO.nil true _).addW r_dest.has r_dest .nil).addR h_vp.has).addR h_invMat.has).addR h_pos.has) (.p rfl (.p rfl (.p rfl (.p rfl .nil)))) (glm_unprojecti_no_run _ _ _) (DT.val_done _) rfl rfl rfl
example (pos : V3 α) (invMat : M4 α) (vp : V4 α) : let mem : Mem α := [⟨true, pos.list.map .f ++ List.replicate 3 .undef⟩, ⟨false, invMat.list.map .f⟩, ⟨false, vp.list.map .f⟩]
    Holds mem (0, 0) pos.list ∧ Holds mem (1, 0) invMat.list ∧ Holds mem (2, 0) vp.list ∧ Room mem (0, 1) 3 :=
  ⟨.within rfl rfl, .within rfl rfl, .within rfl rfl, .within rfl rfl⟩

theorem C98_project_no {mem : Mem α} {posP mP vpP destP : Ptr} {pos : V3 α} {m : M4 α} {vp : V4 α} (h_pos : Holds mem posP pos.list) (h_m : Holds mem mP m.list) (h_vp : Holds mem vpP vp.list) (r_dest : Room mem destP 3) (o_pos_dest : Over posP 3 destP 3) (o_m_dest : Over mP 16 destP 3) (o_vp_dest : Over vpP 4 destP 3) :
    C.glm_project_no.run mem [posP.val, mP.val, vpP.val, destP.val] =
      some (none, writes mem [(destP, (Cglm.glm_project_no pos m vp).list.map .f)]) :=
  transferO (e := Lib.glm_project_no) (up := false) (by kernel_rfl) (((((RO.nil false _).addP r_dest.has r_dest .nil .nil).addO h_vp.has (.cons o_vp_dest .nil)).addO h_m.has (.skip (.cons o_m_dest .nil))).addO h_pos.has (.skip (.skip (.cons o_pos_dest .nil)))) (.p rfl (.p rfl (.p rfl (.p rfl .nil)))) (glm_project_no_run _ _ _) (DT.val_done _) rfl rfl rfl
example (pos : V3 α) (m : M4 α) (vp : V4 α) : let mem : Mem α := [⟨true, .undef :: pos.list.map .f⟩, ⟨false, m.list.map .f⟩, ⟨false, vp.list.map .f⟩]
    Holds mem (0, 1) pos.list ∧ Holds mem (1, 0) m.list ∧ Holds mem (2, 0) vp.list ∧ Room mem (0, 0) 3 ∧ Over (0, 1) 3 (0, 0) 3 ∧ Over (1, 0) 16 (0, 0) 3 ∧ Over (2, 0) 4 (0, 0) 3 :=
  ⟨.within rfl rfl, .within rfl rfl, .within rfl rfl, .within rfl rfl, Or.inl (by decide), Or.inl (by decide), Or.inl (by decide)⟩

end Cglm
