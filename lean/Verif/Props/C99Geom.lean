/- Generated by tools/partthms.py; do not edit by hand. -/
import Verif.CMemPart
import Verif.Lib.Geom
import Verif.Mem.GeomsRun
import Verif.Mem.AffinesRun
import Verif.Mem.VecsRun

/-!
# C99: components that need not be initialised

`Part mem p l vs`: the array at `p` holds `vs`, but the cells in `l` may hold anything or nothing.  The call is defined and its
result is the value-level function of `vs`, whatever entries `vs` has at those cells.  Inputs and outputs may overlap as in C98.
-/

set_option linter.unusedVariables false
set_option linter.unusedSectionVars false

namespace Cglm
open CMem

variable {α : Type} [Add α] [Sub α] [Mul α] [Div α] [Neg α] [CFloat α]

theorem C99_persp_decomp {mem : Mem α} {projP nearZP farZP topP bottomP leftP rightP : Ptr} {proj : M4 α} (h_proj : Part mem projP [1, 2, 3, 4, 6, 7, 11, 12, 13, 15] proj.list) (r_nearZ : Room mem nearZP 1) (r_farZ : Room mem farZP 1) (r_top : Room mem topP 1) (r_bottom : Room mem bottomP 1) (r_left : Room mem leftP 1) (r_right : Room mem rightP 1) (s_nearZ_farZ : Apart nearZP 1 farZP 1) (s_nearZ_top : Apart nearZP 1 topP 1) (s_nearZ_bottom : Apart nearZP 1 bottomP 1) (s_nearZ_left : Apart nearZP 1 leftP 1) (s_nearZ_right : Apart nearZP 1 rightP 1) (s_farZ_top : Apart farZP 1 topP 1) (s_farZ_bottom : Apart farZP 1 bottomP 1) (s_farZ_left : Apart farZP 1 leftP 1) (s_farZ_right : Apart farZP 1 rightP 1) (s_top_bottom : Apart topP 1 bottomP 1) (s_top_left : Apart topP 1 leftP 1) (s_top_right : Apart topP 1 rightP 1) (s_bottom_left : Apart bottomP 1 leftP 1) (s_bottom_right : Apart bottomP 1 rightP 1) (s_left_right : Apart leftP 1 rightP 1) :
    C.glm_persp_decomp.run mem [projP.val, nearZP.val, farZP.val, topP.val, bottomP.val, leftP.val, rightP.val] =
      some (none, writes mem [(nearZP, [(Cglm.glm_persp_decomp proj).1].map .f), (farZP, [(Cglm.glm_persp_decomp proj).2.1].map .f), (topP, [(Cglm.glm_persp_decomp proj).2.2.1].map .f), (bottomP, [(Cglm.glm_persp_decomp proj).2.2.2.1].map .f), (leftP, [(Cglm.glm_persp_decomp proj).2.2.2.2.1].map .f), (rightP, [(Cglm.glm_persp_decomp proj).2.2.2.2.2].map .f)]) :=
  transferPart (e := Lib.glm_persp_decomp) (l := []) (u := [(0, [1, 2, 3, 4, 6, 7, 11, 12, 13, 15])]) (by kernel_rfl) rfl ((((((((RO.nil true _).addW r_right.has r_right .nil).addW r_left.has r_left (.cons s_left_right .nil)).addW r_bottom.has r_bottom (.cons s_bottom_left (.cons s_bottom_right .nil))).addW r_top.has r_top (.cons s_top_bottom (.cons s_top_left (.cons s_top_right .nil)))).addW r_farZ.has r_farZ (.cons s_farZ_top (.cons s_farZ_bottom (.cons s_farZ_left (.cons s_farZ_right .nil))))).addW r_nearZ.has r_nearZ (.cons s_nearZ_farZ (.cons s_nearZ_top (.cons s_nearZ_bottom (.cons s_nearZ_left (.cons s_nearZ_right .nil)))))).addR h_proj.has) .nil (.p rfl (.p rfl (.p rfl (.p rfl (.p rfl (.p rfl (.p rfl .nil))))))) (glm_persp_decomp_run _) (DT.val_done _) rfl rfl rfl rfl
example (proj : M4 α) : let mem : Mem α := [⟨false, [.f proj.c0.x, .undef, .undef, .undef, .undef, .f proj.c1.y, .undef, .undef, .f proj.c2.x, .f proj.c2.y, .f proj.c2.z, .undef, .undef, .undef, .f proj.c3.z, .undef]⟩, ⟨true, List.replicate 1 .undef⟩, ⟨true, List.replicate 1 .undef⟩, ⟨true, List.replicate 1 .undef⟩, ⟨true, List.replicate 1 .undef⟩, ⟨true, List.replicate 1 .undef⟩, ⟨true, List.replicate 1 .undef⟩]
    Part mem (0, 0) [1, 2, 3, 4, 6, 7, 11, 12, 13, 15] proj.list ∧ Room mem (1, 0) 1 ∧ Room mem (2, 0) 1 ∧ Room mem (3, 0) 1 ∧ Room mem (4, 0) 1 ∧ Room mem (5, 0) 1 ∧ Room mem (6, 0) 1 ∧ Apart (1, 0) 1 (2, 0) 1 ∧ Apart (1, 0) 1 (3, 0) 1 ∧ Apart (1, 0) 1 (4, 0) 1 ∧ Apart (1, 0) 1 (5, 0) 1 ∧ Apart (1, 0) 1 (6, 0) 1 ∧ Apart (2, 0) 1 (3, 0) 1 ∧ Apart (2, 0) 1 (4, 0) 1 ∧ Apart (2, 0) 1 (5, 0) 1 ∧ Apart (2, 0) 1 (6, 0) 1 ∧ Apart (3, 0) 1 (4, 0) 1 ∧ Apart (3, 0) 1 (5, 0) 1 ∧ Apart (3, 0) 1 (6, 0) 1 ∧ Apart (4, 0) 1 (5, 0) 1 ∧ Apart (4, 0) 1 (6, 0) 1 ∧ Apart (5, 0) 1 (6, 0) 1 :=
  ⟨.within rfl rfl rfl, .within rfl rfl, .within rfl rfl, .within rfl rfl, .within rfl rfl, .within rfl rfl, .within rfl rfl, Or.inl (by decide), Or.inl (by decide), Or.inl (by decide), Or.inl (by decide), Or.inl (by decide), Or.inl (by decide), Or.inl (by decide), Or.inl (by decide), Or.inl (by decide), Or.inl (by decide), Or.inl (by decide), Or.inl (by decide), Or.inl (by decide), Or.inl (by decide), Or.inl (by decide)⟩

theorem C99_persp_decompv {mem : Mem α} {projP destP : Ptr} {proj : M4 α} (h_proj : Part mem projP [1, 2, 3, 4, 6, 7, 11, 12, 13, 15] proj.list) (r_dest : Room mem destP 6) :
    C.glm_persp_decompv.run mem [projP.val, destP.val] =
      some (none, writes mem [(destP, (Cglm.glm_persp_decompv proj).list.map .f)]) :=
  transferPart (e := Lib.glm_persp_decompv) (l := []) (u := [(0, [1, 2, 3, 4, 6, 7, 11, 12, 13, 15])]) (by kernel_rfl) rfl (((RO.nil true _).addW r_dest.has r_dest .nil).addR h_proj.has) .nil (.p rfl (.p rfl .nil)) (glm_persp_decompv_run _) (DT.val_done _) rfl rfl rfl rfl
example (proj : M4 α) : let mem : Mem α := [⟨false, [.f proj.c0.x, .undef, .undef, .undef, .undef, .f proj.c1.y, .undef, .undef, .f proj.c2.x, .f proj.c2.y, .f proj.c2.z, .undef, .undef, .undef, .f proj.c3.z, .undef]⟩, ⟨true, List.replicate 6 .undef⟩]
    Part mem (0, 0) [1, 2, 3, 4, 6, 7, 11, 12, 13, 15] proj.list ∧ Room mem (1, 0) 6 :=
  ⟨.within rfl rfl rfl, .within rfl rfl⟩

theorem C99_persp_decomp_x {mem : Mem α} {projP leftP rightP : Ptr} {proj : M4 α} (h_proj : Part mem projP [1, 2, 3, 4, 5, 6, 7, 9, 11, 12, 13, 15] proj.list) (r_left : Room mem leftP 1) (r_right : Room mem rightP 1) (s_left_right : Apart leftP 1 rightP 1) :
    C.glm_persp_decomp_x.run mem [projP.val, leftP.val, rightP.val] =
      some (none, writes mem [(leftP, [(Cglm.glm_persp_decomp_x proj).1].map .f), (rightP, [(Cglm.glm_persp_decomp_x proj).2].map .f)]) :=
  transferPart (e := Lib.glm_persp_decomp_x) (l := []) (u := [(0, [1, 2, 3, 4, 5, 6, 7, 9, 11, 12, 13, 15])]) (by kernel_rfl) rfl ((((RO.nil true _).addW r_right.has r_right .nil).addW r_left.has r_left (.cons s_left_right .nil)).addR h_proj.has) .nil (.p rfl (.p rfl (.p rfl .nil))) (glm_persp_decomp_x_run _) (DT.val_done _) rfl rfl rfl rfl
example (proj : M4 α) : let mem : Mem α := [⟨false, [.f proj.c0.x, .undef, .undef, .undef, .undef, .undef, .undef, .undef, .f proj.c2.x, .undef, .f proj.c2.z, .undef, .undef, .undef, .f proj.c3.z, .undef]⟩, ⟨true, List.replicate 1 .undef⟩, ⟨true, List.replicate 1 .undef⟩]
    Part mem (0, 0) [1, 2, 3, 4, 5, 6, 7, 9, 11, 12, 13, 15] proj.list ∧ Room mem (1, 0) 1 ∧ Room mem (2, 0) 1 ∧ Apart (1, 0) 1 (2, 0) 1 :=
  ⟨.within rfl rfl rfl, .within rfl rfl, .within rfl rfl, Or.inl (by decide)⟩

theorem C99_persp_decomp_y {mem : Mem α} {projP topP bottomP : Ptr} {proj : M4 α} (h_proj : Part mem projP [0, 1, 2, 3, 4, 6, 7, 8, 11, 12, 13, 15] proj.list) (r_top : Room mem topP 1) (r_bottom : Room mem bottomP 1) (s_top_bottom : Apart topP 1 bottomP 1) :
    C.glm_persp_decomp_y.run mem [projP.val, topP.val, bottomP.val] =
      some (none, writes mem [(topP, [(Cglm.glm_persp_decomp_y proj).1].map .f), (bottomP, [(Cglm.glm_persp_decomp_y proj).2].map .f)]) :=
  transferPart (e := Lib.glm_persp_decomp_y) (l := []) (u := [(0, [0, 1, 2, 3, 4, 6, 7, 8, 11, 12, 13, 15])]) (by kernel_rfl) rfl ((((RO.nil true _).addW r_bottom.has r_bottom .nil).addW r_top.has r_top (.cons s_top_bottom .nil)).addR h_proj.has) .nil (.p rfl (.p rfl (.p rfl .nil))) (glm_persp_decomp_y_run _) (DT.val_done _) rfl rfl rfl rfl
example (proj : M4 α) : let mem : Mem α := [⟨false, [.undef, .undef, .undef, .undef, .undef, .f proj.c1.y, .undef, .undef, .undef, .f proj.c2.y, .f proj.c2.z, .undef, .undef, .undef, .f proj.c3.z, .undef]⟩, ⟨true, List.replicate 1 .undef⟩, ⟨true, List.replicate 1 .undef⟩]
    Part mem (0, 0) [0, 1, 2, 3, 4, 6, 7, 8, 11, 12, 13, 15] proj.list ∧ Room mem (1, 0) 1 ∧ Room mem (2, 0) 1 ∧ Apart (1, 0) 1 (2, 0) 1 :=
  ⟨.within rfl rfl rfl, .within rfl rfl, .within rfl rfl, Or.inl (by decide)⟩

theorem C99_persp_decomp_z {mem : Mem α} {projP nearZP farZP : Ptr} {proj : M4 α} (h_proj : Part mem projP [0, 1, 2, 3, 4, 5, 6, 7, 8, 9, 11, 12, 13, 15] proj.list) (r_nearZ : Room mem nearZP 1) (r_farZ : Room mem farZP 1) (s_nearZ_farZ : Apart nearZP 1 farZP 1) :
    C.glm_persp_decomp_z.run mem [projP.val, nearZP.val, farZP.val] =
      some (none, writes mem [(nearZP, [(Cglm.glm_persp_decomp_z proj).1].map .f), (farZP, [(Cglm.glm_persp_decomp_z proj).2].map .f)]) :=
  transferPart (e := Lib.glm_persp_decomp_z) (l := []) (u := [(0, [0, 1, 2, 3, 4, 5, 6, 7, 8, 9, 11, 12, 13, 15])]) (by kernel_rfl) rfl ((((RO.nil true _).addW r_farZ.has r_farZ .nil).addW r_nearZ.has r_nearZ (.cons s_nearZ_farZ .nil)).addR h_proj.has) .nil (.p rfl (.p rfl (.p rfl .nil))) (glm_persp_decomp_z_run _) (DT.val_done _) rfl rfl rfl rfl
example (proj : M4 α) : let mem : Mem α := [⟨false, [.undef, .undef, .undef, .undef, .undef, .undef, .undef, .undef, .undef, .undef, .f proj.c2.z, .undef, .undef, .undef, .f proj.c3.z, .undef]⟩, ⟨true, List.replicate 1 .undef⟩, ⟨true, List.replicate 1 .undef⟩]
    Part mem (0, 0) [0, 1, 2, 3, 4, 5, 6, 7, 8, 9, 11, 12, 13, 15] proj.list ∧ Room mem (1, 0) 1 ∧ Room mem (2, 0) 1 ∧ Apart (1, 0) 1 (2, 0) 1 :=
  ⟨.within rfl rfl rfl, .within rfl rfl, .within rfl rfl, Or.inl (by decide)⟩

theorem C99_persp_decomp_far {mem : Mem α} {projP farZP : Ptr} {proj : M4 α} (h_proj : Part mem projP [0, 1, 2, 3, 4, 5, 6, 7, 8, 9, 11, 12, 13, 15] proj.list) (r_farZ : Room mem farZP 1) :
    C.glm_persp_decomp_far.run mem [projP.val, farZP.val] =
      some (none, writes mem [(farZP, [(Cglm.glm_persp_decomp_far proj)].map .f)]) :=
  transferPart (e := Lib.glm_persp_decomp_far) (l := []) (u := [(0, [0, 1, 2, 3, 4, 5, 6, 7, 8, 9, 11, 12, 13, 15])]) (by kernel_rfl) rfl (((RO.nil true _).addW r_farZ.has r_farZ .nil).addR h_proj.has) .nil (.p rfl (.p rfl .nil)) (glm_persp_decomp_far_run _) (DT.val_done _) rfl rfl rfl rfl
example (proj : M4 α) : let mem : Mem α := [⟨false, [.undef, .undef, .undef, .undef, .undef, .undef, .undef, .undef, .undef, .undef, .f proj.c2.z, .undef, .undef, .undef, .f proj.c3.z, .undef]⟩, ⟨true, List.replicate 1 .undef⟩]
    Part mem (0, 0) [0, 1, 2, 3, 4, 5, 6, 7, 8, 9, 11, 12, 13, 15] proj.list ∧ Room mem (1, 0) 1 :=
  ⟨.within rfl rfl rfl, .within rfl rfl⟩

theorem C99_persp_decomp_near {mem : Mem α} {projP nearZP : Ptr} {proj : M4 α} (h_proj : Part mem projP [0, 1, 2, 3, 4, 5, 6, 7, 8, 9, 11, 12, 13, 15] proj.list) (r_nearZ : Room mem nearZP 1) :
    C.glm_persp_decomp_near.run mem [projP.val, nearZP.val] =
      some (none, writes mem [(nearZP, [(Cglm.glm_persp_decomp_near proj)].map .f)]) :=
  transferPart (e := Lib.glm_persp_decomp_near) (l := []) (u := [(0, [0, 1, 2, 3, 4, 5, 6, 7, 8, 9, 11, 12, 13, 15])]) (by kernel_rfl) rfl (((RO.nil true _).addW r_nearZ.has r_nearZ .nil).addR h_proj.has) .nil (.p rfl (.p rfl .nil)) (glm_persp_decomp_near_run _) (DT.val_done _) rfl rfl rfl rfl
example (proj : M4 α) : let mem : Mem α := [⟨false, [.undef, .undef, .undef, .undef, .undef, .undef, .undef, .undef, .undef, .undef, .f proj.c2.z, .undef, .undef, .undef, .f proj.c3.z, .undef]⟩, ⟨true, List.replicate 1 .undef⟩]
    Part mem (0, 0) [0, 1, 2, 3, 4, 5, 6, 7, 8, 9, 11, 12, 13, 15] proj.list ∧ Room mem (1, 0) 1 :=
  ⟨.within rfl rfl rfl, .within rfl rfl⟩

theorem C99_persp_sizes {mem : Mem α} {projP destP : Ptr} {proj : M4 α} (fovy : α) (h_proj : Part mem projP [1, 2, 3, 4, 6, 7, 8, 9, 11, 12, 13, 15] proj.list) (r_dest : Room mem destP 4) :
    C.glm_persp_sizes.run mem [projP.val, .f fovy, destP.val] =
      some (none, writes mem [(destP, (Cglm.glm_persp_sizes proj fovy).list.map .f)]) :=
  transferPart (e := Lib.glm_persp_sizes) (l := []) (u := [(0, [1, 2, 3, 4, 6, 7, 8, 9, 11, 12, 13, 15])]) (by kernel_rfl) rfl (((RO.nil true _).addW r_dest.has r_dest .nil).addR h_proj.has) .nil (.p rfl (.f (.p rfl .nil))) (glm_persp_sizes_run _ _) (DT.val_done _) rfl rfl rfl rfl
example (proj : M4 α) : let mem : Mem α := [⟨false, [.f proj.c0.x, .undef, .undef, .undef, .undef, .f proj.c1.y, .undef, .undef, .undef, .undef, .f proj.c2.z, .undef, .undef, .undef, .f proj.c3.z, .undef]⟩, ⟨true, List.replicate 4 .undef⟩]
    Part mem (0, 0) [1, 2, 3, 4, 6, 7, 8, 9, 11, 12, 13, 15] proj.list ∧ Room mem (1, 0) 4 :=
  ⟨.within rfl rfl rfl, .within rfl rfl⟩

theorem C99_aabb2d_transform {mem : Mem α} {aabbP mP destP : Ptr} {aabb : M2 α} {m : M3 α} (h_aabb : Holds mem aabbP aabb.list) (h_m : Part mem mP [2, 5, 8] m.list) (r_dest : Room mem destP 4) :
    C.glm_aabb2d_transform.run mem [aabbP.val, mP.val, destP.val] =
      some (none, writes mem [(destP, (Cglm.glm_aabb2d_transform aabb m).list.map .f)]) :=
  transferPart (e := Lib.glm_aabb2d_transform) (l := []) (u := [(1, [2, 5, 8])]) (by kernel_rfl) rfl ((((RO.nil true _).addW r_dest.has r_dest .nil).addR h_m.has).addR h_aabb.has) .nil (.p rfl (.p rfl (.p rfl .nil))) (glm_aabb2d_transform_run _ _) (DT.val_done _) rfl rfl rfl rfl
example (aabb : M2 α) (m : M3 α) : let mem : Mem α := [⟨false, aabb.list.map .f⟩, ⟨false, [.f m.c0.x, .f m.c0.y, .undef, .f m.c1.x, .f m.c1.y, .undef, .f m.c2.x, .f m.c2.y, .undef]⟩, ⟨true, List.replicate 4 .undef⟩]
    Holds mem (0, 0) aabb.list ∧ Part mem (1, 0) [2, 5, 8] m.list ∧ Room mem (2, 0) 4 :=
  ⟨.within rfl rfl, .within rfl rfl rfl, .within rfl rfl⟩

theorem C99_aabb_transform {mem : Mem α} {boxP mP destP : Ptr} {box : M2x3 α} {m : M4 α} (h_box : Holds mem boxP box.list) (h_m : Part mem mP [3, 7, 11, 15] m.list) (r_dest : Room mem destP 6) :
    C.glm_aabb_transform.run mem [boxP.val, mP.val, destP.val] =
      some (none, writes mem [(destP, (Cglm.glm_aabb_transform box m).list.map .f)]) :=
  transferPart (e := Lib.glm_aabb_transform) (l := []) (u := [(1, [3, 7, 11, 15])]) (by kernel_rfl) rfl ((((RO.nil true _).addW r_dest.has r_dest .nil).addR h_m.has).addR h_box.has) .nil (.p rfl (.p rfl (.p rfl .nil))) (glm_aabb_transform_run _ _) (DT.val_done _) rfl rfl rfl rfl
example (box : M2x3 α) (m : M4 α) : let mem : Mem α := [⟨false, box.list.map .f⟩, ⟨false, [.f m.c0.x, .f m.c0.y, .f m.c0.z, .undef, .f m.c1.x, .f m.c1.y, .f m.c1.z, .undef, .f m.c2.x, .f m.c2.y, .f m.c2.z, .undef, .f m.c3.x, .f m.c3.y, .f m.c3.z, .undef]⟩, ⟨true, List.replicate 6 .undef⟩]
    Holds mem (0, 0) box.list ∧ Part mem (1, 0) [3, 7, 11, 15] m.list ∧ Room mem (2, 0) 6 :=
  ⟨.within rfl rfl, .within rfl rfl rfl, .within rfl rfl⟩

theorem C99_project_z {mem : Mem α} {vP mP : Ptr} {v : V3 α} {m : M4 α} (h_v : Holds mem vP v.list) (h_m : Part mem mP [0, 1, 4, 5, 8, 9, 12, 13] m.list) :
    C.glm_project_z.run mem [vP.val, mP.val] =
      some (some (.f (Cglm.glm_project_z v m)), mem) :=
  transferPart0 (e := Lib.glm_project_z) (u := [(1, [0, 1, 4, 5, 8, 9, 12, 13])]) (by kernel_rfl) rfl (((RO.nil true _).addR h_m.has).addR h_v.has) (.p rfl (.p rfl .nil)) (glm_project_z_run _ _) (DT.val_done _) rfl rfl rfl rfl
example (v : V3 α) (m : M4 α) : let mem : Mem α := [⟨false, v.list.map .f⟩, ⟨false, [.undef, .undef, .f m.c0.z, .f m.c0.w, .undef, .undef, .f m.c1.z, .f m.c1.w, .undef, .undef, .f m.c2.z, .f m.c2.w, .undef, .undef, .f m.c3.z, .f m.c3.w]⟩]
    Holds mem (0, 0) v.list ∧ Part mem (1, 0) [0, 1, 4, 5, 8, 9, 12, 13] m.list :=
  ⟨.within rfl rfl, .within rfl rfl rfl⟩

theorem C99_sphere_radii {mem : Mem α} {sP : Ptr} {s : V4 α} (h_s : Part mem sP [0, 1, 2] s.list) :
    C.glm_sphere_radii.run mem [sP.val] =
      some (some (.f (Cglm.glm_sphere_radii s)), mem) :=
  transferPart0 (e := Lib.glm_sphere_radii) (u := [(0, [0, 1, 2])]) (by kernel_rfl) rfl ((RO.nil true _).addR h_s.has) (.p rfl .nil) (glm_sphere_radii_run _) (DT.val_done _) rfl rfl rfl rfl
example (s : V4 α) : let mem : Mem α := [⟨false, [.undef, .undef, .undef, .f s.w]⟩]
    Part mem (0, 0) [0, 1, 2] s.list :=
  Part.within rfl rfl rfl

end Cglm
