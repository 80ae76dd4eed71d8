/- Generated by tools/overthms.py; do not edit by hand. -/
import Verif.CMemOver
import Verif.Lib.Geom
import Verif.Mem.GeomsRun
import Verif.Mem.AffinesRun
import Verif.Mem.VecsRun

/-!
# C98: outputs that overlap inputs

Inputs and outputs may overlap in any way, or, for functions that work component by component, in any way except that an
output begins inside an input (`Over`).  Outputs do not overlap each other.  The result is the value-level function of
what the inputs held before the call, and nothing outside the outputs changes.
-/

set_option linter.unusedVariables false
set_option linter.unusedSectionVars false

namespace Cglm
open CMem

variable {α : Type} [Add α] [Sub α] [Mul α] [Div α] [Neg α] [CFloat α]

theorem C98_ortho_aabb {mem : Mem α} {boxP destP : Ptr} {box : M2x3 α} (h_box : Holds mem boxP box.list) (r_dest : Room mem destP 16) :
    C.glm_ortho_aabb.run mem [boxP.val, destP.val] =
      some (none, writes mem [(destP, (Cglm.glm_ortho_aabb box).list.map .f)]) :=
  transferO (e := Lib.glm_ortho_aabb) (up := true) (by kernel_rfl) (((RO.nil true _).addW r_dest.has r_dest .nil).addR h_box.has) (.p rfl (.p rfl .nil)) (glm_ortho_aabb_run _) (DT.val_done _) rfl rfl rfl
example (box : M2x3 α) : let mem : Mem α := [⟨true, box.list.map .f ++ List.replicate 16 .undef⟩]
    Holds mem (0, 0) box.list ∧ Room mem (0, 1) 16 :=
  ⟨.within rfl rfl, .within rfl rfl⟩

theorem C98_ortho_aabb_p {mem : Mem α} {boxP destP : Ptr} {box : M2x3 α} (padding : α) (h_box : Holds mem boxP box.list) (r_dest : Room mem destP 16) :
    C.glm_ortho_aabb_p.run mem [boxP.val, .f padding, destP.val] =
      some (none, writes mem [(destP, (Cglm.glm_ortho_aabb_p box padding).list.map .f)]) :=
  transferO (e := Lib.glm_ortho_aabb_p) (up := true) (by kernel_rfl) (((RO.nil true _).addW r_dest.has r_dest .nil).addR h_box.has) (.p rfl (.f (.p rfl .nil))) (glm_ortho_aabb_p_run _ _) (DT.val_done _) rfl rfl rfl
example (box : M2x3 α) : let mem : Mem α := [⟨true, box.list.map .f ++ List.replicate 16 .undef⟩]
    Holds mem (0, 0) box.list ∧ Room mem (0, 1) 16 :=
  ⟨.within rfl rfl, .within rfl rfl⟩

theorem C98_ortho_aabb_pz {mem : Mem α} {boxP destP : Ptr} {box : M2x3 α} (padding : α) (h_box : Holds mem boxP box.list) (r_dest : Room mem destP 16) :
    C.glm_ortho_aabb_pz.run mem [boxP.val, .f padding, destP.val] =
      some (none, writes mem [(destP, (Cglm.glm_ortho_aabb_pz box padding).list.map .f)]) :=
  transferO (e := Lib.glm_ortho_aabb_pz) (up := true) (by kernel_rfl) (((RO.nil true _).addW r_dest.has r_dest .nil).addR h_box.has) (.p rfl (.f (.p rfl .nil))) (glm_ortho_aabb_pz_run _ _) (DT.val_done _) rfl rfl rfl
example (box : M2x3 α) : let mem : Mem α := [⟨true, box.list.map .f ++ List.replicate 16 .undef⟩]
    Holds mem (0, 0) box.list ∧ Room mem (0, 1) 16 :=
  ⟨.within rfl rfl, .within rfl rfl⟩

theorem C98_persp_decomp {mem : Mem α} {projP nearZP farZP topP bottomP leftP rightP : Ptr} {proj : M4 α} (h_proj : Holds mem projP proj.list) (r_nearZ : Room mem nearZP 1) (r_farZ : Room mem farZP 1) (r_top : Room mem topP 1) (r_bottom : Room mem bottomP 1) (r_left : Room mem leftP 1) (r_right : Room mem rightP 1) (s_nearZ_farZ : Apart nearZP 1 farZP 1) (s_nearZ_top : Apart nearZP 1 topP 1) (s_nearZ_bottom : Apart nearZP 1 bottomP 1) (s_nearZ_left : Apart nearZP 1 leftP 1) (s_nearZ_right : Apart nearZP 1 rightP 1) (s_farZ_top : Apart farZP 1 topP 1) (s_farZ_bottom : Apart farZP 1 bottomP 1) (s_farZ_left : Apart farZP 1 leftP 1) (s_farZ_right : Apart farZP 1 rightP 1) (s_top_bottom : Apart topP 1 bottomP 1) (s_top_left : Apart topP 1 leftP 1) (s_top_right : Apart topP 1 rightP 1) (s_bottom_left : Apart bottomP 1 leftP 1) (s_bottom_right : Apart bottomP 1 rightP 1) (s_left_right : Apart leftP 1 rightP 1) :
    C.glm_persp_decomp.run mem [projP.val, nearZP.val, farZP.val, topP.val, bottomP.val, leftP.val, rightP.val] =
      some (none, writes mem [(nearZP, [(Cglm.glm_persp_decomp proj).1].map .f), (farZP, [(Cglm.glm_persp_decomp proj).2.1].map .f), (topP, [(Cglm.glm_persp_decomp proj).2.2.1].map .f), (bottomP, [(Cglm.glm_persp_decomp proj).2.2.2.1].map .f), (leftP, [(Cglm.glm_persp_decomp proj).2.2.2.2.1].map .f), (rightP, [(Cglm.glm_persp_decomp proj).2.2.2.2.2].map .f)]) :=
  transferO (e := Lib.glm_persp_decomp) (up := true) (by kernel_rfl) ((((((((RO.nil true _).addW r_right.has r_right .nil).addW r_left.has r_left (.cons s_left_right .nil)).addW r_bottom.has r_bottom (.cons s_bottom_left (.cons s_bottom_right .nil))).addW r_top.has r_top (.cons s_top_bottom (.cons s_top_left (.cons s_top_right .nil)))).addW r_farZ.has r_farZ (.cons s_farZ_top (.cons s_farZ_bottom (.cons s_farZ_left (.cons s_farZ_right .nil))))).addW r_nearZ.has r_nearZ (.cons s_nearZ_farZ (.cons s_nearZ_top (.cons s_nearZ_bottom (.cons s_nearZ_left (.cons s_nearZ_right .nil)))))).addR h_proj.has) (.p rfl (.p rfl (.p rfl (.p rfl (.p rfl (.p rfl (.p rfl .nil))))))) (glm_persp_decomp_run _) (DT.val_done _) rfl rfl rfl
example (proj : M4 α) : let mem : Mem α := [⟨true, proj.list.map .f ++ List.replicate 1 .undef⟩, ⟨true, List.replicate 1 .undef⟩, ⟨true, List.replicate 1 .undef⟩, ⟨true, List.replicate 1 .undef⟩, ⟨true, List.replicate 1 .undef⟩, ⟨true, List.replicate 1 .undef⟩]
    Holds mem (0, 0) proj.list ∧ Room mem (0, 1) 1 ∧ Room mem (1, 0) 1 ∧ Room mem (2, 0) 1 ∧ Room mem (3, 0) 1 ∧ Room mem (4, 0) 1 ∧ Room mem (5, 0) 1 ∧ Apart (0, 1) 1 (1, 0) 1 ∧ Apart (0, 1) 1 (2, 0) 1 ∧ Apart (0, 1) 1 (3, 0) 1 ∧ Apart (0, 1) 1 (4, 0) 1 ∧ Apart (0, 1) 1 (5, 0) 1 ∧ Apart (1, 0) 1 (2, 0) 1 ∧ Apart (1, 0) 1 (3, 0) 1 ∧ Apart (1, 0) 1 (4, 0) 1 ∧ Apart (1, 0) 1 (5, 0) 1 ∧ Apart (2, 0) 1 (3, 0) 1 ∧ Apart (2, 0) 1 (4, 0) 1 ∧ Apart (2, 0) 1 (5, 0) 1 ∧ Apart (3, 0) 1 (4, 0) 1 ∧ Apart (3, 0) 1 (5, 0) 1 ∧ Apart (4, 0) 1 (5, 0) 1 :=
  ⟨.within rfl rfl, .within rfl rfl, .within rfl rfl, .within rfl rfl, .within rfl rfl, .within rfl rfl, .within rfl rfl, Or.inl (by decide), Or.inl (by decide), Or.inl (by decide), Or.inl (by decide), Or.inl (by decide), Or.inl (by decide), Or.inl (by decide), Or.inl (by decide), Or.inl (by decide), Or.inl (by decide), Or.inl (by decide), Or.inl (by decide), Or.inl (by decide), Or.inl (by decide), Or.inl (by decide)⟩

theorem C98_persp_decompv {mem : Mem α} {projP destP : Ptr} {proj : M4 α} (h_proj : Holds mem projP proj.list) (r_dest : Room mem destP 6) :
    C.glm_persp_decompv.run mem [projP.val, destP.val] =
      some (none, writes mem [(destP, (Cglm.glm_persp_decompv proj).list.map .f)]) :=
  transferO (e := Lib.glm_persp_decompv) (up := true) (by kernel_rfl) (((RO.nil true _).addW r_dest.has r_dest .nil).addR h_proj.has) (.p rfl (.p rfl .nil)) (glm_persp_decompv_run _) (DT.val_done _) rfl rfl rfl
example (proj : M4 α) : let mem : Mem α := [⟨true, proj.list.map .f ++ List.replicate 6 .undef⟩]
    Holds mem (0, 0) proj.list ∧ Room mem (0, 1) 6 :=
  ⟨.within rfl rfl, .within rfl rfl⟩

theorem C98_persp_decomp_x {mem : Mem α} {projP leftP rightP : Ptr} {proj : M4 α} (h_proj : Holds mem projP proj.list) (r_left : Room mem leftP 1) (r_right : Room mem rightP 1) (s_left_right : Apart leftP 1 rightP 1) :
    C.glm_persp_decomp_x.run mem [projP.val, leftP.val, rightP.val] =
      some (none, writes mem [(leftP, [(Cglm.glm_persp_decomp_x proj).1].map .f), (rightP, [(Cglm.glm_persp_decomp_x proj).2].map .f)]) :=
  transferO (e := Lib.glm_persp_decomp_x) (up := true) (by kernel_rfl) ((((RO.nil true _).addW r_right.has r_right .nil).addW r_left.has r_left (.cons s_left_right .nil)).addR h_proj.has) (.p rfl (.p rfl (.p rfl .nil))) (glm_persp_decomp_x_run _) (DT.val_done _) rfl rfl rfl
example (proj : M4 α) : let mem : Mem α := [⟨true, proj.list.map .f ++ List.replicate 1 .undef⟩, ⟨true, List.replicate 1 .undef⟩]
    Holds mem (0, 0) proj.list ∧ Room mem (0, 1) 1 ∧ Room mem (1, 0) 1 ∧ Apart (0, 1) 1 (1, 0) 1 :=
  ⟨.within rfl rfl, .within rfl rfl, .within rfl rfl, Or.inl (by decide)⟩

theorem C98_persp_decomp_y {mem : Mem α} {projP topP bottomP : Ptr} {proj : M4 α} (h_proj : Holds mem projP proj.list) (r_top : Room mem topP 1) (r_bottom : Room mem bottomP 1) (s_top_bottom : Apart topP 1 bottomP 1) :
    C.glm_persp_decomp_y.run mem [projP.val, topP.val, bottomP.val] =
      some (none, writes mem [(topP, [(Cglm.glm_persp_decomp_y proj).1].map .f), (bottomP, [(Cglm.glm_persp_decomp_y proj).2].map .f)]) :=
  transferO (e := Lib.glm_persp_decomp_y) (up := true) (by kernel_rfl) ((((RO.nil true _).addW r_bottom.has r_bottom .nil).addW r_top.has r_top (.cons s_top_bottom .nil)).addR h_proj.has) (.p rfl (.p rfl (.p rfl .nil))) (glm_persp_decomp_y_run _) (DT.val_done _) rfl rfl rfl
example (proj : M4 α) : let mem : Mem α := [⟨true, proj.list.map .f ++ List.replicate 1 .undef⟩, ⟨true, List.replicate 1 .undef⟩]
    Holds mem (0, 0) proj.list ∧ Room mem (0, 1) 1 ∧ Room mem (1, 0) 1 ∧ Apart (0, 1) 1 (1, 0) 1 :=
  ⟨.within rfl rfl, .within rfl rfl, .within rfl rfl, Or.inl (by decide)⟩

theorem C98_persp_decomp_z {mem : Mem α} {projP nearZP farZP : Ptr} {proj : M4 α} (h_proj : Holds mem projP proj.list) (r_nearZ : Room mem nearZP 1) (r_farZ : Room mem farZP 1) (s_nearZ_farZ : Apart nearZP 1 farZP 1) :
    C.glm_persp_decomp_z.run mem [projP.val, nearZP.val, farZP.val] =
      some (none, writes mem [(nearZP, [(Cglm.glm_persp_decomp_z proj).1].map .f), (farZP, [(Cglm.glm_persp_decomp_z proj).2].map .f)]) :=
  transferO (e := Lib.glm_persp_decomp_z) (up := true) (by kernel_rfl) ((((RO.nil true _).addW r_farZ.has r_farZ .nil).addW r_nearZ.has r_nearZ (.cons s_nearZ_farZ .nil)).addR h_proj.has) (.p rfl (.p rfl (.p rfl .nil))) (glm_persp_decomp_z_run _) (DT.val_done _) rfl rfl rfl
example (proj : M4 α) : let mem : Mem α := [⟨true, proj.list.map .f ++ List.replicate 1 .undef⟩, ⟨true, List.replicate 1 .undef⟩]
    Holds mem (0, 0) proj.list ∧ Room mem (0, 1) 1 ∧ Room mem (1, 0) 1 ∧ Apart (0, 1) 1 (1, 0) 1 :=
  ⟨.within rfl rfl, .within rfl rfl, .within rfl rfl, Or.inl (by decide)⟩

theorem C98_persp_decomp_far {mem : Mem α} {projP farZP : Ptr} {proj : M4 α} (h_proj : Holds mem projP proj.list) (r_farZ : Room mem farZP 1) :
    C.glm_persp_decomp_far.run mem [projP.val, farZP.val] =
      some (none, writes mem [(farZP, [(Cglm.glm_persp_decomp_far proj)].map .f)]) :=
  transferO (e := Lib.glm_persp_decomp_far) (up := true) (by kernel_rfl) (((RO.nil true _).addW r_farZ.has r_farZ .nil).addR h_proj.has) (.p rfl (.p rfl .nil)) (glm_persp_decomp_far_run _) (DT.val_done _) rfl rfl rfl
example (proj : M4 α) : let mem : Mem α := [⟨true, proj.list.map .f ++ List.replicate 1 .undef⟩]
    Holds mem (0, 0) proj.list ∧ Room mem (0, 1) 1 :=
  ⟨.within rfl rfl, .within rfl rfl⟩

theorem C98_persp_decomp_near {mem : Mem α} {projP nearZP : Ptr} {proj : M4 α} (h_proj : Holds mem projP proj.list) (r_nearZ : Room mem nearZP 1) :
    C.glm_persp_decomp_near.run mem [projP.val, nearZP.val] =
      some (none, writes mem [(nearZP, [(Cglm.glm_persp_decomp_near proj)].map .f)]) :=
  transferO (e := Lib.glm_persp_decomp_near) (up := true) (by kernel_rfl) (((RO.nil true _).addW r_nearZ.has r_nearZ .nil).addR h_proj.has) (.p rfl (.p rfl .nil)) (glm_persp_decomp_near_run _) (DT.val_done _) rfl rfl rfl
example (proj : M4 α) : let mem : Mem α := [⟨true, proj.list.map .f ++ List.replicate 1 .undef⟩]
    Holds mem (0, 0) proj.list ∧ Room mem (0, 1) 1 :=
  ⟨.within rfl rfl, .within rfl rfl⟩

theorem C98_persp_sizes {mem : Mem α} {projP destP : Ptr} {proj : M4 α} (fovy : α) (h_proj : Holds mem projP proj.list) (r_dest : Room mem destP 4) :
    C.glm_persp_sizes.run mem [projP.val, .f fovy, destP.val] =
      some (none, writes mem [(destP, (Cglm.glm_persp_sizes proj fovy).list.map .f)]) :=
  transferO (e := Lib.glm_persp_sizes) (up := true) (by kernel_rfl) (((RO.nil true _).addW r_dest.has r_dest .nil).addR h_proj.has) (.p rfl (.f (.p rfl .nil))) (glm_persp_sizes_run _ _) (DT.val_done _) rfl rfl rfl
example (proj : M4 α) : let mem : Mem α := [⟨true, proj.list.map .f ++ List.replicate 4 .undef⟩]
    Holds mem (0, 0) proj.list ∧ Room mem (0, 1) 4 :=
  ⟨.within rfl rfl, .within rfl rfl⟩

theorem C98_frustum_planes {mem : Mem α} {mP destP : Ptr} {m : M4 α} (h_m : Holds mem mP m.list) (r_dest : Room mem destP 24) :
    C.glm_frustum_planes.run mem [mP.val, destP.val] =
      some (none, writes mem [(destP, (Cglm.glm_frustum_planes m).list.map .f)]) :=
  transferO (e := Lib.glm_frustum_planes) (up := true) (by kernel_rfl) (((RO.nil true _).addW r_dest.has r_dest .nil).addR h_m.has) (.p rfl (.p rfl .nil)) (glm_frustum_planes_run _) (DT.val_map_eq (glm_frustum_planes_dt_val _) rfl) rfl rfl rfl
example (m : M4 α) : let mem : Mem α := [⟨true, m.list.map .f ++ List.replicate 24 .undef⟩]
    Holds mem (0, 0) m.list ∧ Room mem (0, 1) 24 :=
  ⟨.within rfl rfl, .within rfl rfl⟩

theorem C98_frustum_corners {mem : Mem α} {invMatP destP : Ptr} {invMat : M4 α} (h_invMat : Holds mem invMatP invMat.list) (r_dest : Room mem destP 32) :
    C.glm_frustum_corners.run mem [invMatP.val, destP.val] =
      some (none, writes mem [(destP, (Cglm.glm_frustum_corners invMat).list.map .f)]) :=
  transferO (e := Lib.glm_frustum_corners) (up := true) (by kernel_rfl) (((RO.nil true _).addW r_dest.has r_dest .nil).addR h_invMat.has) (.p rfl (.p rfl .nil)) (glm_frustum_corners_run _) (DT.val_done _) rfl rfl rfl
example (invMat : M4 α) : let mem : Mem α := [⟨true, invMat.list.map .f ++ List.replicate 32 .undef⟩]
    Holds mem (0, 0) invMat.list ∧ Room mem (0, 1) 32 :=
  ⟨.within rfl rfl, .within rfl rfl⟩

theorem C98_frustum_center {mem : Mem α} {cornersP destP : Ptr} {corners : M8x4 α} (h_corners : Holds mem cornersP corners.list) (r_dest : Room mem destP 4) :
    C.glm_frustum_center.run mem [cornersP.val, destP.val] =
      some (none, writes mem [(destP, (Cglm.glm_frustum_center corners).list.map .f)]) :=
  transferO (e := Lib.glm_frustum_center) (up := true) (by kernel_rfl) (((RO.nil true _).addW r_dest.has r_dest .nil).addR h_corners.has) (.p rfl (.p rfl .nil)) (glm_frustum_center_run _) (DT.val_done _) rfl rfl rfl
example (corners : M8x4 α) : let mem : Mem α := [⟨true, corners.list.map .f ++ List.replicate 4 .undef⟩]
    Holds mem (0, 0) corners.list ∧ Room mem (0, 1) 4 :=
  ⟨.within rfl rfl, .within rfl rfl⟩

theorem C98_frustum_box {mem : Mem α} {cornersP mP boxP : Ptr} {corners : M8x4 α} {m : M4 α} (h_corners : Holds mem cornersP corners.list) (h_m : Holds mem mP m.list) (r_box : Room mem boxP 6) :
    C.glm_frustum_box.run mem [cornersP.val, mP.val, boxP.val] =
      some (none, writes mem [(boxP, (Cglm.glm_frustum_box corners m).list.map .f)]) :=
  transferO (e := Lib.glm_frustum_box) (up := true) (by kernel_rfl) ((((RO.nil true _).addW r_box.has r_box .nil).addR h_m.has).addR h_corners.has) (.p rfl (.p rfl (.p rfl .nil))) (glm_frustum_box_run _ _) (DT.val_done _) rfl rfl rfl
example (corners : M8x4 α) (m : M4 α) : let mem : Mem α := [⟨true, corners.list.map .f ++ List.replicate 6 .undef⟩, ⟨false, m.list.map .f⟩]
    Holds mem (0, 0) corners.list ∧ Holds mem (1, 0) m.list ∧ Room mem (0, 1) 6 :=
  ⟨.within rfl rfl, .within rfl rfl, .within rfl rfl⟩

theorem C98_frustum_corners_at {mem : Mem α} {cornersP planeCornersP : Ptr} {corners : M8x4 α} (splitDist : α) (farDist : α) (h_corners : Holds mem cornersP corners.list) (r_planeCorners : Room mem planeCornersP 16) (o_corners_planeCorners : Over cornersP 32 planeCornersP 16) :
    C.glm_frustum_corners_at.run mem [cornersP.val, .f splitDist, .f farDist, planeCornersP.val] =
      some (none, writes mem [(planeCornersP, (Cglm.glm_frustum_corners_at corners splitDist farDist).list.map .f)]) :=
  transferO (e := Lib.glm_frustum_corners_at) (up := false) (by kernel_rfl) (((RO.nil false _).addP r_planeCorners.has r_planeCorners .nil .nil).addO h_corners.has (.cons o_corners_planeCorners .nil)) (.p rfl (.f (.f (.p rfl .nil)))) (glm_frustum_corners_at_run _ _ _) (DT.val_map_eq (glm_frustum_corners_at_dt_val _ _ _) rfl) rfl rfl rfl
example (corners : M8x4 α) : let mem : Mem α := [⟨true, .undef :: corners.list.map .f⟩]
    Holds mem (0, 1) corners.list ∧ Room mem (0, 0) 16 ∧ Over (0, 1) 32 (0, 0) 16 :=
  ⟨.within rfl rfl, .within rfl rfl, Or.inl (by decide)⟩

theorem C98_aabb2d_copy {mem : Mem α} {aabbP destP : Ptr} {aabb : M2 α} (h_aabb : Holds mem aabbP aabb.list) (r_dest : Room mem destP 4) (o_aabb_dest : Over aabbP 4 destP 4) :
    C.glm_aabb2d_copy.run mem [aabbP.val, destP.val] =
      some (none, writes mem [(destP, (Cglm.glm_aabb2d_copy aabb).list.map .f)]) :=
  transferO (e := Lib.glm_aabb2d_copy) (up := false) (by kernel_rfl) (((RO.nil false _).addP r_dest.has r_dest .nil .nil).addO h_aabb.has (.cons o_aabb_dest .nil)) (.p rfl (.p rfl .nil)) (glm_aabb2d_copy_run _) (DT.val_done _) rfl rfl rfl
example (aabb : M2 α) : let mem : Mem α := [⟨true, .undef :: aabb.list.map .f⟩]
    Holds mem (0, 1) aabb.list ∧ Room mem (0, 0) 4 ∧ Over (0, 1) 4 (0, 0) 4 :=
  ⟨.within rfl rfl, .within rfl rfl, Or.inl (by decide)⟩

theorem C98_aabb2d_transform {mem : Mem α} {aabbP mP destP : Ptr} {aabb : M2 α} {m : M3 α} (h_aabb : Holds mem aabbP aabb.list) (h_m : Holds mem mP m.list) (r_dest : Room mem destP 4) :
    C.glm_aabb2d_transform.run mem [aabbP.val, mP.val, destP.val] =
      some (none, writes mem [(destP, (Cglm.glm_aabb2d_transform aabb m).list.map .f)]) :=
  transferO (e := Lib.glm_aabb2d_transform) (up := true) (by kernel_rfl) ((((RO.nil true _).addW r_dest.has r_dest .nil).addR h_m.has).addR h_aabb.has) (.p rfl (.p rfl (.p rfl .nil))) (glm_aabb2d_transform_run _ _) (DT.val_done _) rfl rfl rfl
example (aabb : M2 α) (m : M3 α) : let mem : Mem α := [⟨true, aabb.list.map .f ++ List.replicate 4 .undef⟩, ⟨false, m.list.map .f⟩]
    Holds mem (0, 0) aabb.list ∧ Holds mem (1, 0) m.list ∧ Room mem (0, 1) 4 :=
  ⟨.within rfl rfl, .within rfl rfl, .within rfl rfl⟩

theorem C98_aabb2d_merge {mem : Mem α} {aabb1P aabb2P destP : Ptr} {aabb1 : M2 α} {aabb2 : M2 α} (h_aabb1 : Holds mem aabb1P aabb1.list) (h_aabb2 : Holds mem aabb2P aabb2.list) (r_dest : Room mem destP 4) (o_aabb1_dest : Over aabb1P 4 destP 4) (o_aabb2_dest : Over aabb2P 4 destP 4) :
    C.glm_aabb2d_merge.run mem [aabb1P.val, aabb2P.val, destP.val] =
      some (none, writes mem [(destP, (Cglm.glm_aabb2d_merge aabb1 aabb2).list.map .f)]) :=
  transferO (e := Lib.glm_aabb2d_merge) (up := false) (by kernel_rfl) ((((RO.nil false _).addP r_dest.has r_dest .nil .nil).addO h_aabb2.has (.cons o_aabb2_dest .nil)).addO h_aabb1.has (.skip (.cons o_aabb1_dest .nil))) (.p rfl (.p rfl (.p rfl .nil))) (glm_aabb2d_merge_run _ _) (DT.val_done _) rfl rfl rfl
example (aabb1 : M2 α) (aabb2 : M2 α) : let mem : Mem α := [⟨true, .undef :: aabb1.list.map .f⟩, ⟨false, aabb2.list.map .f⟩]
    Holds mem (0, 1) aabb1.list ∧ Holds mem (1, 0) aabb2.list ∧ Room mem (0, 0) 4 ∧ Over (0, 1) 4 (0, 0) 4 ∧ Over (1, 0) 4 (0, 0) 4 :=
  ⟨.within rfl rfl, .within rfl rfl, .within rfl rfl, Or.inl (by decide), Or.inl (by decide)⟩

theorem C98_aabb2d_crop {mem : Mem α} {aabbP cropAabbP destP : Ptr} {aabb : M2 α} {cropAabb : M2 α} (h_aabb : Holds mem aabbP aabb.list) (h_cropAabb : Holds mem cropAabbP cropAabb.list) (r_dest : Room mem destP 4) (o_aabb_dest : Over aabbP 4 destP 4) (o_cropAabb_dest : Over cropAabbP 4 destP 4) :
    C.glm_aabb2d_crop.run mem [aabbP.val, cropAabbP.val, destP.val] =
      some (none, writes mem [(destP, (Cglm.glm_aabb2d_crop aabb cropAabb).list.map .f)]) :=
  transferO (e := Lib.glm_aabb2d_crop) (up := false) (by kernel_rfl) ((((RO.nil false _).addP r_dest.has r_dest .nil .nil).addO h_cropAabb.has (.cons o_cropAabb_dest .nil)).addO h_aabb.has (.skip (.cons o_aabb_dest .nil))) (.p rfl (.p rfl (.p rfl .nil))) (glm_aabb2d_crop_run _ _) (DT.val_done _) rfl rfl rfl
example (aabb : M2 α) (cropAabb : M2 α) : let mem : Mem α := [⟨true, .undef :: aabb.list.map .f⟩, ⟨false, cropAabb.list.map .f⟩]
    Holds mem (0, 1) aabb.list ∧ Holds mem (1, 0) cropAabb.list ∧ Room mem (0, 0) 4 ∧ Over (0, 1) 4 (0, 0) 4 ∧ Over (1, 0) 4 (0, 0) 4 :=
  ⟨.within rfl rfl, .within rfl rfl, .within rfl rfl, Or.inl (by decide), Or.inl (by decide)⟩

theorem C98_aabb2d_sizev {mem : Mem α} {aabbP destP : Ptr} {aabb : M2 α} (h_aabb : Holds mem aabbP aabb.list) (r_dest : Room mem destP 2) (o_aabb_dest : Over aabbP 4 destP 2) :
    C.glm_aabb2d_sizev.run mem [aabbP.val, destP.val] =
      some (none, writes mem [(destP, (Cglm.glm_aabb2d_sizev aabb).list.map .f)]) :=
  transferO (e := Lib.glm_aabb2d_sizev) (up := false) (by kernel_rfl) (((RO.nil false _).addP r_dest.has r_dest .nil .nil).addO h_aabb.has (.cons o_aabb_dest .nil)) (.p rfl (.p rfl .nil)) (glm_aabb2d_sizev_run _) (DT.val_done _) rfl rfl rfl
example (aabb : M2 α) : let mem : Mem α := [⟨true, .undef :: aabb.list.map .f⟩]
    Holds mem (0, 1) aabb.list ∧ Room mem (0, 0) 2 ∧ Over (0, 1) 4 (0, 0) 2 :=
  ⟨.within rfl rfl, .within rfl rfl, Or.inl (by decide)⟩

theorem C98_aabb2d_center {mem : Mem α} {aabbP destP : Ptr} {aabb : M2 α} (h_aabb : Holds mem aabbP aabb.list) (r_dest : Room mem destP 2) (o_aabb_dest : Over aabbP 4 destP 2) :
    C.glm_aabb2d_center.run mem [aabbP.val, destP.val] =
      some (none, writes mem [(destP, (Cglm.glm_aabb2d_center aabb).list.map .f)]) :=
  transferO (e := Lib.glm_aabb2d_center) (up := false) (by kernel_rfl) (((RO.nil false _).addP r_dest.has r_dest .nil .nil).addO h_aabb.has (.cons o_aabb_dest .nil)) (.p rfl (.p rfl .nil)) (glm_aabb2d_center_run _) (DT.val_done _) rfl rfl rfl
example (aabb : M2 α) : let mem : Mem α := [⟨true, .undef :: aabb.list.map .f⟩]
    Holds mem (0, 1) aabb.list ∧ Room mem (0, 0) 2 ∧ Over (0, 1) 4 (0, 0) 2 :=
  ⟨.within rfl rfl, .within rfl rfl, Or.inl (by decide)⟩

theorem C98_aabb_transform {mem : Mem α} {boxP mP destP : Ptr} {box : M2x3 α} {m : M4 α} (h_box : Holds mem boxP box.list) (h_m : Holds mem mP m.list) (r_dest : Room mem destP 6) :
    C.glm_aabb_transform.run mem [boxP.val, mP.val, destP.val] =
      some (none, writes mem [(destP, (Cglm.glm_aabb_transform box m).list.map .f)]) :=
  transferO (e := Lib.glm_aabb_transform) (up := true) (by kernel_rfl) ((((RO.nil true _).addW r_dest.has r_dest .nil).addR h_m.has).addR h_box.has) (.p rfl (.p rfl (.p rfl .nil))) (glm_aabb_transform_run _ _) (DT.val_done _) rfl rfl rfl
example (box : M2x3 α) (m : M4 α) : let mem : Mem α := [⟨true, box.list.map .f ++ List.replicate 6 .undef⟩, ⟨false, m.list.map .f⟩]
    Holds mem (0, 0) box.list ∧ Holds mem (1, 0) m.list ∧ Room mem (0, 1) 6 :=
  ⟨.within rfl rfl, .within rfl rfl, .within rfl rfl⟩

theorem C98_aabb_merge {mem : Mem α} {box1P box2P destP : Ptr} {box1 : M2x3 α} {box2 : M2x3 α} (h_box1 : Holds mem box1P box1.list) (h_box2 : Holds mem box2P box2.list) (r_dest : Room mem destP 6) (o_box1_dest : Over box1P 6 destP 6) (o_box2_dest : Over box2P 6 destP 6) :
    C.glm_aabb_merge.run mem [box1P.val, box2P.val, destP.val] =
      some (none, writes mem [(destP, (Cglm.glm_aabb_merge box1 box2).list.map .f)]) :=
  transferO (e := Lib.glm_aabb_merge) (up := false) (by kernel_rfl) ((((RO.nil false _).addP r_dest.has r_dest .nil .nil).addO h_box2.has (.cons o_box2_dest .nil)).addO h_box1.has (.skip (.cons o_box1_dest .nil))) (.p rfl (.p rfl (.p rfl .nil))) (glm_aabb_merge_run _ _) (DT.val_done _) rfl rfl rfl
example (box1 : M2x3 α) (box2 : M2x3 α) : let mem : Mem α := [⟨true, .undef :: box1.list.map .f⟩, ⟨false, box2.list.map .f⟩]
    Holds mem (0, 1) box1.list ∧ Holds mem (1, 0) box2.list ∧ Room mem (0, 0) 6 ∧ Over (0, 1) 6 (0, 0) 6 ∧ Over (1, 0) 6 (0, 0) 6 :=
  ⟨.within rfl rfl, .within rfl rfl, .within rfl rfl, Or.inl (by decide), Or.inl (by decide)⟩

theorem C98_aabb_crop {mem : Mem α} {boxP cropBoxP destP : Ptr} {box : M2x3 α} {cropBox : M2x3 α} (h_box : Holds mem boxP box.list) (h_cropBox : Holds mem cropBoxP cropBox.list) (r_dest : Room mem destP 6) (o_box_dest : Over boxP 6 destP 6) (o_cropBox_dest : Over cropBoxP 6 destP 6) :
    C.glm_aabb_crop.run mem [boxP.val, cropBoxP.val, destP.val] =
      some (none, writes mem [(destP, (Cglm.glm_aabb_crop box cropBox).list.map .f)]) :=
  transferO (e := Lib.glm_aabb_crop) (up := false) (by kernel_rfl) ((((RO.nil false _).addP r_dest.has r_dest .nil .nil).addO h_cropBox.has (.cons o_cropBox_dest .nil)).addO h_box.has (.skip (.cons o_box_dest .nil))) (.p rfl (.p rfl (.p rfl .nil))) (glm_aabb_crop_run _ _) (DT.val_done _) rfl rfl rfl
example (box : M2x3 α) (cropBox : M2x3 α) : let mem : Mem α := [⟨true, .undef :: box.list.map .f⟩, ⟨false, cropBox.list.map .f⟩]
    Holds mem (0, 1) box.list ∧ Holds mem (1, 0) cropBox.list ∧ Room mem (0, 0) 6 ∧ Over (0, 1) 6 (0, 0) 6 ∧ Over (1, 0) 6 (0, 0) 6 :=
  ⟨.within rfl rfl, .within rfl rfl, .within rfl rfl, Or.inl (by decide), Or.inl (by decide)⟩

theorem C98_aabb_center {mem : Mem α} {boxP destP : Ptr} {box : M2x3 α} (h_box : Holds mem boxP box.list) (r_dest : Room mem destP 3) (o_box_dest : Over boxP 6 destP 3) :
    C.glm_aabb_center.run mem [boxP.val, destP.val] =
      some (none, writes mem [(destP, (Cglm.glm_aabb_center box).list.map .f)]) :=
  transferO (e := Lib.glm_aabb_center) (up := false) (by kernel_rfl) (((RO.nil false _).addP r_dest.has r_dest .nil .nil).addO h_box.has (.cons o_box_dest .nil)) (.p rfl (.p rfl .nil)) (glm_aabb_center_run _) (DT.val_done _) rfl rfl rfl
example (box : M2x3 α) : let mem : Mem α := [⟨true, .undef :: box.list.map .f⟩]
    Holds mem (0, 1) box.list ∧ Room mem (0, 0) 3 ∧ Over (0, 1) 6 (0, 0) 3 :=
  ⟨.within rfl rfl, .within rfl rfl, Or.inl (by decide)⟩

theorem C98_unprojecti {mem : Mem α} {posP invMatP vpP destP : Ptr} {pos : V3 α} {invMat : M4 α} {vp : V4 α} (h_pos : Holds mem posP pos.list) (h_invMat : Holds mem invMatP invMat.list) (h_vp : Holds mem vpP vp.list) (r_dest : Room mem destP 3) :
    C.glm_unprojecti.run mem [posP.val, invMatP.val, vpP.val, destP.val] =
      some (none, writes mem [(destP, (Cglm.glm_unprojecti pos invMat vp).list.map .f)]) :=
  transferO (e := Lib.glm_unprojecti) (up := true) (by kernel_rfl) (((((RO.nil true _).addW r_dest.has r_dest .nil).addR h_vp.has).addR h_invMat.has).addR h_pos.has) (.p rfl (.p rfl (.p rfl (.p rfl .nil)))) (glm_unprojecti_run _ _ _) (DT.val_done _) rfl rfl rfl
example (pos : V3 α) (invMat : M4 α) (vp : V4 α) : let mem : Mem α := [⟨true, pos.list.map .f ++ List.replicate 3 .undef⟩, ⟨false, invMat.list.map .f⟩, ⟨false, vp.list.map .f⟩]
    Holds mem (0, 0) pos.list ∧ Holds mem (1, 0) invMat.list ∧ Holds mem (2, 0) vp.list ∧ Room mem (0, 1) 3 :=
  ⟨.within rfl rfl, .within rfl rfl, .within rfl rfl, .within rfl rfl⟩

theorem C98_unproject {mem : Mem α} {posP mP vpP destP : Ptr} {pos : V3 α} {m : M4 α} {vp : V4 α} (h_pos : Holds mem posP pos.list) (h_m : Holds mem mP m.list) (h_vp : Holds mem vpP vp.list) (r_dest : Room mem destP 3) :
    C.glm_unproject.run mem [posP.val, mP.val, vpP.val, destP.val] =
      some (none, writes mem [(destP, (Cglm.glm_unproject pos m vp).list.map .f)]) :=
  transferO (e := Lib.glm_unproject) (up := true) (by kernel_rfl) (((((RO.nil true _).addW r_dest.has r_dest .nil).addR h_vp.has).addR h_m.has).addR h_pos.has) (.p rfl (.p rfl (.p rfl (.p rfl .nil)))) (glm_unproject_run _ _ _) (DT.val_done _) rfl rfl rfl
example (pos : V3 α) (m : M4 α) (vp : V4 α) : let mem : Mem α := [⟨true, pos.list.map .f ++ List.replicate 3 .undef⟩, ⟨false, m.list.map .f⟩, ⟨false, vp.list.map .f⟩]
    Holds mem (0, 0) pos.list ∧ Holds mem (1, 0) m.list ∧ Holds mem (2, 0) vp.list ∧ Room mem (0, 1) 3 :=
  ⟨.within rfl rfl, .within rfl rfl, .within rfl rfl, .within rfl rfl⟩

theorem C98_project {mem : Mem α} {posP mP vpP destP : Ptr} {pos : V3 α} {m : M4 α} {vp : V4 α} (h_pos : Holds mem posP pos.list) (h_m : Holds mem mP m.list) (h_vp : Holds mem vpP vp.list) (r_dest : Room mem destP 3) (o_pos_dest : Over posP 3 destP 3) (o_m_dest : Over mP 16 destP 3) (o_vp_dest : Over vpP 4 destP 3) :
    C.glm_project.run mem [posP.val, mP.val, vpP.val, destP.val] =
      some (none, writes mem [(destP, (Cglm.glm_project pos m vp).list.map .f)]) :=
  transferO (e := Lib.glm_project) (up := false) (by kernel_rfl) (((((RO.nil false _).addP r_dest.has r_dest .nil .nil).addO h_vp.has (.cons o_vp_dest .nil)).addO h_m.has (.skip (.cons o_m_dest .nil))).addO h_pos.has (.skip (.skip (.cons o_pos_dest .nil)))) (.p rfl (.p rfl (.p rfl (.p rfl .nil)))) (glm_project_run _ _ _) (DT.val_done _) rfl rfl rfl
example (pos : V3 α) (m : M4 α) (vp : V4 α) : let mem : Mem α := [⟨true, .undef :: pos.list.map .f⟩, ⟨false, m.list.map .f⟩, ⟨false, vp.list.map .f⟩]
    Holds mem (0, 1) pos.list ∧ Holds mem (1, 0) m.list ∧ Holds mem (2, 0) vp.list ∧ Room mem (0, 0) 3 ∧ Over (0, 1) 3 (0, 0) 3 ∧ Over (1, 0) 16 (0, 0) 3 ∧ Over (2, 0) 4 (0, 0) 3 :=
  ⟨.within rfl rfl, .within rfl rfl, .within rfl rfl, .within rfl rfl, Or.inl (by decide), Or.inl (by decide), Or.inl (by decide)⟩

theorem C98_pickmatrix {mem : Mem α} {centerP sizeP vpP destP : Ptr} {center : V2 α} {size : V2 α} {vp : V4 α} {dest : M4 α} (h_center : Holds mem centerP center.list) (h_size : Holds mem sizeP size.list) (h_vp : Holds mem vpP vp.list) (h_dest : Holds mem destP dest.list) (r_dest : Room mem destP 16) :
    C.glm_pickmatrix.run mem [centerP.val, sizeP.val, vpP.val, destP.val] =
      some (none, writes mem [(destP, (Cglm.glm_pickmatrix center size vp dest).list.map .f)]) :=
  transferO (e := Lib.glm_pickmatrix) (up := true) (by kernel_rfl) (((((RO.nil true _).addW h_dest.has r_dest .nil).addR h_vp.has).addR h_size.has).addR h_center.has) (.p rfl (.p rfl (.p rfl (.p rfl .nil)))) (glm_pickmatrix_run _ _ _ _) (DT.val_map_eq (glm_pickmatrix_dt_val _ _ _ _) rfl) rfl rfl rfl
example (size : V2 α) (vp : V4 α) (dest : M4 α) : let mem : Mem α := [⟨true, dest.list.map .f⟩, ⟨false, size.list.map .f⟩, ⟨false, vp.list.map .f⟩]
    Holds mem (0, 1) (⟨dest.c0.y, dest.c0.z⟩ : V2 α).list ∧ Holds mem (1, 0) size.list ∧ Holds mem (2, 0) vp.list ∧ Room mem (0, 0) 16 ∧ Holds mem (0, 0) dest.list :=
  ⟨.within rfl rfl, .within rfl rfl, .within rfl rfl, .within rfl rfl, .within rfl rfl⟩

theorem C98_sphere_transform {mem : Mem α} {sP mP destP : Ptr} {s : V4 α} {m : M4 α} (h_s : Holds mem sP s.list) (h_m : Holds mem mP m.list) (r_dest : Room mem destP 4) (o_s_dest : Over sP 4 destP 4) (o_m_dest : Over mP 16 destP 4) :
    C.glm_sphere_transform.run mem [sP.val, mP.val, destP.val] =
      some (none, writes mem [(destP, (Cglm.glm_sphere_transform s m).list.map .f)]) :=
  transferO (e := Lib.glm_sphere_transform) (up := false) (by kernel_rfl) ((((RO.nil false _).addP r_dest.has r_dest .nil .nil).addO h_m.has (.cons o_m_dest .nil)).addO h_s.has (.skip (.cons o_s_dest .nil))) (.p rfl (.p rfl (.p rfl .nil))) (glm_sphere_transform_run _ _) (DT.val_done _) rfl rfl rfl
example (s : V4 α) (m : M4 α) : let mem : Mem α := [⟨true, .undef :: s.list.map .f⟩, ⟨false, m.list.map .f⟩]
    Holds mem (0, 1) s.list ∧ Holds mem (1, 0) m.list ∧ Room mem (0, 0) 4 ∧ Over (0, 1) 4 (0, 0) 4 ∧ Over (1, 0) 16 (0, 0) 4 :=
  ⟨.within rfl rfl, .within rfl rfl, .within rfl rfl, Or.inl (by decide), Or.inl (by decide)⟩

theorem C98_sphere_merge {mem : Mem α} {s1P s2P destP : Ptr} {s1 : V4 α} {s2 : V4 α} (h_s1 : Holds mem s1P s1.list) (h_s2 : Holds mem s2P s2.list) (r_dest : Room mem destP 4) (o_s1_dest : Over s1P 4 destP 4) (o_s2_dest : Over s2P 4 destP 4) :
    C.glm_sphere_merge.run mem [s1P.val, s2P.val, destP.val] =
      some (none, writes mem [(destP, (Cglm.glm_sphere_merge s1 s2).list.map .f)]) :=
  transferO (e := Lib.glm_sphere_merge) (up := false) (by kernel_rfl) ((((RO.nil false _).addP r_dest.has r_dest .nil .nil).addO h_s2.has (.cons o_s2_dest .nil)).addO h_s1.has (.skip (.cons o_s1_dest .nil))) (.p rfl (.p rfl (.p rfl .nil))) (glm_sphere_merge_run _ _) (DT.val_done _) rfl rfl rfl
example (s1 : V4 α) (s2 : V4 α) : let mem : Mem α := [⟨true, .undef :: s1.list.map .f⟩, ⟨false, s2.list.map .f⟩]
    Holds mem (0, 1) s1.list ∧ Holds mem (1, 0) s2.list ∧ Room mem (0, 0) 4 ∧ Over (0, 1) 4 (0, 0) 4 ∧ Over (1, 0) 4 (0, 0) 4 :=
  ⟨.within rfl rfl, .within rfl rfl, .within rfl rfl, Or.inl (by decide), Or.inl (by decide)⟩

theorem C98_ray_triangle {mem : Mem α} {originP directionP v0P v1P v2P dP : Ptr} {origin : V3 α} {direction : V3 α} {v0 : V3 α} {v1 : V3 α} {v2 : V3 α} {d : α} (h_origin : Holds mem originP origin.list) (h_direction : Holds mem directionP direction.list) (h_v0 : Holds mem v0P v0.list) (h_v1 : Holds mem v1P v1.list) (h_v2 : Holds mem v2P v2.list) (h_d : Holds mem dP [d]) (r_d : Room mem dP 1) :
    C.glm_ray_triangle.run mem [originP.val, directionP.val, v0P.val, v1P.val, v2P.val, dP.val] =
      some (some (.b (Cglm.glm_ray_triangle origin direction v0 v1 v2 d).1), writes mem [(dP, [(Cglm.glm_ray_triangle origin direction v0 v1 v2 d).2].map .f)]) :=
  transferO (e := Lib.glm_ray_triangle) (up := true) (by kernel_rfl) (((((((RO.nil true _).addW h_d.has r_d .nil).addR h_v2.has).addR h_v1.has).addR h_v0.has).addR h_direction.has).addR h_origin.has) (.p rfl (.p rfl (.p rfl (.p rfl (.p rfl (.p rfl .nil)))))) (glm_ray_triangle_run _ _ _ _ _ _) (DT.val_map_eq (glm_ray_triangle_dt_val _ _ _ _ _ _) rfl) rfl rfl rfl
example (t : α) (direction : V3 α) (v0 : V3 α) (v1 : V3 α) (v2 : V3 α) (d : α) : let mem : Mem α := [⟨true, [d].map .f ++ List.replicate 3 (.f t)⟩, ⟨false, direction.list.map .f⟩, ⟨false, v0.list.map .f⟩, ⟨false, v1.list.map .f⟩, ⟨false, v2.list.map .f⟩]
    Holds mem (0, 1) (⟨t, t, t⟩ : V3 α).list ∧ Holds mem (1, 0) direction.list ∧ Holds mem (2, 0) v0.list ∧ Holds mem (3, 0) v1.list ∧ Holds mem (4, 0) v2.list ∧ Room mem (0, 0) 1 ∧ Holds mem (0, 0) [d] :=
  ⟨.within rfl rfl, .within rfl rfl, .within rfl rfl, .within rfl rfl, .within rfl rfl, .within rfl rfl, .within rfl rfl⟩

theorem C98_ray_sphere {mem : Mem α} {originP dirP sP t1P t2P : Ptr} {origin : V3 α} {dir : V3 α} {s : V4 α} {t1 : α} {t2 : α} (h_origin : Holds mem originP origin.list) (h_dir : Holds mem dirP dir.list) (h_s : Holds mem sP s.list) (h_t1 : Holds mem t1P [t1]) (r_t1 : Room mem t1P 1) (h_t2 : Holds mem t2P [t2]) (r_t2 : Room mem t2P 1) (s_t1_t2 : Apart t1P 1 t2P 1) :
    C.glm_ray_sphere.run mem [originP.val, dirP.val, sP.val, t1P.val, t2P.val] =
      some (some (.b (Cglm.glm_ray_sphere origin dir s t1 t2).1), writes mem [(t1P, [(Cglm.glm_ray_sphere origin dir s t1 t2).2.1].map .f), (t2P, [(Cglm.glm_ray_sphere origin dir s t1 t2).2.2].map .f)]) :=
  transferO (e := Lib.glm_ray_sphere) (up := true) (by kernel_rfl) ((((((RO.nil true _).addW h_t2.has r_t2 .nil).addW h_t1.has r_t1 (.cons s_t1_t2 .nil)).addR h_s.has).addR h_dir.has).addR h_origin.has) (.p rfl (.p rfl (.p rfl (.p rfl (.p rfl .nil))))) (glm_ray_sphere_run _ _ _ _ _) (DT.val_map_eq (glm_ray_sphere_dt_val _ _ _ _ _) rfl) rfl rfl rfl
example (t : α) (dir : V3 α) (s : V4 α) (t1 : α) (t2 : α) : let mem : Mem α := [⟨true, [t1].map .f ++ List.replicate 3 (.f t)⟩, ⟨false, dir.list.map .f⟩, ⟨false, s.list.map .f⟩, ⟨true, [t2].map .f⟩]
    Holds mem (0, 1) (⟨t, t, t⟩ : V3 α).list ∧ Holds mem (1, 0) dir.list ∧ Holds mem (2, 0) s.list ∧ Room mem (0, 0) 1 ∧ Holds mem (0, 0) [t1] ∧ Room mem (3, 0) 1 ∧ Holds mem (3, 0) [t2] ∧ Apart (0, 0) 1 (3, 0) 1 :=
  ⟨.within rfl rfl, .within rfl rfl, .within rfl rfl, .within rfl rfl, .within rfl rfl, .within rfl rfl, .within rfl rfl, Or.inl (by decide)⟩

theorem C98_ray_at {mem : Mem α} {origP dirP pointP : Ptr} {orig : V3 α} {dir : V3 α} (t : α) (h_orig : Holds mem origP orig.list) (h_dir : Holds mem dirP dir.list) (r_point : Room mem pointP 3) (o_orig_point : Over origP 3 pointP 3) (o_dir_point : Over dirP 3 pointP 3) :
    C.glm_ray_at.run mem [origP.val, dirP.val, .f t, pointP.val] =
      some (none, writes mem [(pointP, (Cglm.glm_ray_at orig dir t).list.map .f)]) :=
  transferO (e := Lib.glm_ray_at) (up := false) (by kernel_rfl) ((((RO.nil false _).addP r_point.has r_point .nil .nil).addO h_dir.has (.cons o_dir_point .nil)).addO h_orig.has (.skip (.cons o_orig_point .nil))) (.p rfl (.p rfl (.f (.p rfl .nil)))) (glm_ray_at_run _ _ _) (DT.val_done _) rfl rfl rfl
example (orig : V3 α) (dir : V3 α) : let mem : Mem α := [⟨true, .undef :: orig.list.map .f⟩, ⟨false, dir.list.map .f⟩]
    Holds mem (0, 1) orig.list ∧ Holds mem (1, 0) dir.list ∧ Room mem (0, 0) 3 ∧ Over (0, 1) 3 (0, 0) 3 ∧ Over (1, 0) 3 (0, 0) 3 :=
  ⟨.within rfl rfl, .within rfl rfl, .within rfl rfl, Or.inl (by decide), Or.inl (by decide)⟩

end Cglm
