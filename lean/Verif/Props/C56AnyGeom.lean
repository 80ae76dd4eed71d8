/- Generated by tools/safethms.py; do not edit by hand. -/
import Verif.Lib.Geom

/-!
# C56: memory safety when the arguments overlap in any way

No theorem here assumes anything about how the arguments lie relative «to» each other: inputs may be the destination,
or overlap it or each other partly.  Whenever every input is initialised and every destination is writable, the call
is defined, no cell outside the destinations changes, and the destinations end up initialised.
-/

set_option linter.unusedVariables false
set_option linter.unusedSectionVars false

namespace Cglm
open CMem

variable {α : Type} [Add α] [Sub α] [Mul α] [Div α] [Neg α] [CFloat α]

/-! ## include/cglm/util.h -/

theorem C56_any_signf (mem : Mem α) (val : α) :
    Safe mem [] .float (C.glm_signf.run mem [.f val]) :=
  safe_entry Lib.glm_signf_ok [.f val] ⟨trivial, trivial⟩ rfl

theorem C56_any_rad (mem : Mem α) (deg : α) :
    Safe mem [] .float (C.glm_rad.run mem [.f deg]) :=
  safe_entry Lib.glm_rad_ok [.f deg] ⟨trivial, trivial⟩ rfl

theorem C56_any_deg (mem : Mem α) (rad : α) :
    Safe mem [] .float (C.glm_deg.run mem [.f rad]) :=
  safe_entry Lib.glm_deg_ok [.f rad] ⟨trivial, trivial⟩ rfl

theorem C56_any_make_rad {mem : Mem α} {degP : Ptr} (h_deg : Init mem degP 1) (r_deg : Room mem degP 1) :
    Safe mem [(degP, 1)] .void (C.glm_make_rad.run mem [degP.val]) :=
  safe_entry Lib.glm_make_rad_ok [.io degP 1] ⟨⟨initK_isF.mpr h_deg, r_deg, by decide⟩, trivial⟩ rfl
example (x : α) : let mem : Mem α := [⟨true, List.replicate 1 (.f x)⟩]
    Init mem (0, 0) 1 ∧ Room mem (0, 0) 1 :=
  ⟨.replicate (by decide), .replicate (by decide)⟩

theorem C56_any_make_deg {mem : Mem α} {radP : Ptr} (h_rad : Init mem radP 1) (r_rad : Room mem radP 1) :
    Safe mem [(radP, 1)] .void (C.glm_make_deg.run mem [radP.val]) :=
  safe_entry Lib.glm_make_deg_ok [.io radP 1] ⟨⟨initK_isF.mpr h_rad, r_rad, by decide⟩, trivial⟩ rfl
example (x : α) : let mem : Mem α := [⟨true, List.replicate 1 (.f x)⟩]
    Init mem (0, 0) 1 ∧ Room mem (0, 0) 1 :=
  ⟨.replicate (by decide), .replicate (by decide)⟩

theorem C56_any_pow2 (mem : Mem α) (x : α) :
    Safe mem [] .float (C.glm_pow2.run mem [.f x]) :=
  safe_entry Lib.glm_pow2_ok [.f x] ⟨trivial, trivial⟩ rfl

theorem C56_any_min (mem : Mem α) (a : α) (b : α) :
    Safe mem [] .float (C.glm_min.run mem [.f a, .f b]) :=
  safe_entry Lib.glm_min_ok [.f a, .f b] ⟨trivial, trivial, trivial⟩ rfl

theorem C56_any_max (mem : Mem α) (a : α) (b : α) :
    Safe mem [] .float (C.glm_max.run mem [.f a, .f b]) :=
  safe_entry Lib.glm_max_ok [.f a, .f b] ⟨trivial, trivial, trivial⟩ rfl

theorem C56_any_imin (mem : Mem α) (a : Int) (b : Int) :
    Safe mem [] .int (C.glm_imin.run mem [.i a, .i b]) :=
  safe_entry Lib.glm_imin_ok [.i a, .i b] ⟨trivial, trivial, trivial⟩ rfl

theorem C56_any_imax (mem : Mem α) (a : Int) (b : Int) :
    Safe mem [] .int (C.glm_imax.run mem [.i a, .i b]) :=
  safe_entry Lib.glm_imax_ok [.i a, .i b] ⟨trivial, trivial, trivial⟩ rfl

theorem C56_any_clamp (mem : Mem α) (val : α) (minVal : α) (maxVal : α) :
    Safe mem [] .float (C.glm_clamp.run mem [.f val, .f minVal, .f maxVal]) :=
  safe_entry Lib.glm_clamp_ok [.f val, .f minVal, .f maxVal] ⟨trivial, trivial, trivial, trivial⟩ rfl

theorem C56_any_clamp_zo (mem : Mem α) (val : α) :
    Safe mem [] .float (C.glm_clamp_zo.run mem [.f val]) :=
  safe_entry Lib.glm_clamp_zo_ok [.f val] ⟨trivial, trivial⟩ rfl

theorem C56_any_lerp (mem : Mem α) (frm : α) («to» : α) (t : α) :
    Safe mem [] .float (C.glm_lerp.run mem [.f frm, .f «to», .f t]) :=
  safe_entry Lib.glm_lerp_ok [.f frm, .f «to», .f t] ⟨trivial, trivial, trivial, trivial⟩ rfl

theorem C56_any_lerpc (mem : Mem α) (frm : α) («to» : α) (t : α) :
    Safe mem [] .float (C.glm_lerpc.run mem [.f frm, .f «to», .f t]) :=
  safe_entry Lib.glm_lerpc_ok [.f frm, .f «to», .f t] ⟨trivial, trivial, trivial, trivial⟩ rfl

theorem C56_any_step (mem : Mem α) (edge : α) (x : α) :
    Safe mem [] .float (C.glm_step.run mem [.f edge, .f x]) :=
  safe_entry Lib.glm_step_ok [.f edge, .f x] ⟨trivial, trivial, trivial⟩ rfl

theorem C56_any_smooth (mem : Mem α) (t : α) :
    Safe mem [] .float (C.glm_smooth.run mem [.f t]) :=
  safe_entry Lib.glm_smooth_ok [.f t] ⟨trivial, trivial⟩ rfl

theorem C56_any_smoothstep (mem : Mem α) (edge0 : α) (edge1 : α) (x : α) :
    Safe mem [] .float (C.glm_smoothstep.run mem [.f edge0, .f edge1, .f x]) :=
  safe_entry Lib.glm_smoothstep_ok [.f edge0, .f edge1, .f x] ⟨trivial, trivial, trivial, trivial⟩ rfl

theorem C56_any_smoothinterp (mem : Mem α) (frm : α) («to» : α) (t : α) :
    Safe mem [] .float (C.glm_smoothinterp.run mem [.f frm, .f «to», .f t]) :=
  safe_entry Lib.glm_smoothinterp_ok [.f frm, .f «to», .f t] ⟨trivial, trivial, trivial, trivial⟩ rfl

theorem C56_any_smoothinterpc (mem : Mem α) (frm : α) («to» : α) (t : α) :
    Safe mem [] .float (C.glm_smoothinterpc.run mem [.f frm, .f «to», .f t]) :=
  safe_entry Lib.glm_smoothinterpc_ok [.f frm, .f «to», .f t] ⟨trivial, trivial, trivial, trivial⟩ rfl

theorem C56_any_eq (mem : Mem α) (a : α) (b : α) :
    Safe mem [] .bool (C.glm_eq.run mem [.f a, .f b]) :=
  safe_entry Lib.glm_eq_ok [.f a, .f b] ⟨trivial, trivial, trivial⟩ rfl

theorem C56_any_percent (mem : Mem α) (frm : α) («to» : α) (current : α) :
    Safe mem [] .float (C.glm_percent.run mem [.f frm, .f «to», .f current]) :=
  safe_entry Lib.glm_percent_ok [.f frm, .f «to», .f current] ⟨trivial, trivial, trivial, trivial⟩ rfl

theorem C56_any_percentc (mem : Mem α) (frm : α) («to» : α) (current : α) :
    Safe mem [] .float (C.glm_percentc.run mem [.f frm, .f «to», .f current]) :=
  safe_entry Lib.glm_percentc_ok [.f frm, .f «to», .f current] ⟨trivial, trivial, trivial, trivial⟩ rfl

theorem C56_any_swapf {mem : Mem α} {aP bP : Ptr} (h_a : Init mem aP 1) (r_a : Room mem aP 1) (h_b : Init mem bP 1) (r_b : Room mem bP 1) :
    Safe mem [(aP, 1), (bP, 1)] .void (C.glm_swapf.run mem [aP.val, bP.val]) :=
  safe_entry Lib.glm_swapf_ok [.io aP 1, .io bP 1] ⟨⟨initK_isF.mpr h_a, r_a, by decide⟩, ⟨initK_isF.mpr h_b, r_b, by decide⟩, trivial⟩ rfl
example (x : α) : let mem : Mem α := [⟨true, List.replicate 2 (.f x)⟩]
    Init mem (0, 0) 1 ∧ Room mem (0, 0) 1 ∧ Init mem (0, 1) 1 ∧ Room mem (0, 1) 1 :=
  ⟨.replicate (by decide), .replicate (by decide), .replicate (by decide), .replicate (by decide)⟩

/-! ## include/cglm/plane.h -/

theorem C56_any_plane_normalize {mem : Mem α} {planeP : Ptr} (h_plane : Init mem planeP 4) (r_plane : Room mem planeP 4) :
    Safe mem [(planeP, 4)] .void (C.glm_plane_normalize.run mem [planeP.val]) :=
  safe_entry Lib.glm_plane_normalize_ok [.io planeP 4] ⟨⟨initK_isF.mpr h_plane, r_plane, by decide⟩, trivial⟩ rfl
example (x : α) : let mem : Mem α := [⟨true, List.replicate 4 (.f x)⟩]
    Init mem (0, 0) 4 ∧ Room mem (0, 0) 4 :=
  ⟨.replicate (by decide), .replicate (by decide)⟩

/-! ## include/cglm/cam.h -/

theorem C56_any_frustum {mem : Mem α} {destP : Ptr} (left : α) (right : α) (bottom : α) (top : α) (nearZ : α) (farZ : α) (r_dest : Room mem destP 16) :
    Safe mem [(destP, 16)] .void (C.glm_frustum.run mem [.f left, .f right, .f bottom, .f top, .f nearZ, .f farZ, destP.val]) :=
  safe_entry Lib.glm_frustum_ok [.f left, .f right, .f bottom, .f top, .f nearZ, .f farZ, .out destP 16] ⟨trivial, trivial, trivial, trivial, trivial, trivial, ⟨r_dest, by decide⟩, trivial⟩ rfl
example (x : α) : let mem : Mem α := [⟨true, List.replicate 16 (.f x)⟩]
    Room mem (0, 0) 16 :=
  .replicate (by decide)

theorem C56_any_ortho {mem : Mem α} {destP : Ptr} (left : α) (right : α) (bottom : α) (top : α) (nearZ : α) (farZ : α) (r_dest : Room mem destP 16) :
    Safe mem [(destP, 16)] .void (C.glm_ortho.run mem [.f left, .f right, .f bottom, .f top, .f nearZ, .f farZ, destP.val]) :=
  safe_entry Lib.glm_ortho_ok [.f left, .f right, .f bottom, .f top, .f nearZ, .f farZ, .out destP 16] ⟨trivial, trivial, trivial, trivial, trivial, trivial, ⟨r_dest, by decide⟩, trivial⟩ rfl
example (x : α) : let mem : Mem α := [⟨true, List.replicate 16 (.f x)⟩]
    Room mem (0, 0) 16 :=
  .replicate (by decide)

theorem C56_any_ortho_aabb {mem : Mem α} {boxP destP : Ptr} (h_box : Init mem boxP 6) (r_dest : Room mem destP 16) :
    Safe mem [(destP, 16)] .void (C.glm_ortho_aabb.run mem [boxP.val, destP.val]) :=
  safe_entry Lib.glm_ortho_aabb_ok [.inp boxP 6, .out destP 16] ⟨⟨initK_isF.mpr h_box, by decide⟩, ⟨r_dest, by decide⟩, trivial⟩ rfl
example (x : α) : let mem : Mem α := [⟨true, List.replicate 17 (.f x)⟩]
    Init mem (0, 0) 6 ∧ Room mem (0, 1) 16 :=
  ⟨.replicate (by decide), .replicate (by decide)⟩

theorem C56_any_ortho_aabb_p {mem : Mem α} {boxP destP : Ptr} (padding : α) (h_box : Init mem boxP 6) (r_dest : Room mem destP 16) :
    Safe mem [(destP, 16)] .void (C.glm_ortho_aabb_p.run mem [boxP.val, .f padding, destP.val]) :=
  safe_entry Lib.glm_ortho_aabb_p_ok [.inp boxP 6, .f padding, .out destP 16] ⟨⟨initK_isF.mpr h_box, by decide⟩, trivial, ⟨r_dest, by decide⟩, trivial⟩ rfl
example (x : α) : let mem : Mem α := [⟨true, List.replicate 17 (.f x)⟩]
    Init mem (0, 0) 6 ∧ Room mem (0, 1) 16 :=
  ⟨.replicate (by decide), .replicate (by decide)⟩

theorem C56_any_ortho_aabb_pz {mem : Mem α} {boxP destP : Ptr} (padding : α) (h_box : Init mem boxP 6) (r_dest : Room mem destP 16) :
    Safe mem [(destP, 16)] .void (C.glm_ortho_aabb_pz.run mem [boxP.val, .f padding, destP.val]) :=
  safe_entry Lib.glm_ortho_aabb_pz_ok [.inp boxP 6, .f padding, .out destP 16] ⟨⟨initK_isF.mpr h_box, by decide⟩, trivial, ⟨r_dest, by decide⟩, trivial⟩ rfl
example (x : α) : let mem : Mem α := [⟨true, List.replicate 17 (.f x)⟩]
    Init mem (0, 0) 6 ∧ Room mem (0, 1) 16 :=
  ⟨.replicate (by decide), .replicate (by decide)⟩

theorem C56_any_ortho_default {mem : Mem α} {destP : Ptr} (aspect : α) (r_dest : Room mem destP 16) :
    Safe mem [(destP, 16)] .void (C.glm_ortho_default.run mem [.f aspect, destP.val]) :=
  safe_entry Lib.glm_ortho_default_ok [.f aspect, .out destP 16] ⟨trivial, ⟨r_dest, by decide⟩, trivial⟩ rfl
example (x : α) : let mem : Mem α := [⟨true, List.replicate 16 (.f x)⟩]
    Room mem (0, 0) 16 :=
  .replicate (by decide)

theorem C56_any_ortho_default_s {mem : Mem α} {destP : Ptr} (aspect : α) (size : α) (r_dest : Room mem destP 16) :
    Safe mem [(destP, 16)] .void (C.glm_ortho_default_s.run mem [.f aspect, .f size, destP.val]) :=
  safe_entry Lib.glm_ortho_default_s_ok [.f aspect, .f size, .out destP 16] ⟨trivial, trivial, ⟨r_dest, by decide⟩, trivial⟩ rfl
example (x : α) : let mem : Mem α := [⟨true, List.replicate 16 (.f x)⟩]
    Room mem (0, 0) 16 :=
  .replicate (by decide)

theorem C56_any_perspective {mem : Mem α} {destP : Ptr} (fovy : α) (aspect : α) (nearZ : α) (farZ : α) (r_dest : Room mem destP 16) :
    Safe mem [(destP, 16)] .void (C.glm_perspective.run mem [.f fovy, .f aspect, .f nearZ, .f farZ, destP.val]) :=
  safe_entry Lib.glm_perspective_ok [.f fovy, .f aspect, .f nearZ, .f farZ, .out destP 16] ⟨trivial, trivial, trivial, trivial, ⟨r_dest, by decide⟩, trivial⟩ rfl
example (x : α) : let mem : Mem α := [⟨true, List.replicate 16 (.f x)⟩]
    Room mem (0, 0) 16 :=
  .replicate (by decide)

theorem C56_any_persp_move_far {mem : Mem α} {projP : Ptr} (deltaFar : α) (h_proj : Init mem projP 16) (r_proj : Room mem projP 16) :
    Safe mem [(projP, 16)] .void (C.glm_persp_move_far.run mem [projP.val, .f deltaFar]) :=
  safe_entry Lib.glm_persp_move_far_ok [.io projP 16, .f deltaFar] ⟨⟨initK_isF.mpr h_proj, r_proj, by decide⟩, trivial, trivial⟩ rfl
example (x : α) : let mem : Mem α := [⟨true, List.replicate 16 (.f x)⟩]
    Init mem (0, 0) 16 ∧ Room mem (0, 0) 16 :=
  ⟨.replicate (by decide), .replicate (by decide)⟩

theorem C56_any_perspective_default {mem : Mem α} {destP : Ptr} (aspect : α) (r_dest : Room mem destP 16) :
    Safe mem [(destP, 16)] .void (C.glm_perspective_default.run mem [.f aspect, destP.val]) :=
  safe_entry Lib.glm_perspective_default_ok [.f aspect, .out destP 16] ⟨trivial, ⟨r_dest, by decide⟩, trivial⟩ rfl
example (x : α) : let mem : Mem α := [⟨true, List.replicate 16 (.f x)⟩]
    Room mem (0, 0) 16 :=
  .replicate (by decide)

theorem C56_any_perspective_resize {mem : Mem α} {projP : Ptr} (aspect : α) (h_proj : Init mem projP 16) (r_proj : Room mem projP 16) :
    Safe mem [(projP, 16)] .void (C.glm_perspective_resize.run mem [.f aspect, projP.val]) :=
  safe_entry Lib.glm_perspective_resize_ok [.f aspect, .io projP 16] ⟨trivial, ⟨initK_isF.mpr h_proj, r_proj, by decide⟩, trivial⟩ rfl
example (x : α) : let mem : Mem α := [⟨true, List.replicate 16 (.f x)⟩]
    Init mem (0, 0) 16 ∧ Room mem (0, 0) 16 :=
  ⟨.replicate (by decide), .replicate (by decide)⟩

theorem C56_any_lookat {mem : Mem α} {eyeP centerP upP destP : Ptr} (h_eye : Init mem eyeP 3) (h_center : Init mem centerP 3) (h_up : Init mem upP 3) (r_dest : Room mem destP 16) :
    Safe mem [(destP, 16)] .void (C.glm_lookat.run mem [eyeP.val, centerP.val, upP.val, destP.val]) :=
  safe_entry Lib.glm_lookat_ok [.inp eyeP 3, .inp centerP 3, .inp upP 3, .out destP 16] ⟨⟨initK_isF.mpr h_eye, by decide⟩, ⟨initK_isF.mpr h_center, by decide⟩, ⟨initK_isF.mpr h_up, by decide⟩, ⟨r_dest, by decide⟩, trivial⟩ rfl
example (x : α) : let mem : Mem α := [⟨true, List.replicate 19 (.f x)⟩]
    Init mem (0, 0) 3 ∧ Init mem (0, 1) 3 ∧ Init mem (0, 2) 3 ∧ Room mem (0, 3) 16 :=
  ⟨.replicate (by decide), .replicate (by decide), .replicate (by decide), .replicate (by decide)⟩

theorem C56_any_look {mem : Mem α} {eyeP dirP upP destP : Ptr} (h_eye : Init mem eyeP 3) (h_dir : Init mem dirP 3) (h_up : Init mem upP 3) (r_dest : Room mem destP 16) :
    Safe mem [(destP, 16)] .void (C.glm_look.run mem [eyeP.val, dirP.val, upP.val, destP.val]) :=
  safe_entry Lib.glm_look_ok [.inp eyeP 3, .inp dirP 3, .inp upP 3, .out destP 16] ⟨⟨initK_isF.mpr h_eye, by decide⟩, ⟨initK_isF.mpr h_dir, by decide⟩, ⟨initK_isF.mpr h_up, by decide⟩, ⟨r_dest, by decide⟩, trivial⟩ rfl
example (x : α) : let mem : Mem α := [⟨true, List.replicate 19 (.f x)⟩]
    Init mem (0, 0) 3 ∧ Init mem (0, 1) 3 ∧ Init mem (0, 2) 3 ∧ Room mem (0, 3) 16 :=
  ⟨.replicate (by decide), .replicate (by decide), .replicate (by decide), .replicate (by decide)⟩

theorem C56_any_look_anyup {mem : Mem α} {eyeP dirP destP : Ptr} (h_eye : Init mem eyeP 3) (h_dir : Init mem dirP 3) (r_dest : Room mem destP 16) :
    Safe mem [(destP, 16)] .void (C.glm_look_anyup.run mem [eyeP.val, dirP.val, destP.val]) :=
  safe_entry Lib.glm_look_anyup_ok [.inp eyeP 3, .inp dirP 3, .out destP 16] ⟨⟨initK_isF.mpr h_eye, by decide⟩, ⟨initK_isF.mpr h_dir, by decide⟩, ⟨r_dest, by decide⟩, trivial⟩ rfl
example (x : α) : let mem : Mem α := [⟨true, List.replicate 18 (.f x)⟩]
    Init mem (0, 0) 3 ∧ Init mem (0, 1) 3 ∧ Room mem (0, 2) 16 :=
  ⟨.replicate (by decide), .replicate (by decide), .replicate (by decide)⟩

theorem C56_any_persp_decomp {mem : Mem α} {projP nearZP farZP topP bottomP leftP rightP : Ptr} (h_proj : Init mem projP 16) (r_nearZ : Room mem nearZP 1) (r_farZ : Room mem farZP 1) (r_top : Room mem topP 1) (r_bottom : Room mem bottomP 1) (r_left : Room mem leftP 1) (r_right : Room mem rightP 1) :
    Safe mem [(nearZP, 1), (farZP, 1), (topP, 1), (bottomP, 1), (leftP, 1), (rightP, 1)] .void (C.glm_persp_decomp.run mem [projP.val, nearZP.val, farZP.val, topP.val, bottomP.val, leftP.val, rightP.val]) :=
  safe_entry Lib.glm_persp_decomp_ok [.inp projP 16, .out nearZP 1, .out farZP 1, .out topP 1, .out bottomP 1, .out leftP 1, .out rightP 1] ⟨⟨initK_isF.mpr h_proj, by decide⟩, ⟨r_nearZ, by decide⟩, ⟨r_farZ, by decide⟩, ⟨r_top, by decide⟩, ⟨r_bottom, by decide⟩, ⟨r_left, by decide⟩, ⟨r_right, by decide⟩, trivial⟩ rfl
example (x : α) : let mem : Mem α := [⟨true, List.replicate 16 (.f x)⟩]
    Init mem (0, 0) 16 ∧ Room mem (0, 1) 1 ∧ Room mem (0, 2) 1 ∧ Room mem (0, 3) 1 ∧ Room mem (0, 4) 1 ∧ Room mem (0, 5) 1 ∧ Room mem (0, 6) 1 :=
  ⟨.replicate (by decide), .replicate (by decide), .replicate (by decide), .replicate (by decide), .replicate (by decide), .replicate (by decide), .replicate (by decide)⟩

theorem C56_any_persp_decompv {mem : Mem α} {projP destP : Ptr} (h_proj : Init mem projP 16) (r_dest : Room mem destP 6) :
    Safe mem [(destP, 6)] .void (C.glm_persp_decompv.run mem [projP.val, destP.val]) :=
  safe_entry Lib.glm_persp_decompv_ok [.inp projP 16, .out destP 6] ⟨⟨initK_isF.mpr h_proj, by decide⟩, ⟨r_dest, by decide⟩, trivial⟩ rfl
example (x : α) : let mem : Mem α := [⟨true, List.replicate 16 (.f x)⟩]
    Init mem (0, 0) 16 ∧ Room mem (0, 1) 6 :=
  ⟨.replicate (by decide), .replicate (by decide)⟩

theorem C56_any_persp_decomp_x {mem : Mem α} {projP leftP rightP : Ptr} (h_proj : Init mem projP 16) (r_left : Room mem leftP 1) (r_right : Room mem rightP 1) :
    Safe mem [(leftP, 1), (rightP, 1)] .void (C.glm_persp_decomp_x.run mem [projP.val, leftP.val, rightP.val]) :=
  safe_entry Lib.glm_persp_decomp_x_ok [.inp projP 16, .out leftP 1, .out rightP 1] ⟨⟨initK_isF.mpr h_proj, by decide⟩, ⟨r_left, by decide⟩, ⟨r_right, by decide⟩, trivial⟩ rfl
example (x : α) : let mem : Mem α := [⟨true, List.replicate 16 (.f x)⟩]
    Init mem (0, 0) 16 ∧ Room mem (0, 1) 1 ∧ Room mem (0, 2) 1 :=
  ⟨.replicate (by decide), .replicate (by decide), .replicate (by decide)⟩

theorem C56_any_persp_decomp_y {mem : Mem α} {projP topP bottomP : Ptr} (h_proj : Init mem projP 16) (r_top : Room mem topP 1) (r_bottom : Room mem bottomP 1) :
    Safe mem [(topP, 1), (bottomP, 1)] .void (C.glm_persp_decomp_y.run mem [projP.val, topP.val, bottomP.val]) :=
  safe_entry Lib.glm_persp_decomp_y_ok [.inp projP 16, .out topP 1, .out bottomP 1] ⟨⟨initK_isF.mpr h_proj, by decide⟩, ⟨r_top, by decide⟩, ⟨r_bottom, by decide⟩, trivial⟩ rfl
example (x : α) : let mem : Mem α := [⟨true, List.replicate 16 (.f x)⟩]
    Init mem (0, 0) 16 ∧ Room mem (0, 1) 1 ∧ Room mem (0, 2) 1 :=
  ⟨.replicate (by decide), .replicate (by decide), .replicate (by decide)⟩

theorem C56_any_persp_decomp_z {mem : Mem α} {projP nearZP farZP : Ptr} (h_proj : Init mem projP 16) (r_nearZ : Room mem nearZP 1) (r_farZ : Room mem farZP 1) :
    Safe mem [(nearZP, 1), (farZP, 1)] .void (C.glm_persp_decomp_z.run mem [projP.val, nearZP.val, farZP.val]) :=
  safe_entry Lib.glm_persp_decomp_z_ok [.inp projP 16, .out nearZP 1, .out farZP 1] ⟨⟨initK_isF.mpr h_proj, by decide⟩, ⟨r_nearZ, by decide⟩, ⟨r_farZ, by decide⟩, trivial⟩ rfl
example (x : α) : let mem : Mem α := [⟨true, List.replicate 16 (.f x)⟩]
    Init mem (0, 0) 16 ∧ Room mem (0, 1) 1 ∧ Room mem (0, 2) 1 :=
  ⟨.replicate (by decide), .replicate (by decide), .replicate (by decide)⟩

theorem C56_any_persp_decomp_far {mem : Mem α} {projP farZP : Ptr} (h_proj : Init mem projP 16) (r_farZ : Room mem farZP 1) :
    Safe mem [(farZP, 1)] .void (C.glm_persp_decomp_far.run mem [projP.val, farZP.val]) :=
  safe_entry Lib.glm_persp_decomp_far_ok [.inp projP 16, .out farZP 1] ⟨⟨initK_isF.mpr h_proj, by decide⟩, ⟨r_farZ, by decide⟩, trivial⟩ rfl
example (x : α) : let mem : Mem α := [⟨true, List.replicate 16 (.f x)⟩]
    Init mem (0, 0) 16 ∧ Room mem (0, 1) 1 :=
  ⟨.replicate (by decide), .replicate (by decide)⟩

theorem C56_any_persp_decomp_near {mem : Mem α} {projP nearZP : Ptr} (h_proj : Init mem projP 16) (r_nearZ : Room mem nearZP 1) :
    Safe mem [(nearZP, 1)] .void (C.glm_persp_decomp_near.run mem [projP.val, nearZP.val]) :=
  safe_entry Lib.glm_persp_decomp_near_ok [.inp projP 16, .out nearZP 1] ⟨⟨initK_isF.mpr h_proj, by decide⟩, ⟨r_nearZ, by decide⟩, trivial⟩ rfl
example (x : α) : let mem : Mem α := [⟨true, List.replicate 16 (.f x)⟩]
    Init mem (0, 0) 16 ∧ Room mem (0, 1) 1 :=
  ⟨.replicate (by decide), .replicate (by decide)⟩

theorem C56_any_persp_sizes {mem : Mem α} {projP destP : Ptr} (fovy : α) (h_proj : Init mem projP 16) (r_dest : Room mem destP 4) :
    Safe mem [(destP, 4)] .void (C.glm_persp_sizes.run mem [projP.val, .f fovy, destP.val]) :=
  safe_entry Lib.glm_persp_sizes_ok [.inp projP 16, .f fovy, .out destP 4] ⟨⟨initK_isF.mpr h_proj, by decide⟩, trivial, ⟨r_dest, by decide⟩, trivial⟩ rfl
example (x : α) : let mem : Mem α := [⟨true, List.replicate 16 (.f x)⟩]
    Init mem (0, 0) 16 ∧ Room mem (0, 1) 4 :=
  ⟨.replicate (by decide), .replicate (by decide)⟩

/-! ## include/cglm/frustum.h -/

theorem C56_any_frustum_planes {mem : Mem α} {mP destP : Ptr} (h_m : Init mem mP 16) (r_dest : Room mem destP 24) :
    Safe mem [(destP, 24)] .void (C.glm_frustum_planes.run mem [mP.val, destP.val]) :=
  safe_entry Lib.glm_frustum_planes_ok [.inp mP 16, .out destP 24] ⟨⟨initK_isF.mpr h_m, by decide⟩, ⟨r_dest, by decide⟩, trivial⟩ rfl
example (x : α) : let mem : Mem α := [⟨true, List.replicate 25 (.f x)⟩]
    Init mem (0, 0) 16 ∧ Room mem (0, 1) 24 :=
  ⟨.replicate (by decide), .replicate (by decide)⟩

theorem C56_any_frustum_corners {mem : Mem α} {invMatP destP : Ptr} (h_invMat : Init mem invMatP 16) (r_dest : Room mem destP 32) :
    Safe mem [(destP, 32)] .void (C.glm_frustum_corners.run mem [invMatP.val, destP.val]) :=
  safe_entry Lib.glm_frustum_corners_ok [.inp invMatP 16, .out destP 32] ⟨⟨initK_isF.mpr h_invMat, by decide⟩, ⟨r_dest, by decide⟩, trivial⟩ rfl
example (x : α) : let mem : Mem α := [⟨true, List.replicate 33 (.f x)⟩]
    Init mem (0, 0) 16 ∧ Room mem (0, 1) 32 :=
  ⟨.replicate (by decide), .replicate (by decide)⟩

theorem C56_any_frustum_center {mem : Mem α} {cornersP destP : Ptr} (h_corners : Init mem cornersP 32) (r_dest : Room mem destP 4) :
    Safe mem [(destP, 4)] .void (C.glm_frustum_center.run mem [cornersP.val, destP.val]) :=
  safe_entry Lib.glm_frustum_center_ok [.inp cornersP 32, .out destP 4] ⟨⟨initK_isF.mpr h_corners, by decide⟩, ⟨r_dest, by decide⟩, trivial⟩ rfl
example (x : α) : let mem : Mem α := [⟨true, List.replicate 32 (.f x)⟩]
    Init mem (0, 0) 32 ∧ Room mem (0, 1) 4 :=
  ⟨.replicate (by decide), .replicate (by decide)⟩

theorem C56_any_frustum_box {mem : Mem α} {cornersP mP boxP : Ptr} (h_corners : Init mem cornersP 32) (h_m : Init mem mP 16) (r_box : Room mem boxP 6) :
    Safe mem [(boxP, 6)] .void (C.glm_frustum_box.run mem [cornersP.val, mP.val, boxP.val]) :=
  safe_entry Lib.glm_frustum_box_ok [.inp cornersP 32, .inp mP 16, .out boxP 6] ⟨⟨initK_isF.mpr h_corners, by decide⟩, ⟨initK_isF.mpr h_m, by decide⟩, ⟨r_box, by decide⟩, trivial⟩ rfl
example (x : α) : let mem : Mem α := [⟨true, List.replicate 32 (.f x)⟩]
    Init mem (0, 0) 32 ∧ Init mem (0, 1) 16 ∧ Room mem (0, 2) 6 :=
  ⟨.replicate (by decide), .replicate (by decide), .replicate (by decide)⟩

theorem C56_any_frustum_corners_at {mem : Mem α} {cornersP planeCornersP : Ptr} (splitDist : α) (farDist : α) (h_corners : Init mem cornersP 32) (r_planeCorners : Room mem planeCornersP 16) :
    Safe mem [(planeCornersP, 16)] .void (C.glm_frustum_corners_at.run mem [cornersP.val, .f splitDist, .f farDist, planeCornersP.val]) :=
  safe_entry Lib.glm_frustum_corners_at_ok [.inp cornersP 32, .f splitDist, .f farDist, .out planeCornersP 16] ⟨⟨initK_isF.mpr h_corners, by decide⟩, trivial, trivial, ⟨r_planeCorners, by decide⟩, trivial⟩ rfl
example (x : α) : let mem : Mem α := [⟨true, List.replicate 32 (.f x)⟩]
    Init mem (0, 0) 32 ∧ Room mem (0, 1) 16 :=
  ⟨.replicate (by decide), .replicate (by decide)⟩

/-! ## include/cglm/noise.h -/

theorem C56_any_perlin_vec4 {mem : Mem α} {pointP : Ptr} (h_point : Init mem pointP 4) :
    Safe mem [] .float (C.glm_perlin_vec4.run mem [pointP.val]) :=
  safe_entry Lib.glm_perlin_vec4_ok [.inp pointP 4] ⟨⟨initK_isF.mpr h_point, by decide⟩, trivial⟩ rfl
example (x : α) : let mem : Mem α := [⟨true, List.replicate 4 (.f x)⟩]
    Init mem (0, 0) 4 :=
  .replicate (by decide)

theorem C56_any_perlin_vec3 {mem : Mem α} {pointP : Ptr} (h_point : Init mem pointP 3) :
    Safe mem [] .float (C.glm_perlin_vec3.run mem [pointP.val]) :=
  safe_entry Lib.glm_perlin_vec3_ok [.inp pointP 3] ⟨⟨initK_isF.mpr h_point, by decide⟩, trivial⟩ rfl
example (x : α) : let mem : Mem α := [⟨true, List.replicate 3 (.f x)⟩]
    Init mem (0, 0) 3 :=
  .replicate (by decide)

theorem C56_any_perlin_vec2 {mem : Mem α} {pointP : Ptr} (h_point : Init mem pointP 2) :
    Safe mem [] .float (C.glm_perlin_vec2.run mem [pointP.val]) :=
  safe_entry Lib.glm_perlin_vec2_ok [.inp pointP 2] ⟨⟨initK_isF.mpr h_point, by decide⟩, trivial⟩ rfl
example (x : α) : let mem : Mem α := [⟨true, List.replicate 2 (.f x)⟩]
    Init mem (0, 0) 2 :=
  .replicate (by decide)

/-! ## include/cglm/aabb2d.h -/

theorem C56_any_aabb2d_zero {mem : Mem α} {aabbP : Ptr} (r_aabb : Room mem aabbP 4) :
    Safe mem [(aabbP, 4)] .void (C.glm_aabb2d_zero.run mem [aabbP.val]) :=
  safe_entry Lib.glm_aabb2d_zero_ok [.out aabbP 4] ⟨⟨r_aabb, by decide⟩, trivial⟩ rfl
example (x : α) : let mem : Mem α := [⟨true, List.replicate 4 (.f x)⟩]
    Room mem (0, 0) 4 :=
  .replicate (by decide)

theorem C56_any_aabb2d_copy {mem : Mem α} {aabbP destP : Ptr} (h_aabb : Init mem aabbP 4) (r_dest : Room mem destP 4) :
    Safe mem [(destP, 4)] .void (C.glm_aabb2d_copy.run mem [aabbP.val, destP.val]) :=
  safe_entry Lib.glm_aabb2d_copy_ok [.inp aabbP 4, .out destP 4] ⟨⟨initK_isF.mpr h_aabb, by decide⟩, ⟨r_dest, by decide⟩, trivial⟩ rfl
example (x : α) : let mem : Mem α := [⟨true, List.replicate 5 (.f x)⟩]
    Init mem (0, 0) 4 ∧ Room mem (0, 1) 4 :=
  ⟨.replicate (by decide), .replicate (by decide)⟩

theorem C56_any_aabb2d_transform {mem : Mem α} {aabbP mP destP : Ptr} (h_aabb : Init mem aabbP 4) (h_m : Init mem mP 9) (r_dest : Room mem destP 4) :
    Safe mem [(destP, 4)] .void (C.glm_aabb2d_transform.run mem [aabbP.val, mP.val, destP.val]) :=
  safe_entry Lib.glm_aabb2d_transform_ok [.inp aabbP 4, .inp mP 9, .out destP 4] ⟨⟨initK_isF.mpr h_aabb, by decide⟩, ⟨initK_isF.mpr h_m, by decide⟩, ⟨r_dest, by decide⟩, trivial⟩ rfl
example (x : α) : let mem : Mem α := [⟨true, List.replicate 10 (.f x)⟩]
    Init mem (0, 0) 4 ∧ Init mem (0, 1) 9 ∧ Room mem (0, 2) 4 :=
  ⟨.replicate (by decide), .replicate (by decide), .replicate (by decide)⟩

theorem C56_any_aabb2d_merge {mem : Mem α} {aabb1P aabb2P destP : Ptr} (h_aabb1 : Init mem aabb1P 4) (h_aabb2 : Init mem aabb2P 4) (r_dest : Room mem destP 4) :
    Safe mem [(destP, 4)] .void (C.glm_aabb2d_merge.run mem [aabb1P.val, aabb2P.val, destP.val]) :=
  safe_entry Lib.glm_aabb2d_merge_ok [.inp aabb1P 4, .inp aabb2P 4, .out destP 4] ⟨⟨initK_isF.mpr h_aabb1, by decide⟩, ⟨initK_isF.mpr h_aabb2, by decide⟩, ⟨r_dest, by decide⟩, trivial⟩ rfl
example (x : α) : let mem : Mem α := [⟨true, List.replicate 6 (.f x)⟩]
    Init mem (0, 0) 4 ∧ Init mem (0, 1) 4 ∧ Room mem (0, 2) 4 :=
  ⟨.replicate (by decide), .replicate (by decide), .replicate (by decide)⟩

theorem C56_any_aabb2d_crop {mem : Mem α} {aabbP cropAabbP destP : Ptr} (h_aabb : Init mem aabbP 4) (h_cropAabb : Init mem cropAabbP 4) (r_dest : Room mem destP 4) :
    Safe mem [(destP, 4)] .void (C.glm_aabb2d_crop.run mem [aabbP.val, cropAabbP.val, destP.val]) :=
  safe_entry Lib.glm_aabb2d_crop_ok [.inp aabbP 4, .inp cropAabbP 4, .out destP 4] ⟨⟨initK_isF.mpr h_aabb, by decide⟩, ⟨initK_isF.mpr h_cropAabb, by decide⟩, ⟨r_dest, by decide⟩, trivial⟩ rfl
example (x : α) : let mem : Mem α := [⟨true, List.replicate 6 (.f x)⟩]
    Init mem (0, 0) 4 ∧ Init mem (0, 1) 4 ∧ Room mem (0, 2) 4 :=
  ⟨.replicate (by decide), .replicate (by decide), .replicate (by decide)⟩

theorem C56_any_aabb2d_crop_until {mem : Mem α} {aabbP cropAabbP clampAabbP destP : Ptr} (h_aabb : Init mem aabbP 4) (h_cropAabb : Init mem cropAabbP 4) (h_clampAabb : Init mem clampAabbP 4) (r_dest : Room mem destP 4) :
    Safe mem [(destP, 4)] .void (C.glm_aabb2d_crop_until.run mem [aabbP.val, cropAabbP.val, clampAabbP.val, destP.val]) :=
  safe_entry Lib.glm_aabb2d_crop_until_ok [.inp aabbP 4, .inp cropAabbP 4, .inp clampAabbP 4, .out destP 4] ⟨⟨initK_isF.mpr h_aabb, by decide⟩, ⟨initK_isF.mpr h_cropAabb, by decide⟩, ⟨initK_isF.mpr h_clampAabb, by decide⟩, ⟨r_dest, by decide⟩, trivial⟩ rfl
example (x : α) : let mem : Mem α := [⟨true, List.replicate 7 (.f x)⟩]
    Init mem (0, 0) 4 ∧ Init mem (0, 1) 4 ∧ Init mem (0, 2) 4 ∧ Room mem (0, 3) 4 :=
  ⟨.replicate (by decide), .replicate (by decide), .replicate (by decide), .replicate (by decide)⟩

theorem C56_any_aabb2d_invalidate {mem : Mem α} {aabbP : Ptr} (r_aabb : Room mem aabbP 4) :
    Safe mem [(aabbP, 4)] .void (C.glm_aabb2d_invalidate.run mem [aabbP.val]) :=
  safe_entry Lib.glm_aabb2d_invalidate_ok [.out aabbP 4] ⟨⟨r_aabb, by decide⟩, trivial⟩ rfl
example (x : α) : let mem : Mem α := [⟨true, List.replicate 4 (.f x)⟩]
    Room mem (0, 0) 4 :=
  .replicate (by decide)

theorem C56_any_aabb2d_isvalid {mem : Mem α} {aabbP : Ptr} (h_aabb : Init mem aabbP 4) :
    Safe mem [] .bool (C.glm_aabb2d_isvalid.run mem [aabbP.val]) :=
  safe_entry Lib.glm_aabb2d_isvalid_ok [.inp aabbP 4] ⟨⟨initK_isF.mpr h_aabb, by decide⟩, trivial⟩ rfl
example (x : α) : let mem : Mem α := [⟨true, List.replicate 4 (.f x)⟩]
    Init mem (0, 0) 4 :=
  .replicate (by decide)

theorem C56_any_aabb2d_diag {mem : Mem α} {aabbP : Ptr} (h_aabb : Init mem aabbP 4) :
    Safe mem [] .float (C.glm_aabb2d_diag.run mem [aabbP.val]) :=
  safe_entry Lib.glm_aabb2d_diag_ok [.inp aabbP 4] ⟨⟨initK_isF.mpr h_aabb, by decide⟩, trivial⟩ rfl
example (x : α) : let mem : Mem α := [⟨true, List.replicate 4 (.f x)⟩]
    Init mem (0, 0) 4 :=
  .replicate (by decide)

theorem C56_any_aabb2d_sizev {mem : Mem α} {aabbP destP : Ptr} (h_aabb : Init mem aabbP 4) (r_dest : Room mem destP 2) :
    Safe mem [(destP, 2)] .void (C.glm_aabb2d_sizev.run mem [aabbP.val, destP.val]) :=
  safe_entry Lib.glm_aabb2d_sizev_ok [.inp aabbP 4, .out destP 2] ⟨⟨initK_isF.mpr h_aabb, by decide⟩, ⟨r_dest, by decide⟩, trivial⟩ rfl
example (x : α) : let mem : Mem α := [⟨true, List.replicate 4 (.f x)⟩]
    Init mem (0, 0) 4 ∧ Room mem (0, 1) 2 :=
  ⟨.replicate (by decide), .replicate (by decide)⟩

theorem C56_any_aabb2d_radius {mem : Mem α} {aabbP : Ptr} (h_aabb : Init mem aabbP 4) :
    Safe mem [] .float (C.glm_aabb2d_radius.run mem [aabbP.val]) :=
  safe_entry Lib.glm_aabb2d_radius_ok [.inp aabbP 4] ⟨⟨initK_isF.mpr h_aabb, by decide⟩, trivial⟩ rfl
example (x : α) : let mem : Mem α := [⟨true, List.replicate 4 (.f x)⟩]
    Init mem (0, 0) 4 :=
  .replicate (by decide)

theorem C56_any_aabb2d_center {mem : Mem α} {aabbP destP : Ptr} (h_aabb : Init mem aabbP 4) (r_dest : Room mem destP 2) :
    Safe mem [(destP, 2)] .void (C.glm_aabb2d_center.run mem [aabbP.val, destP.val]) :=
  safe_entry Lib.glm_aabb2d_center_ok [.inp aabbP 4, .out destP 2] ⟨⟨initK_isF.mpr h_aabb, by decide⟩, ⟨r_dest, by decide⟩, trivial⟩ rfl
example (x : α) : let mem : Mem α := [⟨true, List.replicate 4 (.f x)⟩]
    Init mem (0, 0) 4 ∧ Room mem (0, 1) 2 :=
  ⟨.replicate (by decide), .replicate (by decide)⟩

theorem C56_any_aabb2d_aabb {mem : Mem α} {aabbP otherP : Ptr} (h_aabb : Init mem aabbP 4) (h_other : Init mem otherP 4) :
    Safe mem [] .bool (C.glm_aabb2d_aabb.run mem [aabbP.val, otherP.val]) :=
  safe_entry Lib.glm_aabb2d_aabb_ok [.inp aabbP 4, .inp otherP 4] ⟨⟨initK_isF.mpr h_aabb, by decide⟩, ⟨initK_isF.mpr h_other, by decide⟩, trivial⟩ rfl
example (x : α) : let mem : Mem α := [⟨true, List.replicate 5 (.f x)⟩]
    Init mem (0, 0) 4 ∧ Init mem (0, 1) 4 :=
  ⟨.replicate (by decide), .replicate (by decide)⟩

theorem C56_any_aabb2d_circle {mem : Mem α} {aabbP cP : Ptr} (h_aabb : Init mem aabbP 4) (h_c : Init mem cP 3) :
    Safe mem [] .bool (C.glm_aabb2d_circle.run mem [aabbP.val, cP.val]) :=
  safe_entry Lib.glm_aabb2d_circle_ok [.inp aabbP 4, .inp cP 3] ⟨⟨initK_isF.mpr h_aabb, by decide⟩, ⟨initK_isF.mpr h_c, by decide⟩, trivial⟩ rfl
example (x : α) : let mem : Mem α := [⟨true, List.replicate 4 (.f x)⟩]
    Init mem (0, 0) 4 ∧ Init mem (0, 1) 3 :=
  ⟨.replicate (by decide), .replicate (by decide)⟩

theorem C56_any_aabb2d_point {mem : Mem α} {aabbP pointP : Ptr} (h_aabb : Init mem aabbP 4) (h_point : Init mem pointP 2) :
    Safe mem [] .bool (C.glm_aabb2d_point.run mem [aabbP.val, pointP.val]) :=
  safe_entry Lib.glm_aabb2d_point_ok [.inp aabbP 4, .inp pointP 2] ⟨⟨initK_isF.mpr h_aabb, by decide⟩, ⟨initK_isF.mpr h_point, by decide⟩, trivial⟩ rfl
example (x : α) : let mem : Mem α := [⟨true, List.replicate 4 (.f x)⟩]
    Init mem (0, 0) 4 ∧ Init mem (0, 1) 2 :=
  ⟨.replicate (by decide), .replicate (by decide)⟩

theorem C56_any_aabb2d_contains {mem : Mem α} {aabbP otherP : Ptr} (h_aabb : Init mem aabbP 4) (h_other : Init mem otherP 4) :
    Safe mem [] .bool (C.glm_aabb2d_contains.run mem [aabbP.val, otherP.val]) :=
  safe_entry Lib.glm_aabb2d_contains_ok [.inp aabbP 4, .inp otherP 4] ⟨⟨initK_isF.mpr h_aabb, by decide⟩, ⟨initK_isF.mpr h_other, by decide⟩, trivial⟩ rfl
example (x : α) : let mem : Mem α := [⟨true, List.replicate 5 (.f x)⟩]
    Init mem (0, 0) 4 ∧ Init mem (0, 1) 4 :=
  ⟨.replicate (by decide), .replicate (by decide)⟩

/-! ## include/cglm/box.h -/

theorem C56_any_aabb_transform {mem : Mem α} {boxP mP destP : Ptr} (h_box : Init mem boxP 6) (h_m : Init mem mP 16) (r_dest : Room mem destP 6) :
    Safe mem [(destP, 6)] .void (C.glm_aabb_transform.run mem [boxP.val, mP.val, destP.val]) :=
  safe_entry Lib.glm_aabb_transform_ok [.inp boxP 6, .inp mP 16, .out destP 6] ⟨⟨initK_isF.mpr h_box, by decide⟩, ⟨initK_isF.mpr h_m, by decide⟩, ⟨r_dest, by decide⟩, trivial⟩ rfl
example (x : α) : let mem : Mem α := [⟨true, List.replicate 17 (.f x)⟩]
    Init mem (0, 0) 6 ∧ Init mem (0, 1) 16 ∧ Room mem (0, 2) 6 :=
  ⟨.replicate (by decide), .replicate (by decide), .replicate (by decide)⟩

theorem C56_any_aabb_merge {mem : Mem α} {box1P box2P destP : Ptr} (h_box1 : Init mem box1P 6) (h_box2 : Init mem box2P 6) (r_dest : Room mem destP 6) :
    Safe mem [(destP, 6)] .void (C.glm_aabb_merge.run mem [box1P.val, box2P.val, destP.val]) :=
  safe_entry Lib.glm_aabb_merge_ok [.inp box1P 6, .inp box2P 6, .out destP 6] ⟨⟨initK_isF.mpr h_box1, by decide⟩, ⟨initK_isF.mpr h_box2, by decide⟩, ⟨r_dest, by decide⟩, trivial⟩ rfl
example (x : α) : let mem : Mem α := [⟨true, List.replicate 8 (.f x)⟩]
    Init mem (0, 0) 6 ∧ Init mem (0, 1) 6 ∧ Room mem (0, 2) 6 :=
  ⟨.replicate (by decide), .replicate (by decide), .replicate (by decide)⟩

theorem C56_any_aabb_crop {mem : Mem α} {boxP cropBoxP destP : Ptr} (h_box : Init mem boxP 6) (h_cropBox : Init mem cropBoxP 6) (r_dest : Room mem destP 6) :
    Safe mem [(destP, 6)] .void (C.glm_aabb_crop.run mem [boxP.val, cropBoxP.val, destP.val]) :=
  safe_entry Lib.glm_aabb_crop_ok [.inp boxP 6, .inp cropBoxP 6, .out destP 6] ⟨⟨initK_isF.mpr h_box, by decide⟩, ⟨initK_isF.mpr h_cropBox, by decide⟩, ⟨r_dest, by decide⟩, trivial⟩ rfl
example (x : α) : let mem : Mem α := [⟨true, List.replicate 8 (.f x)⟩]
    Init mem (0, 0) 6 ∧ Init mem (0, 1) 6 ∧ Room mem (0, 2) 6 :=
  ⟨.replicate (by decide), .replicate (by decide), .replicate (by decide)⟩

theorem C56_any_aabb_crop_until {mem : Mem α} {boxP cropBoxP clampBoxP destP : Ptr} (h_box : Init mem boxP 6) (h_cropBox : Init mem cropBoxP 6) (h_clampBox : Init mem clampBoxP 6) (r_dest : Room mem destP 6) :
    Safe mem [(destP, 6)] .void (C.glm_aabb_crop_until.run mem [boxP.val, cropBoxP.val, clampBoxP.val, destP.val]) :=
  safe_entry Lib.glm_aabb_crop_until_ok [.inp boxP 6, .inp cropBoxP 6, .inp clampBoxP 6, .out destP 6] ⟨⟨initK_isF.mpr h_box, by decide⟩, ⟨initK_isF.mpr h_cropBox, by decide⟩, ⟨initK_isF.mpr h_clampBox, by decide⟩, ⟨r_dest, by decide⟩, trivial⟩ rfl
example (x : α) : let mem : Mem α := [⟨true, List.replicate 9 (.f x)⟩]
    Init mem (0, 0) 6 ∧ Init mem (0, 1) 6 ∧ Init mem (0, 2) 6 ∧ Room mem (0, 3) 6 :=
  ⟨.replicate (by decide), .replicate (by decide), .replicate (by decide), .replicate (by decide)⟩

theorem C56_any_aabb_frustum {mem : Mem α} {boxP planesP : Ptr} (h_box : Init mem boxP 6) (h_planes : Init mem planesP 24) :
    Safe mem [] .bool (C.glm_aabb_frustum.run mem [boxP.val, planesP.val]) :=
  safe_entry Lib.glm_aabb_frustum_ok [.inp boxP 6, .inp planesP 24] ⟨⟨initK_isF.mpr h_box, by decide⟩, ⟨initK_isF.mpr h_planes, by decide⟩, trivial⟩ rfl
example (x : α) : let mem : Mem α := [⟨true, List.replicate 25 (.f x)⟩]
    Init mem (0, 0) 6 ∧ Init mem (0, 1) 24 :=
  ⟨.replicate (by decide), .replicate (by decide)⟩

theorem C56_any_aabb_invalidate {mem : Mem α} {boxP : Ptr} (r_box : Room mem boxP 6) :
    Safe mem [(boxP, 6)] .void (C.glm_aabb_invalidate.run mem [boxP.val]) :=
  safe_entry Lib.glm_aabb_invalidate_ok [.out boxP 6] ⟨⟨r_box, by decide⟩, trivial⟩ rfl
example (x : α) : let mem : Mem α := [⟨true, List.replicate 6 (.f x)⟩]
    Room mem (0, 0) 6 :=
  .replicate (by decide)

theorem C56_any_aabb_isvalid {mem : Mem α} {boxP : Ptr} (h_box : Init mem boxP 6) :
    Safe mem [] .bool (C.glm_aabb_isvalid.run mem [boxP.val]) :=
  safe_entry Lib.glm_aabb_isvalid_ok [.inp boxP 6] ⟨⟨initK_isF.mpr h_box, by decide⟩, trivial⟩ rfl
example (x : α) : let mem : Mem α := [⟨true, List.replicate 6 (.f x)⟩]
    Init mem (0, 0) 6 :=
  .replicate (by decide)

theorem C56_any_aabb_size {mem : Mem α} {boxP : Ptr} (h_box : Init mem boxP 6) :
    Safe mem [] .float (C.glm_aabb_size.run mem [boxP.val]) :=
  safe_entry Lib.glm_aabb_size_ok [.inp boxP 6] ⟨⟨initK_isF.mpr h_box, by decide⟩, trivial⟩ rfl
example (x : α) : let mem : Mem α := [⟨true, List.replicate 6 (.f x)⟩]
    Init mem (0, 0) 6 :=
  .replicate (by decide)

theorem C56_any_aabb_radius {mem : Mem α} {boxP : Ptr} (h_box : Init mem boxP 6) :
    Safe mem [] .float (C.glm_aabb_radius.run mem [boxP.val]) :=
  safe_entry Lib.glm_aabb_radius_ok [.inp boxP 6] ⟨⟨initK_isF.mpr h_box, by decide⟩, trivial⟩ rfl
example (x : α) : let mem : Mem α := [⟨true, List.replicate 6 (.f x)⟩]
    Init mem (0, 0) 6 :=
  .replicate (by decide)

theorem C56_any_aabb_center {mem : Mem α} {boxP destP : Ptr} (h_box : Init mem boxP 6) (r_dest : Room mem destP 3) :
    Safe mem [(destP, 3)] .void (C.glm_aabb_center.run mem [boxP.val, destP.val]) :=
  safe_entry Lib.glm_aabb_center_ok [.inp boxP 6, .out destP 3] ⟨⟨initK_isF.mpr h_box, by decide⟩, ⟨r_dest, by decide⟩, trivial⟩ rfl
example (x : α) : let mem : Mem α := [⟨true, List.replicate 6 (.f x)⟩]
    Init mem (0, 0) 6 ∧ Room mem (0, 1) 3 :=
  ⟨.replicate (by decide), .replicate (by decide)⟩

theorem C56_any_aabb_aabb {mem : Mem α} {boxP otherP : Ptr} (h_box : Init mem boxP 6) (h_other : Init mem otherP 6) :
    Safe mem [] .bool (C.glm_aabb_aabb.run mem [boxP.val, otherP.val]) :=
  safe_entry Lib.glm_aabb_aabb_ok [.inp boxP 6, .inp otherP 6] ⟨⟨initK_isF.mpr h_box, by decide⟩, ⟨initK_isF.mpr h_other, by decide⟩, trivial⟩ rfl
example (x : α) : let mem : Mem α := [⟨true, List.replicate 7 (.f x)⟩]
    Init mem (0, 0) 6 ∧ Init mem (0, 1) 6 :=
  ⟨.replicate (by decide), .replicate (by decide)⟩

theorem C56_any_aabb_sphere {mem : Mem α} {boxP sP : Ptr} (h_box : Init mem boxP 6) (h_s : Init mem sP 4) :
    Safe mem [] .bool (C.glm_aabb_sphere.run mem [boxP.val, sP.val]) :=
  safe_entry Lib.glm_aabb_sphere_ok [.inp boxP 6, .inp sP 4] ⟨⟨initK_isF.mpr h_box, by decide⟩, ⟨initK_isF.mpr h_s, by decide⟩, trivial⟩ rfl
example (x : α) : let mem : Mem α := [⟨true, List.replicate 6 (.f x)⟩]
    Init mem (0, 0) 6 ∧ Init mem (0, 1) 4 :=
  ⟨.replicate (by decide), .replicate (by decide)⟩

theorem C56_any_aabb_point {mem : Mem α} {boxP pointP : Ptr} (h_box : Init mem boxP 6) (h_point : Init mem pointP 3) :
    Safe mem [] .bool (C.glm_aabb_point.run mem [boxP.val, pointP.val]) :=
  safe_entry Lib.glm_aabb_point_ok [.inp boxP 6, .inp pointP 3] ⟨⟨initK_isF.mpr h_box, by decide⟩, ⟨initK_isF.mpr h_point, by decide⟩, trivial⟩ rfl
example (x : α) : let mem : Mem α := [⟨true, List.replicate 6 (.f x)⟩]
    Init mem (0, 0) 6 ∧ Init mem (0, 1) 3 :=
  ⟨.replicate (by decide), .replicate (by decide)⟩

theorem C56_any_aabb_contains {mem : Mem α} {boxP otherP : Ptr} (h_box : Init mem boxP 6) (h_other : Init mem otherP 6) :
    Safe mem [] .bool (C.glm_aabb_contains.run mem [boxP.val, otherP.val]) :=
  safe_entry Lib.glm_aabb_contains_ok [.inp boxP 6, .inp otherP 6] ⟨⟨initK_isF.mpr h_box, by decide⟩, ⟨initK_isF.mpr h_other, by decide⟩, trivial⟩ rfl
example (x : α) : let mem : Mem α := [⟨true, List.replicate 7 (.f x)⟩]
    Init mem (0, 0) 6 ∧ Init mem (0, 1) 6 :=
  ⟨.replicate (by decide), .replicate (by decide)⟩

/-! ## include/cglm/color.h -/

theorem C56_any_luminance {mem : Mem α} {rgbP : Ptr} (h_rgb : Init mem rgbP 3) :
    Safe mem [] .float (C.glm_luminance.run mem [rgbP.val]) :=
  safe_entry Lib.glm_luminance_ok [.inp rgbP 3] ⟨⟨initK_isF.mpr h_rgb, by decide⟩, trivial⟩ rfl
example (x : α) : let mem : Mem α := [⟨true, List.replicate 3 (.f x)⟩]
    Init mem (0, 0) 3 :=
  .replicate (by decide)

/-! ## include/cglm/project.h -/

theorem C56_any_unprojecti {mem : Mem α} {posP invMatP vpP destP : Ptr} (h_pos : Init mem posP 3) (h_invMat : Init mem invMatP 16) (h_vp : Init mem vpP 4) (r_dest : Room mem destP 3) :
    Safe mem [(destP, 3)] .void (C.glm_unprojecti.run mem [posP.val, invMatP.val, vpP.val, destP.val]) :=
  safe_entry Lib.glm_unprojecti_ok [.inp posP 3, .inp invMatP 16, .inp vpP 4, .out destP 3] ⟨⟨initK_isF.mpr h_pos, by decide⟩, ⟨initK_isF.mpr h_invMat, by decide⟩, ⟨initK_isF.mpr h_vp, by decide⟩, ⟨r_dest, by decide⟩, trivial⟩ rfl
example (x : α) : let mem : Mem α := [⟨true, List.replicate 17 (.f x)⟩]
    Init mem (0, 0) 3 ∧ Init mem (0, 1) 16 ∧ Init mem (0, 2) 4 ∧ Room mem (0, 3) 3 :=
  ⟨.replicate (by decide), .replicate (by decide), .replicate (by decide), .replicate (by decide)⟩

theorem C56_any_unproject {mem : Mem α} {posP mP vpP destP : Ptr} (h_pos : Init mem posP 3) (h_m : Init mem mP 16) (h_vp : Init mem vpP 4) (r_dest : Room mem destP 3) :
    Safe mem [(destP, 3)] .void (C.glm_unproject.run mem [posP.val, mP.val, vpP.val, destP.val]) :=
  safe_entry Lib.glm_unproject_ok [.inp posP 3, .inp mP 16, .inp vpP 4, .out destP 3] ⟨⟨initK_isF.mpr h_pos, by decide⟩, ⟨initK_isF.mpr h_m, by decide⟩, ⟨initK_isF.mpr h_vp, by decide⟩, ⟨r_dest, by decide⟩, trivial⟩ rfl
example (x : α) : let mem : Mem α := [⟨true, List.replicate 17 (.f x)⟩]
    Init mem (0, 0) 3 ∧ Init mem (0, 1) 16 ∧ Init mem (0, 2) 4 ∧ Room mem (0, 3) 3 :=
  ⟨.replicate (by decide), .replicate (by decide), .replicate (by decide), .replicate (by decide)⟩

theorem C56_any_project {mem : Mem α} {posP mP vpP destP : Ptr} (h_pos : Init mem posP 3) (h_m : Init mem mP 16) (h_vp : Init mem vpP 4) (r_dest : Room mem destP 3) :
    Safe mem [(destP, 3)] .void (C.glm_project.run mem [posP.val, mP.val, vpP.val, destP.val]) :=
  safe_entry Lib.glm_project_ok [.inp posP 3, .inp mP 16, .inp vpP 4, .out destP 3] ⟨⟨initK_isF.mpr h_pos, by decide⟩, ⟨initK_isF.mpr h_m, by decide⟩, ⟨initK_isF.mpr h_vp, by decide⟩, ⟨r_dest, by decide⟩, trivial⟩ rfl
example (x : α) : let mem : Mem α := [⟨true, List.replicate 17 (.f x)⟩]
    Init mem (0, 0) 3 ∧ Init mem (0, 1) 16 ∧ Init mem (0, 2) 4 ∧ Room mem (0, 3) 3 :=
  ⟨.replicate (by decide), .replicate (by decide), .replicate (by decide), .replicate (by decide)⟩

theorem C56_any_project_z {mem : Mem α} {vP mP : Ptr} (h_v : Init mem vP 3) (h_m : Init mem mP 16) :
    Safe mem [] .float (C.glm_project_z.run mem [vP.val, mP.val]) :=
  safe_entry Lib.glm_project_z_ok [.inp vP 3, .inp mP 16] ⟨⟨initK_isF.mpr h_v, by decide⟩, ⟨initK_isF.mpr h_m, by decide⟩, trivial⟩ rfl
example (x : α) : let mem : Mem α := [⟨true, List.replicate 17 (.f x)⟩]
    Init mem (0, 0) 3 ∧ Init mem (0, 1) 16 :=
  ⟨.replicate (by decide), .replicate (by decide)⟩

theorem C56_any_pickmatrix {mem : Mem α} {centerP sizeP vpP destP : Ptr} (h_center : Init mem centerP 2) (h_size : Init mem sizeP 2) (h_vp : Init mem vpP 4) (h_dest : Init mem destP 16) (r_dest : Room mem destP 16) :
    Safe mem [(destP, 16)] .void (C.glm_pickmatrix.run mem [centerP.val, sizeP.val, vpP.val, destP.val]) :=
  safe_entry Lib.glm_pickmatrix_ok [.inp centerP 2, .inp sizeP 2, .inp vpP 4, .io destP 16] ⟨⟨initK_isF.mpr h_center, by decide⟩, ⟨initK_isF.mpr h_size, by decide⟩, ⟨initK_isF.mpr h_vp, by decide⟩, ⟨initK_isF.mpr h_dest, r_dest, by decide⟩, trivial⟩ rfl
example (x : α) : let mem : Mem α := [⟨true, List.replicate 19 (.f x)⟩]
    Init mem (0, 0) 2 ∧ Init mem (0, 1) 2 ∧ Init mem (0, 2) 4 ∧ Init mem (0, 3) 16 ∧ Room mem (0, 3) 16 :=
  ⟨.replicate (by decide), .replicate (by decide), .replicate (by decide), .replicate (by decide), .replicate (by decide)⟩

/-! ## include/cglm/sphere.h -/

theorem C56_any_sphere_radii {mem : Mem α} {sP : Ptr} (h_s : Init mem sP 4) :
    Safe mem [] .float (C.glm_sphere_radii.run mem [sP.val]) :=
  safe_entry Lib.glm_sphere_radii_ok [.inp sP 4] ⟨⟨initK_isF.mpr h_s, by decide⟩, trivial⟩ rfl
example (x : α) : let mem : Mem α := [⟨true, List.replicate 4 (.f x)⟩]
    Init mem (0, 0) 4 :=
  .replicate (by decide)

theorem C56_any_sphere_transform {mem : Mem α} {sP mP destP : Ptr} (h_s : Init mem sP 4) (h_m : Init mem mP 16) (r_dest : Room mem destP 4) :
    Safe mem [(destP, 4)] .void (C.glm_sphere_transform.run mem [sP.val, mP.val, destP.val]) :=
  safe_entry Lib.glm_sphere_transform_ok [.inp sP 4, .inp mP 16, .out destP 4] ⟨⟨initK_isF.mpr h_s, by decide⟩, ⟨initK_isF.mpr h_m, by decide⟩, ⟨r_dest, by decide⟩, trivial⟩ rfl
example (x : α) : let mem : Mem α := [⟨true, List.replicate 17 (.f x)⟩]
    Init mem (0, 0) 4 ∧ Init mem (0, 1) 16 ∧ Room mem (0, 2) 4 :=
  ⟨.replicate (by decide), .replicate (by decide), .replicate (by decide)⟩

theorem C56_any_sphere_merge {mem : Mem α} {s1P s2P destP : Ptr} (h_s1 : Init mem s1P 4) (h_s2 : Init mem s2P 4) (r_dest : Room mem destP 4) :
    Safe mem [(destP, 4)] .void (C.glm_sphere_merge.run mem [s1P.val, s2P.val, destP.val]) :=
  safe_entry Lib.glm_sphere_merge_ok [.inp s1P 4, .inp s2P 4, .out destP 4] ⟨⟨initK_isF.mpr h_s1, by decide⟩, ⟨initK_isF.mpr h_s2, by decide⟩, ⟨r_dest, by decide⟩, trivial⟩ rfl
example (x : α) : let mem : Mem α := [⟨true, List.replicate 6 (.f x)⟩]
    Init mem (0, 0) 4 ∧ Init mem (0, 1) 4 ∧ Room mem (0, 2) 4 :=
  ⟨.replicate (by decide), .replicate (by decide), .replicate (by decide)⟩

theorem C56_any_sphere_sphere {mem : Mem α} {s1P s2P : Ptr} (h_s1 : Init mem s1P 4) (h_s2 : Init mem s2P 4) :
    Safe mem [] .bool (C.glm_sphere_sphere.run mem [s1P.val, s2P.val]) :=
  safe_entry Lib.glm_sphere_sphere_ok [.inp s1P 4, .inp s2P 4] ⟨⟨initK_isF.mpr h_s1, by decide⟩, ⟨initK_isF.mpr h_s2, by decide⟩, trivial⟩ rfl
example (x : α) : let mem : Mem α := [⟨true, List.replicate 5 (.f x)⟩]
    Init mem (0, 0) 4 ∧ Init mem (0, 1) 4 :=
  ⟨.replicate (by decide), .replicate (by decide)⟩

theorem C56_any_sphere_point {mem : Mem α} {sP pointP : Ptr} (h_s : Init mem sP 4) (h_point : Init mem pointP 3) :
    Safe mem [] .bool (C.glm_sphere_point.run mem [sP.val, pointP.val]) :=
  safe_entry Lib.glm_sphere_point_ok [.inp sP 4, .inp pointP 3] ⟨⟨initK_isF.mpr h_s, by decide⟩, ⟨initK_isF.mpr h_point, by decide⟩, trivial⟩ rfl
example (x : α) : let mem : Mem α := [⟨true, List.replicate 4 (.f x)⟩]
    Init mem (0, 0) 4 ∧ Init mem (0, 1) 3 :=
  ⟨.replicate (by decide), .replicate (by decide)⟩

/-! ## include/cglm/ease.h -/

theorem C56_any_ease_linear (mem : Mem α) (t : α) :
    Safe mem [] .float (C.glm_ease_linear.run mem [.f t]) :=
  safe_entry Lib.glm_ease_linear_ok [.f t] ⟨trivial, trivial⟩ rfl

theorem C56_any_ease_sine_in (mem : Mem α) (t : α) :
    Safe mem [] .float (C.glm_ease_sine_in.run mem [.f t]) :=
  safe_entry Lib.glm_ease_sine_in_ok [.f t] ⟨trivial, trivial⟩ rfl

theorem C56_any_ease_sine_out (mem : Mem α) (t : α) :
    Safe mem [] .float (C.glm_ease_sine_out.run mem [.f t]) :=
  safe_entry Lib.glm_ease_sine_out_ok [.f t] ⟨trivial, trivial⟩ rfl

theorem C56_any_ease_sine_inout (mem : Mem α) (t : α) :
    Safe mem [] .float (C.glm_ease_sine_inout.run mem [.f t]) :=
  safe_entry Lib.glm_ease_sine_inout_ok [.f t] ⟨trivial, trivial⟩ rfl

theorem C56_any_ease_quad_in (mem : Mem α) (t : α) :
    Safe mem [] .float (C.glm_ease_quad_in.run mem [.f t]) :=
  safe_entry Lib.glm_ease_quad_in_ok [.f t] ⟨trivial, trivial⟩ rfl

theorem C56_any_ease_quad_out (mem : Mem α) (t : α) :
    Safe mem [] .float (C.glm_ease_quad_out.run mem [.f t]) :=
  safe_entry Lib.glm_ease_quad_out_ok [.f t] ⟨trivial, trivial⟩ rfl

theorem C56_any_ease_quad_inout (mem : Mem α) (t : α) :
    Safe mem [] .float (C.glm_ease_quad_inout.run mem [.f t]) :=
  safe_entry Lib.glm_ease_quad_inout_ok [.f t] ⟨trivial, trivial⟩ rfl

theorem C56_any_ease_cubic_in (mem : Mem α) (t : α) :
    Safe mem [] .float (C.glm_ease_cubic_in.run mem [.f t]) :=
  safe_entry Lib.glm_ease_cubic_in_ok [.f t] ⟨trivial, trivial⟩ rfl

theorem C56_any_ease_cubic_out (mem : Mem α) (t : α) :
    Safe mem [] .float (C.glm_ease_cubic_out.run mem [.f t]) :=
  safe_entry Lib.glm_ease_cubic_out_ok [.f t] ⟨trivial, trivial⟩ rfl

theorem C56_any_ease_cubic_inout (mem : Mem α) (t : α) :
    Safe mem [] .float (C.glm_ease_cubic_inout.run mem [.f t]) :=
  safe_entry Lib.glm_ease_cubic_inout_ok [.f t] ⟨trivial, trivial⟩ rfl

theorem C56_any_ease_quart_in (mem : Mem α) (t : α) :
    Safe mem [] .float (C.glm_ease_quart_in.run mem [.f t]) :=
  safe_entry Lib.glm_ease_quart_in_ok [.f t] ⟨trivial, trivial⟩ rfl

theorem C56_any_ease_quart_out (mem : Mem α) (t : α) :
    Safe mem [] .float (C.glm_ease_quart_out.run mem [.f t]) :=
  safe_entry Lib.glm_ease_quart_out_ok [.f t] ⟨trivial, trivial⟩ rfl

theorem C56_any_ease_quart_inout (mem : Mem α) (t : α) :
    Safe mem [] .float (C.glm_ease_quart_inout.run mem [.f t]) :=
  safe_entry Lib.glm_ease_quart_inout_ok [.f t] ⟨trivial, trivial⟩ rfl

theorem C56_any_ease_quint_in (mem : Mem α) (t : α) :
    Safe mem [] .float (C.glm_ease_quint_in.run mem [.f t]) :=
  safe_entry Lib.glm_ease_quint_in_ok [.f t] ⟨trivial, trivial⟩ rfl

theorem C56_any_ease_quint_out (mem : Mem α) (t : α) :
    Safe mem [] .float (C.glm_ease_quint_out.run mem [.f t]) :=
  safe_entry Lib.glm_ease_quint_out_ok [.f t] ⟨trivial, trivial⟩ rfl

theorem C56_any_ease_quint_inout (mem : Mem α) (t : α) :
    Safe mem [] .float (C.glm_ease_quint_inout.run mem [.f t]) :=
  safe_entry Lib.glm_ease_quint_inout_ok [.f t] ⟨trivial, trivial⟩ rfl

theorem C56_any_ease_exp_in (mem : Mem α) (t : α) :
    Safe mem [] .float (C.glm_ease_exp_in.run mem [.f t]) :=
  safe_entry Lib.glm_ease_exp_in_ok [.f t] ⟨trivial, trivial⟩ rfl

theorem C56_any_ease_exp_out (mem : Mem α) (t : α) :
    Safe mem [] .float (C.glm_ease_exp_out.run mem [.f t]) :=
  safe_entry Lib.glm_ease_exp_out_ok [.f t] ⟨trivial, trivial⟩ rfl

theorem C56_any_ease_exp_inout (mem : Mem α) (t : α) :
    Safe mem [] .float (C.glm_ease_exp_inout.run mem [.f t]) :=
  safe_entry Lib.glm_ease_exp_inout_ok [.f t] ⟨trivial, trivial⟩ rfl

theorem C56_any_ease_circ_in (mem : Mem α) (t : α) :
    Safe mem [] .float (C.glm_ease_circ_in.run mem [.f t]) :=
  safe_entry Lib.glm_ease_circ_in_ok [.f t] ⟨trivial, trivial⟩ rfl

theorem C56_any_ease_circ_out (mem : Mem α) (t : α) :
    Safe mem [] .float (C.glm_ease_circ_out.run mem [.f t]) :=
  safe_entry Lib.glm_ease_circ_out_ok [.f t] ⟨trivial, trivial⟩ rfl

theorem C56_any_ease_circ_inout (mem : Mem α) (t : α) :
    Safe mem [] .float (C.glm_ease_circ_inout.run mem [.f t]) :=
  safe_entry Lib.glm_ease_circ_inout_ok [.f t] ⟨trivial, trivial⟩ rfl

theorem C56_any_ease_back_in (mem : Mem α) (t : α) :
    Safe mem [] .float (C.glm_ease_back_in.run mem [.f t]) :=
  safe_entry Lib.glm_ease_back_in_ok [.f t] ⟨trivial, trivial⟩ rfl

theorem C56_any_ease_back_out (mem : Mem α) (t : α) :
    Safe mem [] .float (C.glm_ease_back_out.run mem [.f t]) :=
  safe_entry Lib.glm_ease_back_out_ok [.f t] ⟨trivial, trivial⟩ rfl

theorem C56_any_ease_back_inout (mem : Mem α) (t : α) :
    Safe mem [] .float (C.glm_ease_back_inout.run mem [.f t]) :=
  safe_entry Lib.glm_ease_back_inout_ok [.f t] ⟨trivial, trivial⟩ rfl

theorem C56_any_ease_elast_in (mem : Mem α) (t : α) :
    Safe mem [] .float (C.glm_ease_elast_in.run mem [.f t]) :=
  safe_entry Lib.glm_ease_elast_in_ok [.f t] ⟨trivial, trivial⟩ rfl

theorem C56_any_ease_elast_out (mem : Mem α) (t : α) :
    Safe mem [] .float (C.glm_ease_elast_out.run mem [.f t]) :=
  safe_entry Lib.glm_ease_elast_out_ok [.f t] ⟨trivial, trivial⟩ rfl

theorem C56_any_ease_elast_inout (mem : Mem α) (t : α) :
    Safe mem [] .float (C.glm_ease_elast_inout.run mem [.f t]) :=
  safe_entry Lib.glm_ease_elast_inout_ok [.f t] ⟨trivial, trivial⟩ rfl

theorem C56_any_ease_bounce_out (mem : Mem α) (t : α) :
    Safe mem [] .float (C.glm_ease_bounce_out.run mem [.f t]) :=
  safe_entry Lib.glm_ease_bounce_out_ok [.f t] ⟨trivial, trivial⟩ rfl

theorem C56_any_ease_bounce_in (mem : Mem α) (t : α) :
    Safe mem [] .float (C.glm_ease_bounce_in.run mem [.f t]) :=
  safe_entry Lib.glm_ease_bounce_in_ok [.f t] ⟨trivial, trivial⟩ rfl

theorem C56_any_ease_bounce_inout (mem : Mem α) (t : α) :
    Safe mem [] .float (C.glm_ease_bounce_inout.run mem [.f t]) :=
  safe_entry Lib.glm_ease_bounce_inout_ok [.f t] ⟨trivial, trivial⟩ rfl

/-! ## include/cglm/curve.h -/

theorem C56_any_smc {mem : Mem α} {mP cP : Ptr} (s : α) (h_m : Init mem mP 16) (h_c : Init mem cP 4) :
    Safe mem [] .float (C.glm_smc.run mem [.f s, mP.val, cP.val]) :=
  safe_entry Lib.glm_smc_ok [.f s, .inp mP 16, .inp cP 4] ⟨trivial, ⟨initK_isF.mpr h_m, by decide⟩, ⟨initK_isF.mpr h_c, by decide⟩, trivial⟩ rfl
example (x : α) : let mem : Mem α := [⟨true, List.replicate 16 (.f x)⟩]
    Init mem (0, 0) 16 ∧ Init mem (0, 1) 4 :=
  ⟨.replicate (by decide), .replicate (by decide)⟩

/-! ## include/cglm/bezier.h -/

theorem C56_any_bezier (mem : Mem α) (s : α) (p0 : α) (c0 : α) (c1 : α) (p1 : α) :
    Safe mem [] .float (C.glm_bezier.run mem [.f s, .f p0, .f c0, .f c1, .f p1]) :=
  safe_entry Lib.glm_bezier_ok [.f s, .f p0, .f c0, .f c1, .f p1] ⟨trivial, trivial, trivial, trivial, trivial, trivial⟩ rfl

theorem C56_any_hermite (mem : Mem α) (s : α) (p0 : α) (t0 : α) (t1 : α) (p1 : α) :
    Safe mem [] .float (C.glm_hermite.run mem [.f s, .f p0, .f t0, .f t1, .f p1]) :=
  safe_entry Lib.glm_hermite_ok [.f s, .f p0, .f t0, .f t1, .f p1] ⟨trivial, trivial, trivial, trivial, trivial, trivial⟩ rfl

/-! ## include/cglm/ray.h -/

theorem C56_any_ray_triangle {mem : Mem α} {originP directionP v0P v1P v2P dP : Ptr} (h_origin : Init mem originP 3) (h_direction : Init mem directionP 3) (h_v0 : Init mem v0P 3) (h_v1 : Init mem v1P 3) (h_v2 : Init mem v2P 3) (h_d : Init mem dP 1) (r_d : Room mem dP 1) :
    Safe mem [(dP, 1)] .bool (C.glm_ray_triangle.run mem [originP.val, directionP.val, v0P.val, v1P.val, v2P.val, dP.val]) :=
  safe_entry Lib.glm_ray_triangle_ok [.inp originP 3, .inp directionP 3, .inp v0P 3, .inp v1P 3, .inp v2P 3, .io dP 1] ⟨⟨initK_isF.mpr h_origin, by decide⟩, ⟨initK_isF.mpr h_direction, by decide⟩, ⟨initK_isF.mpr h_v0, by decide⟩, ⟨initK_isF.mpr h_v1, by decide⟩, ⟨initK_isF.mpr h_v2, by decide⟩, ⟨initK_isF.mpr h_d, r_d, by decide⟩, trivial⟩ rfl
example (x : α) : let mem : Mem α := [⟨true, List.replicate 7 (.f x)⟩]
    Init mem (0, 0) 3 ∧ Init mem (0, 1) 3 ∧ Init mem (0, 2) 3 ∧ Init mem (0, 3) 3 ∧ Init mem (0, 4) 3 ∧ Init mem (0, 5) 1 ∧ Room mem (0, 5) 1 :=
  ⟨.replicate (by decide), .replicate (by decide), .replicate (by decide), .replicate (by decide), .replicate (by decide), .replicate (by decide), .replicate (by decide)⟩

theorem C56_any_ray_sphere {mem : Mem α} {originP dirP sP t1P t2P : Ptr} (h_origin : Init mem originP 3) (h_dir : Init mem dirP 3) (h_s : Init mem sP 4) (h_t1 : Init mem t1P 1) (r_t1 : Room mem t1P 1) (h_t2 : Init mem t2P 1) (r_t2 : Room mem t2P 1) :
    Safe mem [(t1P, 1), (t2P, 1)] .bool (C.glm_ray_sphere.run mem [originP.val, dirP.val, sP.val, t1P.val, t2P.val]) :=
  safe_entry Lib.glm_ray_sphere_ok [.inp originP 3, .inp dirP 3, .inp sP 4, .io t1P 1, .io t2P 1] ⟨⟨initK_isF.mpr h_origin, by decide⟩, ⟨initK_isF.mpr h_dir, by decide⟩, ⟨initK_isF.mpr h_s, by decide⟩, ⟨initK_isF.mpr h_t1, r_t1, by decide⟩, ⟨initK_isF.mpr h_t2, r_t2, by decide⟩, trivial⟩ rfl
example (x : α) : let mem : Mem α := [⟨true, List.replicate 6 (.f x)⟩]
    Init mem (0, 0) 3 ∧ Init mem (0, 1) 3 ∧ Init mem (0, 2) 4 ∧ Init mem (0, 3) 1 ∧ Room mem (0, 3) 1 ∧ Init mem (0, 4) 1 ∧ Room mem (0, 4) 1 :=
  ⟨.replicate (by decide), .replicate (by decide), .replicate (by decide), .replicate (by decide), .replicate (by decide), .replicate (by decide), .replicate (by decide)⟩

theorem C56_any_ray_at {mem : Mem α} {origP dirP pointP : Ptr} (t : α) (h_orig : Init mem origP 3) (h_dir : Init mem dirP 3) (r_point : Room mem pointP 3) :
    Safe mem [(pointP, 3)] .void (C.glm_ray_at.run mem [origP.val, dirP.val, .f t, pointP.val]) :=
  safe_entry Lib.glm_ray_at_ok [.inp origP 3, .inp dirP 3, .f t, .out pointP 3] ⟨⟨initK_isF.mpr h_orig, by decide⟩, ⟨initK_isF.mpr h_dir, by decide⟩, trivial, ⟨r_point, by decide⟩, trivial⟩ rfl
example (x : α) : let mem : Mem α := [⟨true, List.replicate 5 (.f x)⟩]
    Init mem (0, 0) 3 ∧ Init mem (0, 1) 3 ∧ Room mem (0, 2) 3 :=
  ⟨.replicate (by decide), .replicate (by decide), .replicate (by decide)⟩

end Cglm
