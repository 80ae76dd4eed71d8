/- Generated by tools/safethms.py; do not edit by hand. -/
import Verif.Lib.Clip

/-!
# C56: memory safety when the arguments overlap in any way

No theorem here assumes anything about how the arguments lie relative «to» each other: inputs may be the destination,
or overlap it or each other partly.  Whenever every input is initialised and every destination is writable, the call
is defined, no cell outside the destinations changes, and the destinations end up initialised.
-/

set_option linter.unusedVariables false
set_option linter.unusedSectionVars false

namespace Cglm
open CMem

variable {α : Type} [Add α] [Sub α] [Mul α] [Div α] [Neg α] [CFloat α]

/-! ## include/cglm/clipspace/persp.h -/

theorem C56_any_persp_fovy {mem : Mem α} {projP : Ptr} (h_proj : Init mem projP 16) :
    Safe mem [] .float (C.glm_persp_fovy.run mem [projP.val]) :=
  safe_entry Lib.glm_persp_fovy_ok [.inp projP 16] ⟨⟨initK_isF.mpr h_proj, by decide⟩, trivial⟩ rfl
example (x : α) : let mem : Mem α := [⟨true, List.replicate 16 (.f x)⟩]
    Init mem (0, 0) 16 :=
  .replicate (by decide)

theorem C56_any_persp_aspect {mem : Mem α} {projP : Ptr} (h_proj : Init mem projP 16) :
    Safe mem [] .float (C.glm_persp_aspect.run mem [projP.val]) :=
  safe_entry Lib.glm_persp_aspect_ok [.inp projP 16] ⟨⟨initK_isF.mpr h_proj, by decide⟩, trivial⟩ rfl
example (x : α) : let mem : Mem α := [⟨true, List.replicate 16 (.f x)⟩]
    Init mem (0, 0) 16 :=
  .replicate (by decide)

/-! ## include/cglm/clipspace/ortho_lh_zo.h -/

theorem C56_any_ortho_lh_zo {mem : Mem α} {destP : Ptr} (left : α) (right : α) (bottom : α) (top : α) (nearZ : α) (farZ : α) (r_dest : Room mem destP 16) :
    Safe mem [(destP, 16)] .void (C.glm_ortho_lh_zo.run mem [.f left, .f right, .f bottom, .f top, .f nearZ, .f farZ, destP.val]) :=
  safe_entry Lib.glm_ortho_lh_zo_ok [.f left, .f right, .f bottom, .f top, .f nearZ, .f farZ, .out destP 16] ⟨trivial, trivial, trivial, trivial, trivial, trivial, ⟨r_dest, by decide⟩, trivial⟩ rfl
example (x : α) : let mem : Mem α := [⟨true, List.replicate 16 (.f x)⟩]
    Room mem (0, 0) 16 :=
  .replicate (by decide)

theorem C56_any_ortho_aabb_lh_zo {mem : Mem α} {boxP destP : Ptr} (h_box : Init mem boxP 6) (r_dest : Room mem destP 16) :
    Safe mem [(destP, 16)] .void (C.glm_ortho_aabb_lh_zo.run mem [boxP.val, destP.val]) :=
  safe_entry Lib.glm_ortho_aabb_lh_zo_ok [.inp boxP 6, .out destP 16] ⟨⟨initK_isF.mpr h_box, by decide⟩, ⟨r_dest, by decide⟩, trivial⟩ rfl
example (x : α) : let mem : Mem α := [⟨true, List.replicate 17 (.f x)⟩]
    Init mem (0, 0) 6 ∧ Room mem (0, 1) 16 :=
  ⟨.replicate (by decide), .replicate (by decide)⟩

theorem C56_any_ortho_aabb_p_lh_zo {mem : Mem α} {boxP destP : Ptr} (padding : α) (h_box : Init mem boxP 6) (r_dest : Room mem destP 16) :
    Safe mem [(destP, 16)] .void (C.glm_ortho_aabb_p_lh_zo.run mem [boxP.val, .f padding, destP.val]) :=
  safe_entry Lib.glm_ortho_aabb_p_lh_zo_ok [.inp boxP 6, .f padding, .out destP 16] ⟨⟨initK_isF.mpr h_box, by decide⟩, trivial, ⟨r_dest, by decide⟩, trivial⟩ rfl
example (x : α) : let mem : Mem α := [⟨true, List.replicate 17 (.f x)⟩]
    Init mem (0, 0) 6 ∧ Room mem (0, 1) 16 :=
  ⟨.replicate (by decide), .replicate (by decide)⟩

theorem C56_any_ortho_aabb_pz_lh_zo {mem : Mem α} {boxP destP : Ptr} (padding : α) (h_box : Init mem boxP 6) (r_dest : Room mem destP 16) :
    Safe mem [(destP, 16)] .void (C.glm_ortho_aabb_pz_lh_zo.run mem [boxP.val, .f padding, destP.val]) :=
  safe_entry Lib.glm_ortho_aabb_pz_lh_zo_ok [.inp boxP 6, .f padding, .out destP 16] ⟨⟨initK_isF.mpr h_box, by decide⟩, trivial, ⟨r_dest, by decide⟩, trivial⟩ rfl
example (x : α) : let mem : Mem α := [⟨true, List.replicate 17 (.f x)⟩]
    Init mem (0, 0) 6 ∧ Room mem (0, 1) 16 :=
  ⟨.replicate (by decide), .replicate (by decide)⟩

theorem C56_any_ortho_default_lh_zo {mem : Mem α} {destP : Ptr} (aspect : α) (r_dest : Room mem destP 16) :
    Safe mem [(destP, 16)] .void (C.glm_ortho_default_lh_zo.run mem [.f aspect, destP.val]) :=
  safe_entry Lib.glm_ortho_default_lh_zo_ok [.f aspect, .out destP 16] ⟨trivial, ⟨r_dest, by decide⟩, trivial⟩ rfl
example (x : α) : let mem : Mem α := [⟨true, List.replicate 16 (.f x)⟩]
    Room mem (0, 0) 16 :=
  .replicate (by decide)

theorem C56_any_ortho_default_s_lh_zo {mem : Mem α} {destP : Ptr} (aspect : α) (size : α) (r_dest : Room mem destP 16) :
    Safe mem [(destP, 16)] .void (C.glm_ortho_default_s_lh_zo.run mem [.f aspect, .f size, destP.val]) :=
  safe_entry Lib.glm_ortho_default_s_lh_zo_ok [.f aspect, .f size, .out destP 16] ⟨trivial, trivial, ⟨r_dest, by decide⟩, trivial⟩ rfl
example (x : α) : let mem : Mem α := [⟨true, List.replicate 16 (.f x)⟩]
    Room mem (0, 0) 16 :=
  .replicate (by decide)

/-! ## include/cglm/clipspace/persp_lh_zo.h -/

theorem C56_any_frustum_lh_zo {mem : Mem α} {destP : Ptr} (left : α) (right : α) (bottom : α) (top : α) (nearZ : α) (farZ : α) (r_dest : Room mem destP 16) :
    Safe mem [(destP, 16)] .void (C.glm_frustum_lh_zo.run mem [.f left, .f right, .f bottom, .f top, .f nearZ, .f farZ, destP.val]) :=
  safe_entry Lib.glm_frustum_lh_zo_ok [.f left, .f right, .f bottom, .f top, .f nearZ, .f farZ, .out destP 16] ⟨trivial, trivial, trivial, trivial, trivial, trivial, ⟨r_dest, by decide⟩, trivial⟩ rfl
example (x : α) : let mem : Mem α := [⟨true, List.replicate 16 (.f x)⟩]
    Room mem (0, 0) 16 :=
  .replicate (by decide)

theorem C56_any_perspective_lh_zo {mem : Mem α} {destP : Ptr} (fovy : α) (aspect : α) (nearZ : α) (farZ : α) (r_dest : Room mem destP 16) :
    Safe mem [(destP, 16)] .void (C.glm_perspective_lh_zo.run mem [.f fovy, .f aspect, .f nearZ, .f farZ, destP.val]) :=
  safe_entry Lib.glm_perspective_lh_zo_ok [.f fovy, .f aspect, .f nearZ, .f farZ, .out destP 16] ⟨trivial, trivial, trivial, trivial, ⟨r_dest, by decide⟩, trivial⟩ rfl
example (x : α) : let mem : Mem α := [⟨true, List.replicate 16 (.f x)⟩]
    Room mem (0, 0) 16 :=
  .replicate (by decide)

theorem C56_any_persp_move_far_lh_zo {mem : Mem α} {projP : Ptr} (deltaFar : α) (h_proj : Init mem projP 16) (r_proj : Room mem projP 16) :
    Safe mem [(projP, 16)] .void (C.glm_persp_move_far_lh_zo.run mem [projP.val, .f deltaFar]) :=
  safe_entry Lib.glm_persp_move_far_lh_zo_ok [.io projP 16, .f deltaFar] ⟨⟨initK_isF.mpr h_proj, r_proj, by decide⟩, trivial, trivial⟩ rfl
example (x : α) : let mem : Mem α := [⟨true, List.replicate 16 (.f x)⟩]
    Init mem (0, 0) 16 ∧ Room mem (0, 0) 16 :=
  ⟨.replicate (by decide), .replicate (by decide)⟩

theorem C56_any_perspective_default_lh_zo {mem : Mem α} {destP : Ptr} (aspect : α) (r_dest : Room mem destP 16) :
    Safe mem [(destP, 16)] .void (C.glm_perspective_default_lh_zo.run mem [.f aspect, destP.val]) :=
  safe_entry Lib.glm_perspective_default_lh_zo_ok [.f aspect, .out destP 16] ⟨trivial, ⟨r_dest, by decide⟩, trivial⟩ rfl
example (x : α) : let mem : Mem α := [⟨true, List.replicate 16 (.f x)⟩]
    Room mem (0, 0) 16 :=
  .replicate (by decide)

theorem C56_any_perspective_resize_lh_zo {mem : Mem α} {projP : Ptr} (aspect : α) (h_proj : Init mem projP 16) (r_proj : Room mem projP 16) :
    Safe mem [(projP, 16)] .void (C.glm_perspective_resize_lh_zo.run mem [.f aspect, projP.val]) :=
  safe_entry Lib.glm_perspective_resize_lh_zo_ok [.f aspect, .io projP 16] ⟨trivial, ⟨initK_isF.mpr h_proj, r_proj, by decide⟩, trivial⟩ rfl
example (x : α) : let mem : Mem α := [⟨true, List.replicate 16 (.f x)⟩]
    Init mem (0, 0) 16 ∧ Room mem (0, 0) 16 :=
  ⟨.replicate (by decide), .replicate (by decide)⟩

theorem C56_any_persp_decomp_lh_zo {mem : Mem α} {projP nearZP farZP topP bottomP leftP rightP : Ptr} (h_proj : Init mem projP 16) (r_nearZ : Room mem nearZP 1) (r_farZ : Room mem farZP 1) (r_top : Room mem topP 1) (r_bottom : Room mem bottomP 1) (r_left : Room mem leftP 1) (r_right : Room mem rightP 1) :
    Safe mem [(nearZP, 1), (farZP, 1), (topP, 1), (bottomP, 1), (leftP, 1), (rightP, 1)] .void (C.glm_persp_decomp_lh_zo.run mem [projP.val, nearZP.val, farZP.val, topP.val, bottomP.val, leftP.val, rightP.val]) :=
  safe_entry Lib.glm_persp_decomp_lh_zo_ok [.inp projP 16, .out nearZP 1, .out farZP 1, .out topP 1, .out bottomP 1, .out leftP 1, .out rightP 1] ⟨⟨initK_isF.mpr h_proj, by decide⟩, ⟨r_nearZ, by decide⟩, ⟨r_farZ, by decide⟩, ⟨r_top, by decide⟩, ⟨r_bottom, by decide⟩, ⟨r_left, by decide⟩, ⟨r_right, by decide⟩, trivial⟩ rfl
example (x : α) : let mem : Mem α := [⟨true, List.replicate 16 (.f x)⟩]
    Init mem (0, 0) 16 ∧ Room mem (0, 1) 1 ∧ Room mem (0, 2) 1 ∧ Room mem (0, 3) 1 ∧ Room mem (0, 4) 1 ∧ Room mem (0, 5) 1 ∧ Room mem (0, 6) 1 :=
  ⟨.replicate (by decide), .replicate (by decide), .replicate (by decide), .replicate (by decide), .replicate (by decide), .replicate (by decide), .replicate (by decide)⟩

theorem C56_any_persp_decompv_lh_zo {mem : Mem α} {projP destP : Ptr} (h_proj : Init mem projP 16) (r_dest : Room mem destP 6) :
    Safe mem [(destP, 6)] .void (C.glm_persp_decompv_lh_zo.run mem [projP.val, destP.val]) :=
  safe_entry Lib.glm_persp_decompv_lh_zo_ok [.inp projP 16, .out destP 6] ⟨⟨initK_isF.mpr h_proj, by decide⟩, ⟨r_dest, by decide⟩, trivial⟩ rfl
example (x : α) : let mem : Mem α := [⟨true, List.replicate 16 (.f x)⟩]
    Init mem (0, 0) 16 ∧ Room mem (0, 1) 6 :=
  ⟨.replicate (by decide), .replicate (by decide)⟩

theorem C56_any_persp_decomp_x_lh_zo {mem : Mem α} {projP leftP rightP : Ptr} (h_proj : Init mem projP 16) (r_left : Room mem leftP 1) (r_right : Room mem rightP 1) :
    Safe mem [(leftP, 1), (rightP, 1)] .void (C.glm_persp_decomp_x_lh_zo.run mem [projP.val, leftP.val, rightP.val]) :=
  safe_entry Lib.glm_persp_decomp_x_lh_zo_ok [.inp projP 16, .out leftP 1, .out rightP 1] ⟨⟨initK_isF.mpr h_proj, by decide⟩, ⟨r_left, by decide⟩, ⟨r_right, by decide⟩, trivial⟩ rfl
example (x : α) : let mem : Mem α := [⟨true, List.replicate 16 (.f x)⟩]
    Init mem (0, 0) 16 ∧ Room mem (0, 1) 1 ∧ Room mem (0, 2) 1 :=
  ⟨.replicate (by decide), .replicate (by decide), .replicate (by decide)⟩

theorem C56_any_persp_decomp_y_lh_zo {mem : Mem α} {projP topP bottomP : Ptr} (h_proj : Init mem projP 16) (r_top : Room mem topP 1) (r_bottom : Room mem bottomP 1) :
    Safe mem [(topP, 1), (bottomP, 1)] .void (C.glm_persp_decomp_y_lh_zo.run mem [projP.val, topP.val, bottomP.val]) :=
  safe_entry Lib.glm_persp_decomp_y_lh_zo_ok [.inp projP 16, .out topP 1, .out bottomP 1] ⟨⟨initK_isF.mpr h_proj, by decide⟩, ⟨r_top, by decide⟩, ⟨r_bottom, by decide⟩, trivial⟩ rfl
example (x : α) : let mem : Mem α := [⟨true, List.replicate 16 (.f x)⟩]
    Init mem (0, 0) 16 ∧ Room mem (0, 1) 1 ∧ Room mem (0, 2) 1 :=
  ⟨.replicate (by decide), .replicate (by decide), .replicate (by decide)⟩

theorem C56_any_persp_decomp_z_lh_zo {mem : Mem α} {projP nearZP farZP : Ptr} (h_proj : Init mem projP 16) (r_nearZ : Room mem nearZP 1) (r_farZ : Room mem farZP 1) :
    Safe mem [(nearZP, 1), (farZP, 1)] .void (C.glm_persp_decomp_z_lh_zo.run mem [projP.val, nearZP.val, farZP.val]) :=
  safe_entry Lib.glm_persp_decomp_z_lh_zo_ok [.inp projP 16, .out nearZP 1, .out farZP 1] ⟨⟨initK_isF.mpr h_proj, by decide⟩, ⟨r_nearZ, by decide⟩, ⟨r_farZ, by decide⟩, trivial⟩ rfl
example (x : α) : let mem : Mem α := [⟨true, List.replicate 16 (.f x)⟩]
    Init mem (0, 0) 16 ∧ Room mem (0, 1) 1 ∧ Room mem (0, 2) 1 :=
  ⟨.replicate (by decide), .replicate (by decide), .replicate (by decide)⟩

theorem C56_any_persp_decomp_far_lh_zo {mem : Mem α} {projP farZP : Ptr} (h_proj : Init mem projP 16) (r_farZ : Room mem farZP 1) :
    Safe mem [(farZP, 1)] .void (C.glm_persp_decomp_far_lh_zo.run mem [projP.val, farZP.val]) :=
  safe_entry Lib.glm_persp_decomp_far_lh_zo_ok [.inp projP 16, .out farZP 1] ⟨⟨initK_isF.mpr h_proj, by decide⟩, ⟨r_farZ, by decide⟩, trivial⟩ rfl
example (x : α) : let mem : Mem α := [⟨true, List.replicate 16 (.f x)⟩]
    Init mem (0, 0) 16 ∧ Room mem (0, 1) 1 :=
  ⟨.replicate (by decide), .replicate (by decide)⟩

theorem C56_any_persp_decomp_near_lh_zo {mem : Mem α} {projP nearZP : Ptr} (h_proj : Init mem projP 16) (r_nearZ : Room mem nearZP 1) :
    Safe mem [(nearZP, 1)] .void (C.glm_persp_decomp_near_lh_zo.run mem [projP.val, nearZP.val]) :=
  safe_entry Lib.glm_persp_decomp_near_lh_zo_ok [.inp projP 16, .out nearZP 1] ⟨⟨initK_isF.mpr h_proj, by decide⟩, ⟨r_nearZ, by decide⟩, trivial⟩ rfl
example (x : α) : let mem : Mem α := [⟨true, List.replicate 16 (.f x)⟩]
    Init mem (0, 0) 16 ∧ Room mem (0, 1) 1 :=
  ⟨.replicate (by decide), .replicate (by decide)⟩

theorem C56_any_persp_sizes_lh_zo {mem : Mem α} {projP destP : Ptr} (fovy : α) (h_proj : Init mem projP 16) (r_dest : Room mem destP 4) :
    Safe mem [(destP, 4)] .void (C.glm_persp_sizes_lh_zo.run mem [projP.val, .f fovy, destP.val]) :=
  safe_entry Lib.glm_persp_sizes_lh_zo_ok [.inp projP 16, .f fovy, .out destP 4] ⟨⟨initK_isF.mpr h_proj, by decide⟩, trivial, ⟨r_dest, by decide⟩, trivial⟩ rfl
example (x : α) : let mem : Mem α := [⟨true, List.replicate 16 (.f x)⟩]
    Init mem (0, 0) 16 ∧ Room mem (0, 1) 4 :=
  ⟨.replicate (by decide), .replicate (by decide)⟩

theorem C56_any_persp_fovy_lh_zo {mem : Mem α} {projP : Ptr} (h_proj : Init mem projP 16) :
    Safe mem [] .float (C.glm_persp_fovy_lh_zo.run mem [projP.val]) :=
  safe_entry Lib.glm_persp_fovy_lh_zo_ok [.inp projP 16] ⟨⟨initK_isF.mpr h_proj, by decide⟩, trivial⟩ rfl
example (x : α) : let mem : Mem α := [⟨true, List.replicate 16 (.f x)⟩]
    Init mem (0, 0) 16 :=
  .replicate (by decide)

theorem C56_any_persp_aspect_lh_zo {mem : Mem α} {projP : Ptr} (h_proj : Init mem projP 16) :
    Safe mem [] .float (C.glm_persp_aspect_lh_zo.run mem [projP.val]) :=
  safe_entry Lib.glm_persp_aspect_lh_zo_ok [.inp projP 16] ⟨⟨initK_isF.mpr h_proj, by decide⟩, trivial⟩ rfl
example (x : α) : let mem : Mem α := [⟨true, List.replicate 16 (.f x)⟩]
    Init mem (0, 0) 16 :=
  .replicate (by decide)

/-! ## include/cglm/clipspace/ortho_lh_no.h -/

theorem C56_any_ortho_lh_no {mem : Mem α} {destP : Ptr} (left : α) (right : α) (bottom : α) (top : α) (nearZ : α) (farZ : α) (r_dest : Room mem destP 16) :
    Safe mem [(destP, 16)] .void (C.glm_ortho_lh_no.run mem [.f left, .f right, .f bottom, .f top, .f nearZ, .f farZ, destP.val]) :=
  safe_entry Lib.glm_ortho_lh_no_ok [.f left, .f right, .f bottom, .f top, .f nearZ, .f farZ, .out destP 16] ⟨trivial, trivial, trivial, trivial, trivial, trivial, ⟨r_dest, by decide⟩, trivial⟩ rfl
example (x : α) : let mem : Mem α := [⟨true, List.replicate 16 (.f x)⟩]
    Room mem (0, 0) 16 :=
  .replicate (by decide)

theorem C56_any_ortho_aabb_lh_no {mem : Mem α} {boxP destP : Ptr} (h_box : Init mem boxP 6) (r_dest : Room mem destP 16) :
    Safe mem [(destP, 16)] .void (C.glm_ortho_aabb_lh_no.run mem [boxP.val, destP.val]) :=
  safe_entry Lib.glm_ortho_aabb_lh_no_ok [.inp boxP 6, .out destP 16] ⟨⟨initK_isF.mpr h_box, by decide⟩, ⟨r_dest, by decide⟩, trivial⟩ rfl
example (x : α) : let mem : Mem α := [⟨true, List.replicate 17 (.f x)⟩]
    Init mem (0, 0) 6 ∧ Room mem (0, 1) 16 :=
  ⟨.replicate (by decide), .replicate (by decide)⟩

theorem C56_any_ortho_aabb_p_lh_no {mem : Mem α} {boxP destP : Ptr} (padding : α) (h_box : Init mem boxP 6) (r_dest : Room mem destP 16) :
    Safe mem [(destP, 16)] .void (C.glm_ortho_aabb_p_lh_no.run mem [boxP.val, .f padding, destP.val]) :=
  safe_entry Lib.glm_ortho_aabb_p_lh_no_ok [.inp boxP 6, .f padding, .out destP 16] ⟨⟨initK_isF.mpr h_box, by decide⟩, trivial, ⟨r_dest, by decide⟩, trivial⟩ rfl
example (x : α) : let mem : Mem α := [⟨true, List.replicate 17 (.f x)⟩]
    Init mem (0, 0) 6 ∧ Room mem (0, 1) 16 :=
  ⟨.replicate (by decide), .replicate (by decide)⟩

theorem C56_any_ortho_aabb_pz_lh_no {mem : Mem α} {boxP destP : Ptr} (padding : α) (h_box : Init mem boxP 6) (r_dest : Room mem destP 16) :
    Safe mem [(destP, 16)] .void (C.glm_ortho_aabb_pz_lh_no.run mem [boxP.val, .f padding, destP.val]) :=
  safe_entry Lib.glm_ortho_aabb_pz_lh_no_ok [.inp boxP 6, .f padding, .out destP 16] ⟨⟨initK_isF.mpr h_box, by decide⟩, trivial, ⟨r_dest, by decide⟩, trivial⟩ rfl
example (x : α) : let mem : Mem α := [⟨true, List.replicate 17 (.f x)⟩]
    Init mem (0, 0) 6 ∧ Room mem (0, 1) 16 :=
  ⟨.replicate (by decide), .replicate (by decide)⟩

theorem C56_any_ortho_default_lh_no {mem : Mem α} {destP : Ptr} (aspect : α) (r_dest : Room mem destP 16) :
    Safe mem [(destP, 16)] .void (C.glm_ortho_default_lh_no.run mem [.f aspect, destP.val]) :=
  safe_entry Lib.glm_ortho_default_lh_no_ok [.f aspect, .out destP 16] ⟨trivial, ⟨r_dest, by decide⟩, trivial⟩ rfl
example (x : α) : let mem : Mem α := [⟨true, List.replicate 16 (.f x)⟩]
    Room mem (0, 0) 16 :=
  .replicate (by decide)

theorem C56_any_ortho_default_s_lh_no {mem : Mem α} {destP : Ptr} (aspect : α) (size : α) (r_dest : Room mem destP 16) :
    Safe mem [(destP, 16)] .void (C.glm_ortho_default_s_lh_no.run mem [.f aspect, .f size, destP.val]) :=
  safe_entry Lib.glm_ortho_default_s_lh_no_ok [.f aspect, .f size, .out destP 16] ⟨trivial, trivial, ⟨r_dest, by decide⟩, trivial⟩ rfl
example (x : α) : let mem : Mem α := [⟨true, List.replicate 16 (.f x)⟩]
    Room mem (0, 0) 16 :=
  .replicate (by decide)

/-! ## include/cglm/clipspace/persp_lh_no.h -/

theorem C56_any_frustum_lh_no {mem : Mem α} {destP : Ptr} (left : α) (right : α) (bottom : α) (top : α) (nearZ : α) (farZ : α) (r_dest : Room mem destP 16) :
    Safe mem [(destP, 16)] .void (C.glm_frustum_lh_no.run mem [.f left, .f right, .f bottom, .f top, .f nearZ, .f farZ, destP.val]) :=
  safe_entry Lib.glm_frustum_lh_no_ok [.f left, .f right, .f bottom, .f top, .f nearZ, .f farZ, .out destP 16] ⟨trivial, trivial, trivial, trivial, trivial, trivial, ⟨r_dest, by decide⟩, trivial⟩ rfl
example (x : α) : let mem : Mem α := [⟨true, List.replicate 16 (.f x)⟩]
    Room mem (0, 0) 16 :=
  .replicate (by decide)

theorem C56_any_perspective_lh_no {mem : Mem α} {destP : Ptr} (fovy : α) (aspect : α) (nearZ : α) (farZ : α) (r_dest : Room mem destP 16) :
    Safe mem [(destP, 16)] .void (C.glm_perspective_lh_no.run mem [.f fovy, .f aspect, .f nearZ, .f farZ, destP.val]) :=
  safe_entry Lib.glm_perspective_lh_no_ok [.f fovy, .f aspect, .f nearZ, .f farZ, .out destP 16] ⟨trivial, trivial, trivial, trivial, ⟨r_dest, by decide⟩, trivial⟩ rfl
example (x : α) : let mem : Mem α := [⟨true, List.replicate 16 (.f x)⟩]
    Room mem (0, 0) 16 :=
  .replicate (by decide)

theorem C56_any_perspective_default_lh_no {mem : Mem α} {destP : Ptr} (aspect : α) (r_dest : Room mem destP 16) :
    Safe mem [(destP, 16)] .void (C.glm_perspective_default_lh_no.run mem [.f aspect, destP.val]) :=
  safe_entry Lib.glm_perspective_default_lh_no_ok [.f aspect, .out destP 16] ⟨trivial, ⟨r_dest, by decide⟩, trivial⟩ rfl
example (x : α) : let mem : Mem α := [⟨true, List.replicate 16 (.f x)⟩]
    Room mem (0, 0) 16 :=
  .replicate (by decide)

theorem C56_any_perspective_resize_lh_no {mem : Mem α} {projP : Ptr} (aspect : α) (h_proj : Init mem projP 16) (r_proj : Room mem projP 16) :
    Safe mem [(projP, 16)] .void (C.glm_perspective_resize_lh_no.run mem [.f aspect, projP.val]) :=
  safe_entry Lib.glm_perspective_resize_lh_no_ok [.f aspect, .io projP 16] ⟨trivial, ⟨initK_isF.mpr h_proj, r_proj, by decide⟩, trivial⟩ rfl
example (x : α) : let mem : Mem α := [⟨true, List.replicate 16 (.f x)⟩]
    Init mem (0, 0) 16 ∧ Room mem (0, 0) 16 :=
  ⟨.replicate (by decide), .replicate (by decide)⟩

theorem C56_any_persp_move_far_lh_no {mem : Mem α} {projP : Ptr} (deltaFar : α) (h_proj : Init mem projP 16) (r_proj : Room mem projP 16) :
    Safe mem [(projP, 16)] .void (C.glm_persp_move_far_lh_no.run mem [projP.val, .f deltaFar]) :=
  safe_entry Lib.glm_persp_move_far_lh_no_ok [.io projP 16, .f deltaFar] ⟨⟨initK_isF.mpr h_proj, r_proj, by decide⟩, trivial, trivial⟩ rfl
example (x : α) : let mem : Mem α := [⟨true, List.replicate 16 (.f x)⟩]
    Init mem (0, 0) 16 ∧ Room mem (0, 0) 16 :=
  ⟨.replicate (by decide), .replicate (by decide)⟩

theorem C56_any_persp_decomp_lh_no {mem : Mem α} {projP nearZP farZP topP bottomP leftP rightP : Ptr} (h_proj : Init mem projP 16) (r_nearZ : Room mem nearZP 1) (r_farZ : Room mem farZP 1) (r_top : Room mem topP 1) (r_bottom : Room mem bottomP 1) (r_left : Room mem leftP 1) (r_right : Room mem rightP 1) :
    Safe mem [(nearZP, 1), (farZP, 1), (topP, 1), (bottomP, 1), (leftP, 1), (rightP, 1)] .void (C.glm_persp_decomp_lh_no.run mem [projP.val, nearZP.val, farZP.val, topP.val, bottomP.val, leftP.val, rightP.val]) :=
  safe_entry Lib.glm_persp_decomp_lh_no_ok [.inp projP 16, .out nearZP 1, .out farZP 1, .out topP 1, .out bottomP 1, .out leftP 1, .out rightP 1] ⟨⟨initK_isF.mpr h_proj, by decide⟩, ⟨r_nearZ, by decide⟩, ⟨r_farZ, by decide⟩, ⟨r_top, by decide⟩, ⟨r_bottom, by decide⟩, ⟨r_left, by decide⟩, ⟨r_right, by decide⟩, trivial⟩ rfl
example (x : α) : let mem : Mem α := [⟨true, List.replicate 16 (.f x)⟩]
    Init mem (0, 0) 16 ∧ Room mem (0, 1) 1 ∧ Room mem (0, 2) 1 ∧ Room mem (0, 3) 1 ∧ Room mem (0, 4) 1 ∧ Room mem (0, 5) 1 ∧ Room mem (0, 6) 1 :=
  ⟨.replicate (by decide), .replicate (by decide), .replicate (by decide), .replicate (by decide), .replicate (by decide), .replicate (by decide), .replicate (by decide)⟩

theorem C56_any_persp_decompv_lh_no {mem : Mem α} {projP destP : Ptr} (h_proj : Init mem projP 16) (r_dest : Room mem destP 6) :
    Safe mem [(destP, 6)] .void (C.glm_persp_decompv_lh_no.run mem [projP.val, destP.val]) :=
  safe_entry Lib.glm_persp_decompv_lh_no_ok [.inp projP 16, .out destP 6] ⟨⟨initK_isF.mpr h_proj, by decide⟩, ⟨r_dest, by decide⟩, trivial⟩ rfl
example (x : α) : let mem : Mem α := [⟨true, List.replicate 16 (.f x)⟩]
    Init mem (0, 0) 16 ∧ Room mem (0, 1) 6 :=
  ⟨.replicate (by decide), .replicate (by decide)⟩

theorem C56_any_persp_decomp_x_lh_no {mem : Mem α} {projP leftP rightP : Ptr} (h_proj : Init mem projP 16) (r_left : Room mem leftP 1) (r_right : Room mem rightP 1) :
    Safe mem [(leftP, 1), (rightP, 1)] .void (C.glm_persp_decomp_x_lh_no.run mem [projP.val, leftP.val, rightP.val]) :=
  safe_entry Lib.glm_persp_decomp_x_lh_no_ok [.inp projP 16, .out leftP 1, .out rightP 1] ⟨⟨initK_isF.mpr h_proj, by decide⟩, ⟨r_left, by decide⟩, ⟨r_right, by decide⟩, trivial⟩ rfl
example (x : α) : let mem : Mem α := [⟨true, List.replicate 16 (.f x)⟩]
    Init mem (0, 0) 16 ∧ Room mem (0, 1) 1 ∧ Room mem (0, 2) 1 :=
  ⟨.replicate (by decide), .replicate (by decide), .replicate (by decide)⟩

theorem C56_any_persp_decomp_y_lh_no {mem : Mem α} {projP topP bottomP : Ptr} (h_proj : Init mem projP 16) (r_top : Room mem topP 1) (r_bottom : Room mem bottomP 1) :
    Safe mem [(topP, 1), (bottomP, 1)] .void (C.glm_persp_decomp_y_lh_no.run mem [projP.val, topP.val, bottomP.val]) :=
  safe_entry Lib.glm_persp_decomp_y_lh_no_ok [.inp projP 16, .out topP 1, .out bottomP 1] ⟨⟨initK_isF.mpr h_proj, by decide⟩, ⟨r_top, by decide⟩, ⟨r_bottom, by decide⟩, trivial⟩ rfl
example (x : α) : let mem : Mem α := [⟨true, List.replicate 16 (.f x)⟩]
    Init mem (0, 0) 16 ∧ Room mem (0, 1) 1 ∧ Room mem (0, 2) 1 :=
  ⟨.replicate (by decide), .replicate (by decide), .replicate (by decide)⟩

theorem C56_any_persp_decomp_z_lh_no {mem : Mem α} {projP nearZP farZP : Ptr} (h_proj : Init mem projP 16) (r_nearZ : Room mem nearZP 1) (r_farZ : Room mem farZP 1) :
    Safe mem [(nearZP, 1), (farZP, 1)] .void (C.glm_persp_decomp_z_lh_no.run mem [projP.val, nearZP.val, farZP.val]) :=
  safe_entry Lib.glm_persp_decomp_z_lh_no_ok [.inp projP 16, .out nearZP 1, .out farZP 1] ⟨⟨initK_isF.mpr h_proj, by decide⟩, ⟨r_nearZ, by decide⟩, ⟨r_farZ, by decide⟩, trivial⟩ rfl
example (x : α) : let mem : Mem α := [⟨true, List.replicate 16 (.f x)⟩]
    Init mem (0, 0) 16 ∧ Room mem (0, 1) 1 ∧ Room mem (0, 2) 1 :=
  ⟨.replicate (by decide), .replicate (by decide), .replicate (by decide)⟩

theorem C56_any_persp_decomp_far_lh_no {mem : Mem α} {projP farZP : Ptr} (h_proj : Init mem projP 16) (r_farZ : Room mem farZP 1) :
    Safe mem [(farZP, 1)] .void (C.glm_persp_decomp_far_lh_no.run mem [projP.val, farZP.val]) :=
  safe_entry Lib.glm_persp_decomp_far_lh_no_ok [.inp projP 16, .out farZP 1] ⟨⟨initK_isF.mpr h_proj, by decide⟩, ⟨r_farZ, by decide⟩, trivial⟩ rfl
example (x : α) : let mem : Mem α := [⟨true, List.replicate 16 (.f x)⟩]
    Init mem (0, 0) 16 ∧ Room mem (0, 1) 1 :=
  ⟨.replicate (by decide), .replicate (by decide)⟩

theorem C56_any_persp_decomp_near_lh_no {mem : Mem α} {projP nearZP : Ptr} (h_proj : Init mem projP 16) (r_nearZ : Room mem nearZP 1) :
    Safe mem [(nearZP, 1)] .void (C.glm_persp_decomp_near_lh_no.run mem [projP.val, nearZP.val]) :=
  safe_entry Lib.glm_persp_decomp_near_lh_no_ok [.inp projP 16, .out nearZP 1] ⟨⟨initK_isF.mpr h_proj, by decide⟩, ⟨r_nearZ, by decide⟩, trivial⟩ rfl
example (x : α) : let mem : Mem α := [⟨true, List.replicate 16 (.f x)⟩]
    Init mem (0, 0) 16 ∧ Room mem (0, 1) 1 :=
  ⟨.replicate (by decide), .replicate (by decide)⟩

theorem C56_any_persp_sizes_lh_no {mem : Mem α} {projP destP : Ptr} (fovy : α) (h_proj : Init mem projP 16) (r_dest : Room mem destP 4) :
    Safe mem [(destP, 4)] .void (C.glm_persp_sizes_lh_no.run mem [projP.val, .f fovy, destP.val]) :=
  safe_entry Lib.glm_persp_sizes_lh_no_ok [.inp projP 16, .f fovy, .out destP 4] ⟨⟨initK_isF.mpr h_proj, by decide⟩, trivial, ⟨r_dest, by decide⟩, trivial⟩ rfl
example (x : α) : let mem : Mem α := [⟨true, List.replicate 16 (.f x)⟩]
    Init mem (0, 0) 16 ∧ Room mem (0, 1) 4 :=
  ⟨.replicate (by decide), .replicate (by decide)⟩

theorem C56_any_persp_fovy_lh_no {mem : Mem α} {projP : Ptr} (h_proj : Init mem projP 16) :
    Safe mem [] .float (C.glm_persp_fovy_lh_no.run mem [projP.val]) :=
  safe_entry Lib.glm_persp_fovy_lh_no_ok [.inp projP 16] ⟨⟨initK_isF.mpr h_proj, by decide⟩, trivial⟩ rfl
example (x : α) : let mem : Mem α := [⟨true, List.replicate 16 (.f x)⟩]
    Init mem (0, 0) 16 :=
  .replicate (by decide)

theorem C56_any_persp_aspect_lh_no {mem : Mem α} {projP : Ptr} (h_proj : Init mem projP 16) :
    Safe mem [] .float (C.glm_persp_aspect_lh_no.run mem [projP.val]) :=
  safe_entry Lib.glm_persp_aspect_lh_no_ok [.inp projP 16] ⟨⟨initK_isF.mpr h_proj, by decide⟩, trivial⟩ rfl
example (x : α) : let mem : Mem α := [⟨true, List.replicate 16 (.f x)⟩]
    Init mem (0, 0) 16 :=
  .replicate (by decide)

/-! ## include/cglm/clipspace/ortho_rh_zo.h -/

theorem C56_any_ortho_rh_zo {mem : Mem α} {destP : Ptr} (left : α) (right : α) (bottom : α) (top : α) (nearZ : α) (farZ : α) (r_dest : Room mem destP 16) :
    Safe mem [(destP, 16)] .void (C.glm_ortho_rh_zo.run mem [.f left, .f right, .f bottom, .f top, .f nearZ, .f farZ, destP.val]) :=
  safe_entry Lib.glm_ortho_rh_zo_ok [.f left, .f right, .f bottom, .f top, .f nearZ, .f farZ, .out destP 16] ⟨trivial, trivial, trivial, trivial, trivial, trivial, ⟨r_dest, by decide⟩, trivial⟩ rfl
example (x : α) : let mem : Mem α := [⟨true, List.replicate 16 (.f x)⟩]
    Room mem (0, 0) 16 :=
  .replicate (by decide)

theorem C56_any_ortho_aabb_rh_zo {mem : Mem α} {boxP destP : Ptr} (h_box : Init mem boxP 6) (r_dest : Room mem destP 16) :
    Safe mem [(destP, 16)] .void (C.glm_ortho_aabb_rh_zo.run mem [boxP.val, destP.val]) :=
  safe_entry Lib.glm_ortho_aabb_rh_zo_ok [.inp boxP 6, .out destP 16] ⟨⟨initK_isF.mpr h_box, by decide⟩, ⟨r_dest, by decide⟩, trivial⟩ rfl
example (x : α) : let mem : Mem α := [⟨true, List.replicate 17 (.f x)⟩]
    Init mem (0, 0) 6 ∧ Room mem (0, 1) 16 :=
  ⟨.replicate (by decide), .replicate (by decide)⟩

theorem C56_any_ortho_aabb_p_rh_zo {mem : Mem α} {boxP destP : Ptr} (padding : α) (h_box : Init mem boxP 6) (r_dest : Room mem destP 16) :
    Safe mem [(destP, 16)] .void (C.glm_ortho_aabb_p_rh_zo.run mem [boxP.val, .f padding, destP.val]) :=
  safe_entry Lib.glm_ortho_aabb_p_rh_zo_ok [.inp boxP 6, .f padding, .out destP 16] ⟨⟨initK_isF.mpr h_box, by decide⟩, trivial, ⟨r_dest, by decide⟩, trivial⟩ rfl
example (x : α) : let mem : Mem α := [⟨true, List.replicate 17 (.f x)⟩]
    Init mem (0, 0) 6 ∧ Room mem (0, 1) 16 :=
  ⟨.replicate (by decide), .replicate (by decide)⟩

theorem C56_any_ortho_aabb_pz_rh_zo {mem : Mem α} {boxP destP : Ptr} (padding : α) (h_box : Init mem boxP 6) (r_dest : Room mem destP 16) :
    Safe mem [(destP, 16)] .void (C.glm_ortho_aabb_pz_rh_zo.run mem [boxP.val, .f padding, destP.val]) :=
  safe_entry Lib.glm_ortho_aabb_pz_rh_zo_ok [.inp boxP 6, .f padding, .out destP 16] ⟨⟨initK_isF.mpr h_box, by decide⟩, trivial, ⟨r_dest, by decide⟩, trivial⟩ rfl
example (x : α) : let mem : Mem α := [⟨true, List.replicate 17 (.f x)⟩]
    Init mem (0, 0) 6 ∧ Room mem (0, 1) 16 :=
  ⟨.replicate (by decide), .replicate (by decide)⟩

theorem C56_any_ortho_default_rh_zo {mem : Mem α} {destP : Ptr} (aspect : α) (r_dest : Room mem destP 16) :
    Safe mem [(destP, 16)] .void (C.glm_ortho_default_rh_zo.run mem [.f aspect, destP.val]) :=
  safe_entry Lib.glm_ortho_default_rh_zo_ok [.f aspect, .out destP 16] ⟨trivial, ⟨r_dest, by decide⟩, trivial⟩ rfl
example (x : α) : let mem : Mem α := [⟨true, List.replicate 16 (.f x)⟩]
    Room mem (0, 0) 16 :=
  .replicate (by decide)

theorem C56_any_ortho_default_s_rh_zo {mem : Mem α} {destP : Ptr} (aspect : α) (size : α) (r_dest : Room mem destP 16) :
    Safe mem [(destP, 16)] .void (C.glm_ortho_default_s_rh_zo.run mem [.f aspect, .f size, destP.val]) :=
  safe_entry Lib.glm_ortho_default_s_rh_zo_ok [.f aspect, .f size, .out destP 16] ⟨trivial, trivial, ⟨r_dest, by decide⟩, trivial⟩ rfl
example (x : α) : let mem : Mem α := [⟨true, List.replicate 16 (.f x)⟩]
    Room mem (0, 0) 16 :=
  .replicate (by decide)

/-! ## include/cglm/clipspace/persp_rh_zo.h -/

theorem C56_any_frustum_rh_zo {mem : Mem α} {destP : Ptr} (left : α) (right : α) (bottom : α) (top : α) (nearZ : α) (farZ : α) (r_dest : Room mem destP 16) :
    Safe mem [(destP, 16)] .void (C.glm_frustum_rh_zo.run mem [.f left, .f right, .f bottom, .f top, .f nearZ, .f farZ, destP.val]) :=
  safe_entry Lib.glm_frustum_rh_zo_ok [.f left, .f right, .f bottom, .f top, .f nearZ, .f farZ, .out destP 16] ⟨trivial, trivial, trivial, trivial, trivial, trivial, ⟨r_dest, by decide⟩, trivial⟩ rfl
example (x : α) : let mem : Mem α := [⟨true, List.replicate 16 (.f x)⟩]
    Room mem (0, 0) 16 :=
  .replicate (by decide)

theorem C56_any_perspective_rh_zo {mem : Mem α} {destP : Ptr} (fovy : α) (aspect : α) (nearZ : α) (farZ : α) (r_dest : Room mem destP 16) :
    Safe mem [(destP, 16)] .void (C.glm_perspective_rh_zo.run mem [.f fovy, .f aspect, .f nearZ, .f farZ, destP.val]) :=
  safe_entry Lib.glm_perspective_rh_zo_ok [.f fovy, .f aspect, .f nearZ, .f farZ, .out destP 16] ⟨trivial, trivial, trivial, trivial, ⟨r_dest, by decide⟩, trivial⟩ rfl
example (x : α) : let mem : Mem α := [⟨true, List.replicate 16 (.f x)⟩]
    Room mem (0, 0) 16 :=
  .replicate (by decide)

theorem C56_any_perspective_default_rh_zo {mem : Mem α} {destP : Ptr} (aspect : α) (r_dest : Room mem destP 16) :
    Safe mem [(destP, 16)] .void (C.glm_perspective_default_rh_zo.run mem [.f aspect, destP.val]) :=
  safe_entry Lib.glm_perspective_default_rh_zo_ok [.f aspect, .out destP 16] ⟨trivial, ⟨r_dest, by decide⟩, trivial⟩ rfl
example (x : α) : let mem : Mem α := [⟨true, List.replicate 16 (.f x)⟩]
    Room mem (0, 0) 16 :=
  .replicate (by decide)

theorem C56_any_perspective_resize_rh_zo {mem : Mem α} {projP : Ptr} (aspect : α) (h_proj : Init mem projP 16) (r_proj : Room mem projP 16) :
    Safe mem [(projP, 16)] .void (C.glm_perspective_resize_rh_zo.run mem [.f aspect, projP.val]) :=
  safe_entry Lib.glm_perspective_resize_rh_zo_ok [.f aspect, .io projP 16] ⟨trivial, ⟨initK_isF.mpr h_proj, r_proj, by decide⟩, trivial⟩ rfl
example (x : α) : let mem : Mem α := [⟨true, List.replicate 16 (.f x)⟩]
    Init mem (0, 0) 16 ∧ Room mem (0, 0) 16 :=
  ⟨.replicate (by decide), .replicate (by decide)⟩

theorem C56_any_persp_move_far_rh_zo {mem : Mem α} {projP : Ptr} (deltaFar : α) (h_proj : Init mem projP 16) (r_proj : Room mem projP 16) :
    Safe mem [(projP, 16)] .void (C.glm_persp_move_far_rh_zo.run mem [projP.val, .f deltaFar]) :=
  safe_entry Lib.glm_persp_move_far_rh_zo_ok [.io projP 16, .f deltaFar] ⟨⟨initK_isF.mpr h_proj, r_proj, by decide⟩, trivial, trivial⟩ rfl
example (x : α) : let mem : Mem α := [⟨true, List.replicate 16 (.f x)⟩]
    Init mem (0, 0) 16 ∧ Room mem (0, 0) 16 :=
  ⟨.replicate (by decide), .replicate (by decide)⟩

theorem C56_any_persp_decomp_rh_zo {mem : Mem α} {projP nearZP farZP topP bottomP leftP rightP : Ptr} (h_proj : Init mem projP 16) (r_nearZ : Room mem nearZP 1) (r_farZ : Room mem farZP 1) (r_top : Room mem topP 1) (r_bottom : Room mem bottomP 1) (r_left : Room mem leftP 1) (r_right : Room mem rightP 1) :
    Safe mem [(nearZP, 1), (farZP, 1), (topP, 1), (bottomP, 1), (leftP, 1), (rightP, 1)] .void (C.glm_persp_decomp_rh_zo.run mem [projP.val, nearZP.val, farZP.val, topP.val, bottomP.val, leftP.val, rightP.val]) :=
  safe_entry Lib.glm_persp_decomp_rh_zo_ok [.inp projP 16, .out nearZP 1, .out farZP 1, .out topP 1, .out bottomP 1, .out leftP 1, .out rightP 1] ⟨⟨initK_isF.mpr h_proj, by decide⟩, ⟨r_nearZ, by decide⟩, ⟨r_farZ, by decide⟩, ⟨r_top, by decide⟩, ⟨r_bottom, by decide⟩, ⟨r_left, by decide⟩, ⟨r_right, by decide⟩, trivial⟩ rfl
example (x : α) : let mem : Mem α := [⟨true, List.replicate 16 (.f x)⟩]
    Init mem (0, 0) 16 ∧ Room mem (0, 1) 1 ∧ Room mem (0, 2) 1 ∧ Room mem (0, 3) 1 ∧ Room mem (0, 4) 1 ∧ Room mem (0, 5) 1 ∧ Room mem (0, 6) 1 :=
  ⟨.replicate (by decide), .replicate (by decide), .replicate (by decide), .replicate (by decide), .replicate (by decide), .replicate (by decide), .replicate (by decide)⟩

theorem C56_any_persp_decompv_rh_zo {mem : Mem α} {projP destP : Ptr} (h_proj : Init mem projP 16) (r_dest : Room mem destP 6) :
    Safe mem [(destP, 6)] .void (C.glm_persp_decompv_rh_zo.run mem [projP.val, destP.val]) :=
  safe_entry Lib.glm_persp_decompv_rh_zo_ok [.inp projP 16, .out destP 6] ⟨⟨initK_isF.mpr h_proj, by decide⟩, ⟨r_dest, by decide⟩, trivial⟩ rfl
example (x : α) : let mem : Mem α := [⟨true, List.replicate 16 (.f x)⟩]
    Init mem (0, 0) 16 ∧ Room mem (0, 1) 6 :=
  ⟨.replicate (by decide), .replicate (by decide)⟩

theorem C56_any_persp_decomp_x_rh_zo {mem : Mem α} {projP leftP rightP : Ptr} (h_proj : Init mem projP 16) (r_left : Room mem leftP 1) (r_right : Room mem rightP 1) :
    Safe mem [(leftP, 1), (rightP, 1)] .void (C.glm_persp_decomp_x_rh_zo.run mem [projP.val, leftP.val, rightP.val]) :=
  safe_entry Lib.glm_persp_decomp_x_rh_zo_ok [.inp projP 16, .out leftP 1, .out rightP 1] ⟨⟨initK_isF.mpr h_proj, by decide⟩, ⟨r_left, by decide⟩, ⟨r_right, by decide⟩, trivial⟩ rfl
example (x : α) : let mem : Mem α := [⟨true, List.replicate 16 (.f x)⟩]
    Init mem (0, 0) 16 ∧ Room mem (0, 1) 1 ∧ Room mem (0, 2) 1 :=
  ⟨.replicate (by decide), .replicate (by decide), .replicate (by decide)⟩

theorem C56_any_persp_decomp_y_rh_zo {mem : Mem α} {projP topP bottomP : Ptr} (h_proj : Init mem projP 16) (r_top : Room mem topP 1) (r_bottom : Room mem bottomP 1) :
    Safe mem [(topP, 1), (bottomP, 1)] .void (C.glm_persp_decomp_y_rh_zo.run mem [projP.val, topP.val, bottomP.val]) :=
  safe_entry Lib.glm_persp_decomp_y_rh_zo_ok [.inp projP 16, .out topP 1, .out bottomP 1] ⟨⟨initK_isF.mpr h_proj, by decide⟩, ⟨r_top, by decide⟩, ⟨r_bottom, by decide⟩, trivial⟩ rfl
example (x : α) : let mem : Mem α := [⟨true, List.replicate 16 (.f x)⟩]
    Init mem (0, 0) 16 ∧ Room mem (0, 1) 1 ∧ Room mem (0, 2) 1 :=
  ⟨.replicate (by decide), .replicate (by decide), .replicate (by decide)⟩

theorem C56_any_persp_decomp_z_rh_zo {mem : Mem α} {projP nearZP farZP : Ptr} (h_proj : Init mem projP 16) (r_nearZ : Room mem nearZP 1) (r_farZ : Room mem farZP 1) :
    Safe mem [(nearZP, 1), (farZP, 1)] .void (C.glm_persp_decomp_z_rh_zo.run mem [projP.val, nearZP.val, farZP.val]) :=
  safe_entry Lib.glm_persp_decomp_z_rh_zo_ok [.inp projP 16, .out nearZP 1, .out farZP 1] ⟨⟨initK_isF.mpr h_proj, by decide⟩, ⟨r_nearZ, by decide⟩, ⟨r_farZ, by decide⟩, trivial⟩ rfl
example (x : α) : let mem : Mem α := [⟨true, List.replicate 16 (.f x)⟩]
    Init mem (0, 0) 16 ∧ Room mem (0, 1) 1 ∧ Room mem (0, 2) 1 :=
  ⟨.replicate (by decide), .replicate (by decide), .replicate (by decide)⟩

theorem C56_any_persp_decomp_far_rh_zo {mem : Mem α} {projP farZP : Ptr} (h_proj : Init mem projP 16) (r_farZ : Room mem farZP 1) :
    Safe mem [(farZP, 1)] .void (C.glm_persp_decomp_far_rh_zo.run mem [projP.val, farZP.val]) :=
  safe_entry Lib.glm_persp_decomp_far_rh_zo_ok [.inp projP 16, .out farZP 1] ⟨⟨initK_isF.mpr h_proj, by decide⟩, ⟨r_farZ, by decide⟩, trivial⟩ rfl
example (x : α) : let mem : Mem α := [⟨true, List.replicate 16 (.f x)⟩]
    Init mem (0, 0) 16 ∧ Room mem (0, 1) 1 :=
  ⟨.replicate (by decide), .replicate (by decide)⟩

theorem C56_any_persp_decomp_near_rh_zo {mem : Mem α} {projP nearZP : Ptr} (h_proj : Init mem projP 16) (r_nearZ : Room mem nearZP 1) :
    Safe mem [(nearZP, 1)] .void (C.glm_persp_decomp_near_rh_zo.run mem [projP.val, nearZP.val]) :=
  safe_entry Lib.glm_persp_decomp_near_rh_zo_ok [.inp projP 16, .out nearZP 1] ⟨⟨initK_isF.mpr h_proj, by decide⟩, ⟨r_nearZ, by decide⟩, trivial⟩ rfl
example (x : α) : let mem : Mem α := [⟨true, List.replicate 16 (.f x)⟩]
    Init mem (0, 0) 16 ∧ Room mem (0, 1) 1 :=
  ⟨.replicate (by decide), .replicate (by decide)⟩

theorem C56_any_persp_sizes_rh_zo {mem : Mem α} {projP destP : Ptr} (fovy : α) (h_proj : Init mem projP 16) (r_dest : Room mem destP 4) :
    Safe mem [(destP, 4)] .void (C.glm_persp_sizes_rh_zo.run mem [projP.val, .f fovy, destP.val]) :=
  safe_entry Lib.glm_persp_sizes_rh_zo_ok [.inp projP 16, .f fovy, .out destP 4] ⟨⟨initK_isF.mpr h_proj, by decide⟩, trivial, ⟨r_dest, by decide⟩, trivial⟩ rfl
example (x : α) : let mem : Mem α := [⟨true, List.replicate 16 (.f x)⟩]
    Init mem (0, 0) 16 ∧ Room mem (0, 1) 4 :=
  ⟨.replicate (by decide), .replicate (by decide)⟩

theorem C56_any_persp_fovy_rh_zo {mem : Mem α} {projP : Ptr} (h_proj : Init mem projP 16) :
    Safe mem [] .float (C.glm_persp_fovy_rh_zo.run mem [projP.val]) :=
  safe_entry Lib.glm_persp_fovy_rh_zo_ok [.inp projP 16] ⟨⟨initK_isF.mpr h_proj, by decide⟩, trivial⟩ rfl
example (x : α) : let mem : Mem α := [⟨true, List.replicate 16 (.f x)⟩]
    Init mem (0, 0) 16 :=
  .replicate (by decide)

theorem C56_any_persp_aspect_rh_zo {mem : Mem α} {projP : Ptr} (h_proj : Init mem projP 16) :
    Safe mem [] .float (C.glm_persp_aspect_rh_zo.run mem [projP.val]) :=
  safe_entry Lib.glm_persp_aspect_rh_zo_ok [.inp projP 16] ⟨⟨initK_isF.mpr h_proj, by decide⟩, trivial⟩ rfl
example (x : α) : let mem : Mem α := [⟨true, List.replicate 16 (.f x)⟩]
    Init mem (0, 0) 16 :=
  .replicate (by decide)

/-! ## include/cglm/clipspace/ortho_rh_no.h -/

theorem C56_any_ortho_rh_no {mem : Mem α} {destP : Ptr} (left : α) (right : α) (bottom : α) (top : α) (nearZ : α) (farZ : α) (r_dest : Room mem destP 16) :
    Safe mem [(destP, 16)] .void (C.glm_ortho_rh_no.run mem [.f left, .f right, .f bottom, .f top, .f nearZ, .f farZ, destP.val]) :=
  safe_entry Lib.glm_ortho_rh_no_ok [.f left, .f right, .f bottom, .f top, .f nearZ, .f farZ, .out destP 16] ⟨trivial, trivial, trivial, trivial, trivial, trivial, ⟨r_dest, by decide⟩, trivial⟩ rfl
example (x : α) : let mem : Mem α := [⟨true, List.replicate 16 (.f x)⟩]
    Room mem (0, 0) 16 :=
  .replicate (by decide)

theorem C56_any_ortho_aabb_rh_no {mem : Mem α} {boxP destP : Ptr} (h_box : Init mem boxP 6) (r_dest : Room mem destP 16) :
    Safe mem [(destP, 16)] .void (C.glm_ortho_aabb_rh_no.run mem [boxP.val, destP.val]) :=
  safe_entry Lib.glm_ortho_aabb_rh_no_ok [.inp boxP 6, .out destP 16] ⟨⟨initK_isF.mpr h_box, by decide⟩, ⟨r_dest, by decide⟩, trivial⟩ rfl
example (x : α) : let mem : Mem α := [⟨true, List.replicate 17 (.f x)⟩]
    Init mem (0, 0) 6 ∧ Room mem (0, 1) 16 :=
  ⟨.replicate (by decide), .replicate (by decide)⟩

theorem C56_any_ortho_aabb_p_rh_no {mem : Mem α} {boxP destP : Ptr} (padding : α) (h_box : Init mem boxP 6) (r_dest : Room mem destP 16) :
    Safe mem [(destP, 16)] .void (C.glm_ortho_aabb_p_rh_no.run mem [boxP.val, .f padding, destP.val]) :=
  safe_entry Lib.glm_ortho_aabb_p_rh_no_ok [.inp boxP 6, .f padding, .out destP 16] ⟨⟨initK_isF.mpr h_box, by decide⟩, trivial, ⟨r_dest, by decide⟩, trivial⟩ rfl
example (x : α) : let mem : Mem α := [⟨true, List.replicate 17 (.f x)⟩]
    Init mem (0, 0) 6 ∧ Room mem (0, 1) 16 :=
  ⟨.replicate (by decide), .replicate (by decide)⟩

theorem C56_any_ortho_aabb_pz_rh_no {mem : Mem α} {boxP destP : Ptr} (padding : α) (h_box : Init mem boxP 6) (r_dest : Room mem destP 16) :
    Safe mem [(destP, 16)] .void (C.glm_ortho_aabb_pz_rh_no.run mem [boxP.val, .f padding, destP.val]) :=
  safe_entry Lib.glm_ortho_aabb_pz_rh_no_ok [.inp boxP 6, .f padding, .out destP 16] ⟨⟨initK_isF.mpr h_box, by decide⟩, trivial, ⟨r_dest, by decide⟩, trivial⟩ rfl
example (x : α) : let mem : Mem α := [⟨true, List.replicate 17 (.f x)⟩]
    Init mem (0, 0) 6 ∧ Room mem (0, 1) 16 :=
  ⟨.replicate (by decide), .replicate (by decide)⟩

theorem C56_any_ortho_default_rh_no {mem : Mem α} {destP : Ptr} (aspect : α) (r_dest : Room mem destP 16) :
    Safe mem [(destP, 16)] .void (C.glm_ortho_default_rh_no.run mem [.f aspect, destP.val]) :=
  safe_entry Lib.glm_ortho_default_rh_no_ok [.f aspect, .out destP 16] ⟨trivial, ⟨r_dest, by decide⟩, trivial⟩ rfl
example (x : α) : let mem : Mem α := [⟨true, List.replicate 16 (.f x)⟩]
    Room mem (0, 0) 16 :=
  .replicate (by decide)

theorem C56_any_ortho_default_s_rh_no {mem : Mem α} {destP : Ptr} (aspect : α) (size : α) (r_dest : Room mem destP 16) :
    Safe mem [(destP, 16)] .void (C.glm_ortho_default_s_rh_no.run mem [.f aspect, .f size, destP.val]) :=
  safe_entry Lib.glm_ortho_default_s_rh_no_ok [.f aspect, .f size, .out destP 16] ⟨trivial, trivial, ⟨r_dest, by decide⟩, trivial⟩ rfl
example (x : α) : let mem : Mem α := [⟨true, List.replicate 16 (.f x)⟩]
    Room mem (0, 0) 16 :=
  .replicate (by decide)

/-! ## include/cglm/clipspace/persp_rh_no.h -/

theorem C56_any_frustum_rh_no {mem : Mem α} {destP : Ptr} (left : α) (right : α) (bottom : α) (top : α) (nearZ : α) (farZ : α) (r_dest : Room mem destP 16) :
    Safe mem [(destP, 16)] .void (C.glm_frustum_rh_no.run mem [.f left, .f right, .f bottom, .f top, .f nearZ, .f farZ, destP.val]) :=
  safe_entry Lib.glm_frustum_rh_no_ok [.f left, .f right, .f bottom, .f top, .f nearZ, .f farZ, .out destP 16] ⟨trivial, trivial, trivial, trivial, trivial, trivial, ⟨r_dest, by decide⟩, trivial⟩ rfl
example (x : α) : let mem : Mem α := [⟨true, List.replicate 16 (.f x)⟩]
    Room mem (0, 0) 16 :=
  .replicate (by decide)

theorem C56_any_perspective_rh_no {mem : Mem α} {destP : Ptr} (fovy : α) (aspect : α) (nearZ : α) (farZ : α) (r_dest : Room mem destP 16) :
    Safe mem [(destP, 16)] .void (C.glm_perspective_rh_no.run mem [.f fovy, .f aspect, .f nearZ, .f farZ, destP.val]) :=
  safe_entry Lib.glm_perspective_rh_no_ok [.f fovy, .f aspect, .f nearZ, .f farZ, .out destP 16] ⟨trivial, trivial, trivial, trivial, ⟨r_dest, by decide⟩, trivial⟩ rfl
example (x : α) : let mem : Mem α := [⟨true, List.replicate 16 (.f x)⟩]
    Room mem (0, 0) 16 :=
  .replicate (by decide)

theorem C56_any_perspective_default_rh_no {mem : Mem α} {destP : Ptr} (aspect : α) (r_dest : Room mem destP 16) :
    Safe mem [(destP, 16)] .void (C.glm_perspective_default_rh_no.run mem [.f aspect, destP.val]) :=
  safe_entry Lib.glm_perspective_default_rh_no_ok [.f aspect, .out destP 16] ⟨trivial, ⟨r_dest, by decide⟩, trivial⟩ rfl
example (x : α) : let mem : Mem α := [⟨true, List.replicate 16 (.f x)⟩]
    Room mem (0, 0) 16 :=
  .replicate (by decide)

theorem C56_any_perspective_resize_rh_no {mem : Mem α} {projP : Ptr} (aspect : α) (h_proj : Init mem projP 16) (r_proj : Room mem projP 16) :
    Safe mem [(projP, 16)] .void (C.glm_perspective_resize_rh_no.run mem [.f aspect, projP.val]) :=
  safe_entry Lib.glm_perspective_resize_rh_no_ok [.f aspect, .io projP 16] ⟨trivial, ⟨initK_isF.mpr h_proj, r_proj, by decide⟩, trivial⟩ rfl
example (x : α) : let mem : Mem α := [⟨true, List.replicate 16 (.f x)⟩]
    Init mem (0, 0) 16 ∧ Room mem (0, 0) 16 :=
  ⟨.replicate (by decide), .replicate (by decide)⟩

theorem C56_any_persp_move_far_rh_no {mem : Mem α} {projP : Ptr} (deltaFar : α) (h_proj : Init mem projP 16) (r_proj : Room mem projP 16) :
    Safe mem [(projP, 16)] .void (C.glm_persp_move_far_rh_no.run mem [projP.val, .f deltaFar]) :=
  safe_entry Lib.glm_persp_move_far_rh_no_ok [.io projP 16, .f deltaFar] ⟨⟨initK_isF.mpr h_proj, r_proj, by decide⟩, trivial, trivial⟩ rfl
example (x : α) : let mem : Mem α := [⟨true, List.replicate 16 (.f x)⟩]
    Init mem (0, 0) 16 ∧ Room mem (0, 0) 16 :=
  ⟨.replicate (by decide), .replicate (by decide)⟩

theorem C56_any_persp_decomp_rh_no {mem : Mem α} {projP nearZP farZP topP bottomP leftP rightP : Ptr} (h_proj : Init mem projP 16) (r_nearZ : Room mem nearZP 1) (r_farZ : Room mem farZP 1) (r_top : Room mem topP 1) (r_bottom : Room mem bottomP 1) (r_left : Room mem leftP 1) (r_right : Room mem rightP 1) :
    Safe mem [(nearZP, 1), (farZP, 1), (topP, 1), (bottomP, 1), (leftP, 1), (rightP, 1)] .void (C.glm_persp_decomp_rh_no.run mem [projP.val, nearZP.val, farZP.val, topP.val, bottomP.val, leftP.val, rightP.val]) :=
  safe_entry Lib.glm_persp_decomp_rh_no_ok [.inp projP 16, .out nearZP 1, .out farZP 1, .out topP 1, .out bottomP 1, .out leftP 1, .out rightP 1] ⟨⟨initK_isF.mpr h_proj, by decide⟩, ⟨r_nearZ, by decide⟩, ⟨r_farZ, by decide⟩, ⟨r_top, by decide⟩, ⟨r_bottom, by decide⟩, ⟨r_left, by decide⟩, ⟨r_right, by decide⟩, trivial⟩ rfl
example (x : α) : let mem : Mem α := [⟨true, List.replicate 16 (.f x)⟩]
    Init mem (0, 0) 16 ∧ Room mem (0, 1) 1 ∧ Room mem (0, 2) 1 ∧ Room mem (0, 3) 1 ∧ Room mem (0, 4) 1 ∧ Room mem (0, 5) 1 ∧ Room mem (0, 6) 1 :=
  ⟨.replicate (by decide), .replicate (by decide), .replicate (by decide), .replicate (by decide), .replicate (by decide), .replicate (by decide), .replicate (by decide)⟩

theorem C56_any_persp_decompv_rh_no {mem : Mem α} {projP destP : Ptr} (h_proj : Init mem projP 16) (r_dest : Room mem destP 6) :
    Safe mem [(destP, 6)] .void (C.glm_persp_decompv_rh_no.run mem [projP.val, destP.val]) :=
  safe_entry Lib.glm_persp_decompv_rh_no_ok [.inp projP 16, .out destP 6] ⟨⟨initK_isF.mpr h_proj, by decide⟩, ⟨r_dest, by decide⟩, trivial⟩ rfl
example (x : α) : let mem : Mem α := [⟨true, List.replicate 16 (.f x)⟩]
    Init mem (0, 0) 16 ∧ Room mem (0, 1) 6 :=
  ⟨.replicate (by decide), .replicate (by decide)⟩

theorem C56_any_persp_decomp_x_rh_no {mem : Mem α} {projP leftP rightP : Ptr} (h_proj : Init mem projP 16) (r_left : Room mem leftP 1) (r_right : Room mem rightP 1) :
    Safe mem [(leftP, 1), (rightP, 1)] .void (C.glm_persp_decomp_x_rh_no.run mem [projP.val, leftP.val, rightP.val]) :=
  safe_entry Lib.glm_persp_decomp_x_rh_no_ok [.inp projP 16, .out leftP 1, .out rightP 1] ⟨⟨initK_isF.mpr h_proj, by decide⟩, ⟨r_left, by decide⟩, ⟨r_right, by decide⟩, trivial⟩ rfl
example (x : α) : let mem : Mem α := [⟨true, List.replicate 16 (.f x)⟩]
    Init mem (0, 0) 16 ∧ Room mem (0, 1) 1 ∧ Room mem (0, 2) 1 :=
  ⟨.replicate (by decide), .replicate (by decide), .replicate (by decide)⟩

theorem C56_any_persp_decomp_y_rh_no {mem : Mem α} {projP topP bottomP : Ptr} (h_proj : Init mem projP 16) (r_top : Room mem topP 1) (r_bottom : Room mem bottomP 1) :
    Safe mem [(topP, 1), (bottomP, 1)] .void (C.glm_persp_decomp_y_rh_no.run mem [projP.val, topP.val, bottomP.val]) :=
  safe_entry Lib.glm_persp_decomp_y_rh_no_ok [.inp projP 16, .out topP 1, .out bottomP 1] ⟨⟨initK_isF.mpr h_proj, by decide⟩, ⟨r_top, by decide⟩, ⟨r_bottom, by decide⟩, trivial⟩ rfl
example (x : α) : let mem : Mem α := [⟨true, List.replicate 16 (.f x)⟩]
    Init mem (0, 0) 16 ∧ Room mem (0, 1) 1 ∧ Room mem (0, 2) 1 :=
  ⟨.replicate (by decide), .replicate (by decide), .replicate (by decide)⟩

theorem C56_any_persp_decomp_z_rh_no {mem : Mem α} {projP nearZP farZP : Ptr} (h_proj : Init mem projP 16) (r_nearZ : Room mem nearZP 1) (r_farZ : Room mem farZP 1) :
    Safe mem [(nearZP, 1), (farZP, 1)] .void (C.glm_persp_decomp_z_rh_no.run mem [projP.val, nearZP.val, farZP.val]) :=
  safe_entry Lib.glm_persp_decomp_z_rh_no_ok [.inp projP 16, .out nearZP 1, .out farZP 1] ⟨⟨initK_isF.mpr h_proj, by decide⟩, ⟨r_nearZ, by decide⟩, ⟨r_farZ, by decide⟩, trivial⟩ rfl
example (x : α) : let mem : Mem α := [⟨true, List.replicate 16 (.f x)⟩]
    Init mem (0, 0) 16 ∧ Room mem (0, 1) 1 ∧ Room mem (0, 2) 1 :=
  ⟨.replicate (by decide), .replicate (by decide), .replicate (by decide)⟩

theorem C56_any_persp_decomp_far_rh_no {mem : Mem α} {projP farZP : Ptr} (h_proj : Init mem projP 16) (r_farZ : Room mem farZP 1) :
    Safe mem [(farZP, 1)] .void (C.glm_persp_decomp_far_rh_no.run mem [projP.val, farZP.val]) :=
  safe_entry Lib.glm_persp_decomp_far_rh_no_ok [.inp projP 16, .out farZP 1] ⟨⟨initK_isF.mpr h_proj, by decide⟩, ⟨r_farZ, by decide⟩, trivial⟩ rfl
example (x : α) : let mem : Mem α := [⟨true, List.replicate 16 (.f x)⟩]
    Init mem (0, 0) 16 ∧ Room mem (0, 1) 1 :=
  ⟨.replicate (by decide), .replicate (by decide)⟩

theorem C56_any_persp_decomp_near_rh_no {mem : Mem α} {projP nearZP : Ptr} (h_proj : Init mem projP 16) (r_nearZ : Room mem nearZP 1) :
    Safe mem [(nearZP, 1)] .void (C.glm_persp_decomp_near_rh_no.run mem [projP.val, nearZP.val]) :=
  safe_entry Lib.glm_persp_decomp_near_rh_no_ok [.inp projP 16, .out nearZP 1] ⟨⟨initK_isF.mpr h_proj, by decide⟩, ⟨r_nearZ, by decide⟩, trivial⟩ rfl
example (x : α) : let mem : Mem α := [⟨true, List.replicate 16 (.f x)⟩]
    Init mem (0, 0) 16 ∧ Room mem (0, 1) 1 :=
  ⟨.replicate (by decide), .replicate (by decide)⟩

theorem C56_any_persp_sizes_rh_no {mem : Mem α} {projP destP : Ptr} (fovy : α) (h_proj : Init mem projP 16) (r_dest : Room mem destP 4) :
    Safe mem [(destP, 4)] .void (C.glm_persp_sizes_rh_no.run mem [projP.val, .f fovy, destP.val]) :=
  safe_entry Lib.glm_persp_sizes_rh_no_ok [.inp projP 16, .f fovy, .out destP 4] ⟨⟨initK_isF.mpr h_proj, by decide⟩, trivial, ⟨r_dest, by decide⟩, trivial⟩ rfl
example (x : α) : let mem : Mem α := [⟨true, List.replicate 16 (.f x)⟩]
    Init mem (0, 0) 16 ∧ Room mem (0, 1) 4 :=
  ⟨.replicate (by decide), .replicate (by decide)⟩

theorem C56_any_persp_fovy_rh_no {mem : Mem α} {projP : Ptr} (h_proj : Init mem projP 16) :
    Safe mem [] .float (C.glm_persp_fovy_rh_no.run mem [projP.val]) :=
  safe_entry Lib.glm_persp_fovy_rh_no_ok [.inp projP 16] ⟨⟨initK_isF.mpr h_proj, by decide⟩, trivial⟩ rfl
example (x : α) : let mem : Mem α := [⟨true, List.replicate 16 (.f x)⟩]
    Init mem (0, 0) 16 :=
  .replicate (by decide)

theorem C56_any_persp_aspect_rh_no {mem : Mem α} {projP : Ptr} (h_proj : Init mem projP 16) :
    Safe mem [] .float (C.glm_persp_aspect_rh_no.run mem [projP.val]) :=
  safe_entry Lib.glm_persp_aspect_rh_no_ok [.inp projP 16] ⟨⟨initK_isF.mpr h_proj, by decide⟩, trivial⟩ rfl
example (x : α) : let mem : Mem α := [⟨true, List.replicate 16 (.f x)⟩]
    Init mem (0, 0) 16 :=
  .replicate (by decide)

/-! ## include/cglm/clipspace/view_lh.h -/

theorem C56_any_lookat_lh {mem : Mem α} {eyeP centerP upP destP : Ptr} (h_eye : Init mem eyeP 3) (h_center : Init mem centerP 3) (h_up : Init mem upP 3) (r_dest : Room mem destP 16) :
    Safe mem [(destP, 16)] .void (C.glm_lookat_lh.run mem [eyeP.val, centerP.val, upP.val, destP.val]) :=
  safe_entry Lib.glm_lookat_lh_ok [.inp eyeP 3, .inp centerP 3, .inp upP 3, .out destP 16] ⟨⟨initK_isF.mpr h_eye, by decide⟩, ⟨initK_isF.mpr h_center, by decide⟩, ⟨initK_isF.mpr h_up, by decide⟩, ⟨r_dest, by decide⟩, trivial⟩ rfl
example (x : α) : let mem : Mem α := [⟨true, List.replicate 19 (.f x)⟩]
    Init mem (0, 0) 3 ∧ Init mem (0, 1) 3 ∧ Init mem (0, 2) 3 ∧ Room mem (0, 3) 16 :=
  ⟨.replicate (by decide), .replicate (by decide), .replicate (by decide), .replicate (by decide)⟩

theorem C56_any_look_lh {mem : Mem α} {eyeP dirP upP destP : Ptr} (h_eye : Init mem eyeP 3) (h_dir : Init mem dirP 3) (h_up : Init mem upP 3) (r_dest : Room mem destP 16) :
    Safe mem [(destP, 16)] .void (C.glm_look_lh.run mem [eyeP.val, dirP.val, upP.val, destP.val]) :=
  safe_entry Lib.glm_look_lh_ok [.inp eyeP 3, .inp dirP 3, .inp upP 3, .out destP 16] ⟨⟨initK_isF.mpr h_eye, by decide⟩, ⟨initK_isF.mpr h_dir, by decide⟩, ⟨initK_isF.mpr h_up, by decide⟩, ⟨r_dest, by decide⟩, trivial⟩ rfl
example (x : α) : let mem : Mem α := [⟨true, List.replicate 19 (.f x)⟩]
    Init mem (0, 0) 3 ∧ Init mem (0, 1) 3 ∧ Init mem (0, 2) 3 ∧ Room mem (0, 3) 16 :=
  ⟨.replicate (by decide), .replicate (by decide), .replicate (by decide), .replicate (by decide)⟩

theorem C56_any_look_anyup_lh {mem : Mem α} {eyeP dirP destP : Ptr} (h_eye : Init mem eyeP 3) (h_dir : Init mem dirP 3) (r_dest : Room mem destP 16) :
    Safe mem [(destP, 16)] .void (C.glm_look_anyup_lh.run mem [eyeP.val, dirP.val, destP.val]) :=
  safe_entry Lib.glm_look_anyup_lh_ok [.inp eyeP 3, .inp dirP 3, .out destP 16] ⟨⟨initK_isF.mpr h_eye, by decide⟩, ⟨initK_isF.mpr h_dir, by decide⟩, ⟨r_dest, by decide⟩, trivial⟩ rfl
example (x : α) : let mem : Mem α := [⟨true, List.replicate 18 (.f x)⟩]
    Init mem (0, 0) 3 ∧ Init mem (0, 1) 3 ∧ Room mem (0, 2) 16 :=
  ⟨.replicate (by decide), .replicate (by decide), .replicate (by decide)⟩

/-! ## include/cglm/clipspace/view_lh_zo.h -/

theorem C56_any_lookat_lh_zo {mem : Mem α} {eyeP centerP upP destP : Ptr} (h_eye : Init mem eyeP 3) (h_center : Init mem centerP 3) (h_up : Init mem upP 3) (r_dest : Room mem destP 16) :
    Safe mem [(destP, 16)] .void (C.glm_lookat_lh_zo.run mem [eyeP.val, centerP.val, upP.val, destP.val]) :=
  safe_entry Lib.glm_lookat_lh_zo_ok [.inp eyeP 3, .inp centerP 3, .inp upP 3, .out destP 16] ⟨⟨initK_isF.mpr h_eye, by decide⟩, ⟨initK_isF.mpr h_center, by decide⟩, ⟨initK_isF.mpr h_up, by decide⟩, ⟨r_dest, by decide⟩, trivial⟩ rfl
example (x : α) : let mem : Mem α := [⟨true, List.replicate 19 (.f x)⟩]
    Init mem (0, 0) 3 ∧ Init mem (0, 1) 3 ∧ Init mem (0, 2) 3 ∧ Room mem (0, 3) 16 :=
  ⟨.replicate (by decide), .replicate (by decide), .replicate (by decide), .replicate (by decide)⟩

theorem C56_any_look_lh_zo {mem : Mem α} {eyeP dirP upP destP : Ptr} (h_eye : Init mem eyeP 3) (h_dir : Init mem dirP 3) (h_up : Init mem upP 3) (r_dest : Room mem destP 16) :
    Safe mem [(destP, 16)] .void (C.glm_look_lh_zo.run mem [eyeP.val, dirP.val, upP.val, destP.val]) :=
  safe_entry Lib.glm_look_lh_zo_ok [.inp eyeP 3, .inp dirP 3, .inp upP 3, .out destP 16] ⟨⟨initK_isF.mpr h_eye, by decide⟩, ⟨initK_isF.mpr h_dir, by decide⟩, ⟨initK_isF.mpr h_up, by decide⟩, ⟨r_dest, by decide⟩, trivial⟩ rfl
example (x : α) : let mem : Mem α := [⟨true, List.replicate 19 (.f x)⟩]
    Init mem (0, 0) 3 ∧ Init mem (0, 1) 3 ∧ Init mem (0, 2) 3 ∧ Room mem (0, 3) 16 :=
  ⟨.replicate (by decide), .replicate (by decide), .replicate (by decide), .replicate (by decide)⟩

theorem C56_any_look_anyup_lh_zo {mem : Mem α} {eyeP dirP destP : Ptr} (h_eye : Init mem eyeP 3) (h_dir : Init mem dirP 3) (r_dest : Room mem destP 16) :
    Safe mem [(destP, 16)] .void (C.glm_look_anyup_lh_zo.run mem [eyeP.val, dirP.val, destP.val]) :=
  safe_entry Lib.glm_look_anyup_lh_zo_ok [.inp eyeP 3, .inp dirP 3, .out destP 16] ⟨⟨initK_isF.mpr h_eye, by decide⟩, ⟨initK_isF.mpr h_dir, by decide⟩, ⟨r_dest, by decide⟩, trivial⟩ rfl
example (x : α) : let mem : Mem α := [⟨true, List.replicate 18 (.f x)⟩]
    Init mem (0, 0) 3 ∧ Init mem (0, 1) 3 ∧ Room mem (0, 2) 16 :=
  ⟨.replicate (by decide), .replicate (by decide), .replicate (by decide)⟩

/-! ## include/cglm/clipspace/view_lh_no.h -/

theorem C56_any_lookat_lh_no {mem : Mem α} {eyeP centerP upP destP : Ptr} (h_eye : Init mem eyeP 3) (h_center : Init mem centerP 3) (h_up : Init mem upP 3) (r_dest : Room mem destP 16) :
    Safe mem [(destP, 16)] .void (C.glm_lookat_lh_no.run mem [eyeP.val, centerP.val, upP.val, destP.val]) :=
  safe_entry Lib.glm_lookat_lh_no_ok [.inp eyeP 3, .inp centerP 3, .inp upP 3, .out destP 16] ⟨⟨initK_isF.mpr h_eye, by decide⟩, ⟨initK_isF.mpr h_center, by decide⟩, ⟨initK_isF.mpr h_up, by decide⟩, ⟨r_dest, by decide⟩, trivial⟩ rfl
example (x : α) : let mem : Mem α := [⟨true, List.replicate 19 (.f x)⟩]
    Init mem (0, 0) 3 ∧ Init mem (0, 1) 3 ∧ Init mem (0, 2) 3 ∧ Room mem (0, 3) 16 :=
  ⟨.replicate (by decide), .replicate (by decide), .replicate (by decide), .replicate (by decide)⟩

theorem C56_any_look_lh_no {mem : Mem α} {eyeP dirP upP destP : Ptr} (h_eye : Init mem eyeP 3) (h_dir : Init mem dirP 3) (h_up : Init mem upP 3) (r_dest : Room mem destP 16) :
    Safe mem [(destP, 16)] .void (C.glm_look_lh_no.run mem [eyeP.val, dirP.val, upP.val, destP.val]) :=
  safe_entry Lib.glm_look_lh_no_ok [.inp eyeP 3, .inp dirP 3, .inp upP 3, .out destP 16] ⟨⟨initK_isF.mpr h_eye, by decide⟩, ⟨initK_isF.mpr h_dir, by decide⟩, ⟨initK_isF.mpr h_up, by decide⟩, ⟨r_dest, by decide⟩, trivial⟩ rfl
example (x : α) : let mem : Mem α := [⟨true, List.replicate 19 (.f x)⟩]
    Init mem (0, 0) 3 ∧ Init mem (0, 1) 3 ∧ Init mem (0, 2) 3 ∧ Room mem (0, 3) 16 :=
  ⟨.replicate (by decide), .replicate (by decide), .replicate (by decide), .replicate (by decide)⟩

theorem C56_any_look_anyup_lh_no {mem : Mem α} {eyeP dirP destP : Ptr} (h_eye : Init mem eyeP 3) (h_dir : Init mem dirP 3) (r_dest : Room mem destP 16) :
    Safe mem [(destP, 16)] .void (C.glm_look_anyup_lh_no.run mem [eyeP.val, dirP.val, destP.val]) :=
  safe_entry Lib.glm_look_anyup_lh_no_ok [.inp eyeP 3, .inp dirP 3, .out destP 16] ⟨⟨initK_isF.mpr h_eye, by decide⟩, ⟨initK_isF.mpr h_dir, by decide⟩, ⟨r_dest, by decide⟩, trivial⟩ rfl
example (x : α) : let mem : Mem α := [⟨true, List.replicate 18 (.f x)⟩]
    Init mem (0, 0) 3 ∧ Init mem (0, 1) 3 ∧ Room mem (0, 2) 16 :=
  ⟨.replicate (by decide), .replicate (by decide), .replicate (by decide)⟩

/-! ## include/cglm/clipspace/view_rh.h -/

theorem C56_any_lookat_rh {mem : Mem α} {eyeP centerP upP destP : Ptr} (h_eye : Init mem eyeP 3) (h_center : Init mem centerP 3) (h_up : Init mem upP 3) (r_dest : Room mem destP 16) :
    Safe mem [(destP, 16)] .void (C.glm_lookat_rh.run mem [eyeP.val, centerP.val, upP.val, destP.val]) :=
  safe_entry Lib.glm_lookat_rh_ok [.inp eyeP 3, .inp centerP 3, .inp upP 3, .out destP 16] ⟨⟨initK_isF.mpr h_eye, by decide⟩, ⟨initK_isF.mpr h_center, by decide⟩, ⟨initK_isF.mpr h_up, by decide⟩, ⟨r_dest, by decide⟩, trivial⟩ rfl
example (x : α) : let mem : Mem α := [⟨true, List.replicate 19 (.f x)⟩]
    Init mem (0, 0) 3 ∧ Init mem (0, 1) 3 ∧ Init mem (0, 2) 3 ∧ Room mem (0, 3) 16 :=
  ⟨.replicate (by decide), .replicate (by decide), .replicate (by decide), .replicate (by decide)⟩

theorem C56_any_look_rh {mem : Mem α} {eyeP dirP upP destP : Ptr} (h_eye : Init mem eyeP 3) (h_dir : Init mem dirP 3) (h_up : Init mem upP 3) (r_dest : Room mem destP 16) :
    Safe mem [(destP, 16)] .void (C.glm_look_rh.run mem [eyeP.val, dirP.val, upP.val, destP.val]) :=
  safe_entry Lib.glm_look_rh_ok [.inp eyeP 3, .inp dirP 3, .inp upP 3, .out destP 16] ⟨⟨initK_isF.mpr h_eye, by decide⟩, ⟨initK_isF.mpr h_dir, by decide⟩, ⟨initK_isF.mpr h_up, by decide⟩, ⟨r_dest, by decide⟩, trivial⟩ rfl
example (x : α) : let mem : Mem α := [⟨true, List.replicate 19 (.f x)⟩]
    Init mem (0, 0) 3 ∧ Init mem (0, 1) 3 ∧ Init mem (0, 2) 3 ∧ Room mem (0, 3) 16 :=
  ⟨.replicate (by decide), .replicate (by decide), .replicate (by decide), .replicate (by decide)⟩

theorem C56_any_look_anyup_rh {mem : Mem α} {eyeP dirP destP : Ptr} (h_eye : Init mem eyeP 3) (h_dir : Init mem dirP 3) (r_dest : Room mem destP 16) :
    Safe mem [(destP, 16)] .void (C.glm_look_anyup_rh.run mem [eyeP.val, dirP.val, destP.val]) :=
  safe_entry Lib.glm_look_anyup_rh_ok [.inp eyeP 3, .inp dirP 3, .out destP 16] ⟨⟨initK_isF.mpr h_eye, by decide⟩, ⟨initK_isF.mpr h_dir, by decide⟩, ⟨r_dest, by decide⟩, trivial⟩ rfl
example (x : α) : let mem : Mem α := [⟨true, List.replicate 18 (.f x)⟩]
    Init mem (0, 0) 3 ∧ Init mem (0, 1) 3 ∧ Room mem (0, 2) 16 :=
  ⟨.replicate (by decide), .replicate (by decide), .replicate (by decide)⟩

/-! ## include/cglm/clipspace/view_rh_zo.h -/

theorem C56_any_lookat_rh_zo {mem : Mem α} {eyeP centerP upP destP : Ptr} (h_eye : Init mem eyeP 3) (h_center : Init mem centerP 3) (h_up : Init mem upP 3) (r_dest : Room mem destP 16) :
    Safe mem [(destP, 16)] .void (C.glm_lookat_rh_zo.run mem [eyeP.val, centerP.val, upP.val, destP.val]) :=
  safe_entry Lib.glm_lookat_rh_zo_ok [.inp eyeP 3, .inp centerP 3, .inp upP 3, .out destP 16] ⟨⟨initK_isF.mpr h_eye, by decide⟩, ⟨initK_isF.mpr h_center, by decide⟩, ⟨initK_isF.mpr h_up, by decide⟩, ⟨r_dest, by decide⟩, trivial⟩ rfl
example (x : α) : let mem : Mem α := [⟨true, List.replicate 19 (.f x)⟩]
    Init mem (0, 0) 3 ∧ Init mem (0, 1) 3 ∧ Init mem (0, 2) 3 ∧ Room mem (0, 3) 16 :=
  ⟨.replicate (by decide), .replicate (by decide), .replicate (by decide), .replicate (by decide)⟩

theorem C56_any_look_rh_zo {mem : Mem α} {eyeP dirP upP destP : Ptr} (h_eye : Init mem eyeP 3) (h_dir : Init mem dirP 3) (h_up : Init mem upP 3) (r_dest : Room mem destP 16) :
    Safe mem [(destP, 16)] .void (C.glm_look_rh_zo.run mem [eyeP.val, dirP.val, upP.val, destP.val]) :=
  safe_entry Lib.glm_look_rh_zo_ok [.inp eyeP 3, .inp dirP 3, .inp upP 3, .out destP 16] ⟨⟨initK_isF.mpr h_eye, by decide⟩, ⟨initK_isF.mpr h_dir, by decide⟩, ⟨initK_isF.mpr h_up, by decide⟩, ⟨r_dest, by decide⟩, trivial⟩ rfl
example (x : α) : let mem : Mem α := [⟨true, List.replicate 19 (.f x)⟩]
    Init mem (0, 0) 3 ∧ Init mem (0, 1) 3 ∧ Init mem (0, 2) 3 ∧ Room mem (0, 3) 16 :=
  ⟨.replicate (by decide), .replicate (by decide), .replicate (by decide), .replicate (by decide)⟩

theorem C56_any_look_anyup_rh_zo {mem : Mem α} {eyeP dirP destP : Ptr} (h_eye : Init mem eyeP 3) (h_dir : Init mem dirP 3) (r_dest : Room mem destP 16) :
    Safe mem [(destP, 16)] .void (C.glm_look_anyup_rh_zo.run mem [eyeP.val, dirP.val, destP.val]) :=
  safe_entry Lib.glm_look_anyup_rh_zo_ok [.inp eyeP 3, .inp dirP 3, .out destP 16] ⟨⟨initK_isF.mpr h_eye, by decide⟩, ⟨initK_isF.mpr h_dir, by decide⟩, ⟨r_dest, by decide⟩, trivial⟩ rfl
example (x : α) : let mem : Mem α := [⟨true, List.replicate 18 (.f x)⟩]
    Init mem (0, 0) 3 ∧ Init mem (0, 1) 3 ∧ Room mem (0, 2) 16 :=
  ⟨.replicate (by decide), .replicate (by decide), .replicate (by decide)⟩

/-! ## include/cglm/clipspace/view_rh_no.h -/

theorem C56_any_lookat_rh_no {mem : Mem α} {eyeP centerP upP destP : Ptr} (h_eye : Init mem eyeP 3) (h_center : Init mem centerP 3) (h_up : Init mem upP 3) (r_dest : Room mem destP 16) :
    Safe mem [(destP, 16)] .void (C.glm_lookat_rh_no.run mem [eyeP.val, centerP.val, upP.val, destP.val]) :=
  safe_entry Lib.glm_lookat_rh_no_ok [.inp eyeP 3, .inp centerP 3, .inp upP 3, .out destP 16] ⟨⟨initK_isF.mpr h_eye, by decide⟩, ⟨initK_isF.mpr h_center, by decide⟩, ⟨initK_isF.mpr h_up, by decide⟩, ⟨r_dest, by decide⟩, trivial⟩ rfl
example (x : α) : let mem : Mem α := [⟨true, List.replicate 19 (.f x)⟩]
    Init mem (0, 0) 3 ∧ Init mem (0, 1) 3 ∧ Init mem (0, 2) 3 ∧ Room mem (0, 3) 16 :=
  ⟨.replicate (by decide), .replicate (by decide), .replicate (by decide), .replicate (by decide)⟩

theorem C56_any_look_rh_no {mem : Mem α} {eyeP dirP upP destP : Ptr} (h_eye : Init mem eyeP 3) (h_dir : Init mem dirP 3) (h_up : Init mem upP 3) (r_dest : Room mem destP 16) :
    Safe mem [(destP, 16)] .void (C.glm_look_rh_no.run mem [eyeP.val, dirP.val, upP.val, destP.val]) :=
  safe_entry Lib.glm_look_rh_no_ok [.inp eyeP 3, .inp dirP 3, .inp upP 3, .out destP 16] ⟨⟨initK_isF.mpr h_eye, by decide⟩, ⟨initK_isF.mpr h_dir, by decide⟩, ⟨initK_isF.mpr h_up, by decide⟩, ⟨r_dest, by decide⟩, trivial⟩ rfl
example (x : α) : let mem : Mem α := [⟨true, List.replicate 19 (.f x)⟩]
    Init mem (0, 0) 3 ∧ Init mem (0, 1) 3 ∧ Init mem (0, 2) 3 ∧ Room mem (0, 3) 16 :=
  ⟨.replicate (by decide), .replicate (by decide), .replicate (by decide), .replicate (by decide)⟩

theorem C56_any_look_anyup_rh_no {mem : Mem α} {eyeP dirP destP : Ptr} (h_eye : Init mem eyeP 3) (h_dir : Init mem dirP 3) (r_dest : Room mem destP 16) :
    Safe mem [(destP, 16)] .void (C.glm_look_anyup_rh_no.run mem [eyeP.val, dirP.val, destP.val]) :=
  safe_entry Lib.glm_look_anyup_rh_no_ok [.inp eyeP 3, .inp dirP 3, .out destP 16] ⟨⟨initK_isF.mpr h_eye, by decide⟩, ⟨initK_isF.mpr h_dir, by decide⟩, ⟨r_dest, by decide⟩, trivial⟩ rfl
example (x : α) : let mem : Mem α := [⟨true, List.replicate 18 (.f x)⟩]
    Init mem (0, 0) 3 ∧ Init mem (0, 1) 3 ∧ Room mem (0, 2) 16 :=
  ⟨.replicate (by decide), .replicate (by decide), .replicate (by decide)⟩

/-! ## include/cglm/clipspace/project_zo.h -/

theorem C56_any_unprojecti_zo {mem : Mem α} {posP invMatP vpP destP : Ptr} (h_pos : Init mem posP 3) (h_invMat : Init mem invMatP 16) (h_vp : Init mem vpP 4) (r_dest : Room mem destP 3) :
    Safe mem [(destP, 3)] .void (C.glm_unprojecti_zo.run mem [posP.val, invMatP.val, vpP.val, destP.val]) :=
  safe_entry Lib.glm_unprojecti_zo_ok [.inp posP 3, .inp invMatP 16, .inp vpP 4, .out destP 3] ⟨⟨initK_isF.mpr h_pos, by decide⟩, ⟨initK_isF.mpr h_invMat, by decide⟩, ⟨initK_isF.mpr h_vp, by decide⟩, ⟨r_dest, by decide⟩, trivial⟩ rfl
example (x : α) : let mem : Mem α := [⟨true, List.replicate 17 (.f x)⟩]
    Init mem (0, 0) 3 ∧ Init mem (0, 1) 16 ∧ Init mem (0, 2) 4 ∧ Room mem (0, 3) 3 :=
  ⟨.replicate (by decide), .replicate (by decide), .replicate (by decide), .replicate (by decide)⟩

theorem C56_any_project_zo {mem : Mem α} {posP mP vpP destP : Ptr} (h_pos : Init mem posP 3) (h_m : Init mem mP 16) (h_vp : Init mem vpP 4) (r_dest : Room mem destP 3) :
    Safe mem [(destP, 3)] .void (C.glm_project_zo.run mem [posP.val, mP.val, vpP.val, destP.val]) :=
  safe_entry Lib.glm_project_zo_ok [.inp posP 3, .inp mP 16, .inp vpP 4, .out destP 3] ⟨⟨initK_isF.mpr h_pos, by decide⟩, ⟨initK_isF.mpr h_m, by decide⟩, ⟨initK_isF.mpr h_vp, by decide⟩, ⟨r_dest, by decide⟩, trivial⟩ rfl
example (x : α) : let mem : Mem α := [⟨true, List.replicate 17 (.f x)⟩]
    Init mem (0, 0) 3 ∧ Init mem (0, 1) 16 ∧ Init mem (0, 2) 4 ∧ Room mem (0, 3) 3 :=
  ⟨.replicate (by decide), .replicate (by decide), .replicate (by decide), .replicate (by decide)⟩

theorem C56_any_project_z_zo {mem : Mem α} {vP mP : Ptr} (h_v : Init mem vP 3) (h_m : Init mem mP 16) :
    Safe mem [] .float (C.glm_project_z_zo.run mem [vP.val, mP.val]) :=
  safe_entry Lib.glm_project_z_zo_ok [.inp vP 3, .inp mP 16] ⟨⟨initK_isF.mpr h_v, by decide⟩, ⟨initK_isF.mpr h_m, by decide⟩, trivial⟩ rfl
example (x : α) : let mem : Mem α := [⟨true, List.replicate 17 (.f x)⟩]
    Init mem (0, 0) 3 ∧ Init mem (0, 1) 16 :=
  ⟨.replicate (by decide), .replicate (by decide)⟩

/-! ## include/cglm/clipspace/project_no.h -/

theorem C56_any_unprojecti_no {mem : Mem α} {posP invMatP vpP destP : Ptr} (h_pos : Init mem posP 3) (h_invMat : Init mem invMatP 16) (h_vp : Init mem vpP 4) (r_dest : Room mem destP 3) :
    Safe mem [(destP, 3)] .void (C.glm_unprojecti_no.run mem [posP.val, invMatP.val, vpP.val, destP.val]) :=
  safe_entry Lib.glm_unprojecti_no_ok [.inp posP 3, .inp invMatP 16, .inp vpP 4, .out destP 3] ⟨⟨initK_isF.mpr h_pos, by decide⟩, ⟨initK_isF.mpr h_invMat, by decide⟩, ⟨initK_isF.mpr h_vp, by decide⟩, ⟨r_dest, by decide⟩, trivial⟩ rfl
example (x : α) : let mem : Mem α := [⟨true, List.replicate 17 (.f x)⟩]
    Init mem (0, 0) 3 ∧ Init mem (0, 1) 16 ∧ Init mem (0, 2) 4 ∧ Room mem (0, 3) 3 :=
  ⟨.replicate (by decide), .replicate (by decide), .replicate (by decide), .replicate (by decide)⟩

theorem C56_any_project_no {mem : Mem α} {posP mP vpP destP : Ptr} (h_pos : Init mem posP 3) (h_m : Init mem mP 16) (h_vp : Init mem vpP 4) (r_dest : Room mem destP 3) :
    Safe mem [(destP, 3)] .void (C.glm_project_no.run mem [posP.val, mP.val, vpP.val, destP.val]) :=
  safe_entry Lib.glm_project_no_ok [.inp posP 3, .inp mP 16, .inp vpP 4, .out destP 3] ⟨⟨initK_isF.mpr h_pos, by decide⟩, ⟨initK_isF.mpr h_m, by decide⟩, ⟨initK_isF.mpr h_vp, by decide⟩, ⟨r_dest, by decide⟩, trivial⟩ rfl
example (x : α) : let mem : Mem α := [⟨true, List.replicate 17 (.f x)⟩]
    Init mem (0, 0) 3 ∧ Init mem (0, 1) 16 ∧ Init mem (0, 2) 4 ∧ Room mem (0, 3) 3 :=
  ⟨.replicate (by decide), .replicate (by decide), .replicate (by decide), .replicate (by decide)⟩

theorem C56_any_project_z_no {mem : Mem α} {vP mP : Ptr} (h_v : Init mem vP 3) (h_m : Init mem mP 16) :
    Safe mem [] .float (C.glm_project_z_no.run mem [vP.val, mP.val]) :=
  safe_entry Lib.glm_project_z_no_ok [.inp vP 3, .inp mP 16] ⟨⟨initK_isF.mpr h_v, by decide⟩, ⟨initK_isF.mpr h_m, by decide⟩, trivial⟩ rfl
example (x : α) : let mem : Mem α := [⟨true, List.replicate 17 (.f x)⟩]
    Init mem (0, 0) 3 ∧ Init mem (0, 1) 16 :=
  ⟨.replicate (by decide), .replicate (by decide)⟩

end Cglm
