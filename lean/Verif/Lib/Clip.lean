/- Generated by tools/safethms.py; do not edit by hand. -/
import Verif.CMemEntry
import Verif.Mem.Affines

/-!
# The functions of the array interface with their arguments

Arrays are counted in floats.  The analysis of `CMemSafe` accepts every function.
-/

namespace Cglm.CMem.Lib

/-! ## include/cglm/clipspace/persp.h -/

/-- the parameters of `glm_persp_fovy`: include/cglm/clipspace/persp.h:31-35 -/
def glm_persp_fovy : Entry := ⟨C.glm_persp_fovy, [.inp 16], .float⟩
theorem glm_persp_fovy_ok : glm_persp_fovy.ok = true := by kernel_rfl
/-- the parameters of `glm_persp_aspect`: include/cglm/clipspace/persp.h:42-46 -/
def glm_persp_aspect : Entry := ⟨C.glm_persp_aspect, [.inp 16], .float⟩
theorem glm_persp_aspect_ok : glm_persp_aspect.ok = true := by kernel_rfl

/-! ## include/cglm/clipspace/ortho_lh_zo.h -/

/-- the parameters of `glm_ortho_lh_zo`: include/cglm/clipspace/ortho_lh_zo.h:47-68 -/
def glm_ortho_lh_zo : Entry := ⟨C.glm_ortho_lh_zo, [.f, .f, .f, .f, .f, .f, .out 16], .void⟩
theorem glm_ortho_lh_zo_ok : glm_ortho_lh_zo.ok = true := by kernel_rfl
/-- the parameters of `glm_ortho_aabb_lh_zo`: include/cglm/clipspace/ortho_lh_zo.h:79-86 -/
def glm_ortho_aabb_lh_zo : Entry := ⟨C.glm_ortho_aabb_lh_zo, [.inp 6, .out 16], .void⟩
theorem glm_ortho_aabb_lh_zo_ok : glm_ortho_aabb_lh_zo.ok = true := by kernel_rfl
/-- the parameters of `glm_ortho_aabb_p_lh_zo`: include/cglm/clipspace/ortho_lh_zo.h:98-105 -/
def glm_ortho_aabb_p_lh_zo : Entry := ⟨C.glm_ortho_aabb_p_lh_zo, [.inp 6, .f, .out 16], .void⟩
theorem glm_ortho_aabb_p_lh_zo_ok : glm_ortho_aabb_p_lh_zo.ok = true := by kernel_rfl
/-- the parameters of `glm_ortho_aabb_pz_lh_zo`: include/cglm/clipspace/ortho_lh_zo.h:117-124 -/
def glm_ortho_aabb_pz_lh_zo : Entry := ⟨C.glm_ortho_aabb_pz_lh_zo, [.inp 6, .f, .out 16], .void⟩
theorem glm_ortho_aabb_pz_lh_zo_ok : glm_ortho_aabb_pz_lh_zo.ok = true := by kernel_rfl
/-- the parameters of `glm_ortho_default_lh_zo`: include/cglm/clipspace/ortho_lh_zo.h:133-144 -/
def glm_ortho_default_lh_zo : Entry := ⟨C.glm_ortho_default_lh_zo, [.f, .out 16], .void⟩
theorem glm_ortho_default_lh_zo_ok : glm_ortho_default_lh_zo.ok = true := by kernel_rfl
/-- the parameters of `glm_ortho_default_s_lh_zo`: include/cglm/clipspace/ortho_lh_zo.h:154-175 -/
def glm_ortho_default_s_lh_zo : Entry := ⟨C.glm_ortho_default_s_lh_zo, [.f, .f, .out 16], .void⟩
theorem glm_ortho_default_s_lh_zo_ok : glm_ortho_default_s_lh_zo.ok = true := by kernel_rfl

/-! ## include/cglm/clipspace/persp_lh_zo.h -/

/-- the parameters of `glm_frustum_lh_zo`: include/cglm/clipspace/persp_lh_zo.h:64-86 -/
def glm_frustum_lh_zo : Entry := ⟨C.glm_frustum_lh_zo, [.f, .f, .f, .f, .f, .f, .out 16], .void⟩
theorem glm_frustum_lh_zo_ok : glm_frustum_lh_zo.ok = true := by kernel_rfl
/-- the parameters of `glm_perspective_lh_zo`: include/cglm/clipspace/persp_lh_zo.h:98-117 -/
def glm_perspective_lh_zo : Entry := ⟨C.glm_perspective_lh_zo, [.f, .f, .f, .f, .out 16], .void⟩
theorem glm_perspective_lh_zo_ok : glm_perspective_lh_zo.ok = true := by kernel_rfl
/-- the parameters of `glm_persp_move_far_lh_zo`: include/cglm/clipspace/persp_lh_zo.h:129-143 -/
def glm_persp_move_far_lh_zo : Entry := ⟨C.glm_persp_move_far_lh_zo, [.io 16, .f], .void⟩
theorem glm_persp_move_far_lh_zo_ok : glm_persp_move_far_lh_zo.ok = true := by kernel_rfl
/-- the parameters of `glm_perspective_default_lh_zo`: include/cglm/clipspace/persp_lh_zo.h:153-157 -/
def glm_perspective_default_lh_zo : Entry := ⟨C.glm_perspective_default_lh_zo, [.f, .out 16], .void⟩
theorem glm_perspective_default_lh_zo_ok : glm_perspective_default_lh_zo.ok = true := by kernel_rfl
/-- the parameters of `glm_perspective_resize_lh_zo`: include/cglm/clipspace/persp_lh_zo.h:167-174 -/
def glm_perspective_resize_lh_zo : Entry := ⟨C.glm_perspective_resize_lh_zo, [.f, .io 16], .void⟩
theorem glm_perspective_resize_lh_zo_ok : glm_perspective_resize_lh_zo.ok = true := by kernel_rfl
/-- the parameters of `glm_persp_decomp_lh_zo`: include/cglm/clipspace/persp_lh_zo.h:189-217 -/
def glm_persp_decomp_lh_zo : Entry := ⟨C.glm_persp_decomp_lh_zo, [.inp 16, .out 1, .out 1, .out 1, .out 1, .out 1, .out 1], .void⟩
theorem glm_persp_decomp_lh_zo_ok : glm_persp_decomp_lh_zo.ok = true := by kernel_rfl
/-- the parameters of `glm_persp_decompv_lh_zo`: include/cglm/clipspace/persp_lh_zo.h:228-233 -/
def glm_persp_decompv_lh_zo : Entry := ⟨C.glm_persp_decompv_lh_zo, [.inp 16, .out 6], .void⟩
theorem glm_persp_decompv_lh_zo_ok : glm_persp_decompv_lh_zo.ok = true := by kernel_rfl
/-- the parameters of `glm_persp_decomp_x_lh_zo`: include/cglm/clipspace/persp_lh_zo.h:243-256 -/
def glm_persp_decomp_x_lh_zo : Entry := ⟨C.glm_persp_decomp_x_lh_zo, [.inp 16, .out 1, .out 1], .void⟩
theorem glm_persp_decomp_x_lh_zo_ok : glm_persp_decomp_x_lh_zo.ok = true := by kernel_rfl
/-- the parameters of `glm_persp_decomp_y_lh_zo`: include/cglm/clipspace/persp_lh_zo.h:268-281 -/
def glm_persp_decomp_y_lh_zo : Entry := ⟨C.glm_persp_decomp_y_lh_zo, [.inp 16, .out 1, .out 1], .void⟩
theorem glm_persp_decomp_y_lh_zo_ok : glm_persp_decomp_y_lh_zo.ok = true := by kernel_rfl
/-- the parameters of `glm_persp_decomp_z_lh_zo`: include/cglm/clipspace/persp_lh_zo.h:293-305 -/
def glm_persp_decomp_z_lh_zo : Entry := ⟨C.glm_persp_decomp_z_lh_zo, [.inp 16, .out 1, .out 1], .void⟩
theorem glm_persp_decomp_z_lh_zo_ok : glm_persp_decomp_z_lh_zo.ok = true := by kernel_rfl
/-- the parameters of `glm_persp_decomp_far_lh_zo`: include/cglm/clipspace/persp_lh_zo.h:315-319 -/
def glm_persp_decomp_far_lh_zo : Entry := ⟨C.glm_persp_decomp_far_lh_zo, [.inp 16, .out 1], .void⟩
theorem glm_persp_decomp_far_lh_zo_ok : glm_persp_decomp_far_lh_zo.ok = true := by kernel_rfl
/-- the parameters of `glm_persp_decomp_near_lh_zo`: include/cglm/clipspace/persp_lh_zo.h:329-333 -/
def glm_persp_decomp_near_lh_zo : Entry := ⟨C.glm_persp_decomp_near_lh_zo, [.inp 16, .out 1], .void⟩
theorem glm_persp_decomp_near_lh_zo_ok : glm_persp_decomp_near_lh_zo.ok = true := by kernel_rfl
/-- the parameters of `glm_persp_sizes_lh_zo`: include/cglm/clipspace/persp_lh_zo.h:344-358 -/
def glm_persp_sizes_lh_zo : Entry := ⟨C.glm_persp_sizes_lh_zo, [.inp 16, .f, .out 4], .void⟩
theorem glm_persp_sizes_lh_zo_ok : glm_persp_sizes_lh_zo.ok = true := by kernel_rfl
/-- the parameters of `glm_persp_fovy_lh_zo`: include/cglm/clipspace/persp_lh_zo.h:369-373 -/
def glm_persp_fovy_lh_zo : Entry := ⟨C.glm_persp_fovy_lh_zo, [.inp 16], .float⟩
theorem glm_persp_fovy_lh_zo_ok : glm_persp_fovy_lh_zo.ok = true := by kernel_rfl
/-- the parameters of `glm_persp_aspect_lh_zo`: include/cglm/clipspace/persp_lh_zo.h:381-385 -/
def glm_persp_aspect_lh_zo : Entry := ⟨C.glm_persp_aspect_lh_zo, [.inp 16], .float⟩
theorem glm_persp_aspect_lh_zo_ok : glm_persp_aspect_lh_zo.ok = true := by kernel_rfl

/-! ## include/cglm/clipspace/ortho_lh_no.h -/

/-- the parameters of `glm_ortho_lh_no`: include/cglm/clipspace/ortho_lh_no.h:48-69 -/
def glm_ortho_lh_no : Entry := ⟨C.glm_ortho_lh_no, [.f, .f, .f, .f, .f, .f, .out 16], .void⟩
theorem glm_ortho_lh_no_ok : glm_ortho_lh_no.ok = true := by kernel_rfl
/-- the parameters of `glm_ortho_aabb_lh_no`: include/cglm/clipspace/ortho_lh_no.h:81-88 -/
def glm_ortho_aabb_lh_no : Entry := ⟨C.glm_ortho_aabb_lh_no, [.inp 6, .out 16], .void⟩
theorem glm_ortho_aabb_lh_no_ok : glm_ortho_aabb_lh_no.ok = true := by kernel_rfl
/-- the parameters of `glm_ortho_aabb_p_lh_no`: include/cglm/clipspace/ortho_lh_no.h:101-108 -/
def glm_ortho_aabb_p_lh_no : Entry := ⟨C.glm_ortho_aabb_p_lh_no, [.inp 6, .f, .out 16], .void⟩
theorem glm_ortho_aabb_p_lh_no_ok : glm_ortho_aabb_p_lh_no.ok = true := by kernel_rfl
/-- the parameters of `glm_ortho_aabb_pz_lh_no`: include/cglm/clipspace/ortho_lh_no.h:121-128 -/
def glm_ortho_aabb_pz_lh_no : Entry := ⟨C.glm_ortho_aabb_pz_lh_no, [.inp 6, .f, .out 16], .void⟩
theorem glm_ortho_aabb_pz_lh_no_ok : glm_ortho_aabb_pz_lh_no.ok = true := by kernel_rfl
/-- the parameters of `glm_ortho_default_lh_no`: include/cglm/clipspace/ortho_lh_no.h:138-149 -/
def glm_ortho_default_lh_no : Entry := ⟨C.glm_ortho_default_lh_no, [.f, .out 16], .void⟩
theorem glm_ortho_default_lh_no_ok : glm_ortho_default_lh_no.ok = true := by kernel_rfl
/-- the parameters of `glm_ortho_default_s_lh_no`: include/cglm/clipspace/ortho_lh_no.h:160-181 -/
def glm_ortho_default_s_lh_no : Entry := ⟨C.glm_ortho_default_s_lh_no, [.f, .f, .out 16], .void⟩
theorem glm_ortho_default_s_lh_no_ok : glm_ortho_default_s_lh_no.ok = true := by kernel_rfl

/-! ## include/cglm/clipspace/persp_lh_no.h -/

/-- the parameters of `glm_frustum_lh_no`: include/cglm/clipspace/persp_lh_no.h:65-87 -/
def glm_frustum_lh_no : Entry := ⟨C.glm_frustum_lh_no, [.f, .f, .f, .f, .f, .f, .out 16], .void⟩
theorem glm_frustum_lh_no_ok : glm_frustum_lh_no.ok = true := by kernel_rfl
/-- the parameters of `glm_perspective_lh_no`: include/cglm/clipspace/persp_lh_no.h:100-120 -/
def glm_perspective_lh_no : Entry := ⟨C.glm_perspective_lh_no, [.f, .f, .f, .f, .out 16], .void⟩
theorem glm_perspective_lh_no_ok : glm_perspective_lh_no.ok = true := by kernel_rfl
/-- the parameters of `glm_perspective_default_lh_no`: include/cglm/clipspace/persp_lh_no.h:130-134 -/
def glm_perspective_default_lh_no : Entry := ⟨C.glm_perspective_default_lh_no, [.f, .out 16], .void⟩
theorem glm_perspective_default_lh_no_ok : glm_perspective_default_lh_no.ok = true := by kernel_rfl
/-- the parameters of `glm_perspective_resize_lh_no`: include/cglm/clipspace/persp_lh_no.h:145-152 -/
def glm_perspective_resize_lh_no : Entry := ⟨C.glm_perspective_resize_lh_no, [.f, .io 16], .void⟩
theorem glm_perspective_resize_lh_no_ok : glm_perspective_resize_lh_no.ok = true := by kernel_rfl
/-- the parameters of `glm_persp_move_far_lh_no`: include/cglm/clipspace/persp_lh_no.h:164-178 -/
def glm_persp_move_far_lh_no : Entry := ⟨C.glm_persp_move_far_lh_no, [.io 16, .f], .void⟩
theorem glm_persp_move_far_lh_no_ok : glm_persp_move_far_lh_no.ok = true := by kernel_rfl
/-- the parameters of `glm_persp_decomp_lh_no`: include/cglm/clipspace/persp_lh_no.h:193-221 -/
def glm_persp_decomp_lh_no : Entry := ⟨C.glm_persp_decomp_lh_no, [.inp 16, .out 1, .out 1, .out 1, .out 1, .out 1, .out 1], .void⟩
theorem glm_persp_decomp_lh_no_ok : glm_persp_decomp_lh_no.ok = true := by kernel_rfl
/-- the parameters of `glm_persp_decompv_lh_no`: include/cglm/clipspace/persp_lh_no.h:232-237 -/
def glm_persp_decompv_lh_no : Entry := ⟨C.glm_persp_decompv_lh_no, [.inp 16, .out 6], .void⟩
theorem glm_persp_decompv_lh_no_ok : glm_persp_decompv_lh_no.ok = true := by kernel_rfl
/-- the parameters of `glm_persp_decomp_x_lh_no`: include/cglm/clipspace/persp_lh_no.h:249-263 -/
def glm_persp_decomp_x_lh_no : Entry := ⟨C.glm_persp_decomp_x_lh_no, [.inp 16, .out 1, .out 1], .void⟩
theorem glm_persp_decomp_x_lh_no_ok : glm_persp_decomp_x_lh_no.ok = true := by kernel_rfl
/-- the parameters of `glm_persp_decomp_y_lh_no`: include/cglm/clipspace/persp_lh_no.h:275-289 -/
def glm_persp_decomp_y_lh_no : Entry := ⟨C.glm_persp_decomp_y_lh_no, [.inp 16, .out 1, .out 1], .void⟩
theorem glm_persp_decomp_y_lh_no_ok : glm_persp_decomp_y_lh_no.ok = true := by kernel_rfl
/-- the parameters of `glm_persp_decomp_z_lh_no`: include/cglm/clipspace/persp_lh_no.h:301-313 -/
def glm_persp_decomp_z_lh_no : Entry := ⟨C.glm_persp_decomp_z_lh_no, [.inp 16, .out 1, .out 1], .void⟩
theorem glm_persp_decomp_z_lh_no_ok : glm_persp_decomp_z_lh_no.ok = true := by kernel_rfl
/-- the parameters of `glm_persp_decomp_far_lh_no`: include/cglm/clipspace/persp_lh_no.h:323-327 -/
def glm_persp_decomp_far_lh_no : Entry := ⟨C.glm_persp_decomp_far_lh_no, [.inp 16, .out 1], .void⟩
theorem glm_persp_decomp_far_lh_no_ok : glm_persp_decomp_far_lh_no.ok = true := by kernel_rfl
/-- the parameters of `glm_persp_decomp_near_lh_no`: include/cglm/clipspace/persp_lh_no.h:337-341 -/
def glm_persp_decomp_near_lh_no : Entry := ⟨C.glm_persp_decomp_near_lh_no, [.inp 16, .out 1], .void⟩
theorem glm_persp_decomp_near_lh_no_ok : glm_persp_decomp_near_lh_no.ok = true := by kernel_rfl
/-- the parameters of `glm_persp_sizes_lh_no`: include/cglm/clipspace/persp_lh_no.h:352-366 -/
def glm_persp_sizes_lh_no : Entry := ⟨C.glm_persp_sizes_lh_no, [.inp 16, .f, .out 4], .void⟩
theorem glm_persp_sizes_lh_no_ok : glm_persp_sizes_lh_no.ok = true := by kernel_rfl
/-- the parameters of `glm_persp_fovy_lh_no`: include/cglm/clipspace/persp_lh_no.h:377-381 -/
def glm_persp_fovy_lh_no : Entry := ⟨C.glm_persp_fovy_lh_no, [.inp 16], .float⟩
theorem glm_persp_fovy_lh_no_ok : glm_persp_fovy_lh_no.ok = true := by kernel_rfl
/-- the parameters of `glm_persp_aspect_lh_no`: include/cglm/clipspace/persp_lh_no.h:389-393 -/
def glm_persp_aspect_lh_no : Entry := ⟨C.glm_persp_aspect_lh_no, [.inp 16], .float⟩
theorem glm_persp_aspect_lh_no_ok : glm_persp_aspect_lh_no.ok = true := by kernel_rfl

/-! ## include/cglm/clipspace/ortho_rh_zo.h -/

/-- the parameters of `glm_ortho_rh_zo`: include/cglm/clipspace/ortho_rh_zo.h:47-68 -/
def glm_ortho_rh_zo : Entry := ⟨C.glm_ortho_rh_zo, [.f, .f, .f, .f, .f, .f, .out 16], .void⟩
theorem glm_ortho_rh_zo_ok : glm_ortho_rh_zo.ok = true := by kernel_rfl
/-- the parameters of `glm_ortho_aabb_rh_zo`: include/cglm/clipspace/ortho_rh_zo.h:80-87 -/
def glm_ortho_aabb_rh_zo : Entry := ⟨C.glm_ortho_aabb_rh_zo, [.inp 6, .out 16], .void⟩
theorem glm_ortho_aabb_rh_zo_ok : glm_ortho_aabb_rh_zo.ok = true := by kernel_rfl
/-- the parameters of `glm_ortho_aabb_p_rh_zo`: include/cglm/clipspace/ortho_rh_zo.h:100-107 -/
def glm_ortho_aabb_p_rh_zo : Entry := ⟨C.glm_ortho_aabb_p_rh_zo, [.inp 6, .f, .out 16], .void⟩
theorem glm_ortho_aabb_p_rh_zo_ok : glm_ortho_aabb_p_rh_zo.ok = true := by kernel_rfl
/-- the parameters of `glm_ortho_aabb_pz_rh_zo`: include/cglm/clipspace/ortho_rh_zo.h:120-127 -/
def glm_ortho_aabb_pz_rh_zo : Entry := ⟨C.glm_ortho_aabb_pz_rh_zo, [.inp 6, .f, .out 16], .void⟩
theorem glm_ortho_aabb_pz_rh_zo_ok : glm_ortho_aabb_pz_rh_zo.ok = true := by kernel_rfl
/-- the parameters of `glm_ortho_default_rh_zo`: include/cglm/clipspace/ortho_rh_zo.h:136-147 -/
def glm_ortho_default_rh_zo : Entry := ⟨C.glm_ortho_default_rh_zo, [.f, .out 16], .void⟩
theorem glm_ortho_default_rh_zo_ok : glm_ortho_default_rh_zo.ok = true := by kernel_rfl
/-- the parameters of `glm_ortho_default_s_rh_zo`: include/cglm/clipspace/ortho_rh_zo.h:158-179 -/
def glm_ortho_default_s_rh_zo : Entry := ⟨C.glm_ortho_default_s_rh_zo, [.f, .f, .out 16], .void⟩
theorem glm_ortho_default_s_rh_zo_ok : glm_ortho_default_s_rh_zo.ok = true := by kernel_rfl

/-! ## include/cglm/clipspace/persp_rh_zo.h -/

/-- the parameters of `glm_frustum_rh_zo`: include/cglm/clipspace/persp_rh_zo.h:64-86 -/
def glm_frustum_rh_zo : Entry := ⟨C.glm_frustum_rh_zo, [.f, .f, .f, .f, .f, .f, .out 16], .void⟩
theorem glm_frustum_rh_zo_ok : glm_frustum_rh_zo.ok = true := by kernel_rfl
/-- the parameters of `glm_perspective_rh_zo`: include/cglm/clipspace/persp_rh_zo.h:98-117 -/
def glm_perspective_rh_zo : Entry := ⟨C.glm_perspective_rh_zo, [.f, .f, .f, .f, .out 16], .void⟩
theorem glm_perspective_rh_zo_ok : glm_perspective_rh_zo.ok = true := by kernel_rfl
/-- the parameters of `glm_perspective_default_rh_zo`: include/cglm/clipspace/persp_rh_zo.h:127-131 -/
def glm_perspective_default_rh_zo : Entry := ⟨C.glm_perspective_default_rh_zo, [.f, .out 16], .void⟩
theorem glm_perspective_default_rh_zo_ok : glm_perspective_default_rh_zo.ok = true := by kernel_rfl
/-- the parameters of `glm_perspective_resize_rh_zo`: include/cglm/clipspace/persp_rh_zo.h:142-149 -/
def glm_perspective_resize_rh_zo : Entry := ⟨C.glm_perspective_resize_rh_zo, [.f, .io 16], .void⟩
theorem glm_perspective_resize_rh_zo_ok : glm_perspective_resize_rh_zo.ok = true := by kernel_rfl
/-- the parameters of `glm_persp_move_far_rh_zo`: include/cglm/clipspace/persp_rh_zo.h:160-174 -/
def glm_persp_move_far_rh_zo : Entry := ⟨C.glm_persp_move_far_rh_zo, [.io 16, .f], .void⟩
theorem glm_persp_move_far_rh_zo_ok : glm_persp_move_far_rh_zo.ok = true := by kernel_rfl
/-- the parameters of `glm_persp_decomp_rh_zo`: include/cglm/clipspace/persp_rh_zo.h:189-217 -/
def glm_persp_decomp_rh_zo : Entry := ⟨C.glm_persp_decomp_rh_zo, [.inp 16, .out 1, .out 1, .out 1, .out 1, .out 1, .out 1], .void⟩
theorem glm_persp_decomp_rh_zo_ok : glm_persp_decomp_rh_zo.ok = true := by kernel_rfl
/-- the parameters of `glm_persp_decompv_rh_zo`: include/cglm/clipspace/persp_rh_zo.h:228-233 -/
def glm_persp_decompv_rh_zo : Entry := ⟨C.glm_persp_decompv_rh_zo, [.inp 16, .out 6], .void⟩
theorem glm_persp_decompv_rh_zo_ok : glm_persp_decompv_rh_zo.ok = true := by kernel_rfl
/-- the parameters of `glm_persp_decomp_x_rh_zo`: include/cglm/clipspace/persp_rh_zo.h:243-257 -/
def glm_persp_decomp_x_rh_zo : Entry := ⟨C.glm_persp_decomp_x_rh_zo, [.inp 16, .out 1, .out 1], .void⟩
theorem glm_persp_decomp_x_rh_zo_ok : glm_persp_decomp_x_rh_zo.ok = true := by kernel_rfl
/-- the parameters of `glm_persp_decomp_y_rh_zo`: include/cglm/clipspace/persp_rh_zo.h:269-283 -/
def glm_persp_decomp_y_rh_zo : Entry := ⟨C.glm_persp_decomp_y_rh_zo, [.inp 16, .out 1, .out 1], .void⟩
theorem glm_persp_decomp_y_rh_zo_ok : glm_persp_decomp_y_rh_zo.ok = true := by kernel_rfl
/-- the parameters of `glm_persp_decomp_z_rh_zo`: include/cglm/clipspace/persp_rh_zo.h:295-307 -/
def glm_persp_decomp_z_rh_zo : Entry := ⟨C.glm_persp_decomp_z_rh_zo, [.inp 16, .out 1, .out 1], .void⟩
theorem glm_persp_decomp_z_rh_zo_ok : glm_persp_decomp_z_rh_zo.ok = true := by kernel_rfl
/-- the parameters of `glm_persp_decomp_far_rh_zo`: include/cglm/clipspace/persp_rh_zo.h:317-321 -/
def glm_persp_decomp_far_rh_zo : Entry := ⟨C.glm_persp_decomp_far_rh_zo, [.inp 16, .out 1], .void⟩
theorem glm_persp_decomp_far_rh_zo_ok : glm_persp_decomp_far_rh_zo.ok = true := by kernel_rfl
/-- the parameters of `glm_persp_decomp_near_rh_zo`: include/cglm/clipspace/persp_rh_zo.h:331-335 -/
def glm_persp_decomp_near_rh_zo : Entry := ⟨C.glm_persp_decomp_near_rh_zo, [.inp 16, .out 1], .void⟩
theorem glm_persp_decomp_near_rh_zo_ok : glm_persp_decomp_near_rh_zo.ok = true := by kernel_rfl
/-- the parameters of `glm_persp_sizes_rh_zo`: include/cglm/clipspace/persp_rh_zo.h:346-360 -/
def glm_persp_sizes_rh_zo : Entry := ⟨C.glm_persp_sizes_rh_zo, [.inp 16, .f, .out 4], .void⟩
theorem glm_persp_sizes_rh_zo_ok : glm_persp_sizes_rh_zo.ok = true := by kernel_rfl
/-- the parameters of `glm_persp_fovy_rh_zo`: include/cglm/clipspace/persp_rh_zo.h:371-375 -/
def glm_persp_fovy_rh_zo : Entry := ⟨C.glm_persp_fovy_rh_zo, [.inp 16], .float⟩
theorem glm_persp_fovy_rh_zo_ok : glm_persp_fovy_rh_zo.ok = true := by kernel_rfl
/-- the parameters of `glm_persp_aspect_rh_zo`: include/cglm/clipspace/persp_rh_zo.h:383-387 -/
def glm_persp_aspect_rh_zo : Entry := ⟨C.glm_persp_aspect_rh_zo, [.inp 16], .float⟩
theorem glm_persp_aspect_rh_zo_ok : glm_persp_aspect_rh_zo.ok = true := by kernel_rfl

/-! ## include/cglm/clipspace/ortho_rh_no.h -/

/-- the parameters of `glm_ortho_rh_no`: include/cglm/clipspace/ortho_rh_no.h:48-69 -/
def glm_ortho_rh_no : Entry := ⟨C.glm_ortho_rh_no, [.f, .f, .f, .f, .f, .f, .out 16], .void⟩
theorem glm_ortho_rh_no_ok : glm_ortho_rh_no.ok = true := by kernel_rfl
/-- the parameters of `glm_ortho_aabb_rh_no`: include/cglm/clipspace/ortho_rh_no.h:81-88 -/
def glm_ortho_aabb_rh_no : Entry := ⟨C.glm_ortho_aabb_rh_no, [.inp 6, .out 16], .void⟩
theorem glm_ortho_aabb_rh_no_ok : glm_ortho_aabb_rh_no.ok = true := by kernel_rfl
/-- the parameters of `glm_ortho_aabb_p_rh_no`: include/cglm/clipspace/ortho_rh_no.h:101-108 -/
def glm_ortho_aabb_p_rh_no : Entry := ⟨C.glm_ortho_aabb_p_rh_no, [.inp 6, .f, .out 16], .void⟩
theorem glm_ortho_aabb_p_rh_no_ok : glm_ortho_aabb_p_rh_no.ok = true := by kernel_rfl
/-- the parameters of `glm_ortho_aabb_pz_rh_no`: include/cglm/clipspace/ortho_rh_no.h:121-128 -/
def glm_ortho_aabb_pz_rh_no : Entry := ⟨C.glm_ortho_aabb_pz_rh_no, [.inp 6, .f, .out 16], .void⟩
theorem glm_ortho_aabb_pz_rh_no_ok : glm_ortho_aabb_pz_rh_no.ok = true := by kernel_rfl
/-- the parameters of `glm_ortho_default_rh_no`: include/cglm/clipspace/ortho_rh_no.h:138-149 -/
def glm_ortho_default_rh_no : Entry := ⟨C.glm_ortho_default_rh_no, [.f, .out 16], .void⟩
theorem glm_ortho_default_rh_no_ok : glm_ortho_default_rh_no.ok = true := by kernel_rfl
/-- the parameters of `glm_ortho_default_s_rh_no`: include/cglm/clipspace/ortho_rh_no.h:160-181 -/
def glm_ortho_default_s_rh_no : Entry := ⟨C.glm_ortho_default_s_rh_no, [.f, .f, .out 16], .void⟩
theorem glm_ortho_default_s_rh_no_ok : glm_ortho_default_s_rh_no.ok = true := by kernel_rfl

/-! ## include/cglm/clipspace/persp_rh_no.h -/

/-- the parameters of `glm_frustum_rh_no`: include/cglm/clipspace/persp_rh_no.h:65-87 -/
def glm_frustum_rh_no : Entry := ⟨C.glm_frustum_rh_no, [.f, .f, .f, .f, .f, .f, .out 16], .void⟩
theorem glm_frustum_rh_no_ok : glm_frustum_rh_no.ok = true := by kernel_rfl
/-- the parameters of `glm_perspective_rh_no`: include/cglm/clipspace/persp_rh_no.h:100-120 -/
def glm_perspective_rh_no : Entry := ⟨C.glm_perspective_rh_no, [.f, .f, .f, .f, .out 16], .void⟩
theorem glm_perspective_rh_no_ok : glm_perspective_rh_no.ok = true := by kernel_rfl
/-- the parameters of `glm_perspective_default_rh_no`: include/cglm/clipspace/persp_rh_no.h:130-134 -/
def glm_perspective_default_rh_no : Entry := ⟨C.glm_perspective_default_rh_no, [.f, .out 16], .void⟩
theorem glm_perspective_default_rh_no_ok : glm_perspective_default_rh_no.ok = true := by kernel_rfl
/-- the parameters of `glm_perspective_resize_rh_no`: include/cglm/clipspace/persp_rh_no.h:145-152 -/
def glm_perspective_resize_rh_no : Entry := ⟨C.glm_perspective_resize_rh_no, [.f, .io 16], .void⟩
theorem glm_perspective_resize_rh_no_ok : glm_perspective_resize_rh_no.ok = true := by kernel_rfl
/-- the parameters of `glm_persp_move_far_rh_no`: include/cglm/clipspace/persp_rh_no.h:164-178 -/
def glm_persp_move_far_rh_no : Entry := ⟨C.glm_persp_move_far_rh_no, [.io 16, .f], .void⟩
theorem glm_persp_move_far_rh_no_ok : glm_persp_move_far_rh_no.ok = true := by kernel_rfl
/-- the parameters of `glm_persp_decomp_rh_no`: include/cglm/clipspace/persp_rh_no.h:193-221 -/
def glm_persp_decomp_rh_no : Entry := ⟨C.glm_persp_decomp_rh_no, [.inp 16, .out 1, .out 1, .out 1, .out 1, .out 1, .out 1], .void⟩
theorem glm_persp_decomp_rh_no_ok : glm_persp_decomp_rh_no.ok = true := by kernel_rfl
/-- the parameters of `glm_persp_decompv_rh_no`: include/cglm/clipspace/persp_rh_no.h:232-237 -/
def glm_persp_decompv_rh_no : Entry := ⟨C.glm_persp_decompv_rh_no, [.inp 16, .out 6], .void⟩
theorem glm_persp_decompv_rh_no_ok : glm_persp_decompv_rh_no.ok = true := by kernel_rfl
/-- the parameters of `glm_persp_decomp_x_rh_no`: include/cglm/clipspace/persp_rh_no.h:249-263 -/
def glm_persp_decomp_x_rh_no : Entry := ⟨C.glm_persp_decomp_x_rh_no, [.inp 16, .out 1, .out 1], .void⟩
theorem glm_persp_decomp_x_rh_no_ok : glm_persp_decomp_x_rh_no.ok = true := by kernel_rfl
/-- the parameters of `glm_persp_decomp_y_rh_no`: include/cglm/clipspace/persp_rh_no.h:275-289 -/
def glm_persp_decomp_y_rh_no : Entry := ⟨C.glm_persp_decomp_y_rh_no, [.inp 16, .out 1, .out 1], .void⟩
theorem glm_persp_decomp_y_rh_no_ok : glm_persp_decomp_y_rh_no.ok = true := by kernel_rfl
/-- the parameters of `glm_persp_decomp_z_rh_no`: include/cglm/clipspace/persp_rh_no.h:301-313 -/
def glm_persp_decomp_z_rh_no : Entry := ⟨C.glm_persp_decomp_z_rh_no, [.inp 16, .out 1, .out 1], .void⟩
theorem glm_persp_decomp_z_rh_no_ok : glm_persp_decomp_z_rh_no.ok = true := by kernel_rfl
/-- the parameters of `glm_persp_decomp_far_rh_no`: include/cglm/clipspace/persp_rh_no.h:323-327 -/
def glm_persp_decomp_far_rh_no : Entry := ⟨C.glm_persp_decomp_far_rh_no, [.inp 16, .out 1], .void⟩
theorem glm_persp_decomp_far_rh_no_ok : glm_persp_decomp_far_rh_no.ok = true := by kernel_rfl
/-- the parameters of `glm_persp_decomp_near_rh_no`: include/cglm/clipspace/persp_rh_no.h:337-341 -/
def glm_persp_decomp_near_rh_no : Entry := ⟨C.glm_persp_decomp_near_rh_no, [.inp 16, .out 1], .void⟩
theorem glm_persp_decomp_near_rh_no_ok : glm_persp_decomp_near_rh_no.ok = true := by kernel_rfl
/-- the parameters of `glm_persp_sizes_rh_no`: include/cglm/clipspace/persp_rh_no.h:352-366 -/
def glm_persp_sizes_rh_no : Entry := ⟨C.glm_persp_sizes_rh_no, [.inp 16, .f, .out 4], .void⟩
theorem glm_persp_sizes_rh_no_ok : glm_persp_sizes_rh_no.ok = true := by kernel_rfl
/-- the parameters of `glm_persp_fovy_rh_no`: include/cglm/clipspace/persp_rh_no.h:377-381 -/
def glm_persp_fovy_rh_no : Entry := ⟨C.glm_persp_fovy_rh_no, [.inp 16], .float⟩
theorem glm_persp_fovy_rh_no_ok : glm_persp_fovy_rh_no.ok = true := by kernel_rfl
/-- the parameters of `glm_persp_aspect_rh_no`: include/cglm/clipspace/persp_rh_no.h:389-393 -/
def glm_persp_aspect_rh_no : Entry := ⟨C.glm_persp_aspect_rh_no, [.inp 16], .float⟩
theorem glm_persp_aspect_rh_no_ok : glm_persp_aspect_rh_no.ok = true := by kernel_rfl

/-! ## include/cglm/clipspace/view_lh.h -/

/-- the parameters of `glm_lookat_lh`: include/cglm/clipspace/view_lh.h:32-57 -/
def glm_lookat_lh : Entry := ⟨C.glm_lookat_lh, [.inp 3, .inp 3, .inp 3, .out 16], .void⟩
theorem glm_lookat_lh_ok : glm_lookat_lh.ok = true := by kernel_rfl
/-- the parameters of `glm_look_lh`: include/cglm/clipspace/view_lh.h:73-79 -/
def glm_look_lh : Entry := ⟨C.glm_look_lh, [.inp 3, .inp 3, .inp 3, .out 16], .void⟩
theorem glm_look_lh_ok : glm_look_lh.ok = true := by kernel_rfl
/-- the parameters of `glm_look_anyup_lh`: include/cglm/clipspace/view_lh.h:91-97 -/
def glm_look_anyup_lh : Entry := ⟨C.glm_look_anyup_lh, [.inp 3, .inp 3, .out 16], .void⟩
theorem glm_look_anyup_lh_ok : glm_look_anyup_lh.ok = true := by kernel_rfl

/-! ## include/cglm/clipspace/view_lh_zo.h -/

/-- the parameters of `glm_lookat_lh_zo`: include/cglm/clipspace/view_lh_zo.h:32-36 -/
def glm_lookat_lh_zo : Entry := ⟨C.glm_lookat_lh_zo, [.inp 3, .inp 3, .inp 3, .out 16], .void⟩
theorem glm_lookat_lh_zo_ok : glm_lookat_lh_zo.ok = true := by kernel_rfl
/-- the parameters of `glm_look_lh_zo`: include/cglm/clipspace/view_lh_zo.h:52-56 -/
def glm_look_lh_zo : Entry := ⟨C.glm_look_lh_zo, [.inp 3, .inp 3, .inp 3, .out 16], .void⟩
theorem glm_look_lh_zo_ok : glm_look_lh_zo.ok = true := by kernel_rfl
/-- the parameters of `glm_look_anyup_lh_zo`: include/cglm/clipspace/view_lh_zo.h:68-72 -/
def glm_look_anyup_lh_zo : Entry := ⟨C.glm_look_anyup_lh_zo, [.inp 3, .inp 3, .out 16], .void⟩
theorem glm_look_anyup_lh_zo_ok : glm_look_anyup_lh_zo.ok = true := by kernel_rfl

/-! ## include/cglm/clipspace/view_lh_no.h -/

/-- the parameters of `glm_lookat_lh_no`: include/cglm/clipspace/view_lh_no.h:32-36 -/
def glm_lookat_lh_no : Entry := ⟨C.glm_lookat_lh_no, [.inp 3, .inp 3, .inp 3, .out 16], .void⟩
theorem glm_lookat_lh_no_ok : glm_lookat_lh_no.ok = true := by kernel_rfl
/-- the parameters of `glm_look_lh_no`: include/cglm/clipspace/view_lh_no.h:52-56 -/
def glm_look_lh_no : Entry := ⟨C.glm_look_lh_no, [.inp 3, .inp 3, .inp 3, .out 16], .void⟩
theorem glm_look_lh_no_ok : glm_look_lh_no.ok = true := by kernel_rfl
/-- the parameters of `glm_look_anyup_lh_no`: include/cglm/clipspace/view_lh_no.h:68-72 -/
def glm_look_anyup_lh_no : Entry := ⟨C.glm_look_anyup_lh_no, [.inp 3, .inp 3, .out 16], .void⟩
theorem glm_look_anyup_lh_no_ok : glm_look_anyup_lh_no.ok = true := by kernel_rfl

/-! ## include/cglm/clipspace/view_rh.h -/

/-- the parameters of `glm_lookat_rh`: include/cglm/clipspace/view_rh.h:32-57 -/
def glm_lookat_rh : Entry := ⟨C.glm_lookat_rh, [.inp 3, .inp 3, .inp 3, .out 16], .void⟩
theorem glm_lookat_rh_ok : glm_lookat_rh.ok = true := by kernel_rfl
/-- the parameters of `glm_look_rh`: include/cglm/clipspace/view_rh.h:73-79 -/
def glm_look_rh : Entry := ⟨C.glm_look_rh, [.inp 3, .inp 3, .inp 3, .out 16], .void⟩
theorem glm_look_rh_ok : glm_look_rh.ok = true := by kernel_rfl
/-- the parameters of `glm_look_anyup_rh`: include/cglm/clipspace/view_rh.h:91-97 -/
def glm_look_anyup_rh : Entry := ⟨C.glm_look_anyup_rh, [.inp 3, .inp 3, .out 16], .void⟩
theorem glm_look_anyup_rh_ok : glm_look_anyup_rh.ok = true := by kernel_rfl

/-! ## include/cglm/clipspace/view_rh_zo.h -/

/-- the parameters of `glm_lookat_rh_zo`: include/cglm/clipspace/view_rh_zo.h:32-36 -/
def glm_lookat_rh_zo : Entry := ⟨C.glm_lookat_rh_zo, [.inp 3, .inp 3, .inp 3, .out 16], .void⟩
theorem glm_lookat_rh_zo_ok : glm_lookat_rh_zo.ok = true := by kernel_rfl
/-- the parameters of `glm_look_rh_zo`: include/cglm/clipspace/view_rh_zo.h:52-56 -/
def glm_look_rh_zo : Entry := ⟨C.glm_look_rh_zo, [.inp 3, .inp 3, .inp 3, .out 16], .void⟩
theorem glm_look_rh_zo_ok : glm_look_rh_zo.ok = true := by kernel_rfl
/-- the parameters of `glm_look_anyup_rh_zo`: include/cglm/clipspace/view_rh_zo.h:68-72 -/
def glm_look_anyup_rh_zo : Entry := ⟨C.glm_look_anyup_rh_zo, [.inp 3, .inp 3, .out 16], .void⟩
theorem glm_look_anyup_rh_zo_ok : glm_look_anyup_rh_zo.ok = true := by kernel_rfl

/-! ## include/cglm/clipspace/view_rh_no.h -/

/-- the parameters of `glm_lookat_rh_no`: include/cglm/clipspace/view_rh_no.h:32-36 -/
def glm_lookat_rh_no : Entry := ⟨C.glm_lookat_rh_no, [.inp 3, .inp 3, .inp 3, .out 16], .void⟩
theorem glm_lookat_rh_no_ok : glm_lookat_rh_no.ok = true := by kernel_rfl
/-- the parameters of `glm_look_rh_no`: include/cglm/clipspace/view_rh_no.h:52-56 -/
def glm_look_rh_no : Entry := ⟨C.glm_look_rh_no, [.inp 3, .inp 3, .inp 3, .out 16], .void⟩
theorem glm_look_rh_no_ok : glm_look_rh_no.ok = true := by kernel_rfl
/-- the parameters of `glm_look_anyup_rh_no`: include/cglm/clipspace/view_rh_no.h:68-72 -/
def glm_look_anyup_rh_no : Entry := ⟨C.glm_look_anyup_rh_no, [.inp 3, .inp 3, .out 16], .void⟩
theorem glm_look_anyup_rh_no_ok : glm_look_anyup_rh_no.ok = true := by kernel_rfl

/-! ## include/cglm/clipspace/project_zo.h -/

/-- the parameters of `glm_unprojecti_zo`: include/cglm/clipspace/project_zo.h:42-55 -/
def glm_unprojecti_zo : Entry := ⟨C.glm_unprojecti_zo, [.inp 3, .inp 16, .inp 4, .out 3], .void⟩
theorem glm_unprojecti_zo_ok : glm_unprojecti_zo.ok = true := by kernel_rfl
/-- the parameters of `glm_project_zo`: include/cglm/clipspace/project_zo.h:69-86 -/
def glm_project_zo : Entry := ⟨C.glm_project_zo, [.inp 3, .inp 16, .inp 4, .out 3], .void⟩
theorem glm_project_zo_ok : glm_project_zo.ok = true := by kernel_rfl
/-- the parameters of `glm_project_z_zo`: include/cglm/clipspace/project_zo.h:100-109 -/
def glm_project_z_zo : Entry := ⟨C.glm_project_z_zo, [.inp 3, .inp 16], .float⟩
theorem glm_project_z_zo_ok : glm_project_z_zo.ok = true := by kernel_rfl

/-! ## include/cglm/clipspace/project_no.h -/

/-- the parameters of `glm_unprojecti_no`: include/cglm/clipspace/project_no.h:42-55 -/
def glm_unprojecti_no : Entry := ⟨C.glm_unprojecti_no, [.inp 3, .inp 16, .inp 4, .out 3], .void⟩
theorem glm_unprojecti_no_ok : glm_unprojecti_no.ok = true := by kernel_rfl
/-- the parameters of `glm_project_no`: include/cglm/clipspace/project_no.h:69-84 -/
def glm_project_no : Entry := ⟨C.glm_project_no, [.inp 3, .inp 16, .inp 4, .out 3], .void⟩
theorem glm_project_no_ok : glm_project_no.ok = true := by kernel_rfl
/-- the parameters of `glm_project_z_no`: include/cglm/clipspace/project_no.h:98-107 -/
def glm_project_z_no : Entry := ⟨C.glm_project_z_no, [.inp 3, .inp 16], .float⟩
theorem glm_project_z_no_ok : glm_project_z_no.ok = true := by kernel_rfl

def partClip1 : List Entry := [glm_persp_fovy, glm_persp_aspect, glm_ortho_lh_zo, glm_ortho_aabb_lh_zo, glm_ortho_aabb_p_lh_zo, glm_ortho_aabb_pz_lh_zo, glm_ortho_default_lh_zo, glm_ortho_default_s_lh_zo, glm_frustum_lh_zo, glm_perspective_lh_zo, glm_persp_move_far_lh_zo, glm_perspective_default_lh_zo, glm_perspective_resize_lh_zo, glm_persp_decomp_lh_zo, glm_persp_decompv_lh_zo, glm_persp_decomp_x_lh_zo, glm_persp_decomp_y_lh_zo, glm_persp_decomp_z_lh_zo, glm_persp_decomp_far_lh_zo, glm_persp_decomp_near_lh_zo, glm_persp_sizes_lh_zo, glm_persp_fovy_lh_zo, glm_persp_aspect_lh_zo, glm_ortho_lh_no, glm_ortho_aabb_lh_no, glm_ortho_aabb_p_lh_no, glm_ortho_aabb_pz_lh_no, glm_ortho_default_lh_no, glm_ortho_default_s_lh_no, glm_frustum_lh_no, glm_perspective_lh_no, glm_perspective_default_lh_no, glm_perspective_resize_lh_no, glm_persp_move_far_lh_no, glm_persp_decomp_lh_no, glm_persp_decompv_lh_no, glm_persp_decomp_x_lh_no, glm_persp_decomp_y_lh_no, glm_persp_decomp_z_lh_no, glm_persp_decomp_far_lh_no]
theorem partClip1_ok : partClip1.all Entry.ok = true := by
  simp only [partClip1, List.all_cons, List.all_nil, glm_persp_fovy_ok, glm_persp_aspect_ok, glm_ortho_lh_zo_ok, glm_ortho_aabb_lh_zo_ok, glm_ortho_aabb_p_lh_zo_ok, glm_ortho_aabb_pz_lh_zo_ok, glm_ortho_default_lh_zo_ok, glm_ortho_default_s_lh_zo_ok, glm_frustum_lh_zo_ok, glm_perspective_lh_zo_ok, glm_persp_move_far_lh_zo_ok, glm_perspective_default_lh_zo_ok, glm_perspective_resize_lh_zo_ok, glm_persp_decomp_lh_zo_ok, glm_persp_decompv_lh_zo_ok, glm_persp_decomp_x_lh_zo_ok, glm_persp_decomp_y_lh_zo_ok, glm_persp_decomp_z_lh_zo_ok, glm_persp_decomp_far_lh_zo_ok, glm_persp_decomp_near_lh_zo_ok, glm_persp_sizes_lh_zo_ok, glm_persp_fovy_lh_zo_ok, glm_persp_aspect_lh_zo_ok, glm_ortho_lh_no_ok, glm_ortho_aabb_lh_no_ok, glm_ortho_aabb_p_lh_no_ok, glm_ortho_aabb_pz_lh_no_ok, glm_ortho_default_lh_no_ok, glm_ortho_default_s_lh_no_ok, glm_frustum_lh_no_ok, glm_perspective_lh_no_ok, glm_perspective_default_lh_no_ok, glm_perspective_resize_lh_no_ok, glm_persp_move_far_lh_no_ok, glm_persp_decomp_lh_no_ok, glm_persp_decompv_lh_no_ok, glm_persp_decomp_x_lh_no_ok, glm_persp_decomp_y_lh_no_ok, glm_persp_decomp_z_lh_no_ok, glm_persp_decomp_far_lh_no_ok, Bool.and_self]
def partClip2 : List Entry := [glm_persp_decomp_near_lh_no, glm_persp_sizes_lh_no, glm_persp_fovy_lh_no, glm_persp_aspect_lh_no, glm_ortho_rh_zo, glm_ortho_aabb_rh_zo, glm_ortho_aabb_p_rh_zo, glm_ortho_aabb_pz_rh_zo, glm_ortho_default_rh_zo, glm_ortho_default_s_rh_zo, glm_frustum_rh_zo, glm_perspective_rh_zo, glm_perspective_default_rh_zo, glm_perspective_resize_rh_zo, glm_persp_move_far_rh_zo, glm_persp_decomp_rh_zo, glm_persp_decompv_rh_zo, glm_persp_decomp_x_rh_zo, glm_persp_decomp_y_rh_zo, glm_persp_decomp_z_rh_zo, glm_persp_decomp_far_rh_zo, glm_persp_decomp_near_rh_zo, glm_persp_sizes_rh_zo, glm_persp_fovy_rh_zo, glm_persp_aspect_rh_zo, glm_ortho_rh_no, glm_ortho_aabb_rh_no, glm_ortho_aabb_p_rh_no, glm_ortho_aabb_pz_rh_no, glm_ortho_default_rh_no, glm_ortho_default_s_rh_no, glm_frustum_rh_no, glm_perspective_rh_no, glm_perspective_default_rh_no, glm_perspective_resize_rh_no, glm_persp_move_far_rh_no, glm_persp_decomp_rh_no, glm_persp_decompv_rh_no, glm_persp_decomp_x_rh_no, glm_persp_decomp_y_rh_no]
theorem partClip2_ok : partClip2.all Entry.ok = true := by
  simp only [partClip2, List.all_cons, List.all_nil, glm_persp_decomp_near_lh_no_ok, glm_persp_sizes_lh_no_ok, glm_persp_fovy_lh_no_ok, glm_persp_aspect_lh_no_ok, glm_ortho_rh_zo_ok, glm_ortho_aabb_rh_zo_ok, glm_ortho_aabb_p_rh_zo_ok, glm_ortho_aabb_pz_rh_zo_ok, glm_ortho_default_rh_zo_ok, glm_ortho_default_s_rh_zo_ok, glm_frustum_rh_zo_ok, glm_perspective_rh_zo_ok, glm_perspective_default_rh_zo_ok, glm_perspective_resize_rh_zo_ok, glm_persp_move_far_rh_zo_ok, glm_persp_decomp_rh_zo_ok, glm_persp_decompv_rh_zo_ok, glm_persp_decomp_x_rh_zo_ok, glm_persp_decomp_y_rh_zo_ok, glm_persp_decomp_z_rh_zo_ok, glm_persp_decomp_far_rh_zo_ok, glm_persp_decomp_near_rh_zo_ok, glm_persp_sizes_rh_zo_ok, glm_persp_fovy_rh_zo_ok, glm_persp_aspect_rh_zo_ok, glm_ortho_rh_no_ok, glm_ortho_aabb_rh_no_ok, glm_ortho_aabb_p_rh_no_ok, glm_ortho_aabb_pz_rh_no_ok, glm_ortho_default_rh_no_ok, glm_ortho_default_s_rh_no_ok, glm_frustum_rh_no_ok, glm_perspective_rh_no_ok, glm_perspective_default_rh_no_ok, glm_perspective_resize_rh_no_ok, glm_persp_move_far_rh_no_ok, glm_persp_decomp_rh_no_ok, glm_persp_decompv_rh_no_ok, glm_persp_decomp_x_rh_no_ok, glm_persp_decomp_y_rh_no_ok, Bool.and_self]
def partClip3 : List Entry := [glm_persp_decomp_z_rh_no, glm_persp_decomp_far_rh_no, glm_persp_decomp_near_rh_no, glm_persp_sizes_rh_no, glm_persp_fovy_rh_no, glm_persp_aspect_rh_no, glm_lookat_lh, glm_look_lh, glm_look_anyup_lh, glm_lookat_lh_zo, glm_look_lh_zo, glm_look_anyup_lh_zo, glm_lookat_lh_no, glm_look_lh_no, glm_look_anyup_lh_no, glm_lookat_rh, glm_look_rh, glm_look_anyup_rh, glm_lookat_rh_zo, glm_look_rh_zo, glm_look_anyup_rh_zo, glm_lookat_rh_no, glm_look_rh_no, glm_look_anyup_rh_no, glm_unprojecti_zo, glm_project_zo, glm_project_z_zo, glm_unprojecti_no, glm_project_no, glm_project_z_no]
theorem partClip3_ok : partClip3.all Entry.ok = true := by
  simp only [partClip3, List.all_cons, List.all_nil, glm_persp_decomp_z_rh_no_ok, glm_persp_decomp_far_rh_no_ok, glm_persp_decomp_near_rh_no_ok, glm_persp_sizes_rh_no_ok, glm_persp_fovy_rh_no_ok, glm_persp_aspect_rh_no_ok, glm_lookat_lh_ok, glm_look_lh_ok, glm_look_anyup_lh_ok, glm_lookat_lh_zo_ok, glm_look_lh_zo_ok, glm_look_anyup_lh_zo_ok, glm_lookat_lh_no_ok, glm_look_lh_no_ok, glm_look_anyup_lh_no_ok, glm_lookat_rh_ok, glm_look_rh_ok, glm_look_anyup_rh_ok, glm_lookat_rh_zo_ok, glm_look_rh_zo_ok, glm_look_anyup_rh_zo_ok, glm_lookat_rh_no_ok, glm_look_rh_no_ok, glm_look_anyup_rh_no_ok, glm_unprojecti_zo_ok, glm_project_zo_ok, glm_project_z_zo_ok, glm_unprojecti_no_ok, glm_project_no_ok, glm_project_z_no_ok, Bool.and_self]

end Cglm.CMem.Lib
