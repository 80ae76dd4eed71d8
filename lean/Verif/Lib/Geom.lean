/- Generated by tools/safethms.py; do not edit by hand. -/
import Verif.CMemEntry
import Verif.Mem.Vecs
import Verif.Mem.Geoms
import Verif.Mem.Affines
import Verif.Mem.Noises

/-!
# The functions of the array interface with their arguments

Arrays are counted in floats.  The analysis of `CMemSafe` accepts every function.
-/

namespace Cglm.CMem.Lib

/-! ## include/cglm/util.h -/

/-- the parameters of `glm_signf`: include/cglm/util.h:61-65 -/
def glm_signf : Entry := ⟨C.glm_signf, [.f], .float⟩
theorem glm_signf_ok : glm_signf.ok = true := by kernel_rfl
/-- the parameters of `glm_rad`: include/cglm/util.h:72-76 -/
def glm_rad : Entry := ⟨C.glm_rad, [.f], .float⟩
theorem glm_rad_ok : glm_rad.ok = true := by kernel_rfl
/-- the parameters of `glm_deg`: include/cglm/util.h:83-87 -/
def glm_deg : Entry := ⟨C.glm_deg, [.f], .float⟩
theorem glm_deg_ok : glm_deg.ok = true := by kernel_rfl
/-- the parameters of `glm_make_rad`: include/cglm/util.h:94-98 -/
def glm_make_rad : Entry := ⟨C.glm_make_rad, [.io 1], .void⟩
theorem glm_make_rad_ok : glm_make_rad.ok = true := by kernel_rfl
/-- the parameters of `glm_make_deg`: include/cglm/util.h:105-109 -/
def glm_make_deg : Entry := ⟨C.glm_make_deg, [.io 1], .void⟩
theorem glm_make_deg_ok : glm_make_deg.ok = true := by kernel_rfl
/-- the parameters of `glm_pow2`: include/cglm/util.h:116-120 -/
def glm_pow2 : Entry := ⟨C.glm_pow2, [.f], .float⟩
theorem glm_pow2_ok : glm_pow2.ok = true := by kernel_rfl
/-- the parameters of `glm_min`: include/cglm/util.h:128-134 -/
def glm_min : Entry := ⟨C.glm_min, [.f, .f], .float⟩
theorem glm_min_ok : glm_min.ok = true := by kernel_rfl
/-- the parameters of `glm_max`: include/cglm/util.h:142-148 -/
def glm_max : Entry := ⟨C.glm_max, [.f, .f], .float⟩
theorem glm_max_ok : glm_max.ok = true := by kernel_rfl
/-- the parameters of `glm_imin`: include/cglm/util.h:158-164 -/
def glm_imin : Entry := ⟨C.glm_imin, [.i, .i], .int⟩
theorem glm_imin_ok : glm_imin.ok = true := by kernel_rfl
/-- the parameters of `glm_imax`: include/cglm/util.h:174-180 -/
def glm_imax : Entry := ⟨C.glm_imax, [.i, .i], .int⟩
theorem glm_imax_ok : glm_imax.ok = true := by kernel_rfl
/-- the parameters of `glm_clamp`: include/cglm/util.h:189-193 -/
def glm_clamp : Entry := ⟨C.glm_clamp, [.f, .f, .f], .float⟩
theorem glm_clamp_ok : glm_clamp.ok = true := by kernel_rfl
/-- the parameters of `glm_clamp_zo`: include/cglm/util.h:200-204 -/
def glm_clamp_zo : Entry := ⟨C.glm_clamp_zo, [.f], .float⟩
theorem glm_clamp_zo_ok : glm_clamp_zo.ok = true := by kernel_rfl
/-- the parameters of `glm_lerp`: include/cglm/util.h:215-219 -/
def glm_lerp : Entry := ⟨C.glm_lerp, [.f, .f, .f], .float⟩
theorem glm_lerp_ok : glm_lerp.ok = true := by kernel_rfl
/-- the parameters of `glm_lerpc`: include/cglm/util.h:230-234 -/
def glm_lerpc : Entry := ⟨C.glm_lerpc, [.f, .f, .f], .float⟩
theorem glm_lerpc_ok : glm_lerpc.ok = true := by kernel_rfl
/-- the parameters of `glm_step`: include/cglm/util.h:243-253 -/
def glm_step : Entry := ⟨C.glm_step, [.f, .f], .float⟩
theorem glm_step_ok : glm_step.ok = true := by kernel_rfl
/-- the parameters of `glm_smooth`: include/cglm/util.h:262-266 -/
def glm_smooth : Entry := ⟨C.glm_smooth, [.f], .float⟩
theorem glm_smooth_ok : glm_smooth.ok = true := by kernel_rfl
/-- the parameters of `glm_smoothstep`: include/cglm/util.h:277-283 -/
def glm_smoothstep : Entry := ⟨C.glm_smoothstep, [.f, .f, .f], .float⟩
theorem glm_smoothstep_ok : glm_smoothstep.ok = true := by kernel_rfl
/-- the parameters of `glm_smoothinterp`: include/cglm/util.h:294-298 -/
def glm_smoothinterp : Entry := ⟨C.glm_smoothinterp, [.f, .f, .f], .float⟩
theorem glm_smoothinterp_ok : glm_smoothinterp.ok = true := by kernel_rfl
/-- the parameters of `glm_smoothinterpc`: include/cglm/util.h:309-313 -/
def glm_smoothinterpc : Entry := ⟨C.glm_smoothinterpc, [.f, .f, .f], .float⟩
theorem glm_smoothinterpc_ok : glm_smoothinterpc.ok = true := by kernel_rfl
/-- the parameters of `glm_eq`: include/cglm/util.h:321-325 -/
def glm_eq : Entry := ⟨C.glm_eq, [.f, .f], .bool⟩
theorem glm_eq_ok : glm_eq.ok = true := by kernel_rfl
/-- the parameters of `glm_percent`: include/cglm/util.h:336-345 -/
def glm_percent : Entry := ⟨C.glm_percent, [.f, .f, .f], .float⟩
theorem glm_percent_ok : glm_percent.ok = true := by kernel_rfl
/-- the parameters of `glm_percentc`: include/cglm/util.h:354-358 -/
def glm_percentc : Entry := ⟨C.glm_percentc, [.f, .f, .f], .float⟩
theorem glm_percentc_ok : glm_percentc.ok = true := by kernel_rfl
/-- the parameters of `glm_swapf`: include/cglm/util.h:366-373 -/
def glm_swapf : Entry := ⟨C.glm_swapf, [.io 1, .io 1], .void⟩
theorem glm_swapf_ok : glm_swapf.ok = true := by kernel_rfl

/-! ## include/cglm/plane.h -/

/-- the parameters of `glm_plane_normalize`: include/cglm/plane.h:31-42 -/
def glm_plane_normalize : Entry := ⟨C.glm_plane_normalize, [.io 4], .void⟩
theorem glm_plane_normalize_ok : glm_plane_normalize.ok = true := by kernel_rfl

/-! ## include/cglm/cam.h -/

/-- the parameters of `glm_frustum`: include/cglm/cam.h:100-115 -/
def glm_frustum : Entry := ⟨C.glm_frustum, [.f, .f, .f, .f, .f, .f, .out 16], .void⟩
theorem glm_frustum_ok : glm_frustum.ok = true := by kernel_rfl
/-- the parameters of `glm_ortho`: include/cglm/cam.h:128-143 -/
def glm_ortho : Entry := ⟨C.glm_ortho, [.f, .f, .f, .f, .f, .f, .out 16], .void⟩
theorem glm_ortho_ok : glm_ortho.ok = true := by kernel_rfl
/-- the parameters of `glm_ortho_aabb`: include/cglm/cam.h:153-165 -/
def glm_ortho_aabb : Entry := ⟨C.glm_ortho_aabb, [.inp 6, .out 16], .void⟩
theorem glm_ortho_aabb_ok : glm_ortho_aabb.ok = true := by kernel_rfl
/-- the parameters of `glm_ortho_aabb_p`: include/cglm/cam.h:176-188 -/
def glm_ortho_aabb_p : Entry := ⟨C.glm_ortho_aabb_p, [.inp 6, .f, .out 16], .void⟩
theorem glm_ortho_aabb_p_ok : glm_ortho_aabb_p.ok = true := by kernel_rfl
/-- the parameters of `glm_ortho_aabb_pz`: include/cglm/cam.h:199-211 -/
def glm_ortho_aabb_pz : Entry := ⟨C.glm_ortho_aabb_pz, [.inp 6, .f, .out 16], .void⟩
theorem glm_ortho_aabb_pz_ok : glm_ortho_aabb_pz.ok = true := by kernel_rfl
/-- the parameters of `glm_ortho_default`: include/cglm/cam.h:219-231 -/
def glm_ortho_default : Entry := ⟨C.glm_ortho_default, [.f, .out 16], .void⟩
theorem glm_ortho_default_ok : glm_ortho_default.ok = true := by kernel_rfl
/-- the parameters of `glm_ortho_default_s`: include/cglm/cam.h:240-252 -/
def glm_ortho_default_s : Entry := ⟨C.glm_ortho_default_s, [.f, .f, .out 16], .void⟩
theorem glm_ortho_default_s_ok : glm_ortho_default_s.ok = true := by kernel_rfl
/-- the parameters of `glm_perspective`: include/cglm/cam.h:263-275 -/
def glm_perspective : Entry := ⟨C.glm_perspective, [.f, .f, .f, .f, .out 16], .void⟩
theorem glm_perspective_ok : glm_perspective.ok = true := by kernel_rfl
/-- the parameters of `glm_persp_move_far`: include/cglm/cam.h:285-297 -/
def glm_persp_move_far : Entry := ⟨C.glm_persp_move_far, [.io 16, .f], .void⟩
theorem glm_persp_move_far_ok : glm_persp_move_far.ok = true := by kernel_rfl
/-- the parameters of `glm_perspective_default`: include/cglm/cam.h:306-318 -/
def glm_perspective_default : Entry := ⟨C.glm_perspective_default, [.f, .out 16], .void⟩
theorem glm_perspective_default_ok : glm_perspective_default.ok = true := by kernel_rfl
/-- the parameters of `glm_perspective_resize`: include/cglm/cam.h:328-335 -/
def glm_perspective_resize : Entry := ⟨C.glm_perspective_resize, [.f, .io 16], .void⟩
theorem glm_perspective_resize_ok : glm_perspective_resize.ok = true := by kernel_rfl
/-- the parameters of `glm_lookat`: include/cglm/cam.h:348-356 -/
def glm_lookat : Entry := ⟨C.glm_lookat, [.inp 3, .inp 3, .inp 3, .out 16], .void⟩
theorem glm_lookat_ok : glm_lookat.ok = true := by kernel_rfl
/-- the parameters of `glm_look`: include/cglm/cam.h:372-380 -/
def glm_look : Entry := ⟨C.glm_look, [.inp 3, .inp 3, .inp 3, .out 16], .void⟩
theorem glm_look_ok : glm_look.ok = true := by kernel_rfl
/-- the parameters of `glm_look_anyup`: include/cglm/cam.h:392-400 -/
def glm_look_anyup : Entry := ⟨C.glm_look_anyup, [.inp 3, .inp 3, .out 16], .void⟩
theorem glm_look_anyup_ok : glm_look_anyup.ok = true := by kernel_rfl
/-- the parameters of `glm_persp_decomp`: include/cglm/cam.h:413-428 -/
def glm_persp_decomp : Entry := ⟨C.glm_persp_decomp, [.inp 16, .out 1, .out 1, .out 1, .out 1, .out 1, .out 1], .void⟩
theorem glm_persp_decomp_ok : glm_persp_decomp.ok = true := by kernel_rfl
/-- the parameters of `glm_persp_decompv`: include/cglm/cam.h:437-449 -/
def glm_persp_decompv : Entry := ⟨C.glm_persp_decompv, [.inp 16, .out 6], .void⟩
theorem glm_persp_decompv_ok : glm_persp_decompv.ok = true := by kernel_rfl
/-- the parameters of `glm_persp_decomp_x`: include/cglm/cam.h:459-473 -/
def glm_persp_decomp_x : Entry := ⟨C.glm_persp_decomp_x, [.inp 16, .out 1, .out 1], .void⟩
theorem glm_persp_decomp_x_ok : glm_persp_decomp_x.ok = true := by kernel_rfl
/-- the parameters of `glm_persp_decomp_y`: include/cglm/cam.h:483-497 -/
def glm_persp_decomp_y : Entry := ⟨C.glm_persp_decomp_y, [.inp 16, .out 1, .out 1], .void⟩
theorem glm_persp_decomp_y_ok : glm_persp_decomp_y.ok = true := by kernel_rfl
/-- the parameters of `glm_persp_decomp_z`: include/cglm/cam.h:507-519 -/
def glm_persp_decomp_z : Entry := ⟨C.glm_persp_decomp_z, [.inp 16, .out 1, .out 1], .void⟩
theorem glm_persp_decomp_z_ok : glm_persp_decomp_z.ok = true := by kernel_rfl
/-- the parameters of `glm_persp_decomp_far`: include/cglm/cam.h:527-539 -/
def glm_persp_decomp_far : Entry := ⟨C.glm_persp_decomp_far, [.inp 16, .out 1], .void⟩
theorem glm_persp_decomp_far_ok : glm_persp_decomp_far.ok = true := by kernel_rfl
/-- the parameters of `glm_persp_decomp_near`: include/cglm/cam.h:547-559 -/
def glm_persp_decomp_near : Entry := ⟨C.glm_persp_decomp_near, [.inp 16, .out 1], .void⟩
theorem glm_persp_decomp_near_ok : glm_persp_decomp_near.ok = true := by kernel_rfl
/-- the parameters of `glm_persp_sizes`: include/cglm/cam.h:568-580 -/
def glm_persp_sizes : Entry := ⟨C.glm_persp_sizes, [.inp 16, .f, .out 4], .void⟩
theorem glm_persp_sizes_ok : glm_persp_sizes.ok = true := by kernel_rfl

/-! ## include/cglm/frustum.h -/

/-- the parameters of `glm_frustum_planes`: include/cglm/frustum.h:70-90 -/
def glm_frustum_planes : Entry := ⟨C.glm_frustum_planes, [.inp 16, .out 24], .void⟩
theorem glm_frustum_planes_ok : glm_frustum_planes.ok = true := by kernel_rfl
/-- the parameters of `glm_frustum_corners`: include/cglm/frustum.h:115-150 -/
def glm_frustum_corners : Entry := ⟨C.glm_frustum_corners, [.inp 16, .out 32], .void⟩
theorem glm_frustum_corners_ok : glm_frustum_corners.ok = true := by kernel_rfl
/-- the parameters of `glm_frustum_center`: include/cglm/frustum.h:158-174 -/
def glm_frustum_center : Entry := ⟨C.glm_frustum_center, [.inp 32, .out 4], .void⟩
theorem glm_frustum_center_ok : glm_frustum_center.ok = true := by kernel_rfl
/-- the parameters of `glm_frustum_box`: include/cglm/frustum.h:183-207 -/
def glm_frustum_box : Entry := ⟨C.glm_frustum_box, [.inp 32, .inp 16, .out 6], .void⟩
theorem glm_frustum_box_ok : glm_frustum_box.ok = true := by kernel_rfl
/-- the parameters of `glm_frustum_corners_at`: include/cglm/frustum.h:221-253 -/
def glm_frustum_corners_at : Entry := ⟨C.glm_frustum_corners_at, [.inp 32, .f, .f, .out 16], .void⟩
theorem glm_frustum_corners_at_ok : glm_frustum_corners_at.ok = true := by kernel_rfl

/-! ## include/cglm/noise.h -/

/-- the parameters of `glm_perlin_vec4`: include/cglm/noise.h:296-497 -/
def glm_perlin_vec4 : Entry := ⟨C.glm_perlin_vec4, [.inp 4], .float⟩
theorem glm_perlin_vec4_ok : glm_perlin_vec4.ok = true := by kernel_rfl
/-- the parameters of `glm_perlin_vec3`: include/cglm/noise.h:506-625 -/
def glm_perlin_vec3 : Entry := ⟨C.glm_perlin_vec3, [.inp 3], .float⟩
theorem glm_perlin_vec3_ok : glm_perlin_vec3.ok = true := by kernel_rfl
/-- the parameters of `glm_perlin_vec2`: include/cglm/noise.h:633-717 -/
def glm_perlin_vec2 : Entry := ⟨C.glm_perlin_vec2, [.inp 2], .float⟩
theorem glm_perlin_vec2_ok : glm_perlin_vec2.ok = true := by kernel_rfl

/-! ## include/cglm/aabb2d.h -/

/-- the parameters of `glm_aabb2d_zero`: include/cglm/aabb2d.h:23-28 -/
def glm_aabb2d_zero : Entry := ⟨C.glm_aabb2d_zero, [.out 4], .void⟩
theorem glm_aabb2d_zero_ok : glm_aabb2d_zero.ok = true := by kernel_rfl
/-- the parameters of `glm_aabb2d_copy`: include/cglm/aabb2d.h:36-41 -/
def glm_aabb2d_copy : Entry := ⟨C.glm_aabb2d_copy, [.inp 4, .out 4], .void⟩
theorem glm_aabb2d_copy_ok : glm_aabb2d_copy.ok = true := by kernel_rfl
/-- the parameters of `glm_aabb2d_transform`: include/cglm/aabb2d.h:50-73 -/
def glm_aabb2d_transform : Entry := ⟨C.glm_aabb2d_transform, [.inp 4, .inp 9, .out 4], .void⟩
theorem glm_aabb2d_transform_ok : glm_aabb2d_transform.ok = true := by kernel_rfl
/-- the parameters of `glm_aabb2d_merge`: include/cglm/aabb2d.h:85-93 -/
def glm_aabb2d_merge : Entry := ⟨C.glm_aabb2d_merge, [.inp 4, .inp 4, .out 4], .void⟩
theorem glm_aabb2d_merge_ok : glm_aabb2d_merge.ok = true := by kernel_rfl
/-- the parameters of `glm_aabb2d_crop`: include/cglm/aabb2d.h:106-114 -/
def glm_aabb2d_crop : Entry := ⟨C.glm_aabb2d_crop, [.inp 4, .inp 4, .out 4], .void⟩
theorem glm_aabb2d_crop_ok : glm_aabb2d_crop.ok = true := by kernel_rfl
/-- the parameters of `glm_aabb2d_crop_until`: include/cglm/aabb2d.h:128-136 -/
def glm_aabb2d_crop_until : Entry := ⟨C.glm_aabb2d_crop_until, [.inp 4, .inp 4, .inp 4, .out 4], .void⟩
theorem glm_aabb2d_crop_until_ok : glm_aabb2d_crop_until.ok = true := by kernel_rfl
/-- the parameters of `glm_aabb2d_invalidate`: include/cglm/aabb2d.h:143-148 -/
def glm_aabb2d_invalidate : Entry := ⟨C.glm_aabb2d_invalidate, [.out 4], .void⟩
theorem glm_aabb2d_invalidate_ok : glm_aabb2d_invalidate.ok = true := by kernel_rfl
/-- the parameters of `glm_aabb2d_isvalid`: include/cglm/aabb2d.h:155-160 -/
def glm_aabb2d_isvalid : Entry := ⟨C.glm_aabb2d_isvalid, [.inp 4], .bool⟩
theorem glm_aabb2d_isvalid_ok : glm_aabb2d_isvalid.ok = true := by kernel_rfl
/-- the parameters of `glm_aabb2d_diag`: include/cglm/aabb2d.h:167-171 -/
def glm_aabb2d_diag : Entry := ⟨C.glm_aabb2d_diag, [.inp 4], .float⟩
theorem glm_aabb2d_diag_ok : glm_aabb2d_diag.ok = true := by kernel_rfl
/-- the parameters of `glm_aabb2d_sizev`: include/cglm/aabb2d.h:179-183 -/
def glm_aabb2d_sizev : Entry := ⟨C.glm_aabb2d_sizev, [.inp 4, .out 2], .void⟩
theorem glm_aabb2d_sizev_ok : glm_aabb2d_sizev.ok = true := by kernel_rfl
/-- the parameters of `glm_aabb2d_radius`: include/cglm/aabb2d.h:190-194 -/
def glm_aabb2d_radius : Entry := ⟨C.glm_aabb2d_radius, [.inp 4], .float⟩
theorem glm_aabb2d_radius_ok : glm_aabb2d_radius.ok = true := by kernel_rfl
/-- the parameters of `glm_aabb2d_center`: include/cglm/aabb2d.h:202-206 -/
def glm_aabb2d_center : Entry := ⟨C.glm_aabb2d_center, [.inp 4, .out 2], .void⟩
theorem glm_aabb2d_center_ok : glm_aabb2d_center.ok = true := by kernel_rfl
/-- the parameters of `glm_aabb2d_aabb`: include/cglm/aabb2d.h:214-219 -/
def glm_aabb2d_aabb : Entry := ⟨C.glm_aabb2d_aabb, [.inp 4, .inp 4], .bool⟩
theorem glm_aabb2d_aabb_ok : glm_aabb2d_aabb.ok = true := by kernel_rfl
/-- the parameters of `glm_aabb2d_circle`: include/cglm/aabb2d.h:229-242 -/
def glm_aabb2d_circle : Entry := ⟨C.glm_aabb2d_circle, [.inp 4, .inp 3], .bool⟩
theorem glm_aabb2d_circle_ok : glm_aabb2d_circle.ok = true := by kernel_rfl
/-- the parameters of `glm_aabb2d_point`: include/cglm/aabb2d.h:250-255 -/
def glm_aabb2d_point : Entry := ⟨C.glm_aabb2d_point, [.inp 4, .inp 2], .bool⟩
theorem glm_aabb2d_point_ok : glm_aabb2d_point.ok = true := by kernel_rfl
/-- the parameters of `glm_aabb2d_contains`: include/cglm/aabb2d.h:263-268 -/
def glm_aabb2d_contains : Entry := ⟨C.glm_aabb2d_contains, [.inp 4, .inp 4], .bool⟩
theorem glm_aabb2d_contains_ok : glm_aabb2d_contains.ok = true := by kernel_rfl

/-! ## include/cglm/box.h -/

/-- the parameters of `glm_aabb_transform`: include/cglm/box.h:23-51 -/
def glm_aabb_transform : Entry := ⟨C.glm_aabb_transform, [.inp 6, .inp 16, .out 6], .void⟩
theorem glm_aabb_transform_ok : glm_aabb_transform.ok = true := by kernel_rfl
/-- the parameters of `glm_aabb_merge`: include/cglm/box.h:63-73 -/
def glm_aabb_merge : Entry := ⟨C.glm_aabb_merge, [.inp 6, .inp 6, .out 6], .void⟩
theorem glm_aabb_merge_ok : glm_aabb_merge.ok = true := by kernel_rfl
/-- the parameters of `glm_aabb_crop`: include/cglm/box.h:86-96 -/
def glm_aabb_crop : Entry := ⟨C.glm_aabb_crop, [.inp 6, .inp 6, .out 6], .void⟩
theorem glm_aabb_crop_ok : glm_aabb_crop.ok = true := by kernel_rfl
/-- the parameters of `glm_aabb_crop_until`: include/cglm/box.h:110-118 -/
def glm_aabb_crop_until : Entry := ⟨C.glm_aabb_crop_until, [.inp 6, .inp 6, .inp 6, .out 6], .void⟩
theorem glm_aabb_crop_until_ok : glm_aabb_crop_until.ok = true := by kernel_rfl
/-- the parameters of `glm_aabb_frustum`: include/cglm/box.h:134-151 -/
def glm_aabb_frustum : Entry := ⟨C.glm_aabb_frustum, [.inp 6, .inp 24], .bool⟩
theorem glm_aabb_frustum_ok : glm_aabb_frustum.ok = true := by kernel_rfl
/-- the parameters of `glm_aabb_invalidate`: include/cglm/box.h:158-163 -/
def glm_aabb_invalidate : Entry := ⟨C.glm_aabb_invalidate, [.out 6], .void⟩
theorem glm_aabb_invalidate_ok : glm_aabb_invalidate.ok = true := by kernel_rfl
/-- the parameters of `glm_aabb_isvalid`: include/cglm/box.h:170-175 -/
def glm_aabb_isvalid : Entry := ⟨C.glm_aabb_isvalid, [.inp 6], .bool⟩
theorem glm_aabb_isvalid_ok : glm_aabb_isvalid.ok = true := by kernel_rfl
/-- the parameters of `glm_aabb_size`: include/cglm/box.h:182-186 -/
def glm_aabb_size : Entry := ⟨C.glm_aabb_size, [.inp 6], .float⟩
theorem glm_aabb_size_ok : glm_aabb_size.ok = true := by kernel_rfl
/-- the parameters of `glm_aabb_radius`: include/cglm/box.h:193-197 -/
def glm_aabb_radius : Entry := ⟨C.glm_aabb_radius, [.inp 6], .float⟩
theorem glm_aabb_radius_ok : glm_aabb_radius.ok = true := by kernel_rfl
/-- the parameters of `glm_aabb_center`: include/cglm/box.h:205-209 -/
def glm_aabb_center : Entry := ⟨C.glm_aabb_center, [.inp 6, .out 3], .void⟩
theorem glm_aabb_center_ok : glm_aabb_center.ok = true := by kernel_rfl
/-- the parameters of `glm_aabb_aabb`: include/cglm/box.h:217-223 -/
def glm_aabb_aabb : Entry := ⟨C.glm_aabb_aabb, [.inp 6, .inp 6], .bool⟩
theorem glm_aabb_aabb_ok : glm_aabb_aabb.ok = true := by kernel_rfl
/-- the parameters of `glm_aabb_sphere`: include/cglm/box.h:236-251 -/
def glm_aabb_sphere : Entry := ⟨C.glm_aabb_sphere, [.inp 6, .inp 4], .bool⟩
theorem glm_aabb_sphere_ok : glm_aabb_sphere.ok = true := by kernel_rfl
/-- the parameters of `glm_aabb_point`: include/cglm/box.h:259-265 -/
def glm_aabb_point : Entry := ⟨C.glm_aabb_point, [.inp 6, .inp 3], .bool⟩
theorem glm_aabb_point_ok : glm_aabb_point.ok = true := by kernel_rfl
/-- the parameters of `glm_aabb_contains`: include/cglm/box.h:273-279 -/
def glm_aabb_contains : Entry := ⟨C.glm_aabb_contains, [.inp 6, .inp 6], .bool⟩
theorem glm_aabb_contains_ok : glm_aabb_contains.ok = true := by kernel_rfl

/-! ## include/cglm/color.h -/

/-- the parameters of `glm_luminance`: include/cglm/color.h:19-24 -/
def glm_luminance : Entry := ⟨C.glm_luminance, [.inp 3], .float⟩
theorem glm_luminance_ok : glm_luminance.ok = true := by kernel_rfl

/-! ## include/cglm/project.h -/

/-- the parameters of `glm_unprojecti`: include/cglm/project.h:53-61 -/
def glm_unprojecti : Entry := ⟨C.glm_unprojecti, [.inp 3, .inp 16, .inp 4, .out 3], .void⟩
theorem glm_unprojecti_ok : glm_unprojecti.ok = true := by kernel_rfl
/-- the parameters of `glm_unproject`: include/cglm/project.h:87-93 -/
def glm_unproject : Entry := ⟨C.glm_unproject, [.inp 3, .inp 16, .inp 4, .out 3], .void⟩
theorem glm_unproject_ok : glm_unproject.ok = true := by kernel_rfl
/-- the parameters of `glm_project`: include/cglm/project.h:107-115 -/
def glm_project : Entry := ⟨C.glm_project, [.inp 3, .inp 16, .inp 4, .out 3], .void⟩
theorem glm_project_ok : glm_project.ok = true := by kernel_rfl
/-- the parameters of `glm_project_z`: include/cglm/project.h:129-137 -/
def glm_project_z : Entry := ⟨C.glm_project_z, [.inp 3, .inp 16], .float⟩
theorem glm_project_z_ok : glm_project_z.ok = true := by kernel_rfl
/-- the parameters of `glm_pickmatrix`: include/cglm/project.h:147-170 -/
def glm_pickmatrix : Entry := ⟨C.glm_pickmatrix, [.inp 2, .inp 2, .inp 4, .io 16], .void⟩
theorem glm_pickmatrix_ok : glm_pickmatrix.ok = true := by kernel_rfl

/-! ## include/cglm/sphere.h -/

/-- the parameters of `glm_sphere_radii`: include/cglm/sphere.h:28-32 -/
def glm_sphere_radii : Entry := ⟨C.glm_sphere_radii, [.inp 4], .float⟩
theorem glm_sphere_radii_ok : glm_sphere_radii.ok = true := by kernel_rfl
/-- the parameters of `glm_sphere_transform`: include/cglm/sphere.h:41-46 -/
def glm_sphere_transform : Entry := ⟨C.glm_sphere_transform, [.inp 4, .inp 16, .out 4], .void⟩
theorem glm_sphere_transform_ok : glm_sphere_transform.ok = true := by kernel_rfl
/-- the parameters of `glm_sphere_merge`: include/cglm/sphere.h:58-71 -/
def glm_sphere_merge : Entry := ⟨C.glm_sphere_merge, [.inp 4, .inp 4, .out 4], .void⟩
theorem glm_sphere_merge_ok : glm_sphere_merge.ok = true := by kernel_rfl
/-- the parameters of `glm_sphere_sphere`: include/cglm/sphere.h:79-83 -/
def glm_sphere_sphere : Entry := ⟨C.glm_sphere_sphere, [.inp 4, .inp 4], .bool⟩
theorem glm_sphere_sphere_ok : glm_sphere_sphere.ok = true := by kernel_rfl
/-- the parameters of `glm_sphere_point`: include/cglm/sphere.h:91-97 -/
def glm_sphere_point : Entry := ⟨C.glm_sphere_point, [.inp 4, .inp 3], .bool⟩
theorem glm_sphere_point_ok : glm_sphere_point.ok = true := by kernel_rfl

/-! ## include/cglm/ease.h -/

/-- the parameters of `glm_ease_linear`: include/cglm/ease.h:13-17 -/
def glm_ease_linear : Entry := ⟨C.glm_ease_linear, [.f], .float⟩
theorem glm_ease_linear_ok : glm_ease_linear.ok = true := by kernel_rfl
/-- the parameters of `glm_ease_sine_in`: include/cglm/ease.h:19-23 -/
def glm_ease_sine_in : Entry := ⟨C.glm_ease_sine_in, [.f], .float⟩
theorem glm_ease_sine_in_ok : glm_ease_sine_in.ok = true := by kernel_rfl
/-- the parameters of `glm_ease_sine_out`: include/cglm/ease.h:25-29 -/
def glm_ease_sine_out : Entry := ⟨C.glm_ease_sine_out, [.f], .float⟩
theorem glm_ease_sine_out_ok : glm_ease_sine_out.ok = true := by kernel_rfl
/-- the parameters of `glm_ease_sine_inout`: include/cglm/ease.h:31-35 -/
def glm_ease_sine_inout : Entry := ⟨C.glm_ease_sine_inout, [.f], .float⟩
theorem glm_ease_sine_inout_ok : glm_ease_sine_inout.ok = true := by kernel_rfl
/-- the parameters of `glm_ease_quad_in`: include/cglm/ease.h:37-41 -/
def glm_ease_quad_in : Entry := ⟨C.glm_ease_quad_in, [.f], .float⟩
theorem glm_ease_quad_in_ok : glm_ease_quad_in.ok = true := by kernel_rfl
/-- the parameters of `glm_ease_quad_out`: include/cglm/ease.h:43-47 -/
def glm_ease_quad_out : Entry := ⟨C.glm_ease_quad_out, [.f], .float⟩
theorem glm_ease_quad_out_ok : glm_ease_quad_out.ok = true := by kernel_rfl
/-- the parameters of `glm_ease_quad_inout`: include/cglm/ease.h:49-59 -/
def glm_ease_quad_inout : Entry := ⟨C.glm_ease_quad_inout, [.f], .float⟩
theorem glm_ease_quad_inout_ok : glm_ease_quad_inout.ok = true := by kernel_rfl
/-- the parameters of `glm_ease_cubic_in`: include/cglm/ease.h:61-65 -/
def glm_ease_cubic_in : Entry := ⟨C.glm_ease_cubic_in, [.f], .float⟩
theorem glm_ease_cubic_in_ok : glm_ease_cubic_in.ok = true := by kernel_rfl
/-- the parameters of `glm_ease_cubic_out`: include/cglm/ease.h:67-73 -/
def glm_ease_cubic_out : Entry := ⟨C.glm_ease_cubic_out, [.f], .float⟩
theorem glm_ease_cubic_out_ok : glm_ease_cubic_out.ok = true := by kernel_rfl
/-- the parameters of `glm_ease_cubic_inout`: include/cglm/ease.h:75-86 -/
def glm_ease_cubic_inout : Entry := ⟨C.glm_ease_cubic_inout, [.f], .float⟩
theorem glm_ease_cubic_inout_ok : glm_ease_cubic_inout.ok = true := by kernel_rfl
/-- the parameters of `glm_ease_quart_in`: include/cglm/ease.h:88-94 -/
def glm_ease_quart_in : Entry := ⟨C.glm_ease_quart_in, [.f], .float⟩
theorem glm_ease_quart_in_ok : glm_ease_quart_in.ok = true := by kernel_rfl
/-- the parameters of `glm_ease_quart_out`: include/cglm/ease.h:96-104 -/
def glm_ease_quart_out : Entry := ⟨C.glm_ease_quart_out, [.f], .float⟩
theorem glm_ease_quart_out_ok : glm_ease_quart_out.ok = true := by kernel_rfl
/-- the parameters of `glm_ease_quart_inout`: include/cglm/ease.h:106-120 -/
def glm_ease_quart_inout : Entry := ⟨C.glm_ease_quart_inout, [.f], .float⟩
theorem glm_ease_quart_inout_ok : glm_ease_quart_inout.ok = true := by kernel_rfl
/-- the parameters of `glm_ease_quint_in`: include/cglm/ease.h:122-128 -/
def glm_ease_quint_in : Entry := ⟨C.glm_ease_quint_in, [.f], .float⟩
theorem glm_ease_quint_in_ok : glm_ease_quint_in.ok = true := by kernel_rfl
/-- the parameters of `glm_ease_quint_out`: include/cglm/ease.h:130-139 -/
def glm_ease_quint_out : Entry := ⟨C.glm_ease_quint_out, [.f], .float⟩
theorem glm_ease_quint_out_ok : glm_ease_quint_out.ok = true := by kernel_rfl
/-- the parameters of `glm_ease_quint_inout`: include/cglm/ease.h:141-155 -/
def glm_ease_quint_inout : Entry := ⟨C.glm_ease_quint_inout, [.f], .float⟩
theorem glm_ease_quint_inout_ok : glm_ease_quint_inout.ok = true := by kernel_rfl
/-- the parameters of `glm_ease_exp_in`: include/cglm/ease.h:157-164 -/
def glm_ease_exp_in : Entry := ⟨C.glm_ease_exp_in, [.f], .float⟩
theorem glm_ease_exp_in_ok : glm_ease_exp_in.ok = true := by kernel_rfl
/-- the parameters of `glm_ease_exp_out`: include/cglm/ease.h:166-173 -/
def glm_ease_exp_out : Entry := ⟨C.glm_ease_exp_out, [.f], .float⟩
theorem glm_ease_exp_out_ok : glm_ease_exp_out.ok = true := by kernel_rfl
/-- the parameters of `glm_ease_exp_inout`: include/cglm/ease.h:175-185 -/
def glm_ease_exp_inout : Entry := ⟨C.glm_ease_exp_inout, [.f], .float⟩
theorem glm_ease_exp_inout_ok : glm_ease_exp_inout.ok = true := by kernel_rfl
/-- the parameters of `glm_ease_circ_in`: include/cglm/ease.h:187-191 -/
def glm_ease_circ_in : Entry := ⟨C.glm_ease_circ_in, [.f], .float⟩
theorem glm_ease_circ_in_ok : glm_ease_circ_in.ok = true := by kernel_rfl
/-- the parameters of `glm_ease_circ_out`: include/cglm/ease.h:193-197 -/
def glm_ease_circ_out : Entry := ⟨C.glm_ease_circ_out, [.f], .float⟩
theorem glm_ease_circ_out_ok : glm_ease_circ_out.ok = true := by kernel_rfl
/-- the parameters of `glm_ease_circ_inout`: include/cglm/ease.h:199-206 -/
def glm_ease_circ_inout : Entry := ⟨C.glm_ease_circ_inout, [.f], .float⟩
theorem glm_ease_circ_inout_ok : glm_ease_circ_inout.ok = true := by kernel_rfl
/-- the parameters of `glm_ease_back_in`: include/cglm/ease.h:208-217 -/
def glm_ease_back_in : Entry := ⟨C.glm_ease_back_in, [.f], .float⟩
theorem glm_ease_back_in_ok : glm_ease_back_in.ok = true := by kernel_rfl
/-- the parameters of `glm_ease_back_out`: include/cglm/ease.h:219-229 -/
def glm_ease_back_out : Entry := ⟨C.glm_ease_back_out, [.f], .float⟩
theorem glm_ease_back_out_ok : glm_ease_back_out.ok = true := by kernel_rfl
/-- the parameters of `glm_ease_back_inout`: include/cglm/ease.h:231-252 -/
def glm_ease_back_inout : Entry := ⟨C.glm_ease_back_inout, [.f], .float⟩
theorem glm_ease_back_inout_ok : glm_ease_back_inout.ok = true := by kernel_rfl
/-- the parameters of `glm_ease_elast_in`: include/cglm/ease.h:254-258 -/
def glm_ease_elast_in : Entry := ⟨C.glm_ease_elast_in, [.f], .float⟩
theorem glm_ease_elast_in_ok : glm_ease_elast_in.ok = true := by kernel_rfl
/-- the parameters of `glm_ease_elast_out`: include/cglm/ease.h:260-264 -/
def glm_ease_elast_out : Entry := ⟨C.glm_ease_elast_out, [.f], .float⟩
theorem glm_ease_elast_out_ok : glm_ease_elast_out.ok = true := by kernel_rfl
/-- the parameters of `glm_ease_elast_inout`: include/cglm/ease.h:266-279 -/
def glm_ease_elast_inout : Entry := ⟨C.glm_ease_elast_inout, [.f], .float⟩
theorem glm_ease_elast_inout_ok : glm_ease_elast_inout.ok = true := by kernel_rfl
/-- the parameters of `glm_ease_bounce_out`: include/cglm/ease.h:281-300 -/
def glm_ease_bounce_out : Entry := ⟨C.glm_ease_bounce_out, [.f], .float⟩
theorem glm_ease_bounce_out_ok : glm_ease_bounce_out.ok = true := by kernel_rfl
/-- the parameters of `glm_ease_bounce_in`: include/cglm/ease.h:302-306 -/
def glm_ease_bounce_in : Entry := ⟨C.glm_ease_bounce_in, [.f], .float⟩
theorem glm_ease_bounce_in_ok : glm_ease_bounce_in.ok = true := by kernel_rfl
/-- the parameters of `glm_ease_bounce_inout`: include/cglm/ease.h:308-315 -/
def glm_ease_bounce_inout : Entry := ⟨C.glm_ease_bounce_inout, [.f], .float⟩
theorem glm_ease_bounce_inout_ok : glm_ease_bounce_inout.ok = true := by kernel_rfl

/-! ## include/cglm/curve.h -/

/-- the parameters of `glm_smc`: include/cglm/curve.h:32-38 -/
def glm_smc : Entry := ⟨C.glm_smc, [.f, .inp 16, .inp 4], .float⟩
theorem glm_smc_ok : glm_smc.ok = true := by kernel_rfl

/-! ## include/cglm/bezier.h -/

/-- the parameters of `glm_bezier`: include/cglm/bezier.h:48-60 -/
def glm_bezier : Entry := ⟨C.glm_bezier, [.f, .f, .f, .f, .f], .float⟩
theorem glm_bezier_ok : glm_bezier.ok = true := by kernel_rfl
/-- the parameters of `glm_hermite`: include/cglm/bezier.h:82-96 -/
def glm_hermite : Entry := ⟨C.glm_hermite, [.f, .f, .f, .f, .f], .float⟩
theorem glm_hermite_ok : glm_hermite.ok = true := by kernel_rfl

/-! ## include/cglm/ray.h -/

/-- the parameters of `glm_ray_triangle`: include/cglm/ray.h:40-80 -/
def glm_ray_triangle : Entry := ⟨C.glm_ray_triangle, [.inp 3, .inp 3, .inp 3, .inp 3, .inp 3, .io 1], .bool⟩
theorem glm_ray_triangle_ok : glm_ray_triangle.ok = true := by kernel_rfl
/-- the parameters of `glm_ray_sphere`: include/cglm/ray.h:102-156 -/
def glm_ray_sphere : Entry := ⟨C.glm_ray_sphere, [.inp 3, .inp 3, .inp 4, .io 1, .io 1], .bool⟩
theorem glm_ray_sphere_ok : glm_ray_sphere.ok = true := by kernel_rfl
/-- the parameters of `glm_ray_at`: include/cglm/ray.h:166-172 -/
def glm_ray_at : Entry := ⟨C.glm_ray_at, [.inp 3, .inp 3, .f, .out 3], .void⟩
theorem glm_ray_at_ok : glm_ray_at.ok = true := by kernel_rfl

def partGeom1 : List Entry := [glm_signf, glm_rad, glm_deg, glm_make_rad, glm_make_deg, glm_pow2, glm_min, glm_max, glm_imin, glm_imax, glm_clamp, glm_clamp_zo, glm_lerp, glm_lerpc, glm_step, glm_smooth, glm_smoothstep, glm_smoothinterp, glm_smoothinterpc, glm_eq, glm_percent, glm_percentc, glm_swapf, glm_plane_normalize, glm_frustum, glm_ortho, glm_ortho_aabb, glm_ortho_aabb_p, glm_ortho_aabb_pz, glm_ortho_default, glm_ortho_default_s, glm_perspective, glm_persp_move_far, glm_perspective_default, glm_perspective_resize, glm_lookat, glm_look, glm_look_anyup, glm_persp_decomp, glm_persp_decompv]
theorem partGeom1_ok : partGeom1.all Entry.ok = true := by
  simp only [partGeom1, List.all_cons, List.all_nil, glm_signf_ok, glm_rad_ok, glm_deg_ok, glm_make_rad_ok, glm_make_deg_ok, glm_pow2_ok, glm_min_ok, glm_max_ok, glm_imin_ok, glm_imax_ok, glm_clamp_ok, glm_clamp_zo_ok, glm_lerp_ok, glm_lerpc_ok, glm_step_ok, glm_smooth_ok, glm_smoothstep_ok, glm_smoothinterp_ok, glm_smoothinterpc_ok, glm_eq_ok, glm_percent_ok, glm_percentc_ok, glm_swapf_ok, glm_plane_normalize_ok, glm_frustum_ok, glm_ortho_ok, glm_ortho_aabb_ok, glm_ortho_aabb_p_ok, glm_ortho_aabb_pz_ok, glm_ortho_default_ok, glm_ortho_default_s_ok, glm_perspective_ok, glm_persp_move_far_ok, glm_perspective_default_ok, glm_perspective_resize_ok, glm_lookat_ok, glm_look_ok, glm_look_anyup_ok, glm_persp_decomp_ok, glm_persp_decompv_ok, Bool.and_self]
def partGeom2 : List Entry := [glm_persp_decomp_x, glm_persp_decomp_y, glm_persp_decomp_z, glm_persp_decomp_far, glm_persp_decomp_near, glm_persp_sizes, glm_frustum_planes, glm_frustum_corners, glm_frustum_center, glm_frustum_box, glm_frustum_corners_at, glm_perlin_vec4, glm_perlin_vec3, glm_perlin_vec2, glm_aabb2d_zero, glm_aabb2d_copy, glm_aabb2d_transform, glm_aabb2d_merge, glm_aabb2d_crop, glm_aabb2d_crop_until, glm_aabb2d_invalidate, glm_aabb2d_isvalid, glm_aabb2d_diag, glm_aabb2d_sizev, glm_aabb2d_radius, glm_aabb2d_center, glm_aabb2d_aabb, glm_aabb2d_circle, glm_aabb2d_point, glm_aabb2d_contains, glm_aabb_transform, glm_aabb_merge, glm_aabb_crop, glm_aabb_crop_until, glm_aabb_frustum, glm_aabb_invalidate, glm_aabb_isvalid, glm_aabb_size, glm_aabb_radius, glm_aabb_center]
theorem partGeom2_ok : partGeom2.all Entry.ok = true := by
  simp only [partGeom2, List.all_cons, List.all_nil, glm_persp_decomp_x_ok, glm_persp_decomp_y_ok, glm_persp_decomp_z_ok, glm_persp_decomp_far_ok, glm_persp_decomp_near_ok, glm_persp_sizes_ok, glm_frustum_planes_ok, glm_frustum_corners_ok, glm_frustum_center_ok, glm_frustum_box_ok, glm_frustum_corners_at_ok, glm_perlin_vec4_ok, glm_perlin_vec3_ok, glm_perlin_vec2_ok, glm_aabb2d_zero_ok, glm_aabb2d_copy_ok, glm_aabb2d_transform_ok, glm_aabb2d_merge_ok, glm_aabb2d_crop_ok, glm_aabb2d_crop_until_ok, glm_aabb2d_invalidate_ok, glm_aabb2d_isvalid_ok, glm_aabb2d_diag_ok, glm_aabb2d_sizev_ok, glm_aabb2d_radius_ok, glm_aabb2d_center_ok, glm_aabb2d_aabb_ok, glm_aabb2d_circle_ok, glm_aabb2d_point_ok, glm_aabb2d_contains_ok, glm_aabb_transform_ok, glm_aabb_merge_ok, glm_aabb_crop_ok, glm_aabb_crop_until_ok, glm_aabb_frustum_ok, glm_aabb_invalidate_ok, glm_aabb_isvalid_ok, glm_aabb_size_ok, glm_aabb_radius_ok, glm_aabb_center_ok, Bool.and_self]
def partGeom3 : List Entry := [glm_aabb_aabb, glm_aabb_sphere, glm_aabb_point, glm_aabb_contains, glm_luminance, glm_unprojecti, glm_unproject, glm_project, glm_project_z, glm_pickmatrix, glm_sphere_radii, glm_sphere_transform, glm_sphere_merge, glm_sphere_sphere, glm_sphere_point, glm_ease_linear, glm_ease_sine_in, glm_ease_sine_out, glm_ease_sine_inout, glm_ease_quad_in, glm_ease_quad_out, glm_ease_quad_inout, glm_ease_cubic_in, glm_ease_cubic_out, glm_ease_cubic_inout, glm_ease_quart_in, glm_ease_quart_out, glm_ease_quart_inout, glm_ease_quint_in, glm_ease_quint_out, glm_ease_quint_inout, glm_ease_exp_in, glm_ease_exp_out, glm_ease_exp_inout, glm_ease_circ_in, glm_ease_circ_out, glm_ease_circ_inout, glm_ease_back_in, glm_ease_back_out, glm_ease_back_inout]
theorem partGeom3_ok : partGeom3.all Entry.ok = true := by
  simp only [partGeom3, List.all_cons, List.all_nil, glm_aabb_aabb_ok, glm_aabb_sphere_ok, glm_aabb_point_ok, glm_aabb_contains_ok, glm_luminance_ok, glm_unprojecti_ok, glm_unproject_ok, glm_project_ok, glm_project_z_ok, glm_pickmatrix_ok, glm_sphere_radii_ok, glm_sphere_transform_ok, glm_sphere_merge_ok, glm_sphere_sphere_ok, glm_sphere_point_ok, glm_ease_linear_ok, glm_ease_sine_in_ok, glm_ease_sine_out_ok, glm_ease_sine_inout_ok, glm_ease_quad_in_ok, glm_ease_quad_out_ok, glm_ease_quad_inout_ok, glm_ease_cubic_in_ok, glm_ease_cubic_out_ok, glm_ease_cubic_inout_ok, glm_ease_quart_in_ok, glm_ease_quart_out_ok, glm_ease_quart_inout_ok, glm_ease_quint_in_ok, glm_ease_quint_out_ok, glm_ease_quint_inout_ok, glm_ease_exp_in_ok, glm_ease_exp_out_ok, glm_ease_exp_inout_ok, glm_ease_circ_in_ok, glm_ease_circ_out_ok, glm_ease_circ_inout_ok, glm_ease_back_in_ok, glm_ease_back_out_ok, glm_ease_back_inout_ok, Bool.and_self]
def partGeom4 : List Entry := [glm_ease_elast_in, glm_ease_elast_out, glm_ease_elast_inout, glm_ease_bounce_out, glm_ease_bounce_in, glm_ease_bounce_inout, glm_smc, glm_bezier, glm_hermite, glm_ray_triangle, glm_ray_sphere, glm_ray_at]
theorem partGeom4_ok : partGeom4.all Entry.ok = true := by
  simp only [partGeom4, List.all_cons, List.all_nil, glm_ease_elast_in_ok, glm_ease_elast_out_ok, glm_ease_elast_inout_ok, glm_ease_bounce_out_ok, glm_ease_bounce_in_ok, glm_ease_bounce_inout_ok, glm_smc_ok, glm_bezier_ok, glm_hermite_ok, glm_ray_triangle_ok, glm_ray_sphere_ok, glm_ray_at_ok, Bool.and_self]

end Cglm.CMem.Lib
