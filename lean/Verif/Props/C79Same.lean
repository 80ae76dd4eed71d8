import Verif.Contract
import Verif.Gen
/-!
# C79: results that no contraction changes

In these functions no product is an operand of a sum, so the result is the same, bit for bit and including the outcome of
comparisons, for every policy `π`.  Written by `tools/ctrthms.py` for the functions listed in `tools/ctr_same.txt`.
-/
set_option linter.unusedSectionVars false
set_option linter.unusedSimpArgs false
set_option linter.unusedTactic false
set_option linter.unreachableTactic false
open Cglm F32
namespace Cglm
variable [Libm]

theorem C79_same_aabb2d_merge (π : Policy) (aabb1 : M2 Named) (aabb2 : M2 Named) :
    (glm_aabb2d_merge (aabb1.map (Named.run π)) (aabb2.map (Named.run π))).map Ctr.val = glm_aabb2d_merge (aabb1.map Named.val) (aabb2.map Named.val) := by
  simp only [cglm, apply_ite (M2.map Ctr.val)]
  try simp only [M2.map, V2.map]
  try plain
  try rfl

theorem C79_same_aabb2d_crop (π : Policy) (aabb : M2 Named) (cropAabb : M2 Named) :
    (glm_aabb2d_crop (aabb.map (Named.run π)) (cropAabb.map (Named.run π))).map Ctr.val = glm_aabb2d_crop (aabb.map Named.val) (cropAabb.map Named.val) := by
  simp only [cglm, apply_ite (M2.map Ctr.val)]
  try simp only [M2.map, V2.map]
  try plain
  try rfl

theorem C79_same_aabb2d_crop_until (π : Policy) (aabb : M2 Named) (cropAabb : M2 Named) (clampAabb : M2 Named) :
    (glm_aabb2d_crop_until (aabb.map (Named.run π)) (cropAabb.map (Named.run π)) (clampAabb.map (Named.run π))).map Ctr.val = glm_aabb2d_crop_until (aabb.map Named.val) (cropAabb.map Named.val) (clampAabb.map Named.val) := by
  simp only [cglm, apply_ite (M2.map Ctr.val)]
  try simp only [M2.map, V2.map]
  try plain
  try rfl

theorem C79_same_aabb2d_isvalid (π : Policy) (aabb : M2 Named) :
    glm_aabb2d_isvalid (aabb.map (Named.run π)) = glm_aabb2d_isvalid (aabb.map Named.val) := by
  simp only [cglm]
  try simp only [M2.map, V2.map]
  try plain
  try rfl

theorem C79_same_aabb2d_sizev (π : Policy) (aabb : M2 Named) :
    (glm_aabb2d_sizev (aabb.map (Named.run π))).map Ctr.val = glm_aabb2d_sizev (aabb.map Named.val) := by
  simp only [cglm, apply_ite (V2.map Ctr.val)]
  try simp only [M2.map, V2.map]
  try plain
  try rfl

theorem C79_same_aabb2d_center (π : Policy) (aabb : M2 Named) :
    (glm_aabb2d_center (aabb.map (Named.run π))).map Ctr.val = glm_aabb2d_center (aabb.map Named.val) := by
  simp only [cglm, apply_ite (V2.map Ctr.val)]
  try simp only [M2.map, V2.map]
  try plain
  try rfl

theorem C79_same_aabb2d_aabb (π : Policy) (aabb : M2 Named) (other : M2 Named) :
    glm_aabb2d_aabb (aabb.map (Named.run π)) (other.map (Named.run π)) = glm_aabb2d_aabb (aabb.map Named.val) (other.map Named.val) := by
  simp only [cglm]
  try simp only [M2.map, V2.map]
  try plain
  try rfl

theorem C79_same_aabb2d_point (π : Policy) (aabb : M2 Named) (point : V2 Named) :
    glm_aabb2d_point (aabb.map (Named.run π)) (point.map (Named.run π)) = glm_aabb2d_point (aabb.map Named.val) (point.map Named.val) := by
  simp only [cglm]
  try simp only [M2.map, V2.map]
  try plain
  try rfl

theorem C79_same_aabb2d_contains (π : Policy) (aabb : M2 Named) (other : M2 Named) :
    glm_aabb2d_contains (aabb.map (Named.run π)) (other.map (Named.run π)) = glm_aabb2d_contains (aabb.map Named.val) (other.map Named.val) := by
  simp only [cglm]
  try simp only [M2.map, V2.map]
  try plain
  try rfl

theorem C79_same_scale_to (π : Policy) (m : M4 Named) (v : V3 Named) :
    (glm_scale_to (m.map (Named.run π)) (v.map (Named.run π))).map Ctr.val = glm_scale_to (m.map Named.val) (v.map Named.val) := by
  simp only [cglm, apply_ite (M4.map Ctr.val)]
  try simp only [M4.map, V3.map, V4.map]
  try plain
  try rfl

theorem C79_same_scale (π : Policy) (m : M4 Named) (v : V3 Named) :
    (glm_scale (m.map (Named.run π)) (v.map (Named.run π))).map Ctr.val = glm_scale (m.map Named.val) (v.map Named.val) := by
  simp only [cglm, apply_ite (M4.map Ctr.val)]
  try simp only [M4.map, V3.map, V4.map]
  try plain
  try rfl

theorem C79_same_scale_uni (π : Policy) (m : M4 Named) (s : Named) :
    (glm_scale_uni (m.map (Named.run π)) ((Named.run π) s)).map Ctr.val = glm_scale_uni (m.map Named.val) (Named.val s) := by
  simp only [cglm, apply_ite (M4.map Ctr.val)]
  try simp only [M4.map, V4.map]
  try plain
  try rfl

theorem C79_same_scale2d_to (π : Policy) (m : M3 Named) (v : V2 Named) :
    (glm_scale2d_to (m.map (Named.run π)) (v.map (Named.run π))).map Ctr.val = glm_scale2d_to (m.map Named.val) (v.map Named.val) := by
  simp only [cglm, apply_ite (M3.map Ctr.val)]
  try simp only [M3.map, V2.map, V3.map]
  try plain
  try rfl

theorem C79_same_scale2d (π : Policy) (m : M3 Named) (v : V2 Named) :
    (glm_scale2d (m.map (Named.run π)) (v.map (Named.run π))).map Ctr.val = glm_scale2d (m.map Named.val) (v.map Named.val) := by
  simp only [cglm, apply_ite (M3.map Ctr.val)]
  try simp only [M3.map, V2.map, V3.map]
  try plain
  try rfl

theorem C79_same_scale2d_uni (π : Policy) (m : M3 Named) (s : Named) :
    (glm_scale2d_uni (m.map (Named.run π)) ((Named.run π) s)).map Ctr.val = glm_scale2d_uni (m.map Named.val) (Named.val s) := by
  simp only [cglm, apply_ite (M3.map Ctr.val)]
  try simp only [M3.map, V3.map]
  try plain
  try rfl

theorem C79_same_translated2d (π : Policy) (m : M3 Named) (v : V2 Named) :
    (glm_translated2d (m.map (Named.run π)) (v.map (Named.run π))).map Ctr.val = glm_translated2d (m.map Named.val) (v.map Named.val) := by
  simp only [cglm, apply_ite (M3.map Ctr.val)]
  try simp only [M3.map, V2.map, V3.map]
  try plain
  try rfl

theorem C79_same_translated2d_x (π : Policy) (m : M3 Named) (x : Named) :
    (glm_translated2d_x (m.map (Named.run π)) ((Named.run π) x)).map Ctr.val = glm_translated2d_x (m.map Named.val) (Named.val x) := by
  simp only [cglm, apply_ite (M3.map Ctr.val)]
  try simp only [M3.map, V3.map]
  try plain
  try rfl

theorem C79_same_translated2d_y (π : Policy) (m : M3 Named) (y : Named) :
    (glm_translated2d_y (m.map (Named.run π)) ((Named.run π) y)).map Ctr.val = glm_translated2d_y (m.map Named.val) (Named.val y) := by
  simp only [cglm, apply_ite (M3.map Ctr.val)]
  try simp only [M3.map, V3.map]
  try plain
  try rfl

theorem C79_same_scaled2d (π : Policy) (m : M3 Named) (v : V2 Named) :
    (glm_scaled2d (m.map (Named.run π)) (v.map (Named.run π))).map Ctr.val = glm_scaled2d (m.map Named.val) (v.map Named.val) := by
  simp only [cglm, apply_ite (M3.map Ctr.val)]
  try simp only [M3.map, V2.map, V3.map]
  try plain
  try rfl

theorem C79_same_scaled2d_uni (π : Policy) (m : M3 Named) (s : Named) :
    (glm_scaled2d_uni (m.map (Named.run π)) ((Named.run π) s)).map Ctr.val = glm_scaled2d_uni (m.map Named.val) (Named.val s) := by
  simp only [cglm, apply_ite (M3.map Ctr.val)]
  try simp only [M3.map, V3.map]
  try plain
  try rfl

theorem C79_same_translated (π : Policy) (m : M4 Named) (v : V3 Named) :
    (glm_translated (m.map (Named.run π)) (v.map (Named.run π))).map Ctr.val = glm_translated (m.map Named.val) (v.map Named.val) := by
  simp only [cglm, apply_ite (M4.map Ctr.val)]
  try simp only [M4.map, V3.map, V4.map]
  try plain
  try rfl

theorem C79_same_translated_to (π : Policy) (m : M4 Named) (v : V3 Named) :
    (glm_translated_to (m.map (Named.run π)) (v.map (Named.run π))).map Ctr.val = glm_translated_to (m.map Named.val) (v.map Named.val) := by
  simp only [cglm, apply_ite (M4.map Ctr.val)]
  try simp only [M4.map, V3.map, V4.map]
  try plain
  try rfl

theorem C79_same_translated_x (π : Policy) (m : M4 Named) (x : Named) :
    (glm_translated_x (m.map (Named.run π)) ((Named.run π) x)).map Ctr.val = glm_translated_x (m.map Named.val) (Named.val x) := by
  simp only [cglm, apply_ite (M4.map Ctr.val)]
  try simp only [M4.map, V4.map]
  try plain
  try rfl

theorem C79_same_translated_y (π : Policy) (m : M4 Named) (y : Named) :
    (glm_translated_y (m.map (Named.run π)) ((Named.run π) y)).map Ctr.val = glm_translated_y (m.map Named.val) (Named.val y) := by
  simp only [cglm, apply_ite (M4.map Ctr.val)]
  try simp only [M4.map, V4.map]
  try plain
  try rfl

theorem C79_same_translated_z (π : Policy) (m : M4 Named) (z : Named) :
    (glm_translated_z (m.map (Named.run π)) ((Named.run π) z)).map Ctr.val = glm_translated_z (m.map Named.val) (Named.val z) := by
  simp only [cglm, apply_ite (M4.map Ctr.val)]
  try simp only [M4.map, V4.map]
  try plain
  try rfl

theorem C79_same_aabb_merge (π : Policy) (box1 : M2x3 Named) (box2 : M2x3 Named) :
    (glm_aabb_merge (box1.map (Named.run π)) (box2.map (Named.run π))).map Ctr.val = glm_aabb_merge (box1.map Named.val) (box2.map Named.val) := by
  simp only [cglm, apply_ite (M2x3.map Ctr.val)]
  try simp only [M2x3.map, V3.map]
  try plain
  try rfl

theorem C79_same_aabb_crop (π : Policy) (box : M2x3 Named) (cropBox : M2x3 Named) :
    (glm_aabb_crop (box.map (Named.run π)) (cropBox.map (Named.run π))).map Ctr.val = glm_aabb_crop (box.map Named.val) (cropBox.map Named.val) := by
  simp only [cglm, apply_ite (M2x3.map Ctr.val)]
  try simp only [M2x3.map, V3.map]
  try plain
  try rfl

theorem C79_same_aabb_crop_until (π : Policy) (box : M2x3 Named) (cropBox : M2x3 Named) (clampBox : M2x3 Named) :
    (glm_aabb_crop_until (box.map (Named.run π)) (cropBox.map (Named.run π)) (clampBox.map (Named.run π))).map Ctr.val = glm_aabb_crop_until (box.map Named.val) (cropBox.map Named.val) (clampBox.map Named.val) := by
  simp only [cglm, apply_ite (M2x3.map Ctr.val)]
  try simp only [M2x3.map, V3.map]
  try plain
  try rfl

theorem C79_same_aabb_isvalid (π : Policy) (box : M2x3 Named) :
    glm_aabb_isvalid (box.map (Named.run π)) = glm_aabb_isvalid (box.map Named.val) := by
  simp only [cglm]
  try simp only [M2x3.map, V3.map]
  try plain
  try rfl

theorem C79_same_aabb_center (π : Policy) (box : M2x3 Named) :
    (glm_aabb_center (box.map (Named.run π))).map Ctr.val = glm_aabb_center (box.map Named.val) := by
  simp only [cglm, apply_ite (V3.map Ctr.val)]
  try simp only [M2x3.map, V3.map]
  try plain
  try rfl

theorem C79_same_aabb_aabb (π : Policy) (box : M2x3 Named) (other : M2x3 Named) :
    glm_aabb_aabb (box.map (Named.run π)) (other.map (Named.run π)) = glm_aabb_aabb (box.map Named.val) (other.map Named.val) := by
  simp only [cglm]
  try simp only [M2x3.map, V3.map]
  try plain
  try rfl

theorem C79_same_aabb_point (π : Policy) (box : M2x3 Named) (point : V3 Named) :
    glm_aabb_point (box.map (Named.run π)) (point.map (Named.run π)) = glm_aabb_point (box.map Named.val) (point.map Named.val) := by
  simp only [cglm]
  try simp only [M2x3.map, V3.map]
  try plain
  try rfl

theorem C79_same_aabb_contains (π : Policy) (box : M2x3 Named) (other : M2x3 Named) :
    glm_aabb_contains (box.map (Named.run π)) (other.map (Named.run π)) = glm_aabb_contains (box.map Named.val) (other.map Named.val) := by
  simp only [cglm]
  try simp only [M2x3.map, V3.map]
  try plain
  try rfl

theorem C79_same_frustum (π : Policy) (left : Named) (right : Named) (bottom : Named) (top : Named) (nearZ : Named) (farZ : Named) :
    (glm_frustum ((Named.run π) left) ((Named.run π) right) ((Named.run π) bottom) ((Named.run π) top) ((Named.run π) nearZ) ((Named.run π) farZ)).map Ctr.val = glm_frustum (Named.val left) (Named.val right) (Named.val bottom) (Named.val top) (Named.val nearZ) (Named.val farZ) := by
  simp only [cglm, apply_ite (M4.map Ctr.val)]
  try simp only [M4.map, V4.map]
  try plain
  try rfl

theorem C79_same_ortho (π : Policy) (left : Named) (right : Named) (bottom : Named) (top : Named) (nearZ : Named) (farZ : Named) :
    (glm_ortho ((Named.run π) left) ((Named.run π) right) ((Named.run π) bottom) ((Named.run π) top) ((Named.run π) nearZ) ((Named.run π) farZ)).map Ctr.val = glm_ortho (Named.val left) (Named.val right) (Named.val bottom) (Named.val top) (Named.val nearZ) (Named.val farZ) := by
  simp only [cglm, apply_ite (M4.map Ctr.val)]
  try simp only [M4.map, V4.map]
  try plain
  try rfl

theorem C79_same_ortho_aabb (π : Policy) (box : M2x3 Named) :
    (glm_ortho_aabb (box.map (Named.run π))).map Ctr.val = glm_ortho_aabb (box.map Named.val) := by
  simp only [cglm, apply_ite (M4.map Ctr.val)]
  try simp only [M2x3.map, M4.map, V3.map, V4.map]
  try plain
  try rfl

theorem C79_same_ortho_aabb_p (π : Policy) (box : M2x3 Named) (padding : Named) :
    (glm_ortho_aabb_p (box.map (Named.run π)) ((Named.run π) padding)).map Ctr.val = glm_ortho_aabb_p (box.map Named.val) (Named.val padding) := by
  simp only [cglm, apply_ite (M4.map Ctr.val)]
  try simp only [M2x3.map, M4.map, V3.map, V4.map]
  try plain
  try rfl

theorem C79_same_ortho_aabb_pz (π : Policy) (box : M2x3 Named) (padding : Named) :
    (glm_ortho_aabb_pz (box.map (Named.run π)) ((Named.run π) padding)).map Ctr.val = glm_ortho_aabb_pz (box.map Named.val) (Named.val padding) := by
  simp only [cglm, apply_ite (M4.map Ctr.val)]
  try simp only [M2x3.map, M4.map, V3.map, V4.map]
  try plain
  try rfl

theorem C79_same_ortho_default (π : Policy) (aspect : Named) :
    (glm_ortho_default ((Named.run π) aspect)).map Ctr.val = glm_ortho_default (Named.val aspect) := by
  simp only [cglm, apply_ite (M4.map Ctr.val)]
  try simp only [M4.map, V4.map]
  try plain
  try rfl

theorem C79_same_perspective (π : Policy) (fovy : Named) (aspect : Named) (nearZ : Named) (farZ : Named) :
    (glm_perspective ((Named.run π) fovy) ((Named.run π) aspect) ((Named.run π) nearZ) ((Named.run π) farZ)).map Ctr.val = glm_perspective (Named.val fovy) (Named.val aspect) (Named.val nearZ) (Named.val farZ) := by
  simp only [cglm, apply_ite (M4.map Ctr.val)]
  try simp only [M4.map, V4.map]
  try plain
  try rfl

theorem C79_same_persp_move_far (π : Policy) (proj : M4 Named) (deltaFar : Named) :
    (glm_persp_move_far (proj.map (Named.run π)) ((Named.run π) deltaFar)).map Ctr.val = glm_persp_move_far (proj.map Named.val) (Named.val deltaFar) := by
  simp only [cglm, apply_ite (M4.map Ctr.val)]
  try simp only [M4.map, V4.map]
  try plain
  try rfl

theorem C79_same_perspective_default (π : Policy) (aspect : Named) :
    (glm_perspective_default ((Named.run π) aspect)).map Ctr.val = glm_perspective_default (Named.val aspect) := by
  simp only [cglm, apply_ite (M4.map Ctr.val)]
  try simp only [M4.map, V4.map]
  try plain
  try rfl

theorem C79_same_perspective_resize (π : Policy) (aspect : Named) (proj : M4 Named) :
    (glm_perspective_resize ((Named.run π) aspect) (proj.map (Named.run π))).map Ctr.val = glm_perspective_resize (Named.val aspect) (proj.map Named.val) := by
  simp only [cglm, apply_ite (M4.map Ctr.val)]
  try simp only [M4.map, V4.map]
  try plain
  try rfl

theorem C79_same_persp_decomp_far (π : Policy) (proj : M4 Named) :
    (glm_persp_decomp_far (proj.map (Named.run π))).val = glm_persp_decomp_far (proj.map Named.val) := by
  simp only [cglm]
  try simp only [M4.map, V4.map]
  try plain
  try rfl

theorem C79_same_persp_decomp_near (π : Policy) (proj : M4 Named) :
    (glm_persp_decomp_near (proj.map (Named.run π))).val = glm_persp_decomp_near (proj.map Named.val) := by
  simp only [cglm]
  try simp only [M4.map, V4.map]
  try plain
  try rfl

theorem C79_same_persp_sizes (π : Policy) (proj : M4 Named) (fovy : Named) :
    (glm_persp_sizes (proj.map (Named.run π)) ((Named.run π) fovy)).map Ctr.val = glm_persp_sizes (proj.map Named.val) (Named.val fovy) := by
  simp only [cglm, apply_ite (V4.map Ctr.val)]
  try simp only [M4.map, V4.map]
  try plain
  try rfl

theorem C79_same_ortho_lh_no (π : Policy) (left : Named) (right : Named) (bottom : Named) (top : Named) (nearZ : Named) (farZ : Named) :
    (glm_ortho_lh_no ((Named.run π) left) ((Named.run π) right) ((Named.run π) bottom) ((Named.run π) top) ((Named.run π) nearZ) ((Named.run π) farZ)).map Ctr.val = glm_ortho_lh_no (Named.val left) (Named.val right) (Named.val bottom) (Named.val top) (Named.val nearZ) (Named.val farZ) := by
  simp only [cglm, apply_ite (M4.map Ctr.val)]
  try simp only [M4.map, V4.map]
  try plain
  try rfl

theorem C79_same_ortho_aabb_lh_no (π : Policy) (box : M2x3 Named) :
    (glm_ortho_aabb_lh_no (box.map (Named.run π))).map Ctr.val = glm_ortho_aabb_lh_no (box.map Named.val) := by
  simp only [cglm, apply_ite (M4.map Ctr.val)]
  try simp only [M2x3.map, M4.map, V3.map, V4.map]
  try plain
  try rfl

theorem C79_same_ortho_aabb_p_lh_no (π : Policy) (box : M2x3 Named) (padding : Named) :
    (glm_ortho_aabb_p_lh_no (box.map (Named.run π)) ((Named.run π) padding)).map Ctr.val = glm_ortho_aabb_p_lh_no (box.map Named.val) (Named.val padding) := by
  simp only [cglm, apply_ite (M4.map Ctr.val)]
  try simp only [M2x3.map, M4.map, V3.map, V4.map]
  try plain
  try rfl

theorem C79_same_ortho_aabb_pz_lh_no (π : Policy) (box : M2x3 Named) (padding : Named) :
    (glm_ortho_aabb_pz_lh_no (box.map (Named.run π)) ((Named.run π) padding)).map Ctr.val = glm_ortho_aabb_pz_lh_no (box.map Named.val) (Named.val padding) := by
  simp only [cglm, apply_ite (M4.map Ctr.val)]
  try simp only [M2x3.map, M4.map, V3.map, V4.map]
  try plain
  try rfl

theorem C79_same_ortho_default_lh_no (π : Policy) (aspect : Named) :
    (glm_ortho_default_lh_no ((Named.run π) aspect)).map Ctr.val = glm_ortho_default_lh_no (Named.val aspect) := by
  simp only [cglm, apply_ite (M4.map Ctr.val)]
  try simp only [M4.map, V4.map]
  try plain
  try rfl

theorem C79_same_ortho_lh_zo (π : Policy) (left : Named) (right : Named) (bottom : Named) (top : Named) (nearZ : Named) (farZ : Named) :
    (glm_ortho_lh_zo ((Named.run π) left) ((Named.run π) right) ((Named.run π) bottom) ((Named.run π) top) ((Named.run π) nearZ) ((Named.run π) farZ)).map Ctr.val = glm_ortho_lh_zo (Named.val left) (Named.val right) (Named.val bottom) (Named.val top) (Named.val nearZ) (Named.val farZ) := by
  simp only [cglm, apply_ite (M4.map Ctr.val)]
  try simp only [M4.map, V4.map]
  try plain
  try rfl

theorem C79_same_ortho_aabb_lh_zo (π : Policy) (box : M2x3 Named) :
    (glm_ortho_aabb_lh_zo (box.map (Named.run π))).map Ctr.val = glm_ortho_aabb_lh_zo (box.map Named.val) := by
  simp only [cglm, apply_ite (M4.map Ctr.val)]
  try simp only [M2x3.map, M4.map, V3.map, V4.map]
  try plain
  try rfl

theorem C79_same_ortho_aabb_p_lh_zo (π : Policy) (box : M2x3 Named) (padding : Named) :
    (glm_ortho_aabb_p_lh_zo (box.map (Named.run π)) ((Named.run π) padding)).map Ctr.val = glm_ortho_aabb_p_lh_zo (box.map Named.val) (Named.val padding) := by
  simp only [cglm, apply_ite (M4.map Ctr.val)]
  try simp only [M2x3.map, M4.map, V3.map, V4.map]
  try plain
  try rfl

theorem C79_same_ortho_aabb_pz_lh_zo (π : Policy) (box : M2x3 Named) (padding : Named) :
    (glm_ortho_aabb_pz_lh_zo (box.map (Named.run π)) ((Named.run π) padding)).map Ctr.val = glm_ortho_aabb_pz_lh_zo (box.map Named.val) (Named.val padding) := by
  simp only [cglm, apply_ite (M4.map Ctr.val)]
  try simp only [M2x3.map, M4.map, V3.map, V4.map]
  try plain
  try rfl

theorem C79_same_ortho_default_lh_zo (π : Policy) (aspect : Named) :
    (glm_ortho_default_lh_zo ((Named.run π) aspect)).map Ctr.val = glm_ortho_default_lh_zo (Named.val aspect) := by
  simp only [cglm, apply_ite (M4.map Ctr.val)]
  try simp only [M4.map, V4.map]
  try plain
  try rfl

theorem C79_same_ortho_rh_no (π : Policy) (left : Named) (right : Named) (bottom : Named) (top : Named) (nearZ : Named) (farZ : Named) :
    (glm_ortho_rh_no ((Named.run π) left) ((Named.run π) right) ((Named.run π) bottom) ((Named.run π) top) ((Named.run π) nearZ) ((Named.run π) farZ)).map Ctr.val = glm_ortho_rh_no (Named.val left) (Named.val right) (Named.val bottom) (Named.val top) (Named.val nearZ) (Named.val farZ) := by
  simp only [cglm, apply_ite (M4.map Ctr.val)]
  try simp only [M4.map, V4.map]
  try plain
  try rfl

theorem C79_same_ortho_aabb_rh_no (π : Policy) (box : M2x3 Named) :
    (glm_ortho_aabb_rh_no (box.map (Named.run π))).map Ctr.val = glm_ortho_aabb_rh_no (box.map Named.val) := by
  simp only [cglm, apply_ite (M4.map Ctr.val)]
  try simp only [M2x3.map, M4.map, V3.map, V4.map]
  try plain
  try rfl

theorem C79_same_ortho_aabb_p_rh_no (π : Policy) (box : M2x3 Named) (padding : Named) :
    (glm_ortho_aabb_p_rh_no (box.map (Named.run π)) ((Named.run π) padding)).map Ctr.val = glm_ortho_aabb_p_rh_no (box.map Named.val) (Named.val padding) := by
  simp only [cglm, apply_ite (M4.map Ctr.val)]
  try simp only [M2x3.map, M4.map, V3.map, V4.map]
  try plain
  try rfl

theorem C79_same_ortho_aabb_pz_rh_no (π : Policy) (box : M2x3 Named) (padding : Named) :
    (glm_ortho_aabb_pz_rh_no (box.map (Named.run π)) ((Named.run π) padding)).map Ctr.val = glm_ortho_aabb_pz_rh_no (box.map Named.val) (Named.val padding) := by
  simp only [cglm, apply_ite (M4.map Ctr.val)]
  try simp only [M2x3.map, M4.map, V3.map, V4.map]
  try plain
  try rfl

theorem C79_same_ortho_default_rh_no (π : Policy) (aspect : Named) :
    (glm_ortho_default_rh_no ((Named.run π) aspect)).map Ctr.val = glm_ortho_default_rh_no (Named.val aspect) := by
  simp only [cglm, apply_ite (M4.map Ctr.val)]
  try simp only [M4.map, V4.map]
  try plain
  try rfl

theorem C79_same_ortho_rh_zo (π : Policy) (left : Named) (right : Named) (bottom : Named) (top : Named) (nearZ : Named) (farZ : Named) :
    (glm_ortho_rh_zo ((Named.run π) left) ((Named.run π) right) ((Named.run π) bottom) ((Named.run π) top) ((Named.run π) nearZ) ((Named.run π) farZ)).map Ctr.val = glm_ortho_rh_zo (Named.val left) (Named.val right) (Named.val bottom) (Named.val top) (Named.val nearZ) (Named.val farZ) := by
  simp only [cglm, apply_ite (M4.map Ctr.val)]
  try simp only [M4.map, V4.map]
  try plain
  try rfl

theorem C79_same_ortho_aabb_rh_zo (π : Policy) (box : M2x3 Named) :
    (glm_ortho_aabb_rh_zo (box.map (Named.run π))).map Ctr.val = glm_ortho_aabb_rh_zo (box.map Named.val) := by
  simp only [cglm, apply_ite (M4.map Ctr.val)]
  try simp only [M2x3.map, M4.map, V3.map, V4.map]
  try plain
  try rfl

theorem C79_same_ortho_aabb_p_rh_zo (π : Policy) (box : M2x3 Named) (padding : Named) :
    (glm_ortho_aabb_p_rh_zo (box.map (Named.run π)) ((Named.run π) padding)).map Ctr.val = glm_ortho_aabb_p_rh_zo (box.map Named.val) (Named.val padding) := by
  simp only [cglm, apply_ite (M4.map Ctr.val)]
  try simp only [M2x3.map, M4.map, V3.map, V4.map]
  try plain
  try rfl

theorem C79_same_ortho_aabb_pz_rh_zo (π : Policy) (box : M2x3 Named) (padding : Named) :
    (glm_ortho_aabb_pz_rh_zo (box.map (Named.run π)) ((Named.run π) padding)).map Ctr.val = glm_ortho_aabb_pz_rh_zo (box.map Named.val) (Named.val padding) := by
  simp only [cglm, apply_ite (M4.map Ctr.val)]
  try simp only [M2x3.map, M4.map, V3.map, V4.map]
  try plain
  try rfl

theorem C79_same_ortho_default_rh_zo (π : Policy) (aspect : Named) :
    (glm_ortho_default_rh_zo ((Named.run π) aspect)).map Ctr.val = glm_ortho_default_rh_zo (Named.val aspect) := by
  simp only [cglm, apply_ite (M4.map Ctr.val)]
  try simp only [M4.map, V4.map]
  try plain
  try rfl

theorem C79_same_persp_fovy (π : Policy) (proj : M4 Named) :
    (glm_persp_fovy (proj.map (Named.run π))).val = glm_persp_fovy (proj.map Named.val) := by
  simp only [cglm]
  try simp only [M4.map, V4.map]
  try plain
  try rfl

theorem C79_same_persp_aspect (π : Policy) (proj : M4 Named) :
    (glm_persp_aspect (proj.map (Named.run π))).val = glm_persp_aspect (proj.map Named.val) := by
  simp only [cglm]
  try simp only [M4.map, V4.map]
  try plain
  try rfl

theorem C79_same_frustum_lh_no (π : Policy) (left : Named) (right : Named) (bottom : Named) (top : Named) (nearZ : Named) (farZ : Named) :
    (glm_frustum_lh_no ((Named.run π) left) ((Named.run π) right) ((Named.run π) bottom) ((Named.run π) top) ((Named.run π) nearZ) ((Named.run π) farZ)).map Ctr.val = glm_frustum_lh_no (Named.val left) (Named.val right) (Named.val bottom) (Named.val top) (Named.val nearZ) (Named.val farZ) := by
  simp only [cglm, apply_ite (M4.map Ctr.val)]
  try simp only [M4.map, V4.map]
  try plain
  try rfl

theorem C79_same_perspective_lh_no (π : Policy) (fovy : Named) (aspect : Named) (nearZ : Named) (farZ : Named) :
    (glm_perspective_lh_no ((Named.run π) fovy) ((Named.run π) aspect) ((Named.run π) nearZ) ((Named.run π) farZ)).map Ctr.val = glm_perspective_lh_no (Named.val fovy) (Named.val aspect) (Named.val nearZ) (Named.val farZ) := by
  simp only [cglm, apply_ite (M4.map Ctr.val)]
  try simp only [M4.map, V4.map]
  try plain
  try rfl

theorem C79_same_perspective_default_lh_no (π : Policy) (aspect : Named) :
    (glm_perspective_default_lh_no ((Named.run π) aspect)).map Ctr.val = glm_perspective_default_lh_no (Named.val aspect) := by
  simp only [cglm, apply_ite (M4.map Ctr.val)]
  try simp only [M4.map, V4.map]
  try plain
  try rfl

theorem C79_same_perspective_resize_lh_no (π : Policy) (aspect : Named) (proj : M4 Named) :
    (glm_perspective_resize_lh_no ((Named.run π) aspect) (proj.map (Named.run π))).map Ctr.val = glm_perspective_resize_lh_no (Named.val aspect) (proj.map Named.val) := by
  simp only [cglm, apply_ite (M4.map Ctr.val)]
  try simp only [M4.map, V4.map]
  try plain
  try rfl

theorem C79_same_persp_move_far_lh_no (π : Policy) (proj : M4 Named) (deltaFar : Named) :
    (glm_persp_move_far_lh_no (proj.map (Named.run π)) ((Named.run π) deltaFar)).map Ctr.val = glm_persp_move_far_lh_no (proj.map Named.val) (Named.val deltaFar) := by
  simp only [cglm, apply_ite (M4.map Ctr.val)]
  try simp only [M4.map, V4.map]
  try plain
  try rfl

theorem C79_same_persp_decomp_far_lh_no (π : Policy) (proj : M4 Named) :
    (glm_persp_decomp_far_lh_no (proj.map (Named.run π))).val = glm_persp_decomp_far_lh_no (proj.map Named.val) := by
  simp only [cglm]
  try simp only [M4.map, V4.map]
  try plain
  try rfl

theorem C79_same_persp_decomp_near_lh_no (π : Policy) (proj : M4 Named) :
    (glm_persp_decomp_near_lh_no (proj.map (Named.run π))).val = glm_persp_decomp_near_lh_no (proj.map Named.val) := by
  simp only [cglm]
  try simp only [M4.map, V4.map]
  try plain
  try rfl

theorem C79_same_persp_sizes_lh_no (π : Policy) (proj : M4 Named) (fovy : Named) :
    (glm_persp_sizes_lh_no (proj.map (Named.run π)) ((Named.run π) fovy)).map Ctr.val = glm_persp_sizes_lh_no (proj.map Named.val) (Named.val fovy) := by
  simp only [cglm, apply_ite (V4.map Ctr.val)]
  try simp only [M4.map, V4.map]
  try plain
  try rfl

theorem C79_same_persp_fovy_lh_no (π : Policy) (proj : M4 Named) :
    (glm_persp_fovy_lh_no (proj.map (Named.run π))).val = glm_persp_fovy_lh_no (proj.map Named.val) := by
  simp only [cglm]
  try simp only [M4.map, V4.map]
  try plain
  try rfl

theorem C79_same_persp_aspect_lh_no (π : Policy) (proj : M4 Named) :
    (glm_persp_aspect_lh_no (proj.map (Named.run π))).val = glm_persp_aspect_lh_no (proj.map Named.val) := by
  simp only [cglm]
  try simp only [M4.map, V4.map]
  try plain
  try rfl

theorem C79_same_frustum_lh_zo (π : Policy) (left : Named) (right : Named) (bottom : Named) (top : Named) (nearZ : Named) (farZ : Named) :
    (glm_frustum_lh_zo ((Named.run π) left) ((Named.run π) right) ((Named.run π) bottom) ((Named.run π) top) ((Named.run π) nearZ) ((Named.run π) farZ)).map Ctr.val = glm_frustum_lh_zo (Named.val left) (Named.val right) (Named.val bottom) (Named.val top) (Named.val nearZ) (Named.val farZ) := by
  simp only [cglm, apply_ite (M4.map Ctr.val)]
  try simp only [M4.map, V4.map]
  try plain
  try rfl

theorem C79_same_perspective_lh_zo (π : Policy) (fovy : Named) (aspect : Named) (nearZ : Named) (farZ : Named) :
    (glm_perspective_lh_zo ((Named.run π) fovy) ((Named.run π) aspect) ((Named.run π) nearZ) ((Named.run π) farZ)).map Ctr.val = glm_perspective_lh_zo (Named.val fovy) (Named.val aspect) (Named.val nearZ) (Named.val farZ) := by
  simp only [cglm, apply_ite (M4.map Ctr.val)]
  try simp only [M4.map, V4.map]
  try plain
  try rfl

theorem C79_same_persp_move_far_lh_zo (π : Policy) (proj : M4 Named) (deltaFar : Named) :
    (glm_persp_move_far_lh_zo (proj.map (Named.run π)) ((Named.run π) deltaFar)).map Ctr.val = glm_persp_move_far_lh_zo (proj.map Named.val) (Named.val deltaFar) := by
  simp only [cglm, apply_ite (M4.map Ctr.val)]
  try simp only [M4.map, V4.map]
  try plain
  try rfl

theorem C79_same_perspective_default_lh_zo (π : Policy) (aspect : Named) :
    (glm_perspective_default_lh_zo ((Named.run π) aspect)).map Ctr.val = glm_perspective_default_lh_zo (Named.val aspect) := by
  simp only [cglm, apply_ite (M4.map Ctr.val)]
  try simp only [M4.map, V4.map]
  try plain
  try rfl

theorem C79_same_perspective_resize_lh_zo (π : Policy) (aspect : Named) (proj : M4 Named) :
    (glm_perspective_resize_lh_zo ((Named.run π) aspect) (proj.map (Named.run π))).map Ctr.val = glm_perspective_resize_lh_zo (Named.val aspect) (proj.map Named.val) := by
  simp only [cglm, apply_ite (M4.map Ctr.val)]
  try simp only [M4.map, V4.map]
  try plain
  try rfl

theorem C79_same_persp_decomp_far_lh_zo (π : Policy) (proj : M4 Named) :
    (glm_persp_decomp_far_lh_zo (proj.map (Named.run π))).val = glm_persp_decomp_far_lh_zo (proj.map Named.val) := by
  simp only [cglm]
  try simp only [M4.map, V4.map]
  try plain
  try rfl

theorem C79_same_persp_decomp_near_lh_zo (π : Policy) (proj : M4 Named) :
    (glm_persp_decomp_near_lh_zo (proj.map (Named.run π))).val = glm_persp_decomp_near_lh_zo (proj.map Named.val) := by
  simp only [cglm]
  try simp only [M4.map, V4.map]
  try plain
  try rfl

theorem C79_same_persp_sizes_lh_zo (π : Policy) (proj : M4 Named) (fovy : Named) :
    (glm_persp_sizes_lh_zo (proj.map (Named.run π)) ((Named.run π) fovy)).map Ctr.val = glm_persp_sizes_lh_zo (proj.map Named.val) (Named.val fovy) := by
  simp only [cglm, apply_ite (V4.map Ctr.val)]
  try simp only [M4.map, V4.map]
  try plain
  try rfl

theorem C79_same_persp_fovy_lh_zo (π : Policy) (proj : M4 Named) :
    (glm_persp_fovy_lh_zo (proj.map (Named.run π))).val = glm_persp_fovy_lh_zo (proj.map Named.val) := by
  simp only [cglm]
  try simp only [M4.map, V4.map]
  try plain
  try rfl

theorem C79_same_persp_aspect_lh_zo (π : Policy) (proj : M4 Named) :
    (glm_persp_aspect_lh_zo (proj.map (Named.run π))).val = glm_persp_aspect_lh_zo (proj.map Named.val) := by
  simp only [cglm]
  try simp only [M4.map, V4.map]
  try plain
  try rfl

theorem C79_same_frustum_rh_no (π : Policy) (left : Named) (right : Named) (bottom : Named) (top : Named) (nearZ : Named) (farZ : Named) :
    (glm_frustum_rh_no ((Named.run π) left) ((Named.run π) right) ((Named.run π) bottom) ((Named.run π) top) ((Named.run π) nearZ) ((Named.run π) farZ)).map Ctr.val = glm_frustum_rh_no (Named.val left) (Named.val right) (Named.val bottom) (Named.val top) (Named.val nearZ) (Named.val farZ) := by
  simp only [cglm, apply_ite (M4.map Ctr.val)]
  try simp only [M4.map, V4.map]
  try plain
  try rfl

theorem C79_same_perspective_rh_no (π : Policy) (fovy : Named) (aspect : Named) (nearZ : Named) (farZ : Named) :
    (glm_perspective_rh_no ((Named.run π) fovy) ((Named.run π) aspect) ((Named.run π) nearZ) ((Named.run π) farZ)).map Ctr.val = glm_perspective_rh_no (Named.val fovy) (Named.val aspect) (Named.val nearZ) (Named.val farZ) := by
  simp only [cglm, apply_ite (M4.map Ctr.val)]
  try simp only [M4.map, V4.map]
  try plain
  try rfl

theorem C79_same_perspective_default_rh_no (π : Policy) (aspect : Named) :
    (glm_perspective_default_rh_no ((Named.run π) aspect)).map Ctr.val = glm_perspective_default_rh_no (Named.val aspect) := by
  simp only [cglm, apply_ite (M4.map Ctr.val)]
  try simp only [M4.map, V4.map]
  try plain
  try rfl

theorem C79_same_perspective_resize_rh_no (π : Policy) (aspect : Named) (proj : M4 Named) :
    (glm_perspective_resize_rh_no ((Named.run π) aspect) (proj.map (Named.run π))).map Ctr.val = glm_perspective_resize_rh_no (Named.val aspect) (proj.map Named.val) := by
  simp only [cglm, apply_ite (M4.map Ctr.val)]
  try simp only [M4.map, V4.map]
  try plain
  try rfl

theorem C79_same_persp_move_far_rh_no (π : Policy) (proj : M4 Named) (deltaFar : Named) :
    (glm_persp_move_far_rh_no (proj.map (Named.run π)) ((Named.run π) deltaFar)).map Ctr.val = glm_persp_move_far_rh_no (proj.map Named.val) (Named.val deltaFar) := by
  simp only [cglm, apply_ite (M4.map Ctr.val)]
  try simp only [M4.map, V4.map]
  try plain
  try rfl

theorem C79_same_persp_decomp_far_rh_no (π : Policy) (proj : M4 Named) :
    (glm_persp_decomp_far_rh_no (proj.map (Named.run π))).val = glm_persp_decomp_far_rh_no (proj.map Named.val) := by
  simp only [cglm]
  try simp only [M4.map, V4.map]
  try plain
  try rfl

theorem C79_same_persp_decomp_near_rh_no (π : Policy) (proj : M4 Named) :
    (glm_persp_decomp_near_rh_no (proj.map (Named.run π))).val = glm_persp_decomp_near_rh_no (proj.map Named.val) := by
  simp only [cglm]
  try simp only [M4.map, V4.map]
  try plain
  try rfl

theorem C79_same_persp_sizes_rh_no (π : Policy) (proj : M4 Named) (fovy : Named) :
    (glm_persp_sizes_rh_no (proj.map (Named.run π)) ((Named.run π) fovy)).map Ctr.val = glm_persp_sizes_rh_no (proj.map Named.val) (Named.val fovy) := by
  simp only [cglm, apply_ite (V4.map Ctr.val)]
  try simp only [M4.map, V4.map]
  try plain
  try rfl

theorem C79_same_persp_fovy_rh_no (π : Policy) (proj : M4 Named) :
    (glm_persp_fovy_rh_no (proj.map (Named.run π))).val = glm_persp_fovy_rh_no (proj.map Named.val) := by
  simp only [cglm]
  try simp only [M4.map, V4.map]
  try plain
  try rfl

theorem C79_same_persp_aspect_rh_no (π : Policy) (proj : M4 Named) :
    (glm_persp_aspect_rh_no (proj.map (Named.run π))).val = glm_persp_aspect_rh_no (proj.map Named.val) := by
  simp only [cglm]
  try simp only [M4.map, V4.map]
  try plain
  try rfl

theorem C79_same_frustum_rh_zo (π : Policy) (left : Named) (right : Named) (bottom : Named) (top : Named) (nearZ : Named) (farZ : Named) :
    (glm_frustum_rh_zo ((Named.run π) left) ((Named.run π) right) ((Named.run π) bottom) ((Named.run π) top) ((Named.run π) nearZ) ((Named.run π) farZ)).map Ctr.val = glm_frustum_rh_zo (Named.val left) (Named.val right) (Named.val bottom) (Named.val top) (Named.val nearZ) (Named.val farZ) := by
  simp only [cglm, apply_ite (M4.map Ctr.val)]
  try simp only [M4.map, V4.map]
  try plain
  try rfl

theorem C79_same_perspective_rh_zo (π : Policy) (fovy : Named) (aspect : Named) (nearZ : Named) (farZ : Named) :
    (glm_perspective_rh_zo ((Named.run π) fovy) ((Named.run π) aspect) ((Named.run π) nearZ) ((Named.run π) farZ)).map Ctr.val = glm_perspective_rh_zo (Named.val fovy) (Named.val aspect) (Named.val nearZ) (Named.val farZ) := by
  simp only [cglm, apply_ite (M4.map Ctr.val)]
  try simp only [M4.map, V4.map]
  try plain
  try rfl

theorem C79_same_perspective_default_rh_zo (π : Policy) (aspect : Named) :
    (glm_perspective_default_rh_zo ((Named.run π) aspect)).map Ctr.val = glm_perspective_default_rh_zo (Named.val aspect) := by
  simp only [cglm, apply_ite (M4.map Ctr.val)]
  try simp only [M4.map, V4.map]
  try plain
  try rfl

theorem C79_same_perspective_resize_rh_zo (π : Policy) (aspect : Named) (proj : M4 Named) :
    (glm_perspective_resize_rh_zo ((Named.run π) aspect) (proj.map (Named.run π))).map Ctr.val = glm_perspective_resize_rh_zo (Named.val aspect) (proj.map Named.val) := by
  simp only [cglm, apply_ite (M4.map Ctr.val)]
  try simp only [M4.map, V4.map]
  try plain
  try rfl

theorem C79_same_persp_move_far_rh_zo (π : Policy) (proj : M4 Named) (deltaFar : Named) :
    (glm_persp_move_far_rh_zo (proj.map (Named.run π)) ((Named.run π) deltaFar)).map Ctr.val = glm_persp_move_far_rh_zo (proj.map Named.val) (Named.val deltaFar) := by
  simp only [cglm, apply_ite (M4.map Ctr.val)]
  try simp only [M4.map, V4.map]
  try plain
  try rfl

theorem C79_same_persp_decomp_far_rh_zo (π : Policy) (proj : M4 Named) :
    (glm_persp_decomp_far_rh_zo (proj.map (Named.run π))).val = glm_persp_decomp_far_rh_zo (proj.map Named.val) := by
  simp only [cglm]
  try simp only [M4.map, V4.map]
  try plain
  try rfl

theorem C79_same_persp_decomp_near_rh_zo (π : Policy) (proj : M4 Named) :
    (glm_persp_decomp_near_rh_zo (proj.map (Named.run π))).val = glm_persp_decomp_near_rh_zo (proj.map Named.val) := by
  simp only [cglm]
  try simp only [M4.map, V4.map]
  try plain
  try rfl

theorem C79_same_persp_sizes_rh_zo (π : Policy) (proj : M4 Named) (fovy : Named) :
    (glm_persp_sizes_rh_zo (proj.map (Named.run π)) ((Named.run π) fovy)).map Ctr.val = glm_persp_sizes_rh_zo (proj.map Named.val) (Named.val fovy) := by
  simp only [cglm, apply_ite (V4.map Ctr.val)]
  try simp only [M4.map, V4.map]
  try plain
  try rfl

theorem C79_same_persp_fovy_rh_zo (π : Policy) (proj : M4 Named) :
    (glm_persp_fovy_rh_zo (proj.map (Named.run π))).val = glm_persp_fovy_rh_zo (proj.map Named.val) := by
  simp only [cglm]
  try simp only [M4.map, V4.map]
  try plain
  try rfl

theorem C79_same_persp_aspect_rh_zo (π : Policy) (proj : M4 Named) :
    (glm_persp_aspect_rh_zo (proj.map (Named.run π))).val = glm_persp_aspect_rh_zo (proj.map Named.val) := by
  simp only [cglm]
  try simp only [M4.map, V4.map]
  try plain
  try rfl

theorem C79_same_ease_linear (π : Policy) (t : Named) :
    (glm_ease_linear ((Named.run π) t)).val = glm_ease_linear (Named.val t) := by
  simp only [cglm]
  try plain
  try rfl

theorem C79_same_ease_sine_in (π : Policy) (t : Named) :
    (glm_ease_sine_in ((Named.run π) t)).val = glm_ease_sine_in (Named.val t) := by
  simp only [cglm]
  try plain
  try rfl

theorem C79_same_ease_sine_out (π : Policy) (t : Named) :
    (glm_ease_sine_out ((Named.run π) t)).val = glm_ease_sine_out (Named.val t) := by
  simp only [cglm]
  try plain
  try rfl

theorem C79_same_ease_sine_inout (π : Policy) (t : Named) :
    (glm_ease_sine_inout ((Named.run π) t)).val = glm_ease_sine_inout (Named.val t) := by
  simp only [cglm]
  try plain
  try rfl

theorem C79_same_ease_quad_in (π : Policy) (t : Named) :
    (glm_ease_quad_in ((Named.run π) t)).val = glm_ease_quad_in (Named.val t) := by
  simp only [cglm]
  try plain
  try rfl

theorem C79_same_ease_quad_out (π : Policy) (t : Named) :
    (glm_ease_quad_out ((Named.run π) t)).val = glm_ease_quad_out (Named.val t) := by
  simp only [cglm]
  try plain
  try rfl

theorem C79_same_ease_cubic_in (π : Policy) (t : Named) :
    (glm_ease_cubic_in ((Named.run π) t)).val = glm_ease_cubic_in (Named.val t) := by
  simp only [cglm]
  try plain
  try rfl

theorem C79_same_ease_quart_in (π : Policy) (t : Named) :
    (glm_ease_quart_in ((Named.run π) t)).val = glm_ease_quart_in (Named.val t) := by
  simp only [cglm]
  try plain
  try rfl

theorem C79_same_ease_quint_in (π : Policy) (t : Named) :
    (glm_ease_quint_in ((Named.run π) t)).val = glm_ease_quint_in (Named.val t) := by
  simp only [cglm]
  try plain
  try rfl

theorem C79_same_ease_exp_in (π : Policy) (t : Named) :
    (glm_ease_exp_in ((Named.run π) t)).val = glm_ease_exp_in (Named.val t) := by
  simp only [cglm]
  try plain
  try rfl

theorem C79_same_ease_circ_out (π : Policy) (t : Named) :
    (glm_ease_circ_out ((Named.run π) t)).val = glm_ease_circ_out (Named.val t) := by
  simp only [cglm]
  try plain
  try rfl

theorem C79_same_ease_elast_in (π : Policy) (t : Named) :
    (glm_ease_elast_in ((Named.run π) t)).val = glm_ease_elast_in (Named.val t) := by
  simp only [cglm]
  try plain
  try rfl

theorem C79_same_euler_angles (π : Policy) (m : M4 Named) :
    (glm_euler_angles (m.map (Named.run π))).map Ctr.val = glm_euler_angles (m.map Named.val) := by
  simp only [cglm, apply_ite (V3.map Ctr.val)]
  try simp only [M4.map, V3.map, V4.map]
  try plain
  try rfl

theorem C79_same_mat2_scale (π : Policy) (m : M2 Named) (s : Named) :
    (glm_mat2_scale (m.map (Named.run π)) ((Named.run π) s)).map Ctr.val = glm_mat2_scale (m.map Named.val) (Named.val s) := by
  simp only [cglm, apply_ite (M2.map Ctr.val)]
  try simp only [M2.map, V2.map]
  try plain
  try rfl

theorem C79_same_mat2_trace (π : Policy) (m : M2 Named) :
    (glm_mat2_trace (m.map (Named.run π))).val = glm_mat2_trace (m.map Named.val) := by
  simp only [cglm]
  try simp only [M2.map, V2.map]
  try plain
  try rfl

theorem C79_same_mat2x3_scale (π : Policy) (m : M2x3 Named) (s : Named) :
    (glm_mat2x3_scale (m.map (Named.run π)) ((Named.run π) s)).map Ctr.val = glm_mat2x3_scale (m.map Named.val) (Named.val s) := by
  simp only [cglm, apply_ite (M2x3.map Ctr.val)]
  try simp only [M2x3.map, V3.map]
  try plain
  try rfl

theorem C79_same_mat2x4_scale (π : Policy) (m : M2x4 Named) (s : Named) :
    (glm_mat2x4_scale (m.map (Named.run π)) ((Named.run π) s)).map Ctr.val = glm_mat2x4_scale (m.map Named.val) (Named.val s) := by
  simp only [cglm, apply_ite (M2x4.map Ctr.val)]
  try simp only [M2x4.map, V4.map]
  try plain
  try rfl

theorem C79_same_mat3_trace (π : Policy) (m : M3 Named) :
    (glm_mat3_trace (m.map (Named.run π))).val = glm_mat3_trace (m.map Named.val) := by
  simp only [cglm]
  try simp only [M3.map, V3.map]
  try plain
  try rfl

theorem C79_same_mat3_quat (π : Policy) (m : M3 Named) :
    (glm_mat3_quat (m.map (Named.run π))).map Ctr.val = glm_mat3_quat (m.map Named.val) := by
  simp only [cglm, apply_ite (V4.map Ctr.val)]
  try simp only [M3.map, V3.map, V4.map]
  try plain
  try rfl

theorem C79_same_mat3_scale (π : Policy) (m : M3 Named) (s : Named) :
    (glm_mat3_scale (m.map (Named.run π)) ((Named.run π) s)).map Ctr.val = glm_mat3_scale (m.map Named.val) (Named.val s) := by
  simp only [cglm, apply_ite (M3.map Ctr.val)]
  try simp only [M3.map, V3.map]
  try plain
  try rfl

theorem C79_same_mat3_textrans (π : Policy) (sx : Named) (sy : Named) (rot : Named) (tx : Named) (ty : Named) :
    (glm_mat3_textrans ((Named.run π) sx) ((Named.run π) sy) ((Named.run π) rot) ((Named.run π) tx) ((Named.run π) ty)).map Ctr.val = glm_mat3_textrans (Named.val sx) (Named.val sy) (Named.val rot) (Named.val tx) (Named.val ty) := by
  simp only [cglm, apply_ite (M3.map Ctr.val)]
  try simp only [M3.map, V3.map]
  try plain
  try rfl

theorem C79_same_mat3x2_scale (π : Policy) (m : M3x2 Named) (s : Named) :
    (glm_mat3x2_scale (m.map (Named.run π)) ((Named.run π) s)).map Ctr.val = glm_mat3x2_scale (m.map Named.val) (Named.val s) := by
  simp only [cglm, apply_ite (M3x2.map Ctr.val)]
  try simp only [M3x2.map, V2.map]
  try plain
  try rfl

theorem C79_same_mat3x4_scale (π : Policy) (m : M3x4 Named) (s : Named) :
    (glm_mat3x4_scale (m.map (Named.run π)) ((Named.run π) s)).map Ctr.val = glm_mat3x4_scale (m.map Named.val) (Named.val s) := by
  simp only [cglm, apply_ite (M3x4.map Ctr.val)]
  try simp only [M3x4.map, V4.map]
  try plain
  try rfl

theorem C79_same_mat4_trace (π : Policy) (m : M4 Named) :
    (glm_mat4_trace (m.map (Named.run π))).val = glm_mat4_trace (m.map Named.val) := by
  simp only [cglm]
  try simp only [M4.map, V4.map]
  try plain
  try rfl

theorem C79_same_mat4_trace3 (π : Policy) (m : M4 Named) :
    (glm_mat4_trace3 (m.map (Named.run π))).val = glm_mat4_trace3 (m.map Named.val) := by
  simp only [cglm]
  try simp only [M4.map, V4.map]
  try plain
  try rfl

theorem C79_same_mat4_quat (π : Policy) (m : M4 Named) :
    (glm_mat4_quat (m.map (Named.run π))).map Ctr.val = glm_mat4_quat (m.map Named.val) := by
  simp only [cglm, apply_ite (V4.map Ctr.val)]
  try simp only [M4.map, V4.map]
  try plain
  try rfl

theorem C79_same_mat4_scale_p (π : Policy) (m : M4 Named) (s : Named) :
    (glm_mat4_scale_p (m.map (Named.run π)) ((Named.run π) s)).map Ctr.val = glm_mat4_scale_p (m.map Named.val) (Named.val s) := by
  simp only [cglm, apply_ite (M4.map Ctr.val)]
  try simp only [M4.map, V4.map]
  try plain
  try rfl

theorem C79_same_mat4_scale (π : Policy) (m : M4 Named) (s : Named) :
    (glm_mat4_scale (m.map (Named.run π)) ((Named.run π) s)).map Ctr.val = glm_mat4_scale (m.map Named.val) (Named.val s) := by
  simp only [cglm, apply_ite (M4.map Ctr.val)]
  try simp only [M4.map, V4.map]
  try plain
  try rfl

theorem C79_same_mat4_textrans (π : Policy) (sx : Named) (sy : Named) (rot : Named) (tx : Named) (ty : Named) :
    (glm_mat4_textrans ((Named.run π) sx) ((Named.run π) sy) ((Named.run π) rot) ((Named.run π) tx) ((Named.run π) ty)).map Ctr.val = glm_mat4_textrans (Named.val sx) (Named.val sy) (Named.val rot) (Named.val tx) (Named.val ty) := by
  simp only [cglm, apply_ite (M4.map Ctr.val)]
  try simp only [M4.map, V4.map]
  try plain
  try rfl

theorem C79_same_mat4x2_scale (π : Policy) (m : M4x2 Named) (s : Named) :
    (glm_mat4x2_scale (m.map (Named.run π)) ((Named.run π) s)).map Ctr.val = glm_mat4x2_scale (m.map Named.val) (Named.val s) := by
  simp only [cglm, apply_ite (M4x2.map Ctr.val)]
  try simp only [M4x2.map, V2.map]
  try plain
  try rfl

theorem C79_same_mat4x3_scale (π : Policy) (m : M4x3 Named) (s : Named) :
    (glm_mat4x3_scale (m.map (Named.run π)) ((Named.run π) s)).map Ctr.val = glm_mat4x3_scale (m.map Named.val) (Named.val s) := by
  simp only [cglm, apply_ite (M4x3.map Ctr.val)]
  try simp only [M4x3.map, V3.map]
  try plain
  try rfl

theorem C79_same_quat_conjugate (π : Policy) (q : V4 Named) :
    (glm_quat_conjugate (q.map (Named.run π))).map Ctr.val = glm_quat_conjugate (q.map Named.val) := by
  simp only [cglm, apply_ite (V4.map Ctr.val)]
  try simp only [V4.map]
  try plain
  try rfl

theorem C79_same_quat_add (π : Policy) (p : V4 Named) (q : V4 Named) :
    (glm_quat_add (p.map (Named.run π)) (q.map (Named.run π))).map Ctr.val = glm_quat_add (p.map Named.val) (q.map Named.val) := by
  simp only [cglm, apply_ite (V4.map Ctr.val)]
  try simp only [V4.map]
  try plain
  try rfl

theorem C79_same_quat_sub (π : Policy) (p : V4 Named) (q : V4 Named) :
    (glm_quat_sub (p.map (Named.run π)) (q.map (Named.run π))).map Ctr.val = glm_quat_sub (p.map Named.val) (q.map Named.val) := by
  simp only [cglm, apply_ite (V4.map Ctr.val)]
  try simp only [V4.map]
  try plain
  try rfl

theorem C79_same_sphere_radii (π : Policy) (s : V4 Named) :
    (glm_sphere_radii (s.map (Named.run π))).val = glm_sphere_radii (s.map Named.val) := by
  simp only [cglm]
  try simp only [V4.map]
  try plain
  try rfl

theorem C79_same_signf (π : Policy) (val : Named) :
    (glm_signf ((Named.run π) val)).val = glm_signf (Named.val val) := by
  simp only [cglm]
  try plain
  try rfl

theorem C79_same_rad (π : Policy) (deg : Named) :
    (glm_rad ((Named.run π) deg)).val = glm_rad (Named.val deg) := by
  simp only [cglm]
  try plain
  try rfl

theorem C79_same_deg (π : Policy) (rad : Named) :
    (glm_deg ((Named.run π) rad)).val = glm_deg (Named.val rad) := by
  simp only [cglm]
  try plain
  try rfl

theorem C79_same_make_rad (π : Policy) (deg : Named) :
    (glm_make_rad ((Named.run π) deg)).val = glm_make_rad (Named.val deg) := by
  simp only [cglm]
  try plain
  try rfl

theorem C79_same_make_deg (π : Policy) (rad : Named) :
    (glm_make_deg ((Named.run π) rad)).val = glm_make_deg (Named.val rad) := by
  simp only [cglm]
  try plain
  try rfl

theorem C79_same_pow2 (π : Policy) (x : Named) :
    (glm_pow2 ((Named.run π) x)).val = glm_pow2 (Named.val x) := by
  simp only [cglm]
  try plain
  try rfl

theorem C79_same_min (π : Policy) (a : Named) (b : Named) :
    (glm_min ((Named.run π) a) ((Named.run π) b)).val = glm_min (Named.val a) (Named.val b) := by
  simp only [cglm]
  try plain
  try rfl

theorem C79_same_max (π : Policy) (a : Named) (b : Named) :
    (glm_max ((Named.run π) a) ((Named.run π) b)).val = glm_max (Named.val a) (Named.val b) := by
  simp only [cglm]
  try plain
  try rfl

theorem C79_same_clamp (π : Policy) (val : Named) (minVal : Named) (maxVal : Named) :
    (glm_clamp ((Named.run π) val) ((Named.run π) minVal) ((Named.run π) maxVal)).val = glm_clamp (Named.val val) (Named.val minVal) (Named.val maxVal) := by
  simp only [cglm]
  try plain
  try rfl

theorem C79_same_clamp_zo (π : Policy) (val : Named) :
    (glm_clamp_zo ((Named.run π) val)).val = glm_clamp_zo (Named.val val) := by
  simp only [cglm]
  try plain
  try rfl

theorem C79_same_step (π : Policy) (edge : Named) (x : Named) :
    (glm_step ((Named.run π) edge) ((Named.run π) x)).val = glm_step (Named.val edge) (Named.val x) := by
  simp only [cglm]
  try plain
  try rfl

theorem C79_same_eq (π : Policy) (a : Named) (b : Named) :
    glm_eq ((Named.run π) a) ((Named.run π) b) = glm_eq (Named.val a) (Named.val b) := by
  simp only [cglm]
  try plain
  try rfl

theorem C79_same_percent (π : Policy) (frm : Named) (dst : Named) (current : Named) :
    (glm_percent ((Named.run π) frm) ((Named.run π) dst) ((Named.run π) current)).val = glm_percent (Named.val frm) (Named.val dst) (Named.val current) := by
  simp only [cglm]
  try plain
  try rfl

theorem C79_same_percentc (π : Policy) (frm : Named) (dst : Named) (current : Named) :
    (glm_percentc ((Named.run π) frm) ((Named.run π) dst) ((Named.run π) current)).val = glm_percentc (Named.val frm) (Named.val dst) (Named.val current) := by
  simp only [cglm]
  try plain
  try rfl

theorem C79_same_vec2_add (π : Policy) (a : V2 Named) (b : V2 Named) :
    (glm_vec2_add (a.map (Named.run π)) (b.map (Named.run π))).map Ctr.val = glm_vec2_add (a.map Named.val) (b.map Named.val) := by
  simp only [cglm, apply_ite (V2.map Ctr.val)]
  try simp only [V2.map]
  try plain
  try rfl

theorem C79_same_vec2_adds (π : Policy) (v : V2 Named) (s : Named) :
    (glm_vec2_adds (v.map (Named.run π)) ((Named.run π) s)).map Ctr.val = glm_vec2_adds (v.map Named.val) (Named.val s) := by
  simp only [cglm, apply_ite (V2.map Ctr.val)]
  try simp only [V2.map]
  try plain
  try rfl

theorem C79_same_vec2_sub (π : Policy) (a : V2 Named) (b : V2 Named) :
    (glm_vec2_sub (a.map (Named.run π)) (b.map (Named.run π))).map Ctr.val = glm_vec2_sub (a.map Named.val) (b.map Named.val) := by
  simp only [cglm, apply_ite (V2.map Ctr.val)]
  try simp only [V2.map]
  try plain
  try rfl

theorem C79_same_vec2_subs (π : Policy) (v : V2 Named) (s : Named) :
    (glm_vec2_subs (v.map (Named.run π)) ((Named.run π) s)).map Ctr.val = glm_vec2_subs (v.map Named.val) (Named.val s) := by
  simp only [cglm, apply_ite (V2.map Ctr.val)]
  try simp only [V2.map]
  try plain
  try rfl

theorem C79_same_vec2_mul (π : Policy) (a : V2 Named) (b : V2 Named) :
    (glm_vec2_mul (a.map (Named.run π)) (b.map (Named.run π))).map Ctr.val = glm_vec2_mul (a.map Named.val) (b.map Named.val) := by
  simp only [cglm, apply_ite (V2.map Ctr.val)]
  try simp only [V2.map]
  try plain
  try rfl

theorem C79_same_vec2_scale (π : Policy) (v : V2 Named) (s : Named) :
    (glm_vec2_scale (v.map (Named.run π)) ((Named.run π) s)).map Ctr.val = glm_vec2_scale (v.map Named.val) (Named.val s) := by
  simp only [cglm, apply_ite (V2.map Ctr.val)]
  try simp only [V2.map]
  try plain
  try rfl

theorem C79_same_vec2_div (π : Policy) (a : V2 Named) (b : V2 Named) :
    (glm_vec2_div (a.map (Named.run π)) (b.map (Named.run π))).map Ctr.val = glm_vec2_div (a.map Named.val) (b.map Named.val) := by
  simp only [cglm, apply_ite (V2.map Ctr.val)]
  try simp only [V2.map]
  try plain
  try rfl

theorem C79_same_vec2_divs (π : Policy) (v : V2 Named) (s : Named) :
    (glm_vec2_divs (v.map (Named.run π)) ((Named.run π) s)).map Ctr.val = glm_vec2_divs (v.map Named.val) (Named.val s) := by
  simp only [cglm, apply_ite (V2.map Ctr.val)]
  try simp only [V2.map]
  try plain
  try rfl

theorem C79_same_vec2_addadd (π : Policy) (a : V2 Named) (b : V2 Named) (dest : V2 Named) :
    (glm_vec2_addadd (a.map (Named.run π)) (b.map (Named.run π)) (dest.map (Named.run π))).map Ctr.val = glm_vec2_addadd (a.map Named.val) (b.map Named.val) (dest.map Named.val) := by
  simp only [cglm, apply_ite (V2.map Ctr.val)]
  try simp only [V2.map]
  try plain
  try rfl

theorem C79_same_vec2_subadd (π : Policy) (a : V2 Named) (b : V2 Named) (dest : V2 Named) :
    (glm_vec2_subadd (a.map (Named.run π)) (b.map (Named.run π)) (dest.map (Named.run π))).map Ctr.val = glm_vec2_subadd (a.map Named.val) (b.map Named.val) (dest.map Named.val) := by
  simp only [cglm, apply_ite (V2.map Ctr.val)]
  try simp only [V2.map]
  try plain
  try rfl

theorem C79_same_vec2_maxadd (π : Policy) (a : V2 Named) (b : V2 Named) (dest : V2 Named) :
    (glm_vec2_maxadd (a.map (Named.run π)) (b.map (Named.run π)) (dest.map (Named.run π))).map Ctr.val = glm_vec2_maxadd (a.map Named.val) (b.map Named.val) (dest.map Named.val) := by
  simp only [cglm, apply_ite (V2.map Ctr.val)]
  try simp only [V2.map]
  try plain
  try rfl

theorem C79_same_vec2_minadd (π : Policy) (a : V2 Named) (b : V2 Named) (dest : V2 Named) :
    (glm_vec2_minadd (a.map (Named.run π)) (b.map (Named.run π)) (dest.map (Named.run π))).map Ctr.val = glm_vec2_minadd (a.map Named.val) (b.map Named.val) (dest.map Named.val) := by
  simp only [cglm, apply_ite (V2.map Ctr.val)]
  try simp only [V2.map]
  try plain
  try rfl

theorem C79_same_vec2_subsub (π : Policy) (a : V2 Named) (b : V2 Named) (dest : V2 Named) :
    (glm_vec2_subsub (a.map (Named.run π)) (b.map (Named.run π)) (dest.map (Named.run π))).map Ctr.val = glm_vec2_subsub (a.map Named.val) (b.map Named.val) (dest.map Named.val) := by
  simp only [cglm, apply_ite (V2.map Ctr.val)]
  try simp only [V2.map]
  try plain
  try rfl

theorem C79_same_vec2_addsub (π : Policy) (a : V2 Named) (b : V2 Named) (dest : V2 Named) :
    (glm_vec2_addsub (a.map (Named.run π)) (b.map (Named.run π)) (dest.map (Named.run π))).map Ctr.val = glm_vec2_addsub (a.map Named.val) (b.map Named.val) (dest.map Named.val) := by
  simp only [cglm, apply_ite (V2.map Ctr.val)]
  try simp only [V2.map]
  try plain
  try rfl

theorem C79_same_vec2_maxsub (π : Policy) (a : V2 Named) (b : V2 Named) (dest : V2 Named) :
    (glm_vec2_maxsub (a.map (Named.run π)) (b.map (Named.run π)) (dest.map (Named.run π))).map Ctr.val = glm_vec2_maxsub (a.map Named.val) (b.map Named.val) (dest.map Named.val) := by
  simp only [cglm, apply_ite (V2.map Ctr.val)]
  try simp only [V2.map]
  try plain
  try rfl

theorem C79_same_vec2_minsub (π : Policy) (a : V2 Named) (b : V2 Named) (dest : V2 Named) :
    (glm_vec2_minsub (a.map (Named.run π)) (b.map (Named.run π)) (dest.map (Named.run π))).map Ctr.val = glm_vec2_minsub (a.map Named.val) (b.map Named.val) (dest.map Named.val) := by
  simp only [cglm, apply_ite (V2.map Ctr.val)]
  try simp only [V2.map]
  try plain
  try rfl

theorem C79_same_vec2_negate_to (π : Policy) (v : V2 Named) :
    (glm_vec2_negate_to (v.map (Named.run π))).map Ctr.val = glm_vec2_negate_to (v.map Named.val) := by
  simp only [cglm, apply_ite (V2.map Ctr.val)]
  try simp only [V2.map]
  try plain
  try rfl

theorem C79_same_vec2_negate (π : Policy) (v : V2 Named) :
    (glm_vec2_negate (v.map (Named.run π))).map Ctr.val = glm_vec2_negate (v.map Named.val) := by
  simp only [cglm, apply_ite (V2.map Ctr.val)]
  try simp only [V2.map]
  try plain
  try rfl

theorem C79_same_vec2_center (π : Policy) (a : V2 Named) (b : V2 Named) :
    (glm_vec2_center (a.map (Named.run π)) (b.map (Named.run π))).map Ctr.val = glm_vec2_center (a.map Named.val) (b.map Named.val) := by
  simp only [cglm, apply_ite (V2.map Ctr.val)]
  try simp only [V2.map]
  try plain
  try rfl

theorem C79_same_vec2_maxv (π : Policy) (a : V2 Named) (b : V2 Named) :
    (glm_vec2_maxv (a.map (Named.run π)) (b.map (Named.run π))).map Ctr.val = glm_vec2_maxv (a.map Named.val) (b.map Named.val) := by
  simp only [cglm, apply_ite (V2.map Ctr.val)]
  try simp only [V2.map]
  try plain
  try rfl

theorem C79_same_vec2_minv (π : Policy) (a : V2 Named) (b : V2 Named) :
    (glm_vec2_minv (a.map (Named.run π)) (b.map (Named.run π))).map Ctr.val = glm_vec2_minv (a.map Named.val) (b.map Named.val) := by
  simp only [cglm, apply_ite (V2.map Ctr.val)]
  try simp only [V2.map]
  try plain
  try rfl

theorem C79_same_vec2_clamp (π : Policy) (v : V2 Named) (minval : Named) (maxval : Named) :
    (glm_vec2_clamp (v.map (Named.run π)) ((Named.run π) minval) ((Named.run π) maxval)).map Ctr.val = glm_vec2_clamp (v.map Named.val) (Named.val minval) (Named.val maxval) := by
  simp only [cglm, apply_ite (V2.map Ctr.val)]
  try simp only [V2.map]
  try plain
  try rfl

theorem C79_same_vec2_step (π : Policy) (edge : V2 Named) (x : V2 Named) :
    (glm_vec2_step (edge.map (Named.run π)) (x.map (Named.run π))).map Ctr.val = glm_vec2_step (edge.map Named.val) (x.map Named.val) := by
  simp only [cglm, apply_ite (V2.map Ctr.val)]
  try simp only [V2.map]
  try plain
  try rfl

theorem C79_same_vec2_eq (π : Policy) (v : V2 Named) (val : Named) :
    glm_vec2_eq (v.map (Named.run π)) ((Named.run π) val) = glm_vec2_eq (v.map Named.val) (Named.val val) := by
  simp only [cglm]
  try simp only [V2.map]
  try plain
  try rfl

theorem C79_same_vec2_eq_eps (π : Policy) (v : V2 Named) (val : Named) :
    glm_vec2_eq_eps (v.map (Named.run π)) ((Named.run π) val) = glm_vec2_eq_eps (v.map Named.val) (Named.val val) := by
  simp only [cglm]
  try simp only [V2.map]
  try plain
  try rfl

theorem C79_same_vec2_eq_all (π : Policy) (v : V2 Named) :
    glm_vec2_eq_all (v.map (Named.run π)) = glm_vec2_eq_all (v.map Named.val) := by
  simp only [cglm]
  try simp only [V2.map]
  try plain
  try rfl

theorem C79_same_vec2_eqv (π : Policy) (a : V2 Named) (b : V2 Named) :
    glm_vec2_eqv (a.map (Named.run π)) (b.map (Named.run π)) = glm_vec2_eqv (a.map Named.val) (b.map Named.val) := by
  simp only [cglm]
  try simp only [V2.map]
  try plain
  try rfl

theorem C79_same_vec2_eqv_eps (π : Policy) (a : V2 Named) (b : V2 Named) :
    glm_vec2_eqv_eps (a.map (Named.run π)) (b.map (Named.run π)) = glm_vec2_eqv_eps (a.map Named.val) (b.map Named.val) := by
  simp only [cglm]
  try simp only [V2.map]
  try plain
  try rfl

theorem C79_same_vec2_max (π : Policy) (v : V2 Named) :
    (glm_vec2_max (v.map (Named.run π))).val = glm_vec2_max (v.map Named.val) := by
  simp only [cglm]
  try simp only [V2.map]
  try plain
  try rfl

theorem C79_same_vec2_min (π : Policy) (v : V2 Named) :
    (glm_vec2_min (v.map (Named.run π))).val = glm_vec2_min (v.map Named.val) := by
  simp only [cglm]
  try simp only [V2.map]
  try plain
  try rfl

theorem C79_same_vec2_isnan (π : Policy) (v : V2 Named) :
    glm_vec2_isnan (v.map (Named.run π)) = glm_vec2_isnan (v.map Named.val) := by
  simp only [cglm]
  try simp only [V2.map]
  try plain
  try rfl

theorem C79_same_vec2_isinf (π : Policy) (v : V2 Named) :
    glm_vec2_isinf (v.map (Named.run π)) = glm_vec2_isinf (v.map Named.val) := by
  simp only [cglm]
  try simp only [V2.map]
  try plain
  try rfl

theorem C79_same_vec2_isvalid (π : Policy) (v : V2 Named) :
    glm_vec2_isvalid (v.map (Named.run π)) = glm_vec2_isvalid (v.map Named.val) := by
  simp only [cglm]
  try simp only [V2.map]
  try plain
  try rfl

theorem C79_same_vec2_sign (π : Policy) (v : V2 Named) :
    (glm_vec2_sign (v.map (Named.run π))).map Ctr.val = glm_vec2_sign (v.map Named.val) := by
  simp only [cglm, apply_ite (V2.map Ctr.val)]
  try simp only [V2.map]
  try plain
  try rfl

theorem C79_same_vec2_abs (π : Policy) (v : V2 Named) :
    (glm_vec2_abs (v.map (Named.run π))).map Ctr.val = glm_vec2_abs (v.map Named.val) := by
  simp only [cglm, apply_ite (V2.map Ctr.val)]
  try simp only [V2.map]
  try plain
  try rfl

theorem C79_same_vec2_fract (π : Policy) (v : V2 Named) :
    (glm_vec2_fract (v.map (Named.run π))).map Ctr.val = glm_vec2_fract (v.map Named.val) := by
  simp only [cglm, apply_ite (V2.map Ctr.val)]
  try simp only [V2.map]
  try plain
  try rfl

theorem C79_same_vec2_floor (π : Policy) (v : V2 Named) :
    (glm_vec2_floor (v.map (Named.run π))).map Ctr.val = glm_vec2_floor (v.map Named.val) := by
  simp only [cglm, apply_ite (V2.map Ctr.val)]
  try simp only [V2.map]
  try plain
  try rfl

theorem C79_same_vec2_mods (π : Policy) (v : V2 Named) (s : Named) :
    (glm_vec2_mods (v.map (Named.run π)) ((Named.run π) s)).map Ctr.val = glm_vec2_mods (v.map Named.val) (Named.val s) := by
  simp only [cglm, apply_ite (V2.map Ctr.val)]
  try simp only [V2.map]
  try plain
  try rfl

theorem C79_same_vec2_sqrt (π : Policy) (v : V2 Named) :
    (glm_vec2_sqrt (v.map (Named.run π))).map Ctr.val = glm_vec2_sqrt (v.map Named.val) := by
  simp only [cglm, apply_ite (V2.map Ctr.val)]
  try simp only [V2.map]
  try plain
  try rfl

theorem C79_same_vec2_steps (π : Policy) (edge : Named) (x : V2 Named) :
    (glm_vec2_steps ((Named.run π) edge) (x.map (Named.run π))).map Ctr.val = glm_vec2_steps (Named.val edge) (x.map Named.val) := by
  simp only [cglm, apply_ite (V2.map Ctr.val)]
  try simp only [V2.map]
  try plain
  try rfl

theorem C79_same_vec2_stepr (π : Policy) (edge : V2 Named) (x : Named) :
    (glm_vec2_stepr (edge.map (Named.run π)) ((Named.run π) x)).map Ctr.val = glm_vec2_stepr (edge.map Named.val) (Named.val x) := by
  simp only [cglm, apply_ite (V2.map Ctr.val)]
  try simp only [V2.map]
  try plain
  try rfl

theorem C79_same_vec2_complex_conjugate (π : Policy) (a : V2 Named) :
    (glm_vec2_complex_conjugate (a.map (Named.run π))).map Ctr.val = glm_vec2_complex_conjugate (a.map Named.val) := by
  simp only [cglm, apply_ite (V2.map Ctr.val)]
  try simp only [V2.map]
  try plain
  try rfl

theorem C79_same_vec3_norm_one (π : Policy) (v : V3 Named) :
    (glm_vec3_norm_one (v.map (Named.run π))).val = glm_vec3_norm_one (v.map Named.val) := by
  simp only [cglm]
  try simp only [V3.map]
  try plain
  try rfl

theorem C79_same_vec3_norm_inf (π : Policy) (v : V3 Named) :
    (glm_vec3_norm_inf (v.map (Named.run π))).val = glm_vec3_norm_inf (v.map Named.val) := by
  simp only [cglm]
  try simp only [V3.map]
  try plain
  try rfl

theorem C79_same_vec3_add (π : Policy) (a : V3 Named) (b : V3 Named) :
    (glm_vec3_add (a.map (Named.run π)) (b.map (Named.run π))).map Ctr.val = glm_vec3_add (a.map Named.val) (b.map Named.val) := by
  simp only [cglm, apply_ite (V3.map Ctr.val)]
  try simp only [V3.map]
  try plain
  try rfl

theorem C79_same_vec3_adds (π : Policy) (v : V3 Named) (s : Named) :
    (glm_vec3_adds (v.map (Named.run π)) ((Named.run π) s)).map Ctr.val = glm_vec3_adds (v.map Named.val) (Named.val s) := by
  simp only [cglm, apply_ite (V3.map Ctr.val)]
  try simp only [V3.map]
  try plain
  try rfl

theorem C79_same_vec3_sub (π : Policy) (a : V3 Named) (b : V3 Named) :
    (glm_vec3_sub (a.map (Named.run π)) (b.map (Named.run π))).map Ctr.val = glm_vec3_sub (a.map Named.val) (b.map Named.val) := by
  simp only [cglm, apply_ite (V3.map Ctr.val)]
  try simp only [V3.map]
  try plain
  try rfl

theorem C79_same_vec3_subs (π : Policy) (v : V3 Named) (s : Named) :
    (glm_vec3_subs (v.map (Named.run π)) ((Named.run π) s)).map Ctr.val = glm_vec3_subs (v.map Named.val) (Named.val s) := by
  simp only [cglm, apply_ite (V3.map Ctr.val)]
  try simp only [V3.map]
  try plain
  try rfl

theorem C79_same_vec3_mul (π : Policy) (a : V3 Named) (b : V3 Named) :
    (glm_vec3_mul (a.map (Named.run π)) (b.map (Named.run π))).map Ctr.val = glm_vec3_mul (a.map Named.val) (b.map Named.val) := by
  simp only [cglm, apply_ite (V3.map Ctr.val)]
  try simp only [V3.map]
  try plain
  try rfl

theorem C79_same_vec3_scale (π : Policy) (v : V3 Named) (s : Named) :
    (glm_vec3_scale (v.map (Named.run π)) ((Named.run π) s)).map Ctr.val = glm_vec3_scale (v.map Named.val) (Named.val s) := by
  simp only [cglm, apply_ite (V3.map Ctr.val)]
  try simp only [V3.map]
  try plain
  try rfl

theorem C79_same_vec3_div (π : Policy) (a : V3 Named) (b : V3 Named) :
    (glm_vec3_div (a.map (Named.run π)) (b.map (Named.run π))).map Ctr.val = glm_vec3_div (a.map Named.val) (b.map Named.val) := by
  simp only [cglm, apply_ite (V3.map Ctr.val)]
  try simp only [V3.map]
  try plain
  try rfl

theorem C79_same_vec3_divs (π : Policy) (v : V3 Named) (s : Named) :
    (glm_vec3_divs (v.map (Named.run π)) ((Named.run π) s)).map Ctr.val = glm_vec3_divs (v.map Named.val) (Named.val s) := by
  simp only [cglm, apply_ite (V3.map Ctr.val)]
  try simp only [V3.map]
  try plain
  try rfl

theorem C79_same_vec3_addadd (π : Policy) (a : V3 Named) (b : V3 Named) (dest : V3 Named) :
    (glm_vec3_addadd (a.map (Named.run π)) (b.map (Named.run π)) (dest.map (Named.run π))).map Ctr.val = glm_vec3_addadd (a.map Named.val) (b.map Named.val) (dest.map Named.val) := by
  simp only [cglm, apply_ite (V3.map Ctr.val)]
  try simp only [V3.map]
  try plain
  try rfl

theorem C79_same_vec3_subadd (π : Policy) (a : V3 Named) (b : V3 Named) (dest : V3 Named) :
    (glm_vec3_subadd (a.map (Named.run π)) (b.map (Named.run π)) (dest.map (Named.run π))).map Ctr.val = glm_vec3_subadd (a.map Named.val) (b.map Named.val) (dest.map Named.val) := by
  simp only [cglm, apply_ite (V3.map Ctr.val)]
  try simp only [V3.map]
  try plain
  try rfl

theorem C79_same_vec3_maxadd (π : Policy) (a : V3 Named) (b : V3 Named) (dest : V3 Named) :
    (glm_vec3_maxadd (a.map (Named.run π)) (b.map (Named.run π)) (dest.map (Named.run π))).map Ctr.val = glm_vec3_maxadd (a.map Named.val) (b.map Named.val) (dest.map Named.val) := by
  simp only [cglm, apply_ite (V3.map Ctr.val)]
  try simp only [V3.map]
  try plain
  try rfl

theorem C79_same_vec3_minadd (π : Policy) (a : V3 Named) (b : V3 Named) (dest : V3 Named) :
    (glm_vec3_minadd (a.map (Named.run π)) (b.map (Named.run π)) (dest.map (Named.run π))).map Ctr.val = glm_vec3_minadd (a.map Named.val) (b.map Named.val) (dest.map Named.val) := by
  simp only [cglm, apply_ite (V3.map Ctr.val)]
  try simp only [V3.map]
  try plain
  try rfl

theorem C79_same_vec3_subsub (π : Policy) (a : V3 Named) (b : V3 Named) (dest : V3 Named) :
    (glm_vec3_subsub (a.map (Named.run π)) (b.map (Named.run π)) (dest.map (Named.run π))).map Ctr.val = glm_vec3_subsub (a.map Named.val) (b.map Named.val) (dest.map Named.val) := by
  simp only [cglm, apply_ite (V3.map Ctr.val)]
  try simp only [V3.map]
  try plain
  try rfl

theorem C79_same_vec3_addsub (π : Policy) (a : V3 Named) (b : V3 Named) (dest : V3 Named) :
    (glm_vec3_addsub (a.map (Named.run π)) (b.map (Named.run π)) (dest.map (Named.run π))).map Ctr.val = glm_vec3_addsub (a.map Named.val) (b.map Named.val) (dest.map Named.val) := by
  simp only [cglm, apply_ite (V3.map Ctr.val)]
  try simp only [V3.map]
  try plain
  try rfl

theorem C79_same_vec3_maxsub (π : Policy) (a : V3 Named) (b : V3 Named) (dest : V3 Named) :
    (glm_vec3_maxsub (a.map (Named.run π)) (b.map (Named.run π)) (dest.map (Named.run π))).map Ctr.val = glm_vec3_maxsub (a.map Named.val) (b.map Named.val) (dest.map Named.val) := by
  simp only [cglm, apply_ite (V3.map Ctr.val)]
  try simp only [V3.map]
  try plain
  try rfl

theorem C79_same_vec3_minsub (π : Policy) (a : V3 Named) (b : V3 Named) (dest : V3 Named) :
    (glm_vec3_minsub (a.map (Named.run π)) (b.map (Named.run π)) (dest.map (Named.run π))).map Ctr.val = glm_vec3_minsub (a.map Named.val) (b.map Named.val) (dest.map Named.val) := by
  simp only [cglm, apply_ite (V3.map Ctr.val)]
  try simp only [V3.map]
  try plain
  try rfl

theorem C79_same_vec3_negate_to (π : Policy) (v : V3 Named) :
    (glm_vec3_negate_to (v.map (Named.run π))).map Ctr.val = glm_vec3_negate_to (v.map Named.val) := by
  simp only [cglm, apply_ite (V3.map Ctr.val)]
  try simp only [V3.map]
  try plain
  try rfl

theorem C79_same_vec3_negate (π : Policy) (v : V3 Named) :
    (glm_vec3_negate (v.map (Named.run π))).map Ctr.val = glm_vec3_negate (v.map Named.val) := by
  simp only [cglm, apply_ite (V3.map Ctr.val)]
  try simp only [V3.map]
  try plain
  try rfl

theorem C79_same_vec3_center (π : Policy) (a : V3 Named) (b : V3 Named) :
    (glm_vec3_center (a.map (Named.run π)) (b.map (Named.run π))).map Ctr.val = glm_vec3_center (a.map Named.val) (b.map Named.val) := by
  simp only [cglm, apply_ite (V3.map Ctr.val)]
  try simp only [V3.map]
  try plain
  try rfl

theorem C79_same_vec3_maxv (π : Policy) (a : V3 Named) (b : V3 Named) :
    (glm_vec3_maxv (a.map (Named.run π)) (b.map (Named.run π))).map Ctr.val = glm_vec3_maxv (a.map Named.val) (b.map Named.val) := by
  simp only [cglm, apply_ite (V3.map Ctr.val)]
  try simp only [V3.map]
  try plain
  try rfl

theorem C79_same_vec3_minv (π : Policy) (a : V3 Named) (b : V3 Named) :
    (glm_vec3_minv (a.map (Named.run π)) (b.map (Named.run π))).map Ctr.val = glm_vec3_minv (a.map Named.val) (b.map Named.val) := by
  simp only [cglm, apply_ite (V3.map Ctr.val)]
  try simp only [V3.map]
  try plain
  try rfl

theorem C79_same_vec3_clamp (π : Policy) (v : V3 Named) (minVal : Named) (maxVal : Named) :
    (glm_vec3_clamp (v.map (Named.run π)) ((Named.run π) minVal) ((Named.run π) maxVal)).map Ctr.val = glm_vec3_clamp (v.map Named.val) (Named.val minVal) (Named.val maxVal) := by
  simp only [cglm, apply_ite (V3.map Ctr.val)]
  try simp only [V3.map]
  try plain
  try rfl

theorem C79_same_vec3_step (π : Policy) (edge : V3 Named) (x : V3 Named) :
    (glm_vec3_step (edge.map (Named.run π)) (x.map (Named.run π))).map Ctr.val = glm_vec3_step (edge.map Named.val) (x.map Named.val) := by
  simp only [cglm, apply_ite (V3.map Ctr.val)]
  try simp only [V3.map]
  try plain
  try rfl

theorem C79_same_vec3_eq (π : Policy) (v : V3 Named) (val : Named) :
    glm_vec3_eq (v.map (Named.run π)) ((Named.run π) val) = glm_vec3_eq (v.map Named.val) (Named.val val) := by
  simp only [cglm]
  try simp only [V3.map]
  try plain
  try rfl

theorem C79_same_vec3_eq_eps (π : Policy) (v : V3 Named) (val : Named) :
    glm_vec3_eq_eps (v.map (Named.run π)) ((Named.run π) val) = glm_vec3_eq_eps (v.map Named.val) (Named.val val) := by
  simp only [cglm]
  try simp only [V3.map]
  try plain
  try rfl

theorem C79_same_vec3_eq_all (π : Policy) (v : V3 Named) :
    glm_vec3_eq_all (v.map (Named.run π)) = glm_vec3_eq_all (v.map Named.val) := by
  simp only [cglm]
  try simp only [V3.map]
  try plain
  try rfl

theorem C79_same_vec3_eqv (π : Policy) (a : V3 Named) (b : V3 Named) :
    glm_vec3_eqv (a.map (Named.run π)) (b.map (Named.run π)) = glm_vec3_eqv (a.map Named.val) (b.map Named.val) := by
  simp only [cglm]
  try simp only [V3.map]
  try plain
  try rfl

theorem C79_same_vec3_eqv_eps (π : Policy) (a : V3 Named) (b : V3 Named) :
    glm_vec3_eqv_eps (a.map (Named.run π)) (b.map (Named.run π)) = glm_vec3_eqv_eps (a.map Named.val) (b.map Named.val) := by
  simp only [cglm]
  try simp only [V3.map]
  try plain
  try rfl

theorem C79_same_vec3_max (π : Policy) (v : V3 Named) :
    (glm_vec3_max (v.map (Named.run π))).val = glm_vec3_max (v.map Named.val) := by
  simp only [cglm]
  try simp only [V3.map]
  try plain
  try rfl

theorem C79_same_vec3_min (π : Policy) (v : V3 Named) :
    (glm_vec3_min (v.map (Named.run π))).val = glm_vec3_min (v.map Named.val) := by
  simp only [cglm]
  try simp only [V3.map]
  try plain
  try rfl

theorem C79_same_vec3_isnan (π : Policy) (v : V3 Named) :
    glm_vec3_isnan (v.map (Named.run π)) = glm_vec3_isnan (v.map Named.val) := by
  simp only [cglm]
  try simp only [V3.map]
  try plain
  try rfl

theorem C79_same_vec3_isinf (π : Policy) (v : V3 Named) :
    glm_vec3_isinf (v.map (Named.run π)) = glm_vec3_isinf (v.map Named.val) := by
  simp only [cglm]
  try simp only [V3.map]
  try plain
  try rfl

theorem C79_same_vec3_isvalid (π : Policy) (v : V3 Named) :
    glm_vec3_isvalid (v.map (Named.run π)) = glm_vec3_isvalid (v.map Named.val) := by
  simp only [cglm]
  try simp only [V3.map]
  try plain
  try rfl

theorem C79_same_vec3_sign (π : Policy) (v : V3 Named) :
    (glm_vec3_sign (v.map (Named.run π))).map Ctr.val = glm_vec3_sign (v.map Named.val) := by
  simp only [cglm, apply_ite (V3.map Ctr.val)]
  try simp only [V3.map]
  try plain
  try rfl

theorem C79_same_vec3_abs (π : Policy) (v : V3 Named) :
    (glm_vec3_abs (v.map (Named.run π))).map Ctr.val = glm_vec3_abs (v.map Named.val) := by
  simp only [cglm, apply_ite (V3.map Ctr.val)]
  try simp only [V3.map]
  try plain
  try rfl

theorem C79_same_vec3_fract (π : Policy) (v : V3 Named) :
    (glm_vec3_fract (v.map (Named.run π))).map Ctr.val = glm_vec3_fract (v.map Named.val) := by
  simp only [cglm, apply_ite (V3.map Ctr.val)]
  try simp only [V3.map]
  try plain
  try rfl

theorem C79_same_vec3_floor (π : Policy) (v : V3 Named) :
    (glm_vec3_floor (v.map (Named.run π))).map Ctr.val = glm_vec3_floor (v.map Named.val) := by
  simp only [cglm, apply_ite (V3.map Ctr.val)]
  try simp only [V3.map]
  try plain
  try rfl

theorem C79_same_vec3_mods (π : Policy) (v : V3 Named) (s : Named) :
    (glm_vec3_mods (v.map (Named.run π)) ((Named.run π) s)).map Ctr.val = glm_vec3_mods (v.map Named.val) (Named.val s) := by
  simp only [cglm, apply_ite (V3.map Ctr.val)]
  try simp only [V3.map]
  try plain
  try rfl

theorem C79_same_vec3_steps (π : Policy) (edge : Named) (x : V3 Named) :
    (glm_vec3_steps ((Named.run π) edge) (x.map (Named.run π))).map Ctr.val = glm_vec3_steps (Named.val edge) (x.map Named.val) := by
  simp only [cglm, apply_ite (V3.map Ctr.val)]
  try simp only [V3.map]
  try plain
  try rfl

theorem C79_same_vec3_stepr (π : Policy) (edge : V3 Named) (x : Named) :
    (glm_vec3_stepr (edge.map (Named.run π)) ((Named.run π) x)).map Ctr.val = glm_vec3_stepr (edge.map Named.val) (Named.val x) := by
  simp only [cglm, apply_ite (V3.map Ctr.val)]
  try simp only [V3.map]
  try plain
  try rfl

theorem C79_same_vec3_hadd (π : Policy) (v : V3 Named) :
    (glm_vec3_hadd (v.map (Named.run π))).val = glm_vec3_hadd (v.map Named.val) := by
  simp only [cglm]
  try simp only [V3.map]
  try plain
  try rfl

theorem C79_same_vec3_sqrt (π : Policy) (v : V3 Named) :
    (glm_vec3_sqrt (v.map (Named.run π))).map Ctr.val = glm_vec3_sqrt (v.map Named.val) := by
  simp only [cglm, apply_ite (V3.map Ctr.val)]
  try simp only [V3.map]
  try plain
  try rfl

theorem C79_same_vec4_norm_one (π : Policy) (v : V4 Named) :
    (glm_vec4_norm_one (v.map (Named.run π))).val = glm_vec4_norm_one (v.map Named.val) := by
  simp only [cglm]
  try simp only [V4.map]
  try plain
  try rfl

theorem C79_same_vec4_norm_inf (π : Policy) (v : V4 Named) :
    (glm_vec4_norm_inf (v.map (Named.run π))).val = glm_vec4_norm_inf (v.map Named.val) := by
  simp only [cglm]
  try simp only [V4.map]
  try plain
  try rfl

theorem C79_same_vec4_add (π : Policy) (a : V4 Named) (b : V4 Named) :
    (glm_vec4_add (a.map (Named.run π)) (b.map (Named.run π))).map Ctr.val = glm_vec4_add (a.map Named.val) (b.map Named.val) := by
  simp only [cglm, apply_ite (V4.map Ctr.val)]
  try simp only [V4.map]
  try plain
  try rfl

theorem C79_same_vec4_adds (π : Policy) (v : V4 Named) (s : Named) :
    (glm_vec4_adds (v.map (Named.run π)) ((Named.run π) s)).map Ctr.val = glm_vec4_adds (v.map Named.val) (Named.val s) := by
  simp only [cglm, apply_ite (V4.map Ctr.val)]
  try simp only [V4.map]
  try plain
  try rfl

theorem C79_same_vec4_sub (π : Policy) (a : V4 Named) (b : V4 Named) :
    (glm_vec4_sub (a.map (Named.run π)) (b.map (Named.run π))).map Ctr.val = glm_vec4_sub (a.map Named.val) (b.map Named.val) := by
  simp only [cglm, apply_ite (V4.map Ctr.val)]
  try simp only [V4.map]
  try plain
  try rfl

theorem C79_same_vec4_subs (π : Policy) (v : V4 Named) (s : Named) :
    (glm_vec4_subs (v.map (Named.run π)) ((Named.run π) s)).map Ctr.val = glm_vec4_subs (v.map Named.val) (Named.val s) := by
  simp only [cglm, apply_ite (V4.map Ctr.val)]
  try simp only [V4.map]
  try plain
  try rfl

theorem C79_same_vec4_mul (π : Policy) (a : V4 Named) (b : V4 Named) :
    (glm_vec4_mul (a.map (Named.run π)) (b.map (Named.run π))).map Ctr.val = glm_vec4_mul (a.map Named.val) (b.map Named.val) := by
  simp only [cglm, apply_ite (V4.map Ctr.val)]
  try simp only [V4.map]
  try plain
  try rfl

theorem C79_same_vec4_scale (π : Policy) (v : V4 Named) (s : Named) :
    (glm_vec4_scale (v.map (Named.run π)) ((Named.run π) s)).map Ctr.val = glm_vec4_scale (v.map Named.val) (Named.val s) := by
  simp only [cglm, apply_ite (V4.map Ctr.val)]
  try simp only [V4.map]
  try plain
  try rfl

theorem C79_same_vec4_div (π : Policy) (a : V4 Named) (b : V4 Named) :
    (glm_vec4_div (a.map (Named.run π)) (b.map (Named.run π))).map Ctr.val = glm_vec4_div (a.map Named.val) (b.map Named.val) := by
  simp only [cglm, apply_ite (V4.map Ctr.val)]
  try simp only [V4.map]
  try plain
  try rfl

theorem C79_same_vec4_divs (π : Policy) (v : V4 Named) (s : Named) :
    (glm_vec4_divs (v.map (Named.run π)) ((Named.run π) s)).map Ctr.val = glm_vec4_divs (v.map Named.val) (Named.val s) := by
  simp only [cglm, apply_ite (V4.map Ctr.val)]
  try simp only [V4.map]
  try plain
  try rfl

theorem C79_same_vec4_addadd (π : Policy) (a : V4 Named) (b : V4 Named) (dest : V4 Named) :
    (glm_vec4_addadd (a.map (Named.run π)) (b.map (Named.run π)) (dest.map (Named.run π))).map Ctr.val = glm_vec4_addadd (a.map Named.val) (b.map Named.val) (dest.map Named.val) := by
  simp only [cglm, apply_ite (V4.map Ctr.val)]
  try simp only [V4.map]
  try plain
  try rfl

theorem C79_same_vec4_subadd (π : Policy) (a : V4 Named) (b : V4 Named) (dest : V4 Named) :
    (glm_vec4_subadd (a.map (Named.run π)) (b.map (Named.run π)) (dest.map (Named.run π))).map Ctr.val = glm_vec4_subadd (a.map Named.val) (b.map Named.val) (dest.map Named.val) := by
  simp only [cglm, apply_ite (V4.map Ctr.val)]
  try simp only [V4.map]
  try plain
  try rfl

theorem C79_same_vec4_maxadd (π : Policy) (a : V4 Named) (b : V4 Named) (dest : V4 Named) :
    (glm_vec4_maxadd (a.map (Named.run π)) (b.map (Named.run π)) (dest.map (Named.run π))).map Ctr.val = glm_vec4_maxadd (a.map Named.val) (b.map Named.val) (dest.map Named.val) := by
  simp only [cglm, apply_ite (V4.map Ctr.val)]
  try simp only [V4.map]
  try plain
  try rfl

theorem C79_same_vec4_minadd (π : Policy) (a : V4 Named) (b : V4 Named) (dest : V4 Named) :
    (glm_vec4_minadd (a.map (Named.run π)) (b.map (Named.run π)) (dest.map (Named.run π))).map Ctr.val = glm_vec4_minadd (a.map Named.val) (b.map Named.val) (dest.map Named.val) := by
  simp only [cglm, apply_ite (V4.map Ctr.val)]
  try simp only [V4.map]
  try plain
  try rfl

theorem C79_same_vec4_subsub (π : Policy) (a : V4 Named) (b : V4 Named) (dest : V4 Named) :
    (glm_vec4_subsub (a.map (Named.run π)) (b.map (Named.run π)) (dest.map (Named.run π))).map Ctr.val = glm_vec4_subsub (a.map Named.val) (b.map Named.val) (dest.map Named.val) := by
  simp only [cglm, apply_ite (V4.map Ctr.val)]
  try simp only [V4.map]
  try plain
  try rfl

theorem C79_same_vec4_addsub (π : Policy) (a : V4 Named) (b : V4 Named) (dest : V4 Named) :
    (glm_vec4_addsub (a.map (Named.run π)) (b.map (Named.run π)) (dest.map (Named.run π))).map Ctr.val = glm_vec4_addsub (a.map Named.val) (b.map Named.val) (dest.map Named.val) := by
  simp only [cglm, apply_ite (V4.map Ctr.val)]
  try simp only [V4.map]
  try plain
  try rfl

theorem C79_same_vec4_maxsub (π : Policy) (a : V4 Named) (b : V4 Named) (dest : V4 Named) :
    (glm_vec4_maxsub (a.map (Named.run π)) (b.map (Named.run π)) (dest.map (Named.run π))).map Ctr.val = glm_vec4_maxsub (a.map Named.val) (b.map Named.val) (dest.map Named.val) := by
  simp only [cglm, apply_ite (V4.map Ctr.val)]
  try simp only [V4.map]
  try plain
  try rfl

theorem C79_same_vec4_minsub (π : Policy) (a : V4 Named) (b : V4 Named) (dest : V4 Named) :
    (glm_vec4_minsub (a.map (Named.run π)) (b.map (Named.run π)) (dest.map (Named.run π))).map Ctr.val = glm_vec4_minsub (a.map Named.val) (b.map Named.val) (dest.map Named.val) := by
  simp only [cglm, apply_ite (V4.map Ctr.val)]
  try simp only [V4.map]
  try plain
  try rfl

theorem C79_same_vec4_negate_to (π : Policy) (v : V4 Named) :
    (glm_vec4_negate_to (v.map (Named.run π))).map Ctr.val = glm_vec4_negate_to (v.map Named.val) := by
  simp only [cglm, apply_ite (V4.map Ctr.val)]
  try simp only [V4.map]
  try plain
  try rfl

theorem C79_same_vec4_negate (π : Policy) (v : V4 Named) :
    (glm_vec4_negate (v.map (Named.run π))).map Ctr.val = glm_vec4_negate (v.map Named.val) := by
  simp only [cglm, apply_ite (V4.map Ctr.val)]
  try simp only [V4.map]
  try plain
  try rfl

theorem C79_same_vec4_maxv (π : Policy) (a : V4 Named) (b : V4 Named) :
    (glm_vec4_maxv (a.map (Named.run π)) (b.map (Named.run π))).map Ctr.val = glm_vec4_maxv (a.map Named.val) (b.map Named.val) := by
  simp only [cglm, apply_ite (V4.map Ctr.val)]
  try simp only [V4.map]
  try plain
  try rfl

theorem C79_same_vec4_minv (π : Policy) (a : V4 Named) (b : V4 Named) :
    (glm_vec4_minv (a.map (Named.run π)) (b.map (Named.run π))).map Ctr.val = glm_vec4_minv (a.map Named.val) (b.map Named.val) := by
  simp only [cglm, apply_ite (V4.map Ctr.val)]
  try simp only [V4.map]
  try plain
  try rfl

theorem C79_same_vec4_clamp (π : Policy) (v : V4 Named) (minVal : Named) (maxVal : Named) :
    (glm_vec4_clamp (v.map (Named.run π)) ((Named.run π) minVal) ((Named.run π) maxVal)).map Ctr.val = glm_vec4_clamp (v.map Named.val) (Named.val minVal) (Named.val maxVal) := by
  simp only [cglm, apply_ite (V4.map Ctr.val)]
  try simp only [V4.map]
  try plain
  try rfl

theorem C79_same_vec4_step (π : Policy) (edge : V4 Named) (x : V4 Named) :
    (glm_vec4_step (edge.map (Named.run π)) (x.map (Named.run π))).map Ctr.val = glm_vec4_step (edge.map Named.val) (x.map Named.val) := by
  simp only [cglm, apply_ite (V4.map Ctr.val)]
  try simp only [V4.map]
  try plain
  try rfl

theorem C79_same_vec4_cubic (π : Policy) (s : Named) :
    (glm_vec4_cubic ((Named.run π) s)).map Ctr.val = glm_vec4_cubic (Named.val s) := by
  simp only [cglm, apply_ite (V4.map Ctr.val)]
  try simp only [V4.map]
  try plain
  try rfl

theorem C79_same_vec4_eq (π : Policy) (v : V4 Named) (val : Named) :
    glm_vec4_eq (v.map (Named.run π)) ((Named.run π) val) = glm_vec4_eq (v.map Named.val) (Named.val val) := by
  simp only [cglm]
  try simp only [V4.map]
  try plain
  try rfl

theorem C79_same_vec4_eq_eps (π : Policy) (v : V4 Named) (val : Named) :
    glm_vec4_eq_eps (v.map (Named.run π)) ((Named.run π) val) = glm_vec4_eq_eps (v.map Named.val) (Named.val val) := by
  simp only [cglm]
  try simp only [V4.map]
  try plain
  try rfl

theorem C79_same_vec4_eq_all (π : Policy) (v : V4 Named) :
    glm_vec4_eq_all (v.map (Named.run π)) = glm_vec4_eq_all (v.map Named.val) := by
  simp only [cglm]
  try simp only [V4.map]
  try plain
  try rfl

theorem C79_same_vec4_eqv (π : Policy) (a : V4 Named) (b : V4 Named) :
    glm_vec4_eqv (a.map (Named.run π)) (b.map (Named.run π)) = glm_vec4_eqv (a.map Named.val) (b.map Named.val) := by
  simp only [cglm]
  try simp only [V4.map]
  try plain
  try rfl

theorem C79_same_vec4_eqv_eps (π : Policy) (a : V4 Named) (b : V4 Named) :
    glm_vec4_eqv_eps (a.map (Named.run π)) (b.map (Named.run π)) = glm_vec4_eqv_eps (a.map Named.val) (b.map Named.val) := by
  simp only [cglm]
  try simp only [V4.map]
  try plain
  try rfl

theorem C79_same_vec4_max (π : Policy) (v : V4 Named) :
    (glm_vec4_max (v.map (Named.run π))).val = glm_vec4_max (v.map Named.val) := by
  simp only [cglm]
  try simp only [V4.map]
  try plain
  try rfl

theorem C79_same_vec4_min (π : Policy) (v : V4 Named) :
    (glm_vec4_min (v.map (Named.run π))).val = glm_vec4_min (v.map Named.val) := by
  simp only [cglm]
  try simp only [V4.map]
  try plain
  try rfl

theorem C79_same_vec4_isnan (π : Policy) (v : V4 Named) :
    glm_vec4_isnan (v.map (Named.run π)) = glm_vec4_isnan (v.map Named.val) := by
  simp only [cglm]
  try simp only [V4.map]
  try plain
  try rfl

theorem C79_same_vec4_isinf (π : Policy) (v : V4 Named) :
    glm_vec4_isinf (v.map (Named.run π)) = glm_vec4_isinf (v.map Named.val) := by
  simp only [cglm]
  try simp only [V4.map]
  try plain
  try rfl

theorem C79_same_vec4_isvalid (π : Policy) (v : V4 Named) :
    glm_vec4_isvalid (v.map (Named.run π)) = glm_vec4_isvalid (v.map Named.val) := by
  simp only [cglm]
  try simp only [V4.map]
  try plain
  try rfl

theorem C79_same_vec4_sign (π : Policy) (v : V4 Named) :
    (glm_vec4_sign (v.map (Named.run π))).map Ctr.val = glm_vec4_sign (v.map Named.val) := by
  simp only [cglm, apply_ite (V4.map Ctr.val)]
  try simp only [V4.map]
  try plain
  try rfl

theorem C79_same_vec4_abs (π : Policy) (v : V4 Named) :
    (glm_vec4_abs (v.map (Named.run π))).map Ctr.val = glm_vec4_abs (v.map Named.val) := by
  simp only [cglm, apply_ite (V4.map Ctr.val)]
  try simp only [V4.map]
  try plain
  try rfl

theorem C79_same_vec4_fract (π : Policy) (v : V4 Named) :
    (glm_vec4_fract (v.map (Named.run π))).map Ctr.val = glm_vec4_fract (v.map Named.val) := by
  simp only [cglm, apply_ite (V4.map Ctr.val)]
  try simp only [V4.map]
  try plain
  try rfl

theorem C79_same_vec4_floor (π : Policy) (v : V4 Named) :
    (glm_vec4_floor (v.map (Named.run π))).map Ctr.val = glm_vec4_floor (v.map Named.val) := by
  simp only [cglm, apply_ite (V4.map Ctr.val)]
  try simp only [V4.map]
  try plain
  try rfl

theorem C79_same_vec4_mods (π : Policy) (v : V4 Named) (s : Named) :
    (glm_vec4_mods (v.map (Named.run π)) ((Named.run π) s)).map Ctr.val = glm_vec4_mods (v.map Named.val) (Named.val s) := by
  simp only [cglm, apply_ite (V4.map Ctr.val)]
  try simp only [V4.map]
  try plain
  try rfl

theorem C79_same_vec4_steps (π : Policy) (edge : Named) (x : V4 Named) :
    (glm_vec4_steps ((Named.run π) edge) (x.map (Named.run π))).map Ctr.val = glm_vec4_steps (Named.val edge) (x.map Named.val) := by
  simp only [cglm, apply_ite (V4.map Ctr.val)]
  try simp only [V4.map]
  try plain
  try rfl

theorem C79_same_vec4_stepr (π : Policy) (edge : V4 Named) (x : Named) :
    (glm_vec4_stepr (edge.map (Named.run π)) ((Named.run π) x)).map Ctr.val = glm_vec4_stepr (edge.map Named.val) (Named.val x) := by
  simp only [cglm, apply_ite (V4.map Ctr.val)]
  try simp only [V4.map]
  try plain
  try rfl

theorem C79_same_vec4_hadd (π : Policy) (v : V4 Named) :
    (glm_vec4_hadd (v.map (Named.run π))).val = glm_vec4_hadd (v.map Named.val) := by
  simp only [cglm]
  try simp only [V4.map]
  try plain
  try rfl

theorem C79_same_vec4_sqrt (π : Policy) (v : V4 Named) :
    (glm_vec4_sqrt (v.map (Named.run π))).map Ctr.val = glm_vec4_sqrt (v.map Named.val) := by
  simp only [cglm, apply_ite (V4.map Ctr.val)]
  try simp only [V4.map]
  try plain
  try rfl

end Cglm
