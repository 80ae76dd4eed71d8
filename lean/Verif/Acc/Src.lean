import Verif.Access
/-! Generated by tools/accgen.py from the headers and src; do not edit by hand. -/
namespace Cglm.Acc

/-- `glmc_aabb2d_zero`: src/aabb2d.c:11-15 -/
def f_glmc_aabb2d_zero : Fn := ⟨[],
  [.call 703 [⟨0, 0, []⟩]]⟩
/-- `glmc_aabb2d_copy`: src/aabb2d.c:17-21 -/
def f_glmc_aabb2d_copy : Fn := ⟨[],
  [.call 704 [⟨0, 0, []⟩, ⟨1, 0, []⟩]]⟩
/-- `glmc_aabb2d_transform`: src/aabb2d.c:23-27 -/
def f_glmc_aabb2d_transform : Fn := ⟨[],
  [.call 705 [⟨0, 0, []⟩, ⟨1, 0, []⟩, ⟨2, 0, []⟩]]⟩
/-- `glmc_aabb2d_merge`: src/aabb2d.c:29-33 -/
def f_glmc_aabb2d_merge : Fn := ⟨[],
  [.call 706 [⟨0, 0, []⟩, ⟨1, 0, []⟩, ⟨2, 0, []⟩]]⟩
/-- `glmc_aabb2d_crop`: src/aabb2d.c:35-39 -/
def f_glmc_aabb2d_crop : Fn := ⟨[],
  [.call 707 [⟨0, 0, []⟩, ⟨1, 0, []⟩, ⟨2, 0, []⟩]]⟩
/-- `glmc_aabb2d_crop_until`: src/aabb2d.c:41-48 -/
def f_glmc_aabb2d_crop_until : Fn := ⟨[],
  [.call 708 [⟨0, 0, []⟩, ⟨1, 0, []⟩, ⟨2, 0, []⟩, ⟨3, 0, []⟩]]⟩
/-- `glmc_aabb2d_invalidate`: src/aabb2d.c:50-54 -/
def f_glmc_aabb2d_invalidate : Fn := ⟨[],
  [.call 709 [⟨0, 0, []⟩]]⟩
/-- `glmc_aabb2d_isvalid`: src/aabb2d.c:56-60 -/
def f_glmc_aabb2d_isvalid : Fn := ⟨[],
  [.call 710 [⟨0, 0, []⟩]]⟩
/-- `glmc_aabb2d_diag`: src/aabb2d.c:62-66 -/
def f_glmc_aabb2d_diag : Fn := ⟨[],
  [.call 711 [⟨0, 0, []⟩]]⟩
/-- `glmc_aabb2d_sizev`: src/aabb2d.c:68-72 -/
def f_glmc_aabb2d_sizev : Fn := ⟨[],
  [.call 712 [⟨0, 0, []⟩, ⟨1, 0, []⟩]]⟩
/-- `glmc_aabb2d_radius`: src/aabb2d.c:74-78 -/
def f_glmc_aabb2d_radius : Fn := ⟨[],
  [.call 713 [⟨0, 0, []⟩]]⟩
/-- `glmc_aabb2d_center`: src/aabb2d.c:80-84 -/
def f_glmc_aabb2d_center : Fn := ⟨[],
  [.call 714 [⟨0, 0, []⟩, ⟨1, 0, []⟩]]⟩
/-- `glmc_aabb2d_aabb`: src/aabb2d.c:86-90 -/
def f_glmc_aabb2d_aabb : Fn := ⟨[],
  [.call 715 [⟨0, 0, []⟩, ⟨1, 0, []⟩]]⟩
/-- `glmc_aabb2d_point`: src/aabb2d.c:92-96 -/
def f_glmc_aabb2d_point : Fn := ⟨[],
  [.call 717 [⟨0, 0, []⟩, ⟨1, 0, []⟩]]⟩
/-- `glmc_aabb2d_contains`: src/aabb2d.c:98-102 -/
def f_glmc_aabb2d_contains : Fn := ⟨[],
  [.call 718 [⟨0, 0, []⟩, ⟨1, 0, []⟩]]⟩
/-- `glmc_aabb2d_circle`: src/aabb2d.c:104-108 -/
def f_glmc_aabb2d_circle : Fn := ⟨[],
  [.call 716 [⟨0, 0, []⟩, ⟨1, 0, []⟩]]⟩
/-- `glmc_translate_make`: src/affine.c:11-15 -/
def f_glmc_translate_make : Fn := ⟨[],
  [.call 474 [⟨0, 0, []⟩, ⟨1, 0, []⟩]]⟩
/-- `glmc_translate_to`: src/affine.c:17-21 -/
def f_glmc_translate_to : Fn := ⟨[],
  [.call 485 [⟨0, 0, []⟩, ⟨1, 0, []⟩, ⟨2, 0, []⟩]]⟩
/-- `glmc_translate`: src/affine.c:23-27 -/
def f_glmc_translate : Fn := ⟨[],
  [.call 484 [⟨0, 0, []⟩, ⟨1, 0, []⟩]]⟩
/-- `glmc_translate_x`: src/affine.c:29-33 -/
def f_glmc_translate_x : Fn := ⟨[],
  [.call 486 [⟨0, 0, []⟩]]⟩
/-- `glmc_translate_y`: src/affine.c:35-39 -/
def f_glmc_translate_y : Fn := ⟨[],
  [.call 487 [⟨0, 0, []⟩]]⟩
/-- `glmc_translate_z`: src/affine.c:41-45 -/
def f_glmc_translate_z : Fn := ⟨[],
  [.call 488 [⟨0, 0, []⟩]]⟩
/-- `glmc_scale_make`: src/affine.c:47-51 -/
def f_glmc_scale_make : Fn := ⟨[],
  [.call 476 [⟨0, 0, []⟩, ⟨1, 0, []⟩]]⟩
/-- `glmc_scale_to`: src/affine.c:53-57 -/
def f_glmc_scale_to : Fn := ⟨[],
  [.call 475 [⟨0, 0, []⟩, ⟨1, 0, []⟩, ⟨2, 0, []⟩]]⟩
/-- `glmc_scale`: src/affine.c:59-63 -/
def f_glmc_scale : Fn := ⟨[],
  [.call 477 [⟨0, 0, []⟩, ⟨1, 0, []⟩]]⟩
/-- `glmc_scale_uni`: src/affine.c:65-69 -/
def f_glmc_scale_uni : Fn := ⟨[],
  [.call 478 [⟨0, 0, []⟩]]⟩
/-- `glmc_rotate_x`: src/affine.c:71-75 -/
def f_glmc_rotate_x : Fn := ⟨[],
  [.call 489 [⟨0, 0, []⟩, ⟨1, 0, []⟩]]⟩
/-- `glmc_rotate_y`: src/affine.c:77-81 -/
def f_glmc_rotate_y : Fn := ⟨[],
  [.call 490 [⟨0, 0, []⟩, ⟨1, 0, []⟩]]⟩
/-- `glmc_rotate_z`: src/affine.c:83-87 -/
def f_glmc_rotate_z : Fn := ⟨[],
  [.call 491 [⟨0, 0, []⟩, ⟨1, 0, []⟩]]⟩
/-- `glmc_rotate_make`: src/affine.c:89-93 -/
def f_glmc_rotate_make : Fn := ⟨[],
  [.call 479 [⟨0, 0, []⟩, ⟨1, 0, []⟩]]⟩
/-- `glmc_rotate`: src/affine.c:95-99 -/
def f_glmc_rotate : Fn := ⟨[],
  [.call 492 [⟨0, 0, []⟩, ⟨1, 0, []⟩]]⟩
/-- `glmc_rotate_at`: src/affine.c:101-105 -/
def f_glmc_rotate_at : Fn := ⟨[],
  [.call 493 [⟨0, 0, []⟩, ⟨1, 0, []⟩, ⟨2, 0, []⟩]]⟩
/-- `glmc_rotate_atm`: src/affine.c:107-111 -/
def f_glmc_rotate_atm : Fn := ⟨[],
  [.call 494 [⟨0, 0, []⟩, ⟨1, 0, []⟩, ⟨2, 0, []⟩]]⟩
/-- `glmc_spin`: src/affine.c:113-117 -/
def f_glmc_spin : Fn := ⟨[],
  [.call 495 [⟨0, 0, []⟩, ⟨1, 0, []⟩]]⟩
/-- `glmc_decompose_scalev`: src/affine.c:119-123 -/
def f_glmc_decompose_scalev : Fn := ⟨[],
  [.call 480 [⟨0, 0, []⟩, ⟨1, 0, []⟩]]⟩
/-- `glmc_uniscaled`: src/affine.c:125-129 -/
def f_glmc_uniscaled : Fn := ⟨[],
  [.call 481 [⟨0, 0, []⟩]]⟩
/-- `glmc_decompose_rs`: src/affine.c:131-135 -/
def f_glmc_decompose_rs : Fn := ⟨[],
  [.call 482 [⟨0, 0, []⟩, ⟨1, 0, []⟩, ⟨2, 0, []⟩]]⟩
/-- `glmc_translated`: src/affine.c:137-141 -/
def f_glmc_translated : Fn := ⟨[],
  [.call 496 [⟨0, 0, []⟩, ⟨1, 0, []⟩]]⟩
/-- `glmc_translated_to`: src/affine.c:143-147 -/
def f_glmc_translated_to : Fn := ⟨[],
  [.call 497 [⟨0, 0, []⟩, ⟨1, 0, []⟩, ⟨2, 0, []⟩]]⟩
/-- `glmc_translated_x`: src/affine.c:149-153 -/
def f_glmc_translated_x : Fn := ⟨[],
  [.call 498 [⟨0, 0, []⟩]]⟩
/-- `glmc_translated_y`: src/affine.c:155-159 -/
def f_glmc_translated_y : Fn := ⟨[],
  [.call 499 [⟨0, 0, []⟩]]⟩
/-- `glmc_translated_z`: src/affine.c:161-165 -/
def f_glmc_translated_z : Fn := ⟨[],
  [.call 500 [⟨0, 0, []⟩]]⟩
/-- `glmc_rotated_x`: src/affine.c:167-171 -/
def f_glmc_rotated_x : Fn := ⟨[],
  [.call 501 [⟨0, 0, []⟩, ⟨1, 0, []⟩]]⟩
/-- `glmc_rotated_y`: src/affine.c:173-177 -/
def f_glmc_rotated_y : Fn := ⟨[],
  [.call 502 [⟨0, 0, []⟩, ⟨1, 0, []⟩]]⟩
/-- `glmc_rotated_z`: src/affine.c:179-183 -/
def f_glmc_rotated_z : Fn := ⟨[],
  [.call 503 [⟨0, 0, []⟩, ⟨1, 0, []⟩]]⟩
/-- `glmc_rotated`: src/affine.c:185-189 -/
def f_glmc_rotated : Fn := ⟨[],
  [.call 504 [⟨0, 0, []⟩, ⟨1, 0, []⟩]]⟩
/-- `glmc_rotated_at`: src/affine.c:191-195 -/
def f_glmc_rotated_at : Fn := ⟨[],
  [.call 505 [⟨0, 0, []⟩, ⟨1, 0, []⟩, ⟨2, 0, []⟩]]⟩
/-- `glmc_spinned`: src/affine.c:197-201 -/
def f_glmc_spinned : Fn := ⟨[],
  [.call 506 [⟨0, 0, []⟩, ⟨1, 0, []⟩]]⟩
/-- `glmc_decompose`: src/affine.c:203-207 -/
def f_glmc_decompose : Fn := ⟨[],
  [.call 483 [⟨0, 0, []⟩, ⟨1, 0, []⟩, ⟨2, 0, []⟩, ⟨3, 0, []⟩]]⟩
/-- `glmc_mul`: src/affine.c:209-213 -/
def f_glmc_mul : Fn := ⟨[],
  [.call 471 [⟨0, 0, []⟩, ⟨1, 0, []⟩, ⟨2, 0, []⟩]]⟩
/-- `glmc_mul_rot`: src/affine.c:215-219 -/
def f_glmc_mul_rot : Fn := ⟨[],
  [.call 472 [⟨0, 0, []⟩, ⟨1, 0, []⟩, ⟨2, 0, []⟩]]⟩
/-- `glmc_inv_tr`: src/affine.c:221-225 -/
def f_glmc_inv_tr : Fn := ⟨[],
  [.call 473 [⟨0, 0, []⟩]]⟩
/-- `glmc_translate2d_make`: src/affine2d.c:11-15 -/
def f_glmc_translate2d_make : Fn := ⟨[],
  [.call 792 [⟨0, 0, []⟩, ⟨1, 0, []⟩]]⟩
/-- `glmc_translate2d_to`: src/affine2d.c:17-21 -/
def f_glmc_translate2d_to : Fn := ⟨[],
  [.call 789 [⟨0, 0, []⟩, ⟨1, 0, []⟩, ⟨2, 0, []⟩]]⟩
/-- `glmc_translate2d`: src/affine2d.c:23-27 -/
def f_glmc_translate2d : Fn := ⟨[],
  [.call 788 [⟨0, 0, []⟩, ⟨1, 0, []⟩]]⟩
/-- `glmc_translate2d_x`: src/affine2d.c:29-33 -/
def f_glmc_translate2d_x : Fn := ⟨[],
  [.call 790 [⟨0, 0, []⟩]]⟩
/-- `glmc_translate2d_y`: src/affine2d.c:35-39 -/
def f_glmc_translate2d_y : Fn := ⟨[],
  [.call 791 [⟨0, 0, []⟩]]⟩
/-- `glmc_scale2d_to`: src/affine2d.c:41-45 -/
def f_glmc_scale2d_to : Fn := ⟨[],
  [.call 793 [⟨0, 0, []⟩, ⟨1, 0, []⟩, ⟨2, 0, []⟩]]⟩
/-- `glmc_scale2d_make`: src/affine2d.c:47-51 -/
def f_glmc_scale2d_make : Fn := ⟨[],
  [.call 794 [⟨0, 0, []⟩, ⟨1, 0, []⟩]]⟩
/-- `glmc_scale2d`: src/affine2d.c:53-57 -/
def f_glmc_scale2d : Fn := ⟨[],
  [.call 795 [⟨0, 0, []⟩, ⟨1, 0, []⟩]]⟩
/-- `glmc_scale2d_uni`: src/affine2d.c:59-63 -/
def f_glmc_scale2d_uni : Fn := ⟨[],
  [.call 796 [⟨0, 0, []⟩]]⟩
/-- `glmc_rotate2d_make`: src/affine2d.c:65-69 -/
def f_glmc_rotate2d_make : Fn := ⟨[],
  [.call 797 [⟨0, 0, []⟩]]⟩
/-- `glmc_rotate2d`: src/affine2d.c:71-75 -/
def f_glmc_rotate2d : Fn := ⟨[],
  [.call 798 [⟨0, 0, []⟩]]⟩
/-- `glmc_rotate2d_to`: src/affine2d.c:77-81 -/
def f_glmc_rotate2d_to : Fn := ⟨[],
  [.call 799 [⟨0, 0, []⟩, ⟨1, 0, []⟩]]⟩
/-- `glmc_bezier`: src/bezier.c:11-15 -/
def f_glmc_bezier : Fn := ⟨[],
  [.call 782 []]⟩
/-- `glmc_hermite`: src/bezier.c:17-21 -/
def f_glmc_hermite : Fn := ⟨[],
  [.call 783 []]⟩
/-- `glmc_decasteljau`: src/bezier.c:23-27 -/
def f_glmc_decasteljau : Fn := ⟨[],
  [.call 784 []]⟩
/-- `glmc_aabb_transform`: src/box.c:11-15 -/
def f_glmc_aabb_transform : Fn := ⟨[],
  [.call 719 [⟨0, 0, []⟩, ⟨1, 0, []⟩, ⟨2, 0, []⟩]]⟩
/-- `glmc_aabb_merge`: src/box.c:17-21 -/
def f_glmc_aabb_merge : Fn := ⟨[],
  [.call 720 [⟨0, 0, []⟩, ⟨1, 0, []⟩, ⟨2, 0, []⟩]]⟩
/-- `glmc_aabb_crop`: src/box.c:23-27 -/
def f_glmc_aabb_crop : Fn := ⟨[],
  [.call 721 [⟨0, 0, []⟩, ⟨1, 0, []⟩, ⟨2, 0, []⟩]]⟩
/-- `glmc_aabb_crop_until`: src/box.c:29-36 -/
def f_glmc_aabb_crop_until : Fn := ⟨[],
  [.call 722 [⟨0, 0, []⟩, ⟨1, 0, []⟩, ⟨2, 0, []⟩, ⟨3, 0, []⟩]]⟩
/-- `glmc_aabb_frustum`: src/box.c:38-42 -/
def f_glmc_aabb_frustum : Fn := ⟨[],
  [.call 723 [⟨0, 0, []⟩, ⟨1, 0, []⟩]]⟩
/-- `glmc_aabb_invalidate`: src/box.c:44-48 -/
def f_glmc_aabb_invalidate : Fn := ⟨[],
  [.call 724 [⟨0, 0, []⟩]]⟩
/-- `glmc_aabb_isvalid`: src/box.c:50-54 -/
def f_glmc_aabb_isvalid : Fn := ⟨[],
  [.call 725 [⟨0, 0, []⟩]]⟩
/-- `glmc_aabb_size`: src/box.c:56-60 -/
def f_glmc_aabb_size : Fn := ⟨[],
  [.call 726 [⟨0, 0, []⟩]]⟩
/-- `glmc_aabb_radius`: src/box.c:62-66 -/
def f_glmc_aabb_radius : Fn := ⟨[],
  [.call 727 [⟨0, 0, []⟩]]⟩
/-- `glmc_aabb_center`: src/box.c:68-72 -/
def f_glmc_aabb_center : Fn := ⟨[],
  [.call 728 [⟨0, 0, []⟩, ⟨1, 0, []⟩]]⟩
/-- `glmc_aabb_aabb`: src/box.c:74-78 -/
def f_glmc_aabb_aabb : Fn := ⟨[],
  [.call 729 [⟨0, 0, []⟩, ⟨1, 0, []⟩]]⟩
/-- `glmc_aabb_point`: src/box.c:80-84 -/
def f_glmc_aabb_point : Fn := ⟨[],
  [.call 731 [⟨0, 0, []⟩, ⟨1, 0, []⟩]]⟩
/-- `glmc_aabb_contains`: src/box.c:86-90 -/
def f_glmc_aabb_contains : Fn := ⟨[],
  [.call 732 [⟨0, 0, []⟩, ⟨1, 0, []⟩]]⟩
/-- `glmc_aabb_sphere`: src/box.c:92-96 -/
def f_glmc_aabb_sphere : Fn := ⟨[],
  [.call 730 [⟨0, 0, []⟩, ⟨1, 0, []⟩]]⟩
/-- `glmc_frustum`: src/cam.c:11-18 -/
def f_glmc_frustum : Fn := ⟨[],
  [.call 612 [⟨0, 0, []⟩]]⟩
/-- `glmc_ortho`: src/cam.c:20-27 -/
def f_glmc_ortho : Fn := ⟨[],
  [.call 613 [⟨0, 0, []⟩]]⟩
/-- `glmc_ortho_aabb`: src/cam.c:29-33 -/
def f_glmc_ortho_aabb : Fn := ⟨[],
  [.call 614 [⟨0, 0, []⟩, ⟨1, 0, []⟩]]⟩
/-- `glmc_ortho_aabb_p`: src/cam.c:35-39 -/
def f_glmc_ortho_aabb_p : Fn := ⟨[],
  [.call 615 [⟨0, 0, []⟩, ⟨1, 0, []⟩]]⟩
/-- `glmc_ortho_aabb_pz`: src/cam.c:41-45 -/
def f_glmc_ortho_aabb_pz : Fn := ⟨[],
  [.call 616 [⟨0, 0, []⟩, ⟨1, 0, []⟩]]⟩
/-- `glmc_ortho_default`: src/cam.c:47-51 -/
def f_glmc_ortho_default : Fn := ⟨[],
  [.call 617 [⟨0, 0, []⟩]]⟩
/-- `glmc_ortho_default_s`: src/cam.c:53-57 -/
def f_glmc_ortho_default_s : Fn := ⟨[],
  [.call 618 [⟨0, 0, []⟩]]⟩
/-- `glmc_perspective`: src/cam.c:59-63 -/
def f_glmc_perspective : Fn := ⟨[],
  [.call 619 [⟨0, 0, []⟩]]⟩
/-- `glmc_persp_move_far`: src/cam.c:65-69 -/
def f_glmc_persp_move_far : Fn := ⟨[],
  [.call 620 [⟨0, 0, []⟩]]⟩
/-- `glmc_perspective_default`: src/cam.c:71-75 -/
def f_glmc_perspective_default : Fn := ⟨[],
  [.call 621 [⟨0, 0, []⟩]]⟩
/-- `glmc_perspective_resize`: src/cam.c:77-81 -/
def f_glmc_perspective_resize : Fn := ⟨[],
  [.call 622 [⟨0, 0, []⟩]]⟩
/-- `glmc_lookat`: src/cam.c:83-87 -/
def f_glmc_lookat : Fn := ⟨[],
  [.call 623 [⟨0, 0, []⟩, ⟨1, 0, []⟩, ⟨2, 0, []⟩, ⟨3, 0, []⟩]]⟩
/-- `glmc_look`: src/cam.c:89-93 -/
def f_glmc_look : Fn := ⟨[],
  [.call 624 [⟨0, 0, []⟩, ⟨1, 0, []⟩, ⟨2, 0, []⟩, ⟨3, 0, []⟩]]⟩
/-- `glmc_look_anyup`: src/cam.c:95-99 -/
def f_glmc_look_anyup : Fn := ⟨[],
  [.call 625 [⟨0, 0, []⟩, ⟨1, 0, []⟩, ⟨2, 0, []⟩]]⟩
/-- `glmc_persp_decomp`: src/cam.c:101-111 -/
def f_glmc_persp_decomp : Fn := ⟨[],
  [.call 626 [⟨0, 0, []⟩, ⟨1, 0, []⟩, ⟨2, 0, []⟩, ⟨3, 0, []⟩, ⟨4, 0, []⟩, ⟨5, 0, []⟩, ⟨6, 0, []⟩]]⟩
/-- `glmc_persp_decompv`: src/cam.c:113-117 -/
def f_glmc_persp_decompv : Fn := ⟨[],
  [.call 627 [⟨0, 0, []⟩, ⟨1, 0, []⟩]]⟩
/-- `glmc_persp_decomp_x`: src/cam.c:119-125 -/
def f_glmc_persp_decomp_x : Fn := ⟨[],
  [.call 628 [⟨0, 0, []⟩, ⟨1, 0, []⟩, ⟨2, 0, []⟩]]⟩
/-- `glmc_persp_decomp_y`: src/cam.c:127-133 -/
def f_glmc_persp_decomp_y : Fn := ⟨[],
  [.call 629 [⟨0, 0, []⟩, ⟨1, 0, []⟩, ⟨2, 0, []⟩]]⟩
/-- `glmc_persp_decomp_z`: src/cam.c:135-141 -/
def f_glmc_persp_decomp_z : Fn := ⟨[],
  [.call 630 [⟨0, 0, []⟩, ⟨1, 0, []⟩, ⟨2, 0, []⟩]]⟩
/-- `glmc_persp_decomp_far`: src/cam.c:143-147 -/
def f_glmc_persp_decomp_far : Fn := ⟨[],
  [.call 631 [⟨0, 0, []⟩, ⟨1, 0, []⟩]]⟩
/-- `glmc_persp_decomp_near`: src/cam.c:149-153 -/
def f_glmc_persp_decomp_near : Fn := ⟨[],
  [.call 632 [⟨0, 0, []⟩, ⟨1, 0, []⟩]]⟩
/-- `glmc_persp_fovy`: src/cam.c:155-159 -/
def f_glmc_persp_fovy : Fn := ⟨[],
  [.call 508 [⟨0, 0, []⟩]]⟩
/-- `glmc_persp_aspect`: src/cam.c:161-165 -/
def f_glmc_persp_aspect : Fn := ⟨[],
  [.call 509 [⟨0, 0, []⟩]]⟩
/-- `glmc_persp_sizes`: src/cam.c:167-171 -/
def f_glmc_persp_sizes : Fn := ⟨[],
  [.call 633 [⟨0, 0, []⟩, ⟨1, 0, []⟩]]⟩
/-- `glmc_smc`: src/curve.c:11-15 -/
def f_glmc_smc : Fn := ⟨[],
  [.call 781 [⟨0, 0, []⟩, ⟨1, 0, []⟩]]⟩
/-- `glmc_ease_linear`: src/ease.c:11-15 -/
def f_glmc_ease_linear : Fn := ⟨[],
  [.call 750 []]⟩
/-- `glmc_ease_sine_in`: src/ease.c:17-21 -/
def f_glmc_ease_sine_in : Fn := ⟨[],
  [.call 751 []]⟩
/-- `glmc_ease_sine_out`: src/ease.c:23-27 -/
def f_glmc_ease_sine_out : Fn := ⟨[],
  [.call 752 []]⟩
/-- `glmc_ease_sine_inout`: src/ease.c:29-33 -/
def f_glmc_ease_sine_inout : Fn := ⟨[],
  [.call 753 []]⟩
/-- `glmc_ease_quad_in`: src/ease.c:35-39 -/
def f_glmc_ease_quad_in : Fn := ⟨[],
  [.call 754 []]⟩
/-- `glmc_ease_quad_out`: src/ease.c:41-45 -/
def f_glmc_ease_quad_out : Fn := ⟨[],
  [.call 755 []]⟩
/-- `glmc_ease_quad_inout`: src/ease.c:47-51 -/
def f_glmc_ease_quad_inout : Fn := ⟨[],
  [.call 756 []]⟩
/-- `glmc_ease_cubic_in`: src/ease.c:53-57 -/
def f_glmc_ease_cubic_in : Fn := ⟨[],
  [.call 757 []]⟩
/-- `glmc_ease_cubic_out`: src/ease.c:59-63 -/
def f_glmc_ease_cubic_out : Fn := ⟨[],
  [.call 758 []]⟩
/-- `glmc_ease_cubic_inout`: src/ease.c:65-69 -/
def f_glmc_ease_cubic_inout : Fn := ⟨[],
  [.call 759 []]⟩
/-- `glmc_ease_quart_in`: src/ease.c:71-75 -/
def f_glmc_ease_quart_in : Fn := ⟨[],
  [.call 760 []]⟩
/-- `glmc_ease_quart_out`: src/ease.c:77-81 -/
def f_glmc_ease_quart_out : Fn := ⟨[],
  [.call 761 []]⟩
/-- `glmc_ease_quart_inout`: src/ease.c:83-87 -/
def f_glmc_ease_quart_inout : Fn := ⟨[],
  [.call 762 []]⟩
/-- `glmc_ease_quint_in`: src/ease.c:89-93 -/
def f_glmc_ease_quint_in : Fn := ⟨[],
  [.call 763 []]⟩
/-- `glmc_ease_quint_out`: src/ease.c:95-99 -/
def f_glmc_ease_quint_out : Fn := ⟨[],
  [.call 764 []]⟩
/-- `glmc_ease_quint_inout`: src/ease.c:101-105 -/
def f_glmc_ease_quint_inout : Fn := ⟨[],
  [.call 765 []]⟩
/-- `glmc_ease_exp_in`: src/ease.c:107-111 -/
def f_glmc_ease_exp_in : Fn := ⟨[],
  [.call 766 []]⟩
/-- `glmc_ease_exp_out`: src/ease.c:113-117 -/
def f_glmc_ease_exp_out : Fn := ⟨[],
  [.call 767 []]⟩
/-- `glmc_ease_exp_inout`: src/ease.c:119-123 -/
def f_glmc_ease_exp_inout : Fn := ⟨[],
  [.call 768 []]⟩
/-- `glmc_ease_circ_in`: src/ease.c:125-129 -/
def f_glmc_ease_circ_in : Fn := ⟨[],
  [.call 769 []]⟩
/-- `glmc_ease_circ_out`: src/ease.c:131-135 -/
def f_glmc_ease_circ_out : Fn := ⟨[],
  [.call 770 []]⟩
/-- `glmc_ease_circ_inout`: src/ease.c:137-141 -/
def f_glmc_ease_circ_inout : Fn := ⟨[],
  [.call 771 []]⟩
/-- `glmc_ease_back_in`: src/ease.c:143-147 -/
def f_glmc_ease_back_in : Fn := ⟨[],
  [.call 772 []]⟩
/-- `glmc_ease_back_out`: src/ease.c:149-153 -/
def f_glmc_ease_back_out : Fn := ⟨[],
  [.call 773 []]⟩
/-- `glmc_ease_back_inout`: src/ease.c:155-159 -/
def f_glmc_ease_back_inout : Fn := ⟨[],
  [.call 774 []]⟩
/-- `glmc_ease_elast_in`: src/ease.c:161-165 -/
def f_glmc_ease_elast_in : Fn := ⟨[],
  [.call 775 []]⟩
/-- `glmc_ease_elast_out`: src/ease.c:167-171 -/
def f_glmc_ease_elast_out : Fn := ⟨[],
  [.call 776 []]⟩
/-- `glmc_ease_elast_inout`: src/ease.c:173-177 -/
def f_glmc_ease_elast_inout : Fn := ⟨[],
  [.call 777 []]⟩
/-- `glmc_ease_bounce_out`: src/ease.c:179-183 -/
def f_glmc_ease_bounce_out : Fn := ⟨[],
  [.call 778 []]⟩
/-- `glmc_ease_bounce_in`: src/ease.c:185-189 -/
def f_glmc_ease_bounce_in : Fn := ⟨[],
  [.call 779 []]⟩
/-- `glmc_ease_bounce_inout`: src/ease.c:191-195 -/
def f_glmc_ease_bounce_inout : Fn := ⟨[],
  [.call 780 []]⟩
/-- `glmc_euler_angles`: src/euler.c:11-15 -/
def f_glmc_euler_angles : Fn := ⟨[],
  [.call 685 [⟨0, 0, []⟩, ⟨1, 0, []⟩]]⟩
/-- `glmc_euler`: src/euler.c:17-21 -/
def f_glmc_euler : Fn := ⟨[],
  [.call 687 [⟨0, 0, []⟩, ⟨1, 0, []⟩]]⟩
/-- `glmc_euler_xyz`: src/euler.c:23-27 -/
def f_glmc_euler_xyz : Fn := ⟨[],
  [.call 686 [⟨0, 0, []⟩, ⟨1, 0, []⟩]]⟩
/-- `glmc_euler_zyx`: src/euler.c:29-33 -/
def f_glmc_euler_zyx : Fn := ⟨[],
  [.call 692 [⟨0, 0, []⟩, ⟨1, 0, []⟩]]⟩
/-- `glmc_euler_zxy`: src/euler.c:35-39 -/
def f_glmc_euler_zxy : Fn := ⟨[],
  [.call 691 [⟨0, 0, []⟩, ⟨1, 0, []⟩]]⟩
/-- `glmc_euler_xzy`: src/euler.c:41-45 -/
def f_glmc_euler_xzy : Fn := ⟨[],
  [.call 688 [⟨0, 0, []⟩, ⟨1, 0, []⟩]]⟩
/-- `glmc_euler_yzx`: src/euler.c:47-51 -/
def f_glmc_euler_yzx : Fn := ⟨[],
  [.call 690 [⟨0, 0, []⟩, ⟨1, 0, []⟩]]⟩
/-- `glmc_euler_yxz`: src/euler.c:53-57 -/
def f_glmc_euler_yxz : Fn := ⟨[],
  [.call 689 [⟨0, 0, []⟩, ⟨1, 0, []⟩]]⟩
/-- `glmc_euler_by_order`: src/euler.c:59-63 -/
def f_glmc_euler_by_order : Fn := ⟨[],
  [.call 693 [⟨0, 0, []⟩, ⟨1, 0, []⟩]]⟩
/-- `glmc_euler_xyz_quat`: src/euler.c:65-69 -/
def f_glmc_euler_xyz_quat : Fn := ⟨[],
  [.call 694 [⟨0, 0, []⟩, ⟨1, 0, []⟩]]⟩
/-- `glmc_euler_xzy_quat`: src/euler.c:71-75 -/
def f_glmc_euler_xzy_quat : Fn := ⟨[],
  [.call 695 [⟨0, 0, []⟩, ⟨1, 0, []⟩]]⟩
/-- `glmc_euler_yxz_quat`: src/euler.c:77-81 -/
def f_glmc_euler_yxz_quat : Fn := ⟨[],
  [.call 696 [⟨0, 0, []⟩, ⟨1, 0, []⟩]]⟩
/-- `glmc_euler_yzx_quat`: src/euler.c:83-87 -/
def f_glmc_euler_yzx_quat : Fn := ⟨[],
  [.call 697 [⟨0, 0, []⟩, ⟨1, 0, []⟩]]⟩
/-- `glmc_euler_zxy_quat`: src/euler.c:89-93 -/
def f_glmc_euler_zxy_quat : Fn := ⟨[],
  [.call 698 [⟨0, 0, []⟩, ⟨1, 0, []⟩]]⟩
/-- `glmc_euler_zyx_quat`: src/euler.c:95-99 -/
def f_glmc_euler_zyx_quat : Fn := ⟨[],
  [.call 699 [⟨0, 0, []⟩, ⟨1, 0, []⟩]]⟩
/-- `glmc_frustum_planes`: src/frustum.c:11-15 -/
def f_glmc_frustum_planes : Fn := ⟨[],
  [.call 634 [⟨0, 0, []⟩, ⟨1, 0, []⟩]]⟩
/-- `glmc_frustum_corners`: src/frustum.c:17-21 -/
def f_glmc_frustum_corners : Fn := ⟨[],
  [.call 635 [⟨0, 0, []⟩, ⟨1, 0, []⟩]]⟩
/-- `glmc_frustum_center`: src/frustum.c:23-27 -/
def f_glmc_frustum_center : Fn := ⟨[],
  [.call 636 [⟨0, 0, []⟩, ⟨1, 0, []⟩]]⟩
/-- `glmc_frustum_box`: src/frustum.c:29-33 -/
def f_glmc_frustum_box : Fn := ⟨[],
  [.call 637 [⟨0, 0, []⟩, ⟨1, 0, []⟩, ⟨2, 0, []⟩]]⟩
/-- `glmc_frustum_corners_at`: src/frustum.c:35-42 -/
def f_glmc_frustum_corners_at : Fn := ⟨[],
  [.call 638 [⟨0, 0, []⟩, ⟨1, 0, []⟩]]⟩
/-- `glmc_ivec2`: src/ivec2.c:11-15 -/
def f_glmc_ivec2 : Fn := ⟨[],
  [.call 255 [⟨0, 0, []⟩, ⟨1, 0, []⟩]]⟩
/-- `glmc_ivec2_copy`: src/ivec2.c:17-21 -/
def f_glmc_ivec2_copy : Fn := ⟨[],
  [.call 256 [⟨0, 0, []⟩, ⟨1, 0, []⟩]]⟩
/-- `glmc_ivec2_zero`: src/ivec2.c:23-27 -/
def f_glmc_ivec2_zero : Fn := ⟨[],
  [.call 257 [⟨0, 0, []⟩]]⟩
/-- `glmc_ivec2_one`: src/ivec2.c:29-33 -/
def f_glmc_ivec2_one : Fn := ⟨[],
  [.call 258 [⟨0, 0, []⟩]]⟩
/-- `glmc_ivec2_dot`: src/ivec2.c:35-39 -/
def f_glmc_ivec2_dot : Fn := ⟨[],
  [.call 259 [⟨0, 0, []⟩, ⟨1, 0, []⟩]]⟩
/-- `glmc_ivec2_cross`: src/ivec2.c:41-45 -/
def f_glmc_ivec2_cross : Fn := ⟨[],
  [.call 260 [⟨0, 0, []⟩, ⟨1, 0, []⟩]]⟩
/-- `glmc_ivec2_add`: src/ivec2.c:47-51 -/
def f_glmc_ivec2_add : Fn := ⟨[],
  [.call 261 [⟨0, 0, []⟩, ⟨1, 0, []⟩, ⟨2, 0, []⟩]]⟩
/-- `glmc_ivec2_adds`: src/ivec2.c:53-57 -/
def f_glmc_ivec2_adds : Fn := ⟨[],
  [.call 262 [⟨0, 0, []⟩, ⟨1, 0, []⟩]]⟩
/-- `glmc_ivec2_sub`: src/ivec2.c:59-63 -/
def f_glmc_ivec2_sub : Fn := ⟨[],
  [.call 263 [⟨0, 0, []⟩, ⟨1, 0, []⟩, ⟨2, 0, []⟩]]⟩
/-- `glmc_ivec2_subs`: src/ivec2.c:65-69 -/
def f_glmc_ivec2_subs : Fn := ⟨[],
  [.call 264 [⟨0, 0, []⟩, ⟨1, 0, []⟩]]⟩
/-- `glmc_ivec2_mul`: src/ivec2.c:71-75 -/
def f_glmc_ivec2_mul : Fn := ⟨[],
  [.call 265 [⟨0, 0, []⟩, ⟨1, 0, []⟩, ⟨2, 0, []⟩]]⟩
/-- `glmc_ivec2_scale`: src/ivec2.c:77-81 -/
def f_glmc_ivec2_scale : Fn := ⟨[],
  [.call 266 [⟨0, 0, []⟩, ⟨1, 0, []⟩]]⟩
/-- `glmc_ivec2_div`: src/ivec2.c:83-87 -/
def f_glmc_ivec2_div : Fn := ⟨[],
  [.call 267 [⟨0, 0, []⟩, ⟨1, 0, []⟩, ⟨2, 0, []⟩]]⟩
/-- `glmc_ivec2_divs`: src/ivec2.c:89-93 -/
def f_glmc_ivec2_divs : Fn := ⟨[],
  [.call 268 [⟨0, 0, []⟩, ⟨1, 0, []⟩]]⟩
/-- `glmc_ivec2_mod`: src/ivec2.c:95-99 -/
def f_glmc_ivec2_mod : Fn := ⟨[],
  [.call 269 [⟨0, 0, []⟩, ⟨1, 0, []⟩, ⟨2, 0, []⟩]]⟩
/-- `glmc_ivec2_addadd`: src/ivec2.c:101-105 -/
def f_glmc_ivec2_addadd : Fn := ⟨[],
  [.call 270 [⟨0, 0, []⟩, ⟨1, 0, []⟩, ⟨2, 0, []⟩]]⟩
/-- `glmc_ivec2_addadds`: src/ivec2.c:107-111 -/
def f_glmc_ivec2_addadds : Fn := ⟨[],
  [.call 271 [⟨0, 0, []⟩, ⟨1, 0, []⟩]]⟩
/-- `glmc_ivec2_subadd`: src/ivec2.c:113-117 -/
def f_glmc_ivec2_subadd : Fn := ⟨[],
  [.call 272 [⟨0, 0, []⟩, ⟨1, 0, []⟩, ⟨2, 0, []⟩]]⟩
/-- `glmc_ivec2_subadds`: src/ivec2.c:119-123 -/
def f_glmc_ivec2_subadds : Fn := ⟨[],
  [.call 273 [⟨0, 0, []⟩, ⟨1, 0, []⟩]]⟩
/-- `glmc_ivec2_muladd`: src/ivec2.c:125-129 -/
def f_glmc_ivec2_muladd : Fn := ⟨[],
  [.call 274 [⟨0, 0, []⟩, ⟨1, 0, []⟩, ⟨2, 0, []⟩]]⟩
/-- `glmc_ivec2_muladds`: src/ivec2.c:131-135 -/
def f_glmc_ivec2_muladds : Fn := ⟨[],
  [.call 275 [⟨0, 0, []⟩, ⟨1, 0, []⟩]]⟩
/-- `glmc_ivec2_maxadd`: src/ivec2.c:137-141 -/
def f_glmc_ivec2_maxadd : Fn := ⟨[],
  [.call 276 [⟨0, 0, []⟩, ⟨1, 0, []⟩, ⟨2, 0, []⟩]]⟩
/-- `glmc_ivec2_minadd`: src/ivec2.c:143-147 -/
def f_glmc_ivec2_minadd : Fn := ⟨[],
  [.call 277 [⟨0, 0, []⟩, ⟨1, 0, []⟩, ⟨2, 0, []⟩]]⟩
/-- `glmc_ivec2_subsub`: src/ivec2.c:149-153 -/
def f_glmc_ivec2_subsub : Fn := ⟨[],
  [.call 278 [⟨0, 0, []⟩, ⟨1, 0, []⟩, ⟨2, 0, []⟩]]⟩
/-- `glmc_ivec2_subsubs`: src/ivec2.c:155-159 -/
def f_glmc_ivec2_subsubs : Fn := ⟨[],
  [.call 279 [⟨0, 0, []⟩, ⟨1, 0, []⟩]]⟩
/-- `glmc_ivec2_addsub`: src/ivec2.c:161-165 -/
def f_glmc_ivec2_addsub : Fn := ⟨[],
  [.call 280 [⟨0, 0, []⟩, ⟨1, 0, []⟩, ⟨2, 0, []⟩]]⟩
/-- `glmc_ivec2_addsubs`: src/ivec2.c:167-171 -/
def f_glmc_ivec2_addsubs : Fn := ⟨[],
  [.call 281 [⟨0, 0, []⟩, ⟨1, 0, []⟩]]⟩
/-- `glmc_ivec2_mulsub`: src/ivec2.c:173-177 -/
def f_glmc_ivec2_mulsub : Fn := ⟨[],
  [.call 282 [⟨0, 0, []⟩, ⟨1, 0, []⟩, ⟨2, 0, []⟩]]⟩
/-- `glmc_ivec2_mulsubs`: src/ivec2.c:179-183 -/
def f_glmc_ivec2_mulsubs : Fn := ⟨[],
  [.call 283 [⟨0, 0, []⟩, ⟨1, 0, []⟩]]⟩
/-- `glmc_ivec2_maxsub`: src/ivec2.c:185-189 -/
def f_glmc_ivec2_maxsub : Fn := ⟨[],
  [.call 284 [⟨0, 0, []⟩, ⟨1, 0, []⟩, ⟨2, 0, []⟩]]⟩
/-- `glmc_ivec2_minsub`: src/ivec2.c:191-195 -/
def f_glmc_ivec2_minsub : Fn := ⟨[],
  [.call 285 [⟨0, 0, []⟩, ⟨1, 0, []⟩, ⟨2, 0, []⟩]]⟩
/-- `glmc_ivec2_distance2`: src/ivec2.c:197-201 -/
def f_glmc_ivec2_distance2 : Fn := ⟨[],
  [.call 286 [⟨0, 0, []⟩, ⟨1, 0, []⟩]]⟩
/-- `glmc_ivec2_distance`: src/ivec2.c:203-207 -/
def f_glmc_ivec2_distance : Fn := ⟨[],
  [.call 287 [⟨0, 0, []⟩, ⟨1, 0, []⟩]]⟩
/-- `glmc_ivec2_fill`: src/ivec2.c:209-213 -/
def f_glmc_ivec2_fill : Fn := ⟨[],
  [.call 288 [⟨0, 0, []⟩]]⟩
/-- `glmc_ivec2_eq`: src/ivec2.c:215-219 -/
def f_glmc_ivec2_eq : Fn := ⟨[],
  [.call 289 [⟨0, 0, []⟩]]⟩
/-- `glmc_ivec2_eqv`: src/ivec2.c:221-225 -/
def f_glmc_ivec2_eqv : Fn := ⟨[],
  [.call 290 [⟨0, 0, []⟩, ⟨1, 0, []⟩]]⟩
/-- `glmc_ivec2_maxv`: src/ivec2.c:227-231 -/
def f_glmc_ivec2_maxv : Fn := ⟨[],
  [.call 291 [⟨0, 0, []⟩, ⟨1, 0, []⟩, ⟨2, 0, []⟩]]⟩
/-- `glmc_ivec2_minv`: src/ivec2.c:233-237 -/
def f_glmc_ivec2_minv : Fn := ⟨[],
  [.call 292 [⟨0, 0, []⟩, ⟨1, 0, []⟩, ⟨2, 0, []⟩]]⟩
/-- `glmc_ivec2_clamp`: src/ivec2.c:239-243 -/
def f_glmc_ivec2_clamp : Fn := ⟨[],
  [.call 293 [⟨0, 0, []⟩]]⟩
/-- `glmc_ivec2_abs`: src/ivec2.c:245-249 -/
def f_glmc_ivec2_abs : Fn := ⟨[],
  [.call 294 [⟨0, 0, []⟩, ⟨1, 0, []⟩]]⟩
/-- `glmc_ivec3`: src/ivec3.c:11-15 -/
def f_glmc_ivec3 : Fn := ⟨[],
  [.call 295 [⟨0, 0, []⟩, ⟨1, 0, []⟩]]⟩
/-- `glmc_ivec3_copy`: src/ivec3.c:17-21 -/
def f_glmc_ivec3_copy : Fn := ⟨[],
  [.call 296 [⟨0, 0, []⟩, ⟨1, 0, []⟩]]⟩
/-- `glmc_ivec3_zero`: src/ivec3.c:23-27 -/
def f_glmc_ivec3_zero : Fn := ⟨[],
  [.call 297 [⟨0, 0, []⟩]]⟩
/-- `glmc_ivec3_one`: src/ivec3.c:29-33 -/
def f_glmc_ivec3_one : Fn := ⟨[],
  [.call 298 [⟨0, 0, []⟩]]⟩
/-- `glmc_ivec3_dot`: src/ivec3.c:35-39 -/
def f_glmc_ivec3_dot : Fn := ⟨[],
  [.call 299 [⟨0, 0, []⟩, ⟨1, 0, []⟩]]⟩
/-- `glmc_ivec3_norm2`: src/ivec3.c:41-45 -/
def f_glmc_ivec3_norm2 : Fn := ⟨[],
  [.call 300 [⟨0, 0, []⟩]]⟩
/-- `glmc_ivec3_norm`: src/ivec3.c:47-51 -/
def f_glmc_ivec3_norm : Fn := ⟨[],
  [.call 301 [⟨0, 0, []⟩]]⟩
/-- `glmc_ivec3_add`: src/ivec3.c:53-57 -/
def f_glmc_ivec3_add : Fn := ⟨[],
  [.call 302 [⟨0, 0, []⟩, ⟨1, 0, []⟩, ⟨2, 0, []⟩]]⟩
/-- `glmc_ivec3_adds`: src/ivec3.c:59-63 -/
def f_glmc_ivec3_adds : Fn := ⟨[],
  [.call 303 [⟨0, 0, []⟩, ⟨1, 0, []⟩]]⟩
/-- `glmc_ivec3_sub`: src/ivec3.c:65-69 -/
def f_glmc_ivec3_sub : Fn := ⟨[],
  [.call 304 [⟨0, 0, []⟩, ⟨1, 0, []⟩, ⟨2, 0, []⟩]]⟩
/-- `glmc_ivec3_subs`: src/ivec3.c:71-75 -/
def f_glmc_ivec3_subs : Fn := ⟨[],
  [.call 305 [⟨0, 0, []⟩, ⟨1, 0, []⟩]]⟩
/-- `glmc_ivec3_mul`: src/ivec3.c:77-81 -/
def f_glmc_ivec3_mul : Fn := ⟨[],
  [.call 306 [⟨0, 0, []⟩, ⟨1, 0, []⟩, ⟨2, 0, []⟩]]⟩
/-- `glmc_ivec3_scale`: src/ivec3.c:83-87 -/
def f_glmc_ivec3_scale : Fn := ⟨[],
  [.call 307 [⟨0, 0, []⟩, ⟨1, 0, []⟩]]⟩
/-- `glmc_ivec3_div`: src/ivec3.c:89-93 -/
def f_glmc_ivec3_div : Fn := ⟨[],
  [.call 308 [⟨0, 0, []⟩, ⟨1, 0, []⟩, ⟨2, 0, []⟩]]⟩
/-- `glmc_ivec3_divs`: src/ivec3.c:95-99 -/
def f_glmc_ivec3_divs : Fn := ⟨[],
  [.call 309 [⟨0, 0, []⟩, ⟨1, 0, []⟩]]⟩
/-- `glmc_ivec3_mod`: src/ivec3.c:101-105 -/
def f_glmc_ivec3_mod : Fn := ⟨[],
  [.call 310 [⟨0, 0, []⟩, ⟨1, 0, []⟩, ⟨2, 0, []⟩]]⟩
/-- `glmc_ivec3_addadd`: src/ivec3.c:107-111 -/
def f_glmc_ivec3_addadd : Fn := ⟨[],
  [.call 311 [⟨0, 0, []⟩, ⟨1, 0, []⟩, ⟨2, 0, []⟩]]⟩
/-- `glmc_ivec3_addadds`: src/ivec3.c:113-117 -/
def f_glmc_ivec3_addadds : Fn := ⟨[],
  [.call 312 [⟨0, 0, []⟩, ⟨1, 0, []⟩]]⟩
/-- `glmc_ivec3_subadd`: src/ivec3.c:119-123 -/
def f_glmc_ivec3_subadd : Fn := ⟨[],
  [.call 313 [⟨0, 0, []⟩, ⟨1, 0, []⟩, ⟨2, 0, []⟩]]⟩
/-- `glmc_ivec3_subadds`: src/ivec3.c:125-129 -/
def f_glmc_ivec3_subadds : Fn := ⟨[],
  [.call 314 [⟨0, 0, []⟩, ⟨1, 0, []⟩]]⟩
/-- `glmc_ivec3_muladd`: src/ivec3.c:131-135 -/
def f_glmc_ivec3_muladd : Fn := ⟨[],
  [.call 315 [⟨0, 0, []⟩, ⟨1, 0, []⟩, ⟨2, 0, []⟩]]⟩
/-- `glmc_ivec3_muladds`: src/ivec3.c:137-141 -/
def f_glmc_ivec3_muladds : Fn := ⟨[],
  [.call 316 [⟨0, 0, []⟩, ⟨1, 0, []⟩]]⟩
/-- `glmc_ivec3_maxadd`: src/ivec3.c:143-147 -/
def f_glmc_ivec3_maxadd : Fn := ⟨[],
  [.call 317 [⟨0, 0, []⟩, ⟨1, 0, []⟩, ⟨2, 0, []⟩]]⟩
/-- `glmc_ivec3_minadd`: src/ivec3.c:149-153 -/
def f_glmc_ivec3_minadd : Fn := ⟨[],
  [.call 318 [⟨0, 0, []⟩, ⟨1, 0, []⟩, ⟨2, 0, []⟩]]⟩
/-- `glmc_ivec3_subsub`: src/ivec3.c:155-159 -/
def f_glmc_ivec3_subsub : Fn := ⟨[],
  [.call 319 [⟨0, 0, []⟩, ⟨1, 0, []⟩, ⟨2, 0, []⟩]]⟩
/-- `glmc_ivec3_subsubs`: src/ivec3.c:161-165 -/
def f_glmc_ivec3_subsubs : Fn := ⟨[],
  [.call 320 [⟨0, 0, []⟩, ⟨1, 0, []⟩]]⟩
/-- `glmc_ivec3_addsub`: src/ivec3.c:167-171 -/
def f_glmc_ivec3_addsub : Fn := ⟨[],
  [.call 321 [⟨0, 0, []⟩, ⟨1, 0, []⟩, ⟨2, 0, []⟩]]⟩
/-- `glmc_ivec3_addsubs`: src/ivec3.c:173-177 -/
def f_glmc_ivec3_addsubs : Fn := ⟨[],
  [.call 322 [⟨0, 0, []⟩, ⟨1, 0, []⟩]]⟩
/-- `glmc_ivec3_mulsub`: src/ivec3.c:179-183 -/
def f_glmc_ivec3_mulsub : Fn := ⟨[],
  [.call 323 [⟨0, 0, []⟩, ⟨1, 0, []⟩, ⟨2, 0, []⟩]]⟩
/-- `glmc_ivec3_mulsubs`: src/ivec3.c:185-189 -/
def f_glmc_ivec3_mulsubs : Fn := ⟨[],
  [.call 324 [⟨0, 0, []⟩, ⟨1, 0, []⟩]]⟩
/-- `glmc_ivec3_maxsub`: src/ivec3.c:191-195 -/
def f_glmc_ivec3_maxsub : Fn := ⟨[],
  [.call 325 [⟨0, 0, []⟩, ⟨1, 0, []⟩, ⟨2, 0, []⟩]]⟩
/-- `glmc_ivec3_minsub`: src/ivec3.c:197-201 -/
def f_glmc_ivec3_minsub : Fn := ⟨[],
  [.call 326 [⟨0, 0, []⟩, ⟨1, 0, []⟩, ⟨2, 0, []⟩]]⟩
/-- `glmc_ivec3_distance2`: src/ivec3.c:203-207 -/
def f_glmc_ivec3_distance2 : Fn := ⟨[],
  [.call 327 [⟨0, 0, []⟩, ⟨1, 0, []⟩]]⟩
/-- `glmc_ivec3_distance`: src/ivec3.c:209-213 -/
def f_glmc_ivec3_distance : Fn := ⟨[],
  [.call 328 [⟨0, 0, []⟩, ⟨1, 0, []⟩]]⟩
/-- `glmc_ivec3_fill`: src/ivec3.c:215-219 -/
def f_glmc_ivec3_fill : Fn := ⟨[],
  [.call 329 [⟨0, 0, []⟩]]⟩
/-- `glmc_ivec3_eq`: src/ivec3.c:221-225 -/
def f_glmc_ivec3_eq : Fn := ⟨[],
  [.call 330 [⟨0, 0, []⟩]]⟩
/-- `glmc_ivec3_eqv`: src/ivec3.c:227-231 -/
def f_glmc_ivec3_eqv : Fn := ⟨[],
  [.call 331 [⟨0, 0, []⟩, ⟨1, 0, []⟩]]⟩
/-- `glmc_ivec3_maxv`: src/ivec3.c:233-237 -/
def f_glmc_ivec3_maxv : Fn := ⟨[],
  [.call 332 [⟨0, 0, []⟩, ⟨1, 0, []⟩, ⟨2, 0, []⟩]]⟩
/-- `glmc_ivec3_minv`: src/ivec3.c:239-243 -/
def f_glmc_ivec3_minv : Fn := ⟨[],
  [.call 333 [⟨0, 0, []⟩, ⟨1, 0, []⟩, ⟨2, 0, []⟩]]⟩
/-- `glmc_ivec3_clamp`: src/ivec3.c:245-249 -/
def f_glmc_ivec3_clamp : Fn := ⟨[],
  [.call 334 [⟨0, 0, []⟩]]⟩
/-- `glmc_ivec3_abs`: src/ivec3.c:251-255 -/
def f_glmc_ivec3_abs : Fn := ⟨[],
  [.call 335 [⟨0, 0, []⟩, ⟨1, 0, []⟩]]⟩
/-- `glmc_ivec4`: src/ivec4.c:11-15 -/
def f_glmc_ivec4 : Fn := ⟨[],
  [.call 336 [⟨0, 0, []⟩, ⟨1, 0, []⟩]]⟩
/-- `glmc_ivec4_copy`: src/ivec4.c:17-21 -/
def f_glmc_ivec4_copy : Fn := ⟨[],
  [.call 337 [⟨0, 0, []⟩, ⟨1, 0, []⟩]]⟩
/-- `glmc_ivec4_zero`: src/ivec4.c:23-27 -/
def f_glmc_ivec4_zero : Fn := ⟨[],
  [.call 338 [⟨0, 0, []⟩]]⟩
/-- `glmc_ivec4_one`: src/ivec4.c:29-33 -/
def f_glmc_ivec4_one : Fn := ⟨[],
  [.call 339 [⟨0, 0, []⟩]]⟩
/-- `glmc_ivec4_add`: src/ivec4.c:35-39 -/
def f_glmc_ivec4_add : Fn := ⟨[],
  [.call 340 [⟨0, 0, []⟩, ⟨1, 0, []⟩, ⟨2, 0, []⟩]]⟩
/-- `glmc_ivec4_adds`: src/ivec4.c:41-45 -/
def f_glmc_ivec4_adds : Fn := ⟨[],
  [.call 341 [⟨0, 0, []⟩, ⟨1, 0, []⟩]]⟩
/-- `glmc_ivec4_sub`: src/ivec4.c:47-51 -/
def f_glmc_ivec4_sub : Fn := ⟨[],
  [.call 342 [⟨0, 0, []⟩, ⟨1, 0, []⟩, ⟨2, 0, []⟩]]⟩
/-- `glmc_ivec4_subs`: src/ivec4.c:53-57 -/
def f_glmc_ivec4_subs : Fn := ⟨[],
  [.call 343 [⟨0, 0, []⟩, ⟨1, 0, []⟩]]⟩
/-- `glmc_ivec4_mul`: src/ivec4.c:59-63 -/
def f_glmc_ivec4_mul : Fn := ⟨[],
  [.call 344 [⟨0, 0, []⟩, ⟨1, 0, []⟩, ⟨2, 0, []⟩]]⟩
/-- `glmc_ivec4_scale`: src/ivec4.c:65-69 -/
def f_glmc_ivec4_scale : Fn := ⟨[],
  [.call 345 [⟨0, 0, []⟩, ⟨1, 0, []⟩]]⟩
/-- `glmc_ivec4_addadd`: src/ivec4.c:71-75 -/
def f_glmc_ivec4_addadd : Fn := ⟨[],
  [.call 346 [⟨0, 0, []⟩, ⟨1, 0, []⟩, ⟨2, 0, []⟩]]⟩
/-- `glmc_ivec4_addadds`: src/ivec4.c:77-81 -/
def f_glmc_ivec4_addadds : Fn := ⟨[],
  [.call 347 [⟨0, 0, []⟩, ⟨1, 0, []⟩]]⟩
/-- `glmc_ivec4_subadd`: src/ivec4.c:83-87 -/
def f_glmc_ivec4_subadd : Fn := ⟨[],
  [.call 348 [⟨0, 0, []⟩, ⟨1, 0, []⟩, ⟨2, 0, []⟩]]⟩
/-- `glmc_ivec4_subadds`: src/ivec4.c:89-93 -/
def f_glmc_ivec4_subadds : Fn := ⟨[],
  [.call 349 [⟨0, 0, []⟩, ⟨1, 0, []⟩]]⟩
/-- `glmc_ivec4_muladd`: src/ivec4.c:95-99 -/
def f_glmc_ivec4_muladd : Fn := ⟨[],
  [.call 350 [⟨0, 0, []⟩, ⟨1, 0, []⟩, ⟨2, 0, []⟩]]⟩
/-- `glmc_ivec4_muladds`: src/ivec4.c:101-105 -/
def f_glmc_ivec4_muladds : Fn := ⟨[],
  [.call 351 [⟨0, 0, []⟩, ⟨1, 0, []⟩]]⟩
/-- `glmc_ivec4_maxadd`: src/ivec4.c:107-111 -/
def f_glmc_ivec4_maxadd : Fn := ⟨[],
  [.call 352 [⟨0, 0, []⟩, ⟨1, 0, []⟩, ⟨2, 0, []⟩]]⟩
/-- `glmc_ivec4_minadd`: src/ivec4.c:113-117 -/
def f_glmc_ivec4_minadd : Fn := ⟨[],
  [.call 353 [⟨0, 0, []⟩, ⟨1, 0, []⟩, ⟨2, 0, []⟩]]⟩
/-- `glmc_ivec4_subsub`: src/ivec4.c:119-123 -/
def f_glmc_ivec4_subsub : Fn := ⟨[],
  [.call 354 [⟨0, 0, []⟩, ⟨1, 0, []⟩, ⟨2, 0, []⟩]]⟩
/-- `glmc_ivec4_subsubs`: src/ivec4.c:125-129 -/
def f_glmc_ivec4_subsubs : Fn := ⟨[],
  [.call 355 [⟨0, 0, []⟩, ⟨1, 0, []⟩]]⟩
/-- `glmc_ivec4_addsub`: src/ivec4.c:131-135 -/
def f_glmc_ivec4_addsub : Fn := ⟨[],
  [.call 356 [⟨0, 0, []⟩, ⟨1, 0, []⟩, ⟨2, 0, []⟩]]⟩
/-- `glmc_ivec4_addsubs`: src/ivec4.c:137-141 -/
def f_glmc_ivec4_addsubs : Fn := ⟨[],
  [.call 357 [⟨0, 0, []⟩, ⟨1, 0, []⟩]]⟩
/-- `glmc_ivec4_mulsub`: src/ivec4.c:143-147 -/
def f_glmc_ivec4_mulsub : Fn := ⟨[],
  [.call 358 [⟨0, 0, []⟩, ⟨1, 0, []⟩, ⟨2, 0, []⟩]]⟩
/-- `glmc_ivec4_mulsubs`: src/ivec4.c:149-153 -/
def f_glmc_ivec4_mulsubs : Fn := ⟨[],
  [.call 359 [⟨0, 0, []⟩, ⟨1, 0, []⟩]]⟩
/-- `glmc_ivec4_maxsub`: src/ivec4.c:155-159 -/
def f_glmc_ivec4_maxsub : Fn := ⟨[],
  [.call 360 [⟨0, 0, []⟩, ⟨1, 0, []⟩, ⟨2, 0, []⟩]]⟩
/-- `glmc_ivec4_minsub`: src/ivec4.c:161-165 -/
def f_glmc_ivec4_minsub : Fn := ⟨[],
  [.call 361 [⟨0, 0, []⟩, ⟨1, 0, []⟩, ⟨2, 0, []⟩]]⟩
/-- `glmc_ivec4_distance2`: src/ivec4.c:167-171 -/
def f_glmc_ivec4_distance2 : Fn := ⟨[],
  [.call 362 [⟨0, 0, []⟩, ⟨1, 0, []⟩]]⟩
/-- `glmc_ivec4_distance`: src/ivec4.c:173-177 -/
def f_glmc_ivec4_distance : Fn := ⟨[],
  [.call 363 [⟨0, 0, []⟩, ⟨1, 0, []⟩]]⟩
/-- `glmc_ivec4_maxv`: src/ivec4.c:179-183 -/
def f_glmc_ivec4_maxv : Fn := ⟨[],
  [.call 364 [⟨0, 0, []⟩, ⟨1, 0, []⟩, ⟨2, 0, []⟩]]⟩
/-- `glmc_ivec4_minv`: src/ivec4.c:185-189 -/
def f_glmc_ivec4_minv : Fn := ⟨[],
  [.call 365 [⟨0, 0, []⟩, ⟨1, 0, []⟩, ⟨2, 0, []⟩]]⟩
/-- `glmc_ivec4_clamp`: src/ivec4.c:191-195 -/
def f_glmc_ivec4_clamp : Fn := ⟨[],
  [.call 366 [⟨0, 0, []⟩]]⟩
/-- `glmc_ivec4_abs`: src/ivec4.c:197-201 -/
def f_glmc_ivec4_abs : Fn := ⟨[],
  [.call 367 [⟨0, 0, []⟩, ⟨1, 0, []⟩]]⟩
/-- `glmc_mat2_make`: src/mat2.c:11-15 -/
def f_glmc_mat2_make : Fn := ⟨[],
  [.call 441 [⟨0, 0, []⟩, ⟨1, 0, []⟩]]⟩
/-- `glmc_mat2_copy`: src/mat2.c:17-21 -/
def f_glmc_mat2_copy : Fn := ⟨[],
  [.call 442 [⟨0, 0, []⟩, ⟨1, 0, []⟩]]⟩
/-- `glmc_mat2_identity`: src/mat2.c:23-27 -/
def f_glmc_mat2_identity : Fn := ⟨[],
  [.call 443 [⟨0, 0, []⟩]]⟩
/-- `glmc_mat2_identity_array`: src/mat2.c:29-33 -/
def f_glmc_mat2_identity_array : Fn := ⟨[],
  [.call 444 [⟨0, 0, []⟩]]⟩
/-- `glmc_mat2_zero`: src/mat2.c:35-39 -/
def f_glmc_mat2_zero : Fn := ⟨[],
  [.call 445 [⟨0, 0, []⟩]]⟩
/-- `glmc_mat2_mul`: src/mat2.c:41-45 -/
def f_glmc_mat2_mul : Fn := ⟨[],
  [.call 446 [⟨0, 0, []⟩, ⟨1, 0, []⟩, ⟨2, 0, []⟩]]⟩
/-- `glmc_mat2_mulv`: src/mat2.c:47-51 -/
def f_glmc_mat2_mulv : Fn := ⟨[],
  [.call 447 [⟨0, 0, []⟩, ⟨1, 0, []⟩, ⟨2, 0, []⟩]]⟩
/-- `glmc_mat2_transpose_to`: src/mat2.c:53-57 -/
def f_glmc_mat2_transpose_to : Fn := ⟨[],
  [.call 448 [⟨0, 0, []⟩, ⟨1, 0, []⟩]]⟩
/-- `glmc_mat2_transpose`: src/mat2.c:59-63 -/
def f_glmc_mat2_transpose : Fn := ⟨[],
  [.call 449 [⟨0, 0, []⟩]]⟩
/-- `glmc_mat2_scale`: src/mat2.c:65-69 -/
def f_glmc_mat2_scale : Fn := ⟨[],
  [.call 450 [⟨0, 0, []⟩]]⟩
/-- `glmc_mat2_inv`: src/mat2.c:71-75 -/
def f_glmc_mat2_inv : Fn := ⟨[],
  [.call 451 [⟨0, 0, []⟩, ⟨1, 0, []⟩]]⟩
/-- `glmc_mat2_swap_col`: src/mat2.c:77-81 -/
def f_glmc_mat2_swap_col : Fn := ⟨[],
  [.call 452 [⟨0, 0, []⟩]]⟩
/-- `glmc_mat2_swap_row`: src/mat2.c:83-87 -/
def f_glmc_mat2_swap_row : Fn := ⟨[],
  [.call 453 [⟨0, 0, []⟩]]⟩
/-- `glmc_mat2_det`: src/mat2.c:89-93 -/
def f_glmc_mat2_det : Fn := ⟨[],
  [.call 454 [⟨0, 0, []⟩]]⟩
/-- `glmc_mat2_trace`: src/mat2.c:95-99 -/
def f_glmc_mat2_trace : Fn := ⟨[],
  [.call 455 [⟨0, 0, []⟩]]⟩
/-- `glmc_mat2_rmc`: src/mat2.c:101-105 -/
def f_glmc_mat2_rmc : Fn := ⟨[],
  [.call 456 [⟨0, 0, []⟩, ⟨1, 0, []⟩, ⟨2, 0, []⟩]]⟩
/-- `glmc_mat2x3_copy`: src/mat2x3.c:11-15 -/
def f_glmc_mat2x3_copy : Fn := ⟨[],
  [.call 457 [⟨0, 0, []⟩, ⟨1, 0, []⟩]]⟩
/-- `glmc_mat2x3_zero`: src/mat2x3.c:17-21 -/
def f_glmc_mat2x3_zero : Fn := ⟨[],
  [.call 458 [⟨0, 0, []⟩]]⟩
/-- `glmc_mat2x3_make`: src/mat2x3.c:23-27 -/
def f_glmc_mat2x3_make : Fn := ⟨[],
  [.call 459 [⟨0, 0, []⟩, ⟨1, 0, []⟩]]⟩
/-- `glmc_mat2x3_mul`: src/mat2x3.c:29-33 -/
def f_glmc_mat2x3_mul : Fn := ⟨[],
  [.call 460 [⟨0, 0, []⟩, ⟨1, 0, []⟩, ⟨2, 0, []⟩]]⟩
/-- `glmc_mat2x3_mulv`: src/mat2x3.c:35-39 -/
def f_glmc_mat2x3_mulv : Fn := ⟨[],
  [.call 461 [⟨0, 0, []⟩, ⟨1, 0, []⟩, ⟨2, 0, []⟩]]⟩
/-- `glmc_mat2x3_transpose`: src/mat2x3.c:41-45 -/
def f_glmc_mat2x3_transpose : Fn := ⟨[],
  [.call 462 [⟨0, 0, []⟩, ⟨1, 0, []⟩]]⟩
/-- `glmc_mat2x3_scale`: src/mat2x3.c:47-51 -/
def f_glmc_mat2x3_scale : Fn := ⟨[],
  [.call 463 [⟨0, 0, []⟩]]⟩
/-- `glmc_mat2x4_copy`: src/mat2x4.c:11-15 -/
def f_glmc_mat2x4_copy : Fn := ⟨[],
  [.call 464 [⟨0, 0, []⟩, ⟨1, 0, []⟩]]⟩
/-- `glmc_mat2x4_zero`: src/mat2x4.c:17-21 -/
def f_glmc_mat2x4_zero : Fn := ⟨[],
  [.call 465 [⟨0, 0, []⟩]]⟩
/-- `glmc_mat2x4_make`: src/mat2x4.c:23-27 -/
def f_glmc_mat2x4_make : Fn := ⟨[],
  [.call 466 [⟨0, 0, []⟩, ⟨1, 0, []⟩]]⟩
/-- `glmc_mat2x4_mul`: src/mat2x4.c:29-33 -/
def f_glmc_mat2x4_mul : Fn := ⟨[],
  [.call 467 [⟨0, 0, []⟩, ⟨1, 0, []⟩, ⟨2, 0, []⟩]]⟩
/-- `glmc_mat2x4_mulv`: src/mat2x4.c:35-39 -/
def f_glmc_mat2x4_mulv : Fn := ⟨[],
  [.call 468 [⟨0, 0, []⟩, ⟨1, 0, []⟩, ⟨2, 0, []⟩]]⟩
/-- `glmc_mat2x4_transpose`: src/mat2x4.c:41-45 -/
def f_glmc_mat2x4_transpose : Fn := ⟨[],
  [.call 469 [⟨0, 0, []⟩, ⟨1, 0, []⟩]]⟩
/-- `glmc_mat2x4_scale`: src/mat2x4.c:47-51 -/
def f_glmc_mat2x4_scale : Fn := ⟨[],
  [.call 470 [⟨0, 0, []⟩]]⟩
/-- `glmc_mat3_copy`: src/mat3.c:11-15 -/
def f_glmc_mat3_copy : Fn := ⟨[],
  [.call 409 [⟨0, 0, []⟩, ⟨1, 0, []⟩]]⟩
/-- `glmc_mat3_identity`: src/mat3.c:17-21 -/
def f_glmc_mat3_identity : Fn := ⟨[],
  [.call 410 [⟨0, 0, []⟩]]⟩
/-- `glmc_mat3_zero`: src/mat3.c:23-27 -/
def f_glmc_mat3_zero : Fn := ⟨[],
  [.call 412 [⟨0, 0, []⟩]]⟩
/-- `glmc_mat3_identity_array`: src/mat3.c:29-33 -/
def f_glmc_mat3_identity_array : Fn := ⟨[],
  [.call 411 [⟨0, 0, []⟩]]⟩
/-- `glmc_mat3_mul`: src/mat3.c:35-39 -/
def f_glmc_mat3_mul : Fn := ⟨[],
  [.call 413 [⟨0, 0, []⟩, ⟨1, 0, []⟩, ⟨2, 0, []⟩]]⟩
/-- `glmc_mat3_transpose_to`: src/mat3.c:41-45 -/
def f_glmc_mat3_transpose_to : Fn := ⟨[],
  [.call 414 [⟨0, 0, []⟩, ⟨1, 0, []⟩]]⟩
/-- `glmc_mat3_transpose`: src/mat3.c:47-51 -/
def f_glmc_mat3_transpose : Fn := ⟨[],
  [.call 415 [⟨0, 0, []⟩]]⟩
/-- `glmc_mat3_mulv`: src/mat3.c:53-57 -/
def f_glmc_mat3_mulv : Fn := ⟨[],
  [.call 416 [⟨0, 0, []⟩, ⟨1, 0, []⟩, ⟨2, 0, []⟩]]⟩
/-- `glmc_mat3_trace`: src/mat3.c:59-63 -/
def f_glmc_mat3_trace : Fn := ⟨[],
  [.call 417 [⟨0, 0, []⟩]]⟩
/-- `glmc_mat3_quat`: src/mat3.c:65-69 -/
def f_glmc_mat3_quat : Fn := ⟨[],
  [.call 418 [⟨0, 0, []⟩, ⟨1, 0, []⟩]]⟩
/-- `glmc_mat3_scale`: src/mat3.c:71-75 -/
def f_glmc_mat3_scale : Fn := ⟨[],
  [.call 419 [⟨0, 0, []⟩]]⟩
/-- `glmc_mat3_det`: src/mat3.c:77-81 -/
def f_glmc_mat3_det : Fn := ⟨[],
  [.call 420 [⟨0, 0, []⟩]]⟩
/-- `glmc_mat3_inv`: src/mat3.c:83-87 -/
def f_glmc_mat3_inv : Fn := ⟨[],
  [.call 421 [⟨0, 0, []⟩, ⟨1, 0, []⟩]]⟩
/-- `glmc_mat3_swap_col`: src/mat3.c:89-93 -/
def f_glmc_mat3_swap_col : Fn := ⟨[],
  [.call 422 [⟨0, 0, []⟩]]⟩
/-- `glmc_mat3_swap_row`: src/mat3.c:95-99 -/
def f_glmc_mat3_swap_row : Fn := ⟨[],
  [.call 423 [⟨0, 0, []⟩]]⟩
/-- `glmc_mat3_rmc`: src/mat3.c:101-105 -/
def f_glmc_mat3_rmc : Fn := ⟨[],
  [.call 424 [⟨0, 0, []⟩, ⟨1, 0, []⟩, ⟨2, 0, []⟩]]⟩
/-- `glmc_mat3_make`: src/mat3.c:107-111 -/
def f_glmc_mat3_make : Fn := ⟨[],
  [.call 425 [⟨0, 0, []⟩, ⟨1, 0, []⟩]]⟩
/-- `glmc_mat3_textrans`: src/mat3.c:113-117 -/
def f_glmc_mat3_textrans : Fn := ⟨[],
  [.call 426 [⟨0, 0, []⟩]]⟩
/-- `glmc_mat3x2_copy`: src/mat3x2.c:11-15 -/
def f_glmc_mat3x2_copy : Fn := ⟨[],
  [.call 427 [⟨0, 0, []⟩, ⟨1, 0, []⟩]]⟩
/-- `glmc_mat3x2_zero`: src/mat3x2.c:17-21 -/
def f_glmc_mat3x2_zero : Fn := ⟨[],
  [.call 428 [⟨0, 0, []⟩]]⟩
/-- `glmc_mat3x2_make`: src/mat3x2.c:23-27 -/
def f_glmc_mat3x2_make : Fn := ⟨[],
  [.call 429 [⟨0, 0, []⟩, ⟨1, 0, []⟩]]⟩
/-- `glmc_mat3x2_mul`: src/mat3x2.c:29-33 -/
def f_glmc_mat3x2_mul : Fn := ⟨[],
  [.call 430 [⟨0, 0, []⟩, ⟨1, 0, []⟩, ⟨2, 0, []⟩]]⟩
/-- `glmc_mat3x2_mulv`: src/mat3x2.c:35-39 -/
def f_glmc_mat3x2_mulv : Fn := ⟨[],
  [.call 431 [⟨0, 0, []⟩, ⟨1, 0, []⟩, ⟨2, 0, []⟩]]⟩
/-- `glmc_mat3x2_transpose`: src/mat3x2.c:41-45 -/
def f_glmc_mat3x2_transpose : Fn := ⟨[],
  [.call 432 [⟨0, 0, []⟩, ⟨1, 0, []⟩]]⟩
/-- `glmc_mat3x2_scale`: src/mat3x2.c:47-51 -/
def f_glmc_mat3x2_scale : Fn := ⟨[],
  [.call 433 [⟨0, 0, []⟩]]⟩
/-- `glmc_mat3x4_copy`: src/mat3x4.c:11-15 -/
def f_glmc_mat3x4_copy : Fn := ⟨[],
  [.call 434 [⟨0, 0, []⟩, ⟨1, 0, []⟩]]⟩
/-- `glmc_mat3x4_zero`: src/mat3x4.c:17-21 -/
def f_glmc_mat3x4_zero : Fn := ⟨[],
  [.call 435 [⟨0, 0, []⟩]]⟩
/-- `glmc_mat3x4_make`: src/mat3x4.c:23-27 -/
def f_glmc_mat3x4_make : Fn := ⟨[],
  [.call 436 [⟨0, 0, []⟩, ⟨1, 0, []⟩]]⟩
/-- `glmc_mat3x4_mul`: src/mat3x4.c:29-33 -/
def f_glmc_mat3x4_mul : Fn := ⟨[],
  [.call 437 [⟨0, 0, []⟩, ⟨1, 0, []⟩, ⟨2, 0, []⟩]]⟩
/-- `glmc_mat3x4_mulv`: src/mat3x4.c:35-39 -/
def f_glmc_mat3x4_mulv : Fn := ⟨[],
  [.call 438 [⟨0, 0, []⟩, ⟨1, 0, []⟩, ⟨2, 0, []⟩]]⟩
/-- `glmc_mat3x4_transpose`: src/mat3x4.c:41-45 -/
def f_glmc_mat3x4_transpose : Fn := ⟨[],
  [.call 439 [⟨0, 0, []⟩, ⟨1, 0, []⟩]]⟩
/-- `glmc_mat3x4_scale`: src/mat3x4.c:47-51 -/
def f_glmc_mat3x4_scale : Fn := ⟨[],
  [.call 440 [⟨0, 0, []⟩]]⟩
/-- `glmc_mat4_ucopy`: src/mat4.c:11-15 -/
def f_glmc_mat4_ucopy : Fn := ⟨[],
  [.call 369 [⟨0, 0, []⟩, ⟨1, 0, []⟩]]⟩
/-- `glmc_mat4_copy`: src/mat4.c:17-21 -/
def f_glmc_mat4_copy : Fn := ⟨[],
  [.call 369 [⟨0, 0, []⟩, ⟨1, 0, []⟩]]⟩
/-- `glmc_mat4_identity`: src/mat4.c:23-27 -/
def f_glmc_mat4_identity : Fn := ⟨[],
  [.call 370 [⟨0, 0, []⟩]]⟩
/-- `glmc_mat4_identity_array`: src/mat4.c:29-33 -/
def f_glmc_mat4_identity_array : Fn := ⟨[],
  [.call 371 [⟨0, 0, []⟩]]⟩
/-- `glmc_mat4_zero`: src/mat4.c:35-39 -/
def f_glmc_mat4_zero : Fn := ⟨[],
  [.call 372 [⟨0, 0, []⟩]]⟩
/-- `glmc_mat4_pick3`: src/mat4.c:41-45 -/
def f_glmc_mat4_pick3 : Fn := ⟨[],
  [.call 373 [⟨0, 0, []⟩, ⟨1, 0, []⟩]]⟩
/-- `glmc_mat4_pick3t`: src/mat4.c:47-51 -/
def f_glmc_mat4_pick3t : Fn := ⟨[],
  [.call 374 [⟨0, 0, []⟩, ⟨1, 0, []⟩]]⟩
/-- `glmc_mat4_ins3`: src/mat4.c:53-57 -/
def f_glmc_mat4_ins3 : Fn := ⟨[],
  [.call 375 [⟨0, 0, []⟩, ⟨1, 0, []⟩]]⟩
/-- `glmc_mat4_mul`: src/mat4.c:59-63 -/
def f_glmc_mat4_mul : Fn := ⟨[],
  [.call 376 [⟨0, 0, []⟩, ⟨1, 0, []⟩, ⟨2, 0, []⟩]]⟩
/-- `glmc_mat4_mulN`: src/mat4.c:65-69 -/
def f_glmc_mat4_mulN : Fn := ⟨[],
  [.call 377 [⟨0, 0, []⟩, ⟨1, 0, []⟩]]⟩
/-- `glmc_mat4_mulv`: src/mat4.c:71-75 -/
def f_glmc_mat4_mulv : Fn := ⟨[],
  [.call 378 [⟨0, 0, []⟩, ⟨1, 0, []⟩, ⟨2, 0, []⟩]]⟩
/-- `glmc_mat4_mulv3`: src/mat4.c:77-81 -/
def f_glmc_mat4_mulv3 : Fn := ⟨[],
  [.call 382 [⟨0, 0, []⟩, ⟨1, 0, []⟩, ⟨2, 0, []⟩]]⟩
/-- `glmc_mat4_trace`: src/mat4.c:83-87 -/
def f_glmc_mat4_trace : Fn := ⟨[],
  [.call 379 [⟨0, 0, []⟩]]⟩
/-- `glmc_mat4_trace3`: src/mat4.c:89-93 -/
def f_glmc_mat4_trace3 : Fn := ⟨[],
  [.call 380 [⟨0, 0, []⟩]]⟩
/-- `glmc_mat4_quat`: src/mat4.c:95-99 -/
def f_glmc_mat4_quat : Fn := ⟨[],
  [.call 381 [⟨0, 0, []⟩, ⟨1, 0, []⟩]]⟩
/-- `glmc_mat4_transpose_to`: src/mat4.c:101-105 -/
def f_glmc_mat4_transpose_to : Fn := ⟨[],
  [.call 383 [⟨0, 0, []⟩, ⟨1, 0, []⟩]]⟩
/-- `glmc_mat4_transpose`: src/mat4.c:107-111 -/
def f_glmc_mat4_transpose : Fn := ⟨[],
  [.call 384 [⟨0, 0, []⟩]]⟩
/-- `glmc_mat4_scale_p`: src/mat4.c:113-117 -/
def f_glmc_mat4_scale_p : Fn := ⟨[],
  [.call 385 [⟨0, 0, []⟩]]⟩
/-- `glmc_mat4_scale`: src/mat4.c:119-123 -/
def f_glmc_mat4_scale : Fn := ⟨[],
  [.call 386 [⟨0, 0, []⟩]]⟩
/-- `glmc_mat4_det`: src/mat4.c:125-129 -/
def f_glmc_mat4_det : Fn := ⟨[],
  [.call 387 [⟨0, 0, []⟩]]⟩
/-- `glmc_mat4_inv`: src/mat4.c:131-135 -/
def f_glmc_mat4_inv : Fn := ⟨[],
  [.call 388 [⟨0, 0, []⟩, ⟨1, 0, []⟩]]⟩
/-- `glmc_mat4_inv_precise`: src/mat4.c:137-141 -/
def f_glmc_mat4_inv_precise : Fn := ⟨[],
  [.call 388 [⟨0, 0, []⟩, ⟨1, 0, []⟩]]⟩
/-- `glmc_mat4_inv_fast`: src/mat4.c:143-147 -/
def f_glmc_mat4_inv_fast : Fn := ⟨[],
  [.call 389 [⟨0, 0, []⟩, ⟨1, 0, []⟩]]⟩
/-- `glmc_mat4_swap_col`: src/mat4.c:149-153 -/
def f_glmc_mat4_swap_col : Fn := ⟨[],
  [.call 390 [⟨0, 0, []⟩]]⟩
/-- `glmc_mat4_swap_row`: src/mat4.c:155-159 -/
def f_glmc_mat4_swap_row : Fn := ⟨[],
  [.call 391 [⟨0, 0, []⟩]]⟩
/-- `glmc_mat4_rmc`: src/mat4.c:161-165 -/
def f_glmc_mat4_rmc : Fn := ⟨[],
  [.call 392 [⟨0, 0, []⟩, ⟨1, 0, []⟩, ⟨2, 0, []⟩]]⟩
/-- `glmc_mat4_make`: src/mat4.c:167-171 -/
def f_glmc_mat4_make : Fn := ⟨[],
  [.call 393 [⟨0, 0, []⟩, ⟨1, 0, []⟩]]⟩
/-- `glmc_mat4_textrans`: src/mat4.c:173-177 -/
def f_glmc_mat4_textrans : Fn := ⟨[],
  [.call 394 [⟨0, 0, []⟩]]⟩
/-- `glmc_mat4x2_copy`: src/mat4x2.c:11-15 -/
def f_glmc_mat4x2_copy : Fn := ⟨[],
  [.call 395 [⟨0, 0, []⟩, ⟨1, 0, []⟩]]⟩
/-- `glmc_mat4x2_zero`: src/mat4x2.c:17-21 -/
def f_glmc_mat4x2_zero : Fn := ⟨[],
  [.call 396 [⟨0, 0, []⟩]]⟩
/-- `glmc_mat4x2_make`: src/mat4x2.c:23-27 -/
def f_glmc_mat4x2_make : Fn := ⟨[],
  [.call 397 [⟨0, 0, []⟩, ⟨1, 0, []⟩]]⟩
/-- `glmc_mat4x2_mul`: src/mat4x2.c:29-33 -/
def f_glmc_mat4x2_mul : Fn := ⟨[],
  [.call 398 [⟨0, 0, []⟩, ⟨1, 0, []⟩, ⟨2, 0, []⟩]]⟩
/-- `glmc_mat4x2_mulv`: src/mat4x2.c:35-39 -/
def f_glmc_mat4x2_mulv : Fn := ⟨[],
  [.call 399 [⟨0, 0, []⟩, ⟨1, 0, []⟩, ⟨2, 0, []⟩]]⟩
/-- `glmc_mat4x2_transpose`: src/mat4x2.c:41-45 -/
def f_glmc_mat4x2_transpose : Fn := ⟨[],
  [.call 400 [⟨0, 0, []⟩, ⟨1, 0, []⟩]]⟩
/-- `glmc_mat4x2_scale`: src/mat4x2.c:47-51 -/
def f_glmc_mat4x2_scale : Fn := ⟨[],
  [.call 401 [⟨0, 0, []⟩]]⟩
/-- `glmc_mat4x3_copy`: src/mat4x3.c:11-15 -/
def f_glmc_mat4x3_copy : Fn := ⟨[],
  [.call 402 [⟨0, 0, []⟩, ⟨1, 0, []⟩]]⟩
/-- `glmc_mat4x3_zero`: src/mat4x3.c:17-21 -/
def f_glmc_mat4x3_zero : Fn := ⟨[],
  [.call 403 [⟨0, 0, []⟩]]⟩
/-- `glmc_mat4x3_make`: src/mat4x3.c:23-27 -/
def f_glmc_mat4x3_make : Fn := ⟨[],
  [.call 404 [⟨0, 0, []⟩, ⟨1, 0, []⟩]]⟩
/-- `glmc_mat4x3_mul`: src/mat4x3.c:29-33 -/
def f_glmc_mat4x3_mul : Fn := ⟨[],
  [.call 405 [⟨0, 0, []⟩, ⟨1, 0, []⟩, ⟨2, 0, []⟩]]⟩
/-- `glmc_mat4x3_mulv`: src/mat4x3.c:35-39 -/
def f_glmc_mat4x3_mulv : Fn := ⟨[],
  [.call 406 [⟨0, 0, []⟩, ⟨1, 0, []⟩, ⟨2, 0, []⟩]]⟩
/-- `glmc_mat4x3_transpose`: src/mat4x3.c:41-45 -/
def f_glmc_mat4x3_transpose : Fn := ⟨[],
  [.call 407 [⟨0, 0, []⟩, ⟨1, 0, []⟩]]⟩
/-- `glmc_mat4x3_scale`: src/mat4x3.c:47-51 -/
def f_glmc_mat4x3_scale : Fn := ⟨[],
  [.call 408 [⟨0, 0, []⟩]]⟩
/-- `glmc_perlin_vec4`: src/noise.c:11-15 -/
def f_glmc_perlin_vec4 : Fn := ⟨[],
  [.call 700 [⟨0, 0, []⟩]]⟩
/-- `glmc_perlin_vec3`: src/noise.c:17-21 -/
def f_glmc_perlin_vec3 : Fn := ⟨[],
  [.call 701 [⟨0, 0, []⟩]]⟩
/-- `glmc_perlin_vec2`: src/noise.c:23-27 -/
def f_glmc_perlin_vec2 : Fn := ⟨[],
  [.call 702 [⟨0, 0, []⟩]]⟩
/-- `glmc_plane_normalize`: src/plane.c:11-15 -/
def f_glmc_plane_normalize : Fn := ⟨[],
  [.call 507 [⟨0, 0, []⟩]]⟩
/-- `glmc_unprojecti`: src/project.c:11-15 -/
def f_glmc_unprojecti : Fn := ⟨[],
  [.call 740 [⟨0, 0, []⟩, ⟨1, 0, []⟩, ⟨2, 0, []⟩, ⟨3, 0, []⟩]]⟩
/-- `glmc_unproject`: src/project.c:17-21 -/
def f_glmc_unproject : Fn := ⟨[],
  [.call 741 [⟨0, 0, []⟩, ⟨1, 0, []⟩, ⟨2, 0, []⟩, ⟨3, 0, []⟩]]⟩
/-- `glmc_project`: src/project.c:23-27 -/
def f_glmc_project : Fn := ⟨[],
  [.call 742 [⟨0, 0, []⟩, ⟨1, 0, []⟩, ⟨2, 0, []⟩, ⟨3, 0, []⟩]]⟩
/-- `glmc_project_z`: src/project.c:29-33 -/
def f_glmc_project_z : Fn := ⟨[],
  [.call 743 [⟨0, 0, []⟩, ⟨1, 0, []⟩]]⟩
/-- `glmc_pickmatrix`: src/project.c:35-39 -/
def f_glmc_pickmatrix : Fn := ⟨[],
  [.call 744 [⟨0, 0, []⟩, ⟨1, 0, []⟩, ⟨2, 0, []⟩, ⟨3, 0, []⟩]]⟩
/-- `glmc_quat_identity`: src/quat.c:11-15 -/
def f_glmc_quat_identity : Fn := ⟨[],
  [.call 639 [⟨0, 0, []⟩]]⟩
/-- `glmc_quat_identity_array`: src/quat.c:17-21 -/
def f_glmc_quat_identity_array : Fn := ⟨[],
  [.call 640 [⟨0, 0, []⟩]]⟩
/-- `glmc_quat_init`: src/quat.c:23-27 -/
def f_glmc_quat_init : Fn := ⟨[],
  [.call 641 [⟨0, 0, []⟩]]⟩
/-- `glmc_quat`: src/quat.c:29-33 -/
def f_glmc_quat : Fn := ⟨[],
  [.call 643 [⟨0, 0, []⟩]]⟩
/-- `glmc_quatv`: src/quat.c:35-39 -/
def f_glmc_quatv : Fn := ⟨[],
  [.call 642 [⟨0, 0, []⟩, ⟨1, 0, []⟩]]⟩
/-- `glmc_quat_copy`: src/quat.c:41-45 -/
def f_glmc_quat_copy : Fn := ⟨[],
  [.call 644 [⟨0, 0, []⟩, ⟨1, 0, []⟩]]⟩
/-- `glmc_quat_from_vecs`: src/quat.c:47-51 -/
def f_glmc_quat_from_vecs : Fn := ⟨[],
  [.call 645 [⟨0, 0, []⟩, ⟨1, 0, []⟩, ⟨2, 0, []⟩]]⟩
/-- `glmc_quat_norm`: src/quat.c:53-57 -/
def f_glmc_quat_norm : Fn := ⟨[],
  [.call 646 [⟨0, 0, []⟩]]⟩
/-- `glmc_quat_normalize_to`: src/quat.c:59-63 -/
def f_glmc_quat_normalize_to : Fn := ⟨[],
  [.call 647 [⟨0, 0, []⟩, ⟨1, 0, []⟩]]⟩
/-- `glmc_quat_normalize`: src/quat.c:65-69 -/
def f_glmc_quat_normalize : Fn := ⟨[],
  [.call 648 [⟨0, 0, []⟩]]⟩
/-- `glmc_quat_dot`: src/quat.c:71-75 -/
def f_glmc_quat_dot : Fn := ⟨[],
  [.call 649 [⟨0, 0, []⟩, ⟨1, 0, []⟩]]⟩
/-- `glmc_quat_conjugate`: src/quat.c:77-81 -/
def f_glmc_quat_conjugate : Fn := ⟨[],
  [.call 650 [⟨0, 0, []⟩, ⟨1, 0, []⟩]]⟩
/-- `glmc_quat_inv`: src/quat.c:83-87 -/
def f_glmc_quat_inv : Fn := ⟨[],
  [.call 651 [⟨0, 0, []⟩, ⟨1, 0, []⟩]]⟩
/-- `glmc_quat_add`: src/quat.c:89-93 -/
def f_glmc_quat_add : Fn := ⟨[],
  [.call 652 [⟨0, 0, []⟩, ⟨1, 0, []⟩, ⟨2, 0, []⟩]]⟩
/-- `glmc_quat_sub`: src/quat.c:95-99 -/
def f_glmc_quat_sub : Fn := ⟨[],
  [.call 653 [⟨0, 0, []⟩, ⟨1, 0, []⟩, ⟨2, 0, []⟩]]⟩
/-- `glmc_quat_real`: src/quat.c:101-105 -/
def f_glmc_quat_real : Fn := ⟨[],
  [.call 654 [⟨0, 0, []⟩]]⟩
/-- `glmc_quat_imag`: src/quat.c:107-111 -/
def f_glmc_quat_imag : Fn := ⟨[],
  [.call 655 [⟨0, 0, []⟩, ⟨1, 0, []⟩]]⟩
/-- `glmc_quat_imagn`: src/quat.c:113-117 -/
def f_glmc_quat_imagn : Fn := ⟨[],
  [.call 656 [⟨0, 0, []⟩, ⟨1, 0, []⟩]]⟩
/-- `glmc_quat_imaglen`: src/quat.c:119-123 -/
def f_glmc_quat_imaglen : Fn := ⟨[],
  [.call 657 [⟨0, 0, []⟩]]⟩
/-- `glmc_quat_angle`: src/quat.c:125-129 -/
def f_glmc_quat_angle : Fn := ⟨[],
  [.call 658 [⟨0, 0, []⟩]]⟩
/-- `glmc_quat_axis`: src/quat.c:131-135 -/
def f_glmc_quat_axis : Fn := ⟨[],
  [.call 659 [⟨0, 0, []⟩, ⟨1, 0, []⟩]]⟩
/-- `glmc_quat_mul`: src/quat.c:137-141 -/
def f_glmc_quat_mul : Fn := ⟨[],
  [.call 660 [⟨0, 0, []⟩, ⟨1, 0, []⟩, ⟨2, 0, []⟩]]⟩
/-- `glmc_quat_mat4`: src/quat.c:143-147 -/
def f_glmc_quat_mat4 : Fn := ⟨[],
  [.call 661 [⟨0, 0, []⟩, ⟨1, 0, []⟩]]⟩
/-- `glmc_quat_mat4t`: src/quat.c:149-153 -/
def f_glmc_quat_mat4t : Fn := ⟨[],
  [.call 662 [⟨0, 0, []⟩, ⟨1, 0, []⟩]]⟩
/-- `glmc_quat_mat3`: src/quat.c:155-159 -/
def f_glmc_quat_mat3 : Fn := ⟨[],
  [.call 663 [⟨0, 0, []⟩, ⟨1, 0, []⟩]]⟩
/-- `glmc_quat_mat3t`: src/quat.c:161-165 -/
def f_glmc_quat_mat3t : Fn := ⟨[],
  [.call 664 [⟨0, 0, []⟩, ⟨1, 0, []⟩]]⟩
/-- `glmc_quat_lerp`: src/quat.c:167-171 -/
def f_glmc_quat_lerp : Fn := ⟨[],
  [.call 665 [⟨0, 0, []⟩, ⟨1, 0, []⟩, ⟨2, 0, []⟩]]⟩
/-- `glmc_quat_lerpc`: src/quat.c:173-177 -/
def f_glmc_quat_lerpc : Fn := ⟨[],
  [.call 666 [⟨0, 0, []⟩, ⟨1, 0, []⟩, ⟨2, 0, []⟩]]⟩
/-- `glmc_quat_nlerp`: src/quat.c:179-183 -/
def f_glmc_quat_nlerp : Fn := ⟨[],
  [.call 667 [⟨0, 0, []⟩, ⟨1, 0, []⟩, ⟨2, 0, []⟩]]⟩
/-- `glmc_quat_slerp`: src/quat.c:185-189 -/
def f_glmc_quat_slerp : Fn := ⟨[],
  [.call 668 [⟨0, 0, []⟩, ⟨1, 0, []⟩, ⟨2, 0, []⟩]]⟩
/-- `glmc_quat_slerp_longest`: src/quat.c:191-195 -/
def f_glmc_quat_slerp_longest : Fn := ⟨[],
  [.call 669 [⟨0, 0, []⟩, ⟨1, 0, []⟩, ⟨2, 0, []⟩]]⟩
/-- `glmc_quat_look`: src/quat.c:197-201 -/
def f_glmc_quat_look : Fn := ⟨[],
  [.call 670 [⟨0, 0, []⟩, ⟨1, 0, []⟩, ⟨2, 0, []⟩]]⟩
/-- `glmc_quat_for`: src/quat.c:203-207 -/
def f_glmc_quat_for : Fn := ⟨[],
  [.call 671 [⟨0, 0, []⟩, ⟨1, 0, []⟩, ⟨2, 0, []⟩]]⟩
/-- `glmc_quat_forp`: src/quat.c:209-213 -/
def f_glmc_quat_forp : Fn := ⟨[],
  [.call 672 [⟨0, 0, []⟩, ⟨1, 0, []⟩, ⟨2, 0, []⟩, ⟨3, 0, []⟩]]⟩
/-- `glmc_quat_rotatev`: src/quat.c:215-219 -/
def f_glmc_quat_rotatev : Fn := ⟨[],
  [.call 673 [⟨0, 0, []⟩, ⟨1, 0, []⟩, ⟨2, 0, []⟩]]⟩
/-- `glmc_quat_rotate`: src/quat.c:221-225 -/
def f_glmc_quat_rotate : Fn := ⟨[],
  [.call 674 [⟨0, 0, []⟩, ⟨1, 0, []⟩, ⟨2, 0, []⟩]]⟩
/-- `glmc_quat_rotate_at`: src/quat.c:227-231 -/
def f_glmc_quat_rotate_at : Fn := ⟨[],
  [.call 675 [⟨0, 0, []⟩, ⟨1, 0, []⟩, ⟨2, 0, []⟩]]⟩
/-- `glmc_quat_rotate_atm`: src/quat.c:233-237 -/
def f_glmc_quat_rotate_atm : Fn := ⟨[],
  [.call 676 [⟨0, 0, []⟩, ⟨1, 0, []⟩, ⟨2, 0, []⟩]]⟩
/-- `glmc_quat_make`: src/quat.c:239-243 -/
def f_glmc_quat_make : Fn := ⟨[],
  [.call 677 [⟨0, 0, []⟩, ⟨1, 0, []⟩]]⟩
/-- `glmc_ray_triangle`: src/ray.c:4-13 -/
def f_glmc_ray_triangle : Fn := ⟨[],
  [.call 785 [⟨0, 0, []⟩, ⟨1, 0, []⟩, ⟨2, 0, []⟩, ⟨3, 0, []⟩, ⟨4, 0, []⟩, ⟨5, 0, []⟩]]⟩
/-- `glmc_ray_sphere`: src/ray.c:15-23 -/
def f_glmc_ray_sphere : Fn := ⟨[],
  [.call 786 [⟨0, 0, []⟩, ⟨1, 0, []⟩, ⟨2, 0, []⟩, ⟨3, 0, []⟩, ⟨4, 0, []⟩]]⟩
/-- `glmc_ray_at`: src/ray.c:25-29 -/
def f_glmc_ray_at : Fn := ⟨[],
  [.call 787 [⟨0, 0, []⟩, ⟨1, 0, []⟩, ⟨2, 0, []⟩]]⟩
/-- `glmc_sphere_radii`: src/sphere.c:11-15 -/
def f_glmc_sphere_radii : Fn := ⟨[],
  [.call 745 [⟨0, 0, []⟩]]⟩
/-- `glmc_sphere_transform`: src/sphere.c:17-21 -/
def f_glmc_sphere_transform : Fn := ⟨[],
  [.call 746 [⟨0, 0, []⟩, ⟨1, 0, []⟩, ⟨2, 0, []⟩]]⟩
/-- `glmc_sphere_merge`: src/sphere.c:23-27 -/
def f_glmc_sphere_merge : Fn := ⟨[],
  [.call 747 [⟨0, 0, []⟩, ⟨1, 0, []⟩, ⟨2, 0, []⟩]]⟩
/-- `glmc_sphere_sphere`: src/sphere.c:29-33 -/
def f_glmc_sphere_sphere : Fn := ⟨[],
  [.call 748 [⟨0, 0, []⟩, ⟨1, 0, []⟩]]⟩
/-- `glmc_sphere_point`: src/sphere.c:35-39 -/
def f_glmc_sphere_point : Fn := ⟨[],
  [.call 749 [⟨0, 0, []⟩, ⟨1, 0, []⟩]]⟩
/-- `glmc_vec2`: src/vec2.c:11-15 -/
def f_glmc_vec2 : Fn := ⟨[],
  [.call 46 [⟨0, 0, []⟩, ⟨1, 0, []⟩]]⟩
/-- `glmc_vec2_fill`: src/vec2.c:17-21 -/
def f_glmc_vec2_fill : Fn := ⟨[],
  [.call 24 [⟨0, 0, []⟩]]⟩
/-- `glmc_vec2_eq`: src/vec2.c:23-27 -/
def f_glmc_vec2_eq : Fn := ⟨[],
  [.call 25 [⟨0, 0, []⟩]]⟩
/-- `glmc_vec2_eqv`: src/vec2.c:29-33 -/
def f_glmc_vec2_eqv : Fn := ⟨[],
  [.call 28 [⟨0, 0, []⟩, ⟨1, 0, []⟩]]⟩
/-- `glmc_vec2_copy`: src/vec2.c:35-39 -/
def f_glmc_vec2_copy : Fn := ⟨[],
  [.call 47 [⟨0, 0, []⟩, ⟨1, 0, []⟩]]⟩
/-- `glmc_vec2_zero`: src/vec2.c:41-45 -/
def f_glmc_vec2_zero : Fn := ⟨[],
  [.call 48 [⟨0, 0, []⟩]]⟩
/-- `glmc_vec2_one`: src/vec2.c:47-51 -/
def f_glmc_vec2_one : Fn := ⟨[],
  [.call 49 [⟨0, 0, []⟩]]⟩
/-- `glmc_vec2_dot`: src/vec2.c:53-57 -/
def f_glmc_vec2_dot : Fn := ⟨[],
  [.call 50 [⟨0, 0, []⟩, ⟨1, 0, []⟩]]⟩
/-- `glmc_vec2_cross`: src/vec2.c:59-63 -/
def f_glmc_vec2_cross : Fn := ⟨[],
  [.call 51 [⟨0, 0, []⟩, ⟨1, 0, []⟩]]⟩
/-- `glmc_vec2_norm2`: src/vec2.c:65-69 -/
def f_glmc_vec2_norm2 : Fn := ⟨[],
  [.call 52 [⟨0, 0, []⟩]]⟩
/-- `glmc_vec2_norm`: src/vec2.c:71-75 -/
def f_glmc_vec2_norm : Fn := ⟨[],
  [.call 53 [⟨0, 0, []⟩]]⟩
/-- `glmc_vec2_add`: src/vec2.c:77-81 -/
def f_glmc_vec2_add : Fn := ⟨[],
  [.call 54 [⟨0, 0, []⟩, ⟨1, 0, []⟩, ⟨2, 0, []⟩]]⟩
/-- `glmc_vec2_adds`: src/vec2.c:83-87 -/
def f_glmc_vec2_adds : Fn := ⟨[],
  [.call 55 [⟨0, 0, []⟩, ⟨1, 0, []⟩]]⟩
/-- `glmc_vec2_sub`: src/vec2.c:89-93 -/
def f_glmc_vec2_sub : Fn := ⟨[],
  [.call 56 [⟨0, 0, []⟩, ⟨1, 0, []⟩, ⟨2, 0, []⟩]]⟩
/-- `glmc_vec2_subs`: src/vec2.c:95-99 -/
def f_glmc_vec2_subs : Fn := ⟨[],
  [.call 57 [⟨0, 0, []⟩, ⟨1, 0, []⟩]]⟩
/-- `glmc_vec2_mul`: src/vec2.c:101-105 -/
def f_glmc_vec2_mul : Fn := ⟨[],
  [.call 58 [⟨0, 0, []⟩, ⟨1, 0, []⟩, ⟨2, 0, []⟩]]⟩
/-- `glmc_vec2_scale`: src/vec2.c:107-111 -/
def f_glmc_vec2_scale : Fn := ⟨[],
  [.call 59 [⟨0, 0, []⟩, ⟨1, 0, []⟩]]⟩
/-- `glmc_vec2_scale_as`: src/vec2.c:113-117 -/
def f_glmc_vec2_scale_as : Fn := ⟨[],
  [.call 60 [⟨0, 0, []⟩, ⟨1, 0, []⟩]]⟩
/-- `glmc_vec2_div`: src/vec2.c:119-123 -/
def f_glmc_vec2_div : Fn := ⟨[],
  [.call 61 [⟨0, 0, []⟩, ⟨1, 0, []⟩, ⟨2, 0, []⟩]]⟩
/-- `glmc_vec2_divs`: src/vec2.c:125-129 -/
def f_glmc_vec2_divs : Fn := ⟨[],
  [.call 62 [⟨0, 0, []⟩, ⟨1, 0, []⟩]]⟩
/-- `glmc_vec2_addadd`: src/vec2.c:131-135 -/
def f_glmc_vec2_addadd : Fn := ⟨[],
  [.call 63 [⟨0, 0, []⟩, ⟨1, 0, []⟩, ⟨2, 0, []⟩]]⟩
/-- `glmc_vec2_subadd`: src/vec2.c:137-141 -/
def f_glmc_vec2_subadd : Fn := ⟨[],
  [.call 64 [⟨0, 0, []⟩, ⟨1, 0, []⟩, ⟨2, 0, []⟩]]⟩
/-- `glmc_vec2_muladd`: src/vec2.c:143-147 -/
def f_glmc_vec2_muladd : Fn := ⟨[],
  [.call 65 [⟨0, 0, []⟩, ⟨1, 0, []⟩, ⟨2, 0, []⟩]]⟩
/-- `glmc_vec2_muladds`: src/vec2.c:149-153 -/
def f_glmc_vec2_muladds : Fn := ⟨[],
  [.call 66 [⟨0, 0, []⟩, ⟨1, 0, []⟩]]⟩
/-- `glmc_vec2_maxadd`: src/vec2.c:155-159 -/
def f_glmc_vec2_maxadd : Fn := ⟨[],
  [.call 67 [⟨0, 0, []⟩, ⟨1, 0, []⟩, ⟨2, 0, []⟩]]⟩
/-- `glmc_vec2_minadd`: src/vec2.c:161-165 -/
def f_glmc_vec2_minadd : Fn := ⟨[],
  [.call 68 [⟨0, 0, []⟩, ⟨1, 0, []⟩, ⟨2, 0, []⟩]]⟩
/-- `glmc_vec2_subsub`: src/vec2.c:167-171 -/
def f_glmc_vec2_subsub : Fn := ⟨[],
  [.call 69 [⟨0, 0, []⟩, ⟨1, 0, []⟩, ⟨2, 0, []⟩]]⟩
/-- `glmc_vec2_addsub`: src/vec2.c:173-177 -/
def f_glmc_vec2_addsub : Fn := ⟨[],
  [.call 70 [⟨0, 0, []⟩, ⟨1, 0, []⟩, ⟨2, 0, []⟩]]⟩
/-- `glmc_vec2_mulsub`: src/vec2.c:179-183 -/
def f_glmc_vec2_mulsub : Fn := ⟨[],
  [.call 71 [⟨0, 0, []⟩, ⟨1, 0, []⟩, ⟨2, 0, []⟩]]⟩
/-- `glmc_vec2_mulsubs`: src/vec2.c:185-189 -/
def f_glmc_vec2_mulsubs : Fn := ⟨[],
  [.call 72 [⟨0, 0, []⟩, ⟨1, 0, []⟩]]⟩
/-- `glmc_vec2_maxsub`: src/vec2.c:191-195 -/
def f_glmc_vec2_maxsub : Fn := ⟨[],
  [.call 73 [⟨0, 0, []⟩, ⟨1, 0, []⟩, ⟨2, 0, []⟩]]⟩
/-- `glmc_vec2_minsub`: src/vec2.c:197-201 -/
def f_glmc_vec2_minsub : Fn := ⟨[],
  [.call 74 [⟨0, 0, []⟩, ⟨1, 0, []⟩, ⟨2, 0, []⟩]]⟩
/-- `glmc_vec2_negate_to`: src/vec2.c:204-208 -/
def f_glmc_vec2_negate_to : Fn := ⟨[],
  [.call 75 [⟨0, 0, []⟩, ⟨1, 0, []⟩]]⟩
/-- `glmc_vec2_negate`: src/vec2.c:210-214 -/
def f_glmc_vec2_negate : Fn := ⟨[],
  [.call 76 [⟨0, 0, []⟩]]⟩
/-- `glmc_vec2_normalize`: src/vec2.c:216-220 -/
def f_glmc_vec2_normalize : Fn := ⟨[],
  [.call 77 [⟨0, 0, []⟩]]⟩
/-- `glmc_vec2_normalize_to`: src/vec2.c:222-226 -/
def f_glmc_vec2_normalize_to : Fn := ⟨[],
  [.call 78 [⟨0, 0, []⟩, ⟨1, 0, []⟩]]⟩
/-- `glmc_vec2_rotate`: src/vec2.c:228-232 -/
def f_glmc_vec2_rotate : Fn := ⟨[],
  [.call 79 [⟨0, 0, []⟩, ⟨1, 0, []⟩]]⟩
/-- `glmc_vec2_center`: src/vec2.c:234-238 -/
def f_glmc_vec2_center : Fn := ⟨[],
  [.call 80 [⟨0, 0, []⟩, ⟨1, 0, []⟩, ⟨2, 0, []⟩]]⟩
/-- `glmc_vec2_distance2`: src/vec2.c:240-244 -/
def f_glmc_vec2_distance2 : Fn := ⟨[],
  [.call 81 [⟨0, 0, []⟩, ⟨1, 0, []⟩]]⟩
/-- `glmc_vec2_distance`: src/vec2.c:246-250 -/
def f_glmc_vec2_distance : Fn := ⟨[],
  [.call 82 [⟨0, 0, []⟩, ⟨1, 0, []⟩]]⟩
/-- `glmc_vec2_maxv`: src/vec2.c:252-256 -/
def f_glmc_vec2_maxv : Fn := ⟨[],
  [.call 83 [⟨0, 0, []⟩, ⟨1, 0, []⟩, ⟨2, 0, []⟩]]⟩
/-- `glmc_vec2_minv`: src/vec2.c:258-262 -/
def f_glmc_vec2_minv : Fn := ⟨[],
  [.call 84 [⟨0, 0, []⟩, ⟨1, 0, []⟩, ⟨2, 0, []⟩]]⟩
/-- `glmc_vec2_clamp`: src/vec2.c:264-268 -/
def f_glmc_vec2_clamp : Fn := ⟨[],
  [.call 85 [⟨0, 0, []⟩]]⟩
/-- `glmc_vec2_abs`: src/vec2.c:270-274 -/
def f_glmc_vec2_abs : Fn := ⟨[],
  [.call 36 [⟨0, 0, []⟩, ⟨1, 0, []⟩]]⟩
/-- `glmc_vec2_fract`: src/vec2.c:276-280 -/
def f_glmc_vec2_fract : Fn := ⟨[],
  [.call 37 [⟨0, 0, []⟩, ⟨1, 0, []⟩]]⟩
/-- `glmc_vec2_floor`: src/vec2.c:282-286 -/
def f_glmc_vec2_floor : Fn := ⟨[],
  [.call 38 [⟨0, 0, []⟩, ⟨1, 0, []⟩]]⟩
/-- `glmc_vec2_mods`: src/vec2.c:288-292 -/
def f_glmc_vec2_mods : Fn := ⟨[],
  [.call 39 [⟨0, 0, []⟩, ⟨1, 0, []⟩]]⟩
/-- `glmc_vec2_step`: src/vec2.c:294-298 -/
def f_glmc_vec2_step : Fn := ⟨[],
  [.call 88 [⟨0, 0, []⟩, ⟨1, 0, []⟩, ⟨2, 0, []⟩]]⟩
/-- `glmc_vec2_steps`: src/vec2.c:300-304 -/
def f_glmc_vec2_steps : Fn := ⟨[],
  [.call 42 [⟨0, 0, []⟩, ⟨1, 0, []⟩]]⟩
/-- `glmc_vec2_stepr`: src/vec2.c:306-310 -/
def f_glmc_vec2_stepr : Fn := ⟨[],
  [.call 43 [⟨0, 0, []⟩, ⟨1, 0, []⟩]]⟩
/-- `glmc_vec2_swizzle`: src/vec2.c:312-316 -/
def f_glmc_vec2_swizzle : Fn := ⟨[],
  [.call 86 [⟨0, 0, []⟩, ⟨1, 0, []⟩]]⟩
/-- `glmc_vec2_lerp`: src/vec2.c:318-322 -/
def f_glmc_vec2_lerp : Fn := ⟨[],
  [.call 87 [⟨0, 0, []⟩, ⟨1, 0, []⟩, ⟨2, 0, []⟩]]⟩
/-- `glmc_vec2_complex_mul`: src/vec2.c:324-328 -/
def f_glmc_vec2_complex_mul : Fn := ⟨[],
  [.call 41 [⟨0, 0, []⟩, ⟨1, 0, []⟩, ⟨2, 0, []⟩]]⟩
/-- `glmc_vec2_complex_div`: src/vec2.c:330-334 -/
def f_glmc_vec2_complex_div : Fn := ⟨[],
  [.call 44 [⟨0, 0, []⟩, ⟨1, 0, []⟩, ⟨2, 0, []⟩]]⟩
/-- `glmc_vec2_complex_conjugate`: src/vec2.c:336-340 -/
def f_glmc_vec2_complex_conjugate : Fn := ⟨[],
  [.call 45 [⟨0, 0, []⟩, ⟨1, 0, []⟩]]⟩
/-- `glmc_vec2_make`: src/vec2.c:342-346 -/
def f_glmc_vec2_make : Fn := ⟨[],
  [.call 89 [⟨0, 0, []⟩, ⟨1, 0, []⟩]]⟩
/-- `glmc_vec2_reflect`: src/vec2.c:348-352 -/
def f_glmc_vec2_reflect : Fn := ⟨[],
  [.call 90 [⟨0, 0, []⟩, ⟨1, 0, []⟩, ⟨2, 0, []⟩]]⟩
/-- `glmc_vec2_refract`: src/vec2.c:354-358 -/
def f_glmc_vec2_refract : Fn := ⟨[],
  [.call 91 [⟨0, 0, []⟩, ⟨1, 0, []⟩, ⟨2, 0, []⟩]]⟩
/-- `glmc_vec3`: src/vec3.c:11-15 -/
def f_glmc_vec3 : Fn := ⟨[],
  [.call 189 [⟨0, 0, []⟩, ⟨1, 0, []⟩]]⟩
/-- `glmc_vec3_copy`: src/vec3.c:17-21 -/
def f_glmc_vec3_copy : Fn := ⟨[],
  [.call 190 [⟨0, 0, []⟩, ⟨1, 0, []⟩]]⟩
/-- `glmc_vec3_zero`: src/vec3.c:23-27 -/
def f_glmc_vec3_zero : Fn := ⟨[],
  [.call 191 [⟨0, 0, []⟩]]⟩
/-- `glmc_vec3_one`: src/vec3.c:29-33 -/
def f_glmc_vec3_one : Fn := ⟨[],
  [.call 192 [⟨0, 0, []⟩]]⟩
/-- `glmc_vec3_dot`: src/vec3.c:35-39 -/
def f_glmc_vec3_dot : Fn := ⟨[],
  [.call 193 [⟨0, 0, []⟩, ⟨1, 0, []⟩]]⟩
/-- `glmc_vec3_cross`: src/vec3.c:41-45 -/
def f_glmc_vec3_cross : Fn := ⟨[],
  [.call 223 [⟨0, 0, []⟩, ⟨1, 0, []⟩, ⟨2, 0, []⟩]]⟩
/-- `glmc_vec3_crossn`: src/vec3.c:47-51 -/
def f_glmc_vec3_crossn : Fn := ⟨[],
  [.call 224 [⟨0, 0, []⟩, ⟨1, 0, []⟩, ⟨2, 0, []⟩]]⟩
/-- `glmc_vec3_norm`: src/vec3.c:53-57 -/
def f_glmc_vec3_norm : Fn := ⟨[],
  [.call 195 [⟨0, 0, []⟩]]⟩
/-- `glmc_vec3_normalize_to`: src/vec3.c:59-63 -/
def f_glmc_vec3_normalize_to : Fn := ⟨[],
  [.call 222 [⟨0, 0, []⟩, ⟨1, 0, []⟩]]⟩
/-- `glmc_vec3_normalize`: src/vec3.c:65-69 -/
def f_glmc_vec3_normalize : Fn := ⟨[],
  [.call 221 [⟨0, 0, []⟩]]⟩
/-- `glmc_vec3_norm2`: src/vec3.c:71-75 -/
def f_glmc_vec3_norm2 : Fn := ⟨[],
  [.call 194 [⟨0, 0, []⟩]]⟩
/-- `glmc_vec3_norm_one`: src/vec3.c:77-81 -/
def f_glmc_vec3_norm_one : Fn := ⟨[],
  [.call 196 [⟨0, 0, []⟩]]⟩
/-- `glmc_vec3_norm_inf`: src/vec3.c:83-87 -/
def f_glmc_vec3_norm_inf : Fn := ⟨[],
  [.call 197 [⟨0, 0, []⟩]]⟩
/-- `glmc_vec3_add`: src/vec3.c:89-93 -/
def f_glmc_vec3_add : Fn := ⟨[],
  [.call 198 [⟨0, 0, []⟩, ⟨1, 0, []⟩, ⟨2, 0, []⟩]]⟩
/-- `glmc_vec3_adds`: src/vec3.c:95-99 -/
def f_glmc_vec3_adds : Fn := ⟨[],
  [.call 199 [⟨0, 0, []⟩, ⟨1, 0, []⟩]]⟩
/-- `glmc_vec3_sub`: src/vec3.c:101-105 -/
def f_glmc_vec3_sub : Fn := ⟨[],
  [.call 200 [⟨0, 0, []⟩, ⟨1, 0, []⟩, ⟨2, 0, []⟩]]⟩
/-- `glmc_vec3_subs`: src/vec3.c:107-111 -/
def f_glmc_vec3_subs : Fn := ⟨[],
  [.call 201 [⟨0, 0, []⟩, ⟨1, 0, []⟩]]⟩
/-- `glmc_vec3_mul`: src/vec3.c:113-117 -/
def f_glmc_vec3_mul : Fn := ⟨[],
  [.call 202 [⟨0, 0, []⟩, ⟨1, 0, []⟩, ⟨2, 0, []⟩]]⟩
/-- `glmc_vec3_scale`: src/vec3.c:119-123 -/
def f_glmc_vec3_scale : Fn := ⟨[],
  [.call 203 [⟨0, 0, []⟩, ⟨1, 0, []⟩]]⟩
/-- `glmc_vec3_scale_as`: src/vec3.c:125-129 -/
def f_glmc_vec3_scale_as : Fn := ⟨[],
  [.call 204 [⟨0, 0, []⟩, ⟨1, 0, []⟩]]⟩
/-- `glmc_vec3_div`: src/vec3.c:131-135 -/
def f_glmc_vec3_div : Fn := ⟨[],
  [.call 205 [⟨0, 0, []⟩, ⟨1, 0, []⟩, ⟨2, 0, []⟩]]⟩
/-- `glmc_vec3_divs`: src/vec3.c:137-141 -/
def f_glmc_vec3_divs : Fn := ⟨[],
  [.call 206 [⟨0, 0, []⟩, ⟨1, 0, []⟩]]⟩
/-- `glmc_vec3_addadd`: src/vec3.c:143-147 -/
def f_glmc_vec3_addadd : Fn := ⟨[],
  [.call 207 [⟨0, 0, []⟩, ⟨1, 0, []⟩, ⟨2, 0, []⟩]]⟩
/-- `glmc_vec3_subadd`: src/vec3.c:149-153 -/
def f_glmc_vec3_subadd : Fn := ⟨[],
  [.call 208 [⟨0, 0, []⟩, ⟨1, 0, []⟩, ⟨2, 0, []⟩]]⟩
/-- `glmc_vec3_muladd`: src/vec3.c:155-159 -/
def f_glmc_vec3_muladd : Fn := ⟨[],
  [.call 209 [⟨0, 0, []⟩, ⟨1, 0, []⟩, ⟨2, 0, []⟩]]⟩
/-- `glmc_vec3_muladds`: src/vec3.c:161-165 -/
def f_glmc_vec3_muladds : Fn := ⟨[],
  [.call 210 [⟨0, 0, []⟩, ⟨1, 0, []⟩]]⟩
/-- `glmc_vec3_maxadd`: src/vec3.c:167-171 -/
def f_glmc_vec3_maxadd : Fn := ⟨[],
  [.call 211 [⟨0, 0, []⟩, ⟨1, 0, []⟩, ⟨2, 0, []⟩]]⟩
/-- `glmc_vec3_minadd`: src/vec3.c:173-177 -/
def f_glmc_vec3_minadd : Fn := ⟨[],
  [.call 212 [⟨0, 0, []⟩, ⟨1, 0, []⟩, ⟨2, 0, []⟩]]⟩
/-- `glmc_vec3_subsub`: src/vec3.c:179-183 -/
def f_glmc_vec3_subsub : Fn := ⟨[],
  [.call 213 [⟨0, 0, []⟩, ⟨1, 0, []⟩, ⟨2, 0, []⟩]]⟩
/-- `glmc_vec3_addsub`: src/vec3.c:185-189 -/
def f_glmc_vec3_addsub : Fn := ⟨[],
  [.call 214 [⟨0, 0, []⟩, ⟨1, 0, []⟩, ⟨2, 0, []⟩]]⟩
/-- `glmc_vec3_mulsub`: src/vec3.c:191-195 -/
def f_glmc_vec3_mulsub : Fn := ⟨[],
  [.call 215 [⟨0, 0, []⟩, ⟨1, 0, []⟩, ⟨2, 0, []⟩]]⟩
/-- `glmc_vec3_mulsubs`: src/vec3.c:197-201 -/
def f_glmc_vec3_mulsubs : Fn := ⟨[],
  [.call 216 [⟨0, 0, []⟩, ⟨1, 0, []⟩]]⟩
/-- `glmc_vec3_maxsub`: src/vec3.c:203-207 -/
def f_glmc_vec3_maxsub : Fn := ⟨[],
  [.call 217 [⟨0, 0, []⟩, ⟨1, 0, []⟩, ⟨2, 0, []⟩]]⟩
/-- `glmc_vec3_minsub`: src/vec3.c:209-213 -/
def f_glmc_vec3_minsub : Fn := ⟨[],
  [.call 218 [⟨0, 0, []⟩, ⟨1, 0, []⟩, ⟨2, 0, []⟩]]⟩
/-- `glmc_vec3_negate`: src/vec3.c:215-219 -/
def f_glmc_vec3_negate : Fn := ⟨[],
  [.call 220 [⟨0, 0, []⟩]]⟩
/-- `glmc_vec3_negate_to`: src/vec3.c:221-225 -/
def f_glmc_vec3_negate_to : Fn := ⟨[],
  [.call 219 [⟨0, 0, []⟩, ⟨1, 0, []⟩]]⟩
/-- `glmc_vec3_angle`: src/vec3.c:227-231 -/
def f_glmc_vec3_angle : Fn := ⟨[],
  [.call 225 [⟨0, 0, []⟩, ⟨1, 0, []⟩]]⟩
/-- `glmc_vec3_rotate`: src/vec3.c:233-237 -/
def f_glmc_vec3_rotate : Fn := ⟨[],
  [.call 226 [⟨0, 0, []⟩, ⟨1, 0, []⟩]]⟩
/-- `glmc_vec3_rotate_m4`: src/vec3.c:239-243 -/
def f_glmc_vec3_rotate_m4 : Fn := ⟨[],
  [.call 227 [⟨0, 0, []⟩, ⟨1, 0, []⟩, ⟨2, 0, []⟩]]⟩
/-- `glmc_vec3_rotate_m3`: src/vec3.c:245-249 -/
def f_glmc_vec3_rotate_m3 : Fn := ⟨[],
  [.call 228 [⟨0, 0, []⟩, ⟨1, 0, []⟩, ⟨2, 0, []⟩]]⟩
/-- `glmc_vec3_proj`: src/vec3.c:251-255 -/
def f_glmc_vec3_proj : Fn := ⟨[],
  [.call 229 [⟨0, 0, []⟩, ⟨1, 0, []⟩, ⟨2, 0, []⟩]]⟩
/-- `glmc_vec3_center`: src/vec3.c:257-261 -/
def f_glmc_vec3_center : Fn := ⟨[],
  [.call 230 [⟨0, 0, []⟩, ⟨1, 0, []⟩, ⟨2, 0, []⟩]]⟩
/-- `glmc_vec3_distance`: src/vec3.c:263-267 -/
def f_glmc_vec3_distance : Fn := ⟨[],
  [.call 232 [⟨0, 0, []⟩, ⟨1, 0, []⟩]]⟩
/-- `glmc_vec3_distance2`: src/vec3.c:269-273 -/
def f_glmc_vec3_distance2 : Fn := ⟨[],
  [.call 231 [⟨0, 0, []⟩, ⟨1, 0, []⟩]]⟩
/-- `glmc_vec3_maxv`: src/vec3.c:275-279 -/
def f_glmc_vec3_maxv : Fn := ⟨[],
  [.call 233 [⟨0, 0, []⟩, ⟨1, 0, []⟩, ⟨2, 0, []⟩]]⟩
/-- `glmc_vec3_minv`: src/vec3.c:281-285 -/
def f_glmc_vec3_minv : Fn := ⟨[],
  [.call 234 [⟨0, 0, []⟩, ⟨1, 0, []⟩, ⟨2, 0, []⟩]]⟩
/-- `glmc_vec3_clamp`: src/vec3.c:287-291 -/
def f_glmc_vec3_clamp : Fn := ⟨[],
  [.call 236 [⟨0, 0, []⟩]]⟩
/-- `glmc_vec3_ortho`: src/vec3.c:293-297 -/
def f_glmc_vec3_ortho : Fn := ⟨[],
  [.call 235 [⟨0, 0, []⟩, ⟨1, 0, []⟩]]⟩
/-- `glmc_vec3_lerp`: src/vec3.c:299-303 -/
def f_glmc_vec3_lerp : Fn := ⟨[],
  [.call 237 [⟨0, 0, []⟩, ⟨1, 0, []⟩, ⟨2, 0, []⟩]]⟩
/-- `glmc_vec3_lerpc`: src/vec3.c:305-309 -/
def f_glmc_vec3_lerpc : Fn := ⟨[],
  [.call 238 [⟨0, 0, []⟩, ⟨1, 0, []⟩, ⟨2, 0, []⟩]]⟩
/-- `glmc_vec3_step`: src/vec3.c:311-315 -/
def f_glmc_vec3_step : Fn := ⟨[],
  [.call 241 [⟨0, 0, []⟩, ⟨1, 0, []⟩, ⟨2, 0, []⟩]]⟩
/-- `glmc_vec3_smoothstep_uni`: src/vec3.c:317-321 -/
def f_glmc_vec3_smoothstep_uni : Fn := ⟨[],
  [.call 242 [⟨0, 0, []⟩, ⟨1, 0, []⟩]]⟩
/-- `glmc_vec3_smoothstep`: src/vec3.c:323-327 -/
def f_glmc_vec3_smoothstep : Fn := ⟨[],
  [.call 243 [⟨0, 0, []⟩, ⟨1, 0, []⟩, ⟨2, 0, []⟩, ⟨3, 0, []⟩]]⟩
/-- `glmc_vec3_smoothinterp`: src/vec3.c:329-333 -/
def f_glmc_vec3_smoothinterp : Fn := ⟨[],
  [.call 244 [⟨0, 0, []⟩, ⟨1, 0, []⟩, ⟨2, 0, []⟩]]⟩
/-- `glmc_vec3_smoothinterpc`: src/vec3.c:335-339 -/
def f_glmc_vec3_smoothinterpc : Fn := ⟨[],
  [.call 245 [⟨0, 0, []⟩, ⟨1, 0, []⟩, ⟨2, 0, []⟩]]⟩
/-- `glmc_vec3_swizzle`: src/vec3.c:341-345 -/
def f_glmc_vec3_swizzle : Fn := ⟨[],
  [.call 246 [⟨0, 0, []⟩, ⟨1, 0, []⟩]]⟩
/-- `glmc_vec3_mulv`: src/vec3.c:349-353 -/
def f_glmc_vec3_mulv : Fn := ⟨[],
  [.call 202 [⟨0, 0, []⟩, ⟨1, 0, []⟩, ⟨2, 0, []⟩]]⟩
/-- `glmc_vec3_broadcast`: src/vec3.c:355-359 -/
def f_glmc_vec3_broadcast : Fn := ⟨[],
  [.call 92 [⟨0, 0, []⟩]]⟩
/-- `glmc_vec3_fill`: src/vec3.c:361-365 -/
def f_glmc_vec3_fill : Fn := ⟨[],
  [.call 93 [⟨0, 0, []⟩]]⟩
/-- `glmc_vec3_eq`: src/vec3.c:367-371 -/
def f_glmc_vec3_eq : Fn := ⟨[],
  [.call 94 [⟨0, 0, []⟩]]⟩
/-- `glmc_vec3_eq_eps`: src/vec3.c:373-377 -/
def f_glmc_vec3_eq_eps : Fn := ⟨[],
  [.call 95 [⟨0, 0, []⟩]]⟩
/-- `glmc_vec3_eq_all`: src/vec3.c:379-383 -/
def f_glmc_vec3_eq_all : Fn := ⟨[],
  [.call 96 [⟨0, 0, []⟩]]⟩
/-- `glmc_vec3_eqv`: src/vec3.c:385-389 -/
def f_glmc_vec3_eqv : Fn := ⟨[],
  [.call 97 [⟨0, 0, []⟩, ⟨1, 0, []⟩]]⟩
/-- `glmc_vec3_eqv_eps`: src/vec3.c:391-395 -/
def f_glmc_vec3_eqv_eps : Fn := ⟨[],
  [.call 98 [⟨0, 0, []⟩, ⟨1, 0, []⟩]]⟩
/-- `glmc_vec3_max`: src/vec3.c:397-401 -/
def f_glmc_vec3_max : Fn := ⟨[],
  [.call 99 [⟨0, 0, []⟩]]⟩
/-- `glmc_vec3_min`: src/vec3.c:403-407 -/
def f_glmc_vec3_min : Fn := ⟨[],
  [.call 100 [⟨0, 0, []⟩]]⟩
/-- `glmc_vec3_isnan`: src/vec3.c:409-413 -/
def f_glmc_vec3_isnan : Fn := ⟨[],
  [.call 101 [⟨0, 0, []⟩]]⟩
/-- `glmc_vec3_isinf`: src/vec3.c:415-419 -/
def f_glmc_vec3_isinf : Fn := ⟨[],
  [.call 102 [⟨0, 0, []⟩]]⟩
/-- `glmc_vec3_isvalid`: src/vec3.c:421-425 -/
def f_glmc_vec3_isvalid : Fn := ⟨[],
  [.call 103 [⟨0, 0, []⟩]]⟩
/-- `glmc_vec3_sign`: src/vec3.c:427-431 -/
def f_glmc_vec3_sign : Fn := ⟨[],
  [.call 104 [⟨0, 0, []⟩, ⟨1, 0, []⟩]]⟩
/-- `glmc_vec3_abs`: src/vec3.c:433-437 -/
def f_glmc_vec3_abs : Fn := ⟨[],
  [.call 105 [⟨0, 0, []⟩, ⟨1, 0, []⟩]]⟩
/-- `glmc_vec3_fract`: src/vec3.c:439-443 -/
def f_glmc_vec3_fract : Fn := ⟨[],
  [.call 106 [⟨0, 0, []⟩, ⟨1, 0, []⟩]]⟩
/-- `glmc_vec3_floor`: src/vec3.c:445-449 -/
def f_glmc_vec3_floor : Fn := ⟨[],
  [.call 107 [⟨0, 0, []⟩, ⟨1, 0, []⟩]]⟩
/-- `glmc_vec3_mods`: src/vec3.c:451-455 -/
def f_glmc_vec3_mods : Fn := ⟨[],
  [.call 108 [⟨0, 0, []⟩, ⟨1, 0, []⟩]]⟩
/-- `glmc_vec3_steps`: src/vec3.c:457-461 -/
def f_glmc_vec3_steps : Fn := ⟨[],
  [.call 109 [⟨0, 0, []⟩, ⟨1, 0, []⟩]]⟩
/-- `glmc_vec3_stepr`: src/vec3.c:463-467 -/
def f_glmc_vec3_stepr : Fn := ⟨[],
  [.call 110 [⟨0, 0, []⟩, ⟨1, 0, []⟩]]⟩
/-- `glmc_vec3_hadd`: src/vec3.c:469-473 -/
def f_glmc_vec3_hadd : Fn := ⟨[],
  [.call 111 [⟨0, 0, []⟩]]⟩
/-- `glmc_vec3_sqrt`: src/vec3.c:475-479 -/
def f_glmc_vec3_sqrt : Fn := ⟨[],
  [.call 112 [⟨0, 0, []⟩, ⟨1, 0, []⟩]]⟩
/-- `glmc_vec3_make`: src/vec3.c:481-485 -/
def f_glmc_vec3_make : Fn := ⟨[],
  [.call 251 [⟨0, 0, []⟩, ⟨1, 0, []⟩]]⟩
/-- `glmc_vec3_faceforward`: src/vec3.c:487-491 -/
def f_glmc_vec3_faceforward : Fn := ⟨[],
  [.call 252 [⟨0, 0, []⟩, ⟨1, 0, []⟩, ⟨2, 0, []⟩, ⟨3, 0, []⟩]]⟩
/-- `glmc_vec3_reflect`: src/vec3.c:493-497 -/
def f_glmc_vec3_reflect : Fn := ⟨[],
  [.call 253 [⟨0, 0, []⟩, ⟨1, 0, []⟩, ⟨2, 0, []⟩]]⟩
/-- `glmc_vec3_refract`: src/vec3.c:499-503 -/
def f_glmc_vec3_refract : Fn := ⟨[],
  [.call 254 [⟨0, 0, []⟩, ⟨1, 0, []⟩, ⟨2, 0, []⟩]]⟩
/-- `glmc_vec4`: src/vec4.c:11-15 -/
def f_glmc_vec4 : Fn := ⟨[],
  [.call 134 [⟨0, 0, []⟩, ⟨1, 0, []⟩]]⟩
/-- `glmc_vec4_zero`: src/vec4.c:17-21 -/
def f_glmc_vec4_zero : Fn := ⟨[],
  [.call 138 [⟨0, 0, []⟩]]⟩
/-- `glmc_vec4_one`: src/vec4.c:23-27 -/
def f_glmc_vec4_one : Fn := ⟨[],
  [.call 139 [⟨0, 0, []⟩]]⟩
/-- `glmc_vec4_copy3`: src/vec4.c:29-33 -/
def f_glmc_vec4_copy3 : Fn := ⟨[],
  [.call 135 [⟨0, 0, []⟩, ⟨1, 0, []⟩]]⟩
/-- `glmc_vec4_copy`: src/vec4.c:35-39 -/
def f_glmc_vec4_copy : Fn := ⟨[],
  [.call 136 [⟨0, 0, []⟩, ⟨1, 0, []⟩]]⟩
/-- `glmc_vec4_ucopy`: src/vec4.c:41-45 -/
def f_glmc_vec4_ucopy : Fn := ⟨[],
  [.call 137 [⟨0, 0, []⟩, ⟨1, 0, []⟩]]⟩
/-- `glmc_vec4_dot`: src/vec4.c:47-51 -/
def f_glmc_vec4_dot : Fn := ⟨[],
  [.call 140 [⟨0, 0, []⟩, ⟨1, 0, []⟩]]⟩
/-- `glmc_vec4_norm`: src/vec4.c:53-57 -/
def f_glmc_vec4_norm : Fn := ⟨[],
  [.call 142 [⟨0, 0, []⟩]]⟩
/-- `glmc_vec4_normalize_to`: src/vec4.c:59-63 -/
def f_glmc_vec4_normalize_to : Fn := ⟨[],
  [.call 168 [⟨0, 0, []⟩, ⟨1, 0, []⟩]]⟩
/-- `glmc_vec4_normalize`: src/vec4.c:65-69 -/
def f_glmc_vec4_normalize : Fn := ⟨[],
  [.call 169 [⟨0, 0, []⟩]]⟩
/-- `glmc_vec4_norm2`: src/vec4.c:71-75 -/
def f_glmc_vec4_norm2 : Fn := ⟨[],
  [.call 141 [⟨0, 0, []⟩]]⟩
/-- `glmc_vec4_norm_one`: src/vec4.c:77-81 -/
def f_glmc_vec4_norm_one : Fn := ⟨[],
  [.call 143 [⟨0, 0, []⟩]]⟩
/-- `glmc_vec4_norm_inf`: src/vec4.c:83-87 -/
def f_glmc_vec4_norm_inf : Fn := ⟨[],
  [.call 144 [⟨0, 0, []⟩]]⟩
/-- `glmc_vec4_add`: src/vec4.c:89-93 -/
def f_glmc_vec4_add : Fn := ⟨[],
  [.call 145 [⟨0, 0, []⟩, ⟨1, 0, []⟩, ⟨2, 0, []⟩]]⟩
/-- `glmc_vec4_adds`: src/vec4.c:95-99 -/
def f_glmc_vec4_adds : Fn := ⟨[],
  [.call 146 [⟨0, 0, []⟩, ⟨1, 0, []⟩]]⟩
/-- `glmc_vec4_sub`: src/vec4.c:101-105 -/
def f_glmc_vec4_sub : Fn := ⟨[],
  [.call 147 [⟨0, 0, []⟩, ⟨1, 0, []⟩, ⟨2, 0, []⟩]]⟩
/-- `glmc_vec4_subs`: src/vec4.c:107-111 -/
def f_glmc_vec4_subs : Fn := ⟨[],
  [.call 148 [⟨0, 0, []⟩, ⟨1, 0, []⟩]]⟩
/-- `glmc_vec4_mul`: src/vec4.c:113-117 -/
def f_glmc_vec4_mul : Fn := ⟨[],
  [.call 149 [⟨0, 0, []⟩, ⟨1, 0, []⟩, ⟨2, 0, []⟩]]⟩
/-- `glmc_vec4_scale`: src/vec4.c:119-123 -/
def f_glmc_vec4_scale : Fn := ⟨[],
  [.call 150 [⟨0, 0, []⟩, ⟨1, 0, []⟩]]⟩
/-- `glmc_vec4_scale_as`: src/vec4.c:125-129 -/
def f_glmc_vec4_scale_as : Fn := ⟨[],
  [.call 151 [⟨0, 0, []⟩, ⟨1, 0, []⟩]]⟩
/-- `glmc_vec4_div`: src/vec4.c:131-135 -/
def f_glmc_vec4_div : Fn := ⟨[],
  [.call 152 [⟨0, 0, []⟩, ⟨1, 0, []⟩, ⟨2, 0, []⟩]]⟩
/-- `glmc_vec4_divs`: src/vec4.c:137-141 -/
def f_glmc_vec4_divs : Fn := ⟨[],
  [.call 153 [⟨0, 0, []⟩, ⟨1, 0, []⟩]]⟩
/-- `glmc_vec4_addadd`: src/vec4.c:143-147 -/
def f_glmc_vec4_addadd : Fn := ⟨[],
  [.call 154 [⟨0, 0, []⟩, ⟨1, 0, []⟩, ⟨2, 0, []⟩]]⟩
/-- `glmc_vec4_subadd`: src/vec4.c:149-153 -/
def f_glmc_vec4_subadd : Fn := ⟨[],
  [.call 155 [⟨0, 0, []⟩, ⟨1, 0, []⟩, ⟨2, 0, []⟩]]⟩
/-- `glmc_vec4_muladd`: src/vec4.c:155-159 -/
def f_glmc_vec4_muladd : Fn := ⟨[],
  [.call 156 [⟨0, 0, []⟩, ⟨1, 0, []⟩, ⟨2, 0, []⟩]]⟩
/-- `glmc_vec4_muladds`: src/vec4.c:161-165 -/
def f_glmc_vec4_muladds : Fn := ⟨[],
  [.call 157 [⟨0, 0, []⟩, ⟨1, 0, []⟩]]⟩
/-- `glmc_vec4_maxadd`: src/vec4.c:167-171 -/
def f_glmc_vec4_maxadd : Fn := ⟨[],
  [.call 158 [⟨0, 0, []⟩, ⟨1, 0, []⟩, ⟨2, 0, []⟩]]⟩
/-- `glmc_vec4_minadd`: src/vec4.c:173-177 -/
def f_glmc_vec4_minadd : Fn := ⟨[],
  [.call 159 [⟨0, 0, []⟩, ⟨1, 0, []⟩, ⟨2, 0, []⟩]]⟩
/-- `glmc_vec4_subsub`: src/vec4.c:179-183 -/
def f_glmc_vec4_subsub : Fn := ⟨[],
  [.call 160 [⟨0, 0, []⟩, ⟨1, 0, []⟩, ⟨2, 0, []⟩]]⟩
/-- `glmc_vec4_addsub`: src/vec4.c:185-189 -/
def f_glmc_vec4_addsub : Fn := ⟨[],
  [.call 161 [⟨0, 0, []⟩, ⟨1, 0, []⟩, ⟨2, 0, []⟩]]⟩
/-- `glmc_vec4_mulsub`: src/vec4.c:191-195 -/
def f_glmc_vec4_mulsub : Fn := ⟨[],
  [.call 162 [⟨0, 0, []⟩, ⟨1, 0, []⟩, ⟨2, 0, []⟩]]⟩
/-- `glmc_vec4_mulsubs`: src/vec4.c:197-201 -/
def f_glmc_vec4_mulsubs : Fn := ⟨[],
  [.call 163 [⟨0, 0, []⟩, ⟨1, 0, []⟩]]⟩
/-- `glmc_vec4_maxsub`: src/vec4.c:203-207 -/
def f_glmc_vec4_maxsub : Fn := ⟨[],
  [.call 164 [⟨0, 0, []⟩, ⟨1, 0, []⟩, ⟨2, 0, []⟩]]⟩
/-- `glmc_vec4_minsub`: src/vec4.c:209-213 -/
def f_glmc_vec4_minsub : Fn := ⟨[],
  [.call 165 [⟨0, 0, []⟩, ⟨1, 0, []⟩, ⟨2, 0, []⟩]]⟩
/-- `glmc_vec4_negate`: src/vec4.c:215-219 -/
def f_glmc_vec4_negate : Fn := ⟨[],
  [.call 167 [⟨0, 0, []⟩]]⟩
/-- `glmc_vec4_negate_to`: src/vec4.c:221-225 -/
def f_glmc_vec4_negate_to : Fn := ⟨[],
  [.call 166 [⟨0, 0, []⟩, ⟨1, 0, []⟩]]⟩
/-- `glmc_vec4_distance`: src/vec4.c:227-231 -/
def f_glmc_vec4_distance : Fn := ⟨[],
  [.call 170 [⟨0, 0, []⟩, ⟨1, 0, []⟩]]⟩
/-- `glmc_vec4_distance2`: src/vec4.c:233-237 -/
def f_glmc_vec4_distance2 : Fn := ⟨[],
  [.call 171 [⟨0, 0, []⟩, ⟨1, 0, []⟩]]⟩
/-- `glmc_vec4_maxv`: src/vec4.c:239-243 -/
def f_glmc_vec4_maxv : Fn := ⟨[],
  [.call 172 [⟨0, 0, []⟩, ⟨1, 0, []⟩, ⟨2, 0, []⟩]]⟩
/-- `glmc_vec4_minv`: src/vec4.c:245-249 -/
def f_glmc_vec4_minv : Fn := ⟨[],
  [.call 173 [⟨0, 0, []⟩, ⟨1, 0, []⟩, ⟨2, 0, []⟩]]⟩
/-- `glmc_vec4_clamp`: src/vec4.c:251-255 -/
def f_glmc_vec4_clamp : Fn := ⟨[],
  [.call 174 [⟨0, 0, []⟩]]⟩
/-- `glmc_vec4_lerp`: src/vec4.c:257-261 -/
def f_glmc_vec4_lerp : Fn := ⟨[],
  [.call 175 [⟨0, 0, []⟩, ⟨1, 0, []⟩, ⟨2, 0, []⟩]]⟩
/-- `glmc_vec4_lerpc`: src/vec4.c:263-267 -/
def f_glmc_vec4_lerpc : Fn := ⟨[],
  [.call 176 [⟨0, 0, []⟩, ⟨1, 0, []⟩, ⟨2, 0, []⟩]]⟩
/-- `glmc_vec4_step`: src/vec4.c:269-273 -/
def f_glmc_vec4_step : Fn := ⟨[],
  [.call 179 [⟨0, 0, []⟩, ⟨1, 0, []⟩, ⟨2, 0, []⟩]]⟩
/-- `glmc_vec4_smoothstep_uni`: src/vec4.c:275-279 -/
def f_glmc_vec4_smoothstep_uni : Fn := ⟨[],
  [.call 180 [⟨0, 0, []⟩, ⟨1, 0, []⟩]]⟩
/-- `glmc_vec4_smoothstep`: src/vec4.c:281-285 -/
def f_glmc_vec4_smoothstep : Fn := ⟨[],
  [.call 181 [⟨0, 0, []⟩, ⟨1, 0, []⟩, ⟨2, 0, []⟩, ⟨3, 0, []⟩]]⟩
/-- `glmc_vec4_smoothinterp`: src/vec4.c:287-291 -/
def f_glmc_vec4_smoothinterp : Fn := ⟨[],
  [.call 182 [⟨0, 0, []⟩, ⟨1, 0, []⟩, ⟨2, 0, []⟩]]⟩
/-- `glmc_vec4_smoothinterpc`: src/vec4.c:293-297 -/
def f_glmc_vec4_smoothinterpc : Fn := ⟨[],
  [.call 183 [⟨0, 0, []⟩, ⟨1, 0, []⟩, ⟨2, 0, []⟩]]⟩
/-- `glmc_vec4_cubic`: src/vec4.c:299-303 -/
def f_glmc_vec4_cubic : Fn := ⟨[],
  [.call 184 [⟨0, 0, []⟩]]⟩
/-- `glmc_vec4_swizzle`: src/vec4.c:305-309 -/
def f_glmc_vec4_swizzle : Fn := ⟨[],
  [.call 185 [⟨0, 0, []⟩, ⟨1, 0, []⟩]]⟩
/-- `glmc_vec4_mulv`: src/vec4.c:313-317 -/
def f_glmc_vec4_mulv : Fn := ⟨[],
  [.call 149 [⟨0, 0, []⟩, ⟨1, 0, []⟩, ⟨2, 0, []⟩]]⟩
/-- `glmc_vec4_broadcast`: src/vec4.c:319-323 -/
def f_glmc_vec4_broadcast : Fn := ⟨[],
  [.call 113 [⟨0, 0, []⟩]]⟩
/-- `glmc_vec4_fill`: src/vec4.c:325-329 -/
def f_glmc_vec4_fill : Fn := ⟨[],
  [.call 114 [⟨0, 0, []⟩]]⟩
/-- `glmc_vec4_eq`: src/vec4.c:331-335 -/
def f_glmc_vec4_eq : Fn := ⟨[],
  [.call 115 [⟨0, 0, []⟩]]⟩
/-- `glmc_vec4_eq_eps`: src/vec4.c:337-341 -/
def f_glmc_vec4_eq_eps : Fn := ⟨[],
  [.call 116 [⟨0, 0, []⟩]]⟩
/-- `glmc_vec4_eq_all`: src/vec4.c:343-347 -/
def f_glmc_vec4_eq_all : Fn := ⟨[],
  [.call 117 [⟨0, 0, []⟩]]⟩
/-- `glmc_vec4_eqv`: src/vec4.c:349-353 -/
def f_glmc_vec4_eqv : Fn := ⟨[],
  [.call 118 [⟨0, 0, []⟩, ⟨1, 0, []⟩]]⟩
/-- `glmc_vec4_eqv_eps`: src/vec4.c:355-359 -/
def f_glmc_vec4_eqv_eps : Fn := ⟨[],
  [.call 119 [⟨0, 0, []⟩, ⟨1, 0, []⟩]]⟩
/-- `glmc_vec4_max`: src/vec4.c:361-365 -/
def f_glmc_vec4_max : Fn := ⟨[],
  [.call 120 [⟨0, 0, []⟩]]⟩
/-- `glmc_vec4_min`: src/vec4.c:367-371 -/
def f_glmc_vec4_min : Fn := ⟨[],
  [.call 121 [⟨0, 0, []⟩]]⟩
/-- `glmc_vec4_isnan`: src/vec4.c:373-377 -/
def f_glmc_vec4_isnan : Fn := ⟨[],
  [.call 122 [⟨0, 0, []⟩]]⟩
/-- `glmc_vec4_isinf`: src/vec4.c:379-383 -/
def f_glmc_vec4_isinf : Fn := ⟨[],
  [.call 123 [⟨0, 0, []⟩]]⟩
/-- `glmc_vec4_isvalid`: src/vec4.c:385-389 -/
def f_glmc_vec4_isvalid : Fn := ⟨[],
  [.call 124 [⟨0, 0, []⟩]]⟩
/-- `glmc_vec4_sign`: src/vec4.c:391-395 -/
def f_glmc_vec4_sign : Fn := ⟨[],
  [.call 125 [⟨0, 0, []⟩, ⟨1, 0, []⟩]]⟩
/-- `glmc_vec4_abs`: src/vec4.c:397-401 -/
def f_glmc_vec4_abs : Fn := ⟨[],
  [.call 126 [⟨0, 0, []⟩, ⟨1, 0, []⟩]]⟩
/-- `glmc_vec4_fract`: src/vec4.c:403-407 -/
def f_glmc_vec4_fract : Fn := ⟨[],
  [.call 127 [⟨0, 0, []⟩, ⟨1, 0, []⟩]]⟩
/-- `glmc_vec4_floor`: src/vec4.c:409-413 -/
def f_glmc_vec4_floor : Fn := ⟨[],
  [.call 128 [⟨0, 0, []⟩, ⟨1, 0, []⟩]]⟩
/-- `glmc_vec4_mods`: src/vec4.c:415-419 -/
def f_glmc_vec4_mods : Fn := ⟨[],
  [.call 129 [⟨0, 0, []⟩, ⟨1, 0, []⟩]]⟩
/-- `glmc_vec4_steps`: src/vec4.c:421-425 -/
def f_glmc_vec4_steps : Fn := ⟨[],
  [.call 130 [⟨0, 0, []⟩, ⟨1, 0, []⟩]]⟩
/-- `glmc_vec4_stepr`: src/vec4.c:427-431 -/
def f_glmc_vec4_stepr : Fn := ⟨[],
  [.call 131 [⟨0, 0, []⟩, ⟨1, 0, []⟩]]⟩
/-- `glmc_vec4_hadd`: src/vec4.c:433-437 -/
def f_glmc_vec4_hadd : Fn := ⟨[],
  [.call 132 [⟨0, 0, []⟩]]⟩
/-- `glmc_vec4_sqrt`: src/vec4.c:439-443 -/
def f_glmc_vec4_sqrt : Fn := ⟨[],
  [.call 133 [⟨0, 0, []⟩, ⟨1, 0, []⟩]]⟩
/-- `glmc_vec4_make`: src/vec4.c:445-449 -/
def f_glmc_vec4_make : Fn := ⟨[],
  [.call 186 [⟨0, 0, []⟩, ⟨1, 0, []⟩]]⟩
/-- `glmc_vec4_reflect`: src/vec4.c:451-455 -/
def f_glmc_vec4_reflect : Fn := ⟨[],
  [.call 187 [⟨0, 0, []⟩, ⟨1, 0, []⟩, ⟨2, 0, []⟩]]⟩
/-- `glmc_vec4_refract`: src/vec4.c:457-461 -/
def f_glmc_vec4_refract : Fn := ⟨[],
  [.call 188 [⟨0, 0, []⟩, ⟨1, 0, []⟩, ⟨2, 0, []⟩]]⟩
/-- `glmc_ortho_lh_no`: src/clipspace/ortho_lh_no.c:11-21 -/
def f_glmc_ortho_lh_no : Fn := ⟨[],
  [.call 531 [⟨0, 0, []⟩]]⟩
/-- `glmc_ortho_aabb_lh_no`: src/clipspace/ortho_lh_no.c:23-27 -/
def f_glmc_ortho_aabb_lh_no : Fn := ⟨[],
  [.call 532 [⟨0, 0, []⟩, ⟨1, 0, []⟩]]⟩
/-- `glmc_ortho_aabb_p_lh_no`: src/clipspace/ortho_lh_no.c:29-33 -/
def f_glmc_ortho_aabb_p_lh_no : Fn := ⟨[],
  [.call 533 [⟨0, 0, []⟩, ⟨1, 0, []⟩]]⟩
/-- `glmc_ortho_aabb_pz_lh_no`: src/clipspace/ortho_lh_no.c:35-39 -/
def f_glmc_ortho_aabb_pz_lh_no : Fn := ⟨[],
  [.call 534 [⟨0, 0, []⟩, ⟨1, 0, []⟩]]⟩
/-- `glmc_ortho_default_lh_no`: src/clipspace/ortho_lh_no.c:41-45 -/
def f_glmc_ortho_default_lh_no : Fn := ⟨[],
  [.call 535 [⟨0, 0, []⟩]]⟩
/-- `glmc_ortho_default_s_lh_no`: src/clipspace/ortho_lh_no.c:47-51 -/
def f_glmc_ortho_default_s_lh_no : Fn := ⟨[],
  [.call 536 [⟨0, 0, []⟩]]⟩
/-- `glmc_ortho_lh_zo`: src/clipspace/ortho_lh_zo.c:11-21 -/
def f_glmc_ortho_lh_zo : Fn := ⟨[],
  [.call 510 [⟨0, 0, []⟩]]⟩
/-- `glmc_ortho_aabb_lh_zo`: src/clipspace/ortho_lh_zo.c:23-27 -/
def f_glmc_ortho_aabb_lh_zo : Fn := ⟨[],
  [.call 511 [⟨0, 0, []⟩, ⟨1, 0, []⟩]]⟩
/-- `glmc_ortho_aabb_p_lh_zo`: src/clipspace/ortho_lh_zo.c:29-33 -/
def f_glmc_ortho_aabb_p_lh_zo : Fn := ⟨[],
  [.call 512 [⟨0, 0, []⟩, ⟨1, 0, []⟩]]⟩
/-- `glmc_ortho_aabb_pz_lh_zo`: src/clipspace/ortho_lh_zo.c:35-39 -/
def f_glmc_ortho_aabb_pz_lh_zo : Fn := ⟨[],
  [.call 513 [⟨0, 0, []⟩, ⟨1, 0, []⟩]]⟩
/-- `glmc_ortho_default_lh_zo`: src/clipspace/ortho_lh_zo.c:41-45 -/
def f_glmc_ortho_default_lh_zo : Fn := ⟨[],
  [.call 514 [⟨0, 0, []⟩]]⟩
/-- `glmc_ortho_default_s_lh_zo`: src/clipspace/ortho_lh_zo.c:47-51 -/
def f_glmc_ortho_default_s_lh_zo : Fn := ⟨[],
  [.call 515 [⟨0, 0, []⟩]]⟩
/-- `glmc_ortho_rh_no`: src/clipspace/ortho_rh_no.c:11-21 -/
def f_glmc_ortho_rh_no : Fn := ⟨[],
  [.call 573 [⟨0, 0, []⟩]]⟩
/-- `glmc_ortho_aabb_rh_no`: src/clipspace/ortho_rh_no.c:23-27 -/
def f_glmc_ortho_aabb_rh_no : Fn := ⟨[],
  [.call 574 [⟨0, 0, []⟩, ⟨1, 0, []⟩]]⟩
/-- `glmc_ortho_aabb_p_rh_no`: src/clipspace/ortho_rh_no.c:29-33 -/
def f_glmc_ortho_aabb_p_rh_no : Fn := ⟨[],
  [.call 575 [⟨0, 0, []⟩, ⟨1, 0, []⟩]]⟩
/-- `glmc_ortho_aabb_pz_rh_no`: src/clipspace/ortho_rh_no.c:35-39 -/
def f_glmc_ortho_aabb_pz_rh_no : Fn := ⟨[],
  [.call 576 [⟨0, 0, []⟩, ⟨1, 0, []⟩]]⟩
/-- `glmc_ortho_default_rh_no`: src/clipspace/ortho_rh_no.c:41-45 -/
def f_glmc_ortho_default_rh_no : Fn := ⟨[],
  [.call 577 [⟨0, 0, []⟩]]⟩
/-- `glmc_ortho_default_s_rh_no`: src/clipspace/ortho_rh_no.c:47-51 -/
def f_glmc_ortho_default_s_rh_no : Fn := ⟨[],
  [.call 578 [⟨0, 0, []⟩]]⟩
/-- `glmc_ortho_rh_zo`: src/clipspace/ortho_rh_zo.c:11-21 -/
def f_glmc_ortho_rh_zo : Fn := ⟨[],
  [.call 552 [⟨0, 0, []⟩]]⟩
/-- `glmc_ortho_aabb_rh_zo`: src/clipspace/ortho_rh_zo.c:23-27 -/
def f_glmc_ortho_aabb_rh_zo : Fn := ⟨[],
  [.call 553 [⟨0, 0, []⟩, ⟨1, 0, []⟩]]⟩
/-- `glmc_ortho_aabb_p_rh_zo`: src/clipspace/ortho_rh_zo.c:29-33 -/
def f_glmc_ortho_aabb_p_rh_zo : Fn := ⟨[],
  [.call 554 [⟨0, 0, []⟩, ⟨1, 0, []⟩]]⟩
/-- `glmc_ortho_aabb_pz_rh_zo`: src/clipspace/ortho_rh_zo.c:35-39 -/
def f_glmc_ortho_aabb_pz_rh_zo : Fn := ⟨[],
  [.call 555 [⟨0, 0, []⟩, ⟨1, 0, []⟩]]⟩
/-- `glmc_ortho_default_rh_zo`: src/clipspace/ortho_rh_zo.c:41-45 -/
def f_glmc_ortho_default_rh_zo : Fn := ⟨[],
  [.call 556 [⟨0, 0, []⟩]]⟩
/-- `glmc_ortho_default_s_rh_zo`: src/clipspace/ortho_rh_zo.c:47-51 -/
def f_glmc_ortho_default_s_rh_zo : Fn := ⟨[],
  [.call 557 [⟨0, 0, []⟩]]⟩
/-- `glmc_frustum_lh_no`: src/clipspace/persp_lh_no.c:11-21 -/
def f_glmc_frustum_lh_no : Fn := ⟨[],
  [.call 537 [⟨0, 0, []⟩]]⟩
/-- `glmc_perspective_lh_no`: src/clipspace/persp_lh_no.c:23-35 -/
def f_glmc_perspective_lh_no : Fn := ⟨[],
  [.call 538 [⟨0, 0, []⟩]]⟩
/-- `glmc_persp_move_far_lh_no`: src/clipspace/persp_lh_no.c:37-41 -/
def f_glmc_persp_move_far_lh_no : Fn := ⟨[],
  [.call 541 [⟨0, 0, []⟩]]⟩
/-- `glmc_persp_decomp_lh_no`: src/clipspace/persp_lh_no.c:43-50 -/
def f_glmc_persp_decomp_lh_no : Fn := ⟨[],
  [.call 542 [⟨0, 0, []⟩, ⟨1, 0, []⟩, ⟨2, 0, []⟩, ⟨3, 0, []⟩, ⟨4, 0, []⟩, ⟨5, 0, []⟩, ⟨6, 0, []⟩]]⟩
/-- `glmc_persp_decompv_lh_no`: src/clipspace/persp_lh_no.c:52-56 -/
def f_glmc_persp_decompv_lh_no : Fn := ⟨[],
  [.call 543 [⟨0, 0, []⟩, ⟨1, 0, []⟩]]⟩
/-- `glmc_persp_decomp_x_lh_no`: src/clipspace/persp_lh_no.c:58-64 -/
def f_glmc_persp_decomp_x_lh_no : Fn := ⟨[],
  [.call 544 [⟨0, 0, []⟩, ⟨1, 0, []⟩, ⟨2, 0, []⟩]]⟩
/-- `glmc_persp_decomp_y_lh_no`: src/clipspace/persp_lh_no.c:66-72 -/
def f_glmc_persp_decomp_y_lh_no : Fn := ⟨[],
  [.call 545 [⟨0, 0, []⟩, ⟨1, 0, []⟩, ⟨2, 0, []⟩]]⟩
/-- `glmc_persp_decomp_z_lh_no`: src/clipspace/persp_lh_no.c:74-80 -/
def f_glmc_persp_decomp_z_lh_no : Fn := ⟨[],
  [.call 546 [⟨0, 0, []⟩, ⟨1, 0, []⟩, ⟨2, 0, []⟩]]⟩
/-- `glmc_persp_decomp_far_lh_no`: src/clipspace/persp_lh_no.c:82-86 -/
def f_glmc_persp_decomp_far_lh_no : Fn := ⟨[],
  [.call 547 [⟨0, 0, []⟩, ⟨1, 0, []⟩]]⟩
/-- `glmc_persp_decomp_near_lh_no`: src/clipspace/persp_lh_no.c:88-92 -/
def f_glmc_persp_decomp_near_lh_no : Fn := ⟨[],
  [.call 548 [⟨0, 0, []⟩, ⟨1, 0, []⟩]]⟩
/-- `glmc_persp_sizes_lh_no`: src/clipspace/persp_lh_no.c:94-98 -/
def f_glmc_persp_sizes_lh_no : Fn := ⟨[],
  [.call 549 [⟨0, 0, []⟩, ⟨1, 0, []⟩]]⟩
/-- `glmc_persp_fovy_lh_no`: src/clipspace/persp_lh_no.c:100-104 -/
def f_glmc_persp_fovy_lh_no : Fn := ⟨[],
  [.call 550 [⟨0, 0, []⟩]]⟩
/-- `glmc_persp_aspect_lh_no`: src/clipspace/persp_lh_no.c:106-110 -/
def f_glmc_persp_aspect_lh_no : Fn := ⟨[],
  [.call 551 [⟨0, 0, []⟩]]⟩
/-- `glmc_frustum_lh_zo`: src/clipspace/persp_lh_zo.c:11-21 -/
def f_glmc_frustum_lh_zo : Fn := ⟨[],
  [.call 516 [⟨0, 0, []⟩]]⟩
/-- `glmc_perspective_lh_zo`: src/clipspace/persp_lh_zo.c:23-35 -/
def f_glmc_perspective_lh_zo : Fn := ⟨[],
  [.call 517 [⟨0, 0, []⟩]]⟩
/-- `glmc_persp_move_far_lh_zo`: src/clipspace/persp_lh_zo.c:37-41 -/
def f_glmc_persp_move_far_lh_zo : Fn := ⟨[],
  [.call 518 [⟨0, 0, []⟩]]⟩
/-- `glmc_persp_decomp_lh_zo`: src/clipspace/persp_lh_zo.c:43-50 -/
def f_glmc_persp_decomp_lh_zo : Fn := ⟨[],
  [.call 521 [⟨0, 0, []⟩, ⟨1, 0, []⟩, ⟨2, 0, []⟩, ⟨3, 0, []⟩, ⟨4, 0, []⟩, ⟨5, 0, []⟩, ⟨6, 0, []⟩]]⟩
/-- `glmc_persp_decompv_lh_zo`: src/clipspace/persp_lh_zo.c:52-56 -/
def f_glmc_persp_decompv_lh_zo : Fn := ⟨[],
  [.call 522 [⟨0, 0, []⟩, ⟨1, 0, []⟩]]⟩
/-- `glmc_persp_decomp_x_lh_zo`: src/clipspace/persp_lh_zo.c:58-64 -/
def f_glmc_persp_decomp_x_lh_zo : Fn := ⟨[],
  [.call 523 [⟨0, 0, []⟩, ⟨1, 0, []⟩, ⟨2, 0, []⟩]]⟩
/-- `glmc_persp_decomp_y_lh_zo`: src/clipspace/persp_lh_zo.c:66-72 -/
def f_glmc_persp_decomp_y_lh_zo : Fn := ⟨[],
  [.call 524 [⟨0, 0, []⟩, ⟨1, 0, []⟩, ⟨2, 0, []⟩]]⟩
/-- `glmc_persp_decomp_z_lh_zo`: src/clipspace/persp_lh_zo.c:74-80 -/
def f_glmc_persp_decomp_z_lh_zo : Fn := ⟨[],
  [.call 525 [⟨0, 0, []⟩, ⟨1, 0, []⟩, ⟨2, 0, []⟩]]⟩
/-- `glmc_persp_decomp_far_lh_zo`: src/clipspace/persp_lh_zo.c:82-86 -/
def f_glmc_persp_decomp_far_lh_zo : Fn := ⟨[],
  [.call 526 [⟨0, 0, []⟩, ⟨1, 0, []⟩]]⟩
/-- `glmc_persp_decomp_near_lh_zo`: src/clipspace/persp_lh_zo.c:88-92 -/
def f_glmc_persp_decomp_near_lh_zo : Fn := ⟨[],
  [.call 527 [⟨0, 0, []⟩, ⟨1, 0, []⟩]]⟩
/-- `glmc_persp_sizes_lh_zo`: src/clipspace/persp_lh_zo.c:94-98 -/
def f_glmc_persp_sizes_lh_zo : Fn := ⟨[],
  [.call 528 [⟨0, 0, []⟩, ⟨1, 0, []⟩]]⟩
/-- `glmc_persp_fovy_lh_zo`: src/clipspace/persp_lh_zo.c:100-104 -/
def f_glmc_persp_fovy_lh_zo : Fn := ⟨[],
  [.call 529 [⟨0, 0, []⟩]]⟩
/-- `glmc_persp_aspect_lh_zo`: src/clipspace/persp_lh_zo.c:106-110 -/
def f_glmc_persp_aspect_lh_zo : Fn := ⟨[],
  [.call 530 [⟨0, 0, []⟩]]⟩
/-- `glmc_frustum_rh_no`: src/clipspace/persp_rh_no.c:11-21 -/
def f_glmc_frustum_rh_no : Fn := ⟨[],
  [.call 579 [⟨0, 0, []⟩]]⟩
/-- `glmc_perspective_rh_no`: src/clipspace/persp_rh_no.c:23-35 -/
def f_glmc_perspective_rh_no : Fn := ⟨[],
  [.call 580 [⟨0, 0, []⟩]]⟩
/-- `glmc_persp_move_far_rh_no`: src/clipspace/persp_rh_no.c:37-41 -/
def f_glmc_persp_move_far_rh_no : Fn := ⟨[],
  [.call 583 [⟨0, 0, []⟩]]⟩
/-- `glmc_persp_decomp_rh_no`: src/clipspace/persp_rh_no.c:43-50 -/
def f_glmc_persp_decomp_rh_no : Fn := ⟨[],
  [.call 584 [⟨0, 0, []⟩, ⟨1, 0, []⟩, ⟨2, 0, []⟩, ⟨3, 0, []⟩, ⟨4, 0, []⟩, ⟨5, 0, []⟩, ⟨6, 0, []⟩]]⟩
/-- `glmc_persp_decompv_rh_no`: src/clipspace/persp_rh_no.c:52-56 -/
def f_glmc_persp_decompv_rh_no : Fn := ⟨[],
  [.call 585 [⟨0, 0, []⟩, ⟨1, 0, []⟩]]⟩
/-- `glmc_persp_decomp_x_rh_no`: src/clipspace/persp_rh_no.c:58-64 -/
def f_glmc_persp_decomp_x_rh_no : Fn := ⟨[],
  [.call 586 [⟨0, 0, []⟩, ⟨1, 0, []⟩, ⟨2, 0, []⟩]]⟩
/-- `glmc_persp_decomp_y_rh_no`: src/clipspace/persp_rh_no.c:66-72 -/
def f_glmc_persp_decomp_y_rh_no : Fn := ⟨[],
  [.call 587 [⟨0, 0, []⟩, ⟨1, 0, []⟩, ⟨2, 0, []⟩]]⟩
/-- `glmc_persp_decomp_z_rh_no`: src/clipspace/persp_rh_no.c:74-80 -/
def f_glmc_persp_decomp_z_rh_no : Fn := ⟨[],
  [.call 588 [⟨0, 0, []⟩, ⟨1, 0, []⟩, ⟨2, 0, []⟩]]⟩
/-- `glmc_persp_decomp_far_rh_no`: src/clipspace/persp_rh_no.c:82-86 -/
def f_glmc_persp_decomp_far_rh_no : Fn := ⟨[],
  [.call 589 [⟨0, 0, []⟩, ⟨1, 0, []⟩]]⟩
/-- `glmc_persp_decomp_near_rh_no`: src/clipspace/persp_rh_no.c:88-92 -/
def f_glmc_persp_decomp_near_rh_no : Fn := ⟨[],
  [.call 590 [⟨0, 0, []⟩, ⟨1, 0, []⟩]]⟩
/-- `glmc_persp_sizes_rh_no`: src/clipspace/persp_rh_no.c:94-98 -/
def f_glmc_persp_sizes_rh_no : Fn := ⟨[],
  [.call 591 [⟨0, 0, []⟩, ⟨1, 0, []⟩]]⟩
/-- `glmc_persp_fovy_rh_no`: src/clipspace/persp_rh_no.c:100-104 -/
def f_glmc_persp_fovy_rh_no : Fn := ⟨[],
  [.call 592 [⟨0, 0, []⟩]]⟩
/-- `glmc_persp_aspect_rh_no`: src/clipspace/persp_rh_no.c:106-110 -/
def f_glmc_persp_aspect_rh_no : Fn := ⟨[],
  [.call 593 [⟨0, 0, []⟩]]⟩
/-- `glmc_frustum_rh_zo`: src/clipspace/persp_rh_zo.c:11-21 -/
def f_glmc_frustum_rh_zo : Fn := ⟨[],
  [.call 558 [⟨0, 0, []⟩]]⟩
/-- `glmc_perspective_rh_zo`: src/clipspace/persp_rh_zo.c:23-35 -/
def f_glmc_perspective_rh_zo : Fn := ⟨[],
  [.call 559 [⟨0, 0, []⟩]]⟩
/-- `glmc_persp_move_far_rh_zo`: src/clipspace/persp_rh_zo.c:37-41 -/
def f_glmc_persp_move_far_rh_zo : Fn := ⟨[],
  [.call 562 [⟨0, 0, []⟩]]⟩
/-- `glmc_persp_decomp_rh_zo`: src/clipspace/persp_rh_zo.c:43-50 -/
def f_glmc_persp_decomp_rh_zo : Fn := ⟨[],
  [.call 563 [⟨0, 0, []⟩, ⟨1, 0, []⟩, ⟨2, 0, []⟩, ⟨3, 0, []⟩, ⟨4, 0, []⟩, ⟨5, 0, []⟩, ⟨6, 0, []⟩]]⟩
/-- `glmc_persp_decompv_rh_zo`: src/clipspace/persp_rh_zo.c:52-56 -/
def f_glmc_persp_decompv_rh_zo : Fn := ⟨[],
  [.call 564 [⟨0, 0, []⟩, ⟨1, 0, []⟩]]⟩
/-- `glmc_persp_decomp_x_rh_zo`: src/clipspace/persp_rh_zo.c:58-64 -/
def f_glmc_persp_decomp_x_rh_zo : Fn := ⟨[],
  [.call 565 [⟨0, 0, []⟩, ⟨1, 0, []⟩, ⟨2, 0, []⟩]]⟩
/-- `glmc_persp_decomp_y_rh_zo`: src/clipspace/persp_rh_zo.c:66-72 -/
def f_glmc_persp_decomp_y_rh_zo : Fn := ⟨[],
  [.call 566 [⟨0, 0, []⟩, ⟨1, 0, []⟩, ⟨2, 0, []⟩]]⟩
/-- `glmc_persp_decomp_z_rh_zo`: src/clipspace/persp_rh_zo.c:74-80 -/
def f_glmc_persp_decomp_z_rh_zo : Fn := ⟨[],
  [.call 567 [⟨0, 0, []⟩, ⟨1, 0, []⟩, ⟨2, 0, []⟩]]⟩
/-- `glmc_persp_decomp_far_rh_zo`: src/clipspace/persp_rh_zo.c:82-86 -/
def f_glmc_persp_decomp_far_rh_zo : Fn := ⟨[],
  [.call 568 [⟨0, 0, []⟩, ⟨1, 0, []⟩]]⟩
/-- `glmc_persp_decomp_near_rh_zo`: src/clipspace/persp_rh_zo.c:88-92 -/
def f_glmc_persp_decomp_near_rh_zo : Fn := ⟨[],
  [.call 569 [⟨0, 0, []⟩, ⟨1, 0, []⟩]]⟩
/-- `glmc_persp_sizes_rh_zo`: src/clipspace/persp_rh_zo.c:94-98 -/
def f_glmc_persp_sizes_rh_zo : Fn := ⟨[],
  [.call 570 [⟨0, 0, []⟩, ⟨1, 0, []⟩]]⟩
/-- `glmc_persp_fovy_rh_zo`: src/clipspace/persp_rh_zo.c:100-104 -/
def f_glmc_persp_fovy_rh_zo : Fn := ⟨[],
  [.call 571 [⟨0, 0, []⟩]]⟩
/-- `glmc_persp_aspect_rh_zo`: src/clipspace/persp_rh_zo.c:106-110 -/
def f_glmc_persp_aspect_rh_zo : Fn := ⟨[],
  [.call 572 [⟨0, 0, []⟩]]⟩
/-- `glmc_unprojecti_no`: src/clipspace/project_no.c:11-15 -/
def f_glmc_unprojecti_no : Fn := ⟨[],
  [.call 737 [⟨0, 0, []⟩, ⟨1, 0, []⟩, ⟨2, 0, []⟩, ⟨3, 0, []⟩]]⟩
/-- `glmc_project_no`: src/clipspace/project_no.c:17-21 -/
def f_glmc_project_no : Fn := ⟨[],
  [.call 738 [⟨0, 0, []⟩, ⟨1, 0, []⟩, ⟨2, 0, []⟩, ⟨3, 0, []⟩]]⟩
/-- `glmc_project_z_no`: src/clipspace/project_no.c:23-27 -/
def f_glmc_project_z_no : Fn := ⟨[],
  [.call 739 [⟨0, 0, []⟩, ⟨1, 0, []⟩]]⟩
/-- `glmc_unprojecti_zo`: src/clipspace/project_zo.c:11-15 -/
def f_glmc_unprojecti_zo : Fn := ⟨[],
  [.call 734 [⟨0, 0, []⟩, ⟨1, 0, []⟩, ⟨2, 0, []⟩, ⟨3, 0, []⟩]]⟩
/-- `glmc_project_zo`: src/clipspace/project_zo.c:17-21 -/
def f_glmc_project_zo : Fn := ⟨[],
  [.call 735 [⟨0, 0, []⟩, ⟨1, 0, []⟩, ⟨2, 0, []⟩, ⟨3, 0, []⟩]]⟩
/-- `glmc_project_z_zo`: src/clipspace/project_zo.c:23-27 -/
def f_glmc_project_z_zo : Fn := ⟨[],
  [.call 736 [⟨0, 0, []⟩, ⟨1, 0, []⟩]]⟩
/-- `glmc_lookat_lh_no`: src/clipspace/view_lh_no.c:11-15 -/
def f_glmc_lookat_lh_no : Fn := ⟨[],
  [.call 600 [⟨0, 0, []⟩, ⟨1, 0, []⟩, ⟨2, 0, []⟩, ⟨3, 0, []⟩]]⟩
/-- `glmc_look_lh_no`: src/clipspace/view_lh_no.c:17-21 -/
def f_glmc_look_lh_no : Fn := ⟨[],
  [.call 601 [⟨0, 0, []⟩, ⟨1, 0, []⟩, ⟨2, 0, []⟩, ⟨3, 0, []⟩]]⟩
/-- `glmc_look_anyup_lh_no`: src/clipspace/view_lh_no.c:23-27 -/
def f_glmc_look_anyup_lh_no : Fn := ⟨[],
  [.call 602 [⟨0, 0, []⟩, ⟨1, 0, []⟩, ⟨2, 0, []⟩]]⟩
/-- `glmc_lookat_lh_zo`: src/clipspace/view_lh_zo.c:11-15 -/
def f_glmc_lookat_lh_zo : Fn := ⟨[],
  [.call 597 [⟨0, 0, []⟩, ⟨1, 0, []⟩, ⟨2, 0, []⟩, ⟨3, 0, []⟩]]⟩
/-- `glmc_look_lh_zo`: src/clipspace/view_lh_zo.c:17-21 -/
def f_glmc_look_lh_zo : Fn := ⟨[],
  [.call 598 [⟨0, 0, []⟩, ⟨1, 0, []⟩, ⟨2, 0, []⟩, ⟨3, 0, []⟩]]⟩
/-- `glmc_look_anyup_lh_zo`: src/clipspace/view_lh_zo.c:23-27 -/
def f_glmc_look_anyup_lh_zo : Fn := ⟨[],
  [.call 599 [⟨0, 0, []⟩, ⟨1, 0, []⟩, ⟨2, 0, []⟩]]⟩
/-- `glmc_lookat_rh_no`: src/clipspace/view_rh_no.c:11-15 -/
def f_glmc_lookat_rh_no : Fn := ⟨[],
  [.call 609 [⟨0, 0, []⟩, ⟨1, 0, []⟩, ⟨2, 0, []⟩, ⟨3, 0, []⟩]]⟩
/-- `glmc_look_rh_no`: src/clipspace/view_rh_no.c:17-21 -/
def f_glmc_look_rh_no : Fn := ⟨[],
  [.call 610 [⟨0, 0, []⟩, ⟨1, 0, []⟩, ⟨2, 0, []⟩, ⟨3, 0, []⟩]]⟩
/-- `glmc_look_anyup_rh_no`: src/clipspace/view_rh_no.c:23-27 -/
def f_glmc_look_anyup_rh_no : Fn := ⟨[],
  [.call 611 [⟨0, 0, []⟩, ⟨1, 0, []⟩, ⟨2, 0, []⟩]]⟩
/-- `glmc_lookat_rh_zo`: src/clipspace/view_rh_zo.c:11-15 -/
def f_glmc_lookat_rh_zo : Fn := ⟨[],
  [.call 606 [⟨0, 0, []⟩, ⟨1, 0, []⟩, ⟨2, 0, []⟩, ⟨3, 0, []⟩]]⟩
/-- `glmc_look_rh_zo`: src/clipspace/view_rh_zo.c:17-21 -/
def f_glmc_look_rh_zo : Fn := ⟨[],
  [.call 607 [⟨0, 0, []⟩, ⟨1, 0, []⟩, ⟨2, 0, []⟩, ⟨3, 0, []⟩]]⟩
/-- `glmc_look_anyup_rh_zo`: src/clipspace/view_rh_zo.c:23-27 -/
def f_glmc_look_anyup_rh_zo : Fn := ⟨[],
  [.call 608 [⟨0, 0, []⟩, ⟨1, 0, []⟩, ⟨2, 0, []⟩]]⟩

end Cglm.Acc
