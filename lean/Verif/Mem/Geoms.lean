/- Generated by tools/memgen.py, joined by tools/merge.py; do not edit by hand. -/
import Verif.CMem
import Verif.Mem.Vecs
import Verif.Mem.Mats

section Aabb2d

/- Generated from include/cglm/aabb2d.h by tools/memgen.py (memory semantics); do not edit by hand. -/

set_option maxRecDepth 10000

namespace Cglm.C
open CMem

/-- `glm_aabb2d_zero`: include/cglm/aabb2d.h:23-28. -/
def glm_aabb2d_zero : Fn where
  locals := []
  nregs := 0
  body := 
    .seq (.call none glm_vec2_zero.locals glm_vec2_zero.nregs glm_vec2_zero.body [.reg 0]) <|
    .call none glm_vec2_zero.locals glm_vec2_zero.nregs glm_vec2_zero.body [.off (.reg 0) 2]

/-- `glm_aabb2d_copy`: include/cglm/aabb2d.h:36-41. -/
def glm_aabb2d_copy : Fn where
  locals := []
  nregs := 0
  body := 
    .seq (.call none glm_vec2_copy.locals glm_vec2_copy.nregs glm_vec2_copy.body [.reg 0, .reg 1]) <|
    .call none glm_vec2_copy.locals glm_vec2_copy.nregs glm_vec2_copy.body [.off (.reg 0) 2, .off (.reg 1) 2]

/-- `glm_aabb2d_transform`: include/cglm/aabb2d.h:50-73. -/
def glm_aabb2d_transform : Fn where
  locals := [4, 2, 2, 2, 2]
  nregs := 0
  body := 
    .seq (.call none glm_vec2_scale.locals glm_vec2_scale.nregs glm_vec2_scale.body [.reg 1, .load (.reg 0), .loc 1]) <|
    .seq (.call none glm_vec2_scale.locals glm_vec2_scale.nregs glm_vec2_scale.body [.reg 1, .load (.off (.reg 0) 2), .loc 2]) <|
    .seq (.call none glm_vec2_scale.locals glm_vec2_scale.nregs glm_vec2_scale.body [.off (.reg 1) 3, .load (.off (.reg 0) 1), .loc 3]) <|
    .seq (.call none glm_vec2_scale.locals glm_vec2_scale.nregs glm_vec2_scale.body [.off (.reg 1) 3, .load (.off (.reg 0) 3), .loc 4]) <|
    .seq (.call none glm_vec2.locals glm_vec2.nregs glm_vec2.body [.off (.reg 1) 6, .loc 0]) <|
    .seq (.call none glm_vec2_minadd.locals glm_vec2_minadd.nregs glm_vec2_minadd.body [.loc 1, .loc 2, .loc 0]) <|
    .seq (.call none glm_vec2_minadd.locals glm_vec2_minadd.nregs glm_vec2_minadd.body [.loc 3, .loc 4, .loc 0]) <|
    .seq (.call none glm_vec2.locals glm_vec2.nregs glm_vec2.body [.off (.reg 1) 6, .off (.loc 0) 2]) <|
    .seq (.call none glm_vec2_maxadd.locals glm_vec2_maxadd.nregs glm_vec2_maxadd.body [.loc 1, .loc 2, .off (.loc 0) 2]) <|
    .seq (.call none glm_vec2_maxadd.locals glm_vec2_maxadd.nregs glm_vec2_maxadd.body [.loc 3, .loc 4, .off (.loc 0) 2]) <|
    .seq (.call none glm_vec2_copy.locals glm_vec2_copy.nregs glm_vec2_copy.body [.loc 0, .reg 2]) <|
    .call none glm_vec2_copy.locals glm_vec2_copy.nregs glm_vec2_copy.body [.off (.loc 0) 2, .off (.reg 2) 2]

/-- `glm_aabb2d_merge`: include/cglm/aabb2d.h:85-93. -/
def glm_aabb2d_merge : Fn where
  locals := []
  nregs := 4
  body := 
    .seq (.call (some 3) glm_min.locals glm_min.nregs glm_min.body [.load (.reg 0), .load (.reg 1)]) <|
    .seq (.store (.reg 2) (.reg 3)) <|
    .seq (.call (some 4) glm_min.locals glm_min.nregs glm_min.body [.load (.off (.reg 0) 1), .load (.off (.reg 1) 1)]) <|
    .seq (.store (.off (.reg 2) 1) (.reg 4)) <|
    .seq (.call (some 5) glm_max.locals glm_max.nregs glm_max.body [.load (.off (.reg 0) 2), .load (.off (.reg 1) 2)]) <|
    .seq (.store (.off (.reg 2) 2) (.reg 5)) <|
    .seq (.call (some 6) glm_max.locals glm_max.nregs glm_max.body [.load (.off (.reg 0) 3), .load (.off (.reg 1) 3)]) <|
    .store (.off (.reg 2) 3) (.reg 6)

/-- `glm_aabb2d_crop`: include/cglm/aabb2d.h:106-114. -/
def glm_aabb2d_crop : Fn where
  locals := []
  nregs := 4
  body := 
    .seq (.call (some 3) glm_max.locals glm_max.nregs glm_max.body [.load (.reg 0), .load (.reg 1)]) <|
    .seq (.store (.reg 2) (.reg 3)) <|
    .seq (.call (some 4) glm_max.locals glm_max.nregs glm_max.body [.load (.off (.reg 0) 1), .load (.off (.reg 1) 1)]) <|
    .seq (.store (.off (.reg 2) 1) (.reg 4)) <|
    .seq (.call (some 5) glm_min.locals glm_min.nregs glm_min.body [.load (.off (.reg 0) 2), .load (.off (.reg 1) 2)]) <|
    .seq (.store (.off (.reg 2) 2) (.reg 5)) <|
    .seq (.call (some 6) glm_min.locals glm_min.nregs glm_min.body [.load (.off (.reg 0) 3), .load (.off (.reg 1) 3)]) <|
    .store (.off (.reg 2) 3) (.reg 6)

/-- `glm_aabb2d_crop_until`: include/cglm/aabb2d.h:128-136. -/
def glm_aabb2d_crop_until : Fn where
  locals := []
  nregs := 0
  body := 
    .seq (.call none glm_aabb2d_crop.locals glm_aabb2d_crop.nregs glm_aabb2d_crop.body [.reg 0, .reg 1, .reg 3]) <|
    .call none glm_aabb2d_merge.locals glm_aabb2d_merge.nregs glm_aabb2d_merge.body [.reg 2, .reg 3, .reg 3]

/-- `glm_aabb2d_invalidate`: include/cglm/aabb2d.h:143-148. -/
def glm_aabb2d_invalidate : Fn where
  locals := []
  nregs := 0
  body := 
    .seq (.call none glm_vec2_fill.locals glm_vec2_fill.nregs glm_vec2_fill.body [.reg 0, .flit 340282346638528859811704183484516925440]) <|
    .call none glm_vec2_fill.locals glm_vec2_fill.nregs glm_vec2_fill.body [.off (.reg 0) 2, .f1 .neg (.flit 340282346638528859811704183484516925440)]

/-- `glm_aabb2d_isvalid`: include/cglm/aabb2d.h:155-160.  Simplified: the right operand of `&&`/`||` is always evaluated. -/
def glm_aabb2d_isvalid : Fn where
  locals := []
  nregs := 2
  body := 
    .seq (.call (some 1) glm_vec2_max.locals glm_vec2_max.nregs glm_vec2_max.body [.reg 0]) <|
    .seq (.call (some 2) glm_vec2_min.locals glm_vec2_min.nregs glm_vec2_min.body [.off (.reg 0) 2]) <|
    .ret (.and (.not (.fc .eq (.reg 1) (.flit 340282346638528859811704183484516925440))) (.not (.fc .eq (.reg 2) (.f1 .neg (.flit 340282346638528859811704183484516925440)))))

/-- `glm_aabb2d_diag`: include/cglm/aabb2d.h:167-171. -/
def glm_aabb2d_diag : Fn where
  locals := []
  nregs := 1
  body := 
    .seq (.call (some 1) glm_vec2_distance.locals glm_vec2_distance.nregs glm_vec2_distance.body [.reg 0, .off (.reg 0) 2]) <|
    .ret (.reg 1)

/-- `glm_aabb2d_sizev`: include/cglm/aabb2d.h:179-183. -/
def glm_aabb2d_sizev : Fn where
  locals := []
  nregs := 0
  body := .call none glm_vec2_sub.locals glm_vec2_sub.nregs glm_vec2_sub.body [.off (.reg 0) 2, .reg 0, .reg 1]

/-- `glm_aabb2d_radius`: include/cglm/aabb2d.h:190-194. -/
def glm_aabb2d_radius : Fn where
  locals := []
  nregs := 1
  body := 
    .seq (.call (some 1) glm_aabb2d_diag.locals glm_aabb2d_diag.nregs glm_aabb2d_diag.body [.reg 0]) <|
    .ret (.f2 .mul (.reg 1) (.flit 0.5))

/-- `glm_aabb2d_center`: include/cglm/aabb2d.h:202-206. -/
def glm_aabb2d_center : Fn where
  locals := []
  nregs := 0
  body := .call none glm_vec2_center.locals glm_vec2_center.nregs glm_vec2_center.body [.reg 0, .off (.reg 0) 2, .reg 1]

/-- `glm_aabb2d_aabb`: include/cglm/aabb2d.h:214-219. -/
def glm_aabb2d_aabb : Fn where
  locals := []
  nregs := 0
  body := .ret (.and (.and (.fc .le (.load (.reg 0)) (.load (.off (.reg 1) 2))) (.fc .le (.load (.reg 1)) (.load (.off (.reg 0) 2)))) (.and (.fc .le (.load (.off (.reg 0) 1)) (.load (.off (.reg 1) 3))) (.fc .le (.load (.off (.reg 1) 1)) (.load (.off (.reg 0) 3)))))

/-- `glm_aabb2d_circle`: include/cglm/aabb2d.h:229-242. -/
def glm_aabb2d_circle : Fn where
  locals := []
  nregs := 6
  body := 
    .seq (.set 3 (.i2 .add (.b2i (.fc .lt (.load (.reg 1)) (.load (.reg 0)))) (.b2i (.fc .lt (.load (.off (.reg 0) 2)) (.load (.reg 1)))))) <|
    .seq (.set 4 (.i2 .add (.b2i (.fc .lt (.load (.off (.reg 1) 1)) (.load (.off (.reg 0) 1)))) (.b2i (.fc .lt (.load (.off (.reg 0) 3)) (.load (.off (.reg 1) 1)))))) <|
    .seq (.call (some 5) glm_pow2.locals glm_pow2.nregs glm_pow2.body [.f2 .mul (.f2 .sub (.load (.reg 1)) (.ite (.not (.ic .ne (.i2 .sub (.reg 3) (.ilit 1)) (.ilit 0))) (.load (.off (.reg 0) 2)) (.load (.reg 0)))) (.ofInt (.b2i (.ic .ne (.reg 3) (.ilit 0))))]) <|
    .seq (.call (some 6) glm_pow2.locals glm_pow2.nregs glm_pow2.body [.f2 .mul (.f2 .sub (.load (.off (.reg 1) 1)) (.ite (.not (.ic .ne (.i2 .sub (.reg 4) (.ilit 1)) (.ilit 0))) (.load (.off (.reg 0) 3)) (.load (.off (.reg 0) 1)))) (.ofInt (.b2i (.ic .ne (.reg 4) (.ilit 0))))]) <|
    .seq (.set 2 (.f2 .add (.reg 5) (.reg 6))) <|
    .seq (.call (some 7) glm_pow2.locals glm_pow2.nregs glm_pow2.body [.load (.off (.reg 1) 2)]) <|
    .ret (.fc .le (.reg 2) (.reg 7))

/-- `glm_aabb2d_point`: include/cglm/aabb2d.h:250-255. -/
def glm_aabb2d_point : Fn where
  locals := []
  nregs := 0
  body := .ret (.and (.and (.fc .le (.load (.reg 0)) (.load (.reg 1))) (.fc .le (.load (.reg 1)) (.load (.off (.reg 0) 2)))) (.and (.fc .le (.load (.off (.reg 0) 1)) (.load (.off (.reg 1) 1))) (.fc .le (.load (.off (.reg 1) 1)) (.load (.off (.reg 0) 3)))))

/-- `glm_aabb2d_contains`: include/cglm/aabb2d.h:263-268. -/
def glm_aabb2d_contains : Fn where
  locals := []
  nregs := 0
  body := .ret (.and (.and (.fc .le (.load (.reg 0)) (.load (.reg 1))) (.fc .le (.load (.off (.reg 1) 2)) (.load (.off (.reg 0) 2)))) (.and (.fc .le (.load (.off (.reg 0) 1)) (.load (.off (.reg 1) 1))) (.fc .le (.load (.off (.reg 1) 3)) (.load (.off (.reg 0) 3)))))

end Cglm.C

end Aabb2d

section Bezier

/- Generated from include/cglm/bezier.h by tools/memgen.py (memory semantics); do not edit by hand. -/

set_option maxRecDepth 10000

namespace Cglm.C
open CMem

/-- `glm_bezier`: include/cglm/bezier.h:48-60. -/
def glm_bezier : Fn where
  locals := []
  nregs := 5
  body := 
    .seq (.set 5 (.f2 .sub (.flit 1) (.reg 0))) <|
    .seq (.set 6 (.f2 .mul (.reg 5) (.reg 5))) <|
    .seq (.set 7 (.f2 .mul (.reg 0) (.reg 0))) <|
    .seq (.set 8 (.f2 .mul (.f2 .sub (.reg 0) (.reg 7)) (.flit 3))) <|
    .seq (.set 9 (.f2 .add (.f2 .mul (.reg 1) (.reg 6)) (.f2 .mul (.reg 2) (.reg 8)))) <|
    .ret (.f2 .add (.reg 9) (.f2 .mul (.reg 0) (.f2 .sub (.f2 .add (.f2 .mul (.reg 3) (.reg 8)) (.f2 .mul (.reg 4) (.reg 7))) (.reg 9))))

/-- `glm_hermite`: include/cglm/bezier.h:82-96. -/
def glm_hermite : Fn where
  locals := []
  nregs := 7
  body := 
    .seq (.set 5 (.f2 .mul (.reg 0) (.reg 0))) <|
    .seq (.set 7 (.f2 .add (.reg 5) (.reg 5))) <|
    .seq (.set 9 (.f2 .add (.reg 7) (.reg 5))) <|
    .seq (.set 8 (.f2 .mul (.reg 7) (.reg 0))) <|
    .seq (.set 6 (.f2 .mul (.reg 0) (.reg 5))) <|
    .seq (.set 11 (.f2 .sub (.reg 6) (.reg 5))) <|
    .seq (.set 10 (.f2 .sub (.reg 8) (.reg 9))) <|
    .ret (.f2 .sub (.f2 .add (.f2 .add (.f2 .mul (.reg 1) (.f2 .add (.reg 10) (.flit 1))) (.f2 .mul (.reg 2) (.f2 .add (.f2 .sub (.reg 11) (.reg 5)) (.reg 0)))) (.f2 .mul (.reg 3) (.reg 11))) (.f2 .mul (.reg 4) (.reg 10)))

end Cglm.C

end Bezier

section Box

/- Generated from include/cglm/box.h by tools/memgen.py (memory semantics); do not edit by hand. -/

set_option maxRecDepth 10000

namespace Cglm.C
open CMem

/-- `glm_aabb_transform`: include/cglm/box.h:23-51. -/
def glm_aabb_transform : Fn where
  locals := [6, 3, 3, 3, 3, 3, 3]
  nregs := 0
  body := 
    .seq (.call none glm_vec3_scale.locals glm_vec3_scale.nregs glm_vec3_scale.body [.reg 1, .load (.reg 0), .loc 1]) <|
    .seq (.call none glm_vec3_scale.locals glm_vec3_scale.nregs glm_vec3_scale.body [.reg 1, .load (.off (.reg 0) 3), .loc 2]) <|
    .seq (.call none glm_vec3_scale.locals glm_vec3_scale.nregs glm_vec3_scale.body [.off (.reg 1) 4, .load (.off (.reg 0) 1), .loc 3]) <|
    .seq (.call none glm_vec3_scale.locals glm_vec3_scale.nregs glm_vec3_scale.body [.off (.reg 1) 4, .load (.off (.reg 0) 4), .loc 4]) <|
    .seq (.call none glm_vec3_scale.locals glm_vec3_scale.nregs glm_vec3_scale.body [.off (.reg 1) 8, .load (.off (.reg 0) 2), .loc 5]) <|
    .seq (.call none glm_vec3_scale.locals glm_vec3_scale.nregs glm_vec3_scale.body [.off (.reg 1) 8, .load (.off (.reg 0) 5), .loc 6]) <|
    .seq (.call none glm_vec3.locals glm_vec3.nregs glm_vec3.body [.off (.reg 1) 12, .loc 0]) <|
    .seq (.call none glm_vec3_minadd.locals glm_vec3_minadd.nregs glm_vec3_minadd.body [.loc 1, .loc 2, .loc 0]) <|
    .seq (.call none glm_vec3_minadd.locals glm_vec3_minadd.nregs glm_vec3_minadd.body [.loc 3, .loc 4, .loc 0]) <|
    .seq (.call none glm_vec3_minadd.locals glm_vec3_minadd.nregs glm_vec3_minadd.body [.loc 5, .loc 6, .loc 0]) <|
    .seq (.call none glm_vec3.locals glm_vec3.nregs glm_vec3.body [.off (.reg 1) 12, .off (.loc 0) 3]) <|
    .seq (.call none glm_vec3_maxadd.locals glm_vec3_maxadd.nregs glm_vec3_maxadd.body [.loc 1, .loc 2, .off (.loc 0) 3]) <|
    .seq (.call none glm_vec3_maxadd.locals glm_vec3_maxadd.nregs glm_vec3_maxadd.body [.loc 3, .loc 4, .off (.loc 0) 3]) <|
    .seq (.call none glm_vec3_maxadd.locals glm_vec3_maxadd.nregs glm_vec3_maxadd.body [.loc 5, .loc 6, .off (.loc 0) 3]) <|
    .seq (.call none glm_vec3_copy.locals glm_vec3_copy.nregs glm_vec3_copy.body [.loc 0, .reg 2]) <|
    .call none glm_vec3_copy.locals glm_vec3_copy.nregs glm_vec3_copy.body [.off (.loc 0) 3, .off (.reg 2) 3]

/-- `glm_aabb_merge`: include/cglm/box.h:63-73. -/
def glm_aabb_merge : Fn where
  locals := []
  nregs := 6
  body := 
    .seq (.call (some 3) glm_min.locals glm_min.nregs glm_min.body [.load (.reg 0), .load (.reg 1)]) <|
    .seq (.store (.reg 2) (.reg 3)) <|
    .seq (.call (some 4) glm_min.locals glm_min.nregs glm_min.body [.load (.off (.reg 0) 1), .load (.off (.reg 1) 1)]) <|
    .seq (.store (.off (.reg 2) 1) (.reg 4)) <|
    .seq (.call (some 5) glm_min.locals glm_min.nregs glm_min.body [.load (.off (.reg 0) 2), .load (.off (.reg 1) 2)]) <|
    .seq (.store (.off (.reg 2) 2) (.reg 5)) <|
    .seq (.call (some 6) glm_max.locals glm_max.nregs glm_max.body [.load (.off (.reg 0) 3), .load (.off (.reg 1) 3)]) <|
    .seq (.store (.off (.reg 2) 3) (.reg 6)) <|
    .seq (.call (some 7) glm_max.locals glm_max.nregs glm_max.body [.load (.off (.reg 0) 4), .load (.off (.reg 1) 4)]) <|
    .seq (.store (.off (.reg 2) 4) (.reg 7)) <|
    .seq (.call (some 8) glm_max.locals glm_max.nregs glm_max.body [.load (.off (.reg 0) 5), .load (.off (.reg 1) 5)]) <|
    .store (.off (.reg 2) 5) (.reg 8)

/-- `glm_aabb_crop`: include/cglm/box.h:86-96. -/
def glm_aabb_crop : Fn where
  locals := []
  nregs := 6
  body := 
    .seq (.call (some 3) glm_max.locals glm_max.nregs glm_max.body [.load (.reg 0), .load (.reg 1)]) <|
    .seq (.store (.reg 2) (.reg 3)) <|
    .seq (.call (some 4) glm_max.locals glm_max.nregs glm_max.body [.load (.off (.reg 0) 1), .load (.off (.reg 1) 1)]) <|
    .seq (.store (.off (.reg 2) 1) (.reg 4)) <|
    .seq (.call (some 5) glm_max.locals glm_max.nregs glm_max.body [.load (.off (.reg 0) 2), .load (.off (.reg 1) 2)]) <|
    .seq (.store (.off (.reg 2) 2) (.reg 5)) <|
    .seq (.call (some 6) glm_min.locals glm_min.nregs glm_min.body [.load (.off (.reg 0) 3), .load (.off (.reg 1) 3)]) <|
    .seq (.store (.off (.reg 2) 3) (.reg 6)) <|
    .seq (.call (some 7) glm_min.locals glm_min.nregs glm_min.body [.load (.off (.reg 0) 4), .load (.off (.reg 1) 4)]) <|
    .seq (.store (.off (.reg 2) 4) (.reg 7)) <|
    .seq (.call (some 8) glm_min.locals glm_min.nregs glm_min.body [.load (.off (.reg 0) 5), .load (.off (.reg 1) 5)]) <|
    .store (.off (.reg 2) 5) (.reg 8)

/-- `glm_aabb_crop_until`: include/cglm/box.h:110-118. -/
def glm_aabb_crop_until : Fn where
  locals := []
  nregs := 0
  body := 
    .seq (.call none glm_aabb_crop.locals glm_aabb_crop.nregs glm_aabb_crop.body [.reg 0, .reg 1, .reg 3]) <|
    .call none glm_aabb_merge.locals glm_aabb_merge.nregs glm_aabb_merge.body [.reg 2, .reg 3, .reg 3]

/-- `glm_aabb_frustum`: include/cglm/box.h:134-151. -/
def glm_aabb_frustum : Fn where
  locals := []
  nregs := 3
  body := 
    .seq (.set 2 (.reg 1)) <|
    .seq (.set 3 (.f2 .add (.f2 .add (.f2 .mul (.load (.reg 2)) (.ite (.fc .lt (.flit 0) (.load (.reg 2))) (.load (.off (.reg 0) 3)) (.load (.reg 0)))) (.f2 .mul (.load (.off (.reg 2) 1)) (.ite (.fc .lt (.flit 0) (.load (.off (.reg 2) 1))) (.load (.off (.reg 0) 4)) (.load (.off (.reg 0) 1))))) (.f2 .mul (.load (.off (.reg 2) 2)) (.ite (.fc .lt (.flit 0) (.load (.off (.reg 2) 2))) (.load (.off (.reg 0) 5)) (.load (.off (.reg 0) 2)))))) <|
    .seq (.ite (.fc .lt (.reg 3) (.f1 .neg (.load (.off (.reg 2) 3)))) (.ret (.blit false)) (.skip)) <|
    .seq (.set 2 (.off (.reg 1) 4)) <|
    .seq (.set 3 (.f2 .add (.f2 .add (.f2 .mul (.load (.reg 2)) (.ite (.fc .lt (.flit 0) (.load (.reg 2))) (.load (.off (.reg 0) 3)) (.load (.reg 0)))) (.f2 .mul (.load (.off (.reg 2) 1)) (.ite (.fc .lt (.flit 0) (.load (.off (.reg 2) 1))) (.load (.off (.reg 0) 4)) (.load (.off (.reg 0) 1))))) (.f2 .mul (.load (.off (.reg 2) 2)) (.ite (.fc .lt (.flit 0) (.load (.off (.reg 2) 2))) (.load (.off (.reg 0) 5)) (.load (.off (.reg 0) 2)))))) <|
    .seq (.ite (.fc .lt (.reg 3) (.f1 .neg (.load (.off (.reg 2) 3)))) (.ret (.blit false)) (.skip)) <|
    .seq (.set 2 (.off (.reg 1) 8)) <|
    .seq (.set 3 (.f2 .add (.f2 .add (.f2 .mul (.load (.reg 2)) (.ite (.fc .lt (.flit 0) (.load (.reg 2))) (.load (.off (.reg 0) 3)) (.load (.reg 0)))) (.f2 .mul (.load (.off (.reg 2) 1)) (.ite (.fc .lt (.flit 0) (.load (.off (.reg 2) 1))) (.load (.off (.reg 0) 4)) (.load (.off (.reg 0) 1))))) (.f2 .mul (.load (.off (.reg 2) 2)) (.ite (.fc .lt (.flit 0) (.load (.off (.reg 2) 2))) (.load (.off (.reg 0) 5)) (.load (.off (.reg 0) 2)))))) <|
    .seq (.ite (.fc .lt (.reg 3) (.f1 .neg (.load (.off (.reg 2) 3)))) (.ret (.blit false)) (.skip)) <|
    .seq (.set 2 (.off (.reg 1) 12)) <|
    .seq (.set 3 (.f2 .add (.f2 .add (.f2 .mul (.load (.reg 2)) (.ite (.fc .lt (.flit 0) (.load (.reg 2))) (.load (.off (.reg 0) 3)) (.load (.reg 0)))) (.f2 .mul (.load (.off (.reg 2) 1)) (.ite (.fc .lt (.flit 0) (.load (.off (.reg 2) 1))) (.load (.off (.reg 0) 4)) (.load (.off (.reg 0) 1))))) (.f2 .mul (.load (.off (.reg 2) 2)) (.ite (.fc .lt (.flit 0) (.load (.off (.reg 2) 2))) (.load (.off (.reg 0) 5)) (.load (.off (.reg 0) 2)))))) <|
    .seq (.ite (.fc .lt (.reg 3) (.f1 .neg (.load (.off (.reg 2) 3)))) (.ret (.blit false)) (.skip)) <|
    .seq (.set 2 (.off (.reg 1) 16)) <|
    .seq (.set 3 (.f2 .add (.f2 .add (.f2 .mul (.load (.reg 2)) (.ite (.fc .lt (.flit 0) (.load (.reg 2))) (.load (.off (.reg 0) 3)) (.load (.reg 0)))) (.f2 .mul (.load (.off (.reg 2) 1)) (.ite (.fc .lt (.flit 0) (.load (.off (.reg 2) 1))) (.load (.off (.reg 0) 4)) (.load (.off (.reg 0) 1))))) (.f2 .mul (.load (.off (.reg 2) 2)) (.ite (.fc .lt (.flit 0) (.load (.off (.reg 2) 2))) (.load (.off (.reg 0) 5)) (.load (.off (.reg 0) 2)))))) <|
    .seq (.ite (.fc .lt (.reg 3) (.f1 .neg (.load (.off (.reg 2) 3)))) (.ret (.blit false)) (.skip)) <|
    .seq (.set 2 (.off (.reg 1) 20)) <|
    .seq (.set 3 (.f2 .add (.f2 .add (.f2 .mul (.load (.reg 2)) (.ite (.fc .lt (.flit 0) (.load (.reg 2))) (.load (.off (.reg 0) 3)) (.load (.reg 0)))) (.f2 .mul (.load (.off (.reg 2) 1)) (.ite (.fc .lt (.flit 0) (.load (.off (.reg 2) 1))) (.load (.off (.reg 0) 4)) (.load (.off (.reg 0) 1))))) (.f2 .mul (.load (.off (.reg 2) 2)) (.ite (.fc .lt (.flit 0) (.load (.off (.reg 2) 2))) (.load (.off (.reg 0) 5)) (.load (.off (.reg 0) 2)))))) <|
    .seq (.ite (.fc .lt (.reg 3) (.f1 .neg (.load (.off (.reg 2) 3)))) (.ret (.blit false)) (.skip)) <|
    .ret (.blit true)

/-- `glm_aabb_invalidate`: include/cglm/box.h:158-163. -/
def glm_aabb_invalidate : Fn where
  locals := []
  nregs := 0
  body := 
    .seq (.call none glm_vec3_broadcast.locals glm_vec3_broadcast.nregs glm_vec3_broadcast.body [.flit 340282346638528859811704183484516925440, .reg 0]) <|
    .call none glm_vec3_broadcast.locals glm_vec3_broadcast.nregs glm_vec3_broadcast.body [.f1 .neg (.flit 340282346638528859811704183484516925440), .off (.reg 0) 3]

/-- `glm_aabb_isvalid`: include/cglm/box.h:170-175.  Simplified: the right operand of `&&`/`||` is always evaluated. -/
def glm_aabb_isvalid : Fn where
  locals := []
  nregs := 2
  body := 
    .seq (.call (some 1) glm_vec3_max.locals glm_vec3_max.nregs glm_vec3_max.body [.reg 0]) <|
    .seq (.call (some 2) glm_vec3_min.locals glm_vec3_min.nregs glm_vec3_min.body [.off (.reg 0) 3]) <|
    .ret (.and (.not (.fc .eq (.reg 1) (.flit 340282346638528859811704183484516925440))) (.not (.fc .eq (.reg 2) (.f1 .neg (.flit 340282346638528859811704183484516925440)))))

/-- `glm_aabb_size`: include/cglm/box.h:182-186. -/
def glm_aabb_size : Fn where
  locals := []
  nregs := 1
  body := 
    .seq (.call (some 1) glm_vec3_distance.locals glm_vec3_distance.nregs glm_vec3_distance.body [.reg 0, .off (.reg 0) 3]) <|
    .ret (.reg 1)

/-- `glm_aabb_radius`: include/cglm/box.h:193-197. -/
def glm_aabb_radius : Fn where
  locals := []
  nregs := 1
  body := 
    .seq (.call (some 1) glm_aabb_size.locals glm_aabb_size.nregs glm_aabb_size.body [.reg 0]) <|
    .ret (.f2 .mul (.reg 1) (.flit 0.5))

/-- `glm_aabb_center`: include/cglm/box.h:205-209. -/
def glm_aabb_center : Fn where
  locals := []
  nregs := 0
  body := .call none glm_vec3_center.locals glm_vec3_center.nregs glm_vec3_center.body [.reg 0, .off (.reg 0) 3, .reg 1]

/-- `glm_aabb_aabb`: include/cglm/box.h:217-223. -/
def glm_aabb_aabb : Fn where
  locals := []
  nregs := 0
  body := .ret (.and (.and (.and (.fc .le (.load (.reg 0)) (.load (.off (.reg 1) 3))) (.fc .le (.load (.reg 1)) (.load (.off (.reg 0) 3)))) (.and (.fc .le (.load (.off (.reg 0) 1)) (.load (.off (.reg 1) 4))) (.fc .le (.load (.off (.reg 1) 1)) (.load (.off (.reg 0) 4))))) (.and (.fc .le (.load (.off (.reg 0) 2)) (.load (.off (.reg 1) 5))) (.fc .le (.load (.off (.reg 1) 2)) (.load (.off (.reg 0) 5)))))

/-- `glm_aabb_sphere`: include/cglm/box.h:236-251. -/
def glm_aabb_sphere : Fn where
  locals := []
  nregs := 8
  body := 
    .seq (.set 3 (.i2 .add (.b2i (.fc .lt (.load (.reg 1)) (.load (.reg 0)))) (.b2i (.fc .lt (.load (.off (.reg 0) 3)) (.load (.reg 1)))))) <|
    .seq (.set 4 (.i2 .add (.b2i (.fc .lt (.load (.off (.reg 1) 1)) (.load (.off (.reg 0) 1)))) (.b2i (.fc .lt (.load (.off (.reg 0) 4)) (.load (.off (.reg 1) 1)))))) <|
    .seq (.set 5 (.i2 .add (.b2i (.fc .lt (.load (.off (.reg 1) 2)) (.load (.off (.reg 0) 2)))) (.b2i (.fc .lt (.load (.off (.reg 0) 5)) (.load (.off (.reg 1) 2)))))) <|
    .seq (.call (some 6) glm_pow2.locals glm_pow2.nregs glm_pow2.body [.f2 .mul (.f2 .sub (.load (.reg 1)) (.ite (.not (.ic .ne (.i2 .sub (.reg 3) (.ilit 1)) (.ilit 0))) (.load (.off (.reg 0) 3)) (.load (.reg 0)))) (.ofInt (.b2i (.ic .ne (.reg 3) (.ilit 0))))]) <|
    .seq (.call (some 7) glm_pow2.locals glm_pow2.nregs glm_pow2.body [.f2 .mul (.f2 .sub (.load (.off (.reg 1) 1)) (.ite (.not (.ic .ne (.i2 .sub (.reg 4) (.ilit 1)) (.ilit 0))) (.load (.off (.reg 0) 4)) (.load (.off (.reg 0) 1)))) (.ofInt (.b2i (.ic .ne (.reg 4) (.ilit 0))))]) <|
    .seq (.call (some 8) glm_pow2.locals glm_pow2.nregs glm_pow2.body [.f2 .mul (.f2 .sub (.load (.off (.reg 1) 2)) (.ite (.not (.ic .ne (.i2 .sub (.reg 5) (.ilit 1)) (.ilit 0))) (.load (.off (.reg 0) 5)) (.load (.off (.reg 0) 2)))) (.ofInt (.b2i (.ic .ne (.reg 5) (.ilit 0))))]) <|
    .seq (.set 2 (.f2 .add (.f2 .add (.reg 6) (.reg 7)) (.reg 8))) <|
    .seq (.call (some 9) glm_pow2.locals glm_pow2.nregs glm_pow2.body [.load (.off (.reg 1) 3)]) <|
    .ret (.fc .le (.reg 2) (.reg 9))

/-- `glm_aabb_point`: include/cglm/box.h:259-265. -/
def glm_aabb_point : Fn where
  locals := []
  nregs := 0
  body := .ret (.and (.and (.and (.fc .le (.load (.reg 0)) (.load (.reg 1))) (.fc .le (.load (.reg 1)) (.load (.off (.reg 0) 3)))) (.and (.fc .le (.load (.off (.reg 0) 1)) (.load (.off (.reg 1) 1))) (.fc .le (.load (.off (.reg 1) 1)) (.load (.off (.reg 0) 4))))) (.and (.fc .le (.load (.off (.reg 0) 2)) (.load (.off (.reg 1) 2))) (.fc .le (.load (.off (.reg 1) 2)) (.load (.off (.reg 0) 5)))))

/-- `glm_aabb_contains`: include/cglm/box.h:273-279. -/
def glm_aabb_contains : Fn where
  locals := []
  nregs := 0
  body := .ret (.and (.and (.and (.fc .le (.load (.reg 0)) (.load (.reg 1))) (.fc .le (.load (.off (.reg 1) 3)) (.load (.off (.reg 0) 3)))) (.and (.fc .le (.load (.off (.reg 0) 1)) (.load (.off (.reg 1) 1))) (.fc .le (.load (.off (.reg 1) 4)) (.load (.off (.reg 0) 4))))) (.and (.fc .le (.load (.off (.reg 0) 2)) (.load (.off (.reg 1) 2))) (.fc .le (.load (.off (.reg 1) 5)) (.load (.off (.reg 0) 5)))))

end Cglm.C

end Box

section Color

/- Generated from include/cglm/color.h by tools/memgen.py (memory semantics); do not edit by hand. -/

set_option maxRecDepth 10000

namespace Cglm.C
open CMem

/-- `glm_luminance`: include/cglm/color.h:19-24. -/
def glm_luminance : Fn where
  locals := [3]
  nregs := 1
  body := 
    .seq (.store (.loc 0) (.flit 0.212671)) <|
    .seq (.store (.off (.loc 0) 1) (.flit 0.71516)) <|
    .seq (.store (.off (.loc 0) 2) (.flit 0.072169)) <|
    .seq (.call (some 1) glm_dot.locals glm_dot.nregs glm_dot.body [.reg 0, .loc 0]) <|
    .ret (.reg 1)

end Cglm.C

end Color

section Curve

/- Generated from include/cglm/curve.h by tools/memgen.py (memory semantics); do not edit by hand. -/

set_option maxRecDepth 10000

namespace Cglm.C
open CMem

/-- `glm_smc`: include/cglm/curve.h:32-38. -/
def glm_smc : Fn where
  locals := [4]
  nregs := 1
  body := 
    .seq (.call none glm_vec4_cubic.locals glm_vec4_cubic.nregs glm_vec4_cubic.body [.reg 0, .loc 0]) <|
    .seq (.call (some 3) glm_mat4_rmc.locals glm_mat4_rmc.nregs glm_mat4_rmc.body [.loc 0, .reg 1, .reg 2]) <|
    .ret (.reg 3)

end Cglm.C

end Curve

section Ease

/- Generated from include/cglm/ease.h by tools/memgen.py (memory semantics); do not edit by hand. -/

set_option maxRecDepth 10000

namespace Cglm.C
open CMem

/-- `glm_ease_linear`: include/cglm/ease.h:13-17. -/
def glm_ease_linear : Fn where
  locals := []
  nregs := 0
  body := .ret (.reg 0)

/-- `glm_ease_sine_in`: include/cglm/ease.h:19-23. -/
def glm_ease_sine_in : Fn where
  locals := []
  nregs := 0
  body := .ret (.f2 .add (.f1 .sinf (.f2 .mul (.f2 .sub (.reg 0) (.flit 1)) (.flit 1.57079632679489661923132169163975144))) (.flit 1))

/-- `glm_ease_sine_out`: include/cglm/ease.h:25-29. -/
def glm_ease_sine_out : Fn where
  locals := []
  nregs := 0
  body := .ret (.f1 .sinf (.f2 .mul (.reg 0) (.flit 1.57079632679489661923132169163975144)))

/-- `glm_ease_sine_inout`: include/cglm/ease.h:31-35. -/
def glm_ease_sine_inout : Fn where
  locals := []
  nregs := 0
  body := .ret (.f2 .mul (.flit 0.5) (.f2 .sub (.flit 1) (.f1 .cosf (.f2 .mul (.reg 0) (.flit 3.14159265358979323846264338327950288)))))

/-- `glm_ease_quad_in`: include/cglm/ease.h:37-41. -/
def glm_ease_quad_in : Fn where
  locals := []
  nregs := 0
  body := .ret (.f2 .mul (.reg 0) (.reg 0))

/-- `glm_ease_quad_out`: include/cglm/ease.h:43-47. -/
def glm_ease_quad_out : Fn where
  locals := []
  nregs := 0
  body := .ret (.f1 .neg (.f2 .mul (.reg 0) (.f2 .sub (.reg 0) (.flit 2))))

/-- `glm_ease_quad_inout`: include/cglm/ease.h:49-59. -/
def glm_ease_quad_inout : Fn where
  locals := []
  nregs := 1
  body := 
    .seq (.set 1 (.f2 .mul (.reg 0) (.reg 0))) <|
    .seq (.ite (.fc .lt (.reg 0) (.flit 0.5)) (.ret (.f2 .mul (.flit 2) (.reg 1))) (.skip)) <|
    .ret (.f2 .sub (.f2 .add (.f2 .mul (.f1 .neg (.flit 2)) (.reg 1)) (.f2 .mul (.flit 4) (.reg 0))) (.flit 1))

/-- `glm_ease_cubic_in`: include/cglm/ease.h:61-65. -/
def glm_ease_cubic_in : Fn where
  locals := []
  nregs := 0
  body := .ret (.f2 .mul (.f2 .mul (.reg 0) (.reg 0)) (.reg 0))

/-- `glm_ease_cubic_out`: include/cglm/ease.h:67-73. -/
def glm_ease_cubic_out : Fn where
  locals := []
  nregs := 1
  body := 
    .seq (.set 1 (.f2 .sub (.reg 0) (.flit 1))) <|
    .ret (.f2 .add (.f2 .mul (.f2 .mul (.reg 1) (.reg 1)) (.reg 1)) (.flit 1))

/-- `glm_ease_cubic_inout`: include/cglm/ease.h:75-86. -/
def glm_ease_cubic_inout : Fn where
  locals := []
  nregs := 1
  body := 
    .seq (.ite (.fc .lt (.reg 0) (.flit 0.5)) (.ret (.f2 .mul (.f2 .mul (.f2 .mul (.flit 4) (.reg 0)) (.reg 0)) (.reg 0))) (.skip)) <|
    .seq (.set 1 (.f2 .sub (.f2 .mul (.flit 2) (.reg 0)) (.flit 2))) <|
    .ret (.f2 .add (.f2 .mul (.f2 .mul (.f2 .mul (.flit 0.5) (.reg 1)) (.reg 1)) (.reg 1)) (.flit 1))

/-- `glm_ease_quart_in`: include/cglm/ease.h:88-94. -/
def glm_ease_quart_in : Fn where
  locals := []
  nregs := 1
  body := 
    .seq (.set 1 (.f2 .mul (.reg 0) (.reg 0))) <|
    .ret (.f2 .mul (.reg 1) (.reg 1))

/-- `glm_ease_quart_out`: include/cglm/ease.h:96-104. -/
def glm_ease_quart_out : Fn where
  locals := []
  nregs := 1
  body := 
    .seq (.set 1 (.f2 .sub (.reg 0) (.flit 1))) <|
    .ret (.f2 .add (.f2 .mul (.f2 .mul (.f2 .mul (.reg 1) (.reg 1)) (.reg 1)) (.f2 .sub (.flit 1) (.reg 0))) (.flit 1))

/-- `glm_ease_quart_inout`: include/cglm/ease.h:106-120. -/
def glm_ease_quart_inout : Fn where
  locals := []
  nregs := 2
  body := 
    .seq (.ite (.fc .lt (.reg 0) (.flit 0.5)) (.seq (.set 1 (.f2 .mul (.reg 0) (.reg 0))) (.ret (.f2 .mul (.f2 .mul (.flit 8) (.reg 1)) (.reg 1)))) (.skip)) <|
    .seq (.set 1 (.f2 .sub (.reg 0) (.flit 1))) <|
    .seq (.set 2 (.f2 .mul (.reg 1) (.reg 1))) <|
    .ret (.f2 .add (.f2 .mul (.f2 .mul (.f1 .neg (.flit 8)) (.reg 2)) (.reg 2)) (.flit 1))

/-- `glm_ease_quint_in`: include/cglm/ease.h:122-128. -/
def glm_ease_quint_in : Fn where
  locals := []
  nregs := 1
  body := 
    .seq (.set 1 (.f2 .mul (.reg 0) (.reg 0))) <|
    .ret (.f2 .mul (.f2 .mul (.reg 1) (.reg 1)) (.reg 0))

/-- `glm_ease_quint_out`: include/cglm/ease.h:130-139. -/
def glm_ease_quint_out : Fn where
  locals := []
  nregs := 2
  body := 
    .seq (.set 1 (.f2 .sub (.reg 0) (.flit 1))) <|
    .seq (.set 2 (.f2 .mul (.reg 1) (.reg 1))) <|
    .ret (.f2 .add (.f2 .mul (.f2 .mul (.reg 2) (.reg 2)) (.reg 1)) (.flit 1))

/-- `glm_ease_quint_inout`: include/cglm/ease.h:141-155. -/
def glm_ease_quint_inout : Fn where
  locals := []
  nregs := 2
  body := 
    .seq (.ite (.fc .lt (.reg 0) (.flit 0.5)) (.seq (.set 1 (.f2 .mul (.reg 0) (.reg 0))) (.ret (.f2 .mul (.f2 .mul (.f2 .mul (.flit 16) (.reg 1)) (.reg 1)) (.reg 0)))) (.skip)) <|
    .seq (.set 1 (.f2 .sub (.f2 .mul (.flit 2) (.reg 0)) (.flit 2))) <|
    .seq (.set 2 (.f2 .mul (.reg 1) (.reg 1))) <|
    .ret (.f2 .add (.f2 .mul (.f2 .mul (.f2 .mul (.flit 0.5) (.reg 2)) (.reg 2)) (.reg 1)) (.flit 1))

/-- `glm_ease_exp_in`: include/cglm/ease.h:157-164. -/
def glm_ease_exp_in : Fn where
  locals := []
  nregs := 0
  body := 
    .seq (.ite (.fc .eq (.reg 0) (.flit 0)) (.ret (.reg 0)) (.skip)) <|
    .ret (.f2 .powf (.flit 2) (.f2 .mul (.flit 10) (.f2 .sub (.reg 0) (.flit 1))))

/-- `glm_ease_exp_out`: include/cglm/ease.h:166-173. -/
def glm_ease_exp_out : Fn where
  locals := []
  nregs := 0
  body := 
    .seq (.ite (.fc .eq (.reg 0) (.flit 1)) (.ret (.reg 0)) (.skip)) <|
    .ret (.f2 .sub (.flit 1) (.f2 .powf (.flit 2) (.f2 .mul (.f1 .neg (.flit 10)) (.reg 0))))

/-- `glm_ease_exp_inout`: include/cglm/ease.h:175-185. -/
def glm_ease_exp_inout : Fn where
  locals := []
  nregs := 0
  body := 
    .seq (.ite (.or (.fc .eq (.reg 0) (.flit 0)) (.fc .eq (.reg 0) (.flit 1))) (.ret (.reg 0)) (.skip)) <|
    .seq (.ite (.fc .lt (.reg 0) (.flit 0.5)) (.ret (.f2 .mul (.flit 0.5) (.f2 .powf (.flit 2) (.f2 .sub (.f2 .mul (.flit 20) (.reg 0)) (.flit 10))))) (.skip)) <|
    .ret (.f2 .add (.f2 .mul (.f1 .neg (.flit 0.5)) (.f2 .powf (.flit 2) (.f2 .add (.f2 .mul (.f1 .neg (.flit 20)) (.reg 0)) (.flit 10)))) (.flit 1))

/-- `glm_ease_circ_in`: include/cglm/ease.h:187-191. -/
def glm_ease_circ_in : Fn where
  locals := []
  nregs := 0
  body := .ret (.f2 .sub (.flit 1) (.f1 .sqrtf (.f2 .sub (.flit 1) (.f2 .mul (.reg 0) (.reg 0)))))

/-- `glm_ease_circ_out`: include/cglm/ease.h:193-197. -/
def glm_ease_circ_out : Fn where
  locals := []
  nregs := 0
  body := .ret (.f1 .sqrtf (.f2 .mul (.f2 .sub (.flit 2) (.reg 0)) (.reg 0)))

/-- `glm_ease_circ_inout`: include/cglm/ease.h:199-206. -/
def glm_ease_circ_inout : Fn where
  locals := []
  nregs := 0
  body := 
    .seq (.ite (.fc .lt (.reg 0) (.flit 0.5)) (.ret (.f2 .mul (.flit 0.5) (.f2 .sub (.flit 1) (.f1 .sqrtf (.f2 .sub (.flit 1) (.f2 .mul (.flit 4) (.f2 .mul (.reg 0) (.reg 0)))))))) (.skip)) <|
    .ret (.f2 .mul (.flit 0.5) (.f2 .add (.f1 .sqrtf (.f2 .mul (.f1 .neg (.f2 .sub (.f2 .mul (.flit 2) (.reg 0)) (.flit 3))) (.f2 .sub (.f2 .mul (.flit 2) (.reg 0)) (.flit 1)))) (.flit 1)))

/-- `glm_ease_back_in`: include/cglm/ease.h:208-217. -/
def glm_ease_back_in : Fn where
  locals := []
  nregs := 2
  body := 
    .seq (.set 1 (.flit 1.70158)) <|
    .seq (.set 2 (.f2 .sub (.f2 .mul (.f2 .add (.reg 1) (.flit 1)) (.reg 0)) (.reg 1))) <|
    .ret (.f2 .mul (.f2 .mul (.reg 0) (.reg 0)) (.reg 2))

/-- `glm_ease_back_out`: include/cglm/ease.h:219-229. -/
def glm_ease_back_out : Fn where
  locals := []
  nregs := 3
  body := 
    .seq (.set 1 (.flit 1.70158)) <|
    .seq (.set 3 (.f2 .sub (.reg 0) (.flit 1))) <|
    .seq (.set 2 (.f2 .add (.f2 .mul (.f2 .add (.reg 1) (.flit 1)) (.reg 3)) (.reg 1))) <|
    .ret (.f2 .add (.f2 .mul (.f2 .mul (.reg 3) (.reg 3)) (.reg 2)) (.flit 1))

/-- `glm_ease_back_inout`: include/cglm/ease.h:231-252. -/
def glm_ease_back_inout : Fn where
  locals := []
  nregs := 6
  body := 
    .seq (.set 1 (.flit 1.70158)) <|
    .seq (.set 5 (.f2 .mul (.reg 1) (.flit 1.525))) <|
    .seq (.set 6 (.flit 0.5)) <|
    .seq (.set 3 (.f2 .div (.reg 0) (.flit 0.5))) <|
    .seq (.ite (.fc .lt (.reg 3) (.flit 1)) (.seq (.set 2 (.f2 .sub (.f2 .mul (.f2 .add (.reg 5) (.flit 1)) (.reg 3)) (.reg 5))) (.seq (.set 4 (.f2 .mul (.f2 .mul (.reg 3) (.reg 3)) (.reg 2))) (.ret (.f2 .mul (.reg 6) (.reg 4))))) (.skip)) <|
    .seq (.set 3 (.f2 .sub (.reg 3) (.flit 2))) <|
    .seq (.set 2 (.f2 .add (.f2 .mul (.f2 .add (.reg 5) (.flit 1)) (.reg 3)) (.reg 5))) <|
    .seq (.set 4 (.f2 .add (.f2 .mul (.f2 .mul (.reg 3) (.reg 3)) (.reg 2)) (.flit 2))) <|
    .ret (.f2 .mul (.reg 6) (.reg 4))

/-- `glm_ease_elast_in`: include/cglm/ease.h:254-258. -/
def glm_ease_elast_in : Fn where
  locals := []
  nregs := 0
  body := .ret (.f2 .mul (.f1 .sinf (.f2 .mul (.f2 .mul (.flit 13) (.flit 1.57079632679489661923132169163975144)) (.reg 0))) (.f2 .powf (.flit 2) (.f2 .mul (.flit 10) (.f2 .sub (.reg 0) (.flit 1)))))

/-- `glm_ease_elast_out`: include/cglm/ease.h:260-264. -/
def glm_ease_elast_out : Fn where
  locals := []
  nregs := 0
  body := .ret (.f2 .add (.f2 .mul (.f1 .sinf (.f2 .mul (.f2 .mul (.f1 .neg (.flit 13)) (.flit 1.57079632679489661923132169163975144)) (.f2 .add (.reg 0) (.flit 1)))) (.f2 .powf (.flit 2) (.f2 .mul (.f1 .neg (.flit 10)) (.reg 0)))) (.flit 1))

/-- `glm_ease_elast_inout`: include/cglm/ease.h:266-279. -/
def glm_ease_elast_inout : Fn where
  locals := []
  nregs := 1
  body := 
    .seq (.set 1 (.f2 .mul (.flit 2) (.reg 0))) <|
    .seq (.ite (.fc .lt (.reg 0) (.flit 0.5)) (.ret (.f2 .mul (.f2 .mul (.flit 0.5) (.f1 .sinf (.f2 .mul (.f2 .mul (.flit 13) (.flit 1.57079632679489661923132169163975144)) (.reg 1)))) (.f2 .powf (.flit 2) (.f2 .mul (.flit 10) (.f2 .sub (.reg 1) (.flit 1)))))) (.skip)) <|
    .ret (.f2 .mul (.flit 0.5) (.f2 .add (.f2 .mul (.f1 .sinf (.f2 .mul (.f2 .mul (.f1 .neg (.flit 13)) (.flit 1.57079632679489661923132169163975144)) (.reg 1))) (.f2 .powf (.flit 2) (.f2 .mul (.f1 .neg (.flit 10)) (.f2 .sub (.reg 1) (.flit 1))))) (.flit 2)))

/-- `glm_ease_bounce_out`: include/cglm/ease.h:281-300. -/
def glm_ease_bounce_out : Fn where
  locals := []
  nregs := 1
  body := 
    .seq (.set 1 (.f2 .mul (.reg 0) (.reg 0))) <|
    .seq (.ite (.fc .lt (.reg 0) (.f2 .div (.flit 4) (.flit 11))) (.ret (.f2 .div (.f2 .mul (.flit 121) (.reg 1)) (.flit 16))) (.skip)) <|
    .seq (.ite (.fc .lt (.reg 0) (.f2 .div (.flit 8) (.flit 11))) (.ret (.f2 .add (.f2 .sub (.f2 .mul (.f2 .div (.flit 363) (.flit 40)) (.reg 1)) (.f2 .mul (.f2 .div (.flit 99) (.flit 10)) (.reg 0))) (.f2 .div (.flit 17) (.flit 5)))) (.skip)) <|
    .seq (.ite (.fc .lt (.reg 0) (.f2 .div (.flit 9) (.flit 10))) (.ret (.f2 .add (.f2 .sub (.f2 .mul (.f2 .div (.flit 4356) (.flit 361)) (.reg 1)) (.f2 .mul (.f2 .div (.flit 35442) (.flit 1805)) (.reg 0))) (.f2 .div (.flit 16061) (.flit 1805)))) (.skip)) <|
    .ret (.f2 .add (.f2 .sub (.f2 .mul (.f2 .div (.flit 54) (.flit 5)) (.reg 1)) (.f2 .mul (.f2 .div (.flit 513) (.flit 25)) (.reg 0))) (.f2 .div (.flit 268) (.flit 25)))

/-- `glm_ease_bounce_in`: include/cglm/ease.h:302-306. -/
def glm_ease_bounce_in : Fn where
  locals := []
  nregs := 1
  body := 
    .seq (.call (some 1) glm_ease_bounce_out.locals glm_ease_bounce_out.nregs glm_ease_bounce_out.body [.f2 .sub (.flit 1) (.reg 0)]) <|
    .ret (.f2 .sub (.flit 1) (.reg 1))

/-- `glm_ease_bounce_inout`: include/cglm/ease.h:308-315. -/
def glm_ease_bounce_inout : Fn where
  locals := []
  nregs := 2
  body := 
    .seq (.ite (.fc .lt (.reg 0) (.flit 0.5)) (.seq (.call (some 1) glm_ease_bounce_out.locals glm_ease_bounce_out.nregs glm_ease_bounce_out.body [.f2 .mul (.reg 0) (.flit 2)]) (.ret (.f2 .mul (.flit 0.5) (.f2 .sub (.flit 1) (.reg 1))))) (.skip)) <|
    .seq (.call (some 2) glm_ease_bounce_out.locals glm_ease_bounce_out.nregs glm_ease_bounce_out.body [.f2 .sub (.f2 .mul (.reg 0) (.flit 2)) (.flit 1)]) <|
    .ret (.f2 .add (.f2 .mul (.flit 0.5) (.reg 2)) (.flit 0.5))

end Cglm.C

end Ease

section Plane

/- Generated from include/cglm/plane.h by tools/memgen.py (memory semantics); do not edit by hand. -/

set_option maxRecDepth 10000

namespace Cglm.C
open CMem

/-- `glm_plane_normalize`: include/cglm/plane.h:31-42. -/
def glm_plane_normalize : Fn where
  locals := []
  nregs := 2
  body := 
    .seq (.call (some 2) glm_vec3_norm.locals glm_vec3_norm.nregs glm_vec3_norm.body [.reg 0]) <|
    .seq (.set 1 (.reg 2)) <|
    .seq (.ite (.fc .lt (.reg 1) (.flit 0.00000011920928955078125)) (.seq (.call none glm_vec4_zero.locals glm_vec4_zero.nregs glm_vec4_zero.body [.reg 0]) (.retVoid)) (.skip)) <|
    .call none glm_vec4_scale.locals glm_vec4_scale.nregs glm_vec4_scale.body [.reg 0, .f2 .div (.flit 1) (.reg 1), .reg 0]

end Cglm.C

end Plane

section Frustum

/- Generated from include/cglm/frustum.h by tools/memgen.py (memory semantics); do not edit by hand. -/

set_option maxRecDepth 10000

namespace Cglm.C
open CMem

/-- `glm_frustum_planes`: include/cglm/frustum.h:70-90. -/
def glm_frustum_planes : Fn where
  locals := [16]
  nregs := 0
  body := 
    .seq (.call none glm_mat4_transpose_to.locals glm_mat4_transpose_to.nregs glm_mat4_transpose_to.body [.reg 0, .loc 0]) <|
    .seq (.call none glm_vec4_add.locals glm_vec4_add.nregs glm_vec4_add.body [.off (.loc 0) 12, .loc 0, .reg 1]) <|
    .seq (.call none glm_vec4_sub.locals glm_vec4_sub.nregs glm_vec4_sub.body [.off (.loc 0) 12, .loc 0, .off (.reg 1) 4]) <|
    .seq (.call none glm_vec4_add.locals glm_vec4_add.nregs glm_vec4_add.body [.off (.loc 0) 12, .off (.loc 0) 4, .off (.reg 1) 8]) <|
    .seq (.call none glm_vec4_sub.locals glm_vec4_sub.nregs glm_vec4_sub.body [.off (.loc 0) 12, .off (.loc 0) 4, .off (.reg 1) 12]) <|
    .seq (.call none glm_vec4_add.locals glm_vec4_add.nregs glm_vec4_add.body [.off (.loc 0) 12, .off (.loc 0) 8, .off (.reg 1) 16]) <|
    .seq (.call none glm_vec4_sub.locals glm_vec4_sub.nregs glm_vec4_sub.body [.off (.loc 0) 12, .off (.loc 0) 8, .off (.reg 1) 20]) <|
    .seq (.call none glm_plane_normalize.locals glm_plane_normalize.nregs glm_plane_normalize.body [.reg 1]) <|
    .seq (.call none glm_plane_normalize.locals glm_plane_normalize.nregs glm_plane_normalize.body [.off (.reg 1) 4]) <|
    .seq (.call none glm_plane_normalize.locals glm_plane_normalize.nregs glm_plane_normalize.body [.off (.reg 1) 8]) <|
    .seq (.call none glm_plane_normalize.locals glm_plane_normalize.nregs glm_plane_normalize.body [.off (.reg 1) 12]) <|
    .seq (.call none glm_plane_normalize.locals glm_plane_normalize.nregs glm_plane_normalize.body [.off (.reg 1) 16]) <|
    .call none glm_plane_normalize.locals glm_plane_normalize.nregs glm_plane_normalize.body [.off (.reg 1) 20]

/-- `glm_frustum_corners`: include/cglm/frustum.h:115-150. -/
def glm_frustum_corners : Fn where
  locals := [32, 32]
  nregs := 0
  body := 
    .seq (.store (.loc 1) (.f1 .neg (.flit 1))) <|
    .seq (.store (.off (.loc 1) 1) (.f1 .neg (.flit 1))) <|
    .seq (.store (.off (.loc 1) 2) (.f1 .neg (.flit 1))) <|
    .seq (.store (.off (.loc 1) 3) (.flit 1)) <|
    .seq (.store (.off (.loc 1) 4) (.f1 .neg (.flit 1))) <|
    .seq (.store (.off (.loc 1) 5) (.flit 1)) <|
    .seq (.store (.off (.loc 1) 6) (.f1 .neg (.flit 1))) <|
    .seq (.store (.off (.loc 1) 7) (.flit 1)) <|
    .seq (.store (.off (.loc 1) 8) (.flit 1)) <|
    .seq (.store (.off (.loc 1) 9) (.flit 1)) <|
    .seq (.store (.off (.loc 1) 10) (.f1 .neg (.flit 1))) <|
    .seq (.store (.off (.loc 1) 11) (.flit 1)) <|
    .seq (.store (.off (.loc 1) 12) (.flit 1)) <|
    .seq (.store (.off (.loc 1) 13) (.f1 .neg (.flit 1))) <|
    .seq (.store (.off (.loc 1) 14) (.f1 .neg (.flit 1))) <|
    .seq (.store (.off (.loc 1) 15) (.flit 1)) <|
    .seq (.store (.off (.loc 1) 16) (.f1 .neg (.flit 1))) <|
    .seq (.store (.off (.loc 1) 17) (.f1 .neg (.flit 1))) <|
    .seq (.store (.off (.loc 1) 18) (.flit 1)) <|
    .seq (.store (.off (.loc 1) 19) (.flit 1)) <|
    .seq (.store (.off (.loc 1) 20) (.f1 .neg (.flit 1))) <|
    .seq (.store (.off (.loc 1) 21) (.flit 1)) <|
    .seq (.store (.off (.loc 1) 22) (.flit 1)) <|
    .seq (.store (.off (.loc 1) 23) (.flit 1)) <|
    .seq (.store (.off (.loc 1) 24) (.flit 1)) <|
    .seq (.store (.off (.loc 1) 25) (.flit 1)) <|
    .seq (.store (.off (.loc 1) 26) (.flit 1)) <|
    .seq (.store (.off (.loc 1) 27) (.flit 1)) <|
    .seq (.store (.off (.loc 1) 28) (.flit 1)) <|
    .seq (.store (.off (.loc 1) 29) (.f1 .neg (.flit 1))) <|
    .seq (.store (.off (.loc 1) 30) (.flit 1)) <|
    .seq (.store (.off (.loc 1) 31) (.flit 1)) <|
    .seq (.call none glm_mat4_mulv.locals glm_mat4_mulv.nregs glm_mat4_mulv.body [.reg 0, .loc 1, .loc 0]) <|
    .seq (.call none glm_mat4_mulv.locals glm_mat4_mulv.nregs glm_mat4_mulv.body [.reg 0, .off (.loc 1) 4, .off (.loc 0) 4]) <|
    .seq (.call none glm_mat4_mulv.locals glm_mat4_mulv.nregs glm_mat4_mulv.body [.reg 0, .off (.loc 1) 8, .off (.loc 0) 8]) <|
    .seq (.call none glm_mat4_mulv.locals glm_mat4_mulv.nregs glm_mat4_mulv.body [.reg 0, .off (.loc 1) 12, .off (.loc 0) 12]) <|
    .seq (.call none glm_mat4_mulv.locals glm_mat4_mulv.nregs glm_mat4_mulv.body [.reg 0, .off (.loc 1) 16, .off (.loc 0) 16]) <|
    .seq (.call none glm_mat4_mulv.locals glm_mat4_mulv.nregs glm_mat4_mulv.body [.reg 0, .off (.loc 1) 20, .off (.loc 0) 20]) <|
    .seq (.call none glm_mat4_mulv.locals glm_mat4_mulv.nregs glm_mat4_mulv.body [.reg 0, .off (.loc 1) 24, .off (.loc 0) 24]) <|
    .seq (.call none glm_mat4_mulv.locals glm_mat4_mulv.nregs glm_mat4_mulv.body [.reg 0, .off (.loc 1) 28, .off (.loc 0) 28]) <|
    .seq (.call none glm_vec4_scale.locals glm_vec4_scale.nregs glm_vec4_scale.body [.loc 0, .f2 .div (.flit 1) (.load (.off (.loc 0) 3)), .reg 1]) <|
    .seq (.call none glm_vec4_scale.locals glm_vec4_scale.nregs glm_vec4_scale.body [.off (.loc 0) 4, .f2 .div (.flit 1) (.load (.off (.loc 0) 7)), .off (.reg 1) 4]) <|
    .seq (.call none glm_vec4_scale.locals glm_vec4_scale.nregs glm_vec4_scale.body [.off (.loc 0) 8, .f2 .div (.flit 1) (.load (.off (.loc 0) 11)), .off (.reg 1) 8]) <|
    .seq (.call none glm_vec4_scale.locals glm_vec4_scale.nregs glm_vec4_scale.body [.off (.loc 0) 12, .f2 .div (.flit 1) (.load (.off (.loc 0) 15)), .off (.reg 1) 12]) <|
    .seq (.call none glm_vec4_scale.locals glm_vec4_scale.nregs glm_vec4_scale.body [.off (.loc 0) 16, .f2 .div (.flit 1) (.load (.off (.loc 0) 19)), .off (.reg 1) 16]) <|
    .seq (.call none glm_vec4_scale.locals glm_vec4_scale.nregs glm_vec4_scale.body [.off (.loc 0) 20, .f2 .div (.flit 1) (.load (.off (.loc 0) 23)), .off (.reg 1) 20]) <|
    .seq (.call none glm_vec4_scale.locals glm_vec4_scale.nregs glm_vec4_scale.body [.off (.loc 0) 24, .f2 .div (.flit 1) (.load (.off (.loc 0) 27)), .off (.reg 1) 24]) <|
    .call none glm_vec4_scale.locals glm_vec4_scale.nregs glm_vec4_scale.body [.off (.loc 0) 28, .f2 .div (.flit 1) (.load (.off (.loc 0) 31)), .off (.reg 1) 28]

/-- `glm_frustum_center`: include/cglm/frustum.h:158-174. -/
def glm_frustum_center : Fn where
  locals := [4]
  nregs := 0
  body := 
    .seq (.call none glm_vec4_copy.locals glm_vec4_copy.nregs glm_vec4_copy.body [.reg 0, .loc 0]) <|
    .seq (.call none glm_vec4_add.locals glm_vec4_add.nregs glm_vec4_add.body [.off (.reg 0) 4, .loc 0, .loc 0]) <|
    .seq (.call none glm_vec4_add.locals glm_vec4_add.nregs glm_vec4_add.body [.off (.reg 0) 8, .loc 0, .loc 0]) <|
    .seq (.call none glm_vec4_add.locals glm_vec4_add.nregs glm_vec4_add.body [.off (.reg 0) 12, .loc 0, .loc 0]) <|
    .seq (.call none glm_vec4_add.locals glm_vec4_add.nregs glm_vec4_add.body [.off (.reg 0) 16, .loc 0, .loc 0]) <|
    .seq (.call none glm_vec4_add.locals glm_vec4_add.nregs glm_vec4_add.body [.off (.reg 0) 20, .loc 0, .loc 0]) <|
    .seq (.call none glm_vec4_add.locals glm_vec4_add.nregs glm_vec4_add.body [.off (.reg 0) 24, .loc 0, .loc 0]) <|
    .seq (.call none glm_vec4_add.locals glm_vec4_add.nregs glm_vec4_add.body [.off (.reg 0) 28, .loc 0, .loc 0]) <|
    .call none glm_vec4_scale.locals glm_vec4_scale.nregs glm_vec4_scale.body [.loc 0, .flit 0.125, .reg 1]

/-- `glm_frustum_box`: include/cglm/frustum.h:183-207. -/
def glm_frustum_box : Fn where
  locals := [4, 3, 3]
  nregs := 49
  body := 
    .seq (.call none glm_vec3_broadcast.locals glm_vec3_broadcast.nregs glm_vec3_broadcast.body [.flit 340282346638528859811704183484516925440, .loc 1]) <|
    .seq (.call none glm_vec3_broadcast.locals glm_vec3_broadcast.nregs glm_vec3_broadcast.body [.f1 .neg (.flit 340282346638528859811704183484516925440), .loc 2]) <|
    .seq (.call none glm_mat4_mulv.locals glm_mat4_mulv.nregs glm_mat4_mulv.body [.reg 1, .reg 0, .loc 0]) <|
    .seq (.call (some 4) glm_min.locals glm_min.nregs glm_min.body [.load (.loc 1), .load (.loc 0)]) <|
    .seq (.store (.loc 1) (.reg 4)) <|
    .seq (.call (some 5) glm_min.locals glm_min.nregs glm_min.body [.load (.off (.loc 1) 1), .load (.off (.loc 0) 1)]) <|
    .seq (.store (.off (.loc 1) 1) (.reg 5)) <|
    .seq (.call (some 6) glm_min.locals glm_min.nregs glm_min.body [.load (.off (.loc 1) 2), .load (.off (.loc 0) 2)]) <|
    .seq (.store (.off (.loc 1) 2) (.reg 6)) <|
    .seq (.call (some 7) glm_max.locals glm_max.nregs glm_max.body [.load (.loc 2), .load (.loc 0)]) <|
    .seq (.store (.loc 2) (.reg 7)) <|
    .seq (.call (some 8) glm_max.locals glm_max.nregs glm_max.body [.load (.off (.loc 2) 1), .load (.off (.loc 0) 1)]) <|
    .seq (.store (.off (.loc 2) 1) (.reg 8)) <|
    .seq (.call (some 9) glm_max.locals glm_max.nregs glm_max.body [.load (.off (.loc 2) 2), .load (.off (.loc 0) 2)]) <|
    .seq (.store (.off (.loc 2) 2) (.reg 9)) <|
    .seq (.call none glm_mat4_mulv.locals glm_mat4_mulv.nregs glm_mat4_mulv.body [.reg 1, .off (.reg 0) 4, .loc 0]) <|
    .seq (.call (some 10) glm_min.locals glm_min.nregs glm_min.body [.load (.loc 1), .load (.loc 0)]) <|
    .seq (.store (.loc 1) (.reg 10)) <|
    .seq (.call (some 11) glm_min.locals glm_min.nregs glm_min.body [.load (.off (.loc 1) 1), .load (.off (.loc 0) 1)]) <|
    .seq (.store (.off (.loc 1) 1) (.reg 11)) <|
    .seq (.call (some 12) glm_min.locals glm_min.nregs glm_min.body [.load (.off (.loc 1) 2), .load (.off (.loc 0) 2)]) <|
    .seq (.store (.off (.loc 1) 2) (.reg 12)) <|
    .seq (.call (some 13) glm_max.locals glm_max.nregs glm_max.body [.load (.loc 2), .load (.loc 0)]) <|
    .seq (.store (.loc 2) (.reg 13)) <|
    .seq (.call (some 14) glm_max.locals glm_max.nregs glm_max.body [.load (.off (.loc 2) 1), .load (.off (.loc 0) 1)]) <|
    .seq (.store (.off (.loc 2) 1) (.reg 14)) <|
    .seq (.call (some 15) glm_max.locals glm_max.nregs glm_max.body [.load (.off (.loc 2) 2), .load (.off (.loc 0) 2)]) <|
    .seq (.store (.off (.loc 2) 2) (.reg 15)) <|
    .seq (.call none glm_mat4_mulv.locals glm_mat4_mulv.nregs glm_mat4_mulv.body [.reg 1, .off (.reg 0) 8, .loc 0]) <|
    .seq (.call (some 16) glm_min.locals glm_min.nregs glm_min.body [.load (.loc 1), .load (.loc 0)]) <|
    .seq (.store (.loc 1) (.reg 16)) <|
    .seq (.call (some 17) glm_min.locals glm_min.nregs glm_min.body [.load (.off (.loc 1) 1), .load (.off (.loc 0) 1)]) <|
    .seq (.store (.off (.loc 1) 1) (.reg 17)) <|
    .seq (.call (some 18) glm_min.locals glm_min.nregs glm_min.body [.load (.off (.loc 1) 2), .load (.off (.loc 0) 2)]) <|
    .seq (.store (.off (.loc 1) 2) (.reg 18)) <|
    .seq (.call (some 19) glm_max.locals glm_max.nregs glm_max.body [.load (.loc 2), .load (.loc 0)]) <|
    .seq (.store (.loc 2) (.reg 19)) <|
    .seq (.call (some 20) glm_max.locals glm_max.nregs glm_max.body [.load (.off (.loc 2) 1), .load (.off (.loc 0) 1)]) <|
    .seq (.store (.off (.loc 2) 1) (.reg 20)) <|
    .seq (.call (some 21) glm_max.locals glm_max.nregs glm_max.body [.load (.off (.loc 2) 2), .load (.off (.loc 0) 2)]) <|
    .seq (.store (.off (.loc 2) 2) (.reg 21)) <|
    .seq (.call none glm_mat4_mulv.locals glm_mat4_mulv.nregs glm_mat4_mulv.body [.reg 1, .off (.reg 0) 12, .loc 0]) <|
    .seq (.call (some 22) glm_min.locals glm_min.nregs glm_min.body [.load (.loc 1), .load (.loc 0)]) <|
    .seq (.store (.loc 1) (.reg 22)) <|
    .seq (.call (some 23) glm_min.locals glm_min.nregs glm_min.body [.load (.off (.loc 1) 1), .load (.off (.loc 0) 1)]) <|
    .seq (.store (.off (.loc 1) 1) (.reg 23)) <|
    .seq (.call (some 24) glm_min.locals glm_min.nregs glm_min.body [.load (.off (.loc 1) 2), .load (.off (.loc 0) 2)]) <|
    .seq (.store (.off (.loc 1) 2) (.reg 24)) <|
    .seq (.call (some 25) glm_max.locals glm_max.nregs glm_max.body [.load (.loc 2), .load (.loc 0)]) <|
    .seq (.store (.loc 2) (.reg 25)) <|
    .seq (.call (some 26) glm_max.locals glm_max.nregs glm_max.body [.load (.off (.loc 2) 1), .load (.off (.loc 0) 1)]) <|
    .seq (.store (.off (.loc 2) 1) (.reg 26)) <|
    .seq (.call (some 27) glm_max.locals glm_max.nregs glm_max.body [.load (.off (.loc 2) 2), .load (.off (.loc 0) 2)]) <|
    .seq (.store (.off (.loc 2) 2) (.reg 27)) <|
    .seq (.call none glm_mat4_mulv.locals glm_mat4_mulv.nregs glm_mat4_mulv.body [.reg 1, .off (.reg 0) 16, .loc 0]) <|
    .seq (.call (some 28) glm_min.locals glm_min.nregs glm_min.body [.load (.loc 1), .load (.loc 0)]) <|
    .seq (.store (.loc 1) (.reg 28)) <|
    .seq (.call (some 29) glm_min.locals glm_min.nregs glm_min.body [.load (.off (.loc 1) 1), .load (.off (.loc 0) 1)]) <|
    .seq (.store (.off (.loc 1) 1) (.reg 29)) <|
    .seq (.call (some 30) glm_min.locals glm_min.nregs glm_min.body [.load (.off (.loc 1) 2), .load (.off (.loc 0) 2)]) <|
    .seq (.store (.off (.loc 1) 2) (.reg 30)) <|
    .seq (.call (some 31) glm_max.locals glm_max.nregs glm_max.body [.load (.loc 2), .load (.loc 0)]) <|
    .seq (.store (.loc 2) (.reg 31)) <|
    .seq (.call (some 32) glm_max.locals glm_max.nregs glm_max.body [.load (.off (.loc 2) 1), .load (.off (.loc 0) 1)]) <|
    .seq (.store (.off (.loc 2) 1) (.reg 32)) <|
    .seq (.call (some 33) glm_max.locals glm_max.nregs glm_max.body [.load (.off (.loc 2) 2), .load (.off (.loc 0) 2)]) <|
    .seq (.store (.off (.loc 2) 2) (.reg 33)) <|
    .seq (.call none glm_mat4_mulv.locals glm_mat4_mulv.nregs glm_mat4_mulv.body [.reg 1, .off (.reg 0) 20, .loc 0]) <|
    .seq (.call (some 34) glm_min.locals glm_min.nregs glm_min.body [.load (.loc 1), .load (.loc 0)]) <|
    .seq (.store (.loc 1) (.reg 34)) <|
    .seq (.call (some 35) glm_min.locals glm_min.nregs glm_min.body [.load (.off (.loc 1) 1), .load (.off (.loc 0) 1)]) <|
    .seq (.store (.off (.loc 1) 1) (.reg 35)) <|
    .seq (.call (some 36) glm_min.locals glm_min.nregs glm_min.body [.load (.off (.loc 1) 2), .load (.off (.loc 0) 2)]) <|
    .seq (.store (.off (.loc 1) 2) (.reg 36)) <|
    .seq (.call (some 37) glm_max.locals glm_max.nregs glm_max.body [.load (.loc 2), .load (.loc 0)]) <|
    .seq (.store (.loc 2) (.reg 37)) <|
    .seq (.call (some 38) glm_max.locals glm_max.nregs glm_max.body [.load (.off (.loc 2) 1), .load (.off (.loc 0) 1)]) <|
    .seq (.store (.off (.loc 2) 1) (.reg 38)) <|
    .seq (.call (some 39) glm_max.locals glm_max.nregs glm_max.body [.load (.off (.loc 2) 2), .load (.off (.loc 0) 2)]) <|
    .seq (.store (.off (.loc 2) 2) (.reg 39)) <|
    .seq (.call none glm_mat4_mulv.locals glm_mat4_mulv.nregs glm_mat4_mulv.body [.reg 1, .off (.reg 0) 24, .loc 0]) <|
    .seq (.call (some 40) glm_min.locals glm_min.nregs glm_min.body [.load (.loc 1), .load (.loc 0)]) <|
    .seq (.store (.loc 1) (.reg 40)) <|
    .seq (.call (some 41) glm_min.locals glm_min.nregs glm_min.body [.load (.off (.loc 1) 1), .load (.off (.loc 0) 1)]) <|
    .seq (.store (.off (.loc 1) 1) (.reg 41)) <|
    .seq (.call (some 42) glm_min.locals glm_min.nregs glm_min.body [.load (.off (.loc 1) 2), .load (.off (.loc 0) 2)]) <|
    .seq (.store (.off (.loc 1) 2) (.reg 42)) <|
    .seq (.call (some 43) glm_max.locals glm_max.nregs glm_max.body [.load (.loc 2), .load (.loc 0)]) <|
    .seq (.store (.loc 2) (.reg 43)) <|
    .seq (.call (some 44) glm_max.locals glm_max.nregs glm_max.body [.load (.off (.loc 2) 1), .load (.off (.loc 0) 1)]) <|
    .seq (.store (.off (.loc 2) 1) (.reg 44)) <|
    .seq (.call (some 45) glm_max.locals glm_max.nregs glm_max.body [.load (.off (.loc 2) 2), .load (.off (.loc 0) 2)]) <|
    .seq (.store (.off (.loc 2) 2) (.reg 45)) <|
    .seq (.call none glm_mat4_mulv.locals glm_mat4_mulv.nregs glm_mat4_mulv.body [.reg 1, .off (.reg 0) 28, .loc 0]) <|
    .seq (.call (some 46) glm_min.locals glm_min.nregs glm_min.body [.load (.loc 1), .load (.loc 0)]) <|
    .seq (.store (.loc 1) (.reg 46)) <|
    .seq (.call (some 47) glm_min.locals glm_min.nregs glm_min.body [.load (.off (.loc 1) 1), .load (.off (.loc 0) 1)]) <|
    .seq (.store (.off (.loc 1) 1) (.reg 47)) <|
    .seq (.call (some 48) glm_min.locals glm_min.nregs glm_min.body [.load (.off (.loc 1) 2), .load (.off (.loc 0) 2)]) <|
    .seq (.store (.off (.loc 1) 2) (.reg 48)) <|
    .seq (.call (some 49) glm_max.locals glm_max.nregs glm_max.body [.load (.loc 2), .load (.loc 0)]) <|
    .seq (.store (.loc 2) (.reg 49)) <|
    .seq (.call (some 50) glm_max.locals glm_max.nregs glm_max.body [.load (.off (.loc 2) 1), .load (.off (.loc 0) 1)]) <|
    .seq (.store (.off (.loc 2) 1) (.reg 50)) <|
    .seq (.call (some 51) glm_max.locals glm_max.nregs glm_max.body [.load (.off (.loc 2) 2), .load (.off (.loc 0) 2)]) <|
    .seq (.store (.off (.loc 2) 2) (.reg 51)) <|
    .seq (.call none glm_vec3_copy.locals glm_vec3_copy.nregs glm_vec3_copy.body [.loc 1, .reg 2]) <|
    .call none glm_vec3_copy.locals glm_vec3_copy.nregs glm_vec3_copy.body [.loc 2, .off (.reg 2) 3]

/-- `glm_frustum_corners_at`: include/cglm/frustum.h:221-253. -/
def glm_frustum_corners_at : Fn where
  locals := [4]
  nregs := 3
  body := 
    .seq (.call (some 6) glm_vec3_distance.locals glm_vec3_distance.nregs glm_vec3_distance.body [.off (.reg 0) 24, .off (.reg 0) 8]) <|
    .seq (.set 4 (.reg 6)) <|
    .seq (.set 5 (.f2 .mul (.reg 4) (.f2 .div (.reg 1) (.reg 2)))) <|
    .seq (.call none glm_vec4_sub.locals glm_vec4_sub.nregs glm_vec4_sub.body [.off (.reg 0) 16, .reg 0, .loc 0]) <|
    .seq (.call none glm_vec4_scale_as.locals glm_vec4_scale_as.nregs glm_vec4_scale_as.body [.loc 0, .reg 5, .loc 0]) <|
    .seq (.call none glm_vec4_add.locals glm_vec4_add.nregs glm_vec4_add.body [.reg 0, .loc 0, .reg 3]) <|
    .seq (.call none glm_vec4_sub.locals glm_vec4_sub.nregs glm_vec4_sub.body [.off (.reg 0) 20, .off (.reg 0) 4, .loc 0]) <|
    .seq (.call none glm_vec4_scale_as.locals glm_vec4_scale_as.nregs glm_vec4_scale_as.body [.loc 0, .reg 5, .loc 0]) <|
    .seq (.call none glm_vec4_add.locals glm_vec4_add.nregs glm_vec4_add.body [.off (.reg 0) 4, .loc 0, .off (.reg 3) 4]) <|
    .seq (.call none glm_vec4_sub.locals glm_vec4_sub.nregs glm_vec4_sub.body [.off (.reg 0) 24, .off (.reg 0) 8, .loc 0]) <|
    .seq (.call none glm_vec4_scale_as.locals glm_vec4_scale_as.nregs glm_vec4_scale_as.body [.loc 0, .reg 5, .loc 0]) <|
    .seq (.call none glm_vec4_add.locals glm_vec4_add.nregs glm_vec4_add.body [.off (.reg 0) 8, .loc 0, .off (.reg 3) 8]) <|
    .seq (.call none glm_vec4_sub.locals glm_vec4_sub.nregs glm_vec4_sub.body [.off (.reg 0) 28, .off (.reg 0) 12, .loc 0]) <|
    .seq (.call none glm_vec4_scale_as.locals glm_vec4_scale_as.nregs glm_vec4_scale_as.body [.loc 0, .reg 5, .loc 0]) <|
    .call none glm_vec4_add.locals glm_vec4_add.nregs glm_vec4_add.body [.off (.reg 0) 12, .loc 0, .off (.reg 3) 12]

end Cglm.C

end Frustum

section Ray

/- Generated from include/cglm/ray.h by tools/memgen.py (memory semantics); do not edit by hand. -/

set_option maxRecDepth 10000

namespace Cglm.C
open CMem

/-- `glm_ray_triangle`: include/cglm/ray.h:40-80.  Simplified: optional output pointers are taken to be non-NULL. -/
def glm_ray_triangle : Fn where
  locals := [3, 3, 3, 3, 3]
  nregs := 10
  body := 
    .seq (.set 11 (.flit 0.000001)) <|
    .seq (.call none glm_vec3_sub.locals glm_vec3_sub.nregs glm_vec3_sub.body [.reg 3, .reg 2, .loc 0]) <|
    .seq (.call none glm_vec3_sub.locals glm_vec3_sub.nregs glm_vec3_sub.body [.reg 4, .reg 2, .loc 1]) <|
    .seq (.call none glm_vec3_cross.locals glm_vec3_cross.nregs glm_vec3_cross.body [.reg 1, .loc 1, .loc 2]) <|
    .seq (.call (some 12) glm_vec3_dot.locals glm_vec3_dot.nregs glm_vec3_dot.body [.loc 0, .loc 2]) <|
    .seq (.set 6 (.reg 12)) <|
    .seq (.ite (.and (.fc .lt (.f1 .neg (.reg 11)) (.reg 6)) (.fc .lt (.reg 6) (.reg 11))) (.ret (.blit false)) (.skip)) <|
    .seq (.set 7 (.f2 .div (.flit 1) (.reg 6))) <|
    .seq (.call none glm_vec3_sub.locals glm_vec3_sub.nregs glm_vec3_sub.body [.reg 0, .reg 2, .loc 3]) <|
    .seq (.call (some 13) glm_vec3_dot.locals glm_vec3_dot.nregs glm_vec3_dot.body [.loc 3, .loc 2]) <|
    .seq (.set 8 (.f2 .mul (.reg 7) (.reg 13))) <|
    .seq (.ite (.or (.fc .lt (.reg 8) (.flit 0)) (.fc .lt (.flit 1) (.reg 8))) (.ret (.blit false)) (.skip)) <|
    .seq (.call none glm_vec3_cross.locals glm_vec3_cross.nregs glm_vec3_cross.body [.loc 3, .loc 0, .loc 4]) <|
    .seq (.call (some 14) glm_vec3_dot.locals glm_vec3_dot.nregs glm_vec3_dot.body [.reg 1, .loc 4]) <|
    .seq (.set 9 (.f2 .mul (.reg 7) (.reg 14))) <|
    .seq (.ite (.or (.fc .lt (.reg 9) (.flit 0)) (.fc .lt (.flit 1) (.f2 .add (.reg 8) (.reg 9)))) (.ret (.blit false)) (.skip)) <|
    .seq (.call (some 15) glm_vec3_dot.locals glm_vec3_dot.nregs glm_vec3_dot.body [.loc 1, .loc 4]) <|
    .seq (.set 10 (.f2 .mul (.reg 7) (.reg 15))) <|
    .seq (.store (.reg 5) (.reg 10)) <|
    .ret (.fc .lt (.reg 11) (.reg 10))

/-- `glm_ray_sphere`: include/cglm/ray.h:102-156. -/
def glm_ray_sphere : Fn where
  locals := [3]
  nregs := 11
  body := 
    .seq (.call none glm_vec3_sub.locals glm_vec3_sub.nregs glm_vec3_sub.body [.reg 2, .reg 0, .loc 0]) <|
    .seq (.call (some 13) glm_vec3_dot.locals glm_vec3_dot.nregs glm_vec3_dot.body [.reg 1, .loc 0]) <|
    .seq (.set 6 (.reg 13)) <|
    .seq (.call (some 14) glm_vec3_norm2.locals glm_vec3_norm2.nregs glm_vec3_norm2.body [.loc 0]) <|
    .seq (.set 7 (.reg 14)) <|
    .seq (.call none glm_vec3_mulsubs.locals glm_vec3_mulsubs.nregs glm_vec3_mulsubs.body [.reg 1, .reg 6, .loc 0]) <|
    .seq (.set 5 (.f2 .mul (.load (.off (.reg 2) 3)) (.load (.off (.reg 2) 3)))) <|
    .seq (.call (some 15) glm_vec3_norm2.locals glm_vec3_norm2.nregs glm_vec3_norm2.body [.loc 0]) <|
    .seq (.set 8 (.f2 .sub (.reg 5) (.reg 15))) <|
    .seq (.ite (.fc .lt (.reg 8) (.flit 0)) (.ret (.blit false)) (.skip)) <|
    .seq (.set 8 (.f1 .sqrtf (.reg 8))) <|
    .seq (.set 9 (.ite (.fc .le (.flit 0) (.reg 6)) (.f2 .add (.reg 6) (.reg 8)) (.f2 .sub (.reg 6) (.reg 8)))) <|
    .seq (.set 11 (.reg 9)) <|
    .seq (.set 12 (.f2 .div (.f2 .sub (.reg 7) (.reg 5)) (.reg 9))) <|
    .seq (.ite (.fc .lt (.reg 12) (.reg 11)) (.seq (.set 10 (.reg 11)) (.seq (.set 11 (.reg 12)) (.set 12 (.reg 10)))) (.skip)) <|
    .seq (.store (.reg 3) (.reg 11)) <|
    .seq (.store (.reg 4) (.reg 12)) <|
    .seq (.ite (.and (.fc .lt (.reg 11) (.flit 0)) (.fc .lt (.reg 12) (.flit 0))) (.ret (.blit false)) (.skip)) <|
    .ret (.blit true)

/-- `glm_ray_at`: include/cglm/ray.h:166-172. -/
def glm_ray_at : Fn where
  locals := [3]
  nregs := 0
  body := 
    .seq (.call none glm_vec3_scale.locals glm_vec3_scale.nregs glm_vec3_scale.body [.reg 1, .reg 2, .loc 0]) <|
    .call none glm_vec3_add.locals glm_vec3_add.nregs glm_vec3_add.body [.reg 0, .loc 0, .reg 3]

end Cglm.C

end Ray

section Sphere

/- Generated from include/cglm/sphere.h by tools/memgen.py (memory semantics); do not edit by hand. -/

set_option maxRecDepth 10000

namespace Cglm.C
open CMem

/-- `glm_sphere_radii`: include/cglm/sphere.h:28-32. -/
def glm_sphere_radii : Fn where
  locals := []
  nregs := 0
  body := .ret (.load (.off (.reg 0) 3))

/-- `glm_sphere_transform`: include/cglm/sphere.h:41-46. -/
def glm_sphere_transform : Fn where
  locals := []
  nregs := 0
  body := 
    .seq (.call none glm_mat4_mulv3.locals glm_mat4_mulv3.nregs glm_mat4_mulv3.body [.reg 1, .reg 0, .flit 1, .reg 2]) <|
    .store (.off (.reg 2) 3) (.load (.off (.reg 0) 3))

/-- `glm_sphere_merge`: include/cglm/sphere.h:58-71. -/
def glm_sphere_merge : Fn where
  locals := []
  nregs := 5
  body := 
    .seq (.call (some 5) glm_vec3_distance.locals glm_vec3_distance.nregs glm_vec3_distance.body [.reg 0, .reg 1]) <|
    .seq (.set 3 (.reg 5)) <|
    .seq (.set 4 (.f2 .add (.f2 .add (.reg 3) (.load (.off (.reg 0) 3))) (.load (.off (.reg 1) 3)))) <|
    .seq (.call (some 6) glm_max.locals glm_max.nregs glm_max.body [.reg 4, .load (.off (.reg 0) 3)]) <|
    .seq (.set 4 (.reg 6)) <|
    .seq (.call (some 7) glm_max.locals glm_max.nregs glm_max.body [.reg 4, .load (.off (.reg 1) 3)]) <|
    .seq (.set 4 (.reg 7)) <|
    .seq (.call none glm_vec3_center.locals glm_vec3_center.nregs glm_vec3_center.body [.reg 0, .reg 1, .reg 2]) <|
    .store (.off (.reg 2) 3) (.reg 4)

/-- `glm_sphere_sphere`: include/cglm/sphere.h:79-83. -/
def glm_sphere_sphere : Fn where
  locals := []
  nregs := 2
  body := 
    .seq (.call (some 2) glm_vec3_distance2.locals glm_vec3_distance2.nregs glm_vec3_distance2.body [.reg 0, .reg 1]) <|
    .seq (.call (some 3) glm_pow2.locals glm_pow2.nregs glm_pow2.body [.f2 .add (.load (.off (.reg 0) 3)) (.load (.off (.reg 1) 3))]) <|
    .ret (.fc .le (.reg 2) (.reg 3))

/-- `glm_sphere_point`: include/cglm/sphere.h:91-97. -/
def glm_sphere_point : Fn where
  locals := []
  nregs := 2
  body := 
    .seq (.set 2 (.f2 .mul (.load (.off (.reg 0) 3)) (.load (.off (.reg 0) 3)))) <|
    .seq (.call (some 3) glm_vec3_distance2.locals glm_vec3_distance2.nregs glm_vec3_distance2.body [.reg 1, .reg 0]) <|
    .ret (.fc .le (.reg 3) (.reg 2))

end Cglm.C

end Sphere
