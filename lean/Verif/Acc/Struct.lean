import Verif.Access
/-! Generated by tools/accgen.py from the headers and src; do not edit by hand. -/
namespace Cglm.Acc

/-- `glms_vec2_fill`: include/cglm/struct/vec2-ext.h:52-58 -/
def f_glms_vec2_fill : Fn := ⟨[⟨8, []⟩],
  [.call 24 [⟨0, 0, []⟩]]⟩
/-- `glms_vec2_eq`: include/cglm/struct/vec2-ext.h:66-70 -/
def f_glms_vec2_eq : Fn := ⟨[⟨8, []⟩],
  [.call 25 [⟨0, 0, []⟩]]⟩
/-- `glms_vec2_eq_eps`: include/cglm/struct/vec2-ext.h:78-82 -/
def f_glms_vec2_eq_eps : Fn := ⟨[⟨8, []⟩],
  [.call 26 [⟨0, 0, []⟩]]⟩
/-- `glms_vec2_eq_all`: include/cglm/struct/vec2-ext.h:89-93 -/
def f_glms_vec2_eq_all : Fn := ⟨[⟨8, []⟩],
  [.call 27 [⟨0, 0, []⟩]]⟩
/-- `glms_vec2_eqv`: include/cglm/struct/vec2-ext.h:101-105 -/
def f_glms_vec2_eqv : Fn := ⟨[⟨8, []⟩, ⟨8, []⟩],
  [.call 28 [⟨0, 0, []⟩, ⟨1, 0, []⟩]]⟩
/-- `glms_vec2_eqv_eps`: include/cglm/struct/vec2-ext.h:113-117 -/
def f_glms_vec2_eqv_eps : Fn := ⟨[⟨8, []⟩, ⟨8, []⟩],
  [.call 29 [⟨0, 0, []⟩, ⟨1, 0, []⟩]]⟩
/-- `glms_vec2_max`: include/cglm/struct/vec2-ext.h:124-128 -/
def f_glms_vec2_max : Fn := ⟨[⟨8, []⟩],
  [.call 30 [⟨0, 0, []⟩]]⟩
/-- `glms_vec2_min`: include/cglm/struct/vec2-ext.h:135-139 -/
def f_glms_vec2_min : Fn := ⟨[⟨8, []⟩],
  [.call 31 [⟨0, 0, []⟩]]⟩
/-- `glms_vec2_isnan`: include/cglm/struct/vec2-ext.h:147-151 -/
def f_glms_vec2_isnan : Fn := ⟨[⟨8, []⟩],
  [.call 32 [⟨0, 0, []⟩]]⟩
/-- `glms_vec2_isinf`: include/cglm/struct/vec2-ext.h:159-163 -/
def f_glms_vec2_isinf : Fn := ⟨[⟨8, []⟩],
  [.call 33 [⟨0, 0, []⟩]]⟩
/-- `glms_vec2_isvalid`: include/cglm/struct/vec2-ext.h:171-175 -/
def f_glms_vec2_isvalid : Fn := ⟨[⟨8, []⟩],
  [.call 34 [⟨0, 0, []⟩]]⟩
/-- `glms_vec2_sign`: include/cglm/struct/vec2-ext.h:185-191 -/
def f_glms_vec2_sign : Fn := ⟨[⟨8, []⟩, ⟨8, []⟩],
  [.call 35 [⟨0, 0, []⟩, ⟨1, 0, []⟩]]⟩
/-- `glms_vec2_abs`: include/cglm/struct/vec2-ext.h:199-205 -/
def f_glms_vec2_abs : Fn := ⟨[⟨8, []⟩, ⟨8, []⟩],
  [.call 36 [⟨0, 0, []⟩, ⟨1, 0, []⟩]]⟩
/-- `glms_vec2_fract`: include/cglm/struct/vec2-ext.h:213-219 -/
def f_glms_vec2_fract : Fn := ⟨[⟨8, []⟩, ⟨8, []⟩],
  [.call 37 [⟨0, 0, []⟩, ⟨1, 0, []⟩]]⟩
/-- `glms_vec2_floor`: include/cglm/struct/vec2-ext.h:227-233 -/
def f_glms_vec2_floor : Fn := ⟨[⟨8, []⟩, ⟨8, []⟩],
  [.call 38 [⟨0, 0, []⟩, ⟨1, 0, []⟩]]⟩
/-- `glms_vec2_mods`: include/cglm/struct/vec2-ext.h:242-248 -/
def f_glms_vec2_mods : Fn := ⟨[⟨8, []⟩, ⟨8, []⟩],
  [.call 39 [⟨0, 0, []⟩, ⟨1, 0, []⟩]]⟩
/-- `glms_vec2_steps`: include/cglm/struct/vec2-ext.h:258-264 -/
def f_glms_vec2_steps : Fn := ⟨[⟨8, []⟩, ⟨8, []⟩],
  [.call 42 [⟨0, 0, []⟩, ⟨1, 0, []⟩]]⟩
/-- `glms_vec2_stepr`: include/cglm/struct/vec2-ext.h:274-280 -/
def f_glms_vec2_stepr : Fn := ⟨[⟨8, []⟩, ⟨8, []⟩],
  [.call 43 [⟨0, 0, []⟩, ⟨1, 0, []⟩]]⟩
/-- `glms_vec2_sqrt`: include/cglm/struct/vec2-ext.h:288-294 -/
def f_glms_vec2_sqrt : Fn := ⟨[⟨8, []⟩, ⟨8, []⟩],
  [.call 40 [⟨0, 0, []⟩, ⟨1, 0, []⟩]]⟩
/-- `glms_vec2_complex_mul`: include/cglm/struct/vec2-ext.h:303-308 -/
def f_glms_vec2_complex_mul : Fn := ⟨[⟨8, []⟩, ⟨8, []⟩, ⟨8, []⟩],
  [.call 41 [⟨0, 0, []⟩, ⟨1, 0, []⟩, ⟨2, 0, []⟩]]⟩
/-- `glms_vec2_complex_div`: include/cglm/struct/vec2-ext.h:317-322 -/
def f_glms_vec2_complex_div : Fn := ⟨[⟨8, []⟩, ⟨8, []⟩, ⟨8, []⟩],
  [.call 44 [⟨0, 0, []⟩, ⟨1, 0, []⟩, ⟨2, 0, []⟩]]⟩
/-- `glms_vec2_complex_conjugate`: include/cglm/struct/vec2-ext.h:330-335 -/
def f_glms_vec2_complex_conjugate : Fn := ⟨[⟨8, []⟩, ⟨8, []⟩],
  [.call 45 [⟨0, 0, []⟩, ⟨1, 0, []⟩]]⟩
/-- `glms_vec2`: include/cglm/struct/vec2.h:83-89 -/
def f_glms_vec2 : Fn := ⟨[⟨12, []⟩, ⟨8, []⟩],
  [.call 46 [⟨0, 0, []⟩, ⟨1, 0, []⟩]]⟩
/-- `glms_vec2_pack`: include/cglm/struct/vec2.h:98-106 -/
def f_glms_vec2_pack : Fn := ⟨[],
  [.call 47 [⟨1, 0, []⟩, ⟨0, 0, []⟩]]⟩
/-- `glms_vec2_unpack`: include/cglm/struct/vec2.h:115-123 -/
def f_glms_vec2_unpack : Fn := ⟨[],
  [.call 47 [⟨1, 0, []⟩, ⟨0, 0, []⟩]]⟩
/-- `glms_vec2_zero`: include/cglm/struct/vec2.h:130-136 -/
def f_glms_vec2_zero : Fn := ⟨[⟨8, []⟩],
  [.call 48 [⟨0, 0, []⟩]]⟩
/-- `glms_vec2_one`: include/cglm/struct/vec2.h:143-149 -/
def f_glms_vec2_one : Fn := ⟨[⟨8, []⟩],
  [.call 49 [⟨0, 0, []⟩]]⟩
/-- `glms_vec2_dot`: include/cglm/struct/vec2.h:159-163 -/
def f_glms_vec2_dot : Fn := ⟨[⟨8, []⟩, ⟨8, []⟩],
  [.call 50 [⟨0, 0, []⟩, ⟨1, 0, []⟩]]⟩
/-- `glms_vec2_cross`: include/cglm/struct/vec2.h:175-179 -/
def f_glms_vec2_cross : Fn := ⟨[⟨8, []⟩, ⟨8, []⟩],
  [.call 51 [⟨0, 0, []⟩, ⟨1, 0, []⟩]]⟩
/-- `glms_vec2_norm2`: include/cglm/struct/vec2.h:192-196 -/
def f_glms_vec2_norm2 : Fn := ⟨[⟨8, []⟩],
  [.call 52 [⟨0, 0, []⟩]]⟩
/-- `glms_vec2_norm`: include/cglm/struct/vec2.h:205-209 -/
def f_glms_vec2_norm : Fn := ⟨[⟨8, []⟩],
  [.call 53 [⟨0, 0, []⟩]]⟩
/-- `glms_vec2_add`: include/cglm/struct/vec2.h:218-224 -/
def f_glms_vec2_add : Fn := ⟨[⟨8, []⟩, ⟨8, []⟩, ⟨8, []⟩],
  [.call 54 [⟨0, 0, []⟩, ⟨1, 0, []⟩, ⟨2, 0, []⟩]]⟩
/-- `glms_vec2_adds`: include/cglm/struct/vec2.h:233-239 -/
def f_glms_vec2_adds : Fn := ⟨[⟨8, []⟩, ⟨8, []⟩],
  [.call 55 [⟨0, 0, []⟩, ⟨1, 0, []⟩]]⟩
/-- `glms_vec2_sub`: include/cglm/struct/vec2.h:248-254 -/
def f_glms_vec2_sub : Fn := ⟨[⟨8, []⟩, ⟨8, []⟩, ⟨8, []⟩],
  [.call 56 [⟨0, 0, []⟩, ⟨1, 0, []⟩, ⟨2, 0, []⟩]]⟩
/-- `glms_vec2_subs`: include/cglm/struct/vec2.h:263-269 -/
def f_glms_vec2_subs : Fn := ⟨[⟨8, []⟩, ⟨8, []⟩],
  [.call 57 [⟨0, 0, []⟩, ⟨1, 0, []⟩]]⟩
/-- `glms_vec2_mul`: include/cglm/struct/vec2.h:278-284 -/
def f_glms_vec2_mul : Fn := ⟨[⟨8, []⟩, ⟨8, []⟩, ⟨8, []⟩],
  [.call 58 [⟨0, 0, []⟩, ⟨1, 0, []⟩, ⟨2, 0, []⟩]]⟩
/-- `glms_vec2_scale`: include/cglm/struct/vec2.h:293-299 -/
def f_glms_vec2_scale : Fn := ⟨[⟨8, []⟩, ⟨8, []⟩],
  [.call 59 [⟨0, 0, []⟩, ⟨1, 0, []⟩]]⟩
/-- `glms_vec2_scale_as`: include/cglm/struct/vec2.h:308-314 -/
def f_glms_vec2_scale_as : Fn := ⟨[⟨8, []⟩, ⟨8, []⟩],
  [.call 60 [⟨0, 0, []⟩, ⟨1, 0, []⟩]]⟩
/-- `glms_vec2_div`: include/cglm/struct/vec2.h:323-329 -/
def f_glms_vec2_div : Fn := ⟨[⟨8, []⟩, ⟨8, []⟩, ⟨8, []⟩],
  [.call 61 [⟨0, 0, []⟩, ⟨1, 0, []⟩, ⟨2, 0, []⟩]]⟩
/-- `glms_vec2_divs`: include/cglm/struct/vec2.h:338-344 -/
def f_glms_vec2_divs : Fn := ⟨[⟨8, []⟩, ⟨8, []⟩],
  [.call 62 [⟨0, 0, []⟩, ⟨1, 0, []⟩]]⟩
/-- `glms_vec2_addadd`: include/cglm/struct/vec2.h:355-360 -/
def f_glms_vec2_addadd : Fn := ⟨[⟨8, []⟩, ⟨8, []⟩, ⟨8, []⟩],
  [.call 63 [⟨0, 0, []⟩, ⟨1, 0, []⟩, ⟨2, 0, []⟩]]⟩
/-- `glms_vec2_subadd`: include/cglm/struct/vec2.h:371-376 -/
def f_glms_vec2_subadd : Fn := ⟨[⟨8, []⟩, ⟨8, []⟩, ⟨8, []⟩],
  [.call 64 [⟨0, 0, []⟩, ⟨1, 0, []⟩, ⟨2, 0, []⟩]]⟩
/-- `glms_vec2_muladd`: include/cglm/struct/vec2.h:387-392 -/
def f_glms_vec2_muladd : Fn := ⟨[⟨8, []⟩, ⟨8, []⟩, ⟨8, []⟩],
  [.call 65 [⟨0, 0, []⟩, ⟨1, 0, []⟩, ⟨2, 0, []⟩]]⟩
/-- `glms_vec2_muladds`: include/cglm/struct/vec2.h:403-408 -/
def f_glms_vec2_muladds : Fn := ⟨[⟨8, []⟩, ⟨8, []⟩],
  [.call 66 [⟨0, 0, []⟩, ⟨1, 0, []⟩]]⟩
/-- `glms_vec2_maxadd`: include/cglm/struct/vec2.h:419-424 -/
def f_glms_vec2_maxadd : Fn := ⟨[⟨8, []⟩, ⟨8, []⟩, ⟨8, []⟩],
  [.call 67 [⟨0, 0, []⟩, ⟨1, 0, []⟩, ⟨2, 0, []⟩]]⟩
/-- `glms_vec2_minadd`: include/cglm/struct/vec2.h:435-440 -/
def f_glms_vec2_minadd : Fn := ⟨[⟨8, []⟩, ⟨8, []⟩, ⟨8, []⟩],
  [.call 68 [⟨0, 0, []⟩, ⟨1, 0, []⟩, ⟨2, 0, []⟩]]⟩
/-- `glms_vec2_subsub`: include/cglm/struct/vec2.h:451-456 -/
def f_glms_vec2_subsub : Fn := ⟨[⟨8, []⟩, ⟨8, []⟩, ⟨8, []⟩],
  [.call 69 [⟨0, 0, []⟩, ⟨1, 0, []⟩, ⟨2, 0, []⟩]]⟩
/-- `glms_vec2_addsub`: include/cglm/struct/vec2.h:467-472 -/
def f_glms_vec2_addsub : Fn := ⟨[⟨8, []⟩, ⟨8, []⟩, ⟨8, []⟩],
  [.call 70 [⟨0, 0, []⟩, ⟨1, 0, []⟩, ⟨2, 0, []⟩]]⟩
/-- `glms_vec2_mulsub`: include/cglm/struct/vec2.h:483-488 -/
def f_glms_vec2_mulsub : Fn := ⟨[⟨8, []⟩, ⟨8, []⟩, ⟨8, []⟩],
  [.call 71 [⟨0, 0, []⟩, ⟨1, 0, []⟩, ⟨2, 0, []⟩]]⟩
/-- `glms_vec2_mulsubs`: include/cglm/struct/vec2.h:499-504 -/
def f_glms_vec2_mulsubs : Fn := ⟨[⟨8, []⟩, ⟨8, []⟩],
  [.call 72 [⟨0, 0, []⟩, ⟨1, 0, []⟩]]⟩
/-- `glms_vec2_maxsub`: include/cglm/struct/vec2.h:515-520 -/
def f_glms_vec2_maxsub : Fn := ⟨[⟨8, []⟩, ⟨8, []⟩, ⟨8, []⟩],
  [.call 73 [⟨0, 0, []⟩, ⟨1, 0, []⟩, ⟨2, 0, []⟩]]⟩
/-- `glms_vec2_minsub`: include/cglm/struct/vec2.h:531-536 -/
def f_glms_vec2_minsub : Fn := ⟨[⟨8, []⟩, ⟨8, []⟩, ⟨8, []⟩],
  [.call 74 [⟨0, 0, []⟩, ⟨1, 0, []⟩, ⟨2, 0, []⟩]]⟩
/-- `glms_vec2_negate`: include/cglm/struct/vec2.h:544-549 -/
def f_glms_vec2_negate : Fn := ⟨[⟨8, []⟩],
  [.call 76 [⟨0, 0, []⟩]]⟩
/-- `glms_vec2_normalize`: include/cglm/struct/vec2.h:557-562 -/
def f_glms_vec2_normalize : Fn := ⟨[⟨8, []⟩],
  [.call 77 [⟨0, 0, []⟩]]⟩
/-- `glms_vec2_rotate`: include/cglm/struct/vec2.h:571-577 -/
def f_glms_vec2_rotate : Fn := ⟨[⟨8, []⟩, ⟨8, []⟩],
  [.call 79 [⟨0, 0, []⟩, ⟨1, 0, []⟩]]⟩
/-- `glms_vec2_center`: include/cglm/struct/vec2.h:586-592 -/
def f_glms_vec2_center : Fn := ⟨[⟨8, []⟩, ⟨8, []⟩, ⟨8, []⟩],
  [.call 80 [⟨0, 0, []⟩, ⟨1, 0, []⟩, ⟨2, 0, []⟩]]⟩
/-- `glms_vec2_distance`: include/cglm/struct/vec2.h:601-605 -/
def f_glms_vec2_distance : Fn := ⟨[⟨8, []⟩, ⟨8, []⟩],
  [.call 82 [⟨0, 0, []⟩, ⟨1, 0, []⟩]]⟩
/-- `glms_vec2_distance2`: include/cglm/struct/vec2.h:614-618 -/
def f_glms_vec2_distance2 : Fn := ⟨[⟨8, []⟩, ⟨8, []⟩],
  [.call 81 [⟨0, 0, []⟩, ⟨1, 0, []⟩]]⟩
/-- `glms_vec2_maxv`: include/cglm/struct/vec2.h:627-633 -/
def f_glms_vec2_maxv : Fn := ⟨[⟨8, []⟩, ⟨8, []⟩, ⟨8, []⟩],
  [.call 83 [⟨0, 0, []⟩, ⟨1, 0, []⟩, ⟨2, 0, []⟩]]⟩
/-- `glms_vec2_minv`: include/cglm/struct/vec2.h:642-648 -/
def f_glms_vec2_minv : Fn := ⟨[⟨8, []⟩, ⟨8, []⟩, ⟨8, []⟩],
  [.call 84 [⟨0, 0, []⟩, ⟨1, 0, []⟩, ⟨2, 0, []⟩]]⟩
/-- `glms_vec2_clamp`: include/cglm/struct/vec2.h:658-663 -/
def f_glms_vec2_clamp : Fn := ⟨[⟨8, []⟩],
  [.call 85 [⟨0, 0, []⟩]]⟩
/-- `glms_vec2_lerp`: include/cglm/struct/vec2.h:675-681 -/
def f_glms_vec2_lerp : Fn := ⟨[⟨8, []⟩, ⟨8, []⟩, ⟨8, []⟩],
  [.call 87 [⟨0, 0, []⟩, ⟨1, 0, []⟩, ⟨2, 0, []⟩]]⟩
/-- `glms_vec2_step`: include/cglm/struct/vec2.h:690-696 -/
def f_glms_vec2_step : Fn := ⟨[⟨8, []⟩, ⟨8, []⟩, ⟨8, []⟩],
  [.call 88 [⟨0, 0, []⟩, ⟨1, 0, []⟩, ⟨2, 0, []⟩]]⟩
/-- `glms_vec2_make`: include/cglm/struct/vec2.h:704-710 -/
def f_glms_vec2_make : Fn := ⟨[⟨8, []⟩],
  [.call 89 [⟨0, 0, []⟩, ⟨1, 0, []⟩]]⟩
/-- `glms_vec2_reflect`: include/cglm/struct/vec2.h:719-725 -/
def f_glms_vec2_reflect : Fn := ⟨[⟨8, []⟩, ⟨8, []⟩, ⟨8, []⟩],
  [.call 90 [⟨0, 0, []⟩, ⟨1, 0, []⟩, ⟨2, 0, []⟩]]⟩
/-- `glms_vec2_refract`: include/cglm/struct/vec2.h:741-745 -/
def f_glms_vec2_refract : Fn := ⟨[⟨8, []⟩, ⟨8, []⟩],
  [.call 91 [⟨1, 0, []⟩, ⟨2, 0, []⟩, ⟨0, 0, []⟩]]⟩
/-- `glms_vec3_broadcast`: include/cglm/struct/vec3-ext.h:54-60 -/
def f_glms_vec3_broadcast : Fn := ⟨[⟨12, []⟩],
  [.call 92 [⟨0, 0, []⟩]]⟩
/-- `glms_vec3_fill`: include/cglm/struct/vec3-ext.h:68-74 -/
def f_glms_vec3_fill : Fn := ⟨[⟨12, []⟩],
  [.call 93 [⟨0, 0, []⟩]]⟩
/-- `glms_vec3_eq`: include/cglm/struct/vec3-ext.h:82-86 -/
def f_glms_vec3_eq : Fn := ⟨[⟨12, []⟩],
  [.call 94 [⟨0, 0, []⟩]]⟩
/-- `glms_vec3_eq_eps`: include/cglm/struct/vec3-ext.h:94-98 -/
def f_glms_vec3_eq_eps : Fn := ⟨[⟨12, []⟩],
  [.call 95 [⟨0, 0, []⟩]]⟩
/-- `glms_vec3_eq_all`: include/cglm/struct/vec3-ext.h:105-109 -/
def f_glms_vec3_eq_all : Fn := ⟨[⟨12, []⟩],
  [.call 96 [⟨0, 0, []⟩]]⟩
/-- `glms_vec3_eqv`: include/cglm/struct/vec3-ext.h:117-121 -/
def f_glms_vec3_eqv : Fn := ⟨[⟨12, []⟩, ⟨12, []⟩],
  [.call 97 [⟨0, 0, []⟩, ⟨1, 0, []⟩]]⟩
/-- `glms_vec3_eqv_eps`: include/cglm/struct/vec3-ext.h:129-133 -/
def f_glms_vec3_eqv_eps : Fn := ⟨[⟨12, []⟩, ⟨12, []⟩],
  [.call 98 [⟨0, 0, []⟩, ⟨1, 0, []⟩]]⟩
/-- `glms_vec3_max`: include/cglm/struct/vec3-ext.h:140-144 -/
def f_glms_vec3_max : Fn := ⟨[⟨12, []⟩],
  [.call 99 [⟨0, 0, []⟩]]⟩
/-- `glms_vec3_min`: include/cglm/struct/vec3-ext.h:151-155 -/
def f_glms_vec3_min : Fn := ⟨[⟨12, []⟩],
  [.call 100 [⟨0, 0, []⟩]]⟩
/-- `glms_vec3_isnan`: include/cglm/struct/vec3-ext.h:163-167 -/
def f_glms_vec3_isnan : Fn := ⟨[⟨12, []⟩],
  [.call 101 [⟨0, 0, []⟩]]⟩
/-- `glms_vec3_isinf`: include/cglm/struct/vec3-ext.h:175-179 -/
def f_glms_vec3_isinf : Fn := ⟨[⟨12, []⟩],
  [.call 102 [⟨0, 0, []⟩]]⟩
/-- `glms_vec3_isvalid`: include/cglm/struct/vec3-ext.h:187-191 -/
def f_glms_vec3_isvalid : Fn := ⟨[⟨12, []⟩],
  [.call 103 [⟨0, 0, []⟩]]⟩
/-- `glms_vec3_sign`: include/cglm/struct/vec3-ext.h:201-207 -/
def f_glms_vec3_sign : Fn := ⟨[⟨12, []⟩, ⟨12, []⟩],
  [.call 104 [⟨0, 0, []⟩, ⟨1, 0, []⟩]]⟩
/-- `glms_vec3_abs`: include/cglm/struct/vec3-ext.h:215-221 -/
def f_glms_vec3_abs : Fn := ⟨[⟨12, []⟩, ⟨12, []⟩],
  [.call 105 [⟨0, 0, []⟩, ⟨1, 0, []⟩]]⟩
/-- `glms_vec3_fract`: include/cglm/struct/vec3-ext.h:229-235 -/
def f_glms_vec3_fract : Fn := ⟨[⟨12, []⟩, ⟨12, []⟩],
  [.call 106 [⟨0, 0, []⟩, ⟨1, 0, []⟩]]⟩
/-- `glms_vec3_floor`: include/cglm/struct/vec3-ext.h:243-249 -/
def f_glms_vec3_floor : Fn := ⟨[⟨12, []⟩, ⟨12, []⟩],
  [.call 107 [⟨0, 0, []⟩, ⟨1, 0, []⟩]]⟩
/-- `glms_vec3_mods`: include/cglm/struct/vec3-ext.h:258-264 -/
def f_glms_vec3_mods : Fn := ⟨[⟨12, []⟩, ⟨12, []⟩],
  [.call 108 [⟨0, 0, []⟩, ⟨1, 0, []⟩]]⟩
/-- `glms_vec3_steps`: include/cglm/struct/vec3-ext.h:274-280 -/
def f_glms_vec3_steps : Fn := ⟨[⟨12, []⟩, ⟨12, []⟩],
  [.call 109 [⟨0, 0, []⟩, ⟨1, 0, []⟩]]⟩
/-- `glms_vec3_stepr`: include/cglm/struct/vec3-ext.h:290-296 -/
def f_glms_vec3_stepr : Fn := ⟨[⟨12, []⟩, ⟨12, []⟩],
  [.call 110 [⟨0, 0, []⟩, ⟨1, 0, []⟩]]⟩
/-- `glms_vec3_hadd`: include/cglm/struct/vec3-ext.h:305-309 -/
def f_glms_vec3_hadd : Fn := ⟨[⟨12, []⟩],
  [.call 111 [⟨0, 0, []⟩]]⟩
/-- `glms_vec3_sqrt`: include/cglm/struct/vec3-ext.h:317-323 -/
def f_glms_vec3_sqrt : Fn := ⟨[⟨12, []⟩, ⟨12, []⟩],
  [.call 112 [⟨0, 0, []⟩, ⟨1, 0, []⟩]]⟩
/-- `glms_vec3`: include/cglm/struct/vec3.h:119-125 -/
def f_glms_vec3 : Fn := ⟨[⟨16, [.vec]⟩, ⟨12, []⟩],
  [.call 189 [⟨0, 0, []⟩, ⟨1, 0, []⟩]]⟩
/-- `glms_vec3_pack`: include/cglm/struct/vec3.h:134-142 -/
def f_glms_vec3_pack : Fn := ⟨[],
  [.call 190 [⟨1, 0, []⟩, ⟨0, 0, []⟩]]⟩
/-- `glms_vec3_unpack`: include/cglm/struct/vec3.h:151-159 -/
def f_glms_vec3_unpack : Fn := ⟨[],
  [.call 190 [⟨1, 0, []⟩, ⟨0, 0, []⟩]]⟩
/-- `glms_vec3_zero`: include/cglm/struct/vec3.h:166-172 -/
def f_glms_vec3_zero : Fn := ⟨[⟨12, []⟩],
  [.call 191 [⟨0, 0, []⟩]]⟩
/-- `glms_vec3_one`: include/cglm/struct/vec3.h:179-185 -/
def f_glms_vec3_one : Fn := ⟨[⟨12, []⟩],
  [.call 192 [⟨0, 0, []⟩]]⟩
/-- `glms_vec3_dot`: include/cglm/struct/vec3.h:195-199 -/
def f_glms_vec3_dot : Fn := ⟨[⟨12, []⟩, ⟨12, []⟩],
  [.call 193 [⟨0, 0, []⟩, ⟨1, 0, []⟩]]⟩
/-- `glms_vec3_norm2`: include/cglm/struct/vec3.h:212-216 -/
def f_glms_vec3_norm2 : Fn := ⟨[⟨12, []⟩],
  [.call 194 [⟨0, 0, []⟩]]⟩
/-- `glms_vec3_norm`: include/cglm/struct/vec3.h:225-229 -/
def f_glms_vec3_norm : Fn := ⟨[⟨12, []⟩],
  [.call 195 [⟨0, 0, []⟩]]⟩
/-- `glms_vec3_norm_one`: include/cglm/struct/vec3.h:245-249 -/
def f_glms_vec3_norm_one : Fn := ⟨[⟨12, []⟩],
  [.call 196 [⟨0, 0, []⟩]]⟩
/-- `glms_vec3_norm_inf`: include/cglm/struct/vec3.h:264-268 -/
def f_glms_vec3_norm_inf : Fn := ⟨[⟨12, []⟩],
  [.call 197 [⟨0, 0, []⟩]]⟩
/-- `glms_vec3_add`: include/cglm/struct/vec3.h:277-283 -/
def f_glms_vec3_add : Fn := ⟨[⟨12, []⟩, ⟨12, []⟩, ⟨12, []⟩],
  [.call 198 [⟨0, 0, []⟩, ⟨1, 0, []⟩, ⟨2, 0, []⟩]]⟩
/-- `glms_vec3_adds`: include/cglm/struct/vec3.h:292-298 -/
def f_glms_vec3_adds : Fn := ⟨[⟨12, []⟩, ⟨12, []⟩],
  [.call 199 [⟨0, 0, []⟩, ⟨1, 0, []⟩]]⟩
/-- `glms_vec3_sub`: include/cglm/struct/vec3.h:307-313 -/
def f_glms_vec3_sub : Fn := ⟨[⟨12, []⟩, ⟨12, []⟩, ⟨12, []⟩],
  [.call 200 [⟨0, 0, []⟩, ⟨1, 0, []⟩, ⟨2, 0, []⟩]]⟩
/-- `glms_vec3_subs`: include/cglm/struct/vec3.h:322-328 -/
def f_glms_vec3_subs : Fn := ⟨[⟨12, []⟩, ⟨12, []⟩],
  [.call 201 [⟨0, 0, []⟩, ⟨1, 0, []⟩]]⟩
/-- `glms_vec3_mul`: include/cglm/struct/vec3.h:337-343 -/
def f_glms_vec3_mul : Fn := ⟨[⟨12, []⟩, ⟨12, []⟩, ⟨12, []⟩],
  [.call 202 [⟨0, 0, []⟩, ⟨1, 0, []⟩, ⟨2, 0, []⟩]]⟩
/-- `glms_vec3_scale`: include/cglm/struct/vec3.h:352-358 -/
def f_glms_vec3_scale : Fn := ⟨[⟨12, []⟩, ⟨12, []⟩],
  [.call 203 [⟨0, 0, []⟩, ⟨1, 0, []⟩]]⟩
/-- `glms_vec3_scale_as`: include/cglm/struct/vec3.h:367-373 -/
def f_glms_vec3_scale_as : Fn := ⟨[⟨12, []⟩, ⟨12, []⟩],
  [.call 204 [⟨0, 0, []⟩, ⟨1, 0, []⟩]]⟩
/-- `glms_vec3_div`: include/cglm/struct/vec3.h:382-388 -/
def f_glms_vec3_div : Fn := ⟨[⟨12, []⟩, ⟨12, []⟩, ⟨12, []⟩],
  [.call 205 [⟨0, 0, []⟩, ⟨1, 0, []⟩, ⟨2, 0, []⟩]]⟩
/-- `glms_vec3_divs`: include/cglm/struct/vec3.h:397-403 -/
def f_glms_vec3_divs : Fn := ⟨[⟨12, []⟩, ⟨12, []⟩],
  [.call 206 [⟨0, 0, []⟩, ⟨1, 0, []⟩]]⟩
/-- `glms_vec3_addadd`: include/cglm/struct/vec3.h:414-419 -/
def f_glms_vec3_addadd : Fn := ⟨[⟨12, []⟩, ⟨12, []⟩, ⟨12, []⟩],
  [.call 207 [⟨0, 0, []⟩, ⟨1, 0, []⟩, ⟨2, 0, []⟩]]⟩
/-- `glms_vec3_subadd`: include/cglm/struct/vec3.h:430-435 -/
def f_glms_vec3_subadd : Fn := ⟨[⟨12, []⟩, ⟨12, []⟩, ⟨12, []⟩],
  [.call 208 [⟨0, 0, []⟩, ⟨1, 0, []⟩, ⟨2, 0, []⟩]]⟩
/-- `glms_vec3_muladd`: include/cglm/struct/vec3.h:446-451 -/
def f_glms_vec3_muladd : Fn := ⟨[⟨12, []⟩, ⟨12, []⟩, ⟨12, []⟩],
  [.call 209 [⟨0, 0, []⟩, ⟨1, 0, []⟩, ⟨2, 0, []⟩]]⟩
/-- `glms_vec3_muladds`: include/cglm/struct/vec3.h:462-467 -/
def f_glms_vec3_muladds : Fn := ⟨[⟨12, []⟩, ⟨12, []⟩],
  [.call 210 [⟨0, 0, []⟩, ⟨1, 0, []⟩]]⟩
/-- `glms_vec3_maxadd`: include/cglm/struct/vec3.h:478-483 -/
def f_glms_vec3_maxadd : Fn := ⟨[⟨12, []⟩, ⟨12, []⟩, ⟨12, []⟩],
  [.call 211 [⟨0, 0, []⟩, ⟨1, 0, []⟩, ⟨2, 0, []⟩]]⟩
/-- `glms_vec3_minadd`: include/cglm/struct/vec3.h:494-499 -/
def f_glms_vec3_minadd : Fn := ⟨[⟨12, []⟩, ⟨12, []⟩, ⟨12, []⟩],
  [.call 212 [⟨0, 0, []⟩, ⟨1, 0, []⟩, ⟨2, 0, []⟩]]⟩
/-- `glms_vec3_subsub`: include/cglm/struct/vec3.h:510-515 -/
def f_glms_vec3_subsub : Fn := ⟨[⟨12, []⟩, ⟨12, []⟩, ⟨12, []⟩],
  [.call 213 [⟨0, 0, []⟩, ⟨1, 0, []⟩, ⟨2, 0, []⟩]]⟩
/-- `glms_vec3_addsub`: include/cglm/struct/vec3.h:526-531 -/
def f_glms_vec3_addsub : Fn := ⟨[⟨12, []⟩, ⟨12, []⟩, ⟨12, []⟩],
  [.call 214 [⟨0, 0, []⟩, ⟨1, 0, []⟩, ⟨2, 0, []⟩]]⟩
/-- `glms_vec3_mulsub`: include/cglm/struct/vec3.h:542-547 -/
def f_glms_vec3_mulsub : Fn := ⟨[⟨12, []⟩, ⟨12, []⟩, ⟨12, []⟩],
  [.call 215 [⟨0, 0, []⟩, ⟨1, 0, []⟩, ⟨2, 0, []⟩]]⟩
/-- `glms_vec3_mulsubs`: include/cglm/struct/vec3.h:558-563 -/
def f_glms_vec3_mulsubs : Fn := ⟨[⟨12, []⟩, ⟨12, []⟩],
  [.call 216 [⟨0, 0, []⟩, ⟨1, 0, []⟩]]⟩
/-- `glms_vec3_maxsub`: include/cglm/struct/vec3.h:574-579 -/
def f_glms_vec3_maxsub : Fn := ⟨[⟨12, []⟩, ⟨12, []⟩, ⟨12, []⟩],
  [.call 217 [⟨0, 0, []⟩, ⟨1, 0, []⟩, ⟨2, 0, []⟩]]⟩
/-- `glms_vec3_minsub`: include/cglm/struct/vec3.h:590-595 -/
def f_glms_vec3_minsub : Fn := ⟨[⟨12, []⟩, ⟨12, []⟩, ⟨12, []⟩],
  [.call 218 [⟨0, 0, []⟩, ⟨1, 0, []⟩, ⟨2, 0, []⟩]]⟩
/-- `glms_vec3_flipsign`: include/cglm/struct/vec3.h:603-608 -/
def f_glms_vec3_flipsign : Fn := ⟨[⟨12, []⟩],
  [.call 220 [⟨0, 0, []⟩]]⟩
/-- `glms_vec3_negate`: include/cglm/struct/vec3.h:616-621 -/
def f_glms_vec3_negate : Fn := ⟨[⟨12, []⟩],
  [.call 220 [⟨0, 0, []⟩]]⟩
/-- `glms_vec3_normalize`: include/cglm/struct/vec3.h:629-634 -/
def f_glms_vec3_normalize : Fn := ⟨[⟨12, []⟩],
  [.call 221 [⟨0, 0, []⟩]]⟩
/-- `glms_vec3_cross`: include/cglm/struct/vec3.h:643-649 -/
def f_glms_vec3_cross : Fn := ⟨[⟨12, []⟩, ⟨12, []⟩, ⟨12, []⟩],
  [.call 223 [⟨0, 0, []⟩, ⟨1, 0, []⟩, ⟨2, 0, []⟩]]⟩
/-- `glms_vec3_crossn`: include/cglm/struct/vec3.h:658-664 -/
def f_glms_vec3_crossn : Fn := ⟨[⟨12, []⟩, ⟨12, []⟩, ⟨12, []⟩],
  [.call 224 [⟨0, 0, []⟩, ⟨1, 0, []⟩, ⟨2, 0, []⟩]]⟩
/-- `glms_vec3_angle`: include/cglm/struct/vec3.h:674-678 -/
def f_glms_vec3_angle : Fn := ⟨[⟨12, []⟩, ⟨12, []⟩],
  [.call 225 [⟨0, 0, []⟩, ⟨1, 0, []⟩]]⟩
/-- `glms_vec3_rotate`: include/cglm/struct/vec3.h:688-693 -/
def f_glms_vec3_rotate : Fn := ⟨[⟨12, []⟩, ⟨12, []⟩],
  [.call 226 [⟨0, 0, []⟩, ⟨1, 0, []⟩]]⟩
/-- `glms_vec3_rotate_m4`: include/cglm/struct/vec3.h:708-714 -/
def f_glms_vec3_rotate_m4 : Fn := ⟨[⟨64, [.mat, .vec]⟩, ⟨12, []⟩, ⟨12, []⟩],
  [.call 227 [⟨0, 0, []⟩, ⟨1, 0, []⟩, ⟨2, 0, []⟩]]⟩
/-- `glms_vec3_rotate_m3`: include/cglm/struct/vec3.h:723-729 -/
def f_glms_vec3_rotate_m3 : Fn := ⟨[⟨36, []⟩, ⟨12, []⟩, ⟨12, []⟩],
  [.call 228 [⟨0, 0, []⟩, ⟨1, 0, []⟩, ⟨2, 0, []⟩]]⟩
/-- `glms_vec3_proj`: include/cglm/struct/vec3.h:738-744 -/
def f_glms_vec3_proj : Fn := ⟨[⟨12, []⟩, ⟨12, []⟩, ⟨12, []⟩],
  [.call 229 [⟨0, 0, []⟩, ⟨1, 0, []⟩, ⟨2, 0, []⟩]]⟩
/-- `glms_vec3_center`: include/cglm/struct/vec3.h:753-759 -/
def f_glms_vec3_center : Fn := ⟨[⟨12, []⟩, ⟨12, []⟩, ⟨12, []⟩],
  [.call 230 [⟨0, 0, []⟩, ⟨1, 0, []⟩, ⟨2, 0, []⟩]]⟩
/-- `glms_vec3_distance`: include/cglm/struct/vec3.h:768-772 -/
def f_glms_vec3_distance : Fn := ⟨[⟨12, []⟩, ⟨12, []⟩],
  [.call 232 [⟨0, 0, []⟩, ⟨1, 0, []⟩]]⟩
/-- `glms_vec3_distance2`: include/cglm/struct/vec3.h:781-785 -/
def f_glms_vec3_distance2 : Fn := ⟨[⟨12, []⟩, ⟨12, []⟩],
  [.call 231 [⟨0, 0, []⟩, ⟨1, 0, []⟩]]⟩
/-- `glms_vec3_maxv`: include/cglm/struct/vec3.h:794-800 -/
def f_glms_vec3_maxv : Fn := ⟨[⟨12, []⟩, ⟨12, []⟩, ⟨12, []⟩],
  [.call 233 [⟨0, 0, []⟩, ⟨1, 0, []⟩, ⟨2, 0, []⟩]]⟩
/-- `glms_vec3_minv`: include/cglm/struct/vec3.h:809-815 -/
def f_glms_vec3_minv : Fn := ⟨[⟨12, []⟩, ⟨12, []⟩, ⟨12, []⟩],
  [.call 234 [⟨0, 0, []⟩, ⟨1, 0, []⟩, ⟨2, 0, []⟩]]⟩
/-- `glms_vec3_ortho`: include/cglm/struct/vec3.h:823-829 -/
def f_glms_vec3_ortho : Fn := ⟨[⟨12, []⟩, ⟨12, []⟩],
  [.call 235 [⟨0, 0, []⟩, ⟨1, 0, []⟩]]⟩
/-- `glms_vec3_clamp`: include/cglm/struct/vec3.h:839-844 -/
def f_glms_vec3_clamp : Fn := ⟨[⟨12, []⟩],
  [.call 236 [⟨0, 0, []⟩]]⟩
/-- `glms_vec3_lerp`: include/cglm/struct/vec3.h:856-862 -/
def f_glms_vec3_lerp : Fn := ⟨[⟨12, []⟩, ⟨12, []⟩, ⟨12, []⟩],
  [.call 237 [⟨0, 0, []⟩, ⟨1, 0, []⟩, ⟨2, 0, []⟩]]⟩
/-- `glms_vec3_lerpc`: include/cglm/struct/vec3.h:874-880 -/
def f_glms_vec3_lerpc : Fn := ⟨[⟨12, []⟩, ⟨12, []⟩, ⟨12, []⟩],
  [.call 238 [⟨0, 0, []⟩, ⟨1, 0, []⟩, ⟨2, 0, []⟩]]⟩
/-- `glms_vec3_mix`: include/cglm/struct/vec3.h:892-898 -/
def f_glms_vec3_mix : Fn := ⟨[⟨12, []⟩, ⟨12, []⟩, ⟨12, []⟩],
  [.call 239 [⟨0, 0, []⟩, ⟨1, 0, []⟩, ⟨2, 0, []⟩]]⟩
/-- `glms_vec3_mixc`: include/cglm/struct/vec3.h:910-916 -/
def f_glms_vec3_mixc : Fn := ⟨[⟨12, []⟩, ⟨12, []⟩, ⟨12, []⟩],
  [.call 240 [⟨0, 0, []⟩, ⟨1, 0, []⟩, ⟨2, 0, []⟩]]⟩
/-- `glms_vec3_step`: include/cglm/struct/vec3.h:925-931 -/
def f_glms_vec3_step : Fn := ⟨[⟨12, []⟩, ⟨12, []⟩, ⟨12, []⟩],
  [.call 241 [⟨0, 0, []⟩, ⟨1, 0, []⟩, ⟨2, 0, []⟩]]⟩
/-- `glms_vec3_smoothstep_uni`: include/cglm/struct/vec3.h:941-947 -/
def f_glms_vec3_smoothstep_uni : Fn := ⟨[⟨12, []⟩, ⟨12, []⟩],
  [.call 242 [⟨0, 0, []⟩, ⟨1, 0, []⟩]]⟩
/-- `glms_vec3_smoothstep`: include/cglm/struct/vec3.h:957-963 -/
def f_glms_vec3_smoothstep : Fn := ⟨[⟨12, []⟩, ⟨12, []⟩, ⟨12, []⟩, ⟨12, []⟩],
  [.call 243 [⟨0, 0, []⟩, ⟨1, 0, []⟩, ⟨2, 0, []⟩, ⟨3, 0, []⟩]]⟩
/-- `glms_vec3_smoothinterp`: include/cglm/struct/vec3.h:975-981 -/
def f_glms_vec3_smoothinterp : Fn := ⟨[⟨12, []⟩, ⟨12, []⟩, ⟨12, []⟩],
  [.call 244 [⟨0, 0, []⟩, ⟨1, 0, []⟩, ⟨2, 0, []⟩]]⟩
/-- `glms_vec3_smoothinterpc`: include/cglm/struct/vec3.h:993-999 -/
def f_glms_vec3_smoothinterpc : Fn := ⟨[⟨12, []⟩, ⟨12, []⟩, ⟨12, []⟩],
  [.call 245 [⟨0, 0, []⟩, ⟨1, 0, []⟩, ⟨2, 0, []⟩]]⟩
/-- `glms_cross`: include/cglm/struct/vec3.h:1010-1016 -/
def f_glms_cross : Fn := ⟨[⟨12, []⟩, ⟨12, []⟩, ⟨12, []⟩],
  [.call 247 [⟨0, 0, []⟩, ⟨1, 0, []⟩, ⟨2, 0, []⟩]]⟩
/-- `glms_dot`: include/cglm/struct/vec3.h:1027-1031 -/
def f_glms_dot : Fn := ⟨[⟨12, []⟩, ⟨12, []⟩],
  [.call 248 [⟨0, 0, []⟩, ⟨1, 0, []⟩]]⟩
/-- `glms_normalize`: include/cglm/struct/vec3.h:1041-1046 -/
def f_glms_normalize : Fn := ⟨[⟨12, []⟩],
  [.call 249 [⟨0, 0, []⟩]]⟩
/-- `glms_vec3_swizzle`: include/cglm/struct/vec3.h:1057-1063 -/
def f_glms_vec3_swizzle : Fn := ⟨[⟨12, []⟩, ⟨12, []⟩],
  [.call 246 [⟨0, 0, []⟩, ⟨1, 0, []⟩]]⟩
/-- `glms_vec3_make`: include/cglm/struct/vec3.h:1071-1077 -/
def f_glms_vec3_make : Fn := ⟨[⟨12, []⟩],
  [.call 251 [⟨0, 0, []⟩, ⟨1, 0, []⟩]]⟩
/-- `glms_vec3_faceforward`: include/cglm/struct/vec3.h:1089-1095 -/
def f_glms_vec3_faceforward : Fn := ⟨[⟨12, []⟩, ⟨12, []⟩, ⟨12, []⟩, ⟨12, []⟩],
  [.call 252 [⟨0, 0, []⟩, ⟨1, 0, []⟩, ⟨2, 0, []⟩, ⟨3, 0, []⟩]]⟩
/-- `glms_vec3_reflect`: include/cglm/struct/vec3.h:1104-1110 -/
def f_glms_vec3_reflect : Fn := ⟨[⟨12, []⟩, ⟨12, []⟩, ⟨12, []⟩],
  [.call 253 [⟨0, 0, []⟩, ⟨1, 0, []⟩, ⟨2, 0, []⟩]]⟩
/-- `glms_vec3_refract`: include/cglm/struct/vec3.h:1126-1130 -/
def f_glms_vec3_refract : Fn := ⟨[⟨12, []⟩, ⟨12, []⟩],
  [.call 254 [⟨1, 0, []⟩, ⟨2, 0, []⟩, ⟨0, 0, []⟩]]⟩
/-- `glms_vec4_broadcast`: include/cglm/struct/vec4-ext.h:54-60 -/
def f_glms_vec4_broadcast : Fn := ⟨[⟨16, [.vec]⟩],
  [.call 113 [⟨0, 0, []⟩]]⟩
/-- `glms_vec4_fill`: include/cglm/struct/vec4-ext.h:68-74 -/
def f_glms_vec4_fill : Fn := ⟨[⟨16, [.vec]⟩],
  [.call 114 [⟨0, 0, []⟩]]⟩
/-- `glms_vec4_eq`: include/cglm/struct/vec4-ext.h:82-86 -/
def f_glms_vec4_eq : Fn := ⟨[⟨16, [.vec]⟩],
  [.call 115 [⟨0, 0, []⟩]]⟩
/-- `glms_vec4_eq_eps`: include/cglm/struct/vec4-ext.h:94-98 -/
def f_glms_vec4_eq_eps : Fn := ⟨[⟨16, [.vec]⟩],
  [.call 116 [⟨0, 0, []⟩]]⟩
/-- `glms_vec4_eq_all`: include/cglm/struct/vec4-ext.h:105-109 -/
def f_glms_vec4_eq_all : Fn := ⟨[⟨16, [.vec]⟩],
  [.call 117 [⟨0, 0, []⟩]]⟩
/-- `glms_vec4_eqv`: include/cglm/struct/vec4-ext.h:117-121 -/
def f_glms_vec4_eqv : Fn := ⟨[⟨16, [.vec]⟩, ⟨16, [.vec]⟩],
  [.call 118 [⟨0, 0, []⟩, ⟨1, 0, []⟩]]⟩
/-- `glms_vec4_eqv_eps`: include/cglm/struct/vec4-ext.h:129-133 -/
def f_glms_vec4_eqv_eps : Fn := ⟨[⟨16, [.vec]⟩, ⟨16, [.vec]⟩],
  [.call 119 [⟨0, 0, []⟩, ⟨1, 0, []⟩]]⟩
/-- `glms_vec4_max`: include/cglm/struct/vec4-ext.h:140-144 -/
def f_glms_vec4_max : Fn := ⟨[⟨16, [.vec]⟩],
  [.call 120 [⟨0, 0, []⟩]]⟩
/-- `glms_vec4_min`: include/cglm/struct/vec4-ext.h:151-155 -/
def f_glms_vec4_min : Fn := ⟨[⟨16, [.vec]⟩],
  [.call 121 [⟨0, 0, []⟩]]⟩
/-- `glms_vec4_isnan`: include/cglm/struct/vec4-ext.h:163-167 -/
def f_glms_vec4_isnan : Fn := ⟨[⟨16, [.vec]⟩],
  [.call 122 [⟨0, 0, []⟩]]⟩
/-- `glms_vec4_isinf`: include/cglm/struct/vec4-ext.h:175-179 -/
def f_glms_vec4_isinf : Fn := ⟨[⟨16, [.vec]⟩],
  [.call 123 [⟨0, 0, []⟩]]⟩
/-- `glms_vec4_isvalid`: include/cglm/struct/vec4-ext.h:187-191 -/
def f_glms_vec4_isvalid : Fn := ⟨[⟨16, [.vec]⟩],
  [.call 124 [⟨0, 0, []⟩]]⟩
/-- `glms_vec4_sign`: include/cglm/struct/vec4-ext.h:201-207 -/
def f_glms_vec4_sign : Fn := ⟨[⟨16, [.vec]⟩, ⟨16, [.vec]⟩],
  [.call 125 [⟨0, 0, []⟩, ⟨1, 0, []⟩]]⟩
/-- `glms_vec4_abs`: include/cglm/struct/vec4-ext.h:215-221 -/
def f_glms_vec4_abs : Fn := ⟨[⟨16, [.vec]⟩, ⟨16, [.vec]⟩],
  [.call 126 [⟨0, 0, []⟩, ⟨1, 0, []⟩]]⟩
/-- `glms_vec4_fract`: include/cglm/struct/vec4-ext.h:229-235 -/
def f_glms_vec4_fract : Fn := ⟨[⟨16, [.vec]⟩, ⟨16, [.vec]⟩],
  [.call 127 [⟨0, 0, []⟩, ⟨1, 0, []⟩]]⟩
/-- `glms_vec4_floor`: include/cglm/struct/vec4-ext.h:243-249 -/
def f_glms_vec4_floor : Fn := ⟨[⟨16, [.vec]⟩, ⟨16, [.vec]⟩],
  [.call 128 [⟨0, 0, []⟩, ⟨1, 0, []⟩]]⟩
/-- `glms_vec4_mods`: include/cglm/struct/vec4-ext.h:258-264 -/
def f_glms_vec4_mods : Fn := ⟨[⟨16, [.vec]⟩, ⟨16, [.vec]⟩],
  [.call 129 [⟨0, 0, []⟩, ⟨1, 0, []⟩]]⟩
/-- `glms_vec4_steps`: include/cglm/struct/vec4-ext.h:274-280 -/
def f_glms_vec4_steps : Fn := ⟨[⟨16, [.vec]⟩, ⟨16, [.vec]⟩],
  [.call 130 [⟨0, 0, []⟩, ⟨1, 0, []⟩]]⟩
/-- `glms_vec4_stepr`: include/cglm/struct/vec4-ext.h:290-296 -/
def f_glms_vec4_stepr : Fn := ⟨[⟨16, [.vec]⟩, ⟨16, [.vec]⟩],
  [.call 131 [⟨0, 0, []⟩, ⟨1, 0, []⟩]]⟩
/-- `glms_vec4_hadd`: include/cglm/struct/vec4-ext.h:305-309 -/
def f_glms_vec4_hadd : Fn := ⟨[⟨16, [.vec]⟩],
  [.call 132 [⟨0, 0, []⟩]]⟩
/-- `glms_vec4_sqrt`: include/cglm/struct/vec4-ext.h:317-323 -/
def f_glms_vec4_sqrt : Fn := ⟨[⟨16, [.vec]⟩, ⟨16, [.vec]⟩],
  [.call 133 [⟨0, 0, []⟩, ⟨1, 0, []⟩]]⟩
/-- `glms_vec4`: include/cglm/struct/vec4.h:103-109 -/
def f_glms_vec4 : Fn := ⟨[⟨12, []⟩, ⟨16, [.vec]⟩],
  [.call 134 [⟨0, 0, []⟩, ⟨1, 0, []⟩]]⟩
/-- `glms_vec4_copy3`: include/cglm/struct/vec4.h:117-123 -/
def f_glms_vec4_copy3 : Fn := ⟨[⟨16, [.vec]⟩, ⟨12, []⟩],
  [.call 135 [⟨0, 0, []⟩, ⟨1, 0, []⟩]]⟩
/-- `glms_vec4_copy`: include/cglm/struct/vec4.h:131-137 -/
def f_glms_vec4_copy : Fn := ⟨[⟨16, [.vec]⟩, ⟨16, [.vec]⟩],
  [.call 136 [⟨0, 0, []⟩, ⟨1, 0, []⟩]]⟩
/-- `glms_vec4_ucopy`: include/cglm/struct/vec4.h:147-153 -/
def f_glms_vec4_ucopy : Fn := ⟨[⟨16, [.vec]⟩, ⟨16, [.vec]⟩],
  [.call 137 [⟨0, 0, []⟩, ⟨1, 0, []⟩]]⟩
/-- `glms_vec4_pack`: include/cglm/struct/vec4.h:162-170 -/
def f_glms_vec4_pack : Fn := ⟨[],
  [.call 136 [⟨1, 0, []⟩, ⟨0, 0, []⟩]]⟩
/-- `glms_vec4_unpack`: include/cglm/struct/vec4.h:179-187 -/
def f_glms_vec4_unpack : Fn := ⟨[],
  [.call 136 [⟨1, 0, []⟩, ⟨0, 0, []⟩]]⟩
/-- `glms_vec4_zero`: include/cglm/struct/vec4.h:194-200 -/
def f_glms_vec4_zero : Fn := ⟨[⟨16, [.vec]⟩],
  [.call 138 [⟨0, 0, []⟩]]⟩
/-- `glms_vec4_one`: include/cglm/struct/vec4.h:207-213 -/
def f_glms_vec4_one : Fn := ⟨[⟨16, [.vec]⟩],
  [.call 139 [⟨0, 0, []⟩]]⟩
/-- `glms_vec4_dot`: include/cglm/struct/vec4.h:223-227 -/
def f_glms_vec4_dot : Fn := ⟨[⟨16, [.vec]⟩, ⟨16, [.vec]⟩],
  [.call 140 [⟨0, 0, []⟩, ⟨1, 0, []⟩]]⟩
/-- `glms_vec4_norm2`: include/cglm/struct/vec4.h:240-244 -/
def f_glms_vec4_norm2 : Fn := ⟨[⟨16, [.vec]⟩],
  [.call 141 [⟨0, 0, []⟩]]⟩
/-- `glms_vec4_norm`: include/cglm/struct/vec4.h:253-257 -/
def f_glms_vec4_norm : Fn := ⟨[⟨16, [.vec]⟩],
  [.call 142 [⟨0, 0, []⟩]]⟩
/-- `glms_vec4_norm_one`: include/cglm/struct/vec4.h:273-277 -/
def f_glms_vec4_norm_one : Fn := ⟨[⟨16, [.vec]⟩],
  [.call 143 [⟨0, 0, []⟩]]⟩
/-- `glms_vec4_norm_inf`: include/cglm/struct/vec4.h:292-296 -/
def f_glms_vec4_norm_inf : Fn := ⟨[⟨16, [.vec]⟩],
  [.call 144 [⟨0, 0, []⟩]]⟩
/-- `glms_vec4_add`: include/cglm/struct/vec4.h:305-311 -/
def f_glms_vec4_add : Fn := ⟨[⟨16, [.vec]⟩, ⟨16, [.vec]⟩, ⟨16, [.vec]⟩],
  [.call 145 [⟨0, 0, []⟩, ⟨1, 0, []⟩, ⟨2, 0, []⟩]]⟩
/-- `glms_vec4_adds`: include/cglm/struct/vec4.h:320-326 -/
def f_glms_vec4_adds : Fn := ⟨[⟨16, [.vec]⟩, ⟨16, [.vec]⟩],
  [.call 146 [⟨0, 0, []⟩, ⟨1, 0, []⟩]]⟩
/-- `glms_vec4_sub`: include/cglm/struct/vec4.h:335-341 -/
def f_glms_vec4_sub : Fn := ⟨[⟨16, [.vec]⟩, ⟨16, [.vec]⟩, ⟨16, [.vec]⟩],
  [.call 147 [⟨0, 0, []⟩, ⟨1, 0, []⟩, ⟨2, 0, []⟩]]⟩
/-- `glms_vec4_subs`: include/cglm/struct/vec4.h:350-356 -/
def f_glms_vec4_subs : Fn := ⟨[⟨16, [.vec]⟩, ⟨16, [.vec]⟩],
  [.call 148 [⟨0, 0, []⟩, ⟨1, 0, []⟩]]⟩
/-- `glms_vec4_mul`: include/cglm/struct/vec4.h:365-371 -/
def f_glms_vec4_mul : Fn := ⟨[⟨16, [.vec]⟩, ⟨16, [.vec]⟩, ⟨16, [.vec]⟩],
  [.call 149 [⟨0, 0, []⟩, ⟨1, 0, []⟩, ⟨2, 0, []⟩]]⟩
/-- `glms_vec4_scale`: include/cglm/struct/vec4.h:380-386 -/
def f_glms_vec4_scale : Fn := ⟨[⟨16, [.vec]⟩, ⟨16, [.vec]⟩],
  [.call 150 [⟨0, 0, []⟩, ⟨1, 0, []⟩]]⟩
/-- `glms_vec4_scale_as`: include/cglm/struct/vec4.h:395-401 -/
def f_glms_vec4_scale_as : Fn := ⟨[⟨16, [.vec]⟩, ⟨16, [.vec]⟩],
  [.call 151 [⟨0, 0, []⟩, ⟨1, 0, []⟩]]⟩
/-- `glms_vec4_div`: include/cglm/struct/vec4.h:410-416 -/
def f_glms_vec4_div : Fn := ⟨[⟨16, [.vec]⟩, ⟨16, [.vec]⟩, ⟨16, [.vec]⟩],
  [.call 152 [⟨0, 0, []⟩, ⟨1, 0, []⟩, ⟨2, 0, []⟩]]⟩
/-- `glms_vec4_divs`: include/cglm/struct/vec4.h:425-431 -/
def f_glms_vec4_divs : Fn := ⟨[⟨16, [.vec]⟩, ⟨16, [.vec]⟩],
  [.call 153 [⟨0, 0, []⟩, ⟨1, 0, []⟩]]⟩
/-- `glms_vec4_addadd`: include/cglm/struct/vec4.h:442-447 -/
def f_glms_vec4_addadd : Fn := ⟨[⟨16, [.vec]⟩, ⟨16, [.vec]⟩, ⟨16, [.vec]⟩],
  [.call 154 [⟨0, 0, []⟩, ⟨1, 0, []⟩, ⟨2, 0, []⟩]]⟩
/-- `glms_vec4_subadd`: include/cglm/struct/vec4.h:458-463 -/
def f_glms_vec4_subadd : Fn := ⟨[⟨16, [.vec]⟩, ⟨16, [.vec]⟩, ⟨16, [.vec]⟩],
  [.call 155 [⟨0, 0, []⟩, ⟨1, 0, []⟩, ⟨2, 0, []⟩]]⟩
/-- `glms_vec4_muladd`: include/cglm/struct/vec4.h:474-479 -/
def f_glms_vec4_muladd : Fn := ⟨[⟨16, [.vec]⟩, ⟨16, [.vec]⟩, ⟨16, [.vec]⟩],
  [.call 156 [⟨0, 0, []⟩, ⟨1, 0, []⟩, ⟨2, 0, []⟩]]⟩
/-- `glms_vec4_muladds`: include/cglm/struct/vec4.h:490-495 -/
def f_glms_vec4_muladds : Fn := ⟨[⟨16, [.vec]⟩, ⟨16, [.vec]⟩],
  [.call 157 [⟨0, 0, []⟩, ⟨1, 0, []⟩]]⟩
/-- `glms_vec4_maxadd`: include/cglm/struct/vec4.h:506-511 -/
def f_glms_vec4_maxadd : Fn := ⟨[⟨16, [.vec]⟩, ⟨16, [.vec]⟩, ⟨16, [.vec]⟩],
  [.call 158 [⟨0, 0, []⟩, ⟨1, 0, []⟩, ⟨2, 0, []⟩]]⟩
/-- `glms_vec4_minadd`: include/cglm/struct/vec4.h:522-527 -/
def f_glms_vec4_minadd : Fn := ⟨[⟨16, [.vec]⟩, ⟨16, [.vec]⟩, ⟨16, [.vec]⟩],
  [.call 159 [⟨0, 0, []⟩, ⟨1, 0, []⟩, ⟨2, 0, []⟩]]⟩
/-- `glms_vec4_subsub`: include/cglm/struct/vec4.h:538-543 -/
def f_glms_vec4_subsub : Fn := ⟨[⟨16, [.vec]⟩, ⟨16, [.vec]⟩, ⟨16, [.vec]⟩],
  [.call 160 [⟨0, 0, []⟩, ⟨1, 0, []⟩, ⟨2, 0, []⟩]]⟩
/-- `glms_vec4_addsub`: include/cglm/struct/vec4.h:554-559 -/
def f_glms_vec4_addsub : Fn := ⟨[⟨16, [.vec]⟩, ⟨16, [.vec]⟩, ⟨16, [.vec]⟩],
  [.call 161 [⟨0, 0, []⟩, ⟨1, 0, []⟩, ⟨2, 0, []⟩]]⟩
/-- `glms_vec4_mulsub`: include/cglm/struct/vec4.h:570-575 -/
def f_glms_vec4_mulsub : Fn := ⟨[⟨16, [.vec]⟩, ⟨16, [.vec]⟩, ⟨16, [.vec]⟩],
  [.call 162 [⟨0, 0, []⟩, ⟨1, 0, []⟩, ⟨2, 0, []⟩]]⟩
/-- `glms_vec4_mulsubs`: include/cglm/struct/vec4.h:586-591 -/
def f_glms_vec4_mulsubs : Fn := ⟨[⟨16, [.vec]⟩, ⟨16, [.vec]⟩],
  [.call 163 [⟨0, 0, []⟩, ⟨1, 0, []⟩]]⟩
/-- `glms_vec4_maxsub`: include/cglm/struct/vec4.h:602-607 -/
def f_glms_vec4_maxsub : Fn := ⟨[⟨16, [.vec]⟩, ⟨16, [.vec]⟩, ⟨16, [.vec]⟩],
  [.call 164 [⟨0, 0, []⟩, ⟨1, 0, []⟩, ⟨2, 0, []⟩]]⟩
/-- `glms_vec4_minsub`: include/cglm/struct/vec4.h:618-623 -/
def f_glms_vec4_minsub : Fn := ⟨[⟨16, [.vec]⟩, ⟨16, [.vec]⟩, ⟨16, [.vec]⟩],
  [.call 165 [⟨0, 0, []⟩, ⟨1, 0, []⟩, ⟨2, 0, []⟩]]⟩
/-- `glms_vec4_negate`: include/cglm/struct/vec4.h:631-636 -/
def f_glms_vec4_negate : Fn := ⟨[⟨16, [.vec]⟩],
  [.call 167 [⟨0, 0, []⟩]]⟩
/-- `glms_vec4_normalize`: include/cglm/struct/vec4.h:644-649 -/
def f_glms_vec4_normalize : Fn := ⟨[⟨16, [.vec]⟩],
  [.call 169 [⟨0, 0, []⟩]]⟩
/-- `glms_vec4_distance`: include/cglm/struct/vec4.h:658-662 -/
def f_glms_vec4_distance : Fn := ⟨[⟨16, [.vec]⟩, ⟨16, [.vec]⟩],
  [.call 170 [⟨0, 0, []⟩, ⟨1, 0, []⟩]]⟩
/-- `glms_vec4_distance2`: include/cglm/struct/vec4.h:671-675 -/
def f_glms_vec4_distance2 : Fn := ⟨[⟨16, [.vec]⟩, ⟨16, [.vec]⟩],
  [.call 171 [⟨0, 0, []⟩, ⟨1, 0, []⟩]]⟩
/-- `glms_vec4_maxv`: include/cglm/struct/vec4.h:684-690 -/
def f_glms_vec4_maxv : Fn := ⟨[⟨16, [.vec]⟩, ⟨16, [.vec]⟩, ⟨16, [.vec]⟩],
  [.call 172 [⟨0, 0, []⟩, ⟨1, 0, []⟩, ⟨2, 0, []⟩]]⟩
/-- `glms_vec4_minv`: include/cglm/struct/vec4.h:699-705 -/
def f_glms_vec4_minv : Fn := ⟨[⟨16, [.vec]⟩, ⟨16, [.vec]⟩, ⟨16, [.vec]⟩],
  [.call 173 [⟨0, 0, []⟩, ⟨1, 0, []⟩, ⟨2, 0, []⟩]]⟩
/-- `glms_vec4_clamp`: include/cglm/struct/vec4.h:715-720 -/
def f_glms_vec4_clamp : Fn := ⟨[⟨16, [.vec]⟩],
  [.call 174 [⟨0, 0, []⟩]]⟩
/-- `glms_vec4_lerp`: include/cglm/struct/vec4.h:732-738 -/
def f_glms_vec4_lerp : Fn := ⟨[⟨16, [.vec]⟩, ⟨16, [.vec]⟩, ⟨16, [.vec]⟩],
  [.call 175 [⟨0, 0, []⟩, ⟨1, 0, []⟩, ⟨2, 0, []⟩]]⟩
/-- `glms_vec4_lerpc`: include/cglm/struct/vec4.h:750-756 -/
def f_glms_vec4_lerpc : Fn := ⟨[⟨16, [.vec]⟩, ⟨16, [.vec]⟩, ⟨16, [.vec]⟩],
  [.call 176 [⟨0, 0, []⟩, ⟨1, 0, []⟩, ⟨2, 0, []⟩]]⟩
/-- `glms_vec4_mix`: include/cglm/struct/vec4.h:768-774 -/
def f_glms_vec4_mix : Fn := ⟨[⟨16, [.vec]⟩, ⟨16, [.vec]⟩, ⟨16, [.vec]⟩],
  [.call 177 [⟨0, 0, []⟩, ⟨1, 0, []⟩, ⟨2, 0, []⟩]]⟩
/-- `glms_vec4_mixc`: include/cglm/struct/vec4.h:786-792 -/
def f_glms_vec4_mixc : Fn := ⟨[⟨16, [.vec]⟩, ⟨16, [.vec]⟩, ⟨16, [.vec]⟩],
  [.call 178 [⟨0, 0, []⟩, ⟨1, 0, []⟩, ⟨2, 0, []⟩]]⟩
/-- `glms_vec4_step`: include/cglm/struct/vec4.h:801-807 -/
def f_glms_vec4_step : Fn := ⟨[⟨16, [.vec]⟩, ⟨16, [.vec]⟩, ⟨16, [.vec]⟩],
  [.call 179 [⟨0, 0, []⟩, ⟨1, 0, []⟩, ⟨2, 0, []⟩]]⟩
/-- `glms_vec4_smoothstep_uni`: include/cglm/struct/vec4.h:817-823 -/
def f_glms_vec4_smoothstep_uni : Fn := ⟨[⟨16, [.vec]⟩, ⟨16, [.vec]⟩],
  [.call 180 [⟨0, 0, []⟩, ⟨1, 0, []⟩]]⟩
/-- `glms_vec4_smoothstep`: include/cglm/struct/vec4.h:833-839 -/
def f_glms_vec4_smoothstep : Fn := ⟨[⟨16, [.vec]⟩, ⟨16, [.vec]⟩, ⟨16, [.vec]⟩, ⟨16, [.vec]⟩],
  [.call 181 [⟨0, 0, []⟩, ⟨1, 0, []⟩, ⟨2, 0, []⟩, ⟨3, 0, []⟩]]⟩
/-- `glms_vec4_smoothinterp`: include/cglm/struct/vec4.h:851-857 -/
def f_glms_vec4_smoothinterp : Fn := ⟨[⟨16, [.vec]⟩, ⟨16, [.vec]⟩, ⟨16, [.vec]⟩],
  [.call 182 [⟨0, 0, []⟩, ⟨1, 0, []⟩, ⟨2, 0, []⟩]]⟩
/-- `glms_vec4_smoothinterpc`: include/cglm/struct/vec4.h:869-875 -/
def f_glms_vec4_smoothinterpc : Fn := ⟨[⟨16, [.vec]⟩, ⟨16, [.vec]⟩, ⟨16, [.vec]⟩],
  [.call 183 [⟨0, 0, []⟩, ⟨1, 0, []⟩, ⟨2, 0, []⟩]]⟩
/-- `glms_vec4_cubic`: include/cglm/struct/vec4.h:883-889 -/
def f_glms_vec4_cubic : Fn := ⟨[⟨16, [.vec]⟩],
  [.call 184 [⟨0, 0, []⟩]]⟩
/-- `glms_vec4_swizzle`: include/cglm/struct/vec4.h:900-906 -/
def f_glms_vec4_swizzle : Fn := ⟨[⟨16, [.vec]⟩, ⟨16, [.vec]⟩],
  [.call 185 [⟨0, 0, []⟩, ⟨1, 0, []⟩]]⟩
/-- `glms_vec4_make`: include/cglm/struct/vec4.h:914-920 -/
def f_glms_vec4_make : Fn := ⟨[⟨16, [.vec]⟩],
  [.call 186 [⟨0, 0, []⟩, ⟨1, 0, []⟩]]⟩
/-- `glms_vec4_reflect`: include/cglm/struct/vec4.h:929-935 -/
def f_glms_vec4_reflect : Fn := ⟨[⟨16, [.vec]⟩, ⟨16, [.vec]⟩, ⟨16, [.vec]⟩],
  [.call 187 [⟨0, 0, []⟩, ⟨1, 0, []⟩, ⟨2, 0, []⟩]]⟩
/-- `glms_vec4_refract`: include/cglm/struct/vec4.h:955-959 -/
def f_glms_vec4_refract : Fn := ⟨[⟨16, [.vec]⟩, ⟨16, [.vec]⟩],
  [.call 188 [⟨1, 0, []⟩, ⟨2, 0, []⟩, ⟨0, 0, []⟩]]⟩
/-- `glms_ivec2`: include/cglm/struct/ivec2.h:80-86 -/
def f_glms_ivec2 : Fn := ⟨[⟨8, []⟩],
  [.call 255 [⟨0, 0, []⟩, ⟨1, 0, []⟩]]⟩
/-- `glms_ivec2_pack`: include/cglm/struct/ivec2.h:95-103 -/
def f_glms_ivec2_pack : Fn := ⟨[],
  [.call 256 [⟨1, 0, []⟩, ⟨0, 0, []⟩]]⟩
/-- `glms_ivec2_unpack`: include/cglm/struct/ivec2.h:112-120 -/
def f_glms_ivec2_unpack : Fn := ⟨[],
  [.call 256 [⟨1, 0, []⟩, ⟨0, 0, []⟩]]⟩
/-- `glms_ivec2_zero`: include/cglm/struct/ivec2.h:127-133 -/
def f_glms_ivec2_zero : Fn := ⟨[⟨8, []⟩],
  [.call 257 [⟨0, 0, []⟩]]⟩
/-- `glms_ivec2_one`: include/cglm/struct/ivec2.h:140-146 -/
def f_glms_ivec2_one : Fn := ⟨[⟨8, []⟩],
  [.call 258 [⟨0, 0, []⟩]]⟩
/-- `glms_ivec2_dot`: include/cglm/struct/ivec2.h:156-160 -/
def f_glms_ivec2_dot : Fn := ⟨[⟨8, []⟩, ⟨8, []⟩],
  [.call 259 [⟨0, 0, []⟩, ⟨1, 0, []⟩]]⟩
/-- `glms_ivec2_cross`: include/cglm/struct/ivec2.h:172-176 -/
def f_glms_ivec2_cross : Fn := ⟨[⟨8, []⟩, ⟨8, []⟩],
  [.call 260 [⟨0, 0, []⟩, ⟨1, 0, []⟩]]⟩
/-- `glms_ivec2_add`: include/cglm/struct/ivec2.h:185-191 -/
def f_glms_ivec2_add : Fn := ⟨[⟨8, []⟩, ⟨8, []⟩, ⟨8, []⟩],
  [.call 261 [⟨0, 0, []⟩, ⟨1, 0, []⟩, ⟨2, 0, []⟩]]⟩
/-- `glms_ivec2_adds`: include/cglm/struct/ivec2.h:200-206 -/
def f_glms_ivec2_adds : Fn := ⟨[⟨8, []⟩, ⟨8, []⟩],
  [.call 262 [⟨0, 0, []⟩, ⟨1, 0, []⟩]]⟩
/-- `glms_ivec2_sub`: include/cglm/struct/ivec2.h:215-221 -/
def f_glms_ivec2_sub : Fn := ⟨[⟨8, []⟩, ⟨8, []⟩, ⟨8, []⟩],
  [.call 263 [⟨0, 0, []⟩, ⟨1, 0, []⟩, ⟨2, 0, []⟩]]⟩
/-- `glms_ivec2_subs`: include/cglm/struct/ivec2.h:230-236 -/
def f_glms_ivec2_subs : Fn := ⟨[⟨8, []⟩, ⟨8, []⟩],
  [.call 264 [⟨0, 0, []⟩, ⟨1, 0, []⟩]]⟩
/-- `glms_ivec2_mul`: include/cglm/struct/ivec2.h:245-251 -/
def f_glms_ivec2_mul : Fn := ⟨[⟨8, []⟩, ⟨8, []⟩, ⟨8, []⟩],
  [.call 265 [⟨0, 0, []⟩, ⟨1, 0, []⟩, ⟨2, 0, []⟩]]⟩
/-- `glms_ivec2_scale`: include/cglm/struct/ivec2.h:260-266 -/
def f_glms_ivec2_scale : Fn := ⟨[⟨8, []⟩, ⟨8, []⟩],
  [.call 266 [⟨0, 0, []⟩, ⟨1, 0, []⟩]]⟩
/-- `glms_ivec2_div`: include/cglm/struct/ivec2.h:275-281 -/
def f_glms_ivec2_div : Fn := ⟨[⟨8, []⟩, ⟨8, []⟩, ⟨8, []⟩],
  [.call 267 [⟨0, 0, []⟩, ⟨1, 0, []⟩, ⟨2, 0, []⟩]]⟩
/-- `glms_ivec2_divs`: include/cglm/struct/ivec2.h:290-296 -/
def f_glms_ivec2_divs : Fn := ⟨[⟨8, []⟩, ⟨8, []⟩],
  [.call 268 [⟨0, 0, []⟩, ⟨1, 0, []⟩]]⟩
/-- `glms_ivec2_mod`: include/cglm/struct/ivec2.h:305-311 -/
def f_glms_ivec2_mod : Fn := ⟨[⟨8, []⟩, ⟨8, []⟩, ⟨8, []⟩],
  [.call 269 [⟨0, 0, []⟩, ⟨1, 0, []⟩, ⟨2, 0, []⟩]]⟩
/-- `glms_ivec2_addadd`: include/cglm/struct/ivec2.h:323-328 -/
def f_glms_ivec2_addadd : Fn := ⟨[⟨8, []⟩, ⟨8, []⟩, ⟨8, []⟩],
  [.call 270 [⟨0, 0, []⟩, ⟨1, 0, []⟩, ⟨2, 0, []⟩]]⟩
/-- `glms_ivec2_addadds`: include/cglm/struct/ivec2.h:340-345 -/
def f_glms_ivec2_addadds : Fn := ⟨[⟨8, []⟩, ⟨8, []⟩],
  [.call 271 [⟨0, 0, []⟩, ⟨1, 0, []⟩]]⟩
/-- `glms_ivec2_subadd`: include/cglm/struct/ivec2.h:357-362 -/
def f_glms_ivec2_subadd : Fn := ⟨[⟨8, []⟩, ⟨8, []⟩, ⟨8, []⟩],
  [.call 272 [⟨0, 0, []⟩, ⟨1, 0, []⟩, ⟨2, 0, []⟩]]⟩
/-- `glms_ivec2_subadds`: include/cglm/struct/ivec2.h:374-379 -/
def f_glms_ivec2_subadds : Fn := ⟨[⟨8, []⟩, ⟨8, []⟩],
  [.call 273 [⟨0, 0, []⟩, ⟨1, 0, []⟩]]⟩
/-- `glms_ivec2_muladd`: include/cglm/struct/ivec2.h:391-396 -/
def f_glms_ivec2_muladd : Fn := ⟨[⟨8, []⟩, ⟨8, []⟩, ⟨8, []⟩],
  [.call 274 [⟨0, 0, []⟩, ⟨1, 0, []⟩, ⟨2, 0, []⟩]]⟩
/-- `glms_ivec2_muladds`: include/cglm/struct/ivec2.h:408-413 -/
def f_glms_ivec2_muladds : Fn := ⟨[⟨8, []⟩, ⟨8, []⟩],
  [.call 275 [⟨0, 0, []⟩, ⟨1, 0, []⟩]]⟩
/-- `glms_ivec2_maxadd`: include/cglm/struct/ivec2.h:425-430 -/
def f_glms_ivec2_maxadd : Fn := ⟨[⟨8, []⟩, ⟨8, []⟩, ⟨8, []⟩],
  [.call 276 [⟨0, 0, []⟩, ⟨1, 0, []⟩, ⟨2, 0, []⟩]]⟩
/-- `glms_ivec2_minadd`: include/cglm/struct/ivec2.h:442-447 -/
def f_glms_ivec2_minadd : Fn := ⟨[⟨8, []⟩, ⟨8, []⟩, ⟨8, []⟩],
  [.call 277 [⟨0, 0, []⟩, ⟨1, 0, []⟩, ⟨2, 0, []⟩]]⟩
/-- `glms_ivec2_subsub`: include/cglm/struct/ivec2.h:459-464 -/
def f_glms_ivec2_subsub : Fn := ⟨[⟨8, []⟩, ⟨8, []⟩, ⟨8, []⟩],
  [.call 278 [⟨0, 0, []⟩, ⟨1, 0, []⟩, ⟨2, 0, []⟩]]⟩
/-- `glms_ivec2_subsubs`: include/cglm/struct/ivec2.h:476-481 -/
def f_glms_ivec2_subsubs : Fn := ⟨[⟨8, []⟩, ⟨8, []⟩],
  [.call 279 [⟨0, 0, []⟩, ⟨1, 0, []⟩]]⟩
/-- `glms_ivec2_addsub`: include/cglm/struct/ivec2.h:493-498 -/
def f_glms_ivec2_addsub : Fn := ⟨[⟨8, []⟩, ⟨8, []⟩, ⟨8, []⟩],
  [.call 280 [⟨0, 0, []⟩, ⟨1, 0, []⟩, ⟨2, 0, []⟩]]⟩
/-- `glms_ivec2_addsubs`: include/cglm/struct/ivec2.h:510-515 -/
def f_glms_ivec2_addsubs : Fn := ⟨[⟨8, []⟩, ⟨8, []⟩],
  [.call 281 [⟨0, 0, []⟩, ⟨1, 0, []⟩]]⟩
/-- `glms_ivec2_mulsub`: include/cglm/struct/ivec2.h:527-532 -/
def f_glms_ivec2_mulsub : Fn := ⟨[⟨8, []⟩, ⟨8, []⟩, ⟨8, []⟩],
  [.call 282 [⟨0, 0, []⟩, ⟨1, 0, []⟩, ⟨2, 0, []⟩]]⟩
/-- `glms_ivec2_mulsubs`: include/cglm/struct/ivec2.h:544-549 -/
def f_glms_ivec2_mulsubs : Fn := ⟨[⟨8, []⟩, ⟨8, []⟩],
  [.call 283 [⟨0, 0, []⟩, ⟨1, 0, []⟩]]⟩
/-- `glms_ivec2_maxsub`: include/cglm/struct/ivec2.h:561-566 -/
def f_glms_ivec2_maxsub : Fn := ⟨[⟨8, []⟩, ⟨8, []⟩, ⟨8, []⟩],
  [.call 284 [⟨0, 0, []⟩, ⟨1, 0, []⟩, ⟨2, 0, []⟩]]⟩
/-- `glms_ivec2_minsub`: include/cglm/struct/ivec2.h:578-583 -/
def f_glms_ivec2_minsub : Fn := ⟨[⟨8, []⟩, ⟨8, []⟩, ⟨8, []⟩],
  [.call 285 [⟨0, 0, []⟩, ⟨1, 0, []⟩, ⟨2, 0, []⟩]]⟩
/-- `glms_ivec2_distance2`: include/cglm/struct/ivec2.h:592-596 -/
def f_glms_ivec2_distance2 : Fn := ⟨[⟨8, []⟩, ⟨8, []⟩],
  [.call 286 [⟨0, 0, []⟩, ⟨1, 0, []⟩]]⟩
/-- `glms_ivec2_distance`: include/cglm/struct/ivec2.h:605-609 -/
def f_glms_ivec2_distance : Fn := ⟨[⟨8, []⟩, ⟨8, []⟩],
  [.call 287 [⟨0, 0, []⟩, ⟨1, 0, []⟩]]⟩
/-- `glms_ivec2_fill`: include/cglm/struct/ivec2.h:617-623 -/
def f_glms_ivec2_fill : Fn := ⟨[⟨8, []⟩],
  [.call 288 [⟨0, 0, []⟩]]⟩
/-- `glms_ivec2_eq`: include/cglm/struct/ivec2.h:631-635 -/
def f_glms_ivec2_eq : Fn := ⟨[⟨8, []⟩],
  [.call 289 [⟨0, 0, []⟩]]⟩
/-- `glms_ivec2_eqv`: include/cglm/struct/ivec2.h:643-647 -/
def f_glms_ivec2_eqv : Fn := ⟨[⟨8, []⟩, ⟨8, []⟩],
  [.call 290 [⟨0, 0, []⟩, ⟨1, 0, []⟩]]⟩
/-- `glms_ivec2_maxv`: include/cglm/struct/ivec2.h:656-662 -/
def f_glms_ivec2_maxv : Fn := ⟨[⟨8, []⟩, ⟨8, []⟩, ⟨8, []⟩],
  [.call 291 [⟨0, 0, []⟩, ⟨1, 0, []⟩, ⟨2, 0, []⟩]]⟩
/-- `glms_ivec2_minv`: include/cglm/struct/ivec2.h:671-677 -/
def f_glms_ivec2_minv : Fn := ⟨[⟨8, []⟩, ⟨8, []⟩, ⟨8, []⟩],
  [.call 292 [⟨0, 0, []⟩, ⟨1, 0, []⟩, ⟨2, 0, []⟩]]⟩
/-- `glms_ivec2_clamp`: include/cglm/struct/ivec2.h:687-692 -/
def f_glms_ivec2_clamp : Fn := ⟨[⟨8, []⟩],
  [.call 293 [⟨0, 0, []⟩]]⟩
/-- `glms_ivec2_abs`: include/cglm/struct/ivec2.h:700-706 -/
def f_glms_ivec2_abs : Fn := ⟨[⟨8, []⟩, ⟨8, []⟩],
  [.call 294 [⟨0, 0, []⟩, ⟨1, 0, []⟩]]⟩
/-- `glms_ivec3`: include/cglm/struct/ivec3.h:80-86 -/
def f_glms_ivec3 : Fn := ⟨[⟨16, []⟩, ⟨12, []⟩],
  [.call 295 [⟨0, 0, []⟩, ⟨1, 0, []⟩]]⟩
/-- `glms_ivec3_pack`: include/cglm/struct/ivec3.h:95-103 -/
def f_glms_ivec3_pack : Fn := ⟨[],
  [.call 296 [⟨1, 0, []⟩, ⟨0, 0, []⟩]]⟩
/-- `glms_ivec3_unpack`: include/cglm/struct/ivec3.h:112-120 -/
def f_glms_ivec3_unpack : Fn := ⟨[],
  [.call 296 [⟨1, 0, []⟩, ⟨0, 0, []⟩]]⟩
/-- `glms_ivec3_zero`: include/cglm/struct/ivec3.h:127-133 -/
def f_glms_ivec3_zero : Fn := ⟨[⟨12, []⟩],
  [.call 297 [⟨0, 0, []⟩]]⟩
/-- `glms_ivec3_one`: include/cglm/struct/ivec3.h:140-146 -/
def f_glms_ivec3_one : Fn := ⟨[⟨12, []⟩],
  [.call 298 [⟨0, 0, []⟩]]⟩
/-- `glms_ivec3_dot`: include/cglm/struct/ivec3.h:156-160 -/
def f_glms_ivec3_dot : Fn := ⟨[⟨12, []⟩, ⟨12, []⟩],
  [.call 299 [⟨0, 0, []⟩, ⟨1, 0, []⟩]]⟩
/-- `glms_ivec3_norm2`: include/cglm/struct/ivec3.h:173-177 -/
def f_glms_ivec3_norm2 : Fn := ⟨[⟨12, []⟩],
  [.call 300 [⟨0, 0, []⟩]]⟩
/-- `glms_ivec3_norm`: include/cglm/struct/ivec3.h:187-191 -/
def f_glms_ivec3_norm : Fn := ⟨[⟨12, []⟩],
  [.call 301 [⟨0, 0, []⟩]]⟩
/-- `glms_ivec3_add`: include/cglm/struct/ivec3.h:200-206 -/
def f_glms_ivec3_add : Fn := ⟨[⟨12, []⟩, ⟨12, []⟩, ⟨12, []⟩],
  [.call 302 [⟨0, 0, []⟩, ⟨1, 0, []⟩, ⟨2, 0, []⟩]]⟩
/-- `glms_ivec3_adds`: include/cglm/struct/ivec3.h:215-221 -/
def f_glms_ivec3_adds : Fn := ⟨[⟨12, []⟩, ⟨12, []⟩],
  [.call 303 [⟨0, 0, []⟩, ⟨1, 0, []⟩]]⟩
/-- `glms_ivec3_sub`: include/cglm/struct/ivec3.h:230-236 -/
def f_glms_ivec3_sub : Fn := ⟨[⟨12, []⟩, ⟨12, []⟩, ⟨12, []⟩],
  [.call 304 [⟨0, 0, []⟩, ⟨1, 0, []⟩, ⟨2, 0, []⟩]]⟩
/-- `glms_ivec3_subs`: include/cglm/struct/ivec3.h:245-251 -/
def f_glms_ivec3_subs : Fn := ⟨[⟨12, []⟩, ⟨12, []⟩],
  [.call 305 [⟨0, 0, []⟩, ⟨1, 0, []⟩]]⟩
/-- `glms_ivec3_mul`: include/cglm/struct/ivec3.h:260-266 -/
def f_glms_ivec3_mul : Fn := ⟨[⟨12, []⟩, ⟨12, []⟩, ⟨12, []⟩],
  [.call 306 [⟨0, 0, []⟩, ⟨1, 0, []⟩, ⟨2, 0, []⟩]]⟩
/-- `glms_ivec3_scale`: include/cglm/struct/ivec3.h:275-281 -/
def f_glms_ivec3_scale : Fn := ⟨[⟨12, []⟩, ⟨12, []⟩],
  [.call 307 [⟨0, 0, []⟩, ⟨1, 0, []⟩]]⟩
/-- `glms_ivec3_div`: include/cglm/struct/ivec3.h:290-296 -/
def f_glms_ivec3_div : Fn := ⟨[⟨12, []⟩, ⟨12, []⟩, ⟨12, []⟩],
  [.call 308 [⟨0, 0, []⟩, ⟨1, 0, []⟩, ⟨2, 0, []⟩]]⟩
/-- `glms_ivec3_divs`: include/cglm/struct/ivec3.h:305-311 -/
def f_glms_ivec3_divs : Fn := ⟨[⟨12, []⟩, ⟨12, []⟩],
  [.call 309 [⟨0, 0, []⟩, ⟨1, 0, []⟩]]⟩
/-- `glms_ivec3_mod`: include/cglm/struct/ivec3.h:322-328 -/
def f_glms_ivec3_mod : Fn := ⟨[⟨12, []⟩, ⟨12, []⟩, ⟨12, []⟩],
  [.call 310 [⟨0, 0, []⟩, ⟨1, 0, []⟩, ⟨2, 0, []⟩]]⟩
/-- `glms_ivec3_addadd`: include/cglm/struct/ivec3.h:340-345 -/
def f_glms_ivec3_addadd : Fn := ⟨[⟨12, []⟩, ⟨12, []⟩, ⟨12, []⟩],
  [.call 311 [⟨0, 0, []⟩, ⟨1, 0, []⟩, ⟨2, 0, []⟩]]⟩
/-- `glms_ivec3_addadds`: include/cglm/struct/ivec3.h:357-362 -/
def f_glms_ivec3_addadds : Fn := ⟨[⟨12, []⟩, ⟨12, []⟩],
  [.call 312 [⟨0, 0, []⟩, ⟨1, 0, []⟩]]⟩
/-- `glms_ivec3_subadd`: include/cglm/struct/ivec3.h:374-379 -/
def f_glms_ivec3_subadd : Fn := ⟨[⟨12, []⟩, ⟨12, []⟩, ⟨12, []⟩],
  [.call 313 [⟨0, 0, []⟩, ⟨1, 0, []⟩, ⟨2, 0, []⟩]]⟩
/-- `glms_ivec3_subadds`: include/cglm/struct/ivec3.h:391-396 -/
def f_glms_ivec3_subadds : Fn := ⟨[⟨12, []⟩, ⟨12, []⟩],
  [.call 314 [⟨0, 0, []⟩, ⟨1, 0, []⟩]]⟩
/-- `glms_ivec3_muladd`: include/cglm/struct/ivec3.h:408-413 -/
def f_glms_ivec3_muladd : Fn := ⟨[⟨12, []⟩, ⟨12, []⟩, ⟨12, []⟩],
  [.call 315 [⟨0, 0, []⟩, ⟨1, 0, []⟩, ⟨2, 0, []⟩]]⟩
/-- `glms_ivec3_muladds`: include/cglm/struct/ivec3.h:425-430 -/
def f_glms_ivec3_muladds : Fn := ⟨[⟨12, []⟩, ⟨12, []⟩],
  [.call 316 [⟨0, 0, []⟩, ⟨1, 0, []⟩]]⟩
/-- `glms_ivec3_maxadd`: include/cglm/struct/ivec3.h:442-447 -/
def f_glms_ivec3_maxadd : Fn := ⟨[⟨12, []⟩, ⟨12, []⟩, ⟨12, []⟩],
  [.call 317 [⟨0, 0, []⟩, ⟨1, 0, []⟩, ⟨2, 0, []⟩]]⟩
/-- `glms_ivec3_minadd`: include/cglm/struct/ivec3.h:459-464 -/
def f_glms_ivec3_minadd : Fn := ⟨[⟨12, []⟩, ⟨12, []⟩, ⟨12, []⟩],
  [.call 318 [⟨0, 0, []⟩, ⟨1, 0, []⟩, ⟨2, 0, []⟩]]⟩
/-- `glms_ivec3_subsub`: include/cglm/struct/ivec3.h:476-481 -/
def f_glms_ivec3_subsub : Fn := ⟨[⟨12, []⟩, ⟨12, []⟩, ⟨12, []⟩],
  [.call 319 [⟨0, 0, []⟩, ⟨1, 0, []⟩, ⟨2, 0, []⟩]]⟩
/-- `glms_ivec3_subsubs`: include/cglm/struct/ivec3.h:493-498 -/
def f_glms_ivec3_subsubs : Fn := ⟨[⟨12, []⟩, ⟨12, []⟩],
  [.call 320 [⟨0, 0, []⟩, ⟨1, 0, []⟩]]⟩
/-- `glms_ivec3_addsub`: include/cglm/struct/ivec3.h:510-515 -/
def f_glms_ivec3_addsub : Fn := ⟨[⟨12, []⟩, ⟨12, []⟩, ⟨12, []⟩],
  [.call 321 [⟨0, 0, []⟩, ⟨1, 0, []⟩, ⟨2, 0, []⟩]]⟩
/-- `glms_ivec3_addsubs`: include/cglm/struct/ivec3.h:527-532 -/
def f_glms_ivec3_addsubs : Fn := ⟨[⟨12, []⟩, ⟨12, []⟩],
  [.call 322 [⟨0, 0, []⟩, ⟨1, 0, []⟩]]⟩
/-- `glms_ivec3_mulsub`: include/cglm/struct/ivec3.h:544-549 -/
def f_glms_ivec3_mulsub : Fn := ⟨[⟨12, []⟩, ⟨12, []⟩, ⟨12, []⟩],
  [.call 323 [⟨0, 0, []⟩, ⟨1, 0, []⟩, ⟨2, 0, []⟩]]⟩
/-- `glms_ivec3_mulsubs`: include/cglm/struct/ivec3.h:561-566 -/
def f_glms_ivec3_mulsubs : Fn := ⟨[⟨12, []⟩, ⟨12, []⟩],
  [.call 324 [⟨0, 0, []⟩, ⟨1, 0, []⟩]]⟩
/-- `glms_ivec3_maxsub`: include/cglm/struct/ivec3.h:578-583 -/
def f_glms_ivec3_maxsub : Fn := ⟨[⟨12, []⟩, ⟨12, []⟩, ⟨12, []⟩],
  [.call 325 [⟨0, 0, []⟩, ⟨1, 0, []⟩, ⟨2, 0, []⟩]]⟩
/-- `glms_ivec3_minsub`: include/cglm/struct/ivec3.h:595-600 -/
def f_glms_ivec3_minsub : Fn := ⟨[⟨12, []⟩, ⟨12, []⟩, ⟨12, []⟩],
  [.call 326 [⟨0, 0, []⟩, ⟨1, 0, []⟩, ⟨2, 0, []⟩]]⟩
/-- `glms_ivec3_distance2`: include/cglm/struct/ivec3.h:609-613 -/
def f_glms_ivec3_distance2 : Fn := ⟨[⟨12, []⟩, ⟨12, []⟩],
  [.call 327 [⟨0, 0, []⟩, ⟨1, 0, []⟩]]⟩
/-- `glms_ivec3_distance`: include/cglm/struct/ivec3.h:622-626 -/
def f_glms_ivec3_distance : Fn := ⟨[⟨12, []⟩, ⟨12, []⟩],
  [.call 328 [⟨0, 0, []⟩, ⟨1, 0, []⟩]]⟩
/-- `glms_ivec3_fill`: include/cglm/struct/ivec3.h:634-640 -/
def f_glms_ivec3_fill : Fn := ⟨[⟨12, []⟩],
  [.call 329 [⟨0, 0, []⟩]]⟩
/-- `glms_ivec3_eq`: include/cglm/struct/ivec3.h:648-652 -/
def f_glms_ivec3_eq : Fn := ⟨[⟨12, []⟩],
  [.call 330 [⟨0, 0, []⟩]]⟩
/-- `glms_ivec3_eqv`: include/cglm/struct/ivec3.h:660-664 -/
def f_glms_ivec3_eqv : Fn := ⟨[⟨12, []⟩, ⟨12, []⟩],
  [.call 331 [⟨0, 0, []⟩, ⟨1, 0, []⟩]]⟩
/-- `glms_ivec3_maxv`: include/cglm/struct/ivec3.h:673-679 -/
def f_glms_ivec3_maxv : Fn := ⟨[⟨12, []⟩, ⟨12, []⟩, ⟨12, []⟩],
  [.call 332 [⟨0, 0, []⟩, ⟨1, 0, []⟩, ⟨2, 0, []⟩]]⟩
/-- `glms_ivec3_minv`: include/cglm/struct/ivec3.h:688-694 -/
def f_glms_ivec3_minv : Fn := ⟨[⟨12, []⟩, ⟨12, []⟩, ⟨12, []⟩],
  [.call 333 [⟨0, 0, []⟩, ⟨1, 0, []⟩, ⟨2, 0, []⟩]]⟩
/-- `glms_ivec3_clamp`: include/cglm/struct/ivec3.h:704-709 -/
def f_glms_ivec3_clamp : Fn := ⟨[⟨12, []⟩],
  [.call 334 [⟨0, 0, []⟩]]⟩
/-- `glms_ivec3_abs`: include/cglm/struct/ivec3.h:717-723 -/
def f_glms_ivec3_abs : Fn := ⟨[⟨12, []⟩, ⟨12, []⟩],
  [.call 335 [⟨0, 0, []⟩, ⟨1, 0, []⟩]]⟩
/-- `glms_ivec4`: include/cglm/struct/ivec4.h:73-79 -/
def f_glms_ivec4 : Fn := ⟨[⟨12, []⟩, ⟨16, []⟩],
  [.call 336 [⟨0, 0, []⟩, ⟨1, 0, []⟩]]⟩
/-- `glms_ivec4_pack`: include/cglm/struct/ivec4.h:88-96 -/
def f_glms_ivec4_pack : Fn := ⟨[],
  [.call 337 [⟨1, 0, []⟩, ⟨0, 0, []⟩]]⟩
/-- `glms_ivec4_unpack`: include/cglm/struct/ivec4.h:105-113 -/
def f_glms_ivec4_unpack : Fn := ⟨[],
  [.call 337 [⟨1, 0, []⟩, ⟨0, 0, []⟩]]⟩
/-- `glms_ivec4_zero`: include/cglm/struct/ivec4.h:120-126 -/
def f_glms_ivec4_zero : Fn := ⟨[⟨16, []⟩],
  [.call 338 [⟨0, 0, []⟩]]⟩
/-- `glms_ivec4_one`: include/cglm/struct/ivec4.h:133-139 -/
def f_glms_ivec4_one : Fn := ⟨[⟨16, []⟩],
  [.call 339 [⟨0, 0, []⟩]]⟩
/-- `glms_ivec4_add`: include/cglm/struct/ivec4.h:148-154 -/
def f_glms_ivec4_add : Fn := ⟨[⟨16, []⟩, ⟨16, []⟩, ⟨16, []⟩],
  [.call 340 [⟨0, 0, []⟩, ⟨1, 0, []⟩, ⟨2, 0, []⟩]]⟩
/-- `glms_ivec4_adds`: include/cglm/struct/ivec4.h:163-169 -/
def f_glms_ivec4_adds : Fn := ⟨[⟨16, []⟩, ⟨16, []⟩],
  [.call 341 [⟨0, 0, []⟩, ⟨1, 0, []⟩]]⟩
/-- `glms_ivec4_sub`: include/cglm/struct/ivec4.h:178-184 -/
def f_glms_ivec4_sub : Fn := ⟨[⟨16, []⟩, ⟨16, []⟩, ⟨16, []⟩],
  [.call 342 [⟨0, 0, []⟩, ⟨1, 0, []⟩, ⟨2, 0, []⟩]]⟩
/-- `glms_ivec4_subs`: include/cglm/struct/ivec4.h:193-199 -/
def f_glms_ivec4_subs : Fn := ⟨[⟨16, []⟩, ⟨16, []⟩],
  [.call 343 [⟨0, 0, []⟩, ⟨1, 0, []⟩]]⟩
/-- `glms_ivec4_mul`: include/cglm/struct/ivec4.h:208-214 -/
def f_glms_ivec4_mul : Fn := ⟨[⟨16, []⟩, ⟨16, []⟩, ⟨16, []⟩],
  [.call 344 [⟨0, 0, []⟩, ⟨1, 0, []⟩, ⟨2, 0, []⟩]]⟩
/-- `glms_ivec4_scale`: include/cglm/struct/ivec4.h:223-229 -/
def f_glms_ivec4_scale : Fn := ⟨[⟨16, []⟩, ⟨16, []⟩],
  [.call 345 [⟨0, 0, []⟩, ⟨1, 0, []⟩]]⟩
/-- `glms_ivec4_addadd`: include/cglm/struct/ivec4.h:241-246 -/
def f_glms_ivec4_addadd : Fn := ⟨[⟨16, []⟩, ⟨16, []⟩, ⟨16, []⟩],
  [.call 346 [⟨0, 0, []⟩, ⟨1, 0, []⟩, ⟨2, 0, []⟩]]⟩
/-- `glms_ivec4_addadds`: include/cglm/struct/ivec4.h:258-263 -/
def f_glms_ivec4_addadds : Fn := ⟨[⟨16, []⟩, ⟨16, []⟩],
  [.call 347 [⟨0, 0, []⟩, ⟨1, 0, []⟩]]⟩
/-- `glms_ivec4_subadd`: include/cglm/struct/ivec4.h:275-280 -/
def f_glms_ivec4_subadd : Fn := ⟨[⟨16, []⟩, ⟨16, []⟩, ⟨16, []⟩],
  [.call 348 [⟨0, 0, []⟩, ⟨1, 0, []⟩, ⟨2, 0, []⟩]]⟩
/-- `glms_ivec4_subadds`: include/cglm/struct/ivec4.h:292-297 -/
def f_glms_ivec4_subadds : Fn := ⟨[⟨16, []⟩, ⟨16, []⟩],
  [.call 349 [⟨0, 0, []⟩, ⟨1, 0, []⟩]]⟩
/-- `glms_ivec4_muladd`: include/cglm/struct/ivec4.h:309-314 -/
def f_glms_ivec4_muladd : Fn := ⟨[⟨16, []⟩, ⟨16, []⟩, ⟨16, []⟩],
  [.call 350 [⟨0, 0, []⟩, ⟨1, 0, []⟩, ⟨2, 0, []⟩]]⟩
/-- `glms_ivec4_muladds`: include/cglm/struct/ivec4.h:326-331 -/
def f_glms_ivec4_muladds : Fn := ⟨[⟨16, []⟩, ⟨16, []⟩],
  [.call 351 [⟨0, 0, []⟩, ⟨1, 0, []⟩]]⟩
/-- `glms_ivec4_maxadd`: include/cglm/struct/ivec4.h:343-348 -/
def f_glms_ivec4_maxadd : Fn := ⟨[⟨16, []⟩, ⟨16, []⟩, ⟨16, []⟩],
  [.call 352 [⟨0, 0, []⟩, ⟨1, 0, []⟩, ⟨2, 0, []⟩]]⟩
/-- `glms_ivec4_minadd`: include/cglm/struct/ivec4.h:360-365 -/
def f_glms_ivec4_minadd : Fn := ⟨[⟨16, []⟩, ⟨16, []⟩, ⟨16, []⟩],
  [.call 353 [⟨0, 0, []⟩, ⟨1, 0, []⟩, ⟨2, 0, []⟩]]⟩
/-- `glms_ivec4_subsub`: include/cglm/struct/ivec4.h:377-382 -/
def f_glms_ivec4_subsub : Fn := ⟨[⟨16, []⟩, ⟨16, []⟩, ⟨16, []⟩],
  [.call 354 [⟨0, 0, []⟩, ⟨1, 0, []⟩, ⟨2, 0, []⟩]]⟩
/-- `glms_ivec4_subsubs`: include/cglm/struct/ivec4.h:394-399 -/
def f_glms_ivec4_subsubs : Fn := ⟨[⟨16, []⟩, ⟨16, []⟩],
  [.call 355 [⟨0, 0, []⟩, ⟨1, 0, []⟩]]⟩
/-- `glms_ivec4_addsub`: include/cglm/struct/ivec4.h:411-416 -/
def f_glms_ivec4_addsub : Fn := ⟨[⟨16, []⟩, ⟨16, []⟩, ⟨16, []⟩],
  [.call 356 [⟨0, 0, []⟩, ⟨1, 0, []⟩, ⟨2, 0, []⟩]]⟩
/-- `glms_ivec4_addsubs`: include/cglm/struct/ivec4.h:428-433 -/
def f_glms_ivec4_addsubs : Fn := ⟨[⟨16, []⟩, ⟨16, []⟩],
  [.call 357 [⟨0, 0, []⟩, ⟨1, 0, []⟩]]⟩
/-- `glms_ivec4_mulsub`: include/cglm/struct/ivec4.h:445-450 -/
def f_glms_ivec4_mulsub : Fn := ⟨[⟨16, []⟩, ⟨16, []⟩, ⟨16, []⟩],
  [.call 358 [⟨0, 0, []⟩, ⟨1, 0, []⟩, ⟨2, 0, []⟩]]⟩
/-- `glms_ivec4_mulsubs`: include/cglm/struct/ivec4.h:462-467 -/
def f_glms_ivec4_mulsubs : Fn := ⟨[⟨16, []⟩, ⟨16, []⟩],
  [.call 359 [⟨0, 0, []⟩, ⟨1, 0, []⟩]]⟩
/-- `glms_ivec4_maxsub`: include/cglm/struct/ivec4.h:479-484 -/
def f_glms_ivec4_maxsub : Fn := ⟨[⟨16, []⟩, ⟨16, []⟩, ⟨16, []⟩],
  [.call 360 [⟨0, 0, []⟩, ⟨1, 0, []⟩, ⟨2, 0, []⟩]]⟩
/-- `glms_ivec4_minsub`: include/cglm/struct/ivec4.h:496-501 -/
def f_glms_ivec4_minsub : Fn := ⟨[⟨16, []⟩, ⟨16, []⟩, ⟨16, []⟩],
  [.call 361 [⟨0, 0, []⟩, ⟨1, 0, []⟩, ⟨2, 0, []⟩]]⟩
/-- `glms_ivec4_distance2`: include/cglm/struct/ivec4.h:510-514 -/
def f_glms_ivec4_distance2 : Fn := ⟨[⟨16, []⟩, ⟨16, []⟩],
  [.call 362 [⟨0, 0, []⟩, ⟨1, 0, []⟩]]⟩
/-- `glms_ivec4_distance`: include/cglm/struct/ivec4.h:523-527 -/
def f_glms_ivec4_distance : Fn := ⟨[⟨16, []⟩, ⟨16, []⟩],
  [.call 363 [⟨0, 0, []⟩, ⟨1, 0, []⟩]]⟩
/-- `glms_ivec4_maxv`: include/cglm/struct/ivec4.h:536-542 -/
def f_glms_ivec4_maxv : Fn := ⟨[⟨16, []⟩, ⟨16, []⟩, ⟨16, []⟩],
  [.call 364 [⟨0, 0, []⟩, ⟨1, 0, []⟩, ⟨2, 0, []⟩]]⟩
/-- `glms_ivec4_minv`: include/cglm/struct/ivec4.h:551-557 -/
def f_glms_ivec4_minv : Fn := ⟨[⟨16, []⟩, ⟨16, []⟩, ⟨16, []⟩],
  [.call 365 [⟨0, 0, []⟩, ⟨1, 0, []⟩, ⟨2, 0, []⟩]]⟩
/-- `glms_ivec4_clamp`: include/cglm/struct/ivec4.h:567-572 -/
def f_glms_ivec4_clamp : Fn := ⟨[⟨16, []⟩],
  [.call 366 [⟨0, 0, []⟩]]⟩
/-- `glms_ivec4_abs`: include/cglm/struct/ivec4.h:580-586 -/
def f_glms_ivec4_abs : Fn := ⟨[⟨16, []⟩, ⟨16, []⟩],
  [.call 367 [⟨0, 0, []⟩, ⟨1, 0, []⟩]]⟩
/-- `glms_mat2_make`: include/cglm/struct/mat2.h:55-61 -/
def f_glms_mat2_make : Fn := ⟨[⟨16, [.vec]⟩],
  [.call 441 [⟨0, 0, []⟩, ⟨1, 0, []⟩]]⟩
/-- `glms_mat2_identity`: include/cglm/struct/mat2.h:79-85 -/
def f_glms_mat2_identity : Fn := ⟨[⟨16, [.vec]⟩],
  [.call 443 [⟨0, 0, []⟩]]⟩
/-- `glms_mat2_identity_array`: include/cglm/struct/mat2.h:93-102 -/
def f_glms_mat2_identity_array : Fn := ⟨[⟨16, [.mat, .vec]⟩],
  [.call 442 [⟨1, 0, []⟩, ⟨0, 0, []⟩]]⟩
/-- `glms_mat2_zero`: include/cglm/struct/mat2.h:109-115 -/
def f_glms_mat2_zero : Fn := ⟨[⟨16, [.vec]⟩],
  [.call 445 [⟨0, 0, []⟩]]⟩
/-- `glms_mat2_mul`: include/cglm/struct/mat2.h:131-137 -/
def f_glms_mat2_mul : Fn := ⟨[⟨16, [.vec]⟩, ⟨16, [.vec]⟩, ⟨16, [.vec]⟩],
  [.call 446 [⟨0, 0, []⟩, ⟨1, 0, []⟩, ⟨2, 0, []⟩]]⟩
/-- `glms_mat2_mulv`: include/cglm/struct/mat2.h:146-152 -/
def f_glms_mat2_mulv : Fn := ⟨[⟨16, [.vec]⟩, ⟨8, []⟩, ⟨8, []⟩],
  [.call 447 [⟨0, 0, []⟩, ⟨1, 0, []⟩, ⟨2, 0, []⟩]]⟩
/-- `glms_mat2_transpose`: include/cglm/struct/mat2.h:160-165 -/
def f_glms_mat2_transpose : Fn := ⟨[⟨16, [.vec]⟩],
  [.call 449 [⟨0, 0, []⟩]]⟩
/-- `glms_mat2_scale`: include/cglm/struct/mat2.h:174-179 -/
def f_glms_mat2_scale : Fn := ⟨[⟨16, [.vec]⟩],
  [.call 450 [⟨0, 0, []⟩]]⟩
/-- `glms_mat2_inv`: include/cglm/struct/mat2.h:187-193 -/
def f_glms_mat2_inv : Fn := ⟨[⟨16, [.vec]⟩, ⟨16, [.vec]⟩],
  [.call 451 [⟨0, 0, []⟩, ⟨1, 0, []⟩]]⟩
/-- `glms_mat2_swap_col`: include/cglm/struct/mat2.h:203-208 -/
def f_glms_mat2_swap_col : Fn := ⟨[⟨16, [.vec]⟩],
  [.call 452 [⟨0, 0, []⟩]]⟩
/-- `glms_mat2_swap_row`: include/cglm/struct/mat2.h:218-223 -/
def f_glms_mat2_swap_row : Fn := ⟨[⟨16, [.vec]⟩],
  [.call 453 [⟨0, 0, []⟩]]⟩
/-- `glms_mat2_det`: include/cglm/struct/mat2.h:232-236 -/
def f_glms_mat2_det : Fn := ⟨[⟨16, [.vec]⟩],
  [.call 454 [⟨0, 0, []⟩]]⟩
/-- `glms_mat2_trace`: include/cglm/struct/mat2.h:248-252 -/
def f_glms_mat2_trace : Fn := ⟨[⟨16, [.vec]⟩],
  [.call 455 [⟨0, 0, []⟩]]⟩
/-- `glms_mat2_rmc`: include/cglm/struct/mat2.h:268-272 -/
def f_glms_mat2_rmc : Fn := ⟨[⟨8, []⟩, ⟨16, [.vec]⟩, ⟨8, []⟩],
  [.call 456 [⟨0, 0, []⟩, ⟨1, 0, []⟩, ⟨2, 0, []⟩]]⟩
/-- `glms_mat2x3_zero`: include/cglm/struct/mat2x3.h:42-48 -/
def f_glms_mat2x3_zero : Fn := ⟨[⟨24, []⟩],
  [.call 458 [⟨0, 0, []⟩]]⟩
/-- `glms_mat2x3_make`: include/cglm/struct/mat2x3.h:56-62 -/
def f_glms_mat2x3_make : Fn := ⟨[⟨24, []⟩],
  [.call 459 [⟨0, 0, []⟩, ⟨1, 0, []⟩]]⟩
/-- `glms_mat2x3_mul`: include/cglm/struct/mat2x3.h:75-81 -/
def f_glms_mat2x3_mul : Fn := ⟨[⟨24, []⟩, ⟨24, []⟩, ⟨36, []⟩],
  [.call 460 [⟨0, 0, []⟩, ⟨1, 0, []⟩, ⟨2, 0, []⟩]]⟩
/-- `glms_mat2x3_mulv`: include/cglm/struct/mat2x3.h:90-96 -/
def f_glms_mat2x3_mulv : Fn := ⟨[⟨24, []⟩, ⟨8, []⟩, ⟨12, []⟩],
  [.call 461 [⟨0, 0, []⟩, ⟨1, 0, []⟩, ⟨2, 0, []⟩]]⟩
/-- `glms_mat2x3_transpose`: include/cglm/struct/mat2x3.h:104-110 -/
def f_glms_mat2x3_transpose : Fn := ⟨[⟨24, []⟩, ⟨24, []⟩],
  [.call 462 [⟨0, 0, []⟩, ⟨1, 0, []⟩]]⟩
/-- `glms_mat2x3_scale`: include/cglm/struct/mat2x3.h:118-123 -/
def f_glms_mat2x3_scale : Fn := ⟨[⟨24, []⟩],
  [.call 463 [⟨0, 0, []⟩]]⟩
/-- `glms_mat2x4_zero`: include/cglm/struct/mat2x4.h:42-48 -/
def f_glms_mat2x4_zero : Fn := ⟨[⟨32, [.vec]⟩],
  [.call 465 [⟨0, 0, []⟩]]⟩
/-- `glms_mat2x4_make`: include/cglm/struct/mat2x4.h:56-62 -/
def f_glms_mat2x4_make : Fn := ⟨[⟨32, [.vec]⟩],
  [.call 466 [⟨0, 0, []⟩, ⟨1, 0, []⟩]]⟩
/-- `glms_mat2x4_mul`: include/cglm/struct/mat2x4.h:75-81 -/
def f_glms_mat2x4_mul : Fn := ⟨[⟨32, [.vec]⟩, ⟨32, []⟩, ⟨64, [.mat, .vec]⟩],
  [.call 467 [⟨0, 0, []⟩, ⟨1, 0, []⟩, ⟨2, 0, []⟩]]⟩
/-- `glms_mat2x4_mulv`: include/cglm/struct/mat2x4.h:90-96 -/
def f_glms_mat2x4_mulv : Fn := ⟨[⟨32, [.vec]⟩, ⟨8, []⟩, ⟨16, [.vec]⟩],
  [.call 468 [⟨0, 0, []⟩, ⟨1, 0, []⟩, ⟨2, 0, []⟩]]⟩
/-- `glms_mat2x4_transpose`: include/cglm/struct/mat2x4.h:104-110 -/
def f_glms_mat2x4_transpose : Fn := ⟨[⟨32, [.vec]⟩, ⟨32, []⟩],
  [.call 469 [⟨0, 0, []⟩, ⟨1, 0, []⟩]]⟩
/-- `glms_mat2x4_scale`: include/cglm/struct/mat2x4.h:118-123 -/
def f_glms_mat2x4_scale : Fn := ⟨[⟨32, [.vec]⟩],
  [.call 470 [⟨0, 0, []⟩]]⟩
/-- `glms_mat3_copy`: include/cglm/struct/mat3.h:59-65 -/
def f_glms_mat3_copy : Fn := ⟨[⟨36, []⟩, ⟨36, []⟩],
  [.call 409 [⟨0, 0, []⟩, ⟨1, 0, []⟩]]⟩
/-- `glms_mat3_identity`: include/cglm/struct/mat3.h:81-87 -/
def f_glms_mat3_identity : Fn := ⟨[⟨36, []⟩],
  [.call 410 [⟨0, 0, []⟩]]⟩
/-- `glms_mat3_identity_array`: include/cglm/struct/mat3.h:97-106 -/
def f_glms_mat3_identity_array : Fn := ⟨[⟨36, [.mat]⟩],
  [.call 409 [⟨1, 0, []⟩, ⟨0, 0, []⟩]]⟩
/-- `glms_mat3_zero`: include/cglm/struct/mat3.h:113-119 -/
def f_glms_mat3_zero : Fn := ⟨[⟨36, []⟩],
  [.call 412 [⟨0, 0, []⟩]]⟩
/-- `glms_mat3_mul`: include/cglm/struct/mat3.h:135-141 -/
def f_glms_mat3_mul : Fn := ⟨[⟨36, []⟩, ⟨36, []⟩, ⟨36, []⟩],
  [.call 413 [⟨0, 0, []⟩, ⟨1, 0, []⟩, ⟨2, 0, []⟩]]⟩
/-- `glms_mat3_transpose`: include/cglm/struct/mat3.h:148-153 -/
def f_glms_mat3_transpose : Fn := ⟨[⟨36, []⟩],
  [.call 415 [⟨0, 0, []⟩]]⟩
/-- `glms_mat3_mulv`: include/cglm/struct/mat3.h:162-168 -/
def f_glms_mat3_mulv : Fn := ⟨[⟨36, []⟩, ⟨12, []⟩, ⟨12, []⟩],
  [.call 416 [⟨0, 0, []⟩, ⟨1, 0, []⟩, ⟨2, 0, []⟩]]⟩
/-- `glms_mat3_trace`: include/cglm/struct/mat3.h:177-181 -/
def f_glms_mat3_trace : Fn := ⟨[⟨36, []⟩],
  [.call 417 [⟨0, 0, []⟩]]⟩
/-- `glms_mat3_quat`: include/cglm/struct/mat3.h:189-195 -/
def f_glms_mat3_quat : Fn := ⟨[⟨36, []⟩, ⟨16, [.vec]⟩],
  [.call 418 [⟨0, 0, []⟩, ⟨1, 0, []⟩]]⟩
/-- `glms_mat3_scale`: include/cglm/struct/mat3.h:206-211 -/
def f_glms_mat3_scale : Fn := ⟨[⟨36, []⟩],
  [.call 419 [⟨0, 0, []⟩]]⟩
/-- `glms_mat3_det`: include/cglm/struct/mat3.h:220-224 -/
def f_glms_mat3_det : Fn := ⟨[⟨36, []⟩],
  [.call 420 [⟨0, 0, []⟩]]⟩
/-- `glms_mat3_inv`: include/cglm/struct/mat3.h:232-238 -/
def f_glms_mat3_inv : Fn := ⟨[⟨36, []⟩, ⟨36, []⟩],
  [.call 421 [⟨0, 0, []⟩, ⟨1, 0, []⟩]]⟩
/-- `glms_mat3_swap_col`: include/cglm/struct/mat3.h:248-253 -/
def f_glms_mat3_swap_col : Fn := ⟨[⟨36, []⟩],
  [.call 422 [⟨0, 0, []⟩]]⟩
/-- `glms_mat3_swap_row`: include/cglm/struct/mat3.h:263-268 -/
def f_glms_mat3_swap_row : Fn := ⟨[⟨36, []⟩],
  [.call 423 [⟨0, 0, []⟩]]⟩
/-- `glms_mat3_rmc`: include/cglm/struct/mat3.h:284-288 -/
def f_glms_mat3_rmc : Fn := ⟨[⟨12, []⟩, ⟨36, []⟩, ⟨12, []⟩],
  [.call 424 [⟨0, 0, []⟩, ⟨1, 0, []⟩, ⟨2, 0, []⟩]]⟩
/-- `glms_mat3_make`: include/cglm/struct/mat3.h:296-302 -/
def f_glms_mat3_make : Fn := ⟨[⟨36, []⟩],
  [.call 425 [⟨0, 0, []⟩, ⟨1, 0, []⟩]]⟩
/-- `glms_mat3_textrans`: include/cglm/struct/mat3.h:314-320 -/
def f_glms_mat3_textrans : Fn := ⟨[⟨36, []⟩],
  [.call 426 [⟨0, 0, []⟩]]⟩
/-- `glms_mat3x2_zero`: include/cglm/struct/mat3x2.h:42-48 -/
def f_glms_mat3x2_zero : Fn := ⟨[⟨24, []⟩],
  [.call 428 [⟨0, 0, []⟩]]⟩
/-- `glms_mat3x2_make`: include/cglm/struct/mat3x2.h:56-62 -/
def f_glms_mat3x2_make : Fn := ⟨[⟨24, []⟩],
  [.call 429 [⟨0, 0, []⟩, ⟨1, 0, []⟩]]⟩
/-- `glms_mat3x2_mul`: include/cglm/struct/mat3x2.h:75-81 -/
def f_glms_mat3x2_mul : Fn := ⟨[⟨24, []⟩, ⟨24, []⟩, ⟨16, [.vec]⟩],
  [.call 430 [⟨0, 0, []⟩, ⟨1, 0, []⟩, ⟨2, 0, []⟩]]⟩
/-- `glms_mat3x2_mulv`: include/cglm/struct/mat3x2.h:90-96 -/
def f_glms_mat3x2_mulv : Fn := ⟨[⟨24, []⟩, ⟨12, []⟩, ⟨8, []⟩],
  [.call 431 [⟨0, 0, []⟩, ⟨1, 0, []⟩, ⟨2, 0, []⟩]]⟩
/-- `glms_mat3x2_transpose`: include/cglm/struct/mat3x2.h:104-110 -/
def f_glms_mat3x2_transpose : Fn := ⟨[⟨24, []⟩, ⟨24, []⟩],
  [.call 432 [⟨0, 0, []⟩, ⟨1, 0, []⟩]]⟩
/-- `glms_mat3x2_scale`: include/cglm/struct/mat3x2.h:118-123 -/
def f_glms_mat3x2_scale : Fn := ⟨[⟨24, []⟩],
  [.call 433 [⟨0, 0, []⟩]]⟩
/-- `glms_mat3x4_zero`: include/cglm/struct/mat3x4.h:42-48 -/
def f_glms_mat3x4_zero : Fn := ⟨[⟨48, [.vec]⟩],
  [.call 435 [⟨0, 0, []⟩]]⟩
/-- `glms_mat3x4_make`: include/cglm/struct/mat3x4.h:56-62 -/
def f_glms_mat3x4_make : Fn := ⟨[⟨48, [.vec]⟩],
  [.call 436 [⟨0, 0, []⟩, ⟨1, 0, []⟩]]⟩
/-- `glms_mat3x4_mul`: include/cglm/struct/mat3x4.h:75-81 -/
def f_glms_mat3x4_mul : Fn := ⟨[⟨48, [.vec]⟩, ⟨48, []⟩, ⟨64, [.mat, .vec]⟩],
  [.call 437 [⟨0, 0, []⟩, ⟨1, 0, []⟩, ⟨2, 0, []⟩]]⟩
/-- `glms_mat3x4_mulv`: include/cglm/struct/mat3x4.h:90-96 -/
def f_glms_mat3x4_mulv : Fn := ⟨[⟨48, [.vec]⟩, ⟨12, []⟩, ⟨16, [.vec]⟩],
  [.call 438 [⟨0, 0, []⟩, ⟨1, 0, []⟩, ⟨2, 0, []⟩]]⟩
/-- `glms_mat3x4_transpose`: include/cglm/struct/mat3x4.h:104-110 -/
def f_glms_mat3x4_transpose : Fn := ⟨[⟨48, [.vec]⟩, ⟨48, []⟩],
  [.call 439 [⟨0, 0, []⟩, ⟨1, 0, []⟩]]⟩
/-- `glms_mat3x4_scale`: include/cglm/struct/mat3x4.h:118-123 -/
def f_glms_mat3x4_scale : Fn := ⟨[⟨48, [.vec]⟩],
  [.call 440 [⟨0, 0, []⟩]]⟩
/-- `glms_mat4_ucopy`: include/cglm/struct/mat4.h:77-83 -/
def f_glms_mat4_ucopy : Fn := ⟨[⟨64, [.mat, .vec]⟩, ⟨64, [.mat, .vec]⟩],
  [.call 368 [⟨0, 0, []⟩, ⟨1, 0, []⟩]]⟩
/-- `glms_mat4_copy`: include/cglm/struct/mat4.h:91-97 -/
def f_glms_mat4_copy : Fn := ⟨[⟨64, [.mat, .vec]⟩, ⟨64, [.mat, .vec]⟩],
  [.call 369 [⟨0, 0, []⟩, ⟨1, 0, []⟩]]⟩
/-- `glms_mat4_identity`: include/cglm/struct/mat4.h:113-119 -/
def f_glms_mat4_identity : Fn := ⟨[⟨64, [.mat, .vec]⟩],
  [.call 370 [⟨0, 0, []⟩]]⟩
/-- `glms_mat4_identity_array`: include/cglm/struct/mat4.h:129-138 -/
def f_glms_mat4_identity_array : Fn := ⟨[⟨64, [.mat, .vec]⟩],
  [.call 369 [⟨1, 0, []⟩, ⟨0, 0, []⟩]]⟩
/-- `glms_mat4_zero`: include/cglm/struct/mat4.h:145-151 -/
def f_glms_mat4_zero : Fn := ⟨[⟨64, [.mat, .vec]⟩],
  [.call 372 [⟨0, 0, []⟩]]⟩
/-- `glms_mat4_pick3`: include/cglm/struct/mat4.h:159-165 -/
def f_glms_mat4_pick3 : Fn := ⟨[⟨64, [.mat, .vec]⟩, ⟨36, []⟩],
  [.call 373 [⟨0, 0, []⟩, ⟨1, 0, []⟩]]⟩
/-- `glms_mat4_pick3t`: include/cglm/struct/mat4.h:175-181 -/
def f_glms_mat4_pick3t : Fn := ⟨[⟨64, [.mat, .vec]⟩, ⟨36, []⟩],
  [.call 374 [⟨0, 0, []⟩, ⟨1, 0, []⟩]]⟩
/-- `glms_mat4_ins3`: include/cglm/struct/mat4.h:190-195 -/
def f_glms_mat4_ins3 : Fn := ⟨[⟨36, []⟩, ⟨64, [.mat, .vec]⟩],
  [.call 375 [⟨0, 0, []⟩, ⟨1, 0, []⟩]]⟩
/-- `glms_mat4_mul`: include/cglm/struct/mat4.h:211-217 -/
def f_glms_mat4_mul : Fn := ⟨[⟨64, [.mat, .vec]⟩, ⟨64, [.mat, .vec]⟩, ⟨64, [.mat, .vec]⟩],
  [.call 376 [⟨0, 0, []⟩, ⟨1, 0, []⟩, ⟨2, 0, []⟩]]⟩
/-- `glms_mat4_mulN`: include/cglm/struct/mat4.h:238-249 -/
def f_glms_mat4_mulN : Fn := ⟨[⟨64, [.mat, .vec]⟩],
  [.call 1219 []]⟩
/-- `glms_mat4_mulv`: include/cglm/struct/mat4.h:258-264 -/
def f_glms_mat4_mulv : Fn := ⟨[⟨64, [.mat, .vec]⟩, ⟨16, [.vec]⟩, ⟨16, [.vec]⟩],
  [.call 378 [⟨0, 0, []⟩, ⟨1, 0, []⟩, ⟨2, 0, []⟩]]⟩
/-- `glms_mat4_trace`: include/cglm/struct/mat4.h:273-277 -/
def f_glms_mat4_trace : Fn := ⟨[⟨64, [.mat, .vec]⟩],
  [.call 379 [⟨0, 0, []⟩]]⟩
/-- `glms_mat4_trace3`: include/cglm/struct/mat4.h:286-290 -/
def f_glms_mat4_trace3 : Fn := ⟨[⟨64, [.mat, .vec]⟩],
  [.call 380 [⟨0, 0, []⟩]]⟩
/-- `glms_mat4_quat`: include/cglm/struct/mat4.h:298-304 -/
def f_glms_mat4_quat : Fn := ⟨[⟨64, [.mat, .vec]⟩, ⟨16, [.vec]⟩],
  [.call 381 [⟨0, 0, []⟩, ⟨1, 0, []⟩]]⟩
/-- `glms_mat4_mulv3`: include/cglm/struct/mat4.h:314-320 -/
def f_glms_mat4_mulv3 : Fn := ⟨[⟨64, [.mat, .vec]⟩, ⟨12, []⟩, ⟨12, []⟩],
  [.call 382 [⟨0, 0, []⟩, ⟨1, 0, []⟩, ⟨2, 0, []⟩]]⟩
/-- `glms_mat4_transpose`: include/cglm/struct/mat4.h:328-333 -/
def f_glms_mat4_transpose : Fn := ⟨[⟨64, [.mat, .vec]⟩],
  [.call 384 [⟨0, 0, []⟩]]⟩
/-- `glms_mat4_scale_p`: include/cglm/struct/mat4.h:344-349 -/
def f_glms_mat4_scale_p : Fn := ⟨[⟨64, [.mat, .vec]⟩],
  [.call 385 [⟨0, 0, []⟩]]⟩
/-- `glms_mat4_scale`: include/cglm/struct/mat4.h:360-365 -/
def f_glms_mat4_scale : Fn := ⟨[⟨64, [.mat, .vec]⟩],
  [.call 386 [⟨0, 0, []⟩]]⟩
/-- `glms_mat4_det`: include/cglm/struct/mat4.h:374-378 -/
def f_glms_mat4_det : Fn := ⟨[⟨64, [.mat, .vec]⟩],
  [.call 387 [⟨0, 0, []⟩]]⟩
/-- `glms_mat4_inv`: include/cglm/struct/mat4.h:386-392 -/
def f_glms_mat4_inv : Fn := ⟨[⟨64, [.mat, .vec]⟩, ⟨64, [.mat, .vec]⟩],
  [.call 388 [⟨0, 0, []⟩, ⟨1, 0, []⟩]]⟩
/-- `glms_mat4_inv_fast`: include/cglm/struct/mat4.h:406-412 -/
def f_glms_mat4_inv_fast : Fn := ⟨[⟨64, [.mat, .vec]⟩, ⟨64, [.mat, .vec]⟩],
  [.call 389 [⟨0, 0, []⟩, ⟨1, 0, []⟩]]⟩
/-- `glms_mat4_swap_col`: include/cglm/struct/mat4.h:422-427 -/
def f_glms_mat4_swap_col : Fn := ⟨[⟨64, [.mat, .vec]⟩],
  [.call 390 [⟨0, 0, []⟩]]⟩
/-- `glms_mat4_swap_row`: include/cglm/struct/mat4.h:437-442 -/
def f_glms_mat4_swap_row : Fn := ⟨[⟨64, [.mat, .vec]⟩],
  [.call 391 [⟨0, 0, []⟩]]⟩
/-- `glms_mat4_rmc`: include/cglm/struct/mat4.h:458-462 -/
def f_glms_mat4_rmc : Fn := ⟨[⟨16, [.vec]⟩, ⟨64, [.mat, .vec]⟩, ⟨16, [.vec]⟩],
  [.call 392 [⟨0, 0, []⟩, ⟨1, 0, []⟩, ⟨2, 0, []⟩]]⟩
/-- `glms_mat4_make`: include/cglm/struct/mat4.h:470-476 -/
def f_glms_mat4_make : Fn := ⟨[⟨64, [.mat, .vec]⟩],
  [.call 393 [⟨0, 0, []⟩, ⟨1, 0, []⟩]]⟩
/-- `glms_mat4_textrans`: include/cglm/struct/mat4.h:488-494 -/
def f_glms_mat4_textrans : Fn := ⟨[⟨64, [.mat, .vec]⟩],
  [.call 394 [⟨0, 0, []⟩]]⟩
/-- `glms_mat4x2_zero`: include/cglm/struct/mat4x2.h:43-49 -/
def f_glms_mat4x2_zero : Fn := ⟨[⟨32, []⟩],
  [.call 396 [⟨0, 0, []⟩]]⟩
/-- `glms_mat4x2_make`: include/cglm/struct/mat4x2.h:57-63 -/
def f_glms_mat4x2_make : Fn := ⟨[⟨32, []⟩],
  [.call 397 [⟨0, 0, []⟩, ⟨1, 0, []⟩]]⟩
/-- `glms_mat4x2_mul`: include/cglm/struct/mat4x2.h:76-82 -/
def f_glms_mat4x2_mul : Fn := ⟨[⟨32, []⟩, ⟨32, [.vec]⟩, ⟨16, [.vec]⟩],
  [.call 398 [⟨0, 0, []⟩, ⟨1, 0, []⟩, ⟨2, 0, []⟩]]⟩
/-- `glms_mat4x2_mulv`: include/cglm/struct/mat4x2.h:91-97 -/
def f_glms_mat4x2_mulv : Fn := ⟨[⟨32, []⟩, ⟨16, [.vec]⟩, ⟨8, []⟩],
  [.call 399 [⟨0, 0, []⟩, ⟨1, 0, []⟩, ⟨2, 0, []⟩]]⟩
/-- `glms_mat4x2_transpose`: include/cglm/struct/mat4x2.h:105-111 -/
def f_glms_mat4x2_transpose : Fn := ⟨[⟨32, []⟩, ⟨32, [.vec]⟩],
  [.call 400 [⟨0, 0, []⟩, ⟨1, 0, []⟩]]⟩
/-- `glms_mat4x2_scale`: include/cglm/struct/mat4x2.h:119-124 -/
def f_glms_mat4x2_scale : Fn := ⟨[⟨32, []⟩],
  [.call 401 [⟨0, 0, []⟩]]⟩
/-- `glms_mat4x3_zero`: include/cglm/struct/mat4x3.h:42-48 -/
def f_glms_mat4x3_zero : Fn := ⟨[⟨48, []⟩],
  [.call 403 [⟨0, 0, []⟩]]⟩
/-- `glms_mat4x3_make`: include/cglm/struct/mat4x3.h:56-62 -/
def f_glms_mat4x3_make : Fn := ⟨[⟨48, []⟩],
  [.call 404 [⟨0, 0, []⟩, ⟨1, 0, []⟩]]⟩
/-- `glms_mat4x3_mul`: include/cglm/struct/mat4x3.h:75-81 -/
def f_glms_mat4x3_mul : Fn := ⟨[⟨48, []⟩, ⟨48, [.vec]⟩, ⟨36, []⟩],
  [.call 405 [⟨0, 0, []⟩, ⟨1, 0, []⟩, ⟨2, 0, []⟩]]⟩
/-- `glms_mat4x3_mulv`: include/cglm/struct/mat4x3.h:90-96 -/
def f_glms_mat4x3_mulv : Fn := ⟨[⟨48, []⟩, ⟨16, [.vec]⟩, ⟨12, []⟩],
  [.call 406 [⟨0, 0, []⟩, ⟨1, 0, []⟩, ⟨2, 0, []⟩]]⟩
/-- `glms_mat4x3_transpose`: include/cglm/struct/mat4x3.h:104-110 -/
def f_glms_mat4x3_transpose : Fn := ⟨[⟨48, []⟩, ⟨48, [.vec]⟩],
  [.call 407 [⟨0, 0, []⟩, ⟨1, 0, []⟩]]⟩
/-- `glms_mat4x3_scale`: include/cglm/struct/mat4x3.h:118-123 -/
def f_glms_mat4x3_scale : Fn := ⟨[⟨48, []⟩],
  [.call 408 [⟨0, 0, []⟩]]⟩
/-- `glms_mul`: include/cglm/struct/affine-mat.h:41-47 -/
def f_glms_mul : Fn := ⟨[⟨64, [.mat, .vec]⟩, ⟨64, [.mat, .vec]⟩, ⟨64, [.mat, .vec]⟩],
  [.call 471 [⟨0, 0, []⟩, ⟨1, 0, []⟩, ⟨2, 0, []⟩]]⟩
/-- `glms_mul_rot`: include/cglm/struct/affine-mat.h:65-71 -/
def f_glms_mul_rot : Fn := ⟨[⟨64, [.mat, .vec]⟩, ⟨64, [.mat, .vec]⟩, ⟨64, [.mat, .vec]⟩],
  [.call 472 [⟨0, 0, []⟩, ⟨1, 0, []⟩, ⟨2, 0, []⟩]]⟩
/-- `glms_inv_tr`: include/cglm/struct/affine-mat.h:84-89 -/
def f_glms_inv_tr : Fn := ⟨[⟨64, [.mat, .vec]⟩],
  [.call 473 [⟨0, 0, []⟩]]⟩
/-- `glms_translate_make`: include/cglm/struct/affine.h:50-56 -/
def f_glms_translate_make : Fn := ⟨[⟨12, []⟩, ⟨64, [.mat, .vec]⟩],
  [.call 474 [⟨1, 0, []⟩, ⟨0, 0, []⟩]]⟩
/-- `glms_scale_make`: include/cglm/struct/affine.h:64-70 -/
def f_glms_scale_make : Fn := ⟨[⟨12, []⟩, ⟨64, [.mat, .vec]⟩],
  [.call 476 [⟨1, 0, []⟩, ⟨0, 0, []⟩]]⟩
/-- `glms_scale`: include/cglm/struct/affine.h:80-86 -/
def f_glms_scale : Fn := ⟨[⟨64, [.mat, .vec]⟩, ⟨12, []⟩, ⟨64, [.mat, .vec]⟩],
  [.call 475 [⟨0, 0, []⟩, ⟨1, 0, []⟩, ⟨2, 0, []⟩]]⟩
/-- `glms_scale_uni`: include/cglm/struct/affine.h:96-101 -/
def f_glms_scale_uni : Fn := ⟨[⟨64, [.mat, .vec]⟩],
  [.call 478 [⟨0, 0, []⟩]]⟩
/-- `glms_rotate_make`: include/cglm/struct/affine.h:112-118 -/
def f_glms_rotate_make : Fn := ⟨[⟨12, []⟩, ⟨64, [.mat, .vec]⟩],
  [.call 479 [⟨1, 0, []⟩, ⟨0, 0, []⟩]]⟩
/-- `glms_rotate_atm`: include/cglm/struct/affine.h:133-139 -/
def f_glms_rotate_atm : Fn := ⟨[⟨12, []⟩, ⟨12, []⟩, ⟨64, [.mat, .vec]⟩],
  [.call 494 [⟨2, 0, []⟩, ⟨0, 0, []⟩, ⟨1, 0, []⟩]]⟩
/-- `glms_decompose_scalev`: include/cglm/struct/affine.h:147-153 -/
def f_glms_decompose_scalev : Fn := ⟨[⟨64, [.mat, .vec]⟩, ⟨12, []⟩],
  [.call 480 [⟨0, 0, []⟩, ⟨1, 0, []⟩]]⟩
/-- `glms_uniscaled`: include/cglm/struct/affine.h:163-167 -/
def f_glms_uniscaled : Fn := ⟨[⟨64, [.mat, .vec]⟩],
  [.call 481 [⟨0, 0, []⟩]]⟩
/-- `glms_decompose_rs`: include/cglm/struct/affine.h:177-181 -/
def f_glms_decompose_rs : Fn := ⟨[⟨64, [.mat, .vec]⟩],
  [.call 482 [⟨2, 0, []⟩, ⟨0, 0, []⟩, ⟨1, 0, []⟩]]⟩
/-- `glms_decompose`: include/cglm/struct/affine.h:192-196 -/
def f_glms_decompose : Fn := ⟨[⟨64, [.mat, .vec]⟩],
  [.call 483 [⟨3, 0, []⟩, ⟨0, 0, []⟩, ⟨1, 0, []⟩, ⟨2, 0, []⟩]]⟩
/-- `glms_translate`: include/cglm/struct/affine-pre.h:40-45 -/
def f_glms_translate : Fn := ⟨[⟨64, [.mat, .vec]⟩, ⟨12, []⟩],
  [.call 484 [⟨0, 0, []⟩, ⟨1, 0, []⟩]]⟩
/-- `glms_translate_x`: include/cglm/struct/affine-pre.h:54-59 -/
def f_glms_translate_x : Fn := ⟨[⟨64, [.mat, .vec]⟩],
  [.call 486 [⟨0, 0, []⟩]]⟩
/-- `glms_translate_y`: include/cglm/struct/affine-pre.h:68-73 -/
def f_glms_translate_y : Fn := ⟨[⟨64, [.mat, .vec]⟩],
  [.call 487 [⟨0, 0, []⟩]]⟩
/-- `glms_translate_z`: include/cglm/struct/affine-pre.h:82-87 -/
def f_glms_translate_z : Fn := ⟨[⟨64, [.mat, .vec]⟩],
  [.call 488 [⟨0, 0, []⟩]]⟩
/-- `glms_rotate_x`: include/cglm/struct/affine-pre.h:97-103 -/
def f_glms_rotate_x : Fn := ⟨[⟨64, [.mat, .vec]⟩, ⟨64, [.mat, .vec]⟩],
  [.call 489 [⟨0, 0, []⟩, ⟨1, 0, []⟩]]⟩
/-- `glms_rotate_y`: include/cglm/struct/affine-pre.h:113-119 -/
def f_glms_rotate_y : Fn := ⟨[⟨64, [.mat, .vec]⟩, ⟨64, [.mat, .vec]⟩],
  [.call 490 [⟨0, 0, []⟩, ⟨1, 0, []⟩]]⟩
/-- `glms_rotate_z`: include/cglm/struct/affine-pre.h:129-135 -/
def f_glms_rotate_z : Fn := ⟨[⟨64, [.mat, .vec]⟩, ⟨64, [.mat, .vec]⟩],
  [.call 491 [⟨0, 0, []⟩, ⟨1, 0, []⟩]]⟩
/-- `glms_rotate`: include/cglm/struct/affine-pre.h:145-150 -/
def f_glms_rotate : Fn := ⟨[⟨64, [.mat, .vec]⟩, ⟨12, []⟩],
  [.call 492 [⟨0, 0, []⟩, ⟨1, 0, []⟩]]⟩
/-- `glms_rotate_at`: include/cglm/struct/affine-pre.h:162-167 -/
def f_glms_rotate_at : Fn := ⟨[⟨64, [.mat, .vec]⟩, ⟨12, []⟩, ⟨12, []⟩],
  [.call 493 [⟨0, 0, []⟩, ⟨1, 0, []⟩, ⟨2, 0, []⟩]]⟩
/-- `glms_spin`: include/cglm/struct/affine-pre.h:177-182 -/
def f_glms_spin : Fn := ⟨[⟨64, [.mat, .vec]⟩, ⟨12, []⟩],
  [.call 495 [⟨0, 0, []⟩, ⟨1, 0, []⟩]]⟩
/-- `glms_translated`: include/cglm/struct/affine-post.h:40-45 -/
def f_glms_translated : Fn := ⟨[⟨64, [.mat, .vec]⟩, ⟨12, []⟩],
  [.call 496 [⟨0, 0, []⟩, ⟨1, 0, []⟩]]⟩
/-- `glms_translated_x`: include/cglm/struct/affine-post.h:54-59 -/
def f_glms_translated_x : Fn := ⟨[⟨64, [.mat, .vec]⟩],
  [.call 498 [⟨0, 0, []⟩]]⟩
/-- `glms_translated_y`: include/cglm/struct/affine-post.h:68-73 -/
def f_glms_translated_y : Fn := ⟨[⟨64, [.mat, .vec]⟩],
  [.call 499 [⟨0, 0, []⟩]]⟩
/-- `glms_translated_z`: include/cglm/struct/affine-post.h:82-87 -/
def f_glms_translated_z : Fn := ⟨[⟨64, [.mat, .vec]⟩],
  [.call 500 [⟨0, 0, []⟩]]⟩
/-- `glms_rotated_x`: include/cglm/struct/affine-post.h:97-103 -/
def f_glms_rotated_x : Fn := ⟨[⟨64, [.mat, .vec]⟩, ⟨64, [.mat, .vec]⟩],
  [.call 501 [⟨0, 0, []⟩, ⟨1, 0, []⟩]]⟩
/-- `glms_rotated_y`: include/cglm/struct/affine-post.h:113-119 -/
def f_glms_rotated_y : Fn := ⟨[⟨64, [.mat, .vec]⟩, ⟨64, [.mat, .vec]⟩],
  [.call 502 [⟨0, 0, []⟩, ⟨1, 0, []⟩]]⟩
/-- `glms_rotated_z`: include/cglm/struct/affine-post.h:129-135 -/
def f_glms_rotated_z : Fn := ⟨[⟨64, [.mat, .vec]⟩, ⟨64, [.mat, .vec]⟩],
  [.call 503 [⟨0, 0, []⟩, ⟨1, 0, []⟩]]⟩
/-- `glms_rotated`: include/cglm/struct/affine-post.h:145-150 -/
def f_glms_rotated : Fn := ⟨[⟨64, [.mat, .vec]⟩, ⟨12, []⟩],
  [.call 504 [⟨0, 0, []⟩, ⟨1, 0, []⟩]]⟩
/-- `glms_rotated_at`: include/cglm/struct/affine-post.h:162-167 -/
def f_glms_rotated_at : Fn := ⟨[⟨64, [.mat, .vec]⟩, ⟨12, []⟩, ⟨12, []⟩],
  [.call 505 [⟨0, 0, []⟩, ⟨1, 0, []⟩, ⟨2, 0, []⟩]]⟩
/-- `glms_spinned`: include/cglm/struct/affine-post.h:177-182 -/
def f_glms_spinned : Fn := ⟨[⟨64, [.mat, .vec]⟩, ⟨12, []⟩],
  [.call 506 [⟨0, 0, []⟩, ⟨1, 0, []⟩]]⟩
/-- `glms_plane_normalize`: include/cglm/struct/plane.h:33-38 -/
def f_glms_plane_normalize : Fn := ⟨[⟨16, [.vec]⟩],
  [.call 507 [⟨0, 0, []⟩]]⟩
/-- `glms_frustum_planes`: include/cglm/struct/frustum.h:55-61 -/
def f_glms_frustum_planes : Fn := ⟨[⟨64, [.mat, .vec]⟩, ⟨96, [.vec]⟩],
  [.call 634 [⟨1, 0, []⟩, ⟨2, 0, []⟩], .call 989 [⟨0, 0, []⟩, ⟨2, 0, []⟩]]⟩
/-- `glms_frustum_corners`: include/cglm/struct/frustum.h:86-92 -/
def f_glms_frustum_corners : Fn := ⟨[⟨64, [.mat, .vec]⟩, ⟨128, [.vec]⟩],
  [.call 635 [⟨1, 0, []⟩, ⟨2, 0, []⟩], .call 989 [⟨0, 0, []⟩, ⟨2, 0, []⟩]]⟩
/-- `glms_frustum_center`: include/cglm/struct/frustum.h:100-109 -/
def f_glms_frustum_center : Fn := ⟨[⟨128, [.vec]⟩, ⟨16, [.vec]⟩],
  [.call 990 [⟨1, 0, []⟩, ⟨0, 0, []⟩], .call 636 [⟨1, 0, []⟩, ⟨2, 0, []⟩]]⟩
/-- `glms_frustum_box`: include/cglm/struct/frustum.h:118-127 -/
def f_glms_frustum_box : Fn := ⟨[⟨64, [.mat, .vec]⟩, ⟨128, [.vec]⟩, ⟨24, []⟩],
  [.call 990 [⟨3, 0, []⟩, ⟨0, 0, []⟩], .call 637 [⟨3, 0, []⟩, ⟨2, 0, []⟩, ⟨4, 0, []⟩], .call 900 [⟨1, 0, []⟩, ⟨4, 0, []⟩]]⟩
/-- `glms_frustum_corners_at`: include/cglm/struct/frustum.h:141-153 -/
def f_glms_frustum_corners_at : Fn := ⟨[⟨128, [.vec]⟩, ⟨64, [.vec]⟩],
  [.call 990 [⟨2, 0, []⟩, ⟨0, 0, []⟩], .call 638 [⟨2, 0, []⟩, ⟨3, 0, []⟩], .call 989 [⟨1, 0, []⟩, ⟨3, 0, []⟩]]⟩
/-- `glms_perlin_vec4`: include/cglm/struct/noise.h:27-31 -/
def f_glms_perlin_vec4 : Fn := ⟨[⟨16, [.vec]⟩],
  [.call 700 [⟨0, 0, []⟩]]⟩
/-- `glms_perlin_vec3`: include/cglm/struct/noise.h:39-43 -/
def f_glms_perlin_vec3 : Fn := ⟨[⟨12, []⟩],
  [.call 701 [⟨0, 0, []⟩]]⟩
/-- `glms_perlin_vec2`: include/cglm/struct/noise.h:51-55 -/
def f_glms_perlin_vec2 : Fn := ⟨[⟨8, []⟩],
  [.call 702 [⟨0, 0, []⟩]]⟩
/-- `glms_aabb_transform`: include/cglm/struct/box.h:28-37 -/
def f_glms_aabb_transform : Fn := ⟨[⟨64, [.mat, .vec]⟩, ⟨24, []⟩, ⟨24, []⟩],
  [.call 901 [⟨3, 0, []⟩, ⟨0, 0, []⟩], .call 719 [⟨3, 0, []⟩, ⟨2, 0, []⟩, ⟨4, 0, []⟩], .call 900 [⟨1, 0, []⟩, ⟨4, 0, []⟩]]⟩
/-- `glms_aabb_merge`: include/cglm/struct/box.h:49-60 -/
def f_glms_aabb_merge : Fn := ⟨[⟨24, []⟩, ⟨24, []⟩, ⟨24, []⟩],
  [.call 901 [⟨3, 0, []⟩, ⟨0, 0, []⟩], .call 901 [⟨4, 0, []⟩, ⟨1, 0, []⟩], .call 720 [⟨3, 0, []⟩, ⟨4, 0, []⟩, ⟨5, 0, []⟩],
   .call 900 [⟨2, 0, []⟩, ⟨5, 0, []⟩]]⟩
/-- `glms_aabb_crop`: include/cglm/struct/box.h:73-84 -/
def f_glms_aabb_crop : Fn := ⟨[⟨24, []⟩, ⟨24, []⟩, ⟨24, []⟩],
  [.call 901 [⟨3, 0, []⟩, ⟨0, 0, []⟩], .call 901 [⟨4, 0, []⟩, ⟨1, 0, []⟩], .call 721 [⟨3, 0, []⟩, ⟨4, 0, []⟩, ⟨5, 0, []⟩],
   .call 900 [⟨2, 0, []⟩, ⟨5, 0, []⟩]]⟩
/-- `glms_aabb_crop_until`: include/cglm/struct/box.h:98-106 -/
def f_glms_aabb_crop_until : Fn := ⟨[],
  [.call 1293 [⟨0, 0, []⟩, ⟨1, 0, []⟩, ⟨3, 0, []⟩], .call 1292 [⟨2, 0, []⟩, ⟨3, 0, []⟩, ⟨3, 0, []⟩]]⟩
/-- `glms_aabb_frustum`: include/cglm/struct/box.h:122-131 -/
def f_glms_aabb_frustum : Fn := ⟨[⟨24, []⟩, ⟨96, [.vec]⟩],
  [.call 901 [⟨2, 0, []⟩, ⟨0, 0, []⟩], .call 990 [⟨3, 0, []⟩, ⟨1, 0, []⟩], .call 723 [⟨2, 0, []⟩, ⟨3, 0, []⟩]]⟩
/-- `glms_aabb_invalidate`: include/cglm/struct/box.h:138-143 -/
def f_glms_aabb_invalidate : Fn := ⟨[],
  [.call 878 []]⟩
/-- `glms_aabb_isvalid`: include/cglm/struct/box.h:150-156 -/
def f_glms_aabb_isvalid : Fn := ⟨[⟨24, []⟩],
  [.call 901 [⟨1, 0, []⟩, ⟨0, 0, []⟩], .call 725 [⟨1, 0, []⟩]]⟩
/-- `glms_aabb_size`: include/cglm/struct/box.h:163-167 -/
def f_glms_aabb_size : Fn := ⟨[],
  [.call 232 [⟨0, 0, []⟩, ⟨0, 12, []⟩]]⟩
/-- `glms_aabb_radius`: include/cglm/struct/box.h:174-178 -/
def f_glms_aabb_radius : Fn := ⟨[],
  [.call 1298 [⟨0, 0, []⟩]]⟩
/-- `glms_aabb_center`: include/cglm/struct/box.h:186-190 -/
def f_glms_aabb_center : Fn := ⟨[],
  [.call 940 []]⟩
/-- `glms_aabb_aabb`: include/cglm/struct/box.h:198-207 -/
def f_glms_aabb_aabb : Fn := ⟨[⟨24, []⟩, ⟨24, []⟩],
  [.call 901 [⟨2, 0, []⟩, ⟨0, 0, []⟩], .call 901 [⟨3, 0, []⟩, ⟨1, 0, []⟩], .call 729 [⟨2, 0, []⟩, ⟨3, 0, []⟩]]⟩
/-- `glms_aabb_sphere`: include/cglm/struct/box.h:218-225 -/
def f_glms_aabb_sphere : Fn := ⟨[⟨16, [.vec]⟩, ⟨24, []⟩],
  [.call 901 [⟨2, 0, []⟩, ⟨0, 0, []⟩], .call 730 [⟨2, 0, []⟩, ⟨1, 0, []⟩]]⟩
/-- `glms_aabb_point`: include/cglm/struct/box.h:233-240 -/
def f_glms_aabb_point : Fn := ⟨[⟨12, []⟩, ⟨24, []⟩],
  [.call 901 [⟨2, 0, []⟩, ⟨0, 0, []⟩], .call 731 [⟨2, 0, []⟩, ⟨1, 0, []⟩]]⟩
/-- `glms_aabb_contains`: include/cglm/struct/box.h:248-257 -/
def f_glms_aabb_contains : Fn := ⟨[⟨24, []⟩, ⟨24, []⟩],
  [.call 901 [⟨2, 0, []⟩, ⟨0, 0, []⟩], .call 901 [⟨3, 0, []⟩, ⟨1, 0, []⟩], .call 732 [⟨2, 0, []⟩, ⟨3, 0, []⟩]]⟩
/-- `glms_luminance`: include/cglm/struct/color.h:21-25 -/
def f_glms_luminance : Fn := ⟨[⟨12, []⟩],
  [.call 733 [⟨0, 0, []⟩]]⟩
/-- `glms_ortho_lh_zo`: include/cglm/struct/clipspace/ortho_lh_zo.h:43-51 -/
def f_glms_ortho_lh_zo : Fn := ⟨[⟨64, [.mat, .vec]⟩],
  [.call 510 [⟨0, 0, []⟩]]⟩
/-- `glms_ortho_aabb_lh_zo`: include/cglm/struct/clipspace/ortho_lh_zo.h:63-73 -/
def f_glms_ortho_aabb_lh_zo : Fn := ⟨[⟨64, [.mat, .vec]⟩, ⟨24, []⟩],
  [.call 901 [⟨2, 0, []⟩, ⟨0, 0, []⟩], .call 511 [⟨2, 0, []⟩, ⟨1, 0, []⟩]]⟩
/-- `glms_ortho_aabb_p_lh_zo`: include/cglm/struct/clipspace/ortho_lh_zo.h:86-96 -/
def f_glms_ortho_aabb_p_lh_zo : Fn := ⟨[⟨64, [.mat, .vec]⟩, ⟨24, []⟩],
  [.call 901 [⟨2, 0, []⟩, ⟨0, 0, []⟩], .call 512 [⟨2, 0, []⟩, ⟨1, 0, []⟩]]⟩
/-- `glms_ortho_aabb_pz_lh_zo`: include/cglm/struct/clipspace/ortho_lh_zo.h:109-119 -/
def f_glms_ortho_aabb_pz_lh_zo : Fn := ⟨[⟨64, [.mat, .vec]⟩, ⟨24, []⟩],
  [.call 901 [⟨2, 0, []⟩, ⟨0, 0, []⟩], .call 513 [⟨2, 0, []⟩, ⟨1, 0, []⟩]]⟩
/-- `glms_ortho_default_lh_zo`: include/cglm/struct/clipspace/ortho_lh_zo.h:129-135 -/
def f_glms_ortho_default_lh_zo : Fn := ⟨[⟨64, [.mat, .vec]⟩],
  [.call 514 [⟨0, 0, []⟩]]⟩
/-- `glms_ortho_default_s_lh_zo`: include/cglm/struct/clipspace/ortho_lh_zo.h:146-152 -/
def f_glms_ortho_default_s_lh_zo : Fn := ⟨[⟨64, [.mat, .vec]⟩],
  [.call 515 [⟨0, 0, []⟩]]⟩
/-- `glms_frustum_lh_zo`: include/cglm/struct/clipspace/persp_lh_zo.h:57-65 -/
def f_glms_frustum_lh_zo : Fn := ⟨[⟨64, [.mat, .vec]⟩],
  [.call 516 [⟨0, 0, []⟩]]⟩
/-- `glms_perspective_lh_zo`: include/cglm/struct/clipspace/persp_lh_zo.h:78-84 -/
def f_glms_perspective_lh_zo : Fn := ⟨[⟨64, [.mat, .vec]⟩],
  [.call 517 [⟨0, 0, []⟩]]⟩
/-- `glms_persp_move_far_lh_zo`: include/cglm/struct/clipspace/persp_lh_zo.h:100-107 -/
def f_glms_persp_move_far_lh_zo : Fn := ⟨[⟨64, [.mat, .vec]⟩, ⟨64, [.mat, .vec]⟩],
  [.call 518 [⟨1, 0, []⟩]]⟩
/-- `glms_perspective_default_lh_zo`: include/cglm/struct/clipspace/persp_lh_zo.h:117-123 -/
def f_glms_perspective_default_lh_zo : Fn := ⟨[⟨64, [.mat, .vec]⟩],
  [.call 519 [⟨0, 0, []⟩]]⟩
/-- `glms_perspective_resize_lh_zo`: include/cglm/struct/clipspace/persp_lh_zo.h:138-145 -/
def f_glms_perspective_resize_lh_zo : Fn := ⟨[⟨64, [.mat, .vec]⟩, ⟨64, [.mat, .vec]⟩],
  [.call 520 [⟨1, 0, []⟩]]⟩
/-- `glms_persp_decomp_lh_zo`: include/cglm/struct/clipspace/persp_lh_zo.h:160-167 -/
def f_glms_persp_decomp_lh_zo : Fn := ⟨[⟨64, [.mat, .vec]⟩],
  [.call 521 [⟨6, 0, []⟩, ⟨0, 0, []⟩, ⟨1, 0, []⟩, ⟨2, 0, []⟩, ⟨3, 0, []⟩, ⟨4, 0, []⟩, ⟨5, 0, []⟩]]⟩
/-- `glms_persp_decompv_lh_zo`: include/cglm/struct/clipspace/persp_lh_zo.h:178-182 -/
def f_glms_persp_decompv_lh_zo : Fn := ⟨[⟨64, [.mat, .vec]⟩],
  [.call 522 [⟨1, 0, []⟩, ⟨0, 0, []⟩]]⟩
/-- `glms_persp_decomp_x_lh_zo`: include/cglm/struct/clipspace/persp_lh_zo.h:194-200 -/
def f_glms_persp_decomp_x_lh_zo : Fn := ⟨[⟨64, [.mat, .vec]⟩],
  [.call 523 [⟨2, 0, []⟩, ⟨0, 0, []⟩, ⟨1, 0, []⟩]]⟩
/-- `glms_persp_decomp_y_lh_zo`: include/cglm/struct/clipspace/persp_lh_zo.h:212-218 -/
def f_glms_persp_decomp_y_lh_zo : Fn := ⟨[⟨64, [.mat, .vec]⟩],
  [.call 524 [⟨2, 0, []⟩, ⟨0, 0, []⟩, ⟨1, 0, []⟩]]⟩
/-- `glms_persp_decomp_z_lh_zo`: include/cglm/struct/clipspace/persp_lh_zo.h:230-236 -/
def f_glms_persp_decomp_z_lh_zo : Fn := ⟨[⟨64, [.mat, .vec]⟩],
  [.call 525 [⟨2, 0, []⟩, ⟨0, 0, []⟩, ⟨1, 0, []⟩]]⟩
/-- `glms_persp_decomp_far_lh_zo`: include/cglm/struct/clipspace/persp_lh_zo.h:246-250 -/
def f_glms_persp_decomp_far_lh_zo : Fn := ⟨[⟨64, [.mat, .vec]⟩],
  [.call 526 [⟨1, 0, []⟩, ⟨0, 0, []⟩]]⟩
/-- `glms_persp_decomp_near_lh_zo`: include/cglm/struct/clipspace/persp_lh_zo.h:260-264 -/
def f_glms_persp_decomp_near_lh_zo : Fn := ⟨[⟨64, [.mat, .vec]⟩],
  [.call 527 [⟨1, 0, []⟩, ⟨0, 0, []⟩]]⟩
/-- `glms_persp_fovy_lh_zo`: include/cglm/struct/clipspace/persp_lh_zo.h:276-280 -/
def f_glms_persp_fovy_lh_zo : Fn := ⟨[⟨64, [.mat, .vec]⟩],
  [.call 529 [⟨0, 0, []⟩]]⟩
/-- `glms_persp_aspect_lh_zo`: include/cglm/struct/clipspace/persp_lh_zo.h:289-293 -/
def f_glms_persp_aspect_lh_zo : Fn := ⟨[⟨64, [.mat, .vec]⟩],
  [.call 530 [⟨0, 0, []⟩]]⟩
/-- `glms_persp_sizes_lh_zo`: include/cglm/struct/clipspace/persp_lh_zo.h:304-310 -/
def f_glms_persp_sizes_lh_zo : Fn := ⟨[⟨64, [.mat, .vec]⟩, ⟨16, [.vec]⟩],
  [.call 528 [⟨0, 0, []⟩, ⟨1, 0, []⟩]]⟩
/-- `glms_ortho_lh_no`: include/cglm/struct/clipspace/ortho_lh_no.h:43-51 -/
def f_glms_ortho_lh_no : Fn := ⟨[⟨64, [.mat, .vec]⟩],
  [.call 531 [⟨0, 0, []⟩]]⟩
/-- `glms_ortho_aabb_lh_no`: include/cglm/struct/clipspace/ortho_lh_no.h:63-73 -/
def f_glms_ortho_aabb_lh_no : Fn := ⟨[⟨64, [.mat, .vec]⟩, ⟨24, []⟩],
  [.call 901 [⟨2, 0, []⟩, ⟨0, 0, []⟩], .call 532 [⟨2, 0, []⟩, ⟨1, 0, []⟩]]⟩
/-- `glms_ortho_aabb_p_lh_no`: include/cglm/struct/clipspace/ortho_lh_no.h:86-96 -/
def f_glms_ortho_aabb_p_lh_no : Fn := ⟨[⟨64, [.mat, .vec]⟩, ⟨24, []⟩],
  [.call 901 [⟨2, 0, []⟩, ⟨0, 0, []⟩], .call 533 [⟨2, 0, []⟩, ⟨1, 0, []⟩]]⟩
/-- `glms_ortho_aabb_pz_lh_no`: include/cglm/struct/clipspace/ortho_lh_no.h:109-119 -/
def f_glms_ortho_aabb_pz_lh_no : Fn := ⟨[⟨64, [.mat, .vec]⟩, ⟨24, []⟩],
  [.call 901 [⟨2, 0, []⟩, ⟨0, 0, []⟩], .call 534 [⟨2, 0, []⟩, ⟨1, 0, []⟩]]⟩
/-- `glms_ortho_default_lh_no`: include/cglm/struct/clipspace/ortho_lh_no.h:129-135 -/
def f_glms_ortho_default_lh_no : Fn := ⟨[⟨64, [.mat, .vec]⟩],
  [.call 535 [⟨0, 0, []⟩]]⟩
/-- `glms_ortho_default_s_lh_no`: include/cglm/struct/clipspace/ortho_lh_no.h:146-152 -/
def f_glms_ortho_default_s_lh_no : Fn := ⟨[⟨64, [.mat, .vec]⟩],
  [.call 536 [⟨0, 0, []⟩]]⟩
/-- `glms_frustum_lh_no`: include/cglm/struct/clipspace/persp_lh_no.h:57-65 -/
def f_glms_frustum_lh_no : Fn := ⟨[⟨64, [.mat, .vec]⟩],
  [.call 537 [⟨0, 0, []⟩]]⟩
/-- `glms_perspective_lh_no`: include/cglm/struct/clipspace/persp_lh_no.h:78-84 -/
def f_glms_perspective_lh_no : Fn := ⟨[⟨64, [.mat, .vec]⟩],
  [.call 538 [⟨0, 0, []⟩]]⟩
/-- `glms_persp_move_far_lh_no`: include/cglm/struct/clipspace/persp_lh_no.h:100-107 -/
def f_glms_persp_move_far_lh_no : Fn := ⟨[⟨64, [.mat, .vec]⟩, ⟨64, [.mat, .vec]⟩],
  [.call 541 [⟨1, 0, []⟩]]⟩
/-- `glms_perspective_default_lh_no`: include/cglm/struct/clipspace/persp_lh_no.h:117-123 -/
def f_glms_perspective_default_lh_no : Fn := ⟨[⟨64, [.mat, .vec]⟩],
  [.call 539 [⟨0, 0, []⟩]]⟩
/-- `glms_perspective_resize_lh_no`: include/cglm/struct/clipspace/persp_lh_no.h:138-145 -/
def f_glms_perspective_resize_lh_no : Fn := ⟨[⟨64, [.mat, .vec]⟩, ⟨64, [.mat, .vec]⟩],
  [.call 540 [⟨1, 0, []⟩]]⟩
/-- `glms_persp_decomp_lh_no`: include/cglm/struct/clipspace/persp_lh_no.h:160-167 -/
def f_glms_persp_decomp_lh_no : Fn := ⟨[⟨64, [.mat, .vec]⟩],
  [.call 542 [⟨6, 0, []⟩, ⟨0, 0, []⟩, ⟨1, 0, []⟩, ⟨2, 0, []⟩, ⟨3, 0, []⟩, ⟨4, 0, []⟩, ⟨5, 0, []⟩]]⟩
/-- `glms_persp_decompv_lh_no`: include/cglm/struct/clipspace/persp_lh_no.h:178-182 -/
def f_glms_persp_decompv_lh_no : Fn := ⟨[⟨64, [.mat, .vec]⟩],
  [.call 543 [⟨1, 0, []⟩, ⟨0, 0, []⟩]]⟩
/-- `glms_persp_decomp_x_lh_no`: include/cglm/struct/clipspace/persp_lh_no.h:194-200 -/
def f_glms_persp_decomp_x_lh_no : Fn := ⟨[⟨64, [.mat, .vec]⟩],
  [.call 544 [⟨2, 0, []⟩, ⟨0, 0, []⟩, ⟨1, 0, []⟩]]⟩
/-- `glms_persp_decomp_y_lh_no`: include/cglm/struct/clipspace/persp_lh_no.h:212-218 -/
def f_glms_persp_decomp_y_lh_no : Fn := ⟨[⟨64, [.mat, .vec]⟩],
  [.call 545 [⟨2, 0, []⟩, ⟨0, 0, []⟩, ⟨1, 0, []⟩]]⟩
/-- `glms_persp_decomp_z_lh_no`: include/cglm/struct/clipspace/persp_lh_no.h:230-236 -/
def f_glms_persp_decomp_z_lh_no : Fn := ⟨[⟨64, [.mat, .vec]⟩],
  [.call 546 [⟨2, 0, []⟩, ⟨0, 0, []⟩, ⟨1, 0, []⟩]]⟩
/-- `glms_persp_decomp_far_lh_no`: include/cglm/struct/clipspace/persp_lh_no.h:246-250 -/
def f_glms_persp_decomp_far_lh_no : Fn := ⟨[⟨64, [.mat, .vec]⟩],
  [.call 547 [⟨1, 0, []⟩, ⟨0, 0, []⟩]]⟩
/-- `glms_persp_decomp_near_lh_no`: include/cglm/struct/clipspace/persp_lh_no.h:260-264 -/
def f_glms_persp_decomp_near_lh_no : Fn := ⟨[⟨64, [.mat, .vec]⟩],
  [.call 548 [⟨1, 0, []⟩, ⟨0, 0, []⟩]]⟩
/-- `glms_persp_fovy_lh_no`: include/cglm/struct/clipspace/persp_lh_no.h:276-280 -/
def f_glms_persp_fovy_lh_no : Fn := ⟨[⟨64, [.mat, .vec]⟩],
  [.call 550 [⟨0, 0, []⟩]]⟩
/-- `glms_persp_aspect_lh_no`: include/cglm/struct/clipspace/persp_lh_no.h:289-293 -/
def f_glms_persp_aspect_lh_no : Fn := ⟨[⟨64, [.mat, .vec]⟩],
  [.call 551 [⟨0, 0, []⟩]]⟩
/-- `glms_persp_sizes_lh_no`: include/cglm/struct/clipspace/persp_lh_no.h:304-310 -/
def f_glms_persp_sizes_lh_no : Fn := ⟨[⟨64, [.mat, .vec]⟩, ⟨16, [.vec]⟩],
  [.call 549 [⟨0, 0, []⟩, ⟨1, 0, []⟩]]⟩
/-- `glms_ortho_rh_zo`: include/cglm/struct/clipspace/ortho_rh_zo.h:43-51 -/
def f_glms_ortho_rh_zo : Fn := ⟨[⟨64, [.mat, .vec]⟩],
  [.call 552 [⟨0, 0, []⟩]]⟩
/-- `glms_ortho_aabb_rh_zo`: include/cglm/struct/clipspace/ortho_rh_zo.h:63-73 -/
def f_glms_ortho_aabb_rh_zo : Fn := ⟨[⟨64, [.mat, .vec]⟩, ⟨24, []⟩],
  [.call 901 [⟨2, 0, []⟩, ⟨0, 0, []⟩], .call 553 [⟨2, 0, []⟩, ⟨1, 0, []⟩]]⟩
/-- `glms_ortho_aabb_p_rh_zo`: include/cglm/struct/clipspace/ortho_rh_zo.h:86-96 -/
def f_glms_ortho_aabb_p_rh_zo : Fn := ⟨[⟨64, [.mat, .vec]⟩, ⟨24, []⟩],
  [.call 901 [⟨2, 0, []⟩, ⟨0, 0, []⟩], .call 554 [⟨2, 0, []⟩, ⟨1, 0, []⟩]]⟩
/-- `glms_ortho_aabb_pz_rh_zo`: include/cglm/struct/clipspace/ortho_rh_zo.h:109-119 -/
def f_glms_ortho_aabb_pz_rh_zo : Fn := ⟨[⟨64, [.mat, .vec]⟩, ⟨24, []⟩],
  [.call 901 [⟨2, 0, []⟩, ⟨0, 0, []⟩], .call 555 [⟨2, 0, []⟩, ⟨1, 0, []⟩]]⟩
/-- `glms_ortho_default_rh_zo`: include/cglm/struct/clipspace/ortho_rh_zo.h:129-135 -/
def f_glms_ortho_default_rh_zo : Fn := ⟨[⟨64, [.mat, .vec]⟩],
  [.call 556 [⟨0, 0, []⟩]]⟩
/-- `glms_ortho_default_s_rh_zo`: include/cglm/struct/clipspace/ortho_rh_zo.h:146-152 -/
def f_glms_ortho_default_s_rh_zo : Fn := ⟨[⟨64, [.mat, .vec]⟩],
  [.call 557 [⟨0, 0, []⟩]]⟩
/-- `glms_frustum_rh_zo`: include/cglm/struct/clipspace/persp_rh_zo.h:57-65 -/
def f_glms_frustum_rh_zo : Fn := ⟨[⟨64, [.mat, .vec]⟩],
  [.call 558 [⟨0, 0, []⟩]]⟩
/-- `glms_perspective_rh_zo`: include/cglm/struct/clipspace/persp_rh_zo.h:78-84 -/
def f_glms_perspective_rh_zo : Fn := ⟨[⟨64, [.mat, .vec]⟩],
  [.call 559 [⟨0, 0, []⟩]]⟩
/-- `glms_persp_move_far_rh_zo`: include/cglm/struct/clipspace/persp_rh_zo.h:100-107 -/
def f_glms_persp_move_far_rh_zo : Fn := ⟨[⟨64, [.mat, .vec]⟩, ⟨64, [.mat, .vec]⟩],
  [.call 562 [⟨1, 0, []⟩]]⟩
/-- `glms_perspective_default_rh_zo`: include/cglm/struct/clipspace/persp_rh_zo.h:117-123 -/
def f_glms_perspective_default_rh_zo : Fn := ⟨[⟨64, [.mat, .vec]⟩],
  [.call 560 [⟨0, 0, []⟩]]⟩
/-- `glms_perspective_resize_rh_zo`: include/cglm/struct/clipspace/persp_rh_zo.h:138-145 -/
def f_glms_perspective_resize_rh_zo : Fn := ⟨[⟨64, [.mat, .vec]⟩, ⟨64, [.mat, .vec]⟩],
  [.call 561 [⟨1, 0, []⟩]]⟩
/-- `glms_persp_decomp_rh_zo`: include/cglm/struct/clipspace/persp_rh_zo.h:160-167 -/
def f_glms_persp_decomp_rh_zo : Fn := ⟨[⟨64, [.mat, .vec]⟩],
  [.call 563 [⟨6, 0, []⟩, ⟨0, 0, []⟩, ⟨1, 0, []⟩, ⟨2, 0, []⟩, ⟨3, 0, []⟩, ⟨4, 0, []⟩, ⟨5, 0, []⟩]]⟩
/-- `glms_persp_decompv_rh_zo`: include/cglm/struct/clipspace/persp_rh_zo.h:178-182 -/
def f_glms_persp_decompv_rh_zo : Fn := ⟨[⟨64, [.mat, .vec]⟩],
  [.call 564 [⟨1, 0, []⟩, ⟨0, 0, []⟩]]⟩
/-- `glms_persp_decomp_x_rh_zo`: include/cglm/struct/clipspace/persp_rh_zo.h:194-200 -/
def f_glms_persp_decomp_x_rh_zo : Fn := ⟨[⟨64, [.mat, .vec]⟩],
  [.call 565 [⟨2, 0, []⟩, ⟨0, 0, []⟩, ⟨1, 0, []⟩]]⟩
/-- `glms_persp_decomp_y_rh_zo`: include/cglm/struct/clipspace/persp_rh_zo.h:212-218 -/
def f_glms_persp_decomp_y_rh_zo : Fn := ⟨[⟨64, [.mat, .vec]⟩],
  [.call 566 [⟨2, 0, []⟩, ⟨0, 0, []⟩, ⟨1, 0, []⟩]]⟩
/-- `glms_persp_decomp_z_rh_zo`: include/cglm/struct/clipspace/persp_rh_zo.h:230-236 -/
def f_glms_persp_decomp_z_rh_zo : Fn := ⟨[⟨64, [.mat, .vec]⟩],
  [.call 567 [⟨2, 0, []⟩, ⟨0, 0, []⟩, ⟨1, 0, []⟩]]⟩
/-- `glms_persp_decomp_far_rh_zo`: include/cglm/struct/clipspace/persp_rh_zo.h:246-250 -/
def f_glms_persp_decomp_far_rh_zo : Fn := ⟨[⟨64, [.mat, .vec]⟩],
  [.call 568 [⟨1, 0, []⟩, ⟨0, 0, []⟩]]⟩
/-- `glms_persp_decomp_near_rh_zo`: include/cglm/struct/clipspace/persp_rh_zo.h:260-264 -/
def f_glms_persp_decomp_near_rh_zo : Fn := ⟨[⟨64, [.mat, .vec]⟩],
  [.call 569 [⟨1, 0, []⟩, ⟨0, 0, []⟩]]⟩
/-- `glms_persp_fovy_rh_zo`: include/cglm/struct/clipspace/persp_rh_zo.h:276-280 -/
def f_glms_persp_fovy_rh_zo : Fn := ⟨[⟨64, [.mat, .vec]⟩],
  [.call 571 [⟨0, 0, []⟩]]⟩
/-- `glms_persp_aspect_rh_zo`: include/cglm/struct/clipspace/persp_rh_zo.h:289-293 -/
def f_glms_persp_aspect_rh_zo : Fn := ⟨[⟨64, [.mat, .vec]⟩],
  [.call 572 [⟨0, 0, []⟩]]⟩
/-- `glms_persp_sizes_rh_zo`: include/cglm/struct/clipspace/persp_rh_zo.h:304-310 -/
def f_glms_persp_sizes_rh_zo : Fn := ⟨[⟨64, [.mat, .vec]⟩, ⟨16, [.vec]⟩],
  [.call 570 [⟨0, 0, []⟩, ⟨1, 0, []⟩]]⟩
/-- `glms_ortho_rh_no`: include/cglm/struct/clipspace/ortho_rh_no.h:43-51 -/
def f_glms_ortho_rh_no : Fn := ⟨[⟨64, [.mat, .vec]⟩],
  [.call 573 [⟨0, 0, []⟩]]⟩
/-- `glms_ortho_aabb_rh_no`: include/cglm/struct/clipspace/ortho_rh_no.h:63-73 -/
def f_glms_ortho_aabb_rh_no : Fn := ⟨[⟨64, [.mat, .vec]⟩, ⟨24, []⟩],
  [.call 901 [⟨2, 0, []⟩, ⟨0, 0, []⟩], .call 574 [⟨2, 0, []⟩, ⟨1, 0, []⟩]]⟩
/-- `glms_ortho_aabb_p_rh_no`: include/cglm/struct/clipspace/ortho_rh_no.h:86-96 -/
def f_glms_ortho_aabb_p_rh_no : Fn := ⟨[⟨64, [.mat, .vec]⟩, ⟨24, []⟩],
  [.call 901 [⟨2, 0, []⟩, ⟨0, 0, []⟩], .call 575 [⟨2, 0, []⟩, ⟨1, 0, []⟩]]⟩
/-- `glms_ortho_aabb_pz_rh_no`: include/cglm/struct/clipspace/ortho_rh_no.h:109-119 -/
def f_glms_ortho_aabb_pz_rh_no : Fn := ⟨[⟨64, [.mat, .vec]⟩, ⟨24, []⟩],
  [.call 901 [⟨2, 0, []⟩, ⟨0, 0, []⟩], .call 576 [⟨2, 0, []⟩, ⟨1, 0, []⟩]]⟩
/-- `glms_ortho_default_rh_no`: include/cglm/struct/clipspace/ortho_rh_no.h:129-135 -/
def f_glms_ortho_default_rh_no : Fn := ⟨[⟨64, [.mat, .vec]⟩],
  [.call 577 [⟨0, 0, []⟩]]⟩
/-- `glms_ortho_default_s_rh_no`: include/cglm/struct/clipspace/ortho_rh_no.h:146-152 -/
def f_glms_ortho_default_s_rh_no : Fn := ⟨[⟨64, [.mat, .vec]⟩],
  [.call 578 [⟨0, 0, []⟩]]⟩
/-- `glms_frustum_rh_no`: include/cglm/struct/clipspace/persp_rh_no.h:57-65 -/
def f_glms_frustum_rh_no : Fn := ⟨[⟨64, [.mat, .vec]⟩],
  [.call 579 [⟨0, 0, []⟩]]⟩
/-- `glms_perspective_rh_no`: include/cglm/struct/clipspace/persp_rh_no.h:78-84 -/
def f_glms_perspective_rh_no : Fn := ⟨[⟨64, [.mat, .vec]⟩],
  [.call 580 [⟨0, 0, []⟩]]⟩
/-- `glms_persp_move_far_rh_no`: include/cglm/struct/clipspace/persp_rh_no.h:100-107 -/
def f_glms_persp_move_far_rh_no : Fn := ⟨[⟨64, [.mat, .vec]⟩, ⟨64, [.mat, .vec]⟩],
  [.call 583 [⟨1, 0, []⟩]]⟩
/-- `glms_perspective_default_rh_no`: include/cglm/struct/clipspace/persp_rh_no.h:117-123 -/
def f_glms_perspective_default_rh_no : Fn := ⟨[⟨64, [.mat, .vec]⟩],
  [.call 581 [⟨0, 0, []⟩]]⟩
/-- `glms_perspective_resize_rh_no`: include/cglm/struct/clipspace/persp_rh_no.h:138-145 -/
def f_glms_perspective_resize_rh_no : Fn := ⟨[⟨64, [.mat, .vec]⟩, ⟨64, [.mat, .vec]⟩],
  [.call 582 [⟨1, 0, []⟩]]⟩
/-- `glms_persp_decomp_rh_no`: include/cglm/struct/clipspace/persp_rh_no.h:160-167 -/
def f_glms_persp_decomp_rh_no : Fn := ⟨[⟨64, [.mat, .vec]⟩],
  [.call 584 [⟨6, 0, []⟩, ⟨0, 0, []⟩, ⟨1, 0, []⟩, ⟨2, 0, []⟩, ⟨3, 0, []⟩, ⟨4, 0, []⟩, ⟨5, 0, []⟩]]⟩
/-- `glms_persp_decompv_rh_no`: include/cglm/struct/clipspace/persp_rh_no.h:178-182 -/
def f_glms_persp_decompv_rh_no : Fn := ⟨[⟨64, [.mat, .vec]⟩],
  [.call 585 [⟨1, 0, []⟩, ⟨0, 0, []⟩]]⟩
/-- `glms_persp_decomp_x_rh_no`: include/cglm/struct/clipspace/persp_rh_no.h:194-200 -/
def f_glms_persp_decomp_x_rh_no : Fn := ⟨[⟨64, [.mat, .vec]⟩],
  [.call 586 [⟨2, 0, []⟩, ⟨0, 0, []⟩, ⟨1, 0, []⟩]]⟩
/-- `glms_persp_decomp_y_rh_no`: include/cglm/struct/clipspace/persp_rh_no.h:212-218 -/
def f_glms_persp_decomp_y_rh_no : Fn := ⟨[⟨64, [.mat, .vec]⟩],
  [.call 587 [⟨2, 0, []⟩, ⟨0, 0, []⟩, ⟨1, 0, []⟩]]⟩
/-- `glms_persp_decomp_z_rh_no`: include/cglm/struct/clipspace/persp_rh_no.h:230-236 -/
def f_glms_persp_decomp_z_rh_no : Fn := ⟨[⟨64, [.mat, .vec]⟩],
  [.call 588 [⟨2, 0, []⟩, ⟨0, 0, []⟩, ⟨1, 0, []⟩]]⟩
/-- `glms_persp_decomp_far_rh_no`: include/cglm/struct/clipspace/persp_rh_no.h:246-250 -/
def f_glms_persp_decomp_far_rh_no : Fn := ⟨[⟨64, [.mat, .vec]⟩],
  [.call 589 [⟨1, 0, []⟩, ⟨0, 0, []⟩]]⟩
/-- `glms_persp_decomp_near_rh_no`: include/cglm/struct/clipspace/persp_rh_no.h:260-264 -/
def f_glms_persp_decomp_near_rh_no : Fn := ⟨[⟨64, [.mat, .vec]⟩],
  [.call 590 [⟨1, 0, []⟩, ⟨0, 0, []⟩]]⟩
/-- `glms_persp_fovy_rh_no`: include/cglm/struct/clipspace/persp_rh_no.h:276-280 -/
def f_glms_persp_fovy_rh_no : Fn := ⟨[⟨64, [.mat, .vec]⟩],
  [.call 592 [⟨0, 0, []⟩]]⟩
/-- `glms_persp_aspect_rh_no`: include/cglm/struct/clipspace/persp_rh_no.h:289-293 -/
def f_glms_persp_aspect_rh_no : Fn := ⟨[⟨64, [.mat, .vec]⟩],
  [.call 593 [⟨0, 0, []⟩]]⟩
/-- `glms_persp_sizes_rh_no`: include/cglm/struct/clipspace/persp_rh_no.h:304-310 -/
def f_glms_persp_sizes_rh_no : Fn := ⟨[⟨64, [.mat, .vec]⟩, ⟨16, [.vec]⟩],
  [.call 591 [⟨0, 0, []⟩, ⟨1, 0, []⟩]]⟩
/-- `glms_lookat_lh_zo`: include/cglm/struct/clipspace/view_lh_zo.h:37-43 -/
def f_glms_lookat_lh_zo : Fn := ⟨[⟨12, []⟩, ⟨12, []⟩, ⟨12, []⟩, ⟨64, [.mat, .vec]⟩],
  [.call 597 [⟨0, 0, []⟩, ⟨1, 0, []⟩, ⟨2, 0, []⟩, ⟨3, 0, []⟩]]⟩
/-- `glms_look_lh_zo`: include/cglm/struct/clipspace/view_lh_zo.h:61-67 -/
def f_glms_look_lh_zo : Fn := ⟨[⟨12, []⟩, ⟨12, []⟩, ⟨12, []⟩, ⟨64, [.mat, .vec]⟩],
  [.call 598 [⟨0, 0, []⟩, ⟨1, 0, []⟩, ⟨2, 0, []⟩, ⟨3, 0, []⟩]]⟩
/-- `glms_look_anyup_lh_zo`: include/cglm/struct/clipspace/view_lh_zo.h:81-87 -/
def f_glms_look_anyup_lh_zo : Fn := ⟨[⟨12, []⟩, ⟨12, []⟩, ⟨64, [.mat, .vec]⟩],
  [.call 599 [⟨0, 0, []⟩, ⟨1, 0, []⟩, ⟨2, 0, []⟩]]⟩
/-- `glms_lookat_lh_no`: include/cglm/struct/clipspace/view_lh_no.h:37-43 -/
def f_glms_lookat_lh_no : Fn := ⟨[⟨12, []⟩, ⟨12, []⟩, ⟨12, []⟩, ⟨64, [.mat, .vec]⟩],
  [.call 600 [⟨0, 0, []⟩, ⟨1, 0, []⟩, ⟨2, 0, []⟩, ⟨3, 0, []⟩]]⟩
/-- `glms_look_lh_no`: include/cglm/struct/clipspace/view_lh_no.h:61-67 -/
def f_glms_look_lh_no : Fn := ⟨[⟨12, []⟩, ⟨12, []⟩, ⟨12, []⟩, ⟨64, [.mat, .vec]⟩],
  [.call 601 [⟨0, 0, []⟩, ⟨1, 0, []⟩, ⟨2, 0, []⟩, ⟨3, 0, []⟩]]⟩
/-- `glms_look_anyup_lh_no`: include/cglm/struct/clipspace/view_lh_no.h:81-87 -/
def f_glms_look_anyup_lh_no : Fn := ⟨[⟨12, []⟩, ⟨12, []⟩, ⟨64, [.mat, .vec]⟩],
  [.call 602 [⟨0, 0, []⟩, ⟨1, 0, []⟩, ⟨2, 0, []⟩]]⟩
/-- `glms_lookat_rh_zo`: include/cglm/struct/clipspace/view_rh_zo.h:37-43 -/
def f_glms_lookat_rh_zo : Fn := ⟨[⟨12, []⟩, ⟨12, []⟩, ⟨12, []⟩, ⟨64, [.mat, .vec]⟩],
  [.call 606 [⟨0, 0, []⟩, ⟨1, 0, []⟩, ⟨2, 0, []⟩, ⟨3, 0, []⟩]]⟩
/-- `glms_look_rh_zo`: include/cglm/struct/clipspace/view_rh_zo.h:61-67 -/
def f_glms_look_rh_zo : Fn := ⟨[⟨12, []⟩, ⟨12, []⟩, ⟨12, []⟩, ⟨64, [.mat, .vec]⟩],
  [.call 607 [⟨0, 0, []⟩, ⟨1, 0, []⟩, ⟨2, 0, []⟩, ⟨3, 0, []⟩]]⟩
/-- `glms_look_anyup_rh_zo`: include/cglm/struct/clipspace/view_rh_zo.h:81-87 -/
def f_glms_look_anyup_rh_zo : Fn := ⟨[⟨12, []⟩, ⟨12, []⟩, ⟨64, [.mat, .vec]⟩],
  [.call 608 [⟨0, 0, []⟩, ⟨1, 0, []⟩, ⟨2, 0, []⟩]]⟩
/-- `glms_lookat_rh_no`: include/cglm/struct/clipspace/view_rh_no.h:37-43 -/
def f_glms_lookat_rh_no : Fn := ⟨[⟨12, []⟩, ⟨12, []⟩, ⟨12, []⟩, ⟨64, [.mat, .vec]⟩],
  [.call 609 [⟨0, 0, []⟩, ⟨1, 0, []⟩, ⟨2, 0, []⟩, ⟨3, 0, []⟩]]⟩
/-- `glms_look_rh_no`: include/cglm/struct/clipspace/view_rh_no.h:61-67 -/
def f_glms_look_rh_no : Fn := ⟨[⟨12, []⟩, ⟨12, []⟩, ⟨12, []⟩, ⟨64, [.mat, .vec]⟩],
  [.call 610 [⟨0, 0, []⟩, ⟨1, 0, []⟩, ⟨2, 0, []⟩, ⟨3, 0, []⟩]]⟩
/-- `glms_look_anyup_rh_no`: include/cglm/struct/clipspace/view_rh_no.h:81-87 -/
def f_glms_look_anyup_rh_no : Fn := ⟨[⟨12, []⟩, ⟨12, []⟩, ⟨64, [.mat, .vec]⟩],
  [.call 611 [⟨0, 0, []⟩, ⟨1, 0, []⟩, ⟨2, 0, []⟩]]⟩
/-- `glms_frustum`: include/cglm/struct/cam.h:98-112 -/
def f_glms_frustum : Fn := ⟨[],
  [.call 1375 []]⟩
/-- `glms_ortho`: include/cglm/struct/cam.h:125-139 -/
def f_glms_ortho : Fn := ⟨[],
  [.call 1369 []]⟩
/-- `glms_ortho_aabb`: include/cglm/struct/cam.h:149-161 -/
def f_glms_ortho_aabb : Fn := ⟨[],
  [.call 1370 [⟨0, 0, []⟩]]⟩
/-- `glms_ortho_aabb_p`: include/cglm/struct/cam.h:172-184 -/
def f_glms_ortho_aabb_p : Fn := ⟨[],
  [.call 1371 [⟨0, 0, []⟩]]⟩
/-- `glms_ortho_aabb_pz`: include/cglm/struct/cam.h:195-207 -/
def f_glms_ortho_aabb_pz : Fn := ⟨[],
  [.call 1372 [⟨0, 0, []⟩]]⟩
/-- `glms_ortho_default`: include/cglm/struct/cam.h:215-227 -/
def f_glms_ortho_default : Fn := ⟨[],
  [.call 1373 []]⟩
/-- `glms_ortho_default_s`: include/cglm/struct/cam.h:236-248 -/
def f_glms_ortho_default_s : Fn := ⟨[],
  [.call 1374 []]⟩
/-- `glms_perspective`: include/cglm/struct/cam.h:259-271 -/
def f_glms_perspective : Fn := ⟨[],
  [.call 1376 []]⟩
/-- `glms_persp_move_far`: include/cglm/struct/cam.h:285-297 -/
def f_glms_persp_move_far : Fn := ⟨[⟨64, [.mat, .vec]⟩],
  [.call 1377 []]⟩
/-- `glms_perspective_default`: include/cglm/struct/cam.h:306-318 -/
def f_glms_perspective_default : Fn := ⟨[],
  [.call 1378 []]⟩
/-- `glms_perspective_resize`: include/cglm/struct/cam.h:332-344 -/
def f_glms_perspective_resize : Fn := ⟨[⟨64, [.mat, .vec]⟩],
  [.call 1379 []]⟩
/-- `glms_lookat`: include/cglm/struct/cam.h:357-369 -/
def f_glms_lookat : Fn := ⟨[⟨12, []⟩, ⟨12, []⟩, ⟨12, []⟩],
  [.call 1399 []]⟩
/-- `glms_look`: include/cglm/struct/cam.h:385-397 -/
def f_glms_look : Fn := ⟨[⟨12, []⟩, ⟨12, []⟩, ⟨12, []⟩],
  [.call 1400 []]⟩
/-- `glms_look_anyup`: include/cglm/struct/cam.h:409-421 -/
def f_glms_look_anyup : Fn := ⟨[⟨12, []⟩, ⟨12, []⟩],
  [.call 1401 []]⟩
/-- `glms_persp_decomp`: include/cglm/struct/cam.h:434-449 -/
def f_glms_persp_decomp : Fn := ⟨[⟨64, [.mat, .vec]⟩],
  [.call 1380 [⟨0, 0, []⟩, ⟨1, 0, []⟩, ⟨2, 0, []⟩, ⟨3, 0, []⟩, ⟨4, 0, []⟩, ⟨5, 0, []⟩]]⟩
/-- `glms_persp_decompv`: include/cglm/struct/cam.h:458-470 -/
def f_glms_persp_decompv : Fn := ⟨[⟨64, [.mat, .vec]⟩],
  [.call 1381 [⟨0, 0, []⟩]]⟩
/-- `glms_persp_decomp_x`: include/cglm/struct/cam.h:480-494 -/
def f_glms_persp_decomp_x : Fn := ⟨[⟨64, [.mat, .vec]⟩],
  [.call 1382 [⟨0, 0, []⟩, ⟨1, 0, []⟩]]⟩
/-- `glms_persp_decomp_y`: include/cglm/struct/cam.h:504-518 -/
def f_glms_persp_decomp_y : Fn := ⟨[⟨64, [.mat, .vec]⟩],
  [.call 1383 [⟨0, 0, []⟩, ⟨1, 0, []⟩]]⟩
/-- `glms_persp_decomp_z`: include/cglm/struct/cam.h:528-542 -/
def f_glms_persp_decomp_z : Fn := ⟨[⟨64, [.mat, .vec]⟩],
  [.call 1384 [⟨0, 0, []⟩, ⟨1, 0, []⟩]]⟩
/-- `glms_persp_decomp_far`: include/cglm/struct/cam.h:550-562 -/
def f_glms_persp_decomp_far : Fn := ⟨[⟨64, [.mat, .vec]⟩],
  [.call 1385 [⟨0, 0, []⟩]]⟩
/-- `glms_persp_decomp_near`: include/cglm/struct/cam.h:570-582 -/
def f_glms_persp_decomp_near : Fn := ⟨[⟨64, [.mat, .vec]⟩],
  [.call 1386 [⟨0, 0, []⟩]]⟩
/-- `glms_persp_fovy`: include/cglm/struct/cam.h:592-604 -/
def f_glms_persp_fovy : Fn := ⟨[⟨64, [.mat, .vec]⟩],
  [.call 1387 []]⟩
/-- `glms_persp_aspect`: include/cglm/struct/cam.h:611-623 -/
def f_glms_persp_aspect : Fn := ⟨[⟨64, [.mat, .vec]⟩],
  [.call 1388 []]⟩
/-- `glms_persp_sizes`: include/cglm/struct/cam.h:632-644 -/
def f_glms_persp_sizes : Fn := ⟨[⟨64, [.mat, .vec]⟩],
  [.call 1389 []]⟩
/-- `glms_quat_identity`: include/cglm/struct/quat.h:80-86 -/
def f_glms_quat_identity : Fn := ⟨[⟨16, [.vec]⟩],
  [.call 639 [⟨0, 0, []⟩]]⟩
/-- `glms_quat_identity_array`: include/cglm/struct/quat.h:96-105 -/
def f_glms_quat_identity_array : Fn := ⟨[⟨16, [.b16, .vec]⟩],
  [.call 136 [⟨1, 0, []⟩, ⟨0, 0, []⟩]]⟩
/-- `glms_quat_init`: include/cglm/struct/quat.h:116-122 -/
def f_glms_quat_init : Fn := ⟨[⟨16, [.vec]⟩],
  [.call 641 [⟨0, 0, []⟩]]⟩
/-- `glms_quatv`: include/cglm/struct/quat.h:131-137 -/
def f_glms_quatv : Fn := ⟨[⟨12, []⟩, ⟨16, [.vec]⟩],
  [.call 642 [⟨1, 0, []⟩, ⟨0, 0, []⟩]]⟩
/-- `glms_quat`: include/cglm/struct/quat.h:148-154 -/
def f_glms_quat : Fn := ⟨[⟨16, [.vec]⟩],
  [.call 643 [⟨0, 0, []⟩]]⟩
/-- `glms_quat_from_vecs`: include/cglm/struct/quat.h:163-169 -/
def f_glms_quat_from_vecs : Fn := ⟨[⟨12, []⟩, ⟨12, []⟩, ⟨16, [.vec]⟩],
  [.call 645 [⟨0, 0, []⟩, ⟨1, 0, []⟩, ⟨2, 0, []⟩]]⟩
/-- `glms_quat_norm`: include/cglm/struct/quat.h:176-180 -/
def f_glms_quat_norm : Fn := ⟨[⟨16, [.vec]⟩],
  [.call 646 [⟨0, 0, []⟩]]⟩
/-- `glms_quat_normalize`: include/cglm/struct/quat.h:188-194 -/
def f_glms_quat_normalize : Fn := ⟨[⟨16, [.vec]⟩, ⟨16, [.vec]⟩],
  [.call 647 [⟨0, 0, []⟩, ⟨1, 0, []⟩]]⟩
/-- `glms_quat_dot`: include/cglm/struct/quat.h:203-207 -/
def f_glms_quat_dot : Fn := ⟨[⟨16, [.vec]⟩, ⟨16, [.vec]⟩],
  [.call 649 [⟨0, 0, []⟩, ⟨1, 0, []⟩]]⟩
/-- `glms_quat_conjugate`: include/cglm/struct/quat.h:215-221 -/
def f_glms_quat_conjugate : Fn := ⟨[⟨16, [.vec]⟩, ⟨16, [.vec]⟩],
  [.call 650 [⟨0, 0, []⟩, ⟨1, 0, []⟩]]⟩
/-- `glms_quat_inv`: include/cglm/struct/quat.h:229-235 -/
def f_glms_quat_inv : Fn := ⟨[⟨16, [.vec]⟩, ⟨16, [.vec]⟩],
  [.call 651 [⟨0, 0, []⟩, ⟨1, 0, []⟩]]⟩
/-- `glms_quat_add`: include/cglm/struct/quat.h:244-250 -/
def f_glms_quat_add : Fn := ⟨[⟨16, [.vec]⟩, ⟨16, [.vec]⟩, ⟨16, [.vec]⟩],
  [.call 652 [⟨0, 0, []⟩, ⟨1, 0, []⟩, ⟨2, 0, []⟩]]⟩
/-- `glms_quat_sub`: include/cglm/struct/quat.h:259-265 -/
def f_glms_quat_sub : Fn := ⟨[⟨16, [.vec]⟩, ⟨16, [.vec]⟩, ⟨16, [.vec]⟩],
  [.call 653 [⟨0, 0, []⟩, ⟨1, 0, []⟩, ⟨2, 0, []⟩]]⟩
/-- `glms_quat_imagn`: include/cglm/struct/quat.h:272-278 -/
def f_glms_quat_imagn : Fn := ⟨[⟨16, [.vec]⟩, ⟨12, []⟩],
  [.call 250 [⟨0, 0, []⟩, ⟨1, 0, []⟩]]⟩
/-- `glms_quat_imaglen`: include/cglm/struct/quat.h:285-289 -/
def f_glms_quat_imaglen : Fn := ⟨[⟨16, [.vec]⟩],
  [.call 657 [⟨0, 0, []⟩]]⟩
/-- `glms_quat_angle`: include/cglm/struct/quat.h:296-300 -/
def f_glms_quat_angle : Fn := ⟨[⟨16, [.vec]⟩],
  [.call 658 [⟨0, 0, []⟩]]⟩
/-- `glms_quat_axis`: include/cglm/struct/quat.h:308-314 -/
def f_glms_quat_axis : Fn := ⟨[⟨16, [.vec]⟩, ⟨12, []⟩],
  [.call 659 [⟨0, 0, []⟩, ⟨1, 0, []⟩]]⟩
/-- `glms_quat_mul`: include/cglm/struct/quat.h:328-334 -/
def f_glms_quat_mul : Fn := ⟨[⟨16, [.vec]⟩, ⟨16, [.vec]⟩, ⟨16, [.vec]⟩],
  [.call 660 [⟨0, 0, []⟩, ⟨1, 0, []⟩, ⟨2, 0, []⟩]]⟩
/-- `glms_quat_mat4`: include/cglm/struct/quat.h:342-348 -/
def f_glms_quat_mat4 : Fn := ⟨[⟨16, [.vec]⟩, ⟨64, [.mat, .vec]⟩],
  [.call 661 [⟨0, 0, []⟩, ⟨1, 0, []⟩]]⟩
/-- `glms_quat_mat4t`: include/cglm/struct/quat.h:356-362 -/
def f_glms_quat_mat4t : Fn := ⟨[⟨16, [.vec]⟩, ⟨64, [.mat, .vec]⟩],
  [.call 662 [⟨0, 0, []⟩, ⟨1, 0, []⟩]]⟩
/-- `glms_quat_mat3`: include/cglm/struct/quat.h:370-376 -/
def f_glms_quat_mat3 : Fn := ⟨[⟨16, [.vec]⟩, ⟨36, []⟩],
  [.call 663 [⟨0, 0, []⟩, ⟨1, 0, []⟩]]⟩
/-- `glms_quat_mat3t`: include/cglm/struct/quat.h:384-390 -/
def f_glms_quat_mat3t : Fn := ⟨[⟨16, [.vec]⟩, ⟨36, []⟩],
  [.call 664 [⟨0, 0, []⟩, ⟨1, 0, []⟩]]⟩
/-- `glms_quat_lerp`: include/cglm/struct/quat.h:401-407 -/
def f_glms_quat_lerp : Fn := ⟨[⟨16, [.vec]⟩, ⟨16, [.vec]⟩, ⟨16, [.vec]⟩],
  [.call 665 [⟨0, 0, []⟩, ⟨1, 0, []⟩, ⟨2, 0, []⟩]]⟩
/-- `glms_quat_lerpc`: include/cglm/struct/quat.h:418-424 -/
def f_glms_quat_lerpc : Fn := ⟨[⟨16, [.vec]⟩, ⟨16, [.vec]⟩, ⟨16, [.vec]⟩],
  [.call 666 [⟨0, 0, []⟩, ⟨1, 0, []⟩, ⟨2, 0, []⟩]]⟩
/-- `glms_quat_nlerp`: include/cglm/struct/quat.h:436-442 -/
def f_glms_quat_nlerp : Fn := ⟨[⟨16, [.vec]⟩, ⟨16, [.vec]⟩, ⟨16, [.vec]⟩],
  [.call 667 [⟨0, 0, []⟩, ⟨1, 0, []⟩, ⟨2, 0, []⟩]]⟩
/-- `glms_quat_slerp`: include/cglm/struct/quat.h:453-459 -/
def f_glms_quat_slerp : Fn := ⟨[⟨16, [.vec]⟩, ⟨16, [.vec]⟩, ⟨16, [.vec]⟩],
  [.call 668 [⟨0, 0, []⟩, ⟨1, 0, []⟩, ⟨2, 0, []⟩]]⟩
/-- `glms_quat_slerp_longest`: include/cglm/struct/quat.h:470-476 -/
def f_glms_quat_slerp_longest : Fn := ⟨[⟨16, [.vec]⟩, ⟨16, [.vec]⟩, ⟨16, [.vec]⟩],
  [.call 669 [⟨0, 0, []⟩, ⟨1, 0, []⟩, ⟨2, 0, []⟩]]⟩
/-- `glms_quat_look`: include/cglm/struct/quat.h:485-491 -/
def f_glms_quat_look : Fn := ⟨[⟨12, []⟩, ⟨16, [.vec]⟩, ⟨64, [.mat, .vec]⟩],
  [.call 670 [⟨0, 0, []⟩, ⟨1, 0, []⟩, ⟨2, 0, []⟩]]⟩
/-- `glms_quat_for`: include/cglm/struct/quat.h:500-506 -/
def f_glms_quat_for : Fn := ⟨[⟨12, []⟩, ⟨12, []⟩, ⟨16, [.vec]⟩],
  [.call 671 [⟨0, 0, []⟩, ⟨1, 0, []⟩, ⟨2, 0, []⟩]]⟩
/-- `glms_quat_forp`: include/cglm/struct/quat.h:517-523 -/
def f_glms_quat_forp : Fn := ⟨[⟨12, []⟩, ⟨12, []⟩, ⟨12, []⟩, ⟨16, [.vec]⟩],
  [.call 672 [⟨0, 0, []⟩, ⟨1, 0, []⟩, ⟨2, 0, []⟩, ⟨3, 0, []⟩]]⟩
/-- `glms_quat_rotatev`: include/cglm/struct/quat.h:532-538 -/
def f_glms_quat_rotatev : Fn := ⟨[⟨16, [.vec]⟩, ⟨12, []⟩, ⟨12, []⟩],
  [.call 673 [⟨0, 0, []⟩, ⟨1, 0, []⟩, ⟨2, 0, []⟩]]⟩
/-- `glms_quat_rotate`: include/cglm/struct/quat.h:547-552 -/
def f_glms_quat_rotate : Fn := ⟨[⟨64, [.mat, .vec]⟩, ⟨16, [.vec]⟩],
  [.call 674 [⟨0, 0, []⟩, ⟨1, 0, []⟩, ⟨0, 0, []⟩]]⟩
/-- `glms_quat_rotate_at`: include/cglm/struct/quat.h:561-566 -/
def f_glms_quat_rotate_at : Fn := ⟨[⟨64, [.mat, .vec]⟩, ⟨16, [.vec]⟩, ⟨12, []⟩],
  [.call 675 [⟨0, 0, []⟩, ⟨1, 0, []⟩, ⟨2, 0, []⟩]]⟩
/-- `glms_quat_rotate_atm`: include/cglm/struct/quat.h:579-585 -/
def f_glms_quat_rotate_atm : Fn := ⟨[⟨16, [.vec]⟩, ⟨12, []⟩, ⟨64, [.mat, .vec]⟩],
  [.call 676 [⟨2, 0, []⟩, ⟨0, 0, []⟩, ⟨1, 0, []⟩]]⟩
/-- `glms_quat_make`: include/cglm/struct/quat.h:593-599 -/
def f_glms_quat_make : Fn := ⟨[⟨16, [.vec]⟩],
  [.call 677 [⟨0, 0, []⟩, ⟨1, 0, []⟩]]⟩
/-- `glms_euler_angles`: include/cglm/struct/euler.h:50-56 -/
def f_glms_euler_angles : Fn := ⟨[⟨64, [.mat, .vec]⟩, ⟨12, []⟩],
  [.call 685 [⟨0, 0, []⟩, ⟨1, 0, []⟩]]⟩
/-- `glms_euler_xyz`: include/cglm/struct/euler.h:64-70 -/
def f_glms_euler_xyz : Fn := ⟨[⟨12, []⟩, ⟨64, [.mat, .vec]⟩],
  [.call 686 [⟨0, 0, []⟩, ⟨1, 0, []⟩]]⟩
/-- `glms_euler_xzy`: include/cglm/struct/euler.h:78-84 -/
def f_glms_euler_xzy : Fn := ⟨[⟨12, []⟩, ⟨64, [.mat, .vec]⟩],
  [.call 688 [⟨0, 0, []⟩, ⟨1, 0, []⟩]]⟩
/-- `glms_euler_yxz`: include/cglm/struct/euler.h:93-99 -/
def f_glms_euler_yxz : Fn := ⟨[⟨12, []⟩, ⟨64, [.mat, .vec]⟩],
  [.call 689 [⟨0, 0, []⟩, ⟨1, 0, []⟩]]⟩
/-- `glms_euler_yzx`: include/cglm/struct/euler.h:107-113 -/
def f_glms_euler_yzx : Fn := ⟨[⟨12, []⟩, ⟨64, [.mat, .vec]⟩],
  [.call 690 [⟨0, 0, []⟩, ⟨1, 0, []⟩]]⟩
/-- `glms_euler_zxy`: include/cglm/struct/euler.h:121-127 -/
def f_glms_euler_zxy : Fn := ⟨[⟨12, []⟩, ⟨64, [.mat, .vec]⟩],
  [.call 691 [⟨0, 0, []⟩, ⟨1, 0, []⟩]]⟩
/-- `glms_euler_zyx`: include/cglm/struct/euler.h:135-141 -/
def f_glms_euler_zyx : Fn := ⟨[⟨12, []⟩, ⟨64, [.mat, .vec]⟩],
  [.call 692 [⟨0, 0, []⟩, ⟨1, 0, []⟩]]⟩
/-- `glms_euler_by_order`: include/cglm/struct/euler.h:150-156 -/
def f_glms_euler_by_order : Fn := ⟨[⟨12, []⟩, ⟨64, [.mat, .vec]⟩],
  [.call 693 [⟨0, 0, []⟩, ⟨1, 0, []⟩]]⟩
/-- `glms_euler_xyz_quat`: include/cglm/struct/euler.h:165-171 -/
def f_glms_euler_xyz_quat : Fn := ⟨[⟨12, []⟩, ⟨16, [.vec]⟩],
  [.call 694 [⟨0, 0, []⟩, ⟨1, 0, []⟩]]⟩
/-- `glms_euler_xzy_quat`: include/cglm/struct/euler.h:180-186 -/
def f_glms_euler_xzy_quat : Fn := ⟨[⟨12, []⟩, ⟨16, [.vec]⟩],
  [.call 695 [⟨0, 0, []⟩, ⟨1, 0, []⟩]]⟩
/-- `glms_euler_yxz_quat`: include/cglm/struct/euler.h:195-201 -/
def f_glms_euler_yxz_quat : Fn := ⟨[⟨12, []⟩, ⟨16, [.vec]⟩],
  [.call 696 [⟨0, 0, []⟩, ⟨1, 0, []⟩]]⟩
/-- `glms_euler_yzx_quat`: include/cglm/struct/euler.h:210-216 -/
def f_glms_euler_yzx_quat : Fn := ⟨[⟨12, []⟩, ⟨16, [.vec]⟩],
  [.call 697 [⟨0, 0, []⟩, ⟨1, 0, []⟩]]⟩
/-- `glms_euler_zxy_quat`: include/cglm/struct/euler.h:225-231 -/
def f_glms_euler_zxy_quat : Fn := ⟨[⟨12, []⟩, ⟨16, [.vec]⟩],
  [.call 698 [⟨0, 0, []⟩, ⟨1, 0, []⟩]]⟩
/-- `glms_euler_zyx_quat`: include/cglm/struct/euler.h:240-246 -/
def f_glms_euler_zyx_quat : Fn := ⟨[⟨12, []⟩, ⟨16, [.vec]⟩],
  [.call 699 [⟨0, 0, []⟩, ⟨1, 0, []⟩]]⟩
/-- `glms_unprojecti_zo`: include/cglm/struct/clipspace/project_zo.h:51-57 -/
def f_glms_unprojecti_zo : Fn := ⟨[⟨12, []⟩, ⟨64, [.mat, .vec]⟩, ⟨16, [.vec]⟩, ⟨12, []⟩],
  [.call 734 [⟨0, 0, []⟩, ⟨1, 0, []⟩, ⟨2, 0, []⟩, ⟨3, 0, []⟩]]⟩
/-- `glms_project_zo`: include/cglm/struct/clipspace/project_zo.h:72-78 -/
def f_glms_project_zo : Fn := ⟨[⟨12, []⟩, ⟨64, [.mat, .vec]⟩, ⟨16, [.vec]⟩, ⟨12, []⟩],
  [.call 735 [⟨0, 0, []⟩, ⟨1, 0, []⟩, ⟨2, 0, []⟩, ⟨3, 0, []⟩]]⟩
/-- `glms_project_z_zo`: include/cglm/struct/clipspace/project_zo.h:92-96 -/
def f_glms_project_z_zo : Fn := ⟨[⟨12, []⟩, ⟨64, [.mat, .vec]⟩],
  [.call 736 [⟨0, 0, []⟩, ⟨1, 0, []⟩]]⟩
/-- `glms_unprojecti_no`: include/cglm/struct/clipspace/project_no.h:51-57 -/
def f_glms_unprojecti_no : Fn := ⟨[⟨12, []⟩, ⟨64, [.mat, .vec]⟩, ⟨16, [.vec]⟩, ⟨12, []⟩],
  [.call 737 [⟨0, 0, []⟩, ⟨1, 0, []⟩, ⟨2, 0, []⟩, ⟨3, 0, []⟩]]⟩
/-- `glms_project_no`: include/cglm/struct/clipspace/project_no.h:72-78 -/
def f_glms_project_no : Fn := ⟨[⟨12, []⟩, ⟨64, [.mat, .vec]⟩, ⟨16, [.vec]⟩, ⟨12, []⟩],
  [.call 738 [⟨0, 0, []⟩, ⟨1, 0, []⟩, ⟨2, 0, []⟩, ⟨3, 0, []⟩]]⟩
/-- `glms_project_z_no`: include/cglm/struct/clipspace/project_no.h:92-96 -/
def f_glms_project_z_no : Fn := ⟨[⟨12, []⟩, ⟨64, [.mat, .vec]⟩],
  [.call 739 [⟨0, 0, []⟩, ⟨1, 0, []⟩]]⟩
/-- `glms_unprojecti`: include/cglm/struct/project.h:55-61 -/
def f_glms_unprojecti : Fn := ⟨[⟨12, []⟩, ⟨64, [.mat, .vec]⟩, ⟨16, [.vec]⟩, ⟨12, []⟩],
  [.call 740 [⟨0, 0, []⟩, ⟨1, 0, []⟩, ⟨2, 0, []⟩, ⟨3, 0, []⟩]]⟩
/-- `glms_unproject`: include/cglm/struct/project.h:90-96 -/
def f_glms_unproject : Fn := ⟨[⟨12, []⟩, ⟨64, [.mat, .vec]⟩, ⟨16, [.vec]⟩, ⟨12, []⟩],
  [.call 741 [⟨0, 0, []⟩, ⟨1, 0, []⟩, ⟨2, 0, []⟩, ⟨3, 0, []⟩]]⟩
/-- `glms_project`: include/cglm/struct/project.h:113-119 -/
def f_glms_project : Fn := ⟨[⟨12, []⟩, ⟨64, [.mat, .vec]⟩, ⟨16, [.vec]⟩, ⟨12, []⟩],
  [.call 742 [⟨0, 0, []⟩, ⟨1, 0, []⟩, ⟨2, 0, []⟩, ⟨3, 0, []⟩]]⟩
/-- `glms_project_z`: include/cglm/struct/project.h:136-144 -/
def f_glms_project_z : Fn := ⟨[⟨12, []⟩, ⟨64, [.mat, .vec]⟩],
  [.call 1480 []]⟩
/-- `glms_pickmatrix`: include/cglm/struct/project.h:154-160 -/
def f_glms_pickmatrix : Fn := ⟨[⟨8, []⟩, ⟨8, []⟩, ⟨16, [.vec]⟩, ⟨64, [.mat, .vec]⟩],
  [.call 744 [⟨0, 0, []⟩, ⟨1, 0, []⟩, ⟨2, 0, []⟩, ⟨3, 0, []⟩]]⟩
/-- `glms_sphere_radii`: include/cglm/struct/sphere.h:30-34 -/
def f_glms_sphere_radii : Fn := ⟨[⟨16, [.vec]⟩],
  [.call 745 [⟨0, 0, []⟩]]⟩
/-- `glms_sphere_transform`: include/cglm/struct/sphere.h:43-49 -/
def f_glms_sphere_transform : Fn := ⟨[⟨16, [.vec]⟩, ⟨64, [.mat, .vec]⟩, ⟨16, [.vec]⟩],
  [.call 746 [⟨0, 0, []⟩, ⟨1, 0, []⟩, ⟨2, 0, []⟩]]⟩
/-- `glms_sphere_merge`: include/cglm/struct/sphere.h:61-67 -/
def f_glms_sphere_merge : Fn := ⟨[⟨16, [.vec]⟩, ⟨16, [.vec]⟩, ⟨16, [.vec]⟩],
  [.call 747 [⟨0, 0, []⟩, ⟨1, 0, []⟩, ⟨2, 0, []⟩]]⟩
/-- `glms_sphere_sphere`: include/cglm/struct/sphere.h:75-79 -/
def f_glms_sphere_sphere : Fn := ⟨[⟨16, [.vec]⟩, ⟨16, [.vec]⟩],
  [.call 748 [⟨0, 0, []⟩, ⟨1, 0, []⟩]]⟩
/-- `glms_sphere_point`: include/cglm/struct/sphere.h:87-91 -/
def f_glms_sphere_point : Fn := ⟨[⟨16, [.vec]⟩, ⟨12, []⟩],
  [.call 749 [⟨0, 0, []⟩, ⟨1, 0, []⟩]]⟩
/-- `glms_smc`: include/cglm/struct/curve.h:34-38 -/
def f_glms_smc : Fn := ⟨[⟨64, [.mat, .vec]⟩, ⟨16, [.vec]⟩],
  [.call 781 [⟨0, 0, []⟩, ⟨1, 0, []⟩]]⟩
/-- `glms_translate2d`: include/cglm/struct/affine2d.h:39-44 -/
def f_glms_translate2d : Fn := ⟨[⟨36, []⟩, ⟨8, []⟩],
  [.call 788 [⟨0, 0, []⟩, ⟨1, 0, []⟩]]⟩
/-- `glms_translate2d_x`: include/cglm/struct/affine2d.h:53-58 -/
def f_glms_translate2d_x : Fn := ⟨[⟨36, []⟩],
  [.call 790 [⟨0, 0, []⟩]]⟩
/-- `glms_translate2d_y`: include/cglm/struct/affine2d.h:67-72 -/
def f_glms_translate2d_y : Fn := ⟨[⟨36, []⟩],
  [.call 791 [⟨0, 0, []⟩]]⟩
/-- `glms_translate2d_make`: include/cglm/struct/affine2d.h:80-86 -/
def f_glms_translate2d_make : Fn := ⟨[⟨8, []⟩, ⟨36, []⟩],
  [.call 792 [⟨1, 0, []⟩, ⟨0, 0, []⟩]]⟩
/-- `glms_scale2d_make`: include/cglm/struct/affine2d.h:94-100 -/
def f_glms_scale2d_make : Fn := ⟨[⟨8, []⟩, ⟨36, []⟩],
  [.call 794 [⟨1, 0, []⟩, ⟨0, 0, []⟩]]⟩
/-- `glms_scale2d`: include/cglm/struct/affine2d.h:110-116 -/
def f_glms_scale2d : Fn := ⟨[⟨36, []⟩, ⟨8, []⟩, ⟨36, []⟩],
  [.call 793 [⟨0, 0, []⟩, ⟨1, 0, []⟩, ⟨2, 0, []⟩]]⟩
/-- `glms_scale2d_uni`: include/cglm/struct/affine2d.h:126-131 -/
def f_glms_scale2d_uni : Fn := ⟨[⟨36, []⟩],
  [.call 796 [⟨0, 0, []⟩]]⟩
/-- `glms_rotate2d_make`: include/cglm/struct/affine2d.h:141-147 -/
def f_glms_rotate2d_make : Fn := ⟨[⟨36, []⟩],
  [.call 797 [⟨0, 0, []⟩]]⟩
/-- `glms_rotate2d`: include/cglm/struct/affine2d.h:156-161 -/
def f_glms_rotate2d : Fn := ⟨[⟨36, []⟩],
  [.call 798 [⟨0, 0, []⟩]]⟩
/-- `glms_rotate2d_to`: include/cglm/struct/affine2d.h:170-175 -/
def f_glms_rotate2d_to : Fn := ⟨[⟨36, []⟩],
  [.call 798 [⟨0, 0, []⟩]]⟩
/-- `glms_ray_triangle`: include/cglm/struct/ray.h:29-38 -/
def f_glms_ray_triangle : Fn := ⟨[⟨12, []⟩, ⟨12, []⟩, ⟨12, []⟩, ⟨12, []⟩, ⟨12, []⟩],
  [.call 785 [⟨1, 0, []⟩, ⟨2, 0, []⟩, ⟨3, 0, []⟩, ⟨4, 0, []⟩, ⟨5, 0, []⟩, ⟨0, 0, []⟩]]⟩
/-- `glms_ray_sphere`: include/cglm/struct/ray.h:60-68 -/
def f_glms_ray_sphere : Fn := ⟨[⟨12, []⟩, ⟨12, []⟩, ⟨16, [.vec]⟩],
  [.call 786 [⟨2, 0, []⟩, ⟨3, 0, []⟩, ⟨4, 0, []⟩, ⟨0, 0, []⟩, ⟨1, 0, []⟩]]⟩
/-- `glms_ray_at`: include/cglm/struct/ray.h:78-84 -/
def f_glms_ray_at : Fn := ⟨[⟨12, []⟩, ⟨12, []⟩, ⟨12, []⟩],
  [.call 787 [⟨0, 0, []⟩, ⟨1, 0, []⟩, ⟨2, 0, []⟩]]⟩
/-- `glms_aabb2d_transform`: include/cglm/struct/aabb2d.h:28-37 -/
def f_glms_aabb2d_transform : Fn := ⟨[⟨36, []⟩, ⟨16, []⟩, ⟨16, []⟩],
  [.call 836 [⟨3, 0, []⟩, ⟨0, 0, []⟩], .call 705 [⟨3, 0, []⟩, ⟨2, 0, []⟩, ⟨4, 0, []⟩], .call 835 [⟨1, 0, []⟩, ⟨4, 0, []⟩]]⟩
/-- `glms_aabb2d_merge`: include/cglm/struct/aabb2d.h:49-60 -/
def f_glms_aabb2d_merge : Fn := ⟨[⟨16, []⟩, ⟨16, []⟩, ⟨16, []⟩],
  [.call 836 [⟨3, 0, []⟩, ⟨0, 0, []⟩], .call 836 [⟨4, 0, []⟩, ⟨1, 0, []⟩], .call 706 [⟨3, 0, []⟩, ⟨4, 0, []⟩, ⟨5, 0, []⟩],
   .call 835 [⟨2, 0, []⟩, ⟨5, 0, []⟩]]⟩
/-- `glms_aabb2d_crop`: include/cglm/struct/aabb2d.h:73-84 -/
def f_glms_aabb2d_crop : Fn := ⟨[⟨16, []⟩, ⟨16, []⟩, ⟨16, []⟩],
  [.call 836 [⟨3, 0, []⟩, ⟨0, 0, []⟩], .call 836 [⟨4, 0, []⟩, ⟨1, 0, []⟩], .call 707 [⟨3, 0, []⟩, ⟨4, 0, []⟩, ⟨5, 0, []⟩],
   .call 835 [⟨2, 0, []⟩, ⟨5, 0, []⟩]]⟩
/-- `glms_aabb2d_crop_until`: include/cglm/struct/aabb2d.h:98-106 -/
def f_glms_aabb2d_crop_until : Fn := ⟨[],
  [.call 1507 [⟨0, 0, []⟩, ⟨1, 0, []⟩, ⟨3, 0, []⟩], .call 1506 [⟨2, 0, []⟩, ⟨3, 0, []⟩, ⟨3, 0, []⟩]]⟩
/-- `glms_aabb2d_invalidate`: include/cglm/struct/aabb2d.h:113-118 -/
def f_glms_aabb2d_invalidate : Fn := ⟨[],
  [.call 812 []]⟩
/-- `glms_aabb2d_isvalid`: include/cglm/struct/aabb2d.h:125-131 -/
def f_glms_aabb2d_isvalid : Fn := ⟨[⟨16, []⟩],
  [.call 836 [⟨1, 0, []⟩, ⟨0, 0, []⟩], .call 710 [⟨1, 0, []⟩]]⟩
/-- `glms_aabb2d_diag`: include/cglm/struct/aabb2d.h:138-144 -/
def f_glms_aabb2d_diag : Fn := ⟨[⟨16, []⟩],
  [.call 836 [⟨1, 0, []⟩, ⟨0, 0, []⟩], .call 711 [⟨1, 0, []⟩]]⟩
/-- `glms_aabb2d_sizev`: include/cglm/struct/aabb2d.h:153-161 -/
def f_glms_aabb2d_sizev : Fn := ⟨[⟨8, []⟩, ⟨16, []⟩],
  [.call 836 [⟨2, 0, []⟩, ⟨0, 0, []⟩], .call 712 [⟨2, 0, []⟩, ⟨1, 0, []⟩]]⟩
/-- `glms_aabb2d_radius`: include/cglm/struct/aabb2d.h:168-172 -/
def f_glms_aabb2d_radius : Fn := ⟨[],
  []⟩
/-- `glms_aabb2d_center`: include/cglm/struct/aabb2d.h:180-184 -/
def f_glms_aabb2d_center : Fn := ⟨[],
  [.call 867 []]⟩
/-- `glms_aabb2d_aabb`: include/cglm/struct/aabb2d.h:192-201 -/
def f_glms_aabb2d_aabb : Fn := ⟨[⟨16, []⟩, ⟨16, []⟩],
  [.call 836 [⟨2, 0, []⟩, ⟨0, 0, []⟩], .call 836 [⟨3, 0, []⟩, ⟨1, 0, []⟩], .call 715 [⟨2, 0, []⟩, ⟨3, 0, []⟩]]⟩
/-- `glms_aabb2d_circle`: include/cglm/struct/aabb2d.h:212-219 -/
def f_glms_aabb2d_circle : Fn := ⟨[⟨12, []⟩, ⟨16, []⟩],
  [.call 836 [⟨2, 0, []⟩, ⟨0, 0, []⟩], .call 716 [⟨2, 0, []⟩, ⟨1, 0, []⟩]]⟩
/-- `glms_aabb2d_point`: include/cglm/struct/aabb2d.h:227-234 -/
def f_glms_aabb2d_point : Fn := ⟨[⟨8, []⟩, ⟨16, []⟩],
  [.call 836 [⟨2, 0, []⟩, ⟨0, 0, []⟩], .call 717 [⟨2, 0, []⟩, ⟨1, 0, []⟩]]⟩
/-- `glms_aabb2d_contains`: include/cglm/struct/aabb2d.h:242-251 -/
def f_glms_aabb2d_contains : Fn := ⟨[⟨16, []⟩, ⟨16, []⟩],
  [.call 836 [⟨2, 0, []⟩, ⟨0, 0, []⟩], .call 836 [⟨3, 0, []⟩, ⟨1, 0, []⟩], .call 718 [⟨2, 0, []⟩, ⟨3, 0, []⟩]]⟩

end Cglm.Acc
